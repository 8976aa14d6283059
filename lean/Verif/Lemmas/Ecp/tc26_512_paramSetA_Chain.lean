import Verif.Lemmas.EcpTable
import Verif.Model.EcParams

/-!
# Doublings of the base point of the curve `ec_tc26_512_paramSetA`

Generated by `tools/mkfiat.py`.
-/

namespace Gost.EcpChain_tc26_512_paramSetA

open Fiat

set_option maxRecDepth 1000000

def chain : List (Nat × Nat) := [
  (0x3b89dcfc622996ab97a5869dbff15cf51db00954f43a58a5e5f6b0470a132b2f4434bbcd405d2a9516151d2a6a04f2e4375bf48de1fdb21fb982afd9d2ea137c, 0xc813c4e2e2e0a8a391774c7903da7a6f14686e98e183e670ee6fb784809a3e92ca209dc631d85b1c7534ed3b37fddf64d854d7e01f91f18bb3fd307591afc051),
  (0xb7bfb80956c8670031ba191929f64e301d681634236d47a60e571a4bedc0ef257452ef78b5b98dbb3d9f3129d9349433ce2a3a35cb519c91e2d633d7b373ae16, 0x3bee95e29eecc5d5ad2beba941abcbf9f1cad478df0fecf614f63aeebef77850da7efdb93de8f3df80bc25eac09239c14175f5c29704ce9a3e383f1b3ec0e929),
  (0x5b2793de0df8322adaea625e1f04c04bfcd1903bdf0ad18686b58c83a2eaad3574f01bcc858df68d14b2321dc8d8953181b81191c5f1f388bcfff668e6b965d0, 0xc9c3b91d19caba38175e3b7f85af0c96d1c2922e81d1a90fbf9f53ab35db6781d9f5bd212f19604a93f387c4f84f35c21ff095a0a9bf2476b4a4e8163f21fbf3),
  (0x820417e50951c4b8547431f9ac80a27f0d2dd3fd18cdc7daffdef7ccea1465c5d49f5774476a969ac4c0fdf8df0c8a9914bc25a595cb9c9e1e84ba3d2f0af6f9, 0xd20ef58bc28f3e275b0878619743a94525a2b5a6d8d615382e55fa01506494a88cd58f6990aeb9244f1b8a9a65b75f7290d212a4a8bc987a8514d9c6bcb68503),
  (0xe79f88dc77a089e3e0efa9fcafdf2cb142885f8e2b4e7109f86abf9a8b8f5897142837b42c47c53aed8d29a987f330cb3d3f9dc20466f5a9da8a19195776782e, 0xfb962470e9925d8d69401610cf8e3ba92220d37c4f51778d98d3bb40e52ad17fbb2f18d348002aa98d5a7bb2b836e05cebe17c457dbf36ecbec71c6616aa7db3),
  (0x37aea442d8764ce12770c6611842af5641bad57f883afced30e6ac4507256cecb9843180e14633b00e0b85c71fb324444555c50a73705e03646ed4740474608f, 0x84f6d0a40f68cb004c3a37ff4e0f7688675a7a42416032975734e39cdd694eaf401e5287d89f6de4f4b7846d28b41a78a8bfd2392ce291b279ac536bda141eb8),
  (0x5a02ed4c8403c83900a268a7af3da2a0540a5b3ea521db382e4376480d6a86c52da653b28e93a5fc91eb5abaf2d1cba952ff06d4e8feb2c24e2c0dd0767caad7, 0x785754d2ca607fbcb0c1082d2b1bbf3b3a20e789c90f39b7722ea6b616b0565d4eb7bb51cf9261f1db4ba3a325b791cbf00cdce648104cc5674488daf07cdf23),
  (0x2a7fb455fe8f2011b75ce5c766327fec08071f6f1bc3c36a6ed7917be4eb0ae6ae789dde17b1b733beb2f496fa24bb81455abb065ac6af9cbe9b1bb9db3ed820, 0xdc5d8ab551c3727f719db4b36e385267b282153b01d0a4e8895bba8ec151f28155c0e12e73b153e6ef4896be1577208064eda3b6d4565aa6445c0d49c4617e40),
  (0x19f689b0a1524bc46e1ee81d7af6e24eb2eb36944a7fc7f254739eeeb64aa68e871a38ecae5f994a492437c631c1d7c827b71229ee341224a8eae31875b9c563, 0x2eefe3c5bd53fab2e09b63f3ec0ff8efd640d23031d78b33f5a240a9b9f393c9affa0749c7b803794721e1f4a289c3825a92a2b21654eef83cc40946b032a2c0),
  (0x13ddae78415ee6880aa41ac6b8e3f913c33a4725293c5c32ed8cef72c304821445bb02d0bcdb75091e5b7822779fab0579dc8dd51e8663226d2d597d0faf0188, 0x8102f9a1d53ac4682e72a1874fbc80cece5c60046a5627a4bed781967daf1b372d315d06a08b95b3bf08b0304263433cd488aa5b192f36b649e1d0f2a853cd0b),
  (0x5aa2d3d94840db6fa6500816ab7632469ecbcee2e1a13db5290c1ac3353c45e672cda3c8e60c285590a0a30e95c8b6ef1514be172ffd87f1e2bf206ab47962a3, 0x1d16193c223b7144a09477a6d86f7b84bfc66a68600b0ad0e930900f73bf5901998f86699d84b582491e5ae1bc03fe764e0402898566ac67a2a9d6cd4d9e34d0),
  (0xc8da3497ab44fd9ed1a46b5a09f1b3d9f96bac8c5a6ad34dce2ad369c72946dc5cc5e6223cecd3be666f5e471e8ff2288fb87f5ce37522ac1f36adaf11b1fc59, 0xf53f8c187b3a919697637365f55768284fa52211f6b046a4d845ee7fc5397bcd6b243ff670e8c89f07ea70d593eed0b8d53055ecd2804b1b7e84406491893de1),
  (0xd459f4170a84c7d47aa5533a8b133545198609c5137043a17d9912b2942be32b8f9387853a2dbdd9511eda12caed43a484b75ae7fa8c284ca4cc339e0f713c33, 0x83f7137ef73766b6b02df3d7176a7b0c406958da3506d866d98e926a7571b0b95da9ac2ee8251136246c203ca1d2ba7fb4d5de6f07d051fa6bd5f066225b888c),
  (0x8323f13b67636046832741c09def07c03e825fd917846f48b9d1ab4ad21088fbc5a0d968a456678123ac7856a70178595beaf211f5e509fe311b5985d36c7697, 0xb70b6f0c354c46b958f45f5dc3fe19cb110d2b9f99e3ad38a536e8afebf7870c2e7d4f068e595dbe74434d08256e1f33f8b88fb3123c01b800e9731a20ff978a),
  (0x17ff9cf73d4bd5cd797b06b10187ba7c99b2c892386e2067f9d16d53dc953b4257ea62044ed03ec8ab949b681bd159fd0d30ecb794674c39339bc44ee055d45e, 0xa98e6917ff40f21e4765833b37e540dc9f114acf9733bd7c81a4418072925f61c662516a05d7ff494841ee0577bc32c85f2e84ed32be706162cc868d1f9f39e6),
  (0xd6dbed2af5c1ef36cab05851d15fc668bc8892c270ef66672d07966c0d6a0f25e70f94091e0f5e6b2621d45c8b4335d59221c41b1492331c5ca912ffa0c0e72f, 0xfcec3863376081740fa6059b863adc03d1f12d05468c0592287abb640884b0d84453fe7426b9d24867e342ffd39116a71d33a15879dabce991dab24ea88e0b61),
  (0x43c04b4262d0f15fa48cf76cbb4e27aa89d017d1e9bf7d65ba2c633e13a5809e2a144ab6288b15b6c7a9877a39f140a6c2e6e9ce3004fba00078f74f0da71746, 0xa1d747851905222bad11c1d7558cfa1c97f1a1fb3f50a5590f0f402201841ce32f166f2b7766c54510ffc24e9fd0515a7f0e495d1f2f1f0383817fc4f40e6f8a),
  (0xc7b492d982276f1006422c0cbb0f6c96b275bd9cb56d0c588116736d8d015f11f822b9de06f4e13d8412d33817ef44cf5a9e872cff67c36e935187bcf75671ec, 0x826cf68b17282b266ffa528fc5a9d7668f34d539946fc1a4041f16d40b935dccf25b1d169287ad9968e2aebf7e1d11ef6f6cdba59f83458296b53efe1ca18fac),
  (0x94cddb2cc0df11a69d86494aa02ce2ce045c9ec7a4123d0be7cb9f62ec30f510dc08febe3fe1bef22c08fc5b05729645e343741c4c03bc18b616731f81aa650, 0x4241dc7a35054b528a081b138f8acd294a57e7b17a3182dccc882ff77ebe9d4044e10fdd5401030156895d72e452121277fea56f8c0047d7d9b3142477b9e1d8),
  (0x74dbb62a1b5f7e90e0e540972d17fcc459e0122d63763e45df0b4ea3fb28c53656c4621cdd231e0cf1109fdd8fd4bfc0606a0ab8b3f4bb9ea3690f5f71881a99, 0xd13740f238d7e8ca520f4d21f08dba57c630e7d29d8e006dee8feafc0e90190062abb2432e783b3ba7fc1b77708a60d42e70cfd132450b8d048991f4f5acf9ca),
  (0xa0b1c481015a1d109cfb6b5dcebb8fabeb75c5ffa9aacb4c14ec77582d21d74799fcc318ee862c644c8da6fbc42879b68177a052e9d01d0e514c13c5642cb868, 0x4ef85d0b9466683793fca99e0ffec02ff886a53002ea4e2c4c096e0fbca668df38c561f3cc862265d3137907327a45421bf6b0697c19aeea36d25f72742056e3),
  (0xd280cb0b0184baad052fc282f8b461393df579650a257b5fadf74b856454b2d88822520557d394e6480f9d7b00e1f36d0cd1e1471801c86c135adeb7080ae276, 0xc578e52bc855029f1a3937705bd241793adee66e2a61e1a42ae02fbd484ad702796a013dbb35c9b5adc8f897ebfb94a0be5a2466941e80a628d9542792300273),
  (0x2eb3ecd8a67572885d27874ef7c9d23de3ff93295ad9cd46f8f62aba4fd645d94be34feb1bdfd1582318677bbf7662abd318db4684104bea09c1d80d5b5f71f6, 0x523a3bd5b747b7e85c5da0896e1d31642c92006f74ca82bf8b299123526c0cb9beb2e83dbf1d7efd7d00b4ed62502205b03226cfcd0dcf3783daadc0ccce1539),
  (0xab3597f691e702db2c0d8675b0ea73d0d5faf72fabf9b64b725155d253eec1d8d27e921e34e32e25b2cfc0897c935022f9cbf3669219dc2694b4a9af5a0adad5, 0xef784d72266cff134cb9709d9fddb2deb9190e76d4d03283a6a5ea7d70005562f3c2a028b48dadc098acbe21ce6313f100243bd454fcf720cd0cc687805f5734),
  (0xfc146f97af6048f03e6180a9b61f595a7de129d2f43701b1f1f09f4c2172386e59e6ad004b513c519a2c9a93b318f2282980939c447809bc0ab00c05c6f2564e, 0xb02d06b93787a66f904ba9b522d22fcdf182d47496aa0cea8303da796d1419e325128fa7ed0a5cfe42cd4bbf66ae869f20b2e5c101915f03d26a5b09a7e8b73b),
  (0xe87fe86fc672aa937650af757306015481180262bd42c4c2ad33b5339b3aed3b8f8d8df2a450640a56fe407f3a14f27724cb4980a11b29f5ff080d652cd053cc, 0xffa04f8e89b901aa63ca3dc8d6b4a3b6927c3314afd241035d43d6fc19d8b0147dd5ec91ed9c1fef3af4821c196adaae129ad38b3fa0abbc88d892f176fcc982),
  (0xc9e60262587485742f17410223e102acb15acbab17c110d376e652bad71511eddfc0124cdf57c4d4d8abd7bd54fbbcb3ce340c8d99b471da68cd41ecaf6b8a6b, 0x59af7cba9b75cd394c709fd3c63b0796c5e733f30f3bdcb5d2863668a72d3cf30ee71e633acea07c4a0082122764cd8d88085cf3f7822b5d4824876e47bf3965),
  (0x13d01d4befecf3129b4bc67acc6ae91de60f17e9cf0bb25fd01249383894da4e103f77a55ccac3003879e9697a003a40450543487ed87a18bd7fdecfec9b005c, 0x21dc5091baa1c077c288b52edba202448051f3400250cc39de8b05b4cf176e0a029157f0b391c571a44153fd4463a0f380dc2ac1df0d16dacd2f875eaf1b235e),
  (0xf8da1b5decd194bbc2a5e696ffaa03cef93abc9ff1e95b3b13f30ebd096dd1bd86bd62d3ab30deb05a8b6068d110746694942befd9bec41b512c9773f9dd0b91, 0x1da11422653ed069a9581d46d0fcc1fd6341d100ace04671b4e99337f871d28e57e62852cd97ac423dcd5cfc0ccfe1f97662dec878bca885bc4265a690471261),
  (0xad0430232d9439b54a2ba9c3c4b5f965a514bdbee524b9b6c327bbda73650a09f86682da3878491e9da5216a741e43b76cbc716ae95337ff0e4a44acf46ba89a, 0x69280462a6c1b3d463a92d969634e49054a285d7acb9f55e2f95c28aa3631090ee1ae65d74c28a8ad7a20115ee8c21c5abee3aa8628f481656d56b508d491616),
  (0xd44bc64c4e6789e404ac643dcb42b8f2ed39350a5b4742d4c04550cdad76dcc6627661baed81c52cb97ea1bdf6eedfe0cddae247f4eb48debe7d064b12695144, 0x1e359ac18f8d4aaeb6741f044ec74db520aceaa1661013353e4fe75546093eacef89459d30e21db095e8267fda47f0373221b7bd40ccafbbce144b15437b2fb6),
  (0x9dc7f859734cb0ce6c285afd4afe16af1b5a7f1c55e353ecef6d00d1dd2f37bb8baa95c36a68ba551cccca9dfcefad9000a53082de96daf13ef38491c17b66c2, 0x66c52c7389d4105186ed88054809256b52e5dc2838ec935c789e2d9d9ace2dbf5ce1141c91dddb84a53003e658ab601bde12367175b67c28c4d16446e566687c),
  (0x4e828b73a9c0deecb35da03ea3d81cac4609799ec1a09a85f398c3f31d9eddfaea6af0e2f5a056e2f51be443ea262ab423a302583f54f5334a6960f4978464e0, 0x82360fd2b8df4ab2212af59afcdda3140d75e8ee010431e5f4b1d0ca4f0a79f9025673bf2a5ab034a1642ec54ef961f43f821c2328cef283b98ce6612dad286c),
  (0xfb2a4caf76b2b3c2a189a75f7a0b06f0d3f6e9063ee562a1009fb591b532beabdbfea7080ffc821a5d56da3d8557b294a164f7077379914507ad31a491fded20, 0xb28da3bd600da9766f125be052e0928e3de1838a699265c244df1d897e87295f0eb64bffb451a7b4e759fbfa582c0957d384a52d878991b7f9571da470766e48),
  (0xb0be5dabc4eb59bf7cb9207f85fa81fb3568489064590bb713934521e423132058605a16142e649d6ee1fe2274d36d5ccb5a889dd5b2c036e002ba3b810a6f1f, 0x56273ce64364b203fc9aa78d93b3dcc1d25de6b0f33507f85fb80326b5a600fc599b8cc73490bc53358d94dfc5cc8034124c28383156fd5139277e8236f56ce9),
  (0xb168e04e0e74abd59ffed237f5e865a0e937aceae31cc71794a76f2857294fba9dea5ffa443558308de867c9cd9c9734a2637ff7b08e040bc629322830b5254e, 0x982f663101c2977e3bd8537ae0f9db76a6fbe69ff35ed8e990490fcc49bb1b7ac82644e3f7acf9fb06ac20962354c91fe6a306899696587e7a5b0ad745c5d5cf),
  (0xa7ea8610f63afff3760181ca00b69d5604424bb17312baf9864e3eb11aef6401859d626114808cc44a7fe71e4aee705c04b7eb74fe34368528d62aac3854cc09, 0xad9ab609330d11732d2254937b275d27eb0206953b16a5a28681fb748bc71a1b3862eb3359653d81caf94eb4ea341a1df1ec8ff848ff27cf9a3800dec9325bca),
  (0x224d73cd891cf095d42fd0faa92f10d2edfcf8d162f042046d65f9033dd879b978a94ef77a13c7e11f12af368105e77fbb031cffa737de92bebe27a7750bbfa6, 0xb3dfdc2ce050ff7bdf1805f948529af3a31f6b39f4d33b8154e48ec1c36b9063168dab2e5882f748ea5a675d3edd80d5605edeb4f8f731b31711e86e3e6eb28d),
  (0x9d93a131369f3f45f8680769646e18558d28eee3f0eabb2c1c6f3a5288a0a5b97bc8c96852f3575bc9ae5a5fc9abbb3d910f0a0b849e5e493c4f493e66b78fca, 0x764bceba4e328793caaa72a7a66f835903cefdc66f28e2f9325595dd61f66ff8c2ea8e2b4a48f216426ecf3e67293b7dcbb816ad79ae5c876df48ed4474bf0c9),
  (0x9534954d7751a2c51a7c3749683b0072ff6619548901fad7fc36531f41a0d5f05b4f2df2780ff3cab8c92e4788cfeae8b77b23717f891a7843b8059d884d9da2, 0xcb4c38f120ee9cee1d31ebbbd3734e25da7efdf2533007bb4895ffb4d2de07d4dbeb3f4d3ff1b7148a49799fab1479ba157702d4bbe4af549fb7bf09f47ec303),
  (0x87fa4a21be8a5b1f1d895a470e0d8f3e2c22c0d58b375c2a70167fd26679f36def39a29a72f1f3e2ec6be10faa773df577ebf20a0fedb02e50eadce37a063860, 0xc38065d515595c34e182b97ed1e17935b3099cc1e716163c81f4854c3a4752d6a0196b6478779c62ccbacf2b19948667a4f4e3650ffed75fe00d8645b22613a0),
  (0xa0236d569c9cd530e1ffaa1a276a3720904bdf0f4a76c5eed43f8fe4fa19b04c6ceee380b4abd67a1f35f7d1b1f3902f4385a477c1c084c4f67739b25ca88455, 0x7e715fbb81c6c2cc657139c85f381f76329e2a6beb8f0718dc4f7abe1729e479c102bcff72f62f2c5a6d889b99bb59e9b0b1a3e64184530fa52cc9b625bbeaed),
  (0xfc44891565445e33c2fdbb0ae30a0b3a7a956818c6b5eda25dee8b4917e3675ae5caff31d031d853f29037e7f630e13a5990950115125d8af09d89731510b33a, 0x8cf28a47ca792c9087323dd1c2cc8801c96e40c7efa4bc134d95af09f15b4fab4029ea200c7c4b6d96594d45f613096e74ebb4e88e23439bbb4b29ea73c034bf),
  (0xeb03426a38b2f713429df50006a277cc44f161af2c794031df8d54677c2038453a8b3b531def69d1be0490340636649aa6a86bdf0e9f4a796cced7d28626dd5f, 0x5d4a232101c6856fd9b6563160de6a4a61b36f0779e75cea69c730470292bfb7dfae157a9ee715f44c7af97a35c582e6bc68edf1deb2bc9f6ac559fbb4f1123),
  (0xf6c6a73482f54dbf4bb6be67bf9a6b4fb5122ee79061cdc3e1916d02dbd918819fadb52ab65690e1bb481c4a179750966b83e9839dca1e0dfe97e7bc001297f2, 0xfd4f4a83814e3ac3259f1148153071cd095c44236f1357b637538ea59965637d5fabf68b20593d9221b3cda5c0baee266389db99d31cbd587f840b5c5b1d1125),
  (0xa61bec074ebc7ca78e25c38c01ac940cd0bee3f690ec431167f1f3e71232cff52d8612d3a5e66de17a6bf31399081eae6322a38206f8daf5bdcfe9976d40e64, 0xad8a53322924315b8f43ca4ac99fa40bd92fdce38f75ab6a29c8b3ffd47cef182c54e11f4c1b17d5c0f33d5fa0030325275721ce810bc66c88a8b4d13303825c),
  (0x1962fcd6fc89bf5d3536b2d734044e6467b81d9a8c1c3dfef07fc6a1b33b39a33198798d59143c1a98f6354e1610ccdad3c8dfbfcb11042c97b54939a03b502f, 0x951d75761996cdaf132741a2ae62d237a60c0d02c67a8f19d775cff3228a37163f383a649e1b6842f80adf35b1af08da8cc90a541246effb9857e884f19e2d5e),
  (0xc7f1ec72fa8a93b87667e4c1899802a066291f8d59cb032c6020d00996e03905e52c33da82246a70e1d234ac5d8f17887da9b3bf21ae1959440e271c13c8cb99, 0x3f474983bd0c17bd27687da239b3644f99b34e4eef9934a245530779764be8b4ded118b6207419bae557ca7f6e97c635de9853586f2536cb1d84dd1b27b3529),
  (0x90cd8155e673ca1bea0a0bcd45cbb8a6aaa8e0fa8a57357e1e61d905acb534bcf7b2a6e9aef91e823313e35baacd443b895830ec42019d086e8fc178f5cbed1d, 0x51076578a8babd5e9967789757b9bebba99467cf7dd75fd4cb89138948741862983f2b3b3bac5aa768002225ac54f01f0c7ee3b39f9b144913ef2a7f0bcc658b),
  (0x423785f0557994efe27c9da828e6834b189ba5e7cec60f40d7cc2d8b42da873fb15d956316bc9785df98c195cfe2b91ce15fffb0f79cee2f4d79697efb5343b1, 0xb1ea05053834784f8fce838506a795ec87e20f8ed2f247fa8f21c8fa49e8e7a9c07f1d5f411d091f8819c237fe90fa115f011d50bccfb9278c6f42f918beccb0),
  (0x6e9a5038d1614111cb4e1c723421b53f20e1d7e8bf6da35965df363bc8330522bf1cee220da5f6acc77db42302138e1f2b5ff35af880ade828af87ce1f81b360, 0xfeca5154ede3e0f2cbc6d033144c81197237dd9d9d591724bce71d35b9fa3c5c1eb03e59bc795396913273cd4a78aa18878e24cfc90296708cda861753409dc5),
  (0x7789b2a91c523819de7d7fceb400d12d08a3952de689b5824695142f8ea647b9865f2d592948af0fbe8f0d53f86936f0cf91c67bef55f13e1ba4ab3a86306767, 0x2826b9d8f62e8def65bb1eb3ecd4e822f4c97a59b1a46b15242e49431d132e3c7e9540a508b52e7330bf550f62d173e5a903eb8e9cba6bae855b90ec97d0c60f),
  (0xee274ced09a635cbbe7beaa15ef315ae0ac92c6cc1123adb9d6872e44969160e0ec2a431888b7dce20d5b0b251f21b9c751a3d5f8a8b522f98c19fce3b06acff, 0x5230917425b77ff354866f8506ea1a256de2c1c885037d2d9a3095530d8a6df7ac0a540b7939922597ebe133f710ba4aed98fdb1f650e172287eff208c755f40),
  (0x3d7694700ed9495659ae38d095ade2c01495c50b259124e234aa871e936d169a15288242cd89500fdae460faad72c1a250a296fb0990331cdf4ee69238372ee, 0xf0810284c3a84187d6de771cc26f8e70d6613eee2ebc10d476f8be086c9feedeb98c528f91f90f24a013cfa7c632b05b74cd263694eb126f0863906c1ad0c20e),
  (0xecf2adced8bf6cdcf9a378716f09ada5420ce8272b3c532e4a7835d7f5a11b532ae1d3f38d04de94f0bd0a745a2b4d4874c9a78415e9c1891187bb880b43ff72, 0x6d3e3ec79f37e5fa1b1bb0034f9580c95064bb22219c47ccdc44614cd15912b50d1d31c271d07e47f6734aeaa8bcc9950b30df603f833551816261fcbb05aca1),
  (0xfe83fb90207e3ca45d15dd4df8796e7e005c020856ad9bfe9a3cecc70a8e24c7b467737087c4f2cab385ba4c97fe4fa23d31d203b71a3c2933f33c74386b4137, 0xe2c204c86565988359b255f118bfd289c662c5452253269bea33fd2e1abc87ab60185525aec13039d56e1fc59dcd5256b636d607efff77745fd42479a3fe1c98),
  (0x203e368aa0648095dc02b25ac70fd8334092e9581efd74707915ef7b2fb0576ea30fbcd3438949cd046eb7f211a4c1a8b172ad0c52f58d24cd9deca43b168d4f, 0x1203113358eb8a72de800597d1023fbc1e65b3442efffbfecf3f6020eca17896b3361c63fdd3dce35ff17c6672b9a5864b6b58946c04eda08e4fc13ae57c4357),
  (0xa1c4214b8cb33da688dc8fbff7018450498ca8d15d91ba3b69a37a9381370d193611cce1737e2fe588b2acae434ddd2abdebdd5fa86154887942db89fe17f51f, 0xc0952cfc56b2092e405b3a1aae3a80cde0516fee0f0a7bab0b75c84a205d76b770ac20623532e25f719b5047aa8b119b77b88243065e640dab928075fd30db9b),
  (0x8b174a80ba425db0758387cf190166f0858b7c1acaee3e159e9a3731eacba034dacd30b39c0783232542b02a64402f1f24bf862357538b4259b7bf62e8815ca3, 0xa59962aabb7f80dd2d7e65b6fb7708acae257460c637f5c4dcbd31921b96705ac4b0f6e4cc73d7eb235c69a66e2fc84d1d30099d8e597e4a9a9edad48f379bc3),
  (0xdc74c8f59865b6c9994a1bf2f8f166614cb7d0e4988d5c64d17f518d3fe5ad53ae7714069842e5d33143e96f3821f7c3e084cd15ff2f751291301a8d4a81d954, 0xee922753473760aefd81426db1e4111d3eac18b7020a3001f1878c2509f2e63bda8b6609a43121a058285b31c3ce6c9c3a5a005f3b7367816f2600026d9470de),
  (0xca11d49efcd47c1c90220bfa6a3a58ec67449e0d0f07e5d4f38ef14e552b57a0af449e5b3d44c31fa94df4725b1dbc27088fb8bd07b9ab1662e40edd350a6e8e, 0x72828e8503b691e58dbda04f533b6b97681154d0be88f1c0c110d7056daf0696c8067f3fe47e33292a85a4a55e09934acf57ba1715e45acbf736226d660b1b45),
  (0x5687bc8d6b242bc98da3dccc9e7fe3f36761ec2e0bfa9e13b5127e4ae925feb446a09f369d55924e0cbf3c7367088fce1d4e22c40e47758b9dc92f54576097a1, 0x7c5d12d68fda83d5fa25a0876921b51a9b46ee9862402043f9165b9ea05b01a16574e2a7ec9c6c2e2b8ee500c6fd34088dd7ef26b410b868c8eaabc0f9032c5f),
  (0xf09592c1c2b12116c5322c9baede257b5b75d2dab7002e36b8aa7e78cb305a757ba9105ce05d066d3891389e38b64e55f7a0c48ea3ad8c540cd06bb21cd70029, 0x707a8c2b3f6b3559349e492c62bd7037dfa263e2adee7064a30a31a1ba96def4c37abb01bd4348f19914a83a9d5e32cfd145b3454856a50ceeb6293519ddd303),
  (0x1fbfc6f1e866ee25f65cd44b1475402f199e5dc3276fa3109fe96470589becea003e4f3392f44506482a8344356b5cc0302f54af890d932a95001625250a4098, 0xe768b37eddd7223be8b26719697c77db49dd635fd9f734c78fe22007ff584c3f354975e669032af5fbcc0aea26e7f742231d70db37b05e59ac305a843ae554e9),
  (0x24399257b0732e7522cc124f73b55c31a579a79e02f8eae4a022a032fad9bb195530c5cdeaac2648f5eebed6b64b61a0d0ceec5d03cb02fd8da68b6718f412b, 0x6e40166063568e9feec0009b75ced7908d15b4440b72f9f8faacae8fe26e2b83555e5cbaae428b1e51a36c66cd2854f4c2b440e448425ffee0e66264d86aad9d),
  (0x11ad2d9cfa2867ef03e2451ecd6a2cf3be183c4e54cf56ddf3a30c98308fec142570dde9ecd9558ee6c5caf8a1ff6c66afef89d9597d317aaf11cbecb3433422, 0x86ef7cf042a9592ef867bcd528fcb2567ac91de984609536bff11b25ef25dffbcc290fd8484a1c3164a182b6f12b32ee3870cb9cbf13a206d98d7491dd755a0e),
  (0x59a1048dee31f79eff3837808c81a672c15476e30f9055991f9a49ea5165a9681db2acdf14475614c504ddb659620c2b64d60b1e88c74d5dd471aa6fac93b948, 0xd89f20c696df2d56bcdb8268d57d52e8a829abcd83f354fee5268028691e5b9dee9729cef5be2fdd6ff42d7fedda87477b3edc90c0fc8c8af2c5c2eee939f9e3),
  (0x92ee6b4bfdaf0feee274616907328326a8a24c9644eed4f0de72ee0828e80f1465d722960a3a5621be5adb6c05eac138b4f375f05b398ad5ac217faad0167635, 0xaf5a2cbfe99a833800abb2d61e145a7d11db699c2b97ddfa7e3d1f555950cf4f9f6b31ad9427a36c02eeda6c192b1eadd1d269976aa2756dd1ad0d191a84b26f),
  (0xa5b5298a94c56072844b2ef88581e02bfba855711e9b81e3f78c3537fb00688e1bdb82082ad1bea194613aab643df8666280408c71a1a5205d5ab6989577ab4d, 0xffbc1e89b6aa5ca6fdc51a6d98d8ddcd83a201722e0b4715d9f827a052c48729ac1786085fce5aeffa5ecc68eaa6b0e006868fe3ac61e7cc8ee60bab1fc64c0),
  (0xa1327ad01f1baf23feefb00b04d5e6058f85ee59274f3cdd54a727e737316d523ac57add1020290931c6b0531f36bb91b5b22cdd75c12a489cb26c008a27f3ad, 0x1dd61b8953306939e11c8f3638bd77f92e2319672bbabcb582ffb9d04197e9eaec6f1da29a10d38c1c078be5c38a5d488903d72a11e977929469cd0ba883963b),
  (0xcd36dbcffbdd048a76180758daec1f93d82fc9c3c3c1c264132ef16d2fae57083e6e66259aefce6b1fdbcab1de7ef57622b9ef42fcf86c4a55a36b4cf909cf2a, 0x6cf764720bf2c5e81ddeb76102991c93e08974e9c5f8ee7afd67eb9b8023bf3086724eba80691bb71c303b67c759ba8d1fc27f4393203032b7b5fdbc397b116),
  (0xdc65e45257f2fbff074c85012c4939adab3e7537f70f7f63081a501d6f663c14d2f746d11a64766501385348555c978d51188b94b2faee0f107b48ad41e5d7a4, 0x6865d0b4c7b42f488db54774cecea18b5372fd4f5455400fa1f61510025ecfda3a117c18ce8e85aa15e143b6a52b2a24c3f0d739d6e185a118ea02172d29d5bf),
  (0x1404535d364160f483451a08d9b4666cd9dfd9d78183c26d5494a3d1f966471fd5203c3563b09015d8a1b9e7d74eaf09f8035362150e35c0a2e198d9b8525b5d, 0xe08501a80a995b717559908031155b514a9733270faf7de0e9687e88f66a1a3c52d16c4f22ea74cffe0aedffd1a3ba3dae2704bc94ed8116ff825b11e1235a2f),
  (0xf68245cfa27f12d8beec1c90974604c2ad4f289af57118d3f39be036f6df92f3cc15e692a77aacd5638f4d6b4731c36a59901e3e1173abcf66d7fa56d3f7189b, 0x3518d587546745bc9a6959ce5306fe21a2e411fe3430819d5d42d42382d921b800dbd890a3f9296106cbb3c29d3b6ffe61ed25ffb3fbbae02ad960b8d46666f2),
  (0x306c16aebeabe1b7ec4e9f68ae26091ce35fe4e425b9c4e428ea74703b998d92d4b6fd86db407adaf8859fe375f88a3778d71f69a31eeb9459c73b6b50def3b0, 0xee11965777ca94e259ca094262edfd8db0ac20c4040e98ea52afff4babfe24201cadc98a6f02ed8c96f540326f4d39b5943a41fda9295af093c179c27e5340ba),
  (0xf217437007eed093aed072dcbbee90e5542032cdcde173def41b3aa70ca27c073e1362da337bb578984b9dd4fad206fdccafc4d6ef35e478e73c23ede59e7d76, 0x313233e8b96314cbc7fc57bfdd5a16631a6377e412f9a07f8cba6414c2068c95ec9978b70230fe2df8af6f1d315f449de91d28dd59f717f9e580fb3795009d22),
  (0x31818395cde396e420706a55bf3a5e66b3f5b4413bb383aa6eeecbcd05424bf49171e1c6a999af39d53a4b1d7a8472017372f85e8235217044bfb65fdc4a69cb, 0x92d8a7104b1a0bc5259b67bdda3742f60a5631e1525be562d3e63d2c91f0a5b7a97581d67ad800b1a73e2ac96da7599b7fbccff1011fac2a0f4823b4fd1996e6),
  (0x9b75d00f12842d94210e1631be692dcdf1a31ac212bc84adadb6b46e65b2427b4aecfa8954f66bc30c85e9921a8fb33a69bf038e754447a115db5c7dc94b0843, 0xd8f6ebd6a50771c28ab909139a15fdff85febb77b53924560e007c89e110503b62e4842ceaf96c6c538d063ed522250094667065bbad35bd8ea469f126521588),
  (0x831ce6cfa315de4ce5056c6f7e70e1d917f2b593f47dbc6fc88c363c01bea2097a8fc419abdb8893bf2fc5479642d5d7fd9c9d47ad0e6e6e52109e7cf31b6805, 0x77cc048ae22d81b5fadc236bcd631fc10b2cc420ecfe54ef438c9255d96564aee05403e9902e5e36d40245044b8936f4daee7ea9d90cad248273423ee783af6c),
  (0x4b40da963693260fdfb65187fd340b2c423027b5daaa066e2e24ae3331b17e33d63d8ad312f06f6ac517f0e61f45a48fcf644c4d0ee4284639d46657355f212, 0x900df13e23337b1214cbb2fbedf3a906c8f0f08a0343ae82fcec6b9253967351d8bbc32d8df8a581ed3aa389de61385af2bdba22a6efa88ac2ccac8f2588f830),
  (0x4e5e67002ad595bc62fe8aab6dd9cbe13a27092eb5577301a6a485176517094bc3c5408fd2469fcb29fd8e49743f7673af595aae77f81e188562349fa42f6d0d, 0x1dd2753279e5c081d81e7bb531ec3e2fd44fd2371fc6b4722c175546e77b233ba566055d5cf4cdfcc69bdd50c426d5698653ffce9259e169054421779f1f03d4),
  (0x9428b1470ac601cf9565136884290f1a3c3891b829bbf1886ef6ca29c9874f8d5d362ec1b2722550de0c36d55b91415b5943e9659bcd63f8deadb108ded1acb0, 0x95e80931b455bfdeb8039524db3ce03a1e894d4c6e4ec7a7d96e643c503e04e843f8317c9cacd9058a495d42712fca9f3caced9023351879c020acc6bf263732),
  (0xca6869e7f78d80d8ee72ac51e8b9130859616f40fce53f531c51b9e29b81099f003f1c1ed62f3aa65695cf71687cb061ecc95921305e0cc3e5e738211330dcaf, 0x3663f6d29005a1f73252b083939be15eb633341f48e6f91aebb61e22df7e3a682a9c114f75c089b412224c73fc32ee1ea9ecb678140a18848b78f3ab959451df),
  (0x707a9572b09016d05f8ddd05322a03031b4636d235004e07fe74339e9413d51e9f89bfc28118c70d1cabf3689e510fc78190be2e3ee2d5a09620af64e3d2efd7, 0x24b4a42fb051b2bfd3a7bf0f20fae74ca03ff3834809252a65ce9d88da533cb30680d1e13888d9fd90c8786c8993d00c226b17f2f9e0314a8f3705c684d9b367),
  (0xae7b900c1421a29b91664efbbd49b5e30ea818543aba5cb796cd9680d45d0631a60b027aa445af7f2373069a8592706a461aaece4c75e5e03b0fefe30c64edf1, 0x6805146dd775c1b3c6d1744955d0035efe5818ad6e771ae0c22a24ef8bd9e09779252599df226a720922a95f603f0fecd2742af9b48a3617bc2cff1cbb66a301),
  (0xb6cdd898a2822ea1f0441f120fa11b0b3b53bb28d34ef1ebbc9bc22bddfb3e546768a4d627292fd3391ca41a95b488d5604fc0c851c0211db34a14d950b5a248, 0x9dbce605716b20e05212bcbf6490a5bca2fcd8ac2f019540a6a1a672c9ed22a12852f0407fc6dc633a9f348af9364e927af5f010e8e83d3bc494e3e4ed50b9e6),
  (0x16155b0dd14352c013b1d380b8228c655d58174375b4bf8e4147ac69c0dfef36dabbab86ea79703f316fc0a5124cff3314e9b8ff64a5ea26f159e514247c9a9, 0x2d8cb4fe7f60b083f342927da058e925ebd53d0f0fc21a48d204438c2cfc606d19ff1e65319e909d8c0a93e735587ba7053defdf7427e4df23d4ecf45adfc8cf),
  (0xd7448f4ef9f7c1812c4306a86dd4299590c93be774574a174e2ea0ea1e96378fbe61be88e03d3289d7c8c9099e9cbbb8327cf6abe6666a15adbda3f013025dea, 0xfa0d8d1a8a7e857883a7215c783a8128014b31c5c2e86eabf08b1d94cbe1818c9ec1a0e24e5f1a0fafb98a51e07eb13b77e44a4d6938cbcc9981a51ec5559c73),
  (0xc4399282eeb9d56fd5214b4ad3990c9863a3b6adbace5bc6fbfcbcfd8b8df68fb27422b8d2a1a1df3445c949761d3475de90098f7aabc62512b2e492535da06b, 0xddc7416b994b872e1502e2e3a9296cd0a8bbaf2e4e277dd987d59ee27b577fadc82007bff274b226d3c384223199c985c31ef96bf949bc57da5dece283cfbbe),
  (0x82a6ec2320434f438c50362307fac4c4c23e74c2114ec24c960e4c3eed2eb666179cb9734dea8eb2270508e22df1f370b63967a1d9ddb14d2df801d502c7c06, 0x109da85dfbd4c5df0836d6daccad11229987aee7d386fc069d2a784be4d7cd7b09ead29412a669b94528df75bd36df2d65b35d4a36608d3a46c73367a14d5e4),
  (0x30277ea4d536d097a6a753e78801609950b5999e91401ea47a289f4d805380d9c4f804686b1e5aa3f7eb51389c7dd53983b955344bcb2b04608415457294f9dc, 0xe1d86e2631be67677e2fa70b75b47e980b39c396060b736026c8d2884ae297ce45a361866eba690f7e89d0cefa019d005326cb15c5b2493ef3f636fa99cd996c),
  (0xcc0cdceb5f98fbc87c49d156ec4132f697f6babd6cd04078ddd5e8b1125728ef4e29dd0d66e2b9331411d54b1242427306d981ece55e32ef2fe2abaa835ef2a6, 0x7a7b09fd0d2bfa6ffcd6613ed2c652c431c1461765b02d5564819be7d22caef82c0aafc05506c84e6db34c3b0a59805855fef83ac0b956b0b421e1447364990a),
  (0x97be5da256a759eea3b4dc585cca240bb3ff924dabc04aad3ba6956ebdad362992cd5951847cc7e26cbb7a8bfd28126d62bc4466ceb0a7026028fbbcf93cecc3, 0xbb8efb7ab88bdcd0f380fa123cc1aa7a80d0e33210fdbbeec1f1f4f9aed80da91577e4e45cd5d528b37b59fd461def0efee7b839257f72faa14b4f1834d6a6a1),
  (0x6057482f45c49020a51a822dc5103618f09608e6b92cf21dfe729d842a0a678ab85d769562bf866bed8b82bf544765d9e09fd078f667d8c568f198cf607e1ffb, 0x320f4492793ca743e829ff8ab823d169ba34bc04ca490a57818e87a3ed68c934d16b014fede3127a62abbca31564d4438aac2d17abfa4babe1ac2ce99b50bbd0),
  (0xb6371309aec6b59ec3fbcf1b9000119e9fcd31faa8ad622ef757fa840908b548bd49e27d222ad622b01fa5e8915a26479a4c12270c28529fc15844164c871308, 0xf98fb016108d1ae66ea0f977e567bb9a6e62f9812b915a32ed99ebea8d150d28add64d57f9e5b881dadddb80a292df704e442f395bc494a4c17f7a28a524d148),
  (0xcea6f1ca64820f2888decf191e42d9ea3d5f86fe250afed7180fc7b7c63e7ead5000c4bd3ffae13a1ca8d4c6dae874e7ada8ee5c7721f161902f612ea27d573f, 0xfc74f7c5811de03d51748c000112e6ae0089219aa0b7490aaa3143d05f52411467d739ca322819bda1301f3034d8a22ff40755182daf4a4d568194c2c3bde1a3),
  (0x5b652157dd4553c96e156796a5d459fa761415a3b47cb5e77f6f6f250880556051869d96720caf0ef7d6b547e1d877aa1a0cc9e0bc5925fb6ae1bea19bfe1f3d, 0xe22a973c3dbc1641884f30fceb722fee921caad7f7cb1a76aa24ec4591c947e6c365c40260fdca8d3744d88ca7594f4eccfdfa657aaa8c619c7f5f710a8ba81f),
  (0x544f88e41d67b0b49ffc55125be89497fc9e632c06acd3c74105b9172181c8fcf56f800d8019b1a1cbad4c919e4cf0445666242381c13837144b9e91e9e8fe2a, 0xaa6cc76ba47a5426ff726012cf503f62a5847a94bec825bf2e216c6ff64e285c7b9f2ee477446b9f3793f71672f96cd82ffd281e3cd1eb06d30dfdc0a209a672),
  (0x93a26a7458de36ec35b1022a24c83854b4ebc630c204c7586882ff245e73a7fa66842900da98d66e6bd4b8607afc7389026b8087db281fd39e9b122975f2923b, 0xe88c375f571f040d7157d01ae3d796c1294a3bf857ffcbba5264c6e333f073c96eb5003c47e8d3c2f1eafb2b8b18bdf8dcb0b2d781962d3c3fb4a9fb47640315),
  (0xd505c65f38bcd36b51c199249de2c091b48f57b6db87a4b6343dc708d6d66ccbc1c9e854d88ea53897a0aaef453ed6b9725a05fc93034c92904247f93f2bdd27, 0x82811dc7efdcf13f590f1a097e314cd1b2ce74c8915425e3c2e7f887a21c419e17becb7cf5f03851cb8b172b4dd3a28098d333a19f0d4ae22502a35edd030037),
  (0xe2f9efa669d035e229d98cc77334cb9598d69ff2b722515cb757104aacc8870a2bf5a9cba506b4fdc2e00509b3b07ae179e74bef5b7f0fe2ad044b060ecc1378, 0xc9d5b1b388ae0086fa1d201afad219f83ec19f1f78ee570ea94967761742d7523e84b2568a254f868e12237ac9996ea6b1d5c8021b2d56e90a6eaff1b0d74290),
  (0xca8be23cbbd9e2471123d25a2e8aae9200b42c8c6c3e6a2bd3d22935c7028990842564d8ba34663b3b81ff0c6331fdc00145a0aebcdb383391db0e140939a66a, 0x3b399c4cb35bc05fbb511ec44ca067f2dffa8cf4691557eb1f41766907d4746fe7347321f3e907b393834678eb65be6cbe27858e91e2a49f0bf794d21fb15110),
  (0xd96a2f6fb80df2dbec9323e7da3f204034a7e1f9a60fdba39f5c993d730950c00168f475d0fa3bd2ed09ec991403754f0280a4cbddd386286248cf8be7ec0e8c, 0x8dab2caaaa9f0a6571b14ddbecc6bb038d99d8f7fa025f33392fc5ae5fa952546c4cba4d004b1d0e21a0b908f4c56ccc3e4f3af8177a6596050ed5819b0108b),
  (0xee497cfab2f397c0b3ac647b10f265f86bc59f8dc584fb0171f5062e43cc0e41f00840481bf4c4f132cc6fee6aa84c64414169d2fcb1f70aec80b3609cd0ac68, 0x53995664c6044222803f7fe5a9c729930b1dcc13711618c215fe5b50c1ed9b5233a3f6d08ce7f8912d47c3ed91a61235981f2915cf959116af008c9c1d4f4288),
  (0x2d10cfd5c1d3f42c05a2753a09052a424ee7ff13a46a5095f9f80788c4ab40a95940d78ae6d68cbe134931bbbc01afba465abb38f293b40db65e7f9610b300b7, 0xde6e4b9359593b3acdf48fe211393d3cc2419bd7a77e19c2e5d6494369d1373aa433bec9fe42e5386a4db56f976f3dfd2cf7f8bfbbe8614c722a5c6cac26f032),
  (0x6a4c563382d66ab427cee311421a3672d68f224afea7b0b944592836ca42eb6ce9c12c89c001d390a9b9de02abf3b872d91fb212ffc1481d817311259f53cbd9, 0xb60ba2ca525441605cc11480e9e530ad092254f7f6c9b7d4b77076b160230ee1debac430cbdf8b759287e36a625426d36d3dca5359be690378e4aaf09a960d05),
  (0x1d283fbb5071fc178189ba1331eddc757c9a44168d898bbbbf1f6a670e23448aecc98cc9a0f7687d394bf86ab058d6b3c447a66675aee1507f728ea18aa2c470, 0x5b99d7c0c247ad40c46b9dd0b5bfa07052c00c04a673f7c0b57e84ee8529f6b92ccdf40956d7f0947c30c91e0750a4cbc0ed7d16630ceddf1d81a216d5f33ab0),
  (0x990db4cac1954bfc0a40b3a6c2c6921d21c47dca6d9e00a34c5b02cf53c2674205c955c41c4fcbbe8a00e9857cc428bd38f3e175dd56af99f0844c2c7d32cfb4, 0x92f690f1bb671251341eab61024b73012351e3c3d070b279084b792c38d3018733f4ab064a80859f778f6423dcaba84fbbfcd7d6a79e8de8ee10e0a49fb750ba),
  (0xf8510e89205bbbfb7a1e24db9c03f42b130c7d12548bf9658bf60b1549bd4ae3ef242fe4368285137b88972874961cacf5dceb9f9afccb9bf01927122003fab8, 0xb486cd4b0fa804c94ff2be0f16e6e62f6d5de8a5a7a576f2f6d1703a0b9fb6eb14aa64f3ed4ac9454fdaf598151f83300c245d08fcee3502a6c0805306938636),
  (0xb71f3228fa859cd899b15a1b26e636053c56fa68d7b16d90d66eba9575bb768d2e7bdb1d6f2cf43662599b42df991b6f34e744c2071edce6cbb1951b9c5c8dd6, 0xc266deb2687e4df1c21f74779e43a16ac41933bae3b68d7f61f2d3bacc2da9e6151e8c2fe6bcaf8d1f09cb0b338175d9398cc3a675c941ebfc637c1d98772f9b),
  (0xb121a6964a64554e3010f6fba26d761cf28b5fa62b185ac8bd1746f572204db70f96051ecd9b9212f4b17c43ec074f5e6b802eed40f443f793cbc72a2a421b5a, 0xf1dc24ec8010cbee835334985e454265ad914738f2d33e50613fe0e4cfe8fd0dfa616b66ecfe67e7901aff9175e72ea81da7824da352e025b95a87b8ad3638fa),
  (0x6914cc9fb9c113a4612dded0d5149fee919b163aca57389fed11a99e978471d1eef11a138777f9e276a8e624765b5833af37d5b736f5fcc85fd6d43a87a61ca0, 0x3969b187edcf040abc6d6946cd06daca80326c0112cccc147de7882ef959e04809614c0b602f362bb64cdd487bcf5959093db516bb920b27eb33badfb3367f88),
  (0x8a255458ae4ece01e49e152858a4547ba06788ff56e513dd747a19917de893632731139dda49297ecc001c6fccc651aa8d782d53545a8ed055d18ec70243243b, 0xc1beb9af8287458ab3169a94e002ca1abc1ceb61abc2fc95f9320de607146e5b961d9e69baa69450267e82566189c5bdf05df8a3146785d586ec3cb96139903c),
  (0x113f09dde2f61239f744ead3189e385f0cc55b1578923ecd1a718ec11150707f367786c2df3c0206e28bc3e81455bae1c16d2b14a6eb01fd3f3c9dd13ba77991, 0xc2f8d4f562b14b83da644795474360b2a5e22eb4412efd91b0bda5c4d41518b3ed7849fe0808df5d8cb190ebae057a31baa969c7fee0013b2884227d9b6a7b33),
  (0xe7d49bfbfaca2c52e858b24c76360a0c45001306f1e34ac45ad65c47dd6826e8e2929de801e8c977530fcb91f475f1e8e06be8cdbbd1f6ee89193d40b348f6c9, 0x93b1076475865639fab59a8f4fa667f22db0318f06f8049c055a4683e8ce773c582dace1eb5ac1cff9539af396157dc1609a5af3ed06a4b099f32d09ca5d2b18),
  (0xbbc72556358bc56c84ad710e3217264389f7ea476993b8c8a89f81178dca073a1d71eb778725760b4d89c33691ac5aff07618998ef4bfb62c4eb3ef11b4746a4, 0x8b9168526d265c32438894441e62867786d63bab10c8fbd18a157fcf171143606d1d412e08901a77c250c03d2ab3c426ac881a26efa867857498e32b203f4085),
  (0x619b4b2169304451122bd931156684b9538333e998b8e3ca0cee10893c637c64e59b303dcc55487169d4ef1a9e4736d689b73c72c1a4dcdff31e4dacc3856c46, 0x62976f47e40a1d019e0be5471d656aff9a68b94a1574f90ae0f39b89794b7a8ab2a13cddb00a78bb37d028b93f7dad235e6653931bf1fac2440b5878aee9a75b),
  (0x73d19eab7800579a6ad055bea018681dbf6b43208f08fb0dda6f67627701496880f8b48797a76acba028e75d3aa488050aaf6b96020847ee9087c94b0413c3e8, 0xdddb74228dc44fe1791013743e64842ef6909340fc2721b343ab56b729aed01da5d5984469202e8506577fc5877fe0b846567a99ecb334aef3138803af7feef7),
  (0x1ef3bcc1a1cbdf84d0c38eecb142f4f9416f08c4e1732469bb6108fc98387a20b54582928dedfeac19e58442245f50c0a44849a44ebd5bf5e7511965b510d286, 0x6314bf877d10243301f9f45971a40e1132c5bc610f25f8a8c0bf961c7edebd058c1f6f2db0d45f6b3b3f5e27f492e2ae7b625303b2cd6b81dd1cfaabd041c81),
  (0xb300cbbace421ce9eef264365dff0a697a907548c528b8d375d2381e1203891aa01a887b76fa202a8edd5d9946f72e86b9ee2769ccfe3d1c0b57c8ec4958e903, 0x9359ca4a1b6cafe6a6c76af2265698debe2f049b98b13c05bd949d4c8dce777dcc0ce4e8c7647e625c858a013104f73c2e3cf7234f06ae5e253a5758881e87e1),
  (0x6975fe7bb5be631b2d405e463b2ffb395f6a2b56a49e6ffea4d8866e2c82cbae5959076c43f9a8e6925980f8489c744d3931c41338044985ef0817be06e7af3b, 0x3a0e1d9feb09df717bccb702378985bdb74de4b93b897bff3b9b268f15cd4139d34d7f7a1f109411fbe4c377079580a29ad8a961590921c42481d05934a2275),
  (0x61ace6576c7b69622f357ba770e0ddcd7414e3f4c21f3407e8c1db1f2f7cca3f57a9b15e057d08db4b1bcd18f00eb95941ecb246f5dd1f4410ce84d663b35276, 0x68f58eee2209a1666dd3492e369d86cb77ac3923913b01eb21a89dda22674dfe92c68172fd75d8e86a5f75a6d92205b268249ebc1e216a56115920f91c33ca72),
  (0x2a322bb72ef153319f5cfc59a30e381a837d354ca306f01d00623b56f6271c718811c86c092fa49d1efc48186b7bc04fd4fe68b7f49b664d4031a14448fead50, 0x74c806cd719cbc546c9ac54ea41d3cd12584927b68738f1346565cda0bc13afa4dce453dd5152303d7e4a6472c8f0f9a04ec0903df9bc24da475a0b083f8dcfc),
  (0xa44435080771c504c19a8c577495d43d11bb7f920800e72926570baef65cde8045e2c92a6f9cab39ad1400a05bd934941efc6097a4b175ac883235e8d0d0ff, 0xc11b417b1e76805890cdbc4791769caf13ccbc9adc3a16bc02dd0f1f7f46c9dc65699c6500a14b3659ec1e408e81d0ea126b7a9c02bccd027b4512d4e43ea8d8),
  (0xfab4e6948164b62938c76a801cc915c522dd693ecf38d3e6626f25d737bf26ac13b511d7bfdca8de82e812ae16068c5497eb50669ae4a280686f7ae71d02e3f2, 0xe77e43f7795e380b63ef69b8971624ba679396c43624ba3c713e89fa0559d4e0e87652d1c99a629eed70e655058f7d117a0479304c8ddce90aef999cc1162250),
  (0xdc983bc63b1261b05dfb6317baf94d415565ab16caa04f639819efebdccac76a455719e57555eac77f67d786bbcecf82530a9ac0d4b7fe05f243270ab27a6d63, 0x6f1dfc696864023873252da4b4a081d3ef6e5dcf881a4aff6e2c292c891dcaf31f1cb8751a3fa06b8be587661ca5af5252107cab79b33f4c325af4ca605eee3d),
  (0xea83ab2577f36e027a9d712df2da29be147d1fe0a1173bcf3edc92a3d6288855969000dd48f2f6bf809be4af0c523484067a0ff74a16642b1d5f79853c9dbf1f, 0x273be099ba2b2ae0faf9a6c54bcd69fcaf93e7d8fe7509a03a62b3787b5a7494c552694a38b621262bf81d84b9709362fe20f89ac6a91755ff1ecf2d5297137c),
  (0xce23ec44775ccb599fec81712d7c9d48eca63837e99991e4bad03657c3cf7f15f9c98cb84f1a41b6d600af7c38b63068e8c52ce1c384d3b2cd48ae6fdde7ac09, 0xa563ff67901f2df163d0ae8f0843461ca83f4e667135133aa7af88c7069bf36e1b1d82ae13535d644b3bfa9512960f26b63102d49a30421c37a05edbaa3da089),
  (0xb2c4d3de22fccfd4a617a3de9441e539a8f9a4ced8118f001bad1867b4c3678394329a3f49f98adbee2f3eb6b242b96acbcbfa444870667db27ffc83fc60066, 0x9c78e9750da9710c0451809fded27ca273437122ac2156c9b6d6bbcbf3a93b88c53283d471be2e4ee82f11291c0a8d757b16bb81c47b2126dd09628922305001),
  (0x9e980acffcf6795602f22e6a9bac3ba71cfa29693e09d19ed5b410dbe4c55892dc8e493b8d47898001da43099e28c6bdf8c83cbd530f1a90d7b3dbca87138e6c, 0x5ba3ed3c55d98094fce1aa495e514e80f36c36886e9e4d4480cce52e750d4af55e783009b31e8c9a917eb89a61b095e2bf380acfe571fb62e4ac160b144908d6),
  (0x3a958485680843b29a993eea6f3f14f0d485645ff94c7b97167ee7cc6fa4ca5ee2a1cb85bd8f814fe524dee827b57de394e203d0fceab61f692a2053a8bf1bbb, 0xed788958e070f38be2364ccd952f6ad9a516fd74d5510ec7e1f07dfbbd8dca49bec16d61932f780bc9d6ed6c7e22e2d43a4c7e70de7964da6a4464d3be10b0c3),
  (0xbc1222cd10eeedd35096f8ebfae45f8b1cc729360c62b017782c8182d6db00e77ec2357d0224df1c040981568ebf85610855aaaf2f54866a18451f86b05981cc, 0x6ea670c6a9aec688eb5a031a6062fb8c18bbc9188be6fafdae53f4cd1b7ba8b1d61ad2576451842f8d14e24a0814407ddb2259882a05cc1ead781835c76e7bde),
  (0x69433d70a1bfc0b883b4783b2bfad631a3922de23cf469f769a3e12d55cc34fc525a0a6972a46cb92d3e8d8f6b3a4c822a3014aee93baa07a0d4aee545ae043d, 0x2b98a270793579c42eb310744562fae86cdd2f44f5be45aff639f74b726ead036462b43ae41e56eded27bb30695ed899ae4c81067d1c784859396554c66bf006),
  (0xc498873d9950492a34d24ef781bb08c1cc35b930152331d5eb0ed861e33d003b126d592fde1f7693843033a1bb5ba028723324f592ddd2beb89ef225edd2a9e3, 0xc99f84851cc070a661ba86d3efc7982fc02aabcee65fcb78d02e8803e60298ac5c9fddb8d7379ca5d4a6c48272700ecaf93df4617a2c0b28023fd07e759c0e95),
  (0x53d6cbf5f88a5a00e84ff6fd6e9a831e7824f466fd2988f5d64e50e3676f0436b8b07ec12c6f53af0922c89a08ba30fe32306b772dfa2fce72563e38370db0c2, 0x2a02e632f994156d5e68278ac68f2b573ec3da28baaacec8fc27bb41aef4d9193ef9b5464eb238dbf43f97f772422869840ac64c39de3e07ffb92b63e93f3525),
  (0x6dcf0eb7d482448c4d76f5f299b4c0420f165a2ccf38c990f5582544fb436c1e59dfd9de7d00913f7dee81702efbdf4dd8d3a58dd6cd358eaedd40f916147d77, 0x2d3508937714d1366ba643eab6f89cbb529056420a9c991ede146f0e2a647a76dc1d6bd5a213455bb95326cb2445b7b9475787abbd0fff10318e6afcac8a4669),
  (0xfcf3f59aad66a4cc8da8e1553c372bfd0c762071bdf4be51bcee84b6703fa8e9bd8dfdb0e800cde079c372e793b116f439614bc5940d7ed36c1ebaaa5200f9ad, 0x29a2b9a13502f14f16905266be64d92a647227e1eead0691e9059651b2782ab01708b018e1cd823c10db10c94696bc477277af31a41e47435ec5bc3cd1603956),
  (0xd2f5c984c233f8d103411969c59c8843a93bcd405755fb9401ae481cb7f682da9b11aecfb4490e3558f5e9d847f3cb84def2dba5a247c87c40411584f0f4a67f, 0x8b4cbc96f43029d15b35b004aafa96e8e7a83f45c509e95acb6e0daee9e8a21cc8c0014d40a7650ddc731c1ce0e51453af2a07c86348a3faf281b9c4399d279d),
  (0xa4f348ba7f2a72498d6b3cd03e29d6e6cd59f9c0afeb811d7696405c0752538fbe504df8d3037ce815d9e23adcc8d47d64bcf8441ec27f1f828ddb8e513a347d, 0xb310da264ed06935480fc40a317a0c231053a64e8dd2ed6ebed3a0803bdcc74999008381de338e887efb85ef483f0cc908d63024d82d8b6cd0f66f2e48ebb729),
  (0x40df15d87a289000fcd1476b779e68a53fa45939586e7f2281c0ce960bedb0ee7e7de1e4d7a0c3f0bc042b04ac597fdbbc7ae83397daa8aad1ff8561c5a4799, 0x2bf2bcd9dd2651798d69e32c5fd9f7ae9fb65fc9dbd082cb989d15f1dcef12e9e1b5e15578ecfba16393d9d0173c35a8ee8228be28d2e81a9a6f8ce6c1d0975a),
  (0x92fd8e5c5baf958ef0830248515f2081db8fa7ecdc133302713bb2217d243c1281bd0f36d40424883ca8cbeab3b1dab6b064d2acf33b69663a168581514cd4c1, 0x6ec9de3e5083c8fb3d1f45734139650a3b9369c503cc424548732a50a7ee25e75a71dc9dd6b4bf4146e0b37657819fd07b20da317e9dbcf23f337becbf15c8bb),
  (0x52e310c5705a0dd73145a1c883bd3a3bca1280ed7f907d3159582efb80eca883099b97f5994bd3ec21a0a63704647e38bbe04d84784c7e8fcd3c6b4d1ca8117, 0xe7f2672ea6d5e45c14fabe6db3fae70f02b87b57a5d4e48133a459bbb1fe6f5d0b70f421be9143a3ae13b2b3cff5a51075140d8459935680e076dc12dc0077eb),
  (0x58aca9c34bd411f235203a520348e7baa5e945f4cbb231cbb5ca95ff7c007028ce54c8c47fde67fcb103b52e1765abcb9df0ad492afe3c07b8edca64f1bcf713, 0xdf3e4c366a3c1707af553c736750d26959b469dd65363cd06cc1ec57ce8430eb91067b9f67ae309e2aa4424881e367de7983f8ac5f9596fabdd414c6f9e18c77),
  (0x53bc5e8d8a337b00530e28b7a60a38fb4b2ebf458f477b7a0a2b8859f6f69967cbe81e74bbace441ad68f5a2c2fc779fe7a0b89a0d30e5bd170660497f3f8a09, 0x438c1857e9fa9e27c55293812b51e668dcd6ff2fd8e9f0e139004d2ddaef1edd07a2d60800cbde6ec4dada2bb8f8ef60a5f5c47438c4bc125879becb72068ae6),
  (0xfcf82bba0234e96494432eea42b007f7032da14e1792d1ad88b286cf452d4e168e6f94020e77a87c30000f4ec7ff31f0da46dfd0bec305cb1da7f4c04856c0bb, 0xbe1cbb8424639ae7f4eb75a2e48c682b226653d1ca5addb4b7404c9dcbafd8990df7a511ccf5b2c6299494ea36b570861ca032adf0a8b0d872c7cc4ed1c1d2d1),
  (0x1e6e8e3ad166651cb6821160f60d93886b606ca0138aaf4714a1bd121830dac0714e374629a98871aeba25971e104022e786879458f66904e63d83ad017138c8, 0xc5d37ac0df7f9dd4106739bcdc4b27302e3da49bd3221b0746c84978925e4e80463a973c568289420bb7f1b259f2bcf21a84f67fe69114556430f49f50367a65),
  (0x435f0f2aa4806b1f5e0c15070962529aef38c86be531de7870c5346c8ba435911c760d82a0e1b8bd32738dcb428aae33f9351743d7497f5ee9098bf5c60d8975, 0x1fa49756f4e37dc5613b548f3231483f43e5de4bd87d46014a9b4f27d3ae2e603187074d5be8607a1e38fd71c5c85e0313bb34f6b743c5ea3dbfabba621b7e6c),
  (0xe9cbed1ac95a1168fce4d293bfcbff9728f9e6848971731c846ff32ea5a7af935144ae2a7365ee26a04cac6e75906e002a651094c87b351c4ef9295b5e12f706, 0x32404e51dbede32c3b509a8c3b48f996e4d109cc69deac45df67748489d949e95fd8f31997e8a516405af76492994c32a5e6bc09d41164bc38b157591e38e045),
  (0x6a012c39e45b6889cfddfad4d1e896b3135014523b0cfdaa19e60bee174eefb8ea30cb4efed0a65361d878a9c2d4cf7df56b032fc602385074c8988679604516, 0xee77934fc9f07f4e3f063840bd446746b9ff771eab7d9433be376e675cdcf93014f7dada7885a327b8fb6112a76ed19cf0c94635297de0d1825d8fce25438e87),
  (0xa13bbb36edffc51ca1a6d6415ac3a6e614cdf43e05089170d90ddf011f0b6ab3c079cc5e0ed19cea9b7533665a27e3dddda68e058b4c7ed3a6b73dcfa4cc1f6e, 0x11ae147dec332ee4a2d03cd710cb97417ebab403a0d6076213771892dbcb80070f165a6ad020830c88c693e8df95b332b765bb91e95b1cd79beef415076c2f66),
  (0x4da4116ecc5af5c096696db022f13e24e29bc08c9eb8e7f809f81b26c6a25918fa06c159b1bea9fa268c53140eb5d3a5320ec172e7dacc48416166e39ec8421f, 0x506140d7178d60ce399c3d9f211b342c9e2e8999c0894430af46d9c8c127099c9c23f8f470f807277de877d7dec261cf987b3648fc853e6034006330cece03fc),
  (0xc71459ecb17d0306f0d0b33c9a975299674bca0432f7b9f752de895e61c38a30511192da031e46b78515e2f3917fb19922ce1f251cb7da4ad3832569774f7a45, 0x40ca0aa73bf85fbd5cd7cbbbec97b326f8318cc162bd17bb7d312c02923eb36a6605e68e9b69acaea14366f7eedcc7209c64ea8eec5ae4c771e6e76a54111d06),
  (0x329becb4296a6189733c1871a44748c6ae1d75ae2e1ed546f3be32004c672d177f28611cddbd378bddf7c3d40848bef77ce0b4b2f5c492e8b335748e95af7a5, 0x5e1f2e92463513064935d126b9f1eb6f0c8cbad8a68dc60a9a6288350324cd52d35a4efbdd4e72797a75f9482646e5983f92d28a889198af81b1480da6b03a33),
  (0xe89aa2bfcdf982b1e911350670c9d0247ecfb4384e30032676ef027d01ee6187807bfbf6730cc7b5cc668e7f6c9169843c89cab8dafa4aa8eb6b62a93bb22a9a, 0x709d065e85cf2d3a0f6168021fe2e4704553b0687054608858e87f919fe12de35889581a0e4b42fb2fd02bb9b0a4f6d889580e238fa5b574b9c6e78508fbc0d4),
  (0xccb7abd81b1fc656ad7585ca0cd2161007504684541834ee6930bc05f8db3ec4a3974abd538d935cf2075a8944b6042198bc9fd038b7cb6ef38d4944f5f154ad, 0x8288d0d766b0b9680371e0b711d3dab8e40e1fa9f8db7dff3ea50c4eb9c05b26d4e4e64cd009d07187a07a166799bc5f5d839f8dbdabdd96eaa4f623c221c863),
  (0x760d0a4b63f4c2c9dbd9de78bd7da20b37dc65d8d98c37bc751141a984b5ef10a702abc57fe1493d72f0f1b3322f17f2d74d8c2c659747bb829f8bb893cefaf9, 0xe2f0f046f4593cefb4710310cdf39d6aeb464d6c26a094a8b244c7f00a81ca6b860b7ba2f41fd19c1b3fa2bf4e7243581c626f11acbe1b94b8b4f2b40eb161e2),
  (0xff73a051808d7105c9757cd347de5b41899a218e897136e13959f09d7e5757a7026f692832e51588b6aeb0b4b5ae17c5aac9e95b810406cb2b16a9ea774cfe1, 0x9fb6a2f13f97fdcb5e00ba73640ee2a4908c0247861b35db28c925a9a6364c968a425481fbbf2df5c77031ca269a1afeedc7d283f92fb40c35258edcc3a95703),
  (0xd54756f93e808b964aed0d2a0e0bf7c8f2c6cb208eb78c7915d0ab63c93039a058ff2159f769785e81ae6c640c5f726eb6c1a70c6be52f241ec848e74e7bdf6c, 0xfaf84fbbf5cad074befd3efb5282194b122643e93343717ff07b8625545e5e27b77d564019b2379f437f28e2f5f241d74c12c392ea92e4c39e746e8c08a91345),
  (0xd21075ad9f420e3fd844893207a5dd22f2d55ce788ceb5916076a1a1ca5a528c7272de8166cf1ac4ee6ea66c9e1189bed61280b7d815eb4706ed67366d9ac5b4, 0x6631646f2dc6bb65223d980d9b4b609da4a4276d5a486fe623f6554617a069a5f2759fa8e352512882f012567cf08a6927cae15998211cc3b8bb27c8c0d812e4),
  (0x19f32c2eeb6b47cba2ab712108849f2b04ece37eb8fbc9398a6f63ea022151f4a78370ae02d6700bf31971afbd8bdacee915f8d31845163661d1e21b1e2ab5f7, 0xfa1a6f446872ffc5218792cfd9be43911fb9e99aa1cb7640ad19a2e722f2d2b84e5164c3264900978d21b2b175e96457ef0d0773ee96f569a7656b08cf597457),
  (0xa800b92b21f91eb5f6e1c4c75dcd3b1cbd37c22651a54a9b3a80885af2229b573f06243d4464c6e2dbdaccbcb420833d76fe306659ebfd0d0905df9dabd6ade5, 0x71fd6ff33bd0b8844b9ce60c2c0f8fd626c863011cc2ed34aed5a5d8d710e1ad68551879be211986ae7ea027660745ae0d51204d3c25961811ec3603ee5e01a5),
  (0x3fd033e6cdc1a2ae2ba1af45b00c3fc839fdaeef3bb9d8513a83f73fea6532227060e899856bd167dad56a346d8465f78c7ad4369053469006d5082e39c11867, 0xa619ee13c7ec5bbb32937d02ca2d80eab9e9a2e516ccf634cbaae722d9b77e327bd05c90390a160fd62e92928e23a40ee0ed109e409753f68a5eeeabd0f78b1f),
  (0x9bffea22fe7ae70566c44b6ab5f60e8c6a9a3d5c072994d5707d0b660ff380ad453140e4bf1735f5917d76aa445ef97528f2b75c37d5cae0dba9817aa448222b, 0xffcb19c79783c2cd94b9acb14fb57464af2a1ac126ec2249ee8c15bf53f9d379be4a1f37a0dae8a93b926afdc960f5756cbebe02ae390d191e8ebfac14ab4269),
  (0xf3dcf62d3fa359534f1a64705922ae8d3ac3cb08fe4c7fd66d96da8a09ff50a667f443e4f8f7ff764fd40a3d2d35d7ab5c29e7d073330adf5674de48c15d890a, 0x993e02f7545ec4d8533540766168ef3f36947770d65695c1537f7540e52abf12510c454d4d2d3d392cb9c9fb25e2885d3f65c9e56273af08f6147ed832434a4),
  (0x6f4791992ef9fe3f9ed48e13cb3e2cc69f31a76e6662b876f66c409c2cf3d8b24d7e7cca8012e695a1a13dd6726199f85a57ff438bb551786ddbad35f3523b9f, 0xcb51b82a3a04e5c7391eb80ea661dc13c751f383ebf7f8f88d71a0a52b561d74377f68998d63695e2429c5cd7c49a16a705a5450c28c353885c593948e5e09d8),
  (0xe2113d129d16511b75930ec54cde8a9109f8dfa3162e6f80b774cc2a0d7e5202a7ea231e2a19ad590f233facfcdc694a592be29ee5fdb1ae60e0f7074f6b25f6, 0x5de4b08dbd95cfcecd91ff52c5a3f0fae64927a9424b9550d7edd3871bd2ca56cd9692eb2b447e3fd42b7704615925a90f5c45b869e2513f2b96d86d9d13c64e),
  (0xf7cac3dfc282f190d6e7d27c19a7a92d955718461ef1b123ffe46e49e9b59165a2a33bf045ca2e6558c17e139b10d1201ef2a296e43b0e7a4ced3a1b0ef06778, 0xc22dc7b6e8a65d604fefcb1e4da21c1d33f9d9987cfa00dd487c0f47935e5653571e9113e9b74733d86291c6420f990107181d45c9cffa5f80f4319a4b0748a3),
  (0x1766906ac906d8dfeac6033738f718a16a3f225b2cfa58a8a0131f3ad6c8e1081f2096fa36fa3a4a5b8d17a87ab71a0c9fbbf5bbbd031b5bee3898312d877caf, 0xe8c3dd4bc7eef6321ea95223108d6fefbd73e412abd747207007af080e671f444476e050b9bf51963ac4d8a9805eba46b508572ed9a0b7e1c03ef06883af7ccc),
  (0x62a2180a60a645bca99df7237df2fe70c13b723f2cbcb1313d694a4bca9bc95174b3baee30e478f9c471f64fcefd5c8f5b4933c0c1c50d5acc6a577fa84cc8f5, 0x79fbda090f6c51b0f9fe63e4e8fdc833c436125fedfda5c5e045b5e90bb23027f3e499629ac776e256bdbfcde608c2cdb999e5ec43b02001639abca3c93ec0ee),
  (0x40e1c53e3795fcd2816e3d2268c759a53624b4226028ef3209c3ebef58c6638f40e201be0fc3ca5f7f5efa1134aeceb5a79ef9ba779838c029b83b233e01b3c9, 0xcdca18657c3e4db6d1be076ec67f7630a805bbf39be6692ecefd33afbf1dda8bbd6a48cc20c6bb9e9f6b034010ef5ad6d06244107e195f56dd3a15f52482874a),
  (0xcacd4bb2e1ab868732f71fac68f8fac8fdc2084ca8dc597ba67825a1a3ee5cc60accb04d97bb56bc9473d14099d25b4c9c3df5999e0a7e7a4eae901fe2d88c4d, 0x667c09b25c339ef777bbc4414c8ffc301fb46a0b6d52b680a951afffeae607091e26dee29339c385d89e5f23c78e5c9ebdc807345b4a7eacd6ad8676eed1c2b3),
  (0xf5bd5046df5a103030ce24070d5de63dc59274441cbfeef1a965477e01ff37a9d3a1d37d11ffb3377c8b7cc6b6ff7b04b9f5f128c3902cf314396968a6c2f690, 0xcc2979d3a9c9da917308a745fa6b836dfe831965ef0b97ec7fe8e7c687e22228234b2b7d27927d70773c2be5078493017718815785566adec1dbe753b990d923),
  (0x558ad109a9237a98195273dfabf4a8748e84cec7cf3b1d10c1f3328f7462c95b7cf20c5ca5cabe41b7f983d03be963962a37abfcfb0d26ba2c21e1b1bf5e3416, 0xb42ecd0a0a68395b37a112eec6645a295ea3d8fb5089219b327cf2ea503925aba589ff13eb06a06e67627fe405d4c190b32d12c9877dd9634379717e838841cb),
  (0xe0d6a62d7675c35080b0263edb57e7a6c0c809c02310142d8f7edd4d1db08d6042ddb1290d4bedb2a9f1146e7c189716d3c633d02ce876f799fc4f22ca44b4f4, 0xbf759c2295f816d4f422afec119f09944b06e18059f8e1e6a1f43f087e6abea2f97ff8d0d87aa7b677e87cbef5c73512025e1d02d9741f7ea40155e5d69541fa),
  (0x293ab3676974173a751b4f338b2a94dd3a3e91e702b4b67bf9285a63ba095085bacea856d8fd70c16ba661a38b7a82730556ec4967f4156a28e62dff8fa3eb3c, 0x963e009bcab8c6139e3849a243573d93a570da143c5e0e8658c20999de48d39970979cde118bfa9e2d974b3c3b79d0a811d7b32d5231eeebd1474bbfe09c8c4c),
  (0xb36bc02769989c820b22d2a6a6512ca1bc485ad7c35152225d61d4873071c5bd4963c9662a79c1b2658ae62821c9f94e2327d5cee9c7b31bd87357f8c71c9348, 0xc71991e36122071b2f3d5b8d4275780ab2b22e2e2be24f9e3cff6320c4bec3570a9468beb314a11063104d6fc08383e9e4881f4fc0167f7d0fd512a2864e7b15),
  (0xe88cc6642b1c197fffaddd02a3c01659360f9b232a61cf594cc935c3bdb57b7d86cd02a38d15c9d14a809ebfcbc399f67db1ca9c2f8d01b12211912617a1766d, 0xe9c346c9fa9cd8ab01bfb7cd2433cf001e9ebca7ccdacaef520b7060e156b9fd93687925d8315e7bf0318b89dcc72e28f75eba218787241971911210abb39ac1),
  (0x906d4ce3d48ee7eef257a11ec4f0e7b5e3c5672630e0806bbf7f0d0e5a43544fe60aed64bfb384a714336a9eb1e9439bfb27077b79500054a30dd7fe080dbaf3, 0xba9ae23cfaad45cd0e934eeaa6a4c455e7c0310f038fff8d4e76a18477014f07d34ecddc5553f60cc5d65dfc5f154fdd5d1e5fd38f6b8045ad35461277e02d7),
  (0x87e0a40bd1af60717cc723333a89d9b7dc89339e8024ce9ccf62d509a8bf9796b9d4161555043631f73a4a90dc6a596d236a5f59e68cb07371c473015d586c3d, 0x96714ce41ef5a5cf7132fefe16de900930c58d87a7585ca7db8e99796a5a1fd60db65f0116a755358145c5676964fe1e2c70aa901c3886cf816a98a7a85c921e),
  (0xc0ea2d2b72ea0c6590181a2dc642dc263b68aea61ad401de5a452876d7f4766d0a87d02f6c78724b0052da74c4a67920b1467b24d8a806ba98a4fd651b9c404a, 0x3af38df3caac67d8c424ed30a3f2be4e0c9e03434caaa29f19eb0f83c696b66855ad26d5b8543f1b48f2e49d669ee34f9fd30e0a6bba6e094668afe86ed6965b),
  (0x973e4a677a0c7ec75f07421db3944f612d92479671bc316410f69ef61b355a8bc8d1aaafd0234433dccd8e5f9e41c698ba93ef686d07755a74896c39290ccf96, 0xc6274c847917aa124ec2daeab46c8681f56f057235beb724008d54c84caf2715990bb2a3ba9e758537271be7ec311e39ad54f2515a8a70fa9ab2b32a6f378f4b),
  (0x6a16f763d6db6152125d372ab4bc3d561f4209555c0a9dd101fa2e92df5f48aef1a47e1032815243fc3aca76c4b2900b535559e1ca32ebc78e0c6a6f2bad93db, 0xeb4bbddf1bd6f363f53bcd87fbfe2d5d81dc5e488e9f8a0d2938d6418fc921c17725ab18c15a101ca1c19f9ef219d4b67052812e77764647290ce7745f7f0ed4),
  (0xb8fff9932fb40d7c8a63675c5849f9a957d99dcf55ce18b5e090de28ddbe8e859ecf7e165b97be2116641447d8bbaa048f19e3e7598928b7f57e9f512c2a829d, 0x1dd4b184e5f6bc2caf771d27a50619b672318ae8a14f883bde894bb95ec3b2fcec343ce1449bc07e8a26ab34bbd81e83c3edb0f538996dd4e33ff58fa56a0879),
  (0x6d15b7d5367506d4fd906974f8045e771d0095b8c79e59d393d51d5031e0ac4157a608a4d71bc47459531cb16c2209c9dab5357ae9d7a49327698f6725d323d7, 0xdd1f83f9bc130cd113990c7ac45747077884a85614c2e2edd7d1c2506a57896efddc572f882ee82b9aa561529eef347b1d9caf1336ff4051db8f08acb1419e31),
  (0x6b66a7fe32d169ec1f7760f0e3a29d88556bbd0ece714be6ef50556f643fa0a5614d4bf1d9be6992ac3c431eb4c16f4c9893e8446c70b7a4f3d5eb059f476d0a, 0x956b7abf3b8cc3ed4324a1868e777436d38f70e97047f4a6cf8854de80ae45c8668711e8102cdb9bc35c0dc3b35b6ec8006a07fd2ca059c2a8f39070ca4323d2),
  (0x72f20842205a910f92803d00d75b057ee517de9d8ba0a5ae81a5389d7d5113434c3f0a6275340ebd20612433dd27269f67da9b2ba926687328bc5ce2326cadbe, 0xe6e6320fc5f8c573b68588a63399f95598b1a39e77e69a3a263c6032f69f88ae4e9345ef4ffd858bf59ecb00faa48ecf1910b408d9e219ff5990c6eae6857b5f),
  (0xfe2bfb6b4b795cc551b10f8f653f1833965d80550d09798de1def5abb92c43da5f56a443e334754c7c802d01c2ea982d2278b9ead037ffff37844eb2b065cf66, 0xe6497aa76dc399cd9e39edb0467a70bf1cc368efe50653116fb1b359ca6fee341d93c32d42024c1dae532428d6aa7c362afeca35bc65e76677121d73ddf1dd65),
  (0x36ae302222236397264312d20d32e68920a7066470466b92ce901e6235f6e02cd06667ffe4f2285122cc6a4e4a8ae1d8723e7940bb23916d7c8a43e986f73b3a, 0x7b888fbad65ab3d2b70bc7af34159f1be0a090a2607b44ef0a42b0b2d1e7e2acea8498fa26e41ed82b40d63007b0469acbd34fb5b328f33ba30e9d879e83ca2c),
  (0x58caa89b55bdf851abb04e9cc8c65c1031690ac602c14622022b6801da7ede908d859ee10f192d529eb86d103db70e81faab6da1b85de520cf7ac8c929e238a, 0xf1ceb1d838f34bf8537b42473fa93a3077758f42aa15959970327dbd65862c292289eb9b0a5193c7bffc54432cea11edd0044fc9fd675d5ba927874242a0b3d6),
  (0x7985d944ad6d695f13a2ab17acf4ea5e9c602947ff3f4a714974a986a025206a8427d12979c9175bf8099aa4234da16cf248f0688ec2c5f0463d49ba3d342826, 0x8bc6bd6f1ae47fec1eed04e12308b33a345601b10aa96958710ce5bf11a38f29020e502617f8a567204fef7001e9308b70c9c0b095c5563c11f00dea2e4d97a9),
  (0x2d692a8f7b85b64c4818a626728f965c17e574f5c4bbf89dfe5a12bea81a2826e55bee49ef2a97f6d79fbef332819c4ea7630f9c75a929d667dbc86ccf256b40, 0xe81cc0e0ccbb3b0a701fb2e378975bde90ebfc7072d0084830ef93d40f92ecf113f262ce846f29b01a5220d8574f69217874a48d2a1e4f273cdc680384dc4ab3),
  (0x1e0adaafc68028b648661be70008c763f88af3c4626b974b2903b7298d1f8c4cf5fc1e3d6d73ddf32e3980eae8b45f4d05b5959c0e800b47a81745716dbee237, 0x2b174d4092105ca09dbe69080f59ca6b48f219c3c6a01ab9df56173f3d23b23634331c2f1901059e45b1bc1b64a18adc7ba1e626b424464c1f695980ed3b35c3),
  (0xfa0398f87d5c6369411877ac4154a3c54c27809c8078425ef1580b2dd44e3a4529ea66507c4f3bd5ee1ae3867b93f8def1cf9aa2b90c565931a6589e5e885818, 0x272938efe4e2d2d3ca97a529e26961d0a8bbe1e97fa6ba0bfc45b41c392beaa8bfb75af51f7d13003bab5374aa75ed3ab4773d2fab21f2e1e50a22af2825eef6),
  (0x5ddb2c9118617a876d5ec998cebf479111e07c46edf6d8ae155629691c13659c1464dc24c5eadbb435cf95a17005f68012218d2f6f01521ecd9f214c57297849, 0x4f61466b4c016b9930ac63a9f543f38f110a3a4856519b63108add70dac955355ae05819538df818a3b4038a3a41545c6616dbc55a7d22fa7df3a4b04ceca31a),
  (0xdec4ee94b4ac6ce787b9544ab88e8cda08538e7b381a28aa0bc79e129ce33ad73825dd3df0535b96fe8f5c44ba74238834d302bf5b4ba5655ac5d93b7110ad4, 0xc41f07463c226a892ad023bb2be819e48efcd0bb85f402cbb7d8ef29183f44cabdc83e7e753b4741ab2098c175d41cedc56a74cf53e6a57d52cf695c7a4f2e9f),
  (0xe6be7d73da5510f54476a47986482e26ab5f185b49b16d9717ad8a9365d5ed59d0cdd991704529e33d8b388ba9f9c473ad275f9c45a2825eee1e33e87f8b770f, 0xd8160af21e09e70175fd2e1ccb83ba77061ff5ae3e4746f051741a454cc853c14b8c09034a150f27d0235f15151854e3bd310f0a8857f8037cebbf03133cbfcf),
  (0x3b016e0a42220a9da6054d482a35d5e696234dfd0abfdc13e95ff614a7a5cfa0b30fc71ddbeae03ea077c7c96170792d45996e8fca4e702aa0e30aca20aedee3, 0x638ba88a9b74b2e8df2e590a0b0913a52775998972a58e160cf91cfad1237f857d1bca3c70c103532099d13cc1d5e6a1e114203713136be6439e82baebf49c8c),
  (0xc941534560bb494da41509764191ed6d5462e8caa65fdacfea34d80bbfd69f62f20a87fe5ecac35768fb6e0b88bf03f13263a040f6431d6e75aa96cbf0d011f4, 0xdbb8fb522f8fd3d7d2ae62c27a02728b3be54eb2c7b7c560c3590fdbf9b0346a9c5d82f211bac4f25a33e8dbee921e826b41d058c1c4bf402ae4d15f043f1cb9),
  (0x590503b68598e605d3177de0e1ba875ef9768998c6578be4d05530c5bd59d90aadda60794fec6b95261041345d0ea19709218ccfeb639efbf1eace85217b8b15, 0xa138d47f0c469830614aee61e391f74ec071a0a005a2e04a21b9dfee42cbd24810165ed242e62cd0e5fe1596ba4d886c194ba3430a0af458c3c76a4f92bae53f),
  (0x8cf9b87cec414cbe1c666e0dbebce82f837008bbdf6cb1b3734a22940af54a77fb06ee68e123ea7d2d712146012db420aad7907ad757b21866640f0fee5191d7, 0x4fddbc8baca4cec054f02a7498408c90f6aa17e7d67ca8201805532cc1a04cfae85623e82acf50d5c220a8e22ec1004f0ace260fad5b89dd6199269e81caea9),
  (0x826c9888b071106c50d6f7117f5a6fe514e66d73471194bddb8b49cedb439047eef6ce3079a58609f5bd138c370c1fde817fdce02632ef4b1b9d77cd8a8828e7, 0xbdcb1081b397bf3ed4c83efe7997700b6ad0942e893afed6f59265a5dd6beb425b88b92afb0803453a05d96d221270c8811c6f45767296cd5508b95db18cefa4),
  (0x5ec8f97e836bd8cde7ff556c4bf6a03c56332dc35a479eceaf8ab79ff05e6bf330cba4e082ec3024d32a8c73cb11cfd86332a32fb00774f9ca60846df6319eb0, 0xe19172c3db9dc3c343816e4c759168a31a1d7c958c0d03e1440d85491631d60b49a138ab2afd84153039fa27be47266832de283632c246790ec33c8e350e9cc4),
  (0xe617bd66d6f6d112cf3072338df6078484fa599b919139a6242c03ac9f330f114ffb2f4416ec75132920a09fc3f2627e0329d8e27dbfb8b4583624d28bfd47ab, 0x4b96208ead462983d8d37cc3cfaed32a5e878f1e83655f283f76c65fc0ae8e7cf066704a5e745df6bccf0beef94ea44038b9872bcf2d501efe1d5724765c4c59),
  (0x8160c3fe0f4a8971990d0504d2838c6e000e05bc03f440cce68a28d5be2830d6171e707fdae136a641c3c5252c55bdae9aac1accf7bd3c1c39b373c78c86d705, 0x66d28cef254ad190918afc75ba27cf3db4c8f55ba373442ba60169cff322960cc522fd98339f2fc93346f2636679189c3435eafa44dd72bdff5d4607dce95b71),
  (0xcae500cfd89b72e216813a2f58d7323383adce868e3ba0017fb55eeb61faeb034a21d9ebb79eb1b8dc15bda6a2fbc8ce4c54d05c674133bf46322e49360c7b00, 0x1fc34829dc4b9a323e185a97325f2b1054321236857713a1ab84be2606631ec60a5db6cc2167714c2f13ac2b62696cd73d168674d883d93e9f72adf5233688e4),
  (0xca69b7931da75d63313184ea117f0b51ee9db3a927b2aa351152084c64f8e31090f8b94115ba26492eea88cb387fa0d95e46a66f928b4170515d423177b11a7a, 0xbbff384934d3ceb5ca5969036854c0b779aa86f65c41997f24c778a53d6a376f461ac6bd618fa595c5540a9a49b75d5fb20e2aeca6efdc8bce434b09f57d5b24),
  (0x1d68def917bf1906ab960320079241521617dd712d97b5cad22389b4e9142e621783ae33f8f566bf33e2a8a12d1ddc3ddbca0d091915a1fe9324bb387f56e427, 0xc82154366b30512e0416f2849253bd85aee3a29c642b6ce43f04d0e66a40ccafc9f2d40c46dfcc7804b5b1587b6c5c772e345cb30cef0cf1e3e9e00a0367a768),
  (0x4ed3c0f360129107c23258c45ea2a745fc464dd19a95c15d4696469a7729930c26cd122a904c897dcb7a9672c3107f7b9ee2bd21432351693dc100b5840bc732, 0x3877b49467c3448fac31c6751b2e6d3df0d5faba33740be7ce6bdba11acbfbb9ec9e1d7c29dd8b36b1dabb5f44b7a1ab7ccd3e08bbac48344afa62349934ca11),
  (0xdff2957428afc61c96c50ab2d4100b23de0ddf42c512ec2c8c95f53759f214818e0a09623bb4e7fe10244da91d64158646c8eec919e75b1d33f369bc3afc8455, 0xd812ec6d1155e2a9b814881805f93a6ecedbf01144475491d154dc027e3fdb87c16a13b3c475f40a8ea4269d624cc5f5c8d8fe33176d715b7ba50795b2f693ef),
  (0xb869421778bf57db3289db1524b9f502d6bd9668ecd0a7ee41e5f6f9f05ad682300e8acbb3abd0316beee3ed61716458b57ffbd6356a67279045d5bf2201464e, 0xbe58d4278415a1dd09b2889c64485f559aeaf53fc7db8bcd430954e92c26a67f71d08a0c81e5e7c04fd40e1c096a12dc2aa74b98a5876086e18a7a2b97f6ba92),
  (0xe0580061c18b70fdc42e9ac4c7530f18d593e590cbb402254224652d0a4a02b5b8fa3293ba0b6e5b96adb6af24cc401a2c34cdc370552581a2c974710b66199f, 0x99f66e4e1fb7f809d2f0a3908050b90b54ebb664af2969bff2677b8a6adabf9c0655cca81656a4b7e4df949c04841bfad0452cdfc9dc5b0ae2ef3d46e4887a54),
  (0x9cba1412080698b5e4d1819fb7137981244b1c4bff62745a57f45f8601d3ef7a364cf2bb440923482a7ce96f981770d0180edde8dfc4a9f47fab39806c5932e5, 0x9ab52be65f77f1f9758f95b1c2d8cf0d51d7b5919b8f805f951a9531920f7ec906aecfc0f3979c11d5adff6f7d0294116f03d1c8460c5f651a55f5b43fcae84d),
  (0x7ffb00963d7c97d831c6e0024ea62081590d148d767dec28c8fdd0801710011827dda5b9ba3ae9248072de97e6737c6ecc00943219b300bbff42a77331bb2cb4, 0x26af2a0626f20091af1e38dfdafb58d25512b7b5c28141c215b8824b8a6511a8a93c51c4d56dab77c390253f1923c09f4a791d806e9bcf41a1acd8c82b7e578d),
  (0xd3c4744014f517700778f6db9e92dca08d22a50c9fda34b26f441707bd56bc3d2157422f99c4156c129ebab375b1bb75deadb3ef0c71e75e3a1ac04d5d21bd16, 0xe41bdc88486f35acca0410594de47555fdd1c525d048d32edd8f4734bf05972ea8a51482f781da0981dfa5e2cb814a7609c7eb8e5fc1087e78016ee5f5a54645),
  (0x702de06f0c4c7da1dc76c6cf223b68f200a4eef5e59ed22fb99ab4501df9f5d121819a8238bc69ea0118fda9e98cdc9486d80bf0d45d892f93c8e63357dbd4c0, 0xf13a7b9207e3cf2a5a75c15ad8a03622906c26397c619c0738f1ddaa4dcb254d2dc301faffcd0152e4491ebb8cc49da0e68451315f04f369ed9d1a6f9aec94fc),
  (0x727265c07923b007da0cf1f5dbd174c901c3071d53b5c37e209f4ee40178c5f2e9ca4518ddd5bac72a8f84d8b72f92bfbee918c423a80b13b08b8660e21d611b, 0xa3ecaa2fcc6c7d84f1b898cae113ded2708a6bd673e63ce9f664819191a6cff1a5ad935ed703729246dfbe5bff1ec22e41c2e961f2920b44aeb531a00379439a),
  (0xaf72b5458ada66124d3755dab608660ab42c69bb0174e703214df0c774202df75a44d985cffa50f7e152d78ead61b8d81689e663afcdd66ca77beb80e535f17b, 0xe86ef086c98bed66b29ce15e92661b097298d644d5823d3bcec62185419749ad101a4926648fc1b4849d81b09919ae546ec60470da788c4721119e61a79f16cb),
  (0x614d59d5b2506626353b2fea0d10ab8f2cf6dc580a6cfd8290401ebbe76b18af903ec67c78365559611e318dbe0fb399f4350fa5fa21dd7a3d9d2ec308d8c60f, 0x97a902c25b4e982d409170107795560da3e1b3b06771ab36f0ced296170b35102b97400d80cd3a98d8c84d283a6986c28593bc2308a19ad0a10e7c6d0fc9465),
  (0x91dcc0ffe1decdb9c7351e7944ed557c8ed75fd3054c6a42c99fbcb0ba113fd55f85cf6ecf120fb7726e2299b72860f7ee9955b011f7a8c46302120d39268e73, 0x50762ec08e08b7d6f95fdfe506bd2e12810c08a7bb25ff22c7bdf8f8af1ffda697a4becfefdaf6656900dc4535c2fce0c48ceb1a4bb2ba3e1607b31d3094bf7b),
  (0x7190f7a1a6338b91a842977e6f8d6484765189b611e610434fee8c03e073b24baae88958352d61ce58063dae2643158e14a2964b14eb5cf3efcedea4d1b74ea0, 0x80ac056c054751e54b454b8895fdafd038b2ee289010e9fdfb4064ce4ecfe76ed80f2a0202b46a7c3c224b04f1125cab60ee24bcad911ec3461c22c86f147d83),
  (0xfc20f9b38ac44aa0012065039fe7314c3e596abb43fa0b705cc440ff949a577e4566f2ca0308a7810a3e9d1826687845b9097ee3794b345afe643b70e94a3daa, 0xd4b8c422ad8004b2a59e51fa8c9c2b2aee447012a609466f46bdc193f13fcf49ae2ec45de8ea401a34341ab4cf815c71145380d7ecf281442490642d426cddaa),
  (0xfef1f4482477b0fcd812ed64b156913f020577e991751cc4e3977e5555fa8382cb907425ad6ad8ca55aa11d937fba110c1ec5bb70b5b86fbd3458b7f4763fa04, 0xbed9ac82dce50f7478576fb75278dad94b38b77f4b9c63e64a1773f4fe435ec5697880af8aa6fee5218480544c814b00c9b503b9ff51e162464268ba47b5bf44),
  (0x2aefcedaf8983d6ab53f8f5dfed4ddcf8d619ed612dfa7f287e307c7aeae94b6e462c2705532e1039d0e8a32b6410686fd1617e547e4a09e7fe68cc246bf5ef4, 0x15e0668d490499d1985d04a1e636b7b40001d472bd919961292c0365d502f28c836462c13fdb30582edaa8c2d6aacf3116367fc2d2a4a422e641d19a6985e165),
  (0xc77e12558e217af40b45f0be0f9dee7a0bffa241f3f254712021d552bdc352163baea23f7a231bb7c77bd1d890dc2ffcca92f067183d4aeefc9d5922340c0176, 0x534e6dbab5ae1137c485f64fffb462263dd8b9be02d9f19996ba9a4aa7db1ef16c9e12912a7ef3ca744836dfe12358c39e1568198b0bbf98cc25a1f6f481f115),
  (0x9cc5451bbac4a9410f9e412f9bb0ba22c0b2038fe1b6b9b7c5c140555c4e4f4c4ee86736004b659a3521f4cd8391c2e158a0ce2b5018a8efb73b2f2d0d31e43d, 0x170bfe8d7fc1b28348c10e872154ea60b4ad5f4977ccf2dac8b0b0f1b891e514f6579c15af903b3a0986f37958d8be4a1e16a35d21c2781ea582be186cec0024),
  (0x234d7d9488e84d6a31fc7b3a193ddc12a3c89f7b17a3a61260a474bfb32cbfdd7df896503ea0a54813702337b13807248230618401523d269318d7550b9b042, 0xba0825f00251531ea13e5f3e35a067d39fd71a06e33c7deddc3e2e10b732ec9f2d90195995b939452a8a1b0e079efe0d3599cad4d28e5480348f3ea9c798d831),
  (0xa3bd97d7fc5e05067b9d1d6eec1a335127ad4aad50da5244745d81b7aad5f309ca81283a4d3ad42fd1d83ae7363845f29f5f6eba6d14a95841a4e9bde82f9cbd, 0x9129a71177fe084eb029beb6fe72f93e94680ad7d63073c101a890d9e728dc25c36352955c10aad31bb11cbf5f40af29327f6991b130f2dc9f43aff0200f3d3e),
  (0xf7adff60f9ce80c0806f76871e78f6f99146504fc4fffe78bc3e74418a2c5a0c087200a6574c43aa33a4ae86dbfa162b5df01410ecb8aa6824299eab25652608, 0x57c57aa30b35370e8f3ee07ad5d5ac40255501c9528282decebc199e89ffb338a1e4b39719aa24a788ef4cbbbb58bf6bde135a792e5a1651becd38a44c70bf65),
  (0x5ad38cb924abe4ef8ffbeb220806f8b26944a5ccea9cfb516821c058c2f231beed071e3ac42a2b23e11a2a1e792b0b7a3afa2e89f4d5de956c9d5e6220c5593f, 0x261b0c9e8354a23b60fa30df1f5aca30005fbaeab33d19afa552b76ee41c123cbf828ade4067b986439d8c745b395a0313825bd59279403d3a6ba755be24ab0d),
  (0x4df3b01b0060689622696908d68763b97f5159dcbeda5a69303d28e3fa6e6eb142a08d7967746d961cbe2e892be8713f66e3e2a4e1ba8b9d9a0bf31e1bbee4f2, 0x2b5823d62abd438f86f1141b33ab082f504c074c35107fad289770bd1bd2ff499f3f8c29fb8c9cbac791ef348d6b4a21532d16fc314ac94f98578af841b93442),
  (0xe5642ff70d7a9ab519a6ea7b208fa7ce59cd1da9019bc709348486faab803480a79721b9f19597f1c1047994c2c1431e890ad33b68fa1a06584ec2af521f4fbe, 0x935adae0436fb6da770e6542b6405a1d010b062a75fac08f90337b91bd9a1ca2f5ea58aa9832fc720f067412d2fa40a9269d19a9e91f219b46a4f3c3f985155f),
  (0x11c8a367ed571eb37d266b145a8a167b878c9da5f41700d515827399de2e12af718e10feb648b231a93fff299ebcee69cf5d9d23b9622bbe7a3407a18f8014f8, 0x15559e8bb643c719411c98df5c1c3e213dfde23e643ec0757de0a09a4438130c8893a82efa6f8543f6c63dc25fac58ca1da733670ea73239942b6d52fbdca25c),
  (0xc81a3640f3013386e3dd3fecb63c57f55f95d253f3bb0ef469ef3dafe10edf6d72cb9918f9f1db789babbc457680a90351d37024baef92fc221347d23c038f, 0x919584e58dfd6c1223629ed59848ed12af83df70c7b4e4acb2e285dce8b82506429f1eae05eb88aec663f2574aec404ca9337c725098b1d8b8eddb1f60a2c29c),
  (0x41568f6183ffe15678be8f4620deaa93447d4b2e2a32350f1819996d680615efcb7ffc12b0c17343b6caa43574f4d1f2b248f673a97554eee7bf4cce801f3f9a, 0x74d699480e7097aa1ae464136431b8b14bc79529b092c15b23c83eae6b143cdf1fa89eaa5911dc6dd445da4204dc0aba822579be07a75459a923537657647483),
  (0x873a03cb49d8849bad335067d3acce6752fb83b3f0ddc7e52baee8deb0b545a2884f0487f58a55b5eadbe9ba748451c7fed092f0789b06694b3e089403dcc21c, 0xb7159d6b282661434fa4034c2282a67f5ffeaa6fae6ca83bb7d3e156721025243a34c970fa3ff9f173dca0df69fb7495a0cf80bd362301d4c5f5a53a107a934c),
  (0x3ba12f5864c70918d25899d07f65083f8d206245946ebcd2e2318ad6f1e4c117b8599d1b7dfb63b6f80807893672a4dea861de775f75bb718ed2f66d825d936f, 0x67f07629043eb5b51a5320df3630839fc81a638510242dbec8a904e90e411b4ec47c8bd75dc452672e9d6667e99569b5b8bce3a038c337a912f72dba1bf6eb49),
  (0x181b7661067b00f7144870bd6b0c1c741364d01c95a2da82c044b91c163b0d1c7c2c1158737da9e8a4ae333e2c1cea37852f76ae1bb9ff062b287ebf8ca3bd78, 0x23d714770272c11969487529b74387301a3bc8aa651495fc56e9cb400c4e2a5db235f505de14f8b689ed972b07a2b496b61eecb682a0f57a8899ba72e5286a95),
  (0x5280531a50dcb273355a1453c1ff4d579fa557fac778b1ad31920285a3eaeacab35699e92fbef86ed01d42d64a11146b012bca1ab8ed1cbe4681a3a3f442ac51, 0xc2e936aeacefb1018ade838bfdc52fbb28045ca7202ceabd2044d28cc20efb1b2e36fad3b20dd949a7ecc8ec2c180675ad6bb4777f01cafe857edcfd4227c47c),
  (0x397c66118ba3198b171de2d3a39e61331a94c5c35c76c75513724309e1c430736997506e352fab134808c362861675d313cfa0b07b49fdc9b26d111e29758efa, 0x5bc1b76448cd432c80ec680683beefaa052508e22ef55d91d2b576ed57a227823b989046f327847300555eb68f1dee442194a3d1081a69fecbd3394a6be1c4d3),
  (0x383470cfddbc0b7c7d21b4173674612088da113c3298f36ae96b4dd366463448fd5aba676bed433b84c51b24863cd3ac024f747faf592b58e3cae8def2fce3bc, 0xef7c6301072413fd01bcddd1880528c508ba4bd6e77e303a605a266ea7a9d7af4e38385e593d55bd5173d647205f8b87a0b8e5cf5548a04656777615172cbbcc),
  (0x7cafb57a423beeee3d54f8b6c4f46e6815a21df88a46cc707a0b678dd440e0ab7403ddf43175fbd98a2d32d0b1d9ffec4bb50420a9f9bd9db39d315a3d3ec960, 0x6a97e330d3b95df993443ac2dd3ec636298013b24615559c1cd4d204ede91ef0df55e43f78825575e5ae947ed00a70a2c02fd78a131ce82da023293cfd3482f2),
  (0x51efc1a34bd36d673220855d93ba9bcf19f158c3c9b0b9789d351fde4d8b0fe0362ea60ab3e32109be57118c46a4fd4745f8c614ce52df146db4676896ba23fc, 0x55812bd8e54041181f9965d0230f962a1ca561072df9df6a697acb2a0587b323f05bfca20c258b2b34ccd3ace989e85fc9cbd390703aa3a38b987c659c56b01e),
  (0xcac1822e170e2dd074334dd6f05306a413eb197daf8ad162ac2f63dd1e182beb3586d1eba610d14986779bc1126fe2d46b50c6b63c71d43db9ed4a0eb7b6aa16, 0x4511d813b2f654429773c9dbb1ad27880199708660a27d6e237e8c775a4e16de4c03ca71af82e5b51d51998d0f9cce85522c814ef6127a514a7468f41bf5e17f),
  (0x57439fab33bd4e062410d1880352370de21f1c533e3f4f0857968c4fd96741d42c96aead8eb4fc205d350d22dc0a35346d6c3754980446a7ff134ae58d34f50f, 0x360ca5ceb5b3a9b08304ad8955bfbd6592d44c38f5531bc5ff9e414ce9146ff97a6732dd74dcb96cd8ea26e1d22e212f7c2cac540240fbaf60870c1c0b0bb63e),
  (0xedfb3c93378f65197c68c23fa501db2c70d6e5a072138909c622189d730c3381df959dc994a2e719df545475828cef3da53faf1cfad1f857652f1aabcbcb0ab7, 0x4c19b5ce4a3e4b4308b88a029895791769289610847dc13e21f232fbae9772d58e1e012997b730dbf26fcfc603363a87513fbae6fbb91e77acb076c67d1d38b4),
  (0x528a04beade1ee4f20de0d86f5a650d41a25b63a2334d6f987a99a977849f63ece0f88246f2fab9025c72c4e10af4d4896e1f2348f5f24805bf631b433c28fe0, 0x8993a5b9a0ec3c2ac96f3bd87fff8424ce740298b9cf97a893ae05e4655f773303db3039fcf92cb3eff94833bc920ff3b8c8108bb41b61f0634cf3f25ba47cca),
  (0x6e848ee87da8006a40597c11ecd7fe9da63f3fcde4fefeffecf00c443c6da1f6390ed2b134eeea2e165c64d649c7f313fed5e9562e23699e9ac018757cf47c95, 0x1698b86484d923d2d48eef1655a7157944796c3755d4b3445c5a4fa69b6b1f1aa62c075434a44c777819c19147f997b4ab4c4460d62b9870337d4c2db22c0aa1),
  (0xbf95dd6a33a5a045a1cfad27da2bdf84020ca3217af0434aaafe6fd85352718bba760c6e25478eb936eb715a776d5dcfb829f128c8b514e22ceaf0128b437d2c, 0xf93027855de006dd7565c826edc9a4e3a51c40d0f3e929746c69224cc7c05a6831746ebff2ab8cf362d43482576b80cedc4b816cd5eefbc604cfb8b603d3da14),
  (0xc1de311369b6b9911b60a29100316e3aea3931d2255183fc325ba4ccef6e0c8f68cceff63d208fc3bff7823cd76bb8a418b8d2b286c3e3b9a8f615279c81ee6e, 0x3e3bb702c255e0327c5093847990a4aa25362553b8156184f5361545d5602fcc8b45dcc6563898e818fec2614acb7cdd82f509b46d2b00dbf7606fd65cc34b18),
  (0xdde9b802516733fbd20c044fc33b1878fbd0c455d23854865c69076c398d3fdaf23c4875cddf1dd0fc8f70c9d150e3e20a4c4d4035582f1b252f514b71ebbdcc, 0xc83b81b2cfd177b56c788706cdbddd2f6896d9e93eae58f5df2e400e5bc2a1a4ee03d9cfdd200d2adb72cf521fd416942a2ff43d7abb33c7671ae1f76a7ab992),
  (0x1249a6f474a4157f8cf506bba668e50f9c5126d529e3941cfb1791705d605d6479f130350358836720ac362fa77102d4ba0ae4bd4de23004cc8bba3fc7010e05, 0x596438b5ec2c3e7d01c67f886bb26c9e50f18964aa4d1c12e1b89093d6bce8cf13b238ab07e8db47686476b159155aa88e2220c8fc7a7644e095ebee15a7edd1),
  (0x494e4ef882dda8688311c4965c7ca49ea8c8458100286654e1222fc0a0e61d8a51e42c9472105a7537820ec549035fe5568a9bfe03b8ddc12ac8443cd425b936, 0x4d12b8a97065293b3493d6437cd75fc768f0c126ac5d59283351ce4df78d1e4910838e955a25efc9fb3a793bed0fc19ef56d900ec88de369ac74231b239bfa0c),
  (0x65c1897553c1abd702fbcef1b4543bd2573442fc4c6fb638f98112ac727c2683c83dcb05fb7a3fba1978b02d5046b5c98aafbd1ef2a383d07b1c84ceb3ba5b7e, 0xd634dbca6c61faa0e952b8f50cfabd9de6be1778322474dc1069a6c4997b4c125cb78aa94c1bd982805210c968a73c594568cf1fea4c06acedaeffd74cc0390),
  (0xe010dd9338d1ed86398f649e798223b64c9300700e4a94847b190950f75a2cde70c81da2531e2f9d4cc266f32ef2ee165a8b4b76a805bd2acef7112dbc4812ec, 0x83a6d9a471f95b04a2a05195611a70f310ec318987083827f01f8ecd02084b7f876e708cb0c34874d0b99732dd3a8eb69a93a3466aa97720e03a7096a9889cc1),
  (0xfbd849198024f1276bbaa1d86cb7f6c1ad7eecfd812b1558260fc81a6cdb11f65d35e9c455f7197531612bf4505e546e94b2dc81b24b5be662cd9bf659b89eca, 0x71eb96e4f26d63afa12012285be854c4c0401de17043804c9a531536a9dcbaf4f410153548d887b9ce79281b323d65bf76916d72efa2a138e06e345f2f58dba),
  (0x59ae35d71e38d1aa6d6c661a577a5986e15e8e4a216e63d9c89f6278716b930367be619f9ec598f11002ccd131e30c3d90907c8d1ab8250a393a4b150af3fc77, 0x5b55737220a80babd4fc2218487f53405a8e501a288de589eab02b3409e7316824e4a9a99d1a491f1e7417ff74b432f0eaeb86d8f273b1c3abc60fcea4def12c),
  (0xc46aeabc0d06c6a136fc4c9fadfe44887dcf2be4c8df220a9502028bf294870cb8781989d4e481cbc866e6e934a67e5ee1c619024204a89575eb1f629eb08ee0, 0x28afc37c89dc9aa1d95fd1a2ff44039773f5cbc370b9d78db2ce685f17872dca9fd4ba1c27f7cf39ef8cb052ad1be59214d75c64fc0c66851196ae0f704b36df),
  (0x96c3ce19faea47e3a06bc899e5227cfda5d71b9ea62a1f665fa769f7165b7ddd5225e682bc165dbe0669c1681a21a82ef44ec1c2f8cbae3811afd58e65fc8eb6, 0x162e7a80e6d61f45656c9949b4fb0b9a702f27b08bcbd9bf3b9ed5fb8f8d32c4a0e1844864fb46933f07c46c3b5d1c751300f5297a5996a26c7c5acf25517ab2),
  (0x53a698a15b27fcd4e9cbac2a933ecdc0e07017290bea6f6289c9e9b3c52726e3c5b6e7ee403b0d0b1a914a67226a08e88cec90abf84d5afa53b3b1ebb829b9ac, 0xcaea550053d81a30d99e5f6db34cf09c11950f7aa8c3480553b1d4866f29976d4387d7f79d62d540b74eee90b9cc81a3a395bd87b4011edc856306abe35f3ee),
  (0x54aa219814b5554028f1387203c37b0fe7feb65055665ff73b57000da529a0dd6dc40ef5368dfe4178a69329fb8ec3364857ae3b66ee002bc237a9199407e347, 0x464f2463467c7fec065747c22371a39783bc701607f9e5eedc18323b0e7b55e5581d8229b7161f1f1d08e037955546eb70d093fd30662aacd23b5814b4db7aee),
  (0x45007ca3fa710bf90e26f5288c3453960860ad304b4173eac49ff7107b86e0912c875fa4f218605ba17593e8adf74b13c250fd1dc612769d998cbab2c1572f93, 0xf88244e9457099dfc6fb40777baee44aff3415cb33576d84fd39890b4f20f45e39067f029c30ef8d206b85ab0d5ee02961a79adc8e748f052429acea5caa1860),
  (0x2104537c013877df0eb3b3cb495cb009de164e0107b1f6fb6a63ad5c588099458bd1721e523acc6d2a95004581aa1cf71d8c42f224f124b57af13cdf5a0d5304, 0x68a0f32758f28b10d533d62edc2cd43db2da11a9a00ed62767aa7f236cf9f24cbb4da7b14e2c9cccdb16c506967f1eb335e289dcc3c1564d96b6c7496cc0c201),
  (0xb326b2255a808376989d6f6b0476d00c9005e88f79b95045e5c564583403e329c1a7b127be2ef47140c21b0283cadc4c11aead111e4d71c2a8c2d279cf8f36c9, 0x907eda219f4d467cc56a45f273ea7592bf83929c7557cc6c4fc66140552200b994382f7d3000d55d51c87428865204c2a2632a242bf6d5a4e2b107f7b45ff6c3),
  (0xb13f58052df32e94fc55ec759db95e15decd8e8c1866be90a02e5822351eac73da5811d6618fd612537047593c8ef4c52923852dc330faf87ee2a4990a3f7ff5, 0x2008f694db077df5dfaa7a4a19d29bc952f69b2d5a3d501c83218515ffa7ebc1a707ec70754062f1f386988ad43cd76d0abfcfab44ad75467144b570bf7cc77),
  (0xc6e8500c64e162f1b54ca741e90fe474c7793dcc0d98e113eb868486e9805f18437b71e7cd7b8156e9c485264fad528a7f76cb71c212edc33d2ebc8b6def2840, 0x807799865f4b18deb9624844cc56ac56c193cd24a35a9a9e556beb05916b2e65227263ba6f10e25655f6a82f484ad962ee890768cd2a0946363cd3176b944684),
  (0x79b0fa5fdb21d5502ca1ac23b8056f65cc6e9d067f2721dc44ae10feaf2bea172cb977e1a62bd156d51e5aa648993a5910ae2384818cef832e5e762f10182f38, 0xab04ed592f6c1815e71faf94bb49b7ee8d0eaccf86cbf8335f845ca860dff5eb02fa76e43bdd75badccea9e2bc79743db8d7a729064aa57a20500d5a1a66122a),
  (0xbae2e98ea2473c8cfa51c1c0a2cc01a2979b2427fd054a5f97659929abeca50af91e0fef25fb4ed283dc75deda3f22aec28ff812ed265ed32d675ba9fa422078, 0x5f79e46c564a346c4ce9251b6c74d4cc5eb4a1621848767c502de6ff25fb99d02ab3927bb2413dac39ac5a856516e96047c07f93483a867c87c148ffd8391665),
  (0x3ddee77202bb9e5704ca39fa93416b3ea2f4681e31ade238f7c861deb6bc70130f6fc1986b27892ad6b9b2f8129a59ccf13b0b90b3143abcf34e475224c31746, 0x7e4808389b9beddc4d2894c2f28bffd5741524755d9520416e24afc88e5c8e3180be4fa7df45f23d09878b48772a2bf85ad70c6519928b0af20b27325718473e),
  (0xa74e12d336fe14f7246467a2466a5f2cd6feebf9557a0eb1a2ab2999f3133dd71d62f4a990c661929b65e55d85a6deb703219f67e4ef997946ca74faf8e82ee2, 0xe0f1c4e8e8be4a8a11bac8511945f31dabc54779b4e183f5b178d3b931172c0424400326e3690b39dc2efbbd32473cecc23760e37a5fff40e33fb3812e549810),
  (0xd09efc20020298f984356dc2456f79256fb344a0bd3a5eaf7fa718457a857bac04019fb98b2456e2d7df4facd92e7017de041ed5b89d7652dcf2ac1909aeb82, 0xae1b75247d7cbcb366fb553aabad91ee16a9897881938c8abd3ff8b863fa92e6ea09fda2ae587a097cf8972d2843260605a3d08aad50c870fb6263f68b3edb5b),
  (0x5d669c94262793d0d48861624d7dbe8bd99f6c42bfdf9c6369012ec5128f9865fb6ff7afac9776df02883f85be8700897b961953cc4cf816717e6bb45c8a8626, 0xdf88dd0c46ace00a473039ea5c11c8532f468eda2eec4ee513478ecbdd37bc9ded4cfa775cf2bc296ba2dc4ef107b52e924f0db0e02c56922b522afc66b796d),
  (0x16311557b95d2bfbf01c3263bc1a61cf404cb4139578fd09b69478f4c1e4f5058a2a5dc3c707dd5c36ccdd8b560a653bbc5b56fb1f6b23849815bf61c7b89e8, 0x2fd87f20f28dcd4ef98c16adf5f36062a101265434a03d5f8b2d90b73ed2e989ef2f096f268e2c580a9132ead8dd2e6b56e772901d576ab961ef4ac18187bc2e),
  (0x1770360ccdf4a516cdf7901f39ecbb6fbb97238007077ee28930595094a97ff3cdc44f5c2811c3c0d26ed6c3f015b9d2fc7613d328927e4a65576afd3832c1bf, 0x84adf692f077da1a9d303c7f9617dbe8d8502a402fc2adf81225fe551d146ddcca7e4b02f69f0dd2ae82c2fec4075961849974a956cdb921582679eab32e2cfa),
  (0x475dd04d1cb17395c8c35381811e0dc042afab625962de4ebf70dc63b92b4bb2201a9ea7a38bc341a1bca306e149649a2cf4a41d4715ad322125568e704cd6ec, 0x5cd47fe197c8d9b95d583455778b0f55dfd78e1af409d9668e502d591641498db0e5b75a64ebc547a015db9cd8ea3d5c96926e8c8748afa776bf0a7cb722d932),
  (0x6ea5c511dc70763fd2dd0879f27a6b085497d97dab1698c55bb751b864f8452b4d5313eccb64a51026383581248347d7889617e2acef79d783712d33140e7229, 0xf32164bf73456a3550cbf3a5ce2cd48083922aceae5ebcab531d1c67921a3a6231742daef7c07d32510fc35fd57ef9efd5ddda6295cbb695c0f554de0079874),
  (0xee23e09db1ff9fc8ddab549492f2765f7157c138a63b3667a77a781387ef3c412ce8e3a6fb57af066b9cf2c05aed01b7f8252efe56d1d47d611a268009e5a2d4, 0x3023bd0bead06c3e74aaedb39f0deca67793c079e3a100ac2181e600c5f6b5294f860f2186ba0ec6c1d7d41da550681086a066cbf3a4b58878db3777d0ec5135),
  (0xd7f841dba7dd010bfb8cd787c465302426a5fb9f8759912af468df7428cb69afe9075ddcb1953bf5e39961f2618d4f6270a5684dbc355185685d84047b0483a, 0xa8f89453d134dbee0bb167d36596112cf7c59ac9e61f225314aab688c8e57d5d7a9c3048a2b33785021e47507cec3648ae79f5bcfd58dd864ec953479a623845),
  (0xf0d3ad3ff9e7109d3aa6618f25be6c3edd7ab5143b7db641fd9a96ad407ab89e376eb81d80d8853ec1445b108c75aa6b6d419273442fdf00eae2ccbc852bec70, 0xd3de174118899c1a9fc0af02f7c2dc183e78b51b4c8f0ae07b272f952864fb7aaa528b09b1301a635772006daa10f67789119f51a0e55f2a0fedbfdc6966bc31),
  (0xd3509d66b3539192671c994ebd663e2c3f4ac02a56a7b0420fe8fc47240e6d0a6dc3bdad9e9034a62539a346b5fa59b9de7c43692b9085d5cfc68d6f779bd7e6, 0x70ec7c3da7ef9378ee6bd90a7ec25aad0e6de632e59fba4cf5540aef41722a250402d2bb2946d1255ce0ae6170185936314957ccb0776542007816276273ead3),
  (0x7f81c671301e84693aaf7662b140eeec78b6ad89532c8bb7a6991e44d74b1943ec1deba1b0d0aa4347c252832bc94f6ef2a1b018cb8511904490c4016aded0db, 0x5552a4a6bd0d369a1a274dad65bcb1a6a27b14b90dfbc4371b0138873f18273535bf174d757023d84212cc4e55cc332ade0f4e6dcb588621165596334f5d8763),
  (0x7df1e4e9e67bf4d8350b1d83f0b209d1287e9e9c25587d06edf48bb28390719d4a0c4c1a7a123631a2ba9b7dffbdd57d4006ac57bbc1fe953744a1a457c0de70, 0x6b0bc0dcfb34a9c178a76a0e01fa68fc86620c63afd906a195b70b5b03504d0896218292d77bb59597868c8d118fa99550de5c30774f4be9cedce3b97a9111c6),
  (0x6a6012453dbc30f7b7ea2ac1cb401dfa69d2c10393031e2f69b267e55e6b4d1ef506048396039d0e24854c2954a6ecedc214fcf4f7ac8fe466d60c23bcc0fc72, 0xbf3155ff87910b4f890c7dd7d0c1d26bc6342e37f5f6cf75aa0518d9114784f0d023c1bf717dd2760477ce530f28bebf6241e2bdce0cd970e7957ab3c793e1d7),
  (0xda4991344fc316865d062afed64ce0356278b7ba9411738911c5c5e1d4d188c8d0c769312094ba01794f439805855944fb27e301474f5df109af72a7e8a8655, 0x9bdb34ca07058af02b856b3af68477b44864589c06e08791324370cffcb7fc8afd4162680fef0bf9c809d4df75e05ab67c930fb0bba21ed1bb25a4557368bf30),
  (0x42e3c9f0e0dc7a1a9c02fc1b21202b106161e632ec8c5f9ac69b3ede945d62b1ae81c0c8b5bb8c51fd2d0d31ceaa9d2982070d2cd1a8b9dac9764191a4e21c7d, 0x4cc80d122f6c72086c6129264a68d88083101cc35aacb0a2a795b92ba2c1c11cc00ba5684f2b696bfc0045bc238f0647caf92f38a242ace7ae1ca7b349169680),
  (0x4225bb88d2fa143426e66ff5ffd2d834bd06e8a1fefe714a8202797c5300fed343d9a3c5dca7fbe2bcdeb2048b8f44254768922cb483890d6d2057307a973524, 0x1e58ee8b6b4d466b02daa93653b418c666ee2cbd85d5bd23c3645e32e3f3d5f550463487e5cb9f41807ec7d5f4886824013610a97ac407fdf0a528aadeb66227),
  (0x995ef4f45c6a46d3485e63d28ff45b8e43f4001a594fe46e8011163b570e0e9b86b42a76e8f311ea6e4af78809f6bc317f4e6bee980a401df8f481026165c844, 0xaa9a1574d4440b8061d233d552fbea6be8e36aa711f0c2ec5a437696e006fee89fd0fd6e250fab6815b894381612140bc23a051b5990be6e84740ba312278152),
  (0xfc2fc8b7ce3be27f7d99092b4d12d327608af8a88bf9a182a3c6fe7f745f8b894e9c47153501f1280212516342915260f7312e46d2ba01ed893fd2862c680c49, 0x2df102f03a7a16cee42c3eccd10e1dd849ce50caf3200cb07579a3929038b422a88c4602173c4609984d8057774f3af6c67dc99ac1739f665944992f2c8bc4de),
  (0xadd8fea905ef53b465c5b51c9ad0c710dce63878219c6a6975b0cdf125b43bc3cb4072d02ddc059f0f339690d878997ebd282d85e8b3cdfec0626331843111e4, 0xd9b3b726d762d05bdde57536c5d67961ba4987a71e175aba0c3a04e60739e268586d1657380d77e7a786a7e5da96189ac064ab10fc9347d992bc7599c32a7e36),
  (0x6a30afafe81edae1d08690c75040d45f173fae8b965a5e5e8b3cec811323b74579236f1751a6f6fb17d93ef1b63a0f1bbba220c22abfd59d577720ca483717c9, 0xefe3683f514f7cb0a2a761d13703453cc0ff1989833f12e5020f2c5a76816410630f300c8569b025a552b84e41ab680a3185be534418a237f340116b5d42a798),
  (0xe9283e7d1788fb92a38f751b658b1a4e9f966589550644073e16886bd1b718da91391221b5757e16613c919827529851b5e03bf4ea3db8084e0deefc5acc877e, 0xca28061a2883f9c2583e386c6307713f65cc8ecd5b35f679ba5fe11ac6bfb643387a0f7264247b43301bfceca37ba32fb0ac2bdaa32291e3d2e77500a16906f4),
  (0xa6a4860ee9d8aafc5cc12ffedad4b503e1fbe062c0c7624280529800fdba35a732a2b74644cee57d99688384819c4aa6fb8d1fab919fde5e837a939f0db53338, 0xe7a2419ef15bdc58d0ebe53bdfa42e823997c573a97b3ad840ff756072cd181994a0e1afbadb31cfccc32353490c90df4160d05fd82b80a6873b8eafb0d151cc),
  (0x9b5899e9292079cf051e1d184f357d6e67f1a1578984d9a50e7512e83d6f86edb10ba1ba462fb2421d08884c5af54764864656a9fee5c2e28980e71c657ee22e, 0xa74d720777af1779ac631d5eac4c2f0f4b95435e6fbea8d871fd324b8efc767a1c0b00191a74b99d55071947f611677f19933201b412ea96ba928cf8fe1045e5),
  (0x9d78ecb86bed704588e6ab587b283f993c0400267c7e1a8b75f80f9ab6f95bf5d5c7346727c338be7a98934581a921b9890c1aae87998a806628141e83d33803, 0x15feac028eaa6534e76f80de3a374cc1e5f2f7a2499fc448353224472cd6c6173e944da94ab495a82c443b607980e8ee5cbc3734751028ad95f9c4dd76c8612f),
  (0xf6e6517ae040d0a3b8ae213142057c09bcd68dbbc21a6369794f99dc4701b049ab99bd81aa2c0302c7bb2ac43856e03026aea2ba5fee67dd468698024ecb48a4, 0x1810fb77035813b5235b5a01833d156e0b96464336d26839d2375710c60e337d803b0f13453d6a931f539dccf728019a6d7e529bb1f07a961a9b8fe1d461b024),
  (0x1723a6abb2329c5ed86926ba7ab731ee765cc5be74de50e009c1483142ed9f8759c6efe5c62c1c2b8663fcd655d6ce6fc7814b9a8092d06082dcaf129ae68afe, 0x8b58174421456d2719b71254d4076d965063a87062a1b2400384de1624430d25f31dbbe25f34cd2a593d206e7f2cd52d73bb3c36366ca0f03bcd9946cf019ee6),
  (0x42b3ff776847a52bfa259178d172831da2b49524a39311786ffeaae29a2799d0427f23df199434a4e92e077e6b64e7e43a6b3864ca554493a1274ab235cfa9ff, 0x1dd307c3d373f8c99039ebdcbd58ba982f336ec187c24dcb6dc9341f342ec4822a7e1b37a940cdfa030d124c33a6182dd8c5711a4dd9e2889371ac86bb74174d),
  (0x1e47559170b4bf6c9266f560c9ea20d3d8069560f246579dff92b62776b24e46ad36bd3cc46a8e3c0f79b70af0d8446e62f2814145213c67bae7cf652049a15e, 0xbabf3da2f1a71328c341ddbf6151f44daceed473b36254adfddc312bcb9f02f5a2a7c71bbe5c78e6945a96b2b9d871bd110481b7cca0eee8aa3624c3bf353beb),
  (0x9c5406e9725a6f1683392211cfd1de9df6efaff0b592375a833fb624f45369c861febd45d7b2f734e7b46626a72b51d14e35245d58f399280772ab739472bae6, 0x8a9bf741c6c0ed74df9d2aa1a6e2067c5a7c2b9ec717d107ff2a4d3658dc47087a7195efecd66a140d4fc2834442b8d79c3822e2561713fcc8cbdcd404f1356a),
  (0x7d689874bba266bfb8c805b9e4dd4cab0b42d1ce8ef5c7fd43c661fd2ac278d4f56be2c5886576cb473b1d828477bb4f9cf8b036c744c9eed4b74cefc2408247, 0x659039f811cd466b04ba0dbc8748b1f4743ab1ffb28f5a079057ccee5b7ffa89e1cf65a356dd8a4b3a93439827b11777cf196bd26b896f982249664a799e98e5),
  (0x6ade44d460e1922240f4e8b1736dd1ff668732f812ca56b06625b531751683027e15a7435145134df5d089469f0873b83647a102134ecd1de22c3bab92c31ce5, 0x50fa27db8d0a77cfc36ba081a19b823d76a4ce011e080d0121b8d822b335452da42780f5022f36e2da4a1ebdd837d17ea2e7b9830e999753799c6272379969a8),
  (0x22ad2c5d7a04eb31ff23a54f9d40f29d336530a27a9eefd8daa41ba3105ef594da216d97127dc737e1ad0ccdce0753ac64cc1aeec2a70f8c022cac5eafaeb34f, 0x4a5f698755cb12f7c343041b57601468239d75451399d2e34e5420df1078712d80470733953081ab5d7d1cf0bf6dec11b7282b9828f8c2ed425e1c9e46b4c285),
  (0xe5fbc1d3efa800269e6fbc1ab582568703e0ef41627d006583d29f9f71497c75ecb82e091533bc1c0c36d0651b9f238163f7880a9ddd5d06be064fde80ccd772, 0x8303f72ee15af9d87c6452b90bf3e3002e47c5009176b361d81807792622c372d63bdcf0fedabfdc3023e7981b9c2cc7cc6f90c1e87e36cc2f5fb6d553bfd8a7),
  (0xdadaaa800269412b21b73915928ca1bfd8b264e8f904880e9bae33ace2a00a83c33b0f144066862471127ab86e99f0c85a260c00d7fe8f62a8c3eef58b183331, 0x4207c123ede0790108df5f49e01066ad76b06ef46054e70f0cee672e470509e45d7d14fdbed1a0e3f05b2b483540e7cc22e750857ca3246f33dc343a8d25e710),
  (0x3bd4d6698f2f8956134ccc008f41bf6b894836907f754be574bebc1d85036b82776af165a7104dc90056b5d6410fa1f668ccd6ca3a5f83aafb489810977ff682, 0x62e495c5e11556044e6ca8db59eb427a694b6f08b45247021980bab0d5201548b377de10a14085ef08b37661b326d854e998423a62176ba01657e5a148da9ef4),
  (0x6cfa34cbbb4a13d2dfb816aaa99af2425ee2afae72b2ec3b8745c5c21fd14875f81d2c5a3917a8f43dbabe3c9b4217a615fe399f64568bfe43f3f632b3c77e7d, 0x49155f20b52be997a9211e3325b441d0e934ad25e88d95c65b6fd018e10c48cbaf236a2408e5a4ec7c5a62a739defacb47ae3859f307be0f99d36ca4b1c08bad),
  (0x522ac68b392e16701a835b8446c416126024c401f71e305a91b81058e41dfe1ac3ba9c5a6a798b35891c6e97cee6e5274a267796b9989644f7630d3fb330bd5a, 0x2c9a613525d2edad9c76bf29eac9b7184a359dddd88b9c463a05803bd83b3355d195b4645fbecdeea4c85b53d771b713a2325c78786d585ce439231ed229e087),
  (0xd5c92ba13c1d8882f35c46d8f8185f349beb38fef4fd5f1489bc4bc26baa6fb4bea7ee213ff710dddae4f47e95ca46e3b4574af092bf9ffd17cd451a0f6fa068, 0xced19159c787a827ec12f10ffbf7ced0f6c8899df68216acfd8352f3befb2eedf674f42ec462b40b732b9277c98e132169c8cf626dbefca611a54146fb2ae039),
  (0xd67e74ae7d49deef0eff4cb9985da2786c02a2d78fc121a735d7f6fb6f6ba17923c56fa410b788197d9c3a29a4ee18fca9381efc6b70d8c9085ea544f7165c59, 0xaabc4d064626526ce8631433cd613eb65626473e52801e0722c8796bc50a239c8ebc2e0a5aca0a70e2d8f1f2920c63d550e5c4202fa15c2f13200ace22cffae4),
  (0xab7ef496a57635264d84e33d1062547608e0aa5d1e6dc52ad67fb694f732b1aa68d54a1532ac6d50a99b7a6928dba3e24f3dd70a82d2e0b610179bf27a4d9a2b, 0x84d5e0daa9581436279336a7528c51628247886f0ff93ac090472e36d8abbe23b2fbdfc22a57dfd8096096504c495a23528685f7c772a4f3acde1ff3958ed17c),
  (0xe2560157532d6d712d6fa4dce54ab5d68954d08e2cfc579a2dddce7a87b1f75b7cea2db360e68755f27e1b4e4a3c5caec618e42fbdd99207a65cacf06c535729, 0xe7b6a61c29d54e4c9ed623d40ab977f5d08b11c264967485742a9967c16881f82dc59307e580460f0d1e110f91cc8c2f8e9b2dc36b2769f7210901646654a76c),
  (0x7a43e9af3668f188d97662632e7d88ede0265f16b7483588138d9d6fd8e43709b90e3a6582e7e659942a7c87247cb8c86d7e47e3f56ceded11f221db16306bfd, 0xec972bd701925a5135888ac9dd491145ff604bf677b1608cf56a2c0c88fae148eeaefc2ba87153c9c516fd6e731c0835fdbd5bd6b69996fb6bf8fab739274004),
  (0xc0941bd5d4b1446419691da4e23a8d2b5ad3cfc1d8c3704bea3dc20364253ccb662abdf9d833252892e783304d6f5de4250a67f12cc0f24e44c9199ef4727ed5, 0xc2f1ee1b66e25dfd2b098a5c63ac1a492ecfeb9de22ee2f5876c55ca265399243beb71b58589f31a77ee9aa9d90bb5e534b9f87b08c5083acf3869e74a3fee3d),
  (0xd7dab131042a05085d695facbc4ec532967dff64e0dd8e81f4e9eca94775b537bead09d85834d3264fe786cc37f4a0bb2cc5531919ced4b719e1686cf4ad6791, 0x319eae7f1f7da16c81c22bc67cc67b9c24442df7f78a13b686b9f30eed2428c78c02d74af134d648af71c6999a230b63d69eea26104fe190c772bc599f1d5ff8),
  (0x811e16a9a6e825a3e98d4ea108383fbcdeaed121c139c1ad58d7fb4a7af3b478b3d6f3660a768ca0a7c25ad3f4e6c64693ffadc7989730a3e0c85f5cb2391fda, 0xa84b95b1b593d7336493212d362d0936f7e89d66509a4424e9497e225d0251f13d984265f66b5aa351809b0701aca6aa9102790d5c0f5f216146dc5b076fe7ef),
  (0x280e23b5095da3d31a8e898df5c49872c375e6a3bdf76b4c0911e429f15b36d1cf9cec24df2ad21c2638a147cb2f97ccd03c099423ca42bb0e6539e05955a79a, 0x73f32a74fbeeb455f4d1b255a751656ca8470bea9c9ba203013c666be165d3737358fa89e023d3b863bb1c86ea3035cb06a4f58f5983785141a874379ac8df0f),
  (0xaba4404f9336569fb6930b3e7b53c7ee4953268916ac588b6fccd64e299a5c95e43dd9d43a98c2ef1a9b9df351d09811e02cdccfc3d80aa03e15993dbdaf3c5a, 0x112e6edcb86f7411d90726b396c358b7d5a0288185f00786946de0b057e37859d54ebf61595f3ad28908549a2c1d34cac5b5b8d76cbd3908c5573d09c856fe0),
  (0xf5746be2bdf8aabaf97189c5ac094bd7f9d9f7e1ddfe492dc456d830bbc8062e3358150db5145cc3895ad050ab731ad47eae8c210c9a94a93e4d648edf0909a4, 0xd00bb620f91d1dd549d87d8e27e2d4e7e1d7543a8de74229b0c912b3f673d501b215e91b99a3d37ec665f9c1e2dd5aa773751e5d06bd485ed387538271873223),
  (0x9184907bce9ee16c9359ab33b4abeecb707b2159b27cdeb4c0b9e01235aa0f8da2add7f6c2e59a3edab08e0a7cbc9849b8344e99bb2e5c7dd343fa0cb4e9a39b, 0xaacab06c8b7050baff4d9302f9d7b3ff312062d2e9854429044681745af30569ab54b41d14510610019382314a5863feae4babb2d132df1a23984356dce72a57),
  (0x803108bd599a8e4bf4d07e338280dc1b54114e86d270be075f2b3807775a2e72129891772102156ad7816f40c67f10e8a2a02d4594c49588a5f2aa89466fd199, 0x2f76a25434408c49e2aa1942e3dbc9d6b20d8b86270062cce1a0f1f1263c4f776856719c1c30a4a51d1ab9a16e7c94dbad92336cb3a68ed5450db193c35f2f27),
  (0x6e098312987129eed51aa163bb2d586ba27855a32f082545414dffc61d25cb79d58d8299461a7e693ee815ea961e0def8cc0933ef6f000238cc7f9aee75c105c, 0x78ac153c6907aa9646ee9d67c7971a01d955783c502f4d70141e0a8ae09a7d75ebe6a33f75df38ceb3a88f84d6af683c370af938085989ad01e718e00cd25ff2),
  (0x6d8fd45d77337308e117fb3af533282aca29b016230b5c83e2c3c0403c95292f9c338014578c31485feb69c723bef518bdf482db86014860ebbeccc1260551b1, 0x28e0893e862de4357ffea56ab5647bf6d7d0f10ce9cba63542f1d019dc5785157124384da888ab9b34fdd627fb1caf43d5ca4b03c4b38ba8f1a3c1149aa97d8e),
  (0xb77c3b40cc8fb5bb403423352585e64b0ce848ae498d082234470c91dc508d1dc742aa418ff4cee9dcde6a5f18db56a8994d9c7ad9190000dd100e7b3d17cc70, 0x4059d120b794e0b85b66a14909c2849e589e29dd599186996e7f1bac332415798755bd187ac61b1664e5811659e27bdcf67fec522fb8fc1fd8f4e932ced9aac6),
  (0xc773334d40739be7de802461de5a57ce3879d029a2c2e58c8e4389923aaf9b6480010cbb8388af162bf322d661949837de72eea3e2264fcefb43c40baf3e3f48, 0x2235cdd73fb6834f16e54e9ca6df1fa4999cd04105d5222d47b2f3fd7d1b047273028c6715384c5a07918e7c5142c18a24664e5163b058ad223b134ed352e65d),
  (0x9a29f98328317014353eb53d9708eb431e7892a64fa9117cfa1ecd8c678b47c57d4244970991a96b1146085d6be8bf8530c404f0617c000bf794658cd7f88727, 0x6b4d7f3cf9c384414bb26ff7102aaf6e318a8d62cbca2dc8b2c917a20f6fb96504c984e79a4db7c70c3af405aacc66332bb4d348ffd8b2ade3554e454d6454db),
  (0x1093eaa5ab4da405152940b1a3ef459904dfaa005f3d0d00416b08cb6fdec53a61b5782efbf65e97c3476ec65d4fe263727e19f8c55af5f6cac580eca09549b, 0xb91750b31c68e6236c21ecdbe9c78e1982e0cc612619d013c3e73ae4869522439127eb865236e90fa403fc5502ab9e52d343cd92ae5de1fca59138a550b7583),
  (0x28e7110baac13201f070d80f3dc2b5baf50c91caa8d690ef5a87b3b27cd5ac8b7ac5eb428661b63d7318576a94c11d1cdd3e3be2b29a456b98c1a3821b30fafd, 0x9603bdb7330492129a7b0730aca2d0e7c662460173f3e72e6c78e805234c9c8ac102f4485d6f4e668426b6fec26dfecaf5fd8ef8da648af889738c5e4115bdb5),
  (0xde5a8389503bf07d160bc766d9d2478eeb3bbda767312076464f07c757255977853744e7e64e40d79d80cdb751f54cb90d8e9334705fc7200999eda499e90f40, 0x13680ffbdae3e4771d5bff4f402be689d457411a39dd65591973c510705c04400244c1454e5d7fed005c938d601fe3c0ce53bfcf652476d06f8c4c444dfdbd82),
  (0x2406aa1c3dca4ff0113a763d893c1ba270760a1be816d0db62565458435c78fcc902eea1fc64c0db5f75da1e40e435869492791175de0a0abbea61c0f8d13386, 0xb994f2f9d26c1e39385c280b0308a35c38424cb30c8d5e1f0a8b01bdfc5740c4b920af68c359330062ec50820d425dc94b92c0f293a75e9311a9f69b508861bd),
  (0x66a95f0685b97f88285682c9796d3be967f5a0db7b471f06762bf9591a05d1e87859010791ba36cff08928901a88fb6b355f6155c4756f1a517f7bf7dc4ca356, 0x5f1e0397391e6d2be0fb4589d073d7193bc4977ed218886ddf9ddffee4bba02e477b332a8341627ffecf3f277fb0748fb742379af406cfdeb1cdf4133875abf3),
  (0x9b0607a1542781fa836138da0dad3993103816fe16956971b0485da8890d844687e089d053a148c4672c3b3e9e99ca3c758a6bcbac03eba9f2f2ce596632a280, 0xad4dc02f3212b6f7870bfcfae8e8e72b170a590289ca088d53f56b708902bc0978665c3033eb10a83910336a8bc18b244ea00023516a8e61ff94ca65a3c14498),
  (0x9c8a23a9af22fc13bee9d81447547dac718fa1467ebb5e304c675b15af704a3c2a84668dbf064b2fd8764f190c2cca397ab10a7d9976bf0c5d754c7d7f2fa98d, 0x35460075baedb50d395c46b8e2ca9757575a9cbc4ca6f5bcf420ec243204f534903b1a266ddb4e58e414adc8cefb5cefef97c00c323149a6daf09d3fd94372e0),
  (0x394befd439ca5b50c6089097e254af570962a5e18b42e15832b43ccb8aa05706588e53e7b66e261dc1c4e5ba0cce1fa4779cc6e2061588dc93fa09d9da73f9ea, 0x833bb4486ac12c2b2a6c057361dad62bea71af3fd02b05385416d5cb51f71be37cdb11836a66bd4f53eb0cc2e38517e9c9603fc4f0791650459edff5077ab94a),
  (0xc12211d605b14fd83c513c317559ce1b86cd258726e024714d87533beeaf84450c333ade4c5a4e3e67c61a8bc60b03056fc2934a8952b85a4e26fdafab12963, 0xd884e5efaa7c01a8e5973f2d00cbfbd2eb6481efaca7f1a9a654e26563926fe0515a36fbe43aa7e00914443a324ee221746d31b427d669ab4db171f580cb3290),
  (0x43f40f344cc2a5db4135ccc9e4b8d4920b10e7b08fd905a5e49d80eeb8c81ca6b4046808966a89714e83141e6c2249141fcc4e31f505f45857fd3c45138d020a, 0x7e9199dd0b826b4be72e95aa48fb1e7992414b1b3d39eb40b1330a6bf77ff3802ca67cc8b3b55bb1c3e1368e91e0ff5992768600a4432df421031af07339fef7),
  (0xf95c916261963430147c6d69aaa6323fae344eca5f54d8cb24209cf215c33039d31a92db8313751a51d7bd9eb79d08530ec136a6e26f06968b2742af81c7f678, 0x69ba17b89c180df05676e71b62ae7088e754368613deb6f95184aec0c62ff559d6aa62c7e426ab41a3a3d6fc2abb58dff12393d3f2ef65e12fb5891cd944472c),
  (0x58719bd20c3566f26b27d75dd25880bb0b7732c49bb286d56c2c34bb9342ca0dafd76b6c5de7a52a96b7e40b6246c87126b397da55f96c1b6b37a100c5437f29, 0x7022ea98e6a306b01767ead57e692480b309d798daad380ce26e8524af6e76964546cb36a6c32ebc64701311a2768639eefce6fcb57ca29d3c5237942f52791d),
  (0xa8a9e3555d09255991956044611642c28424f3819a3fe42707375d52d72c2c39d12ea0ca2d80c134243edfcf38c91141f6822de5a0c765279283fe3d267a90ea, 0xe7ab5603281ae6bc879f0b905926ed66d712a50122bcba38477e169dc5c283d582b1b9b386307a17c8947aabe2ec7324f0bc7a9c1ee7a68fed44daac5cb1c0b5),
  (0x27a9855819352363e5fe7a107305e57312a81ae9f7d41b78403e04a555e27498544e13ae8bcf6409352ad71e9d31c787ff33460b4751750bfcf105b65f7bcf32, 0x8fb46856ed0dbca3abdc7df0f13741ec667478212b00d877e4b669f46929d20686d3fc5b24b61441d5d7437a263270318e32d1991e64e4b7a86e22f23c2c7b95),
  (0x610c6b08ae1b5a4f36eb533b077e5536c80dc7ef93af1e5bf917172896551a4a6c36631457416996071e5024a79dc44ae4e576d886ed78397f5d932e99d2ecff, 0xc90950f2c262e9d59e90ff60b93eade1c761760373e2e2768891f4bebf81d6f9a4af21664e35cd8af6fc1998fa42d019cf09ff131d7b6c45a5a710937456294c),
  (0x908fd950cd43d32b5bff18d812298bd80b4c1e39838669fa7bdd2659b788426cf90b895b6f3f8b7bbfe4630957c46b51fb7917fcd9fa7d4a47d2889096f11203, 0x7c9647c00eb1385d04b1768d0f3a61c6922f0e838880f6ea30acf5ad53be55f345233a7b9e2dfe17109af47427fd283902bb6ade0bdb5ab33b7fbc75af3e4fac),
  (0x36735189443514a428f65717c70ae3fefd15cc39e7696aa85f31e97bd2ce628d67497b3e0e186d4ab7d406a558df65b2d80df08e3e84f89c8e9c2602089dda2e, 0x7bb5b9ab8b89c8c8fa6db28f4b068e2d36e01cb8efab57ece1d2dab8b3eabd75b184fad127930ff3fd8001f2131649cdf3208acbaf5aab032eeae8a2e409ff77),
  (0xd73e2f8cad19ea0196cd6585218821b5f97aa5f3d60da7e93268a914244f960c4f5099af7df540e9d7715abd72a94c9144bcc4deb9484063dc5ceceec0165b38, 0x8e1b5b175ba6b35851fa1f83631f243d602ce6a2a7ff559eed6b2eed453ee48098ec6448cb90a4460d9f75085109242d1d4ae3eb228bb3ca308c467bf846fe88),
  (0xef7aef649ce7370fec63a4bcf71d008149c266ea6586604ac30a05d04ee2473e7f54812246cc21294dc6d59f1db97b2037119b4299511c4c18ef1e96a8b55cde, 0xfed4dc8333fa4045006586d5f175fa1f2712233078103f8bac5a93ef5509f647479ddd3227ac19c1a014a2504653656fcec71eba7ffe7ee35a4694a5c2452168),
  (0x1dbb12da2bdd03d152e00041a7d51c49398f8b44bdd04d4ef64dcac97d82f95293a59bbeaaef0530ffb30bbd583f68a0b7ad834af3651eccd14a2fdd913d2469, 0x133954708864c103d6a77e4dd0ddd88f864f225b5f6a250cc83eae8a931227f3baa9ed334bd2d0ec0529dbfb6862a0c23c0bca65386351a53265c3a995c7c4fc),
  (0x8f851cb9d059b53e95fa878ca3ce228b80aa0c02633a1e8f761746166b5ecbab05989101e9a36055d16ceaa28a575e3e6b64e5fc949d5f190ec140ba4161e7a4, 0x6e970893851b8bf9d62ca7eb13dfba9f363ecf7fe47a4db943ee7a48a05d6004e58c89fdc45abc86f341bd5b04e42d4a6e4aa4ecae4f7c41cb20ebd2b206ee6c),
  (0xcc846581868f6dcd3bace2ab93ceb627d0918d7043d68574dcaf09df2ed56711fc2b8e7f100ef5527991a26263ecbcc3f4f13f8730dc56cbdb3396272afd2daa, 0xe126b6094d64792ff5415f10dfc0f459a50d227efb0a2bab09845913211745db54d2b9b51157bffde366283ec3dba0e97edb1c938468fbce51bbe3e32949fb18),
  (0x4eaca63193c7f1b496579c726c3d3af55f56e56fbfef4114719d47dfccc988aaa2e14bbef135d0552360676e3f9191a3fa2175bf821dd4933e93c250c0ae7a20, 0x3352e0875b32b656ba3a9e1c64aa6372d7978cfa85d0f015d33f16daeb5e4a60a4543eaa0c50716b0de10793ffca424378f28baa09553d3195df079eb967ec36),
  (0xa060ae670a8d14e0cbe89663b3d4e181eaa716917796a5548da897fff7e77cf45b5947cf49792e9c978f93eb0fe2d7b1e944911508a11fd9b56215d74d1ff5fb, 0x229c971fef62372c08f852113ee8eeb983676f5d4bf01ab44b1d06ee41ddb183a82efd952422fa61534a06c72a853148c07a3a757bbf711a697f65c5897963ad),
  (0x1d294c11dff1b3f711767439f6b52ae982dd89f128fa2707b94ecfd734f2b84e97342f74a324bf4fa7207e99b51bbb98a1d70ddc9e7d1323fba12ce149f357e3, 0xb9be671c7fa6d9d9c06ed2a2740f967526d6d41bc5ce7957919e18590fe1761c5940515012b3e4c7875a58197af62070b3d7c058886f366670e1d195c492173a),
  (0x4bccabba858aa0ddabe287edcbc1a64b6bf970964d14e6dd1332875233e2bb958cd350610c00fe26ae22a454b05a3158a708ccbac04780c37e62372dbc024334, 0x1b770c1fc07fb07b1926e102d94bc32f5b42a643471bab61989ef2243c620b1a1f6cf6917f62b8fed4948513a0b885c3c4324ec295ae12759febc3f8d59bd4f8),
  (0xf3d3e5f0f2b71c7bc96f620e256c71e2fd9f38901833ee6893ffac8d3c7a8c9a0835bf297cf3ec2ba17f9cae4d36026f57f4036d972f1f3182f65281fbd86ee9, 0x1b404d92d5f265df078a226f319fa8a33488cfb352dea57469049da44e9d95dfc7c5cb7c8d7f69782c811b2b94540ee75c16130e38699861c0ca68376f5a542c),
  (0x1a457a222f72a33c7ae6cdabe235ec699ff2bedc4135887ca3a41ef91217c8429f3b43c824a812d43261681b771bd321061ec5ce71e2ebafce8c2960c22e69fb, 0xb3eeafc72da116396a8811cd0e9d9006d97f613b1ed9693214ef0d4c233599a180838b2b1e5bddaa3dd98524e65ff0aea1d8fd7fb51365ceb58e7330ffe31cb4),
  (0xb740088c959d09dc0f66e4c429180ae6beb217fbb55984aeb7ac9149723c4ea2bd6421fe9c47146c7a27218bd74a6245ae97ef5de24ab398e9907ea810d19ff4, 0x606869ab1c659c1aef657ccccc1db6c7834087807840a943b7bc202acee6e804667ed110917c49846ee70cd3703f0d3cc5ecc91d2b84105e8ba6e82feb0ea855),
  (0xf3993004f931c6a138407b114ab0ceb344e6ddb6663fb508e6b6076daaa65b78e1c0900ff30e9627cc662144acd2be19159a2f9724caad7e8e85614a217f2cc7, 0xe37fdf976c07a805b648d63ae4d6059e1b551a8575e2cb3201c668bf5f3249a82867ab04f3c7b6c609b37550ee48a36be48baec966958466253000210714ba7e),
  (0x42922e225f87a691c8919daaeb7f5a7c47bee2480b1a5b3c35bbf81d6b100ff73510a9ccbe8e9fcdd89a0e87ec85ddf909942e76e4c825e03e54154da5316f18, 0xaee8b6fd76a0758228b664744db787ec0cfc46680ed8c6d776edcb7af96bfcfef8c9300fe35eccdc537961944b775a4a2d4ed0a41cbc38f86dd8e312c54b3c23),
  (0x9ac243827fdeb5eda3ad8923ca50f500a828b80ff9e5ed5eb1aaaeace1c5316a05af1f6e67af45b3b01697b4b827f2bf09ada07a6b36b110b81e51f36e588e7, 0xd63f36986c9fdfa7bfbc9ca33b0c12ee45537e5c023e79a43562b65d0ec79e56213b43dd07a2f6485f2da4762262cb8f39e529145ae651ddd5496c9ea6c0a8a6),
  (0xb11b8257af233e9d5672027b4553303965426fa490210c7ac5d77e23d7740eeef821c5c707a153dbd0ce291c1863db5a011ff984498819b23fea10616ae332e5, 0x4d9afbafb33e4eabefa34ca3d6f12e2d42e1543b0160664033ce850646b72136bf1d6e3f2d1ed82af76495c302c29fa5a621badab01e0b8b24be7f633ab2b74a),
  (0xfd3e12031b0c1038d002f818186400f4b2d8f9a9b2015740498da9e41ded0aea6b7e368f78a2b9b17a4552254869ec6559fdec605ca61417722f5f09f4ff954d, 0x870dacaa7ba668b034b4e7c1f4f37350b84f03d9e4f70ee1b67cde3b4135a86b372feabf7f0946cbeb139337c1b5d39819fc70c0842e8c365a05544498fd1da3),
  (0x5165da21d573f5b79586b3fa403aa26cd5073c433ec9237619842ef553b0c89d1ed14e52d97c4bacbf7254015b068575b665faf4d4fa918c90aa7de297d877d9, 0x92ce5b5468078dff898dd0c90885cf451b20340fd9d9cd0b9b26fd5ed9b474fcee6f8eb38b470675a51d55a1c1d4eeef17488824c6cd05435c5f871b04d4cb11),
  (0xcde9f7b23add327e688957b8b6598c9c5edaf34e383fca019fe7c33d7d54a9589dab2312ccd4d27fc24aa3cb257ed1c081880b0a155e7d9fa7500100ea847580, 0x4db02cee1548ee417749979b8a1ec97a9140fb2ac65261d47cc68949bfd0d17f72f87b01e7f95446a552f2d1189b1ad901d278b7caa6c6f4fc1904890f98d19a),
  (0x190eff1c01830742d4bb28d84780b72431ffd5b7a81548edcb7bfe5cf875191e0006086d9c7f86717b076c5d9e1f78dcb24097db1e2c5d787473eaca0dc6dc17, 0x17413a895ad0ec7b0ba6a35b17bdadbf6d9aaa9d43ddd7d5fb9f6f07883f9825d9bf6cfa3cd8df8816185fe21b9dd5b022bf7466f1c0bd9c1fb372ce2556c931),
  (0xfbb5b353c821e5d39fcace66635f5a00b0731a50fea25da5b6a4ad29d5db37f2df0b5b1d9f9dfb4aa257a9d241ca9b23c6a2a2245e57851b51a020bd9ab2fbca, 0xa3468a2fd326c236b2416a4c3d80843a6eccc113ce6b5ba329158af5451aa38f3c056b896cdecaadfac0b5fc60911c3ed53294fee7fd02a11fdf0a567d385024),
  (0x4ab39e00c4928f34ff464f8aab392eec6b0d69de98e5394bd02926ea948490ae5b3ab080ec2b17c636dfb81525799e18723a49b99bb29621a73d9447e185a894, 0x97dbcbaa613a37477981cee243b4f0b531e61e65a9e83dbe5e1fde356a2a2928a44ddc3bb6cec3c3d80906bde3bb2cbec45124e5306e07a93a99d56114fe0a95),
  (0x5c89750c3fe1cc95d8bf352372c81e731a3a0a09c584f00e2fabca55d10dd57e090600ab931f0d396888fc307b9c7f87f96f79e853e010c6710d41ac460be5b9, 0x9e67dbaae49f6d92fdc0e40bfc4275397eb794c701d5d76d0c112787be6726d7546e1847a72f61c28f479f891f92caaf7eaa27d742425595358bc5ef009e474e),
  (0x27977027c0fe33b84bb68a1bd50d4bb039264e54bdbe1cd22d07ec3decfd289f6f7976a90a2d3f62afcd8e42bb226c09343f22441208a788f2ce8ec7eeeb9f6d, 0x93e3b535e6ba687db3d79150805d35c6fafab936d59b4075ca860ebf13d00382e4a28d81ec758360baf3cdda76b9b4b5da337718afd5a6ae4d58a9c6af9187a6),
  (0xb4f1c620d13ad54bb9f0eaa6042c8266e76e34bf3e9f89bb9ecd11449b3bae1d84252c4f9edb37e09e954851b85c1bbfa9aca47fffb74aa5b944f2f9de547804, 0x49257834d01be132d13fba4c840253d1a3841a0c828cd9cac0bacb08e19ccad605e5ac102bb36db0b5713dd3596e0a6f96f6dd0af30131b6751bd407b62430fb),
  (0xed0c2111816d62adc176d601ef4a88d2ce8ec3b800bd40b3792161d446677de1c24e78c7b15fce34e47d8b49f05ac6ca8a87851baefde4e9c87239e1d1e2b2c9, 0xdb6dcef6862d2ddc2b4df14122eed7ddf193044c7eb8d92c290264a3ec202513b8be0ac9f61d9f7fdbeb878c50561a0cc71b02c7a304ccb5f8f282d7ce46e9bb),
  (0x5bfe69e0cdc2794c791dc00176196cbb7cbc9ed99e2e41263a7e1e2e44b2cbed39c5f6d49d3f0bb65248f11a47ce97feb068b2fee1f8533adeab28a76c31825e, 0x745a2202bf7a4955991095b24bb56468a1df7d1844787d164ff07a7986fac37e58813947f8bf4fa55c8e34c0419002c6cfbab9278ddca2bc422e42e898946f7c),
  (0x812a3b50021718c3d037a7bb360d33d2c16e57d55e5bb586c7bcbf42b772877ecec94597b846f98d905c328884a009ad2f36b0dde704634808bec97fb90fc6c9, 0xeb993e1efde524519a7696e365b89eefd497a2759c854a5fa9bd7d44bd93133980f69f56deed8e2e68176caf0b9f8a3f7063f2b5ae6abff37b5869607872ea74),
  (0x15661ff82606c502c83f0ad2a5d4c5c3601194990a6a6b5cb5ee21b474b7172bb9f233d7f78ea8019a12d3862c15b934e4cc39ff6f165e02f0ad3f1e0c0a1e0c, 0xb5f072d0848e8a24b5f6d562827c5db8783535d2fb25fcf70268090c5a9a242e39962482809a4dd74376dacf3d72907ae572706794c592d07ab292bf3bb8a298),
  (0x2b46295e1961f4e4bbb80858de3fb40cd233d0acec7b4683ab692a72e670c4202f75b241ad7000850a008a4400835a533d4f0c2e75e565142493b92a84f65fc1, 0xd004e379d0ba0b08e3abae888df7534449b7b3a24113cc949198e084b27faa4fcb9d754b33c48ccf4ce16e79600b8a07fb1b1ac20bc2a682d586c796b4cda1ac),
  (0x50d1a5276aa55173d637e5951d952130caf6aeb8ea0d78f3ed485916aefb1e8fc8ca36c8a3ec4f76f13a3ce67e5ad6271f29d0200e0763d596a00f35fca4a55f, 0x8ef52643b7f45f61dc97256f4ef6e59676c13c5a5fc1021b56eefa2e69231e8e462787647b54622d3a5ead6e15c3d6c5025736e5ace1302ca19689211ace476a),
  (0xee2570b998fc23ca733e5cc84741bcbc0965397ab35d9eeb68e588b92a14997209020fb2dca20a81e5e4aee5b893df818e37af0db478cc4d401a7405bfbb6e34, 0xb26d641930eb08ae617f1f525b605e7e9923ffd1c8911bbaae84b9cad61699706b5ec859231140dba3c4f836709b3a43d97f868ca8e3d204ae08917ecb545bd2),
  (0x47f34677de33343605247a9c8e755ae74253a692a070bad8bdc6bf52074bcd8bb3e06f2d2487fde0ad8f0a4f268f95420b4a47c403bd782404145e04d7bf1057, 0x5bc8d871600a0a041eb079c248f86b9f09e8fb86df18e1c862daec20c92a589e9856e0521eaa8adc3f81f35205ae8bca82a2aace7907d59485c9982d8121911b),
  (0xe2e5d3e4f4b5af290365d27b8ebded6d708ad272ff2e62f019ff75d6406d2a3e9a9dd9c3dc43d7276870f57d494ef2a087525faffa50f5145f6e844ca19bb66, 0xe9503783e7a687ae471910dc493bb89343011c73d4a4ba27784524e53a8aa3b133f4cfa34ed9ec324e59201d82b8a3788c8182eb17dd5418bf1d6060ea4e0c5c),
  (0x78492c69300596b586d5fb1380bd35d06c1a92f5e00507bf5f05d0f1eb28ff52baf9f70f0768e6a5b174ca87498d19bce8924bc0f67d6877db08515b382bee39, 0x39a4b8c03d410e8353ae8ef615906b4ee855e0b1591ef0645fd745dba719fdb6758cede7fa406fbcd78c6a8b6667501f541dca8e6574086c74f26baf7d61d186),
  (0xc386ef8c3611b546833c53c0ef54c5c7d2cde9e2002830d3c7384407130fed852436ec17d0fe8fb0765f06eb5cfddb4ccc164ac3a21499cc695f8da6f29aa5ab, 0xe38e36a8659d673da83611ac11526c3d3466f11ffe99a8e75a603edec620d550105f3e5250c9b32d1632b07128f7cdf124714b68b71eff562fd614b189aa9802),
  (0x6caf2ad6a6a75ba639c4e31318ef08f26c1a17226ea36b51d0031f038d6bc3c6956f32515f5087192eabfdd231e61c510aa330c0486ae4691b3937570c1d6222, 0xf61742e39780e805ac0a89e80eb6808bec1a2e591ae84220d458cabe215f0515fb6d7f153f9245bc48fff9ad179e409e66967dfddcb0818e55c88c5d0e8fc7b1),
  (0xb5a88e23e5a7126312edcf24b190dde0df8f28d1504bb5973a121cae3fed2a08d0656ee7c5c46b53b6925a1a2f543940ed6d6e00c42fa4a5fff35a2fddcedaef, 0x542fa8a54dab944494bcf5555d3e5fe03a81ee0cfcb9191f418b93a171979c3b6c0010c60a8e6027ce673b78c2d08ce0638ee60a09e93de4561288521a5957dc),
  (0x994a4aa3e0b9dc293675dcaca08404f333cd88a002c7139dbec43c97b219a067f16de57b820c184621c5cf350519828124091a53b881de63722dec93203e167d, 0x1d8f7975badadc3d8f162faff4744233cc59d2edc76c1953deed7187d817522632d9a284e16951629a2bd830430c7bc339b37f52e443bdf4c2fc8a8552d5b0de),
  (0x21090f21ab599097ad3397189148b94f1e88c08e4cc63a1c40d6b3c64027d4c1e8be6bd44e234b05029e92453c094618128197edc95affa477648ff01b683d27, 0x4eda9e26a3ef625020f3c3f5c6e54bed033be76f1c4be0f5c16de89fbac635c576379d460378db6325949b45116296baf3a61811832c212963b7d907151b820b),
  (0xc9ae0dfcb525a300ed8dc216a94b9a06053a911e5b989fa9381a0d61cd22f702f651998e9f6c603c4b1f91af19c85f312c1ae4e88f62c46f000eab4847e04b75, 0xbb743de0dc6cb39ba85a4ba7974855e1e00424276076d6d7a2bcde3eaa822550b47a36b5a25525bf6bd20f9d285c6122dae67b796af71e6839c51bcac6dc3346),
  (0xe30d378280bfa94ca483ef505af59aa52d6de4df79d4855056406bac9e23096d1114db76a274e0bf8b19a2ca8c577fa2e0d1610be025864c32979dc8399749eb, 0x92c8f2a69ca893bf4588721ec7e546597ebe26a640a5b0a3d5720da019ee71e7d33abf56e0ce0e17f23bd576d21db27d1e9673cd0eef706baa871e12ed881981),
  (0xc34738da076448a0cce516f146771237f179e08efe50774a175b8c7f2c39142bc1ab2f355b1745ec2bacfebda430e0aefc4e7e51d65b3a36c22fbe2e224e936, 0xfa7c4b9dd131c1ce0e9097da6f115fb2b3a39fabc8a0f2971443f54ca289de99af227ed806960fa592d16d8e7e17710f4789aff22cbb5f7df50f22fb639fcf88),
  (0xd6f324611b560089e3a93728ec3e68777402f78ffadfb26e95aea231b90e45d2a6a510b47d87e5d7a7b49bdb325c8a3ee71662ae4a87dac91605df2f39101002, 0xfe40590c5701b14777fcd6a5254bac7c29052ba7000bdea70a7a88cf4ae34508df071167a322f731b43bceff9f1a8b523964a47be06312ec26cc52a758e5bb6c),
  (0xf6469287e90e5c573173db47ead5274244f33e40310365633a150445c139d4377f13a85af600f9ed9383bbc4fa399605559472cccb8eaa7bc8e102f8ddb8558f, 0xb6b17c5b155a1ea1f382ec08b55e8e9b22785d1e37376249d3f1a1d29a41408770482eb3fe7e197b15c5ad2be7dbe78eadb1f2964edca6d26a315e65dafc4caf),
  (0x1ac94d1ea8bcdeb1ea006dce84bc30444bcc587c5c446de02c7f538b80ed86a425894ef53d52a93b1a86f24f640327457c1a153f2740c5b955517c441d45e17b, 0xd8fa2406302a0fb99a0d682f66f8c749bb01f1757c6832763e929cf16040a867a7c9887ceba0f7afebcd6500ecc57bc90a833d3dea4e864c350aea346682830c),
  (0x1c25d6e2f1bcc750aa2801175d53416f43928949b0c0f1675a91dbb37fbec11246f25a64fc950bcf86fa47a572a4b47729331412662e979285cc4cffec2dc0b6, 0xbda091de137e4401c924ae6e686cc9d820c5e68b76e511dcdae9242f078bef4dcca949632377281f70ca15ee624c37cd2e817d9c2a51d0aa3f31346743ea87cd),
  (0xbc574c2cbd3a70c3f36ea03f9b324130339065015b787c4864214e6a7822c6ee6dd871b7ea01492c95add8d38df74ebe8b7cf2d3c10e34c7f1c3f9ab641cdf69, 0xe1bc472b60c08f22818e49c468dab82157bea151fa7ade547b9f116895e2bc598c933239a8d23f679b9a01711b6f7769f94e0850e5f23f2d9d14ca3e2b27fd96),
  (0xd74f3ba682b8e56b504b1d590b6b3d6cef03bb1b8f3dfbb9ec5df43e59a195f293e029dd50410a9a5f28403475c903b60e44f9ef8d852e4a12438657f0cbc861, 0x1719655623da539d81f7411a98cdccbdfe6961beaf704594382319188795f7475436ddba1ed8c8f72b1073d52e419e4a0f67f0e94610a4a95a89c4e8103812e8),
  (0x51b2fe0902ea53be4f30ef27ec6584b60a820d877188adf6c753049bef623b19c231c64f8277765f294b22d1ee4cbf879d6fd81f9bd56f5ee48719459b02d9a7, 0x58d7705a51cd000630f28a66252dae7d28ed6249c0e21a3037fa5bac81afe3e747cc7ae6e6f34fc8a3b9518e7ee75aae2dc02544aca7bb6997435ccbd414cf9b),
  (0x6f448212eb96e17b6109d1fcea1148b46ab5848969b3c3d1a9c88fa468be063d9703391b33d15a8bc4d47d98f07e56b2bff4e1a8502247550ee583792a41ac88, 0x8dda058c790992d577b93319e17c7afdbec0e798f827b427f4779c9efedacd9e020cdf9f687c1630f29102b3c43e2ac0bd020302077b9ed8a18168ddfa67de3e),
  (0x92e588936f793c2e5708c2c7191a4809cf58aa22bace31324e16b5aa9cd18b2d54f4417a7ade1eee02ea6216886acd58cfebf2c616d402db9cd1307c20b67556, 0x81960b26d18102dbb39fbe45f17b98249d939ec73b3afd14ac26f0c108635b403cfba2b3aea1c33f3e17b6b3b33ffdbd3ec71ed6bd18c7c8083462f766ab75a2),
  (0x612b08d45088d674b7d19815180740774540eb46b6d36b094ead00b33a68821a80bc1e762d432be26937f2bd336472b0490d95a488bce4b63785602d040f7437, 0xa2ebbd73d87de92f7bd7f1391da1762471b2d68ec8129d136998006c43652974191769421e4f8d1a1d48883288a9ebeaad1ce88aff945d5134359ead26dc3145),
  (0x2ced7a8d2c14af955fd892dd1db34ec5b6ac3a65810dacdf98e2d7dac0fd7ca49bf3ec7a629d07511ed4ae6789ddf01699395855d3079e3a04e826accf13c83, 0x5d80200bbe3d6ec81dedd7c23505c5f54b4420d5b22ae84436b3c262b29deb2d3dfb3d5782c97b59edcfd0f8b53671711392e8ee0f2e4e74efef43e49927619),
  (0x54b931ed9eccbc0bb6dcb9f3617f285f17fcb0abe6bc95fbe11769732b20e96d490182d6109ed137a5fabf8f9f6460dd8a9c688b6f230425a2601d419afe92cc, 0x1c5aaf83a2ca23a7a124acaa6f6f87235ad5e9b73fb29cbc6c7008254c04c4b82e896484f65cfc935f00beef927f87fc47675dac4eaab27467fe3bf8f3ab360b),
  (0xc421277e1c95cf00e6792d0f30cfbcbb26cbef31d62b423cf7d68ad6ddcb602080f543b98f648393f5e0a7c6f93d006f7ff7d226762709fbc881788f8e37cf00, 0xf3424c055c26a2e547276fa7bf8aa8b0ea355bfcbeb3f2df8d14a5a7faf086833cf1f4bb2ee4f26e46b2dcdf7abe902d3fe686554eb8c2993d0b8819b7f40698),
  (0xa76eca455fbd886bd358f7bcc58d36315b3302c27bd7135eacb700d9b753bcd0abce8debdf7da1fdd09a7d10f0b929fe4b6788590349a894e4b90b6b6f21939d, 0x445f0a8faf867f0fa80e49f1c426bbe8e45129f86e58c82e3a7835d62c70587ae8a34ed5f383a04796966cfe775a82438247565b6e6aee6eafe5e97429f40d12),
  (0x8a5f61f4c8974b07b5e0402b9e02f3ff3d447b48f71fcf4c7a2f960598528c2541660c249873377bac694f1f7ecb98204cb1621d00d94ec07bb8b66d60cfbd6f, 0xcbf110aad67b2e9131ceec25957877a0e77da97c89244960e41642ad563b19ce332952d86bb32463ebd855cbcd986a819e474286033c393c073c695351ea6552),
  (0xe41b68e9932cec4a9923bf04ff13e8f3dd855de10cc30529becab68c9f619d52b0d1f7e21b7f59069262729d86dc0b388702a61f9c0bd1e7fda7fc3e471a068b, 0xe78f81973b8fd69c4b2b752f4c7f73502e4e520ae8de849843764142fd2154c051345443afb5b5144ce953628f1de661186ee50ca6c465e54e388a74ecfac532),
  (0x67c9730e6c261f26f5bc751c66d81945cdc05125a52a6cd551c57331edfed5757a08fa8e336dbeb1b1e85ef2227e04f3873e324c7f8c494c3ce2f27b3e7019df, 0x63ec616d6e8a58a2e96e5e87fae157fa014d81ffc9d07868a25af3996a3f320ecbfecd642291b30b9af720a04f6b8dd536aacfff767042eb1946f7be38adaf9e),
  (0x696490d3f17dc7f44c49c6e02b6f9959b1a04ceba5b63f7d512ffdb72e1bc5680f5380a4b8d5dbe52576d8c3d87d3f4138f07843f6b6c91f987522e794fbe5a9, 0x4a90acb31d450174f010b9595b397682d76ea2b592019b013f205db1f052de4b64d66806a1470f4307e1fe29ffc67e7d0c1a4bd2677b6b4b3157a3efb0475bd1),
  (0x907c003fdd9cadec8c80d2bdf98aa161eff6c782dce1327a0bfc55d82c786ecdc4d2726942cae32e57b7890050d3efce79038c320120e28a1cc317680e941468, 0x42093b818b555e85a0f3a5499dc0aaaa2028e3e20da579451d443f26e67279ac3d4b1a26782ada19a0a931eef037b2d14a63170506bdabde1ecdc1a4263dc6e9),
  (0xb60186af27d3b2af26ae1e7446f2c57fdfd871fb783d1df5acce901cb9c155211e626b781b836d21aa006565a65a1d7a8b300252c3b40c6b7edc7e2c9ad05050, 0xd576272e415cc3e710d02da7cf3cb0ad09ef168e3b20113fc6cdaef9e1745a59e85026dcc5bfac1c817ce309315eec2622b204414e48de6ebbaaf2a05f820cc2),
  (0xfad1aca3ad670c2908c2925ed6c6878b22bf4794273d276f722eb49b562f0811d267cd545823b71ae856c2d2760f90d0d07b093b1e13b25c17833bb689bba449, 0x76b8541d9b981f8a04bfc343d407da426e34053e8ba963940b575a2d82cbbd35e830ee74fed9e40bd5cdf725ce52632a8a91d3aff272de13c76de8a12d50857b),
  (0xe0b3384bde23b0c020d570d5f5953b4b6d29a97c8b87a4fdfce74114cc08c9811473685b2aeea1dde0e101039a6c81468ba4d4f3c5231f4189a1b106954e06be, 0x628a38b33e95b86e65795f9827bdb16d4bbcbe9114fef8dd74afa6753b47831a32f95de20f3269ca2ecb0bdbab449c088ad7eefe9aff7c7855e6855aafd691b5),
  (0xf6c50c55c1caa55f3e7126c5fecfc61162bf275df1ae13be809c5f5a88b75b65a3460e7ead13621a73c13387ca8261ed042525e0fa11f6eedfb7da2688786040, 0xfceb1053633b9ca04f96a26eeb80b0b5bcf1654f34023fb75fada3aabaecce774b6877230ff9efec1949ef48bfdf74a2b8ab51b3b0975f2c53f251a45fbc2cc0),
  (0x878d7764f9e004a69ca26595dfeedd7c98a4460b3ec6207658307711973da74de3d94d94b671ae81685ec7ff8c147f0d3b7de97961bc0ca591356cecf384a7c2, 0xe355b07110ddf9d11d7b71b5a237b6c525b05c69f50e164532b9173021b9d473bad82cb26b3ee89d043008d33018abac5385a16421bd95d39561ea95d8a4b759),
  (0x36ca74d3cafd9def04efaadc25ae42a3f7dd5176ddef91adb5ad0a7c62eac0c62c40840b7fcc8477fdd9a510878ed4d6b43535bce74b9fff23129777ad1c4f8c, 0xfb81143e62a569e51bddbefd8be136f669856c3000e783d01b7486da416af18d34ae53a9f090255c0852e71df9d378ff781c9a0b722590835b88f54269065276),
  (0x6ea32d7753374d42dd08c8e36e8170556717084d4567b2c817026c870197959c694d042ec9a4f19ca729f3bbb98a9b50e19f4864e0e30cde63911692abf9f0c5, 0x1e15a3bbd9ca25bc020fc1c1ee26abdfa67ea0e28fe0b0aea580f7025abd71060c56e2aa97010207f6b410def5a150524c9d22f102a5cc360181b15469ae7865),
  (0x30dd001b22aa2301bbbdf6d2419d39ab80d40a4ff28ea7d8a0ea5fbd0d1f7e8361f3348697e597d87a1205fd0594d0c889ba93898f110c395321b38534be2ca, 0x8950b2fb1a17e7f33fe3004747b83814ba0e95ffd5dbada6b5db825983d11531c1617dda57bd4fbcba3e6cc1fb120fe80ebd38b39879e8b0ec8358ce71ed921a),
  (0x85f11f7986b61ba6608ef65d811c3218a70430833091c68af632c3152a7223659bd1e18cbf73bf8cf7e1b80be26673c3c6f036d0eadc6869b39096d1d14cf77c, 0x890f3642015852609849d503505f3782bc0642f0e27d3f3e4707951d253fa7c361cab48dbf813640d43a4f05db5dba68d7604ee0138f21706a71f4df577238b4),
  (0x7332953f81602862d7efcc212ee41bf8b0257e9b1f4790f9489e7828ca0f6e08b6db23ad71d2cbf692ba557ea7e7ad3078627fe3aab92fc9934a716dc572302f, 0xd29df7e8e8f447069aa7217369be1002d90cc3cece26b664601114e52a798409856db0149a78da0593e70336ab975d26a0323af39cb349a2bbdf94aa82eb82b6),
  (0x133dc12618314fd993955c2b9b8f9df4607ffe6f1c254f81707a05aa9631e5aa318950869a0b643d117ec778dc31435615775533cda16217e9cd3eb3a91497f2, 0x22f4be5a84b25c3d1481052b195536d2a72d6c9700c0c903c2a2e28c2d284ff63d2dc55f84ab37aa1819fdb4f902a5005d4f0afb0a4011f2a81c7d673d2a7546),
  (0xb565e47d0f0cfd747126ed3495a2f1025da5fb2dba9b89fc8875abae76e74f16e3394e4a342073aa2eac03a1bb11c1276620ee69376b93b29d64cb636a20f459, 0x8801868375aad11bc02f94719698d834a3aeca4a55bb1de7aebd86588aefee4e41fed1197ba9c142571028e6c0bad847ba6382fc046e18f5ce1971f261d21db6),
  (0x92fb5b1fce4945e3667ee362a9571e7fad6b36383a7c7010a5ec70f72ca5c4c930f5a848ae02f19da5d9492633f2805372db90b7e4dbad7503a6af335f103dc9, 0xb7c8e1386e2508416b5cf4f0e37fae8604e38c750d5652243a4bfc806ec006e1da2701ad31311e338f651e3d9a35768636fa833eadef520206aa581766d06066),
  (0x1b4f54309a68d3895eb579cdbf0a8b75eacd2dcd3f87ed3d863be29b5d2881a4922c152132da271dfa6b56b8d81f1dc4bc232b75d74263410b4156d306e419b7, 0x48a1ddbeff134b7e42106f6edd2f172cce277313e2942480888b5d9d20d0797cd240d5876082eee30f264481b3ffe8c6cd8d0c42ecc5ea643c22566cdbeb82f9),
  (0xe76addb3ffc83c3030c9c5d6c288cbf717409bdd15ff034089217b6f29e59f9257f1649faeb022aa4447134e29815f592ba8bc8120a82314a5521e8f9dfad88a, 0x4276b43e7b154abfbae55c4780bfbccfd7a0833b7e6c6e43512463e43bc33ee03c1c03079b53c4fd63d5e9c2f8d0df710ca0b450d8310bfba21f26f02c0f51b1),
  (0x7f2325d9dfcf433c1cbf8cd59d290f6c8ecd5a3e0382b2fc0a7467e1f2ecb09ac2c99ff661c4a3ab77954377eda5c6c342701c29426011291db6e73c60b7b478, 0x161d02d47dde404b51214b9ad1d2baba8e0bfccf5af0a14bc335b098eb8471c561edf048688cb6ae3853f4e4756eeee5079b049294efb8a7706b4f3960d98030),
  (0xf8fc82bf0e6485349f38d417869acd0100960c83fabf59ad9849dabda2124b7528dd9472b9a451d0179fa92b39a3442dd57c4557eec137e1855c3465ee1a0e31, 0x15847a85d8b61b8d5f9e879c380ddac717985146dfaf2b054f0801d4842e81a9297b7322dc90c0025369b275589e091015a25264eca09af5ffc234e19534f2cd),
  (0x2d33639b59d8fc9caa9c8d18ad69db5c2c755828b348d74b166a9aa03f6ac9a793b4aba71c9c4b33224edb877c0b3170950e1eeeb0162b756d39bb955130a7da, 0x1ae85044276c444ae47281c4b4fd03cd3039d45593e666c7e6e96051b04066a991e2350a0e852de522c0783082e693f9ed29b9dbff82f3eb718288617902da7a),
  (0xfb0dbab0f2212c4bbd28cf980be2b059b1e44205a1c046f5ac401ab7a6202d0be3099650d2f582f9a2987ada75b14eac48de43a22fe2a24da887725f25e61480, 0x718321f187d612fb876356e1d4a51157398bae488d814862d32ac1bbe55ffeb5918cf997524cc2a4351ad8e23ee19b1dc0016d96247e0b1a3f78c36d0f614ba8),
  (0x2f7fffef0cad758c38e108670b50bb57b1b740237361df269e88a49da0bd0cc9387189093b4679833821b92ce5d0ffa67c663ab52fe4c3cb5f7d776f6fbbc466, 0x9eb39a76add7e44d0973cf923cbd0938f393cfdc98a7bb91ae81f48bfd5c349b8a93238859964659ffb8ac769f8785d8b53464952beec0bac586ff694274f30d),
  (0xc072bdfda33daf579447637f5c92becbedca5e02eea507794d6f8a93fe39c12e538bf111837cfb204afd0b6347dd012cc491d3b3884c648f8458b689e8095eac, 0x881d765a99e7675aa2229d259ab83e5f1d89863aaf8d909a382dc2fa2e5fbe44e83a691b73847cd76a4e83e3ecd46ee6afda04acd90d29a271d59297f1c029e7),
  (0xf9e3b57b5b240a2c09a3417b7e48dcd199a0ac69fdc6ccf86c50fdc6a91a17a53908573306ae9e82234f9d90be5192f6d5e5f3a58f926545dde95a2b7683c605, 0x2576532aa6195c79795713fc2baef80b2cf848bc26d59008c4f979d00e378bbebe58dc1f600f2ab77cf2eee46404c4f6975e9c3f74a764ec22e16874d925c523),
  (0xfc19752dbd250f15455a1a8b23573d8b1eff03be03195e6f3bfb01451b4d3c78a84ae6c174a981cf11f90d2367b3d95c0badc15e28ad925075394143ef8261c, 0x91354b4d1fc79d94adede9173f40fda1dc4f02b0d2465b4e98635ff44fc5f791c15ac82f616500badab5a6e0615bb77faff124ee7f309a1ab1b757c7259f3680),
  (0x40f9f9b06c98d5f8365d719cbf7050331b0211999206c579ea92a9379cf679a5d42e578d4b4ca505f6896aee754df2ccc1ad5be777d621e62de1791ad9300bd0, 0x517fb8528c198a49167713e41aa95fd7ece649f0ca2ae82dd066439641dd429694539389387a3dbd64ef414b3864dbcb5c2bca5e21625affcc57b6743c4098c4),
  (0x922eb16c83528607d5f004131564ceb9bfb3121f37a855bb34bfcdfc9b237040ab0566b270d81745a22d1e72a3f09992e39122412900abeb1d600e59d9071a4c, 0x945a20feb873d0d9c6b3cecaa97b8fd015bb597aa8360c3094f7ae7cc722bdab9ae21d081e2295c4c012c6ff92a1d8d0f2dba00ef9a5f83ffa06a06695f05f9a),
  (0x8758c9da054c2fb5e9941736b5b88c2de8348b8fd1d8ca300307ffc62e8581d71addea5c870fbe0b82c8e65a44ffeff96b8f0f2967cd43d41af06fea38f46883, 0xa80cc9430b312cbe30967340942de926bc050fa5199ba966f9eb5aeea7a0c7b55f989ede50767518e721dfc85741683fb32c2524742ab1d42ae7c88c97936709),
  (0x3cf918f50679ca1ba0ee057b3fb120c8183588f857f5913899a8e0970b55d520f35e4606006ec23be482a7bfc58310c5437ac292738b34265fe55ce46608da99, 0x90c908e176de019baa9c47a750015c8d649f88f0d054661491eebee6a8be805288442ea9a0df3b437f1259e512f301e1c01f2c55ce05ba50b425dc88b308ab62),
  (0xd5d624177f05acad54b7558a4f04a01ff1f17f12fc8ffedc25c5c69f7a110bcb8e662ec3b2aa076638a8ff3f0c572ad52ba93de9e0ca234c74c0c426f1ee420f, 0x9f20779c6aa4786c48bc897a1fd9438ed3fe1665b01cecda3fe3f5f8f7d1efd57134a73ea6e78c0ac1ae06e9a0184a29e3b201b61b7eaa3818001b01b787d624),
  (0xa020b0449a88bbc4011e480ba3fbef487a9599ace367e1eb1312c0784313ec7fc1abde13dfbca2c9a87c8d429491d3ed70254a7df04119c3f1441de0642a7a8, 0x2a0cefbc8f144df9babc4f0f1531220ec0489840758a49132562c36786874f820f53c3abb3384cb433c60a9c20811180dfca4ac5db4326fc670476fa9544b1),
  (0x42fea7b02f8d32bd6bdfa63729eb3296b21c17104f810e2bcce5c745a9f08dfcecf586eac8b9a9b4c81c1951d43337515cc13b28d43fc957d345c1f27108036d, 0x66d3756667242039dd030c51374c70f566c83c6236b240a17a539b1e1a369b5b7c30f68dd3cfbb1af8f27acc4e81bba0090db84797f84181856dbb93f2b84599),
  (0x125b583a16a80ffb381fe460bbbd9f2489c39c749f3996f5ca989cf6b2da4ec3f3813c108f08fffa7a2ee974f90289d7faa4d550c42b99473ee7f969bc40413e, 0xfbc51a6a3eed1c867226faaab5ee26e593648d0c323f01d4ae1650d3b155efb0189446a3088acc303977d3b591123377d945bed3dc9928dd6698e33aa2998c52),
  (0xc0d05ad92f0fb40f4c1cb01d90b580bac1ccad35b4a3b25cd0bf782a13968ecada237b75ed2844f4afb1fd309f330e2cb280e5e4a650aee3cdbdea550a9b57d, 0xf38c2f6c3589bf01ef0f0414d24eeee27b28ce3858157b58b5cd61c6fbc7438899d495e7ee7ae9b7400de3c537076c6298fb3fe896d2896264aaa12b51ef693d),
  (0x5688a1c6d6ffa15bf8a15667c6ce7fbf6c74177b7b8dd97324aad68571cda92e0921e14681f7df3d93fa1ec1686a8263c23f7e1c6166acc693f6d55165f5ad83, 0x411793299dd23e8b68f5f420c1292e84e453651699695896619cd7b9924d935afc7f9ca0d0342e7c7ef20f802b7c359bea3d5dd0671d8c4acdce5b0eb57ec4e),
  (0xab67e7b4ad67eaf7c61b1ba567cf016760bcf0d89e5149cc8f2c283fde4a9f4d22b9a07d0fe8729207fa1e535c4caa83e6eadf3cb4423a1455e57d960bed119c, 0xae834133220883d2ed3b8536f3db927d0c00e159447be4bce7ee8c1b9b7050401ccbc41d01326d0dfe6f09cab3b397570edd5daccd7240d1f230fc2cc5b1efa5),
  (0xfc1be1ab08b5285e8636a7e46ef24b9de36b23bc4a3701066097558004f5b961b6bfb28207b95e7223e36e59f48213ec009b0d7b7f8bff1cc076f41870bf37e, 0xdd3bf43d2f5ba94bd46cbcdb411a5cb9ac3a6536d28b790ec388b07438984ed1f7d0b94cd8a90f7ca01fbaafcb76ebac51586e0df42e52bcb57f649bbbea2003),
  (0xceae09b16786dedaab712c4a38a67b7db02644e43aadfe0e00c4f4daf6e400bbfdeb35e74f202a0965073c1a3711833d44776842fd4e9ccaadebc519f02d8aeb, 0x8765ff7ab150b79541ccd6bb0a7116ee7246eeea48fd67b9681327b9517fbaf21475a258fcb651e6b38ca8e4db0babe8e4d9b9472c0977120edef7346983dac5),
  (0xcdf005ad83ed1f03d8156fd8b65a9a4e39b1eec58552dc3ce8dfcdb20e9150aca3055fe8907472064ff32cc34636a416aac2f461f9d0e3fcbe8af4774e800297, 0xbe75030f023f3f6ac9e04ef499ac5ae6d156755fc306d14941dcf2b7c91b46c765f7c286e6de3528a140f746c231482b175283564ff20f7749d5eb0fc744dbd8),
  (0x47108dfaf32e9ee043e4f2e9d08feca090dde1cc3ef5d7f6abf3d38596fc0051eb1dde5cbe461742b3fb19ba1ff7c5c94f87621cdb5c0e4f33e0805f77db46f3, 0x18db69692380aa2375df991f4296d890d2c201c283efdef5e8a425972b64e2747614583eb155db58794f8ae2ff15535683f3d0bd1f3bfc24162449c9cb0f2379),
  (0x6454194bf7d6960caa687ce972197e2fd867ff2749efd9143afb8f9ba5fb9c4bb1f27dfb5d8e96067299298fd69bce52848a9af73223437d6bb305e1803e1130, 0x3b329bb65a350d63148a5691a632ae771acd05f8c6b3895a2702ba7ed93e1fa97da3eb5613b18bee2df309f50f096c7f3c0aa3fc4ce240494c2c8fc8f327f227),
  (0x8ff7d1e4b9a583844bc36a76a923ff1817bcb4cb0b706fc6a225ab92b0f5f81d9e2320d1978b6ba162149b380e5eab67f03f9557bc08414e8b6ee4b715cec6, 0xa2e74df20c268b349c955e98e4f2d242bb0e84e237d69c6ec26fff047c9e4d2aff883e31fcfc0a4507ddfd3b9d464e952b2624b71750c76969e6602482be7243),
  (0x8b5cbd3428937330e2fe7ed3e4698eb54a9f78003fb3164334712e81a9035072480176f56af9217e71007006e88b3675a9fd4b93e9ac54abb51e09bf59441280, 0x2bfd4ae562f968e00fae3e9601a9dc8a070cab52f0570405da7b8eab67171fe9c0fbe09ecd2260ff2279f22293a3416db466e7867ace4a2212c7f4f68218b7f7),
  (0x8ba5d92d050a2ec9687e75b20daba6e3a2c4dd64739f08c82cb846cae0cd9e000fe4ad5c8589f94520a659bcf118aab9a3164279ca117b273e0c478eec075647, 0x96c12a307ab6f3b8d2717aba59e2051f09566916cddd1d5bee815b6711a6ed204a95d5b19b0bedf8357c233b791de24159f39a83deeee1498282f4d0649fa155),
  (0xb280874caf6116a5e9a43a881a5f959e7456e2a3003e27a2101163478b7d9d2407318e8ebaa45788861ccbf81eb0d3c6f33a7dcec7c23adf4a4e6038f6478c0b, 0x172b3294e451b600c6cb901b3a7c187b655809d69e21317c51cbf9d97e4ae6933ec7abcd475bfb4cc133f1dcea25eac022be74259fa7d796e99b03216f5fdd7f),
  (0x354fd2088ddb3176559779a74bfd1f60ba5df97b772d52d82a79f38d99cee6e1739194e8e282b61a10f3d74cebf696fe3a6d3b5f2e8095ee9f59bfea96d8be16, 0x15040cd5fef0d78f2f25987b333c2544e4c5df93b980e73a143792f5303507eabffabb21ff97ea1d05d2655e1dbddfc7efd692c0249a68adc886f55f652b2a8c),
  (0xf712939352e8870e22569717048ec921ac686dafcb728ada6b8baf151fae729e96981be08dd8781e5ad0ab15c52d4d1025af56da16079f3739247f4586e9dea, 0x290a3763913317983845edf9d91a43010c31f26ab2c63dcdb60f71d017fea7397db887f6d91e80153799d807238a276c1c85eadb1816004262a015a3b8d320c2),
  (0x88b0a9631efc6ec0c95d0c6bd276c4b691be6d4e3d661afcaaf6f64eee89f22289411929531b01b38d10153ca595131e4091680787e817840016a08407070c4c, 0x534845990dd4dd49399f910fb268fdf5e80eeb40037edb440567aeae0db1353672872d6eaff00fb6357fc7789ee4d0dbb51baa13954b421f8ca3a8ce346539a0),
  (0xc9ad94d9ea1c84c0d08f411b0dbe9e4a67c46116415cb875bf321525975d8b46804b4a67b1f6c967cee9180c6da0731b20401f084e70b90249e78cf823118058, 0x9fb56e128669271c14c76ab307a778bd47fc983a077d6424776f4fffb87d65c4b909107b558a6423779e9e7c1d85ba75918ede74c650114c6d71c4f51365236c),
  (0xc85da973f44dcb66aafbc25fc51d4c218c47fe89976d66b7d29d322dc0680d31dfa73d4079f26153ace32c0d604a2b83e0bcde05151fc124dface0d96f9e1fdb, 0xb937bcfbfa54bd1afe00a3489f8581660878778de210dfc54f18484fa8c9f89d0ffb831841123042cf83d1514ca4f0c1a656ad48f347711cfc1b68e7658d68e0),
  (0xc444be502962a35fb6450d1adc9ff378a999fc854205b66b335d5413721cf5df555f95b73cda5ee327801ee294ec2b017ef05d0cfb3cc2c0fcfbfc4eeb88a54d, 0xea1c38f0e0b24e0192653b9979b55bf87998d911b0f487ec9f9ec5e93749ebba0ffe2da84b7496c5b00c15821a3625102a789207d62b7005e8eb4374306c314c),
  (0x72073b9d90c0561980b08ec908d1a62597adad4873ca99f569accb7afac637818e1eb0de2befd8fe4ebe97005a88c5389c7f7b24ae7005d855ccd102bb28e1f4, 0x37bc2f8fcb833476378227558d6ebf4fd4d9d826cb6b2c71340270b5fffefe8943ca21aae7514355d17f22d2788aa3a938c0d614875ae2f9c7e9042361e0750),
  (0xf1ce3869de478f0367008e9a3a9697ffff3bc2673fae99301cf79f85e365f70d4530e6a2a8fa27d8b85cf7a92d20d20088995b8969383cc53154008789c03884, 0x5574529d23d3263e3fba27205735b54cd40db962a21962cf024bdce64f01b6587cc281964143568743626ae19ae66ab8f7bb9bc19f92acc0cfce3d3e625adbd0),
  (0x213627e772ef72dcddcbbed5cb8bdb6b1e1c2fe5cdd929f5e0d7903b66057ffe14c0235d5eca8f1eb834326947692888a787fcc647d1449cf67226282f1f424f, 0xb7f491bdf45fa68a27eca7a104806a8c7a2fdce2473ab2960324c7310130fbd34254ee864d6eb40f7938f4a7aaa281c60124311c875f53e698a0d5ee9e3cf78e),
  (0x74d409eb02b31be1b27866d6a0afecf8ea97aa4757911982fc0a477d0a1850565c99bc14a810e6303c70cd5ac9fb7c0334348d82bece58c5586a1dcbd53f5b13, 0x4cf30b0423565e41d42e8b755d1848271ccc4e3a3f41391a520116e42c27b745fc2b8a87bc4de024caa64018add60fe6935556695a8bff3d246517d97d734b7f),
  (0xf8901046d84c3863915d3aecc5d68a50be1f9d332bc62da20e4855a0289954ba908451ac12b1a0fe34e6bfc8cac158cd9b59e07dd75240603db49d4fa3567e21, 0xe931e53b78b95260305f0dc578270744676683f94b27cf61e46b5742acd434e9bb7fa6950e5e0e5a8a08b1ec059f94dedec968252ad73775e8c2f3a99de6fc94),
  (0xe45ad72e0bd7c8f6d23bddd135db3afba689a519b0e4e2cdd2dc1b6d17dd03a843a8159bd9c4ec7d6403637f4baac3e99612df5424d931ce7d15e30d4d789553, 0xf7441ef65d1f88d06a3f739fff57eb5f2d594ad38def279963723ba508729c256bf57c5318021736cdcb6286fa629e3ea6d2816f528198e67bd810221d0602f4),
  (0xf7bb807f7dfc340c2d92020bc61d51e35aa3a5c36989324c019fc0645552b97cd2318ef73c7387e0c40e7a18228da6bb8ed7898470ff193ec956d544a491ea8, 0xfdd9f2bf64391bf6d726169174d16aef108833006f16848ea745c0c7688d63677b6dcce17c468d3383eaac68e56601875fe92d71427076bd0d54ba5697431a1d),
  (0x91f64b8d5d27f24bc0748d150b4bf817a75ecbbe574b80379429ed61b1a3e7f3e5017f41870647e34ab964dbc00c28de0e472f68786a7d6ce2604f8f11af893c, 0xab5efdb0b4d62b4be8abe3ace1476b3ac7e66826576c4a3978519ecf098404f3b62095aa09a27789c2f17f1e6b17983a98adfe6845dc545a752801f80b6ec4c9),
  (0x86e75d2003d585e728ead46f3c572b9da382ec6bab9b2209c1fddc652b90915f44b322738c7be263afd4ff6b00dc6f9809a16dbd123f5eef93918d8c6e871f7b, 0x7332c956163b400c89ce3d9cc41d6fdf0cdd252a7f1cc0149a6bec8106c0e28a43c1ab1a7fc64213c0b3e8650a23c51d756380876c5eb140f0fc8802c3027047),
  (0xd6dde5704ff09d8caede070a166396e1384e8251dc9c21b9c960b646505bf8571539d3cbdeeda555a0c1d92fc75a01d3cda1ecb5dc5b5b6eae267c05ff6c8f5e, 0x2ebf1ce497dbf0df78e5fd6bbd79e1528419925df80655781597cadc127948a369aa726c1c9ae32d037c1b3014a620737ab7274b3897db1aa3ea318f260fe992),
  (0x7ab1c2c20371f8834775241d619e8fc683d6383eddd591ed511344cecf69588f57fb553d65c3d00f6708251da7b43bd4527884328cc162058b75f7d1ae808ac6, 0x54e1b1696bec358b167fb2890489f5e06d78076e7995d0f013eec20b26725527bb394c00f8911d1e84e6a54d6463c903019c367b36643459c1435593d02c98ce),
  (0x8e75cd479c2bf918148b1d829aa0a037117792822172369272d5d3512948047a0c0b117bf59a83291c341d2bb5b7b7dbdc9588c7d4c8575395c16289d358c3ef, 0xe612b62e82de815bd1602da46f9f330cb143bae342d08a5397bca54a715e79fcea75252929334f4daa8dc6bc94cd01f10d9d7f02929055a0a3d65066989a5fa),
  (0xd831bd4ae1dd03506022692cb4eabb1c8e55798387ec8249f283727e61b4f688c26bcbc14f802c593c6c762daf352d3f94542d94eead88eb921af2505b41e475, 0x42fd8d1837a077edb94269ba51a1ac628a3dbe5027ed824f76b7c6a2d0deeaf684d75fcb935a82bdfb1f25df839003af05f6f02aab9894b2850b6df96ef79a7f),
  (0xadb1ab4957be2d79b49e644571fa02f54fbd957f95d0210fbce882877dcc1dd7db537215f6b4ff35cce8fc64d0ec990912e9f5383197f032d8a88965cdeae08, 0x2704ebe27f165691ad3b4d6edefd8b20f4317dec2891d4037427a01ef6632dfc9489bc3991a15a70e0a99d5951cb2f7b64e8322cd9ff065d5bed1e8a9266c667),
  (0x831fc10e0a2d6cf37e691535d84c574258d4bf88a109d2cc477ffb61867b7d54ff4274d7e9871e0ee35397daeb6953efe316f6cf93093180f632c2b871b3d77e, 0x731c98aa0129c1bf2742d07fa7f707abfa9be306d087fa30ec3e2cc602fbbd8bb7ea692fd5cc3a797e86bf6198b2289d2906731bbf4ff48bb30a01faca388d89),
  (0x500dbab993986e8a242f6b8080ee9cc99335bad0d06a70f87c8d6af337712df84282897f122de1edd35ca2c6ae98ff0ef8252ab0771420d89c74337014f7174b, 0x26ee11026f7796b745a8ff9384684b04450a99aa332fe5ad079e5a2a5904a5363ba313910cb3236bd88626664334131df39e733e2377685ecf628537459f70b2),
  (0xad57d9ee31c5ad2f544657ca57b2e71d8f4b0d6eab6c1cd6193a7ceccea0bc35091a14b4cf3757ffaeaf2abbe98cfa68024ac3ed3d21bad579b283f3cb813e65, 0xa4a56f1eaddbcee462a423d1178cc4bbb6316e292dcfda9d27a6f69582b1584aced8909a456933f07a54236e2885eaae7c4bf60f42705557ba6b3205d04e366a),
  (0xc3e8203bec53eae33a99bad34cbcf4110ee6d7f31b9c263be4f5d3ea21a85453200a7d418e3efc3c858253b2d245ab07cb91c40d9ca14b6febaa7be5b4202046, 0xa94d12a02337a4270801522239ab4e21522a0aa375f57e66f35e42baf74cc83e033a5890945581e4e0d8a10727fd51b2296ebb62e68e208091b238aaba3707db),
  (0x40b62439b9933b513ab98b75ce1c7f7b952c71e705c1dc06a6b856a2e6583fa4b5ee85606772f6d13f644898b6efb15a2f210420f21d63a5091d717980befc1e, 0x9b24b030018eb37c93f9d828521228bb0b45fcd24a9aef67cdd336ba6f431cfad8173d60e11991a6a0064cddb605d880549b0d7ceb1bcd3adb6281548fde8e15),
  (0x2204973b7fafccf432883e130f75a57f73a3093347cdfa551f3451e317c1a14890b3d4c2bdc3838c27699fdee0007732b5287f480306cac58f701315c889d8ee, 0x54176b916b3aa6b1c03c01856333d61a78f50f5fa2b6b4be7cb5faea868ee332072f7644a673e0bdd92c84e44548ed13bf8e6b9bbc4550a8eedb5c69f9f8019e),
  (0x12f7a590403c434eeea15784ca66cdef7dd58b482f049b258d99658856f50e8f6f46d5fb193f0430459b5af8b16f68d343b9e92d20bb5d081aecebfc31179629, 0x49e36e951d7055c91f501a89e7c24aae05f3fb3dd876dac395b5b7a5f95d56e0ef2c92fec03614fa5e38430774241ba0dde361143bd562f1414804656f1d8805),
  (0xb18edde7edace9d984fc77d7c5078d16b2289223dd042c35ea904e9617b3ae8681f88a1f0d00016de9a2c69d9fd100f7dc275b281cc6220f204509a8d6ea2b15, 0x2bfc2b7c46c57cba034de660b119b58084d5d85070eff6796a47da26308962902360ae405c621d2419bb65a96993d515307dd696113e9bcf17749f0a0b932d9f),
  (0xf2f49637903b1eb7193222a188669714e8da2e6310c02b70662594ba687370f00d72091ff7aed1df9e5706a882ff792a8c0391eb9f6e1db940c477b9e5d89, 0x92adf90961e8eb49047ab06b0a9bc58dc94a53acccf51c55083356bd5fd112f1a53f42914f24b3d1a97202d38bd5a982a295e9c1b8d4cc524191285d54f7da65),
  (0x9f50a12b5bacd180c5889df3f94612015eb14ae6e861a4db515f7ba114f859e6dac574995fb0b527c277a83d095f227fa5a85c56471cab041e0b1b314b8282a3, 0x54683c1937e62a142fdab738e1a22d6cc15142fc2824eda4310a19dfd8b1d3a0ad251ab96dc3980b755e4ff6e25e30ce05e0aeb91286ec762649d1cea4c44465),
  (0x1979883e6fccc35169619ab12eeffa059b7bb7f75d91f5d60753a0a432aedd851f962c958f43fec7f4510078798ff5207ddb11afdda67afe8ace4196463029f5, 0x1279fa38fd8611282a2a6aeaf92f7d88ea12fe28cae673e6bafc266e9c8197fbeca8c8cc22b8bc8d515a04871305f2fb8cfeb4249a8ce5ebe9f3ab9a5a7ca8bc),
  (0x54e00414f632f61e9b9b77291872dcb8e7534c55cca488eb4cc3d2c0b28780838c9def1e4ecd61dba8b5838ed5cc22230bff7e5fa1133847be388c4d85f58b55, 0x1854a41c66a7569a011b61b9f6df9f5c851f5086d7e75bbe22af9b213bc115d00116376fb12c7a891369894bde25e0b07b65dd916f9950b428164fee69f2f06a),
  (0x235ac7823ae1caacf723638f804995c10e6fdea8cb2a4a5d8721b0307fc081622b94b7be2533d7efdb812c981d003f6a1855b7eaf568117b95cdb0b0f10121b6, 0xae8fa34b4028cc66a977ae8d3447f27d0ef928dfd52ac3202550a01229978cf5315465ad5dbcf53be8e8a9a00d2350fb4c3ae0e981866d2b2271937378a15b1),
  (0x31da4770b6f96d31fbdf6b5bf6cb6b637472f6b78b8f630035eabda104dc3c3cfca421fb0ed5153474fb4449e9cf561ef27b6d05e9af85c1264338efa9328d8c, 0x7266b5ad1a8aa134a69039fe56a01ec77001806a278860c006ce92721ae7098e4289e0b35da732bd6ec8b1ad72921c5360ffbc753aaed424d19e85c1965f518b),
  (0xad5e69ffed08407074a9e38cc17340034f00f88814d149dea893bf44cfaaa7e09ba91ab5c15f1370d4b73fdb56110204462a317f7940cd2262d1930747925a66, 0x75de27303bac3e86162c52dd325b7c903aeca480281929b78f7fae76e1a2a09effbba6a0efa635fcce9953e9533c1880eea3c2b23db562aed42296683a5f528c),
  (0xd4677a508f654a7d5cfde75d8de2e4ef4a4d998d5d7097b2ee7005be4b9a795dd152a760864b5b712f92d12fad9c75990cf6669566f6e4a2d3d25b32229d8834, 0x2d0d72d29adabb39edf95cf2860c9c2edefc94668bab2ce9ad4282e37d76932267409f4ee65b5dd401b1b125c6cfc38b250260697754e0c23de3a749b03ec854),
  (0xb9c48a65beeb0980b8e530846b0ee415744e347a0f819399c50115cf27d775dc0daf5622232f2d1239d2d7201fe3e59fc6bf0bfafe055a63d7fa37b84f0cc67d, 0x27caa3afd1f2bff10e323e2fd5f56d92983c723204e3b829513c0ed72ad62e670777fc53d0de9444e8594681d56eb906c7393bc338c29965e0b818f98f9206a8),
  (0x2fa522ef85bcc9c63863bc9e84b706a4fed9ec962141799c27cb2ade8c6a312035931f9aa42392d7c170cd603255a0d7d99534e46616c8ad35aca52f821a24b5, 0xd67284a205351dc8507c6cd174d2972741a07ce10283c68a90b3495e5108eeb6ec96587dbcd0a8d515be0b7f9b28cf395131f644d99de11db9d7a3a6a487880d),
  (0xd884f4790f8f60248c6215d7a2d2be056524fc7d0cf884ed1260f1e57b0bcbb46168a86ffd7271551b673734256666ee4bd9b9c3fe30b4c8f0894212197afda8, 0x75dce2024148d9f58f3df1ef0c4d0d22a9b0d5c11d1bc7f8868ccdc4b1b908bb799d921e5b681ce76946e286f1106e38913f372dcc5cdb11b149dca27ba72d87),
  (0x9a2f1b6961f1871039977e05d280ffd67763a2625ec1a2df6fdd639901fa6df2afcf084cc0a26841a50eb212e7191957abd60e44ad131367e639dc955c960a8e, 0x99f58e3680891760e867936c36d6b97f24e9c6c353ece96a6be9ce86001f7147040042affd342a54482f9ec0341226a4ad4bb22f138adca68ddd9fa27d377753),
  (0x4976e5970af7ccc41d6929e2befcdb838525b1e5fc0c97d04ebd97d2420c41923a203da1599106a1771ca8f072c8a44e7c1627aae8484039f642d38639aef3ec, 0x94c7aff390128d57fbeb63c65110cfd0f35e3473c39cae1c1de8b1a72569f65767dee70c7657469729143f6c6656282a8986b8e2e2814c569243f60bffc368f9),
  (0x857ee2ea5369a5df541897a13d087c5ca4a4481a22fd9ffa84df4f7b607d0c2c65e441e19601ca023473636c6e5894d80127ebd8991c0a8bfc2e5f872845e310, 0x360aea49ea797a41b20f32ea4dc1b56926adc3efa326ff53324b30e627d8f5ce964873d5323aae74dd736b4528aa52df8e2e16311739498eb45a173abc4d1eb9),
  (0x714726a5aa39ed543488be68798e1aafb461f9f7e14cf009603c6d79a906e064f1d3aad04ce9d98043dd1631ef243acf3fa619b2fc6c0b9ad2d37b59a2fd2a69, 0xb3171a77681e0404d1c86c3d2a251c87eb2ff08b9d530029ea47274cbd7f8887d59ba6d7a36222bc41747d4e38cb92c1fca24511f9d7beae8be5e5ea27b81265),
  (0xc3e21f1c8536e6f57593e88d64b19f4ebb2d3eb3830c072099e3e65ebc05ac2014fbad58418bc0420c414b745db87a79d041982b50df211627fcfe31ab94d6cc, 0xe223327808f16f28e3bbc9a0e8560307981274c0fec451b4224c34ab5b70cd8497feb2d86806aa33d3d49fab298b5c3ebe256a18e7967a0e23cacba4b8cdd5df),
  (0xab16d3f04b0fb4445677d057ab93f1eec7e37e384a1e2bc3528da78381ab9e39ff3acc66e3a9a352639ef1dbb7d3848ebd466e96fd314837457e3b883fcbecf5, 0x3e0004a0daddff29a7fd996b6b7c18764d8ff3a56c71277c3211d5622823386af8b4af7cfb6ce683bc7b8de1ec0ac0dbd6e2e1e0752b5935dce9383fe455c96f),
  (0x3b407c5698575e67200991caea447cc03064f4c3a1426aec23514f4f3b49089a87aa09a5fa4f492055fe7cae4f457d55650c082253f0242c5741fb48692b082e, 0x2d08761187025807086c20f2da0afc46e3ef0d3ca6f683a14983ee8e215494fae29719b4e04e2463f7ba6d23906bd94755c88c87dd072b9473540eadef28bb8b),
  (0xaff837a72a912c5d9f1fa4d66264beee3fc3f97dc31fa973eaff2600f02480db3d2b40d25e771fad7baf6426e47a670222a2f6c68be4c668f34af4ef631cead1, 0x2736f3eaa6d4e79284fc3b1c79972b599f5114c88c7c9cf033e09dbeb016c9653a676f8cbf19472b9c06b710f86f943ff94d69418ac11b5ac61da29b094ba393),
  (0xffe124746269fe39b998d96703124fce200e75eb7b26e2ee5c37b8bac70e1ca01949827488773a3178f18172d5eadb20ec83996b3c929900bab62350699a5b9f, 0x21235e048c416b782f8803bfe26c7df2d68de5e87040b68797a3440797da8541218244886a60ecd3e0887377c39f0e8f6616492dd6ff8e8c01d4ff3beb2b3a8a),
  (0xcceaca8f19d4f6d96617f80aec6bd381fc7d7d8dd1f7ed8a6ee8fffbeee628f51518060b1262f119e02cdea6d38adbb083d69506f0d4df0ab90c74e237820495, 0xe497f9642e9a6a5a5f9e843d5c2d812730130e2e6aca6f4b77ff880f5752378dd8a1983d497aee83df7801e3f2edf3062cbb1ee503863facc6ee01921600a454),
  (0xd1bc57b40e355385c67eb22bf61e22630676ea2a081de9bb6523df1d3e4fe169e2453bc53f40e917020442d8b29ee5495fde89fe9d93cab698319c7f5f7d1baf, 0x97867056ae35e4d421e436b3cc8fc9d54532a5c7d8433fe445f8062639562e98d4dee935b6953d25e32ef49c1aa827cedf498cc5c6fccc26180b940f8fde3ec7),
  (0x3a93abed753f5b77d51d19dfaeb3356b23b4e1008e160d214e0d57ba64f1bf1161dcef5a4876b2a9300ac9ad32f8af478324cd6562008d064ac57181f97aadbf, 0x804dc025924928959f982e2d01890a6dbb6af52f276901d1a9dc0b91da74418a34747855874271f829e0766947a421b4dab73c2145d1364bbe1ef6f73c47b40f),
  (0x9ca68baef7f51ee8f3bdd20af24576e4ef9ce147b6e911189612e2c272fad1a529c42734d5356aaf68b4e60b4692b26ee86882c24ea9ba107007ed20cab76879, 0x2d683661f89176363e9fb206d7f36bbee846fe806a469ce327123b3b23eab7ef1e07daf855f0bc12827b7ee022b3ad73f4186d3a361b707a0345c9101e199cb2),
  (0x5027904e2f34b6fa09a7e92570307e7fb5cfbbe21ad8d24215235eed0dd00029608d9a81c8b9c6de7df425938274a941a2a3c536c1b22a5ec32f8ef33d190e2e, 0x29174043fc5a621bc34cb47d921602830d6ecb7933ea860b6d197e69aee7a82af443db9b19e2820eb1f4ea808fbf4322fcdc3e13af0219efb2d10084c61f513c),
  (0x7adebae94de0d801a3e3ddae0d244b44618dbc6e5a738d66f01b2231cecafdb4ee143508e99cfcfa3bd3a2e0b01d30d14631a1f93f7c56b8c12b63be2e2471b6, 0x7e5d2bef5ab7a45c48960e2032ab979c64f30c993dd7bc97d2800b3f7cb6d64f325fc164c339c6b7f81dccf36f43b5618f638ee213ece2a8cbb2eedb0339bf8a),
  (0xb0f6ccceb45964b9e0d525d7228ff7d368aa49b16abb8400249cd3597b664f5e5f70eb13b9acccb0b3677ec3c177f922cf8a32e9956ba08c4ecc9a2a9c84cb80, 0x598de085029a2a5339ffe1ec869c64d4b294012486b560f4238f7bab3625de0d597f9367c8bf6122e53e3327d882ebc52909f28810fe8f7bf65b6fc91a99fb04),
  (0x2f645dc1c3e31e207e977eda7a5c1cd208425785e41cd2ae72c96e09c8683a13f69da657a379ffdaf6203371e3006f8193581bd23f31f20040da3dc567ffedeb, 0xa601a01b9ac0abdd0b6290e5a720daddabd51e76bdf9ae5b207896159527c9b7f5ed29be1dba6c8a96e80631146ab5611db26c2d9434fce95f0c0872a7c56663),
  (0x1f7727bb9412e335e154ac2ea2552356f00eb349df48c5fb6fa81f5cea640d22fc353268ed33f7fcbf94c9e795750177c3130d30e671ca92a744d80ad48d55b5, 0x4c2e66a35c8c422724081e95e7f8310d5b05f34f8777a3a85329c91766a49896f2288aa18fd55dfa13c3080268bf7331304a5e410145574526dfb1c4ee9aa1ae),
  (0x359b86bab66604010c0246cfb21bc81781f75e876b0b5898c1a976027a672c5a85fbbe4fcebecd4b1a4fa62b7cf36899272a9054dd76de7f9703a8dfd3ca15a1, 0x79d0d67e92c31c326e258545873c0d7782303289733acdecda47820de85f606fe5057953220fb58c142d025f9e5ca1a2da026f0aa061928126403f1b6bd63b9),
  (0xdc8f74e04d6aa1c99dd230469e3c7e2fb063f4656f3309f3e982fd8a9c3b13651df14ab2a555e0d7a46792f5c0ceb917728cb777b9cab9633ec54650a133242, 0x57d7e3eafc3c401b4e68ed0458d55f020d07a3d56ad062fbae3a856c55e27959a696513cbadd6ee57848af01a6aff4e6521a71fece5d474059348d892c19f9af),
  (0x48e70ff23715dcd1cbd43f465044ebd4774469c001207bedac8c00af4a94ce04de1171b76bcc39b5cb51be64d05aa212598825dad570ce05254d951d5dc12a08, 0x60854f704c2f983f924e7cff10f4af55b73e6f2feca63019da906ad3e714f542128b839a333fe4af58aa33a52455c17a7d204735e60bbdc0cb5f60024dce37d1),
  (0xc454346927d27f4ed2d2c416b21778931c8b0fa2a223452f24218b12cb577652dc55191f68103cb1eab2ee931b2eb351147d057f5bc1cf41558bf940c1d3d78, 0xb7f970a8d958967171de9ee4d3bf4a8350fdc05ed8c78e3467674f8921aa21762c8f6297e8014f39aebf461e02fc6e2b96263b9ebb6fb8649a55d1f226680814),
  (0xf431453c50b584f21bc4212497cae7961d21b2d327f8632e6236116b73ba2c5fe6b8ec4cb5be32fb6916921a229c1ce1f93ecfd8fa4fde162ed4b6b9d0d987ab, 0x2a6c0c86f7d36f6b4904c074dee9d1253f9f78f036fb034210adfbecc0000c208cd45de3c180fa94529cd3af2d7b70123578eb3a027e64341f7fb950e332e250),
  (0x672973ec55042c5838d4f251ac027fa23bc506676a32693460b4151443463b3ce23282da92a2ca838e18a2e84958fde0d7d496f784599760691217a74ee5b484, 0xafde75846d15f9fe868af665191bf353480f1ef5924f176de7c1b887469b63b7b4c652b59d1aab0014f6ea50cc9569cc73ceb4d8083cf716f4ad1c4b809ccfea),
  (0xff2fca58daff9adc8b8065c598401153e2e0d1b25d790a1342f9ba23b8322fd90c0a25e40db7e3e8153ace79ad505f289e1dfb43f9b138969a61c5557818892e, 0x458de05b44d0484462f9760c55af7feea63a8aff0bbad70852e673bc109a7843bad14f28ad47836c54493269ab6fc246ce6076177ab43d1706f875bee32c2ebc),
  (0x5f4369e5ce2a4637e91faf6364a1fcdbf8377c4b4e31e68cf9d6b775d67fa34a9fa5089d8e1b977a0c61f42bf6fc0cb5796e323c67c8475547ec1aa5879d131f, 0x1a70eb375d60152dde0559953373cda9ac822bee3e1cdd44cbc6412c8e023c6892597f2e67be37a806e5e1fe2ea426c9d89b8fac2ec09d79eaa853516dbffd9f),
  (0x5ad928f4ac682ef51f41582f9c63c8e6748cb2cab9f1262f706d72449f866f0bce09fb0f1c0ff018d3367fd0b6be3663003c7aeac04467d250cce43935f63feb, 0x239c64ada959580a1d73cac690610734eaa43307fead6cf2d421970ac7f1566b5b6ff83be8dfda6aa9b4e27d09b2af6451f6affd8f83d3d289e3320383f781bb),
  (0x83368e912074526d6359e24b767cb5788fcaec1291c80592b9e92d43b3ebd6d9217cd8eb2227be5cb941a250beb820c9c471cbe3ef7c479f906f7278301cc7d4, 0xcf8ad5b90b95c0dffa8b51b1cebdc1b4307c3b3bc465b63efe3980fc693a5ac6a50b72f42df878bf159d7c92fe4e36a375dd811fe870ec5ddfd00fdf31eec77c),
  (0x9b953024b5f26725389ce0e4719f08ca271ebca4e19776ab19bbc30eac65d00b20c9d1fc7737403fe5646123af5db898183ae9ecb35a122c442cc44e46944eae, 0xf69d61bbab736ba9da279e41403b07073b4a71f06823d6a947ccf49a904729aaa4b3dda879b082b08db50359749ee8ee6525064fde7e44c201e2aa81964450f5),
  (0xfd00261707a054a431158c7413fec103165bfcb183ff9bdd18489265f9147c639c5b1ec746a8e29c84dc9e01c0732ada2b5e38dc46594f1ae42cb0782861a8a4, 0xe29198998d89ded6a1b314a5cab70c6b1522b67cd2373fa6642da45c78c526e19876091d708bfcabb8a9d459f63ac7e84892738cadc85512ae0cb48f33bfb685),
  (0xf52811ee451320591c3ec24cd487146d2e876bb06e9d93f70df9ea1a25e1fcd4da99220f6d70df973ba0e262c11faa51506055e310392c5a08ea42e26e50e9f0, 0xf7b3cbee4b1fdf3aa027eb2e9e6891406e8e786a8cfda7e070a8c6c61b9e9aafeb3ecdd935b1613325aee9c17319b899cc63fed40fa2c843daf0f52992a016e0),
  (0x443b928695bfc1bb074b336a6193208387b421da61202f3a7342cd34ef2c7b9e81d417baa53f8e1046f72df792b407f38ed2da58c804fbe23ca70cfbb4cdeef, 0x9d32ab025adceefb9d03432c5efb463dfbce1260295feaa7d3371cd1f0ef5226ee038dc525e8e5b766cc6a96ebd52ed2dbe67ec32c6284fa55f530acbfbd5a89),
  (0x83cde2a2a75620c5f80758191724b03d942d6937de100e3ea39a2ab46e953fea8eee4e770e962c40fdf035ea01d9de492aa81b88fcc29cdd838b9b2dc74e9231, 0xef76ac0d5e75ea9ce5931dd6a251faf8ada64558e7b0a5a3e492fa732f7dc10ab43c84cfa203f8be888f774b49e8344ee0dec075152a51649d591c607621d82),
  (0xc53bd259896d5e8469955418856bbd1598c7e2726fdb906a2075dde3f6215ed2dbf9033b8e29f28c9e80bacd10ea5b5989eef3b357a58c6de99cc93dfb132ba7, 0xe19acf6112a838870d9f08a095dc9106c1eabf56c03df8f836cbb2595d6d0b6a7d2eb67509bd14d6520e0589171f937528f2be8e464507fb448333bf6ff8cf99),
  (0x6a7e19f05db60f3110b2f5a4775637e0040b58cae47e47d9f6a64994c1a87547198b78da3ad228829359d6b1fdd30670d76687ae919e5e5619caa052f1df21d9, 0xc41adeda8219b07e84712a4de0cc3b477a97e36a56f939a51391a3fabc319cb80f3a08acee278811d3a7f53865a084fe2569ebcc84ca9824274a4a80cbc8614c),
  (0x14e7ed704d288c6a4905d59fa66b920f90558747a3c18e3af9abc1e17df71f4dcbe286e3f7f4e66a8c4841fff7778cfeeb65b1e6fb609049f8bbf70f09225e9f, 0xcecf2f17ac56203525c49743090ff070458292e1f8628b9e25e8bc5228a551faf4738f8682d6f4cf70cdc726875ba1dec995c3fcc199d6292dfb896f3de52c7b),
  (0xc68a11eba7362f2de83ba2d85fe4e8553e268ce60e557023ab40ff4009c920e7f26cb66f6d25fa89f5eb2be64ad3a2652bdbd266c65819a218a6633f8fd24a36, 0xb09f0bb774e70d0704315d8b43684df4723a837d28e59b4038f7e28273aa4062fbd2112c951af762d2c5ee8407e80750ba56be0dc02dcdedbadff462a90b96ea),
  (0x58237a2699984431785a301297fabfb1ba0d551819ff3396a7b0ca87d2612798f010df463959cca5c84f034542f8e7c117ff3d8f8fdded3767446066bf25d8dd, 0x397845e01c133111f50c29fb3001de7ade024a2b2ef04b3a6c75356ea74890d1bdb6cb00cf3968e0492db0cd5d42602f919417fb5c192f053ce812f6efd4132b),
  (0x5edb4113d1ae0850a58d2dea0170e6abaf3990aa8ae7a0340e35f6c128105c640b56dae9ecb73b22833836d966c76612ae67c78729c84b9255ce466281a83e11, 0x47f3ec420eefa9a14fd1dd07aa780f242044e58fbe6a2cc40e429e57702eab1879abb6e2892b73790bed6af80b2e990fa5672de9409e6a9af53c085ede1778be),
  (0xd0688f0ff8fad3f4ad29d554584c9a8224f09ef173458416a24dedc2b02f715d06d2d672d3793c7af915d9b69111a672b3c0bdfeaec8d34e16b540c836348c9a, 0x2795006b9eebf566d19a2beba5f9a231d6a889d0d28d7a0b7cfb83d5f8ecf66980e0902bd7bcec167a726bfb74cbfd699441805a4842dcb7fdf404726cb4234f),
  (0x6fa5ade53bfc207aa8225110d041ccb597a16245fd6f065ebf849272791d17908ff1047cd515d2c78ffd14cb719221130873104a5783d7550707236c240b8918, 0xca5c3943fea38cc42434fde56b80bec6ac0178d1094bdfe6993bfdf818b824193a6d62f852d5e511bbf86b9faa70a2f34b62524c8af43c52448cd7dbbe0f6993),
  (0xdb23352d1b1c444bf18261887efc144e304f9438869a5e3baac26fab38a40a676956aec12493d8648c305b0d9d7946c57175ec6cc8688258c173d65c258f21ef, 0xdb8bf495a04af498ee60becfd0347d1b2ee27b81ae395171bb652926f7598d92f53536ffdffddcdd4a6998cb07f4ae9ad3013e4354ab63524b2da34d574d9098),
  (0x312d1d1c2dc28ddcf8211797db7cd702f7f62cd21c9df18f988c19bf5a640464e82a91d4029b4898e7e256fecc3ea483130757ee3bae5da9d9a1bec33eae25e4, 0x4d590472f4bf28a56a84fb883c8c1adc91f32436738b23342f1245aa27eab9bc8ed92d7373ee9d65675aeac4fdfb366e7ba690029f52d23c9b76c47577fbb9e4),
  (0xc1561b1b9d0c8ad492d7fdb128203751167023f9dc70966f9ab1af24ac1b70bc3ff17202916a085cdfb6147e4b3d18c5757996827024ae133b448666b6332ec2, 0x4c3b022b8722d665f40664ed922de10e3cbed4027eb4282cd31c1d5e0c024504a7b84cf9e2c45a27a8ab8b812fa09321bc5005663359807d0221dc21fadd683d),
  (0xcb48f9b67a685f1ef94b74ce3a93691c8a2b0da2736ee418e69dc2f602b46955c0fba86493f98cff42acd83fc957ab8acee74ed8c72fdf4f4ebca64220ba2b7f, 0x1da04053c02c66dfd4a3cf8434ae455e7329c5cc70f06004b397616ac85f8234a6ff555e3d70ed75af139b00d9a946795c64ca1e05ee3fe9653690e7c2e6ef14),
  (0x4b7eefba0a18bf0e033f9b55186c09cec5bfc820c921b54fc35f6f4714ede2967556b254ef4badd2f54c9e240942c289e694fae35722b32b2359e4ed654aacf4, 0x5e55953ba547a3463e9093a9407365dab3776809ec7aff29d86d3d68c98e81726e761f09e08d1dc6aeecff465287c58d92d0b2a8864ba23cd47366593de9d13e),
  (0x32fac39f5d4bbf195cbda67f944015ee648ad35b1af12c936651ab90447ca3ff04269d9216bea3f1a7833a724fd2c7e95d8fcc316c56d694e07372342626b0f4, 0x3012465f8e27f85ed0eacab3451a5bbd225808f88bffc91ada31573c443c0612a55acd9051a204d204de6409df9d7103b6558a582dbd13f0436bdb208873d95a),
  (0x293aa0700a8d13c46bd952c541f1f8189b1d1657774450367374d13d814bdc2274f51743b617a31967014ac98162133725395ae7aff0408380d45cdea270c204, 0xb04643b842bbfcf1164dc9c6f8266452f5abd881418b8425d82805cf35294152f0050896f6dad6d6fdf2bd83cb1674a9e476a7120dfd44976797894a9a85c50f),
  (0x4a78ac3acae2c0323fb363ee131a180b2916ca54a3765d1f672465c3383ec1ab5828faf873a64b65df2fb22170c22495b568220d1fa57b4920c871ae6368995f, 0xc1f358baaf9c0650a8d42d2a09f6c5a2ac3543b1cd6f0e7f838442f211f9cab846b0571d26ce7f476d7c12a0c2caccba239705e210a4530d49220b3ac3799d33),
  (0x4d1527d88987a4c17cab91d7798f2f443dd87ed1d575c25e78a32404e03e9b250b16c094a4b66c180d877fab46ceb2f0a0afb4cb9dbf02f74600ed4457dc597d, 0xcf8e56d64f4ae890b6fab3ceab2082cb5db913a897d9479fa0ee02d062e8204a61fccd0a5547b2fcdf6edb1f9c09d37f006787ac82c92d0ccf0b7d4c0fae7787),
  (0xe8d2eb139c1a55cd0ff14c36b2de385373bd3078fc37e03d8598c033b549f50d5e850313d7548ab55610a36d6f2f3b79504d668345874f1886e68df936502394, 0x80d650e59ec7cd38a301639ed89ea49d31c1b5377340b553e85e2aced4aaef72a329ebe5a90e62b84377bc9e71c3426aff16fa7fb0408fe16a81064a86625cd6),
  (0xc2aacc7307f06ae5c8b76b374447f27d77a9a92a762c0854c60f8b999150b59b999ae8211bfd60b3c6205687be1806ba80616ae54b0d45ccc5971de49cf2c1a8, 0xae70c31ad00add831eb29d062135326d37e35ef3573523f198fe808cb5458c5ff499e2167357df96350e31a99120eaf0d94dd939f67a34e09321afeaccaabd3c),
  (0x73e043f77e5fd2fa25c299e70f1ff78cdccfb1b997238ccfbf4c671cb683826ffbb3ecd86b6dbf32764db9efedbbdb1a7755c89394749d45029e077ab88ecc08, 0x921ded7ec70e45506fa609afaa1460970ec9941e6f159f24910d936f0cd042e572abd0c66e5a9e9181cad532171f4cce6624176a165196227f13d9e0e4bad317),
  (0x7be12e8c60d4508a09c908a6ff82ba0739a08c6d6a62f4bd71db8f376f7e8df1c2ce53b6f1d3ccf5ea939e74912aedad9abe9d823f6f836d9d92b51e130736b2, 0x2e69d0318f4e71ef4e6ae6ca49d71d673ebcd44c16b87b4d870b87ae2bb5bb47a0aacc7dfd53e42a8e766e72adee48a7fa5646a7d122e8ca3ac5a3c8ce258ada),
  (0xcbadf24b6a1af0979d35d72a8c3d99e1c874882228c55d1b0f44d4bdb0035a8b1b738ebf6c33f2351d9f95dc0aad48fbd77400de7e5ef3c09f6c6c565159d79b, 0xfb82bbe9d9662b889e6d94711905443fc45e246d5d4583319c2cf438a15b3d9a5ed0d8148c715314a0fa467097f2803c31fc1c08bf3ba9eee0117f8d8c967749),
  (0xeedbc9f21869f68a36c716195d142377bf5b4d00aca6870b6ec8e06478dcad936142c3637b2a6fdba640917073ace61d294c6a4e085c3a3abd66b88796d5d67f, 0xbb48301d5c1aded7f4185a13b691461eb0a0cf5eed7edea91e1fa6a669899ae9506a77a3141177342e4edd131879362386c2e4b6a19698089885f21d875dd040),
  (0xec799ae923d6aa1e63ef84ef466760652d5227163d5e87ca85ff3e1b34e20ba65f0c7bec5efdf7918d0319dcb3a7a71ca6e6baec2dc045ac79709b6ae68c2b3c, 0x2c5aab1379c43c1b2ae9614ffb74ba4103e902205eea3b09cc394f14526e63091bce72a6cfaf25c92eb695a24e64ea8601afc488830816f237808161741de74),
  (0x7a235aa3bcee203cef81d13e0f2f3d0390efe6fa3f596f483598c770858d027aa571dc6be4c746ccb4b2ca41321a786161efb4550e825842bed770c3839cdd9, 0xc71b739788617408144d9cebd338a113a346dab755dec47a8dab0f1db2194dea17e5a8f4bdbab11374397ae31239b3bd174ede17051158b33cd672561a456829),
  (0x82fe6167c14817ab004dc268662e0c4839468637ca2b522f5053501bbb98f822579aa91e88b1489e92ef2715a10f8f613fb07fd7b1a66375f667a6113f9059e7, 0xa689e01a55301b88f290f13a7f4501ea0cce31eaef1147b4eae7b49eccd6efc03e533d1751fa50935d5028624e9830e0e4fc86b2b97124d383dcbddf787f6eb0),
  (0xdcc9c35a84c7bb6c6bdf072a716aeeed5d851eec74b67a3cf035eb0d1f8f8f54ba7014564926c4a097f83bad01441263e90845f77256851380bcf4011eaa04e2, 0x6f20d4e672783c70915d1c99b64d4109fca2134f52a309919976b7d6a541b437d549db8cadedd46c3fc23b3e5f1f01bc6723c9ae9dac375e03168808a9228588),
  (0xc6e292194e2485c93aa9f1eeb0c3afd514ba7ef3c341af628de7b0d01bec5f7840ccacc638af7d418f972b148a330e91292fcb35fd7477dcb0cac102aaf08048, 0xdf656b76f428af3d10635d71a407fad817d3e47b5382a85408a81871c3903b095442f279b4ac0182fa2b64e58f10dce93271e3cce7e458eff61e8c696c5df02),
  (0x79befc4af4d5da26547e996f2856a2473231f56f826bb03ec63a0fa133353a3b0503c34cd5d5782dc76efb8178512bbf09026e429055ed691df4da1341910fee, 0xe30c921598f3744a859e285131324f2f580b5b65a1b98e20ec9f2ec55d59f7b78d05fb0aeeb79a7352f08da1cf60ee310ce85af89a7eae08dce26003b3bfe901),
  (0x873f684ff190ade2aac750bdde877b8d869a2ade0acf118941285155a4d2bccf9d2184e2c49d92ad6d365eb1311ce7a02b78b069f3cc11dd6c5cd0146e4806b7, 0xd47908b0b95c6b4c001e5bde5c3871dc00346b73156339a386c266d2cf7872c03ccca0aa5d1a6ecd1e86921bb562b8fde89cedaf8bcdf3bb3088e7e29c0d6538),
  (0x27596e279aad99e720463d88b628fb922639dcde6dab9f76a960fc1a5d1365ec1b370d7ccd5e3b2e0fb568620310cd4f16b7a583693ddb65b6c0f61a6802c8c4, 0x809a9e769ca3af88703f0dd7c5948aa95b8f1354d936e9d504b7db2157ad758a34359b995f7147df3547b7ffaf57c496ce433385d68bc50d458d7145b9de2dc5),
  (0x2d8392e0a1ccd434a1c8a839540ef5ac7e75462b2885e63bcc1216ad75d115b7b941c15e755ca8bbba916ba958af56a50571be265a533b8cf47373002424fc6b, 0x53e3057cd914ab8a5db749c5363f45d41002f3891791c6e0564e7df0e5a47c2c57b6802baf1cce01a38a2d4197711472d59a77210a7858140debacbcdeeafab6),
  (0x48e7c28c7646a9f820d769ad561f7e7875c6438a8282af7891415e604f6f6fc8f8641e9c8f80b1d6656d7307b72ad4cfae1b45100191c7ad95c39e55b26deb3, 0x3ba0746c00dc74beea8ade1bef66d97d38b81265e4509a9546013253b38e857b16e004cc6b261521498b57e41bc8ac73c07e5d06ea0290284e15bf5c6a4c3f98)]

theorem chain_ok : chainB (wDblB ec_tc26_512_paramSetA.p ec_tc26_512_paramSetA.a) ec_tc26_512_paramSetA.x ec_tc26_512_paramSetA.y chain = true := by decide +kernel

end Gost.EcpChain_tc26_512_paramSetA
