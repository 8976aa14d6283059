import Verif.Lemmas.EcpTable
import Verif.Model.EcParams

/-!
# Doublings of the base point of the curve `ec_tc26_512_paramSetB`

Generated by `tools/mkfiat.py`.
-/

namespace Gost.EcpChain_tc26_512_paramSetB

open Fiat

set_option maxRecDepth 1000000

def chain : List (Nat × Nat) := [
  (0x73729fb3c0d629ae5dc9bf88ca05d518bce91e502150f5e5822fa0293bc0e3ca31145f3b0e1831d8bb1f20b28780011473339e581a403c676b47c1f9ab764602, 0x35d62c90549f2c17e16c6ea99d3c3dbe610f2c543fc1d0ca5bd48a5ea1d3ec11c3cec5e7fcd74b5306e73b6a8e40c818714f02b25997ee2b54f65432d3f0741e),
  (0x5af069b1624dba4513c303b66b90543d97dbec20b5ba013e4f43ed9e2b88bdc5ac69701b626a8a546d03d52f8510d50df944978b0d33565ab75599b0d0a18563, 0x19eb28c4ee08a66894ca5cb76e160478a4f94c061b1115357557dacd5370bfc22bd1d0faa2e9d72af11ae65cb2335c53f617052331eb56050a972da4efe55eb7),
  (0x7fa9554ee15ace4fa0c922ff0bc5e1b0b5305b164596ecf004b2304421dd6103bacbbc7bc4c5471a86e18ab4ad733f5b2c80432d43a1eb94ad3681ef6d988c6c, 0x6ebbe3eef642fe9d02d5c072787a4041c74b87f18694c55cf6c7289c33d05dae2b51ab9143d92e4fa2c900cf1dd06b67f5e53b403b244c5a7cf809db5d36fd08),
  (0x7e3c41e6d7aeec0f5450024b57c9aa48015e24c0873d152681baa871ae4a7d6fc1dcc6508f91e0ae31f89f903347950f9a9600b92705ca18a6f3d9a3ce83362d, 0x993dbc29ecf2d9723657393908b182dd6b0446330e9b875457f458eeec8265a65486a4c5b3c3275942ddea06ead54314b4c3052a18bd82dab05af8a2528061d),
  (0x3b8c012a885e4880494a1d51fe55f27bd2d37b21a2fd9fb8fe244c96c05e54f7126caaf6c83b9e0ce17c600f85fae829cd25870a91195e0e47957eb0c94a5fc7, 0x36fd71ef39b27775f8783e97d99fdbf010715d7f5f5b0e0a5e2101373a57cd900a0fa6b5a98d32d05350eebda0c229f2ee388b12a932314d10dd995521e966c3),
  (0x5a6cfbb7e65cf3f6d08d3b6b40c7f129f482f839a3452fcc38114decc61d0190ce0db4214058a60071c1d12feb7af13ee7219924585bc9220b184a103f772e43, 0x762e1d2992badabcc308c961f33a603ccdd90ea7431707866a47cf05b63d6aa1aa3d1a5664d4c7be3ef339781d01d1c35eca31b81bd1f9c71ca19dd9f9302fab),
  (0x5fdb51211655d380546bddaf8ecc39ddb954d659e07133f59efd82a9341c1a95f504a57f39aeef0796ddc62a03f12149fc40fab03fa331adb883236c026390a3, 0x49fdc0667015b9b996cf33d1be3a6df4822a10bd7ddbe9759fa699bd817e0126a27869f00a80a2d24a8bc1def794b5d829d6c359e5ebfdf26f5b3fd814c8dced),
  (0x2199c5d9ff4f2af2248752e7bc47a318474ab91f7ef23feef483588df3b275c1dfd767273b77b010b29dbe47db473442bb9ff279aa93db5f9705575c163b05e2, 0x6f5b447976847949015ca3ddd691ba04637560c0f41fca5354c6bd253afd8cc4ceaf3b0b718e65eb2b2c406ca24c9faef7fe01b514712713048165d44db09e4),
  (0x75052decd30f089c427c911cfc6d6d4a7b1acc0912d1ed0b2a2045313eefca7d90cd0bdd0880a32b2f56aa3b05ffc0b000560f416a1d1646356394729d9efef9, 0x4340b7e2d6c765d34ddb50a9b7fdbf917e251828980aa39c2f5de5de9421fc2418cc5fe5c4aae13c4ac409fb3d89af710522a840b5f061124e55b4a85cdd2de7),
  (0x70ded12724bb5bb4a6aa2d567885cf26ab490443f8779cea10d46667c0c79565fcc77aff3133949b917110fa97ee44b9a7c8f95f0d5823efd68f818ea38e55f1, 0x424bfdfb631dd43d8b48a2ff4ed40d78ac3f45d9479e4237332866a8807df35618b1ad5fecd0c3477a7e0b674e2d21e67ac01ff38616b694ed07351e075e1a32),
  (0x5ff8be08c00f21c51eddf76590806a95a0a87d56e1858ce495e9471886cb7bd88410e2c05c3da0dce16ec24c195cb25872964b5b7e3943e2be7f910834944529, 0x528cf949873c8f781056690c1ed50384b8152636fa1cddb50cbf84ada2455c060246f52f1e9479a9733ff08ebf01ab3f231039f6bc86c588219882b5997fcc83),
  (0x3c47d8d3414881d2908cfbe8c5d98612f352ae56698fbd0e4004a197fa1c60606489ac1842e5fe7d43dd9ca2b8ce04b9bbc83830e739d01e2ccc20154d3e295a, 0x57689ba72ee2a78694e68b6c2cd9f68dfeb35075965cd571a5d5aff50b8d9df4b169f45f4db8803ec45fd096a1e97178222e2fe34c49c9caa896007d29fc2490),
  (0x53a169633c909aeb8ece2c6308913d71e8e64dc9c27700075705334ea1a5b9371996c6fc4fb7d05d06c34de68b2f1d4a26a7f9e04d1464137a8a30fb6351093a, 0x6df2c132628d65a4f848bcb96ce5b22feaefdc49d0ae43f81a9dc19cbb4dc0a18c4f6d6acde6c43c93034aa2cdfa0fc4d11ccef374710a892b03695bfd17f4a4),
  (0x47815e5fbe2df1bff647aaf6ce769596aa48803b67913645b29d3b0cd80a49e47003c25af7e5287fca839ccaaff16d6fc0196c70233d43af0c687e2e16957085, 0x459f8ce3755a0a34c89dba7da83226bc692de23c791625316ed1a0a0e743a48164c68de422126e26de3aec42ff1ccdbbeebd587f569727b22c0d30877e513817),
  (0x32c18c17c9c4b62afb00dfab6834f52347d7e060eab19f2f5da7ee1a17fc6051f945473c34089ad38d090c07d79c12b8f7d58524d36c8938aaa3e731fd413498, 0x6ecad335b204b36eb0a010821a9cad7dcd7eb70734a6c272a4afcd33904ac8c4bce39784aae0d9c39259d32042afe7b031fca56dad7518e2634ed3d67a0de0b4),
  (0x3399a4d24f99a4da784936a684478ad5e4b6d89136eb70d6997f2ae7758a6b29cccf03e254b053c6de99ac783d1c249317d56b777cc88d27b8463ecb9ee2f1f3, 0x63dc3ba44e9c8b05202b71b5b84220f7ed80f0f8c27928c8610d741ad8d9f441093b9362e9dfba2f2d2d464fbdaec6cf368ed051710b95c69e3a20264409dc79),
  (0x296d3fa4c0273059397eb75d937a17cadf54e1c7c711d9278001f532ef96080e0a4912b525ae0570263b9603f67c0deea7fd5f871ebe7788eb077b5b125e07d6, 0xec5c4c9fc4f8135b1dd6e65b60e9c73c32d3324e4190e4bef3d889b5a985cb7537c003e15f1e232523cff05e7e81dee7f60c9022c00ca756677c0148af27b69),
  (0xde2bfccff07693bf571bb2a118e3d9f3db7079844c01440adff7c4cdbaa984c05f4b57af7c1658a464bcec29eef5b3348483b10db8493e517d90817909f3fb6, 0x71c4fdd4c4eeccc89608db52bdfd94a3e0bbb482eb6a8ef9728a7cfbab3e6406cd23fcf7855d1ecf4b0c884443a938360f05d4c5112bce08532b33d8e62adc4a),
  (0x7618825c5f152c0b5f2d51e061032e4a7336f63263a124e556ddbe3b21a4aed6e00fe58176ed1bb5d3a94a03ce10d8c98f7cdb9f49d362ad713cddce9396cc87, 0x2d66a4c0ed45569e125ba9cc746ba7ef3ab097c94c1bda7acc9e4ab22860ba3dc082244ee704ea0dd6e5d54a2a1961ce4e45882881c5ae36c6eacb3bd5bbdcd),
  (0x27584471a5568db9d055836001188f4b6b593aba96032908b4fb7cd3dd0f0560ba02df8a6237addf49cf02d98d90b56f424deb84bf520e7c12c2bb90331f8bf6, 0x74935d5d29e00b36dd5f1ef40544c55cbccc6731fa9497d6b303f11f078ce8e3cfad15e8e7c9c0588db90e04badc73d9aa45c1495b3817ae0a4345fcccc72768),
  (0x673a71518cc73a9266b80b561119d9c9a2d625738045afec9fcef63b684ed6125a2deb2d056b137a804f2e752a697de25899f5a2d3f25bac191d76f1663aaa70, 0x969f21272ea23bdd23b7fd9393461a4ae9a715ece8562b3caff9c73a2dba39df1850600ca3b0b55dbf6b883ac66dc4ce76e64ebe7ee21e142076c76f2585c5a),
  (0x735e8b6566e812637a5e4fce71eca7ca5f6d45f8dc5fcbb28af0fecb0e88b969d02dc8e8c55ddb546792f3ba169553f563db05d9af98c5d760b60be68b487322, 0x16b8f599e074be1dffca9c2707c2c203e73d8beb13884057a11b2e3a2b4ccb2b990a6174fcf65999735f43e25a51424855d3caedea695a7dfaded64d9cab05fc),
  (0x6a0a3356f84717a2d84171c76d4bebe5783925e7c15dc01c46ea7537a75abbee330ccbcd174978f6562e035118c6b8bdfbb370c8096d2d4b7f531b8d88952ef6, 0x54e37edea62b10d6218c61c9ed17b8848c50e430ce73e221371c35055548c6d84ec9c5a0d76efdeba74af06731a56395ee221b1be80ca251bbf0cb6d8a940ab0),
  (0x771199e5793d2df5b56ecddce0a8582026408f75295e463cc60fb19ecc4e405b886b9bf5f5e5a75614a240f36233dba91fd860aba966e1cdd8c51b5cabefb230, 0x770c39369c2a03a71a1b652d32fe1335161bc93888084701c060ac82f70b503eb5f1f7599257f9014cf1084cd0e77b1866612fbddc2ffd809f0d77367faaf308),
  (0xf2d148b8458967ed79a23b0b5cbf58a94370cd7d66ff18f6b2d042eb99143989ed1788c2890c4203bc91a31208a2a612038b5d83ed3d23ed8c7f39ca0b58b5f, 0x7d46644c83488b563b3ac117d4a190453b6e6af88362622948ddbc3d5ecfe15b4ba5376fbaed02b3b10ff8226168a1a46fb748d8fb13e83d9d3041cf6bdedef2),
  (0x8de1ba7b1cc984a84f4f65741dc8ee084039d42b606e6216068cf9bdf9e1dd04ac8ee521150f94a2fa89c50801549908249b3b308c15eff882ee0c865a4628c, 0x76d3180460315366f61ead386cb24c3da640cb528f99124216be741e465e228ffe6abfe57cbe6c436d47fff249a7cd69dd148608560b086e1109c23cc758c824),
  (0x1c88b54bc033b089c283dabf17cc72e838549538c7c39b67c7fda6a242ab4a3699dd86dffd564ba14d08b1dda4a2ade135b33f88cde068ce39cdef01e4a18c75, 0x25455083798bbfd5e09437ac668c2203a33baf13e6c63cb8bc63828b5f4ce0c208ead9d63813b6fb19c7fab4cfd6c14a42aa6ef59671d09530011e5d27c43990),
  (0x1d830a13ee0e6e92c0faf7248ac3e625f09a38845dde42c57f9d41fa5f280d2346295b6872f07ca7247574110b0846977acf4c0672edbedd31e4fdb886e4d200, 0x6f5065b99d81d6f8afa29fc0fd1b6caae87193c38d2da06124b59e48805a4bedfd8fb3915577e076e4a3e55bad88532789677764c3fdcf333b86e002ff1e549a),
  (0x15fbc633887face317fcff4034b3755ca4b8bcdc2f5c8ee7936ba6aafdf8375b7e21e62215ca8cde60b50dabd8f5184b3f80c85542803172d54bd8da0170f969, 0x73cce9e98154109529c6dd1a4557550813756c754680b4f9fcfdf48c0722fd35776fde167c96c2e022f8867331ea55a7142c5fd3e8b046142eb8d2e3339aab47),
  (0xacf48a390a04ed83b024dfa73adcb908f1c1de91f5362cba359c7bdf57552832e6a7510ecc57e8fe9180737c93fbaf2eac25eebf3c86312546a711fca434293, 0x69a36055336a03e2ebb868777a8a5aff64a9b5c6b1244d1d05979313e09c36dadc345a7c8a347e4bc395bdfbc0a89b0fd35ac6bc7b15aaa68ad9c5f53c580eaf),
  (0x1157d03a59d748698dd8a09be5a8e63f03541500b2d0f90785cd02f2bdf5bb9593c02d262418fec0bf0a87f8de0359f38f3047644d6468f7efb1b095b1cce6f9, 0x3cf8ea1f360af68c63dbaace8f4c7f5865718de88d72a3d737120a4e6a4079a507c2205d382e27a832f6d2eb4c3ecbd4cd3f96f83e229bfce5ef526960600a49),
  (0x65faa096e3382e0f93fef5b0d2150a84e935eb2995aec23c0b77fa378fed322205224602565dcbf9024e0475ee326e1f58654586a888acfa38c5b47ab10e61e4, 0x50d448b0d89d44fc090ce5c3bd611012126bafabf4c21224b124a03f0472c7a721ca6a0e98df37eb31ea874c5479b4836bb02fc10b15f51789735fa865909c27),
  (0x6c4d62482d2506707d89b954224b571249b0f891b98b4652eadcc0e10053190956de79bafea157a721489fe47a97138188a21b57afde8557ad441c4e3aef4b48, 0xd07b0accd620cd80fafc3f600b639a7ca82453fe56c1b2c5a65d91abc75c1aede89e7ce51af22a1eeccbd35cfe4bf6af0ca3e282db8f7ecc0c754ee288fc67c),
  (0x7232f17aa858dac8ab1316e6dccf1ae62b6cd254f51bae6db0b9805cde52cae6f9e8924253c4646497006282628bf88432af22104c0020c1bb8082b20ea1a19d, 0x21d4e1ff39d25101f184f9bc016f12c304676d65a43532a775e70d2436054912894274b871fd20e6e57ed40efc9ce1adfe598c0533e761de2e6fff68ea2223c6),
  (0x381b17fb84269e1226314a6c37d3ad8ebad7fcabd724305bea16804cdab5e509ab26e7199a17861689e71b632a87e2c37ccc2880ca0a7e43e40848810932ac8b, 0xdfd3df1b767ac8fd822ac9bb60614ddb87a5ab94c9e5bf21a9b2a781f487356b9961abd8d2051edb75c0f5cc627f3adc575eac9707eb652e4ce96eab60706e9),
  (0x6611b4adb273f014bac8b7f1875f4f7b322620ef2090f0945838ffccae0b888c82352eb75229c786fbf757d26e79612ecfef7779d5596309feca7d02a796984e, 0x528642e2fde49a6bbb5bd635436e07d7fe27d93aacc3199baa6a1966b91ff3c54e3a729820fa2c741543a03216c82ad1b31d656b8dc91daf8da349899b80a5b8),
  (0x60a2e6f4e1750347cdf3ecd5f79a10443f738061faac44e2128360fca5df307e2111a333ba76b852b478523c01f1c6212ebbe4538c3b97305f50242c8646073e, 0xc23fcb16d1acda13c23a104600bb0ead68b1800a2111b2166bc3a1dcd4c4db6ab4e24212e8a8e82d4c9bd5b80e7c562d3e72c593992451471d347e8e6914afe),
  (0x41ad3b3cb9fc29d26008ebb7b7b96e5ef8df3aeeee5405a7ba729ecc8ae196457af1e1a4194444bab7cd3712ea3d637b45d38cf74fc0e13aaff5f12fb8001e0d, 0x2892b969efc99303d6c17c020292472cb26c107e5aea1423e348a27ded88a0c8b99fcf96d3655ca708c726ddefd9a62b0365cd45bfb00bfd599377a33d92af94),
  (0x23ce36372f048a412c3526821e62453b3a37653088d6b34ca1d04ea42111ef5d613efce6967094807f8a8086e2e715e4c59baaa2fe1a497281fa58061e135761, 0x588bc682638e93e80351def89f3f1ea8ce2264196b08ff5790d678a4a94c5010c87fcfc9bffd07c749b0d86ace0ef8251c240c20dea758e272d17358d662dbf2),
  (0x63ff48c7a3f609cc1f9e15aec59927e981a4f1e394105c46302d845fa7dcb64fb4e4e00ccf237356e30c4968bf6e874fde3ef2904ffb5efd2cd540b1504cc286, 0x4d8d499befe755eb51a9a7457c359d3cb91c6bd91be4b72637faa13f360fbc58780c7f4d0733662ca6b4bf42a35cf2cb99c84c59e417a86f1ed1e97f84ee165a),
  (0x319d549a40be539df5c63a26d80a124037d65c8588777963706a1ae162c3bbead6215e1fb56d83b8a2920e50ff37cc071812675edcb77edd240fe183b0e2d68, 0x3594db76a521769ed9d25b7a7380898b1404683f9a31f2dca4141a1167286c883f81530ddada5921e31aaf3901ed16700bd41e426f4e4e066723b8f1057ef5a5),
  (0x67ef2eb027bfdbf3bfd2bec342935a4dff5d76db01e08790afa103af0730a1a29231ab439cbba580cb04e0b667036ceb85293456d503a210924594b4fc52fecf, 0x630cae382b836f478cac882ee94c09698d29553dd4d1b2499eb020ab0ed1c14d71c29b9ff0274873840adbc48278e8673db0d838bfb822b75d02f6dd498f45e6),
  (0x3f86e23854617c23d3d32d0cdc3fd9f49ba25b15b1aa2884710d911f8c2b930475908e27b27caf62d1e7fd705c9870810c9ab8fedf7d96fdfb2433a13db6d89d, 0x45914ccd754a1e13f96bd19068a266486ca8ef726060fbe5eea6fc7d1799418b226ece026604d1094b5416710213474c5458d1f4a4a0bb3c8b5f439f1e99ecb4),
  (0x1fc7b0437f7db7c0f28864543cf933a9e08f86cae2bdff1607c420937eeca58315e1c24ecc3dc579565c57174e5570f6f168888d669adb8945115076b3041952, 0x2e1e37e093c83991382c49f4b46f251dfb22e01f943986a9eebcc2c2988bbbefae211ef880d6145c7445084ea51773f96dde889e7017b13a0a432f04a42226ab),
  (0x3d3a971be175b0ae466a72af5f9de78a64fae090dc586beb18412e6e21b9dcfcb62577bdc9bb173d3b5d7a046f4e4bb9bb2b1bcc25ac1924dbd0e8442fb390fc, 0x4d5d949030ea1afc8dcd9378f260f5a8f7317480cade58a7debcfdb5b1632f0e73a10ae8a48fcffd0ebac55897aa9b87a333e615ff7ed9cee9bf3f455822f52a),
  (0x89b84efbbf8bce37cbfd2863454e74997b4de7fba0bdee093251421055f6834f0b613e7a06d7d3be9e9b2613b1e924fe55e5136f824f3c1a57d79d3c246cc5b, 0x5973ba91be7001b0b3ae8589971e2ffd95f083e247794c32c63213dd47183f655402502a9f30de5717fcd9deef94fce5106830842ce39f783dc81fb01cd2d580),
  (0x6e8ca4146597d715d5c41c376a0ed318a11abfd4c14ab7bfb893ead675e902b84fcf79e9d51ba9ce31149f02e27ed91df53f703ad7c419f73dceb3001ff41075, 0x53832d1a1e3c20de060e45ba6873fb4351686a5f6c79dc005feebbb362a958534bb6725ef90bf976962a40686e284d165754781384cd08e5f5df6f04398a16fc),
  (0x3061c1c4fddcf2f36998e9cd90503ebc080d8fac710b2bfc677c418a22db563b944c426cb545b93495db2f91185d18c347e428da4da5437e25007e1e69767761, 0x42b7ab03c566c8228d0255b02d9351735d10878f21d0fdb6137974196de06344e77e1e5f12408243a001479414ae97bd277e765fae2d958791f016446eb832cc),
  (0x3f298683b6d99c9e6cb127f92d83ccdb810e3633e0713797c5cbc1f4a467bfae28ffbd2c7c0dd676246ad00116cb436a8130a48e2209fa2ac5a01448a653859, 0x46734a5539ddf9ed8a9dcf2673cf953ce02e06c94b86495501eb0fd6c600ab8ac9528af4ce57161e0e980ea5cd92ab1095e3b5aa59353babd33624a7a9081b4a),
  (0x11a88209c68d05c5dab34e1595e0e2282c41c78cb0119979fdc1833a3528392190db297325cf27e5fdc13c987d815d41874dc34af4a4ad44f84259de8ff2f4d4, 0x70c49511168c8ceca0bae4d1f141f75082766e79aeb06b6578aa3d8b129e5a8353acc6b1503d71f51175e5d2ea0fb2c0106caf96018ca7769665fd3399da87bd),
  (0x659eed904d1630cfd171bb885be36f74d70616a51faa4fc7b3106691ef27c98de8e9db6c9ae239160157f23441d558e815ef478e85d750ed46ab37130d8c34e2, 0x249cbd2f818e8ce853f8a708edbde35998f2f9129c7988ca96cd53f8fbed1c7c6f06bc69ed2cd3abf23361062736ee4a0e88e319e1a08610d5dc60ec67ce1420),
  (0x41c07426618f9ecba0b91d2f88248d9311b4db298da12086bdc77919584af683ea2d5225f123f2b84cff3d3eb359f760990b4661ad665314c11f51617f4128c6, 0x5c179af9b8d35ef94bb2695c6e216b4a403da645e8f4c74036c677232a1568ca6cc336a213d7245533028bd2c8530da3c2d0f43474af97149a5dd196d55859a0),
  (0x558c372fc77aeb941c36473566a662ed39ce11e655737c784e765298939d4fd73561190b5432bb55b359f4dd2ca13b11f94607d6468697893bedaa05147d0db8, 0xbb401c5281992895a76ef06f7de5f670d6819270f4768f1fb2aea430237bd5def23a679d343803051f43a9f1b7a16db40dd0ccb0011347ee6bb0f055214dce6),
  (0x4fbb7891738fa136d198825e8dd9bf00b8d506e7d4da76deaee852556c6f64de2e20cfbb16e5b96eff5a18f51d1e35b33b67986ee27f247c294938b263be36ce, 0x337f9b71f7bb5f5c2fd900d95dc9a5ea57685919bb90fc19622785e0b9b379e25ddbd2109bfddfa8dd7b5c19eb40a953ede4374c4eb960852a50f3c1896d2f90),
  (0x7f500e2cb06fcc707dc1a8792db3bfeabf0fdbdde5e2c8713f2c00fd85b4e7b4f9984caa2dea20cb4a659a8a0e40f960dfe3156f21ae777f234596d9bb8ebcc3, 0x394ca6661998208cb4712fa48365776d5aa9aa49ca657eab530d09b5eeb89bcd3c0a6cbf57d53258cb49ca5cd0c34d3b404f4b171271630ce27298654f967dfa),
  (0x7f83bc9e4b6c577db9a70258ef82f3e354e2e5adae31536d673188cc323a67f4b0be28aab71bd0f8db9ce1c9adbfd66277e619b9869a765a7badd56631ac651, 0x1f600153a994367b3ba4772f91b30f6cc1fb0b60bbf245e2b1e6ccf7fe69cf968e2f5f9d0a6395c3b0391f6916cf8f03d569ac6d07bb0a5723643bb00cffa66b),
  (0x1bc06639631891c5a761deaedff6146b1052ee2fcc1e30af120b417e51b7b7657279f7aa68e659b5b682bec52333d33cff552087960c9f6a40393eb841d9ae16, 0x51afe483f1fa4ceda9be02c4f0e8388911c986d95a2cfa89d25c8ec9fab34e561db7bc3e70450030e857bdb2487f9337d4c73edf8e8045f233ace631ed0b5c51),
  (0x165ff8a86a808640d3893b8ea9537f8c37da2fe156665059b05078965b50611fa72bb2d59648b8f7ecba34a4c0514cada44847bd095220cccb3f5bc557752d61, 0x3f2e3179a56de0eefb711f14eb6ed2bedd63cf0f4fe58eb9fe4f041d055b248a7a77575f6c085250ff2d7e29514ed926fb74ed7c7f6173cba4794ce3cf628fc7),
  (0x44401da8bb6ea5e3529bf471b7357a537e21bcaeff3194a20a72a8d960333fdf834c53845d9f4e46de2ab308c9192b991cea8f7439161f355a2c802149746846, 0x27c822dd9d3e0416d21e39d686bf51f0bbe5f20808e750dce86a76298443be9b2f23b70a99b6476a0da49913b55e954ca256181851428f3ae1592ad2cc489406),
  (0x2e99026c6cbd68310c667bca3ca080d6c27bc62301f5be9a0a9819dfc4cf05c6befd86ef74b1742260362c260c725c6733267ef32b99bea339fadd2028190128, 0x6d6e79992802de6cb1216ebfebed38f1b6d97e7ca97f1b52b7ad6d14ee7cff0e91e243d5e83eb51c3d54836dba6232b7aee224af9ad19e528b7f7d0e7e989e00),
  (0x4dcf1d99dfe960f31577e5fbbc77caa4871024af4c796bce2049a2050b7677eca187648160c96c6b46a56ae2042a280ce68bed8bda630a56dda00e6e90e7ba04, 0x4611d438abdf59b212c85e5dfb5375b8102c97a00835cbfc85add161d202ec9dccd1cd712f58493d49b7c180bb00cc8cb21e22048586373a2d405f38938994c3),
  (0x4475c89ef7e43785d794cbd97028026ad6bfb6b912ca9cbd33a499add4ab2ae3ce99773f126648db1dbd1784c96c3f1ac629d6470b916394905f0939fbdad023, 0x54bbb3f8ecbec90d248d2cdd808107023916ffc74f532d03cd26f6f539a73bdd934ed4b277f2650636f28a9934a35cfad2eda63a9cebecede66566310fd22c30),
  (0x40d2cac3688ca08f68dca75e9cb665e7000e2de3cff59fb09e4af3de52600e60606f6abfaadf33c2005c75680d0a9b4a98279b68767c2952a2e10a97f021a8a6, 0x414de145421c1ddfdbe622bbb9fa6100f2a234b8b7a844b604cba314784b28a7804109bf3effa42f786b9001627e097283d786db1f76730b173d34bdbfec19a2),
  (0x1c4ca2b6743fc14b347ebd4d987e3e24973cb80aca4a1a5ee381b433efb90a816a83cf8e7b2ce8bed2090c292bebb72a780c3496ba3c66824737904c000cfd6, 0x143600360373f63d3239488fdc2cf2bb520bf34b0f11c090544c9fc5c1e0dd8c53768a8186f4dd6e54c14223ec6432fd2cd62ef6b310e27b6f0d1428f1e088ef),
  (0x5330ef896545e3c7f19983ad1c4424706b33cfe160f98297df754b2596c36c0652c53f1738ace3d16e2370dddf33b047028ca1f94acdabd5cd851b9879b53f4a, 0x444cf8eb63da1b216b77801e45d70b2811491a808bae569f501fe1b8c7bcd721527bc262e452b3de42275e5db24b47a3dd73bff6c12a965ca19ab8847fcb3240),
  (0x1f278a8eddeeac48aba45254a07c0ff504b733462885c95b63c9e40f4658468e8fb3df1d887b3f5a1cc7e1186589337ffb4eaab4e73e281d157c5bf826173246, 0x77e67b8dbe2cb5e69b5d3feb036b8678be0556af2eff0c05a4ad98da791067bffaa78cbde649628666f71ebe03a1c36c60b89d05ed34b52619455efcf90e5bf9),
  (0x5821f42abb780aa7204f94caaf2eeb8182dffe38a2f685dcd50f7ce574a3dfaa23bf0c2823641f50b2566aee660f438f565d2a536d67be1d8cab7ced6a59167d, 0x3167538275e2f80592794e240680f4438cc825951942822ba2a6a2e1a48f401cc32c4b245df228cd08e19870718015420e70fc03fbce98812a0eda54ddb6a97f),
  (0x44125b61af525abe35dce3d24ba9f9835311d31a4ae1bd99cc4d425235f62fb72c4cc8c3458198da788baa535d809d569b2260846d619e270fa94b000b8bd934, 0x71b562f6511161decfb88779dbf421b3fe648a4ee3fbba32b9f365ed8ef6ff9f6b140c8542617d11df3e455e674c1c08c673eb803ef22a671c631c8c916963ee),
  (0x1648c1daec0d48c93326053c4a71fbfeace83fe05b310fe606d31d83094bc641036fa221dfe258407df285b324145920e84812b4db6323d70df965e9771ac6e1, 0x73e91d4d867b310b93123c30f45f3a2d2b1d4d2c8e4d94c882e66e3791cd6a544e9159a67677b740553449cd9bfa3000c20e33e685ab9ab74a18888882a72684),
  (0x59446dceee442c2b0b33ead3e3508dfd23b18c1c02d26b4f7f246dc677bf6d1c643ac9a5824068d9c5999448fbb11e5fba145c8473f8c3de7e44076a0d678546, 0x3351ebb96c587f36c9fb4c98271ec82794e2adecd19a1aa4ad594b112c6d16e59641d50a7f16e3c30497fbf8a702c8c0311244b8446c338d42d50ba8fa5ca9a3),
  (0x4cdfc3213390eb13693745ad819789352575e0ff211eeed8a57f2ea1ec465bb94522506c1177240ef998d29b72cdbfcbf02f707f4eb200047ad3fe5b11b08cb6, 0xc2c686f61b005a1d3b996f3cef741b9895331b0206fd431206ea9d3ea58fed316e46067c56f5f4aa9fb89fcfbd8ba282a2b9b3136c399e1649c2d46b0f4f3fd),
  (0x47674bd56acc451c2bcadcaa35eafd337206f5999655d075841f99c782146b266cba13e34bcd1585fbfec31325e764b8465dd86ada2d6e22534a1508cd4254b0, 0x89c7c7ae93c91b1b22b2b5a65601a73849b21d2428775fa304142e0b2ead4d5373a67007c4c63e8cd947a48ae6428598465b3c84bbf163f1c2db12ef2577a84),
  (0x6c3f85a8f8ff0bfb50d846f7dd2cec8f05809298b723f870a1c753ff70e33eb6807f5fa001d3ca479fd8265747cfdd3513d755dcec30fb9c435e493454aa8cb3, 0x7cb3cada5ca19817c165cbd5290d3bfbb9e675ca581b531e7e73253242bba7805f8fff0854d74f693c6052335386dff23a491c48fe83da15d62360c52a1f85b6),
  (0x4b0dd6c32657915458f35db9257ab7beadda6b88843dc8f76e82930a8b69cbc8ba4b489ba33dd5a7914c88db3d4e7a0e4e3dfcdb79dd2320df613017e345c23e, 0x1387edd7c242c086ddc102095ef1998013099ee31c97e6c5af4b80abf8df6a08e7923ae02a005b870d6c37b65ba8e022f95a568b7cf0fea5fa940e3bf1f1c836),
  (0x6bffaf79c87f7f14f7e67fbf4892f567ea958bae8b02401d552d7cc650227816066bb06e88105042482d8cdafe14adc2714752379e9ca1bcd48d4fdf1871e061, 0x5ca8a4c1f4b87f0bbd21186512fa6113574b73921703944db36becb1511f96753e58b9673079f3a35162993eabed6edfc5830c73ef580cecfe0a3228b8c7d0a2),
  (0x68408f998686c44d436a357cf238f2dd8cc163de1c083f46c0623557cf5730d49158239169cdad4ae666047bcdda3dce78bfb29184c46920cc6de4e992ceb84, 0x4b000fba63a687c2e4a7db69b1c3ce2eaada9ae5a9c3d395203793c9e061ed85df09b7d26a8963d2720d2e1364594d0f322a3c04f05e8ea4e32a61727b290778),
  (0x20233bec87932f8b5abfd37c2f41fac51b5c84075de77df2616b173f0d65cf6fbad22d6885fdd13fc4d74d55ed9811ec66add6c729b59d0d47f08be23a5df101, 0x25a1cf8e5e314a2487852dfd031790d2f9dfba72b14748fa93c5608cb89cfa1264bf3dc6ca345ce0c9b46a48c859e19a2f9a02ab1fc7f1cdb8e015734eee4e45),
  (0x4d746e497b1ec30a66f0b0ed4a1a22b12d24724636800036c08151847bcf705fa1886d50987fa25673123606260fa8e6d64c14113399dcaa132c951a8a26bdba, 0x50c0e79042d4f4c8861a7f11db8c6f1850c4c42a50ff9ceee31f586db2a2797323e651ce0db99df70f864f84b7cd4ac77aa5f381be0292d7e9dff75d17aa417f),
  (0x314499513b96a06782977025b68a9aa5b500004c1b0e577092fd3b052a2f2fc32ca805a47af6b431370b427c97a4f8bfd19543958a175c65c117525a26280443, 0x19ddbee64686bd440eaabde63e59e3628d4818447427b2d2d1d1ce8d1b8a69e4c784fc16dfd84c556e0dce1bd360bb660c486a75af11208475b84a5e429b46f5),
  (0x327f6a53bdd7ea610c833c01007f2419e81fd55e7274fbd3d28053918b1b86cde1906ac6e127af6eda8ab49fe4c9dd61c748766825c7d072385ec29ab6a86fe3, 0x6deef1a1049a5d86d128194793009b26644ef123789af386cce936c73d6a418143f575913eb32115260a43d51e819f2552a0c4258de152c03f087d45dffb4510),
  (0x6cff33544262a94d9057333ceab937a647f2a2044923f22ae1ddc5a8e7c6440d43981514832a72f58b4fb03eebe7e538d1bdf45ad4b01669a0c1ab0279819e7, 0x7b8d83e2d928b458d4c34fd9761755c388089a3449c9a4fe3a2edb675fac655d5c0939253d6e7f245262c5a44dc7a092db2f251f1305a8f70e4916ec34e02080),
  (0x54a3139f25bb6197c523815e21bb5638e4990bc64918c010feab739554c55c42b1b5a155951f891b707dda7ee094d4c6cb0d3737e7149bc423ec3e17e9ee160d, 0xcbde0cc51f0ba0b62e91a5b6722b6fbc87f8834ba68ee85ac1d42ee19db73f1da88f65c88467139ac40b696eb195021df81ee3049f750698c1c4ff42638358),
  (0x35daf9e193a07886b64e6ecd7e622cb940361ab9391bdc039ddcf474e21a4fdb64198a5d12bb1d54aed7c2babb0da93e001f09cf799eb82c6805289bbd30a93e, 0x491ae136f70ca2b6ae7cfcd769a8c0921c3485b872f556380dc4dca557d6332f031ca4751626cd20326a48fbf1b198bb6e32a61d3b48425916242ba0e858de49),
  (0x5ebaef77df54d783b5125e35b7e484cd6c297ef6e96004b1c9d164412e77ee7fb3ad64a52f6ea6c33f773b39aeaa6babc7c880bb80c91020a44837dbe405d153, 0x1ee3d86dd11dcd6c819bd9010c1c1b25c3d2ebece30dcac933ee8e2c3e355439f0c235b2be4b083b90a5873521115efd2a29ac84a1b9759b7e907a2b3b5a6d25),
  (0xc877de45b931731906c58e75d8c98b2cd0b1adbcc36fee5fe2828abca7a6c9376cecf67877d8c3a6da87d60b092ad2e1301e17942939b37879ad5f722753dcf, 0x2dd8ff87932d864117a8a477acc50b55a4966f30ce994e7912136e07a542aed400cb727a4280eaea4404ea4a2fe2fb138280a85596bc4ddd2b3a9cbc2dd7994a),
  (0x489d2838c4f85fc8fa8504b296649c2c604aa3026625c1365cf29861081d978678a486c8c10b9dccbe50c56589694963cad5fa4a620a044ea6551ef65635676e, 0x1d42380c65b78a471b1781d8b12e33ad7baf9060f6f51d31a7119603e1cdac6f4362dc3c295dae2d065f676ecc65200eb0e8bd82f0476a3c5f726233a5db573a),
  (0x86e6eae6fb60cd5e809b689b352e74bf57b76371de8dd8ceed8a005036c92ce6d1f37c79589b8dd3ea4f6fb28152b53523cd46d8385ed25313e229e30cf31b6, 0x7912895ea1d16c30d79d434a464d9dab53d5ba1f82b727a78e6cdc4dcab601c4ee112da5ffd4b3078a0181c3e8aa5c8bf22c1ad10bf971db078adb6e043866f3),
  (0x2c7fa86b36061fbe5ef189f6de3daf7d75b7a6b22aad472b7b2cebc74ecb8857df4f28749400e33e41c3f191c73174b0caa672fb9cab854037a3cab7657f7b85, 0x46c2587d6e78730fb7e738877fa420d613a654a1470890b1b7e9c8e7b3f2b0a4d6b42f74aa8861cacb4f8438cb55965b15839739a548d17b4fd59edf1bfd7f61),
  (0x737b5ecac01d2ba7cef68e4338a9c52f3b1ab5e9eddbf4855331ffc66703b449a5fd5ea6e010a89a101e949e6ded3f542ee5d791751085ba206c8bc5eadbb130, 0x15e116261c525f0b6274ef7ef44f2ad0eeab3d2df8e3753af72c911a5607cd06191a2de3fb4e3979a343cb5b89c3fa5afb1efbc2058a2fd30eca12a9b4189c24),
  (0x5b6ef70d15bd92f282e4b2bcf85f94348daf3ded193af4dfa47c0e3b7f9668a75465b2f0b1a56e86c4ce383d0426bda1ed4045eddaf9731f2047f555276dfcc0, 0xf48fd28f9718a56c9a645f52ecb284e7f706dd124fbb2cbec44e222b510da5cfab8e80d74239907947943dc4e58c36ea134829f1feb7595da20a3706097d79),
  (0x297c37fbfc1856ffd69dc046c0b08d9963d8dd12eee67fbe02f522c0b8152705ff58d4b0699fec94a573ea14a1f949b511a7d6f5da4fc79f387129a9f57394e3, 0x63fb8d3a7d24f40157646d99dedebb1e3b52224420f0d812597718e9f745b12742a733c78f4b331b71e88c56bf759eba1b67437f05f6ef6cc2a1641489d89566),
  (0x6bfd23d1651e3f7b94aafa6fbfef5f5567a37010ac88d95e2d6135f48ba991f8949744765d2a72c68798e7b7776bce936a63e9a90e694f3aba77b307f9c65bd8, 0x1c063fedf8efc4acb75c62c6a466f7664f945879d1625320a75ef65dbc9e02d630f884ab30d5de81eebe6f14724bf125b9e8ce6d0e15abadb2ce904c3f44f374),
  (0x6159035aa732c75e54d812822058cb375c8af0dd40c0f72097305b6fea37dbfba737b3111f1de043e98c82093d6df63014c664c8c09970dcda938d322aebb787, 0x2a79c1ff30f855d159d4fc484d49b23a0039ed48b6d3e941f188b30b2cb4b6e7597aa078b284059a8b76051c2ee221b7be2264fba182a165da69776d6a24de28),
  (0x251e0299815cf67c1f31cfddb306ee631afeb2307671dca353d676ef7ba0d4c59fe3f8cfafccb87dffcfdf93b013875c321ca6c5eb724d2c7b322a0fbd54e98b, 0x44810cce0490225db1e4ea9fbc22a043eb62b70cfe9afe970936ea99d4545ca9e66d12c4cc707133b4b7879ab901cdb618a4b1308ed9a99c3d62de1236b1cc3a),
  (0x295eabdf0853a30e891a76b23be4df5120e25f73398f38958c7c3605de2a040893602d8236ad0872cdfd9f1bd131856e2caeb00db2ab0bb6d4f5a4d87ee87369, 0x3ab5284b5b21e4bb54018a999de1dd33a72b7b2e5b522ac870a8537b820e97ca4f7f0b9cf9ce009c7a9f347603a8b961f403618d8dbe47d8ba99e6350972d2ef),
  (0x88c18521f04a2236612811fa244538c3a8784560d87648fa828d2f96324f310cddccb2e89cf1739b41d601cdd99a3f88f65cae4be1ab7a6ff75c16fb6e8675b, 0x74e8ec3c4adb7a3d3a3d63adffbadc81566683670628d6165767f0cc79a98bfcc25e605d544187d21e8621dc8806eb566cf803857deb7b1fea54749fd95c04bc),
  (0x59f55a3e098f5fe5e05ef8b7ca652bbf4f5d1fecf0cb16707e3b9f9b63232d6726aeca2455d98efad2c8b2c717d0a243c88a9e47f86f8e6bd414b073094d1621, 0x6a417f60a82237896d6d8847e6229b2484f4a9394ee36aeeee8e55f85dbc545809e95f7a5253d3c760375ab34eb98c5ad98bb60d587c042294973dd85e4baf00),
  (0x5d9a31df62ce518f39c3bbf421e24c4506f462b538debb8fee1ffa854629a05a6b9f798a9d0c010d866cca71637dfc311639ab8c612be83f33f400b90cc7b30b, 0x7bcde94ea8f37606a9e2b25d2c9aae3076390c2cc352f916de9096fa5d5058efffc06674dc3805e3350b38b89e57653cdd39ac6849617fc7f3d17d623fb3554),
  (0x55e2b155bb3f7deff7ce4ea73ec27c1bf175a11a15ac95d7ba1825ee1eb4e50a3589224f95ef76930bad5098e4b2836a35065347bae8e1dac60fb3b387805692, 0x75e714340e7654913bf409ffbb693b6ba875b416d5ee84e7f64409f7e94f24db4b921ecf5b37f5efbf9d71be7acc50b1b96bcad603b98b020d0a718f1d07d07d),
  (0x3cd2671da8762188bb85ec1b81a6decfdad0e5157c0f50759daaeb947e5a8b4a139bf53939a4e9ebae2f7cc2431b4e5b33c3c5d26e405568a6201e12efafc821, 0x48fb678c4a0562bde9702913c928aee17e8b451b9775c3cd779023c3da15789ab2e7626b672f02feadf077431efaed9dedfcaad624a5edf29c62371d04024ce0),
  (0x650646bcc9d6ca30c0ac4f004030fca4552b87367d2d1a45e417c8f258ec9b0ebcbb1781326bf8d20d41c041fd33fe94a4dd63d4b4d9b8e8d9cde1a6f6d60c2b, 0x7142e3977273fbb7de3e0290fe88556b7d81d60237ebc44d8f275136d723dc096bf50a805616332cce9a25484f24bd03eab9030c80c3eb933bf7d93e3afb4fd4),
  (0x1de5f512f9192d10455847b936c7c1a999deb96ef13907d830da48076c36833bb345d79ebff4a93901ffec5a869bb9ddde8b9c8d85e265b55b64b97bb77d1851, 0x6f63623d42e5792dd90a976e9dc41dd25ee884c009b370058dd7d5f026e048cc0548557bcaa49ec505e4c6e15ce44c831e88cf8b86f573ed49406874825fa2ab),
  (0x4ccfeade1a5e9efbfa00a3497a8de9816b841c411d5f0b56437b59f10040da95dfbc05ab8daed99b09d3317ec6b34b5df468a310c51552e823905c556a139cd4, 0x5d39770262bd249c56417782418e141785cb03c0221c8852f1fe3c1d848e1bbaf98de0f2697c915d9ea1ae5fabf50a148ed37389a89d1f8b1f83f21dff1eec9c),
  (0x3dcb26e27f3699c61cb931213587c34de7746e4bdeb6b7d17ed8531a29279cb4707e8ebae3819f7f7000494b300db395441d99b2d9a072ed383bf4947f1abf36, 0x288267f9b52af582b9ebbf084d2d53505081cf9f6daa60d07e72f954f90edd9962c5ac891d7cbb839797a0c6709e9687ec6c0421305412d10e3bf86f6ae62798),
  (0x685927d6bb2ba5ae71d7493e85ef15fb306df32bbe5b3a23fd65b90d562e1f7866c5f3c52e2a9e67f703f564ae54795cb01c05235aa5161aa6448d5107b190f2, 0x6dc80dae02eb1b1d69cbdd23c392da760a017cd2a2fb37c0ee86085f5d81b6f92f2e75076ead51ad2e6ec50c2c37d1b5c0fe2011b42eeab53fbb8e0e6fecacbe),
  (0x55fd7a678f8ed6ca59ecc092bc349086222a9f720384be8a284edaf101367a85fa097e07368f6980618c295b28a12a4b7ecbfac1297ac37eabd3cb332d3a33fe, 0x6621909f7ff06d6ce8c2b14606a84aa13cd5a70521cb22e8168b2e2d0a3806442c89eb3a95d764f7566bdf414fa968decde5e9b8fa428a3919fb80f95cd56326),
  (0x15cf6cbd3b6edaa10070be5e2533530c8390a1f04a1500a3d0524b17b1c0397b052a797cd3aaf4101ca93871e51fb9135c41c486969cea9fddb1a6b75d11369a, 0x2959feaa5c7e44945ae018e6abe49d47be88cf0ee114c543b7599dd3b8526b2dc886a1e137d62529455aa12fdfe870494322638cfc9f60547d0eb4b2492784c2),
  (0x6b4e0a75439e80c93b6d1def0ca7d8a5b608add47eba194def03d93cea2ae16f216243b4ef5c1fdad6e67adb80368f1a2b0234db417abc11fffafeae6ae8af9b, 0x595a4eb64f108bccc75ee915480afa5407e3bfd79b5b799652e88b3f852acd46170dc9644f182d9301b2e5eee8f0b93def71e0cc8c69a2539bb6053a9bc979ea),
  (0x7d31b7e6f8d68b9956c1eccfe76b482fb55192b6ce51606c64b5a193c28f6ab5747eac70ffc91ef18d9a4fc0c0331f204c461b9de84b3b2dbf7dde105c2bfab3, 0x5a6242ee3d8b1eff43b019efb6d93ac983960854172255eaf7cfbb9a98bc27bbe8fe66718fa1c183b691a5ae200432c04a9aa65756fcce47e9d9ef2a142ef082),
  (0x3a9b7da30d2e50d66a83534a23cc9dea9996bb65475427cc26021637e654869303e2cd2cb2fece0661c47e06f95fa626c5d38c4187d07abde2958c083f5fd8cb, 0x5259b1691d35a821f5f2424943bc6db0f94fa0f1309ba0224afd9c35316645cc27f927e7d0b73aa7bdc74730885ef6ab14105d8c6f70b7516d782bdffa3b6896),
  (0x7ccc145a6cdded26411c1283aded003de8a8400514b28640cd4162569d7f88d8185f5f8d8b4dc3609ca865f453e45613c1017ba8be15775a3779bbc8cca54cf5, 0x2b05721aecb5f5f06cc0742722e748611834f99bdfa1b18c82e8cbe81d952d752a6011d7d19d694fb200425bd3d781fbe5cf5e59e2064efaa53b05437c01d213),
  (0x2bc3f4766fb7ba2235759f7c6d6bae608bdc0789661f8e0c50b6e60b2bae47af5f3770eb3c874548c8642de5ff4ae99334d51b654b03f87d19c2c669bc068aae, 0xd30accdf81ff86186c43ae2356ff3f120ee74b374a50ebfac535bb143fb54bb3aa3115b8cde1d9aa6ba9c718b6caed8f7675b88ae0e4fae85793d66fef94fc1),
  (0x65c29400487ab9c44a3c26a880e74428031fd33490d9c5f49961244d148b10b799fb5d69259f7ebef8ca141040ddb379753bfad7090b301ba0a4551176e77819, 0x1abb946382149706593aa85e67b73b7b02f5ac1c951c72bfd9fd70dbd6a9d427ad79fa05a3cc4a07f2b141acea16eae70400b7e3d10c3c4d278c6c81c15d3959),
  (0x19edf15949c414cbec67ffc84fc8de5797f53eed244474ba0e530036d365e5c0569899759e207d31b98c01175c8f078c88975eb94106fbe0b988abfb4268b99b, 0x1ba9f201010718d8b7d6b59ecc5a5ad8119f2d4206b80fbe3ddb7efc0f0dfd0a3f49fdd5241d54edc015657da06ae20b8d4b25fd024cbadd78662d24b3e8cba4),
  (0x78c4e1b17253acc047f493e8feb29406912ba1c7915486db900d5a2b3c9d58e619d1614f3fd38f919a94492de2eedc52189e70fd64a8fae64801c4c890bb848b, 0x2b11a015da76502b390157d0c7cb6f39152974b6c7430474d5d65585c2f6ce64133e094080b27c4cb3ebfd038f52c494939c8159404975c11e2461c6d21974f8),
  (0x42fa28af31b8980245f0977cff2afec62165cf1c95996f40334c5d7ec8c9812ae0dfe607240ba686dcfa2f377ef6bb503961b4112c9030dd2627cfdebb137348, 0x56d89e4ebc7bc588cc503dfbddb00d694eed8f620b47c08e6117a440180a957a3d6dda5059ff8cfad7bf6d931d733eb8e949ac5800a2b70a138acd75a85ee077),
  (0x667a627889e4eb02b244b8fc3eafcaafc6bb4bdc5eee40d23386841320245b9a70f6388371005751d2d35cfc16f622fac4dfc535ddd12aa795225c81381489db, 0x6f292f8e5fd3dc84e6b1a544e423637afb24605130df5b6bf1319c986da2c1dbccecfa47d8329121e510fdaf464c08102c0d282be4c6e238da52410e2f0a58c6),
  (0x16c6a659587f2ce8c52fdcfaca7dd6aeb79baf49293032239c24f26cb3c0fb5e13592c73147f2bc602198359bd830955bb1dfd9b44e7e5435823b1b98acf0eb2, 0x38a281d45e964ecb03cd1163312daf7cffeb0e19ffed624ec6108a7db28a8754348ee751060d35697f892b9e5e25e2cd4d985b749c87c4e71507c3c79aec4ee6),
  (0x50bfd8f2b48428cbfc39a079fab024a2d59db89da8ba1daacd647a922034c8f1522ed120b3e721b75543c4fb8e5e4524cec75a010ed0a3ba1ba3598d4c0a5d14, 0x1ce5aabba59359f5740bb3cda02f9c82b7d503e4e4cb62b802ed512f16f9f8bb2c0a0193023956ecb5c36044b46f5e275d335dcd5fead5b144b2ec4b2d822c98),
  (0x44a4a9c9193b59a3f2c3ed0112220b251b8e79988e94171563f0242a893bfcc6fdf1f9474b618a46ee9b978f880ee6339b11c24ff5747a764754489c9f39bb35, 0x34c8f460ee90d7f343132f71f426df6c1a896ee93a35d3de8f377ae3c6c79db2bd40a70f8f1b2c8b018eec41e9bae1090a3a4676e6392231699e7f4f633a6e33),
  (0x6724e48f61a7865d483fd3f6aaafed414e7b60436e3242916a80920cb86b9375056e19be0f224b2ee8c0a42b0e8e07b274a04e8a4b1258b521213dbe2255f238, 0xe12708791a1adc6a0e3552b3564f937d8e59e93b171f44124bdbb267fe9898f2489d1d950017fb398a8ea1ed3580b40979e8035f446c796d12ee53e16a9b737),
  (0xb8273ca308e4871523aa30477629778624bb24e36103ef3b184c02b406ab2719bb684b47ae6d7b5d2f257f5d37bcf6a53e4639bd3df969e88c0ee01b06dcfbe, 0x44f49f674463c221dc47066134bf79839bf65fc13d48d3632152d0d99234ae7201cd814dea3753bbe104687982ef50c16d849c86a06d14d10626919e1a839c4d),
  (0x1b290c86dde8a11030cc634aa91922f1378d5890444372c02ca4e9f76b5bd06f0c8f8feeb5cfd797b66a29f5b93332e1149f088399f593859c156cbc515c565, 0x3802cd82cb8884e1f0e67313eec1e088599d6c1496025d26c1de1de171958f5f704b340d15fbad45a6519c31e099fb385dc4d52fbecd8f4ac3c551098353a5a7),
  (0x2621db21560a5f03adaa8f0f046ddfa0691bfc0c097077d5de63aced0263f2ebb8dad1f34c44ae1575ed904571507c876c9dd05d8ca4fbeec445e9fbd01f46d4, 0xc9903434b7742a8474df0f9fd1c6b9d86fb3a3c2eef9a93a155c70fe9ba2b61ae71f4c0712ad455e0f089977ced72818102bb8d71ced5edaf5551c8583fcc59),
  (0x5ffa10e90d23bdd7af096375e8a688c9dd321b37ffdd6c6d78265733242b9425cbcafc1cd7b8a50f1ce6a6fab70dc76712766845cda5cb42822c8a832ccc926d, 0x6000cd2e952bb08d96a85010469aeb630f3b36e6e4f4f3a6a8d43db0639d4b53fcc48656b698949b794cc8827d2feabcdbb3945a3643a90eb7453ef3fa6c2251),
  (0x12ec0ad7a6b82753250f5959589c427cd1584819a50e14dda978602a1ebc6c9d66e55f5ad64361441cdaf5f6b1674c6c3aadc1759cc6051eb273807ad837541f, 0x4d0feb67337b7534eaaa782c5f60831cd623fe0239caa17b0457fe4947ed5c9d0c2c99cda52043f776cab0e44b62054a01103e37c28fa215deee1995339bd230),
  (0x1bdb92e0a042b9742300e685f8331144010d996f3ddd34008fc5e6af6476cfcc486d7f0020767fd359348efd4013ed926496b475602f2ced69c6a5293ba0c32f, 0x3003597f7670a688124464ee0d2d363751963890a828315c1f766381e75321230b0d923d4eb669c112b1aa878511fe669792c0c960f94f81a345f74643b7453d),
  (0x23208d152cac29636a4451dc5ab6a3c82cced4902559849662437082eb64ef30bf0b4f26b770169feea8a6f2fc8370f96ed8c1b680ea6a44d702ec80f1d36be2, 0x7bb3c27716e69d3bb72c86b82d0f3af2555e24f1746dbcb7d93ee3c5527df1c025785c39b4fd3184d91953ea46a9dd124144efb40e018d1d305c739bf26263c0),
  (0x64628986a605d8d864a2ad787fe4adb62c5ba8328712777fea28c854ea5be9767ef0b6ccf9cf053dd018324c177e89ae391ee63427d4b1c8cacfa34fe27893c7, 0x651696e3fde9cf077670543722990721afe21912c796aa4ceff825cb75643409603dbbd46dd079878dbdc9c38c4c23151e1173a9096d3717aac97c5533fc61b7),
  (0x6e5392e9848b4e58971ac353acf220efb8f24766e26a424def00a304e267f4690ce74eb011751ade60fccd76b1048237b784db03b2d247f5f8d15bb6a69ae4cc, 0x3979fdf3dec5542eeebec49fd407997c174212fe7bb0295ebdac74b61a0f67fad25e80ae1670bb346336838c2eebf9ae5d0db6eef8851c480f0738ba61b4d005),
  (0x7f1c326989ef1793b16d9ac7d86335c38f079135f91319cff0452cac2ce7ce069f187761eb28b7926830630fc54dd1a4fbd12ac35840a4c5cf6b026c34983313, 0x42ae4659c450c286fb29876cbb6cf7c4d3e3145f19756e0b7d2026b0e733586c0b84e94b201c05a5eb428c9e1aa027e3042b4a7763c1f0e55685c5f654023092),
  (0x1f9dd81a85803df3968bcc096898119bc7dd52019bda60823a1e4979218fe566c2a72f38718ceedeaf8b2d8f6c8545a4b890e2a696d9fd41c59d6ebb6cc5f0fc, 0x216dee854e55357e78942cfde254afe6039f4584be54008fabc95378fb68c4df8cba955d5b67cc9d67cd7fe4eab2b74f370f3ceb478b71b3640f1f540ebe750),
  (0x72efe90405a4e59f570ad6522a144a65411cedd682df57fdc25dce5c83c9b60cefd5d790b2272d55dda5d4e8fbc5edae5a2ae28368343a9a8d1f7857fd2dc431, 0x26e4bd6859a1f2fe7c65e177b8be1f48fe47b96a4416bc653c9cdccc16f15c6f28c21fc3967ccc2a2d0bbce264f51b6e5eee3b26349b287e1b9d59622469f7de),
  (0x4d00e4377fefbe1cb0e1f536c9c1bf97bf00690d77f9c0f74eae797e852fd5f99a763dd5ccba20af8736cdfa7bc39044804bf582119bed9c93f426ec10bb3a41, 0x20ed708f2c081a1409db9427e92a36a6a450f3302f56bbe9d565d7a03eda04c89c2974f2e7381ddc7a2dd64fa2c6621d2a947f1f09c0516436ae4df3d83d5295),
  (0x7b0192ab508f3b0d34ca15d44319983e7ecfc3c0871755162b91de76d0ff6713a0af95df93e914c74c9f8382c0774c548677860a26dfd392d7f324260c9446f2, 0x75ca4bfd3f59e41d3bdf71930b5de2bed70d07f6fdd45defd440ce6bd16461b3fde7fb57a752889d76f62b7fb5855beb8c0049ffe2e12e86d56386e320528a99),
  (0xe28e35b30d2d069338e83749a3684efcb49c086142b8676fca91c78af9e4ffabc8d70ef6cd87e33685bc642c1fa47682c88036b751777a6f35847d5f6810b69, 0x9a606df564695f2921a9045e1901924944ecac47426880baf1b7f2d102ec24520ce1f051f97116b9ed218042513c2e44531ac086845ec87524c7b5a2ff7498f),
  (0x8561c22d9c25ff3446c11de4905bc495e117c717daafbb8987af5efbbcb3c8c7885968b7efef169135d9b720947115636ddc19eed39b8a324e040e97ad03eac, 0x21aaaf8068087d9a666fcd0072f3277ad4c9aa3c8bafd28dd9e50a7438fd8df8f8f4f7b2f560df7b7ce49bb89446d176ca2c53e4db7c28915bb2a68c915b822),
  (0xe935a75cc2fcda58e3e5fe701ef66c18c86d5380aca57d7f10388b175670d92b0b9e97616d4a0915bfd8082564a79f5eef9e1565f1acc07d6d83ffb7e146649, 0x58124addb46468b743079f56be3c4b0f25335a623afb87b39d8aab8eeef5da113707d838fe65a543e253b48534c1245acbe9d26bb81190de220d38a41f742ef),
  (0x36fd1aa438f30f915a6bd2bf5a1ab9999cb1c3457fda68ef4330fa03527db9c61d6ff44621f8d6d28fae33b74765fe9791bcd71022d7faefbefc00f0d282956e, 0x7c344faf1bb7033b2cf0641a14181f5ed5cfee42848e812bdee559fa75eb98572efe36e63be2a5582f56d5f723f8a66648125f4de9bbb9934137a0b3d358e643),
  (0x4436230d69749ebb5e95b68e36a58f1eba1094d8e87f08b38ae2eee70b18b23cb07117e4e5d3fba3283e6b691ed719d3ed9f012aae0d2d8e21c51a2a18816308, 0x279ba0fd872625cdab067b86b3353b2a11bbee3c993b0974da53b7a2c8974cb2b5fef030c743be2519f5df8f2cb71bf815a0197969589da06fcbd71672d3490),
  (0x65ff678d9b078fddec244e8b1e1e30ee531132ab359432dcd723c4ed6bef7b2a9abf62b879a44484478e1d94ec5b09fde102c3a720cbc42599b1c54f163d534c, 0x792ec8a589fa1b88cd0240b37f09b8cb70b2a1e945b49084d7aefa537957012c567f6846b76d47f9928fb6895c4765b955662776eab1bfffb9bf6c789422f976),
  (0x4e95f3d6eb476f63299eb391e4d7864a8ff274a2b271a2a4a3b6068b7b46824d49a79e08f6bbf24f61c0aca85831496f69fa50fe9ea211fb8eea711a33dd8d6, 0x7e20a1c694f919604034972fb33b975cf4c24c0088d810716cd8bb53c85aa01b68770b4d5f062103d9c41b4a7e30039b79d00c405576b85a8661223a984fd0e8),
  (0x51659e6214c29c58fc5c6485e4b61c82dd7b4d13c219f996c8f2f1df951505261097ed600922f31516b7cfa7a3d4265b40085675683d388308c3710f4f691a5c, 0x19880d1655cee862d421b35008cbb445a98d3751e36d0f141dc1e61f6c77bdfb41c438bbf7e818e3d1470b6399f1d89aa9ce166353a385e3598ca8946b6260b4),
  (0xd54bb7a71f81bfe8a4dff9ecc8687c3ae1cfe34c3461d5d9e7531bd79a36d93959b699d9d53b11085090ea34d52564d32ae54e9c437c0386364bad6eccc6f7e, 0x4d3e2e90ac0dac826c9b77a79bad645fc8f69bff6332a6aa92751196f1e21cde9784dad1e42cfc6d96ce3481f920426ab629ebb82b252a5ecab7c68109fe76cb),
  (0x7dd1fe01d8be0c2bfec941674c56c949bcd5a6cc5ff89ec9fdb907e707dfe63112ef86fbef8905361a0ff5855a84b2e0714c688f101a33abeea02b6097007ab6, 0x4f8c60028aceda5274c670489344b14cf35730e0e299d2f0f1eb976187a2a8abde05b807540f8d2bcff4d60bfc88143f4d3793e0b9b7821694c84800b6e7fcb2),
  (0x412b04a93b7893fb3120baedf7790953b574e8d127664ae18562a423c87b2fa4c5accaef6cbe33ac4802b9efbb6f0d0eced496a8e7cf3a34043ee93762227b91, 0x2084da761cf2bf6e625520b1ef2577c3e8790b12fceb34ebd3748d291417e1b27272b960c5b9d589cc2c3a05d999e953d000efd8ca6ce899acd656e7801ad11b),
  (0x7d308275f45a15bdc840c6f340cc894d50becc34bd1407b014cfd07235da5061d357cc739b04e856ecd5a699a554f426938cf5224cb5bbdaeaf984ef05963b2e, 0x787574095cd88d941bceffffebc29292c49e0c42e20d857f219a18338247657b8735456748c95308059f5134702d4ad77899643592e688e85b5e49c5c05d6948),
  (0x77fb2c2205f4c0ba4c78e1b63bdc3ba9a9e3a0db543a6c6463ebb1c48a7e40b0aa9f136fefa9d7141a03fa0862f8ee58c0bfd18c6835cae05875be8207d23d82, 0x7e8c662dc38b548757f42994e252ab015ccbd807eac1c61ba06c7e1dbdde2112d3dbdc33e13d00ec4d0eaa0f704be5af0611d475fcc00689c1a5e55c2300b3f5),
  (0x3c5942d131bf6ea7ba710533d0d94dde4d2c303578f26e2bc8a9d68a93545f39bc6d18d28d700de441ed9daa42a5b7283db16ff6302424fccc4b5ced894b2007, 0x563a258f8db93187e6dcaa88014fcd6c67ca4a5a18427e57d70da79fdb99457397b77ca9869dfb82f93cc0d5defd5f508bae32596cdc4566e6ad601bde178f6),
  (0xa22082e14a6faeea1567a6e9868eba620fd773a59aab72d091e9740c1761d1acb05159a7494f01f10fcfcb6454ed35485fa1fb6a1b067f408e9152daf663044, 0x6b3eb34a908d9222b21363285d2e388c4dfd7d877ed4fc3f6e66b17bfe39f8f6f169a7bff21c20ea233851c6d7d3fd69061d1388df21ee98572cf8f697d492fb),
  (0x146ec337ee17aed3e2fe4609468a2162cde0082a50ec2ef67b79d4f1b9faadf7354d5e7cf99775d0313329053dd3b444a97cde64a65a3a528ed3962b6ab9ffe2, 0x71b083cb93feaa184fb17a86893c725b6c8bd9353ce48c369ad51b133445f722d8b10a9370c7cf2a233cfac5f16f012ab44a811125f4f96fc395249e9c132033),
  (0xb4168947e69d7a90955679456ffe9c8cc846d40b236968cc54fe6a83ca804b0f23d85d597c9f2efcb55923cd93cbe2d94b53d2e5b779bbd45f381eb63751b6a, 0x72e32a9ccb09959a505a4823e99a99f345d2ef5141626e31ff8cceb5fa1648e8ead004de949564864e530fcae68e7048ab56a6898f63f95f941cab07598e438b),
  (0x407cbc643360856fbe08efd6c2828917955ba7db8564d43b0fadb51f0377fc1df4e65ec3704c1da2a49f49a67e187b91416de395e2f3d576ac22fbdaabbee359, 0x55f9471bbfdf169c2773fb86264f18ea60f40b447f68d9d90b66aceea243f5a31d002c4b15c440a2e8ce078d317c10b1013c8403e2e2699b4cc185023cce3440),
  (0x74552d30c1c4989b7685c5e47f6e3be01d2dbd9ef0b9ac3846c87ace320de3efade676ecd23644452a9018779d8ca86e18de3c6497abae5ef7a62ec47659f038, 0x2f815cbfcca66ec2df10b70fc91e618211d33cbd6ef98252cc849af994fbce9025b82ba455b837646cb67ef51346ba3d1ff846db19bf1b47368fec69bfcbd600),
  (0x20e7fcd5f00190958519b6bdeb0c3c54054a39040cbcbb5f859db09ccfb8b6fbcee854db6e0324b2187db4ac651578277f5764711a2f1d92013746fa3cb7cb8d, 0x3b60de3cad1a371ffca2eec4d91eed8a4aa429e9b6bb1a6903456df392384ea21481486e0d9b56e2bd27e8284d4420305e12ddb9353101994c68d597b7a31324),
  (0xb89fb8d48e49564fd50246e1eb5c978b04a6d21bb983e5d602d4a2fab540def2a23e2eda3828b55732a54f95da570be0fc924d10dd000cdd0b4bae5351e64a1, 0x666f5bea71b012046b7c205f24f0b79b0e47d2edc0ee098c1baae8f7bc750f35b11b0192c7a690cc4f33e4692523c5b92339af300358b616c19276b407e09414),
  (0x17ffb6a4fa4eb890f6cfec057e7f3357521b5f6cdb529cc612ef9cd7eab972c425198c0d4a1e738ce834a4e07971850de9628d1d3bdf39bfa30c4ccdfdcd3206, 0x7c22a6b040ead4056d21d9abe83ee9b31c0d3e0f08fb308a2070dd13bc41380d6dc036bdf90649167bf36c1ec7d474e4d70bb0803abfed0c67bea1c2cfca8ab6),
  (0x300365664fe78219c91b7309a02fd8a06e9ebff2c8fd468c65cc0e44fcd329e1a83b0ee622087144cad649b4e115803f844ce08f5081c2ce2703dc8a9799e166, 0x456dba8f97473f981b34d6dbd70df55a3025fa79181b83debd180a221550b797edd407bed7e6b2d4ce4867eddd1e5be92a7362a570e8b17a991796e6d6edb083),
  (0x661740320be6aaf146f4b2021e2b557af3a3c24325cf192c043c37df52fdd39978b94178832d6361dd4dc5a767ce26f5bd98387a636795bf08d2cd624a27329f, 0x4d87e0ffde17f13dbb0ab397a1296af44581fff1aa5bf50511dfdfcdb442c75e1f985d68aee75d2a3a9d6534cba51cc2318e4e05f90f90252f4f58afe43491f0),
  (0x4aae20820513a352e451d6570d415acdbf42cd525b28e63f23a4159387b79bc3eb8ce0699cf13b253c4ae4b5c6761b9bf8add6aeeb788739a74a6701c5d6e41e, 0x573f8f1c6087684c8121326ebecb77397428348c3dcab8423a7ac4dca5d378ef392df4d37c980205dd349bb4cab08cf1a1e6f7023138891a7591dc9bb065985c),
  (0x6b0e30ee0cf6aa6d6a2a7b88fa117e33327386e6e716257adfb74f6d7947e1aead6eb0af15390ce13986c1d8aead5bc69cc3187c36dfd744733e8be2c9f71cda, 0x69e2d052b46bbf49ad7f7885cfebcb61033b3016141d11b64e6705e6bd517b4e797ca3b76c93846ba107aa2b79478ed2bd52b9a7b63699f1c2bb32c009b48d0b),
  (0x71f808f863b2fe94483c38e73a53f18497b1783c519394120bc9968ecffaff0420ab91119511e547b39452480aac739e3c8c3a7646258821b2b8f9478c5410e9, 0xfff221dfded2d5b833b62d91029d9f30e12dde6e8cfec18d9f31b35863c3fc8506b33ce79d33dd154cf3e982d98bd7cbed031033f3526928ffe008202408f53),
  (0x78a7687f3ce1aeb106ad1c2e226d1a28d27ef3473408b792d2804fce8c86d849e147b42564261cbe20dea38b806e3e8dfded58e2a0905b3e63d8b642cc8dcea0, 0x4d5485e01ad2204ca45b20684cbbf1211579f45ecfbaa15133db831933f4708ce65235c947136f92922b747c36621e3fd51831fdc1c074da3762c4bd0820683e),
  (0x5130f42f5bf1717bb1de62360c01e30470f9ea0b3e477333a0193731d990bcefc8f279fb7e7bc973fa455063030d618171aa046d9d6b856f3b5c167d6b8289de, 0xf00f0221b4bab8463739f904167b8a19774746dbf70f7f1fb31eaad86a342efc48537bb1a1df4db09e2bb0ed9e339b878f63ef72ee9bd70c6292fe6a476218c),
  (0x582449128041db97f87575dc28b12f4eec451ef01a443bb2d6b8e636dba592482e06027ad08ae954ddd7578cd118f9a9ad560e427abc58406fcb766ad73b4aef, 0x524bfc638ef533144114d49a9d7ac14dd18cb209010a38d7940677f5a96b6db62cf15094b0e1dc6c971a4aa5489930e88a3b21c15296024ce724a78ae703d643),
  (0x2b11a42b314fc6459117ab98da6a8e5fa9684da1d121ef78912bf7d9834e058adcbedd64ddacc1da0d388c16f7c608e5288c730aa6be47c4a933bdd0ad6fdc7d, 0x78226e2f2727ea42e5512f0b3ff9b50cef3ef5207afa32be3f4e90dad55e8b6ce3e4c39bd333d33acfa15fd1c0a9db0765741ed76cb4b9b8fb957e84fc8d9a3e),
  (0xc3b4ae33819cd2b8c9ea245aee8b9f3a9894ec014aa7c043eedddb2396c4396666f90975455f9842bf0ee55f25a85a218176b10102718c0fa084ee48cb06cac, 0x7b0d32c564832c633dba046b7dc27fac7c0e3454fb94e4474be66b10db52212ebbb6a94ec1660eff6f7663a4013eede1321b102e5f69c4d39f673fd3dcea8bd4),
  (0x37907af8010e452f6fefbec8f913444178839f07027f4219222313991501d6f865c03f3202926886656f23235199a6e435ad17e0f814e08dd4bd72e1fe19474b, 0x59f95bef47383176589ad9cd9af8cd0453d1f26be0a95545d2cbec4bd5dd185afda142888c231540664ef5801318ad76a6312cbfba64a91973fda9b5632c2c95),
  (0xce9628682a5fbb8455c0640011dd6c8266d69b1e2e61a5b2a40ae1c288201a4465bb57192833b5d8f26ef002eecb5edfd2867000805f68d4f0f8685635de269, 0x1d9a1aaa272025a59af28feb852c77a2b2ce52dbe9bd6ed852b113fa357c7412a242f89626814583d38a7cac708360fe74b5f4c7c14d702c3072458644df8fc5),
  (0x1ec57b9a81232d68030c5e7aee2fb4bab4cb3a1abbcb2004c4e4acc27826b3c96dc69500e151f7eddf0a9013ae8b8752a3c72d03e6ef1ed281b5bc2025723386, 0x53e2a6168785e2d0f9ee1396a3331ee60f4b7a85c46a1a3b66b284d4d49ad74313a01348123a15b7f21e005a7f5a136156b4dcc7549db0bfe92542eccb80ddec),
  (0x58e38a92777f49fae1bc0c9151ba93b755f9702fc5cfb94b8f3604f0c1bb2e4f14f808445ff8c93d0464dd3c75070891db593568ee35b9cb789d092b0e179e31, 0x791c5f5b0409ed378e2bba4828453bb5f73da241a990091ffd55c45020efd9fdfaadf5dd13ef1c78bef2a8eec9827cd62f98021080a8ff7b16f4673dac7ca1cf),
  (0x1b6160ef65bb1be934f77ebe545989a4c16c1e409c5b9ff988692a5408ceaa81819afd60607dacd99988e68405c0d916ed29af368b4ae1512427ae8bc3a76474, 0x64684681dd24aa2a44a0e8ac930b8be92ca15343a69a1b20a58a2555c533adb91758dfe2330b7994f8ad11d2b9376ec0ee18b6c4ccee317a424fe783376e267e),
  (0x265a9ed8416a70b44b5dc6735beb3d665aa3e4bd4cc258ce34ec89da6425f81887ee6346d631243a8f5fb3c319a9c951e58bb670a737aacacc7d75fe0883428b, 0x735d14097deed40ddcea588c6e46d1e318f3ce7bbd178a029f67c504cedfb961681a43bb79b3ded3364c297146f7311a592da4f5450d6856eb44131654c20657),
  (0x13af5f1ee3699f52ea4660bbbc51d27881bc5e2b7439b91d79c7489ba3a71c73341f75748d7e2e6e757dbbe1298fe89f6b43d0baee686693d6f4311aeef4d45b, 0x5d9eaf1296543d81c52d816ee37bb21086e55984b629be45fd478c1ff8de9e89747c0ff24bd57a53d6e476c48cae6ce6720290e9ec1630b2c497b4efad67664d),
  (0x27540c248ab6ad03da8de5be13c78a75c8fa415601e56917b5f8ee9bd3431508e7f4a61b97c3a31a5d5370aa0e2fa251b15326c1c3949ae3207c8146241e55b9, 0x853b2f96b4e958da1a4fa5abf8eb26ec6607050ee94da80ffa60b0986fb2dcce28b7ae0e70c38ad83a04f353ba245d028ebb1588f7ba4d468d9f643aacc6b8d),
  (0x6b87f75eb1ab5353e7747446bae30e58fa7f25e5a82f6538404163f2f2d4143618390bcafe578904458d4035f5afad39b61ec4f22483f66bc0c12f991cfea428, 0x729324c9087a5e1446440e0e258280b891c025a0b18e904ccb1335d5f308e041b56ed3b633ec5e6af25b44423b0cf0209c381dc54c1904cb18eb497d5e6ea582),
  (0x13947a03dc8238832194ac654e2a666846e369b83672444ddb77066ec380ed18196d9cb1609031e284e772aeccaf6ed653ad59773338fb8d3395d6b924e025aa, 0x1ddaae533930e78138d7df375c1a59da86ff22c3ee2dd015df1b81cbd982c837049d04ad1c0f97c9c931dabde041cbe695fcd1aea148e2a2d23035a43d62e9cd),
  (0x19957841676053cf358640a2e552e11ec4edcc8051d7c9f4283a4b3d29ba3af455de60e171741041563004e3fe558a50ddd1b9658901e3a3e4a5625a9475369b, 0x6685f26eb458846da8fb55002d9ca706cfaf7478aa38efe94fde7e1d5d272823f3a6c1f15ebfa53f4e97ffda398103ef24978e0d23a6c25234b1c6212a6244b7),
  (0x5282d1275a11717bc5d73999221bab47238c6851b30deef530a407073902ca1d8718e586473ceb720804e0823976b907d75717552ca2227b564f63a9926440e1, 0x3c6b4231d1aeb488b7b7f12b589dd5d3ee8965c1fa33083f523ade4bf472a3fea36378b35f7a79911bfcf3034d6cc21e5337d5bd6b0383f2138d5484e9f58052),
  (0x7e3b363ba072cd34eac4e77ca227edf916a50c64fa29d869c129627b0f0213ef2120f19c9f1189dbe7f615e51faf91ca247ceeacbd8a5a5e62a7e04a713b01c7, 0x5d90f78adc5f580a2f32b79fca4ce49103dd2c33e12b8bb18a7a31b5f31c48614c9a0278f0179813c8ae21d59b273f7b12ac88b8c62e95121251e1d1b07b2086),
  (0x71f3ad649d725965874c06a8a6b24c2aafbe3c7568f10249bbf34f59ddcaf62ebb9ad919e1470d5281a5f57e194060207288d6edf8a801977000f9f5599d3535, 0x177b8e14695409cf84f94d67f6a3c8cbd06a01e9a132daba63c3636b0271637d037ba79a7f4c10d43a8ac57686411ac2478bc6b086f5a315df606b69e342d75a),
  (0x6d4b9d6acd2e407303af10f5a63bc4d9ea162542d67e526504a98c9f1d34c70d477df3d83f26cbdb8c02ee7075a927e26d0ec19e6e5aa171281611085c3b914f, 0x4655970e177796f18f1889de94c1bc0168bce08d213bd11fa632bd60cef455659d66fa9303eacb8000be83eca7edff5f3a7c4bf2088963ce1d39b2a19af9cf3b),
  (0x8ba40f554db9adc106dbcd00ce74d7000e33089381232a83e69a9e9a407520cf5627f3a3877db7d8f9c00a12c56b37552f7f17181925ecd409e62141bfa4321, 0x4e0e29a1ea27fa6fa778552b9721287b73a7badcb09a3c5ad973ec64d6c5986be122651cfb8742e3c5381e5be926e19b87e5c516744fe82d7ac169fb014c1383),
  (0x498f3c4c2ec8dc2a17322e6c318d0eaa970dd881df07c7a06525ba5b100d113d171bd6b974cf011470fe685e54577bbd30f0797a0af7b5a784328b3e8719faab, 0x57c92852de9feeb2f7bbd0c9ddd73742136604b7ec0faa1036280f524a970e7c8459d7b66e6496a94130e469fcbc04a7016ff2c020f590e17fe35b4b935523e9),
  (0x5c51dec50ace4bbe28877ff87eb85f063fa735ffad3cc33ad537259f100c4d4e7ebba3c75f5300e65a566a0d716be2a08658b513800fdb7965d15a143408f830, 0x51f0d5e42bfafcd60f7a6385e34779790a01f0c8d6f796fd4a3c24f472ac3d0b028c5edf122db7da81fe2c6350d895ebbe2389d4873386af5ebda7974aa17f4c),
  (0x69dc84e481e32b7dd79d2b784b61205fbed0ce329f46cd34f7e16eea1d5de4777a837b107c507e2c551337eaac98c90569e3bd513d992d090ffd55af090b61f6, 0x4cb3a0b590d8b1545d8770c0fa6962afa7ecf764934ef074c0c5ad9426d3dd15744801b3a0449bbf552385bb274755fb81a901b172c481d77d2761ecc4780cc),
  (0x4677387dadcb1b21ddc760e7abd3247186de4149290a1cea9eddfb490a2b55ed4416965442c381e490248048af3721775845e830858928a788406dcd425f9de8, 0x365ae2d467a4a1dbb0386d4900fea90f364656f0986f5a24974bb7c9489b1cc6b81197ab55312d2ea1b61ab4943e26327676b61899dcec4a06c7c0f304df9ee),
  (0x71c2c37d03c9954a8bc825ab04723efcff2602865beff21a9aeae372facb1b2041fad0f900bb6d2aa3b1251eecab048a8e7d9fc3cc0d91a591faa6dfbc7b1122, 0x414719a15eb5ddf98f52cba5dc1ea12a97a830e8a56628dee1e1bc22a395c0f615c203799cc3cf7bd1f37d8a6a959ed1f19edafe89094589af4bc49b53acc103),
  (0x25b16e6c0ff9c973011f9b33f42a90aea0d63a4434b14acac23b92a99ed883e2567fe3e12377192298c36b589bbc258bf0888efca08f675583c6c3658736a49c, 0x635b06dcf872c6edfc7c9113a062e1a9e2eeb2a39b9366b3b6954547fe48538c1bb17ee45578c3267f85dee11d9d48ca030d036b3f6991647f738f8ecffeb20c),
  (0x1fd9f162e5432f401bb5677a032afd110636aeda0310bb17e7536d87c0618462b58bacba41a04e6cf96f431eb5fa6f3d5a66284a6be00cbe76dc72f1aefdfd96, 0x3c5ea48e8fc273bafe017213dad7807a21a927bd02a57d1eb592c35b440d5123832b04481aaf49d44ff3f53f88d72828f4760f728c1488fa9898e540d9853b37),
  (0x6964d65bc7c1784e4ccf474f299370c0b498eb0934310de3a053c45345b3891e8eedd75350c6aed09bf447dc1274a8508d3231bf2e7e6c4c36f3b6e03154dd74, 0x2d7077ef909887e59374d9887d4dd7d8cdebe6fb046791b61bf6f6c7fef37ab569c3e7a52154b9f4eb514e59d1925a5fe55f965997a9991d539beb9ec8e9c728),
  (0x532571cdbfe5b287e43b8d5fd48e05062e1a2879fd0ff8d576c86cc34693fad9944f10b015eac759fde62a344fc0f46b65ee80573b6afb22f23e042e58790e7c, 0xd9b9dfb3a4880e4e59cc2b56d7a8fae8cb7b6486cb34ed3bba04642400ae44ddbc9c79d5419cf48c2a7b3c7024b351a803e3c7c2a81ce378f13cfdcf69a9c2),
  (0x79dd6af46156ea32651490eb71f2de3e556610e041d7e8325ca4e3b498ea72ad6fdf553a0dc4995b88f37a97144c1ac0b0e1485f7a7bd0b589cef1dfa70b3187, 0xbf3a6bda06296281c3a3d482b06d751908118f8793d8f3aa7e7fed0a13112faafe4253b3e625cefbaedfaa1286cc8e2b31ec4aa6230a83dae6f487afe06a0fd),
  (0x7443fddce4b24681dcf297da7810a616eaf21298d51d89a243d80318d52d98b455a828f81f56d472271d61f08d372bc635528bae5dbcebf699e64d24d04fc489, 0x737252684ae02264bad0fb40496f4cce0fe1fe6eba75bf44f04e678ff9ca69209bc9dd7ef22a208efcb6ae9d3987086db390db49e9826b34c3ce02fe13bf5c87),
  (0x352ad530355a9d3efbf46788884cb17b624e770acd604d20c8874ec48b1bf569834a1f6528fd3dfa739e288a3568fd142477244de4b0fea1fe8a191767118460, 0x54d2197fcf45793659a422994da09b2efe544a99f7a5fda78a92519d10dac857106f04c36cee0090b8f8611736deeb1c2861adce54775fe41e955dc83a4e977),
  (0x3465d5124436d79adacd38041df9564a832d68531e2c3fd0091ed63c0ff1bfcda539db5bb9adf8005c6309a607c2cff567aa4dac925e38c2c392554a328f14ce, 0x427411d763713dcad076a6ccf7994fce5ac991e5adce183716949ee89f9c83f8f4c62d3522e8c84004b2cc03b40eae0ca2dc90c9ad15491f3f217e9f09dc8eea),
  (0x74ef3514764b8fbf4246a81a4f653626499eda222730a1c5c17947ab58f7352b3d4e53d6a9e2ad5a4bbc719051b447e57e9e516805909c42710c227ca3e3b1da, 0x392fa0f4b955b8dd967d5f4620d8b5a99ab5a39c82d9046afd75f350997f82266b87320e870b508e8a11cd873b7d2e7358abbd87533644346a02ca0c54e07cfe),
  (0xc4d05fc400e4f8b49f85daad762b30f78b5631038d55bc95f7701938848c62813f5add182bba585868314b1af85c1f0dca8265f01b5327f8831fb917585ae04, 0x501b1816da9c3c7904288098839cf02e93f05252db0732f944263d4f2a757cb853c57a9ecd5a6fab8492b235e9a5e240087b8f41be8503e5034da58d531e053a),
  (0x289e0e2f2510750eb8a47fcfd6db86f00ae24099efd0683baba9654a2000a3e8e07969419c3aa02b128c3de1d73c29b2e85866da65ebe16afd6c21f0e8cb855f, 0x6751276cce43a2e6101c5c64db611d04fcd8847e2c5ed81b7e5d8715f9c9858116733ad3bc8bdd90e4931c6b32093bc356d35b53ac613190a5b27d297c1f4b45),
  (0x11fd606ccdfa2d41eff7947aed67be0530d2d6b8dc7e4c1f5ab3c2936a2e7d7e7532876506935a70b1bf951cef3e1b150267541ae5535a7d9368d91d26a1cb7d, 0x26e187656bc45e77255e9f131e77ca4be3ecc890b412bf5e6c8dcd106b29a2c8d0de7f61fe8a73a594ce4af30bb7a3441d54ec7d16f525515e6ab469fa35b18f),
  (0x3116e1fa6aee3d2f2a437e08f6b0433b3029b163f50aa7b3a60ee7bcb89db7de334bdcd9abf303fe5ae4c82ba0e01d2b054b03ebff268f8020952dc4b9a7fea9, 0x17a77b8d78aec013676334de2086af52e172d172034f649f00b558397a6f6f8e646297d8a0bca204506eccdf1f49ab1cf8f8b4f420d4e0450b1c4ef1ff2d5af9),
  (0x26cf33c4e897f76ef9b0b26bb0ac8291d6eabdc7d1eeb28de4032b81399bad2aa60b73e522ce46cd6130f97b55d73f94d376a558b4b658ad987a82332fb5bf10, 0x4eddd39a818aa24a6441e4ad8df6b5ff500e743fbe2a473e7ba32e13cf11329bdc16bf8d218a09d0f39cddee014807fbba3a499129fe7ffb30c3324395e50f1e),
  (0x3fc0c418b94547f9decfce4dd25328944d9e070329214b85626497108a98bc8100cb351ce4dc568d900bab16b4c9b4a9c6d2c21ebf649e7c9aed3845e5fc6ae2, 0x7359992c923b86607fa81357a9e0b47a54a5e43654450edee95eda9c927a36344864e34748ce0a3638328b8be94f7976c9e19ace2869dba8bdec704811bb8ba3),
  (0x4420843a52bb6fa130bec91ea007edf0ba2930459735d0e99e0b3f302f31ff968ba11e3bc01ea7b999611462a6b46b2d682cec6b33dd6f717c226c1a53883411, 0x5f0ddfef8210c67817ee455a4eae673aefea143af65ed5529f6bfcc55b8456caf0b8b38a32985f9027123314628e89e003de1b7095470bd80fb4b9d20e4a657d),
  (0x15aaf4dbd77001af145be7dbad72ebd1270a486f5f30fd04996031ed7885829375c79d762805441745c6b2fa91031e5780434c6556722d560cff810f7544a67f, 0x5e0093b594aedbfd93027ea7a37a0e4b94e4876d48927f115ed110b2a837675d9223f085f063ee8403f21cf2c57040f4ee761066c17b7913a179677bb6bff5b8),
  (0x577cc91d7751bca866a6c3eee516cff7535940d56f3f441ef0d0895046676302ac986d5fc78ce95058c95610648498259e4714e913336a7453caffcffd6631ea, 0x76641986cb1460dda2508c983a00e526810d599e72ffced5b61dccc9bc748e5d40c040c1d016bfe0c6898870773f254f7e36cbfffdaa1643b3acca96b4a1fbee),
  (0x28c3080241ef35372fe67a46d40ff2ae94544be392e0cbe1699500aaeafcc89183412e395f463fa1d9decb80bcab2360aa0cd898353190dff7629ef5af9f805b, 0xe13890e775cfb43bba4429ae98f0fc415de4a753c6501d44695cfad2231bb216f14c0c82966aff062131676ad17c8d414ce684b0369b6c931b7114770e69fd3),
  (0x6954e7d67cceafdb11bb9935ecd9deba8ae0db5ecac21eb55360819cd774c08f520140ab396ded6a43044c1f2584cc1ed2db8aec0f2e731c6fc88bb5dcf8d3ff, 0x6d47cae6d2d7e6dbb88999c771ab5892eb0403e8cd38f196a9231d4292750a053c6509e36d424c3625590bc34d05100548c50363e7cce4d9c64a93e8d428b81),
  (0x6b207db3f6a1127410c3f2afea87c3b1b5995b05dc9e0e40470320e57e645b4a4b1efe9a74cf561788627c82c397aea4920ac628ef94e2539726ada8f0a9ba23, 0x195d33c0ff471e88bdb07a984f303b854f14c0223a98dc23f393d00af136764fbd657141eabe4cd572435a99a9f16397543cc04cdad29c571202d6384c870e2c),
  (0x49e5fb507d23851502b97511d4afe999cb4db674a6a8786d4b6b839120d86653156d4a7578cf0a0cc523b43c0e18bf416097bbfd0395fbbb8ec2782fde22e0c8, 0x398e2bf99227deb2f5f09a12748401ce60ef35978fa24e39684e2bfe4b63ca95bc1c4b42a0d4c1aa1d1262b5336c9ca1b51a064d6ca51df5e7cb5dd1f125e0b7),
  (0x381d1f46bc3d265938f2f79731d636b328c17d6df30b86e7e9140653c4955dab0ac6b53016258dcc26426915cf03fc30793447a67cc4388cc709aef70cd48ee5, 0x6927efaf5a0ce635c98a710531a17110cb62eba4f146229cfe3cd5b83c80d2c1fc64a863532a7ef15ccd3aa4ed0ddb8becfa8cc6e9763caef41a69c8cd1dbccd),
  (0x3a12280bf5879ad883741c7d8d1e99d57cc018a44dbd14c0130237af0eda8317c1df2f5188474dbfb00a78b012fc9ed3c2e901467f0e39c3825f593e7649cd40, 0x6b47786d81cc0819d593725651a48368601631080bbec116ba5510d2d5966c9a588336b6dc4dd9a7c89ae058320ef953bb5c163d8b041f16a31930e4119327b1),
  (0x197eff46703305884053202bd87e0e9cf0b99e4d6c8827fd713344187ae4c2f1d8cbba538205be43e1a6a346d79e4cc566287af538c1ba38cc593e8e52cd6778, 0x7e75b932330f60f229db527a8bd62b9e13bfd2e93fe4e80b141f9683c0942948fbd4ce77c1bb98cf6a2c0f618ae3ad198894ae819ef168221006bcc24695118e),
  (0x52cf0a773ffad4648e8035c4748b70e651dca7d781737028fcd2c771fcf6310c1e32514dc7ab19fa312ac768f1cf1bb51570ad642ca2ac1a9175826fc1c114fa, 0x50d7a3075c2145ef294ad119c7b02945c1c93cd4c0269d4fdf8e3922ff6142b365e53fe191912cd1051a8e1ecc04c0b959abc284c9bb9045a9e528f7b60303d6),
  (0x1ecb765b4d69123e0f0f48b71fd5cc6eae4b5fc4825964e9d34e885d914d7c0fff43dd5ece8f5b8311599cb8a16b287b2e586e1435afd274d9a4f331748f40b5, 0x4de144a4ce60fd0cf3a6334e656ac2c897412fc00376898963b6c5e5a454e075b1c5200a95b7fd75522b2c000f31bd86da6206f4193a66f821d1e89a6fd935da),
  (0x5903e54d65f739074b62213c8801d4176a53eedd5f0d3f0a1dcf3f0bf71055a7ce3a041455692f23cdbbd0aadfe769c0c8f087d9a10e1703175f4f13a2cf2b9a, 0x519bba520204eb8703d2b6417fc614b5d652d3d1927d5dc57c3dc27c51778e7705e8b15a4a2ec4c086bb65fcc0b6de7ccf980e7bdea9393fc7ac4d1c556af81),
  (0x13dfb6f65cc94e85a804d307b745e0b7412dac3fc4f0777eb65c3c4f13651da11adaea6f126fde39f0c7281ef8fed39f834ae2e0784e91f1e05d69120920c544, 0x527c3e3195f6a53f603945ad7f579e1ae61f3a128b08a54ebe2750cf3c859dc601734c15436ce2c637d88fe46cb0ae13ecdb195317175957c505688e667d69ee),
  (0x1a7d89dd8fc58a716e9f65bf759565e366a5b692a05b69176e1ea411e0833897448b2568b81f011537dbf1c150d51e30e927b8c2f05449d681c0c94d7e72dcae, 0x20ed9279a0214be8a60dc86d315aab8f8b475683313324cf77699bef516cfc78697a08343e4d458bc3964d1ed227a928973e859f1437e2576cc95c47cee2b4a2),
  (0x427b71b477a5298a2ebeaa325c22b373b850c64790671a6fde0d8f7ab3cd9236fcf7ee57315e2673f05d96c6d3c374c1a6b1cc95309e13d7a8182bc48a0a473, 0x6924ad42d07390195be245d2f90a9e23092bf17130e431de34eaed95ec8a0e6044cf040454e4dca184863a914e06342f39628b32eda511f7c38e2906dde0bc87),
  (0x39299eb3fbe0952e2038f0328350ff004c8d97f5f7e3da475e4d35b930234af5301a9b939d4908fe635007176bdb35d24673771fa7c23fc9d16af29269fe8a11, 0x2f29fe388dedc57ffe1a3e3a8261677e7cd4217e2c18a7e24085882452e57ec4ade8fc0becd140695f550a9ef3bda0b09ba437f1538c059b0353f6a1ef7f05a9),
  (0x27b7b8d2c1871fdc0d3f94ae3d45436142a4f66ab4d3e258ad6d422e76456909ead071812eae28c55fd40ac408975372bf588ac716cd1f63ffe2c25a7ed756d0, 0x4782b22a7f9a50bac57d17c09dc95d8c06a321233f56e90aa27df2f0e28b7a06d02d99ec5008d971ddd478f18e6233c0df88b7da257fa11f2b7fa79ca94695bf),
  (0x7b624823ec363bce1a81cfed5edea5dd591f2db0a0224ed0f6a12fcb871613d00d96a530b455d9f58404721b9ec6fb46aabfb47a2ece1087b487479500a52c7a, 0x3be5ba862e8e233bae6c04b93cea20362b76449b2477101412c6afc9ad179a870d3b4d9ea0c34bb03d7a1bb26d612a2dd5b094fc7b608dfee3ad4bb28083973f),
  (0x1ac3ecf2fcfd7313764378935b5267cc5d2b372fc375f40af9fb9360802d66b0a91c990b91777a6e895dfa5bcbcf84339fbb25aa77b9d9bf3aa3b59b06a49de, 0x2a3174ec6f826af57d3f8b345003d924bc1b8241528333b31fd88dc9967fb334b3eef361d25180a0467821e780faee22fdf213a84f2ab4e6f141a492dddbc529),
  (0x1bea38d471ce6c21b71747b5de96f66df3bdb54931f7cd5652425836c267b3d09ef31f0ba65141f766c8e3b08c83517ed1c40181d67f1664fbb8e305bb3e8db9, 0x366edff8db9f759a040ef36d0d234937f7985f420b6e1ec7dd0133442ba7a65936b0d3f0aff38fdfd4701b1d999fb3b204a913b23cb074081b181e34792ebf4b),
  (0x2905de0f4ad250acd9deed871fe379d94d9868639d5ff23b3e15e615c04051787775503871f32626368c3b7edd274448a5c02f237d88384ebb43f8f93132c334, 0x758904dc2569cb1bc4cf4dd497ba5f3a443f9708d2c09e533d0613dc3ee9bc75302726f6ecb9b0a1eb95b36ed64780adfba8678a52276d22deb6bb9159f985b2),
  (0x6567cbd152391d9616bba17ce5fdd8b42538f58e4f2935bb1ddd91a7841a48bdf0392508fb5e528dba0991b15f4c939773f23c342153fa5c4c0b10c0a2f2c480, 0x7b9681c7b76b4144b39393c097a1b14327411fa8abff654ca37d4e4b38ef4aab99e27ef7b58c4f753eacb53870886bafea74a37c9586be6079dd95a546073da0),
  (0x3a927cb3b740e5a52708621e94c900040f270de66f69f95a242fa51fba565025bac033697e04b913762b2e9b62c138176b77d9d1338bc583a581bc557c7fd70d, 0x3a4588eaa6543b472bed131b78332a32fa26a22f1784285f6ed8eeb173e8e95bf865806ae759fa4e7e9027e8e26468ee1f5a4c0c24d375ec3cd205d8d6c8c6f7),
  (0x4154304067820b2bda9728d532cb8e94f39b4c00e264db1ffd840cabb27e98fbfb4704e8214b941b339605ea472ea42971b134efc9c7890d71c16c7c3a6cc82c, 0x744eda7ebcde3ddf6cee3cc1c76a590a4be69bc7e3f57262858736456229990bd0b5bf15d13abeac95f721d60f47caf7df2716872b7e485b13cf4f5a327ef235),
  (0x3808cd04bba358c1a5f5043c3bb22405defe8db77c625e526fa70b6af69477c3bf7dfe313dd154560a2b3b6ea660d109c15ed829ee18c22a032f72d328d36da1, 0x214c37ba0fbea994913b78c49dba8b014223a9e520cc32033e4fdcf9f1bf15fe77143f0e4085cc652e6f34f72d27bd5447f8bb5f79e39bca51eae246644cbdc),
  (0x39ce3910746842a3c232cc81d6549bcada2857f0619dadfd90cddeb843a3b12693596ad3d093e72b09f9828a7ae29a225196c623df98ac8d7c2c89b1c1d9f943, 0xdbb829ad0cbf595bc79cde2962d02047e55741cbc036580f225ae59cbbfc13b85ec86965b8a85a11ba9d700fc2754eb343217e6fddbdd71e3ef4b73197d4d45),
  (0xb8754cef91a0180bfb65ccc5aa9035867df956a3c65f4b962b4562511db3a5f6c0cc26843adf6f39037807ff0eb7c08da9d21fed47a57b7c5a4883e4e7eb752, 0x2d1cf6a6573d543cbbadd4eecdab77d16f7bd1d1e221ce6267b8271749ce97dbdba0a92376f1380aee9619abb431dc44550a6e56c0946f014b24c69b642f370f),
  (0x6485bd37ba084fe2acff0a33b1cbb6d51de07e6017b26b8e69998f6d68867df0f24b3fd1e1bb12466e9d2f50ab8bee61fbebba7d5e8d1646a946c96788067b92, 0x5ccbd3e60edf796de13f2578f367b07a62ec2642fddb5e3b56235bd0d54cec3c1aa45924085f4c5116dedc90ee4360e99aa7d1ef87737eb4b48504bf5eb61166),
  (0x4bbb46159450e3dd2bd08c56907a941f6a43a830c7d47c019b825f36fe76926c2d4b3993987e33de31654264b0459781b4ca9e6a1a81a53b7298f3cc4d73908b, 0x6890d265a3d5498ca1ff7e114266b0b9a7fd4210f81d1b74cb84a884a91210e91d93bb48fdf48609f08e9a41b07230538c1f68f52cc0e52e8dc3b139a9a429f1),
  (0x26b7162d9b4911f0e7284f0f4529cafa2b465fcda78579514efcaae42410af381cff94e47226ca9db2706ebec8436b345193928e19cda6cb90fd733b9855fba, 0x2284b2b42444011680b4580edab8fa52c6495675a9b2f2cbeb2c7037d0e48cc510805820237d08026f2ce2851a109a2fbc11f462c9d75e98b1690e25e56301a2),
  (0xfb3c4ed0432a22ffb2ffeb390272174d4bef01140e93d046ca30a823f7e1cc17de43c62497e8c044f3db724b9d93c1f9a714c25a2ecc866e174929af2decdb4, 0x3ca07cdddb67b296a04c0fb5b1d9a1314b3b47f63397cf15694b79f2adb6d5d7296dc72c215b7b510a0b3fd360c5fdd0f23297ffc6a7df806bb705dd1b4214cd),
  (0x691dfd0fb040f4736bb4e526936137dfb1da7b07a07294b8e837cd10fe4cee11486dbcb04faddf8ec190dfca5ac32ab5b0095b5dd49179c7cf4df9af8e8be9df, 0x110ecb62d61dc766f9c22c32397366a8fb67727d23c4fbade0837eb7d091bc67a45a82103ac753f0d19001fe473fd5487de22415554c0aae005937e39e3e3215),
  (0x6f949137524196a3f04ceadba919de9f2268d3a715592563e6265aaf58819a54be66f5fae8b7ef4b4d876109dcac2860a61b53c9772cfb49c86cce857a9bd487, 0x6b520755760bd23508d6661a190dac84e194dcf370707c6bdd8df9045258deaf309082e892291a32cf3a59ef54f60e98a1a47e8893d62ac7004fdeaaf2e5d162),
  (0x7f86cf19e8147c0c90dd1006d751bdc0e916dbd14bab0d02ab1101df44f1ffed48baedabd7011bda8e4d12c52a27e26c74699f784a7f88b003c13b3fd644b320, 0x44f37101b400d28c16f7d0fd18d5418093c3817d227d01709a300e6c7941f62f648485381929ed83c057220c3b99076c3723435ac3c4f42807ff1d39ce5d3e6f),
  (0x320e034f1c714676a58f2b364fa4d9d83d0957d160950082ea384f4ba0f30ac2be881c3c70c32e6bccd4486bc9397817d6df1a9d4de1b293845cf666fbdc349e, 0x3e6ce4309ed05597109018aa33c535d914eaa860869c26e923fbaafa4fb6f5f57de0b9b74c331a3b41d67be13d0473b6e1effc401c1fd032d5236d000e6ce790),
  (0x16d673e3d9c6cd03fb5da42c52d375224870777f6b0a5cd6f5cfc41b4866af44de73b7dfa3a73d9904f9ed523cedbf4bee564f3676b1c6f8c0545f7145dbfdd, 0x45817a6c1874b3e0a84b7f5529198f7840e6cb61ec264125c217abb82f914c5ecadf68646e6068d9761e7208959299d43253dbf76dac059eace43f192cc676ef),
  (0x42734cf43e543136ef789a14a23aae176fafb23c504f5f0b7be4fa699847fc177a76fad7acca432c955cd063f3c22d32d9626d53d0eac5fa201b3ad5f1317dfb, 0x7eb7d394e5a966c8e3347eb95e9d14e41beb9cf66d2beb411c7b68bff05201157856a1aec8b900143a0f3185504fa18bab4d2201d048cd3ed6793f826e940e10),
  (0x7df05a9469128b4421bc4e810e7f18d53b5c03d9d076a2ac06aa6708cd739afd7d42fe73f99699ea028aa268fe9265863d5e210e7e4714c65a97ba16308851c7, 0x3997d69821382d4184cc09626a1a1349090f62d9af0242864311fa4253fb6b41c7ab5f8bcefb545f1e45bd19019f5ea42a3feda4ba6b312214528482a2064dd9),
  (0x19adacad3cd974c2991ec21b7b7f06a2899b579040b7e74905dd2c4cd44347ebfc572ca394da3ea6c52993abd32d0880d754784f9d64a07a6515f1a5cc9f2704, 0x4285433f9ea7ed666a1f318ca017e88f08a90bff07fcddae5c0bda9a84f6dece7ab1a3ee805562adb30894332b4e9f3b9e8964dd75876c9cab06e16404962ba6),
  (0x149169391f9912e5d877890e42af9894519e1ad7a8c85f9d9388a62e5b50a9a7fb96af6086f1be410dc09226095b06fa282175176c743e0c46b495496ca4a93c, 0x4d7c6591fbb9a3a672b44d4fc47151e9c5cb553f67683f067e33d58f9601e2640ed68b21ab5d6e5a5e58a1e5e7bcdf1f0f4e17fccfbe23bb06b29700c0cd26ea),
  (0x1e22bdee06e924f5a84e1a72fea21a68f795456be1405aab32b63106b0450687475cfb2cd2298d49ebbfc57aa2d6cffac77939edb62a5b62c365b01cb09bb968, 0x6dccf248e854725a56e37c5fc2a2117b903fbb9a35144a216dc7524b875e9d78078951e87fed2d266350e2fe8330bfd9afa0a552fc7ff44ac8b5cd8f80d3e34),
  (0x230a15fb8e7aa16b1451e85b25459392fe025d6ad8a9bc982e81de119ac1a2630828d05618bb8917b49a7e40f145b7149b787f2e1acb8a36ec574f7f05543806, 0x1f1b9481720b6b70c3d94dba617ab6010df07ca27c9881c993b053ea7de40ecb92e2ed7194deb890db51dd89afdd3ee6b077cb52da4f94ca2666ed7126d40aa1),
  (0x6f773817f5f93993fbed64c5af9d906f7c3758348e6e549c21f556d111b0b920691e7f284e648346e57d4a0a7f51de1d593c99a4b223611e8e16132a0d8030d5, 0x547b4f4c2c1ae3daa30a043ca8511230d70a9f5a60e03cb6e16c3a08b663b9a7862fb36d313b05c6b75a4c2061995ca21eaa923ac1e847b49205ce921367fd44),
  (0x75082095af6bdc0cdb7a28d4c3c9c1d924daa7077e74dcf7f08af23ef7a3c362418e4c37754e951390512ddf49a0af1e84cee5ce471acd99d385a028efe71c44, 0x1491eb66a40a595dbac5d3da68a816db9817dc9bcffe1538bdf65701566f6f5aff6a2a190b81aee8835e5c915f1701726d054d46e02a0ace93f9fbd57d42f40b),
  (0x517b9a86dbf907ca30b4613e11c0bd4908a3fde842154214f35a7b3c98cfe3a21b02e30dfb6a05ba3a61958a4aa9af97b3cd0a4c94472753d96e2a7bf1fe1423, 0x307b26e321ea4a5cb60d97c41d554c2dfebab010f0f84dd3de877d3b4ec368e21b1b17e9488df71ed215afa2dbea074468c5521396ae3526a107a68e35c18dae),
  (0x51ce3f9f99e23142de8a17baadf8213e85e863430669100a826bff79883db768ab2b2ce58412d707daf90c463e7a38ebc8c451b9ad6520b7eccd998e7bfb9d34, 0x12244121102c2a5f612576fd7d84ece53606b845d20ffd75f8b863604fd70e131f2220bc5f441598b6d941bba97cb1ff343e2f504f9bc10f575974acfa3476b7),
  (0x4663b66160186d5a7c7590bba3ed9f535f1b8ceb26616a47c221e21da6b832691d5e7ddc544192677c610e491dc65fd1ae184fe0725e9308fa1199a7dbc707a8, 0x445c32819e75fffa0c1127358ebdc74dd87b7ff1a7e55f3f10db4f88423e98e7e61b958d3f7f7c92f19a6900a0048b7e7d9e0150d8958f2b3caf71317ab0118),
  (0x20aaef636ad123faa8cdb153050d6b623e506d79a0e1a3828fbeccc704f6710027791e7fbf00caee2ec73a96a8cf9edabe435244f4382e74c8eee99c8812c529, 0xafddfe51233d638026352002fb5ee7d18e7a07d03ef3673ca5c1aac3f9213ac9e6ec8be252fde0b9af4d5d1ccee3f3cd36450b5460e040df03c96975550015a),
  (0x58ae8145330d945464223e91d338d9e951832a253df8db4212a9421e69a32caa2e834b5c13fe8e1574571f3250b8496950d3b8f552f7a01a049e7d83d1009a50, 0x2f70cd9fb44a25f364f8f94d19a5d26f09ce229b78a9fdd5517644b93da5da03bfe636c9700f57c35861282fe508ef0457425fb18d49094307590bfe25f2d41e),
  (0x57244a2ea47d67245629b95b6ae5adcaf7f60d7474829a3ae3f9d6e12fc870d7ee328da42c2c9e56ed8d56bdbb7a408c84364e60f7f74be922a0bcbca16518e8, 0x40866f06a933a522aaf1b2eec98d0c3ea08c1fe317201bff1603c846c437b8f0c0f7d1a4e107a49f6b852b06e3c83f4052fe3e4948b94e528d777d67628d5fbf),
  (0x694d74f087621f13b57fc781d14648c48ce9a9bf0f7870686827b8fc8221d7c694ebfc767301ea84d94e7ab9def866989d1a6df10fd4d96a0c60c7fa4346725a, 0xba9d1418c604a7bf0758146378561df534f854984636a0ca0a00573bb20470a1065237f98a1c89edb7893b81a4aba8fa2389b92f6a7abec33519584cf870596),
  (0x7628b1c861bfe57089ebdf1a57791403df7a7e3576905c78d6009b552b37d8ddd7db48daa37c7f09ba808a6b2e26b139e22bfa64762ef997136ce06cace58905, 0x3b1a51bf3af1bf2dd257263910f0ceb39f9e0a4253d7950e97a893747a322da7cbe35e185d86ce62fa638f5664cf156d100ed785a72ef334f662f7a3c1796e2c),
  (0x1b7f16d785624862e33d9e86ef49a4d51960c0cc9795286857446190e1658e85a82d76afe4cbc945e8d8a118923674b6a16d2a12144791145b58741f5bc9851, 0x34de175bd148ec45bdcd5a6f14db6ad9feea29786e53f13b7014e507f30ac895462353430bda61b87e38e6ddff842c2cb78247c6f3b351046898587d8b5d373e),
  (0x33f0c57fca5bedd89fad166ee5eddd5ddbc5aacd01f69c769b0017453a227a3b8dfc711089af77479e2a3f1654b19277c1fd58a43caa3c5db536ad915ef639c9, 0x5ecd337b37ca6977f8ec77e69f9fdac66c70c699713c762ec079ed397f1d0935d25eaa0faa57d0f5bb765419b5baee1d89a2a50f6c53cf7f958bb9275b3de3fd),
  (0x30c907e74782839ea153af833b752a6786c7b4cba7467b09cae03fdb25de8e2e17d31be7ae3a584cbbd2e27ca024f5264a4f0eca0d17c4898c0186af97bc80b0, 0x144578c42451f498b54ace0164c272a3e7288649fceb01d97fbe4fb57a68d62083ad848c5a79f35f1f175a2919b0d844b97b76970b34436a9aaf9c0bb61cc397),
  (0x3ba254be7b81f5cbd5f0ef115a4204c7ffd0725d43a40f5cf095f6a79ae57961fee18d37830d1e720be5817c855fac0971a57b5ebaebc85ae4894d206bfa41a3, 0x638fb96635881f08dcde5da80d75df1af4ee4da82c4fe03b67d30747bc937b7c9747ff959cf59494c9f8d3b04596dff88249b7cb9b2b39b5357ebb8b4417f975),
  (0xb6d23f99956cd6ce7bffde3150887030bab8b2441d0582f5ae24255778c3903a3dc6ba1c303f0331ffa0ab3360895fc8c99c2308959f5f21a4e132ced6c73fd, 0x19887ee549ed0536c8927c84338046dc25d3e06c229becb82eebda611b7f17fe2af100f5a37c9975d7cfa31fca99e07df8c2f9740a198e7773d9eacb10bc777c),
  (0x252b0f4e0fbdcc74499e3f011581ee055a0bb0a5caaae47b9bd339fde349c357468cdef311c336cfe9d6aacd9b686594bb2abe909e3c1a5a32d2d1c0218321d9, 0x5f43a99ba6a06de0f2dcd2a675d664a9439f51b78b3a3fa0a51da448346a49061e7a87078bb45550115af242f75582096bf6274d9a26ffd327036404b2cdc392),
  (0xdfc9f87c09686cd4a1ee71894ac39707bb45f5e9561df33b1298a05131c3d5bcbec6718e8ab56826d8e670f1ccd228201fe779ddb730caac0b750633bdbafa4, 0x120e7ad46167b2bc30c1f869cf19efe04c8206d7d528fcc50744b2b7bd9046bd05f6743c25f7ca0afd58b8787e20e7a0e664a2860cfd60e5e31e0bc32132da76),
  (0x3508611913f554907b5bcb0618ace758cba249fea33317b98e87e54f7d25b91d2d9123e188cca054d3b501d1dbb5782bbf8130665a003f0f84463b0550a56bbd, 0x139c2ae640b106a4d63bbf0e56149e007a923ceec87f26538f7e17723c28c496df65fa18a6b795fda351d87793ac4c072b3185bd89c8d7d7a9d56c8e447b7986),
  (0x1eb26bc534ed7748560b866e3a91735fd7d29ff7f83d2a014dcd9652c2023eee1f7c7d41eeea1a636246529449d97c02336af5cda80f69ceffb2ffd3d930fba2, 0x3836fe294e90c252fdead357ab6820ca3e05b4fe8243e119c44001602f6fd5204bd3648745679ba76e4ffe96ca812a3689e10322803b2f9cfe8d8843d9d94242),
  (0x6d159a7e207bd0bbc7a1f299b610cf226b431becbcf73470f4a42d7a06f5afd40c63a969b7d71b4d6ee089b178bdc0c486bd11a79036d6db2ef977f05efefc87, 0x4340c7143d60975f773eca084652e5d0484a0f7cf9da285703aa4ca7b37960b44d3d7feda121f488e591e188734a380dae996c4c2eaecdb98e33a20e381669fd),
  (0x3e08da54d5ade26972026e280925df087d3970250f7cf9cbfd86961ad97e2c2c8b2209705c34dcd3be3cff5b049aad08cf029fab436528ae8c40bde8e2c53158, 0x413098a7a142c8e4e7cf24ab59480b4f6ccac151e5c7d7d2806ba217eb5edacda2cf37707792df5e1da93dfe67a8b3b41edeeaeab9dd85fd0187727e8bcd0cb6),
  (0x76adf7ba6771ecf3166dac063adaf50236f0d38bc4bec1bf6a1bd8cc7a340a55c62714d27455a32d59f35e154c820ad2f6084ae69720ee4da4f4ea2b9ea814e7, 0x2618165adbb129a1c0b31a3ca937af6f896aed0c7c3f22072064c568411c8c602a70321c54a5c395d49edaadad804bb15db0ed6e5976c75b06fd12a4644d585b),
  (0x12380ed53625d20d3537df3a82c8154515c52c303139a209c1ff0d3b05bb794f38a094cbeb4fc004dbbdb22667b67019d7805d0f1b418c4d081a03991bacb364, 0x1481c6dc958cbf28f8629add3684b96945fe6516b885a5275509cc79350d46797f9476f07d7ef119d213e4c614c0b6f6011050cef0bb546fc99a810dd123bb44),
  (0x1f6c3889973515bf32aac4afe390cf2443f8d8d5af8c2bc97b3cb22d877bb5924c11dc162293922df5fdd118bad8da4500058373aede45647c6f6e2d22633fec, 0x2d1602febe8b4053a896919ad25945f0a4d0bee7d31bffa5d3dca23507852c3c238270420a5fc2db02294582927140f7babc74dba7c722d4167ac66c2aea74c1),
  (0x4a328a1340fc4aec966ae14cf673ad8d0791d91c6db6f81546617513c096b9fb64fdcad457aaf27f060841f065a32be5a6a575df886f4db7ad86f3acb2194ca7, 0x5695b007417f2f8fb0d5f41cc1d9953ed363b3a1d11c3e90d6453a3862dbca5f54eed515122066a26a63ebd4d4230c969523b01c69b5de7ec69210d3b442f1c1),
  (0x4fd0ad29202f4bb83da0f1f9b6b1295668f71a3a074ea7c2bc726347c1e824398893267c369d0bb7fc0bb5ec6b56fc8cd34510e371158f34b2d4ef65d55a7a3e, 0x5077500738dcf02d639b362ac3a72817159e7468e4d335a9166a54290739ddba76f8aef8e2315ee3707de3f707fba17cb037e9f663e34416681409cafd56ffda),
  (0x64f0bb81af0d25f1ff7b13c503249dfb6266ca79c2958eda5a5d3b65e201fa8c91821ad8eef3b24f714a2dbebe6cd6aecffe8b840392fe46412a3ae6c2a15b18, 0x4e362b0fdd7915548bf588e03ce91ce185c949322864e107f8462992b95918713ae8ed870e9b8af24aa10b5e23b1856e1892253acaf5e8dfe1fba6a6e92cd01f),
  (0x178fd3638f61e5807db24cf45e3d5d937dbb3668525add9bb8b6320c17cd20f3cf02d61bd40257d95ad86f67a97171147a1ee2e8073596ccded579365e39e21d, 0x7357dd895442f52c84194e0ea7b4d6eca26d6626dac506faa5f09b5c87e16b2e912fbf4a66db84bc0bc1711f09a1e406a1b8d1625e269d74d2877e69551f4988),
  (0x21b03c114cba812e6f7f5cc46aada927716369f75c19fc7d08619d243a8d9c2700816bc807f69ae9ed2546e232f12bb87a74310d6a2158d767f5216634119db7, 0x510abf347ebaa1be4e03b765f6b940ebaf77d94d2e6f272713679a0f63101f6aed522392e81501ee2a37b2c4ba5b5bb0648fb47c5825ef9be933493c12c00eee),
  (0xb7687ff3cdc60064257326e54b3d52759e9f2b10a4d8ba37d215c5fe564607889cc7df714fa9fc53687a3ceaf45d3c4a31323eb1c24ef908e9e5d83455c7d09, 0xe0908b020e176d6283bc61144ec03c9c6e3e47761d23996464f78458d04709d96e07cad52c319e1ecba0fb2e6550342220ae772952d6913216a1acee91e4405),
  (0x55623249e6ccc99ad7d76bb90509ed8ec4de693e45e21343585f943fd330b0af7a84f66e235d52c09200d23bbc466718b5b302e02a6448fcb5df75e7d623d50f, 0x4ca9f3a93dcee786b0be780ce96134d7ea2d99f121d39fc4eae8755f02105150bfd65dc8b21c514a4416853462fd6d24732ad68808762dbb085e5dfc21527f8d),
  (0x5b3f347a3bb84b061fac822f1a773391dbdd1143608199f80b01912fe9564f186a7b35fdab9cb32fcc19e494dfd7a0081bce2d19f92efbad077cd015ed9001ee, 0x457da4b721b4b1e4c048007637e75061eb384740caa8299ed6693247627b1cdba95f9debb6019f4d1b4e90acf1eb206b846dd4af0a3052780017b932aacb66f4),
  (0x9e0095f05e1c9e6489a0c3cdac72098d3ff02ab6210576ddf8f0ee9a68ca56f586adea0e75e1affef7e54f4ebe9a8043902d0433bae77f0a19c0691f5d84c21, 0x3f6597c1dede970e2d091894f7c2bbb7f1c8e010829d6d4c516e861ff07c03911e2771a3d1aff6b11bf28a48c7eddc7deb2f5bd963007afcb609e48d42e9c415),
  (0x748546b3d2b19eed981e0d4702f5c56880b40f0b9b81fb622a2adfbcaafd170e399b53b2290dfd9a9855cfa082fe1598c2899a9935fdd572a53b1f8bcb10fb98, 0x19df8fddad726c2fd876e3efacebd18f8c8f1355c8451176682a8385f57143f0c2a72c340062a5b4849fb86aed5dab37a26e4555af79448d6f87a328127af722),
  (0x700994edbf026505bb9758aff3ead459a3e934c66ea1fdb478d06b3839514f718e58e440cca50feb56d151834d3f8ad11fd9f794685b59b391161ab2ebcc93df, 0x68071315e33ccecc45dbee7ae42c8969e36e4df23505f4f4f418dd20f358f12100da217cfd5aa13bd3765dc818bd6c3f61535016e8cb76d41f4cedfd67e7720b),
  (0x7230b2244c55cc54bd8da9a6a412c3a631f8b379c843764aa38ec4e04ab266aa50b05a2d0504dbe4f92214deb6cc7da271a14c09d4dc315bb926654abb62cd24, 0x6e78084c5b980f481c3fc4433af52c9558880faf0ceed574164865c676edb82c57354e402e2fface45fd650f93b932dd44aaddbbb79ade8f0b17ba6c0a5245f4),
  (0x199b4fd8bbaaf6fd343b0bd97de6bb23dc06e71d3b040177bf0789d7ff1a5ad8f4506abfef3d940fd63aeff792ef549c4a835f6eb4f9fe361adace3cfd564e31, 0x3b9cdb1237b06483e5a6a3ca8bf3b6d9fc566f8479ce7d6093c4152042543b6a1b7590b810221267b87ef068d6e4721de41c33bbcaf744a717d142c9a8e62e81),
  (0x300bb0015164fc802cdaf2799b596d0c4595ee715e34d0fb38059e5c0deb9561d3a6e3fdd8da6cf312904484c041023c559d1d67f4fbb2efef2f02b792c85c09, 0x7bd9a4141ea8497ce817a6600f5a0cdc1df9371dab31035a06201e1b494f7c5719c2b43076c1ac49a1c40275481728c426ed20ecd22475cb57b836e76e870fd),
  (0x46de84a168b4bae8d8cfaafb6e835b44652cdc6760df3a85e56407e5068c174864700062a7c404d9e479865a856fa804e480dfaced6d8775418315a53cdf18f6, 0x16e951b8143b6f782c39dc30fde3fdefa285d2fb3ec93823d0da491924c389648906b83f87fe4621624bb48161b7365d42f6de0ab68a12609631681ebd4d79d9),
  (0x38b430a03c37290a773a9f8b0b143e32983b0f22c9135737ce736da82d016184b221c4321a5e4e52f1a52848dc308793b41ae9a1e00e0279b65aa996f7c4a6f3, 0x7c7c266753e495d3f555ce9b5e4cc4c09146eecc4482b0305ba3230f4bb8c6cfb6dc3c8db178438746f568f6d1ee54e6206070fe7e11b520361a8f47a9e846b6),
  (0x1e721baff916c4a6a97ff340985fb92a1d5a4ae9b0126bbb2200b9a9bb7041eec7bdfe72483d84c772c275881ce0290fc700a21ab79f03dc302435e4efaee58e, 0x325746bb1e6d3c8c0a04e3355b60016a343525ed0011c88d1a65b7a1325e1efc34d904d68ed67aced0cc59618e66253ccd9504faaa3dd280eb897a496c3e34ad),
  (0x102c92e4aaf6b321e0c27906ca0a6fa184583c5d76b2615901f9e77e75ac80b20932ce8ce7ceeeefc64bea7911bd6e22f6f728dcf994eaa9dd82cd4a3ce9504c, 0x287d1b2c6694f8160c2a37a13ef34a82a47b5d15a26eb0b77cfa12c03df716d34e1e0d4151ce4febda8514e81bfa6f6475feabd8d9eda502908076964e80620e),
  (0x76f9750e547c0964695be669b94eb0d6875640c1c24915d2f8aec4d5c2314843726552a12ca3c9326c43d6692222bc1f4ea4e20282d1db2f5ab6cac977fd85b7, 0x32e0af2413be1d7f325b8750391cb90345ff08f444cb85d3e97fbc58ba38ac3904e2d8f46665b1914c07f9eb3350b3c703ef10d0ce1646811e6a9b5fab3bcc0d),
  (0x6a83282f3f98a5d162a728837e15e3a70103a4c39b9fc4135582600f004cea347f17ada28f7023d1294bc137731de35af99fbd5d607630b99287b8808f60cf80, 0x5b34e2925ddc982c9bd250b3d6d6bdb5649cfb3fa4214a9b9ea1e5418273356259caacb2f1bf270602c7b296d3adbb054304d69bacfb612bf25af88fdb2fe6e9),
  (0x7a28f40896081baaeefa401aa1320e5018572709c3d1f0ad8c448fc2bbcaeb71105596e9cea17534b507d6a9b921a2d9945f65a8124ea8f25668dd9bbbde3b10, 0x7dd6b680c5c37ee41609893e242446e44568ec5299f1d9e4f0a10eeee3040c17dec1428f3f2fe24edcfbd7ea0ae9c95eeb7ed64f5e50e7b0d79557dffbf86280),
  (0x37c38d902c221240cec2ccb2e6b2a523d92e7c92113487f349fe93721701c2d3d732215b52b3e3701b52857f859ed18f42d8b67e3d03ecdeebb4686b0b859c72, 0x1273e4fc521ef573b3ee820316a90fee4aea7a54a425a882cd651261a0bef20b2c8c5725d4792909116dc117b9f34120fb59315f44be4341e2d7d4d30bbf82dc),
  (0x3f2d5f0d9c3dbe6d1e8b04fd04b80673850e4e9f25e1cbec13c89a069f836fcc47fb56447e6c2946f7c00de8fb0d487ffb26a0861c7ba407eb446fdc4df93c13, 0x77c9c2e4f92f07eb60eeb2a2975f0cb0a8aac2ad445345175955021879a60d3b170273bd4106447e6a312b3e6158c50d6fad110b94d290e385f789c218c1f805),
  (0x78b36263e1d149f72f921a32518b9a2a6cf9f966211837db37f697faeb2dd998e4ecf6b9c329be33f15393ca385f8f2a6018654d5d321a1fc1c9fef735e9538c, 0x35068a827d84dad655888a642dae7e84d1eae51fa5d9d2ea06a8ecb940f70404d2f84a64e5c4a44770cee2546c4194acdac0805a54989ef671abe9bba55c24d4),
  (0x2718a29917cbe484788a7815b18b711eeeb7935274c4d62c26d5622f3fae1489441e03ae497053d43506f2987bc6ac61319dc5cf6a2b84ce145679209ddec787, 0x59c0f63b70bd40c814d81838cdc9c929e72ec02960ca53353c1b88f4133780c99558993b4eb4a5717a916ecf6c62b294417af319adec8f984893854534ea7b91),
  (0x1beedfab2b2271ad0718cd1c4340240fdd8ef8f830dbb5c6d0742e0886f84305418756a4fbfe122d82e28cdb2e47078855373a2e11217296a674858601803b0c, 0x367a0adaec03ac8a4b72f347909bbff77f93dd79f7838dc5e7058ab439f76708b73cb0c833c270d6f0a0313a648519a9f6c1daf2137662aa0a25a1ddfbf62b3c),
  (0x41caeeb335a4f1cb976efb9eed7781a80afa1f10f3bf2be84533244c74aea99f570493629850fec55d786431176a84c3d81ca9e2061f086e6b6aa1b53d2a6eda, 0x5ecf4ccef31a99118aa95d5138258452eb9145f93945af7a2fc61be3d72217d32e5a9884efcae8ad876ef9aa460b5dc944ec511bd8a8ab0f9212f38efb05749e),
  (0xa6acaa9334781bb9304bd5d3e1970c8beaa457bf0c19a62303d54f6030f68ddd70a39ecba9806395f3112b602fccc844dd1480ae8fee3205a1deeba1b4a7665, 0x24d0de2a83fa25890f6312d43c64153aa68bcefc79757eba783689da89d25f233a6f9a9d0e6d19191c79ceea356f7fc6849178651c900bcea96f310edc033963),
  (0x3999d9c287787c9341a4aded6b0367620a795a44e8859f089ccb0c1feeac88c62b64d3fb48e7af83efe8164c7bdde092d8013ca3e256a04a64e733a2f59f1781, 0x1cfd2ee599ea789135b8ae4e419af30b7bbc5e0f884373a663258c2886bb7c5453a965b3e921ca9b06f9814dd0d88188085f659b1ab4d3021c4bfeac0416a358),
  (0x3bfb03f6b5392e6d5cda34543ff407f3cd5587aa0dc085fa04ff0b3974ccaf4ac7746e9a1d56285e0031fe7823ec51e7632d4e81a1a543572ff00670a019af3a, 0x1f311de8931645e129123d722c53d2e9635a1cf1f7296f75a063c99a1287f0fa35151bd9c29af7cf8b2db797a0bafd020f66f1feb034e688a8f0941ef7f7fe15),
  (0x6604daf5d892b6daebd659670d3eb1b06ee8d4eec11e2f4759ce24520c9207656fb28308c6822da177d7bd9390a9199d1c9f0e9972463426c98f59a689c40bb7, 0x4e9ce0d85100d55fd47739afdf0718fc235f73eb3b2410bef3e0c0cb489e4653b86b9e44ee8b123917abed0f2519f994d49c88f686c293e731e73522c0156373),
  (0x23ce428b3f7fdd65ddcfcf45a0da3a66804763a09329a166c6c90ad1fa98c82acb791b4ca6ad17844a8d9d9777f516a4bcb93d90869f4cc766a0afb1e2ba2ff6, 0xe6d768ebf4c917a781c44a57e5fd7d0a4e084e74eb47a4bc62d31b614f7b1f60def7f7f6088cd1e4fe59ddd7def893ebe44162a6c67efcfa54b1749609664ea),
  (0x387d7f617a450ac64d862c00c6c7327824627f0a1d6dda98fbb0dde57f807a125abd832f03e8e0f51baae682693ca23329972477241ed7c459fe32a4e8164cc1, 0x7e949ec1df7144dd42f9e18e699944a4fcfa7f85a7687e51771b17ec66626efc8b6f39b818e4e9070467602f1c97ce112686d4a19a6d2f5b0f03c00cc9a83c29),
  (0x741df4544f813338dd2c34663246f1b3175d29f384ac7553da9f7f899daf69837b72678c2616d4eb103ad2d8c113906df90106601275543609cf795afd3a205b, 0x6f1ee4871c59419fa20bc15842630c1423577a61753daa85ce72b2cecb6f583d4a074d97c560363bebcfc41aa9259fa3876b557711a53f599e17c4cfc4439152),
  (0x352a19c7183eb3a46ee9e825372cc6e6d4dca9cbf0811d3025ac95968a327d4b02bdef1442d84ad376d6a6a913346a122f0c5ab2c5d0302928ada791f28a8b02, 0x3f7add7fdc2ed39a86f9b7dea7c836ac0fa7d1f610dbd407f50f1d02b037d6c472e35f3ce257732a480c8490a67bc63759b4f39cfb87101ecff78135df82ac2f),
  (0x2ce53c31adb183e8daef107c7f7689a63be5ce7d13a50bb07444f3f7f0ee7dc6638a1cec63bf9892ba5a999a7375de2423a1639654612c1ef7afdc83691eda41, 0x3ee275eaf96fb77a80895ba3803ae02c271d9d4b7520cbf68cac4487357bd3f98f0aa9032799616804f2e93374cc7d465b52a18e48cdf8bece372dd3f0ce97d7),
  (0x353bc2cc26c622a1710986bae80aca7cec37e45b7d7094c07946aa8b53c24b6606677e5e7e4178310426d416c9531cf1c5c832985bcc15d6e8150fe1ed921f9c, 0x4c4d7598e691c8ba977d39836f77ba82e7fe69c38ef3ca3d08d0242417d9b85381d10359382d811c5e494d4a243dfe4611a2c44f4929c9edf526e11bc021f93f),
  (0x31c928960f7069b17a74351e2992061075ad0d9d71d6c4fb9cb3d89fbd9a5c4bfcd77c4d3a2acdc7db9e353660ecc47224f941d6438961501952e515c911ef4a, 0x65cb718302dab397a738294063174289fd619fc09fe7bc18cf2ca36e113e98de49c748c7c1796ccf3d4a5efffefdd8f7a2989febf5c9a0cff848e6811e2fc28a),
  (0x4bb71c1369fd42ba9d33591d480e8785de1b802c302afa3e65f33e89a422685276d9d41d9361e3823adeb092788cfc564ce9f25d570121ba50e60a1e7a911609, 0x4a3ea432ef87e1bb76b501a987493641176dfa40566980384d7fe583de69a943c064a0895580c39943478df0787739143f7fccfdc3f4e4eb1344bc23c377de0),
  (0x2f1237618d1f54712cb4f4bda439184c4a04c22ee00d5b4632afb3e7a366e79c928c25c82b582415835b1294359279ba06cd401197e927a292e47e4a06424afc, 0x4c1271b84883dc7793f19148cc316e8f67755894058f03384f65f9b20bd9dc3248762701a6493a1a91d9f1b2d85341c3d98bf67e2432e6b6e90299080c5cc84e),
  (0x5748a266c61b788e18b6eaade569b7c3f8f36033184cfc1016c154f6bd769c387007a48d24f4aa3bcd6d435a11c4ad262db8f8d5e12bf998e9dd9387d6031b48, 0x37ef43fadbc56b1095c8c9edcfa8fc0e5eb52b8a089c468aa18e5a34461042097f1ff57581ecaa13ae295ed0e538c30958b649586e29e29b70ca402cc4ac08cd),
  (0x7d2f201fdaf15d949026dc3598c7bbea37cc7b7a096998321e5bb50819dcd6239c9562d29e4f2e65b2ac22a8d26a86ee2d90fc4614cc03239718079c1f2cde1b, 0x1207ff5abad39b404dd9923982899d82500b8138f6b6bc4523477045a06f26609603699a0fb942c3346478550d25748a69844499e35532e905cc49ba76fb1a59),
  (0x6545c98882881efbe1ef82712b66fb344a5d171facdac6818853a200b220b1be2166c65dd99424c571a5489f94000ba72de4e62d5b737f2126a6211126b40ad1, 0x39388b774b936745b124a84e867fb614851175be99a70544ee288ea392e1edda37e4d3f77d9b7cd45d02c144fec8047d78531d322cbbb65ab945660af1805bbd),
  (0x6d1125d7c1b5e122688f046edb46e465feed4026560583a707296ec10f2d2ae9f988d6855b6df78515b7a5be303e410dc318c9539cd3c8864171ffdbe1d851c5, 0x46142bd99795a7972ed7e98c8c54d7c79bc832b711acdda282c9461c5ea022722903d908a0f4445cd891e96354bc57c51a1ab1c95d586105e17177ff11389710),
  (0x26250f3a397336a19e2ada0b65288692a567cd12bc5fcb39925017e22e64b263a2223f2597a7327c5e02b54f593a44a0c6891404e3d5fb33231c4a38a1578a8f, 0x70242173fb07fae34c49bd11de883c626f3d3dc104b06ed48aace614e45ff5518983b749b116ff0e895295a6f77eb14b3b0965de0a86c9ede7c2ffd5e17e522d),
  (0xf5bb18aebbd455770b7a103279c0b0b98be1a9e98aa603d9d2c1e8d557246ce6e6274c6880d41664b74e41f705bd19aad9e42757b7d87647ac2884613f319f7, 0x4d3f2137f009332973949ee4ba35d7676437c1615b694f1bd7e394d6b76b56f187fd9f6161a0c325b3fdeffd01756d20506aba27a8d194c8cef0ee1ca4214403),
  (0x7cbda4fae406561213f2b1a9562a5d5380a54615690b438323e29ed0ede12363a92f6bcaa04b3f28e6596ede230b67e86bbd8c93d32e3f97afd32333f1dd0278, 0x79e9e53c4660c7fadf605a61939bc0a6379864302835bf97fd02c126602a474d6050a3eb3448aa2ff5eb33e405de54e5f74ff0665796d11bed62606c33962166),
  (0xd2a14fb22208a5d5102c96eccbba176f9cf803bf2781fcf1ca3a66a754a0f1b17dd3f88e8038e2a502087cc435aee79e89ec0c44f55ea65baf9df4e37f07aef, 0x4082c6e19cc13e45d96b78cdb4391345b4ca1918c2d0e2f60134a369432dfb381df7854fcba72bfa6276bca905c10b9ee6b961d047755e7b0814d6c3dac52177),
  (0xfa28f5b0678288bec788b2ca84b8bbfac5f29ba98ada554311e26a845205c33bf16907a184856379d591ff5fc4a080ee436d1250730d55361301575194cc1f2, 0xb83a178f02b54b20c41ab9f29a509c12707b5e9a593210615b12c8c3351ef85bb02ee07ae3c3490479c64bdd86f7f1e29ab63437ae2320d6735fca878d95647),
  (0x4acadab5ffda0191880bbcfcfe6643f989e9c6e7abd5e55b6158a03a54ecc3dff931c9c72ffc4fbb7b43af343c7239218f4ca303b95e10a9ee9a7619ab33648f, 0x7844daeedbf268d3e4d3327f957c3f5ea4a46b72e0813a342a1a4fe04b44032dd407e31896c0b15c853f3379f2aa4806469c1e725fd4fe5d21f7777074a75c77),
  (0x14f36935245ab99a5ec62c0dca626082a1405f84b88e91a089925417ca4948d91872cb60181747ccb7273b7a942ed8a3590c13411d92e7397dfd19f16ebdc608, 0xa16d5a8d7d16334272ac93525b5c7bad5e41880b3ab4a6e7e91a0795f4beba1f09c1633f2a877ff84a3ee213a68d5763f58d0a6ef8ce986ac3f6327687855ae),
  (0x4b9252c0d11741b31f248d3d86f1563717c99d9f077cd7cb16b265b65097e68918a42cbf261f203ec517eda0143ff13e1e7310a6168993ef371f4d4ce6f3bbad, 0x7a5a0618b80a05640f0f35c7fa17d310ace8ab38de17ac429d709e73554b104152566b9c8b7dfb3fc5d10501bf9a773e6dd3aac54a4effc58018a2b3bc3da0e0),
  (0x98e7be9f8ec3333ca2cb6ca3d5f05a1c6ef25d5adabbba2da1f7210f09c840385f3a5ac57e0df8f8b070d88bfec6472444f8741082e057cc1d03de8f73b6053, 0x28abb5603dc96420b25e1b34894e5b651893a6d45f139105e58261c4039548a9b67b67ecaf3799dad2fd88d547e482bc725bf970d0154fd12881e3d779c04eb4),
  (0x43271551a242174c110619703f21ff89b26e9c11060a3545e109f513864286e4cfba89d17bdb0338ba3260131ab20b3176425e5f562726047e947fd7de7c61fc, 0x70fb13d8b547fec694b78fa76cf34cb364419cc377249c5c9fa24e6269193a6bc01504a57db4ee8bbb7ced4a9cb862f2933ca1eab74ef6a3e0757cc962fbaacf),
  (0x53c9f9ec01c27f24b985c3fb516696b14f6e5f951f86e1fa3a4b90a2cd66e034508885b04b3c55aad1923875bc0eee79d5f3494ae53286051b5c260f8e3a31f8, 0x246973f8ab2284c0045b9d1f82e5bca763ac41de3aab94813ebb829b51860d5680909dab957b5c71ebafaa6bd018422622cb2af6c38c8f235893c0ea598aa4b8),
  (0x6bf481ef268888e55c698b5391a433c7d71476401dc3af7696cd357802c1eff0723a429eeaa50fb8e07e2da33b1c0e1ab8b6e2b7fe4f1545029df1e251453ca9, 0x286d23329de36f319551dadf064c800c33fc30ed798f4e820275e79c2900713de565b3d42841e95e036e2125db5e7f888a458d730b134d6dc51002f089164df9),
  (0x623096cec8323d86d398d5d0af5b15e536735424b5471f51c74e9b2f9c36e2951ca90e96b26249f2cf817e9d0a355e6f6aae45597797494277e8b8444faa8438, 0x15a6afcfa1eac49cda410bee1de94c8b566c21f08597eabe30c198296dfb382bcecde0a486f7807d85e2e7abd0eacca05940ff9c3c57478ea3c1206eaf15f8c7),
  (0x2074213f13b944d54b38bf77a6fc6e3c915bfb027a586139f29f30c55f00a6be052605cd586e452452446714d5af9b4fce79ec1e81c4b976bb1f012157b1843a, 0x7515da3e3d018d69af6666c188107b82a39509f19d7b78bb2ffe170dcc632717a22de1a0a1923978c0e3f9260c7d1f5c48f8bc0ba032b0bba7f885cc146fa937),
  (0x2ebf894aba811f460ce8475348996fa4dac1fe0fa2e2fe87a6f2194a087157368edd30b973b7b8067c77428a6a5ce728e68dd01ca1c1bf3fa066a5b4877e88e1, 0x720cad29b0ac57eaabde511b90d774f53d0c1605aedb6b917fc2c0920b5585358335e381bac635bd63f9abfe0051924786a8eb3991d064c1da5999c6bd243ca7),
  (0x637b8a14c0bbe74a4beece43a0d48eb4220e8543e5d61dc48c8dbeec741eeda7f534ae4bd50a2e9a3290f3b9586e4e64cba439fbe34dd48a7877bb185a60d8d8, 0x2f802a8e369fc41dc70b8757ca232d58eb4cd7703b6caa1e37cae92b369baa7a6aad4b6f7f2a6cd9c124ff5a2f8b8244f398d86686ba1001166cd62bbad1ccfb),
  (0x44734da5ba3a651812ff5a6a1406b1fca5b2cc9bd307fdfc8d04538384c8673a4252b9ec987b8932953be1208ee221f5342752148f87ff3e9261eef4aa83ad53, 0x1516cfed28998a451fb281a9ef8602fa86e3e0a6238d657b1dd367d9bf0e6e5057b6cd85a58d6d28111553a3f2a043af2dbd8fd709103c2a9e3e3f0e8607c62),
  (0x2b08ec19758a0a38fc3eb37d538b9600caaf2703390e42cbcf7f4910f4ed325c6d1b8326796c572dbc3cf671ca9c48ee2f09a3a3f5fd84e64a2b4f8990e9c4b4, 0x35c8193bda8ee2034818ce811c2fbee291eee945463b5ba4e7d2f2bb1c830da900d93ef4492a37204ac78c6dfea8b0f7d6a6f0001724b1d622c3c9ebce32cbd1),
  (0x7ae3a6691b323fb3b447dc1d2304c4a55876e195f5838ca6ac39cc95fb32caf002a79be9113209fabf8ad28004d8de549006cb2df18246783705933976f748e7, 0x5ba0337b88238fb25ccabd6510d12f3f3493ea2b28c653fea4254cf416e78d3cb3300509094970ff7c364de007446a98517d4a6bd0e3bb0648e3acf5a33ac92a),
  (0x7978ecf79d4db375d73263aafaf38e9a7d9a8c503823b3696710f5520c41b561fa78ee9a4158585f13e5b527780119c5e4025a09905353d1d8d829d4b9b356d1, 0x5b26a904bbbbe4fd2aa809eb52df0fb6042dbc33c93a9793b274ee9e0a2ea2411ef76abb79e09b7c20e3a66d1f1339aac14484adaa85d2d2f32da9481b9b2220),
  (0x7e49cac07919eba43609b9f180883df9b6684ebcd48ebec5b6a0e1791667553163cd47971c67bf810aaa516883fffe18f4020edf50e28bf77f4841cc43b5aeea, 0x42c09d67b7266f52a5c82d940e8ac379a87d032d58674dd73f277fccdc6d7aafdd7884d73b8278e0807a839738befa44972ae1522dc9a3ae92f3c6cc54fea786),
  (0x1e54b40479719b1dd84068d0ec167f12936beb6ee47975cd0d95a5003ea2dde99e23d2ec94190701d267ab5cf37b46cf189d3cbbc4f5b9a95e3c64730a38a68a, 0x7cbbed7871edacab524c5ce5e401b6ef2d35b83d5ce4f1ecf5ed540fe71a5cf5b73320eca1d611c69cfff4da07c19c9b6d78c71c4aa8bba584a410d3652fef23),
  (0x256f25332da71da0b6845cbc96801303a41ba7b8ba52129bd7a73ef192c550d559dc100f0fd098539a1b48543a4f721e5c6348e6a5b81aaff50c332ac1b5f230, 0x18098494c7ab17015540e3bcaf33daf335972d5c73b1f13e896ea1f754225a0a64dd96773b11a1eb0967dba939a132f86dfe03e1a61ae92951bb6ddb88ecae34),
  (0x66a75edddd438e42fc66c9289d24338d41353e51f845e447d27dca882afc082cecdd5a09ebd34a3db9bd967e2669a1bc0a26728300108abeeef69067dddd7733, 0x2cbed688a113d71192591cc223fac2b5a18376e1692c17c9ee543274fda6617d126bf797dfb6501c55d7dae878184b47642090c155c39b2d795438f3d53458f),
  (0x57fb0db8c6849a883cdd5122713a674086335d1013af3987777beb032dea3a3c1037e1a808fc6cf6d44c7a1eb67c1f3706dd430c69e5454ff1924d6c0aa60fcc, 0x320e7334dd11c26070ba5bf946138e6d91cb8d74b612ad036374b7b0008cd78d1d21c94b11ad141b75bffb0236f107cedeaab5494a0ba54b39adb7574b4e49e2),
  (0x5e64a97478f48c3d40a951b800bdd67d0751389a5e877b1dc55c23e9ff18969ad5a06e78fe67e8d81adf255d0283d13cc211fa10067eac1ef06494281e44f2ce, 0x5cdfd1d1f089574ab24fd172b0138ffdfbfe428a18651c7032f80e205afc839de819f7aa3ba84b10da7550997643b536f5b7bf04b89d49dbbec02681a797afa1),
  (0x2f09208e001832a3b56a4add589854c9ce2c80c0c70a28e9f3c59bbbd1cb261e9c135a39d7d6e4182cb9d09bdb510829663c766fc3935191614654732d7e5aa6, 0x2123686911443b2b20fd249ba3271cbf1074e6b9cd183ae700ace9ef02484aef640b8d542465505381d80b3bbd6907cdc7863e9525229e3503ab3d71e9ca97ed),
  (0x52db9285ca3ec1ceb8289108292ed1ab1806943de27ef65a2ee674fd88fc121fc0713720086ce7f21d95faf1fe1c2688520d4841fb27dc2fc04b819e83bcc6e1, 0x782ccd15bdc2a6e1bdfbe5cf7e8b2e027dc14cdf45c7adbd5b33bc6817676836af04f0437bc6084deb84be1bcae72f3d32ee6751bd2bbdfa6df186fdd8c42559),
  (0x155aa1d5c6b51fbd116b557df009764d853080530c075b4614d474bc991a1ac8e6f4b36f1516b28c6f61f1cff4b0586cc1da828b85261aeb12ff49a0ec298fc7, 0x5913ba3a58fe50620a7ec0444ca9d3bfdbfbdfc0146ae7b7919f7f4c74144a20b7ba460acf85c6ba5a42a2739056ae09f364fcb534edd655bda8b158e0223378),
  (0x4af0c65f9d4a67e07a81be6b0a23792dfe8f06ec2d9afa77ae315ce75e790471c68ad5db3433553bb838937b540d6440277cd8d39e3d177d31b3f5e09fcc3310, 0x3cc4c3d63f3e70eb7b86d6d019df8a9a4ddeaa36784033c08ab082bcaba008a66aade3ebac3f37b44a6e735b15a904dbb1c76e913b251ef90cbff08d5e7e6ba8),
  (0x669cbdbaff8b3ef46946b0452120f0c6111942e5643145d2f8537114f9d2e3ac8b66e0e8f9ca00da39fa8b9cd3a06168eeffa10f718a397966d429da3d400997, 0x1a1b759e2b2a7148eacf5e9952013ad30c2c129f96a063373b865222af8df6d85f29db15f94704951414f3611bdd0894a254b3619299c2f5e82a5f5344e630cd),
  (0x3fa49b231f299c7b3626289a002f0838aad6219e1b6ca06083c3d94196313b6877f0ffc8f921a08a9578a337e32ac8c938287b24e94c04db960064041804dae6, 0x47397f749efb8a5e1043e170a8ebe58bdb0d193fd7b9f0c95f4cdd4f4295fae5561af3d8320e2da99739f286620c51e2eeb090a317e2eb398d3df232385b98c),
  (0x1ed04e368b599ba672c3c7456329d028f6bdce24c1d95d37a915e40034d9879a73f68e992877e993b5d5bfa348ffe8da9c848acd99d6046d7969c05a0fcb8ddf, 0x6f32bd112ca9e7d2b7032a6fd52f94b01a8f4110fd0231be60d3b69679597c2585d7a9f9557473240125dabbc759871697f1fd55bb6021993b1168dd90ff519f),
  (0x4db611a2c51611c1cca7b4df8667e49f2f172e953306bcae16c4919f6ba575eab5e7cc28ca27f49fbb1b25f0c508589c2158f9ac8fa8191444e76cc77548cb49, 0x98ca0387609d703cca5dbf51e0cd548430769f12bb498a13eaa5a5a7bacef2fa663478ca0830c4f77036acd6187a0c522128305880ee2ade7627d809d2b4fe9),
  (0x3d0b62886d9143a90383d5514ca78e79be50df96607de111a22c33c531625d1e1ab75046be1805033fa5da01db64251831120e942d998f4ed666584cf2c8fa63, 0x1bf0a6f4359a761fa382266cfb633b439b8415571d985eec0b37b571d1e090004d20310d92bf80a592d8273eba6fa0648f333de225527c007b09225d16cf3ffa),
  (0x368c987d6529b36b26338b76e6864d22915be94a04160804d59c16ddfc131e95b3048f73b67e3fbecccd97b12dd799564903e8ace2b7b0f6fb668622abf89b4b, 0x4a101697abc4eedea9ef91912cb8bd1bdf7010c6b411642a7aba03310d0fa71b7a255cc9beecb076db5fb7604cd355f5688ec3e102a94c463482876a6f5e5298),
  (0x2ce319e8d10125a6ffef7a880d92acca14b3fb000f876f324c84f86c19aa382aae99b7b4d0bb86c4b4309127ed4bb57196e2527df6cf515d585cac083ac29e7d, 0x49431f9c5e9485e52802cef44c03ee7b3c885eaf6728ad97985f7b12d07b384892c707f787a2d738d75cb9fa4e6004de8cb9afbc07e1093365ca144f827388e0),
  (0x6182087a09eacd3e4c6fe83494bdb761bbfe5a408c36237e53d10db5d0f53438bdc7ad1699e90a30a8988f0d1293ceed881ea8e5940e481c6d52a762b96afad4, 0x6371ceaf229065ab55b9bdaba0a83380cd61793b44368aa9ddbdeb2b55ab12de6c159e398a36a5dc976a8ec49278b6088006acfaa29ff6fbcce610a6126cbf1f),
  (0x7ae302ebf40ca32587175da3ff52e7df6fd494990985b6bda33fcb8fca8f93c7e4208ad31e97d4930734d9667e71f6e835c4ea52cd9a949dd65f8c741cbd4bb1, 0x6e39211e6908896404caa7726221c83b306e15f4afb8db6e71b548818507ff8820e55144f92835bc74fe005385c88a204ae9ba21f09d7b6c0e15e53c48ab69ec),
  (0x1f4315ad7b3283032801e6b25a55c6e24757d76c50967e4981716cfc7fb7eef500a899d5b96994e90e58698db43b5908ef5e09e4930a3d6564e59cac5f8e8bdb, 0x48014be03d0154b1590af3a927812ed050055fb0fad13ef76835f74e708ad81c73f3a0550fb5dc978be95a3de534df0521ea0ab5e244463e7d2f83e5250640d6),
  (0x3dbdb6f5fb99dc2df1413d7c73c90cba7df8bf1d665d057786222e2021916bbb5854c0b7a0cb6ef14168258c43073aed5221da9b0d1bdc5470e4c8df5202e436, 0x121fdf679c578892b0c63722ce48ee5ac69df620077657d3b99973c7346434f40e96bd5ab3f7438874b6c17fa0e853d2d07aa52b0f805e1b7aeb092248cd3d52),
  (0x63687c24c2e5b49810998c9612a7474538b627bbe7fef2da9987f1754232613802c47124b4e39ab718cd3b3d1a60d141fd8f1f29c5d71d44824e6425d44436cb, 0x8ef13dc04ae0b61c8e2b04283a24bd3f2d4290328a885cdc0a215393f916e045082cc2e2c49b688dd6a963f899cc10f402a8a7cef973752b34192c44116a295),
  (0x6f412a0ba8c22dfd15b7606b4b00eb10b7727a536d80ca956ba33c79a8595f04b75bbce46dab10dfff60ff9841661dd63c0e509d419dc1816f62334229fd0e3c, 0x5100dd2106da00a4c502c5cf9c329c903e614977d080a6deb23fae6b377a88008b0bc34702fc04fd6db7ad1368a14ce1d811f626a48affced3211655fb3d3de7),
  (0x6bdb467dd3360468cff3c34e8b0669570ffe1bdcba4e58a35edd88608f7a13e4446db422ab1f4c74a7085442ae10a4ba32e7e17af8175c02a74427a17e5f56df, 0x738eca3ee2e1ed402ba0bb0b313ad1d6998e6bf3bca3f90990562afd6b8f3c5f57c7f84482108755c74f67e81dfc6a4ff2197263503119f1dcec10d787debe9e),
  (0x53deae84d590e2b69c1bc56306f663278c477e1e3fa0c60f99dbcec44635879ce3d3ffdf20c9c7ea4d76890d03fe6e8dc89c5b90776eb3b4331a49ba2af1d9d, 0x385c128f9397a2312e8e3ec5f77b03ea1ef7542288eda6b3c31edb7d966e4360c07c6eeb1cab253a32c17b494d95a6727b5541c6ef31f24af70f1f9dacc5e2d9),
  (0x37028da6ede3a63536047fbed9edba4940de2e40326ba5aa6def559dae8596afc5d100abdddcfaeb7b53633639a9b317ce69507280d3c038491761dd6b3fc2fa, 0x7f5990a0cc72a71df868f3e89e894228d11d459363b5580db326676f676b8c774dc0644ec89c63fb09cab24171f9df1ec2ca705a92500429fadbd349202d576c),
  (0x576ae18b461b0d34e6d76df0f05e80221773a0e8d7442874419190c5cd94b9a58ad4c722aa18b143a9c779bea4e6914fcd02ac0c97d4f0a2569c6a0ee04d7e80, 0x3b08bb5c5fe3880a71382bb42a6b469d55a80d9ffe1b9ca3a2b99a16baf7797465257af49156056026bae1ccb42c3100f4e825e12f8e65a71fc7ab3c21cbdc92),
  (0x5e95b5b45e065b7b50022acd9510f895fbbae70305e8369b3e2cb14f6c6fc52f8a4d6da3852baa8e40071bf9aaeb8023c3c4d30874bfcff9544addf64c04fe4d, 0x7af8ae86f0ee0f25e7bd32a30f04f39413e5e9dbe4b34add2c8914875126710b88bd5075141d2758c1e64e42c787aaf47d3a15dc058c9e2e7be13f751ec6016b),
  (0x28b05ced428e551e953ed897b5684def1049a0d48f04be41abb9bfa9e4b5f1c895ff786a3fa1258ff891c4221436ac055b054cf57d07fc32e5b1bab11143bd5, 0x5111218dbe851f660494ff34a04d9c17ad9f51789195e617e373b0c2469eec36fa9e46b007a66ef418e8a90fe275397ee11ea3fbd5c7be6de8b4e9002a06a947),
  (0x6edce4a28429ba681e3897807a19d05fde0e4d1151f44fc01ef3eda6c0414d1281f0cb5f0c42227e58a3fa7fc9a8155a0ec6ae99c50d5a488f9e867c758e98c0, 0x186b51726bfd6615f654c56e3e219b38395e6a79f1cd58c7724e1da35511d12e108cf8763a1016a85818e507e8fe0603d16b820e31348cf149eb9f1aa778c6fa),
  (0x158cc76325c865bcc419eae7692288f9f97ba5e41494adc509719d45cb2afa76bd3c5d6ad3a700b558b8422cd6d7515369f233f371f46e183a3304d6e44b4b85, 0x75da21f17f003e09a3fa7794ca710f68de447471265e9303f3f8f73b799572db80532d61c47e62d7c0943c45fe390a35973de4801d336183378e8d27f00e3274),
  (0x1886c99fb5d7e52ad1eed0ed1998082494afe2ae341a85bc7b013f93a323f36d2c269b1626e67b6d8f11a7b39552e4708af9d6094ca1d463eeb529fddeb18ba6, 0x625111994f51f1374b011a03f58b2ec2792066de38ee59ac93f8dfcc90ef9d049224c0ecde0805458b4d7f0e96bc79e78423e9559946eeed80d6e5de0de4f684),
  (0x4dd7c21414b548dff174ac1d524552c9850892e3f6d717bd6a1f196879fa6983fe39037cf9ede289d779a380fa12a24f060e176984422dca68551c6f347f7174, 0x382fe5c9670379125bc69f8746137ada58ce973c34dfa9ec6de950462b15e09c7bbc3f12a7cf38e27c9d01788af63f48e429736f46a72650f97a5f28947fe707),
  (0x523557137ecfdb0236876748e6b675456bc4c585b4ef17a4c4ee785fea5a8c508ab45b41da6e3e2720d767a519e4e747c3a3097400e6162524cb7d4c3081ea40, 0x5a536eadce2a1910ad7d495d5cc4333d01100ca7900993b61845ea4aebb75d585de93f2961c2c12edb4e1852c572e8f7d36cd763c544d5a7acb187c085b06e84),
  (0x1fbb91bb3e973924a76e9acabd1b1f93f2e32a06ce93d8ec68f3683c4609bfb85d96ae9f91853b7d529fa003cebd64ba999d0d2c4faf486d5a5d204f855af656, 0x49b4f6d9feb206a42a12b74e752da81fac9c7a597842ed25535b47df585ffe3479c9c502132fd492a8ee2d3e1ac569b7bb72aa737a1a475c0bf085da9b040c63),
  (0x777f74d02755fa5079a504bd3fd379926563914a4b6e78fab119241a54e61f171af30a93d7868b78c1e95e6cb3848dd2d4a1e8cae9aa778f410dae415a0add38, 0x7a2eba6ef766848278777ac445163f05cb4c3da42c1c6fbd3ddb202896cbc1a3aa750933117feca14beb6f01d6118df4517a8d1a196402d4c44a1bdf43d71923),
  (0x5f53adf131d533c6abf23603d1a71f40b65041ee0f1ad432ea72ae9d162e683e7e27fab461a49961aa0ec7afd696fbddbea62823b8f74ce757db4d97b16761e8, 0x7a272841a3a00d6b4b5bd6b27a3f5d307cdf9750d9557a9fef359b219aa07e46c2020881a4b40eafb1fedd828d2602546ead4d16ad88b31fb39b631ed396db77),
  (0x3ee5db82ce917892ff9412d262c41fb89cd3a0892ddd4fbe9a798c966315ef5eb2f2fbe300f6debf0a18c359d237f89bd202b6a049a609dab31538bcc42a8f5a, 0x768bee96d3f4eab41c4c93cc14f0a71605c4df398b8d041d1fa621cfcf5629fb97b698292e307dcab21ce3189ee52337d03885faa3a7733bcb643250893e5fbe),
  (0x748fb82bf15fbc31e8836ce9f7fff80db7976960d82a641aab834dbacdaf6cfddd8975531182847514f60b3114504a63e05811e254c3443fc8ddbbdda7d3e0dc, 0x7b53bd325d341e91073b3eb511f24009508fa1ab1e791c0442fd0c8b4a69df1c04c4ea9c606315d5c5fde5cc3fcc463c0052185a9d94a06adb1b95eac8b783b3),
  (0x673699ac262df060e31a6380d52271fdb1fa0332be0941c630ca55bf550829e58adb05ee449cbb0c5b6e1aa5b6e4cd13b34d83e25f7ac3409d1f9e0b5b4eff12, 0x222b086f4e8b88ddc6a759bdc081403a0ad25004703c1c26cfa1ce3b9f4571256a88de9dabc7630daa99b9af20cb5f1b8b3e9441343c162139e52a45cc04e85b),
  (0x1565106687114187afd71c5645ad56d36419e30842c681fde1a34423f412984e75f83454921f7d430e5dcd8da968aa09e465d26621a8bc6272c9b1a6bdfed6e8, 0x2c469e9eb823f4047c06122d5010c2eb2f0a4c82b843bfba092af6e56da479669acc74833b0e2921606e17dbb520df30fc51105f96d12a5f17e316874d67f86a),
  (0xc64fe75ff05ad843e24a533f40341b37c1a690da867ddb9c9e8d5f4a656ac4962c0371e994f722bf9215b54a7a50e4d6a3bc45c7d15b780e90726284b510ff2, 0x1d31095f4ba7969a4b11663e4be6cbc38edd636995c4f30ec246e43d462dcdbc566f2c19744bd2f18e6c19ebd46c207c8a7695aac24652c7b9b5aa777f719b48),
  (0x5ac802e37e41ccda215a77fa8e841815e4d294dd0cd3a8e9971b6334d8f2cf2c4bcf0dd86be995b93d8174707e2f78258c93e29a580e39d9b7b5348d7832e249, 0xba079d95a8b4dfdb96bae45da8852a32e569bc69d6e53cea7256fe25c85c1eb85a0a00d42b94e1f50cab7e62bb054c91c6cddfd64d510ce7aa8e5ae7536c4c0),
  (0x7217ccf0ef499573f6ca6c90d814938882182e1b6ea484a6104cf214c7b4cc37d7b767491f0b42a04da7868c29e78a8162c2abc43755a3f6cc3414231fb4ad4f, 0x6862d5ca3d5d949b9d3c570776cef58f1928760376c897ad421078d2e73473717c8f5a6a33ee9c4631c43c8fff46f0d7693dcfd11e88289fec2e9af8af92c83f),
  (0x968e68e0e23a43d2d060c6353fbefd202b99d11d911e6678f938c870a1190c41dadac190fdf727fe85c7d454fe6ef478066d37496ddef47a630a837d4108f09, 0x79d93a7c2ade8f33004ee7a848aa5df706f7186658b31b4b0cee91119bfcf54de8a8a17ee79bbc5020296afad022942e7bd377fd87a26589bc7708039f77f87),
  (0x4c2924c3730b55ce7da60e3d41f2e1dc2376b934727112e7d6d66df3fdf5080fff799e4180591b1fe512e7a09f6f34c58fdc41f9000d099bb72e4e8e4c0f8c8a, 0x646bd9c1a2d688c4ba503b70d8826bb8e065ec826664a7c7fcec38bb65162dbc6a557f0d024874a8b4fad751a753317a15ccf5c49cd1cb45c0375602e1319609),
  (0x618527db62e782224e261d09a62fdcb43d7cfd8881d3b3ea89c8840d9ddf09d5f9e436379086e139776d1736e65ccedb836e88c2f897a1002b9472fe79229922, 0x7a005b0d7ddc192dcbf721a814c283a310c185cf8516dc42ba3459d35bf050ddf6133fc801fb809cc554cd245095b68806c6627c6499f011e1ce13c23a925727),
  (0x6685e0860139de2e812dc413e283f4fba9b4f60cab36ec6f7d881b70b79038c401caad4e8455ea1c6deb95c60e55bdf1456ff8a76a6069638a659e1d58463a82, 0x70df08a5777f7673d44f1a15abe9bb96a3e1e01c9315f274f34ce887e6f8d10d73d9c35e8687c91f0ac7184d2fb12e12de9b233eb55673abe86bd7086bd44140),
  (0x25644aa5fe7878bc274900a380bdb85dccff2bf686695bca7aba3198bf42abe0bc280f7da1713fe46ed4bb8dec01311a5639467780286d066c75085ab192fb07, 0x3c19c04f83dfff583e8c8233ea8147edd4084055a4a3c93efbfdcfb558362c001a930b073b561515be32bb549f2027247f70dab7bda5bc05bedc6e308af2528d),
  (0x54b95522789d23181c1c09f54499d6f39ee0b8abf124acc8a8bfde899b603fd61e898e342c2c48f0ce535b7f92c33bb7321c267c25012145396ef1b848fdf079, 0x28e6ffea26a3af16193d9bf12369a426b9d24433ea919033eb9e35624fa97f0fca9e85bddbe5197e71107d51a65b30a696b352f5e02bd33cf79fd97adf9e8896),
  (0x7b0c08dfce58da161b1d4bf815ba7b6172cf8cea625199cbb6efec903d5f9f1e0efd2dc2173f33dec36acaf0d291f79471c24421d95302deabf6267624f3fd60, 0x7b7a8b6ea8fdc1822eaf70ab6c5d6364879dfc3d237e368b9f0dfcf061b21d016e82d789037d64ee0cddd8912657748917e2c0394d26b65b314575e8f27d0f36),
  (0x77954b50ffbf60508bb589b7ffeee2d993a625bbd67d1d59a92a328ce570158e7ed0c7ac53ac4fa7756867bc8a77430b4b5d007ea820b4707b4a29c092c3372, 0x25f4cf954ab33bee671cd1cdfbd05174e3f36dc141ba33cdc2e7955221c7b857f3dedad49b57cd0e63a35ced844817ffb868345f47644819144d9186000b4781),
  (0x540b7df4e2da5f3fe0e04824fbf427543144249e201b1fbf997375592a47992d01be5850982ee71fa869a6207a8a33ff81e29fd4876d783f45d40b4a4c9b99d2, 0x3ff7707bb01df39505025980edf8292ea2d6944e95b8ebc1fd3b905698e0788bfc9e18c7ab318136144961abb59acc87fc0a970d8bfa07f12829af6b682d3d86),
  (0x2421fb4e7bafa1e88c293ed8d13b42c9faf5484ba47652f86c59a0749e2eeeab383947ca9dca20d1f350d67cac550b6a1269351753d455028aae3ef8ef2a9388, 0x4eedb2b6053e98b48b27429b06492b8141af8f100921d547d00acd4cbb898e180442ac5547f46901ca7652789c6808afd0bb7125deaa00f5f462791933e1eefb),
  (0x4130e0feea1de91f65830b417f674e3d510f7cd75144a0db9378ee09440cbcf0c6b1ae2f6357bb1a1c7359d07784bbee7f084353c4500ce407da84257ebfa377, 0x6867e8801d367892e29b497e63ab8925634b25bb043dad2453495d2feb8ae2b874182628a14bbeb7ba2ac22b5af795caedf081547ce3dcd381ae575a07a214ce),
  (0x514ad350d9016c6c562dee822c0502546d48f671dea2dee1f53688ed933196f28629924ea46d6b2c7bc93d7b330e6ae7957e9c0ac6f881e5238efd1e229e6f7a, 0x31c189cc12d71451897d25b2f3027c94e408fed95330a459dfab6a3efd510560d0a16b5b5aef1dff46e436f61492b0b27ea928cef8c572d48d7f47c0f8ba3ce3),
  (0x524428fe2625ef1b2477a5f2cb366cb7ee253bf0f59c3cda24b285501abb66f49b6350f68dd0a53a12fa9268cadcdefa1a37a4d2317bcf69922bce79cd2044a9, 0x492ca507cfb94abdc522ed36263f34b93a84ad24908bb13cd8f73792945183eb4d78721cffa472a79a7bc3af11d203c6b26b3d77c97d16fb1151b28398dd4a09),
  (0x35ed057dac0484b1f92445f9c26405f8311c3ae3446296a8329f26fe9b40cc10ffad72085d8716c3f22456986d1b955e84da7316e7b73e7eadde46124f2df803, 0x55e531aa3863ae7ddf0d24a290d22f411b526249c247a00b3619061e7c653f3de2cbe4c2b5fb76236f03d95ba257155ff76502b44f6c580a8bd69d65ecbb5908),
  (0x48e592ddd66b43268f354ae5b0f842a810ea5d5c1b935e759fae1c8cbf2ea1123c45b269202a7a219df3e3149058f3b3dfcfc6e17c3aa5dbbec18b4c8bab651f, 0x168bc9f6fb4ec49d934e4be52d2dc21c16afdfafd86630dae623a869a0d3f72821ee4172ff79c60a5660c2c40612c43c552d9bbf6e1f075b156f40e8cf1c14ae),
  (0x5bf37407af1762811d15a8c2d9175bb5ab0420f7e6af194256be921f105c8edd95decef1936a551e32a3eb97e78977b003d0d1d07bdea92baa3523b4e90b3d72, 0x1d4e7fece3b64780bead1d4e74d707896d057d05d9b61c63684968844b270b871963c47ffa8d412ebee910618ddf8eccbeb903e3299459f1bfaf75106acefc85),
  (0x351da4e214b6a7f2084f220fb55ccc294fad576df00c4a8a421a95e4221756b6cd78f45f646df20192fa5139a1b41e08e72823a92b57fec778fd57297dc80171, 0x56388e97795d4c28e2c14dd7f1c76bc050b16103ba1ebf54155103ffc8b86026720e5ff20299fd999724a4b00fa94a1c45a7f6eed4f5703a6e18a5f8964bd711),
  (0x72d6c718a7178ae1d49254abfdcd427df279bb1fa2495e10e1e7c38b8dc67c3749b7a3d3e6bbaa9fb0fa02efc1f0632f914252725b638d11a7cbe5ed3674dc0a, 0x7d28e752f370bfd4d92276924d94679f0fee08a3c1ab4b015e38957f31ae7d56a01e20f30d28f6c88914c8abf13dece4ecb7d7f34abf01b73c0c459a7dfe1d1b),
  (0x55a5cd9887b5328ab019f613a449da07aaf751e9921e1b87d5e549579cac035f037112b98dcbe4a70b78ae017eb0391d978a994ee5a603f02a0929494b0152d8, 0x195b094f848c6e5ec42f152a2e62172fe90acde0f688e20301955c0565194ef7b73b05083468f4a6dcd81f918c911e4fd90071bdd16c4b5a85242f4440536b8e),
  (0x6496ad430b9579a698a529832700a7982f0fd8ba138f519e22d11d09583b8f8217b8e7564d2699a503573d7c56c98fe1a8397f200606e482a5b8817779a3fdaa, 0x32ee5723fc3abf6b4b0a150d88c497fd9afe5dc8fddb472fa8a968bb0adebaf9afe91526deb38a1f22d2d6f44b007adf8ed789c2094c4c62948a7f4bd5718208),
  (0x70c90e61e400501e95ecfcfe21cdf00fc8611ac5005723fa0cdffbbe4e8082d2de0423c5e3d45248bbb6ef31399fcb1532945bb6cd2d7f860feff5a31ed125a, 0x196efc030ab194f1dc6bd652ecb67b5c749383cad1ea71f5584aa5d9dde7515753f9887a2c738608762797da0b78e28965303cbb36c788cef4d8cd5b9b5f18a),
  (0x4c962db22801b85f9054eb665277da17ca719d9998a455eb5c7d21961eb0585acb02d2cc668d9a2fcd5dbbec2c566e13aa0e9c2ce1da8298b3b67e600dbf577b, 0x23437270694b2e528e95f27053fab08ee140e4508129f610e5cba1465b28fe29005001a8f46ae84aa373b5bdef3f63456fef21a152e613431c43bcb11f4eb061),
  (0x75a959bbe4e6d0c8f0102feccebe591098c55a9263553cd78c85e503c9e3b0bf1853e1ad31b8087388c121606c87431d65cbb490c6d9a999932c4833fd7e6869, 0x479124418c2cb455c1d011ca715e3a752f86c2610e69adbab4004caaee0fd4b83e04dd1f60255c6cf82187517cc17685cd8689e5e5cba431e4e5b8a8cb7514a3),
  (0x20bf6c7c5240b21dead4e840e1960b84c7b64709fc20109210f60c17405b032d2e9283684bd7b1c45d93d6fbe87228cf97196daf24cab6b401c594a3dbc10956, 0x5d7ccfe36d1c1ed3dde021a835f6a52af21ca1b6c4486952167d1544409dbc1225679bdca3856c1a557f0d6200003c159d9541365b60660d3c0a72b8f56da641),
  (0x73c8eca67d27691b46257e3d5ad600933a1a9b01ddc5d1453af8ad79bb6838501ff2ce8b620094d36085436fec87df8874033bb70afe888487087fab8dfa4999, 0x1390cf789d13841cbf2f4487013f906ac52c96deb6640f76311f7fc02d184a39ca8e7139510a9094c06e34cfb9d1830cfa5cb1a3ed32e26ed1cb923c06f24708),
  (0x26377589d7aae26d61772e7d9619d2657a7d09ae8e52f3acf01189c1cb18cf274334b31532f2dab9713905436ddb182514dce07b7b89e304ff7bf0d32c8ceda6, 0x3b115b89f2b3e88f5298754cd368d4840f6b01423f6ee47a42b25b06cb087197cad01d69e59c9deeefd30975e8374f45af94a443760b8acc102f3d33db945024),
  (0x756aca792ca8cdbf023c9f32cc28b9e96496aba276c38ce9ab58d2068d0a0a9000d853070bf401da4ce1b2cd9959872c29bee929bb6f94dc3956d118abbccce4, 0x52ddb883c4ef0e2c74c2cb5f6c914711de4b0627efbdadd65f8befed358bd2da449da14c5158bb9ec76277c3b46f2b79f6b32f9e0ee4d5978b9b36e3e7425bd),
  (0x3941432decb7140eaca1a6d5158f9db1d4938c25a644cb967e900480cbbe261a1cf937b984d01abbcb6f4df46a59d5c4a98eb00af4bb9572facb95b492d80dc0, 0x7c7bf237b82cb1955239bf8551f7ebb19128c5e2aa96dd78655ce932fb9361f545a9bf73030b77a6d5d8d6d32e674054c4799ccba0c87e0fb38c11a0e48cddd0),
  (0x198ab6639bba788377195a5dd6f68df933135a0685bae165c655648f30ee9b76119242d00e04994ff632749c457e197e673fc51c3223a8f5961beaee78306126, 0x510d306f361e2fb28677309e0da7e45ba27d092f1143da706ce956b81b29be556c18582921d19d450d883b590fa9f1638b98ddc6f74235801628ee2c3313a33),
  (0x78325197d91ee6f124b7afe651b103a78127f9bd9ba7035fe2a579fe2fc75eca15a6a65f8ab15b4c6e1f39928211f9fd3e277917888ea69c3eb11a1a12699cb, 0x4292eb023b910ad59ea163049475592bd8d6cc11bd82840b83a5bc085433cb3417bf878768d3e2096c1efc69f12b434c0190b49ecc9126d774d51ce982636ee9),
  (0x3cb1cdc56f54b15e7170912e2f31e2c4e89d9626574b6d6c094d6c1d377a1f872fa9daa5149f1b25b68a066c9c8f34d88063fdd8ed21b54783b3b4ef36fe13eb, 0x1662b65d3f9899c0d2f251227c73da0cb453ba85e6644cad79f3221f7499210903f8f3fcee24c070189482a1200f02a2f0db2cf7785bfea574ece26434ca071),
  (0x6abeea09a580e15173674dba48ccbd2bf38451a90abf07e3db847cac79851762dce6f3bd7f6b1e2464bac75179efa69404e0edae01f1342e832b618bced41242, 0x79f5755ad197b07a94929170c6182de49cbc84c450728136e572f479da0bc911c72536045267984d8ddb7c94ba8d9c322c00de5e40b5846b84d867f89df93ece),
  (0xd314626811a2b2a265e348a02f2dff330dc10814baebcede0a6083123cdcae62925e24756b94d25ecdf3c61423984b8c2f07de2c48580f5f87e51cddfc861ee, 0x29b72823f491afded816b9615222bafccd49363eb448d1fc448ee808bc6cf2c6980dcfa1f4707328301c3c31e18e050862b5d3592b429871bfa03679b029de0),
  (0x1b55d3747ef3e8cca10cf891f2e4d21a4c887407ad568786c71df2151fb158fe0245ab7b4c192d277c74f4d99d0aa5914f2591ca9b527c93c19885267037a866, 0x5e091e9e942e8cb48f6b118f4881c2842a9389741c7fea8bdeeb197b1243b25f0b829f22937f099951170b710c7d98ea46b61fd22dbe4f1cab6b2ca1b243a801),
  (0x7cba8b10631c32a3a7b5934969733110007a6b51d217ad996e36221ba7f10feb33af2c0900adbb6bbc5ba51b976a9e3847e4aecec5ce7579d745e7755f33caa6, 0x5b55740e91b65b1a831cc850cf7ac7c1e3f02c71d70d6fa9852978d89215b68612a51847407378236ade88717190dc3d6776b9e57359cc93157f7b9e6e1725a9),
  (0x6b2f12e0a7b849c20273f9c41d99ea378822ffb0c46816ad68d416c7d833794293dbddc5b3d69beacbfe1033f5e9c01dc667153b04533aeb72b13f665b0a76f6, 0x6278081ac6b0ff0f33e06d32628c00f224f77c6b458b561e6bd80b1fa5b4e17d6633c3c88f8469a206a2fcb18e952c1e05b4ac4bdf7825fab3dabf618021ea50),
  (0x3f153c597d3dc76045770fb0a1801c447896bdccc26b8bb3a1c4af7b9978f4f1d0ce9eb9197e39afb2862d971e2c13292432ff6d17709b331dcdaf2d4ba73fae, 0x7ef9a97ed868ff2636a9ee92ec870315d17bc3fc574e7dce7904f862ea840602103449acb226c5c462aee403622b3f8bc98b0afa4a60f5611fe4899590861be6),
  (0x3d460f9bfb0310bd26ef441247d50d5417de4aea91264a1621c112af6c458eff323158e5aa211c9e88e8faf9a1eb59ef50ee5679a7bd8fd2906fee11a079be1c, 0x49f3ec4759e1452e00d16fb71e98aaf0c91269cf2156c6ece102901b03eed90a8e05f54247713bd4041a3102ddbec6e4de377623b7c3e39982efe6c0f8ebcde8),
  (0x2b11a6096c92cc62295b5b76c83e9f756387ce5724086cb58c4f95bee25b280ef291ad56557df9fea60b35dda117c3d44e911a8ba9471cec0e67b50236ad27b8, 0x1f88ce349ea7d003e126a5ad4aaf9cc0ddab2728a4f420c88bbf03a3cda44eae8e56c4fc01970776ada30434f0819ef5bbe257094f5a46aa28bbe2d06f6e15c3),
  (0x7bd86ece7fbae88149d6412060aa2f63aa087e90794e8ee62b29b59094935f6a228bf63419263fe45ceb23bcf21647f8f19e372bab00f3d863694c4aba182123, 0x533ee5d9524d0c01882670bf5a20453b50815d506ce55e44d8862a3435373c4bd8facb519a7d6377a25e77496d9af5b1b2e7a75f81e9d6778f0388924c5b1b33),
  (0xe42e4c331889acbd3f9f8251116a859dc14b64b10175bf0816f43c767dd4dd1b3ccdaa87ff00c621068793afbe50ae67e8b57485be9ba4044921f09242b0634, 0x24aa3ea161a37990bafb287a07ad5d8e77eaefc0d32e2291ab0001cb642b6fdfd9092efefbeb371edc96680b0c089528c4de10acf7a1dfd1e2e8dc53462f35fe),
  (0x55f2d4f37faf227d2f299b17516ead236c7af006a3ab27a1ffdc43a1683526b7408cf8e56a954093c16f2c950766a095ea349b01581e8a28852be7e844ed3cb2, 0x5c562ff76c703d46dfe5dd558da77f04703810ae855fc0825b93178903b4f05139c914469dbefb3d64f10b6239efdaef83c9b74c49e4166812f1ec0562773ade),
  (0x653747a54db64a84ab0a859b70419273b53b04d5b1c94eee537c09d0a8d15c51db420780fb38ce1c59d78949d2636143b5178893123f21b925efb3504e2c178, 0x6b5c2642ab004c20d152ec9c0c83670a52d08373423325f3611db700d9361803c747a169fb0a66a2836605c1d13c4dea31ed4aca0ffc9e7336bc3331ec022418),
  (0x12a8cf5cf599946bcf341fbadfbff1421a94d15a10178b0c3239bbfb03adf3e61cee4e4a0929eee12c10e7d0a3956796f8c6804eefbbfb581f03dfabd78cd01, 0x76ca14714d7e848fe50849a3e95eabf713da0ac2cf558dad583500ac91ec9dc0940a3880ac54b871d14880456bca6197e6f53aeee1408c3c2b392b5a652638d9),
  (0x7cb10da418af1e3ee8459546382ee5d782287e8ce86d15579c89ed3b36a0557593fbacf4786ad4468e730c9f37d7ce940672f2efbe0d5ae3e59d818d13b5c733, 0x15f98396e8c7f7c0bee16e839bdf0b38a01d99f15608432c5112cfd7b37d82c4a0fc788a7a91901ab53548f83f741d028a09c702c1c4d8eeffca73a826391b6),
  (0x6f6857a918b1191cf1ae0dcf4a52929a69410a858b88b53653ad673ae80ccefb690e01ade0e0355390ebcc996bfdbe22bd1f36b16139802c7013ebeedd0dc115, 0x44557ad90a2182eb924ce751cab78b9e98d666602f21e555ea7c2fcc7277eca13a4081680f29acd311b32c47f8c58cdf3e9b748772023a1fa05199d2bdd01887),
  (0x5b7bc6b7e1ff45d009b09684470e6110c18964bb5bbecd852d15468ab5aa061f50c1fe03630c07d98b79b8a37a6612a7db1f894611e559eb42e75187b7af7b39, 0x624e8cc7a15f538174a3a4cf0b6486b1b565767bfd1669bb86a5ae5eabc8498913ffb65b16d0a4dfaab4a4ad01c0351ab480816a0e4063b16590061758bc294e),
  (0x1244c1dfaa654157066840601965a0f9ac60dbf16b790540244066b58f2f1783a5fc869e52c2ac727cdf1a2fc92bf248bd0101ef8a52f4aadf79135c983285f9, 0x11ed68176f3ba6e0062f63d70c3ec93e24fdcf9dcd358bd2ae77876cffc75033e2cf816aa365a84b3e6e9a1ad9bcf1be94843b736ee4abe500d50b895d205a6f),
  (0x7229c3a6a1927fbfd2e10c1f9d823c88cde570155663ea3061035ee19af2be9b439bdb94892b12e3a586cc01acff0dacc3c1976134631d503edf44d656c94d98, 0x3f8b86bb7ffb6d9538ad28dd45de8943e1a7bca405e5b2c054d712ffd98b12ea11fd1375e10668d00efeeb4ac8c0cd5d082b7f5fe5aff1a817f710b2ce31eaaf),
  (0x7ae10cdf54feb4fc2242aaf1401fe696fbba67af85a23e375d5d057b2553a23451574799ea67dab2a07fe4727d60f996b33840520a424bc563de3eaf18f9e901, 0x2ee98f824db11f04c0df6786b3c9bb90c74256b8a845b8cce6e2aa33290a1d5bf7209b28d3a1fcc65856235a3dec7b0add0eaf454de14ebb63e6b4ad6af8cdb7),
  (0x19fc9e475ef591119c845f7e80214f586ded85936b6f142d8b191c8763db4027e8ade9e6a4ce196d4b2d0933817aa989cffd8efead3d525cd321f4488f4cc422, 0x189cfa46d2cd4446580700e48f699e0103b188c992dce72ac7bdb8a1fd09706283b6e5f1bc4b2a736143a893066536648d28df65886f5d609424e1a62cd6643c),
  (0xc5dd7002a2da9553600c1aa49b31579693727cac3d72ad6ca8647fbd26126933b02ad612d886c2188c4d8bf6bf6e36bb5fae2d0d450041badf2de67b6173a41, 0x374e3e89ad4e89c6736afffdaceab82b8877718e5b2f6d6247f0b76e7a2f111718b98ba517c1b645388a630d6562ccad8f27de0b42b824aa6ee7c5392a512152),
  (0xd56585231be7f78f0d07888bf551508f0322fd8986dae4e16fed274c2fcb45f9d7e893abff6584914cea4ee2330019c302602c84684b98114561a4fd9a7f9be, 0x2687037d6a0a832571460964284774e2291359889416a2ba948395225d9d35c4877f7f626f132e1f9859654591b660062c627e5ccc8c00f27c5c39f5c573dcf9),
  (0x7b5bc0bf288181cad5872de8a4cc544d51bbf9f3eae6721646e7546808213352eb0454b17eef6400bd72e09d198b7f621aea7ce62795d5fd3073b15fdf518e18, 0x29461c308de1403c172d32db602aa564086b56683e0a9c90fa8074e5694ae538430264d085d2932026157d738d7f01c32faa53280589edcad9e5bf38e2e7c518),
  (0x6388ceec313426fb5745b79fbd6fdd5ccf006dd11ef7184f3c8de28a63f76afdfcbda98ddc3f153f01d306e6af88b278dc5985248111b20cea9c074f4aa9d435, 0x1748dab73e5a171ebe6420021f7982b91c9b902ca5bd41a36d68794476e2d68834b1f6f0bb9930c4c2bb90a15db027fb98a620d550db68c5a5f77743cf604eb3),
  (0xd7e9474f5f0f58dab108e4edb144331cf5b37fed7138d0a7e251b03da36ede557f0d0b0f9602c4221301add847687568dc5a5513b97bc7e61f66b0d72427b68, 0x11817a5309bc87807ed6c33395edc82926ba3aec9a565135fd05fe39799c7ef4314787bd198e801060ef1922013449b6e404a2ac596096626f0f26498b50724f),
  (0x59ff5674ebf8ecf3f06fadb4ac0f8c9c0173b6dd8c4f5daec975406f3b024a6a0a79f0b95af6aa046640c700cef2794b8f4736527cad038963f7c1ac68fba1ef, 0x10f46e8af5a0de472d50ff8db684e13a5f8131445a272064d5e7d81606abad82111ef6b467ab71dc9e30fcfe0b24118d0a63eabebf8de1eeadf6d00fc9068aa4),
  (0x66a7afa1627d2055b0395b2c417941ef67c022b4032e258efa031349f6ec30ad2aecff509f5a8051080829fd3b0571380318d4e94c9ae335a8def66fb5ea046, 0x4d60f569cc3d6a1175989943b568e1126901343cb600a95c72c0244185823c490e040d515a05c22069506ca09f052b28ccbe5dc7a78d3b2c5351aba3a5beacbe),
  (0x6f1cb1f83867ac5ccdb09f76dba34baac0c89edda7895b8a15378607bce5775ededbd9fcea00172c272c54aa76c0b9a86a529be0f2259207d5c9b7627a9c1386, 0x667266a063752863b323b5b85605b969d8a6e5a7a5320c51a642f702b6f0e7f395b23933f238bd01bf36cbcdae9d2e4baab9938f4024acac379303ede90c79c),
  (0x37d76e51d5463814d432f395ffefa0e21579262d720c01f3db86a5dc58a450de75f424cb675123ba8bb448ee256b50cf7dd02a0d75f31dc25ec4deb42cc78770, 0x63535cb36df4c44f1c946d8d736449d99c6da005e825b8200b4b9c70e64824832aa46df710bb2f82d87008ec3cec6a52d45178be01f66cf126114b1abf2417c8),
  (0x724fc37f4b90e110bb5903656d887aaa026cc4ad27027031ca738d484a3675f8f873d17da6e0aef074aa0f2606c18a46f55e0d2808adc691207ce466eae21ccd, 0x2a0a9d07b1a4e7c770195946b68881b150b25c0c452bfaa0f2edf33b94e737b62026ea17e297e97bfb5a71305f56f6b9aa496d115d32ceb9de42211eb54dc3da),
  (0x3c180aec6157de267a007365cca6bac7290559cccfc62def49a5a949b1cb43cc95fd6863634654299fdf0335871ea244fbc967047468c82d1e6c64570b7928d6, 0x78267a69f8c5b2252fc9c75573c967c4c1c4d6acb50a8adae7958224c1166ec30ffec216fe9b32c35255bfbbc7035441ee67bdab02073e7b2e85484afc6b300e),
  (0x6019559e68c7e815227651b352e979d2901fbfff231effc184f2fc1ea2ea491aa90ffe7be03e79f899ad7910134f8673a33286d589293b161309c41392c12f25, 0x5363895254fa2d34375fe276797afad5b469154d7ed5374f7b59cd0feb0602f735ded5fefdd2d43988b6d7c4e49633b0036f64ccbd5dda3ae313f9d80709e78),
  (0x2cf3da1b957ea9c36511b41b7b735c893d5009b315b160b7aa0243967f31199de65ae94010c5f1ac6cf4c1f2f10ceb1b896a1e57e8b7de268d27eb00a979627e, 0xdd04c7274f8346ecc8d61e3f47d61a7a16c73b0c8020c28fcc9ac73f97ad2316653e625460dd1fce4da32a5d1e1b4037f98443d999e62c615ef34777d46f3a0),
  (0xdeb19bc50270a5c522fa6f6855f3466ed004616ca290a087ef9a4d6e20469608b6c8bfd1fc213b7ab9fc128b2ec5bc4cf4319ffae70906a3a10888a8c7f32cc, 0x21821e78baa43c2934d7027e00cf6ad47f041c4ad315acf417a41880ca7a6b40303c37eaffa053e0e53b297af708ad84daf2278c1a833caf40ecbd10219d81a0),
  (0x5d8f5a20c28d57198c24586df08e82d641030f835e97250b7abe885055dde51edfcdddfcbdab9663bf7b26a0776d4468c49bd90bd7047f0a639879fddbfdebef, 0x152abf01ca89f620da04b34a048e72ab65a0a7cf191869d5f90fb5a4d93e9a098555eea0645f0d151c4fa3052af2b6f0f3e2438886f372fa4f1458c4e04b4cb6),
  (0xc8db5f2e1b4eafcb1e1798e25187a2882636be487afdc577e00655010c094497654e2b4493936ae048519e6f6f140c011b3dfb39f938863da64bcf81525aa45, 0x77fe696334ac9566e9ff1b6f4fc1f034f4da3f623c70b6d2dc92a63423b2d104d6c4252407d7bc40e04705641d8bf38a2dc11e45a2aedaaed6227922768217b3),
  (0x1b772e42178a67a41c3caeddc5878806bb704d519265e5b55fd8999a87112fd61d2875940a4dd2846d1515ecbd86b461814005ddb3d799fcf0a67fd8a1dd9800, 0x3f50b3714caaee5c3ed3775139840a00647ee5cf38452c95be418dcaf60ad8217e306429e1fb2b64cc69008ebd80fdeb4200cb977739eba70460d01745483a51),
  (0x3add81f5225bceabd9845d922009937bf1ec2406940599e8ab5a89bec69126c8c1272ef67f9783a02fe91a248850a1fd2b15595b40be8eb7d51dee61f3afbcf4, 0x7bc694b835105831f41d15276fec8127edd337b311af2330b4855dd633d78ec0de310d3d7a736c4863de9b1ddf6a6bcd6b65b7bb03d5e636e5e56e0c0e99846d),
  (0x44f54e48c7fda0c4b8f9aa376a504ccc88df0a8cf38d38edceed9a5aeb0de6ea8accfad7b87dd5c3c59291c2d08c08619e3e8b93afcfa65dccd1ca4ad17ea290, 0x3505b7fc2bf7c71acb3c02a89fe78d4a82d969b0bd40df90d3e6e8f908fc30dcc18c8d5911166a38a70b18ccda53aea181a594a0f52433bd3d99d0eeca5184bc),
  (0x415006e089944e789c6946ff0aa55fedcae93eac9de558a76d0250d3a7022212e0114cb28a2312206de1dac7d53448ac4a62301941eb8a38a1e179c5799ef3a8, 0x370ce5007270bbcbe1be2cef70c2d90669a5b50374da134480267ff526636d137ce18caaa4cd3f879294bcf2fb8636308b4899ce20d1487c4d8e6f617515c7e4),
  (0x1728a82fcf7dcd9eb12aab74c359ee77333d8ecceb681ba12ebf5fa1f8c905e39dd80980ea1d60612eb70932f97a7b88388ba2c2e2ecf7c97a988b4a8bfaada1, 0x27d2cbf5b1930200d8a332063b6b87cae351f2609c7c93f94aae0027ad6d109cc845ab6dec440a68612997b67631a08d4d66dec86d437eef4991de3dab585820),
  (0x574949092ad201cd7cb8d9c0574ad634d51923edec9bf23bf5f3022acc67e082c513dfcd784ede9837336e66e112925b2ff967ea464b65f51c37e8967505038c, 0x397b751420648eeb42d279245e441511ab0f607f401c7f1f9345acda49e2fbd0b147a2f1eb39861ced0b08212e71b3999ec8dccd014769c7f686301d5aa91c93),
  (0x2bd9d726c127e164d1e2e8f2cf5d99ac9a9da6f484e7c64126578b2ec7565731dff3c4b878e45608cd56ea6678fb32699ba0d79ff6b5351efd0af60c72913fab, 0x422deaedf7a8f023fccbdd2167376d8e2fd59084d4ef6a71a34ff8aac6eb8f0f2c87bdb774b91a3cc684bd97d4f7b17bc898f1c3db598a65cce20bfa5cb77bae),
  (0x3f3f5ea28886567c85da09eeb51c533759289e7d1f87d8116dcf68da7a39cbcaae3e2b1d4d6cb63d55ffa4a6d74d4e974f699506c63625da0278a2cc0dfbeaca, 0x6ebd3b1d59956cfc40358e34c524cfd3d4cb37cfbebbafeb9a908d4ef1a1dd16b64b888f19c83876441030bfec89d46eb58220e07d0118db580bdd084971ed18),
  (0x274f95d0e739c108408e2f54dad77602dfcf8758ad81eb0fefb604219012ea183f978a8aea0985370a1ba58f969f2b591f7b5174ea8bf17fa38c058c1bdb72ea, 0xebeba87e1b92039f86a4b0f396f07abb6d272c9d75aaf23be9c633a7a04f4711f0d002ef676b3fba6bb29cdff56cff714ef47bd2ed3b5d2696814e87605a315),
  (0x3ae1679a4183765521bf011a65820649177392368fc94c45ef1b9c7d9535676c8cc90dd6c65c60b893eac7d55e71076fd7eb67073ad836a04b4fec0aaf2a4e55, 0xbbcadd2445fdabc7ca2fb252f482a1437b625efc8d46a13a35cd308e3a3336f7e0edae614214d7bebaa1a4ee9912f1dc0c530750af7b0caacc468be87bcb19a),
  (0x57a73edc07460641b6110482655b89f233a7bbbd97b6c6bf57335c5afc16a9c0354f9430d747c67f7bf295e244f4e60d792eed98191bdb9a83805403960f6731, 0x38426eb470fcfca879393f79713ff3b8fdf026d40349c3389cc19ec099f0469b4eb7a4269e7819826800c23eb77492ccf1fe2130186778e60091e152a5b8016f),
  (0x22b8071baf3e013c71dbcffc089723f3c781097d092cab6e3d35bed92c699efd582aa709cc855fb6e6822adbc8c99555b2da8a9da9752e00352a434c43e5460d, 0x35391cdc6ac16926472856c16425051bb70febb4dbec904306cee258486040aaba272e676647ab6b270000d574dda65bf48cf49d52d522937f56b2ea615e4d8b),
  (0x110aa287e8399ec131e85b07f7af8882f02e85e34970d081be4d02eb8869ea5ea29216f1ada10f6cca0bbf1c90eb6ac41904ac3ae3b4ffea39310d1f89193243, 0x2cf78cfd1a98ca097b1899b1c438b80fa07854745a6bee14f622f982853e766c49d21b52d01b79f5d0103caf3700467ebe765593589b2eee73d9aed5ca88b2a3),
  (0x20021ddb2b396186ccb51b1c3d700e4c5601759cd9fb50ca02833cbd8fbd2eb53a7b26f6f4446c9602b145bf9fb3c5b64aa668dc4cff9960465c7e2897c537c1, 0x1c824e80942fb3cc9cdbe97eb5d8c950f92cbc9ad60790e43c7c8db2a87bd4f25663460290b383173ea5049aa520cb3f8f40ee90ddcac64777be9f7c6ed36602),
  (0x21bdd1aa7ad35df57335322b46390b1ffe075f9ae5802b549a7a3b429c6d59a5e4b54cb38b3866f1f0a19cac16d1b4dcd307c263654b2d8e50d1dcddc07e6ed9, 0x11bb16202fc13b320ab472acc1f629140d5695ca8636e4feaf97aa7c34d2feb9348ec6c41af1a2655fbfc05867909fb3b5bda68835cbf154966a54006f1eeaed),
  (0x6d0d65181de52c92f449b1f0650a4ae611b487f62ea4be5f5172eef160e7ca80d2efde122f501de0099f677d8d2370a52e7009d083487d4bc418f448e723aad8, 0xa2e91842e0ec1af82b127443a9ae7eb50e86b4cf7761fa6eb65332747cba87c298148db39579aeb9ed7ab75ea9ca18ff0e8f78d84ac342896ba8912c4886381),
  (0x6e223dbd18ac245b377a668c24600b96156590f5aaf50125b9529b0adda926ff60a01768ec5f7e5bb8430207b71acc7d0aab016c32edac2acc9660aa43f5e3f7, 0x42b1aec705fd30c975b12bf3a8c506cf31153e78e5cf9c7aca57214d92d82cdae2b6a88f3acb85e86d0e422aa7fc4acdbf78b22aa2739399a5f7a44a5f6de483),
  (0x11b67f1a60303758f528e64811b681a023a16601f3b8a8eb755341fd9179f531b5c41057d14111f2ef51ad082545648f9693e81acaa3bfcd95ea8aaae6a27131, 0x4b6cf72b712b87b36debbe8574661c4701e273f1181b9056174127571dd37f22ba52298e112ac476f02b78a9457fe76a246cd7c1a373d85242a47eb537585a48),
  (0xf79bdfaa5f33d416c6ae96a93cedcc1bc4f8c19ee129c07f22031498c6f7063c375eebe18a2596afc24ff0dc90c2cd597bc0c00476e1dbcebfa1189ce27f152, 0x753f6725ff34497ba02b94f53fed28a69a021d94edac21825774475bc1b0919a0d72412cec14e7fcf153ac0a9b77fc073e7e21a42332b8c0ff680105d8085fe4),
  (0x5b4fb514d267b4a58edc51a4b4737c7fb8e80ad86185ffde627ad47cb61131642e5959bd6cd015321b08a34703e7ba3d0df0a6cb56f379fe68d8663677167825, 0x6460df2fa1d5b736f0265eb80973bd13ff4e30de32ed024207f54ba8229cc16527d592edcf56b55782fcd42d84cad73f378f2931cea13b56e0f079dcf773b766),
  (0x43625b70139eea5e8123844d35adc841ab0c00f42cdc5bfbf582f5ef3b5625b502ad70c25dded400a237af05006422dd79cdf76122515fb972895d4a477b6a11, 0x7b91e42b15f601d262ae4c93c47d84346125f3a35ab2fca288846a78c7e446e58c5a123e0b48ced72bcd8748ab4a453e27ed0514d04d0278f22834c4079c7912),
  (0x5444169be8fd21c3eaebde52338fe7c180710bb5c2d9f756686bae70f324c35c4cea3b330932a37c456e3c383ed2fa4e8f22761a5a3a453b1ea5f1250149131c, 0x5134de590ee1efb913141a60c40f18ba4eebecd457b3970b55e6d2a36c63f0cda0a3a2a3bd3a9f39ead1363d344f52bd7d83cfff69980fc06a529ab5219118b6),
  (0x4d5a820339fa6dbf12d9d3d79e52e48177479926c8012acb80939b18c7a39cefdea723d64b7f669f065bf5f921e54d5d3f5a36e7887738ab880e98955c6cc088, 0x63a49846411073ad458b7bc23356df582b45d738d348108418428b0d1f59ea571c64a7b5301b587deb31eb0625a304902c34d766844e17a82aee96cf6f9fe81a),
  (0x2db5b11f4a0d66ee8eccc624f9d2ffb6866a4af33bbba598c62047e4af9a64bb609fac686e10f78c6425d01f9212302e7a6f225c3c570787981d2dbaa9779b3b, 0x4b4ed825e17b02f110f45c01c49d08f34b876b948733c5f286f2a6e1929af0bc77796734e8900fcca599ef22bb111fa311aa9bb63c8a93bcd2655962b9fc6f36),
  (0x2bbea2d584c3a48036f7dfe8f76b074869012aabbc4bd3f0e31a6e49f696b458a30d8518d7eecb18d9308d617e74172d6dab0e587a63a02169f841343276f94a, 0x6fc7f9023597e9556a34fce45c02daefaabc10fdaa80d42d25b8267312bdda1a16baf581328b251ba4bb5ef2c4bd6757a8d691159a6962545400d2897a38911f),
  (0x38f73550bb20a281277d07d4b78aa129efe1e8b71b5e27a57d4ef4c5ac41c798c7f3d6d51e1ff8e7753c16391164b1c76bf0fdcf09201e3b08a35ffdf1ccb976, 0xdf997d14fbce267320ffe75c3232149d893ff74858256bf2c91fbdcb939d40ea958333e4c853cebfbcf2b48ba924f62c13697928ffcf2566637d1838e1f72b6),
  (0xa3ad17f28c6c814fe79aa81b770ce6097e6e87740cfaa528e64a46fbcc34b00cba697b37935ba87df53a14e4b43786d1a3047c34144f51b0d4ce65345ed6d5a, 0x173fc29efceda3b0f78ebd862868b87216c791e265dfdd26926b6c64d26fb37336442b545c2f12b304e408d8df0eb05511f8ed51b79c34b3bb85a2b92d875304),
  (0x71437479ab0f50662e7db3e29eed105dc13d07e9874caab35c38223e6026a782144176d1fa5eec33dc3358e88dd17deee3236e9718190ba51ad33a190218b82, 0x32421a12f5de8d709707abe1ac2d917e779e91d425d8725bfba3beab08b67cd5f78b12dc49738e24a570037e9726528f92861d9f81ff15375bb1a0e677ac377),
  (0x46b395a3aba23e9aaf24433f54860f040d6b757b8b0d6537b7e8f2bb6596cb8595ee0f4c868370d8fa14a6dc3c6c308f8b59c93b5790fba800327b888853c9a, 0x61eb736361c406e25a555e5de254280dd4328fecd918b7de09368a35c4fbca3edabd42d1ed7ee44fea95dd9b711b5df0e4b8a145e54d2714b068e20f1bf90ec7),
  (0x295140ff5ce64433790203ddae4d4ca9d43432840034e19885864914fe59555957942beb23b8dc32ee059655c53a0ae7aa69e57a929ab9c810e672c9fc31035, 0x6861271e810f871ad36c5607fb63e6e8b139f5cdc446bd63322032cded1ed083ba198e4d8d2af1cca6ee542d4bf362e54986641a12b05208b02be29ac63149eb),
  (0x68a2cb21c76ee25ba1d17ac27e9f37393f20018c606d6f709d20654dfeca9213f6f38e08a0f8c5837600f37f326995ac390387ba428a0f484f7f693b94218795, 0xf01d37fb81687c10469d90b3de29910b53a97d7db77c62d6b001a8ded1a1d29f2c3870f62c4f1e2b8c26edbf558df987ec5648a15f2eda2d19bc369cdc1adf9),
  (0x3929e39ef97e38462e01a2d356cbb5ee64f20a0207b5a8f02dbba3f436940d4ec86dc2f4318777cf1f7f534b293839f8142a34232703e65254f4f30ce8bdb531, 0x418249107d108871e0ec4cf5d0f424a96fc9095fa20fb08ab6fde18d8a1169fa4f5de8b76e894cc1b5d53a9f3a19f494b884558c4e1fdf324414ee64c7969888),
  (0x56bedfc971298fdcbe8d6142d55ea5dc2c1b0dcbe7ac201fff95987e96087c64f4060fece8af9b9ca71b61ccc78850d938758a4857a6301a5286921102f7fce6, 0x3aa2e5c505d735a27b53e56d71214dcc3035c797b92792055a12e60570a353debadb6fa23dd34c64bd24a297192419cbe7e359eca6f5d599ccb6fc7681837488),
  (0x6aa7328b40ce4f92b88f717fdbc39a4feb62cb1ac9d092bcf5ce497157c51eece7ef644e1aada8f16e3553fb62e7161a013214f922e97f18e32f7970a3e67a66, 0x7f098763efdb33d911716988455f969596e2c09e4df64cf27516a3ffb1c0a05463e75ca9f844d0f07ba818ae41d051be840273a213a59b1646b0a4176d9ab88),
  (0x3dd2bfb651b28bf048ff9085332900b6868a13cbcb3aab9d5a4a43a3fac741b2bb37910c39cb8bdf7c1416c361585dec6be76e3744cc88f39aa57edbad45db68, 0x33249977fcffd7a1b8b2396ae65a62c3d0a509c7f92c890fcff51c6c85f99ba98cf4864fa5ace6c89ea0fe36350bcaa6d9d668628f06f6dadcf640beb2f8aa27),
  (0x62d77b07c510cb21233a674cf7b2e75178401e9ade35edfd1ad72e0aa0e4ec4fa33e7cde76e8d3b636e1e3202ae61a07b1107df0a36b4d2fc5d9b90c45acc63a, 0x10ed09d3419b722955cedffd24446e3d0124b9ce3c40843afc4d7b32c66c06d8bc6261e6e564c1825929690452321f183f624be181b3a88fa41eb4f4048a7f54),
  (0x1678f02df3851b16d34a5a330e64404791ae1bcd9ae6d6520a118ce5ef5b1d9262197f72cb21a557adea29d144f432352d16840374e7b846d871b63bfe11c4f1, 0xd917358e5cbe0a985ee9f3eef5453353c6bb2bfcc8eca46df593a787c89874818993f48a41f88091de5e8f4bc95dd5e3ab6ed799ea70de82b30204eb5045b66),
  (0x2caf522dc931d4bea4732bfb786563b7d6860ded1fe4a4bda18d5cfea0a931a754794fa5b46243b63ccabf97fab7b3141e451464929d167f05d7687358153e62, 0x7020d1dd6aff539a0d68c1a591a2a6b206a2ab6d387d9a1ac3fbe100ea929bb02c8ec5aa9966b1f55e2adc3b0666f15f2be4f16a403c35ea1f9a446bb5d28202),
  (0x574b7a1d59a10536d07c1fe132ff70a5abfe6450a7ed42d878cb92f68761f6d7bae91e9c3f162bffc31f4b98653d29c953cf4aff5a671de48956a7cfd3628aff, 0x51fb4ea1a571ca38ba5d82340be42815f71c936e7f0355ca89983405ab2806c0527d1bd8e76ba76b5d7d09c9d371c0ab0f82d664e44b7c69f76012124daebc2b),
  (0x31675c5da989d89435aab61dd92000d190a95f57c66b323ab0f9bb3b4c5a16fef60b11fcba03f3920c731e588165716ffc9711c758ebd0441b9cf3bd7b3763ec, 0x42d2fceb508706a29b1ea2f824320d4c07975d09ec8b019fd0b3ba53ce7c123acbad9845a419540245007fa23b4b744dea2098c9c3f717a37807131c721bf921),
  (0x474da6fbc777741d9c6cc82f2d1300b34b8c00c080c4abac55dbad0ef60e1430eea80fa6cf9ae78f25323e2942e11c703f7fc270e84a8394948960a9d1da33f0, 0x5111e2928598385fbcbdc0d3d8839144686cd14a9c322a6b45ca458a89aed4a04fecc03f349e5e4f7f664642cf9f80d26e181754fc548ddb863618b3e844d98b),
  (0x7555bc71ca0a94f023fb2f27ede7615a9a0c7635511fc052252d79ff4e4075549e992532bae5b4f2f10e97420afcea2829ae48738afde9b7b8523b08597d15d4, 0x1db187159b0e60d3577c7441064345fb3a84e56193f0cd09d3cdafa6ada51d3c5e47a1c26ff5ba15ba423cc991767e80d3a3cd8a74ca4176d12c2b060d8533f0),
  (0x57331743c8b6285063a2499fb36d304fc009b29799a8b5da5573080f9be01db0da5b31be07fe9fab2180cc9f95f94cbfabb2d1104e703e30f43528c683052c29, 0x3c8c65d56f47b3d440a544501e170a9cb43ce4b4a734c47bb45816823fc8b23c28d7c53d7aa0031e10a879130566d2dc67e8d31759a3752078dd12e537f593cb),
  (0x34ed91458f49aaefdf519ba6b5ac6f411d0b226ba7c756f79fbb72379d5e3470388acdb8dff63ef7864a1649f530706cc47b1e1a7d3a8baffb05969cbfcb8529, 0x2b9cca740a23536c90195e4ba704997c3b6a82f178ffa3e5379273f985af347ae6b6d94bff22bb35e3813b2682be8843226134608708bfbb73d5573d750b422a),
  (0x3a6dfa9fd9c33bd1e0dc066ce2bc385ca848c87d6a7fc787f913df9dabb696d3eb9a60546b60df51c5c0556fd4543ee65c9b05bb73967c420dee4f6404185edb, 0x4dacf83bce68c5bd1c871db4f2b73c2ff42e7c6d2936c8571a3485f56ae8bc84a9fe7aa6cb671d115285f2be3549e78d13ded9c3743871694f566cc001f137db),
  (0x7b0dc234d02e2abbe3fa69b7811e15d0a019e7bcdc8446cd7d6121a310507ff932f143d5bfbec109aac3da6c28cc8fca80882406a6f9f2fbf63ae8bfe8b42f4, 0x17dd3ec15a7c597648bd74b9589747e40427275eac21750bee2b2379022b2d633af971f6bd869e1ff17a4cb7bb97361c1fce3fc8597b44d9fff6be3d2845e85c),
  (0x6bfcdfa24fbce1e90c9c3d33eca5721c40335c76a7a0284f829c5b03e605ab52b70f5c7f6d0d99c29698f72944a554003de91e297bb63b7db07bcf9bc29613fc, 0x67c3d7255797a7cb75c3eb3da9eadadb4db1175eac95a5da85781a2600c4937b75c8e8d038d13265db650a79747eac291ff7d552595c962ff75614d08ae07df0),
  (0x3c81839072dbde814907191dba6e604267ee8182b6a0d082aa2128fcfbf40e70eb0b3839561f18c9e1ca94c3325732604f6a5e26625861e35a51f6021c130ab1, 0x567e00814347cefff9d341813142756992d585cca3999bd701eb615b3c711bdf3664a1554548a1821705fd200dfeffefd7dcc138f377e9bc400f66d8b67b8521),
  (0x543af6361cc8fb16641394adeca22c39b81eefa19dd0109f6538107ac8cb85030086dd60b1cadb978d109075f995b261d9f91e63f479e13fd7cdb42d3f80854d, 0x48ecff9c6a776c8ff6e2efd0db8dbdc90422691945b3019b5a9a1b4bd04f4ca6de29d735f13666ed9b9af88588e1a283de78e662b8322b42e4e0daa8c6c7a425),
  (0x1fdecb1c799631d14da1dab37feda4b948af989687c59c71e106d4a973ff6dbade893ca1f6a3dc63e275539c280de2f4e5a8557b4f0e34b6dfcb60586a954099, 0x736d31814f592e0eb46f0a8edfea9405e5e6b024860600f9693e8933bbad858d30c9ccfaf3be8f53d0f71fe45586ce4cd123089dd21676d8ce94998a1418f16a),
  (0x746fec9663e40e74db4bf7e707ece9a557ac0e3f4135952ad16efdf1e2b444b8c77d56b3d54d19dd5425fb079c958d0a506df62006d965febee660052f220c28, 0x6b71287932d744774953627d037929e1472a17d679d118b4920a9a6900080a3c20ea712af0fc54b0f931f48dda2ca2c36174b43ce0ccb7b9a58b5cfada649c38),
  (0x6340e3acb41c6e67d6690a9cb8eaef416669a756e3442edc63c411518fc6c6f08675bbe9243d5609c9a337a316bd81521cce93187d63aefa26ccfc28783b40b7, 0x257c23b91374d7c3661a1254006186a98742dd790cf4811f518b1b0a4b621a9cffdd234e92fecb5fdec418860471524e3073b63ca4414ccb14388f9f2a7784f7),
  (0x5366cb0ea57f544e6247190d823c17d6c128ebb8134ae3fea82b6a4f1c9d6fb4c790262b54188fccb0564eaea81f1877ff62c05650dd6e3c5305f0339c8ee2a2, 0x7a55abf93a11bffd44bb28bc8468c45883c536da9ec63160b40ea6a66eb3908567062620763501124111161b722ffdb89fccb3a2cf2718663a21f36e42aa4c4c),
  (0x43a97e56d8f5b63491323d9352bf7af1085f650422d21ac5d5ae151cfbbcf2e96203aa990d2e7ec53b646def290c605f78221e1e18ad73790880848bb2fba858, 0x2dff9d8949adfd16e9f795919f6b9673f98e5cf329428e4f34df1d8e13207c9fd3cc1ebf5cb9d388699e88f4a22a7ae2abf29b4ef7d0a0a1d54de817cb2c34e7),
  (0x5d4e49d285245a5a789df1da86cc4ca5c1f5ffc68330fc0e96cb2652b7a0f93aa43d3179ea885e7c1a8357772b206405f89a87faf77e2c3dcaecdb1cb0a61651, 0x75c6cea0b61d425762f1a36ce9ee8297b94cfa79b0c76106466a8a25c136493e873caef73c1d00f77d7b8fd69a4c74b980c6642b206b48556681c3593f82bdbb),
  (0x68bf1bb19d25a659f9b158024ad0102926bae25f64f7f1d2bad68f620b754450c758d1ce4345983454d2a683fc2ff5e507f5340f9f38de8aa27bc0041e93d0f6, 0xa5ea4c007bb5379704e0f51c0fd4e3bba03470fe95f3d7049371189df2293a395d7a09bb0d551947c2442feda8981c665af09c1c2ed71ebd9d4473bd3a68a61),
  (0x2b40c5344866560e0c246ae2788e128f276aa3df72f5f0ca28b47070a491a8f3382e7e8d22d14c7ca4c09ca4895de81e0a30d08863c89bc8a7334e59b8c7e9ed, 0x17e7af4fc7f912c80cd8b2276130c335f404b18bc8ff4d5de06c26cc188b184cd646376a4be450b670bc4975c7a71571fc6057cb6c4510d481bdb3c1d559c52a),
  (0x6733291a067463339a881bb7c789f45792ad8229c5f88c48c6607a00ce0ed54bb420346c2916168e25a096148b3797e669e4e106c87f46be44eeeb1aab46e11b, 0x4d6dc24f4d05df9bb5e6735c2b536080a6fa7ed8479e61d2b153bdf17df2d07ae6944d61a8c55f3e0b25cae5129c046e28f74bcde200f72c29a867761b4cf912),
  (0x2eb2fe5f026cb7c6239a2c8b667242c00d700b5958350e2a465b97453fbb2e587f7248a080387428a1a8944f78729aece4468cf62d4785c4b96e340c08cb896d, 0x2032896135c52134071fc3980f816dc4a70466ed45b74a11158ce9bf53fefaa9d8317cf55e529d67e1d31daec0f9ba622ee7097a929e7383abe0d4725c06c47f),
  (0x5fd94dd82877ea2c5606f71b51d6b210d5146b12b6372d771b247a5b7682569831ca356e12048439ba8905cafe4bd417b224dcbe41cb85707e943b1712ed7d3, 0x858693ad02c532c3c3a6700788333feb9eed177f3bd733ee0ecc0fde48a00698cc69ce4d74c25b4c4f2022112f5c22c4cf85121660199ee72bad7fb61df50d7),
  (0x36e3ea016fbe75f509e1d3e5020ce3e8777824f899750e02eb96d3812199638ac26391a510a30f7b31690cb8665e7cc35aa3c409acbb3fc01a26bd9baae6b7d8, 0xecf5eabb2915b608859f2d42941711cb1d1859565423dc6c0126861e8bba3c0405995d3aa0031be87af9960057c61b89ba9db7dba9d06950f32f473e2589e60),
  (0x52135e630b1c461921c1c3cb998736e778758894b77df4476a6bba4427d4484307dbf02942ac096beb912c30a8a2107afcb5bc34d2ac2a19294a2472985a0375, 0x4d8c4e9090f5dc1dcf3b021a75180c06b4e0ca431043e4db4b753e2afa5bdd49884c99f748820ed966e4860b25764736c4d862df77dddf4e0c0ce8f8bda4425a),
  (0x4808a81b56ef849a92385f6222abed1c5e5009231331c5d753d9d56526c9bbadf9d67d801687692d9cbba3aee9cb0c6f1073521b02781842d4860944d6f63f46, 0x30ec5c7858441af8fbad7d4b6b97f5470a8613d44660fa01736368dca33791f38715693fbc131bfeb3e77527180dc7a37d0fe1cde7feaabc8f650abe3c07ba92),
  (0x10a8f7ed39ea9e6cd899daac54953309b0b334e14316f8fc0f04d33a38603f3e6bc26c6d323705c1c55c981c6882a439ff31bcc36814612f3ef5db05a5396028, 0x198696e621f5144533a2c7a5ce837f3ff975d813036003941e970c69208497638ad25a87e6bd8a8f628026eeef46bcfa00c9173f21f75fb64b45b3c24b8111a7),
  (0x77172b564ec38068e155481526686610f390a99307cdcfd1c35bc52e6f894360625fa92ae6258077bab938c2520c13c72321a60a2145b91d61c51ba72299eef3, 0x59ffc67c308b72bcaa1a76b719c41306b691ebb542f52b842ff6e9e2f9f4cba9def13aecb61a1a8030ab5f8cd1e106d27167c8822c912604a2740ab712bd6726),
  (0x2168c6c0abc2b2d423bb217a09a689eaaa51d94853c9e73af3cb26adcf0625307b844105531bcc18b1898ec1bc4a2213b16f3722a78b634a7ab1bf0b6d5f550c, 0x1b2b9a649d2a541799ac4e3bb550dbc4b54510155212703fab2a0e4416ebde1d42d79268eee546ceccfb6f1019dfada77c475971f3b13edb3d206dd32138010f),
  (0x1f19b161e1dd879afd723fcf85610d142017261a0bb53445abd1b825f36e141e2190374f177f28885c34dc7ced9b9497780122751ca0ca8439c32e29ff4a88c1, 0x6372043527fa29ee4c215908bd76d2a024a463ce9e69722d10d811a8b57de556c31f2fe510c7aa3addc742404a1912149ce6ea87671f5bac2ff416c9f5eba157),
  (0x3e90ac43bf588f9b487b0621786c3f3ff4bcd8c08b6f5c6e606885e27c3a33ce64c0cc76145204edbd0d904eb1ebd79ec09bbb61fce51b42be3472a08ddd19d5, 0x7f0a89105e5e89e8a2640bde39bf648968cf11838216f94ce3e9fa659c6110576e715a7daeae02473e2594d516e4e01ae40f51c6e0d1b5b5acb8f4cad5be1b4c),
  (0x12c3d8ab9dbcfdcf4f49769c400f6fd954f40507b6be0e0c7713a248a4ce4237075725c2d70d243ec330364864c4a0058800f492f707fb35a376eddd834ef424, 0x60abe8d764865999af3dbba8b62a899d16bdd9df1962fe64fdb8b573275af438808bc876083f1ec10964c3edd1079fb77a70f86d7224266218426cc3b50e95f9),
  (0x35f9a3e76527984fe24381b80cc45625688955b225644a577f9f48b3074a03165d744470be620a7cc3313deb6dc231123d9282dc71d8495e8a632833fd7cb7e5, 0x7594bb7682097f9838821bb2c4c0fda72850482929ac67d95d717c6ee93dd9ada871553b1cc3be1114b34f19f1bf5064a3de9507dd866fafc32ceaa0b612640d),
  (0x2605a14e5a40aa4e128bd30cf1552c9be5a1f0efeb39d7219e2431d47bf680984de540d3fdd77baf6e021a1fcb6fb343e175ec32eb692df378e0572aae2c2096, 0x395cfed37afe13cd053111a7fd19f8b7a45ed39bcff1fe7dc827f098f16f2518dbf152ffff0300867248b05ab01bfa42478ea0b13d7c79abea7ae124e560bfc4),
  (0x1e419c90162cd3ac068f4cc15ff6281fc5e6ba5bd5c5a3d764e30940b184feb8526f7612380e824f894d86fcc94cdeafc2618d916a6b8b5cea4499404e617bb6, 0x4eac102024f9d2c9aa719204944d55c2a9aacd20009438dafeff523603cc2d7036135ddc64672e70191d93e6287260a4464e2051a9b4b6fcc05e8da5e6ebc6bc),
  (0x73925939f073e5e2dee1cce4f16ffb4e5d1e8729db32c01424f3832af02fad01512237f99b294c9e1252c5800897ffe18cccb51baccda7ebd62bec372cb1f00a, 0x5e35dbf873fcac2ea9d67dbfa5f94fc761b8a2d6410bc8d435eac6d7a6a2e1146e57d4efbc2ab54f7f6bdd806a88ebf75a2aef5040ba7f030351083242be9022),
  (0x212ffde361b58d37b549ad728a3afcd65c94e61be6480c4021f434318eef15436246d9c2d5c81645244fff6f050dd76e8196d290af38e54201a6c886c25ff5ac, 0x2c41cc040d15011b051ceb7a7662ce13612c8505c1bd793438330db543540abead628af5b7e2a641f81899f5b0c1ac9bd26962c2951eeb1f09a3ac0a6956010c),
  (0xb1c601ae16dfc6307f279d0f5fce939f619f2e20f7909dcd1294f586c1584971a80b01dd99ada490ab88d59ab0b362623d88b7dc80de90284afda87031f5dd2, 0x154232bf211f3efbca1c9b36912bb79d9e9af8a4c60e87e924d67df67e5276729aa51d4ad263053e158f547e399543e246f9866e5a99e172f9c8fec87a6578fc),
  (0x32c52e7d0e5b1e1c6501da5d5352827aa3a13c45c04e9d46ac6579a7ef34d634f76c4fd7d95d5c2cd9569177151f330258767414a2cdd4414dfef62b66dc2152, 0x4e211501d25cbaa5daa3206f3539e39c0e2b770912177b7cf671ec4b53691157189d0a059fff87fb00e428f703a5fd1620933317807878e39257fd9e2e6e7e90)]

theorem chain_ok : chainB (wDblB ec_tc26_512_paramSetB.p ec_tc26_512_paramSetB.a) ec_tc26_512_paramSetB.x ec_tc26_512_paramSetB.y chain = true := by decide +kernel

end Gost.EcpChain_tc26_512_paramSetB
