import Verif.Lemmas.EcpTable
import Verif.Model.EcParams

/-!
# Doublings of the base point of the curve `ec_CryptoPro_B`

Generated by `tools/mkfiat.py`.
-/

namespace Gost.EcpChain_CryptoPro_B

open Fiat

set_option maxRecDepth 1000000

def chain : List (Nat × Nat) := [
  (0x8000000000000000000000000000000000000000000000000000000000000c97, 0x4057edbca606997f47c2e3c14d3f8f1a3aba367a72fc13048bb40728e88e8d9d),
  (0x5fa13ecfadd7ae00c2e65d0ac6cac1deda6d60e577afe90915671b08bbb9065e, 0x1b3c2859166129ac6dafee570ab9d40d33fdc25c7253c72f4e3fa77223ab016a),
  (0x6f470adc8355548eb868b66cfb93e3182a65eb09924251906f28efd3822775ec, 0x52eb643188423e854e9eb91b7f0466b05b0c4f4af0f8125fbc9956ecbea6e2ee),
  (0x3117c9545dabcdef7da9c70491d949993c124a7da84a3f45cd0ad7ec13a240a7, 0x57f55250c7e1d4c0849f4d00085c14f4a4c0ca6399046d06b2c2d00a64584190),
  (0x41f06870549f87061d0ea03317f2bff196594746ec2e3076eaea4e8b61c1fda8, 0x22ac4ceff7b8f9689ad2507b8544fecc016966b3a68e57d74c866b2dbd0815b5),
  (0x2e1f738508845b61a3ce2ec2e0d056d3ee13a7c05506c5b1abb7982161aa7f15, 0x503e657cbe5b99dbba3e56c9e079ad88abee37758d0bf01508bf750315bda7d4),
  (0x2654a3700097f9c4df7edc2d25bfc0f5a584bbdc9c70988fdce03a030abcb594, 0x2ecd5964486c249e2c6a8a28f9b8f31b519a3fb573a9a40cdacdeb205f4a6139),
  (0xfdfe3a0820fac00d0bb921feca0ea265d4a9e87fca02b450f0a939a910b239, 0x1a3b34813bc71ee09bcd98c25962fa783f104a76e2d723cc3137def1d802b57f),
  (0x2efb7fa31bb52bc3be441487c4d0c896f4d23ccc28614602b208bf51ce7709de, 0x38b3d6723dd6b9b68ac7520d35d4272e82ac517ee510f577ce0d70c85a4412e7),
  (0x4dacb998447e083516151a8928b6b9d218f00888cb564a7f81618f9a401010d6, 0x6e892a5ca3d65cd224f4a33bd6915b444f43131e2aeaed78248d2daac87655d9),
  (0x7f31f6407436f88f266fe1badb55dece94b4d81e7901eb91812c0cfa6e6f44a, 0x2afa7b85780f678398fe4f87c192acc5df8fa398a7a944d20783cba89a6f7f1f),
  (0x1b94f1bdc1180b8df91fef03b1e8dcc73662c5d3e0eab0e87a23ccaca77df4c0, 0x655e2b7d41af9834f944bf240b6cd903acd356a6248ce72481636f0f2efb9b3d),
  (0x59479fff68a0f9033af721addbb33cf052e4e335fb7b0e8b81db7c4fb5e0c8de, 0x6d5af10c188a4049b806665e4454dc765f1c30778909fafca746bb367e22d669),
  (0x50a333a788d659859f18b8e6f5c533894553580edacfd194e6c5901c92624b60, 0x7eda303ca57945db944a6ad66c1e18019c620e9115347f237b26a3df109efa5d),
  (0x68b840b25e3f301b67a2b4f05ce5e45e203ae7850737b6b55bcc27b1cd233802, 0x5be2f82cbfe4d386d1fb096d2a744f3f14226df0837dfe685453816913e1677c),
  (0x4b79319a85453138a6a3d2d136e1edb618bb12eeede88b6f398678b02d4460ab, 0x528503c035d5fcc6c83b6402e7a8caed7aff93aae30204e9d93c13d55de37c7e),
  (0x73d217fe58533bb2907ae17b5e364ec4037cfa755be17df38f3421a5f4648c69, 0x3de328467fd57e410f523eae4699bbccfb3e880b692ce936e25e2d5aabdd8d04),
  (0x3a1b16f23b5406091687e164af9ebe46d7cef450f101da5b6d90042a1406128c, 0x45bb33858352c74d917c3e7f35ff46efce39f3032bc82929f8169ec9da263b1b),
  (0x3c81f9ee6bfa8cbc3bcb4620a0d5a5304cc81cfcc7cd3be03e3862e3b54e451, 0x3b34eebab54ac0c72e087d47dc6cd38695d1485b8d888609940e85ceb34bd025),
  (0x43f44e01dfaa624c08bd0afcdaded45e9bac5c6e6c20c3ffdcf03fafbcab3519, 0x7af4a65fae5310a13ce639d3ad7fb7124193d8b1a3e220afa14a773b6226e4a6),
  (0x68cc70122e74a8f1de761b944333bf2b9fa572ab74e329538c21e64a5fecae89, 0x44e4a43100764521890dac152184fe35c488006abcc1e68a920d6645b71b51a4),
  (0x3093307c9109e4b60bd901d3e3bbf103180e8ec4f43e11da6de3b44fc56b2031, 0x4bb025eda2c18cbcfec209e6144415b6af2777613dc2329a1a4dc094abf86a4b),
  (0x203ee5ba7d674644a3182a0d7626cf9787c958f300ce4fbeaff893804c82c35d, 0x5245bf370f445cc284ae534e34e7fd0287169f4fb48cac84705114f23fc55587),
  (0x7894e5a319e0bcdb56b3ce095a2f28a233a92a4e5dd72eb17755377f79a726d2, 0x5c4a8882a70c3d9db347c6ccf32b223ba20628a08aabaec79ce3b7f454e503c1),
  (0x6d43ccc02ced7940af27c6f955b5802dc17bd4d8e54af5219d2f372c101f56f4, 0x5021031ebfda03c28b7771695d0210bcd7874081a2d24fb1592cedadb339b075),
  (0x49177005889d009b3beeb1aa3198372ecff31eb02f1c005a80bc814a01709dac, 0x2a6c03b6d2f26ea6fe9051fe1e6a2e0b186eab22ef757d729ad64d3110e99beb),
  (0xf4b79d97015cdd514f45eee29d34aef1f3b78d68c4d2adc32648fd6f081db19, 0x43db6d7e7e488bc863f43452b4a7a3e9d1fd0ce5996ff5d82f7d6dbad810cb7a),
  (0x6e467ad1447c3e197300edccd2146696323ea7a6b256724c7c6debcd6132f753, 0x5f0cec538f213ffbbeb57acff7a494e41360f3e9b6eead36e978b90749b015b7),
  (0x181f2175be655648618ffa597f5e90a776b2a2b83dd22d2899f42767d2a44561, 0x5a9a4619e9b75e7a419acb29a8672a25c18ea468c5ea417b2de970c67d38b0af),
  (0x3e5cfc972880f1079475f78bd627c12c214ae37159ecf581898d7a09ead78fa5, 0x32436de8eba20dab11d58a323e686b37e96d5a73b24812d6b0b6d2366239fd93),
  (0x4215de7373a0d06276577923234a173a216b972a1fae0f6e15139dcb2e7699e2, 0x7dcafcd1de005b3608343dff181e600d9732ef6c7a714996694b3a2dea50565d),
  (0x5593b05466b87c50f462a972cfa846bd6b43e2afdb642058d7ad8a93a8420e5d, 0x16d826928c7593d6f18ddd2991acbe4326b1c70478b8ab177fb7a4c4e6e0230e),
  (0x678e42a93a6a790a59085a657ee5f940bf4685f953877c50cfac2225d47951c5, 0x6dc2d8b0cfc304586e278d4d3ed48dbe827bf08fa00d6b93bb5250e56e54aaed),
  (0x26531076f7cbbf2a2c95711e372d6a958693a90a6d5cc7d4db51f3ab846efbae, 0x6b9a8b1db8906606d9874c726da1524705ee48dc9b80c28d1ec2da76fe1c1ef1),
  (0x63d68afc84be409b8aa40f6ba77b76b1f420182ced919d58e2bcd23f19fa6a29, 0x4dbed9c03dafbf5393488518b1876d17c1236833d50ed8ba03d3047726ce54cb),
  (0x5bc948da87f628e0948392692b8d06f714a52a60f2f868d952d566871c0dae31, 0x38c0c533b3c7cf713d248fe40c1ad66b67fc48fcd2b1e01be0e156e8e0075fe2),
  (0x642e6b94ff50e26ac7c3b0310c51575709df3405b5cafd1bf275f7ddedb69ddf, 0xf81fcae811b7b470015f9a76c8a5346d97f6c9acd557f5b75c2bb9add983795),
  (0x9a69d59d315946653a13d434f56bcee6232272a6b59227267d8ed38559deb81, 0x74a698950c1186b107bd98d583f5b7e535315d35f1eae370c9d449bb104757d0),
  (0x44e740f3174d1d9578a1c17eb2303232228ab8d769fe1f69cdf3869085e1d06e, 0x7889a4ff585a9d706581294b88099cc1d230db1c85c266a7dd20099ad186dbc8),
  (0x77e4a0156b14d68ce4d6928c20dcc14cdbee4c4e0c982e930ea0245b094ee89b, 0x8d52dd7f695e823fb36a142764b74072c451e972822ac9959187ac8d66c9acb),
  (0x7f0e98fc52c530c96012e89b94e7933001edc8f9e46287e0a655b42c745f9ab0, 0x70dc65290bb2c60564095434233b1e3e68d8785907a1bcb13b994ef3d3908bc4),
  (0x4fb152dfb2d5f8896cf2de3c2734f9305ac93ca8769b624aa8c5c31ab14e32cf, 0x69709e69f68b4c8d08c19c4fa3bfa8f62773c4d9464d88798c0de4a4284c297a),
  (0x3a35690f0e4b1db406f8f551170ce590baebb310454976d1102fa9d39ba873d1, 0x9139a9c68818d2255145dfb593235b4352ad11430ed6768bfd4c333fdf3b55b),
  (0x7e0ed661ad66c5ab96f676dca5d441d3e2d655caab8ae875f891f490c891a638, 0x77cbc9bcb78bbec2012bdaa229690f544cca4e19e50d071ebd50633616bde856),
  (0x295ab2e3ad847acce858abbaba1139038c787c5fe94fd451b8aa21656537db39, 0x437ede2f07b60319ef0b931567c18cf874fac409cd22783dae343adb2c06820f),
  (0x48cf62f6209616d2d2cc34801f57166ad2ef099111bca6a5eb775a729cd2578f, 0x564b08c21315369244cdb613c5e0b7a56d0d746858259835d06c8f88a91d29f7),
  (0x122fb5dd0147c8c5f95cccd4c00bb69537d47d7810f8938de7132512f270e498, 0x2385ef61fbbd277df3c27a553e8c0255383b76dd60beeffaead6707c71d9222c),
  (0x40a579024046945848fc8adafd6d3d0a48c8650ab666d3db3fdf3b8532585a6d, 0x79e16a3db978c6de2471d7243eca7e9b0422499d7a7779fcf44bef59e978eb39),
  (0x6dd885dc69ac1bc76510c52bd8c5c441fec3d925e9b82bd2a9efe2b8595f7b8e, 0x34e19ca90e47040191fab7b29e22429e23a9de2dd797c202434f0476f7550dd2),
  (0x3d756b6b4ad71b1b8c56770acc0149779e582a72267a52ff711f92742284bab9, 0x7bbe736667cf91364c915ad0c56fbd813c6fec66f23ec26d8940f29f71612757),
  (0x4bc9c2a566081856f9916bd59c096d8591ccde2ff35de6c37aa4ec63ffa6eeb0, 0x214c2a534029b12545c9345b26aa5a806dbcf87e6133427e47ca3974de84026c),
  (0x5575c03f8d46eb4016bd744138097fe929db85da07be39947427ef5ad3039274, 0x5ff72ceb029cd7e1bd314ac45c6ab07e345d0fde9d0011472af2c87f198aab46),
  (0x526103d094cd52deb5aeb84e0fb27c93fbfec7813c277100632a7f2721ff7ba3, 0x138d2a32f2b8ea8cb27b7773d64b91655b250e2b989c3e58167f996cf27e4c2e),
  (0x5637321b83f34f672c2b285b9c816ea2fb9c0c34dfcede228530b23bf567715c, 0x6d7d6dd7d8344e57621273088d65faf7839d59a9970d0f4c7c657be8ac284839),
  (0x75293f73d32ac40dd0237af521b0d5d95779e263cd4cf772f9e37c55f7e478d8, 0x6344c7e2c5f7c549c8782a2551a017d59411cb3e23bf1984a3762ba5b48368e6),
  (0x32960389529c71ccfd9160e3841f2acfecb13a3077521cbf4843bc369c14ed16, 0x201544764466eabcfe071f8d68a7ec909721418e1c3aa56493e582cec4de41b),
  (0x4f9af0334c9f35a7c7e7b9e5fdb1f9601c71aabe6569535ca5a39889ed883a26, 0x2bbe5aba840749faa33d2d73ac0c43441e4202a6975e513d5f6ed309a2b7d244),
  (0x73131c4b01056e4628112e1e60f24a1489c3c4776e47db81822a52b82ab35f95, 0x6b4e8415bef6bb4a5967e0d364f93ebeb4ddbfab0bc2a063f756cb72ef0bb5ab),
  (0x57ccde3f32258b38746297fb4518d5dd501705c89fdf0752eccff6c1f7b10e12, 0x50e341cdf1dbdbaa56fb9a83118e4286e4ba7f51c2dcf5d0bea6300d48a2ac21),
  (0x64c68935611cd96e20fb43e81a95a164aeec7305b9e5d8fd6905264686199890, 0x66af97f62b92e24c82c33e937c628d1f1e75fdd4cc18822d958d8481036643bb),
  (0x2190ae203bbf4c790de6ca281a1c79156d1acf90fda03264a995b97766fe0ef2, 0x549ff90461ed9a5d7bebf26672c2e55b6a39b413b825b82aad21cca97415b91b),
  (0x37fc8525e48feb10a6c93fbcca9b1703fcfd5b5c26bfab10a5fe4f64783df45e, 0x2e557c72b0422037e14b0c0eaa6ab19586f71cabe4644af4d82d1ebe2793c3ee),
  (0x78131e53d5064e22d7398407107cf5656c589228e802bc8d77cee25372fcc327, 0x7f6000d34815af76d59aa76da0954e24d1b6d881bb460f52ec2104ae2da8fe5d),
  (0x6272a944e3311d74bb10e13aa4ce1300bf23cc27436b46801586d19c5c166aa1, 0x51380aa09359b162e6e30fded132b9777e0152bcb33c7c928741ec594fff9084),
  (0x38d42d3aa86360a580a5ec6e28b6f359689ee2423a4c6fd98ad80eaf3722940a, 0x36dabf2f0506669d436d2cc73c456b4fcaa4037bd027d8161921923d0e18f972),
  (0x326ae7783c9bd2c61b9eb04007a534461e2c329ed4ae35a49cfe3f07ec6eb0a0, 0x54dfa5f5ec8771c80d2cdce3385cb1930729931c085537441a2a7750d2bb642e),
  (0x425f3982316214cf25efda5c6beec1e22370ae321c4222ededbc2ab763bfe79e, 0x70907ad55e24ae9b81c9646fc06f7819556838080ce12ad91efec0624441c632),
  (0x22a26688b11b86a95e815405d8a3535b01e4fbb2d82b4213614fe746a183849a, 0x55d5fdf6512197e0e24349df7197a89a4f31abf58b65ad3cd80830796a0c2997),
  (0xaa58ee31c11d49be0943d91a1f6137be6b14134a62d263004429161440b87b5, 0x5ee31fb6b587bfc43a8a246a538d035d263aec78818469fc065225718975d34f),
  (0xd033a37f98d3a3a8f3e06138e5ab7b570aa71aab7bc38616dc90e8a210051e3, 0x3c50ac8ecac9857d680ba9d41fe4b56f5f57ebb1999829a66083c6e7a742cb69),
  (0x47db250d4e2f7a147ccc6a7db807e0456215580479b038c5bf662cae3ba749c, 0x691e5219c167299e17025c2b2b12d68d7a9ab346c7b77779635670265d6d7c36),
  (0x6dccbdcdd0d7611cc9f4650c622b7c0cde809f72f3b0c359a8619cd2270e5ab0, 0x304ac7b5a84b1eff97c4aa5142d3f8ec0144260d71d3454eeb158362441a2716),
  (0x3347bc04f2a3bf93a73cf7679faf88069b0f499cb87a53a750bf51ef4d947d80, 0xb34aabbe25b8e3e45a7b1df54c380d3d2cd38d5c6640ea718d960842427eae5),
  (0x352665be00ba9877d1bd3510e4feda20af64a3b92d653977f80ebc4c526ae095, 0x5a40203ea0196baa1ecf452cf00cfecfea3ecc4f35dcdded64787743848389b4),
  (0x9f538d8b20044d57f7d2f59512d7acf74fa992c050e94c4e63f56b7ee4e6761, 0xcf8c2b13b982e2f1db76a8f9d6d9460a157ff0d4d99c807499573c734f803fd),
  (0x38c4ae87d6299d02c286efd5854c851e73b625a8a416305f535beaa995d4e2b0, 0x67ccd969b132f6a02cd2bec3b8b55439fb2ed0e1ad4a485c74e381c382a83ae0),
  (0x54b688a6c730017323f398a30d1ee7173d3d62dc37eb8486742a1eff8c0de6bd, 0x214389e6bd6eb103f5fa9f4091c1c1f8cec2bfcadb123d5197d39d3207e4d85a),
  (0x18dbfd95ee96f25c23aeadb400801e4aa1c03c7e3761919abec72a719bbf783c, 0x29d96bcf11ba268ef04a44f1f76ebbd610700f8d172e90b71f6e8bcafca3fe92),
  (0xaaacc7ae983cec25cbb991b7265f8e41f05547ecd96095abddcb42fb6402ec9, 0x4f43f300cc51e24f6e9b892aaae016ae492c8c762901ffad8ca19ed435733607),
  (0x7a0a20a3d37d48857a44af23cb5d83517c413d5fc28d504aa9c2da45958fcb32, 0x5739dbaee7f7e022fd048268937e85dd35019b7488856ecab9cda5fe0fd911d4),
  (0x7bff60c709aacfdb15e88f9c12b49c7dc8670af0aa716d2730214b0ff25b7f59, 0x9948cf6051f5574d42e8762ba74d61fc9996a75a589937bed6b4b88ab713941),
  (0x11c40438c9ada39176e88476a10ecb96f43755edfb43ef50afbb5f15e55fbfea, 0x1e48da5c742f32ede7569b079c8a05e322412f80a6af6af29999f8a0edf17dcc),
  (0x54e4e4bf8aee913f2cecafb8505661c78a191474160efefe394d60ce952695c, 0x3778714b04fac43e26305d3f47db41894854ef7f159402603a0826d58e04c1a9),
  (0x7a0177a0e60f87c1e511f5f00c73373ba07e0c78f0bf31079231889c7b4eed4f, 0x330ad45c5e0bff1947687c30402cddb5fbdd9ff36dba5d60db7bafb759f671dc),
  (0x45ab3655fdd576720c5fc78c08459c0daa40c952358b3452d37c48d6f4b36771, 0x63dfa0ea3f868e3c40844eedf8f02bc9b3ef68ca0ce50479924fd8286047fa4f),
  (0x354e128bb9166be8540f04e43b9e337aa86112fe6653dd26fd0c3ba3a09b90e1, 0x7e320be58ee0a4ac82a888aa92bb7d89030f93fa1e64adec5fbf36a409117337),
  (0x599bd22aebb30e688e532c4e90cc28032f45692051dbc47c049ff0ceec0fb222, 0x2e5a04dfd174c46079b537ba835b15364bd15879e00ee551843857708677db69),
  (0x193fbfbbc4a838bcedfa57051d65e3f5839d2ef7ce0840d1ef61d3f1c0356ef6, 0x5ff5598c2bc366195b862d0f69b49b182bbf59834654581bcbbbee12102b92e0),
  (0x4a5fec4eb485bc3c7e03e14007b701f8ebfb2c54e3343611560eee6f9e5b038a, 0x1d08c7900305d76835bc291611af1e41be05d421b443871f5edef08e6aa42c39),
  (0x2267e32b6546abb0c1265548ca1d36cc93ea2e8ff2819185f5f6156c96f18a7a, 0x211a46525632fdc92c9cb226b1470f1542974a840a021124ebc6414b9c4d77a7),
  (0x1bddcdf42af097841ba618a611c137ce1f4de7dccffa42f8450b2c5a7b9d1fa7, 0x358a65993124a7babb61d477b0792f63ed3fb4125944d4e0f13f0b41836aaa51),
  (0x53438b17bda19cfefa662a4dfc9d73c09afd66e6b09261a063f9481c8fd88a96, 0xe8d7f562e08c68d933968e1345a726167136c047877eccecf161b2feac79369),
  (0x7f1f86f6eab16c8726a0dcd113e11d10de0fb8fe26570b5d664dc70b7cf077e2, 0x6d6d86ad37e438a1c6635b4b55505bc0d32218fd7eeb1a87e4d2e30927ea54cf),
  (0x1445101c90d9da339f09d71d6326636250fcf4217949c759009712cafbd6ea7b, 0x581a6156e55ed84f0dcc87b813dea91a604f90b1a38c0425f563943ac0404f8d),
  (0x68e6c6678f7a09bef2b6f9198b498a9cef3523a555998c8634d3e4765fda6193, 0x1add0b528ec7d1cb0862b81afccf945bc69b1419191730d4d18a1bb6798d5815),
  (0xfd508ee4ca434745229c99a39470e362d347e6f44bb206194ce84c78d33c3c1, 0x49936a293b3a9bcc7019f7285ba5c74e705fbb1a61c64bebfe038cd13984dea5),
  (0x37e5c29be541ed760cc0637c7f1990dd690d68a30386bb86622486ba13e2f690, 0x3c965d9e5affb8ba9882039d79aee4d491c6f450a7ff07ff778bf3be13e33a76),
  (0x675ea05b76bc94b89d8e2d558fa824a13ed3bbde8bf33977ca5757a72978a18b, 0x230c3ae70b95b069d0f10200a49048ddd97bb86867da62952a701a8b57d30f7b),
  (0x1bf7cb2222a14658d64b51415c7807f837b97c14817d9bb6108f191c57e590ee, 0x18bbb4fb61b5af54ea20f1fedb867f60074aeed9c9e76937abed9f3f643a5ed4),
  (0xa3b8c21c3f2122a35e3b1809a52239ade16a7858d3972ff00db784332717d06, 0x511c41d83f16b135d891f1aa04b9589f148dd4e9578f03f0807a49ff87c64bfa),
  (0x7a7315ce371e41ecebcc5d71e8518d9a5dbfacc806f8a9b9fd550210a541b60b, 0x654b7390c42e3f6ac0b051d925513b37d96b9c220eabb89f277305f692c6c319),
  (0x4f1dfc2b4e0a81a99d8d909c90766372df061f1f97093aac95f6cd8d5254c650, 0x25cc49f83afdbd6a75027e37174ab9de7c096d93f9a45b43814bb59d2955011c),
  (0x1f0a342f175f8e06f9c25b412ad8230c6448561e3df611156d011d5e6dd13015, 0x6289439b2bdb109a5aae07c676fc83ff0f38886812f0eaafcd9cca509034599e),
  (0x66f9eebdc8d7eb340f7c1593bcca84112c573790c1efc1e0160adf0b45252654, 0x3a7cd0b4425d7aa76475e0e61d0006e73c77bccf456910631a1781cb14f1e92a),
  (0x714da9d09e43fed5128b8df97ea3c85d4ff8b875efb8b3c170e37d4fb3dab99a, 0x2fb0b70c009bea17371d6cba89e38757277f502f655522a7177776bec35a5811),
  (0x1998ca017f97c478cfea7a3c4a187cf70ee7cf70d5e79abf95ecb9d17be12e98, 0x3cf4957ecf91f7b978855d2ab834f895e78f8a76349f17cdf07aca8bc4353b3d),
  (0x33129c308c86a72fcdd1b51cacaa8cb12e4f035b9aa737c8e6f8286e2877a10, 0x37d2e94ca5d135ca70be65730e7e94f5a8bbb8ab9b898c68dca0df3ddb604198),
  (0x702832fb57d8f729289d8cfabc7e76c8358b936e34fc55cb6cf2d6eb6b4a0ca5, 0x7eac4caaf9a781c0877a754afc7696f19d507a12431c0ca2f0b9df0d353510ae),
  (0x44aa30fd11909848da600c04286c2cae407be99317845f8537ed9e2e780d2cfa, 0x5c65546c45a92706d3bf322ccd0484aaafc82fe4b952b583502c8f9cb47e31cf),
  (0x350a6782e572d2cc011c24ffc438eca40b95995ad155855d899c2baf7da7fbd, 0x25c8ec20d5a1b2b6dc301429c9d11dd6aa21c427f17e6f9feca0310fd103f0f9),
  (0x2e53ac8d050a3f7405bc23f21bebd9f1ea4b1450bdcbe30bcf22e9ed319b79fe, 0x1fba07a00a7b6be6eaa8717366c6f7e0acdb269ec1f2e47eaa53afc96a026990),
  (0x499541d52ae1aac86113e570bb095ec9e014c68c4116b2abee8b80477ce0da31, 0x13029ecf94a1b42e92ba0e266077f81856444c2961ca358e765d8ae4293bd50f),
  (0x686129c6639afed2490d4475540a41da3b99b27ca18b4622b1b345fac01cc2ba, 0x74bc393922cbb8b7ba293b509a55f19c13396fe9886d3de436bcc7fc7fabcb53),
  (0x599764ba665cc6ff75f55669179115df72920f0e4cfe596c453c79b06d12500a, 0x4adeb027eb0b66a088568e6d8d4ac56a25e1d9bfe3a8a00d0278a81272027b62),
  (0x2bbecf530665773c68351659a4740a88ad397ae23d4b1f6885952d88b9de22ab, 0x3658480ff5855c86f9096a7037d22cc90134221eb772cfc59303cb7750b158),
  (0x2a4b2f9ea8faba0c1214a67d08a2661f3eb44113a074f05adaee5900918aa6dd, 0x15c751d452a117f5660a10d446877f0cd25027eb891f00e25456582a054037af),
  (0x2f824ae3f3c3321991a67228fcbe0f1bb9a35779d49d67a96f628a72d58f9694, 0x9e1c2ed88b4d2077c0a02cbccf14822f7d059ece0bfec311918a7f968ab0251),
  (0x3aee349086c325ff27107995bca6976f474922ef98878937bebf362ade354079, 0x2148c85e8b09b09d929c22a65f365ab01a06145fde500b2a87937dad414aad91),
  (0x48654116e1c3a03a5e3c4c8b5de50d8aea67b52802d5ca2953e516a251e56f0c, 0x7ee41fbb519fea453a3d1b9291fff48cd68a6d5b745a2e9291be0b78cc102a72),
  (0x76a2f4ba8895a2f675a8f68f3095415a0b784c0a9a71b17df0592d6cd0f6f79f, 0x6a500e8d1590a43ae6ebf4ccf41d2047e2306cc5afae5a4dbd50e925f158e084),
  (0xfe24a0e24bd57c5b762ae240b38198c5f1a6128b757025b01501ecfa947a1d6, 0x6cb8fff6baaa7f8682612da6af9e24b18afca1cdee88ebe4f2db89ac6fa282d1),
  (0x6b68cdedef1a60d77dc380562843782b9065421780d0b79a165dc0176c53a491, 0x10135509d5effcb2785ba0e43cf2cc8ce40f1906a3e4ea8a6024dd02738137d6),
  (0x5854c12709e6822bb920e85ec055f2980abff5f083a4ff4c00b3292d4b187a72, 0x6feb6fc0093e920f08ba386ad0ffb92c7586d70006390dc8de6163a4afb98787),
  (0x45f98ceb686b4846b31e3189cc0bea5bb27a5330339da67cdcb524573f86726, 0x591b0e4735cbf107573aa7e5225e5a1ea5c2e51efea74d1dcdaa7ec75ceadd06),
  (0x1393f61a6fe6a27e4fc11d9f6b77fcd8e600f78207201f5c93bcf5ea24f9fc31, 0xb405f5a351b0a7ef0b93dd6286141f63bce80f97de4b217fe87a0ef8e9a898c),
  (0x376d389c1093ce10d9db3aa2cd9895628c6f746ec8ca9869c17b034fbd5eef01, 0x241d5a78683d52634725e8ab220062047dffca5778ae476e15d0fcb354ce3d01),
  (0x57da31b0e7561afde908a213dfde7566f3094f19cd33de53a46d454139f4078f, 0x63e1af797bc2290d78eed4afe7d7bcbef733ac98e5adfc8c71bc6b35aaacc4d8),
  (0x6cb3c4cac2fbc7d1abfaab74424e72967d9b2559b1d61714de2c79e21d2d4365, 0x42506f04be51b31bfe6ff322187011348e6b9bde1798947d9178ced0fb9ca66c),
  (0x2235ef770bb6a5ceed17fedcd9e7a3e14fd8e9190e5595f281cdcc703c751c62, 0x560d0410938a0fdb3c3f9fbd8543537620cb48e59bca166013c40bab8ff6120b),
  (0x397db1337f22df3298ed5944f73fb5f412e036345118ff14a5a425b031917101, 0xa9586b312c783541d22c9f1f0dbb56339f7f029ce9545b24b689ff28d7b32d3),
  (0x4b48535c5f4e3c175828b54b2aa70264b88fa26429dca7907fb3ea4b736cc6f2, 0x554d7dac82a3211a47ff5ab810d549de44f77ee55cb0e90d554f6ac181f11121),
  (0x5138bd44b605171866909c0ad42a55b617d45532fbf761e4ffa890f0f935774e, 0x5f690046fe0aea699fe66c61478879a3d96f84a52c2bbad3359d27bafe98c5e5),
  (0x18659cb79a5a1b64b4d936ee5ab3c3e3047c4fb074e4f121d90920a942f35a64, 0x7cb58641221cc69b3347ccb448ebee5368ead9fc31980eb14b688756716c0e9c),
  (0x3d96a8aae1be2dbf1a2516437f4de8fdfb7f0fd82bd866ffed2a61d6bf69f3c, 0x2dee79fff66b1253d4e132cd6dde4fc66cdbf363c563aa6f7b166307750889cf),
  (0x5e0ddf43ff30017b6b886c59cb97c37ed693d2afce7280f347e5012009827a0, 0x350471097fb1db3f33526b9a48c58bd4025172d3361bc8daa8eff07bdc62b3b9),
  (0x35336e28fb671125f16bc7e7ad30915ecaa06171925ff2fffdd28b466521b4fd, 0x54c82fd077b8a8c963d5222661d317973417a648928a6e743592a373bcdabbee),
  (0x1bf40a052ab53ae9ecad926e8c68358103838a22ffbc85a1fe2ed898aad41270, 0x3293036da866c03d3e3c8684022863e1edadfdf99254bfb41c16c31196595387),
  (0x4d9c290ec24bb2d8ba68d4a9c14a432cc53a1fffaf3ae628ff56653b638976cd, 0x4473553efd48f06c8f7861df7635d37722329ffff06faae1a2508aa33a31f9f6),
  (0x79abbf5eaec90038d7a6fbe810c73ca1ddb4e7c8a70c6ad62ef8da644385549b, 0x43110cc4aa22021e67226212f5bd99ce8b3805d147e46f1cb1347098e5cc236),
  (0x419281435287d966e47ce77692d2413b02c282260574b2616f3d4471651557de, 0x1c1d4b2543b380dfc19c1150c3d1a0d30f470a1b7e46f83d301875f8d04e002d),
  (0x63f00d777ee4c406e9ba273686edfde8598d3d37eacf427d8b12a8fac24080ff, 0x783578023ac989c1aed522bdbd6366596531aa00c5f6ea08d181e3a9bffd361b),
  (0x6ef05da56304f9f250d701674d97b4e4ad9359ebe07632a4d6e163180f78a57d, 0x77ceb43a33162e63c540a71ce62869b5b60ab337c9b0db5a70cc33f646a4c9f),
  (0x43e6eccc72425ad12112456e3d6cf0ab82097f12d5e644634c51dc9f0a656724, 0x56e446ac2c48656ee1dd6774f3017bc82604261bc8b01db529358be1624d51a8),
  (0x68672a13a7a815db7af57433a9842abb2d37ec90189ee75e412880de5ef66b0d, 0x4d8993b1dd3b96767697101693cbe8a2067530f17b3b4950d15a0b9738cd6d25),
  (0x1f20802fd02374175ce495a11c737ebdc3cfd2689e4b9b1c88433f6141e08d64, 0x32f1720a89f7a5a6d2338328873a6561cac2856e6e276f362e95771056e9ced),
  (0x6a3b7a9ebba65db7aee34aa6de964213591ac910ec1acd4c18b407eb8cc4a944, 0x1e1f9fc1f620731d52f6c70948d17cf282cecf083ec69eac56d05ac5cc2d7689),
  (0x772f7493170c7f9ac96c9000455acf5f3b51da499d77f5cf42d8c5555b920b1a, 0x31f36a02470c785e1b7a0bcb837476878e2cd07fdf0a63d4f7bc05345d0aa027),
  (0x38752851c13f18f0974f7e1237eb5397e6af1950f510cb6f5c0200120e9a04b8, 0x1484ad5be8d2c260d5afaf3a5992c8e937cec8f2fdc8eab4b0dee34a308aecd5),
  (0x5d09792898e3e5ab204f7c4b6dcfed5815c31751238743d76ac1f16624df60b2, 0x13dc773c108c2425e294e4b332a476ea1d57843d46cfe14bd58c6abe810b604f),
  (0x1dd7456e85545b15e0a2f6d5f774b772ca3b28ab8593b5a0fc19cfd0850e3053, 0x4e053fcf97b9678536ef6ea253e68c32f1749c9a6ee044a24b4234b07c88ab94),
  (0x3ec8b495460e4267909ba4061eb814187aee8670ece30da6d9fc5b03ed00163f, 0xde90bc03030547084f805aa5c4223d26b9543984736031d1e0f72915b05e49a),
  (0x68f3ec68e814bccb3d17810f68a576ae65f74e45a70ea6c128b3ffbc88fdefb3, 0x421c28328646118e783522d94cc0298849a02a36ee17d224bc9fa1ebf6c99d6a),
  (0x458c2e882e8c31e448aec156bf7cd5cdf3e678fe4b8964b598e07c8c83cac410, 0x605167869bd1a0b269310d1f08596f719b049abc178f675cdf2bed1dc79664e1),
  (0x29e2fb832f072d86336404d3d82a6a9b829cfef17297232b54b5aabf33c0afbf, 0x2ff71c1c544c300da45417d9a644e9b7f979fafee3ac6422d8a489def227bd95),
  (0x61ee7646b88f5e972956bdad392d696c5307ef3a5077ce6c139d6bdc0fb57372, 0x2035d696720f688f872072bd23cb2f28c7e95783584ed5b6506dca7f9b4c2bef),
  (0x39c50242da2652eccba13dfd9df964e55ee45f13e8ae06ff814a56ad0f52b0dd, 0x6bd6339f9ec69ba6b57adf1cf2a71a4dea5ec10ac39dfbb1bbfab88ee7757a02),
  (0xdecdf7d44e01ab8b18935c33ce03e9bb8625747e7965e1bbd28dc1b280da82d, 0x469fbe61e23bc5abb0837232abe84798b2c717da0068bdc4b64b00f3b7a83870),
  (0x671e67595a6eb4fb818ae7237d88c65470118795d469fe8b6a7369fa41dd1a4f, 0xa3f42aa2c107c93cc021c5126f29c93d6ce0bac495844ce817eded564aec9bc),
  (0x5e75b40478a955d5307d007178dfc8ea37c1e4ac02145e96d56bf5cdc6da343, 0x2b3bf645d10f70aa96f757ebfbc92a312f5b94f7daac36f486c2c6216219be6f),
  (0x4730dcb7748fca22d38e5826e62d04f93d349520318e6a97b59cf7ff6e48ea22, 0x415fc5766a716840bc721d30c0f15bb0aa21090ac48f214f1ab5f976993582ca),
  (0x2d9110f95c5b484332b31dcc9d5684afe33c4741c05f9b7d6203a143643bd76c, 0x2be1795b3b155d09c6810a7b43669516811eeaddeb59ef692f93c616fc656ef7),
  (0x47792c5a8648b66fb4e3babba6ff4e5e7a615ba011b0e6264b995b2c4ca36aa5, 0x733842b02f3f632d5dde5339fc45d371148a33fd8cf6126646b9608d2a4c9c76),
  (0x57cd30d2937116af52ac6f9b1e6ad6925b847acb35ffa0ce348c17668e7b9cca, 0x7137dc509a23d79b07a26bcbae977d295fd082a279efbbdb2ed8847eeb38082b),
  (0xe8812fbf59efe8b0a76f0eb42373969505f6989be630b293794a21b11c6b299, 0x2ab6a7b16536251b78c8f0e9b1358ab6bc8f2806a5861810d969db32ec7dc8f0),
  (0x4da0ab1f808829174a27e9b00709109a12ac51e135a4054c389f63d7baffd575, 0x7166f6868933428055ec825eade9894d0002735f143d45398677edfa6b47c81c),
  (0x7b6a7f1317f76ec2f1d90c5a8abb34e3ad3c07f1a0901181f97683bf35907fa2, 0xf36b470445daca5e2fab1121f8073e40fd661879ba287aeed9ee720f7335142),
  (0xecb5c1bf7009214f4e46cd7649d7afeb9e458f6bcca514176b671af342c5a3d, 0x79bf7ff742a9bb685ea972a45dde22fa2649939f4f21514d3995edf0670fdd30),
  (0x65d5795b8a4d8cb82af0cf17ef22d3840f052cd27e0431208a6c1bfb527aa8ed, 0x4b7f7fce4557720397a42a214f467cbea9f412198e4f8b464a3c4addc0cabe8a),
  (0x1f3f072c7475e1b65f155fc5187daaa716e964defc32b126f5bc1c87fb34c432, 0x4b84fcc433f1ab80e0f1a9a06d081d5bcaf0230d82bc3de7135e42572998137c),
  (0x7df74b60be8e92d84279a104153a827f176416eff5258dce8dd586d28454e26e, 0x4cb78efd49e7e003fea2c63700d980c615c3cb9a3c8a415def5ee576eccbeb47),
  (0x6a8f9080d6a19288628aacbce3b6544adc92044661ef4193ddf099df416e479d, 0x3bf56fe897e8c50d7b39b3b967029bc51c019217b7268641134b1c07f7a9895a),
  (0x316804049431c1146bc3d477f922d7c00b8a826cc54f9496808083a759bcedc4, 0x36877559e1695d36982a9531bb7bea3e0a83ea11b377a1a162772704c2bf7760),
  (0x661a85ac7a75cd07c79446c550c51050555b0cbd272a8de5fd20024384b1b187, 0x6aaff30148e05e0b113c0c49d0932b73ddcfa05d0ddfb0b0d7422a01fa38f2d4),
  (0x39f0abc182237f609562fa89033f0e311d278f1993cc431df745e5248124307e, 0x331af9b8e106825fbbcb7313909f84a1b7d324b428b4d6ddcff7423df7bce2f3),
  (0x2e5dbbc5fc96bc4519cbcf4a978be6a0ae72115e38c13a86add03dcffea6fe71, 0x5d6b499173f779bc7de51d0581e464ae099fdb0b0936aabf718733c4d1abd75f),
  (0x7442ab7d99a595bce239cf0b05f50328e482bfdbf299da060ce0544f452fcd49, 0x15270da178f920400a3c1db186e453a7edf884322af0f189af727b7869bf9019),
  (0x1841b8f5218f53058b5b49fa5c52b53fc1a9d4adfe485ffc8c43ee9cf6cfbe12, 0x4df02a4b23079cd406b4a84fe9cd24be0eb3b3ad0061fee12e5fc2adcd8f5162),
  (0x1a29812e2605f734399eea8f0194c57e13be6f07e7f9a3ed1f30c5731c9aed91, 0x98d6e6444aa06fba27c5f2bb90ae54b5c4185e8a6bcc32055ae9891ab6b325d),
  (0x406e223ad619502bc934eb8ea6a857f54fc6a537e3f1820106888065d4ec7fa1, 0x3e4f7de7a6188760503528400e6c82a3188ca6ad9687ae7d188b796fb127b676),
  (0x63f78b85c634d2591b1a2d353c3f4f807f9e785f8bc6079350ae0a406e195a7d, 0x1da59ae83e8c170102c2b2732ca837edd1e30ca2e50c7bde4df45613175f77bf),
  (0x5caf258e54701b020cf1d55a514756529d93a07017f337b8e92537df47a8135b, 0x26235458252d56805b735fc0cb14cc07e7c5f43a3a7c2c81a96812af6e294a0b),
  (0x42938ac5d261f4b9e848d8ffedb694cf1b7518a39cb82f6a8225ab9ee7bb05f8, 0x1747f91d2f67e3be6add84d8a029829e551883a60091110d7babfa56fced8395),
  (0x195cdd9d0e36f885701cb58c3a9dcc49d6258f890c0b82b552dd955307705faf, 0x7495cbf7c74a5db881c07586edf43b6b518bc3ccf4493b8a288d66e822ea47e3),
  (0x1edb36e4214dff68c46e11085a304e79d0ec734fd9f91faa53b0ee5d39b34d95, 0x627743b8181bc016527028cea61f400e2a367c8c304ed5b26bff7883c17abccc),
  (0x6a4ec3a85eaba01382f8b7a7a4cfb36308fc59d82d1bb7ce7e09a472d0eea273, 0x48cd17cdbc769f14572852a4af24e907cba0edd4a6cc2c6861eb3e00ec374e97),
  (0x62592957f4a6643e378b4f7f8f770a367156f854f5fb6a421a994410c2fe6e40, 0x2f3406127e754283e99c7761939918e1cc693632d95ec7a7f0e3c6ca694e8f74),
  (0x44cefbd25042358233af97d8d56ca9047ea6a415f351814298bd72adef7420ad, 0x6b5c078a4b95b03e5450f1ab1379539d9d1a3d2f0be1f1450f2b8159ea643a4c),
  (0x4fde99330b9f6410d33a41ce086b2a238951a9aecee17091f3577a5975587eca, 0x10307e4d61bf56f5b43c05e55042c965747a6cdc0e3599bb48ac2de2de85ce6f),
  (0x6706eac6fcc5f5cc1115b2e5a942b3a8028c6aa6de89c8a02ed438bc6a96d119, 0x332eee61d9666acc6c1325b64fe52c9227a881bb2efee3989ecb23829189b37),
  (0x2738328cf12d35f4af8d1c1c0b68b417b6ef2a24143f15b4a9a018570fba90ff, 0x4bd968d5683e22b5d35bdb6f6e4b6ae41b688e0ffe60dc55f460128f2fb261eb),
  (0x237b135fb802daebcb8c17d8c74499dd972ceb432ce6b388b04affe2cd2d803a, 0x6b358aa272edbf848334635cdaa9e6ce48f67a076b232fcb55e7e8ad06a44b39),
  (0x3d572b2db135e1d9ec24a27b475b3bbeaa440ed7a1912f9a64945293e35fbb3, 0x42fcf7f937e4ce55377b30d148598b4ffd0c75c6c9c3be01410f3021c701cce2),
  (0x74614a4fcd671657f9371d76fc1c20a186951339016c71ac2d173743962e13b2, 0x3319a1f48b4f2ae1439a7e0fa7b25fbea3d1215b252989974de992267e8d8fd0),
  (0x42caa94283ef57f00db383949442473906a0508104cb2337185e655c2ce50f23, 0x3f46b1665667a28a2875aeb321d5e067d7b807eee24cacab74d5c78016ef201a),
  (0x7d39a42e9c584f406dd139c42ff3622a5d07f0b6c71489dea01434fb7d574a86, 0x2947a9b83d3fc0f2af9848f941fc8517005db6cd432bf4c3c1b3434e7d44fad1),
  (0x665524227213dada612376895f11df03b64cffdfcbe0e6abc14e9c5b95d6b3e, 0x23633573db301f89e53aedbcc91e0005c6ee36ce2a2ee01e16a67137960aeb13),
  (0x7cfe6aa34aeca5a94dac41ffe30f9e3e0a0cbf46332fc3269df9bbff26a9ce3a, 0x4ec6019aae4e896b355189a7b9db9f2d4963608ba472dc4fbe869cadc1a99022),
  (0x5c400181bf2cbadbe0c30d1075cefa37598da1635a4ddb12820aed9c34f1b41d, 0x3f09523826e18f86fbb79bf4a80bd133971951e54555fa6741dd173148741832),
  (0x1f2cd3c309e75785b1b4e5050eb4d7255ba5b5811456e78d7a5e83fe340e8f22, 0x61241e0147d4f248d18fdb17e70ea945f6b5cd37b53dff3b44f89e1dd7e3413f),
  (0x30b9d18d6c1456b437064a381d522042247921463f35e27b19262b859662e5cf, 0x2269ab944e25d4bd6a241bbe25d19c2b86502b6a42dbf7fa2c66ba81e44aab3a),
  (0x72522befd843f55d353f60ddfd3264c174548f77df2adb7d9df2800e7e19d84a, 0x725436a3fba0659aececf66b6af78602087bfd44ff0c84b03490ffdb84d02453),
  (0x47654d99628460e05dbf1c1adf889a4ca90783212e3398d24d024e313d3358c0, 0x122aa8362bbea1b898d37e9fce5cf558872ca37f229851f9231f7198fe53b59f),
  (0xa20e3dae150afb924f7120283135c22f64d75585b0d5fdd12d787cb2cd7b655, 0x256b4222d280f05ed42d65c3c5ede2f9227e1fae7f0d5e8ef5d6f35b23b4bc9b),
  (0x1ff5cefd4dcc76d71d5a021cf7d122f3cf373cc02515104542907816a3730459, 0x2bf7aa57129839db1992b79c247e44fcfc942633c536283fda2dd63c5a8518ff),
  (0x60039f55cb61d9f5eae2b880ec32b21ccfc004dd7e9289b63d1a0a870b4fe55c, 0x451a77e85afa428d1384133d52b6544da556d1c970f5acff1202aacdb3fe4006),
  (0x2145cbc26f3c0f32e7f5133b78b87b971a6d7de05cf527459625da9de0de9695, 0x1414fb8863f98b2c424d10a8d2a146d502dfbe0ee34d407dc72eb296ff777adc),
  (0x4f77259e1e750a5a5ed182b8aff553feb7f251f29b0cb6adb8142dd2cb8dccdb, 0x40ba4fdc528cc2b111c0056a91fc992c845858879305720d321f6b29a1e04885),
  (0x19453c870f3ce015b508f058548965e4995b43589efb2f32f3f2a8d8d2eeb972, 0x7c0008c4b3bf6939f8daf420fe02d06da242c2006f3ca4b372af17990f19a7b2),
  (0xc4d0621693b22541425655a6331d000b30cc9aee375db22e54ab711d2119c24, 0x4bf30135a472d59a696a84e46ee037527da6f7d3c94e9fd37757fb47bb57c410),
  (0x635309431194f7912a3fb96e169cbe551db3590a11386330358ba0ed1013e0cc, 0x7b46c27fc428c3d8a5be8f2577783e3063d721ceaf6aa29b38e30c5a89c5b5c5),
  (0x7a3a93545f56bd098fc01efb6fecdd045a93466a845221f76f687fab7d6adc63, 0x3617f0d937040b9a32f70205ab174c8312bc5346c56099c2cff9a1911b584a1d),
  (0x3aefaf1a6dc0410b0d1aca5b5e3d4e7f0c9138afb2300137d177231658e98eab, 0x3f3d4fd9006d58b01e1bfbb8dc3777e2e492b015d7aa577d75ddae54795891a7),
  (0x1ba6ed5030d161eb6fc7f7be6620aa834f5f8b6476134ac53319f083216219, 0x60b3da6dae19bbe0d69b8f98a36c62eda5262d46fba9fdc6a87e7bf3b9c3d869),
  (0x39706bc936ad19339ad51428d44f34d2ec28b67ead5c79290224a93d3c7f1024, 0x1b737227db0c03b83ba9c544dda66526dd8fe3f49324a7e61c2226ec56d45222),
  (0x4369210792afaa480ae72bfa0435fa92c43ac0892bc3770583657791b16502cc, 0x650a4c2f6d8949d807850780cc89a37c9839acb621eeeb944c958cd2a3fadb4a),
  (0x34d2a70977ffefc5191124281703f492fbafee26e42bc99eb8f65cd62068ef7e, 0x1c8ee3a87634467877f16151e842ad63344a7ec264ea0d8ace35bb05ea19b9c),
  (0x386e3541875ef2d214b4ce2aef61d45a5ca0c07f7bf9e9c777fd3729b16056cb, 0x6df0fa0be4e2692c8dba79859cada6e3ede9fe475cc6a583943c6c23fc8d02fe),
  (0x431c0206ca6609ed78f00ba35be1667ad4c8b5cb21f2503dd25dda01543f26f5, 0x1fbdc66ba6aa6132c66f8097007d981088d2d32271e06d1091f3590f9ed767e3),
  (0x3b0e035c9a4039f0154aba305a26f7b0288705dc8f8010d692e243dffc9b04eb, 0x28372313fc600843d1020e46c37d12291780fd5b05bfe32341b2c9aae62d0b61),
  (0x6391e83b85efe2f450edb7713aeeaba45fbc2274710ad1550670b895b3ff0351, 0x7f3dd1215a438c764dcad017db218f1ee281cfa57d5b779334924c3aa75e94f6),
  (0x630917453d57cc86609e8ffe4cfaee5025806453d05f33af177bb25639f0b487, 0x76a2860d482980136dbf088c01d07914038606cbee90e53b88d0c090e31124da),
  (0xad41cb6deaa8894a4126241799f2f42f12ae508aaa713234e63734038922301, 0x213eccfcb703361702a41855d686a924681adad025531b47e3b95295a1d5d2a0),
  (0x1d0f079ff2697d1271b9dc4fab934725574fd4f247a370a253ecb924785e179e, 0xf33c295f3a90749f11a4ebc60a846d87af8eb133fa670e2ca7645129207a514),
  (0x284210d05f65e43ac6fa55c1594360680ddb93c0f52ba08b2cbf4a1a9bc7872d, 0x57a3172736ac55a51d353af2d8370ae6e5a53f00ba538f08f205e5429e2ce22a),
  (0x3987ba4560014f52a0397f84b38201c383cfb483734d8a8eb3e5539dd1f571ec, 0x7c1cf355cacceb1b52e83e9d5f0301116323f5f1bfa86fbbe298d1d6403a5886),
  (0x74df55411e934fbfcb9e4adca113fff693947939281c85d3997c14692d504b8b, 0x74c758d1213793894cbd72d47159b16326a0745f0aed62733f81e5e307403fd6),
  (0x3a52d8e7c5eaf9d0fdb253a87df52b988f52e940ff48b9c95ae7242d133b671e, 0x1754cff2a505cb3f79041be903fbf5cefdfab661061e2a9e87b381cefa8479db),
  (0x2fe24bf11cb76030e322d48bfd5a77162822000b5af6b8dfa193e4be878acc37, 0x4852c0656b11cac118ac77a5868990fce5e16672e2720140f18f7d0ed581961f),
  (0x2fb1aadea1252beb524467378549a98c5aaa69ae93ce14802af5396936523525, 0x65b3625d77bdc0e95fa0b3338a8e4998a0b43f8763a871f8e9e6fe5eb64b625d),
  (0x13cbac8b77bf29ac3ec54c2db41359019c794a51a3fc1836c42ea8eb38f84a35, 0x3f710dc1ed048c1a407dbc91f99bb0a29240b7c4ae8bba993b60b8ca6e9c1e3),
  (0x24d7126d0bd094b50acf89aca0816c137f50f5af3bcf17803c8dea1c84353f2c, 0x4c4723c2978998758b9bb6a11405d420097115802278ba3b20ff29c296592e88),
  (0x4cb81066db4369d05acb6be366b58e86b876978945a36404792fc1bf6c73fb0d, 0x512e78468d25e5d73d32c896f0cfe1c8bb269830d4411006e02f365ff2acfb83),
  (0x4e3e469737fb6eca06b8558fcbe554c81b08876ae01052d9e12a5003a3a7081a, 0x16c9c93c78b28502c016f4709399e6e63e0b67ff4d7f5038946eada42d2cc454),
  (0x4d7b172e2e22556278258ce60dfcfeaa507bd040d5f154a6ed70b05f138308a5, 0xb3f3cba876905c52495470595dd91699ac8b0487ba373738a2bea8453300fc0),
  (0x4cbc3a4d589870d3a07a305cb48d7e4214287d24e9aedbd4217db77b87b5a4, 0x1fd0717079d7b7aec97c256deed8e39f7dc78d0a6df93cef50128d9534bee4d1),
  (0x58d99ff184dc236fe0e97ba8dac7ebfbfe344895880cb5021c571ca0673e07e, 0x659bd672fe675875ad3cfd0d8a8fd078f9ee4a89537275d1a6271e936c6ffcac),
  (0x6d0eac3f9e5d2fb955cb5f5d0051fc6b785827b3eaf0b5566abd52e99e136735, 0x78c908bd442b9f648a99405a76988dfc341c0eef7e4396e7481b1d1936629806),
  (0x349e641cd9ff862cceccd7c4d9307f3ecde76465299084696f23895058e47d9a, 0x349df62405ef2418c57d4afceecead9c78dcf756447ba4668ff8b28dd73c2a63),
  (0x65cf8d486fe0f0d4264f26fef8a0c3c2e3f58bf1655a30f7b1e1da99aa5f1511, 0x2cb0d203338a0206fa2a6a301674399efc56d14aa9a66f7d213abeb0152ba246),
  (0x3839295585a96e7930a436a65f5ae9381ef3da44821502bed44e4a7729103869, 0x43a0dd932eaead0160744b1fff770c3f6f7bdb85998bb44d2832b8494cf47a5f),
  (0x4cd3ee99742876efdbe34864bcfce0299544d5716837fbf4f40c731e74d516bc, 0x3c92598db887ed35abcdb615960cdcffe0426b1ac9f3da8c850714a83d8eb74),
  (0x4eccc7549990e255f4cb44f3b8f06815dce797e5cccacf61c9af98e7f9905c8a, 0x172bb3d7b762f960f2f26075552c685572030cdc8a68367f9faba30e2fdd8607),
  (0x44804d1beb380b89bb77fa72f93cca73ab37fed14c6c75a211d2b0ef5246abbe, 0x117c48b680e9985ad26f2315ba428b4cf83cd87dfdddcf9488d6446436fa6221),
  (0x50ea6a44fddcfe11d0ca1710649227ca061384ea2c72eac6a37a317aa51254a8, 0x2eaeafdb192348030258c001df2ee89745314305991e724948bc6649a528d74c),
  (0x7cf82dd42358190e38ca03e26f59ec4e4eb6ed55f9b908a2919caed8b10da89, 0x58c57496516d02da2fd08658943a2426b735cc6b219fcce791de0abc27f26885),
  (0x2f96f0509d8614a27a6e8a787e8b503813f1dd3d1276939d91f1c34002490f51, 0x27899e65a7f2d1a343766283aa34bff5024eb90cd930cc617d49eaa436e7856f),
  (0x4a42ecb27cc92f69de3922349abecba19a9bb9be988bd913640cc8ad93cc0c91, 0x138df018a6710ecca4520f0a683ba88a3699408132759d0bbb7b64ecbd34b993),
  (0x66e49b04a52adae95376c79c4fd6232d90e3f539a459ec217c8de8d718f2f654, 0x7df61007e13b04c34ffa402fced091ec9b370f4d028644a2b632de3dd1c40ae1),
  (0x7c431c5d79f49f531f0013594d3bc48a607294d9183ffa58c7d9afedf0650445, 0x86b0252a239daebde321cfb2b169b9551cbbfaab8cb2f3d34fdf4d56af1b3ad),
  (0x198e953fbe4c2e58c112c095ef1a8d0b9517affc646d77207bbc84268e7ac79a, 0x4b545e938103d47b4cc12bcdac4a98d62d6cfff684bef038eed6689e3a6cec2b),
  (0x7b2333e50cede5b08cdb97cbedbcac3b503e31b2674638dd6577222600bbb1cf, 0xc14a08199817527fdc2b7fb8ddf4f283150f056c4b27d4c60739f5cc817e561),
  (0x3f4cbdca17153d35b76f6db0f7ccb5fb5a1badbd40d3e8dd0abba99dc86d8b46, 0x6d8d5c959164ddae4b629746921448c667075dfa912d55bc60995617a350f922),
  (0x998db27f2efa9866d545eec33cefb9577292d74e792f786ccb03e5f8cfe7e2f, 0x1a72d4bdee02f48aca79791dbdf3af0e322733877f4da567be42f60c281e72f5),
  (0x3d8e5b5415320b9a7f30ec9ca331f41ecfcfaa7a65d1ae589f04bdc1d25faf54, 0x242ae4cbbf3ac4b99c7247c120b40414719da341ca68521b7cc44365343e4d19),
  (0x4068cf150814da0536971c22aab3b0bbc6d11019740c47dc85a9b53b82884b5, 0x17bd67773d662299758f81e463d3f2bd570a756304eff4ea2f5b3cb7de489975),
  (0x246a93d58561f4eaf0af78d409c9313b2151257e91a5b020cd22e6433a2b14e8, 0x1ea5dcda286fcfaa56c2d9dcb94198e81af31afa9fb43916dca44dedc406419d),
  (0x2348bf6c245160bfd30e2c424c50274d748b34de0d00f9a6894de59bddaee7ae, 0x6ab230d11747cef72259fd9025496db7f2aa23b145a6a6c88ace095401641379),
  (0x50e406760ef89afe5bea35a06e8a7852b6e61ed3aa3137d67ca4139218a9ee17, 0x6ac86a12e437f508f05e5d5ebea4c3b2d26eea01148263194ae4c8844b2417b6),
  (0x3c28531a17e750ef3ac9bf8eec1d69faaa8306f73a18a1f5bba00c68944fcf5, 0x7f9544e7af271e7e8196e4b5b182cdfacc897428f30a91df2650fcd23c384bd8),
  (0x20c9c2e09876b0d9ea811c2b581eb3f0ae8264fd7e0249e30373952fb348b820, 0x31a46117c65960c74ab4a4f023dde96b3843bd73a1c9c84a5608f6aa37b19b0d),
  (0x60725b70dcf7b920f27c295f4d118d4c2cd98ca8d9d303d81a436e269f74a2e7, 0x286ee327d992738e7615b742b6a3e320a8aa86cf206c8052bbd816b8ad04f896)]

theorem chain_ok : chainB (wDblB ec_CryptoPro_B.p ec_CryptoPro_B.a) ec_CryptoPro_B.x ec_CryptoPro_B.y chain = true := by decide +kernel

end Gost.EcpChain_CryptoPro_B
