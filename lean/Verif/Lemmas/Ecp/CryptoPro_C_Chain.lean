import Verif.Lemmas.EcpTable
import Verif.Model.EcParams

/-!
# Doublings of the base point of the curve `ec_CryptoPro_C`

Generated by `tools/mkfiat.py`.
-/

namespace Gost.EcpChain_CryptoPro_C

open Fiat

set_option maxRecDepth 1000000

def chain : List (Nat × Nat) := [
  (0x74ab1ac14e9ed5cda1af70308c897ebf3d91d913a7bf377833c436bf0f8aa40e, 0x7d223beab738ba52a65ffbfe585d2807bfaed5ea9cd651a63a775b4182f562e3),
  (0x4fe44356aded59b4b661e9da15fe79dbcb1d7346770919c5c99090e5ae4db8a6, 0x24f0222027a3d2577cca5aefb5411c88f92f5f4b8febddebc71c12180640ebfd),
  (0x457a89c12e62881e97c4eb58f1569bc9f33aaa9016a34573fc7424f18ed9de55, 0x991b413087c05e38163a8bd314fd3d8f90ea8139d80c7ccf610b588b2955a9f5),
  (0x1c4cb7cf3eeed3f927dc3ea3ee32ea78d16b1efeda2ab43882e6f7e4960f7511, 0x83acd639e7d8a20c46112f68a363a8e54fde7d8d715407b410235567df0104ac),
  (0xac5857a4c34ca271409cde82216c8e413ee463c94803fcf992ff5639d84065, 0x144efb5ab16d2c32e1f39edbcc2d46a192e741991f72bd78cd6f48bb0f7a99c3),
  (0x867a1ee81e9ccc4e3c4e1daf64ecde328fd90bb392450b3bcf1f923c825dd1bf, 0x8b802517435690f980ac1c08aa2c342447c02fbb09e1403a4dca0194a6c9123f),
  (0x2c00421b51aae08f1a7e832ac3623d7fda9a6d3bde6b5058cb8fe4b91dc84e, 0x75fd185237ac10b963eeafbda43d3ce751400bd488278f198ce7012745a89f1f),
  (0x728cc3894fb37b04365d9b1f0be232e9810ea45b8e41300532b034169ede93b3, 0x236936af378f9b5b0f984c6877e9319bccde309a2f79d993b65362cc5fd8d834),
  (0x2a59bdd3df577db604e015734ab5acc62d12e4f140848baef0399aca0be22220, 0x1bb451e587f235b9498c91a09fbbe977b56c76a76f38e84a81898b6060a5cbe3),
  (0x5454e2f64909c06c284a3e246b6b0052c661a9378739284fcc2b654e780d9e9e, 0x29aee3022f44457e9cea817a87443622fe557c32c96d1ab34a7e45cbc4f1da85),
  (0x397aa762540155836b6496e569abd48d4605d2e9aafc90357d4a12ce1e069367, 0x651fe1c222cf083d4ef95e25045db3cef9306bac4652db593f2f87de6f7bbafd),
  (0x4ab0e0743360997391dd215897f90ad04a2e19e46c2ec8d64897323097e12ac7, 0x912bb2f2eb2332710fee654456796e3ffa1338dd4303fe0d970754a1923cf18),
  (0x1baa425ae663d2f975691a2a50b2059555f7edcaba88aeaa5c81bd459443249c, 0x138c8f7de7ee6e2b5fe88963113045cf725152dbb9cd730ccdd6835ca0a4562c),
  (0x156670bea094b2bead829e9da2e3b7d34b0d5c94e9ddb393b02366772582fb32, 0x959f3394b54deb2f61150c4e303bcfe4996c1d2992d4819d3648606189422ebb),
  (0x5b0cdb76a925bcce3c59ec29a8dd1afb7b1679052a8d464af31000863952e0dc, 0x2cef8bacfa13abc8e6767ca26438748323a1b8433fda108580fd620bf82d9773),
  (0x442371aee965d1a6c2bb20d768e664d8abb5713b7682a5033407ffa81ad7120f, 0x4cae1ac93a9ce57f0be9dc630c0166ef835e8f83ec3eee288685533d81a438c6),
  (0x5e4f3c9bb19bff71d770c149992a7ecd73bcd4faadfbf4070a0b4de84d0491f4, 0xd38b05da0823b51acc5e41ce272cd6a66bfac46510d364b1a281f1501ed0eed),
  (0x210428f86a344191ea6a608d95ee9ce6a167b70ace45f4f626a5b3be59c66074, 0x3f7a99e13f547288885990a3bcecc50582adc5eb8c2be7541e4f04d2134a039a),
  (0x591e78a22639896a7d2d191af50352dc7f707ce5bda9609cfb664bb176d66e18, 0x1707735f846d1971d6a04e52432c5105e9cee48729e065d673c63806793851eb),
  (0x6678c0160267756e72e116a5a8d697327f8857bab0eee3797d71cc073226789, 0x93db173059be4d19d48557717ef84eb7b77b130128ef13cc97c57cfc0a69da6b),
  (0x6aef8a5709e9b23674f748a79a08e9dcfe9f8efa7fea8e5f87bb5d5ccf2fce6e, 0x5c98bb72f7d7a8b36495dc958dd727f589f6fac04d8cd8e9106b8cc942600389),
  (0x3ac045c65f7afd9fdf98950558eedbba075aa42854d09363d769c337242732be, 0x3482d17ca389a8490ec5ae0353438bd7c6c5ba6e3a46f140274d5888606f6bf6),
  (0x851c25991c0f38e41b0cf2980f22bb5b584c0fbc97030b9449e9cc09a2096adf, 0x913d266add8eea62b91129dd0c0451543821050a56a8b37b006ee4d4b827e275),
  (0x5fab1fbad6f92d3430f3c9e0a8e24dd7945af84c0c2f02b6ab7bca269aac7d49, 0x51cb198d54f73c6052bc2067654db992105a429c0018500f9c79bde348f0351c),
  (0x907004c74f57e0d55f86e5f989027c49e284f1ab05b451ab96be7ba653ef5234, 0x9a71f6c4741555b203ae9161ff9b4b8033cfaf346843245895863145fa36ebeb),
  (0x9b0c7348a78ae0423d5530eb6577e1a08c0cfc7410f85797b731c0563992ecd8, 0x6c331c1dd6cd418855a47331fb9c436c2dc8e8502a7ec48541a9f29aeb5adbc5),
  (0x114d6c43059883782d1cca9def128e0c60ddc284bc5bb70ff3271ae2cb41b54d, 0xa1723c7a9342a5580295aecad5d09a7a2c64f46baf8002fd4bf7a6baf34bd06),
  (0x4360c3f84f7d4f2118b93092d04ebd48dc4a0f96b5db02958981a31daf9973c5, 0x542d5ef35bb1bceaadaba75dbb1415e652795098d30d8f55f89773c15f2b19f9),
  (0x70b424f538cea91509381fbc2d5ce8132ba21ba4f86ba1ce9a63a82b78487fa4, 0x7edda7dafed94adf56cac7f8ecf06d4c93aab8a7f9089c82cdc4c3ba3f5c3d92),
  (0x3bf4a264392605a560ce9573ad4b7f4799e9fc6c77ef963128f919ba02421d54, 0x4b04196f782b57d3ec8ad7966e59517621c3b6dffdcb2edc432ac9bbbc65c40c),
  (0x96831c9a78e92672ce150d946fcc434d8eee5435a46baeaa4d510b26eff38b2e, 0x83ee51b275e15735ef63515ca41652d0d60d8c1f09c16e88fe012394c9988387),
  (0x61a7dd9066a5b2cae69679658040453348a2584047168cac5aa3ce9ed4c50fa6, 0x699c7f390a2fb70a3c86f21624cf5df455b04feaa5c7ed6d10cacf6f1c676e97),
  (0x7647a133f1cdc7c6324df65f1d458c2396f3a819cccf99575ce033bcc5176207, 0x6b649b22fa26e9efc04edc1be104ed1b375763f0fb6e9c7a662dc78c55963759),
  (0x7358f154bb817a684cf949099fa721e126ab847c876e02dee2b67af125bd5385, 0x702f9ef92fafed0b3e8ef4f964cc9341af112028cc85775e7f35bca0f1d8d45e),
  (0x464cf7b936f6c27f8f57a37ffdb79a7d41199c0755ba94c9d28d64148af3ae8d, 0x65c1f9ebe85e68be761be93015b2e039eee0efc79d3002d296f71c968e34d40f),
  (0x49e12a2c8c2878114b3c188fd04fe049bbc7f25ad478ec6cb729b2e3c3eac299, 0xef0e946cb88713dedd0973b225b5fcef6a110814b3342131565c834a63d7b68),
  (0x15be68fdc80bec0c342c8b9895e83e47450da7db5403e958d392c499de06b3a1, 0x2119a0d0cc12551622595550968b7583301b097c16e62fb3b3b6774c7f553c0e),
  (0x9a953a40e10d77d31ce4aa8ebb1300de17501de7fd1658e206eaf3733d37e42a, 0x83808088f3d0bcedf2ebea26b8c0a2f4dbbaeaf57be379bdb9014adccfbb876e),
  (0x4bb26c1e4678aa8dab2f7f1ea59805bc1225c2ffe62630a5150e2423014cea19, 0x7bb48b3d82f7e0c7667d316a38264c542038ff23830901e045d2f9eb61628234),
  (0x46f801f61bf8c8ec69a0acf548e0dd9cebf7da43082800e6946f842b6a65a2ec, 0x64dddeabe5dcd96d653e2c9f80a58b82477480eb9e30f1803a4943178df8002b),
  (0x8946016f712ec1dcdb69c600255852031b0bd979e4bfd58eec69cf4cd56d57cd, 0x765e90ce571f41ff67eca7510538a7dadfc4b79717baff60d53d93e689b16562),
  (0x5e2dd29b9149dfc9fd37fecb64cac5696026c9cf1654924cfdcd19d83932590, 0x467bbccd1c95aee4928d0cf71f43c10cdf61eab817e622ebea0b3b26c7809ce9),
  (0x1e4308bad3f100b668bec6e314ebe365c656bcef97bb41df44d4bf85950fbeec, 0x8ee4edf91a4aa36382f8e04474c4bc501576fc3881daaa942450c2e5902431b3),
  (0x808d45d891591a338389199975dbcde329a6daf55035ba0bf327608d140c172c, 0x882ca11718d490418c490ad1780b44090db6aaaf2e02943d69c14a8ba82b9510),
  (0x2a13fb0bcc20b383289a0bc87ee6fd0fbb65cbb9c5f63a5457bc4742d73b270d, 0x67babee05482b3027dc8cff5570dac0f5824508582e0bbf6b9a19442b0ad67f4),
  (0x3829e404f597d7c76f2d58f3beddacdef58674c55eb64ddee07b4b73298e778d, 0x84f70d4a20315bfba614cacad475cff0aabf696b1a52b375308904ec95a893fa),
  (0xa7a50b4b9765485b48468a554bb99430cae80c122241c1d80249a80a5bb2778, 0x45664b88d191358116696b7de52ef7dae75f5709467cb559909aa8a7a2edd6dd),
  (0x2790817704d1829d063cd58371e5e82ff22424a524ba2d26a5c3a1885c882951, 0x8693186f406c610e943587004eab70d00762052771e1242ea842e17901fdb1c1),
  (0x6d0201466d5d18516ead257148fa9db818e24c05a0556f6ffb9e6ce5729eaf80, 0x90daa035ad0296df7447126a220c6a9b24894f58eb5efbc05f77125af538eca3),
  (0x2ef465ea58bf84542ecb8b785ac9bb04134fcef618d32b90a1ae1d5fa5581e79, 0x868679aa81e95b549d4eee88ccfc4ba40478b45630f9ff491b1621f10e86e8ac),
  (0x4290282a897edc2f44c060481db55cbd45a7ab715c3223fff9bf7283311978fc, 0x88f31d701639f0d0db97873b0ee8622962ec98ccded8bc8d8aec249e290fe0b1),
  (0x421d8be29251568d0d53840f98f2c126a89b076229b93be567f656a96c2270cb, 0x538f3e3bca73ba2eb24830e01c6dc29799fa273fa6cf27d7b724c5e0aa12f835),
  (0xdf37e43ee884ec76072f0e283a8fce1f3bf60001e0d78627f29564ea473cdca, 0x405feb6516be5ed4039d05b59517121ef68a1263d5b4524f2e56101b5d5d0973),
  (0x40c6f74386c4634b54e63b2dfdcc9f6d2a2c7df1a970512d541646996dbdfb8f, 0x85357b2a14d2e6298fcc443fec7e89db49917b77ea06921fec0e8830f90c0a30),
  (0x5b7d24ebb1ec334656a986620198b18cccbb59269d115fef99147e7413099c8d, 0x1cc93a8857c0a3e1054955eaaf435c4e69416f91c0e94c8f33a1e72df249e7cc),
  (0x1f1df6629a8671b598eeadfa30f01fd275583325b4a51d1c2c87af3a394bb6a1, 0x5b9c2268932ab9e181163007d498d968788bcb5acc814f435317b6091ec793ec),
  (0x383167353c4e79b84a4b78e8cf4b5d5511a182bf63a3043c8c4939885b8ffd36, 0x5b9fa9931dfb50dc9c3f66099d066db532fb351df22efdd4268a5af1a8b9d111),
  (0x309fb3ceeb89d705ffda53583f0ae3a306d3f8a53fe4f4b0221433bf47b97ca0, 0x6de1daa6b59aada91bfbddd5ff505dca150cea6af9c87ec639a791b1cc48d328),
  (0x8bd73587bedb28e851b27f5e9a18c380bc6d06156f5b91557b14d77589a3d7d9, 0x4d0f22adbf93875b069fbec21e6ce2837868f580482b4642bfb1a0b6453068ea),
  (0x25039fb1a5b399ab704e4230bceb2176a0d8d1a33bb262c5d481c1574297523e, 0x563b3c07e668ecc33ec4219b5c77a366826a8c51c05fd9cd715ff3db6c1e18f0),
  (0x3812cc598a70fddb17c93dcfe5076f6ac3c6bfe3f9103354577f90fd6501d348, 0x2a5ee0cbb95ae0703c09348d7f28524d616d1a36e2b10b506c60bed2552eeb09),
  (0x5d38527fe0d6191e5442e5b070cc793a20cf4bbf7f316abd176527ea488e31cb, 0x88842fef63cd0b93df75b7e29abd39764facda87f85a3b681a26b8a5a0a03b6d),
  (0x8a13f59e344bb1317ed33aa239cb4ba7f43e3e0da5ded840792c2366d25a4190, 0x6c88e63d47dcb41bd635f9bea636de733948475978c0169e463e1627852f06c0),
  (0x33930e051d2f71f8338b85577e6e0e316b3b530eecd114b4c543b19e3f8a4e9b, 0x328537afec09cfab08ec1781881aca20c6345fe6ef81b3fe3a84032fbda5b496),
  (0x6d9b2debe34e2010f2771bf5d5d1876b57dc7e31cdf67d2f71030aa1ee5cea6d, 0x8b214d5a99716fa6432259600b8c13f66fb7550bfd1e205a3aadb01757407c85),
  (0x5504207f74f8f346f894a69014eafd6f08053a7898368e2ddaef4701373944d7, 0x1f59a1b3ae429a3a3c3b12d39fce47ab9e5724d1885a2a7abbb0025a8546bc26),
  (0x35b91d75b6967e3ec0b55a02063539c3c99138adccce38bf1478f3b827f8bd80, 0x5117e6ca63d9304c95c55ef6df4435e01cb4c9647564a08a8737db1637d367ec),
  (0x27039ed635ff59192862bc67363f0ad18067f11439fc3d3011624f388c1dd9, 0x14c5a4ddffed7fdb9d8654b4197d41c571d0a4822fc28edefabc56641e091c5a),
  (0xb9d6d4b3d5243f373bad1cbefe77299138c260be788c3a879152fbee579081b, 0x3750e43a34e133ac1509893b3a44f7b1b73d223085c4a904b62937dfc5a72189),
  (0x4167a59ac3f6ced2e982fca9cafb7891592bda843c00cd0ed1cdb9052faf9a5, 0x7d76fac7a1341a3c7db25a8afd4496c513c799c1e3bb8a455648dfb4a8378a9a),
  (0x42f25d9533f3c01bb646a7571c88099ad7831364163e2cb3691f5e6e9d24b2d6, 0x596a0c786d89e17e3544d1ec55aaf94613c2ead64ed8c14e5adad1032243f560),
  (0x737b0bd57b757ad9542b7cf3ca986d4d624da698f409bf8bddd8ccfa0d94d44b, 0x4226007ed413dc5463dbb66e959f2152e75f0029e6fe0644e272025a55386b80),
  (0x68777616c9f63ebbae6c3b4f803f244be56a17401721e5baf2e2b7ae0c1c2fc6, 0x412c8c23a53e5c339c5bf354342e4dee96233fd6233dabe6fe05a74309d70b5e),
  (0x445286f6aea9a0d22c6c4c8e552c27949ab01959d6074abd2771e68c53e3bbc5, 0x5ac4bbb53f8e25797c9cb37f3a19a6c704a3d9ad53c60928cdd4532ee592f4e5),
  (0x56f5f938e48a3fd4b90451b6390605506acefd8f96efda3137ef5d855184918c, 0x39c26eb4046148cad29c2e4e04debae513bc984c7441ea2da5d852c645067b0f),
  (0x6416c8b29b1a9511e79e171e92f65d552e5a9ae406dadb8521dd4fe757e06531, 0x2a0bb2f0bcbe023daf2e2c236a24e8694fdf80282dc63c19f380719546034c1d),
  (0x3c8c1caad1b13d85209b6cc0c6504fa9f4ff3608f2fbf7966255e7c97dff5407, 0x49a2220053ac8aed0304fb58b2c51775e53710a9c8af8145d78fb9189caebade),
  (0x8195db2dae56e598da30d457ab7402df590358087b6a2d0038a7daa91c027c5b, 0x2407e9e5b255f03849c8f60161f14205ecbded628ecfca97e24860c424fdf4a2),
  (0x8a86cf1471d49ea49d3e616a3dbd82f391b11f1a841616b237f8b5e93986b95a, 0x10b536d92b507915757d7e09b71b82db93b0697316a1586734d444e194683c32),
  (0x296b2841e2899d334109f62c098e520171065d0af7a1ea644c1e10e77ff3527f, 0x57954f88b833387dc06be1047bf521eb9c0fb57525b95adb3b9dbac82a36b8bf),
  (0x71901727723fa6187d765177103be5fcf6bf7f98f528099b1aa7f0f6ffb1887d, 0x67c694b56e372487717d0c57bfd796b93c5e426f9c3509912838b3e6b4784a80),
  (0x7839ba93ac612c2dd9ee98ed964364c5b158e71b085fcc5d6a441a956313b5a8, 0x64fa5ca3bfd6843d98fc85d18747edde157e55a31ffcaaef99eb20fa253f4f81),
  (0x2e92081989e21432c0e3baee7fc7f8bd997a8a2b6ba65d4291683e61aecd58de, 0x616fa48cbb408ce04fcba663806195dce4bf3cd639e3296baa5f8e35813cb3e5),
  (0x51a9cc09915b046579ce1fb363f9740c5900b7ce7ef5df17ed67b96c60e2fe0b, 0x282257fc8aeb0f77c3e3d46fecb9314a2a50fe9b3f300538b10363d3d155ef8c),
  (0xa69c3ba40c7086f6688123149a7a345600abcd19e4b2528a9f8ada0b35189a, 0x9ac26eaab5f5576b92061d7ceba51ad60deb830b945a9ae9357579aec522a0ca),
  (0x1f5733dd125c966d566c3499c3276fdd593f75fc90795c56e803f52bc2d1d1a4, 0x7b4fed773266f55ea5df314cab3d98a99206634bbb854cb236d1fd60e174d490),
  (0x4ec341a0b220a628aeec60401e2d7247061f3e9304c41af23a98624334b9a772, 0x9145eadd759d8e9e3ffedc7981c5f20b4f3a0160cf8d359c9085a66329a7f283),
  (0x11d4474bee507802da7182d8e1fd82415ac712abe175d68044e744d45027b9ad, 0x1d0dc73cea044384a39bbd31ffa6d69ac74e8adf44fe990b66b024d065e037b6),
  (0x5d8aa8d50611aa0725fc15a08cb1b645eb56ddf358aacc3836834e6d5d424516, 0x1cc4da939ae961d34f983374bf2a1e4a5359657acbb76b058a49354d34e2cd4d),
  (0x4d9f74d4f9bca831bb125c4a1400c7fc40e21ba45acbb42c197bd1695eff3530, 0x248ca653ace0b564a5de8ed0a625e6d8df9d575635029285b1aadfdb1395ccf5),
  (0x601287eacda154cec76b973448a8b14ef45c3420c468ed2576bbf8e321f1a0c0, 0x579104a9b3eea5afc9412872d4a3ad65991a250614eb9413df0c643485306f7f),
  (0x89bf4518ae39f61f316f30991e793b89961253e8aa544ed286cdabdb423d8eed, 0x7781d153ea394b0a2905db43b7a9d8934fbb3dbd64ebe6b99995b8b2a981047f),
  (0x8d1702384dca3d51ab9a47959bd11fbac005a7d9ae079b8d3bcdd9f8bf7bca31, 0x281a64a4c5a175874a9fdba1020b161eeaf3b308d51cc394a7bbca2eb8d5404c),
  (0xc4410b28464d396c25dcdac8779ca6178e10d0a9e112ae08cddf3f527d16d58, 0x25106aed5566baca57bfcd0e9a4864fb6a6e2df1d514d615b01bfa6a6eb7f8af),
  (0x43553478c1258db64e87e796125208cd76c174bd092c8de849f85648283ff4e9, 0x6e47d3c3d4184c1e3d5f1729db62b8cceb028c6589e0eeeb7599049392c96a6e),
  (0x36e0bbffe784df314f8e0f55044674d285a1685774edc7f8fff78a68c504e4f6, 0x4d3c9d354026d69874506f2be4bfce5f29468bb72da820ae47b656e6cbb085),
  (0x7681208f44f0f08d031b83b39c91835ce7e547ceaa1221d2be2ec2867d2545a8, 0x486f8b3e14ef53cde1530b635bb4eb9dc628d44b0ecd31fb2dd4be0b61123ba9),
  (0x862bc636445b96c8e7711cc518d2034db93c4b530e821b45e03f2b467d12086b, 0x2007bbe8aeb5329fbbf1de28038ceffc4caad6821124da7388378cc7b50d3bc3),
  (0x568186b96ed5b12a30cf690e663a232380cabf9a906e117c1a58a038d45e1462, 0x26c4940797f4d803ffa3cc2fe73e8de439ad2b78891036f4dfcf18fb7419b73d),
  (0x2894285a4bd0433928ac0f9a81c5890fab3c74dbf83fa2e526df40e9d028bfec, 0x85117cbab978039142017d6f3d2a8970cbd2c889523728fcaf755e925dbf4dc4),
  (0x2aedbaa4b6c6a1b219e130550c1e8d3c4881e25fded34c3efd6775d06a4192bc, 0x16956ded923c20f2d07398bf6ca01ce22b9f805493403c5a3546b5c810d679a8),
  (0x4741ae5d88088834bde211b7127ecaf221c81253b1eb1f42c5bc51690c821ffd, 0x9206fa42b51a8cd90704e60ebe444938cb533347b26b65dddc33534471afd852),
  (0x1fe31e9ce0311003f3cff21485a4642a3fc194519781acf67dbe19bd50e50504, 0x5c2870f6e40a02415480c6ba7567ff68ed782131dd513c91d9f0bb4f7adb4354),
  (0x555cab8bd22775573f5d2e3c0579258f3bc089b1d3684acb846aad1aa795c097, 0x5d636ff79a16e3a9ce740317736e20cdb0d536c52a09e3e96447c355693c8654),
  (0x19404d464d9a8307da0430b55e507dddddbcb04287519b0b62b5feed71d49205, 0x3e1c54b91cb6a714a10d97549ea8a7da80205a458cd799a0812d0215a67a3079),
  (0x425a3f1436771b67fb85ad53d7e748da00dbc0ebb04a7183a3080fcbf5a6abc8, 0x8a71aebf3b0d4b801ee2f4250c2bae8d2fb6ca996364c83f40e3af9fa393c63f),
  (0x6600e42e527c19265f4376e70560e9cbd3209b41557ba9c16918b7a66dcd48a3, 0x659974d1fae4969d33488253da34c40872af83e171ff677e651165f0134d125a),
  (0x585b91c09cf3dd0b9cd6780c201509dec2fa8b11486deb706bc1ae68b37c1d8e, 0x6083693a85b9dcae60508a32d94c42784fbc9ce73757483f79f49a13667fa49e),
  (0x530845c535b047d2b7910f9c0a4417c69246fba0897050be6e256994452865e5, 0x7d0fbbd5df4935941a5663e12f02c96b3beb03fc3fd357ed59f95d421b73fd6b),
  (0x5eef324c770955c4d3494d61b6deff32d79a646a046420f9c4e8c8cc9f23cccb, 0x2178ed52a736f90a9a40b7e2448be710e1a44e3360e1c280bd761fea592d5098),
  (0x8fc934229c0f7b9579a30305e615500bb729bf5449b17216e1451d019122217, 0x3a4875af4bfffde3780b547bfdccd543135aef44e9395c61f120d00dee825061),
  (0x3812a410bd3e64af7d07ed7e24998a4ad6012c5b4debaade0d9ccdb6a93533e5, 0x3784caef0097f02c13300c1168b18b5b1378717903a0a9c996c02237c386350f),
  (0x841d1c3c98296433ce2d71af0a0ef537a6e96966e61947fa082a651f192a57af, 0x5c3f1c0e220f0900360e9031e44b52f9a7f13d1be446bd15f1be29d43aea93bd),
  (0x2eae77ba1cbebd3e0d9977842442c9d54a5cc1978baa52e224e76d2483027c2b, 0x7dd5fb1ea6619236abf98b973a4f153df9fe618627969db28d2ef0d9d962e172),
  (0x21ba2c7af2cffbc730e48d68454b6cfd514c89a98af1236bd05d17ba066ec8a1, 0x88a9dff9c0b7c82e9a1508e70a3d88422e01792f272aa65c62e0c662b5e29db7),
  (0x55456b929123a51a409a68d0f82063916b44cee67655c382a2a15d67234457ea, 0x29a0c1684071289a83cf0d3984e77b7bd8b45dd555988918cdc60fa99c44bc62),
  (0x54171e188bb8f42eae203791afde2227ee717640f31bdedbbe048b815ee03c50, 0x2d727faa4f9ab8f498ba737c73b92abd61a10b7fb60b2aeb8821335cad4c33fd),
  (0x8855b57e2627ecf49df6b68f8b40110a1abe2359766cdd31f165539d497e9edc, 0x1d37854421dd85eb850992bec504762db756a7c7defa3343fdc30267c30d02af),
  (0x4cc7186eee4383d4838d13e4f70f7dff480f593f620903a491a9c297f1d2735a, 0x7991b9e3016c3afc6caded0f23b4ab590a1d36b01bb04021146292556ed3cf37),
  (0x28a90eb5c4682307c6b3560dc19285be847824313bf37c5693d2359c1bf31f5c, 0x90d95b7f1468b7c0e84b7e0c813dd022b3cee6f1ee74554fd4910ec5d3471160),
  (0x655a5ed39f1a4d50936a35e72205d732803c6736a22c67a2cb151da573f2abc4, 0x7ce6c058018211c0c9324a4d749ac3baefa0a79f0cf06e9fe92d54fa0e1e5a91),
  (0x8d1c67a644cb28e14e48e1c7eb7ee3f4a7153d326708f7d219ec19b4264e8827, 0x2686081e263e06f38aca619a890edde3f7ae9785b711acbfaea5c78943993ca0),
  (0x6ecefefe2e6bc71d0a65aa75c3faff34d39a254e1063e972940d2fdf662b9a8e, 0x8b17565eff6df866e52bc11b25eafbc13028b888c051b734fe9e95e1bdfb2d09),
  (0x92b6a0e94542e520b23e389713cfcceb0d3d5726c2dc3475a1b1ebc36a1cae46, 0x2be2edc7ac0b723165146c18509c23482903dd223c85007c100d5444e2394792),
  (0x3985a45a97f338a1df159230a244f806ac98baf885770b87d181b0fc6727362, 0x306fc7e83c45b1ebb88a5e2daab7433aa5fc00daa27aa84836fa565388269532),
  (0x9488053581c21f2f718cb38b68b139db9c1a43f7335be15d42f9da0e6c180fb9, 0xb772a5f232fba49082413e5450cff58cde1495306d9409be92b0124c7ea0728),
  (0x75f87e3a367c38283b9c44090706cb26d923e00235722afb5f1321ae34298ac5, 0x1f804012797c8910e6e188393a34661c5e1212611171b21f787622f8abc9972d),
  (0x8e7d3f01affc4d7d0e073b71aedce34ab1fa576bb42f68f7d89ecf61b84c7bc3, 0xc0b7c7c57e97bac1ef15472858dd7c8567e31604f230c8dc55abfc6a5c171b6),
  (0x945b0ebfdeae63618c48577425e2332443c21d6681df9fe5bd576bd0c74467e5, 0x7bf222738d923ddf0e19794a6cabc03ede459258271bd40f39876ad861cdad62),
  (0x687cd343acca3e3f781ae0b5746a1d3f1bafce453b345570ed8c05ea11e457ed, 0x80b6f3efb8569e0c63cdabb091a5dad8f7838e19e45ae87f50f0e64da3b3144d),
  (0xd2154f06eb6e4d7eb0eeb0acfb604299dc8ef740ee3753e819617a039541eb0, 0x8c2c542397459cddf2a6cd2a3289aba2de06919c0a56a8987b32753bbf6d49e0),
  (0x57e502de1be0e92147038c99cb0b04d8289ae8aa8a7ed1cb4ee155bd3599f2d6, 0x11c1de8dfa6cfd5a256e7e31961baeed64b7fd2c6ef941b5b3e2cb8eda9322bb),
  (0x668c38e3424eec0b8f818ea8583fcd13cc7a1f47d81bbb4926140d12f7f0e216, 0x2e001f52c7e59414499db2752cf8fe64c56bb80601741009dc5be37d8603d187),
  (0x266011daa2b8dd98673155087ef6f298314a616e4a76f3d2922f387f6f3eb61, 0x8c208526c7fd6c2d818619bbd1334103ffb4d5b444d77c7291b166db53907806),
  (0x6e3776b3710e63e228aceac739c243e8cb237a8c334009a346a2d87e143afe97, 0x74766b7f889be79099128127ec8169d49bdab06d64e62d1d31b4da48d9c7c628),
  (0x134af5c11383b6715576dbc5c2e81140ca5fedd17669c403c6e01919c16962c1, 0x2cd1e759778910589b78dce890c4ff0def3e9ec6de88c5a7218f387e4d48c8d),
  (0x4d777a03e8a3072cabbc67dd53d55d1fee830b2724f3b31533adf5e1540953e7, 0x17d29f3a10c119a9e74d3b1d16fdedd9b731998e6afe97483e45c9acfe306af5),
  (0x8bcbdce2ee3614630565e27a5d86715ea16678ba96ae699075c6a364dfb61988, 0xc1b50de56e48007a48e349e4a1f2b5d526bff36c92c5e2ec4e8d06efbacb50b),
  (0x2b751cca9973dbeecf2a9fdda0e269504ecc9dd7f85fc62ebf1b3f1d4c02e9e8, 0x53d95121a66d63c1b9f1f1a6f411bb634a6f5e99859f35ce2f3af8aae0c4f17),
  (0x61636092c2838576863cd9ac68c94aa8cea8b2e3dbfb9943330b4c8fd7785e92, 0x47e66cfc5782c3b75431318e5c47040adf8d4cbdcff33c9dd321e9452f3fd7b4),
  (0x920d09d44e3ae7f06e5fdf1436175d70386e6725a4a6c7bde685a8059417e109, 0x83c5ca0c12db0c9a92e91ab739094363d9b25f306c5c59d841114097bea4fd03),
  (0xc7bbfc88ff46004b211b2d45b2bbd425c3cd9838c0b7beae9c8037ea0fff785, 0x22e276a03757264db585e1ae01f4194908e24c13e2a38d19145e280f5d8252a5),
  (0x95bdfce4aecd3317834dc3f49f282d56d1759a81139195a7044ff28e329581c3, 0x54c295c72527f8f5451400c65f0e23c64e9472a77b614fa7683e6a21455877ed),
  (0x3aca8159237f0c35ea65dd3278f463c8f61d9749772e43f80e51d38c955f447, 0x4346200c0c8e146d8827ba4bf23e89c762bc2f41d4c33cf7b0d558cd78500626),
  (0x7b6d0a79ea3be6173d0232a2e0be75368c5ff6e8734c37c4051503a74457b245, 0x2dd0441f50a1fe8797ab3257af646fecd7a7d7125d1788f84cf6031e10fa5ba2),
  (0x1a20a6860dd5cfce34cfcd2fd9822a82605635911db5b10ce73fbedcaad0b37, 0x3de2de5c766b89a17d99db1539b406fadf0b4bf142e809dcf994a35e3dd652d3),
  (0x3387e55726f3aba62c7a717503d3572f36b28e88bbbba1638cea16412575bbfe, 0x86c833c1cc56007824a493d0db43b3bfce6aa603ad0f6a77a3f72ace0a738e27),
  (0x7a505c72dd65a8c78df17985f25b7d7a7c939f07d8a67ef30c79fcff69cf4fde, 0xf88902962b6cb76382c626675ad607401137d25009a6d52ffcdec9ac27b11cb),
  (0x5c3e85f0a9fd9df3737e39a0e2f74b8f09ad1809c5e0120c914313461a0e76bf, 0x16dc4966f7f67a86e9169f46ad616601250f6e4ee37ab2613ce86ebf4d0f3cec),
  (0x10fcfe825318a50c4d8a11a91e6117323d751cab8c71710643f3b2efffc617cd, 0x985a309ff04a8cb64dede73c70e23dfeabbf53dc57ee3a0142ded0257e28d28d),
  (0xdbc86fa58118e66d39339ed85cf772b9fc0a74d19fdb421b046af704ec99797, 0x9b801af001b3915bcffd3b571774d9a1aeb9f1ebcba89091b6d5030aa52e2280),
  (0x5d395dffe6b82013559d6de85977739a079d1dafbe868c3e372de0422fe41ad2, 0x4a169f3ee150a7914d3e8a2eebff9d71e3cca54ff73c645d66d3a9c28258d749),
  (0x96ec553a0fb5743d8b5c9c3323229d50ac7adf62c39bc713e21d23f79ebebaca, 0x828f986ce513b070e3fcb0e0446db437404cb7e1a8f391da33abb50c56c3fe79),
  (0x2eab02dd4b0d86667c3fb059a000e7b8f8397da6858e330c68f4438f46f783ae, 0x3b8ec9b41762e11c4764c17efb8e53a11b99f43c71771824bddeacfe0991d74d),
  (0x6c5e0aa55c0bd230a4db08291b2944036f63f6ec1280228ab05ed13d7f26b121, 0x20201a019bb6092a7fb73c4d76df7eeebb70f2ebd0b65871c0f5564d6c839e21),
  (0x3b1a405ef6d33b58a525229decef6bef63aba7be5d026e10c1efd2c90d8fcabd, 0x7e295d096afc6c188ecdd4df3d4ff5ea6f36fbf4b443e670bfdd710a9e2da065),
  (0x6a76db656c9bbddbaffdae59f0ca8a65c22b9dad0df689a9d595556ba3a15bf8, 0x3e08f184daec97f5a3cc4a1095f50ea345c9b18f42a6ab5af580da2d4f937b2c),
  (0x95cae5351bff44b51157e99175401758e9f71b818d25833750968c6aebbd43ee, 0x581278ab6f612a0d9593e731826bc846843105baf98c0d63bd0feddc117d618d),
  (0x96ae46ae12f91b86b34dea8891035bd56d2c41d1ab922b9c37b65dd8e2d15485, 0x2b19a67220f43ea272ddc4139b1d6fbbb12a564e0d49360a2a27ae2474cb4fda),
  (0x83730ccffed341e51dbd8cc2f169101a6ebef717072db6bf8a1be34ececc3301, 0x342d71be8cb14edad6e72f154ade21e000230989da44b1684a5df533d9b9c0ac),
  (0x117d0648d299078bc3d840d0dd48b14e4b9df954eb7f4fca6d9e08c540c2bc94, 0x4b26fb82e002e8f7eb77fbff215dce30db724cbc674e5894d2844a87a5ddffd1),
  (0x69a82a738eaf25f3a0467de111679dfafa4298b7a7a9ccbf2872cd28064ed66e, 0x4f81dbbb84d9fb34daf5e86478c3569424952af158a1960854c54fe57720e485),
  (0x52a20974611bf3399624e63a78137a58f1f35bb258a9810d8f6f77f4ea7f43fb, 0x4b1776248b66b939d84fb53e7ff69493d94ffc086c0cbd80d0bbb5e72f2c9be5),
  (0x55cc74d61c9fb8dcdfcec69b8a4461d0392ef90e584fe697424a2a03cdf755d2, 0x1b36c20d57725ba7229d2a2278e5be9c418973a82647b6f7f874811064df8863),
  (0xa12417bb2102b33c24c91790bfc82d68b69e2f4041d99fd33c8f32710b9eda6, 0x147cd1c158038f9a350cb2f84f71a494bf0e5993891e911bc19dd85e8bd8f5ef),
  (0x6f4dda013eaed5b2ce3b0815ac8a6bc54c0af7fdf54a8b9d06bf28667a0ad258, 0x1004cd18883ac04cebc1f24d961a258ffdf3d04438f34ff71e212f2c2c1066f5),
  (0x834498a7ebc4ab604287d2105000312536e396429f69c94d130fb24130945227, 0x3d1944a7e1c5f004fb665442fcd4d0ce8994132c61acf9edfce05c56eb979cf3),
  (0x8739485fcb729791a9dd122156b8d59f9d284a55ffcf3e69b52553e7169c0055, 0x725b8890dddde24aacd6dd6c6ccd596ed93f65dbb96a3236d339774efb26917d),
  (0x36564b384510716c505189301dafb70cfad018dafcedc7c428d70fcb2b11a602, 0x127c79767713cfff1bce5fb7010feef652e81ed776ebc277c55649714f4eabff),
  (0x279a36478bb870b7fabd0d00493549ef3c9aa7d72554d77e591b401d3ec393b5, 0x7e0fa890c1c81171f4603e4e6491ee80a0f736eb91ec4a29e2c38cbc521feaf6),
  (0x45100d6c07fe6f09dbe3d62ea674d93f2dd82ca0fbe57d837d05a1e4f52fc108, 0x7992c2146a7988a45b883902a72b166e11016c4c441381a9929aad1d3897afea),
  (0x7466798e87cf113ebb532db181107b824eff5af331041a24eaeb2a96d34d96d6, 0x4d171439db1504d533ad367ab5597caba49e21b57a74a74c56088c4e736d259a),
  (0x6656a461307b1ee8c82ae200d5bb74181d2518a5857ab4f62821856e546e7565, 0x757393f6cab4cb5659ce032afff7cad60c12bacb349696ee1a70d26037d1fa89),
  (0x66843254a9761dea5d6bcba468021db3cee3e60abf1f5ad1e7f12a3d86db6f64, 0x29af744def577893aa0cac32b8d0547ce0638f169ab95ca5822d72e5e8dae5bf),
  (0x21679ed749b7b175826934a2c7e56f32586b6b14257e03ef13eee6d5382472e5, 0x8b5553ffa4a3468f155307e5e7e164b4c786252efcb7c2bee9349770001cbcf),
  (0x69656972b99fe46b9e1be9c0877fa9088529625eb45ca47586b28f68960dc9a2, 0x42b830593f6f613a5bb0a4ee1934d0934d85e11cda29be74c6dde874d87863a6),
  (0x5e8be836050ca469fd369154ba449694915917fe30838ff9bbc62867894d7ed, 0x7e4bb6270e99490ca1f5e45dbe176004666405e8e15dd6a847a2c63b4b19c1e5),
  (0x13b5cc7bf606c4e2fe6c3aff25cf36536afc76c0f636ff6d4ea0f743b6c6519d, 0x49dd7015b89036d4dc9f283f1e2eac96f33d959d3c78432e80a4f393864d4daf),
  (0x3027c286872f481a6813922d48d437bfc45938655a0233a74970b92c326ae6d0, 0x8c8c3019b8b7fc560bd7d6447bf8dd74490cbceb1a1826533787d8fa8a84abd5),
  (0x2de3c9de59b16f6026ad1dc8aefa703f8116eed0a56a25e0a1f06beee44fc023, 0xfdc7090e6e4d7d24ed392f5f03979c10457456046a3351e87f6d436d16f4229),
  (0x11eb6c6808fc4f562486b857090aabbe17dea9d7dc7f2ad0091b43a5ade8b14e, 0x105793aa97198ce1ec7536c29f8c86ba329aaaaf8355d6ed15dfb2631069b47),
  (0x6ba3cab6d2a5efa78de97cb833134cf7e7d6f141e42dafc12dd4bfe406b9ebe0, 0x193389cbb03cbce2e9b64e112e14abd4f4be86fa40b2fded240bcf5f26ff8f64),
  (0x12237e5977cf6ca2c2c5fceceb1cfb7b07fcc532fa4440aafc26afdcd1125085, 0x4bae2310cb38945240bd687c3dc8ee15b97e20a2e5179acfb05c5f20d3b15b36),
  (0x6f0ae07c38626268c2e8451082bae75de1ac85f06129ae15da13bcd517b3e2ba, 0x346e84a30d4cd428c503b758456e957741401d2318e03403805a9cbc1b0b3df4),
  (0x6a1efb16396d8454c0ad0f27c5b385aeff131c317b6203fbf1a734399bde72b1, 0x9a62bf4d483471bf5073b36a5c6d50ecdab29e0cb7ed64209bc0790c3110c62d),
  (0x72ffaa8e8f635a6a442b8f88143d99090d69f6126dd14b9e6aedbf511272a9c, 0x3fed233c05cf0ce0f1c7a01692ce36f606bc387f01064cfaae33898bfb00eb93),
  (0x138e701873b0048027b43c7bc2d5b39ba8c7d2f36ce7de59db476d226067758c, 0x295a059813ec863eb21a419299ee6d5e360301eda63393e8577c6b0d12332d70),
  (0x6e4d657e0db9d35e437e0c3c49036842013410ba23a60ed77c9c44bd9ef21bd5, 0x285d42ac57e1c3eafabfa517b11622429986114622db019de1e8656b74d3de83),
  (0x28a7df9c1ce1794367e73ca6b3a057d5f8866f5c4c286586cbe699babb2f5351, 0x8de09efcbd8c32f2db6f37565ceb54b761960f09c510146a82771a14c1ba92e),
  (0x48264a5e335dc2172cb3c1bc8347b8c30571b7156c993cf27559cb99c92e103a, 0x67d9fe6d1ded24c5974f5111d75a39b48ecc7db578a1fb20f6a470e439a19f57),
  (0x390f20ac03c1db43441f56d8832076c76e0ac3ee3f811250e0bd002d642b0dcf, 0x8254f1be094a3624b07c428aad6bd31b171dd19be6aed9a9079bb41142cc09ce),
  (0x97e63f00ca0f26b98568e37d54ed2059b192f993052afa56cd96f83a9508e79b, 0x314a9109f79aba88a30a1f8e951d1483188295bda68ede4f05b0aed667ef481a),
  (0x8ef8bb7b5fb3594fff47ed975f0f918255d9af10002df3ca3539240b3ac6c9ac, 0x8e412d559103333d0a1c9d86b9ecde1b45c4e4f8518d5f3717a433511b6a0f37),
  (0x45befc6cad24d1c8c64ae98db6d05320a6395296fe7e51a9a9bea1a66e5d0278, 0x1487d798cc3a47243daa10fd86708f9d6e2c2f0bb5720307a32769848e477a21),
  (0x4cb595387f80be95e16bf6915e1cd5627e7150f24ddd966cf04a1b4cd3853065, 0x566f271cb245225bf457e0f53d7f61396de9f8f5f30c9a6b44a2096878ff5de5),
  (0xca3784f202ff53d73fe3cf62689d35c2dd9270a0b6ee70f77062bd6e12699d3, 0x88efe138573965322d0b4ade26312e3cdefb31e9fe52db04b675c06afb61f6d),
  (0x26f50bff2844689ac258153dff55b4b0ed7eb699cb91c6f19109c72e06acaa17, 0x1ede30b14d13e690ad6cc17d1763194ccefa7b026697fb1119564fa7ff8fbe52),
  (0x94316cf88c5687b9bbb1346eedd2dfc043d40832b9e1aaefd3bf4913f55139d1, 0x89e4132c92383879680d3494c04d794a95ad2223ebe38678315bc0ef80c87817),
  (0x4139a279de06b57f83b45d2295a4956f06f5fcc902e8db052c85d93ff1c47981, 0x163d2b17bf37d17ee99ffaa411c987ce81f96fe407684a2156c460815a0dfbcd),
  (0x5d73da490e420cdf0e4205c250b035a3cf7426ea22b67d0e83a0cbec500da4b0, 0x573a3be7222511cb0a2c6f8f9e6e91325b1ca0b5c357f3f263e57d638ac7c777),
  (0x47c58f44913a0fb26d52b7e1384070859c7417af7b991eac3590783727a7e622, 0x84502d88e3d08c7884ea6694960208e9a5871f4ca6e399b82f1f47c21bc549aa),
  (0x9a76f0c2cc4d7ffbf6f8813d89291224b5b8a00c0516b7925e0a490e515e2825, 0x709e18d13aff6da00d8a13a8d413b4054001e4eba55fbb37c23b67cf68951bcb),
  (0x3e5beeb7685dca8b90fc3a691ad2ab88c56b7bb8a2d0d159d144661d9179ccf7, 0x77ab3617e26db37d5a1e135ca343c10294a927a5fb9c0d52c9fbfe62d696618c),
  (0x34bf55e45e384131b2eaed3e9ca0eb6a6d6962d031c7a52ae4b3a44260c7e8a4, 0x91f0525e590b3bfbab60692a65adaf724081dae3d4becb904cad72948d865b91),
  (0x6b8beb45aaef9e6bfb4a0a977a3aae8ac72a1cf1936ba29847d8b9569e71dba6, 0xb77430ae4b5b219959687fab46fe486e8da7edd4edf72d3c369910dcc02932c),
  (0x1ba791a2ec83ef3250bb7e22efa34ef8b1166460085edd1efc784e90ac0a79e7, 0x731a53d2795ae6357e80d120c7eadcd501c891782dea20334c44b10fc99eb80e),
  (0x7ed60bffe09f9c5577dd194e5c352a68bf2e1dce31d49dd3104a5ebe400c7c50, 0x7cac4dde8959d318db9f006d560d7acfd56c8597c500308f24adbca94d522023),
  (0x78703ac282cb96bc77c5e8318e5e3accff213a8baef8f05b73acac4f66163bc1, 0x494a736097145606cd6142f9ec8916dbcff8e42d1f75b12c8cd901b342035cd),
  (0x85b9365b53acd96998584732be82d0f2d3f50601f4fd9c7380e552a8e55787b, 0x2a97e051b53e3a57575f10be68a4fa69cbd4ce27bf7ea4d6d10cba10c2745cb5),
  (0x2eb9acf0d82eb90800364a7c83b8d858a9946279b00f105f239af1d755810ee1, 0x8cb6dc4b31102304979c3995f0efd35f2f5b8792402ddb0c5730cdd93e1cfc49),
  (0x67196168b394a40d32b248e25a1749c53d5012cb999a0b59a3516662b010822e, 0x2d925a6d54cf646a6e9d91c69e4b925fbcd9915ed7bfdc1a1f4d8b7b1c7bfd68),
  (0x262d88fd6d49abde2712fe37ecaa85e4b0a52b3177b5498bfcaf57464a8daef5, 0x3102d96ce00ebdcae0640ec6a183d9920ac579949c596c16302e599d678acadd),
  (0x1beab91e843999ef2e14c8971d748d7e56d7d6c38d3aac05c388e858ea199c14, 0x491b263208a1290c8d7772b4b903b10973d7a2e57f72c966efbecd0f01cde501),
  (0x7098fff0a3a6cb2bd8fa8d11225dcb1192d0bbecb688de535bf59a018b39952e, 0x97ce1816938d96aeaa7b11636864db9c0dc88c35e6d215cf6337971f722f35d9),
  (0x3d33ab389c56bdf3c61385ad71496732e52605d0f88cb36086643f56fe0205f, 0x5834982443c9930d4d74cbc5ae28eaaa3597c8139d93cdc1841b3a017a13db75),
  (0x2ee90fca3c24a5a4d8d582535a2490288447c809fc32d0b371fd54f27e74972c, 0x9f1b019cd5adc531b05b0a4d0943004a17a5079ca13d34cb7617dda6ba7f8a6),
  (0x3083f05d12f841088b392a961d781db037124eb2aaf8511c8e697a8b64bcf161, 0x36c2024ba3b4175e13e8b4bd6bb304fc1f6a864ba823ae8bc46c87c9f34b5f79),
  (0x3dc92d62bb0864770c9cbea5a2edf306f73f607788747e50f924b97f5fb4ccd8, 0x50a5d4421ee62f5f0da6df37e1158148d361b0c331ed06a11550c9272079192c),
  (0x86646a84afb8f8a1a753a875c53497b344402a392f5323b818ad632c0c88c72a, 0x1560b6e1a2b8dc3d82fe3f6889a3efbf3a46b236f4f15c0a855658dca961920c),
  (0x8cbd04a89f1128d3e51c1a1d27b094b1b1cf4b54d4e0eda1a287daba99a47f66, 0x6451c8b6c0076bcb3dd5c9735b10b41cc6f2481448dd9f0b98e1b2b8696b77ef),
  (0x59d4e3aa3afc72352d108de13ec23446cb5f6e542b377c811e94d7d197eebb10, 0x769c0a61f5f9decfd9ac59b378fff33c3b551aa627fe123f19cabe61f2d2e621),
  (0x8981856ea6b8d54cd56c1739b784229d145fd9285c019d45d1cb173d7e8fc7b5, 0x58ac534e84781208d29dc0b3612f5066e3301dd584bff127973994783829e75f),
  (0x10947ea81c1fa9310bb264b64354c2d6b885392bca9a189ec3030ef84bcb72c1, 0x3dd0edcdd30496e8bbe42fdb5135307a69e50648b983881e8b1b23f5b8eaabc0),
  (0xf3f42707d7257c2d0b77d97c956664381fab1df925460378a9f595237da4a8d, 0x7dcb56b689430ddbc36b26dc3c2b10c0d84c786bf892b45f90ac0fbccbf03b5),
  (0x64e63e285c6884eaf436b958697692a8b9c9c82e7cb09e178d63e5a6d38e029f, 0x5f0297d300c3498784a67774b95e5fabaeb65451519acc7f89a3b11be714981b),
  (0x10d3e71975e65ce6e1ddd49826b7d6733ded8d88b9bd75167f44b8c45b1cbdcb, 0x2f196b77f46ca2474e3482c8a5a0695889d58390169cf2b0b73827fac40cbe79),
  (0x2a69fc84f09476aed980e2fd26e58c2272c242ef6628a0f68d27e3c1c396f5eb, 0x8491d1bd9bb3458625b9c871c5d1570b80158a153ac5b548ad95a491ea4240df),
  (0x67d0d82faca933f74795da0288336576e790056ee96d13d3e2bd177f3e806886, 0x13661bbe49d27eca8fc7741dfed2ad1a65bab525fe10db3489451c2ee7f5e85),
  (0x74acd1395b538a99c07987b4acc2ce4439877f3656d69f52341d73a863dbedc3, 0x68550f759d40edfb438c4072d67315cf1d9abb16363ef5e55377c78ce05dd073),
  (0x1c83c30b9f03cabf90f3d743b387e012ebd0812a086915ca8f7b6c0c7ceae094, 0x1c3b3cf20d3bc12c15fc47e2dd06cff6ad079e40236713fd79ef6e2523e18185),
  (0x2da76aaa81e24bbde2c95b91925dc4ab9e82ea80bb60bb4bc492edcd8045f13c, 0x3d24a014d84a62de651d3a3166331735eca0ac05d5fbf853fb1a933c1caacfd),
  (0x29a2c9ed9a5134d681ae3950ef226c40e6ea8216e25d840356e060bf261d0496, 0x50d322f44acf46e259b5a96dbbde447d540e1587e6234e08a07340dbb067e65d),
  (0x3f88c7e1df8f4a2c7127ae470bca2edd09376ae5d404bca996796355c6c66c47, 0x6cf6ce7e5b0aaf6d2b693883598f7fa756bf60dc11f0483d776754b1cbeb8e2e),
  (0x86dc6678edb4a95fb4e21f259e977ef096110201670b5ad20c6698047d89141e, 0x654822775b68a2a433443f0d8d91843f1f1e65eb9f779828b65b9a0915330739),
  (0x6223229beb4362454294763a61f0ff3db431cf5a03d2c882c0f1aa4d355c1c5, 0x411d5cd845cf2812d8f917298fcd9de147402945ce7bd4ac341e58e17a1ab4c3),
  (0x76674878369f3da62997179b12c3d45e11639033fd5deeea606ea89e2553e55e, 0x5c4ef9f38074aa020da3ca1467ea1afdcc76aa140f3058ad6cd62bf8e3e4ec58),
  (0x27467b95fa0c8ec13ac1ade68e285b611025b02ea958fab35f7f6064cba8d148, 0x1c1126d32c4508b254b8160a2fd6bd9cf0e7a5999cafda6a0fd06ab0ed7c14d3),
  (0x3017ecdd0e6e686ccb63f74bd9f8c9df50ea9625e7563da1a1b39c66766c0b0b, 0x530e7d5c413900aa2eca43a605d3b21ccc5fb28655124ec3a214716240f60961),
  (0x5bd02f1a5259eaca0c884c777036a839541445cb3de3adbadef6f3970c083b9b, 0x7105e5452df117462ffbf27865c40fd0fd7944f7a4b64f4be14c7f7b759bd442),
  (0x5adc60cd7c680f769c8217dc5f9ab4f333f9b5c82ec632622fd779e39debe2a9, 0x82add2d32bd23c3d998822d109c5a2d422b9f192eae4c294c0090efbeb800139),
  (0x51114bf9c8e1ccc41b1076f80e35d24f4b3dc5136eb46413a98f5a731c0a2ff8, 0x893f7a1efa6f22d2f11e3094eec9b2251e5fd8bcdcdfa30ffd5aa49ad86c996b),
  (0x50946f7cbda910c6bc6cdd3b8dfbfcadce13cdb4f5d748881c2b1bf19c33b463, 0x228e202445baf364c1e48177de5c7d654601337cc860b422c7bb44c5f1c3f145),
  (0xfbc6dd8a925bdd20184433846d5f620319112fecf17cbaf93054fc49e243ef7, 0x489a066e846042083241ebb8a38e12b79eee94dec8e6c80591da0ab5c08641d3),
  (0x92b1935787232c0ff60a8b47101a4b058a3b8bbca8d2658b730bea4288e4c450, 0x2ffdf8e00ed62b21f0c4ef4e14e691b8f4a8121c712a9b06e0fa43063edf7db2),
  (0x421e2fccd476daf9e43bb86d67be233b2db2422167a9b92409230d92e5917a5f, 0x46d561196a76da06267be5ecb9f6744c3ea39ab096459f9d19ab2416a5a986ba),
  (0x841d8444122b72f06177a59185a4e5f928e07ea5d9bbe0ae0d4584dc806b87f4, 0x186d32fc8fd8cf8923980f2a60101f64c495253f17322d43f69aeedeae67127f),
  (0x3d4b2e81dbd115e6999ac41ca92adfefc3416d99416056e5c9109636d7e6256f, 0x124e71a9ff15c26d1106292235e07ec01941ca142283a11909a2a0cce1ef6ebb),
  (0x75f22cd6bd6266fa73b0a1a279f41a70d64b05a16e369fce2af3ec582df24672, 0x2a555b966d4a4fe48f037a12d764b3f1d780b03d9785e5106e3f2c23ae400d67),
  (0x4ad73fae524e8832dd9a7c77196b3d4a89e441aa4f348f3f4a4b03e6ce32ba7b, 0x86975ac96099c5dd371c2a753d1c9676d72f7f88c4b2bac770f93bd02357d17f),
  (0x590733230e944e0eb0868e76da930d788e6aa8589bac4a4e10176602e733c82e, 0xcab7cc18dd61f62c4d96a8708c7183affcc7f4cfba537dc1b291caf26fe0783),
  (0x2fa345184ffdc0cfcaf00daaffb494d12d936c9f624ee40211fe2cdadef87c3c, 0x542f1103448b8678a0ae41d35b23e4ce203f53cefaa7de4b06d70469d8443976),
  (0x93fa34da12d37d8747a16d85f7a0db7489a18fb9f78273a75c5aeeaf137c109f, 0x96a0d726792b18a2243078604a45b555e4b2f134d6c2164d7dcedaa4de8dd218),
  (0x6d4e807a137de461ab15420bc148c9b4ec353b80e7db15791a04558fa2d3aa5e, 0x1e3401b589286b2b31341324b5d2d7790e1a4af9001f41634d5e3ac87c9d894a),
  (0x95b7f1842ee40c776a33d2b9d78317d9679d09b538c4a65091f027a8432d6b04, 0x14dceb35fc9a45ec482d941a9d888c25f67188c18ad29c45afa4c93857800e97),
  (0x6b7be7e46a293fafc75c314f68c7804242c35496e9c55d1d974af2dc2420a278, 0x59f5bcd84d649bd8ff0ad08f16cbba21db148a8d6deca83bc943ef6ae2d378f4),
  (0x75213b8f794f144d66c3c07220eaa8346266132342c9a50d75e0e879e0fb717f, 0x579e18a6ca1a552686536a59bbbd2e9f6d3805ec562229d0848f01013ab041b7),
  (0x99fd6fb33b2ea58b6750cc81061874b5f85cc3221e47c56107ecc614beab1fcb, 0x645554baae8eba83d7b6f2a3493d9a5799aaa079cc8def68e6c56970f21c5913),
  (0x24c0c8848b9e7a2f8f8ea498b610590d859d1e1125302eb5b32b7567a3855638, 0x56bffb3d114fdff2e758eca54ad7ce37973638fc74b618b48ea0f0728c5d2ca2),
  (0x8007e4215d4053338e12bf1f064cfd5b87aad90cbd2906006f9076be7213fc41, 0x699037f8378883582b610a06735635b63683651be548a59b39cf5d4165cae72f),
  (0x8a52c66df6b8c8309ad9de7b2b19b28f73f850462bb064aae3d080d5e2713a88, 0x6a82fe6bf399c46ebf3ff48cdc1d260044fdf1831609d1c721f5f617c64c5551),
  (0x10432296356ae7f18b6964693ea5a05862ebf83987029824011d9e0f3e959116, 0x84065e684a334cf6db904c030d6bd361127c1bc716e8a6b537420a5eada2d83a)]

theorem chain_ok : chainB (wDblB ec_CryptoPro_C.p ec_CryptoPro_C.a) ec_CryptoPro_C.x ec_CryptoPro_C.y chain = true := by decide +kernel

end Gost.EcpChain_CryptoPro_C
