import Verif.Lemmas.EcpTable
import Verif.Model.EcParams

/-!
# Doublings of the base point of the curve `ec_CryptoPro_A`

Generated by `tools/mkfiat.py`.
-/

namespace Gost.EcpChain_CryptoPro_A

open Fiat

set_option maxRecDepth 1000000

def chain : List (Nat × Nat) := [
  (0xfffffffffffffffffffffffffffffffffffffffffffffffffffffffffffffd95, 0x726e1b8e1f676325d820afa5bac0d489cad6b0d220dc1c4edd5336636160df83),
  (0xf7063e7063e7063e7063e7063e7063e7063e7063e7063e7063e7063e7063e4b7, 0x83ccf17ba6706d73625cc3534c7a2b9d6ec1ee6a9a7e07c10d84b388de59f741),
  (0xc8803302b3ccbb91aa5da2a175daa7554fdb1e3b49384b8d76b7db711129a64c, 0x8c34149a4a1b08a7235a1457998526591f69243d8bd0ce6ceeb0f04953176fb9),
  (0xbdf08edda35898604d70fba1e74c7475c680870cafade9b7526067092047a82b, 0xe4579f3fa4055fc72d9db5e4534bca15256601cb0282daa640c3d772cb69e3ff),
  (0xebe8632ca7979745b25af49f7a452c48426b4756a64f81dc1da436d24546831e, 0xaf090855ec3810778521e87b4fc884c3509cb979c57bc82cf18931b8d8fcfb9d),
  (0xa1085f92b8895a236d9f720b9f1a6e025787343f7f0efd63095a7b3f523f1fee, 0x824dd6ee8e9e7b929467ca8385871dc917f49f12286096c6556b4024f7a6c745),
  (0x1acab87c4078c8a3d5e6ed2ed5b565860302f01aa29e2e4b362da045aa1a4ebb, 0x13a9b6351b129dc46c0472b723980708ea444d2c35ce6913ef4c623798a241f),
  (0x1f543e89c29512a346e4d9dd4e157c7dbeb2be9a5354e9c22386c2034da5d9d6, 0xec30033ae3bbafaeebe52b7cef5a5284fb3e4d6f3cadc766b3bf973148f10350),
  (0xbeb8c33d08fc17457fd4f1e8489c3cd5163b6de6b1e645bf129139792e8fa743, 0xf97e50c369cb7597c8cffe254f1f1cb3a1fcb4e96defc16319e5ac79d69fbb03),
  (0x609393522641c167ea9e08bff951d0c37a25dca00642598fefa4a7c13c2eba5, 0xb4e0e7c2224b373c7c203867502e878d5db85431da25c460294d020fc702ce3a),
  (0x5b9ce67c6830bd12853d8fe391c22bb360ddf2889a30d10b6836c0b76640f110, 0x30b84053ffd24011562d04277f1ad50dc9b469182d90df5cc19956a98edabed3),
  (0x6b98de3e6fb77a7fe650d469d3aa32c6df3530b83023720cadd4f4a9804b8ffc, 0x3bcb470860083e05f31c96c5a002277fc1616798a98a83b7576895079b3d3d54),
  (0x19778a82f8f8f6b08b6306d9988d866d22a7511dac2ea1bcebc17ec6f57bed35, 0x87cd878eaa4bb7ad3901364c2d0da5a03019642da702a578904c7a87086bba2f),
  (0xd352fe5beaf9c8f0f5a8b5a028854546e024e7a0ba872defb392a50d66411306, 0xbc84f53cd65f1db64dd10465bdc16468d3e7ac4c9a016dface56fec1e8f3d33a),
  (0x8bb346161ccbf6c593ae4a946d1d295153c653715d733ba98255a339f915a14b, 0xb1a3b1ec87ffed2806cd7f266f79440fda04324271fa00aecffadd23f0e6be0f),
  (0x83139625a59ff640ff47483d87ee1ec9ba246b932930d7315bf7c90030b24ebb, 0x6de1af89bfffe50d2efa13c2f85f5678fa72abec4e73d43e98de50fafa997a46),
  (0x2c36345fe83718f92f491f3261690733ea4d63e2555622a0abea5b1f9a1d19c3, 0xd2ce813cfc50ab3d0faf05ddef63e982ab392227d9089cfa0b8452edfe2fbc95),
  (0x637438bed4be6c39a1ac7c2eced40600e5effa82028fbde6c6f0257ee82513c8, 0x9b8a9777032a187d2f4553eefe073f2b9e5ee38762c10b0789d5bdb5f840fafa),
  (0x68563997300c5aa3804a4bc94f19332da2e8da3e9be21ed51dbb949701f77aa7, 0xb1f0aa055098960d572246f6c029717729fc4e2ca58ea7f6e0190f2c28846cc6),
  (0xe3ea3e6592db33906d949e8939764d3da489c26ade63ae7112d4613701055580, 0xf0e55a94cb3879728c75b2814e4da77d2b53df2fbf48e2cb29fe29fa628b7151),
  (0x730d33c08bb04ef63534a20165bc425a2a8b07a1f2521af979252de3dc448b40, 0xa5ad63fae90763139b3d6e647ad73939a512ca4a924e5715185fa182b3d06484),
  (0x4e4d7c57b568f30af361fc631fc245090f58a611e8fd0648263343b133d17d71, 0xbaf075bbe109faf018a802ff94e49355c483a0158220438ba7fb2c3c9aeb8233),
  (0x79a76c0897dbf8db92a983f4c455cfe5cdbeff929a76682c09826bd2ce985c6b, 0x12adddb59eeed4206c7cddbba7ba97565c28fa1997ab76c29055090a7c2f0b3d),
  (0x372d938c8e24dfd67b3253dbcbaac656fdd1923e32667fa49658df714c3290d1, 0xdd823ceeb5adb8e494810f6fd0477de52e19dbb7db41510de0baedace6874b34),
  (0x93a711d7b28fa53d62d1aa71990267281fceba574eba1111c83d47bc3495592, 0xbbe0382f5f8b09abf933a3da42c35a5a2927493a95440f848a3d2091d56a1402),
  (0x4e87570942138a8d422737c01e016a5d5d79713ab30185cbd2229316ad146e83, 0x19554b1c73db5928ff2659dbc280a0e0dcb052c90ae383031a215744d790ab70),
  (0x9418eb33c79419a644a1a15077019370c6caa054b4203fb6f5fe4cf855d6bd18, 0x58d1af0ff93209a8014cad248c3d5db324961bdd923bc666e1b22e8f8c42b14d),
  (0x6b41116183900e28837fadc9fccc1864ca1cd9831d273ac2e629b5dd39c9f5ba, 0xf34f1cf2f307cf4f21450b93460a5f8a8e507c869142eeb7c5662cd0d1a2ffa0),
  (0x2c791d1ef345b328fc5bf0e5a6753dfa4e44a40f7fd40fe57f58a5056e7a97a8, 0xa92cc5167a64dc5d905a14f54785e0e1d72a2ec5c856b8561efe7e9b71e56559),
  (0x19350ef93601c39095fe2c956e4e67fde58b7a1897de9a1875956a68246367e, 0x6fdd3d2b90abaabcad9a49cd5ab663456a7326ed5d853109264ce0b185e2541c),
  (0xcb5cb8910afa62d39eac08e9d80a5a263b2afffc85b8bac61170b416a18a985c, 0x4c4d7fdc58908d44867fe1ca7b3f4764701c9e0b7205cd3cf2485caf99543f68),
  (0x2a2386c50b33f16fcd240e1d23a212486446cd968c956b33909be2b6eb7d51fc, 0x34e508f3a1a6659eaddef801e5544dc1b088ba603c66bd553c01e5d5dac43afb),
  (0xed44d10cad0dd14cf686b86d8687d127981074da6252f27904314c206f96023b, 0xfce982d74333eb06be451a280fdab8fb63b88d696e56007bc5d34dfa30027580),
  (0x72465111280f46b1676ac415bbcf3d6d6d9c4bcdccbd53d05cb94352890876ef, 0xa711a02d557ecc415cc0e37296d954c74c0e1b8cbdc209f9fcc2b65d041f66ac),
  (0x32cbb1a1121a6f1454d1216875d771fd58eec4c28ed0329d6e9ccfc1e05162b4, 0x4b4f1de4275d290ffa539f4e1b62d28b61ebca76c99278b33d8163212bb727d0),
  (0xc9b98b2ede216aaa85d8152bfdcccf9565b2514c796d991a4777e64e130da71d, 0xe6b66bdc16a34862386efeebacf4a585bcd25c800976b53c2558572456c64ced),
  (0x44f00fcc8223423b780ad7f830c9e12887d5f4815dc4728347bcc1ee0b8aec7a, 0x3c236ea8829a7149a6b62c5a7dbce8a2abb5e097b624425de7b2ebe4dcd1858e),
  (0xff68d4fa23d56b6ea2bcc942a75731ffaf5a9574a58cf8fc6846ea7f8c487c28, 0x6484f5ab0dd8e646be57605c20825946f1c4c8d2ea26665432a6abb9c7674f9f),
  (0x5bcecba7ce73641a28ed10bb82c9f46c330326b69de1b71eec2ad0225d7eab4e, 0xacba783d8cdba81d877bb0fa1280bada3aeb066baf4c58c6ac53ff60c4e99cf1),
  (0xfdf7a532200debbe45a66ef49d5445be616f607c2dff7e2712e6ec32355326, 0x4131899d6fb7afac7d0e3a3faaebbaa04debecb2d6a43f4652d7f76f7f0d79a),
  (0x9c44d63f20450140a97f19724ca4f3b51b233b0f7b23a44bd0942bcc00d6475a, 0x81ae236a7fa00aefa4a5f321a89e5b687674d76a39233d3e9eb3372d5204158c),
  (0x28eff274aa5fdc3dfa775cfdddf151ea919b80d2fe2e847f308fb0e41b5c5d03, 0x7da736ee397ee57311450b6442d6fbe782ccdbb6e71801e92bf95a3b04227cae),
  (0x198d9468828c7aa63be440d4856d4bf0301c78e57995c7b3f524dc23ad10b9f6, 0xf907e365d224e17a26d3d72b7c6def6d1cfe8d4817f2fff561dcfc9c584a11ef),
  (0xdaa30467d63692d0f77e68883a09774e5f54e061db75997b1a7a6070babc2544, 0xe2d9e2ee4c148cd5ded7512fe4f1145471a915ca2182b1ded4ed64d4e65a41af),
  (0x4c7b9dc60bff9f07d6319444ec80f12cf9bd59051f630db72242b047d234e1e6, 0x327c1e2bd3b0803fc6c8f0232772ae6c74f92ed034bf259beddd1b3a99462779),
  (0xde8709af42830378ec24406864f74ee54a8b10b4c0b4028cf9ba4e5f9e1649e0, 0xac40ce9e02c959e9a09142d60f9fac293ae90b558d887881b4f0bb1a6e8ecff0),
  (0xef6db43f828a66885b9c6708a5894598b4f23e6225892baab03fc29d602459f1, 0xe19963d5ed0af7dc71d5fb18435538be67034ea5c71500afaec42671f4d5d1c9),
  (0x1064940c0384fb5e51fffed7fd9969957d621576e90ddde580b06c282a30e0c2, 0x519abadb65e22ddb63e2c3f6d78f94089f696f70774b4d1c7f5da311ee721dde),
  (0x43fa751ed83afa1ba9f930c8ce4f6432323c793eb3bb471e693635945caf8307, 0x680e7e8ce3ddc68e7feab2eb2d777b5df2d1f2d8fe374100bad45153aabe5e05),
  (0xe78b83c002dd8c6048b7eb7fac2e763d65f31ee228db604fbdb4e95bade8dd29, 0xb9886fceb4ee548bbd682cdbba2966593d94c901f118fcba523e009004617d4d),
  (0xced2aa67bbd0c8037112a284622673f7ee3bbaf0d760a2d29cf0d2967acd037, 0xb190d4550dbeecdaabf0c384e99b50526d748729a06dccfd3a3fc10a3ee36d4c),
  (0x290788c7ec50eade926ba72f1365427a5e35bee210c58368cbd0239af925011b, 0xa86f7a0862d952b9996a21829b2a1cb12967cb3baa97708878896324d42f2ee5),
  (0x1b9dc7181b3090739d98408c32e9beaa756558260a0b37f7e18bd84b65841c1a, 0xf66572652651eb07be2a1e95766a2d0063611e96ea30e6a6c4e74d3db684f43d),
  (0x1e8f25e7077c6fa2b4d91efb4f73f315fd1868c83520ba4f7511d4ba9d3a6e21, 0x8ee5ed45c494ba41204bfafea65b853bcd88b65c31970ad4be56ad56c9a57ba9),
  (0x41fd079c35a2e6a7ecdef83672e225cec5fc939cc4879dd858ea2cccbe38b996, 0x3547d3ab4f024f2b278fa36080f3104659c19ffae84b54940e224d60ee2c6327),
  (0x68e3f247d621dc74bd979a57385b20f437042621e9092969889742d890a1d499, 0x4084ae48d0287f1c13cd1f50ae2d2ce510d64acccfe55ef16a176a01b8423fda),
  (0x51515f97183196d3e70b9bdf2b230bc3c70fe5df33631383438ea2a8c2b4d769, 0x7bdeeebd90f7a97df903d20957da5724341e3c6fd30e3bb494f34e8ca158a8),
  (0xf601890b8f12dec1d55ac06971d527de982b1df6fdf169dd7f2364c21d96e6fb, 0xa0b76602410a814ababc2bc0c1fb0c3b9e60731aa5838e27eff7089dc1ff30f3),
  (0xf0fd717156d8428beaf2dec7b78a38fe8b52033530d4f81fff5cb123215ff572, 0x1b168e7bcb679075a0a33d3cde1bb044065afd92a9e20bd4ce9aabe733551e71),
  (0xaabe89f264a7df2f9eda7935b4cc34fcfda589167953742d9f0faa572eb89e8e, 0xb86694f1f32a8a337461298e087d404cfaa155450dd0fd70202652d610cfd61d),
  (0x9625f2c321ef4a4974a2eeb943f54fef837c6ff80ff42d03e53c0b8e34056222, 0xbedd530676270b35175a39acf9f3c0c222a17ad65016029bbc53efef883dc0e6),
  (0xcaf2cdefd577dbbe776dbd9fe316b1266d8c51790945d076369701e523e970ec, 0xc4a9a2e72ba9ef13d9f99ac3bdce51198c52b5a276ccac0c2038b3357dcb2a9c),
  (0x95ec40196fff541c0d5c6327cb91c70c03d4e8def955bd9018ead0f9c4e400a9, 0x674448a61555b5e66f74388d6e7d8db9480c9bab6f97631b1f90d9b19b8e3e5a),
  (0xaab71b6db834e8353d39ee07af43e787fc9bdb74812a7cae333f20b82470fa96, 0xe4cc110b546436213a6c95db6922b71c38fbce6545db65bb22785c992f0ce8e0),
  (0xa3140c8fafc5c02d11192096910fab0fa80609399c7091463e7f63de7b05a5f8, 0x1d44f6cd89e0b21ed4d0b43db6c4f61a83b2c7f2bd79043c722b6a569529e252),
  (0xcd862f8bd94e59c1ce729e7aa2ad4a39bc13597e33dc9249fa05ee57eca9fd45, 0x8990cfc915a4df427e1a4872cd24b88c8551660bf592ebb78bca14acbdf628eb),
  (0x3b69ff71a72115c9fa87a49d28ca17a99bff34088636a6eb9e8a2ba3a2866919, 0x6577d95849c13e1f380e4e9e996b5e44aa4baf50c6a3abce63e2332e26463292),
  (0x5701306ff790b4fd6dfb718fee50b4cd057549441d47ba654694969730e98ec2, 0x9c6395627c4040ffc3ae4dd273f0beaf71f06f380699ffa9922770fdca26de67),
  (0x341f9682bdbf3d2ea398afdb92f0cd7b0cdeb2520d8bde39cff4613e2a65408f, 0x8f761cb448f60fc6dfb8f984230e920c7bf8383b24fcd08b7fff784c302267dc),
  (0xa80b658d09b3d749d053514868234ef9037bfcce5b7796f95b289b7bc975afed, 0x768e2c24f1b8e3851f2809d9f4b3f0d34c5a9b152e7792f7081a8263b6168100),
  (0x873765be39a877c5aaa221a651ecd9dd330559561e7ccf1c031d8f9a43421a09, 0x3157c11299b783f0849ed21bf5d6b2a32e83633ee817f14c9f524b4d3f89129),
  (0x41d3ac9bb64024f41ff8e1c967c5e90f58637609f29aa70064109611667f5428, 0x48002d302e6eda60909a57034cbbe6a3d89f88f0285f9f6d137794610002ac30),
  (0x8e3af87df6dda502cfa64165166a9cae9509b633218a047c5fa8aba4d9aa8220, 0xf1eca24f7e29c9b7d3c0b4684d4cda48870ae7c1e382bc311b91a5d253d537a6),
  (0x1cb6610274959d79b0df95ee4158a9dabb1b31bca6e5e9c40d2bb3fc4fe003ba, 0x5bbea6681191a1ea8882e608406c4c4d01f7d07248b3cffd01010ed7db862bd1),
  (0x43cdaa49e942f485fcb3499d45b0c11b355e33d6f0acb87e096dee95ca3bb6fe, 0xb8d9aee0744bc419e3ed9fffc506799e5e8b018c27581f2ba830bce9c99bb07d),
  (0xac872ff43560eccc87ce12042031e6246bb34148bb94cccc86a9915506c3097c, 0xbea71e11beffdebfbb90d5f43828d3890d790fa892082ed8ba226e03f46017f4),
  (0x7149bddd78708e3eca6d9191b0432e927bf8da2def16f1af73d684eb73dbd253, 0x3e706f356a4c24b0424a9908e4f1ceddc93852cbe2cd4a3835fd6ef5e8e3f01b),
  (0xa3c0c658a64a5e7e53e88791a90a7ae44e228be4d79529ed395c3b5bbeb821b1, 0x34bf8b231582dc1591b592ce3dc848bda2dc556e3cf2345c45143ab101bc5e14),
  (0xfa0e09e6c288ed43d40726df31ec0fdaf188410132fc88ddee80304fbe15c968, 0x74ab5be2efd7745d0a2488b689da1c873104b05fcbeb044e7fcbb6328915fb5f),
  (0xf9b5403c7b793a5c7c02e941da3eeeb4df0e97a98277850eea362d30b9042ab6, 0x547635bf56523dc23f76808b736a62ea3f7c20cb86d2634bb6b2c22b537a3daa),
  (0xe6a19a7989ef06a32d62cba0620f5ac6ce3432400ab21148806ff7983f2d0e88, 0x8c0cac0804510e3224544097ef41cf5a67ab10cf0982517ad5e93775a1955f98),
  (0x4384a010a48575a990b3da551671079cbab3213f66829a6ab105ee1303f1bd13, 0xb7e8efc1f9e1b7d1aa60c5c74f6e8805201efa255913d75c326cc56634094c90),
  (0xe1c6d945b8712d7c26e279ad5fd7c3d9bf5c3656cb6b7c59cb5a3f4855ccd48b, 0x665805c550354d5a92179f7097506694cb494fa536a1e730527afbad686771c9),
  (0x3d3b302263396067b171f6d2ed079189951bbfb4ad2e6281d2c2a96af2dbab9a, 0x98530d34967595514754582df773d879161c8180dc9aafccb953d6b9e8379de4),
  (0xba2b9f05fbf0b1ed3a4908b59081779fdbc0ce697bf8dfd752826a1a0943e907, 0x6ad5924c9c18f18c85bc06ecbf154e475dc0199e864d95bf6373a3130e89ea7d),
  (0xbf8935e73978e25870596c71e12d3455e6958bd5b7bfb707ea1c76bf02f873f1, 0x3d7f0bbd84294b4a90412d5761ae9682258d89d3ee4549071e78eb8f76e5e4ab),
  (0xab1807ef680b18d235054afe5337cb115d6cee0d134609847296a1ca32dc8326, 0x1efd3770975d4d01cf961820372e9c31695a00fd081f0c122c4482423e85e7),
  (0x871771b3e06b73d2603bf6c2b5bc8254e4704806c4df6aaee43157eea2c19a8e, 0xeefcca4df5396ae415d3f3449f58e7bcb4f1dfedf43b9984117143be8eab200b),
  (0xfd134e6bcc642b66de0dc9fcd6bb6737c4b84c9f226ecc1991d32f34e6d89715, 0x93b085d1db5bbd8580ce0670307b9a283b381a70ce6661b364de35585fb62a3b),
  (0xe2357d0c6bf6ce023e78c7d104de55c2ee992aa5ce4dbc212a6e8a84d02a6b0, 0x67e3277d40958876b1a7797cc3db231cb0df78e96f79eec27ae73ea3098d5496),
  (0x1ab75a6d7caa6b305baf7cbdf81421d6cde60a20c9bb2ee171d17c0363e4b81f, 0x370ebd714fb936badec1b99859ff71fcbf6a563d837cf6ed64cec650a27a19f7),
  (0x9f056803bab92450bf2b2eb47f28522a71bb08f1c99141b49c4477bf70c8744f, 0x1de7cce859e84c55fd6623d793038ca6171558250f0311069bcb0d0be623f5d2),
  (0x574437c56d8b99e8ee922151b9f2ee33598f75b91b23b8b6c0d5069eac276347, 0x34190e51bd90c8814a44e67a52f47d115db0869a8422f8ffef6bfeb57e683ff6),
  (0xd0922cadfd4b52cb816d2ec15818ac30b2afbc07d828a230ddcbaac3e3e86689, 0xfa8089a396932f511b31cc6cb7d53a818bb36ed3c6ba3aa25a2775f7ea74ab54),
  (0xdb2b0626886b1c4297e252ef1ca1f17c437a7d0314197f30df295c36af33f840, 0x4a72f8fa711c9a08d6697ef6f07c3de444ea847efe98a14ab9d03056bcd59632),
  (0x8823c29c475564e81badf77a9f92d92a8f1515801d5af398a153c5e8334c74c, 0x78d9810d93c03473bd2d45b13c15a6150d552306cbd91c792ec8951c49b05500),
  (0x6476431f20b3fbeeec6be526e2b61d1cf3aee1ceaa4b5ad975622a1ce3bfe88b, 0x30aa7abfeee9375dcabfd6a652a7262d716d3e090e7ec4d040190a4aa8379dbd),
  (0x7f5fcf711a1a3b91d966556a9104a80c8692eb63440d3818a1f39cdcee39d18d, 0x1520b2b74cd3903675ae46622944e1641c93786294ab4a2e8b53079cc54db4e2),
  (0xe1687978f7fce206d0c9af7797408a4cda896b6a779ad22131e7d54414e07cfe, 0x89db2399becea4e93693eaa43b55bb307dd66c9e0bfea93f12bc782df1af973c),
  (0x720b5ea810ca0e47a66fa76419d4ed83a145ee41779caa081964b4a139d96c3b, 0x4c0c795c55cfd2fc259a93bce4e14d3e5d02cbde6715f36a4764840db7ea07e1),
  (0x53dd3e31640195029e2af740491b46e395ed3eb5c59761dbfa5d70cbf7443d68, 0x9296a99714b187fa38230e46fa92b0bcfc1d82a6f81708f498f9d8c53e7136f8),
  (0x6e7a978d2433ea6a6aef87fb733e985cfa37bc5b37641ebadd160e0494ddb38f, 0xa6ebf9fb0c8759b83c55503196f5c42db0b489f3b9ef8767a52d23883a602e2e),
  (0x971a617169dcd5e8105fff1c92cda66b24af6c7b30d4c5d10f9b72671ff4b454, 0x75c2ecfd40ca051619804163a18d0edd6c98749ac47eee4d43de117d55903ce3),
  (0x9b46d6c4ddb95d39b5aaa404d5d4615e9e1c7f645e3e59a90505d3dc52694647, 0x9a5897bfb964679635e654932c0de3455e70289aa21238642e158795a663bde2),
  (0x708c553e374f880fe8bc4f959f9451cddc92d3a228aea32c7dbed5760b459019, 0x2adc71a758edd516666569f2c19f03e94f54628b5ae953dc16b4bd4ec1abd7b1),
  (0x45c07f653d102d2191395a894db37368a10887a8880abcc34954ecacb41d2910, 0xe723f944e20a325bbe9c32f2d8b0a1b924d11c2f4baa3b19836384989159449e),
  (0x8db457a5b8328d120986049d6edd4567a60e753ffbb024bd50fc69a5164a871b, 0x8e29294031200d26df6aabb1e035463c29318edaa07d3b9baab1f7fad3427e08),
  (0x971a8915623af05696325a9e6faa293c52bb05e0444fb7c265781149be27d763, 0xf48bf60d4e5c8aac8c8455342fdee6e16b8424693550dfbb402144554f5ea47a),
  (0x229add3afd2f7208cea55688b5dcce434b5f644ca96eb1c0da6dbc0f64d3d6bf, 0xcc8c4931386d24620839a834e23b3f1866b390c300272baea03e458c1da8150e),
  (0x81d0a48042942affabf3c3a96f7c1f01245e5f014a9100f45af6a75148218760, 0xe3b34d780814f2954ef14ad912d38ce7ab7420af41ce94ac9a28eddec35734a8),
  (0x6f9541ed9aa1abddf3edce795c21f64a0def1b6cc56a5b54bf7c39deaf7175b5, 0xbaf0dc2d53ea520a797b2706d2e57474730beb8f4aea8bbd2b6fc9805e93e09),
  (0x2b69472258412c9e3465668e7149291f4915c7d6cea989cc8469c0366f909231, 0x4c0d3526c86ef4bceca750dbe203bf3570bc93cf65f5998e6043c8ee5c415317),
  (0x324ed6c59123ee94960540018b8387623a2ffc16bff794b6e5599c050b5fe16d, 0xea7125b76a371d71aa397e8e490401f155175d2b951cf450bba5ebdedc131b51),
  (0x7b6fbb9d04b8ef01696d0bf682211a7b88fba7bd34af61cca6ce4d187cd199c4, 0xf8a8e8185a241152d4ea6a33c03cd8ceca199fb9a0eca30d5d97a8546e77353e),
  (0xbf4e971a80ec1ca04022a5be0afc753d72f9074fea3a25902a72bf4ec0e71fe3, 0xa20bb719aa38683a6e6ba156c3d7d4a8ea48aa7358bc2f68638d30785b470d28),
  (0xc79af30b463cdc551166225330a705fe9612953e85f463de76ce7d09ed54735e, 0xf30062842809eb33596876654736db739cda64160894e2bcfbf52060871d63b6),
  (0x41869e456fdf70d5bbe810dcf7f2d423e2ff87be63403e0ebca25558322ccfe9, 0x3636dbeb824b52398c13a4d8c4398918b7f9ee40313149120220c417d4b66486),
  (0x5a9cb87812a2361a11f366368a6e54c62ec772a36a85ed82c7556cad34204a5c, 0xdde8d97b1ad8e76513ae8ada394f037d35c359d49ddedb70c77a32c988b030e3),
  (0xfd0edd8ca8dc176082bae41378d751e74eb80fd70d0088281e07e0cbfa9f1508, 0x5236fd1f8dbc118359e62f5f407af6e3f28cdaefe1a3afbf87002c0325983a35),
  (0x9682e22df429ef5480d48245f05e232823554d8b68470d1aab9fbf96e6d13256, 0xdd696a32e38c4a3d85ff8421453d988305e43f1a016007859e9a3647e0fac1a),
  (0xb0f2dc0bd4dcb8c6484e016d278dcc58c867f4dd370329defa041296b1e76d89, 0xdcd963d106303430dec80fd26f8a96c25ef3cdf7d2dae2a99e0a2516ee54a4c0),
  (0xe5ba608684de5d93a06a11c7826d5cc96d118c8151c4c26509041b8128baa1e0, 0x1f7d63819437e634b5798e790f6c819e883b01582a55c3306bdd995ec147b9e),
  (0x5f18278e3b8c366773132d43bc0f74e9db37f9cdf3d8077efbe4c6d45478a89b, 0xea480359b32f36e31f21f7d1cd174658e5578527d010f7cc4532840d1c1b581a),
  (0xce92b6e9c23dba1008be513f91c989222735a24cd362dfe4f87ac7802ed9a3a0, 0x303f59940b7ac4910e01d894d4018aae403e3f3d6d29194925374259bacb7775),
  (0x2e4b435889b4874c30efdd985f5757eb16454f017ff485a60de2d4ce7bf6e507, 0xf8d93e5e55fb4bdc019c8076be68ddb72813a0327ce06208f5aade23d8b3724f),
  (0x636ff3b33646dce2df88c6c73e9152297bb7e440def13f04b1b326d7d53e8d61, 0xe6d0613867e1585f6a5b5147559904e7fb27841de3899683848f73d70383768),
  (0xfc26c120a2480afe70522d969ef149710a72697f78ee36b5e21c057cd4b3fc31, 0x927ae23f97f09346ea6c23001f55494c1fb8e6624704e2d366c2f09bb8c7e356),
  (0xa57166d40a9ccf55f8ede6382db0a09fbc1b1332b20264445bb36e9ef6c2c213, 0x3a3748126c202e81fe8d47c3cc1a5a603f7ff7d7a189a013870419598107a5e5),
  (0xf6a60a503952c4a3ee9cfa287f3ec0c0af61fb4c0609a7e91e311b91b92a4d06, 0xba1f0a27146eb8d263e4e7a25d6c5dfbe523037de2f9065ffd138d79d52a73da),
  (0x316a1d5c58788419fdacd2235f28c4f71113d1f98b153e7892ee8f0f0f10a01d, 0xd041adc03b32135eed25a0abce63c48f496b23d71ba7a8d0c551cf037c699762),
  (0x389abb6fb52f25cbb0992085139f2d9274d6f64867f65374480131925167fc96, 0x635e67cdfb5fb18aa6c0b03ec2d7eb336020d657968045d2698da8ade1f51d4c),
  (0xb70ce07a1fb4e8ba778098a7f8bd2ebcd56502e20b517821f32f75c7e162bd17, 0x56cf6a4b7c4a2021ee0100c6b8648541889bb8e3e678f51cbe695f999002587c),
  (0x1491f8f440016352d8bf26078ec612c65100412c61298cedd16ea300c5ffaa3, 0xa7a7791b765e53545be11bd099493009880f4e12e23fd88c4e6c3d6115c525d4),
  (0x8998275c4a864525089a0d2fb8349a6f1d33f23a646a5146d70715b5d801804f, 0x81ce05d58a8e1dd556fb244509a00296f3eeff3308831b7431106349e74df7f7),
  (0x248bb2864cec41371cc5188a11a09658e38cac14bc3733f569b5828e38661c25, 0x23ff99482479932d0070def932ebc1fe5e3018697e3904c2bc5ebd2384be5f68),
  (0x884d066f59277632baa021fde7e6e09f2961d1f71c6e8dffaf3ec6c29cffee19, 0xda0ee935c427ded39393ca58b0f82e3225b7794599b19e1e6cb8847a7b965845),
  (0xc234212fe2a886ba7e84ad37af101ff6001662ff34d2f1efd83b667f8d458a9c, 0xa9eccee897ccd10c0fd3e1bcfb12fdc358dd6ba71041b3ddab14913c47e3bd89),
  (0x8bf6cfaf16980f2f3a46d3e42611cb9e9160358d943a26bc38cb980a5602a59, 0x53ceaaced5a0b98d36f8ad9def739524055f7811fd28e1a36b79eb149ac46e84),
  (0xfaa5b8ddf365eac8f504b91423d3a19c2cdb648d14515824ab719c7c7275bc7a, 0x1900c8ef44e6dbf0ebb4db7f4701bf2881eed42be6fbe70f4b808a14742db803),
  (0xf08c56d23853d2f45005bf9802736c2d2f8c3e26791165b4bc027b78a27ee516, 0x4e13c8caa18f3ebd743f5164c2fbc30cd026052b7c7a5a8472f3eea87a212357),
  (0x6512c28e6dcd857811cd95bb5fc795bf90a828367f56ac18b7060187b1a4f78c, 0xf5e459b5d5dec52a87b7253afbf7f72e94f52d69c1b36e1ce3cae385024c9591),
  (0xfe4b6ece957c963752e47ba4085bf0a0f4a549b88c5205097bae728cf7a37a49, 0x263ced679b2a1045a74e5c5b5959907683fb32dc1dff20463726a20f14363d8),
  (0xcaaf4b37843381ffbe2523cbdcccc0e765d8d44580f031e50e1d486b829e0e89, 0x43ea1afa0daf2d1fce77a067d3b895cd30f89eddf88452c7f40616ef2d69fec0),
  (0x6ce110b86d222b3dd43966c10259e72543c315eee03886ae0cb1cf1d887c1094, 0xce6f4cf676717e9ce0a900c957e42d52bd490104075871052f461bafe6c08aa0),
  (0x8b070ffc6778e776de8d2dc75b471febb4d9943c97751f2aada26db67a356407, 0xccfcb36ffd260ac9990c44bdeb50e390e7ffee28a4b68b06cfa7332c05d2d302),
  (0xff0ccbf5f73302844e3ab6ef48f1bb8995f9bb6b6df6ea09e0b4cac5f74c51fb, 0xbf1c59ec13326917c7217ef6d6d07c8564319a33bedf6b8cfda1e59ce56c4e94),
  (0x3fcfbaf7706e2e99be3f5d3df377925fc73df73e161dd7964df953fb1d36ef78, 0x606ac29a579045feb2e3bf35860e7345950d6526423b65b15f6311ee48001790),
  (0x7070132ab7f5e30caa03d518d870127cc4e1c6d5351cef03b4475665cdbfa310, 0x622f7c310969a13a275644016bf8bb3679c8343eeca71cbf51b2b7d7e70da7e),
  (0x76da6cf634f951510e8ea2fd5b4b2bf6a4a21d57da1b978bc38eb124dc1658e1, 0xa1bd901c452fa5da4ea50c491871e08f18250b1f585d34ea7c26bc5f60969632),
  (0xb1f7f598080ef4bd535a20ea5e6a602088f4264654dd4516e9eb8c87fbe21ca1, 0x8afb3c03a73695c0ac08f61e2e685603d7e1cc06c2b52fddd18b1b2bd6c47e6),
  (0xc2ce1d0be4745907ce707fa08c5b9005b2c23f0a7edc35cb79e62bb6a75db4f3, 0xa5d785d3d34e278357d2d74ea0087c0da52c6847f6d5987ecf70406d3c2b23e5),
  (0xa62e0a43580c88105941f7181c9a3eb0e040bb9bad758cd3765a6c735b2ae1f5, 0x1812a1cf9d4ebb221ab916d644184d61faa69cc091e650883296bd4022174b20),
  (0xa0aac84e685c57ae620f5089c31397f6a57e46d614eff2c6d06baa681be1fe24, 0x79346e5c191c3c469d25178841b7ff653298231fa4fe6bf53be2f25093f21527),
  (0x1230810a9d01f220433b76af777bc09bc3d51148bc5cf0c157c3dc8c116588fb, 0x642f65275c870d400a9f8920d1c8179ff1a18044bbfb39062340865aa7b63bc9),
  (0x8ffe76698412597dc5613f266ad33a65c461d7bd936090106d41269b29146b16, 0xaf15abbd4248d3476307d98a4b8b8f8208180cd6827060468279217854894d0a),
  (0xc036f59f3bc3ce7010c3ccb6c5391ef581c95d5b8f337b571b9589420b01896d, 0x83e53405f5ea679cd8ab49c4987d45c1db8a695ecbda6473387765d794b3ff43),
  (0xec2598cb6c9dfb044ee48ea42b99ba7a1b22ce683986ded734c7aa42e9ae82e, 0xe2d9a067eec04a1a901ee0e880d9d751f00c6f82445113a0f010c57898042894),
  (0x7c715704434660c3ee7281e952c5ee80894d024ac61c4890ae2bc74e3bbfb4c6, 0x518a5393bd9aad2b1951486c5130b76ecb33570a14a902e5c01513be7c10efc1),
  (0x47677c821c0730aa4a6c9560e4a57fe910d5944e4a10042867dd316d98cb2983, 0x78dbcf6c78ecdfaff8db71d7531b437ddb97439fe879e5e4bb0c97854df66c94),
  (0x902020cc8114db36a30dcfbd06656febc0ce04a30d27b604b2f9ed53bbc06b6f, 0x43e4fb7809b5ae47fcb437e3bc4c19a622926ef3204b860ea939456e3f1e6098),
  (0x29d1648b1e8adb103a23dd411001e916be8d11828f16c81056b57aef6f68f2d0, 0x7bb75df33f405f1349833b05718daa5de6f414ecfe682cbf205803895079a094),
  (0xbc2f4d20103558c6cd76cd1653995e97c0dec56fe0bfab17fde48fa133fbb1b, 0xa5f21c6b6f76b3c74b3d5c7efa5b4fc07f8c3b7a9d202815c9900ae45b4e6073),
  (0x37cc07f537db732f1134d8b77718fc93355c54d1af1aa95791108db22e10a35a, 0x3790f6b1829ee9bda0d2b4af0334b35870168aab3e2cc3b0e4a3fe1afbecc7a1),
  (0xa0ca4328280e8d59137b7a52da77cf9502ed29c5796de827153a5190ce7ace07, 0xe9f4777abd7d4aa48100f169b0cdaf56d6495d6fc654c129ba08743764703b12),
  (0x4976d30efb733ff1d72eb785718acb6e870786658f7c4c596bfa20a5a11aee99, 0x4a657f0cae19ea208c2233a4bdfc25ad5647f36090bcad2326ff47ee95a31e2e),
  (0x77ce99390849e526ba01ee2113a4f0f279c82531f67be5baa918b14e62f13d56, 0x68d35117ae1e7e0077a1b5467f53f55d47502e2875eb388ed9a57c0e6f1a110b),
  (0x5490ffc14c9e6441cbad6651f0f7e477b9867a209c780a6e27d10863e18c6703, 0x46108e8c7b61702918f3f7a4ba1bb8d7ece4ef1f9e2bbf9233321344dc5220c0),
  (0xe944fd0409effa75ff12d372fef5c050d116925cbd1a12b90502714e86f1a393, 0xbc9d3b3b52afc0a569e416ae4ebdcdae65c486b1bbf8d8d99258d7a07b5593e),
  (0xb0b594a96c7786b674e8fec25786e9b0f689aa85114d9aaa3af8b3b6eb12de68, 0xebbe2d1896e014a0079e93f7ef5c3f72bad484b19c2b77fbda9c1a6f5375c9c1),
  (0xfa414a61680a092bec6cfcf703fa4e14150a4ab11abab18d621db921ba92e6fc, 0x19e76d3b48b7976e2c03fbf20dbd8cc357035368f50d684934c16b1b907bd340),
  (0x9137545b6f9b63c3179a4487e55ee24013c1b401084ec9c707906e019f34c77b, 0xf6eb45409b99e325216802a96806c9ede2367611415394f0996a52c9b2c500c7),
  (0x4aac7130c3567c3074510429fca41ecacdb8a45f9390569920858b1b7007c36a, 0xbca00f3ee3a71cdf6c5271fe84fe6f6c0fd6b22817fc7f385aa320800fdaca39),
  (0xa572fc1a831ba8db45f7ed3eb2f5a977a73b9b5de898591609585faafa9f7c3, 0x477845415d437ed109a58330401daf8386fb9f41495a233825f5fff576b15772),
  (0x1af1eb219e2c5f174365a0913bed444c2798438b9ff0944d1022321e94472ae0, 0xa65433fd27c3bbd70997c162f6324aff38b5cd6574a7ea350cc6eec381597e2a),
  (0x9a67817a8316797d873f6a1eba8b21ba46cdd8f464c83987a3e8e47e7d0895f, 0xb562e90460c08617d356e681d542c952da6bc686048ca533f68830296251e8ef),
  (0x71847016e9f47a2efddb879c72a3408e95d901a66847f0ff39e4d8ae18d574e1, 0xc52916a50ea232e818fd011a808e08e0858336b392d2d6658604baf32e6b3496),
  (0x5e24b2cbf9bddb0185e30fd8f12c3bfbba82c7cff0a9b58eb09a06155c2e7570, 0x28c9acdcb061ef6e529bc61d1ef5d99ce8926e2970748332754f5789e96ceb99),
  (0x15dd0cd9b24ae1d42f72de87a637e49a2379c0746c907706b6a56b9789797dba, 0xe86dd91323348f743126101564f63f59235cfa3d67cef34e5e0765be80399b97),
  (0x6f1aa9301d3a73eb227acca223daa7ae074ba8a38d180726a7053d601a841f76, 0x78878f3e26388b8823c793a19e387468664f3132e8972a189d5fc6978a8703fc),
  (0x869f546003400093e6b416777fd3b4784f9feeb81809a5dc13f82c1376036494, 0x65c2b027a3a85f423778ed0a8116b3218b242473965da5203ff6c7e5397ce18),
  (0x4f1390f2d09c202875db24887f718af6abb5f848200ce71e07e8d839d7a06144, 0x85d8e1aa34cd636a666896f3252b421aa1474caa1b82487d94dba9f570a6dfd7),
  (0x539ddbf3128fb02ee9c35fb3b39082539d79684efd5a01f63ac4f019f7e16b0b, 0x94140e000aa7c5325215c28b02781de0ac4b7d7c87c19903ae92d564d589433a),
  (0x257383c6cf626920f08f4e2783f9d5353db57a498763a952f98e1bda5927d069, 0x66460904e42c301666ac4d7a8e097e2530da20391a13393a763fab55ffcf5846),
  (0x54495dc21219d9e330389af56afc05fe16caa1debada45b116f9864033b6d53a, 0x58854cc5a81a7ee8a75c9c736877c280ed73d8b5c92fceabd131bd13286f65ad),
  (0x9ad1e3dbd1628897746b84981faca82f528e4459a8cdfaf725c561ab34f642a7, 0x2d66c31ba9da7800beb6d2536f7b139c71b77ab40e6911c0c05cbef4ee42a291),
  (0xc720b00c420c86919f81c622f5337fdafa7c66595ca764c60a36953ab4353ace, 0x6e84cf340640abd5eb967cb7dd18bf2d7998d091e245f7bdb577b48f54d8e4b6),
  (0xe77de0ce261c43b0f4eb56ce9fb0fedf18f9b97e01e7c780dcfe238443c9af75, 0xedd055ceda1aefdb114cb018624bba7087ab693b9d5e83e0094ff9d026a46566),
  (0x4d7b87bcd2174c7eff7ddb8d296c5edcfd3a649a8c5648f67bea8997b5bc7510, 0x7d898adb0739fcf2c83b8d0a2c1222cb237b499391843c4826229ff0174adbcb),
  (0x7112d5ed05b0c040191b7a695d5246be223c453780dee4b67b93fd26058a147b, 0x77134ea09cbb5f1fbb1d56d5dc9bf0fb1262877e6b92ef5727e193413622073d),
  (0x69972fdfd8479f6330a434548ea0d6ad6de2e9f7fd4bc3452ba7e5d28df75b49, 0x1d9771b3168a1c5b0e8a538e4f8fef6022cd66be2df1a0f0814a34b6f67c22bb),
  (0xb286ef44579fe1691260a3ea0ea57e6b80b9b01041ab13cba4e79b2922897109, 0x53697dbbec6d8607d7f8596c7d7f0844d378396a98e236df65f2cc2bcaee67b6),
  (0x1018efb218a9eb18ab19d46f9e3733d4dbbca1a86fbaf90f88fec2ca7458c3d1, 0x18b6ea7b3986f4afc35a18f85feeaf6c6c6b9ff8f54350fd7d5ea8706e245175),
  (0xba7828adf4db7f920fbe287abe3ac057c291bf18b873e176f440eec71ea2d8e8, 0xfe3ea95822712cadf7009fd7226969a9efae3c43a025cb9762ea20a27023f269),
  (0xf2c298cbf4384db4f3bd45d9ebd0412c87aaf75756745955e807980617fdaea0, 0x40338a85c98c259dfbca6e8605dd189ad95c3b99df49d27e0738470e6bede5d4),
  (0xf7919c7cd67bb45cac7291ba3651247ef96867dabddbe90d603af8dfd07525d6, 0xfac58518f31297b2a3d121745e5be6be4464b980d349b42c8cff6a2beb2b44fc),
  (0xf9a119e3c282b0473dc9a41bf9e702001fbf92e6ac31c6baedad497e3a626fc9, 0x1d47868226e526de2d11b9ce9afd31b38146d02b94e622fc5e2a186fe0b1ccf4),
  (0x4eb2a7a16dd0ec10aa48005e403b4586e86c6c41220e1c0b430a2415c11736bf, 0x63fd124431e320bf2f207dab3b09d5c4b17af1c97e47a73ca940bb148898d3cc),
  (0x7d7a65b32cf01702c68675ec94734b0ebf6b9eb80b8af890a2fb301684f1d6b9, 0x5c887ea2a8d727ff00bb9b19bb92bed4372a6fe96e5a1e6f4eb15766ad69076f),
  (0x10315f7af50837980823529b6ce3b75af24ed9b0046c0045d55914394cf8a29e, 0xe67f0e1d0bab68605e95db6566a688f9046b50c635adc6bd9215d03260005343),
  (0xf756aeef2c36c66c593e79d12846e11716280871b3fb9b12f22973ed0578c99c, 0xfcdfdde0e1678a103e88a894f4e5b9b4ff422098a8a8b7254885e0558c0f1676),
  (0x53792630c585d2bc8759418f06496d5bf6ffe83c588c24958b608c9563794acd, 0x3de30b878a7a73bbc0b4be9d06640264d92b9cd6043090a75650d7edec43d27a),
  (0xbd9437370663e66a84840ef4e4cb151054e09e2bc444610a700c97e939e45a7, 0xe81fa74a2dcfedaf13fa535307878cfcad357b8234039d31abc83ba8c506fa23),
  (0x3e95cc05e0fe87527b2e673621f2e9fd4a966aadcf05614d236b432b9f092e74, 0x9ee03edbe2919958358b64b5d4434db35b7fad9b586f94df8f793250c24d84dc),
  (0xfb2fb9b6aa60764cf635e05a73f8b43cc919f5687155b1e53bd8571ea0bc9c1d, 0x15044fd97e17f13f062d4f28fec486e7de43b0b9ad1f3340d0e6deadc6217af5),
  (0x69d1f9a20367e4ede77e71541dfbfb283f001206bee3b06292f98483558834cd, 0x953849bbd0a85ad065bab269e017f512ffa2b51b011f06f38f331c9e8a129212),
  (0x624e768c6add32739d7dd4f8a357f8ff23ae74d5c7edf8892c935ce20ce7807f, 0x59e1800d1da9d412e0160b2ae1e4d5e076b5cfb238b3e2865c77af59f76c02ee),
  (0xbac0f2e3ac4ca8eed9938069b56c3d01d8a490df418d0da38d1361921c32407d, 0x1a2fb0101370c0424146b193fb97252319ab7cd2a4adcfa6d744d3af80569730),
  (0xf5d06f466fb56f07e01dd82cac7e82a5c865b7e2bc5a21e26c22123aed8171ce, 0xbd945164763b53de4ffd63c693681afea3ce8b4ca072fcf11b3de0a27f97c9b2),
  (0x1193c945133c9b0a6fa57c1269eb41db0dd1034d8a9ce0f4f064240e81067402, 0x90a1619d451fcb66c6d6c7661deabc58da04b15450730320d5cce04411219e9e),
  (0x31e82e630b9d0a417df70c9ca18d1012586142cc7ad79241cbb4f80b29259121, 0xf9d2ad5dad9fdfb233180c0407708fd4f7dbfc294db8f82806b8d35e043b3193),
  (0xfe48d906b32a88ced08a252102afedaa184b4bb724a002491a6796a213f19373, 0x12e7e86e94799e2ca3640c9483da7a0bc4de2ec9e0fc6ecfa47eff5c2b13d14),
  (0x8cbc6ecbb3f487e6153ea1312c5f276c59af726bf106e89dd51b5a5c0184b6f8, 0xa826267e1a464b8ddcc157cec7d449459fd871443ff7aa59072fd042517b18f3),
  (0xc90eb722c9a1ed6add77a6092bcbe77f836f0017b429d6d8bcb8124d2ae43c4a, 0x2db223ddbf9b8e312904d732172ea70f4270195f34a70db01449f302f3aa9bfe),
  (0x5c4ad8d3f431eeefe758fb45a702b062a7d4ae5f056906ecf0d68193a542bdc8, 0x9d78ebb018989564a3d263f67903c1592aa46f9b1ae90f80dee6370ceab89250),
  (0x2813dba6c5014dad3d6f0c8d513028e8f73581cae6c131ba27da9807e49a2920, 0x199c421c0c3bbd60b20df11b0ed7a5cee06c314d403a9333c392c2ca3d9cc636),
  (0x750a9b7f01c73b819eb0106515aab7f634205d254639245f4f232c14fe5208a3, 0x36ab3e77908d8d901bf8fb8522dde31ceb4fa792e088be133fa46a0a152f16c5),
  (0xebb0066c15b86fa208d71e0cd70c5cf6bc468f59b34f31ee6eabefd8301fabe9, 0xaa7d598fab4ae2ca59268a7dc061d209fc424ed178ef18d926ce1f22a24af8e8),
  (0x225e2c714ceb40481832f88e1ed6c04e8f68dc01880630972d66e0ea9a33933, 0xdb9af41fe2458533663024f4e452946b598c9fb6115fddfaea3e9f0d34b5d52a),
  (0x57160920e704639ef156be759b5f83cfd123892bcaa27a2aa6a6f3779c3eed9b, 0xee9ca5d3b03eec99b442a0c7f00cda3ed8d2168a4fb4edb6b3f523d2769b185d),
  (0xeb6117a1c3f787af1f6a11b53dc4c53a97c906cc8754463b31c681ef10320642, 0x66de1d5d68a02615a411cfc2cc0b0292e8a9b0e672f5ada46d584aa32c028b33),
  (0x99e5ed92c532b4fe7906bf5d045997d4b1d21db94bc5968c9e3d4aee26afaeff, 0xbcc0f26e19c9c6078bce1fc31a9c43524fb1180c9c06e5a54b6d81d147fcfb04),
  (0x4aa2991c088e935b402fa349d3cf278e1aa913c082623c922be190f94d18cb52, 0x7c33ef39258d439f2c52c70042fc8e50d9395d12408972e60c33dc4667503725),
  (0x676fa530777ca2d03bf1d56787a5e29a7c111603e2fdff1716e1e6a236502974, 0x9dadfc23183d3a67182829480de5954b3972c78b7ab8157ac1e49fa3d764b1f6),
  (0xd0032752ab27eb18d3470de276efaf49c40db87cdd403e5cf8d13190c9ca7a33, 0xc56acf21b3c3078b44b52ef6b200d628fc4aaf0901d5768756a28540bcac83fd),
  (0xf8d29137aedc324363c37d67891055b991afa625a3cb58deaccc05e66d978880, 0x90b1ec46be218bc6cd7569d9d5ad8072ef33afd833be28c2f2fdbd924d1922f1),
  (0x975d101d532e80690c9a4bbc933c33dff926ffd89f53d789921f738fec5b47f5, 0x5e07b2919d36f55499bb260011585088821592c403f27241ff05281e0c8ccabf),
  (0x8e4783557e0e86021cbab81d28b7dcf41f98650e4196a7ab45cfaeb6acecdce, 0xb117228175efd96261951ff043e4e0bcdbd3a8b672af27d31a5d78d7292e7e9c),
  (0x31c571a36fe12383f57b0ea27b7d521445a569f32c79f0112f95b347e7bdbb34, 0x48da0db52837af898a3a1e8c5b4bcffb5659a3514f8b8022e705387d2686d006),
  (0x2aa26e6f5f40f5164b443b2740f843e625237368ed7ab7cca78650af7a734f44, 0x801ae925b5a22d70bfc4ddd53391a97c491963a6ad1ebc58cbabe7074ccf95a2),
  (0x3f2352e93c7fc7cc1d3069bf567cd7a7a3ec8e8838e840d457eb2b21081cf13a, 0x81243f44594fefdb9a50a43607ed79c0077bdf2733da92b30ebd91de91d9e7cc),
  (0xd947f54df3c04bf209e266cd43ed0f028308016598e3e798000ce9719367803f, 0xd9ac8a1f5d01f9f35bb68975eaa851c4e1febce61c4b0e68f6c9700b49399ddf),
  (0xb84061105c20c960447834ca906a9d96d7fffca575ff7d18d4d64482f4269757, 0x45c8d690a475765c55e322b44fe0fbd2147222301a0309afa39528fe314b4017),
  (0x7cf9ddc0f606985c60e1663a6c66152d2d132a61320462d509d0e0efd501d6b, 0xac98495942e430510c3868f7fd3cbe03d25dabb251045256bd71a1ea1c23e9d4),
  (0xa1ac591619cd5029f79d7ce299e1d2fe46b466e98f354fb6a177b169195851f1, 0xb0127cbc02eb91c51fbe3d351e630ef934dd69c6aee1d2182e56678bea8eb04b),
  (0xd24d825c1aeb8eb3e8a3207727f429f57e3c9d4e19a4c74fbe3f428eec40404f, 0x288ba9c06028c9d7b626df35f35499007661f6f8cdc8e40e134521526fcfdb44),
  (0x4e38e18784d322e9bc7d90ec1eb1822d6f6fe48abdf23475b4f363917a54204d, 0x92ab8070f65292774c5ad6860d016ba09e90b545c15be242d1cd32f5c1b67b42),
  (0x419bea2728281d32eab75e72396bd9f481ddb5c849e68313c45360de75521267, 0xc1a9b83680326b818eecdf8dcaaf0b63ce18e741a0f7d4339eeaab04d2f7eab2),
  (0x23ec593e74fa0c0836a60ad0cbc8438741dcdcdcf58189fe8c6ce73a81dac088, 0xc78586ada6d74c84719046608365ef744126c061215e9e34b975afa57df6c2d9),
  (0xa0cb84cc67f2029b5ee6a6d6a8c61a615361f018203b715f91ebbd8d485c1799, 0x24c95b50eac47eb0686cd7dfa871a40902e0ab85fc496ec63bea98639c466059),
  (0x7c3682c4f540ad598ad07472a225560185c77294ab1de778bddd0dab38bac990, 0x2707240919c7157c059850eaac11cafdc230abd6a1f801b8bdd93d56ab528772),
  (0x4c9e5945002b6a7fad35e0838eb8fbf0dd000e001c2b29e50103bed0e5aae2bb, 0xdc9692623b72322af4f719087100739ed54f6e99a4f2814d4c909f6575d74228),
  (0x2a32765fbd49c65518107c1ab9b6a937a2342cb0b5aa43d222b8a390fc83cdea, 0xaec15f30991d0d247892bca15d61d43b6a4413e30c73943b34929fd64c1b7524),
  (0x60875c1c131affe0cfdd5750406bd6bb4291295c546748a045534865d3900045, 0xf32de33db264463f1f67675becb704625dce4a72b52fb43ed67ead96a54d6d5d),
  (0xdf15dad995315e9b1b584ded025ec8942b6a8c902fde7ebcc649e8081eda0920, 0xeb9f5fccc6b0f0f4ebcdfe042f6c8ef76c47bfda0be84bc93de93dd159a16a52),
  (0x8ca65ffe2a7b40cb89194af17ab99d925ca21b70b045b2b995653cff554f69da, 0x99700de9708c1f78d9a76b3206b87cf992148bcf2740bfac9c0c9bd73e8f3684),
  (0x31123ae8c0ac622eadbd03b1a18b9307d981a8968a8c7659b4404f43fc30fc87, 0xfa514dad2a474720ce9db83cafb19dd9dbe5ef3998a04c19bfa0375401d3f32b),
  (0x506a0bd77576ce796cbdafcd9a19df58e7fb78a966dae9e4a9f217e7278299c0, 0x4fd9b7b580953602a1e6ef98c68e60138049cdf01372a08801ac47bc0e842d00),
  (0x1a2993959f192d623b88a0c5e117137ddd97f3dbf3469af1350741161f22b60e, 0x9af891e4cb7e3b48b6585fa738349ae71b23e677feb15252c5e021df60b45f25),
  (0xd5da63713ac8a3b829abfc7689f9e66a61d41a257180a68508931e2090afd29a, 0x2c7ce26474d8e4e00100f71bf161f5f2074d926e355d6a7d2606b5a42bb9e93),
  (0xe13191330d6bda183e229f710bb8a6f9ed3e516069b8bfce588989b607c1272f, 0xb6ba835b287c62cc20a0df69eb289182c7cf2aa2a5ba871a7964599219c6e47),
  (0x2c79b5b2a95b7d167fc52a0375d77854d3e948aac4ee5d0d4dbda96a3516357f, 0x8130a8e4e612fc9e1c83dbd23a0e5b02201a37e0b83ba72012d9d51055e06667),
  (0x1ef74f747cef715ce3cba5a434b0d1531ff91a3c92b081222e55cb276f1a8dba, 0xa588eb63a95cc006e94abf79f6695bf61204c1322559adc4ccb78f46129f0988),
  (0xddf651603dd4f0ac230dcee5cfa65a982a37d2e6b1fb6e5652acbf11435f9a61, 0xf032770d2ccf12cfaa9c33bb68bcfc738e5415d90865193475de87a64288cfb8),
  (0x63099bcd35fe54392065d0a8640a904a050de139d3e749f37f4ce6b650e569c9, 0x55888747e3cda31e728a2df8ce4c3b6f6b547f376183601d7c49508519a24018),
  (0xaab75da0ff38ca794fde7c469aa59507e97e82063606c7698d13bd937849f59d, 0x37821d327b728683da014678060e48006de6929dff85dcb5612d0a2306d73ce),
  (0xc423f483c900aa8408c3c63a4d550bdf40d69155f13ca47b8a9a105e4d5d7180, 0x667b1d9838bde6d2ce29ba0cd7a0c49841a661885c2cda93241bde9fd62cea60),
  (0xa510b426ad21d1337948e6649ef467ee57a5eb313c86dc3701208d7a1f04f3fc, 0x102697d4ab24327bcd515ba638b31ad7cdc59e148a1e6195553568710f1e2765),
  (0x5d5a88ac2d8de7aa1096056554181bfcacc2ea45c3f4b0f279e0348e2bef8d04, 0x2cf3862e931623b5eacf8347fe65807370809cbaa55deb0801420040cda87a0f),
  (0x5725a3cb3c1a0dfaa1b9d1384203bf2b7a289b9af4756824bc2e089057e3dfc, 0x44e6f312ac9e4c8046415ecadec945f268fd78cdf9c02e57802ba7c3a1e1e9e1),
  (0xf584c1160a07747268ab739dd6dac8cb25852658ddaf8b0efbc3ca2ba7108475, 0x562107bb25b10838235f0443b4ff28f98d92f837023122f0f2d5abec9493e799),
  (0xf09f0b06428f838c63ee35d6d4b500ebdb3dbb55d2c490eb0c4bfdee801c3ee6, 0x25b8688a5f57f258832716eaa0e33015c72fbab744dfb3087d716086e4618773),
  (0x73ade89bb5c782b5ba0c3b9b2e751c7db4a7533c1689dcb3dd358ee688052412, 0xb585aa81baf24a87001aed036f24fbb3ec185c83697f8f42b490d2fd7fe79d32),
  (0x74978dd5cb66ea5daf56e020fd29fc539c4c35ceb4f040634453b3cdf20f8380, 0xc9b70fb187f0ced1a9aab50675082780e3d578e7e6af0b2ef5621c4677381c3a),
  (0x502072c840986a830718118c1d419d44df312df832c47da8619fe74e425de709, 0x6df15d2389ea20ff2639979c06aac9169a7c3ffd88c02b96c1e3c28782ad8d99),
  (0x8c975cb13405df74b36581c77ea06058b0519fede093b4957133ab78ca8e05bf, 0x4084a42abc1922c4bf320f1f23541d65702ec419e34efdfec2a26dfcf91b8bfc),
  (0x9d18cc02e90bdb0539b60bd90ed51d7f495e97e4d6b77f373dddad6a4481661, 0x8a4a27d21b151dccf2a355e9ee6a2a3a8c737707f6d5c8ea8c7a16f75903b41),
  (0x6cc635b4d3b6bc1e8402c4e1cc3647fb86a3a6033f94d7906b24701de5476c36, 0x228fdae6eebcc339d101f95d36e8e99222183a9f5676149d275519acaa552731),
  (0x1b6d7a44b4144155224a36658377ee0525eb412030647cdb3957e1598dd17697, 0xb4c480b95e7d9de95b727d9f8a6fac50f53d9b1c459a2c496c76b4bcb34bbf92),
  (0xfb9d83e28a423306cb5a5130853f1a1cd824f7b044e8045a7255ed96a9432ee2, 0x10b7ad8e4c60454dfb95746f5dd62e980b2aa24a9f884e8a6a13813bd72fa8de),
  (0x589e38a0fd1d3a299808ff4013115b8920a5f2e65b3553fdd827bb82d3c5b684, 0x87ad3c65f5a387ebbcf7feeec76a893f4927cf767a5fefdecea67b5c49251a27),
  (0x8a36ef7c13db8426edf914348606db823a3deffcfc0fa67a515ed595e0eb0921, 0xfa8e40e0fa68a4e48ece1e033f6ca9edea25f6f5e7b420a1516f199ec266cd1d)]

theorem chain_ok : chainB (wDblB ec_CryptoPro_A.p ec_CryptoPro_A.a) ec_CryptoPro_A.x ec_CryptoPro_A.y chain = true := by decide +kernel

end Gost.EcpChain_CryptoPro_A
