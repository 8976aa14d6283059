import Verif.Lemmas.EcpTable
import Verif.Model.EcParams

/-!
# Doublings of the base point of the curve `ec_Test`

Generated by `tools/mkfiat.py`.
-/

namespace Gost.EcpChain_Test

open Fiat

set_option maxRecDepth 1000000

def chain : List (Nat × Nat) := [
  (0x6fe27a3e0aced6e9db874c05a9c7395be62e32982ed2a1bc5c92cfc195fe9768, 0x2194a807f376b7587d1c37cfc1327eae83f6cbbee4afc1daa94b6fcc19c9a1ff),
  (0x72954e28deb470e2de5b46799b8df36cfe73d6b6957ea9f255fb99a7094da15d, 0x5babb851f631995c5b00c2f40478e815826789ba442865730cf3707e33f76256),
  (0x30a254209de93eea81ac9e7c05f0ef197f64705936b3c39c25696572b76a8055, 0x717425e7df683d3fb565bd0dd0ccbd1d9d6b75d5c21600fcb1b45980af3e97eb),
  (0x549e8ea7700fc06e6376df9deb5c6f59a6e2b81adf29eb37aa6eaf5e825642d9, 0x4ca66abeaaec1057d97c4e792d946d2bb85dbb8178b019f54354c20ca63216f7),
  (0x7e8f28823c699088291e5ed3f0bcb5342cd93400f2935d12ccbd0f04c18ce4d0, 0x1e10ba8a4cbbc0e485c0d43afe07b8466ee3cc9b745e5dcbe9451055dbec719b),
  (0x67d2f08f1d73c3e4d39a8fc1e7910d3ad9814f5e9b14ed43a5674fc212e92eb6, 0x189d98a0418cd52e882c7a3c1b667e878036efa01cabcbe9001d8ea479db1333),
  (0x19c7526d6f0bd4664330854740523cb709adbb3612e068a0d09929771c88340, 0x507932e1c5d27679f94909a5623f0c1ad52c452594af319d96beb6d55767630a),
  (0x3afaa90212b6baa513ebae12b31fe092da0c0dd2b31ef16eddff460263ef0774, 0x1539c8066faeba7625bdaac80af9e563619d4a6c31c70f66b66e6dcf75527dd8),
  (0x6d5f0d6b3f205539687feaac03aa2948231e5b885af892f762d84f5f74700ec2, 0x3a2afdfa089517272fefc1486a72a531bd4d339fd825302e91d44388d9cba49e),
  (0x2162becd35ac16588ad1e1d4654aaf95c596601e36da2ce88f19836c5563b817, 0x34eb24a8c31d264dc11e70d37707eeb0c64e9c8b1cf9d89ae5668448c9dfc507),
  (0x2dbe55c652e63bf5a9ffb7df1a8190065e120ae33600a4af7fa24293dcfab135, 0x63b4f2dc433ce4e81deccb085b2b0b7aa20a8e60bf783c1e2a56a256ea9e4be8),
  (0x1b7dcea4ea000ab5156d9323cac1841b02f7072b71f5858b4eaffe93467d22b7, 0x6ad92263ab488bf814319624914f31ea960436a942db3a314e68143f9ebfdb14),
  (0x756e29926bf863c635112342707a9fe994835eb3426252d3d7ed9600452e54d2, 0x3af20d00b5ceeb014976318db78e2e817ba8336dd7377d6a70b406cc520ffad5),
  (0x462e8b426738b9e83e4a8be580600e42d707c9e68357aa9b40ae1976a5a2c340, 0x28c600d68f912cd1598f6fcd98ca55d803561e99e159fb56043d349ad9effb47),
  (0x68ab369ba3b110b1ddaad1bc27fa67eea07254b399a7460286bfedb7a86d015, 0x5b3760864e5df62979f7a53e668d8986b488108d5404cbbdff0c05a4cfe9cba),
  (0x4b16097eb70b4df5b9048a59cea9d053c4134bb3838bc25cfd895482706bf39f, 0x46de99084c9f5533d0b0fefb2f30f352032ac315b9560efd3b027e8558dba543),
  (0x68580ad7991d73c8676854ccc0eadbc577c0e521f53b9b2cf9584b8e03713a64, 0x220a66c74899a7d8b9a57f57a93d713e8845f7355659e59bdb7ea4f5baaf4b9f),
  (0x49df894fb91072cdb477f2da4bd586a806abf491ce50cd4fa67b79cfb203d8cc, 0x23e5b634e789ca393abbe1f8fa1472a661ea217c71a3121dda43e33baa4c8ed),
  (0x2550e3a74db9eee7192289f3be91f6955cc231074bbdcb345550ceeed88ef4a4, 0x79da5134fac72483bc9aba5459638287d73f5a98eb065f8fb248cb2c395c31a7),
  (0x5bf8e8efe4e7c30f02c904ffa5b40b74766029b98f3cd3cb644e55c5016dc203, 0x3f675af75e1085d7e63bc2d0771cf194d658502af898c95edaea3d568e67a0f9),
  (0xe9915ebbd325ef03a8f4e34ee0d73c2d4b99ce0050f520b206dd4947e4ed226, 0x1b079e05339731666140dab2277fcd0a694b99dc8fa4b48ba3ad6598f7978574),
  (0x5e46eb00fe68b0c62bb946c1ac549c1a9913cc0c3cf504f80ee62b491cd61203, 0x569696fa6c3b3a28a7be7b7e81bae8a213d085e01d402e34a6d1ccb2b92ca7de),
  (0x7c30a0fc27414c92fa237ef0dfc7eac567c2940e511f21360fe4afaf4cfde04f, 0x175f5b761ec34b8043cbbb48b0b1e8a18ef05485d933d942df69308812bb93d1),
  (0x6bbf5c3f3c1fe1807c1d2b95518c934a3dc1f4c7aeec4ee0e587b7b46560d3ba, 0x31bbee8bb67ff17e74d87524168cfb7cea2c06385e6b530b6643387a5f5824e1),
  (0x76cac6bd8bf5fe5623d58603a2747c3aa9bb1a759787c331096be5a073877c11, 0x39e3fbc94d9a04ab93f2a467051b2e8a9db3a52b3845ddb94bed6102e0ce82dd),
  (0x1006eb056b88e3f2dffbccb9d6035fe61609671552816e66a4152768e5de7963, 0x3cf59417c0f8fc9dc4c6a6f37f8d8042d0742a3c6ad7cb771acb9592d743d10f),
  (0x2f25f5fadb5dc5c7e7cd24e87e3533d99fb3c676aa2150a5f57f3e183939d0e9, 0x2e152ce63c7ec8efafa0c770da7cb9dab7e9ebb9d5342d6c5ccaf8c308bdd1ad),
  (0x4e42111cea7ede982333df266e44e8e043861907a65051582023657894f53b0b, 0x1bcc652425cc4d34293390bf64a3169f1f0f5e548f8ec87c50ab5d85e7cc6937),
  (0x138eb82cc2ca95ae9d47905128bd54eac72bee825a01a27f620ddce9f1efa753, 0x6effcb349280c7a4bc4b6de576004c9764c7a94ab2a7dcac060993e4d5d2a08),
  (0x231b9977f4109a44baa3312d7f71edf604a39cd6b23d4cf2f7e641210c21be5, 0x26aa7a3435cf03bda42be9b3fc70c44c25ed3657977f73095b87f619fc22a5d3),
  (0x7828d859cb87e9575600e5d298ce18cc9be1b6a9a840bc9ef8f023c1f2720b7b, 0x74bb04131937996298173a596a82957d7011faa3385e9b53e48565fb99fb3cb9),
  (0x2c30848a2ffa9874c6b5bd6883ffbc4c901a13ea7dd79ac46fee10205494e42e, 0xd0267df0472249af9bdaf812edf3ad5a10c9d938eb3e552949fc4777bd3d08a),
  (0x241349d65901b3983287314f0d4b559af75837e25650d9dff2f08910c017861e, 0x4802f279f4aaaeefdc49024cc841f465f1b9973ad3df2c9e86f9981f0970c69e),
  (0x32ebe2332bb4ada50c86a2985ea4ccde2b50a8b171e122b1d592f3dc09a788c3, 0x1cfa746f91799bed39c412ffe8bdd8467a48d1d991e6be4e5fdfbc0873b6e140),
  (0x684aed1d8a1ecf22812734f16141a9aff673efb5cd10440237ea2b6ff30c52e9, 0x4ecef0fafb1bc1c07093d6b8cac78faa5254f9d34af17d5bd14fb2b7a0fdfd9),
  (0x63f395bdf494645a3a799ec1fe67672c04349fd07829d995115cc1dc57e5368c, 0xf10790a4873d472e478a494712bd038ae934db1bdb984008a65c648df71138f),
  (0x733aa7f0628c6f52cd84dd6765eb5455f5b9dbf242fed3c3777e0def787fe3f1, 0x4da248f85478d1d0b24ef297422624e40ef4e9867f66e6a6a77853b1b4d0fe8),
  (0x4ce9020cada1e8b713395c773df34d3962703a2e7ca6261e119592a1791fcc78, 0x291b3ec90def5835ce27da955dce9b3f2fbed2dc8b8fc4e6830124069013a4a7),
  (0x7a26e4c070deedcc64f9d32f09b69cfdb0c3c976f1bd0f58d1f40d7ba7497279, 0x41d73c2c5f2a4d1ecc873b3a554625231c69804a3ba445f1f38a2c3fa2c1aa98),
  (0x3bdacbe7f820409235a94b91bfc222b2388e2d62c8d7dd49a6a7ef847630ff9c, 0x3b75fd2252b374b170097e2daea62d9551e79a4e17d38a240f5205cfc78cb965),
  (0x3b7db9ccba7b1fb0b1ab89eb309c0898c7a1facae64d04d650c028e33af64d93, 0x76871a6a3978bf7620b468cafbbaef8ba53753749e49c3f06182f345df38a97b),
  (0x61808ea73fec552abb88c8dbf8c5a592b5d0f9c5ca145a66b20544784e10ab63, 0x4a7f519c9639cefcc7246efcd2d1196f10c663a0c1a2ed3563f47a29cb239e3a),
  (0x1ebeb57f01fee67cd5a6d24fef9d80da87c0c1f896933a02a20afb64338ea714, 0x698b2631a1d78af09aeaaaec85b49e3f4777c0431cca191808c27da1877c9785),
  (0x2f0c9ed710b94a564e778b44cc8ce878a52b1bc32701519248db70f4ac77e5a4, 0x718726332d355ab76f7f80ca40841243ad3ff1c43d2368d466765f9bcc0d7ca0),
  (0x73daeca1c1868ad0c907de3eef7182009d3be1c321890aab48bb8b1c6df6ff6, 0x2d49b79bcfcd2125d445301254c73d3007155673360b8f767fd1d6afc6813abe),
  (0x5ee48e47f5f04564dad4c85ea78e45ad4274f2e1035365f4a94ba6175c8297b4, 0x19972963dd9c5392a8ad091e99dc1703c8677e0cee28d10230a6a314d083935b),
  (0x5ff0560733d87c0cb26e1ddc5a124bf0fac6ab04294f5e181ec1ec297d7e2dbc, 0x29860d57aba28fbc86a4e5aa747eec02b6731bad66d8d37e8916257ac686f069),
  (0x4f9988ebf8b872120ceddc5c8711e1678df35d462f1dd9c1446f1599e343f381, 0x4b99e76636f1b4471eb7c577bceb7df081af1dc993b17c4cf2c3bbce2bb24aef),
  (0x36254bd80188d97c8b725d9e8cf210d980316f7f51c64b24ede500bfeab5f5fa, 0x7e5decc42e91e5c5261a73426b5e81c7a6a1d89f4fb70d27963e201f672439ff),
  (0x4aab5168c61b9cb86b82db72f22a9ae3451ddbd69f629ec0fc2c88e84f7233a5, 0x71ccb6aff9193319e12ebd47e646c271a8018b6a8ab18273edfab4122ef40c06),
  (0x13c1d1384a94f19b1281b92de729c401de79973b1fa812e668c6b6693f779822, 0x3483bad243ebfab96c1657ac972178ca9c09ba2a4d6980b7f0522472db68948c),
  (0x2cfc978c22ecbe02b5d8735ec174ce4ff63839889f15c3b757442ab69bf8f1ea, 0x112f3c216dbdce5b9dad6e6b44462971edec8b7b64c365cfae6ed92ebc4609ec),
  (0xb7bc804040b0b2203aa1fcb1977766a463f925263c5dee860503b394ab4d98e, 0x45c24c67bc1184355cb5e6afd291d7f7ac1117783520e7d864c5c379c1560732),
  (0x3b519468aed3632f85a551d25ea1c0c0ca8efaeab60395bef6d9cfd0bef49f12, 0x11e5470905e2bdda67205c344da3d69284ab4f5433676d7d5e3a5b87ff188507),
  (0xe35b1c17ff5fd1a07a2f0107088e8272ba8a7d5d4d1aa9a14f267177903ac4b, 0x73683e6790401c20556ab9fd488dbc562affdafc79fef721c1194615fc9645e8),
  (0x716316cc323bfbe3ab02c0078abe085776118c3ac9438440fc8b5e9c1bfbc5f, 0x7a31dd7696e10d2ba1de970a9f7c8151b11de75755da3e5235274d41a1e31525),
  (0x267a81fc57d09a3d95aabd5488be2c027544e8f1a4b38e7fb485a0da287b6744, 0x387ed691091769fe08f037b4241c27de47bd6225e7b400a5ec6edd4321c1730c),
  (0x2bdd90a0134b889b53b30d878401c1961ef68da2c2fc2fdffa8ed7f3850088eb, 0x1becff1bb083dc738a439fdb38cd6cd59e0b90d7ecfba564908931915f719698),
  (0x1a93b6ad6bbcf75583fc6d4ac07e6cdc0032a94dbe1bf87154a73f56cadcd5b3, 0x4402c7a4920a5747a2517eb40f1b8a01dcd78bde6d2145c8c515628df7fdf8ef),
  (0x6299dd679f1ea8025e9d01828236437f00d1169340921a28d7c0a415b60ee6d, 0x67f4ea2a6d0f34c84ad761760a92be212d81656b3f3e026a99bc2fb421cd53a3),
  (0x38776c59d69995153fbe26ea035f801903c7ca6250f1bdddb2b8581b9fec0f30, 0x2554db51f192636871c2807306a0453fbdb460d1bb01119fefab4251df78effd),
  (0x26f0ff1a3b514175eb4f5475d0e9a8fee7a7d8d54ca9b67fc5aa224c27d69a14, 0x30bdeaef5c5c400981a1216654be7003fa0f8190c69197447cbb61f6df606538),
  (0x3ff0021c8230434c858d305f336f383be4e6bf9c6a236b2a7580301439d9e8ea, 0x351536d78cc809ef6fa3e64fa46e4a21a7f2d0c51a21640ee337f45b20c520ea),
  (0x4fd021342f6080346eab58ecb0e54a1c19e1721433f040a000e1eac7f4a23dc1, 0x315f5b3797815f0337288311ef1c6852ceab3c0d9e0e19d0d861aa53ba6b7b57),
  (0x66be67373d7cb490fada00332db8e5c177f7325552146c9f8867f6569281a888, 0x4bd136b517badb68eecb7e4eea2bf514597b53f65371842fc8f705006453e049),
  (0x42fde639e1715a8e95c557422fdbc4d9b616c6ba69f27c24bbceb36b2496228f, 0x14795fbb34fba5bf8033543fb2287d47112e52ebe0dff8365fe85b80ad4f67fb),
  (0x47183ad25f549be619ad2ead959e4ec56299b1479862642de6f713e120e320cf, 0x5b4360dee150a9d337c07633b517f01c289db23039a713caa8414ea9aff976d5),
  (0x71b285d8d19c5fc41d278663bf3cb8150e127efec72a6257537709e86ee95a7f, 0x6f2270249117fe9561b79b572307a959aa7bde94140dc22612322eef891f3583),
  (0x236a7de9cb5ce3dd13217498266cd8b4be4ed0792feb0b6559999ebc1a817ecc, 0x38d99183a93d2ae094f9ff9bcdeaf39c1f44f2ab8717252128a7ffbbbd2b510a),
  (0x71f6f5e09dbd0edb5e08823e54399e11e56134d25dfd04a5bc0ddaee697e30c2, 0x20b533b85f6141197b867fd60f1e38db3b2406a42105a536d072e65235c7562b),
  (0x2b636db6151d39e3e6bc9aed13f4e8bcfd1cea4ce850b6660d79647e1c4e0850, 0x15058e6531a90769bcff3dd0c9b2336187aadd0cdfdb40b8980c7820bdb7e3f7),
  (0x387b60751162cf69f41b1ae29878b8e72ceff1345d82c02707a7f026e2faee57, 0x51d5177e8d9fe83366386372f9162aeee5c2f7c51fc043543bd4b0afce411778),
  (0x347120825f63bbd83540721e94c5308c230627b44d4a7c2c21196b5aa742f1e4, 0x5f2734b435c1066b009187b4c4cfdcbe350690ab997ad5c0ed6652dd9e73971),
  (0x1cdd99bee960a2e245e5a0066f74bcaf9e08406fb977774e1fb7f2a227a5813e, 0x37ecf4c686dba732d4f51df93d9002b12f384b094fdb954c3645b27151115518),
  (0x2f4279d6fb11981d8eb66d5f7edcd568d4719762fabb7215a0ee84f1177ce949, 0x252a99485dba95359da1270200851a544387f8c5d52df57286fa3467a1eff88d),
  (0x5b62a63c955cdad90e18bfe2a53458e313bb83162ea38a22defe4c2cf502b524, 0x440757fe5e7ec74d1bc011cf8134b1232b8d411f6c88c2d97f0fdd6a0c9e8bcc),
  (0x72825c5e2f550ce0044ccad291e1183d0cad6e88e8f1dcc01cdafa9bc6aab227, 0x759957ddb5a5e29bdae8222ed2c14610276fef8a36e096802f256fecb8dd7bb3),
  (0x1ed8026593e68689a05b80f27adedd56367123ef1cb903cc29b88a944cf25d67, 0x61a75b03bb183e436fb0dd70c9863022e5166749a7fcadb4eceeac46e0c2fd70),
  (0x127459c6c09a5aeec75f6545d1755a02297415878f053aa4566bdd596b358aa7, 0x4d6f02ddf343f92a8df3baa8c148fc3666878c953b19e59febe8ae5afbc0638e),
  (0x738c0e51329f7ad3a5fd6b3b7506fe79a8152fbb67d47c2e3a904cad80dfd393, 0x49ad9459f52651f6273c71d46eda5957d1d7d7fc38e6b0a05a97ac154cf0efa5),
  (0x6c82ae82721ca6e5876e4fe2ac6abf010d78367f496f73b4d8ee6a6fc6636260, 0x3e489b03723a87d49bbe622bddd756b2c0c98711c06ecb77b798399a16dec593),
  (0x52819141bfe5f5d0309bdf8fea9e6729e15bbda04cda7be97306bf31f2fa0fe9, 0x5d814e531b6a1d7f48149bffc6c679282af04bcb35189798c83ee95f996b6ec9),
  (0x12acdbf8a21d6a5dbd13086ddbfac56e5fa06dea4d4b94338ffd7e21d269327c, 0x2681e7b71fd2b8cf4f1acb19055a2367b1b2cf91c383c605985b3234a34b75c0),
  (0x1d60f76a5f1243ea165d2de7d4aa53aeae717985a4f4d8af4102c116d05b6984, 0x3b00f6984508782557d3c7794d6dac988e46963d4e423994e16b634748300ff3),
  (0x6c407dbab35b02b7baca5602cf26e5ed1a9768cbfd093ca0e433142961aa3cb0, 0x77c5b7e93845465f833c5257170747f62e685fefd2b311e729f72d53c13e5f68),
  (0x503ba723f2061805af29b6562a7d561d8637a1baa1202d0ec21b093039c98eda, 0x730c77276800ff277af9080f844593ac7486b0252ae205b2c24c6d387007f9a4),
  (0x19192264864414313f9fdce22afb003350f013dffbd527344cfec54dd25fc3b3, 0x10836ab2a88ea8470c2e2b1ad0c41a96f84b9061498f2412f32dbb3df3608d11),
  (0x42e023e330aceb3746f2d2d9854439841c9dfc71279b7b324c5e568a25841291, 0x2f1413054ed5bfe809a5a026eefdcc8c6bd931b0208c5bded739dda7bdb16c23),
  (0x6f6263224b0b689be5b9235515b7bc47d3e9bc9adffad3265f788d095bc4afa7, 0x711a72d1040d55238ff68f676044b65c29d74a73452739af1c6da65918283e49),
  (0x9ce36b49c35e7de324aced8b636ec3373c14024c5186d213e0f274aea2d6ad1, 0x65517e788d44cf122cc0a06e3e16cb841e95fa642e5b46c755ed28fbd3a47973),
  (0x3af0a73fecf5d90096e0012c994585e19973ad29b07f2c9d367e66636cc794e0, 0xcf665a982efd46df1b180012982cc2ccd63c50fb303908e6371dc71a659967d),
  (0x47a1847df1e2ea34f9a6075f7a4668dbb8c3e7e5a0a095e398f5727991a2330a, 0x24eb71f073f63afb3ee843b721cf161ef118671aa214d90877072d061d3a551f),
  (0x5844f77e55ab902e9a8bf12b889c2f8b0157295d4fa7748fd273f8f94776e2d3, 0x2310da815de81f35c64fc80d73f873d04b6ad04e06acdbfbd88633c3aebd8902),
  (0x4edc4bdd99a710ecd12d8167693b20111dfd69a51af57f2f9b2657a0c2aa30df, 0x3186a6d96a76bded3badb30f0f5c7ca13f5a3da2bb75d579087c33be97432648),
  (0xd14cde0c300ba025ef8950e9b319e963e8dde6e80b98c2dcf901d8008717c4a, 0x2e056c721b12bde3d6750ec5a47e81aa5fe64e1777c8b9346d0825ef11521662),
  (0x3ad5d5d03a197f15105bce79fa9861201b2afa3411dad7955667f94ccd621e95, 0x83f690caab02fb25b11d62716605e358a21075179cd9db1d50be3e90f682944),
  (0x26f2f607e06373d7350f95879e629de83d050358a6a6d87f4ea07f331302dcfb, 0x554f05e55d9137c4bd5197e62ef622b07c260b79138d4a5d6a366fc7eda9146c),
  (0x6bea3dde77966f4637cf5e1d232c75c35a184c295f948f9e4d0e74c93fc9a23, 0x778879df10402ce30c4de04bffcf12d675d7bbe0d9ae68ce56045d2043f7c275),
  (0x7e0dff1104176eb73fdd3ee580d8a45481a64939a74279896afc74e9626e4bb4, 0xf564742cbfafaf2393aba2e15b0345af6ab942ba8f442d5a568dc1c23621158),
  (0x5531d9297840ac9dd5f3739fac6483567d9b7c61641bafaab6303527f658048f, 0x19c5a2f7a309cfc04a8e51b6da9d075efdf6a8765dade2e34a8b37d6bad1e77d),
  (0x63dcb61fa3ea0ef3d9a60e38567273f2aa60d3c4ad39b11879cfa8e14602d52e, 0x411340186e569fa49749a69e899b68c5a1ee3422c316ed738b1545f37f1e75ca),
  (0x11615df78af03bdb28b2dcfeed1647dd7b23c1cf8fb762f71d5d94b7882ecb1a, 0x2631d02416140c6f6f3205e0449731df79ed0084bd997ca0722925f64ab7eeac),
  (0x8423e2ef26546d8937c96ed2ce2f4614355b725983c5201a2e05b6913989765, 0x4034d3464616855c4e40184fea54986ac65ea113615e4e5a047afca661141a47),
  (0x2350a14e0194977fa4e16bcdbc1f3736c4b5b775d15276f17bb5885906477e1, 0x411a7dacd9490e115310e52d7c2acca3312118c876379d95571f2d36d3c06d56),
  (0x2e5007da6c997de8c788c546ffbcedbfe036990c4b493644befbff0d1e3cbc7e, 0x30b3c4744cd8e076cc90335ef0cebb25e017f0f335a074301592c2a6ed29c54c),
  (0x34879454213646cce8b981563cad9a0a8f7b08838380888fe12adf42e42e4c0e, 0x7eec3b1c3aa93c2b2a0678ed646840fe343efa9269d56551fc16914a64715354),
  (0x4c8bdd86bb32cd46b28055bbfe48a7f96e84f4f835ecd83f514b115bdd4cbf47, 0x7f4005340204eb6ad12ed78429c7939cd5ef109dd169e83d7b1c39dd180ebfa9),
  (0x39946b3eb0b6171363f6191097502f43ffb62ef84d421b07c803bd14eb64046f, 0x58c83180ad6aa596dd504de0b00e2d244c14f1ad8bfe69656efe094c2761007),
  (0x705bfb8dc4569109d249d86d9212620e1e796d6d87c8b16934834c529507d001, 0xa174f69bb56fff44ac19a0f80631b4ae7ac06ee24486abf89d8d03388244868),
  (0x4a1be3845adce0a2ccd3b2b7c5f74be835928d99039fbd47db4e1777baeef6ac, 0x60d69b9b10d0a78d05c029323c4dc44a0882768cab36986ba60c67b549f9be53),
  (0x5a3d2083d721aaef3cf84f06b1fde2e4b69b417689ed693af00586180bb06232, 0x24370d5b067bff63e2120dc7f3cbd46b434029c4302c90772774288463332029),
  (0x76e3450841ffc1cde1291b16a00f73f8a474f2f4dafa71bc4e2144a0d0eedae3, 0x6d947564c48d6e2c746f7dc900ae7af013bc23b06905f58a355d572bf087c86f),
  (0x4887d7aa65bd38c01966c1297ede6f85b14424dd4ad5f514b32c02907777fa8a, 0x4dc3d03c99834df3f6c02ef3da3a8ae11723789a5a24f5ab74b75e412de5fd39),
  (0x1a817a642ee5278e978d5ee0a57634ab6327a7706a34c79bf78b2d58d39c7f55, 0x68004bedebb55e02b04115baab26782230ea184c4e77ae1f03804813ee4a49a2),
  (0x385e031cbc2555f00b7357b4a55490593771eec93001f846c1f9866597e7432c, 0x51ad88f34c32873753eab54f8b67d92d2523c1bb9e361cd45ad824ad3bfadda4),
  (0x6fb7f897162381a77aa59a1e783c82f886ac65ae19f945a6e2a10830cff586f3, 0x55c3966bd0e7b9bf14fab539db7fdb688be501f39fd32624e997139106a3c2d8),
  (0x38ad7e5c85cb846589c8053b17ef42c096cd9eb581fc124721c42c23e78e0c44, 0x5e85562d0120a7466400540454163126105ba5ecd2ff861a99aae05903abd08a),
  (0x5600b8d585b4620b2e70c3b45703a9d715bbfc38fd939b97a431b95243852ff7, 0x4b04cef8868343f3d585dafe8161c73eee6616f5000841a1275c3d2f21d75a97),
  (0x259a37835ac7d8591cad1a339918e2e606e48879edb4e83180ba9d41eb8158c8, 0x59e0d957cc01c02b135ae7f0814f08ee1df94380aa93afba704c952595f899ef),
  (0x69a7a5edd17570080d99ff75a2d4a772e768aaf7cf9034b92cb316a5b03d636d, 0x225ffebc96c0ff9ddf3854bb29219b4c195d99b63272e006b83957b6abe45577),
  (0x1e21b2724972c9fcef491d1caee2f5850fc41ecc6da18ae703114c9f2509274b, 0x4de7a7244b3867707426fca2d6abcf5d0ce7cce095654b674478ca2ed318cf5e),
  (0x27b64c096999365759a704792c7de588bf6676775e95b569ea151991690a6741, 0x55607b36be602be2d6c528d8eb6aee09bbe87622474cdde17e1150722f5f59ca),
  (0x1bb7ce148cf2972c9d2dcd8c3c0d5c08c50b473f28f3fad318b054e04f6aaf9a, 0x295d281390cc96d7f6e55385a06cb5bfe4a318a64a0e0b3dfbf6296b7f290589),
  (0x122033c65920fc39a6dd5fca4634a01e851f239d44cf5e8527cc9516653c9a5c, 0x2636756cc24403c59e32edc3c9aa7325d98bd7f883312a3666f9b8a11672527),
  (0x6d805110049254eea0f94143b92a2900f44cecd6adcf6b4ab64e89b63ab2e8d2, 0x6d0a9032ef89371d1e14e5e440bc3cd4de6ee71032169e94fb9eb550226701f7),
  (0x554ea798a7937b104937489cdf1fe61c63d02b179a9b20430b43252fbb07dff6, 0x155e8dcba108ba4784828f34ab2b1c103da7e86e38b2da52fdd2007529987f0c),
  (0x1af1e1bbb63daf116701d8a59e929a8bbc3b8c9ff49658b97673b216c3e5e102, 0x74a7a8a49200c671791f02ff2b9691727733264dca13b8006c0c4a757c541856),
  (0x688d22cbb3fd6381c2623568a8b53351f30b3236e624ec0e9a163dcbbb2487c0, 0x58b2e40b659ab6f03ec5dd47392ac86dfb300d69dea0ee6dfb0b9bc89bfaf98c),
  (0x21935d939ea0fdd0f8a794bba41a3e3c7e28ea3171ca4b2f8d5083f962fc0864, 0x38718123b63847c87ef1958d6f0385031eadafa091dd4824c74bd083a45d0db7),
  (0x72df25909a96e8a0b3d8544b01ead3fa9df0073d69ad25fae6f397fd04f74cee, 0x1b0c7916959f0f87918e6c94cac4abd9dad6e7c80f8f47504361864508b3f3d1),
  (0x3044c603d6675fcf4e5f0fea9ab434eec938febbf82042fa1b8c3a50f6c72f8, 0x6e7cb8fdf1c4315457abb026966a4af71ff637453c5997e88781e04f6f8953e9),
  (0x67d49026bab7ac21882891342278d4d86b1286ff61f151378009a6df89b1af91, 0x5f133ba997e575dee3429d0ac05b4a8df1bf68333d8f3171acee2d6cf278586a),
  (0x664403ace74c05963ceac0efa2dd0d4663bedfef58adf101c3751869170d0cc4, 0x2b27410327799c2c60f5c9da72dec9a1df7633d764c7eefd3f69167d751684eb),
  (0x7c739d23360c88124ece91874cdaee0418071b44e2e854671cebb68bda4f5a0f, 0x3b1ceb669c0aa03da222593120b839022600a9cfd8e5f414c4541626f202ddb3),
  (0x38d1cee2ee46575e12f14cd4eaf423b6f76b1badc89d515307c21eaa491c4a19, 0x64ca5fcd6dbabaacf7504f3d0cdffd4330d920ff11b73a8f90e86bfc5ee77dc9),
  (0x479bc47a5f4b7dac0e51dda787a8adf030d3a00b5805279306d984231325bda1, 0x14cac5452c18479a917f7d3a5805e1e2456ba88797ea37d2b1fc04cb14ef9230),
  (0x2ce90af6dc168cc1a25a7a508c83d5cf0e0d142eb663793a5a452ab55ff87da8, 0x333ac8cf1260c7f87c62f732f048bd1e3b1a2ab4b27d403a9342ad2534781bda),
  (0x4965edc212bb103c263e239912975f0c2d50ae624311bfaa67318811f1017996, 0x5159ef710ece9b77ed99caaf3f1094b68b040a86c7b9a4859b3e228014302576),
  (0x3a4a1c1d5520422c2460bc9ec77c2982a4a56a13e1e87124c29ec9253c224400, 0x9d06ebc92af8db6a16984f953bc60a21f415303b6f07e6aec95cd2e3112fc67),
  (0x3a531ec570249bf81056d090f04993a5aa489b9c04f9c2cb2e648664a9762536, 0x23ad2f9eacd2bb8b1804f9b35a006a80aaf6ef2f78853a2f8c5047e93bd4ae96),
  (0x6f02608cc3e1a21fc0a7a25702ce7f5c0df92e3c3209f42f4a193d4ade82ecc6, 0x509dc26971736df341bc9277c6f8bc712f9573df029057c91a257ed4444c13aa),
  (0x5010edb2fbeb8d720eb25c4a9585b3fd0c4ddd9a147dfa4338ebf51cda79f25c, 0xddc30ad044e50f18518261a64b771ba7a5511b61931e9ec112c6159f1a6142d),
  (0x2ecb3e13bfecfbef2d5a7de9053634f4c4dca2c9c4fd4b2a35167b9968e0150, 0x59dd04242b1dd858cff6d2a6bfb4ad55ff8ddfe62d8b58e519f1cdc811aebccc),
  (0x2eb329369597ad4c12abfd4f3bccb801109842bf7d4d690ec731a2d9114eb44e, 0x2efde8bb9ef4cb87ee5601386d1daca73cd6885d3a4efbe27ac02960c5a4532),
  (0x4541e053f9e35aa3d8377d9f965efe9bc81596668dde4e877824d60ad3ee5451, 0x1eb21e53669eacf4b5816aaa3c2c600fa908e199def530b85a895237e43b3e7f),
  (0x4c913949dfc1b5bd51d3f3c5346a324bf5b79ddd9541ca063bd56d212a211990, 0x459007f3e73ddafc25b0baa679f40bea649556494a1c888eadb101473655ce88),
  (0x37ec67c32418d1fa721890e6fe053a40a668d7ef19a565349911549281ac5a7c, 0x51724eff56f368345cc46520011434acec84358fe51a7fe37c6a2a1c9e1a21c9),
  (0x31c367980d29cda1789dbecbe181ddda8a3d73e1c695e06fc5bc2b409d3626b, 0x76b2c4c450a97dea3757f443c42151e2ca86902a0da81b66c020ca166b5b1d1f),
  (0x59a540c1b0c48a9b6976ff72c03d3e18d3b271e0a652a2076ec6b202303b7525, 0x7c45b81cf687d005dfb18bc1d96bc5a7da43a2a2e08ea8213bdc57fc6e89f76d),
  (0x7c4c15ddac22f3e933fbac428f9f9199699f82fb1fe13b46e56341ad9988100d, 0x64fc75616fcbe6ae02e1f7bbe50adfaeb5fec4dcd937ef6d3aff2b7abae98ce7),
  (0x9ae5cd0956285fabb5a6c88b25a0a3336531a690e5413e8021f95e40e214186, 0x5049be1357989f77beccf396bf53c4cc76c54381e0fbd45bb007ef2122fa16f3),
  (0x3ec1e32dbab955cf976745c0c10ef33c8da9900607981ac5d34232315141f724, 0x366fee93f741810fbb8f58589d0d86eda98b0b26ae911a4d4d909292fafd465f),
  (0x2a550285aab740ca80543c4555fd8f57b51d4d202f047ab2d1d6c3aca2227ff0, 0x476d8e9dbf5b46ae0f759cddcc68f6cd7f64ce5f7e5f22a015730740da50a8b3),
  (0x52367214b3711eb72cb593e175d2360c6e40bfa530d808efa6f234c48ed49bb6, 0x5ac766c45df48bee75c169e1dc7a9f4d63b3eb22584d71cddf99940a553e23e4),
  (0x699316f6425e58361ee4a257674ef97719cf0f22fe787712e31a5fb6ce9abdce, 0x6f40dbb6ba3e8c919a00a6e6cd3aea6e50737393f4bb02c10b031cc0fcab246d),
  (0x4979d9a1e766c0162f991a7ac67d4987bef2375ea807016ba9f1326b955cc409, 0x7b222660d18d45c36f0d29490110be22c06639700524f46d6c3f02122119c81c),
  (0x5e1d4de25159560750ca92c0bf64dfc909e8c64032048cbb1c3ce08ba5c8ec09, 0x2bbaadbb746133ce33163918205d8946391f607d90d657c019ab19c9b1a3f2b4),
  (0xc0135d1a926a875eca43801b3f46785f956129cdf1a798b5fa24af987e769f3, 0x82f4e2660e9a312481446a40435e869c718d5d2a58cb133ce777feef79e8efc),
  (0xdc92b6f1ad38c5e61c33da97db81d42a7d50b9993a4c06429faa216bf0810e0, 0xfc876d9aa04bcf3a96d9449d611542a8fe02e0985ef2f0f4cdac58b9df7c1f1),
  (0x35f3ede80cdbc3979768830505eacac27b111344e2ad0e82626c4d316d4f3265, 0x62cc6ee57825c17f0f93b0249517740972d29de3fc4017ea74652ded56931d60),
  (0x7d5bd4801c7fd7a83f483882ab83b1d9924fb53a40efb6526f0bf45ac88e59b5, 0x529759b2441e4c4410e92ee36427f24009a57bffd55be013535337da660953e4),
  (0x441a8624e747a5d00e1a999447f4054e485dc5037a5462f12fa761675b9e1d8b, 0x593447aa9b806896dc8a0f579dd1455051ae4a1daa0f52ca9859f763c38b338a),
  (0x1f046df44160cde3c72674e83800bfe10e5ce90f97b026d9466118222a3ee250, 0x5b98377ee37e3006de4bf2beb1186b126946bcbc7d3d9245e449b30111c90409),
  (0x1851a72c7af2d75c61e411be7f2919118de7802a8246e9dbb6ca41a4d47c464, 0x4218be6f2f3ab910ccf1208090f7f0ecb43eebd442ba5f07c5ece689cdf8f6e9),
  (0x4d3c8ff1a0d023547379f7aab817c533ccdb9fa98ec537f9c470a2bab423de1e, 0x1c08c9b58512ef01628633e371073fd0ceef7a2c22c741fe34da18132f31390c),
  (0x5f72375209bd5a7da40fa28d5c647e6ad59a9c83c9147ddb58f6280201ee82a9, 0x5f257521456b80e063162a68681aaea575c92f8969bd585d993277e32f4cd9f5),
  (0x6cb31756ddf5c63d53c97317fb5673526a6b9b7e94c5c95f9b808ff7c2a40a9f, 0x4a96826ff11b67aeee5e387a08a9ab4d6d180c103c9182c880f76fb680fcdb81),
  (0x9eafa6b6dd7e587c2957c8f0d50099cc36b1e487b499eff0b828ee083812694, 0x2d5607fec8a58e41809baac86aadd21f05eba7a93ff52e1a815d93613fe37c),
  (0x33ba36c3bdc61edc57db254ddd4cab6b781a3a801c6c0df44c7c5f70eabf3f4f, 0x5fae7de2d8c84c66bcd067e8498ea6f5414aa5ffcb442e0660814c5b7a88903),
  (0x65bf1c0f5ba1c5858cf1216a5000afcde0acd41506f9a0fb36f3774ff3b3daf8, 0x624039990991818e8d7e8cfe79fc97768a7e34fc2505584001f6420f37030bc1),
  (0x3ef564a6c82c2c05f3387c5d1576668306c416b2b926cdd4ecc60abdac8627f6, 0x52b09cf90d0fa6cb30ce79d6a46ea181c010020abc92392cf307dd28648e5234),
  (0x57b4b94eb93ad3c9f48b679deafa1aa3452ac0f6d8bb9b2990ef5e8427da8256, 0x68c976fd64cdf982e660a5887f25156edb92c6f70d9e4e8ba3f8205a25350b03),
  (0x43ae1cb3ff5e1f37301c93010cb5660e00dc99a651c7320ce26d2ce3721a0310, 0x59dae82803c6537236c1766efc156895535e44a70e71741222f4fbef687f3251),
  (0x7178234dd9350eb427229c9a41127d1423a5d26fa637dd42d92653c99c9d5269, 0x18617ca5bb82f592db283f9b410bd66fd71d36b6b30c96fa4b33a49fc94a2437),
  (0x63b1ac4e5303d603ccfa80b934bbf38bf341189c6c357140001fa28a931ac4c, 0x369f988784a7ed52ebab54a5d637acee82686b80437074e004e30f4d7d3aa140),
  (0x6240857b4823231c2fe06f9718390c302b68b4d99386e71fa4a4f7629f8531e5, 0x21dccb8634da39aefa47b6219dd06e99fc7eca5d2d56da5f4e925073ba38a024),
  (0x840a0c5b8520f8d5e3ed1de93113022b34ebca9009901ad6a755c0007507189, 0x6b72a54523f7d630efb1eb1cb1516cbc22605e76c6ca3d889b74ffbf176ec931),
  (0x3c00d700a61a3db8040b741828582dedf8caab3819f791873fd647cb3558ab55, 0xe151787094ec66e5a99960d8a8d7f641a77d09dd41ab57448cf03efde88cf37),
  (0x219eda23cc9bcf4c49219a2008fa4795d2db15cd7726d2edd74ced80984b762b, 0x1e2bf55d4829a3d79431b0584e944e4dd04f72c5741922aa07cb3fa31d4ec9bb),
  (0x457a35fef19ec0765e6ac5fe13d8a1fb06de682a24c9a9a9db641ce46dcef02a, 0x13a37fd3fb7d81ba2e4f710c10ddaab8e480dff64ee9f225aa1e69128dd5bb3b),
  (0x676adc5496b7edfb311cdaf0b8667df4c6f0b723c5cc50a1f3c2734f59257cf7, 0x7e5ce44bbb2f1af7801f82248fb141d2b777cc8050860eec2a35bf3c57c03194),
  (0xfd7333179f68a037211534a826f479ab505873010a751d95ecf9f2e4d7d8a96, 0x77f5dd49d8b2660b13201f01a8bb3c55fb831c30a90e2dedda201e0070caec62),
  (0x73475483a8136fc93f4cab4df563166f5718f27a58a427182be8f0bbb063617b, 0x41740f3bd557af4f90ba5005aa285bf40dbfc29936e84abbc9c033cb3a321986),
  (0x69772194381ab91eef7d2f90052243a43863335c378e207e2d96e3ced11a7582, 0x171f087d2fd324a7b6c24ffc2cbc81b07d5aef29cd2a0f9111e6a5b17d346272),
  (0xea5127cd72183e74c3bb3f4e65f12f4563f8105b953de852fea39beae458394, 0x3d301e5c5b0ca9f2ffae8bec6ef8ce4636f8640988affe11db9504a04324d22b),
  (0x2e5fe933ca5edacb4f9d67e24473e90337c5134261eb0826366e690552b0e324, 0x64e43802784868526853ef7915255d89c07165c367a21c07b0fd3d2e78fedb58),
  (0x2a31105998b3bec230e3e1c646aceb9b273d5b2c1073345c960135d572eac94f, 0x213b18c1a4b2e2029214d064b4e657fc00e1544fd06f8df2a4df103260ca8370),
  (0x1401606eb5d050b17bb08b0d546e0ec1dd04bb93b3ca6b4054bf57a85623b0b4, 0x68e788099fddf33c3d4a214fb5622858719ec4221c7be913a39a8efe7436d798),
  (0x18f24845f7eb1996c9bbd0f5c07fcd4a24d55676c406a6bbd8dbc5bc57205dc0, 0x3313efe112182d936b87a858dc5ba3105ff9d83fc784937c6b7c18463fce9956),
  (0x40ba2d83534058cdf0fd512c017968b0f659be62a0d80b5a416ed34ed60b691d, 0x205337251a10a86e6ab66c37e4c0480bc1f55d6af6a22e68cb412ad0e3b7730e),
  (0x5fc69afb73c2e3451eccf716e6115896dc338f2c5d050525ad1b5c6435415615, 0x5530f733e44e421fe5f030c5280bd645f7a63ab62b7b97b4e32d1e61b06b30b9),
  (0x11e6183d46d03f67053cbbca290c9eacd7ac95590dfce59119946bd95d0689c3, 0xb8619fc271086bbf535751bc5ea2e0ea42774ee7db30601ed1558da760c91c0),
  (0x44daeaa36789ef71ca3a1047b8c813aa9b6d74a3b472eb1c4bc4d17308a34cdb, 0x1c9029ae60882ba42a33c68a594c19025e652132954c73651a7e356863d63747),
  (0x141b987ed94828e60421b6cd50a6f1fc3751389fe53be641103d47643839a0c2, 0x6ad4a97d9956c84be6875fa53361a066e337cdf35b6b26f85e7b2029bd3d3c41),
  (0x3af4150fd5f03f54383b20f3eb86aa74e3483dceb51d984d95535a603d4c9aae, 0x1e6ad6f2e8fe8d62dd8edba3222279b3e181e1b69b031854136da1400655b07),
  (0x62ef04ae634433f8e37ef6647a1b6f9597ced2e89f26dc884f7d0698f158067c, 0x44403ceea4272271008371a8c5653997eb0ee376438a4e3163bf796c65e18cb5),
  (0x27e0ff40bc3b2888eae82d6ffdb04400248d4173354c41e87d10bd0643f13203, 0x47578abbd4241e4ac7738cc5edc5940f0fb55d08040474cd1ff0ca3f052ee624),
  (0xc28edfb7ea4dfd864d4831145cf059c214c0ab5cb540164c6779398cf7ab5a3, 0x4f1fb975788e3686066bc65b9b1baf1aa6e3a57baf3f9a216a5ad95def46d191),
  (0x2e63efa85e4eee41ddc60d356cf66a58ea98b509a4b4a72bd1ca7360ea4691e1, 0x333fc09f5f696bd7c9601fcecac9b71d73fa813117beaa811ae159986d33510),
  (0x407cc05d6a80ebb9cb24fb019daaacc758c5b43452e81ff9513de89f091d8256, 0x6d0f28e704d531b585b9e9e60bd00ed2f49f2b9f63436d332375e025dbaf9390),
  (0x1ef4626f3e0460105d3131f70f50f48e5ee45e1868e31ba87907e852516eb99b, 0x78432c9d063a024cfd765bae13329a0c77fba9845597ee47eabdd1e6c8208609),
  (0x41fe7962455ebe08e0131ea8b185f4e4f66cfd70986320579ef62de85e9a81db, 0x6d7b1976ca8198e8fb3495a69b872a86a1879d5d535b21be8d5e3144e2126667),
  (0x3fc8a079056696e24cfb5ca4f16dd6a27eafd9a96253231f9d6813ae26b63bd1, 0x74093d13cd1b4eeaba23d2e7350ceebfb742d2a8a33ed94d121cd93422153f35),
  (0x7ee880d34cd7bf55a68934424941705d80b06d33f58f02b181b0f2de6788cbf3, 0x422a2f731c7dec70476487eac54b85a1d7073ab18e806757201bef67e1a85869),
  (0x60e11d4778831a79b081c56714d50be2384965a37ed45c9525751a9e70d46284, 0xc349dde6c8ae5372ca1a1fe02b6bfd8b0967ca327e9589ff03cd2bdfc43669),
  (0x42e160e0c1227cc63a20e958e585a63fc366a0f9db3627537eefb95a373b9b19, 0x7f08a995eae7671878b0c3a74a3b53c3de72b32e80197ef8c98a3ab5321389b6),
  (0x238314a2069d5bfa6c718917b10c9fb8fbfbe14ee33202982957efebad989c50, 0x4623bcbdf1007c1bee339ec047a3d13f3e66898d02e33c09dcba684862ab8a4d),
  (0x1c9e8ac65439c8c57ae4fa1a59f3ca7f8a69f76835f0493668c42ba9d936b863, 0x2f70afcdb2ab56c7846c2d6e16ce0b8ed4d3113068900f8828b07d7bc15a2c41),
  (0x7f68d3d4439e9d13dcc3333b70e09a305956d9790ff075ab4b6c655f64f4b93, 0x5b2a0ea92729cea26d34a2b2db3cfcc863ba9616f5dda98ed96a7c5b81f35221),
  (0x7e8e2703c85a6d02b3da076a84c7842a4f94a4749747ec59b42df260a73d692e, 0x409019cab3efba21b09bb54fee07b263e4f8a75a4b06b87308a3485538d68eb8),
  (0x1d6db100576b20e8194c5de4caa714aff0d4bbefd840fc474ab9f8b03cb61d38, 0x40b7752eb3b2834646f52a9bce82253a42d299570fb8377a46072efd6ba796fa),
  (0x4c4521b3b75ba8f8b5a8a27920d5d9eb51f728006d3e15ffafa4c45b4c7ea101, 0x64864b1ec7248780d0e0bc761a5192c5cfb6da07152881e7ddf1e503e6f45e89),
  (0x675cd6ba86645d783a3aeb13ffa8806f3e0767fc7245c996b85e780330cdc323, 0x6be48270d4da08d6c44ba9880b13cdf46d63381ed03bbd39ee88e4e7ac8424af),
  (0x58cd8c1e5acbcb7e61a2eec60c2b7a058587e188266b9dc20135386951e53193, 0x62130da11ac2b72ac1baa2cf890f4a10b9fd616d94d5aee30281c55d7123db30),
  (0x447f50ca735c937ff8ebf617ea7aef54f6d6600b283870546d537a07193aaf77, 0x11abcd6dc884358c25622e1f57e16d4b724b4896a29a79df2139cd6bc091e5cc),
  (0x63c8ffce3c7cb090161b473d874e2d79358fc86197783f19558eb1f9c872bcb4, 0x59303950b06e450457bbf344ea4014c6eeb4db85293d2ad7b84b8de874409403),
  (0x5d07fc259411d13d2cc0d5ef0d53bf577510525650f24616094416d3cc71e677, 0x5d2384a6b2c17f9850650637755027c68fd94e0a2761b50358e6dbff5bc5ad88),
  (0x1b7022724fd59223751252d52ce689ebe0d2e36d0a105e3b3890604d1065bfc, 0x16b31bd0095d6604edd071864d61d0a8cb942d4c36a6eeaa8344c0e65966356e),
  (0x3e1c2a1e37acf551a5fec3a9c3f5e52a13d1fda94c29227663d3624b5fdb02f5, 0x488268d393dfa3f929a98006cf6cb731ad684c2a2494207046c4657faf18eae),
  (0x1fe9910aa62b167b9bf75873637b9983defa1882406ee8d7dfc1f1162b6a797d, 0x168828a57cb0bc123575aac1028b6968ff31d042dd8c8b0a350cd3da9b2e4c09),
  (0x362aaca8fdf619a270be97b25bae3dde6454a4a2db3ba517a5d4d4d6d1c6122b, 0x52d73faa01e76c677f3e59cc97c57b823d70aea511058a7cc8a0ce1a9896bda7),
  (0x60b64c07bdeb1d483c5faf9829ae267c231f1256b41bd4a0e4c8e5e93b0d8b57, 0x9af427846c3344b57fa5bc697fcb414f9586da5a4a3e9b75cefc87396b33c29),
  (0x3e23b132cbbd3c31f55a08bf7d8672ba27e7f8a15b839bccf2949bf589a0768a, 0x5ed5cdcb59023acf6fde644595b095785334afb60553d96b25d2a8a437ebae90),
  (0x398abdb6a14f1ccd99cbaec2fbfc25bcaa31c4fa521a8031fbdded929085078c, 0x364dee2c5af1ed60b641119b691fc4506f92bee07d66a4a1b0c44daf45a5011a),
  (0x72f7936a8268d008312b5d3d730b2505480e41abca031faa610cad3c1b0a68e1, 0x390e04db6c8744abcbbfbba69a88c8cdfa8feecc433aa1bd28a07c333e6cd14d),
  (0x11cac5d24637357ffcc2764281f8088d7afb5d17e37b263c0f9299ad0cf1d814, 0x727d6ef24a023587bef80afd19cb41071ca1f6eca41fe5e6fa09b9d8b296ec4b),
  (0x1f6cb9d61a825cae0d157b47c65e6e3f90e611156f149f3d1b4695ebc3290e9d, 0x2aa5a87339b0ec3e54e453d500cf3c86c3b84930ac9967b4e986178366457669),
  (0x45af1a843d027fcb3a4693ac92cf4b8bf02d44613e0260126efc4cc0aa029ac0, 0x4c68065b889678f075e8cc7c218610f88138f6f7bd37b63f26e8ec833a5cc262),
  (0x1b37e132fe05762a4eb05fec9c89981184565694d1f9c6275088f9a9d3f26cd3, 0x21566e09150520daff2670f8ce6bf828c41664ba372ec9babb69ad7f3f1d29de),
  (0x2d2e4a4d8207695a4ee427495f07750acb5ffe8b0f7308fff33a38c0d4a7b1d9, 0x5c844227788aa0695d38abbde45d2334ecb91421f6ca5d6a63b1b1360da18c50),
  (0x7e892919817a6e98d94b90893b949e66d15a3145f35f83b51a2e5eae7a85cf66, 0xaebd2556ec14c49c592958335c6a02213ee3721d417d683f17c3ce588da40ef),
  (0x3fe8adc79c5ddebcf90048d17cf8f4e1ceef5520163e61d0de9beecb5c66bea2, 0x5acf7bbb0e20a376af3ad6ebd8ba92815506740bbcf6b92abead37e2e310348a),
  (0x1ab7555ba97832f83734e89383d0d9183a33da78fdc210961af3ecc163909cc0, 0x2d12c8f13dbf7b13abef3688b363dbf51b130fad413ebcb20de81b6b510631d),
  (0x147453b16eea1c80f71b542686bf896bb4a2fbe5579673cbeeb9b6644920d124, 0x40778219ca7c8c5fd864cbc5327d2958d44e844d71f4775ec0ebf7888702d06f),
  (0x54a6195021612ce2c625afa31c033b5a1fcb6889dacb8c125d6b0b0c3b00c6c2, 0x1f37042a4de9ec2a15bf1a4649bab5959f9f8208d8738a31422ce63d0156dc7f),
  (0x3489ec6c665fe5dce5e04cc698f4c21de97382c94d9efb0c689654c66b710bbc, 0x701be001821d01e37bfdcf6e16f3190c9d97b4a9ff710f62666b53f9dda8c08f),
  (0x25fa5c5fc131acd237a1d819548789f0502e21bc57be62b42e1284240f2a6ee7, 0x66901e313a1016ba104dbfd5aa7a328dc04472d4ec086b9716f9c5743c8a9daf),
  (0x4f2c07a6ca4522e0cee2457e194251c98f2a0e7b219d7dfd7102732ef2829926, 0x6a6d3983925749912c9725beed9fbe689929a3129bd281755d9e9992e704afbf),
  (0x17dd818883d85e4e905c0549a45d738b12d5f336ea6f2766d7ce87856d0407f7, 0x7595b5f40c32556b41b943765e5f9e560f49851d3cc0efd35e395e5c459fd433),
  (0x61d9ad885e7f29a1edc230f0729f4e417962b45789e96414f5afe3bc07a6635b, 0x2a66a4bd8a9c1d1cfc07a4a8e9f50a61a5cc521fb8dffdfbaf7b39b4804ff575),
  (0x177d8b894e5b14945fa697cf7a5984c717ea89bc085412b53678f5b1efa7bdd, 0x8a23562216b4302fcb85c59a6f90dc3530ad559de6c4b01c6458dae3957dadf),
  (0x46342e23d6b2510817ad7036ad9f384a1caf51f61faf786ab4ce11d6ec2b8f2e, 0x7be910ae084dfc1f23aa6837093c12996accfce9b6fc1c78a27d3e3b031179a4),
  (0xc6bf969e324b8c430e4f704fcc34850c923c90751268725b9708f6f568b6144, 0x4354147cf297373d0107d818a9ef3f5d5160b354d0258649c74479b0de639ccd),
  (0x62aa8cf2c443d63e073835e6ec0056e5758f5967890fd25d26411fd24b4d18f5, 0x336028b1a8e9e04521f647aacc16c1b7b77189a955d1d373db2d40ef0f44bb24),
  (0x27efab4906067d866d2208f2715fec3e9b79736f2214695efa36d5dff34ae7e3, 0x2acb6e247f4e8111efc8da8db65b8efe8f5bee65fe1601c8be20247b80d243ad),
  (0x5e8e9211ed4050de56472afce9a5a1294a190c3dc098fac3c428ad81f41e5292, 0x3159820e1928d61473efa05a6bc7315b5e3b07cfd95902c5c28831bbfaa4dc90),
  (0x6f32787a25fcead49d4c0e23fab10486ded3cb45612db7c5076ebd99c009ef6, 0xef537094fa32a14b21e1283f5e75311b568374b31092faa64b19d750cebfa),
  (0x78b63d7b899ecf1b90215fd9f7acfd9d0836be47d5aca0d0f5d25404fab1eaed, 0x7a824648df1a6d8e4675c2333556aa071ec4ee5b369b5c07c19d2512d97e4ba7),
  (0x393506d6df99982b748eb94db7c3157900771ba329640fe38633ea10b6f82b69, 0x2ef0907a92cd888af7619e16b367acff90134ecdcc4feea9aad168816a841e0e),
  (0x2245adfdde12f03f158673667d1070aa427c980403055a336137f1596d29ce48, 0x5f2709cbb8830249530f08bd4d626bb1423ca05710160b03a1e58151d722ea95),
  (0x1b6a611580e48ad8edb6174fa0fcb007cffb4bb1a76aa33fb9932e53ffc1913c, 0x41ba3356ee8882f1e2f77712468482cebab164556972e7d9ff66f9f6d1f225bd),
  (0x43aeff5c1f4e896dad459eb1d6775d17ec35077e21c0c2096d5a4a0bf1339df1, 0x180b58931e3de5a9da2fc5232bfd4bfcbcdcdf8d4b699290795efb434683e37f),
  (0x1b0eb2d74fd0fd2eb0d92ed0799025944a1e09a8359459689c9742cdaac9aa65, 0x8428a0aeca62d2010d3f9114be8d9ae36df2664b1ff96be069cc554e512e12),
  (0x5a14687eafef5a1508a880f24eecfdf67573fdd0eabed2e0c8971cab6c3cecb4, 0x7d6c63fa4f9152253afa4b5dbe5d68ff2f40380d6fc8ae674c8e090333f6caa3),
  (0x56f9349c6d8aaa38ce11dd661440630aecbebf455ff318052192c4160d247999, 0xa55a4568e6487a79ecd932f375401e1e6d97e5036fe906856d0b814eefe0764),
  (0x7e9ddc5df49c8ef4885bd91551a5a4a5b420373e28f1f3a1346dbe2117e29b24, 0x40a12d974594e2220ff7c449134bb7bb720823c481c7f654597718b82c530c43),
  (0x490ceea253fc39f48618cc24e36f77a415e4548818d395530afa115cbdd82d3f, 0x7c0b3fa566de93365069c3538b1b6c4dfa60318020f619c3e97c334f2470a83a),
  (0x636143137c5d2ad89969d4eb3091a2d250f6f02c38eb1679a7cfdbcc8478f108, 0x4805275d8e55f1ed94861675541d38f3e9c9319c09f73e4fbc8f04c223fcef75),
  (0x5e2e7b68258fcc8bc49195e55e3fea2bb2fd4a891c210be4cb8320307e92dc33, 0x896ccf3e10a4153e92b48c3bc0bce7b309a3eb4effad73e3e1173ff6f1e8a00),
  (0x633629f3f401a5048fc3fe3cbd0e273639a231f5a38d0e9451e8f31f32ce5314, 0x28599f614ba89e593aef0f08e1d593565f0ad0e048f1078caa7b5d42e48c7dbd),
  (0xd4cc85661731f91c4ad66dd258ed7bb5c22a97e8b9ddc12365274373d27776a, 0x4a5ea265f45e583571b90e14e01692bbd6067eae5b3e572048397eb4dd796c11)]

theorem chain_ok : chainB (wDblB ec_Test.p ec_Test.a) ec_Test.x ec_Test.y chain = true := by decide +kernel

end Gost.EcpChain_Test
