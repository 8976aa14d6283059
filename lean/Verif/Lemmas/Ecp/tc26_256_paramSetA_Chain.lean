import Verif.Lemmas.EcpTable
import Verif.Model.EcParams

/-!
# Doublings of the base point of the curve `ec_tc26_256_paramSetA` in Edwards coordinates

Generated by `tools/mkfiat.py`.
-/

namespace Gost.EcpChain_tc26_256_paramSetA

open Fiat

set_option maxRecDepth 1000000

def S : Nat := 0x7e7e82520f9f015faa1d0f18c14ab9fb35188275da3fd94206b74f34a48e0ecd
def T : Nat := 0x100fe73f595ff158e974b44d478d9588744fe5c192ac47ea63075dce7a14aaa
def d : Nat := 0x605f6b7c183fa81578bc39cfad518132b9df62897009af7e522c32d6dc7bffb
def u : Nat := 0xd
def v : Nat := 0x60ca1e32aa475b348488c38fab07649ce7ef8dbe87f22e81f92b2592dba300e7

def chain : List (Nat × Nat) := [
  (0xf6870d679448ae3e512aeb35b000e44c35b4758e9ce0a6edb374f7d4d6e092b9, 0x18c8d703e7fa38aa7330bd29659ab19660a732d31e359363c8ce62ffaeca5592),
  (0xfd638f60dd7620faba09b7859ebf8a03a6a34db1db87966df82eb317a635cf03, 0x2ded796ab97512a08c1de98c8f3fd23affd776b59ad29762d8f881733fad1c7f),
  (0x51eda3a4bc3b6bbf40645b4b02f3666c6930d06b4fafab0dba4837496e293145, 0xfd377e6ff6f1073710faa653416e97efe57d9275ee92b0d2b245776c1dd59ec3),
  (0xdd26eaf8ec6e2e2149e503968ed2eec8cf696f129037bc2b06e5145367ffa2a7, 0x81f3aee8ac120c8a1fd6ba0bc4bbf3b6c5d6acfaa4f9766b14b5b0b6eb59b496),
  (0xfb05e762e06e9c88135c4431c44898c3df781fe6a2dc163a3e79e87bded6932a, 0x53ed1b93a59139979af666eece2a1e38ebfffa5bab413f2d70fb7aba787fc74f),
  (0x5afbeb6292b1e1ce0fd48492d7a77710742419f2b1c7f7af22d12ac7ea37e012, 0xb91c88e220a4bf3444636e8a63ec9b61b2a22a2e2fc14d57d6fc8e76e4d57c6),
  (0x63ea9af9796ada58a27e52c8e8bdf4707c19f81f899c3e7eb16da475ca7d0db5, 0x3d44516b14bcfa14f23b8d983d2e70f28c142335f955b9bf3ad2655b01396a14),
  (0x2d1c39a36b6677b7b0bef4471a3f626d9fb3ad64b7b8dfab2114e35c9631b90c, 0xc65c8dc72e4a0a1313f68b1440c2b2df92cb5e41090180de65026f9eb173bd51),
  (0x92b099c4a3d0b490dbbdc5534aa0c16681dddd484677d34e03dd8a7e05f78d27, 0xeac97082828dfac5122fd2872b50094480a6a3da55422187a0fd708453d18546),
  (0x645e0dd01236a0e6931ba5d88086d25be6c764ca1817980c7674f82d1b1a65f, 0xdb6e6954882e08d393b19627261280ceff57602a524a6d6b8d051fd568e882b4),
  (0xf5593bd409ba40f2b14618d53ff7bf2127a87419110358944e97ad8e73995d01, 0xebf83d09858a48a6f31b62a5c3ce3968c92e7f96f61186e87a241b2b9737c296),
  (0xb47ecdd504d3a77cdc2f0853090aad3eefc6b1e8604acca209593a5edb91d894, 0x9bb89433e48da932c4963e7e1aa1a79bd4c87490a020ee3d970d2c15827394f1),
  (0x5dd0f1558c9ff897504733435b86a7d77456081df866c2d3dcd04d1f41175f74, 0xd4b756b64cf2754b94cc335742a2ecc45fbf942bfda20191f71fa18a647ed5be),
  (0xa00558c111df4be62a6a80c972ca669fb3ffda8a2281d1b6e35880c01d61ecb2, 0x6c8634058e53e600c9193dd6187c1c0e166a1e1e7c632f381180f8117e5ae2fc),
  (0x65be019eca6c676b71564a1e9fa971031be4eb658eab8a94d90f37b3a6c66e2b, 0x6af0022273c1ecfc7183f0f41beebfef6fb6875d1ad697dab3a5283ea17fbdb9),
  (0xd16ff231a438627e620750af6be16a4a9b3272f206c6371a577f1ddcc02be468, 0xb81afbbb6388ab9d5af3efa5ab973ab9ea7c4743cc505ef4c8552510b126d070),
  (0xd438a766c45bfe3c45148691066e9ef556a4e4dd86d56646e5c9c32b646c1ead, 0xbda0440832aef5a5f2395b04517bebfbd1c57441322bd0d5931eed30e080ddf3),
  (0x63230b25da1b191571217f2618501ddc834b22e278b6fcac1321e84daca21fc4, 0x73715c24cdd7f04ae3b0a8f1bf28376e958de013b11de7e8e654e389307c62e4),
  (0xd62632e5f5c8939845fb3210b39796f7ace6f6fe88ff3e193ebe04fe37d3314c, 0xeeaffb34f39555729cac45d57bbb1c18dfb1e362467c1c9beb6c6ab748cd113),
  (0x8acfc0cb0cda650b27a9a405bbc99abb8c0cb28c849471353c70192b0ceaba3b, 0x10d7348efb8025b6406a00fab31c05ebb27fe1c30844adc8f3eb6b66959b52d6),
  (0xd317ed6aa45d922e094e7d87c9189a9b0b49f29877739fb4835ecf9294cf46c7, 0x14902bf677db31a5c0b190275b348e4a87cf3e43f361aa2e6826892831daaefc),
  (0x153922ef99f54f7752bebc973bf47d16eac9917ec58f9b45bb77261efff6ce79, 0x85fb6a3f21c21b5eec2c1ae3a387d13933e5a7b59a23ed2eed4556a7f1702b56),
  (0xc5b0e0fa5b83d625b442fcdd3ba21d1c1ce0991c115019667b9ab123f2a147db, 0x71dd2848b179695479c2ef561b9d6456fd8fe5555ed90f6074624d014d1160cc),
  (0xe088b1393cbad21078bc1e8270587e34b9f9fe6513e261377ad09213be92839d, 0x78a9f703a3baa8e6948aba4f3f319b41a1e191d6d4fdbe5cf5dee16586ed7ca1),
  (0xc4b656a72a753d2436c3f4908a6ee590e391f406fcf21a94f456f8b1206f11be, 0x19358c457d830c82d167d6fe0b7a308e6b2c23d16adda07cb2c0a2095129e0c),
  (0x650890ee0d95bddd98eb5941fed3137069e2d9292c153ba5462fe4e7c1a7a849, 0x261a86b14eef31a3800256d69545fedb3820ef733fa02e2cbe26b209f4ad8694),
  (0x87009576764cd287aac89727590e2085dd5f2eb49f88f1c07d96895f8e92ef9f, 0xd4f798d4c68b4794d42a0937d87a825fc28ca5fbc4807ad8b00dda203219676b),
  (0x38336ee8580f6e7915122740bb880605b9e7bf661fb3609653925864611c520a, 0xc87decf4e126821d8e1b8f07fb875a6b6e69c3129d6f7b96f2c6e6dfcf656e25),
  (0x21c58fc538ef0d832b865d302bad1fa83d28b9a7d3ecbf10d1559cc5591f62f8, 0x81ff43ad89dfdb6b7a01cf50d212d704de560702fabe5bb95990fe5d25f5f1c2),
  (0x73b6dc4b25ed44f50699192fe0e2303e98b02e74ef7ebbad697016f86e152a7c, 0x44211c23c4dcfb220812eba3efa37b5dd052dc461cb3bcacec9e1e63ac54bd71),
  (0xa833ef6bd2ef53191beead8ed90be1f36b461b948502fb0ccba1f1c43b66ea81, 0x4e171d845550adccb6169dfe221f301822ab6fe0a0a7b6dafd492592f85eeb43),
  (0xa699dc1cfcc2783a57786e9f0fbe97ad904f0631842d25c771fdd3004d117445, 0xf49d6601d7ac3d9e71d6169def593bf26795d1bb29584b378e1aacf22be752e1),
  (0x52b95c966d8743eabb0d1877374d080eba7213d3c8e2d1ff5a0918758c77fe1b, 0xbcaec1f63b7ebe2fd30cd5e71a27c2fe60611298b79d3c756583694c1b140f22),
  (0x8a093fbd82947a55c492601d78a4827c571a0851d7e17f547fc3d204be80fd6a, 0x43a5e71d731389b251e462c82923c9d78f92795d3107ed01bbee001cf21c0a59),
  (0x50ffea3c9fb2e6d12a49670e1e3ee5319ed1a0b863f6225321deb7952bc6b386, 0x1f21fdbb978bee51a16dff6d1cbf23570bca66913b928042bdde4b295388a02c),
  (0xfe7e54a73241917f2cf539c806ac55516d37368b91506812ee01fcc975dab525, 0x12bcce907a4f632f56eb3c13c640656350048cae6967a27a99855ca63219ec12),
  (0xae03fd41cf414a626b0ccccb287e85e25309c00009b56f50f0aefc12f0c12c97, 0x172e5c15d17ffb1d12598503cc4c218ade77fdc4de613e96009ab3be87aa2ea9),
  (0xd3664a18a80aff951cce4e9c8354bf72857cf6002fea82f21f9424a1ed8d5a0a, 0x6ddefb82b0c9a567eb0edb07fd11f202949b817fa7854e4e52e8996072057fc5),
  (0xabc18334149f37f350fcaf5048e262f8d89b6d441b17d477ca9af9838ecfb1b, 0xab91201733fd39134c53070749b41b4d41b7b037d90baf94405b6dbf484e8b3f),
  (0xcf2218aac6c00d7495bfa4485f4d7239031755c3fd128363765e1788c8c3cc62, 0xb40f93f1387888ca54d77a4a0d6574377c6d157df4c7cd2ea86f768b1233a3db),
  (0xb01b9ebe5c70c32a62e9b4a3bcafc0f28cc30370236a87efe75183c7a0fc79db, 0x7a03c38667773d747103adf1037e45018b2e24fe4a88c00b295bb9587efbcd4f),
  (0xb0778b755c1fa6f7b54c76b3a9f37f0bcfcddf63b92e8f2641c1a9b0b44e13e0, 0x4b742661a92cdeaa856799069989b307e2c391602fec41d7ea54277178d4c4d5),
  (0xb134e814b93797a4ccc2304d4f65e9dcf9f2d6cc6e0a7811018dc434e4d36e0a, 0x4c6adf89ab6e8957d47e03b05419c5936e3df855aaf5f225dbc66764404c122c),
  (0x585a0ff36427bda23ec2d6d8532037b3a5f87c2f85e85bcb542fdbab029f6418, 0x2a79d026e3d8ab18700b1cc49861d4fa50e6c5281998c19bff85f0f761fb9646),
  (0xa226f63c860d375063f73aa5b0b624b68cf81f08c8fd069823ba8fc85aaa7715, 0x49f66def000ddc442572812a5279bab2b8ebd6030f215a6cfed2b3c7e051ecc6),
  (0xeee7c0885268eee0a900d68687f241c9b9ff51d4034283c68eaa63945531c911, 0x4a0cb94256b45f5351ac44d8ec0a3354250e5339da2fcc0a79d6000f382ef6ef),
  (0x965019e7dd4ec1616f06e07a7d7882bdba4b20a1c61afbea856980d658731a39, 0x709d7b58bb9247ed421bc666ddc68854e15453f8914f0074ea9f45d342e233fb),
  (0x9e5aeb6371bda9e198783349680acdce02cdb6a9d0567a03f8122f0f6027a2af, 0xe95e31da60f93ece692bae6406b8cd536366ae41a2b459341e0336546d1d6abc),
  (0xf66c328d4dace07134d534f52cf24e26ded7ed6a05fd441b412a55881087cab7, 0xb51cef81d45d89670204c7a11596a712f0b5743e927602c17bb54f4ee9290f89),
  (0x82e33b688acf54f035db857786b105c096c5d5b9eeb1f64db2a461b36e2694b1, 0xdc2063f9ee362e982e4b871a2b079dd196c84f4d508241d69296fb72b678413a),
  (0x46a3beb706529335d791a7b164508420ec4517e8d9694e83eef0cccaf0252554, 0x9b7ac9ef28d6693243b02f92cef9272b8d5fccf094208d17876cb7b9016de77a),
  (0x30a7eea733b8d816ea770789bd36789f338f62274bd38c89f0a000f2a06d43e2, 0x4c8d7a7b7b1566ba5083da8af9a4086f944f8d684b5a8d18d5b183f0cc436123),
  (0xc1379b6a5bbf08f3f3808a2fadd164719d24df132bdaac93b46ca518bb61ffb5, 0x154eee331b8b2d40fc6cdeb8636ef93de77f4ddf1a0fa4b97a8c7ca49225be7),
  (0x53128cd602586d71f7f5ad11a6658a14251efb290641c4eca21292f5e569db39, 0x89e9e6f2ea54970895d25a156bfb09757f876e7830c9e0fff3e6e84a563d6e5a),
  (0x1bdd9fe746521247518fb1f203a3ae41bef35f0814e04cd4be5e66ebc4c7f2, 0xa4446d1105222d018e087f635d44e60e4101d7b5cf83bb7158798b5519120b9b),
  (0xbc9137c8682f61d079a4e9d21ea77d72919d79c0dda423c4c17df35a89910fab, 0xebe7b23e90a5f5dcb088e36307a750e5a2bcfc4ae3be9e4d2ebbbe121a7f3e23),
  (0x9d6e3ea7476a7ace1ad369e6fb0de081e12bd60a1e6033111f80aa510fd934c6, 0x96d1dc3f5b89df0f447b88a90349b3890c98d77b89c26382ef376680568b454a),
  (0xdc133079458adf59891c9c199986f3c3f2c5ad57635c35b925a147f7e20a5c6f, 0x9d7ea20572ee691875d91be21bb6d854c13857881b91af4771eb151c17c8edb5),
  (0x41e42d95e923ed2183cec338fc0b32967710505b5179f8469566af10a65df8ab, 0x635bc550b4ca88f1856eb49f84fb11fd433be7e630f735715cbf466f459f42a0),
  (0xb512ed7b752ff2a6d93b4061464a47f6351b24431f4c3b0d6b081fcf9f18835d, 0x3a23693f8abf4533b80426ca74ea4485f45b7037d028cf83551b16bf1437e1c3),
  (0xebcfb3a3a16b20a6efb75beff8528b4e1c03580de3ce23fb4bea4e111839d55e, 0xde32ec2e641ccf1a19f2c07bab1416d6eeaa5b6e216e482cb47fb475b0c9626),
  (0xa28fee9fea64f577f3f27a5d4080a57b902654493af7bc2de60573038cbb3a0c, 0x8eab31caf2e18936ffd1ef8b7a76c003fff504962c3adc05668a354e7da50961),
  (0xe5ca630ef922f5efb537dd82626b5f8f56aea9f09dab454f58ec3b79bf2136e4, 0xdf81aba6c83e1b06a807cd5c51be4ea5da137a0dca81b2f34b6abff329584a79),
  (0x555ed483caf177dcef7350e869d77860f9ebe36d47f554a74f84991e600a578f, 0xb94e53ab04b68e0ac0faefc2b72ff745a42622d16dce7c0cda7f0952601cc553),
  (0xe8f6f94519f1a971feae98d5fff0e53fe4a800e65860e9c4a390f941647984a0, 0x82ed4393f36f7c31a9661dad3293dceb58db6c297613ba51bc2014b9079278e9),
  (0x16744ea8439a82420270a7c3012fd2dd2757519ea812bde155267e9d6b2f2f1a, 0x984c8beba167856c7e84c581c0e07d48d43955cb5eaffe6298ea14135fe2e082),
  (0xfafaff8020a84cb0bd6367d43b0d0dfe8769ebde00cc21901e3a9a70af6cc126, 0x4e8dbd6813857416269690cf712fb6448adac15daf371ebcd4c3a4ce27df4984),
  (0xf0aba6ade73251b95ec4c2fbcd91fa52f4e135fb654555c853766051be647c2a, 0x28e5a5049ba47a805b1f018d558ca5e80844f1d3506eaeaec6e6d8a435ebf764),
  (0x31f215fe9c5664a10002daeaaa69bfc168abc78f3fa71c6df04d561122618eca, 0xeae91673160ee6add22a13caf92d456197b5fddc3c9f37c422f72e9f1d1cf82a),
  (0xfd084a472fb8e3ff815f97da59bcdd004a766713bd96537faa23703097951db2, 0x9190a3142a157ece39cd399d3251d5d92db224ab6b2e75c81f52543ed2ec903d),
  (0x9f4a3e8c8573ec771fd7f228d87037290219a3202b448925e9baae7ff93515c0, 0xa176147bbd3abafdb784432c6d1e86a0d51e9d0a171f839c0913f2d3768b3b3f),
  (0xe5edafbb3fb181ff2838b29e2ee59fc697760540c61c0667438c7e9f8aab609, 0x2f5e97369b71d95cde78a4b86e23166886d96a38a42277fa4d3f5ef6b54ac6c2),
  (0xa81b1f860b835137fbc5d05730abf0d26e51a94e10ee14c4b396a92fba02a757, 0x291fe4818dad9e50d643c8f0a9160f6c95e5684de30d27c6e6a1960fa93cd83d),
  (0x77c2c362790a13bf3947fd6595a1b67d7ac16a90f581b699c35389e86798f524, 0xdb69986dd8feda864601c69115faeba180325b01a92e740d9bd501f1cd7e00f5),
  (0xcac8a6174488efe18327d1ef43a0f36bcd6b7ee0b620628ea0eb1460aa6dc68e, 0xe6411405eaa203c545a9b3bcd7d24bcc0cd671b24e96269d0e9c2bc8b5497751),
  (0xdce64da971fe7085f2489902dea6bd89a01f3a211cceb2a7f1db897aae85bea9, 0x8ac46410a1926e4dfbd5f966026496c768fdac92750a857a4b40e056737b3542),
  (0x472fd00bd42540ec6bac1f51cc2ba8f76caae54a969cfb2a8d6fb78c4af5db24, 0x5af16a977ce89131531d233c0fdd0f6b49a9c10ddf2c50feadb21d55134349b7),
  (0xf5b403e68989ef016701ef362912c39ca7c50c37b371afd0bcf13c0621c76394, 0x4690d7dc46f1a18c8174f3707759c558dc2f666d297d446814f01fb63515c8c3),
  (0xc5038b2e67bca7a2418af36bad8c9e35f7fcbf616c4088786562a24dac18efab, 0xbb3371eccfa5e6e95d35a49c64da3e3c8013b3e79ebb157aac855f9b11344ba4),
  (0xe5ebbe0e768b18afde3c5f84e93d867cca2e8eff2c4c49644cba39c423a0f8a, 0x132619f42395b7c8b25ab19a6b7f8c61a1286587413199bdb5aa52b0c9431b86),
  (0xde10100a916de78d3eb2fdb15bbd74fd7cd1cb8990e259ea2e919da69e22bf79, 0xc3e124788ff2ffdcb78dabe50ff21f43203bf392cd5e6d09fd4ad21c27652769),
  (0xdcba288848844095190f47dc89392777b253be37dbd788caa22a3a68b2619827, 0xcd67c7a9f20eb9e84b6efd5a43494d9d7b2246b7f82c3fe035a8b2775ae4dc0f),
  (0x43791848b75a14a0870f5eac09ea586b33f8e12ded8c8240256f375b9a79580d, 0x685d5019190f337e4d45b601fd46b10e9a0ed035d4081e620f834f7104cdee7d),
  (0xa62d2cf79d1ce1721c5f4adee6dd0bd9880bdc1d25b122022564353877321897, 0xf99961cf71dfa34c8d0c574136db53b0e6c9812b8713f14f79ef4e8e28961d11),
  (0xe23c9d6eabe4ab5872caf2554770758449352074f015ec2d84381a0d894e99e8, 0x6039b702104389f99d6fe077959932f9726e150fdafa6eeeec9d38b6365f0e51),
  (0xca736a440e24fcbae8978ef58b7911aba8719f1b1a48c4f962f200891e2b3c9d, 0x6ca24a02fb905ba842a4c85b48d0b63e0eb1b62291bf9c00b533ef7d280fc117),
  (0x4347847af2ed596c11e48954b6e8ec0c67058f41665841a144b697fa4a3fc653, 0xdf9fc6e3b12722b2db54804133d315d3bff20907120bf2e974557b7407379da2),
  (0x7b7e8222ccccd22aea6406c07680b602d03e7c25e021be877c211202832d71e3, 0xe565cc8153d53ca366b2a28923c97b42aa1dcb9327df7aceafabd6c5d6e03915),
  (0xab8efb714aeb3914424d90a439514b4d1e20a601bd302835f59229db59e6a825, 0xb79bd0a70ef726e44c078f32a626f70be0252b02106a367abab27bc9d10541d3),
  (0xb510cd8bdb34c8f518aff76aca701887461fe2a1bcc1b8746fdc0ed00bbcdc1c, 0x5bfd1babf8a14f38cb0f1a580736ccd87de1116b115dc4cb8303e79f4290e6cd),
  (0xa61879ec9982c289fdc0fbd998f8cb2e37a76037374f1e677b16d0a772a89864, 0x2de32bdf4eb28dce21d827677ffc779315d56b5b7d4074a982cfc77a98c5f7c1),
  (0x5c7c83489991803ac33ebabcb8538197d37437e8cb63ba72876487803a108a65, 0x7fa9f4b3fc16797843af2000b631ab33d25a831b2e85ceb3fd3a87c922ef9bc8),
  (0x90d128a2f93992015bdddb0ce4adfe4cc2cd34651eccea7d7a673ccbd9926045, 0x2c353a9fe754e036aefdb560a160a5ae3c2c1f5a97bc75b352b874f4cc4ec3ce),
  (0xa7260a9fd4bce3445867f7e29d0e1380f405f94313bf393f286a44b413f45f26, 0x11c456726ca1e711a5010a56411309a216b3b128c6ca8420239d580b215cd291),
  (0x51bdd966be6411a424391a7c049dae6f2fff20fbec77ca8d4dc9a50bf4d3ea1f, 0xdfc7e430666fd04d0b1abcb53c41944c04a05c44a1b3e5b22d782675bd8c5162),
  (0x449a8c2a109e18109073e446d08f472de1e79b32dcc04aa1549ad43fcdedb4fc, 0x4811b4d8bf7cfec3dc85d5636760942d083fdc19048b99d1a79cdc886ef41e48),
  (0x7cdaca59de0dbc6745935191d78cba357db1948c58800c2d4c8f70fc3fb7a081, 0x246baf0eb94f10604da00cdc7501274b44f4c718c48c9b2a34ad642df20e103a),
  (0x9aff673f3c1af7612de390ce508af0335ba4914d2ddead9e3d65c621895c9643, 0x2abee97b82b6af31e87974bc4f9abb5be2758dcb34434f44f5a393df62e70b54),
  (0x24ceadd4caf169e80ac8ded06e1bb6d2a5c5b25eb904c6c49be011cdf9a19a99, 0x41d7b1ab70d125ff68e3d92a1939cf42cdfe1d757ef2f25e7ddca3acb649739d),
  (0xff8dc16a742643e83467b0645059c7b1ae8c59718864eb85dea2819cd64ec5d5, 0xd36ddb6b7d62b213232aa1dd6e0ba3e957fbc389516d77453a8681a57637b42a),
  (0xf17906475f2fe2cc771cc79dba8588904b9df61d13e53976ceb1abeda40a9742, 0xf3ea06ae0db0f968de8693777b51ddbdc6eac9546726cfdf078b4a6e6f0ba73d),
  (0xd9c665a8caf74056094867f72d90c3a501da305a0f7ffbe87d6ac1f4c949e7f5, 0x89b914076ca843c40cac618ef86c9c7df7a4e1d10f8de76d2ac69c02f20d93a0),
  (0x7800d2f072fa1f66451ad5f463f3c6d3fc3e793288930375f4b59adb7d21e39d, 0x575a3efc7f60440d6465c696d27454a203a1d8dea6dcf5bbc733a121c8ac561b),
  (0x42895cf31b701da45f6912e65798fdf373f426470ef97cfe01d03f5aa0157cba, 0x8fbc8399029dc700fd0cc44625387731f090ac235fc67a2e8b81fc22ce9d59b6),
  (0x2be174276a9e011e1332a8f9920c878d0dd5bc6aa8081829cdf80594c02340ca, 0xadd296d23e120077a1c404d11a69b32bbda8245ec6ac4be9aee4b213ce8ecd2f),
  (0x7fd83d0e07dcdb1a53aa2a3b9a6331c7c5f16d348c3a0de3be7262a3d2cbcd57, 0x2c3e2f0775775b92865b696c58163493c49464d0ea278c0441c416a21ecbc0ce),
  (0xa3638c5514595a9049862d59034ead8d8472af6295a2993d66e8dcba9a954cf1, 0x6f38cacf38942034102d3083e9576e6ca6d330490814d90f5f3c551996fa7fb),
  (0x51e66b8126fe1c6a626e4ef826526d000091519118f198bd09bb8da9771371ee, 0x957d80d71e3f02cde5c90c0f23975a4f4bf386966344758b93c2ec42731c421c),
  (0x715990e6ff14bfb3e59d41793ff3f0b480adab078c24d81daebc1abebf72508b, 0xc7f30733e5c6093aff182601c4961ad3845aecf75f4ea358ca2bf120a01e96d),
  (0xbb11df88f46a91ceb26ad45d2c4faf49ad5fa21111395c88be744cc9c7fe9ad, 0x8f22129433452f8a8b3a0dea8952fc54a78e199b231d2a3a6234bbc8bbf44abd),
  (0x7aa0e853d53f3a1b30cf82b0863bd8c1214484bde511aac1adb2e6efe9582e2, 0x5c8d818d30a66c1398fe49852a7b0296f915812d7c58efb121982fbc2bbba043),
  (0x5c470aba53331c51903a7df3a3a9af373f4912c4abd2402469c0094082066561, 0xd943e6ad454bf23c6f4e004d24de36989c6dba32cee326c8f7d2ec83de800ef6),
  (0x307786b6e36214e10f7f901584bd91f12416d1ffbbf49974dd90d2070217eba5, 0x3b4010cb15f51fb4b88a633259229e8dd26ef8cf385be15a3275fb5e5387d2ff),
  (0x8c0806d4bb3dd94f79436fce07c14bf90f1a42012eee97e27e6ef97a0887f1a6, 0x4c921fac18a18939f08d8b783e8d1f410fcdb6ca5741511123a596d8d1d066ad),
  (0xf6d8d8921c93ac043614ad9b4302edbd0632700c194518b6afee3d62ae854c8d, 0x327559fdad1ee4defb51fe31f16aa0741d5a61751ab7bdcb4d4011f9beddbd1e),
  (0x45aa6a5f6b1d47750fddc1b90c1223139458db42c2dbe42031cce9514ded3947, 0x23ecd9b9ddfa95db271c806d7151ebf2f95e8d5ef07bacee358bc2293e7ebc89),
  (0xbcde6f7af6caf01241cf0e9b81de5a120d98d51de2316fd8c3fa6afadf07ac6e, 0x57bca5824ff9ff34fa394c774805d170a0de7f37f44eb7e21b2f02d52ef07db9),
  (0x5164a20e4c38f50a4f6da7ffb47cb21230802f7192271fd5fe878596d2f3a49f, 0xf22b3afa525580b9c7e7e45d9353f722fc07c692e5e10023314a31860239d300),
  (0x411220e6d5eb482b2268389c95e07859a38d650f1b14dcf7f34f3989f72d065b, 0xfd69cce47f78e8052a4b218fa6cac49b3f88ae50261faf88c6e98eeeaff49e82),
  (0x35d51340d8b013e87f4c15bb11686388d6d8f3cd9593db5c4faa1db3fda77dac, 0x9ff8aa1a58ce5cbb5f88d6f98b0e664aae6aa4b0fb5da75a1090b6e56502bc8a),
  (0x14434b89336e210ec57abf400ad26ca3bd1f13ea805e278934b70aaade9b8798, 0x879dc3a0cae6e30a036d15da12f1cdabd7feccea24197c390cdc525425b0dfb1),
  (0x2c57d872e61bdbfed3350305fa2555cb3309ea546b2e0a236d5da4d1dd99e5f5, 0xd0eb3a13f3b00ff92e6aedb3a217cdae23656144ce736792a53da3270b2c2297),
  (0x5d12a118405d64395961fe3dd05744601055e635e00652fcf3b46e87e56cf0af, 0xdb75fcef3c13f8c98edadc9a978b8e1aa0ae4a7bb86b87725863e490d4356d78),
  (0xb319ecb063a2c91e3ca623455a032b131e3dd1990b31a14141acdcbd2bf3a766, 0x33fe4635b6ab5578cacd3b45a863c4c30d7479bf6bce7c7ac23e4dafa35729c3),
  (0x39d7af354fe4345e30fd22ebe5dcb488f8e152da79f8e78d9309953bc59ece83, 0xa86f9d514c377c8342a1cc0e02980c30013bf73932272cbfa702fecf0b732c61),
  (0xeb450f763e78af0486e49acdab8030bf7ac946ff6f91811d6e9edc9550d0e9b7, 0xd8e097b8ebfe39f2948b69a1a448fccfe889d2ed9492f692b18b9bec26c4866b),
  (0xc01621bdef4461338338a1e2fafe7dc61c89af1413ee4536bd44ca16efbab6e7, 0x6afc19464b9c2a475c2ae20bb255fa7b51c6e0790b9b2c85a7f5065ab348623f),
  (0x23ca14a081970b437a909cc9952db7d27e6022573645b9fda7e5127970517db0, 0xd94ef740ab7b9c9550843e73b4a360ecd43e1acd909ce27e1e16c707c77c76eb),
  (0x13fd38aa4deab4277ba32b638a5461d888e076c75cbe2587d66bf83ccc809c89, 0x1a51bf71aae96c14d52baedde7aa40f04b6e7e047eca9a9749eb5db976216871),
  (0x1d923a89a36ba1508b24ac8f7a2a4c4d28a32ab59979b9b188ed83dc396e683, 0x7c6b5bc813596e3a7f62c8a9c7fe616fceb6c4b7f1941e451405b1f6802bba75),
  (0xf96603e65cf80cb59cce2747ddd6068bbf52e4466d1476eb36f744420a7b13ee, 0x4cbb3452c9ab378a6fcc00d6cc0a5953f713725edc77c693c8e1e5621ba0df28),
  (0x68aae38416b3edd5b5b48a26fd21fd9a03171785a080126472138bafe3bdc359, 0x41c0a460543d42fc21bf4a950d045004e48f41d8c6396c663879d35574b89033),
  (0xdd3c18fa0aaa132ccd37d10d36b4b70eb6cff38859afda929e1332b451116515, 0x1f728ebc20574cf0abc09acc8c34d02bea2a336f53f779330d3faf2e294a8147),
  (0xeaa6c206365a70134e90c55891c795a6cd62e7f6a1c164cef3ada99d4917b0fa, 0x6e83ff3882646e8714a8db30738024f4a59bac35a7a50b6e339b0d87ab487205),
  (0xa8b15a59250dc4fa9fb04a355ad5c2f38bf246cbecf86bfbf70a2c312696b1f6, 0x33f9aa9168f22f547327b2d613668cde491c5e900b006b214f2e63dc6cf304d5),
  (0x24e2bb5f729d5507fba8e1bb27df2d086494dfbdbf2149ef8dafeba8d501254d, 0x31426c0cdb4889ce5b0b1ab8cdcbc64e1c34f79cdd4b2bdafe5e5a1fb190702a),
  (0x9dc1b9dcf4989923ec01988ad71925c981dfb2bc39da4c2eb8942807e01447e1, 0x6011c9fef6e95d0f992abd99220a23c81d6f27be82ca6f1673f09fc205bb2dc2),
  (0xa97b47e9d5e80e1744159b8db0e5de577e332550376a04c7c378d020343e9bbd, 0xc3de5ac5e15fc39b9ce49a47a52a2743bba3fb71b401fb4c3b01d25a0865008),
  (0x2338f12d94099e30f3ae98fb544a7156d0cce1e9641be15384b831e476b2dec1, 0x81b4c6be5f7724b076b12ead3395366cfb8fd27e8665f7585e79bb4836637433),
  (0x5a7837b3279bc7fe896ecc397a228852a1dddd38f66c4585dd01fc6ba4b27045, 0x4abfdd2db6de3b58d81d732de84b911cf0b01526c278f22fdaca2bb5f0a56d1f),
  (0x3eef390851e295b9564b34ebb574ed4398104fda32a3726846b9e74316ba1e45, 0xbe427d95d2acd202653f1cf4c37e010c0e610186eeedfcdee1c837471aeb82c3),
  (0xebd7d550f9184863ae5490443831303e15907ac9677f463394000d14f6551cde, 0x2029d6812207422f2c79df06ed07a3e68eba01352a98fdeddb2b3b2aa6a1933f),
  (0xaab61b105e712664491f965c3004b8faec1aa582b1790e88e36d3aec57642893, 0xf364b0c0d29ed6b8f45230f0a688f48cc87030dd89ff52320ff22c1863805983),
  (0x4b1e7a813d2461a32876e02186d0188b0735b4b6fcdfe2666c68e693e69dd281, 0x9a2dba1273b4a99e8142685b0d84ea7768eabde852e3be803b509125a59a3f55),
  (0xef70c0f009f3f29822ecddbd55b8a85581630dd2f3592b009726b8d1095ae39, 0xb1826110cfd0d7b2c43647e4c39408dedc2f8ad57607689b9ed96426539d1310),
  (0xca35986c858c7b3f42892956fcde6e410cfe7058bc52a39ef954c4244d31df13, 0x8c175d02ba16d09618f93681cae4991665d938e4a0d4cf489bd7cfcca7124520),
  (0x7350e4afae8a9d8420999c666808ff5cbe70ca0f1bb8239e38e1fdfb33090583, 0xbfff0e93a3c5ed2c60f08f7ce7c929164f74c42087ebe4fcdcf3ba9765aee305),
  (0x21be9dab38c908906c0c8db1471136aefcd045a1bcc09b7dd2978f55685461b3, 0x66b1ad7f0531523f26576251b0e7277aa8b06efcd511a40c3e25421f4f7f49bf),
  (0xb2b3e8134351f7606519f6a2092ff8d67f8bcd851015a79d94329e1d0da017cd, 0xe652ed13ac98031b11d6e836d33b6d2bbbbf767d1b2d529e6a4b1ca6e2ada878),
  (0xb7251d503c27ebd5b3a61c5596c081087b79df30d2f8bef63ce577e9e26554b5, 0xbedc362aa09d90baf970f94972343050c6d2c4f9ef2d5ec01538a5713bc9edde),
  (0x6b292e11461cea776687b83055a28b2c97d8e800b590acf1249aec2b4de99749, 0x20e596727ae2296775cf28dd8ac8bea88f0d3ac3e297e53eaf3883edf703f0a5),
  (0xfa913f9777421b588f50c02cde953aa1170422314bc8ea74f4441bc01c92bd5, 0xe6f7ba061417a336f4758c994fbde1cad93f5df8bfa554f2fd04224d608c983b),
  (0x63ae5f98eff17d37d443f46b743c533d4f5e7e123b31f3adc7d5d3cca17f8a48, 0x9eaf99bdc058d44319c69e917cb15248a08f5d53bf331ada1d84b92304305ecb),
  (0x7ce95089e5d98475058ff0fb8b50e13c624185787e9026b125f3087b6f89e247, 0x7758588f56eabf8423a256dad0e71b816dbc27438de3e3c8416c0059db8f7c8c),
  (0xa651b53a46716bc27adf725f89fed9a04143575f90a9973e73676133a2fae198, 0xb22866d615ab76a476ed16d05136d5a102cff7e41e8b1489359de86deae8fbdc),
  (0xcdfc4137ba316305e69b9ae046361da91b9f2942b2629ffc90ecd111ebe81368, 0x89aabdabd1c8ead6079629a3f3320202db0aa286da5d145ea36e7690b2b08822),
  (0xbb3c3f58e7a5aaef53768f1f6308eea08c7849ae6bc0b1fc21133a330a50513a, 0xeebc1dc569c044605621f9a4fa08a6f2f66dd55bde65e4dc90db488a3340c04d),
  (0xef27d7db49bee57ab2329ebe89cb76e9c55796aa6a29f3bb41cff0763587f5ca, 0xce7e0894d05ca5095714087ee28dbc0cf9cde60962789871a56548ec9c534fe3),
  (0x6b7fd7ac119259644b2a31c30c43fbd4423ef485365fd4cc62714d57071fb555, 0xb06e4f24e0d98ff111a0125745c8fcc407411d666cca7906e83453b527859539),
  (0xeb5489fcfc338cae42f34e738fc9db47bc08d4b7d5f62914a3cda03985f38262, 0xd67b04d234ca3279319c2ef99646672c45728d59af4f8982c00f05ab91a2b12a),
  (0x96cb8e05d84288aaabf64f66df682eed0d96494a078ee8324cc43a56a1c6e552, 0x4360ad9dfd8f8ba9e721f866fecc16af806be6247b34676dc9bc8ff2846ee032),
  (0x8fe217149d86c61a110d58050464c631ea04295a6cdbf6ce049f29da37316f97, 0xc4a2ad442c157638fab1b1f37a229be8f0cbde324e9c8d734dd095a9c8321837),
  (0x331c829c35fa0963c342963b4899bb9c9e4ecf732b4b632b6a31709839d22fd3, 0xb56b6bc4eba7b23eec8058dcf50c14432a76f5a3ecb5233c771a1ee57849d836),
  (0x76dd0cb5ff501c9424266e6dfb9f51857849dd1921687d39114e7ecb4c690484, 0xe3979cbe3c90aea7f757319e4eec58986825b4069e048f12b893faacef61eab8),
  (0x8641890a89b6fc3e354f104ea3d76324e96b57a8e4afdf51a76718c7207fb88a, 0xe1ed767dd09740c3a8452a005f0df31b937d8a861c6f9a2137ad7b938ed23eb6),
  (0x47f2135a347061daddba4d5249872436cc39baf951b48b53290004f55111f8a0, 0x49dfa626876d1ccba9b0443b9beb45167a9aea30fc26a4cc83fffc4f783dfc8a),
  (0xe1ee6bf7a64e3245a241492efffa166170fe535a24f95101872f4b24add75f79, 0xa7230daac9ed2d7aac6e8621df5d8d72118f813b65a4ffe9de8e7fe3cc21d1a8),
  (0x9f54d75ffd63641c513a629d0577498ad977753c1f3836cb4a91d451e18bd2ff, 0x8b38f455827629bce28eeccc62eb9e24f0c07340c28672e7ad284883bec46fc0),
  (0x4acc3abc48ad6e5192139962ea4194cf168324b3f4a00a4b725c7b3ba96b1078, 0xf9ccb0a513743f8f2b27b737aef7674245864405f86a44350209a69b57a6a941),
  (0xf7481bc8bc6bf72d0850b84dbd2a457d41abe6b534ebc1d07e004de4920be6e1, 0x79d01e5cccfaa9eee35046f0610c0edf19cd0f5c3f008ec3d1789a516b0ec702),
  (0xba01ee29caaed935a255440105789cdea83ad0f82b4ca040fcf321bc1f1f62f9, 0xa9851e12ac06e4ba503b9973c43fc841434cfb41bf378c72c6e94a8a75f78ac3),
  (0xbddf6c05a116cd2b38ddbaaff55105498af284b0aa44fee3b3dc2abdd231783f, 0x8e6d085931aaee75b4f405966aa5ae9a44c4a95c8085eaaddcb1294f8f012b58),
  (0x35afece806d49865ff2d0c31bacda8831baf27fcab6555fe6fff236b011e3fd5, 0x1d6fd1a285d7a7a5a6fb2c166d70df2d331d0b5466bbe2ced3e69ed89199fa67),
  (0x7ac9c9705c98e24416b00be27115f33034d298ff3d812fc4fdf703001100287a, 0x7e183a5dcd7487fb7fbb78a2c8333586bd802448bb7a62cc56fbf04094f4c38b),
  (0x66d5a46622915e545356ab08a58067a5d644d3191fc8d00192cbc1e0baaf9628, 0x52e0ddbc359e9a6495566e3c2e415376c94769acff493dfb64c4f612fc1a33bc),
  (0xecb82c594c320c45c10adc97d1efc7f3f9b05de9f17892b39ed115ef017c5c24, 0xc8303014c37be99e1b812cccba28c2d0d48befec018b74596ad7363bf4967155),
  (0xe2639572c5a0cea0d34877d2e3cd372039f7bc94f2de19cec08334b6f534d4ef, 0x5a351d166ae2efad44d0221f4e86d09716182267f77ea9d9d13c4674e1e0b54f),
  (0x4841b279c35f57357b128d7577150ddd4a77ba235712a4fd934ff779c7ea9535, 0x6430f2efd36a54293e87f7bb2cd6e0946338f31d11db8ce296e82141cff59bbd),
  (0x6f2b7edf654b6cc2b5abf13d1c7bd6d32bbbdeb4226a7bfa37c4590d5e99e039, 0xf8340e49578db91af58404fc61d8621ac352107a208818d68581fc16b6061d55),
  (0x7bc13d914915fa76712a5872889ab9f306b3825945e1877e8ecdc91f212ab480, 0x3fec383511b1d7e6ff3849ab1969951194bd7eb3e06b06e4111e81e566bffa33),
  (0x9d18bb4cb96716a18557bfad8d89f9ad4609981f77722a14019b33d1e3169217, 0x180346f613fd4ff2a7bbb28cc0606c30980bcdeb7e9f40b8f4d0a8feceeb2ed1),
  (0x8a872120bd3668e8d88eb3df81f46a9f12267a93e51f9c44a626f7369051e195, 0x80d8e0690d6fdcb212e99e1067edc0b49ac7a2678e050f7e847e30624489053d),
  (0x419dd6b98a2d2183024c57de9bc1bbc63f804bee577657585a46c6e29cba87c9, 0x7b6ff5e526e1bfa767dfc7e48f620baad9b185cf14fea2da3dba36d5a88b1a4a),
  (0x831de4947bb0f17f60b9774ea985dcd9eae22ace44c66e8cba70886262aa5f2e, 0xdc20f417d66f6d65dcb8b8bb625b2ff695e9c92918277bbcd7a9ca1c0613e52),
  (0x48b7bad62c6bbadaa5f74b161052087e53690d682dffead19abbedd56ca6da75, 0xf4bc8516921c53cda6b70dfc694479f689d05755dc3be17ebf226b2c93fae3f3),
  (0xdec712b16da1e4629f22fe7fe52eec973d721d83c32c41034c73aa9c9e4957f2, 0x4e540a07b6cc0773986fd902b90b7c761e9984ca69648b7d20cb7f587132e4e4),
  (0xe664576cd74f300ca69ada066e667bde2c6e650c9a5dfd572727762571dd4141, 0xf7d786fedde98092bb8cb91ed6eacc707bb31ff175af78eb656e3c70e5b3a196),
  (0xf8dceb9f52013d6749797e95661129b8d52c751ca1c338e51697aebd47bcc192, 0x3a954a843d7c7d590c2673f49a2da2e61fa9c32a82910286f74b7507ceaa6f5),
  (0xb4afb68a1fbd50f1c690af93938122b09bc5ace93b35ce3e0a70966b987ce257, 0x64065323c930fa6757ac1ac15202afc5ee4d6fff06ca043cb992be14c6d414a5),
  (0x7bf302ed295f4823502d4c003b331a53691a22e20c388ad5696a7c2f34664b3d, 0xcff3e3a380ee766e5e3aa4f55f68eeffd93b489e89641dfde1dcb019bb085dad),
  (0xa193154e22b62fd3fe61435718f18b8788794689c4fe87b313c0b7981f36e958, 0xbab7d7120fbb1c441f93acd88867e0dab36ab621d007a21cbf8d9a1ed8bf8dbd),
  (0x9ef2997a90e516bf67a63d078fe0cb3ac7408ffe639d7e282322e688a537ba8b, 0x58fc781ecf139352ee35a1390bd467e016ac4e89706196599fd3436075b255c),
  (0x16490bceee84d11fb1c476f31e1dea8a3823eae1e7eb7c2feced6c8052acde0a, 0x970eb3844882ad8e3259a89627ece352e3c57a707d4ea34d6fc8b4be81e14ce7),
  (0x1e7cf22936da8c1696b0b4b9249dc0bbcbeb4b4178b55e0a66e5ac0cbfb3a361, 0x2cbe7eebf519ba37056a7958c1eca88a43d49abdddbcf5675f70aec14a8ac9d),
  (0x3ee6aa7539463f49bf02d8ee99a9c3e236c68568c79e2c3d766b6f33a3891120, 0xe58b907c4fcdc81554665fe7912fd8f0d662a8a7e65a0e2a78344645e1ad0092),
  (0x39e1793eb4525861d9b2dbd97c5b5f0f41989a9671fce1fdcbea748c45182d41, 0x1b8afb20124ac372d6805730e0db26e02c0f13b13da90c9e8e94bf87ca38d0f6),
  (0x700488b4c91457e9ec9ac71498e17a0922c32250d5ca844ab67c71a7a7230f43, 0xe0b9dfb1aee2e4724bb1963e8263ddbb0eea00bb5d5ac86fd06681af7670801e),
  (0x25542106d8b55a440dbe0363349afff90e29ec53c150f0f6e27ff46644726b78, 0x1ddf2c1a559bd3689e95845327cec444591299355bbd696b1a16fcc72a89a48b),
  (0x1d33037a630d7ab8878e9a7cae3a89900fc7ac4ef5c206862cca664ce59bcac1, 0x5570ee3170b2457679ae6fe8f9862abadae3edc9778deb3f8e6be2d3f52d6a63),
  (0x2df4c593abd0a0f0586dce2c5a27151e428122551d3da5834bbda9d6805ab8bd, 0xf0d9ba327be163dc9d9b673d5380631a9754585f00a8b73a3e2a0101add9a68),
  (0x4d43b1bfbcd610dd91371bd2d35caa81e02e440499113e35e30c1b84fa0d78fe, 0x38ecce090c1475d09a4aa360daf3d217f4d16476e6d2ca7560c080adb9ed6c95),
  (0x427b8d75d5147e4b86448610cc91f0546533f3f2f8a62231664ae4358e685e7a, 0xa792cdefcc3b1e2cfd3e31d5baa66b8d2858c5225eba167fd886b55a79083965),
  (0x81a72ba7e11ecef11812e9605d0802d84463fb1ba8181822ec20d13122947a97, 0x27014d34fbfe8c767281438ad44b54dffb04c78977b25d0dfa8fb24adaf94a54),
  (0xccc3d34afeebd523e12d9396b007713d67601d683b50e3ef73378fdf63e282e0, 0xe610e99382109b8f7fc533bddf66020b8eddc00ae44419e33f8d90cdf2849fb2),
  (0xe064d58d14e99700969defc3ba3ca67b65afc27bfc43b95c15d2b7a2749d90d9, 0x642fc5c2b13a4a206545573722eea4fc0dfa1b52f70a796d2f55b4663737df2c),
  (0xc4c313d223c50b6eed0ee70fb7b68bbde7e829b7f33242af21336419a8e29b8f, 0xb2bba149b912920e5b2835e67f5906a9fce8e239a782d36b4f6c9b11c8ba4db1),
  (0xb589645e444654534043f71321fce062c0db2130a3b9a5b617168360d12c1852, 0x1b37121afc40a7e8eef51c5aa1325e05d5d91a91c02acb8ff4ae45bc44918b9b),
  (0x2c20645d6671c46745afb2b61e20852ef030066566816fa5993a5ec778dc68b2, 0x3f4900064985d00e63f98174997f311fe30283003dfe96e30cc2b70ccdb00cb5),
  (0xb20cbdbd9da1f84dd703ee1afbd058669a7073f5fd233064c0477bd4b835d0, 0x7445d9310eed2ed94247150732f7c08493e060c2c7600fe2177e706b241f2102),
  (0xbd5805fd5f77a09fb226ae5591f8cd0b7067c33204961870305f0a7f7c58db56, 0x91dd3874f60efd99ba00a2992f294489dda9c5b06be2cdd1ab82239290118cbb),
  (0xd3e6531273001397a9358fb2bd26e863281e89f3168e8ef7d6008090f3dbd3b3, 0x604adf5ae58148c29cb05561c69135d0e83ef71bf2efef616c130c08636bb59),
  (0x67337a185a0a153b960afccb3e11d3da24ef056040cb1ba51b5baf0caf21779, 0x97c6a608f369b51412df68b85e5bc7e9363c0278ab1e3b84da707311fb560174),
  (0xe8321cb802687b9114fed4b2bfd9735728e813dd4f644e1cda3c54a2424f76c5, 0x5047a58a6cea9d70972ae598ae20af6139e88fb296bbc306ab32f3199c6e3d74),
  (0x5ec674aa5846a4050655f56c3673f17099788a447759c3ff7d60c62e3b02ad45, 0xd6c999c21ab2c6acb31d65b9ad276d7dc14f4417ffbaf746436edcf786de7644),
  (0x348f2021b3605f6c8783af44458dc7562cb045f6e94352b32044054edeebee70, 0x618ee0c0fe40471706be72c5b05301eb37df472ce2fcaafbeb1aa25d67227d49),
  (0x343dbdaaa8cd2eb43d3a7736988eec4a4751a91313293a345aafe529e32b38e9, 0xfe9cc4cab94dedc79dc2cc183d5ff962df76c11470c00ffa0aaedaf4fcc97b2d),
  (0xcede711dc2de979978bdb008006d66a09e12f15e4d8fd3061bc1e9bbba1ebca3, 0x3a8f61870ddf92645885607eebba0267f695c2522cbbfe41c99d6c31c45328f6),
  (0x7ba41db537f8ee1b572080f15192dedd0a73097b4243bd5b786991490a066510, 0x4a85b4daed7c987621af896a4d0cf9f55aee48db53c6e11b9eeee1bbbfb0b1e8),
  (0xa4617844974e42c964e7c01d3ed27c3730f3b1b98a7cd3e224372230d3850362, 0xe14711efd4239d9fd860bd413c26b5f9691c43af563d616be13658b7183661c6),
  (0xae6f63294d50df1d897474613a50562d126f7e894a0264caf23ac144ef178112, 0xef6e576e513f695135bf963f7237c26fbbdbb16d9baa844775f8f38ec35ee99b),
  (0xe624a1a848eb3e949a1a26cf4aea031881357a86e9d305beff0d25615f31b00, 0x4347aa86f67051e4d21afce0a6a793e10fdaa1ecaeea9c4e3414225cfca05952),
  (0x5e6c2d78181556ab9abff8eddc25e48a8329830bb5928969e1bb81afd7d99dc3, 0xec0528fad2c9d07dce0e19d5c9ac77c08c633d504c709823c45e40ee34b2dab0),
  (0xd126d2e29ddaa3897c0508c7c307f67efd643ec08e39e4570a7a52842c74154f, 0x90adb1a3ef80f743c29e15d27355b88236d7c191ac7db7827a733aefa5c2d088),
  (0x54cb2320f2873df81350b3291c9f2f70bc5d4e2414135bb7ab6a713e2b51caf1, 0xbd40ba97783ca272fce7612490761e4767a22cc65623caa83887eea50f4c9fd4),
  (0xc2e6913651897c333898ae81ea1b4d6d210b4ec12a617f1380c4a1441b88cf89, 0x62cb2bc8df852a7a2e40bbb2c01582470b9d5f28e7fbd45e89a38c66e17374c),
  (0x186716f37266168338404781553a520f1f63a385110c6019fc9fdb24c6d31f9f, 0x651ba897accf026c3e1af1fd1c6e6e922a5be31ba6871a5f0b1cec1817c035bf),
  (0xb2c6cb89de6f64eb7a4a3091b98ae1a7ef8d077c8b1ad0b4c6127a83d820e7bd, 0x8d124e083879ed2cd1fb7b7d94c6085e7d09fccfb0d74a1b99b78d54db7ed02d),
  (0x95f18b8b69aa0a2adbc7ab3dea387aacc757d2cb5d8d2a548f1351fa32c0bbe5, 0xc08d8363446da7dbd5223b7ddea335a58ff51759f3caec1fc3137ae34ef3b540),
  (0x891069b8b21a86f7178c8b41fec3a5bcce92153b39465d2b1dcc190ebee71bcb, 0xb90a6c4f8a38ffe108374a069308488f80c3e99d33ec420ec1d2c6eb1bcb6764),
  (0x777f01efa5863b05e59f09cd1689e8ba9084f67e8cb8e5335737946d465d5204, 0x838fb9e143e9a4acdf54d9ef61302862c87b64abc140c81c1d5e3722fa7ab6ed),
  (0x517f752de53d822321a07ac5c3f6441bb94126f55396e5e99e6814f61fe72121, 0xfd1c71d1970c329bdefc0aa1cb410ec3f88b47170682a1cf17120e15b94dc95),
  (0x73090b5c5f1afd5f65957818c68c14d93ff383331d4f8e835fefdb48cf97e3b8, 0x595c9a6b1350f868cc9076307152b45f4ac1308d9bd247c80ad82a8583c62e73),
  (0x168fada4f3f4f7bdac676025dc162c60013a55816a239e51b4e392f9b8fb9e8d, 0x33940929cdebe07db80a0e0da5ef2860d857c00e44efc618f955d8fdc164baa4),
  (0xdd55581dedbc956d16a6e59f66534c27a1ff9a82e9a62a5f2eae24e8b7d6f2ff, 0x6dd11d170c569d3b7efc7f1927604fe537c80a80d4f40228d9edda9229cac17),
  (0xcd01b74cd44ecda473bdd1b6368f605c8b495b284d7dfc6a26120015216cedbb, 0xd9ac582dd23ce24a9dea4bbbf8be84c473075fa6faf16a3ae9a64c08dbf5a714),
  (0x7127277f4081800871474e720323458185f889043081d0c3228bb0b626f6aefe, 0xedc5aa40b209ccd6e05bb534ebaef08f66b7052abb45668d68cb7a8e38c37f97),
  (0x54569dccddaaa9c62dd0801fb472fe76daf6a8708565f3b4fa6b69e8c7bde050, 0x5e9f00b6a5f8d88a1a57f350ec553daf51ba4956d62a1ec253a7980824c5a1b5),
  (0xeb0683900ff14cab8ba5c776dfde43cc01afdcafd1b9ba4aca7c33a08766f5a3, 0xd11d96fc4396038cca44ab1104ff750f21fb8f42739e1548092f5476348fa98),
  (0x8b1e25bcb5ca4b53378cd402e6953db3efe5f1b6e0b1e75bd4458b45fe4708b0, 0x7550a1a40f60eb83c435408366d3d11c164a596c76b73b92785b3f391329094c),
  (0x1152b74641cbb20e7e130aae2584dbd33ba11ef29408117ff195f71e4cc72dc5, 0xf2fa074a1b8108f7085ba42dceae2776ea87115f0c0d8298f2578965fdb1cb39),
  (0x7f3100f1c6b5df895bf443dccc9a5e1a0529aa8fcb1309a8d04549d2efcfb12d, 0x301a89652a7e4d739ee7225e6fb2830b7720d90356a7a74bbad8a3de6f820928),
  (0xdd443237bf4fdedc8c28cdc3a62ef4e35ff2c6ae18fd830edee0f47faa152db1, 0xb1552f237e7ed8a074f216ebd47ce8e022a8630b3759d544a50f848f2d8e0f64),
  (0x2180648eb1f32df997ccaf1a1eb5b9261331a8e50163bf29e64767aff709529a, 0x850c9829eb2fbc8ca2a9fdb0cc3814ca6a6aca918c28ad0d663b5605bb499ddf),
  (0xe8e6bc08b040d49bd8c4e07cb5459c48c19f3c7a3d59d6fa49ea5c4748cd40fd, 0xef840a30e515222c8f9f14cc76e86df5fcf7f30bc5cf82f8e037403aae8805b1),
  (0x3cdcd4b18b75f34f8538ea3c276919b59e2bdb6806ec2b19a9e5368ad76e98ee, 0x1c5231fb5430ae8d3da5a64f217970bbb5d7648dc28f98163ff23360da8bb39a),
  (0xed6400dbb88708f3261a0f9c9e4bd2a311f1760f9a1341edca4663b8295f8668, 0xbda9b08c386970376e941df6e01771ad5c8560da665bba3cb70bfa41deae47d9),
  (0x6190b40c2196099f718e3ff1d7ca6aec0ebfb1efa65ee00d29d3abcc038f6e7d, 0x7e7f7486d775964319046e9eaf1d77b6b673340fe40e07889538cf46df190160),
  (0xb7fb706eca2f48d79573707d18aabaaf79158f073f08255d5bd5503b1d2c9fa4, 0xbd320a4920daa2d5704e86ec8269261c528f4eba839a73f81ddcf6f29f2d36c),
  (0x8b4979b225bb30c74290f4ea9a2e7ca264c7a90ea1e4e626a9dc8cf1ff7716f2, 0x4bbc648925a28088aeecf2cd6a54b163b66b63262bbf2420c2788a204ce2e6c4),
  (0xef0e1068184b9a5bd549e40b037027e3a36ef440bcb9e7d9e648469f5993be51, 0x6b5545ae234af76a196cf4628e9dddbef2aa8c234dee565eed064237552084b5),
  (0xa453e4d03b06f24c497337ca8ed6a119a9dc65b62c39984edacebc8ff8f40651, 0x10d068ff134600f3ba4578b2abd5a1918060ce2b0acfe1448b2cd6ac5026b3fb),
  (0xd1580730ac5fedf9809d591942c3c2577b820b27a2238a4493090795c33f34c3, 0x27506710e4553e49f11ddc1d0d0813bdf793bddaca343c637ce50adceedc8d22),
  (0x48eb9fba3a45caaca093b14eac12814a9d34849a80487eb00084dd566b02d2ea, 0x38c611de76076f7069a07de61a7572cd8a04c66a76da0de5e0ea2502fd425996),
  (0xc53c3759d80c96e4fc05c73081a75842f6c8be3f3513053e49dcd71314c73dfa, 0x3b34b1570362e9528f91c6a28e8e9369b116007c1b7534791c243c8bc4fbbaf2),
  (0x1bbbdbf99939fcd584a7a359bfbad2c029844a8f202bb70ee4af48f9cec779fe, 0xd96933bdbf2b4d7154712a7fdb05f2c657fa0bef68ca965711d5e4f53ca4d14e),
  (0xa832476f5edbebb078b823c8b2dcbc725a144da346a14f33edc3940f2db75476, 0xca19d942861354e2b71d8f24422e48575f99d57475729ed1befa1f0ee6a28e48),
  (0x8ea30ad28fcc30f597e88f8a3614a7cc3a6469f6cdffe907ec016b0fdd770db0, 0x10775b4ef44ed2d88f821fdd2b1cbeaffbc6eddab7ce2831ef969452d3a1d2c5),
  (0xf64463d3d179fe3f6569f0f2afd7b14f3230af26bc9111140aca3c1df4c68e5f, 0x93f31f630a14483707a592f642e1f91270cbbf2a4771b1c4a2c530799ee542e1),
  (0x493c91f784519da4e8ed8a35cc906a2815df7d29133367168f3d2b1b9e006e42, 0xda42012219fb5dce6b9f67039b4b564e009c5a381a643dbd9745947af7971ca7),
  (0xbd182841128f0e2f529bf7b6f3f0af527268b94bc705622740b9be522b9d7f04, 0x67bfee89022ab0ba83cb9c2e3f579b80e123106c5e6065406fa48c72edcc8aa4),
  (0xcc755c898986dd088fb0d518041a82a0b19c5eee40fdcf71a8b0b082d2278ec8, 0xb3e1d2753879a4710a585c1b1adc60eb008028309c3e716c49f2caa6af386288)]

theorem chain_ok : chainB (fun x1 y1 => eAddB ec_tc26_256_paramSetA.p d x1 y1 x1 y1) u v chain = true := by decide +kernel

end Gost.EcpChain_tc26_256_paramSetA
