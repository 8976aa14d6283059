import Verif.Lemmas.EcpTable
import Verif.Model.EcParams

/-!
# Doublings of the base point of the curve `ec_tc26_512_paramSetC` in Edwards coordinates

Generated by `tools/mkfiat.py`.
-/

namespace Gost.EcpChain_tc26_512_paramSetC

open Fiat

set_option maxRecDepth 1000000

def S : Nat := 0x186c289cffa09c983b168c30c829006c952ff4aaf99c73850875d7e77bebef18d653187d6ba8fe533ec74c6f061872585b97cc0f50f57752cd73f4913304621e
def T : Nat := 0x9a628f975594ecefd89ba28a2539ffb79c8ab238aeed0851fa5c1abb02b80b44c6734501b83a011dd625cd0b5145091a6d9acd4b1f5c5b1e21b2b249ddfd1271
def d : Nat := 0x9e4f5d8c017d8d9f13a5cf3cdf5bfe4dab402d54198e31ebde28a0621050439ca6b39e0a515c06b304e2ce43e79e369e91a0cfc2bc2a22b4ca302dbb33ee7550
def u : Nat := 0x12
def v : Nat := 0x469af79d1fb1f5e16b99592b77a01e2a0fdfb0d01794368d9a56117f7b38669522dd4b650cf789eebf068c5d139732f0905622c04b2baae7600303ee73001a3d

def chain : List (Nat × Nat) := [
  (0xc2c8a102654b53acb75439c8536d228031f60d2a12f7532a8f49481b9350349ab780f81cc96d8f67e028808b84558a339f36e7f1f64e6973982e2fbb886a0e93, 0x778dafd5d6f645f7078485aeb17eb6d9af6285a0135e556f760b2c41bd6527cc91d4aa78634dbef9a693e1f360c20f4b05f78ee8750fb512eb29728c3513f962),
  (0x4410220336a27c3e894bee3e840cd8a7a196b07db5b2707237d00fe21751f65b9cdbc0270292871a40a802c7da18cb63173cd0e026d0cbc44a25b44f1406e4ed, 0xb83f4f055f2fdab05d190dac1a3e0018eb90ab4bcc246e8eff0101b3f2c533abd45f1e2e2d4cd412459029f331b61957eefb80ab1428b3c3c120d710e6e6a35c),
  (0xd4c36a4587f7527bc57f81b2d203916490f42665ad0e44b0b1b1ffcb78787a2808f5ecbb91c7e38c220bb48043a634353b1fbc06c17c0919315c1390807ddc00, 0x4ffc4f68298634eede471d960ce78c4e9a1b2aa41d7d2322cd1619e1ad9c47517ed9a8e95c329363e793b7af8e329270ea23b75c706eff646cda7a3bd0a7911f),
  (0x5213c9bc8bc2606946143a36731814c10d154432942bd865c9409beaf5b4a5a81e8793dc89a827d0b2b3a796a2a5812a79f255094ff3ba06472dc7d50ffda2e7, 0x8ad9f0710c22581015757ba99c416946083371d4d58480cb1e6986112262f8d574abf2703737543aaca858090a9b3af617c7e554de15d4b7db8f258e42b7bbf8),
  (0xf3a0e96f998d084f1c39aabd5037a8ddb9b40f595b3755d7949df2a912b8bd0a1346574620fc1058a593ea239d2779512d0d7cc309d65536795c319a29b10d8c, 0x34a2f6ea5818de9a0f7c9ddea852cffa7b07f42f45ca05f9fb5909802fc4c52890a692bc8e0bb8ed4100370d4715e6cffd47fe806e754cef5faa5d90cb442b9e),
  (0x533de30ae8e058fb7d47fedd457234f559ab03f09c356e66c6d8b47e72737c56e891d0d6a5d543550148076ac178ea95ce6624909abf9ffc249ab1600d3676a, 0x1f90a8e816ed228ea2d8ebf85cfb0cd618b198b40d57929829b4534ea91fa12915dcc396909b470d20d91fc54627abc918146bff72ed6236b9af3f085a4e65bf),
  (0x8820ab7bff6dc3b4187ca2dce1b3fd6f55f7ea6b4fe0454e0980033e61ded2231126331afe12c805ba779d5c34af290c538d2f526696bc2436e29f7c40edd443, 0x9576e248f4c859bac62a04b7f3ca06bf068fae1100188c505c1a1b7881aa3686019590d1280894ba88104cb5f8cfebac0903cc5b0e054b096e21940f72a45eed),
  (0xf8fb44f502785768758aaf9d3fc6822dc8d158f3b09e3865cb618ef7fc384876d337e169cb27e4f52d4f801fae45aeeddb6a9c8479894229958bf8f9b674be9e, 0x2b675c1e41aff9cd1b09eb624a8782b4abb412d52189954f439bf481537836a2d931a52993082da5fbea20a4b9d37c684faa96cb1f383096c484170844aa348b),
  (0xafd28dce00ccca68fae9a367c65adf28ffe242dc6cc07be5cad239d9219e766dc831ed9c26f700014164f076ee1220de96c22af8427b699b79103e2d48c8dd95, 0x1c10933e6b82f545941a78d4a114bfbdf48bb64e89f1c9604b8428e8eb5d4132c415bc45f148333d46aa6c18264841bfb99ccc2c1ea0e98ea569fc058e4d36bc),
  (0x6171c68446b4f642aa7a8a877a942d82184f727c3688c41059377083d6d1dc3f04cade4ca07603559935c3c47c28d04118751d69e1d6203ec1bcdfdec7436071, 0x46f0bbc75026748feb2aa954c1314397d71f1125bc0221b7dcbfeb9bdde1d44bce65b078e841ad45a9adc82a834d098e6ed1196cbb0f818af82ba1b1bfc1c396),
  (0x5356229ac3e16f0d3f1c68bb2a7bf22a316573712ea4cf7450aff01566a3dda55dd0d795242058b1e8af8434cf53a1cd36029406658bd267405d20e4e9fbd27b, 0x12c29ce6b15c678a513437af7fa92776858b5eebfb1337af334508f289206c8203d6a8f80a5581d73096e97ecaff82b27ce3e19c16360670d3e83ab909cdbf8f),
  (0x936a3c137d75aafd37d44b493c6af54823aa3c923a6f3528f595f636040c7c25d71de92e7900c10c3362c4cf5bbaa644bc461fe939c9e294f8e07d8909cf85a0, 0x1daa8afa82af21bec53fd91af03a4d213f9ecb4574505c3fa9efa2e8d66c5227515b9c5ee2b58ba1421875863ca22eabdbccc4629b293c270c556b86d300ba02),
  (0x40c5b8dee25121f38d622f4d84781c62ebe2b8ce1bf273be0cf9b495902a6e4cdfd8da05368a81464655fe21d9e330834276a8fd015bfc229fa23a06cd11a278, 0xde1a6eb2d8f043334c04912641a864dd553b491ead93754ba757971945784d6e4849d9196664356d01461cb15ccc6110530266f253a3a4b337c4669b45c0c3df),
  (0xc99612399f83633019846c7b4aac0b259cf8428e1fd7384828ca37b98e9478a6ad861d9e9d0150e3187e68b8381583e58ddd9df240352b62aa6328fe42d14746, 0x504b1b0828672ce8da000bbe889b33acd9c7c7e15a8c677721c44b57b6400016fd8ec028857808dd886ba528c7764f8f98560aa928ecd84114f213ffc1e8ccf1),
  (0x43c3ab16d56e0c8001aac79c7d6ca7274cc5674574fee5ee8168aef404df0dd01ca43115322369c27c8c5a3b6b842986dde2be6418f3b277891aac104e1dd1d8, 0x5ff4182e101e88f4f02141ac71b8de998e85838437a50497e52a947a60d7d7f5d6e750daa5391e4096ad723bb3dbe92fdab9254174e8952f22118f8741779fc5),
  (0xb2a74f6c0cb03897774f42c7ca0f2d9b4bcd803c36852a612d8a8335612cf0ede52a02d95db9bdf3e8ce5effd9d5c19219978f3bdb504cbf079f2dc534d8027d, 0x8c1b0ed5363b6994bde63df04b90350535fa2948b27d7bb8cc0652e8c9bcc31bf693f1a61eefeeefcece24cdbd2c7a8b9db64607e19d249399f71bbe7a2927f1),
  (0x45a74432477f183be13f7ad166106bc1487f7938f7a08c4b434c9ed514b5f47d621a897555b20456d444630504ce5dda4ec36ee718c6720aad049cdb9e2a8c5a, 0x37007089d5122f1ff0ebc3fe2cd37510f63f84ebf5fff15eb999cc392bcca09c7278822e48e937b7050b3138e9bdd732f700f786822e0c24b57454bd74dc0539),
  (0x25295121dc1a1f9abfbd4b7acfa366b8484e52eb203329d844893a720c5a8d1407f45e481228e072a18b031852ffc9936c9788490935de96eb702aabce5d67fc, 0xd016082075701000585ecf8cfc27af77caa75126bd8a0ad16b2f3232d4124b15dfda5a0a9d1c48518cd0e37f98e09bd41975aab5354674dbfb24ccfa551bcafa),
  (0x3fefbd8950da2a1730e6f8cb140dcf878d124c9de272196793dc3e0e8f7f8192b65d4067610e5549b3309bc5475c95cf3e5c0292b95216dce105c92018805197, 0x71da363d6014b4128a0d9f1e2b95dd28eb3eb6da697f158aa22a1acbc88eae1d90aead5c72628c2386074e9bd913c1ef87456cd5f2dbe9c8cb38db01f345a8b1),
  (0xa6bf295c53a502830236d240000e2e9a96a982b0e1909adb81d094ef907c43a0a89254495889202e17f6d270cbd51ea66fcc863c8ae73eb25be6e48d859f492c, 0xdc487691e28c1ae716ee1e2b1a9bc37ccd079e54cf398bcaf430dc9c3236e977e127c33b81bcea8668dbc049d801f7f2344ccb431140b82700f9ca868405afb),
  (0x9b67dcc527461b4660042344a59d7e9b463e240bc102354f2ee863b417eadd9a995e1e04e0efaf04d85da722373db5d08580073af45468a188ab75f4dc405e1d, 0xcf3bd16615c6a17e09dbe52a8c1dfd5392f8603271e3f2000b33dce9141e24a1b3275c3cf21ab6453d3f429e76cbfd80345257e6692b899b6c13d9199a367085),
  (0x286f74d402f47e897b19a77e81ab5dc15bbc74272b827569511ea404fc42a7107cd8bd4267cd15747e31ebd359449c546fff3e20fae07b2077aaf5a590dc1861, 0x5f17d1093cafa59bd7fff2a2f10b5cd457875c5cdcfe2e7d1a7a47a477ab201c2a0485eaacc05751b787559d3f107081bd818fa0b3456ec41bfbb1f5b8c06b3d),
  (0x666adc2457ccf92f7505dac6ea1c5699311ea1e4f5e968b99e16df7437c79d63db0452f1a9d7bcc4e288dcd3556e0152a681efd66f96edc38ee4c46efde802fc, 0x3fa452712462d129886c6b085c3529d607008982fddc51df92a74e3d8ba29b7e330e2449b463e87fd1b21d05c21b6d1060f1c6eeec0b5980be728f322137770d),
  (0xb737590f051fb153a6ac5d795b5f04327d1a4b63674e214fefefa77a4cc853499214643cf6313fb3bb485522c354a7fbf80984ba8caea0e6adb22a8a92e94adb, 0x84001e7122e676de62160ad9ded74280df8bed452233b60df99cb167cbd58e0ebf1149edf6780c432b6e2adb09bc136f5be9cc6ac1fc2b8f7342efed0644438d),
  (0xc4c0a9b02894db4c10e7040e8aa9137cfe66c4e5e8577e753a219af9829a364a6f1fb08ef375548846e774208fdb9caca75ed65c775a659f889497e08e5723d5, 0x1920b86dce848e6e0dbf33a1c6c8d80d77ef65477fd653de3164ec551cba6a62e69dc804759738993a18827b20c8278ce6e646635ab4592b06afcf6f67015970),
  (0x5e59c27964bb8bed64fe1a7e04b43556b9abd3905d9de7eb7c26e7b1aab9eb05e0efe6b9f0bf47d4a3441f604d1c4217efb241f489da157327d8b80596ad839f, 0xe9c28455ce4175809e009cb68d2281263630b59abd56576db09201383b1c14462d345cd7ba06e6a75cd03dfbe3c1f8f15d3362e3cd74c937478363421cde7537),
  (0x72681e5551ad458edb6045fc4cae8a693c4a453004c6bf4efcb3092c097578057c018b1b25fc1a0e95045ce7cc034090660bcf92cd6663ba5f1e41c5a2cb25d5, 0x2fcb2a8391f325e99ede6e982168111d95f1d06556be13bfd84a59fc5979d2c4d131a7525edeab0a25b6a9f2f038e39a4bd5af05145df77be325b7acfd8964f8),
  (0xceba72787cd596e63ea3322a0adea8643360e201d0ef16fbfdb6fa3c37a5ebb601bdb1e8c0de4ff4d8072577fd1e789eb80a972e42bbe7017c3efa91f0036ff9, 0xc87501446084a3eab48d196c4ffa6dbf28d0b3a9828da459939688bea5bb8e45ed0b509273fd14de1f912ea548ca5e636ff9c0653793d1773d60dc85ca59eba8),
  (0x274eab1c3f56efeca708ffb515562348519640f7282e4d1b5052cc8e3a04a8c90203d0738e2f9f99629262991df72cbacaf7a8874bf3141819c78545fd3790e, 0xb76c0ba4b7fc9020d4c2bb267755d24d0453ebe8a9d0f44e6c444749d64362d15de0efc6ae05ddc88686c5c740cc8d6ee888a884a64f5ebe88e5258c28180516),
  (0xa9f9eaa7382f633b4ab7d5d015a9197b097e0b97ad8c2cb41ead716cc341f4f8edd79eb26c8c24ca935a6122f230c48341b4fffc6c2a64d84fc2ca41a16db00e, 0x165b702f7b99f6b13c32351654bc333b8ea021582e15a3983d4edb4b72c1778b42896f8fc4df19b2941b7f21e7d52c029651680dd15bd7c7ca2ae2714c2eb12f),
  (0xd5b13ac50a3df5ad33bc736a3c4bccd600d27546220938f3bc2e47388952a9ba8c949e008518e0bc5d2e5aedf14f7f95bd1657a18235f9225f3777baeea3b94e, 0xea3b5db8cd31b1a7ca0501d27ac3725df0d90e73b8f4b39b8783eb61d4ef31bf96f6e0775dc036bb2bfbb8624c085d30c9e819e320799db9af3a877da38968ed),
  (0x8d94f0fdd7c32d11f4520be07aee84beb381b91c34af02d5908f9a89c710488dbea66f291c088131001990dd55d5754bfaeabcd0579a882ddb7ee1731cb9546f, 0x14c7b01318c5bc086b123bf859f8ae7491ed39902ae69a2f1bca33f5cca1814aa48dc2e86b0a296218b01cea7a0f72233b21c69ac95543ee70563a1c18bfcdad),
  (0x72dd107e54a7d9a3876fdf264dc2084b6c07b0b53dc54234f72ba77cec0ba7c976f7cbf01c858c67438f5e9b4c01a62e04d9ebdd4986acd9d06dad8f6de16dcf, 0xe9e6df54c33711d24945ae38cd049bf1b1751379b8706b0d027314cc1a2b42819732368c0758647bd8252865cf48a8bc48dab3f12bc0d7c175faaf96a2c04b2b),
  (0x6cff952e8da98a378fa2630a9a96612bef27a190c830c678f02cdc0eb82f9b15671ad8733af89ace5cc89f0783e10fcc52c7f1224159154655bd18b2094e10d4, 0xa79586387ec018191fb36efc78027d8855938d3763ba36a345e2d504c672aedd0dac8183bef42181a24fff0641890e1cdfb407ef504b6bd5c8ac13d3e315dc3d),
  (0x351c4b626e9da89a40429ec8006694150a73b6f51556d0adb2e0c5a12b244f212a573a8c538ba6df3de8c1ca21153ed990f7c76b9efb40a89cbd5d0b881a556a, 0xaa71578292ba59a6746e91ed76eb626525e8ef8108970874f264969fccc879f621354df41cadeb35b72b31a7531d9a4054c1a529c79937091f78889e885807bf),
  (0x5df80b304223e5587b469bf1bd99937b9fa7b007a883623b9b8706f4aa20d2ab6cc2044d58c3f912d7ab5b6bad4468ec7c89f984590dc89823b93051145b658e, 0xf2db79d227b332c8f69f639c195ade7268041e4e59f0462e5154a5d4c6d4f9ddd3ba9ea5c32cc12e5c4262c59549217b98d417d04510b4d42e185416966cc784),
  (0x52a7be06508788ad7de527c553585f28dd7a1751e6902ef1ede0b3cb10630f0b9591aa26a5c7c1fa8e456490a0cc8697e622e3e1fcfff4cd25d5470b60615a26, 0xbf55dbca3f59c33b21876e6d57b24feace49b757347fd680516713020af326755c4e573304e9e36dd168f3392105e3e09116eb3d26242262a0d599ab23f1ecc2),
  (0x8af92155e62b97187fefb779e48833dadfd109892b76f935aead664e5c7499e62ec223a6dd0531f186532dd98253c6089d3e2ac9ec74e5d6bcca2c5d4e64b240, 0xdbfae0ce3d0b73e1f7161a0576e9faba819a1b9cf74ffcf4779528bace8ebc9d7df625dbbb0f0ec8b51c5daed6fd440c98d187abc3f0d6767804fd9c5161b44f),
  (0xfd97d9dda49bbcf8d8d73bfb842fe46560264643511ba2679b58be05a18760292485c91fdf169bf10d4c3e7b23823023382634cf99f53bae90e9ef59c63b081, 0xe49356431c30306aa672652d6ef0b7cfa9805c960219ac38998cebf6646a311b98d6af5bb2e630d7bad2da3f270e416906f4b4e1c9e7a38c70f76ccf1485834e),
  (0x866712dc37f03e04be6ba3df5dc1d33be6f752d6091388ca1d9d41bd3134d4057c637a975857fc444c523f31873f6e846fd34120c231cdfa91666427a86846e2, 0x1807b94e3a99e7957aaf393748caf7de3678b16a97aedc00bacd845e3e9ca52968d33caaec0d773a1b8f2f9963eaa9ce36e9e63e0c5f840f3830e38729770c4d),
  (0xfa9c7a0bebd2e039763da80be583a4c6379a849846c9ae34d5b709492b9d78df586583a25d9f65309b7bc6c0bd83023d907876c51f5c6b2a0dbedea7ac20f255, 0xae34340a33b36d02dc6d04488247267a782d512c33dd3a0b98b583e55f1269a7a75aaff20ce5cb04fc2f1466c9cf5d5466c832b24d90050b87b05215c579e7ed),
  (0x39730aa33dfc197d9d4687c0fad1f636325c42d21fe425d98d4c7530a73fbf1909c7bf91e82364260c7dc23a79456d88176df861cb6e7185cc993acaa8307f69, 0x49cf8a60983825767ea7c6dc7db3a9fbfe87a244f82f99a7fda37fb59d5427953b1f70db3ec4052acc6cc899f07f871f627c101a990c3e11c385e560bdfbbc8c),
  (0xb527427ea6e8dbb9b122d5499ac921ec2d35bb26c6c4b32ddbe693841e686dc56c9608dc40023ce25edea87a54c91d7d9464cf96ceb07d2edf1fc9e2b50ff6b6, 0xe6812d3850fa7f17931e5c2e79e0e18a15db3af5deafd77fb2d8c098298f9a61db8f0f6429f9d73d866ac84c5b243183661cddb5e607d664966e9dc8253b2cd2),
  (0x5c49032473e39c47311569cf367bd8d338e4ac986527d8ad1f1f93583f0b4636247c5c1d445ced2333be51777614f9ba0fd1ec912ab5e92ac2c231890af45514, 0xae2812d5f925e51ba0aff35ef25c95d6c5cb961b4a2940e1558570802c845273ce8f5d49976686839a3e471dcc41eb8864f655848c2031764f7869daa73f8ed1),
  (0x712cf21d47b90c21e2ce9609ba9fb3d6ba09a9f2529b40d01f488732b0e62d0ac8b752343f84890c39d57ded3245ced4db1c493dd46000107c4b63ef7482c8b6, 0x7b6b84164a630ee98176763b872033629b919ecd228d9b225f5d9e7007bdab7f8661018e3141e52817ed02252036b8fb4ddc6d350616cf0c0920b530c6e3e9f7),
  (0xb70acc41a7ac00c63faa395be6254815f043e35c290551b05ff22bdd9a3cee83e803aba7d2404c5cf4c0a61b44760e3c68c4de9530c2f22b3abae8633b873bc9, 0x6b93ea38c2a41a5970785d462621d63e7fdf5e67b2c32057380cac698bae39e9951f36647c7961d91817a4d44a7eefd146ad98b7531c924477f1c476dfb3ed25),
  (0x20f0a4ddbda39b6b35faa27175c8d70b2a05962cd6e8382b8fbd61d07cc67970fea05990bc1b94fa5c5d0b4c0710220e0530e5b448f9be8eda4c3186d2db7234, 0x58f52786908dd3424cef395b3613a6484665c0a45b9837c6a4f08f314d8fd3e660bd8f23ebbcb0ba10a860adecd62232a15f487a3ea9e0a70e132b2b24e095ed),
  (0xe17a5b33d79bdc0ac43f04d1178334dc861ec22620836f81eb6edd25d37f5f449a9c0f4ab00767428042911933d97dd9a7c902dec9e6d72a863509f7b69f3513, 0xab397667c23926998ab469dd9537666837b25dd1a9415d2d36c011cc6ab487bf6a8058f959cbe7814eaf90d641eedbf43c1b8315f0c52ceb791d58e52274e681),
  (0x3a7a2d49e05540337be09afd1836dfb20ca7842e5509d57a7537e058bcba1a997583ad9b1c00afaa0143edb7b4244218f88413aa2e360518bca28f7e0425ea02, 0xf2098483cdc8820541c502df73fc102c93fe090835bb13887a666de76d96934918c83cb585a6c7b2c6275dcbd70a65055dd7fc8d9a1aaadbf6120b003c5b2922),
  (0x90f3643e7aa876f97b0c4f85830b69bb92b52d2a0b09f815b4312329f073e2510d11a187793fdd7171081534b2851f9dd5a8c760596f72019dc4e1705e561aee, 0x476e4a746aac89e8f2d124707bb45684ca1dfd0e5b39c48f8103c1c27b64b5380ab9c5daf248a7c4f9849cbef040b4062352166df90c015c22e2dec4d44546bb),
  (0x3f6219787f6956f23ea0fbba4e6419386ceb9656e40500c9a47c0bda2afd57d5280f9c3010680f3e6002e2729a87defe22ac07ad2a887f83cf8330a09b4a55d4, 0xa7f03c0170b5d2fda7890632fc1a9b976a2f60a795c0f5ae86316a6c6ec4baa7c8a8336e8f8b27c356b8eedbe9cf7e93fd64dc6cbbc79f7de0eb2ab7ab1f13ac),
  (0xa232ce386df7408c9605379d52af0bf2248de1e15452aaa49440dfca3fe1f2353434f9af84c1abbfd5ba02ccb21d91c0d69ff04a58dc7aa1bcf47682a23f4ed6, 0xc42ca792206db270c72f9243390dce1bd978eef545f3605ce11b38a0f9aa98883703e34dc369a142d9651c8aabe541f65f7e708473bf7961960b821426485035),
  (0xdfc3bc5aee379a281cb8b82ad6aee171d75ea31c9d7928330c337074f1a40d6c4d79eb910081293d1699eff64e0bca39eb8b163184a9e70532a9b268114cb9e6, 0xf2b119e7fd6567982db05e2203b92216ec467cce38c634d52ef046bb5ea37cd69167bb7bfc1ba3955192e34b101310269ae666c40b8a5787d8db7fe3d219a904),
  (0x9719ec321ca63c053afc13364820363626ba4f57630c588a09e5dbd8096ce71c33b860e0f29c56658956510639a2b5a49201b49ab13f6eaa671e87630a762cdd, 0xe016b182e7f5e0def94615618f26a43d893aa59eda804ac54facdf595a6b451c4a3e22a803c69defdde67e07fe55b49a8e23f420fbe6f8c61e3d6a0869c0c31e),
  (0xcd87a3b909ea9d3cd284b311ce8114345b91b3c2abfaffbcb9dab228a2a4ddfd21b0f15c510ac0ccd08d27c4b6f1a301f93eb29e626f1beff6852011f5523aef, 0x667bc32ba28057ae6084bd1e62f89478b0659205aca54f6f74dd3147f2a0b93c2d3347bd43c650cf7a63b66777a2f512d72dd45648d184d65cf553cb949645d8),
  (0x8ceeb81c91b7ef5024ac5adf795bf22472b2e103d5cb03c6a32e878b9d1ef639c9fa29cd2f0af6838779dc0dc5d17bbb5216370dbf7c17aee87721d6e2172838, 0xbb99b7a0e14d07f71f4ae545eba633e5e24587a11c031820b1c424b865239e13bfa992f9eddbbb2a35816c7df3d91e22b1eae8409c69034ee3987b722c84d066),
  (0xb1bb61704d12e555e6878cb537253f266300574c3f578f6676fa0ed8d80016d5bffa5bab6d5b124ba51933452ebfbbae805625682d414355f921a5951ff1b123, 0x9a4861858d34e8f8b67126b653752bc4b7d53eceed6ab42a86b2edb368e4c7ed4fd83393b159e815393f3fdde36f185e843270b3de73b0ead171506a8916d9c3),
  (0x11a55f71fec15f6dd706a7d9cf5725fad72417324295da87a8ddf9856ac01fe844e1d2659184c7984f8c3f4022574a4ae85e9c6bfc77ce6d0297e9aa1b1af5b6, 0xf8f80d2c7244524a7fbffa5950dce8cc7be905a6a7bc23f9702b38b7600650a4b485a83fd03269b534f1e8db9002df9c883034fea8a3c135e2ee9bd4b31e464e),
  (0xabe3ced18a7a66b6f8f40e89d399cb99e0e347fbe3a5c8e445372db0b11f12b487bdd47d10c0768892b77bee520e81f4487d9bf1e2ec0baab7855a40a8f80759, 0x48e91aaaf59fa632c9a495d078dc518817c17fb49a20af2301ce62b570b566afb47baa304da078ea32f11ae29b5a7ed138e75265ed034e47ee717f54764351ae),
  (0xfe24321b1a143ff15e45174397143a895a9cfc348dc58ef92de83d7bfabb7861007e07cbc547d14b904412e52984df50f98090ec6ec7eabbeb6228cb45417510, 0x9e728a9ea870583b60a819a7842175341777d5ab079843d000e6d798c379619d5dc5c52b6bf25192eb2e001595cd73dd8a55334b6f79d42dcb9f3bb9203b7981),
  (0x1e1795381c34d2fe77baf4cb472a4ea4275f16cdc1fd820a5d87eea652fca763713cdd75a8b3cc327e1deb59ebbd00e02d951e604ce576b767ba6ce127579e4c, 0xafe568ef33d7f4b53c4d4b7026a17975ce73d9a5985956ea2e3ca8f7cad83ee80ea03f516387dd65f5acf2ed5a3997ce4bfaa41bedcfef83a4d69d748e1fdd0d),
  (0xe34b8a2529dc90bb27ab2e754afa034d6db46c88139a350288d0d06a3a1a24d096dd55a3b81b3e3cb4071d84d76f1c4b40cc4cbae6ff67c3c12fe1c0dfa7ee99, 0x4a310008bbacfbcf7eab4adb4e4c81d832ab98d688b9153ac7872b2886500183b465c55d4bde49fba0785f1a0fa141716387f07a317613d65828511e893b026c),
  (0x74b2a4ec57d35c55137ac569e58f40e4564c7a545ed47bdf8abfba2a2def0018a3345ac12c6e978e1e3e54b6ce6923dd3e1854223266316da6710f879aaf9267, 0x1ef28769440dcd968881dd70a44e2fccfa12ff7f141ff148d85bbf0b1fec61815aa846f22ed38ce8c3556a9c1e6ca913a5f52b7d9e5744b501dade00132768df),
  (0xad9b94a4817b1d968f9e45f1b12e5373b70188c7cf46ea223f2d9e7733597fcd049859e39ae6739b4f311f27422aef5de8d16a39adb8ff8a9b181cdc0243c488, 0x3a6af037d6c9313ecb66970d77e99f76bf1c6c5a79ea1675c0df612b9906575e10709b51bb711d54cca7a956e4402737bb6d790600f7c8ff9fde6e45bd6c4438),
  (0xd4ea00e4337a46bf8031b0154c6607bce0e83d4e109a18a88f80f43982e158563e0aeb61484aafebd95f0f9c90ac25699cb13ba03ad2ce5e378b00b344fc946b, 0x929abcffa2d300b0c7a94f6c559abc370da266a5a2914438473ba2c00c54cbe7142d87788c881d111409c9eb50b511fcb7c0310e921245b82d870de22224936d),
  (0x27b5a537338d73fab97aa5bf3e4274edc4175b9514702ad9aa319e00a4fac7dd9bb2552390949694a1cd17a1c30994149803feae571b8df1186fb9bf774a72eb, 0x46071a7d0c1bb69fb574cb077ca7398a997d283334adb9075d6eedbfaff38e3e18d522ad183ce7b40417ca8fe9c20fbf172870507b42c0c74f94f9cd0b58faa4),
  (0x9c2e9b9a93abef944a5d11272fe18f60f6e4a3bb43116502d545751d4579a25fdd0a2cdce40b1b4f90a49ac765468dfa60f706f4c61d04c9293c0886d60adf83, 0xf616d302b6edaf8c37d41d08a264c6daf4dcbe18657cdd4618066c9c704770506091034e43dba7234a6a0a061c1350eaf0322e2d788a6baa9ad829a1c866452f),
  (0x44bc114cbd883cb7ef8296a5ed9bbdade1339837b8ad80b14b7bb99738ae305f9f705dd354c2fe040f9b76ce305901c80445ec87d26c3129188482bc1e856ec5, 0xa9e71ff7c39ebac6535720e695ef0c4842010cb7b4bed85fcccdb4ddae5bc3dd20fe7d075ac3281d67d0f83e461c2135c1bfa4ff38933d3504d0e8a379fb25b0),
  (0x9047f2748a0a6036fea022c1a10b8f30569fedb2f5abb6fe1fabe137d60630bf8d29e58bf62c2b6841fa5b7e6c55e3653b6be7fa350864e5459808a133027817, 0xd72bed83b4862688ba9bc49524dc3ae1b801e01cb56448952388e8b6ae390193a38717f840537b6bfc09b0e0f6593fdcde7887e9466247f15becd7f96e03509f),
  (0xa952518328a89bd0d22d1e827032862bfa536326cb3759c8294b109f7d5e1acfa87ce7c26a0cd24618106d59da76d555b496e0e6ab3e21eb5eebed904aee157c, 0x70ba0599e919a60cc0d5167507983c816500d593df7eeef97895fdfc2ea2fc51956e5481525a5c6aa7255131bf16bab93757785c56931f75b5a89bd666cee448),
  (0x76855540c6684c8b221ec1e35f05f03e8a5d252771278f8f82e93ed617a67c62e1792defd5f5d29fcf4761d578d68e01e978a4a2c0489dc71ac364c4f6d7134a, 0x9905ddebb44ea684c93ac77014e492263c717ecc44e0925d569c798f9e90e2da3e6e87ed4295fe5f967983d80a0907c636245e37ece68d0e5349876021db9503),
  (0xaad56e06c1ae84c822d3820de5addddb6e3a5f2feadfb49439a447e65e428f81c594041cdf3f7cdddc998b455cceb5ec8ace3fdaa2c014cfb8e84a75cf8c6203, 0x6bf455a5ce9cd51de4d844f5f00f28d595d33083c3d669c0c5ced241f2adcdab96f7eb902fee6149587bf6d4a5dd073548d5468b22305f481ec7f7214ea75a10),
  (0xac511aea7ed30cfb5d4c8cfaf32f6fd6ba1e0206d9623dc19e5238bf1871c69892cce0a4286b368c19457d9b4b48a9adc0a8f62a66fe6f4c341d7369ac4d536f, 0x2cafbdeea54359efcfcc366bdcf0441abb400051485414fbe1639114b484cd86c5fec50aa50e7aa323561e89a095a473297a51dec407f0ff86f87cb6e669cfc6),
  (0xfb03ae11934c65b6c920c7a48e3e04a469787c159bb544e90d548f965c691235dddfe867f097f60ef7ef5527e47da4437e11850cc26c45c7cbc52bb5837c4bf4, 0x5dc6c64988a68b87ea00c5ba7c2a9cda162b0bf3b113112f407d35cbc0380299f10250cbdf64d6c64485093f474969dbe5970bef1163bb283095f3e278727d58),
  (0xf8f24da8cecb580ea000c9a45ddce84df2567e1839d83e4bc524b4b789b5786e074d41fc562113bc6078c5775e464cb2f5150609676b8e190dc9e2e990726798, 0x1d5bdb8039170095c2111e2a098e0084d053c4cbf755438f5f4daaac34bf5895ce91a1f02f4f40090937fd8fbb46a4f269c028b0c12c7be3000bde461c54bbe9),
  (0xf869bc955eb3bd4bafced8956a009bf9f7b38df5631bd65e736a46e86da82683a937fd6a709175d987835f13b91fa7143922364de723bab268db5ed6f297fb6b, 0x516ae35c1d25014795afa381f50785bccfd09ea2e43f57a75c4f767525c216a008662c26d179cfd9ab1bb4e33b302f8fcab1e2c708e58b58f3554b0d224d275),
  (0xba45317eaceb5cfb844c89e9502d6f8b210fb7b80d14360a4917c9faf8cbf59876ad8e0a2dfb8a482a493f9f86d01f2b2e28d6641eb5d832ac0e0f1b022ff112, 0xeab4d24cf5c53399c2a0132ca43b54552743dedcabc85b26bcb17e6a4fd04de46ac6bb5fe7e56b5e313b0a7a19000bf7cf7641f63645e5240f6fa1e510f27098),
  (0x336a9765ad3f7d991c6a7dbf28c1b6da87fa3175b5c200995a31282d097f5c76497bd736844cd4ae254c315ec89c1fbb174d339bf5142fb81a2e2fd3da90cf9a, 0x9e931f2835e08acf58f35077c0279400afc2389142b8ed7ee302c7337bac9c2dbc42cbe2ade3d148831141f938d19dfb2ceafedee4b29cf17d2a9b507d078eb2),
  (0x2cdb07310476ff38b602a855b937750c03907c5afe2103df45cdf66a9feea53e8b86d5ea388fb8bcc62b124f2f59aec58054d8333d9d4f49a5df5bbc61deb623, 0x64e87f868a849bff175dd867b64aa8aa4a4641a68ed414a71dfb74c78fdb8975c68b65418f40b444ced621827e6a7c56caf7c3371f0c020eb3ed79872dd6974d),
  (0x8dff243d558735822f18a49f617199f2c8df5dd25fb87fbb1649526fe5794bb1050c782fd4f8b507020bd6424dfa7a8d9684ef6f7f4f24bacf3414ec4994414a, 0x66ff5160f56271a2b44b0dd0ddd18c76de338abc7a9765dc530288b4a432d910b2c9edc8da448a1a689e05720782d5c7bc4ae75a21b3ad4e27beada10b5aa7ed),
  (0xd387106655a900a8ee86fb31b7fb40e37e7e981fd8af8c52b573aa09aae74b76a446aef2f2f034c2c3c2c0f91cb0811668a5027a78a388f379ba9a4140d86ef1, 0x1808f7eeea3fa1e1503fd5538f169e71a78d40c97938c122e69e0de3135f11556c1b340f823befd75796570acc00a8dbf5c6374d3057214f07fe6e09791c8c59),
  (0x814d9822c82c2d2a1e65b486dea13f0729c65464985dbcbf2d07c315de3da68c250bab6965f383a261c1d3cdfa657a7d4cd23ee44c8104fa288cc4a75f0809c5, 0x69c382a63c1b938c23dfbe4d4bc9f4a7108f85914c37782178c843daa37467df1432f3991ca81c99d92af283913b31748589312161f4700aef3368eeef59a6a2),
  (0x156087adcf8b8fd26609b2d48a0eff82cb518484bb56b328aa4e7384901978293dfb4099fb4713f619544d2239a3115037176c2a239e38e358b7412ecf034704, 0x3c62981e358972a29ffdc0aac6beaa4bc2afd5d064a7d62a032f7c2c56adb7168d324924dd6f56e8af182e14944ef63e08e4aa1d84430e1ae6a04786216e0670),
  (0xb8e5542b661f29ac31cacfa84d8275bd504f4a99966897847e63c070e5d20e284b291850368d86d7e549fd60ebde5dca0021b7d595516fc08d3e2451a2fea67e, 0xe98fec87d44c4b7f15e4d0e150dc012ad2bfe665b70bdf2472a733e9c3a38b8f7dcd37eec97a213b1f184a91c975f25d751a43978a2904f1a7f9d5414f2f4ce5),
  (0xd7481f12e4cb761cadb13155d798c3e13c1a577194c02a3a8219d3b275778e463a38ca702eed7c1888989f68300748a7a7c2466b9e2017b427314a7b51406432, 0x71037071e8cfb9638834ff9089bef3c1def1d91a7f8a91f0518fe9b8361cd6abd5b770a42b79f46fd30b18d70dea938f48f6e5763bcbb5943b99eb5550a045e2),
  (0x6700c63d6a910ef878b6275f84728bbd5d257af47651e86a99125c71b9f82a080661f776251ad78f96a0a145336ebe45f348b28ed1b8e49184217194c1fcb505, 0xa8142811ef455bbe1e27db1ff0a9d1102b6aa3f486e36885d71db6279316fffa376889b916b0fb1b12f0bbabb9947b2d33b49200d448b08ad20731effa3a0f70),
  (0x908e8c3a4f2913de984b3cb03472a9be60f44cf4281f989fcd00aacca442281436c62029c96e7d01703fa6f1642e9b2df6b099446babb050ff5c481d2b7a058e, 0x8d7ad6c08035d5aa244cab93d5aa1e3c2f0d76ed65a7a2f8ae593186ea7ac648acda1c85a3808c02397e539f46ef188a11cddc790aeed273b254aaccf4308148),
  (0x536a280e47df4ec515525dc6ac859ce679f75bd9019f47df437a8f1547d929a9aa8a756dbc4df9de25716ab51fed4bc620e18796543133ba32c38696f32947a9, 0x8bdaf52b1cf1da0ea77ba3a2079cb8f92680af86dd2ef75f42453720f87795a80be303d4638b42a335ac18e6e36c50edd2ac018a0bb5554d167682e7c1b80d9f),
  (0x623b143d3f8a52f3b7cbc989f29100095b7acd0c8f6d406e72d04b857c254abee474f71035de79332876419e09e18b692c465b419bb11037a8f038810c783056, 0xc2c37e63db555d561549eabdb3d5ca68cccf74a7eb0fb9dcb2cef3281e55aa7b79603a4880dc3a99c32650fc04a37fc31c80e8fba27ef775e42607b94a773526),
  (0xad7edb155b89ecc0f43e2eabba717c11142cf18b3c54d2f73b82957a8e04b89f3cc5dd3aa4d61e49e82e4781e743e605dc876ca5b4fc83bf367947ad2e17286e, 0xa86c5c0637c7df5b389849ff081f5619e9b156335b07e1e9c2e46d0c9dd358fc8f241feef6a55217865d014a48a65e4a3a3e22fa74d8d038d33883671fc1e5e6),
  (0xe366ea75a88643088d1ef6d40d527c4e44e3f07c66936f26c30be18bd7e8105c99c595411113fc8f28e213c12f8229ecd11374a71f6e325ba938bcb067e16a32, 0xc5a06a7f297c40d9885b3163c51779e0284a0a5305574a03591f4e193ea1a6f2486b631831185e1a65883384851f00f699d3fa791aa22e83673f13d347107e8),
  (0xdaa3a01bac81acd4cd4d7cc5030811d433f44d415bb078c4a1e31eaab919c4aa574bc358a05f00ca5d78e2e84a6eefa8b1560c6dd0c16c6d62af3eb20b9bfdb3, 0x1ddc05bb4f72afcf879490d21c2e235ba956d129486d8af8b2cacc3bb285e04af8f25119ea2b6d9cb37d48b588019a026048d647d0ca2aa4fef4dd417b50843c),
  (0x33125e04b4b8e10ca8a78047f67902c6994a1efc47068d3937b25cd779bbc5e7296bd0c8f0e11678d03bd6cd7dca7b169f26519bf1aaa2fdc44a102f14093821, 0x23893e9ae31a3e94c8d0dd67dc8a469f50a2fbe0958a7b8662c4fdec58f9aac161e9c4f1bf3aac40e406301604191165fe0d4f1d6364f84a0e5e50d216108f03),
  (0x9fb28ff964520758325e2c9a406eea9d393bd421bbed84afd3cb10dd1ec8beed379ca5326361e6ba1328e822c90a11c46b4953f6a5a116171d48f4b28cf8943d, 0x47390655745dbc31b252286f31f85fa4b54aafd68211863b064ca80f904d52cf028fd199b20c6cebbfbf5dc85fed058b4e2c81b5b0b6a907b49216e4d6e49ffd),
  (0x78a29dd3b7c7a0d6110c165eca9ced919b5751b13a63bbe2b8ce526c88ce41d6c4a67445ac6401893f7586c344f992bcaa48f3e133934dd4f7ba2c7f887a121, 0xe7b6db528b378c5e55339c445be78ada04610b9bbb109a9519b40b8f878267d5fe72b36771689b9349ff260558e1850f55ba0bd9e14d67977c2dbbb67a7531f1),
  (0xc7873e9729dafdab14b185876020fdbaa79b25798c489d77eacea1b2e12197d120acf06d53d9ab9f3a7c0ce2d882856b3db18c136bf04111633824f4103334dd, 0x2d730232acb2c478c85397cbc47b6efce33bf2f445a6ffe7daac7f5d0a369bddbf38c7091b354453a25bacf514581156538325ea9c69723a893ba558c2d446c9),
  (0x8dec0e94df3a1ffea6e37ce4df4dbde7abd6181d5acfd385fd7e5941e65ef6d4266dbd8611110e18e41764999916ed2030785f6078a36804b034d3c70fd54315, 0x6a2761285503a41413b70abb6aea5d07bf69c64dec7782e3dee241c330469c55a0ecb16fedbafe84816a8dbffb8525b54696310562e820544debfe9761636c31),
  (0x1aa5150d95c24268becbe056f0c6a386f4c2245630f4bf4575fd02fbcddeb4592f06e07b02e9275ffdcc378f2b5c2b798b6342226f4bdf6961995b1d98087d14, 0x86d961a0115d3d0a88034cbe0b4115aaeed197f7fb550a5cc2ef80a75fba19bd5784e4c73b6203ffd5d0854c843e9ea6ea152145d1035f917541f3815011320a),
  (0x38a9add9600add520036296bf0b7c33f0e9032b05703a7eea75a09b48773682eef79462eb5157dd0ddc9e09f2227aa183734b60e7f7c7150cad3e3dc75c043c1, 0x94ae6b43558d263b82a2fe650b9e7e30bed25dea3cd06592424ac404bc1551431cf5c86ce242e231d2a137d55c0f17a01220162de84dae2de40ca83e6a431513),
  (0x2bb5232d79df499d71f68552811957908c227591d9584226602efd3094b7b2e15adc519c781b519adec7e47f3b3fe31953ec5c18345c9ce3e6bfba260e56f5f5, 0xbaebe390027230a6a210e52f3ba9bd2251bafb6bea0492ad77a8c84c1f87c3114eeaf7c0b9f991fde0f5357dd829da933c53431a62b05087f5a70765c5c53436),
  (0xb617400ecd8e6082a7047a54ba40666ea46f563d15d63e2623f9261a6162c9e01f8c11a5f23055baf1326cbc3ff6a1c4f69cc2b549fd4e2c23f78885e58cb640, 0xbda2f8f6b5a8f40779d79b95d50b60d9835f2966cc24a61a135e76eb783572f83743d79c613c959831c5de5c35738ec6ac005b134f1b2e2617c7bca572ca4ca5),
  (0xa785cd2ab972b80467bbc9c097499436ba215853f590417b109293679a6ca3d805e4ffae6a5c9c120513ef431ddbed56179dc612c4b3f8a203c06485a76e3c42, 0xf8224adf609c2acdac5059c9cdac11e61551b65d38c1be1f4aeccc9ec5ac57c020090a17e5a493cb77322095a63bd9ef36c732c56be656cb0cf33470c8619ef7),
  (0xd441b523ff0bbad25fdf0145b1ed8c335d787f54f77c9896335ccdff6947e951e7d41d52bda9108d51c2802092b0b3cb13e124781946a4d2db955cc669269a3d, 0x32e79f6bd39efc4eb5154191f60ba6f60cc5e0ed922d5df4437863c6a474b6c04f0e5d4ba83bffc421a278f66cd1ee7dbf354e0c6bf4244e00b4b09730b9fd36),
  (0x8e13d3682f8789d09c3435632b4f2d0072d85a47d51d53bbdfcedad5668522a897ef66fb3b760d2d01f8b4b44abf48c675f6d60c4eee481da5896a50347bbe1, 0xa5d941085adb09d30fd479386189a574811ac2b2ca36089c8d9eb9e3d7730c5b7436de13e47498a6de1178beb34067f18ed5c47c003e761c6a243ab63589d4f6),
  (0x411b332c6a3e3ad9321baaed7ee137fe459fdd59efd4205ccc490683a760ea86bf33d89d6e1c0c15ed064b0ac96fd34df2cfd104da036a168952f9c92409efd3, 0xc58a26360421620190e691ccb660361a6083db10354246c6251079fe2c79f6e989561073d4986f28f54d946a48db88a2d35906e6cd537f42f2e6a46cb6521ee7),
  (0xdfe15b7b10396b173d115bca9c7f25375e87a4e9871b1a26217c355b371762f4782ed571ecb8673f92f382a998e0ded4afe4948cf750bfc6bb4f963339fb6f5d, 0x56b850b77045c3ab6bc5196759ff67ea3603696399882c0b114bc53d47b3fa198179fd43cfc25f254f5ab09967f6df6f599792a579a62dca1914c4d189e54444),
  (0xc0dbf813ad9ad73d065f259cc9581bf4891c9aa423e01cb8d80f212837852dceffb94b294e427b9a9dc93659f388101063e33bc16bdbb5f9b43272ad8cb966ef, 0x2d774ce7235f9768627a9a381c3b3fa5b221139a68ae2ffaad1c4f3cae6ce9c0b7c058e7468599776e79aad1fe3e1c94aa3abff468b5fc712a6b785a8beb18ca),
  (0x75f33921e001c5eee7ef602784b903bc04e0f4c93ebe700dd76dc3275e532fd6f52cf0f1bf29233269b2793f7d822e720ff1fd0e3e60010aee2e71e2c419ba74, 0xe5ee4dffb8506fc327b44deb5a1e9106935f511b281d0b60346397fb4637dfca426391e3a1997b428d763e9a7ee055997806910ada545926f57e9c4ba468136e),
  (0x48a4c759e9dc2682f3962d35d6c08dd25ca8d5a7bd69e8b9f26a3e4987203efce1a0067edb7eb45fa6082c2ede8d739eace322f2fd05e0227334e95b33bc19e5, 0x28917a0b020a1edef7e797b6398c06d59037fc4445afb1ccc1616267cbf1faa58b53853c9ef407cccbf465613ecb5f14b3b1c3dab4218133e901b0ff18c2ddb9),
  (0xbd1168950ce46a66c3f046236e4feff98be70c8e0c3fad95e0bf5e5b6f023a9644e6b153e59462e4f6d8ca42055cf71cf4aba3736fadd65987fa7fae18af4ac6, 0x4a981aad58cfdec951d88f679b5878ddef4e5d85e3ddd188d5e41848cfb2bcd02392e6db7025b6b7b5865c43cd0f5ebf0e96d3ed6bc60a69ca4d070a2a805a5c),
  (0x7cddb14a435096e381dc89bc45dd72011d6bfe464dbdb8c058db5bcbd48d5c282c41df71dba3d697850bcd868e24b7a26571f0a3da183b0bec854f644a09a128, 0x86acbc343589eb68122e3ec55976a2da3c27f29e327108c8aac582d244162beb16af71ad6e1f6dc0f0594156dbce9dba08ae185614c7ec5beb1ab21f0fe4b537),
  (0x65a1c57ff1291d65143a0683f0207e83c455f1b657c452649dd4ae85534990a35798ce9c7792f8374e619f88d690687bbf80d7a07eebbd435fe58df49311096d, 0x3f2c64176064d44f37169d6968dc4ffe020953f6cc3c2338786014693fcde58ab14e1ea48dff103a95ff5373075000cf20cf6bcc3908c86fabf4228ea446a2c7),
  (0x8630e62752b9ba417b7f18c4abb3fa46e6ffeb93000af2ccfd4c63108b5d2ce06809201447d8f861d0ea911367c197cc0291dc20c4d79615ec0a895aae21511b, 0xd447881f131de22e4ba144a0f1cf7694975c477f146960df6a73f7061cc628109d2875a0ae40953b60e01794af487e7a45dd0f7d2e31adfbd941a9bf2454692d),
  (0xc6624661e03302721cdc0f12f3c3d816a34e7ab28b49fe21e47fb940d5e99ffd32c6a310ea1bcc678f97c54fb53be5cc49a49597e3cb2c7a3454ebaefecdd36f, 0x492fc4bbe253d94758227880d3b6502a231987ba88db90dd06c9c1ea55301c84f46aa41b7574027906589f85813c5e1569918dbe4ae18f6865a1c09bf4a8589e),
  (0x205b9f5bafbbd0b7ca657ebc8f6b61a964a21c2458a07dccdd7fc411d6112e3f112076a43324130f34c84b9e78b72d042c82d52d34c44e65f13b17c64cda1fda, 0xfe88dbf523102308e61f626313598f8cce614420506db88afc53d8e68b01152071e602e2a7bd325a48a6ec637bc4cd8bae30150e4559bcdc0994173ab7c8aaa3),
  (0xddf5c3d5c6f6679e03f8cef5d63ef4d74952f1b7b5f777218271afad291046f420c428e9769436213982daa359efb47d7faf91f0e51620fa1a96701f8aacba12, 0xcf843bcaaa7e289def5ab89a1890f765f48e007c75520b3869e9544ab2b786b80ce6eecaf89f16166ddb7989ceaa7f7fd633d8373820f6afbf0f18491ee4902d),
  (0x8e10e4858e4cd7214ba709efbdce4cfceef69cfca3ab5eadd4fde47245fc678093374604d5e85abac7ad8ec3ff3de10af1655919755200cf14d8c63117af6eef, 0x9b7fbbf29e859d646f2e2766a4bfac9bdcac5a6b1213b4365b20e2bb7788a29a6dca845e48baf69a1f18479c683433bff190bb809e7da82d730f0070a17a902e),
  (0xda450eb2f0082c3d10c90dc656657ff5b37ff06af3abd6f9bc24d2da88cb6db72c0ad64c1b4487a97fb5f1c1fa0190a686667e8aa5c8d7af5d490cbf5c329466, 0xaf1851d9e34246d77ab7a44b36d81c7a90566eda1469c2455fd00c2c42cf58bf56e3371c5dd4f89bd577b3ab147689833aeab27e5f41e0d4f243887171d06a85),
  (0x9898c3701d39565f52de9e0f66ef25e5e1112026605a02c01ed8eb802815e0fa55db8ad8e32890606d197169910677496a8722e2823e3f31cecb04c853c7afcb, 0x9068e4233c2cbcfc3382a4998c1b42c97cbbc1e3a3a5b77f93f960190e58c4fcebaa2e5fb24c86a9fa685f15e5a4bea6b77eac69a772ec3b7e367ec3c31dd58b),
  (0xd534e11132877b46b467f0093b8039b370e03a4dc391cb80992d7d5daa23306820bbcb36a554ea300ed7b4a88af7ed9c1360e0d305ee1e33cfc59e5a93362c77, 0xe7160eb475373994b6f672a3ea5d533b8fc22906fc584a1b58e92632a98eb2c0aced7e6d2325ba145b28db9993e479826b58ce695af811927603244fd1336675),
  (0x32b102c6772783f9066091e25611c7a1d68a74026f4e84444a6fbde6c30bf388d40da06727c0a2f00fef902d5c7755f33d5366567f81a7f0a87717a815d04f35, 0x87accb109b1a796ad0172181a2a5989920a844a9ceb1323b4a3541fb73facf3fec55b8fddec106313364bca8e13bcbc38cd8a6840db5e8750a77efd1ffe54a73),
  (0x82119a9d7b21fb59950ac25573f79e8c243bcdd7f7cb0fddebeb1d097cc48602300bb2b3fb328b1c71a5f056dd25ddce5fa6d51d16377e2e988b73d5d07fa0a9, 0x5db54f845d49b3b7a45021d361a0787003d14ae35cdd46b514743d953155edd7741842d3fa2f02d74ea7bcd53910dd3d4102b1f27d0f16cf67637d1a1dfae71f),
  (0x9a48e98c86e6b25b8d3076b400c455d48e0c86a6f462ccd769260c1b505024e9f7ace05ebbb1c63c86acb060d07566e88fb4e582f886481c12117ba5d706cc9f, 0x5376f392443ff598712163feb62caffcd0a798b43720f336f132ecbf9fc124196a0e2795a845723a2c91e6c7970f9133b76bf16283538abebe2cd7d72f39835c),
  (0xfe1de242dd5f98b9578f58296e4fac1563eaddc02bb6d944f41fd7388c75887c4b0654563e1479efbb0bff5c511464e2289fdd66009f3317d3ecfcd31417e2bc, 0x314373ed49c2243a46b5cb2026ff55338ea1995b9d8387e1215a8ac4a985befec0c07cf868f6a16362802d4e69e2cace424d377ea68a0d3ac498e7343146dadd),
  (0xd7a56267f49b959d30b224c2457b3ae04bb1a472320dd9798c8fb9ad78e576ed66fd9b0e529c3e065966f87e7c4c49b6ebd8c84f6ce81f3deaf0ccb8a0baddbd, 0x46bcf686dae89767c500b159a1b02cd8b0cc2804b15f96b5f9ce5c30b3c271708960d6ee5c0ffe326184235d6e128f1429edf405251b0fb3d3b3b95ac959b06c),
  (0x2289de2f075602be2a66497aa06e9e5e7277c9ad8f4553cb54dd92827b9c4f9f93e41964e0769d6ae9c3c105bbf8970677c1bf50fcb7f3260820b2fb7d0caa14, 0xe65b37b37b2000da1835be00d8109fe78d478ccf3c441cc92940c429191ba92404213adad40c5827a90471197f17814a0857911e668f38242823dd3967a80018),
  (0x56d351b29aab324f6c24db1a46702e2bbc12f8db4014ac8157bcd37cba8180eddc22af93eba880147c73913e32991461227ecd6ee28d59f20bdcc858872fec3a, 0x3a166685f0765d0b60344bd339d333812e543e641907e976947221f977ed4da613d29d5ba2c07b8ef1fffe0a56a198e39c432353dc3b566d686eb1bda73723ce),
  (0xd29b859f2fa7981c7582b99ccad9333894d371d06c0caa3c3e1f5bcb7de338817f43e63da93ec8b2eafc7601bbe1bfdcd7d438ba3500891eeb1e69657e5e73df, 0xe81e28373e8ae5e8e545d7175333c253fb29924ebe1df53623c538f3902d85927c48a58c0c954724afcce9e7b426faa705979390319e8ff1f7f022fc91bf3477),
  (0x81b80aefa67d77f963a25ff3f6220d6db796ae881f1ca0a5dac0989059c16390b02c5f090b468e4a6c568448e24fc2574730f7f075d5f678d27dccca61586227, 0xe2589969be4ee27346b4259a2cbabecb22ec4feefd9a3a825e84e38571c8d4ee470cabb6946a6915f234fed4a78ede724da5af0eaccf4db085dfd3427b70d3d9),
  (0x13923bf8aa14d404a5c7511586695c1ab001140117c9c59b0b8ec274fce442e995f928088d97e62d60a991c12c9d28edf275e5738c0995aeb9d096f7139e8c38, 0x6a508651f1f85a616873562e069b96f56143feb2db32ed3244cb986bee42cde5a6bb6102d7d9d2fd7dcea20031a9e90451ac557dacaf27f1ec0623f6ff2d3931),
  (0xfeea8c2ffd3d40d8a13358c53d1a6c26650db6647315ae91038cb3509f3a0f2ffaa6bc71bd54f006fc5c3535058c91eb7ccdac7bb5b4206c458d4dd4d5d47333, 0xc7f2d32a2c5f5bf761fd1ac67c2be864da8163f46596ccb4be3b4c7a27365c2edf5188faab24941524b9f61901adbcff0230579d512853c80a441d9dd31d7b5b),
  (0xc0fc5a29e375803a6363e8b9db041e45ed07932ebeab5990b999ef274b6bb5dbd9bd5b2b410f0fcb470a6d8b17731115940ac7e052f5f83be54dddc943b37a3d, 0xb2f6190ed2c1f4b6769cd36b12c02f7d65b27f6e76e49452a87ac3e0efa7ca2908d2187e3bb9b7c8b16f9603693bb63314665535399114f1370bc9eb84246aff),
  (0x244002dbe6cba4c167c6135e1d2ebaf9ada77730144ad0251ceca87105ac9a9135318bd7557be605e7e9d87f0a6f1a511bae2e5c6aca13783bf11721195e8a12, 0xda0301988e9761541eeb3757a0ac4b405c1e232c6fd814ce03192dc4f619d74c87a567913a04a31c04bc15122673b1f455246008585e5117480c5858c94fbf7),
  (0xe35eb9ad6a98bc402212494512efc56d678161abf8a199ad5ab854132bfc9c69a55ec28fe1ad2f8311bfc7374476b0ef6bb87552d121e4486f03b26327b70912, 0xffe5e0abb07fa255fe22fb40bbc7d0fb87c73a2858b18cd12c4648f1cdb178be5717236685e718610e0ce0ae89237ecbbf49766a824c25306b167f8dfe02c815),
  (0x1a7fe6970b5f4ae7787a601675d42d08c7ea547b33aaff8d9e48522e0d3a2f5a5f636d7cddb5f65d9f71fc35cde293ac8d61da3e8ef84e5227be3653ab61ae35, 0x489625324b973be90d38f229b5515249425c7cf6db06c5dad339e2ee813e2180d692b6ece28a87bddb37c78f3328998e7f33518722ea0e326d8dbf2e30741667),
  (0x4263cfaedf46293ec1d1beae496cb5a57ffe031d4d1fb0032f1df749145dca8617853e32320615a15ef7a5d002d3b9bd14dac03bf9e015fef9281afb0b1ae447, 0x32d59ec17a28e854776dd639dcdcabde3d15029123681bf610b38130665abef232a726e9b625563e6960a6f38c33ffb0ea5efbe6f0271aa97d7729359cf32ed6),
  (0xe897a46b116ae87efbb363941ceed041d7c4fd827a461dc9a393197b86e7be2fda91f3180786b187f0e9ee42dec11c295c86e75998b7b8491db0b851fb2e20da, 0x44c0343328b61a135d4bbeec97b0e60f8a0f70728b1ce05b1a8effdeb830ecbd379d9886bf696a1fb7d64798f1bf1e15839b6c67fd31dc7e9744d05e1014e247),
  (0x3613fa0db83881ed155ff57e3cd1fbb1fa7589b32613d7e55c788cae3d5788f086a278d13b0ecac9cf47ed45d8186d3dcf610278659373afd4f82d67a0cd35b0, 0x621a524cf43c1996369f2e4e1597ee3fa2a5835247f50023c76bc3406f024a84898edb7c15adc38015dbb47d0ed6b384fc216d921fe10dbb1c4bcc5e0ebd46b5),
  (0x4f436e1e4f788908bff0bc703921c62b10cae88ec61aaf07222ec775e7de0f91dba2fa9912be04c50dd16251d3195d056390b4cf9d107dbfaa9f9a231a368bcf, 0xdf6413f2a718c74d70d006ceaa11f7b3d18a542adca4c05588e004d5a61e2a1fb50cd3877952a7d7ebf0982a809d96e6cc5ee09445f80ea48da39a13879340be),
  (0xa4af8a793e9a2824da3502df71873e7f9961c9e915e911f5c5d23d75b3324c17ce2e204c6a3fd3bfb97313baeb9033ef8cd87bbabe8e2fa902dc1856f59f359f, 0xe0b00bff7af3f7ddff58389b06d0bc7bd18e0c3ae02a160de591f58e7ef737fb4967c8d040de453539f15aa7f708dd25a8dea8a7dcb9e0d5fd2797e4e39d8374),
  (0x901180940cd980e8c0dad182341ff898abfbdbbaab17b8cb896b547af4ce9fa7c0338ec13c98bae5e66248d09a1f49f1198f7b7d5971fae4a55280303de0dc12, 0xdd89e022931bc0505e0149536ebb3b37e4de69f9247a9cd994de677a1897fb865726c4d67b3cd2edd7154979524606b127e09ee2eba1a4f364f20c12769f590b),
  (0x1dea03c6184e36e4e84bb0a3c3d55bfb911fcc12ee4a6b7359075d11daa99117c86722b1fe00e53a2648a8416ab3c5ec200d71fec74060e74098b5c408166daf, 0x9d18011adb9f0b66beaaf96cb1aa8c230e2f163965d7544fbb8d5bf458f026945519f3cb841fd940f4a163b4d57f7d373edb409259446eb1fc08c50b1941a5a4),
  (0xfdf7dec74aa349af18a6993056ff0c6e578d7034edd03da6b99e0243c9e99f6696b9d2d76690f1ccf3b836506f8b5680d3b3876d91a9f748f48a08d406f17f31, 0x93cd5de1e4d55617642174d4e4837e69a7434decdd0fca3c1108ce9ef82ed47eb7494b1bba1c3c944033e8db10ac6de9e505a8266870684a875e707d9c92ab55),
  (0x428a0cefe15d4a510079c83f66dcd516ae065304e1a8316405482877eca0d27827fb6573ca420b76268469bb610236fffa152adec1650a214459296f67fdc72a, 0xa324047d2b9dd36f00d5ffa2aab6352011dfe08dd7171f3f412fe7ee662bb9a50c430be56ef1e61f7f14398edc6715640fd740a6ea9f6a215a7b26aee6dfaf61),
  (0xb81fe56537a7b8f0d298f33b10c1dc5b8b0c36573a8bfa41a5f311db122164b30febfd524ab6f07b436e4074f7acb1bf2d864efa21ab9f60e36a68648cfd48e3, 0x2e59cf3c08954e77948a67a9ae44a17ae39eb6039dae69678f8449e317dde6cd3ac16e9e40b7d0565b2cc4cfef85e045bd81288821bdf7df039eb165af883300),
  (0x94a24ac4ae9aa432de1fa0cb70366484e34f4c264bc27ac90d7bdc0ef88c2c4a5b3d3872bf0b9dda3842408bc59dcb314e4ba45ed1a9d3a71914640b3cbc79ec, 0xf04fb73a201525a9d771a9ddb598c5fc8adf85ede80f6382c93222e3c8eb10bf4d65a522a88b52a65328bd261fb6acbe7c322a1602d1eb7f5f5bd3449dd136d5),
  (0x23c1fe208941f29293365007c6e072a6c1aaaeffbe045ce9484266d3e329d0535c7d303915c483a45e7c42a8e527d48d8b9e646abdfb8dec5e5721da6c91f5c9, 0x4899b0a54f9142ec308792560dbae1e48933ba3013895760cca4e20919178fd044250354ccc2b42c7a2401096665aa08ee55f0b87173e81451451d9f94bbf417),
  (0x13d314d4341526140fd0e2dd6ffe0db7ff00d840af7b5267e83ef6b99286ed776cf94eddc7130c1e573f3b2f85ef0742306afead8fd5acd2dfa85fe130978773, 0x1949fa8ac58576274841215d33c7e93b2ed4f254940d57474a7238a68c15b046260b92df4e7b4018022a10ae5c8e1cdc5146ed62b5490ee5281b3a83040f8207),
  (0x5097bcd5a21cbed30a221bbe2dc83cac342f210edbbf3df888ead2a5d31c3a3f3838697dce983aeb53a616f0c9b8d9af3535829e47bb82bee579c42d1302407b, 0x45b765cc2adb5f584536f783da5cbd732a6def1ee949e4b00ccacc706ffd37e1c0b7ef8327acc09fdb50f9ef9363d182bed96e49e8880a44561c37d2e3f0067e),
  (0xea44a134fc98e77d41675bdd17622e8ed2abb567f4fb7299a69ab4970bf8f60aaff17f50958a36b51488f7766435fd99b76e57d9c589221a88049602e45d0a93, 0x6b3633829e25fd41e105b854f14626a10de9bc84d8b8b8f00b06bee5d06c0c15b7ef92221d8231b3b20ca963c67b9fa4a253679803402f7cd15754184c1eac3e),
  (0x514aa297c179fddbcf5b1ce780353a391ed1f7559d62f2bcc3e985bfc20ad97b3843d92c64fcec99cff4bf36dbb9407eea1159e0ecd8b6f18b85bd3dd2df9869, 0x3bf40c2827060e2d36a156a900f7cdd704034f38b55f8d66ddd978a2577829b92121259dda7b9551d862361014132587565fba6d8c6147dc19d1617b91de1214),
  (0xa6874a73fc36590488a77a21c59127062eb42dfd4e1913b8140dbaaed7e0047814b2f054cd390d0645b8c755d82e5842b8759b34ecfffec6c0e44480c6896eec, 0x5c2393c111244b2ffd3c30c9e79aadd124794f4da47df7b2ba74a6b4b2f04aedfba7a79fe10cf1acbc39f9292116699b34875e57e44e8266fe44a52c1c25d1f5),
  (0x678b807050bd70450c1d40d990d5bffc6bc219ff8a1d2cea8a7ba247cb9eabfc48a6b0a4593749643aec4fdfcebde3c04cf5486949af7f9bb65b4ab444c3c442, 0x24e9a1103ed2d1f5c225b3f6b52935aadd9f2331d222775e437e1dec2ca7dce66510913cbce454ec6a7a14d9dd9536f8926630ad6cf69dae7441be0e8b43dd66),
  (0xe9c5f00e6c169682d33a6a53c83596a1f8ef9d55061dc3a875968c2f5e8d116784d946db5a10f860f3c847d06b2a71cc9140b9d8ecdf9b4ebcffe94fbcaece1a, 0x7c49eea39d2179e35df0641cb4b99c4df2261c5b0d5d248592b363c4f514bbed2a4aef0e81bd1ccf0de3026a783a673138f0d88c7ea410ddbfa792d1cea322ba),
  (0xea1f7ee0ee6e7ed14432f53a7373f88caba6ac50a57f04e0e1e9ea95fd0bb8d8245533f04e3b9a87e61436f063bd60777493d48bb512a65d1fd05e5a6f3e194, 0xb39c9bc8811dac647e13ac7c2da63c770d02b6192deaa0927f515d8e8b2b24a614f4508d36929db96cd247f18900e8787222b742658fba0025553be29f6f046b),
  (0x9aacc57a6d310625be798c331038e50457b82aea89c3c5ac1c8e2c57daa1074fa0d412b849e39093f019ad899e301fe90a5ed84cb2c890146e4804aefc2ae0d6, 0xad2e12f92aff5366ab7667ebeef1e72063c87f235d8d107b7ea2668be72a056b9829fc43de5001f788312393bbafadf90d484a0c247974eb7544c4eae83bb85b),
  (0x10060236a150b646861b7e6dc6564ec05c6eecf7f6c9733c5fd803c05d51c194ef0858ae9851a61b1884b9ead4bec1bc93ae2adbb21443a3b746a44e5557a3e9, 0xc2af04f896e7e9eb2919e2cae340e9fe5edc8ef985dfe4de0fb8a6125cf227274f72b812301981c36bbae927fe68f070c10c4106800b1e5bd34b08d76f3bec3e),
  (0xa4e56588e15afbacef67da3c530154213e41a61bca409579a22ac6550868cbdcc6316fe1180ade9e15dff62a9669a1f153372cc6a32bfdad976feff1543e3146, 0xb6b4edf9ff1fae80a0dbe96e95a0851670b196cbddd3cd5f20d2ca0f7fd8921fb8f0eba030101645db2deb8fc4676c1b0c423a2947f8674d92487f3d7c63c3d9),
  (0xcb18bdc8472d434c9d40484dcefbdbf38020e6c189034a97a124908a4fc062dba70535a934c735437e50208a449218aeb8cdf72254d84349c9016fc1af74ffdc, 0x9525e177a5293f40c10fb80fc7a4c1b993e9efe3357894febd630968b00136d6b87777d67d2769d724b6e38d2edda9e93371924c72283a4d320ad681d258a1f8),
  (0xbcac15335e90205a37ad0dfa16afbaee04b3d4287824f203e8150607e95ca1a89b4d8d143725d07d62b337e7a0740f154afd2515e51cdf2c9f525555e6797a70, 0x94946072343734ab09dbc77669a581825aa25d2e77514ad288617bfc580c719e3975feda4a455a29532c56ba16120d51e4c3119deb49cc3a0f1cd2e1122f9d12),
  (0xfb852b6e34a2a46698c926d01272f85750133549b6cf6e75d8eeed1a25be0387587f1fe1a0fa2a43506d462c47e9be72ee5a37f09ab6836d4f77f53734fe3e73, 0xe9e57479cc99a83a3d3c0b89d8d546e2fa6c54fa985fa7f067dcb645cddb6490609d3e660243139e71e8e39a09b697bdd6f26004801c7e3712b314428c83fa51),
  (0x299026186e3300920159ec6a78df3579e966c46daa643d21ca1d27e8e17e969bd41f3e1c36e1d84b97b3ffff920a79e101a642722fb920ff7f930adbe09e93e0, 0xf157fa31a4918cd4546403105bbf36cc560a0e76d7ac07cd6e2c2e5ed5624cefb37d34b9808ba410ed4424eac7f114e25e1585ac1ec92674c63e540199a3f3de),
  (0x45f20b3f715b12c08279e719fcae9bd50604f4e3e6bd365f165f3e06e2930eefabbb718bb9278ca2e485216cb5d8b3540c50dca99a271156696dd9a881c05b14, 0x2e120c59b7fea26c0ff93c39e67c4923dbd5fd537a28fa8e5e23e75116d37d6bf9e1e96ae18f9a73d42851f57098c9c5707c65db07815d8815f6f7212dacf37e),
  (0xb0a92838c5415e5db521f4966b329562c0b93d87e675395c39e4ceac13caa3adbb5919ac43ebac5ae921aac476a7cf55ccec52a1918d60c91769531a41435e5d, 0xc5ceb3e8b91da9a3d31fab2bc58bc511075120289672290212c01f3dc7a3d271940d74ac94c0c7c886cb18d2f749a90640f04579c492b8fcd25133bdba81166),
  (0x677de744ba76f982f73fffaa795c5ad4b1a9c4f71643a27f5e0ab965cb6b38bf73cdbe19087444ac3e20dc27fbf17f1a959f9b27d16aa108f67d9f6b1fb8314b, 0x2b56cbf17853876cbd457b5b0469ab823f0b1a18ebc1fee772818ca4cb1e8b8832c7bb515a28468fd50e2975690502dd4dd5584ea8a8ef37d8f0e26442bc9958),
  (0x4a10b520df41850234afabbb02bc16787d32be84d20e69d4bf1b8dd11a7692a6a2918c8dc7595acdda985c4625dec4011d7aab7e51b9e925ee94b1fab0e23128, 0x81043759d58c96fc4d789e19105bc76560d90d884c2813c0b8e06687426478606a1c9686a73a9c6c045ab07caee06be3f91d59c7665731b9997e2b845d0d07b6),
  (0x7c5723f37cc95f8d4cc0951cbad3d6b16317a78c7510239097a0c9e8ce1a85566d7a4330a3be10515c36efa49db82cf441a5d7766d124c964183c48d465ff2d0, 0x60cd96625b85f38eb5ac989532b9a605340e90dedaabc58df94d75afff040de578f3b2d1ab420cbd057151ed1ec9f995859a7ce4e5df29be36841b50494c084c),
  (0xd593b7914718fe3c21e756bcd3057ad355ef8b724e7d5a261e2dd0fa175e4f183571bf2d03ad88dc29575f3ac97d68a1bf3d53941d56832f5e80b2357ca6b8dd, 0x77de8e33e71967d5c67a246667dd9f0f09c4dac84fe802035ea6bb0eeae8d37e921aea3b1165d31662f3cc6b4bfca7bb618b92ee95e982c6cfbb50377be0ec87),
  (0xf8b94e8fe95684c4b300f66779e3ae4e9343b8392e1d20f76fdc7e16a9fab384d6652d9259903e249648ef7c4a450ee7a9bacc6cd501a0d882d58ccf69ab1cf3, 0x98229be24fab09d87981f5190a34d8b959e179fe3ecaa13a0b14ae493ff1bcfdddcf75891bda01838eada1e07eaa4fd563fa2638aa9164f5fc173eec852ad0d5),
  (0x3df676b53863bfdb17c1cff4f0a5951c49bdd8692d63d7e5ace7033245b1df7a6e5732135232151906b5dc28b98a109d8ee32967dcaaa8ea40674472d9a91f96, 0x764ead3658337584a4b4f5a1af0c3aadc053eb37f8683b3004ea39363115fc5beb405f5a2dbee756b1b2800612184a4ef6d4823a784159d4c3e0e67580220227),
  (0xd399021f09876609b3741048478304b1d47fedb5a2a837104e41e8993511ac9500c4767de2894cda7d9656fc54f0b44e47cecd1565e4f67776bd5b99c80d7501, 0x4514ffd4fef31069ba8f476d9ea575dcc9e5a287d62761d9a4c039a2f74c275e82de5803dd0ec2faa256306b38674a1a1bf7f5548c65bf4c87d4adb6a823551e),
  (0xa81745c4d9eb1a5c2265c2fc146c54c44a6fdd64c289400112bcbb7f0a542813c51ff0503246857e81ae8525c485ed82446460f7ab7b7cf21ac7d4f044fd7250, 0xf250b4d47e386332f03db26107dc41cd348639cfd812a2b95abe21d5d7930fadebce848b3c420f9099ca938551474a3ea0e0da73359e0032c63c2384b6ee5a9b),
  (0xbc452bdb35c33d845f48315513d8e3a50e4a5065d4e8f7c12d5e0ea71bd75447c8cde521236a6146c4ddff6692912241a7bdc19741acde848ae103fd58e8bf6, 0xfa9a681d8f6ef60c75cdcf58587485e58e64a2d7ab6d4b9e3b22c703796f830a726f0e2cf8d2234510e2f7e1e24a650105c6889b10975b208528e095044e6e8b),
  (0x2370176a130cafd1647afdc70fe909e79c89692968e7e51b176697b478ea76a9cf129857e8e677c309ab79ad63f83bd4985aebcf3a6c78015e7a703e26b7a93b, 0x45dc326fdf0537804142a616ce12d71d11c67415f82a6ad5c6346073e341720f7724cff3b6403f9286f72b8c61cba7cb911bd49e0970a29e0892a853d08d033f),
  (0xdfd865d42dba94fd030f9b2231766e5c3c2fb9f58b5fdb6599a2b1fb90e48dffe15aa5f6921e09ed9d6f8607115104a12f78528fff3b17d4fae93d21c7dbcb6a, 0x381d281a2cd845a54e1ad235eed89c18aaf8eecc3f5ed216c50e631c04439ac76ae5de7acb77222599bc5df3b73e47e0af62076bf6bc530bb00676e533092775),
  (0xb577e0441d646f240242eb6a95593b1cc01c123af231ad622eef4e351f9e22c0be3ad41e8b6f4edef292d636c27c372b33724c7acb813a16ef722e73b50675ea, 0xfae3f9d1969e840dc6671ff7d5ea5221a92c72deb6684f992f3cb45be2102b39cedff0566953d7075819b97fea215f2de723e48de5138c543e51d0771842b2b8),
  (0x82523ed371c31765a487a516bb9f3fcf2ffbe646e06a56ba2ec7ee7a2741010c132926300c911b83c6a9de480ae7d716df9a5afd9df71ca06d83398e2b3f7db6, 0xdaf9a63f79e89797a617a11b9320c26b380da2c5d38e2d17560951c1aeb145780e3d802148912131c8bb69fda773748e3eba934dd6db5355776cd369f2eef352),
  (0x33eb23e654b6dc98e6e86a91576561c3f0581c95ecabf2779fa49f24760ea35a696e7c7f84859f5f9433b0b63399265399f040f4472ba9301277d3d651a52b76, 0xe8105219d5efce97191a7d37f3f64fd1b747064e977ab0d1d80b735e98b2345330a7aa868c4960a7732f5121bd8f97fe1672233769bb7a8c0bc49d216156f6ba),
  (0xf3cad6ea6a364c94389ce687fd99a7c1139d08e544a0353ff052bd2f57f829c280b4eb90854ee45fddab10d7772766c7254e78bfe9f43302de8395ccb0a4536, 0xfca3875e653d4106f25e07d002cdc0e5852471106c8072c7158ba08b280f76bbfea89860dc6e040a594291e1a616589561e1f44caadc075e8286057080fa3895),
  (0x8328adc22fe9f57b2b5b788848984d2bb00d9ad83e3bd9cded7e45aefad3afad55431313e0e101b0942885f1de6483ca5796084b247002e0cd06576ca156caa9, 0x8a50276958e7153cf1c526b3754a9aead0cf9205a4f1bc6252a3a186c69d64edb57f64aa80bb0bd2155a854fd2a9a40733c86815a5801ac91f1054522ce38473),
  (0x490fb1f8027fbb10135b11872706c21d12a4b8ccee20a137d66f32bbbbaf73101bfabcac74e5b149765843e63015a043a3baef82e5fadd348ec80dd372794413, 0x1d545f62f90dcb0c9bb55f8b589623ef0150c481b18f3f9684d512c5930bc29230db441930970c5f07bb67fd11e898834441d636210d92e48af15b402664e52),
  (0xca0e424edf3805dd884a9eb22036e4ab20e69981d96f1ac521a6c8d79822cfedca0f24a9dd608b089d0c2989bef6f0590d4ad54e1f00c72e8686de3b9eea8a9b, 0x4d0e432123875e4f1c841d19658b20038d291f6a9de82cca995669f4e8b0a74dcd6443eaf0166ceec60d52636fd86f550d4ce8bd0549b1c5b1f04d7a3641774c),
  (0xdacbd2c73ec36a21c39bb42cf2035fd67d5574da4ada0a2d62a277ff54ea1f982f4837d1f7451e2e553a49735c13269bf6a2e72a1565ed0933f2a8cb1ad4924b, 0x8d86e8ff06c810e7ba9869870468538a16a2753905a28d8ee37479d8ca79212a9c3420f0c74fc60d2409322b2574bbc28e66edc8a03c1109b68155455824dcb3),
  (0xd61c79cfef608350c3fa6caa14496d42c5994904ee6d2bd8dd48dc8866883d1619583342bb4d0bd1eed5c5c96e92a5075fe2501e9ecf49388cc33e393e7e474b, 0xe5ca4e1c8e01bf2f8f9dfc998dc7c00794086ea85242eea1897f98d1b67cea2de553baa4fe3ed62c5bf5b1d60f8f0c6b67e7130e81b4fb962a8c46cc885bd1cd),
  (0x3324afbc06c08a4fe38450834b50d794d8accfd519eb007a122d43bb40c1cc60ab1418f4b60f6b6bfbd9145e2412fce45c4680e668a6f70b57424f6a8b73681e, 0xd5f28da396d55c057b4b1dcf94aaffb9fc71d073681a88e0e1289f03179385ffde48be881ac374393099aaef6821e3212b6266133a966c79ca2076b8e319775),
  (0x40671a5d952d1240f6fee4e0998db075ce96cbcd41208f9452b45a31e35f03522fcf2dd9efacbda750f4cf4f759be71297bf3810421db7bad867d1bcc7810219, 0x31b0b41d3b96596107da561c4795a17aff2a9501f94c06210102983b1d9ef190a93c4090d0d519b46a8964fce7c5f8c94d20023e38c9e7f1514357537330eaff),
  (0x3e443f730dab442bc2b3034a8cbd24e4781342139cf58222936bd65e97596b4244744d18ad4e4d3f24404add311deb5a26237ecbb733a91492e1f31f36f6a2bc, 0xdfc1038458456be48155a15be1ea33e34a7523e03ca91a1242b6851b5040a373f8365be9c3b2c7780a31fe59509ca34b4eb2be63063dfd3cd01051a0363f9120),
  (0xe9c71b72f637fe086121ce8835fee3dc9d8d5a35224e99f5f5581f92a4a1c783d2fd103a5ba3ce81c6c2119b87b46da007ff2e8e64908cc3a10302944b86945c, 0x8a17685a2d22c8528961c50332ffd14b9526e73dba6070207ce004cd14160bbd923ff36baf4fdeb7f24766c8d838e948f0ec0a593515816b713e1ec0f5e517c2),
  (0x6ee48684300efd33ef633dedbe1791b73a55aaaad5cdf852cdd64aadc6e223af54e6453f3c55233f5938afb663d1a0ab59c780581f982ee85e31bfd728f738fd, 0x4062c95853b22a13fac96d340ec87e7f44ac416cf0ef9e9ca0e3d4b33fa7ac533f4d1d2435d266ab2eb36855f2a8bcb8127ff32d32dc31dacba277ecab5d1351),
  (0xf1fe5e0e103ec06940492a6a33cfe517d581b1e562e45da8ba68c790026e3a9eab014188b5214b895fc82dacd2dde99eedb0a8820e5269d01774478ccee993c2, 0x907e1fa868c403ddc4aa32a6feb487459e601981d7aa8c6ff8d62644cc93747f1b20b20632dca85ffea78bb5f43b084b4c04205e4cc6f7a3be0ce114be8edfd),
  (0x6cdae828c3cbad6e9edc1d92c96538df030602f1784532857ae97492432861ac1932b9aca6c005dac197bd942459318a01bc9178939bdcb18dcf5b77c0f11b0, 0x2c204df62788b24dc6f33d3935640f00faf01817fc7666f2f597f1dd49e1265e9b7fe2fa62e0b4089f142f1e39691174a891915b734312ded133a4383e46cc45),
  (0xb16e8b9a3289d6a10e4d426a5ac362af53c586e30f0d8a705a5c0186709968272633eb57645719569ce97278ed283858c8563ded012c1dca4e6a1ac7009f5b73, 0x1f588c84cff3ebefb10e174d3734d5776fd35252c9b32fe850c24f59963381faf9e18519daa9e519c1a51f5d6788f7763fc34e7bc5ded41df0083b3d391b7418),
  (0x6af19155e2ce405135b62c83ee3e7d54f83ac8b4eaf308e4268e6df54e8c639882821a7c61affaaf8d4a8f33395e3a0cc1699efd7384666ed4e657842b65ca59, 0xc0a62827bfcdc2d4d77e75d6532f0d7d2a4093142c7f91718d148b557d801ef1b961217420d64e7389efa74da5708b90037d48fae5584bc593f8a0ca408b53ec),
  (0x8c4a241813d6111f2e74d4aeb07f9acd9e12bec1e50b3dda262f7326480c57c578844f691ee30cb7b0447eee659ae22483436a3507102e928829f582c6b37163, 0xb578cabf859208309b20c418fdb5298d5310e74338cce3e0bf86e2df29ee16ae19f26aa8c7117a7e0b80529b15bf621dbe5d3941a2943ab5d1ad5df0d3b5b0b5),
  (0xa1d8a6da50a3b0e297a72e305349e916a4d935e2812267bf06f80012ade47c81cb1be85f46f862f36576278fc1ada48b1a08a6ee3594279e95f6e7a48394acf6, 0x5e5df6eaf0b6cc13fc2bda67821a427a43834b4e001a7a18ce96e2a1b572ec30862859424ab8d0f753fa5172c7e512eaaf1a923ec4238e512a1d43f5e4e4597),
  (0xd8f6d120e3c54db6faa6bdd1234b81f1ef1c156f619623e568b392b243be2094caf1eb0c5eb8042f8725f1f70a3002a044258b7bf608adee344d40c5565a88f4, 0x93f5fceec1bd9f16c0a1472bfd8a92c6af73af40cd12be2c2cb4db26ac6506817bade8cb61bcfc4e9c2389be57af55b55c36fda368544ac88bad7f3e05d4c30c),
  (0xc6f02369f44fc352043cf582b66281c8d36c29edb71e6c88e4f43615d6700d1f462a773bf0d2d4a1a8e6ed4a49a50619560047a2d486787a56077b0ca7303b4e, 0x471723a6a2b923ad05e4f7435246212152e1b477f4dd7897a1b96da233dba3e87b8146d04ca4faf60920566845ee1a5a32e224d2f1894d0c71bcc99bc6f28616),
  (0xcb67d4bdb8579e6fa9cebdb8cb70419951f8e905bc78b372adce5357de6ca5df7e416b49ecf185326165f00e80529dec2639ca74295fe4723506b5efba476bae, 0x347b7377f168841694c4b39a326edb29d17ca416808167a5a9a09aa5e457698ea48219dc7874f9331e78cb0cec54b4f4909268ad1a9be0cb10b7679c1d344eca),
  (0xc47145791e51cae438eb0648116a62b7b39b9e19c5256d2976eaabaad6a2b0c2236a2a05dfc043670cd42c9f4a9853d1c74ec5ee6fc05c381ff5c71ed8fcb97b, 0xab58971f986819061312bf5c2da53006495a8d8a45cc10786180af5e6e58b28d66e82f1ed56c362dd9036272953aab64d85262eb59d947149d5027adcb85181a),
  (0x47ae582cb6525ad2b223d24257d7b099538a206ae02541a6c211811bf5cee343795e42ee004fb2b6d10ad5836ab132fbca3ebe920b158ba728a0140ad754c1e9, 0xd520ee4cb03dff46b1e1b4d4fcc4a8e25594bda54e2eaf0bed1646a70fee612e3aa61be6e2d1e74380dc21e4b02846ce3be6712c0eda12c4bdd5e7a3cad7748b),
  (0xaf11deeab365ab1210e29618a73d89f62264c6d0248898ed4883d407a0326f36aa0f4f8ee6da039cef311f70a4873cb281631b47c89f6dc4257b276066c89d89, 0xdc0de6f8d7d75b43881fb7642bd4fea716166394678a3a89b1520fef42289a6bc11d8fbd9dea2d514f5f370051d8a148f2929bdf8920bc285b7eb7dfa76fc70f),
  (0x8b1ff6c587ce4d27f3bf2fa2e2b6ab8c22026f5780a9c628f65326b7adf38784fb4407911caeabee53d356855fb2452fc72c939aa6c0c96df4c3f67e4b201397, 0x71de3af74fef76ea15135e14e3537bad69db4dd4e83413cccc8159e29b2445ee646e674a21e340c59bcd1ffe79983304590cdf11b22477355b5d3f3ce2284d7b),
  (0xe85c6bfaef1958a7f122eeacbdb1a4f0e88310c63fbed8d9a82f0f6cdcad52345125d2cc065dacc1d87db7a85243ad884126fd697a6c4e5758f37794874d3aa6, 0xf336da42c0bb33d67a15ca04b038bea2e4bfe14e053ed6778a114bf06dad07b0d0997e2c3feed624944a975449340a4151703dc8b9a282770d80e0c2e05a4faf),
  (0x9a3e3c80ba533694bf881a62f3e7217cebc9f4c7515425f14ef12b7591c1f97bf13018f36ab8416901e52518f5670122f442b21eac9bcecd6d6d06b9f738057e, 0x180a896a61b2f49e0336d367021175dbc8e7ea1246f68d2f8022b9a2edc8e681ff191259ec0310b1cdacfa511cd1155faf039175a16595b1f1252ae5660f161c),
  (0xd976abfb59600b8c911b0e5edd05d0910fedf8051daf90c6d689936fdf2c147d62a39a34f8a1c740e35beca57759accb4b7b2aed8e09ce1f9c8778d301cdf676, 0x9697d02ed8ec44317d87c3dd6c35f21c8b7929ac5332c16d79b4a6ca79ba52d32647933b1db9bcaff970c5b3ebcee16c99d0427a857f0ad2329375cd0790a1cb),
  (0x324b436b30c8a90459695d130c00eda8c3485d7e10d8e712018222219c685097d683870da04648a8fc80f1eadb54b53bdf3729e8f17a24b512eaf90126a3453f, 0x6268a45d623f3af20e00004e0a09ca349bd684fd07f0b6d7ad5836d7a36198dd49516a8d50f95b08c6968fa987db429ad20a6fd6aab577df3b6ee989cc47ff3e),
  (0xbdd0803a9ed2539b91a51c1bc4fa962fbb26167e91be24440306f2e430ee94c3d61791915edee239a511730f2c8ade646fbb2f7bd40fa741abe20dc09b79e552, 0x5220ed7b74c9c6261c7457fb0cde0c3cd7c9e42a9d989948b558b9318958bf8d3857f5891ce86f128eb86cecac48facebca2cb236c3352a026c8a75778bcdb85),
  (0x5e495bf30d633dafcba71f079600e519c0d928cc87d628f2e136e8bbb6b2c90848e913594f01f26a973fa9886c6a6b9caf52edafa4dc9cc3906c066b4b224e64, 0xef0315b6d183a71de5a51cde299e011df184ee8c023e28d7aeab0b1776931afe3f830a9a0bd11ddcb385cb84c238fa630f960016e6e2e297135dda4ce78cbf0e),
  (0x62a3765f17a882a25b6786f2aa9465da18ea298697c506dc41370aa4a2e7a78d6dc34123d5999aa49982f644691647e12854ebd6fa992cd6e8be6a80ff9b6ebd, 0x99e97038a3ab60124d68dc90865b2bc9fea35b11252bda7a49ae93e71fc0ad095dcd4a696310824f9660af07fa6516afb4a716bce52cecf7885843a7b6e067e),
  (0x1b97859e1b514b92c221de96659fba249f26ab35d3b54a89f659959e52310c0429b5d8f25a528e600346374d8aa51c6cb50202acddadc7217d35d0bd62ab875d, 0x1895525d3a34e4b744c0a9691525e63d29c9bafd699577220b5a5c04efa44e4ea97298a3692a1650ce3c03c17c79b9c45eb201d9656e750b026b1483b954f535),
  (0x2f36434ac6ef1ec299c962a5212d6adf1702f356fec7db4a9ed0b9bc0870ea89cc9a651e236157ba548b8ae78a32122c5e275e94ff665bf5e2d43b7f3f8599ae, 0xe1e8817994d79924e6aa24d86bd95d4358b72449b0ae7d1b58e10112d4fad0a71d64db3fa993ff3d6eed24a980eb5b16a773e6a49974028a0e5e9294f3ae7b6f),
  (0x60bb6758a5edaab8af41db215baa07caf483ea7db008c23d7d618c62c370b9f0fd09787e6047402cdf1ae1456a246b60d2c5557952f262aad4d821fd12c9272e, 0x19362ec26c0cf89d21bdc883981fbba9fd4d967820f706fbc3e5736255f8becd9991969ae1ed0dd2ddc2a297431f95fe8f2b68864febf446ba55c98c654c77f0),
  (0x8690323a935c33de44b593a91d5c5a4d6111c84d9f10e6a56a95859951bc9434559d126372e40edaf5f4760db7ff8d33fe8353aed921f63383ab984dfdeaba13, 0x38c31a8a84f223ad0a972f4294a194c9c289f3aea056a80dfee45c43ca71f3a6445963727463b00b1a07b2634d33dc48082ad50e71b51db7c3280a647c2b340e),
  (0xfb1481fef664f2f028a97ad3be04702a44545572df424e55f1d477e50100e3fbb92655b5f4de478bb73aeb7516725a293b18c821c36a4c638739d27b43dc1a67, 0xc25feeccbe035f587d28cf714457174a17dd6b05b907a0521497eddf0e5024c2a2652ceb903042261d5e215c939fcbc87fa68095d52139728b5edcb2bbba2787),
  (0x81b7d83b4f307a95b0e3ad0b4bf376681f45813c633deedc6a27df3342aea01a40e9e28dd98061bd2b6118e1c46b4fe23181539ce99a8ed082bf075a34381c83, 0x522bf4b7f308deaf80d5a850973c9dddf0094e8dc38f0fdadc2ce3418fcc742d0ac29b517ba8498e385de1005f417be89e45dc7e9a4d831ff8cca1d76216482),
  (0xc04064d3d3e12a4825c257100b20058b3c7733ba8b80e053dd9f4915a587a0dfa3af265b13d138077ea3e32fba54b1ccdfdf20b678896aca7f4ce9776c419026, 0xb04f4a4ba20f52de26bd60feb0f22072c99d70746d05558b4b2ba59a4c499606371d2bfe3062f3ff368159dc110f7471db1e3aa288099b37e86c6bd0f72fc715),
  (0x89336a511e373996b878fb2054418f60b50df4e8781be8b948b211c947653a5e42c0a819dad6f165432e8c8ee07ef50755fda5d72c48a903db676ee7c8c5c349, 0x3d9950f1282ffe3e7e131ba6f340f23e963d3f510e6a379635d99fbdf918fa29598827e67539dd91ad06066ac1f82de70dd19d9fcb4ea9f8fa285a2b87efcc48),
  (0x4d64beb03069d37e0b3b29de5e238f8002c5391e79556afae6ac6b1dcb61c2d3e93906c5389ee379e3d7fe50407d06f6c7273e75383410e1677196e73492e3c4, 0x174170bd18b65eb81308aa3e924c9383e26aa0e5726021a6b707a58abd1615f254244e819007f13d30e0656c75d63713c6bbbaecd4db2e3b35462ca8a77b38cb),
  (0xa9b07e30676762a450e45f9586793776e780449451f82c44278b2501c03905c9ca3875bf3254ac2fa135f0469dd1741cf0c980e86733a250457701eb490f84c, 0xf9136f4bf40bbb35287649046e446943bc11510c981d59680b6cf735f802f7b6df50ae8d1af65ffef3ec4ef0b32aea3b70b2afd57024ba083e9b39f1c34a1b8d),
  (0x3661f27d33d970ac4fd5d6ed60807958ae9bec0366fc3ae959ca88350e1709c3890eedc037cbd677933f1caebb9e2877303df15326c226faff72e02c5ea2b866, 0xb7d791ad15a0cafdab634ad0921d65b40f9e519be0d18c04715e93d913619ccb620a9a566d6182c7d15528012b45eb882be4cbb493cc1fda210a2f0e658d6f22),
  (0x9fda32b658014c391952297eccea5d7b4a16deb14dbbc8486ac97f423d6145678de7124cd86ea262b83bbd3030f149688bc2884ee739cd8c3ce2286a8479c71f, 0xb19e52f3ec628d94cf016a95ccb2be8ca3a1111928fd8e89001748a4107c45799029053ed8c315da32ae3d8c671398425e34d3cc65e10d172f52a7968fce238a),
  (0xfd2a01d38867553c5bd23af00a39f69cfe328e7af6ce7a1ded0bae69979b45ccb5c8073009d7891c3456073858b0aedcda3be333e1018d0e9d677370a0abd621, 0xf789ace754e2fdf89b8f42397680bff422bf25331b8c5959c9289006772abacd0ba920ac4c921a077d612485b6563cc95d1097dba3280730793e1f7cb8200022),
  (0xc95aeee6348a97c3b2dac1a8b7d0a09d6d60f8878610b7f38af6d4205aa2f984357e25e275804b4c47c0ae860f90c9d0434b8cc20d59cde57f2f4319b72284b1, 0xe2549e3db4c71f4dd4f86ccdf2338f026b298171a420b59a747663b0267a927f69920211846e62928b99d63a082b815652f3d1bbaede257ecdb489facef951ed),
  (0x20ed236074886b4d795aaed9fcb47b79098143881dac6f163ccbedc7f45ebbf99d25013d7d81e963b9d636078350ca518eac891b8c0b1d13cae8a5d6a87f4e85, 0xcc9247874dda8ee4d65ff958af6d778991252146503efcc2f17fdb87e7addd3434d6a85b51b472858a35ba4c6c6530fee852ec7a2cd3f5221d852c9931cdaa4a),
  (0xb851d7a21379bb129309e8772ac3d00c56b14e1e08aa9dece8891471b10d8725282df825a605d48a3acbef1a8fe2484edbf0efbcb29d7749693869a43c294c54, 0x7bc1226bd531b924382a957e79a37f9fd3ea77d75e7e4e6e02da1bdc47ebaf837583bbf18f0c5d928f6669b1302714b7632ca290614a6278d4df17d6f444b156),
  (0xb19fe165c766ed2811adbc265333cacceddfc906756d331dd14fe13792884e8e0ac70901431b73fea00d53a7932b6990f4f08a7c3bdf7ecb5e83c0bdfcb3e5b6, 0xffe8b3e547bda73396dd449e042b7429c7a91968fb5ffcd6e19a5644320d19a0a91f33541f989c8556c4342c6642a008ba1e58d60e36f4948c999de60294e555),
  (0xd9171b49a061027a06811ee1a19b52487f2cdb99766cc75f2e7ed55db79ee690e96cdfde4f90cb3383c9d68a9c5d2a68f9bcd2dab198a467fb81aeb080beb7f9, 0x4064419637ed30a2f7f2af3fed7f7dbf191bcda8038f9858881a8740cea478e5c98ff092cf6993aa2e02475b05fc47a7b93653e28b5f8224c1d449cfa94d980e),
  (0x5c98a5747d12e6bb017c69dd557369263dd43d3e8978fc8f05b79de614a109c55d916a50e5061b0382cb0963732496c046cd05fa12c2acd06332dc5546efddda, 0xc05e0d679945726b0c8ef375f484c6de0ea51648076271a5999abeb915b61df436b6e264b94b564d5facbd4906fd063212c45d759eb69bf374f5d9c6d2ab699f),
  (0x8906c4365f7d309fe2b35a9888be42179ba5bb7bd13973836f4ce451b5e7ae051cf4e98486ec700965700fe3efa7ece9898338c256a6a04966d6152a9bf3171b, 0x3b77c46731ba1b51cc6d75b8319be6f8974755445f0d7df550f54df12a02c532827650bea02dc49281af5774e866d00d7138aa1de64729a8cd2c224af6126941),
  (0xc249779da8be3711a3d890e5aa9f24f1f993be9b014fd4e786882845d8a4f316b07ebf4b892599bd447587120c6c5bb0f4caecaa7260be053924a36c56685404, 0x555f6384d75a9ff062b0b796efeee7fde788a9b8f2379fe86363d65ef1487e82cacb6776c82e4bf4b86f11c4397dcca2d42f20b8192fa144aa1aaeb1268d42db),
  (0x866d2ffec92f0cb94d9adcd9a980c29f8251dcf11498a4af700169e767f67d3a0ccdae11b2d1a43edf10fb28a88d246793b8e423eddce56fcc68e7de3a2d6981, 0xbbb518ad3f705750876163b3415843228d716a04c4221650f84a12cff8615fef093cd8967050a6aa396e33f2392c8d7a0b7bde5372fd2453d659cd2dcd4dc274),
  (0xd5c09fb8c3680a8345fcb40aee640c8d5ca620a89683aa2495f1ba63d86dfdce515e59576a78fa7bf7da09549c8bc88d90ed7b853dbafffa628f5f3ace655d1b, 0xbf96385398edb775318b995ee481f160b75e97470028f2999e843f350bbe3b97cab3e26ac54720d005ad2c67ec5332b3d529e3fdbeac3057c1b980ffc691f411),
  (0x446f0723761bf62e562867896dc877a5c57050c2cd22b7afab7832a32b5dfd556f68111d0d47cb489577a373216fbd93a335b4a4a9b4825220a1ba97da4c23aa, 0x37c3cab0c2759b021b1de5243179809bba61d68b4a31e84fbf264eec7a66d65ab697844d5bef30b09d91905c3e009eed27185d4d02f505c8b393168d0f3e1e26),
  (0x8bb64f3d168165366cdbd623c08b55e4c457535fc448b8d0665fa20d457bf621a7529ae21c73ac9397b3f50b880c2c3e15d6d52a1843747cf71b678c5a04e6de, 0x78ae924a167dee7580317df3c35a05db2fe58debfa49c8aba27b7635470f2399e24224d22b434e1e0bb0345eee22a564b3ae86a50f171833f2cdfdbeb80d6f3a),
  (0x9e2a5b5ca55328291b4811f96ff843582b3e4c70666ce94264abe0eb24b4bd9249fc74f8c29ea4d5881d95f41189d90af8ef68fda22b43a2176be578f7527c1a, 0x185131abc2fac45931ea31ac36ba4ef48607d0b3a73137bb4695c17bf80f6b7ef6b281179f37b6246ed07c09ee74ca37c71a2ef4a8cacb75ce577734e14a6ca8),
  (0x51dec39330906a843b391cb345e2e18832c7d8d81f5fbf141ad7aa474b49503cb5e787ac66443bdc140497211da1abfb53e594ab6783e1b66c2bfe4e8ac5fe3c, 0xe2a907bc1fc7f61eca0c621a47414e24991f992a6e7f8f7c247ec02fa0ccccc37e1a0c6060c6f9816b9cc90f8035953d10dc4f03619ee3db8ccae57201aa637d),
  (0x1683a088527008fe5e9a47bbffab7083205b701de995192a3192828205869f757458efea5cf827bb997e4f9301497a3466e28c145b5104b57d887eaf22ef8f15, 0x1c005f7328812d25c7e885bfd001e58d4084f870a9b397a778bbe6f1d7cdaedb49c5af27efa70bdaed539e515fbbd2de992aa28207e8b24d492c57ed4057bd38),
  (0x445c61d9ce5bd54a21cf6389874d2e39731b5bc14ee6d0b46e84ecb99b605e0789c1f1ae8f0282df20f997213e51658b75fc7e790c5c5f3da081bcbb7d19170d, 0x4f8ee64e4652ed388b68cd6d8845734127ed83050adbbf405d6ad14374aea2be30528765eeebe52febbead202703a93136eb3e96375e3ce59befb23dc6a32782),
  (0x31a65775f32830b6f33f555f01dc092fbe11a2a24795493d21bb66497acc9e558a11e75bdb65d3492801f3044932de66f678e0a9a09f7d6f72a2f8989b97ff1, 0xd8e8ff2fbd7c1120b130a631a8a1ccd1af0f2b2e9d3e7069d6999ea2d070cd321b7e5efd43cab80758cf209158e86da9eb7d74c485acc691e718fefe4b8b4a65),
  (0x207cc6cc0e7610ae1fc8023c183a006baa0cbab9426ccb2c3604b0b47327c226753f13020bfdf4ee9cbc923931ff2188365f9f5fcc4182fcd82f7a937ed31e19, 0x74c465f189ed574188ab5f9afe71d82354b9632658c290090674d97adbcf0aefdf1182abc1549ff745dd7763e4bb5960dbb365c05ea42ed9fe284b0eb143853f),
  (0xa891b8a4f2516ceaf341f2aa063f09fc31c7116b6673dd90f21aaf4897c5b3d2c57529cbcc106889ba3be3a2a385ff5d0aef684a842ef66f936965e574df50c, 0xf00f9b34c0edb2f82ef141c35815fadb48e57704397b42136c66b4df78eb91ee32bd3711328d8f09cc3a23de81adfe2666eeae1d66bbd2984447272b64933065),
  (0xeea5f5d6019bee3c8a305a42a4a1a86bcccb58535e66b783c7bd9fe6ff122c08e4bca0a7b26979140f24848955347f85dd4da87534ac25698c62d5f7fed12cd2, 0x228d7f1bac45720a8c3776e6d8ab8c8a3b9eb031ada60b425eac70476e959578022c33dddc166cab149028a38f4cae554af28577b71b50387a769f3d5a9b5b28),
  (0x2d6a39ac056c0662eb4c0206b2134ed5a8ad0bc1134f75f8cff6d879028d0f6c7e82846405d0d7f042537dbd756a2a89a18f7ff02a8fea372acc093b1028bc57, 0xa67389fcc3e01ed1707b1bd4663257affa1eebba5ac07016fdd1b39e0b5ae93e868c1c416b36716c1edff6ca28f95263be9dc442fc38af062c316ef604647d1f),
  (0xcf840f13677efaa7f90dcfcd0051509bd5ebdeab7ea650eee14236ca008505b57b81d98319d6da23c97bf4021f28458f50747f317bc371d31c62ef6d89577055, 0xb224457f19268c8824023322d4d350ef4b98353a703ba2c10f9af40f6747801c76aa64afa10dc66c9f0f66bc4ca48a9ad41527632c650737a811aaf59daa066e),
  (0x1617fe2993467f1fa0c4a73158f87941ea2785d63937da2084aae681a22c4e3493a05633029eb5f6c213eec9615669612315f3ecc1cccbc18f7b9824e0009be4, 0xec29d071ca8411e7450193cf9d5b8626a2a011b364889914c15ec910679baf3a08d85911f9cb4631462fc0b294808e3b77f1596995789026f6c431d128fb3c54),
  (0xbee767aec90f67eefed2d97d7bb942f91fbd09f272329a2b80b470e5b1462bdaf2bec4291658acfe34ccb782e84d17c22b20ae4ccf58419219539b7103025ef1, 0x3acd616a4cf68e90cff9e661bdf74e569a444ca78669266f3823a5e02cc4fc7bcbd864b8e7432ada9ed42953073fd301d6743a15319d8f1a06dd3945852794bb),
  (0x3ee5acad024d7e33960c9b1cc6333d64074b66de4a5f97905abe4eb76a31c6d265f68f42907b9b06545d96e00ba8f0e8f6d6ed072ded2db66a967e9ac8a3f6bf, 0x413028ace7cbebef395cc599bbd7a9142a5abe4a7667ba1584c70c6509c98be8247fc4c9dc22a0218543ab9b564b40349ec2f8073657387987b504931eae8411),
  (0x1796b9990e75b557eee9f5b2dc1454929f4b08a20e47fd257da2995764db5c4831b74c16f678f320c072617ed15dfcb36785df82108505b7b46179006209aeff, 0xc2ac119d9bf691978c40047c20d42dca98c3793ae88ba0dcb3098bc87406693a51ac4a80f778ab31508763ab5a34f8afe8b770ff8612c246e71807f9be276e7a),
  (0x1e63c581e0def0d9a9866b11d05254cd3d302b8ecfb9b7ed4939bc5e3cfb456df513fce4dc53d23a2b64b9697742b461b29f460918765914de287344069e36f3, 0x976c23289aab49ac06cfdfd6fc8ccdab029d243cce058c91d68538ae7944d398747827879a6fc3d62de382ed47f0ae9bc1de20be6b2738fdb98da31e599ce10),
  (0xfb192d5b0776c24f3fdb154feb2b4b354b02a1d54ae4f27393fb75b5f400448410aadbcef2cb525e7acd7016c8badccc4e5a06e4850a8ef4d48d5dda342d7597, 0x742b99d5f22aaf7f1ae237b6740d6192ddbe8cd6bbad4a0e1c3008ef1fec32140bf39a618bcb4cb6a133a64ad84df98f5fc8a39c397a799a26ff3ac5a3b51fe3),
  (0x9f915709f7f212bdd2fd0cd00f803ba0acb4f1c797e9d7e87217da6b68012513d2636a671762f9620dc78079032dbd9acc57fc264534386bb95f6ca42b4cafe8, 0x9b2649139bd40ff45bc815a6e3686015d48c789d71f20c2bdd4a026737e0bef88dd6aace8db7412dd379971cd8d7ee75a3d39c72bc901e311b150bd41030c254),
  (0xb3befdd1d2193a198b993f01d5021bcbc02f3d109baecd6fed9d07cc85640ed1762a005f0e3b8fdac23fef2b807dcf3c6b06aff601b03d80bbd9eb7d3f7388e4, 0x6d350fd0d1146b8fc17b5b6c73168d84143988fc65d5f1c245f571c6a412e8d8ee6fa9b6d28f805d7685b281b13f9147a4ca8dc18a3941606653673f05868c18),
  (0x9bd05ca847112d15e00a11d5ba549f980edc076596bbed67038f7ff0b15eb700957981401a645424ea2383e5e7d3ac8c96daff92f3c0a32442dbb4d5ebe29c17, 0x1ec0d3a3b54fca5b626e842e489efc5d64ff8dc07d7827a0278a90d396f2bc0b748bb78b83810302f97ee8f198c5116cf0c65419eb265566bb562e75de8fa8f8),
  (0xadbfac85f30eb6d7931a0195f29ef0c2d639346cdc33442f712338f5e92d77d9ff3462a547c9a0f13fe6f8a6d7e33c10b4d7ebad90b527e98989fb775fd6e90a, 0xdeea046473d4a08f7c1dc4c520a9246e07ee60f12df918a467aa91784fb516ea62de146d011578ca8e70d9ab2e33bd388a5d6652b0adbc43c6ab15f2868b2f3c),
  (0x50f02d47c300a74fe2ea360ad8fa06012f6d81ffd1d34dff3074b83848794ab44496bddfe3717954f34979363d4299aaa6598fc3ac445d431ce22c011e9d9c19, 0x9dba8f31b57899e8d4b646f779e50955525db6961cc22f107306dfee34735d45dcedd37d16837b723bf9ea4c98c2228be77dd5715f83983dc8b3c1fb7a290544),
  (0x7a8005c81c2397dbfc667b192cb2dbf429d353e4ab4475884406371e0fdbb7b3cc77e50d6f4d923a6b7bb5b4a5e1c358268c638ffad2ff4e1427ef5ade57c8c9, 0x13c8f3bb2ae4b07ea062ed10752ad8378b8b2240276e3949d944a804f35c4f39340aa473b3ce2a270e27a3bc38efe14494a5df67fcfa99762459aa06ddf2eef9),
  (0xa3ec8efb0a68940160891cce534610c563748b3206a7b09eaf2ca25b38d490ecec18f6e04199ac599210f9d019e2558f73e4b7e39405b5f13a8a2a89eecbe90d, 0x8ac6c1f51f0615e8b705a5dc37e501c248fbabf6f358792006e5dda53e9deea7554c4a416b5c1d3a2cf33db543612e92b82e19bb6ce45601769e980a3cead858),
  (0x7a6a411445f4f6da36a5cfe372299c952412be5d3178d30c4edfeb0bc908924c65a5fdaf21c3e4279426dbd8cc3aada05ea71041f905bd353fa3845e2bc35684, 0x786e00a993293e26e5afb485a55ed1a74a6574766c290e02f2ee6f7fda5f4ff46f4803646ac86c8431519308b5f4e18a62cc1d62621748644b0cc7d34efa099a),
  (0xacd90a867ce2a90bcb1739494603b5024f65be0a25a882a8fb89d4c042846878c57d3d984d1972a42f0ee98f918315f374ecaad74307c47861323575a6fbd9cf, 0x1fa19fedd5d90ab7741a8d81a21357f43c38b0a42bce99706a5009c72773afcbbd475e9ebfc74f941b106856af2628f1765fcc0646e7583a17ba658c69988e6c),
  (0xda72b80d60beb91fbc8955bb04726285501f60cbf3da0be49d1449ae75ff335e5548da7183e9853bb0ccb5d20ff09afa7e9a9504b52cc34d3bb505d591d7029, 0xf4eb14e60aa3c69d131cf00c21b3e98bf44bd203579ca8837cce9b7026c411f057472d999e966c198d10854a3f0b0e9686ae8b3477b193f4e58ef5068aa48aa0),
  (0xb54d1a37cfd87a842c78cea701ce3dd8b901c953c0c99c6e8541d82dac5f02833416edb6deb2e713002137d7c5873ad92871500a2857875f1892685cd7d68c1d, 0x6f433b8819644afea78f228b9256ef7945c32f0e264d45cc4ee4070d8c370291d9a56a8ea344587895b775ebcac54d1255eb983e176698e35757153038125148),
  (0xfcc92a86b353a6cd8cc87218ee9a2017fcd26714b332b4965dc5c89070afbb3d65f91eac3143d3ead4c77c6b0d702ea74d06076dcc429c12bd896e30b1e4d853, 0xd1ef063214efd6cf2348cc9eb1045c19f13237f4d1f661e0cfd665c024a852a0100fe8fa9ff02c9435583111091c7510d6e2d9beea9bb2805936854c05bf2ade),
  (0xcc42ccca481a8348da72291f50cedfddf22af988365c4ee83e73daac471300d3498ded8766dba6fdb31e57f7ee6e9504e5ca4f2619d8c02185e0fb759edafbbb, 0xed6913080bd8b10070b1442202781abf9e109b0689055b555eac2a2cf8edd1bbf41c9535e4bed56ca9b55a99e43568a02e51b8db8cfc3ba9578af68be2c8012d),
  (0x6fc922a4f6471a3d3c58fd2c68e648252902c4ca41e1823508b2c32e96c32dd190bcc38c3b0439a0d2a8832aa59ebd127bd6d2684dede368531a622b3a988810, 0xd38672b766f83d3f07cea0c3418fbc1c4c3d11647c41a3d52a2134e9ab064460c71ff763a8d7f6a8932c04a16327a4fa6aaefd0ca52f5f7121a5b663f2bf20a7),
  (0x5f4a6076535e5fbf722f51d4cc41546ee02192264498b0b12126a4ad0242bec3fdd83d766b60a6474629ca47b78eec31049574aa6ec17067c82ac20261998a6c, 0x250c353f74f678ae1e1115774b85a6e790f458e18cb1a1013c912f273f6c7adb142e6583e2a430ea10919d2a19f6c1f57defb0eb7bfda3dab83f10c0352389a1),
  (0xb2a24022eb5b17c435f64d8b058cdc26e554cafceb5a6fcf678b2a730ae8e5e3dbfa97262e33e568d93140740101dba813ec03f57919da42fa54e853cdaabbc4, 0xda6552e86fd97059453b7205b7898bafda2d8d1d2ade127ec6344470050698da9e75c9535a6c99a2d2cd5edbe6c2f846f2c8a2af6254bbc1ada1c9d5de2053d3),
  (0xaed542274b9ddcf0c4e070be362d957851b80b011469018e233a3589736b73e69c0042a960755efa1f06cd7835b09c47fb22636e696303ed1d3d812bf7cc968c, 0x2e1e1e4ee827e40a5e4daccc8bb8819e36dc71372b5bb7df3bc775f337148c029aeb9d16312e510421fde66e0af46c19b85b6038d7edd84d37d330e42594e34e),
  (0x7615c89f626672606a610a500a9e939e02ee6a82426cead651ce2b05b51f2b195a5824639b9475e0df82c5a91cac94d20bda9c2f47fb6e2a71c68ab82ea8803a, 0x5903f93fd9403fc7624a9e70d25f7759fa154464e558e942f921f8c3ca11bf37e7a98e80c7a91e423a9e99d5bb2e0d4fbca9c0b97a52f12a2fefaf9e41f61c5b),
  (0xbd044c4dbfc240d4df87d5aec9d7fb96e7f7760d92202adcf6458c45b2a2cb2e3e20388d33a89c5f9736cf33eca9c50beea67dbfa42fd40977f164be5a979b8f, 0x9ee21aa0b7cf57e0c2feac974e6747c8033d79ab23ef82d0bb9b66ebd09a9923efb5528afe9585afe820c2f101e28a81017aa0d121259cfa4b26f9c952686004),
  (0x94e22cb6f283d8652cd2be9ff6e6fa4b96911572e67bcb692377269ed2809d20529449923feafeac4541171448bc02bfdd6a818457f689477a6e58cc7b44839b, 0x9007e716cfd95b143f8c3907a2db1a72e9f7459014c7bfed4f39749cea8d05d68cdcd127e062fac8b89adedd0814a3d6231606e72002e3b91d99a9ff27e4e5a1),
  (0x782c64e7edd8813f72db8d6f17a972c6b82d5a720423388cf033ed5b6b76698f7580362eec17280547ab47ab5e1585d936cef79ee4ebcf7f50a6be7077d05507, 0x38ef056ec3dd2752ba126a1746bce45f31e1f4fa96bf6fa735d3b63423438950dfe2e78ce847e7963a0887e59dbd0a7333a8924a4ca27b87acf89d9b1c63d25a),
  (0xac7139a24c36ee0fc56f6b6ee7072b8a7e737e1997dd940ea2b42dc608c2cc8906d4a8f3bf293cd4023b2add5367f8376315caa17206fe18b1d14e949f128ea8, 0x2aafdd35637456449ac84afa41d1964ad163d68878abbdc46a94ffe036c4e4cd0fb2bcba230c8e520170fa6a37c8eb696b0cdba2e4713a68af9a298361f9b06a),
  (0x2f6452bd447c977e3837330c449e167cf6f1f08dce58381d5dcda1db0ac2f2310936ff562a9c3b25e5a6f180be1367bcded915f37793dd9d67b3341e2e8c1c4f, 0x695417ec2c981d46aa13940c651bda41e91cc5cc0a60e320ba02442a095ea0fcffe4e5d94456047fea22edfc37cf072549b1362f48d64752dc8e075611d0ac44),
  (0xd3605a4779ea745fb22062f68367fd86db5f995fec8c3ff6c9e121b55e600c4be08877c287dcdb50e42c047e029568e3da9bf696a87b5f4661b8e9b1ad3ffdc1, 0xbb2e4b57f16baa0aa63c29a40a0540404c43d316b0ef4fba0cbda4d63811766b3f1d633ba8640de66eb5deabec7455f64f5831850ce067d0fb353e1fecc27f5),
  (0x96905064815545080ebd8775963249dba80ca4d31ca41a3f1004ca65a1c643ebdd65e3ca4deed3677d8c98f5cb02a8e65508389fc32efe90efa2b252eb79760c, 0xefe5d04d04e08bf12fc397f3a65bdcd63db698b52fd09f7f34e948879de2c609249fe17230282e26993631f37d38a5e99d5a5849078ea3b3e7709f6ce6106623),
  (0xfff1a84a8462e7328055de6d3138d4de9a9587d5b502524eef9bef073f3071ff814fde097b00853dbe211a37641164f537d66c86607c50f058ce8cf786287134, 0xd3c66b5f99ef732d4fe6d54b0a736c5a1789cbe67836f16750e62c7bcb546359d622e766b0e4655dfb8ac29a0b5b624a22a1f40e0c78ede28886da0b515a87d),
  (0x80d8154508dd77728e8c454f3b0e586c1a64ca1b1a9a40da85719d7e2ba0a140d4566c31ed03c6a5c441cdbb4d2e0988156403add4cd2818e254b69164effdc0, 0xcdff858db8da0da59565866a72b65594b1c4eeda09d2fc92a1477553e239fd399408bc92fafc92e499e2fddd985c730755988695b422c1b47a96e9a2b39ded0a),
  (0xaafc36c4d6ed9fd22bf370d6fd6f3b6141a52748571669962d1aed94f5642c721b69e8f32f7bbabcd8ca59ec03178c390242de89bb0d634d2bdd2dab6bf0fd7f, 0x1f7691cf8593c22a5f7eaa397956cb4dd09c9dc8f9a4fa4289018e1b67af98a3fbbcebbce673777dfc0dd53703de9431d7b1219ddcbccc29bf120a2628e39f8f),
  (0x7d21dd2d925bf5ed487d41420216c2a8db94a92d6fe17834efc5329fe6495b624e4485c457e31829a541e636c8ffb6b7a52fc2e35a9c8da86bda1cdf71e2ff4c, 0xa654299af8f071a1cb4e49de8e169add1f8d0badf9fe6000bf637d203c613f155b07f7e1c437ec60243692179ae1b75f21fefaef4e56949423f7119f260ad00d),
  (0xf37401f0e24eee40dc77d4e028d2aecc1c8f3d5a4a88f464feee78d654148f7b13b3e411b092a6ed331f7fc3c36e285d617637837b976b714fc0aa0dd1d6317d, 0xdb82b8bebc7394f95be897aeb116ac93dba0a60d28beb9addb00a28515542f5f05af38f659c100f674b4380acdaec561202fe3a62f6d93c3b4787c2232c8b5ab),
  (0x6227069e9a2f5a5b411c802e0a2acadbd610dad0ff0f4b01185b4391c78e0c8b62ac3f06037997c4a2a0521d3347ea1d23040092ed6ffd3c64431167194a4f4e, 0x2a5c0765676a6b8553414685fdbcef7b63a19b250aaefceb6d6e42694977bac8cb2fe4014db8a8d6836b215e948eac68049467c4a3d4999b02071c68af04b9f8),
  (0x2588ee1aaec6e2b10ed5c8d0ebfd7ab70d7c7c2bf9fb691a49459747e2d22676f84233cd81c713a085f8ec2a5c3aa99fe73480250376fb443d45623dd8d17ff6, 0xb41059c9e4a6c58016cf9f7c3e0c82c70c5555254f9d754b457667df2f4431d03afd6ac820d05f8fbb9b5417adc61ac6da8b7906a072349ba1a1ea8c39984406),
  (0x3f4e82968a242f6743bc85679f91383889dc41e19c33245fe0176d7f378bf81891699cb61c5a2fb0e0cf09fd8901f41029362da291ca4e7d9ec0f85280e58f24, 0x129ddfaac2ba454891a9a95c3c2e59c2d9408a4418f92eb0ff35c5b7cecd6da954b1be17f90ea99dd05525bd1ebd53b43898c454381598e278f8007536c7c4a2),
  (0xead0245c05f949cde216978824e62b00086a0b54a38414f47c1a289c85b21348fc576027d978502886a91c72c9d255643e9642a2194c02cb6ac520410026ee89, 0xf0ab4919dc201e61e9fc72d142cc8295accfc4cf4fbe1a24a436c9e1d0948ee3b47065dec41344aab9460f64dcb9d881c4d59c8bc2e08f9b12533d95dfc2f5ea),
  (0xf2402e61ea9aa8638b65d5ce012796c68661073264d59e7b03fb5eec94aaa38af524a2158096bd349fe34829a2526c235a5060d337f7c1f5b86b11f8050c5bc0, 0x1b61db5414927f17d2708599903e79b252a446f5c0b6310d5924d0a1fade9bbca895ba28dcfcdbde0f0e0a0cf816a29167c81ae2896a0ab69c0fffcd881868ae),
  (0x975d91629b1a7b57acf14390f515a77d5130ad97012234eade7747a2d62b6d4776622045c7e6139eed764fb3bf417c9f3658c01408cbd51c25554eccb8286167, 0x57cff90a4cfdae75790c147f3afe134d0f22f07ccde2d60372305a00b81ba5a15890a9fdb667a84b8c560fff4248acd8779535a5089afa5f84ff3dfa7505fe90),
  (0xd430fe5e7f9072b373c57a34f44d9137806bf4ffe9a91bb86d655357f58e8a09e036d3b65497977f059aac326012adf6b7d66484e86f6dad48722c12d161752d, 0xaf1010855fb92d9f4629405792bcf0345346831b33cb07a5e9e4ae255c5b050e80cbbf7be7c71e2a0bf741581eed7b5769856528f1b38d7fec8c8076851c25fb),
  (0x85a7adbd98db19e335ce8adad57fe1b1447df9d837fdb0857c7d26e0653e0a789449383e3060bcf5e43afabbe7c1742d5def6ba82799729bf57a08985639778, 0xe0668dd2b65c8d294ea518a294474776ffe37eaf63979c99b95911128c2e87a09c5c6a3fca601789cda79da37ae56e4af27024fcce3f136e5a5a644e4c1db07b),
  (0xf230ecba65921a650198f26f238136dc600a5f779f49a64fe6db7ee76f905dd0051eb338dbea37a88ebe2894645d78cf9618df408405a601a07030350537bd32, 0xb88eeb439b528e054e29bc9f9a4b39ee22db02ba9afe0ba4650d0c9b898b280ce2b05f34db64af8a3481922e497838522dd6852f235ef02ed3529cc853b8fca9),
  (0x5b662c57ce33dff3071d5055392580f831a76488d6f49d078cd7f3ca81edca09f172805b654446c98a11d1054579a1fb8e3290152f86e4a9d6217cd6fa3636ef, 0x148590fc3c06c6603945279e7e8e20d79542399c20692fb0e59063eff4cb0d251a3e3c5cfa71134b508799240581e88c2d6d48f41481a8d6f541895b722fa2a9),
  (0x778add1fed2977f4e7fd6640544d3fa1336c2b5f31d27a03516b12ac2e51cbff3db59d1c7f620683c932c5b27766c73628eae3e53ac8e41bb24b8e4a65dec8b9, 0x5d8b2193b92e5593729bc2a36991d7400d0872d9e2868184f6c932b094903ff3e4ec5304393c92c1a796bf4f217d6c82f14e90c807c9116cfc4b9641f8f18f92),
  (0x19de67d8ad2d99088c8439d3c469264f8f649958c0ea44bd3b0a19547e87b3383f6620e26248fb0ade7fb75cbb11d8bd77a0c014a057dac9910b1791fb50c115, 0x41d1366f16e0492cba431820b5823f6a186fcdf53da644bd19bf0f7a6c3fb7abb02d3fd21ba97c70f60cee2cf224651992fc79a2e2c22f6007cd917fd415703f),
  (0x8e2bdb76cbcfdf0b2fddba003d66434494149327140f8f7c24bfa700a2c71bebc44b950a569c9f943b499cb0c43c4c0ef08a39a7110c9b326007e5c8fdff9da8, 0xcbe734c5e9c0ccbb17320bf655d4c718af5440d1071dba90ba43fc1f96cb0e5889a4ec264c6a87f2d3aeeea03db88e02e1048fcf00d542a7a7512ae6fff6b2d),
  (0x81b96dcd87eda4f2c299a6d54432e09611132ce6e211d6984a08997d60323d4f621c82454b8a081c4f5ab82275b9878e334a4d6d28e8f63868b75b4b1721c76, 0xed127b38b6fbb3a6d0abea5fab6e51352a063b70f31439605a30e42e60e9225a2f37c9b85d8ac29eddb2bf29f3ade18c7b258ef1e7fafc8d5706035a7cabfdd7),
  (0x2daf3eb3b2b7ae23748dd4bc9101bd44b4b0c0dd9d84256bf5115f2129cc7e963ccbef3032dced63698a903bd36b40ff994a5f13f35726d3cfaff6a85002e81c, 0x54c1b517f4bca630a5a301c7a3b5e94e92313627581d159e15e3f4def9fae5ba24c15c7b585a68e9ae2bdaebff5a651f369526326471f8f17de42150478cbcde),
  (0x548a5dcc7613ef69cc8aa1ff1fb2fe1f93564f02ead9d1e550c35309f8cc94933fa91116cc7de93f7eed23481a42195d477ab4c570c6c178115445c925c80267, 0x64e481aa551cd09c7af4a31f2c0bb162fa740ac135479a86208af91a9c9b864302c07d319b0fb848ae64012265cc4dda46ee7265dd20a718fcb36745cf61c9bf),
  (0x995e5f4071b0237d5403f93fd5aa2bcb81f9a5d1baf1de4be7e3d29752e4f455657a1148bd94272408d0602b803a8d3af25d1650ebc41f967af255292a2d2464, 0x362efbf5e04819c1da2ab37c869a7f5bd73229f32cdca1da5f66045703369e5c6caa45a538133ac591a5015c038ce7108d51b86f1f8010ae43501ec42c83ca94),
  (0x3b37ca38745d8350d76e0c20b6c52afbb1579b937782b36faaebd6764c8014df5a65d94eb7f44d14caeaf95ea38fcaf154765df710ee68e0520a7db37bf74cdd, 0x1746e1619379b1b18a3caf71bd007b1a3932e2bf34d9b0cdd84c85fbaa9814a6c6201c0ba03249743cead6f4501d6904906d5aaf842715169c930b0a6bc23892),
  (0x59d7364080ec77df2dbe86073b391865e9ed7bbb0c419a5803ac897dd81163ed8ecda6d642d6afce00643ad770d145e8dedc7a86dbb48d1a90744ef6aa1cb37d, 0x5d49b0111e3e6d0c01a1b26aae057bc5f6d25743fd5b26f953eb1f1ddaa9f9ba2cae05cae7f892a01ec9ef769b55c398633c515ae36f7aabcb69770dc4d93650),
  (0xc9055eea123ce8a9c97d736be3f08c6bcb32058065af64e263687747322ce9b776ff04f4fbd68d5907225928ce8c74907d5ebe4fa8b9bd472a86aedbd4096564, 0x103e0db973b96b9591cb08a17af7867a7f64de86a2e629f4dbd45c045a1a5da1331b129debfbed9c72930d008e2084ba52e3a418961af8ef02d4d5f5fbaf23d8),
  (0x832d0e92da3203d35b20ce429a31614cc6c8c3166e6e40562c89c1c3207698d41ee5c7e4cf6926e23e103c01c95223f2f5e7c9da027b69dd95ec1523eb2a46ff, 0xf316880f04df890f19865c14215eb35920b46e7ea760789beed6a0ab9aecd05cc5967553e459236a4a308a70ab061de6c5da65050432d4bd74f1254b685e5659),
  (0xc8b6fbc56ec93afec97447be058dcf46ff5a70d3aeefbc75d46aca1eadb9317bde35b7ea4b5deee2b9f8a4cc513f6e1b685a18fedd46879f87d3b12f52685ade, 0xa23943a6ffe0e80434c92117908f750fbc566db5b3dfb189928546fad7c7e3c9d3ca530337d8765dcaa4c3faf0dca515ba9c3edd6c273aca0088b8ad3dcdfc8c),
  (0x77ea02fa00e52f898154242601ab124542880d08094b83dd6e5b9e8da64088a4b2d6081c46688041dfdc48ff4dd6520a24cfbe5a9eb2befa97f6a79dc34e0b85, 0xdb6115b9cf60b36f399f5ef8bf6ba885289ba3df3228e51203fdcdfb69e73f80ef73ef6076fe637146ff50ef24fb8594e0aaa41dbd0ea076b138f075d85df1d6),
  (0x1af930e9cedc8600baccf26bb4f018cf64b0f60d9ed4047a60bf205b80f770f6fda3f082a2052e1cf5dc3c59278de19d5a579f577a0969f2b328c2400b7c01df, 0x9b1ccd108619ce542560fb38fc51397eb6e049b0a1b82504f1054c0ec3a1c35f6a39b21777e1489c6f57a0c3ad4ff7baf97f3ccd7a2862720094b48bdac206f5),
  (0x1f153e82d42c7a62352f22ea6772f22a14e6ba8b453a9aaa443812d633b313b2d6a962eed7c7d9f7872fc7fa222bc74d3de5fc9ffba379b23d78ae9ecb093dd1, 0x33fcdbce8ad9dd9a80663e953f8ddc35f1d564d2ade4c97bb342635c0382632c7e6ebf61e2defadda05d5dfc68a5d462d52f973e826300b69bde70b01139cbc3),
  (0x11faa4ce438aa1d27d5067112e686144b3cff641793574f732dbfc51d41a8944a79d38e31ba817590f5e2bbc27ad283950d88afebfcf74a558614b9adfc5e00b, 0xa7427b5cd92c03ebcd77465f58bea6b2f2dc3a5a6dc1684b397fec2faedb710567f3524d146844f08c2604dc54f2149d9e48c8028112aa3e66292618255e5522),
  (0x9a06533a30717fb3b8ee02496a29f0b7f594dffac87f38a9a5dc4140476eb4ed310c22ba12a2cfe8657569700eefb5d6a4afb11df10d64ab8e9eb0b9de742ae9, 0x179d73418cbb3f58d4ea848cc7dcc5b250548be558d9abb08ae3c75decabefdc8c72248d113d8e9bb2fb15c97c286933a2b8b36cf24405450e835893000b3b2c),
  (0xf38289cd1d94745d6ca05dc9a01eb88e193f0ee1c8290ab9f88618d98471f33a14a311ee75c88264cab626c63457d74c66c1ca197ec3ef315803717bfb772423, 0xe7ff30bf1af2ffcadb51ef39587959b68888ab8a272667f7300f0988095729b8b32f057c538a981bab6bf97398daa7a7a10608eaf2da945fbe90d41f41c82d9b),
  (0xade01d3ad516def22572514610fa0b9780be5c99fd72cc0b6533c7dd3dfca0e31ebec7dd48a23dc152deda15f8acac947fffcfe9fc017c4de8ba80151c257a13, 0x366c774a0915b232830f29e2f13e44e32743e3f75935f0e0de68f00fdb98f1e579827c985a8231dba6b67764d6f25311ff75fc68361fb98a4028b560d5bf4f5b),
  (0x3d2b23772e8211ebd241bf5a4c3362ca6fb0345a4b143b591aeb43cbbd3fe359f21a74602a01a63f948cb9b50549093735a3932c47ef1db288fc3859f5acacc6, 0x8befd5d916645f2d73b94d5f99430d30e5f4ea6e102e436c23c8dc53e450e6f6f4a5c1aeb5d211ce9a6c4725116e5cc41df915adf28d8ef74ff64d61958fbc9e),
  (0x53c097e0862e9363bfebc4b2106313bbeafa9e657e07b8756e688dbd52b19e93b71d6006d2ff1706d6cb4424c357bc179c6ff539485f2449a39aa9338a0ae656, 0x5a7b0d673796335eef387ebe6b5a3fbfc700aec6018a54860060845c66e252b6d5ba0b160f8b13656907972e8752a014aa8ee7c70dbb244db8d864066466162a),
  (0x4fcd85fceb3c74f4865e3300f7189eb6b4fd57e8e5aaeadcff48b8c33a2a08abfc395b4efcd9bfe015c769db990905985d2670a26f0cbd96c7d7c5c9f9c553d7, 0x1f4a033003b94183bd8093821da26e50172e314b66becce64fdd6a6d54d28c5b311ff2215a8bda7a00d8243bfa0834bba1f60b891a3392aca7c2bb5dfc9922b1),
  (0x126f7434a92ac59535c75a187cc3982c788963007e2ee3163b64de63f06b2a7ec64bcc2533c05f43a75a3c82daa505bc5d25b4ed0a4297581e10eba2ebb30b4c, 0xc1a1fd64a95dc3a6612d2383f40cc23aef86cddfa5017b7bd34e3df4a154d7a47bc3eccde553076d5ed459de184a459a3e08a649ccb06fc2971e16e13744bdcd),
  (0x11df5b0f3ff922939e2b1c784d749e69d22c244a2a4be11f7fec8dd5144e47cd392cb172711091e01e266672e430cfba57703633e32f7667226431f1bb1a433d, 0x444fd120b392db6a8aa964b1f7c06fe1901cb6dafc26a7c14bcaee9708a17bdac1a67e7dc5ff70b20bdff6c5b64e3c1cc13c83bab8866cab937852abb63308fc),
  (0x1f50f3fea77e4061eb164baba930ca6a53f21d86d8029011854a765fd0ddae17565b02fd43ff52c4f92d599ac9619024df5350228b290221fa06cad312a80ce1, 0x643c87dceb7873187f5ccff9a785b25c2e864a6ad4457e675e3f33093e356e750424ed86fd2930f88475260e0ac89c9dad590facab6cead3607c065a93726915),
  (0xf25e414be4ed26cdc7efa9e4aa438f452496b7ce2e181085f9939079e683fc68c87b24fbed070bad63b7ce3f515de9627d7f3b3db9c99c220f6524b868f90b4b, 0xfaaf66126d4ae796510df5ec38fa5a157bbca0597a6f5db4d0f37ede27ffd81d30705dd58b9f3687b5c3c72c6164053698b2e1c29158e38a8f3b9a37b9f1820f),
  (0xe7c83e04f40e32d5d305b6b031b6936bd1808908edf95daad2facf0149b6517baf77cbd585f56637ca41bbac0701171572dfc4abdd282fd15fd69e3d8a923bb5, 0xb8b2df79c40aa01dcc7b4ce3eb951b24149ee1e7d14207e6947c218d6d83ef61e976dafdf62072c0040987b673c7f9a4d0bd238aa7c4507cfc198f149c3b6f78),
  (0x89843c11b24bf148856ec5ab797f5ab34bcf4e09706ac66056ac94dcca8ff3fbdad85a55d21c6d122822404a3727e26267c235cee793b065541906de0d478155, 0x7be32bc3f3a1bf969faca23b23a702967ff43013170144cfacbe796a9af0d0687d5751d7994b410ffbb6afee7c39d86163027c2260c1c0c61a3b47dac30a6c12),
  (0xb9a87329443bab87275ea86c4dd971784424c56adf29375d38bad83dd5209f847b68609de1f5993a8026b212f399c08f4b72229ca2fe46c888fde164cb455dde, 0xa1a68ad38902ccd80d9ff01b564e7f524d7f06cd096ad2685d67d8df49ccc10bce19aab56cb0e3fee67236fbdcae1f0f1f4a2fcd2a40bbcf0653009dfef88bcf),
  (0xa8328d6600f52defd43688f3bba4c11f3b55a8c820c18d7ae64a71f78f42bad363de190c4db2c3fcef7213008a7ee62cfe7d7219d4a08e96cc6d1f50e694ea05, 0x9b7fcad4fa6c908cb5b8e585249f49ee42ccccc76601f28b99ebe9909c4859cf01922c844f3f6e193637004c395e560389deeb989798d798a294eba868874ddf),
  (0xfb3af299823e6ef3aa56d04bb6515bb64712f039f45654faeb5ce626905f848667cab43393de966894dd0b19ab4cc9c6bf9ca1e290d322df4ee7a06682f7ed41, 0xefa6e268383d132dbc2d5e7d7110a3d8f234868d2fd28bb1f08c3bd5b8a2d330d7b6bfd628eae943925aaaa662ed3af0675dda4741ef9e9489397b9519640cdd),
  (0x3392c877e71fd7e7ebd0dc87e58338bfd7773e67e85bed199bea4f7db094d58ceba7f490b832ed808aa98e6c6bc6bfcb332ba0dc02fbb6d61ff243b2baee0971, 0xf8ff780a943df7fd949bd1176fb0711201d5624f13a49a104f93c2412af6fc92faef3d56dfa6718d2f64b8e18cd96411c3fb76d1ca43dcdb8fc428e0842da77b),
  (0x6093fc80f389b5df4938abc8a61db58433bf4bef82cbc55ed46d89d5f30a3c3f25387ad672f313df7b6bf9f79c6b2935b104527f325897c73b25593df586638, 0xad17cebd1d4e090f74a3153948fe232e77f1e002dc13d1be03b903ad462c1d45a9c1a6bdf4fa435ad1506f0970bd4dfded5bf43a3c5b104f77fd82454b8c1118),
  (0x2b58d03a3270b078c991e72a5bb2c207003fb2ee542032ed7b8503c3394481ad99aad40028188840aad5f4aeabd01b4de9993463f0e5e54a95468bc11daeb5dc, 0x9b14e8ab7052a6ecbc57766db96fbd34b4c3cb8d9dadf41e0054221bb802dd77215ed25d73c4519bc7278a97657e81d4709457b6e6420cf74c7e96f904941717),
  (0x9ff3e51b8af477bf43718c169f1045c388fcd4aaf6e0999611ebcd775fb03e24f9d27e4aee55b4ae24aaf0b78e7e55e2578adf383d0d518d985e21d6408d8d58, 0x2554c5865a6852cb8515384909c81129cf481d16b726c985b2d6fdf2b9889be38d53a3304e4cb9e3b059ae49e7b22f11a57732f33a2a3e81c5c732265840518e),
  (0x98f7c587b16499d24140b9b7e2812b67e2eace99da140d7085893ce91cdd9763ae3a603b0462999fdfb18c39820a9b9adbfa8821bad879e8cc665c15475a0e41, 0x8101f98aedddc2ceb51acbd96b5faa735162d7e3d0ad43d4df08d4496069828fc0e63346e7209f2aaeb2445b0f2b985e70a7d25d21624e3d26ec4d7272f038d1),
  (0x99155572021fc0e377727a5fdf2df3711f0138be05dc89d4ed51b3818110ac33d36e8adf39105bc73e48ee96bf0d63d7e0929998fafcd4328a670ec8faa57ecd, 0x1640fa4460c29eb2d9c7f49233c62fbadff175bb2958bed6a173a49f9a058a5b3bbe055dc359438c4e7a857e1a3c3ffac5eb5d308ff3198e8a558806c696c6b3),
  (0x81d0a8595a041ed6ea58561a13e5a79092fa0f8e40b6305cb3d46d1462035e9e4e746962d3f17109b31b6458ccecb598b424f3515c56169179e6ea5c732f73de, 0x340c893c99a731e2cb1906fbe035d72adc9af9350156ebf91e4af11ccab33500d59cb23938dae6e8ea157a7b123d8da7474003e8fe713ce82e93b06b40c9bebb),
  (0x68b4654967c4868dd816b5972513d1f8ac0d2e1eddfad6c9bd81ea9129d5b4f91561e58c09f21565f7a769fc0e5a3e0730d24115e5ac5ff8131aeedfaa896c9e, 0xde2213ff0b788ac5bf69cf670a2ce2b95e4ddc355215c29da70d5b07e5e8fe4a7f194285311a9c2dd1767377ae50c8389859832f01bfcd50f235e3b3219ad53e),
  (0xdd37c905315de47e7981883548778187cd9b9cadeca72ffe586470b808ec1b92120bb4c58d7c3123b02490915bd4eba6e74e2231f8e3698034e3fbb3cb90a4f8, 0xc0a5fcd8f59d68227e2aed6283bbdfa4e567c7e03dedb93c9cd220d23ba4a5c36dc5847619920fbe7b9a9a96de93224eebea6afb5d5ad400590be24b69c6e14d),
  (0xdeb75020e16c01d7ee89787d80c71fd56ae305c732c333fddb7a09221d683aa06975f98e3c1d14191d7e6886fa93a8e5d887237f479160754301aa8eed601f20, 0xee2485eb8242ed79688c68219ae0db02e4e8aa88881ce66cb8481d09eaf5759f44627506e04e716e86bbde48cc5abca526c8355ee61f34bee52b256e472cdd),
  (0xad10fc1557c0def92bd48b21436089c73354f3e4c45cf3634d38991069bb671259e0dfa32de146bc84fc5d8c2a7c8a7f18c0589220d445553e840ffc1d2ef5f4, 0xada72e074643a48a637712c1a478b991ddd7cd8b6e0025da6147093f07255059632aa7f20285b13031fc5abc1dec6e4c926397ff85846408b50dde1e5990c440),
  (0xa5c70f684423c986687658678e5daee5f93efd145978e2f2ebd76f734c539a2884f86cf588d57bdc75fbf8569fbd01067d6d898a6ae309d8d7d4ddb5e916a57, 0x92cfe20b51070fd2c88043115333b2148f4bc480b646b2942147a4eef782309fb5171d49f9d3f4c3625592acf3c3ecab24863ef086a8f16cfd61d26379b06bd6),
  (0x6fada7d97b97321d86c7758b9cd0983b241e355e8ca6e500704b2e7879d894fd43857d7a0a5fead74b3533ea855ac32325a173fdf766353d68cf471802105077, 0xc49ed5f278f9f64f046f2b14e486828543feb615daf6aef848bce08eaee80fe7452c1364698e21b08068e76a25bb445d0d1513ee2c581c050c6c738a6372f23d),
  (0xf81e4d6e6d3d8073bc0bbbb5fccd415bdd154121464851f74614981e77c5a07ea36ca34c1deb1bb83932e2e66b06d0883d94ba5069e96c1b351de0eeb2b9dc3b, 0xe9cbc1c0905a260b7f685d1bebde2da0a8d37678826a134e4fabe37655525666665c7b9f0c1e04bcc53505c272e0527b1c4e806a3b6e8ccd3701e0ee73d3c002),
  (0x43d892babb18fed3caad930cfd48696959dac2c1fe8dcf579d28355577b631521e5e6e26206ece5d5beff2d9fd5223ae516e230bde42607ef83879ead09d5521, 0x337a30cb653d7e839d1eb589acd5d54400f4f2749202d8b9d2977cfba6db0280d0a810b031d0441118d3990790bf58825ec1d621d8970f576f606ba66901e3be),
  (0x65c10a122a7dac139fadb88fa5aeb946d00358c4c1729bd32eb8df11e8ff6c4c3babd2fb004318b04d613702400034aa2bcf64fbc18c97fbfcbaf1d51d0f96ea, 0x39b1d63092e0a0edd64292c1274bcd9e1e18f6615e3c2b47ec30d14adc7c8f43680c59b9731a0687df8ebc3c03295ac596e41abd90376ef14bafb5d233d9ab17),
  (0xe82f3b129248e9ce697e7a2c335291dd7db1abae8e0d5d5cb330f152bd217d1d5156affbb9f197f63a88eec64df85456d9de3edc13eb83992e0b1e9029dd7bfc, 0x994fbe18b927a4bfafcb168d9583be8be615fb7e3ccc10517e6adc5a9138c12fab3ab1ec8391963af05c5d27ce3c7d15be5b7768d92c852d77c3dc61a6bac113),
  (0xbb095534de5257255c8b94d57172ab286fd33ab3e47f91d998d36df0860f712f9876c54a37c1370536e53754b7fe73121c9e01a9719660d622846590d1da6adf, 0x615b8ef277222565ebe3235778a1d76c55fe27d6ae7ecb699155061a9c1c53bd4a71b1a5ff309ce0e6d4c7ef469507acf52153d593f9761907ff8ce342db281c),
  (0xf3654ee5bdb38abd6b76530074596a546efeaf81b7a51870efa95373e67da2d7cbeb2f55dffc0a80840168d5bee0ba995da0985b0df21afe896b3240847f9c2f, 0xb9c6ce4a3648c587566f1a264b4f7091605d79168bdc8b273953fc75b2737b990a4994d4b19d227d435fdae4dd2cf8447ba518b342cd21869e061b79e09c2f13),
  (0xc15bd7692adacd7b84c138cb5f659aa6e8f939360766cfeed00ed924376820c86202092d1dd9a215f002cd0212627f68a33100a393d5be91cac197416902380a, 0x87c61ad2c10cd4fde4adc593303be9546adf63009a670718c81b41e0c7533ce2f02bff734923d4c0a043762bf8333787e722e83221888c82c8b639f36d681d6c),
  (0x3691510ebbc008f5d2b5887be3a35a339ccad61358eb600f4cfd916f3e71c9e8b6cc482e577355498ebc55b2f3023a55adddb73540ec828fc67571130a77a62f, 0x7c4e79856f497ed5edd9381f7f75fff23b10e054df823323a2d8839fb3ee1903d283f25a5eed5d736579072f0b13889fac8966d707756af8c1991571a65db47a),
  (0xec9249f0efdea6ae9243eac34436086385d98c745bff890c62d7bcc33877a74e7e79cf431dd83bfa004d983222f02c7ade148bdc1d67d035783a2fdfa7795dc, 0xda6006fbd4bc014344bac2bd621e498902ebfe220d17505e37b158f3dde36704f4f5f3939a77303eb861693b8018d335f98711525de0e25812cc4d48ec638ecf),
  (0xaeabe8c2df799883f7004fffc2908ba4cfea6c35a2763189d0283aefd178afe8b7f1844ddef5c7f2c0db0697c9a9013cf8fcf5c05ad01556f306d1f048c09521, 0x957dd00e32b5b258d9b3ebc53d7d35da1003557c3b6303eec38f9ab6fb425ca81516ba21a4bed6ce369d4688fc22727cfce8b5c930445e4155cc5b89db6a72d9),
  (0xafedbc19cb77020fb5e2ebca65461e151a12cc92be88bc81b316a6eed06ba826727f7af9eb3ab5bef5adbdec7c8d481757b902ff4ace96fa94d0e78489e4c956, 0x47f695c34bfa23e350ac4606f9fc4b27fc6700512ac44dc9ceb0d5f11606973da46ef79ce9eeb53b01df24609248b4dac1a2088fcf415b7db6f5d7227e074a5b),
  (0x327deb037ff02efb1e0d4502df54197e70aa1dab3c5a4163e27075d08e13c8b5a3040dc3c18dc03bfe24f7a843bf9c05a14685de1f8d651c3b646cb01c63c4a0, 0xac37e631bf9284c6ea10a393ffe62ae77785dae8b7e98743d862f25eada865f6bcd34711a21a2140a0b6ea75ecaec2dafa72d13ca2aeb1bb6a97b021f2e0efbe),
  (0x99da30f830df7a397f2f33cbfa23b30c4b30c9d4da33e3cf7d2fa9ba382b9daf589fbd271fde02f48f269cda0ddc2b2aa552ae6ea5902ed00057359f6c6834ea, 0x4618eeb903c1aa10db8856a79ef19f5e13bf2d80eb093367e1bc33b46aeb8ff71993c3fd19784c7fb1de24f9192aa96506a50c0366938a908c5c9b963f147ebc),
  (0x94d520303bdefe33ba96a4b4d5eb79cfde7e09816ba239273d0b5a0d55c3b37d26e1b3350b2013b013c33307b851202aabeb50896ca8a7d91256352fa11162ca, 0x36b6cbbbf1b6242053dda2d721d84558aa5efb061cb1726aea131edbcd3a8ac6c276bd733000549d261e9142455ca0a2448ac1309295e6afbce057be22aae0d0),
  (0xff1e8a1acd9537439ed1b93ed9c781f1ff94991c1a13a6a30eb72b3c0165801d89d7d1be7d71d94aa3c049017f7e291ec2c4f062c804824bcce3dad59c46735f, 0x35ce7eca3e278136e4b3efdf35d955249f2b29d5a98708c718f3de974bca064fdd6a5462d294693bfebf316f29de68cb3173ab4911b556d3c396e86e9ffceb77),
  (0xaf735b39fa69811bb0ec92dea6db47a03e5207a42636ff21f1edf5f1f3bf276fa28702522d32abba3530338be1f0cccbeeb07a79feecc5b2568071643ca2981d, 0x228e13293d76969e8dc30c9e838008329b2ef8a8d7b6cc70b0a54f8fa30cf3b71a9d6b851798a702010afdfcd468a4bc2bb0dfe6db9416c9d135c3e92663dc8f),
  (0x1337177e41aa99ee352f6215ce8a9faffdb98fb037ec2f071608b21e076898db5bcabdf3db0a53493e0ae44c0fb5a8b782d6861e6dd4eef77cdfd6c50e5734c6, 0x160df60a23c800e81c2a52073cf17e470540b2fabb08f274e88754fa10927133fdced9064f1311a4867052d0d55549682aa6fb34f26dce2d8e9989870a97f038),
  (0x41cd958839ff74d32a9a4a43bcdc8de095f07c43c885b6b5d9003b60dff705be24641ac8b515ade8a6f73641da9f113d68edbf3a901a58f6c526bafc9993fcaf, 0xeaecec600134d70d61dbb85bf34014ec988d92d0389d19d7baff29e848b9dccdd1b29c69ed77cf6765d5cdc60a9d29eca021b30ff5d0560ae7ba867bdcd13e72),
  (0x86be064f522112e9044b98b5b0ca8ae61505aff6547cf92cc52ac679cdf0f5b77daf168d4f9324bd62fe0456e085772e380b70036ffa382618ef9954dfc1f92b, 0x1ac08731dbb6904bd1b4db814b38fcd20567e51d172c7723c89afe64d357e0429805d2fc79a4cac7c942498e39c22d9b31f486add23e7dada9a725b6a324f527),
  (0x67fd7f463f3bfec97355b2d87061a365c529484e37ae293d75edff837ace340687b359ccd7daf604948a1fbbd68f51e1d19083ca4413bcb1d5339e31722ea3f8, 0x768c6844f95c2dd896c25c1acc00ad836e00b9da10bf1f81eb380d038b0720507eb7b903e287df37bca83a26d0688a51a007f08dd190b8db7e3b63f3716fc20c),
  (0x608efedc218e8d43a6b6635477a36e869f8333adbf3bbf3dd8eb669a60adba5dcc09588efecd996f9e903dd9f97f3b0c8e0d706564eeabc07004710a43d8ed2e, 0x8b46d4e34b79094727aca67c50461e3b5339f12d3325718bd6d58be3f97d0346fde9f07ab8455da9074dee4887ce0ce1a4187bae274bd5c63fed8179eb4eeea9),
  (0xc70b0ddd3b775a9906721090d603c5568c5f9be0f8aee3418310c38b63257ad0a7098aa52a209d0333927edd355e393d5af013619c6c977f79d6820a801f41a2, 0x85c8c34497c286d21971478211fee0f372f7e626eed8d0d000eea7be7a26695dbe62e770d95238325acd3db8ddda06e84183b601f6d7dc7b0f06543b9ea92004),
  (0x233871fde315b831bf0b788506e2282a63527740f51ac60cafa33cd9e5955e173bd4926d596da1c0d860838e1aead02e68ede09a8504008d247e646eb36efd03, 0xd1e136c90541ae203cc90fd5ee68a1a455fce225f7460013540f0220b26712cfb66c173651bdff04734993d5789b07e085e042eb5033b5ad269416eead9bebb0),
  (0x4a83c3b5ec9004f32d983e1b5bbd6d759c55c3260f0cc0a7507e6090353305bc286268ef167c51a20d6d62ef2e903ddffd50b22f4cab9d02b8709d30c96a2373, 0xbd2f0f9bbe4427d99e0101e306a26eb91e77beda96f7196ad7b7af01af52d85b441c1f2ab77d941854b36deb74721939840a38c73152405f9810c025c1887d20),
  (0x8a19ec1c225c29bb3642f5d07693455e5a96fa0d52c96572d1441c66d497407796d5f4a4eef4dd6bade7cce76ba345f60d980bd834da6bc2153a916d4d201a7, 0x89c698bce4bdd72afbb159e0938b892d42ac84b3dd67c8545ffa7d875c50e8f10e1f5b32675de863c773b5bf37b16d50c63af77a82ea35e96be1f40f51b68ec2),
  (0x67da0745729411aabc590d2a4a7680be3498b53553ce7b73ea99d02f1a85d0f6cf0ecee1770083c3278f8ffe720ac810a3ecfe46f5aa262046285eb9908cee3a, 0xbc54805511b5a3548a72e579223552059536f6c8c6a774618ed2540c12daf040965e3df5ac8b83036ff5c52da139f8ee4e99c81b734475bf98e92e31d3981cb6),
  (0xa9732e6d4f2c141bf447578c191a1de3a7b5a80ded21d0b101df8cbe9c973896ff922c49d770d5f582964a38738e5b8b53c95b8524b10b96b971d22c71711ba2, 0xd0083a9e58866c07f478e6f1edece83d44db29a4604c4a7d700fdfe779e3a9e8f6425c2ab90c39ebeb1bb4cc746da5cb68336c0ad9cd8c8c1a5cfd692b26bfee),
  (0x696dc838c548c2bdfa9c5eb5e48af711303db80a720aa0dcbc3168f93e02c6166423d523413d051aed4793981ae7a74bca7bddb99ff12abdff37d1da170cc6b8, 0xe3ac91c2d36fafd6b4117aa678ee258bee0fd63c2c2f8d8966d8e60e9bd7e6eeda560129d64ebdc5b69a449efa5872ef2e1a4f3c08cc4bde292011cc0cfb0687),
  (0xa746a3128847903fa440c97ca0c67446c2b0267241772cd608feb35a1ce88ed08bbb8dc3d15375b94921b83efde19858614f931935bac67d6ca92d68addb037b, 0xad74bcab3d939908e2604f41d8bd3a1eb16326c15b68909a8059be46e268401d7c0ee4dca26533bf673c9f749dd824a20d8d1af4ed3d35b03e3badeb7d9b07e),
  (0xb2a868992325873797f400efc963c8a6a203ea050ee3c38792c4a8c3a5cb67053c39a5e1b102f0db9e448de4bab7efb077c699d946913a4d4ec31a83107081c2, 0xe9e86481790aa9f974a22abb2a84a5ca440c73ef3d1e573d2954d5eb383589b8983c420004dbf6d72442c23cb8cbc0429de8328169a7278b2339ac223c8d07c8),
  (0xa9580b7bb90cae20ab5140f20050bed438873e03c1dcedb07924ad4a12e401ece4f6bd01cdde33b3b1639060afe3a5b25fb3fc91ed373ea5ebd48ce0cd1ff7e3, 0x3b7d2486d7f224be2a68e7a43a4ac42043d237f7aaaf1c4d473a659d44cc3debb236440496d8207179f2e76d4da400fe64a4b5507cde4e509fb1097b07f303e9),
  (0x154a4732f64e5f745d2446d4c54dc3750b2120a5dafd919d0437f8d4fe80227bafb90242768f4d1b9c11b60514c3281bf5c5ba670f4ba794c8b9f454498d5daa, 0xdd956191b808ca2e0b80fdba6df8550be1fef4be385fdcfdbf89a867907ef7e02313727cf338467e6ae3cabd3f731fc9d977929b5b8920ea69d09dc05bf870c8),
  (0xaebba937d53e809a195de31e06cef22f62cce35fd5b8b912d39696327634620db1633b01f3d40b4449b2eda28917a84c16b46342fabc46c9a5ea68ad3fe5186e, 0x4d4cdabe58507e418a8099a2d976d2cb88be6497f62791e04d49f1941e428ea550eed6bcf0880d7590a32ec3d1637e5a9c4ed4db0d059948082d04a2cbfaa2b3),
  (0xbf0d8f00c4596348f4f9b90c7e511733f01d6011bd871e64e840405672198439ebe4b3c2c64c73623766793bc2a8b3142be52ac4b901afde30190e499d98c4bf, 0xb798f798dafafb94132afdcadbf2e4a304e7ed0e07f621b15ce3077bf7d9ae7e135b9cf2fbd4d237f7404fa6c7e3fde200b1d71449d94ded7dd76931d40897b5),
  (0xe8745d18fa4dd068f48a4efe3c02417ff80a0ee5e4bcc185246e36e12181c097bebac8ea3768ac84a0ebe8584d7b9bae9a49935e8d388cdf328fc677463ca87c, 0xc62d94ea6847b2d9dbbc6eb44f6d38e5a012de5cc5d420a94d583859191310254b57709514264fbc716df42a14e58d08640de908a803ba025584fdbcd6f3f10b),
  (0x8b9bbf114234bbcd84c1635c18dd3f8fd18502b0cd430074b3371d86dbe208d1936c25366b2821599d298c8f52ebd658372aee444c7c6c539acb10e0578411c6, 0x847842ff4014edd068b1d5598fc2f5eb200b99c4e990aa4270967aea5cadd933851dbd5289021c994f2f38b661cf0f454841938971f4ec10bcb2b21b093a7fb2),
  (0x5acbf90259affc1a8ffd0063fed987cca1edef01057ed65e22b625766e9a54208f37cb7ab9b36b4b364e14b2ce3402898e3f4e518eaac55242b2d6a0016500ff, 0xbac2eb8eb581efb333567e07a1390a4ee9eb04e773936d1a501756a769a2f841b53fe7676af6a9f2d28f7cef12f7e215e85050260b5021af3cf3c013ef5d8a34),
  (0xaa710c706126a17307a06789660ebc0b9ecca922869cc7f84466778e8ffcc21b36ff4eaf80fc8ca40ba2334d155b75b4b5b349a1d2ad1eac244639aee5d9713d, 0x8cd75c7f25e6481ad440558ba86933cd090be9c2eac1685a1c3409d6dc0c413f3833404912daf43467bafdfb48847d318d495a75a4b06146fd0ee9d466d2ac6b),
  (0x79fd5e006d89d60af259cdb7f4694b80bd1f4fa5322748f39a447b0150ad73769a826a8cf52ec746be1619e964dbea93a095b520517dd3e914f69f89b2930cb5, 0xdfa65630e0faa955870a914046c6c9484fdead00e1e5da61c07d02bf664de2025c37159d11cdd794dfa3e6c24ae4669097a5271da33f6d2f15a99f2d20613c48),
  (0x8281188d0b8ff11c2f749491e4d5ac068a12a0fdaf7bab1fcb6569d580434e8b94d6ef12db80c0b8ef9aa2f5e172fe575ff66a49ea558ae0df79543190010008, 0xa4235f10602c4092e3f10b759f2fa4277d6cdfca53f5740dc375a923b94c8f3b97355806988b5487d1bcbe77ff6804c5177ab9115ab570cc3dbd8e7d028a1972),
  (0x93eda490321e62bc2079837cd7804a3b93d71b1c5456bee268420e874d64e405af6df75f2d6dfd2185a3de37cc078153926936b7ca09024ba9913c7d530a0840, 0xc9f5ba2ff6791039385ecc53c5ae5ab9a8290c4fb473e4876b976c4153f5f8ebdbdd36671c3a00266678dc40e8b76816b9665e8b50b6f61bb7ffacbf6a273b2e),
  (0x33383247a3930b839f1a19bc404b29d045dfe1556ac7403f18b95ac2064fed6261be86ccbc1b84dd629c83becf8a4b486acf8b2637af6f1265d329f118a8ceae, 0x27bf3755793fc3b1eb5be409d94d6063ec9b180ddbad7d3e70447ea745a13ec176aac53b65350687260827d1550cc2bee2b5028945f3c273a86c60b575875071),
  (0xedab6065d3e8ca3bd48a8e085fed8e0e86c9d2980d878d22b4a6a30746a53c1c103a6bc33a5ec3e4104a06d92962d583ffa28e7ae6b18d526d3979b00e2fce28, 0xd5f4e7c1c8da8f185aad3c6e5c5b1d4a41532e2b576a4fad8e89eae4262313d09fcba810824dcb5d609a2682b606512f7b1c87410937b03e9d5cd2cf143daf2f),
  (0x9d47d656f9be85c607f1eef0b2785e28f61b9859e8843020308e5b17e7a47e0b1d55737b37d6cacd61f85d8f1209cda979394c06c58021477c3b4212e1e7541c, 0x45a0173371f5128bff70c0b057e85933d11c32d4376d1b29ee215562459ecfa70f7512b035670b127f3f88bf0e6789b3dba4daaeb83dd038b3d8bc694f0e7ec3),
  (0xc9ad4453bbcccdbd2881d9357112e20f1a662c99e0c9237aa26d753e283fa6cb748cf7a4ddf8ca628c7891cc156b85eb2172f8040ac0b940c1d0856f77a978b0, 0xf8237df2f0c85620501e6a376bea4d599a9b80c6979a60f55d2d0a342c9cab1a32b2a4adadd69da190a8be369a0bed4b91df67eeafad530714196f9d9c2eb182),
  (0xa680bc209ee237111481d1f7ad014f2c934324756196968facb9728839d630d9d60b5a4268dfb755eecc78c572331082946b5dec144fabf0110300bbd9529455, 0x10be8805e2217460abcb655a7635eec2278d64c74d5418e05016b1688bf5edd8aac0d0fce5852bb082a99eaaa6c14c266219dd52a8372e7f4e5bafc51654c165),
  (0x6ee9cd91189fb7627cdf7cd324aff30167981c00969ac4d750bcb24eed199d2d01955f19dd0d7c057d65ac5ca360d81561498902fe9cc81cad11421ed381d42e, 0xde958905a1703eb9443a385b0ecf62386c39fadee0f0fd785ad4bca1e1b3d4a3e524eb7aafefb32f021e15b023e6f212b9f8014c23985f14460c81355986765e),
  (0x3291ea7378b31e902e4f63062a3d4b921793974d9c9729d7441a284659b67fdcb7a6b4e86ebf5b751c0fd429b9d879e094e489ce975e9a800050e62d69caa1a8, 0x559732105cd55886ae8b368e1476853decebcf535994f6edb3f573401aaf27a49de98c8df239b1748178babce7da71bca1ebe5193d0af0b377b8848e87b2bc9f),
  (0x4939cf35cf2f468cca0ed4d319633ab6567259fd7bde6a7a97c00db6b5405ea2527fd0a94a6a91d4bd3cac29785aca3c2116cf9f5fd72401323f5fdb7a8e5907, 0xbf5db406bc04a8f03e51f8d20f098828908ab81f4d95aae2e21a16eb77abffdfc98feb1a1fb1f86245fb100104ac887c8dd49b497ae3b09254b5acdcdb03891e),
  (0x38154e20fdc66a5a0046cbacad51e9ffb38d4e7677b67f6031ac79f9ca6217ee6d981e4bfe38c78942d631cc7f08ee7c2d815128f9a692d6cdede34bd99e64c9, 0x708c30fcb31e14feb8daf8735ed2beee6d90b9a303f157719d14b9c467e2e3667d68b26eb0c5331f43f99eb8160e38d20dff00c205d6958b0da25b5a264353af),
  (0xf3eabffabdb0af6ef9e6f92637da2a3f1552d7beece92768d59d503c5afa19138708b643d7f1e79de5badd658c5c7036079cffc5dfcf9405825c25a003ed7528, 0xb285409ee54980263e8b8b62153412ee3be4151c4bff261dc716c1cd9c6992856f303e46d06d81d6f4c7c2659f86afe92b226ba02846428addd7e9a683eae7e9),
  (0x80e17be938f1a16c7de509d115f095b9b68e4b5de1f998f29b38b20956918d39b9159874d3475c7f13fec2cdbf78b49a6f7353af1cc7a8998ab3e50e0e8a23fb, 0xb6408a1c73fcbeb274f9a8c752f9c6ef3b8c544350e9a7626be2b7a4e56fcd14d1598b8ecb55978b67a941122af738b07155e15cd538282a475467370c5c5db1),
  (0xd3aacdb9289ab33b4b88ad83d3c8fb4db2ed42c4c310b9f0d6cd70b4e969b7de4cf8aacecff060b871eaf0026aa9cb0c0572da0d62c4cda7d59f656d45c24288, 0xc0ac1eb46b84776131a1ce6125354dd560e71c342496af343bb259063bd76bb774fe0a5215fcb6e410c12572a769aa2aa22e1d9914d5e1676c89d91fe13ee097),
  (0x831a698551bb5e4c15a5cb7e44bbd12621b45cb24ce9579f2941ecf65efb572cb2197c627beb4e63fb3fbf614b2227877996d2b08781412a62a1ea94630ed53a, 0xe9e1d93d1a5b40c6c4a5de2f1c92483b820b651671967098a35f7945859f7cd797e3294cc6fc31414520d158da93867e6549a028bc013e85af8a13bc3f1d55c4),
  (0xa1048423815e755fbfa8366774c1b69395121b19fb4b30449d96d9dcfab75fe00775c92b553ecadc5ec641f9d6bb4e15676cd0c4c45742573b02bf8c64b1f617, 0xc12a07bac9c8b0d594407ea64973cb33dd0140fadef2f32edc863640b5d3d27d360bffdc5fd12d58595945597a130783161c4cdf4dfa1d4c996c47719227cb63),
  (0xc7d847554381f81cb96886ebcc53092310dc7dbf587c9de7279a880805214c2d46d5b6e50d49bccb8a7ab76dd1901752bff3444bd9eb2abf0e0861fa11155b27, 0x175f51adbac4e75688778b6c8f2b5b29e8679a9fa0930c45712bf7cda4f109f3e78ec1c463df21d5dd952cbb4ef341a7c9c3537ba80de79567e328ddc78e8638),
  (0x6494410846548ab35b1bb00682e35e41ca436347b63a8d96c1b0fe2778f94f4830d28e827089776a59bc68f2c1b32089dc8f30e9b60f108afa0c483a450c905d, 0xf35ba968c6bd7774bbdc1f8046847c409ce766bff047da215de8bd6a9e7a5766e5b79fd5aea453735a611c6f324d8f986e1998a041cc2341af4aec3be9569655),
  (0x26e18dcd0bc2ec8ea46a6d796e3a6fac9f459d33ed4faa8210a2490c2aea93174ec781f9c8bb242cde6aa45c9a319b2452f6e541efe820a52b97ba35d2ba0d3f, 0x64e2567f1c871d8d7f5aaacf79f1b781ee5251e55e31a266b5446706c89f284749886cb6022b57e25b6e469d2fd831edeedf593750ee245f1c42ee4ed0e433e4),
  (0xda2e0b72399722171bfcaf4940ec632e2e3ed037ebf4f08b489171fe53d67c15ba964c6e18c55341a922d3678ac73b8f2bff9019debcf8bff1477c5e06e765f8, 0x928f91d6c036493b0ee7c9ab03bd7fd4000b976187c1e9bd5dfa0661a0dcb1da5e9af5587804035cec6449ae7007ce7088bac21f9178050b465c138a18943b64),
  (0xef48134a86a2a8d2e139bfb980ab9304c9a0c68ee0b30f5371f1100f530a667bedd665b66387350d4ffcd78d42a15ea65599c5d3c7112f6183166df16ef49683, 0xb75d9e20da15eadfc056529a663edaf9a8804900a9e32055d1382128e0694625bd102aed955081f72c87a0b9f9b25de52420cb830ae0b64c01cb5539502a4394),
  (0x6c38077c0d8c7649d8cc0aad80b461c308082e78fd13abdecac8e1c2fbacda881e32fd678713ffbdd0d70b7ce440259df65739e216de7dca0bcfd06e6ac72f99, 0x4ae934a4b549710581362f3dda45af9e58337ec35f7c696d315970a30ad064545ab77bb2b8025cfb7790c51f738d625069c35092e08d58133ce7f393bb86d2b6),
  (0xddaee254d47fd16499d4477929a366019de9513d59d0610116420fbc5cf668267adebf824a2ae99eb68292f187636511193d98dcabefda759eb6c83d25b5e3fe, 0x17537761ab8c87751c9855824ce483df5991a96c6ad978b6031cfe4576731ccbdba2b800b0c3dd5fa81bb76a9b93ae50cb9203a97fc75ec78e6efb798be009c9),
  (0xf0c0df53f48fe81c68d3cc4706eab5f98963b81411206d0297818fe22bfe617edc19b0fd393288e77d7f0a3d27fc1346443ccadf478ee3d442dd47f0780c8386, 0xcfddd99a1fd5a7cc8f560b859b3db83435246f1bc9f555c3be70b6bdec38de81cb75cc54cada03ac984d69f30eb65bec310024578f2a31289514104f48fa3bc4),
  (0x585a59b11717a5d013687021b653af049774760f7453dca31d9ebd817c0f437487ac67f98c955a63545133d256c6049a6c5a4042799aac259caf1416982428c2, 0x1854158fdab0c9bf8d244950626fa78c552548305cd52010d4274bd3600980c1f6a5804b48a413b6f9b3be5dab64f4de72a0c87802a361de5952498f6e678c76),
  (0xe6d9273d084ca2ce795918c9ead3280e5c3f216d2dfa17983af7758042a508f140f0e9bf6c9b13f875629662b90d55535b58a6262d4d508cc8c532cd1440e96c, 0x20fb89e15801784bb24ec53245ac02961e7943dad4632243be21aa060d95462cd36e3e6680adc4e62718abb7bd1a0b48bd62a94d9534e8e633a84d86c10a3fbd),
  (0xdb08f1c11af696ac6441e913f9f2c6985a32ccb4e82b5400d83de5f35a5612551ab5a93f8b44d4c2ceeb5c50539c50db0d4c9054e49cde73abb04d4cf64c328e, 0x2853446f3c1b3aa1c39c4dad496fe731b228c84dc8d3df79da3681fdb83cfdfbafa79ed8edb44438e775f89133359c501dce3eef9775431aa6ae5a1324e799c8),
  (0x842f272bc8d74bdb6aba5fd0d81a18fa8d769feb2ebdecc47b5cc6461e01a671f206a85e1fe0b9416f59bd8375d6c5c56d8500dca3326dd7d717de90aa576d43, 0xbdf6371d9a30986103d735b0c64119fa89178afd89e88c18133cc57e452a5fde6c3d5835fbea2bf610ce75e23ca3fc65dbe6ff2579d81130331125665980091c),
  (0xd41f19ea9546aa40106873643ccb1ea20e5378a5bfb47fb28d8746dac99d5e4c0dea680599b40d04941cf771f24df7e02a01e863618e8a7acf5de655191370a0, 0xb18975474562f1c34ac55ca9bd6bc7ef955d6d1efb74d885dbd648e8dfdca1d2c081d98dda88b100c170f02fe3d4357037aefdddda8013cf815f503125b79ae9),
  (0xd59573f3cf5a94d8eab8654e3cd7990cd563b42cc59cb85905178d7e19473bddf93b4afa7ac7c0c8cf9c2a0b21610966590009c975bfa3b6516ec01a0cb4e1b, 0x43c4ff8e80d9d73ca677874da95058d8f440bd1f7919df3d2b0f85eb60013384f3378e256df2245ee17a7f1cd6bf3706ba5ab1888761b60aece96cae4fecc1db),
  (0x9a289948c88ef2e27555b4e3ca7e73e12badc911d9e818f0379e9fe060bd2688884ed46ba3ebe2e94478a626b2cb35511ef1228930f3f0dd37bac0528d8f331e, 0xa4319605b371fac076e5a49aec50c878d85d352438a5d6e023bab1a403ce33cad5cea2bfaf8e14cf7187b75aff3026bcf82665119950a13a44760b44ffaea38b),
  (0x1ce5b5ba2737599d0a8f5abfdb47be5df8e67d4c7d7b426273b8709c58520bb51db3e5dc6c95fc453e3800ff8c7e5d5ecca4c74b0d5d5c668f26bbd7305b92b3, 0x687b964932f1c64902945cff759b878eaadfdef41c47769100988c3b66e3d9a7f5ee2b45608ad7b487ec902d767229080ab9620edde49e597992def0e9921bc9),
  (0x4557ce0081bbdb09cc50f64c593f8a6a7a936a7325597862bb082b5100cea43e46f03da248c8ea6ed3ec3935649811dad2b16762aadd866e92d15fc90a00ec30, 0xa28e16709c2940fad9ae42b89da312fbbdde902332e8490ad1792c0775ced49282be74b489f5e57d72c296a46b88798f3b015fda9a1a28ead85879cbcaa4402c),
  (0xc760c90837737cfd2d64b5412b2038d5941b2e11d87ad73604c5f9fc77d675750d65716cad349db51d5d1c59aa4603bf1bd96a6b1c5daad5f719092889fb0f0d, 0x1a200cfc60222cb9900e99c2746750e4517153acfb26967681ec4d3334ec72249096fb2352e3b2d5b37c325b922674d5203c2ba3e652597187e59a96339d8728),
  (0xeea45524cec3d718d8a89959a890b64cce4ebf1278fc2217a70a6c5a5144a073d4465b22d30644d4e88c0cdbd79c394c05e02cb6c9534e6f762f41f12eb0c68a, 0xc42cf95d930b65fd44e7a575904bda3ec76ac921dbb1253bf8c6dde53ec92d151480c1df49ec5dad55fe6784a87eb1c8332ec28f906ca9abdca790c7a0769382),
  (0x7ea431b904e5e8c46022e6ccb273495eb3e75c67f2c0095ca7a3defad034007fa41774d8c661048912383eb1e6f7650b1b4c292e81e30a003cbfaec711074b8b, 0x68c77d962e98dcbd2263fd4ddb0e2db8b1ea39393decad52e76e183f21bdd16117ab688afdc90825d2634c78e1fd1158b070056a624681b0ffba2e45abfec8ac),
  (0x22567c7ca3f4db7b7fb2a830168bac36e4c576c34f9c3d698f6f74a0b6e51acaa930c57c1249fd00c701c225e3f4e8fec59d0852f0dcbe3bb5f1960fcef1238c, 0x852ee6ee61e3e598cb1618691a47e67462580bdee12cd1a21b3ae52bbc7e9bc26bbe1cb654f8e5e4424e3d0693adb94033bb5e61c06282d335db480e7deba6),
  (0x742736951ae624fc6d5bc51e989b818fe746a3bface417ee47c5fa500234e4b0158e03a8fddd2e169acbf56531c57c2985395d539d9fa83667881dfdd4ef16a3, 0x5664667ab70837693a4cbf67219e59a0838adbf91def048d41957561b3a1743e10cc97a02991810e7a01b457df8f5212b9c0b74340aaa458d633822df9de600e),
  (0xb9249387a3dd981ff916e5e9f0096a2ac37286556d02b4a9cb72ec3b656af25784013d033d6a2767320295c9ffa7c5b0983834ae396957caede8be037f31420e, 0xd46a21626687e0cb060026fbbd63bcb6f3f95e10da723fc2df90a24e721ca27dd60ac444a1507fc1f023154c386c80ebb4202a771c38b293ddfeb86cfac8bf9d),
  (0xad59516b76324566eb7e806828b9b4fcff8f0d82d7fe3b2b712ff45eaba3af16e7dae8c3fe3fcbd877ea3fd859290bad8b5beeac0cb75cc0a2e3c3da39840c76, 0x9102307e8cab84cd44c3f8a462ff19b91774d790f929a452772fd2ee89876e0aaa7e9175f855db3e083992cc27987eb2f0ec2aad46400c07a0603c49cf3aa086),
  (0x11deaf14f273beec6b40136f20fb63e8aa6e754fd2827b57994471001047621419e5a64b330f6ce04ab0a8948c31e2ff105e386b9b51b145196e60a48fb6aa10, 0xd7c265cdead64ce4c75aaa17856634025b10f94b762a3687e6dfb389f036bfc928040264866fcf7eeef02aa37b6e92fa069f1a4d5e119429b586b51f974c3b2f),
  (0x36087a954f67f774a8cfea4b867e250960d6b0da58ed6be17fbbbe906906d3a9952b6a4c2ec044235eb8e1c67251ad244083bf1788f10187269772b8ddb8db4f, 0x6d5da184c94e22777ca3a24fb255c13f6fcd60f99034b05634b7a50053884757e8498caae788046951c687c51b41b32a5673316c9ec922e1fb3eafc43939c09a),
  (0x219a050092a19d1f5aecc48ce16893a04cb7f8f5493b14b623e1192b3966d0bca00908e4989b32e2cb59d3f87e4516c94ec0c1d005886ac754a11225466bfa8c, 0x7661e23a3fdbf647a70199d204704faaae96413054189d7f3227e0385644830ba8c34b5eba01256be24171565f633d53353783e8c89e6fd9311fa71aebaef663),
  (0xb33059cab002441ca1ead27800cbdc4cc7976b1eadd31114b13ad3056a40d4677085856e833557bd00cf934fb82b5331e4895010efdd6e91872cb981aa0b5887, 0x67592bcfbad116695cfc15f6d6ea0254a5dcce4aa233d027faddcb88ce16afa7fc0cbc8d8cef1497485896a20d8196e0a1d1a46e568269923faf0352955a8274),
  (0xcb2371ba77cf424416897a2dfcb3784ce65da8b7827d3f6852ff68e0c33ea8731e05f2ebf1f42f4ce151433c54d9db4e2155172efbf8f29b5a2c1496a9b7b33c, 0x1f4db8b275e1d84a7fc81b6b8d1b428abb05a3be24e146cba67a7359ffb72c8d293511e5edf62a771d3772467a0f11c931498b84b675dde36655cf79c3282a1e),
  (0x54537fd459641e29ff27d3456abd7f640afbf619b15288034666d5a02d0605dbd0e9615d473032a467c0a459ca4d58e2d3aeff89108948466863171c9955bd99, 0xdefcba3003f0cf66eb228fb8da4c06d45c9ddad5d751e3769057493de2d550daeb25ce7f21680ea77371a3139deccc1fa5ff1fc7a7dc300ecbabcb8e9adb1601),
  (0xa159e4623308d6cd59e2ba8c8f2fa8db118bdc61a7bf2ff491b26ba19b6c872d467278bd9106182823f46cfd150860731742b53f93f655596df96a04557afb85, 0x684fc0d4d9b12a4eb5cc4c88364f4ba44b26cbedab942ffd8bd338f22524528d4fecc16c8f14bb8633a0a3e35a40e5e0448bb7cf2cf98152689a92d258024849),
  (0x2b46b05f1c20a3a76ebe13716d7a0cc8dfabb2f0f129133dc72ca7477d32007151adb8fc9aa72d3419be4bcee4fa6baf440284fb48f9edb5c292807094886457, 0x32230473efbef02307a3f6b6baa3c848db1f4ebcd009bcede870d1c31d29a229756e30ec515ca16f1a4730a47b4c89efed156099057d5f343c6cef48c8ab9045),
  (0x6182622400bf52c6d832a735d4477970415fdd07798ba6c7e5cebd84e8874af4f41aba6ee1d9896ae947a76ceeb8eb479d47f936537804dba56f11dded19245d, 0x1970933294738954a38e7eef7c22442eb56319efab5d6e713d76dcde8bf3bcf7b38d1997abcd94a7298a1244a01bc0a748c74e8e02772d41fad6f70d16e6a660),
  (0xa253757f7e818f30c181464d7fd65b44d3c47e7cda650172c0f8b4750a5cc4c2de61eb647a5653859e4080f5a56df349c013f9e928bb5a22db017e47364f8a19, 0x83362f1a9e3fa0f1828074c6f50aa7ffab4f573058bae1a23ad92047dbfb4e34ddc401bc81a53e7bcf729f0288915e6a104d4c4d68ad23c20f0f523b7b2ad948),
  (0xd7ed01b56f3de10a21088d3a65eb8d810357019cfa5dd8c4e460fec0679df75a78b39f96376f2966c6d2ba3ec4298a8111d3d04778ccd7530dc9790cbd6e3e48, 0x92e6c96eba7f8f9792b1b567b10e8fb7a1c1e3e082d3d998b0f95762a76071c36cb9d6d8df645aab3d577eafc19479471460b484c32312dd0704b5dcfe5065c1),
  (0xc9551775f661c288961e22845bfe20a77e631d9ed7ddd52277c80f105881bdac0c1d1308136e75ab72bdc375ec68bca718ad914b2e84657609241db93e46b3b8, 0x1ba6f0fcce47d3b0d2200ad445743d0caaf1c15cf4193d2d74922f1ce1aef36771eff85dce6eb99981c16d4cc67e024d9e2b90282d96aca0d27a4484be32d9c6),
  (0xb0f3702440e65b5f953782aadda8efc250eeb64c427e33448d4784898ce61eaaa1e71c1202a1f9916c86fe44d88ac47a2560acc4f64f7b113e6f277bb094dea6, 0x48396fa839ccfb2ffa5d129f661e111989c4c0ab39cfa63f2b659d9ba425222210b08644bd328bf3f9c8de0e2d23b23e45a47ae9fe277465aecb85effbd279d9),
  (0xa475f904bc5dd0d45a2b31a67ec559cb7d7ebb1809f7bbab78058fb7e00d2d7dceac00af96d1b4f9fd7a97dc218d5ba745c9963939a74fa0a773ab8d9cb2e7bf, 0x7c038fc231e45ec9811b4fe4588226c3bff89ec248b42f6e9dd63cbc3a6c92c8381a1ce38b95c7b8c1169946355e2e4c670643b4e2d1729322e56c1b4d513e40),
  (0xcf4171946fef6229615b146b487e855411fe8d5e7a270cd82e5a4661656eafe81e6ed230eb29cd78a53654132a233f01098183c10dc441235db8da14c06f5c2e, 0xd2826868f04f32208158f2efc13bc5e9bd2da4acc49a619dec3cecd36acea414a8abfd49fda9325364850570496098f7567e01994e5e9a0478b302ba178e4691),
  (0x6de4ec38fae3c0dcc9333bb283b0b88d28c2d06e17c1805b2ee3b004608da9c229308510e217dc9ba231899cf6deb296a9fe57ffd43a086b5770ab5f19599710, 0xff8f04cdc1701a13f0e3f8095f4a4cbe487076853222a0ffeee0799165998e3828d510194b1e325933bccbaa314a1acfdccdf3d4cb0b45007dd274c0a5e2330f),
  (0x5d99b84cbf261431b8a35191e2dea477cbadbab385f77c888bd7b3200250b81bd537062d7b218523f0a693fe4a6436aef43bf27f8c76301b60c271d98bb42861, 0xef05bbf79097071c19d7cfacfe9e067ff938b1bae72c1e61153bb95d41a4a4f90ac4cc1a8b31242f6a1d8c11a7bee51fbdcae7d13e50ad9279ca96e61d92d6b7),
  (0xc1cba7670e6d9d06f506cd9edfce9196a4724b4ccddf166f97bf9ae86cff0a8cc3dacdc80dab7e60bd53bb05fbbf1238027f2ffdadd74bdc861c5e33456fa33, 0xbf55c7a0f1f57fc8747f686cc2cccd51545c9babd8dc18b8238abfbcfd7a273611a9f9a4fa4e16c1536acce3f7a1c2815f23ae970cfef405a72d16d63c721af2),
  (0x330a52cba6bce20fc2b4fbe2ccd98e1c31d171b2150a9b130def6e8047e1ba1a0646be70617f6a87258e9a90a7b254f2ccec2e6a760aebc70e044b58e7a84fad, 0x2e44cfd313d5dd484512cc5db1edf85d367f7cce29836c2d6247c7057aec792c37b3654a29c3969f03ced4a227810035770def091f2ef71da1f83d11d533f55b),
  (0x8d595305425b61fe215f672bc9d27894c9b59906c9d89a9398c25fbfb708fa5b1f85bb05fe60c9cdc36d6eac3dc991f494efa6d9218dd45d692c0ad3e3287152, 0x17f2d5138fd1b0af9b808d0ec32ebed3800e7775b2e3631aaedf856f58b62919c5866565e66c1ec95c7856d3e4e2a7b7ba256d71c16a6a99d7716214f54face7),
  (0x5e66b4b4f4ac28683054702f3303a9a8031ccb1a46d3bf58549104fe5d29125a73fabb8785891d3fbdb08810fc2fa229b66b30fec2f2a813a93ff5dcbecd4784, 0x49a752acfac6429f65d542d64d4b267a41a133385c4bed089e9974769febecded1f3f64a4c6fa32725a1f4cdcdf6ebd910131a2537540e49f81836a446298add),
  (0x6b739501824dffe0c0cf3322b134cbf006eb9f5ab32be097a7b7ab4dfd94e5a950b2906e96909f8d810343923435dd4596b944d7f480845c6f461cfce30fa38d, 0x10e6b47658edfd15151b1ccbb69ebf28dead2b3d304b5ecebecdc275c8f387f13c56dbe4ede5d3b9ce141d69acdafa86f803a4a9643d1215526d3e8a638afd43),
  (0xa5a0567319e1f0f462bc4db8ac319902c37b868f630dbb9286e4e443d524e1469413aa460fb62e45a9487548b5cba57bb47c52147625d9d38903558fa7747572, 0x15b77c229266f00e70971b9156351b10aa52166bfc1ae9f1e576aedb438c94eacbc89745661392fe86651a71b95b9d555a427dd626bb5b36029b3084c09a8aef),
  (0x6c1a4316a6a21196bf1bb1aefbba50a019dabc4f172dfc95b6d7addb4f74ea8fb8848dcb2f5c683de6a236cc64390c6de87271eccdd8d8036009231472bd4b5d, 0x4a61a9054afa18c368ade60a1ce6fb1589b62f5b95191b3a9f283f0705c56708ff78be55a094bd71da3f7762a7dad67e0eb15fb0fea528d5778f8fed1c3e6707),
  (0xa55361aef4895695682ae3d6afa74cf1c6ae3fb6967c2a32f3dac6f02e1e904581196fe23384172fbf316fbede4b0ce9e262600d3dc4dffb3812126acaecd0bb, 0xa000735b26ed3962cb7ddcafd3f70367caa2e98a64af0edf95d0a684fdb8b51fa921ab4cf41448bf41ba10bdf764754ac31cff329016f60d8bc3b02f60502fe8),
  (0x2c56a43924f4fe9b9c558d314bb959237aa563de68eecfcec5f4d8c0561df45e7b0252e2d29203735e8c2607d279d47603443e588c0414af66a28891bde96638, 0x6063e99ab062e3b8361e148ac679b538e7274b0cfaac5bcc3df47f7e1fec0ef3939f1a258f0fb2e1b17e683947c35581821d0e488f7830f19acf9d8be97e07bb),
  (0xb1d17c1717900b5f1e394fcf80a3199e5fb5e7ff7443eeafa424caa937ee182b3c9382bb6b49666f596a5d2844f93d32a2f2c74e1e04370e2d88efe0428c787d, 0x5aa8bd742789a8312f5df6e68cffb37234db0f63f1d7e69c83553a0f85d3a7ee30482738bb607aaae04a6b914bf9252ba24abc4038c8a509a10f62e713b0af6d),
  (0x4aa85a31d53c66bf1f8303018512c25e063013a3bac3d501fe15c80a904039135f0ea9879b0dae5d0d5e4d0f22f06b940b945af9afb8460b22d40273fe150707, 0x450a454734092e8815b6fe75fef59f16247498ebedaff7cfc36bfe5c96ca609766fac9e8cd2cf6aa2a19ab6b50e55cf44082503fd7a7608979be9da0c1f889c4),
  (0x993c0651642aacaa576961c4414b980de986db89e880ef88aae1a372db3ea7d2a1a56a9dc918ed95b00d33709a141818aa1193b385a1bb4524352b23815d1d01, 0xe6b80d52a0f985a75a4626d11feb7ed45e5e287924a44ffdc97c103e9f695b3c0858934a441ac82fe2a7a2d4f3a2e75833c90527a5877fb05e1ac4bec839fd12),
  (0x1b35c17c213a4d8aa54810d71d30c89584b35bf67623b35aa050767855c7d276f59a678d164732fadd2ef09333eaa98422948322b9006b4e7f33a3a1582d7943, 0x93f25b7a92a4354773abd8dbe984313189d591507f043d7d3824c4a0e5384a63ea65e98859650f905333bf2a9bbb250126dc29fe67b8f630cf9f86459dfb5628),
  (0xf55b0a9310323ebe749bd127a847cd29c9e83081dd85539b5b45e0a96c8badc7f19542eb0314895347e7ff5ddf7602fa547c9243c70f4cadf8fd49cb17ea0759, 0xff33644927dcab7488adbfabcb5887c6aab41275e3bfc17af130a3d9f9248eadcc1cb5dfba2143dcd73b31deb839fb282a892a1a4df368c52f98838e378b9f53),
  (0x3400f5ffa474ac52f32fe0018bce167fa4e101dedaac9d0bafabf32b23b4fabed31caa4a14f72de81e7388f5bda113412ff6290fdcf7250d0c83faabc36402ae, 0x4bc2f4131aa1242337f6aeb62bc9cd6d113d3bff25c996044e566d986b2ea14e195f9b8bd12009d16c18ffbffe17b2f5f1b1cf28e87edcd7b5b694869d3bcbe8),
  (0x6326a53b3259aaa5a42d03e7742dfccb55fe30b86a3ad43f86f4275858c96057c7f6071c2fd89102ddbef9706c43f05d76fb00df2b84564781f36ab36bdfce6f, 0x4548a1386c1cd9387b81f7f7ff195fda8718914be190b93a7afb5c8f45a73133c7cbc740794fa406ab10ee26373add18b2cf693075f5a6757cbc2f9f93c63442),
  (0x5c6159a5a7750fef92c5b1cc80a4d74210be9547b2dbe4837fafad72d87ef94b7a206f951a490d04f2b5ba6ccf677b79b951caa8367fd4da12aebdda9356a20a, 0x96073aad0b5d9197c5a00647ed49016c656ce8606db9b068db1fc3f9a7f33c10bd4ec89a3f50c96171ae0ab41ed3673cf3b2a864636e52d412e13c2fabe203b4),
  (0xb7e737020e7bf472bff6e7f71d6681cc1af6ca16bc73415fa39d7349b1439a4c992d43bedeb85ac77dad8fc3f4983a62c6f94cc6968ebca9e19c86ef1da62ec2, 0xe80ccb2390768052a728aeaaa9ac7dba7fd9a1e7e40ba327399ca39c51885b733fb340ea471bff5d31ba70de8ca9536688d6bcf976b3a84d23ae1cabae5c8428),
  (0x65d5a385edf4bf4add5c886199e0ae14689f06da8422a14f512a940d731a97a5462fdbf9f0984eb0ee82cc46f86cb796cd58e944d251acceb88aba8f672ba36, 0xfdbc4f7fa7d20a87361b642fbbb85365263d2a90651495b859be9355de8524008a6af88d3c70a3abb0aee680398462fcd309c5af697cc23b9c976346984098b4),
  (0x9a6be930be6b44e279e0eccce179f469e35199a97e894cb3e2ee5aab95a25a94d087b925cde59e70665757dab827255d998197a1865086663fd12bc79de3583c, 0x62637b6db7b0145fd0cc91f7557f34911b169970028ed5fe73d40f7454bb5636fbb0014024dc9e346b76151fb592a90bf4c1fc72fef9ac231d7924729178d442),
  (0xee721e03ffa46bd20f8c2135bdb2cbef7eff4ed6ec785fda498c9ee7f278cb148d86d386f3f8cb3afb2bc7eb5658db1e579c52d077cd214be37d5d8d3243dd20, 0xde8e343f7a3c16d39cfd11be109b06bd1e1c5b9890ac3f5fe9fdd9da5f04f3d085355653a3cda256b347c15d919fa7b75bac50ceefcae89dac6a83027183d0aa),
  (0xc0ae5928e3caa023b435a2cdae3c4cbcafec46f6bca7a730bffb6125c64b40255242c8edd1e2bdbe6dab025f87605654c1356b9bd81265d7c4f074ffb612dca5, 0xc01caffeb1f060813df3987d78aee042de4f481ef2884cf4896f8ec48a4806c16784bbe19046a5f1db72ec5b6ba8d85eb48d688019f8ff721e4e7dc097aef495),
  (0x83968cc7981235eeefea9696d5782f64f54563cab904f3f2cc256407391c4dd5877b55ff55e6058c38e7cffb2c9db18e5b84918508a60ee7dc94336f3f346351, 0xbc8e8e1683383397082b9f182dc8e3ce8e570893a9c882ac5ecf8e2a84ecd33087e608dfd3ce27984031a774929aedef0cd18653ca9adf23b56d0ff28f2d9e71),
  (0xbaed0b6367cec169fb276d1010c751f75aa74f37ce7af36e1af3f94f56f08c27ad9162d0141c775802bf91ac06c8166d45c171723d495f7a49a0799e55b2db36, 0x89435cdac2a117e2288afe01a03433623fd19996acf5f99fa53543522615c034a80567593abe134b5b64559b42cd73f3c38160fa878d3b824a2faf413e713e61),
  (0x542a29a1e010cf1f23564aca37df6d374223e15a2f0bc36e2e9e66aca5f060bae22e4b4c759de7167a78d452847f9fad65a33c837dfc11e48f2024775b861964, 0x492e237be38e0f7172951480b51e1eea470b104cf8865f68ad79a3c065485c675997d4fb8ef6c2d580e49e34469bcb657dde36a89e996361bd538b52fb3e9662),
  (0x2fea857e4a8d3124dc82280688d2e7b19ab8e680cfa91c117cadc83f28fdc4452ca1f1311a97b67931127a41db36a00d2839847ea9ccf7e95bead46806c8fc8a, 0xda6b5562fdc1e5add1554bf87ba30312197e3a56c81614c3823ca4983b8cc8ceea64c3fa4a7f090b95f39a8577962b97b8517b12a162e6437056a371199997d7),
  (0x66fd2d16f114b5c4d4e3e4181c16eff7d738bab5191331097c897da61a28d56f73ef1fdde58a475c18a3efd395d71ad4dd6fcff8578a8b2ecc3e7153334ef528, 0x99baee134802c94b220114ba7efdfcfce6536e1ccbf804b7925e2c299bb93d921ee0cc833d54be51ee013091f5ecd33ae6b8d94bc4f38457b41b9bdddf3d91ce),
  (0x4d642c82dd97134d6a1a9f369ef31b6b4b5eb42ebb9415590954c7d22a33da712626e98f16f0278f72c8ef92f10b7b1a5f029ff736ab6e70580a1dfe715f4846, 0x13981b2513b835fd46e61dae5351ed2362d44582043b35922301239f02a474cb43a292de5ab42dcf5e03f5db3235df5b06c19849701b185ab1cce944cb5fa1a0),
  (0x496c5dd67ac9f0d7d76bc5ce965d2e00eb58bf5d3d95990e5852a590a4f9370c861b0812494643b8b3411edfa0d00c703492a9e5aa49d81c0f311fe5cd3906e1, 0xe4568e35be0fe9a6956a736b017392d09a4712c93e00946637825ab407628fe7df822322ee72bb867fb88b3906092d5ecf282b77801fd8de3484e3e93fa6ec5),
  (0x4d3e7a3dcd08682a42a3a35e60bbe6e6757c1f0323f42b377d547d6e56d3704d87a5077f067a469def9e1fd02885fe52d8517b01b20effdfa8093f941a21846e, 0x471d0ef898992a1862cabe4ca96c13adb9a27d5bfc207836a8f526253bafecfe3c29700e58adb5214d458347e1b826709dba0a405868948e57a6f10543f46c99),
  (0xe558076aab1ddc9efbe442cb8a54ca16ace8f822027a12daccb508d74ee0931be2c9d1523c308ccd6cb80b3edde47ef29364b13fbf195d3ce872e797f4a53cfc, 0xc1d30fccff014ea79e338b35f8c9bcdce066e6335453d59f7a5e8de23bbaff1f982753283d3cb3a50e7d60c0f553438d9e14741a80c399bf8b7cbe7537fa2cca),
  (0x63e646706bf00ea85b7beba4877dd45dc34d54998adc9967ec25a2a16bed7f13d6fdd15b3ab7573338746ff05ae21365ebc5982444cfb2149eb25924c0cf009a, 0x3a83aab98d152aab533b53f84f3612f4b37f37eae3e98f4ac95a7eebfb412eb49bc0fc3bf19d12f4c21946b67375d596d73f04916af9f16e03879ecfadbe51a0),
  (0xb11c8413a2bbffcb95b32ab9e3257ec9d7a32f034293c9b706deff903b396a1222f8398782eaa0821734f86755b2d3ccf93513d8650736b496cc30bb5088bb4d, 0xfb6208ad6334be40727660b07dd031c68de1b7f0d5c85c48a87013dda9dfb3c4bb5a8bac27335434bf3f47b2ad63acc919851f814f4e38f3df5a1ee4a08eec7a),
  (0x490b87c69d2ad52c8232560d070c2088a63d9a828f3a8c571998ccca8889a602e491c607939067ae9a1d5157da069011126173f3b27000d8a10e85354162fc34, 0x304c2dba3c65e8731baed28c7f52eeb63bf0dd6b541052a360a7b8b4ecb199c3e2286da92ddc7b27f72c18c60c07a77496390530e79c3029da3b9b08022efbcd),
  (0x105280c0743971b537550cf15bb666b75bb7f803e3c5253be2d951d19539d3f89349e5b0d422421a85820152c2c672cfa4cceb6eceb63322479e3fbf0b00fd0b, 0x84176d0f5a7f8260c0bdc5670c22dcfd0f89fe1cb828cf19faba162d7b4d963353e2ccfe6d0cbd288866f677196902fff839006f3e5acb7eb5fb8738477b5d8e),
  (0x883befc7c7a99f1d18b242e99ffc79f065f8fbee3f39beed327753f867053ec48b1c4acedcce7328bf76ee688df339c17f912ba63f51f1e2205b4325a161ad86, 0x721dae510b103f7bb06c94d2561e8b599d27c97bbabe821555312c801480d3bdfeb550036a83667edfe556296e21e9d83782145542f44a6c1e91854cb441cca5),
  (0xbc3b959c5373869c91dfddba28cf5310363a4c0b319856487a9fc1cea1671ae6f6bbf899d3f52e8df33475d8cad104b4103a3aee9074475174f0c8da860abdf4, 0xd101743f6f7f04d31142408194c53af924a897923cb59d7da1c4be9dc6c0928791b3bec9ad34064866cca0e29b403a631666f74fef73fea6f76f3044f6a296ca),
  (0x89bcb94c20f3916291576dc4b577fe8c343a2241b7f3f2afd4bbaf6ca74ddeeb6aad7ebb06ae9d30ffc0d5a4e01a9bbdcb31977ed505f047a2f4047aeb2ed2cb, 0xbf4b9adda71d5f59f785ab26cf70ea91f18105d55d64c196e62ae9dfd753898e752cb56d546de8b2a449de5e2a2191fc61207a7b62bc7b889a80f217a3bf7590),
  (0x4b93f4a3d4252f77a0da73f827d163df9d6391700bf03717ef942b8470e8c43a286f972bf1bc2c1cf291ea1421aaf39dbd46e41b37cb7e1c4363aa713391978, 0x5d17f2ab0fe19f718c3447dbb96c5422642ed92a8ebf1dc180bea0978ebf71664a0886a4906a70fa57e7f2f41b1e31744c36d99d835b47c63cfef8164cbd5382),
  (0xca97b403a74da716ee8cca3d1b1048f3a3037e69915300e55e1cf9c32db890b00ed0124ba2257cdadbd0fac90d4aba5e5f7f294676cefd17dc65a011cee3d4fb, 0x5307f99caa218f99da3a24eeca9e11c27ea50f33b1b4e6e37abc403b763e8a36e3c93c6d7a9688d1f32129398bff67e4fadd5efaf6a36de43db2b73e55cb172c),
  (0xa77d77fdd23da9173460c1898995dbe35e54a7ff8cc12a8123d7371fa16e93e2c00d6442ebe5739491c0fe39e6d70ec6f3f7ad93b7d55041c89b36415dfe5ee4, 0x5b498f4ed6b83609986830a76ea5b2c147170f0c8d97d03a551d9d3e7b9cee8d40a8edca2f659df2596a4616bbd0fafa6dcbc9b27904b06732cbe6e0694d050c),
  (0x2c9810fb02fba902f507c7a430385ea87cc6be3703082dac8b79c5763ecfa0e177692d25d50c2c1bdcd9d9cb96bb0764c942bbc4e08a858e3c8f5f2980901eb9, 0x25a6b12281e2bdd1109c29d49872a30dbf1a6d0a63d079f95f8e09fb14cde8057554d81073461531462df53a2e60de82dee1181db83e9f05d4f1e0cb0cc6fbbd),
  (0x8a346db39f1e151293a3184f0671a7c5de0f00adc6f372cbdb7a92598ddf6fbf3f56ac8e81ec53699347ff3652986427c2da02b5e53e175d9c10a07565ace44d, 0x56aa3ff97b3cf3f6fa162a477bd9a589db58cc7028d0e1f0ee8a22382950d369baff5b1010b4ad3cf7bebab03dbde45737d98baebb7ac5f1c8eaf0d849585553),
  (0x1df658cb197db2adb3c6f9461e14b00d7a7499e6e1c73df92d8c86e6b4b4c2a452d31af873fd56c837be6a66c96b5e7f871bcc5f6d52f564580bb5a7f8f3bdf8, 0xf1e684d0e1ae62e5adda36adde5a163a4f553aaf79d7a436cd7ad62de82a6662f13bbcf938a3bf2bac00e11927bddecc7ea43b28a8e44fbebe6ecc255272e483),
  (0xb60509d01da01a1fc54da3f23a3c4efbbd9f4df2ffb0da0ea8be40776e78d9878cf1d426e58837e1764ed47464bbc4d394eefa7d3772e8c148a5fad642793f6c, 0xd5d99167413aa89f2a3fa3cf4f2b3f0f2c46983e478ce11047f47ca71f0566e4a3994460e1b300597a2e927063185e4f58bc1c6740172d3c6a8c2c0282362cca),
  (0x461f1ce77060489315d97103bae027c8d7240507c01ce921d675e8f0471dca2b10ec737667c7ef0b1007ca3e598a2a6142f72ee2ce89876aa07be3d305787def, 0x98b55c53c1728e508c213a42d9bf2e2f21f2c251859d0f3b63cc26f357359397209de86ae8863f712d68994f1fad36db1740f255417886fe76b48913b5019e68),
  (0xdaeac41abb1086759b25d1308e04b263114ff62a623e8ba3c61b5dd11aca4978503a460747772d977b9d78698dd31a2a0e3e8a31b16795fd264a96623a3e8366, 0x135d8ffd6684bf416a62f82278fd27cbc50e0c68f53c6d672df97ea1e079665e823d8eefec2a900b792a7947a5b72be361dac39c19ec077ef9b4b4eacb4aef9c),
  (0x54f4ec68a938ac08ee53c0d9fa3198b3cb0c862555ec3365841922b2b8401e8a624ab04a6c00c5e92c91fd8b87e160477cf062e1f46f045dbc97b1f248f13708, 0xbf285cee1dc706a6a988268b675275ea5eab4367ad2d642e874ab5e92229c491f29888e506df2f8321d47d1c564a48e41a533249352b4eae15007e2e389e99c8),
  (0x7b2a15221b85290f1ccdcf0d92e6c2a4185ea712b47f537887906fda784ccc09b94fac9ec670ac140554ec49d3434de5506dbfe1f0f21b280b251adc43dcd171, 0x4f2695068bdc00e477b5acb7a92bc92efc6fd9df86b4dc8f2382d7b381f9e41d639b4ca2abda8e89adeee1e472f22cbe54fcde66f235aaf91b7a5ec5624e6846),
  (0xa81c26ae55bd75718952713c84364b22ffb1b7934c1340e9aac3384b9da2961f377b77e0effff54aa77858451074266b33de9053448cda5c160fddcc03a7ac08, 0xda6487a71becb5a3cf702a8c58ccdc619778a18afdaa560abcaedf75eb5068ae895627456cfe19611fe90ed3ddd68b1e754832adf9c4a945703b2c729f32a9b5),
  (0x84734bbb41e792f897daf7503d3df19efc2f6e8d594ef022a88c88663d69bb2b49ceec9073f7c04139c85467bdb936561eb9b20d66e0ac508638880e2c90eaef, 0x25a30341fb17208279e4c1fd44c673a8b331fd3831a063924aab6deb8dda42210a0a98136d8e35a99d8bc2f7f728098516a1fc31fddb0d634dac73c512d612bf),
  (0x1c4f4dc219179ef7ee46d8bcc87039dbaff4148afeb3fcc01cbcd97dd21b11c290f1230e70806b47e4279236da3ca70472a16f1c40392aecfd61587071fe2394, 0x975bec078f68c0b91e52eec861e5fd0e55f6eb8d4f518a19d13e3573c7ecfdf1120f3094aca5625ec0c85ceb18d13ed5e434f90ea32fc3d3bed9572300a7b092),
  (0x663bd9ba6f1cfac43349e3fe1e0db9349bb22c0decd24afd011eb63c8ee3becf5dfe58c3c02c776d0353dfc0a3c5c007650fb7132722de5d5710ccc9f47957be, 0x41056844bd123eee0d34a4daf9795b3e48141030335a6aeebbdd340140a0d7349b66a8ee4abf80b0ade7475fa3d65bf3bebf3cadfbc360221865d2a55b4bc1b0),
  (0x1c232a56b9241ca01c23726512bd19ed61dd288a3cca3967498d3f1275d06538c55fd745dac53b89fec70f7b0497272d24cb491221c0ed8176b93610db1ad1f7, 0x473e3fccc18ac5302ce812c2a3481d8a9cf1629728276f2cd2edddf7e2635d641d9d490269e96f3da659a329970db6939d4690985dc99d31a105b0a1d4b95e22),
  (0x89012d7236ad766c10062dd5bac22d85c95d8e6ca2f2e12602d08553dbeaa34904939912e929b4585313d5bee83894608ed72a543832c559d75bd85e957385d7, 0x782e2d24a5a93be1e7105e3ac99c1adabf14bc9f7d995c25ebcd757991e79b8913c506cad16d0e910133ae41002ed96edc5f3c03300167c9e621a072051a8bb),
  (0x1bee66a9142110e3d5ca1a92fcf0512552f81beb0c3dbb68b66f327cc56753e48a9c9c059edfe111246d3387091740d31c3f8ff98ed1ebbfb64e2b10b420dd60, 0x8d36c794b40790d43d281b61ae1cf4b5ff67f891fe93262f43bd3cd1f842813688dda112fbced2c93105e16ecb91cc324fde7e0996ee4898941226cf6b61f567),
  (0x59bab1d2e67dea2ecf526242b8578483cdf4683398f43283b6567615b38f594c8e27a05d0b8296c3bc9bec0f759af57b589d82604532b8b06d6d15f7bb42063b, 0xf68d9b50dd923b901f35a9da9b49be1dd60bbfa3f6faa39d24cf4ba9f8dee7ad50017d3b39328f77546132efc67e1eaa2a49598bcc686ce887f5074cecad0a05),
  (0x4534436919d481f04547a198c4472d68a09f831ae8d8fbaa1039afa097b13d2734412e15782aed07f9a390069c6c92550de2f2883fec06863e9cd08c3aceeead, 0x1279bb6eb39f3e28dddd2160a966120f1882d2d491c9a8f4251168a37cd4c97c3b3df6304d11e8fc0b216904bfb0aacdfe9a6b912ba02dd8cadcb5ed6d6dd03a),
  (0x5778c2ae675512bea8952e31e3fc61ce73a4c6bc1beebaa60960496cbc023e03800be77b6529c5defe0f85298cb83d51aa1244ccb832119a12d388f3a04e2138, 0x605e050f12b60b21889827bc72cd29f694456d1d40cc6f91df58b6e5f47818ce70023043624833e391348b73f947c84678485fe565b1358f93ef743d2d1bee2),
  (0x901d763ff0f877f1e89489cbd0729e8f3930b8d5494f3a473d09ae99a666b11e43b3ef8a46f1f1005756df5909e9fdd122f55ad18048724448501714014ad303, 0xa4b410b3bbb9cae524450016e996ac23f250082f01ce09c5f68a817cd5bf40dc2e632dddd509e5a548e6a7e91953376701262e189a4505824975e3145c27dc49),
  (0x993b3e8b5a60004744dd0c923a654b1379b3c1c4f3d6be3bf276c9f054f4f8e872a9de4895bbe9ca5899ea78d8945891976cfd87a626060ed7b095cbe1b69f25, 0xb1f20dfb14f3d884e9607b96cb3cac713445f9ea308cbc679258abddfe17c32cd0aed40c56767ed756907f5af36cacd53faf54c785aa0ad9d9133adabb574a2e),
  (0xf8dab6affeac4c365eb0d4f88336e2918014fdd9e1147406f467d5f5dc6c8578eeb6359e38ab4b29f9b80f363972b589d31db252eb5bc19bcc3a30c2326902ff, 0xbc66caf2124500cb951494c211fd6375ea2d62840f3f52d4cd4e7d070fabe0cfa9c0630d21aa88a5ec9bd48fc09148e8f5f7c0e3a0efc7a06b5ebe89f148da9d),
  (0x3bb5ef3ec96f7b4bf4b17fc0fa31e80d163634ab5b4aed54771e92a1503c619d2017d666aecb105bec85f65559537fada08631d370527f4ff23963bcee0144d9, 0x8e927be64b2e2d68a0bb46b589fd2c32666e24c0deb9f99c9a3fb4801e5baf2281c03a396db41e42ef3c54153865fc25c49d48890898cbf00b0655192b43c768),
  (0x79916644c668f41d960adae23f4e5277498f6318d6c5480651c58551062f835334682316f114ae486b7f85c5ead98c69f6f398b576a9f12e65a1310c28d0164c, 0x82e3fc53089135b21e57c81bb8a062c0c5ec3b0804b6182aa1c4143f7eb1c5360584b4788bcc7e571f7fdb9ace21216d30d03167f2e3f4a7433194faee9e0564),
  (0x7032f2c4b76e4429c2e7d67ff076b4209a77b9a49e2f19e435908af7ab14a36fe61ef976080cbb009196822e90eaba88234ded1412256583c4e3c2faf7616b9b, 0x5aef75212d26b0689051bf5f4bb5eb88b674cc412697abf5f897e8b5f4dd4092bc196d88a14f30f3ba2030d84d30296ce8ce7828369b2d3c732041184f5a4853),
  (0x44ceebaab537ecbd267ff28f43a0b1e328ee4ac96a5c31fa24bffce04f1224da2e8b669cbe1917d7d0e80c964bb3f807bebb98f9c8ea7a3ea73ef7f5a8de88e3, 0x92b4872e676d9b235c21557edfdad4af51cd3a5702d9d59898685e94c5c37513eec435fd5db1a1a2f1685404f0c29415ecbe88c43884354562355b528ba31356),
  (0xa80f4680db9fa184392d4d4978d38240db595e3f905b0f74a168a5ac610d88566858eea563e092f50f4691d59ca25586adb0a2cee06ad7adbf35124adc335de9, 0xc4fa35575a14de9077958b42023d37e51cbfff60d15b34568e5f37dd22a97f5d51afb598003f3a7fa3f1098d9a76e48c06ef590f912fddc8a74b976341fc84af),
  (0x86f42110d8b17fda33a5bcc51dec837f5239ba6a14b8079de3d39bb3b96bd1d681f4764906790ecd7d834c036156aa6ce7dc3e7ef7deb099cbf9be9c6a6b32e8, 0x4096df81e5f0c9218c572f240b0ba55f47d82c0bb2485f46b2c123611d160ab00bda15fd17a11da4fb2d53205d5780fd2778dd130b361c9b530094c7e52340a3),
  (0xe3fa280a16d2642424a190476eb145b735a8da4276122f7416fcb1992beb77e6b696008b973d3146e9857a5c1c93baf1cbe6bbfc1ee3f550436bcc04967b7404, 0xcee46f0b5868013e8982eec06231fa01f018b47d26aba96f4cc579b9627e94eda2dc292e71384127e744764575921c655ca3edf0b384eb49f55a9038df102ef),
  (0x5621e3fcfdfe22d3c79964775c7164a39d80cdac0cd3dcb3a5d2bf40cc03bce9ed66bcf05e5ac9aa4370f3991deb63068e7ea6290bdb8ac873c0d0b71bc222f5, 0x9fea12738e1d7139227b7d67a2adbac9d967247ee743fc72db221bfbc755c8b1282c40dc03cc64c6e4c5d68ef15425ed8fcfecbe483c37f3204f53971497381e),
  (0x8c9ae57225b2cbcbf67a812cb044ea82dd9b12898c13024c4b02d557a97455501e666ef0471f3d1ab1ea427e546f4a0898c2423b3b4dc9fe3484d7c7058852f9, 0x85e17735ce16ff82de280f67f47e0117493c94a8ee6c6050bdf9593d8f7d49871a0b0345d5b6c0d5146584177cf3ef6672b0ae9ecfc654561be7e75ef8e586d),
  (0x1d05d648efdba35f2e63b3a98a6d295a2226b2decbcf967b5c1d89b818eca78bccff90549be0a07c6e4b43fa61439376d5e356a61f662420390febe70952ba28, 0xf4a3d590237c9df61549e001c158d9d729bb41ed67eadec7b2ed475ecb6210423d222bf30d4ef99a5b4a0ed1da64b240c4532e1595381d1e673aa1cfd9fa7f3),
  (0xd26aec92c0590ce20d57f5e0efef4e7aedfce06fcc7457a9384e8055392fd6785b216336ff72eb5cc3d5a162724e355452d11d2d12eb9c7ddebd9e4304ab2d71, 0x5e31eab8781465f4aeef03d5448291f498ba2d048eb8daf3b2654a10bb522230c505e777932980e3a2d3ecf015bfd37642bbc9eea8839091c918a6a24d29af2),
  (0xf3082def2535891e3317dfea65f27c7a79e9eb1d21a46ec3a59cf6ef77f592c0d1aa3d73dfcd721e53684992d996e2603e0505a88d6d699c4fe693beb4b18e39, 0x3b5226eda65cae2f932aade98cc2f417f1c48b63ca65724b376bfc35467a9ca27c6072a9f9a26368d82293f3ef16aa496b8ce5013e6542bcf7b3bd6732189f43),
  (0x53c46a04b0dd05b6227648a7f60704050e972ced176cb0cc97b1db28485ea7ca494a57fa66c7e62411482d386a95e376f187bacf8a52fa454872333099d1bc50, 0x2adcf644e0bd2713d0cae0f710ee474b61c0427d476b9d63f908886d4d1851bcfaa28b5e4041421c72cc28569096a8c9c734fbd44338fa688a87dfa4a67c4ab8),
  (0xbd344200c33b6828d68df4eacfb05a1ee758b1fa90d60d3d8007349fe0141ff65a29838ecc06676ac813920c196dac4e7a1922fcb470dba1efa8d53a415ad268, 0x15dc233535a8e09dfc8e0a279b97b5d56ac0b3c695a261d15236671db13b954c94a12a2c06227b12b5ade0062d97341ec815b86a158ab0cbeb5a138c7c72e0be),
  (0x360cc4b6b1dcdf1120c882f8b1a096c9c7bccc62497a4eac8ac6dfccf249541bb010b85507f5fa1a7774c3b197703dbf12ba287ba496eb72ca8ba5b862e98d06, 0xe3b0e4f73894bd456dfd3a21870f0e366c15e5d47f55ab370e227c39c1700ee45966426e726515ebea0445e47bc362bb1e0d372e27bdbc6fb2ad2c06b3cb7dd6),
  (0xd1c16c3aa135d67d1bb41b524cbae65dd67eae71da145e38c777dd8e16e7f8c88ffdd058b7ea3aac5bc9f1beb038355ab53a686031490747f014e3ca545398e8, 0x55c4a13edb35b52db22489f9b9b48b54740763a1dd3b130d9063e9bc60e6a97dae0d7de1df4a2e9eea52337d2a8c83276f17bbfe03caa5d9712fc5abb5d67d5d),
  (0x4b7c2d62aea36d9f48f0140630bc603d22b2f8eecf4d90618698aef1e3274ee86bae93a6004f9093656033d3573ff1a886339cb4434e0101e37189daccefb52b, 0x6a9154f9007a18b4f737ed7c4246f70369a64fe1703501e0a8bdd7a5ee4b2b6a046fd0ce4bc6797dbcb2e6e7d9df522c23213c4462ae8c9606c036cbd9475c95),
  (0x83141ad1337f634bfd778a32d47ae177e39b399086c3510fa1e4a808c9de6e40238ccdf728f6356e4f7a394f210d5e3ea1c478901d8d3af81cfc6a73c1265d44, 0x159791aae755fe03b05013bfccd38e7f90f5cf5f28cd6e6d4857a46308d489479b0c2b1b198668ef00bc4dcfc5a52064fd49e6a686b2bf61e561aef0c378188b),
  (0xb7efe5adaa8cfcad0b844993d3c19f51ca0f59beb0fc0b56aded043b0c5ddf57ae35ed32ce4b216476f53631a7c9f892ae6aefeafe672e9ca4aa013b4544a8e7, 0x41b78d7b54cae66b62575c8351f4886c6121359991fb80bbb8b329bc917857c5f2f11e2147c0c85c78a9d26c9e9d01aef686cd242d6e498107f0b5d03ae56ebf),
  (0xa138d389c49d9b3f359c038e92cc951eaa15ebaef6d7a2455f6e6d78c6ccbbf87d99a119e335c44eaa3a1efa1651393a599fda6f3bd16e7f9ff68285a466c7c8, 0x662ba7f818632ae8fe5ab3379948140470cd1aa026f60b40b9fcfc940b7a5d1b96db222b34ac6cec10611cfd81991f6c5d2e4fd0a02d2e24c710d6d33e1245b1),
  (0xa2342e6b8dd7c7c65badad38afc904a93b73ed068b615f9c2bd27373c0e271d4d8b11dcdc920261f3a1bcd49359b1f2e313b4b5dfad74efc8f1cd0a0a7030929, 0x7dc09f78355f404695e846f19130f47aab1b06829c8856d9ba76fb2d669d3807e41b04883383fb10a608c8ff3a0f5d016ff88f822ad5826ad68af473d7e35a81),
  (0xfe161583e1800c60e08de6f2397b0543e7b3dc13960c5724ecd6719df208a77153ecf09a3f94984c669de7b92869c08736e2a76a680ecb9c0d02ba3269efb4ec, 0x8cebb94f05a31936eec4469143e82c870ca336a7313cb6ac8ba48c7bf9d698382c8761359accaa5471773f499aa98337b47e55ac9dac5cb27d1aa70e30c0ca34),
  (0x907b4b8ab222520d267c6da17047f58021039819c52332a699afe6aaca5fbf8c8850db394c3a00e7e56d6cb48f362fc753afa73e4036ce9b73f0251eaf8059c9, 0x72c0f93efa47dbb10dd1e0a19ab46f485a247e76e3bbf0dae44f2da8cc0caef23099cb9ad8705d342f98f075d541c5d1a764968d985a112604341fc24672334e),
  (0x44946cc6686c50d418cdf91fc51ce207102f9bf3c5070a1962fbbdf513aeedf419f5f9f02d681d8e54eb2f539113b0a23b57bd5704db65e2af8b5233bae64ed8, 0xeff0e9a9cd4d4bf296d0e4bc91a7e46e2df6da7f8942fe1a4a06554b4a27084f3717058a877ffc890a429f50eec40c589e403bc59d6248b280d83508a826c6ab),
  (0x20baf6ec0dce4e589573ea5e6c1d5b066c49103546b13bac89c52152806c5b728ec13fd3fd7842f62b32a3c5ddf49c9f8357775a0e51d2425512d30e87520dd8, 0xecdd3f98698f4d86c3d228da437d9876ce4a4836355f122d6ab0b1e7d8cbafd80c09715aa2e591defffa2cf170048a70ac7dbca3969be1909d185381c81b1201),
  (0xc176b7ce71cfd566b17979ac45a353f5d2b102bd72de759dd101099e5fa38e1dc473242bd21aa3f4e08d2d3280fe787fb5fd66e88b279d143e94fe590aa40a07, 0x9c961ee867a00b26557d04424d818295029fc6b543eba33f769e73ef987aee5d451559dee422749f4ad84716f405ec0d08a0fb21b1b0abb871539f65cb1a725a),
  (0x5aed90145a99201357309c9b385fa43e34eae91db7b335d73f4fb704a6e095b98c38a7be5e1e85353f700d960a879d1b47979525e94e80485b2168fbe20636c8, 0x2ca465d2053cfcebf548831a8c934e55186064c3080d5c015876234b2cee6dc7137c751f7c9832004e4a5c1c4e0402ec1d678f70645c3ca0f2943f5ef017d483),
  (0x8992d8fb93218bb51547cfcb5b9e2ffe26668321540821e8ded7fc3f847723c7f4f37fe4d4fcf864b48549d51524ce1f13a29fd311a3b73977818ea724464675, 0x4d3bebd38f1a1f8b03da5efe8d833a4ecfd1db52a5c8bb44c13b6c17e29a8ac47758a34828f82f86f1658acc1032d0e5c1973d2a0891d82c93a136ffa93a8960),
  (0x870fe18d192169ad4da4a48260a0dbf8beb80024ed661f485d2be8b102b749c685d75681d0d8917d435c63b424b5264ff5fe78d4e40f99423808636bb4dd627b, 0x5a694f7aa4ab78ac09cd7d90642dd0518e092c8bb78ae354c613ecf56643ec88c6b59b71ab5ef427cbbfcfcea73a6999ddfeb8c209aff331cc9385932922c246),
  (0x6f30dca6128b6399553434d9cd87658888facbc6905760e288b1642e2aa69469b680960bd5b7fe1cbb3c127f05628ea4d43d01e47bb45bff89b321002f3fdc03, 0x49530b3965bac52b8bc0301c6aaec32550aae01f600ce7b1f76293ebc2e74fdab5f2c06d7199c65518758365c542455d212242618ae530fa0aa0f5eb1056f5ae),
  (0x589cd0bb6b542f701e70512c44680d744b205615794dc854bd93012a4c32039fdb8efe95f3138f0b5fe2537a1f83e69f53b752ee1b7677ca03efa509412270b7, 0x5e03fbfd18e849be62ec99b10d6d76b9069470c67289cab69f6ea3cd17a843c69ab02bb24db0ca9c3e3c274f06808fd5d100cd4e277f27ed6c581bde12dcf884),
  (0x9bbd42d7bb09c5e7a3bc59b6ab434fed256aeaf317925b412e1f9049672f5d45df1438cd5096161dc034c33ced3a51eb90ed62b9f97ca40bc9d6931539b11c49, 0xc0d9abf805f9e4e297325306efa462dda970f3708645bda230942a3a1cbbbbfb4ba395653e1789db4234847826cf9ebad7117f9684fa02b2ca39d6cd84a294f),
  (0x9adda4697f81a07535c3f3034e4e44c1e97b32eefc60bcb700dc944bafe40831c8bca5133f718575c9ffc47aa01d9f55c07fec2da330b022d82d2a3121f83a1d, 0x476f9d12ba0e42a016b4cbf33c82f4c03424805ea392999318c7436cce8b1166809d0c6a2bb5088c14d199afbb39bee07ba265d2fde93ec1f5b1c9f041d3f61),
  (0xab3455af27b0b8b767bef6bcab8c49acd83560ed6e939514716e71b8751df5e6720b3956b509a93dda21a255930946d058be3e5c85d3da023b814518caf933fa, 0x3c5c3a7af7b1c98b861a46269b21169ee3b022a3b4fa6978b93d07c05e7e53b3469c74bff4f77c017c9d79b3f321ec8dd56414dcc6fbf0a492210d801586c56),
  (0x459285e8d2bdee86b4dce99b4db9383a1e29ef1647f4bfe0f3206efd9f6de2aeaa118b17de793d78a4dd64e0a0339f5b24c924e00c757795ff4aaefa81a0fd34, 0x512998297c8863f1b874b2a29eaa9f6c16c0a02f7807127dd84c0461cedbbe6ef53f61f30e5d708a33efee9af64f657653aefcd26e96e3b24ad91f9766af2e0d),
  (0xdece0b65623794603105242b2d0d6a4f685d773486432297cd92f2bf179a8f440a1ba91d454c5368ce802930e46901ee3b1853f5319dfce8b17aa52ff0729e58, 0x36ec7cd1f29ba8ef6ab31ea92317f55b07c3ec8a5745727f9bb71649962760805172335562faaba43db1d53456ae0dc298782624295f5de92afd6b9abd4a8fb),
  (0x370fbc9dc2558fbdc5300f571256de88e506efbf39839390965a844256e8311f4dce61e356c953a4d22945247eb5a3c4e5db5bdd6f9934faa4b62b7b93c07df2, 0x2934526260c277fb837b5387fa215f9bbad4731b2cbf76fd5412bc861339207ee8b64c15df3b5c8bae7c5a39aaab4176861e3e7e644aebfd934a4daaa3d91cd5),
  (0x811e50537e69d139a5081973814c8fe07b6041e99e6a0a0a318f3eea269580a67987b0ff822a077295cbb0fd4d35f1b4950838e460fa05aca1a8743dc588e30d, 0x4b08de29a5aacdd62336abc667f5b2a98dd9194c63651d6c2a55354d428f20c75507e25569463b8a552303ac0fb35a335b79db486f116507dbe40ac6b8ea41),
  (0x2be622087c7efc4d0f1301eb14847a48d5b0877e59ae827f0aac926c14708167ce2ee56829a7c6c5e162c6756da90117962c41876e311a25851e265fb93c3527, 0x1e8b61db3590fd3bf139ebd4d6162481133fb981672f2883f2f35a44d24282654dda4aaecb68481291b39a189eb3daa2a82d09e0ee15fd82d82cf252f9a71635),
  (0xccf1bf6339aa550ff275df009af4183d67cd4c6c6ad8d361b7aa8b46edcfabe5a735be88e65b20cc3295a7f0ff3db60e4cb9475e7c903a64f6a76f9683ea02ef, 0xd642870d845151495114fa91fc4a0ba8d8ccc9715fe55f4cbd010a8d2d4ec797b74e19f47bf131a854467a062b94bd4d10f36ab9b11434aa3d4cbdbc71236b47),
  (0x97145eee3cdda39a3d4547839ad4d08f48b3f7f16abb85967980e602b23bf2844652af2c39e83f67fc2472552ebf3573972cdb69396f069b19e2eeb9efdce525, 0x6e6d0f63eabc2de076a4027c6d31dc014246b928ff1dae088af8c4c8e5c4f9597ee1100cce662d896b63ec5c25bb2e28cdb6757c619dc1c2f4954edaaaa6e25d),
  (0xa225b8cd6b17175155a9b71d6ee557e4a26e0e2b9d23e845f08347ce3b299ca94e288c5e4ac9057f4b4be2a2ca19b2568c8c9f5935ce60b09934fa6c32028409, 0x55fd50f796484b64f6727254937e4a226aeaadd9587c824322cf9a24d8058541ed94c28dd23587242171ba46e2c1153167ea4ccf73c122feb9f96bb757d6c29a),
  (0xa8bcaaff381ffda306dbc7a35d2153d937381d766bd2a47f529efeea94469b08eaabede5a5054c1526805fc5831ce4d889b0d0140c97cfcd583d704bf588134, 0xfac45eb2df8502849b62ad72e1271899351c225c16d24efeda507e9a993d4611180d717506d59a0d02eeedffca01db5e3c9ab6571d92bb90165b8c0412bdb5c1),
  (0x3bbfc3bdb24007127fb5ccb95a985055a677e798673282d95a22cf594d2cb2ed108ef3d8f164986ed635fbd67cb534712d83e1541c21594ad7d6e8831f027f41, 0x518404d59a9a886dde71100129f547b4a9a9b8bf61910ff6ea8d59d00e8e9ff61f73c958f14ed68eebdfae8ccf8fb2ebec2d0a8aadb2597bb4ca79deaf6d25fa),
  (0xb50fdcce00286a03871203f662c9ddd36d3ab9df6a06a2b7811cbb0ca8d8a06f0647e58a48ad449139b062a3de557cc2ca77570c39d0334893f4115a148e02c9, 0x9a86e21c0756436062f7a47d8a2f47a526aa65ddee5abf04cb540af4d6b94e3359b32d758acc8bcfcd5db5820e971a785e198f9ab621bdef68edbedecb11ae3d),
  (0x501df1ee23f6e2b3c57a8f4bc95b44b90b955c57fb22ddff29fe2b37bb2c4eeb2dfb4f22be87c04e4c9ee9ce7c2646525a7eb4fb4156eb255f33279d47c2dd4d, 0x33df0d0c43a1eff05f2f87dbd14696bc0ac3a245c24b9ae702f10ebb1e54024d7b26c20b4d207463b89232b2732544433cef59a8b9016cc832e318b1b75bdc96),
  (0xd9a19d823d7cc8dc111429d5bd7a64eed62b6e09e86e518f796ad1b2ceae00bd98e474f85f69f7c260f276fa0b2e2960054dd6af81b23e0ce73c1ecbf25889ac, 0xe75d8bac2ee57b20d2dcb96803e694f111832149fd82e2b505626ed32ad11df8a277c9549430fbfd2e2828c8b09b47a40db91b10cc7edc58d3e7d1954a38075a),
  (0xac00d85cfd49a4d89dd68b5fea34d6a44452ca7f338d83a54c67d93e41676075dc903e47fb7ebbee04a9226bc32f76f4491aa09f8c44496654ac0e2d61d710c2, 0x728d0f7dc564337fa79507a359c1dce5edf47a4b2e1f7f74b7e13eecf42fe6f9a390c3dfd481022e8ce019354c19d1998f6d3f5a88087b4a37ce1bfc9e9d5b16),
  (0x3dc4bba256e90a07d5bc6bc7d6c4ab2440bcbe200ef7f973b38c4163af039f8e1aec7818d8ef1faf23d279a2bb3a985f6a23af982806502e0ba2a79b3d1c7463, 0x9845fdfecb2192a9363b17c7e2cba753b947e24da9b4d1daa7451cbd41e27fbb2ef034d779e8fc5acb9085123e17f766705d5ca68d8714635f5b951359ea71da)]

theorem chain_ok : chainB (fun x1 y1 => eAddB ec_tc26_512_paramSetC.p d x1 y1 x1 y1) u v chain = true := by decide +kernel

end Gost.EcpChain_tc26_512_paramSetC
