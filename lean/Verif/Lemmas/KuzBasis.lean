/-! Generated by /verif/tools/gen_kuz.py: images of the unit vectors under L and its inverse, as
proof witnesses (Lemmas/KuzTables.lean has the kernel check them against the model of the code).
Entry `b` of row `i` is the image of the block with byte `i` equal to `2^b`, at bits `128b`. -/

namespace Gost

/-- Images under L. -/
def lBasis : Nat → Nat
  | 0 => 0xe53235d7826b4247295078a3e6d9bb219319fb8a41d421c2f5283cb0738dbcf1a8ed9c45c16af1619b141e58d8a75e9954974ec3813599d1ac0a0f2c6cb22fad2aaa2780a1fbad895605e6163659f6b71555f240b19cb7a52be3730b1bcd7bbaebcb7920b94ebab3f490d8e4ec87dc5d9484dd10bd275db87a486c7276a26ecf
  | 1 => 0x6d22aaca652c3fd046bfe6d4f9276d2ad7115565d316fe6823be736a9df2d7158ae9cbd3880b7f34f05fd835af798aeb4595848844e4de1a78ce6cfbb6dd4594c3ab424422726f0d3c67369c5b8fc34a80b421221139d6e71ed21b4ecca68025405af111e9fd6b920f69ec27665340f3202d99e9959fd449e6d576f233c82098
  | 2 => 0xb225a57a01c14771d6740f7ed7712b2559f3b33de181c2d96b3ae63f8ad9f4f3cd98b8ff91a1618dd41d73fe458d7a98874c5c9ea9b1d1a76aefd87fc3a73d4ca2262e4fb5b989b235966cde80b2ff26511317c6bbbda559fb4b366f40599e13c9e8ea63bcbfb3cd9cc41bd620cd4fe8857475d05ebeb8874e62ec6b1087c674
  | 3 => 0xd726e470ba3de1929ed1cfe4cf6033418a1372385dff91494f8986728630f8c145e8391ccf9ea9c5c6a5433943187c81c374fd0e864fb58363b3c0fdc00c3ea1803a9f0743c6bba0d0b8609f60061fb1401daee2c063bc50685c30ae3003eeb920ef577160d05e28342e185718e077bd1096cad930682f141a170cca0c70dabf
  | 4 => 0x6e42a654ca9e38640486686d183da0e33721532a654f1c32024334d70cff5090faf1c815d3c60e1901c01a8a069e28487d9964eb886307ede1600d45034f1424dfad329444d0e2979130e7c3e0c60a128eb7194a226871aaa91892807063050947baed251134d955b50c494038d0e3e5c25d97f3e91a8dcbbb06c5201c689093
  | 5 => 0xad669fe5b7af1438612202095799507bb733ae93bab60a1cd11101e5caad28dcbaf857a85d5b050e89e9e19365b7146e5d7cca54cfcce307a59591a8d3ba0a37cf3e652a866690e2b3aba954885d05fa861fd31543334871b8b4b52a44cfe37d43ee88ebc0f824d95c5abb15228690dfc0774494607c128d2e2dbceb1143488e
  | 6 => 0x803b44f54155ccd397e896c3fc187dd440fc229bc1cb6688aa744b807e0cdf6a207e11ac81843344553ac4403f068e35103fe956a142f822cb1d6220fe0347fb08fe952bb1217c1184ef31107fe0c29c047fabf4b9f13ee94296f908de70614e02deb47abd991f95214b9d046f38d127016f5a3dbfadeeabf1c4af02d61c89f2
  | 7 => 0xde76c096d7a791d0c1c6bb5ffea46f546f3b604b8ab2a9688163bcce7f52d62ad6fc30c44559b534a1d05e67de296b156b7e1862c3cdbb1ab1682fd26ff5d4ebd43f0c318087bc0db934f669d69b6a946afe06f940a25ee7bd1a7bd56bac354a357f039d20512f92bf0ddc8bd456fb25fbdee0af10c9f649bee76ea46a2b9cf3
  | 8 => 0x8048baa94c328a0a3fbf59389c9a2d4940245db526194505febecd1c4e4df7c52012cfbb13edc3e37f5f870e27c79a83100986bce8978090decea207f2824da008e5435e74aa40486f6751e27941c7500493c02f3a552024d6d2c971ddc1822802a860f61dcb10126b6985d98f8141140154307bef840809d4d5a38da6a1c10a
  | 9 => 0xad889c9bb0e148789609403f7cf4f241b7444eac5891243c4be520fe3e7a79c1ba2227562ca9121ec493107f1f3ddd815d11f22b16b5090f62a808deeeff8fa1cfe979f40bbbe5e63154046f779ea6b18695dd7ae4bc9373f92a02d6da4f53b943ab8f3d725ea8d89d15016b6dc6c8bdc0b4a6ff392f546cafebe1d4d76364bf
  | 10 => 0x6e383af20f098c24bcaaa0e891ba4791371c1d79e6e546125e555074a95dc2a9fa0eefdd739323092fcb283ab5cf61b57d07968fd8a8f0e5f684141dbb86d1bbdfe24ba66c5478937b420aefbc4389bc8e71c453362a3ca8dc2105965ec0a55e47d962c81b151e546ef1e34b2f60b32fc28d3164eceb0f2a379990c4f630b8f6
  | 11 => 0xd7fa3920201b54804dea8780d07e22108a7dfd1010ec2a40c775a240683f110845df9f080876152082db512034fee904c38eae04043beb10418cc9101a7f95028047570202fc9408c14685080ddeab0140c2ca01017e4a048123a304e76fb4e1206165e1e13f2502a1f0b00292d65a9110d1d39191fef301b1785801496b2da9
  | 12 => 0xb29ff6ceec2b2ab73fce0c72062cf18959ae7b6776f415bafe670639031699a5cd57dcd23b7aeb5d7fd203fde00badb387ca6e69fc3d94cfde69e09f70e4b7b8a26537d57eff4a866fd570ae3872ba5c51d3fa8b3f9e2543d68b38571c395d2ec9887da4fe4ff3c06ba41cca0efdcf178544df527fc69860d4520e65079f86ea
  | 13 => 0x6d75509d5050277b24d2c33592ba9f7bd7db28af2828f2dc126980fb495daedc8a8c14b61414796e09d5409cc5cf576e45460a5b0a0add37e58b204e8386ca37c32305cc05058ffa93a41027a04365fa80f0e366e3e3a67da85208f250c0d37d40789033909053df54290479286088df203c48f84848c88e2af502dd1430448e
  | 14 => 0xe5dff24f7dd9ec13bb51ee154a837a95938e79c6df8d76e8bcc977eb25a03daba847dd638ea73b745e85da94f350ffb454c28fd047b2fc3a2fa36d4a98289e5a2a61a668c2597e1df6b0d7254c144f2d15d1533461cd3fef7b588af3260ac6f7eb89c81ad187fe96dc2c45981305639a94a5640d89a27f4b6e16c34ce8e3d04d
  | _ => 0x80e53235d7826b4247295078a3e6d9bb409319fb8a41d421c2f5283cb0738dbc20a8ed9c45c16af1619b141e58d8a75e1054974ec3813599d1ac0a0f2c6cb22f082aaa2780a1fbad895605e6163659f6041555f240b19cb7a52be3730b1bcd7b02ebcb7920b94ebab3f490d8e4ec87dc019484dd10bd275db87a486c7276a26e

/-- Images under the inverse of L. -/
def lInvBasis : Nat → Nat
  | 0 => 0xbbd9e6a378502947426b82d73532e580bc8d73b03c28f5c221d4418afb1993405ea7d8581e149b61f16ac1459ceda8202fb26c2c0f0aacd1993581c34e975410f6593616e6055689adfba18027aa2a087bcd1b0b73e32ba5b79cb140f2551504dc87ece4d890f4b3ba4eb92079cbeb026ea276726c487ab85d27bd10dd849401
  | 1 => 0x957a834a15ee51bb13ecd97d4ff2dfe5ab3da025eb77c9bce8768ddfc6798e93b4ff50f394da855e743ba78e63dd47a85a9e28984a6da32f3afcb247d08fc2542d4f144c25d7b0f61d7e59c268a6612af7c60a26f38a587bef3fcd613453d1159a63051398452cdc96fe87d11ac889eb4dd0e3e84cc3166e4b7fa2890d64a594
  | 2 => 0x7b9fba9235c3d2247b2750509d50756ddcae5d49fb806912dcf22828af28dbd76e57cfc59c40d5096e791414b6148c8a37ca86834e208be537dd0a0a5b0a4645fa6543a02710a493fa8f0505cc0523c37dd3c050f20852a87da6e3e366e3f080df88602879042954df539090339078408e443014dd02f52a8ec84848f8483c20
  | 3 => 0x89f12c06720cce3fb72a2beccef69fb2a5991603390667feba15f476677bae59b3ad0be0fd03d27f5deb7a3bd2dc57cdb8b7e4709fe069decf943dfc696eca875cba7238ae70d56f864aff7ed53765a22e5d391c57388bd643259e3f8bfad35117cffd0eca1ca46bc0f34ffea47d88c9ea869f07650e52d46098c67f52df4485
  | 4 => 0x10227ed08087ea4d80541b202039fad708113f6840a275c7402aec1010fd7d8a04e9fe342051db8220157608089fdf4502957f1a10c98c4110eb3b0404ae8ec301abde0d088546c10894fc0202574780e1b46fe704a32381044a7e0101cac240915ad69202b0f0a102253fe1e1656120a92d6b49015878b101f3fe9191d3d110
  | 5 => 0x9147ba91e8a0aabc248c090ff23a386ea9c25da97450555e1246e5e6791d1c37b561cfb53a28cb2f09239373ddef0efabbd186bb1d1484f6e5f0a8d88f96077dbc8943bcef0a427b9378546ca64be2df5ea5c05e960521dca83c2a3653c4718e2fb3602f4be3f16e541e151bc862d947f6b830f6c49099372a0febec64318dc2
  | 6 => 0x41f2f47c3f4009967848e1b09b9c88adc1797a3efe20e54b3c249158ac4e44b781dd3d1f7f1093c41e12a92c562722baa18fffeede08a8620f09b5162bf2115db1a69e776f045431e6e5bb0bf479e9cfb9534fdad6022af97393bce47add9586bdc8c66d6b01159dd8a85e723d8fab43bf6463d7d4e1ebaf6c542f39ffa6b4c0
  | 7 => 0x492d9a9c3859bf3f0a8a324ca9ba4880c5f74d4e1ccdbefe05451926b55d2440839ac7270e875f7fe3c3ed13bbcf1220a04d82f207a2cede908097e8bc86091050c74179e251676f4840aa745e43e5082882c1dd71c9d2d62420553a2fc093041441818fd985696b1210cb1df660a8020ac1a1a68da3d5d4090884ef7b305401
  | 8 => 0x546fa4fe5fbbc6c1d091a7d796c076de2ad6527fcebc638168a9b28a4b603b6f156b29de675ed0a134b55945c430fcd6ebd4f56fd22f68b11abbcdc362187e6b946a9bd669f634b90dbc8780310c3fd44a35ac6bd57b1abde75ea240f906fe6a25fb56d48bdc0dbf922f51209d037f35f39c2b6aa46ee7be49f6c910afe0defb
  | 9 => 0xd47d18fcc396e897d3cc5541f5443b806adf0c7e804b74aa8866cbc19b22fc40358e063f40c43a5544338481ac117e20fb4703fe20621dcb22f842a156e93f109cc2e07f1031ef84117c21b12b95fe084e6170de08f99642e93ef1b9f4ab7f0427d1386f049d4b21951f99bd7ab4de02f2891cd602afc4f1abeeadbf3d5a6f01
  | 10 => 0x7b509957090222613814afb7e59f66addc28adcae50111d11c0ab6ba93ae33b76e14b76593e1e9890e055b5da857f8ba370abad3a89195a507e3cccf54ca7c5dfa055d8854a9abb3e29066862a653ecf7de3cf442ab5b4b87148334315d31f86df90862215bb5a5cd924f8c0eb88ee438e484311ebbc2d2e8d127c60944477c0
  | 11 => 0xe3a03d186d68860464389eca54a6426e9050ff0cd7344302321c4f652a53213748289e068a1ac001190ec6d315c8f1fa24144f03450d60e1ed076388eb64997d120ac6e0c3e7309197e2d0449432addf09056370809218a9aa7168224a19b78ee5e3d03840490cb555d9341125edba479390681c20c506bbcb8d1ae9f3975dc2
  | 12 => 0x413360cfe4cfd19e92e13dba70e426d7c1f830867286894f4991ff5d3872138a817c18433943a5c6c5a99ecf1c39e845a13e0cc0fdc0b36383b54f860efd74c3b11f06609f60b8d0a0bbc643079f3a80b9ee0330ae305c6850bc63c0e2ae1d40bd77e01857182e34285ed0607157ef20bfda700cca0c171a142f6830d9ca9610
  | 13 => 0x252b71d77e0f74d67147c1017aa525b2f3f4d98a3fe63a6bd9c281e13db3f359987a8d45fe731dd48d61a191ffb898cd4c3da7c37fd8ef6aa7d1b1a99e5c4c8726ffb280de6c9635b289b9b54f2e26a2139e59406f364bfb59a5bdbbc6171351e84fcd20d61bc49ccdb3bfbc63eae8c974c687106bec624e87b8be5ed0757485
  | 14 => 0x2a6d27f9d4e6bf46d03f2c65caaa226d15d7f29d6a73be2368fe16d3655511d7eb8a79af35d85ff0347f0b88d3cbe98a9445ddb6fb6cce781adee444888495454ac38f5b9c36673c0d6f72224442abc32580a6cc4e1bd21ee7d639112221b480f340536627ec690f926bfde911f15a409820c833f276d5e649d49f95e9992d20
  | _ => 0x21bbd9e6a378502947426b82d73532e5f1bc8d73b03c28f5c221d4418afb1993995ea7d8581e149b61f16ac1459ceda8ad2fb26c2c0f0aacd1993581c34e9754b7f6593616e6055689adfba18027aa2aba7bcd1b0b73e32ba5b79cb140f255155ddc87ece4d890f4b3ba4eb92079cbebcf6ea276726c487ab85d27bd10dd8494

end Gost
