import Verif.Lemmas.EmbeddedCheck
import Verif.Model.EmbeddedSetup

/-! The G1 points 1536 to 2047 of the embedded setup: each number passes the check, with the second coordinate of the
point as a witness. -/
namespace Verif.Embedded
open Bls

set_option maxRecDepth 100000
set_option Elab.async false

/-- second coordinates of the points of `g1Part96` -/
def g1Ys96 : List Nat := [
  0x193cdb86c6e1d5007a64b0b8bcadeba70ad6bceace5b4fe3144ce4f70a3c12bbaf5245b2db0bb105576661b2342da293,
  0x110522d02539b8f5ad7cb7be5e1e7728681d0c424111766a754be7ca55700bb81829200b3383d1099b6bf90350294a18,
  0x0fa6301942967c912f6efee2530957a47ef6e057ce13a2750e8088d050256c51188e8ccf08e26432a7493aaae79d8caa,
  0x0465ed857ed1ac7123a62547aa395f8e9bcfd4c7efd92005df66baa9e96f4f62aca86d12aa7bf1dde149570cf474695b,
  0x0763f0ecc0340288b1e5833e5007bccd89dc303edebf4c7bd1eb8a5ef6e668ebb31056573cda3fab9fb9770fa56cdcd2,
  0x14beb2b0b1ba6204502f5f8ae3279bd1008082f18f3a27c1c4560b8a675e4e965655afac18748c06fd19f0961a323eee,
  0x05a120710551d13860ce9e0ad879cb0026d9a9e25791acae5e1584cad481f5a352a7ab141bd082c74501d36bb322df8f,
  0x0c0ddff5d43ff18dfb2704e531138171166f3a6fcbae5e865ec25b062bcc7b13d2e93a740ae2d07aacb0b684a86728cf,
  0x0ce504339dcc7ae9959201d6bbffd1a46b61289e8cccdeab8bfc2d2dcd40cf55c270d8cd69151e2aafdba8224b0c6621,
  0x152d7c96cdb7f4615713484da6c238eb774f2dd0a3f3e169c84a92b309af3736c8d2ac3b7332186cd63fde4130054c58,
  0x18f3ef0eda0c7c552c3be2af49af3228db980c5df2bffa3c506174586e41818bcc9bc950b9d7d7e0c6c834cdb93e444f,
  0x12e141b61b418f3220f6e9d5f709945145d71d147e1b79c69d867351c4a7ef8b52a1c93930df043e45c40dd6f6593446,
  0x122ca6e0119821cbb5ce0892a40fdb12cb901c4b848e977a7fa5a21f20da5686b7072516731f0c3de943bf8fe1e9c898,
  0x04d08b0f1f6500f62a2f51d613e1ba51f5f11809cbad3f3160d6dc75e77deaff2db86bb8e9a1fcd51ad7f8822fe45bbd,
  0x05fb97fb0661ba0491b636b88d26f6a18d0af090e08f1a1ac48090f59a93f67c9c34dbe4201949f5e96dd674148e0d5a,
  0x175b5ddbb48adb27560920f55ec0b80e2777a1cb9872181b2304b05a5a33444ca50d9d24a58b99d2b6a452b522ca0bd5]

theorem g1Part96_check : g1Checks g1Part96 g1Ys96 = true := by decide +kernel

/-- second coordinates of the points of `g1Part97` -/
def g1Ys97 : List Nat := [
  0x0c04bf4a643488b06c6358009744ee5d84fa48deb8394204a4208c42ea9c7d699a192ada28322efc59cb9bb738d98fbf,
  0x14dd485f6527c8524a9d890469941eb54d19200d86c0c991c8274cbab75087ea703227abe51c5a750bbc61ab20b2569a,
  0x0cabe6edcaa13cbe69e990bdd39d71b9694c87d9d9d2f044b0c283d0058c3feea3a5240adf7eb49e092fe79e523890d0,
  0x1751ba5dbd0140ca95dfa47b1525d53c0248a19b6fd42f38d8e017a815c0731b1637127b090bf800b7baade6081d75a6,
  0x1106fb3524cba7eb86bec946b376dae85d0bf3ae98cfbc675aec7b4662ffcda25b84b3a3f62665ba674e2da3b0c05625,
  0x1522e43ab77ef8dc6e5d68ce3c4a111b7ad4244be632bcaf41a7536d8c843038cd8cfc9a197d0ac97cee990ba5dd7603,
  0x13688583dfa09be899f3d5a09fb589ed9a9ae6d16f763b6086c334e48a138f2d5bd80773a54362acc668a3d76841bd01,
  0x0bfcab4ace7677b741945c24f37536092e978db7dbbb9abaa80faea34394ca7e08a3e6d6c39d67c966cff6cc20685a3a,
  0x11f6b30b552fda170719cb59740722796d10ec6d81a80753fbabfc47cf836737f8ba962fc95e8862676c67cb8e0f976f,
  0x0598a9b60ce28e69c2d354148b60832dd4deecde78a7f6012ce70e1fcd66b8987923ab56860598cf79445754505789e3,
  0x0af510e2aca6c01bb8a7706d163bc1943291121668374d2eab787cfa75e7aab6516743aec064bbb42694a3dd6eb37e1e,
  0x16160d7eab8a3c9c7a8725bfac26a3b6eb696b9c3ef1071cae27808a9feb6701f39fe41ce5d33789d545fb545dfe4440,
  0x10300c7b94bd3d5bee20ae7aa7c53d5629259ed378f49d709eeeac3d9cd4d1442c23e0bff12921622917728dc547f676,
  0x0aae191dbaa9b3d314340bfd042bef9bd964bfc302db2615cc93a47c95c8cf97708c59b86615ff232c44c76846a10f84,
  0x06ea425b891195ac8904691ed49ce6ada8e566f761a52408aa91f69ae49661edb585b402229074bb60b42457bccf987e,
  0x12f0e8cc9c8a7b71b2b24d6a4b9771b26107ef5def0c3c25190bfa404c6c0adfb78d89c324a4065fd88b38284c0997f1]

theorem g1Part97_check : g1Checks g1Part97 g1Ys97 = true := by decide +kernel

/-- second coordinates of the points of `g1Part98` -/
def g1Ys98 : List Nat := [
  0x14b95747f3c46dacb05b69a7395d598591362afe975f7b63cd9c2070b85d500d94ec24def092df8710e498053158e1f3,
  0x0fc25dc4f61949ac4b1e912d3864079d7048ff6cbef39e3c073e3a2e9efec77f121e18d2bfbed3b7731e6a82ccbed58c,
  0x1114ed0cfb3a15b31c38fcd571d875f072c550d93fe018ecd959fca528e105cd31688a46704b83aa35ee762d6a4e8296,
  0x095387cf12e79322ecad801eb00503863b9b1b009948e5b1c62cd9bf79e032c5bd3354304bcca6dedcd5e8d555f68bdb,
  0x12a6e8ac0a28e5e0330cd17760ff07339ebb77c715d4aed7185b2c3e8381a4c7e104b20311933f352eea85d168f18c73,
  0x066ae6ffe213bb7ebd4c6ab175a5d6355020a7e18b75e76fd82904422c3f4a948b6a3be2d327dd975d73fdfe619fb277,
  0x127759b0296acec7c220f8497cbead5523e4355a7c12ebd2f938f39b46394c0b7a4e2c0443419c663bb1f3092b042845,
  0x0bda435fab81c2f63c5c24e9d203d8cf717113a477746ef8eae82428290c73cac1e9820303423bb738f5c9c5520a1392,
  0x170cd0cb5f80b82201c31907aed55aa1894758812535ef6da3f4345908d87f85c98887aafb7062e2ecabe8bf3f767dea,
  0x0935bb52ca83e7ab562df2f85fd13e9db27b2d8932809ff68a23273b720af5f2937018669cc7683a4c4f86e28981b3de,
  0x18b8f714ecb07bf430ba8d6bf7a84106ac63111bddc151602ae84386647f6b8831c2f5edd8c8a5a2e6ad336647036342,
  0x083360531c85d0a1cd7e9b6a10ece0b92587575ecd205e0b2cb236df45a62d6ab480daa21f496a1b7e7976399838df1a,
  0x0cfccd00688d5ccd6a69c87c0dd6d36d7e0cd58cd114446432029efb817509285d82aa2501d1dfc3babddeba30884de6,
  0x07f26e07d5d769bb4929ce4168af0885dbfe656251d05689effc1fc829e115cc6d1dc152c190368b617ddef3d3b6c8e2,
  0x034e560a51b34e2d38cf2911d0ec201f95cd66e9fc77cba72c34721cb1896a37de8b572a598dc1f0481f954ee408e09f,
  0x1263d204f0889f00c3dd835c3219022271d7a0c269061ec14eaa1cc95a202083afc4af3577a86d3a849474be5be4b1e6]

theorem g1Part98_check : g1Checks g1Part98 g1Ys98 = true := by decide +kernel

/-- second coordinates of the points of `g1Part99` -/
def g1Ys99 : List Nat := [
  0x0b1e6ed30bfcb3bd313449696c87f1d4a3d58e5bf8090fc13305c50f6a0346b570e89b8e389a86af18bee032003124c4,
  0x16a31b563128db235b169c0ab1ece050dad431a0aaf321ba0319083dc4743461f67b2b8445a9e1c1868d78a4606e9b4e,
  0x1457d4b8a69238f5c1ac01abf2c6b41c9ab9a6a14f25e84419b84a5ee6470ff777647c7cad8fbd136433fb3ebbb0d3bc,
  0x19d809648499b9e10cc9609cb56134593c483d627bfdf99a1ccbbbf25817988927d9f8de9c9d34fcfa17610bcf28f94d,
  0x1638618ac3a6346dafa550c351f917e71555461ba04e6c2102da858fcf9bb2d7b2bb452a0404c78a782408240342ec27,
  0x0b41ad1a9b8634d03668ef5a0a084e6022c065aaa2e73d5b602e2618bafc1e3b798b1db349391f45e337025167d09d3b,
  0x0ef185dfc0b019de1194a3f0f3dc43e4179bca3315a2fa851f952b9cb5d5c292e94f245954b470fcb3cd12228ae46eb9,
  0x15d608eff1e772c9c721bb21898360cb0e20e24c87369f9eb957549c9f0391d910a31f5a9a54bd2b68836d3ea92e4802,
  0x1324073e8940a0beb4fdce81e5a018fb97e995e07dfe53c8f169d9784d0be601106c2cc3d2d19d8a31c31bba4c0f0573,
  0x0b8ec82361eebd8b55dd2d1b2f3ae3d00e9be3f593870df5db50dcb303211eb8ee86f614311b58b2467b04a2f16fd60c,
  0x182fb9c81a006b980beb7d731a96c97561e9920ba76ec72d8f2f8764f950d3b5dda92e191c9cf80f2364ef9dd7d67fd2,
  0x061d90d6e3e1907c71e34ae75976a49f0f61349ba77473d801f90cdc197018f06b837d8befbab8a5c0daba77d0a6bee5,
  0x101b2634d5a4dd832117f175045fd0d330caa810026f3f4f9b25c8c271b07d311184abe7dec3ccc4bb7bdf5f77d5be14,
  0x0e399dc76f7034ae971c6a645552ff548d2919897e89edc79f78278db0dd494e34c2b856328d82a5f28a264ce42bb7de,
  0x0a5b48f22b2aded4eb4b574511a2448ccd9010a17d10f4de9b9df3a42893c40b8acbc3655566b8a7141a33453cbd1312,
  0x17a814175e329933fccaf3fbb71781d02e6ea53d5360bcfa73219b48f501daa3180e8f38987f4320d59e62010d955c3d]

theorem g1Part99_check : g1Checks g1Part99 g1Ys99 = true := by decide +kernel

/-- second coordinates of the points of `g1Part100` -/
def g1Ys100 : List Nat := [
  0x11fd0d132d84399944d84eb43991b074d8b6d38157f5b7f028acb79969707df41bc4c4ae68a1e99f17f85d10f922bb60,
  0x1426c622b012e73346fd23b520f4188842744262085666bdc1467dcf066fa7e92e5f8059d6be63be13df6e375ad46bbf,
  0x0b837aa76a4ff301e5b914de4d692ce89996bfdf1a69a0191931c8991c1986607e0362ff857a0f61c6b17359adfc232b,
  0x042f2fd78a3bef29fbc45beae6e022311aae51bb3911d8c932f52737c7724d18c16bc04b865592e5c5f7228cc9c54bb0,
  0x141d68353e07b10e94ae20e13a137451543c11176da6dd7953e6e76816ec06d2203834842e4c54c444bdc44c566da519,
  0x12e18de50440c047cc8b8c29105d16f451fdd986904922edf5eff00e9451cd3d66796967b4332f9a11a55dc57841537e,
  0x124eea50526998339583fb8a4d3e6a0dd953454cc02959875cc7c421099a58f33632a92c5bb39e5ce8de3818bb5cc89e,
  0x115a0323abfd377de3e5b8e926ff237b171546f1f5566f548f49674e4f389c762f302b5745887678dede2c8c7d03e4c1,
  0x1599be5900bf08441959fef8b6cba024ebb4a9285fc762d4356e9b97e64d10c9da958ec9d2e8f82863e743b5dae174e0,
  0x0d63dd0e1092ba1f88ba33215a26b4f61b2786f723dc340a1000fa4899e6c54970320d458a059d49a827a38c2921d095,
  0x035abb6872294f2f29989b670e4ee2847c66277601034d4cda367dba47f759e467e3aeccff73645a7c183209678cbeb1,
  0x009423b1920243e5624618b1557e30bdba40e2c60894832e912c0578b06e7476c902abc456984e0f78b3433c42d0e831,
  0x0beb5b115e2850d69c6a9fa2efeaa0172e41b2f78e726f261a8a827da44c53ab75a4e3afab3cac9cf214a02384567b28,
  0x123796585847e0754889fa846ea534c146803188e7e0c3e4c7012f028817e8a16b5c7c52ecc201aaada2d6e98a6978cc,
  0x00214eb5857888d6e202846bedd489b0ea0e44f38d665bf2559a248d2235151ae6d2b29b7aa8b647add28fb100464b72,
  0x0acf27f6b3a47aa8d3e090cbf34c29fc3b5405033b35b2d038f19674fc1461374aaec16f57523b0520f081fa2a1decfa]

theorem g1Part100_check : g1Checks g1Part100 g1Ys100 = true := by decide +kernel

/-- second coordinates of the points of `g1Part101` -/
def g1Ys101 : List Nat := [
  0x0ef4cc677eae0609d688a557a1680f6bf7080612c3f83b5559947825e6f5b1338406a0c2ad73b4166931390c45cf7a4d,
  0x17b58e8aafdb753de7f7d84c8ab5689bc4d4296b944b13b2e02da152c69d2bbbf30912692db968a756f18b0d2f71087d,
  0x09ebe5f9253d5112d7b459855c21179ba77b9e41563aaf3b8c19508294d3239e2e87f56a3db984493e271105cc220885,
  0x05aa78d7c93a90f6b51e4b639f85b1baf60bb4369678502973eeb4f160cd58b8e6f7250059cbf2b7f73ca5df0b513616,
  0x0918ec8c6ef1f6e1ca76f898c4fcda95ccd686b5a5f6a191b65a36e11caee59a868f0d39ff49cf2caf58d33a3f591ce8,
  0x16e81cd7fe4b6b00d5cca884a11371956cb549b5d2383fdff0800ab303a60c82df8aba68bcd7809c3b9856e611e92bdc,
  0x0706a43dd9c686e7665afff17c6b9750e0a03ff79e82f84c16a5321b4bc108544262944cfd14aaed1887c5451e7028c5,
  0x1721a6c6a739866889c0e084ea8cbbd6108fb2b9099b4acb2b26fcf733f313ea7aca5923a8e00aa04a324cbb80fb15ba,
  0x191f2f897f12759f0396eaca23e6712fb7cf6a3bac2955d89ac2487765a0e6b6f698ce35e36ffd4f924a149b084ad7dd,
  0x067db58ecbc0ec7bac203b18f6499cbb1833584fa4cb3dbb4622b304873330caf4d2fb91dde2facd69fb4ac4aff78a8c,
  0x18b1ce6120a624f6987762d81d7f504e4b2a81e0470a8b3072fe0e267751625464f1835f353cd1b0433fc22d3ca1cc43,
  0x1707f173aa2db696b2436715e0d639609b5a8fc971e191525f346862d9993805d8e712ece967e94e7e259dd9d918c51b,
  0x14e03eb7b93d9f01856e030be14931c56227b0096836ccb49250e06638f71ebc4fcb5eabdeb8dcf434c9cf11046f5a8b,
  0x02e9e18e9040c5bbdaccea738ebd507b05eb74233d5759605c4cd1f1df3df48ad97af3dd973c132180bd380eb335616b,
  0x198639be923330d4718166fed735838b77e12a598544ca34943bcc7da9b1c574be818df83f5ef28912dce47904ba1eaa,
  0x016ce20626911e3a2e8bc1555adc7341459955d4cd9e5a8be722f5d51e87babd34fb5d2e107a2d18519f5663a5b28c18]

theorem g1Part101_check : g1Checks g1Part101 g1Ys101 = true := by decide +kernel

/-- second coordinates of the points of `g1Part102` -/
def g1Ys102 : List Nat := [
  0x0fe046bd95d1a9c43f5b4cce16a785c7eca0be0889d5e941cde17749ef4938fe61e0f9dbec5c928a846a574d9da31481,
  0x026dcea95004d98bf1c9ec60726e308d91ffb1150bda6ed002a1ca3265b4ca95f2cda000d6295b342015de6c3333b594,
  0x1909ace091689adad12b5563f61a9af79e0815cda095c5328392f5b761fdf7cfe1b28d3731773249fb08f0b82eac824c,
  0x0a5e5a031080a3e4812c7461d31490b3a5ed4964bdcc2ebfe8066144938502267e50ff14ab4359518ec25cb805904e6c,
  0x0e2ca8ab20aae090af2451e941d7dde5981a57f310d57d6cc9ec0f97f5bfa6e427de1e06e6d64615c48fed78a50f4552,
  0x02db605442c2e6bb01117c72324dbaa0a88f8698d688179ec176a10e2a194fa02fe40faab5bc6a11734c7b50134ced4e,
  0x0d3c59d7d3782604985d688e02843c7c64a2715b935056e3b9400b1fb00fce740789f60e26cbbec579b63eede7102379,
  0x137bdd2e5dbc0833410fb092d12112d45c5fcedacb7de0c6e29f870bbafebf616651c1842e97650c084d59ccf9632feb,
  0x17310efb90b9916fa6b661586a083ff5d584555f2400e028acde72b0444ecc923f0d198477726aba5e9007a80442950c,
  0x03da5a5bd7ada23f2d5bede0ec85aa8950b11bca4961505bea2f47df5b4bef20f84cc2e5d06106c6fa7c1888b907d420,
  0x0b907d426a2839e1da94042c31c7ce6cb11f3696e5959f256d4dfbf2931e736e935bb2470b9d828e59f6e95cb8941438,
  0x0cbd11ba8c83063ee30f91e7c42a131ae1d54e2d0b3a2a53245e56d78f85e4bd6fc60ba72d73ba02dcb910bfc497484a,
  0x063640bf70c52f67a56c3deaf52616846d8465a443dc05067c9a9e4d7bf1ab3730a949f9d132b05347e6658d055c6946,
  0x0d1834205876b8e32c858a938f8b75b0aa4e5bdaf1c3277b6c585dbee573f3e8e0f9fb5a6ae6377b52b1ce3fb6976a6d,
  0x12e9b856377fa1fc9168dc40ad14e8fdaf2cb1c8a5a4258aa6007f5cfa137995adffffc85f61f066cc4f9fa7e46cbbd9,
  0x07f515a90f70a5138b0d4ecbc8fe4c07c7f84e2806b0a5159453a5f29e21578a9e846f6f71931817e18f540384ba31ca]

theorem g1Part102_check : g1Checks g1Part102 g1Ys102 = true := by decide +kernel

/-- second coordinates of the points of `g1Part103` -/
def g1Ys103 : List Nat := [
  0x0cab6bb333da03b3552e810ee95160bc83372e495f424d0241d6ac046dabf0c1e4855b0fe0fed4a39e872b78e88fac16,
  0x0073442cb651bfcadd59b61c4e8a6d6eb5fbe98fb5cd77690284bb374ca9599d2139fd8bf7ce012d12c70647fb586dcc,
  0x11458ef7922cf3db3ef0096b812c485574ebdfee6d94a067bd1193192ae979e25db2332c97c142872138c6d23ccb7c8e,
  0x037e1aef16b044bc58ce74d33c4ccc049279465dfc46b18c3064f5141eb5442d19c0f10be57f05ccd2194c0a6c83ad7c,
  0x0932b680d27145db91d6ea398a3663b926a4965e68681a3993f8751f2f138b5a4505063efb28a6ea002d44bfd8ab7f82,
  0x1349594dfff93c323f7f2f2a73c68c2e711e3c041115a05587fa8e2a5f94783f76fe9c48548d2635edc1d1af53a7ebcd,
  0x06fdfc6f77ea5691caf07a754764168c98c8fd22ac5a69971819793650705b3ac0844c62c41692a1507796259e45981c,
  0x04df5e7f61569847ac066473c50cc27d8fb2187f935051a285e42fa47b4542d3f372817df6e4b14004a2031b8c5ff5cf,
  0x02153c59e298181f8e81b5b8bffa0fd53506aed17074956e73a21ac6564580044dce8fdf6b92adc30a4bed7528ac904c,
  0x06390c2d208becdde1e398e948ffbda914176bd6f0f78921331024df8b74b9bf6965995ca60e8ba93548ee9ac9c46406,
  0x199efee59b31dbe3a4a5813038dbf41e21d0cdc54468d769ddeb2368c139a74ed5869c96a22499eb712348610fa610c9,
  0x02ed3f248b07c2bd1a3796eb4df31154a30da37a1176c84ce76e1e8873b400a694f75b6fab09a331d63e384b12f624dd,
  0x0286d5fa96dfc385331ae744705e40bb1d621614d91a6d209c3dca9f666ab06c83c87dcccb8e02766a0cef03af6daea7,
  0x14ffe226ab783b14adb46c71527d87ed0a16956d1975f3066789d5900e94c71848b44b7f2d9d9323ca7f3f62b0f1004d,
  0x107f4dbd3bd3408615b0068d0aa0a4e0f3374d9bfb220da791754737a6da0572898406ba1340fe7114af9913bf558ca5,
  0x0b4f87c467f198e2805c878f7f0846722a0fd55598083d381b81d130ae703f88e1d2d0cd5a1219487813516c448be44e]

theorem g1Part103_check : g1Checks g1Part103 g1Ys103 = true := by decide +kernel

/-- second coordinates of the points of `g1Part104` -/
def g1Ys104 : List Nat := [
  0x008fd9528aca4e0034501d8a15171a1641fc613e6c24154efbd1f0625d4de89d0d8724200429e9bf155dbea41d8f21ed,
  0x0f28c7d0be04113f25c71d2d8ff3ace54a8ed69611dea9a413dac231a478868031b2cab699c0e8e29d165e6ece5d850a,
  0x0deb826af30e9bec35f89547d177e2ee7fa2e1ea5fec54f6b51e5c5d666fecfe1f7de9c306c4e7fba8f5f3f22fe3be6c,
  0x166795ec124e965a3230f488d72d2903000f110a47c2f140f76b0f38ba993d844bc3847d40f1bfff727b453d4a6c21b0,
  0x09de5fa2f857de06cdea39a4de6fee8318a2ca43265c7fbeccc9e4afc83c73efb4a9818d19a6d205a10eacf2da647d1d,
  0x0260b861f803904b0771a6260a27fc49228f69dfae8951825a851207989b29278b7ce736f832e11f911a86ceaee93f2d,
  0x0b52afa84984b40b5c093db985adb8b8782dd59b0a8efbf9bc0070ce73787e5b654908f335b4a298bf5c430d20825e56,
  0x04e5bd7b687d01a98ff0f730b0f8fa6092270939cddfa402f91dcb31293bb85331d9a6f9f25df6b35cd3b49891fcb5d1,
  0x0d4ef606c0853b50a415406ebc225b79b60298a598b69b9849970df45beaf09fefcc0ee6f9b95336dda4bd48fac7b84d,
  0x159aa988a89ab2ee6232980f16a99d693e97212cc199c1e9a1e5446b6ef97a04c18f7f8d6d9ab8652da8048801a3d3e2,
  0x05b19d34d90d6707eae52ddd74b9adb4ffffd1643a3125b0c1dec14ee4f835714183a7316952557b73e4d2a0ff3e5196,
  0x0f18fa466eb3b643821b30e51d6b341754bd0a69d67e4510232c7af65cdcbae63016059d58576bd25c6b1cd9cc8e476b,
  0x11b3258d78fed988915f95f6f9e5882a0db2ab0bc484a04c06c4b4e30d4eaabf06ee2ece6b5b3ff716baf2ad16899238,
  0x0270998029f29fc7037361ad032b1ea4d199e68aa04a394c62899b7f38f6ab9266e426dca239ee35a6e0678b75826bf7,
  0x09dba2989b32610c8406616754ee81cf0bfb19843c829c14780fdc5b946387d81c5be5db1174903edc11b7f0bc82c012,
  0x0c9ced87947a88b94c798808977369f38930ac891c65d25527584f0287ad2d2657161c6f0205754924b48856f5a6fc1b]

theorem g1Part104_check : g1Checks g1Part104 g1Ys104 = true := by decide +kernel

/-- second coordinates of the points of `g1Part105` -/
def g1Ys105 : List Nat := [
  0x04f4288d8160b741d9fd019389139b4a4c69bf70ff1e32b25df07eda3c360af346fa128d94bf73b6b9c8ee569b23939d,
  0x153a7a18aec0b26b1e6c9279f42f8f1409b3cdd939ab7163761ccc3b04bc34618949a1b915a463b23b12dbdec7b157fb,
  0x171219a6d6921a42b4b491134b64c4bb69a4e1e7d176a1f18f5dc3755cf304addeb4606461736d5c3bb03438aa79d3af,
  0x09c5e4f68196c3102e49150da5a9619ba1cb29f307747301e38f1855ab7904aef915700db3caefb8ec07dcddb8281ee2,
  0x0d8a51e144f6afb0b6bec9beb9d74dd76a5a9cc383ca2185bf949d9dcd64beb7d1a63b10ea2e24b438ee52b5f9d9bd45,
  0x1834a8a74bab72787435900acdb6b1d8ee9b367f9d429eb6e7a4d0f2ef9d3fc5c1b826c63026e7051a8ffa5a26301459,
  0x0ed69ad9578049e5ca8537d21e1fbf4c2cf581553a09b3fc6442ea17fcf016bd254d51cf06a1f5508c0d3e6868f725ac,
  0x06410af1cc8d01f4c40af904affeb413de11518c75f4ac589853e23fcbf178829571d92d916391336e9763611e9f0f35,
  0x08827e8f3fc8091a346ea633f183a6aa20569612712a2a220eafd195efdece0ec7a6ce3519a99b9ff1b554c65f1bf3fc,
  0x0fb836f31667238042acdf64323cde6b29011fe05d7cc45c050c32201e2540a51994225661eb94b4d6a66c5ad86ec3c1,
  0x1434877f9ced4213c81ac89dd035e8ff462f360d4718b6cc856e8eb5b5ec3cf9f1cbdd6b6a5101f23c7f1c25d1aaba87,
  0x0216c7d132341959a1b7e52f60fc2498b87a13bea16dc88f4981692d10098d57eac0dba1aee50b024d607d1a0f30e888,
  0x0688ab5fa2d023b62853e502d38f010419fb3798b0d81f158e4ccef6f641f4ea212735581530b9727f0e0299ab8572cb,
  0x0c35f400acbaba6fd8fdbc40e856c0f502a1cf1bc80365bb5a2628931d5363ba24250fc8e5e66b5440b18c0362268114,
  0x0effd2e215d62854b637a25ceba13aedfb20e37504e3c07b2c778525934b5e9b41cbe3e096eea8fa90db8eafeb14575c,
  0x02c4385836142f1cc0f1ea2d466c4358044d7be726ffceff77189d5aad07dc38203798bffaa9419168a6e299e3558d8d]

theorem g1Part105_check : g1Checks g1Part105 g1Ys105 = true := by decide +kernel

/-- second coordinates of the points of `g1Part106` -/
def g1Ys106 : List Nat := [
  0x04e76039bb5eede90b4bb94f402d399528649a6bd4b0a3ee84d03e670b5291b098d7067dafe58c095aac7db5eb486763,
  0x1197aa3e99b785e760fd2ca876adf867c69c600ac2069d407a496d17a432faf2410b5c6240e4ae33ce1a741cbe4578b1,
  0x1622bee6e0584023add886e0b9914fd773dd846529ec8f9354b1052d99a39f5b4a9934fbb254238bde4327b7abb63c12,
  0x0f9fcc53dfa544b570aa7b70e85f490e700db8c1eb2d31b3f975173c181e4145a355b4e8a732bc500ae7777785370f7f,
  0x01a66e89bb3b33c0354f6b00c13e2d799db754535f9ff59cd6dc60530abeb7dd33befe59522fbfe56a7dec3b408c92cb,
  0x0c40581a6d144223026fe973b1ba56c3093c43179e9c6d1318ac6c3902b0221db9b2f74a9d7c97f614d2ddb3b5c2f370,
  0x0933087d7b021586d74adcf997580726a49f73308a970f76172deedd1a78ef2bf7b0cdbe71c046751d7c6bbdbabde0b3,
  0x17a211a425a6a3ae45e8a73f3d46d19704453b252a3b62f9ae02c715e7e591b2b289a8d4f2a751edd2cd1a9c13d68413,
  0x0182ce4e26f752da90e795eb252a11b8cebce84a51e74470c53ceb7f5cd8d9f5a9eb474ab28012e69ee213d540741c7e,
  0x0e0805464570707b214eec828d6a6cde3c68b3ae924a10bbdffac48ef768bd12df7ece1bf479137c52f195b109520c6f,
  0x07522403d3b5d938e2ec93f0a0f6a4c64a896013f01715559ea88c08aad51be2e922af1cdfd115b8525a837afeaf3357,
  0x0103a3b3676f51fed618741abb040d10a897df55d0bc1a6ec6668cc72590ad755c4988253f9ab83dd3839778fc699dcd,
  0x104e9623fe40f47e9cf316f0476641cb0b03bb8c4e763e8b02c437d42e1d24d7be208ef029895342f5d8eeca1cf4fc6f,
  0x14e87cf017a9df95a31820ab7b605d6e3bf29c5fec9b7c40d588979de890f15e83269eef67316fc9415f5999fa696314,
  0x15b8e581ba395ecb4d40d142a0ab80eee74e380deee5d9c3aee8ecb471bf625a083ea5685e54a43550583bac86d10c27,
  0x00778aeca40308734cfa9efe5ed61fbeca04bd1c4bbc6e900e7c9ab80a164fa4d03a564b739c183be09e29c98e1afafb]

theorem g1Part106_check : g1Checks g1Part106 g1Ys106 = true := by decide +kernel

/-- second coordinates of the points of `g1Part107` -/
def g1Ys107 : List Nat := [
  0x04f7f83058362248bd973ef77d32fd69b7dda0c911cf467ed6c257d357b471f7b45290a0c93d5952ce6ca08e0bc6ceb6,
  0x1372b2fe4167f5aadc084fcf9d27c6005407c55709ded0affe2cd86d6a3071f55b89e14e1a7d7668e1bc45a8094b2944,
  0x1814dea1bd909fa07065a93c22623dac5e1a2db1f70036b30014fb0415642a56f95d104fc6406741107b9b02be2037db,
  0x12d7f53a88d2b32080c17a07a58b69bb759007b7933dd726d8a5bb57bdd5e49bd90f7e2c778599ff9dfa5af1819241aa,
  0x11ca7554c66e138333804a0048da7352c4e0912f0484c04ba144efa9e8f706970d649008965e6be9b87de5b0331b885b,
  0x0ec1aee8ca63cd18980c3ea67bf426dde1d0aa7b8717fbcd691753674dc2dc713ec67cb57109237fa5c9b707f6c6dcd3,
  0x0b5e8bcb3d64a4d60125d4d52b1d1231f12f7710b6f7b07213fe5a6697e3e27a5c1554c0706b5f24ebe02527b92183da,
  0x11d8f12bcd361ddd7dcb0794436d1b201f95e6c268c10037df499a4431515bb747f42350d745a6ccb9ac3dc332a17f2f,
  0x05a2d5606af8add6ddad566cdde9fd5259987319ef81188a00cc7c0ba815a93efb340c76f333c93391e91ff5a10c78fc,
  0x0e6dd3abe6537432f8f856f61778a851c1eb240127be427dd438722cf560293c9a806adaba7c1689cb38a3efc3b27b07,
  0x0dee2b12c2d7b3bb88a57c6ed4bb9277553c7e4115c2c3d914f5be5ef27f0d4bc4414e197b7d636235852f5d29276b66,
  0x11078c49d8b86f24d7b6d1a4475d2bf4859a8f71ed9bf5e8a5340e42171711061edfa1e0de13617ce729cfb132b8c0c0,
  0x12fdbfc1e5a7211ad1e75e9b14f838404203bb4be14b057ef849d136e979342bd890f56fbe54fd94a14bcd9f5451e38b,
  0x07b34c5f2f28c2906326cfb2661ea093d3dff7989343d5e40b53c82d2461cd4705e5e64eeb8977e79b3713436f3c7caf,
  0x16e530e9845a9c6ef17cfe33f240ce888c21b84554ae6019aeb1593c2c6273695455725a97c089096ba6cb731459e0ca,
  0x024346ceb2edb1da6072916649ee3a0b1c31738d561a23242a02a0e87f63e9340fa3265fdffe3fea875d7bfcb6f36bed]

theorem g1Part107_check : g1Checks g1Part107 g1Ys107 = true := by decide +kernel

/-- second coordinates of the points of `g1Part108` -/
def g1Ys108 : List Nat := [
  0x11a4733ef0f8164c7fe39ab941af7f5ae8b729c3f5e26e393fbd3bb7fc2dee2c0b91d4e14a8412a16500215abe049bb9,
  0x0f3f4d329074ae321ea6a24dc6b5624e13496b2227160558d77f677c92f22046a0775343972d5e0c5bfceba1112ec62d,
  0x0b0db6775877373be3a531570a0c74562d8cc2437fa16bd865677add0c6548704ea26a9ead1247ae79403c0af0e46a20,
  0x126bdb8f3aeb2554edc2b3f4896e44a31b24adba6f22b3edd961dbd60a987b89ed14b6ea7d04da5c04060002fcf19227,
  0x0c825ddbc338c7ebe2bfbd205587d1d97f2d6e84a8d22c0e8addb72ca3108a4c50f6d7a932a3c483ada75053687328e3,
  0x03ae1fbd4e406b58612ba6f93fdffb6edd1dcc7196f42e91c745c1da1872fcecc8533731a84d554f7384823c499f3bc7,
  0x0a96281269caa187deda5ab54a4d8725d564aa44cf4f7ba09e8a6a99b3c2102f86139a05721186866479a2fc360014f1,
  0x10d6107050b04a125fc109f29387eec14dc1a4bcf844b3bf7ad92ad9f1dfef15710b051ef042cb5b999ec1d16a77f25f,
  0x0eefc11951365b90b1be5393cbf694726923f944a652129c31bce2add3ea8b6bd331ed4a00bc6159eca80e9143b61da4,
  0x02a066d39b760a5816df6f8548c49cfb308f7e5981aa87c0a3fbeb483778c6c7f637f905090f4130b82c9cbc97906df4,
  0x1402bd6ddfa9adf22164bcc38b77e2ee113b7a127632731b77f90c9f00e7b4c9ffa68fb4bacea171409bd62455d0eba0,
  0x0440bed3a3c3792e81058dbd061eaa371008a7373e505f6aa8f929936eabcaf9d0adeebf49ee542da0ad06d6f957181c,
  0x0b6a4deaf0640f5e5d669d7f601f914519c5e0e7a42cb15601d1a8b1bc2bf072b2ab333021933d8f231098ab09cfd775,
  0x03459c31afb9eee204bd917a207c18572453e4530aca9ca61c1ce4d816dec915d0f03739326e7abd35ecd292e7cae1ad,
  0x0916b1432372fded90842aa262d51bff2d4542514be927275d5faa1777603c2c4a1b1da0fde77e1eec9060ff116b4960,
  0x046ba78a2cda32bc61ba949972256f3f2c6f9657a52f597adde2c574048ac6980c1347990be08aa6c15c7e05ab35cc2e]

theorem g1Part108_check : g1Checks g1Part108 g1Ys108 = true := by decide +kernel

/-- second coordinates of the points of `g1Part109` -/
def g1Ys109 : List Nat := [
  0x0157873b087ecc21d76d471afcecae73c1df4168d3301f4d0230f85745930ad53dbc975b57efe64de5e5868c265dde95,
  0x06275c1323c89528daeaa66851322014a450d22e7d72269126e01aab144c0f86cf3371ce4c397ea8ac23934d994556f2,
  0x05ab8dc8b2b58ebbeb14aecb8017513e3bbbe2bcd7dadb12a5521ba111808a27121d4ab7348260fc941ab7a7eda285e1,
  0x0988becbc25a2dd1122fa35644a71b5b5cb6e5af4f0065a4e3e5df758e15f5811e44a4e4adb71cc243cc30cb4a05e263,
  0x16e12cc777083d4f52c3c3054f9fe45ca091ac7ed915dcb43207231ebca07bfe6f0508102252980541cc6d89d9a40773,
  0x05ff8f31e345d49ffcfdf947d1c956235ea653951d04f7b7dc2b34115ca64488a8c7757e04f44f09535214272381e70e,
  0x18af55310983e9db57dc0b2cb0cadddd4086a5963a0e4cd217119c8995a74b5326df64eb0aedd32c8028852ae30bc429,
  0x0c9c98baccf1039d43bbb7732abf2563f90f08aa93c76c23b78427bb8557705f8dfdcba9d715cb56d5077cac84358c05,
  0x11053ed5fadd44dd72aa691b60e745d9ec29d3f65638c7f2cae32b3adb4ab2dc85463949d2843db060fd445f13c4b6c5,
  0x16b07f0467fb3383fa95b514b64ac21a5850d76a08a0db1e0123fc796fac962999b4db27a1d2c51d9bb991a4fd4e648a,
  0x14430ff788de72654dfa66ec35702ea064bf997296306720f7c13ac56b3606fef8fc913c60e23361465c5f4c62ff108a,
  0x0963f9545fadbfd1de311eb85b88bcaa488100b73b0285278158c097407bfed6a520be342568f978011694d142cf50ce,
  0x04183e6e61fdf5ca45ad3fc3ffab98b46b42bfa80a7c2a04fbaffd8dd9f0dc92c1c772a7dc7e7e9dc3c55e05e2e2cf54,
  0x096a8b1b5b38d01a981b6a246dd657215e6eb116680a610265813958319ca7c37dc80ddf654966849039ae90f1f65f41,
  0x1318d715f830554e40565d73e9c4253a9d366a61cc5f19a8f969dad4581bf39c87cad60e2fc65e75c06718516aa9ea25,
  0x0a610be7a362f2e350bf2eae1082d90b21abc9e403801dab4f4441b068080657a34f8df5e17fd5494ab5068a7c617ad6]

theorem g1Part109_check : g1Checks g1Part109 g1Ys109 = true := by decide +kernel

/-- second coordinates of the points of `g1Part110` -/
def g1Ys110 : List Nat := [
  0x190c068ff0693fe58112c8591029fb825e8eff6eb4cc91a18026939dffdae3b6c8c6fca63b0b93d4056bf838efa5191a,
  0x0908fa9de8bafb27cd3b5bcf5461040911e6eec35eac450166cea2d7318910aedae63c24be53afeb9f9b46739cb4ff65,
  0x0e6997e49d398b4968fc45ff32df75c5eb1ff54db013a3d9619bc8ead5d0003ee8f32a5ae49b0c1064c74b7da6d5289d,
  0x03889c1df6135cbbda75497d2e0aab9397573d6e74d3bd0037d96f52eaae44486e5ed32cc05808bb8eff86de7d945a2d,
  0x0e20c24ccfb42696c199b39b7713dbd5d75cff37ea770f1ccfa07183f26934027e5eaf2c24741e4fb242bf81aafa3cb3,
  0x0d84645e760434652db1cbe1c0edff699955a53c79d18400384b85389f84d08e8aefb1210b0c528e8fc49c06e40e95ab,
  0x15758ec09c76a955b52649de41870cb8a259dfdaf477a97edde3d05fdf61e3ff0a923c301ff7a37a7eb6414ac54c3a3b,
  0x070535919844b85979a910b1e95453ac33ee16423ecaf6a583ee39d718ed4848e754c29152bd00774af1a088ada63053,
  0x0ebd47ceb91a4a74dadc931cb114d4d5164173fce02db141be41f3cd41f5c52f6502908178a628bdb6d49c8a4e99c084,
  0x0b3ab58c5f7ed96117ede132913eb71a7506ff3fa9ba46e35753fd7426aa35aefaaae2a64c4dea717501543384a2bfa0,
  0x09c61b7d4bb02328d0780e6bb8e0dca2c00467d6c0e083939e7d6247db96dd8c5be6f4133afadb654ad01023aebaebd5,
  0x127d0c81afe53908650db822e19c1619543f9a15c9eaa04cc3231d48768a7e19b239ae6dcf6712c6c3f589e38aa88214,
  0x0a82e4a7b9513f9520a195846c63544048fef4435fd87608d3b85e7b58c50cc57660f833a48e74ae759547d81d4198ce,
  0x18302a9372ea881d6ffeb3bd1488bfcb2561254186d5a0207360f46009fd03bfd8f240ace088d0028dd7f9a9c0ec8e55,
  0x0f717a198ba1a058d2d5a2b42694d9731261ad9e223db2f1fd96abc45fdf465190a9e78a363097b8f4257bef545f3c40,
  0x0f0640e0e9877470a599fdc72005f1844a0f6b6659262ce52b88bd70a5da4a0ac2ed34889176e9fa6df19211784e308b]

theorem g1Part110_check : g1Checks g1Part110 g1Ys110 = true := by decide +kernel

/-- second coordinates of the points of `g1Part111` -/
def g1Ys111 : List Nat := [
  0x1021c5ad60c80484055cfb1150e58535869ada3548737e087886d031f9bb7574dc573c5abd2f3c254cf5155d802c3b79,
  0x065eeafa18f3005a2beb69e256cac1c5da57dffc13e671eeea99b7d1ea10e2b8a819e93e0d1a40ffc1a5f265dbd0127b,
  0x065995c055f9e6391c8db49874b038b6bd51c5add6519cefad1937898540fae10bf893a3e5cd80bf840f47a3b1f523c4,
  0x0b80c728b6bb0b72e9d4d197b4b2e570edd36195d0457cbdd3fcd9b42ad0988ab300b0aa9d8d381580604ebe121f990b,
  0x086c31e3f439bf2fc71c9d81d7414bdded76bc1097f98aa5230364ef3c6806b72a9ef7fde3d88ee4240f641177f1ea94,
  0x0e05c3bbc45c9e4ff24c7419a48e9b0f5205ddfd220eadb5cc8e50a20ea882e6c2ef0c2a93481caab84a41f4979eda0d,
  0x0c962d0756e259e4342ae1f4c8e13477391d0cd759a42edad44fccc2554def644299a004d64fe4d7f38d6c6ac5878f86,
  0x0187d37d04044d3d6a0f9c6d154ae97119d93e1237340f2d6abc88c677cc7ac54a6f1768736fe06ab617f88adc27418e,
  0x116546532e4b84779ad57d5fff8a95217ab84fa5e09f7e8f4aa4e44ef008ad74f6b3a76089f23b35bb33fbf1365ec432,
  0x1472cbde6779a753429b451a44712b15a70c540c7c3626a4942d832769a22a95b6a8133bf215d2591a551604f60cae4b,
  0x05fda074c69bbb0fcaaca3e183061712d099b4d44e8813b0fcf9e27cc77db749d087b5d8dbc9010675eb73387d36c564,
  0x00b61e27a361176bbbacdd457f8927daab72abf3ee86315c671303c41cc1811835bb1c133f71e00d31a09f3cbb3b3d03,
  0x003478612a8f55e0dfeed0134c43082eebb275dcd5498af852371e24d325a98c596c60847cee7bb8ef19f00b453ad1a1,
  0x07d647bce5b07af0549b411dbad270fbc1bb3688aebeb694aaed5270e84e4625b709e0009fbbcf5d3850d81e8220d044,
  0x067dab5c7bf69e90435efb9727f3a98196331f0f8625975bb616553df42ad33f37eed80930cd00427e7cb9ec7ebb91ae,
  0x0e5417cb092d85cf7c6ba186b67e32e11019bedad7a7bc0744c463a334daf6f10a98e56928b4afbd541311618a815a09]

theorem g1Part111_check : g1Checks g1Part111 g1Ys111 = true := by decide +kernel

/-- second coordinates of the points of `g1Part112` -/
def g1Ys112 : List Nat := [
  0x0b8b654d654e6affce6635f4b91f1cc78629e2a039c31a9a25fca11f20f351692fb887abdc76a0fa2903727a60bd50e5,
  0x0d27831cb9fa153bbb116d237884f8204f7709bd0e22b3a879a0ec9f241d537b6050bb3c227915b5e3e6ddf28d4ccfa4,
  0x185007caa5be0502af0fae15780674180f212daba55386f0ae2c4e38423dc379ba3b2eb06cb19e3bd593bf6e62864d0a,
  0x120bc3043aa06e9f079d90453aa45ed46ff23a5d1a9db257bbd599237e57cfb0ed04fef71bfce14e4170f9cb9ce23b10,
  0x177fc299bec9016dba89d1b017b10b12451c6a4c50a3a346d40bcd0775cb24ccb5c9c81c62f4d9b68f1aa5011a187b43,
  0x10ff319c7005743f431ae3abaa942a5799cbeb44e8b525d82b38f649ef90a4da23ebcbcd0fb712bd7751831e21a1c2da,
  0x08fbd3bd4a9f1901cd40024c25d604cbede1308cf1495875c4f63fd96ecde93786be53c79c3c083ba76cf2f226e6f822,
  0x0224409ffa3203f9688bd61abadae4c83e09ef2637333ecadcbca0505f8b69082d3a6876edc0673b16bc0386e9ef3384,
  0x10a6176aadb65801e4f53c7e56f186f670fb80c34c23f48c3727587422aa2c6b1868ec89086c559fe091af4c20c5406f,
  0x0928c3c225b07dcd4c5c34f25aad895680d697bbf43dca5ad29454570ffc8d6866c8975406bf7c19f59409d158ef2ddb,
  0x0162a9ea32a491742270766231b08b3a320c871ad7c7eddfb147381457bd7fd1325201927e6832f41fe702afd6e304cf,
  0x0392e72a8cf3331be175590957974c208dbd12e7391ab6acef5eeeebdad61d927aace87e3b51923b84073e240d771771,
  0x16782ef74c2ad495e9a4b921dc1d5151aa1d8676230924523f004c271da4f3ce4215cfd211f29f1e16034a446a958275,
  0x04151d52f4947bcb9f11680cf4604de1dc4c469c0a3decd9de51c91233b9732a4145e0d197fa0c3656348fc9fcc7dc09,
  0x0cd09acd599a3358ec50df9a7ec5cbc557ac92a81ab3c428974c30435abefc884fe171f96fafef1a79084d30af5efe9c,
  0x149a2fa05d3dcdf218dafb3ff2c6bf110e58e3f0e2430abbd0e6f4fd639f326088b1d43f870f5bcd215ea7c3c6c396a9]

theorem g1Part112_check : g1Checks g1Part112 g1Ys112 = true := by decide +kernel

/-- second coordinates of the points of `g1Part113` -/
def g1Ys113 : List Nat := [
  0x108f09b9c2944d74aa60ab3d2881a67c1432dacb0bc8b5412f1c38dc3ad3138ecb6b0be85b57202d9321e3645fec5f43,
  0x14bb76de29cb5c86455f692e634e392e77c0837e50de811a3df05e226873c81b3c0963417bb31656b23c757ffcc45442,
  0x104df606596ffaf19bc5d7c9df88dadaf34bcc88e8251dfa9c93527a8a92904518bec668494c2236fa89d009a8e55931,
  0x101b41c3569142306ca40472fa4659e6621ad7d6a1dea8156c3b8ebe50c2890d0bfce7cfd301f80dce40ce7e7c2cc9a9,
  0x106045e820d8c5cf238f0dd557a87e24513c0db85054f963efe496c2d2bd1ca8f3667d86a748106bddafc6c53d65ca27,
  0x024b32cf28e97d6da61bde46801df49420aa21dd14d15337c049fc9e8b8eaf9cbccb176f4ad3f0a8eaefd1739edebc72,
  0x02baba090cbe55ad95be7c88a41fbd53e7219e17dbb830c5e8dc2abc544dcb176f650ec351b91b5b6bd40e886c655406,
  0x150435bc54b93ecb0d52caa1430152ab266f94634ad343f87d95b72420d3a32c142f2c85d9daaf090056775baf97d17d,
  0x0c87ab989d82dde40a594b753556f497f68ff3e4db6a3a8f92a23016154d236aef17c0db82d832a1733174884ddb8981,
  0x0778e28c7209792251ce9f4abbb200aa0ff07c4efa46b797983906c118e186f7f29e7c50a48e8c7a7bec3c02d5da3b3a,
  0x065dd0861122e8a3444bef4243a0d53144ce67fbe00da2c1f54418325633fc4a53e2234c8244e313a54235aaca15fb48,
  0x1115f3972719ac8c86b54b697e6ac65ef525a0d0e5962f49b18cc50763d2f0be52f1f05007c5713c65f14eb820ecf92c,
  0x10709d47d0dd1fc776455360e167ad3b74f04d40be94dbae5142df339c548adf4b4a62699aceb3e153904f7f7a3a192d,
  0x0a5e015ba6890e00f071ef573af9f97387cc592a9a72395cc76022ffae17667d4332fa8fef978ba3d6ec1ba7f0f38a20,
  0x11c9dc09d03bd1fb1d5f460cd7e12b91bf9f5f5fb7989d2743db4595a2ea63c29a9fc3bcf0e15b453fe53d004aaef1d4,
  0x17d0dca64ef719b9e3e6caf04ba58baf14470db74864125a41870826a66b28786a0e1909e452e9bf7f3975a0595f7cba]

theorem g1Part113_check : g1Checks g1Part113 g1Ys113 = true := by decide +kernel

/-- second coordinates of the points of `g1Part114` -/
def g1Ys114 : List Nat := [
  0x18d9ba516d589bdf601a869f5de40f0567ee629b5f9c2e5f0d3b90ecce347b88dd7f7b2f52f016964e1000596b44fabb,
  0x047b842faf44d31b5dae1981fa0cfab9dd9873093f921e64b22d2959ce23e880fdfe4a1c27451e93676d4960d38badf2,
  0x05c2ad59d5201967b350721797c122352801e5617a63e7782105649c86573f14e430e9d6420bd8f8e72daf371851b119,
  0x13ae9d91c16751ec69fbb7795e90f6847d1daf1cd78c4d367bbc6d0733a5c868431f50a9808d336713b1301f8db10440,
  0x005a6b67852ee4bdb2cc3b8270701137cf880a32aa2196f294967899495e3e5ca005483cf428b74a7fe0b9f64c283f86,
  0x145ce99aad84c22b1b04858480ec4a5ddab472ceba76c2c433edb1239f18ebceeb75c3040b57de92fb3f81a510e3c3d0,
  0x031e3d6758f9ac1b4395c2de8df8e531b2f3559a3dc6c403305ef9a74f909bf4884c6419b26c071da1260ddafcbcf813,
  0x0daca5444d62eb25ce7675b536019a415692e19a6a6ac6605074a4e28d14543d558bf61e0b700228e7de7d69ec856f59,
  0x14a3a81b94b5b1a1591f45c0392405d78b7e3498c6334d5f45c59707106f83438354f41abc527754ff8c479255a08d91,
  0x0e11414b627e9c3dec4d351c30f047315932ac88d2ecdfe3dab4abac2337056bae52bf1b2c473fec5e818b3080c5c02a,
  0x1252fab2039bff8c88f423f06cc6e244198e430b55b47ba7704acdc131c057e2defa492cecdd05132cf89fa9ef053c59,
  0x0c424d2a56a207b71d4de005b4eb4b74eba77909d50af5b800d40c43059e6ad6e765cf3a9b9b06751a2d0dd8cf52c995,
  0x0817f3b9ca8c28a124af5ef1ade0ea7586163d34ab436837f475efe3f8c26d88fff1f3120f3cc539a721ad037d972fc9,
  0x14ae99141011ad48176cdda6336a6685e59fc982b6d2c640b5b4069ce3cff586d6a3f8c9bb8c19a5fe8031272215ed76,
  0x183bc17cbc87ad4a880fb72c381e1a2eac533ce1485e921018c8b3045e2f36c967d62da1cdacc8b1f9ebd186942db3a6,
  0x14dfcc99004b7f1b29b9e61d7f2de27b131427d8a72c556376bdac25cf0ffada5eb7dc3da8c85e4e20e1e7e89e319c56]

theorem g1Part114_check : g1Checks g1Part114 g1Ys114 = true := by decide +kernel

/-- second coordinates of the points of `g1Part115` -/
def g1Ys115 : List Nat := [
  0x0bb59a0cc01d1a1b29bb502c5cd8c2ba5df3fbaec98a33f6c8710eb887a6d2aa7e91fd5dd5748449b2cef2188aee37c2,
  0x18c30edf71b9de552ad9259bbaf5dd60546b4cb5fbb05f10b5a282cad09d69c197dc7b606d9c526214154b5cc61550e0,
  0x0fb430cc8d44616262ca5455d0f2b0f7cfcb222beb001f5d02d0084cce824f7d28b25f69b4cfc7046686863299fc67a9,
  0x18c6a5d6c2d0fcf6fd5a5feb19ac1dc01242763bb02f7ed1ba01fa1cee67e9e62b03f7633e94424d8f1321decc4c06b0,
  0x109c8541a85aab9c9dcc25894855c0a54e399f38a5b580f332a5870c8b3ac6c1c3503f00563ac0c85e2ebf6b7b7a0a6d,
  0x04d9b75fa2895625bf6d0bff6980573783efe4e05051f93dd2fcf1388392d76d1f900994bab95620906cf353529249a9,
  0x07354015dc175747109b559f707a5280668c5118429ff1d9fa6bb07214a0e3785a4e55f17af95f070cefadccb44c7a7d,
  0x191d35190fd6ed13057e57d5c20446600b069915212dd057a1e7e8fd10e75ed05ef8d80ae46c1e93a1a832e6573940de,
  0x1837b0e8666161babcbbb709edc668bc2aa8b032e57a547177945c1da281a05446f037f7f2fe2613c06b1df4ba072220,
  0x04ef6f5ed3855b3b07bf31680abc9dafba938ca615e383057c67be77dfb608c549400eb6daa8c8fe860f48e2ba5de71a,
  0x0604f947b31fe063597be4380a5bc535a41e7a7756e9672936f6deb9aa9a844578e24b865b9e3f7b00bc467ecc6388cf,
  0x071e24ddd0d8ac7448c39ac61c250917f040315a4a1b0ec2f041bcf6e792372f8b3e96d471f0c1586f499abcdd246078,
  0x15992ceae267a5069b3fdf2bf41803aeca96570bc2a9745d9a021014db8aebda82fc74942982e343fa8df00b0a2b36c1,
  0x030e753dc9fc20dbf4b5dcb748eeafbe693beffed10cc80162cd28c2fdc2eded698de5b1128de68a504c9646df25bce0,
  0x02a0fb64b10093ded567aa48912b9a2d6f38c6552b5a3b3af26b482e7f6cb2325c65e73663d42df0eccc73d1d153976f,
  0x1010cd4e4a4bd77341aa58391495db9d8b0e25240bf4be55c38f40f9f409bde91357693b858692686a4d51637070d03e]

theorem g1Part115_check : g1Checks g1Part115 g1Ys115 = true := by decide +kernel

/-- second coordinates of the points of `g1Part116` -/
def g1Ys116 : List Nat := [
  0x0b86be6e9c012383a6243524da79a40bbf0e9c7a708f43b60023e19f216c63ddfec80d5261f4ff407ad302af4361dc97,
  0x08b7e269bc509cf2647001079d6ba278f5f2ae4d91cc78710621c74b8e2e34022fcd1d7392980a2f5b759c5dcc2d4fc2,
  0x0dbe422ba8d98cf4cd93cbd2307cd4a9650fec5b61a469da5141107ad8f50dae0e83bf9fc84add67f555bd7ac3d18df5,
  0x15cc9b78fa48b11042647bef69e48a7d7bf5dad7304a82699f1ddcc1d6f8d3d53a2111ef792a746a476af78725b68670,
  0x17dda9b0ac561ef8d9036f9b950ac61f2e05a69f54a22b0f6510d0cef2effd5c77ed399c8184eade87f06edd5145b383,
  0x11895aca5e7c339ecb47c6fbb01a106a0d2af857cf3d1183b918b780b10e89786d45755dd93490f1f19db0da7c05379f,
  0x102db3a29a6d41161bcaeb1c84b1255b7d519594d351c2616b747f971b9c6ae4882342fbd6cecca31e3ef0804e9e7fb0,
  0x07b7c9fab4fc642b28a0cde59bf87a31f113bb896ec4345bac9804b34b006753736f93e94de775c2045f861de8ee05ef,
  0x124e51557fbf4849bbf88bcfe86f739e0e27aa0e0ac160f6631ce72ffdc6d74911e6a5ed5700c0bee4e6d92ec1cde212,
  0x18d12913d80454336cdf796c01f4d35e33cece51610cc12a3b4254ab34b39b39c71efc826c704b344f38f5f70d5c0098,
  0x13b512a1951b69c3436bc4dfb14026e0305a13b304fbccbd5c056ba076e9bf6c2c7dadc2e9ec19e2f414d9eb553b0450,
  0x046bb992550bba44dc7114f6f1c96fb554c79566880ca5f202f25095a313aa0fd7462bd97ad86924677d6c427516b2c3,
  0x0dea742dfc0609e48eb88d38da032c27ee2bea5435b0ae323022157e18e87fbfa2767b1889a53e3524440c9642081d69,
  0x0eef754aa6cc5563b68395c43fb2d17764fe47a21bdd8b3ecc20724f71da57178136f500c2466fdcf928850ffceb8ded,
  0x148fdb14747da527d7bc8e85e1e2b4ebcdc728a6e6bf1b691ef8dca17ab857a0bcd24b7637d78a00881cf7f0dff12847,
  0x18101d8eeb363630c9e1213436bc0456987b4437c4765d4c0e56044f2a287e33f3257cddb8922b7bc6e49d4fdccc6180]

theorem g1Part116_check : g1Checks g1Part116 g1Ys116 = true := by decide +kernel

/-- second coordinates of the points of `g1Part117` -/
def g1Ys117 : List Nat := [
  0x110ff6ceba93af13229c6b288f138985bc0616af7ee1056c07c14b449a1bea88bef6e9689fe2db305c1659a67214a3b4,
  0x05d36a896407bd6d56f29f925bb038089b28b384af8d31bdb152a80d7f442accd05fb8e42e7fcb6dbb82caf1e8380bab,
  0x075b419744214802360aa7e0256b6871a12af3deffb903e4a20ee15faae47b905b7e9a9f9a72d0ddceabc58ef018f999,
  0x006e2e94da3c7e029f7ff11d33b43488f3cba22cfe4ce59e60416f36283bcc53fb38ef194dd108daef5c5af54d419b8a,
  0x071ddc6d312fbe13cb656603ac2494021ff430f15ce7c9ab98f98b19b6674cd07d2c82f07b9b24eb063a21f73af38065,
  0x063f25ac2b728f65fd5e083322ed1bb499ca62999d1bc7b15f90b8054b295f02e90e72d5743b0047344182f1cf68af34,
  0x157ec76091e7e8493ae5b6df2c4bb3889ea08be0f156e4c1f0fd9b42222a535191162c7fe8f6110659a06145b36a0b8e,
  0x099c2b3236d907aaede7d09f96051700403e2c293696904ef7e863aa4f4e943bc65a82ad67f4ea1b472e37d9ed58f30d,
  0x172dcc2da87fac7b9c0bc92fc605af415f465e06ccf7797993d46ea80dd51064c783ba78b51b8365fc266c957dd32d6a,
  0x0cd27efd267d24ede77ffecc0ea95c29370876bb9685b05c035ffaf9ba9629fa68f2e6f09e5f45e4ee6e0d8f227dd5e5,
  0x0ef4145e648da78c2e04e60579c39fd7f606d609be723a192383afdff5a58db4df10994b583b944a4b2d1db8a035c15a,
  0x13cdc936ab8cc8cacbb3268da264ed43739e9a2c60fd98469c9e1c33ab90705e2045b67fe893e108e3101f594a34bf11,
  0x011e39a0a691a08f9039c20d86ea1c5699b7a115d5913a9050ee0526fc4393830ba0bcc74b6cca214efea4672e62e6b6,
  0x0354b05521a31d08547695bdf1ffed9aec41daf969266c55ec9fe7b8c2f7d7b9a12e1fbeea8b4c99b25e2b20a5ba75ad,
  0x14c35a786d613695c3c7e72b96d107e945949f97ffc5118742076001e61d58367ccf3660b88788fa4733ea17bd16472b,
  0x111300923e083f78b77ea2d0a5f0e95193e2f1c89c2ed3331a021b0c42af451f64eb54cb5075376926202740aba297ca]

theorem g1Part117_check : g1Checks g1Part117 g1Ys117 = true := by decide +kernel

/-- second coordinates of the points of `g1Part118` -/
def g1Ys118 : List Nat := [
  0x175fc8f2477da624bc16eb16458b0eca77a0f4c44173433129b3f6a008d7350cb730d9d8e76f6218f48a1fe7a1e3edd6,
  0x13a5655fb95f4bbc41bdbb658da5b104cd02673ee1699854e968e08ca7b9907e0388618018d232b02b17c1280b2b23b6,
  0x141f4ed274466de029d8892c988da3dd6c5974c3820851f588d4cda078a967b4e363a43c716cf0fd7c6d7ec896b92ada,
  0x00d4022b66f9c7b15aba11580e72228bbe04e79dd2c218bfeb4015feef960a76f92cc02ed29492f8c7276b6dd7db47a1,
  0x01d99eace863677fecac11c5db6e36f27206d68da70b0cadcb383d77a36dbf384c47162a1fa3cd688963e9eeb728cba9,
  0x0ad77c9afc8b2bab3ad20d855d7d9296b37436c9ed86c0290e9cef543f856a8f9bcf901a796ce86562ee2295c12bd0ff,
  0x053c7644d02828434923a7ca3dd565af99afda09d60ce763a9cfcc3fb00ed16f09bee571c719012faedc962f6e77920f,
  0x06bcaaa5dbe299e39e4fb72759c0d89da822ca74701e8fcc0dda30ed2a5d90bef0150edddea629931b62f6abc4aaddbc,
  0x0d9f9a17bde75efa0d016a3a92e08bb08c1e42774252b7375da2b9a2b9b864d32f7a6b0949b9e7ccee4f27e62af4b17c,
  0x10ce1b08f8c098ab204f4177c3c9f1d3544e85db5cee79b070215e65eea03699d498f5d2422a3676f3f956d78b77a5be,
  0x117650b42c6c87938ed9df981507098f8cc7bd739b3aea00fa8a546d03324c56a3b544bad438b9619ccccd5eb2e7f852,
  0x02376884d6f9bb95ae4a4cd66e6bd797a4f000fd709605f1049ee3557a801b36c8e42e65670bb1045c1421b04e703e42,
  0x0f472f479bc39abd10d9bd3331cb4095101a3f8ca29671516d169f27121baf1d32097b6680827951e7511b1785482025,
  0x05b7643ae27ad60e01e5b7fbeb3c44c909d6d74cef2d3bb0ed99207844bdcb033418615e686361160205643b8bc6ece4,
  0x15ac055a9f2dbaed6d214617b9c7fdbf7934505a60f9d79636f986b4db667150e7034f39f44d0d6533c8d07eab6810dd,
  0x0498e349ab27d0dc5c2ea557c9460826ab34526aacf29443447f7a4afba876507d580f7b64856f6498c308767eef03da]

theorem g1Part118_check : g1Checks g1Part118 g1Ys118 = true := by decide +kernel

/-- second coordinates of the points of `g1Part119` -/
def g1Ys119 : List Nat := [
  0x03b886bf659730419eabd1f8487da2e947586b8e51b139096af8fb722613a15fce38764c092a5443e71e736cc6d26238,
  0x03a1d3eb78e0121748eabc41e74d6899d35cceac7f558f6f687def4fe19f53e767971bce80639b62cc139f1639820470,
  0x1858e0b8b87b70f8fa1eb52bcb79f968a93374287d425905b415970c21fa5a67e2d3811c658c8292bb1ebd71e9e4daee,
  0x13efd960bb0381fcc96d4ba8e58c3c429f49fb2f0b8083fd31665bb6b7b0230220f805c3c5470bfb29012cef51803adc,
  0x087864a2eb51a1094e763afb71000400d8d14f43b8661fcfae39a3eef54124ba9269fc44f3cdf8f9f6baec77213af218,
  0x1712445eff435fe5411341eef19144af26adc53bc1d152f051a899b83843257056e54e3aac0831abd2e2af1acee0b103,
  0x13379c212d06c6a66b45b2ee311cef200febf933246d89f2accbc93fad7b52640d98bc3d74e14ff2146d524a9b054ca8,
  0x159186a3e9c709e7414e25d134e3da0c47725fb0f133049c1518d7e486067d0d6ad0d1a48bb78a9f2d22fc41793fbf7a,
  0x149d629682deb6b430f1fb1a756dfba6c3d7c0031e069baa050b203f03c2aff6c9a295f617f294ea898a34a9681fee53,
  0x12ed26bab074411879a516da69ab2a43547d5412d1f67332401418bb13e43f0c77738adbbc9c93fedac00831a70dc90e,
  0x061c3a7cf64744224180e4e652c71bb77ee90d8735decf536ab7f577969ebdb6ffd1d80c741874b5c620e93bcf6458b5,
  0x17bd182767ab1afd951c6b66b0f79ac672957c44c4b0ad6681e2a9fcc6698b7bd12afeeb22abeb24ee9c084d8b3c5048,
  0x00d598bd1cbf461f77fb64df0b6c79b8e0f1139ece0b91492332c456e2be45c804f9c1a7d774b3ff7809e04cd80cc9af,
  0x051bc1c4f24dd102beb3cb10e5063aa3e54d5b3a2842dc36a9827fe1541ab2cca78619dbde29fb1b5f5356fdc1f25962,
  0x0dfe5fdfd3391829552cda683ef54c25ddd4e18a2a1e700efead37ab8d8343a6308e099d8e8772e8216166716f597dd8,
  0x139b19e96777bb38797dfb00737e5ff1d4dac6973045f4cf3225026612268942374df29760f05ff140b4bfea225494fe]

theorem g1Part119_check : g1Checks g1Part119 g1Ys119 = true := by decide +kernel

/-- second coordinates of the points of `g1Part120` -/
def g1Ys120 : List Nat := [
  0x0b2b0bef16fd223ea2dee12f42430f3f40f34505d233e03289495024e768d49890f6a24a9275ceba092f1918a8c3fef1,
  0x122e12bc92bed9ba5db383806647ee4c0299bdee93fade68ae391921be1b2247e8b66aaff7e7f1f849035f6e84a671f4,
  0x029e68dde96a92e3e9a4d91b38f21b26c83aa065bb9d3cd6d4d59c35e34972f716e78fc9bd900dd00b0397c7ccafecb4,
  0x08cf4923e53f2faea679699273ba9d7a076a1dfafde6c85e7cc4bf6d73927e43e82b08e2d85d46c3d6b0e13f8fda64ea,
  0x18029ac0b2e003f761ffdcefa370aa4809663d8fd8c87f7d78cc5b25d556e6ae0d85e1a4f06472133577ae88818a0937,
  0x10200109472edc0e38eea9eb00ca60a8df8aad2ff0232de2cf183a4e77a3de788f6535e4591e3db34600ce389ec07734,
  0x0470f58c0a183927a4fb457fbbffa3fedcd8b1e324c106776da1b87dab5314db61fcfb255d560587df9ae1d41406d833,
  0x192d3d3ac0652a0ef0180202d45094a23b9b1fb54c11e9b347cbdf4e3d8e83a79872fce14aa3ffde4823d34348f04b49,
  0x16728aa205c8afaf4f2585530344c65a9472cfa1b51acee28df46f77315c646c5d2a04a529cda5e370e0916ab8512280,
  0x0ed407362ee24a6af3e74db5e927f1eabfcbac3575634cdd66ba057d4b331206aa7ed9137e9ed5dd3452a265c3210a9b,
  0x18f3865847c46f440b19e4ad3c63a5b78121950d8518888eb1c341307ef58cae29c59e59122241fa0b7b1115858b4796,
  0x16cad4256fecdba34af2f9693858b62c5101ca683533357fcd8b2a679c35428a67b152c805878252716c5be0617aa50e,
  0x049aa3ba5d7afbf82893d02db9765af000ace906d385d8a723a8eda04566cb1ac25c16f73de2cd0e766be6ebaaa5a920,
  0x1732a0291c0f5db4935f6147162d950991e1c7255b1a5a574dfc6c0ee352a4d94eda44a6f0d1f7f684036d25507d65c2,
  0x0d9d22bcdfd421116ccbf814ccc6d29c4f53ec276a71274d9fd71d8b4d4cfdec98d6ba2d528413ff27b11f477df6ba97,
  0x08eaf834d75f251d512d525a9c3b2e169351ba4117e8aaa4ce49c49ef42b45972c258770790035bad084aa594526539e]

theorem g1Part120_check : g1Checks g1Part120 g1Ys120 = true := by decide +kernel

/-- second coordinates of the points of `g1Part121` -/
def g1Ys121 : List Nat := [
  0x0abeb4e1aec6f7551fc500e2cfe632ce7eb7e6cd02719a5db8c016379dae11ff646aa1a66fc8364b14f697f5e134f855,
  0x03b0890f4d0e42ead60713ab18ff6cfc4670e9cf4a93795b4c63c8a720e83c114915c23efa4a970f8d36e64c28071442,
  0x155e5693695ababaee368c23f70e49de17db023c0c9cc9b329725cbd1514e983480c82d3a674fcb0ee0069d9b0ee9fe9,
  0x08f8021443fad1ec6acf93afe97671cdbcb77c3f3d8a590781c0312dbf6169e02b78bd5b4eb6e8c06df3f9a65cd6e0a2,
  0x0b6a50b734147931390949061eaa4417b45e4780f8acef41970088b62da4e3841af6be9d154d7520b254317433475c1d,
  0x06b838f878ca3c9397af883e6a47fb51506306ae4fdff341d89364a3641ef3392c41e4b9b0a5cb75a0958d2a0ef49157,
  0x0ebd289fd94083d67bbf32d6e545d645edffc3faa17a220bcc7c550b8082d8a396cb1fc2fb36baa4bb32b8eb94a2f731,
  0x02d58d49cbcff1293d4853bb9425e8b75c31494628e060e86fa646cb2ae9b25f6207a34f5bf206e047b3284c13958852,
  0x09754e567a19aac146a90806d00a7a83a47ad4d483d085186628502f05b931af2cc84e6ff9402b5f0775b3dba66d7692,
  0x07fb786e44fc60fa04fca3538aca3eee6d2a8fde2b53a82a33a85b4413509f97873268c60cd243eeed12fe2f8fac9de0,
  0x12216b9b22e4e03b204da56ec5fb69360f49af88910db740a575e20df48dff7d48f79c19da79f3c6893564a7da9d8aa3,
  0x10bd86dd4b880de3766252f2f090fb222ab2ef0df06bca16e9318b47bd97e9a4b59301a61e122365a6297299bde3a35f,
  0x0a10180e4af4ceb0da10541bda58026f144d6b08419287efd41875f595d19099275924bb576ed9628ed68e1510259595,
  0x0e13274b645d1d6e3d1968608630e48ac820e7707264d62410472dceff5c0bcbb2ee14554cbc865ec4e98376f02e94b5,
  0x19ab7785e9d36fc7cb1db952db67e7d8a8fde2c8acc168cdf2ed2bf2529e9569e2f4a8629e94094e7a772e7d7ae398a5,
  0x1507799a11912b0399248e5cd17c1523e5b26ea6caaca8b46b73881908ee28db17fc5049fb47aabb2b4f8903d6b1ce69]

theorem g1Part121_check : g1Checks g1Part121 g1Ys121 = true := by decide +kernel

/-- second coordinates of the points of `g1Part122` -/
def g1Ys122 : List Nat := [
  0x066e76330e422e7c636808a8d7b3a8b408c0eaefb5d5af6a1cbdedb27bc3061a8ec3fd5760162937cf89fa1f37c479d8,
  0x0e051409262aee074a2bfd897c471cdc796a6235f9de527156b0fbe3e642dca90ec4bb3a3609161d8e40428f711bffba,
  0x01b4f0d0f51f365db20614eb9a42df6c8ef7a19807df874a0e208609c03880e5b924227d6105b1a1370b0f1ba97f17de,
  0x0f05070cb95e9b4f2dd250255e29b43a0214efe665bb48cc8f01095d6bf01914ac637b454b6041b7a4136fad8bde3fe5,
  0x166c11754789522d4005b450ccec1e3ab5c322afbc5ac8405c921c7c990e9403828a6a9ca2069b2ebc81d0454826af74,
  0x13ecfdda2ad68a9f98b199360f2d8fd143dc57b3eea5c642d59002e5d66b740bd8305974e62adc6fabd4e38c66115672,
  0x11348e5e44321657a5a787a841a46222a24eb66496a0e96b1be5230c107ec9f0b0dd0478373ef3f1c98b75b85e674922,
  0x00c9a4b23836fbe4c0a301346e69f92b05c08745bb2d5486ad6a532368b69ad025e3daa6b43d0022d4bf1b1cd27bd519,
  0x008db1ecf39b3569b9f0a230714183b21057fc57b0a8ee99b77fce2c180e48e6a49dfccc08bd3f174b718db964de4c3d,
  0x18c311ddd575202eef2f9db153685432c0e27392a27e00ee38663181f977c7410c2cb58d9148ca344ac8ee81809bd7bf,
  0x06375b46bf1153ccbdc78c33da332cf23e572765751461cd82f7d560dc20a4013879ee1e8dcc15acc56746ce0d66a68d,
  0x11c0aa473784a20856033a10f1bc1bfef68fb82adf4e159b5ea8ac3ebaa73aa71097d1e82677536d2ed238f72ca3d13e,
  0x1164665394f13f9541f3e180b580de086a2bc89297fef5fdf11f15e3bd8904dfb74de7d20da746f88a3a509f9231229b,
  0x09350578190a8824f76ec138b0eee30ded15c138ae7bb1a372358e7d9b944543eddfdb478f552497b0b145027bfdd368,
  0x05b5408165ebb2a6553273bea30fc8194da170bdfc14303ab113b9f9f251d8f613bea95f1875e494868372e2fc84004d,
  0x0b49053cf260386450856fcac277a6ef9ac8f3773352e368f26e02db5b70525b75c854011fdf962669bd152bc2f0403f]

theorem g1Part122_check : g1Checks g1Part122 g1Ys122 = true := by decide +kernel

/-- second coordinates of the points of `g1Part123` -/
def g1Ys123 : List Nat := [
  0x1064d1bf76b30d3818d30fdf30fc923f643bbbaf6de819ad2856f259c6f38501a81ae53d01261d1f008d949380b91e8f,
  0x0fc0aaaff27eccd3dd2a8ce43ba8f0d398fc78551155e48f59510c9c8ea1de1244572b927b0bfce3926d2c31bc3c7b3f,
  0x052413740924e6f9505a6eb5911a45a240b91fdba3de67ab7c758494a07fd2e37032b624b608d6c3fada66e9f04a6e8c,
  0x0496155fa0c72c6d61a1c96ccf13f903651fc7ffb79e28cb33905c40f762ba35e1c7fbc720c3935ccda77d47f1c1daf2,
  0x17017a77c737de0dd89da48666e240c2ef6fea5890a120b377ffc3ec9617b1972d0701ed9923e9558c73cd2cfe08f3ac,
  0x13e564f730657540df556a18f284601aef69758e0176e67fa7c8468845c99d35bbcdb79e3a4fc57cca59046db1ad9276,
  0x08eef42e9fcefe6df63beed1e898e3d54db5a31c5d8f98c767358d2a6c9ffa45d26b3c6ab5a08f141b75ccca272a1916,
  0x0b97fc6d9178633971a8c2f92cd988456ef37f751346dd68ce7be7c1a8ded5c002fcfebb57c18569297125153889f109,
  0x0fee582394b7a2b46c2734cf297f7e37a4b903df82b1c3db4f4d5a6288166f66ef9f97e27bd11b787d27afa6dc717e9b,
  0x039faf170a6b48b5b51b35e9e95baf43e5211d3d702e771860679161b72c73b5f8319f1a34125e44991eae78b5003e44,
  0x067154914ec310b81e352d1fbdfe2b6b7865bb4396b4822973f5acdf6e64dc697cd5e81cf1ec3fb9d913d79e8b7b15d2,
  0x1741640ab4fe43b88d23171771fc76b371e2d2f394491bebebfa0d3f0fe3063cb2ae6c61a9d23dcc03b1155ee1798219,
  0x090373a29eafd10ee5b03b420431c8d3b989ae596e4eae720c2bed89d903c8efa415c3da7fd709e7d2af2596d629fd3d,
  0x0ad962be3419ba5c06e088f4f487642b489ef02ca33cc18dd293c7f6afffd6671db35a16b6b3b539e42114c9946b3d2d,
  0x0918639dd5a51ffc72361b5c70ecd63d4915d7df764e7319e30f0b1d0fe76fd67a2efd9c5b3e9acc9b755e9a75576b92,
  0x156b204d50e5480ba9c5ab48c0e3bee65a72ef3b100274818a65a89f2323b5244e0449bbd1db90c1e4df584fbb56d138]

theorem g1Part123_check : g1Checks g1Part123 g1Ys123 = true := by decide +kernel

/-- second coordinates of the points of `g1Part124` -/
def g1Ys124 : List Nat := [
  0x0b9341798718701ac76eafa3e54cbf92113cdd8d4e9fd76fdf38872a2cc318ef420802a23e2c096b87b92b61c910f8c2,
  0x0f5d8a164fd5f1ec2ee96d5e740ad64618e8eaf517c1b422744fdaa4a4539345a7a130c8fe5987fa25024a9f834cf6e3,
  0x0e70cad6168f3ec7280346fbf470a9d6a1ce497ebb566e0b707cc02c7ced2052e2ecbd112cf5418bec760de8a0f61534,
  0x184d4e23d659647ce4a3c1c7d971c1c6e8b3e12d8db8b9d7c896776c736a85b302225983bde5dd927b0575c9338d2862,
  0x0a64be3c964e286b568acd926acac96037dea0b01747774b10d8bbffcc1d3c30e1b2846fcfd7046173f31ec495bce308,
  0x0ac4679d1a0b8e582034308dfed759094348877d4f702f1a408d10fba8fc7d958eb861e6a38c1a8e38aab5ab108eaa5e,
  0x0978fca1addc6066944a39ffbcbb051cf1138def917e81e7f1965ee306ce680ab78ad41d3767cfaab32308b3d9b876b8,
  0x0594a8e2576cd6232752afa7be3117a78079ca94056c271f1b15875305343ba5c13a1fee1426a7753decf3cc2a213605,
  0x08a71573a4ad2216952beb4b3cbd210e8d17b047afa415907382b395839d0636cab97bbeaa7aac5066f97a8f87188349,
  0x1567cc333708870ef2741e3a9a75d1710339a5131a7bd94dd53b7c19ecd00fa090f796c58cdd8401e89c8c602584ef52,
  0x13d0867ffab4e0f2b548c83b0ff13de7931f9e798530e0bb4b4060314b36d12f600cceabde76c53c696c4cbdedd12aa8,
  0x03e6eddf392e1db5c71d40c5a7b708705ff7bc33a1f5e7bc76e22b8a2fc7372d78047c2d2c77cc5fba5b647f5c705508,
  0x15356398da56e2a7a64f97d81090ae3094d420658fe59ea666d2940856c8ac4ab2b5cf4a45ad7d8d75276483dcd99aa8,
  0x1480bac96fab1ff413a367612a73a42d7aed0e9eb8a5eb2567cf60d7f47ded2fa82fc520873aa54a3e1c66ea433cd46c,
  0x0169031a66a48146c3f2dfcb3b644247cf2009dbd2b7186e10e7ef732282f8d76df714077ad47c0cdb61f2db00e86b0c,
  0x0b75890f2185b296ef337728271950b4000d8468be1ec946588f7ef44e124b6ffa839433f51b90cfd583a3ae5001dd60]

theorem g1Part124_check : g1Checks g1Part124 g1Ys124 = true := by decide +kernel

/-- second coordinates of the points of `g1Part125` -/
def g1Ys125 : List Nat := [
  0x10a0679f4338cc65fcda3af8139b7e6d327f64f0496998f12d33f947342cbdfe04787bc324cb1230d33806bccab55797,
  0x03f709478ae2c50665dda4cc9ddc5c5ddf89fbbecce740841f2ed4cf746628342962d5f0053127329639dd04c475ddc1,
  0x0de201e432bfaaaf8b81a01a1e1a1c79446ece475ec9317702a83bed6a90534982c56115e3f669ecb076c625711b5ab5,
  0x03b9812fe9fb1344b2673366fe75992441fc03c873cb49bdd4425617816719862526d30d609481870f1a863ab119595f,
  0x0e656b7a3f758ad9cbfb2d424672bd74bf0c88ac94134fab552e5c24598591fe130cff870d54eef1993df091d3b36afa,
  0x02d48d887b8c0151c7b4fdeb9995d6820f12476301ca90f58ba1c67f3c060b2f73809b4e89b40007d5561375b80a3635,
  0x0db1a4293294f6d3f9c07ddaed491f02361b830639a47c08b3bc8ead626927c26478412dcf9ab67e839b54fcb49a32a5,
  0x0fd078c42fef38b22140c8ea2747f6b48c6cd409945ed9ad3c7150c37c552600ab00089deca7b404abfe391bd2a200fc,
  0x16e30442e7d469d7bb9ed52aca2a58824779db14064826931a9f5cf8e926d2ccba734aff2a40f75ebde462174f6f4155,
  0x041301fa10869ff32e9ab2c5eec484d0466930772bd228b3866393eb668751120e33c89474a47b3942e189241031a8f5,
  0x0230044331d306a67ed72c8d4a481d1a95cfd6e9868bf50d002365d9ed4590c0df33875c12e6d69202bed9a1359565a7,
  0x0fc27e2b8d3a6c64c9db16def5cc2ba1edfe39112b0792b4bd4b453e1832475930bfe62d779d3a9d48cd0f61c4b742d7,
  0x054a15ea2b639a8c37cf08a02abc2f19b8430d186aa52041b0c4a6cc52f370f0da34775d7a8f39cae8f0b3d5fe8208af,
  0x048ddb0b745393b9dc07c86e70fb4c8d8c31498223124d1e064017ec2baee3f06669ba04f1e3a8c0eee7ef05644d6e51,
  0x1211b5361d76eee3ff88f0dd6b9d75c7c1da99f600700350b71dde80d35c3484b543c233e100a853f7235061e8f5c7b4,
  0x002603b91391c9bceb1ddd88048c5a6ca0a98d2215a0d77c04a5c794e928c529b0602ab52f0ee918e5be380e4e1be4c7]

theorem g1Part125_check : g1Checks g1Part125 g1Ys125 = true := by decide +kernel

/-- second coordinates of the points of `g1Part126` -/
def g1Ys126 : List Nat := [
  0x08ea2a22f1da8d586dd112442231d0d5b04132b7de3a2aa4076cde9371f055100cc47a946e3f7cfaa43958f72a30005f,
  0x125003dddaf34687fb37a1d76252c0e9bdaebfd651ee3290b42ef40398ca4dcc8e121bd1d3f7548dc73d4abcdc93804c,
  0x0dd89f5d62dd58bfe6169ba077823974482696de64c34ef63052769a692b3d3df9ea93ab35d15a7ffcc4b887a37555fc,
  0x06c5bda81ffcb61745b5cacca2b1b8054e0f2fcb493fc617a3fa3ba4ff1377a0cb322517e29d2ca0e3e61ba9f2b9a6c3,
  0x15ff0c5b10049b845a02ddc3f5a0b4bb9677492aceb7f6c8d7dcbf6df7f27a7cdc677563a4347e2b5e3161e70b028149,
  0x159b18515d0c58fc616cb4ece0cd6060dd1ae8e8eaa790377e418cc4299d3328cc681ee084004508fcd0881f7b6f64cf,
  0x04a590e76e3a06cae943a34cabe4962a7c81e3136548d2ef2581e8af508103d3ad180b98c3f7a20ee5d51ca5bfee049f,
  0x19fd50188f897953130849ed65d6cfd94b2d939cd70320188c9dc7954b4a8e3f5acfcb361c0e98b600437278c8398774,
  0x038b59b9aa54397b181712e6884179abf01ad6ada91f0b3e51e7234abb9f23600dffab253ce95795447e053db0b1ef72,
  0x042d69844b8eb9f27273f9034b6686e776fde5e5f356ca218bcc88d549b16c82ca7371ab8052e38829b199634d6ca2d0,
  0x1855245e72693b1b799f7d6dab9b77c2d05b727323daa8263bd6c34a95f95b8daec28947db0445110ccbd39424c4cf86,
  0x14322085bb14752f0249aaeaf4f6db4c37845be3f86c15bc76f5ddf71190c831335d20041cbc3f387bc2ccb34fd8e7af,
  0x13d651b91edcaf5108386674ee858718903d3906d531cf6beb00f4d1a4d6f0e2e08626f30849fc7403dee04020b1068b,
  0x0759c4b972af3982daa370248b09221fa4dd4455b5db841f69240530072dd38bb360c293a300aac180f0ed09efb44b3b,
  0x181ddddabe9eee97459a17a48bfad54f2f1b32811b723ab021081add523fefa5e452c81048012038da6ae0d77af29360,
  0x07cabe9a735b4eec4c4be288d0f5f4d2db72823804e39e88fe2175a17f30a860eadc6756ae6cce3ea4bc37af404a0e72]

theorem g1Part126_check : g1Checks g1Part126 g1Ys126 = true := by decide +kernel

/-- second coordinates of the points of `g1Part127` -/
def g1Ys127 : List Nat := [
  0x195a646e782a09ee0836049b87f0b68ad55858892dd8e8cd34ccd612d9d6177448cae435f46664ec83927a1d025fbd76,
  0x0facd7332d92d81ddd10c3af8e29c2458f28925dfda7e816afcec969979e5c1ec13b4ad51da71b5a46e0184b5b28111d,
  0x114c794488d82a5828d1eb266a4571c4fc96e9fc8f89a57bb1ce8f47d3eb8824a7f099ceb50818f1c92a62bf58abd39a,
  0x09c241a579589991eb4aaa23e3fbf24aca8ffe9b9be8da85f16e51306ae7c9f0be9fe5a47cfdc0e08e78448245ba4efa,
  0x112f0dbcc6cdfcae6ea92b6fc2a90280c0c441cb628e69a09634737a094325aaeb299002413b06e92740b39cc2e1caa4,
  0x0f20bab5e809807c30e984168eda4217ea45066239369e542648456161158968cf6bd057fbb56b247422ca2d657a720e,
  0x039602a68e817e75f63ecd2c9f9e03643d2b079894c74ede5c367abbac593ad59c68b04fa6c28140687646177781dddd,
  0x1359253202b5e9ac8fcf13b2811b75fb2b80e9c64ee3df1482bf1ad3c65c31c41eda3c77cd4ab81c3e41bd742dc30a1d,
  0x1920897991d7bd977aa255459e4b09c55a4996e13160fdf1b353b2bbddd4d242fb45595cf2a3372b6188601412506a7b,
  0x14c780c652b6db6d765fb888d700f37dc2038ac044bbe33203a5e6bcc7f3c93255fa73c77ea18140955bf3076f84107d,
  0x0b1dfdf5bb1c5bfcb0fd1c1c4bd2d22676eff832f10810b5f530ef52ee78d6d30411910084d026b8609fc82aa1dd321d,
  0x0926fc914f7bd130ac066a226cb74313973f7a774f653da3a96046d176f0450c03a679d39a3fff4e7b48a3cb6208334c,
  0x01145d2f2f907419a3dfba859e8492379d944a471e5b6b2db9f993b223eff27323aac87edc7658b080b35f27e72fe497,
  0x12c404c50a2d4c5eeefb03182e9054dfc32da405980e62a2aea46e7cd6c884b0b62b1526bbd09fc35a5ab7e8b2d4d318,
  0x0457fdb81508703cdc916c2663e3ed856259ac52510a34352764f0c2f4f4374c56537aa5c623ca034ef7ef29a34cb666,
  0x16dbb9d8f1aae758bfc2dc17b4a0a2582b3701c3e679d5f56a1fc61b90a2092ca4389da88750017837b3e79e5e33e8aa]

theorem g1Part127_check : g1Checks g1Part127 g1Ys127 = true := by decide +kernel

end Verif.Embedded
