import Verif.Lemmas.EmbeddedCheck
import Verif.Model.EmbeddedSetup

/-! The G1 points 512 to 1023 of the embedded setup: each number passes the check, with the second coordinate of the
point as a witness. -/
namespace Verif.Embedded
open Bls

set_option maxRecDepth 100000
set_option Elab.async false

/-- second coordinates of the points of `g1Part32` -/
def g1Ys32 : List Nat := [
  0x0c216b6dfcf85778ae2636f943a0b39d110be376d9840cf2462a19ef5cbd77b4aa585d2d7755c18fecd4bc8d8f72ccad,
  0x06368b24813e502f45643e4de9dfecda1205023c85bba53f7dfce215a7f0b7a95073b7e111c553ef24750e985957b2d9,
  0x14c56ec80f89770cf2263b0f9f8c5150b45cafbbbe5454bbf83281b5c740a277216231737c1234c4c72cda4c4e64a3b0,
  0x0d6716feaf9724cba28686eb77c35225b6ac2b0cc418a0a418c4accf44fa88ce561226bd12e40f74efdc3a86354dc980,
  0x01ed7784d69cb08cf946328e7914adadfcc26ad052c19a784428adb0651113aba9acc9e7fff3acbd1eac1e9b22e395bd,
  0x01b5b64af013227dd11afd4b398368412190aa0f1c3d5ec6d8c5a71ea6f8935cf494cee782ba1c5bbf342f773fdf1d19,
  0x0ad619ef5d96ff709839f4c8b146bc0af13aa3e002624ef6b345f2f539406636052acfc06c596887bb82d19ef13d4a4c,
  0x008d9b33c5060d6ed53f1204bf5d27f0b6e899ae1789236d7b16233704e3fb7ee2e62c5e470553e63bc4c4935444f573,
  0x0c609dc560d42f80561759eeddded6a5d0a2c75e7d3d263ddbf38406ad7a50fe1cc44c62d48fd497a20791e65c8b5ecd,
  0x09c05d2f57f041bcbbe7b5a756b4fee486c18b4c338d308b35f144748c4504f00b03c13a1ced09b9b37445e046ca815c,
  0x187baf84bc68e4bb2695d0881f3ef71096990bdcb1d3a4785f2d15e9ffc19bd45ac0f38affe118f060851076a73f229c,
  0x02382abdac1c1e56cb2c7e30cc2016b7d95d29d25e974c07fcd9daf8e092dc7a756ef96e881a57740ed1d8ba7ad62d83,
  0x0eb3b6e946f544670198f41576612013bbee8d4bd2ad9071d4c104319e27acf72758d4a4589bd483c994bd4306c21e7e,
  0x187a4ab5d6102c9f5584d5fa4230eae98ca9c836a105f63fe296cc03139859e895e2e1c6ab88ecffb67140653630aad2,
  0x1128289aab8f24d753d942ae10f3c7f76a4c97c21d713a7324b1ec318a625c848a60afbba4fbcc6a4e9224d7959e3956,
  0x06dd651c4286bbb10e8bbeb43b386951c987b1800f3b0c510cf888861c5631172f62ca56c6d121a33e9ba9e7899a0b93]

theorem g1Part32_check : g1Checks g1Part32 g1Ys32 = true := by decide +kernel

/-- second coordinates of the points of `g1Part33` -/
def g1Ys33 : List Nat := [
  0x01233adf547b22ce06057e3946443f16ad3e041bd08bfe7780e6f6356762622a06517171119095f89eee071b36358b79,
  0x03446da31d97e143ea95fbd405c66d81a4484a359c0e08365698d4e7cdea39ad431fb25584d5559a139583566ab32ce2,
  0x12d67eab42d0d84d656d36763fd3e30897808aec3c437a0369de32141471a40cc566a34f990802daaf55edcd321523f4,
  0x0b8d48b99668f192e5499c917919552995c24b3eb588db27efcf5db3c91e69de7a84457c37ac70e50e961a418a664445,
  0x0ac9b7dfc629a04444ca11aa456e286e57a399711bfa3f13921a3d05387bb2999f97583d4738bdcead4b180396b1d909,
  0x08d18ecec67be67ddf8fbca64c336b946b1ee86e68fbe2f15345a5185cb0fb1c8340baa03c31b0a445ec96bdb532c046,
  0x166ec16f3c72dba6728cdba3e9cc97f65d4f34ade1da0479ce80841d48febd499a236a944be2f7d8aa80f18c9c96a92c,
  0x06b433e3cc0c7e91f9366fd2b7e986ee5603db50e28e90c160ad91ad9f1f99793db635fc34b81ea33dd2d8a63e942f45,
  0x1881d23801d835a78032eefefbd3b3542854b04a593b01398769dbf715db5e63e53fef8e99d6e42ef6917f8b429f99f7,
  0x05344662b5cc5b285b9652eec57b59ca4e318b3a9159d18a3c007587e9d0b08dfa25d437fecc592c8d810c2d82dbffa8,
  0x1518208e2d4ec3cee93ccef01830691951856117388445ffb3661dff2ebdff3854524e2b5d296484c97488275a715c79,
  0x0db4563b577b3c800e8b05fe8a5fec909c406f11fe4d5b625f4fcc82bcc91b0c2c44e659d4dc3cf7707becc187224027,
  0x00ce8b0b54e81cc1449ac715938df20ddcb21860ce322c4efbb3e1372d4357cabbfe9f227f9ade3ff0b13afbd8e18301,
  0x054326f20ff9e55a5158f57dfffed98d3a42cc86b7ddddc3146de5ceeb6247ed645ecf25ea7fd0c703af1d6b2f8a1ac6,
  0x0b447403de97b8fa79fec729a7295b6b5e63e31333a256dd04b39bfa5a169e31358fd628000dc53e6598520bed272803,
  0x02a721043938bfd3fdd437f5d0a0a1faefaaa9cbb09e251b9432acabac0f8e2517f49f94b8eb68521391b2964f98a47e]

theorem g1Part33_check : g1Checks g1Part33 g1Ys33 = true := by decide +kernel

/-- second coordinates of the points of `g1Part34` -/
def g1Ys34 : List Nat := [
  0x001b09da2eeb7b26f389a72b55ae30ce8a620a6a31f2ff125f644fa8e680df02c762d0948fc72ecff51b334365e60272,
  0x10ff7f8ecc3bb3e1c22a7ac1d73dda7900d4c019a3b7b9c859ab91332a8912ffa4ef85bb2a3109618d2d2424f9430530,
  0x02417ed374371b11de123f8e7dc23ae55e05723dab453f9bde7fcc34fce1fcd178b71d5c8469bfec0a2af451cd808b87,
  0x07cb6d5274044a1a098e758d757ae44a01e919f0473a6cba9ba0a6da20a04a9e8422f85ae3687215525b3d3733a9cf97,
  0x12a006bd00126e02c689a63397a4118414240f75264a7607c88624dbb57636cba9a1760ce9379603c1f510c5dbbd5d30,
  0x0ca3eb99a46800ddca937bc6ac9d5d7ad9821c3b48bb8cfcc1da0177774fd18cad8a2dcbd35174f62263efab19b3a318,
  0x06e25ff2de0142b5a0c7e03011190137c74d82aecdfcf92195fa5e52e566c1b604e626bc80a8ea717400b999fa2419ea,
  0x04bb52de4c3cc1829156d35ee46b267fb1c4c919dc33aa3035c4add7a3e0097b897f49bc0fa847076966019409d9d37a,
  0x189da66ae88614f1b74c5a8dab5ecc9c700e5240f5e4b63234f1454928a4e029506e0a8379cba45e1f14b5776424cde9,
  0x15905e608532be90ede63313451128767b9c80c88040f84c5aaaa3899ec920c73777eaff865ee72cb8b62373078bc49d,
  0x05254ed2375e94aac02cb29163ac72494860d681a0b95548529ee02e9cb6216e700b5ba2cfa3024135c77eebd5568e4b,
  0x0f5f8f058354ffdad6d089a2fd4be2dd853846aaf6c93300e8654cd7ef3d4156f7b8dca606673f787e73b9486cc52871,
  0x05f53d8e820951fb18b611cbd846ea6f4cef259abbb5947c8412469d39dec93eb262f779b89147920ef0d5396cfda1fe,
  0x117e02906234c6f9759f1f188864199e7eab0df455be3648d57b09e5ed3c1939867b03c7975aa9958c992c84937e694d,
  0x18da6cfb7dd87bec0b2ee2332793a98efaf2f9326e10449c926f242db8d6c1bce66d7c3e464b2c5794b49bf578180eaa,
  0x04d763fd56646b58757e66a428546d727391562e081572660bf3dac832c6dc279eed2a4cef91e497fc68eedef7a283a4]

theorem g1Part34_check : g1Checks g1Part34 g1Ys34 = true := by decide +kernel

/-- second coordinates of the points of `g1Part35` -/
def g1Ys35 : List Nat := [
  0x0aebce4664faf80b9256e4ca56dcf7f7dcb1fd7f8e330b9bdfaf4a0dbf1e3fc6975dc9301a325bb27055734e09b10869,
  0x0f3b6e5a626942933edf861159f9a71c61449c63ee29020f269de01a39663ea8346d2bbc24e627f315d39e4b603df613,
  0x1515db34d4b9c522f6efeb96edad8776ded8759ec9845259a4052a002ef7b27ead81e17bdcceae793c0c882321499eaa,
  0x06461e1dc3ae3426be3380dc38488c17e8d1ed24afb6170444956869bd48bbfea8d674814c3be08d8f165067ee07c3df,
  0x155295d16f8965ebc43dff086fdc37e61cc100426e534efb87145aa62cda976c38c3916b4c53878424a757049906a09b,
  0x0a440d860da50ab93d87f203eacea3d732cb34ff86de34bca54d589370ee3dfd139100e7f81f1fbbfbd0c2c366e77309,
  0x00c35bbcb880c40e768d51caeab1eb470af09a8c717c44ee438280b4b735b04229d96b3a6e5aff96489032a4ed8fe15e,
  0x0486d2ca22cd7a2a034908a69bbeaa304b276777264f43453376b4945e85e45ec29c273eebc19ad96df5e132d054f14a,
  0x03cb6fbb3fcefa597577fbe499b52a7c0e0a26a0bf1ec7f9fccd9836455750ece1bf6dc15c029cdb788dd73e75e15a7c,
  0x0d73578095796ba111a899470ca447132ddfe857cef87caed29d1d72369af27be754c1d9e03bce2e5b28d7e938a051cc,
  0x179d23e6d301147d24127bbb95d950785cefbc9449156d7ad4a6d1d38bd5284d59c1758cef4a121bea9c79477f9ded10,
  0x03110019e00632b8cb9599e4c7c09e04bec497242c5fe7748520ea42059e212554e29d7a68225033ff2c0e2893b014f1,
  0x175c869cb122349968cd80f356b6f6232af06e3bcf3858e6237f788882acd402d8db47694a7786bdba8a3cfb20364651,
  0x0702864b8b6095f71f863e963cc0bd60d72e8d5dfa2829132cd3e25527a363fbfd84eb53e4d74894521d1fdcd76228e2,
  0x018a8a6db4f173ac1f1417192763e8b7d45c6ae13717008c57a905fba40e6649e439c302aaba03bfa36097643d325759,
  0x1257b4fe7585a3d8f677c015720947b62362082d4fef1e5f724e632a2f2fc2267d7e43858f80a3fc036656849059c05a]

theorem g1Part35_check : g1Checks g1Part35 g1Ys35 = true := by decide +kernel

/-- second coordinates of the points of `g1Part36` -/
def g1Ys36 : List Nat := [
  0x05f61d124fe9ce38dada0ac59ee2ff2941a62e589c79b22400e4269c06c5e5791eb8c7498a40cf736027356dbeba5b59,
  0x12d24e2f188739efc7f4882c5fe55b5d852dec0aa6c3763a7c7dc07ad0812b85f29601e5200a4436aaf3a855716497a8,
  0x0203d2f436cd485e45e26f9c4ec81c97b9a0d051fcb31d8f6fb48ebc27314b0c5fffccfa80ddb3c35714fbf456649ea6,
  0x0fbda328a289f0a576fd6533bd5df2eae9d6987f4d0e16814b7eee6da4ea448c64ab560f76a4c395533ee30990392ec6,
  0x0571edfed1590113004ece532d82d9740a6bb097b95a6ef11aa280ba2c6819d5c8e705f5342a37f7cf1a1c5cef8a6b2a,
  0x16e39228bed4a41f9bcb02442f1a357c6d172ace785152c5d8ab354d47bd4b7f1b9618e22c1eec4959ae87d363718c07,
  0x0c1f4e356c536d8049f40c438d6d60e1c3818bcf78e9b01171eb5600c99fb7c76d44ac06e56132f0efe9d5fed7407b96,
  0x19f5ba75015de1ca4ffdf7cd75bd94cbaa254563b0b578d563e40eaf8c187db88e72481996064d4a5055f3826c4f6ee9,
  0x11c9556984ef05d75e32689c1b116f5f480618d64798c75eb4c521dd2a2d106063d7cab07f44bfc082729494f2e26629,
  0x155389c844260d34d400c860d4af755bd0b7809c8a02a4e268d890787cd0634b2d18e324990a70fe1724af4f857f90fd,
  0x0e1836de66ed8198f1ce61058562448c26b7296663dab7a49075bbdcffb4a3efc3f4eeb43da2db876a1b4da4f2b25760,
  0x161ab977cbaf887fa484718aa8494c892938b465e0e250e05369ebc9f99480ca077947620a95821c5756c70f2fb5b73d,
  0x1953788250671bb28b321ebcddd24a8e0bfebbe4fddcab3add75935498705704e5e57f98a1ebd14068792772a9f305b8,
  0x1113625e4b83b01692a697b845ff7d7af85c86bfcdbdc864e1f8aa25cb0833aeeeb27f6589125a593bb9fc3cb60d1c50,
  0x162c9a18785064bb4e3394a0566704d63a4e8857f440a3cc115290fc304b0ff7ac5172ca0b9bf3ca057cd1329d8eca16,
  0x086a801744966debd4dd1fad415dcd8b80a843e000499bb3032f65865204324ef20717f0a59571012bc2a915472ab652]

theorem g1Part36_check : g1Checks g1Part36 g1Ys36 = true := by decide +kernel

/-- second coordinates of the points of `g1Part37` -/
def g1Ys37 : List Nat := [
  0x03f2ff81646f341e7e29f7ffaafd57578ab5f75c42d782ba869deebdcb958d752db7c7308905f3a5efc140b4c311615c,
  0x145900d0bb57b0076669865c0161778adeba7b0011a70771c4bdabdb91948777fbe642cda07c008f4c600587642bac6a,
  0x15f8d7e1d8b13ec04d95d6777fd4bef557e7c48b85d58caca04a7fb0476b733cef056a4ee8df9bbebfd1bf91c124af0f,
  0x13d7b40dee3d7150c7c22bcb0da89d449699b2147bb3f4e63911e5a0368a53900f98feacccef7846a0d47ba257709cb0,
  0x0721db3693bb1ef7f99e864051b440526f4c652e2da2a2474478a9d5f95e947ff35576664c8b11e7cad946ed182899ae,
  0x0c9688763f39f16aad74302adf7627d26b06893cf0279394d3c5382ffb022c1c13697ce2b76366d481db9db478240559,
  0x0b62fa440d8347fcafdab0686ed36ebc260ccf3cf2e10b822413492eacecb0770f210074631e03a900030c5b632a9d57,
  0x17c332a0c115cbdf111d55369ba3ceacc2a64d1a4419f9d5903dcacd396a9bd469e0a838d784462da84f2faa225fbeb4,
  0x0ca128142047fa1d5ed77016bfcb632f75ce5096f51b65f620e1ba759faa5759f1b5536b2a2b9b056f81c96bd4d80a6e,
  0x00783585f5d30e1d0ee0eec4e9707c9e5d8ac8240005e925444a8194f7a2ede53dbcf121d19e2cf964192e8cb74cfd60,
  0x0e4f4d5116bc7e845619b84f2ce66fa0439cfe8222cd1e755f0e2cf0ff435464c2cea1e3a71cc7e903fc89c1c68849b4,
  0x0e24f9bb2a63f635a9348ff088b4c26a8d1f49e681b4d693396418a9ea6199e9e77525fbf8ff00b5ad9ec4b025b6cd4c,
  0x11984d227b839c63625bea91f26671d49fd94755ce26becd67f363af0d5e3507f64a32030b8a2a022b469d2f914919fc,
  0x0ba2cf3a93382da25ba141b19d93294e45b1ae62ef5ece43b12d21a16582ddc7fe3a549dc9b7d3e09a8391f38be658c9,
  0x0ab884ab9bba47876cdf9488954b7e46e45a5fc01e3d222f80ada203a29922576dbec05bd9cc67118d2e66db086e4676,
  0x029585ae4312bd8ecf20718edf942d6612f079d01f7b99da1f4120d8810b4bcc7bf550cdf6c8d26c5714e17bd98eb9de]

theorem g1Part37_check : g1Checks g1Part37 g1Ys37 = true := by decide +kernel

/-- second coordinates of the points of `g1Part38` -/
def g1Ys38 : List Nat := [
  0x001c3d6fb9fa2eed20f87b70a8f530925b320fed7ef80ad6f041e4052eb8747c7bafd3d8d61e59c60d57aec9ee34c2c0,
  0x07c8919321f393126218468de416186a52c8d1b57a6c37086ed765d4717fd640779c09e95c5dd552e828a61d8df9a49a,
  0x00975c8d6d2f74714d37e9bb8023f969cb3d8b09a9e7a726d190d0f6fd5c8feaacc269fa403b3dd062f0ef141440f2a6,
  0x154674eb3083c8e91d7246d12f8efec04ace8ff39fd3163d918079cb7b03bfc6c457b8a4117fc3a9b4e92982840d3cf6,
  0x0722730491379c5aecc7d0a586ea546967c52bbaf5fbc298090bbbe6063dd80b77d94a8181e660ad55ea2324138fa83f,
  0x0a54fa9c1cb7459696e832a9683a4f7ee80b9e77452c3ec749d1ebaefe9165570b069ee2b25196227aaf0a4472e05f79,
  0x0e9e8c369ab3f96f02d14694d8fb0e8da0ac0a33272f96474f6e8f4bb8f30a3115f41412c95e32b702daeeb0bb14c8b0,
  0x0e5054ef2113798bd9b59da6cb29974c5d3a7b87cffcd05c4f5e34289f813e996bda569b17517eaa00788af7ff91ceea,
  0x17b5790c187d619672608adc48dc902031e8b690b0981907a697aa6acf70a70bad37f31f2782d34b288644fe4a4233e9,
  0x022cdff0368719fb5a760a7a68fee04ef0b8d1f8c795b792f06d97095eac264c414547a438a334a634dc1886b3051cd0,
  0x0f9d07f5e4b78a831b18ce6cec9fa4432e3ddf440b6407f8c4893523486f0c8bcdd933628cacba934753e75cb8722b9c,
  0x19176036cd3676c9cdebc51cab760dde82e0d4d35d55249b415af3eaaad03c1b72422d2dacfac6195093cc42c6713d08,
  0x151f598b45d9506873de4e343bca99118c2359da18780efe849245e48b35bc114581a34f1826d2762b7debfbfa558254,
  0x0f9fa196a38734326c36a2716774aaec1c761c8f7c5b7a74ab1946bdda6a84fff591b726a189bd5aa91094aa07b5a192,
  0x0d00cbfb555739210993ca5f50f10093c2903c867de120eacee3bab3c32e5a59304b69d5b052872fde72dfd53983cc3a,
  0x15d5df99f634400e53714f53bfcb278d720e011b8db0b7db878009b81a72564cabed1efec9db72baf150954208f55080]

theorem g1Part38_check : g1Checks g1Part38 g1Ys38 = true := by decide +kernel

/-- second coordinates of the points of `g1Part39` -/
def g1Ys39 : List Nat := [
  0x13e0a84d472cb3d8a3b53e05ce9630de2b53776c59d11f2616c36e20b0a0231746d1c2fdfd5c416cc2aeacb2026876c8,
  0x10dae33a1fb8adf003524975e93835ce5deb42ba2214c83922bb0762098ad844e99e4e5d98a4ee42e592d61974bf137d,
  0x060b65729b24b3cbdb60ae66198acfc659fe8e14c1d1faf7282240b2bdfd81abb842119dc6ad686e8091c62db5256fff,
  0x159f89a5fc3eb5ebf66055350e8f639c658056b4774f24b33764ee8e3b80a7457acf5f2ad6c7ac9d15724f40ff5c84e7,
  0x078691a1039df5446fb034418d7d7f34018d6314230e231f0f5c74980a5a06f5307fedd02ea5730ac979b38a90deef6c,
  0x13e17f3c01190eefa71c41c3e61f4011627c6d92a5be5a2b5454f476fb4f386b668cb9164c3308aafe93d44b28973f6f,
  0x09c1ad1715624ca11a28c2c9fd20856eb7596151bf9b4e308d6e2d5cff07895b2e0bc6fef542c5eb32c97a76fa12571e,
  0x143946cce189385377e233756ca9e357ff9d7ed3aa3686a1cabfd11afb739aece14b15eeb790e7e88ccb4452eb150c75,
  0x0d2e3cdc88fc2234239478b6571ee54a9094624b7e4c2903edff8a832c68bac5bbadededeb8de2ac21ac447a5a840d39,
  0x0296e3481a9b2946898122886db15a8ea0bb64c163e3aa9084021a8290d454dba050808163b9dbc99e42438cbb47fa07,
  0x134cdad36c57cba02f418ec0d9ff4903e2c56786dc92f5db718c0f87ebb81c8e6ea29260b502bd4f32c8c3641bf4bcaa,
  0x1827bbd83ebc9df2861be160c1539563678d6ceae328a94d455720229c2bc7adc90c556c3d56711445135b36dcf544fd,
  0x063590c42b7b2bf5ec1d855069dccac7088d77be9a95e56091441596dc594e3dfd1166efed251dee7a287f8d3609c886,
  0x029779eccbb8ffd125ad62391cd59df3742825e85adaa40efc2c94dea27f8e1e074b6d7f5e082b623042c08ecabc69f1,
  0x04a25939f0a37db5400c53115f264faa299063dcf25bff2ad86f18763c79430dff92869d54e6da3734c57e723cec1473,
  0x1473185cd4ce0c1c9b30659e1a2d4ebc9ec3b8502c36c04c5d4b63a588314cec54505cd4fcdb3fd1dfdaa83af601bc3c]

theorem g1Part39_check : g1Checks g1Part39 g1Ys39 = true := by decide +kernel

/-- second coordinates of the points of `g1Part40` -/
def g1Ys40 : List Nat := [
  0x146edb1603a96b346d2aead67095cad00fbb4b670cae5c8b9fbf2ffd5caca67eef09a895e5f8120f452a0163f854b21c,
  0x05e943d49a5574f90a84eea723f36008aea0799a6a8e3008fc6392764ba670d27e020efb71c1b6ba024d167a4e700217,
  0x13cc43167b980c7823982ace762a282aea78dd5615dbf9d061f8ec378fdcc340575b0fbcf3db4f217e41df15d6d39f4e,
  0x160ccf2e56869f98a93fb48bcf76f0f11a5640eda32503ae8a5bad9d896b67ea74634ab08106aab8c516b758ea57cb7b,
  0x14affc10e583569c32c3584f6089eb0fa8aff03f2e16d5c5feab99440f6c3378d15b5de632d1ae652b1ba5bf44304365,
  0x16efac3ab436aee013ee37ce3e9c6818e2a582a945cdf6144ca5f02abd2914e552b5d9283f194bb61160384693bbde99,
  0x082824a1b3e6332524a383a38e4a6d5a77dea9bffbaed126fa2dcb759f8a58fbfe70d7fb219d72e18a46abf89fb340d6,
  0x03eed40f22483697cd12ec824087c75275c79cb30476c5b016b8c63706fde544fee5ba9cfbee6d3ba9c60a8c2a1dc92e,
  0x0ecd04ce7c7a5b75929a71deb4f77ad806e6b18f0b1f218435dfdacedc20726dfa33e0fe3a0d5ce3e936b9a083088453,
  0x198348aa6e0378ff87889407be0e9a421d217c5e0095fb9cf7a9829c0bc0ca97b8bd9391f53e414195f0a20c07e235bf,
  0x0667527e97ec841d5f726a5f157e48906932b77f0f3522186c079d130d555dcb17480311fbf156d0690efee1a79e7f65,
  0x06a3fc39b7a24e362ae8409edaa29215d5749a57f61bec5d07557afbe0d867d09a3b25bd62cb053f70634fdf100860eb,
  0x16c92ee2a12b5fc09924a55c96ccf4592276af3c0c4143891865f54e8582b87f618eb01b07a7da108ffa9780c294c5ec,
  0x069db9e2e4bdad1efcf7c3cfd1ba18671801daa48355a4bf1d4a1f5907c78dd1416a7e1e1be73e2b57de59edf5509b2c,
  0x107f5494c86e6880b9d891cf5fa56196aba87b541a83ad0fa2934e4cb47af30a91b8098e28cdbf60ae348e4a54d48153,
  0x05441490559c61171ed74b832ff3aca48ce3aae822bb16f5389b623269ae62f97c4e2e9c9aed1f3d65826ca33292814b]

theorem g1Part40_check : g1Checks g1Part40 g1Ys40 = true := by decide +kernel

/-- second coordinates of the points of `g1Part41` -/
def g1Ys41 : List Nat := [
  0x07094b7c7387ec79e626fb64a1e16ee6eb091861731905ee7bc3addbf05650f1ed479b606b2a80dda1697a30b1e92763,
  0x0d5f5be18b61016bd5fe34e46a5305d3b09080a85bd05140dff9e451e25dcd727924aad58a6367108f68fabccdfc30b7,
  0x1001bcf1c7ad957659b56856b83c11ab1eec6b380b4d50a26ed09e09653fc4bd24a9b606cb5d6306f61990b5b2cf1bc7,
  0x086f54a2e685e66671ae6cf12d9d59bc20e733c9b83f92c3c40d50113acc9a62dcaf4d34c25b0f2c6f08f50a0a5c3afa,
  0x056af5bde12b471a66fd37a0b5536ba070410ac334bdf8d64a903a5aa60e445c11ba480159001525d4bf5cb424cb3194,
  0x0258ce97c9560e6915c18d0be93b66206bba59b43ec09c77023da3b46b57010bd08370f1c03e1fcc9d750a018d908d4a,
  0x0013ef396ffaa7f7e19ad70ed7f622bc128b74c3e5e1e39d6f72c52895f2e1a63e4b6cb68e34f818794c9310453304ae,
  0x1502e83f4ad0b586c764666b1c62fd09dc8eaa414455307a048bbdaa91469e7f407896be64acf97989b1a36cf04b0f75,
  0x0832aa7945ffab57942f0abdf752bb3088d6935a4b8a374fc844a2339ebea778dc95dde876301432db02d023906f3a74,
  0x0a78ccdce652c7838905e0128f3fb86b8c336319b0efe67ac19eb924baa4b65671bf8c250d3f8b8b3d894bc628a2ceb6,
  0x156a0c4cdad128cba95130af6b9ef5313a66f1a3ddd1d4ba266658a44fd0b20eae499f51292894acf7f7f55a04527e84,
  0x17969c3a24671f6162e085311bd99187cfb795e8f8c60bcf1ec1915ae5c99179f6d523ad665949cd199070c31343bb24,
  0x168336560c120dc45b6cfe1fb3a43fa93a12924d3fef55dad3f9f8f999f543d7e437350f81e92959f58fa071b7061d90,
  0x026e10ac57872c27c7cd5e53daceda7d11e7ebc2e271076dbb141941d815809642784920929d1cf3926f35d12d084da9,
  0x0253c0f4e7ed2758c2a4adf767c7559a025b0ac0f8e69bd6cf1f286c429e9c0e8d6135f799a258c512af15baa9ad31da,
  0x1118f9ffd6644aebaae8060be5a3512d0f8b56cf198719de023cfba803a396a93aed684a470514a23838fbdfab0361ad]

theorem g1Part41_check : g1Checks g1Part41 g1Ys41 = true := by decide +kernel

/-- second coordinates of the points of `g1Part42` -/
def g1Ys42 : List Nat := [
  0x0edd56daf736af6b72bbad9f3cfbb949c77bd76e7be56b9aa606bf6a639db6cfc7b1b722703ca7f00f3062c09cec6821,
  0x12c568468178e53bff4537778b7105481e300d714e37874c1be5b4ca4f0bbdf40eba8b273f59b7fa380ec7daae5e7478,
  0x0860ab05f93adc8491785bd3a660ba1964b403be97d3e24e42cad5c6a3bab6d31b4da2f08a33c1be28b310ed72a8233a,
  0x05e958b02bad94b5954b31184fc46606a538062fc67832359462cb3e4ddb05ab701932eb738ab5539c952de578acda3f,
  0x11f880f1a2a14fa7a27d6f5f26ae667a11d3bafb111ec7ae0710b0f25d4ff63ecffb6cda8fea22bde0acdd7fd649fe0a,
  0x00f05654b18872bb24cd416fc1fc62fa10ef5829995305e74af4b2025665ae67be88729a6f93fa76c71a93bc1ca2bd91,
  0x0bdef94d7b4a4ef21b021c0b8b7684fa51bf3c5b920e303c620daaaf9c723e7d0d53de6a0f7c408a312dd771d6150b98,
  0x04474ebedb94e0d72d1ec21c9c37efbaef2453c31a79e0f8063e96ae116af1de88f7b4ff2e908266dd0d386a0712956f,
  0x03d8d2289f1d42d3f288b6a5afb24a8f640e20fd98c7329ce7900157ada7b5d6e1ad7d4cc68357b4a31931f4996ef1d0,
  0x17953c6bd7e724346f3e5ad33d16331243a1fe340ae9e655dd264f13dd654a3e31a4f13026d86f359ad3d5e6f763b1b0,
  0x1121399fe9bd300567b795672722d48fc1339b3d0ab02d9a7ee5bf1bebd107585c5db6edc43b8fda28c9aabb85764417,
  0x06af0ef8a0290a6ff7d136f2c6b00184adfc0cbbaf3e43566502bf77ff1160533e98c6ecbcb18ccfe7be94fe7f8a353a,
  0x02859e710932409279ec2df03e9dc58dd0045d80f9dac84707c3bf2b60300664bd2a1dc41d1f768314a7ab56312e05e4,
  0x0d794eade70c5720dc5629cc89b18856d18b224914f52687336be5a3ad9a5c13fc902d68505b0b0c320f3f8453bb1756,
  0x0555bd3e69f99aa00d59c829f107575a4a624dce77aee82150f6bf2a73c06714697c0aec95154ce4ab697e8ba90b1a51,
  0x0188fb8fe9ec61fa9933311d685142732c668b50aae2e6ce4f844db0548fa3e0d5116e4241cdd47e926ae44aa054f410]

theorem g1Part42_check : g1Checks g1Part42 g1Ys42 = true := by decide +kernel

/-- second coordinates of the points of `g1Part43` -/
def g1Ys43 : List Nat := [
  0x0845f80c147bfcb1d0a3a9abc6dd48185b138907d8a8bf12502790ff371aa70728eacf0070c9a5fffb1081ccdc01efa3,
  0x14d96ac52f203e0771a66422cd3508c16536fa68a8bfec19e7133ae691383392007a7e97acd47db7f56535e233ab2b85,
  0x005f1158d92dc17936de9bfae2b1cfd949016b5d123100f195f16d1deac4a2014ff0002decbab88b92783984fe9f4e46,
  0x08010b5948c324a92c89182805b91f102e4300f27186830722d4bfec6d6945d4ff6e39173dca8016e875748a7abc5ab3,
  0x0bf260c100aba6362a824fb27bb98666d8fe18eaa96529a7e51d1a3453003fa58b5e611288952235b77be36971ff2e2f,
  0x05441fe3f629f0c7e2a1da96f49c65b8e92b1adc671f0b464772531c007f87bf0946d74e19967f9d961835e750455da6,
  0x0611c67b199f4541bde1976878ffb84fef060d395d490310dbf345ab9817473c73a8a7ccbf65385356c1dd4796003537,
  0x014264620c24cacc0a0c7160a871766d513bc4c740c3a32927f774e014121c07907cd498eb517fbcd026dd5137b8e7b6,
  0x10e4af641c9fe69a4e3f762dd0c92276af5e1356308876957cb80232035c3c8d11833dce0714bd672be51b4dffc87d1d,
  0x07a48242e0087f334c7367945116d161e0a4d16c5bcac031dcd261dae78c5c25fe51f0fcbdb6fa462ed55c84f613d63a,
  0x1314f73430eaf026a3d87964b3fff9dc31d9ce34987ecb964768f3c095bd9b327fd54c1eeb42d78c9c47a5ce53548c64,
  0x0d093be40f6b274a9336732518d0e5fe9a200524831aa20209e53c94e9df088fa5982e221ed59977603a48ad00ee41cc,
  0x12f0ab188b6562318707e8ff7f509ac14e3e0a26834bc92935930e299ff16645c27a124e505da7a139c706ac390382bd,
  0x0c88536f18e03b9f87c56e246900e0c47272a7040cb3ea6d2507c64fd3742ba8a78e4efc5a1a1b9f3afa51a80c0c13cd,
  0x0ba721081ed2d42394364b730f354f8abf7568be34694b004da870bfc723c1a3f2eee53a253d826a4f215378029f0d96,
  0x036fd1d109dfe3c7f16fd70510eb7104ea169f12797c3519186713c9e29b144d4e7e04c723d64925fe754ee7900cd633]

theorem g1Part43_check : g1Checks g1Part43 g1Ys43 = true := by decide +kernel

/-- second coordinates of the points of `g1Part44` -/
def g1Ys44 : List Nat := [
  0x0603acace6e636ed93cd40e1d9a7271cf8192ec862f2881cbfa874d7d62d1874cc5cb53e42279f768a8af6ce9290ba31,
  0x14774acdb2a4acadb90dc3bd8380cbd3cddc8e357c5d9fb932219f84a7d8c253c44e2c9ee9c1317e9064d7fa25229b18,
  0x0ac27588bb282ed10d06d5b9758c3adb070ab8a9815ba7e8b04afe5b7cefb4a83698fd10b5c212c4324d92cc4e3273a1,
  0x0edec6c7930eece037be2d68ab9402b5985bb997a168e3cf3e6e1d0c5b128b39f548f55dc2a270bdc09fe364c3731182,
  0x01137d9859dfef67987f6c25e87052571d431e1973cf9f72079bf9e8451f18782939ec3b95c162e14d18046a27a3abaf,
  0x1728129df83e5ae35917b2499640e05a8d949256f1aa6cd3d7883e8413403dab621873dd01be9ff492d8ab06a0367742,
  0x05e6eeaf3e31ebd4abccc11d757b61d1ba3e54e8785d2f5fa32fd6dacaee35ed7a46448cf3749940c724546cdbb5d283,
  0x076ce191cbca9935da95bcac870cde1742e5d786807982d0fe6d695e4bfb94bc168ea703e4a4f99fd23751430e2a4398,
  0x1442ea3f9e275306ec6703296e9f61a77662df35519ef7d4aac576b1942d0a066d40fbffc3ced9c30605b80a79c74c34,
  0x0282f909614e2818f62190eb192644d6bf5c131c853540a72e6692c5e03d6988b1d1d582aab8638412445c06be4c7354,
  0x05c924e7786ffaaff3336ca76e84fc2649f76ab03ff96958b05397a3fb63c3961a48a5b5636a1bf1961ae1d1ce46bc50,
  0x05e85b458be97b4b2dbc21b1faf799871a36217b42aa7399ecc2d8f4023f3ecc981a7d880e88de1a157cd67cd63ec2f1,
  0x031ee3b364459cb5c53ba82f9ab795885510092beafbdf0f87565a77e1630ea366b1b318a3c765e1e5a122816b8930de,
  0x0dfd04122ff5907e57a82e20b95e9265d2f7a864b894c286909a7253c575e7c646b8a17fc78b9bbc04427aa6e1a53758,
  0x16cc32ac5f89f135ef2285127154f8c35ac731f40aa038e93150fdfd75747d79ba8e92794890e1ff94bf263c9a581a1e,
  0x113231e9cb3f371315ecf20c514efdb43e060e4c92d132f7acc20ff2e9cc9f8ba0689a0fd0d882d3f0fcdeb50c0b1cab]

theorem g1Part44_check : g1Checks g1Part44 g1Ys44 = true := by decide +kernel

/-- second coordinates of the points of `g1Part45` -/
def g1Ys45 : List Nat := [
  0x1807cf7e84b395a54483d0476b927b0ea88717369fd30571e711f18abeda095ad87661ba808522440fbf66b6df6c9d22,
  0x04273cacf0561c36aa4ec223e6d8f9868311c471a8234db973c836ac0da0b03953945958912fe03b8ae4ff6a67c4d175,
  0x1157e8bc92f62471624240b15f89fec31e07c6ecaa4ace7e000d5cdcf57d12b04d6e66158521287b9501c7a31a455840,
  0x066f301c034963f846f0d064cfdcd626f456fcc3b7720533da55ee68543aa321b967d0d70eeafe211baf68931cfc69e4,
  0x0fc03c3afbe804bbf309701ab708d3325986d5df6d5903b393012c2ba89542bfb660fb139e9f94836c184dc2ccb3fb1b,
  0x02608a8bc84b904d9e69cf7eddf28e2d9c551f6b27a8f615a6e71116335e9084ce2d597fe1bde3c217ac2d4f0e6c985f,
  0x0cc1b4ac50376b3d5d4e3b9d01a79230f75a587bb60bd89e26e25c5448f9718066f1b2b89184822e150a7af06350c24e,
  0x0cb19911cde9fe1f0088b6ecadafbae4280219b61f7bcd3612ff22c366418c07f961425b038a844b1a846eedeffbae1c,
  0x0e1f68c08e918f2d78e2b3502e509cdd48b8d09f59c324456221cd7c7374524245d43d03cd7137f432d679851ddd29fe,
  0x16936121cee23fb352ae98ba176e74c0d250d5e7f81eb75bdf47439d623eec244221502dc8bc6eb324b03b8f4bb15970,
  0x0478e431483928381d84d64a0b1a126b0942f7214dfd392124be018933e0adcc925549b9b6fd1aa0ea6807306a774a6e,
  0x0caae3f0efff951a0715a6f282b644d5243379a6fe85f11b243e72e16a94e6a1378914a4fae5a24646eb4ebb962d254e,
  0x120e6b5f9be2f8e2371b2890be000d050436c3c565496613f445cdaa6f89aa080a9d733550f0818c83b14e134a8e447c,
  0x157411534cbddca100336b0bfdb2445f9586f00d454b84db440c30dd5e22d3c4d343d221250cd12905381ff043500c10,
  0x0db4736a6d543810000dad9593ebffd17674154553936b625b7471ce9a93c6d702b781c16519e7c84808b746e51dbe8b,
  0x08e93d03e028f7d94544a08ba51832a7ef09aed0919fa3f35152d5d15b37d82c0629b2185a7804c0c7af54d3fd741d0f]

theorem g1Part45_check : g1Checks g1Part45 g1Ys45 = true := by decide +kernel

/-- second coordinates of the points of `g1Part46` -/
def g1Ys46 : List Nat := [
  0x04d092818805872fa7298a575d722f1303495792428193f01c174699a2917500c5711707fd0abb4859ad7d6dcb8911e3,
  0x0ea7f82edb61350b87304a25434aad4e81a4ad54fa206e760849e2c85379323e3b4cb7163405b7dc6c596292ceabca4a,
  0x05cdb0e8aaf56b3763a6407da93f18cf35548f3d9b2aa95f855c24aeff1915e7e044e0b40626855878fc47025ba9be70,
  0x0b3dd3504da126b43360b2acfe0194c920c401010800d65933cec4777ff86d488062fb6002dab37ee8158ae550e75577,
  0x01c8a5f56222184d898e111cbc222116ca3e2a1c93409182c59f2a5f7e94ab45fdf9bbe7d576d9c13d7c4644f25d5c99,
  0x0ef78ae7cf9be9e5155a112d8f665954fbc38fbba0a7262888a2f8592fb679ce425dc4da90d3ce049f591a94d5c81388,
  0x0335d2511f6b7aac2db1d8cf08fe89a77d5f6e1d05eebc5957b61d42eed9e07b9e50b26dd68c1702cf8bb058559af6e5,
  0x0545f528a027d697bde801eff07bc9bf2b0f69e79e129acf362934a153ab5b6451cf8765272f796f772e5d9a8cdce6d0,
  0x0e47c7ed8f2a6d31084cc693da8f4aa5669385ae648754b7b679a1650330ba5bbc7c237870d7ccb9bfe96e963b2c52ce,
  0x0f035ea0a90a2f6deb9bb5db3d47089eec6213675f39b2bdc66036b76796c1d624d31e4a77d263d651063b7c32547608,
  0x040004970169011208ab5e2ab199aa14d86f483c7ea875f833b72d65beced075ea51869ea10a9ff78efd21483b16f78e,
  0x169868fae7e3411e58ca641a8ed7d42d2be5e061d1bdd0cd348901a3c46148db3dcaae75824f41d22765ed7f493df8eb,
  0x191b76f2d423f315d5f46c00574959ac0cc80f6bbe114710b2e750475ab4c27938ac58aaa0d932fc191155c42d005709,
  0x101020e687334f79eeccad2a0e8ce2025684eeade6ed9a441336d69733b3f8657eb04e27e798787def102ea2a166c4bd,
  0x0f7de2ac934071e2a00ad41d57f322109e0fbfd08dd1409acfcf71984abfb66b6467092dc96827f44cfbc05402c9287a,
  0x189fef0eae32229d9ab1deaf3180da4d4a36a19f3c7b0585765f24fca212cd0e4b05fdab6d1a32fedc21406699d1bcd8]

theorem g1Part46_check : g1Checks g1Part46 g1Ys46 = true := by decide +kernel

/-- second coordinates of the points of `g1Part47` -/
def g1Ys47 : List Nat := [
  0x0d2e6afef8aa4a8c2efff89b02ff708ca8a83bd81f5ee4dd5754823ae871c22866103922c2f0e5f38d73fc5b6430b2a2,
  0x0c5b2bf97ef7c9fdcf4478f6fb4e870ce9b9e09795f70e327860d1cd337c551b9c8617bc9781cdb38d6f0c35fc54d0f9,
  0x065b099f6ed39f9d8ad31eda443897226c3945cede0f56ccd3a671f9ab4716797e89e9b62235f650eb53be92cd7fc46a,
  0x044928832889c644f1542fc876799df3080d8fd0a2754c5f1ab76e30935a5a8b1a61b19efc1dd93c65831ca6ceb78a3e,
  0x03e42858ee0e012087f4df7f12bd39fda0eee7913d27bdeb6b66da78a97a0eccadd700a0be6d61007b305556a45d9307,
  0x1918befd072fdcc237598ad9879770dca033f96c500fffb81afef373eafcb2d4e8ba86634743eafb03096de7742d7228,
  0x08d7aa61ab57f569d97905087d0a3e6247f52282c221804445112aade3626a1cac37afe3c81200ef128e7d291194c801,
  0x15fe4eee2689792243dc158dd773416d17c7baec187969793918a736b920c96a910c56273e4cc72a4523bb8bd128216e,
  0x056aa0a064bcaf1ca9c7070bca52ed3f7726571f737799ba24902d55abc7e7e95aa847ec7b7c98e6fa0a26118bce0c53,
  0x08ea03176db6ef15a73cba8eaba617290643229ce6faf87a7f6071c4b38aedd9ac7096a7121cb708736028b299e776a2,
  0x1303496b345140eca236d115befb3f3bdcd5a22c68427f3f2f4db0a559e51722a9b9b386f35c00dc479990601bc885fd,
  0x15fb0b0bf3ce5b44dfb8b7659d2f54969cdf5685ac5eb4a9125330df10ea1fae245de5aeb70f2829d448e0e656c4e929,
  0x07ac72163b684e3cc1495b526a0b33121cc2360d2c425582c7e8598524d48fe6be267f8d0e5ff788b74129e8d07e250f,
  0x0c56f408bdc3685610b56c7df5818d8e75d41201c8ff41bd7019f2d0dc1353917115c6907d0e0a30df9b708f9221c816,
  0x11b1b93de099c950bdbed8657321570fc3acb63dea617853ded3e7adecad0a74f7311603da02dbc076b9746a4e51889c,
  0x188e9499f765b8fab4477fcafd3fc905ae9f0d6406a7e008521cf89f1fc6602fc269578965c36969eaca6cd7bcf16c9f]

theorem g1Part47_check : g1Checks g1Part47 g1Ys47 = true := by decide +kernel

/-- second coordinates of the points of `g1Part48` -/
def g1Ys48 : List Nat := [
  0x1656fea427390ef0529133fdeda666c4f7ab4c89fda01b80178cdb2018be9d57220b9868ccfd70d93a75da4a193d5dee,
  0x166d690bde9623cf97206231ef582c58d90201bdefb99293bb80f6a92dfd78e345610c538c54bc15378764b8cd4daf92,
  0x0dbc65f13ee8793c4be52e14c002b61d05d7a1b5a9bd7cfbe3c1ef9e08d5831edfeacfb8b223e323af02fbf7eeb14f95,
  0x025a794ae586aa917a227bc4ced28a7144565d6ae5a6781d1deb3c794634a79da4555cc7d490a68f348fe39a08dacfaf,
  0x04547cf6f567a2770c1e8dd004284c8a03c25b5bbd5d8415990d77f9e14a999091342af54f0f6fb965db86890db9dbf2,
  0x1489851ec38341c2633a14ebfe68bcde27396e4a244235d8b2cc66e0cdc8ebe929b9e563d8f438eeca3f9293220a99aa,
  0x15f11f5a6715c7b14eb597137e4be81975458561c995eed6b363d80a839660a8a7873dd49ff44046837466caeac2a3ce,
  0x18dd1f48c042adb3c8e82a8c2b720d95705e9e574b5ad51ca1d1e4df88a912cd618e34cb08a0794e3e608e6bfb48d755,
  0x0a10ed491b81d698ffea454953f2ad34c5b02513c8158c7f5abc8c66c6a60d569c51f813a1bda0b7eae6c425f9a3f589,
  0x130df6a96aa976f79f332d6e45617d1f65cc928f2a8daed55385fbe02d800155ff7032cbe9b0ebd1dbacddf2593ed805,
  0x18e4067b4ff62d58066e0da2a0b43e1c8337a7183bfe434350f92499972279790797b9c9f067ec4c2dbd65b5060fb5f7,
  0x0bed2bf5f6fd892e6315f03380efb396b717cae35397429a92fa60083d33ecda81743abf7f2fc63b8810f7ec7d7364c1,
  0x05692f3bb20594c1f4d9070d55292c4307e1bb02f6a57597ec8a53158aad09c924ce9401731ee2d5b9033c4924c86801,
  0x176efa3377a262502fd91629ab4f1d6b73369e84c5c603bb67a76e5476224a742903107e8a2d83b21449fe9d848ea439,
  0x0ca3644660c095d0ec6530d79175f21b79003ff86f979c6da0b0dbe5a5ac9e707921041d49c0df58ce7109cbee11681a,
  0x08b0cf5a947825e0225d727787b5f7f61070b27287845ce0a39c84962bda0dea345b7511ab448951ce910ac65503a4ac]

theorem g1Part48_check : g1Checks g1Part48 g1Ys48 = true := by decide +kernel

/-- second coordinates of the points of `g1Part49` -/
def g1Ys49 : List Nat := [
  0x0317097002a655788a365453c4c860b70ddb074434927f1e1e65b82de21d64e2a3863ba462f2451ddb7bf18673c71105,
  0x16746caeab3324bace0d76732ad14388152a799ff57567c7bf10b58f6773b908d8efe19d75c656c429d8a89892c39b04,
  0x024262eac79468e633ae635a6d36b4e7f362c0f6cf442a0737238733b0b339b414468df384ca8c95e37a0cb6046e21e4,
  0x09d30d06e62739ecc981e21bccda448830a4a05a95dae83cfcbfb71c4cd51fe31e6b8b176966cae86a95312ecfcf4ddc,
  0x0e9bfa4bfd9c1420a380a850a1c313efaee751ec60bc5a0196abeb41843c3f5a5079436bbdba0566e25e2fa43051c8f4,
  0x0e0234fa89559206f35df2bbb4f2b56a8b34282e0a13e0ff3e005507d1753609abce27dd0df4b407b7b3f81a868c1360,
  0x161214b6d7defa669e3b3d4c4148f6b2b465a826016ba63b39aff070ba53ddf1fef05d8348b0a60496eb5fd7f9aad23e,
  0x12d51756229924baf279d7804ce7e3a57644eef10c16e309948cfafd10af5c58131053b2aa41c8987c9bdf20702fd9a6,
  0x0bb43ec896375bd6d813a0b8f9b7a4710c94264d97e3e89f865998bb45ae5675d7435e0c8ff4068df20fb0034f757ba6,
  0x011b37b7ef28fefb221cf1fc0806b54ab0e790f086a9bfea8b0a146408dcfcf41362c49a71f88d12d515ccbc4148cfc4,
  0x041363f791a3bd73a235c5db679e0d8132a94232a3a19500ddd39127c60ff5c23ab28cb462de2f7d1c85189570cfa3f7,
  0x0481f6fd1d9b5e2578ecd18dfddc5628ed8111739cb3e7464da380ea2c892bc306603c056939093ee0f0b84de9ee1c96,
  0x162cf698106ebf9ffb4f8d56df478c1af5b613b0327bae678660c003b248838a6dc0a693146ea1c1c465b689cc5fc779,
  0x13ca54bec4927f53f90cb6cee44f3efca12570836d7c77156c0ed09201fd066e14b85804fffd5721d9dcd3e01b1473fa,
  0x02aeb3f9f7d193faf0a7e07d7e3010ade54fb19219f21ff28899ea7dd466db988d5e8f3af046daf401a9b4db13b1c596,
  0x13636e0656d882741105ccb2a66d2cc8d3ab4f0d0b0f2d38ccc390dc622ca5452408a0b66d790a144fa427e9a8863b03]

theorem g1Part49_check : g1Checks g1Part49 g1Ys49 = true := by decide +kernel

/-- second coordinates of the points of `g1Part50` -/
def g1Ys50 : List Nat := [
  0x048d4a653971c49ca83f82b23d4a3a25b8f666e6596751179578dacd4f4279ec145cc7ea720edccdcfd9773b626d4efb,
  0x15e075363c8576525a9df463875801deb6790ecb1ad570e51bda5e3c87141883964604c723f83b3aa16fb0046d92675c,
  0x09ef6bed4bfc7184bb809c725e5294a773f00d8907295e8ad49de0d43de3cbe049ea01d1c4fec995c8cb237e0fab5043,
  0x0667d66f3b2a6164be2455f52f53965678f927b9290e6ab745ecd4c74ad3dec7efdef7f2510cae4fda740abf39d97e51,
  0x0463cefab39ce4d0dea14e7e528a0c5c5448660a9e8dbfbbff769038c9cce3d6a8d6549d0ba93f6e1c5dcffe7008e660,
  0x0547ba48b23779437e40b10d0707575e9c7fe1b3cf709a539748c4cc2cda1c18d2f575a80cadea241d7b10b0d46ac7c8,
  0x122bf4a0269200fb4087e266a5f1ec7bd8187e059c0e826f5569771cdb2b407fea59a46d6198e0aa4747b28c7a3f7a55,
  0x170d686bf41298be069aa583b491a26afa6cad6aacc3a0213aca640cea82d1dc22feb1d7cbb63bbb86369ac9a8ac4aed,
  0x03536aab54109fda9416a11311cbba0dc73ca240636d833d384d9dea80bb4b1a1ac1db9249bf1dffcb26ad4b5e2ffca4,
  0x07fa8370f803a69a26852986149cff6e9520db161d92c476727a20fc6ba21b6448313b64e68d1d6b42a76dc362376ca9,
  0x08b83a9e7a9d73e66af13994ba6ed2fa2e49b1b7988f9daa74b0fe32d5b16320e028bc56029766430778721e8f6cfb83,
  0x156cd77cbdd4f1b391a0e5eef7512c3b43a23d06d5c11a03366ae5ee35dc741f6d428ff6f2a1dfc98f2060c47781f1e9,
  0x16694056718b58e93e816778b48ecd9c5788a485c7d933b212b0acac09e07891e193d51ce45200fc74f18e2c8e12ce0c,
  0x0748cba946466f373ab7881e8ec66a7843bd1e3b7b0346e83b662695723dd5469db354d69253d429ee318b566150e0db,
  0x14828dee11be472eff0184f0d48e6cd0ae830faea96a6215397954ec51b338c1047f57c5ab6e28b869b4887ad1b245d1,
  0x160abff93ec2d4fbbcaa725030b272ca0345ea362e25ed63f374d1e22f86443052586151f21cb6dd44ce3d93d4a7aa93]

theorem g1Part50_check : g1Checks g1Part50 g1Ys50 = true := by decide +kernel

/-- second coordinates of the points of `g1Part51` -/
def g1Ys51 : List Nat := [
  0x10ade199624c5e4e5d78bec174d078e8b0415d6fc4d780446fb6d007ccb9e2dda06ef24c9c2dfbca2c6b648f27e7e6c2,
  0x0d8588b6691562e00db2cf819fc33371855450684b6538fd810e5b34692aeca49a9f0bb4f60c84e9a8b636cc1a549fc6,
  0x1592c40da8f27a63baacca0a879084548483a4b66c1267b3ffd0fd929b83bdb4829ab740bfd9391ae274dff5073850da,
  0x0dc26a7cc8752f65d92b2d58206d5bfd0fd9d71f49fc00572e3c6a771e5e63ae70c833341f3a6a7bb894426417b41db8,
  0x16946bbd8ce3f7be3ce9768f1206c02cf9f38beb0dc35ff2dd50c12d46ec268e80a9a542b5ac8203eb31fa0ef3de85b4,
  0x07c580f7fdf7c709c1c3e7c722f052a07fa81b60866b2cc07991942762031f979bfebebfcffbc36ccdb71521b863954e,
  0x0aa7465737178c56eadf0dcc0c6bbd297b8d8379248ed7d4070c0def4e358a5430db8427e90447fba597128321c0e7e0,
  0x038e7a5dc5d551eb144a44f8ec5af8a46f202d19c950c47dedb09d0a8ed0942f00c87f9352d73855a29bcd37144131a7,
  0x01e836b307b072e1a9d815e19bc2ea51d9c3739d4385a28952fb0f25521fa5df7ac3a05049891e1d39f731c56f758bf6,
  0x0dd3380539ceccdd93cf5f788b762fbba1b6f08ccd02e988dd8b287a026b3fcdbccada023f31aa8ddc4c0c53c86b28e9,
  0x0786d733d940ed27e3992407622d0c024f17d3c3461af3f5821b37a4b1efb87b6dd5eb9f8c74751eac33bbb5ef6fd014,
  0x0e60fff7b9983782279a68d81180d43ed978b5d852722b712c145b939bdba48fa6b71383af1313aa102008f0875b538b,
  0x0ccaff8089702863709dbdf6339719aabe2bcd4bc92354b6c7f1c6d17608ccbbbd7dad1b90f987cb9c363c2e5c505f6b,
  0x136e0a06ba490bab9a18bfded20c414a5073609fbc239d8ea2fcbb44ab57237ae2768670f540bacd503f2cb2c62653ef,
  0x197fd0235652c59c1f8b37259551efe09c482e6d267e57eef20dff2a98a311357fd3a3fb9b18c668b20b9a21977bd8c7,
  0x096ff54bdcd7fdd2d864b2f7b32f53f671522d84dfe2f1e1fc059319877b893f60234ffef6fe499eff9e5739e70bb6d9]

theorem g1Part51_check : g1Checks g1Part51 g1Ys51 = true := by decide +kernel

/-- second coordinates of the points of `g1Part52` -/
def g1Ys52 : List Nat := [
  0x11e69542557a9c248eda8524ab9b4efc2cce7e911c21856527bddd629bb0eb5b962b98a272aafb9941ccbb3b15126263,
  0x05c7d3c29ff0d22bb620a84eb5b8d566480e3cd0de130deb4907491867b5f744ed653ec011313af8a26c3f34f6b435a7,
  0x08e3186a18d58195fdb877f62ab88b4858aa03b4726380c78e4e7d20939fe50aab9117605578231a92f7a1ba46734a0f,
  0x0ad852d7a832eeca67b920c4ef39b78f2fd006940e5f140c4b7d2b070f4fdc0bdcc6fac8b2516c6f057031742847840d,
  0x0d72f30ec88233ff7872b9fc1176b5095b86c71b99573a1662134baaa63366a8f6d4fb491bd6bdc3e2159ca5aee3c4ae,
  0x0be1a908a94d7923c5f44f920bbd4a01492d71617aae00248f75d2d5ae84e5bcc3e1197462bc9a2ae12a422ade8f4c5c,
  0x09bef607ef1fae5930672be965cd2b5dfa5254c3c09cea0c7742a1fc1bf546373625d833130a8345942e0c8379b00b23,
  0x019d0ba1a6067d489fd69281a77d3efd74c44a6eb466417e1167bccd3b6b0cf8863db2ac10ec2433fdc2b053687a0fbd,
  0x069e281728afd8301d6cfc18835cb80d98dd5ec56c143850cfa2b35b93f85f9d3fa2e45e7904205d4023e278f0a26d7d,
  0x159010ae4405865afd6dc1e413ec6b8f0b8129c9ffc8845568867197f9b4ec788ef69859d8abe016853947f55f78e860,
  0x19e8248ea1144c5100855336627a5cba4d5abb0366dad86b46cc00f1be1c2d3c7beb373432f912eaf9d02a5862741c45,
  0x00cc9c3fcf9b3f1f7a57dabec43ee32a292e70c8dc91022544c52f7d642eae8f7a0bca34524d1df1b483fa10a345fc07,
  0x0f0b6c06a5ea0a476dafd0968eea5b1fd8ee8c3816f961d45d8cba28ebea6bea030b335d72a614d2d2ef2056f95736d7,
  0x1747c4d76e135a537ce93cf71f82f4a89291c2d8b49a1ad46c2312505cc13c8b3682857b32532edb2cd2b18267cd0374,
  0x118a703c19f874a187a307d1fbd60ec2bd6c7f5011cebebe1bc20ae84bbdaf28a917609049d1160b122edf04262a267b,
  0x11d3be5eef3c86af0e2b8041918ef8dfc9790b985f92a4a18ac2d672c2e43f90aa5370c0209a36f4295a02d9ad63aaf4]

theorem g1Part52_check : g1Checks g1Part52 g1Ys52 = true := by decide +kernel

/-- second coordinates of the points of `g1Part53` -/
def g1Ys53 : List Nat := [
  0x01263adf8b7fb5d23c51c18a37b3c1c39daa1f7ee00564e15854f8d028a03bbaf3763f856d5b3521ff7c9902addfadfd,
  0x01acdf3fc550fc2baf4c9d9d9530340b7700b26d9a7979f0da65a5f75eb45169bbb7a7be702ebef2b9206ee7df4254e9,
  0x1371a10c5eb8e63c8e889a50301d207ba3a3f246d28f53a84f4b4ecb0d82794ceef51f7c5e18b5669e22c185bb0a3cdf,
  0x099cd20a7ab380dc0768780c2aa116af0b00cc62a84b93b7ebc631a2dd7e6e57bfec5be36e01740a1d41def56db64721,
  0x025ad760b2a8c837ee75285ba207ce9b60ad4d3e8b3f8046d358c91c596d228bfb3001b2f3b92317cbb2ecf9982e0e9c,
  0x162cfa7bce1a553c4f93d32812766a50111a89052bb0b7744aa7e13ae093f92e800314f277eaccf014afea5a54fdc836,
  0x18693619cd0bd49847f48e391400d63ea7c8809fdb43b34157d40e3fdc7475aa8353c3595f601bb822890876d5d066c7,
  0x0f7a0e25281dd175eb888ec2f469254f681594f9a45029c624f202d069225693c9aad97eecc27e5a2c6ce65bf74b109a,
  0x128e07a51e6c6d7213aae8f5eb41c01f93e26cb1e2c513b58f5a6948f3e6e17e5a6eaea0c6585aaff6a8068af5d58f94,
  0x1182fd150ffdfc26f31aa93fb16aa0a62526d9b09775d69689dcf7ad09d0b536a6ef57f86568ed111599655d487c94ac,
  0x122e7e90dd8b6e113025325930520232cf82e11c385ea8d903cc517c177562730f3f3df899e8bb8bdfb4e25c997f8aac,
  0x083696704e08bde3532721d83c7a4f5e85a65d74cd87213d81a0c0beee9b76d4511c5dd58ac9848216ae341ad1279a7c,
  0x1822c7033011f4ae50007aa4c3a5bf77e3a8b17524282fda02e124a736a27d6b01bafe2dab66d8439f799ffa2d0ff9dd,
  0x11db9b63c597898b7a61cac5089a2cfca6503cfaeb80640f47786ebc98254f647083d8f31cb0b3c67b8eb83ed047c3cc,
  0x05a0832ce1753a033207111e9d5120f437f031f5b4244b51929df3e318a84349f8fd8ee4b2ec7b6dc1d5b37de039213a,
  0x0e078f7ed2a9ebbece0c1540c847b65524664a5459cd7571ff962a055de08c3c3a290c6d72a5dd026211719052f13a9c]

theorem g1Part53_check : g1Checks g1Part53 g1Ys53 = true := by decide +kernel

/-- second coordinates of the points of `g1Part54` -/
def g1Ys54 : List Nat := [
  0x05748b181442d82f42a5f00aedbee3ac56f0e547f86bd8d01155108f7627267668896e1b76c416f31ea7768e11eb872a,
  0x0451697ac9210230b6de0fe6087bacefdb0acef6119c6ec14002705e033977ef234eed9ad78c62a6613fe9a1454648ea,
  0x182e4223b48025c42b6228335296ea6639128bbc622478495e5726345149b1bd0b5375a8ab5ac7c14c0dafea2bfd98dc,
  0x08b71931a4a11a5c21592f7757f9306749269e0e93e63c2d4c1da52c52834ef0e8eca8e6bd8baf1604dc087c23e1b44a,
  0x05560323d67df20bdffcd4a2e2125bfbc7d6406f13d16e18ea2f0e0dcfea46ca08349325f5a9fdb315972f182b1ce2e3,
  0x138a3edd9701d3176874b145b6c460091e9e61aca33ee9a278bddf444447d12f9f9880e90326c09f6438cc10c924759b,
  0x0ae73773bd75dd852c6f83b27bd0427956cfd36b1c05df07efcc7908f2837ec2ed469246cb9f9e9d50c9db32b96a2b20,
  0x0bd95ae1bfb65d17d1e2527a50ba1ea7b94965850931494c03bab411de605eab4f638d68d5996e39b909706db4b5a9de,
  0x1093ef60e36535cf514661e5c5dfb9b14018de0c533b2ffb778f754d9096f257c68b429c27733753774a8e136cb14312,
  0x0f5c3a8b1476302c97c42a1d0f04867f7c55b66ffe7a4acdf67fb8fcc11324aa1c78c14e2e1cf01a885a363a1212d6c0,
  0x1753966307afb2883bd9fe7fa0b44096ba53dac0eb02c3e99b751e06afe443229a4340a3afd60ba8a0317f6bd35c4ece,
  0x03498d07d106caac4ec2b1056ec28800349109e04c6428f4a674d0778d47b99b8f803aa07e2fa0c8ad4ddd9a0b6ca507,
  0x0c0d71257c08193743dba322e8dbc03df4a8d0d86e6468c96092b25e1f9997ab72297440230cf0bf82bbfbb001ce2308,
  0x04ef273ebc681177d679a36c3212eda3abcf093a08abc55bd0a3186d5ad851d3fe13f0530e8788eaff5c07a36bda12ee,
  0x099c443a2ed60e2fb4d67bff23b4deef76ca47b5bc1352816da45ed648dc9a85f8d4512a632a6066d6cd72141d371df6,
  0x0473d79628bee7b2d86620a2560b1a634cc4ae6145a2c7093dfa0026b42af619c7ea37095fe3ed4ee44bb9f7f397752a]

theorem g1Part54_check : g1Checks g1Part54 g1Ys54 = true := by decide +kernel

/-- second coordinates of the points of `g1Part55` -/
def g1Ys55 : List Nat := [
  0x18653756f66f05ee5949a363af4e965631ebc95c93095e8e4a6d58a2f49241be5765f392356d91ceb38c55184b4294eb,
  0x0fdf82c0115bf780a898bfa74e423be54ffc9ccece1a6530891175c6fed5440f490c6afc43f95969f29707ba79630d88,
  0x15443d895fc54edb75cc3614871eb8dbcdc3831154f91298d8c12db77b64826611e412fcad04960e80703bdaca974050,
  0x11838c0912f63bac80e7ed3c9f10df661566023b4ba098c64e1d30ef8b63e28df7e0a7ef43ea9fdebda1eada16c88730,
  0x0a42c275768acef1997772e2444c7db08e1656bfaf08fef72a3d8de0b91e7f3edd943e91d7d7c2b02bb543ad432776ee,
  0x06387fc27e55adf30bba838163d89bbdd5f175ba7351c1cfd41243a0a9b950c9212c5245a9d07d015920512388122fbe,
  0x0b429d8a67c1eaca4b5d46c9fced737605271b5233cd60e6d8906ccc01c6fb00aacdc3b5e5b36e45abf74ca1a65394fb,
  0x068ef45232a65f2ea0983214e1107da0d959dbfaff036a129c35af59fe2a9535ca8c6bfa3500276a4d45293683a5b6b5,
  0x05b91926375c914e0ceb4b720f5a993e36b05d5f96ee7a81d0882d7caecc86f5f7963e04b1bed59c26cdf781ce8847e0,
  0x117a36539d050e63bc65cd8f128078b7e0de16e1f081239a76bf24cce6d9e362c9730342b6252a46031ee956182e2213,
  0x0e9213587733582fcef2ff58719cf143785daf0409ecca0c802fdc845dcdd5dcfc336508fb2b60dd9f8d3df49d14665a,
  0x0f42bac46f1892b022023d1875ffe315d11862c656c40f964703e879587c230eb5d312bde7a05c68991147fad27ff3f0,
  0x02a9c78c58316a6b63d6a5397e24ad1f3fd5e7982edeb818cac436e99c917bc35e54100ebe51c829030a975e2b3c5a9a,
  0x17d4744326039b91856ca77fe058d7d8b7f3970e06d5350b0abe485153040388d8121ec810522b66edf11c49a85a0b61,
  0x100eda9173e4c6258799388ac5f81d79e2b21dd4fcc2f60c915654f3e9dbcbc99667d4fd4563aecc5226048def6c04f0,
  0x0f500b46d9d5f0feaa980176897dae7d20749f0ee16ef3649766cf3f97d9830e7ae04d41a0f0b9f85b037ecf939faebc]

theorem g1Part55_check : g1Checks g1Part55 g1Ys55 = true := by decide +kernel

/-- second coordinates of the points of `g1Part56` -/
def g1Ys56 : List Nat := [
  0x0b0f69f926f4a73b30291e17a16421ec45ffdc849cacf5c1cbe94a212d86bc0b02519c26c5704b2ee369be95ea8ad000,
  0x107ea8299b3149c5f77c61d004f1ffd1e8d38070ff8933af95b297c4969373b73cd268e44574d28d4a330a7a149c594e,
  0x144c0df674fcb31c1359b3824143e580e1d73ccf5930b71f4b87df5f65f4e31a91722b366aae836d6eb7e78749960ef3,
  0x010ab66c7abaf80c2727deaf3c0a885ffd96ebb29352c59052126ac574cc3611e486313613f670309d22f84a67d3622f,
  0x02ff90aca753f21344b9625123406b2a2e9bbd03a66c8636f1bc5c65739d139f1dafaae9ff81d37de2c2d0cfd748838f,
  0x19b6921c801bb4281140e1ad671a5828d5feccfd507aa902c6a680d90d621a13ca1f8bb0a18dfa2c46eaa177a59a57b1,
  0x0a45dc7d5f4b78d57085067ed07f884b31cadb8ec99a89c57e4fcb07a8d7a8493cc4926aa47a5bb349d41d1afaaf7399,
  0x0ce3749e1ba92f190283e1773da56453321e0d0bd7990b8c26c1b24d7884be51d49ba8982807721310448465d561af99,
  0x061330992479f84ce310f9889a4a76bcb0a10138f2ad0c5941d2be54c12910d9470e4e4dbc295b97fa928d79b35ee79a,
  0x19e3f0b0e411d34411ad7a07c3e80d459c31702fae3b5eac706f65444812ba929b1621c71b01d566b78ebabe96a90e0d,
  0x181fa1680c91cc2e8b619524de1729852c1673c76142a9d7d3abf12de868f5bbe78be9a706a21a575403a6a390c4a0ee,
  0x033df8dac6e531c827d0156497c3b9ca9485638527a4036a710231edf96286e9d7711430adc9d960bc443cf4f03f03e2,
  0x17d03d13f2e4bb922c0f71f683ae44bd567b620491955fc080f6bbe293592dbc6c8aea4b5a70ddfc15d6d516d2234dc5,
  0x0b322aa2aa27d5b64cabb23a0cfcfd66bfc2b2d095c22905e80b6f111de24e4d4c8d08578b3e3b9466ba318439f913ef,
  0x0607e05526db42f48e467a4671470935c4493c99476ac830260786a99d9136acae6c1776ca5b896ac8c11843edd3726b,
  0x018575fca13bc31b7703626fbd8f5469338675c778ecfab87a0d77063b9f569b62d83bca55a8d83342aeec4a7370a458]

theorem g1Part56_check : g1Checks g1Part56 g1Ys56 = true := by decide +kernel

/-- second coordinates of the points of `g1Part57` -/
def g1Ys57 : List Nat := [
  0x15e15285342ef36320aaf4be08297f0934e1aa77630fe74f543c358c0e585546eee6472a0df12c935fff32e09da54e96,
  0x1973d77a33038ac7c25321cffe8292a7730e58c83e4f70e653c40c7c7cb07e34040ba880fcb2d55d776451a4409ca91d,
  0x1821060fc0ddea7d8cb06cbcc5b827251c9e5d99d4c2bd398f754fe9e3e523002e9b03a960254e96c0803f04e66e3d2e,
  0x0e015fd75f66b3d748e1595b68cbed207b5c46809c3d2d6eeeba2ebdb52037064969ada263e038ccf346b77c2f23d10f,
  0x14b887b69e1f670166b9309b0d017748da9588101a5ecdd8d7913941e0b7a9bd37ac0f297ea872514e116fba9c94d3f3,
  0x00942c764a67a8227562478f10c10f4f9eb2d8f1adfe3784093736b3255c9256b8b77d0825ac6a23305f4026623b797a,
  0x09ae44121300886b309a511d82bb95836ec18b5d12c11cb58426d9d548ce49072734e2f327e1bad53fd5fdf75e689c89,
  0x172a34f196edeb32a524661525390864aa1fa7f3d1c1efaa38a5eaedeb8c23fdbd76d6b8b89610f3122506da865fcbd2,
  0x15e1550a0041259cafc7ee91792c051541727b1726998ef716be4b4012d7dac9e47d402f1d72e8118833ef5d95d10a37,
  0x150a83423fdb7f45509802ddf815334eb10a8a25164f31ed4ca1af3765a81a572b08c3e8fa5d65d097b6c53bc16f6a3e,
  0x18c7d52592c4a1d5053bb58b2ce0453483d665e70042f3ed63dbfccf9cff3809fa31f6b4428a9479ba17b06e7d2822a8,
  0x1848b123f5432f39dd6f4f0160f46ecb640eee5c15cc27993b0035015dfaf33528a8197025a8689f1d7b826cdbb183f0,
  0x11f9d4f59c13725713d761908a4ebf58517681653f12f3a60bbc4b8d79dfb133c270ab2ed68465297fb528b4f147c6be,
  0x09deed63db8cec41f876abe519bb080ecfa216f086a4cf38d96d9778933f383c9d5f894991df9fa80122f5d5727499b6,
  0x15b0ae99ad632a14a3cef0558864c30c46f5cb36ddff54b5490f368aeaeedc1b6051f42d5e58b5cb8f5bbaa9f8bb1a30,
  0x04a0eafb76a7f24439d8aed7c4873b022413e5a8e3bc4aa48645b73902adaa93060c682712f702ec5b6411c0dee2e49b]

theorem g1Part57_check : g1Checks g1Part57 g1Ys57 = true := by decide +kernel

/-- second coordinates of the points of `g1Part58` -/
def g1Ys58 : List Nat := [
  0x18ad7839de7f197d794aebc3e4e8b783b15e02c61c452ce6e42234527b3b33f252d98e59c0aa3baabd410c50e8f6dbb2,
  0x137d8942cda9f7eae0bbc65232a5a611d977af4bdbae4971a36ab52f70d590dba8a5846bed94b07907a19b5bf213db32,
  0x0dcf89b7dd3010ff24fb43b71d6e35569b22e890aaebf5a8abbde290982c89690861a4a2db6e493b8da01b10d039b915,
  0x08fc60f0d24c8cdb9f717cab0e512a615eebb72a71d4566f3331b9ceac0bccc43783e8c626804e4dd39ab66796f94fe8,
  0x159c143ff9f72de1021565378405495a85bf3a80670bb6d1d6385f06c59041c8e0dace74ca1163853a8a4ea40e46696a,
  0x015c7ff8451c5952dde0263d8da36bcded6cbaf30a5da7d0acd385d6c987a09ccc102d4c002e526e0f483f003233c4f2,
  0x009a70bb25e5a02be64d23afcd5ea6f83c4e8f3e62f29859b71e79a41e8038067ab62ff7d8a02bbc73e05f0d9ef3ac51,
  0x0b8f1f6970a06d8eb034df9b82969840efdc1738b76b029426d044783c994d2e9afdb0be8cfb7b63369d306f03a75254,
  0x15a18a8682bca5240a1b70107a6c4018e54e0cff7b19a4c7e4a7b4f167ab200154eef5588e64b64e3c38adc41aaff57b,
  0x0b88cba6790d0a1b88ae3469e56f07d5a500cbd525055f5b2907d804367db0ed501fb0d33516f8241099510a36711bed,
  0x128af801a7fec6662b8e8413d130010ccae69f274de202c16da7613eb094787749b7aa91b2492915c5a454c4a9a78dcf,
  0x071f8b468ab4001814cadc02c6cecdfd26629e8452e1185e89b7d9c389333dc5063f3c4b9c986db38eeb3efb6de8eae0,
  0x0d7ae919c826e8fdd46192284385ece9e2738bc4a01373348572d9ae9430fdf0b3645615831239112a945cf285c976cd,
  0x12841971f04e901a331ae0d28cf75dd9714f98fac56f27433ffd3b69da855829c1d62aaf390511f0d44d0dbe8423261b,
  0x1446eef58c3073d29d8a4bac194601e993c49a23435237212581482e21be68293299e7e9575ccb6357cc565675144cf3,
  0x10072cd429bf6c856aa4b176746498fc76f1573875f6c96abeb72dff0e16263eac569f4839585f1441f0fa2bed561c65]

theorem g1Part58_check : g1Checks g1Part58 g1Ys58 = true := by decide +kernel

/-- second coordinates of the points of `g1Part59` -/
def g1Ys59 : List Nat := [
  0x0c677a5cde07509ee6c696f9140518b8877f3d587410beb2a5ea7cae509159638c4708d61b522048341777387e415cd2,
  0x139736ee1c66be2df47f2a452b32609e9868cea316787af2a0d5ca0ef2da6286e0027318d199a569370660b3629b752d,
  0x05096b98b0a96b92825971acf6e991c48d8c98ebc76f9bd1ed4aa805d780c701efa7c9a612a0dd420dfc31dbd4ea37b9,
  0x0867202c9ec134251f3a4db742026c6a5425c42f5844151ffe94ac332f0eef11805f4fde84d0dd1bd9fea5ae83f6e1f8,
  0x12057b3b94ea0ad507feb061872a62bf4385417e77bb915e566ff20dc8aef7fb18e64390af504d19bab814d8694cfd43,
  0x0f7243be03c8d6a8e5d5dc8807bfbb47ccf5adb1811731abfab516284e277724cd39210610f1ac0693ee286f8303740c,
  0x08901970b67c0554439ea66de5f73b3280d4e0d67b05d4310b0be0f887f85826c41614ca0ea2f3796ddf8ab06d0d4618,
  0x0b980d9b1ed2e48e5453d6682d40ee4525fa05d46d960381116ad1d0e0f0b097a1d561dcb2d75c005d5f8dc72ef1c428,
  0x0cb720d1a569ce8ab9ba8a0acb6e8fd6900790e407f28ac517aab8d0acb30049765121b2cdee38125a4ea912229dd459,
  0x0958b0091b0a96a522b201698558cad35a3a239eeec7e59311087d5fbfaf1949ed70915cce0a98ee6212843f321425be,
  0x13dcca3f77346efb0a5690b21218bb0cf7072591315735060cfc083604b8ccac3c52eabbeabea2a1bce6348b5c9faab6,
  0x113ce3edcf2fa0877e01a6d3a4dee15f6252f9299b52e72005f0e7c92d9f89fc7cce854c21c9307d13c3b747389cbc8f,
  0x01ee6f7553c6bc58fee6057447799e9c93bc39238dfc9d872374a8937d8c83c1520208b16904c3e8e152eb3f7dbaabc0,
  0x05d8d5a30bec3e3db3be42617c336a6237f0ba61389b4121034d494d33bf9525bb61dd1d9704c101874a8ae90466d1b8,
  0x19e639479cb1a1fc43b0e2b8b34a34636c2ed2f2f37ca40d7328b14a1ea11abd16a131befce69618d0e3886e5c9dca2a,
  0x164abbdeb2986b04c117e2321a02e679e98e53d3c0e3ad04c02e8ef7451baa946e0e34fbefd74b3c0ae856b314b967d9]

theorem g1Part59_check : g1Checks g1Part59 g1Ys59 = true := by decide +kernel

/-- second coordinates of the points of `g1Part60` -/
def g1Ys60 : List Nat := [
  0x13865501eac86e41bc648aa12a438bee9ea42314ea67fa550c38d32ded2e24669fd7665abba8c73c0659f80e6ccf9979,
  0x160bf3e2498723449355c90d216eb5b3f077761f51e6564abc7c272d859af59d863cfa88b9d63d91dab3237333cd2c10,
  0x0d9771119216387816ff50011610d24ffe710bea334221af94e386de05e9231863a3a05c43be6c5445ada7272bd818c2,
  0x1774cc7022652d51c6311c0b0f1822f4978c071a286b8ff7bc841c07ef88bdd1050aae35ec92841c66478d4798d7cb70,
  0x17b19aa3324970452e542b3342669f76079828c6422f6f3cf27537d1028f2a8003fa2bde49d5ed3f131f948e2a51b1c0,
  0x0682826f2a0ccf0fe46a87a8ad0807b8119bcb4bb7e00d7c4315f6a9644e67360b20616f37ada1c4571e0d8b5b97bd39,
  0x166ad818b2e877008790f2d31a24d8607868b435f7b92e8dcac98abddef195e84f02364dd49bccb1b0efbaad6a3272cd,
  0x074167f0b7210e9c0de55b71098457ee6de0251fd90dd8087914807c827db59070e0c72cd4bbc9f68febfd8f0d45cf9c,
  0x0d20c474005b41a0ec1b24543615079e1550b77b20e4b4096afb56a61505631fd990b7b4e52270ad79834ac3bd87887b,
  0x033f7cecaffd98cd97841af3cf905a60b7bd280e330fe16f9ccefb8782f9e1902eab1f4820b2436b5be326a890118849,
  0x0acb5976ac59c53aa4308d6cda3ef66804eaab3fad7ae2b9edfaef957cdd04e86b3d1e340d36a412c522a592ebad1361,
  0x0caefa81da74a286287e710df2915a8800c67e419adfbb183b5a95b0462f1060782eb459883dab57b8933d3c2a1af3d2,
  0x19ec57512ea3cc0a8d579c73bf1cf220d28b0dcc9d09f36d8b97de8830b1cae181ab5f96b1718effb60d9196367dd567,
  0x0cd725df90b883710a7c0e3cd8c0e972c06438636630528956e62617686e0ec187d60f29ee07c2aa826d31c3d90809fe,
  0x0ae3dc283bccb02b63320fd6c5963c057b3d2676f678f274ac7bdfb1ba664d9efe520d7b84ab057addf22d3f5a99a636,
  0x10d7afd8a30641db7201fb4310192fd8d8fe43870f230825faf0c96b3b8f89fc8ef1822f480c1e8574bbfe3fd5834557]

theorem g1Part60_check : g1Checks g1Part60 g1Ys60 = true := by decide +kernel

/-- second coordinates of the points of `g1Part61` -/
def g1Ys61 : List Nat := [
  0x066da4f6622a0db59ea7296bf26d8ca49ed7600e3c35db294c01513efaa6288d8143d6a42d6102819f9a2912b32c16b4,
  0x0af72239c2cf8d1f7a8aded18444b1e6eafb969c100ead30a48ec7a0f9e0fe908dd59c98f2acffd9942ae61b4fadda2d,
  0x12e37c7e8447997f5d6fe9fe2a84ffe245a6c855d1dabad29a59a2bbd070ed68aa3a5af233f0e0b0eef4b0ea091b5e95,
  0x03001ea4ba2081c6977a2a4cb160e8c78542770869d72ebd5bead3fa2063aa6836817438736f977a416db0615c155ff2,
  0x0e7677413e8fad4645ae5718a4d915b5cee861946320680c8f9b911fa2c0e9033e3c2bd407ec89f53b93f9ca670a7ba4,
  0x18b2beff2ea0c556efcd9bf34659762b0fe5e57ea6a0d67f50a4a88c7b2156a4ed9b455a663b897a6eb0479fc708ed36,
  0x10644a06b70f1caebfc89bd5318005cb258bbb4ccdd93e16f4c7e87cbf9ab9339dd23024b126a0670ce8ce0b1cc1a0df,
  0x026b3cdd774ea2779664d117f0e5de2cf404268975da71a80cc8aa32bc698aa4d71cf67b7627d5f829790a77f412c721,
  0x14a546cb47a18d09164aeb09003a818a6948ebc58e234827d9f48055eddeb8bc11065edb85d20461ff61423a73d12f30,
  0x195e3c4e254897ba9fbbce03a064f70b8e8bb0d5da279d543c5716e36a3454aed3faebd5ba36f44f8d62e43c9421533f,
  0x1735eaefda009f4d5e7bd12fe67b295dac408cf2ff8307e61802de91e62f498d6a2b2a6fda6769ba497ae39cfeef1acd,
  0x0ca7b35e636732481b305ccc8633427db7a7720bdbe14e5c74369ac232e976c759cbe66b7721e75147a49f1eae6aeeb6,
  0x0bcc52c35d1f51bdbb701c0e25f691c4d56fd5ebe6db0efb5ba5fe63762ea151f6108fcb3534a980241bc0808db721f4,
  0x06f4e161058393fbe191c65e1578cec8c09df325b02278a8cce34b6a26b349ae9b38a26419b64d5aef2989329db0efc7,
  0x0d18691a9b335643279a896ae9226e128ce15ccb438afcc0fd875b6cbd4b52023a9663bb24e09445a856c4014b5c2713,
  0x096eff4735029dcc53a07e76dff95190ca0ab772acea4213ee5bb4e84b8a71d5f929e0f9d0fe8808e8b5841150e2f182]

theorem g1Part61_check : g1Checks g1Part61 g1Ys61 = true := by decide +kernel

/-- second coordinates of the points of `g1Part62` -/
def g1Ys62 : List Nat := [
  0x06e7cb771c23d3df2e0915252aeffa150c1b2e541ed3581597a2c785e7c3e07f11ab564e7fa6bb71a63e2690f5391568,
  0x09b250eb206d9783e08488356ecda64737b3000eeb0cd6da5ec0081962497341a99cd578e7cc25db803347a2bd9deb09,
  0x0685be04084735405ccbed2ff4325b63cf20f7532e94d7a921d887e88e08d14e8b0c34ba3a45b6c20e77a16422454093,
  0x00d87b0de3ae6e867778416ab3bc3003f52cdba2b40956f2996b7c7669c32173e7f33f41f76a16f9fb67e066452830c4,
  0x0d541ec935fffd620c547c24d71dd958b7474ef2435ee7b9fe333eb400c9060827b37811440a1c36e57e4a8ebc943d66,
  0x125e9b019f2a6cc7a9e32fb98cefcbaca81bcfbc63f098beb77e11ecf7279d189b105e97523d9f67f5ac67c7d7b37ba7,
  0x07e67d147933ca09d26add6e11d6fbaa5d6aee4ca5cf2ef968ace58b73d8dffaec41604d0d3330a4c5af35eb3040f689,
  0x12f327226be4cccd8d446210ffa0912b89f58490f122c6fe0cae2127d298b43b08844fcf7d5ae489292af2bb3c470d64,
  0x0a9144f8e600bd4c25e3193d25cce4e3ba4f873ecc2d7d39eed874ebb39f698575ae637caed344e365c321dee4fb763d,
  0x1181b0556212dd08eb15216282a24813e525b1ac661906ce56db3117063ff783cc0e20f6e66a7dcb5a11b9eeee4f6c19,
  0x16280978168579734e0e8d21fcfdc8811ec186df58558c901ed1237dc02e9eb794f2532dfcaf0fd4347e426a3ebd0363,
  0x0ca223d7194d4b7128d5969045e96e1d99900a0b61f61378ba90d355f86db14439de78ae837199aa8d551909030987b7,
  0x0fd85b4856860efb7eb204ffbb8f2af6e8c1df2e7d191b5ba5780171388a0a808fb1b26e996e608657c448bcc236fbb3,
  0x112aec23d6bc079351ecd870e6b35a1de1f56fdf45e52461eca846eb53e0366501a7f33c2779fb844d6a17d259934a4d,
  0x14a8d93e7e497e9f7a48726170d92f10339716ce2eef9b7074e616f12151cad4757c802b1c17012d8f2a72d9c7f7f26c,
  0x0f181ad6a0bf6ce13b11b8cef937a62cc700d411edd3c505a4f3103a3ab49a3ea0e4c7563f945e3e85362df38280009c]

theorem g1Part62_check : g1Checks g1Part62 g1Ys62 = true := by decide +kernel

/-- second coordinates of the points of `g1Part63` -/
def g1Ys63 : List Nat := [
  0x08a2c6dd62eefdc7d0f557a3e7c072b2dd8275a29b32bb3d50d532d95c914baf702cf5f93116cf956f38011c9df56d3e,
  0x152b115894f2e1d0b791472ef19bbb5b32a8720f82693fcf661e8f15f3d26f0560dc16030ff4425d27c5b1a212db8e9a,
  0x09d756a25c104971707eb0258f9f591c5d82c1517944ae9c4e95d30eb95be68d9bb6570d91c2a96a660950654ad5fe83,
  0x0b01483880e153cb3a55bbdd8a84df7fefbfe1fd2437fc7205f2161622de7319aa2020006104ab8121a7e1b663565b47,
  0x04489e7ce73c4d805bae47681a84d300386be4047bb862a3397027f46824e509dfaf5a2ae86f1b08034e1ecfcc389b36,
  0x14faf8d47b082d5c247d9f71055c7c65fea0bf310ee396bf9a4d35ec3101920e0ea15525e67196adb07f9bec47a15c24,
  0x16bd4ec2a68328fa645b93329180fe610ba15193627c4d2a88dcf0d20d1f0f7b8e2d1057d9fe337b08e65d1d4d044154,
  0x14061eeef5f35cd0e8cc613119317215293646b735974b7b0f54e26a2bceb68327284b868d61284cbb32243cee7ed9f0,
  0x024fdc6e5c86008e1dc878c5e7e99a2b887dbddd0c67ffefa2e73325b7fdd5855600f0ad1aba25d5c0bae37367930b54,
  0x147c4a2a5b7eb368b3b71e6495cc5ae538228b6ca06069b4160c87e098886b153d739a84506330a5216ec69cb974851f,
  0x0b62e4046aa8e6e301c3acd774ccdc3acc0eb2e6d657f22f477e65c225d15aa7a2e37c89769caa52d42a71afeb90b92d,
  0x12d183d8444906c12c3fb1da7a46df6d43fff9e5f4ddc0f700333f1a6e3c314ccd702e0f773e39984205d71dddf11dd2,
  0x048036f674e0b2ed4850a5b5e3341d666be3e38d215ef1f8993e21b9a2aeda35181ed0a83803b798dab0bfd2802e7c0d,
  0x092ebec2d499b07fc481ee23466458668841b7b7ecdd767b241e66070c70c5a2439868043b68d175ddfdef70c12143f2,
  0x18e22ece3d7a48d0f565aa587c2d04f356423924306e910ad9b461bd9845c14f9c894671209351da069a29afbb08e6d8,
  0x0090e1a2e0e29a5078919a08035b63bc02a5c33f3da399bdb3c8726d912b601cbf8be18d655f5acd0755e9c4d934222c]

theorem g1Part63_check : g1Checks g1Part63 g1Ys63 = true := by decide +kernel

end Verif.Embedded
