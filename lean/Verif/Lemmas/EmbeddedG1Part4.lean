import Verif.Lemmas.EmbeddedCheck
import Verif.Model.EmbeddedSetup

/-! The G1 points 2048 to 2559 of the embedded setup: each number passes the check, with the second coordinate of the
point as a witness. -/
namespace Verif.Embedded
open Bls

set_option maxRecDepth 100000
set_option Elab.async false

/-- second coordinates of the points of `g1Part128` -/
def g1Ys128 : List Nat := [
  0x0cab93a87bfc59b84ece5d8c127806bc60c225d4dd25bda209661ae299f97c4b0b428b578f1da88522c1cd6c9358c487,
  0x0698e6226117e0c2c2df7f36870a44c076f30bafed1588ded43589bd2218cfba27967b378ac203c7d26fc6903626def5,
  0x135186d38bac77211c5fbb949a8a96dcbc44af56e93a1348680822b65c8d0bb6e67a455cffdb99a94ccf0f5602bc069f,
  0x18d0c4fc1ce1be48176fcd7c7f168a16a45b74317f4aa81010b3db3d2ea881596e19ab3db71b4b2711de171ebf993c1b,
  0x067b1b5395895df03f4be85535151f5cdbf39429f515868791824a3239cffde20afa9066192c9747438dee372316b7ed,
  0x01f8e337e47d16ecb393c0adb44bd78b07fa22b2cdf62bbcf899d6b1e318c0c0af46ccdc3c69aba20382da374ae8db79,
  0x0bdfe77c092bef06b926344211e4ea1cbb76ca4640ce502a76663e696a5e3d2531564e0fa8804551b9aa9946c8c5a0ea,
  0x044c521265b75fc9886dffc40cfa79af6dc56e3f3d174a4c91af0536f84a342d8b0ac50d90aaa0dcbeb3f5634eeb6502,
  0x066fd4484a49448e9eda078f28697d10b39a3bd91a4ba1a8e4943b0917fdcd2bf520d9228aae79d4455ccc932f8a6df5,
  0x0a9329cc10359d139172d190cc6e2664ac970b534a20d272a15d7b181191b7711ca1e46993afb1fbbe36a99aa316a77e,
  0x19d73da12a75760a11a687b9d5c215cd5ae17e1637c001ee52563e731fe02f889aadcedb5e4cd6166d5102b8737afc03,
  0x0f8ae4d4675892e61c6aa72562c2361973c4f7f468fac31f20b8e3504cc3c9b2cd102ab7a9a4b88e4edb89ea164478c6,
  0x0b883b9781bf9cd847274ca8a72df094e90922c1db662749eadf0c72d781fc100466df6abfe119e6c31c5328ee822f7a,
  0x00ad3887b460ebdfb0827b54c1cbf0c9cdd85598ae80b778f6f2dbdf722bc947bb5bca86788ee96716a056c8ce449c2b,
  0x0690d583214867f61c03cc7adb6642759e8958ddfd31f4465db47f4271841fb8c065249a8ba9c248ebc8573905831e2e,
  0x0b36bf54d5febd29bc41ac8ca4920d9cb1577e15c79145c879290da0be5f56fcf72a122d20f08002601307a71c07a352]

theorem g1Part128_check : g1Checks g1Part128 g1Ys128 = true := by decide +kernel

/-- second coordinates of the points of `g1Part129` -/
def g1Ys129 : List Nat := [
  0x0ea1b948cfe489a9a2ef9c1e7080db3fd9e000a216dd12cebd1917538aceeeee915cc94a3cda38d5eebd9fe99258a8ae,
  0x0344f632af578ea31c58e1819543292e34dd3879771df8577d91a007400a4fb58ecd38c4d4ecbbf4b2f7d732973aa5a4,
  0x1189d27779ec14d01b31bfdbda47adcf71fe85251ab5e898f768e278b2e8b309744c14596bde73d7e4b0ac981bffdd01,
  0x05ff565bc9176f65a658eeb0ede3eb57b67414079d40f27c59896273ce2519542db26b5065219a5d1a99832eb2fb40d4,
  0x17c53c341d5a9ffb474fec4b7aa029010113f6178148362e637b92f2e48772db606cdc27bc196d220260b907495af9dd,
  0x077f0849f655c88ecc7c06319bca3067d937a2ce390280ee68a276081072f69ba00b7425d795a76a92c51e82e5d17b32,
  0x15c6e27d2c9277384d7aabcf1195c1dc2ce022977e76badab4da6a493a8c8256da61330e23d3907c57725ac43c73bdb0,
  0x18862c642d3f0efa69d4eb4bfd52dab5e1bd24c051a82ee0a98e938ecf0c7d303e4d4db7021b2cd9eb25e857dae4311e,
  0x19d20ff13e70d8f421c691d312d1091db32a452b267d0d4af22df7472ae1feee50a304a532abfdd340c975450274dff3,
  0x1342dc1c923d6ffc31107135ab21d6437ce1fc596dac4e983f5243405397fcfdd389ded7600f9620647b3e5cd57ddecd,
  0x13ec5d0c9f2668a8ed85426bdf27aead3f3a048ced54f5ce22973b874408d931aefabfa9e4a5aaa714b93f6254098645,
  0x0623617f965248aa7f985b68948fecd4475e2e5c6c3a4fe5ef0d5582be496568546a582c6a8b46b3486b3d3279712044,
  0x112ed63c417ae1cb410043c53093d8e780b09f4cba93edb1290dbccc4036b1d383f42c6c8898cb76f5e86e9a04b9a718,
  0x00fbcb08bdb8efa8cd349f459acda6a6ded6ce7d01a15fc202811732e8d17cb8974ceea702c00b475d71ad8ca7875af1,
  0x1358de03d65d19fbc07300bc2e515895f4793261e15b7a4527eff155c066c16ef961ff7d3e8644a0cd0687563bf72287,
  0x0417fb7f0f812ce190b16c81b498f92d043808477258243fd8540320af36349905d0970cc2238210c49d4f81324cee38]

theorem g1Part129_check : g1Checks g1Part129 g1Ys129 = true := by decide +kernel

/-- second coordinates of the points of `g1Part130` -/
def g1Ys130 : List Nat := [
  0x18048e4d220be40dd2b1b7dd363f51345ee70c28b00763ee9f4ca8627b2e38cf8afba85813e70424a6d4b7829eb871e2,
  0x00c762e081eb1c58cc78646b00b0f2ba23cf149693989be1543a8cf637d11505ff0621ca8fa0a61f6a074e43e16b3653,
  0x0df79cad74bb44260365d1efb1c27b68925184f7101f4f9b17376b0c2bdc1ac874e570fb4d1c287e561d4874f85953cd,
  0x0c768dc2e0be48fd9a2da26a2c44b5b4ff46cbed778add64f186ca67e5203400ebd990158455b6d6c37b41c18307cb48,
  0x1803384b2beb0ab6fbd884c7d3335ee7b70911231f9c8031999ade0a79dc400244053613d70966617c3009ba1111aba0,
  0x001df9f180d8b27ed1a408af1ea92431668452c82c104fbc046bd6ae55a2c7e969c3ef217b450f63edb5ca970bb2f217,
  0x0284a6fdb24666f108159ab9a795c2951f9d9c898cb4f11e9166b1a3df31dfed06a13c8e847e9f8db8a107d89493d13d,
  0x02efc19889943b47f6d16153bbeb5605abe807ffcffca8313923403ea55f6e5c033fddd791bfafbacb588638283a05a7,
  0x0e35d9d218bdd74eca1caadda7b6f828765891e700d94e0db2da8a6018c0385b9978f407721a2301dda3322c83c041c7,
  0x18059e65e599f7c8ba5b45a9e21d39e7df9b28bacc1720a3495c881655c561f8837987c93f32e8dfe595269423ad583b,
  0x0e826f43089de05bd293428d7aade2184901fd4b8162172c8b40e01393dedccae52ffacc6b20818c30e1adfe156fd50b,
  0x0f0843f7ca2fb71bb7f66e3d0b7dd01ab28ca087250f7b60a7128de3bfead43298d3db1407b38bfa5b2a9f92d11f2091,
  0x19ac0a4579671e8aa070aef746bd8f06a536a362f1c0d66e141050c451b13800bf295fc371ef360409796eca173b5512,
  0x12d5df1ef0574d54c33be483255258aff1a03c812c74a9413222e95f02e514a1773fa63da94067ddacd87c9ff9fd7436,
  0x0c8de7cee237432e51e45f55a565c3563347970d56e402c711c22004472ebe26bba9010ea813dba9c008d32cfd480a93,
  0x1271c7c3dd699b0b50297fe5abb317115ff7a7d54d3f10f86fabd989cd0f97bf6e6bbabb0bb8e8f904233127bffbd992]

theorem g1Part130_check : g1Checks g1Part130 g1Ys130 = true := by decide +kernel

/-- second coordinates of the points of `g1Part131` -/
def g1Ys131 : List Nat := [
  0x164d529db85f352f1a8e79a12cbb2fb4da7254aacbdec7d47c1ade3f318e652fa2e8a6a63fd2cc4ec4c4eba24ca68e42,
  0x05398c915906975417d556b72eeecb70d6ff28c75af04610b51b9a0ec8d6f91ec3e2decb9a7f0d1faf7b319ccf9ef449,
  0x1638cc8e8c0758f1166bcfea696f959932e41456a6a54e581ad10d972a0aee54323dfb4343615027becdaeeadff1ae94,
  0x03f943de353449c6792d78568acbfd4a8ea3d04b443611b2609ab84779942e3b2f5a7b97b0ce66ff545df26fdc73dc01,
  0x11bc4450649d0bb270480be2cd7094bea32e316689e2004ecc87c9dce47e5af41513a53354b6a25c0ac831bcb2d3ce2a,
  0x087126988e49d525c641defccedbde69c618ee7264f9f00eb4285fc547a9fd9c00edbc8fb865fe26bc78cc87368eec16,
  0x1381be6f7213fec892dc72e2b149f57b46320503ff7539a5eb90edddc934346dea3f9cb739003df69a34c53340d5a22b,
  0x0c714b2507dbc07e264d42a0a76c05649b5f864b535087c560a588c9f700212095d6939cc0d9159a35cc4c915f5aa3f3,
  0x175a60fd52c2e242ff94a071912a8e2205688c683a1058002ef0e0fbeab67cb52208d955bad21adf59297757da4cfdba,
  0x05d5cebe44c4eb645d97d49e89aae8ea95a37eb628bbc1c7cc923881abb1100d3327d28867615eabae1647068b94e10a,
  0x02e2a1852b96e1f0160032074cd831d2a97f646069034900429d7377f4b3d63b1c9ae1cc80f4a5d4c8f513dfec0d3ab8,
  0x0f558d622ec9c5f7f9f3d6a356015eb0f6c2e7fee7c3c56110ca7900810b05885e54b91c445ea732beb9bc8799a691f7,
  0x05f2820049cb2e555faf08beccedd8f5c585bee4c274893fb65f00d22d2a5d5b711b87ff33144bf08733c4dd8ac62c53,
  0x01ffa2fc4c53f24dd3b80d009645ba030ab2eeb62b07d2472b429d4deb60ef2bbfc96ad3f475cd56b179b17b1abd88b2,
  0x13b89b995a7c64ce98ac95e312c888577853b9e7f564b016c1dea595d8b2600ce9b06af2d614eb315f9a04e536928de7,
  0x196429cb07e865d55952828ab7c47a06c58fd722baa0e441d054dd86a7ed56ce2def1908de0202f77966e80ecea5cc28]

theorem g1Part131_check : g1Checks g1Part131 g1Ys131 = true := by decide +kernel

/-- second coordinates of the points of `g1Part132` -/
def g1Ys132 : List Nat := [
  0x14c00e0bf090ab313d27212ecd91a02e9827e9c2820122c90a8352acd5ed28ceebde31c15597c7ae2d46fa5f0ded46ff,
  0x06b97f9a49ab4a7cc353cda065f80c05fa0cb59251b61c36a51a8aadd7e464efbf56934e5c0cc7efa5ce55c2ed2b0f3c,
  0x0fb18b7e325ce76faae46095221a5b130cebac6eb09610d0e887cc5d0b43e6b59bd9ac5e6816155c5a20c6b41146e757,
  0x08742243470b83b25ec2110d29490f16282599352a6a93163783ed050f7ba97bd255b7d51a20ed0e44172f62f3a106b3,
  0x02008b31430066fee2b87f38881abc024b390dc55d5086dee8a71d3ba1bb21b1a08931b0e9bca0303e71566c3b19d8b8,
  0x170c3c177d3c94a583505b57863f49f346d7029af3c159b564337ca3248c446a1fcb1d328d29909e57f19e4f646d7fb4,
  0x0c37dc964a9e3ef59e55971de44657eea31b9425930dba1e2e2f577f3a0b6dd55ff79df42e254e9ad066ba6ed11ba15c,
  0x0105c558616c2dc25fca374d7c862961be6681a818fbf2597ffb7171a42116e0360c99bef9ac9c0aa6f88c5aa96283c0,
  0x046cf781cd017672d7842ffeed10f6b6750c3703cb110aaf849e625a8f069361375057dbf91775e0a861e77c8bae82fd,
  0x0852502736c7ca89747c40d187cac9b7121fa929fe368ab23ed56b0d9c7b649c261b5900129bad8a4c12dc95042a4e39,
  0x196e2022605f125d83f457914aaea0cba2a475f5aa3595d0a26248fe7d444c9c937922b08ece0d27d42f34de0698ed79,
  0x0123e6b81456998ed35b63187e41aac23b8f177329e3fb027240fdb49124ad17fcd6d86ed39444e630670adf16908cd2,
  0x17d2922181dc55159efd897d0a87eb495db00afef8dda44706489e3ce2c5da7fe83677782a8c581452b6e68c0fe749bd,
  0x0dcb24500e957b2c39ca62ec4b73cbceb43235709d2654a71c68f5c9c7d04adcc6b0237d29ee1711227711077300960f,
  0x191bfa9d716b0c302f59b0024474ac9a0c6d06d8a06de5a2c98ee99ebcf50242e5a1f589494ba1d7d46ff64526578407,
  0x0d522bbb509955e2074b78d70f8cc91f53d466fd66aabd9b208848bac511fb64f00a467cb844fd2142ddfab4f9006893]

theorem g1Part132_check : g1Checks g1Part132 g1Ys132 = true := by decide +kernel

/-- second coordinates of the points of `g1Part133` -/
def g1Ys133 : List Nat := [
  0x049ba4f0c3c27a8cc9d989da44216ac008ee345556b739245354f1967ff2ecd134dbab3276509e35a9bad5f03f64b7e9,
  0x05a30d64d61635f12f91d2de1392ef0bfe7257578b5b038cd1548a8d2ac6b2cd1cddecfeea095a93c0404fb8eba41785,
  0x09125cb70e11d28a2109f7ec1a63f2720b34e9ed148aa7a74604aaaa59e2138796d237594f23c4aca13b346233238c9d,
  0x0544663575542554d94cbb40329ff2ac83cb5116807096cb7d7e40415adba7a4db3867295cc024ecf079b0c7f4293854,
  0x12e092e785d0ab5c7c023b54edf8dbeb9831976edc8190831ba503c20d27df827bc6b744dd4c18410028ca3114f04d5a,
  0x0935c2ef87324b6915796e01aca28e76993f2a7cae225c0e789ecfacc5c62f28ef8ad24e3c1bcd03bf3b0affc8bfc58f,
  0x108f473fd21c3cdf6bb1be51536f5a67de6b29c184a0ec942811452a5e78b1849d7478790961ffda3e3664c69cfcde2a,
  0x16db02f8834c94ee0bd5b35f70f5cbd8d1b7ec4b2a5658483ee5943037e6a590b59dda9d09f642bdc2ebde67c5f5fa5d,
  0x10ad388e8f2555bd609b1eed11e09f9dd79923823ad4ee46145bafc06e4811378c6665152f7133f430ac22d49d8c65cb,
  0x0e7cf554daa22eaf0209b84f6c6595b38b0c3c4c655e4e8f81fbf4865ed5a3bfc30ef915d5b6a7112aa656e04b6ad332,
  0x0ed95ad1ff6da69cabfd352dd172d3d4a7350dc67794ab1e5e6063087c150d572fc166be6e2bef416344e9b649b2c9ec,
  0x17f7be4ed88dfc11bdc3be01572460916814f9876273493f00c28513d15110717f742cd09ec2af4c1765dc9a89a91399,
  0x0869c180529a462511dd1b43d3ea7dd220e3157bab28e665c8e79cb84d46f1908e191f9d22f67544b27b7f4ebeccb000,
  0x03552a2f2ecf7e3b2e7257863d23efbdb08629ce6ad8f490075b9bc5a385fe8c9bab570a17460fdd967b31c6e65be08b,
  0x0422341fc9418d7cf0e8ae8db89e60ced59cdc5a28defbdc14ae9071a7b28fcfad5a822d8b011b92263a09d2a03ed268,
  0x058cfaca617e5605b95332a827324e834c63a167c625e1ec3fb30effb00efd2d0f1c7d7ed78471e40953fc488df75089]

theorem g1Part133_check : g1Checks g1Part133 g1Ys133 = true := by decide +kernel

/-- second coordinates of the points of `g1Part134` -/
def g1Ys134 : List Nat := [
  0x0032fe21ba90a40c379d260d121d29f994b079587fc3e3e80640936cc45726ee6d0f4daae84eff2de1297520363b5592,
  0x09585209afd6b8ed1731a807652d22d40f228f8df9e16b80769e8c55d30ce1183d16b8c61cc3524dc64cdd2964712542,
  0x155d1b8c0c1ac50c8d8c848c19b4f0301195e745fd18e49cfd98bc54e100d4855841106369c22581fd780b333bcda12e,
  0x0accc26dec48eb53a542ea569b8e8f07eb573868bdbdb186863a4633e71ce7d02e26888f904744e7c1114f86ae021fae,
  0x0fb120f32652710803e9a0dc5485311a004063491b7d51069cec279d9dd69a0bc0adecd775dfd5e839ccc2fe520d799c,
  0x0a6f70b38da520ddbd86ba0aa6ab7d81c0ff58bf945ecc2c88b1bb982f997f076bc250ab0ca209de1f609330f11cfd97,
  0x0045f3825440fd8ad58ead7c3fc175b519b0b374a9c58b46728b40207272d98ef46a231875e254cc4f9f287ce3f76689,
  0x154a71d4c8806c69da830a1f544c0d1d07db7f0e504415f050abc59d944ee99b30de438b1e7fe1d4c093e91d3712401b,
  0x1837d4b828f4f5de6e8c2a89f15061b18b830447f0e9e0f0d9a87c0bdef3e4c09944c7302b3b72b518f7619739ff09f4,
  0x0ce1bad1a6bcd38fb2c694a92b07e480610b9dfba0a6a10979f59217be1863d9ef0aeb8dcf4e4d91f4974142cbd74f30,
  0x0ee208a42b1d2de1e6c3533bfadaaf2abc497dd6e331e5dae341b7110e8a7b429d60624a2290b9b9712d5e394d5c3020,
  0x01071be9ee9e0dd2a01278a1f4089c52cfdc713c3c51266d8858a5ce9d692affab7cf67d1d2ad7d38a0a5b68497313d6,
  0x02be35a8a4e7d7736c4c3724aafc2f7e80380a19d29ae6b747ed1cb63f60beddce97dd59c855c7d09bef51a2d8e67330,
  0x17d107158da8d464c7610ee641dc682ac4c728c4e7f0b25b7483a0fad4b14e871f749fbd5d14548d4b098f63afb4e147,
  0x1351c39cd6d04e2db5c7651246a58c040bc1103109299a0b8401953a515d979dbe0c4117fc31c369e823f4fc527d9c1a,
  0x09a75b262a03ff3e6370fbca6db33797532f9563e2c44bf401ccf8c12191899ecc74daef7930310abe51e7e3e521139a]

theorem g1Part134_check : g1Checks g1Part134 g1Ys134 = true := by decide +kernel

/-- second coordinates of the points of `g1Part135` -/
def g1Ys135 : List Nat := [
  0x11da6fe78da89850fb6b79e78c91d282543cf5041bf13e2b25e485fe284dc82249ccff03a547f178856f5194685fb5e8,
  0x02fd474a8d6b173975f7e151fe003f64c67735e9163e641030229b24ede5079397308174d5f79fd9bc74f63ce4bc7612,
  0x07376318ad97cb2230d7b475be5b162a41486b1a6c95de72ecffaa271f871d85cd2a2dead080bf10f38991238430d2ec,
  0x0e845b3f0cef10133cf2e3b539c80b65133eb6ab1d3e2d5f5ed85b3b2e647b6621bfdd75c8a588a57dd23e38b01dccd3,
  0x065182354e8a202bc04622c0c8505d75509a891e6eed006273ff49c92c6f62b834fe50888f904ac4b00190f08413760e,
  0x136855b74f7cc40aadf76b95de53cd5858959d15109598caa7f0a06fbb81f3fbaa29ff1299c5e405ed98ad0a950eee6f,
  0x04c5f032e308690263d58dc1c1ee6de5d898102900a4fdadd03a2b185c575f53eb388cfd7785227136d8fcfb921313d5,
  0x14ead40bb83f1e02d4e33b40eba952c50aa320f2526c64e40477f536d3ab440a8039512e15bc1d043f9dc037a6c9f9a3,
  0x131db1709b61e2ab71f512c9cc4e8e8e0a84bda82c155a82dadd77083cf70fa9226273f0ab36b1f2e15b3ee10388505d,
  0x097784e5b45cebffde402f0fce5de5663c9266e560178afd3189e66b50078e465b74cc3e9b1f66c7cebe6d9638a1253b,
  0x060fd08699bc2e26060990908e5d3955b63875bc5f9393d6c9f592704d40006bdb6933be54daf3c2a798aa1890d39a3e,
  0x0ac7243a3c7c79c27f943776d76f390556bba0124e61434f6e6f240516193fd8d0a2ebb54787e8ded6a690d5839149a0,
  0x01b5aabc7cdbcc3a860219046f9332cfd143667295746c0f1ffe1b7f378f1d580bc2e16bd0944289d9c90b62b0898668,
  0x07cb310453d85f9f08c5bdac464291718c1628dc52cf5b1ab39bcf02a83b890545f0e464c9ab5fd18db392bb6d7f2080,
  0x116191d74dac00e69a246b39bdc01ae4cb861ee3923bee707108c46af4c7c5991a01fbbf4a31a842331e1b7940604476,
  0x0b15ab83af07bf20208ec87bc5ffef9e53a0ff095d3767ffa54de262dc87505d3fdc0995a474ed5407a8a7735dd10de3]

theorem g1Part135_check : g1Checks g1Part135 g1Ys135 = true := by decide +kernel

/-- second coordinates of the points of `g1Part136` -/
def g1Ys136 : List Nat := [
  0x05ee0ded0d56e82374699c6fa3707ebcf7e20fa52c2b8a8b37e5c7b27b8bc398228bc2ad05a1d0dee73d689c7437ab9d,
  0x1452be21f15ce7bfc5e3312888d750859906008a9bed41823cc81721d8919ea0e0505058900ca37bf03d72b898fe0296,
  0x06a658b0c7da3377683157ebf781fb8eb44420b172f62fbc63833fe356acc18280eaf0ee23de1874212d37d81a051ea3,
  0x178e0a2600a8b92b14631c01401ca38f832bb722ee4edb5fc995eb7fc891448e82a7c4e96954747ec3b32caa2e225b88,
  0x0c901feb97855f17810a619b0f1759bf9448f6e5489fbb5c0ab2e3e5bf076feac99147772722f117f1d04cb96696b4bc,
  0x181de7032216cf933227e9ffb0be44d16934340771d0c085365d264e928e70be5f8d83ce10cba88fda199e2d3cf15b75,
  0x190873b58ab54b1d84b83b46cedaa866b16323a2a4bf223de2c8fbdd336a175e9d37b88096b138b6ff831c45dab4d033,
  0x02dfce22185d53ad736ec65ce0715a119866e4b686a21f497241ab95c79ae515c2606f75bcf8615ba1732b00c6c391ac,
  0x0210d53fe0fcbfb53f63469addb0528789d7ad47e06bb0ae48ff11f56d761387aa4bde3b838b49b4da103aa5182e06ba,
  0x0bdf27815a8571ea521e534fb630d4c74d617495422f116b5a025f7287c5e42cf2cd36e1b90b2937d3dac7546604ffca,
  0x05aa4e31ee39a89b78c3a50863f0a0e63640f65a1d92c8c59367d8c97dc1c46e3ebcb7aee176225f2b7b67705fb660fe,
  0x0cdc0af6268417c742d4fd4967ef3488102fec8f4a99648f14f96ae0db4cb208d589c69032a89e87bf0fd875b588f5b7,
  0x068c37941312999341309ebb4bf401bcbe0c22803c321eaf9ce06c1ede0ae268145c28177f10162cafa315669c8454d9,
  0x09db7bafc6c04e0f0ba2fdcddd4b80d102fed5a8a274844f859866928cc44b7493e675f91ef6e1503b2a4b249a17e7de,
  0x0032994b79e632f648d6c94dc4c5e4e814e7a702b370d1c1b27cef1ae4034b629684c7f9d870bd987ab91f0282a6f7b6,
  0x015d9b0538041eceb85f90c062569e73b3d200d866408416c922ae65dade339a40b0db1e5b16c9143785260b0e0c1468]

theorem g1Part136_check : g1Checks g1Part136 g1Ys136 = true := by decide +kernel

/-- second coordinates of the points of `g1Part137` -/
def g1Ys137 : List Nat := [
  0x05f913c7f77b75906c243108a700b575e57a07670d02b902d0430c5484c5bccff552aed3e7391383a378b4b6d30d862d,
  0x188350936cc684694821f0cfaa8dd574b30ca54f402bf8be52a0391b80587913b5b50c37508a8918be549f6527f05fa3,
  0x18ffc455a9532aae77dbd32a6ad905242d40d851206bb8e6f328107adef280a69743079baa787729a16b60540302f81e,
  0x02682f70803a84ed72620e8783d22a7eddc6e3c9466cbfc1860b78a611463b072690e1e0480f4c342ee149e8c110b39b,
  0x0d90a4ac888ce558514c96fe3a0cc73ccbf2536d304cffc1d36eacd8d7ad50fb95bf33db75ac8ec0ed70d6f27248808f,
  0x1125150e3556f9a75dac5aeaf0e465c9cc8729c28c50084f19467fc3f57e541a00fc3a5e210083fc4cc7db015427cfdc,
  0x183174fcab765968f737f346f261222af4aa395497c741b24ab9570b6dbace9abe48d6b78eab174f90403d7271b66f04,
  0x0d4e55ac9ec884c4f80cdeed6beb9dd422bc4ef22e177497c0bfbc0539d607eb9dc5b2b17edde4252f5b9e6bca305671,
  0x0021a141ec83651e8c6cdf6bde73989d13cc9ac6cfcd4971b059a4a89d35f079fa7a89d78d6b3bfa4493f7308d29db97,
  0x152a60570f12221506bbc09a5093f629ed5c46d1f869c536d1866a2b325331e5cb4bd49aa4eb5a28d6efebf29bd46cd2,
  0x158dd5f210a4e352d7eedcaa4b20d878d1707ea0a89d94d641943db30396c9f2e7ba6623ec34689d3a5dad73cb4ad4fc,
  0x18790cb76f06dae3c7a321784c5c8695943340574485ef2de2739a012328484e26b3c10bbff8001cf19e0fb8bd92785d,
  0x0387e455980acc590b6aa792f61c83f48c6016a0d4674b5c858f8cbd49ce29f4f90f571703986d13cea3bb4bd6644bc7,
  0x1310f6caf6cdf4ca3c5b5844b497aefed1e7a5b5f3c032cf1455dac4702aff49f2357321b120cd7963ee5d72f29a8eec,
  0x0de7568e0c144b5430d2b3a777d7a97eed6f5b3cc74c989b96189b5b2833468e7093508ad9def4146731cb6e7b6a19a4,
  0x060919752914428566e84e4882915fc466059b53d244ec1ce45f33dd5a9083c30a08b77a947d24fe9b3624baa9509f17]

theorem g1Part137_check : g1Checks g1Part137 g1Ys137 = true := by decide +kernel

/-- second coordinates of the points of `g1Part138` -/
def g1Ys138 : List Nat := [
  0x16b481c8f628f2255dabee0e4b9df5be5faa1ea08b41db93d91738855c63f2a96812adc408312da86213b60f3f6e2c0d,
  0x059bbc8bda8bf512c6ab3e9e7cfa0bcf4a12526ccf973f3acfb94ef1bb040087ac71cdc2411a1ac44a64d21b7b77097e,
  0x0eb4ce99a16c3a733065dbe8d07f607d49327b91f7906a460afd32a164395fbb3e2fc40e90605a96b812ef5ceffee50b,
  0x0230c23569a4dbe6a6aff88e34d178586ca4c43b99f4058eea4cd89322eab9065b82509dec48feeb8db01c4625ab8e6e,
  0x017ee01bb884310a89724971a0fc67cb260de62d2676adf140610a8a233a9729330b00bac45248e73682f5d1e74af378,
  0x14e9b1bdbd56ece343209c2af873ec9eb9ce6821994863fc0a35a433ebafc98736411f68e85eac2c7e84f8901cb46e33,
  0x1887875cd64926f69629d257c9bbf6907aa6fc5fbd9caa17490f2fd3e078ae79415fc159f851496d4e2a6167fed0dc24,
  0x18aa73983db47201e667649d8e4b3447c2329c2462ebf2d2d733a934a2918d6eba93e2cec98355950b17ac7a8142953b,
  0x0ee1ae0ae3a9e4974b92aced897ad961bf3fbb225c1e02b780e722e32027d46443ecb4469b5e507665dd6507b62b1451,
  0x11b1394659f9e011092c0c050bbaf2db1aa0891fca599ee80071c8534f5e126094dc00848ac47b5b19b2d5cfeedf89f9,
  0x15f0d662054c76312fadcdd19c32eab75fb4d9a65313390db6a9861b711710a07e100915c2588e12b36e4b83cf953b73,
  0x01b34c9eeffd029df4ce16430b920930d19ef5f1f4d4e28f78b2d38fac0bab2ea73bf3065216ee839e19c3afa6d8e7fa,
  0x08ddf3f177750ae437fbf0e033d483cb12ae7fc6c3910b5fabd996b36f957e0bc12917d611d10df5267c4a37ac186d6a,
  0x0c665c82bb71a1a9d8b3298b11d21b0808daf1e8c4d09923e9ad0b378b3c267f0edf6b804a410804f2e7b5c3e25a985a,
  0x0866038cfd564eb05c3f5d1539c2392a1417cf8ea5a80182edf206ccbb3f8fe6e6779f98398b83bbdcf041fee0d7a521,
  0x08a0ee851e08f5eaac248c0778683ea7b574426c646baeb04c6231212d4e8ab5a1c454dc6cbbb4a60b4453a03d52932d]

theorem g1Part138_check : g1Checks g1Part138 g1Ys138 = true := by decide +kernel

/-- second coordinates of the points of `g1Part139` -/
def g1Ys139 : List Nat := [
  0x0461256cec589fc9cafa993a35d349e0f10ffd7243e07ef69aefb481378d34135c59841b78bee30b366b27cc431231b4,
  0x0a2d8c3898b362adc92dd21fd023fff6fe3482a6d17edf6de730c164a83563e29393a540df07f2ed37d7457f4784646f,
  0x07fac1667a40ad0f646854224b4b470e93f7e9506dd677a40a81336f076cda7f9e6d5ddbd148a7e9c52a97001edabf1e,
  0x03a4ac888e0f4a5a85e0b51254f6804e1e867fd46c879154f4323f2734c4a847f8fde402746d75f7d722e108a16c0f3e,
  0x0d7272b2c299575066f94d38bbca37d0378f6a28943d03e87bde132e49039ba9b083bcfedff86dce4faffb509535967e,
  0x094cd0d3cf9c42c7e43a33a4257c51b493577a049d1cac514465de0350c4074c783853d39b3cd03174fa22bc508e30b3,
  0x0d5a68833098da15e2160e3f5bd269eedbf474c6dc7fe4990c990fd3093c51ba2df97228c31ca5a526ef6bdb40302187,
  0x14dbb9505d3560158ca618f420d17f21607e7d11ca0eeca698f7f4d5894adb815dc86b59cc1b17307fa4bce9a7826642,
  0x12911fdeb8422f509a22d19a235ba42e7bcaa6c71924ff4f3d1e3d9c1b84fe56785d04cfc15a0d011342a5137905ecfd,
  0x14aae384d23318b290396badb20e545f17ca4c0059e07bc903710ebdb856e48c201639f23cabcb02e67a7b3c085d9d06,
  0x083319012394452331970b6c40fe65e8c2e5bf0b3dab58af5aba9e5e65e85af7e3d311c90f49febfba1e8b7a3cf9184a,
  0x151de19107867697bfc1a251d4b5c88d75921c03a34ec474106df8d9e23228c7a3b60ff5c910fea18aa567c88b3ab4cf,
  0x0067a77db450754f99d0b1a337c3e9ed30882a0adbecec110c28a4f1b346cff19635bd657fb59c78c5c84fed876f1757,
  0x10ba5d4c1d1a23b79b8d457069868acfaceec62c12557b12865d3c903f4d962adf5907c906158ccd423ff64eea0d6819,
  0x0b445c4d96c9ba7f7059000fa0bc8015dc5d100293badae09b3e12237401e95e7b41bea07364bd5caed24b43d6b74d21,
  0x13e53ac42bc9ea8631703296d5d12395fdf65e758db77f4d741acb7b93aff247491a403982e474d017a72915a4dadce7]

theorem g1Part139_check : g1Checks g1Part139 g1Ys139 = true := by decide +kernel

/-- second coordinates of the points of `g1Part140` -/
def g1Ys140 : List Nat := [
  0x07dbce365c14baf0ed5098e8b25a0b9c8f940f4218ff208f05f9f1d26953a5601d078997e2bd9b29d91d9b439b02c77a,
  0x19935bc8d3b9fb85efe1d945fa34984b2b1326152d8f4498dba882f31da4212c854bb9ca064b583fd39804bc766d793d,
  0x18612dfaa074a16bf727373ec3804a1c64fca36897406737565166aa0bcf9d0c5937957bdf8d46830599112b8f1df2c4,
  0x130734617f6c32a959de54268f0be75292e51528d196755ca04ad2fd02ab406b83b8749634fd8a037e567133643cd6df,
  0x06edf6fea84f8a494c8b4ab9888f61cf68dc50070650d436d9b717c9e4ee0f25db27bb62d99028a7ad823fa04616c3d7,
  0x17039c0ac3d73e84eea0cb2ba82a767fcf3b8469b4645fdbace424d2a9cce57f6c6307287991cb66795ca048f9bdd1a8,
  0x052def45d2053d2a3d9b84419a9691c66f32c08e63a80766a05262e3608c33ad1388dcba4793692907cc18d8aa8661bd,
  0x1321b2c78ff0b6a46ff13dfbc6aa210387e2e6b04b9573d13009ffb03eb94e79005931cb0d706db1df2cfb8310f49e32,
  0x0793649c05b5e4fdb32503ec9a9f744a75519e3ce565fb977295d9d6880e8889771795990963032bad2d8f2e275acd55,
  0x14a10ff7b751ab93e64a35b175b1383363e61a27861a569d8e1005bb83b807a6afab00e3084921db8b429ef2f1655864,
  0x14417698ae8c680afcdae019b64d983812bb88138efd20b8a2f208662fa0854539ba57d06780cd0ea7b4c8178f174e5d,
  0x009cea2f5a4108bb0149d5da4f827b22182f6651157a19bedeac4d5bde86a67ee8e5cbc18dd4b112e0504a7a461e055b,
  0x129569982b4b0b7cbb12caf96a14105332cce4a20536f46812fdd49691e3ffd603da6af07f53d00f03218296713b56a9,
  0x187cd86b31cf49af7db77326e2d392c884b8189c570669670b4781dfb40e221cea09e0a45354190e9b9690566fd645eb,
  0x01f643f902a90fe9edde3ecf2c6ae6beeffcaad88b98516a06aa20cfb17101359d875e026a9c83d4806327bd85aa998a,
  0x01427e3d020b1ba11408af683d589931556e53c65f2b40b4a69ef4dad7e46979539204858dbf4bdeb81df4cf456c84bf]

theorem g1Part140_check : g1Checks g1Part140 g1Ys140 = true := by decide +kernel

/-- second coordinates of the points of `g1Part141` -/
def g1Ys141 : List Nat := [
  0x17326c1284a909a92355d58cb12075678478c3e4e0c9d1a4d0a6cdc53ae05a1cde37a1b979e94d5f49a395e0abe9f1df,
  0x0ad41f86c67413f6212f4f0c13e5ba5be5864bdc759ce5eaa07afa92afa818bc124b2b4fd6d1f1e79541342d48452c00,
  0x01e8371256a2817c53c61bc986c7ea5de6bc7a5d1956601ad923ce6e3c3a562f1c1a6128eada0510dd557d3dade7b632,
  0x0593dfb68bca0038c41e447ffbdb6000a0cefb336d2e3414d89b0a4d94510b0ad4b500cbe608fae2555193e5dbf842c1,
  0x039939c697612a207f5301b534b47b26e8206ef5fd50f3adbb32f9bb48e2f53ac54b7d75a26256f04085f73894125fe4,
  0x0e5ddc8fe2b8ccc8cd3496e6fca3cce9a4ec4b9dfb6db956e6e1921c988938f20d8f2ccd4672962a9263a1a1c3478598,
  0x073d84ea1b6e0cf4d7617991ef0960484550369afda9e665bfb5f44ff8104e7c0103c27c6a2cf115ba9bca91a523e123,
  0x033065b17e6be4f8d14c59b6d446ed6310a0959aa064f1bd6f3601dbb4e6691effa9f10b1da0f73e389425fe2dcc59fd,
  0x0759927a254d3b5a98007eedef2d95cadd58d669488f506a8a00cd453364c634d393ce3569fc0df206905c15621019e8,
  0x0197bbfd76cfee68378f20fedc0412726de514a319d506ad8fae98e8accc14aa9cf1d92e30b3c555aff0eaf287bfbee7,
  0x1965b123a88d4d9af26119773422ab0c7b59d0d728edae97d421763321c989ba064c2ab1c0c3241c30baba05f227f126,
  0x1393418a8d9d91fa7f3807b63c4fbf7081744814a921f1fba63281f055d6c292de63dd9c44f03a191b57ebe8f42d17de,
  0x0e9d81003ae2a614535ccfcbc2d09eae94524425e4b1b7705e437a09e4ddf00aed00fa23d202c2d64d201280e093b563,
  0x1162706b8af4df405526e76d8557a24a813b14da3ab413e2a1cb6328bebc6d85a2b6c4a07ebe87875508ef397345f9f0,
  0x19f3db651a9016e5c1867f41fd6089dd433fa07c2abbd9f61a0d96cd0ac1d66b631477de7a3b9266a117b078626464bd,
  0x14f7a5dd89e91ab24751eb6a643e9b6f933506272ed8a6d3db662406d8f5001e142bc74b4cf5e53ea1ff1e661d57f547]

theorem g1Part141_check : g1Checks g1Part141 g1Ys141 = true := by decide +kernel

/-- second coordinates of the points of `g1Part142` -/
def g1Ys142 : List Nat := [
  0x16cff6a4bc9c8f3004763065f7a3e4cd88b54ebd69be753df27928414b2b7333ef8cfa1a0718b6eb7afb9d58a41ace08,
  0x13c8a5684f35a6b3fc225a108c89f905539a8bcf8945c1ac99fb67ecab03b6c64698db040f294447d191452e696adbbf,
  0x08a662c428e3d2cbd49223e5a6047fd182f8bfacc381dd8984d4baea60f348f9207393641010335861266d9a33185869,
  0x10b8485d2d568f50be82208f05a171c1bf246c95b7f291d458e1520b77e7901c9f67361e23902400b6ffef9a36d62885,
  0x16cf05ea5c84e8e4e2edff31b819d1ea18a23c60bdc8ed81dc41a5063d651010257d4a40b7a18b483d2751924437b27c,
  0x02c8430ea1aa0410a59a73bf2c19ed4d447eb8ac1a110e1c697668d9f7b23aba64d65cabe749a42be05a8d448f7c3444,
  0x1313b0227876cf4d7831a9e6c935bb2acc2663e6dd259829a9711c70dc72dbf40ef2e32cb109d37854fb18f3b0f19991,
  0x113360be7cebeb01a269e98d5ef9f6aa98d68c7bd8a66592874b7dc7fbdcb354b25890e8b4a102d06c36c79ccdccc25e,
  0x10f7848ae425731657791a60a5e4ce0b7225eb1520ee20078dbeeef6e747890bafe353d32f2938bc27e31f048e18fead,
  0x15dc443745d26d11211878f9f9011b369a951bdc19d06cd3102312faa8d2eb16eab647882cf5c3bb5d5acf8e283f754d,
  0x03cf816061140e85db510df9b4ab4d6bfeec87307aba95ef15f1175dfc0dacf6e2f3d84b83f234a0b1e0a69cdded383c,
  0x14b46ccc90756d507a16ad733ebc8d1b4980f35284bf4ab076e4373f77aac4b400dec08f87d3e50db7b7a6df00795813,
  0x12142e39ea656646742b8cc5701c9dee2a412a224dc3a051d2b6c39fced3c49748f00453351209bfeb3c682556a57cc5,
  0x106daa316568b8a703a5473e929b0f8eea16d82bca96de4cbd05d1ec9b11451bd4579decf138623b1df05c831b987fed,
  0x146e2411bbf0609f6e52e3b481229fe5db2fe65de1924e2f27593218c25cd083052c1dfa8fb37268cdab51a7b5c212a2,
  0x08a8249cac843a7d256e8cea8e86a1403a70ebb1da968e7d64bd64fe516be77c667ef6ac359190d575b484c86e3350db]

theorem g1Part142_check : g1Checks g1Part142 g1Ys142 = true := by decide +kernel

/-- second coordinates of the points of `g1Part143` -/
def g1Ys143 : List Nat := [
  0x001342938cc63708159918d46bb01b5feb1be8be667d3359a0a4cef02c28e25278ea12633ca70e4ae37b87dc472a9abf,
  0x114d2bb0072d8368e2211df426d4a493841b123955dca0e4d33edc59954be2d25c44050a79af6013fb04381478802baf,
  0x0b5c26ac463f9d900e166bc11bd7925dafa73fdd0c1a9027993dd3391f0adf08029f45e913910e6c47017933f28b7657,
  0x075d4339d2c3aa5a35c732460299f52e97e7349fba4e0abcbcc7a127ae34c8f083301826a3572f5e6d2b59a27848532e,
  0x194a33447458d06300e0d98c8d0982a447db59a8517291abea82b8292e2866bcbc74455a2c163dd4ae929c5d5af4e291,
  0x0da334a28b8faa9afc808f791eca61c3f2300d58e980c6da1d68d4b0bc9f8d351523cd5b86aa09346b9341cb331097a7,
  0x0325ca600be18e21ad693233be104a9e08243e359ce8d4601c209cd3f7de61b862c12eceefaf021d448b562ccc576fd2,
  0x018446485a141b608d2999f5c00deb9b3e381c782bc07025abafaf7150c856ea6655ae5f0897fb5ad4cc357254462cca,
  0x03449eb61b6183b06c719de6d0588be9689bde9fb4a15cfda323886bacf24ac8cd13c0419e4e2f8666d66ce986442cd9,
  0x07c726cb7545dc0bdeb816b0a0ab911511cb839cb417b8b6f7404edb2a4df0e39c2ce189e3fed972e5444169f1ef3ca9,
  0x07967a98131a80c9a59b05bf2df5d9d9081b36d58c5a77d90fa5c93cf70d3d39a741680cd5b1bdaf309c05c0c31bf74d,
  0x069cd6ba4b25bae8b24e26f73138c3e230cdc621e8193004a71240c187671c3ffd16ebeb352a86b4c364a2314203a513,
  0x0c4075f0157bb9297495a240ecc83336927dd437fbe0d82eb7a99776edb6320e4f3d90bd154953c16328470ae304657b,
  0x11f0cfc30c8f9ecff406bb2abe15bf2bda05524430ac8bb961e8aa6864d47f8c90bfd4985c319a179ea0c372708933e8,
  0x08f9c5a81a82a089e8b58453d69eeaf4357d56b9bff4dc3f32be85115be3d1a4b8d67c63ad491896b1e6b371a229d65f,
  0x05d4c72040604ca2e895028733663e633df2e707c64d4001ec0a0afc2609a549e70606b86d911cad76eecfe5326e12ea]

theorem g1Part143_check : g1Checks g1Part143 g1Ys143 = true := by decide +kernel

/-- second coordinates of the points of `g1Part144` -/
def g1Ys144 : List Nat := [
  0x058dbb5b5da8adc3f9afcaf7f8fb71d5f8fbcec99f453dabf3b8f7aa87609c964d5fbc6539bb3fae2db64576b78216e5,
  0x0cf049970cf87fb963e94e7965ef7c41327d5d66b5216932ccb499bc331cc6a38bd00b9e05312cc2bfe11b5a465e353a,
  0x198762f3d040dc8a0b808799c6b80f7c2d93b79c0cddd817fc7a0068cb918f21d8a965eecb66ca6193d97348b1d0128c,
  0x1166d77ec087ca824f7b8992871bdcf42b0429d4478d783adc7d3c5ebb2ff5c03ce4d4028df6b78832ff811ef717117b,
  0x0d63ebd6d284f16798b4b40f670096d0653e3136f63e42daab394c7f5eebe173e6c1845dd5d5f34557408791fd3ddf34,
  0x08838926df44693c75cf489702aa33a844878cecedd05209c4d3a347ea08140f4417e8dd69359088cf8322c7e75f96e5,
  0x048d8b3ae4107432434cd777e82cc54f11c1d9245308ce1d318db7b7afeba326e271a6c0a4a3868bcd2e07fefd67fec0,
  0x02d9e464acf7b1fda4d7d31f0b61bb3933ee2b04b7cb6d079a2c520705d2caccd97494dcab093274e003928a8a62a00f,
  0x16f7f297c9b757d31c37d93523d0b82cd71ff07cfb81545e18a1bb163a0d0a732959ec37da68e89268100430f55186cf,
  0x159dc2604f93ed36bbd3a89515efbd7bcbcf3709dcf266e30c484696c195a33e5502c3dc4bdec0a049eecad2201a47d8,
  0x15efe6b1baa4ea0830e598b8cbc876e59533eb1a172006f187a0688002d7390fbd7eaa7500e0a2433f1e1c45bb3e6d33,
  0x13201ae7a6e6e75ebd95af6bf69122b0bfaff9c23c01d7c1b5ea84261f1d693636e8c23985515cd5dc0469287648118c,
  0x06457cb4c904a52c6503de1d0b4b94df64257065fc8b0120e97af6cffe95af8b8f9024887d55f1b4eac19e1b840fbac5,
  0x03a97a40b63b927003c4519212977818c1e574d2f408130d18dca43a121a3d47ded9f87e217fb0d0e5c6b5e94d66675e,
  0x049bc1d6cc595d1ece832aa3ad228b986ce9362253c0d760f7397b1374da044329625ed1d376a416c7ece5986fec1e1b,
  0x1115c05aff1aecf3e9c1034883379dd124a98166d03b5cfa6da588cea265c2c6961b298774a9b839218b15177fee9e3c]

theorem g1Part144_check : g1Checks g1Part144 g1Ys144 = true := by decide +kernel

/-- second coordinates of the points of `g1Part145` -/
def g1Ys145 : List Nat := [
  0x022151c97d932683550f7624fd5bbdbbd191d0948d46e53eb5996cb1e303e20499d09d7af88dc9b512fedcc58ba24153,
  0x15872292da3c2fb8c04912ea75144adc8b74193ec0db6e716e9d6501b6ce02b3d032cf8ff27ea6613fac0a13beed9589,
  0x0b39f24901beba2e852b07a795f3cd649d846dd98c38d3f2fec93e752a45deec51f603cae9d6cb7d719cfa094ca7a65a,
  0x170181a7eee5b8c92452d7438545298b64d1fb8557b995b7f83a89960ea8b786bab0c0a1d0692318f44187d8a52e60f6,
  0x0fe720b98480e463e5bcc879a298753baf3e06d51d5da8ba8417714f03d0d81ec8a3afde87b5e3e0f093e0ea4f2542e3,
  0x0a45fa18974ebbac2b441bc1b1264262e136e2b006727715abc3fbbf87a13f166d1874f6df9c371b07368d5b51a011b1,
  0x125aed306f0354b7bfff2f7afef9fbe9c452b328b34bb600c597130aeb69fc6ec925d9a739faedfded8eaa93cee47d34,
  0x0762581d6004d24a33b09c8f8874fcee2b17c9e83ddac26cde4ec093b1b49a48e0d6b7739e09a9399427b898aec0cd62,
  0x178d4028094d98930382bf857cfa9049c2e004ba3c07814ec701b9f32b9fbff6e4feefde63eb90c9652dc5d5ac4a5ec9,
  0x0497b926bf12f9ddb0b8952080cd94591336321864917b54d7e48194de4bfdb388c1b7749e6fdbfaab913345ab58dd33,
  0x0453063cb283ba178c15c34ca9956ba3cc8553801b7523a3e3360b404db6b311274e4ef3b61e04b35adc583100188461,
  0x115fc21c1ab31531da3a91e823be2ae63904404d807a66135b2d9ac019c42349025eab7d49fdc229992334acc462f9bf,
  0x13a82e180b21ff47cc893f7adedcfec46a41d8462b9fd59d18a08f1e4b29e12ac4588a1dd32d895aa09f87e7525ecea2,
  0x0c7b2c360e69fd36725fbaf364f4c013bccd40aa2479a5fbfebf432e45a28e468129ce3f80ace665837345a7ecfe0ccd,
  0x0f07499832d7f9b196604fa323e7c352834acf6197132155b11b6430416f2edfbee5d60e2d8b27356838ecef2699ba98,
  0x0647d3011c96afca7375cc399b05c1f2b4606e8cfde9cf04025d12050300d43c8426ffd3b6fdc39106114f6d4c11aa17]

theorem g1Part145_check : g1Checks g1Part145 g1Ys145 = true := by decide +kernel

/-- second coordinates of the points of `g1Part146` -/
def g1Ys146 : List Nat := [
  0x0ca25651a5f4c08c9e806bf1ed6eda84f17b9824b235640d64d5ecd6ab748cf0ae616f3d17154a29f4709c5cdf8fe261,
  0x1363fd2616cfae6a0b17b9ab0094a56a54ea79d4dd3e992fbb798f8635d8402d5a6f8724dc2546095cddf0bc53c119bb,
  0x0f03c3788dea6b87ccc5c71ec4c07ba1af804b0c5b12a81e3b1a2d9afb08029396cc07ae09856e88950742bf715fa10c,
  0x00b34a149969e467a5c32c17d5f7ea34afa35bd3e38bb95516fce483310d2fc6b6e0523556eeed8dd5cfed2057f70245,
  0x1280461b5be9385fbd275694f460997bbe63494bb63f5981d9b8e7c8c51699c124ab4f42888edcabfcf5f4375dc7541d,
  0x04a92400b4ff2c60eca943050f2781218adfb64f814df09931440524e329a776f53472845ba969ff360cc3256e92c426,
  0x0e15cf36f6d822c97f54679309c637ddf4b3d119935b513f7ea9a56075ee1800b9a56dd3fcd4d93f143534555af84125,
  0x156828b52ed106c64ee75198b80180440a1fb92cc04edb133bfa8f3fc20c3a48447bac0ef7d2381a62a06db13a64627b,
  0x13e20f2f6ad8d0579d6bc01f19328dcee0158789e7ec7ae39f32100e590537de4c97482d0a0a47a633cc799dbc1d9c25,
  0x198c2d7fe694f77a2ab4d75ae2a4bca2985ceab207242f79d1d2009c2c58a66ac95c3354f43e31ec6a7ed921d659916f,
  0x0b1ecbbc8ebf449aded4e917e709346c0f8e4fd0dcd1ff7e992927a05139a2df5f834f0fa18cadf0140f9806ab6a52bb,
  0x09cb059026ff6a66707155347a3d8f7964b898d255d57707e9487708ca149124d6dae9c7b03fb38999bc38b84d49f615,
  0x020fa892d62e03ba595653a585425ef3966fc21b568520dadd0bb7aa43f5c5aeec71a17a6b29c256459c19072c2f7c97,
  0x13b7b6564f3a11f63d438464f4f32a3aa02b76313638933fb3fae413082cd6a0ed87152d41bfab3a070f6680d2c0dd95,
  0x0e0a39d2cb546e9212a4ded148e3574d8c58c1edf15377d101f8028fba9670238ceee4097a067014229428c600e4f7aa,
  0x09877815b2c75509e2c89937d1c162eb459a82402d224b9a5b92d3b794a04a4b25d853f44e7a953c6a7aacc2a4ce0121]

theorem g1Part146_check : g1Checks g1Part146 g1Ys146 = true := by decide +kernel

/-- second coordinates of the points of `g1Part147` -/
def g1Ys147 : List Nat := [
  0x04c0e2556264e448f75b45a53cbd9350ba3e1f4d8a199f7ff1e79cf66d69bf5fefad109e59abc5674b2662707731e9fb,
  0x09ea0c6dcaf6d6c7f5ed2555a64d1920676c18e6d47e2f3bcac92eab75bf3ae6e24a0139d6afa52b8c593d0e42c49aca,
  0x089f3ad6d3dc7245e3eeeaccceae94409db4961398db9022426b4ea7de4cdd0ba4a1ffd10e8e92504d12df68f3769afa,
  0x1341b56d5bed0e59fae64532cdc5c9777c86b54806ce7fb7f4b6ee72af91efc507c92ac137eed55af527e7960559498b,
  0x00056faaa6b1fcc17d500c44e3e96bb93c8f6505a998953e842ae6612c5bb122ef2fe93c79398f215bd958af9bf18b21,
  0x0134af7b9838f728fd740c3b4f1963631b95883502ddf3e6594d85c0bd21949919605bf139c8fef630f7050f5516d7ba,
  0x0078a38d09a1300fa5385751d9f75a3ccc9caaa56e3c64176d6d258d2feb52c7f24bb2e1909620c7822a24bb305257f2,
  0x1668c49b00a4595f47fbaa5b00ec226e1e766de79e909c76adfe6b5cae67b314c01e05e426d87bd9dee0620a8bcee88c,
  0x0ecd402a632a12b9008778c1df0ae9f70232bdf5dd309b6bde12d944258fe091c535e6f4aef8e25bca67400438a6df0a,
  0x0b6f21688dd8c6bc3601d0eb3776fbea33cb88aee729f6581aadcab820007ed87488a9d0e9aed63a3ebdba540628d718,
  0x1638d66bda5d318c77540f3adb22262bf9311db69f361ce151cc826b5c3d13112561bc99d84471cf04597444e9037ade,
  0x184422410b62173b075c118485205221f48b451020215d8beb6ae0213c55479216a8c3f12dfb53d74c57979f8c158478,
  0x0b70141a8da311ab8f6bd9691dd37a7568986cafb12f7e4647e09a822471df0de6b281739d6a82a89b135c50f6b2aebe,
  0x1884ec0001e83048731a646eca5122f69e246ef46d4a692d0bff0ea4cecc13a5692fc7561ddcf3b98bd7ba55d4e81a3a,
  0x0e2b907752307c4922087fa78e940ae217e38adeffc5bb6c8f8171a21b17f3b7a785ccbb7bd095405f578c805cc31a87,
  0x13c7a35f77c22e880dec011ec07b814dfe1896aa383aa775dd58cf548a150eb0cc48afd61659dbe612dafe22cef28833]

theorem g1Part147_check : g1Checks g1Part147 g1Ys147 = true := by decide +kernel

/-- second coordinates of the points of `g1Part148` -/
def g1Ys148 : List Nat := [
  0x0ca2e3da41d768aba59dbbd96610ab3eb4f8ecefbef71cf4e9fb5488667f01f643e2950e3b036ee370355a98e4de2dd4,
  0x018537650c724acbca1da71dd7e59a90f33f5ccfa7b4d9a3db9db603a839c3d782351ebd40aa69c9b319d5aeedca45d4,
  0x02b2854e1de84fd6b5dc9ce227c99c0ce7e4c1fe7f637bc0bedacb41a8125b88a1c28b2e3f0c23a833081d771f787bbd,
  0x14761c9fbf342efef3a0088b941f8b158201c20a8411fca571dd19ac4649addfa2527e81b3061e916c33a997ca52ab59,
  0x02ab151675023916484ec69182d8d26fc49f0f66277c06a37d7cf537094e3fc2c625a0b9300416e0a9cb30ecc69b41ef,
  0x160e6d1d41c7b0e23b10d3dccae86449fcb88f476dc53b7762feddfea52ee6abca6f2a92767097096f3b785f3903c983,
  0x0246cd2c825660a482b343b7202c0abd8daddbf0a412a024a810338be70a8558f9086dd8bb1770524baa3919f02464be,
  0x18409612168eb65aa184ef42f8b09d9eaddf267817d39ab0228fcee47547a025e7475881bb28fd7325bf0b75271aa215,
  0x1666fdd5478583f9b2749543edca5272d46ffca1359f1e2946114a5dd1d002971d90e8d051eecfce1601fc7e43702302,
  0x0086163ae578ba170aa76ed9d482d840ee5bdf51b25d9ff9065a59fe556e3522ee939f680eb11de675b0c7c9593f05f9,
  0x07e6ce090f3568eeaa67b3792511d3ddbea612a3f72db5bcd1dc41d6ec8a6f920f31a191131a6129279b43a817c325f2,
  0x07f052c71b74470808618bacc62cb431aa7f21a8767bf39ad3f02f9ea5ede84d0983b334f6ccbcec3413ae8d437c8a9f,
  0x08ae309039984a9811a40410d814ab6f8f275b77db9c79cd1d9788c21da2628af7d3ef1f81ab4a01b0448ba5909ba1fb,
  0x18d4b2c699739c31ccfd438bed22f7c1bb7cf358bd23869e7a7e48337fc6856b8aa712603cc45a626a2a14e8a1957789,
  0x16d94e6d5880055470ad012ee17bbfa8d7611812dfe460182d48b66919f965ed82a345a3c8181b26b3b0b35eda3e5fc4,
  0x080e4cc57122894c67b5bbca727ce4b35027cda77f3db2d14a32bc9517a8bcfe8c17a55905e4c8ef59670d754bdf2639]

theorem g1Part148_check : g1Checks g1Part148 g1Ys148 = true := by decide +kernel

/-- second coordinates of the points of `g1Part149` -/
def g1Ys149 : List Nat := [
  0x0816d7631e3486cfb00d4ecdfb22fdc4ac583c791de39f52ac27ea9770065bc0d8ee5aad0f62a7323e8ff570a9e245ab,
  0x11333494ae05410a580f8358d8787a0adca8efa32435e4a2f08775ea242535f079a0ecb798638a25ab240e522ed48c79,
  0x0cf31f413c017959cfeefd9bbddd8c9f822b55ef46b4d6c4fd00813e88ff0e52d2c72758289554a68e833b42304aa6f6,
  0x139075bb6d4ba92d3e6fdf4b2669ef36122942c7035676bd284fb7538268ba21a8691dc1945aa3a958ba9c69c21db8f5,
  0x0c605ad3c67fb7cbf13dc4aaab391a9b8a2b7c4fbff0c4a1485f4b36a62aef153f4f8aeb0de84a068429e92c9a48ccb9,
  0x10c53ed50fcf1c1414ea170809ed5f89cd20020d1f0c68ff0ad324438a5354084c383fedb232b6c1a43424b5c002aa87,
  0x11dbf55be6eb9cbf74951869ce839f5b6df38df06e54a028971c848debe869100c95d60b54e80a034635f5b50c3061a6,
  0x0a825fb4cb0c5871d13af9706633ef58cbcf09b19e25e2cc6654337e67d7309de4da4a0d408422fb6a324c466643a0be,
  0x138959350da6e71af4866188700426122de20cf45c5f244d26bab29b2d140efde68ce1a0ab03c28e0d64c6bac7171ecf,
  0x19c5e4567bbeb75beba55987a5d4876588bd5caa972813e8b6e6178ebaa92595108dc8e0d9d2b01fb16abec15f59cede,
  0x14973f71422d7649bff87d67b2e7655f91dca35563b1fa068724fb608800d06ea2254bff7705dd49c472ad81ae5911ba,
  0x01f33162e91b28333ba517a5dcbd465b5c83055cdfb798782b24c19659f1d365b9659f33a567a03b1bbafc8954dc7f4b,
  0x057fc4b5c87e03a5904b57860dfbae45c997c17de283af318cf4d190b3c7fbd63b62e2529298a7fbfa9cc656bd0bbb7e,
  0x107114cfb1e76bc1fa6cc13cf1f78f6a3a9dd06a0dc692f69e85974b088f25222c65db3813fb8a0a37618be8b5744997,
  0x019515efbb92dac57c3fe45b80d2848e466af84d507b5f2fe13f2da9e6d4a2f3325b997b14c3c7c11364ef82a17b0c16,
  0x127dea13b2f565c5dfb50136376ab53da8223f6cd1ea60688e3e95407caa8b5a1d11545c7c1f447dcc1b9d3666a574f0]

theorem g1Part149_check : g1Checks g1Part149 g1Ys149 = true := by decide +kernel

/-- second coordinates of the points of `g1Part150` -/
def g1Ys150 : List Nat := [
  0x17f0c17729afa9e7b81a4b975517d00f67c652203a91c1e47235eb9fd52fad4261865f2d6e4a4c300771467f466b4ef6,
  0x113e343b57c013cec614dceeb3aff17955b9b0f10ad306e9a1319b9ba976c4e0cfdc3356095db36724f162b498e4fa7f,
  0x06fc596f79355b3d5d421e9a858df0f84d861d0fc98c76f030b2a64afc902828c036f321b28c96a22e0039c73fd83299,
  0x1513bb7326240fe83ad42bcaa04faa869ae382dab39a2d23c7120d15f9c769b80d3441660937fbed7a3ede62c9b2c391,
  0x10fcd622fa5ece13c6c9944ea6040a3ff1d61811438e2263fb449df31aa291f49576c6cd1008f89a0b729bf254f31437,
  0x17a4e10f7dae103cccb42287b550890f2264f0ed6c3bd9d528259e104446ad91c1215db02061541a94462f08ddde35ec,
  0x0add5260e322f66e1f21c5bf4d1a50bceade173817933ac3ab47b2ea70acdd26e2b3606753c0fd401bf66044b6330d29,
  0x170837e44008835dd936790ebe003799690d0d08c178aa1195364f694d90d9800a4f1a179d64c8f2c2bf68d60b86b0dd,
  0x02a276c14b4ef1a18cf5cbc4d362da445baa01db0d0b9ff0c6d27e5c191058c7277c29bbcc062e561b8a32f6edd6e2ee,
  0x0adaf7dca9e2a818173333163013ca724d20d133d181a3b7835892db68a5a9cfbe181afffe44ec58cffbdbb50e97ebee,
  0x0680107f51a958ca5c7ec4d1142e874b5a4ba0d6f1809a6aa02ccece721827e4b399c680403dffb4552f4c4266db6a26,
  0x1326f2dfa6c5e3e6c18fbcb3f96f84e536930c8a9604c9d01f5d4f560a970676a38070973dd98894f0e5c5d54a654c5c,
  0x079db4a442251f1d7ad21db9a39ad36e3e7047806468bc7113d1b4dbb17034bef909a9e1f81f6bcae42612b766b1ebca,
  0x102e4f34bbc5d53fa12fc186632f02fdfe955712f66707757b76782035d00295285bc6cdcb57c20be4a4f4cca8956e46,
  0x087f9812deeaf21ed881b5109fd727a51b926eccb5c81d12b6d94a8066e9e2e58f3a0ac79749d0b92da8c0e541c9eb94,
  0x190ecd10f7a885ceae1f4797fc49800c4b2a7239d4bb2a71e28a0b42eb00cdeaadde41e86055d163287e96bd1dd7e7e0]

theorem g1Part150_check : g1Checks g1Part150 g1Ys150 = true := by decide +kernel

/-- second coordinates of the points of `g1Part151` -/
def g1Ys151 : List Nat := [
  0x12dda55a4e2f426d21bfce7e73b49d31686faf4cf7eca691bffd7f41900dd5d1db3d8749dbab812646fd15209e755dc3,
  0x01787df6240e896dc762532864c94e3c02b2fc5a9dd89297f4b123375f4b25dbf6f210f1125daf750b4952dfedddf4c3,
  0x0ca064df231e9e6275d17d5624562fdaf42e8f18fe3d82759a7457076b9d352bcb1ba808b9457c6adb91387593681d2f,
  0x0af457c2a05697255fa67e0aeb0a0d1a9348ae971c3fa37d9de2b491567eda00f238291c8e8e675dd77c28ed3d97df51,
  0x0a818df383b373c712a8751f73144663310687699ba5d49361361c6e16d409c4cd997d8eed58a09671d4f5a7dc9f8116,
  0x024f9b49b580f0968848a0c4a9dcb21f266345cf810b5f43bfebfd691d702bdde50c311d808b71f86e67bb59079e3fcf,
  0x02c613d391a4533611d0f3f7bada6530bfd50219ffd94c353ae6487410416179c3b8454b7d04185a00b7295c73572c32,
  0x11869c32e5f4e5f816865dc27c0c0993995fb50b87c19cff93facbbfe0f695b62de53e245f451dbc188a6775888077bb,
  0x11d365dd0be02bea85eb7aeb935764bf629d06f93be19dbe8cefe6b9e617336db1f929fa6518e2fe12cff0860e2096f7,
  0x1591b95f77ead3c8e73ca76073dabcc5f2e544e9f15b835bab9a6ba6c4d9c2f316738b4e70170b1088e974d4ef21ee11,
  0x091e1c9712f950dce494a290b21872a8e3f226211b0d0417ad6ae4e4d2153bcca1790ca668a6f24a23de64aa4e246a28,
  0x090f6ff61c1e8cd0c1d0977d7a67ca8f6b7ae8eb9abd219a547b48fc18c01ff015ec011d127c3be244e0736e7939e494,
  0x0429161726c8cd7e99c0e9bf5a15dd434047da1639f09c5c49be33db13ea59b2f2804ce8b9012de4b66d2e90db6d5da5,
  0x0d74cc9c0291d1e247df732e7dc8a2adef68d0132c11c9b5d4a18802be8ebe38898c8c556d4dd2606ab1fcc18aad014a,
  0x0d86be7a620fa0d21a22ec8deb573b04fa531312d31909bc31c984150a0218db2de03edad30f03195c6e9730e6af2d9e,
  0x1850e79a14e65f2b2152ff8d583b0ab8bced8796b05ed5f66277adbef1368cf14adb071e1c47a2323fb29df5cbe4c0fe]

theorem g1Part151_check : g1Checks g1Part151 g1Ys151 = true := by decide +kernel

/-- second coordinates of the points of `g1Part152` -/
def g1Ys152 : List Nat := [
  0x0c8cb3b5a618c79f19d87d5ed20f2ab1fdc499d03fc02f1eeb3dbe4fea498287096a560b150efbdcde8c29caeb086744,
  0x0e349a316dc5fecf75a1cf860eaf5aa4067251f69bacd86273915bafdd842cbcaded559d24afa85b5dda9cdf3d489ec7,
  0x133fe6b3b5099dc25f877de7e0e3dc0995603d09971ba6ef95fa168ec7d83f6874786f019cf8e309e70e1461556d5031,
  0x18214642d03429a97a202891a1790adced229b57b6447fea1aa023d7eb8d5b71c6b8f77cd93d366501820f5b2f36cfc9,
  0x1406965340d370b4f6978d55dcc876dc9c9774ecdfef811bf60e2e1ce28290a8a3e17e35f73dfa480b3b146ea8092d71,
  0x0959ec401026742adc7b7cb76a37161b7498c4e9073c9282a6280cdbe6fb18ba1211d41d2de2fde52e92f704bbb8139e,
  0x0b26a2bf8cff4b47cb548083459cf38fde29044862893fcd47be3a519596a827020332526fc3e904748134e4b1a9d4dd,
  0x03fd4af56a084c0748025af9ffd330eeeb1fc56223acb87288b51115f7d6b3439bfb9681eb07970141b3b49fe3a3b83e,
  0x0b8ad62773bc0bdfd4bc40e0a68d4cc06093a419c3709453fcefb5ff25f52c2538f1ce79a64c634fad4cd916ae6aa832,
  0x0441644f3234e9291732a0a94a8c162cf033db15419b5e2fd47cb5b3dafcdf466ee660caa9cf5228c3004de4351b588c,
  0x04acec47c94b03eadfaca39649cfa11fe625430f137a2f5896590f72ec66cfebca457605ab2d8ceb896d01e740c654c4,
  0x14adbc9693f0c0d1ddc48f05e9d0cf9992dc0666523185185d40a42554bdcfc2ae73fc0bfd8c883a6ac9e625937054c1,
  0x0224906681698c66fdc098a79d5bf0905194434ba5bf338eeb057d535a9f5bf982c76808c563b7c05993c1413f40581e,
  0x02b856b50de2192a7b363116005519025b3eb872e69e22e6abc9d3c1464dac28830c5d8f26cb2c3a81a4f2051b715cf8,
  0x023029e60f63ecad2f649b9dc4cc3412a5d15fbb92ce67a91bc1880082753efdbf2a448479136c5d42a2926bd984f5fa,
  0x186af5d2744fc712943682ce57dd44781b17b3f2e5a64303a32c7287fed71717f2c2c6c4b4a4d82001935f89d9c0ee32]

theorem g1Part152_check : g1Checks g1Part152 g1Ys152 = true := by decide +kernel

/-- second coordinates of the points of `g1Part153` -/
def g1Ys153 : List Nat := [
  0x0682e19a38760aabc831f2509f7073a9e1edc81b35f8fe07d1eed9b1b3c9fd981fffc5964091e303f809b50b8565934e,
  0x14498ffa4ef47717694a9d4b309131548958913cc30db09ec6aea48f7c5ace4ffee96ce015c701f7b9ce44ead5f3478b,
  0x0d62fe286f3ea4d937c11035ad7cd8664ea7895e8c631ab13bbb01846b6bbbe7271ab7595ef0e7887cf4b6d33281f82c,
  0x19aace724e4167e25985788c60294b6847e84c62ef13e81922e4900ce8b50d99beb427f8d3b13f43f04c89bf154c740d,
  0x185334f6afcb07e8bcd2e815642a1e105031c88a0e4547051aa8205ee70e924c6ff77c40a2d0f71ae87336b52bc0404a,
  0x0a3e6d0c28fe6839d5975fc41be38db9126be42e750b525915bfbb5fb031b45f15af53942c5ff4bbc70a16583f5c1cf4,
  0x1080402590aa4128336115a069cf34e06e3443409e550d74fe46705eddf8294538f6fa772eb57dc3715cce2d912c44c5,
  0x03b52209ac1b11f55c14995f1f65107c5075655d579a5763d905db784acd115a7fdcfa04468fe4cf3b83c7a1d2ccdab8,
  0x011d7a684f3eeb23e00ed6a394550a01666bc534eaa2f72e5b9e40447880917ca54b416e77ae8d08359957a58de381d2,
  0x0ad23c261df6d8e4083bc57bccc44644d9fe60cab7865f4696d3b85b9f2a2611261b4ce794a5ea407613cd63b3f57cce,
  0x0db170bad55500f4c18d4b05a72ce4099cb58cce1c85f2e0296a377efce26276e6ac08bae557c23956fc07e43cee4e57,
  0x19615a5f0d628a77916cc40baf78e58009415d83e934405727ca5680cb42c8ebe68f1e402bfce46808244917367b6bed,
  0x01f41189b801d05cf70eda075b6224ed9b892c6f51999d77607c03dd70f0b1ecadb9b89a214bb3318c9ac954a6f31bc8,
  0x0d10e24e9f42b39bec494368fa8295c2b4fc944230ba73cdacc83bb16598e075e2a74afca18161d4c5763ff563a2ff8d,
  0x0e6bf5495382c397bc3e1e66b650c8d4d452fccb3af879e6a62b0c30543fa9669ac0812026e1d2034f18772fb79d8d84,
  0x0015649e01c7b506f7bfb0096b78e81dd25f3465af24689e9dcab0b30a970649d7e984b3c7ed79c0aa5618cedd133bd1]

theorem g1Part153_check : g1Checks g1Part153 g1Ys153 = true := by decide +kernel

/-- second coordinates of the points of `g1Part154` -/
def g1Ys154 : List Nat := [
  0x074e434f5d330a8beb335f506a61721288acd81ca6681a23d99f1c53b7ce4e4a3d6d468981deacebc24f0e5e2e8714fb,
  0x1334d8e100bd2fef9869e0cf82e47c5fb2577189afbadf21c89fc9002735e34635060aee80823aa9fbe300e70706abbb,
  0x0604ebdd9e56f964372e94f2fa7116f0faa28a372d6bd8f96accbbcf0197df8bf77302668bfcd103036ef6b5ed4e359a,
  0x039f43470325bfac8b606f941b85b9641a541741c26b532d294775dac1117fcdbc5f01cbb05dcd06935b32dca9fc9108,
  0x07e35187eb7b083824a1d222cc59b0317ba876030ec00c45470a7f53dd790750db7dd829bbd2e783dc130dabf0496c01,
  0x16677e96691c164a844f872a593772d2df43882ffd599516191dbe4b55d1b5a7438bafc55d30a60eacd55f2a799ff180,
  0x145f18434fb92a9c3ef405c4963928382905d8168857be371f9e4e7503267e8491905fdced79f62c36a91b74f2f3bfa6,
  0x1268a72fd7390325b769fcc07b50b27f2369b054c35f9ea7ddfe18c6ab1bfd8d51182beb26c8dc49a1c7501c3c8d17e4,
  0x12dd6c464e6606b796cae6630a51704d117128049c1c0a7dab279c852564a68751b7e594790224c7f97ebc3cfc1e2ee3,
  0x08fc2ebcb394552874184ecae3ab4922e1f016a12572426eea0f8b7a89b06bda8d4485fab1158b566058e8f4ae03dba9,
  0x17bf5711c728fe2e3979b66af07f9a78f39879db779cbd87b7edbcc1713d92cba5441a01c6eb554b20d7b84189033739,
  0x04a459a2f8d9326e61438c8d03df4d484deb0277c7aa4c54b7cd10553aba8e0b4c28a0d1fa908e866e08ddbbef88afa9,
  0x04d1cf75b639bf2ac23936ca6d32c8e2996fde09a8433f0155eb99a966bbbdde2ed2444e087a2065e6478d6addf1cf91,
  0x153c0e89aaf2619950b8d4bc2ba2c7c18a01aec4ef10e9d4b3f1999701eebb33e80dcd16ab2adacdb6be64cb40248616,
  0x10bdf1a9d25c24f37ba278136e39a639b160fd5a1ef811bcf66a61cb81acb3e2330325d0accc09914123b5952a3bab2f,
  0x060cc80486a2da2fb89dcac60fb16b7b3587f51a16dc74c44e0931ff6b6af7bad2d0541e91734e8e20937f171b3ed106]

theorem g1Part154_check : g1Checks g1Part154 g1Ys154 = true := by decide +kernel

/-- second coordinates of the points of `g1Part155` -/
def g1Ys155 : List Nat := [
  0x039e25828d9886ce69e985774a9d0558a83b78308fc46930a78cb1c884d99e80bf1d4fe731fc0b7b091e062ee92d6467,
  0x09fc646f1bd9b9a9eaba01a0fb3db089dde582b3236d6380f67013def840b4dd12473b356dcbbd1a5de8b06a0fba09ef,
  0x104d19dbb5497e2b1765ce8f78b8bc2f684613cac610fa6651f075d62d41e4caa8c7cea5c901fead52ec660de08f3c33,
  0x178e0004be1f4502abf8ac28112a0506a760db4db02846fb1426be40a01ada0e877a2c6ac5d148c5e78b5efd9ed7832b,
  0x17f3eb862f3b4fc34b893711d28d34aab04827336c596fd5892d176032485e48344aef8c1f72e4608203ee13f723a60a,
  0x0d6f79f50838a87138b685f1700fe18653a0065ec0d8b670f05dca293982196402f2ad0fea7e265977e50e4ae9f99451,
  0x0d38237b86090be9c881dfef1737cc26721c611e08381c5aceb17925a2f885b71d89ba663c84eb9d2b9e0ea30dbc0f1e,
  0x0c23421b6a84238572386dc0d0c65369cad1bbac9fd5608e5b1deaceaa8ddfc0ba766dddb620911b88e2885f046c803a,
  0x112be3f50eec25b19c7b9295a21769532f3990e9f7dbccc7ad007a813779e65c5924edfc379ab3c519d19c8eba09032d,
  0x0db45d6f8467ca89a198c7e114f3e389d760550157708f8630c76fe545e60ae63bb3a8880b562a99a3e0292ce6656d7e,
  0x18afbe863fa14a79df5fa33b34d5bd7c4cc3f5f0539d51746856fece20ecfdae0d02cc417b19e2529045552cc9f8c500,
  0x090e9bc33a91e498ee8137e08ec554a9193375e742ffcd16be8cce039b082ba4a0ba076d4ee5381edf183fbcd841b45e,
  0x0b588215892a18a20686dd9bd94395920c9db2d075cf63a4dd290216007d4cf3367dca25d4edc892a7071c29cb7120d5,
  0x158f867c8b3ddf1d9d65b529d68cc0093a3635cc4bdb0f70839dd1ec099b26f33cc36327fc0fa5cd2d072c13aabeeab4,
  0x0a390634d35993553a37018d3b9b5d13fc5977276420af6297b168357531bca3a69329dca0b27a8452d69de04aaecdf8,
  0x02800798ed96b309ce9c5d0e05cda5b5e81e469f7828def6331fe31b0bd7cb7b2a5de690a40203036221d048397a5113]

theorem g1Part155_check : g1Checks g1Part155 g1Ys155 = true := by decide +kernel

/-- second coordinates of the points of `g1Part156` -/
def g1Ys156 : List Nat := [
  0x14deded94a39e65f8c95b22c6290a63e0905c9111df665c51b00ebc673a625a89a5752857a60f1c595becc4f884ed771,
  0x007e3edc52b21fea885a7f8342d8013f8a1e39cf57e6065bda035d478ac679d8ca62c099c01ee0b7da1c205e2333985c,
  0x16428ce439cbaa7ca8244ac1c5c5f84c93cd4c28bb3bc439c56b0333888bfc125874fbc9c62f0908072a79c3bd899089,
  0x05aaba0faaf383a1633415bd61501fa618fc63bb579b806c7e501b236edce1c065e6338723714035ffc104373a0a4746,
  0x08b91aa582bdad69c69e4de6c25b7059ae2f87671c46538bf4bae73c77f04d4316c6fbf558095ac1e773d25b6d269408,
  0x17ced9d8b1b653df172ef8549c95fce6f50aa9c6a5d6e04cb681cd363eaf6910dd32e24be36bf55a5fc8eca9a53c59a5,
  0x1281e125f2867f510c39d2bfe2d6e7d13bd7e9fa48bafe06cfba7be4bf63b3c7debfd0efbdeaf93c7cfae47a6debd424,
  0x0c40abee1c17b7a4ceb8abd20686b04a568fbdf904806367761257aafa59c8621e79bef184e8c0a008363f4d29947802,
  0x04fe2bd825561a836dc3dc837cc84395da613f60250ab80e7036f66d01a84f2827d12392d38b665e39897d06d715aaa8,
  0x19bd3913094c5a1182d8b9fbda5da873d2efb1566209fc6da9cdbb9142d014de9ba445e8557b03173fd1a57836caf220,
  0x0ccebd2b989117b4c4c69ab8bafb251befca3ba12ecdab90a98f1a5f4d1e68cdc394697709630d9b2ec451af774f90a4,
  0x173b611f52f18ccef477f1600a5550d39b4c05b5c14239a40f5e5c9707fa62358c4de4e7ba66dc4c384dd4c94e351de1,
  0x136fa382c03b72b9dab9a35e627e6e8aaf878170e79a63e2331af3d3e47a31ef0887e6ba0f2e0a246cdc58ee3de4bbd9,
  0x05537219cd997c2eb7e309bbbfd19b1023a3bc8e5ace4c86c95e32145e71162dbf97db38c81be0fb8aad8fc71647b999,
  0x073da4112615994ae1e47f10373f942569805689873e5647fb2f18ae5c1f5c21685b268afc8c1f194cd9bd97c5f84c02,
  0x026b4396daa6ff0cfb057195b4fd60658eecdebd13162f14d2661bb60bd2313235ef18451ff84e27beefacb965cd9d98]

theorem g1Part156_check : g1Checks g1Part156 g1Ys156 = true := by decide +kernel

/-- second coordinates of the points of `g1Part157` -/
def g1Ys157 : List Nat := [
  0x06198e47b850ca51a7e684a411a19ae90b801354fdb512897fe4a6129fbdd3987e533e66b808905c58bf0bc55e2cee69,
  0x0e9bbd7a439c191955468e5ed6d1e5a6c7660b9063bb698137bc301d2605bfc35423de7d3b31c16bdc79c4f69304ed2d,
  0x13e974314f5f09d374989a5412d11c874effd609b111522945740166016ec9c7d9307bf32bbce00759231bbbc5af0143,
  0x011c1391783a93ce55c2865a49836133f83253ebcee339314f0db45be52d5ed1819c1c5bd1a171af86612576ee365faa,
  0x09dbe30bb881bd5dc5c9e1dd0a286657122c7aaef023227736a8225b0e4fff51331723fe321b1b8a901efdac1cd8c068,
  0x038d344e4985489b02b2496873c4877a1aa83f3496a3bdb49bacf1779b34d3bd37502ba5f6159a042d63e236c1966e7f,
  0x13e3891ea8ba450335a1a2f7d7fdeb5c48d5185c47cf44293b8334103f6edf36329433785b2264308323b394a2f15572,
  0x0b6d439fa430a0c671badd4c4b4db0ae704aeae57deddae22dac4f5562df66094569ebbeaf747558760b33f113271bf0,
  0x0cbe49c963903b26e67a3252649fbb56fe6b38d4cb07ec9407ac5d7f04dee2dd6ddc1280ab08e8633599a6e19442e9bd,
  0x05d187e84fe6e20a68b6d6d14d3b9ba6c5b7534d6744479dda4bff933189e7b38a57f37d49049c5144d994c41136c952,
  0x0c5f54394facdf1ab67ba40fa48a2708f3a7d9c49a4dfb3f1e06666fffc8a1c3561c4f23d151ea64d477b9e25f09f870,
  0x17e2e114ebc1d3f0be15548bdf047c2f687c004f029b046887358c030c407ffe10b92304ab77ad49ba82b0c7ba607c69,
  0x179d117e2aedd9bac639c97b6bfdb47c3479cac906e2e6732b90a924d1bd46924a0433296d10415fc132512c88ba4281,
  0x18660f5efd921d10dc9c695b221ac6b82e3639db5c1f839e7d0a4ecc1ad3c9c61a3962c2b9f53a4aa4f2bee087f53c29,
  0x1303f6dab06cc48925357272629964c38f04e8bda96cb9a98ea2f907292effbdda2d55125e98e2555a39f1cc43d00cbe,
  0x031dc86c3de36f99d3e86475fe8c01251a6fd95b7a72215efbb0a0c3b5b727f2b948616ba47c7d602cb7eb87d57dce19]

theorem g1Part157_check : g1Checks g1Part157 g1Ys157 = true := by decide +kernel

/-- second coordinates of the points of `g1Part158` -/
def g1Ys158 : List Nat := [
  0x0406dbe9cd3335fab60eeb2acb7a55eae72682bb425a79dc5f91d4da2b0b48563ae5105891055938e31605b20119635f,
  0x146af2392d7ed752dad0c3ea1b0bcd154350bb596552ef36be2110d2ed9993238abe267c26300b03d76526b21d751de1,
  0x14abc3e4deb40e92d950aa54ae4fe78259693dc299ce37ff46095a911f4bc4fd53854be27fe321f94fcc44c769a18032,
  0x11f6c9736bbcf96522bc124fee70b64e4e1ae6e47bb8d4b1e5bfa0dcdb27bbe24fdb982a30c005e7b6c1699b5475de77,
  0x19b9ff45b6ce1b21fbae2125a9c40c6f779c1aa61763ea6fcca5c641165e2c919483301064cbfe192e26c74347cda4ef,
  0x14a9081420c17f18ce01aa33c6d9600c5fc0da31ecdc8312d10cff4072fea3395c331fbeea2ca4af11614a02b3f56bf7,
  0x11e15c3632344f88c9e8a13d0b16026b8f3f7f5f8391ce6275b01f342fa41a1ff2d946abbb79e273454926dfc8edacf3,
  0x0973764eb70a65aeff27405040676f1e7bf34edfb16816822b9e9d7155ce762f59766102e25786dd3fd90ed9cd4c07e5,
  0x0eed5a34e8545308e94ef19640f64134fac0fcfbe4f868b56c1e69eae030f24c1bc13c0c138d2fda38cdb3594eb4453a,
  0x13f5139cbc2a17b8a84fad07cce46fb5c84f1376bba2a8cea546d96ff3d01cbfe5aec7ec24231028a243dd1547555fb9,
  0x01c9461ca1f81494bc2855408d37a4537655d8fccf91ef7ef8d58df312ef629e38d2b0da2a642dd23c803c2572ac6a63,
  0x08a03edccbbdef03c46c81a5d297e9d75c54f7523fd27f909e8d870d1e0538e7fb2add42b4f5d1f2ec5d006e2a3e9927,
  0x1181a1ac4f8eb41854d0c22958886df30dbe4e672df06b68b6e19d74cfb22c5fe825422bfd780c934365d53b3e063d89,
  0x143d4f5b94386d256dc9099cfe9276badc7f819f0e36a0fe9ee696cf8fd579d2804a18e12d135620cc118a7d3a9a42ae,
  0x0fb6c32b2c1df9b2ead4f3f8f959aa5d5acf896475b8351cb9ba879433e3864470951d3336afbe267e6d287a3d2829ad,
  0x0a0332661e0858c4fb8ff44ba5f62488d7a45e844f6db24013c56e967ca4b9127b1283ef8241715d0fe30c4716618347]

theorem g1Part158_check : g1Checks g1Part158 g1Ys158 = true := by decide +kernel

/-- second coordinates of the points of `g1Part159` -/
def g1Ys159 : List Nat := [
  0x02b019baa8b51e0bce007695ef5450d766aa25bf7e5d9452607f2e4b26ec06be980ded83941e5028bcac4562e136c56f,
  0x09e6876a0a869460f07affe405403c2ef78953141ffe8211062084b4722a197370c4a5beb46553403ef118e6c5413f18,
  0x0e3fb814c4cca995cb4e5d841d6c9142275bb523db565380c4e87bf504e1f94db04407d1685f50a82d67fc66f998936a,
  0x12d5abefea6655fdffd77e5d5aec9cf49fa61d4788069069b9542e12cb5d997dfc3be94026421e57ae442a905e833fa4,
  0x00c5c65b569a3c550341c1d58e86f935db3b5d42b9c35158577befa6a052520435cd009e9d1b8d8181c3601ca1265eb4,
  0x0c7d7f3e07fe8eed5bc24aa59c187a7de7068a4f92df45ecde4811ab0e83dfb7ff09142c7bc206854e52835de12e5d26,
  0x11886e2a976884b31787ed5cc8ecccf274bd1fb69201cf4c36fd66eea6a75845677b1296df39aab87403ca70eb4b15c0,
  0x145f6b7d60df9c3932dc2996eae3ca9f7b39d0da3cbf58780c1363f5f10a52edb87a171b76ab51eb1f87a57597cdb3d3,
  0x0351f994a8cc2143b5827862b716e84995909c50a9237b07c7f2e77e973a2fcb0acdbe7c154c05576538fe7213444240,
  0x06d4504dd1211c40b96d560731348c092ea76a4c2712c5e16ccbcf351d9617333f5bebce793cd9ab72579c4ffa0eb9a1,
  0x077e94de1c39d0add8bce1462bb75c13220f180fe0dab5001fafaf7b6e401f9ed387014de6b69846cc716e6f6df6c2fb,
  0x19c70c4f421ceda7ebb1f272c4271e2e347b6ee686221082d30e035ec5b260ea543c683ecc74e5675bf1b78a5a9d2b2d,
  0x012f7582d96a687cc8e2ac678adbe93fa92a0810cf0a21321afab3d086ede493d5e5d7c130f7e34a0d8a1c109f397f97,
  0x03e1aa66e6ee80058da7b7885d0fb94f0607a18ea7857a23717345e3932fb385ecaa0c0e2c6a149f1b0f59623124dd7b,
  0x02b106b4b82a9b3427518ab851012a6228495c99d820035510b55f06f30a055374fd2512ad6912379a386c98333be0c9,
  0x05468cdfcf37bd0ed8e1b35e56a545f071e6dbc57c4bfece56642ac33671e2417ec900133e12372602a789109fb731ef]

theorem g1Part159_check : g1Checks g1Part159 g1Ys159 = true := by decide +kernel

end Verif.Embedded
