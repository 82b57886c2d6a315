import Verif.Model.Bls12381

/-!
The certificates of two orders on the curve of G2, `y^2 = x^3 + 4 (1 + u)` over the quadratic extension of the base field: that of
the generator of G2, and that of a point whose order is the large prime factor of the number of points. One line per step of
the affine double-and-add chain that computes the multiple by the order minus one, with the inverse needed by the step (real
and imaginary part). Nothing here is trusted: `Lemmas/BlsChain2.lean` checks every entry in the kernel.
-/
namespace Verif

inductive ChainStep2 where
  | double (re im : Nat)
  | add (re im : Nat)

def g2OrderChain0 : List ChainStep2 := [
  .double 0x1970469ceeae550e86d1dfe4f936a7dc3a6dd991d6392039b57d00912c0a78761b8542aec08f44285b934fd4634e4f34 0x4b6059c55f9300868c3026e3f76d2f23a5d2c1defb9e8c5e8a68a2b4a0b87f7766ec394fece4c1d53476f3891bd0bd8,
  .add 0xe120413b35faab3409522f102a1e34fde08f1b4b490d9505ec20e1eb292c8a86bdbcc34a4f80ccb0f236f6bccede6a7 0x96ebbe6dadfae249001cba10c4efd3e65d2c3f64efcac588bedee046c630f7f13c4e8caa7a60f56dd6c1914f70ee34b,
  .double 0xf18135b64f56a0ef327a47883249c862f1f5662ec9268647f8c36805b3712f3560c3328085781ba9d8e7132c67c4783 0xcd5f1d2d5862fffb56fa191f90b3123bc4199f88017bf4288fe0f64b493c84d3769e6ce20977434407e30eea0dcf7ee,
  .add 0x154b55ad0b5fa3de2d951c7c2334cae2f49ff06bb2d0be53e45524efafdfb9b0037ce6a1fc38d0479a0a724c79f50e43 0xcdd953c02e501fd573a12e5441fb29a747487bea2aa5996d5b50ce0030d1f3ae42ad716564ce2824c529a13f421f6ae,
  .double 0x114df0164534c240e36e01bd89f132bb3f3808d6f975ccc72851365b9c9d275dfbc9a9833d3a4396de811f3da3372dc3 0x34da59f60c0ded971388edbb1d0dbc46fb85955eee7526f9d30a48763bfd2205df6fcb6f079deac39f9e9efb9612f67,
  .double 0x85bea421ea00290cef6356798e884f4438f006f08e1a4f02d59eefb88723c4ff9ce4b99e456279daca79af8e7172426 0xf4659bc6bde69dd946c637332560b5d49e5a578516de5e3d14ef14554f95fd18a7fe29ce7a17018107ef335ae9cce88,
  .double 0xe32afd6dd9a6be3057e238adea0fc52350d01469d0cdcac941ecc855d500c48cb939a87a4f1c3e825e60488671fbbf9 0x11e95d2abc38548ffdc43a0b8ae01cacd112f7a05d0c1bf5ce7f25aa3f67ce3fa781d15116dbf1e4de36a6c73c505a41,
  .add 0x183678414f3abbd91e766c6c55204192b576ef496d4659597642cd66e0682fff535bbe2e9ee15291d8eec49a2603dfbf 0x112c00540d67e9a50d6d589cf2f97a0a3f92d1e3d475c7e3485a9ac4a1f14a2334b2ada218294b5fdb84548c14739d83,
  .double 0x9d2ba5217d119a4e5592bb5f6beea2fd858b3ae6be85c3fd6fd1b58d9827b2d086198b379d1f2de94331c976b22f876 0x590813bddcebd77285f6007256b59f4e8c3492362d1e1b09a1176bc27a7da07b055efc011a630d7c8e2fb0df6a8e649,
  .add 0x139c5304227d3a555f1d37292a6fdb922ffc2041346f5406a247ec89602058144a592fa6219b54c1d57cc07485ee5240 0xd494c648d4802f2703ae310edaba79155df75c3926b2d4628972e9b2ccc864aed161054688e37f33492a10184e0b127,
  .double 0x13c01161442e2ae490f043f555372e5af93f222464d5d914d9011fb30ba6a17a394b93d723021521c542cb83e243b6b1 0x804495444346cee4081eeb3d792fac2394870c2e8c99b51ee0906867bb526e41a70e23cba374ace3924cebd9e050e42,
  .add 0x102e7ec5d4afec40f745c92f2c708e36fb2f31bf071b176b8b868227d0eef2c8686ed510daa93351ab77643b4793c7b 0xf9a2935bfa6eb8110c361729dd4a3d95b7343bccddbaae9d1c2bb9d5a131b6326c1901f2cf8306e8811a71771aa0ada,
  .double 0x183462a6a69b94bdc29f415170ba668c93286bcf249551fb1fad0ce7d26827ba86ea72a6125301081cf2b3d67add53dc 0x85a55af612ba37756363eff1558c1d14b5544a6e0433d4a8faeb1faaa45bb51d10cb91448b01f68c8ebdc002ab57eb6,
  .add 0xe2be935bb059357e6c35ad715eba406cd1818caafc66c4d312c91e7112dd9e7f843c8e20761c4588cec36aab34f780f 0x7bcc77acac77e0150b2e7b3654d8a6e6b80b5f38bdd541251eb93ce83bc4a25d7eb9d71dfaa4b160d10f2f65900c7f0,
  .double 0x9d6edb0cf12e4252e07fb0f994b473433e2395da437c5047806e02df26896ccfd786c246f71a902c8d0afd1b8105c07 0x8689db920f1814c5cb2d4de1ef6b4a0726146430f0c9ebaa127b4ee25ca213fe9df7d402ddd85c7892c37f5463ce385,
  .add 0x139de91a93bef9b4515a18be7e092d4240bde2f60e94e7487403ed40a51ced3b18ed39f6fcf116890d7968e3a8ef115 0xf9e1fdcac83bf7fba36b76ef70533a1eea4e1ba26970ab8d14a8062629d2c0f85d4c1e661a39c5544f5ebbd757249cb,
  .double 0xf62af0c5b95ecb0d52efc692e8fbf2e5efed8c7eaa0d9094055110a91b4d4005849d3f9abb848cce53b1ea093e6d7a0 0x895a38917de4765f5aad13a1ff465485a97cb3bb80fe0e641735fe0827e3c0c9c8ca39a8a377074a94a026e4cc939d,
  .double 0x17d8aeca8bc56a2cb7c415c7b800e1fcd899924d262d072be95ae5065566c12aee101432f0faa9fec00441bead76a744 0x1566a35bc1f961cf5eb438f264e6244a21035be7ad9689a26ff1a10fc0cbc89fbfcbe9191ff2a88a0759c19c71a5a3a2,
  .add 0x15dd2e91ed4aa815d078f76e7b0cde21587f0b962f3c02cf9df8bf0391f846dc9c9f4766dd2c36b1ca4dd2c4348b9f21 0xe67c049827843b7dc6a13f1c1fc00abb78efbc96be093c45113dbaaf77dba2a783b4a15ffd323a21cc9164e6894f719,
  .double 0x497497e95047f2bf5b8b506dafdb2f7ded34a66bfbc0f2a4376998eb7ff2fc0e6519b8a71559f86e60141568176c43e 0x120dda1489697805ca963c4b50d51ddd7a5b17a49aacd15f0bb5d4da6c433134526eb1d7ebe9149c12d622dadec403ed,
  .add 0x13f9bc2ba929d596beed99e7cb51a7862a9b072b32728709eda186afe127960612ce9927d07e53813671da844e9492fb 0x90667bfa2f759c6f90ec3847e072264988e72fa68ebf54ef527b57f9a343f68be59bf191235386ab6b59cc9c3559034,
  .double 0xefca85af12094afa8db0054a19b9e6b9a0b6757a147dbe389aedf1253e53b1b0d662eab9ef14050921eb72a92e7e0a5 0x156f564bf364f04cc78e42df88c02876a72ed85fcfd101ae4b7aabb9dffa1bb2991e0d82e94275723d1af0bb415209db,
  .double 0x58efe60b322b806b97211285c0722b7b7277267a01e9f47c774879016471a60144fb0ba427da8bf46f97ed7eb70b225 0x34603d713a2f0d1950cd7f283b98bc34cdef52c10623c47b7e8d88a3bec1260ac9c2812854728696bb020f38eb5e56,
  .add 0xd76d98eba5f4b0e1e9b177505fb7be93b961d5b8c9ea98cabff9a5fa1d0d2a0afe0676e546ec2969b640e92e91b9778 0x4cc062878d95e9561227385b83a1f001e8d6d2ae3d0a06ca140b93734564f2586d5922f8513d73a3c234568a6532837,
  .double 0x1f28309fb25db0d60178cff6e1a1a644dd8488dfca4bd17effd7f915a8ff1773bdc56820b4c5bfd1e4e2922e9294182 0xe551b7bb5fc55ec1cc6387a4f5572a2d453bc0e21fb2e3c41438a8c23173b1fbeaa6bc6d1f1e88a09569afff9044f05,
  .add 0xfecc1696a89e464699eaf328e7a499689d8707c69a0fc1aa913471e77f03654ccecec9b524ee3246214940a3b919041 0x2253f0a6b85cbec640d45cb49d75ec28cc4dc29b725bfbd9d41eb5fc4625a406210397db613bfe5c7f2e1e5b1df7b76,
  .double 0xe6cdc56eb832ae276a135da2b690dce34b02ab0280e7acfd5ceaa0fca5cb8ed4220b8c662f9402f2acf9cf32715b5bf 0xa2a72632d5a0493e12206efbe11a862c1a60b14b5ce5a5984360283a9b675a486a8de33b366a1cf7938b141b3b5bea5,
  .double 0x1f4c7b8be5a84016de25882b83697b514ee71bfe27d3906179674b56611c231b7858559767c2e48b1680c7e181cb453 0x12232557d4aea93de791e9a0540d8b499425145e3aad5af3ff179ba467c2986eac9d0d198290efd25f4b3a125abf4c4,
  .add 0xbb0a207564509af9a2d1b10a5576f6fb164a9eadc50732b9cfabcf216eb7b140e406e0c7e3bb970b7f7cca09cd73b66 0x23659c06641405a2119e02701350aabe0e907c8264091749d652b27828f2ff0aa08cb88577727e62b175ea3e75c5bc1,
  .double 0x14c06e1140d829f1d9a5f4c5669f565ade1e0ee383a646823338582c61949e58239a4b565643b1b975d85ba8aa7cea8e 0xc5806f0cca0ef7b18d26099fdac242259101495c419a2b0d56040eaadcbb612c8a628c5fdc2140e1a5288d1f8bde99d,
  .double 0xa91bfcc4eb71295f3ffe13d7cff7211f75adc6d8dfaea8589a94b3cbe61b72eb8f826705348dfd9156e82dfc5b5ae5e 0x109e4c9fcba15afb56cb9f2364a7b020787030d67218b2afd56c86c68d6dd07075a43cf5e5177a26f0841a311e5573ca,
  .double 0x79f9448aa60c38d6b959b744759f46d8103e80e865e4c62df2177ab78fb10c7f487165e54cef60843720fc5f58f4c6d 0xbe9aba166d7018d5276bdd85ca9e32ab0d7864d7e42004243d44771ce6f0d009199cdfa4e95d2e6fdb4648e7480055b,
  .add 0x5797cc11443ee1697795ca9cc14e31b4f0ca9efd93ed9aa48ced6164e691afab8d7af2fece65ac4c6e1d04c59897b3f 0x173059b59f98041ec78d9d31a508a7204a3d9b7be960467ddd25af44bfa2ff9e36713c6bc43a4fac0b648655c525f372,
  .double 0xa89fc38b3e284b21bca195a936f9ef618b6d3f79f6bb59956d95382c3beefc47b2996af7ba058aa425e267e664a6c6e 0x40513b44217943b0086f9ec7d43655dc460156188bf6e0f8567d77d972fb76a75acd90ee2530b7b01aa8a9d2b055ab7,
  .add 0x10fe4dd24db7b91861b0de33cb787a6ff2ccd58dd3892d64e02399dc7f7da1485ae970841596d6a7221c09b66bb0ad07 0x66f1b51d8c9fba877764d386b12ed908ab9b69a1b36e1e0ce5b2887e9b41c1bbc127b988950c69870dfee1c411525b4,
  .double 0xc5acbc5194d62adb0e1f889a05dfc45bc16a13600735a95e661727611b3ce81bd556e1bc1cab2327fd889ea7cad5ca5 0x15f6c0d6b16e791baeedb224074b65e1f0cd93a5c3442845cdc3452a53a0b5dce1689824c0cc0242ac11baee97048ce8,
  .add 0xf39ec3961a3f4a0a882aaedab68f4faa1151b0aab28a1cc6fb940ffdf9f2287521b929c5336f7d911d6e9f041865db0 0x16d1e0e991aa0bf0126e0d873536f5e3bf912070e56672d58c14606adaee863331267f073defa4693d1a61758c1c75e7,
  .double 0x145a50663afe732b6e113710a550d70cd327fe78cb0b4d4a619e6f64fc0c96d9b4cfd1d1697ca0ef5394ee94e16ba30f 0xedd834c674ab57f132e7a48e7aba3fd56b5639e67e08c9d4ce63cd053004147aac110e3a777072628389fe6c850c77f,
  .double 0x8a9ff078640d44ff7fd47c28e4ab894ac156d551fac729196aaf4440a3816d37fb6baeef88877263c89cefd55448d2e 0xbe05ba02a2943f4d9d88344bd402f84fe0d6ff820bf7d929ae7b9cf4868a9e9b351a6e1e609c713f62cd9c8082b6021,
  .add 0x1415fd361edac1afb0aa41fa7fb9184847396a23e78b026c992877dd0cc841378e3d6bf1ee656ee3431720b9265a92d1 0x4ae76951617fa05389b15893e19f704a11fc75833b6b4567fb1f368bfc5b5685c90e59b1b5e00ce9a724a302e00abfa,
  .double 0x1579a361085018f2012a7be210f80759a4e3460d1f14b6fc34b8a43696670bda5247ddf5a706651d81a726163a9f567c 0x726182b297c1f3bfd37b14e41eaad646e8583986253dbc9a30dbf4dab46203a8a1b8d9cbb7a2219b11254a426df673,
  .double 0x39ff0ac2ee16347ed0926b604da625908ef3691c61d41ca302932547de83e0cc02364f72eb0b59eaeb6acdc9c8c9ea9 0x58b21701bfd2a2dcf6048cee4afc72978c8dc275e9f4661716f157b887372e76dfadc44b6c7356d008e78e15bf14025,
  .add 0xf2a699d376f2479ee2ddcbcb06d17e2e1756d9f6f2f2195b64f09f83f0f5c2f7c2ac2d09427c15de1ffd08b78c1c1d3 0x1522695a58b78f513a6f3e2d50b9da679e7011115971033a6e340f2c88dfc3754f0c6001d3b08358060d9c5aaef6212b,
  .double 0x97f85330de69a16876735e01f444e44954127627d4496a4365cccdd66d5cb39357dd7f2d7067b998668f0fbda6d2af4 0x592f8ff92540e5b2c7f2711e1103e4185b0560ce66efda58a9b57bb8f75e739d0e4cdf9469e03d529e166799a9e4f4d,
  .double 0x13daae6a841f59baa9e9ac6a5b2f199db28ae813f2d962652a9f261b5a3688364583095a8a887e4350c1ae11891255de 0x1546d4cd7c81d2cab3fe1cb8c2cecc72c381679aeaca1df79b9077a6a2b0812fa681965279e2be7250581c72b783ddfa,
  .double 0x13d7f65307f60133d4dc03ea31cb6cd078f5fa758d86a5304c5b9552b57b0b7c2ceabfed14952d9aa6edae4947692131 0x14588fe698fdb8eb6cc6fc1b8e4f52a0eaa85f4c5e00da93f068240033762ff9c8ad3112f50c40c2c0e4ca888e0da0ee,
  .add 0xf69cc57639a995385073262358fe9f13d5c769cc3d707ce09da0289baaac3fbea91e9d58e69e1c16cfb045fa0d1e577 0xaa34f1e972d3a47b60fa1b1279990cfdaf41f5532b2a371415c2ad24d301cc7e0b7925fa218d26b450da6f49c694954,
  .double 0x140aa701cb40f8e20d913ba6ceb08073c5db3669f3465a24223a5980689f136da2411159edf5fd54c9e2a5d9e94c3d45 0x1dae55a75baa9e750546dccac7db4c657910094732887791f24a5e0da0fe838a2b35331685f36750a73d08297de6021,
  .add 0x18c370a94511b286c083bcea772ccb958aa2cd24caa8f46c92905ed5566998c89a336224f525fe1202e484220cc464f8 0x3436c6ceb09aedd047fd22e418a498df4c347c9554eec629900c7179f069e1d43a438d0814f7efd6120a8a2690d633,
  .double 0xdbb3a2e8c052eaeb3df6aeebe3cfc4b8bc286cbd5cf32fce1d007a900570d2d42658fa90235cab45b8c5b0f8a9211a 0x12e371eea9c13ae45d29013130c7589d8270d83206e7868f6d8386fde35a75105adeda47e8cfbfbe40eda751e1c3e4a2,
  .double 0x99fbf1b9a3a6958d7490d26905bc55b234bc2c09436d6d32f81f33170edd0aa3952126fc5da4b9ae3ea53cc071afc29 0x149f61af37fe337fe22ba779f39f7d805d91f8cb1fe35805146c27826d67318f1a56f2a9b735e5aeb9009436c5744851,
  .double 0x7687ae69dd0cb42f154c314fa469f474f905aa80a8c876985843e8bb5c243276ddfa81736d5666a93b7a8c8b4454fe1 0x4f491e964f5bfd28be845686c1b0d4665d020c6481a26d5645a68d258d07ccfff2a8cb0e69f43546bda8a0d82aca33b,
  .add 0xe96186d4916e16abe24ae52ebd7cb4d73fcc58f8ebbe7fb4fbe722a0840c454fd4d10a8b195c84e9e1ffd7128562d6c 0xd4f456094c5367a54be6aa077af0ea2a67d2f090fd68d6eed60b1d33c4c88a48f9bf5a95e43c93af06ff33aedb534ae,
  .double 0x124ef881fce71b0b6c3dd2d393c3db6e7ab10dfe3275d8b17b35ddfd309a8661076d6c673a81f62a423daf2b4f1ba676 0xe7c9ef55f5a2d43bdfe54648f60a50d95478a5970b202d1feb5aad311a4ae9a77f926b7dcc24f51ad4440922673599,
  .double 0x2b594926aca9342e40bf1648001eb4abad1045ca0b6ba5aad65f61e5eea5a221de228c66e57aab2018017ca59b8304 0x1314d77f525138ba687680b621250bad12d1eab5b5d8e6c8ed2e98d3b53430458ebe85076e77df25860dd332c9f58fdb,
  .add 0xc261aa755e84793ec69b1285a8a86d2873e79aa3f5997073084effed82806fc80accdabf397d4822cb4fe045a28fc43 0x10bf3be4ed4c71e3dac8bcffb6b7142dc5f6a345cd93859ace4b5120d52f8084bbf6124566bbb64a4970603797c94429,
  .double 0x19f74a3a4ce167b1e677d70c905d16a36b3476060eb16921c019bf3dffd415512db9c8fa64a99634907673b270c2d977 0x106a392b1ddb1bc981e036ebc9b054cb34fd987346bdbb6ef6c0d0c6b6c659fcbe1d8dca5fb34145d58380b130ccfd88,
  .double 0x12cf98cd79259cd34d2031552b8dee5eeac2fe0e8eba6956013dafbf66b4a0381c7cfd4a2aa851e673a7409e22823143 0x56c9b75401645993cb67c490be10b8b4971f1ce1269b737015ba9be7994c4e304196864884b4b5d07d3fcab21f4710a,
  .double 0x1347aed736db4a55f9f33a854d0a0e97feb014cf312c7873ef6b15a01d6ccbfef01c3843ba80be8fbd9eab19967a8617 0x55d391d46f3abe87bc00dc574ce75466ddefacabfe05f550181e8ba10e36c0d47abbb8c110be89df25c2ed53e5b5c5c,
  .add 0x40576d1a557ccd20c2bb1f2d049f29e0caac4579a879eee4c3403a8a9fb72ca9a17202724c8597e74bc06e60b1ee76 0x16e61d7193e4515c6acf17625a50caf85797e4d13ccb87b298ec50cef309fe514573f04f5d77fd126ccf093fe9d9169c,
  .double 0x31ad84057fdb7df75c1594ebf733044d652710d0bbd36d9b407f117ac2434d0ba7838e96aaf7802b34ce1b0b6eb505f 0x16a1b3d86e3ce88d60db88d12b5fd17d2c47e6c5777880b66893b65cd2a694fc6b433af78d692349f28127ed1a868c10,
  .add 0x8ebc7e3a9f2dc55e51f279c635a19bde64a6f4240af78837ee8f28f63178e70762ec413c6215b22d93899ea9edfc5cf 0x8e2a15337816e31284f95dacc0a1b809ecbf1c2bddf1075d244f4d41732bef252b25f2b11f50b2ca33654abe05d830,
  .double 0xbd1b1fa4ec813cb710183eeebf167d204eac161473cb88b905cfe5e29697f8f25352ee3ecf45ba03c3198a6ae9b88c3 0x4cec843a58e2e0c498f7291150935c5d225e9f84b9cbddbaa006a6ea37c04d946873532f3080928ca89bfacd868cb01,
  .double 0x9d825e7754b6c3925a06ee74572836919ad6c15c29c99f36c01cc4b7d06ea577f2be118d5e429d270742976864aa700 0x7a9c51765ea43501999b9a0f6cf3c32d7f67f5194002bf3122b3b958612de653b0992e7cc113c75f25791f715c0f5af]

def g2OrderChain1 : List ChainStep2 := [
  .double 0x65023bdb170c49f1e0d677046d660ca144fd5d1a389e4710251be96bdfeab2b7fe7a0b94867cc753a946c3a0dc5415d 0xf05aafcf19af8e7f1ea64dfa30c8cf2be9bef50d19447a04309119d14a404c810f8b3e61a33085a0761719c70fa2795,
  .add 0xccaeb30fcd5cfc7b7dd1d90c5b820025c21fc4e8b5c0acd028ac77ab013bb2881e0da6b5b7915b1e20faffec55a1e4a 0x18dad5d47a2957c9c92c2a08f876d0c0790f0056e30da348739d0590846241c72b374411232102df9b2aa74d71f061f2,
  .double 0xf2a167be8cb82b144d4a74c3f64de00a56fda41668aac31717ba4834df3e3e069572c0e26a206498f5db6e619f23d03 0xdd9aa24be8ca86235afb96f05a5692d81b1652de8d8bbdaec202955f91ac85a798a1aadb498b5facf2dfadafd77faea,
  .add 0xd8508b8b115c892756664356d213e987c5c81be36c63c5a414f7b050a9fb78044cf91e1f7a9d34979d995c58024036d 0x67db51bb47e090eb74b43dba99020eb7e1ac2e2aabbfb4e664d1b23c6a4ea501fde6319898f8881bb22794164358de1,
  .double 0x8da350c6199ad8bd7722c30f35eeb2b7023284aed03f02f5351d620c04eeffe226735e8fd35d49c52cf57a2ecfe5c28 0xfd578260ec27c2aae7ba839fab8972f1577ea3c56b533f3c349c374ba44a27e10e337b93c0143fb0b0c8dd36e0cc315,
  .add 0x3e1b7755980e0b7184958ecc3755d24eb7de96be8c40e8d15ae2361188f2452f0f4d15d32c40cae67159ff42ff05aea 0xdbf3ded4f23689cb4f4cdec9eac7e576ee84ae5bde964c5cbcfeebccc5f5ad9ba9089264678ccf631228b9134ff2bf6,
  .double 0x1500d1c90c641adc0446990ba1e967516c5d59e27c22fe27f5202749fb0539b4d679bbfcfb55cc5238aadb7ddfcd777a 0xa67a0efaf6364bdbf322fd0fb4bf474d2b0ea85181e99464919afa28073948c058c5a6e0538dc5f3ea666450fa520b5,
  .double 0xf078e3c68a26af23558523a48213dbdc74cb05e5532f7606fcbfdc5104a8309395cac2b77b45cee26d4f1fb71049ab1 0x5ac4f10c09b7cf20eaa8846d03461ab0f23de684f85d39340f2e99cf1289e907e15ef95bbfe158e702289c97be88d75,
  .add 0xb0fd3f9f18c2851bfc3fe751f753a95a52b6206ae835a336daf7f17c8380e676ee3281f340e492303c06f9797a67921 0x83d0dc038f91738827019d681dff83f0e3b9e1b813615801ecaf0b03e0941f002010ca124aec46c1d8de4d0864dda73,
  .double 0x16cce4ada0aaea1b406c5e4bb30032846a34b49514bc4c4ecc4707a7d770c652d7ca002439b352985018333161ec8e91 0x14ad0b560ec0bd831ba660935181b84f2bdf0a04e483e094a9c3652b81ae595b6ade7c170afc23237b0afff6e5e3b868,
  .double 0xef314ee25036fbca88e61d467717eb68dc2e193e19aced2936e949da738b32bdfd7b17e8cf730f3ed4f85a5a8831a0 0x67673d297de50e7a2ea9074fc49e8b65c5011ef8a1dda3b1c4cdc373b662238d3c8ec65f089735dd956c3e84d24d88f,
  .add 0xc91e222a77ab997fa800e607c2fe0a774ebdb92415efe1f6d2dfc9b4de7a5acd04e8fc82d49065ca61ef543a05853e9 0x6acf9f00c7e93ade8b61b741f630e8e8b5049f80b5b1d8ac17c6d0f1fa70372080e361c6b8bbdcd5e80f94ea1904306,
  .double 0xaa2922922156b8569ca24b7de9d1f661f339532da30cbf1959bcdd46d5b6a7b9d8b8645dc78a84a7b22a2de84d7b357 0x21df422b490709fff518053fec3c13b8b2177fc5f3a0c351e1a5d8551cc7e2f03876b71a788f0439721019479c15f4,
  .add 0x13bd4be1b41158f9619a4c68176304d5672c950f416618381b46d751bcbbab07ccf7f0cfc2a8ffc1704e13afccbddb93 0x1638e4d9f7e6fd495a50f0084c18323053a739c82ea7702e082282f10fe8d236d5256826d7a0f03adc8abfea7d9ab973,
  .double 0x9ba14b71c7d5e4d4c3c963ea3588ace864db6401e5be350d3ae140fe944f8898a1a286f739ee565230b010345ae59fd 0x17327dbc38baaf9dc9b92b5629471bed146fcb40e3f33cbc8b5e212831fcb84f25f2cd92f56eda9053ac2d4d13f663ca,
  .add 0x243fcff876057d18edf84ab17368182ed88263073677669b3a02860f9527b20519e1c38d357bf549228ce5100d8f598 0x150aadf4113b36f63ec2c24ef4c8ff4275edeb0fbaaeeec526680e64ee209522aff66edc71b2f4c2a0cee9d086c73ee5,
  .double 0x1547cfac43b320ebea60746b29dadc61967e40eb71c663560584f0af33d79d2043ef4b139c029571ee3355aaa107eb6f 0x68c48c6ec5a93c9475acbbfbdcb1b14720d5a2d8f70fbbd442238a299150ab2b95296ea816882d419eb6362c58c0dd4,
  .add 0x245b7fb5a7a6a4e97f980d394a98cf46ac3e0887991a8295ea4f98d97f5a64a8ab23676878b34bceb923c7566092b84 0x10c2fcf136eae1fcd54d98d637c48917eb96822bff8a1ec9b73446c2523902a10d886fa11d5079d53df6df06c84c734,
  .double 0x1374cfb3fb57a86f3899baf43807526e663b04d79bbe452b0a788bba632e2d3bef50d9d5ab83fa8c08d27e697d4652d6 0x523804c8153ed4dc71c22bd2ac51f645a798d2f7edab9d750648f29f66184f82d84d4f5b27ec008620972807d8e8674,
  .add 0xac5ab3218098afc54a944859da09b29081f1dbcc09bd7b67ef3530dd4565ce0a265849dc4791e56aff84fd3b1d016c8 0xed1fcad086325a986a9982a61c03aab9f76aaca5a08d93ded23b2efa8a1df04d93887416f03ce189adfcaebda66c870,
  .double 0x13a571d1a734d2a8f53cca44f8dc1ca569da40dcaf91a6f7a56ce214d61dd8878778cf45f23aaf93b436a9020fa92299 0x14fcc60aff27b12e98e58b1911fc8138368656a5f681e7f508aa8961ca4ee0a51944958421c6691fff46a9f23f0c55f4,
  .double 0xd21a022c5dd6b8f05e3c41c5fa69ffb77ad8b5ae6e4f66f2b11be43b20ae90af919664ee1554ca346ee39f2f43c9955 0xd0fc1c4c188017d5d8147f151de525347877fb5524e0351e0511c32306d32547f1d1ab08347c3756fddfc20d7387b6a,
  .add 0xda846744d5bea0c4622598a7ea2be7c54723c02baf4ab9992c69a0117502465209242d1f00cdde8d3125a9913b4bf71 0x15aaa10191a5e3e16c1a056a89f2fe1fb927893fc53a606618377ee0ac860c919c3838483201e5c50251aada67cdcfa2,
  .double 0x8a9f89b15bab3ccec17f8f1585f8b67c919dcd8d5da523d00573275ec2e59c7f0da46e5d7252f7a11ee4729a8e083d 0xfdd4743ebcd8825520d2cf0e2a2fd52b416c39b9f0d756b26a9463a6265ed2424db3251adcc25ac293531dfcf4244e1,
  .double 0xbc2e09b83499633142d49b78616f151a76f693b377d5049ddd80695993e310e77eeb7ff4de5fdf6a55820f451c2af83 0x18dc4978bfbe6eb68a2b80232d5eee782a84bb70c09d766b106fa2170831c77653216ee29594f2247470ab963fb3dfac,
  .add 0x13ee4cd47913bc0458203faf1e18202294a4546002b5f738f0c2a5b68f9c131d9019dd3950f17e2963af2f2609a0942b 0x10471213a3913b3628c6ddbfceaaa1dfcea5f0b3aaa4f706d7c8224d18deeeec2f253331e1b87ba33dfd6806552cca3c,
  .double 0x1ba8ec4220ba467f482db921dd58b85fdad525f614d52d0ace5caf09cba307a28dd9e625f4f896ea1055efabd72a7da 0x34ba2dd1e986ec69d0fddb290d1e38855b137eb2797772271e37ae779f90e772c8bb09407eb97020a625a5c67ffbf92,
  .double 0x3033a19b349a926a6a80595ba72e74ee1c05c9f38420f7f2b090dfe27897e7d89cdd830ea862a774927fc1181f083b9 0x109414551060de881af791a56e78d96c1a7f783a83b8ef1c8cf2a262c13a0ba3eeee93dfc5ea4100127aaa37fe037ffc,
  .double 0x7ccfacc4a32a3290bda6071e30be29767031973eb5b465f0964c69ffc4b0fb5ac2b3b3fe941ecae0c5ad478c3808460 0x1406eeb8d290e61416ca2b8ad1ff726c409dd9feafa4f1f0f897166971451c1b3d3046117a3edfe52430d0a93f9e3f7,
  .add 0xd8a20b82e97ad8968cc0aceb197fce499aef754ce08ab3ce77d1f451b66befb38860ae6a32944b7d66d4ff3cf9215d 0x11ccbfeed2917b05107db54985eb16df9af62b0e6c86a67637cfc5b04477ce58c9657fb9f48ce5922a6e9feed79f5edb,
  .double 0xae305deb2aeec7f0de3fb8f0aed0dc5f20a3c5a3214e4796f926b25f7ec2de086a867028bfec1d0bce4578e79354dbd 0x1706cd40e22b81982e66b9b3263cfd4144321fdfa903168b84f988fc866d56c1ee3c4bf429a13c965511d42d66e05509,
  .double 0x15e4c65aad1e6493734c833ea447a4a10f5ecfb71f054e9bbc76453ba7019e82d97926282bdd77cf6edfefceb36665f3 0xa40eafa7f04ffe40af15a04c7fa3d6336c84fb9d57a4ae7b1ca1523883d5c0c8b06d37575bfd060f45bb5163d44cc0,
  .double 0x4101c4a0677378e89e050af4c97acaf3713db85314ae9d31dcc9f849b2f668f4c7464828e6dbb869c70acdf3644f566 0x1288f367a9c43cfb74ab1f8393396069e735813c17ca39bb1327770f7333e21b44f2902ccb8abbe22b010aafd22e7eea,
  .double 0x1169d916ec6486aead105a01e19345384ff0a81043060e9d290f29f624704a8d804cffb37867e17083b5ee8d7d704c8 0xf08f157b342bdf4c177ce911f97a646165ac6bd07b8abbf7738eecc218e76b771385aea0d920f29db8c438e1fdf0444,
  .double 0x3bf403e797e44061cc41d85289ce46267fe5f685bae46dfcaf8bd3f0834cf908c700e4322d8f7d2ade4d7c161df01a6 0x103ce2f7e8eb0d67ee90ea915513a991cf5b563db98d9caabcba39d2aece902759411583a9420745483f42319cb1a0c3,
  .double 0x138a8990f1c8ab7350fef5069ca13be4bb03a6b3bc0581dcfd36e2849d7ebde16a4c50d8aad9254e1f7685866d64aa10 0x1d186bccc636f0544863071f01f129e5b1e01adca4a5304eddca263e28087ee64957e9c4cdd7858e71eca96fea39931,
  .add 0xbcffa5383a901496c8ccd850d4c4c873258956f718842487ded6176a4688443e2a5a4124ab6c24c5a550037787ccfd6 0x1125358f6a454c21522b42efd8cdcdefd2b712ed60011b49fccd969fae96e23d95a6476b5e1c62387741183549e0ced4,
  .double 0x90aae905430ccbe918909996522d9a780445b04371c8c501757c7722922209a350133a973f2d1a57f3220a080f3ceaf 0x181cbbd9c18ff3bfc12fadd7014566af9ecd0e3c6126740aec028a62de3fd2fd5c982fd85f32fd2df48b72f0e756a5c5,
  .add 0x123b151e1ddc52d59765a2c804234a0031d1e567f063396c8954f5071d0850a56dd22d65e4625a7311231a39e7b6e923 0x258c6a9ca64f2f1165840c86878e874cfa9e81af8060a72eb07717a5f2d277b312869fea4fbd605f7fc62f2d72c0237,
  .double 0x1d9880a9a929a7fc6cfb8943456a4931f5c275d94157d775d034b77c40f941a4ca14729dde4fac4af6e23c4539e5190 0x5461942ef751d0a0da45c2cd40d35095f4f47b82adaf75fa468b3e9fe223c1ea7fe769f63d48e0b8cd498d5da81e05,
  .double 0x48e2b0b96e13fb4924d037d09192a20bbdea62ad8a178ece5946498c15919ec548ed6fc1c0a094e10f42c191b9440d4 0x16800301865881faa0d7f783e4cc7d9772c720f94ef2f0b72ddbc838b9593481ee64cde00b122cb692f08be19c184581,
  .double 0x77afc13ad20b81b4d6d9ee89bc5868bc8acd0de24ef11ef8c2ea91e4bd202c64a96b6dfedfea24c3ffd07ecee2759e3 0x14d5e311f7725274726e7db6e7895191627526c059861b4ca918dd64735796aaacf76750386626ab34c2e6afff1b567,
  .add 0x14f103d2a2d730b069d1e31353a39340f7b935e2ed07a3feaaeb6eb20f5d3520fa26b4f6e2006ef5f774ccdd8c369d44 0xcef1928f26432d378df2ae7d50a75fedbeef8f7ce2081c6d85f4006fb21ec23206425239422b6ad485ee2acd99dc224,
  .double 0xf12ae77db68981ea7376b2c59598a2a70a20a1f658d48656a577db56d4bf472fef5e241048e37d32aae5c238b7a9bb0 0x12a881a4090b8bc261125c507e1c788953319e3d944f773a42b0eaf2072fc8cf4e313e1ffc75d12ac8d32883d5765ad1,
  .add 0x99a017c7a29079dfcb022c55e566cfca4485b248e28ad7df90105212fe38487c0b8fb0cbf8fbdd0250381f0068038e 0x741296e2d9972c6346fcb7661122a598023015cf791b06217c0894f537a839c87392114ce15a597c5ec5f56c16fe758,
  .double 0x14c65e49e6e16842d05a43461048d319164b4c72607ffef37fbd0edd420fdc6d826c9bcb28119ee00a953fc675b46705 0x634f7d5bf5126b5f12994ffdd184e4a03b3e81f667c4de5e98c01d4cae3ff8164673d20a8e0d82303efd33022bd1482,
  .double 0x1184085783e9023fd655133716433e51817f8a68d5edaeeb049ba828c1ec8975356e060c464f6ded5fc3489b16cdc247 0x32eba26f4702502051821992d0966a4fd75b3b5b712eed69ff67ba2a1879df94e48f33360a5da625aa9525e93cd1a3,
  .double 0x55e2a58910211b7109939d40d78b3e11e7a21031c64db85f2e89b0c4fe87ecd8e180d5f0b6cc13600158ab559f605fb 0x95dc3b36a05b3eb43687f22ad5e7688526e5fea9b3e09c6f1515421c8db36aab956df859995d6aa2a1c57fce3ec7ee2,
  .add 0x13581ad31dca60c0a5a85270d1a2820dc8f390561a48a774170e5e8fbfda6ef96a6e4336f28e1abf0820a01d7fd13c3e 0x9e280eb6b10510df8faa76d4ac1e03400b67501f13eaae94336b90a027b6692a4882f5ace7c576dbb0b2e5242d8cd1b,
  .double 0xf8d8fbb0e3364e7aa401275e4f7d39b6a1f58a4a0fd9d671f457603c919bde6c9e183fd84d9995f029d5b8e05b899ae 0x7a821f158fe3bf46d2ebb1c3c7aeb374ef7cace066c5e85abe12ec5d171b1a7979080161aeaf8ac110d712a8f71c3a1,
  .add 0xd4e02a318cf60d508511b524086bf7f1d62e5d26e9fba78e95267c3fb0f84281b4b20c83e59e5a3425e610a8910ec70 0x8e376cc41c3dc54d371b1e832563019fd3a83459d5cf92bb1632a144d19b8a983754ddeb93a035a3d2399bc5e5e5b61,
  .double 0x931015457c40954880c55f2da93d1ad48024112ba24d61f3cfa326066a5b034f3f184ad6950300e1c0d0ef9bff8a711 0x128a898f6f828550e907b07760a928d2609a42a8033658153da728d72437b1265c25f32227a19722a6f959676c80e28e,
  .add 0x8b4f8bf270efd282428f1bde6bb60917f21212583c3d1469f3fec33d6d9452576ff302ca9b785e92f1913e899523e3f 0x1945e002721b5535c0e73c552f1d01f840022385176f93f2725e9f44cedcc5880bb0ac449311beade25a0f2e7473182f,
  .double 0x17d3e1f89bfc6d811d00d36616f3362f8ae3196dd0dd45b7281ae4dbda232a9f4807b94b444ff1c3ccc9dfec1b4d99d4 0x453fa4eb08ededf3e653d6921e13320e94e50342ecf5fe173e04e933e8e9f507658f9a23c390eadc7c28d553e928506,
  .double 0xfdb43bacab0939bc3c1869f4c2b07d71f9bf141137a3ef70061ad1dee74917fd944954c7efccc145b5604fdde5bf42 0xb4585f38985f2b0b19b48134bfc7eee06393fd2123ae6c53114750538488fd4fe1d3270ff6295c44ed85ba8acef0d70,
  .double 0xf9ff96915fdb0c1f3539727d9ecf0207df1d54d26b9197ba29ad1d4832e817dc90f78013e509d2ddb688d57287c03af 0xdfd67032e3f876443b7986d4bd443c3fae5eb99bc73967e74b0c2ed612faf92dd1d27e60d76b5a39accf8ee274d7676,
  .add 0x1a493d24a30527410b14c4015b0450055d1c9deff007d4487d0f62c31863f87c55cbb461c5454a48bd459be150a7696 0x18e60a105815c3d325aaeb522bf38aa57548df4cd4166affc41344500d80254e1c705f8233677dc1d7c9b471b81f41b8,
  .double 0xa8c3457867f25c7f73bee52e72332a86098db39717817caa1598ad67443182a3176aeaa36f730734e7c3fd45daa542 0xee40a9cb147e447e4228432d7e6f21b7b531aa2409142b19c1040355a9340551dd67b852ff89afe6fc279ef152d3e78,
  .add 0x14243aa0380f8eee0dd10195b8c05b0dce7af622fbe6eeea1fea34b8ef5b0bea18b22fd051e6f101ab208d8e1e0ee0d6 0x1531f6b3a47568c15ce509dfe2ee34fd4801365ae57124d7daeb30674e6ccfc96080b4533c5420a76a64ec421c90a26a,
  .double 0x11a1d2c54bba49d7e3ccd98be7b35812a575d85554c18d3df62febe2cb0b28f38c108182fcb53d9149e74e97616fe21d 0x12f60d4fecf057929b261936fc85298a2c8909d4a1c064e5331475de158f1fa75d4e46ef2af499df15388681bab6706,
  .add 0xd18362e94d989b430709f4be6a0d0a80c3127831d49487974f46bd953460a1038f14d917972c1a262bf98816a098b0c 0x1194ccad4d6ccf1dff92ebf4f06e13af342970b7c0709839b3a66ef160f9f0960e2b87191f0f39268cd8d2f529c9e217,
  .double 0xd21bdf5a17fc83302b4ca0efacbab201ec52572aa0a937e29784f82dbf3fe62f77a6a894765a3a45f18d1bf1de860a4 0xfc2ae3d8f4fe88c35c16b61eab62a1231797c4156114895492a30cfb6deb814892bbee7c83be180fb962adbbe3bb5da,
  .double 0xbc6254df7d383ea910de4c573ba960103685c94cf442f7214e75a88c38fca8ee835c5c9adbaf80965c3eaccca8ab6cf 0x6eb0e94a7af3cd30ddf26465b45ca8d455bacb20127bf1768eed298e5beb1ee63dd35d4f7351900396fc4a9b62600dd,
  .add 0x12a8694fc9b18c8dafa8616c77113cda5ee7b01255d39b5459d9cd9f315d20a8b3ac8a657edbbad2dce632a81209cd8c 0x1659aceca442d87de11a1f39cd391c530accb45ed959575f1b815d990281c9cc0e0ce20d03769df02dad164d7ebcb060]

def g2OrderChain2 : List ChainStep2 := [
  .double 0xd6613f2d5f995a9ff178533531d29b70751598202371278433934f8dd7251fef2c06c66f4c4a25475c0169866fb9bd8 0xe8d6dca876db26054d9f58bc5047879c2965930f48dda0caa5cf069baff8f55103160efd89d8f4fef7f8f3d24d9ffd4,
  .add 0x1ddf67448ea39b061542ab2db2dbcb710f0d3268b4423b528c4f46e1da4b7384e8feb13dfbac63a8d6593f83d5b8bc0 0x195ab8b6947d3ea85bc1684da00fdf490e2c120de9694d425c1c2319a85ac0ff25f315d61b48d0ba89bf0e64530f9a43,
  .double 0xf3aec31c58d4bd62bf8c55c91022ea0314cf36fadf5705f5b781477b6daffbe5848d2f8117c87da91e8224ea2cd0140 0x133f77be085349cd726feeff899f731fe87344419f85cafb646fc4c8d0211c99ba7a820a531f4e6d1a33fec0210ef850,
  .double 0x106c481557362c41417972160fff991f5c92d7de2847ae33bf1db3b1a0f9b0266066252900d7ae8f63fb44bb3474b092 0x12bafa0a0afbd9407e4f98333e4c87a5546342222f34cfae524b5eeedd2e54042fd2a91fa6b919aa7804b195b21d1051,
  .double 0x18955cb74006921296765a29e34afc91f9eabcf3195e512a59e772fb785beaebb3682939feba56494e6de4c1534d17bc 0x16779f96e9e2539658f7710d8b63a8105b64f3e4e8c4f180e3659a803783ab715cf236a831214e6501994328f1f90151,
  .double 0x179d2f482cebd8f20f7f903c17e4ad131d2cc6638d814e468ad77e00caee21cbbc9c97ea365865e7a9305255a5b89ac9 0x198ca8893438076bb3758845f4a7376fa94ba18456fe14ae5e5734d5eac59171bcd99709a9761d0999863efb5dde0ca6,
  .double 0x1065806ae0e69f087b8fdbdbdf6ad991d80a2da05efe4353c981789ab4777a40c3d23fc52f1096f5f3865a002829c8c5 0x71462a41d1909f115e75be25df07be54bd59fc8a0de09661bb4a6e6ddb56288b43d284d0fc9a5550b9c041c683fdeb0,
  .double 0x184bcb711ec4a436315ad024edb66978cae1c04a190cee7ee1664c2eb2d36c20aee049a5cc27c49e0feafe232afc2d3d 0x1b8d3afe5d87236ab024108d9eb5783d4edfd9de0c5909a8604a41f0631533660a9c8123c522e9ff2be0abf7e9e65dd,
  .double 0x157e0a471a00b8c8116b7251f0b8cb399cda7a89e78b5e22ed2d5861f93661d33ad12a799efa9359c2b5e3836fc6ec09 0x35221729131510c692dc3d9dc0d373abdb72678baf87612b08be7ea75688819767b6c89da2d56cbce5b9f58d75539f6,
  .double 0x19788af8a1933f9bffe95d6bbebe6e99d5ad5d7a302928c0a7811f1b199da5ddd51e241c010e850b53712678462fa46c 0x3d413bef4ffa88cf4776e76a06796d6c6a578bbf98eb6c09e9063e8fea634f27671a745b9c05faf3331044429b05e62,
  .add 0x7801169b2ff15f76774544e4fb66bfea20550cc2a4a822baa3f015fa192d485d3fde4534202ccd5fd20eb70422bc5f6 0x139b6d7db5e61b6371c94328bbbd39c94c464eab2531de71d8f6521d322c4a81ff7310f919105e8db35ba5500e14d5a0,
  .double 0x19c9011ac8cb966752c8714bc881a67dd1e3192441472a1ebcb43989b921c3d4d10b6cc66ef975264faee2dd7ea5b53a 0x7220ff59cd962ca14b92fa843af9887343c4314acb092997bdc3364d52f23d88908c9c14b8472ff5235cee5e4f04cf3,
  .double 0x33fa71a11ff9e74ca45bcd9eaf76c82f7ac1f35d90fe40447f40725a99eb865fd5fa7aeef17ddca5c6f882925362cae 0x527edf568824dc55d48c8626851d8218399c1faa295a60718396d7f72a4c19f433c71491992fa550ff7a01bd1b6ea9c,
  .double 0x6934f77552ff3fda95f7d12de8a2c3e8564f51a5379977df515514ec53401df8d48c520c3381c283aeb918db7d1d871 0xcdf5c17e39f21f1a95e545d48269b5f4ed89293480fb70ca2c9d3817ce5ff7bf0b30ce578e923f646a44b7333dcb5c6,
  .double 0x16e9cacb206d68c8500703709da486e48745139a0d13b1de17cecb00af9f821dab443c217b0eeccea316ec41cd1f8065 0x12434ee6c2b0448339cc02416d14d37bd130920813103d1a8ffd4e18929063cf0bab139e4c36509edc7c8e43d8e3dcd5,
  .double 0x35fc6b90cd2034af5423812ea1ac13e7550c6b43742f51b361d1e883b377c3b4c262d82805261798e16b02d36a66b11 0x1123c92cc659f991b0e4de65e060fb8356f26517b9fb9de5acea55034eaecd48e44119c7d24478315c112fc8c46786b2,
  .double 0x16acc9983bd5b7518d27eec64131861273f8803fdaeb068c595cfe68199233cfb882cd443d2b36fc9ef9a9f6e054a143 0x11aa1f11ab4fc1bd665a9d3f0771bde0903be595b205e63113f7e5982f8cb8579936deef758d82269eee736b4deb71db,
  .double 0xfb715d8e06fe2d7f290b06417bc01b2f746bac370c62a0e0042b3256f092f3503d5b09e7029d6162715648fad2010b 0x534c2777b3c27be7789659f287d5506368e49681d2f69c1be569374c5296a9ec8ae6f5c802761f4bd06e03a0e324394,
  .double 0x1919550b575f5e516e7df4d9792806cc5817c18286afc100abc1d6896f8c87908249314d3b259d5a37d698d74a777e67 0x137d63a5d9864907da9992672311c961219ecde63bac3c1ca2eb64b11cca345ff4680ae57f47889c11453ed151ef2c8c,
  .add 0xf85b2f320e60a57f5b3f243a4ed6deadd1965fc0dc8a05f154dbe2a84c99c1a025213f931376e0f10147a62bc1e9c51 0xf1e5c44024d2153d4650aa01f337dd663ec51b640b56d3f0732a40fe21117d7a7d3756d1b7ce283dde29d3383711d0a,
  .double 0xe9c152532c6c26fe2d508ac9ea2ee0f235c089f7d038b211f1327bd72714333da6c90b4445514aa2615a3656c59dc05 0x15b9893238bef1d71d847be5cb499bd4e636ebbd29c76a3b8dec12fe3a426d8d023a7c1191fa7bd821013b646c4900c3,
  .double 0x88e48abb3948664d149d359e530df5e69183bc51ccacf4bfb4e7a3b54931d3873892214f8977fe717946587bc44521 0xb54b44771baf73bbed4da4b4f6c4bc2f79fb25757bfff99e020cc24d1380717a6a09609d6e97470b013747a98a7902c,
  .double 0x9607e8797b333703436ceadcec211b461ce67175987995e4650aeb2580ce775a39b307a36b7925764a7c7a1bf3c9a2a 0xf2baea3c767d2389c9475f81729d477d09506d9b9d34e302320476c800bda5a849ab716472d4339925f3f4d007cfb6c,
  .add 0xc6909d4ec7fa72b4f50819c8c08074a036c6f9eb2dbeaecbf8bef379fb63f33580cb3e9d7960341cfeb0e6018967637 0xc6e7598b7fecfe10255641d3d8307e019f2e3afe1d8e65fd02c09556c0828b197ff3a8b3860d7cab254a2a74d2369bb,
  .double 0x14d28effea5f9e89bca8657e1879469c5adb709a92c2e221584688dfbe3038e976a438db2800bf4781a58b20243751a4 0xed4a18c9b2f8a4deb6c5773402d8f2832cdf4bd30d77d939215cb34f37843a4aeed3ec3465330dc8a7c7a0c24246cac,
  .add 0x25d5c0b91ab17f13def149815cfdabaf13dfff1daeb7531d2e22a28130659863d04616be0e5c870b4a994c143415c1e 0x11bce2eff104fb64fb2485f0248d121613d025918f7fe7c87b22d9793cb4ed3c70709400bc5b80ea0d8eae20928a068e,
  .double 0x7141d43e6c5c4aecabc1d7e42cb61465c32a6c3dcb1774e1b685d0b77aac79d16cede40fe2bbd99d07ed23da9c2e2c1 0x187c24e1217a413b9a04e21c094962a13292084f48a89f37865ae084f2ebcda412a1b3950188453f2e321a8b38e8b58e,
  .double 0xb09e2a8138e8455919f8fa55c496039467dd15b07051dd8657b88989330962416f13d9f5f54b82797e3a5525f7f4d71 0x159f1d596cd75b9e6c999b48c45f57705f034fb71e232504b5bf0abe285b10117d02dd32802cecac019ff09b546b8104,
  .add 0x1464ffd867e3999e011966337010569e7f6354ea435066b982eb9c6261ba9f5afb943ecbc2a8d614cd7c2f4018334d8e 0xe2619bb9e18a26c51a606bb044ca16fd6c72982f87c944b9bbf2bc552fd44c820d5993e3000b8ae8f2401e1283eb36,
  .double 0x1710f14de2980842d4baf1e7d3b4cb516fcb1fdbc6784f4a85f98098a1cbdfaae0a183fc2287cb384bf9817412635b1c 0x6ebbde4a1aa98a5c123b511406a5d4fe5e2028ca8db070c73a527be883d04d120f112f1694a6a24c0ec6ea060a1a775,
  .double 0xa6eb21e081f5591f8900d3e8192335f488b07326c462892e4d5c23018fd46f5c9277fff3c8346f00cfa8fee71acd3d0 0xfa2a368b1c92e7298689d1d003b78163a03ca2c343c74821a9d624e08cc047ee7125f301d21e633844808cd34a1c7f,
  .double 0x186a1c3a57390827194b983e5268574f37dda9796b1dc738851ea16dfe5b27907ae51a42c16c335a7c1034d9e90156b1 0x125ad2f9388d0d2f5d64ef9923f9586bf60d1a287464bf376d98a7a38014d67197c0096850b92a40f96d4b65ad909a74,
  .double 0x16931ac86ecb650cafcf1efbc889cd39b0db499e657ab1250e5c4fd027a2164e6f2a4dc2af0e177a376e545df4072136 0x14e91731b2c7d6650a08ed31a8aee69fc50fb4a9c9b8e09eaff198153d5d0ff028f3d78bf6840de4e945ffe38e16556a,
  .double 0x185df937350b27d56e2cce782ce4622bb9ebb504456374dff47c6f6090072509fdab78d4385ff7770d4364ed75d6f41c 0x19af50f5479a2f4f5c08774e4b4d357eaf1be8054d616f43129a6d29fede0c65d963578e7bb39320b96cb513f99bd5e9,
  .add 0x14f5492c57e14bfbe1bba782aaaf18ee0fd3904495d5de26ec00eb4181e474e1f1095d877f45b2e27e047265cef9dee 0xecd670c83d57b4ca6793bc6b6477976457049942d730bb8a162a956f58ef3e6be6cfca094ed34d68071ad858b01293d,
  .double 0x166ba31bddf7b62724ffd3d59ce51465d819c6c740235f15f30299f141945aa2b61214bc0a26b7abe26c28acf58a984e 0x5c47abc3fe29e64b8a851a18ad6db711061698ac1c4fdf25979b1915a5a889fa8c51ffe57c73626967ec399ce8f227d,
  .add 0x6ea699e04cfa7b57ac4a1cb4ff2c585d8f496d26fcb8d5f0a888eceb1806939fcc5a199c2f43504aee9ea360ad8d72b 0x1877f1379f31d8b8601ee4c2910d71062f95a6b227784a29cc00e1d3c3f91f9e32ec8777453d2a8e5e19eea9ae1eb9ac,
  .double 0x2ca51bdb78c483c3a9af9c233786eccb89d5477978747763a1b5a67bd9c86e7a73ac3c4bdc6c030bcf614d4ca44dd7b 0xafb47af1771ebf9df1257998c2fe4bbbf0a0bdc1774e0918e3b4503511389bf25055767917c14354c022e513117ef86,
  .add 0x1137b463cb3f8c69251d150607291944f6f264a1a73df77f627a2d131254e3caf3bc7fdad96f1f9c8af8fddb216e0f30 0x1911f45f488afdd79c5f5d2eb1090fee4f2c7fe997e92076dcf3a1003a4cd83b0727f1145dc948c75a7fdbae01136eca,
  .double 0x4a9ab50e09c7e1a03afc6a988275f651941df86316e89c55f0cb9e49a3e6cdc51d58e2ee620f35e55252872cf773a57 0x44dff440607844ec7c0b14d4cd6e4bb8cfdb658dbaa357b7a07ff2def81d6ce5a560ec0380b04a6706ef3c85d29e4ab,
  .double 0x51da48905736f87a78940c39677e2c5c5621a6ea30e09c47b352c30566be323f2124fd30150707676d7053ee623330c 0x131f13a71bcdd6c7e8b2ae92bd717895666793337ed47919321c9aa89fde5d52e99af5a2c684cab38841051dd76d82d4,
  .add 0xaa10db5dae1373224c5aa0a04131d1892e0d4415ba6ca17a40456a733062f256de4b4e8920d9c3c051ae8b6d0fa922a 0xa01a1e2e97e991697b726a8206dd8a20bb05839da48a001d2acce9920d9da69febd8844643d374e677dd932901d5bb5,
  .double 0x7f0ad53ec4fe975fbcbf6e8724b4d1f211a54422ac3a955c99aa43fc6a5b4f446605574e855d0c5568e718d56bb79a9 0xde6352faba89cca403de93d9b93d5e69be51fbfb96e29537da5460f8ddc16d40184d69a5dc27cac5e5da312f1f3e9dc,
  .add 0x111400444f4c41a6c6addeb19b31d47c0dc4c1f313876923c7b20e609c74b6f4591095e1ff091810e1dbc7ec3e03393a 0x38afd87c1001deb2036315c2b70e5c194f5d6d8045972fd0e6f83911a1f966e8e757c9397cbbc5be5fcc2a2636c8114,
  .double 0x9f39203b6fbd0f89f77104575f7bc2b405463c84f104bf2e24a4149f4009cc70a5fb19a682933b8c9d5262015700d78 0x31fbc1f3b02055c281f5ca1277683093b3c17f31813bbe03c836fb642558f45c9d096e83c67e1fa086405c483490d30,
  .double 0x175328511b5054bb5193612943b213341e30a2de140352a20074a7e8ae81f7e23370834d73ace46a87bb274c1011ca0f 0x16c80e92db35920586fd4a5bfa8d31e83b11aca384cab004cd0c0dab6c26c6ec3268031f0c85277f09f97e850476e360,
  .double 0x10a5a226638ab286023d1688eaab246358f17d6630eb9d569cc1362663a13ef9349996a194343342f5aedd2eb662a80 0x6564cd8d0eb4bd60852e24bbc07f829bfbb6b16911adca79eb1490138fd0d0ec423e138766365bce2b2ae94daf53984,
  .double 0x5e07c2bfa33275b11493c62bc84d9bfc2b846155b778a8980c78f497eb8324040e647973a50ece0b0c435954114bd50 0xbe07d1d177b9a1a22041456a5aeef9decda377e2026a588a27a3fefc2a9699929d06f04ad97348f2dd8eea574c294d7,
  .double 0x18f0aafc9bc363ebc1f19a1f87db6a320817dda3a0fb477be818263499d603a84d3f9b9a822fd4c29f11dde45c845b 0x18d4bf74f0aa813092acd2f94cf85a4ad7a170e5eea72bc14d87c95ad5690b9dc5e97720518bb42f7614bdf1b428fa6c,
  .double 0x45bf90a8044856794b7eaa733d7ba84529650505904577051c6eb7ec412591d341d5d51ba447dd0f2faa31855bdb56e 0xa1fad10465e11ac5881608614887c259d3763e70519a83e2a9f94fadb7f84d8797b4babf14f87602b6e4c89d8e5f227,
  .double 0x15d93297c3bfcefb8130669fbaae076b69394eabf69115b6535f7fa1ac6e91584a2e54da829b7cee960540a74289c913 0x4f28243ab735d47a9e166ce574bf60f77d834162210a579df5af7b65247a2d8107fb88695937f408895c771c821b439,
  .double 0x44c0cfd106ce3a8cc11e95c0f28e2402fec437a9adbffd7a7e60440a04dde31864dcb13dcd7fa33d83d8104eb184ef4 0x17532e42e3d39da746f6f83ed6568270c0c80fc17f5004ade95548e9e5f69d07bd527b4bdc3434358670bd50969676c,
  .double 0x4ede54ab1519a5edeadfad89a9fd420702d6afea0c4d97c4d6ee746c753b2a596657a87f1eaa25f8ea9e6c1f774f35 0x175c17af1eebe3b6d9f178660250c235105308d5fbbb00deab772360c64aa9a015bc7225bc4c6f38dc62a1bfef67fc60,
  .add 0x4de5bae792ec3af0dc84b6004d883f0dfb82a26a30040deae715962221e635f9f52c9da004ba50aee20c1e1c4c4816c 0x146461aadc833c7f8e3a52bffd74872f49e9e20c0dba5b3be0988647314345949d046b496c76c49aacd33bc8dd18fb04,
  .double 0x8a7eed6ff6a982cc0bb4a57c63aa9240ae8ea46e02657507d2d70f0323918d7265b14d49f46161aa8f6a01cf16533b0 0x71e2dc3d89b327b0cce24a3ae830fbfa501c5fee68cd9c6df1a8069814f5415dbf71d84c456f13ffc46a6814df0009a,
  .double 0x3158889a4c4b5784cbd96654a65572410cb4fe7d7b273ed6d8cfa6a25c7297011fc8526386ed985ab8b09a8763c3c43 0x16c49fb2688681d62296a0411e08a054504d404951984f228adc89a055811b0435b0a058f3e55ac0d61744386b2f29eb,
  .add 0xf6906e0de9e0166dd7a3113a0c834d9730d09db52c116700cd43a2e1e6b39cc6269382fbc5e968e70640cdbb9d8bb3c 0x3cef280494f926ade0972434074e7fd5d49f20ae6f95f109ef9f056c0fcb6185d852f6c97e9b2de03331e7970caa06c,
  .double 0x18707780c71fafee84ae31f2f6aa708af35ac826251d06b4966ad8827333cad6d7adb6635294d7ee4d15383ec578b975 0x1404fadcabdf8acbfb25ceb034e34540ef852d59aaea8ce5f3cd5f3c08ec53bd187e496f433a3a1b6352d393aeb58bb7,
  .double 0x17a1a8c71e70354c53b87244ed2ecd918f4ab06a12844f04b73663ba046e336459f40b2e06d1e11df77ad7b5020eec04 0x29c8277b50b2be5c90e8113c4c3b8a839ac4f92e6bea119cff3ef97792d8dab1e021f0af1f9911dec1749fd9ece4283,
  .add 0x36c06151e1f425ff9375ab41a1eaeab3bb21f8d16acd1ea3d89566cf82fe657c840efed0266cf08fc26e410f8ffa751 0xc4e05fa18672692c2eb526a018abeaa3b83b8349644520d877f4f6caf3e6d3d6ae0033a0e819b8a9f58ec8e88f331aa,
  .double 0x98ea0b9f6115c241a0b4debbcd5e7c5f680b283328c1a41757035a08a8fbf5053278827087990a5b5822c2a7973367e 0xeda273a26ef4aa0808f68768ecd560cf177cf6a098854f8c371cc5a3360bbfdfd1231cb99534ea4254d1474be780b6a,
  .double 0x10e9c572d0bc04051ed4e219d67c43449635e77a888456a9f0b45664357ac56606a5e37acbd3172292d81b2b69bad7fa 0x6d34e5b843369ba9a5108d5e71e09a1877fa8321682f48a2426bd68687b4358b1862d67c9bf368b1ea6e3bc31adc9d8,
  .add 0x16092ccf9af2630f0550b52954c4e4371cddbce68a4518e1dea182ee4d41de2033fa3da0a324994c24aab9c7ab49fd7b 0x16ff072f3072e3fa2a4495e27691c4e4ce34a97122f9d2fad2c3997633ffa932550f01b35c8f8df60680032e0f701e7b,
  .double 0x2add13b4d9c2b22bdb0d6f9031a3a153ccf353250498dcf770b53609114bb120be764bd225feca8fcc23e78ddc3b460 0xba62c5df2d64ceb37c96a9f1d1d451a2f2710a17a092884d7f5092b5114beea18f786cb9f1907bb768f503b1314391a]

def g2OrderChain3 : List ChainStep2 := [
  .double 0xf9b45b1c0413e5f5592daf0b0aa6b2fa52e19037a09aa36c10fc52f05d162583496f01d25ccd40fdf63b67bbaa80ade 0x33654541a329231354a2d8d9dd4d6e0e40893c4c068258672cbd94dd9cdb7a96ef3704033755c513b85c754dc29e4bf,
  .double 0x350844729950ed6ea48fca2ad38ad1e8a4b4dcbed176a91b7be2b23baaf6a9f563e57b7fdc438fe21024a223af19639 0x22cdb99a5a9d5e2c2b95c41030dc39b0a87994d23e792a4f42599bb8b62b8371c83346c7f705cde27be9f6c34fd75f0,
  .add 0x11c52169edebdc4b58067037c2d74b22d15a8270db859bb1b4de73c2a2d3100382ef2c13dbb075c13b6c664f75aff609 0x2e597abd4cd794f9be50c497c8d66afb0cb538589e8c713df725d20a9e6456025e0c940090cfe535685ee8e062956bc,
  .double 0x8fba32a544a31b38d2e059c4e0e42f0c845b26d34e4ff068e897f505210edadc47f8ad8d6ff6dac69e5704151e8b004 0x165a78df8dd465110905c47f5a7319890a572f331880dc99d66b9938b22ba916d430924657c848de1b60108f22f7b7f8,
  .add 0x1273b62ff72aa8c254734ab2464be0179c100546cc57fb7db4da24ab4660a7c8d268d62b92026a8716553c1fb018b70a 0x1d4f80e9aff4b7f1cf42be216eedd4a7ee9471ac6c60cd5156ebf8815f8f0ddb5d901550ae23973f834da423da1d54f,
  .double 0x5e868401505a8e394c87fde7efe1ae59cb9ba6d00c47f7b6ffc4d7e9ec7d4d6b3141d8c7be6c7054ec693e6cda4307c 0x140a7abe88f7e36fc14dc8e34f0d4fe18b09b966cd3d8126d7f6e8c4b81486f5a26eb1ab5e7540a65b0f3aa1c7954f53,
  .add 0xfbb1dc48c9a8948e970efeec3ad2af8c9efb1c0717c94fbb345d57b96be63f17f2cf33801fcfe21ea69b24b19e4f909 0x56238cc73b978fe9bd679a22dee359913f9daa1ab405def3c9dc504e8d16febc1d77c6de9020833e858df2cb1b525ed,
  .double 0x3377fe56a72ee0b126240567b3d815a74c5b1bf8d5e524503593a7466e5ca2dd3679545ecf13d7fa3c9536abcc17371 0x111045db55d3426f712c9ea66f7f62d43bbb1160689b0279c52a491f4856dd0678ce5c8269b1a02fa5ed722203be246f,
  .double 0x12b72282a1c8e238627ea02c599cc83e63209ac30f652d78ee0739da0017dbab38dc29d506839a7832751fa88542f49e 0x4a7becc61749df2399d4fe97ff15b1ae3e1c0ec6088f6ea4f837157b546b8d88252efdc4392c75c81fc7f94a5110798,
  .add 0x436a2dce7b0facd613f439eba221b6a1e1c9b00ef112ed2e994af7f622d69fcdfcc529279d9a7062d4e3e1d6488065b 0x1573d53ce584944c2e80c12a899a6612b9865117d8f53f37f85ef4a701e7ace66062f1e54e8bbdf050cbabb292c6105c,
  .double 0x1230f696db32b0299209810c69279e3ffcb805485f5041b660830d710c64dcca10225a6d7b0d4ab69c947add0eaecc73 0xbbe616ed2a50a30128c44b029534fddf3dbbb84bb0dd4d2b5d33a79bd9e9c121fba611f2119bfbd42cb705b68c8df6,
  .add 0x19888015a432c17bfdb95dbb615eee4bd8a29d3be589698a8950d5defa9dd9b6f73d86848d8a38f0940989ab2f54f0cc 0xb7050f82a8b6cfd0838768f402b922281ac715401f2e6d790c99586c128e24699406a07cecc758b3628228ef6c2f493,
  .double 0x18767035f1e4216c0c421cf1fa40de9d6d70a665921030b495e3f53d9997b2357f5a11f5775d0a8834e10a4c44e25278 0x8da1a58addfc2b55bc8f9ecb21ab52bc202397f79fd47f52f60c0a7237d4a8084b310a0f94fff29499fa7a4373e12bf,
  .add 0x7f2cc708932fbc3ddc4a67768bc773365208fa5d5e19cda25b29759257c9fcda11287c105876fc7bef0660683674a5 0x159c285d547f95c8744d7d1e35ae1e54fbd53d41c728065db8bb8f208d8a3a507f03480b6750176ffe9abcaba3094b72,
  .double 0x103ab772d2d2e32e4c85ea7682b6b6d256170edc93ed71961b0443056f3d86f8350c2ab7d4ba4ae6bd045902e39a241 0x580b84384d7df450da80a7544271ec3e04acef4d2e3efb4a5bbf463bbd856c9f700e04911cde1dc48bd05fd36a4a7c9,
  .add 0xca6b4c7d5a07bfa891a678839a4eba1c065961a843ca1f81918bc0a0c5b0dc2068dc55a5dc630e2af68a26fe47ddab2 0x22ca1c902209be101c65630f9e6db7998274077ef1b353cad261d3bd6676414cc031fac7058e88ac965d83c77b8a57f,
  .double 0xfdc290fd1ec290159393586e7237072932b3aae6318a4a27e1c762b183d1d84db464308adbf73844c45f9eaa25919fe 0xed24033ffaddd34efaad8af67cbe99a22b462ef862f6033af2baffff2af8c7814caf60e461def6c4f9aa199c645753f,
  .double 0x355006a162c9fc724e1678d6db0184312d0d4902723a990df5c35d68075c9d97e404d3e31d1398b03ccda6fa5435cb4 0x65c2337f2cd09502eb97545844481baf11749ad722b266461c917ab9901378b111be28c48d84144f7083fb6614a68f,
  .add 0x17c4dba1d317dba3c60b19adf5fe2846b9440d95e40a00649454d1b765e04eb4863aa267139fc5840242c4f2331982cb 0x138b1d878da084525d7b7e0949cf5791dd3ff9f3b277edfbc3111ddb6836ffaf801a0f7f8ab73b2ef09ae5673bd30c89,
  .double 0x28fdd7611bd1a728c3fb36fb015f9c3ca118359f02a49cdd8cec58c7e606b763935e80d1c139d4e8264c1fcce804687 0xe21039cbf142a980bd3f171718f2d8ddfc3e95ea11143fecfe756c96ebb711ced23173efc9ed3ba86ac2370d9c87b27,
  .add 0x6c19d1f23ffbae904609afcdf8257553c3c3c75a90ffb38d2af404ccdc281b7fc8aeabc44d1fde73b9296152bd0e33a 0x12a78b69bd5f1bbcba933f9b84e7917e0087a57e28c736411a263b7ec7bf52f81949ad9d9285ab39996ca7b90c23f27a,
  .double 0x1456f0079defde9ca706cca61a8de176f911fb12c15b51e1a00ced2d53b8a12d5bcd913b4cfea6ba79cf51e3da6972e8 0xd1788d23de129a171a0310c51ca0007acb6a44c17c6b297e9739b36d04c550d34ef00df5a3ebaf9e1662742de02d7e,
  .double 0x5c8388570b2f081f9cb7ed154536bf92f88f0239993926f8c00ae18899c86448c781a0bdef46f6a8a0d5bc770f12869 0x48c8171f3cc95fabd5e5dec45277601fe522bd152ea5a4583bcabf11e537220bfa4ecd9e0a80de20ac0c654b16f0911,
  .add 0x15cc64d2017f4ff12996d98caa855a23576039dd573fd01796e6d4f6cca2c9186325822e14c830c76f1af6baebd1258a 0x16a26fbefc6a4d68866a3748af8dedcd596e3bde85a2af1a6fd0aef80e8d215ac15668b554f92cc01b8bb721e20a5383,
  .double 0x1876b49867f9409e8b583834ab20e6756851cdc3898053d2dc9971d53befbdd66198cd11d387833dbc09b02665f470ea 0x160358e479268020d9276f1db4b39750705571fa73b9313d4493bf1ad4d255ad260e559ee39cdadd81dc9a63c4fa1857,
  .double 0x1c510e96894439e7427118946c8d38ca97f4061f1cd70b79b5b9d8ec26eaad6646a2a5903ef2aa9d3888e6830f4613b 0x17ef54e27932c2654a88f97ad78897c435a79de3f1225a7d31ac3ed446d32a3d46811fec3a8afe4c1e4017370c5895f9,
  .double 0x552ddbac35e81eb74825224a576150f294bc8ffa73d617838a4cb33ce9893b45ef2eb788d98367182e25669771dbc0b 0x8035b667304d4d4434f1e9b5ee88b809aa8b503553070cf747a03f87115360995103d2e71dc1997f3d03bd9ed9c1e14,
  .add 0x11c964836df99470e0abed11410e7e70f9b7eeff805f479f7811178bcb6ac9dc8cf19110242e1dd81d17a8a70e38551a 0x19040772438fd56488d2c2be8eff7c992762324895ca71465dd8f44f3efefaab2e9846e49b24caa1913be7d5a69d935e,
  .double 0x5939f5fb2a9fb3bcbe2bb9a2f0a35264790499baf7c387874eb712f9a5a2806fe7561028041e0530a5d59512059056 0x16f272e11aacb880c46ce8f723f89a846aeac1d9c3b794c31cad000ab91faf29005abbe610bf67650797a5a40d04f5b4,
  .double 0x76f8696e8ec75662bcf6b71aea1c28cf0d4e6004105c242368cbd05c2ecab210151deb7b8171f3c39a18d2acfeaaae7 0xacbee3b6a21e119c0400ee22188e83dab8f2289b46c23701a133febf0e6892174018e0a7c819cd52b5e6dd4ab471346,
  .double 0x37f2d0cdc8504ea9ae02cce1be1b8ac200d9f51e6400c28db24a87d5c623c3f69c524785ead4ff511f9a250f1c0fff6 0xd1d3a21e9bd453670af2053386770eae5fb89eca8fe785082f8604c7a7ae666edff4b09e726e7d2d8d84d01ea89d0c0,
  .double 0xe701d0eae5e0469213e88d6c5f0387409d48940ced1a8a6ec57ed18e000fcd2c1ff8b8fbed8f2d3cd8a37157f6b54a8 0x8b41a247bef177c4bf0a129e5bf8207850232cdac41f73e928070ea71bd9adecd171cb0211f2a6fda9ddc93a886d21c,
  .double 0xf3b3d51548e925166c7b35b79a9e4178779f776e28cb6887d8790fea84fe06ee78103343aa74e80f364b746493fcc8a 0x16bd52967b5bdbdff118c792f66a77b018d8a5527ed693ca86425b895a5eea0eac970943ca63ba9d2b31e7622398cc90,
  .double 0xf2b80c25baf84c3bd29b5e7324acca5aed9566d779c2ec1a05671fd2a25d19c7abd6059ad48e3308a4eb51366bed45c 0x27d6c7aab75513833bbacdd23fd59826ae2851163ac1f2c206b452ea3eb076fb36fbef52f92a6442a7df85859fe84e0,
  .double 0x3d636cc074bad82771ba2e8b0073d4fbebe66ffd7cd2f9cff1e711d6d00f89d7c86010171c1cb6b1a92d0422fd1f88 0x1172604550a30bcd51cb075e0dfa28291ca1747fb217caebe6d2c8299cd60b67adfe9d61724a8c62189b85be2cb1be4f,
  .double 0xa29e6bbee925b8f55e3975aa1843e98da1da349009032027bc8624fb615e788920a100d8fb1e936b3a7cb67765c3179 0x944089bea7467e76cc332bdfba6888c2632f745fcab98df7a20e70da7c22e2a011854ae728d8962d6018dac63ae76e1,
  .double 0x367bffe5f36832284daf793d8a52fc8e1b6c92fd6864a61d3df1c08dad923bfb87860be345ffdf9b0c64ee5afef3bdf 0xa4ff924fde9a6efaa1055ea65ab024c6bdaf544f4eaea069fb4d24146d7daf469dcdda968198dc529bb915659c14993,
  .add 0xeb050e1ed547d2820009437dec6550ae5dc11554e83a29855f14711e69d3ec1234ce5c7ec18e2ad5af14d0f506b1ef5 0xcc4cb027ca02f851fbd87ad7bc0e1a5f83db5f28a54f2450a9a021bd3c7f658262da3ea998bcfecf07cd3e20c11fe2a,
  .double 0x2fdfa55d9053ce2ca3805377342ceb1b9911b0e14629dc578abcc32df66d78e28b0b38b32ff93492599e84590a083e3 0x144eff44ab67b47f7ce53c18b08f54d4acbb33799eb37c6d8d72b65dc4d5bd282acb90f97202bd8d86af7ba77ebb29fb,
  .double 0x6e6da972ebb471c494716edd6228f49a3ef472206db4ab788716404b04ccc8075823f3b017cea30219d42e63b626b80 0x139bbebbaa6affd99879a41c78e62286f19b039aa0ab7e20891ef314beb400a51f0ca24111aabfee9f54dd2f07aebe40,
  .add 0x1276df4218d2d064c09bcee827bb76516bb75654d45d43e45a284b0e995ba30ec1be3ce19809ff08c023c5968279ab91 0x15938386f7883a91a480d028609ca731958b4f3fcec4175749b0040cd7d14822f871e42bb0a2653c0bf811c083791b08,
  .double 0x19585fb6eb494129aa9701c4f7a90d43fe47e1d0e9555687271ff2540e14402d5b782e17b174642c2621dccfa40ec380 0x16dbb377127da88f8b914035604d828aa058ea1400a751083bd04b0c2966d473cd31d3b5ceebf6695b991b7c222c4053,
  .add 0x976c253c324e11dcd3975a82009d666fd2654658eeccb7bf1e862ba5627d9ee803c614cf3286ee7542ae960b48c58a8 0xd5945651dc3a6db45496cb1ab192cb1d025306262e66183ecb7ac0674857d043e317ec6a292087f5e9a48ff046edd9d,
  .double 0x19f44e3c1df045b64021bfcd60b71b2af13ab83e8fdae1b788a2a5a39b2f97763c3cb492bf57ffa83196141d25eb23e5 0x4e0056e21e86547f2c58789a7d57de4a4c9816964c4647811641e536f543906e39eee18c9ce34cac258ce2b020b6599,
  .add 0x4dc9da21e286fd4ac0dd181b63105d8a5e8d86793e1055e1419f24884740000049f5805c5a98a52acb80b5d53a87120 0x355864ac8e0d0b604c61cbba4e54bdf678fcb6f3ac7f268fa2595b292a82c392745c3c9f43bbda4df08db86ca249f40,
  .double 0x88e477ddc33d9e3628b756ff9ca2b9260ff2d0a5dd8a2139eaa55c5adcc7841dd2b9e05e1dd22b556f95b0fb356d2a3 0x7b128470336bd36904d95687b64450240f27caef22038b8561ab60e26ef2ef464ead8cf188cfd0f4bd6f00cd5b9cf0f,
  .add 0xf2c421e73da10a0e40d28b4fdacb613c3103ceef9a34abd02c3bed8867fcd497fe163f4ba8a79773991c48699df1fb5 0x4d0559768f27217a8623ab56b95bf288e2405849dc1628284abbec34117961db00eb0b9b4e5e3007468d536e90b386d,
  .double 0x144f92d6dfdc6898919704bb0642d74d64a0cd456ec283e4811e5cccf36338a205ca7fb1471954dc439aed1966d324fe 0xbdfb4df2c82e860b47889e50b06705c5cdf73f5efd93d9d686b9fa98e38fc0ba8ebd1778d875a75b703be4e48f5365c,
  .add 0xb17dcbc60d3576c61adb9e34e8ec240d55a83d65b03c5c92bc05d9eacaff4cab0390f85db76ace70ecd22ca29f3e5cd 0xd0d8d6dbd24fd0f8675405907b54b80b61d2e4dc4656724e3ed61ee43454ce46590b7a3a9eeb0f313f84f695138830c,
  .double 0xaa1f0a59834dcfb8cfa25ec3f2296129b101f5dd5d468d8f20d23b584c3df1ae5b84c6fa9856fa11e610dc66f952bfb 0x110b9fa83091bb0bf4e9bb2a299cfc4cc218524fe1198f6302bad2c36e166e597fcf0092018842a62add94841ef3efbc,
  .add 0xc3d544ef8343c2e5bc00601a35676507ac413a38e8c032206618580d9236f1bc339cf25944013c6f776907377eca9d1 0x3fc7d76f58e849188f1712d266d9d778b4734fcd116035b19fc078df9e9346c401274199b59a78d8a76e689784b9a5e,
  .double 0x375c59328700018a0a08004a0a31ae112da5837b275950dd7f5d49b8402eb365851cc60f63cc9abeab0400bb71bdb86 0xd466b4494ad2244ac25fc67cef9513b97c5b35999c4100b2cc7d1fbe735a2e22895fa8b3b2466c8d5de52cf0e5672f9,
  .add 0xda6121773fe673b80a3f203f3d83864de6f3dee89ccf1ee98ff1128159941a6a40b8f326cc6d806d0eb3e689dfd4c17 0x13d898e02b65641c85b4c1a576c183503329f4fac8082b955c3ffd7db8eddedbb311747a8a23e4ca5509dd0cba37a822,
  .double 0x65b7a09696e96cca129b18bf71e407b2a47b70a4e4b9735cc4d5377585acd69afd224b04132e519adda95cb97d92731 0x81db3db7248cd24469049ce1561b291ec0ea1a2cb79c7a128d973e761be9bf19e90adeec241533df4342a4a2561bed5,
  .add 0x6c5d0207762693d88d8c32acfa54f26e1a872fc2832635a030aedec240f2e1bbda2cf49b8c803566ffc8052e35a476e 0x142620e94d3f6a80251b75590c72bd7b0920b07e4a714f388131677c9cf8e2617d5e5e34e907a6e1f92ed3e052ced179,
  .double 0x187a91f4ee6e728289941eed551a1d7e7cc3a109b57fce448f3a9be9f939695899b892f43060e84b03f976e65fda9052 0x448f4ce72a17bbfe9c0181d07bc03ef32d5af2bfee39ddd6a5b01557ab334306a074f520d426f5a07211657a5fce798,
  .add 0x84c52a00e7ccc65e907de6627814e7b56413d0e4333ad7713a98fd9a9484256af071558b4b85cfbe8e64de8a5aae8e0 0x15c556310bd839ed2b2f071f355f859ad9bfb247925ddb390226f6621666ae3639683544c6e376801de80abd66aab5a5,
  .double 0xbb1922ceff6a465e505893659766d009832e8facc9d1414217a173daffd53df50f8c83eda952f7179106b0d97bfe8d9 0x454bf0192f46582009f1f403f9007a61b69c9c3f3b417bfd59053518076d1c55f4cedd0e984739725373619f38fa9a2,
  .add 0x135e19aa158984c804be6e9dd26915c13212b264b4d7b6ff1f98ab60092180e41425e8a3ad56fa064fe71bbeb751fba2 0x11762638378fe5a41140dbcffdd2a3a55d8f08c0f22fdef483353d58331341c8a947c98c96871cba1827ec57c9eed457,
  .double 0xcfd9049657fa65ebbc18ded98d032cd71e640d6cdedfce1f0bd364286409ccfcb5b29846564ca6a8ceb87cef369b772 0x61c886de40573e333713bb4764f8b01c1e1a7275fa07923d6abf900cf8085f251272012a43d3e9ee08df91263c0c591,
  .add 0x1802f01b7afb0eed3bdb0e5d758bad847d56c5747d531dd09d6bfd02b2f795a09ea774daf0c21eb11246896d79e81dfb 0xb9bcba352694e81e20384fab8f35d1e1538d5167b7016869073886de4ac2d650f7ed59e6ab195b22886bd6aba5b5f8,
  .double 0x137fd39d5a5b51c2da56838a774dc2b447c97d2d892b937776d7774e2c5c9754800faa2131731c332919fb0b17d87dd2 0x14f13fdcd9f0ad473480be11021fb849b2e05c46d2bc956738564bfe5e970d0932e8c0e71e4796720964a8d882befe9b,
  .add 0x539c650175ed475c827024c27bc65d672dc330b023f81d465bfad3dad6af74fce25346652ac639a32fd1ae58cd02c92 0x9f25aa3c6f94a0d0730b2dc0b937f4c15f300a0cc313c12667d19a328e4f17249ff8be199039f8239e6f306d33880f4,
  .double 0x581e52e7f12fd98460b619ca342df930d5b1dfe2cd885deeeef929876ba51704abf64f10d04f1846d5ba2ef166aa035 0x256ec30c3eaa4b2bd007af68d06a6e32bca742521122ce82438fc48ba0b56014ae1f31493206f5b0f810281e1ed6b24]

def g2OrderChain4 : List ChainStep2 := [
  .add 0xa95e685fef9aa12d4c8f27712e7de5043b391569afa9a0d55f7026c76dd753f5a3d9e2cd2ec3bc38db68474f6be5e8c 0x6dbf44b70f5bf927bd507d96172b49fc16b93c238b3343e168dfc8daa2ee4ce3c83b488a7e02772fedf691c45865df8,
  .double 0x2a29f502390c2c77f683bc94bdc94dd06a21d6ab3f1406658527bd290d0768ec3295d157ed71cb1de954a9a7c87dae 0x39a04e39c486384be83b0a8fc2f09e4d76827016f4bdc95560132835734c0c46d93ec7de542a4ae8da81f6907b07477,
  .add 0x3e3687c03297451057264ef8a96310e50f3e14c8f440bccdce8c7591c6fb3fd84f94c6df974b9824a69b54bd8bdacfe 0x488186124cfbf45b3af3a7f3c4449fd85711e93467022fcef1054ba7315c185f81b2dd64406b651daa24cd53ea8ac6a,
  .double 0x19d934199cbf74ea3b402c328adc8ffe03a0508f7b60cca9a357710811e45153a535529859d6ff19677c1448961f8205 0x57300f93e2f121b84c70559088bfffa5cce912b3755a5f7767ce557c8dd228f395157f3a77b64e7b94f92a67de1f531,
  .add 0x11534bca68a5d66858625e7d690bd5512ea54709d33136ba91aabd3dec693913e885c726d291b26f9f93aa91f04bf477 0xaf73667770a161366abbfd4c791b06888a2cc0f6089bef81fa12b91ee53d037d706b0f7243326236c3a7dc35c4d21c9,
  .double 0x3bbac86914bd36381e187075ded309f21c59a95e1b5506d81912170b084f0f3ab19360527d372498d9d6234ce69c0fb 0xc7ec0b89417eab80dc101f27f96c953181e10d736998e25730d2a10e74db57b4cd145f86629ebc44c201e996d1b95ee,
  .double 0x788590fc02b7c56740e112d2b9a02073aa49fd680a04d6f07ef28761a4313d7b063a68f482f035adfe45060dd3cdfed 0x142ca2cec52dbdc98e924e0a4b87d70312c0256dc44cb2920486a1aae7658c7faf6cfcf7a4c515f95b61cff4dfff5ba6,
  .double 0x15fbb42720296ea0fee0aa6daef49d1bb536c950d8fd7417830c7d83602a9cd8b47b7015ad01cf23880db400b3c5389e 0x11da3329d0d4bd0234f55ef000c1a53f635cf0e98450c8cc34bb58c92feccee32f9b75d4bddf3127836c6c11a31f7078,
  .add 0x1442de007704e75fab415f5cfafa25397b6cf245c307d4f33c5c706b20009695848b0374bd902afc5a98dccdae2c507d 0x62c2800a1b916e2583970aa559ed549688d73315be490eeeee816cf12325442a89e9713c59ca91a7da42270156d9294,
  .double 0x72737cf283db1ec5ab20db662994dc515dfa0099652149b77ad5ef36e3ea7ee35c95328e763e50e4eec463aa95afc0 0xc4200a47e011af42eeab1b19b70c9892d5255c59013f0cc21f13d8657d83b4d9f2f68679e404670de6607538a8204b8,
  .double 0x548dda06c9b2312074bf376269839135b97738de8613748bdde6dbd630a9a65285e7d9a8589a3210ea031b48c14ea67 0x94d0b3cd802e77097696565fe2ce532083ad19519f4a09a8081b75652ad991fda9b9dea9e9b30236e5aedac32670eb5,
  .add 0x175cbff01a5c9345917e737496264debdcc2ac1ec123a7092833f01859e7536f3a2aa46224184428258fed74b8b20cb3 0x16b56dbbc6cd22a9c1b966222a8a76444139af4b14252792fcb6a98757a8e20c8e43b2ba3bb52960deabc7093b4149dd,
  .double 0x8ff11899ea69ff53b43d2a3b5ffb959d6a0673954b37e5bc079e8540904f921dbaaf4275cd699f6b3cbfe80abbaf21d 0x11fdbf0980a3ae8595c219a878279026737a2866c6021a1f32435b686fadc5c2df16c737bb8bfd4d7b628d77733db1a9,
  .add 0x10833c0604798cccd00efd5f19972c98b008be30139586864269523d29243be2c365d7e25663790fbd4f1a743c0b9948 0x10934b2286cc6ca57dca5c12318f7276631477ecf893b1013fc53ef59a347556af8d2a28e385913fe68af25ee97435b6,
  .double 0x357a79e6f75cd8cc4bac74acbd9a28cc34d1f9fe7d5424f77a50e30f1c09c4fb863daf111c5cf4705a95b8cbc2ad4a5 0x5354b075836b352e5b097ade76630edbfd592478ce00a5685c062fa22038327b53b92a94829c21aa627f85b4733c408,
  .double 0x88a1808c6b95f614af515fc2599e3952489769ad6048dec19707e987867caf266e3acddaa4bd97bcd0897b5659a6cec 0x1527637e03e0594ea8b740f285c51f95795ce86a8a5b4a10094c970b809398d7ab0d968aed3ce5ab0d092f60095c605b,
  .add 0xf6c83ca1c6f42783859d5009156a45aacca6a6c28cfd427da04374fbc5cdfaae28f5d2e28fe2511e72f98c7017c2326 0xbcf523fdc2bd85ae66a87b4af07af89758102a6a6807bd976ef24e6a38469d5842e871117360c484a4ddc52ef151431,
  .double 0x242e9ba43d5ec52c705a1bcb3c46c981f01816521ee83765cc26faf77deef290f0d230e5b9b0fabb91da1804b03cbcc 0x1228eb96a0244929ae328c82af2d08aefe7489d5591a14cb0742beb9731e5850a22c628cec51765418f5997a8da4235c,
  .add 0x14491fa0933c6a8154b98ef47ad82b95ad23a0cd1f0996f3eb1090c7ab1cb99f20be89c4dbd652af99267ea2dc1cc527 0x14926ccbffebc146285026d0c46a4c6001138aa29316ce5453af83bf8e35acb6c92f09a5d8a7992d1bb6aa8fe8531651,
  .double 0x5ba10bdd061b420e8c32e1de490d35efe761b5826171463aa1357ea60f805517ea23fc71c43ef3cd103628bfb8b2f37 0x15b915635b13824e0bbd1288263a7776ca3739207bb1c5d5799d0effc69c136e50d5b10f6be4efeed1cb0a7aeade51b6,
  .add 0x18fc9fd64fbccc2c12cc3fb782b3e7fc0993c4748ae89e3940c45d4513dd05a41f12a194574656de366deb776eccaff7 0x23eb0ad320f3a7c8cb0da57832757d7a87a43424ddb03ca9a3db826fce75b431ddc3b35544a2f3e3fbf53503c795af,
  .double 0x60b7aa043e924c1fe2bea6e3ff89e360d43ee3b29122f1ed7dfed4471383d3338b76fd224f69a110867fe388214c29 0x15b0bbe07e6b8178116a922e63e41a6c7827f13258731dfc66dfd2a8833bf595d37035da7fb8265468e2048951987f44,
  .add 0xad3f419c09989f9ac93c94aa7dc645dd7e8862d569eed9e5a7d918131fedad8fb673b585bca299ced969bc802bb6580 0xf358a158aeb693ca2fe9e3b879de6e0463986aefc8444da25df393fcaa8aad4b685ee9202dd0425e7757b49cd5f7669,
  .double 0xf9a86c3b1a4f8b7fac0e74a3c9cdcc7121ac83237c72dbe7d215c515f296b63f1b7b18daa7e4e711fa31281bae4de75 0xbb14659eb7e2f130dba47b0e7bd12bb640fbc6759369e8541f539977c750a797b2e498bf6d2de3f019f1adc50b5a256,
  .add 0x17256ea8decc51c8d55efa77d5203b3203cf25e380921268299b67d25c187618d27a5c7824c382855dd439ad708dc9cf 0xff3c647a52e382fb3cec335b97ad0975cd74a424d2dbe56e97802f014aaabb0948194b7684a1dfc0fe139acdce26bad,
  .double 0x620c426620778e0d034666abff9b8adfedf2e9eda911ae65614e0d6d453846227005ab5879c7a4ec5d1a74afd8d7092 0xd65ccb710cb9391d22f58aaf05f51eea81686d86eda1d24d9cd8783ebc06b430cadd6d75c4b62948513722397052d2a,
  .add 0x1786c13313c3f98608c8d3a2edd74c023951f211d8fe0370089cc74fb1a535ae612ba644097704f7553c3c33fac946d1 0x4623a3bc36df2bfa2ff89e1ad9afb2976e473927971314be1390ad38b01dbae25204793ae13951f8a907a9d71fd6fa0,
  .double 0x11c7d113965137b0e96cc1ef19e23e26d324c180f5ef645f80569b85262a54edc619c59bd1104b6736bd2e6b63ca4cf7 0x168efbf8ee9ae0ea2cf74adcfcc460bbbb7b71e406d4885f3d14e45e01da6dce5836bde803cda34a814c8e5362defa49,
  .add 0x1581f6ba07133de8bf6c54fd495b01f4d205e7c0bed3387fd398175a8779d9b8e0127b42fd0aed6c34c2456f9672948a 0xf00268011eac40cceea289e54e32a3c621022afbcec5bd5823189624fd07a45f8cd7f93ce4e70a0172b08b61be3d08f,
  .double 0x1a15f193000b7046597f18355429cf7e4e1ec91db56fa5cdd9814cbe5003ccdf0eb38cdee57b3ec8c349b1b006caa90 0x11597d6e687aac69b60302a302ca13813e50936efb5c2ddb1b2834e90c6e240befddec205002e68cace0698a9d93734,
  .add 0xe9437eb69a466cf615b909d808b57167d0cfbc5c715dab3bbcde691dcbf2b2d3d2f9a9fd66379c7263b4d196029b285 0x13ea1b4dd1a05d2986627bf64765407cbf2706d6f58286e867e241b605bdca4fbeaed77457e414e9da0beaaa0997543e,
  .double 0x19e57d45d9a7943027d59e048189492e3aed562b91394fd8552797b66685da304eb9c6f3bfdd10b01c5892742e2c3bba 0xfde07a9c4a546208485c9a6822bcf271f75f4fc354caf67b55b3dd5fde28ee0867cd283e6cb5d2a8fd2253ff4bd4ba6,
  .add 0x133935fc5bd65836271f7f368d54f917603dcb265790fcdf21ad492e21b7138cc0b7894a7e049d3e39c4bac22a7fcae1 0x1315b34228aa00ca619d55f7fda0d45b2d47d06b8fba5055b3179ac66414f0eede2aae259aa81c3b6278b2e20ba409fd,
  .double 0xa7d34f147c020567bb07a9f63d693ee4af8ddc7d7c518fd6c879a027dfc2cd2f88cfd7ac21c45c9b3e52e688348bb61 0x19188cd5f4231977d82e09a5d75398e8643a33df74514a7e527e1a4e4b02393716369aae716244e7d65fd7585d659101,
  .double 0x19235d8fb85c52578d5440a21a313b0dfc4224db922f7768ade8884e372406468f37af29990f7664a0bb76735e5c61cb 0x17365b6e1c386bc19fdc40ddd454ea2e0299fe496f93b2f885dfadd46f2091c6f26c3667367eebb245dc1d4d17ab7821,
  .add 0x1667a5aef0a79bfc44f720a3d5f26cd0db515b51e748c053f5b6c615105100c09af28c5566020375158e4bbf39bc15ab 0x17edd8a4423743aca4d90bdd0b818dca1be33dcabb219a2fc6fbf97f4671d2f1e9f5b8302bddc75af730d624ef9697e,
  .double 0x7c76b33b264faa88e23d3c856cffec4afb6160859f94acfbec1897f6b42770da0daf8c17e3bb5a0d95cdb490055519b 0x1359058084d61e2d737c9824ff9386b0fd6bf4280efccccfbe428e43ef276d7e9c2b0db05fbc25bbeb479a958feaf1ed,
  .add 0x12d42da085b33f9a1291ba8b3c601187e137ed5ea9673270efdc608c400fe547708af605b4566f24298432f8efd1bb3c 0xe2741e5d453115a10e794a0117cb9d2e159e428c450894dfe2e5c9285005528350f1dcd48ccaff7ef42c44269b88bce,
  .double 0x1b0f5e17c0af76db46321bea6b91a19855bdbbd5f5ece775eddda10543cdcf59e194cf2a88a284857a5890929d9d2e1 0xc5dc324d193d0ae57b9f3d4ecfec782e080e4b0669755d098ad4394c29041ee311fb35429d1237e4a788b8e2e8219df,
  .add 0xc410aeca05953c4922a35115ae057c430a4ed2549a4066eb3aea24d6cd020a18db36c57b31e46852996e7c12d137d78 0xff9b1ef15843a29cbd09ac01a6d090a1f04839c18a4267dccbfb3ed29096d4173c5cb3694fe00db4e6906e6997f5889,
  .double 0x17257541aaa6cb24dfbc08d387d7007d74f152b2179209571224ac23427c10fa4615d7612995d34eacf963f63b397abe 0x6e764ddcfaacaf537052cd93c7560a25aa4c6a7e1c2654b7ec572e14f3e5bc4882200e841f8831ed612332a03839690,
  .add 0x4d7d1e316ff8b1d2938dd38a2ce754a6fbdc66b02c01e6ed11734149039bac97ed96aa0aab2a23a04ce40daa3b0c8dd 0x17f188bb8a812b11d3f4c88e9a0eed9d8d56714da737ccee5238df0b615e4dfec5142e6a26a31b2b992499ee87b3e1e7,
  .double 0x107f34f0783c1775f8a8af25a217eebc7c339a74dec4607bc1c4662c66e17770dec4d68b9b6d31e4983062f7a687a532 0x17ad0390fc6e5a480e47c4bc3db4335c97c68d8adf405be11400fd63b39f1d80ddd3aab430ae858d4db4e3c44bdb985,
  .add 0x118e24ba0ce6c12bbf1857719700b849432c2027163fa8ce8f93932b0b070126490e76cc9ae0722210dcabd7896dff53 0x11df3abfc7237ee41533b2e2c9c2f342b8e2029b5890d62643d59c90dc1590d83e4b07747de02af9e3f01514c22424ea,
  .double 0x3ba05298c6f796f36cfa9b7610a50fcb00eb906a20b43d39a4012987000586ef714620d0088cdd79bab070237a99823 0xb81e5fce7a1ad888357765b572aca153448e381fa23a3b03d04632ea2040ce275ac1b912e25455301cf76eaa016584c,
  .add 0x17da8906c8e3d89fbf6a61036a97c880e4867cb92fc8b0e8a23a1493f672fe4079ea80fb10b220045f430c32dd305a1d 0x10402049ba03e59ae225a87bd7e2fac34ea14877cb126bcc6fffdc6a2ca3ea8ac70afbe112b4a754b730f0038d1e656a,
  .double 0x3b3ef1f8ba76ae547a9a44b2b3004d3922c86ca088a6930e46f889a86606c956b4f0b6f4b24a74e5a7fd950579e6e83 0x8314edd891218446da4e723139ab2338f7bda6a49e1fd997873097947266fa20c453242004a7562bdddafbe36c421df,
  .add 0x6381265ce41ea86e033e14d4376a9b19363875395f558950cc5285c18dae7d23de57e8630dab9efd6bc8c1c8b2e28b9 0xe5aa13d0c76abb1279067235b13de3c7d4e04e2f9d19e30d5aa5af8c379ca68d192d59854631dfad77cd06104e249f1,
  .double 0x16ba09082e60338542bba5c8475f1b0d4859518d1a67606b7733d164588456333a67b9347ed13ac6e8d42f2524c6d71d 0x747c63e1b73a49cffbad3a63f7436dbe9d54b76bf2f206720e67e94715bda7d0c1501163769cfeb01fbef4a80406f0,
  .add 0x796a54eeaf36bc8510d23b90a422b95110b30b92597e4250b223b34495d76a1d4dec7f036f1a3995a7504f54f225ebe 0x35ab25b387def70b8528a9565c1d0ffa72dc09997cf8c3f6bba145c3578bdf2a746f41c8434cfd4c1f9b671012c5241,
  .double 0x3ed1d723fd0cf02f1a1f851be691cc6889299dac002fc0372c91f0ccb827ba6f021b6f23fe54abb66d2b461481ff106 0x11eb294d9fcc2822b1d063f4124fd1e6f1a40bfe5a0c9bf1f53f712af4c86322b8e586a87ed5a44faf4c3f9036652c43,
  .add 0x160c909bbff1da2f1b9fa0563d24167067f02c60ad82d9e0a503168f47ac84b71dad5a233d81435fe59f003f17f1d67 0x1439fb34e11e413b54a2ff00df9f3215319c285197e9021dbf0575d030fd8c7645c8fa153d689f89420ec16ffba251b5,
  .double 0x989ab008c75290fa538d53626bbfaf374c4517c849ce4f3270544842e162ede437b487793e01e78a2750c4c286cd231 0x2a9f397a4468b9cd2136d1f41b7fe80a1433b6e4a258bf23ae80f50550158a2ca695124db7a0f7363450d3a3ca02a94,
  .add 0x79610b86afdae9f36de8ed06f3a189ef4694ed8ad9965e2397007d4d56d83589a69d8794f314c2fd9a075da10f99410 0x13a9d66f1d014196665427b462ed6c283cfe2dee43175095d571e14818682642a69f078037cdf9eceb30f48135886abd,
  .double 0xadb1757563bf1e187fb73300ff151c4ce0547fdcf77aeae8352a6dcd4dccd41393897ae9cbcb482e08ae9370a79b5c7 0x510f3545175f43ad7a71a23edee2d0fefdeeaa341eec390a4066cacf5ff3173f9dec4c02b397f7789226732a859dc01,
  .add 0x68f20ee164f8bbe30105324670363b490cb3b77941944ba7969325337663f4955d3e75932d4937e3ab46e4f609a854a 0x1750d48d4ba28967c6478baaa88e896a9acc5460dec446e1a78fe23e140931a89f20d94bb4b6ae7438d19c39bc3118c5,
  .double 0x5665f1e1bd40d3b0db58daefc315f75b43379c23df0a2448c586b0a215a0d03e4c1498030ffc03755296d89e33f3c03 0x46497c637ee0faeefca18e22726525b53a97aecaee7a5480097f29ae53d91f3ff0b42df5b14d14768952df7236568fd,
  .add 0x56748d200ca8e273bcfabf416bf8d0997379438c935ba32f95dc32f92f0ad91567ab29c61626f9e41cc45060d76681c 0xc0cb6d14fc2e52d262e15dbf3d6e2ada2010f601a5f424252f3fb09c34045ca17379cceb25d8bb1c28d90053064cb31,
  .double 0x8dd442410ab80d6f0910e5e753353b66d928946a8484cafb45309c764515efdbefda69b3b216741d53f627afe88d18d 0x19e74cf53d6243693f6573073a67d54ad44b3ddcde585f61eb227aa852e0ded969cb3fb767b5bf017bee04d2f4d413de,
  .add 0x181c8f361c4429a1d22cce435962968dc362d99ee8f1b8521febd9b6dc654d20db6b7b58d94307ad595228f233516f02 0x19956d124726d3e4b020e33e924704c470f362104cb5996fc6c56169c0dbce3642684a6170cb846f0846c8031d5450d2,
  .double 0x774be3200fcb9cd79df64bd89bd78cb4be63311db9e63271b5e8444a97dc9e60c909cd6219f8204de727f0a6d6ba2a8 0x174e0b99514e474ac3c4026cdd938062c786e23173b7ef36ef3ae410a54dd9181024df4acfb56d7203e025a34a8e928e,
  .add 0xac2a6ffea45adc5382dddfac7160e757d454f84f74935702a38ce509938aae88483c99e42d5b9bb2181a0de90c27a50 0x29958a5aaab4a7bea807df2fcf9dcb0674ae9db07c4d42ef6bb592a7f59575bc0680378d5a997cf529778ef5df80417,
  .double 0x1600a5f8ea7e0ea41c1ce564f53a28655d1717d389172b86095115321e1be7c21a3a7071b50e7eb13b377420014e093b 0x5474d32755a07ab50e2d9e92ec81ff887648dbf3d7a8450e53090165a52e02d56a4b94ba1f453a8bfb5bddcd79d5a92,
  .add 0x184780f696289a57ecd0fea720bb5e455a26612baad832ca8d7841151f581a13a45182fd07a2b6e8b14347db4e3d4e8a 0x531943b24d3b65f980afbe59cb65a36cef43a2236ed74ea140a5479b613d1de1a1612a5aaba1746f339b754eb2ad981]

def g2OrderChain5 : List ChainStep2 := [
  .double 0xaf2ab69cc8f2d328762f4b95e742eb0b6970256fb0463d497ce2cfbda3e749bb9b00c74a741421a639796b2a2d88633 0x137808dbfd6e7086a12aebeca5d5ad96b714b73932f4fab50714d4985d5600fcfcd8e7eba01e24c28775a8e58e2dbd3f,
  .add 0x7fbbea44cfdb248bc86faf23357f71a6e7efee0c562a28b48ae1913e3f54ef8026d10dd9e64a37721c7389bca5f984d 0xf481816c074a0e84c682b33691d70762090d985afe14eba3e1b528919518718772bb412dad7f32e1b52adb92238e8d3,
  .double 0xe1da2a27c7234eb1aba143c3851d03cde81d1e44ea2bf7b311cbc188fbba84c64dedc34c0ada0a85727fc882347c68f 0xbe11bb63fbe7fcbc475a4b02964cc5a8da0c73fb976a0e432c9bed5e9b4662162602cb410078c69b6b5e4fbdce40b83,
  .add 0x11332828e76c846ea7b6aedda05662004410117687e35955c3ccf382668e9c4f554d47e363bf8da509c8a65a27394b93 0x17a3065a5cbaf411a5cf41be6026c01afd4cbebdd5aaa3fc9f78269cb804bbaa75c05d9c4422735ada06989c4110ecd6,
  .double 0xc0f8e0f38fdfdf8ca6a9231b07ba476e21f5fa8c8478a265ba307b821d5b3ae3655d2bf73ddb0e4c2e84b423e6e40c2 0x110ad75e1ff9f4b078d6c787ce470a815873254af4e97f94b2e9979ca2becf0c4ac0629c64b5065bfc45536cdbab93fc,
  .add 0x14638fee8309160209b8a002bb47cd3fe3e7e49708a718adfe55e33321fb4106445b6a79390cd35f5fe61aafcda5ce03 0x258a4ae7bda1a7b92fdabca48ef557db91ff3fa00ac937c8a96a72fb5b759f6a97b5dde0e6ec0168767943ea4402dd3,
  .double 0xbfd4dd158062038d7aee299c338caab687165d5f8ff84712bc8ebf25aa6575c71ea1e49db75c89d839a5b480f40db6d 0x17f941f7536db2e0955d0abf7d826fca2d823fe97a312988c1c3e850ddd82b8681f513c7563d88edd6d6fde276f5558b,
  .add 0x44b114a62047deaef2f6347d311e870c8fea04f6e2b71ef864f8566bb60fd779900b6f9a43c248f67a13aefbf49cd46 0x5a8d88a84ed80bdaf08b0398ea09d1d7be752a026f272b3385f9404b49520dfaedd4f6006f74630cfa20c3d4b9b31a3,
  .double 0x63969f06fd4fa6f5417e743a77aaee107d3074d917720c7ec0c6a4542a07aec23b959346f0a44f26c8791f56ad6fd54 0x7e7ab60a64e6ea9942d1f339d4def93b68fe491958d982f4efbde4c6663bf0256f4c5567dab2d0d41dbbcfdb9dc1527,
  .add 0xfa6630d2beb25c0751f3d3a0985f1f647151e5a0466486186b9d05e0b24e51217a4b3301e6b8137f3840287aecde881 0x15ae38f5f7eccc7442b95d17d19a00b3f90c0cd5f3e61e0d12f1c0036f0d4ca551813eddbce72193dbc8820b22f758cd,
  .double 0xc95a35378962ef28f23408e8dd68bebed27597ae16d565b60f4bac90fe6d591fbd97a873466763cfff447001d735c2e 0x14ef906858039d5df7e657e3d67ee2fb44793d60a9ae8dafb5b7b3629327c2d45e3eabc53796ba4e246dd6e269a19035,
  .add 0x1069a8d7a91c86385121098595d40fc057716c1df60e8bc447ba17a1a70983f34f109ab6963bfbaa41244b2df3113e96 0x1812e4153ca7ec8e1548b8fad9a294a8ef94859d40fb35310856016ee51d16bd2bbdce0d2a178857a6358a544bd26316,
  .double 0xf3f3d271b92f55000327e958c2dc32daf6b03a5f6a8cedb64e0ec737692dc3010b451a1273111b8c588b3049066f293 0x182ff1d07903310f700e624a1d6d4c6fba3ca1e7bc1d55a649d3ba9c4d867fea8b073993415885362cd9f9eed16051cb,
  .add 0x329d818dfe817314865f0f080408c6a11e6a6a6141e218e4ce744670753ad71dd82c745a1e83bbeddb43f7be2008667 0xf0ed097ad8987cb374ec17498299a1aa095bb954d9a3afd40303ec3ed34b689bcb85cb118875adc0c8ee680ef6818af,
  .double 0x779de8f00c6081f7e240283e9e9d65caf1402f81bd9b03b154c5fc7c4ed0ec4277ff2913a316f3bd0c25b183d9fac8b 0x150f3f401b5fa6d0b580d6a94b9e0febbdaf5c8aed6bf5e3c6bbb4291ed530c661e6fb3f8363dce362fe8b0437157866,
  .add 0x1382d66e401d9d6295674eef905756ea52cb7780565bfe345a7ea60b9cf86f3d5e3aee926e94138141a9abe56774b285 0x9534c3e918a07a0c84d2aa0b658dcbd15492fb01dfd8115b55549ee012249ecc33dbaec6d5b62ea1484515a9abe582c,
  .double 0x171a01b6fdd518994967f4cf96eb542ec61ac93ba351c205f04d67ab85036abc2fdba21c2b58b18e8904538781e16538 0x77d75168de718d5708d3067527bad47f76c1424f338fbdd313601722246030ba2a242b5e562271045fbf6c56235d647,
  .add 0x61d10ed15c43e6fe8f501f0866138d6fa98993345825bc31fb0e6a336bebf79b2514e477b6a217971773b8e8b2df82e 0x11dbb1630664f1eef7a2d3721115fa749587ff439018b666799a2e2b9d8fec130f6c4fe417de7c502d01ade781f37d71,
  .double 0xacea6b188d54feb8ecddb6c3a03559ced11911152d20019c63ce389a21a22e9f6917df93e37af598f2f1eabd9881417 0x5def27facfb9f6a6944e4eb789d0b3cec2b0fe0539e40700070522c430c3ad3821e82ab967448e9c0e8f6ff1232b140,
  .add 0x13626e5c691ab9a4f23b85b573f617e23258404aa8f17b883b49d4737190f99ea77f0c41b9494bc4b21ee9c823e14d3e 0x1474a6bf7eca977e96423620d5be48f5e69d5858742621ce054a6fae6f22ce7570e7fa0e9efd3c3910cfec9f26285b43,
  .double 0xca5fbdad04c54a753a842532102bb9c654d719b13452a8701bdce64fdb9d941243e071c1b76ea510320fde1efe78ee1 0xfe9fdd20825d5921b39bc40d40164682ecb5a09c188f980431f673a0c12ef2fc0f5203d8af2ed820f20f88da2e6aba,
  .add 0x14e993d9b68822a74e64d55b8fb6df08d2b8be466768dbf825c839b9a0be0748c4c5ca9336dbe7b024db339a85c604a0 0x17d79e580e76e1ff4bd53b7b8e8ee26af3db1e26c25eaaf71b451411b80794f403e34fe0d08458cea37b33e98c166c85,
  .double 0x13e9f3d36fe5ccd0b0959b477a56fc836ba9bd293c3bc7cb9adc6b3921307d437bb7fa127e6b7ae87992717862a4f1b5 0x1060b4a775d75cdd6b5654b841a10b8b939eea4a9345fa897ef648dc74d02c778d51471d0ae502ad113dad838410112b,
  .add 0x6eedfeefae0548f9ee4fe06281aaef530f64e1e1d9e387717b5d8e601a4768f050f9f7b3a35108005ba5f7c21ba9ee3 0x2783e9e72785819e0b7fefdc62fb72e4c8dbc8426744acd8bab4d880840ff8cb843bb10987163444e79d2f6e7ac525e,
  .double 0xf98752ba2a32271daa93de1239b2d89a720d0973e3823427010acfdf681468d9c5d6e0b32be998ccc67575b77b6de53 0x59c45f8517fdbf595aec2827537dd556a58bf7a5caf17d4e193099d574d71f020c65d9cbe50d8bc320db45268f92451,
  .add 0x7e4a10508e623718adcf1f6ace467b596c55c78f8cb767500c16f9e19c4b77223915863cef93663141cf4da4f9c327e 0x31a581c623a6b4e96902141bdcd4802be7204babc7316e46c51a304e2281aa64a0fb7e2286a211ae789681b2ce56093,
  .double 0x109230d32fac2df1fdd97e33b8eb32f1a843bf61499e4ddc8d309be3b196e36d2ead1afa8fa63b353cab01967c3f3940 0x976b96eb6f570274e5d1a179b802135b1139a571a7936b91816bdb4f58a3161713b628efb8bbbda5846a67f406084d1,
  .add 0xbc7af6b44639844292395c42a00a5a385d2104c181fdcfec3393298ac35b14d3881038ff067ffcef1d4a0ea6f62041f 0xce571efa953fa74c380f53f55033d4c97f882c6d570a821582e55caa20b88594209a451f9afad33d44b01afea78cc6b,
  .double 0xdb8fd1506cc235e1ae7de77f26962909eaa12b751323e5a43fabb37895881fd8a069b9204b8f34ded1cbc4dfc2d506d 0x15221b6a1c7ff0d7677985dc32007491ac101d0f3c6937140e3c28b40e5366166c841cc6ec9e4030634b89dce2033074,
  .add 0x53c0ed8051bf1762e64539307eb079184b32dba99e6a4054d3b4dd6f582270dd67cbb4115b16b4d5a229c575ac3f793 0x19570dda96817b2569147e453203bb8c45704382b8194d68cd493a0b16a6d4e36a756ab60c5b6806b18d71b655fbc0e3,
  .double 0x180107289c9be7240400cd0af7fef7732e2f121c890b5d4acee7a819fae4553b42872fbb67da1a62e249c7ff503ce4c1 0x930e88bbc241c65f25cdaf7553bb12f6d7a4b6cf5d2d33ebd37dc916b2bb0f7b2ef96f0850cf62a5273c8aa518189dc,
  .add 0x1975e789048c866b1fb0fb48e6e6f148b3fc622d757f5706b00b2fbcd9f6e5b7f478d53816c7280c9bfc582acf239dbb 0x15c4d155c14c7b445db3b2f017ab5fda04f470104b040466736635690941ce1628d64394a42a1441aefb241db467f7c9,
  .double 0x152802451f6c9d211f931cf7ece868894718ac399cc20e46088bcf052bac273d600be2461cb8a66754bd7786b0d2a261 0x17217c3e890fed88257c0d799db0ed14012c4a23e7cd78076a3afea81948fe3ce838cec6e6ac00a06548672ed7f7caaa,
  .add 0x1007f3aa48222908a9b4ed37a885ab0f69a04a56903106ddddf7ccbaacf94e3f8715456c93f4b1ec30f9d9731b32c5bd 0x1c7c6c02f74b240c7194ae3b40d83c68d07e2a7b5ec41cecf7565c3942633d270870c5c62be05dc2773b8248796a538,
  .double 0xf93cdd5382d28b5dd1c03ea78445e7c957e2c3693602ae6b3a3d530c8fd96e31c23147d97aabf01e542985346ca8b 0x1019c49ec7e4e10fbedd598e44f7d9268e9ae82c21c5f84d79ccc4c65f456a66d2c6ad5b846f803dbffd696fbe1b7c01,
  .double 0x19f86785d043fc87a91900db3ba701cea786180bf5afde1705aee15dde00d1e3ba90c5faddb805c70c89aa8958c58a9c 0x64b86cb006044f935c69432e81e72bf8e37c8a65f38e5f81fb03c772d24e15186369cf7b80a4b516f639665d28fa232,
  .double 0x69387d186029415f8a6d423fcb11ff2ae162dd436e01056e80e47f5f0bdbd9470d2c81fd2d266eadbc95875519569c2 0x1536b522e96be68e7084ec36649de83d8fcd88e7b0c8b910852cd041836ab352b9d9acc2f5c02478b352b5219551e273,
  .double 0x13575128c3795f89dd180fb9d4c7ccc6fff0b5beb3d1a1aba0720843048039273ec969c2d9b6c4ed9f4fef27f6deb56c 0x12f3b7f6047fcab95b97735a2967a00f5bdcdaa77f193f4561fd3e88f96b358b330fd5e3b2c862e3cf8e5f8bb615f45f,
  .double 0x898921dda42fe980909633e9ccd8c2ce13abecb8976fe5f99b3642fce84ba51c97076ad5459797d97917ecf4fe063e3 0x46e0a995a2f2da4249c32e556eea21b8234f4da7fe44211d8214fd079adde4f1a80ff918b3cd576593c8cc0358e9dae,
  .double 0x178841d1c4ad9a6356562516385132c24d27df5f909d9b1376247445f1d568f184b52e8f029f99bcaeee368b51cd61ef 0x3be81787107f3a9a158b4915291cdbf5b31d64b04f0461f7e523f93b6f71285eba1300c627a7d424a3754fe27c34865,
  .double 0x1466838b4bbc84707ad842d9647776a2490c2e6673720fa5f2ea498cd2a5ae4b86ea1e0ec4ebca5fd2a20a2403ddf691 0x90e90b6f8a4f575b0f7fe52e2ee3e88d9af45143876a2b4263c2c2fcdd8b1ba3ea5a671e1150df75f7d8a90d7542451,
  .double 0xd5dd9b54f8c6e765ef8167f69c5b24fc450aa82f3d6857407ddb62878f1af2ad25a127d73178a094b8c91818ffb3c75 0xc140d0d581fe79a922b5e729c0945b7e4b9a08cf7f52ae583095502e876913375b737db016decb4dd70081dc466a4e4,
  .double 0x166f64ede1189b8ede6e35d62d331424f38cd6dd7a3d94438a76fbe494343efe1906ebfbb411556a6f39bf950ac041db 0x18df38e23f98951c50c530467d196f230ac7f2fd5cce9ba1ec2e37473417029abfa85bd9de118284a925f5851af9d8fd,
  .double 0x10b3f0392a41397726f8d481e1578463196dafe373d8f2e286f5fb7835389eafdba14b25af4828a55ff1b7f1c6b577af 0x27eb629a921984f2dd52d2667dc82123448ee8ef28fd2ca147161b95d31f01066dae3078e24be1a47b4d5e841dec5e2,
  .double 0xcd9d3677f4c38126fc377cb42714e8cbea3f714c18357fa2a9976ac73b9e41e546931ed1ea7db17b939bcdf365d3f5f 0x14582f1fd404fd0ff5969fe02f6fe7d6e07fcb7beecd9493c80f891e0ecf96fe4d8499ea08b63f00eff166a92587029c,
  .double 0xe2f3dda7cf8ac0d322b289b92f92645aebb8d509b0ee2685faa92529ae7ccc60d3cb17463934be18e767df14478e9a7 0x14a1deafbbf593ee4d3449ed7787476b106a2abe734c66745222ccfc338e24f5821df575d2b79ca708de006e6c9e0c18,
  .double 0x11b59b683a48468c1f709b605477d10f6607336af0d7730766d3c8fb052198ea9c7be0fc53a9b9e6892c2e8e8a62807e 0x160fc5d46fb67bf47d9fbf0c4886ff93765f567f7f3df311133ccb08a3b0ed9501f80ba1db4696dbb3d8f7aa044d27b8,
  .double 0x1785bf305ba92f667729262869b84b54b3a7b476574c784d30f2e11fe8d831ce7927a5a3d258060d1c72e5d3f2d1e0fe 0x9a04c07860a30a99d3e8fadf0967b03eaa13f69fab246a9318fb085253d2c074b6b50f57f47a034313cfee87aa86363,
  .double 0xbb580f1d038ad037e219093317f349ec3b36a2f62b4980664084f9854a22a9d9e4d22b46c96c0b759d2a3e65847d871 0x6cadabe601de99e471afe40b0724da2bd9427a61751b592e08e494e4582f231e75c858a51ed1de7e350742005f1d4c0,
  .double 0x15f3719d6c056f938a026211054e8aa52341ca9fa3523752a74ef8ba0d06737a732debe8142dbf89b0c56397f911210a 0x61a42a368b48225d221cb5cd6ad1655130d3a58f3be7a0272909d13b9c81a79854867254ee0790b396aed5adc0fffe3,
  .double 0x16e185e4dca094d54b5b7b4c9ece94fca6e01a82308a23943bc953f21e53554194c7223ac4c870335d0363537cbaba8d 0x170b90cd8a16c9213cb3ab3a71cd94a26a57e0f7b1841708c4da1ff7c9b2c1236fa8d74349b97a9d9fc770e0e9a77ed4,
  .double 0x124c140588a2f6eb79b11c31893e17656df9c80f61ae1e97dc9d9bf2ce161d46ac7b24cc68576609109ba5cb4449670c 0x13712b98bd13f54ab34a9b5d0aad1c6d2191c44fac3f5476945e8a0f46f77d25881c6125d82fd9d3c05cc368d41f6aad,
  .double 0x110c35ebc567564c961acdb46b5af19c66aca905c9d4fdc997713fdc2d6dbb2191b69e94788628ccf588966027512a00 0x77df618bbb6e0f33de27c8f6607b636692518b3b90110588b72a60dfbd349a8812b009d8065091f5b7f3bb84ab0e8db,
  .double 0x6d3fe2088eef2d47590391bd32051d98393efe45f389804c227d77d6a4a4165cd82eb3c019c8cf53122a14d00606325 0x1778652fed001dec03119811903c8a8b5a780fa6f8129756d02fbe76e503665bc86947aa5e511bd8201169516d06b75d,
  .double 0xe07ce9f968f6ce4e167a8f906acd7afce0f32656a5f07157042d4a1aeeaa769615b88fd225b86299fb616575202c4ed 0x3e76bfcff7eeda03a59736ef6a5bbfc444d499c2c0f4ae0235a708d0bcb674d5ff76c95da10a1b3738f39939eee1095,
  .double 0x328df167428c3aeb0e234c5baf0cb9d222166b8f5aaec5aafeb6e85c0b215f0d5e3a9570d42cbb166bb035f310f6db9 0x134402c8d582e33bc7e62e79ec1f8b69f225a58d2bbb5f74c54e1c174cec3e7f6a960be91266ee905cfc571ce646af1c,
  .double 0x1808efef278fb7a42e076a681ba753a76d7124fb03d97e9731ea74d850867a59e7a87b9e42f6f05e0a36f4ab2e8f18af 0x93fc566d83e1b13e96af95c60da5ba1b70342305a94fc66ec3c1ad0d4f4c1ad06497f4f007daf92eaa29d77d2328bd0,
  .double 0x1786f6d2550d56332f013cf7cb815cf93568db5dc101015318bed72345d483b7fea62a47beba391638ac5e85a6d0abb0 0x18b4999c9641f994f8c6cd56885d8837432e64be359ec8514c647df88ab7c561431076274c8b16971917a9f64483dabf,
  .double 0x29c7a1d73837bba49b82d7ffd3a9df9e023f4bf1e884d0abef5b2f13cad524a9edf4087ce773974c2d9b23b2be28fe1 0xf3fca005f3611ff97b63568072fc50c8fb70a244e5171fe0b6744269e95f8dd343eb8ef7f5751b5187a57d33067900d,
  .double 0xe2c20fe4197a8b7cff5c2765580ce240ec6d82dbb04812d804a28c0c9204f09e6194372f3dac6fc116c5b337560c2cd 0x17d914a17135d56295cb88cac5095abbd9347936d1729960591faf03bd2d2521a1d6009c8d56ebc51dc5c0feceb750ab,
  .double 0x196dfe6358b357ac4bf4882a804fec166e0926a41d6d5a340d916bbeac3564e5ea94cdf21342601160563f650dbf1797 0xc8fe8a54c81db31fd9e73177f2bb8a4089418162eb4c8c3af148753a73d5d0591cee6d4d3c95b37d44016d77730f172,
  .double 0x956ff5fd30ac6a8f4f5f54abb955e8efa676d76f08a318551dbd6135550a8b56793e502848693cc2b772d901f6de5ad 0x16847d3200af037d04f656e91cb6752cfdb735326b11db4f7a85a78705bfd7c76d1a04ccf82aac471799eb48a4b9b299,
  .double 0x12cfccce32efd92e036afbd5c539d2929f7e6f43c5dac24ba898813d0525ee855f5456e2e9a57cc26e904b2d79bffeda 0x37fa5c0374d2f00fb85bcd2ec24c7a1bd57fbb0571cb8e39c2b6929ea28b48246db21793680974d8fa37a5f6ea45382,
  .double 0x73c2e40a779b9127a3ed4ab9ad36975272cb9168364e71badcf8545d312bcadc2817e3118a5485802e8ecda398491d9 0x44d9ecd0dbd68edcd9f3c25daf2c4519bd2eeaa179cd9b441785602960b67021d4918a9ce643e29a74acfa2402bbd2d]

def g2OrderChain6 : List ChainStep2 := [
  .double 0xdca4495dd6f638865d50de70362048a6d85fa8c5ef9125995b16155843607bd450ee0711280f6bb38f14ac21fc55c84 0x4781445749d58fefe485c0bac2f991e992ff2a2e5af008b2b70da1aed8a78b4464ce9723fda224bec881d2a49717a64,
  .double 0x1945999110beaa110a840b8ae2edf362ad23795f745a10dc052e4963d287c0f5e9dec01ff2182a04f47976ec6fb80665 0x10c3c1529f0182c316ea4e53a1865ab4992ca4058175f75eae170b1b0f7e3b5b81ff9b707995c0ca28943d351b712ad0]

def g2OrderChain : List ChainStep2 :=
  g2OrderChain0 ++ g2OrderChain1 ++ g2OrderChain2 ++ g2OrderChain3 ++ g2OrderChain4 ++ g2OrderChain5 ++ g2OrderChain6

def cofactorChain0 : List ChainStep2 := [
  .double 0x131d5ec3d0f80eb222d7f5e830e58962bc1e2d1b821e4cb7ba11523e4bb0904b06b221509bb8bd4932fe6a800772a0db 0x125aed0021a253766f2f44d6d41f52a50a175c03e2c0d4b8340a946175b2f364a433ba46b02ec0942c145cfec6a37ab6,
  .double 0x192071b50282910fb033de6eea980d5ce5968346d7df765570855689c8e562e29b913f444d7ae74a56cffb184c4cf39e 0x1e2ebd91e1ba1289486efd9fdff6242c61ebeca6580b9a4cc38f074087d70b44d88297ef5d077cf6e3dbcb2061570de,
  .double 0x198b6766b4efad1129822d2c5ba2bd17aaa054cb81c3fea9dd4b9d5c0de22a89f6de748a927ac921c628e9c3ddc4a6a1 0x10cc1cefc674d4df2f3af9dc27440bf584e15bde51edea5852d1880064c5945edf581e45fe7f8ee4816df7d1be036e63,
  .double 0x48dc16cd29c24331ad55a0facc5fd91a1f998fb1bb8f7ad785675c945f79544b035f1884454b75d0e90289490aed918 0x183f16a434df27116b7628cb604ac6e3cee548ac104b02dcf9c090f17ee851598f291baf2d05bb1f58cda67b0825f90d,
  .add 0x18ec6d4348a6a473255fd7eb78f910a5acbdca50b62e5beb84f68f182fac814e80783e037500cbe67cc9cbcfe0622ff1 0x11bb80aaf53735353ce29602c7167ca4398a313d675c2c271bb416886b9ffc183691b676d9fc49aeddded7e99f106760,
  .double 0xc6416755c0138b5952d2d16fab1685ec2b95f220f184c90da133c311e9f985fd8b3c978b13157e85b199f8f99c55595 0xa21437ec1b0e2a5864ff713e494d2bb67955846fc98ead6af4be282754a39659b1146e455d4183140f8b6033304d18d,
  .add 0xdd2bc2bdb20ca62f2a6066ccf0b9ed0bcf002ec503c6b0d1fb2011975cc05c4e1215962ca4ed00ffeec8d8e742a7a06 0x15296b6bb94e11613e88975559db318742cfc6cad66c28667e9eb1625915cfdc63eb7dc7e4097126060f1493d0255794,
  .double 0x1220afa78999d60c09f561ebe4263a7629554237d6c42d3ea8e2ea14aea50ce3b367d7f90db3bd4d9b07f6f9b31671e8 0x17332c651bc269b46e1d475277f553b7c423a40cb93aaef60e7c4f35cb3683144645c32d49a735794b9b4e272b35d781,
  .double 0x9e391f19bfa8d051e52e4cb051fb946317775d31a82773c8ff5487aaa9a9af51d3c887e39fa3254ce2300e9f26e857d 0x941408b93d399c79489f909df350823a1a32ff95b92cfdb4e7d74a80862ba80fd2a0152b36a132bc138afa762c90e9a,
  .add 0x134eaabf5f75b2fe97f41fc916d55d9cad0eefab86b411593fe0ec74229a165f508e9383b8d29e6aeed72a8dd2ed878e 0x59e43aa24f37b687ef76eba004911658d215218756f9f0b4ff04be619a1d6727763f2359c65613903250c47a3f0cbb0,
  .double 0xf62f3eef520a03847e516c7455ba78a6c5c45bc4a9356e40932e847970569c3ee923da4a3adf0f51831980c89623e6c 0xb43d0e7bf742473bf993b02a7e90f7c166ae0bb99216e55da72002d5ececa1fc53a6271f0eb50d21069c6e4f72e3eae,
  .add 0xf53cb0ed509671ff1e856382a49a6b8b12e4f21c9b9c930cb445751d483655fe595519bcf316c4f021d6361c5e14adb 0x337d887b2d01f92148b27775289493fe3abc4fa17b337e803b4a0528aad5b97f2893e9158391b5d1f7421921a481924,
  .double 0xedc49b53096819888d8736bf811fbbc88bab8630bc6a950b4f2de70a85df288f656f097df21a4b28e986cfab875d8a1 0xccb176bcba111a6886e3226914f61bc1aa62add1ae58ccc6bd283c2bbd26906b4f7f45f465777d8b4ee006a2d2577e8,
  .double 0x1372415b653a47b97c3c21f369cec47c56ee719fc939943b576e113c88d123f4957efc755cdf51924d88f5910cb18787 0x174e2d48d29b95c4e4c0ee9eb5ca72b1fea4e6a36586f55d340c93ea48ce1ed392a4344a96a9f8c3745c100976584594,
  .double 0x135e9ba3837f583a225e58a47f4d4f0cbc7f243b2d56c28d42b07397dd114bb8f65bb9dc74b57f7f53cebaa8585b53fa 0x178715404bff8d1ba7797c09894e7644ff6eadbaca81e4fc3f155c76131658e91d0ae73e866e3cd0361ca5c350e7ed8d,
  .add 0x125d3d66b9fd0574e97416d584bfcc8e38368b584ec41167ec01b2ef7860ae5683e4b8587e18ccfb1f2a5e49b4ecf4aa 0x50736e13e95b7fccb80f268318978a926693ddf2b05f3c0477f8a7d5aed957b2d9022ff76ca0c95b7505cb9341655f7,
  .double 0x12936637d6751c62628c271b6739ace29e9e401815dc0f90c109c1c4622a7b14912769e89700035f79e0b98010d98c4e 0x138aa00d353bc808e97630409191e7e8c39fa58e92579e2975f50167dc4596c236f30090f8306cf4035cb5eb37e83ca7,
  .add 0xac47d9cc7bab323a67767f9ee5a9321e3ba33eb80fdfdb4d942b884cdc2b8cfa04a3b62c2a751645bfe3c2ac58e1e58 0x191adf543cc4659d684f1747a47590474275da828f5e5b6702d6f871f50d0532fa68e384b338b08bde96682d1c4fb389,
  .double 0x1855f913bedfd449be2ebce9929baebaa9180f2178f8c35219e44dd10719d947bcc4faf3a581c628d52dc97373f37b78 0x29b2d3e14cd0e95bfefa0395dd718aa853e5a1714362a27410b66e231a446c72e2d93f0af33f054380239421c74c9a6,
  .add 0x6161531b1d38e6a012bde85807f676a45a3ed439d0259765835641127815c4b37a33b3ad4dfa786835061030944f05c 0x3413c534283010fb126e9988a49efad113b8493a1e59f54ec1f7f86167530320a12ce24e10073f21d4b548115b751aa,
  .double 0x12c90f1db3c7460fd461e938f29d3672d3ba4654ef47a66e31b6b7507768bf4d705a5b885393eed7705e6e09af193f00 0x169a0d16b4b2ea9a21cfdd3e0e247121c76370e647255a89c09c2fc37c0ada8e3725a695adef9d8eeb319a0217dedfd3,
  .add 0x3689b9822b4cae472ae2a4d278d3d8fb4898ac79b3b0d03512f007d314a9dc6398a31d9f32b7e7cec0aff3b453cebfe 0x984596de621dda96f3e13341e171f1035f680383d8d8e4b9baa6031cf18faaae6412b50038a51616b7333f54489b22d,
  .double 0xb300a62725d6ac9f9580dcd15780d9aa5a06b0de7c316cde9f6fafda9920683706f5b85a09c5128336cd4b68a3b11d9 0xd093f976def5eb477810f4e2a5a08ede0e4a0b729943a8b46e753fefd45b755d447429e2e6d09e15337ff5717170bed,
  .add 0x5e74499dc5419fd6a5f4af7a2dcda2f018fd6f2b5c83684aa2fb7fdc585784cacbe80d93f04015ad8cfb464f32b592f 0xe344974444b331876223338aba5c8cc76a72835324f752b7f11940c483f805c6f2262b009ae445799095327004b51a3,
  .double 0x17f4f23e9d179a1be23767156e342b23afd84d4084fa3c0ef0dbdf18a39b0aa3a5dcef1269c2db2955bc41243e9f93df 0x52f857176489b4484eb807a054d938db64c83c01da975b69fe32e1d3fadf78d9839f59d6eb9b6227c0e34acc4458a35,
  .double 0x166ff008a2d70c47d103558890e0e910431b67eb1bfa5d0d3f82e84765120b81f040d6895d62b8377fc124b8815968b4 0x136e1ce019b271e10be82a8ecf48312c9f09883262711673b9e432393cd8d256343fd1123e39b65724fa9c97269870f4,
  .add 0x28fefca501d5013229c0cebfd869c2a7fbc3f6e4311d36931ad344daddcdaf648c2af1623c15e0dbf458d704325076e 0x11b508b69083243f4bc211cf98f4fd4e6d32281ada333c7b687c30a9ca87e1b33f0bc3cd82492c5183806e3b00b6deb7,
  .double 0x6c1d4a168f128b150a836a085f6d8d4fe331c8cbe5e6aa45d53aacd9172c42ad457ba44ba1996b072b4e2c4dcfa734f 0x20285890f857f27589fefc4fa39ead852100a9d3aa9ce06d9ee1361e0967661b1388a4905d83f63583c2c2daefeff05,
  .double 0xc71be02c5d1f2a567d8fc21ef3a4811ca3c4bacf9972901dc3e6517496df856a6bdedfbd3a7325c42acc412fc2f0d01 0xec56d242d8e74af25b2741454d6a27ff376b966b9b788ac3e5a315d7a6a0232d5e7a2b9c68571528fd2c2fe94cebf1d,
  .add 0x8f15c14367a2e0100999f866a025df6996f635e373f14967c1a8f906c961a4a0a63d53d676911ad76eb805023f5d5cf 0x18fc6e72c8965c42eb4d4dc27ad39831fef9985f94725f7d73b8869dba0f7412058becc9f2bef320efeb208b1e85507f,
  .double 0xc718ee8ecd729acf392721ed36325499649c853ca95eaa03b9459a9ea83c2be462637f27428f3a9200694b4d038f909 0x1668830d98a0aae8512447f6928c66fb9b65e90c0f8dce9e535fd11a71604e308ae4938ecf62fee60d4f779c9b317d6,
  .double 0x631cc6ed9be8f08e84615dd0f7917a24a3f174400cfcf1de2defe1f872228cbf3603c435079d8d3c6aad611afe85f03 0x5fe8ecdf1af47161735ce88cffec93a73dd6b3e4512afc6bdbb44db25b75095451ef0289467f499b8e50e0b6fc12e8,
  .double 0x11163897d1d4f92110b13d3fd842599480341106bbfb6868ea4f2599c4bb579fe7a38c1894a0c652aa6829c1c2ffc98d 0x783de578efb195dd8ede06a3829ee1df94b9fc8dc689efaf5622fe507ce91f33023873344e9120b68dfa6d353c9eaee,
  .double 0xe62c3d322324f35a2b8fdbb2d093f3a36db07b914478f7c06843df2ec3296ba38945a015823b94ebd1cade09f536316 0x809e5bf3bb0faed2c49f593c9cfd3683dd157b862cecd78e0ff1ab0e7d20020ef2483653dfe2b14e9e1dbca3d5622db,
  .double 0x484b27c42abca5f30a2fe741c608d38673ee48284f333499e1dcb231f72e408b6a2c64376223b175dc86aa6e6340a32 0x165e358325d622de025b6bf64102d2a2033f02eb3232b9f464e70add4e558336c50eae51eaaa3880e8c17b2eee43b82b,
  .double 0xb7f0fddf5c74f94c0daf8d4f6557d9d4584afe1beff1a872d63d1496f68951a859118c9708260699e0b5517d7a97480 0x19d43be3aba83a311b5091fbd082f4f1543cffca9c66fd5bb3c2e04274f9099b41b048d1f3bb0db0a59ecd8634aa9c3f,
  .double 0x107bbff9c9eebf569145262b2bc617c6ce398c4a124755ce64d16b62a7193c93de5ebfed8e02b753f2cd1cc815c89d5d 0x11602590ddef143f1710a2c94ee4602db06a0de4e9530c3bc9981c402fe8676d6d5ef1883473cca7c8e0357dffbe54d5,
  .add 0x136037a6526a00d2cb460dfba46ed43a55d7d2a9f7dfa85a48e5468b595ee0296a59ba234ee1ae2194b6f6d6189d4cd2 0xee6446fb2007c86a98cf036c9b71b530b5e1ab06f36344732d8720c99c0fc46e9ac6a35eb8c30f83d2684abe658fd81,
  .double 0x5f7a758949c745e6097d473f95152f490a8e1888719e249abd638424dd7b8f4c046bb655f675fbfad168f9f5d49e1c1 0xe9d61022c48d0f00bca0d525050b43c2b18dc3f32842ceeb98b6985328bd42302fcfebd87b4934743133d12b817e711,
  .add 0xea8e247a74d3eee745cb032659d02647988121b1d9cc9586fda0a938af4ac7eac55b751cfad269d31c8679182ae6436 0xf29b27a1139e717d0f50188ecbb27d2e73594e0818b61e4772f8ec85556a4fd6db2f361bb4c2ab459b475019a01a034,
  .double 0x29c7ee5e31fa8dbd913049eee5525d3336456c23bb84003c5b25d54d899c272b1a2c03c48a15c88e6a05fb9e45a1866 0x192b79c6a1b50939dedb0d17e3bc0b282ba0989d23031bbce8ba84323f5e7228c3d48f0dedf8080d23e647c83a5bab5d,
  .add 0x2bc7dfea217d7c112f0d8a80a58d4e3c5b12e08b4a4402808452efcb275dcb2922a0bc7fe30f7f075157de15e08e681 0x10be81cedbe32e714e09717c26ab833f811374c8b64ad396199fa699b2f79606dab744bebfa2fafbe6a04253ca954f07,
  .double 0x12eaff8bce3689d9c03915fa13534d502c1511241d3ea144ba11fbbf3c3f51e2e57493319a4dda56cde1fbf67f0b5bfe 0x13887b392d73ef26fdf0ffb60dd70957f189d20081761378b3354ebb11e11c4a2a5ba12450406a1e19bc61cf65761b47,
  .add 0x90bff2dcca8efcdbafca8e1f2f91d8200aea483a92100cd5ce7a28f3204a1c8805b565bf88b71cc17206827261f8054 0x19cfde4d1a6ed6c355983ca4bf2bfc8aabb4264e2e4343f4afdf606f9951c765283f3abdc0c2981b3b8381baa803ede3,
  .double 0x2c500cc602063a7704c47a24d5b7275caca65ec46c37577820634cff8e40ef00bd80692d800973db526c113b91f56dd 0xae85e8cdf186cd947b59163ef52960a65c6654a69b8e3c66287246e8166af647bb0834b6bd816714c6a9eebc9d76cfa,
  .double 0xd87ef701136839dbed1a5a0d7b1901ab5df22dfa5c986e5d447159f6dd832824fd48f681b9de8efdf124e4ac69d36ea 0x66c293acfea7817badf0cb2435ea829601cbe8e0be74af86740d982cd7ca11a3266ee9729c0cbe6d41fa504fc39b42a,
  .add 0x1652235296f3bde55c7674dcadd1031bcab933ef25beab4e079598de2fda033eb879bd0b3ec07d5b2494085cb720a8ba 0x51328f560941b206fa9304cc4273ac8053e2cde2c098526394d1069445f293987cf56bebea7e287d915acc33127451c,
  .double 0x12c233ff36a0e3437baf31471aa6bbf15a15373aaa3429bbcbee8479ae4db9237f709cb716fa68300c378c612f88a737 0x4ff6ec779057921d234511a28b5bb9b367ba4711882c36e1ebe989ecd3234108cfdc039eb9e8af5b360a34e3647f682,
  .add 0x1996e89fdd32d329c7dce5d6ddebf98a425f84e8d5a1a333c13be74d14954ba4fab363d1f90ce76d72ed03b31f0eedb6 0x5212085bc4eddad56cb41bae33d8d61db68faae2ffb4327dc89d6d2b5cf115073204c88739c2e0237593224533f4000,
  .double 0x42a6aaaaceddcc36b633b1e540676c4403bc8a0aba7a43a3c83c3531279445455179bef07fd9d5cc65d2dc2a330e576 0xee157a59f6a87ddd47c760ad29592a7c70b23090caa16143852570a94ccdf36861e3795b8754b61678658841c16b1c0,
  .add 0x3bbbabdfd90968514d8866ce955780b33dea1f6707f718a623069f92ac16de603f9de2f8ae384987e281c30d06f13e0 0x92634546b3facc2ad7afe4ed04cede1c6adfd36848f277171156bf423dcc759249243fea7c46afe9666343988e6bc8c,
  .double 0x18ddf1a2c56d2ea1cc7800a7fab57855f27a514ee2545e0acef94c79bc8f129312984baf008ad714594e0db6bfe95ca6 0x10307e1dfd7d2f155d3a9248c55a47118713edfe0de09f97782330c33a4489eae8dc623fd796d4f1b264073d6d395d22,
  .add 0x6b9282c7a9b3e9481f89fc6db6d6ca0638d9848090428a71e01bacfe2deb136fdefb864d43620ac7739354d4585909 0x81772ee98350fee1efbbb0442403f3a45eb6c2caad621ef2009d6e0939d1e0e39a59f4ef9773b8ebc0d73082b586031,
  .double 0xe7428e01c04dd3dbb80d8f27ba3c5e91e1660e817a72054363dc9eb949b44e874f4a385cc01e1b27a26a1f3501a8481 0x921e7e8a10a0e790dba6eff215cdec6ce278731e046d8136991bada0eb8529032dc5f1da0531f275fea505bcda60413,
  .double 0x13cdc5adadff67f5c8335738992ca679b255f480aafe217ff8aaba886bd13c88ebf3d6b1ac7c788d28a3931da842108d 0x11ba19fda9e986e118b26e684a8386e8facca46d583df89e54a79c7bdca402cdbc0635a08740eb7933fa54b56b99a361,
  .add 0xa6e2265393b092c0aebb0ec4c9140affef076e2475b433b18278d6d28d5304ef510f6ebec679147520c2507edd81c9e 0x3ab15ec2d7201b063be65a769773866e0b33240639d536f10362a9e68afee7ca3e9bd730d71d84571e2aee21b0f1c5f,
  .double 0x105e4069c7d4a6fb40b1057d8c09081dde60511232ae14c6cf6106f86fed3e1e4c40acb09f782c0e29043cff97909158 0x187960acbae7b60f7a3b2d74a8311e9d2023ff42a1d2568258af23577b765a882a6fa9a1a87225bffa4e08bfdf78c243,
  .add 0x7b7724e8c781193906dfc073d14bad754aa0f0807563a0815aebf3119657e62be8a383c92658dc84fb963193652dc31 0x172ea9f2676135bcb28331f77f43b48c91638e63e2b6712379aca6c6eaa824b38a3444d2e1793e4963cbf8e68f0906c2,
  .double 0x9e1736630eefc502ef212e674e1dcdc078b4f469f37abfabc42595f675144f7408b3c2f3a30d9ce21a1bf0142beb3d7 0x1624e844271a05242ecc71f81b66f573b702889a921a3b86857ecb4d5c907d4759bd03eb9f1c1c6258c35109302c51f6,
  .add 0x1bde2283623a2234a8f52ecae2665c191c591eab1c12bfb8c8754b61d3f9e556050166b4d78df97d2caf833bf1e9750 0x1bd8f7752a675edfc99fec9996a481fe618f2729fd079bdbd602304cd85b69cb539ad0b774aa2945a937f28469b4526,
  .double 0x19167e8dacad08e891987097888c4f34f26f3d85a200b2159b8621d7d38701618d670c2373377dce289115691adbf1a6 0xb64f152bafa62d95891e89f59d89c1fadd321a3a5a76800671db439af244e190e3084dc1052b1cc7e4da213a631b5ae,
  .double 0xeec1d1fdf9e2b4292a23ce9d618851cfbed6a82ff6e44a19f5d3529beae0f17af8031107fceba4d3bd0c179c8d1319d 0x195b1fd99e0a1988a0f1a6a12ba31749923698cee2643caf3ed8846e2977af7b7101ef4017ffa83d84e265d040bda83c,
  .add 0x858d93af722f416c92f32ec6ceb2f1b8d669e0c27c5d1261d034ecad7a5286abbedf2e757e9dcb98596ff7c9be5b7ac 0x1597bdb07ae43258e231b1cebb9e83ca67c4f9e4757fc23e0a07af54a76234b710d53acf1d897fb92cce6686652736e6,
  .double 0x109175c576fc34c4b45bec0effda7f4f0b7f94bfc0ea34dc9e5412f72857672a3a291491ddfc10bc14d8ff87e3b65787 0x19a7860bede06a4fb56a1aeb532a0475aa1d22aced7848155555ae783e803462254521fff3addaff2b39ed2dbe1b6738]

def cofactorChain1 : List ChainStep2 := [
  .add 0x427dbd20e714c01b43321583f1ba91bfa6e075376a189074a5b589b74ea215d9ea0804455a02a8d575ac2476df3dab9 0x262d3c387c047c6bae45d13732da46e208b7b4005b441f465a4d759a263102eea692b3caecf1d29a3019ed6bfb956a5,
  .double 0x133bf33dcdb81aa3ea20ae0c473490ee636a3aee409e11b583babc16e53eef51e3f7088cd5ca77ea9d00f3ede2c55359 0x15b5a6ee7eb0bbb4951e7c878d76df87981190a0156ad3ffe5bf2fe999a76211165050c398264b3d15e7c3ebe047d9be,
  .add 0x10534120c974e37beaa1d7ccbfd7da578ac6f1b9f039bb260e94ccf0923334f4b20c7f0dee43b06b8e13bc071d1ae52b 0x653508fd5ea7cee1ccd79eda982c66af9a76737e4dbfadf61139eaa720ec806faff8b62ef0e032103e3e51ba0c509fd,
  .double 0x13c834c5396a91c3d17fd45dd11dfc5708a6bfce74c0d8ad4342aeb6b0923efe3d9c551abfb2ace5a1620e592da4f1ba 0xe2fd996fd75f8f6e311973e078280b2dee252c7c8953321e96c780f018118f648a4609b6a06e7bf6e620244bd2f7858,
  .double 0x5adf595774f1cb62a28dcea8175ea637611927d77363d0edba6fa888d94310167ac469b52eceab5ad94e022fca1ffb2 0x46a21e1c91efaabeb8c427b59f43c30fb2b05cd2b135d55ab2d090b6788cfcd5e4b0c9749b0df7e52d3ea476cb17be8,
  .add 0x17011ed6c9cfbb0c7a36e99ee11fb366ad05bd04fe36de3a51146d1453568110d19c632e25c35642dac548dfefbbf90 0xe96be159610942adaa4a5e25c48e151b2822fd31b46a521ec08e38f513c6dbeaf70b7f0c72a467f12b4f865ba5e3610,
  .double 0xe79c3ec2141b6b0ab41f7edd75b7cd56c217ecbf47a7af55c6d5662ca15bbfd0c0c3ee269973b36e25500374b82a7e7 0x6f7106b8079f2c7680baeeb6908757821684434a1edeff414ea9ce1dae495bf9b1d0bb17a343c86ad97044f03f09a11,
  .double 0x150f37a3c192ec23b0425c1ff5363478bdd896f97ce54aff1f586b7efedcb7ec63ba690b0e00414724bc03783fcfec04 0x181318de4afe5e70d626d5d1142f087f05fd05654039ec28674f455c082fcfeb218299c645207cfb6feac70f28b15bed,
  .add 0x9e21f2a5392bf73aed8fe87e67125fa158c645faf1394328b513095a21bf71879243983caf28d41f902bb6d61d64ce6 0x183e5c174dd2e19c1b4bb4169a0f477845769207dd2b091f24d66d3e15d49b433227b88493efb4594faf87b5fdd240e0,
  .double 0x1490ef051d49b47eb091db00b1445e2bb3ad42d20d2882afd91478e301be264df638f76e283261c12d939d459ff90788 0x1955777412a3180eeafc16194565c6eea820ea42ad2ecc8cee12febf3502717d2c82db4908fa7db562a309e331050611,
  .add 0x9091fcbab34b4220a82d6fb00f2fc630274f94f334255e6332d3602f32260c9d419e2cc99ab1d374d3f0d00da8ab0a9 0x17b75dc0b2b2c6e61d8bc4d893d95c78d83bb8bab076cfdcd97ca73611dba67fadf464adb2b95aecd2dbdb6f4a8f1f16,
  .double 0x3334f3f048c802234067739267e193788d2a9bf76a3ccc39124948094af9c70f83f7817bc1abec2b5d06a025615a17d 0x109ad8a97b113fc4c7faea01ebcec16eeab5d5ca6cdfc3051a90d9b5a6b0b862b01832372a7164e1d618fd191b7bc1f7,
  .double 0xe05477368c60c31df99ccf5129bceb3e15dacd9394cce0b4e6da40b7288ec782ad00b33e983d94bd47c7d9e93c80070 0xe122fec88cfaa796619e690212a4922310343c645ba5e349b33a001f5ae5057e91e0356739ea1132c10bbfdffc22dbc,
  .add 0x13f5bede961349008384a452565566e538ca199f99ea829d0bb2bd633b9d3fc7c9be3041aa348bbd5b4642147cab852b 0x373196108d9fafbbf4bc8b9b72dd85c7a1eb5bb8c3078e2a1f215743f0e7fa13640d365b71ad625b69ea7fbb1a6bedd,
  .double 0x5a0753f8b1921fdd4323af3b864b11cb1d44b2eb8a7561a6d5b10d3dbefff5b9cf7a6d331847e56a6177da22dae18da 0x15a3116e95836dafef496ed6a7b147af03175e7ac6806a3a86faf452ff3b4116ce3b2a45005f5d67074c34acbfe0c65a,
  .double 0xff97de164d0d7d7224a9b59a2bcbfa5d8e9b600006b6029148e796ab5a7a252af0000bb1e3cedeb44f5ff27af5830e7 0x10481c8a64d63dd35b73ded2a50a41e780fdda8330655236c62c28efb81d0877c8d8198f2b9d51a13bb0eaef1edae323,
  .add 0x15fdd08fd476e73f807e70062c0500b5fda09a6422ebb344eaefb8003c8c8345f9c21b327ca2c565700d711e1311da33 0x51b0d00a4f91b5aa8592da923e56c5048db704f48d3300519a457179324c36ed384ed2ff75311d16d5268c10287719f,
  .double 0xe8a76b1fa4cdb77d5ade7ef4271774ebc776eb92e71754a07d732bf0408167c49fd3fd59f7fd0b24d497cbb58ca2e17 0x5b0027494706ea4844304fed8af5c4280cd038bb11627a4e032e19da2e9fc764eb32ad4ce87a11ae8f10877c1eb608b,
  .add 0x17759d2dfe6d5516c1ce2b85a922f514d30c09c3f533949d6018cf7006db70af852a91bab9d683b5965dd1051f2be2f7 0x9140009a2bf87c685b93bac01857189c50a1ef0d087960bf8a3dd2d02c68d58b53219ed118717c9306036af2e5d71ab,
  .double 0x1489afcc60ff6c01f777b336b3dcf98c08a4408cdfa468c5b443e23dbd0b4a1f72643f2dac5e2df943686b5aba387bc2 0x775d197eef7b7f8a610b7901df7af61b2af71c801d20646f059188be881845f44cd1f99505021462d3485baf8eac4ac,
  .add 0x16fa841d88964cb2c9582673a09f358aa21e34d10a3f44c909b6356476f4646f44e0776f9e9f442aeb6782bd957a15f8 0x299f681738bc90e1fd5d84fa24d07045c42e6bc68066b2338d34f239dd72fddcd9b8b8b9dd2815be9b6dd2d3710efa8,
  .double 0xd7734a077dbfab1f4a897d5acb5e8371a9b5a5fcbca20f7159de2067ad3c623a5b26b73a10cf1f2db9878465499503f 0x503cb7fb3ca9650a9127ec33750c44571b9f9b28f31e14e8763657f2f4caa3ef599add1d42803a09e123b21bcce147d,
  .double 0x119d7a44d196a8543641d434b4e67b301c4a0f0f8af0150b5bd4c8e13a16564f69ba22758592f5611b7d315851c76756 0xc48b94c39f4fb53cd2172467eade3c0138fb98e55c3b8a927b3fd874e457ab62a7fa3de2ff952c5bf5d84d469dbfcc5,
  .add 0x1633f77f1379eb80b167cf9a06825be918be21aa1586e9be4e131320258a7ad2411129490fabcf6a2b3daf21e02941cc 0xc11ea3432af6eafa6c981683ad39e7467a5161bbc77e041e97a6e7ef31d773184ff85a94b1fe08575e7799c7393fc9e,
  .double 0xc972837f2db236ade9d25fe31c57304a9b3116d94672febe3ef54dc88d59dd52de3629b0454ee004c5437a343c2f471 0x15b56475699ff205ee958578e580a6496f256de29945ea95e194abcd69c19d834b953985f9260052f6ab8dc3b29d9f3e,
  .double 0x10656cc0a36a62750cc548e6cefd8e48e9196eaeccc873ca78b83172ffd305319808236c8d40285553b00891f72f262b 0xab207986bf6eab97eac63a23abdd1d991acc0d9567c58a23ba152382f00552d7414a45473fce57a755a857e0e4b52a7,
  .add 0x23bb4daf319d460d953479e06c05e5481789e473ba070f201427404fae37e33fffd1b57f26f692c6cefb62d7c82ca1a 0x8c10537fb64d5656b0544286783d90f2d3ce40bf5d630193c37c79d1c324859069254a543eff3b85034fc426fd7e357,
  .double 0x1949d6cc73ffe5efbc147b3d637ace071808f5507dccbec50c191c6cdc0c0f048815852ac9068359f88f1878604bee05 0x247f4e9f0cc37037fc1f6d1992a80d0c34f9344d263128ead6ee13adbc6e3690658e854d0ac26a9c3691e0879b16b46,
  .double 0x1b54caab9c69944bf276b248153c258b7e6a59ad2917272f712aa1fda5e82ad50223acd937e6cc1ac0b7670a61f61f2 0xa25fb29180108fff372d8626fac687ff17c489b1353545330fbe7aa641e1114366c35b187862e99ceddc23a488384f6,
  .add 0x166317b35c99db63cffbf3f65805546d718a0481a89d1eec3a46391488fbfa25f0c15399c8ebab4b08b5518c9ac2b7a1 0x189802e628820b7d6f7439a88a587643ca278c147b15044f96dd2d611226061782ac0967b6d6cb3935c331ca62722329,
  .double 0xa39d6a4c3dc5bbbb794ae85306eed19ff39f7b5ec14f7dd172d0f239f2d65aacb58c289daab66ae84540d97fd4811a2 0x103d008c451419d561080988b617ead579d9a1e1af16378176ac8bef01a11bc607f69be385ac5b8509000221a29223b2,
  .add 0x3d1ca63e6c6ff4fdaab24250c8f9ed01cc68fc107a246261800e35bc40dc42d7726008cbd0c892be170930620ddcdac 0xe44015c064bbb85b45628bbe5b836c022f44f008703de994e5491825baa51ad64c9e84c4475696da05b2e4a42eee879,
  .double 0x178e932b5ddd5e47e6a32226fd905ef4d118b9a3342da5fa05ee55f8316ef2d9c446bff2996b7d3bf7479f55db920f30 0xe3a8988771d25fca4a574ac8449e32385f4a919765ec65d62c6f57f67f5f1c6271c0bd1851b0877447280f55e10f9b1,
  .add 0x702649d6a12e3633e89a16738f259cd0c7e2f8032d819e6ffcd156ed5a0e07350bc6291718d17d55842bd8857b709d0 0xdf5990deb73246b811216f0eedd6033281e3e4cf585c0a872ec74758dbcd32c31d300c54bb8d4759ff16a3fe15e7045,
  .double 0xd4f5849b185324e48ce42cd857d1d8100ad820c01df696f0efc602536ce1919627913d278dd292490e2e1c7b3cfea88 0x18eb7142f5db8b14b2945f47e801f00a0bff6291f5ef839238b195964f2a070b601332712336cd751b440f478dfe326d,
  .double 0x1489e8e10231d69397f0fd19d4b08786e976a5fcf94e3aeb290a824ac4d442358eec66852c1095464d4d40c2398ef6ed 0x13ed5c3a928a4313186a0ed56941f3af716b65a93a7bd3565f53fd66229d65b4901debe90e1de998e1f5e5cb3750e457,
  .double 0x91f72ed96ab083d60f51e52c36a4d343d06d419a8c02d5cb30245d4b177ce6ec28d330f1138e49e5ec0c2945b7b0399 0xe6625f75f1c6d7ea730899c23361dab9da19f28baba9b162ac47598f009603b2c14628be1e004e62f9d2c033ac9beba,
  .double 0xb8848205f2538399cdc462851a5ab238377fb4dc006c186b46d57b3500c20f04084a06577dec9ceb9301aa275f822e7 0x14653ba0799b3dd66cf8617990e42e408c612fb494b1ffc0e3d73254684fb7b70bdd676509954f04e2524abf190b409e,
  .add 0x87ce1687c4751b476eb5def44d666813ab12e30e259802b54cb02865f338a063142abb3379ca418b1e137840a5b8780 0x1212d2355c5b34d1f6c39b897a56e178301b1348da75a361750f3fec9948e48b7a0a79dbf6fd20b88927a9b2de2537e5,
  .double 0x19c45748e3cf154233fe1b9db72c823de7fbf31879b3238f9d1438177256636683441a1f427472b7e1cedf6ad82b6b2 0x127b9196eab0daf257ae7fb1f02cf43bf28cd6b9d96b21ffd143e6badfbc9705381bf552512e3ac8b6dacd23e05a44c8,
  .double 0x10baba82704c702e2b959fc2b13e2f4ba40d155838016e2d628ba90768db389be3b7e07f989033d112438b119274a6fd 0x6a0e86e2c0d4f365340d0de4c433378f42cb144dcf53d02d92195ec31a777460f01f15603129da03a25ed2281422eac,
  .double 0x565d8eee5114888f02164f8537fc18fee76d1ed811f880f2b0a37bf24f488ed2a65602e8a798b641ac05ef9faad578b 0x2d9e984a9dee8b19fdee855e973a93fb9b97482bb2b505773daa6e930f2fe1681a04963b4a6bf24fb07bd24259d7885,
  .double 0xa59c14ec7a971f3226b2a23712f7ac8f59c4a63da05d85df99fdaaac2650a3f5be5b5499080ba81b0b2d09bf8d5f484 0x95fb8c3c643a66822d7772a356023333cbaa36140cd26a3b92a2e3b7da378f9f0414a5da70c5eb95eb1b0d33b5e43e6,
  .double 0x2c6c6f216dce866ba881187a6d181422a8c7326b4e3282d61953dfeda739af5cbd93ad3539f4d072e9143ef484ee2fc 0x2e9cccfb659ce591a13b9ad3d036daa4b63fbca4674a128f57b9f7e71211e86f2bc0542a3e328ce3587f0807a8d37b9,
  .add 0x1075d7f33f2100e5516512491de0b313a50f3ffe697c58a724c2bf56c2a776bdc273ad4153eefac4105ecdc7bfd1c0b5 0x6a6cd9b7ee5ea7bc02c4b269fb79804f139c37055fe099ff381a3e5ebdedba800ad0ec47673a8e7141485a52a2dc92c,
  .double 0x971275a211af6b68d5108a1e210a096620d2be87544ed0138401f66a4e774a1a366e86d062b70edc316a31800b6cbe1 0x1302855e0ff03387dfc501c4995e8aaf396b8811460b5f4dc9c8a8522576e2f7276e754ec7b99c73713b3d290dcdd050,
  .double 0x96c930aec57f588222b7bb0d8c4381992b9ca9c8336fb6140f6f334cf3f6fe474e5085c4b3b2774edc2298196045c00 0x72cdfc3ccb4067d7397b7b85d0f26e8096f30d675de0f371ceae56fb4a196fbda4d91564b5592eb84c698830c1b289f,
  .double 0x31f63e588bc29bf2932b2db788d68758c34571f7630edd33229258096aa13856f335b4c341ab41f920a55dbdaeb210c 0x4216e5eaf47bdd2d3c53d2ce9097e1046b047c7f5f9a98b8a96faa9557c40c9e5d8713e0d83ae567d45bbd1261b80dd,
  .double 0x1276f4abab0dbf571ff3c5f89519749d3741a1eedaef113616e955963cebafef5b0677ba7ca73332a8269b3184c83b79 0xcbdbd15b484d8f184cb81edab9eaeff166e6f183488cb4753d0254cd85f446489ccc87ee331db206a0b355f2e44d3ec,
  .add 0x90f41fb2dde7b99d42cf683ebe87eb604ff00147fba633f1f5fafa9ee6e08bfc8f58117097afc6332bbc1c201fe44a7 0x15e330bb6d1c646ef7ee22771f35f83bbf4b4f6aaaef25734fc75be5ce47430921357a039e2415b6a23d936dbcb9ce8e,
  .double 0xe6a9049278f01818a6eccc6e62816f9e0d8e0731e2e047f77eced791d656f2d936be95aa714bf509b0780963c13fba5 0x135ec39a826a2e0632bba7b108ec75aeeb6d7d962021f2747bd35f5c9ae1644a662a0b4665213feb22065f7512b9093d,
  .add 0x2353efa7e3d4eb715766e5241a3c5d8a947670d835510c4350d1b00f1404b777da6b3e2a56eadf3c1fb7d92b7c2108d 0x12e7c42915e7d42a7a5320e25d03ac9e8f81f26883b2a146fcfbbac10987ceb369301c5a99b73f2098ea1128c63fad8e,
  .double 0x3fe4f36e9e00ad57cee65c78946af5e3b1ca26d895a3a6ede45b28b92ad002499b8b692f6e018478d8ea766317127f 0x896955dd5254786878d38b8688025c708b632c5117585108c347645e8662523ac54bbff82719922bb00b370f1ffbdb8,
  .double 0xdb2551e9a0a67ff9b35e81f9bfc4116845008727b3de4b24785a984b5b80caea1b56988871d510c794d9ae53758e71b 0xc494aac9a80beb5224a007726419109ad3bfa379abd0c8b1324023d649a85cc078811976777259dfdf4de7aca71e78b,
  .add 0x2edf7fa31767df376fbbe5a9611d3b188591f68c2bfe1cd43aa143cbcad6b61da1f0e3bd1399a7c69aae8484de29c36 0x190750039b4bc18e7d4c4dbbc9af8a7f8ea78dc20d0cd0795f3f3a62f4c43716e9f59b3aede3c115c2adeac41a0fb6e4,
  .double 0xd47dbd6480c6d0a0984b6e212eb3912b62d73620d8cda5fb6a75a45ed88ebb9d96ea9f2840b3bcb1c63067ab0868027 0x1142ebbee24bba37e1d0aafea2cfb10dc4744a13a21907d24dc30163170fa01ed2831622c755a223f87839e9c9389b6,
  .double 0xff38d28fc6f73f0a535963f38e3cda235fae29dee07be7a3845c3e25fe6f0f290ddb28ac6e8579e82b05bf1d1d03959 0x1204f18f2fe970163a4ef04c14529e1c40952a9404684e0d17d089523965f4ef094de50f88d26eab633cc610c9cc96c8,
  .add 0xc1918afb44e0bf7d957ed5c212bb1708856601f648b9b5d7516f7465ae509e0834bca4521fdbe8fbe3b1441458e9662 0xffe991fa1a91f92b9f8c175749fe7b312e3f139125e25e3401a9af4bc5b44dd6d8c86f9acc7695b87344cf65beeb8b6,
  .double 0x15626cdc83f9c5b789adb319d53c7126ccac77bb3f5f9efdd7717e063ffe8364e54ac68d0c0ef37585fd013c2ad5b140 0x151a8440bbcfce9dbff6a2815ada352a16118c0012cf727bd6f1c91f209cb09329305e8be4944f61f0df7e00504a9549,
  .double 0x73fa1b216605809998884dd830a3b7609c58b6e2c7cb8d33cef53f4ef23485daa00aca6e68828f98dacfbf622449ddf 0x1360a51cbf164078f3a6f92fbd3abec21443dd9f4b148e2932109bb7360c52958a7f3a60fe8c92b31002e4c703b97692,
  .add 0x18179efeffd49b49326a43c2d952be0fbb5f343dca700fcb5a0241ed49dbee394d175643c6e7c6977172252827ceee41 0x1abbe78148b2f4026a7dfbe885087ce27417e64b0474567538c2354cf7344f97cf18687af938e27ea01955489adbcbe,
  .double 0xbd6b41df5ba4ed7985292dc9a919548a4c93c83ce12f6c605e084c77f06ab984f8f886574571d67c07c0e002ec06d18 0x4ad0a176c992b186da54248198ee7cdbb80a741378f9275fac85bb51a7afc0167c6142ac08c05dbb162dd3f460d8a9b,
  .add 0x133ba55130a1acbca7f836f68b969db331ab49a2503917573bc4d5cb9158e3d89acb23bc7c9b0760a509a601593796c0 0x7a5751d2324e3e205287445c39e2b95b431b8cfe23b9756a3eaffdaada2c5b541429e1b930a11d518361cc082fe6ff,
  .double 0x180a501bea9f31be021176816f3decb2cafa999c1267fd6acd58fe608f68f8968064639da4753fa8bf5bb18318a962c 0x696cce60bd6dc51cab7c7f747ff6387762d5decf9a649597add0f6becd600504d9aa76e7744200f531cebefec015a3d]

def cofactorChain2 : List ChainStep2 := [
  .add 0xc363f7425bc5175cf9f50006ef286d8dbcbe9d90484837110c3a0409819053fd4e8288371ea87c115a3b3a145bf8ad4 0x4514922affa40c02281175f2d61626a0ab64e835212cc312a09786c2fa0151fb060116cee5b9786ca9fc5278a3a5a0e,
  .double 0x12ac651722fa3d30083ce20dff83d979866fddd2257dcae160bcaa99e91139ddcd3d3ecc5a00e0542410a2495ca00740 0x12bffc79dfa7bd8c7b8ee204aaf986556d73441832595394496eb640c8dbdad0b032ec56b31d1ce6e46e5b3abc301e1e,
  .double 0x15a5eb2c18499c8682a65e6a44d1a9bad4f3e296f264b3161c398beb1989dff63f3a84d0f884b4a8d3f831878e86e5a7 0xa271eca4206c4c9fbf76acdbc02055a9ab35388b7c53fae43c7ba29f40e01849171e28567bc352ea17fff9bef644cc2,
  .double 0xe34de4837ce39973d44aa87df94676936e7e51515278e8539cbfc4102d52b7a4fec134df3a1b019ec80d0ef54185d1e 0xd9213aa345ee6140077432ddf9eca38832a452a35ab3a54d9c793ae073cb64471f07c3e4ad34e48ecc0ff3d1057b2f7,
  .add 0x70566d6b7f95876a166b38d055f73afca3dfdf9587bd4fd5d239c44b8b28c3407a51e5a154dffe19d3dcdc180a42adb 0x158051da0f77ec8e11f38b7abd47ee013035f56b23ca11b6720d9311887d855cb947fc38c52c810dc3592b67c6051529,
  .double 0x2b085d4325f0e1e88f6e3ac5cc63f2e378c0967eac64ccf30f42d72e6cf1c4c2b815ff6c874c9b950e89a61277f065c 0x62ef7a0b94ca831c68b92690327c3cf4e5338712a2ccfb1eace1b839a7208a0fe82903ab0048dcf922b9c36c8fe8ff6,
  .double 0x60f3ca23dba18cce2fa6ab3ce9bed4277a960341ad2a509f759548f1aaf19913f8ccaf7cc49d81cc3efded0a8ffcd4b 0x4c147fdc2f44ec477e344438685a95ea27251e7a8570d34c39631cdb69716114ede99f9046956f5aa330b8a61c42a4,
  .double 0x744a9743737ff44f5aa72ac6dc4c6865bd5daf3647abc2227114ae76e698dc5c9fb008ffd10e6fb477eeae8b2e685f 0x1b80f044cd121402dada099f8352820696e67334dde4ce38541e95c15e99fa5fb175e4f4f2ee732cec08be2987359f5,
  .add 0x6d603f504e810ad52e8b0b3b8e2808462e876f923406d48fb757119417d5b8c2b033ac6aff9f2c416299b9d40db164e 0xeb789051b43556d2df663577857f7972cb548764b4914d47b8e542b29d9214d13f0139ab980eee592d65fa05f2d27c3,
  .double 0x3fff3ef08a0d1f8e548ea52f524d3affc12b0e8f0e428279b0adb844c39347114bbcbd3e26a4492fffac64029ebf2de 0xbf563b0d519800214a0183db8fddcc838269ae0ca0dc05c83f4792a679451efdcd118d07e8825ee505fb0a95003f330,
  .add 0x1129f441400b310f42659a5da33778573d088f9fb1db9a0b1a37a7ca695ababa396f50f489139f33d6cbae34e9aa2b33 0xceca4b0b1c2d2f8bd9c425c1f268eb9a838e1209ec5aa684464bb6a39ef2c6897a30a5a646eb16c547fb6fcb60289b,
  .double 0xf61427638974c74c7f86774039b23aaae0e96f4759a816875e228e479b64bca12a364dbc7be5cf21a68660078436acc 0x7bd66fc3548dbe4a45dca21f803d9c9fdd412cf1f6f241bd4dfb6f361ba599282ad46f185517bdcff11aa58adab3df5,
  .add 0x527972b607219a2f4e2633213840a2fee473e8f72b0fde36ff0aa94797321a5eaf15d395c869ea4cf516c6f79c96f57 0x1797a5428daf6d91b33d0dc73e11c7af318f6cf8a94ddada913d30cd72ebe20a8f6b6e14d8cea986ede3b2e0cac78c0b,
  .double 0x15b01eab6b8207e2b6d9069fdecb72658a5f59d29c44a3269e2a3d8f24ec2e86f0410eb265de23322bcc007076730644 0x59911deb2e05661d68d16a66ecb593648591927658e09b1ba7dcf3bd9d59c2dbbe2dfdb375c2208b8ee72665e28065f,
  .add 0xec49349dcc7bee741075ec5284afc616dca742b95e40f70dd148bcf4114067c66f1f1f80c994a097402a3ed44c0969a 0x88034888074042ed1c290499eea88c253d89390914cc1c158dccfc958c5ab92713a5e30792b02066e8a61025c1e73d8,
  .double 0xabb2d776eb5a5768f51a219a772bd6fce6aa5bc94467b9e9c1fd74ca949cd5f19642ee98e1308a83fa2c7901cabf81b 0xfb56d32e8e9f7e52add1635e2a69e08af0efb72ca3fee483c09b048828083be1f33346da2c7137cc0997ee84ac3b173,
  .double 0xe7ea8c934319c639e110961c8f38c6fa5a5ed9837713abeee615e579d17da3171c108e943d67705ac0badc026699a41 0xda73d8c66d409d338a0ed93c5ac280e8b3c544a82cff6cdf93af3b1be236783ed44a3d63d24325740460ee3be03db3e,
  .double 0x166c31160bd45a47c94b07e07500b57b67a91307ba1fe6bc82ba5b59ed4ab7b917f4a023d2ee4c81e8667b5094983574 0xfffa67e7d641420f2107b51eac17339bb11756420cc69982226b7d447c877169d0ef86f3a9b865c6c298c80d791478f,
  .double 0x15fcd2dc579e700c6bb52bbd0db22b3219630d3998db8cebd876fdaf5681e7112b12bb67883469a624e61c8d69c08129 0x1dcdfd3f136a04fa9ec96c824cef7562bc948f157c410030870a98d58976ef5231d39729b968cadec3cdb25382c11ae,
  .add 0xa8edec7264f908c4cb664350ad4514199eb8ab357805c4bb7c67e49abc537ae4fe5ba4198b7bb1f2d401174365e7c2a 0x15d6cd57cce6b0407ac716b38dc1847bab7d2430b88c9743f254b18f2797d6c6dd7c8b4e9c2255f08e68996cf64a9bc5,
  .double 0x22752658b8fd0e7e407463046cefda522985cf7e6539e6c0c6a5f1474195bfd1e5f226bd0d6cf9bc27a82b765f398d2 0x5164cd1ae19518b946e1c7009191dbaf959582ebdcd4d0ffd908eeff48c9186118f93c1e626b42504a6483f4e1697ab,
  .double 0xad467dc7ee24daafea7d59f7a75d7cf6691e782d1871a84740d6c4749dc2cc476bdde8fac7dd27f2e170c29731c706b 0x1882bf1a1c99bc08923fb3bb42970634dcc2d8c6a49b2a4cb7d8fa487ddc3e34c92d4b864b5ddd4fc04243d2c9ad1a5b,
  .double 0x7a2aa513dd5ec33d32f1740515a8f252cddc72248c48c3105e54795d82cc53101ecb438cec7eaa3abee5d231454e6df 0x16249d09db44fc222f38fcc15d81b3d09ed81c310512dadf09187cf1a7ac0631f1fa3af80c35df452f727b5581d94297,
  .double 0x9aef34b433775f4545224b58b6459fa26c528ee14ac029a2d9cbd2b75ed93cad494e15bef3809f1726bacba435d6cf3 0x6bffce949f33a6ad3c776a882cb8fe09ba601decf3fe593bd29d96de03c41eadd78819eabf7ad64fba9d5ad0250abd7,
  .add 0xb3fae68af93e2b9444a02ad291457e6fae81148d0e3f16de2774bce0a7dd99a2c2d4ed0ddd2949c11f5f0f805383140 0x18f62ef7dc70e81869c0ad278118fabc25c2b2722192b2eb49d9a269f4611a1ec488d25cac9db9d49b83abe10f13d800,
  .double 0x5137eef7960fe74c9773b651129b160919eaeb9f62e899dbc04682f0194762a558b642b8ac8605529eee48caf8ebab5 0x270d46450e731c49cc022d987244e50addc3c74e7e80155ef1deeed2603078f1f5acea90703bba35ef8a1a39ab34fa9,
  .double 0x1833c317125fd968c809f1f8e715cf7d1a8aad5c33ab17a6bd8a47dff372033aa5ae3bb0c30b0a4c9077759d43864f12 0xef6f767c7316053d4361f0fc9b5270d33797244e35eb7475f9e01e03aef3df0da0a49015c1f9f6c2654ca3a08c15403,
  .add 0xf381405938aaf999debaa26e485db6c85ffd231040067e439ba62b67328b9cd065e91d74fd6e82128b387ab8cbfb2a9 0x16f26c8623933a3bba4be731ff355a14c21797eed555b5703d65e8f9331a28cf864115d354fff189b3a8cf885d186ae,
  .double 0x7dde31345190bd82c0b953eafb99637816f649985afe91467ee7d7a764cb77dfc9177cf7f14c4c9b7c27209420b2086 0x13005699fa421fcdeb1312aa8c33cfe49d5e49b2c7ceb50890fe6544dccd220c67aa67f1b410dc8326d378c544452cb2,
  .add 0x66cfb6e937b66e8dcb4e46a323d366d8730c4debfb0c883bf537862d51a4899beda9276ebdc9b68f6ba8a3c8ba48aef 0x1783913d1809f5e2df6bd7f75ca2c5d7a87aad03ea264eb00aac3bf31ec220dc4530d7f38198b9b28bc8a920bf3192d4,
  .double 0x2c76779c8ec16b7cb4d6e483f0b604b1c299bd39d1943d4656f21d9193ac4f55e738d7e831da54a326734bdcf87d3db 0xbbd55cdee36a7ba1a7e1a884bdfb06512f96a1c6d552265be82fa65f00bc5f11d0a4716423c3ca728d0497ab2cfe3cf,
  .add 0x7c5a30ae229fb84a787780506d40fa6300e13ab7a79191ee082984a6bc757cf0b28239e02f148c8c484832ea6bede95 0xc6bf5c3408c0f2f0e34fc47a1bdfec3824992060db1c8a80e2e90dc7c5bdfb944d042163bd016bf5858200565b9e86e,
  .double 0x16cb44387ba7548501c288d8670565d7b6126656b3d05d97070bf4d332744d4d0d06f57e951ca12764bc6b968597c3d6 0x100324e1587afb3feea5b38c1adf66eec64478f926b2276c0eed6a97e1e0e0bc078099ba72355cc30caebc1a3d7d2872,
  .add 0x1651c76be7a1b7d857db88afefcaf82f9f11f7eff18a4d5030cc4869cbe986683163a9d7ffd9044de13050d349b000da 0x128b62172e5689b393dee744c1d022018d41a558aa6e9647b687989d637963d45c9f1176d5052692317e3193fac451a8,
  .double 0x1410023587fc1e8f67bf96459c24100d569e1656e1a33a15139c12c60edfffe37bbaa416d2b596f415f54004e7b3b8fb 0xddc6fda6347d2b5af9b76574dc6a21bd308ac762afe6432c4065941bc4c1db063833e7a1f13f9cebb773de9fbebf9bf,
  .add 0x106cd16981857d31b757f917179b9ef56771f5d09db05457f598da6ec9ba62fead39cb7f3041473c1714ac03b6fb1f74 0x1708af53b4a7e6294c4e3ae76dbe54f383fbd503d856d6d6173aedb085bfff46738a385206f1dfcfc07658a745a8c72a,
  .double 0x188dbaeae93bb4ea8848e8c787f59f0edc15d3db0c07c8641ca320cd76d240257633b9e6e64dbe84fafdbc55fd98c254 0x4ab8aebd1866cdf70cd8d5f4b9917278c0b34f30b5ca3e654355e1aa0f41ece1d5091d4111ce02aa88a6959de86201,
  .double 0xc1d10d90dc76322d0d1c82b2c246c49c29a2aa5e0202624d2cc52e3bb0a7b73bb29eaf4e389ddd76b7397e518b17add 0x170e68187af6a48c8ef116f9d6510f67824adb1a242fe5bc07ea308dc5d87a783dd27ac3e3eec8296e9b7cdaa223e89f,
  .add 0x17cd3d6d746761e8b67ce19be9afb8072f0f93033183946c5c436d559f8ba78c0af0d89d4b7a4b4bf8f9cb82b6b2efe 0x1607bf468d847b44cfd82ec61d62c9f4a854f821b54d83769963ad7380aaedf403765e7e01624c3a53ca431d8c2c72f2,
  .double 0x142221cd2c8e6fbe5ee5796a59de46e9d64b5f5f0a06e246ef88a315cbc3993d49312c04065f0614bafada30a178dd7d 0x10e483954b42798ebf081e97e0f108fc2de5b4a5ce4bfe177ef60b3e5dc6a95826ea1583eb4426316805bd1579cee5ad,
  .double 0x17d7e46cfa00659b33c0568a438145d4206486c02e4286b6245172feee9364a83491d251378b1f5fdacc90014e9a5c7d 0x82fd2682d1d60331e4c9d03ff74f670be4d999375e31c9b5c11d0d295824c80f9b1575684e47debb2f23af47298bcad,
  .add 0x3a2e8f646b102e5533bc5f21b178b80d42636e558822efa94a0db64527c321f2d874005b6cc0f883576668f0c86a7eb 0x15d8477582a23238a7ebf08e9da84209443e0da257e5438360451ed2a66e8143285f751541317f317b0bc16ccaa6be5f,
  .double 0x5a5473e42a2bc16a84bfbc4862283130a53165916b79d0c1fdc62c4cbbb0ba1687cda03589aadd035b2cb72c26ee78 0xde67b43509ef1af089eeb379e82540cda0510666a0ce018465ff7948de1fde8697125a783b924437317d973f404f06a,
  .double 0x192ab0b93983502521b0066a29c926aa60b6712d16a8a22d28454c8d524db7cebcf882d0b3a54aff25abea989148929f 0xef12593be9617ed552b9ffcb2b057f135056e3be58a16e8261281e6badae42c997013c77f2002eeda24dee644c4115d,
  .double 0x17536b1037e49733ba0f52c9919472e52af23b444e33f6d1771e5df1857c647c7c5cf570d19f398f3a72f13f433636a3 0x116572c5b4c9e617b7a5b7bf2b03f049e9e78824a64431db3fe951749643f049721cdf0d3d997b57b9b8174b7a15332e,
  .add 0xac0ae9c319d60b494b6133ea37be76a2092c2417939435f1b95b0c5d465f0abe671820850c27a0715d4319ddbcc0893 0xf7c463e370ab37e1b83402092e8feb3dbec4b629a037871fe64bf95bcced0a95a3f77549ac4a16a6a0a4d7360109a21,
  .double 0x4fcbc8e9f77802cf68f70d8da17a117bf00b7fa4fe16e0b422554bfb87fa622dd785fb805ec6365b70e8f7933922972 0x596ccc6c2cde67153ff881446fc06149e90f6898040dbb46dfba58c06346b5eca959930d2970ca344dc4d2655474eb7,
  .double 0x19f9622005e825a40cb39172267186599f3a3fa2adb442f850109e5d26b053c7722f6125e3160e0a030df21e294b1705 0x180f715ff0a28007e2cdbcdd49b077b64595573a68bd2d449eb409140eef0faaa600eb5db1b4788dec5f1e170d770054,
  .double 0x1537453cdc0471ff3858040492904c5de95dd05f8cb0ba63f8a3bc2e20bfaae5968f1deda9306add97c691c582c442ad 0xbd7dc07a838da68807a631f5989e87ef5ba554251b758ec3c49f189478e42eaa3e7121e3701f278a3d0335d33a3a9ca,
  .add 0xb4aa4ef6afc9845dab7e29d5a1ab49deec284456a141360e6f87645978640b963aaded4c992c8908d6184573af7e810 0xbacf48c98f2212449359c6ee54cf5cf2ae5219cedf64991c1fa347b1b1276488eafd2ae3aaf09290bc58e0f456fe996,
  .double 0x134a64946e9f0f8a20075e91209189e1a05ee0b4da158d900e3dc4cde88ca7db58fa4215d606157b1cf7935dc3858f14 0x1ea9db49d880f1623071ab87a0ec41fba984401088443f53c4bfaf972b4631d2bcc23afd3ee99e46ff6e1efbea1fda7,
  .add 0xb2cb1f84e29d844fcbb22bf9f4bad5ed2b9a21c2b2e6f1ca79969796f376d739ce12c8fe65ebacb640ca55fa4a97f77 0xb7149baa7d6e1c09b389ae09d5b0300d33ef462d74e700cb3e7d9da7142129be3875d3758944748123298acd13538cc,
  .double 0xe5b1e9fdedc9ddc8976fd9e424e014f338d02a3dc6103ca2ee31bb5795eb5684599129238f39c099bc8f15e4e5a3ad6 0x1480250e425b15b1026667e88a5efefbd5dcb6cf026ebeadc7e38517df091fba5729d32d789268e1fd56b6fb67f60a32,
  .double 0x163b8ed01a07445cd5fd1bc0bd0788eb8a941967263b0adb2058c2da038f0efad3dec82fd7d4ebf91e32e1671617d7d 0x112c25103af4d256a3f2efef89c8a180cc04b1f3e3e1d6f5e0ffc8f15e3328bafdecb3a7b07c1ea892ee9a1499092455,
  .add 0x4739b9e4240ac80f91b9da47738c1940305f1c7f181eab44b33de933975511c2331730bf224f10d7bbef8ae9a8d1a19 0x14f22b3a786b9fd9de6e55073891c76c1295a65d878318f9f7a6a12740978400c4fab724e0182a079aa7dea7223548b2,
  .double 0x1878c700244d947d5041c1b0dca33982bff33bcb6c59719353aed27aea1f7f24e161457917bc6a8dac010712daaba335 0x1225a6827ac0a64ec8a45074d9d8411deb7f5d825f722d25d8687e50a5955876d7dba8aff454fde729a9974044508c8f,
  .double 0x1b6de81cf784d76d2f63dbed07dcfea167f015c853f7cb76cbec625d8b17301ad31bf992f8fe92f4dda38b53885ab16 0x138fea4f0cac00368a92e05d3522e9049f8f3d71f850cdafef618e5daaae42e9e7475bff9730cfdeb1d8e64290d6177e,
  .add 0x14bbecc7d07b597dd37020e3ab9f2bb668fb8a00984c373146ad95ad85fda2f72902a7a6feb64a5b4a79ba1c0dc62c29 0x15523f9bec59f3b6346f99c01b9761547b1cd5a4fa98fddd69a24b2855f0678853e90b768d8e7d2f056331c3ac1114ac,
  .double 0xabaa75dea64d5deca8276586f5a5bcbe03a1d3bb051d26fb26b0c9e241dfa341c8673ff43a5fa2314706a7917ccd1f4 0x8811f8f5e0ae0da852550a66e8ff2ce512a76e7aaec33e6c11c642deb3217c83260ae85a959b7c19df3e42dadeedc8f,
  .add 0x96024664a3461c0dd8862b744eda2f789a9e222cf4c06910e344f991b7114cfc253a5a6e0ed9e5634fc1b8d94f34cb4 0x27ed7dd93753e0ce5f676931b0ea10772f7c1ab1245ab084b0e4b3895d3db424268f7f646a3995a12ac484fd6669bf1,
  .double 0x16326e5cf34f4e5407f7c37d465c7e459a21a863902fbc51c71813ca62345f513561f0c2f45855a6c426bcaebd07d38f 0x867a5ba7e39689cb443a332c12d69da4e265f670e380ccfda64ad9b8b0fe71ac3171d28ab24d8b7a3e6e8a3361a00fa,
  .double 0xe66785bd2b4a373612040080dd4ebdd0db68f4d24da77f2f069929de32e6d31e94d94d2b7e0b5a1ca681c76c143a38c 0xcbc7a80745f4265f6739bd6ea05ef2d905525762ff0cf5b87a5d6114a2a76a5418df8bcb55141ef3ec6d9c9ab3241d3,
  .add 0x14a7b40904d0d7cdfae15dcc5d40c3e9bd2105d36e872203efcc5ae4f3e727bcdb66bc51a7a835b8b9232f20c33ec576 0x1eac8bb7e48f5147923baef4c027c749aa89ee032251dc2396f071aca92f39d69daf87d43a89cc6b004345f5d24ee2d,
  .double 0xbb745d10b2b06893554f6e460429ab4c8f50d753ef2d5d16796ac16dd94795d796bf0751b61ad54b9e2954a66c48495 0xc370ee8a9e6b34bb7c78388d0eb9aaf3f532012d5a77debec8bcbf610bc3c487889cd680271f5c19c869b419f224a42]

def cofactorChain3 : List ChainStep2 := [
  .double 0x7f0d51a1c008bf07c76de240991ba68e94c4701cabc34577c1b334606342ce2de184b8a6706ae8590be5fee38aabf05 0x18c787854415b54782c64d79f8581a7ef86368f4a6626b4d7e63b8bf34c02233245fbdc84344edfc79fef85531fe25a7,
  .add 0xb37ab9c24ff6515b95600cd883a7c76a2523a60b866ae0ae7c492a4a54e4e85bf19374bea9bcc836d7813a4da53d427 0xed0b8186c404340bad1ef45530ee873c2391b995495ce3c5d861cc05a2ad87077f9208f7cb2a68823f7cb00937d0316,
  .double 0x167fb9701ae8e177fecd0c2332d19a8219f7efc613610979c803a995220e17d1c245eedd5c084e34e42bae7c82a98c6e 0xbc5424ff70e70e0f27f315c5731c1a2b0d1150f9a0431b0bc4f2370efd9555da046ae4edf2b30e4ca8cf16f5d3d8ec1,
  .double 0xca4e5a8c80d0296d1a56ab74e3961c9959db166c185aed695df777d6e38f650c6fd342e2e4c0fb8a5d66df742df58d5 0xc80ef3f7b4f18f3d6b5bd146accb43d8e26879b253f4158046888d6aa10a9ef4433306d0bc17b7d7cb6fba3e890761f,
  .add 0x7f0267115d3b4c171582c5c507b797de3eceb556be9168e97d2d53c220c6184aa6dc2be988a3887ef597c1867dbeb06 0x1974515f71676bdc0e41760066886730fba86fe17202bba7c5e088318a6d7f7bff4ea16f35f611e884d5c880072c0065,
  .double 0x1050e0fd3581f767a014380196e69f1316383fca42880cfad3b3b2f0f06532cd13bac94ef3c3cd701782ed8e01c789ce 0x8273b78644bce9bbb284f155c1ca0c929a76ea8c794a279742d142a1e7805f5a843d1398e5026971f76177168a416eb,
  .add 0x745197066bf2ee9e65ad2b8facaef7b2584488da04d0a18ee186762349e41c02db75ffcdecd9cd2fc04b91daece2e95 0xdce2d0ec70e7e3815b9910ae87df1392e2517331d1dea2826de54e1d02b1a3a4951231b962a43282694e0a73b7fc080,
  .double 0x17e4bdc766e71b1fb55f1c5e82cc511e7062200d43b6346e6ac1f931d8903eb18acf929a43dfc7400a0196a3efe64e25 0x9b0812a103d65556736d8c0820af950c33fda712b7638216603eac573b905ab7ccca26f3b05ed526c6b1240e39b1e1b,
  .add 0xc65cd7afb9088c0a25d5eb803aeacd21b62e6523e5369379973a40fe26d3cdcadfc4735fa4a789b52d3003c9ce48b76 0x108e1051b748fc99dea282d55bda50ed658d66f0eec55692f983e1b61e662c1f32114321d71cc7e4224d5de3aaed64a7,
  .double 0xb8b97f481caba0d38f6dcd9a0b878a56deabcc56fcceb1679d8f3f64c3a71b957e34e5f9e951c29937622a33790deb3 0x9c8d50eea40ff3f983b2031bd4d009f63d629b3a0941a5c255db3ac2408f6ef56ab4fad47eae3d026c929db2da49d96,
  .double 0x1ea59b39859c9b7e57cd3d8bc641633751be55dcdb1f1cb608289efccdc42fbc7c6cf2d46aa58e0d5f4dadd60201820 0x19841d0bd27910ffcf1a4c92062ffd6883e2968c738649b600b2582f62871c4823b5075c205b1ed0d4a7de134b9caa00,
  .double 0x12400ebc817c81a0104be26f420ba00da6afe1f4972e2b36c52847eb1baa5b698f774b01ff48a4e40e096ebac77af258 0x7c3917ae3f95ce3e1e2b1719b930f9a90e1d8e49d9b8b2c486c2b77d264768891556c01484d4af3ef5bfe9dfa9e9715,
  .double 0xae1f2f9ae978c3153852530626d54ceef45cc3f0b23ab80975103ae3215e48c1231086bf8ccc60bc4cc4b943db2bb55 0x47d4ea3fceb9923938891edc3a67c0fc15a2a55acb6887cfa85b0839e2723f23e617e58ecd86ce1a231d633e85d8124,
  .double 0x114a769d1dbf197f1f54b443576e231129a39b70ce1bc4442804561a49e37324ed3280cf028b67fcac0f86e231d61873 0x8f4a4bfd1cbc205b1afad88fe8a1d2d003245e9968213da5cbc5f9e82eb09189442f488a5c7cd76c79a9fbd58ede30c,
  .double 0xf035087c1115eac9bd10d45b87467fa4650719b53ecfb7f2abde85b926dafd0ac5236e750906438fc6523b30e778ee3 0xf1037d31de6907cd8684c4e49b5b61fd03c63c6107e7775b4ccafe0cd2427b0467c2d0891ccce10caaadecf82cce39e,
  .double 0xffe9ceb1d14537cc4c53f7d70901336de8a0079e0cdc5148c26483eb653b645734d1eb875560721b6f6066e56741d12 0x186689d02b8d0c5e24728466ed3ce713e8bf305e0ba1de4f0eb9fd13b635cdaac9967d79f63155e7219cbd678649b78c,
  .add 0x154a4aa844300e7813ab13bbffde66e2560d2aa3513554668e5b19ee3450a623198ff195dd2189af5328363bf890a181 0x10acc53a38bf07bdb13ffb2fe376f89b294838967f6dcdf8b3dad99b2442075d75e19b676af89d467c36711d45fa2344,
  .double 0x19054c06c42335998e400e893b3e176cae2a3d46af99509797edb0b126ba24d2b422fc1ec49182bfc39fd5cd45a3be9e 0x5fa8e583277aa252b8f2f892dfa5c50d79b88ffde2267e74017bbd68a17e428cac4142398512e359d481c9b97056e9e,
  .double 0x1729fa2e3f530df2a594a0ffeb34b8ba8e2aec5bc4978923e172fb56d7a21021a37e7079d1fec1eb538206ec98dde8bb 0x112f71a601841b41becd694681b46ecb78b773352c217d61871f64fa0821fd62b6f35df13287debe3397f01010f80b5a,
  .double 0x196db7d475667d87e0f2db96138cd2d1c7d8c026e6ca80127ee6bd304b69b2e5e6a81a0825214509b0a9519af037656f 0xcc4932385f908482bda779c59b76fbe6f764757088675a66085fbfbdf7962a75c0ff58abf575ba1a0d6e1dc72e2696f,
  .add 0xd68b39bd221d3bcaab6f628c709c5e9379e78d45b1ee941808ae16cb12e3a9b213d50ed3c468a63d11d88a2ea8bca1b 0x149b22b9712405607feff2015842500e66e4bbd6947c492e88afa8a28c5fc728a302fc6c0272d9650bb628d4a0fb1eb7,
  .double 0x967b72b88de754d97236b217f94074ca779e299a95b83d13448211da4fdc2f6c41f6dd258dfca976e6616cf2cd64139 0x136ebed7a92ef80f2fe016d1a4e83d0506f815d79ad5f23f9b52782cd9a29686d2f698999a0ce4bec8082f430b5896da,
  .double 0x193bca93be59d360b04c1b2b6e61397a600dc61fa172c26df93523dd74c8ca7f9503105c817d9b448dabde4c2a6eb5b 0x118949ccea3a7fd6d180649e39b593e2e1f6d1cb5f232505e54a2fe01b0e7df8847eaed6649eb3cee2f83335336425c6,
  .double 0x10a199d75f3598b6c7a037135736e76d557ca32cba630f375e14a4d4fd100af967054116e41ca7e7a9fd6c9fa3ad74f6 0xeae75033e8657d0a22408582d340c4b714faacb84cb045fbce7b27eda0c3faab0c87a75f4013c5add14b30a197e1f3b,
  .add 0xa89b285fd62a643dcc3ec88d5bc81cfa56fbb288531b5987d681af8f97b0c292929a5fd2caffc5141b17c990dd6f55 0x7c24b65d04d0a36ae7eaa9840755b62f922a2267777e7cab7b0b0d3bfe68a633d4da17e0a89231df1036f7b95977159,
  .double 0x198ea9f06b7727c53b762a76b901976411d111d2e3b0d1e443288e2c51c1dd32d21ed03c9a33c0a6ce94633fb305753a 0x3c78c77c8b03aa45d210e4848c45bc7b77da87cfab074487788461edfe9de147c4ce802b4aeb350aa3b46f4ff5e2633,
  .double 0xfce0b619946503f21df5a4182c622e25f2a7013dfb152ebede1408880376007d0a0263a3fb6d6b628e935d46cfa6e30 0x4cfe99c20d991e65272ddd5aaeb7229b8d6f5e8193d5ba0ce5d7bfde3e2eaffacee18c3410438f33bf1b817458b6d97,
  .double 0xb127c87e2a5aadd0223e2a6611855e5352ee0f33db9f8a50d01c1de50e1bbf86398f4db2981d88a93f368cb6a75649d 0x770b1387692238697a5afb4d581f9ebc2fe8c80adef67f58d651636139545a049bf2e9693d1baa1ca71e949a4638f7,
  .double 0x1825d16ebbf8249e44c85b01ce81fba4a33e850ccad4a591d33820b34208f4308296e67ef63d9f9fd21aaa6fad8a3621 0x10ce9c945300e2bb49a8df7f1c5c5b1462dce0c6fbb9be6377b03f5587ab7a686e2a53a35de6490344c16f31f7f69bfc,
  .double 0x16455e016ef810e461ba1c4a8ad55f9289ebcd4154c9c8998b2c671d85b77343ce0237f507113b650d67bc56e52f779f 0x1556124db6385ddc676f72fa5956d5dff3e750c67ca6e852e3abef27373174cf869f64ad0d30ff47cb941ca08b316c81,
  .add 0x614d32b2bf2fff900e478538f88c45d87f088d988d5302db9983335eb7ce4b4fc02b0436a4da5edabfe25eed63df2fe 0xc369fba1f641e2f2ad1e2d681b6b4a03f3bc0636f98ef1b91b75546d91eedda1e97aa03ee89ae599b52f6cf069f1d57,
  .double 0x11df60b69c14950af3d3ba477c8e8b0c0c0ebc3a5c35cdf544a4c0c9c86df89606e110c3248736ae0e970301c687c597 0xcabd94a6b4b1fe42279e71b9e8c1cbcfdeb37c9a12c27861b3bb1d728a8c283a34158bace19692334e05a9c4c162990,
  .add 0xd72c42075c6df2e5db2d29426570e58f9750f6b518585bf21bdc01e34b05a7b1b64ce41544d4bab4e4efedc02fe1021 0xf2a634153fd07e84b2d9279642f2bcd0399c22044990e4baef4d24f9c63f6cb440e969f94f629397695265e83134134,
  .double 0x727160bca237e6f81c96e021d9abbeec325d890074809139a21928e60fc740e0e9134daf3d3671dfedc94aad51a5c39 0x1303cde2203f9b2f3112d6c5f527d3f3a9a28c6a9a742b6d7ecce30eee11eaebedc00427d72965b5b99bf6621022e5f6,
  .double 0x711b2cd7d3d247647052c81cf374d0c562a2d539e6ed8a2e9315f0e0eb10f701441b4b8a9229e5e682799cafece2327 0x1198a1739d3cf83a56545f2f2967c74098ceb6c887195c5554b409d7846509d379e9ef27a83d4d20eefc4984d0ac4111,
  .double 0xfdabfd63fa2259343cfd6ab75706f2383a3cc7154ee3609a320523802c921b640b4e453646c726651d2366309998b28 0xb5cfc5fcaf0819f4a64c5d34f4cc09ba35b9ecb0425d4a7a3be109d07e642b20814ab8a3768ea47010e02db786c3b48,
  .double 0x1cd71f71fc4a40e346a1648025c7dee2871f4cf7cb69e83c143f56b17028e0bb2daf3323697cf61a9bd9eaadfbcc13a 0xb4e668b17dfa6db5357a0b69be937bb399fee9538e92f597f2d55d083d70715b553308cf0957b1a84c3e97c70428e43,
  .add 0x11690aade2bd54c4d2c9b6d8cce6f5c9881fd173759e1c5acc05b9aa345b14e7a5c48da37650815ef0445fb75bc98d1a 0x99aec364bef207d6b2b83e4ae7ef05ef819cb99bae86c024669a653e82b06f72c3fa4f5a11f963fc0e8ec8f0745f936,
  .double 0x978a411ab08aff15744109df8288386e6b7712cc6b6d4a9bc1a183e948ee5b70f7286b1f0b3f5255ca796390e5b29cd 0x1964e3e5a143ca5b9a3fbcf9301d9cb0e36a81f55130ca3a51333b9896d7db1d95be925439f54fbee676c3a20b34b70b,
  .double 0x8eddd851e1cdcc82e7c068d2cc756102af4daafa44903f1480ed7b0f3025d165e76119ebbafc6fcb3b20f0565b8cbe8 0x18e5944ebea121dcd280c04dc81fdfb5c3b6a30f3c94288ca46c794581d31d9977e735ca47cfb7fbb92cb71a30ab9d37,
  .add 0x1329632420c15487d5e30bb7b3c923be15e94a196768aa64ba06f539f1db1f1645e773c526c5aef5d237036ef6ab00a 0x1635fe83913a567e260a09e33ba9130bc97aee2bec375dc123988458c0a51567479ad918853b75bf69721f53cac4dea6,
  .double 0xf9595198e0bd98249b5a5e5ec7a00f729febad2d9d60cb6f4ddb519d746742788c0965c4bf55b859c46b00c596ea46d 0xa71649e1e203cf72c97619aa6a7a6a827397740d8690238b08215c0f13188ac0044707a2c43f6a4d307f79d1e59d84c,
  .add 0x138c4f3f1fcbff553002221cfca95ed974357a382243b15f11b2171979e6ab4ee6de3de4c58472381abaf50b32ce8eb4 0xf1ab4783c38cc89550f105047f8fa9c59c3e4aad45b47028307b547f2e058c76a706b110e154f1c62ed17c733a0923,
  .double 0xd6ef02b359feb30d549126830edadba673658e4899be136ba941ed9de3a4f2c1e519813af9842057f269350b7375443 0x1295bc7bd28adfb9d1ef3a66368b40993b1bd9b9711364af24a138548a30bebfc96db21b4d0c97b2fd965c03a184247,
  .double 0x177945b4f89edfa56b1376cb504c4b9b0cd6846d5091aa9be0fa02dcc68230c541d5c0348d68c52e797f63e3b17149f2 0x137f4dc9ea2840b950c4003cc3908ffdf3432f5b34447e25700a9c40ce26f0258b48d03f637886645e9976b79f2d2155,
  .add 0x1887848fa3dba2d9da4f467f80fddd9b2c97ad02d451ba7041c22799deb995c82a3cae277244f3ce089ae9ce6ce95374 0xcc144d1ed2aa715e018d0cbfd863d38c6218dd964995fd5c8f3f7395d90cc9d8953cf5c8be681e4b02e3cda37a15b6c,
  .double 0xa5fb72de151cad5589cdd256d1daf2467ea0dcb3fb491662780f3f810df84f50b577a5196278adc1207b9f22f265e44 0x1457575fc0f12c2034adb9023a16dff2d8ed0519c83e906d074d555cd64296c6f050c92c787c7f7d3910756aef725c26,
  .double 0xccfc8515a2d98357e918f43b985b11484bccea2a5001ff258ae74f9b28dc8d2ad089e2c69d44d758bb22775a6bb6fa4 0x4ac9e66660c6bd81c0322414aa5242f6679292112261c2d035d9f406141b3343664acb0ae1e05a5af627e006831908a,
  .add 0x173463272197730662fb0d229f8474996e3a0394973347a8525008ba1188ac2f9021e8181f42d88a0441a216c4c23f80 0xd1a5f87ccaf1a405491b0623370feaecc45cc9e765849d110c8e91dda7fd96e26f9c839e560a26fa50a2d75c1ed5710,
  .double 0x157e111f213dd40acf215ce66a12e2724ecb3ef7a73bf7cde8ae70d6045e1e79ab4884ae3447f3505866e0f25c92cd35 0x1219b1a42c14e15b6a0fa518c92e9ac4cf66e17593c1d8bf5f26678769ebedd763f91d4a23b3f495c9b48331f73c329c,
  .add 0xa500de06e11e77b700b62bc4b81f5cca5335fbe2da90667cf034e0031fe7defe33f187d66cd4c667b564bfd6b835730 0x12dc2641615d93defa8d44d35cd8256f49efc64b0843db9f03b4200feaf8b63805f24d5416068dc4fcde0067fbbfe697,
  .double 0xc8a5587a0c4c1f3553c73e4e5b00b3e75418c816216a3fb2d97f4291ffbd496cee1c5c3c64606a3f75a0207c8779f73 0x50420838ad97afcb03acb1471d3872f8bf98a973685caa06a3c5382ea971915033ca58d1ad7c8d72d860edaf564f6f5,
  .add 0x7edbf3addacdcaa491e925c8595eb107f76fe156b4aaeab9f918bdc41cdd40628e2f5facfbb18013f5856b17a6be598 0x9a65f0c8d745754a39b1a0f5d6c443f0cd8fa8d230912be40511a28e77c8986d2546e5dfee923083bba0d596d1392ff,
  .double 0xc285f0839d92be058edf6385c685723c0c44e96348e1eb22f47797680c8d50c75ac5003af063baf35e31388852e4b90 0xbb4f57264304f0d731db166b18ee4ce100d4784861a4820c09f46befc6527ecd31db433a25ed0f3a73a86116c7f2605,
  .add 0x1750c8777ad7251fb9c4feadddcbb38a40220cf632e846cbbb3250f0d5d04e081faa4e690bf7c3c2d6466a27b20454bf 0xfc78697d16f652f4e4cd8da715a1d9ebdff72010e072987851f2a928b1b2e61fa14d36d768cf63268f8ef6d82c476e2,
  .double 0xd8a6b41f9f972f5aeae06cf6286ece6f1bd39b53c26895c94a92c835f5a1ec0b6d0dfacff0efc5e754d14c2fe9e3467 0x346ced272434f765a28edd7b3942e409c12312d014964268684514cf993ce530ca6a06a3c93f40dec5e13282bb98b5f,
  .add 0x178a2077342c97be466e2311cb07c40229f00d47cf1fbeb2bdc50ba5258a8fd65450275a3ece50600d03b98b6a78a5ee 0x16003cb42ad95d3dcdfe83f58962629b27ee84ee32b1cf464acf587e4565b22b91d28cf6b9702f23ebde4669db467cff,
  .double 0x42a2f0f524aeee6d3b061cdbb31055449edd02e7c4674603dc7a8a162fc68eacbacff55a32879ddc9e32074a3300dc0 0x628e31d3693206dd3b5885894aed19ab218a4aaa64b6f7215f2d63e28ced53e682401091ec618db16bd8658874bedde,
  .add 0x169f479be6893d464e537b81330ffe3ee4572b6e3ee9627a84e141f912e71b4adc984d2479def05ab9dda824ab23463f 0x26ea69250caf51af62c989a57e5b31b026f77914287b120beab356fc5bffccbf283325d44c016abdf1a530671799dff,
  .double 0x1a580778acfb1392978c05600cca9681a85433280e470e3b00cafc2cadd098e9ceb988c74e22edda9a8adc5b627a1f7 0x215c82be9a49a51029245fce1dae0e12bb72fe28d546c44b2e57bc9786fbd7d3bdc942a2302301698a4c628f48cdcfa,
  .double 0x17a2aa22d853634459ede8ccb8a899fcf875d3d9bcfb947186a0bee2d917b9ad471cc3829c8f77113ec8b93519cb0235 0x19a5df2bf9bf76fe055ca4422a3e2acf9f2c5b0b15b7d6c3692ce5e9795f7e62c285c49eb451088c57e26404d2360ec,
  .double 0xa600f1638ea161c9dc0d419802bad06f25019fe9fa289c212eaea150b5531ac7504d32072628b34e8ac30af412fd153 0xf843d125ac3d205f2d4f2e592098b5a1f9befb0789b86b5b137737baa3c9ecb51881c8475e95c6393ab7d4858d500cf,
  .add 0x10128c2fa81de75d66109e2aa4ccb41bdde91c4ce71f93055d9fb5d63c75b29c1f3e569a640c6894c7161866e4eaa7b8 0x16dab838c48caa17bce0665984dd795b70604cf82069b2bff56c386b62c5aca66031d6ac8b80cd22812ec2a0be343fe5,
  .double 0x149d1f357146fb880b2e926182ee9af7560a75d5f4ee588cadbff0b5f1a5ae3b6fda09bfb55b3549f805d670fadcbe4d 0x11a7199ee09463fb9caee6ea624d560a9557ac97c23de7709284423b3ad65be105210c9cec1f8e9ca786f460c9a6baa5]

def cofactorChain4 : List ChainStep2 := [
  .double 0x16e3954915df4ad1724f5b203b71c424a08774a8b916a12057a0ee4e1280989b198ad5b426852fff75a9bb41506c7208 0x12869c82728c9c7c3b2b2e00893033328bae60eaf22f7cc559ddc78d63dfa2b049b7a6ce150ea057b8a45cfffe4102f5,
  .add 0x16c577a749319bbfeff65bcf794661ec0286bdb69e752b77fd94bb172291d8a9cac3c5e7035144b74649e9540fa02a2 0x110b73035fa2109b752d1484bb5ca72151ff5e74f704fb9d65dc2a15097d5c5fe4f395afb64bdf0860a2c2722eb81bd2,
  .double 0x50121d99d8f761f57ea4548b823492cba4e01943336bdff6639b37b6cdd357adf453078250e829a7f10f402b565a629 0x13e386b1a54421da5f03314863ba5169d599f64c2b02dff060f0f8c18232f1f0a0a110cdf272ec69454f7d8fc08bb8a9,
  .double 0x22b5c7c1444d3f2b5ca1fae1286dc67e769e56d4c486f960db63d8b818b6029edcd1318ced7f6fd9d8db0089512264f 0xf6c973d3ca7357d071257ac923c4bc43600e2eff3c45d90e6cbfa4bfb69abc19c2ffefd2d5ed114905094c22b76035d,
  .double 0x11976b6ebe1bae5c51dabdce7a8c08fe43e34ec9177ea4c559bf8764155a3bba3aa3cdae4463ccbce1e3c43733b94042 0x675a3294df852122cd1d86ed2f3fb26c8f274e7cdc7b46d5b5ce84ffcb57f2199215ea2d3e9652317b19ffbffceefca,
  .double 0x19b344d93dfc3d30fe3e5cb10834fa1d7ab034ec55b48444548f42abfb709bd5f1144d8147ce2d3945f15683afb65930 0x232f66e0e46f1e494cc22869c446edfd5589da9cc95b90f59a4195dea2fd7e35b9b584f50451409530f59c322978fd1,
  .double 0x407f1bfc96116234dd52436a9cdf0ccfec09b4fd1ea895404014227935929abf3e37ff768f51bbdf64817995687d129 0x17c60e5021496bf849f8c34bef5387d46c78cb9487334528e91dc79b2516baafd7fc4a3eb548ca9877264f3e384b65ca,
  .add 0x119b3d92ac01f0853a2f05a086ddf9314d1b3dd7939b245946c09ceb931d9bd230c320be693ae13c72004887cc2b8116 0x488afabff22d77e30403ec71ec6a499b343198e1395025ec247aa5a153836c07a22e414f6f2f30084292c0fa7f74081,
  .double 0x1177a5d0b7848123a30d6e2dbac6f16ba869134477d7a1f047c381b0a1dc02e290b7764c9f72dfa9ad57e03b09e1b162 0x17043447b8e3d637e66a4f724e118b2fce7ad36575e5640c7f457d26eac73cae6fd9695699821d8ba246f2cdbac4217c,
  .add 0xd44973c78050d65f32eea744a4a5ae371118b86f1b3fcea75a2332ce085218f2a69f58a9363c2a9cfea35890a0648c 0x8662fca84512c53ec27429175544d1c5646118bf2ef92bfc5540e6274ce5c793423b4ee0bdf93b34c407282eebf3a3a,
  .double 0x8f5945f05ff89aebe0fcbffc472ab511fd468cd05c1bfb79a013cda177d177a6b586bf4a56fd83c45b62a6e0b90f9b 0x6feb2c288307602ce432850ddb879b08db1eef547052081fc75faf92dae7f6835ca1ba4d0b43e4fe1ebfc392932a53,
  .add 0x904ec7b72b33daf68b23da5f32770ff01b99d2d8fee5e91b815492041b14b26c77200e7ba262513e01771290c3998a4 0x88aa59cabf01c69544f45d3b57e5fdf8939b658222141d40c6dd77adce16af8a324ec9c48f9d4f0bc73755fc66a53e9,
  .double 0xb38cee09755d9ef1cb2a976441ef6c31b24faf19f25d4edba14d6f504454351de8621bea4d3069077d66b74b413410f 0x93df7447c5eb3debf22a3a62c34226ce64a384ac6212f26bf58cd32c4fc2c5e4d48f3bb9e686180d4bfe2a14148cdf9,
  .add 0x1194ca358b0ec272ce16d621121b0365644b4e96634c2e0eab3a3298d6bd0a4944e929794f93191ddb783e3ada9076f8 0x64e9bb7bcf33a420c26041c9e877312d78a1391cd943b884d05b22d89dfbf538774faf23c9d66fd6e387a8bbc2933cd,
  .double 0x10cdbcc21ed38106afa55862e402f01ffb13c2e60572b04e3624fe763fdf8cbb44de252a96cb1c3d8fec2f7834f1a8ad 0x106742f62af980a686969856c64b75a096ec1e266d5218fb04267396423acefd89ab4fb936f4543fa0d61892e0602034,
  .double 0x5f5f5b696ae95f683075be198739415a2d8d53f0e55b5348a419d94cfa5c64980c305ae2684839ff1e4717076443649 0x1227039593eb91f553a3a6b632d26dc71576e14db87ea94e47ee2f57c73d5af8b3288e6b460cc4a588bbeebc45095e8f,
  .add 0x96d65356ca69c16e3a001be3b04609dec182539e52a9f34d7ee862025bc9b65227b9d71e0afd86868d4682073672a83 0x731e6064fbc332b854cb11ff90f8d1a24512b122771a0112415e80beb30be9f676b0a2d8aee14f2afd672f2f4422bed,
  .double 0x4a9453f961102b5a34fd5e0b167b90bdf0b6ed54ff15238945b79dc8d5851a5fb9f2f866acd057e1c3be64527319533 0x111cea8a0e42731e3d977ec66c85816766608cb8648388909152ac3dc752a7b998252d574e36e8ae41c6f7d9befe3ffc,
  .add 0x1215e91d1f92d360778da0f5a6d4f7a3969a8d4023bb5fb9d298fea1e76a3b0ee785be04f73ca7fbe01d7acb9f0ee034 0x12dec6ad9b1c679b3988471f6f3d99849b8a53ad859b1375c4d1b4c7157af638860ab6d567bf4a8ca520da24988067bb,
  .double 0x7c55f9e1551cd44c0f06f067aff263b77b0a5a6132d11b48d7602e5d2caf605b3a68b3075182c73a0573a1617231e34 0x14420abefd432c427f660dd747a92f26babb060dc896f392374abc51ddb67b79951568a38c8d80f4545af2b67860a4f,
  .add 0x48730f4078151fb43a649ba16dd44044d778097c9644ff96df18117721565a2bdc15e671e1eeb2a01130f87de005f91 0x292976af74662e8d78ccf5aba969bd4acda54d010e871a063563f848da36e036ab63ee84b6a5d52ba899b74388c72b5,
  .double 0x10bcb570da60a9e85b63114a5a3844c07d081a63a417249c807cc8f6ebc89e1c6453202865f1bcd9537c43fefb382628 0x192e4865b41f1842d5a1dd4864996c0d342001098bfd7585e913f68287660bc57fe09c8938946859ad8c5111a8d587a9,
  .double 0x74c1d6ecded6990f7ffe0275aee95b3a31d7872fa91704695b4005e01dc9f752826aafcc38669007e70b0cb84cb9370 0x18eb64d0d8cfe4dd6fb5cb09863163dc7a222d71a8b58c2c0dae3f9414772f561d739b8da9389855b7244abaad9b12d9,
  .add 0x8e4ad635d46fda2d8bb33bbd1c529327b318f827bdbe9e06dca32cf70ef3ee747856d321e5ffb0ed665f939ff7c479f 0x17f02d68dd96724874e19554a5b898eee77855bc0a3636e5dba0cf06f56410e35b6f67baef6bd43c406ea20427d5951a,
  .double 0xb22fde92706af2a36f5c77f1d55038303f6e8da93bf17a814a4e5b2dda9bd5813809f54760906e35ca8976b7e6b73ab 0xc3bef7affbf231e202b7c334804aec79a214db78e546ac6879101a3456997ba101ee0a25b5286c24dabbec3204591c3,
  .double 0x1858107476f8185bea0b9e585337818ae563f4d43c4e0fcf1255d719ed51e58c1054f35261e56e54e4ab711a49eb6f1c 0x77c7c9140bdf6b5a86db2a5cafab8eca8204e15fdd9b23eb1f5f9579a2d143905d59d1b6f2e4bc8a9ee1fe91ebf41a6,
  .add 0x149a109b8aa9c0fd1e4c488264dbd7f73ce099517aadfdd1e3a0326c315ed5efb9e4e41957ad36360946e604926251c4 0x1974f8d531fc35379d8de0216313bcf09e24f50c4062044e13b5e06837f988d8aa19aca6e72e90e38c33b2cac82a699a,
  .double 0x17ba571472da0e69ce49560c7e7af1d700d1bfebbb74e82e778259f0080d1b3c9d0e5d9795e68902864ad109338113a5 0x7e9e16a565faee4408d216ec77fc3936e376e84d205a2c28d6cf045809bef21acf6092e272a8eddc9004dd5417db8d8,
  .add 0xb0a009d0e554aeac3e91b985022d2426dfe5c15f5fa539d07e02946dfb886b6c913f41333b76b80f13c3f2b6a4d8602 0x175802ea729f1a358a51551c3c11639045b3c2413db9d679fe51077db350d32c049c4d8b4224a4a08ec2448f8154ef36,
  .double 0x14b76ad62929eb6a5cb7f0ee38d71812ec6f23e6b6ce1f138ffd8e19754633db2ad20b6e53da165ff94a07ad86c2cdc3 0xb6bf00205da822b662fb824c7b362b47fd727042204e505977e42b17d539228c4e802906f539f4489b4c88339a5411c,
  .double 0xc4633ddad268288746c924e0176c4176c5ef83357923a6d96dac977bb9ed984c5507034cb48b7eb25dadabd4e29ca9 0x385a9f190977aa79127f1cd52af4dcfb34165e578fdcc8638d1a9e13ffd39734b57bfa3c826b26300acccbf96b212f5,
  .double 0x160032ae3ff19b757144110f1f58ac7b2ca0afbe95ae7df324a77c8fa72e074461bf8e0f7f1ce82a470b2695452660c4 0x4b6a2ae885b300793a1115006d48eb062b92cb17efa11804d3c62011b937dbfa5102f43edc8773a198ec256aa0bc1f4,
  .add 0xd4d1ff304441b5dea29ceae72732b1e718a3ade4fe82e61b59146fc1da4c6c8fd6311c0ac7f84d8c00ab06f02232ae6 0xe85f16299c75bd4cb9bc8de8d73d41c792926cf4724d3c130103ba9ec5187d4742c0e74dc4cc68f2e14a192dcd66cfc,
  .double 0x1c23c8ff04a7f90eed94539bf337cad9dfab0d780de31f19236dbed75bfba3f80e4b06780948e745b88e576015e6470 0x141ebacde923333058a820894494fbcec331d27db60f3146d5d2eb686f4c6162e1b16b6aec2120bd3b01dad3d19bbeda,
  .double 0x158879e04d05fecd09ee004e52af786f9318f9eda776c6e6b81bb32b0bb1b7b69d47ca5bc005ec42cfa130e621ba61cf 0x12c613392a9eebead947b559200d61c8ee1a344876526d1f2857946cb861918f0505c7e57290691f780ca0a1fe3e67d2,
  .add 0x68ba3bdf3cafbd0686226d5738d69fbb5aff982a71f4acac1730d7b6fe25e3d9068b9d53ffb7e237f000e94ea616517 0xc9f0970950236fc0e59261ac19582e2ee9d483cf6b9cb1a0a2c80656ecb9c8604f07dc59d156bc51dcec44a5970a758,
  .double 0x19e17446de386b5e177e13ec9aa9cafcf3c334cd6b4c96f9963f085fe525a212646a55db9d2941357d4f5992284f8a5a 0x493b7c8253759fe9ab976bb7505eb0c764eb34cbf26e2bdeced689ce9f8c61399e6a3d6898e2375611bab3caaea26f8,
  .double 0x174818d9551611e061c65d848423ff4a4c3bb538d10a333c2d54dc59d1e9e0e5cc7fb40711f9b73176ed0cbba59769f7 0xea565a572c6a8cc61ba8909c65a9a9f108ea7ab2914a9ae81ebc090ceff81543170c300eb1f7b8d0eb38fe14ed14890,
  .add 0xcfbfd98e1de71bdee6b187b26b618ee01acd96d7849d0c2927e5b3a110fceb36280f9f2f811a26898388bbbf1255c7b 0x179571dbbdf58b8d0919cb859749a2c6d9750824e16226fa33dadf3208b8c100140d85597ad50808616c8fb849e0b200,
  .double 0x12d11f10d0a9abb31f98ce6260afe4c7a0c81371889618b66d9bf5ad64c159ae7d5bd356ac615d7495a04cbac4770aee 0xe772b0a36ddc81791ac0f1a67ce74b31d68ed57757e3d1a9bc12d89badf0ee35e94e695bf0a87f788a06865b0f3ebf7,
  .double 0x130e3078c24030bbb393125b18bf053e42d76482669356887d6778b764c5895a29aa64408ef3b3883f04e917fd6cd136 0xcb4d1ae4b268bffebe1760feb4ad5948a2cb27c02ba2dc79f34094f0834be976b881c90d809e467353cb4a4e7606171,
  .add 0x16014cad07f1a301a6356ae8e6a48561485b74d262df037683bd84a24813b5c1c7dc786846b46ebf42bdc64a4c8a0c71 0x36d29da7d988bc7afadbf84f3c6560ffcfb7b5f7a5345292adcf7127968caa14cec7076be3ae479a2642584819e5de2,
  .double 0x13ea2e693e2502c896552099acfa03b3fc384ecd14c9317680eb14720e4be6208b8335aa457ae9cc02bf20de2484061a 0x10b9206272d7bf53b206567e6fbdd4da80c01b28b57f6b4a20df26dec299dcc9efa6575414d960a6e9addd9cf5406104,
  .double 0xd7382712256270f1fffeb372e84dbb9a6a5b05014fea674085870af03796d843a939ced931d3cb8893402f6c2f1eeee 0x97c4ebe8e912d020881f47413b57228189ad7976874edfe73f3862faa050dd82775ffcdb39529186b697f48aea784c4,
  .double 0x6706db301060077e4c377db5d34b136eca3b372bfe2b753b0e430076ab00cd054437ccf7c40df796f9b271bac4ef291 0x1615c7b2b1710d173ebcaa8bb3ed6f3ad5476a52c0c7d9beb2ee65012b08c3263f6ee15e826d978f8a26277e0437d14e,
  .add 0x95b3657206377248d427e13c456959004e1b2467c972c25b20fa5bbf87d1c42ee2695424886809097883611271a977 0xb0b5f81d74f470c8f3a3bb0e7535c8afeeff7fa4849a5c1882297b7dd899c22d653a4e54f3f1fbe8507f2c3b034a78b,
  .double 0x8b2b2de77382d010f10c6c8c7cc05cee6845bb9a3f4dab35a998ec13a4d21c46b8a4c24f227fda1469c13a58a6e0107 0x1072b237c70ede6d69140065d31c2429b06d456e9b059932efe712994edb0024bb6a33b5df535dac883bf9f5b757347f,
  .add 0x117ee513769b46f9284363d80167a887c862dd30ed3faf0e2d7680144ab65fa4a6687afe2dd1ca38204262b41b4e0e8c 0x898ba3228228cbefa50d3f13c217da62496f420d93c9c9ed3c4020c4b1a540d446c1175b0bd658da09e71b1cd651daf,
  .double 0xdb1a4d60048090cbbeedbbf899e2ea496b829f7f2e0a293358965edc5ff83b6e23147d97fdd2cc18e50d5a370f7e225 0xdd616a15a8d0f8e4d06a21913e114c953ef119245e5bb6064ce0c93d6cc3b208babcd37a505074bd940e187589405ce,
  .add 0x16ea3c3b954a145209142aeda352623d03224ba25ab94c040b496d466e4fce76a2da9edca46c843ccad65bad82dd46ad 0x15b660451b506f7c989f2e73eed5f46f560f8fd5ee65b8286da5346a33151f6becbd4ec183c44fdc1b97c7c2595d1e82,
  .double 0x13c64c40275fc10b43ccd1a71a98b2c2cdb503e8ac70adbdbf4bf247f49bfbac7bc47a8511f60e8ffd72b9b03c926ab9 0x7dbc2bc028ba34c4dbbdadb5540252287e8f2177f5edc215dcd40a37c04d133ab8533393aba993f0075d837709354e,
  .double 0x4f630a7c2f6ad0e561c12f69a19c191dedc94bc15e3d6daf588a4a81ed601826bca93a86e98bb86a23510a37e4d31c5 0x9cad7a07871f9a9e0bfff1afab7f480b3fda074fd28d6200b2dd4c72765fc1f37830ddb3d74a126161aa5816d8a2e53,
  .add 0xa0fdbec1c3733c0dceae9bf4516c24a97d0f1ad86f99472692148486cb3c9d04b76530fa2079a1db73bc26a8ebcd430 0x158cebbef747d1c6d49a17919ab4e43bb009af9a088348dc3f8580759aab929dcbfd93ad8a094bad718df9869960f8c7,
  .double 0x1394eba5a222254ffd619bded0f1a41ab3965c77f0bb587a74c7c5dc3dbeaf8ad45a78ee2fe452ca3d5f5361afd8b9eb 0xd318fb4e2ae6c23c6652ed90837028c91104f0e8a197f9ca9094da77806bcd335a62fc0b7fb143d682a071f3f908299,
  .double 0x271fd26af376eb2f07a07d402a18b641d3bc700288f11ec8a8ac4bf40623cf1a988ea3c0af02d1890a8e92f32ec5d97 0xd416eba9f7f7f66b541085155ed94d60595b166a1a636b0513a2ab32b72c5f208b85b1b0ba0995607b94af68dcc70d5,
  .add 0x16cdedb05da817ae2d9035cf7b89822ec305317d9305d7fa1ee55825cfddfa3d3881f1d99bbd9e7c74deb00414c4e0c1 0x129e94fac89ce8f89fbbfac595c87367fe025d43124d5799851d6d3d9a12e32e12eb3dcdffd53a5cac4018ad2466a7b1,
  .double 0x171dad06dc005e25d7cff5f13994eba81fdbadb8350e0558e3f841286e22669c6e8d4a51b8066e860887fce23b1270f2 0x17876a1b5643cc8b88368421f967bb8f9477f6c25c0a296df3812762c9b08df92220a77e9b3a7122353664b8a5830680,
  .add 0x12b118712c9892c3828f3dda32395cc7f4f092d2c9374165bf44cf047e274f23a4038023ba50c90fcc4684c127f47580 0xb586baed6ef131d48fe1985ec05a2edeaeb6ce6d73ec62007a8852dc1d8abc6a1c03291d99f4bba5434b613c96a32c,
  .double 0x43a12f7ede50070a801999350279ace93daa40a25ea91875fcbaf15db5af6b85794d6085ec9fbd654ccda9164599c7 0x1798fa12a3873263e82419c15bb6e5791c963499594089c8809ec88e715f7188fd6952956b3cc4da10617af433784fc5,
  .add 0x65346bee30edafe3ce6bbf64f572808c75a4a04f0bbd018bd8eab41fd1b267e710d092cff46c19e7ed4c683c19823b8 0x1025fdad86561337ee9a4ce70eae4f2f9aaa4341069701235327bd8574169717a594283a13df4d1723d1e4dd6dd6f844,
  .double 0xbcdcff3c6de1541a9a4f511c2a3c17fbe4f03a89a9b2e9d069272691366edf609d5d6964a0c4dd523dfb0c83a4088a1 0xbdebb9dbd3720deb88161b07c5caddf972cc6d08c32769bf73442db62098df12d869b83e8785a946001d2228d3b6ccf,
  .double 0x183285d3e3477f72f9188516b8610f436bd39c79993e8e3e2325c84baa90ab272fb69740b39b8166aad0baebe70ce9da 0x8fcc7f57dd24368cf86d40ebcaf272a61015f447f908cad8f1c8c9ad21966b77922a5ac00789ed5f401f1d47a023082,
  .add 0x186c5f0acb9c854ab789e224bf34b9ce6e0dc91922c7c9d3b6e65c4918e172ac08f3812443e54041c89c7891516ad31b 0x1298ebb9f14ed6fc02119e69eb5bec52cf33b7e010814ec176315701c0af0a6db70ff8e31ca807b9d3200b379952a5bd,
  .double 0xaa924755ea525c40a699cc0537fb0d9545c09319d0ab03a4fd8b885a74e21e82c6ef4b9a76b37a27b33361809cc180f 0x19b3300775dcfd6bb493166ad498c4c99d6887aefeb7869036c544ed7b76007bf749138ddb8e13bb016a7d5eb47d032e]

def cofactorChain5 : List ChainStep2 := [
  .double 0x86959bda06a6af9f13e879a91c3ed67efc29311cfc79d16ee9fddb926eb31942455500ab50ada5539e1a75834e4dc19 0x1824cc719d2aa593ac5d65cb8c78c1866453dc388717d0615b28c9b6f7bc788ad1c101c34f95b87ed91453f9ecebf609,
  .add 0xa00ac709b3052aa76764febff134ac365c1f26d302cc6855507bf434196b7f04776fff0b63204004bfba4c5761a4689 0x18253b0eabe33888c2ba200c5a67c26afbde96dcb30df97e08caaeb41a7c7ab5d5c83f80dbbb6581621b55f5cb590796,
  .double 0x7ecf96742a6125dbbcd8f55102f302302e8dab1bdade2901664be26974570d1f073715aefed7dedba4a096a3d94ac0 0xea866c09e81135155837a4b13db92d8125d587c41b054733dfb0f15094ab540d803863134158aa7c2fa83ed0ddf2e15,
  .add 0x570f7cf8c23b9417b17a53eb7c3738d80e3c699f8ce64af99b072c3bf29870e897cd94fa58b78a91ef4748fdcacfa44 0x164c35a51a2d2e1f697bfc9ba79f801011e39c77329d6657ca214af97cc037fe9e35278c0bf7fed2dd09085ddd8d0e87,
  .double 0x1832c24f3129dd5f9a2f1005e06d0b5b05a5666183e1b868ae794acb65d4e754e5bccc37b79228390495422f8bf6695c 0xac4b3e0261f7557c5371c47b8aee36214035182a80db72a38ec70a1bbcfe7d2e1731173b579a4a328183993c20b4fc3,
  .double 0x9ee862eec8f00e3cc288bbed39e37f7e9adf1cd8498fd2b7fa65d239c1b9f18ddc91a3156bb77c4681da825f5e47056 0x9639613a38a0b97e4ec132c96de75ce2fd83ce2411819111f6dcdff757b0992ba10df7e95e07b00045bfc57803a22b0,
  .add 0x862b0de5ce7f73d5cdda8b84fad551d781409de99f1722c8d9d818d96b1996c5b518ba2f18ed3c1e226affa2fca136c 0x4a8ba86ce7615e3e683a77215eb60b363d4de5ea8932a62dfad9d247b01f7ba5ec88a682699c6c207a0b16b090de19b,
  .double 0x89a3843af0ca3cdf92063537536e8619c3b413280460830be0d6932b8038dc5b75dc3b32cb1fa3fe7f9a9d94eca9e1d 0x11f471bd8f33707829d2bf8788f986cf1aa6cc055b136da0b990dd49b632ce061b66da408f47098d07176748f62fd663,
  .add 0x47ce1031aeafaf32d7af3e5bb12942a4cf38ad3fe9f2c679e99e188df7184eb55b4c9e2491eecc0d11e086e31d69b14 0x217b5aaf4d4e7c5f7b155fabd21777f1802e824f4b8123f7cbf4c927d8aa6648059c795f4f2ead6d40ac69cab7a10d2,
  .double 0x25be9839f6731410968379603985c6a48cdc87f5927586b84735f482539a1e62be1a2510bb1f89057c40d4c17b1473c 0x1924677a9f99d9bad8873fc170fd6742a0233eb8f22b47c23f9f0df1cf463284446542d49e51ea9a0ffaffdff50e4c0e,
  .add 0x17b28f9f333517ebeea5cc3c41b3df65718851b07acd760b500b1a90065b8df6f6afa1ebe4b207a2223c1b12ac149f92 0x122971f0761abac75df0904c88a7cf9b5d41e12465d8d84ca909d28570fe265a863dd4d5c2b12f6026bab16c356a2673,
  .double 0x44adf1d5d7788f33e9ea8acd52c9be7f0d053827ddbcf8e4d621af9cc66dd5cc536d0b10a7d91a5778767f6933bdd45 0x9131f073c3de37d404f869ab4cd44a165f5145d72fa4c90c9387fd351dc283d499ff483d613d57a303333d0d84d22e7,
  .double 0x10035baade227fc8e133c2372803da5ae08b98898b7bb6f6b96a2bfdfbe0511007620e315012331b5009e62494d17289 0xbf2cddc5b6e5b83efb444b35e6fc161d0281f5ad670075236ad0fe67b79256075d38e26b6c10f4d87762d9dea3848c6,
  .add 0x1861599bb81a5d867648041ca166f5067fc138884b67de05e418a373c023922c1b207ead3d841ad09886e14d51cf1c68 0x10da58f745ccaf0aef501f5825dde2ea8dc65501d91c2d65f333f91d5acd6c76ab5396f7df8e2f7a6643e0cc5bc9a0a6,
  .double 0xafc4f2c424dd565c1f668448fb9fa85985429c9aa55c7b7d1ce1637c0feb25ca7844d7662be7cb99e4b8d45f6a3f99a 0x15a4c7a4864c73884f317013a3db2b28f7e456617aa9f05d2bf846014c349983e8e8fe436e749f0db39b93d1b285682b,
  .add 0x16d9968738ed0905e8ea614c983aebc09bc66eebbca848da085f92808f6ddf991ea2477b310e6f107afb7246d25573e7 0x5f621d001ce869ea779efea2e562772aca8a84dd9600ad9443c6afa893507c0e6b41dc646ad394dd77c37ee1fcf460d,
  .double 0x1673d57a69b5e7c53a80f1a9e3d1746eb812abd2555494883799b1fe66645d2532f374b63736748eb2e0ab39baf095bf 0x331af536bc609cb09500f1af4841c4e4b9a06a684981075aa9f02f710ffdfdb8512a3c1a94ff5a1ca63930debacb271,
  .add 0x10dc8bc388e4805ebac013a7f58c896ff22c175157478f5a7e44182a90db24f83f5e88b8aacd3612793b3724794b1baa 0x7262d7118ec08becff0489a2f475f11738eb6f0d3baa5dc722c4c96f87dc6afbd3ef2b3c2ad1fda34fbb35f48003915,
  .double 0x87ca18898bfa3083274d6120098e78750026087e11a48992ae3e0d599b69a916751348f5a22f27499e62f9bdc502074 0x19b4e556e3f12b4c7bfcdd5610482636aab788a88ac4810c834edb01062cdca956353c7e5266c6832156051a4ff4312f,
  .double 0x11fd2e40c4adb137a7a625c1ce3b5e44d355b585d8481fe2e93000045091bce5dd7684fc7f96a0df2092b6ea96248fe4 0x19944c058c3efcad942f728c17caf1ea0f0e661021162df72689fbacccdbea263adeb741846fd6bd7c6a7f61a8fdea5a,
  .double 0x921d9df7483b2fbe76245003db9d0ac07575b9aacec60a5baf5ba8a4b3b6d6176b89c4c96d14d8da4bebdb93b0679e2 0x1805e840759eb623ee2477c4901f7330f7924a7e711655be026b1bf67414821bc1620a373fc7d08bd45046819f120e45,
  .add 0x196d068e332e2d82825a4bb35353e1c718261b41f5e97a4ce112b18963bf0bed840f3afe725cc491dcd78240c52f834f 0x29744c6cec2ff2993454a185a0169696bb487ff5146256e9580c970241896f87999a99946b39d6ba5a1f5db69c0544a,
  .double 0xb5b34a457c905fd78b2468d0a10a08f66d2b1af08f46a3b410324521e3f743bd9e6eb2b9dad73fb39c3298ffb7e6d3e 0xca3485f47e02287102e33c8a5ed5c46b3cbafd775003e39239e4b936d105bbd0935afeb338d5c71fc29c5e152fc9b3b,
  .add 0xdf3ec6f361da96c238764882c48e6e345c90ca347df999f77567d651078f705dc006a69f86541e79803d769cf3b05e2 0xf715182c8dd9d5917d874c7ef1be513164b340fd7ff160143bb46c5301fd4b590231aa953f68e374bc43e57e9f3ecaf,
  .double 0x14bc78362c72a1af28a3a2ae86cab16005a0935cba6dd3bb2a17bacd4909b523032624f081b2fdc81bd306df1cec7c1c 0x8d6abbcbdba7b08190a66bbd347b193973b4b88aad1d504939c8e031af170f660dcd5bf84395951c381d22d90aae473,
  .double 0x188a54980095f544db4da4bc0887a2779b4e013bff0763bb227fcc790fb4ff9bf7fd09de327528d54b3136789d1e368f 0x17cecf3f5f79df1f57169a87744b7625d4636042bf7776787ea68e9ed07804a44cf693ef9234c28043ae25c1da017bf8,
  .double 0x174d9ec2fd81646d50310cc00117e5844e069ce246bcf13ceb4cde8f99a0192646441935dd37928a317f4fe80713a98b 0xf85cbcdc513b07516148cefa7cdf0dddb09a850a88d4e5efa510f1cdbfbb22b55f17dcca58a9b69437e37c7e008a0bb,
  .double 0x13bcb9f9083d48306b93aba5291bb1ec05c956a13f24fa027f2be7e2ca65b99a20050168d06d892492aad600850f8529 0x19aed108e9e1354da678728d7d454adfa11a4f4e83e37c14c1c55e77a70b62db51efc003190cade45f628839d7247a6b,
  .add 0x14b5f77082b5ecd8af3bc21d94e534edf51ffc4461353583f0b2c57443329c870c2104c85aa2f03128c8e6c2ab6893f4 0xe10bd23dad872fb6832f5ba85a6ac1631ab5c4b4edb604e21d0025a1bca25abbdce4ddc20831ca41c2ecbec25a103d6,
  .double 0xa5d31a8eabe08863ee0765c171e1b2d4bec87f5c9df12e8a36aa16bceb090a02ef0ddf570b9e3c018ec643e5cfbe409 0x974460625a45cec64621e1bd6c89f022316ca0bd473be843defac098b314d9322ef017514782e483b44ce0b88bace1d,
  .double 0x1978db7981545e029c2e4aaba1ae6e54227e9d9a8e0e30085027a4986bf69ae7cf6bc11f568ada11119c3ed9263b0d07 0x8cf2c32f364e9c9e05ebcc24ee52a0e58969c138a742b9dc0c025ffdb5dec0299c72ef5b8ee55c38740d03837ca72ad,
  .add 0xedca4af6981be66ecc9eed9e63ac0cb41b953996c53b7a562c2a2e9cddd6195bad58957d8905cbce40b5b7c732d211e 0x33750ded4168935c089d32a3a78dd803fa968cb634030c26638c0cd49d004662a8f97d420a087b9eee8e482b3558475,
  .double 0x18bb96287279da8b62bc9e1e55648b9a32624fd49c1470919f1c0136d514f1b77cc7d960d025c846c8fa26c1bfe6d702 0x11b7c1fba66cc7062c4a7dfba7702668aed5fe4cf81d19b6dc01c17a8fbcd7e66e78235d7bf2a39052600678532121c9,
  .add 0xbe2cebbcbdc4f71f71d1ccdae9f6d51fd02df558051bc6487a3b9bfded13e61b8b9c80a6d7796e0da595033cdc0f7fb 0x1889a3c778b7be5bdbbb11caeb8278500b8b11cf39cd4d6bf4dfb166bbae8a94bfe7774d2608e9efcdbbdbfff769f0f0,
  .double 0x13b8fe50ea6813e7e1a032c009f5f59b03efdc2fde3f4fe4d638dc734184373c7a0518bb208dae2e1e7eba21842f632a 0x3ff2739b0873bee28c0242d099f3f6be00e173128b60dbf43e1805bc2f304c13c569fadd65b91b6909d4f7a81d3f9a0,
  .add 0x142e28f1e010db860f6064bd35fcb0769c9b0282f71010a8081bb5652b4a85b2ddc4ce9c2969b7121b4521b0b237804d 0xca97d18b4e2074be310d93649128924694c7496865269eb52c2666e0056c147a29a506237ffad14beb656707ea2b8a0,
  .double 0x59bfd136213fc56c20d913cba572d7759edd3cdd0334a4095e1f88e793f16635dcdfd0f978b00ed497b1d6573145bf2 0x1119f2eb68502ee845025d6091ffd9af7e0a81bcab69742e625ebe186e0b379347731bfe527babf0b62ec8064f71c240,
  .double 0x6b762266d50bb377edf7a5b0587549eeff813b51c363d07655480da7d1223ac35e49e4a7dedf8fa499286b2905f1b88 0x19a8b530c259720d1a8525379b4db3f061992e8f0ba7c856e1a424b66e614721f95dd49c24bc2f0e3c210aa2e9535d22,
  .double 0x195b857a4cefac5d6d463cdbc165c6771ab594d7dd6864e3e7d94fb12afeb464846803c61d971ab3e1ebd79e6f604c6d 0xf09781ac121bc776b94e75cbc420485123cca1fc8c162411d738f912d272fd34603bf504ccca44e29e0eb0462447dcd,
  .add 0x188aaecc285bd642c88c01019edd699724345fc11b869e20930e07846f4567bbab520adf954e714935c52796c1021eed 0x12aa5cb91ea3e2189f6ef0b5f1d8bcb0001d13489d2da322a8add4c9e7b685d9156de44f3258e97b04dbeae327055860,
  .double 0x1808db432b64a1ff064c7f0fef047747c9099b6fea60efc4f6f0a8c73727ca909f30e7bae65a0fed746babc7740ae510 0x16136aef3a709fe41e35a9cdf55dcf4ef06e16bed9f3796048cff6f17c526e1ab744543b2e4dc8c907024d63a04286d3,
  .double 0xbcf552c75584d7b5881a8cf5c1de456ea0f8563644e25812ec42f9a553b0e59fbab99c3c48567c565402eb45f74f2d3 0x88abe3fe1faed215ff10ea1405fa6942b51aa91198d157f696af67f159c80572b630461328037a2bbdd235756a29615,
  .add 0x148f25bda3168b1081bb79665247e151124c89ff5ec36b4a16048d43526558d223c8ec29c7de80ba647e4a8903529f92 0x13d912bdc481d605d04ab4d8f8189cdd0970221ee425463326b9ed8bcc719624542feb0d5fb554ed48c3fb24b5c48356,
  .double 0x113352dbbe914957cda40d5b30fc186f73c38557e0c885def77279737cc1d0ff1e26ae60279cfa117c2fd82278708951 0xaca57e585ab4014828fd9fa5c72944d841b658ab0b638e418369f3c4ac3d4607911d9d9ad4827c0c583f791a050432e,
  .double 0x1231c9091c878a8d1a479de264355875d40d5a5cff0fac67802e15abaddca73cb832e47397fc6f896ec40764c8536c07 0x1dd85fe083d9440d6cb28265aecf50383555af0f7fcc4ff1feef8a23fb8cc0815d3e5627f0a837e66cca611c98b3100,
  .add 0x3f77f93f1130392d1ab9d7d872f49495add2874d61270cd6144084dada51a8c8992f9c853b377bb99b8ca11655102d5 0xd4f1ff7a32878766d3e97d73b7eef2acbc3516cbed377aa009dddebb22821946638886a74b44b427e079f8ffd8b78f6,
  .double 0x2b21bd22cc4693348f265e8e7ab66cbc832979fa7d2f07b71613d878526b02cf378415d96cb4026bace1e1d6164f525 0xa351e8c51a4ed5225633c29f1f56d03127f36f18c911dd6941fccc16021db2fd3202ea29a3cf1f26bff27750ba5667d,
  .add 0xa874ce9a361829212ca36fc5dd469dbadbdb0f9e5cd056d6e9495bdc2b6a7172ee22890931251232a66d29b6a252a8f 0xf62befec619cbd39647925c9919e8350cc7f0869ac2cee825d01209de2e3892379fb9c8d40313ad82cce84862dfa13c,
  .double 0x29a444a2753864e81cf5c65cbae309a38eb51345e8dc973c9ca651bc7110d849afcb239e289d55a0c239511994c87e7 0x8bbc9e35e5d83c719a02b67fa4e658796269a9bc6317fc88cce48469c242839d9cab1450130101d81b84f4300aa357b,
  .double 0xb2dfe83718ee873cac335af8042ee8436d1fb0972d8aa4022129effedd10772ed633b77e882ea35ffc7efe546b23bf9 0x12965d36f46ef103a1b78c11b52997900b544cfe723385eabbc914576adc9fada9fb68fcb9e12a8b47154493da02e11a,
  .double 0x6163a185a247bb94fb8928e21c040872cbb92c3dfa578854d53c0c4b610c5306d9e02b2521b10e10dfdca865cd59607 0xe2c7d6e0d965764fcf6dd670d4e3938659b5a09ca9486e6f110eac29ee3e3708adbb83160bf41217f7a8682ec027458,
  .double 0x7273f0f0b8420a03e6088e16d0f01ae07ebef374860b969ebea423e28413d1fd8b0e88a7d669bd0275095933a71222 0x18d8a08eb99e66692203d19c2f94a6e924295ceb80cef1206195cf0b61213ed3ec86ad860d5b2b68cb3427f49f40b936,
  .double 0x912ba08061509990b1c93ff919e98aa320e38e916c47b8c8d890e19a35868b656a360046c71ed5a217cbd8be765c479 0x5801a93ecabf427b21088401546059647ef610300733f67d052efbb73313bba4f2760590ffb04a71de83b4c8aabb1c8,
  .add 0x807dc8900d250de37e59e46c6b9c62e173468ba97eb9437f15941b44c7f6ab983f7b91d6b25cf5f8b743c31344a125f 0x6123696c8b8c12b8c14b396ce60eadcbd733cd1984715af98c72e9cce62c948108e90f4d4dfb7587760c568012c986f,
  .double 0xc08ef6a479a393b019519c215fef565234045a22973a3b00838a65fa6d72fb5dea11183b060b792183f7c300ae9fefa 0x9e95ac6ee88e018cebda931681c3cce500e31d980928bd69a3f0867302d352c781685558c4876cbe5ead2c4898b6b61,
  .add 0xc54be3f3b9c6c588930d83ead3497571991a361ec16076ff22c13a9438664ffc0c00b05ba7d00f91ba6e963fcbcf05c 0x123ab659de98b0fb2033f7633117f2d8c546ee5fcf65fe7f145d10edcfb2e7b97401f1b8c52b348a549eae5b64768e27,
  .double 0x9c76e6fb95421557157818f44446bb2051314ad83547c60d235d8200301cb9ac6bf043ce892aa9e576b8c49f9307c6e 0x232b75e3ff97346a94e298555bed5ca91145f65991cd24d5814e0b1c4f8a4f1272c0c5c32022f12503d462a5b9348ad,
  .add 0x2735f2dc030a114ab1a39f00d6d3e1b5eab7c55db8257d93679399a39d75d94ac1d4e14bac51f2ca937af0cab9513b3 0x98114b89c47475b0411f1e3308f9f5d2c4dfd35459f26304e2ffb7d63e206c759058b1babd141d9bce8302ccb76549b,
  .double 0xd8711e002fe3163f6ac5a7089f2e284920583ad59d14adfeeb6af6d2a9055cc90d44e04eeb82668e10832f1b60bbca3 0x16a8d7b554c08cc7c2003c81f6f3655b7bdae0a6c777f06bb7057a15f502e42bb9e5eaec300fc7c8d0e4310ec8b20efe,
  .add 0x12c6671f1935e8032b579cf3328407f042c04c25ab40c8b7ccd5fa45f7f88dd44bb5f9d78a2c2c6d3c925638c3adc090 0x13b5b6e56a1cae687870aae508dd69157ac17f721d93e15318bad3fc2bde37a57a997b1bafbc7c9917603165d86763d3,
  .double 0x19783829a803ef6821d77d6582445522d104240c39411317dff148ef8e6684ee23c6e62824ed7df076c5f7c0e3b524f6 0xb34af38eeaac9005f96d7efb002a54602348675bd0a1437e7ff92e05bd330629560126df6d64ecfd17ef55d8f4346ec,
  .double 0x16f19f202f94e941b25f110487d484c900fb3844e32628a9ba66d2cfd216b0b75521f6d9e60baa9cf613bb57f165285b 0x6ae0a44bfe68db844853a704f978ed8aaee1ef72fb44e81528f93ba3b06fcb91cf42c1be075af9d43fbd6cefe87b43c,
  .double 0xb12af54384ac22014db22881ed0733e592717876fa87b5ad01c2107287310afb331389a8c837b0171416d6c32461abd 0x8782a3af3047b4e63ffead14ba916a1f1e58845eef799687b8bf12ce6f263010c666e834f80a76445463498cdffc192,
  .double 0x4ac4311cea1545b40becf36dca5ef3777dbd7581d4ecd9d57d4a77a455163567b880ad85b552e0da3824183e2313a9c 0xb5fbd54194903c00f63a7f0bef88a3bb29a924b8cfdf2b246b12330b8ec9bb10e01ce69042db28313798a8617ebac62]

def cofactorChain6 : List ChainStep2 := [
  .add 0xb2a011edd19a4ed574e68d3da68b899b620ac1145f6e94d435f239ddfd584ea9ff6c9c9f99cd0e6c37bd965c16a5d12 0x7d0326c781951908b46409f09f692fffce898c347cf441ef63f2165bbc476fb231d0fc0014313ba6748d0313144a794,
  .double 0x15b3fa3678d4da5ab0610dec2f0b207ce5fe781ecf11970f4d5e90311787f1ddd9f364eefaa960e275df08149f9ebf3e 0x49cc6746aa9783dd296e963ab63f0cd4acfb550a1c3a8dec2c0bf77ffa8f877dc2d348a77ac8a3fb7164ffa8846b11d,
  .double 0x9296a6f0ebb89804fc7d69838ab4e75e0f90092c3054602d36c88573ea73af9b76cf2f1ac293c6315c58a3a2f8b7e7b 0x17bc3f6f71e6e1bcb51afd80ee51bd5d138929bf431654181afb30f7e341e8307a1e6b3ceada981a2a77d4f0db2d6d14,
  .add 0x6aec7a56e48c8d13b0daa3354f3d66e097212b7390a256bcb5fee893257efe45c64ba6e375df65ce90efb06eda7c89c 0x1283ef51f500031643d8df3a8600155516c24231db0b6cb82723168325ca523d9952915c20e53d23b039aad0c9f1bbde,
  .double 0xdbf09d685aa64d7ae262e015fc297c878a9f969bec011193ff4793fbaee97daa0794ce39d2eae8f4f92104391833e80 0x10c6962bdcdf8a82c37529049a4b0eb154a0fc1d5f7e7e7bfd12eae453bb42e2aa99622f9ca1337fb90844fa048d365a,
  .double 0x143625d38ef4d5c2341d088cf8ca94c78fa397a96d0bf77887765dfe43289f4350b136254a566165faac534d140fc876 0x224f5e6b15fcb65382e026aacab35d3cf7a933a063c35598c5bf90f64669e548d151f242eb6b7339684cfb69f8b67bd,
  .add 0xd01fa705d32b6120c73d3411ba1bda9626b5e4fc16ecd334b6f1ddb9b3abf7b8d744d07d5586ae7a1197f44538924c6 0x1006558cbe5e69b1cfcf63f3cb07f3cd9c6fab54f431f5338bca9e62c8b980bf25a3602ed1f5b9dc625b066be8458e79,
  .double 0x1953c2780253ac20b4f5790d8d2094a283edff07d84be21ad178260b5b0b33a22c91500c19d04cfaa4300ebbbbd9328c 0xf4342ac823583af38d9109e112beed08b168cfbf0e897a0e0d2771db1e4e47a0582d005ea3a3f6231e9aceae6dd3dc9,
  .add 0xde804b3f178abe646e7297546012b1d9594ed291d0fc1f2968a2e8da1d24afe7792fabc194bff320ebef9340910766d 0xee06f125878370d5a99f7060752e1ea88416a373c1879454cfdccf40e5e6c0eeb6c2b49d038a38f2ad13776e8dc5297,
  .double 0xff964aa968f577b41e25458e2059b11468cd77d2fe68ccf97bfdacbb899e068a90b165ba29f4f28916aa7e166e8a6b1 0x268eaf5c2c7b00bafec9297655b592010a17c0ad2085427f42e349982701402d7e5a5141294fbbe503d22f358af62d5,
  .add 0xb7d32becfaa29c8cdeea9d5a374962151af891659d29c4cb4c7e18ba0cbb414267409eacaa6b1e52911d47c93692bfe 0x104a8e0a15635019089c626779600c42fde17b3316aa96e306dc56276ce9a270b145cf8c039c8c49057319d8c10da6f1,
  .double 0xb25de8b93ff73385098a4298a1eeec423cb0326a7f06cd21e49028fe54b2d5458970f88f3ce85bdf8d2237d9ac4f99f 0x147f9d7d72765545f5e86fcaa736a429cc96b4b612441aa6e6f8572a6a67530b9b7f8c89e954d8aa6a0349a0583f9839,
  .add 0xc5a7328d85ea60348f5047f9b4315eaf9a3e685051e3d062fd0eeb2e55ed946e42b7dec66e3a53123fb2036a40f6d8 0x796b3dad6a7ac8a0035e7e99023e98d5dc77fcc96b96c79b4bd2542ad5a577f7dfa07c02c7643013e0578edf2e61bf,
  .double 0x14857498e8523790fb8b5dbea416dbca85c4b6b757f9fc26e5e9bd1a83a7eac96433d4ed851e03d2eb572d4a74c6853b 0x48cc3401059439bed4b2cf5524f36a6189ac00345e11666a499e5db2f0f45d9f0f7b000fa0857690da21e122212569,
  .add 0xdc1bf50df386f05d597f9ed4643bad5b79a15b1c20952106e4ec945e488b0b456311760cb99db1b1b4ccc421c948949 0x193ec8ff45491de07cd6286fbd87dc9b944184ec8203d101742cb8c1902868b2e2d233d6ab456ad38c226cae6d24d3c4,
  .double 0x54ce59ff0801f4493418d60d04333c0ecc61b4ab156d06c6b08d6e70f6991891fefff40acb43d215283fa9eee06f9f2 0xb71fc6240e897d3ab0b25a0a797deb8ea94ad477a9de1a850081354c26db74a258082816c3b0ebaf80835e0ab897bdb,
  .double 0x166e884f13a41931aa52049f711c86e2d80f06fa8944c664f2bc521578f9718fd9bfde314f5239964ec685fd5a0dda3a 0x11b354a108d37edf098308106b35fa2b9b9fb7d92fb704d525e1fd536322c05b53604651ecfd47ed3a7ad5ee552934a5,
  .add 0xce5c2e9ac60de9571ac769ef704e80d92cf4b5b32fc78db4ab278e8b1dcdfa96785f760297cccd9f5c9b727c7a87a29 0xd6cb0802f0f4a693dbb53a1ade8ef5bd5d54fd7be6467491fb6da9fa9ee80363e14be3b339ca3e7b84f84e6177f6490,
  .double 0xfef7ad1bb9a17254026e3231bdc9581abfe37cf008c6ec8afdc73d391dc53aebfc30a39a83122d25a3734a9fefca62c 0x5f7a18bafd0aef4c99534efff249a88de9d43ed6df5e9d68e517a5a00f41accee02a87567b0c0d3ffacee9f84e6ceef,
  .double 0x11dd1213de8f0e2f1da7ee6eb1c9e6ad21ed3834e587e6f3902ef8d72426204fcb0d2310fe04ba44f41fe48d60d64f66 0xf2ebf2435a8344ab571be63666bb39d87cd74315cb665cc302212423adb038a2ff0d43d9d0f9bd442bb17c335b9b219,
  .add 0x6b72361c42dadce4ee0cacd6da01718da13b266cc61363925d1525eb6ff04780c380ef32dea4eb3a0ca4670d31a070a 0x3a890339fbcc74f142fb6fafada0a74bfd9995937bc9787ac3e2f4980325ea4da24b00af0519ec5e38a64e381d614f4,
  .double 0xe6128591e8d9a661ab1396dbba32c3641071ff5d2563e3164bf1874fc7e5aa0ce453f0b3db6375491d4ececdd43156b 0xc89abe7356c4857b739401174f98d4dd1852f6f959abc235c54430c12431b18b0aaa167192908c28c5f7e3128141aa1,
  .double 0xc36b22cf7af52d06e67af3fe43d58f92051c085376be769a10f5a514a0c15b9a605b1c08fd45ba093fb072c5f512f32 0x10676a4dbe89709d5a953017fd740680c1493ece8977b9ff84af4ade93f5874df018568605facfe596dbbab1a763b6f,
  .add 0x195de6442e4bb78519e28b4926b823f582effcfa3a100bb14a71dafbeed7315f82f3c9da92b2b0d074a39de18b376e58 0x102ac9d06f09251c55ef87ed4740140f539ee9cb9c09a3ce5f95e5f2e14af70dfa37463b48ef12d6ccf68987fe8314a5,
  .double 0x12fca27f77c27a3ea92c1613624a192dad3171cd1458471fdf115c7d565647a052502e7119d227c32646ba4b059a6516 0xb0f87612d87e451b456b2bebea4360c93f66da7d0b5b60614d33d5adbefe7ba0d81baf61969788d8a56bb554013c591,
  .add 0x103805cae7b190e3ac50bdbe50ad84465dce3e65fdf6d6107969eb854e87d691afbf14779d256fc055ea589d4c4cae7f 0xb7a96aa73ec4b2c718c6175ea798f56cedbf9e48ac88151068c0ea3e0d769cec3d747a7582d35bb92b284e658a047f,
  .double 0x164673a4cac6c4a9d0e69a1ace70b48ef354d141d1382f8db940010b058f5bbc1e7d325bfd2d5c935dfdd5afb28686fc 0x1152cae5098cfbfa504a4cb0f121c6c21d1367e1dd7423c360fa4147f36cc5d286d05c56044949157ade703a6dd7a546,
  .add 0x166c011ba6dffcb61c8e0bf3f9a5a261acd4528ad1386dcbd39d7163d40a8d802ec8d521bc04e06819742913e161b31b 0x1016b9e2debf2b42762eafffc336672fff77468ce597e48a9da724ff40c10807d04ce0851f0795929e89360d449a0578,
  .double 0xbef5af725441048c5137372858fafb2c0cbe073691cfd1d493b692e2357d055da2bced1ccb31e33c7968e269f10ff50 0x6351766a3fdf679ead640d77149086dff902460f72d7cf5a201efc36ed14c42b4be602575c9fa9258c9f2ddb9930be6,
  .double 0x19dfad516c1986333a4998f5f9bf674f5e7cea5c388479492d62cc5a4b2dabffb5cf4d2751c192de9c26a7490ada351a 0x50ab3bfc50602c069fe22d9d4c33d1fb8bbcd6b1653b2ee8c446a5e15fed480f7a11cd419cbf0ecc435a0d5429956da,
  .double 0x6646ce4be0de32172dc17957765970f5846839f04dedb388a25f62665d17aaceda9e970490c5a6a287e0225b2f08b95 0x1535fc9a48f72788ca7e0cdd2feaf7498ef5fc5c71d9a970822787b4942b521cf7365aecdabb09d31b897222037d5ec3,
  .add 0x41ecb203e35f2e09ac9ac711589201587d38e05c62decf56a9f37d5feba03853ec88b6b70006aa0c24b31ef20268c88 0x61b29133693d48c1bb2d1b79d7a4a73917d29045e662390215439d27b3ef3629be88b31ec216dd5ca13742a9a7ed884,
  .double 0xe3b4157458f3771a8061ee62eb1b0586797a7fa479f953c4fbe2bb6e8d2ae97730987b018c6037191ce9778e693b629 0x514ac059baedc71887ec023b970ea57800dbcf67a3a52fbf8366b7c9cf2e8c15d4d9da27bf77cf91ec08815c6931a00,
  .add 0x2fee45513fbe5208985ea83b98447e34d2f5ba88d5c930d573c7c16968ac71b9a2c2e3436413c2541a0c39c4edb758a 0x16c44599eb1dfbecf220a13c0bca0d7f6fce110a1fd07e36e20564cd1bb50306a8487628daf8a229ebd103ef81054042,
  .double 0x14ee0113eaeaedc15cdd23e57dbfa1a16d58ab19a0f8703b7c775883ac4a217c6643b149d3a294718baa2ae201a4f042 0x42c0287b27f941bfa2bce3108c5dcea142f861144d0fb7cbfa59a33cb157f66fb2725aa087ea546f104048049b15309,
  .add 0xaa068493c5e1bfb8acff47e520eadb9f16d8877e4224458d230e015c4b0c4c701cb3cc3637d6e2611de4396e442ea90 0x3265878f8f7a351c81609e6a1197b602d68213d2556fde005b699031ac7ca8ab8890be6d081898056aaa95567894f6,
  .double 0x8c6641d01e2eefcd918dd51dc674686aa5cb29a680d5d19e11332b5375309af958ff4c5fb6b8e300ec904df1d87555f 0x8a956cd4b0586c97b37cc09b1ad48618a3fa68cbbe1469297763af29f1378f2ffe5c9a49864b48ee14821b20ad27d4e,
  .double 0x18e4a97cdf7ec8dc401f3837be5d6d13aad3a6d00bff6f9086a8da9d116cb130f46ee3be6570782abcf2669c991f4934 0x75b574238601d54217ac722cf60120f1841a9c7ccb9f7294592429c25074ceea571aa8cd21d34882b82f4e3839748c6,
  .double 0x10a9a626729fa3cf4359a96ccce048a4c7b007eef77da174d52b1218455c371b0dd4e521dac1c2d0de94aeb52b81dfce 0xafc6f2f12e51006562c7cdd780d60edb8298a67d264752c055f3d39f04fc0165247fd26e364b992464e731e2c6f4e7f,
  .double 0x71bff76f47f4dfeacc8a70155d1d1d87724cca642d8473d2b498767e16a46d3de71843b89263fdcb1b8a1588a2487fd 0x1232f6fdcc472eafad763a64859720e1bb01d2830108a677ce9bfe88d2df92934cdd46bff1319676e724b016b194b9a4,
  .double 0x149484318fbf36d53969f2ec2b61123c60eb382be50c005a98f053692b5fc4d0f27dc4196ec95246f7a4e44425393658 0xd9eaf1baabf6bfc65083180e93a3ebf8bc86f64f50dde2631bb0927170388aa44066042115686d44d56bec35d25a5db,
  .double 0x113f38fae09771ae863f0ea1fc0ee3f8d33d2fdfa10fda4816cc7df29366642b0024842f6dabc43dafd99a61c5a8efc0 0xbdafeb3e6740ca090f4a5f788126e2205bf4f3f20550e2352e4860ae012a7b7251f1e9865acf291baecaf3768041581,
  .double 0x502f340ee59e272f5c08ed070d150b064da4942bf9cdbb5000d1836049d3ed6bbd1d8ffcc005b93466f461ff1846fd4 0x508259647d51bd27b2a199f4aaf449ad9dff77eb6989678480866036dc4e401df575590d375de83270458f04a614293,
  .add 0x14114ad0481741136b2d6e77d7e18dbe32f4e16063f585a60d12e3412f03e5c1eec48b0c4416d42feef94627573bb54d 0x119e56fe5551a77920b94d682606fb0cd37a5bdf5589b3dd206aa144aca1c53830aae356d4951c3ab60c60af4e8c6c31,
  .double 0x4ba4cf92a4266b8970d3641855743621b79b497d0e24f7464079ed378c6045a355dd54c780175396f553da036b63e62 0xfdbe3c88a1c9ffb6fc82097b9a55a2122c594137e2e45818cda7d7a7d3f75dfa07ecbd7820f5fe6a6102db123a0273a,
  .add 0x4169cff862edcccbd0c613b410750b3620ceffb734ea701c7a9418124f60f439543107b91868b1178b5b970676a9fb1 0x7a994056d833cf0a16ce3487fe46c16435bc5fce61417b9edee39ec545d779d6ba2f5dba6599d9247efe5d0ca0bf10a,
  .double 0x4f79eb43bb05517dfe330031ce9f890fae3a3abb3e9663aa1ca639ee72138e93604e8672d36fc299f915f222fe3e566 0x1619e1850fb6c2335d064a7eb3c5e3378f98b6f002256d65a4d7aa1046c3f1b94981dfb513e37687ce3b33ab212b1a01,
  .double 0xf944fa38af9b8a1aabafeeb99b4798d843d20cdaeb1a50ee77cdcd41c0a88aee68595772e753548b5eeb909e24ba5d 0x38e6987d8ec84bd9307ab5e926e223d3ce7b5d45526da3d0791ec80f94f2467444a0ca88622e1614709b1573384ff13,
  .add 0x12016b8cce3a419be28332ae1d69f077456eda5c6d8abdf41fa0d5c5e96b33f9b9e48262b8cb8707daa90d37bec7f828 0x984917d690c57f862b95d22e994ec50c35c3c76399ced725cbd46b9b9d13f4b81e8c2bc2110221c84d9093200657716,
  .double 0x828097353c689430b5a63c010073d85e9897c878676c712f8ecc0389f5f91565e9f6950c99e7fe0c057d424fdcd6d3c 0xb07778e4923fb35612f9aadcb00161c4fe166896d584b8eac37be146da5567fb70910867a741a7aa31bda255da7ca75,
  .add 0xb7bc6818d173591c297a747c51cbccee35b0ec053c0a191b1244e4e545706ec95d0c965339b9bea265460c096147050 0x11a23ca704f5fc84184de39e59964f650f674993291b042963b013fc58073aa1ba47718c8606f94fca6c3f5725baa70e,
  .double 0x123c311b183f52e3b92da7157936b01c7a9405118b5d413e41fdb92c09e6918be2bb85d812830b605445ffc8c09897d5 0x18e71a0681e5dfb8f566d2d3639ed14655b003b9410344216e4f756578acbd541aa47ea6f7a036a36d78efdb4ea3e225,
  .double 0x11d42c7e1191092aa03da5bacb493f00cb40934aab8185ef1ca2013fd6ed77e6eb44c7629833d4d7897a79c9cfe8bd2c 0x968540ca814c4f3cc5fa9b956e9d0dde2fa4b70f7ac37df54f95ee6c34ebfe9d24c382ad4a034eaa600cc50f0ab703a,
  .add 0x79413330e177bf3ee2801aa5141a61ea382d4cf422ed291be6d67f60f31f578d7ce46a2795d9c7985982dc4551f8556 0x12f560af070ba58a330593a40368ea7f8ccffee4069d3d55e365241eb39012c8cdca26fba8072edf26c7822011934ecf,
  .double 0x951b94e39a4f3fc509651721961373ae6e8566039a4fce595f2a9502a9c8d53f54cf9f5930489a056fe03482531c01 0x12d402e09f6133996c4ac6b0102bfc8592ab7a0ab613583872ef58f5fd2d3f14124d196f858b9b94349a4f809337bd25,
  .double 0x15fcaecfdbcaba758a24bee2c2c4aac261afd21b1a566d11f78a15412baeab3305a5cdd0cc358fa2e0c927271ed0dcf2 0x5cb6a655baa33705c31166c9e5be7f6ff7049ea7a5a104a5593b06d9bda65230daaccd682992bbe7e7dfe5045e9b11b,
  .double 0x26ec334d1ee7447e4f571d2549256f22f80aea8335d1854b158bdf0737dd6bffb32d5d4b0ad14706f076dae2d3c9aac 0xdcdedc9c2bce7704064df3aee7e05f9fbb2c72bf5450670fd02620adc37d8af0ad5ca86b93404a65586999070aad836,
  .add 0x4272fce2d082d7d157f165f779a4dbb95be035127106baf318081d0a22bce9a087fc6725223884623a14849cfecc0e2 0xccb493726b92e64100d39fc9a355b5b6a82a68212c636de9b54e95396d6a4803cef97f4494f0b2190afc9cf58ec95ab,
  .double 0x11fd262af2bff957dc96dfa3791b0a3d90ae3b70640bc41ec2493ccecad7105399600a1fa62add9ffca960e0a5ef7da5 0x29602203785841ad8e774943f6dabcf382c1beecee4869f7bbb5aa9d4efc171d315650e6bec3d5a2f2406863f08a49e,
  .double 0x14a246c99aa45540018d5164232660ddc8b8a44a4ccc5d07b20b337914036af46fe77bbf3267009ca1efc2e6c0431e61 0x94bfa30296ad5aca5cc367cceeacab0d35ce1f03934256e79d9d64c738ed575798a873510504c37270abfb7624933c7,
  .add 0x84e151e24b671fb08b0f1ef28783cc72de443dfe71fa3c5ebe21e9d2a9bf5b9b2f4a351bb2fab0b60235eebc21a86ac 0x10b8b3e7951d4fcf0ae86dd5e1aadfaeda1549055ded25b2d37e766c4c690566214049fa7e3ad972b67ecfa38ca68847,
  .double 0x18307e193e6393889b2351e234de16c873a1f52ec5dac0c149204febfb90ef496d8edf0ee9ff779ab07055619cec1d7b 0xa0d26a7bbffc6ae6539a001f9c7737d3038e84979d1f88280707b3d705311e6a1515ae33604d5d33ed68ad9dc541763,
  .add 0x19d3e5f24d6b71a36da9e4b0de1d529ea3023874e49b41e6ac9acc778db20eb64b915e364c72fa97a4996a326d33b66f 0x172a0c65529ffd574803dab874ba02cd3fda5dd70edd02ff75b99c39966c7ce2f92e653ee15e227b782605811078e703,
  .double 0x18a4d0532baf84a6c67a144cdff121a1f752b66bdc16bcdcd8c6dc20192bf03cec893ae6eb7004893401f087d93cc8bd 0x54aef38533c5abe1da8f0ce5428609d4b0af9f33e7218c8f8986d7dc77e7d7372426992fd549d7f1fc049efaff8cd5d]

def cofactorChain7 : List ChainStep2 := [
  .add 0x15dc039820872d7d969debc93e63454e187acfae1a282c938e85838b8d90290a5a4bdb943e1c5ab15d84e2ebf22d6325 0x9780ff0856185d90b3acc5b260a1bc55bd9a314fdb0accdad624efb5cf1a406eb8c94b803b6ece1b32f0412a3c3e102,
  .double 0x3eb833b3a15194ab0debaa50fcbe909fef8b16fdc21f4c9533a0880d7cfc121de6cabd92e6eb4db6f52a498133a3d69 0x541b7e4c6439185c865e5e90b6ae3423fceb4d03f2d4ce0a0b2d2af2a7da6b6f4acc86b2632e244beea47b7fdd85bd3,
  .double 0xd0431c74a1791fa89cfd8dbe7154e7d55279381c53c97f32c5fc5c09586e27fdb90dabe9c0034fe2abe5d38e1c76026 0x6c91b0f7694e27be140657fe12fbb06bbcea597c1eef1a7c170a978d19e7c3baad0dac776991680da7bb1046edd33ef,
  .double 0x1babe3ba7c1c9b0f67cc9db321cb3a7cffbb5ded6525f1d39ad843e4ca255666e0f9000055ba428b6c03a21bc3af149 0xc42527b4645a2afec76ee941fb4992d4d97cc825e00c20a0d5583995dcd389a9e3c769a19de70c7d9fcd16e1dfcf1da,
  .add 0x672cd1522fdf202078989478686a0cf7e228c64a2bd7b87b770f5809b2fe203edbd43a3ed167d2d36cd18f27c6412f6 0x1185f9684037fa8a47bfd83e2bc52c6c659adcbf769c09bdf35e2553c837abc8e3a13604ff7ecd2d30fe977a7628b78b,
  .double 0x33994840bb42a4d2d6f4abd95220dfcb6de2937b9ea920e7bb85d2c832200049cdd74742b4725fbbd2fc7359fa544c3 0x17bfc2d590152e0c400dbea0f9c0e722d643440d6a3feb65c3f8c6ce164c8baf9a354b597835adc7e6a4624cb0455221,
  .add 0x135b426c5a99a9d4e995fc87527195d133dd2a0d4e11be7906e836a7656a148f2e2f5a3189912cb1c11ba70907228844 0x96b1517d2cc97d25512494121412a6b71496a27078321b738e17973ebf9a26addc12d3cb6e1d62af293e5f916a6b246,
  .double 0xa1724bb4937c86780d1cbd329cb7c99be72401b76bfd4efcfbda3eb4480d2b6fc4cbabe08641ffdc20e3dcd24644f02 0x1759223f704ff0feeb8db33db5785ceba86a6d76b27edbcda5c56d142a15edc32cf15a52272268f2f15ad36aa854952f,
  .add 0x1600bcce5970152760cc187c30692cbfc6f24fc3b7e8a0c8f8ad3c5213905e8a3a4b7db70098b0922870e2b1a39b70e1 0xe236b305a6dfc0bc4a4ce67f393b8f0b140c84e905872655e28877ae7d484edf54f345221ff7cfbb071e268cf5aa761,
  .double 0xaae4a04b9dc8816da8705a51defd59ea65262d09ed1804727b73e9dded81c8d7be3b07424478e067edffd415b21e0ca 0x452fd311fabfef9793c494034e8e24e3acca90b52249a83b5c7a91dbd4b83d6259055078fa93932019e522cfdd51cb8,
  .add 0xc3d5a8a792bd2594d4784ad4bc366f288dd37ccace69b38a5ebbc5b72abc1e811863f480d14037a6e85ff8eba64a1cf 0x19876369f3c2dd8cd2f52d3e2ee790a5000c79559181ed5a3766347011f401084feafd0c3427c3239feeec91778e9302,
  .double 0x17469763cf1982d8e0c1610cb4db462519448c5bae0150045d8ea248d5e2ada70d76b31ed9bd618bd1e82f340ce605d6 0x181ed82557924c8915289a6ea67a6ae904b6d15faf08e5df43fb8f34137801c956a106db985c0f2e1db23be7c05d73e6,
  .double 0x19792c6d86764f3af1f39f1fa0b8310f50dca3a037130cc97931cf177ec81f67c16f68dbae8d5597975bb0257efc6466 0x888b69b061a1f16a42cb4578245765a8aa6fc70f6d24248dd63228b8e14f43d6e5fb136e312b9a7e7ff40280d471c55,
  .double 0xda61aa6eacd30279b3c797966289b2abebf1a9e9073d2f3d7129b45cededfb3f9f8108e0b878a996a2b6f3d96e83f00 0x17a3a98fce5821ebc219a5bac13743a55de53e94f945b0f9bae91cdcb1ff21f20c98dc394d145f44afb3ec6b5e3e466d,
  .add 0x18f98ad02d57e4d90b0377540042138e8a03c5d45be8b69f89384a1d993100cee74c82f4c65f67d60100ede73c70c69b 0x6c2dfe41d6eee5c2abc4f89709711211f21ccb02c27c4bc9a9530c2e4bb75ccbec92b49808381933a7965bb00373fdb,
  .double 0x4c42b91b0d214b14c989752dd4f0f4ccc0e0681a1c7da898464397f82a67e0d60dd50ce7ec31ad949b111f64a3627d0 0x17639ee5d1be8f170233e680fe84455fb7faf7b2981c4cd3244d2ebb19442e4830a294bb460c1e31f73d161332c423f2,
  .double 0x1580774d437bf4fab1d284443a3613199820814e968e0eee90930224d284a5816bd8b890afb05c32d615fc60ac7c4231 0x148000b3f655868b2c6eea9d518c46cd4cc950d346c6e6a14e01630bdb8dcebf14e34e623eabbccfba3ba2d22c3f9532,
  .double 0xbbfa1a63ff1f4e924109b0f13faacc1a9e77d6d15aff310c506284e8c841152316b41199fb9f28ac803e04dcac07f55 0xe77f8c6661da82774ac411804544a9fce8c1b50193a757157df873ad0c8d9f3a7980f8f49883e2f9f45a6ff5c035db4,
  .double 0x96982bc3fbdf25d9fd5c45b200ee3d749ea8e997703ae2d9c62d76bb5f151a98b9699494f6cff919279616061a9eeaa 0xfa75215efc54ba5e0116fe6fce4313f40271953a8b6996ba933c761fbe564a009c399c22539a10128231242fcaae611,
  .add 0xd38b79d800a4920efb03d240871f5d3d7cb3a1a1060c065f7a3486be0180b9824905ebf741ad84b0058f52b767bed45 0x8df9ddca116442b73c7c7c17306264409b100e077607bde07f60ae32bceb6c0799d61a7562aed638a6af7e0e3d33cfe,
  .double 0x7d8f5c9b217012c39b4c8cfa25284cf3798bf698f7699c7bb9398902b755e3f5d5d41126b8920787c21f34e76cc399 0x155cbe7afdcf1fa384d5c4a37e05fa364b57328cbe8392a9092bd595ec2ab67e5b722c65fbba2ab9cfd07780a5018f18,
  .double 0x91d0765f37ac3bdf46f7076fea1ff747ff93abda37ad826d1c0a2d5ebe7c9b7618a613427d193a8ec2c5e06db9a4df 0x4553d3442406a1e4b905f7a2c49f30e99e58de8a144cf24d35e4350ad5b5b75bb20bc14e53c4b88c66633709510c8a8,
  .double 0xcd5caea232e362478a4f8b863e1b1dcbaea47f684aabe3c33d490a3a167a1b41995507858a7f91a89c018bd09c05ed0 0x36945c9c3f6646430add73346f15e83328f4f3a993b1ea120d260a35f3f6093c4402e00db59ece36da05928d21a5a8f,
  .double 0x7bdb045853c2862e71d155e53a0a1b9269d4fb9391e4abf6bab6e8543cce62b5bc66fc009d5fe31585205f678190847 0x10c1792daa06c27be409b6b88c2def107c263c12031bf45895161332b77f40303a3c6b74b8db54d2da0ec28c00bfdbcc,
  .add 0x491018bd8ed765cafcf0d7d5b23fdfa6af16a7b5a825468f7d1b3005af4edf930c82ed3b894bfb41c3a20efc4405f62 0x160c7c74257a547cfe1a2eb5c91aa1e085450fe0329d902e39c43a2fb2381304c7206d8568020d58df350d95071053a0,
  .double 0xeff3416bbe2f8ab83eae8a7a70f29c44607872e18e1e8b15048f116e8e1c8c8cec0613b4e53bac27582c428e2dc6345 0xe08477f9bda5cb3ceb43f84fcfdbf7c353c3bcd8dd5db284e109c11f30fd708814bfdc44d62fd5de1fa0210dbc7ea74,
  .double 0x177384874ef2123483270a5c056db521bafcd32c65e754a3f0fc32218c12189185c1f9ad5f31c5ec5043a9ebf0d99a5d 0x1200dae424789ef7f2d4d4a9332f88b598553bf328f606dc48b422e1cd4a38d19bb9a27525d4127afb2b6f7ae87036da,
  .add 0x120f4652d63d04678d6f8dddd64590c5b748656dd90d76017afa64e4bc25cdcd375f718334748dea49d970370a66f834 0x8b0db177bbc4b0ddb7b39ff7e8a0b7b558514a996f339d3167525ca213fe66236b418a8fbc1100d320867faa15ac349,
  .double 0xd6e690f1309e3c5deb6ef3149e5639bfa9add1d3a86fc5820da010c5f3ba5888117367b69f0463ba8ac3818ec235ccb 0xe09cc765ee44f5d214d779ecdccf54e3169ff48c31a534ce8210ac9d141a14c1287944ffe119a764d0ea327ed03740f,
  .add 0x16cfa794b51becae99bfd9d1c680312f533160bc7cadd9fdfc9030b1e1696e3b8cdcde1b7a4bfce3a6bcb64bef83dd03 0x452d86c88bd0dc2ac8b81ab351d641932a5b294cecd277877ee8af39063d6c05c30b5ec0faaf4cafe1ca868f560a14d,
  .double 0x2526eca441120e25d4819df9d6ca86c22088abb69a0f0843cff905cb025bfe1f416c2c58e8c4053f6fb41b7656ff86a 0x99bf22682db25d0133084312764c1544514a85d78320403b808306fa416e4e5762892c1eb13236e0c87175b0e233be1,
  .double 0x15fe661bb5a52b11c1fb541bbacacf94fb98e8486f3f4a566660d095b1f3f326d6853819bed158ac04ff5bd60aede1e8 0x153bf5a67ac2ca7e720ae351dab468973b03f70767bc942e2be8461f10bc424e1562ad66512a7d6fb70a38b25dd159d3,
  .double 0xae843d49e4ee3125169db4fa17d7ef12a1a7999f04fd9e1957e5307d5cf94d7dbf71e1c77699c18599cf7c665869044 0x8b5a5e94abab5fd7482dda1f613a9d0e9476601550b9b1270def82fa7412c2837983b1be3e260b4ed1fc44e4ba5c342,
  .double 0x131469fbecfb5107ba8d5a6cc075b7b8521800487c4eee9b143eaae5d199029b398454ff7f3c04f80cbbd938f3c99449 0x3f76c3e048b02edea3e90db631bfd1799c33ffa75e02406918b30a5e1b91cdb7806bbc52710145df70a9c59ce1cd00,
  .double 0xdccf2a884cfc779c560e06b43d58219930e411f9ebd3fbb622b57ae48e192b2ba0698d498fc3cfed85b64dce6fe4284 0x37252d89a57abe2855d66caf0982b44e07448123f7d094e6960eb0b7bca51df7b09494bb5d3c3781f5f8f1f7875beb9,
  .add 0xcdf15587a6a8aec16aaca2731778f9972fe29dcd7e42c057236116bf0d85b175ac75dd437d2729b3966457e6c6861ab 0x18b9b8f40e90261fba31e48a970ebe0e4d4dc7c311cdf21430a10aecd10ee4aa6524861ce8a444f4c7a2947bbd784e81,
  .double 0x76b3560c5fa1f3c370260b1b127557fe00fd40f37f77ece67f050173d533b8d6978a5653d7228a7d8b78edbab366d8a 0xff7e31f7cc438fa35c5b2d9128690b6eb69698964510ca2ebd005f0ab2f1ffa460235dc2cde16215bb211d93b3c2842,
  .add 0xffcdc51cc7574b59dc5aaed893abce58380bd99442bacc67b673e621e126104a1465f2ab1cc14ee18fe1c58a2e4a14 0x1789809f23c82c0867bc69bedb228234514f8ebca0c307284809d50710f1b6df4c6dc2f29f40fe2462949409553eeab1,
  .double 0x1419a41d83144b06c311a5b646b5753b6a731db14234b95bef0fa0378fd995b4817be147df71a0c4094f4bb92dad8194 0x126bb731584f36fb87986bd35253d043b0bc09b235d05c9ddd300c16f94c6e3d52ac394de3e53e988d827f74baccb4f6,
  .double 0x14bdd4f576c50911214a841b873af91499c470f47ded99f6f011b4b92b2308da9561faf5de03cb001d5646a208814f96 0x7218a97be2650572b9e281f4a8a2c0d0a0b7ca7102f6369a91aa04bad6d1b8a1704ef2e108c1577d532c0102e6a8817,
  .add 0x12c174a5e8499438aef626d3ca530884937d5b19efb8d26bb0cacd61e9ba67b32a6c9fc7901307697eb08a78a747df4d 0x3c78366d14aeb80dd121592912f15b3d4b2bb5fb88fc2d8832ffeeb8a71896e1af91c672dc6e9f5d70d12f27bb927a2,
  .double 0xdd778749304bdadef555a65aab50e69cb6182812b960f20f5675974351390e8b359ce697b552cd18f9090dd41837bd1 0xbe47f19e0340ab4e775dc0c8bbc007be79734736a308f058ccf1f3c75148c0f2ec0cb2c435a53cdc2749111b26b6fda,
  .add 0x4fa8131283a3eb58169b59409b1a2a2ac6fca314d67ce856067af472dd5b2f6aa48e3f194fe359496de23b2517a28e 0x71ac5108c695375c318b8bd012cbdd3964369455cdfb9637be2a323b4053a3f44b902b04ac6bef25843fcf095f6168d,
  .double 0x2746a1407bfeee5bb9e784aa8f87ebf74a6ccbc6f679108aa28926e385b00328ccdd7818446c2034117a639f6160014 0xb2802da155901a63e5c5d2c22ca9fc661b71a3abf7fa21ea18a95fd7e27033434d47f7ed0291009978639b31c2bf8db,
  .add 0x1822cdde360a710d65bcea2cc9738b742067e13edcfe0baa6444fab450d7429bf2478d20818f4cf87ca56bc8a939ab7e 0xe7352a8f3558de2c6df76b86e4f5200d37ba7729675a4ae0f0fd3d63a22e6ba59ec72c703021ffc6f54a5cd4435f2de,
  .double 0x5c265f017ee621629d9fb8cec2ddf0dd219d67201ec76d2a8c35466cf17d9a133eb819c4a4cad9471d4248a4d451eca 0x1491363c934c5e580a05410b6bad3f3d509bd8c3e3cc23272779b78fb96933a6957ebce234ae1cc27a8e4b9ec13e32d0,
  .double 0x19c8f278859cd53107a1a78728f478308f717a6443938eca69b2522cb8be77f24311ed69c11763586c2fbadbe80815dd 0x1720e3342c8df752c865f5eed63b7fcfd0883c38b98906cae0b458b66a3204cee8eb23d6f428b227ba4d51cd58700635,
  .add 0x4fb235d345141ff5ce175876ec0f27bba5d93304fad0c92c4bdeef9e9b3710882f0cdf2c0500c0bff6cf6d99b139eb2 0x18d186519afc629dfc198320b871034dbc3b5495651da00756393558b0b3ef06eee358a7cddfc7977529f9f3e7c700ec,
  .double 0x632ff6477b7a69483e5815dce525f5817156cba83a41b5d74c3ac1d50d5fd8f71cdf6713c3623e6ed5e9e4e2f5db469 0x19ed36b384364f112f6641c98b8d9462116c2ee830a39edb50d99033dae155d4522fc63f7f1f4dd6f68a63f35c42aeed,
  .add 0x15229820b294ecaa735f1c54335bb77796906c336c5270712eb930cd144855d32482bd02a36de67e4e5f537e8aa9556c 0x16ca902af302cfc7b3aef1d352e295324ca95dba19ef93c993b7fc6c6b4d9908d453a4d9aee06854c14521aefb47d1a7,
  .double 0x1d0585d4a055f599c47f0c58df335a4321950ca3b6c3ea24deb2328803addaec7ca8b4cc765f4de3cf810a21d7031bc 0x200284606fda4798ff3a48acdcbf06c89e498fe7a028879f84711067cf4630744e3245a1d670a7637f3409e35e024b7,
  .add 0x1de2d8c98af211a77f38b5ab897b6521e4323271f73c0fa37f10d7c4f4b91634013c5d64cfdda4d6172f820ce3bfe9a 0xf1046ac633711f7b3cab3df2c152273933c1cb416961d7cf6ea2f134a9e1b678d986a2523b0ce863367413017c8b41c,
  .double 0x154408075aa084c853b47b4fb9ccf4671728a4bab87e67b221275e01cb7e9844600362b538f5a2d8f27d403ae8a5e3b0 0x13173bc8da92392ea64d1d1c254acaa0f3d15753a25a82e5f2caf6d7677ed5733a3af7dcc2c9f63bbdaeecc06eaad135,
  .add 0x7caab49597d46ff544ea0689b86e2f59417f1e771f74f01c95592e2a22f343a2dbaf5167ef4e882c8315bdbdbd98da3 0xf9c35f220da037970b62a45448b0fe5b62d6d147bd912f0f2b81de5248f593720f9e7f60cff3eed726b5636c5769243,
  .double 0x17d9d03450fe41de5e5c89eab42ed0a7cd3da21d56671851b46815ce79fdd8f50689f49fbf1e99f5a5307dfb81e43428 0x30c4a49f1873f222e7295e09ecd65fb36c378a135a2c77eb6db7c836a6f6e3cd19282e2a18fcd3cf9375b08f8fda2,
  .add 0x1884617ae3a7ccf10dbbd69a5aadfac60eeb9136a2f42ae58a096feec1e762c72d04001f2da80e416630ca1226048ccc 0x1140ca28aeb160c29401df1b1e95bab83a72882625a0f05ebfbaa2097526e2dcfd3a6a4ba52c91e46b4235a43874fcd9,
  .double 0x136719a166c6142dda4952c4ead7f22af97467d1d2aac77de1f7a46b69925e5251e3b5cc197ff2b2f2a22e8c94c4c7a7 0x1c03e61db09854020bef9735e0f3c91aab0ee256541fa233f25f88107c52d603e99fa182a1fd205f762192561282418,
  .double 0x1470d123d3500fb953599dd3c0e7d2653865131ae2dcd897084749eb418b25b0a4029a0e5f88b04352bcaa1cf0b2f84d 0x19df004a32a0f03eeba3ecfc759bd9afa6a608991a50b26d7553eab1fc93b02330c4fe00ff43b58b616d9b22843208e8,
  .add 0x21ad78e0a2c98c7d3c9d1b75561105e99632e16cc2ec0279bd97dba6b4bf4e95a68f73feb00030285746c8442f932e3 0x367d0f00cb91a73f916f9ab669e86dee406d3330c67a3e957915f1b3288bb60a7c59e46e28a7a5078d67d2a881a7546,
  .double 0x4ff4b50ad92a774261193e1a700506db077f4e5c2923b251ebbf17f8f1873673bad69a0b4bb2c645b5fb28242a54834 0x115cd9ad3b37d7811e422ae67145db96442a77bb5c7e7ce204a0e7f9a216ab1957d09f2d33bab16ebb1a94aea5dd4b54,
  .add 0x185bd190f19f3d9b23fbc27088b4b86ed5a7cf5e30955cd5930fb8fe0292cd4b91e764ddef76085f84f20be716e63530 0x1257e4ac17a4711a4d46e3cc2598d22b499aeaa35b5dde496a21958cee0aeb321bcf0e921ae57cef1a66132d634ca925,
  .double 0x9eca7ce6c53d54fe5b72330f5e67ef177e24f03be1aeb560e12b891cf204b0280a4f6543ca620fea75d3d47e9ce18ba 0x1797a212041787a98557f24671bb64f8fede4abc04faf0dcbfedf3521d6080495d113d3126ba37ea251d26bc8916c697,
  .double 0x3685c981337e66175bdd5909b6693078fb1b2d63938e79defddeb48345e5b32bfd36313cc12006c8505088d320f0fce 0x3bd15ea12bfa0d01087b8a99bef109b7650c18eb58024d8d5b956a6c8271a831a21e49f4352257615cc823e9aaf9e16,
  .double 0x19285fe6678f5eddb675f4db2f03b8343b5a38e7b601cea73b93a78f56ca94d0316b184c24ff24e0cbb92291558efe53 0x11b931a7c5ca25454fec56e970d401948a7d20f3d61542769b6ff85744510f0210666ca8a7dd62fb4ba41a854fcb601c]

def cofactorChain8 : List ChainStep2 := [
  .double 0x6c6cbe5a40e7a2cfecaf2e49c50f5d323843267045a639692f4d0111c83807f192706a93645f805da902a9b8c272138 0x187729c2834bd2e4fa6cdfc92c9314eac8fd15fe782b73bbd37675e407c9ab4070c49ecbe78eaca701bf167cc14fadce,
  .double 0xb218fa81b5b723530a2d4193b084d53eb40a97436ed5915a0382ac04206c5061c7dbe13a9dd02c05db5ceea41283c1c 0x1553f61890d99ceed664cc544bd01ac749829807674e2c8f29a3130e3f2fac0430392ae2339e26ae35a9223afaf10de0,
  .add 0xc72af67abd9ba11d9451c8b21655a5e8c87c93c45b86f39d462aa07832bc6e8355932ac8d9e73117251e2860688f49d 0x192e24b9721927f042d1bd64e201661eb32a8b6e95987aa87d2c0ddd136c1ada4a8cbbe97e1649fb446aa490b080ca2,
  .double 0xacde2b233616ea043d2e3f8afb83c48706ee22c06e7c8500e8fe7b0859783f7970129426d96888ab3623c8a07d9c81d 0x1021ba2606cfb71324c4dd1029d2bdc0da718176560e6347931b033315050fa808fd8f1a5dc7c1cdd52eef89b3a49d73,
  .add 0x114d1e4092abd5788e9431e893dab82654c745f34658390f6b6ba6b10f26219faf19733cc62baeb166fd4f46fefcaf26 0xe471f187fb7ee8a3f01f067039a8e36ad232ad9abd5f2208f4aad079911fd527288a17d10a104981b7f4b842f2f0587,
  .double 0x87c20932c8c77f673f97e9c779a5af67757e88e135e23c76cb03ed4ae70d71f927fcb00d08db2349d19670c4775e52c 0x2a755fedc84720c73d076d12fbb84e9b831a1a5bfc53b431986b0d2a3860d7c04cd16645fef7572eb913b00623e0f85,
  .add 0xbc1fa8e51a648f0ea359f4f1b39c60f1c2e0c6ffc2da7e5ee4ffc56cbcb92e083cfa745f5cb5eaf366076d41ace84fe 0x5afc30fe3496900f1ed1aabfab5bfae24205cdd95c2204f8311056bab7519b290b48e4b6bdff2da3e848393bad8e453,
  .double 0xd6e74cf17280a1c65f94d2ad626ec6df0408597160daf002646ca07f64406a67c99f43961b0ef942ade54eef0977a97 0x10cf697666a7d05ab9913d5e4ae0ddb20cff8b20b07ca220d5025c4f5a20457e5e210d889d29906d27dddb529a91d822,
  .double 0xc6f311dd3e007de79282f22f75a7f1f4fa6a86b3d7c1667ca5fae368e0e908eef30c838ea90e03e7484aac990f65e0b 0x1437e454dbefeb9160d6b79d1a0872c1b01533de9d974af9b4843b4699188989bb84621620a66c943d123cbfd4517eba,
  .double 0x7610fd6d7425c1516048a2e8ca5d2ed9479b7609eb3a511190829175d11bf0ee834de9472d781f11e7f62927ee753fb 0x14c47622e2f698cbc582116326ce0390fe0348ec4f262c46784b3f2751b75f2b0a0bed01749b6c3485c92e8a452bd93c,
  .add 0x90283e840f205c9f6e9fe5ac8e94ab9504ebaebcba9304c69bed2991e91b9dfe049ba2fa4dec0032f7a541bb4501442 0x4ce1a5a9f5272770843db2ce49e7466b9e24ab42240040771ba49b5adbaaeb07b925fe043966f1caa4e3c40c80e943b,
  .double 0x4b9c194a757481fd353f3268d9ad03101d115ca7407721b938aa20d014dbd056961629707c19c6c5b3da614fcc264f5 0x1934e921dee6b38928b970422b778dbc6b54856fcfb48a87078257bc8863f18e2d98440b5cefe34f71f322b90aae158e,
  .add 0x3e36c8a8bb036169a859bd8531a107f5d9f89711ac0957bd6fa2b50b19033047f357eec00dd1a15111e9b0e79c588f3 0xc3947d9e847d1a79b640b3a26654066ee49602f8219eb64aac97b14e1809ea2b54d51d558a8391427aa8d127e5aad3d,
  .double 0x187b443477c3c94e623544af251d1786e0b1e8e7f2276a88d319cb1931519972d32364317e736f44940f49597ad9cad9 0x10fcca456d75100486a9ee09b7aaa0f09b38b7e7ee4c2319b9db444e4127678de84035ea7669afcee68a97878a5fe89a,
  .add 0x190db0dd1ada9b0279b6048ef46048db5af6cffee1e91c4bec56f351475e88478766fdc93b0ea20e1b54d90ac220c43d 0x185eb36cdf3cc7b404ae2c482ccf9344c850c3a5d2989104a781055e6834afaebac5244db02e32c40c983cbff48c991f,
  .double 0x4524b86adb7bd9c1b6cc1d00e9424d2deb2b6c6915878cfcac8ca67b977c313b905ac37ce694598a9b26660f43a8d45 0x17ed9a16c5c5465d9d771d8aa1bf44b78caf520a7eb8e0bbdc39de77539e04d5ef3a5a4b3571eb44104820fbe4cc8937,
  .double 0x171c567b2130b3d3a94c39c90f03ac14d9dbc62cfd69e0413e8e0bc0fe48f0115b9d5d8443f22b9847480a5ae809bb57 0x115c934393f4eaec9bbbd45ddc1b40e15013deff24b40479d08557319e230323562bebff80f8c0a363bb213241d93e0f,
  .double 0x153021448714249e24c9d1a117e0d880ba7f48a7f354b5e1e59cab63734609b6e640c3eb918b501d8e4297345cf9fc7c 0xaf013f6f8b8d4382b3a9f4ec3eb1e3aeb0a736aae85cebee554d6470ccdcff980923e1764f2400817561fde3381f852,
  .double 0x17fccb5c2df88752b7a7fcf6ef05bebf2efab0081b1f7b93d5702d0b0822489fe2bc2f3952fecc81d963d1df21c25312 0x15191ee73b1d33ca2268171c3a5627a7fcccbcf8ac934e28e1c6f939b072be5c31828383f6299bae656648a1055f7219,
  .double 0x4eab4044a31b645644ad1c841dd3ccf889d91400ec4270043737246e401ee4d97a307611352a422c7f51b8b975f00b9 0x124dcd775fba085d9965682722cd5bfc88f69cf1ce3db32e5d1dda18815cbaebaed99f875037d36df328f7392e38701d,
  .add 0x3e1659b770b912d78f8cb968e317940d95a8f05fa5fca2c1a56d2464bd5817d2f9ae3d11113bd584f8ae02b7f5cffe4 0x14afdcce3eadb6ddac126d249cc96300c47065ab9491295197c98bc08e4b955598e1281e9848bda16c365a43920babca,
  .double 0x4ca815ea388b775da3f0b967596d41f7aa33a2482b87cea3524ebe642bb6adfa075358d2afd283e38925f9c4e7417ef 0x190e3ef9b5237c91e655028aa4211180b20ec7d441954a48b3c2a4cb73cb12c848bfb27cb247e05a01075080ad70e5b8,
  .double 0x8e98d852f3120a9726eda0f14e844a873f1e7f5dae24cbf9120d0d572a2c1f1ccff5890ed0cc435480c40920650257c 0x7884f7351e27f8f181d360f7eeee642dadba5e225261e0965dc6fce7fb3c2783b19205dd66cda40d4cba0b22f69fc35,
  .double 0x17b926d57a6a412e8763aa47908a3bb664a8bad496f9666527cb8e0e5652ae0ea5f2738fb0849e535e95f11fadf3f38b 0x1909011e268f761ca1438d6ddaf23b883606282685062a4acd8795c2fe4832e7cdacea68ab104e2db3efa621661a5b19,
  .add 0x3b67bd9e8d77f66782c450e0ef2e7b1a3ac8da2183565ecefe21154e9edfeefdeb46efca1845fb71603634eea581c6e 0x27014589bbffada143aabeab205efde13d766eae743880cd62329806ef5e9e38d79c53f1d3232c3430f8e0a4394972d,
  .double 0x12a41957f3c42bd856c2acb6c70b00f00e711a18759f4734831007b7952ed081e52600fc3e68a5d04ad2c5ee6a1fb3a 0xae3c329fd404321c5030e5c49f0ce1d7057f8010c2736b0d034f9be2b50ac838ddcebb99bc9645c2e220012bc722a11,
  .add 0x15697b144dbfff9036491737ffc284a322ed2567ad85ed7d8613d5d4ab95ab738ea1328176fdf0cd5f3d1855fd6d23da 0x1825dde48e47458c1c39e05e054fc9ea65fda4a2c14f26fdd57df5795ab3c22236420645a49f39b51bc97e9309265b8c,
  .double 0xe353e908f7c3921caea21ec97eef9558cad0303321107109bd226671fe6090c6e22484dad58dd95df41a1ce881ecca3 0xa0833ce0d6e9d03fa95ab75e63f6e9b4b68400233e6d345a88cb6066dd3aa76f83db6267499736859bfaf311c9b39a0,
  .double 0x132ee2586b6253ea5008774829352668c82b5f1250e459424fe78a0a19511a17b228e3d7851b893234ca359dd48c782a 0x631cba376d828fa9f513a0117bb1b13dc426c99b6b5cc193f4888b287a8b98dba0937fc5df480e82b1595dd03f01032,
  .add 0x16495168d83251fd10ed0525b6e5815ff301ba1b4394da72f11e1a2a9bdca9cce4422bee68ea3faf5d11d76afb99f641 0x7609db57f329a942f708895abcb1155d52311e61e7117e4f46eec36b9122fb90e109ceb5befb7b586c2da184afd997e,
  .double 0x57db7bd3fb4d8e9ff4c113e313de680f2c1e42c3b5e75c2e1dd8d18b183cf38acdf6592cbf6a6c01ab0b5290e6fa749 0x114af4a246f10a1a1ebcb6dbef46af4d6340ad9eec8a861034068e3bc9e34e49da74067053376bc7230a59f0a8486eaa,
  .double 0x5d3572ce6d79d12495b21177ac3a4d440ea8bba9bd3ff5ce37a130b4c2e2cb45e6e2b6b60ff9658948fc46c2d767d5f 0xdee3327773fb2f9ee268da8a36570856899fbf91108fb4c387fb53ae7a95a887c2a994f0d76a4e9023efff575c1cd2b,
  .double 0x14f2ea96fe61e5b9b026d436643a08f603f18dbb0f1d81ed078055ee1e2645d20fb3d8128a06cccf0f343856457b1062 0x1e4cdd1e99bd4075f8dc3bc3655dddd81bab3159ec231cb2e1d279bda64c7501da59b13a0fadbf8f5cf5dda6670ef5f,
  .double 0x14de6fbc039cc034e1f5b5fdbf23965f0627617b8f40f2077e3c30fc30ff7572488adcc2eeb7b170dc4d8cadad6196fc 0xff1410f316b99df26d98f7109b5c883275cf87a60a9d26d218c87c3676a4d7a5593f55203370ee4f667aec434bb34b6,
  .double 0x198952df4aef68d35e0592dccce755fde36ae405e2e75ff5e738488e5b8b74fcddde32e26f27d8eb271113d63de15328 0x5c4a7a39082ce0b5ee00db3b54fa2205bdf43e802151ae4aea61a17dc9399e3f2e0f1d9defa6b3f846faa9fc351e79d,
  .double 0x145b2dd8419a9d18eb038342c70b47ecdb906883f0decbe472286763bf01b7828b1817f739761eae2c1e5827f9683316 0x99583e26570428b45d54dcecac9406a20f404f5dd470e336ba58342cd04f1a3135778d8325a4a6d39c62605a33af4f1,
  .double 0x1075f04f09c873328288016ed152c5bdcb1e0acfb9627117e5b92bdd22784823875f1f0b832e7ecab415ba4d60a35603 0x985fbb71e0ab959615abcde9bad29c45a3474cec409145502912de3a19948b10dc921ffb2cc6bcfb09e31f17c46eda,
  .add 0x1b4b7da83396fce94ec472ea8384017c2cb2404e3211b1aa91b7ac386d4f7a7ccc9d4156724b729c973b127b33be55a 0x28f6a81af27d76ad799808b180b76eb8638342c866da7f90b1ee1dc6e615b7aa4b653071965411fbdca843f57954fcc,
  .double 0x193d2a4e8d5deb6cd3a85c170b2f213b18c17f4469b783e02ecadafc3d37109611983d2945ca3209ffe5a205c25818a9 0xf375fc88f82ff192ead0f4d4284d9c5c6860ff3f78f63750d0aa00f1637225e4c1ebe39e5dc5f2bf8c22c447572149,
  .double 0x19cc67c8b52d84cb5a15b70be6b0b03366c6912b1af8845707275dd883134fc6778c1cf5e16a10e926897bfcb19132a9 0x141f8d30d65c1861ce165799bff098baae4d6f0c5274401fae8a7c8ac021fa5cad39dc4c0c185a0ad53229c41b625d70,
  .double 0x1965df6d7d16764137d86834791d3938a69458ae94c4ec865a397d19aa79db235006fa4d601ade9f4a89f4fcd55aaf55 0x161d562183a992bf7c56b8d7d3da1ce5d3a9b4355ff12aac09f332c90e68fdf52e3cb1464b1c1c124bd673b15c5fc97e,
  .add 0x16f9a1c2521c35a2eace9205bdf67efbb5b7ed7cadeb75c041e358821e715a18a93e45e2a0ebc086049e46c23b587669 0x89b1406db0cad0a184ba966aa41bea18389de20395c75b65c22debc20cc38677c266e55805a90dc5da2c86f633f1fd8,
  .double 0xbeb4e2bde57c5cee79e202bfa43763573981880a98f42f24ea96a067bcb371f637c15ae7fa94bb36c1ffd6c35ac99dc 0x165e92562dfcf9dc74182e4f6971d93b7d38bca30643bd409e3648c22d1c260bf55b22507e7ecf6c2165c12573cfa83a,
  .add 0xb08f5e7cf764eb100de500b7fcc57277324091c99df64bc1e0cc6c17ca46b5780812455b0fb7bf0571f87b6009a0bbf 0xcfec8e7d128f61b01a765ccfd25f49cdc5f2d25aa34ce7f6d69286e568fb49483ead650c7ece5c4eef3a3a2fc83b537,
  .double 0xc50fc1f6372888848112d79d707db3aeae83e426613bb3d5c05040b7c4059811f20e6d624f722c6825e4b0d60f66c66 0x19cb81ff517badaaf9d45c13b4412d0e5baa58c533abdf3c72d75e759f0334dcc9e8fbde7e61bfa8cbdb1608a372687b,
  .double 0x72bd34732155ace2ad6a8f69c1844c8de99ecc24469f5cdc9884112d8967150b58c212f3f4272b599f864610924fb5b 0x216eafbb56c3a7585e3b6aafd8e282a65f86f7629bc1154d2b39260048cf8479171176de745165f2b3a86d86ba620f7,
  .add 0x1966462cd06723f4518c55fa390ded2072c0d914b8c21fa01dbe607b3dd6d74b42380cb9f0a20db2d40a7168d397a610 0x22b7c12fad3438cd7a7bf56643924230a841c2bb0d1cf9fd98ae3bf5057125b3d1f1af0d074ae66a037437394dbb331,
  .double 0x7e702e9ace494dd7c72dcc4819fd7ff0380114ded724c08cbd6ea7f42de032f4bc4cbb91eb52f1cdb07dbad88162d03 0xb623081f1c33e4d56763a511579669667f2c0b16c03646271b3051219dd3af84d057988f2d4ac93a2cf52e5983a63d8,
  .add 0xa508a0107a25531be705dea623294a0663b50bcef8de67d72d117577715d3bf898bdefbc863d7c79b20db255f761d9f 0x11436636589e97057d01935648dd72fd4cd53f413c1d05afac972b3b99b9f5603e44ace8beb6dfeda8db0e679670e106,
  .double 0x205010733ae77cef0d3b6603533cac65b397b7f403e28c452af9714bea60c9ef1f0c167e50839a261bb59f0465bd0b3 0x176f56069d7ca1e4ce5994afe152e3545709bbd395c98e0aaa14ac168da3d33a9f85b2e7ae1c659d5764d88da7d1e389,
  .double 0xc24aa5d2e3792de028d38a23cfa33c6ee289f4dd3552e7d25cc27c47df517e8fa513018ff57d350f916fb14ed70c84c 0x99228699d7d063fb91d57fed3b57b8ccfa819d15814934e1e2c173d4c1511bd3c054acfd54e11f92eb4f3c3b485efd,
  .double 0x87c0a979cc87056bdffe080fe03661357988c6731347c8e83277cd4355a06298cf857b974a0c48e89bea1e8dc0314b 0x14576010941fa5feb9f516b046a2dc54816a2d1285fb49451e9141786637ed56c739cb433c17481c7b3adf9b97988dce,
  .add 0x22d6bf851f5d6d9df7cb366481570e7bc60dce2f64ede529dcf3dd7211b01f5bd3467994ea13f1b137285fa751d4535 0x35a0a22cd5a138d590214d328c1c7930ca500f53ba9d62d05034bb1fe5a7a2301bea1c945ec12ab0f852b352ffecbc0,
  .double 0x12aee2449aae93e6126953aa0375fad308bef7581603faea522e831e69c94fb940844740df7db28815fffc49427b039c 0x2568040aaf5a8b4ea682d69dfcaafa8c2714fb5459150b0e4aaac74c13223a2c0c42de838b1f13aaa8c35d2bd796507,
  .add 0x1329e6c0bc24adfbc1127d3d89125d5caf6eed9a0ad24d15a740387e12edc877e0dea9a264cf5895bc839ad01e95782f 0x10612810c07dabc9fb16477e54343aea95de946471a253bfd892cfa83026b358cdea256ad9c5174db139d1dbd410b49f,
  .double 0x197ce3fb11618e5ee7a4610635c1c41f4ad83ffdee207ed601ca218ffe647d395e77dd20cafd11f5929e9636fbbdbffc 0xb12343346f1bc7d8567c6513e049a2227dd2813d7b1d80b1bda7b8d6af4e882bc898411f3f935bda3faf6b199925ec7,
  .double 0xc5a07b292b30cfa561988664916f40cba43033fe72672fa3b9c880e8c38e7cdd88a16327f0d0168324add337b5185aa 0xd373d87cb607bc51e3cc7d7fc296d0babba650d41597e0e32c3a14f936e4f1d6bccc2b1188c2086d01dbd2a9b080e1f,
  .add 0x66041596478d88ea5d409b95fd4160c7f2ed914e2ea1221c48616d7594745d11b3c248a26c91fce429fef4ee14c045f 0xbb1ff8f6a98de1bcdb83d34c55263491795e3ac5371a5f774456d7860aa7a588bb9698f4d2fa6f63ee8da4849fa4b74,
  .double 0x516189c82b3be4f74ed17545c00ab9c3e6ef38bf6e9fbf32746b3686deef845daf1cba4d3726870097c5ff257f98630 0x35355535171b0be5b23515643996313b8b4d430239c0cc71a5d4b2d5b855bf7afef87757fd99ef0a811cd12e91f5c85,
  .double 0x149266892a743e6595b9b810e57d92ed00577f5ec25cd0b9b4691edfa552a20f48deab359904006ecc20352c41f1feb 0x1645649d7854af2e5fadce0550ac5c38deb293f2aa0e2e6b1b83945ef857eccf826d6a91ff7339f853b43bf8cc405b65,
  .add 0x11db710a90e633bb660ac164d1a017d604123e1ff48681efb97e53118a6d662d20094ee718519dd92507522182f7e1f4 0x1222024ed78e92007e401de85a1d1fb6c6f9e5e768b7584d7ac2aa417d7bb622992ce6714156db28e9105aa767b0c96b,
  .double 0xd0c00d8265bf77522405a391647a28fbf940757791f8ddfbf35fe9f2d91ff2aceba80f744179245f56719fdeab13871 0x19bf5cb065f64e4605454911eb89adc548d060b1d89758935eae7a0798f3f4b98abbd89bb0fe64a6083f656c148dc37c,
  .add 0xa57c3db1a04459e3ae11a6c539c458ddc034796d91e63104d37ad3de5e1ec5b7a5ea4596325dee03e7d5f9c424f53b2 0x147804925b39e0ae6c93f3fa501f864eb229e9298895072e5386b0623fe3b594d35b4e79cf3bff39576abcd771d18856,
  .double 0xb9afd1d90151d13853ddb39ebd7bde10bdcdcda05459f0b3909e5fe1c226a46c962614b7c52fd20a19640904628961c 0xaba64a399fe17f649287133b1b4b4e75cc403e36e75ae9fbe914a0156f2be328203ff3e4f8bdcfb8e6c6f0af3f73e60]

def cofactorChain9 : List ChainStep2 := [
  .add 0xfafc7d2f6c7545687c8ab656b121c4578af8ca915850297471a4ce66faa98badf9a189d088f2f9c017554771cf5dbc4 0x18f825600f8d9d73558080ffdedbe5ce64c869fae2d1e7c688c06a98ba7b334e1a0ef9d1f5ea19be103f7082018e0c5,
  .double 0x2dfedbf18a7308e528090a617ff35ff09d0c462f15a76960482458790bd8be3b0c41b9a76a54e61ac0bf8a4bb16985c 0x186f91fa74551da2716770ef6761384846ad184aef4318bf9acc82cbd13af9724a65d5b91bbc22c574f1f364649eb767,
  .double 0x128ce33f82916e5a0dbfb09f701d2ff0b7f8292bda0201d8e9ec5622fefb7a7fc3abda68bf014e98aec3c9d852dee88a 0x12ea13bc965cded4cec98e447b95e022505e2aaaeabf457d9304f68f02fbe779967b7e4f6ef58445e2bf6d1691b742ce,
  .double 0x17cfa54c2ddb1ffc83437b53ed52d8dcd1eefb9617ed004818c559e84a8a65dfe7173521ff4c65872495a930a74a80df 0x192d9868160f94ae51d2a32cdd77e8c6e583fa96890f4e9a5431a747de05963db30a38d9a09b3f0c01a6087a435aac16,
  .add 0x3963a867d71d49241f1b5499883cd0bd102f424a8d8f0b3f4b0ea6569bd8cb19ebfbd45c92029f7245ac580c9d70706 0x104795cfc46b74ad6ea62f0cfb3bae140a1ab1477ee2a5f7adfffb6de1d4b2f725a6fda6a423e69de2c21508a2c75f42,
  .double 0xc2db542ed2d4a175269b987732f8a32a029beeb4314918fbb9bfccac313d3a6d82d30a4dd98e24c6038fdc5b5f223af 0x1294af38a36dbafff88dd18f58e3742e5e51b9e85818220dc76afa1b38c9904c1d6078990d2a3a295df6e60b653a6bab,
  .add 0x8e7186777188d5c9524e57c62eb12a693e9df3924bd19e32276e439daa38c73f24ed7eb5cb600308f7d7ad25090a0ae 0x13d483fd3b4bc31e18572a44854f9ed62f8f6e44b4fcc7be9799e2853b01ae48c281ec2862f7620ffb2823423d483a97,
  .double 0x13136bfa877ae9148db8a45c4af33863dc2c93f1c78bb43e0bc9b7257dc853c257d15afb220521a3bd3f404bf4854e60 0x18497aaa6a5d1d68994465c091f3117d1ee82693714fe29b01ffb6970d44dbae408e5ac5b50a4b28a7d962c4e759d372,
  .add 0x90da9c1ff2a729eb058251565b0a24e6c814935fb53521c736a7717f5f9f4580043107c16202a13ea37975b20e9ed03 0x14f680a3e15c15f71c7260f87d3f4c5bac34cd02bc98525b01d1cc14df8608cae11baad98705dd90681d55dfb4dd7e3,
  .double 0x13ce404a3098c85679dd74bd516bd475791d225dcf618e61a8789a84c94fe73bb368b71225f42662291af593485bd7d6 0xb7cace8b8e817cea45f522f5ac9fae2640bf04507ca13d85b61216dd4d8e554e22b1220422cde54fa605085151d6f0a,
  .double 0x17100faef78db722f235b8840f2b7caf2169b12a4b41a9ffb24a52889885319740e00e67ba55ccc0392cea55e24b41a3 0x8e6609d35a39ceae2272b675cacf37554621a12b0bc583f1de6116d8db0d10d94ab7bf4d916ae5935077ffbc07af4d4,
  .double 0x7edc4a420f5f8d06e7a661325590e8b29dc12c4d0d1ba8de9082f2792c245dcc57b6b3c991eb9d17e2744505f1b929e 0x12b31d3d04acb93452b34a54fa6137cae1efdcd6966f67aeac3df6bcf7b272ce0090c74e233ad4e57883cd3ed0068ea7,
  .double 0x107e8130a593b85608cf837aab44925ee79ee7326796dbcb1c93fdc7818486d291eb27fb45c154fbd4298bce09142f20 0x3c7a22f41b7d9af0df29130f5498dd21b21155f24d3d1c32926713f8c8375ea2b39d2c2597f71fc51b15a2d7aedcb25,
  .double 0x1177dc6a4b2f34d0c5dc7854cbb4cf7119ea7e3f959a7650d17f71e82365e11ad94e1ee30852c415cc5baeeb0df7abca 0x124195fecccdc5f0aae6fef1d7699de072d6d92a8e4b74e4a2e9e9e643c061e3f11c191ba694706738ef30964ea616b5,
  .double 0x192622d3026d031eaa74850d0bde640fc94501fb3cf60a5aecf877ecd4aed01bf9ecc4fcc7ec917524c64740d63b89c6 0xaeb534f881a952ad69dbaa87ee96279ede1cbc5719c3b8be6b757b8f0fa0f1f6a5d8bb918a7f206957d6aad34948c4a,
  .add 0x7f1b7ef48f8acd10cdacb1db93c2c362b01eff2af2a88719a65a777db1f229f1291bc12b605f9c085740f400e5ae72 0x162dc26707fed2110d97524607d29223a2fddb6ad64dbd269b6ad829193eb3cad05687365c2c82564be6df419787c136,
  .double 0x8a157f2ed7d29fb1f4a114fbd6a7efc8b76256f6f3f53c9721e7de0b6001e61cd5e51d3957912d4000072d731a584a2 0x1953f865607040534f7fad837043c5aa73d871e0eaa52a2d4d4fed5bc58f0c382e47effccc639fc4ef83032ee09eae94,
  .double 0xc832810fb5876334ea2f3cb7a2966c641f7c222fd7a00bd5eea5e2aeac7f0239cdbf04aeaaee7cf5ac05c6188f1ca81 0xd2e081f1adffbd3975ddd7b713bde3dab743e6da15322c22a7d3d21f0d4c58f6ecb1608e37e57d51590889d5683e7dd,
  .double 0x61f008ebf1d71e2bb6570942ff899e25cfc3f262c61d7fdb335889ef3717c50ce54b52befcbc82017c8ef3f574606e2 0xebedc01a1de18cb1cd87c204c3846a04b74d6d713294147cddcceb76692995b0cbbf35b8726ba6494115a57ea83fc8c,
  .add 0x136a5628c5b65bd6f497be39d92078653808cdb250c695c9b2b7860acef176e20511c1dbf3781d09a4bf2f88193f91c8 0x270b6f41407b7922ec260483e3204dedfef40600d6fe2b94c0f531ed3d759cdd8c203a993a205a04e6da0ff9ca75ea2,
  .double 0x9e9535f0738d1a81cf35d63a2a1b7bdfb167803c22f6a5d4839dd943bc6ecbedac1bae9580aa570e71c26ea9bec8be2 0x141b6802c07d2d5f7304dd24873e7c72070b891b7b9d90ed7f6fc139909e3a20138c97ef720c1d3c273f82bfb164159f,
  .add 0x138049c19f8f40d28f430adf481ae39da13cc4d10ff87875ef31b8fd4c228ee488efefb3cf8e3572d68b2f59517e24d5 0x4a8a99374d880f82cbe3658505816c77113d06ff6e586a43667f75d2356e25593fb8863f13c617cf10f0c8b8b712372,
  .double 0x1359ff8f9c660ccacd8bb0a2864db175959e2fc1cb617153b4be310fbf494c3a1126e6db40797492081e80bf2f0089e3 0x1427868657de089e42d1c35adfe5c01c1c6f3099a343f91f19dc6a883f0cc1e2cc16879e572e3f773e295b46dc7fcf24,
  .double 0xaf16062681956e84eea8fed9f1bd56d5daa59875c6b929b82a8dce28e8064094b9eaf8e8eaafbc4773e9c9981cec19b 0xadd016c31f6bac0c246ceff6ab8dfabacb5288cc50682e7190bd170a4955230cf6204a0a241a7ee422a77e3e01fd6c3,
  .add 0xe1b6a8a13e5c9fdcf9789e631936edb9f848795d95c40cca2f0e7af2ed764fd07c537238c2c941a987cf448da00eea1 0xeaed3dbe29e63997689834e8bb866932a6056adc3fc3145b3d9e705bcbde55fa41641df3f315ff63c94fbbebeda3dd8,
  .double 0x18bac1a3832956cbddf6f7e3051f4de5c0db51cc9e3699070a15d591fcf10c1fc17014a01f2bf5319b62543c5c27d151 0x30632ca027d6e9e0e6f0dadfc21d41b92e2e347d14f87da310cb2cd1868d00bf691f3bc4cff9203bf29b2b0babfb1ba,
  .add 0x7058073f047b3888b6acf3b8fb7fadefbc463aaf5318576eb56512690c326d8b5f81fc89e91a4dcf85f447a66105f90 0xaaba2f31090471a02f212de5d8767444b866952c1ba1de9aaf0d3bb2f97254929685b8860bc67053362ed56bbc13ceb,
  .double 0x12f4d713ad6668a2c4a53477f47a6b444ed7513c37e0a7888a1a78eb5dffc4c080f93b52ebb167226a07e6d8e7d945bb 0x449b0801da49a60e235896539b4551284f720a3436a0c7805cc2e8009c1302b7050cdcfd9d34934ec8c65c1925ec597,
  .double 0x144f700933e9d7641c789c862a03a4140007f46d3d4715b0f69bd429d43fe9999751bfae485993ebeb5a512b98ce4302 0x19da1f74ce5e34a3a231879a01c324364ac290f004884f5cfb1b59bec40a308b5b9bf595751f63b220e2aece761d1e16,
  .add 0x8cdc2f6370b717ee4b4cbd139bbe077ee4914be39495b5244791610d7e92b5fd91f2012aae4acb4e4c9b86538dcc2cd 0x13b7dcd73beb27e0d5ed6dc71a4f85945a99675e768bb4c931dcd2f0655c4e6106adf22a77f7e78223d9a8783fbccff6,
  .double 0x84cd0027d5556316c062f0a8b7c5473fa0e66a5b07c1918069d630613064f357190aa58ddb22d4e65e0ae96064c4e7 0x38ced8f74d150c6a93cb1244d2564fb362feb02e36545bc8f8ac844783e8a6fedb237197a437e421eb470226ed4ed0d,
  .double 0x3a5aa1829b20d3610b88bb6e8aeea9a427b652f710e6431a8ba893a3e87b4e84ed48fec36c4496746244d6b93107f7c 0xbcaa29e326b91db1b8ac4e85fe0f4ea8a658478fc5f886de6e93c8befb5c38bc276af46c3209ac5569d50b97b569978,
  .double 0x82f64a7f7f4a7e5086409335d76e85ef1d1372ba58ffcb2b17d70dc1954a84459a5776b5e088c5ffad2ef4d4213c751 0x68defa500e7ba7e69ccfec17595c98a9f4b47357c577bfa084163b926bec9e03c83bb7f93f69fbac061258f7b19f8a9,
  .double 0xe034ce807482b7ba8a6c1304829d9e4480a8afbfd86f03dff270adc48fd3f867f26a3f0720359fd53b3290faf4f1027 0x13a7eef142b33a617ce76560fbd4ebdeb1c30cb9807c28936212efc7a0e7a9c74e36d34756524c4ece50b4636a9bdf40,
  .add 0x11c7f35395921410f7cacf72c1e114ebcadee59d39954443b814f9b3536d4913ffcbd5be14b9169974b044aa1300011a 0x1217feb028c1f79bce21e48ab18500c83e64f3c31af7b1efadb34b2b14c1733a5df3c22e430d7cb264fa0bd971ead154,
  .double 0x40b5b4f2fc11be3879f0f0251665b3efd60c7139d374eeccbee2f05fc6e8c7e9ac276394e62e6d3d9f79c165b58de8d 0x5e8249b7c9a34d461a02911098bd89ed0ba238932e3a5f56305acd865e5b2e408ffdd856d38d3d7daae22b55dd0b478,
  .double 0x190e5396e3f4a9a471bebd86fa13ed0d84d9ed30a12b97229b3dc1cdddb8a57e5a1987e2fd43b47221031efa2ebd86a2 0x19f5560cbe48262d00879887696c8ba38552f77783d661fd23fefb40e280b52210c5f05cf2af496678f5c24c160d397c,
  .add 0x13579e57b3f4aec0707b87628f551147f5cca82f9ccbf736448fb282bca017069b784ac51e55dcc20a9073baae6acbcc 0x3713ce2c7d89a1ccc4e2f04cfaa299cf3f7bb282e3f0c0aa7c49101ec74ca5528b4151d2f3a4ccc9724aeb023eb916e,
  .double 0x81e468678f09c193fc55d852aa96f1210255f4c73197ae12164332a8c06c6f48e633bf09aab196ed8398ced0e84cc7b 0x255389421cebaaef07a0f31b99ea8d13eeae174d13e7444aaaa57e5e01a5284300bc55147d403830e723a6fe9dc6cc3,
  .add 0xc39d9cf96e080dbe268c6d77f4073a6eb576b967a50760578d8046d0904f0dba7e125c46d38572dc5bf7f699239a97d 0x1103e863ed6bd5e32b08abc3421b022fdad9e90be6047fc48edcd6eb332622159b62a587cb223389286082e23d53114b,
  .double 0x7c504399b37a2ad500056e2b1d575df3740fca66a0ec2961b0d9b5345315768a827d591baa3489401ea8a8875577d73 0x1263788a1c1ca14d3e44c49c1216c8b77aa366b410d9b628f6888b9738432300ec71a3b9111b5c0323947d461710e4c3,
  .add 0xebd210b963fb2e3dba36e9b4c7373e4f1dd722c2027179000345cc418dfb5bbfdbae8ffa58f1ba741dcb30b8d3afa4 0x104978365198eb5ef4d843cf2da62586b95e2b331ca30645efb8ed94f5246bedddb4b93ad3379ea0ed9484cdb8ba9c78,
  .double 0x5ebfd1c15e1ad4d3ca97f8892a4b0d81677e568e794604dd70ccab6cc2583a88a36b317d2f678d858190eed0c4aaa6f 0x10ffd8eecdffa99b63d4cfc6b85a1e19ff31c2bd5f910b967b8d183c9d032b1d86d0c4acc872c7c2e5ba562b71c7b45a,
  .double 0x1453302949265dcfbb2e8c1b21b2c6a6f8a7ce220ea4f1ff040e581c4aa5e354d315d069f80d40bdaabc71f6f79a246a 0x8daf84428fac8492ea052cc913bbccf80ad414b57c7a35f5593b041ea1d20c103989eacfe06df462df02d873bb7bd05,
  .add 0xe8e7a5a16c6f4ddbc53ed245df4875d4893251d126121c20427b0a38f26a803de27274e4ce0f1b586ced932f44a4e51 0xcfc82bb0bdb0ea0004b5ce92f306469f7c51acab02074b5ce0643bc0fc3136db6f03bcbc4f85ad73a609a0e3ff7f435,
  .double 0xbd07b6aa862d97021a5f64073b258804b1182c20de1c0198fe9b5ed0206b33ade649380f5c0e35f7776824c59cf9921 0x3e75d9596b6b909d1363644008f99a7bf2fa1073e09b670fa22d4cc989ffd0ad1771b051597864197191b09c4ccda3c,
  .add 0x14ecb40d85450b4169370a95cdb648f897151cfd03a9f3c84c9d851c77379545bf55a5b2c358ae283ca4e347a21bdd6c 0x691d50ddb31c9d11f40ed4db5707fd2977b0542fa9af44bdfa2b7b3fd55b2d4065ad7177f54cd22a88160de7fdefdf7,
  .double 0x151471235272e52da46aab34f47a1fda37cac6c91ceb1298f60ea2ae330e05e07bc511f2caea9915ae45b56925b95cdd 0x1903670e2fef2f15b8e86c8be4c7d7a5e0809ce18c7b202da8023de2692c525c1318674a239d3077bded1e33b2e6db4b,
  .add 0x946ea9816e252773a00180a719eb807de175df12337f95baec4d6f138bd54d9add5b7d81b4dac5a187673646e49c2e8 0x163a22dc24a991e7e8113051ae14f77bb5c116d2bb28b9ee4785588fdac08c9d6ff72993faf3425a45bc3ccf2b9efc59,
  .double 0xd843b7dd4a02d055846a6d8c690ca4586b55f42368eb974f8dc3f0eaf37145bc7e759492fd078701873d62e3447eef2 0x13d89aa620882b56fc833f1a68017a209f66ce6dd82b1924b11df9514db56d9c7d75324dd6072d492336297d9177f80e,
  .double 0x3d8b475577a811dfe56fb8ae55384a116e894137402dbbafd040ae041601fa61eb9ece12d2cd2915f15056b7d122d 0x11e429c804f74b542a6c672372173a276361ef7de563801d4996c44d10b817e7cf7b5c1edd89ba47bb3ca1ac969b1274,
  .double 0x4c05a4cde361c35dee1ab2ca3c7e3c2e0572dd29290cd2aa03cafa6e154ae3b6dfa1770f5d02818a9c494c73b9ea08a 0x1343f79ebbcb4a91df84e4b68710e03b5f9a611d03c6831d3ad1bfc6bdc96ef4557e68974cd978d031ae07b86552156a,
  .add 0xef55c4b33b26ba62cbee8c76a4477c53c4333fc248f54e4ee40e1db10ba9fac193b021489d29dc7286fe4c2d51d1b65 0xa07f4b90e2307ee43a72f46150bb570e9d1c4f9857eda5400257f8e5d80a8b49d5f61d8c83ff2ede361c73a22cb0231,
  .double 0xc63941faaead448c4b362a2231a71485f23c19b62fea58dd5c8b0c86bf818bcad304e154f450982bf621a0522e41f71 0x19ae4a1749e4e74ebf6e4dfc58835b0f1594fbe5d941319e8cc9f6afc8de82f4c1a3d32e9377e8ac1d353a41a68e6c0e,
  .double 0x1500f32742bbd9fc754a851a67aaa019477fa8fddca9fcb6149de150ee5c105934330d800d8b9b06b5ee824f5f255a93 0x15a38b32fc99cd64ae3dd2120557495b84f547c863c17cff3900ee3623affa3f1690f328761a691f01107d9045b86f7b,
  .double 0x153d8c36722073aacfb9ca234b4ac7db38f55568545e869c7aaa82bc2d668125143c82b6dd91b4df6c3b70b4388df645 0x7383a603b7e8c966c07e4802a611f0789826bb87b65f7bce33716fa26bc74d2c933789896521ee56e40d4d4bf1ff939,
  .double 0xf984b34065b2e1696ae7298face82c51ddc96ab332f38a34221c41cef9376b007ee14e6bde4c78ea0ab4489534e4cb8 0x9b6b72679966152d9a9af8c39084052202d2d0745b499855d461f22d40ea795fb69a988aea9871c93cfce5ccd5859cb,
  .double 0xc0fa4097fcd4d73d3fddd0abe1bb9b86e77223828de0e6c760c8e467880d7eefad1a89e001412c6a88896d819637259 0x1486c117ddd7757e893d06f5eb209a37210c5b01f224d9f2a6949fbf932b9b2175ad50b845acd0f2046a14190dbd9b63,
  .double 0x6a62c44a1cde5859ae5cd69696496b444b67383a862849627717e069c316db7853dbc1580b1f57eefca9fd85d69bda8 0x18530f127bf16b24e32b412e105ea7e73245a901ca0083b68dac0ee64e492518096e11300feb2154919a0da123c1e350,
  .double 0x778b3be237575c1901b67c5113365efba44450c44bf9379be2e875a6e7ecf6a7b40dfe6d2d14117fee1cd62583d4645 0xfa418fcbcbf903359cb8a859ca99d8c108f1e6ba8504aafa795fa5ea7897c7d27b72c2e8d6d01b6029b152b353f6a8,
  .double 0x8b403afff2cb4a4171eb8545d877df02f326b1611041159a5d543558ed41acf0a514284b1f35cd23ca76b7e7d4fd24f 0x10fbf4953feb3a1dcb7cea46d4d5953df1e85ea1e02dd3b550ed857e47efff23790cac997da4b1ac5c20541d7247aaa,
  .double 0x135cb7da9cf4d55146bdb4c8503b3520bbd467d1be935f71f828f973d0e83e0864b81b8bbc19547931a1d47266390a1d 0x19a9a37fef340070b72211f17afcecf8926ac285f316e3e711b80457ec4e729f3aac1211b5a2d5d61d60e571ef3ef381,
  .double 0x15e1e17b70a5a6d02445b5879461f8cd80f6204903a72ff0b059827faf071da37d2aacf5a15dbab4202751544b20312d 0x2d501f8c52363f83d32e04ebacb79ae9290f94f1e42cb824db9b1ff41dd8f0da610c56bf0beb4e5b721772af72f77fc,
  .add 0x2d7b43f5168d3a3a3a7439c97c5055af6f94f06fc795c51fce379fcfbe54982acb010d23a1b7e1594c715a4527e16a6 0x1318ae1fc8458082cf877e7d98ca1dc8bd23968e0e445f1cf6ae1e8f14b084117f3cce482e760684911265d7a0bc0fb0]

def cofactorChain10 : List ChainStep2 := [
  .double 0x14fa2be8ef8f5f3a20f1d1fd6d9cb6870ac32a364bae17e7588d825e0344e90e6fa9300614e04f3fa1ed9223140c6a14 0x159dce161ed27a61949509b65d7dad78b87a50a84e4801edeff2eb10d0b942b660731831c1545792caf7e027617c67bc,
  .add 0x18c9bdf9feac46892a9798b09cc4764f3414b030962f66153685f90cbf71a1c90e370338aa5ea262eae4861cea4d9d03 0x10c2766c7e46d96d32e1801b506a101c4eb0738f02cb4c105f7469be76a3027e3d83414c5248949c457da744420855d0,
  .double 0x15c282400bd6ebeb0b2170e44a3d6240d6262d62188f62e1be57f74cfc11ec0e7f3b5016ab77942298c0449fad2c4f26 0xafbebad7dcd828b5a33550a43ab5a85bb970933e26ecc558a93b6fa23b6b75ce98c68f53d22a271d63363d70d07812,
  .double 0x19eba0a762f7dfea9017d89d4a6b6662f011e657ae218c3822721cad6793829af578b5034f392089080fb05a3af0acf 0x26f9e85c28d8529bfa04779aaca8a1eb29ed5aba528cd37ac5110f4fc5f8c6ff8d334d8421dc39089bc3e6e788664b3,
  .double 0x15eaa191cfbd46d32fe30905ade0e8868b9f7a57406fbdfcc77043fcb9e6ac6624046bc2d0b38aada5a62fad6f049da3 0x17ae8fdb182ab338b71d17fd380a4daaafeefff14b97cf8bb5c9910d164cf169355cec659ac67191e9a0797c007ccdf4,
  .double 0x17b6eacdc81a6add0eab75aba123b78074dfea4459ebd857de44a1ab4cb502a82e436724acabac86eb79b709e47b4da1 0x1391c415c0d3cc5973d4f4f7a8b7c00e3bbdcdcd15d2a7c4b48e297c3797b33e309ddd706729ad3a65e78680b3c8b4bd,
  .double 0xd79f61f4d3d0300a1c4d19d40fa00f3acdbc24402ce17de7027e29ecaa4f722985473702a3af1308f9ad1e10599dff3 0x163c2e089210a7b156ae33e53d7f91d90e1194b467bd77bc76199659b18df90c48be3fafdd9fab77076e9f42b426bcad,
  .double 0x140a70d39a89f9eab9e661a1d8b5bf4dfa688d99db75bd95578167e2d702f17d72c5016a3d2f1b26c25526a4a99aa6c 0x2826a86a5fff9ad14cffc36e78ac15c27a49242ad499ec9cb33aaa5362a77fee9e58b7aa5fc6ca79255832dc2fcd71f,
  .double 0x4f274bfbab59ebb48206223ad7c93203ee1974ccc9f9614c9e9de6accdf87c3df59124a7a319c38ac37def7c73a61e2 0xd153e22bb8495867b586dfe8aa42423000029b6677cab865f4f13254c64e695cf897f9572d72820ad37991363838a78,
  .add 0xc11fd6cabfb1201fc88147cda3b2e93c760fb0a2a6bb97a53736ab0ea0bfbb4787356a51c2ee61dda85b63f379ec891 0x11157877eded5fdf3cc8da3a65bb09893d94ce9084d40114ea1b83d45e4fd187eab40d5c40da061c3594b9a16dd9499,
  .double 0xab98e14113526bd33dd8b163730d2fd3f168874e5c1fe6b97f09c28cfc80662d140ec6cd5596932f615f25e8a2cee38 0x14783556273c4b3e11c6922617815ac95f953c97e90e5ad32c6552662b4fd42b35682b6fe2b6a003671cc7bbfceee02c,
  .add 0x1250df7ca4da7f5c15571c03842abb4fd40ab5cf77f849c54420f581d275f9342d3967efad8213f84dc6a49d8b98fb6f 0x6127c518184d2dfdc57d7765be595579ebd18a34dc5c2174ae501e57a7ad1342109c1bc7d65081550df4f24bfefc2a2,
  .double 0xd583928c5987cece294c9403a155f1d9dd2136e807718791afa3c32417746bfe96a850ed4e3ba2260a82edb4b2a36dd 0x117977597faeea39aa20ca19cdb364d2ff61072e9d24085bc6a7106cfd04c309e566df2a7f00a181a50ae57cc5e12ba0,
  .double 0x921bcb2a695d103a7665617183684314641ee25b54c58a279b2ae555934d22d4831f463157b09a4050a83511bd9af1d 0x6bbb2fcbd4aac14c72cca7f9ed3fc85c2a3ebbb5fb6440bed0b06803bb02a67b7eca89def1cf497355204a8970e1bf9,
  .add 0x60c49e94e686445db1f1a465394ce4a2076bfc555b0af7829c3edebcbf1d4d193fc5014eae2d42394443b0616499336 0x104ee5bc4f2f1fd83199b3d0cdd04bcdbb76cff955fd59e737b592dce536223a01c2b65680a47662fd93335abf92873c,
  .double 0xdd70c00568272ebf87f7b82c9055eabb19b08dd07d9d804a77b356bd217a3e89ee1c3c8c05b58c1864897098b8368e 0x1115fe4ecd3a88699e7ecd97d4c7aed57f984aa701c0a8ec84876134d0addd740c1cad3906e9e3210aee8c93bd49722d,
  .double 0x14bad3c98bf971d9b1c6fddbe92899e3fcb20d81125977c16393170c2517525fcd6d399f543a5fb4b63b3e317524747a 0x5816ce9275f28293915d428da20892d7091782bb42811c4b71d4c6ed4b7a022f609920525625f8969664a312fe8b,
  .double 0x196119d1ed558636e11d8534c878ecce94cc3504dd845fbdb0dac9e0ad063bd378c04059776c45cf4dcede4c195820da 0x133ac87bbeca34fa3d2c366408411058a87594c062cbd9bbdab4a6b548c7b0a871ff1cd6b9fdb5d0decfad82026e338,
  .add 0x6bc860fbdad7c237011bcb00387bc0c5f6ae51c128fda8ff63eb705717ae08e9fbcc212b74cc2cd93a646f03b95c4cd 0x4cdac9f30aba8687ee9874a642a29a7cffdb8379b9bee871a998e62f5bea2e7949e8262e7355d10cd17b649f61573a7,
  .double 0x19d8fb0bd76757e5e5612927c2c2e3b9a88a3939f3452cef05baf1edcdf28bdab0e3605b3c87c8b723c75eeb83dc92ea 0x138bd5ce16fbe9a20dd207a3af984460dc9955a2deee4bd4fed2235cf05b980c057a11eaf0e8345e90d335b7eb78066b,
  .add 0xa42daf0f087f407d867c1d3cfbec149b63712ac9b4b529a6561e8021cac9fc318ebe019da30b4435bfd6dda5124f5a2 0xb6c46db5b62896c033a7580f02fba7820dd0fdba04a8eba8baa058d2a465cd404057427246ed6654e862f62b18dd505,
  .double 0xc3f5713136279cb046d2a323dd82a5641c5f18ff7c8a0d974b48543e78e6f0e0a78a582e2388c9a3830c09fbc54640b 0x13cdbe4847e21cdea5b3db26ab6781e85f344424029f32eb553c0734875da48ecb36bb29e5f3a59a494795267ecf876f,
  .add 0x19a685939bc5c003e9e0a3dbe6d5c2a94e7a272a07eeee82f5dd96c6f398e9a2f82549a8a55f1e1c690bd219cb362a8b 0xf9846cca12a2ecded84308f35dc1d8020d1f1da6cbb73fa5ebe75db07073deb394edfa68a6f1857aa08c1a8abaf6545,
  .double 0xdf9e3ee62b79fc6fbd5f609db4538690a887168ac9bf11632cb79a83c24b3fc382aebf884ce2dc29271d75e5d56c9a8 0xa0e4dc74b397ee3faae4084347befdf3e517405b725ed04919e5abd123a8519d9110a5a07d8425def66b5f984f5272e,
  .double 0x2f17ac3fca21fbfe3fb7ae7f5958ad84cb67f535fa474fb078e703a47c469bc83ea4f8d1d31fd61510044afbdcdf770 0x15d27b1011b6e90b1829df7e8727a66f931cb02f142b90ca17ae34a514023df18acb89dfdb5bced28dc33cb820229d3d,
  .add 0xb845d56a46d47b1433ad83db2f81de789ef7c1c484f0d00b0c5e1234b6fd223c4bd1db4e4651b80203a01f7b15c3db8 0xe755f488cbe6b8e8a536f06545c2a197e02c70fca574b72df673f12b65465c2ad0210a8ffb8e2161e8a4b33498b80c6,
  .double 0x19ff0670b69f9756756b6715bf8aca0a29c26f08253f618327a92d000ff1b2060d3642b42f0ace48bc612c61a3b93de 0x15395e21d44e548bf333c1df27a9a8e7f94f2f6628d25608bb17d4e355b7af5ce0ec3e724d0b5e57f62f849937d3acda,
  .add 0x82d95933392741a703e5c9fe0894e2e9be0ff53ff953753e312c7322967689e25dc7bf9cf02dbcfbc4eba15e0981338 0x1282bebc5b69de55d3f5826cfa079831277832b573a3752680290ef5a95a51e3d3c7a803c76b8ab782ab92ef4a88cd60,
  .double 0x9395e4d46c5d4cb6c5bbdd9fd848c674d9a6651e079588d43361cb2bc1a6362a8afb40186cc902b8b1aed013bcf7736 0x677740b6b2fd1efb8f7dfcc2299a38373e3256b1bdcaf2fe18af52f2a3b6e26df2c8ce04337e077db08d8792859bb45,
  .double 0x4d3ab4e42c7f40f746d9665cfbdcd1ea0450fb7fba3ed12a9edbc69f98bdbdc548f0fbec408b11b1cf6a8b95adced80 0x3de389399481ac0a1f9055e173735914066506c92c41a7d9a4d3c58e06738b04c671e46c0720b3c0b806ce837058cd,
  .double 0x17e84207d7682c271b5ee52a684ab8d8bc0f376867cb56f8ad2692d4c1ff787fd8d5ee2852fc69f6314ba2a4ee51be03 0x275b03be67456d760d2adb55c0757b5f913afa7bcc8c94fea48c939d72b56a34c7037be60f8d5a4603b1b6711d8de43,
  .double 0xac1d94a8a8e4dc1ee6f1d3cb0a43c1cf4dcab2e8ba6a57804d3601fb39679902da7cfce63fdd02539de5fb1c1d70d9 0x182ee86b6020facf27b8bb9c0fd2c9d1b2ed372631eb4c278a2a6482da33efda595bf322fbd1bb9f8df449fbe2339dab]

def cofactorChain : List ChainStep2 :=
  cofactorChain0 ++ cofactorChain1 ++ cofactorChain2 ++ cofactorChain3 ++ cofactorChain4 ++ cofactorChain5 ++ cofactorChain6 ++ cofactorChain7 ++ cofactorChain8 ++ cofactorChain9 ++ cofactorChain10

end Verif
