import Verif.Lemmas.EmbeddedCheck
import Verif.Model.EmbeddedSetup

/-! The G1 points 3072 to 3583 of the embedded setup: each number passes the check, with the second coordinate of the
point as a witness. -/
namespace Verif.Embedded
open Bls

set_option maxRecDepth 100000
set_option Elab.async false

/-- second coordinates of the points of `g1Part192` -/
def g1Ys192 : List Nat := [
  0x08906e914beb2cc28d50ab7b46d7f5c9279ebdb25e3e4427d84f209991a3f03216af04b9f3e791f481860e497613c60d,
  0x0ca2a06a7c96d88b979697120bba67ec00a70b8fdcb0934c0bc96dec762bfec0e3b817dfbee54d3ad1944e1b94e2573e,
  0x07b73ea8eab2f25a3aa7dc2c84b54bc78b85470a8fa7e904e7cbe346a92d5e0b9f821dfa2a89fc020c6bfbfa49a72c43,
  0x00735140c681667547b2d23026a3dfb14c30b839923a03fcbf615653bf4b0d5bdfd8c94102607a3226ad30f9047e9459,
  0x0ce9b5a0bcaa4dcfe2d6c411087ad7799d4684d6204c362fc760c7d862b12a8cbc89992509886086d80f776d1414a515,
  0x140ad125cd7ac0f5cf31e55a582ee7acc29e7cc96e19fc0e5ea46d5a0af3567fde4957b0e19c518f56151e07a82b5991,
  0x04890a4fb0469ebc33f0ca8ce4626c71f089c86b1e3ff28f2bdc274d1b7568ac158dabee26b9f634ab135b7514e865fe,
  0x01cb94b0b07e03a674c7b1dce3c1830d42df388c581ba62d5c58780f2e9ccb5b1901039c527e64369a34af6308e3bce4,
  0x0f9c1366c5efa85e5efdbdda5915261adb54aad51d41a772c087ca2084816c1852e286f8933e793a9c07ec10e34d7d91,
  0x0f5ce52e9e4ad4a09e59cabbd69f6ea943c2e41b2ed69e7a6ab9f5badfa5bdea927f94a5065f20e115b4244affc5c4e4,
  0x09694219323bbc6b43ab3a323ac01a004bc4b937ee5d26681e149243004c4c28991219bb6da0380e817254307be71b8e,
  0x1475ea7c9ac9f1ddd633b62fae2497b0db458d028487de398306cf2057234ac76a3b7b8f81e44307caed8f0a54bf3eb7,
  0x02e7a65e798cb4e586e057370ddcb937b3f4ffbb2894e7ce480fd9c217ef505e368d025125bef933d4a7f3630c1fb6c3,
  0x0926c864c5964a5308f99c92f7a155c5edac33ff7c4f53e4237c95db65079544741082eff82f29a65fc5301720234cdb,
  0x143d97940ed75b0f30a4922261abc3b0eee3df13546a52e2b90f3998272c2726236659a648ba8da1be8a2baca8e98301,
  0x0272c5fd5c37878e1e68b78628c3078f6cda97ee6bacae257deb9351b56dd5ed71cadcdeb122f06d9f99679ec7abab05]

theorem g1Part192_check : g1Checks g1Part192 g1Ys192 = true := by decide +kernel

/-- second coordinates of the points of `g1Part193` -/
def g1Ys193 : List Nat := [
  0x0f5f5793f0a713b971d5e6e8f1c16a816370ac1c9f056babb442aee1f405e244acbcb1d07f74a1c86e24b3896e1794cf,
  0x03b705fb9ed833ef9de198a7240d86708e43ebf98a6364393c6fa0da58f0668acd6d8d45b93953744294263a2b1382b9,
  0x10c091871916f7fcb1a857c6337c76e2576da4b3968c611aae35a5fca12642a3cef776d2f7829e0da001dd792ff5f834,
  0x0671f17a3d406c15d9584847c4c01cfb243abe964d1e2740840def579d012f2a372ed4eb594a0ea0d634b30478f002b5,
  0x0d5a1aa8ce8819a91b3d5808fb64b7522ac7b7b449f61425e9eab1193e7f2c807751d447271a6a3094695b97c713a9e7,
  0x0760793799425de5fd0934ec702be8be25e0e7a908603e68c8b1bea3f1ab615da73a8cf419c876835f578d2451715715,
  0x14d5120728d7424b7da1152668d9b5ccffc8c72da86cb2aa291b4ff9af0eed4e58be5f90e2f4d9ee608110dfd343a4d9,
  0x0cd58196623320169c727dec7ba46205099db2e35644ddadc878574ec65dfcf63bfff21d3b8019d4d2e6173fb0ebd284,
  0x04c17e3d1ccb2739cb2a031de73db73e9c86924d37d97be7e98c2d1467b7ba02ea992ca9db4ea4a0633d648a05c4b665,
  0x0f211b85204d558d000fdff7e6122654b76c367ba81ca2e710717dff1fd757a6ca9bbe3539e0d94f157e5e319858ee7d,
  0x040e2559e4dd55f9fcc9c94d7b03fa1a5759e1cee74728883dd61643773a83b8aac99e9c9589676546baf4731d11a307,
  0x0cb58a3daa84adc8d8921deccc1fa69724f752abc28e26170b46af98b89f02b979ffaf89c27d409be95397ae6369c3a3,
  0x0a67c4397a7684c62620dd61cd0c30d7275659e6ade97211ad87c403ac22ddcd71b9ee6ac71d82e347c0fc4139c810e2,
  0x09a8c94b30d989df5678ce620ea883cea06a50a994a476e0018f852f429e7090471d8d421b53cdfa2178ba9188fb88e3,
  0x0962ff707abcadedb290a368c01e74d13eec79a408e46772af7d1fbed0cecf730ff25d04742e3d2eb0514559ca8991d7,
  0x159219f99a156e5c3d0f41df588cf15d48486b3e674dc69529d5a0bb4856ecaafe460c2712601b792eb2cfbe1664f0b4]

theorem g1Part193_check : g1Checks g1Part193 g1Ys193 = true := by decide +kernel

/-- second coordinates of the points of `g1Part194` -/
def g1Ys194 : List Nat := [
  0x0ff28076eb2a358fdde41d8db4208de1f68fe69421e318ed424d9522d4adca9472fb0011689c837766a41d669622152b,
  0x10b6ddb469cdecbab922379745c0b0393b6b41c75ebcd379130981c1f90f28bcb401982d891585164ec9a88ebab471d4,
  0x06203e3fe0eafc36d3a17d826ec9a156761bf59f028790142c115317783291c0b7a9b9112e620a47648ea27d72a8c845,
  0x063ff746a945ce6d1a1b485343cf97a3a50ee39fb25fd93a2a0fa7815ef5f90bec2788c1955da6fc6b8f9818ebd5683f,
  0x08f9117565045dbc80af7904e03236f5c726bdef1486094989ac17303d2fb23a20b87754113f5065b003d38e8d94f47d,
  0x0af870ccf4e477fc6e315033679f331da8babcdc3d29426521fa55170cf5f107e353d4b1846a921a9b829e23ca2ecee4,
  0x0d6e0a93ea5ddb61fd5fb0fe86f2439310b5c3f3aa751c3773b3fd459f117e30d4dfaf960658093807697ebea9bb34cc,
  0x185eaeebde41a68f1fefda127747e75acfafa1a2af065ee906456a8782da35983963cc5cfd6251848f15ab0cbdab5a81,
  0x05b22d08e3ebe543ec4af2ac29dba059923c3b4db9ee9baf490911b339a306a3f9f9ffb7935ecc89d4c9bbd5256cdf11,
  0x0c32134f9756c33a6a1c03cc4f107d363926bdf552a257ccf3f66dcc46c4b50eee4e8439110239fdad4061eaf5028eac,
  0x0553ae710ea881b3b61cfaef5b14e7e5bc84f6f38a1ba2409d10e20f3c76fb75c2ab7639ef014fbfe75116afc8244475,
  0x160d8df8f49c412e0f2041cabde096d9f9c9965fe34668e3eaee54d0903cb2221e789910f12046790ddebbcd7e4f3f14,
  0x001ad2b9ad7f8f868151ce13263bcc8fd248bc8eb5706b10c6f3cf7a5b4dd4b3184298a6a833a79c3b5218f310a534f2,
  0x00874af4737483cab8fcc75ee7f2935e4f016e7f7f48009f655d1c5e46bb793827d68c91bdcbe0b93fffdc9a47251259,
  0x1316f0a3a38ed05b32cdf5bc7cfb337141cd1fab1efb0f6ee2a1dae2bf353566b63d7358a2cd0b1baa23c854ce1be20c,
  0x16e4eb4b5df1a2ddd50070d0b5ab34d8c0b43daaa7ee0e92107c1e6f2048aa8f607cf1d93f0b3f0cb4be7da31a3f847f]

theorem g1Part194_check : g1Checks g1Part194 g1Ys194 = true := by decide +kernel

/-- second coordinates of the points of `g1Part195` -/
def g1Ys195 : List Nat := [
  0x0266773c7974dbf0e2644e21a75949fe5f0d172a01508419f415ad72246ef9d9792d6575d627ff3f4de5d87e6b63a907,
  0x18599e140c99f5bc6563bf98ffcdb48628992efc6f886ef3fb33abc7059540aacce492af029521742883d139f3d9caf7,
  0x04f0b92c12e89268bd30bdd8b9683a379b9a3fdc7459b3c03aa095f31680294cb0db5b7daea7c617b6239bad6b011755,
  0x16724e0d035e959d02ab84c323b06e15643fa4173ee4b1667043abb0d5a8e1023e628104af0b83021604b09aaed251ed,
  0x0272702380dfb386fd570695551004ab76f899d1dc5439ba4fb414bd806c0a1d5e7a3b70d7068bf7ceeace7bfd679f6a,
  0x0f6c16fbdf4ea188146772719fac6623fb658aba2549a1ca2fe48a98f839acc9250a8e86d871617ee5c9b71fa6ac75e8,
  0x1596f425a6d20be090e2e20697997cf9bc4835eb7249d2a9d3e51c81502adf39023a92e32ab4f18d30f630eb48db7424,
  0x1764618a7f9ed3d1285c1946cf7d1716541438ab94b04ae2858d36680022377b36897c88b8d887c17e0a55721c473ef5,
  0x078cb1e38ce7d074ff76eea0a8d738895a72c636fa74f09602e8db82e1b969e739abd881b4833885c95f600f5b5322b8,
  0x13ecd26f19c08cab2c3a60870e3ebd0904818c0e4c2fcd47a1c0eaf9ea6bd4baac26c9243b4639f2f2a868d682ca8ada,
  0x013d178c3cf834910a038ebfb7ef098d142c4c8c8a6762214597c31d2398d0b46a5a937a348b67c7cea1ab23a8adb772,
  0x143070c7126ea19082a3dbce0fc1b1754c41e83107e42828291f7c9dc77ebcf14280a42e92c4b935b582ca727561b81c,
  0x19df26a0ee07c110ee8b7767727007199375da46e862dc585844dcd053c946a83e5cfb4ea2ab492d898d1f193ee86112,
  0x114033b89a27a65bfc9b61170361148ddd9c654849de32440755724a135ab1fe55ec4f0cd33862067944a38a7ce299dc,
  0x001004afc0bc8350b1208a4273ba767baaad6102a40c4163c5c19b076eefbffd51ce3fadaa15cd213c4b350b4436ede5,
  0x073cee48fb2e17eed2a803bfd9dccec3d63b49c045d7c1e457910854ec6725d0dc9f8b94f6b294d1c000478326ed7e26]

theorem g1Part195_check : g1Checks g1Part195 g1Ys195 = true := by decide +kernel

/-- second coordinates of the points of `g1Part196` -/
def g1Ys196 : List Nat := [
  0x027fe98ed37cd60336102f8f8ca1f6fc9df1752253617f36dc4fd607505c9a1dd5fca3772329308b2d87f51a2cbe0617,
  0x06fb48f49569aaf93daeba5923bd189c137b579375599b395e35568b6c80db96ea5ac7a4939dfcc99d69462dbb57d43d,
  0x17143b8ce5a28ad0def59b051d6478a8edb504d3e139b1ae53bcb452e6ced347eaa727f001e18cca190fdfa6207b3c3f,
  0x06d96d286b8b555a3ab5f95c706b7b4f82b7795b7fba205cf3549998d30435ca47ca289d0bce30ad7ffcdfaa88034a41,
  0x147b73407159b0b544cbcfee1acbf2540d1a2bd63007ae4a7e699905db0231e449917111be6e0561dc6b194d6f4626a6,
  0x128a011eb5737879a4034199cb5806ba84c4e3a318cff59a592eb0df190ba08a9117f2364bfcae124d2d13e0d2ec0a4c,
  0x0549716aeadf282d546891b6d92080b88c82a978268719acb3c9daab92361ed47d84008093ce6a7d90d358689429ead2,
  0x160c4db5bb0bce33026657acef0d6537435515719822c34a7433965c7636299f0eac83aeba3b2f96d03ffbc8c273a00d,
  0x09eb930fb985856414d662977e9feaa474829e8f450ef965217a41dd46fe978e0ec86f3948fa5bad3b7f2da703561690,
  0x19f59384b00d2da3d502ca47cbd04fe3770b509e6b8f14ab6b292e18fdf2f4af573e5213f2447b24445870ba01dd565c,
  0x186d2c4585cfd138ed65b13da7c0779df4196360362aee199a028ff724c6892caf9f47360c81b43f9189c8e5cd1fe8ec,
  0x1748dcd1f3a31b0ed7072aae8e2f8cd55892b7790bc17466993e6f965b68afb2265f18439f2615f8854faef0a15a7f5d,
  0x0f3fca314cba90f587109334c2fe52ed8eaf720b5165a3c1e53f0324cfc1c7e8abc8b561f0061b2f5063740f7fc731d2,
  0x022728824691886ecbcdbb01d0e246036aea1ac90fb4f6be7a1ba2f15e957ccd93ff7fbbb9dd4b62fec8f883bd6cc118,
  0x0093554cd109f069491f437d726e7740ed716ec7085e7b7aa7ba64f1918c51d5be6b880fd3d02a9541fba66c950e7fcb,
  0x1871e62a0d0462dd7b60bc8685fb8124e089e4c545fc3a1eed24388650383df36940a808931fa4d2976307ec70747148]

theorem g1Part196_check : g1Checks g1Part196 g1Ys196 = true := by decide +kernel

/-- second coordinates of the points of `g1Part197` -/
def g1Ys197 : List Nat := [
  0x160727df193a1319f17e6f84b13c1a150f5e8dca5f2fdc5cf355949736b720f6950fa049174c3e92cabca641c2746285,
  0x03db7547cfd222eb0cfc2f790de987ffba9e6040ba92bce83d3ef3247243b1b73624e83af0191fe0dd522fd628eff1b3,
  0x05d0e6c8ca371bde8d5d1e3f9dc5fcb522d43c36f5705ca27f6d0389fbec027dc8c9a8e5a7794cf4cc098f7b3d565b00,
  0x17190f73295ca0f643ba0a3156407eb0766294a14e77bc485bb8d43cfbbdfc3f7e2af5874f280047fb3cf55a8d5502c6,
  0x0cb8390abf2c608660fa82b37f148ae57881c9f80cc21757a5775a76a8094528bb38c8e92f4dd74c568497ddc3baddfd,
  0x0604d491091c7c2f56ce7bd43ac7dbb328bbdaacbeb2218597d36883f10ac2d7ba62457387be2c088fd0b68d6bfbbf18,
  0x0f3efbfe83afed5ed95d2e0ece204264bb781d1e9bfe3b18689f6b4f73110a1eb5215d8047e84676612249be91fee47d,
  0x11e2cd1ff4daf73c2ae2f65da1b82727773292f81987633cf994abd91a6e819157565c44b242f9c7af2d5e2557527c5c,
  0x091e8a3d24ad70747541b89f6a9b9c6abcd2e0ab772923b00ff7464af7f9e2bad6ea1ace52b794ead98c82216f7094a5,
  0x1642c5b18de3a19708a63c8a058b3ee78d51b318a27eaf28066e56c9d0f80d72a359f4f76cee3a05d409948fb792acb3,
  0x16c32b7210bf51c752373921171eae471a3aac6598725fc9d64e3554e90d44316e3c7369aab306243a72f571a1d9f240,
  0x05d1753bf1dd1d2dff5de03b57c00a806b4dc19f66e65b31676e338076866943f1cb8360258ef39143fa1bd8e6f41f97,
  0x0d794e6f64efebd9ba8b5ff51302c90a0ac497ed127588c426ee425a288ef79108466b076ef75fea7cc802930992584f,
  0x17da7f36ff11a825b9ab58a999388f20c7e57cd0d71caa2aa84819ab6a58d3d819b7c88c79b8685a7253076f23b72cb9,
  0x166f317ae615395db5fb0985dc117c7ba5d95f2370cad6c37f8f6f76d8ab1c771e857f674c4fdd42d2d737c277690b70,
  0x041533fe60f5134d1ffa9d0fc748e761a7f6030ed6ae2e9c1b5454ed6c96355c622fac31e90d5547dcadc958b6199243]

theorem g1Part197_check : g1Checks g1Part197 g1Ys197 = true := by decide +kernel

/-- second coordinates of the points of `g1Part198` -/
def g1Ys198 : List Nat := [
  0x0f4296432d5aab82c531b9661c887e271b5fc9f3bb7ee2060184f06f49db69a8346fcd27672cec1fda1d4c7099beab01,
  0x0ab99c435909e276b2094dc639db472474ddaac30a1a651714a172299374ef6e93f03de068dc3242cdd46b52a4a14fc8,
  0x1383e9205638b2ce0aeb4f699a4d7e51278e4589a546f1ad3c2cf1bdd5199ab827012b15f00735417c75e25d04fc0952,
  0x05c33e5799b482d13fbc0757ee715475b53d0fec4c0a5bafbd0e5619553b363e443ca9e9dbed8ea64df29b63bfad706d,
  0x16dc1ef226d067b00c0cbfa0c2d6e5edd4ceb97e34d615b91901c258e06931dd4d2877d9b1ff8d5b0828b370f2f2b97c,
  0x1126f364dfcf972f52bf0bc5502f9d4cb9a2267ac6c7f8c0b0f5ae0a5440dd01d1e72d9bfe9b1a32567aa4a64c35aa62,
  0x17d78a1b9a19b0c13d6d16af77e6e5386af01ec1b9defb39db209a423261c170809ae7a48b15fcbf0461edf14c0c9ce2,
  0x139a344d510de11c813de7b5ad0552ffa951f94a016b1aae087fd5109d3cedda5315595a94317cf54af7e6ac609d3ab9,
  0x02bf1a41fe57d1e550488489ee7b10bb11590236526bc468e97ff13bbf3c726b0b83fe6dd754ec4559320b17eba9dbd1,
  0x0f5efb40f596a418be71986f071a78f88e1110dbc829eeeb6797e5e3e1bdc9ce73544e15a98a471253b775a1ba394734,
  0x060a5efd981cc7848019c4bf0bf0985089bf04adcdc61d2947df18f36012f32dba029cc506445f34188bf65662b18780,
  0x16cc40f706608716e0376a54d62723b0cfcbe90978bd70a869d21ef57e02bad1c52c0fa5fd575b299e98b8bccdf86852,
  0x0f76bb54167111c535b108599961e6e4fd621f859c07c529232abb63ad7ce79a88ac24a9fc602fb55ee3cee1d6700861,
  0x19e27e4ae618ae741b3e0a835cebaff4eb202b69b4f1249c95350471c2c7a583f5bbc5da73cc0685063dfe1b29993f85,
  0x16154d6918abc1a2d6c3ed64727725b8565c9ea7e3a0b597993f5512a6eb718e0058496049535a94cba1603ec15723e6,
  0x0d766e19d6bd404b68779184421bcb520a7d6ab6d05df9a384723208043e148fa105d27d89249cdf94a682be0a5bb237]

theorem g1Part198_check : g1Checks g1Part198 g1Ys198 = true := by decide +kernel

/-- second coordinates of the points of `g1Part199` -/
def g1Ys199 : List Nat := [
  0x0256ed3d1ca60581cbd6f4f8538cf84bb3f4a379775d8fb197e795307a67cbc875a6c10e126c1653e0105fc0cf1b4bd7,
  0x153c7905715bbaf2640520c539ab24736987f36a048dccaa4b81aebd832689705d35511cb82e5d35afb54ac7b8139f0b,
  0x12629e84b906e0ec80d0d802c053036635b55e01c43c89b80da66edca3c1b298684a4a6590ab90dca91120e49a4a9066,
  0x19d3c92ff7b597f123cef9c3cf2e58806f287838a6ef6796974f0e23b7022d22b203197edbc37290383b2c280089c854,
  0x13d5cc029ad47063ef2b9e29608e208334ff936ccc4ff179c1f8a132ede68cd8369a965f137a6235dba0acf952717240,
  0x0cbfcb0ff01e0b639b9c3603924760fa20b915d7986c4f7b4d33f13bda7d333c5dd501992a8c42e15fc8fff0e035e14a,
  0x04f280290ed163f53949ee2428aaca16412e0069e1f9a9b341c68e3308d6cf1b8dad02ee1d6f0c438858e2a8618dfdf3,
  0x140943e3df235ca569bd6c8ea7368804ee9da24c5bd5dd1ad97fdeb0deba131eb9d0f2e2ec842b7ff9c0fa393d1165da,
  0x0ec2a85ba5591493ac4b215d7eac5be6d8d9d4b47e30303720bc4ed1f3c9d27b22a0b81d77a2bb007a33f89e46ee9fec,
  0x0a906f4fa74e3d0033c679df32e0842cd2be026cfb2c2f07bac45874f7d48ac6233b5c136c5a9e23a560ded1194f5eca,
  0x0c60a4d4ec149b55dd7bb55f4a190aa72e4a342f4a44fc757bb1801c60d77302976aa798579f5225118826e4b3320795,
  0x0b8fbf3a93bc04c20ae5c0acad4ed287d444141901e1ac24661d129ce3f99e679e90da8540d86a9b692131153a7dbad8,
  0x008724829b29bf45797f297f0cd5ef3be81ca728570c2fbcd207abb6b564225c937a355fbf85a34617df537d68a06d96,
  0x0460c08b188190cfa5427eb587b0333e1a8a9ab3c08d62deea6d3bc3ed3a6fcbd230cd33940da6e3ce1fd1b6ea0f5681,
  0x05e4341435358bc503c23c3ae1d49283b45dc875a740c2e92a6e49e442cc3e80dce375d0d4d8e472817bce60cf583dcb,
  0x0afc30aa9b7b32b4d49d8ecf9b71d0639f16c7f1cbeac65056eb48fcc86a358791a400a0adcc184686ba3eda388303bc]

theorem g1Part199_check : g1Checks g1Part199 g1Ys199 = true := by decide +kernel

/-- second coordinates of the points of `g1Part200` -/
def g1Ys200 : List Nat := [
  0x180e4dfe43f4f8e352c035842b36589b20d332ecdf2619c7e6496a308cea45fd667f335e3b8647ba1473b1b6fb25c858,
  0x0f563191f99f14e2e482490e32136efc9754521c05d80e8b0c988fdcd1acf470e8ebca8b60eee10abf17d8ca1da72ddd,
  0x161f8f1c427543b409e56015d1ae32ea7f1c22d2c0d51eef06dbc991dc1549c80b7a1a7edc5f88fda60636f904033a1c,
  0x0367c1b8f9a0e842ab26be30681d7434c424184662bc952b3fda78b4388c4b6af454063b070c45af00011d9f76e1dd4f,
  0x0947ba8206836c75717c5d617d2b39598518717c23d1ef8aa0f1f6e228a8a28dcc6c12d41f8b6f4cfec91e2d311a8f68,
  0x178cda4761e689c71a464a9badd8a90c92f699fd4c81e40cba1c9c63b9715bc2c5944fcb96a13d3e78253882ee26f63c,
  0x0766c24b465563dc771894dfa4f262c07cb5d028bc33cc61d350633e446b1841eab238c0f3700020c78418d1fe19b2fe,
  0x10f670d9d5d0c56aedb0093c29b37468c404a238e6fbf5693be943c09b17df43a4baee2e42e1788dd9dd0bee1c1d4d4c,
  0x0e15b3b8ab498f06e3d60c709b257c37171e9a4ab768c478d8bbd4834920387b92bbbc84c660a283cfbb2e7293a60fd3,
  0x14e7898d132edd421cbb49be35ab23b7ecd1003b69a4c918d9e7e09b7557529c6bd4ab399b7ee1e6f569da028bd14df1,
  0x035ca5a0e94c0fc1202c9c7da598cb71b243b627f2eba53efb5cf5e557da22304aecfb4945c6b95c4a56998c24c59f3a,
  0x0f69c236d02ec9877586c2fcacc9eaa7f38450d3c72b085a7b21125538a76b3427283100df394e1fb889a9064080f58e,
  0x15b4b331d42762d5ab019ebe280e47340c9300a121731fc6e61451fa5e504d485eacdf1b4f8fb4ce8f3e828a0accb97f,
  0x01bbeeb481173bb4cde3fafc764d7e518b64760883c9b3a8ba4031bd4f325a2033690b2a9ce4148eec7400d57bbd2c76,
  0x194b8b6f6648b916b89e5c490d526664ee44c5a4e974b29756a7f8dcf751b5a90585402e6d66cc612aad2867686edd9c,
  0x046c16d864b9bbb8b67ff93790dd78fb60621894c92ed0c61ed2a2c1f42c6136864b8247270bae3381ec35fd3ee551cd]

theorem g1Part200_check : g1Checks g1Part200 g1Ys200 = true := by decide +kernel

/-- second coordinates of the points of `g1Part201` -/
def g1Ys201 : List Nat := [
  0x11be62f73deb59627d6bb0bbdd48162b79e25be25fe586bae72159744fd91a88556629dd9e79de97ece7f272768a9df8,
  0x061b2fb05150c4b4218bef46e673684cd895afac93c38e1911d600d02011f106f07f93f4a703ea5d1d34ec1fe8bef347,
  0x1686aa69ce93ee7631ba0dba7948f3ffc1b6f958432660fe632490074afa2ff1f2e1dbe1da18e92671a5d1fdbd95ee57,
  0x04f73520190fb339eac7b8fab94263dbd743e87acd7927b28f24b1e7df6cf233d58223ee7a25628f29f32ac5bcd8e102,
  0x18b0a2b98ab47b83401dc1b97e122ade829dfa00901130932fbc2cb806e2bec780e70dbb5692a99087d6c15ba5e5438d,
  0x0cb1cf980974e575cc626a9edda4c05b21224a56fef39eff86be9d40b76050c8a4f5b2540b984f16e6132c8e47f871a1,
  0x186fbbf2ef790f5646b1d11d3f8e6f86ca5048b9a2913e88f6f97bbbdc5f1e81161ca3d34a1ba9886cd6a2b6a89c958a,
  0x10766b13d99287db055d4e1f8301b78ee8e573d6e8efa189c24be21375a16d2cbd5d872eb16ae43e77406ecadc7a0c68,
  0x09fd523c10c5c8df68929fa28d1560d6e407f8ea35366b3d0a6221b851bdfd92d6957824be0dfe1c80c39b83fb058a02,
  0x14228a04e8704fe78f776cc0da64983b8ce2200e222b68842ddc24564a021d5e8ffd066dfec1cf86458c4b14b83971fa,
  0x145fffdc0cd073cc5bc2afad59fd37ac25b8e3e169ec90e18c517ea22a04088f9d6359e85c5af7d7c8669a8ec29c43af,
  0x17be4c4c10ba593b20bc04bd26265f0a7ad19d29b2c8fec913ae6679b09132f359596d6387a4cc008b37a29ab2279966,
  0x172f37b5575d10793b5a7ca37dc1ad675554f546a250e463190777c17cd64a50b000eaf525b8d04dbf90eb964869d5bb,
  0x162daaf49cc620b756872f3bd3e2db5eec7389c9721487ef4df567d4aee1fd6e71630488f91b8998c822706cac76b411,
  0x17c87afc26c3f1367a94d2ccd14ec450e495704fa801551fd1d64004a29f895c5afcad5b9106c5cdc75b36736f2cd240,
  0x177f52f8d3c25fdc30802fe4882ec32e75e3cb6c555aff0bc9743d9f39460e05c2da69154d2eea03cf9a509cefd86d45]

theorem g1Part201_check : g1Checks g1Part201 g1Ys201 = true := by decide +kernel

/-- second coordinates of the points of `g1Part202` -/
def g1Ys202 : List Nat := [
  0x0d9ec983332623b478f8bf926543a036d32341c4a970ec3e7fea00528e63ac191ef23a9ed658e7af7ddf68b8510ea798,
  0x087228b2a0dcdeb3008fda5f128c94b40a50d2fa006bd4d4742997f35acc512967034a9cc5711baa5197a628dfd747ec,
  0x0c8e6d99ca5c792364b5c1abe54763d478bd471a171ae24b932b98b72aaac8c82eba59f0d92978ded5fce02da57f7119,
  0x0131d51316b3e9704049dd2805173fe8b02747f6f036c2c15bb9ef4bd66e1ddc84eae0c074adcee8894aef6d997aa18e,
  0x0a4a62dc6880a2dc6846e058840b4de9c0a03ee695842ed0711f65d4c219f7fe0797e9aaeabe4cebd019e0601d90a5e8,
  0x067817ea298e15cc8aadb56b14d7ece781ba05a193d90c2cad128ab63ee4395e23176b480bb840fc2a1db0a8d1d18b6c,
  0x1974d8621a44c97a0b697caeb29660f3dfacab487d9a28e110cae9e85b50921031dd56aa8d43ffb6022b8e372c2e1ea8,
  0x010fad35982ee4c49a20338ab22bdad0e70eabe2011892dd6702428f2edbf0431791831d568a43051cbf70f1b8666d64,
  0x048f5d1c6a601af1fbd9a0515da90dcd42ba9d33a36eb2148e15d04b31b337dd7705de1f127d196ebe8699c2b1d978c9,
  0x0aed403abd6d3b3016881d1a6b84be16e5c13be3cf415a2617a7dab2edd4c1f1866c189845bc1d4e57f3c6fc86b6a86b,
  0x041a9571c188abb19b58d310a6d1c6662a858282c2dc573b26deb2a978d7751a72ac4328fe62a7e42ffb00fada2f02c7,
  0x0155c1fd8a0e33a334bace507d2f547ee15bc0749d6da667809c9bea755a5df92195ccb86b01d2294dc642405b2dfa5c,
  0x11885099e764113d498dc5a9cfebff372b22e612ab16f15fa19842ab824bf1d1106e6fc2dae8616793db2435c2e9af79,
  0x19e3375f44276de35a1cefc0a80891762e92bd01f87d82783d79c80bb9e63fcd3ebb1c99596a13363c1c211b00299da3,
  0x198aa79d91bd451bb03347aa2664ed0a616d36b0b01d2e8f1053c0e272b8862c766533fdddf4d4bd64a7d376f8458dff,
  0x107e58f98816adb0c2f08e6257e97f2c16ee9f84bb28685e58872ce3f9b3b6c3b0d479c98ae97fde43a4281a196a310e]

theorem g1Part202_check : g1Checks g1Part202 g1Ys202 = true := by decide +kernel

/-- second coordinates of the points of `g1Part203` -/
def g1Ys203 : List Nat := [
  0x0062653b55e1c080f30e14ca5f38296ea8f2a7ddfd5b5c39c0c4ca2ab09ecde5e706a6d48a9f141df1dd88b76403dc15,
  0x0183ede90ddaca2d738545b07085183e2e28874c5b35c8b1894c3ce331439a757c99e63af0fdb6b0f9e2b8bfd204eefc,
  0x0e9935844a13a81d41562fd14b839ba32fa6155aebe54055e4ce4e1542e4ad36b4564dfa3bb41cf149d96e34371e7bfe,
  0x06c02a2da52726637212d199e21a3460378aab049bd7c429b4d50e767abd88201358eee11eff78dc5ebfd2f314d753d8,
  0x19a4cb3e2cedc6703abe96312ff21d16c343613a87774f95dc1f6292a49e04596e344e124b12e9d41f2bc249a363554d,
  0x163061c89d17cbd49ee986993f9880ec8e27d22cf78db603a8e5b91789362d82ffe16f7ef8e06fe6580b4f060cfd1d7c,
  0x13c41732b082dcdaa7fc34988466d05762f3c8cd88a080bcdc27ca0a9a5fe21825841181a1a85ad9e10c70de4a2800b6,
  0x15f9a3e8a0ff85001cd4b7db0aae37c8a6c91507439f03e6c13940d84b2235bafe4291545f055cb42a8ba15be12c0f41,
  0x12739f78a2cfde91aa964b2c8bfaea60d339fac5ee075b3f5e4fb7e7a7a61c5621f502f4df8f0f802245adbf9591c179,
  0x08ecc3add02428bc1f66e5261f183c08359c156442d4e4839f77c3a215369e08a104fa5828da50dee6ac77ddc6888a67,
  0x15c2975ce6ee5652456d728d560e3c7cf1c5094526f022a30fa4b28ed0fbdbf78c8c7d472f77d496b260e3ecc172f0eb,
  0x03c795ffc371f7019313dc3622716ed51777df2e3213136ee37518061286f839ad3f05b27854f537e740af44e87c6eae,
  0x1392fbf97f6fd23c72a7fe5bec5fa9377e493f7b75e4d59a8d023d2e34d8885151c431d26035cca25310195c53e30a1b,
  0x16fda0be56034b7c7f1aaee68f183132c4402b0a7c8a79b8e1585431b2e67bde582d05f1b548b8c28e5a297313d85d0d,
  0x0c6378ca452d9a2723cebaf700b1cb8189265111db362b7d642e2b9a61a5cbfd4fac8b399fe042c67faeaec792e16e9b,
  0x13b0fcdae4f3a86aa27f32b1a861bce414740891244baf99fa64630dc6d376e6020cda194e1baab17ec9c59d8a70148b]

theorem g1Part203_check : g1Checks g1Part203 g1Ys203 = true := by decide +kernel

/-- second coordinates of the points of `g1Part204` -/
def g1Ys204 : List Nat := [
  0x04a943528e77feb69a9dc92a1b723a9b9d09d2e8105a4ba0c02d2f149190b2dcbeb85222f47ace66aef5a6a11841fcca,
  0x0e1c57d1a1b928714b0c197b5ba3023bc8c79d584d9c5df3b3ce86c941f279e28741b41de21b39f1e902e4440a06ba0a,
  0x00a0aec81e974f10dbcc6dfd7acf2256c158b78c7a40c91ddee32204588d207c3e431f2ca84fbdc1fcace5a0e11c515b,
  0x17a4452299afc91fb6d4dc48037220f7ad3457b86fafc556996ba616a405d8847fe716ce90c100aece8278951ad16eb7,
  0x0b6b9044ad5c9487ca6b9d06d146895c4a5e790297e0c1ab9fa22acf289d3eb0c7e347d3b0d9fb60507ccf2cf010d5d7,
  0x0a1f42457ced5cc5fbb0ed3211a4f82dd5f62d4c9d6a88b00bab7716600efdfa8984acdd516460ecc423a0b0ec000796,
  0x08b1d3db9961dd3d3d29511ceaefeef164a7ddf54863579d7f3d11c23935f32f955b528db13ae0bce6a3a0ed0d7ccb8e,
  0x0d1c3a5f233e917c3d30f517d8eecdfaa342b55135007d835067967b0f26025056f4627601f6196947e87c138f384caf,
  0x0265b0a371cdb15ed190eedce6fc0bee0abdde482093ca9dd0bd4ffeb6c4cbff5fcf363cc6c7bb037bd8e117f60810aa,
  0x17dc5af53b1ee1807daef6633db809c2847303d7e3f4042dce973e23cfa6e5c6ef0e5f3664bfb2acd03fdc9552edc652,
  0x0cfc8ea33cbecdcd5a3f914286166af313dfe2987657d784257d4c93bb506da2ac1ee7958b03007957b8b3295607ff01,
  0x0715d8fc5b84c762fff396a063147d5df00bae1d5afecd6f8283fee7f816607f7fad6161e19784c0a3fbe1ad90bcd8cb,
  0x030c625a55c3142245f28da1a0f4eada0923cd585778a449c582f811a342122f55b6d769e72820f787553d7d21082281,
  0x0cf6fef576f1c3ae69f3091ab998f5e815159f803b04c4085401f173aef265764b01b59be83448b3e993085d89c0a7c1,
  0x06dd80d82855beb1ac5f246e63ed83786c9f77326c3f3bd5389a5aac1e6c5ae988c497d4429320a8acb3147670612d91,
  0x0c6ef71fe4cf19ca2a377f46fc33be7fb6a9d5db7b5dcbccb40c65a356c3ba21933ddd3651040ec239f54fa5a1ed529f]

theorem g1Part204_check : g1Checks g1Part204 g1Ys204 = true := by decide +kernel

/-- second coordinates of the points of `g1Part205` -/
def g1Ys205 : List Nat := [
  0x004506fd2d4cf5aa97737194edc507511c62314ce12a53bb58e0f5b1cdc9be713cf67f58ddd57b7f7f09bae968d37e84,
  0x013aab4aac9515e2f4f8d9edbf6e19f7cf47d301be8e49b4c5dc81f55da9852910b6ae9d92bd06d67a516bf5eefaaaf9,
  0x1681deb94a67c33d01de8331097bfd784db3803a6e0245c0df496b0bbaa1840f4f04f5d64ceba0d4111dee9641342dc9,
  0x09501cf735e049226c872c5016d1d6c8f430d6f1cde35f85b495b6d1398b364d8f4084938d887467e3fd75bd3e5331fb,
  0x1926d9d7a9aeb318a1953e4af329fc0834506e9849d36163d6c3c622b68928e15abcc32b88c30575be2668786d155c36,
  0x076f4930d00cbfc472a4c33494ffa7ea21d8d65c673b1898f49390bfc9b8a01c18b5594d9c5e17dcf4617dd9646d4cc9,
  0x17eecef42dd94a27fe465f4897c163e49b84e5a2182e3755e3aacec45735d6e8ac6b59a1b19072ba5b0b32b6c598385e,
  0x07193bacc38af7c517a330539027f5859cc65a39e0be175b65be4ab5a3da3de9efad833ce2f885955dd4660b6f9a1b48,
  0x0b9c81eb3b71cdda942834df4e75a6e7fdab1f65c924e07909c907032cf0d8ba59d0d8c42a7b6c930d8febe5fcd36689,
  0x18266b38f3985ee57a5feb9a5c5a14051ab0ac3824d9bf7aef8240f29cc16d7e2b088feb1a3542cc00b72ae50c0deed3,
  0x12840d645110a92d908cdcdc0c18282dfd1631400e60f77ca05a18c8ac62387630627d56dfced112c921b8dc8fadc2f1,
  0x033ce9fa53f451196507b8f98dc6caa93253522f46c2108a1f6bc0ffd3120d26697ac6479328794238ef19ba339415a9,
  0x060a9d8e2e0562d4803a964d37e36842a07527ea4e34a0694d35bfd065493c7ce42733baefeca30d2ede90937ac0e5f9,
  0x18d8b0c058bfc68d01a4a82021cfd4043e1d69e77a6f56a6233fc5d048a9f9b9fd64b67bb221b3e11cb69938ed0c7b8d,
  0x0ed91769cc9bc884ef905aaf8b2063ee2e0bdded7485a7d17aaefa1de30ec640c637228a52e0844956dd482c6270ca6b,
  0x16ffb3ded606142c34ec570c439ecfc1f662304ae67f1950dee26960f4c4465a7b51a9fef8ce2da37ef4c3ee6d86d641]

theorem g1Part205_check : g1Checks g1Part205 g1Ys205 = true := by decide +kernel

/-- second coordinates of the points of `g1Part206` -/
def g1Ys206 : List Nat := [
  0x06fa286f4d78a958bd2b4db9e63bbce2c0476caad44423674465e05901f240d5f29d6637a37766464f421d985e288f58,
  0x0037b01e4f9ee7b45096ff85dc524b7d7fc919f5907ed230b7e6d2579ab2aa407cc7a5ab51f212cd62b381e2950303bc,
  0x169cd5c95536abeabdddbf4dce2b5819099aff3f875b8552792300c8ef1939dedbaee0f14e8ea5d742f9a00baa7ef589,
  0x02ef8e823737f9c95d8c9dd2b7f7108bcececf6a19138750ad157baab94bf5ded6808c234d0f6cf08227f240cbb52598,
  0x1128245247e3e56411b172369b24db95c38211ebc3b80522a5f1eea89489544cfe7b2fd4121c416b6205cb9d680a547e,
  0x07766f01ecbec5acd7633f69d4a29b80bda3b901b645755210c7a62c9525b767193d6dc774e01b7327944123e1446ca4,
  0x10a009dac4fe0654c448d29269bc8d146d9f48c1f0c2399229c858e60bc0236e9ce0a4ee46c6e6531839a5fc0ed85e6a,
  0x0b87066da53e9fcce5612ee1f66e7c1445d13ca6a3d8e8d8fc089b6372da25538f4c44e5f643e41fb1b17f97ead1ac8a,
  0x05f267ac665e6794542a1c0e1bcedebf197cecee228d5f0348eac6c67376e12f9e11c5a204d70050e36759533f09f7b1,
  0x19587336d5b12ed09cafafcd0627582bb9c7052c212fd8193665a28c7e2d6f8ab214712292b7f17bfeeb0fecf701513a,
  0x17a34e40e0fa74f1994b579247f1a803e46ad9796ff9846790875b25fc640ac688aa9cfde8c8858a898504ba9191d1fb,
  0x03f7df527e6be07ed3600b97c6782d6f9f8740911a34c048f57c2b28108c730254e6ba7adc89bd355614e5a5ae8242ec,
  0x1872987d8aec31f58182260e5811244e42fe779ec192f932b8a3f09547ef3718dff0bccbfa47fb6aeb0ea6d428ab8154,
  0x14fae08fe9b4459a031ab2385a4fb7daf93fee1a66ddaecaae9138b55966e5e8f7f8bb7d9a411e4ae2c1fe2ef1e94ab6,
  0x19be9ceb853d54402105460a264c0be9a5599959a70316876d852b2a0b57c586da78ea1f6222239730c6b15b631ffae1,
  0x16c2d461694df12e6d73ce88314084272867fba0b4431da8980d1223f958b9b48d68d2860890e5e69578578442ba2083]

theorem g1Part206_check : g1Checks g1Part206 g1Ys206 = true := by decide +kernel

/-- second coordinates of the points of `g1Part207` -/
def g1Ys207 : List Nat := [
  0x09b372298111644f23eb4e243078dbbf3a9b8e5929355600bd450512a5af4ffbf0c7c4e386140e56ed752d67ea3e10c9,
  0x149b3252d5cca38252ac8da08811799b62fd058f1750b3ad5cdea0a266788fad44a8deac0ef55068f2891c9eebb3f038,
  0x09fa53977b6fc5bf494187015a8cac4b797a640dab0ffa1721f7e9aa45b4b9a1bd40298bb06f2af92826f9b0cc826d64,
  0x10c94895f45857fdb2c422e4487ba475b6f8afb30706f8ad476fdea9735e344195f6501315c8d5b645a6b38c7af4ae44,
  0x0933b10f3adfa815042a09d024041fda2eea119125a679faa49d2f172049533cad6cee3519dbae4c4e22f44968639069,
  0x136ef9e85f15e60a331e0b547edbe5973a9051784af377a44ab601b1458cc748dda20759ee0514de700d8a97be617848,
  0x0e33f0f5b974b6eae68df6977a48e9c084ac8637f8d529e980f27d26d88a290ba8a27d80f56ce635b674e0c77decaab8,
  0x0caa0bcc22745c11e4902e791dfe742a253b2e39a519685f10e807de2e633cdb8eb2ff8a2c60756015a304cafef28652,
  0x15f84d76feca2228610147e0212b3502648b85f443dab56a2afe61e00ca3878da7fff2728251f99d69ca7a97d296c125,
  0x1759be60f97ef166825226820c804969d5b2995b2650eb0411a1113164d0c8c61b95c9c00cb30a8f228cc54c741ec16b,
  0x15e0a43cf95c2b2f76a55158a569e7e92f7eca4c93498d1be12c14799015874c2cde3bdd1894314752cc79bedd2f6eaa,
  0x14659b35ba9d2098a8fbe3534852f9c2984186b90d30a804dfaf70ea15689786e47f8704ff3b6136681620163898f6ce,
  0x0325f124f17d552e0667ee9846059550a4d3ade7b97714007467fb3c8d117a0b1f52df18dd39de0ddd2fa806e6263753,
  0x044d42df36f75dad935c57009c13e8f09d07383cc9bc3b5e572518351c59cb2bcef7b6468ea2146608c33f5eadb5ba11,
  0x016095fd239790027f19107b178951e8ff1d914037f2fe2fe28d3703a493e35972c2785441128cafdb0e90e8b9028f3a,
  0x055429c8567d71e65efa9cf7f08d026bbb1ecc9921dd6f9752cff908df6f6cd74095ac0a471102367459b133c7170595]

theorem g1Part207_check : g1Checks g1Part207 g1Ys207 = true := by decide +kernel

/-- second coordinates of the points of `g1Part208` -/
def g1Ys208 : List Nat := [
  0x0111c2e0a94096d74fbfc02747824d5b8af6147c4ba995000ff2910baebb497f655ea669511bdc094075da87bdcef5f5,
  0x11082a548e09b7930f6ebe1dd34d6fb8c7ce2ec73e6618fee84015e43321a7b69f288c5c92bd68be52cee43b53b7d67f,
  0x0190ce7af18b940ac68a7e330d3d43d608899b83094c8f5626823d14c90eb5e2e3099fa9c0e41834b8ca7888bdfb62cd,
  0x037a1c6dc43af3042ee49afbeac2c2cc2547485401fc8d80840cbfc58e561ce43bc64abe050fa85ce1b563c254922e12,
  0x044b0f4b6c3f321f4026810d7b0bab33e4a49c3c88c5aed6b8600050ed9b137340481ada56f6dee4e27b2ecd534885fe,
  0x09992d0155c3b488fc16a295ac281c8338342608dbdae15fb822c2ad040e0d3e6817d3e6379731fd3dbdeba6f6b880e5,
  0x01af1f86b16bc20e55eb9cbf6c2f8cc1df7cde8fcb824d74b6bac0dbdb1d1d65175d97be70aed8050eb611d0abab9a36,
  0x137d344371e7976b4e8ccf09fc6f4016c84a8639bbacb694b82fd65cdac0e9633e9b7ce2f1d28581a09dc848e3a0c3a5,
  0x11f75f088de8ef635a8a06cdab03a117cf82d60b52e52ce5bec3415ee41a2d38c70a3beb5e1e1e28758afb2387e78246,
  0x0f24e252d161535b64162e45c4ba7b223816211a653f619c845123af52d45526fa35ec14d78818392c0e3d095547bca4,
  0x04d143cc2a478be88781a18e0945956a8a01a914e5f52756896a62d8bcbb8be24c9c6d6eb814688b7185836387af4894,
  0x1147d9547fe890fc6c08bc9bcd1242dda1d6d9bdfc47b859f164432100de9d18ae46caeb6b66d8162c2e5370cf729546,
  0x01f120fc952078519cabdba846f009b53a9b745c1a2f0ea2548fbe209a6639c45cf6893e5a235716b0e99d4d0e16b00a,
  0x02322a5fa980e4d3889a34b3533077a01aacd48f5e9a66560ad4c5ceb9ddb46564d533d1d07376a0152f17eeb85b4e2f,
  0x1234ff203ec8e3ee838e8a1bc4ee42d16344466e7045253128ff0c8aa70223f1869a8d7c99b85fe91ae4271045c44475,
  0x188ef7b6c89aa85e520ae3d32f0e4f2f85afe694ea596fcd71907617e36399b304bc4083f98d14cb5709b6367c6a0e79]

theorem g1Part208_check : g1Checks g1Part208 g1Ys208 = true := by decide +kernel

/-- second coordinates of the points of `g1Part209` -/
def g1Ys209 : List Nat := [
  0x0c2f07cc6533a09ab21abc480e781a0802c7101029c90487b189f4625abb677f612866f95b8f52b28d298d748846f9a0,
  0x03120b4225c29fad5f3dbb408afacdb47567d25af5357d94d3400ec660b83264be771391e1141a7a05a762f792be5220,
  0x0e886832015e5bfdc8012481f9ddab676f9dcc9e3705280c959b70ce98d32e1eeee15c7a07a100abef33aa5016e4480e,
  0x11de56c1d744be9663bcf0b0ca8df39e78aa9fcfc4db64538d3f98f72baecbd12d1e11066ad0ed266f1807f7faf98fd2,
  0x0bb720147079dddc5a7aaf96e9169cecd949ab2916a0b675fc0d10d2c1b63d89183f6c7fd25e7a5810a5b9f2de038ddf,
  0x00641e55a73bea69eb710a9cb32814b42d505df307675df9ff3a2f8283ba37e6b29fece3e4824b94011daca7db9fbe5a,
  0x0bc6cf8971c5ef9ceea7e88b36f6ebf48ac0d23787fb9b15dc2818e1ed124704133eac878dc5593491512992eceb9029,
  0x04eea5a81223d4c18ce96536168621b8690acd5d6a3e5f5e8a6ff3d2dd72e4aa3603606581a25037d2fb42538383240a,
  0x162f55dc0b8c0128e79dbc589fc2ecc5a3cb0699add7caf64ab5b64f835233536fbb01d528d3852ec181aee69620b482,
  0x10364d2da12dfc3f22dc773c8a33290510ce09125d6925135d3aa0d8318dd72e1ff3b8a2998d4be6fb25deba8c949f6e,
  0x00443143e6c0f1e804f6b955fbf9919a5078b89c23bfd6cb59a4c007c21e71118cab2c5b8a212d4e70fdff05344e5264,
  0x047da6dd490476c12459237609e706142454a4393c6b18d8f30cc2b2949278ef03ea080a472ba8557bb4540a9da28bf8,
  0x196c83ed9a9d06990d65350a35a2cf403cda45517d8cd22ef1871f9185c4e359b169eaf84273a117afb62932e0db2403,
  0x03867369e6ea9d55297ea881fa752d822a0c2b11d9fda2bdd72aabe9099860f0a91eaedaafcb8d9ebd34d9b748427f3e,
  0x110878d930d86c3738ae2ac91e6e71ac6518c81cd011b2c0ba22da972604c910ef809555dd5de9331fe4d43112c220c5,
  0x02dec472eb8d9cdd13f5206bb8cb9b62010929a7dc4f3ffd994c49ca2e87c7a9dc44f8dfc5495b88f63361bf2c86d662]

theorem g1Part209_check : g1Checks g1Part209 g1Ys209 = true := by decide +kernel

/-- second coordinates of the points of `g1Part210` -/
def g1Ys210 : List Nat := [
  0x193704bc9dbfc4a4ef5239ad5436a0022961d3c54d84dc3d53a284a96e39baa497194fe23e293c995849c1dc65392d09,
  0x16b4395c1b2e12570c135c1d7b6f340df9c49e28602e0ba19b090a13e1d0ebc7212e873df3954e3147e8b1d9e6db9945,
  0x06307b5d456f1d4ec20182b0ecbd7baebae66b1bad27591bebf428c2a405a9037adec4997d3e6666d55cbe0b9df967c5,
  0x07bf408693916be44c1aee0292387a5be6fc7a8449a0b8d0585dbee23b25067f47ad4863b05ab8327406f2818a883eb7,
  0x17dbeec911a4e4050ef0b8e0c9e0265560c2f6add75e40a5b9feffdbe73301392caa383eddbf21cf7e97bbef7b7662d8,
  0x17ffadad7cf766e96883eedc7cc7d9d67ee47a109af59a48cd15224961472a31f3c08f7ce029d20cfc2ab750fbcd25f2,
  0x01e92325726b4e4af63afe728d74c0ab310bc2da99fc58244e07b67c83514abc65e25559805787ed99c224e86daa5cca,
  0x0c5dd44f6f90242172099ff2a739b3ed1c873e3d9c8edb1f70dddcec2500c7248414a85e1a1e41d00951aaad8b71aaac,
  0x0ce4f31b173179b7968e711ea6a98606328a00b3ca648492242f4544a386978acf1888c1c43b53f5bdd4e1b1c7f5c250,
  0x0861a95b20cc6906636d87b7973546bc62856833e8d72acc1dbcdd5e9e0faa5ad890196854cef4b246cabe2ea2551008,
  0x09b4007adedf07fa9cff9a913d28c315ae74b00599e8b829e5b54faf6c86139354dc3492f8a7e0fb82f59043615dc0bd,
  0x0943cd47c1a31d0b215329a6246333ab111ff99042be945fa87438cc87900a5ee440400e0a2ef215f7a4482e713ed0bc,
  0x0b1c958b3d4d689867dc9ef80fe07d0d0d0501cbc42a14c2bbe247041d98df5d58f1e5dc3cada1712da08cc6ff03a676,
  0x0d5c0b3cce1bbba66cd6880ec79d712ce0ca403dfbddb8e832d0079229608f19236a19d8c4d64fe065134f9eec6108e2,
  0x0656ef44cbb7e79f74c1df3230a916845226416605e48f35963b0cbe850fe03a4571532460d0fba159ec28aec45ef976,
  0x11711952ef1159e330ab67b033ae16765b77f12370396dae43f9d37bc1cd0f29b6898ea8a1966d0a3f70a73fe71e6fcf]

theorem g1Part210_check : g1Checks g1Part210 g1Ys210 = true := by decide +kernel

/-- second coordinates of the points of `g1Part211` -/
def g1Ys211 : List Nat := [
  0x14b7e564fbffe9695600800334aee55f7499dda23c5c6631625c468ecebabff26cf9261a9529f85632239a472b4490af,
  0x0847bf412afea48f4a95db0d3970593c66904c7bd07143e968a7788af0bb07f227c8fde7e71b0d6b9ee52a3686dc7502,
  0x06fd6266543ca4f857b8759a1d77223f3f5688a53794b2e5035e531b925d78f56f25b39301f5ef505bc7fe93483ba28e,
  0x0cfa7a3c4adba2bacdfea59ffe47bde722b0d0c2b2250d87ca184ccb46d7f53bdbe080cfdf14e5656ee3f00cc07ffb1d,
  0x15e42e743da524f6752db776e523e340f48bed2b097bc6a5a373b907009e26a6fda6d943c1f2b48b34ad562e0930a9fb,
  0x12d4ac66721976fb9d1aa9cb7b78372065bf93201c8282fc8be01f67acf4bd0b5d63ff9a79cf93f719b899a7504f75eb,
  0x120f9abd4f9fc3446977b2a16073ff137f95ece201958768f19637c4b026dd69c20cdfa928b130b557da4b366d9f60b4,
  0x11ad6ee3919b6754bcfbef2bb7cae46e660187555a735dda8064734287ed7ffc46821363fe7d2efaa7b111e3a06a3e4a,
  0x0175d75e4ef4fffca850888bebc1cdb17710e76b0dd13256656847c6d79ea7abecb986529431e66c52fb0e35d3b818f8,
  0x04d870f5d017eab7ba360c570e39570f89055d9c1a6c58e340a079d430c41c38b815053bec4c03b1a6080995d4b5f079,
  0x04f654050d1fca8ffd68e32494aeafb3a8fa233ba74b7b9697b84c54754345c3d3a6fbf7c39b1cd15f6ecde33dbcaf33,
  0x02e1648f108b555a8fb4ad8e319fda97001c2f612277a23790c66345cd2fa62831c867170478a011f57d078a3ce083d0,
  0x0645be6d1d0152832b0274f9177c963bfe297b635e0095f660eab0bf912f375cc0122ff13abcf9bd8ff76bf3fe7708ce,
  0x0c2541b840cca64bcbd97baa79e3d81af767bd4ae93c4baa3f80551ad72f09ad27ed277c7425247c4801e747cf3f6957,
  0x1097b6b544e77eae5343e7913a9dcf03ae4ccbd22c2ff5d0c5fa44aa5ff6a511089fbf74b4a1bad3c92a22a277075557,
  0x17e4c625cd93ba5909bc9c65c761e5493c3da969230d84105658164e451fee060a2d0399ad04f5582ae54c562a7f55f8]

theorem g1Part211_check : g1Checks g1Part211 g1Ys211 = true := by decide +kernel

/-- second coordinates of the points of `g1Part212` -/
def g1Ys212 : List Nat := [
  0x0d585cc08ccd5ef18def96784fd406dc5e5df1fa727a9194c98e4b4fa02e0c150035d8c784d00c26b758dff7f45469e6,
  0x11ca01288bdd5b9de5023b708e1b4c1a71f3aacb461dba0d57baf98902be1c21d5161cfccc06fc0c6258edca51cf9ce3,
  0x105889d84f7ba0e2d8c171c011f986930dd703a1bbff175a75cf88a733d2194ef948be3dc927270efd970e4b6267d890,
  0x0eae89fe46f573a71e8da39fad91c0a5a4fb911de1978f6aebce44005bbd4cb7941abd4926a12edaaf1fa24193054f5d,
  0x11d937774b0bb73b9b15d3364a813357b29f392949bb9a94d6ab328915219190ede7bc785d61bc05519b3b62f1a6ce79,
  0x1882f5029d78d29fa4816b3578858cc872bbb12a594e88a69a0336d47214a5e695c972e279562cc059bda3c766816291,
  0x043bec69a844fb741590482990c5c839504af594724883590cb8a791523ec204c936be1d683e58d953bb5e2f0f855c63,
  0x0c96eea2b4b12c1bfe672292e0fdb246fda43aa9951ede64822199b82a194f586298bc2bdf4bc63635c5db52f53dcb07,
  0x078bd322d173403adeb982c5acea4ffef6a297586edaae04694ae0b10b56aaabd8597f5ffc9b56ab4caed18bc51d4ac8,
  0x05a292fc6d63b8e00281bf8c756a823b7531d6cf1a24addd0715fa263af45030536aec896aa92bd1ce29d4abe160037f,
  0x130a174cbbe707a7f7ef1c2b4e3ccdb8b00c7ab75dcc4a28f11b61542ffd14690f43143d62ded219aac340970279cac1,
  0x0d4b89172f87b1ad2cc79d5e3dc3a2aedd2cf41f40ec6e3568b50848d68306e180c7014c5c8a45c9eb4813ef59280aea,
  0x01812fd27fada965447c078328fbd8636820e447640c09789befdf0c3e268b91ab5ede281fc152da5613657e5d5fc89c,
  0x0b2f24f9baed027372be91a9a0f3de69f91e64bbee45b0e907bd78ff5e978ac5702b8f3b3de88ecaf3147740d8c50500,
  0x0aa851a155e520b2f8ff638f7967b21c614d3851884757033be2ebc3648bcc54b0c1c950c50662d07c7b8d460bd7e405,
  0x162449115aeda60637a24cae8b0a305c8a0517215ac54b51baee17f4e6b182506b547477562f0fe1d2f11e7457e36e46]

theorem g1Part212_check : g1Checks g1Part212 g1Ys212 = true := by decide +kernel

/-- second coordinates of the points of `g1Part213` -/
def g1Ys213 : List Nat := [
  0x189b0c1e87aec66ce938f3b103c7b58f7554ae858648de0c2a7e3c129bd29a4757a09d5520db5225abd922b81e1899af,
  0x0f2dde408f4622bb730e81f2b8628a5beaf992023688886164568121c7cae0e191c5040ba3e9e12a016dc39284630a27,
  0x16e7e8421bb38de54b82a44869b7b1d8b5bdcf60088a60c52d82e398a9b0f00d7ef9c15ab263236ddb892ec905ed5e4f,
  0x0915da5d5c0afea8d87f90b343558627303ee66ad1afe90ad5a92a64fb846ad51ede71818aa680198a5e45281404534c,
  0x1909564595a50840761be114cfc61ee07f5ab0a795edaf092e9649b6678eb3dfa1eb4c4723edc5ffadb1392441573855,
  0x0f9982fce3fc22b54b7b31c5669ced05529aafbff0dc51b11fe3917b0250ac2b43b834b2abc634d18a7309943819fb0d,
  0x0c4e3ed3ecc307614f1c307444b785b05a9a1c77e2b2f3b51b689a08908e857a4624fe89f6fb4331caa6956add48dfd2,
  0x046639e679aa0e7271973dfd324daa0f5fba3cc71338bbb4b67d0effafe9f178739cc45078d28e4a7a82a46a691d1c08,
  0x107b7f4fae2bfde76668b28db06c15ef3c133d5bca625a6e6ec0c56ef7e65f17dac9a391cbb73034798f9a0b0177498d,
  0x10d3f29864568e9dd78766702f898c06dad86d02d67a69a82b58dc6ffbc5a7cc8648e861204137582049acc2d0a593bb,
  0x15c3f1c51c49e53ca0ea6cd5998a6473d9bf18ac9db11b7bf468c3bc6964befbbc72c8891b9fa2ee7639a684ce9a5f7c,
  0x11520244f11177f9f8fe3fd1dad541de2348afa0f49547b7232848fa5fd1f4f2c18ec92a5e435e6d263c633e579ef061,
  0x1296d8d860a626d7c550899b1748cf87752103dc595abcfaf77a01c3ed0dc67c8ecf7a5659ecc27c16554ee6560af5be,
  0x1277b68322cf237d93723eafbd8394c7530a35f4b91b95f5d11a2a7f1eb54e596eee45c3712cf0e4418e2882877988e3,
  0x0ef147e5bea3115961db6ea1309578cf33a11e68a357d78928e6f12edde78e52c62e4d0f9db7950ebe41c0e97166c844,
  0x07573ec77ac48174351f89bf21241dc76962422bf900744034f54d5b231eefaab39beffaf930d9cf92211169f5878e3e]

theorem g1Part213_check : g1Checks g1Part213 g1Ys213 = true := by decide +kernel

/-- second coordinates of the points of `g1Part214` -/
def g1Ys214 : List Nat := [
  0x00ce2c2ded6cbd9b065956faa4fc17594e9f0ffac0673a50b4b37c8ae9f190df1de265f0c3dca737d023ffca7903c357,
  0x005bb1bd07b3ddaf3d7c053f94e559028d0bcc03597b9f0f3bc2af4f616b653ddf7b30d3698b11e72e87867aabc6937b,
  0x01a9c24a1833ae0a9a42ebc5e3783585ae75796cd16d2cc58e68480886deb6d4f9746839fe26ec641d0b3097a5f22bd0,
  0x186b3550ada8a93b0403cd95a87dee3d55b5fc741544ef2fae38959a663378fe6cec0652d2a22f8d70b162048ce6b0a6,
  0x08d022f955ffa462e6661863b00eede74ef2f33327eddbd61bf40288753302737c6c2e44bee38b5f6b2edfc13601c0af,
  0x00ae4e50eb405e630270b216e8f877bcb59bb84c3e3937a7cf32056184468701c5d4327008e30980d0517a66293c1e16,
  0x005f5497c098f6fbe90065719a5563b578af8d443c07515c3089e545cce0a80165f9d8a74dcf6af6c135b9f10630e615,
  0x03bcf9aef6c675fe6cef0903c26215c8084ae7e2383cb0d776a0a81db7baa2b83567024166f9c03a07204834aa6deef9,
  0x02cc0dd1438a8580e281556a628ea180af76d1a4520efb95c35caacd13445a903caf6a2749685ccfada80fd06b883df8,
  0x0155115439e5523ba4c68c54be43c981bb13ee9f00165073e151281c3d62f40f04a0c4411ad8b8e957709a11270a6041,
  0x06b762550e1216306d072b23b0091f99ee5d8ab84011d1e916670fce51658fc20d07ee155b67629763054e88a9d937aa,
  0x07cc70c464d14be59f2b1daae516a71e682650b4ac4e95784e7a2d5c793ffcd4215d06d2504545cad0a92c5e5a68c93f,
  0x05a1830d7a3aab17fa748f411cc5541d35240a1353d6b89cac430e2f045b82a00b21511129a0cfb50ee6e0d663bc35f2,
  0x09502e60f1881414e1027b0bb1d7ca5b310a49cc7a7e607bf0c3c2b55ea2433932bb7520aeda20f0c40496fc38a1eb94,
  0x178bd4695a1ddd5822b2447331c981c14bc231bc4a2b6aadfda3aee7016e3c5c7e503dec4d0e6769177d67b3af26de9b,
  0x021c9b338a8116718640bb000eb17302fa6c43edf2d7cd8de8b677aa47fa9b384d147fe6ab81ab5d9f0cf742321179ca]

theorem g1Part214_check : g1Checks g1Part214 g1Ys214 = true := by decide +kernel

/-- second coordinates of the points of `g1Part215` -/
def g1Ys215 : List Nat := [
  0x0e8de530aa88b82b897be95e4555f14d11bc1059f9c74859ca0b50951f1ea36fdda9b6ded5c6cab662876bda4a5ae56b,
  0x06e3756acda817d8e1166817fc25cda030166587be15395b857a7600ee4da32777c8911266967fcf4cf1d3b4727666e4,
  0x135776a57450ffea4b27cf7cc4893522d6495bb47a8fcd6548faa4ff7eef1266f4d0adefc74e5122002c063efe66e149,
  0x0b229f07bc5029e5d51565dd5bd5b6b7dbba46551f4511813b9fcab7ad5a2509d2fd7f8ebb3882e9a9dd521b690579ea,
  0x072f5401f4e6ccbe444751e9a17d5405bf7a99ab9452d46fe21186823ac0f134d90f4732fde9541c88aed01090b97b43,
  0x18ec8dcb7aff47be563d888c28902f2c745a140f162a38a76b4e1a01548015d849a0cb56b6c8739c01813a99487bf3b3,
  0x14517a33392fe5bcefbdbbe3c0e23286f6d6a8aef7d9ab6389845947f02acf810c9b5c45b1103c398017a7a693f70b1b,
  0x0fcc27cc8965b7b6f4e9602d2f476f20dcf88c525f77f02e784f09675972d563ba1385d2d213a410e283d70e13f41722,
  0x0b11cac580b30c835f3567fdc065895b16130786bccd98338b1fe69c0e48c7632ef44abb0c4620fcb4a1fad144be6127,
  0x1015740c264c2bafce690865e243c0eef1f5b271c4929f2191bdfe34867133e6f9e30582b9adad9b425528842002d74e,
  0x1296bf22c574d35ef6d3d8e3d3bc9d7e4035b3446fe42bf84018c7269fe4613d8827814db229dfda33e9fcde35e2478e,
  0x024273177a681fa99d5910d3a7d7342b5e52fb7a0b869ec5b51a451b2df8aa14400f1372f627fc3ec62ee780e0775da8,
  0x1422d54e6e06cafcf55fb5604cf03628e8b5e80f0ecdbcd99e9546636a993b28b9678ae516e3071c4af0156cb1f72941,
  0x17084fa7c8b9b7b73746e9807890f94229cc527de280390cb44073a53c8ec26c3ab2e3e7ce0720ded8ad946aeb46f683,
  0x0fd50d0d74c293ec2e3a884d2d3c548f96cc66c173098069d73790ffed4f3a567f86c6bd5745d1569c2558984519ee7d,
  0x1064763c0fc4356336008bbc417aff1f215c36ab6246f9f1613ddbf7fe79ab9cebc63de27473c317c6a26ee9479ec927]

theorem g1Part215_check : g1Checks g1Part215 g1Ys215 = true := by decide +kernel

/-- second coordinates of the points of `g1Part216` -/
def g1Ys216 : List Nat := [
  0x19c49ebd4666d378c0efc1fe0c1da98f7615bbd90bb1de952e3ee5adda0ef6e4d0244145f9ed857d88511853506ca595,
  0x04296e1e37158cc81f5784b8bf2e8248abdfa774419b3f719ab800268ee140a0f929ca5ac9bbbe632be5ffc9d24ea259,
  0x12ff00b4a2662e237de8bda7e91102be0eedd13d8cc61d8cfb42f3ffb2f6db9863536ec8abdba9efe41dbc80842321dd,
  0x172970dc2245a677f3e5954edfac08c5944bd01a79c0f1d862aab9160827397ec333d6218d251f0088915221ac303d77,
  0x16c931a85bd5aa97c4c44bfeeeff6308895c849277c28b33f3851b09fe7bcf425796a97b2f9fead491773d3a430b9d5e,
  0x03b8623c11ed6e1945db2375f5deee3ce964297282afecde0247a4299ff42d94510675bf066cfd11d5e186999d39d692,
  0x12c8dfa256c6227a8fc75782cefd9f7ca1b0b12e3400d2abc26162a9b0b899bb90c5125877f88618faf9c8177d45cf8b,
  0x0e3355704fec9520da244c03cdd6dac7a086c96ee1d15016f9d50d4d037ec4aa7935ba61a91cab2d56bb6cc3b66456b5,
  0x0e4c36b9ebc23a2b531ae680dd58c991b9749837a61a6014f4e371938d88bdb2984494627e6b892a96d6e28048c8f1fd,
  0x09a10a2a0e988e3ab5abb849eaa10633c98f49c482d823c60f13dc166a528d98489b71128b5712f1bdf6c6092ae961e0,
  0x0e098c24a390407e366c2e8bc0303e2d337863b3014d0e95f14497b738834683ed3d3a570e712cb83a316e872b2b51db,
  0x188c7f52fdeee2ea245daa1d3a212a83d1e94221283d5735b7f4872751d6276b5aec0f6e2e20707df44ecfc3c383eba4,
  0x174b0dc46248285f0a5bb028b55362d4b66b3af25dda15efeb38d2eadf324467d9a72bfce8e954b5f09e128fe7d7083b,
  0x06808b38def7b5198a064b80493d6209f4c839568c1df116d89db8e77b95677ee2ec7000051ae4dcfc528bc242d94fbb,
  0x084354115b818cd3e0dd61dde4becc316de5bc1e204a7aa772753d4ca227239ea97abb88b3189d8c3cca93894604b520,
  0x19932025862e94f3e55ae8249682d90d4a72ee3870bef13d26b155a11955ae41a33be31f02eea0b1adde0115acd5dc12]

theorem g1Part216_check : g1Checks g1Part216 g1Ys216 = true := by decide +kernel

/-- second coordinates of the points of `g1Part217` -/
def g1Ys217 : List Nat := [
  0x0cee85c9ee26a3a3623761693438453c7778a7a541c4496ad4133660a12bd8ba6075e0e3f0031215106fd8eb45e70b12,
  0x11f028fa42c57341d6a380cbc5c67bfc747e8ea52302793ae831bee76d3ce9840c3997d9c56d409ce88a44deba9ad803,
  0x194a7b95cd38f78dadf60bc229c431151a01d9db260e294cc7d848b3ecacc083f27d2f79e3ea3d324844c6af317d860e,
  0x0900841666e02db12a459c2c231a86eddfd5e12cd8f85af0fd06aee8f310b974c8c1705274cd2e794ed3f65716c581e9,
  0x0124070e5b6aa2933af5f8877c8f31d61b46c17a0824c6b746c6d5164a588f4856cd27858e9972e52f2474d58b9fa012,
  0x1387a75eb5894d819999967e676693dce59185b2cc7ced4e33f31f6d346f5726dd2aad89637be33fb41e396677f0b329,
  0x0ad3e50517f4b01fd25e4e53ca39e04c11654ae2b677e0ec0f442bd57ed1c70907746642f5ee610de04c46505f2d714a,
  0x09965a5c241fa406bc54d67b6d7d7b09c65f53760083d1c381ab2b4fc27457dfd4e6a7a2511fc63f45969c76ec547cb4,
  0x07daa0ff8a016ac866ed646e9a114a47ec93d71f44f17577fabb46c342c3ac3b23e497d29e400fd658f30ea5b8382e47,
  0x08cd3d1c3ecef2c8a80d4c8e7e98435cd463fb6171afb7d5b01c169c237670962549898f1c8077534e4a6a0f8a31ef66,
  0x0c8dcc3b21ed9371fb3dbc5ace42e72b512b4f50f9267d900d06e5337477f063b0eca2f276aef41935a62213f71721c7,
  0x0d170aaea8522293c76b89be1eb1b84ba8d167189ac55e086a74b5ecd9489205e86d93f99b0fdf5a7a0c7f675688c66b,
  0x144958977d8ef942d65663d30fb838d76ce304040dcb9b50b8156c45f50c08e8afa5388233aa469d3f2446f68e12266b,
  0x0443c01244b3a3163e728ebb029a184b82a6f4986904dab0847fe4fbde808288029bb622b3452fb75d5b6023c3b99e45,
  0x152bc84edebe5756e3990b76992d73efaf33322dfaf222d73440c92984ba2aad8af9b2c9fdebeabed19555d4ff58e240,
  0x0a17f550d6eae3381f1d3422f38ad2afba33db98f1fbfee8461dc6e050df1178aa164d0c62c6171dd5f1da047391e32d]

theorem g1Part217_check : g1Checks g1Part217 g1Ys217 = true := by decide +kernel

/-- second coordinates of the points of `g1Part218` -/
def g1Ys218 : List Nat := [
  0x0d1b4b4837273c151944d72585e72c7e51598de4fc9d4b1cf27adcf054097e575798d487334d15ab1a439d6b3b89fa93,
  0x07e17134faae8082eaafcdd3f5ed6481c70363f983b2540ba7ae555bf60c68bd021bc82cde2d81608e63d7f27eeb9f78,
  0x106f52cb15e902e8d352d9cda057c0e67b74a96ad4dc4368810376cbe4076ce831ec58fa56b1c6a281a8f30b7b5ce1f0,
  0x11cbee63038525f15084d51c9654962adfdab393e90a3022a35aa1d96974e5e388b4bd091727844faa206e7258fd3daa,
  0x10159785d2e94fd56ab1b1056925804a62e15ce7d2f821d62db133498738ff08f0115f0f64894b9b32442d26e37c2f34,
  0x130f4cb241629fc5a8208c2c2c24ff5fdabd10db4f1104dcf6905ca3e0e84359a717193d90ee4bfa60d1d9e6795de1d4,
  0x185a005498881fae75d103201f4f1238f0dba8a3c294929b076d0c137d002dc945f3254626c7c8c7ff7862dfc665a420,
  0x0d824c4a339c996477b1b38f6d70c12786e0a258bba3f0bc8f25fcb938e666011bda192e54d2aac1716bb0c7475b07a9,
  0x07066ba685036a015f201f4f6241360c05be9796b104f3637bfb6cca4fd54d91a2832c9e247963949cf3574c6db54d4f,
  0x10de85464b231ef716ea1963cd963df978ceaeaaf184b4bcf0cc5d028f4d07830394a06d7f7faeeb96511a3243a0a615,
  0x1664cbd99b907dd5906be1894af26a598974f96e7504ae4d61fc8d5b559342709978303363625cfa40049101d46badbe,
  0x01770b3c13601c27e85494e75e322c7ecea4239d92b18a2bf73c4adbae960119a2ccbae8a82c499753d102e1f9f8e04c,
  0x0aa7755304483323b6b83c0b79c2469dd2b21b16e47cce981c7995bca8c86f8d77ce02cdc651fedc5fc39653e93e4f0b,
  0x108736b781b816ca4e56c0a36af416891c9f3df402a164438da9a99935bac1f3001e545c561074056292fe6bda4350be,
  0x03ebdca882572463f28acf6dc6d8296b8075d2b06b8fba2074f7f0429625d1a1e5ddc0e60a486e56fc752d6f142044a0,
  0x0daeb9310a44acb88d9455833eacb2a12feca87a60f27b3925a4f0ba02285d0a694aa8165b3dd893e8ba3c56a4533016]

theorem g1Part218_check : g1Checks g1Part218 g1Ys218 = true := by decide +kernel

/-- second coordinates of the points of `g1Part219` -/
def g1Ys219 : List Nat := [
  0x0ecabaa4751e50e264e02d9abef33ba2b1b6ba84b9c962fc42c63d2cbb6be79dd578e0d471a35011caca59ac36dc9695,
  0x012399a49b22318b60b889eb748b4279216c6695b1923b5f225c66058ece9919b4bd095aaf8dc5c326bdd19edaccf82a,
  0x14697c43778dd6860f77226cfcf02a2a0edc8ef72788aa946b787d5aedab50ab4622ba578079d6ed25a25c7e0343d3e8,
  0x0ed37114bf002755a05c9db8f2d057d8163cd6d24f4ea43c70a3758ce507294415f757c465600415ee9e312b6d18c4d5,
  0x1161193bf8ac0d169d81652edbb9bbcbf99ace83e6394f828d2023a1dfc6e92f56b1478fb048ff94f947a736400a5383,
  0x0eee24bbdaf187758eac2fdfdff6eb7ceb3f30beccba160691341ec16d3ed3dc04e55685e8ce2fc4c591c23893c4b1b9,
  0x194da7e4a900e8e83bf7a015b287eb587b58773e5bb58c3246c7be7d67c010578327536331914e39a7e95bf625fba3a7,
  0x032d4aa215a5d3eef1070efea33067b42523c0a22c19c6ae449443400abe448773f0a26778715a2d14b742ec5d0e4d3b,
  0x0dfed0dd118bb7ebd54d6ff671dbbbb4b8a76db39e013a3a33498d79f05691273a4fd100ac1e37dfb53e0ba9f2668b4f,
  0x18df22a0888741469148079ef336a77a50272cb1af617b02c30f90a3f7749df52e61b170c9e42036fdb2cc9592e29c8a,
  0x03b7ff84c6e1e5959c37e311124c6a6f7f486cb98e980862e5b2ada3d6d378f1e49d8dc7ef6e3dc85fc213a67aa77583,
  0x13a08c7edd37473c2c0e6fb88c6a1d0d6897a1029d3213086ceafbaad921920c7defb1adb8449ce0d390c6ce1ec18da3,
  0x0b1256ab2f5e003418b0e3c58dc50f082c4a73595c33f85de66b7ad92bba01304cbdf9bcf2c424469829528a4f415b7f,
  0x18b3b39585b023013c9b36a8ac4374afcf9c950c278553413a14a1a2474a179b44f8137a1e743e7268227ef54381cf94,
  0x0b8daab4f4742189f92727d248f905b6e7e78f1d00e53f1af969f84fdcdf07b7329d3667832b705c9d8f7611a1b90b08,
  0x0074c9c72097af6239eb42527e212395ba25bc731bc22a88930c3261e6934bd0f34352b2016b0abf2ac8447733bfd234]

theorem g1Part219_check : g1Checks g1Part219 g1Ys219 = true := by decide +kernel

/-- second coordinates of the points of `g1Part220` -/
def g1Ys220 : List Nat := [
  0x09475a2c9a29e36cca0699d1f4715b803cc6f0432197ef777fdbc08a6f69599e96346251c97a27acb54c848ffaa7deaa,
  0x034bdc03b865b14019f74290da8c06cd3f3cd2816de00bf00f8eee1790cccc63baaa1579b804cbbaed66d846a480f291,
  0x11b057b66d1247cfd15399acb33b1fc2885191ba256ec878cfe9da5f46af112a4686666c11693bcd0ca9388a32ae7641,
  0x03fbd4ed64eb5995f9de34ae112ddcfe3d5281a85974094e4476955bb757ff3d8c770788f0ef539cac373211f3917636,
  0x11144077dbb378f9cea5b048e2d1d7ea411382b1332307245397a8052134f908716df5a82d1b5d7060b6fc38af77359a,
  0x01bb3dce3dc063f833e7076a3bed000dad250cd609351824c7a3401667e105cdc384c21d58fe31897d76ce4cc09427de,
  0x14d8f03efa8739a9fea3b68c47c930201b6c0897dbcd59d2804bc68a3d606dade5fa0ccb3ddf244d27279dba8a3c0ae3,
  0x194eade025c7763163e9c64fd46e5203f18747e81fff66db367ae4727787370fecf1a74dbec67bc76e01d1fb83839a97,
  0x057c009c543ac1c11b5bf64fff87f27ae9907427a33a249110fd68e6c855f7d5f69d9ee977f9f225de812b0aeea205da,
  0x195f12c8ee8ead30769bd4855f70fe159e3abf00df1a9c57850cbaeeea39071be206dcb47e38f8866d82437b28217b7b,
  0x07f2f5ca9071c501a6de741b277e897395dd670e3942926c6a62bfd1315a6e6e632cefd7582619b4f8c07ce9841a6426,
  0x0fda5db2252a7eff9430be2b60436c59c0f763eba5e975eb47693b7aa0b05f05a67af9b8a0794ef9211b583462c5676f,
  0x0e6fc16240af114c49fab38db6ebbe04209f86e108e32551b4a4619b8b2f69d5ac7aaacdc7e0897aa8299b5ea2f6bf81,
  0x1207edfdf0bc80e3b01ca1194e9b996189ed0e92f946e24bdc7b692c2fb1924aca7da1714b5d038585b4bdce35f11021,
  0x047e97f139b92457824cfb05d74f46f5a1a5351251912c8f39d64f98699cc59e9abcf1903df57dffff74885e8c40a6cb,
  0x086b44d2e8ed98715ab92fee5ad2ef4e5f07a4b03bd27e65eaad91625572a65225ef87ea944904dd4b9f54bdd225fab3]

theorem g1Part220_check : g1Checks g1Part220 g1Ys220 = true := by decide +kernel

/-- second coordinates of the points of `g1Part221` -/
def g1Ys221 : List Nat := [
  0x004faa1757d439874222d338135b2106973e298878ed6baaff6c95e2b02c4314d2beeb478daedcea507155999423e883,
  0x00de50a0ed669dbf864309ea46c4fef18c32094859449a517b60d3af4fcbf8ce874067d5b7cd7727f95703a58be87cbf,
  0x09c97292858078be6c506fc29a4b7c3f68282dc51a8eea83f0267bb4e918dd74f42d95747a8e9cec8797567d75d629e2,
  0x0d4ae13bd5b819dc62d3c93041779ac62ab35e4945ceed461918ef7f593c4282f0f4175ff12fa0b725e486e10d676cc3,
  0x05f33ee3f451cd90661476891501b7a4c6c267b273941047976e36dac461f73d0fe3b1b234f95ebe816529d9515034d9,
  0x064760b3785cedea126e60c8c1aa747a0da4abb2d344bdd4dd9f483b3303bbf80cec341e834b925416aab5a744d36477,
  0x003ec49f88bd47ff093baa55ef6b4b67d50f24462da9f0146ac2e6f88374923352549bc1ef893197480d48c347309e33,
  0x111ecad93e3da55a54998be46bc4a21b2b2b83ead154eb25f26c6263041b8a6de5792c1e8d0c0581b82fa76eb99effb3,
  0x199361fb3fbf80ddad533b1f843b433cb645459b1dc7253fc51d9a36fbc286753aaa60f6553f185baae4f4e6e91000fc,
  0x0ba4aa0654817d3cabfe7304bbe29af28522c58731a03d742db846236f90f836795e29fb49fdb005fe00df62c8d4a547,
  0x04b6c46ea981f71ec3965c62a9a3b106c6103d696f7fb7c494e811415a3f949611c9e0338358c3fc3ac151354a907a8f,
  0x0ff03c6e93c173bd6a3e6f0af67408d54267cd3301a24e4c7a6634a9d239a589edd74f809be18119ea0c0be556d61cc8,
  0x0275b855e27b3827e0ca3cfaaeb77a0c46224dc4048a3f56d4c65d9ce73928ab0bba5392313dbd7acae5db9bd0e1ceb7,
  0x0d2da45828373f91704bf5ced3a9064951b20198253ddb02ff160ec872c5e9be4c86a52c66ffee1f5babb122bd9d183b,
  0x024a7d98d0fedf18a6e951ce0b34680a46a0ed9f438b496a248df92bd720035698876de95d63df9435724877e8a9f7d3,
  0x047cac6a0669619f3e9defa8b261b6a97e50f09aec096282df915fec367e300e0f1c238d4cc4757e6ed9e391c264d4e7]

theorem g1Part221_check : g1Checks g1Part221 g1Ys221 = true := by decide +kernel

/-- second coordinates of the points of `g1Part222` -/
def g1Ys222 : List Nat := [
  0x1738379cbe9da60a3c91f8550834d2cb212995041938e6924e8bfc505b6395b42179491282902f1207a599532eed8c74,
  0x078f102766fef32d45b6e561da5d1342b6f6c0e30cd93683a3b1150b7d9c0705c6bfead55727f66420fa6471344de772,
  0x007791551c504555130235803d33c961c72b7eb4173a7f6ad0bdd7d55fe9725ac469a98746b0c0848694c8ef9de7d59a,
  0x02ad447c7b8c13dbee2eb9253365a9a250d67bf6074871b6a12da3d33e79405700c8109a3f81bc495b05ff9042654794,
  0x01d2fdb4287c0229a6ed12c10ac8b4e97446d46c3925169b833d90aa03b14c09863a697b8e25b07c0eee089497a0ec3a,
  0x0884b7b41a630af8b809c254e0e22ba392d720beeaab2f23b8c00ab16872c5ec9ebbd1b3a2a282651b06cb7b1e6fea12,
  0x08d54b3ac44955cecd8ed01797706026dbd23e33497f3ad4d00ba2054e34323aecb5aab604093a28d5077d8ea3d2632e,
  0x02e319900968678b658b2ed0f2fda7e523c251d5e6a48024858bfb2f172795d5e03f8f0a990892a75b01da547f4b9edf,
  0x014a4865f49b441cfe962011ba83913ec0a6cba6bae3cccd237973578ad0a21f33aea93d792402e442c9b5214768a0f7,
  0x01380454cb1e03231462e4c3c39e7dc14be7d5c3b4e64978820420cfb406eb2880395c7903b1524a415284f233f93db9,
  0x02b380e417aa6b67d76d8827b1a070390d00e0ad80d336fe574aa3e530ef8fe90d363a71403618644b19d2ce94f34eeb,
  0x03257285c7aa98154b4720d184bac33031039aa48258e4260c37f6f80108f37e530289504d1721c1ddb886d97296c708,
  0x049656f0b63edf9ce932b8f719ecf535739e4850e08fa348173b25fe8ee99e1d9875026bc750fb4250d1db6608162b5f,
  0x01b383e518c9415f07cd7d47f2064d283e4b04dadfec4cd88e8dcd71670cd5c8b3ab16ba00949f024235d848f2f77e7d,
  0x1089df18a0ed0e860567fbc5a15d23751cd7109eddede4f3fefcd8c0ee1bbe9ef689db86390d74ce6ef3c162805d4fbd,
  0x12de7c225958cc0caee600ace56516712e6d384850dad20889007b6d1f37269133be602ae19a2987d7d56b157bcfc789]

theorem g1Part222_check : g1Checks g1Part222 g1Ys222 = true := by decide +kernel

/-- second coordinates of the points of `g1Part223` -/
def g1Ys223 : List Nat := [
  0x0c4c4e9ba275b92ccbbb2318522ebde8551e7a5e255827d64835252fe21487525723a648f2351cd0bd6d5fb68e887440,
  0x090718e9e6f0b074eeaedba391fd59d5a3ffa3a1ae4ce67f0a56ba81fe4e08e0f0c0179c21415a5679e674e552f09eb0,
  0x0ad3b261a203cfb2b363d4adbf73f286480151106d33218cb712f74b01f652528cdd03d78681926199e4bbecf4f865ad,
  0x12041a96cba88b5b3fc85d6fe4019db9eec6d1deb4d6f4bb822ad7fe21e557ae7d8fa1a34fb8fa920b602687bc3c2680,
  0x10292f7f3040b2597b53585855bddd0a7bb58ab779c2684af03c42a5e29b2152b35cbbc396c5ee663418f2f900476d8f,
  0x0608aa2cceb185ddc90121332eae71b2df4a4b408cb850cf90a2e8967c936015146d368789f8526c991772b690b99cd8,
  0x14ef99862334997e79728d65daf8bd61f906154d8935160ab5a5e63aa49bd936fac42c9041afc60c13ef3a680d37ead9,
  0x157f414cffe1b5f8ac7e23ac0c719f4c6a11dc2026d5e311f3cce20eb97d4bcc2c8f4d864bbdfcb92e0396212e376e3b,
  0x0259b9a8e116dbe92d38d13c2750bfb026ccbc09ce6d9d00b7d88c86f7eb8fc7e2a9bde5410633c599c9f17fa96f2446,
  0x0ff10c29f3b0c936425a0daa1d379e72b6b126455041255600d45b72f6afde4d89f6817edb236c8371aea9726b89737c,
  0x0a5e4432170ff906ed7f099c9fbefbae9b96786f874342f0ba617f98190f3dff554cf76b35632ed871322cbfa363d0e4,
  0x061b28a62b3246ba6591816e91ca5aaf28872db0538e0523c9b3745cc944bf355a9261429f2e53d45b46a2dd4b649681,
  0x1032268238f42ad80bd65b308c9902f6422c60603dfddb29e43450fbcc6ecad7802540064fbc7f8e759bc18cbfcbca5f,
  0x0ded2d704a59f3d177b4ca0768fd7a88d27871615e7b90900179021d992db557a944b1fb944d1b2b454e6fc18f6ff602,
  0x05ab0835c04691c5f928823a7b8568af27a6e73abfc2da8b266a83807188b42449295f0dc5db8c458ffda0a578aac9c0,
  0x046d06d277beb2db6cb9d83c70781d36280322776c7b15fe65a84a7b9023875127fc0dfd4b0b3b7e880ebd1e75a80b8c]

theorem g1Part223_check : g1Checks g1Part223 g1Ys223 = true := by decide +kernel

end Verif.Embedded
