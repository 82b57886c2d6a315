import Verif.Lemmas.EmbeddedCheck
import Verif.Model.EmbeddedSetup

/-! The G1 points 0 to 511 of the embedded setup: each number passes the check, with the second coordinate of the
point as a witness. -/
namespace Verif.Embedded
open Bls

set_option maxRecDepth 100000
set_option Elab.async false

/-- second coordinates of the points of `g1Part0` -/
def g1Ys0 : List Nat := [
  0x08b3f481e3aaa0f1a09e30ed741d8ae4fcf5e095d5d00af600db18cb2c04b3edd03cc744a2888ae40caa232946c5e7e1,
  0x17de623f59a3043952d2f637a935fae14b6dee8b255e526304963d58ab6f1a827c7de623d34d394f8a3d0f57d6e972b9,
  0x03a6a23d2d7f2468340557888fa5251e824ddc71d4cb9478dd94ba9156f9cd8c35a1db612a3735af9d344fd6dd258fbb,
  0x194e427b3195680d4e1125526bea288e65b225fe4a781f0d9adcb8669ed6b7e23c01410d0de891cce8a6baa6e7047ac0,
  0x00768a77d36bb2a27ad79e88c3a6abd02c1e79c5e46132214be8e95f9da33218a45f60f6c23518498cea981d40d410f3,
  0x03b54216ac3c9c081602e834b21549d421812260da67de669152015c3d66962d35faa297b2f80ce18527816592979c2c,
  0x177b94b93ba9c802dc5e7f5df41624b2c911300f77386419d3cd32c77d77caf1f66c6bfca9cdd6e9b7f5235d62812ace,
  0x15c24ae9092d270a7ee24633170b118a1f0f26f2bb86ed2edfaa691eb2eb804090d393d3a53c56d5bbe64ec88cd79c35,
  0x15d2239c7d1a593dad8ac3aacb02955e2a2f66794e900ba2c2740046b3f52bedbbc07c99ad723cfe332840ab7955ef8e,
  0x1657ff73a31ea00d2f2eeea4cb1af24603144a854d37196cfd2c18be88d4b88d50a07bff7f715394917ccbb7074f4e7c,
  0x108d42f9b96290884f63b6243fb02c35bfcb2a28290ca568ae81452379b0aee385f153edb1a77c3a4cafc539230304c4,
  0x00c5fe336f4b30c44215eb8de1672ba11af5b81e40974a7b940694d7e9f85ccd153f3785b2278b9adba4613e0ef51084,
  0x00c2fd8f816f942b26453e2fb0b463fe1a4fe0fba69e250ce84c2ec8bbed1809202212a29151cbee3e252b0560f9523d,
  0x1589bda12563bd5db68c0f666c871736ff680c3b11e52a8ac5cd793a8d0f7deb28906ff2c303f35e868f794c1c6b7144,
  0x02340361b37960c99e43f6eb8ee65b3dc95e05fd9c2af220742073d2cf2e5957ab17d2789e38fcf1c62cbb974877f978,
  0x098dc64a8926a86e40f5a59e199808672db827c6eb01702a3c5dc17390c2ae89b71fd096929eacdc8fe4168fb201bb1a]

theorem g1Part0_check : g1Checks g1Part0 g1Ys0 = true := by decide +kernel

/-- second coordinates of the points of `g1Part1` -/
def g1Ys1 : List Nat := [
  0x084afa97b67781f0f7236f35e02018eac760ca234f0f1ca12bc3a13371de85435aa0b375531f7d4ce21a9a437cff8e42,
  0x0bdbe86b85db135e7a8e3fefac3cf1dd43e7e7ba104a7732b24f2fa99ea8f19865c0176a170fd55a55b26924917bc186,
  0x16ba543a21d4be014b0d2b4729cb78baeb00e825998741a43f71ae553d26f47cf8feb2dc831265254a71d07f9cb00630,
  0x122a30f2c5acedcde8a748b4d7aa124413f619bdeed7b1a6287f5aaeeaf203384193465460368cec96eb09259267354c,
  0x053fb315697950d8d77b6ddd1be10ad7d21cfd83361bae4a0d3e14556716fb87e27e20c849afe6328ed5c84db2ca5bfd,
  0x0b53bcce42d4801b7f850e7dd12b4ccf1b4eee3c9e7f3a8e07cdcc187aeeb787838df80442282aa979860429a3b43be9,
  0x16df2b206df1ba42f79cb0b4190036fb186e0fca652cc4bd5d637534a801bab97c38ecfde9838f596a7b3c8cdfe4b7ac,
  0x074bf8dfd269f997217b04de73537e40c27c3af32e5598dd60d447e869f2e671b3a6484a61e7eb4ac3599e52d0793528,
  0x0e55c382afc425d9fe6d63f54a49f59ddd591bdb868793a519cf3ba7432151895722b2954c93bf16ceeaffacebfb2577,
  0x1697f3d911c0560e1ae0405325d43f488ea40174a3db38e69151a5d866d5c84163a19537859754182a5a76ca44d4b52e,
  0x16ea76ba2a996bc3dc2f28b765659388b0d182eb9d00a60167d48f72aec5a9cb3255afa115afdcfa5ed1b98894f609e8,
  0x129bf6f4952fdb87b06d6fac93030a2712243b9f8514f09bd401baded5fb39dd62e056a35a333709202da6b672e01394,
  0x0f848a7063df8cc3cc8ac04dd254c3f78de22daf7bfcaa051e9b936ccd009eefa7ba44afa42ea7ba9a1dcbcc89287de9,
  0x01da5ddebd67b1a6ed8eb2af1009e3ee2a090b72531917f4349357259c3572fd282dc2fc1298075a28a34d1650d818c3,
  0x0bcce6b2819a1380db6f1bfc0ecf9c66d3947cc1ec89fbfe3160dac0722339690df90ec660bc59f75a172d8b616373a1,
  0x18757d5cc600b1af6c4672962627fb6f35876ea795d1b85f89858f1c495cbf17bc67a4eac71e3974ce9b2e29b85266f7]

theorem g1Part1_check : g1Checks g1Part1 g1Ys1 = true := by decide +kernel

/-- second coordinates of the points of `g1Part2` -/
def g1Ys2 : List Nat := [
  0x135aa76cd22fa5b6ba4a5bd3b316a5a2cd7ae6a0a012a4f1b6a7330f38a27716ea229bd9ee027e26bfe9ac1f393c58e4,
  0x0639399e89b6e2d63085120eec9ac7945618f4e13ce8c8db23f36dd1c4af671b58eecdc2e2b1750a1cbbebda219266fe,
  0x11567044760d278e41248cad59cb35dbf27f779eee7c6021c97932a378c99a3434a26acd86d8705d02cfdba5314b08e3,
  0x17b4dab082ff81fd6dc06c83302865af0a89d8632ec87ad182c78384c4823c0b0e1cb9050916d6d8f2be188266958335,
  0x078cc8c8a22b57acdbc5ad9d253902a7b22c77cf52032ba2f9b60d2d2590c3b87640a22d66f5335c90564184b322b780,
  0x158fe1c8f8c220c87d781f919ccbded9c8b292898e18672919eb5efa66eefceb4af92b9751c392f5bf530d6187ab4b56,
  0x0c0abd370a4f74ce07549721754547db19f32967cc1088acde1c131465dc92ca444c20699d5877b79bfea80215ce3259,
  0x0fa7fd17b379b1479fa0d86d799d913f0e2cd332558f4e35caa05f7cbf630e34761dffd5ab7ced6c8ad147fb8913f220,
  0x026ed93e222e42671237965c6a9b07282dd32e4f08d66ffac3ed9e106fa5ef20c6f2a0025ac40b756c0a4bcccab356fd,
  0x0bfa32fc892a6e3ec3b54fdbadf30cb0206cd4fb666bceef88761764eb9fa05dc0f3e22a0d1d575ff8389aab079c7182,
  0x0a4f2ccd8c86dd51fedbfeb60050f4de399b466135a5044e485bbf6eb160da175a21cbf63c39bbcac708883cae9ec936,
  0x0449abf8cd8130b130a7aa81779cdaf3d1e051a9876fcdc96dd3c04bb54fc643b2bf83ad4e65687bb5ffd5994c44a7d9,
  0x0d6063ac1d9a46b55ae3cbc2b798043e95999ee9c9dd2930beaa96f9271d31cf95f0f044a649537abb2f263a94ec36bb,
  0x1947afdfec552e274cfa24f5517c7fa7acd9239ebb079679d31510110174a656815846995cd4db73f33a1128826604b7,
  0x11928b7e114d7fe8ac45a3e6ff2100607eadff35ebe398eeeaecb95728d0314368cc82c03e8fc87997e5e8ba99af5fa8,
  0x067a65d22960e7d23782051caad7f9f756eafc592cf266da487597f606269d8980d7b44b9ce140082d34f263bc7e8f93]

theorem g1Part2_check : g1Checks g1Part2 g1Ys2 = true := by decide +kernel

/-- second coordinates of the points of `g1Part3` -/
def g1Ys3 : List Nat := [
  0x0561701c931f0c72ec5be59d1d147afc81c0bf6ae743bd07391e08236bcd6be3193bbbc42bb0560aef3d9af120fc7af0,
  0x11d8a07a407e1754a1d69773d2f836d600bf3615697cb9415d07cbd5b4a717a3bc9671c3d24ce66aca08b3c9d15b17bf,
  0x10fc84947250462fd773f4be28f92ca6e8b2b4d037b8ef5f90679ba04ab459dc3986e7e080962fc066d8a89a6a8f5aa5,
  0x149299317fdafae9132d5ccede7207a8b40b6299f4c44220840624f756f9447a723a485a88d77c8785bd13006977cfb7,
  0x096f36b95e17b90988dfd90c23da07bebd3bdd3f916dd127eda4aba152faca0a82036978dc92e92ca5eda327d363985e,
  0x08eb6b03944cb83efe5dda159bc2acd8be7f88a87786731b58be1956f8c268921708930e25bfa12632b847c95b7ad32b,
  0x19d7f27f37e5d74ffbfeffa274344aa5462939848ae70dea4d02c7dc45844572b6a1d71428e83ff12f3f55a4bc27dac7,
  0x0d5c166e8244cb0ae444039fd970b0d1d7e78a6085d7abd0ac435d81edbad1cbc95ddc8f2b11878784789f36e71796e3,
  0x19627f78251046eb7f7ac993d6c6a34064b57251a292233a036e6a283e717de9f4205874b44b56c7909210e4e3e00d13,
  0x066e2902e6f55cd9ea9c7dc4ab550cd0bafa1316d776c657ccb774b0fd7839eb4c92067042a8e3330a3dea4044ad3214,
  0x00004cc3902402ebb8908be5bcf7ca734846e3bc630ea3918743386bc03c5cbaa97e6974d5aeeb5e3dbff71394fe46e8,
  0x199c569852d35bce1a45d1b90160b07b724617a4adcb548eee7b60f90ea7af9bb3a418e1faeee4cccf9cc5adc6f7bacb,
  0x029a86818c6514fee66a7acf18f2fff43687a75ca142c4e477f31e496a4483bf2a2e360c59926d5442768d8f15027c73,
  0x18beb6b139eeeae94542adfe2d0379a9772997ee68f552d78febb86451a79aaa0f63d8066305ee0b8b0edb53aebc4410,
  0x1184330798bca74d236a5776a7ab1b1844d98c6dc3e7958b5b1046eb27d0abcd262867ada554ca202ec6d8efe8a21427,
  0x0c5d7e9b92a2559c00038991bd504ec96f8cfae428e368619dbcff17abd6c7993ed4c034335a9185fec67777b7907563]

theorem g1Part3_check : g1Checks g1Part3 g1Ys3 = true := by decide +kernel

/-- second coordinates of the points of `g1Part4` -/
def g1Ys4 : List Nat := [
  0x10c5da3d2372834b8577523aa1d4e3794c434e4899b46bc181a93d6cb50e58682bddda28afc97e93c99e2d522d3af67a,
  0x0daf1ea4dd88c72978c05f11757e705df3a1bd41a28a45e81b66a775515302daf463d889e3020ad6e0740cd82b13cc95,
  0x108deec3eababa064e03df801854bba9d38b5a701766ab0dab37a490dbc71672ade9ea5e4f32223b95bbb4da36945f10,
  0x1821c59cba24e76d14bd0b148412747c801c67d04f95346c6b0ecbbf249180613c3a68ba09973b0790a3e0fcc2f8fbb8,
  0x1024407a4b522d3e79413bbdea01ef39f412529b6301ef52a474d86dbed2c5f393c0460fe79b0f4e53475369fbef2073,
  0x07677c93545f4c1885278b1c75c308151f563c39ce18b44607b1d9b8bbcd6e60411dc4f1c1a8c93c4d704f5b4b98c076,
  0x15eacd72c78ab0d450b175445881b0ee525894a74c8b2279290f994e8aa92dec39b84881ddbd6eb06c7dc82c16d02a7b,
  0x00305008bb7554b0c13bef8f6ed8c62edf788c50f19851e8e595beea0af4174564ffeda3e5bd8ebf90d3cd821ce667d1,
  0x058d7332bc6434b9e753bc6a5f2613c08ef8906c740242cdf96ff31869d619881d079b59750cbb8c4b08f13abe44b773,
  0x14e1cbe7f0e0acbcba4922974aec47f89b6229dc0afe6cb32595fc08d3c40605cf0ae6bf69701ac48f3fb168b1a77643,
  0x153a193a86b747b937d87488b8794bd3cec159f5d5cb3f1884912f12cfc3ea89ea85081957b466bb70340aedaaa70808,
  0x02a6b3df305d735d4e8b35eebc1d6fefc691d61e6a8579534bd71379eecd0570a6eca873c7d904c941a45de5bb648b9c,
  0x108b3813e6e86fa1e039812b2fa9dc508178e0181df832f95a040533e1008b5efcc26b130b486511f38ff69a30221edd,
  0x12fb62795992a6fb3949b675ba7343f4585141ad724f177a57875b4a6081d5c8ad6aae14871c92ad71a05d311a9175c8,
  0x04f7f0023fa1d2f7a6c0454b6054ed7098bd14028687aeaf7e01e14d41992c3876bd71893d0b44d02c2a111f6b296575,
  0x168e70733ba4304626949d76e106022420195ed2ae9ff1ade34ef4dca1440ae658ceb13da4ac15de9d109dccc5cb4491]

theorem g1Part4_check : g1Checks g1Part4 g1Ys4 = true := by decide +kernel

/-- second coordinates of the points of `g1Part5` -/
def g1Ys5 : List Nat := [
  0x11c80602e3eae87b3eb10a7241151bbc1fcf0a0c23111401ee6967cd63bc718acc6b20625b85468678b0c9f19ffd17e6,
  0x128999f049822cfbf5ead8146801fc6dc2da9042fcfa99c1bcfa6de9d0498287115a1b6dc424f5807ef6c3087a85803a,
  0x0fff459fb2fa890893aad09b610b83cb1d691973dc927b420821de93738afc644b9f53166e40de37ea467f159b414044,
  0x182a5eda55a4935698a01a34e8d83c2bfcaa83196694b4b8384f143970d99c09cad82d15f0e40a5bdbf71d431967332c,
  0x0a96112cc4bcfc6295078b6b75a0b31e3fb802a7cef7354e9841d533c0e7392f10f2d879a8b4962a7fbf1181d01ad908,
  0x111ddcf184b5a56f15525187361662f2b936e437b676382f80085c18325782df5c34f6d8f21d8e7d7163fab753c7f229,
  0x07b775fb86af959902a4afd1dd3af7f7178a4c06bf3cf2d3a1bda809c06d5b9410fc3b5ffc0a96a1888a66b5ba678181,
  0x1989f6268b551c088890602ae1b74295c3f634f5c7667eda7a389706e0c9de35b4c674c095035722e308e2d0c685a768,
  0x087d6e5f39269ef8180f34eb50e1878a5fee893b4ec8bdfc49f0758c5b42a914a3d03f864f84dbef4ac7ad4ffedf27b2,
  0x03e642c5dc27266b2abb051c4132e5590d86bb17d14120fab67016e9c9d2aa0f8acd563492ca57bd10b57b7f3c3b2f30,
  0x045ced5d03aad5ffb329698dc8832dde3c4cc7ae2f2c4a45d03e613840d46c74686e47265349f497b381cd50a9006b8c,
  0x0be9ff6ac7758bae3d0dc975dd740b498c6f7922cb1aebf351aa88611aec5f79eac3134637f69094cb06809820187308,
  0x134b1c7299e28e9ec5b8e73e7bc8f402c5d6970e518b579087c6d6fd6902c677f2637430e8edb0e7b540a703b0c5ebf3,
  0x022a1aaeb8139bf726050c61da2976cda064be0701b2c80683e4d7d4f7f320d45cd2d77648a82d4ebfd3cf9fb0ac67b6,
  0x0ef351b7f4be62d903532ef2c5106b31f6b0089f15cc11014f70835f1a390a5ec34a664c125930d541d85ddf0337b446,
  0x08dc08ea5bc7a630bbabbc1ed7bc2293eda6ae097c4639ecf8df5520aa3f381e04d4c5550055afa3c99690fe42c29c1d]

theorem g1Part5_check : g1Checks g1Part5 g1Ys5 = true := by decide +kernel

/-- second coordinates of the points of `g1Part6` -/
def g1Ys6 : List Nat := [
  0x19e86d80edc67aa7126f122971a36144e3c78e226e95d738a4b18f0914420d3c3744f3bd5cc830d5dcd7a35a5ad170cc,
  0x0d89450cd6a80407818eb004b23a961268090e1ab046ea2506f2a6ffea2b43b67e15f23ff160089ab7e7e41e40adae4c,
  0x11ebcc55e656220897055d881091ab3f436353498fb4b6929bee6eb9c5048991d405411dfb04a3a543747d5285a76752,
  0x10e29bdb1073744364839fd08ad1a699c58f0be5ae0101180477c06a0a64c72eefde3fa704845c8d6b6ca6f91b68a5e3,
  0x09698014a1f2a450b091f7aff91f22651f25c57509a684767f1815e9200ea42cd107fbea8a9cbdb47b2a278ffcb069d2,
  0x16cc03d2b05ac8a8562c6ed50f846481446b83a5e06b5e5d37f2bf9ebf09ee46b85976f7948a2bcc51bca3a69be3a286,
  0x18c80c4c1ff59ec57f2975e162186f37e3df5b3471bee838085faefacd765903817bcfc605f9abbf15196ad45cfeb708,
  0x0d4dc62a49584f25efe4098fd00bde41029d776058f90aba854b5b2a3163e561ad1beeaa0439b16718d8100170ffb77b,
  0x0a1e9af5735d485370be499f8995e22e559e9baa6cf4e20358bc2fc3042de0dab51483b436f1a25b5fd1ace78e573c85,
  0x17cb6c151b154563b23a8b406817f5789a686f88cd014df98e4af4237a2a1ab41a2476ef3284bdda70a71f742cbcf4c0,
  0x0e69cd8f44505f2fde16c0e1160a44d5ab15d3fd44de4efb92de25abf563b8a19e3aebe8e546626447af6c91638b28d2,
  0x069b811cf9b0fe4168db47346705725a4b8038bcd63afba8da60cf2409320ff0e061709780906c88afb1c5b9e4dab74f,
  0x129943f8a016371c1097a3e2c5f1fd3e5690401be193a49068f22d6888a9f6d89acfa45681f4cce270223318df3b0fc1,
  0x0b7171151c40ac2c05984f1a73b26079c6f625804d20f3529c7273c6b515d30afc603aa241e848fbc828297af9326de0,
  0x01a745fb0d73cc175482fb575d64f427fa8d74d6fbd0e64fab1801038f3a7a9927067e5ee9030505cc4b8575aabfb94b,
  0x06c326933155a4dcad1f032567a16be4366c6e5868d274eadf61dbf45eb14b59438624f146ac5845e5d7b02ccf9d6dcb]

theorem g1Part6_check : g1Checks g1Part6 g1Ys6 = true := by decide +kernel

/-- second coordinates of the points of `g1Part7` -/
def g1Ys7 : List Nat := [
  0x065ac9dc765d339b9b8344708e54331f331fa54b747b42bb6dd70f98b0d79571921aa3c1a1908f67d96de124396f10fe,
  0x123879749dcf02fc26a57b363d36dedb2fb75a7fdad12324fd964662957702c51fddb37f61fe7bbc6724e4f198062cbc,
  0x1732699b815691f5d401c6319c377297c4a750ddb83ff884d9c0f4301a103983ce62b0208bc479eb166329b456bcf4e6,
  0x0c0b0625063c2904bfbcfee981cc0590f70935e01738d1b1b6d9196a796ab0479aa01f13312da5e177f8902030ab5a78,
  0x0d605a4b390acabdfa991a2700025a81b023abe14db97748b4646cddcf7511678da2813105280c996266be78dc069c99,
  0x13ebf71d3d5cea9a2d39a64bed5c094cfafaede77c1f36af70358d38adec16ea7ece2d83c83e0b089d6ffea461e6372b,
  0x167c0bc5130a420a7b571af6b53ca76c5fc4dc7ad4de1757003d875fff7a67c4c5b7f10159451755d98f4639370d8bb0,
  0x0179d012615e5b1da26f827acd02c46dd7857d5fe2932946e37fd517459168bf84116c0ea0ed64e61e5b742d948b2d6f,
  0x0a978291eafe938fbcf1eea185c0311afb3ff762e404ea457140df37352d1046374c05040d74b3b351b3e44771ab21cd,
  0x0decc2528580a46b4c9fa1684730d974ed49de56ae5139ae47ea19e1ceb15cca070d0ee937ed9c8661a472e87c104a17,
  0x03b6c2acb1ba9e91367eabdb784419aea426945d89c72e3659dc41d642d779e7ab763086c69243d9101eb89fd7e7b9a4,
  0x13014fdcbb7d405a033feecb232f7148cb8c0ba532ec40a0183b6c0f0085d09561e17b68986cb158977c2fa08af19e59,
  0x0eb29e33bf7f9cdfdbaf8bd551796a0ea6e16c4d18739e3e0e7120b453de971185af3dd559d17a6c173813a117eca1eb,
  0x07a8dfbe9a92e548abd8cb414bb9b78e2f6ad50d578ce124fbaddc9b124fbf99db43d07d5915305f4be82f4fec01c9a8,
  0x1077a033fc6ef8fb6db625ab2e2d7a48c302da1a37dc7fc4e0b3d684baf57df6bc60f298ed5bdd96558843a0df9a0567,
  0x1205401e49e05d11ba3948a1e784f318ac667a46477d62a7f5680607d3b9377f75426b24320981786d307489f916b5fa]

theorem g1Part7_check : g1Checks g1Part7 g1Ys7 = true := by decide +kernel

/-- second coordinates of the points of `g1Part8` -/
def g1Ys8 : List Nat := [
  0x0a1b8534ca7cb81f43950f89833300baaee650cb6b7ad74086a8f517657381cbb641a38419b3c206f2a9d1a74ea19e03,
  0x08be95edaec5c9e02a6839b25792f3d530f75b527f516db9c8f79300442ccc0145eca8f6c3851bc18cc6aa11c1615abf,
  0x067e8c5f33f6f21646c89f0611204ff02d3ee6d6f0a2041439719851f8347b2bbc13fa0555a97db05b15cbde1751ac19,
  0x16bcc24b5846fa4677e8227541a7208e8aa58475deb99deb5dd80d627b163255921a1b3730229f3ebecaf51e1aa0c643,
  0x0f8da4fb72941f322f97419d0943c8fcef23c9a00438490d8b9e9720b062f6d5b93ee82ca90773eb20e12c9724b6aa5f,
  0x08c30237de4b5ba78c633db150af5a6bb1a6d896019c4468c905bf4df6b6091a5ff9b17fd05035c64f1569562b3c84e2,
  0x09f3421f68543d0b67da2ff5ad557f6b201fd04d994e02f776d02c2906b44f6c837bca24914216992d7f9be5d10e2327,
  0x0272b0f5d9f1e9c5228dc5f56d9a0d747da49855299b649b9bf47862ee9aca5f11d131e0dc3b292019538ddf266358d9,
  0x074db20cbee3201b8dbb0750738f56829ce5e5ca9451fff7fceb485581247f445662ab44c9a9f8e107e94a4c37e7b239,
  0x15cc76ebcb7f32aa10b8e084003c3742d27690a4d4836e510ae5ea26dffeea9caf0089068915e28b6047aefee7e9872c,
  0x175624443774eac761e974bd0fec4c65a06dd5970c37f4b81f8545aee399095cf1e94e963f2da92b30e250ab8bd94e8a,
  0x0f64cbb5af8e031da5498246f474e71471e47dd31be64971e4e77135cf290aff8187aec3f4c7b3fe580274b226294320,
  0x13094e129fb70d30a55fba07590e97248f820a14cb80114371dedc35803a347ce3514eea33631b480bf3c9ebb948f70e,
  0x110bbecf132d53310a4ecf553e72e9f4a75c36e688f09a45895c67e30f00263a26ae858f21ae67b07d771341da0bfd1d,
  0x0eb8d6a1e38c0bb613dc976a2b6232107e19f8d065e5bbe4cbe8449bfb2443cf22383c0e7cd058cafaf9afda681a3dc3,
  0x0999c7e5fad6ccfc41df8a0da428f1bde8ea284e7be455afafe7eb7a3479b203f9c5b8ae8b373d886da579da9611cb82]

theorem g1Part8_check : g1Checks g1Part8 g1Ys8 = true := by decide +kernel

/-- second coordinates of the points of `g1Part9` -/
def g1Ys9 : List Nat := [
  0x040f262e6dd1d4b6cd5bacb68ca418dde63e7a0765d3533aa676f602b70da0e1661bef0960cf6a5e23fabab2741c2bfc,
  0x0cb04429eb8e250e2379f7321aba1cd931c03d3433c687d0a09b32db53d77f54672148271d1771b1542a0e5efbc65d27,
  0x0aadd5b86477ff22cbb66c247f249caf7899b03686e8e017946557df74aa9429047c075251380abb2ab2b7b243f41df6,
  0x03175c48b20f09125d2fcdf3204917f3346eb77e627c173d749ccfcfeed0c0c4646e06e238377dcf84c135b1614e2129,
  0x13c8672c12f3a2c866e9d374b16c65f457b4849ab00f4b4a51b6994e345643bae11e2943a15582fb92dd661cee4ce5c7,
  0x0d91f5585df14b9970dbcafc5d92e22ef935162168301cd0e3c8664466801b85cc6613d05e53b3360b7a114b770db736,
  0x18635ef4a8f2bfdda0703030c56d397cc1c0df1a2426795fef21525f4e62ed0caef21b9b93a4d5d4539abfb1cff89241,
  0x142c25825dac027820fd44ca0ace2f261f76659263a146fc11bce8cc1d69cb0b4e1aae37317aac6f2d367ced147e68bd,
  0x015c98bfe1532842c23d7f1f69707537428177574428d0152dfe415673be8b00d86b8e85884f656d276fda902e2c3f12,
  0x0854e87ed5e5e3e840a5aef8bc1db08639b32d6f760ce776019a209fc746bed5daa8ada41fbcf9412aed31650ec22050,
  0x0c02595c2822dc3b80ab03610737324d40c014d0d1e3c9beff083d9a428e1af7d0f2102b8dbeecb5552f4c605cfba381,
  0x0861a8bb4b34bffe3727a7fca21c2036396525877bb49515fa2d98212c09f1704085c622b284fff2bf038afc031f06a7,
  0x0496277d7898be64bd552094d8f8e09499f807c95b5b47cde659ea188fdec377ac9e28368ce3e67deb6a078c3defe3cf,
  0x151855388494697f5a2bbf360d37fd90c2ad9ad924a3843d50083fb41a0115d680016ca4f6aee32fb1e7f1147aeb3399,
  0x07e35a45be49cc1f919582a6aa244727ed9205d5d454cf603712d3ee295aedde92dad399978f532f7b54501ad1138e31,
  0x1056bef1b55e85d6e776983ca2ed53bec6691e64306ef5d81868c61ebd521b9ad1edd185efcd7b429bd7e2ad4693d369]

theorem g1Part9_check : g1Checks g1Part9 g1Ys9 = true := by decide +kernel

/-- second coordinates of the points of `g1Part10` -/
def g1Ys10 : List Nat := [
  0x11323f4b879db173e200157063607647bf53e0d9f0a8728aca1184d8bd00c47b2ea700c608c43702c5aa136decf8ad8f,
  0x0d3d03aea07c48de91d5e4f90e594b4497e5a7305da2b84b23310639e2135880591aab162a44f640f98f4cdecffe3aa5,
  0x1941a885f6dc3bffdf60f2ded598f5d421f7f376b48d51acf41b3bb52e9ebc6949109118d247e930ef2f5daf9980db83,
  0x132f0b80e5645bdd19aeca574077d34c821686263c6f762b69a142ca30618a4b98cda739d9796d2493180c567dd3e1e3,
  0x0c7bae4b6a2ff6938007f4a7b305bbeea8422aa54b8cb31da120b9a7fd3e9b165871880c69bc20ba5d1f98c5f879a5a7,
  0x091807e66682fabf1ec02b1033d8676723e105fec9139f13e3ff57084fe7d147f124e2a01fcac35251e53c441b3b6a40,
  0x0a3a5ac14fc62165e6f25946027c4e4cfd26620998d83fe509de7f249998d211ed568703c7165549d74e52f7e9328d7d,
  0x159d87e3f0045bc66299cd922b863ab2c80d3936e2a91f6b3f9cc2e1931ccf26f9be0c5efc7afaade35ac502a3fceb79,
  0x097ec2c71a03a0caafff4decac8c70a449fcbaa33d41054cf9b7cbd402e0204cd78cc3472cecc7870d0bc19666ebb0b5,
  0x01173ab7836cc8066019c334a9386b210c394553122d808e5171c58c9a06d83f0bfc9075eef65f82467aaa6323022556,
  0x1925255800a2d3a2703c7737c6aea4f32838fa8f78f107f95682f64aa8da6a27b2e35a7c881ebc5f519e621c279ca888,
  0x0a6776f295f884a839bad4431462126dc4f3b83ff9ad0fbfefb3dfc7ed16d1e3cd4eaff87a8bccc50cd2581a52e725e2,
  0x148526b2f2f8bb66d2d3c7abca1c40711eea5551b830b0d5d02001c6adbad2c78e9697d20c094c31323363b14d2bf337,
  0x0c4adac04d1877c4358fe0577d02ed6afd3e3b98a4fbff934f2f3a080929793dfc94f16fc73b2af8094076f073a83f21,
  0x04397f07a8efc4b6cdb99f99707731bb9fc6d381a7072032a578c55d59094e776ca785a73fde7640f469404190bab08f,
  0x09a944e4f262f8ba91f8ee4c0a6b20e4fa02e47c6344185f0473e723190469bee432f85f0cafefec0bd48859f5a04250]

theorem g1Part10_check : g1Checks g1Part10 g1Ys10 = true := by decide +kernel

/-- second coordinates of the points of `g1Part11` -/
def g1Ys11 : List Nat := [
  0x0fd2c2ae28a29aca5280bb9d2892134e5b3ea11dc43cafbaf4e8b7c5e15e9d0ab1c571e969d646c7f584c165bae565f2,
  0x10ada5d71cbac7a413976d6ce0078545810bcdc7800cf848d864d9edc8a0728a9d6048184536037cd914a37b5f838e62,
  0x0d3f27bf387f9c45c7be5d53a3807d25caa980ffaa7937dfdda037dcd13f21d524898186a5edbcb0ee7ba525c6fd3f8a,
  0x0ec6dd4575de3f5225247ac95d6cbf2eeb235b93f6acb1d63eb15caca8d6442b3e06fbfd8b08dcd8001a8f5f10375a5e,
  0x037174594b7aab4615f5bc792fff1dfd6deb9b9b965c2c873eae52999f4c51479e169b0d05ee98386ec5814a5ddc8039,
  0x0324cdb709e42d5536951fbd0e38982f201630342a4d5eba20ad580c514b22c7c28bb01e09301cf9ddfef9fe9688d5c9,
  0x15c8589e05e9abb0e1e84fb08d701fe70c2dd8df8f825ac709b245ffd8397d1de54ea2112bd798fe1d17a6cdf2787212,
  0x11e240933744a0549fe34888085be680cc92ea61bc9907749fdc9891ea192679598aeeaaecf87306fbd62fdec0bc9abf,
  0x1962d68021b4de89bbe999756566e8abc9939da59541088ae82e73977220daf2afcfe22e6aa62f26091a33ab8f2d72b3,
  0x16c9491f95d76032ccd4aaaa6741529db98fd8fd3810ca00ad7d4541b081426c413278d68e00b981646726f63eabdec0,
  0x0ef5ea0c97f2b32aade09e5729431dfdbaaff681fb4f765c5cc032db5849e6e8e808a67a51cefa228306d1c512a0cf3d,
  0x1268a5c6adf125d4bdc0070cd793a9524b86630577f55aad5e439892a05da8512098a72ff10c542ef86ac3f4f1f86a9a,
  0x06600872f26d47fb1d1cadc3e3c2ecc185f6c7c90c47ed11369fde4afb608295ed802c0e27a3cbc0f461367570a32d33,
  0x171e231eff1f41542128a75578ffdb998867306d915ef51edc8d82ad1f9b78bc2ee34c9c3c1ce1a2e74f7dae9e04edbf,
  0x15b4f439f91a7c7fdcbd112f24042bc663002543919967f2f395ec9195f35c2ac679e447995b43a1fdf3409ee4a7dce3,
  0x0d2d64f1785bf494f8584160fe74dfc0164a09d17b181782b4234bf8a309c72a99a3c21c3487efe876ec4f7937f3d80f]

theorem g1Part11_check : g1Checks g1Part11 g1Ys11 = true := by decide +kernel

/-- second coordinates of the points of `g1Part12` -/
def g1Ys12 : List Nat := [
  0x0ef391e2a7361aacc12417a1d4ee40d6138bdc977c1c308503fd6357fafd500e792ec797b0191b1e1d4c782754a830da,
  0x09c75a8ae7bb1b04ff376c7d07b81edfba926d1e229e328e9b841226bbe21142a0548dcdb369658ecf49053b509cc342,
  0x0fbc93890705a9d806a2c28a1de360cb8302424b19e42188d027c95fcdc509023a0de0d7e8bfd92938181b237f7533e4,
  0x0c3986d07f7d21468abb3320516ce79f542bae2e05c19f5a86cb02ac3b3b49a00d9aa84f1de5ce246839b9da323cfd7e,
  0x0340fdcde437ee4b9a33807bc271a0b00627d8977fa3e2a4409adea84bc0970b8097442f57c16e4a277ecaa77f5c9e5d,
  0x02830dee095e4e8e8fcfff593339928f10db23ce1e13ac2aa3c7d18002c587f0d1d15bdd5ff96658a39860b458c41bbb,
  0x03d58e42643619765c51c43c3da2b6deb7d7167aa299e0d9ae6829dca7876ba7375c84fff2a7c8ea2a9778d7d2cc5c92,
  0x0aeaac6ef540786859588dbf18b93b7194edff794422859bec1bba16c25e17451915f5be117e3daea5df15d0634f56d6,
  0x00849a5dfe8dad512dffc40bd2b26a2c191916e6ffcface3296afd8ab46dbe53d8dc836402dd23b7241a094d7d273bc8,
  0x0088885e68a566584c76467e0f09ccc1f0995aedc34a199e804c71f4485c2ab3f441ed11a2f6d51bc3724115061b2b7d,
  0x0a743d1fddce44811d1229bbede1de9f7cadc05429a7b9c8099774ee996b5241ab2a2d553727dcfb18243bf9aa173b49,
  0x131fac06cb9f55f6d3a08f8712d6f88635ec1b23a8aeedc995e6281cfdda19c9a75a0fd172bd498d249da68a6378ee5d,
  0x122537f8ddd8a47b9aaf2cc12fa860219acbca57e2b254c55cbec51a4ccc4febcbe487cef84f6998ba7214a766126c8d,
  0x1200b52df73b7f4dc0ef16394af8bf55a9b623c58b552364599a4039c319c545b559d4f22936d547a4f90ec28cfe43ba,
  0x05a88596a9d848abbd5c30a37ac01f64b0b905128d9b6b61684270819c5b93660bae5ffe8d04fe0d397e9e9386da91c7,
  0x127d5c332f49e779726b03a74f8f990083ef86a149a65365bfdb8d54535ad2cf568ec05c2db003a559d17606915b0979]

theorem g1Part12_check : g1Checks g1Part12 g1Ys12 = true := by decide +kernel

/-- second coordinates of the points of `g1Part13` -/
def g1Ys13 : List Nat := [
  0x012c70875c054269e5ad1915e39142a29affdbb4ffe4b0f3d344f32922aa47ef43f4b86f5f2da9cc1a31a0962703a59a,
  0x00c8f01cffa40a64a11e763ea2d8da4d4295b5d9aa7300b5dc0ffaf2d7dc0465c665b89ac866a1b99bdc5110713a5db6,
  0x0917c9707e13f4da08d751780437566e5eb22e8429f99b5376d57b6bdb2269b24452ab85e62298e1f11b2540d84387fc,
  0x056424aeba57a0b3d87a2ad29681c7250b7d1f81b911df6b47ed6bc9a2f83b387f4100d292216bcc66c47fd504d01f2c,
  0x126d77841c3afb5dd00ccf82c1ee3997d4723c6dd05857c6168da7496f84156121d1182052db288060c85c8a1bcff3cf,
  0x06e3bfc84f287feda823a5e365c82c78ccb51e965d7effe6cbcb2dc43f93d1902080a71a0cf86e60c4255cf96243618e,
  0x134ad6df8049b69b2627e1a9ed843ce57ece5814a9b9f6f81f7b9c25998b6c7fc2b6b7c24548c70971e1ff57f629f642,
  0x03964543f7636dd7b349e06c8467ae2954f95b4208afeaa65450f1d6c412495f9dfb6f9db7e3db6eef33b114ef54c772,
  0x12bb90a01cfcff09f8d1c2a3fb683d02134491b84f4aef4f5bdfe9e612b8b55b42cb8e57e11e7e24d89613aab652605a,
  0x1187c6eec0dac2ac380f7f195fa6731024c72e7c3a5155234952b24139dce9ada7c27c29ecc8f60f1ee0264d04d43c57,
  0x1810b2f62968b1f428b6a4b61fce60a52e8f63eb09946f944371fb3b41192ba4798ae655b23f5dcdfc2dedfb9bdf3aca,
  0x036b2d2e99dafc4732cadbe7f44dfe671936fe7771443d6567476b0f3163d2f31655b0ac8b8064bad257946835f03fac,
  0x07cff93a843682394616b5b579cfbead4111d5ef851d10ea2de5078dafa026304bb41f469b2fd544442a730bbeaa289e,
  0x0430b06eb66896ead21c4a7a98e97563be7e5a8aca4c4a944b6756aefae6cd06853fb4086efe19d658807aca252dc894,
  0x0d0e82bc07446b94726cdff1366a28b7366171bcde2cae4cd9a4ba9400c9455aa206bfab6efc8d266ec5cee87c98001a,
  0x073a41558e82bcd46ae356716652525e8411806b334c2440d8c5777a88d4a54130b87d120c32fe9fd4672488e41677b2]

theorem g1Part13_check : g1Checks g1Part13 g1Ys13 = true := by decide +kernel

/-- second coordinates of the points of `g1Part14` -/
def g1Ys14 : List Nat := [
  0x09021f0c95a00a67cc839951e6f91a3da21ab22c54303d6d93ad290b28f3ea6d995dfd3f1fe99e5a2a8616b84c94f7f8,
  0x0ff3b0b7cd863014a7894ff92276095a39bbf964e90ef5aeb5a7892cae7525f88e9409277909cc95b5806440d39c8a35,
  0x0ee4c3cfbc723eb4471cfb1fba5408a5751ba58d871bb0b14e64186d4c2d2672954bc39c935f3f3d2005060ec387011b,
  0x0dd1ee342593ba7aab86691145de46d55ef6c63eb9308e53f841ff29ac68f180bbe68db20f375ae38d21b0ee6a3b79ee,
  0x049a7c5984db04adc3b1e8823b0b42602446b8dbfe31ff2ff942df75143ae351e56ffd9dfd46b55222872de216e08bc2,
  0x189ab5df1c517ebb6edeade515e9d04dc51d09eb9f676a84f4cf66a3bd4e36e1cc2ee361ba7b3d23ff2bd6fd0efefb8a,
  0x02e817c021a273012010991021c28ad4918452361d22bdcfcc1172e2b3caeec111175e3938223ca141639929fb98533b,
  0x094b5fd9e5d2a43a53c30bb917f28cd2ad864026b4a266c1f89d8ff4002ea6559ef1947cfa882e58e54523dde9fcb290,
  0x14f3425f102ea74daf880360e46d6e21adfd7fb0ac269fc835f23a3c34fc3e4124f567d6e71bac9c5a6d679309447472,
  0x0017b80763473185da0d91588e88ab5ea5b25904883525da6ee39213f020c96577a467b6da64570b4ed0cb257060b523,
  0x0a2bc43958220b38c6d769aaa9e14616b74a681f0676c3c5dd81de0580941028e423394605e682fafd210914da6c6934,
  0x02139d7f3937a74743c47b3f454ac95d7a3018321cc74690da903461f0559dfc82644b26aa51e532999fd9f66051cd8b,
  0x174a2bc95d96b9b8d00f12de0fafd899be0f96f01c4fe78f05c6ee08d2a6491baca5f35c4c4ea74704e82aa0fc4b0c31,
  0x07114349956223ed7d9dea4dcf4eb98c2abef53248467093ae1f74e9aa7bca81ff47c9e768b0c141cf3ea935fcd69a17,
  0x01a69b3e2440e482279aca53703eb9e414c28ee3bab374952c58ab4afe99b3ae77f8ce70b71417f93a2a7b57635e57bb,
  0x18ef8a5b9c7a1f96f4c270d28521979b7ef7edec830516304976aba210c56b00c77b89ca9cb6d97daf94ffad1c77df77]

theorem g1Part14_check : g1Checks g1Part14 g1Ys14 = true := by decide +kernel

/-- second coordinates of the points of `g1Part15` -/
def g1Ys15 : List Nat := [
  0x086aba51e5cb47fd23cd9e3f87feb4d7864052524ab7a8a1803ba8b882d340185cfb97d684a1e1beb9899edd2efb1265,
  0x0c0a747e1d32c77cdb775a7ae6d3a37bac881f716ca71af25d69b70667d3fd2f10bf11b278e5021c7b4113399d7eda0a,
  0x0f2b2d28f0a9ee803db2bb1108de1f7f44984204ad048efc19956b006bf6718e9b8815a0ed2028a792d05f5b0230ac91,
  0x07b18e390a78fce6d4db87110e309735fe088d54614f7411b34205b7796867dfddb108619e1a949eadeb5b5f0a2a9a48,
  0x15c8f82b0c27389269df94abe812482e973ccdbb22ec3c2e719fdfbf2ea40af6488b739617f10bccc4e9adf203fe3d13,
  0x04e3082d6600b0f7cd45e6b887d4eff3614fef9e036bb42ec23c513116828fb09a09ef6f8cf2e39f66fc6ea466b11856,
  0x0752233ea9d2683c4db9ec47f2820906eb21b6f8c6879ff3e88488057322cb602e754603e6d68c011b9c46d72e9f1ac4,
  0x023f1af983552b45c8e3060bd2eabf61908ec501e2a22a50332fa39711ec4a52cae0ce7b03c67cacc4d0334a50efec94,
  0x17bf9037f3fda30430853b2952361659eda5c0eb0543440fa6326c4801d99d3249195740c7ac127d05cccbad167a2ec7,
  0x0e30824449932c101e4799ee02de28e3217621036229cca7ae9f26d889e72aa8e638afd3b577a95850314e7f2ddf1420,
  0x19024fe20530b5c2aeb7176825cababbd0f8e0ab0c500abff96c167261a1395d34462abba1dc485ec463bf5874458abb,
  0x059e5fe11bd85c24bd0ecaa70cbbeb39e4f80472a3eb8a9309f0947d42e5ca1624f18242cffbb328ab5f81d951577bf4,
  0x17b87a8dabc96dda05baba67c130c80c4dd146efb7ff45730c3a5e12fd79029c6e4665395d41b200e4b1949dc62a8097,
  0x1566addc5c1cc5685d10ae082a2917250a67b6c5a51a87554ce46780abf09e03eeaf7a2c3101f2a1c2d4bf90113efa77,
  0x0dd2ca5ffbfc233c5db4894f146fcbf70ac57de8b50a40552de4b205282e6595bb5d41d43d9a440d8a0806c4faf85077,
  0x16811424392f9b653723eefa681b0036ce457ddd5858cbceebe9eea5c0b5989990857c9e907b3d8c8a99bba4d10f1fa0]

theorem g1Part15_check : g1Checks g1Part15 g1Ys15 = true := by decide +kernel

/-- second coordinates of the points of `g1Part16` -/
def g1Ys16 : List Nat := [
  0x0d5efeb52eebcc9a62c5579c47e85cb7cd44b79e31f852c70a6db5a96288f77d7670d0bf5a632aeb5c6dd6c1b85d9448,
  0x0ea05e83a15c38feadbfa8c0375fe996f7a6f88b7369af83e9b2ec58259c63b5017abd27a3448c75a33454da4fa929ce,
  0x08399f259218c4fbf66b35780c66571b6e8b0f0df6681da30bd6d50175d2386a0bcd26dfcb62c5cc6cd328d535355511,
  0x0aff6dbe749889ab5be50ae6928165cbffc285bc5eb8f6a58eb8c4e882ab06fcec06d204692de414832c138e9d9400b5,
  0x19d7c6e79776ad1e608d12135164d72cf0a156c5190378cb5f9844cef90aa38fba3e835efa9d13edf21c27c29b2f02c3,
  0x0b29b9a1c01eaafeb94031d19be4372648bec8690455303569df1560457d6d4f08688110ce3f5e78e6cdc3d4e3ae9b44,
  0x17d7fe9eaec7e3b0395547b6d1c743c8d95be60d6491e73c65d9b75b015fa2f9da4ccb7e73c84f778a2e476c5ecc089e,
  0x18ea6e1541ef9594d8e47b6d5184ae3a52d7c4cb8986aa89c4318297f4a915a748005a4b6773d2d5e3593bf61b592399,
  0x038f22a0044401793cc563b5fb240ed4485d327854018fc623b716125b034a03e659097149fd24a2c8685b7a74269e96,
  0x0e232b94f45544acce6fe8aa3684a8185e783b221fd79d9fc16ff7154183f4780b63b109ace6c3633b365ef87af69e51,
  0x1448a1ebe29158cf25d8c85f2e6046e0aabedd09242195de0710dbb289b87e078de12ea39640202987df0dc7a70f1bf6,
  0x03218d1de9b43ae719fd876e2647e9293cbbef00c3bbf99059dc342315a3e8d2547843555b084e4db6d15b79a8791f5d,
  0x042f5bedb09202a9f886e0f9ba31db21c0ae3f623499d2f0847891b0cf15fda372a77656552c6f57bd7696e0884f6d60,
  0x1072e9f388c75c2031bbd928fda8682397bf82abdfb7eadb119ddba040b805888ee5970f597c62e09752148c2a159e22,
  0x002bd8c3c7ede5ca1a1e0b091c10142be4d43d2406a25e06e33781cea2ffa475ea4eadc3fa671829e2132194cecf273f,
  0x0c8d2d77ab052b6ace9c76047af0e7ed5be1f3b7fa879e5706cb25179d3e7fdd53302568f1f3d3112af3cbd6c6e0e5fe]

theorem g1Part16_check : g1Checks g1Part16 g1Ys16 = true := by decide +kernel

/-- second coordinates of the points of `g1Part17` -/
def g1Ys17 : List Nat := [
  0x1761855c8e167a35edc5803abaffcab861c507fdf96ef4f766ebfb81590cde132ea4e02126d643efff73cea2c9a358d1,
  0x176eb6428287f8bc8f8d15207f5a7b036c6dfce30ef2446a6ceb7dd31883ddcadf314b2c62f6e09e771d7157226ce332,
  0x1512efe043161b110c3879cdf74dc55bdc4597927bf8e73e54000671e408969596683986dbdfb08877ebc6046fd5cc02,
  0x07b0b6020e1e956d754c7664d6016df8dc09fffc9a3f511c714c208ae088e9fad6a79f687e70e49f0ce36512e7f710a7,
  0x07727dee0aa5efa8f68b170c7a1f0663218db8e62ad3e83d559e7f094aedddc4d58cb84aeb11b155fabc635b4de22781,
  0x089ab144247b929230597bc703ba8010e9c6caa58ca2c49e6de0d748c36b30636fa685ac6de00887b256dfb5af890737,
  0x0769c920b392f47db37d9e63913300d708861e33b2abf14ec26889082a0138c5ecd1e39b558d2365f6cd74147ea1f38c,
  0x028c36f8dd222833551c4e6c4f352d4042575797bb92805dda37a82f2b8d0a84d149357dbce0d00ce8305a20c98074d2,
  0x0994dc5e44d2fe5407cf29b85353600dd6ea12539211873792f570dbccd4c44ab92c67badbcc24c0e6c1e3255a0c8b10,
  0x041f30ede0eeb37f9317df616625363ce0cbffefa4dc5d13a751bb9364746ad36cb0bbb97b6e7967f3d91559c618e70c,
  0x0c96b11873b1241589954ce196f08e3c665b90e82a670e5d9b746b419722b0b64e4089cb0a8f035b178261cfca3a29f6,
  0x131319ca323a10cf518b6a739b48ab768f3c392c761d949fa868452628a024cfbfc4d5496656eefd5f527c00984ddfe3,
  0x066700137b1a50e4156981bad4ace917999b662bda5d595f7537f898a9c47e0d7f41a8efc903b07732bd5d93ff179ca1,
  0x076191183063984489fb4dac52060531ce199e3ccc9d8912a4b285382ce8c2308a26982876bc9cab31be1ad0d597e921,
  0x0a02dd2d0bddae66b6e449794f947c175f27801ba1a5208ed17eb35cc9f9d3079f6ac6450a0262826c16be83260274fc,
  0x149a392d04e0d17a204a55b2b30ad664732e2b28faa9dc45cf396983a463d6418ce9ce43e9f9c5e44a41fd0f0b7df6f2]

theorem g1Part17_check : g1Checks g1Part17 g1Ys17 = true := by decide +kernel

/-- second coordinates of the points of `g1Part18` -/
def g1Ys18 : List Nat := [
  0x06f9e4605e3c548a1660cd7e8c94578ed439f80c7934c3d5eb5f8202916d3e2009f0cce1089a14bc4782cc20847e4578,
  0x0d35144f63a8e52922c099a4636dcb5982efd8b24f3416971b8166322c479d44848e9a5731169194a486c7144e49dc0e,
  0x0330524d63dd84ec20679f25a873055df12f85e383aeda8a7e2b3572714c87c331eed98fd068821a8255ce17258a1110,
  0x024efe14037f1d2d479915ca1aeedeb8fd30be996063cdd57f4d8092fa698c02e5746d7d05b1b46bda1f4bad20e19068,
  0x1875b29caead9837702ca67e24eea9dbaf8cc0706ed1138af4b8c97e178dfde57f96329f23fde54e40dca7e6d74053c5,
  0x0f76b72a23e659f05f08eb8e25bab620450625d04dbdf3215b55fa553a1012e4238794c4693cc9b762db5ae9ed79cdb8,
  0x07bfd6134fd9f1f48ad3a4e6e0b6706018fb5b7d193a214de90b148a0ecad7a7b14857df070b1c8cdbdc57a5eb180a31,
  0x090bc56f01118321786ac8e1179ba4c40e59186abd4f9fc685e9cb2b5cfc5125c8c9f722e3284f05cb710b0a89c93fb0,
  0x0e8957556d411cfcf49bd355f00c964f2b8b1621e5a97a7e10e48820580c8cb59a1e5393d1d03bc754eb604372690491,
  0x07a15959216787b6caea91dc2644b06b028b5261c6dd2d0c135c5fb793b36738bb16921cb843de425cdf4efb1d78c04e,
  0x0abb8c8455b386f740883af3baecaf388a3e5d24f20f81aaae342beb4da0c15a4c31ec5f54012042f6e2896a45479377,
  0x13825725910a4c6e0c2ea65b98c882b9b73ba2c12f5a74a2569eaec71d81a7eaace684ffb1fd94c4a11b816175de616b,
  0x07f0f4f4f75ef2ba88912446481bbd420bb563a710ea3eec93884de56a1e9a7a6c04c5100131ae2b474c03e1c8f4d720,
  0x166d3ee4796d91ec751638d90fdcfb98deaff76ece2f80fccd3c62a79502030a8d9fc658da31de82588d43a3c28f1dba,
  0x0fa91ed672a0329d94782944c9736712ae7d8395277a915bd83a1df0c6dd33828e9b1fb7e4265c85c93b30aeac1318ba,
  0x0c3fc168d12bd9645ef4939f101227aaf4c1ee13cb8902286f5e8d95df1a689b7b6f66ac3d707991351e3b6253e11b98]

theorem g1Part18_check : g1Checks g1Part18 g1Ys18 = true := by decide +kernel

/-- second coordinates of the points of `g1Part19` -/
def g1Ys19 : List Nat := [
  0x0c72e327f3c17df6effa31e4352185f689219bed8dd7949c38cbdd3c7ded7e73f03c3c4d5a7f4f54e073f943e017ea6c,
  0x14707ad290106ebc0e0989aeac08615420e67cf1d31fc3b9be3b50a732c3d7f2f22986c402001c120e078bb324ece892,
  0x08b54b8267b6361315b49813eb0b4657141fc5a68fac6fc6fa3d48a9a2f5c488c2ef3618cc84e191fe7dff538aa6ce56,
  0x02453c3e010960780dcdfd5abf7bf68088e7107b3d7a479a339f1021b48ffa41faadc8ef20f01fb38eea59452e8207be,
  0x12ec418c2af9508941a9de228ebf228bfe2872180d63e614ac954cf025883df172301328e55eb4bc37f7f410657c7404,
  0x0cca3b018f01b77b1c2cdaabf7d8296db5c59483d69d2a426925632deed910ac0d105cd4da99b7a8412b778f9eb9226c,
  0x0d75d564d4312ceea3a2e5453401cb77519e3f0617af4c9caa4534e4d46fee3e4b26eb0975bd7d99f8f01f6272d02628,
  0x10493b81a83db7bcc2fc0a2d5bf19197a20b2ffb9e420097892b017be21c6314983d4dbc305ad8ed1eabc13064baf757,
  0x05287c36525dbb4df446dadadb2bade42ce7b435575957a2519336edc77087a8ac80e7823aa19707c4ba34e2977ed215,
  0x01d169eb2f678322f7052cb7ecdaedb8f745bf1337a194251a106e78a8afd424b82a60e6816aa0f2a5fe3da6ade54a10,
  0x169ddbca3a2c6ca4130e3e114f87c104d26a5a4475de858a958bacd7d3ef071852c03c2d04ef3a063ae06dc3ca6d0bb5,
  0x04e5b2ad6f8a95f7078a0442e134c8d0638c09df8a47d7a134f342c1dc829e1ccaeab20f0fb2d071aa924af01928fd0d,
  0x0a0fecffc1e1eb7e30fae954d8724c9f96ccce3b1a642461372217ff2abf500aea9ccc455f35dc66cc8b761f20584c18,
  0x16268fd791e4f63842ee519c9fe81cb1497d123b6557f7caea730b32ba7ba63c2624b3fd8527367f03e1ea302dd591e2,
  0x05797c8e1719f92f783d30c79dfe420ca7c2344bdce2949b8c54cd660e6323a9e62e9db0fc532a2f13f76b44d9199a5b,
  0x098f0aaee0e9bfcf306e7d174af074c233d6c04e494220b457e19bc97900375d59ecc9d6c76db623ece453b88ce2f755]

theorem g1Part19_check : g1Checks g1Part19 g1Ys19 = true := by decide +kernel

/-- second coordinates of the points of `g1Part20` -/
def g1Ys20 : List Nat := [
  0x0e0caf6532d726f08bd12c9813f9c137760acb054a6944092f9be0ef60c20c803d782e6e39663e247395fa3bdfb08c1f,
  0x09ac17d27da7bb4f0548a64b8c0f2dcd5ae6d70997cabb67d00d190b17e4c552b7aa05ef343ecba61a5537c303858c07,
  0x10e3f3823e4bfe696f6bd720c0d77fc8e4a4021a99bdc48c12a1902083bd51df6ce15c8edbe4996279c240f4bd855955,
  0x1745a7e87cfa6b1fe4d99b8e9940d0aa76e52c7bb920135ecc25540aec81de7633da39fffff0b42cc02dd5df03170451,
  0x11a256b48b99d84d4d3187a8ce100cca52147f01ea5267f420aeb6cfe8cc00a8424b7b4325844a10bb7b24d91c16ece3,
  0x12c810fee4aa5ca269d3b077fc2fc00ae084010e013c1aec851d985b2714dc45482991ac4765d7547899f49797233c05,
  0x02880c61507f28874a53e277599a5745b256bfc9e39f6aae577064c8ed213f426ad5599efe244d2d8f35127187b72d53,
  0x18f8ef30ca70a05de42d64bce95f000ad9fc9a2891d5173be15b17c2324a7f0423c45016b3f7dd04ac010cea47e3b724,
  0x0143081d6eb270badc5f9d0588cabf1b6fbf50984172e3f8b755fe7df74be4c7fa0c0cac9b59ced1b9e0b77194ca1081,
  0x109148608eef152bf0c4272ff5ffcd836d0c8a282c549a621fbe03effc657b39b55796cf562172a9ee92a8d5779e2162,
  0x089f279f00be4e4ab7e5ba242bb0e4e780edc74d6540c9d18eba254d634f53635de9e7a64fee192cbd86cac9c62ba956,
  0x049fadd0942f70b6f3b7a3924aab13fa4bb29a5ebd442c3a38cfaa786bedb3a1811ca28039bd8dbd35064ded55ec9c9e,
  0x0bfa88ba6fb09c6b3ece98b5a3af08aa4713f6e7015c7db13e24561a9215af77c35be3b76978596c4e9a4ae856bb98cc,
  0x104e071b1910ffed54cee7ed0036d70d867d3e81f65acb7f84188258566ca11a0bb707f2f133edabc38e558b2de16035,
  0x179687d98e03f177f5b5c1c9ec1a634c7da26e68347a28c269154fe630a471b1e6c5e47d2d74237642600db8c3b99767,
  0x1869b5be64ec650cb220ea358c03e8c865b83ef6e7044961351c973daf98ec93731e9063f7e2f526c0031a50019fc705]

theorem g1Part20_check : g1Checks g1Part20 g1Ys20 = true := by decide +kernel

/-- second coordinates of the points of `g1Part21` -/
def g1Ys21 : List Nat := [
  0x06681a3d7a2fc2eed95ac35295a1a9d4925016e159be8ec96f0050cfdbc117a9007f45d3490453d929650ad0dc79e839,
  0x19fc8e814951d0290b8c933b5aeedbeae0d44911e9caeef457434afdd34731151af9d6e7708ef7dad337a95050fa28fd,
  0x14d1578119b242d78b22be4366009974a9523fbb28a085e3d8ba9d73c375ec07d10060b156c7190aedabddffe80fbc3c,
  0x0d82bc4faea0913017ee45900016e4694f14a120f1a80e26aaf490199d5aa5a7e5eebeb756c88bdd7a5a4df75aadc6d9,
  0x0c1cd41577b590c8c89064a73f94652dd109e8fb8141ea6036021a2228e2e0e9316be05dadce3fbf37c6ec4b91f6822c,
  0x0a7297d03f7b9319c5024bc27adae74c068cd5d8ac4bdffc5bada79a73b6c983897142caafd316d3fd31281129adaed6,
  0x0f287b67b831e4127053adf7128024f47ff7c03a46dde90fb4dc9b43854cda293f48dd19002171bef6984d41d6e2a935,
  0x020ca185d39d3c39866b7dc74f1b7fabe3f14d219bedb61325b28226aa864867c1977efeac7e44e2886eae5d9c07da04,
  0x09db2afff315eda19feecac2e50164b947ade4e1c89648eb84c06bc87e37c41a3bad4f93bf01d4249c022989908835ee,
  0x16cb95a2cf30965cc7348d540f540e80becb1e4d0e114c4d6c69b4c250337f6615e6fbc72f97481a108c106158b74de0,
  0x0dc99a5df62f2a4d4ea87e477cf8eb6eca636cf389f6c68b63eab69a097f2b9cd416784f8b3e6a1a53062d56c8405d1c,
  0x0f641c6ecb2135ec51ae3b917ff7fb7f1bb3aa1efd9264a5619bf27b11e11516e814c2bcc87369e636d7042c2ccccda8,
  0x05deb74ea6356bac0a96c1e4cf8b082e08c3e4dff1b192c335e1ddb7852724d9b321530648d1198d8f25833fbc458d58,
  0x140deed2c07ecd681fcc1b3e8674512b0652fa5dcc69ae4e5c371ca940f513d655de6a4ea69eda4720963c0247cbc3e0,
  0x092bf4fcba7057ecac5c43e7a5df198c9dfc86d4faed394f9bfc6c5106b59c82cd2ce4feab11935894491d6b9481fd5b,
  0x18066ef8b7649d6a0dd2d42581ea6e977832fca92fdca4ae10705cfe0f08961e3a97c2da89f256a8e45afc60a2d16141]

theorem g1Part21_check : g1Checks g1Part21 g1Ys21 = true := by decide +kernel

/-- second coordinates of the points of `g1Part22` -/
def g1Ys22 : List Nat := [
  0x05c0672d16ecd4017489b8648b4c87ba0e96b671928016d1fc583349f8979da993fb18f71fd7fc3836436c23914f503e,
  0x0069d9602487b87e2a35b22ffa6de61d7d94fdc982ff4fa6551a34e4cb2d92ec507433586f3c1d3402577b800129b369,
  0x071b9000529677a2d18bde8e8ea37087bd2d2f0a679d254117a0c30118843ec400724fe6ba279755e6a2a9efa3d83c17,
  0x137d1736707a12fb82b090170d232c62b249e8c5de634856ab8a6723256ea5c964d07090aa6af7d0c8b538944aef9ec6,
  0x0791a388ae5b8af1a390ef6d3a9179ad2e34a1e69cc241f3e0804a0a9086d596997f065745e02b4d773af7e6d8106662,
  0x14372dbe843779fc39391c34290942ca7ca160bebb1981296afe4ec61046f14df8de3e222336f3504ee3a0adcd456467,
  0x0c2d3d62505bd4d9ae9a8c60c4573ac1159c776f9b46081beb681f1c77f56b4190ef3c534ca194da52985e4ccac42900,
  0x0a43168d529a9b3f153b03b78be1eece88f108e1b2eb136fe91efeeeace1d765845bfba756423c72f960cbb956412f53,
  0x08e61e812464b6db4d89481b6d45af8269726dd1f412e5c4463d6ea8120def1c0795920f327c2945b9a3c922fc94c82e,
  0x14ef3e763e0b72410af14993168abce3675f635bfe298d6752ba97e0e583509731d468b9c40fe598eac8a593682befb5,
  0x169ed62d83d2a55166ce50d31448373771cafcb8fc00da71942e6af7291ecab91e2eed4c95b92a150a49b60e3f120ea3,
  0x0c4e0ac1bb556a8e792b688c8ce534c1becc9bc330a3e7426d316b1d57849a2d680c7ed9ee82cc00c53da7dafd432712,
  0x1477bf3c300db6b9b540f2cc8c67c9105c8dc4f63d7a4b40beaaffdaf51a7b0f8d1e93215757be26165b21037bedc3d2,
  0x0b3e3cb091978b66fdcdf6a60de8b4d592b3fc54e870c676fa4ec5c8bd9f01de34531f8f08c6d81caa07e0314d5e7ec6,
  0x0d004bf94859fa0aea610f192f84f9fb05660e5ae0f0980e124189592d7fcc44ab699cc454149e28c6407903b7758d99,
  0x1102b171dbe0e53111b3b2250c859fd9b5ab742040af3914f1081f32b785f19345fb79d388daf4d92f85b7c4e29fef72]

theorem g1Part22_check : g1Checks g1Part22 g1Ys22 = true := by decide +kernel

/-- second coordinates of the points of `g1Part23` -/
def g1Ys23 : List Nat := [
  0x0485d57f4c775b61db3d008828d5f7c5737a947b13080d9f75292833089379532a2636c53684308160bf575894310c17,
  0x044fdb5c1de0d03067f5ebd4021219d268a7ebf21c2447ba649928136beda8dc4090c2ea9e01039708be11599586720b,
  0x0cd7a1aaa4bb37df71f1b51bbebb2aae8eb3a9e57d94f1e49612c239c36009f813b84ed9183dbe44ef28a6d7bb1aee98,
  0x03470723611ea014b8e7afa4a916f00b1b5bc2f2ecbe0324285c057b1ec1d54c6283b1a91d8d0c5f7fe5e5240b960359,
  0x0b0493fb21cc065ca45c2f21812c0c00711bb6996490ec99dc7910e7ed3ea009093e4382b8f6ddb5d456217463bf3126,
  0x19b23772ff20dbebffe384a380c6b3c2475fb2020302d8803ce916973b0e159264fe8ea32a85fc8be0d901f51424fe80,
  0x01130339f51ccd1e7c734683729abe8f4576ae267f1c8e72725c9e38b9b44b6dc04d426fddd89eebf2449e7e66a49957,
  0x1133af5357e2c75e623ff210893448fcdfb29130c7b6f14e688d3daf9f0baaa4ed10137626d3043c5fe402d9c6396f0b,
  0x117ab06b02c888b4f8a65c84b476287f49be923f87c87d510ea2addcb47149ae391cd39cd47bfe3197ddaa92fb6ab865,
  0x14db4749d9467d7e42b9aa06217d56a13e23c9707a5847b45f4008c3683ee369f1dd4efeafc343d246b4e025b810ea68,
  0x096e4def379c17edbcdd7882d4549224b5cee81254153f5b2a30c851603ae202ddd0e7ad663e5f577454ba7b9cd1bdc0,
  0x15d34fe97e160eb839465d0f85135a70b160a1d6e990ddbcfb17c7c8f5fe7226c6fed31d575261712f0ac3da2faba8a8,
  0x169727f30464e1e10eef90fba88195cb03f7f01784efbea0d1d9e20d57b965514286c55804c4f12f8a5c1dd4664c1ecc,
  0x0688e735b4c793480d5782726a0ba712970d4bacbd786eea774ea69af12701d3c3f61276891cc153369cbec12f457e9b,
  0x0603dc2967f0d0750baf8cf34a15a3469b2175b05fdf85618e115e7f7e2711f7c956afe26179c76ddeebca10045262b2,
  0x0f2484e13e64f986fae13ebef8936f94550cb649a663e2b9d2ce7cded4e66746e46e4a7332070050cd2157d02bf687e8]

theorem g1Part23_check : g1Checks g1Part23 g1Ys23 = true := by decide +kernel

/-- second coordinates of the points of `g1Part24` -/
def g1Ys24 : List Nat := [
  0x170d93c3ba6f2268d840790cf3eeec641dcbb4c3bba24a10bed9e1a4b8281ce476e1b8ed077e13b3a1cd2af65816fe76,
  0x16137cde8b0409f0aff3b0a11d5a2262e6d9b4ad6e50b99c9f1ff0ab4eaebcfcaa9ea0ae175b79b02fa69f8b7b007a04,
  0x0038339e2b239ce75fa1e2bdfae08c860c5ec2322fb1ec1a40582932d52ea5b5fd8dcc9a8543fb641a84a3adc719541d,
  0x0d01d0414fcb0bf8df0933908c21ba0faf0a3ef637b0624770068ca87d4f469a6619abcad68738f01b7373807bfe21f2,
  0x044a447639d2f8d14873a68155442ea4c4843901900ed52d448abe66ecc906f0d267144ffa4da2b3cbee14324c2fdff1,
  0x0046e19615d14c24f59e55346832e0983225f9341a3e7ecdbbc9cae48a8ec3cbfb4336c2f11cc70824b344dfb2e7ed9c,
  0x1217ca8d7ad2979be94ef32d486ebe369b9c7e0eebe345bd67d4fdae248a9877a6e0b229857b5d297526f60e3b0d3686,
  0x012f9cf5a2030783d71af81334d4ae950b66a9d9dbff7e30614ea574ebfa3d82e72225318a6af8dfc6122d046c24c74f,
  0x02fe2f64bb7a0b726dde2e38c6ba6ba7e4a6078eadb749b3d9d07d19f0e65a696a445c058de90e1179c4e1c7fd8fab51,
  0x133c62a8e61c2be4237d3b12e61e02918bfebb7944a4b559260d487723441d89b852d0542b85f842c2b8b25d61bacd3b,
  0x14d545c82495c45afefab62ae4c8f62663589d007679ad6d3811371fcb6d92e5be86387541b070c46905093e8ede805a,
  0x11d38db964456dfea8f90ce4c1a274f7aa52058b7e625980e451e8543a13619e17d69c235a7844ccd683e9d7cf5bc51f,
  0x148c33d47f0952cfa074cc93e2ddf446e43938b60298942383edf163cfec18dc8bcec30603f1b0fb25ae43f085274c2d,
  0x1738d61b4061fdb94403560871a0603c43cd62b29a90037f38b04ddc5d0e1780c7121de2bea05be07324dd31e4d1fdcb,
  0x169c4cef43099673951f5d137f1e60584b6bc74f6d7047b6c1022e045595ad580b54ba19cd462607ca84dce54b933b85,
  0x058538781da7f40560a22ada3e5499d557d906da03e534d0c6f4f11406130e3820bc980211cb3ca0ef9dca3fef2d6ccc]

theorem g1Part24_check : g1Checks g1Part24 g1Ys24 = true := by decide +kernel

/-- second coordinates of the points of `g1Part25` -/
def g1Ys25 : List Nat := [
  0x0e9504d4b208c371e27c3a067606a60b3127e4654e70ae2f93fba7fa294ac76a214839f4a79b38ce33ac91fd297ebb4f,
  0x088080dd2234e0ad3b0a4f2debc670d71a18d6fb5390d6e5ffe1f78be06173d28a25d544bf37e1965349981585db65aa,
  0x02b87f7b3da15e0bd59ce4d51588260848a7b3240203a2ad2451940b2c3154c508d223122fb57e62c661f52314e6c41b,
  0x145d2407ed7061dc595503abfeb51887dea02ec78f559bea6721c333a76554f802b4800b37940639450404d820196d68,
  0x0d79546c4a8ac25fbc9ef37768a2e2ce97385216e2c75d0d67bb79f04d86dac063bbddaf9b0bd706928aa9e1c372092f,
  0x09d46b29da4884f5a2de48a46d4dbabd7d7ed933caa9536a771ae56fb001c136925c48a143205f10201ace610d055f95,
  0x15d94730cb49060235fb6468c66129175cb9439b044af5f55c20c11b0a42ce98b7ee562e4aa8b9ac3722358570fd9b97,
  0x0fd4110f0cd811ac0fcae9a6e168f1e3a308f8ac1a775ec84f44075251c2b0de066b7a433302d4a4185d7528407b3a67,
  0x12807d60053a560e02e845167561d6e994ff4f9390d5005a41fb71c915950116c1df4ef297fe09e11b1a7c624fc4a291,
  0x1980e6bbf3c345405521c0651fa68c1cdda48bfe0a27a96e8a827eb30d031fa8207ee8c6edc259090aaa500b330576a1,
  0x0b87037d0b25f9f9dc9cac54686d6708abd77e1cadadcdc6dd257c6127f309c66354be7ffd514743f8c4512fb57ad890,
  0x0310ca63f61d5bc5fa03306f865ca716cbfe919579f4ac4b59e2efdaa7c745afc4fe663b324d726c77e804be4502cdfe,
  0x103f633a726a8dabde66a8daa88ba3b64bd1602d4d4ddddd5e9a30dd4e5c0854314b73c33094078a2ef5d676fa263753,
  0x07147606826d1897bac81fed5060388a0aef6f7b96e034f34bb736267be9a3c5045f2d7f6535dfca6f75f6ed8d0311f0,
  0x0e8aa344e58930b6c72a87d672966f22d320c19e91434d2e029d0a6bd7e028f9bc26d95b5202b98b226c60f4b90f1f59,
  0x0adb586a79c97592e41cce73c6086d3fdda310ae132a97974c4678c8151bc8acd1f22db6f8b865e28c07202157f457d1]

theorem g1Part25_check : g1Checks g1Part25 g1Ys25 = true := by decide +kernel

/-- second coordinates of the points of `g1Part26` -/
def g1Ys26 : List Nat := [
  0x096ca02162996afadb226482f6eb63b18ade318ba91924c8b4edb14a115e92d9ff37889b32c9c328116f127ecc45c816,
  0x1505190cebe95f130191938820477e32a3c02a66ce65235634ac7f68a86a4107958681ebdfa073c88733c28d9fd5c07a,
  0x059bf08ea93bb71a8488614071ac3248eeb301751b90e956e7c4b2b1a4af380a2560ab5fe1221bbd63f72338ad5798c1,
  0x11c9c4b019402d97b58cd539d2b5abd8081baee31ee09dd919c810d3e5e603fac433fa13362bde9ce2e94804c68c95e4,
  0x10e8c1af2d58306551db9594e143786b48b9ac43cf5e55d5fe72bdad80b50031d699e9d5ce7f715206c2bcb4f017fc83,
  0x05fa929fe3f02a7a46aabfd2ae2877e03f8329a69da5544c20204bbfbc8259762d491d94db37f336fb5da0fc2bb35df4,
  0x03f95875d08ebabfb383f2345b12057c117723eb70bcf1ad40f74363d96fdbdeb5877373fbb7f0559d30d2bd4f0a0a52,
  0x15539b285092bdad31ae1386ed7398987447cccc0dbbb22aa99be52ed53c7bff7fb209ee1197882c9ba184f4a2313b16,
  0x15b84d697110cb09f44136270386d1659f4db46ca2b5867ced9a2e5e6f33c5e9bf0b84f55a6adb68c2611c5a6301a32b,
  0x05a47c5be65b338f64264ebd3d2854e706dc959020f7dc0aeed28bd9ab57cd746091b6fb66432d0fe904533bdb433789,
  0x0e1523c8fa0dd8f0f2a81905cc5fa42027b9e07d198a6dce39067e28c26b79a7510bbf06b5c7f0a801482feb59ceafd3,
  0x095eadb6885ff2587009040abe9d873372c03b35ae58b20e6c4b1256383148c49bd4543975a81211f41e0bd9166ac649,
  0x0b3f91eeacf0df38b67540132b4f46664574e13b2376f5064cb6ceb522e628403ce521581ff724c40d4d691dd5ecc504,
  0x146f7e77cccff82f390a3d00e3116e2a1dcb689a3bb34872a2413b3585e0f0472e364be35342c432d3233d635f8ba01f,
  0x1475f3c37cfd9e30bf8bf081b32c9396dc2aebf5e5af8bd35e05fd2ff3fa7feb205d0f0dfb99413ee0884e3ba4ba0abe,
  0x157179963b86d3773b372b582770a24eaa7ec89ed362502425a2ceb31f5c58cb972d4dba6988002b9ace84a6b6856597]

theorem g1Part26_check : g1Checks g1Part26 g1Ys26 = true := by decide +kernel

/-- second coordinates of the points of `g1Part27` -/
def g1Ys27 : List Nat := [
  0x1701f69cbe1276540730452bd3cd8dcd3ea3a865cfba0095192934ef40600168c99f6d20886917fb05a6b5ca7d172275,
  0x0da8468dcf59292e2098345731a056063b9ff6075e0efd66a2f75e8900e965df502708e68f686b28d2e66012a0710044,
  0x0025f7fad2674e35cdb56abfbda045d5fafbac0b595fd171b8efc447034cf6bab7e4b15b94b4ba6a5a47340511d5894e,
  0x19577839a8f2b79c2ea5d96e54300f1aba5fb942b3c63f34385a240a13d414d1743e6f367d96250285bbb0f7c7abb16c,
  0x029c1579fe966371972f6b50310f471d5e97bc7e549190fcf1107cd4baafe28f3df3c84f4c1e3eadfdbe91ca939c33a7,
  0x0325ee07e5503258f98e5ec7cf64b1613840412140229ce5e2d186cb8308530ec162da9caeec87a4242c21f7c5e1194e,
  0x11e822d513f8528bc5d22d2430e67e558222db40c67d19cd7ef37983f41b07143977c0d3d539c504838cc5afc5a486bb,
  0x191b2cc0c09f2128dbfaf5f9b03a065c48432b56c1e279fd8736fee46ebb379d30bc72c3258572566d7b64ac9e1397b7,
  0x11ee0cb791b6867067a64ba21ecd965ccf59d2ca3df47a1628c9daa18dee9e1d22899ff0f640e71d474148325117c840,
  0x052c04e13f2d4fa5087d831ec016f621c8abfd17adfa9b3ac0258a456c470748bfe49641b5d406a07cf23ebc436a4a95,
  0x0b9c6c78248584c3389710e2f4c95e44142b5e7b4717c9d248968e4b54d03f8245877ec92de567f9cca67308a3bc8e76,
  0x19227d28ced2b9ba9f24183834f47d0af1639c65256e062623b2139f6e8fff41d5795aad50f3dcf73a81fcf498075f76,
  0x162f58ad76482db334ff60dc33010d0d7061a899c74cbfb0c41c968d72a93f27b3df20166b86b2f22550da59d94b345d,
  0x03e291576cc9a16f10f7e49393da2eb61339cef2c2272afb992455f32c83d20c5d87d841d1ed3c2453fa3b80b918b099,
  0x0e715042d7931e693fe4a232ec8029c571d93ad98837223025cf24ddb21e24318609508d52095b2d78d712d14ecd8c72,
  0x113075f501634d3f33a32dfd137b536dfc4b2e689050840a7cbaf23d0ecd748558045b184262157464109c015588cea9]

theorem g1Part27_check : g1Checks g1Part27 g1Ys27 = true := by decide +kernel

/-- second coordinates of the points of `g1Part28` -/
def g1Ys28 : List Nat := [
  0x0d0be79770fb19d079dee94fc5125bdd628c39eff45ba26d2f6076bc35e553e2d268c0a87eb76449b471b02c3702f32c,
  0x188f2e2176e100d6efe7690cd4ea591600a5a1d0a2fcd06f777ed3350645ef28942b815de76b50eed93aef317cf4e931,
  0x17b2c0c342c6d92412b08ebdcff46a1af4bbda9b06f7dfe6a78f2f3cb5ec0070f18786bf38a701d83dc13271965d60b6,
  0x0214ceecb6acb816f45a0981828843b4c301c392fe0299206a6261e4a7db71dc8f4359a8b9ee43521c4d6f724aac392a,
  0x0821c6d36d3ae92118303de86aa238e1d57b91143886d889414fdc886f03c3943ec494514dddb3780dc876be7e3827b0,
  0x123e4ce79be11379bca6f15d38c2f69e4e520f00782945cf46d92604b400ba621b8d4f6e00c495402e13afd8fcd6a32c,
  0x04a03a8ce33e182c8c5a76b378db1e3d9da9886a24a128f20f5a3c7f5103fbf0943e7c925456af039e844a383fa56c68,
  0x02db3c78b73f6a6ae5e85abfbf18165e9a231e3679cca96607f3a2f038eb2ea07593a071f38525652f4a8bd217dd186b,
  0x1490272b22e15c771e8204e42181fcbe573513d68bfffaf586002d0a92434b7a0ac4648d28474ee673927c74c5e5168d,
  0x1688aec364ad4240686c06a2901374d8773231ee11ff4995fb9bb1cc771adac99e4a801aca1617238ff37a4b6dcc7b83,
  0x0359249617bab8c167387ce9fa58fa4810c4648bbfbef7d282e587221eaea1cf0c6e301f6320f445882aea7bd15e3cb2,
  0x0c8467f6eb1bf7015e60fea228d7e3155ab2dc52846544171708217865623136c1810315821f71b2c47bdbbe3ac1fc58,
  0x0a52435101ebc8062590ed2018df34fc423bfc66b886f64375938a5251df5a6e9852d2ed3555131007735f09f295dcae,
  0x0686665ef157348833491da4eee60e4a9ad98c144d5408fe7e13cc4326c48a29ad4031815cda595b8f6fe1951792ec87,
  0x003497c004c69a52afdde2d8fe602502bc9f405f717d3892ec949f84acabff63754eb689b3ecc160c9db8cd418456357,
  0x0bc3550b36e91863491c121733d4e6a7d696b7610426ea2bbf15d0ee757d27128a7cb1def3fe67fb752225e18ad3931b]

theorem g1Part28_check : g1Checks g1Part28 g1Ys28 = true := by decide +kernel

/-- second coordinates of the points of `g1Part29` -/
def g1Ys29 : List Nat := [
  0x18208cfbab7e8f119a16d8ccc80da22273826bc26866b4b84d30f5a366c2cbd9f46b6f739e1b1857fc6e2a36c11497b4,
  0x0bac055cfa626e471fd23f7b62526c9c5ab290b8552d5d9a878d8488af7425eb6eac9d0500e2f9d7c3c7c77bf2dc74f4,
  0x16720b7992da7799ba26d655ede867f63dc87fa8da738c1f9f507d08c616a7d524eaa88c91763e0d11ea7d9702028704,
  0x01294606a07539378e7340a891270f5f775c07a02db789303e297bdd47e54a2bc21bc677153c46d57e24e0555002d9ce,
  0x0a0832519401147e6580d8c8d65c1e86a80fb4b8f82cf517d12750cf48fd0a8ca713b4186435378398df858e48fa4e45,
  0x0937e75fd9e7a730b8ae4ba1dff9b2660294cca5227d2f8fe89662336003d511888580fd69918b3fdd47f5b4590849c4,
  0x0edd33120cbc54877ce7421eb28a8afde6187cc166e095c7bae122b5a992d7d1379384757900293afe1cb71b0561312c,
  0x00fa11c12d50a988ccd502adef873246380d605fd2744bb21fcc18f4e7390cb6124bbaf9dc537bfac7b1491add5e0cb3,
  0x0ea37aac9d1e0e2915b57eb733d225b11aa51cc83fd177b1a114c49178a78bb91be36f5f9613726017f855e682ac81c4,
  0x07993be724ab9a64a5de8c1bd53a1c5262cdd5fa82810fe57bff5a18e0b5c7dad06010d0114799d8c7fe9b4fa6ca3d57,
  0x11b55aaf8581f19f5212279e72eba15d6c83d9abcdc88fa3554c8a9044b11c28b326b747b289c6c422de95dd98da14af,
  0x0f04150a46fd5ce0a571a47133c8ea595da46d03d8d6a5734d756e7b44043232cad8efbccbbe63809503095dbf2253a8,
  0x09a9a698e8b19d598b4443a6d601c6498cd1446faaed8e8d91d8f94955543042dc71b8a798ab355fe0fe4a84bfae4607,
  0x1231007e87e36cd31d5cedc129cb8b35f3ac54813f97e47252bad623e7105ffd17f5a6daf3cced58bbfcc11067efc459,
  0x05fd58f52e9c377913c07d9d94c026d2e8569b1c9ad5b3cf88826281ab6578bf822b5c3d7673d0edc898b83b24b49151,
  0x12cac98a8101db330df2a9d62e02eab67160bffaae2080b650003dac323d203bb50e0772e46207a1bd0fcbcd6e158a16]

theorem g1Part29_check : g1Checks g1Part29 g1Ys29 = true := by decide +kernel

/-- second coordinates of the points of `g1Part30` -/
def g1Ys30 : List Nat := [
  0x096d3c812194f4e2be310802ca1ced6d799197d6bdb0762e4d9fed1b2f1cdf470cf33a0ba91a948592bf4a949fe87e18,
  0x17ea49aa4db3ecc76bd47a6381cc3e425c9ca24ad65a193e7f3195fe65c2af49f40e7c3057feec2ae69466344a3d7c08,
  0x052e1a7e93e51665db77d4d72f93bda5bc199c67d3a722fd43833a43fcb3eb5ee2a3f8a042d094c0046a888dc422cd6e,
  0x0c7e203546641792188e7e204623254136a6e55091fa61c82a06605a6cccfe302d6facafdb729236e2ea7133228897a3,
  0x11bb0e6fd5234dba2cb2773701215d8404e7ae7dacb5d50ad52304349400ffb2e4db41dbe0d3eeec9a236e52fede4482,
  0x0497a95de8ca5bc8e860ed708653917be90c19c64fc38e3d52d25484479afec246ab2d4705130aa853ee8e6de0acb1cb,
  0x0eca9e9aad6cf33870221a1445fe5197cb1f40eaa254806a916a33389b1f60adf2e5dc30be1eb6a1a6a84ebef6bc421c,
  0x0b81e23f5637d54a379cfa8ffd3c35388a5de408ebc63ecc682b6a5679bb76915d809b83e311e5971fd258c553df69cb,
  0x08c13f58d9bb7d8eb675f51675c3b84bddfcfc564ab654077dec7cf941a1d1e160eba093019fc67fb1585448c8e03663,
  0x0a7273b4b4ba2f12d30d774f2a42dad30852bdf17706cbeb02ab9f226a2583f070402264bcb392c81cbb99096ffdae2b,
  0x03670865637e406ede5d821f301576099e166738764259a0ba9c38344a2174d661a56f9bda2af7a5e657abfb43bf85b9,
  0x19085b7d7d6e8fb9bcbc85fba5002d5ca98fe6921a79e8b5ef2d7a9ef8b0244318a22d31bedce183ef828d1b4d2164b8,
  0x154d73f2afb8b66dcfdd880d261bb09bb1149f5a41cb8c4003186a16e9029fa3634da2fb2df8740da83299068bcdcfff,
  0x11cba9ede02d5e75ef39e7955b3f5bdfce387cc2c9ebf4b6b38e18cfeff2629291140117ea60a076f9fba4c70cef2e39,
  0x178f943e2f5103b441d6b94292c793e13b7275ecfb384ea0c5ba1efb014cccbf62800c9df13611a0312498343aa3c3e8,
  0x04137a09bd08c24b8ad6790eb01d9bce27bd34674e8f8a08e5900ed46fa2e2fc3637400b22b56fc7c839be81c13e5d04]

theorem g1Part30_check : g1Checks g1Part30 g1Ys30 = true := by decide +kernel

/-- second coordinates of the points of `g1Part31` -/
def g1Ys31 : List Nat := [
  0x1348d56a923ee13ab1fed5b3832b34555f7f2e31b7a0cb8a9b55fd006e0d13ba4bf8af0152adcc3cfc2fc35ef524feb0,
  0x021816ec6287baf39c6af9dfc1d56500a480394b74afaabe031bb06055acfeac4891abdaf906b973b66d3e2b902608ca,
  0x170fa6baf739846b856af4393cbf604e76b44e41131157eb7903303eb031d4dc9448e2e0dc6247ae810005d94c2369ce,
  0x1893364bbbfd16d6cf41d05f3e847514979d6a777f0a21be7ff9f0b43346bdde24f7a7e70f98e3b00322e9f90a4b3cfb,
  0x197da51388cc013547b414e884db725937336d47eb43662681ed630ee2cc0b612f423cf616644947d66cb3bd02afe964,
  0x03d19a625e9f986adeff06f60b9eab83b856a02ae91edc1614ecc8646ce03be8745a6898b497832d60fb7c87659d0ca0,
  0x19237b48f2f595141513779c521d7a00de9d3cba3dc6e8857c12dc43cbefb3e93300fdf0b28533ecc12694990e8eacee,
  0x1539e96a6f5d56b37fa8ca731536b2aa0b7fd92f513360bdfaf9e5e78e0a4ac193cae3cc79487efbdd96c2e5944d07d3,
  0x0f0898d1ce24e7f1f9780f36fcd2d29b43c5ae7648f5ad660db16b4a176e6fabbabd280cd2d34a3c6968ef2e786d51b1,
  0x11059660ff355c8305238e652c1f8079d3e3dbb878a59cd97b100a0041927311a460f360bd0688cd20c62e5c5e69200f,
  0x0c77209c61718ff4414ad9696a8eb7eb797dc3696fcc4f36dd3a4eb9e7fa05d175bb80a92f23e7a4454dd0de063a0f79,
  0x0ac84e713553c2e89b0bc6b8c27ea491b1f665ee80e1b01b97ea889574c7c6caec57526e98b037562cf9db0318c21471,
  0x07c43f8b3c7d1e1e682fe6567ad003c7aab4c0bd39b8a1642fa46670f196e424b553a1967c07f544fffc62b40d664d8f,
  0x179ba741b5a8f28e517d1a57ddb88e898a9bf32ce17dbca1ce531f9622d5e0365a5d1a01e31dc9b84c8829dbe58517f9,
  0x0a150b90178d5e419a72e48c7e1cdea394fc11adcb8715282755767b98379c75f834b6cb8dce9aa5613417b3121584b2,
  0x02582686b2ca5be8acda9cce9a09e647d22b341a2117aa31c166d9f975a7771c8fa6ced69795c6ddf4b130508966784b]

theorem g1Part31_check : g1Checks g1Part31 g1Ys31 = true := by decide +kernel

end Verif.Embedded
