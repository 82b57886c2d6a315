import Verif.Lemmas.EmbeddedCheck
import Verif.Model.EmbeddedSetup

/-! The G1 points 2560 to 3071 of the embedded setup: each number passes the check, with the second coordinate of the
point as a witness. -/
namespace Verif.Embedded
open Bls

set_option maxRecDepth 100000
set_option Elab.async false

/-- second coordinates of the points of `g1Part160` -/
def g1Ys160 : List Nat := [
  0x178170bbba767821521b932608dd61a19484e7afdc94c9d8ff65492b228b72c635f3bbb865ed9670fe630ce37bec7ceb,
  0x0e0ed99a67f056601cec61ba7ea8c8322427073c9d04efaeaa8aec7569e6a3fcc25f1e605f627ff276d66e400d0ca36c,
  0x0b6aa56420fe5edf2f0e995cb1b007b0d84de4f6f510cbb12724cfd7bbd2730e90f2127db882bd4c2cf32a7c5f3c31a6,
  0x106b9a8738932b5bad01913d8da0375aec1d30294c7f2d1eb8df81d3213ab2d36c42ccaf70c251c71320491203e45396,
  0x11f2ae3cd958a8017243c28c9733224dde52691b5aa9a3cff271c8b01e81dbfacdc16893955cc802509a101a4c009c81,
  0x020b589be666bf06bebd696d0ae2083626aa396a580c64430145b9d9719f62f78cde9de8a6b6c1907458a09bf58f34f2,
  0x083796262c2d5d1f50874ed7eec0f5954bd5d12e06ad179b0983c5bf62ad5141934f1c6368cc6e60217959eb65f3047d,
  0x0d73ca3053f5000e1fbf7d1dce912db5da4cb629b245791b683d2f6799c8b5f22c05406b04fe9ab001d8313caacfd233,
  0x1624809fa8cc04500ec11c56f7b6cd8a21a096a798f5a0e371ebd5a422f70a0b5dca66a7ac7340168d7d2e815a71e3aa,
  0x0d775a020d0f039387c9d2e230a5a527e1c91ad49b1a3a0987af6bdcedce9384bb8211869a1e8d98741b180c1a294c15,
  0x09a9391664a5e728fee4f433a1f2e2c7d5751e341b569e9bb22434a9508b13a014a8c777e1bb6d2b6799e29b924a1a5c,
  0x03a9ae120ba5f167e3c7b9f27694ae8311fccfc441c218348c692f3889d540b855f680f65d396e3b12347ff927edf799,
  0x11c631d4453d41d2c00288cb44e84f74c099f8f9d8bc55889256cb28b54922894a4ba5b467fc0c60d1bd6e592d8da998,
  0x13399abcc9ed523bfb87ebf6a39cd8590498fd10fa1e5c7c433613c06aed0ade5adb00f28691efc6cb3925a42ea05c9b,
  0x1663d2696fa3a4b0bdbcad447cc08fad42f1707b2e4343637e4730d9be0b7565b13a60fdf9c9f809b015afc4048d2dce,
  0x03b5e23e33bc0ff1018c6f290d79df256424b7f56b04ff61b342cb061db2785da1442a4cf57e822d088c8f4a88a1caad]

theorem g1Part160_check : g1Checks g1Part160 g1Ys160 = true := by decide +kernel

/-- second coordinates of the points of `g1Part161` -/
def g1Ys161 : List Nat := [
  0x14c552d2f6616d0a0bb684ff104571d28612349c355585f061410d8f77c8342564331e3aed2dca2824079648a0b92005,
  0x12733eff958b681a3d3e70889ce8c86879feace8b4e6d8b26fb390915f518aa4c9f012a6147274b8c8834d542b038a99,
  0x1002a4af9c24370ecdc5aaa80fd4b91d667a8590fbc514de977f5606dbc9ad9b43eb75375f9b644b230cff5be9079cbb,
  0x08634047f019becd1af53a8245435202bfeb0a271fbe99fde7ccc3ae15044500e74b143bbbd1a3d6bd9b455ff41810d3,
  0x125da6ddca5dce0de7f705ad1f3d90e213e7240afe1bb6e59eabd376ce2dbcefdc59821dad81843365562d420581f0ac,
  0x1220c63754397ae6d86d39ac390e51320cbb9d4f2017e499d31a3df247a25c58dbba5f8d3f6d1402dbc1984796e2e9b2,
  0x04f0df4e8b3fc474d64494f24e478278b98b82e64da6f35d176351752c5a4f653921fbab80732581e9ca56f05e9d0520,
  0x1700d4e5564a3e5b823bc1871496971e3e67328ea828f9e454583737c9a30145677c2ddcdd44d1c6ae873d4a0e464023,
  0x039cf1e73f2cc6137af886cba52b62db2231b7b1630bc010ca0e9d820964827aa1ccd0eff322697d7dfb6b4f79cffc1e,
  0x01e5ffb967bf007a511687a286d38f0a8aa3e987cee6689fdc50443e6cf098bee16106b70c53bd117bc5e1d0bad5dab5,
  0x1539ef0f20ec5fd9e420d50b8748bd991e345c6209a0a569d5a09bac95702e592b5cebfc085c801d4bfd8c774348326c,
  0x0d7627aa6cf3663b0a12a3ce9d1a4286cddc3c4b4f4aed5f5feff2ba75e0e61d1d8ddd7a24d7b617b5b30116ea410b80,
  0x1166e933bb28144b17d266e6a2e64e647fe6694fa1aa674e1b95acab9304b02641449ad5c5d3026b2f989df9bcacfaea,
  0x0a9576014f1d7164322b8828155e821eb62580d5cf62631c5e08fe9cc4c1a91e9c97cde24c3f4d6446952b05630d89d3,
  0x018636a3c405168dcb8ae0a7b048b7bca7bfb1583b757c9948d904e6130aed7ec4cefc35def016f1d8e1cdaf826abf5a,
  0x007bc4afd161d7fa716faf7bab68efbc614b92e353ddbcd745a41c4983085efaf09f26df9d80468f58382c6b7f02b211]

theorem g1Part161_check : g1Checks g1Part161 g1Ys161 = true := by decide +kernel

/-- second coordinates of the points of `g1Part162` -/
def g1Ys162 : List Nat := [
  0x0fc13c8e6d9707fba0c089b9bb4cfe1a2a88d985087cccae655d7f6ee5d8ba5856a19c02c6718a03747db75b2a75a90d,
  0x0626ba9443e41d48edd51fc18c3858f3a0da8d119f0ef76c6f9e26cd5ebdddc0edff454ca0a576afe97b64625cc3de92,
  0x128b2837bd667227bd8c02b07b741cf326c8bcf080ca0dccfbb42d7fd13e3a96a60484251ef5c64d874bf648a8c239d5,
  0x0f2f9b0a2f4736b395745f005524142fb48ff5bd265096397009c33388a5dd9e2f3b6206d3a3c60efe93ab85e851dd73,
  0x1766649fbf31fe1cbc8a83c0c1d074bce2205286c52c04de76afd5863295c4e5500334d0bdbcf99d45e077f2f9f3bdf3,
  0x09ca64c1c84cc9eb4826cd75dd9b6adde0578edb2d8bc0dda98584dbcaa0d4bc016b1743c064055dac57930c5a582bbf,
  0x06d1aec8b73ae700ada636b248d63a57a34e69f94f76fa6692c022406e189e006956dfdf8ee9c16e1a2d1f68d63d14da,
  0x059aa3e2e4db1b7434f013a751eb2deafc8d268bd95edda774d5be02bf86cda70267ec7a66ba3c085391e68a32d2d1e7,
  0x0fefd1d473bc8fc72cc0b5e02f5a04339d10feb63e86dc8b6233e02b10dcb74a3bdad4bcf369dd135adefed92e4b2568,
  0x00a2e2c2b93df9e6399bd0409c3f8b50fb89d5dc5fa0a2d2536efeae5eccce09ef7bdf70566b173e86fdb3306e1746d1,
  0x0cee97f0205fbed5c2022aefcb9421bb2a1e4c2fbe6bb52cb61e78484e23f085e5f016cc3e9abfdf61165b82f89b5d25,
  0x012aec13c24b6b039cb5b48f124a7e36d52a3dc395411eeefc1b59b0cd12084c6cd3db77e5de40d9fb9112a350f00b65,
  0x00639a03fa885cbeb6e3e118aa7ff265925ff248f9120f74b1d99ff7f97f6c5ed7e07b95582ab922bcc74184cca3679c,
  0x092813d60660c708d02de29a15a0fc8d88e884d787595c4a281e661bcd0df84e44c40fda1123c35d35963c6a4f553cfe,
  0x099823468b8d05f6bd4e46be2c07b712fe887064e05540f65eed0272c7745b00b459ee9a2d47532938dde4ef971841fa,
  0x1499187ccf45cd9d451faba5e36ead35ef4839dcf0d678ee586e9f6b1edd4d1fea1d8af4ee909bcbdaf813ad0160cf86]

theorem g1Part162_check : g1Checks g1Part162 g1Ys162 = true := by decide +kernel

/-- second coordinates of the points of `g1Part163` -/
def g1Ys163 : List Nat := [
  0x01aa6c48848922e4b76d9e06efd20ec574e55daa5669d633f32861bd1a8c2c94de8db5c14a78921f41f295d80f376809,
  0x0106f2b52a0848eaf0a53728b2bae260a3a8e55a9907a10b9ea220f3e5caf27dba32473f0ee5a8ae5f1184f0462adf50,
  0x05f61f1cf50f3e0ac3b3a3cc94d86d5eecca1316bd776d9cc5fb82a5ae5e5623e4e3457f7ce9a9030eedb9dfbfd06476,
  0x024d56969d74a241f94c968533258a974b5b79257adc7de1d585c55fbc46156e5c3636f8eecb4d37062327ee9ad4cf7b,
  0x08cd8858911b65978459fd40347994982e6334dd7359b13b4419d270c8ade491b5e3a636af9cbdef8e53367c7e446a7b,
  0x03672cfc4ea9514ba61b2a1f40bc29a8d6761c683d89a563244b9f10133c00351083855a055a0dd182d3e69ff29d66ea,
  0x02457c59be9737dc8a20f62ce9c3ee83d3dade9ea6006e991b9276aa6308846737f05ccebe7ca755d6fb41f2f57f3839,
  0x1411433d8c6eb2a594da53ea6cd69ecd696855c752e04b13dc9af88fed7fd1b02e873d4ea3c88cb93d5dc11cd7104e45,
  0x13b25bdb66cdc0f01b66247f5d119704d61a7dbe2042a3e37dca3e873b125e94c04e478e9dcbea9033e9a391346d9614,
  0x128f003410e6862d02f1058026cac5ae4300e3e9b7910f29afe35585fa094d61cc52688cbfdf8f11f7f7c1058425a3f4,
  0x064cff3672181a7d2e19aeebf61bdf057534eb758b953030012ab9d5beb3b75e32d2a41bbbf17bc10cda087386b3d27d,
  0x03ce2eed9513be70cf526f4f86c6aa2bcbe05c25813a2ea6b008a8f090b027994464f35ec2a26a62961177524f5cb6e5,
  0x0057671d48f488e8c167969c080e98d254bc9786d06734300df2cf54aa62a03f56eb9a6c7dd288eb2d58e670110d59ef,
  0x0d7e58f60c852b418c4f39c6a61003f9478442d08b408324cd9f7fbed51c92b9aff0092689ef3ece8fc8a71f70bdfc12,
  0x019e1a5528142d98a5985906ff5d83029707d93025af97ceaec65e376cd18fbda7525c7f40ce793ee0e926711a841acf,
  0x03d72e80f7182c65459b75b95565567790b9c069cd731d41b68d8f3548810896497d3b9923377485a3e5d6b9b8e18335]

theorem g1Part163_check : g1Checks g1Part163 g1Ys163 = true := by decide +kernel

/-- second coordinates of the points of `g1Part164` -/
def g1Ys164 : List Nat := [
  0x0eec38e507b136f471a9a05a59abdd28d58652fa5a2df3136bb596bc02dace199a9c6dc779e9747a6d04ad0b136094d6,
  0x18324b7e1577e2ed02de764a922ae63cc0cf7a2706a5f8597939b1d09a4fff621b0d1267b6f476dac4aaa442d68a6572,
  0x0d9721e09b32b74a3c8873f9e81e7b69e1be888d5d95fae5e4d9ad261b1d0b5b4811c4fb3b3bcf6e5746fdbe48921f62,
  0x0b6dd348b6d08c1568518b1764a0b7d1726c90f804fa4a884b31241f43aed5ede96c7aa3fa592560289d64a3ef0b652a,
  0x09f9bd46ad0a8fcf7f413d21440162ab61c54560d2b48dc1ca0c520fff4f9104d8365556769b85e66ec1333de001e89c,
  0x0c36e9eb99babe8f82186b1257bdfeadd7331e5cb786c2bb95a3485b326c9d75bc4be2209f773a32d09f4cfacbae95ad,
  0x09f513361b23469370f4adaf1623fc0502081812e9684af5c3c10075079781636ff261e50133fd1b5955aa682ff5917e,
  0x06d107bd0f91f2be2ce89126f6d21944d5feb07a4fafcb69966538b7da075a98e089556fe33927d31ca799477c25a191,
  0x14ecab92eac3fd46aadb70a2f905ee99769cbabf2bc14d3bb96254ca7b7f76d6158fe9ca27cd31ffaf915955c39e9416,
  0x17d8aba1ead4c585ee55a52ccbadd448c00ac89ef514b35c1ccb12d83effd9f397d2d3b1407bd4b8255bbe0dffd17888,
  0x1372c7ac4598e915289d7fb5df74cc6d1152b8141f8efa60312981c6764ca0e825e610750e92842dd737b96a2bf8661e,
  0x02f8ef960f98dafbbcd39eb7861ec2d72987cd9ecede61e4f6a128bfbc8d337b00a43a586c991e14f0dcf9a55d88e7e8,
  0x03cca1e44856d60e9769630f936080a324c830b96850b8864b10ea6b7cc354adab0c42113129d244b502e1cc4e73799b,
  0x01ae52441ad5a0c59fbf606b81feedac624ed7d469692df6b77bc85a1cc07733cd91b4131655cc005014170c12861554,
  0x124332260da53fc8e01831135944ef29bdec1e35f41e14bc027a08aa858cb9edece74987aefe60534bdd2bbd81533e9c,
  0x160cc5a19a730f43ad5bb554c13a4103797c479ef8f50d29776bd5242ced1a078497694712f7d77517327164e1f9a56c]

theorem g1Part164_check : g1Checks g1Part164 g1Ys164 = true := by decide +kernel

/-- second coordinates of the points of `g1Part165` -/
def g1Ys165 : List Nat := [
  0x036f71a508d8b13f741158ee3a00267192de11377879368076b2ce3ea3b0b3c1288e501b0f0735eeebc790a2c54dd1a9,
  0x19d248c94c06f7c475d895811fa644de61db1b5ee2d966b175b56c52fcd2f6106d2399d5a2e31ec6035a9980ee2831a8,
  0x07c3b530a3ef33d3656e1eb28a02d2fa0afd4af3d2077cad5e464288b600b40a552376c18b7aafdfedcacbab269e9f78,
  0x0e3daf50d61537fcbaf81098b95c992a1457172afbd8a983282c5a6daf9d312199b2f79d38ab9f9935bf63851667f499,
  0x04500c739daa222c947a74b15c18c15dcad0ce23d409095d85e3516cd190444b132deb956c4028f057187b054d71dcec,
  0x117b0f7b5d1f01fdbb8add402831a5f3c9103635aa703c07588015cb3a82a0ba4ac672c735f7322e47157ddd446742ec,
  0x06be919565bb3a8eed79077d4b8b0b021298a333230a7a098820e1b20769dd7cc2cd68c17b918dfe722347cd6f467f0a,
  0x0dc7f010dbc0b3ae3a243287590815f372b83ffc6c06160484aa216780ef74d05a4aa9ec3b34383f7733a1c34ab3401b,
  0x12d95e1265ae9c39cefcf34e73eff18ed361a11e8c30c4dad7db17780283ee5b874d3842805ac0dee3ae5aca65860136,
  0x097607c66dc75a96a480b9d0f365e6e62462dee1d1835c0a3380634aeeae4a48ce913f5f5d3df887b35b9f19e4dcabf6,
  0x110619ac1446b1156e160f3566b75c1a6399e4fc3f91d48a9400a2dc499a20196f7f5dc291abf18e63d8f82544bbc6af,
  0x095dd0214e0a21fd6756fb14edd1afe3885ee3e4a24e2d58d95698da1695dae707735099e230f8ac1b09cbb752f2365b,
  0x13c06cdea58e044690291f47f37a48a3e8dc228c6af7a4e142577f3b38ec718bd498b70087fe9696f4741568653ded23,
  0x01689c008decfe2ab0a80167b8cf58a0dd91a01bb69f2c47c1bd182aca508afd37e43497679fdd5e5abb71259771ffa5,
  0x16de809082606ec8449f180384b857b66798a866312feeda6d2c06a0b86ef13f280410ac66ec6bac6fd65c80c2f3b162,
  0x0b9774e1102f06be10e83bd2fe8e1371dec10013eccaf1189924602cc57529da31a0726cf89d2b3dd5a85aceb9ad61cf]

theorem g1Part165_check : g1Checks g1Part165 g1Ys165 = true := by decide +kernel

/-- second coordinates of the points of `g1Part166` -/
def g1Ys166 : List Nat := [
  0x055e0f307481f64722a02be600d3b11f55df36911e2c5bb0c881e4d8a31d11f00c0948bc0219192e13b35d9fc8998b7a,
  0x0e3d3ccbc3c7147f847434bce1b2be532d38809b710ae216ca9a9fc5cff1c6b24b334b68efb79639eae6ce49593928a5,
  0x1576906db480dd2976d0898368c83da206abdd665bb63964b5af38420a3192390216ba5c533edff764628a238a95c5a8,
  0x0ea3b7f3f7b67cc575416c0e51b6f8b9c7f85814151d6e356cb5caa53443e66aafb6a97d8d9a220ed5eae8dcf3eba212,
  0x122fb2afd50daaadcca6942910b96f8898ace60da0b546cbd38990659a7467926e78fb955c8d6c74e7b109102787d033,
  0x0a49bd63311e21261eb7107a7d02628d38395aef478b4b7f954c3dd6501a7ed762d59e555a62ffcbabe323e78de59927,
  0x1753c2750d839afc5fec705ebc395850373db878040a77e3766e50f9ebdcd97c69ed8d198251f226f5c1d0cbb788147d,
  0x0a82236d8cecc1456b0faa6d5ae8b33fe033af24beb02145a3a61f2f73f31e02c2a8903481bc7efa80cf6e4e19cdf6a5,
  0x0df1cc8056dd3ba53b3c4f3f15ff2cf668d9111dac4eff64b50285ea88a2c4a935603184961fc4ae2440eb44fa0b9411,
  0x16ecc453a947502c437801d4ec9612f2b43178abd25b0bc1a82c2fa0ea2f6b01f6b8ad88f5c3102284989d91cc66599b,
  0x0d75d81dd86e5b297f0bafd4e5e1dedcd8fbeec7cf7498d213669a758645cebc29e460386e75a7103c7380c98c9d348b,
  0x0fec66339ed5950bf0e0ccd00e704881b6c7ef20e1817eab12c16e4073c133673bcf127b248542c8aaf92ea90cef5add,
  0x10b83c903faf57a5a5720ec206b103663d2714d941e4b873ac917f88b965cc310cc77db4229f84de0c018a3957dfd797,
  0x05a6d846f649f78a20560fd26cb91758c8402ef459bd449ae3874e8fc163bc732ac3b60c5ab3d01c770acc96c2ef3363,
  0x0910b882deff7a8ff8209bd47d8a78eab203bb9c47649c8dd3181017edbb73f608c408391f158d86ed9d5a40049d2c7e,
  0x0f3adf338d1f12a06ab1d83741cbda2cd3be8d0d070f42fce95be791557c7a1a21c3c93eefcdc5c027dd69fdca423b64]

theorem g1Part166_check : g1Checks g1Part166 g1Ys166 = true := by decide +kernel

/-- second coordinates of the points of `g1Part167` -/
def g1Ys167 : List Nat := [
  0x146f2f8a3f9f1b31162153a244b4bbe54b9d30acab4ebcb782c4c2b41d01cd93ad5c912ea5985a23c36d19dd23d5685a,
  0x192d0350fd1d27c58e653fa7cbdc35c28a5bbfaca941d95cff262c37f21ac92ef8c91bba77c7d626e0fc86f034ba8a0e,
  0x15be7e2f2d70b37b463066a61255319537f2ce936949f53c5a9239964c772fcf2f5df11b306da0459472278ddc7943d9,
  0x0255752e86c2fb48d82d04023300e116af33ba2328795d9ba21843c3705647e8b0feae1a0b9757697378c1748c185e8c,
  0x08a30083b88a37633ea259b5c3af403a73a482f8f85eecd59508be43350f70cbcfa09d03e516fc83b9a382a432a494b5,
  0x07db60040d301f9db4708a33f0fb719f45278a2244f8dc06efe676db0006d7072366b72b6d454a40672ab8e2e6e04bde,
  0x063b2d3f9749f562edd720fba21fdc5cf70be7a54a2b5f4e317b46295ee78e9d4b278918effed74ef9530ab8a93cdb88,
  0x1501be44dd877937308b68b9a13b32af4b7d8d004d23e0ee1d5a865eed09cdcf62893e9a3a0a0b6e5c136059c40d1e82,
  0x1179ad0ca737a23c6297f849a8628acf78cad87c6db93e8bf3aed27c7c1f5ccdfafab82a661d2ee49f0ab9f71b5839ce,
  0x0e9c29fef82a567f63d950c6bc57395f4ad9e48cc49049242349360092012cdc94df83324477d3a633384febd01df515,
  0x18d9cd1d68020b656513d498739373f565a1b0027c39da5657c88365a0ca67f1c983d1d437a947e31a2481dd90fbe03f,
  0x12d5722c9c0be9c1b5f07e59e048fb52adecc4ad2d7e550b1fbb3fa3b8a94838011ab8e657de671fea9a9e14cd34e98e,
  0x061c68cfc11e404d8fea9f53ea0a6298bacfb3532f17498494d061d0779c2e58bc0b3fd9055b533a2066f4d5d27172c6,
  0x1602283bad8a2c412f86076e55135420663e706de1d7ab3c80b9f8700445ef91f4b517cf0876732a32770025e78b218c,
  0x084d931079ab9bf563ec60474624bff365b74a5e38e69bf608e53ca632c186528fb7e1a2e4d23683322c3846f576a89d,
  0x1572a2f0001c14604572a73d1c2bdcfca0e2e04d74f826a1e16674c071ebfe2cce385c96078fbcecfd6054c10e72fbf9]

theorem g1Part167_check : g1Checks g1Part167 g1Ys167 = true := by decide +kernel

/-- second coordinates of the points of `g1Part168` -/
def g1Ys168 : List Nat := [
  0x07b429f117bfffeb86f6e61ab4c87713836453c35f3aed3d9b032aacbd48fc5a3577dd913ee864dc8d513953a957df60,
  0x13d2efb527c3f8591942b49dcd2adef7690dce568d56a54ef0083a46c896222ed9963f10186ad6fc1f44738c5b62a29b,
  0x01dba315d37c0345354d267d4fd32b2f6a64bd86c96d8ce3b192fb736247c9d947624f561f16bb117e52079efa2f958a,
  0x04b5d452533ddd2a07c0df1d32af7b09efd97c011ad8b798009d76128f765697f9412788a968304f97ce874bf9cb0f56,
  0x010bed35014d5a545ea984771a8c382cf89d0c06bcdea4a5075c48e271f77495f4b02c6b9dfc9839418b9d4dbdfa193f,
  0x03565c7721bd922cfedd7d03aa05f4d9842ed194d228e677df374c8aa2f15a795b97c9e59cb1d3c138c36582a739a6ae,
  0x15152ccb47dfdfe5810670ad9c92441543752a1f58c5db40444f9719005da9408e139a4ab9194c0b2eb0dc5050faff96,
  0x016d5cbdf7485febf4c75e4953bf588392400f958f7ed9316bd7619ee7553afda3be903d223972bc32b581ec57f54989,
  0x17a4c1154d1a45da5d5efd9c53795c4169099846bb915bd68220307d735227ec836280dae47c47aa454f5e3f39c63014,
  0x058e4dffd32be548209d32a41dffe578ad208f9b89c59e578d0688cc67056578b61010de2b3aa1c55baadbab9a612ec6,
  0x06570d17f99bd09418f6d30bc6c1eb6256b38ebdca469c8350da7a27d3d15c0bbc4e892c813357f1b170d51cf2292dfb,
  0x07815400f384412d98844df324302bc524ee28141369c7d772d95bef0fdb8e9b504c56a7b0f1cfef58264741231b6418,
  0x0f16c5d22604ac4120831f78d02a515985088084cf1678908856b142aa5a426ce9af7af01d6879f1a7c40eaaff6cec37,
  0x0650ae896b2aa92ee17e871ae5915a993e67a82fb1a96fe91e41dfcef5935d29076966cb4c25eb0fb71ab76516a844d2,
  0x09c3ff13cef317847931be54c825a170ee3ea888ee8efa2f8aef2c67b58b1e769e89eed780f93974c0281d8383c37773,
  0x0945df19fb0c7a81cd8d63d08c6d3a775c0f653955902a93646bfb8baa646affa9430ab285d1e74aae16b63f1045aba6]

theorem g1Part168_check : g1Checks g1Part168 g1Ys168 = true := by decide +kernel

/-- second coordinates of the points of `g1Part169` -/
def g1Ys169 : List Nat := [
  0x10ce7634e285af0af8ccac4ead2997a24ad9704a91cdcec1382bfefdd881bc8e9acdcd5119027c50341f012617d5ce1b,
  0x04fbf163310a618e4320dc26d660f9683b5ae911fd5df8292de27ee4abc4b77188cf9366b283236ab00e7993e7af37f3,
  0x1356e1afe544f274aa9d7b0ab37c422700682ea08224a479788c3fb15851392f44052a2eef6f88746822b3b0b7fe09a4,
  0x02b792a79d14c2152b22eb23aad5b41ac77920f5fdd9111cbbc9301b4b15cf0ed2adec744aa5ee1e922581e751a042d5,
  0x192c83d0fffc10192e2e6d6e98185ceed25021d281e1b46f802d3bd44694e37681e0dce243ae92a61a706776fca46ea0,
  0x03bb4f17e245a204e90983903d2ddeb760cab7ffea8b7f91f0c7653217766e5688457a11603aff80c4f703ad9e245a75,
  0x0812b8f1b374d9563dec1ca6e12ded3c52d0bbd4a6746759bf292ae85f95635afbdf4e63717b79f4247f3cae5d545c61,
  0x07bcf224a25244bd75844f0abbceb10bc1866b52f69bce0509275286871da72bc54958f6f019cada6c382330e8086a1a,
  0x0482851f7ed477038822933d6928b7aff2e52aad38440b28a2451e5923b62ed27799f263ca391368b9338148dfebd200,
  0x155abbd0de4e13b1d152b3bef32335ec8ccc1b3b0dea50e613ca11720be79d3af62565ead1ac5c7ee6620ae53b343ebc,
  0x02f36840187fe52fea9376809bfb7c99b661b08564ccd73b3a9bb283616107b999fc511728f416280e34f3291bd4448c,
  0x031a419d54457145e7162cccf9f0d37cb5eec6becac7805b9c4400840307e0b043952dd21f76ebab3e6b5a927c72eee7,
  0x09b8f30aa41b73159d24d84ada0218f8cd1c3f40036a570f5cf7d0097e81fc971faf0dcb70b1af890d14241761b4f0cd,
  0x067c0adf7fbb48f8d420b551f7934139d7f20c7310c5e5759605b66164922a20a0af548cde67cc4162e5abdbf521980f,
  0x1321a3cbc70195674bb2dad3bf26eb6fefc885ee2f027bc0782e4521dcd5f704bf44a1c4b49a6db2a641f0b600ab31f5,
  0x09db8340db5c7fb8aa50bf767a75ee7b942a02e2ede2df7b018cf1b15388a6021cacfe5c982e2ca99f3b2ff700ce5535]

theorem g1Part169_check : g1Checks g1Part169 g1Ys169 = true := by decide +kernel

/-- second coordinates of the points of `g1Part170` -/
def g1Ys170 : List Nat := [
  0x1613b96894ae6e4cfcbdc8b47d83db34ebd3452b54445ca43f9ab383e77946db2d16f9936d09e5408c3509320d5c2c15,
  0x0ee90ccbbd229df87a7e015d52d039ec7857d4542bac134fd76a49563c4324e1d800481d5b1e3bcd92b62baed47b5f81,
  0x149cf5a19c54f095b27f601777539554b3df7c94f125496606445c515bc6769904d4b484b0bc0650733a7587da3267d8,
  0x103b984caf14961fad4afb5b37c6958d6efdf161e5260ed98862a99bfbf1df040210ab312ada1b9a043b083b422ae0c9,
  0x1574a2d61795496016ee0a8adf953e93cd2959fd13b9bbe6f815b1661a2745781c9fbdb17263aa9f37851c2061c02085,
  0x0f89951b5b214b2aa26ed0a5d44b25248c4baff053614ed633fcf2e6e627204a6cbfab8f7042945fa438a7ba56526455,
  0x02cfb53b97f39efb155bc6d4bc5521380ffd9fa4a22274cc2e59865cb5670925743cecd7b185927dee53a34494b74d58,
  0x0b3c442db6f972705308762d4b7bac0ae0b9f73604c2e858ea5fac06205f3df7f9e22af9527f8379e152ad9494de66e6,
  0x1809eb27dad642002a8a4a9aedba2cf0aaac3676cc6c33f14a2908b395c325b161ab5ea2f0d29f1aad57582600444d84,
  0x0328c071a5d589d2e9f43e12dce81cd93bed00762822c8ef72e44eb353762abf4109e3b036c801ac56b21ab54ead198b,
  0x000db4e2b60dcb338ed6dabc2628fc8b1ca3ba675f710ba7274dd96279570f3dd35a16880565f5f2655d015a691c9812,
  0x08160729b7407eecceeab11044993421f6139cb444b23c70a7c6ea80f05bbf8a16aeb71aad1c2d63d556a3a65580b5bc,
  0x07e636902fd7a7c6640d662e5bfe4ee1af8bf36c55677ffffc933b82d9c4b41c7d2ee0b4894ee27e268e79b106632091,
  0x0260049d88c96fc13e37f06b30b81354e8dd34deb74f9a3af0241cf3fd46055aa82060a3570f64336063d3a9416ea682,
  0x15127fb0693eb021812cb5c73de7ae63050b05c57a2fe26b16d7c6c9d245e6b9ad1608e7f31c98223037625809264e13,
  0x142cfecbf96f8423ffce7804d7afec6fff45ec240458e4feb7173411debd9a9b4c5b69592ea001e6f397c13281810229]

theorem g1Part170_check : g1Checks g1Part170 g1Ys170 = true := by decide +kernel

/-- second coordinates of the points of `g1Part171` -/
def g1Ys171 : List Nat := [
  0x0b6a59b92cb9f2dc47e5f0a8e9f88ff5b103b8c5dcc808b1d1b0ed02fe3bdcc7e4fe89b05103d4c9a55d494f4f0233be,
  0x0766f3308b3731a88b2a9f8f770892e7be11abf31caed46c88adcaef7c480d1224ecda63de9114a8b9673d4cab60b3f8,
  0x0e521789f89dc6db425edce15b02d6b6c83f59df27af6b66c2975c7088f6106b888b3ac2f9c7dad1f2569bc09345745a,
  0x0ffcdf999236227335c90aa856da2becccf4bcc02f8ce94664109e2ec01f06c07de20a899ca174d6d8362eadc583c60b,
  0x0031462a74334ee929b81c4a85adb6879a58c3db3d9fb770bd5d32e7a1fa67dcfc819a653bb2298a6bdc49956c38dd2f,
  0x12d70d395a348d1c3f36a19b7607f817f1eb06c1bf48fcab8fc0abc4f71ee80133a153da60bd91bfb78434236d238b73,
  0x0f7b8c3bc120969947acafb58db1dcd74b11282fba7319a03ca878cd893592c02f0a7e23a98d43848416c04c4b3d00d8,
  0x19af5bca0d137da2b83cf34ec9b0a1f97289bf0e944df22e2d24ea8bbd14094a530829bc556d315f38d6b1c911ecc5ea,
  0x1795e7e93bf42d7c7222e8bb96667b97e87afe70f095a2b66563160b04d40193470d45fc0000003198ad258e49d001b7,
  0x188bd387143c4d20612a7444e8938fd22dadb2e10e6764b5600d37156998dbda929ef8d1c5af23d43b6e256c70c70127,
  0x15bbdc3e22049824fe6c158037a8667b706f02a4619b8fa3596fd49d0e758d4901eb3f92b89284f0c5b6a0131849cb3f,
  0x17757042b85a6315dc4d41c9b50c5813b418a1a12606554ecd689bc915c45de2c614cd332f949a314fc90353512bcd01,
  0x1885321cffb988379fa683c6f2e12061ee7933ecbbe7ea8747cca63a9834c7200b42c01b4c713e8b8575920013d76858,
  0x0a5397351eb98d7d704cded3791f1f1fd4f439421d3d4e8a21c105347680f5cbb4475333566590fd11d56e6bd72cba6c,
  0x029e35b6027c62b408d72484916f83daf0429ede4440b09ff573d064431d442a8e795ef0823613d0f053fd0400d2a071,
  0x052201b9f807531b654475bcfe57ca4a479861c74259155d8841315441da48fb0a1e34df82f5137af1be8cd03dd63b70]

theorem g1Part171_check : g1Checks g1Part171 g1Ys171 = true := by decide +kernel

/-- second coordinates of the points of `g1Part172` -/
def g1Ys172 : List Nat := [
  0x0e1cbe2807f67e65c0e7a27c602815aea2f1f2bf4a5faf42908c170995ca7551a7c1576e8c29b793357761f0557c0f1f,
  0x01bdb3c8545447ee54f6486b9d728a548e796e5a59d4020df7fc5a08eb6f548a0a32e0bd3e8688c3c62bf874dac29f9b,
  0x00bb475cc836b2e917ef6bc773f23a29b14416eb103baafeb3a7d392d0fdcb0ef1baaf54a0ae0b8cee28e855d5044251,
  0x10f8bf9c6daab5e7e0f1459f8e3f21de2d7211f907f0b8326e7073d72993a712d7f364dc13c849a3a1c786e886481c69,
  0x08bc43abd9d4b6d5bfb1c98e417d459906e04e3abf4d024beb13b65db717da84bf1bb8ff837753f5c3b7ad579c963b41,
  0x018226eea408c764dc90a725e336cf5c25cdff226c226a2c59ff3a5275cc936a7296a4089548462b57f69d570d92541a,
  0x00c08525b182329aa456d1345804f66541d507459410c630483d5b51fcb2e12e08c359653614276ab3384b88af8a9a2a,
  0x0fdb9763becaa7faed6a403eb0b705070149b03d292069badec25c47051d59ac631c55771f6d6cdd8e327acded17a56a,
  0x047e3c4038c00280a9e63a8dd7d1ad75fa100f72dcc81ca9340072aaa36483c260e19f96ce84423f86c0253e4010eef0,
  0x0b2e51a8224bfec979b2e824ef230ed8cb7bfd0b1490ec28217fe7d3918ab50a2cd7a5e0d17516fd84cf80229f9d07f4,
  0x1838ad4a678ee55772f709d3c65d8bec5bea65e8167228848207999a698916635b5bbf178385eed3782adfb34dd2049b,
  0x16a3d70bf682f1ed61c9890732e2ae2b037a73502cb3a327871a214dcd26e08c9575d15b205f24e544516f12ee0971fe,
  0x18b66549ca951d8e5a538e25d13bc57d49dc152646870c35b468803ccd27c6b36bcac999835c2f824d118be5403621a2,
  0x1086efc59d97e11858cf2a74792e5c580b09b5985ba7b86e246b0e4c80746ccc96ccced5a8387dded3f9d3d956d76557,
  0x04fa5b1554ee6ae1098b86ab7a48db00ea0d0f40b2dc075932d6bc5333058cf70a4010f86ebb6bc5e4a18fe892e51de3,
  0x1176f3ac5b9b62bdf6b9b3ba05fcd05d6ad40c30dbe44b37bd7d3d5b213786ef201db05f122036b5eb1f7b5fba0c476a]

theorem g1Part172_check : g1Checks g1Part172 g1Ys172 = true := by decide +kernel

/-- second coordinates of the points of `g1Part173` -/
def g1Ys173 : List Nat := [
  0x10df68e7dbac83ff5c1793484780fefbbbe8719d3fbb99d5197c7d8676bc15aacea4ff4823226629ebbcb9d0b7cb7506,
  0x0a04e3057d2666ce2bee41a9adb327a5e6a9adf2a6691da528b1df89719e7f7c1ccfe8f94da8de941ec3dd7f31073970,
  0x16297acddd7897524121f9aebd8ac4ac23782e668c5b281ec050c0792f8925eb02b319fa4472c305ff96a26de5b23fef,
  0x185c4e2a1009cc105acc11254c1c0cffc951b59c07db369fb1ada7fe65e78aceddeed87e86dbe25b357cc56551abf7c9,
  0x03f7226467d700ddaad54a9750d36138d22ebccd84accb2ae99a487e2f25e82971658501d53357a7c7456b0a5a2fcc19,
  0x00667460363b5973834b34a574fe33086f62057d426a2fb1b531d244202707a513708caa7cee7a19ddfac033c87dbac4,
  0x030b07011481e7bf7590790f56a4fb25e86ca818632dc7f4eaad182eed22f660301d615087ed2a44dd94039482f56ea9,
  0x18c2420d0842bba4ec25ca43a4d0fe7faa0fc014f3177e5f031b44c7c908775154fa12436ce7acde8e3cb2faf371dc3e,
  0x0f1fbb07f69ac0641d693778c0f34f8e3392b97cad9aa57141b6f46b8a33939d39a951991c9a027dee27dfe293f1d0a8,
  0x19901d9a0c4514b6558725a307e53e4250d7af9a3772e9d49f60644713578604bf69a3c143e154da2b016f03ed42f353,
  0x065eb3234d9afb5b5b694a2a23598bf5b2c8bcd099453d37076de31c6cfa8ccb0919bf03b55499e61783c6eeaa5875e8,
  0x17690fc9fbab1ea42ba9d4d28a09ec374e69550d3231e84c02792a829b78c7fbf4d5d2a3390775fae655fd956378bcff,
  0x16909ef7124afe200f3757e1fbf1da1d8ce49058149ccb07880a00c5cbcb87f2262bc77dee6846de4c8eda3262c9d6bd,
  0x11ed96c149a6ee0d181ff4bfccafcd36293b74b4074601aa1966bb7c92e86eaa6795dfdbe2ad6a41101b5a405ec428e8,
  0x1718a97bc8e3efc450a35bedf92ce04efc54c8de8f716e4a351c98bf13d14ae9a0dc8d66fbf584abb51e531111ee7cbd,
  0x16c9646e3d94463ec5d9c86d594316d13d01f35ed970ee30c5128e47cbc9c940de3155ca80c4ebced15dd0a056211c45]

theorem g1Part173_check : g1Checks g1Part173 g1Ys173 = true := by decide +kernel

/-- second coordinates of the points of `g1Part174` -/
def g1Ys174 : List Nat := [
  0x0de54b9a82ee9ff35859b99daaf3bb953b5da40b4e39eedb17b9162a2042f252c0460aa8ca4f283bf3dceba1e4e3cbed,
  0x09d293b7ca9afaf0bcef04df30d6e2b41ae26a57f6773e807bbc70f3bf5d626dbe8ddc9fca7f73e006e5ffb5a7fad72b,
  0x11b0923f4ef7996a3260219f3456217076bb888b98b67368efacc2cbbc4dfe994f13ac07b29e292ca1110cbe6248eb85,
  0x0523e86b5be4fffdb2d46f81c75fba369e0d3b0a8c34120b1d322c124c4b2223f13282617b62471bb2bd209ffa1e0f64,
  0x08cb0f5325a05d0f82bef8433e8ab117e14bd82054410cd7d2e028df657f6f48f7bd094ae897f946a6066ed574721151,
  0x0852c04d7de388f5c8356a8247a6a9d3ed277b69a6967a398b0b32451c9ddd220c7066fa2fd515a39a5c5c79466cccc0,
  0x147d78b248cdc2597722ebc0d200e4996369e6a1ecaa4d9b0bb221b8452e63248c4b9621cd3b45164842c3b042b180d7,
  0x0b5fe50e970fa0cb8294e47b121cbbc0ba0e48a1e916e20bfcfa3bf24ae0c86f889aebc18a064962be2502cc2398a14d,
  0x067ff59325ed2720cdcae3403ba8cb964228b005199a2d66a7e97b63c4471a167e2e025935035e967a398923760fd677,
  0x01296275628dc7a5a0926995e83566200eb49c031420dcce4f0c39a367fb8a67fad8aacfcf44762ac9e15ba19d9ece61,
  0x194801b6050f51ade0ecac1f0635ac0d0965f82bcf009be03feecd61a83e6c2aa8f388d24cd8322a776c6c77a14c470a,
  0x0c6321295c86ef6af3f5d870e5989d7ede4798505c343dad5933a99c05fefda759f41387a1c97394ddb556424857bc23,
  0x11e0fad13ef1f8f38c0f8cfe7c0537d63d3700623f27e92e77e961940a62cf9608415bf5e26042678f784cb0f9f9bcf8,
  0x0ba19902768a403a93940a1d9956e352bd7dd5687e38b1f71b249dd3eefeaa6bb2f993d3d66647072684bf50a5d2def7,
  0x10a96bef2766a75edb105781d48890f3a88f010e02634124c775ddaad4d4b607520f1e049b599976b0de7c08245e62f6,
  0x0bf11cefb40a4e6d77639d1ff5be0cd9b4aba3111700de8dc3ff1d096e9fec14d17948669fdf894261274d6648c616e2]

theorem g1Part174_check : g1Checks g1Part174 g1Ys174 = true := by decide +kernel

/-- second coordinates of the points of `g1Part175` -/
def g1Ys175 : List Nat := [
  0x05badd18177ab59e54c0666461df5f40e9f69258aad514adaf3d5362a947af6715a50e2baf263d00e7ded14f2392515f,
  0x0c370d9183170c3eb9a5241c02ef7404b47ac36f1716a84922811eacc22e5c1aeeb78c7080d9f2849f83e7f8a8a8cdc0,
  0x0dfcfe6b797908474bf870bf80c53892f8b72b11d4dcf2042e0389b0d47f7e434bf3f9e353dd017ae698fd7cb32f96e0,
  0x049ee91561c8d57780150bfd5145b1e659dded4f9b1ef68077d6f5c1b2adc86b11a4d5332805c3a6a9b53f760ac122fe,
  0x10a1ae37000a1e6d0804591ff147a452405b378e390eac392c6195ffce313ed91fe52c68c0cd4230f7790571981e7027,
  0x0580a3a2b27a1068e312efdc81146de1238ac2ba7319bd28127f9d7f5c50778dd41993d5178526f8e1a5a1884a8b78a5,
  0x08fdd88d11f6a49cbe60ef467f5afa206bc41d7ebef7a262c4e290ba60c1bccea1c856cad001b6e27ec671a7dd50ef2b,
  0x18f49b432ab21b075c883a637bf475f91651482a8c2bf8becfc292f006d1565206b2de98164588bd286d8804b1493148,
  0x009557e663a8aa7ea304459ebe85b128d312ccb7a9e8c624d53c401d0a58158360df58f489dced845fe9a30c9a9f3974,
  0x057c168f7498e5c1d38e8fb04294275a0fd73fbc19961828b873cec27698fb934996d0ad54c7cb5cd7e088cc62ee5b84,
  0x158f13aba8f912d0a51519270e16b2436ec1ff102ce7374760dca5680f56c81a6ad1d4673343ed886302764df95f00f1,
  0x0baf032da2be44f290155eef025f4ac27a8b9e692b4ccceaa4bda0abed6e95af019535eec732a1c49fafb37a0ce6c48f,
  0x0268fe3cf1aae9cf470d6ea004f36de38297327e1025d509e69ea76375e5fb154715acd4fe158afd9e7700459be868c3,
  0x0209da12bc6dd39fd78def483e05632f080ff03fbb10e13f9838efc411abd71d0001a719503bb1721f7ec4e800aa2901,
  0x158034f2d97a5d12cf5c8779e2be1e1da5d62bc7154ba7ebca9449d4bbfa7c9aa73fcce889a2688a692e853b8b39c0ce,
  0x03d9018ec57809701ebe49bfa91d56dc11a4faa983baffc6c31758b698f162af91cdceb0a6de5eca19bd9f451e285c8b]

theorem g1Part175_check : g1Checks g1Part175 g1Ys175 = true := by decide +kernel

/-- second coordinates of the points of `g1Part176` -/
def g1Ys176 : List Nat := [
  0x0998915bbf72f35df6e6e6703dc8d6cb9450c7702dcfe3a7afd143bbf456e3a1f99de354e325f5b63c7df541771734e3,
  0x05abcf20b97dfa75924a00ab8328192714037195f6829f193ceb2d24c1b9c6a8d59c0c0302eb8e93390c9dc79210a154,
  0x07429b0dbe27b63c6a284760cb67957677f2c018909157538a6bacf5798346f2d90c3a1b36852818a0ee1238878ef693,
  0x081bf7d0cc1467d3c0e83f53fbe7b50a3bcf7c42a39b41def578e140af552febc10b35be6f404db6dde2595cc7a4d3ab,
  0x138f119a3bcf3b193b5f318a73595b58a37d20bbd01059a62e2cfa08f1b7cb9f94cf3a0810234897980486712ae4aa69,
  0x106a0c9f08cca0aa68ed00391e1c99164d17d7f7f3a5b9e2847d9860bc49b84fc08297219cd1f815583b4160475c142c,
  0x03daa824af60153813de07cc5fdb5146764839cbae72afd4adbaa68a4937882ef0c7fb1c5dc6b158b5bf6bf8b46016a1,
  0x15606aed8fdef6d2376ff70573ba8808ef73cd9bd0a6c2063f0fa99f5b90788feef697808b6674ea7cf74354f267f2a0,
  0x0e84afd31618a8ebbb2e02f1c2665e75cc19959704aa3ed03ce049954bbc0c674c6a95788e23e14071b72f24b2491c92,
  0x0121999cf9f572d85477fec7a04ba74d869cf30073a603feff63c0386d01be32b14327a798a069f58d8adbddc9acd0a3,
  0x0721d93f520021c134a02f366fa2b1c8d5bc3938a31de23ccf5ef7af8e020b4797e9ba41ebcf1fa8483230344961c81e,
  0x15869b93e56863522d63d7346e493735d2bb574b44257681f95bee2f03988d9f01378107a28f853b3044521b2424ade1,
  0x052aa96987f599b65ccd677212cd65831fddc1b7c20e48bfe69de3d4219ed91b44e99ad0980da40c5caf32808e643f9f,
  0x176e362078748eb59105b4d06a58673ebefa88b7aeeb131fe21e326dfd14792f122c8090c4ef4ece838b9bd37f2b0aed,
  0x075450f1b4f4c083076d0dca220d758eb71977d0851dd6b7d12da93ca993f1222de9d10a6463d308c30c1eaa8e03fbd3,
  0x1089bbf6127bd894b12bd5119a43962650f1276a39470d3e54171945f08fc76d4a53460a431db61e4d0c2e0f6a80f789]

theorem g1Part176_check : g1Checks g1Part176 g1Ys176 = true := by decide +kernel

/-- second coordinates of the points of `g1Part177` -/
def g1Ys177 : List Nat := [
  0x06e4574c10de640c992af257e766a447d968cb5c9605d9c37c5d818cc485782fad725fac6e016e4348a07adf3ac18d3f,
  0x0a9e4f0c7fb3169704ce1a00ef08a030134e1745c575d2253539d6fe3cd84f9b07803acd69667b5f83ac75be4937fd6b,
  0x133e0eef39f42215c17dd1a7b1f0378d88bc6fdbd973a6938178b6fb760e57b8538426321da641d58f662b089d441f6b,
  0x128334714f94b7fb8fe3af6f52669a1798c98ba4c23283f60806f66f784ac7c0e0523e6abc884c5afc68f3072d05af53,
  0x12f5494683631f5c3f939fa94869ffa29f80e6d02eb6a9a98b078f99d242dca4e74f35f5a9fdc07234767d235d28f1a6,
  0x1666523c36ab57974d8cdb6eb211c4d5cfee796283cf5c4cc3695e7b40f2d9971dbe05fdf51bce5dc7ec346b9ab0678a,
  0x066dbf3f2550a2368b3880613da9d5430270dae5b4723b9b26bb042470b8fb862479554b42c7b83132bd803e5fe7e472,
  0x08f9b9634f8c5768edb594e30d6415cf59f35defcebdd02e69b2509b1348a45596709ac28826e87128e39defe4b495b0,
  0x1555ff386ece63a29c4c53c7f5a175fd5a6e7e972c3e78df786f36306e37f5989fc4cd68a3b19977635b2124ae6174d0,
  0x106d64681dbd67124ab53d6ea37b2cc75dd2c8e2b5c8feccf59e8e475136085ff8b930b70e659ee550830b45061100d0,
  0x068d7cecee5aff7f01deed08d1f1b1ea49dc39e96f9461c869b8348c79a16dce4a11c6d68d59d32a18606aedd8ec27e3,
  0x0735f6a2e58b5d7110d863477adfb21e6f3ca59c4e8b790a20abab9dd59271bd2f6868a4fde495c0451598ff0e28ee48,
  0x15c0cc5ea69d85e5f046cdd2753bbaa239bd061d4ba58f1acb83f4de29bb170f901453c92f4792daa02bc11a5071d326,
  0x063791d62471300cc6339bbaab238fd840b59eae7dcb1afd5312de3c25091f53f647ff0ca32a95ad768357c6841da7b3,
  0x19bd19e3650d70c4113991aed8c179a13d364e3b5c8e5cf5d6557c69d69d6848f7932a403025acf9c22fb78911dcaaaf,
  0x12cfa557dfb8279cf8c4278a2948e6e1a7bc22746a2c22ab274e71baba387686ef2566983f64f5032e31757e83e9b39b]

theorem g1Part177_check : g1Checks g1Part177 g1Ys177 = true := by decide +kernel

/-- second coordinates of the points of `g1Part178` -/
def g1Ys178 : List Nat := [
  0x0b8287a781d8b165a4dbd5bbb8a11d94c61716466bf5f9b23ee0f7bc7d863dfd6809a807df179e46c038d8cf8a3cafd1,
  0x00d53f3b349b205f7d9717c645dd6387c4a12b08f7026adf3ee370ac54087bea53e633e42260482335608f02523f5d3d,
  0x0c7bd9950e39d0b7494af0e41fb07ab198f0ca9f1e5feabb357599925603b539dfa229adaeb33dd29401e5411c136034,
  0x080e3f79056c46c5e37f22059e71e92e8c71f8d72b9ec164af08b87642d79dc803819ab2eca0b9b907fa60200e29d07e,
  0x0dc4a9c06c3285099365ed7fd2004c6a154ca3ea0d65041904719910b129cc2e3811e3c8782d11875f19cd8d563c937e,
  0x06bc267ab55f8ec5c42082d9dc4feedafa53a03807fd9403cfe352a6ed9d1a4ca38bc3529464fa7c4cbe21791ea87876,
  0x0d6b849f1e077be330068be82f826e801b86b7028fa6a7e5644ac1c0d526b6daf0b14c46b85578e684945562047381d3,
  0x00c3b844955d53c9bd17a958d40f170649e9a5b4000165f9782c78158657f333855cd7aa82e0b8867e1b2547e7db6d70,
  0x0ae9a7c5e7ce2bdb7cf372ff00c375d103e04cf8aa6cf8d4a8cdf884a0aa58a3b737843b9ac84f0e5b51b079c1f165e3,
  0x06d827a5e4672593df4093184b7294b2d45294e2364aaa59d750228e62d8b640e5786603af878747cc8fe532e494bb93,
  0x0a276396d421e344ebedb189faf92ced7e244490a06a754f7e794310b740182edb27de138be80865fe15b52cbb5778c5,
  0x079f64a12d7d4c59f534328bb23a096e4d23f09f6282f8a24aae6993923fe57b39ae14a88e9bbfc334292f5b1d57f0ff,
  0x03afbbe58f29921a9ba65d180b427fa07760a3f8e72ce70c37e638825f0e2c97c9b4b961e98049f27e75793ef169d096,
  0x0d07167dc266288828f25894f08aaa4e0f39e7f1c172b752a5e490f0938715f21c0541a7e372a141df8b7ef28587dae5,
  0x185a1523fa177c11150b14070728b8be131de5b0e2095e1bc9331f3200cdab4603236d45ec52b71e528d2b6ac73f40d7,
  0x027ce1780d10b27afe001b306c2adcfe4a2b2b180ddbc9b06d4d3989a12a394467e28957a0c0f83cc8707b3ea980274c]

theorem g1Part178_check : g1Checks g1Part178 g1Ys178 = true := by decide +kernel

/-- second coordinates of the points of `g1Part179` -/
def g1Ys179 : List Nat := [
  0x1226d321e63010def8dc6e3da57e48dd54daaf0f3ab4f8bef3357dc1d0db426f12e23d07b52b2cfee046858a2bfc68bf,
  0x03815d2c0afba2141c62dabb53b2f066240d450cc25bbf42b239a8e529f11663c5df7586559a6b3f88ba2e10c550c3ef,
  0x00a34ab2d3b280fdf288e5ce7194bd18345b5d65201c39c0e2192d6f7597983f557a59a6133d2bcf3caf9e009e874873,
  0x08b1b7702b988d7801a30cb770a64f2cdb86283ca5702394e1dbd8c1fed3be5042b281f36b28ca1026ed042e6927c5dd,
  0x188c83027cd4585e51ec72b8e4bb4026abf28c646c6683e9b25ad3169a072a01efcbabcdc72040eb1f608b18be21d3db,
  0x0440ea09084fc5e3ee6f4d82f0c345299ca59abc0aafb69d31cf537357dbe06552afd4d3368a4e1dd19c99e411c1538a,
  0x1367b50ae566bf945a35a97e2b29eabbe964e5d2600b6d061d433a7216c2daac17c1f1dd919b0963b727111aa717e177,
  0x091af43a762da785f3d00911bf0fb7c40adaa9e2cd9b28e362e4b321e30a0fee9951214d9921b318a763e9485d71b0a1,
  0x09d5460e9ea48d76a8913faa3744f0634ed100d8bfecf196b28fc6e988e7d0674f5aea5822da22600199bb6fca551f0c,
  0x0c3f7bfa5feca0dfd1f21a4436af4e8f4ec883602e65b5fbe6fd13e1cf8a68347916f793dbfdad161d6c74be8238bb2f,
  0x0b21fd687daf63447ca58f608c95f4486cb580fbf6bc734a70c8c502f272c359cc182c99684adc8709374b3d0761877c,
  0x06c4e0a98a5fcd6abedeea1be510edffa48f850f44a1798f1b0d49e1496f22a0a858f5e14e2063bf4440fc221660d318,
  0x14c0890d18faa75bbdab0adef6dd56945a05c681f06578bd170e09faa52bed7a9cb868d7548f17bec910b9f90c9bbbe3,
  0x16824e141b38f4e81f6252834ddbe19311c8e8f5e687a23f0c785a259626489224d027fd7e39ae89916c4b6b84bb0ff2,
  0x1264ddd76e99161ba6cc733f704e9ecd10aec3b720de3622909ebc664285c19132c71e4f11deb5e71d53f81e0c0aae72,
  0x111c52f0902eee5f43bc7d3b012fe9899153927de26c2dd8f736d5c3c455db63b74ec38f7e539372b1767e54dace5365]

theorem g1Part179_check : g1Checks g1Part179 g1Ys179 = true := by decide +kernel

/-- second coordinates of the points of `g1Part180` -/
def g1Ys180 : List Nat := [
  0x0b1405b9983e902a2b070c94a5b1d0bdbbc01c3c6515982f09fb24f7bd9145bf39976cd7043f65b46504322099e1cb77,
  0x0214f8cd202f635588d097e21aba8473dd1d381fb17c62eb48316f5d3292377f62a5250eca1dc240aabe47955bfd6acf,
  0x0268b3e4455852f2d6098028229a2a7ae4d24c46a81110bfb3605d09d1de0030388c09441c05a750c21da5bd0df24a65,
  0x002f00ecd405a1dfc332572b9af710ee4cdf6ecb4d2e09339df42b6990883e7dc53e45fda40098cd06b9cd72bcb37212,
  0x0659bc2dea24584a6d908a8ba0767a1fc3549692dea0ae455914b0441bc1bb3302467cb0de62d5afe21a376836f6a1fa,
  0x05c6a3644b520863d309ecbc1353796c0ac8d90c4ed4c758459210e27260468ebb2cf2b920a62497c35a5e1be98e4c46,
  0x0d741860b1fc5c1ddd30d57475098faeedb40609b0cec14ca707ed3e6ac10553f9de2420dc072b4301f6f01108f3c213,
  0x00e79caeca42f90a6c388e3230870d0cd329b96b5fde461bd639b61e5a7541f3d3533fc383bbd785a4e23ea5b3628333,
  0x12439ba664780bdf91141f79978965231db993426b375b3723d703ee8156a56aa5517e3440e7d7950b17b9b07f38080d,
  0x03c0c44e2b847a6989fe623adbddc49e8ff5c3acc440afc4c7f130f5ed901d32f26332bd2cf21e8c613d2d154318468a,
  0x03685df27bbacd13a6df0e0530ab7f9f276a5e0e104567feb064d9db79b5c77fd43fe01ca118b81618b48d109560d2c0,
  0x013c94a4dd3d77a09bf01f9856c5c1013e629f717a34455d821d918be3ec2a34edc4b3148382ac3d3bc52ebb883f7e43,
  0x01eb5e27d8a1fedf776d7faea458fee89c4570cbab83a29cfcdcff773c4b1d7f68de6e28f2592204466edfa1e8f692f2,
  0x03dd38b57fa0f32ca0fc58a86cb9916611845f2c84a5d4a7e66bd82311d20a4c2e24bb6d106392dffe9a9b0adf5b1b35,
  0x182c4f4d97c9adac1ec1f6e5afbb02e177162e8211d51ddbeba182d5dc143368d686dad55d9fc4d8a5e091580d7e4827,
  0x11a77c15af3af5a6581b9aaf3a7c28f3b215e4acbf789222b1d6e0876b9dd56df633e1216288f4f2dff9f6f8cf26c832]

theorem g1Part180_check : g1Checks g1Part180 g1Ys180 = true := by decide +kernel

/-- second coordinates of the points of `g1Part181` -/
def g1Ys181 : List Nat := [
  0x05b9d5ed56c78765c4c7b6e543e3f422f35f6fbbc991abe2a779a2e212f0d43ac9ae20d873a28884c1adedc1b9a4d4b2,
  0x109a1b2ae29cd4d60dae45d88af59962718c846e0df1c085b32eb704bf538c861c773b9c2a7361b1c27f5b4868ae34c4,
  0x010d5eb46f4ca9eaa24b4542cf69926f7122688eb1ceaae2c8512cf861789b752a033d61711590496bedc67d81a72586,
  0x0bb5819f7c8a9f82a7504922f12f863f36f2034a818e7753a43a6c2f61e723928241f369bde95da75fc200d18f8f8f8d,
  0x170d92f4ad4e8dfee21afaee5435a2f4254a780af04a8e1e239393a947001561556e7c6d29767dd34207c59aa00a540e,
  0x0b7fe36bd2a2825d4f08161a7662341b9921e508c31cf33c56fe4bf8d8068234a7f1e32bff64371c8933c0ca928bafc6,
  0x171680c7a8602eb0b19cf5057f1636e1d6df9ce4fb10f0faed2395d7ad199668536689452e290a71d80e695e5cbe71f7,
  0x0660b1519d84206d8276c67b185853522bbe5a0c4019cd1db7ee2334ebb2459243d1ff6a0593ebabc05f59a77e8fbd66,
  0x125b19b0078da3858b22352910a15dda0ba27a4777e1ba3fe69e20f9ea0362ee9cf5067812a47a2ce9c99192597d1e0c,
  0x0e7fd2339cbda87c90ca981c21e6cdb7243858a64af96f67fb53f710bf6db096fd027e80fe1bbea828ac2d40d1de262b,
  0x083fca736ed71a1195fe691d4f710570d6306fd713fb7d1cbabdb1ebe2af4f54aed0b90ab6f1d3d6056f915ad70225fc,
  0x006843a7dd3c845f37d26034d6bc243c2646437844fdae8e9695021bc5cd91bece9b272af5d63d3d8b51ca3692f37347,
  0x04055df3fae922f22bfb7782c82710d703c4bf26a56b938f8f63a225a464a20de31deef0fa8df21c038b6565c240b10e,
  0x19f376ee67bcddb1cb7a4c25a04d80bff3182f6c43b8e357719c5d155677989f81491f0ec2298e7bdca97238d1807af5,
  0x0a9d88dd8a49af3192342cc1138f75a65d334bf4270b0890475f1ee949232b57bfd8d1aa633ab2a52b2e57bf562a97d3,
  0x16e79408e561ea7877e227102d3169a09e89fcd5cf0e8b9dd8fde7ae0585e21e5b8299f8c6393ffa747c13844f28a7aa]

theorem g1Part181_check : g1Checks g1Part181 g1Ys181 = true := by decide +kernel

/-- second coordinates of the points of `g1Part182` -/
def g1Ys182 : List Nat := [
  0x100226b320eab5988ee53aeb702ac71320480477a27c757002e7095abac4e6f073afa2e496c9ee8f52475907977607be,
  0x19231709916305995e3cfb2e01fe5e35fb08037d388cb03cef263a4e9d7a1a0bd449a92c02ff0cdfc12cb6861c62d137,
  0x0f06764a4c5e93055e2d86fa2d7efef305aa8cbfe7e20eb27090d36bab5d4e7b6d7cb1cc4d9bde2a77d979ab90f77483,
  0x112ef8fb1acb24f871f72665312796eafca5bbaff56c382cdb8d88eea3fd0fc735fc30863dd8bd78f41d4b674a852b75,
  0x12ddf71295f68ddddad90a88fda30b5af8d9b8c49b0e7823a8db65f2005e126cd6fca5e01a2b43b9025c8b5e68b81f76,
  0x12ba494e8d15bef534f3c91fe912eb6c418e0821330088222c3272e9db2bb58d556deba7c456914874bc9e5464b1a50d,
  0x0b0717c3e17f895a6a9063a944448fbab64ff656cde10dfd734c5557f545b350939e676aa273785e4371c14aaf11d2b4,
  0x07af23485f066bb9a9d400f6b1d69fea487cef81e9d9cde2e930b7b2159222c082c7e12e83443bea076380d75b60a092,
  0x13333bce260859f9d0ea06d1b43e641249d8ce25a17ce54fb4b77d99eb736727a4bd4943a2f5a914fa36451403ffec11,
  0x0f7f4cdd9a55fb469c0d947ca99a27192db64486f45fc8d69097923367a9b026f55f94aa1db5c9f846cd1223e34988ab,
  0x0998e6b10ff55262d7cef90b0e016ede38f7eb1ca9d97e854a4b2543ac698cd5717c32b6948057743708552ae28b5575,
  0x00d832ea1a769c230b3a57c3100cff441e52e4b7adf1fd97b3e454ac2eec74d2383c98e1f79a4075f2a328290913407c,
  0x18f9c6054aaf256128d5d0f51498cd4a0cf56995b5a6c9f35f7b29c690d384a889567b4e7920121453ebde353c3a5be9,
  0x06da4a46b992f5d9490798e98d6ac14ebfa4d881301d8fff28909f400f6c77bf7f3983d2215a157bc7744491fd124c4c,
  0x155505ec397b7f22deec0fdc81e026efae7fd3682bc6751d12d5211c7fce7b76944a5c9af4871a37cfab4d668edcb4f0,
  0x19874a38f2d460f1e0f19097e864d4e37eaa1edce2aa4beac6e812922a172d9139f1d9f5a4c2b938c3e69a7b4fc42a8a]

theorem g1Part182_check : g1Checks g1Part182 g1Ys182 = true := by decide +kernel

/-- second coordinates of the points of `g1Part183` -/
def g1Ys183 : List Nat := [
  0x0704933c76c8f88a0a87a652f1bbabcd3df4afb527fd1425ab9e5b72be3a4c8fa31cd9eff72abbedad482593102fbf32,
  0x19e9bd8692cf593ed78865db8762b295ffa10f820f8645e25b98c62761fadd3b735dcb8a9972cf37013664078ea69d63,
  0x174e82c799cbeab757cbf648c6d9b8989f79d00fc497a41712dbdabd3432a899adb6e5114f3bd945cfc8c8729de3b70f,
  0x1212ab2aab34e5a4427c0a50d8549935dfad9dfea7bf1a1abf6bf6ff106598f92b6f1df859f2219cf59758c1f4de80c4,
  0x0a5e2f84fe98a148ac98110c4b7c92ee66c54870f5095f85bdde6fdce1f6be72c60f61155b089fb3d3492b8a8b8b27e5,
  0x08902b0c3861d1aab89f5a645ef031879bec65759dede43157d18b0cfcd3cd89f039f81fed09738fd88526d102ed8aef,
  0x060d71d097ff76f0bbb9fc5351cc71fca0181ec2793d90f5e7a08e55df7ddbee0232f1fa5f85b96858f65fde625db4f6,
  0x11fb7c8e7630ae49f40d2f1694ec40ad6deed720b2695a4dc3d491d9900fa8148ec3954bfc668fe09968dce5729c63ff,
  0x09aff58d257de286d78670cafcf281e4848715147f3c2a0d8d28711e2046d6380e5c32a55d21a83f485ecc0a34bea988,
  0x05db8452cf5fc4054246257073f15d54000a3eac286c39d6208f8e75860c857b26ae405f459b3e9fbeaa7b51366d09ed,
  0x0fac4f63e089cd022b11c8db60451881949f897df63f9649e8c0de688727f4358973ca0dcee8ec4a42608a483a75f8eb,
  0x034ad298af48c13a32c95358d928ca144147e8ca32ce31aafa9c5abb00d14d300c89e1a39124941e4c4879953b90fe85,
  0x02026c17a5372f53a4ca57aa20972ebe8131685324996d91f7bfdf824ae247c0e738c6d5d76665f6119eb304381b2c7d,
  0x10a6fe0b1b5040916dd343c2a6e658a1eba536f18d16a7931755f02001bd19cd4ff1b70a68ba157350a317204194339e,
  0x03082234e34ca2b4ffb1385e778dacf7d5999a1b557d60d4d30c4271c3f2226aa3799a0d4b826f706c9a7a414ed2f5ba,
  0x0e4a3f10e161899d0f9f1dba727533ba88f95a077c9db71343d9d3bca79982751b783af3011f84d808a893d2d6163956]

theorem g1Part183_check : g1Checks g1Part183 g1Ys183 = true := by decide +kernel

/-- second coordinates of the points of `g1Part184` -/
def g1Ys184 : List Nat := [
  0x00fc05243b56048a431f42413325ab5cc7c012b057ddf5e94f66add07d3b00558d05e58cbec6baff81ed1370bfdb505f,
  0x07d113fa3c62ae352422e1af1284511b06e6c5085da983ad9712723d561f3cc69e526e00785dff54a6017e888600827b,
  0x0ab6566a30277ebfc16c46585699055b2ecbb982250e4c2eb48c4004287fdb570d6bfaad1acc15b22bed843fac176ba3,
  0x0e30c0cf556eec7f2823217e88ad51de18b4f40933a1efc76d0efba137be5de99952dca4b4d370b07feadbff67f7d029,
  0x03d23404e2caccdd451b103c03050d6bbd57ed7cf9469e43b04cdcab0c19f464d2bd5348c7a8882b9bd04b6a891b9b96,
  0x11bd172a1897cf88a39caae6b362d6bc823b02700eaa8a697445271579b94a2389352ff29363ee2c4327c5fc25439c5b,
  0x017d86f77d4ffa6310699a5dd6d82af1ad8bfdd23f06472f33f7c33c82e5811a62d8da2cebaefdf3cde607659cfee152,
  0x0500d711aa9ecc230f70f8143deaed2b4c8c7d45f66513d4ee96cc9f1785d86d975c049a0fd36b2eef8fbc57de000955,
  0x19ee4fbac3c783a7ad92ba177ae4b991aa0ffeffaaca4508e9d3a6a639c45b22bb06e17e116752253921b2f8e4f51f3d,
  0x193175681ee3a075c6655dd1f93fc48c8b2354669a4d8fdfbdd9fb1d1c30c7e48742b26de2841fb4133e458d22d6b81e,
  0x01262aa74913de1b225d2f4b579033de6f94ac948ca69bf1af39d39dd74ff6b6f442bee8b053c866ece559890261691d,
  0x0fa87b47e4d494530dd0293b6282b1ae69039ccf0e8f686f61bb1c335659257ae26f7cd4d9016d89d354bc4283ac3c75,
  0x02267974a7eca6c6cba0b867c05e06d2096b2408f8870403741576210f6773d7d2cf27732745cc22634f92afc9e87ad3,
  0x032bf54b239fdbab43d9351831b2f2ec53b4ac1daaaad76360663fd8febd5b6271ec01befc6ded677f1deedb42bc30c1,
  0x0aafccc80468accfa2fbcf38f461b531aa3dc23f843e353192c89ed973a669dc54ff3e650b8594877eae0a2cd56ac72f,
  0x10721d8438914400df9776b50833bf0e64531625d74b2559d7d16ee03b6959ad4bb8c5140c2b262c25f25350cfa2c391]

theorem g1Part184_check : g1Checks g1Part184 g1Ys184 = true := by decide +kernel

/-- second coordinates of the points of `g1Part185` -/
def g1Ys185 : List Nat := [
  0x04920a497ce989d79b486e52f9eec4a71e4c7fa3af3d77e8538ba4e3e2244b06bd3d0367d71330d527c9025c793f1c62,
  0x0817551f92f442118eaf714c4001ab44cdda9ffc9b24487205e0ffd00915dde082fcc57de36432785851831daf5aec68,
  0x064714d9f8b9e2c12a7d35de852704bc31731392d6cb4a7caee0c352e9ea67d39dff9623299e22ef8a7be168d6f6759c,
  0x0ce2ce03c59792f1a0fed25442a8f158f10a6ad749fcc1f8598df6bc81faa6bda2cc0d28794574db775875b7fed1d59d,
  0x04ab649fcf3407c473ea5c764ad8953b835d714020156646894defe6b34518d0e3bc0db7c91ae11ceefb78a630b1bb65,
  0x17e2d6f667ab47df0391774c5080ea3f866262f85c1a5cf9a0339626903c84f646166dc914f6832a44b29e6a310b82cd,
  0x0eb36d6d8a706032b0edc0ebebf7d40eb2402433d0b1483372e05e5c40fb0a7e8a5cc1b69067db77fdad00bc94a610bd,
  0x0fad19a7d9ac21ba497b64c2c133a4f4d7f572c0a585dc2b4ccee800d80c127d76682fbf5eb434fca05f9d6df736b1df,
  0x07d92063b38c9c10e51d23641d65bfde254d72487cc9fac7bf89f76d54d51edcc6e9799bbd3d2de3d3bc25b1c6ea811e,
  0x17db18a0eaf8fbc31f7cb4cdfb6e8bedadc71db03108616c48be4e5ea320544d4e4c65a3850b71ba28a1c6a9d518153f,
  0x19d70476a79f8f6e1e223d921085c8e330ddc285704cc879c5b5e2c0b42ba5b5dc1009a225f2c944abd6060ee43ed8d7,
  0x197276454c4a552c3327e6f7b8a2f81252e6d28f8668d3c24413a9ba352cb8746701036c4f9381ebf41f04919fb7e5fa,
  0x108091050829dcefe49927d6dd06e6a5302f6867faa87c71484940baced094ed91af9e86d7b35b7facddf8b6b4a92227,
  0x0bd75af254531d62054d5c745f49305f1184e15220c12062aa8b85b14c427331348386f9abd51cbafcde2ceabc98a263,
  0x0480eeeb4c7277a5410ed8efe83936f4bd05ee0a669faf5115314ca25ddf6299aaeceb99307d98f6fb2ed3027e22eae1,
  0x0abeb479d5615fdeb78fbabcf5656980e4b812af7e175191b3c07b70de7195f6d6ee818006cd8e624203e2741a1e948a]

theorem g1Part185_check : g1Checks g1Part185 g1Ys185 = true := by decide +kernel

/-- second coordinates of the points of `g1Part186` -/
def g1Ys186 : List Nat := [
  0x04109dd5cf90c34cefcbc31c63139c36e017bdbb6846b7d38930bd943b03b6cae8d91d0f12dc49726a264ec9d3c904fc,
  0x1419f4bb2819748b2d29f9a35cb1e3b330cd161e5c3fcea35ca7c36b1ddfcc74d06edd452886c5e952074f5d025771fc,
  0x08410941c45e42fb1d33fddb3a455e86a2bcde7d3f3e193748bd3ae460c484ee8bdb229020617c2af00eb250edb7e048,
  0x10b89e0955355fc0127b946738b04be110b1632ca8ed9032370a27fcb07a0135f68779a9b347d90dbe93f674b8ddbf18,
  0x000c71a385e3f2cefb6aa1f61c4821041f5c2a6e0237a9d63ce94e949a3845cb0e0bcb796044fe0090662d45c64d677b,
  0x14118c1fec657e10e2c1cfe0d0afd92e81466101aae78ea00075107fcb0ecdcfcaf1cfcf6288967780ceeee60f2d07ea,
  0x0da36e7d321d07201e05e855042e65854e368512e9a545a4ab5987c5902abbda327101d28aaf4b17e177426981533cb7,
  0x0c9ee8ac78ee1e83946ee2ee5b0db45960dee9187a41a10bbff3a7261601e45d5e8dffc0a264151f4692d4a34841b9b1,
  0x0e4fd6139e60c0b5a23106b335a9f1a2d64609b53545d8eaeb7fbe313437906e8780012b95094904674c2de4768b97d6,
  0x03268d9fd5fe8822e31162938dfa96cb6028316cb882092f959896009bb55668d1b730d8c263699d433931a4e8f81b8a,
  0x07d6cfd3789342f4c4936082f2dddce9f938baf7af082db02cd325f1cfa9636fe87fcd80a0b7011bd56879e2fe25fb03,
  0x08a74c4fb331bae7298ea323c739dfbe9efbf6efd3cff7404d7bac431544f1cec85759133840b3bda289f8b3bcae5ce8,
  0x188b8e21b166fae64115ddea786cc137788c79348eadedbd0b798dd892b28bfa7f777a944704156ae0cdffc1f968ae51,
  0x0e3f9d773eda4f8d53b6a252df30150befca53ac58af03268e64bb5db8a6875fcf7cb01fd16dfda33ed8ad6d719a4dba,
  0x11ac8108133e5f7d0424ce98f635b7ccaacc1bd3f2ccce894d9eebb742c31fc8130d4d1e49d7a25ee7d11487983db2b5,
  0x0a6dd8b57281b9f8025991872879a696d79ac200a025530472a9cb1f2e51ac01219ca4aa08946985643784e7fe33e749]

theorem g1Part186_check : g1Checks g1Part186 g1Ys186 = true := by decide +kernel

/-- second coordinates of the points of `g1Part187` -/
def g1Ys187 : List Nat := [
  0x0de94e4be19913689240ff6fa49a1651999b70126d620fe387d41535c77d28d59b6d01548e1c716a565326febb5987b2,
  0x1869a1c95d72be575dd6d936c29c2f0caf78d8dae23e723a934a67e239debb31e41bb3d467a0601981262a5078509326,
  0x03eedc3ad8a56bbffeb1f9afb4e34a30d31185591fe3a14f61a871ea33a00c75c059c11591e50f3766045c796cad30a9,
  0x0fef6b33ce11a28793c955ae0a39e4bcb142d092dadc4f659a45e5fdc40b62f2d5951f6aa4773f08dc75d0a1d1ee718b,
  0x083e8ae52b089012d1363e95a4736c2faa3c23e634be94244fa28b3d1eb94dd53ca1d5a489d135e9aa5bf681dbb332be,
  0x12c2dbe6bcc9852464ca7a1ba9a40a9562bb4ac927076401fedd0d582d0f60ddaf72adb46873c7fd2c0cb71df82ded71,
  0x0bdd045e70788b8331a43bfd70741800169217914ebdd5128ea739d46b3f5579b840b0f5270aa40b284645259ee272ed,
  0x0313b45a2023eebb0444daf4e2f39d20b83ae47d5e0bb7e308ebee1ee5cd6250e40d762af52a05526975c80c6a828f14,
  0x0aeea3bf6e8d90f5395927cae8d2f59d52010da7b11d58ddbc7ac935fc816fcf0ba1eca981b5b0e228e73b356aa489d1,
  0x0ae3061e93d694ea9e0bdb6d2cce334b746ffae76ba27a4d418f01dff6d6177267d8e629a63761bca5bcb8b781537f63,
  0x0220c91a5e73f37699ab1b2e2373aa983443701dcd97eb7a77588d8e5b7af986ff5ec85aff726530dcd51d3be7ccf74d,
  0x17dc99209c31059ffa3d478f417325fbad54b46ceaba1594b0e7a1b28bf134376befe9fbc1bff4c50a7272cfa67f7dfe,
  0x0ac40980a8028b8d6163de88ecf2fc9b89d003fa3cd55c31693d6e066b9b18d34749a3834e6b37dc71358048fc7b4351,
  0x1049ad2b80d27ff191400f081918285a7efa68637d74b87aaab3d4a1ff03171851bcc725be9388308390da73b781fa56,
  0x0d0c193dfe18198cc547e2b439aeeb39089e10434e5ab3715746e76b3309796ac679c8d42c668654df1ba88ba55f546f,
  0x04dc93216722b9202713d62f4896eaf8502e6b3a2ba8ed7875cbcff050cf7de62a5c3528ea1a7de912450b1b19012565]

theorem g1Part187_check : g1Checks g1Part187 g1Ys187 = true := by decide +kernel

/-- second coordinates of the points of `g1Part188` -/
def g1Ys188 : List Nat := [
  0x01fe5ad62a677dd27b1eb9f5ced71db3e69c267e162906ab0d8415927365800bb317b30ae0194305cc4434ccbe05ee21,
  0x0d3e565f303c2fc7f6a85cfda566369a507e6d2f5b7d796910da991438c8f639c9af2007763927c34400aaed01ce638b,
  0x161909bd3479f0335f5cf331a1d8647f975a9c3f3dc100043f409041bf13571b3d684dc14af35021c91e89d87a5d7217,
  0x028eebc2f75442c9390e0c7babfb3470a84bdeb56ff479e42286f1d7e4e037d1d0b547f269d4503fc10c51e7461d3134,
  0x11e95cbca1867071010d1de9c5c8582c3118980497717ef790681c01a42bb2577bd8b5acbc8028a67744c4f769a71649,
  0x171b283feb206d61951f0a0e2d462b3d582973cc270424a170318f28becdf86b5a228aaa9ea73fe895f4ccc286ce46f1,
  0x09bb6718faa4f3ee9d7dc2345cfb5c4088a1603c4b1f3d80472e50b87494948ee1deb86557e9ea9cbd0f90eeeb7224d3,
  0x0ae245ae7ecbca2824037b816a67bbe7c59b5b9bbb91a9433dc0cee540a165639cbff68ca9923a4c47374c7466d19d61,
  0x11730d36d63bac04af1266881ea475db2e5486c0a859fcfa9087ce14bade2766cd3c73bb0684b07dd7cf5a261b8709e4,
  0x0876b9a81fcc119a342b975337112f0bdced7c59999a37eb7813ca74fbd5e902fd3391a85ff118920f93d708083be065,
  0x1811c074458a2b253a0877cc3219c996d55fc916de0133e341c533a13fae34446ef95bd002a445a0eb174447c394dac3,
  0x192dadc4e8900cc61a0e9474f5670946af8c9c9e595bcca0431ba74529a7ecfe9fa2ffdb08efcb465f75cfe893b31906,
  0x059d29b9dc271103ebbbb0b8eb7ecee82c1eaa8612099e0ca7ebdf85032b48d5696364be57db4a7fec470de0aed24310,
  0x01772ebff2376e4cf3703ae41456d64a905145f6155388daea8766234c1dff08f6a658781a7ef7b9bcfcd24789744953,
  0x01c72161ae6e12629deba2dafcea10c4980509951964f0abf1bcad11a762392add47f8a701ebf4660f01ee17b63f8d77,
  0x005e72fe4200ddadcdf3ea7793ea51f1c72205f69981dfc98e154adf73c2dfd263c149404e27d58cea32439c2fc6b8fc]

theorem g1Part188_check : g1Checks g1Part188 g1Ys188 = true := by decide +kernel

/-- second coordinates of the points of `g1Part189` -/
def g1Ys189 : List Nat := [
  0x1550498da21ee8666f9cb44ad46722d2d7c5e647f8e53c2a0e8baa4ba3b598c3cfcfb0cf7bfd6334ad9d5984419745c3,
  0x054e60621cc7329dbef943031f3d97d0bf5ad3efdf4924eed6184355a9b3f629f65a5f2c97dab30d24bf403896319e36,
  0x0fbabc21e039f287b3af71c216c500232f8a10afea6752b866c769f8d4052afe274c5041aed0a49d5213336bf169fdda,
  0x11d0a06ab49a0105120e2315f6579b46f12bbaf92d25f1c9813cdd989f2814b310c889e697c0be28854d72e3e938e62a,
  0x0fa0e0461adda3138e063ba8f00472122b76ffb85f023da9c9292e4a26672b03d08b3dc081f095e8ccb8ef8924441bdb,
  0x14b5516ba6b3b73714c0960cd1e8add4c5d42581396277c68685f2317606a723980f68625efa16dfc42465ec9c45d7f3,
  0x03bcd49ff9b4877610d57897ba698ce1c3905ed0ccc3dfceccfeed31927911bb062276acf69f0674faf14d68a2747131,
  0x0aa78957c3147eb14cf9f28525ee663b08cc3dd7bccf13fd999397bf630f52f42ae332e2a448cdb615884ad72730884b,
  0x0d47d2b2d8f522a5f3835c105f67b810a33f2198be4442c76e239e50d396251e81dc227c955ccf835f6e3b321d668db0,
  0x064f5265996a8db72d10f2f0b441a97eb4146a16b81acb62aebbd131bf2c938e3f4ce971a0158972fcb1175837a0bda7,
  0x0dfd90572b03e861286311e42b2f81a7d6b101ddc054b1c27c47285f47dfe75219b6fca7fb96a75b4732575b90630a6b,
  0x18199fa122af0354092370264e859931e68d858924688b5d7af6ab190df3a02b8fb6ce274a0dbca25bed4ce74b3bbed0,
  0x108bc97ccbcd96f166624c313838daaab0f1f5f345d7d519087e6b0ecbf575603e4b6c72051ac73ad7402b20a3a65ffc,
  0x0819c2d5bc29a8ae7112aec660dd95bae5ff5abbaa9e83ae6136b48ecbc6403d6ab15a6b3d13e5961c9179b42cee671b,
  0x11f7215baa92b0515dccbf98087a39ec3353a5e0f32713d54dc074fbee8e31463e654bd8e60386b9dc53645df28f4048,
  0x095c9f41d3e403af5a14b1840f94595c19d759ea0f56e0f5212e272a835eab6ffa63f1a9468a68e42b3cd9c927a99908]

theorem g1Part189_check : g1Checks g1Part189 g1Ys189 = true := by decide +kernel

/-- second coordinates of the points of `g1Part190` -/
def g1Ys190 : List Nat := [
  0x03ae409490f81af200993186683cdbf9da94bb53a5df7b2501166883aaafca53200da4213a15f0a388c9e041aa3c67c5,
  0x196d695b6e25047db84b7e81b7633b0deb1e67f78a5f5f4013801dd13d98956191b7c8291eff8736bd07b9f5630cc9b1,
  0x0d726ea7aaa2167de9a06d3fac27b5bbfc5475c69d3c70e32e881b46c32ba0248bada8b315909ffd85aa5a240aa35de4,
  0x046fa1c3470ab058de8057f46fcb2b64be7c747c56b1ab9d84e6ec0ea9c9eb0301bcc3672481f0fad7330d86d6c85d31,
  0x0719695f1ea2fe312770c110250db7ab9c0fc2bcd80927e30a3b5c1324ed8780b2b165f13b49a5325c7d5538a7ca4c8e,
  0x10d8e076335a57c7b53e8619a591f944ea3350aef4acbbe599b1f8449c9ebab997ae2e22a63a457d44987dc429818cb8,
  0x16f98c3ca0b4fb14796fab6f3568fef1ecad2832ca71fb65c2cf911187655e40663f87505b34e3821ae7fa3cb1cd4cec,
  0x188c5f275a8f342e13b4cd8718e2ce386a66bf76eb0170fb6899386f5ec490542e28bfc6d7aefd10b2ec1b8d77bfef8d,
  0x03cf4c55a88552ec1d200b94b6df861998de9554b7683dc7190eafd2e85c78c0c189224257bd0931f47b8cf9e32e2292,
  0x11eb90b23bd16a58cb565809e28b85e44acfd17383b29692e0a729ceac9b798dccd0d346c92e5168d3519aa4b4fd649d,
  0x17928a07ae7add089bc26687f294189a164e076fe2893df2ceaa7722e6a9ac4d68b8c9985926495f1bf9432ad7075bec,
  0x0b1b0104045cbe5287465992189ab9bcb4de07e31e5ede17a14bf94bc479ff64fb9a6e9534c4e4a87c1269417a34fbc8,
  0x10db69caaefefd89f299e9d96535e5eba9a349cabaf24d8e549c205baf2e3f097ff30cc60f4993135e6fc03414fcd674,
  0x0ddb8a2c291412c93410199d6619969a0ce49636f88a2b4a5e9c080d775874a033139f806cbed85c9d28f02a7998b4f0,
  0x01d7b1031d65cfaa460b55c52bba26cb0c319b4c8c4fdce6dfec37b9fdd5610d55b0875ce6b5cbb746d9ca033475213c,
  0x080ddad4fa76e8c95fd53f5d7bcc60e1e1ccc93d1cb37d5ff2acc2f81e425e8159184b7b7128bc4350fdaf45f1d9b03c]

theorem g1Part190_check : g1Checks g1Part190 g1Ys190 = true := by decide +kernel

/-- second coordinates of the points of `g1Part191` -/
def g1Ys191 : List Nat := [
  0x1700f4f105b494af003b3d8b76fce248b2cb915e015f0713cb60ea0394116ccabd376b56f738186d70176bef1ed80f1a,
  0x0b72880dd46d08bd964f064466d6ce9c36710f6acf50140e1af2d60ac6f77d837b34c7a2879ac46b5068de4d482c23a7,
  0x163a99396d0a0403c041551846a4199804168a4971baf7a41b501cbf89b7ec64a4c1bde4f5e31707307cda8754718eda,
  0x10bdfeda11d3faa6fe264922cd6d13d53a221f6a8f8587e6eba0a0800875f56facb1b8e1ab41c1927357f92e1147363e,
  0x16a515e74ceb777b16288b3b6251e86f89f220b67722f366580f15561ef7d7c357284cb126c7b53f05530123e1a460a3,
  0x1383bfbd4b0bfea549413e3210588a340d6d381507ddf87886da651a139d6eef0fe6805fc5ad297cbdec928c40750fc1,
  0x086d7fcd4a90b98ef786a6c2d0d48bc0d542c529dbd47fa662e86d943776066dc46acfc09e3184543d33ae6d8062015d,
  0x110526ca302995911912883f5bc8739952c68f94a39c624da95faef08a606469d46fc0df5819743018a4ef538862a24e,
  0x11ffbee1d025ff1241c55f00ee4cdc6ceaa7fb8e6444394630623aad060871cf8debfd8f82a062b587c9d39994dd0010,
  0x09dc821d735c54f276fa05c4acae33c6679118c0fe655675ec70f5ffa15e97eccba554aaf51c5d322a9c7c69ffb19225,
  0x16285615e27e9ec1789b43334b6c0d503a0e38162b5ac864611b8423b089b55d38be79c45ada96d18cf9234eec42dc5e,
  0x0044c22191a5a6417751d042a19396fa0a2760d7c3d741dacae255b62ab74ea9bc3ec4fb989d3273323de2b7b4499f6a,
  0x158fd83495329bedef2634501940dcafeba327a1954f97ae47823f0c89ee5d8cd81e5aa2fd8ee56d2f309a00ee4a80a2,
  0x0ba9a30a8df737e9c8c675286bc4c5556289c3b528f6d81204a1c7e84a8197b1a962999bb4630bad7db29b954ba4fc69,
  0x16718eaadff0a0456a2c3806d1050f83dbc921f3e9f120121441bfb14efb575f89fc04ba5f99d8e886a740f856853b30,
  0x0ba657efe2dd107977e08ba13635755c38370f70001b60a27b572ead91c854b50106c69d17514946417b73d655c984bb]

theorem g1Part191_check : g1Checks g1Part191 g1Ys191 = true := by decide +kernel

end Verif.Embedded
