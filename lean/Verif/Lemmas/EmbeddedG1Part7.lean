import Verif.Lemmas.EmbeddedCheck
import Verif.Model.EmbeddedSetup

/-! The G1 points 3584 to 4095 of the embedded setup: each number passes the check, with the second coordinate of the
point as a witness. -/
namespace Verif.Embedded
open Bls

set_option maxRecDepth 100000
set_option Elab.async false

/-- second coordinates of the points of `g1Part224` -/
def g1Ys224 : List Nat := [
  0x03d9babe63a5ce1c3fa6a85b85466592a0a0414434df70bb414cd8e4baec4874b60a4abb22223b006d84e644bf12457b,
  0x0ca3a99c04d05ea85585003e5b4d8a3a1c4854fc3716098d34c0167a1313abd32c34787ca7d1a3df9bbe12a2f0b57f6b,
  0x092d2a348262dd75803d7f75247fa872a53085d29ffbab6f7bcf9d57291eb37e0cc0359bcd4468e375180876c4b29fb2,
  0x0d863bb156579daf3a7b199ed327d1bd8337db5a0367a9efd2b21ba900cf81972b12b24f28511cd994cb86d602734431,
  0x0ef7f6ea819ea57fb3ad56fbfea2e5cb6333934689d81ba8afc8944e84dcb4488e022e6a8d5f415027687d9889ad83a9,
  0x14ae63a53fa20d79a23330ea74d152fa5fc6e5bb92bc5f31f146f34117f518edd96ea87c666e239c016201297d41faf8,
  0x125886dea1efa492335851e4f82754cbad8780bb01d6c16a3b6fb7078b1f53c6837bb5af917d258bd478c2b0c9bbc2bd,
  0x001e54bf1a47969e18c48bf0fc4447fb46c87c4ade794a52b4cddd8621deaa727c32aaba6cd9d868d016915867d2c88a,
  0x018909d563da52fb4e5305bceb4a77d25493b677981c10002d258f846a4150f3c7678b02dd193cb3fcf829ec764d0d73,
  0x0865e9e0b21cb1f30fd288135aed22fb24efe5cd7377a1d921af662978580d12be7527e37212bb0cae7a44f8b9e66ded,
  0x012e13fef67178cd798f06c60a90cd5a03e49759d36ba6a5fb6ebbff2cc1e9d73be089989a9b81ff67e6cbc19864f471,
  0x0cccff96b15405142b6820832b43d31420081cbfa4665b497925bdf018c2f01e90b803a021dd7f352f2b51ea70396cce,
  0x177ac999c1e04f07a4a42f1b4e88ff356b2dabf090764b4db4ef65a3c41171e43d1cb0846488b573d69000caf572d611,
  0x1779349eeaf31c5f098d5a479e0550cab69e98f4fba3713629abcae634edb079e796d65ef873dde891bcc6966a2c00af,
  0x02b97a6579ffcf8b6383898e81822ea680db50fefa7cd9e0c39de0d5b560124117caad90c158f9e53445d8fce94ab0dc,
  0x1616b7f6089c8d5cc841ddca01becfe6c8cb0df6fb721af2bf73f2095abec9e79099fb56d713be3a98d2aa23daf5d72a]

theorem g1Part224_check : g1Checks g1Part224 g1Ys224 = true := by decide +kernel

/-- second coordinates of the points of `g1Part225` -/
def g1Ys225 : List Nat := [
  0x12b2688521cee1b0ae805af478d3333726c8dd59db2f7be8043174a2445fab88506a60e624e6bfb2629c1b40f1e4720c,
  0x099734600c164165d861b3b67747d5cfdf54100b68e0b0b1ca6a0d481c5e093fcd44ee18f6e84c1d4595a2f3b08fe57f,
  0x078e31e386558eefb6aab55bdfa0c493ce84249b41ca12bbc496a6abd309d01f327ae2934708452f0bc5a3f0de6ecaaa,
  0x0c52732335013eeceedf8961411ba02dae6e93accb2a4e22f479409184c168df9a232efc1dbb5c85a6096a0fbb3ec19b,
  0x1778514522ccccfbff36eefd66771bca8ec37653f2b9221bff5c3bbc26a42148ba526507c792b7793eb70d41beb26959,
  0x115d67eb1907236b4b3595d15e685e9eb701234612182528a706f6faf1e91ef73b646f4e33536fca09ad71bb71c6b18e,
  0x00a199bf0b636de36b85f5175b8e64ec843c6bbfd689d0d0d3b261daa94ea2cd45ed3b1dd71f9efeab0c8d1b9b96ad65,
  0x12f0e7935b0bfc0ec9dcb17d3d78c2a73811af2dc0e2fc24f2139f53025837238a042e3c61c7ae38e9a70ecaafc1f350,
  0x12b8af36b85d11bc22653d7c7ce25ff83fa1c6f9db02ca349970f2ca82e5f5433f3ff9ed9c83e6bf40c7dc9a46a67460,
  0x0f08f80738df0a7d1535e49bf70d64e831ac35fca3351bedbb9c3ee14604d317994b77dc12549f149987210dff9e80b1,
  0x00b902ecc566e3dac0c60e0f140542c0993e41b97b87750fe3c2483f858edb072d99e93c535dc3995830b7d524034e88,
  0x09211086800d839455f6ea365cb07dd813d616acadde07b8e438ac01ebb43b3bcb6dc1762d7aa593aea31d4cff192904,
  0x0e25f298fd305cd2f6bc54fa442c2c6a478f23538f671f6b3ff4ad4d027d6332ae6c065d8e046b450b32e4e89773735a,
  0x198e9b74a2d75a7ce5fc2a2b337fbd974a44620c8d7fc14e492ade1a0dc9d891de2985e6af4b04fd15b3ce728f4411de,
  0x0726469fad9f7dfbb87a15dab6defb66e3dfe1bd1d707259407866200e66df14167dbb113c7176299d576bbdd8167e2d,
  0x1225c070cbb57d61376cc99583132b5dbca457f50dda461eb2dc4e05f71f0c6385f3c2008fbacef74d3897117ab2daf2]

theorem g1Part225_check : g1Checks g1Part225 g1Ys225 = true := by decide +kernel

/-- second coordinates of the points of `g1Part226` -/
def g1Ys226 : List Nat := [
  0x18b613832f119b4b28ab5ddbb6da01c1e17c17b9d88e108d72c67e3a21e9f5000da4c0470b51e1ce3798f7da793fe88c,
  0x131ca1e213d1bc1b370533ee19a56bf75ec88f63afd780f3d99f54029def2c64ce1e34d7f4de7ff194c6bab8ee5afe70,
  0x163d9ae064b3942923a96fa4852a7f3452222c0b84a7f170c09305e55d93d687ef5774f247334e8c7a229e4ab0f7965b,
  0x10d222c0d4eb20a6cb333d4f0c51dacf9959de6b0cf2b7224ca3078f80e8e4194c55e9584df194081b4686cc9c83d3f6,
  0x025d166451e4aa4e9ee0cfc0c25003aab67dced84bebc6455395007a6ae3a1399646c8602cd0e6b07bc1a7332929de07,
  0x1001a6168a3b195b7d932e058c10c1c87ad3b761c9c994f3a8eeebd82ceef53622273ba6cf345e4eb29f61e8a305f7e4,
  0x09cd59cbdee09b46f16e2a6f75883904c876f8f640c3eddeb038c936bb601e3505f06e1a12907403dc3fa3de025f58ba,
  0x1878007f125168e633dd3b25a8638b968b194c221c96068d031991c46ca511da64b315018b0d6664c62864afa194b364,
  0x13c9c15e24fc88ccb049779157fd1b02d047b3f38c5f01caa7ef0e150b6698cdf8a1f1c99e22dae8b0bb334c76ad752e,
  0x0fd49049fca88dad6eb5deefba54988650e27b38ddbf11a3d0493af6cbeaab971f7b38b1e5e58f48a41a74d0b21ab419,
  0x078ecdec733283b435ec228be8a6845f6da927c898cbcfa2f6a3b78c2d0fd976ea3c1ad656ea3df181837369bcb5b15d,
  0x111622e9aa0f2c84d7fa0aa48de8ac8e916a489ddcfb80b9e32f9329bb91130b284664dc79d7019028ec92a54f67a8f8,
  0x126481ba28dfe5b6ba2820f7346e1649e2f6987021f457c3303c0b3d1879cba560a573b9eb6a28aef9f8b3803d0cbc00,
  0x00303920d386bce60a0b664bb512f618fb386624e70ad0f6581cd9d82a98c8e342393361770ce889f9e4a5e24ec834d4,
  0x191b9ebbf6e06208b67ff9323f476c3dc7ce8ffe79311787518105409f717631bd9a4dcdd08888d9209651688c9ce954,
  0x003345651e6dc5a243c4ea3d5abbc6e50380cf2f30b614ef0d395160f1109ba2c6a2d8d31564c213d4597ee44e880613]

theorem g1Part226_check : g1Checks g1Part226 g1Ys226 = true := by decide +kernel

/-- second coordinates of the points of `g1Part227` -/
def g1Ys227 : List Nat := [
  0x0cb66d6de55fb09b51707bc3e32fee669e9c1a0ea970221aeae5b574a6d4d231c6ab8d4e54377f4bd62782423776bee9,
  0x066842bec823b9fba9b52d7843bc267a150c5e3619d485d4dcc7724f5a3ffe48669cee338358f67ac35ec6788a0fbe0c,
  0x14e29de178e9953ab2b1adf2de2da80f613d8eb2d6549689a24c0429b0642934bdd066a9e2eb85e2e8a7a59fb5a08ba1,
  0x05b26783b9a44177bf1e2df5bfad41bce5d44a63d1f56dd6abe7c13612a5f698278ab9c3a8c98ae40c1d7621a1d7f149,
  0x0a593691dba0a7629cf5f25b2f686cf9bed2ee7706708a3be860b92ed2e0290b6a4ce57f3203801a4d72b42d957b2c0a,
  0x08605bfce82dc1148d3c5d2036a5d58f1a82556f33c69e225bd350edee1620ea4afdcf09ac46bb67ecce1629dcce09ea,
  0x01d14eebf5edf350994266bc85d325ca105ad6e3aa1fa474c7a5d10225ae2e911fe26a543a48b0abd91b7c30d37ac179,
  0x0aa8e218c47aadb1c543c105cf0f1027266a041fe132b9dbfdfde145891aeec914198ce61e129d3b9a04ec1ca7a69c99,
  0x051edac1e6987167d348a677618171ca076166ba20ec2d805eb114aaeea35b1016663c5aafe01565c8560b3e22fab527,
  0x0ff9709e51f961f38c290ff834f3bf4ff4c522c5b8c9fe420575d1b0db5820a3e879bccd3918d9eca3210a7c5af30fd6,
  0x0d990dc86a85107088cf23752ca1a58a827c5bbac9282ef0a7ddaee09c03ffe07b060614657d295f6cb800e62869c7e5,
  0x0819ac2e827127b118c271ad6a95bce8d653cc6848266f95ad34a66e1d31b6455af04db8ea38ce93f4558d21b8ed733d,
  0x0646b8a0b557d6478b7b7b737db09ed0087bbee813ad8f52e01569bd61c3c724de1b4a242b9f858a42035e921cd8708a,
  0x0d506e16edacc6b424fd5607bbfc1f8c14764126731362a1aeeee3102056675b62009029298cc528d386422b0b3dba80,
  0x150af36f8778bd4d13c7b8c43522526e8b20c670b958c203434c6e20b89f6bc2f0f7109e262c219ffe7f8975a31cbe3d,
  0x0d04bd8e03fc7399588884396bfbd6a2000ebc6d4a117dbb8fec7b260131393f1fbe147b88de9f3b5f782ad6432c1fd8]

theorem g1Part227_check : g1Checks g1Part227 g1Ys227 = true := by decide +kernel

/-- second coordinates of the points of `g1Part228` -/
def g1Ys228 : List Nat := [
  0x0b750de5cf8c6bb1beeb3630bc6653f07191df8283aca5e4eb5a7d421033fc9ffe5ae21aaafbbe1870749a759873e211,
  0x092eedb614c8ca67d3bcd5f099f11d2dcf4c7d8099288c85f6aa4c450b5ee4537d5ae69fbabe876064c7c5ad1059d8a9,
  0x0b2806dd3c335684499ea163060bfb29525edb4742e3f2717ba07ab4d8f47e8a5853d91dd35f70341d823b66b6ebeb22,
  0x0a1b69c09efb8571b24e0e5a311d5cd3d4fb0af3e2e6f9bedf4d75741fec876c56bb54c10ccc05c6e698f41de73f4880,
  0x18ffebfe638776f68ed3ecb656f7d0c263f69e32718755c7b08fd247f2d1f3b0a6710dbb21bb50de5ca6e9155d5af84c,
  0x0a3ff4c8ecd557b4d520844e5d1418809eccf3ad70584f498843b3f15856dca50bf3356aed176844170e49a33da1c851,
  0x05c0165745fe4e57f7a0f5d0f580f88c45697adb6f29c59ba1f11ce910980632cbd0a74720b6a799086945c1d861efed,
  0x156ed4f41858696de7f0df1cf99fce15695b7818b4a900c42f84121f8b140d26d2a32054a80c6c931c93bc8005ae7c45,
  0x09a3ab0cb2b9f2ca1f66b384ec68e4b7e9213a07acc4f923370f685f305e91b79535617a5fcc68563bbe62b77919d007,
  0x0716b9a34de9981ab817db93f4db9bd81ea8129510fdfe6253882b117bf69744fa2c3d0d4281b8250f123e8e7420368e,
  0x0c8accfd528d1cf39c4698a3ad7ad80aede9ad48a406ce1c8072eeffdb9771a8e22ceb68416a909adf300fcc55bafa16,
  0x0ec66c2e6d047910b572616196153365573346e2d513ab7dfa17015b34e6d4b0736fb844a8ccc1a595006f367083a66c,
  0x0440260ca5c6150c3458b1585700876c901548059eb47540aa6624238b2521e7a03fdd8a2dce4aa78b1a1eca7f9d06cb,
  0x0a03298282d61ca5f5a716c8b2216fda915933cf4633dcd073cfaef141b2a19e61e7467b19b0adec9a18bed25b4bf7f5,
  0x120064ec6064d9b88db4da26558128499b1ad8fae6a7ae84a024c5ec9a64fce037c8a1bbf9c0e1bf5310189bdaec4482,
  0x127862c526ee572775d9c8eccdf03cb88facb79923bd28458c88c696e0c6756344bb7fa37074eae3365e6a0781eb4280]

theorem g1Part228_check : g1Checks g1Part228 g1Ys228 = true := by decide +kernel

/-- second coordinates of the points of `g1Part229` -/
def g1Ys229 : List Nat := [
  0x1141f3cae1816fedbd5948b000756f4a875922038f4e5dc7625f8883d631b26935fae78b51c6354c1f2659b58ad9c625,
  0x0fee0ecc172debdeabdcfa70e7ed405a2184f5cfeb2a71bc317da90c92e2bce54f6447cbe01621ae935110cce6cac804,
  0x1909a430deded19c909dfeb7e8db5d97d1293a8303ab01b4f89e0e2766dc20e0a2352cf8ac28b231495383d4dd8e972f,
  0x0ded08dd355e06e502bc739d4d1539d8fafa95b81b247c6c7ee2138d2a9760088a9389f4dd523d6e02752beb60d3cca2,
  0x0a2d26f3d6278aa159bceff87bc6cda4ecbeaacf22252b28a68cc17d8383aa8c418c3e3008c156b41d60ecb00e26fe1e,
  0x14a18f5d0cd197bbfe77ba7b3a018cfa852cde15fe39b5f26ac3eea53651129ce52efe7cda6b24b7fae9acfe7f145603,
  0x1748067c90f1d95090ac11a26c304abbd09ac4063a1f29d64ba9ecb6939dbdb613670889614a08809029102938307e67,
  0x0693daca5d4e847b1bb4d61ec0a68f61d6854b8d8026c118c7b7a29a73ce6fe99736993e21b047860dd0b149233d0f28,
  0x17c973af3a345f7614bc29ab742e08fd6fff9722741d6e71f7460af91050c62c998fe27327a8a2cec805b72782cef7d5,
  0x0e2f07e0dd4f33d4de3cb07cf16d3a1a242eb20d60e36f31b802663600e1fbb976d617c5d3b1d45a55a30446e44b2d9f,
  0x0b34542dd9c6e2160b0aa8cc17e4fdfca12bac8c470636bee905db811f353f5a0aa04e8487a406dc03b6aba6cffd2e7c,
  0x08b7156a714151c90e7234c8021043111ef34e3ae0e610f7280b077d5dc11ec52aa9395dc10bf6f26f3e2e63dae52ddf,
  0x1639c7101e15fe4349cf428bf089bd8a8405a9724e7243ac7d0c5bbc1b130cfad2cbce66abfe0dfe76e4791c8a38b20c,
  0x0f0a9634dbee9940b2ebea4095e84984082aed1aa23b9655ee43e8e290bfd6a0061c2035071a2c5369a20f196ca13eac,
  0x1302caa905828fd3cc53f86ae00497b5140a43ecc379b2d87b2003dd34d3897c0af8e3b1ab29a0d6b09df957095988ac,
  0x0749f58aa5bcb5aa51d1a6cf3ae2e0a14025dce98e073cfd37bbf0d8c6db1e4c3200793260f5b790f938b02040445fc5]

theorem g1Part229_check : g1Checks g1Part229 g1Ys229 = true := by decide +kernel

/-- second coordinates of the points of `g1Part230` -/
def g1Ys230 : List Nat := [
  0x012ceafb8e0d06fc4ebf4f16009279056c18ac7943c349159eec1532e03d1408dbd63c6ec225cc9d92819a5ee779f61b,
  0x05a728357b7af64a9186d0133820b11154d2026a0f6d6104488b94706fb4b9d5d30ac8a8bb54273c50f3d813ad5074fe,
  0x112e1d5e38c812c1ea5750821a6279ac8a00bafd4b80f960a9287a63b009d9f9f4b04dea1e576b1d35e86581850cfc73,
  0x143dcf68fb41681abd5371e0f7285cb412f85e53638fd5420ac76612e5c8b461a6cdcad1f14d68806dc165caa694348a,
  0x0ab0e43b2f1ea155e7c8fd57ca795a4f13b20d43b2b2747669fd86208169a67ecdf665881d5fcbcc00e0052b6e6827f2,
  0x12ceb831992e4784c2db430aa942fa39bacf4179ade414b0448595d22148f00d800f4e426d3713327f9a0fb4856298a1,
  0x0d983b5cbcf8497598947c2714196d387ccf83b90c368ef86028f3131e98ec2e4d2339e8b5bb6f6185f9efa43a2e8b53,
  0x02b8ed89b7e3c4d5d15d62ae218fc40eb556f87a8dd21b18ddecd63d16d9f57b08369192eb3969c0f2eb5c345b46d4c2,
  0x182a362f72a9478e02d3f4112f345c77c5cfda284ce6993d450c9e57e138abd76ca42e86bdeb74be246636e3d11323ad,
  0x1129618ccc0dd245f54b9654dd811cd5a2564c6bd457c9b8a820116e4a572d9bb1d7de3b7c47053480178b774326f10a,
  0x06843ed07ad17d80d19368762a60af3608e5f3e37786ad2f4745a5a6184e302849f3d0058cb80f82375c44a72bec8a90,
  0x18b83704c9870e1621cda401f4cc1bb8d32c041397b13f101efb7c9b334d5b58bf61319cdd505c827f8f086f14022e31,
  0x07a344dc1ba15ea756ef345a8f3a054b83fea1dd9d3ae02b07adbecb753f2bbf3f33fcfac919543f7450b51d840be1a9,
  0x0cc70c90a79a68e6808b576be129b7d42a82139b07cc5377d4a99c007f0ca15058870fd14ce61323fa84ee37bc2ed0bb,
  0x06c4087841b886d74abfc3115b754413a13e3eddc38c87aa0077a5f4bf8a36fe77653348a576ec2d415ae119fe8ec4b5,
  0x0bbda27affb01684a11b9ffe8c8f818bc2dbec128e86e6d38b6267e70bbc1bc79746c996d3370c183abda96018c13ff2]

theorem g1Part230_check : g1Checks g1Part230 g1Ys230 = true := by decide +kernel

/-- second coordinates of the points of `g1Part231` -/
def g1Ys231 : List Nat := [
  0x16701bdc8e5fa41a9fc7a87cbc57818636c395636f252adb021624cb94ac43388aec10a67a5c9ad1da8ebdd649093d1a,
  0x072c45e43913b3559b74bc559e598742873ba83a3cfa384580cc0aa164f74f71b2c45d3560e47ece27e2bfe0adbd36a1,
  0x06a915d9d49858a1b264fc60acca4f780f06d7835c0e219199acf2f440f404ed7d901cd3a4a4ac4d2bfd02e106c6d937,
  0x0ecca1f77f097fee83501d8c89c6692f2b5dc556a6cb2302c343855200095d72158a9a7a25e72190d5f812aff4910591,
  0x0e58b6084e090930dfc0fd87ced9e7e0bb03ebe9accb186853cc60fc1bd73fd4dd390739af851af41de49c791e3f5adf,
  0x0f34f8f7a3654498eaf4d40ad1afd2df1778887eec8e019f5629fbe08548533730e0436a26e8520cf461389361d8279d,
  0x11b1b25d58d9c103fd78afff31eae72b85946819ff12a5df193a56ac39102de4b3a4ba3977625cc503243789d083cc01,
  0x00bebf355ae2fbe24883b22546b85788cdcbdf607be8ed3b6e7f2e114d66dd7b278e420f688af386bb8fd0b6edb3b758,
  0x02996229af2dd82d03a077efb57510779b9af41baf7bf43bc0871410e6703d464670b37c0ccfb478b95b5fb052c5fbc4,
  0x1798cb76ecac86453724828ca64938459b5bdcd39986d8bf49dcd766f9a20bd78cfa3ec6d85a2c27766e5bc1e3abb713,
  0x07ee70b0c6146404d6a9d9d867fc164ec2bc89afc0d6658b909310e66aa726bcf2fe5a1dd4801701a5f07d4125b5e244,
  0x11e70d5f93130be6e9d8008f5409e2e9ce47985f1adf017d708db1cbb30d4ce9c83d031e245dc8ab72ea54e8eb8b60c6,
  0x0e98bd4fd24af95eebc543e363a68c130e8e0a56b355ec5db1d0b23cc25a05ab7e2ca3a165c1f182329379a104b7a08a,
  0x045327f54b6fb95cb95d5b01bd22f64d01f7a627abaf862457b0803328d35bdb62dbf55b95742c27480ce704d9f713f0,
  0x1540d6a56370e7ee03cbc6a4c4c5325cddaa876619d78ef8ab6fc94ae5ac26146ee704ff63908be52980f7da85b0673c,
  0x0ec875e7d569fd50dd4c690125624d83525deeaa5e3b5210f086331b0f528f7645a12605a29a0842facccaa5fde11304]

theorem g1Part231_check : g1Checks g1Part231 g1Ys231 = true := by decide +kernel

/-- second coordinates of the points of `g1Part232` -/
def g1Ys232 : List Nat := [
  0x10de6e817248a7c6d64e39dad30d355ac52a8df080cef6c1239139398e095880f4a20e264343bedcecfa4adcfd435a2c,
  0x07697b85a8c9ee265742852eedf8b5b31042a0d9dbb32db1f8385bd663d8835c65d55184a497abb30788dfd8dfa9f76f,
  0x00fa288d439a639afc2016c502b7c0bee1ca3f57c17e8cccbc22154cbc6d72b014108b3fe1620ca2521abbb50c21248e,
  0x059daf58a2859af2567ae6a49af1682092327428dd7cb231b1dce4ae0144ade8c5e5f5bbec0e18f0db31732e2afe6dfe,
  0x131157d2b060063966f29357061328512c03bde2c52b572f49b96d6a902f142329bec45a0c57d633caa46b61161a30e3,
  0x07edc1bcc45e1e1673b7a8af2559fd9aad8463b5dffe9bcb66749e9bcda207697f97ed0abc6654c44208180a27416397,
  0x15a89898d03d85b7b56b0ebd586f5c426b1bfefce821185f43cd3e93f16b85c81909fd95df157154f05f19b29ba4a7be,
  0x0938f9c2b2536ed5f474b1e2be505e46f95f568f562ede158cc54f7d3116fefad42577e23fc24dbd83aeeaa270a570eb,
  0x0d37f4d952b9fb3dbb47c7e4dd9765e3070175a3ca95c2c574141af3403863588639276982acd7bf5916b688f8beb6d9,
  0x0a50171d8eaa9b17f3f905d40d8a8e4ac65e869a4a930dbcbbe1457e6d2bd18fe3971fc35de6d1286e2a31054d9988f9,
  0x0d9856eda662c7c1071f453aaa687b29ab3cfaa8e238b7660b2904b761d861f2d54a47eba16032d31b05dc6970933ac4,
  0x0b066fd15108369d310feef6c46fabdc8b3c5c7303c82c9acf91e1d5646d8885332fb9f962bb984eba9ff69c551645ee,
  0x0c6e57fd4f0aa5002983376d96ad2fde04a25bf66723787cdde5ea44ff5b8c1e3e1d3a73fd99067564535fb5ffe6cfe9,
  0x12b8e4a2966141678914d054eadd2b2a5b42e3a51ee29dd4e1d23e31c1ce541436d105181fd21c1cd7bb94075112f773,
  0x163edb52b5881dc7b95f293c2251f13d5c4a17b44f57037835473f1def9711be056ef1b74016ac17643032f4abcc0a1c,
  0x0d8fa9ea3e941b09d39eabea531409c4e804b7620ba7a3cce52c515097d663ad62a8abbfc5aedd9aad56a285324c3ca0]

theorem g1Part232_check : g1Checks g1Part232 g1Ys232 = true := by decide +kernel

/-- second coordinates of the points of `g1Part233` -/
def g1Ys233 : List Nat := [
  0x1818c288029b6013971d08f014a922cb865de9835e4e73e9f6813c5e12a21cec1ffddaacdf022cd3318eb3bd4aa3bcda,
  0x0962a12b1846b40207159e7eb56e63a9649ee602bc91192f0685c52c5642391c980ef13b8d06cc4c49f5c73ef369a9f6,
  0x0613ee1a3f3cc67fa7441c0c4fdb241a3ced8d5c4a89f764197996abbe7e7f45a13c4df45cd671e9dc7787b966b12b8f,
  0x0b478c58566e955676d0c74337819b55fc325fb1f31721b8f6120a58fec9b31c33acb04ddac1f0f9833bab478ff944be,
  0x0ff75f58869c1354ca7cf5c1911817f631cf6b0399217021c80482738f44264352315fac301547da356598581ed226d7,
  0x0399f727b7607cf8bf0cde2e8ac1109ee9fcf9f5e50d41ab6f87e3de81733fcfedc7fcd786fb3d051dacec8b9f1d3766,
  0x129fb2a068af7ed64de27b717c9b1490131192d9dfaf458c174d6799895b0571144d47808592dc1772c241aec620f42a,
  0x06686a54d5080c3090ff62a441e8a4c3acefb0272102ce20dcf6c4fe66254d34c3bdf296a406a7c3f9e11ea93ae0dead,
  0x0cc6d356448495ccf0d81ca9c66ff7189cdf813c41c1a6c103d0e106a5b7a55c7beac034a1e61550db04729e33f56a94,
  0x05dc2f31282db84d1e822d478c1ab0380ff8ac2e8da75c5bc24ee6230dc30f3eac4ed60646686eabd8ac697f28adb33b,
  0x07d05d691a89a651640e476df997c48b72cc88259cb5b172977ad9fb541cfd343c0a0309c05a60300e2d2b6a1820b97f,
  0x08206dbbec61d7f1e39e0f9063b21a53a8addfda8c91e8578f7bcefc99532542a541693080c1b00ecdb0f543c99486e0,
  0x0e7ac4ae0d8543fe2505cdec8ca2cd74b4ed9c9adfa626d1550e8c59bbf6e0fcc357980d3209aae5b515ec3eca981e61,
  0x10c43c304cc87adff9ad605c809d3e28dee42086655139070b6323c2ad2394f40174e055b14b04d5d8dc3f2b375b4cf3,
  0x196548cdf79109088541ed567d07946df31a4dc969fe087cbfb79aba803a58529605bfc983e67cdc32dfca5dca3c25a9,
  0x0b536a9bccc76b0ca4885f0c95b1c6db1d5898785ab70d5c3970c8d27d7ab6ba7851b84b8a25b04c381339546d1f5414]

theorem g1Part233_check : g1Checks g1Part233 g1Ys233 = true := by decide +kernel

/-- second coordinates of the points of `g1Part234` -/
def g1Ys234 : List Nat := [
  0x0d688f366dfb0b0e2d03a873b2ef6765f3be47b476fbafea825f9e3385ce4087ddc84e6630f3036248ce7edf477c84d6,
  0x0f88eac8051b5d9c8693c552c2c241b931f708c5476aa69c91f11a83e4baa6d98f2f06f0bb6b72b8e281003d8638934c,
  0x153bc664f6d18c303fe4e60a001113e1bc04e8e7eea94343cce3e598f61721121bf34262dfb0b68d2935f3d8a95b59b3,
  0x12e4358e952a6737391638d4419d3266b86cdaeb04ef2cf4df2aedcca770c88a68dac208a25be1dae46f72d84a5f7b55,
  0x09b87294fe6b5965f90e71010192cf88ff2fb6af6e1ebbfc8d88d0331c248e212b68f264ef84cd3416bb4daa753bc5c0,
  0x178111ddf58b3b8b7718321cd19ece0054b978e6ee1f5944acddb8209bacf5859d567a4051a315f3e453af577507b8c6,
  0x04c3ffb004e7ba95fe81dff8690a5eba110b378311891e5d44c3d1d2b46a3594d9605260b199058e9f664cd7743da782,
  0x06447962dc8c15a2001c1e6107c7c03580a4af78d8c94abfd8bbe4c0bc6878c816ceefdd2ed253815ef7cb535ea156bc,
  0x13e753dc1e8caf67ee93d9c9d069cae6a291dabe36141994bbd5a811f5cd57851e7ddf24de9572f93478e2523bb317fe,
  0x0bd7a97988492500e989231c62670f74e42092d36194d3fc1a7a9e314f3cb4b32625a1e249a35c25b5563ce1e2410e5c,
  0x103f55e83ff9936b752dc23559402c37525a21eec3dc6bfdf465a9799c1ad78983c7ec71817c31d00dbe3218c93aa13c,
  0x15a23b1c025681138cad1329ebf55f79e4a2fa9cc04c9d8e34762d8ebbf7964a6d2adc52a89a373ce0e89066c1f602c4,
  0x0778decb0de06b6db406f79220292ebf9bbb3faab81e692b7b846f9e1560625322cd14a5e66c7bc65ce48c5b0fb2329a,
  0x018cbc6a0735b27e12cba1d984b9a622f1338c866b8f8bc29a5ac867edd11e08ac845d62dd7f566ea1fae69427ad7ad4,
  0x10d15480ec058c1d3945d2e96831c8aff4f2ec1e6c01f7d3ca9c21f150ce2c128470f967d0236d1f714e1d49e763d7fe,
  0x146e885c88ad9d87a5917e6daccce12f608322eb30c2ed0cf65c874262fc8d222ca1aa6b0d9322f4a8569bd2c33376af]

theorem g1Part234_check : g1Checks g1Part234 g1Ys234 = true := by decide +kernel

/-- second coordinates of the points of `g1Part235` -/
def g1Ys235 : List Nat := [
  0x06da799ac5f4b4469c7a80a0a2f5a65e7436028c578d47937267e95e7a5d83627fd2229ec5a4fb8e15e0cca5af41446d,
  0x088f23af0807f5bd0c10ca8cd111e51a970052d6260c601511ef822f7000327d2baed14b5137bac57a3d55b3cab8ee52,
  0x1962496de5e4e72422142eb9249e9b90e86a286ba60e2b192cb8f043c6511e7af9e20a09562d019702480b0225d119c1,
  0x136c80650d7a3d9446be770775e7bc8bcfabbe22ce8b1153644ffc398be5d5cdb0bbd632d956fb974f12bcde5cc78776,
  0x04544e78e731bc5fef62b19a9eadcaa093742cbaf57119d4c3916f5bd7aca2b83ee5f900ad66c26ec0a3ff28549a017a,
  0x08da33a2aefc1f0aa6da7b28824b7a34e98654a4068cd2ed3d7928475fb21ae0f04d87433f4f652a160037ac96054db9,
  0x11c5df6fb6efa58f64be7f26d8635c2a28b9c473251a6540f2dfeed645d4132b38e981e99511e992e54d4f953fdb5acf,
  0x08484cdd7496c185e5ce8cc40c02ef67e3b195d100b4c55fdab4ba43c796db7286e35d9b608829424abbedddbbea4406,
  0x130dfbb240b10cabacd072707170479349332e31af9fd58f3709f1a2c04a98c00e4b7b4654d2f6ab5f06f5a2dd3c1bb4,
  0x024d34aeaa8dbe547591682493f095dcbe24c1d13ec6b20383d1abb87bfc990cf121a4d078b4cda64a176d01d765d5ce,
  0x09ff4c1fb429d7a8c17b755c98a5278799294612dad26728cdc656399983fb406cd883696080a10495da5d327e7dd637,
  0x01db59338220e73059c6b0de18b59250168e2ced465f34e4a36206773d2e5040d90da5da0a50438b6d6474b3f0463ceb,
  0x18733053b219405f8d0e69f66e4f665138a3e8678b022e4f515498489a5be8edf5a928b80f5731808f4fbf8620cba84d,
  0x0001213f2b1d4e2c3a320c9bbd0b0d1dbedca285ba9ec4832adbbf897cac2441e39d14dd418079936e42d4dd9d7b0470,
  0x03ba635f1b223d67f645fadbe7b66d9e426153c1d965d993a47b9670c95207fd6f346f1972096721b2141dbe8b870f80,
  0x0d7d4557a46472296d6bf73c17a772fb34fa5fd26ed73697979f4708c29b92928015459f30cd0dc027762cc55953f6ea]

theorem g1Part235_check : g1Checks g1Part235 g1Ys235 = true := by decide +kernel

/-- second coordinates of the points of `g1Part236` -/
def g1Ys236 : List Nat := [
  0x0adb05eb1522db867af5d0db4a6c3fd591b5e5e74f4af01425164af53dca31d6074301dae2877dec4c425bee0bf71013,
  0x06c2abf0a08b5830e709b4a64c71c922fd79474edc010d829f32b02fa4c2fc47df0ffd71872a1db0fe03d4be05ffd48a,
  0x17e75583ebf49ac8251836c729eaf9adbcc2ee8d0bc77ec345881e24958507a8b4e51ab22411b8740e8d79fade76a0d3,
  0x09a5a417420a023067512e49edc5dc8b2beda5940858e2cba4df7a0318afb6fbdeaff6b2d7411b73a58d532558cddd7e,
  0x0d097c0c9da02862af9cd93e6c28ae76759c0c292bce3a73a1f1d375a07cb10f498d66051b56a14953280f095ae69c53,
  0x093646690ae922d488883ddeecf23d3d490b0a60aef19d201ad5cf0233a152532ce46b3ab081b5de4fc1ab5a6712fa59,
  0x080577ad0ca031fa95f38e1f85f060e84d7108ee2e6d9e3ed9660d0033189d05ae0854a6e59ec580be697b30720ef705,
  0x1229eacd8057175e5388aa54dd0acafe63dd764cc1358def9da20a6519af1462c00e1f0e8be950e1d235acb88b31da0b,
  0x06e511ff7615974b13769f58997319d137ad60b5b45fb657db91c18e2d52317f517f867137f8f83f7e083a2bd0a39440,
  0x013e8340d5f45726f71c5613ade3de09c0f5294c35695519ca35c27e1262857064667660ffb1f4899b409b392449ada6,
  0x16c1a450aec8d99b9cabf6e5960ba50cfd162869990d7961c398a879da1c86d202e3a9db438e4a63223902e3fc56ee4c,
  0x1503c698fe6dc97e99a1b472dcbcb834b5e4bde8408390cbbfe843eca2d83eba6e3db9af36c3a0cd1f3c27765d279dd6,
  0x0db52e8f6d2f7d9f706575bd0f9ecef541f70ad11abaca601c6566dacfba32075adcc2104e01f49579103d2cc8c4a600,
  0x17ebe3858537d12b814c532897fc7c020f79064f02564f1c46e415434fe08d06b1a6aa66f515f053ad7eec46dc024d3a,
  0x0178ee418604d2520445ee096eaf625e75a5f71b9151d1d3c99a90d2d431744a9066218e8a7a742b483975498959d472,
  0x09fa4c1f68dae812b2efed9be849b011b3efce48d3fe1e4c6461c1fb69e1b0560f6db4375dcb61055a29c8d9661951ed]

theorem g1Part236_check : g1Checks g1Part236 g1Ys236 = true := by decide +kernel

/-- second coordinates of the points of `g1Part237` -/
def g1Ys237 : List Nat := [
  0x0bf858a20ca670d2b55925a02e83e234ea5f5d9c4bc58c3db557dada3ea98f6ea57ca96a4e18fcbd607080d48b5f8df0,
  0x04f17d91bb5a6b0e7bb2f7884a9a017dcfdc2d748f31ed8393ecb083daed0da20a312c5c324ed97928764ed1d6ca0039,
  0x1008c0017a7692378dc82ec6827443152a8e71c6501b53c245719e56d789df5e1f40cbc50c698ca2dfb931eb035c8cfc,
  0x0f09d3242e32f7822ed9a47124535203825b4765fe0187659a06326c37474f2b2c30b87265743f875f708e429c5b6123,
  0x0282b7e8858fd84eb7e34a63856bae970fec8c73900b9925c4f1f5a9be72f2327756619d2262c45c6554a9f3a0aed9fa,
  0x017047474a4d56e5d64501cd62330fd50673418da7ea1088c6cd1fe9e0ce35deab2917382535c08c0a43f33503665a8e,
  0x1920043df898e65a45c11be50e49d91b812bb6859f8a7dbb5203f0c17af05895dfb7be51d289128023da816f19ccb2f4,
  0x0dab9cd2bd4903044bdc46ef3062af3f405979d1567afdfc5c2c02be42cd63cd82f893738b9445018b9db681ec152d0f,
  0x068a212b4d04e6bb343f52faa00395d04288c46c94c3cb2f02924847013c2e87151df91075d355682b7ae2e6e17c5f06,
  0x0d7ece2d33013d3bacbf7f5d2e4222c394cb415f683951390c6b5c159c448a4de70710a908df8398056efde08b27d71c,
  0x01cb0d38feb102592d12d35a8512fd2e159104c38f84146271545728919b6a15b9731482da0683268ea6c54c9e2d29b1,
  0x0cbdd7596fae33e9b6c650a8ae8bc6fc2d5ca477cab4d19933f7160d0bb9d218111155ffb7bb08ab8ee2fe7d2529b2e8,
  0x0373442d3f9895aa3343ead174bc125122189a09c784e0308e033ed262bf2b5ddc4f7afcb95747f9b6bbd2840a5cf431,
  0x0544e28448c7e70d3a5bfb3728c83716745a5df05617f0a52e537991e8267e9b35ce9fe63d68d8886b6ae9cae4e987dd,
  0x18783abd53ebe791d6397e40c9cab60665b6ab6171066b89bbc8fe2799fae5e8d643cfeb05c7f1dc21c9e65f0fb7d288,
  0x12704f51646adc20b4d3d2994c581e9aee79ac2a43aa731c8d1c31dcd3faa15c8c48a927e7e88fd8d5cb138842e03bd6]

theorem g1Part237_check : g1Checks g1Part237 g1Ys237 = true := by decide +kernel

/-- second coordinates of the points of `g1Part238` -/
def g1Ys238 : List Nat := [
  0x11a318ba176ef4a93617703b5839c3e2610b3e31a4cd95524d97414f75d3b23c103266e96a789d83f9d5fd62dbafe2a8,
  0x143bcb2f278cfe754393ccf8d089e606c94f30e8566567e4b8b09860808f44d642d90b545bb4607dde2af6a71bbf37bf,
  0x1830e7facae8098be7c3cb8130725ccb6e4e7fc0f26d040f715b917b020157929ec4e35557de47eec67ffa10c045dea6,
  0x05c80d2a61238e3a257ebc7802f2a5d8a033556960dd7873a1595190a57644e7850f74eda1670c7e9a002b8ca0616eb8,
  0x16c3dd0cf2a9da2ccadc1caab683bd591584799cf8cb470458763fc92d1a50165185ca2ed3c9275e621c0f0ade8c7e82,
  0x0eba40429bede79b348d6214444828825eeb95fe4d808990b4ba3f77daffcf6e927fc9283922b8b8d49758bceef8f715,
  0x09048647fa55d65dc02c03bc63e466cbf16dac3895792f9a300d3f4e3bf215963c75755b9b34a9b2fe33222bcd953a8c,
  0x08d58df139cc88123f9905337a3a128510a0a9b391bdd14fe56368a3a29afa15dea1fc9d8444127a4e9e2b9c32133958,
  0x10be0a6dcced775ff640d85a0c3bfaa957ea52d84107d1dadd5c1aed2ec45edbdcb5439392277edb239af1b73d1f6f50,
  0x0998a1dc49276367c847d919364910be1ff3862070f7277e56acb10e7f6e580e154ad29686a8d1b08006e8d40e56f531,
  0x144b641b02a744fb1e25fe84e7c71557b2051188ab9058c5be7bac7235ea1fb4d89d372f90ababfe9c1b5de7d9f682ee,
  0x12450ee3b0b4ac6f652ecb3c3346a60b654d86e125ed34265e2df80507a34680c582a6d55140c55107906f09333d0d56,
  0x137da182b0e9267c48139fa8681c5ef45dbfa789945d32d39c6f16ae5a5149e8a20855122f92f65300587e66e602a2fe,
  0x03b921b2cff03b12a17fc97d26e4d91fb75d54704a17ff61e3f5bc0c50e1c49116712ddc00b3e90803dbeb0030f8c968,
  0x00000de4ab4c6ec6e1081da43dad982c85ac691ef4322218ae4b0c47da3e8f89171f02aa08e41f44651dc76e72213ce8,
  0x0c4c93fcd3a7c719208786aebebf31b7d58b4c1f33fd68198d3aee954c3fea699164cbab0aa79fa73250875bce64df0d]

theorem g1Part238_check : g1Checks g1Part238 g1Ys238 = true := by decide +kernel

/-- second coordinates of the points of `g1Part239` -/
def g1Ys239 : List Nat := [
  0x050da78be31fe44c9394605576932b4f7b968699d14e40ed75f6d34f72678e08ece1d17b850ca83b968ab58ab7099fb0,
  0x0af283a2b4492748fbfb181200a7d881b712085244ea9e2ddf13687b4d3e7969e8f028e58bd1819101fcb2652c20cae6,
  0x11d6ac79bc1f843eb6924d32509a90fb7f44ca1551c18fe3cc7f9a711a098309882fd6a48f418cf9196cffaf3489eaa2,
  0x071854bfd3bc3e70e1f03e2502101c0f1c38270331101d64ae5b79f37a51f3d3560d6f7bea2938b50015ec358dae82cc,
  0x0bd8cc4863fa3af03e45110f853ec61d65c41f304c1413d60f3942798b726e4944aaaad0695499649ce3d18e6b59031a,
  0x0d8e60d037dbcd1b7524801e73215c46e7b00f93b59a4277df3834f9f431ccc0f351e8e1cfb779e141e057378ad8238d,
  0x129aed3a41ca8ae463d3009aebfa99eec30c33d4f312a576470f29282e68d2610ef50c997e3550d4d8861f483ea07eb9,
  0x09fc2cbaf08c4400262ae47752385cc0627df1fd2af6f8c98c49186621bfed32dc4e8faf2b256b074e09bc016fd98cb1,
  0x040862d3daa90420ee0f587274ca75e4837831f794ef8a0d35e39766b62ec0363b2d84b2ac3f175f2bdb774b9b4da83a,
  0x0bf88211345565ef852bf6ad3cccf997aa66bc7caffb2bbbd4c4f36a7dc58238f96348dd4a6ab405c483e83526f2cc88,
  0x1522f633f17ab0d68cb7651a75532facb09b66144100fc95963466ac4943624d34b721e3787408ebd80a5778ae03ea67,
  0x1285ce1b4a1e152740c7f8f14d9172338bec29b3cdcd15e065393afb96c468c35a03505b3546807672ea987afc62a6c3,
  0x19ef51791158565a95398bdc3c68d04ade3f0435c4b54021e1838cdb79249301993a9cce7375f0b748f379566b094f8f,
  0x0a5cc13708334661d45e6c7fb1e80268dc44a8404ddf89f67c654f78661aadff61e8184ea3390c42209f2daacaea0630,
  0x0eb23cd6af7edab33f02f9d6497c7428fc694d202eb76a2fd31463a2636e6fffe235f17ebffdc24e827a7a3b9abbf0c4,
  0x00df3c9b0abb0ec3845214d6281ecdc8574631a1473be9c0deec1123ab4e5eb5468dc275185f4fb99297e1f7bd39a34b]

theorem g1Part239_check : g1Checks g1Part239 g1Ys239 = true := by decide +kernel

/-- second coordinates of the points of `g1Part240` -/
def g1Ys240 : List Nat := [
  0x120c6d72f725ec30efed4f53f069dc3c82e8e6f1551e6b9d30c9df32f250151e61f61e016ff0400260ace93243c5e059,
  0x0767ea88c6a4bdd77ab671d7f39f7ee4ab0b92f71ef913490cf670452861b7bd77f76d4f03786e281b1cefa0d65cfb56,
  0x01c26aa8cf094b74fd36db298e67d68194beac3e75fb210e0cea25aed5a82b26000d945da85d2048d32d98be68840d5e,
  0x0def41354eee2f13c368a49a8bb6c6247ef2f1933fbe0a2b8b2d8e0da58e6e23c7c1d446959c6d18504d34fc1636c017,
  0x11aa43e54585d61664eb0251865444e48bafe867f95ac1b285c3b261984d038fa04204edc8fee77cf06ff8ecd4b00fd4,
  0x0dfb49978a5947ffd496de35ac1a46b66901e799919b4e92059733b24089955e2a6253e91ba55ad353752bbca3c7583e,
  0x180ccfa99295581f3425f9ebe9f8b8688fc0812ae3716f89a40c95d4b007b5756cf5e77c5229947929ad95ae08dbc301,
  0x15bba7fc188d113038e72de9cf9d0cc1f7b1599881f692e1d98da32a3965d02ae2f312b512acffe0b3dcf25940c4a5a0,
  0x01e839d2d6737635f118d343809a91783fd10bd80918d12723dfd60fe2e040d2000442fbda91cfcd89b851f939a22206,
  0x0132821c7b8a5c73d6bbeb2aa221d66a2bc3462268f31e14a7963c3e96ce64d5ba623b75b91751b51b65395b0d12b9b4,
  0x02e8121af0f170cf379fda8ea6b0d3aad30ab31f2b0c635def530a49bce1d400c6d96e7cbbbafdf93ba46cd7896f0516,
  0x07b04a56a12aebce204ce95ee00e7679b2a09b8c3c18ead6a953c0c174696d515a368bf10a238abcaa10a61253aab666,
  0x0221e1120d8910d88b88e8b1b3360346e606f593d29ad51eaa7c4ff3886aed2a5dddc8cb60edfae8f0881a481f9e1cc8,
  0x0543b6d5c951d29ec9d651779167aff6d6f97dfdfaf2337e0d89b7eaffecd772c7ce12190c6db4f3e0238b0aaec97f7b,
  0x1770c231de5507c933dae5419f31c1bd99378959e56f92f574ab0e401e31313bc564b25d149fb3a8486e5a51658004d4,
  0x11e175fae10175a8f80256560123da1d69034ff42ce5f4fe4d0f42e48cf1808417f64d736f1014f5377d3bcd97ee521c]

theorem g1Part240_check : g1Checks g1Part240 g1Ys240 = true := by decide +kernel

/-- second coordinates of the points of `g1Part241` -/
def g1Ys241 : List Nat := [
  0x125ad420142dbaa266b0b57a41af60c0eabbf4dce457d763d942bc256cacf600261612dc9e7428d6c87001aa43f1ddf3,
  0x13889628c04118d63b04f2c4020af1483cf46e2542c28d74d11596d407373c3ecae56d74e2fdeef18870058efb56a393,
  0x0b3a1cb5d25fa4e2bcc5b60f96a883da4271cee4c87fdd75b7a065b832cd7dec7e90552745eea5fff3c9daadcf6129d6,
  0x0ba206b4d3cf0d0846ff1056c68f330c7c1bcfe36681956f14057f9aa5ebe99c0c7a6bb32cf65542a548a233f8d13e5f,
  0x05ebd1c2a5ded8e3f4b4cd4b2ffb66776b451fe537dc0c5487875768395cc9db7b13910750bb0b7e87de86744b3d060e,
  0x137648089e511a09adaa31f98d6ad337b1bd245fde77432966d1c06d36d83781276adca2c8fd67082852dc58fe054424,
  0x0abff4f457b1f685fa0032fb6cb2c9a8985ac230e9164abf1d2d73282f71fe7ddb18a4b0f5657aa754aabdb90c78e031,
  0x05d2d83909976b3b0edfeab27658c09b6f1c34d3d066957fad685ec804cfa59013d91466e8bfd48efc0903c9434eca59,
  0x184fb6c3bcf730d8bc2c1b23f719ad3d0e19810689e808ef824d4d4956d198b529de4856cff6de66ddfd720de9aaa9b8,
  0x0ab19d305efaf694b67f14bde286d7123132cc7cfe2d8e370b72f0b70d0bf9e75ffa5659388b4980926ecabe446c1dbf,
  0x18604b2d025bf58531638c816785332e3cebe4627714075b09604a842b6ecfd51fe2dd4d84848197351ed19e27e5d764,
  0x0966887946ff5504afce412682c91b705f084129150978c38e42bbd36b270ced91424048fa80f63b0614b1044a6eb52f,
  0x1627c6c8c92336abf4eec1f96ec13ff029e213b884b7ebf364a808570c3d840b793ad0c2c9d523f9908be1ac266236d0,
  0x149888fdf57417bf05f47bfe700ef160c6caa58915ba615a607e03dcf1712433b21f60922d465abee22191f7d3180d7e,
  0x192743a642c0c4a22485d52cb0745fee04552fbb847bab36804fb41894ee9d28e5323b428ae4ecd6dc4d4756b09bd106,
  0x19b893ad59a2ea8b46e43749bda87f43130741a0566a6bbf4fff5f636336dba7496dc8cb3f273fbd6c9332278cb70c36]

theorem g1Part241_check : g1Checks g1Part241 g1Ys241 = true := by decide +kernel

/-- second coordinates of the points of `g1Part242` -/
def g1Ys242 : List Nat := [
  0x045d98c9eb9f1b6bc248eabf1d4eb524062fef18048f044e5ad458899d1a6df8d18c213f0024299acdcb79017bdecab7,
  0x17dd044c71838ee6be1e8e78f5d6fbeedac2ee243a585f713e38d92ad3a1339753d63067ce9ff2fab8a8b469b9017cc1,
  0x13701cb46f6d61b86f9175b2448fd953731521df7bf2e1ca3e0f8a99d553747ed04729286b33f1f6d26ca1467fbe1748,
  0x08b16fbc634f97366ed800a9aeba39a9d93b08c8bc630375018ec3c3993abbf1b5538f767b620b83804cc47a7b00df97,
  0x167157717bc94be7f7f7f714ca17b10198ac1ac576bc93575e34c05255488a6183c0f9b205fed87efcdcfab716851cc6,
  0x1061de9d8db7bb839b1665d2d05cc33f71f6ffbe8b9b90daf52e82f66837db3ba5879fae6d26ce9d351e94ccdbd00386,
  0x09665109f25f79c6597ab23d8e03b8f0dc840e680305cd503b2489ed8e089db5ac06cd561fbc6c8cd799041c0bfedaee,
  0x10676e49fff31c325eefe96dd5902af8aa3b53f6cd3e37313b18567b339af67bc75c3463a04728bf75a154b202bea293,
  0x0f6b280b6077964780e37d81d0ac0b8ce94a302207577dddd056f1ae2d8df85c2d6eaac5d341df22c44b0444f31e00eb,
  0x18ba65fe74a6baa8fe190b10ce80965a813a23f6aa9cf56457286d5413eb8d30d8ce6039ff1cb08389d5501df5547ff2,
  0x058caf467346becb85610c23a4cb2470ac4efac011ecf6e3ee16d0c2a9e378e55a900315c77e0b7df3faf9e6d3bdaa6b,
  0x05da717a6fedc6607bdc67e2539a9d8dc2552c84c72dc80c1e2ef86b1a416a211f52bc9353ef17b6db16aa4dbeefe84e,
  0x0766e95c487b862c1fb7c6a52976f0dd5da3acaafb07e55e8407b80cb57b41181e79b4c5921fb56bdc1e51e96c7eca4f,
  0x121c05ab0034bc38cca695f3b6e8eee516ead7cbef0a095c47cba1c85d0e2f4de48a950d2e32c137ce383a38089e0eca,
  0x114b7e2e70fba3d6c27054377d82c8c64a237b331918774b83a530cf97ae53e7f8815f294fbed76057e543dc15ca876c,
  0x01f588fdeab18083d070a2506b5cf202d72517e41d3bc865400d30c85c918daa94326bc87a5bf33d36bf6bed96e0872e]

theorem g1Part242_check : g1Checks g1Part242 g1Ys242 = true := by decide +kernel

/-- second coordinates of the points of `g1Part243` -/
def g1Ys243 : List Nat := [
  0x0e65ef0344a06bff7da0b3faba91368a93e3b719e733f4d08212ab7d75c8bf6d50c121a571c6d97a63168cae3ea1e1e2,
  0x13fed6289be48dc5b8f3245f39648651c9fb221f18d6b5bd98c5afe0c4e62af2ac0c79a776ff1dba7f0f2c74a828c34d,
  0x10b32b44eb1807730bb83a9905dc18ef71c7d6f91914ba74a44c0a61abb4f0f9f0dd564254d55ed8444e7cb88ee48f5f,
  0x13fbffad11984cb14bf1239809e78f7c7f9b332687fbf7a490eb09f1814770332e6b05b21368ca145c3a02f8dfdbcb00,
  0x13be8a15652301b86efa4fd368e660be00dcc9a679955f5d071a8a7a88c941eb6d6a7b526a7c0ee773164fbad7031f96,
  0x0a3581a2ad82caf886afd8af81ce48da9366a5ec48321537f42f0f89d75faa6fa7c4c3715c3a1f3600a9bb1ed1fc4c3c,
  0x1544fd16733a52d651b5e1e0cd05904ca23c34bee9a168813a072156cd6f65adc996127b2e18ef015a15872f11614fdf,
  0x0461c8ecb406addf335ba4b4f93dc6c53ed75a89089d04ef0ffb89a30a92610d59edf01846971f1fc346b0dd9f697cc1,
  0x07dc2b0f4ad8852837c197dafb086cfa9998a54ba2f9da3ae9888b184643175da08cf36dad7b94407d00bc63fcddceb7,
  0x091d6b0115cb796b4b2f46752eeee0d62f0d1e516639f406a91379bb3184f9f39780a8255465b2d1e968c719e91f1a72,
  0x02cdfbe97959c71a997d3f1860734a8044c795de35141b8c8b6b290fceb01a032f7e077ce21250139f3532295d1ba707,
  0x0d843d443a9a9627364cd49581599c0e0717c9399f1447ad1fa680bc416f0603c4b75edfa1293897e415cd9259f0f626,
  0x0ba5493bd838cc859720987f967bfba1a6642e6fd3b897df5ca260c3350d275402815e706f9725832ac715b65cda7252,
  0x0f1a5905a4874fc9bd60a983de2dbe4f356a8446a0642c8689225eb2440070592504b21f93a754c0b74eb6880ccbbbab,
  0x1042de2a59545ccd06ba149baa152745f8ffcf0012fd1a64f620ebf2d8f095023031ec10f0fcbe852b14d4c565c4b731,
  0x0754047e7cf330701a0f5e41e4d7ac3f816852c45f6e9f19b20786d22b2d0cc3683cc10b6ff6fc34b487ad8669bcfda6]

theorem g1Part243_check : g1Checks g1Part243 g1Ys243 = true := by decide +kernel

/-- second coordinates of the points of `g1Part244` -/
def g1Ys244 : List Nat := [
  0x12ab6d97259fda68f816cc22ae67995d42d3bf7819faa1f4da636c5d3b9db8b846ffdc3842b0f1c7dc58f43e1a0244f9,
  0x129d93f479d4af9c0a3f63eb25a55f45b93c2eda0ca5bbea67a8ca677de68f0ee9453eaa9c4f0f03b0cf8ac8b2c98b65,
  0x0e33d8cd1f0a8a3ac3d5af19cbb2c18e40a1b1f55280d8ce635fb9735965782be23a9bd375af414fce889ed4e01776de,
  0x1018f5f374c0c5ff57593ec12459d830f61d0f27a1147e18e81e4afd2c60ec9246b889fb340f2ffa2b7d4331ecabbbd8,
  0x084acdfef07456b362479f66f5d09e7632ee5332fd0f94ce02d0597b935cdd78ed9c34a71896af271ae8f56e57132fa7,
  0x0bdc9ae446e72b6cec708e679e07bf5aba8dadcad926bbf7d2d5274453e394b7cdb8716b233ea4bc1ddbd82a703869af,
  0x002caf34fe94fcaaf8873a552b1ff6694934a4062c718bd27d20c4fbdb185b686555d8498d31457b6b2ad54df2fe2b3c,
  0x0101098adeb30531f546b7f045b9553f58954959adc9e2fdb67fb4dc76b8837257ea4b52b54a0674fea350ee7af7c494,
  0x00f278c955952fef5f94ddf3c73dadeb74602dd112ade53145738f0a9927f2e193d566affc4b0e44d0cdac2b713bc5a9,
  0x0b84825d876626d3d2bfbfa18a897efab2f7e534424f7c838d51b0f17bb40f8218f1bc002388022c24a5366d6b798fc1,
  0x0e5496fb1fa3505744ab7167024c9e4e4a7f4b7dc1b9d90d0c0d087fe0a48ba16af6aa16f62f742ff9a58fef4aed4818,
  0x161e0d72664ac901b9ccb7b2cb3ce8caca57edf760448d350f4ec636ccf182bd412698baed9a6950450173d179fb7fc6,
  0x07910d38581326b57bd63c9ce7c283237c8e6d101ac9a768d373a76e45dc48b2fcf19f643ea0be52f0221f7c95446c22,
  0x14542432d89650e1f56c9f8b0bd93a02d87e03153080dea5a963497d8e7baa8b1051964fbd721af644d7a8415fccff8a,
  0x11bb6539f77ff74eda2ed3f33eedb64d384f2ba90e42cabc896a5b791d1d095885ffec29fdfc5f847613716e722ce964,
  0x091222413af39a3c1062697c1a1220f001771e106ba5b78de39e2a7a3077139d8ee392b798581f7434d044d586d365c9]

theorem g1Part244_check : g1Checks g1Part244 g1Ys244 = true := by decide +kernel

/-- second coordinates of the points of `g1Part245` -/
def g1Ys245 : List Nat := [
  0x12feb6520e56bf46b6ac0b3f6a494c27f4f03758ad0dba8721ebf0c6b6c257f810a30fd5258d151a0a7c1b8cc0ba4bb4,
  0x0667ee48a698ee6a2f3b0378d6f5261d3ba7d90adca93b15f6e7e5e66cf0b1cd8246d2f67063e81c08c8a9bf8df603a1,
  0x0b5942ee70af4363ef98e0924728e1dd933aee4d4206702e058df33cb2f48af0ed448e3a3b4de01337e180c274d4efa1,
  0x106516831982bc25ef43bb4aecd0fe657c31e1af0ee97aec9ca5531dfc38aeb3d10988a932fb28f78776d6f51148b840,
  0x0bec14b27fa915f58e8a90423401c1546bace16e043a9cf079b3495a205e246960fb4f304fd93aedd69c992e62e642df,
  0x165eb15e9b2dd0b2ddfb74be6e6ba5887e4bb7956b3197a78ad6808f2efabc82576ca207ee43224deb115cda15c25e1f,
  0x14ce5d05243943452d4196476b7971c994f1296508d4d14abbb80963cf6afe866dceb60fc670381111f12f12d386604c,
  0x01a9d332a8b4e1a33bd314e43b5a5d1ae15d64077c97b1588d1e9c2b55e3a45a134840a3c9ffc2fb077038d1a2a75736,
  0x152aa14e730523f46c8070c2a1f722a57947c772ed9c438e89b6a1522dc60c9729b36e5ec9fcdb82f2ad7828d803fff4,
  0x0f19f40f889bd9dd23c1024f4d9d3fca6333b1fdbca24b0e4052ba39cf5b79edfdc3bf71494a202242ce9c438b5fe334,
  0x1727fe75e2b7b98f95922e43dced197ec5071821136aa69dd4f701d4d4d9099152ae840110a56759026d38ea1e7e885d,
  0x02f4e116a9bfa113d142f48293c2a1e063f476a8b3cf47d3bba306090cdb896a212fd3d3cd6711ab2bc8dc6ca62c93e6,
  0x151a1dda83ab8f94191afab9181a718b3f46ffc66d096f51ab0221ce7e1d86ec9374b1dc14ba0043450c5fe3d04a00b9,
  0x047d2679e9653f0346c049943855e4bb93c3c7d88050c861f133120e47aa4c8f4d12639125d6561e9834c0035eb8e964,
  0x0a4d560bd22bd6b5bb4819e7edfd5bed50e8b6e04cf48c0d55487735f45fdc47319dbfd2fe1db888a64a50782e114405,
  0x098b3bb028d508ce48d632a635bd73490ccef32b842cb524866f3ec9bbf2367fa216c00ac984ab1fcdab9fd38d46823d]

theorem g1Part245_check : g1Checks g1Part245 g1Ys245 = true := by decide +kernel

/-- second coordinates of the points of `g1Part246` -/
def g1Ys246 : List Nat := [
  0x11831186aff335a60239ef7eed424e81cd66af3b25c4ccc48ab61202ce4673814d1380429afca413176469a5e36342c1,
  0x13ed034ff571a17a967c268a9b8fbdf370e33e0839492b2e10a480e913ed0d58d806f96507759db9a361296660cfe2a7,
  0x12a8a798975a0558a2ce77b9296430fbe275f4f0e3cc5b79b1202e2daa4bf1983dc376a87efe308e361e4e3fdc9abb1d,
  0x10a97df2d995850ee1b1681976a0ee79a9c59c8484dc49a1335cb7c3a94e047f58ea52efe560168a17f9a3d405183710,
  0x152918114556f26fea54706af977f0be41ddffef0fca63b6766af232bd5180cee5c60aa0010dc4029b2552103ad7a6f9,
  0x0392d6ceea0ce9ce3ed58b434d1c0b9b5171220a4f2ddb409dc096a18b3af75fdedf86d8ae773c0f7f12b174276badc3,
  0x0e6b59dd0ccece16839d0d1bc1cd2bbc51f8b91e1bb24a88a0be6875f9ca5fe9f1a3cdfdd47dce6795218b24938f4bc6,
  0x0bb58e9b8dd503103abeb2757f346837697be29f0f9e5a57a7ea60fb3abaa75bbc8c4f2161745dea2f87b56935420903,
  0x13ad3dea0a2871de62e41a16d980800540adfe08841418456999ff1a372c8837db999a52178feb08f24f2489ae0d225e,
  0x09eee01c658a23040a2c282b3a9681fb70372c219a7a11b327c7bdf2cb8032d931545a60a5f91a0d5de73bdc72564ae6,
  0x11cce49a999df0a8987b5e18000f8d8bcd3b4d76c0f88f40f9d35e52030c84161aa02aec2b82cce59dafe9f6455c185f,
  0x03fbb306422206347477452e07526f10fbd8d819e96d5da2254f8d809307d753ea1ad59e1d61fdd0da79eb2683eae2b2,
  0x058f7ba69e6ada61f39c49506899104c529a6d51971b24228a21c641317ef43eaef45a1d8bf4acf6fa91621ec33fae1f,
  0x09a453be37598ebb4075c5a45a2a90ebe3eb60afece66fb692663adfd939c01b154b43f2c830b97c65d0004c5841a10b,
  0x0f7d0a70539e9e8eece1930eb15c79ac139c2a9b266cf291fbe5a81e48ca2169e4044bfac6914a8f27c78c097c58a9d3,
  0x1656004a688eb5d270899c7f2b78b377bf9eaa432f3cffc685d162c4b27135d7a326e9944e64e8275863a4efee490290]

theorem g1Part246_check : g1Checks g1Part246 g1Ys246 = true := by decide +kernel

/-- second coordinates of the points of `g1Part247` -/
def g1Ys247 : List Nat := [
  0x08dd8efc491c1b956e63b7cf9a4300faef66fba8499c3f40b277f61e91c25681b2625e2ed8a4d012c9c8db7455661807,
  0x15967b5b2a9087bb3933b8a250d0c75154344198c12ec715882805d301f2c1ff2675641d58245707aba19b35138b4de2,
  0x017d1740a6d0306b0a2673e8df1286ea6c20d5d4aa202423f984fe9558a63187c4927429e5837688cb57417de6d1c5a5,
  0x08f4d42cfedaee53355353a9464cd9446ce0e2ccedd2abe88c59dd0c6cabc20519ec37c4bdddd233dac6e382eb9f9a52,
  0x06492c1d2a1ea07ee19cc4fe1fbb09acbac172acfe42c71247f9d31103adf3685e17441eb89785e378ebbe6008a166d7,
  0x13bc086df2aed158abe91fb93af27c537f7d53238f53e9f50f4c0eab9cc332d2788ef8ad9c43df1b51c883f02bf605c8,
  0x070df2d0e552e7001a57f2d6a330624e83679a35865124315ad215f87448b0e9c3185357b62d9cc61acc8e6cbaf96546,
  0x1881aa8d1d768e3e1b008615204fe917ace2a68a9f58462260ee870d92730c40ad9e9cb4d4b607792811cd9ad951b0e8,
  0x03e466ffc831d1a24e0ff94e36e3e43471f0b2939e270f29b1798fce590b1ca8075c1fdeae0ad7e5f909f9bcb45806d5,
  0x0705900a289d45ff9b845311e7e23d161bcc67d4a5e02124878344e24d31b00eeb32ca61574d1c474c51e01f961163a9,
  0x014ffe46a5a6f4f5fd59a0084e35232d357c3852825421eb15dab3031d88224ac925b811ab578444e8824b986de93579,
  0x123c4f295338c34564cf822c9a3cd694d4e574cfc016cb5e79a1f5467c5cb540301c42c94fcd84525a7ac2f668411aa0,
  0x0f8dd8f4aef7a4c8dbada212120d43bc6a923be48d1e01616071f9524241d64fb402553ccd24a4e863f988bcd0169d84,
  0x117c6d70f2f4901186b431551ed7b7341b1b967c0bfca9c1669c8056468bcff4566327f60c841f71156abf2837528380,
  0x0400d747f5b2247ae73ac22bf4c8d0b7b3a4dd193310e5346c3354a4b5fd653c3978c7416daf8b75dd23b0e4fa0cc2e6,
  0x03148886c056e7428f9dc40d6509c58fc063e8082c4fdd92afc95607ddb64ec5d622b956fa866eedad65ec1b4310b689]

theorem g1Part247_check : g1Checks g1Part247 g1Ys247 = true := by decide +kernel

/-- second coordinates of the points of `g1Part248` -/
def g1Ys248 : List Nat := [
  0x11017bafa75b7e97987da5952743f06bb67ff1bf1a46a598fd598c92767833f0f009ceff4ff46c856c39ab4467a710ff,
  0x0500f9baa9190882f1ac9e0acb3b6bfbeba46485ba9e983c9fe7313b261d4e5a033d5e6a391b0891d5351aec105bfdb1,
  0x0c245d261e8bd8b320a707ac02fb837b31c6a55cd9de53c903cafa43062ff59a6f6ca0a7398e3f6108a2624238d8f32e,
  0x00a3e00899947f5b61a3d4e1221052be983cd703f2d8c81a5bde66ac40a0256494f7b636af1c5652dbd3a759cb487204,
  0x0520fd0f93ab60fec29ecc882fb46acec0ea9f3a17fc4016bd15ba920fb0b218c55bda7336a362d5e8d774b991713770,
  0x0269a32827f6a1c34f9f16fd705ef8a51b0f598eb08d0dc3e2147d4b275e47a2de769d2a07655680cac9c716ee90c19f,
  0x017b041f20bda78361b50cee2497682e50b837b2831e44699e0559e2cc7e7c7a5b7350e5374e48d79c38089290f48fe7,
  0x03c93d13db9c9b22040379b5152bf49bb0342c7a8ada1b46664204a06af1a8b3c8919a0353625235d601e14f90c0f70e,
  0x0fb561107a769476d1e613faa44ad8045d012d7eb96c8ed7ed932f0f577a8cb9253f9ea55d8f0c262bfd7b705416179b,
  0x0aab07c34275f6fe99560f5d11efbf6ec9efd04acd5481a392db8679836e2c29e833ba790e267cf17dcc3dc80bc1be86,
  0x163e2e142103560b7c19103cef936d62296daa7332cb460320d54a10cc417e3e0a3bfeb66a39338adea59ee5f7c5450d,
  0x0a826582f09152c4ea571b9367b301bcb65e9d61c27128d8cfd28bc4e0df9e6f3c8d1dbe25fde1ea79685409f5470eda,
  0x147280da82a4dadecf7a55a5e4f41982b2846ececbd85b0aa3d12853be87c59f443290a0c0f8a0ed633d221a1fd49e73,
  0x16e7d16df61d79e86d5ebd02ef9a316aaf1bf60148825bda1a0ce50948e70a960707ec21bac734399f5fc649eb433596,
  0x14b250efa425d910da88cc804764cc7c1243d9b91727dc28ab7ab3ca6f181121ec1f25679e8f4bf52bd4accdf44eae87,
  0x1684bd7caae2001b3a9f76fa803c65953faf1b5d0645410f29c96db205d3e490b6f7f32673124382c103f946e85a2fe6]

theorem g1Part248_check : g1Checks g1Part248 g1Ys248 = true := by decide +kernel

/-- second coordinates of the points of `g1Part249` -/
def g1Ys249 : List Nat := [
  0x1605b186bf6652ecd131dbf5cc03f92e7d45f0558a2a43f8715df4f7b25d40aecdc35be467eb740dfff5dbeeab970548,
  0x1168d4d0dc570fac90c89dad694e52196f4c86048862b96f7e697e71d164d9a4f8a32f3635f7162e050e70008747784c,
  0x1780ab077873168ee771f5cb04c9da89d14a9f411185a2ba9e5bc2686ca8f6962a6f898ac56ba8be0d8c7ed6589d792c,
  0x138a996d1c416fa25fbb917dc43ba5a6d11945c3e854029435e51a009196c45b11ab5e8c8c76bff47ab231017fbfb2a9,
  0x13d687201c227a8435771dc3524de196c83261dab3421569a9817ef3a653397026d04554afdd864d80fe82b648799c75,
  0x139658c2cda50375079c20b767385a7b4018ee56ab85650ea53514b200f40d6ac9368f7ecbb85f33af975cdfaa74a52b,
  0x186bbede059a27649961ec90104b0644aaf28bdb15d77667959be4b06d320df24e4165af7bbb2bf4b1f779276e45210e,
  0x0a082277b369344cce2162ef86c5b747a61f4fc704836ce248a061514cc071474d9a4a1859d88fe8877c3e07efa5e03c,
  0x0b69a939994a5d76e7d82704e2e6c6177cf309b4a4996c8544784b2917bef155ba0d56b2a7de02a35eed974ae117d6df,
  0x11bf3668c33048c86bee6541a66ec5bfd2c7f0702e0ec510caaff7d9b9cebcbb6a40c465644ad7979d9cc0093f75b4a4,
  0x10e493123d5bca3b95d6eeebb6145c705f94d8b7d128a8d08df512f752e4acbbc1eaa5aeed6073fc71a4d0dac0154937,
  0x09a9416505c611a0cd36dc9f2197d20e52b6c324c0ff6bc2d64a61d67ea09a6ccd573a5956aa072625810bcddfbae7e9,
  0x0844160801287266e2f3ecd0758987dfe6f4fff27244bf06eb59fdb5251d581917e3ecf043d93751e56a354f8a9e43d0,
  0x068f1a8ff129a5e67a950c392972a8ef8b951ba40615c97df04c8b9a50f45ef8b32c6c6cd4778eb04350f1c8b2896448,
  0x0b59d3531d87501497a2c0ce752c174d4a18ef769f4d86eddbd4d726a379d9686ee062fffe593c016d6935d0369d60b3,
  0x013f8dec354409337431bb7bbb6e18c054d70f18d96a3914862e2d71e65d35815426b06ba016744478029c52fcdd999c]

theorem g1Part249_check : g1Checks g1Part249 g1Ys249 = true := by decide +kernel

/-- second coordinates of the points of `g1Part250` -/
def g1Ys250 : List Nat := [
  0x074087502ab964d9a6c4555adc48b7156328180d8685bbcadc34dc6e7ea32c6617f598440915b6a72905ff56e027dfe4,
  0x0c1c2ccc38c75bfef02b7fa9fced87c2d64baf1630e36c474ae9f6213c5f5a7841f869795fa652798f8b6dd5924b6d7c,
  0x05ae9696c54178ec0bc3afa206997bbde1e191134c273e21b797ae2e6ee9213ab2b06ab6e75e3f1cad744b9556434e75,
  0x08fd9dfe669d4494d8cd4b10647e3aad2bef18a3f522f0fa564361d27f7e63193021f7535347dbbdfc1f8859057aa7f6,
  0x11404323cf116d9ba2a4df46174d48f6e4089115d1859fe97a541ef02ff5564dba3e064c03ce7f065839f7736478afc3,
  0x0acdbd87609f8801511eec5c2b5eaa3ba32f5a27241076dc078bb9bb345769892619afc819804d68dc961302d10ed351,
  0x047574eca2a6e0b8f1d3097368dfb19de8684d35cc9b7415752b06f0a3037585d55d14b446fba4bfe30f00ac541435af,
  0x14442eee68f3294e1654294f171a7c79c6973f1837b27a2087f709de505b81fc6bd5f322c813a8710d7b09dfebb4f1a1,
  0x140c86030e684345eb14c42001419ab5d3b1ba0085f5a93ad80dbd40ff9b84f7868db11313ba15839e74a1f8ed7d7060,
  0x0ecf877dd00017d7aa9f6f086cae82493bf5a2616429065a0097d6d2cc929f061f2a28301b40045331d3947391e2756e,
  0x1989dbb01ba01f94dc3d27f06d0651e27676372ef80150b807b61b7cf7c0ae089d5414ed2b8be1d255be06dd00266e20,
  0x04dfebbfdb3ade32bf90aa3de41c7d4a3fc6978c12637c16fac550e99acacfb1daeafde547b8eb9c635a2242a5a0bbfb,
  0x09807362a8719ea99c8abe2f1ad856df24494173b4ae5b7fdab9c02a2fce721d16adfe2227399fb61792f90ce69ee6bf,
  0x008b29dcd8c1d15ad17f1b06bcef3f81c2281ad134e74e4495c612e41c30d6959d9b10e4ed8bf753432c957bd111614e,
  0x104c360fa607043bd7236bce1f8bf6980b6866cf54d7f7938e5d553d66e0b1188f4eaccc93d55bddddebfba9d0f118aa,
  0x0d6555f4af28c0a5e46c5b4f5f6d7a9dbc649ea5e2495c20532d42d9cb39ea43c0a5126d76785ea7f34abb8b2ecdc5eb]

theorem g1Part250_check : g1Checks g1Part250 g1Ys250 = true := by decide +kernel

/-- second coordinates of the points of `g1Part251` -/
def g1Ys251 : List Nat := [
  0x09a05684e361c489079c9c8557e671a72e5f89d1e1374f824ba98715e7c53ba5c09809a61259cec874e93454899bc7cc,
  0x0936c4d35b5672dda6a6299988a4ef9986efe8cb3412a75286be06d3489879e3a71be8eb253e288cfea82561e0fab6d3,
  0x06454fcc8dde40aedfceffd1524bae0fa0469d462a9b4fe2944c1dcf8d0a6186c52fac205b5ec133ddc3ec578e8cac6c,
  0x148ea091c41f34af35be35de6a27a0828bd5e9ad8d1f7bbecf913d8032753c3ff282d00884ecdc81ccfa503e7abf05c8,
  0x09b85248ac64d4a1e773732a3ecb67cc32957ac6702f37c17c515c09ac942be29480a884e22a83e10b89af18121c9603,
  0x0eed0a23645969009e389ce6f6ea87b5afb1c162689b4fa366b04673ef7eb8b412e729b8778a384d00fd49be9b7b3165,
  0x0ee76edeea28715e2ec7801c50de6ceb069ef7f3937ab258e7e7214e52f66ab7e708bcdb6d6da01c6bfce295906e0413,
  0x112fe219115f59fd440506d64368e115814833b93201dc821757c7dd2fb2fc175a3b8a8aac54131564b430407defe850,
  0x12d7d015086f3f5271521721916e41f8bc380554adb49018a5b704d6598698b9d2e461b53b974b0522dad0718140cdc9,
  0x0cb4fe1c5d4584a2415c5fad799aefdb5fe39536062210beaa7e916b608ddd1ae0a770d0904bbfe7459c497cad92fbb8,
  0x047da2438ac1c4439d0b7c2e46acdefbe9b4f74ec7c5217785799fddd88b6b9ac007b8a13e2df766a9aee2e30595cf9a,
  0x1170eb555c90dee6db08cf9263d1f1924329866fbbef7aaeed1ae2a47139c4fc023331173fb688025790a5a38b89eca0,
  0x05f6605341fa5bd4c8e2e2b0a529c3af3d18edc6fcd62a167bd8580b46aef1c09c0a9361b1e14abcabdb8b298753243d,
  0x0f354a5ac78608ad78743505ed0178b88b7212e2e8075465f49f55809136fb219c88a3886f922aecbdc88e17672ae274,
  0x011773cbcc53e29c14658bd3312917122b614a734eaead02024f74260cb15980ad764b231dec99dadd71ebb18b57fc23,
  0x0b7cf15139db8e8c2968e9381f0831a5f87850c92840692bab1ca1e6921f1cb8eee950345cc5a57e99d1b1906a7f1fb2]

theorem g1Part251_check : g1Checks g1Part251 g1Ys251 = true := by decide +kernel

/-- second coordinates of the points of `g1Part252` -/
def g1Ys252 : List Nat := [
  0x12050a04deb8241b926f73491c19389f72db2850efbe4bb1ed9cb8a748fcd3b5714691eda0abd3d398a5a251ae997310,
  0x026a48e20068643f2de5cd15380cb138b7a001b7d43f51c0925002a5ee8da7cd21934563c4d15f4482e0582cc317ceac,
  0x04bceb9388c30ab2ef380a59059173ef701990a4c1731a1e711ab788cfebf31ae4eed7bcfed0fdf2b3df80a021bc16c9,
  0x0511d4aef76511f2a46e3f19f038acf791d5800a7a6848f22cbd35dab206450147377116fd9811e861329cc84d43300f,
  0x11326e62298bcc191d952d4d78dde0d273578a98e2353628b2cbf35935b583227f6a18b438e054be954628672de70526,
  0x17a8046b5836d503e8d3c1abe870ea40f547e29e7b6f2b206f5070b4e3c98342b67505af25719dad1dadebaa39809e8d,
  0x19a1dc34aebf1180aea2ecf06e891d673bfc3baca3e1361a8dbf22bb6621c4e66eac2dac8493c616b5fa6eaa9a63df79,
  0x098f5991752173162d149db0e02688f2ab0e5079c3388abac86d05def314436e37324e264a05e8417efb073df88af065,
  0x17a8753a113cd16cfa72cb041cc06d1d205c1aa28182e0a8f541c85734af6e6cff9ec513329cf7e0e79188ba57f697d6,
  0x0bc459c70426acb8aa67b41a61ba68b02f444b263d132a21e307717dc2bd7232ae441711ef46fc07adca11f3001ad6e1,
  0x105877ea06225e9d99b2bb6706ce42af29592c60d2e705fbd21ec2e63f66d9305a502d75f3e948dd2a5e607105bfc1f8,
  0x13641e4176bd5d712a9ccf14a65af3408915a2d7dc0c20d3e6c55773c87ef15bb977ab60f2fe3352968d39819bac7227,
  0x04c3fce01a29c23f0166aafdcea60133daccfd2042f4c466cee7c21c029886fef711d5da633e403cdcea7b95de09b554,
  0x106e325cbef2b8e7d4e8dea8d2d3a20456e0ef43a2d80937697b1168cab3bc53961edef79dbebb45cd8427a716477f11,
  0x0a448b794bd1da81028d503c296364f557e43cc34a75205952647066338b9cb7fdca28a90d6cd6cd0e3b599381683da6,
  0x106f67cd390e4df63570901bfbe9455a1d0bfec4510d7af6e001c91ff8dfc016ef1cbb7069a54c54ab567abf4b9ff240]

theorem g1Part252_check : g1Checks g1Part252 g1Ys252 = true := by decide +kernel

/-- second coordinates of the points of `g1Part253` -/
def g1Ys253 : List Nat := [
  0x0097a9849e9448a3467cc0844ac8869027988a2e81d1532c270c758c38914958167bc782ccb421d2581d7d9e876462d4,
  0x12933009c3064605e26e84334c02a699514dfc9848b519fb8c36c31dedab0b1baf7a8234180461fa4263add0f64b5086,
  0x0e2d36e7aae5adcc351be753d4f44de0d069d6557535c320b967e9d0159fb56bad1826f92d3f3a758249ea4122c2fe3a,
  0x06370c2ac9aab621830104bb449ac9707074f25fe6df82a6ebc33a4dd9e159e93764fb195ba17d54b21ea74c187af6c6,
  0x0ef1e3df4b07e52270b02cdcdb78f1d8ad3baffe01c85a3827cc65a13294fbfd920504051e5b68622656a11a77520122,
  0x068bb8f2b54863be5c74ac0976a4e83fa0cea366bf663275234af43bc64f4b3f1616b669d5a2880b95b4d7e865b77337,
  0x0b7dc834f7141d56e9d95267424d7dbfde3d60cdbd0a05f4faec3477e9cb94d96cd993b5629018e7d92fef7b900efffd,
  0x184f984b9c5e733cc81aabcecc867965cca294e5e15afe385789b12bba067e13169a9c6848f5039ff9185e43601d713d,
  0x10eccb03cf2243dbaf1b9211e69a50c1e8f39c3298f5b3693972621c7c6f77bf80fbe099a8055f0d37758cb7a3cc9e57,
  0x07f29b25498698110290b551ae504cd2e64554227cc408790cf7b30bd700332ed42aa3bcc2f76a46886081afe72f501b,
  0x0018b195343280ec39d1a4778a4065072fa2ad5ab339140be1c80e66513fa40e3ac5236b9ff2a93fcdb8f9a6eaf9591a,
  0x05c5ba3ed80e6c0276580defd4ec949e2b2c9469c53ba4b2c609df49a50556c72cc6f77673455a1bcbddf5d0318d7947,
  0x100348c2db4482105f37ad351ff058bbf53398f514661a70b90f3e14aea487a4f24057a15a0b75ae4b44660cac272a02,
  0x13e479283058397b19b5bee2ae355f6c077da2eaa10730e550ee3fc8b9f17eb257c706c0f89c26af4788b2d75767d016,
  0x0911813058af747dcef481f7bc91080bb7fe478b16492ce117e41caf9696644298482e2ef3c1f4f4beaf9346d8eb0403,
  0x16a5b9be5b24587c808e0323a42a4f7b0a595591d373c5682ef5129d73245c209fe25e733d517f4c46712684fbd3ea6c]

theorem g1Part253_check : g1Checks g1Part253 g1Ys253 = true := by decide +kernel

/-- second coordinates of the points of `g1Part254` -/
def g1Ys254 : List Nat := [
  0x0d6f4ec17e5be166a090d60978bbf5bde5f8d7ee43dc3b82c6bdc5ef3e08469aec97ea6e235630501f03851bbbe4d3a1,
  0x04b7ce2d419ea41f2ed659e3a7d8145c75407409e7d76664f288ecd3f1842a9dd0da2c690062ccb0e5cce488c1c6b280,
  0x08d89cc60740bbe917bea5e673bc5dc2b8fd01228d6d37379a0e05d7ef8142224980962b61a0d6e723d24eb0f5effbdd,
  0x005e4048012b9437e048988a7bd3e62167fff8edee5d8153bf021e94e9acd177fbab43bd690ec4c88bc7ccb801e1218a,
  0x14dea74930083ff667ae5d96ff604946763640cbffd9dd0e5f813cbc7cd136396e79ef86c635f03c9ee5e93fa43c8e2a,
  0x196f160189ca621286b71c7c4e940d0655e324f93e3dd74c7a11c113fd61cc3ad2d298730ef6c7689c2c14acf3e80925,
  0x084933bae1d7c0d9fa870756ba79340a1c44ce1fc6ebcc584a9b6ec77980b8d12461675c59592587d7158e8d39db9e6a,
  0x0db3aa3f5b1820c4161b59462556dd6290711744d9016850402980aa2281d236ab0aeb369806f4c7e048721f297e364c,
  0x0ab309f5c5133af60e13b31d0b2438e6af40a16bcbb8fd33141e4c5840b17216003cc7caf45e7d31e35217d80260dcd2,
  0x16468853b8315a36f57f8d6aa30af9d37e8c6515158d911404e6b8d6c9d2b5e3128e4aef1ede7215542e0819dd4dcecd,
  0x06a418fa0b19dbcf9e087eb74741254ec09bc395c17de5f09dd3e3bfce00d650dc1dab9b3aa45605d91b328d96c5893e,
  0x0b937832121bec50909c6301ae9c4a6f6d7fc548d7981397e29b0b634722bf6ec7fed0e79cda6127eaf258a8694b7fb9,
  0x049415c7fa7c4c4f21498793b5069cca5bed45454f1a96fbe7244c5dd23bad7b1bd3f9e72708bf4f915272d0407d7d79,
  0x0a3ca767eb5cae1b99c27356c4717b8b8eec0597cf4e9c3d43ecff83154bf3241fc670d85a35c093991ddfb3ec6e08bb,
  0x1877c59067caff916ed8d627fc4d25fd0a7fd60b500f1b541552170b8ef77721c398138fedbf7edc99586a8dc152eb7b,
  0x09791a949d513de3d58f1e2882a8ad9f149a76079465f174db7c38dda515b07dd1dda579541de8d03cefb9408cd36077]

theorem g1Part254_check : g1Checks g1Part254 g1Ys254 = true := by decide +kernel

/-- second coordinates of the points of `g1Part255` -/
def g1Ys255 : List Nat := [
  0x11a5f419812beb8ecff0da000b04919fc8e165bf790e89eb9ab47732c962e83aeda9ba4fd25e99df52a01b66927b48e1,
  0x17ed8956a4af1a5c57bbfe4b9bc4d17b9b16c73fb873de3bf68f8a6bdce875ab49842f28ac35b92cf91073824123d2a4,
  0x02b9bc489bad49c8801b5538d2533a8ee7d240923e84a8049e5aa48b13f3f018fd2d55ec7321cd73bd85f102fa42442e,
  0x13ac851e095825ff2dc2c1432de1477491d207884c0de046068d84da8aa48f03b418a6709df448c317c737b3d383aec7,
  0x0e2f530a63d70452a3c353467c1e6b817640c3537f209403b5f964c3781c9ad62daffd59903e733348b8ccfe6583c8e1,
  0x048bcf0f1b2a3e96b49afd847a95fa192191993fbb5314c626926cef30b8430c92e85b3925d05f67e7411a3a7c21d547,
  0x0874d0dbd9a9721517b7b5518b59a7ce3e4901e577f0227e8f8e1d42080bde60ecff892962c3dd060da3275a9f8794c3,
  0x1250491060912579f4e8fbc6cc184ee3bed7b63c40438a20c097ef7466be167100eac8e720aae403dabd0a09018493a9,
  0x06eb826edd08d6def8f7719c54c68acc43a2edb00ec721f80a981275938d5a75aa71e2ea9a792e3dfe07feb9dc8067d7,
  0x092f030295b6a31adf213ac80d182b744f739d02459e79f5a98a4444a595703d76c0361bfced2d12cc8c1eb89a826e48,
  0x0ada5523b4e6d99957e169c908517af0e14bc90bf404d9ddf128bbdb2c2807326ddf81e4e261e2f612101b1178774a7d,
  0x122e4f4a2205f7a76d55fd794e841a3a6159b00840cfb92ca35877e4fe76541916840221faf2ed770afe829c6229d2c1,
  0x06eaad6d48f3ff03e96a585ef78e9ffaf8e01d80d2bd87ec01e629ebd42bb1535d79c8727049b61e20a4864b93ceed09,
  0x19ed09f74ea247e623f8f6d21e43034fa6d738d5cdb1a260c4cc9f8e163153d8f698da61a6759506a7836cfd2212305a,
  0x05f52a770d3ce7f26dced9cac4ce0fd1dc8109e3c2c8aa3c23d5371b37f5e210abf754ac3516a30d38a35680c68e6aa3,
  0x10b717f04d9bc0fa1315e172ebfcd438245805a696ab683e7193d4eeb847416ef756af1f2bba4506a11bc52a64a2d432]

theorem g1Part255_check : g1Checks g1Part255 g1Ys255 = true := by decide +kernel

end Verif.Embedded
