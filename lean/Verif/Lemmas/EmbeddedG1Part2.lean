import Verif.Lemmas.EmbeddedCheck
import Verif.Model.EmbeddedSetup

/-! The G1 points 1024 to 1535 of the embedded setup: each number passes the check, with the second coordinate of the
point as a witness. -/
namespace Verif.Embedded
open Bls

set_option maxRecDepth 100000
set_option Elab.async false

/-- second coordinates of the points of `g1Part64` -/
def g1Ys64 : List Nat := [
  0x18e7eb8f2c9ae442f5c689759680c80bd4295cb474d0333bee627927806c9bf58b478b05a0a64764ee055fa28d84c0ab,
  0x053380c20351ad5fb67a5999c426ad705197b070bf36ece2b6367ef0c11135aad92794f632d8486cc7f05fda6bfe5091,
  0x0a159bef4ff17e938705b0feccb8011e04602b23b4a888552172af6f24180dc451a69483a091f3c9b7bdec61bec91914,
  0x1725b50c77aa1cdb94bfb68718ba97860c9b9f7c9a311c95f52ee2ace163e4b4ba03964f47177d232014d129006a6809,
  0x1482792f75cfe57972d0da9a65fd239cb9d8c43e066ed6804beb4ebc64bce607ab91218fe9aa960ebb57064d357c5d2b,
  0x195c417d1f802f4d83ff28fdb4a21b6f8d8fe278eb7c96bc6c6fa3c11a901421b073b56e966066d51ece67605cd03a64,
  0x0c206c53719d82d2dd0d42ff45f5f80b5c0a780cb91f2f474105bad81dd20c41eb5540907d7409c0f9b126f9bf4d4087,
  0x0e346650160fd6328333bbd1034d4468597774e4f81203486646789f574b0b3f1bd3c775da45ffffd02a95e297445550,
  0x16d69bda95f60f4ab34c1cd9d2a26be93d4bc73dd9cb6cf79a618313f33d833271a9cad8b004b38b7197885faeb97829,
  0x01a56211dfccbf4825e92d9ce1af01073e010beef31d756ea33ec443982009babda649c1f9357f106354e917efad0e93,
  0x0384f7f77133e8108ccf1a9ccf124d14855858b2c02266710fd41328a03ae49a74c3d3e324139dce0730ab4153a2bcca,
  0x18ce2d7ea0a2f01c7c39b3ee2aff286fdf25c1b601a07baf0f44c15fb6e3cff51e5918e6957bb25cf8ed5791b0badf48,
  0x014f2ec877258b97b08cad7d6689aba304dc3433770229a501c79f555cb6b7f3950d2345efe74ba94edca6b324e409eb,
  0x04e94554ed84e62ef2bbe243cd0ab80ab58538ed57245f5b396bb0d12e8c7a2e4fd55b325a156f1c8f42905983415a9f,
  0x13c825f91e3b7acb3c0679b7c14b14641f7389f84c6fca62ce69c9b1f6bb8c4f9adce8686e83a78b0e3adba26fa67bc3,
  0x0c75e354c707314a5f916183107e96be458e9b5184da58eecfc0f51c314d407901411f87ce65cf2df14ca0bf5299e8f5]

theorem g1Part64_check : g1Checks g1Part64 g1Ys64 = true := by decide +kernel

/-- second coordinates of the points of `g1Part65` -/
def g1Ys65 : List Nat := [
  0x17181ae7106005dab30d4b17e0b3eb6e2450ff0a1c8bfff51d7c71677b7d7f439d051706b073f8060ec18705d1e78c1c,
  0x0fe2abab13ca5f8ebd567883c29404a6626d14b652ab77d1b1524af72e40acc6287a480fdfb67c804ff2df18307e67d0,
  0x086740d96f0f24a9cc9ee6a0a4d0522035d227da1129d30d974da3414b336c56f4ca3544d54dbdd030ad3f6eed7660bc,
  0x0962cc566e8539541876d578c5eecd5056f4905f437030970a1270077be68a095de6f0a332047182173ffd4d6c845a51,
  0x0b7dd59d0823b71a0a6a3ed1636994b65a0f1df1aea588b1b91fe7023edd63714759b4583dee320d2ae432234d2ae904,
  0x1741a662da7d623f1f04cfaddc6f858eafa6111f833492e62cabba9f19fbb3b9fc4105d5b60f21807446525eea4ff44f,
  0x0872079ecc55bf210b4bab5a3b04b54bae13907cb756b6fcd5094dd6b36cb61ca3b649af5d9b06413af76a626610f061,
  0x14dabaa1fb38877614f2e695c95e0115ac86be4b98fc5ffc1c4f74bcd83d957dfc9d92b5bfd6b7541fe5ef1856e6a913,
  0x06bb99bc806bea75cc54f3d12366475890b20a621b2a583a5fff84ebc827ebaf0e5210b66f5066f1a5a089e1b2f430ad,
  0x19e82ae812ea572f5c9fc6a42b0ecbd7a5ae64f7c27d8ed0b4270650ea95710326d6f274bace029d79399916b1c716ae,
  0x11d8626a813df76b857af051b8a03df64cca1c833b8df3b6082aac294afd10a245ec38af4354a086d81b85a07f0f5bf2,
  0x0306d5576a8baee8369acf646d17f5f9ec4175dd478cb93698ac579530f8415c69744ca3ba21d0abda3cc9f0ef7122b7,
  0x1477834c266ce7a67f1c0897c9ad024bb117313256c97e6efeb7526089337c934c2b31fe00d790ddb6f94b0eff20ed32,
  0x0b19dec461edd336e175828abd1d22c57237b4d1dc9b58c9ac3f794d2aae07189c1e3a69bf63e73112d21a8522b65ba9,
  0x13e4aaf55d4fcd99f8a895d2510712eaa4f47f677f031870235594e851ff204eb5c90a331ba8a19a89837e066d0fab9f,
  0x1282e3e38c970549a647d3eb62bfaeb36e5600c9e8e14655d0537cba8294cf2c7c0e9c3fbc90bb127311fc89babebbf0]

theorem g1Part65_check : g1Checks g1Part65 g1Ys65 = true := by decide +kernel

/-- second coordinates of the points of `g1Part66` -/
def g1Ys66 : List Nat := [
  0x16e990200ab43c596d9b3d89c705140f53d3b30e56102049335445ff3e2591e6b3bf15b7c0f2d790ef1b3a80e74fd7df,
  0x0b1a36816977b30252e2a58a6f2c23e86bfacb816cf04a826537ba32a8612c9cb931f558835ac5a49ce90263ba75fe91,
  0x0e6a63498dbb8d205a90374b3e51f757e1d6fef92c17e829fbc99247432ea733faa5fffaf87c7841e8a8b3dd84d3c69e,
  0x01f83f749df7d0b4d88dd6d83c66e0b727a4ea7c74e48d16a631cb52c42f0df8faecfb6980335386eab2303185ff127b,
  0x0e93a5ca700fa47da33c86c7fbeee4661659cda693339306fe76e910d4a547eb567883a69cd8dd59cfe9cbcb8447cd3c,
  0x0a81baaf8b3b2077e4dd225044b082fda38f3844373b02722fa7243c23e21e17ff1aef201ff2d6129daca5eae4206ac5,
  0x16ec0b37fb6e45950da5de17db650a096e91cf9751f0f3e39ec7e3e79ad7894a1063d6ecf90f4457a6726413e52657d5,
  0x13730e268247448b4b2fa27458992b138c6a1780813f8ce1742984aac3a18b36e2bb820f74ccd1381170da11194aa5f3,
  0x0b66b7d118eb94366c01157dca3ee51d6ff564f9b83b21c6c7eb84f5e06dbb7068efda0d96d569e7b48e724670e8f7b9,
  0x10270a6aefa1db1910db9e4731aebabafc41836050bc132367e58f5b1a5bfd0b12b2c02b6b11422cb447b23e725bbd8a,
  0x0cd2a53bad4370bcf7c7f55e7fea8af172edbbdf7531b9f742ea746f2b21c00ae2c017bcb5b7e84feb707513e647209a,
  0x1354c65b222c5250d4528b04dccb9491e32982915e19dc264000d2c0b44f8f7e8725039ce5e9d076edfdeed55104255d,
  0x16d69cb3abdacb6faeeabb5b3ff6b078821e272088b58090fff4ba9bd362643f099e87f29ea4bbcb0d282925aee7804d,
  0x02d4fb34d7ed0630d9b68b5f73cf0111702472ed3879dd6ac43f85f95744e9c25209affa4685980cb92410d9c5b3489f,
  0x06cdb88813c303e8ae0251a4036c0c2f53d78cf7965648b5c76ad86f9b1f141dcfbedd550b8bb889afb9729f3cc4df4a,
  0x0e7d47083ce1bb469b2dc5b26f24f06e6050579c8ec5f2e06f4ca83da720c72d2d5f8e44f6d88299d908a238a84baa9c]

theorem g1Part66_check : g1Checks g1Part66 g1Ys66 = true := by decide +kernel

/-- second coordinates of the points of `g1Part67` -/
def g1Ys67 : List Nat := [
  0x1108bfe468a941b1e9cc1d3bb6b82bf24142aff2bb13f71dd46174874999bcc5a3e84dee914bc0d05e7e0c722ef16ddb,
  0x0375b211d32a8c35d9734febbb850ead2367439a5e39760279c329f2e37b4f8ed75b9f1675c04dd68d07c415c5a1ed71,
  0x0a0dc0ac7b7594d679c8a9ec90e55be3837fb42ac6cc1b13717b049ba98e5339043a07ad66a3dda68938646680e12839,
  0x1643e88a692e01db6c79458dc000ae4dbf2abd58961eb7a3e6bf7055cf081e69be2c319f553854725c1507b74bdd3270,
  0x01a913ab444d0b565d8d1070fd291181ca1b815d5bae88bcd520adbd5b943304e7a9050a4bd175d34e47f251c20f8784,
  0x033100870dcc6e0e4e26f30f87bb511a7cc15e1712bc931559b06168cf30529b7e4ef791d67b7b5cde71b6f4e5ab4e97,
  0x02438ed9793fe5c306fa96ab973ad04669d794ab5154881461c5e8ca4f6342619f4c4ed16aab8c4285a30263c3f569c9,
  0x10eea85b6633594bc0785adff87465ee386b1420664a1d943f5181b8a537221ed07728bca900b11a81c1dc5798393f68,
  0x082ef85a12ffc9baf162865b80d65ed9ae1084a3bc776ffa1da8b367435d6963b800079f9a6ea1c45dd674d54069a4f9,
  0x0eb57ed55c554332e45e670556fb47ba77cfe27f9ad13094a30d44ca1b66aa2b449a5ccfbbdd10101a184e23040baa9d,
  0x1245d581a86b3e847eeb6f5f427ca9badfc30d01902b3762c13c40cb4e3a70004c63f4324b6f6ff5c2838d4fdd9dd686,
  0x05bef63e43755488746d9d489728c29622cbfb5802b46ad9241716ea602384b4121e49afafc4da28bc8608356fc1de84,
  0x002f5803411eee7336ac9388650042faa8ddbdd6c8e612fdbbbc31311dc3694442f76fc89541f7d8f82517639379e71e,
  0x0be82862ebf6fcbc314e92a5ea9dd1d8585458b039408cf3f9cf99937735edd1d467227655a35c5bdbc6b819f7c1238f,
  0x0a543a3ae2734d92be75f6958c0ca5936a500c4e48d1825a6ff09c772a457cdd464b721f03669386c1eb7e6b727c9697,
  0x0a95cc47fbe7dc8e56f0f89a1e4ddfef35ab8c6184d4ac398e80fd7a8076c19ce63b069ae028b62569144b25a6f62c01]

theorem g1Part67_check : g1Checks g1Part67 g1Ys67 = true := by decide +kernel

/-- second coordinates of the points of `g1Part68` -/
def g1Ys68 : List Nat := [
  0x10d82b15b20a581ed5b5cce65d831415c4dcb3bcb674a354cf48e09ec8877917e393376cfefdf84428416a2738ef3175,
  0x0a612ca74eca467cdd5669ae122f3045b968db291ec93ff6ad7acb6ed73a17a5c980d0333e41e13d07411f5005b5dc46,
  0x1071398566efa6ee58819ca3967e114e4bd4d0916938495c3f50c0f084b5d4a8c9a9b752457fed68481dd26c3bba2b23,
  0x13fb3fca9a1c276f929c87c87be93d97d189698ce081554a24566347b4e065d20c9eff45328dce97b76da79afbd48cf8,
  0x000c0275b0b1bdbf36a77af28eb433742cbd99d3af55939df540455d97477110e15a3ba02a2de36280de50bd6a4a898c,
  0x02051d49ea273e6e14e78f14486edcb71b0c131701e906e150a81d91a05e193e28965917553224e0b38519fb0231822b,
  0x138c834c3655048338b5d7e11a82a820a6390aa26e3f15baa70b89df56e2d6589195e63f742054afb9546c05b1f5177c,
  0x02e867badce6c4a51fb7b8e18685dba71e06e51c83bc2d1f0008a8f4eb87d58988ec7a13c4e74fb9e6062f7972416aae,
  0x142c39a99aa3f1c11e5afaedc760ad310f6d12f57fcfd368672eb11d677829c3597fdbaa642ff2232848386ccfc52757,
  0x173c5d4446b764850fa12bbd0facdfc7227d7fbe19c5ec67f78c9048c60d0c7c745a108dabdd0bad3498a8acefc16f4a,
  0x155fcec835b4ff51b73b4336293681ae1aa30a6c33e95ceade0f184cbe36a38210fdd4c0dfb960fae2e55b149a9c886c,
  0x18d78882010cb960a439e721cc3c210fed7c659755c33b3d1e6d722ea543ffa21e3d2d527f3d78e1f4bb24b246a2ac98,
  0x17f1139df27fb86b6237cde2b53ff8bcfc10ed75308d4c775a21828c833dd1a77654b5f2e6732ed1a81b0d75de826f44,
  0x031aca8bd78f6fec94bf5596c7e99934e4154ea94754c5b938e4fc887b5ff045fafed95e7f3b6f57b4997913a0e08ef3,
  0x12c3d1ea15c6a73a5ce6ce1882382ba2bf4923191865fd4b701f105f031bb123599e7befb0894788f594967262a85217,
  0x162c8e9dd5fdb60b68b564b2dfcdc630c6d314de50db0fa19d6c29580cdbcd271b39c9ce723d69b021aa75dfddb3f23a]

theorem g1Part68_check : g1Checks g1Part68 g1Ys68 = true := by decide +kernel

/-- second coordinates of the points of `g1Part69` -/
def g1Ys69 : List Nat := [
  0x11fea6bac2c4fcdae95dd94e700b7342a72aee137448a250276b239716c80415e30f20525332c1d8b3486b60bbdfac26,
  0x056af3492a429100172f901a300f47774dd3b00420a8f42af5272f1a509f18f87972310f4fff01d06d0b62d643547149,
  0x19ca0d9cc5d5b0d89b9bead834f8adb928152ca252b30da55630988d634da81054ac3ea69e371353ff41b75e17b4085b,
  0x17eefeff1b776f4b44d8ab8a24ea1aa604aa5dbc02ab894510992d9dfdb462128ccd6f737a303561060372b1cdf5aa6d,
  0x0de975b627d2ec30212f06d581aff659a8cee61a1706c07928cc3394512cbf9bae5a8812b550ec249aaf37354895a2e7,
  0x0eafdd132150700bd1328063e8d3b7ad942c7b796b140dda4dac482c117d8f12fa9559340526560b7f14d5e487b320d8,
  0x0128bc7a9f7d829829544f99bc5be43b3b4bfd2833c0ffb08af30044e7628cf1ed50d108b0cc6022877adf0734119565,
  0x1150acc47417e10861b1ae6679f510b4af9c4a5df17ea8cc288d9b0d242d22415ea62e965e692485b637f76c3bf88de8,
  0x167ef88549a1504d8305de1e06e9cbc83e949a419843bafa272e87594d5e1a04396824339313908e2ec7b9ab2d4ef1ca,
  0x0054cadc27aecbe948c4414b754dac7de402459f04c570d514c193f71498f00be58453fbc51ff0c5edf090380da1700a,
  0x08807c10ac059ca70718454fc3a77e0bdfcb780b6e1c17930aac72544f82be5d491f56f2f4f105fb56fc348ab316380f,
  0x0a3b29ef1ba4b7f10be8d5545f8d25c7ed81d29716225a789c6b0f49345d42a7fc3816d1a17590b8c58acb845cfe67b4,
  0x04567a891c9937e96dc3e50e8b7341f9a1c5e6804ca004c9d25846733d5d27ec7288df87a81ac6cc3f91c239ddcbf040,
  0x04323e265f7c010f7e57fc31a6ce0f5ab0c7f059457ec94409fb70b2d1a340144e5c3f9f03b8f8339bdc98de3338163f,
  0x10a4e2bc7bf0d507268c49cb143ddd4fd32cc82e1deaafbd9f56cf28f792752a18373ab46f8c683192cf52c3b445a47b,
  0x10e6308f77ea380e605951fd5d05040f76a06a6ab0be0fcbfee1e98f6985e383263968271cfb281162ecbab0124e252c]

theorem g1Part69_check : g1Checks g1Part69 g1Ys69 = true := by decide +kernel

/-- second coordinates of the points of `g1Part70` -/
def g1Ys70 : List Nat := [
  0x14983f5852c6a57285dd63701f5a3a5031cdade51b6a41a3761c2eda27cde02b0c4558fa9729f810f7378df269078f47,
  0x00dc6b5824589440212e6ebc887f62bbef3e87c0432586e491ba8c345b98ade93170c4f4c8d6aabaf2ad7a7fc72303f9,
  0x00f727603262f9ddbc929743715076aac09da5267812725be2cefa79ccb4ee216f7b9435436e534c23f1fa9987af7460,
  0x0b1998dc1a5b1a0fe2e8da4a7fd7174f1374f57ea97898e519a284d94f343bd6d9dce19b35260784c0e88cbbdeaf709a,
  0x02a18be050fbf0f11f987125add689f082e4e3cc07ec5f1045457b92c38da81de7350fefcd743abc2548da612ce13055,
  0x0da31aae841c1256a7d0ecb1476f7711f657cbf850cd12d3564b48f0f680a61454d328307b98914bc2d83e0a7cded763,
  0x0d3eee77b570b026e4e03de2bfc052a6a79def5790334a77fd4150c4f6e72a16beeb5d04ce4acb21edde01ab6658c7a7,
  0x0a49344f3286d6b5412de0891bbb53701aec4bb050f731d664be3b9b69727925510bc3325773392fd1661f0bd3d59090,
  0x08993aa3847ef1b48ac52db25aa9d0be16f27c2c2e3b1c2304bf0f29d22a5ce0bcf31f33d5a54c2999e60c8d83da1559,
  0x15ef6bfef11da6422d4a1b43a528383ac63eab51f1becb1612094e4c406d7ee79f3ff02ec925f2fc249b1f0006dbe89e,
  0x0dddb079ee5c2ab75354a3fa25a3ba96f5f722ae1967358f4024ecdf244d0974c5ec6a2664aaeeb5e59f7926cc0efa5c,
  0x08f4af67cf42239468bd2d36ef93170ac69625fa249c46b84e15fd6dd3a1fb47778ac84c256bfffff3e734faed3d018d,
  0x12ef28dc06194955866ef84317f555c4cd20b9bc3984e82c3a7cdbab00930faaddf5269bf6d60f0809a1762c4d840eb4,
  0x15777234330cd6e7e75fb022c075832730955f05196d81e744512c2f3194625e69c1ad7ea2e00299e4c2b1e525467a32,
  0x007756429a301f9be74c5e539af4b87ef7ee04b82d868748a7bb56ee38f662bc137196ccf174922a054a3a719db1e2a5,
  0x03922e28b3c3295ecb58d51c0ab55788cd70cdbadc03418308f5961db1159381a7510b7a2201a1169c01e898853a5dd4]

theorem g1Part70_check : g1Checks g1Part70 g1Ys70 = true := by decide +kernel

/-- second coordinates of the points of `g1Part71` -/
def g1Ys71 : List Nat := [
  0x167118dde104917f8e6f197f49db466044dee7e141d6ab53a02e10c0f467cf4ad8c5f2a2a75b6e20b130d1f3ca9cd614,
  0x03ab05aecaf48c1d5454b7e0b0062ca581d48693effe35c439c854851dc96edec30e5d64bc76f960d1a8ba316c7e3bf1,
  0x0089beaedf294a51846774169cc19993c64a1e4e670e40155bac23fdc4b1ffe2685fa1dfb64737f863751d2ccccbf5c2,
  0x02956ee942bcb40767a13ea65867801f1e14adb654d42754a7213cc0d1d7e7bcfa83eaaf3a50c66d554c04a146c00506,
  0x07a33a879dda110a023013869e5930435126502ace9d164f881baf250bd33d3a6f67bca7d95cb02ce46cdcf89dbe7c2e,
  0x01d8ca813f165eaa655ee9db7a685da9b3ca447d3fe9752fc0c57a7eedd3b8f28b5af324ac8411b694a7b28cc55f0a9d,
  0x0ca73196e79472c43a42c1c95b814a5f05ed01f3c2f2681959c3e916201ba5125e406dbf505e191f2d21cfc37ed34c7b,
  0x1196138a3fba74b52e1197e2f8c81a6e6afe687ced3df0460b5f247c6e48b658b8f52d717f8b13bf1b35304c230df1d6,
  0x050b61a5471b64665dc4996f7cbd5d4a55ed6371146d1817eb13f450aff697448ae5ab802ad7953f3fba415d727f1fbf,
  0x0d01b4f829c5fbd91027c773a2a940f6734b6775aa5cb31db2524b36fbd47f7bb194a22eb2e9cac80026fceb9badb55a,
  0x08c512e0f41b31f2cf8a8cdca3edbbfb12817309aed45a30c3ff15dfb84d9c04e7c0286d3a95498471626b835054582c,
  0x0378a932858c2f508d958ba988f1e9d8cef7261d4cda81df8bc97e76c20330d5f8b30e1ccead711af038c4d199dadd64,
  0x08d0f4d56274d5824c17000911796ba2681cca744ee71c97e9b794ff2160d3819f37ad232a9024346f1028b5a5a8b7b9,
  0x0af5122573b8fe4cb3a6e7cfcdbf534f7c27741aab99c7100aa0b0cb6904d2450ebd5c846fe1023224e1ccc97b4b845c,
  0x0fa00b6a4af4904dea49c399799c758f74a613abb57f0cc77676fb4b8bb08051498ee279f8956e1726e821ad2d623658,
  0x154397b1a4192d8f5ed4b2b822b247fe1efe831358a8e9a6f1a1504607da24e4a5980a0fb392b38ec0419386761bf876]

theorem g1Part71_check : g1Checks g1Part71 g1Ys71 = true := by decide +kernel

/-- second coordinates of the points of `g1Part72` -/
def g1Ys72 : List Nat := [
  0x0f71b367e73177ff46e734028befd0b6edbc4c9a9072b3276c75221859ccf03166f6402828fefa8fe1de2ec295d9c0a1,
  0x0b7fa61fe0d27f88f442840b9b832ff41c7b11e8333a7979ca926c0d7bc3454361044bd4a2bf5569a4fb9328b23e1c10,
  0x0d09914a14934c58a265b80749ff63537ddafb26ab6324dff078a484ed78bdb332873d97f402a7c917edc5d1d175aa10,
  0x04782324e6c579dfbdbeb05bf5abea57c0bc083982bd1fe31d7765f6f120ebf53f2d9107d74a627209d9da9d89727d39,
  0x11fb2b927ccff76fd44a0040ba7e2f58218490dfdfaf8a2d251bb04e139f13c2b981ede4727410504a5d613b9034f753,
  0x008bf5bedc6c70df527dc6ebb369e474b20d29ff21aa5a73544e8db398dbbf04761e1b979fe8ba6e47047f0747630def,
  0x13166590252a241839759623da7ab243685528e52c786d852d86c5b3bb5e80a0dbe6d2733382233aa8c059d9d5cef6c9,
  0x1745f933dd6be3ed8ab5f87b3e9d88d8615222223918b3109e3298dc39eba8081e5911bc8e134907d9310833761fc264,
  0x197c4da6ebdfd01eaa8b7bb88c68f866b094bc2b7959deba9f4de982647fee27383d0dcff513bd6444a0f970c31bb12a,
  0x08bef2ae4cbf0e69e0843e49f29dbf7bf7c1e04fcbc23869256b8669414170573f6f7ede3e308b8dce06fb05e2f93c05,
  0x06170ebad45a6ef24b68edeb65ab2b07ed506056bd90d8c8739deb2eac22de8bb5da9e67a4cf5178a7c44fdf786a3ad3,
  0x18a619a95750256073ed935bdac4e4eb04f02f4bb63f347b48fee466dc6443f36dda4edd53f1e27b366bd5d9555d5110,
  0x10a402ca12c2aac8aa01ea35a16ba61f77cb33749a1369c899746e64a0d745eb9c97d900cbc9a4da407dd018e103d389,
  0x06fd9057cbc463c7227453a3e567dbd3e82a43439657774bb4bc91d1c5f6e89452831074a3c75cf20f91dade6483b208,
  0x18f0e68879bbf8f5bd41cbc7d5cec678697ec014d1705b11c5afb93ecbd3fc6a208701d2345a0c43b76aa7608f29852d,
  0x10bdaaedba8278d7f359ffb44f7484f5219c0cd7b78a6d42cfba6e4a9655f4a9a40b7934576290470180ea0a899e23d9]

theorem g1Part72_check : g1Checks g1Part72 g1Ys72 = true := by decide +kernel

/-- second coordinates of the points of `g1Part73` -/
def g1Ys73 : List Nat := [
  0x1715ca2e8c388cf83693793426c43eec9898ea4d09055148fd5827202919386939de018a3ef2e70ac7358f4bf3fb1b76,
  0x0d93bfd800ef1e4c560ca22259002e1dbc60429cb938c3993204237506230619c230015b7377b100d5230dcb31b45439,
  0x1856408dd783425dfdd2ca8e4b9f37af40b9f05c42879e4446fafff3d5231f5e1f9aa926d80192da6345147b0a9db693,
  0x142222f649714ba52611f0cf1b5119494d0df1e2273ea9336ec31cf6c0d349b604adb42bd8675ecb08b42a87fbe5a899,
  0x13067bc874b73c5d98d0447dc3e03569b812e901d2e7ab96abf61937b08fda4eb8a5d1b968f20c8fbf2fbbc6fb1a8260,
  0x0395188b624d5f8b31a532dc644ef21e1d97c28000f3d21c54dc56d53b7ac78335b5e1c954d5b1fdc3fac0326ccfbd7a,
  0x0fdab73790664bd4a65ff11c548c2dd4e710b45a27c057b5a177a4eec02f4534d9472a555441ca4bfa08dcaa5c260611,
  0x10958702ad3961302032e5b55335700d6b689a77d2218c641f9e9448c5e3f87e0fde77adee6ca784fdada018ce88c900,
  0x03df048a75c5ddf93361a9c44e78c41f9f8f5485d9941d3e7826a06006a67bd9469ae5ec52b7f22e1ca5e9b7e3dbc064,
  0x0a1c39da7a528510643e1b57a6f00ddb298a749884ff28b5890d47417411bcf50a0808d677272533020c4ab9bec742bf,
  0x1548e4c3b15e885e1f46e804929d2f7d630c09667ca68723cf67ee957085465df73c6589c4d8aa50a6cf216fdaceb02e,
  0x104fcd2ca324192ea0fc2e59d865d28ab86ae9fadb68ffeeffc4674a74fc8cefa84cda99bd66d3b19244bca33db9b90f,
  0x114c3a2c27b1fca579a9a3d9973b100b5a2649dace2645afd473ab3de2bf38e5286daafa6cdfcfeb690cc89b7316c43c,
  0x18d4fa2ce2e87eb7b4c94b63002247c19b7da7a0c2443e0fa78a7ea32257eb7ecc2427deeaf6171423b4dc6fd3b0fe5c,
  0x0edd5f714b068a1b5d083b521d7602b3b9e9a5b03f2da96336c68c11593f543e64e70c1e59650a116bdf9d22811253f7,
  0x150850c5fa695c7b1920f93294ed494d206235ff0fd1327ecd591e17923ef499222f71e663fa17ae1d8cc83e84569359]

theorem g1Part73_check : g1Checks g1Part73 g1Ys73 = true := by decide +kernel

/-- second coordinates of the points of `g1Part74` -/
def g1Ys74 : List Nat := [
  0x079eb50ce682f98190aeb8b681d64f56d4d336498d0896a8bd82f3ecf6f06a297ebde45321f3f9ceec08c99d230469c5,
  0x0a2aed23614522345137d74a68e45d74d390c6dcba71e98e6298c64ef3f5ffd608604780b472878633bf849bc57fc8ce,
  0x19856365c6ae47b342da9c33e6724a859db0dda881fb3961831c656b78f4407dffc87c9d8551d064935ecead8c538503,
  0x05ab1ce8beb9db0214f7fcdcfe4f847f7bb839f843aeeea394947157a09fc626cbdac6bc81a4ce83fb0ef6e191bfcc8f,
  0x05709380c06f81c2ca68c46cf41b910ee867e524c029b919d315e8934e4b6397e0f78c1073cb41e37d97bd00aee1dd1f,
  0x1989ff48b791c9f1f57e020c3fb54154563fe7f3cc89905a31de6b6a4fc7cffb0f99d1d1696847a92874ec818cceb76b,
  0x177466ea5733d7d2a8fed9d2c7f3da53bb820d47ce0a10e2782e11463d30884fbe28014e2fecc370d9caca1877f0273a,
  0x14285bdfaea44541f06e2d9ea6e944409b8d83cfa582a75d4f1212d8d03cd95d2e9cd4d2e3439e3b3397f7962ffc6eee,
  0x0303db99726f45f710e20bb8455d2170d93a588e3c79bf504cd3e699ef373b6fbd0956f06b7d9cc66148a74bee59f3a4,
  0x1140b35294711151a304e77e50a3c8b5ef303c00c0b560696aa183336289d989a852f1fce881332e247d024d90ba9211,
  0x1761e2d0f5f90c0713f068e12c65fd5281e3e9e3a01a20d751c8f7322fca9898daedf8ce25ae1ee1bf85e5d0c6b72a34,
  0x0844a6918cf5a3a7bd25fcc62c4552e9999213caf68f625787410c3fe255272cd71afe0e1862070c3d031458cce3282c,
  0x0ad6d56477cc147df6e37ecafae163db4ba0e58dcc6f9dda5a7cc3df5345e1951dd17d152fb843622223cbd950732f50,
  0x0da6fbe5081a28daede3ceb89f3f58ba55260fd722ad9f63832dbe40c359bcaa9a44c184e0a2844d72266429d9efc19c,
  0x0a461f9115f3308853537315cec644dc94889657eebb847f5076c9c0e31d50464d45f6f95b6334d0f2bbc0aa8103e488,
  0x0c00f92bcd7c2244380e4aa3c5e5889bb6210f578f13f141396cac0074ece0b8b6c10e15cb2cc08c4346c89ae013376f]

theorem g1Part74_check : g1Checks g1Part74 g1Ys74 = true := by decide +kernel

/-- second coordinates of the points of `g1Part75` -/
def g1Ys75 : List Nat := [
  0x08a5b2e9cc10d7019c91b36fb2e38fd12622834139006c819e242c760bc5e59d51df4b8c3028b70624e9db40443bd740,
  0x13b5867504226ed1eeab02832b063f71c01c4ec63a9ee3e1bf8a0f41cc17fad9fd6ad59ac63811024b3e45e85b60e44c,
  0x0e8b5b3c4679921f080db2829ddadaeed97da4deed3371b41aff33ca69978ec4a3f8b0bc0436a1436b520521fa6fc4f1,
  0x0eeb1f03e71e947fa1fd9911078b965029cd0c280be1e84e75f328f1f6dc913b18078d84b46daa6356c5b2b06c6ff03f,
  0x14e539a30929690a1de59f568a0565f58c0419ae4161feb9dea99fd6bc97aa0074ed8ab6b4ebe1d575e152beb6e7ad87,
  0x1739eb2d3c75817121d61ed39535b28b5efbbc1ed2d228717cf9d9a2054458e9af7649c5a55e7c9edf91a183574888bb,
  0x15e74a48f6a3c0e9197c62e868f4b1f9e4a68c2168944fc0831508d77133c87425e149a240ff8104b2b45a0fb43562db,
  0x11d3a793d98d8f4b4aeb1dea1010e586cdee9c3a01e11ef576cd516af8d1e300efe25a473bf69b9f980d27a7737be015,
  0x1448bdf3fdbc0eeab8345e96a89ba5ea800e5ff4b1482235894f361395c84a343f331ad7d1f9859cb0761a3c7e7fe681,
  0x0c90c12b4d9fbb2091d1c33bd946e98950f08393d90d94c086c5b4758c80c69fcf588f1baefdae91237fba21844f6533,
  0x03d7aa87d2545add9e3d7afcd56c5276b18ca57c9af6a537606ef1a6468c8205e72a30c5b8776fca2f0f909af975d5d0,
  0x03640d8424af338e8d5f5415a91fd51de4a5a5430f8ba0a12d5bd5a080396354d75c1bea1e3e077a51663143feace4bc,
  0x189948e5fc899e0f2985a880292b495d08d6fd94fc225e49a3efef5eaec3fa9a51a6da7dd9dd3482c19c3ce8106957e7,
  0x00a2b3ce09c1f542e6412995f0ba6077212db4d71c784b25a1588a40232af56a612658c67c8e284148ab950605cc38ac,
  0x018bb613b65b7f8bccd8166b11e5d06c531440f125080e316b9fd4b175877a4184876e6ced1ea4bd748eae39a9ebc33d,
  0x0a78dfc68ac25fb9779259d82ee0fe27f76c825a1ee125ee281415c91e213d7d062dfdfda5126fd2788f21a41fcc16df]

theorem g1Part75_check : g1Checks g1Part75 g1Ys75 = true := by decide +kernel

/-- second coordinates of the points of `g1Part76` -/
def g1Ys76 : List Nat := [
  0x118b480ab16bc6fb398216a659b44a366fa69aa9fdaa26d442ba001411708c47195576204c3a088d9723d97de4a104dc,
  0x092727ae634630b480dd1d2c78aef02406ba7039cb9f98142b2abd6ecf1939268cb7e68bac1aad34e83836f1238e0169,
  0x1928ddf9a6eae0b2bde26748fd4ca0b71417f425a1f8aa380ea8d07f27712375504bdfad7bf7d986e3b580b3cb755a98,
  0x14b1078cbb4f60ac4713b3d89c2afc66f9b93803d021b08d56403109c292f9acd86de099d63d973e96445f8d94444e9c,
  0x0bb9504375662c9982038dcd2ec2a37ea4041233fdcf5b52b5e96c05ff618f7627cf4b2da610b84c73be71c15a98a1d5,
  0x16bfeea137fb9583ce9d62a745c92ba2797e5d41412a8fb60d391af84321f524f6caa1ef47365d6975863454160e37b8,
  0x04346421396411169a4b8a2efe0414f53f3dc24bbd39bb54264a82cdd3e671977c38df3bfda07921cd2b8d4255580094,
  0x01c6b9d5aa38eff2fa33547851d3d4575728b11f1e8d61060c737f5deb954d2cbad76289527d16132be9c80aa9997e86,
  0x14701d64302fcbe7a6f28120bd9f10ec2b23668126949eda2f57ce0412c33fe240de374b7781df373229b8a6072745e3,
  0x0782b5169dd1755d84cb1133a9ae181679bbc2477e33e53efa4847d3757a7c198be97f2773c5e476244ad612e65c10d2,
  0x048b7ec8c2bba9ef355fe7d9be71ca0d3decaab72f8c5e1f1fcf2c047ad2576214df84c87c8be630e7245bce6a8c6ab0,
  0x03f5b7c216e0bf91d1f3c55ff9b985d364a6cc5d37de7b894cff9c99e73e0f0d0b745be486dd6d4d2932222dd543f91d,
  0x1249bf288132fa022a5d8526d05fd5825e191f3f40a53338e5d8318b42ba3df53a3ad440271b33800000c5aaec2c9521,
  0x0ddc80d1dd383a8c1f10b94cdd1faa8d976475176b423326f81967ec85de2670c1e5f012a7a768781426d86acfa85665,
  0x0d136455b4c22b2e882e1c4c0b2a8ebccb1d216027a1e40f8de3fd610ba3a12f8aa384943447de72c73cf41e8064e16f,
  0x12512a132f7ccfee18aca97af8907befa3cf08b50638d2c3b20ea89eb3fbf8d22dafdf9c6348970c0d856f21adb4498e]

theorem g1Part76_check : g1Checks g1Part76 g1Ys76 = true := by decide +kernel

/-- second coordinates of the points of `g1Part77` -/
def g1Ys77 : List Nat := [
  0x16d833659b34da24b619524d68ae7d170ffa2307615e18ca2805d3cb7615d9758db037fe1bc32c28daf063e1600b1030,
  0x08bf0c9f6965eea15a3b7ab4fb23968827785c17205ed11fbb39d66333d733c983890dc1437af6c5f0c124f0f6975e3b,
  0x1657a6c631c14fcfafdafa75927ac49db02f80fe9c09fb21b81b66c6c15fa7620eb8e028a93d9a595282e2dda1d4f48d,
  0x1377b145b92334e9dbd6f11c0a05ce77d8ef23b65949f14d3d1e91f6b9088858f8edc02fff221058a908f13105a11f85,
  0x18461538563952842816c55e5ab7478dff8260347c810d21a5c1d461583a1750d2f229f216a1b10c3fd901314d3a027a,
  0x017b96b400b4e9fbf2dfc9d36b5025fe899bc462358794ca1fd27c67dbf64c5a46866134dc63af02afd98988093e7d76,
  0x088317753fc3b38ea83d611f04aeb9cec34746ff2951e93bc22a91b9f4048783b9d724d33204f729163c50d8a6662cf0,
  0x102356320195ac241b54bfc4e940aa2117f6a5af249b47e6db16b6840035edf9417e94791ab1739164f620260e2eb3c6,
  0x0ff18bae33b9eb83cbcd6b1fb51d9a56c0101e1ba5d52ff49185ff222ae2cfff84b22db6c0f378f8b5c387830e71c969,
  0x131cd36ca3b4fc8c6dbd136ac355c16abd4f214bc9857586f2ecc52d6c99f02541e84b11dfff2c077b3caef9f9a3690d,
  0x08272388f14dc8ec9b90b7f74cc15352d9ccb1f253917f9571d8633409b4d35255c6cbba4d15566ce1881a33aa38c7f1,
  0x183aea5a13f1bc94c6e7b69be604646d9140d01dcfc40d9fd29308df46f4cab2c5191370f397f51a706daa91b59dd5b6,
  0x11d8deefb4710876eb9ff01f6625fe025f4f9b3f0d040d7f4516472293bd0186771f913c41e3e27ea5481cf921e96559,
  0x054952caab760d32e40074e77e570616b271c7ea1d0c30cf16d2a665ffdbeb3154aaea4d3b35093d9d6214d2546ad567,
  0x02f665b3de0d520d73256443d296e59d3abcfc22ae52e4d101f5ccced794d09599c0c67b0d49d9b47685993b1ec66073,
  0x08d86e517a7c76caa883ce377e9295d4c8dfaa57d586e4b0cbdd685252957073861ea247623b57c5ce16f5a69760a831]

theorem g1Part77_check : g1Checks g1Part77 g1Ys77 = true := by decide +kernel

/-- second coordinates of the points of `g1Part78` -/
def g1Ys78 : List Nat := [
  0x193f8c0105cc9d3e8b21a5ae81b2bd2905bd9bf646317eb270d22e4174e657168a679099ba85a52a83fd6d3efc737cac,
  0x17a628a5333c3af821b77165da28e7cd7ab58f88823777468f3c0cf9c89df918a362bf0746aaa030a65d623b8487080a,
  0x0d52552a6302bdf0ebcfe49827d0262a8b894d4280e01415b19bb102704bcc468fadf3791219541350cd03c62cd9511c,
  0x03b84f279b283ea967c002521e74f8d5ab369aec45ff0c62ef25db55580857462ed4cb5a6a2d8f45427ad5e517b35987,
  0x0f45523fa5b43c23e902e45a0cf3c682599de6b5be64bc35be397f6cb6677b68b9e70c9607d64830a956631ead3abe63,
  0x0cf7f83c48f1179917e84f96db8b52b6044989a42717b5fcc5961be96efd78cf9fe211009892bb5eb38dc49358471886,
  0x0e9a23edf52fae74039a53dfbdd2e7509713d83fbf3a3411ebf4b67d3bb89767b7a5b0077da333adbaf6047902d9c745,
  0x008801d1085942f028d162ea2d88541ab9bb804bf1618a51b242a085b6e16e3c61aab065d4b6e8123fa8485037dfa623,
  0x062b89504418275f60e4fe512eb0e8d7f511f1e36678983abdb969778501affbc0f9dc292653f1b3711b13fbe75631b2,
  0x0497baf1b92f9ea1143d605755757957d2f7c2b07f95cbddd9fde807aa1ef2577d1a46ed934cc0c30d0d19a4247d051b,
  0x0f6955227e0bf00358541be021a37d33b9408f82feb761faa501eea13e9fb016c81b0e8ec36508b069b44cc273e7ada1,
  0x037fd0124645ff7197a601a8063e066020964d2edac0242eb688cf0fb494725b59ed91304e235f5fb3fe96335b45f87f,
  0x0863394050a3e7e82195adb2e928772da2713586a6e042e27aa49332c76e01f05a950875d5fce8feee884388f3a8a769,
  0x004e89ad9761c82e6d608f9ba1e47f112b414a3e7e9b64415353053db013f38ac3c9578eaa863531a5f9e8d02b896903,
  0x04b3aa79969124a2fdb4d2746cc4e9b8c1a05e71321b81ada1948ed1512c8e50ca258ec9b5cac78c0b1dc25ba04bf6c6,
  0x0abe1e4516da20e8330cfe9cbec20c3e5ab00e5fad036726182471895d250d2d581fd95bcc8ecbbc9381b6e792118402]

theorem g1Part78_check : g1Checks g1Part78 g1Ys78 = true := by decide +kernel

/-- second coordinates of the points of `g1Part79` -/
def g1Ys79 : List Nat := [
  0x0762264420b06aa43d089b6a3117b05d4cfd7edb132766e0c513e4ae9559be87d7043abb7d1f6d482d6a56895250ae99,
  0x0cfaf9c5dcf61271082d58fdd58c4d042088f0acb705b43979f95201ca2ff0530e74c5697ea5aa32953bd993fc71c7a7,
  0x09070957b90ba8a6a03a92f5845c76c259968f0d02e9d1299732465f8d905145b9ea787eb08aa14f8e75bbf8efd77a16,
  0x16117c2902b6e83d9b9f3de4343fa422708d2667304d8b0ae326b649a08a25ac336474f9a0dcb046f802e38569899270,
  0x196f0815088d7b7b8d144d8c3f126615e36e1efa050b27958016539214bbc04c8b78e45054732a90b0fb3997036d7a10,
  0x144ed6d614efeff7eed478792c338ceb446d55a82e2a880439d309de18b46446b52f6bbb11c3ab505632c082e12ba8ae,
  0x103a7edbaa023476a6a1591d948ed8411bbaefa0742ed7958922bbdf600c02b6e14c1daa26cfc5b9fc0182a6a5c6bf91,
  0x008034da6bd2018eabcc9aa6050f4ce6749ac149481cb72b457c9e689e740498e56472a8456e3767455b2fa8c392db71,
  0x0e72d2b069a73987b4e81900cee1b93c2c04387b03216cbf06d6ca82067ab837030ca6bdd782edaeed9d79e82ff2a786,
  0x0c1927758b8638a1ea786bd25e829f6a0017a4fbacf35f9dfc6fa25e3d02004e2836d267bbe2888b362a6d8cce7bfc11,
  0x188ce36f98064b542ef7e2955eb5e327e5d99a397a21f3c6f4241542378ae5515bdaed4332d8df3b17ee8adea09e5b97,
  0x07f55e98711247c4c5f2353469ed0ed51560f8c7fbce3d18bdd93d5dea586b5b3222822d80abfa227e66f2862cff564a,
  0x09e19c1fe7d74349461dcb3f49fa8227b9b460977addf8591180228db1cdc0758a98a253a0222fbdd54c4e8281934da1,
  0x145bb2bd0b21482fcb39910e99a74c9c7253f3db4ecc239e83a3b00d6f79d5b51e812da2a02bdc808f825620998bd4b5,
  0x0c9dbbd3789d8ac394486e348b298dbe69efc139ebe9819d2cf51231422d73f4810b0145208f3826b7511ceacd090792,
  0x133c89d819c3ad22194ef6259b774e1de6e168f10e71b93485a2ad3ca4592dfb344362d9854dc95db2ca379ad42b0e18]

theorem g1Part79_check : g1Checks g1Part79 g1Ys79 = true := by decide +kernel

/-- second coordinates of the points of `g1Part80` -/
def g1Ys80 : List Nat := [
  0x0bbd796b93627562a8dbadc4a66b955a5ad7d023c40c601b2427ad9e302796405c648de6653fa18f16baef52b281ba58,
  0x09592d9f4f2ed930787cdca156d849788cc8a912a986a303705f12c926eb9333b33a4367dbf628e9d2fece81804df276,
  0x096fa2d034fa47cab16be86306509d311842271e7d565436aaff39f3f5f58db212d24762bf486cb25dd0f4fcf5d32b93,
  0x0b9f15187910cfc5e05bf375e67ad09ba73e4c759f83c4e5ddf27a250c4b4d95ffea695a38f1a4ce7c5e5c867936ed49,
  0x06aaccc3fdec9b979408be3797f38cf7fe8283bb27854bb1923ac2ff2b6840ff8ca6f206699aea895807fc8d92572797,
  0x01f7f126bbd1d529b9cdf5f1122fea6f20273d551a7ffc46e36825fd430c8ffdfc9778b1f9e77b2367a97e4e671cc491,
  0x19b5f52d1ca67fc4ffe68fc8a4bb82e0a672e868025cf227eed4c79f0eefb5061ac73e8cefbc5438f9231e894b1e1951,
  0x0c6b52644cf19331164488ce234d7175820b4a951e70c362f0728afa03909437d3a7fa2788e7c3311233740fbe8488be,
  0x0fbf62efbbd8a231c509c2a2053ea262c0609b56bcbefcbf59a54a5c4b8ffa351ff09f0e523deb4a740895f91357b5e5,
  0x031eb81e8bd8bf5fe83b259013a19475c7a4f58fecfa7455a3061aaafb4e1a4e627563094948ecdebe76711d45b22b77,
  0x145a0dde540e5fe6d1e29a80fd86c31ec3087612216cdb0dc1beb003c5bf3548a493ab7cf21204cfb2de67d837ff7f82,
  0x18b372b7f27a87fbf3d5e7e4cef73362474197222347b7fa0831a83a936ed9ed2b29f78066a7e31a5fe3d1e9af505886,
  0x0606eaaba47614c8151f5c50deb9b03f0d9a28e1f7f2e5f9222494223287c787a0be5b90d4421445d2cbad930935629f,
  0x11187850f9fd7854d341397db0967a2160e96ee39121f2d58fc99bb0b952ec974022a918d1d3ced075541b3ba225a496,
  0x0c0509812d19fc65f0337838b966881f102f8f068e70a3fa101895d1e20ed6d8d1ea08e15b617fe24d4d37387aa9ba21,
  0x0af6b923d5c114446c6ea3fa738cf09ea78f149f3ddba419d5dbfd67d3dbc1ec4105b09e3376e31477f3144799e0364b]

theorem g1Part80_check : g1Checks g1Part80 g1Ys80 = true := by decide +kernel

/-- second coordinates of the points of `g1Part81` -/
def g1Ys81 : List Nat := [
  0x0e63b2c6ca76fb84bf34fa34d1e8aa294748b6651e5bb001953564911ed803278e18bceb86f23a68b1a65013605a35bc,
  0x15696f042d0cd71b7fdede7ab754c304b06a7e98f53d1bff7903de4441a1603c7b5a84293d16ccbe82835b069e8d747d,
  0x07d0549501a9ff95cb81e4378b0b96072af29da67b198024651cd712550c5cc89517135d960c219e23392d36554e2607,
  0x02b470a0890e46a31dbcba2017aa5c36b492a38038f4af2f6114b10c2dcd8632c45c4f9fa7db55141bbf09ade39b072b,
  0x04e4d733e93f0289c63c958bfba45a5816748e47de36f8a21ee13ce865cedb1382512a0bd68d8fb8751aa42bce42f31c,
  0x18f5b17eaf03a50f7bb59aa413bc4c2a81be7683b325f1f6e8f60102935fa0f994a1d5dcc85009d17176def108c8ce1c,
  0x15df9fc3a5faf3cea34298ab4121712fec0e923a03051a8c95b143b0c74cf183e2bc8a3ba6514d926d86456afc20668e,
  0x17605cacad54952deb7960edd678df7a44a6506d98e375efc0a81701dc180310fd04c457873f12ad95f4df96ba904e23,
  0x1219130bb65dc8cc0b6613590bf65eaa3118cacf5acb503a7d183207a56c9376475d2d6b89ea5228a15bc73056ed2c9f,
  0x03fe632883feb70c5b75cad2d3ac14c7388c40b2ce3e90500e9199bcd15d0c48e23f0ace60d145e9391aaf5497ee2921,
  0x04a4edb4a90d152694f6164d82f0df593d1e7c52916d671957f8d76fe2f4bca168cf5791188ee68db5c7bc932fecd9fc,
  0x003a8dde84796ceda5a692e9882753c92b629cd17ac33d3186eec80025451e8be806c44a20d25fcfd6a14f7049c606ac,
  0x18058b03147849e2bd66cd4b168ea69d617bc8bd1329248bcbd8bbf2c6673893241e4f7798c3415f70280bbbe249959d,
  0x0e7550793c0bd516eb20f1d9e3b865d04e36c1e1d2e9bc53abe3e0c2c809bc79bd75591435718df4ee40eb9c4012a0e0,
  0x113bb68081a3df4eec4b4124f6ca2024c529932ce38b41d96560bb32840accf87825b00c85e911f505aebb13abd408f7,
  0x0274660f0222f864eb1b60d366ed91e632feb63efcc1d9cc0ff86b1689830c5a92371b8c410bb89750c4df1dbf67ac75]

theorem g1Part81_check : g1Checks g1Part81 g1Ys81 = true := by decide +kernel

/-- second coordinates of the points of `g1Part82` -/
def g1Ys82 : List Nat := [
  0x006df45503e3c385f73f8d1c6249aab0455ea0e6f9808c6ab0fb8caef3a4b24cd684be85726d22ec92a1c8abd45f5f61,
  0x162c3fab215b3abc246eb53ea7b2d491a2ab3dde6faa1e7ed4161546954e96caab85e42f6a10c1ceae4462b9e24c5ab1,
  0x19f75e62994dcfe8ddcf02d265b37b06709bf9420cab575a385ff672e2d3a1abd4bbd588bf4462bc0cb37aa3b92f1d18,
  0x196c322696d73d2bdaeefe035d600f26aefbe2a6a72e95d4078f57f45b59cb212918341bf2ec1a6b89cb717c111a599c,
  0x13ec9eb78b26fcb4e0ba5110497243aef14b1b11af43c8f7242b58a1cb4b2b6a839f9c49709b5f372296196181451d0d,
  0x0cd5fe3d404e0fa8a214edbf57d955b2276f0991f62848b8918a934d301e6e14d39b8737cbc4e13d5ea82f05338ffbe1,
  0x160d634ebc3000ea18d58f417d2fb235a7b0ebed395b7926ef11d9410001afcc598be7eafca83ae327aece11f02b5aa7,
  0x162e7b3cb7ff03a0f84736ec7810806a23c78a0f0e456aca187f46810f99c1b84a22ac9f2abd61b2222f8062e205fc31,
  0x1609f9b5da80788dca8d8eca6be63c135d0eb59772dab365e1f64a1ff19806fd325e9a1a0db33596c1aae8fc57880254,
  0x0e4eda17a9f9d7dbfb073bcb44f9c76f02e9751612183edf00818a493afb2863fd94b920204b4d4ee068983099074469,
  0x126e07e984c85a0b11d503e5d9303a79d65ed2d7169277591e2ecf64d45bafac8a100ca9c06d9f41fe9b5d59cd2330b8,
  0x0484a7774881d6f15a27166fbbc895c850801fecaa6a73dbb827a9f8a256fcdce913d6783aeff03ca40b83400e370e6d,
  0x11d0bb3985c9f92e3bbb4a9510e73e491ba04d6c6698a919b4b5f95c93d5b65fbbd5159086f1853ef0754ca3d2f8dce1,
  0x0500463e55fae5689582635f631f569a64e9d9e6731d1737a3e28047508309f286dd7af42e87b7e0b03b6b9aed0028da,
  0x1881600cbb025ca4cebafad90a44e86d61a1f1730e0c7b19b6e2dfa92e4511a9188a74d45badb2b76882fe292faff7a7,
  0x078e151f4aab13aeee4e3d3c3cd0c375056300e8cd02f4b5f351af9e76ce190d9a639b5802007d17f056bcb09edb31c0]

theorem g1Part82_check : g1Checks g1Part82 g1Ys82 = true := by decide +kernel

/-- second coordinates of the points of `g1Part83` -/
def g1Ys83 : List Nat := [
  0x095483bf9c6c53bca33d21146bb11516bec362c8e5eb1e250ee91b2be1f2fbc3668f61f7f3a6a3976364894dd5078448,
  0x141bd39542738141ac3fc09727dac4277d7e466c9d9493d0824cea7616df403490c2607fd86fe35095a5e6829379e491,
  0x142af1335e21fe7598723d771bdf77ec0d52f7c4781d140f11dec9e8602cb106c543731596a371d439dfdc7139fe40c1,
  0x09de4f4489a918dec156515983c20788f203e5c0f89ac61d105fd82d6d298db590cd70fd0c0c0aef31f4f902c080dfa3,
  0x0d3885bca0dc7cd2888a77629b6e8e398d28cf02d513b1e05ae97eff9ee25753502bf33a619af26f1f501f747fce2aa4,
  0x0852e31e1db5c37cfd9a84b70a51184abbe5b21943224de457709a588ab129896e3e756455c70c4386c15d3b61981ade,
  0x06a8027354fc41bade3b30303b11eef06e7145e59fa468a77debacad7f8f9645f7abd9c22468456f615daded4e581b76,
  0x0bbb0fa5fdf38d8f0f64af47aaefbe6a09671ba5b67f0af0831e7630baf63f7150576e2ff9bd319d09fb70f945255b25,
  0x152b4c9d1d2528f83dce0d940c828d2d1cd27dd4c3e98313afa42d43bc23132fdd193ecd63475c72b8c1092bd49062bb,
  0x11048f5c168480d61f1098692f115261447802a9f06bd2c431b180e2be840e9d2352bd89bf81202c4a3b940466d09667,
  0x04969af2365847a661fdc3946a187cac0c9f1c4497d52797a0f9501833cb56b89c032265593318d32a73f7089b0fc0b9,
  0x064665ee6cec55af1873744fb7866ed1c1925971f5c5ea85731f5b27aa830407bd5bc50272537f6f2ccb067a4d0987c4,
  0x069ce9cea4ced2267f76e0993e1aec733824378c0963bc41f7bebe59a69324a2addff74ecc4dd188009c6e8c84ff091c,
  0x19a5decc5a81affce181abecf021100b935d0525d82923b64bbf0b27d6ccae784237dff883794b87ddbf54bdb2d18140,
  0x0dec4f156ded186b30004bd2e0e8c823f7cda7a4ccb497c9bd0b5a880a39eb63b84f09b338a66374e5a4e6da5a238dff,
  0x12fb017f1117f4eac40aaad0553fce7d9e016ffaf912d15c5320c63bc88108c2c5b25ef447f94dbd8804c9a40527fd82]

theorem g1Part83_check : g1Checks g1Part83 g1Ys83 = true := by decide +kernel

/-- second coordinates of the points of `g1Part84` -/
def g1Ys84 : List Nat := [
  0x1982ae317aab758457998bffca18801718109e3128604efa036eca75ddadf72f2f726b35c49676b3eb7df21db789f943,
  0x00c2cca3baae20e2ae04d6b55b638b965255755f065f59b6340a36ae2d061e0778b8414f1a637f97f480ef229e512ea5,
  0x0c0637549ad3495debe0e8d6f8af0b13a8cb6cd502dd718076922333016f42f95a3a6e4bc894017b4ef71d9c2ac68da3,
  0x11e9e62b026bfab384455e08653b7b146e5d05cd7d76b11e1a82bfb08a3ffa6196607085c8447b2c16e2e59196e10453,
  0x0299b2d2b74ba12a213e7dd762af5f53a018358b98c5ac62c405547004fab74cbec269512b041afd5ba0a60963a4202c,
  0x1901a8a9c20241fc17b2e833a103255e8403126a59f3b31eff09cfa0ba6e2f2fcdc2aeb035d7ce793258f19943e8ed66,
  0x000ca97aa7289f27f5d9ddc9f4bb1761ce21119ad3146fac351f7571b0bb203349caadcabe2782b46e186eebbcfe92c2,
  0x124297f28d4c69bebd90abe523b60753c22a0b8d28efe66ff11a39a8a2d5582ca31b2ba9d23b756a88501a8863581e46,
  0x17d37a91624efb69c5e36105de2335c72f204ede428a40f4ea89f01d206a1948c91aec83d8a19dd8654a014415459d96,
  0x11bd5dd449fbdcc39c4ff4286bc169a89ff27511ee6c41a7a242b6dd5fffe0500f9dbd37912252607a95e02af0eb36f2,
  0x061567a765bdabef6d16a2c5a04c25d3185fee1cb42d3ee136ec74f7f3754e8c8325782cc6b4c8b24fdbdc62d4845d87,
  0x0b0158974f2f49f8b5adfab0f62088a17b5cc2bd7e905cb4ceaf44a5350f770edfc169b0030902a252ae9ddfdbeb1146,
  0x09ad4f2a2909332fda81b4bf6a6234bf6b7aa056ab67876da49bde6b238a3765ffb9d7858004e03aa497a7700617b359,
  0x0ecee3df2cbc582d18802a0d1b971a9f72b008786435ca303cbe639c2b9a45208c814f70a5e8937bbb29d69bd33ed23a,
  0x09a3498ec19845a1e42929200302b4bb661fdc7b0e65f711de87f6eab6c3228f1397b5fc7962ce0491dd305a45762cdc,
  0x13a106d92675d2e52bea3c5994086b3b96545729bd992d346df9ae30f0cf8153f77bd61fb7346cf02505ba157ebd7e85]

theorem g1Part84_check : g1Checks g1Part84 g1Ys84 = true := by decide +kernel

/-- second coordinates of the points of `g1Part85` -/
def g1Ys85 : List Nat := [
  0x0f9e6d46da23b06e6d21af28163a837ee03a611133deda504a0d39ff44e9dd907f464332e191f9dfa2ffb066e9e6baa8,
  0x0d63a0f16964bcfd69ca652038bbe04088f6c4014dabe14ba9d0469e91b63efd301c31cc793848d1319cd22297f10a68,
  0x120705b17a23510e1a8d429ed9d8281c30f8487d6eb901e76ed2a0eda85296615a9d8c84419f9920bfba79767955d1d2,
  0x0a33403ce2e85c81a946b11c4978372f577be0354d274afc1032a4b128bf6930a78e208c39c2de51d25421c6d9d8f87f,
  0x02774cbb97b7359d6b544c9b59bb9da37c96ff978e389ea036f6b25c86222c5ce0b23888b017c35171e7ad61462dbb11,
  0x0713d0ccafabc43fa4da94d85d9ab269848178cf682049995124443f09f851d04f671f9fddbcfb1d11cf6161db366491,
  0x17d422c784af07c52c48adbacfad5628db335cddcbf64aca325e8866105f159e98d342637021c25d69df0604a190b087,
  0x0db563276c4574a59c70dcb31678b24a1d9894fc6bb9fed23c5439cfba1f5e35435034fb4380ab6996a44fbe58a12844,
  0x0c5481bbf23fbd18f5dfdc8b78460a147256305a361ee3defccf2991955e69b557760a802adbe330de5a592253e874b1,
  0x0b3ccec9d8a1c63ff935877c2eda4fa3cd80f735b64fd1b60a6e186b9b8e95e09fdc4436ae19a45cb2f97eb4f8e95f5b,
  0x1591a68ae893aa9aee9372f8638762292209fb46821b1ed6173987ed9de1224c06c52261321223bbd5bda9e205e47f41,
  0x185a06589a907b965cf285d7ba27362649a91b3bf26604f1a242458f26157d3286f54aa68414ab680138833895fe54cd,
  0x0b2618d8e79707f36ac029b315afed1a53708a052917366bc5e3efdef73e3abc5dba30cb724e5a65ce3b9b533828979c,
  0x0f9e09ea3485c3a57de5a75958859221052dff6136233f66efced3ac42dd662beadf29903b0ee992ba19016ac6269045,
  0x021d0dcd32a0ab42de001f691894be257a957536cc3387dff0484486b307e7cfdc2a2e8932c0703571a88a4b904f8d30,
  0x080612ca42a50a28f8784faa5ebba46098b754912003e6de4bdf5b9ccda9cbaf40a7df622167e69b5bb9b3d458166956]

theorem g1Part85_check : g1Checks g1Part85 g1Ys85 = true := by decide +kernel

/-- second coordinates of the points of `g1Part86` -/
def g1Ys86 : List Nat := [
  0x06d218afdeedae29f2cf212f0de837d694347c5ab0eda5861c8eeac1415b0e5414c1df818bb9a65c222e570a1dc5c88f,
  0x090855caa12b9ae5dd5069fe8083411f8ca3894f41b5479ebae09ca06fd8c2c8f2c4c6fb1102e3c26ff47b469dcc5215,
  0x16f05dc3b285e1763b63258f9587112f8db86962459e50cc3300e28e83ff68b3b4f8b656e1872721b60b66b7e95def04,
  0x11eb72cd25a1f3278523c3087629998873df754a05754c405d0bd02482f2cc63660af82f54d5acaaecf7b1d3d6506696,
  0x0c480768f32de75de730495285db54f591e8547ec2d1fb6faf39f3563ceabb8f63337ecff1b07a051cebc6395eba764c,
  0x0bb0c5f0739359a2ccbb990d6173034c9bdf2f1899d9cc130653168b0cc1485ff0d897eeae64d3f35a45431a5d509814,
  0x0c3c0cd9dc394e802a294652999acae6fda66acdc9e14473af81f1dff09360835d7865100b290d009c953bc52b05f997,
  0x0cca9b0a0e3d4e5041007e6d7fbd74115639b449e22ab5902a9a7cd162ede87c8f9c23a078a95fe8687178424066af0c,
  0x03323773f69224e20d4e989872741491fe0e2b89c3d17bf951f71cffe5c6bc910840c01600b86b5f6a410f6005ab74e2,
  0x18f23c63e45ff852ca3b4561c73856702ca6bab9df3727c796e08105ab6c83be940e4267c48f52790e256e6057d0b1cf,
  0x054e801260e75f46c47632e7a01524710700b8b3b4432575b24c7d6bf1687bb2405bfcf0142a822f041028d27570bcdd,
  0x1927d42e831fed4cb106952f2d68430a3734bf111d4ae8a68a1b86b0176a194da05373f197c5c8f6eb0519b1721c67e0,
  0x01de616f7168aaea33a6fc6d317ee4eac3bc42fdfef41c5469f862c2ae47c92f2cc6b7acebf2bbb7023739cacfa51ec2,
  0x07606bb359d6202e2b45835f12caaa2eff101189bc571be741b5cdbc1ee1fb6d62cf8070b0eede7f3a967955937b601b,
  0x0adcf7a1a5775d1e0ebc6815957a17a71bf607777515e3ac2cfc8e369a451e3620ff053df2bf301cf7321443dc3b30d9,
  0x0b4708d8ec7c7ab293d32d2f65ae66ef4ac865aeb49a84c5efdf2dca7c310fca484baf6d03926ec9801f669905ce18fd]

theorem g1Part86_check : g1Checks g1Part86 g1Ys86 = true := by decide +kernel

/-- second coordinates of the points of `g1Part87` -/
def g1Ys87 : List Nat := [
  0x07587c756248d73ce268f37639366d1c85d35a94b645b2e315994068d1cbcb9fd2a47504dc88ec4c36218a510daef165,
  0x017114b2de68680b8fef5980e56dba87145f24643d8dc00711a6294343c321a056a059e3bdbd0bf0030c28a34a7681ee,
  0x051cbe9436d06348b2625431af4f201cd52b4ab01cfcdc8d1e84319b3fdc56c00154aad5d47d56974020d7fc5d410d71,
  0x15228afaefc4aa4a75e841f7fbe1e80f1b3d6de2b14005c374eaff63557a7cea3731123733c09058d6012d7c023626ee,
  0x0957ff4e59bbdbdc68c83a3231166f7f3aa33c3790035b05effc759b6b481e4aacc0f08183c5e5ac3170f3812b9d31d9,
  0x09fe48acf07b7344898098e11f4c6e9e271eabc5961901b8ae761c0b8dacd7621f13d92a616b4a81c6b6f075643dcd8e,
  0x0c1b453254c077268f1ccd0e0ea1542b0eb6de324a329076cdc509f1d8d60372ec4dcee41e325c996df4a3b8e67625c1,
  0x155b946f482fbc9013f412e2b1a36aed2c83aaec938047edbdd349be50220446e859056b4031e936bcd24c5e30e9b8cc,
  0x1879d52c4ab655b73747ec1b1b1c9969dd8a2079b32e3d58662040cac3246917168dd19fae48d3dfea2b6851776a2642,
  0x107fa8969ca8feb19326ef4ed386d55022aa68160cb007176669f0ad579125aa49fae7469640395828bb70d0ef5dcb0a,
  0x00395718196333986a9b79d17f084cad2cba634b461c48c6a25f53b7110d80fc23fe3020c7c2b4c7691224b71bc0d48d,
  0x060421bd4614e0f53b3d1fa96dbc56cda25e27d52c708ae77563e1cb84a9ce8411956048c40f64425e5ff346e6003335,
  0x115f6cc3815d5f835688c63de171202ff2629de368f33289bf07977909f9ee6fe0035366f51730546d42f9691e041558,
  0x060c45d96d884339a2d8adf3de8e090fed4bbb04217a89b1ef841c0d9ab5d70c386a9d4cc55cfb4f8bb1fc5d7a636747,
  0x1948a9c61ac44cde152fc143acfc92a4e05a28b7e032e71437cf12e8c422441333bc6068dfae967703174c1907650900,
  0x1642a67140825d84efcbe75c305141f917d734c90cb927cd2e415699d4fa64e788741a8f48375079f8202c569af78e92]

theorem g1Part87_check : g1Checks g1Part87 g1Ys87 = true := by decide +kernel

/-- second coordinates of the points of `g1Part88` -/
def g1Ys88 : List Nat := [
  0x048ac16cddfdb294e76dabf92db8be08cf7cca53f0910fb1deb045c268fbd979f37cb84aacdd5885f09cf6befa3bd736,
  0x05d1dcb3adbb509ee269b5be8c4119ad1446bb8a6b9c15ed42ae39f90cee620ec8a7c1560c7272a3b6adac8e9fb96e49,
  0x0c51eace2e964eae942e78e4c4bb9602275e0f6d3a9b8f3373e46a1a79f331c12f24f8812cc1f9411554b189a34d748f,
  0x0f20f0b5ca84366a2b8cc5e89ec72ecb07ab7ee3ac28f47b035902cd750ac6129d19148db73ea16b21e833b7c8d7917a,
  0x159a2965cfa342ac6becc0c7d176ad3030a741b90c9f23fd8faa321f1dcc2bdae342e7f056a368ba6e676695a2d03ab5,
  0x0cf8d3252a28cbdee2697554a28910590dc643ea3bf000056b56ffa369c7178749158e75c61f270a2fcf7e0e2ab8ec5c,
  0x18ad66ec07a10f412bafee10ddd5b77c9134cfac99578fdbfdc1f8d09a86051e5e7d31edafd191a27ba46789ab8a4d4d,
  0x0e951176786d3a6816e6e6007c9326bf91282afc807fefe247e62713c107d8912e34c1f84ef846e4733a12a8f25865a2,
  0x177d28615c3b85dfacca4f712f90e9d29e77582153a63fc0aa22a939092a5ebdb938e804ee5ab4131a270eacbdc20fbd,
  0x155bd4019059110f1ccb1b09db0ae6972c15c89e7d520fbdc783eb287f54fc35c9abd4ffb5016854d61fe964f18b9935,
  0x0309bd3f54877ee7805c487aeb75476e5ae41942c03ff03f8b1ad48e19156a8f751ffcc300a35df30f660dadfc828176,
  0x0060e3c7903760b2b3f2b5f39bd29111cd9dfc85291f3631725111a9b35fbe408b51382c7e9b22450fcb665b2227dfa2,
  0x0c8571e1826bccb23c7edd2caa36b470e272798327181990c28bd7b1498fd334c61bf2c5807b8dec637501d438d0fd8d,
  0x164e61312731f61f8a0f810c25b7c4232a64b2d821b21b44085544363b3f6ebe15e7355d38dfe7dd62caf2163bc72fa1,
  0x00e2d37455835f26bae5fba71f1e8b657cdbc4e71f24b061667c841d5bd02c38cd398b5969dbe24fa4630ec3b694bc9f,
  0x15e4383dffe1cb1b9c01d6721c8f2d0be927d5a6adc1ae0d09adeb7a97163f4e19e1826cb40b062df0127f66f336fa07]

theorem g1Part88_check : g1Checks g1Part88 g1Ys88 = true := by decide +kernel

/-- second coordinates of the points of `g1Part89` -/
def g1Ys89 : List Nat := [
  0x076e06df03913716b0d79f70175ee7305349fe3f8b167d4313ef6b8c1d5ed9a81489e036697f96ceb321c925c9695571,
  0x0c340b699b909168f3c9998d913f8887796ffc3d437de3617eeca359d9ffdb576a558f218e6de02c64c55ee1e037b67e,
  0x01f0bae0749da0d4a46fe7bb4c9d5e20e22779a3c39ece72ac26f96e66a6f75d35e1b1c8488d35c6e5fda07d980f1278,
  0x11e72ae6e4609eed48aeb94b59a2989638bd9394ef946f0d5556964a8afcbbe671e75f903573e13a03300f0cc0e93bac,
  0x0e3687a904bc0871f6659ae8df7f8bb0e8a6f1c43b7b77b85dbb5d2c99aaa1f548b2efbbc44eea0848a254e8bd056663,
  0x08fb148e2262e9768aec562e2c16b42c9ce9c8c6cc9d6df96bec26a6b4049eecffe5ca8e36b24416a2d528e3f17fe225,
  0x0e599c2e48c84e38d8f8953621616f0925deec5e36ce5390818c098908aca227ef51fcec44b183d430f705e10c62e36c,
  0x10a3ce7acf4d8f75de60d33b6ea4f5838d8b88b24fdce9dc19c5db91814a8a615dba1635ec28c14e0a89cf7805574ba1,
  0x0137ad5e104ff529878fbeb08dd1d97757fcafdab3f5edf6ff43b1d10be90ebce39acc38aa145d6fd2bbed2d7e6044f1,
  0x071ce336bceaab70f221c78020b623e59e81995e230ac09b5403bdc173e198fd529003f800858db3018603565c652425,
  0x16cb998615259c0d2d1071930dec90f2f8be9b399ef0f9db9fc106cbe33a4483da5a0001399ad10d43d8501e3b8b5ddd,
  0x095e153a84a84d3671a0c0a9058b1b714d943eef8985832b70b25340bcf22992011d63b54d0641f2e4e7b7e91803e7e0,
  0x1801102a9665e42f78930377f53df6ab1c3ad6aba12c39f89ede228888f4302bb7ebc3603a32f7f9bcb5c0333a58bd54,
  0x1596a5b00d01a9f1ad65b90e84b959d039de3ba7292c241078db43b76488daa10fc2b02116286392ed3ef77c51da18eb,
  0x13dcf906f4b7d4c3751b267de4cf27157570d360ac32d26a0ec10f578928f5bd2acb6301a2ca5f284a1204ee953e5eab,
  0x09447e22045effabea1bf795f78606534c6c0bcbb6b1583e13bfdc37e17d1fb46721e69ea4cb91a9aa6d69be960552d7]

theorem g1Part89_check : g1Checks g1Part89 g1Ys89 = true := by decide +kernel

/-- second coordinates of the points of `g1Part90` -/
def g1Ys90 : List Nat := [
  0x17b8dcc812e40dd306d4d04d043b6940fadea4dc9f4dc9cd840d2c6016235796abfa9a1c8e7e9665f2846c8dd7f61e01,
  0x0b290f1ea9ac844cac8e0006845f01d2868464891dee875e7f48e27e2582e8a59c2458fca507908bff36e340e9e202d2,
  0x0ef7776e1589eacd511c9dac8b8b1cab5505e7d959f75747c01a22af319c0b2ddb49ed1b76d89f064984b579c97ba8de,
  0x00c0d35476f19a9e88c44690f55ebbb40fce36d4f1c46c6d39f37b9bb6186bcf0930c270965b45dc04bd820f707c587f,
  0x15dbb91e03565c2784977844167948daeb0ac8052419734aabec1b0683e5f7f1396afa6f5ad5a2795a0317971f987782,
  0x09ac29b0dca837dca3a1a5e091618aff26391eb97b5fd09b7915c759e8358efa4cbac324279cf2f3ab837d6cf3711b22,
  0x15efbef33f3fc4ca62abd0e8814d29f59e470e7d5e4ba3f74378adaf8501da3453f58d529fd72b2c3902f46879d84f9d,
  0x02de25964ffdcfb78b6240ac8d9fe2ea0b3eefcac301e0dc8e5f07998002b7a0db83c2406d6ae7b345fd397e2ae372cf,
  0x04f3f4fffaeace8dee7d8cbbc5df7248bdfbfe32a21edd6283148ad61b621065b40901e0937b4e6e795db456f65d7947,
  0x142cb184fbf076139bdd32330b13f225f7eac162da29c8e7a11a9c2fe601e7a817eb926200f4febf2c968e36d9995f78,
  0x0b919f0de10ad5ab7bb71babe0adba9241603da32a8eb0c05b9ef16e62af79612c2dfd74ac06bd4cacdd96ad04c68347,
  0x179ae68869dbcba1a034cb79b4620c23a7396f7a54faaed5720f70dcd9e71bc709f3e7b4f57dcff8614a3a7cc27c27a2,
  0x0b5c8d2af3e8fdedf050355899cf77037e51c3046b87b4ad6dc90dac25170c811ba4e779de07d3127a7b5244e6d75610,
  0x0c0fa850398c8360e8f22a7511e2167007aac390c0b88969e8772529d31d72f2d1971255355a51f1a5f61b50af5857c2,
  0x127d25b4eb2fc8cf76da93db587b1bf6658183d65448d72925d21a59879bd96c56ace141727b8aa838c1386f33bda8c0,
  0x049a1dc57ba1fd2e66b3a516c37aa6e8ecf9c2c7eae9c511f570f4d8e668e38f3af2903336c2cfc554de673d293c240b]

theorem g1Part90_check : g1Checks g1Part90 g1Ys90 = true := by decide +kernel

/-- second coordinates of the points of `g1Part91` -/
def g1Ys91 : List Nat := [
  0x042ae2301dc35bc0d9da8ea17d8be6c3cd71541e2154ed5f33fd18b31aa0db6869c4cd73336f924b20a54fa5e2f64727,
  0x11346451cd384ddf6ab60aef83e6385bac6628e7d577591213256a482b1d8abb4df0c3e8bd31527bcf6cbd710ee44dde,
  0x0bd2664fc1f8a7cdfc1b97102155aa1dc99919c038d182d20009b064cc5b7ac1daaaee54a23867ecbb2944af74ec6eb0,
  0x134c290008ab36b027239f205a1156b4f33165fdd7156a2c4bd50f94d4dbccbc30703ca517e9db32bc9b0025d0206236,
  0x107db7d7bf7a051126cb446164091ed0ce80b3977fc1ed0fc2d8ee0e42af20a86b3015b73c87dde5d92421217f67cd27,
  0x08471e4907eb14d6fa267a53e24a8a253493cb988b3adabb6f96fc4b14433b54bac085180b12aefe849438bb5d083d16,
  0x07da6ec50feb3e4930265c31c81d36993947b82bc02879a51149e91aca33b5ba5b559bcf4664faf2ced4f132237cea74,
  0x02833e4d42fe502463f8d51aa1477fe7f786a2765b5c9daa5df6bf8be542fda4738addf70296006388321bd22f5f4a03,
  0x19989472672c8c78a93787ad81e5745db160d1b99cd0659c70db0a47b6e56d99fd0a9016ca240e881c395e5739e067d0,
  0x145e6cab8cbbc3bde9e849dd9f9153a4ef4913859387a92ed35fa5da891bff6d0b387d91a9d54f70fcf6ec124045e377,
  0x063643ec9547a8c109796a4cc6efe9ff5a9b6008280a187e33f8249e7450fdb96b288ec59d4ffbf0136749cb3c064e92,
  0x08ef00fa1344811a83ac3fc2060bb99054a9a1712f185e2f2c746fa397d1328fe3e0621ef16a03edc55fc937204d3ec7,
  0x001ec0a51ea5eb477d5aa49a3f645c898b82e8b436f681bd36d62dee81f0cb98a01d0a11da6b0c482e436c8ac769cb87,
  0x08665f2fd8f9c8c3f5ea9a78f65e7e1cb274570d6bbb7b87fb29fa760cb0ca2d89cf257b0fd88d3ba33e22b41b49e662,
  0x1440fa696e692faf475b694a03544004cedf08f88528a3393bed37455f10806d981a8ce18440122740ed430d5785e30d,
  0x1639b1a4c767e3ed03f42e22631b1ae1c31992197dabec9b6dbabed40175891996ca96ceee3546bd50724211db41e944]

theorem g1Part91_check : g1Checks g1Part91 g1Ys91 = true := by decide +kernel

/-- second coordinates of the points of `g1Part92` -/
def g1Ys92 : List Nat := [
  0x1612e2a8fbde0bb92b6836a3303813dee1bca416077ad739878dda3c038161408f8cd0108bea85f04c309f6e04a4795b,
  0x0a98f48add4972217c595cc50fdaecb43bda7bc8a8e3471ede4b73b140c4c3da934a14dd5ce4d8b4383e6ec9342ce754,
  0x01ff1c3447526e153333c09fb59f71e4fa7090f711e57fef9e8ee1d67f176c817cb0573ff84e4b232a67e6c8864258cd,
  0x11c86efcafa3c632a765706a471b3410185024f2afc2451cdc4075695b57fdfe2b362a536a84d0a1ad6424340a65d938,
  0x19183d8fdfb585c97f769d6714590f816f66d002f0065afa78e1337faff91512a198d4b549f4b8ddc03e4f74b1c3ea78,
  0x131e702e3a03e12ffb551e77c31e4a976aea440293c301ce10c3264ac57a41a5046fa66b751e72ace5688cf165bae3b4,
  0x134485f1a138032d4a1cc32838e98e25fe71ac420798904433023e5ee61f389031e1125dfa0be49190fe27cf7880b0e5,
  0x0f883627616e7e19669a3c56fd08d7bcbbc21f8540fabc5c503efe0aa0685822224d45beebd22dbb56b05df066e7e366,
  0x029db4946b52ad2b8a4b27d33c6fc3c77a6ecf5d8b5969cd2cdec0911501b0c513bd1902c0bbdbee9a15071ab7d541a6,
  0x01fe0b2c34f9359dda199c8b102126e0144655296002ceab414390fc5e77820c662c9f0479ece0c03b38b5a4781f4f89,
  0x0ade49874ff59046336774f74d7e91fc445002c2fff6381fc0f604601acc692d122b851f2d4837d51b13a20b3e1440de,
  0x0cb3589191c19821251cbc6255a59b92e9d737d581bd5588ee2695fe2b80349bf1224fcbb092f386e3d0b3c627593a19,
  0x0b476086271a0124e551061c3af8916adce8f798b43399146a4cdb8dc457e08012b9d0466e65860f4ab8ba053dcb9d87,
  0x15bd468ec8b4ca862f75ab603500387d22ef8612600ac99a353a7792b8ded7125c8159f405f423cbae1fc73de2313692,
  0x12798e9f09c4cddeedea52a618ce0a93f4288feff3e4a24455a0daba3a58fe342fe4a24ab743f639d00090b009d6bf2e,
  0x0169b746ccb756be0040dc25570fbc550cb544fb19ed8f7d6d305b4cad65666aff445037b252816c767385e40fc26870]

theorem g1Part92_check : g1Checks g1Part92 g1Ys92 = true := by decide +kernel

/-- second coordinates of the points of `g1Part93` -/
def g1Ys93 : List Nat := [
  0x12695bdbb8c39c0b66d89b30a151f91abd520bc488895c03a8a16ffc770032dc14abef43546726b5d6a619d344923014,
  0x089066185a27687fbfbada0d94314ff549fe417bc6ab9574090baf1e3e6bf07a9b0ebbed98ec3d997627c32ffa99abf3,
  0x0a8347166a2be08527b12227113cffb6f8eea5421221af350455ba8b8db2af505b951ee450a79d2f46d8311bde5a7bda,
  0x0e5f4ebff643509995edcc518d90c079e54f4f79f006890926ddfcc349bb7e770dfefd43fa5287377122836c56971b25,
  0x0130e54215612b1d8d8beefab76e465569094d6dd57ae73f880b7b6fa0fbc3dcc1bd6b11531630c5c723dc7b9eb8063d,
  0x0ca1ded1979adddc649f26501e672087d9e7ce34bdc8f03627ba0e3da9aba5c435296dc39daa23c2d9d8ca33559dd48c,
  0x1018c67c998f61e5ba2842acd6d84f0ba394ae312bd38b3776bf1a9a79a6d41ba1a1b0236eb22f49421334c34f6aca43,
  0x0f436a067fbe040f3a8b5a53e15c48ba5dca62fbb479d880da250a7a2ae2aea763a7f8d03504c0b1aa398923d64dceca,
  0x04d9db5e7e75c91794f1d632c5f3d89ef96577bd9cd6db52d5e8841dd4a5586e45b22426f33da1f45e0ce8b6ba431365,
  0x0a97bc4212f61440242a92a7eb503b0e2bfaaef5a213cbb8fd34fabae841a7e3dcf1621f0bb6603bcefc7e6c0cba9eb3,
  0x0e4135c2b6b22f73d114faac3507c0a27ca5fdb8c4561cbdbcbea22f19e956c9472e11ed38639fce514642634d6f3431,
  0x12ab4b428cb68b66d7a55d6c7cc90b0afca46add2735828e014e10d46b47aa92ae643c2ff914aaba10c5b87268cb4243,
  0x08c696e4e6cdf27d95a5f4d248f0dca6d757ee4a25ffcc5997bfb5896e3326a0f06ead4a2cb480f9c7c7a16c5e3e6536,
  0x05a998cfde55698e6588c1d3dfe007c9e406a6f7369da2be042eab46d3420864087ef3dd12e4c3fd3ccfd2d46f837c8d,
  0x107313a5e4f8c318e490216aebf3053568d6e02a61fb8b8d1a5f67fa7fbede9b122e3f67ecc22f99b4bf3756d0bdd336,
  0x0bca3a3315c756a2b2acc47a517cc4919e8ea89d625c58901fb2e5e1ae745709cfd794b77e0a1f578166a468c86785d3]

theorem g1Part93_check : g1Checks g1Part93 g1Ys93 = true := by decide +kernel

/-- second coordinates of the points of `g1Part94` -/
def g1Ys94 : List Nat := [
  0x15db23bed83a428423634eaf263309051b3f7597fe9f978b0ac9f6848786b303a5aefbc79f67c188d39e31809fd78819,
  0x0f7194c44207a72514c4ef023e770570a218b8089d3ae3e96b1a5a2e24cdb828655e3df40eeaa32b01a2efd8932de85a,
  0x0f2218d031608a08df4c7ea9f04f1d2282c9aecd01c788b23519a52d3ba8cf76bb76f61abcbd1de59a66c54970f229b7,
  0x1974b9586c9e5536fb90959f6a6d6bf4c346f7791c75b551d8fefad33986b079092cf3e0133a16e8568fdd75c5613f4d,
  0x0c44aa43cde141a3ae219216f65c6be8af2a260590865a4f482c1d531478dfda801465deae59cdd80a96dd9e4699bdd8,
  0x0be7ad2a14eca7d9238bb880ef2476fafb83d207cd7bb006722f15ec4e0cd2ee88832b423dc2a59eb6407ad777df2103,
  0x17bb27ddb754a3fd683fb81d25011173864ba4da469622262bc91d38dc58ed63668826a610f9f58e9b5049adf2517069,
  0x0732e09bbd2f5344402a8cd407fff3a25bf171980fdcde597a2981ac6895d85f2c4cc11b382a679a9c606f853a49a30d,
  0x00b2c6d7425325da36ec639c0bb0eccafd137b718cca7463184f6b99592582da62e53c7a29dc8130eef95000d4ecc5e1,
  0x029c74c9551a51a2aa994fd3abafe8f7ef9d87070fee0b4701b63d70af213397b1d5bc1ffb0e98e98e6f567969ce49da,
  0x1132e6d91c3c2a874e8b7fe315655a76a47239f5d70ecb953f41c5fe87835e7de9476733a81a902cde94291c47ed46c1,
  0x01b7bf529b24b4fd014ca82bbceec548f03e95b0c1f05082d28a70f99f73d763762135317bffb7ab354a5fefa07e4f0f,
  0x11e517b989956e480b365d03eeec1e4a0ac779d5bae7c1342a96daabc26e704b2fbc2099e52bff7dadc0ca9bfb7ee8f7,
  0x0902726d1e358f7471a75ddcd40904f087b8f78652d40f0ee6983a9800fe4f0a285c0cb7d4493015e6e526596ea06fbe,
  0x0d2b3ccc5787afa284778d7342b4a7cec6561879c1495abbe75ce46e9534890b7f30c93aebf65201f6840833514b03cf,
  0x15e03a647de869f5dfa0dd24e1967b5ff2089a97ed07b7b6d0c3b80523930329609a5df79eb65234a9739b7794a94b82]

theorem g1Part94_check : g1Checks g1Part94 g1Ys94 = true := by decide +kernel

/-- second coordinates of the points of `g1Part95` -/
def g1Ys95 : List Nat := [
  0x15366c4f933135d426b4e1f354bc658299052811e2c4e5349ecbf46b01ae21ca663e3a376b0722f42c2273da12e93500,
  0x0e17779d72eeac5f55de32e5b3b97e4ac0d770fa5cbd46e20a1de4e5a7dae823cd56ec9e26a42dc5051897bfd2faa5d4,
  0x01878079eaeb10bd8f8d4a4431efba46e35a70fbf571df56dd1fd6346a1828649d3a54127aa54f0a09f93f4bee5d0a80,
  0x04dd79900a9d9eb6f5966215ddfe755bfba2b9821a834c6788196d0198de17db40a0448a83f739ae01131aace7636d57,
  0x154d8c253ba7c45e8b4d9620c6b40b7b107ccf97a8d28e4a8edaf2fce3dd3a336d4d492f9601087fa9140fe091a33f4d,
  0x149ec6ed81cb041e680a003162395c7c558e07cb4e5dcd38f717ff431790fe712f8a6e4c934284e9e5182c135dd1e325,
  0x129390cc31b88ffb5af3928aa737a940eb40cce14d42d738c31729525e5d5312efb6fea724ae46ebfa2770013c283ee6,
  0x11b20257621e70f9b21e1230d706ac7e3d5285d81122167c5962a0d7640aa30b6f6455a4b1b72bf904acc759987771ee,
  0x118e2e1e7a90e4db52600e34067812dd2e3df81da100a10b3b4db26d4ab7684d0554723e18af0964f1d5ec02044ce550,
  0x1847018bf11b0e92f33d913ffac2c161cd2e444babb252a958fa0571ca011cb0092a61e786f3917157b2dd9119d1b8fa,
  0x04b7e326ade3ddf092f2dc3d10ed7541dbfa3a7f00e2431932c8cdc7c31518d09cc015b9b13ef921a196a50cbfb22a5f,
  0x104a9312316ba41f0bc4f1a8dc850077146dc362b5ef74a05c311f329a5af3057129b7dc51f4a255245baa098ac86f49,
  0x0279a45151632bcfa92e8e7cd67e9a3eb51d4cdd55a106699720f4b2167e102a470a643f4bcce9893bbe581ff9192c41,
  0x03999499a9f3a9003fe8f02685b011de6aa738cfd50cfce9a2d82a315234eabf8791aeec649eb246a97930b3f3f1e840,
  0x11139be647e204269db26083ac5aeb09c4adc186b5a3a4a8309e54279a83ec1ef749d552aa59330b432a701a5fe03811,
  0x0df38939cde2f4c754a4a7b654143df04b4fbb35e8af591bb87fe0976123122ebe927ceab9a18f40182ede936b9694c4]

theorem g1Part95_check : g1Checks g1Part95 g1Ys95 = true := by decide +kernel

end Verif.Embedded
