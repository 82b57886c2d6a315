import Verif.Lemmas.VectorCheck
import Verif.Model.TestVectorsData

set_option linter.unusedSectionVars false
set_option Elab.async false
set_option maxRecDepth 100000
set_option exponentiation.threshold 100000000

/-! Coefficients of the polynomial of the blob in test_vectors/blob_to_kzg_commitment/kzg-mainnet/
blob_to_kzg_commitment_case_valid_blob_84d8089232bc23a8: its values are the cells in compute_cells_and_kzg_proofs/kzg-mainnet/
compute_cells_and_kzg_proofs_case_valid_ed8b5001151417d5 -/
namespace Verif.Vectors
open Msm

def cB0 : List Nat := [
  0x61157104410181bdc6eac224aa9436ac268bdcfeecb6badf71d228adda820af3,
  0x2355e36fb0c54641426950fa3439824c5c721ec1cf2ce5eaee63009202778c8f,
  0x8c809a6532e6df25aa3befde5548534cc8f56de52823323db8d8ddc83e4f3e,
  0x713181392f6830c091693b5fc390ebf2adad2fb0be1f8238ece87e2a04055e2,
  0x2b5e22d50a07bd9a9d0df75cf8a9f7e1816be46146436617e18a9aa6200a3d99,
  0x2af47608e42a6ff387816caae2f90c78cee5e31103876f653d79b2346b2b5043,
  0x177defd9608bbed918731c521baee425ff9b1a40c76214a6a45f8a04cd3b952b,
  0x39ad64164272a8e6f4c8098f8350483bbff27845f2ec9aefc7ad4bb9309669d1,
  0x4b3d25aea071445b56afd1661852fa62dca79c755409f781971ce07173d8d985,
  0x7315dff36fe9a396b2c2b74afdb3c6518cdf104156a4e53d6aad82baa5a2015,
  0x5aad392a9a29788e6fa816b50e18056173529bb308e5eff611012e8801491ce5,
  0x659fa4b7e47f098068f681ef4e2f824a457f75fd9307b03ea6829677fc7caf4b,
  0x45f51c935223085d1b72853f869abf57095338fb7cfe734dbc9b15d33b27a2b4,
  0x4fff381ccdd07d775078487ff9e798d4b740bc23bd5a53bb1943134381df5bdd,
  0x408a7e16a01e3f39a73227f598f17c7d2d7643c012b5c25aaafb14a9757753a8,
  0xfbe76b1e959c2d1a60a742bec7dfdf1fb5c9aeeca8f09e4b1498e82b8b61900]

def cB1 : List Nat := [
  0x181bfa797f50a85f0b3d914781f28616f61567eafec65990bb30fdc9f37738a8,
  0x348c7ee2747f44fc74e2af7423384d3f4369043f9560061bce2222aec8c1bd08,
  0x47de536c0773766a96bfce650c557eccaf295a166bd6f905508d2d371cd6f877,
  0x22ab4fab89008ee14aec3292a737ee8e6c6d04d348201a39d36b7143cde92a80,
  0x621c27eb8e253dca6c1eb1beb75a15f12e71851abecadd0aceeaf127a79b41c4,
  0x72ce5de50ab51b10a421a2680a6521e93083a7c9fe76d9b1f616cae2b2376df2,
  0x411034b11ac446f684660cb4a0337c765c020190b09c7c9f118713fb6306923b,
  0x2379782256848001c53dc464f95ed63279ab4e7d10af866d9590f422f7d87cde,
  0x3a5ba54fea96fd530ba1c50dc3071cecd4a5414706756cd759885ebcf1e40a97,
  0x2f211556533400bf3f0dfe65b9c09ac732085194c1afb9144a9aafe99a3ba17,
  0x26c2ff0cf7b7264eb2eee49e7f824a3e8f16fca2baeda82921caa7f939a51c5a,
  0x4acd989e8ddc842b938269802bdb613fd11ec48ab0b45a83cdf049ba6300bb30,
  0x598df4a4b2f453dfbe914696e48ff7259c0a0990a314a9af0aff911b9dd57c3e,
  0x1f32486c1c057eba831ef89f9bf994f09b5bf2ce6b4b32cea024e8026641f769,
  0x7632243b3a0fc16388b0de9ceb65293ff99f2aedb991b0093c778d16b63d992,
  0x1b600208b00f0d3041ee941364fb5464b9b23c1204dbc9542738ff98a5c67f7b]

def cB2 : List Nat := [
  0x4ac4d7418ba42b10d5ae387142264ca76531f591cb0eafd057f439ef4890d98a,
  0x2bcbb2d371337e386adda84c5173dce9d1593481f68a644f7447c648fb9c4898,
  0x598e9c080dc72041f8697626948d41b7f6baa7e1822edbcb44c83ee561b3494c,
  0x22f8d43b6c837034de003a7b4a6b10462f3f8b8ba73ff869185695621b54e5e2,
  0x50e6dbd486ef330c17818a877b487805d5339f84d0d870cbb4e6aef83b6f7cac,
  0x69b42239b8d45af884b724dcf6b0cdd0cb8a4889850f99cc22963015b07a7311,
  0x4915e8054ea4d1049ec2db411f1cbcf94cf56f55e8e3733c49b05a499a557976,
  0x3721fdd895df6895d4719385fd0134c437d4a72bab61653718933795eb4d8c55,
  0x9d372efdd8e3667c5541a11c6bcb7b0638190be9d1061afb5548a4ec77df47a,
  0x2e8de8d131a49f205302a0ef5088b76f3b68afbb77348696adbf3ae0f271b13c,
  0x56c7b59c03cd5c74e0acfc4e6e41919294bb301dbfbf4a786591866179fcd53e,
  0x1fae45cdee5c8443458ca4d542ffa18d3698d10f8d157cc225687d92e6e0419a,
  0x1bb6a854c28fcd7e063023208fbfb7e0de19f87a855c12c28f6dc1e5794c3a58,
  0x72bf91e74d7fe0744d2b2ed27be095599121707e7f0de1776e8812dcd70e3ba6,
  0x62f521d74ee34aeef013a72784f6aec57a36f514b891581c11ec5b6b7c777ecb,
  0x3b3a7ba598b67aa36a354075891cf4c3c91f1c6eac6d38d741a917e6c3a00a55]

def cB3 : List Nat := [
  0x3fcc63575ff102e587336fe9f752fee57eb3e7bcf325089099d195257283cd9,
  0x66c0af993dcd46993875921ffc2a95175e44171f54ecaece7a5528affe1d4ee2,
  0x570fb704cf29b3b9386ffd2daad0052decd29937c24e61c8f86750febc03b456,
  0x6c11e570409cbe9ad18ce7fa9464da3a0828f9df196676829d83b32c5e5044d5,
  0x6048c7da7bea03a3608e642b9cf7d4dea11fbf49b3ada7e64a86b68553eba51c,
  0x53c10d46414b1422a3fcb18c1905409725ff96380e4b6c2195f753beb7efcac,
  0x3153c39bee4c490429091780544b3007c1be76b66a53e967e0d8662b26846db9,
  0x5ba03218968ee75cd946ca906d28ed7b8f7cf2080e813293ac2871d07d5114d7,
  0xabdda5ab86f08093a8ca82be67dabff23e92a881ed318b1221d513accf56d57,
  0x724b9c02c79d3be7a7646740ae2071c44991015c363bc7285e3112fe22bf000f,
  0x56db05f0af08e1693148156bd3b53430defd18ce93a6174492a4a53c0a6c6236,
  0x1bb32844a444a36ad2427d4b0c18c7bef31e97048251250cd7cf3101dcbb4b61,
  0x13f1bf8b9b179d23e69e10e727ea2a274ebe33b849ca73e0e2294159eabb5311,
  0x3cd84a81be47ddc48b220caa619a8ee46150fb43aca2cd7409474710a27507ef,
  0x67b7dae710395e0ae964e4db53312129905ecc8faad97c7edad68a8f84d3e792,
  0x178bb72311e80206d84482ddaee088f9e1df2cd506305244ccaf76c8fb31129e]

def cB4 : List Nat := [
  0x543fad06ef97ca7a243764086a2d0c6e86a49308ae71ac54c06dff724f642bed,
  0x1eb288e2e871610f60fa79a413a1fdcbba680c09080c0f2d2a48252a7341ce0d,
  0x4b7eaa0b6e9b8733dc3c330b7fba40feeb434d958b83bdd5d60c5827f6eaa60,
  0x2d0daaa1acf0756783f1cd97f2412f734e7184ca9d28de91dced171fd620ae22,
  0x110a3022a24f68a09bec8b929e688674e6d0e216bcebaaeec84ee93ad194405c,
  0x399423c0e17225efd533a1373db9c27d6f8549c632e0becab96e42d9b51ed5d9,
  0x5da52bb47ab707bdfdd4e0adfc5789b75cec0837b67c7af9cee0ebd688d11c38,
  0x636564bfb70a6a7e1ecad71f0204b80d37fb5c61b6f2b559249d33043f586905,
  0x47d822d9e571d30e004c310b489f5d199529a4effa1b15acc716438ed45b31c6,
  0x6f9b70806f13948aed69c671ac197b5303faa5ff8346a7bbcfb61d9efb348177,
  0x3e06c4006d6b27d6fde43af433de6f279b9bfaee8451c4c49b15247bd37b749,
  0x70e680a7bb4faed67cd91b3d5b45851077725c07744777f0a2e7ea946bb177f3,
  0x439d1d1f116528ba610eb316d7294b0e4b3bd9c5457d59b6dedac51c7e7fc554,
  0x2675e8643eb5dec5989ef3e76002ac8a83365ed1e5aec5a8f8a772081359407c,
  0x5d2ca9b636dbda25c8df345361e1c249419a4e540fffc5fb4e5021a18805a706,
  0x3c5f114c3bdfd2d8b1c427d6b7d9cc891061e47b0f9b41d805904d102a5b55d5]

def cB5 : List Nat := [
  0x5c7cfbab5a1db9e0d0864206ead358d83e66b26a87e39a95da97fdf8f40dbcad,
  0x6b5f7ec4e05ca95b0ce950f2420be02255a808f0e13a991a346780f0294f6e91,
  0x4828bb1295259554c204d285ebc905811ec1c25165cce1638ab8cf84d1327a7f,
  0x22b5c9f877fc9db14a803d5f5af47f072defafda56c6ad0125a2ba688a67dec9,
  0xccfb38d4200ff045ac4eb7ec35defc83da7b5e4099342e92003e4799d67f02f,
  0x3ab69cf947f74b7e3a5bb692beb30985d9bd5f2e9390ce1671a085f0951030eb,
  0x5d0dc13c07c664db2ba40f2b999ea6f1a215072de8f410c090217b10cea510ad,
  0xecbc31690413db26d7e0090044f37c0cc3ddd613e79080cab4a65b9d0a23b54,
  0x52f33731b75531264d3e3250c859763e93be17c0bbbf8be983be15e3930c8a46,
  0x4f96de1dc33189f0cb250ce55ad0b3d3336876166ae97deaa8cd96ddb1c227fb,
  0x4c3dbe95dc07d16c18f1acd3bfeac92acde16077c31819f7d9b9129bc5ca5bf7,
  0x692a2e1557598c2cafb05d0beff0671c923f6721b909b0bf4f53b0597c1d6d08,
  0x255eb553ae4608a220277d5aba9e8a3801f6f9b69cb2005b0fd72716bf30cbe2,
  0x215adcfdb65a8a4f0245275917048ace037039355e05e6672201b96b47743181,
  0x2f0871298a073bf3ef9cf3b1c92c782104ec39c5a0bc7592ee9f44754b0e6189,
  0x483503dd49cf3f0f45346449129af1d16cf9dfdbf5a89bea4c0e3cf1ddf52a17]

def cB6 : List Nat := [
  0x593cac29f3cbc1a5636ddc317e8f0bd7614e68e9d7cbeb22d2951a1f598733e9,
  0xaabcc47c3222d06574c67f497087464a38fa469d145f332fed0dfde6726b2e6,
  0x9896bf31e8bbfee28389bef75f8cc1d6474584acc64659becd54c3e9e42efde,
  0xbb30c90cba38d818af74bb5dc9261fbe6ef6330594e73346fb7f371f54900b4,
  0x6182ac5e51f89620bf70510817d2619a5399c9f70a4574d3276729da6295bf5d,
  0x37a3771d64dffa0749f77d9288685cb898872af26f4a4e76d05822f02d3fc58f,
  0x2098a07827ffe63b104be68e6a7c4e435ca6160bdd045a98c192220b71fee5c1,
  0x5c8d74cca95ba704fd775077f49a4331a007f4f36080cd6471e9249b02506fb6,
  0xaa01ff41e5c7e7390916ee7547f0d65912af328c596037fe156e5f935ebc0f0,
  0x17607b3fa1feb3ace3d070ac9bdb838a153db0810a5c3e15e994b6ab7e77b33c,
  0x22fda0b433c5808b3f7112721dba48244d0a153b4112c3652ff3a31ac4f7033f,
  0x60fedd57aea500477fd519e479a22ce27437eaefd0f1bea6027911f5b5a55285,
  0x32d35f2cd2f3dd4ef2fafadf84015ee2f64151bd06e5ccf614995b9d00506dca,
  0x63d0f35217e28801c2b2c6b1b078d4ad1e6b1079a3f6ce3cfaa629bbdc4636f2,
  0xb8b422fe9efb3174edee97a37ebcd264f8aceebd7208c716f3330c51a001292,
  0x6224547d9639313be925330f2e169a40e55b683fbba538d4aea8626ad0d25af3]

def cB7 : List Nat := [
  0x4ed37b916f64b5eda01ab4a04482831a51850a3eac52119b0d903c5619ff9f1a,
  0x436b5c10514d88ad4d4c939e9445a71400f3756fb3d82b07acd1be8ddf9baf30,
  0xfd2d772c8c8df553c283f66ca2e40a1b62d928dde9fed7e94e5f28d3c4f016f,
  0xeccbd63f94ca1c3647f340af414d4d83c80e4d377288e84c620f27e7e43f3e8,
  0x3b6475ba24ab14970933fad447d4518fc8e22a1a621b7859f3a2cb67a0bce087,
  0x640ea51931f1ce764d8cd9fcf837b2f0426c89c6cff23482c9ada4200df446db,
  0x4aac1f4a1771042d932c7a9586a6076105f899012c97aa41f39efdf5ac2d520b,
  0x3f6386b14847736a98f8cac29a0d65c0363edaac81fe0f1e172904cbef05da,
  0x5b383334ee22858932afdf034feb93e48ab0f0ede6c1d4372a72d6d2d31d6e58,
  0x4724846fef82fa08cda08bac5c84d688102a8edf6ff3f4dc89b27f246b6b16dc,
  0x6c0d9a11987a5d84d9635c05ea9a51845373b86b6e40118ec49f03fcc3d67aa6,
  0x63a8934c4d5a249ede4a83dd11d82f93eb12c28d95c187c0192092f156f1cd2b,
  0x3ffbcdc68e72145e48217c716c4bc9bfe6f4cc301f22578892f5fb1ea3d4132a,
  0x7337698a5a3fa3d971fd32ff68daea6ce5c114b3a5021ecaf2b88e5d518273ae,
  0x215f7e4bc808a5e5660c57895d58329a162eb2e5a8fba32fe8213b9d3b8a3fa7,
  0x25f93dd67b55bf701354f964707c6f7d9d756b3c9958e30e85d5d48764b4dcfa]

def cB8 : List Nat := [
  0x6980837987c7d1f4e82797e35f5ee51b1facc11b5593b62b011cbc7480f18784,
  0x26c16688f47fa5f6af019933605c4faaa6b1ff6dac0a16ed64255d561085e6e3,
  0x5ccd15d328a5f0c53fa822bb2a7faa00e82fb73577148d50418131a2cfc850b1,
  0x2e0f58697fc63e30e7e0aa473fe80cdadcf45f66c1e507f097cf0b09e1befd7,
  0x1ea5c587bd05d267ea0037e4e951e375aa50a9880b422e4290992f5c1a52e14e,
  0x366033d806e12f2d878aa5aedfa1a9f50f995352fbde7d7172de0f1003f6f649,
  0x222a912ec12841d4a7b71d0bf136d0749cb90cc917fad3478cef87ff56bbae96,
  0x4946e523d0db419a6859942f14042bdeb5fe83b4bb9bb466b5125ecc8c239f06,
  0x628880e791fbc7ed1c281d0ce9e97a69d985655fdfa04a71047234467f35b26c,
  0x3fe64da48225d3af2c7149c9aa8cef84d3d8b3753012df77ea2ef05be702c4e0,
  0x3d980fea7b29775360812613eb5840ec471f6e025bc00f9f3bdbf3934f66614e,
  0x22ba06847d1542720099b420320982854382a47b094d1ebebe3487491e8a6ea2,
  0xbb6fbae47a7b5c79e2f776d55a46e84d7260614f53ce4657f1b27ae2ba03a0f,
  0x5110f9196df3ef434fee715b3f9c6c25d05d21b9b6357b15ff2df4af764c1e4b,
  0x2ba2495d2af8a6cb3b17ba83cd44369491d8e453961da3ac810ce49c4bbd3a6c,
  0x4507be38dcad230842a3c60042ea45259fee13e5c2a53dbea055d7d01bef199b]

def cB9 : List Nat := [
  0x442b09d75e91c4c2c8706b9d802655993d57f3e3ec98caab4383ee1053f23b64,
  0x4c25036deec6547b04f81fede19c46fc3c9dd3ac45d171372a739a203e992000,
  0x5ecb554290aca71c13f0926b29cd022869598fe9526b61e3d19a0741ae543290,
  0x410f9458bc86b95aea2aa60184be747e3e87cde5b8680c73eff8c352ff2d0143,
  0x5d77833fa1ac2f08a56c86ef4c356965808fb1d3def9bb393e543ecdbe15f7a2,
  0x7369508caf21f3e230741a979e38487f8f4ad7162078e7838813b3eae6f595aa,
  0x34c8b4a5e85023a4d781b45613accffc87d2546a5b15650c59f3d55edfff7ab1,
  0x23b4db39a1fa14a61d10884697094967ed2d023089d4482d70aac7f4679c65ed,
  0x2fedd99225e508d95bcb3a12bace947206d2776af9667a98ed2bb0cb45bea80,
  0x5f9894025403ecda3964ed435cc0dd3ee40a7536430e4ce6bceb10d2c152e04d,
  0x37ce741f8e316a9716ad3753167495dc7bc3664d21a80d6aad0408dcde63a2f5,
  0x50d26f1eae1a5329392b00d1ca8d760038e39f29c4496c8b2933ad1cf42c59e6,
  0x7b7088a90c33f7b3251a9d0ed2f50b56d10f22d10a9d6f21ac98be01fdcba2b,
  0x1831d0bc1c425670cbab1a810686b5342e8ae3b9e6f43919c26806ab4f1aa440,
  0x33b9d317746f2ecb825ef2d6562126d97db668c530dac732479502641a4b67db,
  0x60b6960b283267e81cadf2abda632d126f636ffc3958ea5ed0356407abbbe2c0]

def cB10 : List Nat := [
  0x68af41af25a317066a03715dadc0e811005182f2bec04ea40bb4616e1c532150,
  0x6a7f1e0b1ab8c5d3c1dc1166d6d2378f55d9b1650f64bf05e9df958fac16a2f,
  0x66370b6c74d6657e6870537935d1df26cb566c72295495d5c042398a54fd9e85,
  0x55a73a5247f1c8f4c8f50798bb66b675e7b9319b4591d584a69043fadc030cce,
  0x4fdf2b0a47d09cb63456bb4db058f1486014f4178e06c91eda154cc4fa256f98,
  0x191478c6a7210666821423fc32b6cbeee262b4d0752bf2f65be171d1b12659b9,
  0x3d23ff7fe5603f3b738902d46b5be4256f6fd180b8bc930fc09628575f0b0f4d,
  0x13a9ce0197214e66b2633d2c7488cc55ab8bafda75fdb63f3c7f9f92dbfd2eed,
  0x5b5e57b7ab84d34ed64d808c9dd93985b214dcc9d427e401c358be678b23b522,
  0x4f662ca634bc97ac54d335207f8b94a669389e9eed24a169af531efef119918a,
  0x5181d3d3ecd6f55fc271edb1e232684230a668989468085b990882739b2dfd7f,
  0x67e05dd2cadbd3f6ada41f828cfbdf3dac37d19d3d249d975fbba5b6bcd19ecd,
  0x45906746db00f7e1634145cdca55350751c2e89970dcc1d91d3b5c87241d5a24,
  0x28a099d6cf594b50b066b2aacbe16b98b2deace24015c9149f4e8e63aab8b673,
  0x206b4ad4943a587bdbfef92ced8784a32733da534ca4072184e21d68e36704e1,
  0xc4f54ebc9c3f6c15d652af5010b5f06cb539049bf22a736cd2f6eee8a82b191]

def cB11 : List Nat := [
  0x121bf324b64800e3f680863887cbff988acd4e0051bd1082ee78ee5330b0613d,
  0x2243dd751716492f22628d7e84fff7c5cd82da508bfdbce6e7fecc88afaba203,
  0x1cc0c9801face41a1032dceb2082c521fb297d385ad12fa0c3f7167678c6be9c,
  0x63be85dff3ba1761519789fdbd470b0b30c651235f811f7c0edab832492b62a0,
  0x63bde238d84e7c05479827773ca7fd00033bfc38d07780345b004d3067cb50f2,
  0x1de0d97cdd9a8808b93acc08ec48fc04403a3c04ddbdad599cb5a167532bf85c,
  0x1cc8576ae3556dd54a798135164389f54bbdc3001eaffa66c110e5848853e111,
  0x218ef606498a8b0301a2239ef5ceee3fb75be1fe01233b38025d8c1d4913c92d,
  0x5682ed97046c4f553930510890145d6cf1c25ddc4ecbf342f7bfe40a49664f02,
  0x1f187a5720983a5adb274e1f6b0bd41384d9f19640b6c533181c6de4f0501586,
  0x4c1d0cb5f0a57c65f7bd8c8374d7933dbc4670c4d7773bb841fb622d812a33,
  0x178a766ebfb8e003991e83a74e0230a7909221a4b58568bc6399bb1d75a1849d,
  0x27fcbdbcb833a5c5451cafd84894f2ff2800b8f5e9483adce4a2659f9d308423,
  0x4bf63fa20975e49b4b36c3228b6cbf224236f4de4b9062ed20f2464a446c385d,
  0x4f814b76792a2176f90a1f2b18a21cd07e415cd094d0cf8212a02ac22491da4b,
  0x472a32a88c4defb33ebd23444c45b519d9ce8a23cefebb0337b353e4528bd49]

def cB12 : List Nat := [
  0x505bcd76b5c65f8d2445e1c3945662b30c02b5dbd04f900786d6e01a43685dab,
  0x30410c32a56b08d263156fbce07cda01466ee333e78aa4c8a5ce0fe08ff95e1,
  0x6b666ce424dd5f9dd9700fe1dcd2e62d89d6a2be5233e2bcd744b1092baf2b71,
  0x6d5f018e12c108cc40233e3100cefc509af1adc71b65cda1bb1afce3e7915dd5,
  0x4843fe6c224f7925afcd9751201e605d04f73d869fc0cc36a90715c2fb42fd0a,
  0x13c36001a64344e42590c853e64c08883f6533bcc546bd88844ce16fd6443d91,
  0x467ef7047dcf57f82351f5d9f48830f2b8a37b6e54ae0fd8e83e3214641073e3,
  0xf796cf98d4e3631293ddaad848c737b7d1b1608412a3f95a6073ee4e8a0fee,
  0x6b4b910383489d7e716e294b2f2275d371194b4da488d2c15dd338a346eb28b9,
  0x2299814e4630e141aa3b2f5ec9ee0a388d5988f79732eb96ae577b2902c76ed5,
  0x10f4d9ca625078a97ae6defc405274f7c48b4d50e4cf01d95cd8998e695d3f14,
  0xa661a71730bfcf10fd734b0617214c4609bd1761b65fc9049774734c06c88ed,
  0x28f37d7d03e3a3cac49308625f19d92d09fde8e4bd0ce631e570e5f1ec2d5535,
  0x12cf487d7d6351b420b79d6521757b32edbfdfb0b4f24d99cad40347f1c53f60,
  0xf11a220bdbb4424f4498e1353e22242d7ccdf44c3866f61d50a1d6dccf9e2f1,
  0x13456205aecedd18b1c43646bca96a7ce34817bb531a6250afad29dee182bb81]

def cB13 : List Nat := [
  0x1d29a8af20aba0b3070b698dfb35ab56b47a081770849d3756c65474db6b88c5,
  0x57a2ac2da6ef6d195e5e3639419f6bdcbfe1c7cbd37e14af0be469769f8be29f,
  0x413ffd84f362d5b0f97ab62584f73c830ba7a1c645f85c9f37a4df2375c2c13c,
  0x34eddc1400e65dd5b7cdb2c275f24b929624ce551d2adf544224abd93e904d00,
  0x4f030c1f0506deae62d0dc8e7cdf10ccf2327930ddc606f4d0602a963cf88c7c,
  0x70da86166c2f9cf03c9333737b7f4a3987136ab8f59c6b486aac78fb6e1df094,
  0x55a4c5e312a0e0ad1da99064a99b36493e85c81ef377c327469b67f074bc38bd,
  0x587425251bc996122abd8cc5e0760cec95b522276a56828988dabee1ecc646a4,
  0x4e06cf0c9b1d9fd585194fa165c8ceb75041a99fd4c08e7fa5645ad53d55e7e5,
  0x34bd52491598fdcaa11207bb55abbce9c4ac4ba903aa98200d75600c9c2f8aa5,
  0x669ffa261f47d12a7f31111f703e869767aaa7bf89f319b0b96334674b1c6d19,
  0x5cf07896a592ca5b09752e21e36033522a7a34f0874f1f75e00b45773a1077a2,
  0x31e5fa3f6039c52d30b31494af510dbbe9f8187641ea5dbd56fa80d5ff97414d,
  0x3da3ee9a4217ca4ec605745598f2843bf18ebbc3cee050bc757659cd4a5d2a6c,
  0x5c66afea90a6cbce41dfa29bc45af2e49ad074a3e184c0651f27c46caff56f35,
  0x44f46f0a2bcf0e5b7fe62a0cc259e5c04334fe6ef201b9fd8eff80e9af26df00]

def cB14 : List Nat := [
  0x2403bbca08a3b086fc82d9fcb819cd05bb6fd5dfdabd59e5dc26cb472acdb54e,
  0x6947282c0231bfd6b185c7f12d014ed1fcd8ef08dd9594407761e214cb74c66c,
  0x631caf331988e9eb85b29c9fc95f4e746d8d178321c58e41ada2ca566170ace2,
  0x70b078d753e4481330358ff6d9b9bf462fd36a1007bab5b251d5117addd659cc,
  0x31cd1be3580a421619045c57ba3820dcb8c16e3aae4857a407a05c93b70dda7b,
  0x779e46e9531eb3aa9b1ed153c79db9bab8ef6d8c24e6a5c60fa2953e34f3364,
  0x701d534da9b5054157f950fdd12a3e6fcc9220c4de9c9f8564e4faa623616c91,
  0x5dcd2ec417a313af639b9f4003c292ee0a62bf1d92607710849e1c88f61b5ff9,
  0x4690b975885420354534c8d6f51942133f68943949fdd8587439f22c5b3c4841,
  0xea27b56683168c325346ca8c32dd70a4994865b57e333e0931343fb11193512,
  0xc296b19ee9e82d368a7a919668a840e46d4963290cf7588f7f0a0c352a57793,
  0x9be80ce668ef90ea0f55db60c55131b0656aca7711b8e0fbda5419fe9db4c5a,
  0x1c57fdfc7afe772256c3316a5dae049b8412b85ddb4a37463c931f388a270a27,
  0x238ef5227dcdfa84454346cd60e5b445cac35f082ef56b5d44f507adb32af570,
  0x5b35f882e4d182a57c4a7e3864f75f84e12f0b06dba8ffd6e5581b666f79a94f,
  0x5f3ced3ac3dd4b2907c2cec969e5e02cbdd54c0fe9e71276f4f5115a215da5c2]

def cB15 : List Nat := [
  0x108a5a8b6091fe0ab631dbdce3a41a3b7046463e0e3348fd00a39bfda80cc80b,
  0x133f843fd2ae47b636566716993bcda359ec870fae6e91d5bd19d24870ab2a03,
  0x55552f8c03037f550d9037fd147c9209f704c28f4e7c0a08312c0ac188dfd931,
  0x426582e806b0aabbba8f3dd213927eb5010a8ea66935b07684e834753d5140ef,
  0x2ede0736379e04c052f743af95b666e77675450c1ba0f9a79e4a6b86fb3de4ef,
  0x2f99402cdcea7cee3e182cb1e43b112f550a1183989e1f01a01c763ffe22602c,
  0x4a47a1c5145fd6674fc5cf50f00eaaf6035d257031f6246b4b9646c4647415e4,
  0xa84ab5e4c2858ad2f26e4eb891637c03b0f08d73912efbf4d5aa2d594c4fd41,
  0x5021afc4951c4bcfa9f694fcd8ebde0aef20dc02544e2607dca877eba0643f97,
  0x4e4955894eec955f82c46d34af528eafe0d85ee61da6d0a9de9398f4dc695422,
  0x340a740c22c34e11436a0702a2e1260327692d816b5796681441cfd9c451b406,
  0x2e034f71b565493effb216957f5fcb4cf30bad0226acaa14fe4693b6950fc535,
  0x13208f7163ea1fb1f597b28acbc4d7cc8b25b5fd4b8296569285091cb1d3bea,
  0x4eff45718ed97da3a4f9a417fff90f3a4ffaa311695d4c5b8e69a51c1866932c,
  0x4c0af9308c12003b6a8ef41bb9064e53a64f6c831db8bb666d670b771bc88da4,
  0x21e86aae40d91477b31b7a31cefbd847b5dd3f40db5ff20b6ddef5b6e68ad323]

def cB16 : List Nat := [
  0x31e4381e33df42f10a1ea796081f925c0194aba0e04533de0e18af133ce3c702,
  0x39a78f850b2edd729de2c5db045ef7e8661b2c9b0fdcfd833a5d7a64d3f65ee4,
  0x4f1196ef146223fab2e841a58ef160a0e29751f7c45db866227da6b97e2a9872,
  0x34292ccac221d1d1159b16d3a9bcd17b0be30d1eaeee4133a8de3f1e9502322a,
  0x60c08eb78fd11599c3abccc49881a44d67f0b9d3113a5b33bb308aac78308f45,
  0x78cdde05bdbfc9773ced51e0187edfcb60a52299907e6288437b9b7631b350f,
  0x7507596a05d1e3a000823d8177796b1031b6d94afa133c61c0b570c7e4ca2be,
  0x628fb41d3a32206ef15f3e8b08cc50e8669f9c410982ec71b695b47d5a75a444,
  0x343c03de368450501b712f499c6b8ada08b4b3b8fb98fddfeb6d5c6e1bde0035,
  0x4984dda7ea2ed8c0344960a2760ef48c832b166d6601d9f98d314f599ef60218,
  0x1f5d3d5ab6d3b22b5c2a9f1a7394225d0fe57723358f29ee4070e7417d85af71,
  0x58455338c473be8c4ddbe9e6fc1359d2386b0dd757248fad56a367796ba176a9,
  0x42a55a0d73b6dd61222fd217aaf3112a5f5ef98b2263e08e7bc56a77e68b432,
  0x579e46c29a9bee06ad14681fb31cf7301a9fa0f6303f4f9755516d01e8d3f611,
  0x5a8294439b746e6fce70523f0eac3527aa3dbd0e8e1c0a2077a2cccd80cb09b9,
  0x28b10971870f609c28e45633dc8d6581b0d9c0d6971d7bc53b0a66bee0314238]

def cB17 : List Nat := [
  0x70c6c974ccc6cb26bbc588113614d2603bc259bc92816fecd5f6e4e698eb0cf0,
  0x6c578c92109344e8cf2c2fe9e577f1f6719a99eb2c20da8617566f29f09b277f,
  0x29c61d9fc943a6904e6528a688d4740f1e3eb01aeb20550913d3b18871bec288,
  0x23bc2a50b593d18dda2d44a14d7d2c366661a5e9ce1a3d1237203903d36b5214,
  0x33a69c0e1b574d15066b97eb6e7b2ae69ed7f9b6be9b600133c8c5ba77d38245,
  0x338abe234d9b936adb91ba12bc7a9584ed03d4cc738abc801c9f6436aec52ea8,
  0x3fa3d3cbab326066ae8f43b1f1fdad4734fc44595cfd0a07970188ec929fe7d7,
  0x65009373a0e1a8534ad90a45e0eb1904245d09f75cded7aacd1233d67f95a7c2,
  0x648c0562011c6ebf4c3cf5c1cc9638bff22c10b4b568c86818b968156561c025,
  0x24125579dd1ee253af0659d9960c36928095fc88dfee16efeab7a19a674df6e2,
  0x475728dcb7bcb17fb470ca6c36f252f88d2f670f55d50c44dd7b472e3f4b2787,
  0x2642892d49a82da6b8dfc18c1c34278cdc55dcb954a7bc2e75e52820a7bb8878,
  0x4fd827e0026c2aa69ee49c6953f4e43f5dc9fa836715a23db5a7f52ee9fcd155,
  0x3cadae830347844f78f2de7905de5b9dd5d4db80ba76e256c7a77dec14a0bae9,
  0x226ae18e8b6442dcd9e3d1691a531047fbfb7343f93ce7530b151b65c5eec78,
  0x495698072dd17b4ac05849c102409252d684414fc9be181f4a7bac5cd3d229c5]

def cB18 : List Nat := [
  0x3b6517ab10178aa438baf27fb9a2c6f99162e20916cf8109eab7f7f8049ee521,
  0x49f3e40781f489613c3b3a3490634a2e606dda7505e37e1916d39dd74f180b35,
  0x42c2aa541cd7db270fb49f87ed8bd0b1de612ce9ad72a719a4c55bc8bc085fd4,
  0x7355e40eb7ec2a493fb6ebec467c25d1f75a85a69a34a3ab32a7b031085f88f4,
  0x34f192e5cee0783f295f654b21e9ad321a2b8696a6b0f58d42cc448d227d659f,
  0x242e7576b1bbd06517d241937606300f24ca86711019dad4e55669b8cad60b9d,
  0x2fe97a48f3396829bd43ccf04d73fa1675fb26049405a48756b8274af0281780,
  0x6007ab7ca15c6ae22f76000477c777c0c23730a4c2eaedab7188899b1c3a93bb,
  0x46ebcf62a1306ea5d66943917400694594e95dd6608a518d9b0cd771f4aef50c,
  0x4a1a5aae6afed579c62492574c6ceffb130dc667179b52ce3d147d7d3b6c955f,
  0x6d5a0a3c94c4f89bc364bcc6726c97b813ef4f56f0b515c7ef71b24079b15f71,
  0x1f43f17cfa88c8bf3a8dacb79e54106faca3c24d748d5c402b65d17452e8bf81,
  0x5b70265fc90541bd25297cb972e53739dcb32d4a39c2fe5fa03d76cc66e6028f,
  0x241c8836fd3ce3f13aff40d77507ccfe7869601dc02a8e9196a23ee1f07c47dd,
  0x17d5ed7cf6eb97d3033b67b97bf3a05783ce8383371fe2c5cd4d5cfaa989f5ce,
  0x43cfbdf2a53dc4cd3209d4e432e859f0fb0b65d58d1d8de47d64751e378185dc]

def cB19 : List Nat := [
  0x5186355c8446d6ad9a158a8a48bb7cfe8d1a2ff5aa8dc828c75f4a7a926c4c08,
  0xaac6d64a2ed2ded2503566fae354ba706132c3e79516b908c9bee7ef111f1d3,
  0x2a9f48b472cb71fac69fd19d0e3f14cd36c1347be7d020b7926f8726c95debcf,
  0x74f05ee43c070b7893a918487436f416726a29512c7f7e8d756284b12fb7eb2,
  0x3fbfc3b4c28bfb7a9661c8c1b6e28e626ebd728a6f689ce59a75256c9dcd43e7,
  0x14541d8f33e59f9a8839a374e03be8e75ebe4b325e9a88443fcf79310e7aea55,
  0x7a0ba2d26d02db74851410e62d38f12ae7dc0cf11281ec11833a8bea3828934,
  0x72aaa24805aba2fded015427d5df63c9bcb25a6285227f5b307617bfde706187,
  0xa6897c655658c0b1f47b8700fb26a69bc1931f4ca57ef41d6dd34f72bd2d3db,
  0x529f0f38dc301a04466e4a05038b5849768c549f1f9dc90c425275035b6254df,
  0x2b976229f2ab3774017120d9789d35d705563d04d1428311b6fe6aff7bcc8415,
  0x23eb984599e2b2342ae18c8415e4854d3d6c9ef4a8dfcb2bf009115d0225bbc6,
  0x444948f42785fc8d1504b5ab544aa231a5ba630798ebb8b57878dfc209f3c91d,
  0x21a1ed5a0920f384aa0ea5f984ec58b8c42f240a13780c5d9ee96f40146ddb94,
  0x424f94e0ba77c51a64258a7c5dc90eb143a8fd9a3a9e146eab0a97e43319a9e9,
  0x2aca5aec0c541c4e83f583da3edc513cc4e1e664c7e7d25ec58752a6e8ac0ace]

def cB20 : List Nat := [
  0x4eeb1c597c7b4d0c576efe7549cab14af5fcf719456d5b7b5b79ff0271a457f0,
  0x25394151da41ee161b54d64e357a4ad6cf4a459602a861c8b2825e4d3ff49649,
  0x1cd73dd19b2e85b00a98438c58298c3b8de8fe08ce84b2082c39a7b7305227d7,
  0x2050919487956b99154ec4181614af1846bc8264688587d15d025e2fc6485c3a,
  0x68be5e32b36e61c0979d190e6628d166b96e5ec325a234b91e1bed5450d1aa4f,
  0x6faa607582f581fe2557ca4bb1aa4cb7826144b420acd41d831b0b0a70b33276,
  0x5c07ed313428a6ddf858cb8c4e33c8f68b79211408a4bcfcccecab79485f6961,
  0x843137b883033d389b3155925c8619f667b2234211520f67686975804bbb37f,
  0x6794d6e2ec3c6bb78cd8351553ebfdf413575b7f6224021fad5da87a790354c3,
  0x4ee9bf8aee99af4bc57e4225c018075aaf0bac7894e99a9bf4f72fc5d0f9e102,
  0x10f989c51751e3eeed4db6733d8de039289a5173e747e31fc883b57fe494e02c,
  0x167d3d9b2445c36ee4e1b14a4e7de2de7a92e69892c30f0cf40e0d935071f22e,
  0x3698d7671e28727a5a492213cc6370a72205ee2d35f75fbd1c1da3e55cc6fda0,
  0x3c29fbd7678f363671cd2579a94540fcd5e4eae69e6bd90c8bf97a5ecddca91f,
  0x294d2e82bd8f5dfff71ff38526452d23161a6f7ccca548a3a851343e3d72784b,
  0x597d59b6b02d9dff9f595839c66464290cc05226733c23231e3c08430a988d3d]

def cB21 : List Nat := [
  0x53f81471c51dbbf8a5a709d2bd5d3b973212bbd9893a89856c457bd2ba35d0fb,
  0x31b1d9aed51fcc3e7e8b3095d6edf3e8ce75c6a6635b0547107d94ba8c084fe1,
  0x5019bc567d63f36de695684086201bef87d46dc754f159d50cb41efd1c075f28,
  0x1e008a4e6d15bd7ba2904d79d3d810215f6e1e6e6c7e442c52bb120b4d35de7d,
  0x438381a528606e99a6173bbdefaf3e115b236161fde8aefdf31e3df4f7c69956,
  0x4fa45237ffa039cf7345ddb8d9eacbe149f7fd4b26728b7ed1b8c80b2e1ce363,
  0x57a16b57b6a25a36d528d27a3b28180f7c0e87e9ffe4ff271de49e1539b512dd,
  0x131fc3aa1ab817d6c5f4e1663f5dc344f2db2df67b764294422f795794da6578,
  0x11014c34d58f84d8827eb81423368fff84c01c5cc7e59a64966d9b0fd942676e,
  0x1007098421a991bc2a5ca17554a8e000ab8d308f8286bf8813e6ace43744567e,
  0x60eb4c9c40fed8c72d2f4691d79a6ad5fa192a320f6df94e1089dd0ced177e10,
  0x62a5c465198814d8baec27458c4d2215de45bc7f164f109054655d1fc7293719,
  0x1ba83fda37b024212dd1461a49f797041019c870a7e00d7c5d9e8660a417cc8e,
  0x1e129d7ed4dca39fdddbbd9c61e337ff73cda5f0909e24637a2029b0457798ca,
  0x3d18c95a19c524f92f7db64bfc38da9bba739fe7a4b1bb211bfc8fb674ad41df,
  0x4a8b9a060c94f2d8c18d513ad24f5f55e9c5540edda4f466c34d18d75674d162]

def cB22 : List Nat := [
  0x6e9aad4745545d1051e6662a53ff0fd62ae1e2c68b6e904af5584e123c436368,
  0x26ac147a234d6c11855f42d31beb589ab0ecb0f80bae4a03cebe93f91461f69,
  0x48a3a01aa014a432d2bc7cdd235868de4f23b51e903579b6e3b331f4a0cb2394,
  0x11f9f99d57330ec7bc9e809fa7cb2878fe2b3c1d22b9cd5257a3fdf2f684af38,
  0x437142befa68988412744482cc5e5270fbc298f7201fd78e99f6b2beea67bf5f,
  0xa2b9f6d51416c9ce28c089eca041c4c983b6e759ee587554f7c9410e200a27a,
  0x4c2915a6c2dd0f0b860a241d5f0d1957ad6a5fa25add1e28eaad1bee04e8dec8,
  0x6179d597314746cbfe81a857488076f8d2ef5deb8fd5b0d2a180ca38862eb4bb,
  0x5bc05f73230c621fc8b092b3669d3c282a43893e2e1e4a3e7dc1e0fd096e9f4b,
  0xb87047eae3bb8de4ffda6c2f695e32bd6016e05a737e8fad76eee60da2ceeee,
  0x4bae102f49d81ccedb118c6ad97f8a330c55408d0f1d6e84df7bd30d723d05a2,
  0xab630066bb856f6e6922c1b0c6fdf4b6fbd6815246654f9ff1604447d666c49,
  0x1f8c72a6acf6994e5ae49868a89c6aca5d572bb2a211c37beb0c809cbdb93fb9,
  0x86b70f69c2755cce58df4aef4256b0e3fcfbb5441d18d2bd1e44790b29e448f,
  0x2959e66afe898b28678db09795b67d3724d6958b50489f6741c5957763c3b795,
  0x2838d9756238f8fdb4f230c6865c9b3132794212c2811f05efa2d8679e1d4bc8]

def cB23 : List Nat := [
  0x4382c8d94c42c831aa4e7101771bc688dd7c0595efdf070568484b8c89b70534,
  0x6486e3b5bf9cd5a79fc404e5302def8e23bcce6554a87f949e599b866ff57c81,
  0x1eec7dda0735d5f7ea83d189653e5c4d69e12e3dc5fc049e795fcb47959959a8,
  0x648286e2554c64cf9df37c936a946b338ae0b46060157141581565962cb29167,
  0x1dab8f4e82581423fd63d89736b1a805bb1c42bce44b9a4405084ac2c9a3b48c,
  0x47f253c4bcb0777868fb41d982e86cf7b8ad0d00142eeebf1ac05d1d8914da4f,
  0x5f314b5ca33ff75b69962f0b338f2bd70968276634b1c85850eef3522c1bf9d6,
  0x1188ccd85b26293c955ea79000cf9852fc552e38ac63c80b1b670905090c7cb5,
  0x5b5a3269ccd3f9be40a4ccd346a824760ad63b00251f9880a0a84ed5e9e55b6a,
  0x154b14d41ac2a83d16d2b13dfadcf6ed20729391c82b23ad8e243922a446a2ea,
  0x4f97e0e1ac2cde5b28a740d42e5f86d4cdb82e145d80484bf89d834a4940e982,
  0x55ac5b0efe4f4b04d7c941ab21f192e8d5fb7d87e2bcaebd50f1f4d6497c4c68,
  0x21b5017152f134c3b26bf0d443bc9d96cf806aec81133dfb34f4a8b091823afb,
  0x6cbff5ae9e786c77f26c78bae2ddfe97317d4d33a57722f7f44b6ae63816d2a2,
  0x663647bbfe9fe69925f86f86313fdda410b61b46d0fee81202b612e3ba229ab9,
  0x4158e7291e091258793e90c1cf8c606056829086a1c7fca0330d503d29de2925]

def cB24 : List Nat := [
  0x2f5fd171a70bb10347aeca8453229026d13ae63f384d32e58f2b20587fb91a8f,
  0x2c255fb2866485afb7f3985239a5a57ac13669a3bc345e6ad94216091590b5ad,
  0x53ef99d3850bb5987afb3263af58f82b85b6acf165b95bddab2c13d230247987,
  0x47478aae1ddd8b9fd276f5f71895cd181a67e8838b847c9d4fcb0ed326ad2605,
  0x1bda89e37c903051f2509fde2a33b80487f9a6e10da6a6cbf1f92df013400d08,
  0x2cd43c861b08c56a3f750772fcf3a396b959236ff29f2170e60bfd38bf12e5f8,
  0x24a6a3ad24cee421870407cf91d3bb36cba62b29b4f82fb6954efcbdc9b420f6,
  0x10e60c7af7ce9714ddb8b0d403f22efa1cdaee8a02152f844476f2bf0105caf2,
  0x143dbf353820a18ae59168f00419ca9134dac5122cccd599327bea5569cb65c,
  0x3cdccefe19b310f22c4a812e87d871c4fcc38160286e6235f59af204e0c7d496,
  0x3cbcc649b50383dfa9e7ef4459e339405d71ac388cae6fd8b7c4d34c591b9da8,
  0x2d8d30bd9b9757dc938fb7889ec3c0ba2d8cb5227aa0f52c11ff789ac20ed46b,
  0x3fe0061073d1f13f4ad8fd94e3967350d4bf22f8d178bf0914b9a5a96b3f0a44,
  0x63c16a0b8af78b3a8da03980cb51a5aa6160b4cf41b9ee010e39623ef7e78db0,
  0x613c78fd4466c4ff01827e2658150a4f475aa7df6edcdf5dfad39e53beee369e,
  0x62c7a87d35b8c090c946e3577fdbec913aa56914ec614668744c21efb8f47469]

def cB25 : List Nat := [
  0x5ee891ea57e7167c7b2862c5f2105f007999b18d6e70267400c8174006cc4be7,
  0x53f35215faf3ec54d849b899d1e881b6de05a5a54c9493cc1b903e6507775272,
  0x511744372c43da0bd2ff4c52084d9ffadcb9020f5e883c61cfbf613d72337d19,
  0x31cfe9cf87688af4b85265ae1e176027fbf74be8912aa173ab209a9bc7b829ef,
  0x503e781f78015fbb7930e15f697171a1b8009dc490abe22e853d9f1d952c6dfb,
  0x5f4c9a535f34d26cfa42b36cc17a99b6826ed5bd897e3d7db8914d192fabf8f1,
  0x351b78761901dcd6ab8ac136fdb5ac850a0f91c91a38c247ac1ad7dde816aad,
  0x5e2163ae1414b9e27dbcd26dcb2399b25b95526ec0eb87b9dd418327d27434b9,
  0x6c51ef9d72e9ad74d6740cd1000e36e8426f953d1726e463d3ad2ea74ecc9612,
  0x104fc16d7531b60506c3d0a54d3a7e863b20a0992bb55f62fcdc6009a4d8f3b7,
  0x39cfc467b33b761fac966ca66f67e1fc8a6bb147ef3d9fc9ca14414fcff0d1b8,
  0xf72846a38074957e18bbf81b5444f42caa2dbedce762d9031623f0a7d96e580,
  0x31e85e8d1fd060dcf6e260e4c1cf9a537c1998fa9736daef05aca56b70fc09e4,
  0x68434399daf704792a1782aa99f3ae3f5dfe0478e2b3bef64ff2c5b8304cd963,
  0x145462ef40ea48c40ed56d833ad6af0c50ba22819ad8fd2fb852a8f986b64d47,
  0x55cdc465752aadde9e96b44ccd82174df821115fe864f2d15cbe0be830169fc5]

def cB26 : List Nat := [
  0x507a7c4c7a8eb9c7f6d3ebc1b46f6e8319d8bcd67cd3d0c9a3d0e23a3e9d4bc2,
  0x6567e3972b5432ed1c4dcad915d2f9396dddb5d7b00817745dc8098bb2866902,
  0x40c5ca95c616467643fa7c4c3ac8a8a7bb56a062a0560b81ea151865dbdf5b60,
  0x39fc268b2df70875d6406c072fa12475cc15e4c65627b21c78da94b03c8ae0b6,
  0x672c640a0a12a1d454f1c4c63ad1b62752c081312c194e1da786f7f0d3a25823,
  0x5e0c736de027869ed5770b9722f0c86d45ccbce89f543c7503b8e68f3cbfac2f,
  0x23c0d52dd308e1d0c1a1341645bdc95b5a7ebf4ab06912429a3de01bc93c1910,
  0x3045453a768ca9319b5268475f0f63cbe1b88d85c6c55c82cf5634f8d41fb1bd,
  0x3732af4b69a343ae1b6b06b1718a3fa7bccc0920e203b5823fc90b25f41c3d18,
  0x600798820ecb296671351d9ef958898d610d47c784dadd91c6ee0208005b524,
  0x4718ce3fb0344a0b7ddbb2c2cc42716cf4ab885b96f9d71ac70a0dafb2b3f01a,
  0x1ad7a4d1204df975ec5af2efb78183daacb22e686d622678d32830705713c0b1,
  0xd18528e1271e7e5dd41e7f7577114445285c601f88737f9d65f8a1904540538,
  0x3660521af46db8093cc6fcf04cfe10b93d29c72fc475f50625b81c8127334138,
  0x677c9f6acb6bef6110da6c29df24cb5ff9be0685882916e316b31d4b3ce26c56,
  0x37bc6b26c4e043eb6f4248d4f1ae37de5c33dc07e07ff3e909b6db272a7ed765]

def cB27 : List Nat := [
  0x3571ba4e81c38ea570fc4fa57fa46a80478b73e13ac257d0b617b3ef785249c0,
  0x5b6061725920b332e1658f0b02e67ad89cafe6df8ac3c3d49e495ae49da1c6af,
  0x63a152a5be5c61984bec5b6c4f873a705210e8cdd16c839c9031b05a6b9dab5c,
  0x57d25345deb961d748db290205a34103b386ad94362c3dd43277bbeac8472c23,
  0x573dbdf28f524671e7fc23c1e0c96cd75ba9a75937bb30744f141a302da0934f,
  0x28387256bde0d021d5adbe445e5c15341f529c967ba989397efdb5c0a5a211ca,
  0x4e6adc67ae564c40ecc173dc2c003d1c68f45e7add36c5101e07f30ee02ae9ca,
  0x3870f99405d12dbf4e99e7f54c3f994a339a32f4a9ba372f1a574084e7d7e6f8,
  0x1c94ce57d13d41510ad5fecc5ace4ae8bd51ec9d0c5e1ba588e5ef598fcad968,
  0x6ea367e63dadafa8bb3138e7a6e02621dfdf5589ed00c808a5aadbaa872df18f,
  0x6bbe52dccaa6fd8972670c4a973d4debbaeca3e7207ffafacec0d987eff2cc9,
  0x3821488b58ab91b8b1570d5b27f4cc8b2a533b01202f4ce800da829c1506ffc9,
  0x162c814ad807fde7afbdf8d66949a797e1d3f7c070b93a5781505471da9557f1,
  0x319c4738236a05f9cfbb0c2e79476794bbd0084a4db9b259f94445e2118ad155,
  0x2c3cf89e13df2dcf34bf846cfa3f33127b1cd0d0072318fb3d20423b63c6e9c7,
  0x72c479e27e6d518106f34eb40bc1631743075f0fda49702f4193420ee7f80ce9]

def cB28 : List Nat := [
  0x6da5e2e50155978142121427425808dcdf2f5964f0f82312922f8717da249956,
  0x1a56be02394ab90b13afd821d4483ba49ac6450654dde35eae3844b57d16fe7f,
  0x2e864b61e0694a89450d5dac616b928a5b619f210b845cbf126cf4eee8d6c8d3,
  0x62f4d481e34318625559f1b0b41e924ccf37515f0ec4af5ba95ef785d0b30354,
  0x1b550ee055e9830a552a7cb29aa8d8ff06c9da7cb82d2bb2563ad86d594f8c0c,
  0x5d33ab3589624543c35711871368be835263e05ad2d41ad855faa8691f2e76c5,
  0x529e6a93d219ce5554f2ed39e5e3304eab5c456390a8ff3b203d79a76411074f,
  0x3910c4def7e9184c64528fdb2c41639fc48f0b6e4f7198526345fc8304c472f6,
  0x6a0891d0c5772e428fc273107df5a36fc52ecf53f152b60df96fdbb801e5bda6,
  0x37e2d6e8e7edaf213b8d0a088476b99737744bf430a2a1777bd1cdc7859ee516,
  0x1dedc50d676a3cce9264c990d09dbf190c196e57db90d2ae3152ad21557224a,
  0x577a47c7e2694b7af6d867d6d1c95e3914fd2888b047a6fbd93eab22e17d63a1,
  0x320f3b8812cdf42b301430d6baa2d4c1de4096608c5b9cc70bce2b4f5006ac70,
  0x53e7278a2c51f97a34759e04af774b2b44be5361b4e5a4b9839f8c8ca0e4b144,
  0x58d9a19448c11e5c6b7716fde79c4997a8ea95d24a54824665865f91f3a765df,
  0x15d7f653dc895521659b766168214ac45d3b7ca9171c50db03991433d3108322]

def cB29 : List Nat := [
  0xe49940feafa8a1b69a9d121664b878e74d3c8b601b66ef80502cecd1fd9574e,
  0x629066fd22773f5bec83ab4c1019cfd9bc2a566cb362a1dc6675ab0cc3c9f37d,
  0x6be628fa6519d5b8c21f2a67291ece9f35edc464e15ff450738925953aa3f862,
  0x42558e1e77adc762e6981a30c4dfa98b26f4f67b28482418711d1f66b9f60680,
  0x595e4476511259eb1d457c266c6e9b06b4abd10776dce9d8ce8b042a42aea551,
  0xf008db535911a8b7704d53baea69b1b140e6d0d83e73e0d1e4ae308ee60cc62,
  0x5c6a072f1ade57c66b0d90234b17c679fa02f4687926538122bf5fa1c721f66a,
  0x32993401a9c0e34fd9b793cf31c07075dc691c781f83c534fd547aac8b98f60b,
  0x200b6bb6ad05124bd62c41b794cdcdcb2ba7da0ef9d1261efd2585ea7f3322d,
  0x4dc6071fccb50b7e50914f80e9d4fd55fde2340f80db710fdc351982d0f3774c,
  0x359a191538d102d0d913b17d1556bfb282e6636db72f6e5c92f95194a33e0bf5,
  0x10ce70ede706d71378c7036e9b213ee71697051b2b035eef057dc3bb8619d31f,
  0x25888033923e257143383b0f7a2f165d5534714203b589b4dbdcff1ca9d41eb8,
  0x3e5e96b7a380b0ab7e9401c42ac07672eb8778e079b732901635d1d30202d84b,
  0x4e0ef0e7b75754881e0a14d212d4083733e2ba7cfb9eb7667e248b848ccb6074,
  0x12f6c13c20823811ad0425bf033ca57429625a70ee3d9a60d017b6f88e188d08]

def cB30 : List Nat := [
  0x345d3ec6683e0e5eae463b40b8e57bb8f488a46e3adbd14adc051fd03e5a2276,
  0x618445eb694a89ea0148dbf2205afdcabcf811105e7961e2efc895840103f7fa,
  0x1ee43c3097050e58413f3fa83689033f0286b3a61836ea75b145bcc449853d6e,
  0x37329fc2302424ddd2e05c3ce98473d06ccc1b354be95c88501dd8749ffcfa88,
  0x1fcf2f0999c09b74a78d2b4aaf2985037e41383d63c67c5abb85f468f5c7086c,
  0x6a161310a914fd4b164887b24e06ca069e0651a5bf96dbed7711d619ce5b3c5a,
  0x412dc4f2886992379fb7daf6f3a23aff03aa094466ecd2e8090080561194d624,
  0x3d46fd9791b0dbb140d3eeee58fe39f6234653a2891ef093d4632188ac5e0947,
  0x6db888fbdc3b7951b168bbfe1cb876a33e6206fa2f868d90a8d077f3f2cb2151,
  0x4e136f178cc54e8eb81e02733475a3bd1ff3afdc5d595af70648e6462f44ac94,
  0x5a69ce3c5a1dfc10217adbce10bf8606d13449615de126cefd7b0eb9dd65e10b,
  0xa9d38699374b401fa501496e809084a20f66610b9c3ed3a732a7c30f7f3031d,
  0x5f29d23666d0f2867ffe8a3a260c2a66b4f4b4df74099fb06a1f35e06f7c3c50,
  0x4d1139061e8d827faa48e01cdd812c6b69e4a23230c91f07a1cc70943ae9e205,
  0x1b392c4f8178ded110892f0d52437841798909c1d9fc99788831d1fe46e77ff2,
  0x7176831890ba74e6e66ee45ea0529f4d28cedf5953ae5e2202cf293f7f1a34cd]

def cB31 : List Nat := [
  0x1acb2d6fdc6c1a06423cbd1194f87438ed1054fc641163df26a91479e746e869,
  0x3096bab8a35b5c8e30ae59584ac63cb7a898312b0791cb9d56b1894efdf4d372,
  0x26a638caea9ab99debb235f31550cc76c59f01d07b1b14721c7cff1a05dcc1c7,
  0x3f83194227968d69352771f3ac3afd8d36ebd63d51dd43a2bd4ce216415f345a,
  0x6cd3c38a6840fcbd26f8e5cd5372365d2fe39cdd50605b6eaff916ce44fe9385,
  0x5b661fc4276683992fd6750dcf217db68d643db7b471d4ba9d56821ba2423b45,
  0x2945c6558f3ab1b09ca57b230a558dfa8a0cec65c86d21bb58910441566474,
  0x7a5de2cfa46c34c92a3bb5aa7c74bc86ce4499d83f35db7296c805faf91c219,
  0x60e77709e1d0925cf78a73889e9804143a7dab7e253ef6b3398bf6785a312e3d,
  0x74fb5f37701cacd78b4e3618a5ba98674fe35a745cc5d59ccba4a54b07f5a6b,
  0x18bf53513a9714f62e8691fa8d40c530b84d6aa91f0c7883a9f9545973a2bc67,
  0xb878c32e58a7156e27a968725f4c1056f25a09aba73c9216adcb2938b30957,
  0x3119480dd18f0e20d41ca2fa8587d368d7873b909d69562cac86fe26d9f2867d,
  0x5211f1a9d4ed59c9979cfa29061a2eb71fe3f50d81de65ed934dfebce700ca20,
  0x45e32859b01cef36672daef0ee3e91538ca81837fd4428a96b9ba66e07be0292,
  0x1daaccea54b61896f7100aab9374bfddfde31ae046fde060a6698e8f6c719017]

def cB32 : List Nat := [
  0x15a146f4baaf287b610e6ec40155ba23bb97e9cc59f8ba2c3cffb38cce00c889,
  0x6c1a4c4fcd7c8466ec57137daac807992cb1c5be3c5f75588b0bad1abe0e3b46,
  0x622617631e85676ff13e4067964e3794d3f80bb4411d57f6bb5cfe5d38a762b3,
  0x362f562cc37be0f4041358dfa59acf89e84d4e7caa89cf0b340a71e0769b60ff,
  0xb51c9af7eb02f92edcde464da3e706dd91b862878ebfe52cfa3fc4caeeec993,
  0x684f375629f983085cefe6df179c2cd69818eaa2c4d4ad7fa3338618c8d2fb95,
  0x61b4d3fe0844a2c0d63b2662571b82800cc6b831eea9ecab5afd81cc3506cead,
  0x4781a06640741b2b70eb268c3357ec0cbabf60aef7df5e10eeaa977c995fc477,
  0x2310edac7cfdfeca04386d0832a2ff8e3b6e3db0fcb7615acc8efa2703623a39,
  0x456cacdb966173a095437ec60850c661a37019473a76c121ab4b3dafe891772b,
  0x570007abb7df73f9db91815edd2515fc6a7d13124e207e68696bab1d0ed86175,
  0x68bb23570d192b079bb7d22a954fcc44ea043a0240b63cd3e20cb864f394e99c,
  0x13d75717b1190bfa29e65588a13681558b526e79c94823ec53ee69582d454a8,
  0x50b9d1b686d9287aef29a5faf137157d53069ae7093bfcaebfdcecfc39971adb,
  0x6a54bc1f46c3fd5b92e3a13a408c8d3e22e59b33b51f85b9a9904e7afa294e86,
  0x552cb6c1b7ca94df997d0fded9daf083acd311d205f68532b8ca71280a436171]

def cB33 : List Nat := [
  0x3e645588b5361220b68f538c287b8aa61490903519da0466864d6a71a1465eb3,
  0x4089a7f9cc778621dc5aacc3885e74554222477c30a31108837fc5e3e3fa0a4e,
  0x5ac8f668c5587cd7b82df44b1c837ddb23fe7b03cdde647cd7e5639aba88343f,
  0x64b16036576652a33b93196a48f69facca05fd75d9dc8f5c3bb618af0e09e2f6,
  0x221d9340a303f6fd92504d389f039fb40a1f96106618b6e3c3272a9bf5eab055,
  0x33d367a10ad8113bb0491555e73c8457bb48a7053dff1c1e71497344765dcd51,
  0x473c4f10ae2cd5bddf0be2474373e043c4d2acdda0d323dbc29f7c8af8125e61,
  0x34a142ad673db164684ce40c88da604e4e4d06d4e398814ea2222b96de9cd9fa,
  0xfafc84c3f97fb7e3afca691051195d72edd922f6abd6dfed172cc79fe63b756,
  0xb351b26efc31f088e340adc5a932f291a263e36292e8c86f4464993e8c03c2c,
  0xffbdb20babb43c74a95a03f7070217af6450e7d392ef5a3c5a7e663dcbdd9ad,
  0x13d56fe8f83638b01b6351fe0e6fee634d49d3d71a77a344b96f6822fbfa05bd,
  0x6ae2bb0ed1a3d6630c8223bab632405da527d91d8efcc3848ee2cf70c98d712e,
  0x98cd6f552c15f168c6f8c1dfb7c69f3ab03a8ae872ae1acd9c7932856d4eed5,
  0x5f5c17aae21943e507fdd38fccbbb5f389a16b621510535748f58885efbea3a8,
  0x6e407d3d4358da9c72c5bc319f365dc351b00d76c98a546832cd57be11a93e8e]

def cB34 : List Nat := [
  0x62acf00756057108c1d971412118bafd027049b524dd4d6baf5fad1b756de719,
  0x28d70be94e077050775aaa19b900c9b1db459c20b86ca16848718ea140c7e84e,
  0x425e2245abf108187121ae7c37bfd20f6e81140367191b779793795449f5faf8,
  0xa467146aaf03840c37bafe1dbc563a5b09f57237f86b66b8c2ab630b869dcc2,
  0x5e27f608fa6c49d051b1bc1eb527be5c3a215025acd22b3c0b1f7b499e359834,
  0x2a2fba5d29e8d3f7b47ccecb907d81b52b1c6bb48157ed490796c971628dc353,
  0x2f0e3d805f6939468f646f73748be682694fa6a4b3e952ec22ee8120225f661b,
  0x686a7564225cd297a9d4cc825eb4ca52573070bd8568a17430c46647d348e413,
  0x608b001ebb1ae83b7300cb984ec175b037e8d0ec9e041fa7bf530b6880b29d1f,
  0x331f4b4e2d3d674f2d18c2809a2843f8e24292f5271470f082a69502fc2c2ea1,
  0xc982812bac0b55a08b0477d3dd823bd438d8f1790b6f0a311af87bd4d658b20,
  0x2546301c96908c773a3087b20598766d1bb1d3369a23fbd386fa72bffc5b30e3,
  0x55e2c40d5d962bb11e202838a66737d94e68d03e98feb1d27b81dcff87181b14,
  0x6818831abe17a7572f526c8feb8cf9a8110288ce21b3898f1a227565f160d149,
  0x3a75ce0a13b404e442470a03831aab9fd5fd4a084f14a902b7030aeabf6a6f65,
  0x2e0149d11d4934585a9e3e0971f919f39ff057c158753b0b7c54b0bf84624a4a]

def cB35 : List Nat := [
  0x2a4695269dc09304f7bc4875d5ef0d25c30f6ca5c10f680118ef5b2ff8c08ef9,
  0x1adc5beb7adb51128ce992468d6f630d11ee138c591cf0065548976427dc0081,
  0x27104740323b8487aba175fe55a8b34bceb2618b1b84869199b0767974b1d5a1,
  0x986366f41d909deabc0e27dabcd9118d776604689beb75835bcedc113899e4a,
  0x73cc482204d15c1b2dc98b904d19b5bc4d0be814b454a101f73c6064c6edb6fb,
  0x2d6da1fa8978f9ce79e78630a3ff422c5fa098bc90c1c061639bdeb5d90222b6,
  0x27145f24cc219bb6f60fb9a68593017544e9171e7cec00749ceb444254e7583b,
  0x6fe931fc6d796c744887dd5e617aa3b547c9309d2e1a108c9912a54eb415c588,
  0x3e24b86e902a3f29ae8ad4ae21445f6cf81f1a45bf4a27ba3cb323eac6e096e9,
  0x6ab44d16e649bd38bea40383d8a93ee3cd76247432f70fc034417a32dae1e786,
  0x1f6fe297b28c278f1f27874ab1bda41fb5e6956e29c6fc5e7eec5dfe9b04d2bb,
  0x197df4453e78fcb5af1d3fe287009a162758235d1cbc92e1e9a75dfa91ef3a0a,
  0x37d376d570f946abeee3469e510c92dcd6df511e26a5aa6b1a105a36d4c4dabf,
  0x378ce55c095349c63d6384f4e41c1f99748aa84e26df2aa8835df0c1a73b06ec,
  0x1d561de8e6ac8d6611ac7985beff8ade9fcdefc5ef70f03757b923efe7599ef,
  0x5db5011e51452c984571e2f57cccc34a83b8e287329ef50ca63da4327202062]

def cB36 : List Nat := [
  0x3741469277ea3286226b1fa65e660f037f6b70c58ac20591940ebc1fc651d544,
  0x601f01b16e4f549e6b776faf957e2370c2d15bb29b29d5b06e3a829a7a55f830,
  0x89e60d346581edbf501d376e505451a19c287df7d09c486ff9c94882ed20cc9,
  0xacec3bd74bf7e80e27dcf2144c71aa24a9bdeb1c7e9b5fad780c4875f2d011b,
  0x44df7bf19b78baa1db97588bc8430a5d6f4e80ffa324c36130154e570f8e05fd,
  0x1cb3b78fa98db5d55cc5287acc69af4219fe9df2d57ff1a24b82b295d1e7d7d2,
  0xe094d275a291a03c5d0bab250b9789cf270e4294af7c44bb0f5c5b85e2fd25d,
  0x53c705fa142c6595ccaca31fbbdb98aeddc96924cc7e49f0fad29497d1c7852b,
  0x52d126ffaae86fe0f20f9d21d6fe5022f744b407727312604414b5ba9dcffada,
  0x690644684005c34cb32d5cc03d2ddd944e9a78a16b89e29b7df0408de791ec55,
  0x1e061fac93ddbf931701280f10961d6a1e0ca1f056c8eccce071dab8b34ba367,
  0x21cb47570492a5b03d26ac3b1adaefa36fbcf63be9ee9290a8e9262172fcbf31,
  0x324cfbd4230aeaca50809a55cc6992321762c04c5c5be15ca9899ace34c7ab5b,
  0x4ce5e4f95931d40934c8730f2039e5457085c343d97c0ac2f931a6e5d9e5d20f,
  0x48fe0336b4534fc83310522028d433e8aa67b11b1babcc31928370ec8bf4c2a9,
  0x8905ed1fd70a7f7b81dc34dad8b1b3ef3fcd79a551fa5825aa64355cf9427a5]

def cB37 : List Nat := [
  0x37c5c94157e83d87b252c6a7d0bb30eca02f6087d950da4a85e65da9916522ac,
  0x5c47b12884f5646095a4d6deb75177d3a01461b75b6f334d6199111f786b014e,
  0x4fa1b35268beb478cc667b1ea6d8c43700b308d756713652fa3e6847b0334ee3,
  0x658fcd0194418f4fa4fc6171b070b9fc7e47a292a5b05c2f9f0ab96c4095af8a,
  0x442bb9c5d5a4115e501418a68846412338c9be876b24b1bd894b81713d5a4b04,
  0x87c4cf0a6621747f86d3e859ab72c98c93b31bf2968863ebcc6ee19d02629a6,
  0x32e83300530bdd87785cb8161b13f8d1b1efbad46f99be7bc7603a0e8f62cc36,
  0x44a10eeae6a8798a201f8a42e4f40182374497127fe8ce763f493bdd16b7845a,
  0x255b6d8ceb7262eda66cb498659cee733777cf513b4d1b0b460b1250f2f505d3,
  0x23e9a9ad173e6c8e84a6769505bac1dc225b0a8ad581dc002a6ad72cedc55365,
  0x4d0edb1898c6c4ba057e91b9fe134052048e7398a53713d211f16f26da867350,
  0x64d9c91f0ecd1f42d21214b0991a84814bdadf4590bac65c391e3cf777110e8d,
  0x72a391da63924ccbee330e1774410ff2ca42b694d8e600671de00dc2629d5818,
  0x4f9d3f903de01544403a233bbda0a4c63fd0229349808d3c1d559da9a0912c2b,
  0x4aef7e6c9034aaf0154a9fda9227e6b7713bdf5bbb5f580627fd2001e8015993,
  0x569d29f64f89d06e72ea6a6d2b7fae3e4df40f68a2a8ceaa5d23e65cc66ce158]

def cB38 : List Nat := [
  0xae151b3261128b29eefd956746b6da5029134fc51700d8cdde8b1401c184e8e,
  0x5b47e0ebe36053f30cfce978898ca10afd5d8dfb54f5db877109cf0fde3ddb48,
  0x3703d0100041251d355429f5078590d2c1cfa0fdd90c6731b85aa7a7a7e53e32,
  0x2edef5200f78b18c7415ca238f612cb5cb7c1ee1bc7d266804d3226f38bcaff9,
  0x10eb543883bfdd7b9603e6c7a5ea6adc7e72bb4acc361241be217639c6d2cf35,
  0x650785b634912c1c3858cd34d13936844f8a5a3bc359975b069f5e1c09ae4c51,
  0x2bef377c19ab37b350379cd532fe0a31576d65a365322ac85ba992c8e7ec3c7,
  0x215b3488211d187beecfb4cccc7cd94768d621305cd20920928a4240951221b5,
  0x70140447eeae8a236bf9a1e34a509028d46db319905114f48d9bf05594ad0e3a,
  0xff12c2c0917ba6d1f508782baebc13a52ecba4eae6939a1ed33107cb467d3f5,
  0x5428b5159f0d7d494ba4ed373a6e0c3574c0b9683633f3620771398650fece43,
  0x5de3397469c7678976d0236e834595c46e5eda3b61f1cd52815fc0e29b775cd5,
  0x638cf5040c83ec092986d53a5c1c592ea9a801454b65052b73b3777c9fc93fb1,
  0x307b6d2aec41015d86cd5a0839024421327c0e1eff693968aba4b0fa8d251158,
  0x6079fd13353828c342b2a1121ecfe3b685db33161c43f2afb74b6734e7203189,
  0x629506b3fd411e14930d269f5edced3b78a5a5968833bfe773fcb85448361da7]

def cB39 : List Nat := [
  0x50a90ed24ff12c648c1b0ce4587f20a757809434c2ef38b0408d37fa22fd5b97,
  0x2266157423dc9daf8004c8177a29cd77653d80df299ba22878f6986c6d1fd67e,
  0x55e24ba149fd37b5932bb311d2fa56ec467170c50a98c95c9e68658e6f18f525,
  0xa2faa4943eea752ed9a7abc5076d060250bd714cfa3625b44979a448d7c5778,
  0x124405d753581c156634561855facfdd4c834c033b107b885006a08e8796db6d,
  0x5abef520c0124fac72136af4f29de1201085795edb6fed358049873b6f4a183b,
  0x40b6b86f98a3c5dc98d2a11c21c688d48d13867ec8538a213b32820aee6cce03,
  0x2481ed595d9c8d31f3c3463290e9d7995941c7d65424dd8478b852c4fc166710,
  0x49bbae787aa49add37d5cb506a2a62409e82437d042c3eb2d2cd17d46aa43bd0,
  0x353541ddfa3054cd48eb0092a52a887cb189e7c91f15afe07be2dbbcee2fad71,
  0x4a04c38731693fcba62afb84ad18e9942901461765a18f078350e4b3b7213f58,
  0x64977eb7ee48efff2415dbc266153a3489df5773734a71f6a0c1df2da3b310ee,
  0x1e5ae15b17ec45ed8e7c29e03e66fe5d3b7a5cfa6859e251a688fa882af445b7,
  0x31c74aad18c38a760d51b3bf0b54e926e888797fff824090457e6cb7f7a840d4,
  0x118e6bc05cda00a91a13943760edfd8515bba1f500c48ff7b44c54e5b6ed2fd,
  0x4e043d9d2b4c6c8c99a261e937d2d6c86457a19011bd4182fbd3c09d15769e1a]

def cB40 : List Nat := [
  0x5bffa57e22fedd8a3837cc57023233f4c3f623f6bdea91021422edc04ed7e99d,
  0x61cfa5b5b96fcd45a61767016004f748dd2c36492a9237c9fd4130e4994741b2,
  0x5c8f0ba4a15f7f9d91ee578559b5e49cb94192f1519b035ea81d57ae3cfbac7e,
  0x57115b45a57ec79d0779308c0641a683b651400e91d75cd8355d11aa2bca2261,
  0x683a2f91f947862da4420701414618c3506e68ad8ec4958de4f2979c63344523,
  0x4b440272eff8d0d58706cbbb604cb284a55a440c560bdf8ba7ad6ccce33885df,
  0x1aaa7ae8a65b74ee7f8424d8471f2ddb10de686d2fbdaf2ffc149d9d3c65820b,
  0x1d4277170dcfcdda44bb8e386a644f75f5d5bcfc49cc4b4cc4b6075baf52292b,
  0x49f93444bdb642be5445d5be801a03038b1528fafa96c15d2d3a3a0b2f52e556,
  0x62291545d1fb8d950cdfab2ca901a6381462e80317474f6da021af149cd4f1cb,
  0x705c412337e663c8ec7c8cca54a6e96f8b12cd79b1e56722a1f1190dd3708b8,
  0x9d119c230657a285ab862f90ee32a1258affee394b03b0351f76b87322548ae,
  0x4b27e39bd1dbfc9ef78cf5c707dcfd5e5274dc1bb6564eb8ec3b74cb59a8b820,
  0x4aadd4840e76cb1fd2d864202ba813a91172cb1b1d5795f9d2f761042593a054,
  0x3f79561c80209542084819fc68531ab64fc20c5889de1458b8fbd67d9706cf3c,
  0x6960a8fb53b76c59c2b157747f3e7aee5c2017919123ced986085df4f98dbf94]

def cB41 : List Nat := [
  0x9dae606ac2e2d63d65b4e866b963da3cad29b94bd48a44137a13b887fc1d357,
  0x330744c1e3cc7031debf23ee554a6301dea99cdf89d3b57f2242bbca1592087d,
  0x315ad4269aeef2ef331679060a82782d18390cee257fe4e846e0d50ef95efca7,
  0x4e47950e02d213d0d35361ac62a8ef85895e902150c74af0079f52ced2d65be8,
  0x2e91cbbc8b1a475020a5fc9959ad247cde6d3527be9c76545fbb476a4272d40f,
  0x3f02e1abb078afc81fae00e1886776938ee35d73d11f388663adf8d4ba87773a,
  0x6a09e6a7f7d120ad5febb2266d55c730f8d194e4e6a781f9009a7b031546fbf2,
  0x73b9e6da96ce6c3090ebebd923dec03cc34fcf065e7a5899a7ff287b1974f533,
  0x1dbd3e0f40d6cc334c288479a88940519fb60b15533268c2e306493acf0fc8a8,
  0x2926fcdea57830cdc9770a5c7699478f47ec4becf773edd8b9cbcf89cf9c7cc6,
  0x44ee11175d7a7817795312dbd9368844e6d4938b24e831bbe4ec1faca4e7ddb2,
  0x4837e03a90d53ef17fe05a4208e970112b07fbfbe16b2ac289ffdd0659fdefb0,
  0x52d33e48d6273f12023b75fdb7d8dcf4f034d268bf1e0cc2af1ef4024e16c00f,
  0x6e650377f67ceb83b0c034ee9e9e218e4691b37e6603ad6acc1bb23be68326f4,
  0x215c0931059da58bf78c72bcb957815f45c9a342f35c43bf3cc19cf84aebbfbc,
  0x407cb54d9f75850c2423cfae4ff16fb6536a6b343906e5e7804f4643cc5d4f7d]

def cB42 : List Nat := [
  0x553485ff89a58de9e7f42597d9f6d01946261a4b67f18729d8fd41d28f64d0d6,
  0x2e6e6b4c75de51ed1bf882f9ce75e7f2d770834e5792a4e73ed4fcc76afd16c0,
  0x5e592aea083af707f811bdec8c6bb3cc859169bbd9fba9e21a7c19c96f43c662,
  0x441c4f7201af2ddaa5ee8da431d3a7d62741d65fc4a43e6e249e98923ca80766,
  0x2d7367478405f4e6e607c52c56940b6ae4f8a49f7fcdbfaadb84e018b4574dca,
  0x2cb37f80caa88adcf1157cdf63f2c1d18ab4c0395ca380fed0d6d2e37f878dc9,
  0x9c79e2c27760c97b35c0f7f0efbf2b83412dd8343aaab9617d6777c956f567d,
  0x12848a6e2f51abadb2bba0793a6820ceed65da8f48cf1b0bf58b91a489cd3afc,
  0x49ffac72de442d814741e18ffac606afc6270abdcfa1a735e019d9f97fe474f3,
  0x4aea356cfeecddaf2f5ebe107fa89acd51c85bebab58ca56a6f86c94f6f35784,
  0x81a605f38bb801b4e60dc449c493717f7cecd783bd8e6017b61a7e71931df29,
  0x720599dc45d436f3278c278917d0aae62282371502f399ef1b091929f594abaa,
  0x6241845e942be012b5e17c6eb191956947afc467cd943d237bf2ceab13d4a7c7,
  0x36598db369054366d2aeb72b121a63530d3529371cea4801a62775c4e3338676,
  0x712e394e638844f9330b38e09e1fee13a24d9c91ab3333d259e0d5ab0ce7f546,
  0x439c294837d385fe46a33273ee8970204806c72dfd79f69e90c97db3eb3e8335]

def cB43 : List Nat := [
  0x4480bc2634e4f29cdddfe4e6d2bed3539b2fb4f9226e826e34801540325e026c,
  0x16390947dc6708b178c4a30861162bfa7af72fd3c1995674fefdb0f77c4f9a1,
  0x21212a14f150399e76a2317a05c2e9a940640ade313b5a92b15cc52f18855712,
  0x1a3fd3f57802f090da5a2d8963136cb78b7a8948c84d3d4460490ae9891ea1b3,
  0x9234f22397c5cca35b075c957794c82411786124c7bc01264b03fdd9a48a3da,
  0x6535e81280d9f16f4fd0fbe57fae183785ff793e257072ee6c79953d8907feb0,
  0x2449de0f0f3b45db911a9d56fd8aa96fd6b254b2e2dae8177948541a065c1ea1,
  0x4aa6bd0eb2a22f04626b31f23f556b8f29b1c6daf5af00535131f1c13288a8d,
  0x27938de2eeed7db64737a2a27af3e5c2f9ee3c3fd0ea5c8a9427276b54dd232c,
  0x2b8a8552bdbd80fc1b8cb276db83c4cd7750d6e0b9933bc82ccc876382ed2a20,
  0x3c6385537fa978bc24461066aac79fc4174a11f54dc9888ccea1584b31e68c22,
  0x2444bd6fa0b22f0846334aee3a1f15db68c12835ad90c4a5d677a9bfb4639e51,
  0x728ddf9e699e759ee298677dba4e0c8e334e03b397dc4a8ee6b5fb8c01a19611,
  0x688805a1ae7dffdb262d7bd7e324a7c079a82dbc600eee47afbfdb7594b67b6,
  0xcef5c5bb04b358afa6a963668fb2c68f95bafe0f37d0553b24d80dabd3f921b,
  0x3f8920374a8b5a5b6313c0cc8049c6024ef0ddd1c4a16fa24a8dfa0aa161c0ff]

def cB44 : List Nat := [
  0x72b745cfe17cfa2843bb7cfb6adb3936137e4a9cec0371fb7cd4511d1d535370,
  0xa35e4fbefc80b481b8d428faf9c4539729404229104c702da15e6eff661728a,
  0x4f44dc5c259ef114230a351325a8d755bc6f14e468b1049eaedd4d2b47ca6f4a,
  0x678134e6d6eb4ce60e5751f95b1fa63e97e7fa3f67c7ec17efd945c13c805322,
  0x230edd83ae680433e321fd91a7a547e4aa801a157fc5391678f2c1c79982d4cb,
  0x500de77ef29b39349ff2f46132ebba5ba0ef687229b1310594a021ce6bf1ba51,
  0x267496f7b804b4185c8faa4d86c34e968868abd4c9d4e89b68ce779dd91fd607,
  0x6f2677d88757a681f43a05fbdc3d22be23aecc5d37cd51f227aeb57d5aa6bd3f,
  0x203114a8acdf9b8040efe5b0ab655e29675903dfe980a10648f5e6820dbd64bb,
  0x637b0c23531d3df80e07a8e58639e0dcc3fac39f9bb188063d42a229675854f,
  0x1548f7cfe99fa040e95cdae5684cbbaefde22f7c4bf7afe9cda99e162045e9c2,
  0x34dce5e42b5284b85956df7f4af54cf5981dc7bc8ec8b245e8e64359fa0b3aa5,
  0x6ad5a2cf8d1bad0cf713268f64c32290ca932ea157609bc46c964ead9f2c80e6,
  0x4504948b06b94dfad8eeadc0eafc6fbd05db81d8ec96f6924af5cb44f11d3b66,
  0x4531f929518871ae47d2b4c8306bdfbbf84e45664ce21be7cd39e9ca74cd46e5,
  0x4e45a0e0041234fa9c6dee54d61cdf2a947e19238e42c8d702973d3324f2ddbc]

def cB45 : List Nat := [
  0x6aaac092f960346a57b1394684da05417327078d524a8926071feb048ca967ae,
  0x21017269be550588f6ea1a09520f6ede5e921a83c21441edb5a1f2bd36d22016,
  0x274254c72a0322f0ff90ef5429d27a7653fc095761752a21167e5642b120aaa1,
  0x739379881bc1325274961e5f64ae78f42ff218038f0c7b0de54772aba09ebbc8,
  0x738dc51abb31b0be8ea3e25fd92f3c1eeda13016a8239674279de13c67916f8b,
  0x416753e1edae1d1b44848beaa5f1e2b9ef3fd0d26aab7c14923353325df43b07,
  0x4725b28fd801c83aa1e63af055f3173e214a876a2dc0695fb16dcc7ef1e80f1e,
  0x561ff7b1f9e1528d77a21a4e0edc1f6483c1538b0249b1b626c0078474113599,
  0x11e9cc2b9a69c07aa8b94624c66a27f13e1c5e8de9c574a0dd8c76493ef41e,
  0x5d185c946b1d61e2a677dedae77d1642c350920ba11cec79ef83c0bad9a7d1d8,
  0x6624a50acc0ecd3ecad59b73368bb56485e5d50471974653bb84a152ca27e2b4,
  0x3bb1fa5d05dc7a05661fc6e31e8d134d5c5465046f95cef83b3befb7a9ee77b7,
  0x2dfd1eebe8dbe28d42d94324f7f7127d5f5f6038205127de0a8dde0d908a06b3,
  0x5812e0c088f180b4c2161d3bf1eabecefa795ea6c6cc158f00b2c5489c789eea,
  0x1fc7fc29a82867ffd5ddb4ff356a331a504bcfaba3572a917a7150f41caae225,
  0x3156bd47298a91f57e67a055d4fa82c0adf61c052d30e3d119e6866a75e35268]

def cB46 : List Nat := [
  0x2433fcd3c054614faab40fd0c6e80ebf83532c6699942baaa933778da015d8ca,
  0x5471c573fcaffe8e0cea0d15bec9ebff636f587d15da23ddf9a20859ac190d26,
  0x72898e95afccd3ac1d58f88a2f2061073f63ea19bc28570e4bb1355833b2cc91,
  0x4a96949d6c785199635563258347fd71d75283133d9017a3253f8c1df4bb598d,
  0xe2639854a8162b8d27b7d2ba1146a1a7f1c4736236b6e05ad07b36e4209f7e6,
  0x22048a18b20ca8612d534ccf59bd7f5144be5073038239e63eb7a21f25e462a9,
  0x3116f7fe7ed1f501da4c8d611603b1db6d4872d6904453650404a08f8b839174,
  0x46f6af628f428bc9f7c1830875dc5e363e5b2f78de483befd4559bc80d06b094,
  0x6d6cb70670235bd447f1d8e8b7bda5d3db382f403531ccda829a46ae01fd9819,
  0x451467015b54575bb0f00c4caba24c3d81c8b2965fd610f87d33be2e098f4bb1,
  0x507c357bd97b4fd37652fd2daf6d63bd84397a9f3462395c8ba6a29510bd4921,
  0x501d791fb8b0a5f416661d30984e0e3f10ea38e1cdf1d8fd7b98394cbe7b0f58,
  0x495b40a2a698d09f4fea959e28ec28f7cd428f834774f00793347f69b60742f8,
  0x1eeb0ef4bb8f12c4d18fb03d3c610413966253349fa81d7fa5cd400ec4a8487f,
  0x6ad2c1058af98ae3c1f5248a6ce0227861a5e4fc1ad960a585e048adc95cd909,
  0x2345cdfc802ea52f2e488e8f738cb313940d74325741c0dd31268cded5aea243]

def cB47 : List Nat := [
  0x5849a728bfae8012e5b9370602e5b3b2921cb1ae7aa906c3651c52d1f0e0afa6,
  0x5f6c10ebe9ce7a367d5f317198c5f2ba3d356c4116bf5ba90ed9359148ac05e6,
  0x44d4d9f004215db0b16f9ba3ced4e30fac57c9746cd6c778618999af7e5c9e81,
  0x41b2d271464c8eeea59bb48016aaf93db8464b0c75144998da9fb49614af17f2,
  0x21cb498d90abedaafcc40c8eb34b7d3563e35abd0d638e9091cd4115d9572d09,
  0x634ceeefa4cba5b2db48c98090c61d4524fc745733912171c6e026b7bea5d37b,
  0x1a4fc8ced2f22e802c918f115e40ce5b01a17f038fac5ace294af40b063ce804,
  0x95194925cf6063bba2666fccd8c9378a5fb575e05e6ab6e80bc9323ae746b06,
  0x56f40e6512cbdef9f8a5766dd92e6956854e2fe8e0656aef13ce8009e556132c,
  0x581d517964efd01cde85e776cfe1461a41d390b51f9421d48347e475c1112ef0,
  0x656416245e9ae85adf8598bd533d107b299b47d9f57fc9ee83bcd1f0af7af2fa,
  0x176852e9cc5cb17cb3757f5e558bd31683e050c1e856eb995760ed1df6f96dc2,
  0x583d135a38c7ff4b098fa38dd93c0075b9d824ec6628a5b1686de63a14dc41ed,
  0x57a841f71761d2f577c74e080ff37da8601e3f04e0df5099041c8b8dfd27bc9,
  0x12652cc080948f36d0f6d78209bc53deb1d7208c110e3a64e3489b25386b994,
  0x37c6e850bfeccf60a1f7ad0b3ba0cd53f215de1dacb51f368d05072bd44e2cb4]

def cB48 : List Nat := [
  0x4cd97218edfc42273bf26b2829a3329c40309ae248bc75caaaac32b0eddd51b9,
  0x1aaa5636c92fe66e49f7e3f3eb4863f25553d69e28b45d3123d040bee60020d6,
  0x28041396cbeac386616415b5787457101a35a1e8195e98fda7739ce2e4aa4de1,
  0x7087be1de46fc16673d8aace4a4585ad3a35440ec4edf9a4612784bf49cd60e9,
  0x1616bd2b12c5e27144f500d70f4ec91090ff0e27f88329c2e5aacccb992a5b7,
  0x1f85cbb55044e6b0f8ac213c1e304413efde9ddfd974fe242f344bef1292d089,
  0x630d49c46d921b640098d750756ad55a845f945be5d3e0a5cbe6aae56688302d,
  0x4cebb42d53badfca890e91bc8a343d12dc794f444a449453970dac1ffc9223a9,
  0x317199b816cd2b2769e71dc8ec68c428c3d4e80b936c89694b8b5aed7d65724a,
  0x27ca46f985e117f256a7906171fd9ff17d3673fb5186afe9aba2ad93ce325180,
  0x100d40c60826d918679894794911a8d65b1c993f11393f298d238b5eb1deeb5a,
  0x4d89990b4ff49a04a8a909dafa1251f0620b4c62c526f069dd265321d5189ecb,
  0x195bf1eb72d14c00a21287f1437bdac27533153fd103db7eb656dd93237b5fe7,
  0x1ea257422b7c4ceb7877467853ed1fae3d1efb3c6d66e01897f9a4a5625aa212,
  0x70a5014ab9162546ca5327987ae300fbd185b66b35faff271a1802649927d336,
  0x5d0e6dfb0cded71f368e22d63ba5c99e24c896da799b6e796b77e77d14470ced]

def cB49 : List Nat := [
  0xddb60372fd6751bce18bf8ef61b4cc77835913c81d35264dc84bbae101fcecc,
  0x10d5833a3cbe414b8f0fd3af8b2b7948b07cc1b8e4f4a640273207ea83788f2,
  0x56be23662af8f317efe946a44f2a61676ff6f9c37880da390a5a7d1df47d501e,
  0x39a8661f808348e97fb64c917419b21560c80876c788ba5ee7229e8030185a11,
  0x669ec414236804360708f52d769c74f1f2126906fb10ab0a1625170577e7ef07,
  0x234ba63197b5a1ba66af52044261d573342608307ae7dd72a2c97fa2e0f3c204,
  0x160c73c60dde75f410d4aff49001ad3f614689a590437c9516674293910db69b,
  0x4c15ad5f4abc229bd014c2ccdbea9a7f420c570dfe6573a6f247656d140c07ab,
  0x3f168bf02510111946e819a430b7a9c64cd77ed3b9f832ec6086b4fa3de0f028,
  0x31dec07b90b369bd73753a3738984d3536d68a7e087e5506a6b792aac0350c8f,
  0x6e938ba38a2a0854f69f559e5e5fd1efdc073d7119621a6773d8b881accdba42,
  0x7230e3a0e624b0764a1036c6392aad2d3dcd4ae160f74765b2a073435669d8c8,
  0x2f18a8cad31842623618119c50e2e4ce99f5756f092cff82c9557a152e48a340,
  0x1f2a2ca9e4db068b6c9025022eb8cf998a71d898a633a6b57c858088dd898c0,
  0x1b982058dfeb2ae99578cfcc92609067ac171628c8279e29c8046d5cd7877fa0,
  0x44ec7213644c807ae6be40c2843f860f4e2913919ec94a90b18b844b318ddbac]

def cB50 : List Nat := [
  0xd11ccbc16c4f478824d5f258a288e22daca3577136f33c8257d3af67d6c609a,
  0x35f4ae51c12c0d9616d86b3b67d907f85afe99c48448be4b6cbd1afdc328c5ba,
  0x6cc79436bf62a8869f294206b52504e3ad4922d7e52f970e13c5ad2a65802c,
  0x135d305e3e589ecd0c3c98f9bd4f798729d15b2bc4dd8df15795cce7ccd329b0,
  0x1282934153421f2d7976b56d5246944c5e57e1732238e92503443255d319da3,
  0x2f17ffbca25a2593859adf4a307042845e6fa9f6ac1e22fdff8106c9ab66039e,
  0x1843ff807b49b04f20486bdfc845c403b2d11189003095f80210f6ce5cd4a6b1,
  0x3d7632c539fd4b39830ce1af25ecf5243f08adfae50ca4da50ad3418c592e34e,
  0x6af2132bd39f86a28af43904479be6506972eddad4bc7f3ef4464c2fa980a472,
  0x64cbe722823e8ff89ab5a70c9a22332c90d1d2105e12ed518f7bb167fba375cf,
  0x63026394c495dd783acf9c48574ac2e17839b3542465df550505b541b29852fd,
  0xde5a3ea49f7119c311cbb0a737e74e5c78ee1735439ac1398c11aa1759a1eb3,
  0x2b057b6bc3dfdf995b716cb7edd0ce51f72607d996fc9fd59fbd0c69f35b4974,
  0x7343548a9beeaae09d198b20c583d003a2976be1b1e8e8e9f4e166f9eab1ba27,
  0x153d90c0a35e4b64b39e16d5bf9bdf7a0bbccfc6b39e3fa09d42e547dba66043,
  0x11253f6e3089489255ffe47d22b1d644da21f26ede7758d7387fc86c586ec417]

def cB51 : List Nat := [
  0x5dc964876c6739bb9863d18cba7d36aa3ba15cf68371b7de2231e15265d1f11a,
  0x59728c99bb78675da8df23d4053694140db1c31e19f3e68b031c31fc0743c1b8,
  0x60193d26d0e111fd1a6264de599c2f756d6b1526775d723777251652f5738fea,
  0x379f887a20c27afb10bd9c38c47ca82aa8094bc2e5b5c3024951f8208ca75aed,
  0x2d01a73310ee3754f52944ffee36e33752e220b0974ecda4b7a2812ec7f7865f,
  0x47a6e4742c983ac857061f178d8acc474a7da856b0c613327823b7c0cb309f79,
  0x4311ece19923fe38c5bc298a0771a5d7c4b07abf01fdd5519449a5c371333840,
  0x60fad9ed0ddd44d3b9da4b9540c928518c616532e08b87e1f8a11a22a4517432,
  0x60b7f42c1d98a9077f6c53f21c0f05f886b2ea7cfe5fa108bab59d90ea5590e9,
  0x5bf3737bc47ccf1a5d8465a4a12aa401fe112f8a2d8e04be921a9b2e24357264,
  0x4b6d84ee6f383885602155596206ece0c3cfb3544d69b82458813f81905c31fe,
  0x2c7d60551cbf5416fec503febff08687aaa591551a3a7c57ab0757249b427df4,
  0x33b744af947e1ad24595a56c28ec492a4d21df09cf0f7b9a694b50309141b965,
  0x173cb08692dedd97ec37c5ea910bf58bf048b2efe4bec0878736ec3e7a3868fd,
  0x39eedce307e1a63c80fef34ebffa1c099d979a838a2e639dbc17996e583dbbfa,
  0x64c8902260170f9ddca3927dac8d5815404124d560625f68f0add1b804bad957]

def cB52 : List Nat := [
  0xecc884f6ec125bfb39a13927d1525cbcd46177a4d7f15c163df59344f353ce,
  0x216615a8da52d90d8b04e9c2e844bc667247648177a7b9d835a0b56f2a5abbe5,
  0x3d049476282b1e729ff417f950bdc20101c481e592ec46daed78cb2f14fe982a,
  0x7195acdf0e516d297a54ac0887573804196136e0aedc04988b5c555ce9568065,
  0x18a2034de72de6806f190c05c94ff6ba9f81b616d1358575686aed1722e74fff,
  0x10dc0d66348f622529dc49152b8b1ade49e2bdc0310a1ff1f4bc62e3d3b778f5,
  0x4a2470acc175772a82c4a9e518cbd6eb9ccc7fc6056535b00feffad1a03b9774,
  0x2e81bdfdbf85a39a11dbb4d25b8987b16138d029f1d410a17c1bd947a7285057,
  0x67143f74e21689cffa38a6750ff97a72ca24c76e03e21906e697efcc5d8f22f4,
  0x28e2160c13b39b0ceec3b8bd2f46b263fdaab3f43aaa123bec1c6dbf8d4e9043,
  0x3efaabf134408422e34759e317b648f60809efd8003467c60e01546854310c00,
  0x296a071d0d6e6202745e9f6acdf9d24559879be1f6a8ae5b516c7d7ce88d874b,
  0x5c37221bcf00b6e592d7ca57bceef5f601a58f11fb42221886ade4a92beeb668,
  0x50fa38b598632a475d3e03af46c64e425cf6534b5a4267e2c610492e4be33648,
  0x570c64e4771e737338debce5d34820346ce20d34f39d1891ff493d1f1c2254e0,
  0x2e79bc5ad792098b987331e649513955a905d098fb7a7b8ef091ef02e8be3503]

def cB53 : List Nat := [
  0x4c169facccb152883daba5d468c0437cb7dca9774715f7d8b50381ec66a74866,
  0x32349d29a4d7c9050712e0f5a3d1ee6313d740819c319741585dc004488de612,
  0x4f7c3a761ab0b1e9f3f506fafbc4d5b5ae9ec8ff597f49caa7ae8e9d645ac582,
  0x30765153156cd1f1e3ab07a96933a5d42458e28617eec96700e5235672bf7742,
  0x48a1ebb110698b3afe54474f6718858c79b35ed70e577cd9e80641460cdf501,
  0x14cad80787b0958ad7f5db43988b0ba04ed0be314813d2484a3838633b3de5e8,
  0x6816cf8ff7aaa6c8d34b7cd251bd54e6beb98f2342712869c10d2d7b82a62ec4,
  0x6f828ece9e2f3e93f5e7bad8ed0c239547f80751ffe6de275a6f3d5864b0ef9d,
  0x6e4f5ea42d0e59aff8588f2ac0a95a2ee242fa31de13350d21cae72f1204c6fe,
  0x4b80654d3aaf5aee04c67ae6b85b6e0753385dad8208ac0942e9836133e554e5,
  0x3aa7a75ed0eaf99c0e4a5eebb3260d15b84a4513e51f4b36111ce6db58d2b570,
  0x20771101472ad3e51b9348264a43f30d76e7c42c5857309ff8afcce8543044b0,
  0x60065ef47c0468a02704ac6a5db52b2a4b1c902db06a33b07b5c3159bf692dab,
  0x5358a0da50d0f5fc7aa389a95cc72f82d51fd03aa7f27fce3d384f6a70e2027e,
  0x603723b298ed107932e3bf991895cdfc595ae91a4d5feffdfd0459fa74c7bc30,
  0x4a9ab11a4e5d9f9132dd2278b89dce921b360c173205c8288a36772dfe659f97]

def cB54 : List Nat := [
  0x3c7cc461419074a2c54f93d4eb14b9e043fb57cf663a7ee1b71859c2547e1639,
  0x6b63f13d2f255735cd80bacfc39097312a70948764462718f1dd1a56db6c8633,
  0x277e4b7d835df4852197dd9062e1bf633e45aa56fdfc2c70dc899b537d8f1cfc,
  0x5a8b18d13700dd10d301d2719cdeba1acb59bc0d06f734ba5d0ce8b4baef16b3,
  0xff07970e3028ba2c4444f156fc1dfd0307b29cf43dade175dcdb368bdbe3277,
  0xe2911c72e94ecba8be06865837668ae217f26c0fbaab5f5f5e68f15f067fd2c,
  0x27bbe8d41d27b24f9609da75ac622dd1500e5fcd3bcf4ee5d06bffcf85eff9a4,
  0x5d3889f6652b3ca22a244761d7a4b4a1822d202aa286b5ff0b9447938ceeff5a,
  0x14a9b31f446b1296b928bf49793ea82e2ad429a1b762b9ce05fdcc9109c52026,
  0x6e1e27487238cb5d5029e5ed70b587d51c2bda23ca399b1904a5934858f946e0,
  0x6c8d2c41696bd5ef33e5a12e8607790f56203f0bc7e48c04a3ac9a1fdaa1e361,
  0x4245ee520fa9cdf7a11d4dde3201e7731969871dd93325519906459865893904,
  0x55aa3f155418fd1f06ae30bb5c6103f6d46c3e98615f489418675d6e58de7d11,
  0x1171b01f6d9ea39dfad5851af3813698268d2215deee2325d9feccc62ecd9f2d,
  0x413802fdaae67303324325f43305df9dbc5d17382949cdd30cd739dd870146f9,
  0x728c45399c41b3a22566ca4b375b8a7fa748264626ea605dea3c8b1efd39667b]

def cB55 : List Nat := [
  0x23e0daebd2785e3f7c91b580d30be563bd06ab112f82254443a0e8bac898c9c8,
  0x19d46f8fa803c58abce6c97db1e3a21f53e13a7e6ed91dd99324cb5150888290,
  0x2ede6be2fbdf2f7807ca1c92adb1c89d50c8ee4155e4e4ee277d162ace5eafd5,
  0x15930af440a237d96eed37e6e431ffb32a776f78d0b84927950dace2393fa856,
  0x5dfb59676dee33c944e207b119f8e64dfec44107c6084f9fbcb8c180adb18793,
  0x30d2d38e29546117cb8300d1d97ce0d76471d61ced39b6f0fa5c84dfc9934507,
  0x257e3c61013bbac8afaf07325c6f13705756409432f63edb7c983327121ddecf,
  0x617eacc12e8ca6ddcca6d5749f9fb1dfb116022c73d7b433e04ec25c4c582122,
  0x3ec4dfe461f9514689b853edd220a3bb0a9c6d6c94a1574fc55165f2e3009826,
  0x3a07fe5875833a2bc3909661bf024fe5de938cf65013fa601495026532046678,
  0x5aaa02ae5f07ffde3b459c65544f8158c05f7999f822320ff75f4b0b156c2a92,
  0x4249ac4ab32f0a6b6142c5a66991e19e2d318e5de429a79951b7fdd31e1cfce4,
  0xaed376219b7affd184806af55518f1a2ae7ee7eafea88cfa8a1b96b4f768a95,
  0x2067dc851b4c78654665ac0e293b64032bb8b0d2e4854ae950c49e9db2d19d92,
  0x57167a14d7faf9a868b61934e0532050f910323b2eaae095f59c3668077f49f1,
  0x209e8b101924d4b7401a5c4f885105ed42e36d5191d90822a32917741069ecd4]

def cB56 : List Nat := [
  0x2f3961402793f9a1b9f375c8ad55f091ae12b39bf2e03650907d33d143e52d1a,
  0x3464e7be274ddaff18bb1931c9b010925893832e30e854d0c14ce1fdc527f090,
  0x178d9abefed6be323b884107042fa0e15480a5493494955ab20a307a5c688a47,
  0x3781664e1835ef9919df54ad4224cc04f4cedf500d3e11f6bfe5d696ae55515a,
  0x6c3bfb546fc0a56a4ac93785784cb5bcb8877a52a79da10f44598eb44a780a9b,
  0x66a0b36e4892932314ef16beb4bc964a0f4d6d1dce7a04526cf72fcc961c6c00,
  0x2e1fbebac7dcbf4be8101c98484cc43ff20dcb46c97820b418d3e731f75a937e,
  0x1e84b24bccb5aa1b05ec439b7ea1ac0f14a5bbe0384b6ea273604a833e80fcb7,
  0x5cf5b15d03a036874a3b1a96f90cacd5b19537db55deb2f0455fe9d760ad91c8,
  0x6b340c32444a16ff747444dd551d808d15e73c8892ec5a7535631b08b9681474,
  0x1cae2f737ff69c29528f74966dfeeed4be2dcc16e3b24fab5db84b3d908b21b1,
  0x3345f3f1f6405310b17c741165145f2c990112a0b35d06b737723f776fd0ecba,
  0x6cd99bebb7e9bbab2ea13da24da6f4b01d6d1c45241b3f2e52e36d435c7e0f2d,
  0x690446b2f27ace053161cb9100319d0375df7aa08dbabdc880ff1eb0e541b0c4,
  0x2b1d7ef4f9b88db8076440e684c53022c925ede3e341367a0192c01a9cf0f575,
  0xc91890d8fec513bf4be01e8095b7bf0367412b38d82cb395cdb544f05e9b6b1]

def cB57 : List Nat := [
  0x474b0c6b5eb8587fabc10cc9762f3f52057f9164f6bda49c2f2eda7ad63389d0,
  0x595496b60df8f62b3ee7484c88fa3367f216a73f154129792f93dd99660f94bb,
  0x4e1f7daa6804b2ec01db3dc82a6cdf8a08c6f04bf1ddb8d8f06f30a5ad596938,
  0x65ecf5dafdde687401f7fedea8c2f309dd410444709959419d98b5a65b72b1dc,
  0x595b890308058072ff208686cad3ee31e59e09b3bdf3dddb153a584e6061d3b0,
  0x1358e14cd3e794fd301e6f11b7e3b7e2359a945e9e7f8d855dcadace7d3a36,
  0x14e9a10c77433b6abf10f479f48381e07b2a770dd068eb0a5c0219f5981924ad,
  0x28008eaa72676240c0d644ce6c95ee49f3c6cd6fb8adffd6345a5844e91c7c9d,
  0x4a399300d15fe759ead2e2bbd38ea7be4a6b5f4acd681387833c15254792c3ec,
  0x4cc1d58db7fdccb6b27a461487a56edaefea7678c840eb3aced950db21cd8793,
  0x6f407f2d034bc075a11740959b450744bb40421faaf0fe9a46043100c80ae46a,
  0x653194342839be2af307790d37af969f5d92bca0c1526a7381a987248611dac7,
  0x3c392907db13e5ce18d9a72ab69c54e0798b5c824843f1619ddfca497d40e878,
  0x297fd64994c991e2f26969bcb89461be8338b94d1e930966116c34706e00e54f,
  0x2124588277998942b0126339c28171b9f0e0746a0b201166088bb4d532d568f5,
  0x6ecc4ca394210a76062981bd87d309d7297b3c3e55c1628958f29f19fb712de9]

def cB58 : List Nat := [
  0x6a4c137220416243055fc3bef7832338395f4f0ab467797779a4fcae751d2ccd,
  0x16bb0c203be7233c632fefd7408869e3f4551d346f4ae08614f6cc365505e629,
  0xd43c4fdc9f4ad70fefc83148665eb769b222473a89e72babd9d0592e407d77f,
  0x530e95ac944d197c41ea93f2e70598dcc424fed4c334152d8945f335c482cf6a,
  0x4de002710f1a16fab6a99317df796da6e8ea3c32d0e7851bdd8ab824f832e0f1,
  0x5146deb1d0e1ef5c483c8653fd5995a216bf72cc30db18f622ed8aee3d2162c,
  0x452a119b6c3f690757e544f146fc66e3f942719330298f5837baf8d0006588cd,
  0x394d0a379f31c66c21eaf45bcc573ca20ef3fc651746b912c4d1ade22a9e9161,
  0x640ec539b342e92ad94c65e6d96f4b8fe2620da7b90df44fc2fe1bf6972eddc3,
  0x50f45a5e7ab7d6369cfd2ddb2117498846690c8b1dadf152ea516bc93253928e,
  0x368bd7a12f75c620ce1efb5743c1f37e0319a05ffa41f7713e552a19c7fb035a,
  0x6907b6b7f69cfe58ec4863f6853b438eebfc30d5d487b082c592913fee4d4cba,
  0x25b97d84c454a672e34d35ce0e7f4cd7222840010870bcb2078b13e230ab9e06,
  0x690aa06c80405748fd38e63c816b0743285538acf4f8f2b1b47b1573ba1f7db4,
  0x1f25a7313c4fa1c7498e4a922b7a78160860b83b91aeaa12a3fef4d7b519e879,
  0x45255a5ed8463fb01ae32fe45df5f4b61e18c5636cdb035ab86f70803d644a7f]

def cB59 : List Nat := [
  0x3379535bc536d2f973741ab1335cb2c2d13744cf998f9966f7b801ca812edd4c,
  0x70cf042d01556062cbaaee8f53da6aaa067253de5cec5be67b21972dbc484eb2,
  0x5f935eabe0af0756a1bd59ec603306ff78fdfa71cb69e6515a36c9cd0814e93,
  0x6151a6516284b8ff7d2c36e96286928f0b548eab975276dca9440e36a1321ee3,
  0x5301371a5be44a554f03632b37a48c77ae1fda11632916a2191230aafc89cfd1,
  0x674a5c21a638defeb7eb0e581141f84ce6a81769fb9f5151898575627dd47a4d,
  0x3378d6e5e3a0b56a5f5d8d313ae73719060e8cfa07acec3631ff83ea01f21a76,
  0x40db3a30dbb43527b5646cd72fd3cf0edfadb38a237781eb4f3430cfb19f3254,
  0x3e8a1a610138178fa3fbd7721fca4bc2ddf622ce1c4ebf17f12a951e798af5ef,
  0x535b4d1cffbe8a5c3541d187e161320d867817ef8ed1687bf71c9be78817b59b,
  0x2a0dcf3cf62e7bebbcdac9282552f473a52c55b0aacb73d6efb8f895726ddec5,
  0x16cbbd8844db78cb803ba13d07a751d76520d476db47f2464293db6c21439837,
  0x65fc4d571f88cdeb40693aa4f9925a97e4dec1ff8c234b7cb7774f455c82d88,
  0x6f4ebc6cc37cd24879b9bddf218abf70c9f64e9f502647603cd8f1c010a51d13,
  0x48bb7edde8d584ed46235ae11a7702c74142faf5aa75c8e04db6fe8c90698bb4,
  0x2d32caeb70d176c17e3ff7be1d2f0ac5cd68165609fc21e827b90bbede17cb36]

def cB60 : List Nat := [
  0x2e9c4f19f3f1ba9fa91c0ec9143caeb172375cac370eecccd0deabff73133ae5,
  0x606cb86b9a1d5dd4ce1ff6d6e4681982c267c42f64ee83967e0e3eaba0c88fef,
  0x642314c5e7bdf08baef10d1a0d36fcda5725115008a20f21d871ea93c42798f9,
  0x40d6d78984af18277c167200cbc597a810bb709ff2b61097213d944644c074c3,
  0x6493a96cd297b9d5c4213ca9603fbdada65acf4234bcf5ff193a2945d51d88d8,
  0x1700de9ce6af2bee7349bf2d5b48352c7765a90fae1ec7463df0cb952cf94819,
  0x72c0efd2ed5911fb57fe92676dcbfd6043cc1d4f851ead2246ac089711702b85,
  0x1518ff8eac7f5f9bb78630aa52ec6f06add1f716a8da14ab4c33c1b2efdabdb5,
  0x2f235c0ecff18b120c9b08013dfc18ee758cbb34d8582bf6f0ec2abf6b680340,
  0x42ae3f06bfe99075ef57ee5687d48e85c3b11efb0e9a1fa3a499446cdb95ecbd,
  0x519c543e2433e29592b316475c76c2324aa1a2e2e4f6f3331da9737e9492c780,
  0x22c3363b752bacdd00c0058703508f9280560f68d6d5e76d98d0f6ddf4d5ff59,
  0x61222536305c5df478be5c124b98f0db311f0e565b07d3b63bb0a2caf48bb2b4,
  0x2ce111bfcafbd45d4d9523c7510bdebb33ad92731fc71fa15a8acca725a3e062,
  0x3c2cbf99bf3c9454e778cd8e24fe7978bdcb39808a46b1a772a6c969c7dcd404,
  0x486ddaf8b45cc877e011f54a34db681e309238084e2887f42f1b025a81762da5]

def cB61 : List Nat := [
  0x59f89f17421224dbc6d69450e8239b48066ebc1720b07396054048e4a28e4349,
  0x4787d06d59436e38c7b239ba3725350570ab1c7f2033dce8af3735e537588e0b,
  0x24aca25ec11964eb51892a4526843a8e1b351614013513ea4ff1d22cbf1c497,
  0x67f0e01cf15db819ad402edbeb3b67f461b1f10b10d9822abd0f0826a86d0e4b,
  0x7296768bd98dca1ba4d759cb8713bc0e4abe0756b47f07f0eeadbb00bbe3f8c2,
  0x4a984272e59ac5069f575878fa0142e48289941054c8ed60c7fa054caf0deffe,
  0x1bd4f6714f45a767ea0fc8faff2f292c57fb88fbcab9bed973fad6ac5984add,
  0x6601386a2a9753ae95216a37ca15c3c5f5a7b0596ffa70d28f2cc30418b96cf6,
  0x6b9d23554683f48109c498d2f120d4045717cea9dce4b9d6df552d0192b8213c,
  0x717b66079059b6fe6d46305e10dca1facbe197de2b7e8ae4e87674e403e78dac,
  0x289e5940a1c9d7d4066e400a21851f7f087241f15736fa235f3a9c9be60910a8,
  0x49e01caa3fb8b7bd1f50676dd7aafbec5b76569a1fd59a560f558eef990c0f96,
  0x5a372ffe51a5e36f5e873f3c5e106c944f310e3928480ce8198a2e3137c41d28,
  0x59135c5a73dd6e2ba5d01dbe875893ec3af41ced9805a454ed7896c543ffa4a7,
  0xe49f16f6a1582a130acbd3738a4beab1eca3a58da38cc52a408fc821b560290,
  0x5466bd24a65068ac798fac73bc2970c9b008bfe85b73a919cc1d63b030d93346]

def cB62 : List Nat := [
  0x3b5f5c21479e4e4cac90b7e8e39b18824f71b06ad74809a65e2a2879bf081fe9,
  0x1520845bcef44c44b9fb9f5ea1187cf019f59468d538a343f6cc7a8017618acc,
  0x63e99d49004fa663d8f841e3fcdc1846f3ec1d881c00df2a0a0873be8758ea54,
  0x215b7ebcf1f5fbe5e1ff2cd73a03d67dcc29a2be8e79efeb391d3c741eefe5c4,
  0x27bf1857d8dc6da7af519d90b803a955a01fde4796f552f926329f44e681fea0,
  0x1f9dbc4ce500673e9acd0daa1d1949e68799cdbe6019c8a8051866aebccbedc,
  0x1f697fd41b7fde3ca4996f37492dfad15fb8c72108bc17c217270cb8e3a2cdcd,
  0x21c481e7635fc8665bf23c83419e2244e782bfe2bb4b1199216280b581d57289,
  0x64dfa7e7e64309567505ad233a35a590f57cf2811698632be9f3b68d3cd050a7,
  0x62cbe80c1d4a68aed8d8bce7c463b5a380e61f9ea8bc9cbde3a4b499cdfec802,
  0x5517d0f57cdc5185cb5d09ea80f2896bb8e818ec7008fd86b22f4899eafa660,
  0x378c466505ee428b0a2c3330d2a9bc3b66a9f52ecea532f1b3e970b18a9d914e,
  0x1b94afa3d58a9e3c6752a95cf80f26f0f762948c148d2243260cc85549731385,
  0x5a552b94133475378090b1a941f1e62689d1165e27a81303d2097451ae57cded,
  0x3a38e487dbd4f45a983a53e6b12894cd037352604125c5dc24f07cb302b8c5fe,
  0x25c90b6d810801218f81dc4cd3f351fb8aea42e1864aae1be9e743dcfbf882bf]

def cB63 : List Nat := [
  0x57e85121aa7aa846b2fbdfca2a7ffc38b960761fcfdbb46d57de8c9711ef5fef,
  0x640102b35168f56a5c2c3a170d7807953f179b03d091befbc1019e7bb05941f8,
  0x6954f85851d173c58198a4c1d37be7001de98a883f54e524ae5d1ab4d8431c27,
  0x4b9b0ae766cd011b8d5c61825019668ae92f6ae9146c7d27f5aa93e2724d2947,
  0x1c26eb5afba03924f3426bc12ad06e46394ec4b46fcec7eee778d9d675249a3e,
  0x16d9dea5ce18ac5de79d39a81810db233911a77b93499372f67878f696c0eae3,
  0x2920304726438fb695286ee2f439745a9916f5665716134dcdec65c79707b343,
  0x4e59734f3a5c0f8df0d3d3e6fa2cd511a3ee7f307bd979100f74c7f3eae638a6,
  0x7211935b1cc7203f24122d46c04c46e0aba84904228500f86842b5fd97cd9614,
  0x1d6812667b893d651c27e0126cbdb91541ca274ceb8ab846bb5d56cf3a652483,
  0x17352de84d513c59055de740542b68409b23874b105aca833bdfa7b34e1f2c9a,
  0x70bf6e418c670c4d21d4c0c5cab83ee06e6e9089710d8983bc1f9d20f2a45bab,
  0x45bc833616e114d5b2fba7359de507b12a91d9985ed6a653e689f717bc3d15cf,
  0x47597f9468a909964a7b1600a8f3ced8b39f6ccebd5ed61cffe2f8e5b7367ad8,
  0x6fa49fbab56c99993a7aef5bd39644d6c51ac9b8abf4f4021035ddb9613adf2a,
  0x2de214a5876b01fa1ba59888f887931413f51e4c8ac613918e2544670656ce02]

def cB64 : List Nat := [
  0x139f503902cd014881a8b8d68ea1ca0a357a013f3144b3167b97df0ae03648b4,
  0x573ce518ed0d1e091f3311e17456ee640df2521143f04866d855b784a5fb47ab,
  0x11c74d3f22ee073d3aab913303994707ad099603f5dc07130bce14293ffc81f8,
  0x7053f711eceaf356da3dd27176fa0adcac75b8ad396686c1e9f29ebfacf8a33e,
  0x1fdee79dfd0403c03112d948c55da9c389281e1d9c39450ff96c973ecad810fd,
  0x6b8deb3641d2455f067d5ffacb0c868da3d96a9eb522d5d7b2c3161640ce5a6c,
  0xcb301b3f1fdaf63a39fb466ee465d2b48e652d23fc8820678b01dd6c19b5020,
  0x4ad66f398ec8eec1a994e5ea27fe456c56788538145fc6c97723f4aadc32ab32,
  0x118aa5706d2264afdbbb3d1719b4c918a86a1d8c98e4ddc2c12409e170dbeaa9,
  0x67e01e8e882dee03eb4a1e988c3ca51b4c4ee68edb5d60d3f8c25f000591a773,
  0xc9b7a4f8b44a7be392d3225c385539230a999f5a9aa87335c925b612c2dbe41,
  0x554732d70b7152f10fe63c575d94d791e57928fd3ad6d407c0ba55a84f9d3edc,
  0x2c8644ad9d3a0b9578c0a19fb7213b99a174ca6c134d1b81b37f6cf5977cc22a,
  0x140ff4e1f63d5aaa5d323fbae23e0637d71019b81464683552b435ed0ccc8b71,
  0x45c415ff1be80ef544e54acadf51aaad8a20363ddbc7929efb7b4c7b887c4d8,
  0x36ffd400b123ccfecc4463a539d17b2b11349fb620f2170ec9f218a3209dcbb9]

def cB65 : List Nat := [
  0x3199df6eaaf3b4dd6dfe6819ed468237a285d332e60a36b11cf4cda82f3c69a2,
  0x3ea86cd4eef37d140084abe7599ee472385df368e255c5a6dccf2583b43fa7,
  0x682602c5513e31abdd8c6df339ab52cae3630318b55ef0a01b46885b5e2a74e9,
  0x27544ac54779b729bad94832fbafd7de30158f1ebf3ea61da0158f72349522fc,
  0x358ab780e16cd078cfcda4ee9c2950a49af328091a90ce3a9822e2d56b386b0c,
  0x59d8aa925d4b528a7851eea24bda3db69af4c7c6857a23a1fe1f55a11dd3e897,
  0x49dd296e47e311f89b3ec18e3e2f543c51863107f61ed1ef503bc39871930ec0,
  0x5428fe66831986957a339ae134a8bb4eb57d0ddcb4b4b9187f4c91ef99f461fb,
  0x7270ada9ab0bdff6da8cd865b3073e2acd36d42d041ab8694f08b8fd4b02afbd,
  0x5566b73c1707fadfc6dc01324348938a07ce50bbb686835a4c77a59f78e45e73,
  0x5a5cec1d5eee5bc0526d0859325c19234b17704dbb72131552ad24cdbb695736,
  0x2419e735e7473006b13accdccef61218ecf7318ef3e06190544f01e8463b34e8,
  0x1151e5fe1768fa3f3e3a112095b3e3ba75a78958cdc88df235d1944ed514ee76,
  0x58ddaed97ae72a1fd4a83c245bc48367908ca45fe0a5e3da7806eccb1e21a0e8,
  0x3c9d805a4484bf760a5fd2663263c07f8f02eab44001fed6d4ca5bceb09f1e62,
  0x2577521bcaa9c79aea266235f6b15e0347403b5fae906d7ff606ae508777620e]

def cB66 : List Nat := [
  0x321c9d2aa9d0e6916dce7a4b6d0241121873e165ab732bda237ceb030ad645d,
  0x6916d9d97e9eeba732dfd6033fa559fbb092a8679849aed35202512889894761,
  0x71f5bc7142b915d2bb3152fdb47340d2b07864cafd9313b47dad3a04f649c22,
  0xda0d462bb288b9deec12f86a6310ae514eab41a7a75bcf03b425f9f4b1e9360,
  0x11f16a10aae9c84b2fcc0e917f6a20632ff44b319247f3cfe33f287237efe8fa,
  0x5a11201d20b838defd9ef5478c1481d464d070d2b7c419e47f6224568c0d7924,
  0x2e4cdc384df1e80cc4862137935af3cfd6f786d2fc837597b7d2cd551381be7f,
  0x1fd59eceb05741074b0d93212a0ff3de7ed8fd69a4286b3c696bb9b8dfed552b,
  0xf74ea5f27020bcf9ce30ed1f77a28cd79bff8cf187e5b6666b1de5bf41e8252,
  0x62764879283a71fd5c335d14f3fa6bbecb50a51b0414439c50d282c55296a9c3,
  0x5f2402372c2240c4833181713b854e34ceb2c6d08efe6d406fc6bd3646f8ebd1,
  0x483c9f254bac5ff28a3ec5624dd7fe551f715834555560c78cda651dbec07254,
  0x112d3a74f224329073afeb09c80b5012f18edf02c38c4f24b0b861d04db3aaf,
  0x8e91484fad9aaa50791968762cd99c58eba4818519a9df22ba71ed4727134e0,
  0x737939e724ab2e2104eca18fb91407fea424e042ec839160e9f07261ff50b247,
  0x4eab63ada77cdff02ce11e0056634aee6d2e25af8c377e28cf94d3b8a6d969f3]

def cB67 : List Nat := [
  0x2e609349f866ab3f4a8d6c0308757f9d2dd34ab80885972a1451c5fd701cdf4b,
  0x1d87a5ce46d359f27e8a92f6c7a28fe961cdd1ff3feebcebfefbf36198d1abfc,
  0xe3271e92e2d156ed9e21778bf1af80d42fcfebed1052422b8da415bbaffaddc,
  0x27d2cc7e87d189292096bdaf2ad1197739ccee357db60f7b92c98f4ce0da603b,
  0x5a445c2651230dc9eebbe24e787a28101ef99dc82b4d3544f22951f410ab369d,
  0x296ba9993dae5cfb782bf0db43c7000a5d318e8dd294b4447a822dad3b3e4701,
  0x3846b57ee3bba9d68365c27cf61a6f27009b70334053b681125d26914440c9d7,
  0x63ab5255f345a1ef0219af58e3bbaee3004041b373bde68b9ff2cdc034ab43d1,
  0x59d230ddaec4908b21b8e409bd14794078ada21162821535db50d4f512a02f9a,
  0x2ba97cc73812f36e8fad063a03f11939669459c094ec065818fc68572c6a07be,
  0x2dc846a0d9b326a1d2d99ddef79ff51f8e6444828ced122523115b80c51f7d9f,
  0x6045062d02494b5b308ed70006f84118c91437c2d1aa8b9947222a8cd6162a95,
  0x21d4a31b4881e64f4818257f57f74eb1e5c4b861fb5d14abb19733378aff1907,
  0xffd26a57bd8c3c2f57242ac6c50d5318207e7296f6c2dd8f69710e32cde1be8,
  0x558eee45206549b94fa81656f9d4ea623fb22c17245c3c76d7513fda64380bec,
  0x548c4ea6b87ef00a57892dde295e7e961a59c86a8c84313f0a69cb280a0bc0b4]

def cB68 : List Nat := [
  0x35a9edebd244797560311d613b1793174d020c78ff38f70ad4a47ed5538e9e00,
  0x63aa93e140da0614a08a708e549338c4111bf11c8f6b743d543bbaaf4acc485d,
  0x14f5d92cb07a07103a36ce0bce3d3087285b13db912d42c442563998fb36a234,
  0x1dfaa52ab5f9a11a2b764bfc484e7c8cf9f76ea37cfebf6b4cf67cc67bf06dd9,
  0x67897dc2cab7022a6cde7ed17e3ada27f5acd88f5f6ed211f4a9ad38d1a8c0f5,
  0x20c5735115c9ef2ccb01ccef3a79bb7d9c5fd6435241f234cd52df19212b2e30,
  0x5417b8af479af0ff58e170c8b265d5831159127bd36423359b85c3a66d522522,
  0x1910c5f76bb3892967e997ab4c92d57eedc9d0b5e21672e9ec0ec620e3088ac6,
  0x1e64f2271954194e94f285a67466df328caecad10ee7e6f1740064764e630f1c,
  0x1b048d3fb40164452499a651bd5ad367c35062d4b60ad9f0f01a9689fda05651,
  0x6c5f9747d72f54a92ebe0af0da5b9b0787b48bd70972b90d8fcbd6c44858105,
  0x592adc892ec5ca0b72ed328c70445b2eb4dceee066c7520223d8802e35e14bf5,
  0x1b08316ab8a648612449c575dc610f12102e443904c47fe3598b9e275afd9009,
  0x34d95627dc33607af292536892999124321157fce64e33f78694c279601af1a5,
  0x44f8e97527402aa2cb3c6a106f8687ae4ceb84a33ae0b2b194c824456619421,
  0x21ef68e6a77852f2e68b816cbf2de4be108892a6da24989ddebd97659de0a436]

def cB69 : List Nat := [
  0x6d2665432972ad5db964f65596445884ebb7883df05e243608d7423173585e89,
  0x47623402d6a899cb677a70c0c689a6fff33edd96bc7e5aa234ea126e69794821,
  0x198a4898fe7c785a1e5edf605c9655030c4aebad07a366ed2cfc4e650d478432,
  0x271887129ea592bb96c0b22c97e51ad1689218de1be1a0e9a0ac410973aaabf8,
  0x48744dfd507f8a8184ef7684e6e2cfdd1ae78ff4c91707e204682d920471d174,
  0x31721e66e0f9a0019366ddfae5f6d4f547c114f904dd833bb3006281549a7897,
  0x4987929f3aaec049720139abb4b780896f707627271212708337eaf51f284e2d,
  0x227ff15d0286d951c26876e5326742c65766a82b24a6a7f2021e4f42a22dde09,
  0x181cceaab6a2b825ce8c463ac16133fadf982b6291c5ab99af4ccb19a256128,
  0x1bcf17090589acf2fe0367997ff2807d381bedaed5ba3ac7bfb77a00372d31c7,
  0x7035da1742c2e25e6c4cbc4b65bb52db607498a48835db7b82d8eb0c806d0025,
  0x55f3039a51e2cde4b680335346eb6f9cc6e1af887bc02b0700f534edeeb5606a,
  0x4aff2cb2f4c7589d3b3d3cbbe494be0b0a012e66daf1e8d3965018c81ea3bd56,
  0x5dc71deeed0c20249b9490a68f6a9ee6b2f6c90904f77c48076a79f942f28471,
  0x20f375eaa474dba967efa4f7a3480b106de0a85d05865356bf38747c776a3b1d,
  0x64f98d390e004761904ca8c63f1a1897277fccd3af5d1121553f3445820cf22b]

def cB70 : List Nat := [
  0x521bdc147db0d70b32459a5f77d0fe02f76ea05c5cd8627292bdc7abf34a699c,
  0x4838a710c770a9af49cec2db43a43213eaf4c0fa5f87a76f7bfdf361d7e02f87,
  0x2d3879812092a21cbd9dac729de33d5f7757d0112adec51c76408b0f677c090e,
  0x11d9f39aa0b57a3dbc9d60f937e3dc38f26e1c90e136e9622029818bc2b3efaa,
  0x18ae934820ba053c77794878189cb1595d5437f21e6c3f4491baa30e642e2ffd,
  0x13417b4a6f850d2da82a0942c001b2f2477d9b0f75d4a5205978f5a8a29e9e62,
  0x6281a9e5bfd46362ec5681f6cb1c268bbc38efb14e96309f8881b62819b74290,
  0x3f5982609e8bee26d40e5eee07d07159603659cda97d9bb9b25f44854bf7fe8e,
  0xb21c8b5075311e928702181fc3b0076c7c8634f203839e7ccb4dc8e00ab155e,
  0x468b017001f155d5d6648f651ede0ae9d2cffbe8e536d12280d107503013ce6e,
  0x17d79b019fe4b9a23028f276d803c8b6bec07563beb603512afa7dc7617bbd8,
  0x16eab81a29092cc97f03b8fafb274680a07ec0d044f7900c5543cf06da8da842,
  0x30bb43a84df0b3e08a72723f183337ff2aef373d95ccce5b85ae8991710486a5,
  0x29ad6936b81abad2f867e88398f86ae5b8d1842627ff00320bfc965c9f8ca820,
  0x52bbbe2b60b53ed7df34b7ae2630c29a8bbe39bae3ce72cdd0b31fec21e1b5f6,
  0x1418b5d1eddd347d06211188e032d3060ca09f601029a76024f7ecb706565ac5]

def cB71 : List Nat := [
  0x1b48f0efcdb488634b02629febdd77f889de9d04254b2a5fe85161aab32536bc,
  0x2ca72b28a2cb7465d912cb6297f8038e970f35038a55d9bb9361c827f37df626,
  0x685548f964672dc2ed2128d49a523e37a8dfbd06572cf8d67de434efc4fe2743,
  0x58e0d5b36ba88da2d3b9ffceb26710f18b911d99a54843eb4c1ca3af26e9b2d6,
  0x33b5e28f7c0597df3b67e426d4392971f4a285bc807362e9f67def69ecf5254b,
  0x58d1895e4fa73813988c35f334490d1cb7301bb68d6d07d28391573012369dda,
  0x5b6ff945e63798a60c3c20acf7d186f868e82a40c283f341b0d811283739f95d,
  0x1062a5f0c3c84235c88bb87a3d47a56e611c7786a097f3c495a3408a85ab9c12,
  0x4b44ed1c4475deeed93837dc1b8cb2a2989f8e630619aba7e0ded9de68fb8ff6,
  0x2b5cd943112eb52c75b6a0c9b306c61ce993e305808e7bcfefd6be23d6ed8cb7,
  0x57a643f4155b5981e4733c5c5f63022dd956f8f40f017361a2e7da8e5e52fc3d,
  0x553a974900132cd500029facfff7fafea66802de9d78cee973da7e0930ecb86e,
  0xbecaad5f3fd24456dad633eb09b1061402901f565b452e4f6016ca11d2b3f12,
  0x29543f4d6c744d79117ab4341ec80c9fd7d552f3d5120593b72bb272ec8cb0f4,
  0x1417c038a5145cacdb2482b6ec495f51c49676a2297ac1050592e560ae149d27,
  0x3bec1c3f8d2382b1ef02ef25c34772ed7a290fa5744613b6303fcf8bf4f45541]

def cB72 : List Nat := [
  0x238b619dd1e9bb4bf02d5a3ec35c2173b62cbccdad991b48bb162262415b30d0,
  0x1c981101775bf8735412519eab40c239aa789840f9fc2a699f08dac7e6562704,
  0x1d27b9c38d6132e200f5237315b77ac875057844bcc1ac4cf7bd2183328352e,
  0x71acabb3cd4cbf734cc8ba6aabf7c27f59d637605c2b0f1f54c8570d30646afe,
  0x4475fe244201ec80e28f9b164539b39ef4ac34eb1229cedc06dcc019241206ed,
  0x1c27bf89f9d7e0d00dd9396de83709ff7d376def24f142ba633da17a53d9aad1,
  0x71302eca5b3da5a9afe0ced2818a458cfef52e14133470c335c8fa54546083de,
  0x67aeb175951366cda9dde603ec36c6f05009b17c9b498c4564a00b61a7c30d10,
  0x461ff416c52d42374ae7e19cf8eaa0b74c24ea0105e01310a39b31dad7a83b0,
  0xc23e4f11aca87190dc6bd7795858cee7faf2f40a2d82c950f835c1973534333,
  0x5d5a02f58fa1e6f4eeeddf36ab71acf40d95dbe218473273d8b1fab2f33f238d,
  0x43a0509406e0ce398cacf34c8dbdb4aff4a2bcbd997163306a8b69488f2aefbb,
  0x3d8b04887f349fdfd2a2dbc0eb2e3713721d976ee3bf2638a706aa7f68d7d9cc,
  0x463f165ac0a105d7a58e207b8aa51e9cfbdf1242256e5ae77235792538784095,
  0x62f1cac3d91f415e07754ad41913fa69184749dbc203b170608ddd6f94e65a68,
  0x44f5c362e42e8ad15b12bed2d1b4f6d23f0c1a4ba514c5f4ca37196075717462]

def cB73 : List Nat := [
  0x3adba586b9780e083dbfd0ee955ba319d775e809a75204c666cddf4de9520764,
  0x1a27fc04172057dd097fe09e582f6fc04c7ed41d8dde9717623f759be3cc941e,
  0x2d03528917bf873c459cb067b35df6c79780c7f9e28526e3815832de4b6a6058,
  0xf89940d09fc191b1437b74445274e2eebf7389b2d0f162c19a12f85391d8e61,
  0x4dff0cfd425c02246f8546e009f6cecf328ba7fdbf7508262fb80492b8c205ea,
  0x4f4797e63c995b8dea38ce755146cf9accebbaf9945371da84d50c4f7a8b385d,
  0x604416b16a1d31c78d946796ed692a677df6e133faad0b42dac0210d84a0e607,
  0x139a5fae4e13c72228b3b41fb1b8d8e7a33bcecc1c8a8d256429e0ab135bedcd,
  0x6fe7d0e82c73f5b6fca02179018b13a814a60e9e3d59339e5c3b3a1a0afba4f6,
  0x56e7009995b2009de4da99b5c1d749e3c1b322b7d720b9eb4fe97895f53c8b03,
  0x2e1657aaf94f1d81edcdb60061d2f84dbb6e34733f8a11a150b276c6622147f9,
  0x65ca43124d359603a10aaee50d20bfda4eaa6cedae62d1bd430d1e9204afbabb,
  0x180b39339fb005fe735424128af8c02019b4fbfadd2a4342519ccf5ed0ed1006,
  0x468b293ac4c04ccb82cdf8504e5fb9fcdb6101a2fe8c2adfb81bb50797132051,
  0x3c1367b4cf7a8f884dee60d3ada3116e286ea8b4b6bb8388be5ecf2c8cc25fcd,
  0x6d88c718ea5526db09d2149f219cff5d5b583c2670ee9816475cb21d41ad670d]

def cB74 : List Nat := [
  0x14a9eac1426cffadce98e1422e7d4c323ea69eaeeded24d96fb5a3c52a536ebc,
  0x46503ff1a325b8407e350b45e99ee9d4ddb9d9621a2cf38d3fcf127462cb8d24,
  0x1b7539e527e39d3d0c639809bad45b8c785a1650a031e7197679e83e40d5000,
  0x73119e9b84c242020073afdbceca8a31f14d4411d18b91e8b4fcac428fd53fb2,
  0x5171c6a419b53ae22534933b38be2d79e7c456dfe6b54dce8ef243f65df092a0,
  0x2f6c8c495ad9bff6b4251a7966da069468633ffa614919deed02dc7163651f4,
  0x11fe204afed6126a5fbb9e9fd2cd284ea16d24e100ecfef0bc5f7747a1794e7f,
  0xc53a31499fff91ba28b131a5f311b5c1d1fa641733d7fd5837815ddffc7e25a,
  0xcde587bebafb6e86e2fac7a3bb08540efaafed4e448e2d7878755da98baec9b,
  0x33518bbee63026f6ce62b3c813b1b275ba7f188c616931b6deab3525beb34242,
  0x119a4d1bcf2851960190c519225493207847dc233ebc65b950f524d9422535d7,
  0x4d065ea4cae757d537c1cab23ec1de7b072f864109336a122d164e38aa17d26d,
  0x2aabac85471202fd97d69c5d7419ddfb739bae1d3d4513aabd2dc65d828cf342,
  0x569c5476de6b2eafcdea6cf915668ddf315d953bd76b78a80a263c96f2737c11,
  0x552c0c8406ed3e4edacb828ae3088eb2aab1f5685dc3c15203ae616b4966c13d,
  0x2df3617a5960a77f089633c025f500e8a1e681206c836c85321f8face2cd483e]

def cB75 : List Nat := [
  0x6c747bd66ef41e97362d1b55e5c7a211fd3a6538f33932747b571bca4070ee93,
  0x1cc54777d8967f5b77b44f4b6897aba93b71ac13255f1b5c8a5fcf1b17e9036e,
  0x3cf9dee06b5551cec306f0f9c17fa52d4eaae44b3ee5ec62befcb03cb90a8eb0,
  0x42269897436cb9af3ed9396202de9b1d31cfb0246d110ac210a04bfc949e4eb0,
  0x43a4b4006e429cf98be415d6e2a85d50d811173978d115ec7cc5afe2e88e58d9,
  0x68f7fb771e3f4b177fc25eacc0146138c433517ae6efd1a41c018c500e70f8f8,
  0x5d63a8aeb347c0aae667001048867ebe952b2e34e04107aa8509ee42d84704e9,
  0x69cd860ced115df75a3c63b8c54f3bc6906cc072444afba667758e37af56b7e1,
  0x416a0445a3fb54d5f7bedf8a0ba1b76ea5956b5cfc1fb728965866c47ec6c4b2,
  0x2158bb9084b54c60da9e6c111e62ea9810b80eae3bd4e8a984f27186057ad09e,
  0x2ae8be09d1734832e3cb2ab620c1151255dc8204a66676998c5245f59e61d4eb,
  0x7d41bb2e2561f8c45b672d58a762763245b63b6bacd655ebe7d3f544978a91f,
  0x5b06e3d7a1b66dad104ec3646b0ea233bbb97a74cd97e7d5f818eb3c7cd827b2,
  0x12e4a81d5dfa83cc85258bb9f838ad02b012a3eab18320f249ec2a16a63413f,
  0x6819a428e1eb404afe89b9464f7043da08e28d59657e8041ecbae4cf9380b5a6,
  0x660424dda04e04b1abc061c292bdd147af6e81aa3bd28e024060d9e61a388a74]

def cB76 : List Nat := [
  0x2b24b0056ee32fbdf20f0e3fbf439dfbf5e4e188640b25e7e5e3d9520ac51b1e,
  0x649ef75d38247fb21a84ee27dbcda224b77abf634138e156352a655beda42a7a,
  0x53b77eeba005888b52b7b7cee6b388c9a019e6b8245da3230a24ef6e28202c2d,
  0x564c8042afb6cf1cbb8bd152b4abcfa2884cd710b8962ec93fd610c72a171c2,
  0x5c43238b633a60d9f559eb8ac1437035f3a9dc54e9d2911ecf6fefbd43a12e12,
  0x2e412c0d6c0d1a0328995a99400980ffb24c4fa9d4078c713780d296ceaf5e88,
  0x9f705da4b7e8bbe0ca8d5c6a0e7fd588da4b901ad1b216836de13cf1795b59e,
  0x6af7e1ae7af315ddcd35c5cb071ad88edae7fe98e8220e4c13aa3aca0d5a67dc,
  0x10af6192734b6c9b8de06494a7ad16e87e0753031319e4e67dfeefdfbd9c5905,
  0x11c3ced943179e5809c0f563e4a7d026fadbe58ede7deaaabaa45b9da31246ec,
  0x4740972c28d68aed8ca7ad124ff08734bcf38a82c63daec07629495b2d57c03b,
  0x3db732fe3a379c5ba308d6a0ff7015950ec8ab74e246634b57dfe1b289c55530,
  0x518cd9f74013141ca69101ee9bf0ee054e29229cb597c3e4d3d0679371bef6f,
  0x544a2789c0e017ea5f7347f29959e0c1743b40a836a0579c0d4cb79429202e01,
  0x197399d934a1f82af6f5299aaad09480403862a3177f0880bddb37e7e2f56d3d,
  0x3b7bdcce289d0c1f0c030a548e51129624eeca9a34029fad560ec86c94432ba0]

def cB77 : List Nat := [
  0x56df715815831bca16cbe1ec487e8b48d91b04cb4425625a3f1348e9e92df415,
  0x5817e21083588e7bbed889a229af90a81d1bff39bd1e4a8a8f0926fdf8fa691c,
  0x3913d7adc9714f242d8424b806b733c7dc7f7eaa50adce62fb08e3379bde41ad,
  0x5ec8db17312ffcd3b475565dbb5964d2526a28de8bceb20bb66da54417ff5a4f,
  0x4cec8e8f0e32a3afd8c5be1d2f4693ece22dc97380c95f5d7ec96b8b1ce251c8,
  0x342702cf2238961992ab457b9bae27781d4320fdc7486cd21f0d9cacd17780d3,
  0x65c92e61524202a4de9ce1a0e98ddf8722d9a7f0b012f4bb0143765632504ffc,
  0x26a260c85db579f70eb9695d7fcb8eb7f87875654fdfbfd0c2ae64df6eab547,
  0xc455070aa0622bcfa9115ad877153d1e7282770c8d9f128d0e69b052d49af2f,
  0x6842641f8edd748c32c2354a843e237044bc15d99452091cf68ccc769c8577aa,
  0x681062fc520a6fca2853520ec64418379892f1c89eafba6ec5c7cb0ab7e48f17,
  0x6d918456b4d8be3f65864f3c65088e8a482c1b5b8e978c40dc46aeba3c0940ef,
  0x5aa77ea7bda52035077f6ac3f6b71ad3c8a805bfc8d36845ba8fd256647edfc,
  0x1ec3bc0d5351422d2d7bb0997381f713a512ecc0f496185d816acb4d4d115604,
  0x12053b808cbea75cec76fac58d2be89f16cf6ca03a85b2b273c12be95f200cf9,
  0x13b6312427a3a844201b3e5d22a8023744b3a4755f27a8094223d16357a47fbe]

def cB78 : List Nat := [
  0x64a62d7403138fa79d09abc182fc33587ce4e408a5d410ea728ab0139dffca4d,
  0x2eb5ca979b228ddb3e2053934971111d596d7dda7d2d6d07bced2d9d82723b6f,
  0x49f8052bfcdae1e8023d83ce5b4ca842c0ed3bc479e0a5d31b5170057dc34ac0,
  0x1785ee5d6b38a7e4d1a123e8663b00458472b1bf905958304f1de9fbeb980d53,
  0x481ebfe37af038773bc9da76f042547898f19a3b43b470cacc0828fd793b0240,
  0x6fc70b51e3236cbfa199f8e692273e80f6e5d7966b5185d2bfb7dbd9e37c51c1,
  0x3dde207669c3a32dedef431ccc33070889119a24c12ec01f37300af5b9bdf6d6,
  0x4f41ef503a2760804ddfd3bee85fdd83bfb5de842525bab68da03833c49e80ee,
  0x68a914664eea14289a12141432c84c38d672d1d16d56387152479abe49dee038,
  0x87a003a8cc5649a9e574e9354410bf0667b3a86ab207deb26683e2229117b2f,
  0x601f838cd5320e0ce505daa09b65f5d83a3c291ea93e084faa6662f7edb79946,
  0x1421f60cf1ef6c9124e04ffe6cc862e52ae200079e2474ba619d0d587c4b40b,
  0x51d3f0a1ec1bcd7b91c13c8357a676c1d8724c8fd2cd8aec8e64b1ea534fe691,
  0x19d860cd43d777bed488b8088fd65440a68e59f9168d1222253819a034cc3b59,
  0x64ba00f156d4832df00fd63e8662d30ef1a8e1857f3a376dfbef5fcd19341f48,
  0x307cd714e9cd747cf995d696ef454d3d8899a432ad0eb88c973576ee1fcc4f1a]

def cB79 : List Nat := [
  0x494c7bd1689ebacfeebc3b74047e563df009de5cdfaa25ad22749cc67798a84,
  0x5067c23fba9654b7a7cebc6e0e7f7256c14f0eeab1ec923266302f282de480ad,
  0x668200db6577af74cb50e18855793f1e742987ae1a3a491402d63224c1ee89fb,
  0x39d89c433a6fffd65d4ae5526317077594d4513c744374ac4eb366b5e099ff0e,
  0x7a570bdef59f93d629b2a11b43134b866874aff3152527cdd06e439ab46f641,
  0x43edaf9e4f045e7ade7c0638947e48dbf493ea089c26d3f7b3eac286fb879448,
  0x2ebbe8f0082810975a81750b0d327a62367d90b9c73a4ee862b6bb2d2556d238,
  0x617dd356dfb24abe6e1bd2c4da4a3bbbb8de004f3f9bbb95c80b7dd8eeb9e35f,
  0x1eeae9a1908ffbfc053102acc214492ddc773ab3709fc43b596682088ea51320,
  0x5eb5af20e2cfb8313e8f7f66087e52514822a7ff44f75a255cb2be3243c564f2,
  0x527454e8dcd5fe70002b9b0910692a86b91b3d51621f54e5e2568c31bdeef20a,
  0x1733541d1483f968a9ed3042342a8333285f6255a92dc94ae9bd99e4ceef745b,
  0x19e0c3710443b4d1f8d7eebe9b8e1c47216d806e9e05e2b9a3d25fbd950bff5a,
  0xd18e85b05916abac7fd7c3097e9d85abe1d04f77d5ba24d2070e7df6fc01220,
  0x61ed9f1d7f716a6e6f54c1acdf292e77a9642d85b7fac2c865d71a9614cd219a,
  0x56340881ce8631ef4796998b6443ea38e006bb352a60e866480222f2aa83ca9b]

def cB80 : List Nat := [
  0x5b47933fcbddb1d4607441d2e65a865a2d97f1963b51b25cbbfd255945dac96f,
  0x472ccb781467ab7e490c999484a667f929e572b66fab84861d615d0c9ec1b14b,
  0x43716a62d155b3ef5a4b3401b6165277032120d82679a6b8cbf0ad6dc5834e28,
  0x6e475f12f1f9a6528ae7eb548717ec2dea87d2d3e01a726c25ca1d36707d825,
  0x3eb2ae79f8d75f5ab43268dee15ac8374c2135571424843aa58258c3cfed63c5,
  0x6c35146bc672598283bd0b738b0c20ea867d7361d54c24ed9788b08eccacdb31,
  0x2054c21a942bcb3329b2d15f0bbec74f8fc98c4abe2954fcebb0cd00dfc718d6,
  0x6cba50b6830faaefb0fc5a6cf0e810df4b113b25d0bb56157c2866a708911d3b,
  0x57a4c77c5955afab95cd021707fc545d691f2db65aba52451405d156b0195f1f,
  0x1cd33de4f4a05e6b67f8525566a85d0b586710f89f9da82a5df79f5f02c0d5d4,
  0xfc71e6531b1782edee65b7d6c00cbca37aa51f11e6922ddd965d17040c41c26,
  0x12f3492e25e3ca9955dfce85f28adf09a8a9882efc1c8c9bdb24cd83ce180c07,
  0x679f16b60a0e3872d15f310fabc9ce8cb19532211c9ba065b1fff30fdba3386,
  0x158dc1940204aa3bd23921c420da4c706206ab10a6915666d3b039bd5166ecaf,
  0x4e34134ddfb7fec8fb08d528c329cb19f963e0a228c720be1a7095344c8eef25,
  0x9226ceee5121f7f45c4c25aebf97cf3336c58dea8e3e094086e6d2a1e312d90]

def cB81 : List Nat := [
  0x156345e3b533955c88d776890d53cbe759991937b7b902cbd245b0dd35d470e7,
  0x71e278e8a95c1b5018428fad6dbc4e4483d6aaf9338cde31b007accea1429d02,
  0x4bea30e0f21b6c6adb96e54a94a9ce85c356fbae9974fcda164558799fcabf3f,
  0x3f93b6992169fac28a83efaac60a3caf2152bfd83a7ab5fab26fec51d980876e,
  0x15f992348e034da642994fcd2451d44650600195617371a01dd0528f9b0a2e12,
  0xf5ec592eaec8b9e436a6bb9dc1aaffc4ab74879b6163b59f5496a0ecde1dba9,
  0x203f42f1ce112eab725cd14e645d89ac086318f2587262ddaf62debc756c2375,
  0x210d90d651536e183082311302e8ad84af689880968cf467dfc6f1bec28543d9,
  0xbd877d3f3507848a5156af5a06a07cad01316d5315cc9c6e2ee2da4fca7f150,
  0x46aa4e669cc8f950079198c3479502d2dd7bff55a8dc07d83944a1b731225414,
  0x40be6bfd4795f67289ec5e9ebea649693db5785aca2ebf8b16dc5e6457955a68,
  0x488ebb8e1a6e2c9406380d424a037bc9deb7cf46bf2cc59c12beba5d25306fbb,
  0x181e3f3e26b9dbb2b50f6328218dd7eb47f2170d8bac2847ded8f7b760743bef,
  0x2b0606d6a421be88ace7d264b689aa953e47353c5baddaf2e71b88100dbdb2b,
  0x60ac214ae8b48a59a00ffcbba94c81517cfa3a6b26202684c48a4991c964d8ed,
  0x6fda6107eaa8ff9c3b6c227ba07aa89a527243f509aad70a2ece8aabb2d8599b]

def cB82 : List Nat := [
  0x6b46b458224fcaf2bb00569bee4a59aa5eb3c9c04b456f9984c66a94c32323db,
  0x262108f10cd5054b08e16f0dfed549b3046be81b4d1db64504007ed30fcaa4a1,
  0x47c7af0105445818490a3a9faa0ac8bcf06aabb7310969e08f40257064286490,
  0x92a0dfa10f99feea4f2ae264fbdecc0cfa614578eb8c1f03e535551c820c231,
  0x6c8fc70e725ee45563c22a32468b47c8cd579d7bbabda2fffd66f1cf9b8f70df,
  0x36e283edc7d67ba4b298150d95f0a02f2523e7d33e6731afe6fe6656e0ef73d9,
  0x2b608a321cc8566c10b689c99dcf59daf460799657bedaefaa75bbea2b054afc,
  0x50c9b272bdefa837e4b9e3110a14cefa31efc4b643e51e4c529ee109823123b1,
  0x5e705773ceb9b42db8b86555919b0d5ffeb1a618a4a978c71c361b1c02940ea1,
  0x4ded012a946ba9acbf7ba3a62c4a2d5f54eef1a8c588ff619deb2461e772df96,
  0x392ca18b73e69aa977b7908ff4665eb293c312667aafb0567485373aa59339df,
  0x1f4ac570a54f34b39c4cf850393acf1fb8fdc6fb78cb0729a602af53d9ffb60e,
  0x2b6dbb1d8ed70b9d3cab739e0cb0fe433f5e87a3d6eab38f6b5150f62095fa95,
  0x3c4c1616c175f9f3be2143c4bbca480111c5382dfa82d7e6a77740b1f8ec4b93,
  0xc92eed7a582125f64f3ad81273e28ec9dbb8f1e60ec11cf6de6724939006274,
  0xa4449f8090ce3c44d857a8a468315cf9281b6849e3f129017c5f695b4b5ecd9]

def cB83 : List Nat := [
  0x14c72bb2139bf47445e265ba175e05489166f58a75f91c27d04527479abd6bca,
  0x1f5800659c2ff46780f5d1903bea9905368ea1f11c4137152d2f289792dec26b,
  0x724f46cc3074bd5eb73d808907269452fbe3c08563999c01dffc70921936906b,
  0x2534ef4cf1af6d0d5a1e25ea9ccfe133205a792f72d1a3cbd76d7fbc46123e78,
  0x6122a609a724505b567d1044bdc85832d55f1dcb02bd66e80c2c2cc783b1080e,
  0x328307ddb6b327d0122352c62a03e40b0712df2a97ea5135a40c585f52465390,
  0x21635e3287920d100dde52ccc3759798f76cd755a700040096809cf44c4dbbfa,
  0x355ef9e90ec9372f405a4b720b3dbb2bac4410afcdbeb36a6b623afd7953114a,
  0x20349a5ff8630108554745512e61b0ddc93f0718a2c6a8ba11535f0c14ac6695,
  0x1a0947297520f973f2b3d5beb9798be20f5629e6ba1a755fd561270324bb1e07,
  0x332d873dffcb9bd318a8933b52747572f2d207a2bf2c641e3205f4575d75eef3,
  0x1dc367223f9d7e4c944ce953caf5ceac29dc5f65835d4382ca28c28ee12d4728,
  0x1ee92f238a342b3df630b5dad49f48af58e5eb35ef6f4f94375710a92309c8b3,
  0xbad69895461126b10e29d2963ad0035272a905d2f4f2076c4f3892c60daba46,
  0x4ee34c5612c6f7ae5a4a6377798b598d3647938489d1aa50d33421b5018e1182,
  0x429ca770b007519533c0438857201e9f379cd164c6a7064b98a3870da903a148]

def cB84 : List Nat := [
  0x5f1c9fb8aa283bf7d3452c3dd0e0594588d75e8f31be0f8ad4ecd9caeb4ecd61,
  0x3f773856df04299f6c08897dd651c9ae6634816b317b801c51705d5ade226210,
  0x4501a0695741471cb3b5571157d32d0853b660ed82e5293c302adc4c6e5cf997,
  0x3121ea679d635a2bf667a0ccff53a7d3a716d9969300c6ac2d80ef2ef430282d,
  0x6ddd6857dafcd8a231cce241909644d4ef7cf8b53508d8d05f6ba566abc665d7,
  0x4080cdf4cfd531302664ec35ba8b685d7ce858b638aeb51723604fcccb1658ac,
  0x5d61e785289f556f229bde30c6abb1dceac5852c2ab9e7af4d935add4a2fef01,
  0x624f2f95e6e211e79ad3677f746469efeeb79c6ed69be48107adf5fb62b3548a,
  0x1d00dc1cbe96b918cdad0d3aa4a9f5541ad38070a996ff170e2f439cd2f86a41,
  0x1023bfad3efc52435b8726f3fab59abc4b3c5aff38951a46d9ca3316e08cf2f9,
  0x4ac6c254a0da1bc7b98f11118e2b2bfd4443af4a9dcce4e7a281b5aec7418120,
  0x1997a09013592310b5c88b68d126d6af9b1b5bf2144c02fd03f628b2773eb2df,
  0x22f1f11a43188d2932b4b80b161b0263e1bf10eb2ab5bb561387e67d76f18ea6,
  0x49117ca000cce7c6d8b9e6a4553b281948fd045f9c54b3ab0a412cd2343ee4d5,
  0x71fc15f9c4fa927a3bff6075bd447e6d25a584c20abec6c4e28d4dd742d2e044,
  0x426d16f73caa73e9ebf24f11953f93b2ce13073cabf5e021b50d892079341450]

def cB85 : List Nat := [
  0x13d5df2d509044f68ba737908b746eb4f3d1f54ed9b0a5e3f08307da0ea86139,
  0x5a2e338984052395e4b7ce016608a061fae37c72b963a6fab8264a8de8a5d833,
  0x45243fbfb3cd16fdb22f892739bdd348e52d2f35da098d3af412b5859dc329d,
  0x1aabdb08c40928113e050770e6aba9354905dec527725a742f9420ceab865b14,
  0x4fb3691302a08858ec6852dbb1b46d1d5e1ef45c89cfbc01745febe66d3eecab,
  0x683c2c514954a782aaa3f3aa641a363802219da8814acc8d1506db80426c5304,
  0x5d09660cc57d75ffa2d287027d94eeef34341f589583cc70343884081b30bbbb,
  0x191b86196bed48fb494d6595fab2386bdd61cbf01d0d7ee6272569ed8c4e225e,
  0x129fe4f92250dd2000bf211944df3e22b8898b548e1f6c030f20f1960acf3afc,
  0x32829d3684a8d404e53bc25d9f19c0560a033090e9edc697cbb98bc1067de846,
  0x3c660b778ee3808b09f3d3b208440cce5f764e1202edec7926295b0b2473d0b8,
  0x25149efc142dfb38a7efcbe5475688e23607661d65dd47b2969a18cf6374c76a,
  0x51459a150908dab8e729a9f1bbef0f58897ec5e60a20041ce795c34d3a43479f,
  0x1e3c4c04bcf5e03c809cee13d709c31af97cc6c0889a82dcb1296d959a10cd21,
  0x41aea7891c555ba7b07dcb371c0ab07f535bf2e5bfadd55909bcc24472c8d8c,
  0x579bad7f2641f3ed7978d125414e7818446c55205d3849a6920276f6d2090cd8]

def cB86 : List Nat := [
  0x45b114933c44a758d2a82d814a3df0ad6b25df7dacd5d804515db275bf1954d8,
  0x3d43e794881659f5fab34754e82dbbf5321de87c5539fa2e0fe083641099cc59,
  0x69ed6cf94be5c7e8e2c4840d40c22ced1f576c9ac45c0852217acef5e3ba451a,
  0x7001db8f37758e1641803c318ac1b2dc55fde16d5600860b304a39f9877b397b,
  0x636802471b125db3c1efcfdc15c147aad28cf7a7f07baa3b70cc6ba3f4af16f8,
  0x785a2ce98aa4fe574a135772b1e0fee1a3b80fdb86b5a398501267adebff8a8,
  0x6d663b51b819e3c9de58ce1e42c875b16de82b21522c82a494f804b90f9e88d1,
  0x2f1dd0fd9df71f1340998b77c4bb9d16ea8117149257b4202691dafdf4f0a6c,
  0x3f288845a33f1a529b4911814f5ed64c3e9b175086a4984b7c4da8cae4e711,
  0x13de193d5b63c59ed1acae788d4eb6e49df7d6ff83fb6ec408b09a7c41814109,
  0x5322e50d4df7ea182ce4392535fa22983fed261d3121aa7642c1c0afd82c0321,
  0x32ee87a79a2a8976213397604eaf62c081ddc0cc4811590dfe93d1a99d1cad84,
  0x2e278c15fe5f31c44694392d9aa99ce991f6024a3bd66c991b0a0598c847c1f5,
  0x13f886c6faca881d02b60c71ae36e7daedf76c0d6d5e0d059e2c80aec2b5e170,
  0x3f87ddefbd61d9ff2bb50b64ff2df81107d57959c4191d04ba2d5be443df9d78,
  0x52454e48d956b2cd1e2c7db79984ce84fbc1f001cad745944898dae39e6d936]

def cB87 : List Nat := [
  0x2621d4c2bf3f7a7abf55be41c9cde778b1ec991ca99098abc0e2862dcb5c0528,
  0x3341993f9f72f19578dc54586141c05809e0c3ec470e3834b31366ddee1438ac,
  0x13a8e878f6871844a9caa2be27d22011c689cb57ab5bcd4ce9177e208f631439,
  0x2302d4f9c619f00f46cbab9141f82b1d1878883e3fd3fe1eb928ea544beef4ec,
  0x3447dfd010049aabc0d9589dfcc85cdf5c835d9a5fc821f70fc60fc99efb243,
  0x3bf4d8c45075ae8b3592f0d50e2123b98c6d2d6536cc8a872c262fb3c860e70a,
  0x2863c992c49e94d617cf22a228e5ea3b1613f5fd5ba267bb220bc3905d6fe862,
  0x624856318e6891997274521ece72f8526869da05cb270de9f6ac4ba68b3b394b,
  0x2a0d629e9b4e2b8a70095e3397f1085859a00dc414e8e1b1bb17b18f1d739e82,
  0x23a0cf2c892da68815c52872ace9f00866b769b73ea7ae4f67b46f0acd202796,
  0x5f384995ba474380765b7cfe3775c90d8aa3c6705b440444603cad02a86a4648,
  0x6d2236e38ed873f65a8c33968dc5880390be378ec6c63d71d75f856ea284e317,
  0x6b7daa78b2973d80596b5f987e76a0ee7b45e96010094db1e5a6977d54853478,
  0x3d900c4c66d2c460f7c3173e3793bcd5c137e8ee5c0ccd3bf0b30602e6a6a708,
  0x3af5217600689935fa0167a410ed0b3e71e2435e70d4358452cd1b84cdc84587,
  0x5eaed34e6603d2a96916170063a2f3fcb4ad81e30b8c298aa9004faab21e53c2]

def cB88 : List Nat := [
  0x677489c997204c1ed8cac48c30aab843b8de32d0e3e60a5186fd6a4f0ceaf95d,
  0x580042102abd869f65b6cca60d066b86dee76af2f0748a9df986761da7210909,
  0x6a1fd9a91879f5fdd7f525a45b25cb2944c5d3617121c5549e935db55c81ccf3,
  0x2c1c0b36fa9fa2722307d1c3cdc99c26bd0a26f4001b02925cb437b95050525e,
  0x27df50ea0384abce9f403a3ae8afa077b5523e41888d94bfee0f841f5f8dc35d,
  0x1dac0ed38fc7b17168761aff6a457f3dffb3325a9a3870d90b70cd04c9ae28d3,
  0x65a11017d3ebe61b812abb487ea6d80b5427274003dbd5280ea46d6f0c140c13,
  0x22912fa3bdaa909b277cc3b59e71f2f20a6ab59716ea1320a9509bb6406795f7,
  0x4bedfe8784dfe9e717b5175bffced8c9470b5770e4e2fc8339aa962813976fad,
  0x59bca241f03b19cb4c5dfefe07e1472518c1cdb59a6f3941caafd17f1c21fa9c,
  0x56130ce5bd34dfddfde9a34d6bca36decd3aa33aba8402ea3e662bec5a7940d6,
  0x6e4eed1cd953e49bf6d8f9a4b86d2aa6a0798f48170f9cd08c03e876b4ea23ae,
  0x522ee265f84634d6ef68d421fe9418b6c4f25f0a105cb424f85d0492f4cce386,
  0x161fc6c9ef5f52110923d865e4d07e15fa076fc9cdebe0b6738a0ceafda1716a,
  0x2caabb3e520be22df7bd0ad78c71695749fa1669c53b8480b9e78acc9cde0355,
  0x28f511fe8a40217f272995b66f1d6db39dc2508d273bf18e9e9c3ea2f9c3888f]

def cB89 : List Nat := [
  0xa23c5b82ebbd4e696e384f729def1acf70820ce357ef42c6c5d4d087a3b209d,
  0x2eeab34d7ec7a854580c4e17a89fdcdf218ca077c9a27e9bd9041664c1fece8e,
  0x2a5f25307b3419d6d1339b5dfe39e4f5fa61efc850fea6e438459df63b33de15,
  0x71e6b920799c57b6189696ea59c29b5027de84525542af553e7dbe9d4ca6e286,
  0x5d7438a740065e6674ea3def82d7457c29c3997dc1864b8a5b5413ac67c08ce2,
  0x50d07ef88574f66dfffee23df5eb810feb84d1b2c9babc08aa7f92e69ee0354e,
  0x731c32134b9ad102ea7eb116f5e92ba2662368ebc7fe55141d0171951795a8f0,
  0x32ad4509eabf59ea29be28dfb68a88ab83536ac3f1560a5cc22b142219c6e275,
  0x5f3bb33102fd3857a9e0b002929c865ca3be7a48547b921213a3b2ea7995f2a0,
  0x18c168a084204985acb160959dbc3d9f9d2128d4bb68fe2847aa251f8cb88040,
  0x6cd77a758735d2cb4f84f4f85d70208c9b6b5b5a0a2ff76c21b8b0283cce1b8e,
  0x2d41558b62ffbc40b982c309f6d5486fa2e050872ca962164e1adb72f555e45e,
  0x67ae0d13fcf950281b323ff1c8b996124b78b8c125a67c744b42970b5fa51b83,
  0x6376faff1a7ed0fea28fdd2aec52d4ccaa9142be279bb43cb6b6d11cc4a55dc6,
  0x2b400e51d68892190daf9790c3c01fe6b0454af44e82c5c74e4089c0959a2fd0,
  0x4c3a1fcf037fbbd8277a6f57535c56b47fb6c824c1f3563a9307e367a2b91b28]

def cB90 : List Nat := [
  0x3b0c6f0fe33e264f5a922a6c86b964600a38f734d826b7c32fba1c204064ad1a,
  0x59b4aa76325220686b548777e509861c153dbf141c9c19f167d9347b4dd74774,
  0x5752e581048237cad5537c598964c1aaa622d0e5c918f29a2db2886b536651c6,
  0x54e920adf5340c11655440c7b66f435c1ba332fb0ca7ea34f099388908eb2a5b,
  0x1ca70712f918f204be8cfda3a05222836bd388fab4ced97d4e8f1076da716c40,
  0x2749a42f06e455b37aff9aa0295911299c4019a34484b39f53e679712c3f71f7,
  0x3b23d2b35af3506165670d1f202f5e4698eea4587c827cfd67989f14c77ea593,
  0x1283d3808f4c8541faa814c8c959e57e413ef44df9671d3e8c02bee42c71f9d0,
  0x57f6b3cc49e546c5dcff3db629afa63f0a06ba8cde78cb17ec804f47c3a70c0a,
  0x421d4428322ce4c88aefb1ea8bbdddf2f74c72ade68bc460c8269a21012008e,
  0x5e2895e3a316f8dfeac6e90806e2afe2f45b251dce836e265e8b79b9d66acc1,
  0x41e2457863597334d6b06a347f5f5f7d53c8e282a9979f4e1a2b4fb558b9bde,
  0x6f5cfb5133c64f7a1cd6907b3d9bdb3918081896fc051e23d069038a845dd37b,
  0x9712e1fd91045395cdc84b2783d592f6cca4e82b26897ffaba18adb8c5e2ebf,
  0xd015332e072cf5e56c361c5ea0b4bd0883bd60c56dccc55aa44301682c20ec7,
  0x33380af1948c3043a94e088d2278b27e2322def76d4b3713f37c78c303062fb2]

def cB91 : List Nat := [
  0x355a581631dc79c1191c00ccee663687a3ce135f0bc3b4fd05814ee2498eae5a,
  0x4aa59d0b4a3a19937e1f550cfa631fe0a92b6afd6b36d76c934598f9dafce663,
  0x23fb76c8f26ec0605a6bfa3ea87093076ce16dd869a04a518d8ed4777152c816,
  0x5caa066b51ee827f145273d6ac9c91a16dc624ed8bbb6a7b92b4329497e2e799,
  0x6f89c32c611fc47df9ad13b6a91c6e5bdc27f229fc85f99430090939eb5fda84,
  0x60b9db1ae79141aa7d09855f749d58d0c0e7d92db965859fa4cde0c1c483152a,
  0x282c1749f46563deb8144ae66e072d52b7a2484f6549cf55e38924ce2c299161,
  0x45cb262c6f5324f0d84e9ab0f0caeee0642400ffae8b3bdcd64362a5d3af2d3b,
  0x15ab08325c752fb4625562c50d8b285442b162a5b8f2b34cd013063a20b15ac1,
  0x7a79f119d2ba9784f0d85be8ed5497818f2b94798aad2bf8c9b268b8c5f417e,
  0x44773aa4d35cb144300fb88bb730408e74120bf504928b6f1c4e386be64c2a5c,
  0x6f44bdb672a3dd14bde30df0a72404d985aba03279be7490dc6befbc959d684f,
  0x20ea3ba07343309d916e57060908226c8512f79cf09b4b06bd840969fbe6244f,
  0x5a9f96cde076aec1b0f18ec0d9f2d72f581ed46b8e4d90ece70b1a9ad19cc727,
  0xecf9c0f321af19d70f43f1f58acc999dec35fe42701fe79cac13a5d6c090f59,
  0x16579d8a784348a9695adc30ff971a67c78d659205f8898f35afe820fd6ab5ac]

def cB92 : List Nat := [
  0xd647126635068d1cb27f0f142af6581ec9cc26718a6ad32b6bcca8e91d1b2a0,
  0x28767e09505d2bac8e6416bdbfdf87585a4f782fa956fb30ee9e410b52248438,
  0x117d3574b21206e9578e0e1771c5b4938f6811d4214ebb31560b72a19297eaba,
  0x4327c44c8bf21ececcaa36f5f418c1d8ee379d69c2195384335de45e077e6e6d,
  0x2a96f2f7a12cf8f6755e5a2bfb951945dcda2eba22a50c7231ca9c9728ca61d0,
  0x3aae507c388ff9cb244432674611f3c4c8d3317b81e25baeaa520e1a96e20d24,
  0x6d0a5b66c41de69f9d7ee7bdf8fb7e0557b0b78924b289fcddfe76877b72ffa1,
  0x9030ac3ee45b57b16e7125f68db2892c63560c317bbf8b08bb4570afe5af9fe,
  0x6621c481e364eec0e75b70a1943acb29980698d6cc709170c2f9fdfe33397d51,
  0x9df8913eaa7aec432aecf404289cb8986bbf1f911072d40b7be3564963dee7a,
  0x33dedb860f47a8fe9be924bdd5d66b7861bbec822c5172f385c9f094650a04de,
  0x24f4fdb227845e3ba25ec6b53b2bd165f14176bca6063034087d6a334f477dbc,
  0x65da7c91e7c199b491706a08f148dd9eb57ce786c98a20c4655e63f6433b1710,
  0x4ff14827190fe62fe6b180e9be852a060ebed9113f3b2cef20e76a4c5b08a963,
  0x2f9cffcd7bb90c67c8f43fba290cf03ab33897568bce83aa8322921d7705d167,
  0x9e29d16ce6cdbd6946bb92183473fc8bdd18c6da0ef0314024eb600e4b2a392]

def cB93 : List Nat := [
  0x42fbd7d19df1c4f88c044e51c96d0db3a00d893cc98f6bf6a5e3ad39f24f2505,
  0x8c3634f94dd83272fdfd1a3ffcefe500717460b3710ad9fd67b04c6e9a6802a,
  0x4c3db0039c9ecf72872710fd496ffd4a7688f15e8f5187b36cb05fda7e823ac5,
  0x587861855e7e22cac5bcf6318deae8c39e723d9c12448f78ba83a0658159f5dd,
  0x1ff7281492a6840520430e1dd262029319dc7be1e35945231a5db3ba9f9e8c26,
  0x117a434c9f17523dc2b9b5a4e9e860ffef4d7c58d4d00c420a217d81991c6b54,
  0x6241dfe9658988695692f4d4734652198d7a1da3d491065af7739ed1f82a2042,
  0x54068da6210f066d8172952e801b976cd6bfc3583bfdb1100dc4e43ffff5e238,
  0x4a25c1a5878a58ced78c7603c7676ebfb2182275bfcdf7a98bbb1dbca97c85d4,
  0x283dae3bc999797a4b01ca28e86dcea2d92541384da9b16610cc21e384a8e9b5,
  0x1cce28f4f0743cbf6f34e6efffd25e8e8961cb523805be2214d346ae222e6aa0,
  0x2c04ba1d6930e1bac3b96e4485b649fd3127c74767146f83ee2cb5632b217ab8,
  0x6c04a59293026db1c971b2e8f1aa71250c7d9eea9f88e310f0f6a3d41f5cbca4,
  0x96bd66692b4e013e27f9ebb16fe7f73b8fcbba016b5df4b6996ad5cbf92a86c,
  0x395419ddc4ba487251d28a79a71d66b44e84ddc3117459c90a08185f1540e18e,
  0x2c042be294dfe65562650e7105e673e76b6bb5b8515966deb4e7810d48343c8a]

def cB94 : List Nat := [
  0xb189c9f0af729c8a6914e16c569955e1fa9808f8bb43ecf7d3c352fe3cfd4ff,
  0x736d5797670ca465c189ae1c18bf983ac8e6ede85c8f0c22f1efae09b0e36244,
  0x72e47fd201b6423a0b6ae96dae458edf5a927a6f154e13bd287d53d1320b0a10,
  0x36b2c428da92fffa50fe50095b1c2535c085b62652e8253598ea8269d9117d60,
  0x503393469463158921c0052d4790097e19eb2ca758de7637e350d2100e35847d,
  0x1bb0f1304242cec0826cc99f3edbecf3935287ed65b53ee1822d712f5858f1ec,
  0x1c9933482eb2639a9b0c42a719779b4490bc1b2c478dc94b3360568df6b84df0,
  0x5204648c7f8a181240d2c6cb55401d5cb6fd287413f94ba9475db71f279b508d,
  0x637248f94f0f1169a8937bfde941f4a2edaedbe03e708c25750fba3d2d2bd75,
  0x3e2d9c9349a2ff3750aec198eb7fb97eef2e8f48937778fb4ceb06580106ecfb,
  0x1e80fb53428b5599c2aa00dbf203596124d96c71418b07b077c0891b6497e298,
  0xd8e41cfc6b441c438a00559c6ec0577945731cdb26c7904f9deea64111652fd,
  0x6b3a71323f1b66442c53ad41ec98cae29f707b3b08600d14ce2fbc763b9cf156,
  0x102bed43421de1a734fddccad944b9a10229d085f289259265556dcc581bd25b,
  0x3df239f63a86417d25988ef2d28e4231cefcf50c7bd1cf6d4991c5e173b536e9,
  0x6eeecf70d97b96cf9afa095d7b9e7b39e92927d2388677e1209163e7db37637]

def cB95 : List Nat := [
  0x18944b16b11b987c0c4865f8147a5ab31be718d43b0cf5052082835ff5467678,
  0x49c12d4364b9275b38eb79acb2ff15e5014912c8c1fc0efb1617cd731a8521c8,
  0x127f03986ff3e33b850f6d86437f22f2fa19fc7f0e8a6c7483209e38d5f3fdf4,
  0x2d46e5511fbf207864623915c5ce6adb635a6392688c722764538b851d9b4e82,
  0x3b63ff66bd47559cf1ed7f75b1ee4ea04d615366316f568efd7ae7a52d38a5bd,
  0x2f58205c9eedf9313b522ae479e532f918cc26783a1bbd84c3f717c4d845193e,
  0x66aacf76f528044b1bee25992e729f85d5bd6b44c72b5942fdb62a966ed7c19b,
  0xbbfd35de8e13e8628a67d7f7c27a673e64ca6ae32426833f172b87a9c91b2a,
  0xd5f29b962482a62f370139b754c23c8c8bae1e5af0bdd56c0809ecffd4b2edf,
  0x51ac20e6db46c4260468bffe504d9ffb4c1fb736ecf11de6dbe20848ca713998,
  0x3d5aa81124ba39db3891f2ade3254cd18a50643133c4e9774978143605ce0a27,
  0x6b76d1268654562af2e66affa04e55f73169fe1d4c2c520b55c72775b6fc9a4f,
  0x2a2a5247a70587aa460edb39e328ec5940c521ce989166822cd6e8171d23d802,
  0x24fd83fe44cc6c6ae60991e29d72f16055bbc46beb00b2b6db9648d21d43f4e2,
  0x275b106a989db12e0d88e13cc5563e37e411dc24f03da7c4c389491343044ca,
  0x612bb2abc4efed1b0b58ed8c345344ff0de0c1d9f6b201f4b437c24dddc3f5be]

def cB96 : List Nat := [
  0x628f2a37d67054b2e70f50294ccaf6eecd4799b8809a3c47778d789c187a8234,
  0x55d2f3855dcb44407282f55261adb702fae2c05eba3b940d981b2b3b608f91bf,
  0x13aa80b1673c854125c9400f59a5094655ac97a69982e429d1ddbc39761a12f6,
  0x6de6032f64932841333579215770e3558dadced41b4f2343fd4193d21d4ae05e,
  0x708ca19b27282b5c50cce65ba25f5f45f33ba81990b59e3ea783d2e3e6f3f7a5,
  0x55384d44f846e304a285769771b987f72a0306a64109dca26422ea5ed29895f0,
  0x6ab9ab64db40f32a30513245743de1d5d26bd5ab7c744b9ffc42138fd04c117f,
  0x4181103a161c52ef952725b0afbbe5693e3c6f484716561ed751aaaad95b4fdc,
  0x4eedb20e69b556da906058b1005246099cca10f06a90fab46e6d8a47f21f975d,
  0x423cb314e3650c62d7861609f893ed4e2b5bfffc509ba2002c3a019e7320468,
  0x7284bdaaf2b9135d1410b7b92f2a19a31fbe09ef2b2232052b88e8c9d9f31d62,
  0x2f034f02625705730298f3d183a8cab34d19cb9b4aa5ddce1c7ee59ade58c761,
  0x1846af34e7108131eb7db537bdc0421f5971c83667fb3758bc9f0370601a825b,
  0x624915fca5fb067359fd6490af744c2ed7e3f9fc31c76fbb46b0b2ee0ed4b839,
  0x77b26ab7381056d8b988e57e2c114226a2daf4efc09acbb078f3d23192d8ddd,
  0x38d25c55a22de52822fc1889b62cf31092dc928e7e617797f1eeb1b27d0ebe1e]

def cB97 : List Nat := [
  0x59c35bd134152f6150812e8e7e330fcb26926c89d399233e215cf8a5a29448d5,
  0x6b691926245a1e60083e1aaa679520106f89dc6051e2e08bbe9675355af62080,
  0xded168a401ce6a5469d0d0bf7c03e9a332ae927d7c2de51609b71c46df439dc,
  0x862f4d8c8def3bbec4db92b7fa1392ec5e2f1f2662b22b6d92aed416133dd1,
  0x6b2c9bbf57013e36c3af8d0f7b485a250ed3431f59415ff7980f7a0d4814fabf,
  0x4090b027bcbed9e1e93f1cbedb7e23dc5123c0c4ad3e6dc95541ce38bd3fca22,
  0x4455973a71e0d23583f93eca1209b38dbef2a297299fa4b55047b88ea09e9f05,
  0x6db8ec852c9bb9117c82885fd12cd0d2b1af52553152233d3c872f6afd03c277,
  0xebad37b918dc57a557703af28afb79fb83e2dc4032497586f85521ecf6c3d71,
  0x4acd5230cd590cb540ea04ece2568e317177104762fc83e66b8baa92a6cd2019,
  0x5a0f5779141389bf7aa38ced500c224ddc37d0dc4b33041357661ae70e65dd98,
  0x35662dd0d2dd4926c5a724052958799388eb748959c1f97e4e0f21498088f706,
  0x3465d867954f58507f9c0e94875f6fbd3b45ab279189c75b617c1b16918b776b,
  0x61d48582fda8c2f319c5a8e59fd3b53b2fbe3c4ce6bd4482f50b825a180b630f,
  0x5633dfb2296a30f8910048450883ca4d8489c3bfeb0fd413a044e9ea4fed79dd,
  0x413a133a18c00ffa78023fff25fd2f310083e4b2a876aa3fdb599edc88ed762e]

def cB98 : List Nat := [
  0x63ba7ead400376b2687803691f49e00324b3b4cf0d8c171d6f000d3464a8f39b,
  0x10c95878ed18192d5881bc01b15088d61bab2259790feb6b9d047a352590e9ec,
  0x6def3ed59edb3df864a58c56adcbea5ae5fc268ca27ae979d0fda4d9e3b43d0a,
  0x32c238f11bfd0a73b8bada1f9cec8b865c81cf5d5740f0a951b44fa3a88a402c,
  0x3fac2e872ed9b75f2cfcfca7b470fed36f9b6b50d6e7931b1fdea5084b19478d,
  0x655092981fa8b4d16f41f2c67936763b731ff2721307a98bf0397c0c34667141,
  0x4aa4f2a339d1181810393d2d347462b98a6cb7b4ccb507c9f0fabad6e17d8511,
  0x7093d7a62e4597bad80aedb5cc54a44172098e7c54a65cf771ad63b4a5f9b330,
  0x2013e8237f3a47aeff9647fbb86cb867c33fc4783ac87944f8a5bd98e5a0f05b,
  0x41b256f3225a10269d92d86e64948e1dfe31afc0f03cc172b53efa23a073d0a3,
  0x396333e7b9df8fec299604b8b20b2ea7eea29240e501347089bc62d7801c538e,
  0x104fd0dff838ec0225567f74b1032530d9d81ece2e9a30769ace65ec0429546,
  0x1c30f53a9d10dc5ed4116f5d44dc9b14230a50b3127c891f19adf7fac4993093,
  0x55069c0a6a156da89afd25245526c04e3475e2128f0bcef2342cfdafbd3a2e3e,
  0x684db914eef7ef781e5a414f40707f72b85d0ff6f700212da6ea43b230a5dfb4,
  0x282c961b2f1d4b56ad0387b580b7c2ac366461c73969928c7ea9642daa85b4e4]

def cB99 : List Nat := [
  0x60e2d84db2f396f9705720b3db0aa9ef5666c8f48f204b972c067cfecb02c376,
  0x4288686274f54f4b2222a01a620d83ecf34c772b8c08c73a23b725fa14cdcb2b,
  0x97ac447dd09ab48136ae8afa5d241a56415c7a871f8e901dbf848a2377838cb,
  0x3ab15b13ac5e64809a4c9270f0ad9050b9c5d6ee2f242810527bd4dde515a8ce,
  0x55f4b0c5519c2344424843b1d36535381042cb035e6a4796031f20e8b8f2fec,
  0x2337be8edf81201c3cd82e4bb2a90883af55a774f89acf6e50d85b23d43cdc54,
  0x4a0d49dfdb69cee665b8825e54c72482c84fcb48c5ef0548c810da61d07fb4ca,
  0x6a5574757638d37de238761e909c541ba71a47f633a1d5662894c8f5c796e7c1,
  0x70e3da76d9b9523452fb9411a4d791c0ccebab38e1acbc82280637821341ce59,
  0xdfe4723968842e73d4794df51b0e4ca3c33f29f95b202d26c12de3d92453c34,
  0x50f98e9c5b56aa12874e6a05d4b13602d8b2f6cfc5a0e4bfdd870575594f8bdc,
  0x2ca88002641a79c3c0d5e0086f3dbba6c9c66b8dda49add8118ec6de8a606244,
  0x22cf3c4847f70144e2be3b3d9f4a8e04b27c969735546514250683a92bdbc2d4,
  0x5ab1dc82946bf7f8387ec030dd421dac8caffed6e6431924096b8306b4bce15,
  0x3dd9cbad24bc7d672013d8dfccb9190af8d919ee4944c71036114195ea8c7f9f,
  0x19d6bbfc0028867da5320afb01d35b78bdad732669b7f3c7b1c675b15eabb2c1]

def cB100 : List Nat := [
  0x6ecb3766aaaab5b754fa32c209a13ca3fef0a141306e8f50818ebf4a011501a0,
  0xc27551c097186c9c6d694e007b2d61dd5002b54d10aa1f609a5198d350ce1e6,
  0x10d2c083138c27ec2dacf432bf5685137b8aa0c00aa94bca55cf4266b527f9,
  0x3cf7f7c1572ac5366c67a71f09dddaeb012fdc76f9508b771996183759205873,
  0x6b2768698762137a4e08a4f978966b4e1ac2552ef103ebccd403a51212b0cb52,
  0x47e46e7caf1f1982fe4f2c90eea2932d9a81634030aff3ffc66eab2350c316b2,
  0x6eb21360fc87330eec99c70eca4e335ad403839737afc021bdca6c03fb712b0f,
  0x60582ad73e65b2ae3b2f2e0868cfd15b5d5c57cb6bde56fd0afbebedfba8bd2e,
  0x5968fccd0ef9203b89dff2300cfc5e56162a85526c85eb08e6d6dfad486371e,
  0x145f612147c2e48168d15167a0cf8cf5ba11624e7438d764e208690fd7243d4a,
  0x23da9d02b61469d967e068bd1289562ace452070850faedbc7c71972705c2eb3,
  0x14647844f24fd5f2a5846a933d34cd997a9705275f4d4bcda1c62dd4809120ee,
  0x23daef32b482e955da96a62ceee89152a934601aa7d144422513bc13a329ea9,
  0x31fafe394f545069fbd2c54f052ac5de8a8c6899d7d6972136cf0a07220cb16b,
  0x5f10a3c92d23aa130fe1195530363aa4c69dec55be5d1ea149bd0fe2ba464b7a,
  0x5e9371fa7f891dab52aaba5ea4cd4d274e552213f9021c8d5c1a84d3b00b1edc]

def cB101 : List Nat := [
  0x54f49c8b5b0f5d67406ab7147cb33525b0c9b18d9bb5806ff6d1b3b3fdd663af,
  0x10f03440ef03a12b324eab202b49efd6d3e70ef80da8b82aa39ab4ed1e58f700,
  0x192854074cea6e008782de636c0496ab341bd8d2345dfa484901e7f5b1baabe4,
  0x4d0ab14ccc4f7d10a71417f63fe372b39007701ad3c72973596f5f55f7855ca8,
  0x4de1dd1d3672e74b8baeed57adccdeb3707a2cc9da6c4105d6ebf6142d3806b,
  0x8d7506dab374e9f2a56d14ca67727f06fe1bf6e5c0c7d634ea5a3d2c382ffae,
  0x26568bb6d41192291aa18529f32c86c6dce4957d78c05fe47cfdd83d5cca2150,
  0x7244926d9b8ebb37c7a9d27b05ce60b8259639d3bedf55648b99d33336a7b39e,
  0x2e191a6bbe292760b63c2368bae47e53ab9fd40569d1e1957734b3f813f63810,
  0x4b894432e202784815a26140376466480cec12193f72e48870825cbc027c86f5,
  0x31aa893b379bec0735016b714a6af3b9b7ad8b16d28a7887ae0b4e364a22266f,
  0x52de8fbb11c04bbb8f2446fca626c0c7532d4fb6283cb099fe9d5ee077bdce50,
  0x2680ddb396641c33436ad752cd964b1ce443e747dc358bd25d1dc9512b36173d,
  0x402a12d83b1d0472f029151523667c32fa2adfe27b66700f348559d9ac71f550,
  0x4ffdd0ab56bc4d8663c1b55bd494b30cabacfab56c735bc2536d139016533ae0,
  0x20f4a7bd1849d878f821cf7e148308af661a7f6184566815e61a1685d1281f7e]

def cB102 : List Nat := [
  0x50f1b433c7f8d8fa013b5145d55814197b91351942c0fd1c5e6e1561a68034ec,
  0x338d794cb44ff8fee5f5b5cd15dd47798b07d657e3e8a5b20d9c2931228a2a41,
  0x39269f2e57a6afcfb3a775cea41b70a1c761d13a15ba154d8ed14cc433f98b20,
  0x2283df95be6bc6350faf00f91478f91a6faf9ece005f2e27228e32b3cb929374,
  0x6e9a668df62910735fe17d7ac375d3880ee67f4872b5fb485f23b7f0b5c6502,
  0x3683c8513f790e5d2a8811edaebafc76f5f67ad08d6c2d2a3ffd53dea5ee8b0,
  0x5fb2a958175ddb53f98b80b847c2af0527326319fd170a03ef9e468b0a409c8d,
  0x45f5db0d07c44e90e2cdeb0f0e37044255d4f6674cb0f31412ee0a1d85386405,
  0x7340d70deb7d6c9a7c82202cf24a76c8fa83088913774c5ab8f19e0c6a88b4b,
  0x56e389ce7e4ef8c5d2084dfcf7e431b6c6d2ea9b51b3677dbfc1f993cf84882f,
  0x1f4b1afac6a38fca94e5e72e76cf64c312f14b8522af6dabb247fe3300fc041e,
  0x6f31ab5f3b00c49a6a8cd98baf9851f9dcbcb76ab2c2a1d7a36045a81f9f0307,
  0x3aea728d5aed4a79895519a3a8f02232d9972402def31908204084e9a481e736,
  0x32104d24dd512e7c88c595a5d258db44795ea454fd2d06103e9d5a455e91526d,
  0x4309a13452462d60e30ff8b9c5bd1fb9e3b16af1098cb4ed45948f48babfc851,
  0x733f7f07ec905167b3191bded15ef99a07d1e2a2f2bbcbc1e00966b6d701aadf]

def cB103 : List Nat := [
  0x502a78e0dc8f5343ce67d5019935a9daa949ab3a2223a5db0401ffdc4a200bbf,
  0x5dfbf86be93e1e0e328ddfb7a3e290e404939bc91e1fc01b52105e10452df8c6,
  0x4b5ee41aa62ae5fc0f098356cdcb2c4b7471790ba46dc668c59c1de6a8112cec,
  0x6f6629b7f381dbb35fd879f8dfc5c6c1586c4bf7a1b4a736282d9eb4735f036,
  0x49dea663965814d64a859708c51a5f053c0b932785dc0c84d9d50b5f49e30b77,
  0x63f75c57fc97bfaf8e020b9fe1f2fde22d1fe983a9c9517c7d8154c717f56e5d,
  0x3e6acfb40962d4874f8f435757078bf1076cd98445c5717ddff9f38c5d8137cb,
  0x3bc41b809fa1b5f96b485d595efc1128dc315f703d3a9b587217680f1bcbc368,
  0x2dd6d3717fabb6543b2889096f8cf4b5e7845be42aaa9eb1ffef56c2e4c4fe09,
  0x3a6e2808f6dc538f1f493630e98bb31c868856f8ee461fc300685b865149aaee,
  0x3520ae753304f819b3d6d9c9f7bf18f1ffaaf717bd826c367e251465e63d9a2f,
  0x6a482f894bfcf65824d6b82b159773172df1d987f048e3dd5439e1b85d81ce40,
  0x54b71053bfd6538e88db921dacbad69fff3b040e2bcdba3e9e867c9a1f22dcb0,
  0x7207ab805924e47a9f5cbdb9664df653409e3ccb2425de72a642aac1c10d02fa,
  0x6580854bb41c7fee5fc30ac9941b5db57de328facc514d233bbf74c090822a18,
  0xa6abaa39e0ca25040cfb52c0ca19c3b95c1d3c38762ef6d07ed41ba938b59dd]

def cB104 : List Nat := [
  0x6e364c7c4cd754567c325e4c974bba53950d0d0db8e9b234a9fcbd6f0fb12e30,
  0x6001109dd6cf2bf5f01a9f5959f93b169d948a6c0a86a4cdf1868a868455c46b,
  0x192d17f86b73206f905ab133b55d87cadee02bb166c0db07b45db9496aebb43d,
  0x67a11af946f803267fb222fd667643998593779dfd0af2d7d5f0fa51a5f5c437,
  0x489d5ac282b6ba8bcb1ec35d21bda0b571531316ae3c78eef3d1f3148c507a06,
  0x4c41cbebc88256d4e83af15edf4a80aa85af19d3d1aa55fe8865cc1a8cc724b5,
  0x4529b74bb5c2f7797626405ab4fa4849b6a0e6a4d1fb23907d064636b220089,
  0x2f3b0ce85ab6d55ed860b0ffe195b513b5fc86446e635582f1dbdc7777bfe9cc,
  0x4c465a4a858df8a6ae65fbc987dc366f36b046bfff6a426c8b75b83ec4ba29c0,
  0x6b8734b00364bb902a7acbd08f6f774a8b3545bdf9e3ec8de15c216d04261909,
  0x51bf91f7af33e555ae4bd55ea98e9da450494fc8952d198ef0ce2c0d6fb3bca2,
  0x152773183c19bb5422e21c04bf6f5731c48e4b1e4d80eca35015c9103c0a6f6a,
  0x4a63378414c6b71e9d3ca0a2e89099a150150c00ee97268672221577e53ebe92,
  0x6532b561aa7e20de5e7da370279c40211b7c013e4079b6c058979e38a34c9b82,
  0x245981dc9dd169bcf1d3e2a5ac2e54e224997ee62132f1149e37e243574ba1e2,
  0xa1a565394acf8a8f6721d0e5d150ac83ba773684ccef79a52be39317d1d9b56]

def cB105 : List Nat := [
  0x6f74420d899b04616e1b44e5aa2d0906195d89738939a7499bd95d7b9c9b40a,
  0x3d57b016521569e8b5fed7d999f73823374d07b41a1c9f5aec4353f7bc15bd6,
  0x42eebcd8e338684ede9adf6dc6432da1830f10c197693ae7e014a67da4db59b6,
  0x681092fad92ca83be54e63482854c54bd47f05d59729104f7eb34f1d78702353,
  0x2a302b1ea420ca60e4ac78edb6f23937da6df1009820c5d0a682c449c13e72a,
  0x43a57ea0cbb129fef17d3f12554f1ddfb9b63e2a3dda9d6fefcb648a5fc0f3c3,
  0x6cb9076d1ae192ba29692f0a2bc7bcd5cfbc0ca65bbe0211432dae4d3563fc8a,
  0x6078a3b01a3f792e5146172d2d4426ade37ba491b79439dd9288cba325b261b,
  0x112b814066a9e8c25933731582ded83344b92d893406cce3a2a9138e7d3489a3,
  0x48d3439f9f0c9960fc1b8a4a0bdf6799837b79f98701cc88c59eb5ab47d8b91,
  0x53874b2d3c4886ea51ee3e9f32122f019d4b176c515dadef3c31eb10d94032d6,
  0x6dbeca635f6c7eb18f8eb96555c19bab40e645d43d4e1532695751a15ac3ec9f,
  0xbcceb832c72917531aaffd667ffc36f157eb9932bb4919137869c2938b41888,
  0x699160312849edd2b496b2ed735ad147ebe4281f510e5bf2431152ecbb6c0a67,
  0xc4d1f7aa04000dc157673c5140b55996de7028271aaef6285c1839336eadd17,
  0x1de86ec843b1f4196161416bf7a8df130a6f3dcd3844ca3d34163c4fea10598b]

def cB106 : List Nat := [
  0x58b81d89770cf2b30a9b2c6fcf3f124be91d29870117247a60699609a5d44ef3,
  0x4528f2e82de5db6a4992d821afb96f040956067030d39b92c2c9d534f888d3fc,
  0x10997a42df7f0d32333cd4ea3213416d98b070e41830929a4805963ea3f71ac,
  0x52bfa597fc560c70e41f8a49637c2bede37b927e695a05528a8ec7a4564c2e10,
  0x5e79d8d34af4e733fb1883429dd168168a6b18656a4515eee57d805f08a5c506,
  0xfafa8861bfc0ec8da55796d88498d7ff6dedab239338971d994ada19f401d8d,
  0x1d1260c746f28221b843f27e1c0ad8edc50029ad774490248a3d36d508271204,
  0x603e50aa42a19a62abef689f08aebba944451d509d275fa17a114786dc5d753c,
  0xea86ebf9385d786e72b1e24a78e6c7bc5918669f332a4d8c0877a5544f8cb96,
  0x228b1497d26d2256c24e4fcdd403b67318469ba71add1ba12326ea5cdb14746,
  0x3b08fb9e9058eb01321eee1d5cbe3304015ac238440297dfe8afb8f4d22b448a,
  0x3e3fdfd4f4929e37992a7d001c2ca4e9b97774ac02f6e676f8b07f804d21eb21,
  0x4e9a0d4a155fef617c723751fd75b0e881dbf91672e058f8821b6a5ca1fa2744,
  0x36c6bd567875c8d05e46abac1c18b7bf876810ba6d6360a71eee4ed9df88dedd,
  0xdc5b1ed4f57a9e523fc98a5892048f19f306936f88742a8740094b4050eb07e,
  0x4447e6a2247f18e9795b83cb9b2a37184b7582e8614545bc9c35897f10124bd2]

def cB107 : List Nat := [
  0x3cb87811560b8854d7c25a79cba310abf7a7b09ea3d01212b52b2485e8ce3160,
  0x425d552926868dad5e6961782a4ba7c558e4986824d2676f2c8129a8b2b2ffda,
  0x68d86bb35b551103ddc423486a4e711b8c62628b69995494ae2aa7b85c277d1c,
  0x5717884dda3d4b23242ec6d53451ce5a75a803a8e5a6b2885ad3f0faa93ba2e,
  0x2bb8be90a0d8a6f261c160aa4e8470b857b00159bf964e27adfc9577ba83c49c,
  0x12d0c229507c49a68539b3d0e21661f680ac02874bee65a379f51a87294d3c14,
  0x6c6baf28a44373ac547a51d69d6bfc98a4c3b077aeeb0f06ddbbdf84abb2ac48,
  0xa2be3747a964a26d5dab15938b36eb8c5c518b816ece37c1c367077b9527588,
  0x3f2626f43512bac17076ed0548909ecc5d8f121738479550eb1c1588631afe2e,
  0x26dca14915d31eaa48b324c1eca8d061c58d32f7dbed1cd14745ef7afad06503,
  0x4cc03310f220ec712c29895728306ababef9859a13cbfb643ee1f84aa8ced333,
  0x4886ae3345209bbe9561b3b2017cf15f6d8e1dbc3bda4c919584033db16b1f1b,
  0x1e7f8ad5bc77481b38496fabc72e75ef4dcd89070d42630b882bbb76441ec2ff,
  0x2c920f1e76880653a1150dda1696e09b7941231f72bee833275be76a974a24ca,
  0x21760679919dfeddd62d61d1f5d9d69633f643b55766a2f8c61fe4a332fd696d,
  0x29147b163de2cc32e6075bcb95d4e0cd5a869c3aa59c8948016be45694f6b10c]

def cB108 : List Nat := [
  0x3ee13e16d3d2f9c05c12085d8e239a5ca09bb3db8365062cd33929fd14802e71,
  0x233799b3b698e85919fda4d8048ec92d75e2d4f5e0c124fa2ee90eded8ed2096,
  0x138449d34d40ee3c5055e4372623430ec2626a04c20a009e9a6133d223cc6f2,
  0x379ce0cf8a9d526745d251b533bffb78872ec3502f4fcd4c321428da2aa9dc4,
  0x4d0632005e7d4fb003b9bbab07f2620911ad5072fc7abae57a3012251fcbe35d,
  0x730b1a60b2ebb4e8fe4a27fb0f730ee5663e6379174d31085d5995dacc2b1fb,
  0x1150b9526c81919c3fc70bab6acead9dd92af7df45ef183a22e9311c43635165,
  0x59d545d0c740655e0a154f833bf74c2cb31e6ce251fabdb94f48a6cd76f78d0f,
  0x6a142dcf6c5cc58d49f4f04784f91df0b495c39ff29f943f6ba493facbfd98ae,
  0x2c43d10c64bab97ba463c6a27f75c32ec526c9a0b2da6b3ecd8500dd0972815d,
  0x2ecfa9541c8695cf046b555f0ce0d00c0d2bccc8721ecf04e6e7614972073035,
  0x4ea5d1ad8c368fb9be31ff34f8fd16ca739b0e92db59de4be4d97df5ac7432b1,
  0x72c388d920bca24c919f9d3d8f10b0f639f643add61872a0b3c4b1f37e84cf6c,
  0x714fa85456ae106738c1cf74ab08f8b46f93b8e78daa6b72d545ad493f1b7eb7,
  0x69fc7186df611d0d39296205b02962489c373654fa153f0ed944ae1fb745f65f,
  0x27098c8a8fdc6e7ce4f3b05c98d2571f033afd50cdcbf9156d1890bafeddb8b8]

def cB109 : List Nat := [
  0x36a8af75ea966be5c2fa4ca3793cb6682d39fbe41fa40301ef8c1c9f84d58c27,
  0x4b1cdf2e2191a653562c6546549c552156261c984748d7f9534945adbdc1dea8,
  0x272b09efb67467dd3e44a5394ff0005ea53f370cd4520e15f131f5f96c1d0c58,
  0x122076a05284e6e9adf1613b23b004c898b2e974304bf652eea747eab300055c,
  0x6921615b3febee5a680bd3a366b03f4cfe9be8fd2b6e6c410633df01d4db557,
  0x540105c612954aa5341fd0be2a02dbad878d66b8461dab7d4c24755301fc9c9d,
  0x6de302a115418c0f6fdd96b0560ebed5afcdf880c08d796178dd01322a819819,
  0x715c77c13e8f9b63427f9e893c04e8361d336007f9eac395dd552dae80ee4fb6,
  0x4a622e8c3b6b7c5ab1b5cf7492d2da222e3540aea5845582c97c9ebd753cbae4,
  0x5872a3ea51c66f6674ad9f8dcd24882aea76c2a9ccba1079624df480415601b,
  0x331feee247c41f4f8a4579958b52d9f223947440c1039ed26c91bed6cd203d60,
  0x27c1a9bcfbbd1768ac133524223bde88eb587678d5290fdd2d33e4af0ce3542d,
  0x3e53305e6108c83aed680231fa5766028fb993f60649e7d2ed03767a47a9067b,
  0x567d40d9b097735ee40dce900326e127ba8461b073b3b95403d5e3fc4dd5ca9d,
  0x5d0968b40692b2f15da3756d16fa3df77e4e63c455cccc1f1d843a26e871ac9f,
  0x388d723f3ffa1b57b1ec41fabdaf071e93aefba0cad4b4064d2f65cdd8ea55e9]

def cB110 : List Nat := [
  0x152cf02fe82c66c586aceba6ae8a30e3e3f58f7722687043a87a07a4809265e,
  0x216cff34b666613f18d5e28df9e700ce93e7be2c143bd68b3520e05f5a454e2d,
  0x2d1ce05f2c3d6560222888d56043d2c0640cfb6f2573f73377fd015c818c0597,
  0x208894b916a64384d5950419d2acf00a207ac1edc75ed51142930f8014f65188,
  0x1f884efca607da799c2582e0dd6170dc596e46399e490e7b5101459d848342c,
  0x3a76a71cca006cdee71c95648cf3d154fcab3530333a4a268508bd25d04b83de,
  0x26bda8532bd344c78cc352d2bc050143212423bbc3295900b7a121091e895d52,
  0x518dea6e3382601cff851168540398cb8340ba402fe34402c2252ca84fa73d53,
  0x4d52303da69fd4523b12a03781c96dbe7876ef264d93b43619400ea94fe2e35f,
  0x65568ea0ec4fbb9d854005c8d28801a9a1272ab06501e8598f25dca075e004ff,
  0x570d2c8a3d3bca8f2c2d32411fdb541034f52d9897d457720d1d4c83a5b8cdf1,
  0x2c3690f6b52ef422c472481c392c1e34add0aff2b3453de611a6d60e92b5e716,
  0x553f2409eaa3ff78e1a3b0740021c435244d3ab689434af2d67beafd91ba5cbb,
  0x2dff911bd94d321791a4baf1ce53ac0a6073f8d123803428b16abd1bc6482a18,
  0x4971fb86890e3e6bf3a0de44f7cb116c4c7cb6c0c7aafa077422323d3199b370,
  0xa998c09d2cf8989a246973861330404cc96a2d3c8d0bc8d8e3f0e0d542d4f93]

def cB111 : List Nat := [
  0x59d0941c4058fd031a5003a2c6beab6ac968bca1836d33aecbe8758d22db1eaf,
  0x5bbae75a861e1b1ce624b3db4a970997e9a0b94d300356c80ad006b14142a139,
  0x6ba4c848f03b4b68143e4f91d1015a8a5c2cabf8415d892b229656a7f39aebcd,
  0x2b07cdde6153180d4c1a9299be038ec1090bd586ac8c0533eeda57cbcd7e16ba,
  0x5c68a545c528646072a64c0931cd333e65f2f132c6db6bf791b42af0fe4b8059,
  0x5d0412c620f66f80e4d2a7cf13a2da7b72da3c6cdf53d2909490109c25d05c5b,
  0x5bf246ced75ec80f2e3530cd36e9a75cb0814e8808d673c2de2524b2e360be91,
  0x19a1515ba4c3febff9d99b1fa129b59f907c075525219a5b06f54daf8f9ca168,
  0x2f5bbe280d219847477a9c6fc29af3d125d6e02e3d44669dd2fb6edf218186f7,
  0xb282180fd521c6228151ebad488b6c34e419876424d49ee9b79a5ba88089b13,
  0x151f59642319d64d7b42b4a6cdad144debf78773423a26ebcb9306033676523e,
  0x711b2ee04be31e0da8527b560f8504b4f173bbba6f56d8fb0e6684b8ab15388,
  0x2b85b9cb16d68a6a8d750275705be650b2ac1ba490c5d666cd3a9e343498d734,
  0x60848e40f40f3d5728a79b8033f66d2866fbd6b54e3da6441db99444cdc5acde,
  0x1dedb01e16c4aa9dc669a994b032c06fd0902a30197c0856462523811902118a,
  0x49fe7c524c176c38c7a73756ef823bd61ec932d3cfc014edfc9b1035201d4988]

def cB112 : List Nat := [
  0x48c6611cda55eb70446bfa40cdc3965279b39946359929ac9234b7782e39601b,
  0x203a3962c5ba48d9031c6b117393fe333f25f6efcf09aec371524f81501dfbdc,
  0x66e2b8ae890e93cdfd99da5d3c8590233b88276a84b9739456d7e3b10d4572df,
  0x8c25c1591fc42482f27549494d37e3b462132f3944fdf2f00c074ed4570594b,
  0x22a7cf0149cf1f3a6c8321a974ed8d25b5b11fb71af99971c9fffd851ce5c96e,
  0x6de094aeb5ef88baa50931ad06f0a3ba1fdaf759f364a23be935498bf0990cd1,
  0x7b4ba5b6bd2382293dcd73e30e946cd4944a173654457bf4abb70e9f8d59c0b,
  0x25970c6e50c3e4a42d8527f64d4226aa07cd961783e7cf77093ec8372861f299,
  0x346e64aff91961fc2f3b7cac7a3eb88648939b276689338e7a21f319cb75d897,
  0x417c525aca507dc650884f53b0b13a89cba2cc0d80fc7efc09558e428c741d61,
  0xfa4b2b61aa7ccb0547dbcd3129756ce10994697ddfffe2f538be3bcbe65a432,
  0x2dc53a6d5ea7996a9c3ed142686b03bae7392272451a6613b162004fd2bff64,
  0x6f78815d574a53685da0bf3bbf5ed5305de4b4323f51dabc32eeed1397eda7aa,
  0x714d4cc37210db85757e26b27a5bed30da8d8b519e3f77b4a0bcbe2c2ed8002,
  0x22f365d261a3ae7bc9276bdc8f9fa1217ecb539b1436d02d7153c7feee6ec06a,
  0x28b04542da79873fd42a9ff233dd4728b428cae8ff475cba904343823a531ce0]

def cB113 : List Nat := [
  0x4166af56d7083396b3f0040344924439db0634ccde4c088158de77f80ba3e0fb,
  0x124f7bcc90c334379161f30ce724a807b62384b95835872391d44e13adf3e4f2,
  0x9d94c237d78a6d55c6cb586652d134d82207a658dd8711fc5bfe2708d8fdd39,
  0x1267d6a1657ee07209e9c762f17a4aca1ec7127bffe08db5476e4353ab8d3601,
  0x6eef9625c200e1eee55b9633a49774939cdc2cadc2a45bdcfa12d3cba3b76782,
  0x1a842d43ae06d168f4f42be5a6cf94fb51bd85404f5d09cacb1644105a5eb532,
  0x529fbbe6ec6a971dd5723624fba77702e2d042951bd3d7a797001488acc5e0fa,
  0x6ffab1a99c4a76312c5a7bc8b2ae00cd98e1d096032d3f8aa071b1c0924dfb88,
  0x46ad1d9b07270203a7abb8b8a81be640c8e78ed31c5d4de90a0dd3552e318d,
  0x3118754e24b51206db87507db0197cad271277b66b9fef3c614ae5fe53ac67c2,
  0x38b46d9b36d01b4389370dae75ea8044a00dc15369e892f4fa17ffb780ee7341,
  0x4141193e1f491f7f743755960468dcc5a968ef3e23b5ea5c2f93580fe91c4723,
  0x12f4bb70cf8df69c1dddabcc4dfdd44c6a421dca40d584514680606bc0242f0e,
  0x48b0de7831e1f6c2dcb3b0370abd583aab7f1b73488e36f537d1782a1530cd9c,
  0x6595ea3a56a7cc9f5bc7b8bb740dc839706d2b4ece003209b4d0f3bb9272dfe4,
  0x1c51bff93e020d811bf6adadf3f84a9065a8cf2da22243be3f8f0cf1ec316fc8]

def cB114 : List Nat := [
  0xabc4c37e5b70f15e0e59e35650f3f96fa432464ea6e6c4e4f9531380ccc44b3,
  0x1fd1a0cdf7021581bf60c0b57496f21e180d603bd6326ecbac83484856dfac,
  0x55ddda44573952126c483cce1fbbed5abd5ed67de6655f9e01fdd2d1d626709,
  0x15e336aa692e75c2ad01b47cb98b653059a25a9374f102b2c856c2eb9397c557,
  0x157feea3835e0a6616986fe44d9457605a40ba928f68283a3fac6c73120d5a88,
  0x150f174c8fa304b968cd8f8b27e22f72375e6059023cf0e181f8369501e4a4e8,
  0x6e387ffebadc410299bb792a033b213e29b986905fa742e726f7b0b2633560db,
  0xf023394e3891948a630b948cf51bca200c4b7781e39ed6f41f118520b26a5d5,
  0x94b56b74c19df50d948e18ed21d8611bad3ce8523eba8317465fc3dff2a77a3,
  0x440b7e111b22461621155074b45f2057ed0e51b424af1309c88b59c2dae45f92,
  0x6b875e9c099fa45391c2e9bc90fa3c14832fbad38a289c4084bbc3964f1d3ecf,
  0x1f7a06845704caeb78d66fcae91daf27b3fe0a905e4294a7ae6fa7c9c7b44d6,
  0xf52676b2d32e12dc9fd2db49e7fb11e69641952249bcf92b12f27364603e0a4,
  0x235c527b24a26c058ca86621cd2dec3a491809308b4615ecdb398e14f9b0c453,
  0x6bee3280ca90c72d71be97c7eed98147dd27587c1838afd0223f6ce70fd010f5,
  0x951289cc1f735f7d85a1faf7a209067084b70ced8d212249ce280f8f5d5f0cf]

def cB115 : List Nat := [
  0x7091fcd35cfefa75b61284d8e2f80698a6dadab31663b03a8683d061255714b8,
  0x13aacffe71f48e273dada1c95d03ce5f3dc01600d4eea28af29ba2fca1930e83,
  0x256a0207e49db3a1d20e95c09076dcfe14f6a879af839727f4ee96d27aacf557,
  0x543cc6296c3d9e4727193a9cf303a20690639b43372deadc86efb50ca3dabacb,
  0x67d63598516ce8210c3b86ad69eb02f88346156a5a264ccd2ad291415b82a3ed,
  0x1381a302f39e92eaede414aeea54c7ec944260b519cbaca99e4daca9e1c44f8c,
  0x3d559d5ef884704a70b8d5374583ceee5e58006a77dd879c2c23131d83716f9,
  0x6afa57cf354459c03766741009c4165a69ef40bc1824212f441614e770c5d41f,
  0x9411fdab9e2281cd84894acd16fa98755764090c968725467c63d9e30c29af7,
  0x47c5e90dbcec6f00126563e7f853529b81ba2cb67a0d14146507feeca0d3158f,
  0x1dbf450e644eb92deca0fe74a0463f86fdacc76c3c985ebe0b622ab82a0c02d8,
  0x719fa67d29876ebbb07450584c952fbe6dc49f6ec423c68be9dc86ab19bf2945,
  0xa81135a957e7cce564ba4c3bb9966960b18ae51591e53e53bc78c39655ed3,
  0x3885ff6a32a8e6d4f600eeb9198ab0177bbecc6691deb43d9fe19f093878ae20,
  0x60372f91562cbf0cc927db7713fd7c90d56be0870b347cea03f3d1c61707766b,
  0x2a967a954ad586f47040f815d0dac6e23c20407a53e132b6bb0fbd2175e679ba]

def cB116 : List Nat := [
  0x2b112b22a9d535e8ce62381b050aa2c46c6da3f32457cd513cb1029c02a6bf0a,
  0x10c69df4c038e5a10385f394754bc2ee64c7a3df6972a27fd5a9d52e1ded75a,
  0x14e914131256e19b4ead11d49a2df5d1459f211c1ff1d3ae362cc1faa2cc8fed,
  0x4e3127b98c228dbd19946dee3752e1a2ab23a08d631555246eaf2bf62abb9c18,
  0x1913768fe3cdbce0903767f67bade88aa74ac928513e8ffaa6631df3779b289b,
  0x1a4bb1344cd75d7cfd71e11f6ddcf028598b381f881b7e14f5ee97d6222b02e5,
  0x31900bd1b587adedbad7b55fc466aac77a11ba1cf83f29e7d77537bd328fde4b,
  0x38e4df1c2790ede748046a1a39c5bdf8852368574176fa930f2636dcb7ba67ee,
  0x57857f28f52546b4c4b5b7374f9d45a3c8bbc104d5781c118acab7cc4e044864,
  0x3b57ea268148548064aaed48decfa5a3d172cd9c5f91410a87d23087a2ef5d77,
  0x5561d02b0fb5c00d4cf40d9f3ca4e3a93a2ecb3f6056f74780dd650a970721c5,
  0x48f2d6f7eb22cf4918c4fac92321bf9dd39830d51d4e502cf692c9d0a6089250,
  0xc7759473bed5a4ca000ac1033e783ef22ddfc0588c3088c29a035294607e0ae,
  0x2c74f874a7ebdfb518b9aba7d3e3ae98fd166ba6b6f916cd9c6f17be5a2c40e7,
  0x597514b2a32ab76440d7dca9c6323bdf94b5969c0e8f250fadce324342b93f6b,
  0x5bc23b5e2a3f5455949fb207d21027660b879f1ceb10609c3e939ad1096df56e]

def cB117 : List Nat := [
  0x6049f817e3484fa0bf5ad57194345b6bc7bc335409df47e73df34a7cfe8e23fd,
  0x3c970287837d9e232620b989bbb5589fc5ec703376f47a29f0d93059401ca9a,
  0x337e76240d344c10c2a38ecb4de47116e36824d85797d60e1cec3b838b00eea7,
  0x50bf7cd6539ac185b1ea725d7c089aaa805b2bc08df57b19de293428e3ceb0bb,
  0x45eba84d180e19ba23532302003749279304e0e3ea71b97d8d8c5dc7e831dbaa,
  0x295546698fc451467e983c53806417ed98d783ebb5eb52f80f8554e6c3484f57,
  0x56771b61a34aa200897d15a55450977f8e7f528ad77162045b7f6f075ca83ea4,
  0x3bd1c5cd4e769346f9a954a7efc7296e26dc6f70b884eb2d974b675314320de5,
  0x210637ab5b1d7afeb36193f4ad1090a59610486947a1eb566f1a565bfb111cb1,
  0x4336c73be506db1710cab9087ebf63182c3c5b161d6fd23e849b9d8f78b4b4a7,
  0x115f054baffd47bc4d465e00b4a4adacc8e24048dc9cf075a77313a71b3b2406,
  0x1d6bc88f4ff69fd40b9d5921366f7a07e1669d790abb08a75dda6986c7dc56b1,
  0x579f23e27231b5a6aebef15f8d18a065d0375214a96303c1a90fb7359ea03fd1,
  0x3aef8e629d1106aca784ef0959053d621730cbaf95ef25660bedf52bc590463b,
  0x45824397c08a5766bcec0edd3efcbbeb17a44c5f7c72347875393285cec00d1b,
  0x54f45ab8dd18c4f47c94c7bf2a1bef5f72ad5a4b332a05dc37bb36c517e9960c]

def cB118 : List Nat := [
  0x30b3924864c676fa8170932640dccfb86fb49b948286c27bf43849cb0fb788e6,
  0x20e0f0b48c29485462b9470924e0ef8328aec1cead5321893ef1e7ba2939b03a,
  0x2320ca15a3dda49d51b5977a746ef413929d99de4700ecc0950edea666045dbf,
  0x57f86914182fc6b78cb6e6fb284f3e6c21f145047792d919032b02888a4c44a4,
  0x307d7c08a1e672aba02d182bb6e9a2a71d9bb978efb271a2ac100f012a8e960e,
  0x353e27122513ac62a06fe888ba221bb1e61d404cf8b7f4cfd5bd4683c87ddafd,
  0x628aee180ca73c891c32270014a571303a683d1fe1cc7a9ceacca79943aff962,
  0x66e1bbf401707de78d048647c343c0fb08127d5a909873457947c41d7834fcb5,
  0x2d2a158dfc65484651852fb625a46424d275d40ad321d47ee97a24248796f163,
  0x24ceda8dc5ca74087e38e57e66d53f19452f407dcdeb5a91f8265a2f16c3ebe8,
  0x36f7de28071018a2cde899e433fd725e244c62980686c6950520879876747812,
  0x1fa1181315d3a7768fa1b9146df0d8be09f94a28cfe0338458176c04c41cf661,
  0x487f38b5fecf2a38f229176c39e0c095599ae495bd52157c849585f8c5d9e24f,
  0x5ffb4ab57fb69e517a44a18a5583c10dec7ca5a85759ccebf61f4da4c09a2a10,
  0x722363f7446acd38ae9d4f73755748a6b6eefbd4146594d9f7bd03e1f7103cb9,
  0x23a66ebf1c4d9266442e34d3206797c4200d1f902920a9750fc70cd4e7c10f8e]

def cB119 : List Nat := [
  0x10f5964d491a83fcc15f614ae8c10a0b21738e289c8b8d7532304d86409d543,
  0x31a069cbcc2f4d70734d5b7605cd67cc265100242ee850e5aaaf13f2edbe726d,
  0x2bc7d25425c9e7424165737ad933c197f2e76f757cc890c47b13133e8ce55e8c,
  0x60e8ea79a542d118b654d3f42cf2f0cbf0ed1f6e0638ad66ea7754c6ce74b14b,
  0x587975a7c4871601d7ec8cc6a7a114ccb822e7aaf833104cbf4c8500a3d2a7e6,
  0x49661d52d1e88df94625a87cd50c0d59a50d08d8e5047f45ff1ccdabec1799cb,
  0x2deb9de752135e49c6329ea773a96a51b181857921e12b449f4b9f48b9060371,
  0x418af3d9909b46323f244b0dbfde9712a67c9953bca07046b25c04ab752aeed9,
  0x3f6db25618d0f754a579afec7ddcf818b9d87543028f74a67118c8ac0ea61871,
  0x5d729c84cb125550fe1cb74dc7ee6d47bc16310fd603e7bc4f340148566334b2,
  0x3e59890245d3890b252df840f95805c3f39c6e1fa842701fbf870cc4c9174dd3,
  0x37b6526215d9aafdf8325311d1a318738ec9dc29639b4d01bf09eb771cddf880,
  0x1ce8f50aa4bca637e03dd59482353cadd68dbe0bac76a30f170043eed732b251,
  0x3ede325ce66ab386693522df4a1a1444446ef363124a5a0952e252b8a4231887,
  0x108b9bae7971b984357f7754b2c51a8ee6008a32bdac8cb265eb6376310a3bd8,
  0x5e1cfab120e878db9d2d7335c5dffb2fa6517a282a3376a4551e61133042e8fd]

def cB120 : List Nat := [
  0xb8fcb1f5ba954a48f14ab07995b917b6ecc4033506e88be4fb519151c6182a9,
  0xcab464f400be03177ce2b30ae36a2a0e3840febb9e5c1ab7c7e760e50c378d8,
  0x5281bce59209b87bb6c8288d4175aa1a8df0053d442b3fbba5d3a09ec430616e,
  0x9a301a04911962b7f4ccd507e6f05b88be26cdf156be8543f82cabc4ba930a9,
  0x265bceb282434ad551e9e465a1cf0a1e48ac62666bdb692535499cd700e42628,
  0x4ae0116c52b898a442ed9a83fc27b6a50351e295d1bec4945862ba88e49201cb,
  0x3d42353f5ee52a860b6c555c60900b8761b45dc3745c7f638b9485601c251d01,
  0x3b7a340fd75fbf9c94a917d918acc2448f4cd7db368ddfccaea7abd07d0eb645,
  0x44dcb0076ab89e8948c9f6dde4364beb0fa0b170b6ec9f61dacdfa90421cb6a3,
  0x29a5845f497c52b087b7bbdef2fd80642cb13ec8042959dfe5193632589c06cf,
  0x4bd13adfc5db1cb2831a8a17a3566140115b28da2a5cc925b72186c8af772ae2,
  0x4f921ac51bafc22d674379284c8c9199e022f7c14d57656b1e177489825efa93,
  0x6fedbdb309970e94b0433f962ec43ed16c51b95cd1a6b918034b67d7fd932561,
  0x34c40a4ba51ef5a225247722678ae27a5e399e71f1bc04966105574a441d355f,
  0x6fd81fa7e8316bf7043a2ad1bcdedb6c174d34ad6e1c648561ec7fc630360a9,
  0x50c523699033f64f3bd61f83e0e6ebb896caf70709eca731ce3adbc1fdbd981b]

def cB121 : List Nat := [
  0x28d2adf5d21884ebe75f948eb4ac1557e6435ac9060ea90f82d0606b843ce1eb,
  0x2f5855eac869c97f2f412ca8589f2d4e795e7717d0f92e2b1e204b12d09b27dc,
  0x3b523c225b82e26d9e2f9dfe1c40d2639c4414759fbcfac053a707c38a562c37,
  0x4a62a001c6de40b49e4887e68ebd3a7c3105fdc9fdc59aea7ef7b46d2be4f77b,
  0x3e6411ae6d717bfc84b83c50f1c35b82dc344015e345e2d46d65e666ae81e89b,
  0xbfd0aca8a6538f0bf0bf83c95383d809ed2b7d7d15ed732d448e1c59bffe85f,
  0x42206039a724c861d46dfc5347533e2754f1b790241dc263968989bf6eaea23c,
  0x2ac392696eaf99b30c69d6dab32c4dedc863404dcd179043c4d03cf669d96434,
  0x28a16878cc079ff0b090d75cb19db4883ad4018cdbee6e5964660e0de057a205,
  0x4e14e1fae6669f09d523217ad378ee98e4ad050f808bc2dbb81f2f9a4b6b13e1,
  0x3d6a8ae73e4beb827794f5ca22700ea0913fce8a9093b56a2a950b392226bd9c,
  0x1e7d41b77851d59515e4d7496a57cc173444a889f08da24f481207c2f7448b3f,
  0x2c740abc2df7659905689c45f4c08a9a49cbf8886c4377bb9464a980ffd122aa,
  0x1787042203cdf5f16b29fc49b683d4d8acb4619a867465c3931436315f70e9ec,
  0x50b3aa2c67a40ed05b44a4f5491e22e3fae613b3e5404a4c87b21b4d7cee9f21,
  0x2a3c258fb3c9f5a734a511e814afd26d616bd4ef185229a18667b1b4eaf12f4e]

def cB122 : List Nat := [
  0x2251d7f87e88c47b6b0c778221cafd29d1d0728f7bd2d336eee61765a1dad0e1,
  0x6012fd59ec10a53705023a778f8f85a07e49234b7f6d57864775523230cba11e,
  0x1f112c176252cefcde0923151cc7e008e3de312a7e8a5831ce6b26d7adf6805e,
  0x35b09bdff2f5bd51fe322fd57f259842fceb1666619c97152421d7d5622b0d81,
  0x31545a9af2353dacde248eae07c3213cf567e5f4a386bafca19a1aaa27001b46,
  0x35c26051961339b8fb9230e88aae1a43ffca80bcb32c89b6c61672baaba8939b,
  0x4f07866ffbb5de7b9d14db4e27babfcdb3ff5535221c5c62043df06966fc21b6,
  0x418c0a59dbc8b490ccdf224abcd7fbc9eb71bf02163ecc03e0fd2fd3c4cd52c9,
  0x29bd248eed61ccfbe705baeab9c18b9ef1e49551cae88041146b8aa1e164e184,
  0x22567be6b3e493dcec5010cbee593705f6445912736a34e5bd0a59fdbfc2aaed,
  0x5240334005c90a5f71a09aef5783c77117688614c81d281ec0e213c0fad3e6de,
  0x2c9b08ddea66d631b0809758756025820518327b2de4e196fdb8ecb54f4f0031,
  0x6836503898f5efab98b0664e4c23ffcf7a91dcba26e7e7186fff7ba3a7a2c325,
  0x641399f1a01c44afe2e21fdd6dcd9ce4e9e94d9cccb9f6e98861efb90e2ef7b4,
  0x7d320c00495144726ee1610d90453b6d229a584ad6e125025360643b05001ff,
  0x196b95befaf1fcfb3186a601b1e180185dd1c2abf0845ca79d54aba6f3d4d8a]

def cB123 : List Nat := [
  0x104250606f8c0ee0532a6ceafc5eb324f3b342105ff787f32d23cb8cb3cb9f21,
  0xc78f497f5eecf648f2aff0ec3576f41a800c230123d2318b1a55123eab40f6f,
  0x92fc0d68ff2a31f664416e166e93b04976558d8f676d6df24a3b9ca8c8e3b67,
  0x323480b62b7b861c7fbf2ea645d324aec003804be5b3d0c4ef21393b08fb0ff8,
  0x387410aca9c759982ff681a492c62fe80617d74e53c907483c39f8250803a92,
  0x1909eb9baf717191079f0c9930b2372439d0ad8f5cb548902332777f1f35956c,
  0x5a9288396745cad0eea473c8df6cb62382361538391391024783b660a5b8aba9,
  0x6301bbc665408f672f863152ce8a4ec68fa04b5bd494a08a0ba6b1465a3f156d,
  0x17b78940aeccd10048485a0c604c12154e5123c0a4ada15604fb6b2d345e48,
  0x2af1ed7f18ac3be235c32dd4379c5c876eaff3429e1fd5d8effd368de734bc55,
  0x6545aa1d4d9e6b23cc080d04e88026b11107dba7645faf92618d4245a73b068b,
  0x45824f06da1ab238a389e8d6bf459b945a3aa3eb622edf63e6bb83f57dd5679e,
  0x5ea008ab5b1ba7e5c05f2e67436eae720da33816c76d87cb75ed6e5394bd60be,
  0x73e98502925b152eb88161313651a7316395683b2c198e7d470f8210d74810,
  0x2cf3511c1c545c51b78e531c3922148b26d299ce6f9f0cf16a24c4e3045438d4,
  0x4c89db0e880c6402a8dbe7224cf8d23a3fa4a7c76b5f46b6af122af508e24395]

def cB124 : List Nat := [
  0x6b383b9f14ffe7b60eda101351589cfa10545ed8387ec9a324022fe798055c52,
  0x23a0a676e5905cc3c27032ef268bf1234ce7430514a489c70396f015c88afb2e,
  0x8171161f9045a827235cafe6275df10a6634275adfa8d74238df82059fd8433,
  0x64af23630e3d42fac6645bbcc015df31fb221a12445e064dd27653d21722e7f5,
  0x283b060476a17cf6fa4fcc2d754fb3d3d8a50ec8d11dbd5cadf240e560bbe52e,
  0x31111392cdaf8b5fc9de9f60ad86471d6b972fed6edda79923426a290ec1fa75,
  0x180899871fefe058e82676130240bcdbcc9c481300efdd7e92c7fe43098b1607,
  0x5de15214e360632afbdfa48f2b18e0e418e898f80d29e05e475ed2fef9889d8f,
  0x24ab24076367d6b72e41f3215ee09de4d686b0f8059648ceff2a5a1fbeaf3fc5,
  0x3784d067706f305bc4cf7f657efd25fda0b0505cb9feed486007b0af6b52002,
  0x1231fcdd64971e3e51d381875f9f0415b71c60b6a6e3b1cf6b6cc471a1f7172b,
  0x19a7aaa39dc0600fd2c48cc139165c8cce877a5ab6b45817803ddc7a1c4da8df,
  0x31747f7e67214d502e07bb03364dac895b02dc2009e34dac42f45c2a736b3057,
  0x157a19466309b652095079a89dea5e2c1fc6e5125a2dec8b0639334e84915f60,
  0x16ab37d34d0d0d39b637b6bd3f1ab16f5ce9b92d30295117f4cc9e23de32fda3,
  0x2ee0167f5a6a7d8d51c731c0b5281949eb37bdd08587120ae31dd45c8170c49e]

def cB125 : List Nat := [
  0x4aabbd52fbc140d391668a12b2576d95b257e21aff43f3f3beed45ab0fa6fe90,
  0x59e0362a4aa6275b22d8d39d4afbd7c5d2f6555567b31cf5272a8394388104e1,
  0x72995adfbdaa921cf986b5b3408ecfa64a726e23108027e7a87b4752fcebd01a,
  0x459c0a75c28b2d800b82644f2d7802c0209af0bd775c941e294e151a7adb3573,
  0x11924353022fb4490aae0287db23aa9bf56035a71e0bcd72cca3e111734b51be,
  0x7027d1a9226134d24994b40e381704fcbbca67d46e1dc9b4b4756c764d544155,
  0x1c2e67ed6a3de44ea9b8caf105eaf5eaa1c5bcc264f06a81304822f9aa0e6886,
  0x4c75460976e06dfd4e24c56166df876bbdccf6403d2f15e615fc47a59097ab95,
  0xb9daf62530102778be016668ff0cf6a5c32c2baf0185d8d138f821c7267adbe,
  0x283a6fec1ac17e3510d70cf961646c170378ee552de0b103185f226d06fa3745,
  0x1cd175491afb4fb5dbdd639a33414210c2fcbf9e55b4d03e351e1379ce84653f,
  0x1dfda200e15f2d2cfa8d0effd74fba58b85235130f64afa678ba868d555daa3a,
  0x4e7ff5de66853690f0f29a4260da9e9fbeaeebe09ccdeac37f9d8d4a98c39732,
  0x57e522a1fc2410cd12e8b751e5605218db1af64b6d4fae1aeffd940c16c02b1f,
  0x691ef5d76a537a8c04880d7f6c69a4c3caf5efe6cb128ea7e83fb9630df8dde9,
  0x6340865edbdb40801570e89a866497e8f9b5d815b7593a5734e7cff37cfd3f71]

def cB126 : List Nat := [
  0x3c4454700e5b4f4c645072a4296ebc8460e72fc05b488c4fffa9078f39c6f4f2,
  0x682ccdf2937023323c46f203cf10f97b7a43bf276f54b56594fece7d25de9475,
  0x634fd437c146c0f36a5771bfbe9b55584267704ad09bcd9e53807294d112eab2,
  0x127c919ad6ea96fb4fc69e8c4068ab0398d610502504b5b28fd9264e1bc92c9a,
  0x2791d5f8f99b8621f382e051280625eb45130043d501b7eb604e76347c951961,
  0x515071b1cbe40456c96f464dfb6e5091cb3451f54cb39e85afd63fcbd365692d,
  0x5b81ebfb7648673bcbe6c9f6357d6fbde9d90a74fd7f26f312292b4bd57a1227,
  0x797350bc25f8504dc92fd976a09b2211f57aac92a7b1be3f623767a35ac45b2,
  0x3e5bcb419371f7574f26f47dfc898572778c72a375ac4d12ac38e4789cf36be1,
  0x6493489fc6636d26b1d97ad38ea5521ac44e62823db7863d85ca485bda758352,
  0x53ccc83c949b778fc7b50c189f60765d6c8938bff7f51badfec0bfb28309c44f,
  0x4a843d814d5eb40712aab62b4d970cdfd777d19d11825ac301d8c935836f7836,
  0x86d112f04a7ad088b2efe881ed3fb8440d1b595d2854f4969115c0e10044965,
  0x8900f30fe93c0b752a87f68f298c0547df23aca4303fbe03f9b1342b2a31ca5,
  0x55146d1b0435801f45138d7587982389ed1a2526ec219183ac7eac1b35848f0b,
  0x6091e2ad2cee8fa91e01254e552c259e471915c3c11a73d6b9eda77c07ea39c9]

def cB127 : List Nat := [
  0x32433ef420cdda21b552817d9c594563cd58fe5d7df9fb8daf15628aba4fa5c1,
  0x41d90d756e8e61ebea14b4d94a95b1d48dac5dcef53adb212e75dbf6ce177220,
  0x2091d380e6d53c3fc878487c58a842904c20a9d6565ecacf21a0e95b30d7c27e,
  0x3cf2c4b8146e56f10e0371df2e6371ca683329eae2f9206a760564d45b9c6313,
  0x3a8d5d533e7f69fb8e7e61be57caa6f0f4fea8cc18d2b5b90dac27ad4611de30,
  0x1392c0e22d66ebc953a700037ed7b4d43003af5d80d6eddb9c4413f3d143941e,
  0x6c4dc3788384af45337bd9ff299bfb3802fb6e45b483b991260910b4c1f94b4b,
  0x3ef1673b5c763b2a879ea355728c86e115094260a71b6e2ee8f714840045aef0,
  0x1e49161a88a55e7231320d9ba8954ac60e8d2ff8dbef9dcc01ebba2862001dd9,
  0x1db57894d7d6cef97decc7adebbf6a4a2f6e32392b3047f76a919ab3902c0f49,
  0x15d5375f52dca984165136a82c7bc719ebb881fb3d83d2c3d87229cac7c950eb,
  0x3ae014a06bb8ef669f9be383d6848b1678f2b3b388c45de6cd0691e846127b85,
  0x12c035af75934e3bf67888b9a01bb25d6a51c334a226bdabe9da0506b671664,
  0x20121c0ca8723b82418bdf105521739abb008fa3eb1f5d853516bd78c9385c27,
  0x41c998ad06473be3c5c9180b0692bc983bed3ab681ff51e2d5c79b61b7fb0ec,
  0x259c56c07291465b332132b3fb238c263a6cf31691419674da648577512de25]

def cB128 : List Nat := [
  0x6df8e8e987894814dbe001c2d1f6f06977393007d55ef06d8ac864e2dd41fb2d,
  0x329f18d98c05a834299f059f325f8e5203d5a6eb6dc518106a7f9ef611b1d72e,
  0x669683b5a8c5a9a70bff08ae8122a3d921d1949ec33ef3c0978cac8704405d29,
  0x10488850ecfe4d933f773edced53b6277692be837c9eac869a320e46e7c6852a,
  0x299b5ba9388a905061532a2977bd0f6b888f96182c2d4afa9063aebf38db4ec6,
  0x4fdb97462a89fd2daf68f1ef829b2dd5d5ee25692a2ebae9cb0a78fb4d148d47,
  0x31b14b30400849c4b8cb2612df5d8248a60ead8cef1827e05fbdac17192eb805,
  0x3c0d9414de38892a4f097c6355e7f8fd887e8371507eb651c399901ac4724a8,
  0x45be34d06cd6bc96c95f3e15ca52025e9c7dfdd309cbf67844696b5d66c7921e,
  0x564884198b09d4ccbe173072388adba2baa8f0310e9a238b126324bdce264f1a,
  0x2295849c6f4bfd527f3e86745f58bd2d3ffac61d069ff5bb28956cc3a949cdbf,
  0x387de80f92cc322284f8a66146d2b97206547da0074c7e5dfc29ddebd7db20cc,
  0x49ba69ad5c1a0ae3d053f2551aa0d0af5d27a94086ca056ce5082fe99d1933f,
  0x149d5e819355cfac544d93b8cbe5cfe124a2d6bc0d553eafebef24b6a9f4b9d2,
  0xd90610e8cdbc0ebe31359aca6fd65605bb25cd42935525bc4b17b85ab5031ff,
  0xe1ab55c70f65c9775d7b3e02a9cef9552e47e9ab7eb2ef195b5bbe9cd23b09c]

def cB129 : List Nat := [
  0x5950b8b8104012fbf7fb0609ac5b4d4f40642269a0133d030eeda9ef84abe969,
  0x722669a25d11a137f8a41ebba52beaf1ef339f4c5d13198be147643ccfcafd74,
  0x679e4ddb5aad03ce2e9f0826984247ebf2ebd311eef1c7e62b3df1589c08ec08,
  0x34a3d89ff0c0783f6205bdf0925795009e1dbcce9952b9317c924b4ab0fc6f52,
  0x30caec7772385a2b2f47f70a42de98269c7fa7bd30b3768f52300bf70c50db46,
  0x3ca542eeae7f59636173bab9a6bf67c873e6191ad3ef8e271111bf76985ebfbc,
  0x13b634224801fda5c4a5e3a08ec5b9c82b95a2e66bc1e7be3f068575233b04a2,
  0x13d82759ff142a2b2366d4378a88d5c261b6336fdb162fa8853c497c979d952b,
  0x3a2949c69ff7588e7381428f9fb9b76a5d0d24d7d334b9c42f71e0e0fb956f78,
  0x561676d816d63d8ae0a032c32f7659dc75c4b8480523a152abde14b122ee0f2c,
  0xb693b4d383f35ab47d676b41ecdbc9b673b20ece6aa389613a9e60b813fcfad,
  0x5e10ce94fb681150c027212c0b8e64bd89b61ba00ff2bafbbb5070ea5c029819,
  0x632b9a7cea17bd899924fcd8e806c5bd340846f97c64ec01fd67ef58559adfda,
  0x21ca11f2cfa30d1980a50ecf1703c664e59f5f660d454fce323ba90aaf9cdcb,
  0x29181efe38cfa39cf0b1c416ddbf129383e4f43ef2af725f10226d0c576518fd,
  0x37e71e80d0feae2871e26ac0ae14d470f71deebd9f514fe213ad3dfc04404446]

def cB130 : List Nat := [
  0x39aa2ed3fad2f35a435596c8967fce6eaf0446ca3f537aeb24b70538276892e,
  0x468e7e78e9da905b0a4b2e58bd8d642ca6579c9e750c1f44447fb102ec667a8a,
  0x6cad034b993fe1a022322f5b5ebbd4f525b26abf7a06df175a94385bef80497a,
  0x448773ae2e20b94c6c456410098f52c5508d3690273c552efab0b11639b30f55,
  0x662a1b041d088981c246201e9643fa60849aee3ad2b7a0c09f3b9fe4c73abdc3,
  0x552f1326347a0870ebde0ae4bbac6e6871e63829d67779e113797848a58fcbf4,
  0x6439c0699c6ac23b8dfa327dc9632c3c97cc4845271e28a1eae725c19cedd309,
  0x238bb18072f762e9397ad4f9011c999cdd1e9d0412eb6278abddda574fbf7e52,
  0x20ba55f5b089f96e970f0ad4bafe9399eecf1f2390b862f0f5797e5ed253332a,
  0x2e58e22276a11618a18c40decbb289ea808f3694bedbc255145d5969af116000,
  0x15a3801405e94fb7fa4a33c94dd0d2d3b0197853f82958c1ffbc6368edd824ce,
  0x60e843bbdc6deabe2e1c753c284a6e9408c06c8bd4870a0c41fbc0f2437a79d,
  0x3f48913e5684a995df02d65680953d3d705ee1d96a0e17d85f96b84c2c0faeb4,
  0x35da53d6857ff583a171cd82dcb218d7a43287844b046f290a53a5410248ab0b,
  0x4c17601115742c253a0e0a8b3e130a754781d6002747c50968e30e015ed0669f,
  0x31637598e1fd3023952e23eff65746586a978cd0376f3f0c7886d6ce5ba24b4c]

def cB131 : List Nat := [
  0x573d63a348f24d744017092a336615660bacc7813d086c118bd242984fbb757e,
  0x3442826ed25d92038a0efd17f5acac69a4c1b8e95d31856a7572131020125e70,
  0x1da81f888b3ecdcf145d97997947254b8e983e6d1400a2ba57ff7b5e38319f1,
  0x6f09ddd15e6d0c7f438e5ad30c58769a3677a8d46a73bd125a307de49dc93614,
  0x153639cea6fd9d32ad8cf69dd1600134ce1a6b42c2bcfbc820581f455883a9c4,
  0x6ce7a2ac369a393761d431e63409d07cd650e71f9a5adbe22cb7ae70b8737b1e,
  0x468a21f1d41a562e7099ca5b1d6ec835212f04ace081e528748268bfc311dcec,
  0x72fd20a8c1ae27d01f20251529a1c31739e02283868f5603a7b0f45641b74afe,
  0x5b45859eed9ea5a8757280309c8ab2a2c21003612ff25580971872cdc22e2d11,
  0x141a664adb77a30f541897ba146637b240999972de86406de98555928bfca9aa,
  0x28e752fc91570ed6ef8c363e8d3d3e1d615c836a868f665ee026fc1937c7fce4,
  0x1329fa895b0bc8b4b25798882d7d72201d3fd3c434cf53bc5dd9fd28aad6661e,
  0x17e402d3e42f35c95d3f608401ebf782529fef70abf5f1923643341f939c9bfb,
  0x4732938f707bce966e65e4c2c33cd7206580d7ae13a0678e1f6a0b241ea3c61f,
  0x30fb8ec1f35c721dd542d0b48b2a35fcdbc8140f559d3bf387b56d585a70d921,
  0x5da57f239f0f9e3827efa129756d42b659590acecbc4c866d65e3cbb49fa30ff]

def cB132 : List Nat := [
  0x1a2c4724da005dacca1d1378a428134fa5791834d98a52ba7b9df502f18a3f53,
  0xbbfbf853057f5548a9711e0b5a976b48c666270a960393af98bb7f650707730,
  0x21ffbcac76f419990294e9266990ea789c2f1a3a833fd552c7c3cf2420e078e7,
  0x266de3153dd3d1ad98089e3ee98feba73886ecfbf8adca33b0ab99d70a214439,
  0x5456f9c6dda0240ebf401a1e370d4411c2f196469363a07f042f3ba6b68ef945,
  0x4567648079415c883ea13b500811ff5029d28fffc83c40c54afb5cc55e8e0736,
  0x62d928240ad6d391b6165ef4d6eb804cbef5bb1da7f54c48406ce5b6bc99020a,
  0x44fbc4d51e89e3e0417e0a092a408e20fdd6a6b680b9d8dc10f1cbe2bca7ea29,
  0x1f5b3ef375956a985b53f774c0793c4d9d81a8349fc74062d8d58c9e1ba2d703,
  0x5f8d1255b89ae139f4313041b97b4166d77856db26ad5e09d43d50f1936c6e7c,
  0x3245a1f74bd9716c3d9862101d22f837373c344b7dc930754231bd77e60400ce,
  0x3ff67af63c3c071720b07ddf60d6313871cec3b1596824806673366700d0d6b7,
  0x2bad4632c67f4dee16c0551bd4caf2664d0b277648d60542021e393a5f115ac8,
  0x30172675334bbba1d0b2d30e131410bf0892d872b49eb3d80d33741702cbc6ba,
  0x28ee903b1a848ca1dfd7a6751c20c485d4e60b1ce810843ee6edefc646fab432,
  0x460f7a32dc92479dd12ec2a2b5afa795a88f40ac5cdb71742a0b8124f19ac3ad]

def cB133 : List Nat := [
  0x4487fb2f56f0c0cdbf32a688ebb5a23f34dc013cbc3a8c0b8302ae6236800056,
  0x24a57120610819b9f8091c5f2d03b39423e10d8c2662e5e244864821436a1bc5,
  0x3b3f6f6775ab2bac4d4936f7c2022cf8c0de1747bac3458a8b2bd7acbeecbe53,
  0x2a28cf4667353864721418d227aed876a2c32cda4b4dea54ac054a942ec178f6,
  0xd5dccf524e564e2d2ee70fdf0dc4e84f13d5eac77cdca6e59089567f7c82a89,
  0x25c71df2319d47cedf5e6459062be686c29d798339e359c5b49e5f5087ed772c,
  0x46b736d3ddccde2c8c318081ccafd5cf87d32368c13293c693f688b00c514187,
  0x6b6dfca5763a1fa57d536718570a0a7b2aa88480eba34f1fc8cab94398f15b4a,
  0xdb0706ed9aafad22cd7194d3f77dd37267d835787c55af01b5b16c7844a6103,
  0x4fe7a9af9091edd70c5ef59f377c24568a62f701bd5d52978a74821c7c47e333,
  0x49c1a22659f4bd8eb43cd7b6a6691f1e390e3fce14a8bf172eaceb3df2474f54,
  0x6e7b630a9ab1a7249b3a14493493560e809edc48af9be7c23c3afe2a35280581,
  0x117896dda3265f6487f24ab50854041baffdbdc99b7d91390529287ef9bac51f,
  0x5d87a2acbcca82ed2d80d79646e1d2a14f1d23eb4bbda51f58dc43c883602f57,
  0x5fa3e7359599e70d5a41f50652943ac61ba07dee1398862fb38dfac1c223a45d,
  0x4723f98dcfcf181e6efa3aefb8b3bf891c676bbdcf81bf6e5b25a325e4ad811b]

def cB134 : List Nat := [
  0x1a7bb9dad94fb93f873b29bc78c17181cf99c6d5cbd82fd97972a3d82d69d1d2,
  0x518804866c371bdaf4f034f68758f9adda577bf0341bb6eec7c248d3d02a88df,
  0x413c0405db578aee55179ff0db36b9553ac509ce1b96ff48b94cfae340c47e6f,
  0x48be873a824d0410f46cb8cd6112b2c0d43eceeaf90b85ba228a05092b899a22,
  0x64d681a3895765c660a3ca55a49b6ef4649dfc3386af360c0b0f3992841b6d2e,
  0x25789aa6c294677c87a7b4560fc643858372d41872c22a31d392df5628f9f0ca,
  0x524ff8eb8fdf130949d8169f9488b8ce9e31c212cd2e3f6c8383f466f47096df,
  0x5a3abbd03e9cf7d0f55766b164b68948a0ca329e5e9562ffce85bfe48d43e92f,
  0x634a3782d2c55f664bad412045e9f6158b9017deea9365a60a033b00b2ec1969,
  0xbd1059c40c7d349ed656ca60422df11ad63e2ae475af7311e4bbf50c2bc60c9,
  0x471a91d25ddca34b327520f25ca66c210385d78237d5922164d0862c45735443,
  0x488105559fa9bef9097c6de753d36d5e534e1235525559a95a93dcb12928eb39,
  0x1a9179a59eb6aa062a6aa8f8a7616eead8267d50246723ec6e5ed8cfbf27209,
  0x52c1a75703d0ed60a6f09a7b5e53aed230812d2cb49205fadb8b79dbe05c4c48,
  0x5520b423090a45766c392b2635495b5fe98cdc4fe357e1897382810c46143cc,
  0x107436b4baa13ab251748a951266880070670681374c653377a89e89e531057]

def cB135 : List Nat := [
  0x394fdfda417971ec9ae461c43285a3341f2f80d5f288c2c31415c63cc6edc588,
  0x6bf35230b6b21943145abf579def160044b29eaff8045d114643915005a3136c,
  0x12610b1428ccd681ba361d9778827746caa626d2b951fce93cadcd2ba0ea43ca,
  0x3c2e50d000fb8f78bb48b43f32fc2e1ca4cc3798492ca20365f016e210c814cb,
  0x482049748cd916ea186c6419101436a71c712f0702639865069d8b7b83483cc,
  0x48bdae026916095545ea254545ff395a0c9714bcbd66b04bd3a4423343473956,
  0x37d739529bea65d9133bd76f5fe23c27ef1d35038107bd3e968b85490a5a8ce7,
  0x115d7cfd94d00b0dcf205fabe8417ce84e7b63b6b2e55487b79dcf6a27b4e035,
  0x47f746d70c7967b185fbfe5969b1aa6259269fd2b4296ec2457e102f35a91f38,
  0x4726a5616cb14911ea7c1e68fb0cf0ae0cd330923db9e997b946da25e300be4a,
  0x703565f47fc384a752b55f59d8e04c2290aa98c45cc1a84743b3f5823bea1d67,
  0x5b2f2e300405dd4cb5fcf3c25a2d9814c665724271c6345062cb79dad44e4d6e,
  0x356f8b6ceac03318de172b573d30f064c81d02cede3dab50cc59f7ee14061f3c,
  0x4ab5a7320b890b2db676f4130dec71342c7265cbb0e451ff9bf39ecc119c4ac4,
  0x40b109ecc93fe87e1aaa22db01a3f799528db3c3ab7e3372d9497635ff5d7b6e,
  0x64311620b20beadee57cd8797b2c89a6c403692ebeccffacabf1bb8c6efe04ac]

def cB136 : List Nat := [
  0x5dcdd005b108daa901d32eccc452004606515e0a5bcf701d89adef6d44727126,
  0x44cb1c6146d6230cf1b50fee7db0e5bdba6487bf33c57c743680c5f3111b6153,
  0x3566179d542fb4f3ba0636993cfd8a910ed5ff9b0fb1b9e77824ddf67143162a,
  0x1de8859abce329924777157fde41db2bbf329a51de9e85e2349666fd37fdf86d,
  0x624e7ddf1baeb159d963690296104289a0e8b387a7bdffe9c7217d2eab088b0,
  0x28c824057345f014017d8d2d1bd16a5511cf83815a9f60702066f31d4811a578,
  0x699be3605be4f5af88b45fef2d720390fe7cdd4b423c7b5caf656affc9417119,
  0x4e234f80a6d0bcce4e1ed39187bf17bd1980393615715a89b6106cd2f699e0bb,
  0x72bb17acbdd0745ac5ed5e13654d37e79600e99fe22e193bfeee6b25244f4e58,
  0x152f6469c7977be7bca901e236e707dabf90228fd7b399c6c60c4c06efe4cc5c,
  0x51c879e2d45b3aefad70aadbf82251a54ff255445455ed3818436e26bc67962,
  0x1f381c87166269cdc2d2be0d0a188e68e4c53b182b1cbdea67f9c7b3b40603ff,
  0x29cc74c5b2965a8923693ea3979e94a534d2a6d2287d151b177c2f56977d1271,
  0x4677f1b1ee135e7e11e28074b9f6c524bccda90ee16495c0112d3acdff57dca3,
  0x52034ca40e0d5b27845dca2b66d8d13c210110262d3189e0274dc2ffac579718,
  0x735246057ccd0f1d5c57c92cc01041da1d274369fbd80f47ae3fab59f5d56032]

def cB137 : List Nat := [
  0x4c27f2cda6a7643830d356e39ed3a1a38ff60a1c64423c0e7ef7fda941f5159d,
  0x65f2ae36e93bb9108b976e6ab416f2ec981b2ebe032befc94d1b1f1cbffd549d,
  0x40bf1d737d985468e3c830b55d6b9c82dff07f5fd981488420812bd485802524,
  0x657c28045d87c992cfad32a74b778a59af87f95881ccf4c520bf414d55f36d25,
  0x545eeada33fee2f6d7f128408baf2733c7d6df2794787a5965eb647a5042c4e8,
  0x5a3dfc4ab3f6cf9f2fe6d9bd6398d1f4b6a3823f4a3aba461baebbf920f1ff61,
  0x4dcccf839ba0676dde6e7b2a5ae6c80643fd0809a635c30fbc24affc461f5a08,
  0x189d25da48c48ebfb13eef78c25b5ae13de013faac6d0eccf2c2ac712ca6e930,
  0x2fe1d7001e7f77f60b42cc46918186d0af5bb8cf0838512374ebc0497d1a7cc9,
  0x296872db3d0b65486f46dca603770a71d94706ae920dfa5a930713e62c6a12d3,
  0x2eb1987fcb63b7542d39907dae4331006bc67bdb1adfe4575b5c509ddfaa7550,
  0x5bef2a10ec3c4511946ac1c00eda4aa71cb72e0ce8a3684e044bbcd6995909ec,
  0x2ff67252869cd60a4f023ca3c3824edb40c0c8feeecda62bbf3bc529dd4aff1e,
  0x30b1de567577c71c60b7ed331d6dca3b6978184c1a423c67bc3781611411c895,
  0x21a62abccab7e9d4b7379222b0e463f8ee3e89471839f60a518f44562237080c,
  0x6151d3607e5a182290332aca520035256fa8c373bc645520d170ef2805823df9]

def cB138 : List Nat := [
  0x39dee20a01e2349585ae7e8686770b99b4c70ce0b938b28918c894fa69dcaa0f,
  0x1154f350b84bf2e7eba52cbb640f804076e9b902fd232eb073d2016e4769ed2b,
  0x49264e93d73ebffd2fe82b186539dc25d431ace4d1a7f9abbd62f1da498e9440,
  0x557e1b4af149b2f56b2bf74ff84772c9385b239fdacd4436def5eb9b7c0f173,
  0x3ac1b850a76ce02af1587264d8aa478351b1d7b94456cf5677668b58cf801896,
  0x3d75293a426902531716b30972ae3463c0fcd2a5c671fe33cf9a718defc522ac,
  0x45325b60ee495370a427078f4f00113624cb32e3fb6562680c873306beb9d90b,
  0x212ad534773e431f3dc348f97864cd4dd0c0f31988fed812d3e47eeafe16bb8e,
  0x16d5084886bf7672bd0314100d67a22581a83222a5f41704b654063d21631bb2,
  0x6a4a5d6f2f0c0a11bd0b10df967a16e1fe196dd4689c7c81632be454071ae087,
  0x6e804a7a575dc6c3d7a4b1a9ab40b211387c91e77afd341152d49877451e205c,
  0x712fd8090c5e5d8c95d38d08c6d41416ea754a130371a053dc22e4784e098454,
  0x560291ae33c763dbb01d25dc0149dfe439ccc4fc1dc549fdc5d31201983290cf,
  0xfdd593d355fba455ebecde43a7ca22d58d299c77abb96ef76c40f9dde74ec39,
  0x76e76d736491a15d52c5ae6bc77e073f07b795e5709341ab19973aba0f23867,
  0x6f42109639c19acb809ab193d3ce5c3646a11b1bff04765b7858ef80c66fddbb]

def cB139 : List Nat := [
  0x4325c8a21e480b8c350174aa7902c525a4f36e7f39d341f3c6fac65423599870,
  0x53088ead259225be334fcd63c1bf4b8343a29c59ded4b90cef106f10192593a2,
  0x3978643a6d59684cdf44a6329372ad8aebbe5cf074d425f5589b11f830d2ecd,
  0x5ee9f82b911bc12468deea591bda3314ec87c9df70d77eb3a306d8f2b2ac00d2,
  0x59b4e37dba4e8296bcf0d5cc0dc90b3149733bb513070b4d54bcc781a36aa2b0,
  0x6fe8be1603f3d7c200f0a52afb47a054a612eafeb9ffcccb8124369cf5f6c3dd,
  0x23ff3a7ff8a05755438fe7d1ba0b7dfd63e6958a720cb75ee14e8d12ca46428d,
  0x599a441fb70bbbbcb4dbcfc303497fefd5e0330220d7c6144397482ca757df49,
  0x6c386d8e30800ef652d4e3dfd6273e0b91e07986c4911299a2127d413f091b83,
  0xac2c79d6c4b84c8961479fb10b390673f8afef4623607bde39f7725028ce817,
  0x22d1d04a14d602e56c0a5cc31dcb49930051b5d1b4dac1d414375a9bd32d4c44,
  0x2f73d376619e150fded6b1605b91c7ac33c44d1724bb243fd039ba588d514f8c,
  0x3e339b2e957b893786983bf3de56ab3db9bf0a859694f8d3da6630b7a3bc15d0,
  0x40a70bf6428d0214b57d9a62864dbc4e53313916b03efc7dc898f0a545181f59,
  0x13548cee079e4473d11b14bf9dbecd05fe141399f2ef788cd50a540fa9cf67f9,
  0x2727a551a18cde7bd406ca6325ffad7a67f8b2a09544f2e5200b026ccce24b5]

def cB140 : List Nat := [
  0x28c95fad66c39f9b9a7b0321393199fcb2edf509962756ecdc9bddcd37165696,
  0x31edf03c46cba6254e33b9db75605c8e218caf7e31ae4eb4ca6b41302695ec9f,
  0x5dbdf38a655c911973625c9f92ac99e22018a596471884db248e74dc3e8df83b,
  0x39511b3b74a23336db1e4224a2477090c6c8b5561f8e6133254bc4e6ba79a9cb,
  0x4122aca63109007a15b66c4775a91b41772d09f7e4e5cb657edbb42837d2e3dc,
  0x907d810e2febb13ee5659469b2ec21f480b301c66e5c83a8d9d46c80107b851,
  0x5c6ff670420762b9d95576ba601207b88f87b85ae677c07b72c03d4593a445f9,
  0x1d151799b74d3f4ac5f7b4e17e080c591fe65f5afe65ca869f47a71b0c562af5,
  0x71af35dff6cec74f31deb44641592a5e539d18696af1f65f7344652a164079ab,
  0x5ff75b366cb50770b23de66b03a578316c995e919f79ccb71881ce429faa8d62,
  0x13fc7ddbb9419e2a68c04bfb41047b68d392f466441dc53719842a806ed3d6a3,
  0x33716cf9e1874f41a0f36280a2a2090d99b38c3a080be9426039aa125ec833d,
  0x59ee4d74a420e1830b13447ad835e5c076c8f75394c16defef4db54213c20983,
  0x4796555a3e93870ccb4f3ed604b413c11936253955ec5148ef1a919a95175150,
  0x60ad9d767d70ecec5ea290c5d3a824a06be6121d4a29d9abafdd2a798ee42b62,
  0x445a268312ecde53267797b88898efc6730021f4911d9a5d3e46f76ad77808f2]

def cB141 : List Nat := [
  0x62724b9d13a982449d217870ae8ab8c59d299c979468d5755fcaa6eca6100e71,
  0x482ad07fbf3fbb276f5acb8bcb2013be751eb2f9a4858ba9f8310bb11dff50d,
  0x57d9060640709369bfd2a8d8e2c560c14b9c0f34803f72002e83891e4c0be07e,
  0x5fa8eb064114a88105b5344942292fc33d54721c448ef278deb23b0f1dc20253,
  0x5ecc7562b9d7f76eaaf3dd438fc9643eb7a0b91e50a97cc5e17593c90efc63f3,
  0x6289cc024b6458ce20b090f00d367cab37255214c07f1e8a817920f1d3703850,
  0x35b65ce5152e61f4b46cc2e0ee62af4713ace67bcd5326d71a7efc07aa2a4ff9,
  0x41f3d8b4c711b4d2b495f09b67d2944fe944cd19e46a4f9feccc3f458f1a7d1e,
  0xa41d09fe0f982834a82661b7abb32d966f24a552be3df20624bae111e0bba6c,
  0x40c77dfab8b83e098369377fbb4fc13f60a514d525003549c579c9218d509f9b,
  0x197b5a76e31d0e9dce8f236567301f42ae959db5030e4d3cc518a31e3a5cc7ab,
  0x2cdec65bf6d9abedda219b6bd97d6c2896e6fdb1d52672180a107016c55751f,
  0x72e8b2aec8a6e09b44cc5184a7da047e87574b5f09645c8bc9a67b60f49f7819,
  0x16c4fffc04e757605516c7482a484ead015fdc6c3da471a189f6fce32d92dbda,
  0x33d52b9e6094af998a53d412693acb390183cef1dabd6c42f7f6c910a1bff939,
  0x6e16d6f365404800187a4908db91606591c04836f01a64614b1424944ac9adde]

def cB142 : List Nat := [
  0x2e1e5c43bc755b4b32ae1b9038f8f27f89d99de2286f7eedbfb1b90849165d,
  0x1ff7d823e0585085b0744f5244096f8f933a614538f3644d9bb0e638d30c3639,
  0x265b2d529dca18e957323542dc1de86429991c50bae30ed8785a2420c13fbda5,
  0x4ba1b553a09a406ede0fac0383c68f6f6419cd8d21f459f42c1e04b0a457fa8,
  0x33a1e2e20a078675f525f139fb98cd699eedefc9c1cb9a37b0f9b52c11d93d16,
  0x22d211d28a61a29edf3f14746ff4b2482b7ea26216d7e5f4b2f33e91ee9ffc9e,
  0x565624751f55365119696358f5209fd8496e61372b5b3a55cde89d0cf9b0e493,
  0x7096e00094508ca7465e71d09271d6ec70b7436df46b8af640322349f22f8232,
  0x2ef610722f617a68b5372c32eb553614f74eaa2b9dc9ccdfc3c8df9d1b90457f,
  0x15a5e99add90e1ace1b448caf6964e0935acdc7bcf02e67eb312a22e2835a9b9,
  0x12963337a5f3cbd4a1f1b7234487fe56a47a75dbe9d062cd41c616300ce01adb,
  0x2bd327bed0e6206726edbeb791b1cf4abab7931a2bc8991147b2465601d2db0f,
  0x5a7b7953992a86a6142a67fbdce619248e8db4ddd2b634b00f0c87c961856189,
  0xa019b867d462058a08192eb9b07dc1923d27d0eb7f9501001454f1139e132bd,
  0x29f65cf96dcc95abe7442e7feb94268987868be47c1dae89afccd7685e741e7,
  0x329e8fd4f94cacfcd840ce6ed02941b086978bb5fbc203fa68432f43b13d2975]

def cB143 : List Nat := [
  0x194b403060c999331bef0e9b673061a139903a1859577e95813acd30315c335c,
  0x5f47f30d8e515f5a74536d4fdd25fbff6108bed4668805529da287eb4abc293c,
  0x5539c0382e14b1c4eae9f7f72ecded40882e02b32d424b4cb60f0501d4999efc,
  0x4061df7f0dab33adf1cc9d4d20f233624bb1a7cea32ab701f283fd7ece0451c7,
  0x91a2b64077a8bba5b5de7ae7604c1b3ec4faf967e7c97c9e10492bf060818aa,
  0x490a76216f5c4ae1a5806c133e7054a227ed539fad9bde549dfa8c4f90096977,
  0x5d6a38e39fb336155331568649832b9d05cee81d421d8c7396b5735f265cee37,
  0x616ad6e46bc25ced0c178ae918c341f8d09650dfa56f5b05eea3af9b023ac506,
  0x1c10afddd77995e022e44853ac5cb4bcc5641eb990bb7881a09ddfa882c04638,
  0x3b21f78239a8a5fe5ea8379d7257242c3020185730631789b2e95c7a6b6474ef,
  0x72c9bb64bffa2f444c7e4f88ca7c53aa8d8147a4dcdf2ea1ffeec173badb20da,
  0x37f713501514be0dd872abb79ee7de1fe0c3bbfc2397c72e540b9cdd6dce54d8,
  0x689646b8d989ade018fd012f19366cde8c17baa494b5f4c711ee346b74557a70,
  0x416ed422c27f449096f0253fa8a1d6ea8713f06e11c5d9d45e4abc55c96e8dd8,
  0x2aba7bd50083162907bc209d6418f995de7df230783558f668b9b067b8f359c7,
  0x703afc66fcad108684f05ebae646ad605028825ee565a73b052993751c4565c]

def cB144 : List Nat := [
  0x39518cae9048fa723de1e223379ec21ad0c088d5b836cf1234ab7a84eda7fae,
  0x5a98df6d923e9c339c8f4a38ed8407b8be630ff260b9ae520547586976df6d95,
  0x4100f783b069c3aeb5b5ea75f2f3042592ff3694a59c5694a142dd0e27ea9862,
  0x91b958c6e73e508785211c616cbcf65ec4252e46532059288f16e254f607b99,
  0x6bcea3b60155fc72566c11b5f93894c37d5f55ab9184d850917472dc2e8eca3d,
  0x52041c344d9ce41c7b5a7037776c792502de38a888cc41dbaf9b9e26bffefc5e,
  0x6d835cad73149c723c957287386277272a0a4ae031c66f292acc3b21d695a027,
  0x5cde23e7ea63d67f2f6b42f1ef1efa66419f9a90648d3859ba4818b2a5993f3c,
  0x4d6f6ce28169ce5929d5862e76e1db6b55cb380c3b8f155d5e0190420e07c967,
  0x72efe1d860bf299cf3f642af5bbe436731993b318de7f0b6db8af201dba6eb64,
  0xa527fc51b4bcda0225d38c2c38070178f7d5f018316ca66cc377ea337411ac5,
  0x67d57b278e308a3a91b785e049358c40cc4b264f6d948f55787bab0f20203087,
  0x33174f94d5a34d32a754709d5a52ed0be090f5fa368ce4948ee884af15ab1d24,
  0x2ea16bc11e399c651da75335221ea6ba7030c58a682b8ffe2fb82a73caa7e0ba,
  0x2cbb81a72656f31610951af2b0f0d67c51124fecfc1bd32fdcc123fc82ebc599,
  0x7912ce0e7c7b18e88d7a8d90e0546928f5b011aef0b3f40f36d6fc799a5b473]

def cB145 : List Nat := [
  0x6a22c621ec9d530676beeecea5e004dc849228534342bad658477f5029ba4060,
  0x2b046c189a6347a012bfe869991f6a6e8af87953ff43f618737b54d8f0256583,
  0x69873bc3fefce2b2cff681326ffe5e8c44dd5c637faaca69bdf60de3def32d47,
  0x62d0ef92a146da8713de3912ae477f35cd8d32f4782ba0414b3e3922b0973707,
  0x6db41541edfe26986ea03fb7b8e9b1c568aa4f896bec286bda22a2986f2eb37a,
  0x67a83b4ce926570abf1c6b2c0684048a6a984f73fb041bd83c200260967db125,
  0xb5712022c71cd27007fd325178d50293e13a658e9593c3bbd57111d4e2ff4d6,
  0x4ec291637ae09b9e70afdb13564cf3ae35dd39fef48ea357a6fede99b7c9d5eb,
  0x676a7e184bed336c3dab89901ff43434c7a40532b312d19d8761bbe86a965b06,
  0x711a47c3214fd15c2d814f9dd9ef01448e992369ca1537bd1e069a546d224cbb,
  0x4da6a86ae12f568eb019698cffe3183982b62c6a0b316a380dd58cc9526124f1,
  0x674258801d1be752571278157fe60e66804597287c4910fec608fe7f9ddf9d5e,
  0x16bb806a992ebd6b6b4026d16448a3776d10c06f10ea8b312ef4c919e6dd00b5,
  0x123afc2dc8fa867636ba126843d9e429d7511de273da41bdf542a229e75c305d,
  0x5732c2a6a20c80f4029226fad52838aa17b67912249d9dca1057cce32752d6ff,
  0x2109c4a96d073b55c9391ad3079e31c7f9dcf8e74645175760eca3e7bf7a9c00]

def cB146 : List Nat := [
  0x9e9847804db7cb583257b047ea3d41db364d2c5bb2b043161341217c622bee3,
  0x6721a6073cea74603d5a1c9721e20eef7e77aeb55d9c1effe2d25661c107e759,
  0x4674fd6c99ced8ad3889296501dde457db66ef8f0ed575ac513b26cafb460a4f,
  0x72e10cc6a2953802a6ba756351704616f8d9650cc7a8ff298c9e85add818d0c4,
  0x14c9b1ac4211e233707b34e24a61233f8904fbb2f21eda29b9c375e05712b23d,
  0x21e7e54a2a686f969745234fa754bd947c02eab9f7dd2eb7b4290f6c4ca25f2f,
  0x5587011950ecb3be9d9dd18dac0e91d443ed52f6508ca8d56615c40703b7ead7,
  0x4300084fc61826faa7f6d0ca80ae098c34982cef69ea5b5bfd4a2011dd5005ad,
  0x2af9154e7cb4e2b6f2b44a98419ac03493ea5ba6c499fc966fada0400cd55cce,
  0x384aaf41fdc11e3fecb38e9e2c5a4b6acf61028020c84a86603bed58e3813ca9,
  0x2a97928e96167fa6463ea9939bbccef9dd91d597c6d60cf927b15959645764b7,
  0x632ea5fa819c69dd4fa395a866149dbcf58ac38246df06bb6304aaca60a4fa22,
  0x32ac651d036b614a8dfbf31d9914f62f3b8fb170d4910294f1a8d73714877979,
  0x355ddf76dcad6ed3f8194c65bbd2346b1e0a558a195ac7bd5c7505a729f9663,
  0x1f0d4d70d7f38a12c94350cf9473f524540ddea807d03d9d66ff8d1ab21b9055,
  0x45ae0fe14084a5b0add7cd1290ed7d9c7802e57a2b61e1493b13719a758d4626]

def cB147 : List Nat := [
  0x6871b8e87cdb9df23839c983fea0c1f9a2ff850b0275d32f35d1f4dbac42154d,
  0x47b71e1a558c7a405d02026933a028a84ac3a3fc01a581be58817278dc85b4df,
  0x2f5842ecc7c73d555081b5964ca1549f09f7afde187185dca679c87760ea2d35,
  0x17faf344ac5273901f9a962782af658dcf1b75151c479297d1457656013f531c,
  0x5b56063d623881e6f18f172f3f68196064c59d17fb2b79f75cd14187687b7de0,
  0x305cdc5c8103302e4946cd706ef55a690497169faa362c756f308799a7988265,
  0x28d0aea05bea0a4d24b0de059841e26aad2a96cfe450594cf4ad868f6368530b,
  0x2546a74d1eefbbbbea2b4729b52705f0bde03ac531c87c9b7d3325aa9c5dbdf4,
  0x6156237476e704cef9ac6730bb02bce53149f9de41038643a5e2461bf918050f,
  0x663644a3284a0c843eb624343f923d2b6340150651e799fab583140f2f549c80,
  0x6b885a60904083ae489d12fd3270839dfe37978721959f694adf05e4ca48993f,
  0x365aeb9eb6443d4677e4f6cb634e0edf5af28616ecefdc3fb244e2eab7e32bbd,
  0x28dd55630e3395b5c96a504b57b2d3b4e57be77654431594feabff42c4b1b52b,
  0x62626eb4be74455669c527a4abba446ede41439549e25098c759d12e153e3ac8,
  0x58241607031c89302542f7dfbd7070b7c968554096ce3d3295b68b45025cc5,
  0x4a36cd55aa852ddf30784b02dad1c09b36d7c90e2900fc3ed12243f698e649e]

def cB148 : List Nat := [
  0x7118ecb75962bea2f001e364f4b31c5ab46d01dd06328f1865657e667c5dc755,
  0x68200e952ff62024659cac1c6265411f068a86cf5dcca9e32cc6b0dabaf632c,
  0x2474af8a75b335af016e3c6e9ecca087d20544c0f2dddfaeb94b77aae9682a0b,
  0x6fe5df5f1c3ce3136d0130d719ce0387bf84c226e9e777d20a0a4ddaa7c8d334,
  0x46943b9881c4e9c34d6663429c673bba88c11f57dc2d7f69305b63c1ffd6981d,
  0x303b5575d6fe9b08bcc4908a01ee4ef83bb9d525651d150a1a5b81407e72a4ef,
  0x22294a60999c48927eee71e72ed405323d73bd6bc32503e9f31fdb6f7533699,
  0x257c5ecaf45587dae6e15af20366ad617de68c9762b18e16312cf2b22a11d823,
  0x1904e3e4f179f7b8260380d173d946ceff04a08c22ee5c4d5f8d69f63ae8cb23,
  0x5dfd71729d1d5c1576eb3b44c6dc48cf842f08c5f764a3c74c299457221e5076,
  0x1a1f8c26ee1f806d41edb4ac83bc043bdc1fd7aae61a60ce2150fdb54b3f3640,
  0x6874c3d9162b7c7b249f3f5e07a78e2d42144568ab5fa4496693d32d210ca71c,
  0x1c2da6e9cbccb64dd1bd95653fe6125c4b6d9a3f22fa456f5c116ea2081b028c,
  0x30d5471047f883ef0025f90cb36d533745bdabf0430b601e33c4f7ea29e40517,
  0x75a0f0287eb431d67599a13919959df9538c7040292a94c312940b397968139,
  0x2d6377684d91c727a1839bc3a3ce80162be72ebe4d8462e0f8393bb4ff27984e]

def cB149 : List Nat := [
  0x6ecad8b8e06e9159f4a488e56c0fbacfe62c280abf8ae8a74918d946a668b433,
  0x167d8ea4956265417075d170e41134221af498fdf3dfc3f453047d49a8821df2,
  0x6293b462f8c573530566d394e0d9079a384d2daef1c56e5b71fcfa902513fdfc,
  0x1301763629b6577a3f1fd234ffc668e39b91b4d232d7949e7c3e8b5125c595d5,
  0x64876eaf1a14533b1900759f95edfb1f9f51ebd9567d0194ea6d225f9638470f,
  0x384a0ab37586348b266ff66cddd2b2862111be45debb075b0e522ad288e4618b,
  0x252d96510cc99d35f4c3c6033a66ab56742df9dae465fe03669820886d6495e9,
  0x3d76098e645fad6ef876c7bec11d4642e03b8bdf669b575f99faaac62c7f1757,
  0x34b7da0ae2259b55258de6e2ef00ce4cf3dd41f0db964898271e737b4f4c22d5,
  0x46e24d7e4fa4cf80d8fc129ae9f6757273a594418bd850469c366cd1c0618c77,
  0x4679e5d886bb47bbc935bf997a8686e6a16dfa323ec06f40a66df7d0689f0b99,
  0x8c0baf852f717270713642a0ab0d38a39693de2d09a3b75a05c76e9e66ce325,
  0x1951170424016ce1cca42cddc243e9a800311935418e43338b37d3edaee29f58,
  0x17b7f96574ed46868427ae8e024ff615cbfd54a5efdf1e539cb6fd1f4a0ff681,
  0x6df562b94a12bf5c29dd626d6f284e63a8452725979cff15d3537cd205a9639d,
  0x72100509f633d11cdbb7f22b85a91fdf3cd21a9c0ae2b7ed7357d0f933ef5e4d]

def cB150 : List Nat := [
  0x297ea91d9f4cfbabbd117800630dbbe119692514970b34e5fcbca1c11c053e0a,
  0x6f639e87950c0759bed2f405a512a4390806953c705fa21605a085f6010558aa,
  0x1a384b259239c5808d51036c31580add4cd3d34e92c8ca14acdfe23b40a4016a,
  0x5022f3972f9ce4caed2152f92f3e242c087514b76eaa9f5852a7a613adeb6ecf,
  0x86aec9560ff7706c83909cf20dab84398788806aa95eca5aafe7800bc0e6bba,
  0x628197638aa771d7cd39561858325bd9d1710f330dd1918bdeb4540fdc80acde,
  0x3b957398a6dc93bfbccab71bc746b5fc8aec5bbd5ba49b59b0856e234e9c7ea,
  0x68616378f136b49affb79ab56f5d98eece447f2e6f94e34dc9431eb15b457e48,
  0x3ccf4f119d20115277873a2477d55e8b355f046160cd99634a0f079e1d635d97,
  0x5b15de39a06ec1ae22cca4c082d9a6277f2ce75a0d87402dc8954b0bc2bf3e36,
  0x5e09990a70b16ecbd69c5b52dcdcbc8f5e1e857044fa6c5d066e305945ba7080,
  0x767153e2848c5605a32a41f6275753b5428ecef210ffb7712d21f00a40b8d8e,
  0x1908a4a0be29cf541a8246badb45ed1ed46f9e28016244853ccda4ae7178026c,
  0x6d5936cc37e10b9d37124c90beb75843e61180784e3eb7f2cb43454b1325c920,
  0x213f41c93855a61ac0b493859b11430f31d550e8ed9fde168c3d75a22887e15,
  0x733ceeb7b8d5464d72bc1977458e21712dd6cfc987f9c7c14303ebc708698f95]

def cB151 : List Nat := [
  0x465425a89cf1aa2d338e4db52d5467461a53dce74dd74f591f2c19b366b8cfa9,
  0x38914609407ad69fc14846c4efdc537184667f2f3035d481b1312e5ee7cf95ec,
  0x38f9532ee3e3d631b614ec21e5cb5534819ca56c5742919e00042398d1e8a836,
  0x684f0f6aefef4c5be89092b43a964a2266a091a5ce784beaa4a2d12b353caf1e,
  0x2a3f97468fe3c6083c00c11d7b4fb12413a6447bf2e2f890f9086012039d5683,
  0x24ebcf60652cca7ec90eb751c07e549c0b97902052ce0ad1aa82737bfc5c42d6,
  0xb033f6f7936296bad0a62c404352d3931a27720997973deb7d57d97d8f6d69b,
  0x72d4071fe24dee2ab7015d0ee8a49e17132e4815e65b573e84d950fc19bdb57a,
  0x10478468f26438c5548c5add4b41e4e4f4971fabad2e654ae9f5efee54650ae2,
  0x10a2994d6fc0f803551f9fb18b87a507bb12ebe9bd9804ec7e478ac9be268862,
  0x6e083c6ffc1f6e752733092f3a709dbce69e59341bb99ce93bab02f022440fd,
  0x1f43d0d05d2856433883c163b30eb14ec644663a3ab0732d96981a17141c5645,
  0x26cb0f556c8c0b6f01eedc5758e464c4f148aa89fd75fabffa5090905f35a1ad,
  0x4dec185e04a8972597c2c14d8add06f40bdf13241b83ec7ce84fe95d6f62debd,
  0x5c68526b9190fd84d25861d058cf2b9345f993d7c503d1cfdbbbe7c6198d7647,
  0x69b0a65a39ad82758e60aea6ce59d26deeb6db5bc7517031d67b7a938051e3f5]

def cB152 : List Nat := [
  0x4cc25296d592340df2ecbe74dd941d5b1150bcf913233775eabcbc136a8055e0,
  0x4dfa7ae2efcc5bf197a838872ec33b64a346e34d01a51cabd5a1cc92f694d70e,
  0x6a4473766cbc5daba1b5f374ca28cb6b47b56084616f07b4515be6563464ffa0,
  0x3deea1b1506a815cd040bb9feeffb27965fe9c70db569d05f9ab4d1ea3e67df8,
  0xd7ebc2e2b013f0bf86026ce5feccfaab303efd87e2ccb7ddd66fea8c8e92844,
  0x72c110cb6594c691306236da792b17268e5492d5e225324aa7ce4420e032f660,
  0x737aa6fe9fa444a7cea3b575a04defa7eac4e432f2e4e22e24ea5cd111ebfff8,
  0x1857afb7e10cfa25400fe614bce60219345ab2e645107d22f2370ff383c1a659,
  0x7375bd5647f695f9f049fc58af043e4d7db4ea307be6188280228095949adb17,
  0x196297a4494465bae57fab0998fcc32db0759663942a661f874930337a7612f0,
  0x81e3c5be5aa11398e467ca7edf52063d5c5728cd14c0354abb0c68519764289,
  0x15529335d60d87fade7d17a436486d90dadc7579cf668569671c83a9f3e3f025,
  0x77b56d2f94f90a59a46ad3c4310829a84115b36ed47c038e37d1c796109e919,
  0x12c7822115f6d83c9665aabc064b91227ef5dd5c7ce9e8c320c7bc3bb2c4e3b1,
  0x6c2ee524b6956ac02dc8f91cc208cec2390883c16667a28cfe38fdd94af102ed,
  0x20156dc91fed88f2a647bdd167cc5c880e31e7413cc2dadb60fc990d166f39c5]

def cB153 : List Nat := [
  0x38245916d703063b9d529386dad518a2b16ec03e8ca583cb2e433c58013a79f4,
  0xd8c12d633c21559e982f45df1940749857ff3d6f0377fec13ed6fb2b7a66a6b,
  0x393c00729da7858cd1ee8138a8bcac723084e689d035a7839594c4329c18c74b,
  0x323e3c7b9163146bee9f5a931bd7a4e48298a7819734fcceb8908af2756b0862,
  0x18e023487c4c41c61c332c7e847cfa746dcf00778cb9112dfbf1efca0fb5e2fd,
  0x11174e8ec5459d3561ddcf30a7ccc541b400012f5796ec4a25ca0531272e2938,
  0x1c61f263ee7f1446ee9f38a2dff79de3b1afe853b105afed13f4e5b34f78025a,
  0x45f1fc9161735a45c263f11f7af3656468d2b0894b55f6f093a58bc3ec0c22e2,
  0x449a716d0536e8f72cb7a9f0487dedb406c2f83a3f1ef8f9fda0f2b2c70a5e61,
  0x72e3e955943100b23a176d850b2a3517e4b9dcb9daad99fa0f80165d4c924ee3,
  0xa4888caf6840c133c9ff394d29dc601715462827e7f263022d506fd247cb0d4,
  0x4981af10aa4489166eb409ed445025106682f4f8d7570bc1ec0e8957e82c9405,
  0x72a697888cae02dd4b61c505d249145c3d1fb757d52f6ee9bc9c04eb563537d0,
  0x33e8cf4037a0f8745bd995ee9550fdee2ce1abb47de74e385414e827debf0310,
  0x502922a94efea95f9b1c7c2361d871f02c3dcd52c525dcb69a261af4e36adbbb,
  0x30f292bdb83a405e9ec751496bde291a0ca6a5480b12b517354b368f526436dd]

def cB154 : List Nat := [
  0x6b0d872f17019b0fc1af5d579fce98eb998702a100b63caf4528c84f8af909e3,
  0x38bfb50a31d151897cd8c3b932ef8f9e07eae92a010c248c58cb8cdaaacad92d,
  0x46bdecf9ac7af61afa00b893152dd0a918a5f1c09b7611aaf37ea317523ddc96,
  0x410ea2cd319e07e8f67aa8a8e768dd29f7b80814a166d09402ec2b6d69118a01,
  0x44466531e53681d8d171a38e940ec4a084feb15697e9c2f563d3a7b4fe640300,
  0x71d28d7d3b1738e6b0e40a57430dbea8cd8455580900020a8e0b5a35e06f0807,
  0x164e678a4a0007dc3ba712b1757b609f8b55a59c94e0ef5a626d7c5aaa85446e,
  0x4e77aa2a18a55c27514f92a26c3407f997925d72025b8ffb95ea707042cae581,
  0x254892d570557ac5ee21552c08bb3154ccd384e684d2788d39cedc1c362a34c3,
  0x5ac0ad67100a3b4ee1f1c3703c13fbbb3cff701c9fca353ce06158d6248f888a,
  0x67b6b418e2cc4d5337407a037614e4253f1ad81ccf389d57671b85cb5920d8d1,
  0x53383962ea2a3e1c055aa1de67064e1ccec6d217da91f14d142b63078ef70688,
  0x262ff44d781cbade73361841f6d794ac3adca305b344ab7060e45a16b0d95dd2,
  0x5cf523abde7079f192607f38ce5f837ad2782cc2c2d8bc5690bf81cddeaf8d12,
  0x31055a0df071dbfbaa8c73954b66dfd6d616e0df0143979b973396992d6cc289,
  0x34fb2197765a1d1b499fab9b80074b5046accb7c1cc532ffcce25543685b3eba]

def cB155 : List Nat := [
  0x1d53f004e6c0f6f96877f6cb5a2f0afd1cc24e8aec43541e2f643255eb3c1c4b,
  0x1cd7c720801d92dc08ba9942bfa1658e9e347e658b247b79ff319be513893bd9,
  0x4211b4af6c56cb42d914654cb35cff4b1e68677698a0ba30a134cb3a508c82fb,
  0xc9f56e0651b30934b932300511ceb00dc59a99693ee4fcffefd5b00d93596a2,
  0x1072ef28a243a2907e2d45cd27801989b2aa5d47ae1934f1e44f4c1c7a962dee,
  0x2ee607a275f1f433bc8f6a734bdc14325ea5a3937d429325629714d21a4e61de,
  0x183b0688744a53933352e2682f2499b90005066340a19d4dbb409c7011ac3e47,
  0x48e96f04350773da4744ea1beeb30305549ca722fdf19125b5cc57d05d67f39,
  0x9f24260ebefcdc511496e888a227d132fa5b8b86fea5f73f5e4e0e9d91288ca,
  0x46443ce1c18f1faca0af38044165427da52a044ec7b8f28bb48d11eea4e8c5d5,
  0x522db1fb524059cea71fcb5d18f3234ccab06c423513bc129b1cde6f0eeb44d6,
  0x1d512410944d376682fac0fad114affb08cc8250f048010679792668cffd3c9c,
  0x11c191d403c98b393fb0ae20797fd8edf55e1ca30434a2a6d22faa94732c0e5b,
  0x5049c9758d2aeab5f16dd715fd46248657eeb3357856d1284b49e32c58b80585,
  0x6a24de0221c561b4734bd986fa6a63af9efaea2bb8fbc4762d3fb84a012397d1,
  0x19c33aa6065815f57f62c2c6de857fd1c3da03b72a86a664fad23c8f3c6e005a]

def cB156 : List Nat := [
  0x27f57dde40a74e9c7c6e1088e4dd45de69f0bfbd24929988f14cd605aa1f1da9,
  0x4cbc1c8f1c4d46047e13d10cedb4e1528b5a5e9da8eb65c2ab29ae841fda5dd6,
  0x25f6e7a969daec3eb89bc857ec6023ac4e64309dd055c0852abdccff1be2da16,
  0x180065fd2006d06ceca7555550f5ac06c33942ac2d2996eaad16bfb412f7e459,
  0x287dbf6fd607b68062612cba3dcdbc4612cbd5475ac47aa3deacd1cb5ec76f38,
  0x530139110f9f42fd070f8e7414165ab193979bbe2f33b2a895a31032ce3562d5,
  0x11c76689c4e2376ce18e1c0d7bcddd095d4ecde5efcb05daaac3c9cf0b031860,
  0x3021c49914f1986de89d04640387afc64070a4b082f4635a032df4cc52d0c714,
  0x5ff6c3853e65771d086a73d8d107dee95bba3f9c7687592b063914f29d0daa8c,
  0x666fc3b96646f665171df280236cadad1109cb543edc94247c7749c502e4c690,
  0x286359bc8de58e64ebd200187a27a78149dfcbdb0687e23d92d27c89264aedc,
  0x1f0cc2ce785003803f8c89d1d048accc2d70e22baf6ae0e4a49a7826695b1a77,
  0x567f65627f3b8294e9e3a3f4b7a9abbead3aa75dc01e5a1d22207c115860752a,
  0x1500b82fc00f4bd418f53315358fcc555cc8432f41faed68a9c529118402bf41,
  0x7ef22cd7c4f1b41338f73c0078f1254cceceb652da594db9d3be922470aa472,
  0x5a8ab05c0cd021fb557891ac00917b424e6932d192810d2d94b810e8514ba79b]

def cB157 : List Nat := [
  0xb744a71b00f97da7eaa900902d329f43fc3aa3027da832ffdde95b4af83b0c8,
  0xf8482ad8c09346011c5c8e8722118e468383a53115c7d4348332a1bc99373db,
  0x3cf0afe9aec8e6fdc8b5090aad61b11bbcaa844f232fa421a00f23b88c31b2bc,
  0x6d23f8b8f67c28f82786266ae080c0ed08ba9033b969f64825fe975ac22058bb,
  0xaa902876b7e749bf4dabfa4e6109533ded4e4da57edd3aaca2abaa12fdcb7da,
  0x15dc3038e57a5647e278a558efae1509ca047b47109cabce7cb6d1fca3e2872c,
  0x73a71afc3614316721a2e0d6df4bd4bb0817c12549602ae5d324f6a8560bea30,
  0xdf1f6e99a4da70ac8102463d5aeca29e0cb6e1f528894cbe60fcbbb7005783,
  0xc8e037a551fd0b11d6003e49fe1e047990276dbf8512b41b0c1cd1320640bc7,
  0x5a66c49f4e59b32aeb7a8b2be3dfebacda7e0feb8b64b66eaae5845c1ae4b42f,
  0x28a0c6298af970c701a4360192ce56b4d8f37db336c5ae87280f191d0dabd032,
  0x108bfc0abc7a10ddce2ebfc7000ce1e7778e33c996645999db67f1f4df4ac13b,
  0x560bd2199df190284946eadac133405323b09b6f2f3940c4a810648e489a00b4,
  0x1708678773682dd6665f6f907e9608f29bf4a3c40a4d91a73ebd1cf0c3eb5fd9,
  0xbca193d0288260ba00ea1b3b605e427675af6f7d959e9f6912fb97935b6af43,
  0x6a3a83780fc046a3cc039aee1b5d474ddf725226638b511e316d5fa2dd28ceed]

def cB158 : List Nat := [
  0x60568566794fd4d8917ee961ca95299ce6e6d88d739dbd184b6cd3a4fed6adfb,
  0x4764f1b16aa5845bca30e8bf100d333fa3856b5ee58b73be206b8ebbdb5a2e56,
  0x405b967bbc1e340088f6a66f7b35ceee9a085613b6a63be9b345883893fbea60,
  0x2f26da66c5546554afd08cfdc71e4b43a0773f563455d9ddfc01ccd38fc4bebf,
  0x593b02479b1396bff403ce083575dfa9c21ee9eade393fc58bf38788ec2d175c,
  0x2bf14aa2638d93f20bfaeaf0b2df30d71271af1c3c1ec0109e4c3ceaa8daee1f,
  0x73ac018321e5123d265efda8eb7468a0b1a15ee9461858fa47cf1cb232eb0c47,
  0x3fb050c01d83f9b9cc7821ed4a322584fcd1010a44dcbecfaf0845b1b7afd309,
  0x2fd59b8a7c70116bfb1f8fe1eba4378af7db8179219d6ec2391e76b09b88b99d,
  0x567144c09b5e1dca147c17c1d86273d366a83461eb20b1ea6e1962b05fd11bdb,
  0x3de31de4ef59077c90895d21a229ebc781da492f3a493b7bc88b48ec58861c6f,
  0x3c0c0f707bdb38432e9d8a81283ff23aeb04864a8891596a4188739239620e3,
  0x10ebef8f01fea7c3868b6e81570970b5006a25ec2c59458bb82e22ee776d5cdd,
  0x6dea9125a6b921a7c586b4ef7772706708a9a68f5aafa6d39a3d583c9926e8a1,
  0x5b36f37c5b639227b777f44e3d1717bf44d74e86009ebcdb958182030167ea79,
  0x13130c121c355d2363eb2daa9e74b27ce47e6b49fef5e4f4443e0b218da170de]

def cB159 : List Nat := [
  0x5f57dae83c4af0e242f0b2cb4f26ad2bcb4feeaa38735587d42411f152de76a3,
  0x2a478da214d48a331bd50f3131bf0490cf5bc8a08f98f010b656cf9c3b24cbf1,
  0x627a6a423ba3e4863a14958296364aeb76afcbff5ca17003e8c04dd2d7ae54b1,
  0x2ec6364e4c96c0befa137b12dd071fa686efcab04e26254f773b3ee26019c6e9,
  0x1f184fd309cae49a38cf510887f4e852649395ab91785649b5574efb4939a734,
  0x68e94e539d21efc0e86591f59851dd5db0d83505ac230e370763ff45ad87586d,
  0x35df91b6a115e4d43dbd8e9c17d0efe090d739ab898b2fc364703da536e72350,
  0x235ae5a7541a220a052dae59999803a1f12e17be363ae0bcacb4e8d924a13676,
  0x40969a89ab1f6590141b79841d20c4a65e6a053dba5871eb14cd0db9cf8b2c81,
  0x4c66016092fac2ad808826b41e16250ce6ad02471a0cf8fb348bf0747bb26f84,
  0x14e18a8719796cb5b0cd2e70848e56d90cb0fe1662992ca6833bb4fbdceaa4d0,
  0x61500265963370d362102ae85349601981e5c8a55266bb31d2f9445b2879c0c8,
  0x4160ec32e278994ea31a7590c00540ac7c109adfb0ec2d423badc0b9026c2904,
  0x3cdcf861e15385349a2fba014dc6a0f71e9d26ea9a01f56ad5bc57401cd1c88f,
  0x5eaae1ff7052be597ecf877a96202f7512b97d1c9d98ac61abf8af93bb4be259,
  0x4f40ff095446ab16d0009a38f91df78b0d00493a3d16c185379772cb03cb190f]

def cB160 : List Nat := [
  0x2df4843e7b9e652bdaa1dc6b126207e414ac97d92c0d0472058282ab9ca5f9e5,
  0x34e1a6b4f4d0b446fb7d261306dd79f38499a2859efc03dec766142e6479637e,
  0xa45b7115e84e0e7387d997bbade2404a0e42999113ca385ea2f7f9a6122f946,
  0x60d89875a11a16be90cedff8e05c70915df2e9b6c753dee3ee184536f61521dd,
  0x6821ca71aa797325ce0335578cd7072bc1b1fdfe16929257383684c41782bcee,
  0x268cef812d85757c8979a15e2feb6a8ad94405d1b8e34520bf575dc54a58821f,
  0x28ec327a66100ebe4e0994acb7b7b04c354ab9e637f17ef1fa9f9faf227b915c,
  0x6b369ab86492927e2c31cc774f107da62c834dd0462cea243fc474dd026244c2,
  0x37e49911ce7f9c29bc082e20101e7fc52f82bcb969fed46c2e033585ea4aa088,
  0x2a15c179cb79b4d83101109088ede4cae461ee604c039a542f5ef8bf966047c4,
  0x17606c99482e8dcfaf29711ab9372f6dfd3554371c954eafdc6feec248122c6b,
  0x2849cbc509d933af9555450b64d1e73911064c7d47e2b2068d85160b8bb02567,
  0xfa8b3c0b3807f6a1dc52a329097af6d5257266227675b49b3e581a1ac5a6908,
  0xfe635c6c14aecdaafcd1aa1d29f259c48d388aa3c8e9ff9cae3c3894be88413,
  0x6f8a4a9e4693d4abe57958d0518076e8634c020c42404de5a7ed368d2d48fd75,
  0x65718421d46f3763ad69b33dca2e39df66a48bd95bc1b842359d36cb8c6ec44a]

def cB161 : List Nat := [
  0x6df0a8a99fdddd257ee9978d21b08819da1a509c5a222bbfc0ddbf91bf085748,
  0x660bfae606eb967225e362677422d922a70c910169a4b6aa08a72b39f523c045,
  0x2ae287d61786dd25560703fd250fecaddb7e16a0d180e78acfc73aa537e544cf,
  0x26bd52f786df186dbbe791f6b05250f9ff59a8b818bde72e98b95d98a2bead3f,
  0x6978a8c23ef82ed51bea6e2661db5037fa26f16b24a8b4caa079aa59bff43a92,
  0x148a1ac055a1bdeff08afc65717a13cac0eaa385e2d1bfc3dd8defe1bee70b3,
  0x252265e51708691593527fadb13a3f0230d625c80b9ec75d9d4e131a39f47f62,
  0x3030888ece9c2ad20b31d10090f8d2a20d325ceb7c4a25baae624b429f9fa3dc,
  0x5586ed1013fc4ace5aac1304eee55dcd247946328c19a4e0074a8df287e8b7e1,
  0xa0707b2bd1c5023f06114f9b233cc8d8fd979c6d4f9957403f2df8b6858f92f,
  0xaa76c969f06ebe1d1952cc62346b87aaabc2767e5681ec6f9324f5859b61685,
  0x278ec0d1a72af1c65023ac2b8013eb8453676656c1a659cf3fd88cf7bd873284,
  0x11358f3ef17aa36fef26a03cb88f6b75ff5bf32050f22c9802c85c4a2640628f,
  0x4f7ba8945ac2fb7217bc5749d187bb03b5c66ac47da2b2446f27d32e52e094d1,
  0x17de3fb61a130313d7f49c39edef8ed644d0c5ab9ce7ebec5cf8ad45b6c74075,
  0x4a17f6a81fd8c6d8a11a8612c38fee48e5abbc83b9520ce04809e1ce1c3b4dfb]

def cB162 : List Nat := [
  0x5c756b524e4fae05f8fd693d5dde5b6c830805c2925f3f57bc886decde846609,
  0x4db29e067625188f056cf021f2f8063fcb2ab1e2d404ccd5ad535c94754946a8,
  0x3003cb3fc172173842613577fa55783ca43a1b6f5789ceb1526cb07c567b37a4,
  0x5a50251d6507152f4b189872780efdafa27b2270cf0af584665ba8721751d7fb,
  0x5456ec44d93acd1fc2985af503a112852fd3ceee6179c6394d4f475d338a99f6,
  0x419fe594b9c35cdeb6be5b721c61012341feb11f3af63183dd1164d3d1d88f95,
  0x1a40a0e2132e973c03f94a5d732baf9877e39f19efbf1f664c0aed1ca8a3974d,
  0x34159fb23521bdab003028b4ff7887bf0ee1820f1f59f7d9c833b4caf1017fed,
  0x63c2df29c8ce008efd08b8155b9a781c9646a2c731b2d37fbd1728e5b96f1777,
  0x6f856ec47bd4ecf6560f5c31f4c7b2dd78fbdc5012d5d1fbe82b7a0fa7cc31ce,
  0x61f2ad101706abed0f854cc3e7d1dd2dea21c567a30b32dce2001bbd1e558705,
  0x58373d7b2d9ca9cbd8600bfea7156a79409a28f8099ccc70e5d3cfe4076484ee,
  0x3660069d38cbac70dd79452a3776ecb8b01d57174568d8b9069fb99501715230,
  0x244cc10dffc69ac902b9b6f852187e7ca0b409eefa4349b8862f5fd5c899c5cc,
  0xb0ea6f2c0d5f6998ffeadf428a745793c4cfec6b625071e6bb037dd35f2172e,
  0x10e78f8bc048a892695791fa6ad94508f58d4ab2a5aebb12e037b4655a24836e]

def cB163 : List Nat := [
  0xa0bbb035f86d1cbc6cac71266acb245534fb9e75f002716efe958a682b00da5,
  0xbdf2908d2677d917cafadf2c17c833ad13ecff13f9f6d916bfea6d77a7adc9,
  0x19718107c3cceb44c3e3c566399057fcabf4ae9d19e71625e512c99e1029fb44,
  0x2d329c6fc75554d47feca3a753946fbccaf4c744faf24361c5e197d374e1be6,
  0x122bdab9b5175745de67cf45424ec7d0b37eb2c029be79331b1365edc3a5286e,
  0x6bbf81d951d7c73c6f24f591bc7b1362156da90a4c271b814f031de94d3c213b,
  0x3c6e908fde359d0e4377279a0450d8041134f318a4c191b24f4be8a1656c9a87,
  0x448f01433ce6192004b3103d3c5bd6587d6efc58f4d240d3759034dc91c0906,
  0x73b8d41a805b1f58d2e1c9f9781c0b9edc40872601b11fbe2398552d2b08a71c,
  0x4da9f6d58733e2aa8adfca4ec3d10473d0a80c6cee7f9245a753b16e98d78cf6,
  0x3e6fb67f8355757bdebbb8ef25f05e58e39dfda6baa51f1ae44732bc7b348064,
  0x594ef5a8f25f2fbd2894283487a7e23dcdde9fad4419188e584ef09ac4fc3266,
  0x6e838fd730d59942ac2d292a5098f7c19159642fc00bdc9d71bbc0a36a3722b,
  0x3db734822067b29d51bc2610ea43f7e203fbe06a4f17d5fb07b95d7501dbaeda,
  0x348f9137e1b672e02b516ff9b4802cdbb10618b76228c7723d779ecc2fa51161,
  0x3878fe02eb0916c9f1cc61b2f6ffd5111c7bbff12f00647ce9510a926fc1d2f]

def cB164 : List Nat := [
  0x473201cde740e934cb63f5ab0caace2cb7ef89ca5568a007b83365ee7ea37510,
  0x3f3929fbf23cbac39395a01cb74ae38190c04f2a8f1203eb79aa132abb80e8b6,
  0x582b5a420a47d595d946028b394cd1598ac04679e7998b925088d42e9254699,
  0x1f494ceba3f00c2d453ad7c671925020ba581a816f4e616da7fbb6d3b1145ec3,
  0x18cc6d1d7fc1d3656b87d4e8d45c33ff07fdce74c1d9eb8246006de5f7e75df7,
  0x3af5d0886eae7ad79c2291e04c875f2239ffb7e9c0c6bb22d54f1ed73682f3e9,
  0x4ce661bb79be70ac993bfe6855dd739a057bcff075061c6550f986fef8435f7b,
  0x71b419531df490b36181a39457ddc29ae8ecaf5177ac3a15d2b4389d7efa23c,
  0xaec94b5d8feef7e7bf9407b2919e16a51d7c1156a7842a40767efa55ce77019,
  0x3b3f8da490cc3d2e16b11a9a2d3e51f00998e2beac28a90aa587a4c9538b8dcb,
  0x4e0b10d58ebfc618de2ddb020b2ac7ec641cf9ff0070baad2c35e987961f77fa,
  0x729a1ecca24269e7984c2df3782bf8883e0cfc59023859b3b8b7d082e9662837,
  0x1d92455e32cd49e0cf55b6aa4d207ba2f2a2e1122b2918d6dd9a92fa468166e6,
  0x374b7293af8691aeac46b083b24dcfe4a7cffcea6ce87f6e831c132348b9741c,
  0x2a3fcf7b8a0cf405bb1339bc128a2438f4516cfd31e10185b4d4447c74439ff8,
  0x12e9a6d7855d0956ca3c1304927aaab0d3cb35919ebf5996e0bb1f4b1bae214f]

def cB165 : List Nat := [
  0x28d0b70fd180f2e0b21ce7e2a419fc95cd64916733790d13541fc3d5b176148,
  0x6ec9add4d5f6591fc57da37b76bb18eeadcbceff72604de1c024844d8260d5ff,
  0x2d76680f0290a6f795f66a5c763ad61763db1c55d956aaddae9452cc65ae2452,
  0x364e14cf01d9f0a6cf4357492e2d4d6b500f33183c1b37ac80f59cd8f5e4c1a9,
  0x2295d7543ae847d0520b180de23d4f1950cdf3285c4445bfae33422a7d4e3649,
  0x34a174ebf238dc4da2ca96bc86dde5512486adbb5486257d613c6287f071b995,
  0x65d0f484a9d8a57adc14902c8cdae91e280e68524dcb06b9a9d369dc85590fcb,
  0x411b1081a21547079c9dae1284a4799cf3de5d4b69c6b1b5bfd0d372e3c28e82,
  0x5cb2666ae8423d322a6055cfe54c76cdf161940b17ef5c499814056e0c27bbcc,
  0x280e7eb4f4007c06c776ae6155ead6e50101a5d1a7d1d98ff0579cca57f98822,
  0x2929f096bd58278889c9f6842c7f86ab22ff30be4cc870d1a32501a2889dc75e,
  0x2fa1b8cd1ae2fd7b214d6626abacc44c3bbf1dcca9a311d661c29bce64393600,
  0x2feca6dc2c1f9f51e789af59bb6e1fd964415616b2543e203625ecc5993c8b29,
  0xeb7884002eac63c0f10dbdc23ccd77e57e2772a70e7f3e6d7cfc08cdcc16f10,
  0x37e2d4a5c1cc993dad4d977097fda1e0d35382379da56ce96f90d35b06cf203c,
  0x41bdaa904503241d5ce755d7858308c425ff4190c08dfbdef810d32c8cdada5e]

def cB166 : List Nat := [
  0x3be251fea7eaab29004912b6336bcee5b2c6ffc127ad6e3ad3d686524739c4cd,
  0x4647a2f9cdc60e19f51bcdbfafa9f803e2ca6c217d7e1d2c4d7fe25c542493c5,
  0x4a470d0baec454c3f62abc17ea7b9c8c48c6605d26e02787d52ce17c1a8b097d,
  0x20a4cae79941daf0f40f2f40932bfe147dfc8410dcc81bd2c16a705da25deabf,
  0xca26e7d937458b9e144a1216236950f65e6935336153f7412e822ffa5cb8eaf,
  0x12a345ee0a27c78d8a16e67955c9badd6d3adc8886aba247961c31062047b491,
  0x64f8d0a6a0aa644e07a15b3c2ae5d7a4c8fca8b79e0ade207b0954d43339adfa,
  0x72f75bef0908058ce993ebdb946ca4683ce3491e7e4c5f8887a7ebdba09ce1ae,
  0x5d56c7bf3f6ef65221f83383920c0fbac4fcfbc7ea2949e194d39cdbc71ebe0a,
  0x467c0fd20ae2b2fa8c687001ed1318ece0e51b4190f1803d6462a5b2d912896a,
  0x2647d41c502c88a965101ffbaab00b067fb956023b26e7cd0eac5d1f3f0ca26,
  0x18f78930994a8520e81e625859175a8b6889ee9aa758cd3a2a1ba0f833be5c9e,
  0x51fbb741e385550d529c9108bb1027dd62d8a09dcffe3c5a0bb8a0e62795ed5,
  0x109c4d8ad984a5b6cb72aad9f6b7f7ec77a64238f9a2fda40e199416588ed11e,
  0x5b06f17a556d6c262494126d1a5845aa51cd517008e507424c8f45c1b0c0724a,
  0x1fb9f1f326e5c9ba7b6adc3439e9e3db5b30d682faec68f9d648436047d9db33]

def cB167 : List Nat := [
  0x4a9ccb1403b4843abefc88a85918491cfbb74eecc1076fd1bd8b8275da9695ab,
  0xcf5a841199aab07fb5db5b92d212bfe97ea0508ec6cda7cf9ade25564bbd3df,
  0x1ee69f47982c1bdd8592cfd4a6d8f4bccce00b18b0e16743f06dbfc98a35572d,
  0x6f66f9f0b433a118dbedccf80ec3c442ab89539b0cc5384d14a723cd4bed5a0b,
  0x4a0d948c4739c95a72a813fad733d9feecff0ae9f8b7e7a76af97ea7b328486d,
  0xa0f4345d7eb4346613bb1d2080a3ec182f5b708c294281f0a18c75de8ef51ec,
  0x3dbe62d3cedbe05ddcb9353b791b524364944933c31ce47b59e081e393814aaa,
  0x407705e82aba21dbccdb573807a689ef96fe4d8986b6df7cb94559b4cbd7e55c,
  0x2dc918f6ec8de941198daa31386ccfdd0af9f2de1530ed01d65ece63eeaf99d,
  0x5267421ffd456c38d24f24d30ae8ef78e1e66a9ad57144b4ce7962d0da04e547,
  0x3a52b6e21f493911569c9ede4e3d29cc59765e0ebf1f0fb4d2cddad48d1fdf7b,
  0x64daa0482b824a682f874b5628eb7cc170322fbee649d0d56b309a7e6fb441e1,
  0x60a350a37896e05a86ea23b74e6d27c2826be35e63081852fbf98efe86df39f8,
  0x1b85105266697cd0858ede7342c7c657e9f1e93c2a92ed91e7ebdd8ac7b42d68,
  0x12d29e71b58b1902d7cafbe34c415d31545bf032ba6a393f4fa3f02fe2b1abbc,
  0x6db3b248bce1138f1d1557a30af04ea8d906ca6d481a391d10846c3c614ec49]

def cB168 : List Nat := [
  0x26daceefec491bb4cf03c1c8594f3251c46d330ed738e8fd76574ef2ff35365d,
  0x64914f046670d87b83e8c5aa21ce4c0f3776abae9aac20b751808ca0432cfcac,
  0x2b41b54ec161d40d51df472430ddaf9e549003464dee29172429db1b3f8063ec,
  0x36b126696f98ea91b5fd49599f8eb8ab02ff6cf2a47df7db482902af8e5297e7,
  0x1e734dabb28d4a506ef458119189b8307d4b7f87938297dbef4f7a2ee26bbdf2,
  0x680efc9e1535daf5b169d12fd7be6fb95c3c547e2e45548ad585ceb7d4562b7e,
  0x19e83151780773c97aaa9fea26f25e6f6bf232dcf8f3c0b15ebb8a3cd2a4a14d,
  0x5718001e7fc2a7d09bd35774880530ae4886f8982217c4b0ffffe83f1db0b1e2,
  0x634ae97a91ac93b737af564eb1a0bb070dd0d0517ab7ae0e9c461491c487f03d,
  0x6038fe5a16f29d45b22fa125645fd79e2d30e0e87a3ed9a21a268f2b1dc54a35,
  0x5c716be693689edba38a2788e241cb8ce85cdbb0066db9ad6a7487c5ae263a75,
  0x1babbc1343dfab71c3780913cf4e6c19b01cfd57accb9736a030df138b1db882,
  0x32304ca8361e34ae37c5d1dc54f744b505ab11cf09f9be12772527defe46e501,
  0x45047c893e4cc91b89196118c68d520c69c988ae1b21b68edc17d07b8f98e444,
  0x36f9d3b850e0420400c762055a3edfd143ba3ee1b79a5100e623d433a49ceee9,
  0x8bca2baa906fd7214c98a19ae77fa7cad48d3f49e36564cff8142ff8c52c6d4]

def cB169 : List Nat := [
  0x561368d791c861faa1855b27700b2d0adbe625a84bb781999a3a718297d4a18,
  0x24388424ea3c5836bb3e826dcc0c54533b1d403479c585f3f8da3a83dd9ae9bc,
  0x3c72447842c5be46ebd5f1832e8944247405eb928609d101d9f1245e79c7c502,
  0x4086e8c1f3f0a427279db3de97b23de25d29aef97a888001c29799fb4882eebf,
  0x7b755512f89fbbbe6618922e184cb51c5ff8a1ceb44ca6ed6309026d0a48281,
  0xfeb0552f15a4ae0dfdda72dc82b406126c46a54bbbf3e913babeba74668766c,
  0x739aebb861265d07cf15bb36f6ec2607961b889c2a9e05f03a0cb931ff411ec2,
  0x141a452bf7e7d6bb2c61800a80423c700dbda8f68506ad2c9cdb25cfe5c6a1fb,
  0x1ffbdd52dea24b219233535746729940d29d53f4e57dd30036c8587d77bc1d61,
  0x23097fd661054d0c4558e78895a46a3cb61a3db140e2c738f04db391a9cd86a,
  0x6d1f3e63e50acfd958d94f3d0df783fd39ad02c47344e26474899c4c7cf9c5a1,
  0x29ff734744bdfd3b0d05c459372df2604f210c6d80216338ec7546a7297fdb59,
  0x2a2e7b42b8ff3167f018f0f464c3e46ca9b3f492b37f18c05800279da2f8040d,
  0x29ca9e9a496f7344a1b7f32c075dd806cb260bb7a45baf35e0e2f8de30d6e781,
  0x2bd2fa5b38bd9b62a802da8a34ad0a9081d23e4f4b5f5d6a8c7d70441226f35b,
  0x583c30fc9d7cc01e713e1941ed0b7a17bb445c22781f7905d10a2387b02145a0]

def cB170 : List Nat := [
  0x46362d44301ba429f0f16767583dc68d3d3e29fbdd91b79527cba2d5ce5d094d,
  0x8cbd036fa2d3f3317b4ccb6b71bd5dda1c59fccf050bd632387f4fad6ce8d37,
  0x39d48c8ec3a239eb9b4cfae2c1b555fe1e1d131d6fd6a36efd60d36ff975fe77,
  0x6fc6a1dc70394c8f4dcaf01a1019a0759541d62c38e3b7d872d97fe0fe48d04a,
  0x294c1e52fcc2eab213042b90253bf77bf8a0a7642911714011ef6c0b6f826796,
  0x2123f1a0cdd5862596e8ee92c6fa6b06de4578c942515f8a680a5f82bf53501e,
  0x545d40e2166ca7599b162156effa9f74e3fd3ca9842d2bc70620ed1f08e7fc0a,
  0x6b6d44646d857a9d78d2030e4794304f366093958352f78cf519b39ec7750ca6,
  0x4b085bcf09c17914085caed2becf8351fa2141f86a8dc8f823107721fcb53331,
  0x94507667442987493c41fa520a9432a70d48daec2bb50f0c5bf44a80abaf5f3,
  0x2462936d32068dbd6c01a6bc20ab77dce471182fbaf96893defd3c0b3ba51b65,
  0x5a07949d111c41a749c8076b2aaa167aaa2dd60b37b86b5981dd4ad69002e425,
  0x2efe01c3a749e1d6a4f0ff7adc3024ee8946e06d8ea76aecd9f932c9b0a51a63,
  0x2426c488966540558ef9eefeb5369891dcc6cb46fc552e8de6c164b37391b8e5,
  0xb7f9a4ab6b50bae248acb96b1486b12f2de856a2e1e012c6d175e0f415d571b,
  0x28ba9ecc5f9f1b294d8656332a2224096b6c42b10d937c8114d82b59a15748b6]

def cB171 : List Nat := [
  0x4332b7bd6e86b68aaea25f1c07892be6618476d27dad3ccd09c726761e72f417,
  0x584e29b06952b4cba66ffeba3ae28199bcf8c2c0afb32a6e8f1fa400b124bf6f,
  0x2c3a74e9bbcb32ab497f4d4b69c215acf340826b5c8d2308a3ebb58e951b7433,
  0x1d57554d4e4fec82977b3441c2df2282502654b77026a243cc46db96596a00b,
  0x5fed189d6fe3c6121025e8baab459101448e4044b5248277d3c858267962abd2,
  0x354e53c626b7f744defe6af389feffd9d335ead00e51019e595ad877d83f5357,
  0x6c15647d7aead159f8620dba7252b6153547b13568c2f7d2e3133179841976a1,
  0x57c23a865d2fbf1a08c61ceb8606a2c7958f80e083d00edd9ecb8fd81c73422a,
  0x174bff7692c88ffa9a89a58d30d399204bb20bb5298acdfe91bbf4f309c0b340,
  0x711dc1c2ab2063f3f3147408fcdafe05992acdecc88f36e2b867d044a71952af,
  0x4285b67a1a8b337db678aa7b2aadec9bafb4b1f9ab43697c212b600bb410c9e6,
  0x2725fed2a96842333d9fae2d87d169a6bdcc61a5b5ffce50d6f18fbbe96e8c1b,
  0x53b31be049170ca8082c3ae5c3c508697c13cd1b1757633781af75894655ec8c,
  0x52d9af2f8d3f12df08564a00bb10ad0a7ccf364b8b6aa06582fa801d32bda8b1,
  0x48891f45190c6b4f2d12942d899f67fc5e34c3f5af0d7d2afee35af45ba36b78,
  0x6f014338f3d3f0d124eda38dbda7bb3808246ea5d98f31d324ad01e7141b00b7]

def cB172 : List Nat := [
  0x3fad240300c0f19e8ceb30126789285a80d33e5b79a51b0c09124c0154761ae7,
  0x6bef84a9a502fd737ed67b7d8082ca4344024a56fd43732aadb1b7e983da5237,
  0x3b74485db35d564a859b0aec860df192c9d6900cd81d8ea412ac3ce570239a38,
  0x2730c36d8be41d3ed6a24b7b6b60d9086ca0c5fc38bffce09522f623177f480d,
  0x1c92fe84e6a48bc6a945dcbafb1aca132c9c5a2907ea050c8cb239fd0e96b49a,
  0x2726f66d235c0ead1dc707ad23bbfcda875cfbe0c3d299721ce1eca31574b5fd,
  0x4d69a8ee472808e8e85f14d08a37f27254da9724c3cd45e7c95fd9b455943e3,
  0x28310a95d3a9ec21f027d9e7960ddbe09f6d5f94562ff3626a14311b614dedc0,
  0x31fc4383b865640e9301745c3f368f7a5eeafab34334a268e52cd0d69ff5f422,
  0x5dccb927c3ceedf669ab79dd80cc172bcd765cce330adf483afb946b0dc381b0,
  0x5be34d2dd653be47ba9eed21933cc04a40848cc62332d7d3b3db32b3cf42aaea,
  0x19c76fce2a2ff7c61c33442a3a4d570854a93b7bb113ef2b6580ea27ab8c603b,
  0x1dd766f9af647378c45f06aa9a460f3e8077108b421475c10ce5f67c74d8d0a3,
  0x262083d5cce1d555a1546a738b1682f6aaa7f98907a81591a505e8add666cffd,
  0x636ba1000e7310b3e1ba64d21a35de039e82dd9ca25ecbb30c267f65af9e0b9d,
  0xdd58a2a8303640f2985cd36a8a500e122234be56213c4453e21f38a74fc6438]

def cB173 : List Nat := [
  0x8bcc15e7485c7dec9d6ce626e24382e22b6061932afef648e7f37e6e32ad6b5,
  0x21f04d421c6b8836e3231359c85eeac343411e973f1de0dad066ca54e17da56c,
  0x272baec796ad044d9c1c443f14bc5321b8ec134c14bcde574f8c78689af3db02,
  0x2387bdfc1d25bf6342fd238ec89106d3f35a262e956c9417519bcef74c742a1,
  0x50256c34444585a08e8babbc49739454948c7aca98868f0b4afbfae8ff74b608,
  0x8dcbc6564d9c2ace73b2f7c6865f9c43a36339667e5b104ef9fc42c3372f607,
  0x5588e3e9ee16a9a7cb0339e4715b49adc8297d3809e38515f6dabc8ce341038f,
  0x70e3d77b516e0366866c9c68635bc393a13fef9db733acc2250bd42e54b55491,
  0x43f18c7c5f06f6e95e9cc4b32720bc9ed7707e1881cedf6d1a24e760f4b48e4d,
  0x2261036394db3919db4f786fdd735aa4db1c465241186abbbf7ddd66cea6cebf,
  0x5e6a934773ac4a0dd79fd5aaf6a5cb5b40e4a526e8caa773eb2ee72c3df8bbc,
  0x9d9b9ba2d8f0904c614ee9e4702b7792e6ee0f147427e9b3b43e3c08c4c8c1,
  0x60ae9c3c692366a11dcedc109a85485fd647649577e121994c29c2a622a8dea4,
  0x12f984fd0814b3b633decac68add45993cc8b5684ebcce811b1ca7794c91b414,
  0x175e93fd4602136ecbcdd1b65fb202a04e890cf4bed3fb0d76e444db65908fc,
  0x6c465d12732e3ada86f96e5ee2f20e23b51bdd25d1d9ad378ddacf7bc0cd305e]

def cB174 : List Nat := [
  0x506f30af4331c1a7541dbe081bf61f698d96a585b4a7ab812902d61f88e98989,
  0x2b172ea8fe80feed78394a7127b55b749338e57f118c971b5973d84d6d17fb56,
  0x1f6e877910e953530d6cada70768172623a4876c79ef7e0d4080fb3398b6dad3,
  0x72241f02249f447e16977aaf12cdc16e6485c32c41668450c91e6165f7bd0198,
  0x4050947df47fafbd3d56125e6c5eec7a0ba72651b748787fb699282b86706045,
  0x6e0fa9ea5bc8866804ee1b1f2381c5bea52e53f311bc7fdeac9414680bf12b9e,
  0x6fb2a66d1558aeaa29b452754efb574c49878a017f92cfda69e036a776adc82c,
  0x127c12ae23c386de47c7191f523449bf2bdbcc2864a4aa8c3ecbc33533c1dd7b,
  0x10571f77180164cbe6d9e072679a84dc0a9a810a4efbb4cb514361c9ae6bfa5f,
  0x36578e4948c790f060f8aec5a35c7bd36ba2450733c2e0311c280c8d4919d893,
  0x3d5b52305fd6fb657dcf3c1a99c8c9a535ed93f77dfdd19299eec756a84deccf,
  0x64279201cd59dfbacd305150afdb3e653fc4f6c8faa2c1aef9d6c0176237b3a7,
  0x42d95b8568a572efdc3cbf34acecd4c56f52e3625327750b8d2e368a3a762e8e,
  0x6c3ede8c6f2cc0fb630f30106f7173638f0221e0548bd2f8c0a9acd646613461,
  0x6e238bffede83c1947f029cf43bc39f7225df2e36dd6caa170a42696f2fb31aa,
  0x4410b4aa96bdf1a1cb0b839d392c0361142585809cf72588854f31ddd0d614ca]

def cB175 : List Nat := [
  0x18da25724d4780d35cf235a396a5da0c6a192b7e93f8d9c2e09f941e6644f34d,
  0x202ea3365bfcbd7d18cbc283ba077d2b71ad6f333bc3edadcadb0f5d4850967b,
  0x256347f7a607df917cb5dd1e3234b237dc8c157a250f54f98e1c593c3e155687,
  0x4956ffd45ff01a35acf0e8d7dbeee04cecc8e2748aab9066ef658419c551f834,
  0x1788788d2a2f487171c471ae6b68233c31c82902be129ba34fee921d2e26a90a,
  0x1c8dd8392dd1850284d169316d2b65bf9f8b6893bc04ccdbca894ce119a9f6e2,
  0x5f92cdf1af36e1ef78d3bb7461840dc6c7c248fdff36577a81b62f7c2750a5b5,
  0x6c4ffb94b75165ff2d2b3e367c60c5e9b95513aca103d335801feff345898260,
  0x16c0e80e1e524394ab1bc3085258b2ca0168b7c5e227316a414b5a893dd61334,
  0x3ae36d6d7a84c0bf284997a08b066a0ab247a3c0983a5745f99cf58f6c126f9e,
  0x44fae160a4c6aadea8ffe05566bace34449424f9e9eea2e122c8e73ea2f8a7e6,
  0x61c30f611acc2817e7727cb577d6d6bfa7396bcba1230c00f64a68988f9356fc,
  0x37ee5fc93ab969afcfa540eb397125049c775655e5e09a4651d59c696bddb599,
  0x2f624b728fa1fbfedfe4bda7c5b9595c1a6b4aa54f2d99570d346f64d82494e8,
  0x27fb670b53e663d7e56ad7ba6b3649d579d587b755a6391cf8752f55d2470e9e,
  0x4d547ae04d77aa1bc267835cf3b8634eea968bfa627fc23944400b43f846f811]

def cB176 : List Nat := [
  0x3b1304831543ae2f0873aeef85204d9834c46fbb8b469d68dc273afbb6c47f87,
  0x68d48a68f828a8b5556ecc6e90a183070624cf9a6c22ebba87465bc3c504784c,
  0xf1605f25b2164202e163eccd344ee35d733afbf7100942783ef2984ec6d18d5,
  0x699d86d4d5db3a2c93ecc31d4700572e12b0ef78e1d6c98bd683ce0f0feb3b14,
  0x5587c96e4ad00f70baf1d63616630acba89908f0782bf2151220a6e8560c167a,
  0x526165cab0d2fed519a8a82f8e1703a7010f6fbdd42f5eb85827e5e82c88f0e0,
  0x69a088299d70d482abda502e1f5b91c8a4fb6ae982b07ab8cee78bc38c58375,
  0x534c9c6a701a168b6ed51bfcb52dba973a37b0a07b3b59720b1b0643e3361e6f,
  0x4f685d75401f20c66012a398059053305a9eab6f5d52109f5a6be9dc658ca011,
  0x4a7b06a68f284d854153845740d0239f39dc6785a8ffed988eebf5fa1659d8b1,
  0x97ab8e67cc4c02f5397e8e98d8df10a2ced6d016ef8a197c29d585786456480,
  0x145d6149f3c4458873b8b1ea6155c11cf82bbe13e22150772b74efea47bde1b2,
  0x24ff8d110e67f27882c038979abd47aaae91794953a1200e9ef4677fa6c42bf3,
  0x5f5e68cf877ee3abf8a1cac42edfc8658d736eb31d6259ef31767b1481d76df6,
  0x61a1440b788a6041a113f063b0687fbce0877fc308bd4d615a2b7113d44e98c4,
  0x1031ea600ac4af46d79016e008aa59f53763d6ead3e5a0b3fbb74eb94b51a301]

def cB177 : List Nat := [
  0x17a51a508c773c35ffbdbc0321bf6be360ce588b650791b13298478327a37b18,
  0x30cdf9cf142de1100653a226f292c8d3e437ad588d15c20933cab420e099aa4b,
  0x60d26b793ea5f34a4f713750e207a387a6d95971a2e5944fb4deb33cc4f478d4,
  0x71338c8a0b2fddd5d514a414e6394c7e25c4fc2560414dd996ba584cd2bfc180,
  0x5323f42802aad11f218db72b6fe5bf556c2bf70aa968ad2bb60efc2840a196f6,
  0x19e5f1f78f90ba663f4dc68849e7eeb57cd3b4a4be79c9b5cf6608be4f1eaa1,
  0x40cb4d5dc4d86df16160383dec6d03bd85124f2f21605a176a766a66499740a4,
  0x620f00306d4a175f576527c6cde7dec9bee6de41fd0a1aa4ca0160f8fc24f090,
  0x83edde5d65325bd54d414521936a8c0a8ba567a4a3bca5b3f2109b73a74e5a4,
  0x34b622f8d3cca572f89eaf8fec01dc2e3a8ca43095cc7513e5fb8fd42be3fae6,
  0x2bead8d388081aaf3046bb3c8c5263c9ac9aad3ed7e0f180528b9e611b178063,
  0x66c33783d3829bc1b14c102f00e87be0ee8cb8823865a109fb03519dde5875ec,
  0x41083c5574b0ace210d5424052e30b7c276cc20ec44050e86f8f5ef901e5bb0e,
  0x1fac275a18589ce9dc5b01d5d4b9648a54e6c5673062cea8013a601817c8114f,
  0x53073c8fdf5c86ecc90267d866c7ac5621945354191ecf4feb4ea2ea5c226109,
  0x59a8caf944a34ec99c2e47413d39711a7cdf455993005ae5886789eed31a532c]

def cB178 : List Nat := [
  0x2beedb5c70c3b13a211c79a7a9bd13c68bbdfb284d3160c4f68de686ba024d67,
  0xd26c0521166f07e43b8a20784a3fdefba86d1042eecbd7c694391c2420ff01,
  0x78afd8509d61ec88c781365a4bcbb51deaa14cadc9bee960c548a375cb6236,
  0x61488d3b497ea736e7bf8dfa04b643fcde73e7f6e414e23b5ad09377d39ce4ad,
  0x5d6c850e149f2a0f20d7c7b838b9f83e0969e15a55616d2657e6cfc144fdacf4,
  0x7017d2e57b6a4e840176a89e52ba43135bf8a2d9af8a2bae4420b5b91f72d8c0,
  0x15c953292d4c9c75fbb74481775af99f0b1d08305269a11f9b00836cbeac424,
  0x65930623f43f6d9e333ce7fabb313c91b1c447672f2b5287de1d2207f2a8db22,
  0xd821dd501df4b82e77fed110b1a3bc7d3e2d03892e190a13edb21fb7028b411,
  0x4afaa675be4de2917d45303e32697473811110833e63c2a223967cb5e13a212d,
  0x1b25c00a82c18fc889e24d7634e3a2b34b2b82f9ef22f3da770a07c0b34ea4b3,
  0x6aeee0fc0c875d9f8cc8a7c95eb82e01e02d051367abc4227c7b96843f0c59f,
  0x4112f7dfc7e691ec9db9877fdf962e21e2af7856eed85d7bafc220a1592a1779,
  0x69f4452ef3fd786d532c125b71ed17de16ff7150636ad01d78a26c193b854445,
  0x43833d97b4fd3020bfdc2e114a290f2863bc5bce458adad939014c82920f8b2,
  0x350619cea4a31fd32255457012e6bb23aaa24c36fc44ce1630b34733599c81ab]

def cB179 : List Nat := [
  0x60fcff491105c8e0ed99809686da0ab22f4bdf12f70a1bbe6987c94af0e56321,
  0x2a371859217e8eba6c7a4bdcaffcd7bc89e9785d6bc33b7b8e074b86b2bfcee6,
  0x710dcbc2ff1c84e463d01690bb8675477df2d972f27e96bd356bf292c8fb476f,
  0x4ad0490f2ad1b0b3489bbc652725199420e4b26713de4a564570919dea909d28,
  0x194d566d7f66b824cf9f4fed3911aa0cadd8884a172ad14ff3924ff5dfa26e12,
  0x3048dd9bf5a4ca9fd070559e6946bb5ada948baedec0568f97d233516e01355e,
  0x715c9a5356efaa8b50f5e43e5b9f12584e49a046c28d6d29919da914bbd4fe2c,
  0x228fb03e900697803073534c4d01e5ead0996b24977df2061fb4f08a2c472909,
  0x5e394d9587c0df47f7a6044788d687efb7c9e17603ec8a2766b5fbfac12dde9f,
  0x3464e28b5ef54f800db87f90323cf28111657a4e34b1c5aed9b5c97c8b632faf,
  0x6922e6fc2632699292643a4a2b790b92a236c154375f3c4dfaa2bce3db0308c,
  0x3b40b32e2885e7d47c723a5d1e8fa52db349c2cf0d2806542703d493db167e0d,
  0x48ca21f0ae2898c741374ecfc9f4baea1d5c44425545781fc8f4cbb26adb2457,
  0x5e512e3d2f650d215f8088ee815776ff2c552c5fe66081a9f6caf9ec279f8262,
  0x6320a0bc81de83494cc21ec898fff3be1d832b90aefdbe951c90755533b3284e,
  0x35f923e9d31f044c0caeef38932b5204d28b1a30acbd3615a6881ce7c6be1de6]

def cB180 : List Nat := [
  0x24dfae370a96fb12f9aec5ef9ed4055180564d6f4e4d138343890713b24db82f,
  0x2b288bb8c30d32232761e964cece66acd563a3bad9592b724f3949ca3982f191,
  0x52952fc49a5fbc1421788e54025c513baa08c52f654772a9b248c878b408e72a,
  0x5336b139f3c8613f00bf79ef367c426c2cbaa64b32d7910bf62761e56be4cc95,
  0x2eb6231db3803456f3598001c75c275b209858314638f00821a4e9b6e9b049b6,
  0x304dff802c9ed82d75bc791235beda80814197f2c5ed752d2026fb92be637e9d,
  0x5c197f6d209f0e3993f2398f11c5085028eb11690376dc4766ca7cbcfc00344a,
  0x6f6ae8f036c3a23f7309db6949358e5dc83264addc87f43184c3bb36dfae2c12,
  0x126f25f1576e3634991bdf5c2c75c11da99b8090041e221a55ccb05848527461,
  0xb272a1db49479aca52ff1accffe209c0398560686bbc1677a06280a031cb4ce,
  0x6196a89f560d07bb0e52ced7559a48694061a296aea04896ae858931430ac019,
  0x7244e708ef119a80c51496313991da64f200764b14ce228db2cd9980de5d9f70,
  0x62453dc336b5acc0cebfc0c4c17aecfd3992b71cdc308a4f244039f8b743a3ea,
  0x7001e1f0c5bd5f78967ee7c7cdb5148f2f7261bf5cdd69998b5c4674e44bd3e5,
  0x1ab7383a64c3dddc60acdfbf8b76ca43736d84b8bd1f4acff29db1bf1374e415,
  0x125dbe76647e5f7123fa031890aeefb12a0c15e34ef9361b9cad52b10730bcb8]

def cB181 : List Nat := [
  0x1ec149f04b14e9bb7e563a38354aa9cf05169299ef41b065b8b4933dfb76bfc2,
  0x717248b8e955fd0d53880be0a6381fde923c47302932ae2506944ae4079a38d2,
  0x7322ebfc86d47bc575830f7abbe76c9265b5ec8a7975a4437666c22aab6fd684,
  0x2dbc528b5cfa2ab23ea03148e2fcb13c586ff78cf2dbaccd89645c1deb65165f,
  0x6d5c8df154713c64aadfaf363efb6229ecfc05b35f68fa15870ffa1315e6aee4,
  0x2186f3deb8c3cc665e4cddc7560b666bba3b8d10faee770fc3ad1a0a092ed42a,
  0x3bf2edac944825b784bd92612457e8c63c5d13d7e11a3efc879c57ead19741ee,
  0x5530386b6794436a91a3a9136fdf85915c0d838013b8786990cdac8d88c34738,
  0x4118e9fbe9f95b74beb8ca1a908a869ff892bab2235e5d2ea6b13aa288addc5b,
  0x71240c4fd9fbe124deb1dceddd7475123cc1d7a899ba21a4dbdeb28550fa8d1,
  0x69a153bfaa27b7cdf149cbaf362cf9d7805fdc6b8680fec6923abd31f3d2001c,
  0x2e3e4c0bc5819c68c8fffa439bdb625c005c6394bfb0c1ea5c42d8f9fe2131a3,
  0x222144ca48bb84337b20d04e26251d7cca523bd3ea39aacbc31c361b43498615,
  0x4518f2a2aa5165d4c4c83b2e5084024415929a4fe7d807e16bad8c48f4fc2091,
  0x4a16e0de8261887424024124f4087ed47802cf951e0f096402bc8e9a906724a6,
  0x68c18d5546680f93c4e04e5967e4fe42005fc58304bd4034dcbb3d0edeeaf22a]

def cB182 : List Nat := [
  0x26bc03768df8581f1d0c2f0aa4b04c64fb7daa545de01d658e6da2765a037785,
  0x1e5bf486590f739a82124bf9d834dbbaedc85bbbd09157610787a999a606ec1b,
  0x393531c8693d265c5683f3328d58b53b1fa9b8353e5c17042ad4fece3599e717,
  0x3994f254ae5d29922743e1de47a57190456958e4dd49f8a3d87591a2096b8e2b,
  0x63726c2b61d2005b11ce952c0d6f793ee8a4f2e98d9468dc103455da8f7349c0,
  0x6f17fa39e943fafe2f0e66e1f964789b79aa388a873c2ac28f74e531d1063603,
  0x7ddb4fc1a01021f3edc364e2d27b766eb61b405793266bc174467521cb147d,
  0x4166a44a018e97fa7a0d2bb9e646a5adf81d8f17d8f37a5509cde7862848090e,
  0x5367a87a1c160fcfc0f3acbcaf3b1585d662cc14005db65a5767af73019e4690,
  0x2ee0776dfb017f2952facec7af30ad449d570208f67224143c22dcdf42da6ac,
  0x1542f672dde37a3ffa7e08de42804033df3cc0eb97c537744efcfa5130d6eadb,
  0x610e1ad70200d7501f47b536a2a4c0cf984efeb8e41282a18854e4c2391f428f,
  0x1725db374d7e3c58390272b28010be872077eb033b7088ab8846e5e57e68303f,
  0x46d68ec189178c5a1819e65635e12c7473df560b1268b551e42b4dbe9aaf4206,
  0x3af1ac053d98177a891bb434f86b730916b82ea5350fc8550cda532bbd52557,
  0x391c04d6283db11c47321996428154b2afa3b4552745ddd3fac86b781de1edfd]

def cB183 : List Nat := [
  0x71ff59b9dafb104706047e8e3546770fb535b910eed80120619fa35bc432ce32,
  0x56560f355d6c0afd4750eeee22b16aa7327827d338e1cd200f03691077c2a69b,
  0x50f795e045e1f33d2b877d07fa51965719aa2333be0e2cefc427c0c522c13704,
  0x12e782c0918a41eb3ff5bcfaba5423fbcee280a23c39dc326ce40f534484b09f,
  0x26177da559f63b7222ef386ec2a952806825b6440f10b465c998f734dda759a7,
  0x458892e20f7a043874edc39a2bf38e42cd6d5a1f2c20b42ee81200e93183773c,
  0x242a6d3496f8f233ac60bd6f95046d9c60607fe93044f39fc11a41c1542d7dab,
  0x277d692694860dac720b58e89bf6d598935f7b193572fa45101181110c9a1cf5,
  0x1f4d83b24d53ef29823b895b8bad9a5cc14d4636e28cbe4e59a117b26df5c015,
  0x277187b95c2425d739d7a7562c2c1f4404836602774ef45a88db30397199fcb5,
  0x331fda4c4e849811b19055e3a6eb3ef49a2d036d07bf96ea4d1a114185cdbb48,
  0x709753347f7d2f09cd0ba8d7bbc94a33edc6278f3e00a426da265b8a3c7566c2,
  0x4bd9669030bf1ff28a87f57151a1f3130ce2a1cd546e44218682fc463d93b6b4,
  0x13da5caa9a29066c9838220fb741e9d97959b8925e35a0504e4b0fa681b99751,
  0x4649bcd450b394e917e516ea7683eb3bbe4524d44e9d7d2c10e6cafd8b314a57,
  0x72b3461b35f90dd296dfa4abe57eeb30a4c179b304429570f3d7f2cdd2ad872a]

def cB184 : List Nat := [
  0x30d34c5c8bd65c967129c005a03d84c024ec85a67ad90dc55d5ca1391b760731,
  0x656fa345b7d4a2961215f92eb38901e72e67d62c904162648683681587300bcc,
  0x27062f22ea9fd8d4c46c00239ab41501b0d6166156128c84ca86184521dd8b62,
  0x1d0a293787df57cec8c075dd0fab06884cbd8410105165e61e69bff216ca64bf,
  0x316cfacd5d45570ad45757d049ce00c3dcbf17ab42bbdad7ef3eb00d8d36fb08,
  0x50ee04be87dbff4538dd35ff8a328ba05c021955f767f80d9563bf08e67f4d93,
  0x2e174c50d9815e857d73a7c9fa8da9bf3c8ce3825b3c6b806920978e64fa7901,
  0x2023422f8a897f5e2f700b73b2c921da0aeada5575b75f2bfa5f8a3788d0f894,
  0x3b8ae8d36d81de1a4a2bec59d0da86c9f46173cfba70ca6fa6def265faaa8c06,
  0x1609e944f7c92a25396aa1846ce2a2a235400c141e12b311b99cfc332bcdf7c7,
  0x400fb1b5f88716684f6fe49efe176b7942d143a9b0351cc0da042d7fca461e5,
  0x47d2dd433c81751c0c67c70d2bfad0c72cc9babe5c6b8ac6e1afe2b059512c15,
  0x44cf5a530cd8b2ce8f22787273a67086aa2d79197ef5bc4600f5ce5c47396003,
  0x6010edfa48313ae0363b3ec8a780b7baa46e41586590ea2d50b7a412afc8a42,
  0x6bc6c6e44ad9e0aadd6c0e5224ad760bc7b8c687d5cff88c2a9dea89ab1f68ba,
  0x32559e4ccf0c6f17b336bbed1f4bed0b93daa8e77ed015bfd4e4356ec1a01cb8]

def cB185 : List Nat := [
  0x429a4c235f86f266721d1678ffd8d95c09073215298ff48eac66cd6e92b78368,
  0x6b380c08d9d04eb90969e4d900d41a5958e9a1e6a1f099961b3bf49cf54274d9,
  0x1d2d8dad5a8c8aa75ca375521d0162066fdc26bec349830d03a4469107acfc8d,
  0x433e4dc3d55b7067add6bd410b43407ac643723523992a9e79aec9711be415bc,
  0x11858197fd489407707a07a183cf9a8ee8ef9c5c3b3989fc3992dd768d122ff1,
  0x54b48b44a0c3d7844a88d2498d4f8b5b42017ee4ca7d2979874596fc9009a1c,
  0x133979e87650ffc5b4c1dc89b02a0b98bef34c0a9dd264a7f7b889f27e65b1b3,
  0x340c07cd18cdcc9d4f2b2bfc798b69e03b446c8904a80a3b087a262d974bf733,
  0x41003c9e71e673509e43cd3de6d4d30f7ec53893b1cf90ae1aa534e3b325364e,
  0x6f634dc3466c75e50ff4687d65db2bf1c040f831511faed762805780e80f0b84,
  0x1ddfaec51d664919966ab191edbef932aa05782c62f973a5e864e97517bdeb88,
  0x41527dd8be2bd504fdc6a0860ea6162450cee9f1c13ddb86f9217b13c4867b12,
  0x239c4c3924e6bf74eb5c19a863bbb1bebb1e03de86e95d0417b7187a02ee3e8c,
  0x11a05b43e2ae26ef3cf83a6a38cbfd7b58fa55610e060180422bf07ebe2c5b4,
  0x63e0cc750ed6ad3ee44a165238a04459e839a7141774d41fd9b891c3829a18ca,
  0x6da88338a4b97f5f72f55939630b3ba9a1c40a7ca3e725190ed89d18ae30bb60]

def cB186 : List Nat := [
  0x3c8d071834674b5ac962b1293910c1c7c6468c1e6bc10be2741bfdf9d9d1b65,
  0xe4996779222f881ef6d2a110e55449f75c9c8f43b26930d53e9eea43f317af8,
  0x1998a19b0763adceb7141f3b1f31a724738b5fc9057e553a7ec85435176af317,
  0x932c0b7e7300cee14b4172fb9f0f8679c86b94939517609db1b54beca9f757d,
  0x5a784e1516c6566df365816106f08e0d7406d9b11c1f0bfebc62d3fc5c234ff6,
  0x6b5549210a69b1a576204438b2db6d2da3af4aef1c60f9b03663964467a7489f,
  0x61ae60ba57ee5d88374d0cc7b88f2fac36579ed5b7c3a9a863b67c0c6755ff68,
  0x50a8454731c0849e5e34aad009c7237471c03a9eb3b09d1db7c2e018a901a07,
  0x12ce9c8839e38f12221880d17d32b61a51bc0247d875cd7be8179a1507061f5d,
  0x3526df33c498f5ddac6cabec800a77ae7e6a04e6239036a34a712e2c8c4fa2e8,
  0x422622c6687b473752ea85ffefea37fb939a01cda900ee8417f6e791129e1172,
  0x5dd028c89ad4c6140ba328d466558c8df560ca842f1a69151c8cdfdb8e60986e,
  0x16ce04df3eeda72267861249c4b80fd87f9843d210d11f207a817c1eabc0bfb1,
  0x229266791fbab73b5e3a2bc846d8dda9c783ed3dcfc2481ebe422a474b518826,
  0x320b6167376f00d30411c6d7c079619703636b99e1b8af2832f68241d6a4a341,
  0x1a5530e453548c1146f6a298074ce568f0e24ac20dd577b3e6225a12e75b8eeb]

def cB187 : List Nat := [
  0x4d32bda98a56cefff49f9518bb889d35dc36a9c015b7286f7269a0d86857617a,
  0x660bf8eaafc362d5ead2dfc2fc36eca568e8e84c73a30c2ad0f5363ff60d301d,
  0x6d6d78805abd200a8bb7e8003e5145ddb69d80ab7070a5ab68423753525aceaa,
  0x606659df5afa8cd6b175cef82c8db030e6afd0dfe3a9413e3f7fcfc3375fa6f5,
  0x5c1f1eede14e80ea759d466a1564fe50bc3067dea9afdced521ad2e4db7846a4,
  0x43e67ba44f3a5700e3a14f2e4d9fd09bb9aff2812f35e388379727824e913776,
  0x1200952d07b6dc90c77737a874fc8d7b546ac6bb91cbf3b624826b85abea906e,
  0x33a42d7988791757c195e320eba4f28dbbdfa14b4866de81d4d3db39bd98a023,
  0x4e8263951be4639571f73779bf1c382187c117e5d403512bc2a11f742b122009,
  0x4bfd0323e2ea5ebd223aaf58c1698a34399f671095b6a7d3c2d0d63b1516ca1f,
  0x106695f48dff0327627f24bd7f201d462a4672a384eb2fdc67fa7759575af81b,
  0x340d91ebb657aa697326f0249631348c481aaca047de3aaa6981391fde7237a7,
  0x2d428f83b5b8437b06fc706a3fe6909b9fd94a80c3f8fc0ef2c652d47f8b0a44,
  0x73c26c6675fa3352fd7ab85b12d6073a6196a34f7bcb098913f91904cb582086,
  0x5672ab8402a8757bc5c98b8ac470c8f9636900cf6864d63ebab2290753335429,
  0x139b6b2baa3841f900028b32662349ef15157461ec85edc49ac6136037db922f]

def cB188 : List Nat := [
  0x6a64a6944dfadd5677ffbfbde9057ac83e30f522266b880abb13cedfb3fa460b,
  0x4e70194cfeb445f146467f8664e1ef041c59b1438e6766736517e723195ab562,
  0x3920dabe07770b9d302c05cc41d919797d68b7fbfc83a0ecfa24daea13450b0f,
  0x3b3dd2b1f0dc7894efeadbf55fda2e22701d77181c4219a4aeb4f71667367532,
  0x53bc69dbf835c07882b96e8d74f53f2324b054a5ac73f2f3f04b029ace2f17ab,
  0x19f65628cadf74b066fc6ef2ba97b24e6fcca32712538d20df5b70da393127ca,
  0x4d4445acb5f9e3f888674c2a571e70a30325c08fed801af0da534d0e498ad972,
  0x5bb08bfd073bf45f8e3612b4abf76997a07a5af5d7513fa6ba9f8b3cd08ac737,
  0x7bcc81245a3ce2742f316e7a7820f2b4244912367b89f608f32198d3a65ed57,
  0x47c34cfd4e06df4ce9d593e7a55f52d14e41d2974bdfbc31782b11a2c3cee3d,
  0x22118add55e5b21a9a04718c302be70118c8eddcaba607a82fbbbaea5090f56,
  0x24dd99c39cebf83b0de517db01b1f9fcf90fb1109082b750fa801315bab51b8b,
  0x1ab129a2ee068a30e97f4a3e1db5d5d1742054bdc75bffad188d1a414468f1ef,
  0x1c46f8dc95bbb695ce8ce7f5e30bf021efd770f0b5df2929b03979728bc97d48,
  0x14e8cacb19686d7be427d58251062117cdb9be776b8f8201414a92f80a352cde,
  0x3981550d1685bb1e178bdfb3ae5a061c382c70aab135cbe04e752c165f8f97e5]

def cB189 : List Nat := [
  0x3b9ee20bb575d3fd9f247eef6cc42a5a1627b9f9b4064da7e7c89911e100a8ab,
  0x606b7149cccb7d617aa68f29eada5bc35cf87f7a5299d3e7b86adf6c2fbb4579,
  0x34c94536daaa24c05c3419ace3cf09583e3538883d4282609b201575e71b3158,
  0x12f620e55f086f8bbe24d93b8bda34a56d464ad7280d18f59880be62ae3995a3,
  0x25ca153631672ccb84c31402990e745fe03c6021873a50eb241742b483f09468,
  0x3fc45741f80a86c1ac62ded0c45987dbb7553e988db7c1d049807d14ccd0d71a,
  0x6477d44536f41432fb5b8bcbab978ad38da66e997d09dcd8bd2c977ff4dbf212,
  0x5d0f7bec9753a195d13f53ac5e27edf04fdd251165b8b8b2017d5a8db6caf352,
  0x42418dd830251ba8ed1f77e30115f12b2b3ebd924d880c903f4465ccab9fa172,
  0x56bf589e75be0f52223279bf9580fadfd6c84c4ad75536034c83582930487796,
  0x6f9b337c92804ddd56b7064ebf0d6fb8ed6517b52bc016dfd6d982cdee0b93bb,
  0x13afde245ab0d46c3b60a4340392164caca6dcd947097ef72b76ac60390bfd73,
  0x69014c33d3017aa47be63b29b8ec7052c6411a522da45dac5e95a68f05866dc3,
  0x3205d7dd950fc4168418ccfdcec378457c02bddd27fcf08abd5616c926b16573,
  0x6dc67eed1ac53d81d407234db42468ad1ece489a4e0d118c10ddf5b110d8d20a,
  0x5de618a3b4743c6629f1541a41966e6a3997fb70a4f9808bf9d5042472903b2f]

def cB190 : List Nat := [
  0x1ba069d4ff264588de3865c85b0b870130e5082279c4606660a9503ae01652c1,
  0x452ac53b981c3fee0d93f3719550229dc23786cc3fee182c2ff8fc767203f115,
  0x1e26c048c71dc84ac1d0c6947759339bf0ab11b62c53fa34d39c904cb1d4e583,
  0x337336009da3a249374f173c0400d77c30701dbde6d9f05f43edd8f0b869cb8c,
  0x1eed090802afd4d8faa5b2e6c9f391344841291da64add8ecb170736cd6fa6f3,
  0x10bf7d1aaa4a4be0dc72fba78c5f7c226bc26b94f219a0c3df92ecf981e0d63a,
  0x27f6fca7624d1fd315e71c1098938f3a6d4900fd4cf708f61b3d2cb56f7cd6b2,
  0xa8a4a5de37b41b94d3405d48e1b6e716eda3a97c39bd3595b4bc471710236fa,
  0x1fedd9ed1782e6b71baa131e8842c5c6792f99c11aeff5d87b507371d35b8ad3,
  0x6271d413774c252ae3f2724577a0ccc61a32e4f8a4fa3f3644bc670d84168759,
  0x4f069fa1b0a8facc633730c40cae773defce8bacd29357b125a053bc1254951e,
  0x35ba97cc8e34553e795ea1f57f8fc40600ff01e7b671226035c333052453bff8,
  0x6e288e8bc457ea34ca73d60d8c1b2da0772bc602b47fe589264bc622488ffcb0,
  0x662201b580fd410b1df7b05357dfc00d99ea0c9f2ce17261a03e699ac6bf1360,
  0x727e9252a1129759f6780a4981e3ef486de9f51a4e2f40710617d1e07916dfb4,
  0x4d4cf62a6a465813392c3926d0b4c326128928a71966b8fea3c01325e8e1e2ba]

def cB191 : List Nat := [
  0x59787d3eee6d892dee4e286ff4322fc31b81d6e2cae034c2d285ce3cba00b02,
  0x6d06436a4f1853c9fd7ad3e313f727080a9fb2816b8645a3aa7c55b72c64f344,
  0x3ea968eb13dcfb5f5da67e67113a7fca6c573e4bdd48ad58ecf54bdc01011733,
  0x66d7365aff727e93e32ddf69000e04802337a8346b0891978878aa3f0c471c37,
  0x6dd258a48de2c963aa05baefdd87c38293f18b8568b79a2cdf6cecff07c42488,
  0x287cd322832d7d07070dca0845b541d25342fa8348c601c90895ced068ffb156,
  0x6379bb3b1d7606dfddbf7a40dc98a1b5d3bc9d0e92e276fa2a1fc91f16b78063,
  0x38f7486b01b66b6c87431b75a4025f6776c97a21cc365faeb324068acbb21b8d,
  0x4af93e831aafae12dd5c7fdc0a4d4f3eaaf61bf5b71386bbbb950101f6f29b6e,
  0x35ba4099d487f5c8a08fe2bf43c29bf8faba1ba0af69c3b3a83eeb7f011e4f17,
  0x707e215a72ca9ef241dfa585937414930e25f197b470812f2d83aa5bef21e102,
  0x3245c55c8a91842b0baf959dd0aa19f9e881b93669c901a3ae92217e32604728,
  0x1ec7b26db9ab6260cb3f48d54c9cb217712137b4fafba4123fe03bcf3979eb61,
  0x5fb5ad634eae81a053f398a15fadd5581db4e710bd13aba68f7bf3d8ab392018,
  0x5c8ece2f0165fd2f4f28859c09b1183ad05a630b59afc586aa8a9734224bb0ec,
  0x5af1bb82c065c215939a4ad7d6cd3d8bc2d543fba6e5256a094c819993c97d76]

def cB192 : List Nat := [
  0x6fcfd698e43c5365d422a9e196a688409dd30985853a01546e3af2cba9888421,
  0xcc78ef92106982a309fe9824870ca786b1e84a0cc3030a5c0aa1f0e5439b84f,
  0x223e061ad41e53dd4c9f26e54672a8eccfa20f3fd4b168b6cbcb673f0448dde6,
  0xe7a9913fe30836247ac76e222be13e5a4bbb4f1b675b258384459593983a4b8,
  0x155afb1437896fab64dca22145064ab9ddd39334f0d6de6aed36382dd153cb40,
  0x6e25cf3980e008414e8bce407c8487fdf5465051d4054cb4e08e4d5d255b5a71,
  0x37dcbd30528172809cc2bea4582512d57a075c33d65e013ac5a601f83b7fdd10,
  0x431fdbfc4b87f0c590f9202320cc04344254a9db5b555fe22202e00f81dce85f,
  0x1b09eecbe13121b505fc0934547f40219973b59f7b01ec1648b9b5a45e0715b7,
  0x2b75212c6a35ffd4da6d4a98c80968cb9385180a21eb8bf4c8d609a9af130fba,
  0x17027489890e3d2088952ef33e25f34dda57115e26c21da3f71e04bff4bd759e,
  0x3b8d34208b407abaf0c5c8588c82bae1a19920312f56b23e9c2042a3f9d68437,
  0x2ef4a5a7ff7aef1eea42654eb4413023873456776f08feab91bfb516ffad3263,
  0x493304f27add564e84cbf43fd9ebfa91f161fc9b3a443d857fd65c3e3bc4be5c,
  0x528670ef8da3098a83fa158c93874e4ece536b084bb78aa21d8b06b6a44f5ab5,
  0x62fbce777ec4bc32c0eb7bf4ba18c55e25f0fee1f21094ba3df1f778cbcf0a71]

def cB193 : List Nat := [
  0x43c8d9fab73fb31de1d63c77cf063dfc7dbaa7dd44eeb0865722d9ec9e9baf7c,
  0x5ac93eca446ae68e74f18c713cd7bc5e633dbd88a8412b840f289f2007043e8f,
  0x6c737fbf5ae634a2402ef5171e68b53c4408db657be2832d782029038eb0f288,
  0x6548acfb86326543ab8a4307e9b201d1d91ea1c24e9a1e4049401d89e5c79a80,
  0x4995863bdb9794948dfae7f9088690913cc72c03d9b0900ca819e556f38cd2a9,
  0x6238e041e0fe43cd4ab1a7241000a743e54f2764ace78a7292b7dd232453f951,
  0x4e873517996b091edbc57308f2e9449f8d3e94a5210dfcc09444d8a8d52debaa,
  0x2940fdcc4f5867fa4fdadc7212f9f8b5e09808925559b17d67479ced94356493,
  0x2232c3d55169c093006dd1e42719d4b250da611a33e7b0a4e1eba20397720132,
  0x1291a2dac3071ae0d09f5d5c43237960e5ed6499d799d63f7220d17c0f151c31,
  0x5b7d0418e9a260a0d11b2dd4027955bb177e8ecfe93aebfcf29d371023f55285,
  0x3ec576d599583f42a6a32c1149a99587d3b858976d636e84e2f6a4584c407665,
  0x2c1ba591a0ff6e32cbe08e650bfa87fd24623aafffe32e2539c9bf9e5ae22668,
  0x150fe982fe364839c7e70fca5652b4cf18e7e26355508975b4f5e3bae0393545,
  0x73134792e3027e771ad5304c9dde865d5d35d7bd49c76e8dc20c0a1059b189bf,
  0x26c69a81b20c6a82c649803d7817d2bbf6f83f2b951b4e8036b6f58077064bde]

def cB194 : List Nat := [
  0x601aac59ee7e7cc0d44d589994fe5d3b3d46cd19299b8e0037a08e367e78e4f3,
  0x65c20ed49e7ab2d41dfb35271560553f62ae6bfb44149bb551a37933e6d1184e,
  0x5c552816c80c87e2fa2bb25e88ee5df955e313972da7612de4bc961ee3cc1321,
  0x4febb713f81bcc3d2778d4b41bf2af3d984094a512702727eb2f8ed08f2d9a23,
  0x2171eebd94d94eba80abe49bf0117f58c75a43b05bb504073a9dfc2fdb855ad0,
  0x1c51b9827b219f6ec8e892130553d4f26fb426b995cc45b5af676d3550c20cae,
  0x6fd0719f22ae18d5894cbc393a43059a318dd0167aaf50af3de6ec6386bec52c,
  0x51745c3d1991c3c13582ca699234d11aa952e9669c90fcb3390324ccc5866dc5,
  0x520096df48095ae74eada780b2ff6130219a2e4f4d6eb8411aad7ada92f68d2f,
  0x71a57c779a572848378547e2878ce4766c3e83cb1503ac45505e5cf11aa458bc,
  0x14321cc47a4477b171d898c270c190b8b09012704adeb25a13941543e7caa078,
  0xc8ad391a1a582129a9c652197d0773d866ffeed076db1743713d2a10bef4155,
  0x4b41985cd347e391a10801a1ab05a227740739b1ed15f675da91987bb80f922c,
  0x64fcd0ea433b197f926bff8e6261e65d55c571ca5a32b37facb3d4ba0188635,
  0x2bff14f558ea6ec34fe9239797e5a9771ed2f64bf227ba2b20e952728db69e5c,
  0xee07f801d3e0e12c75fa34f6c3e0110a1cd9db5320b632ce613737917e5e825]

def cB195 : List Nat := [
  0x4f698de7293da57682703da75463076a2e44a88278781c94ad3ff6be1eb44cf3,
  0xcb145348ebf3d942273e220a12209d70ac4abe3b1cfe8dab2a5fed000710e92,
  0x495899ad543a40b93a22908375c37440895b3828e30f8987393821d0966c0e0d,
  0x49cd5980405741d401d46bac76ea528a14ae402e8e58fe1aef8da8eadae1cf72,
  0x6372751904eb529d58f6dab20c55120865e9b9b21dd4f4511d94ab7817a0e4c3,
  0x524602353a0cb25f53d2fcd5d7c57c96c5f9236da9a41fcd1f20e64f89137fc4,
  0x410797d09d1958ae10588fe6b79b98bcd3be6db30d4c2f56bfa002a40cf91162,
  0x24e36982c275a8e0b12bd82012604ba1e317cac7347855dce458720366aac05b,
  0x4ba324570a1ad3c2e88d4112d7520141f97b59648a78ac442b060588b1db5914,
  0x4085a5b676828d007ce3c5f5cab9aa37b751f14715f5e14a9f7b2ce3ab22325d,
  0x47ea2797039e8422d602c6cfda9b081c502bb046e3f896a5f74a0911ca09faea,
  0x1eda67aa2e7d1ed6d9c20a8f5a2b0937fa17a2fd85e9c464d32baab6c51f3957,
  0x21d0c92d6bb6c453121a24a3b167abc1208dc191e074c60afa71732e00d93d19,
  0x26b33cb5366afe759fa4b76189640e10431db0351ba73069aab4caf37cdecbdf,
  0x53ecc8a3f5ecb35559e659597d08fdd4511277cf1ff812b05b23611a2f10d63f,
  0x2d67df241bd2934f859506bc498b51aa8f8932436d0c4a4fe142cf088d2e74e5]

def cB196 : List Nat := [
  0x69211cd975054992f14a218a95838392a077723aaca62a447ea227055869c11,
  0x483743a209fa653ec920e4d7c25a2fd7378efb2110e218e404279a5a1980c22a,
  0x2ae170d323884856b5f0fb0e84db62468ff0f62e4380bf2bf20304993842646b,
  0x41c671ce6a24429f4f37896e9b94dcf14c8a8beb64253e54cd5f7eb0ddab5125,
  0x4a59210f13a10abffd674566ac53c5aca7b08a95eacb3cd8a12c223b37e3155,
  0x4aeac082fc2fdf384efe60ebfb2ebde503bd8ecfa3c08ead65707872f7fab7b1,
  0x715b98cced5bfe34fe79dc8e20f3e1862b5ec6c5059349fb9f3a58895962e6f2,
  0x152722c011741f5e173158d331d4f4e867f211cb06bc514910444b0e29d25f5b,
  0x34dde0e0f38e8e8309538e7fa32caf6573f4c39d619e742e4db2c6426aa779cb,
  0x44fbb9dc7ecf4bba2ff285d9911d17bfadc77e315791f89128725f218da4972,
  0x1789209ed27553796a16952fbac7d51b12626054509c18aa46fd3d3c22e34084,
  0x623eb18bd866246da78f2144b81de365b5905b8296ce695d884fa8ad48a15bf6,
  0x5ffca8a5f547c4121d63693e1651511147cee80248257d99d8ee16d6b8f61994,
  0x24eb0fc225a4a5b1d828056e018e879dc65e0642dcc96e91bdc474ee862927ed,
  0x1eeae25db751bd920fce8a618d7bd6a3e4e623b91ceeaecf7da565faeb4232a,
  0x3db609ee302171bf9e248b27e2725399e0f2931eb37e614fcd38a3804162cd69]

def cB197 : List Nat := [
  0x13074a458aeadbb0d0cce7e733581d3fb03333af1550edc83873166967d52bbd,
  0x5bca9a6fe95ae65498ce30bffb45a1fdf90db15606f82f2ba03a1ad3ea459292,
  0x4911ff5065a4303511d8035c833b2ea648c486a82d35e5404c6a8b858b4d468d,
  0x1b3d2fb403e1ee13afedeebd63cef75828a1bd5aa841590d12aa4660b9a66b44,
  0x449d0175700347f1ff7c6f04b4b6845f8081dc02c8c0b4b751cfd6373dc9d99c,
  0x622af63d1dc154ed0c6bccdddd0b422a25cec9d5b37da4ad87f22cc93f613213,
  0x590c6f1f85b2c53de37e0cd1ad4c6c1fab39dc7f0d7e8ffa2a7de808b6562781,
  0x6d2590c9e16d73fe7a498906c499a27d71846fbcb40d9a0909fe4de041545927,
  0x6796f22b1efb18bb5ce91b392aea8bc889d76354f296b99f47b314acc3a32a63,
  0x2b239f8b5c4e77e6c63c64ade9a482cd2e306fe31d560985f3f9983769f846c7,
  0x9d5e0b3ee108164512951a7d625647432a397e09522c42c49271ff03488fcef,
  0x18a44e5095c6e9d1fd24e302b0930fa1446225275fffafbf7c3a9e7919468b78,
  0x38127c096a0ea2bd2d7b190a96e68a784e064b94eafa42025a9fc2552d603fd3,
  0x57f865603df3b347951f7922ca70da9ab3a053812cdb63bc1f453c8a81670ac,
  0x382f6b7339f31793b6619cb4849739f360bf137447db5209139c783191cd935f,
  0x6a994ddc94538d8ded290a68bc2ede9bfa4478fd82015a6110e1afaa2560e7ac]

def cB198 : List Nat := [
  0x33f47ce0088246c8e5c0307bbffa3f52c1dd1698a570832d9fc93ea6f898785b,
  0xeceb971d246285c2d394d2e45aba44e72d64d1b1043f4d0106360ae5ed65ee2,
  0x6e6fd20e19b5cc3fb1403a07e1dd15231b2c4e725dcb96de1988e0b5823ba718,
  0x5a2fd29bb21c5557b71a5404485047f0e99f1297f21f4adea62f154a28674240,
  0x725206957a859e2ef393ef75dd443dc8de93bfbbf6b52ccb96e9c381f257da2c,
  0x6f86db46dc6b991cf72333e74a4800303c10b5038585585d1755af3ecce6d1a8,
  0x691f62003d345932e68fb8180e4473145c06c8be934e0e3cc40ab103b9fe2672,
  0x1dc8ee79878d433e24a20d6a325e90ba0edaee563e8e3ec17f3f23ba879995ad,
  0x9e81109eae0396c5bae850527e616be2256522f5a7cb552d08037a72fc4279f,
  0x4f3ff800007e4ea6a38611f9f0af5a8f3de5a650cdad220a3350297ab155971f,
  0x625c6ea62a60ed4cb19e0a107830994df82fc9e47a6d898f76e69c49a7d53949,
  0x38f1cf0ff83bf0d8a17548299e92adcc7bbea25a55764f7f28f1c924fb174bbc,
  0x28fd06ca04681c9ee4b5b44fe6f3308829ba33192500757414974a5dad05c184,
  0x61ce22b4324d709100bd8f31efdcb73fae27fdfbd57c5a1257610baa6b6a3c01,
  0x2b878ff7dfa56425f7bc8bf798f39d8c03bd4a89fb739b765678cf123798fe03,
  0x1bbae14b490fbea71e9572b33e9ab1ba929c9c8e4db82650ef9aa644e23bd13c]

def cB199 : List Nat := [
  0x3ec4a0221c402ee1e4fb3fa2df97b966a43079f998d52daa8afc32f40aa290b8,
  0x3faac914c65580c1f44415bb0ef86aa6ff29c9fa531d1713a77e36ca24285b81,
  0x44bdffdc98eeef9a4240a2329ba2640cccaa7ac63903d2fa41b61749f2407f71,
  0x695ebb617ceee233513c11e04811207e7e8e5c84f34b60cb670343fd2c50c355,
  0x1167aa331f6a6d6a1d9c9e293b59447ff4e0812c6c5f642d92142cdca93d8657,
  0x3482515871fe984caee2cd0ce7eb9d630443356728581b96cbe648f418306432,
  0x1e624b1e2467e68c0d18f7dad59d163b4d16ffdc369e08f70516dcc4b65a84af,
  0x5df22314fece412d1f5c002ce82146479e83759529feed088e5211236e2a2654,
  0x4a405715d11dbadd65da308a9395c4658e84d379bb61ef28386cbf22cc169513,
  0xd2107bc18f2742d1adad40731f806cf0450f8cb66c225eaa96134810561cf83,
  0x6883204e8e7247c859d10f6680ca4039c69cfe68f8d948e9885935a027673ade,
  0x405af9a98c371a6d35f7d77a457ee9ab7a9dfc714e29b1eda058daf51fa18435,
  0x267f1e884eb69d421ed6647da028cca4700264a429f834641d9dbaeddbacc32,
  0x67f0c54de0a486e80f121cbf873b1a4c348e93c77c8c43e85176dc1309d65893,
  0x32afe94a1d2d8b1a91df37d3a4137cdc2add61d974684f0a785e6c1618a55a71,
  0x10a249376034be0cb29bcb4f4bb49adf63120988f25f42b36514bbae4fac22c3]

def cB200 : List Nat := [
  0x55723bc173bac5c944b4ecf841b09ee061291976d7c4196b331281d7d703b09,
  0x948c74b94696d383b8f0404cbbe0a1961e2bb7142397d4972538ee6c3be2b1c,
  0x72ad43ade0ad2f2dec7141b7c5cca3e8cb721e8bb23d1e571f33d9746bd91c85,
  0x1389a917bb5ba807e498f1a11c311d22051ec9710c5ccc544145069a92b341a8,
  0x6a02357281da724b5e17e0322956b438bf897fba70bc3efd66cc1abeccb2120c,
  0x57b908d7c12dc769a6ae4bcab75028608fb06b4ca780af98961bbdd574d6220,
  0x39719c2193757010e22c84b57028d8ed52f65ed11f08f0d073075577f8813973,
  0x245ff074348a8c54665cf59dd33b09d80ef5c5084d49171a406de657db176d85,
  0x4d79b8373b02ac92afc4862e6c7ac14730dadccad37fc8a3b5ca17f319f8bf43,
  0x6819280b066a0344ba41f00c60fe670ec5b9971dc13f4d7031a55664c207d7b5,
  0x2440a69cfaa564f0f80347289bf27f19d7cf003f9649c2e4c7d9f54196f18ef4,
  0x1866ae91cbe1e495ddabed98be17410530107afcc98694aae2f6525a2244b4e7,
  0x2e239b70c0b5d94622d760f4b9731dda297c8c4f00085592d733aad8909a64d0,
  0x3374d04d25bd59a5111418d76d3a7cb8cb9631742dc04f578e5192b55fd3b8f3,
  0x698a76ff1ee59fb1a78fc1887f24db625193ad0fffdeb70193e0f14f79ca5d38,
  0x5b1c322a90eaf9eb432613ec0560319802ebd09cd244b72e6b1afe4c54cffd3a]

def cB201 : List Nat := [
  0x1965e33329ef8907aa1bb89a8a6cefc6f8d7135101201b77a2004f228f5ba3d2,
  0x66416e9f4aaa59b3adab0ff09e3cdf65644263d9ec6b80c0c6addc14492bd1aa,
  0x442fcb2169fb38575093c7716050eb224e3d850ede6bff9cd5b99fc26fd579f9,
  0xefa3fc7a6743fbf13485c300980f7e1c5512637f48629bfcb7408797190fca9,
  0x6d906f92ec130e1ef565b3d282b4eb78f27abb2afe5431d7cd932b865cc51350,
  0x70bd1f8c6bc6ae7389fa13b39f026a176e5f9d9364d3cbd5ea57a3819aee0f73,
  0x3eb25e69cf19cb198b68cc86acb84a8ef1b7c53b2facc57c1671848af4e7f169,
  0x41b168341c1b9defd37bdabda50f65b17e3df9632aa78be1324e63116a3e8ef,
  0x70f4712f948778b1d3f63d7d4993bb58afcfe93264dfa0da2a12b15616b5b375,
  0x4845887f9053ea119539f19dc95fdbfc95bbd648c5c316dfe73956fa841117a9,
  0x6ec7769f78602a396452a430d98dce7c136fb72ce68e436b715ba1b48467212d,
  0x2afa94ee754d4b96a4528467501df8a593bb14cf6d72350e3c528d7b5514ce34,
  0x12505ba5ea5e1d994e7450f28e5a0ab35be2855365d6b4d817d5646c690b905a,
  0x70ade8dc7cdc24123df32aa45cd107f339c247d78ebfb27c693c6c8a2dbd20b8,
  0xc2e6fae618e17b7bb42205c3ed1d539eba118f677c1a9e589a0155241ed67db,
  0x1bd1decd80e38ae065c857656b5ffa187befa530bdb792a9d882ee799d1ffcc0]

def cB202 : List Nat := [
  0x47ba26146845ada750a3209e9ad8221c1be509e10cece02752f88af73516bc3a,
  0x18c75a56bbe801cf44e2f380f02f02cfbe8e058bcd91f0a3eaf5d4923d33d4eb,
  0x5c1a0602e8e171875d2a0b069637b9e018b91920b7340bf39c4b6ea1804eb977,
  0x51da94d1847df3c5e3f0b908c49f3e591128a17be93a4763153fe30ddbd5253b,
  0x6ed3e4db4997fb2c95a9a28861f36f396214550a48ae9b552520a67dacc404a9,
  0x21a170c2c5c92b45014372e314eebb03e11faac08e82ebce5110bb757095cab3,
  0x9de1f9b0552b8af94c8071760d663254bbe4781720258ce50387de194bc0615,
  0x27971182ca925a09102cb932de30eec3f751bb53c615e7f3b5e1ec7ca6818c14,
  0x4a79b853229ab04896f3934e3ac246ed0395703733e28f2dfcdc07aba772060e,
  0x431fcc0c4278e0a7c2c064c488b0bfa66452938b0b300ca212ab1ef343c54f1c,
  0x2006e91b099ed01efe12c116eac5016949cdb2fe743a2f3168c5e9089115ea8e,
  0x57fab4d9971291a0b1d6ea913ec07bbe54645aedf9c090aefad12cdabdd186cf,
  0x2c97318a2c012c222ed3d6b00d8c89304c8f0c49cfe6863d2aed26dbeeb254e0,
  0x383f1c5af56bf12e4eb39bf9afd02a81818a06894deee4d5ba5179dceb43c835,
  0x6389bb087416e2989d6b1fd4fa3d18da78a0b4af9d187938483a69b5db222ea7,
  0x2ac56f344c9cb6cf556ec4c96805ce35c77b957d11f6583aa6de56bfb7e9f9d1]

def cB203 : List Nat := [
  0x159d83165d52e51173d8d137dc6c5f53cc98667ce3b6f64a98e3563fdc44978,
  0x4e4b304c4b86f0de98d7ef362746b687dda68e4c6250b88e8cafd1ce08d507b5,
  0x4290a2b5d565871cbda4074c2507a2941870fd585c8c5ea6960fa05156f28286,
  0x686a5bb5763a6c0fd10ce560bf4407ae32eddde69e52a0b0a963831ac8f058fb,
  0x128a4a3a329ddc680b33f14916d89dd584b7c44ea96f579a7f96d6d34b6dd6c8,
  0x23ecd8ce9517e54bd35e81bd0e6cc4913622a082a7e4d0e9121d9113adce5d15,
  0x2c445216f55d52b666b4fc9a977c1807c84e3aa4939336f05110c3335d9a2236,
  0xa70cdab2f31110f3ca563c179e89bb1ad941c0dc098ea2fe316fb3f27c848b5,
  0x2cd8f166690399933c5ba05a411e7c1de6dfb7c0e376267d958c8c012b099ca5,
  0x37e51561d5c9d7bab6dcf11668177f021d35ef6ac2f78eee034b0a5642b87100,
  0x19377c0e449baeb13d4ef4a5d921a79dc338286ec024e207e0a2aeb801551f31,
  0x1131a0372e0dd81abd67d0652d2264ab723c15223183480fe3faee814d2c87b,
  0x6730bb4069af1c50cdf701cc2c4a5084c02e410ce0822fe4d10175e5c50213b7,
  0x19ecf58625817e9ef73b135650f5c14367d45b8683b73c3c5aad2175c9b5dcd0,
  0x5e1c16b5c405adbda17f798b8b19d77bf0609cfaafa641228f28f6baf5247b30,
  0x37cb7d34427edc3127d3891ae44ecbaac6edca55bac7f5a6e82784e7d37f1ee2]

def cB204 : List Nat := [
  0x7dafaba72d3f8bdaf993eb2500735d2db73df953e6095407bfa9a73f6976d97,
  0x6199c1e1f18257133a27822f65817cfb332cb65546976c1c9eeeebf4cafd4445,
  0x61adfbf6997ecdd8494b3959af7fcead99063ba9947b50841da3f807d4e1240e,
  0x59602fd65d4f842d6af38ba4c6b8af79999a1fda037df6bd063ca546556be02a,
  0x3f3640e65f64d584d753ecdc092bf7e9383726d8f84fdcd095406ee77ff8d184,
  0x708dfcd3ddf859fded9280a599b44edf82b9a275f156719a4c1b9e0ee92fb9cb,
  0x272773a4e7e8d8350e2d6871a0c5de73063aaa551e1183fc48ba85bd29c2e630,
  0x36da6ae88213ccb830d11d3b0908915b13939469139313f75dfafd99f6de3f88,
  0x66396b5237142bdf3970cc31948c7f64b6f425df6ac95e4c293012a9866ce485,
  0x5dd0b5782e1d6196675336b899a368f3c17c52cfe12767872c232b0ccf70fd4,
  0x6f92c264fe4b60ed273b885c97379f367429b0b02fdf5a21f50878d4baf93aed,
  0x3f94a7169cdf02ce8a6aa987d892b4e7a41cc4b97ce1674b92d5f602ffe07108,
  0x6069018b1f60494eb25bb26832668a0e44d562bf34a946178a29a134e4a86053,
  0x3b612984d043547cd2405ac9ab536348514eaca62068d821aed3c9facb403559,
  0x1bdc369c74e0bdbcd4b4dad11517c9cfe7d136ab3fdbf3988ce07bc434bf8ba1,
  0x41a6392ad05e921461455961d50d2a0c7ee8a761d18f59427e3d8cb4446af1d1]

def cB205 : List Nat := [
  0x4b27e2afb88d28adeb529e178f7cb8bfcab02f8066e83f783a54d18fd87ed83f,
  0x2fcec6e70166bf3dffdf36db5a3f66d009a5897d7701e491fda73afc1bf3355c,
  0x39883d5be5c890f793e913754d681d70e6a40f6e4d6f0e6ca822d6ef686bbdc0,
  0x3d7bd3199affe9ba395be3898b51f574213812673cde0c66b8e08145b3606685,
  0x6a2912de01babc3e316fd48fb8b41169f2f03b8f1672a780d13a1923ca7a7b90,
  0x719c665c12359f895999b15d8e2340d3ebda80cfc4c2a836cfb0d101771e2d5c,
  0x591dc7b20a0f3e4072f905d844721129c8d743e7341e3ba4fb54ec5cfd5afd2d,
  0x9a5f645cfd8741845e94d50351df2b84fd55edaaa185e8603446f62cb837a7b,
  0x66605361a9b95fe1f2c24579cefdbdd954e5666a88c7ddd780c06066e771d54e,
  0x35afebdc0e195ffafe5a802f1326a8837352d891b4059cdc9f050263bb2f36e8,
  0x38a194675adff8501c3b6c2618de8bb05940203d75c9728afbda3d3f2e36eaa4,
  0x13a24389dc0264ab96673a89eb8553ba527c1cb13c11fd26c92cce1cd47dbb84,
  0xd587a4f49a9d049044d8863f23627ced19f646812bbdff2d5951761913bd3a9,
  0x5a050fa30c2ecb79601fe666ffb7a6237cc8e3291703c350ad5a5320642594f0,
  0x1e761d3984ac3684bc7c4ef0251ab6bd0d1576d1704bca4efae1ecff0fe17f89,
  0x6c79c39c553c4f7e6aa8f2880077e23cc0c83e6a095c0a8db6fce9f5299c20a9]

def cB206 : List Nat := [
  0x47e85bfabb63164bda33370a8e96c09f4a550a50cac4057c08e567785a7820e9,
  0x24c12d7df47e81fe4f774d52c643018f90fed842a388f3bdbca15ef26b922bf5,
  0x32f3eecde38f129ce291c86ef5169e6021f8f0151134c2f098f54667188d5b6f,
  0x44f59907207cd9ddb233636f43f879d4d57cc7632f65fa12d06c782c9a812266,
  0x48ff8c05d889b0e751a64f5e789317b93205221d195a5587da0d0301a3380365,
  0x44373541e4036477041b24d29b446918bdbfa1922d6e6816a59e8d897bbd9dd,
  0x30acdf25ee7b657f0f178c8878252539e401b534f20845df938f8e3cf16cf76e,
  0xef6fa4c176be1a6a37f78c9aa18ffd609813324831cc52fa7927767dea51fb1,
  0x5d2093c39788ade4f3041a48c68e552b230e0071c8ccc571e68939e487d48ea5,
  0x184c75d568e0768d3ce1b936bf87b058a3222330383edfb06ff04900b2f8ac0c,
  0x22de2e93f0fa41d7acf39d4619acbd3203da071e3f4c4ee10fc6c8c47b2fefa5,
  0x53e2b231db1d27f2f36094bee5a8c9d4af4e5fb3553c0a77914a0d3bc356abed,
  0xec95d3724b37dcc32e8e5e0ed6f551412deb3a94f539c65479530e741c7a06c,
  0x4d289b91225a55f9347228e046d6adca13788be92569dd2742728ebbcd950fd2,
  0x6f383a1f05ed7a51b7645f7c0455aedabef4b2e6608a20fc383645a231f95680,
  0x2e604949a305a548bf5af6391842262691f620570be33fa2075576bcdbf04e80]

def cB207 : List Nat := [
  0x2c2ce85c5cbf40cce89b299ff585f527510c57e63a08911edd51a99349f7ce38,
  0x2dd383a2a42279999b71689547db5906ec0722bcb4bd7de398e8feed11caa9c3,
  0x64a6b870db4d95253ca5567bcd7c06543994654ec097f001f87c4e103bfe940d,
  0x6d1cde42b0263a35279641fbf5b02e4ab4917387e57159848979b06286f90fca,
  0x340fad3720d3e3463096473e1f57830d215c6722812cedb0c330cc05c4117214,
  0x1e55977579982fc43acedbf6261169c6a75378bec4d22863524a59cd6b430f6,
  0xacc54bf7d2658fb2b4c73d0afffee729904b6333ebdf50c6abea69b9fd376ed,
  0x29edc2ec1178736ed106b910241891b794900c68c5fd8c366891a6b1e2307df5,
  0x4f3fd3dd796628e35cc9e08e91725a79ef91976ad47bdce2dc48a53a6e6b784d,
  0x4b251b121ad8f32ff192829491b792af98075d73095038ccb402ef910cd76d0b,
  0x502ac80afaa7e18c49636b437c1ca764476c90fc2e3a711840f0b61dd8ec67a4,
  0x624d5fec5b468dd35c20c77a178bf10c7171f2f7dc2b18da7d4ad938b78e98b4,
  0x55b57a4f5e13c1b0908ae07637c4d7b2a419cc196b67966910ea1333c10355a8,
  0x239fea853fdbf7b643a15567ab18af02ed9447f01ddf34cb51931a9a52d17cc3,
  0x3ef847287ca3e284386f04635dbc24b7bf8c669151cdf2d735809844752bed17,
  0x43c6dfc359f97c2a83c0cfb738351b82a9f9984dba4f7ef5cdf68a8cdfd26647]

def cB208 : List Nat := [
  0x29503b6081b8664fb309c74627a6f9de4bdcc0c077b8057c7bbed72bea12f9c9,
  0x4be1fed4c9f6a947299c6c97f5123ce0fb65807cd70c1bff34da7fe8ef952bf3,
  0x5feebd98a33d442b862c8fb23d3f256d6351e20a4de3c944671f4bfd84cceaef,
  0x672c2f87fc5f979b6e58a033257aad158f525ba1f4441df1fef3df75f45b8b7,
  0x46cc98c6b7522f777d68da22860e3812cc23a666ec677b8d225100322455e0d9,
  0x51ff5f728a4762cc952da299ba3b998e4cfdd526fa6644a7f22a33a886f75406,
  0x1fa65898acf427e92eed6228da4588ced551fb93180acb30bdf8f996d128c2,
  0x1e319a02fe27b3696e354d1050a8c0b719483c83ae749728a15236a4eadcc5aa,
  0x34ba22cc91affcb5e4928bed7250c6c3595b90b6104b962b79c5f604eb16318d,
  0x634eacd85688b6973b64a2dc836182c269c33dfde9c10e51c0c325ef450da6fd,
  0x2ffd6531caddd90443223c334a2419ad54083e63cc5b936f6e312fb52d73f14f,
  0x59360fae0675dd49401f71576c33a04cb0d5ed21d873d809aa5f5b20628a0a49,
  0x617aa95a868531a9fb332e7972919405a12ab5282ac5e65594a143c3071cef0f,
  0x47bd311eda96b41d6ffb9bd389cc9bb7ee230b4906fb6726e52fc38d2ebda598,
  0x407064230046f1e0ece5b3648c09d28a000c0ec0cb26adb24fa13f0c4fd04c08,
  0xeddab578d4931588326e8053144f95a05e2b60475bc011c13859d9dff95fd9]

def cB209 : List Nat := [
  0x5e5e26d38e3bfc908bccdb42c1f62ef3f9d6bba83c8b192ab2d7fd98ccdd02f,
  0x1fb70f36f5d4c862cafc0fee585c80fae137852bd2cc2f5089c3a8b948d3b0a,
  0x4f15dba7960f40dbd15ac33871bfc93a442d159306119e4de54bef8356ab98fc,
  0x751e153d12b27f90166bdc26e5dde65bc68a457468b591a80c301ba6a818001,
  0x10021cde424dbe49d070abf2a9d73ac79f7b8d7efc224a56659e5c95b3226949,
  0x39adfc406a4c37203e706167870609a54826dea321f0e2a88f8ea486841a3c2f,
  0x47d1ae0ee1fbbf6161e0546aea759d07c9778f36b535369e5ea15db8677e675b,
  0x46d7a40d0fdfceae7617ebcb8e9d3d18a2d34b5456219303969506e43fac50b2,
  0x5306a952bff75cdcc8a1d699d5d67428366093c859fa3885904dad86f7742882,
  0x739fda7b2f705fa817cbc25593d16295501fa388e8445ae7e09d096b58b2f060,
  0x192f172c50edab4f8ef8c21c6530075d69563e4a2db1f452071eb388e547431f,
  0x63133c02f520febe168049c340ef5d942a65fbd173f4ddd9d8f81a5989bcf194,
  0x6fcace3e4277a105427b1be32842daf27ba9d574c0ff3a5886449910d5c050e5,
  0x72e6b6c0d05599c7780a1e30cb865a6e51194db2cc1e885a69b3e7048d7db483,
  0x1a1f3184888d75526128b9bcb5dfdd1ce738e8047d1803a6b4441429d3d257ba,
  0x58d459eafa7c9aa04c8fcba990e0fa70055118c58aed710e5e525ebf29525c5d]

def cB210 : List Nat := [
  0x6d72471d226f5740fb682b0bf8038dcee443b07b5cf1afc2085d8a96e790aa29,
  0x8289024ef8aecd11deac844f0c325abfaa0006f9f1227b75f9d963b41de159b,
  0x611c7368e96d26f270789e3f7ca5dc817f89dd8bd3f53947dd6b75a3fd52bec6,
  0x23d4090910e4fb4162d5fa286ff5dbb28e0ec36ddf4bc09d0edda65c4923236f,
  0x25140dfa0985c005da90b54f4b0a1fbc0284c568cc6832a5fc0cf7855b4e2498,
  0x6bb80d0e432bc5018b611580de96a450510fee018a401928631554703382e783,
  0x12117fbe2e4e87cf2425843d414397c74e459ea97fb78643e3c08c7866506bf,
  0x4fc20e17bc75df7a0c732a68f7029d9edc9a8a36b7718c0f21347d4c97efc12d,
  0x5e90efa6ee4b216eea7ad64d61120dc370112ee8c32239eb3a7d76f086b37355,
  0x3ce88cb3d83ae48693e41b35eaba0e3fe83b10363d46fb80c6fb73791674ceaa,
  0x25ed0c825b68397bb32e093c29eeb33f5dcdb66ee9f17bffa68cf454abb96df2,
  0x2d7634e61a4143279b4f368c5398cf480fb4e6fc0788430da2bb18147c967a90,
  0x670a5158757fa47299bd194598e89d5b2bc6e23afc12ab456cabc4ab8873c799,
  0x82c2d7cda1f013b0ea88e842f0daab2e00154caa50cc7261efdd45e0424e239,
  0x5c6349b65ebc5f2d87b836285150b18c82dc1e1f7764bbe66371216ad4425935,
  0x434f0f3312711051127a3726da600f3ae4f67040543e0cfbce2e8a1321eff474]

def cB211 : List Nat := [
  0x50b823b6c6763cd4caf60bca3a4615c25cdd71478ac9b45ae037c74fd1ddfac2,
  0x6fca23de351d43485a4d43af80d95ac76527626c95cab7929f52e4462f457190,
  0x1f0591a782b5dd1d81bfbcb4293e46f043901cd09a92c344988509ee5aedeaf8,
  0x207610a66ef31459bd45bc1980df40827d87c51f758c0c5f68f4ded2e64da24,
  0x1c19551e23b2e9f81613b405fbb6e34c925c04c32b58e245f8ecf6249931ba9a,
  0x89cb37bc6697bcc6e7aa81c67da67a2829c9a1a45be9dafecd7edc73a023baf,
  0x23083fb18712fabfd79ffb8ce7a1fe342f33ae49b17c69baa9ed8705eff09943,
  0xd368d563e9450553d681eb40b3939ef14369efa7cf76a66e7078ddfc58e64c6,
  0x2b5b73342619bafe1c7aa02bcca9c11e10140857b0d7dd069e8f8bfd882cc769,
  0x1722862e54cfd19901f3e2c7dce8a46ab8a43a82087b65094ad970091bd13392,
  0x2ae7cfbc07fc27c70f984f2768c836ea9719068f15311039521c43110c7b8947,
  0x1494df3080cd5c4292c5f7ca4b6d47997bef2d00ef5ca8899f289dbd289c04f4,
  0x11b49a7a6551932cca0846c62a968e5ee3b82f980a9779dee356b1264617f0f0,
  0x45ede4a1ee86b70682799815c3a841190da11bc107fc844dd7deab95852110c0,
  0x6880b3437e1d76e693bcf26eb645c0f6eae479eae5a14520b313529e330db97a,
  0x2e87ab1f02a54f3f2b29ecc392b1062b09ac56c15135c9601bdac2a2603e552a]

def cB212 : List Nat := [
  0x2b2141f9112eff61f3287948621c7406f383aba154a353ec61a078fbc4336783,
  0x67da87983fd4765681d2374615b4f4b7077ffe734f0b2785403d0dda350ba90,
  0x3dacdb2c0515e7f58d28516c2ad7f81b90676779914698e122fc65b7f896f15c,
  0x7174c4d44882b95ba69f683c970f64dcf7fe362604fcad9cdd8c920889228f0a,
  0x6b24c73991ba03db59005d29c36f740e21c9a79505d6e29d981eca2a39795373,
  0x3855b8e77781e9d8f08b136df14bc94f0c33c70d0f93f82176a6ac3d248bc488,
  0x53a960260c58c99dd8b9a38e46124d5619dea8a2c30e414eb59d1673198ef,
  0x21c965f58a9c5723c4a272c61d5ba82f85589c36394580d0e1e65c072f653d70,
  0x4c937893b0d544e014c60d5b9b1f759672485c4d31a27189382e24df3748374,
  0x7339413f1707b5f6afd5923366ffd14d28dc89400605c9b468d3eaf606d82975,
  0x3c5509e2094aa403ea9cc5662861397023a228952b0ec89ada7752c60517bbb6,
  0x63ccf38443202979210ff2850d3ca923e6d6ec60385bd668be6d8ea398bca96f,
  0x597a6041b1300a8250888613b8866a46dfb0bd2323b3dab655fbc59e7df8f77c,
  0x204db9043ed542c0212e033fc144164a402179088e7931754311bad04084ea2c,
  0x6fbb42798e0fafb7abdb2f80c534925d57d3bb4b81b34321449d16401581995d,
  0x329696df2c3d1410ee08d0db848cbe548a4ad5f837da58683e9c0b21e2eaba92]

def cB213 : List Nat := [
  0x29d4cfef1e7ca9fb23ba59acf7bee2990b9992c5a9d1de39a33a7b8e2dd5b511,
  0xd8017202f79605eed6a8dc158a8b686762f66f77dacf04695b84069f16a277b,
  0x2cfd1eb1f0e33fd871a0bf792cc729cf3f8d172adb7743147dce2b490a8b5217,
  0xa5306258a2dd64a06581b2f55001e817166e11794eea466856df532ed666d35,
  0x345bc3fd8cf51bcd90e5ba01c9f2570ed40ea97bfadef1eaf1f970e54d869ec3,
  0x2ef3f60c54f2ab605cca0922edb9c74320fe5e809643d4ff7690be678ace466e,
  0x6588552dbd0310385543a40ff1eb3a7a8d27cd13366ced2f29f2a329e2268d6e,
  0x2e6753adb8cd83181810223b2f2353279918ff7a784fcc978e3f28c988dffeb6,
  0x64adc8930650a7206d400d8aec75b010e07d7d03d20fcca68ec0b572c43e107e,
  0x152df47b568995794383c160df1f97c4cf791c668bd7ff54c457388c389f7b82,
  0xf8497e2b3563988dc527334cd3faeaf2c26d0e40a9f6ed74dc1db8d6f16dbd1,
  0x441e18a26ab8cc4d38ae079112b637b60dfe8dc5613dfa4703ee943f43130c09,
  0x1965cd70b670ee7b3465e2338bbc757b285cc27d2c9bc505ab85ed5b26829eca,
  0x6cb28fe7a392aa0464e6ecc3def3baaf971d96fb0f7035f255e674bf2e4f0788,
  0x10e67c533e690fc9183dab52d722ced89256f102222c2b9a119946679dd408ff,
  0x2bb1460a60d9e337971559ebe939668818a841ef856c85f24875ee6d6ac6a207]

def cB214 : List Nat := [
  0x47217c521efafd811bdab92f6282505ce1327c154bf1879a304f2caf19a709f2,
  0x64a9f72bf56838ab838dd39d7d3b3b9e2ad5f06884acf57d4070cb779d8fc6ad,
  0x44846b32e07fc343d1332eee6a418c6f0a15022d14b42091711b2c33127ea2a9,
  0x32831de0c9c5408f2b27c016285a5e083e84cb4f97080213199a2d2300335ca3,
  0x39b7b6fbd6d3a72c6c1e40b9727f65f83dce3c645bea3545a9f49dc0ac68a7c7,
  0x407efdd5cbb219e1870d96c82162027a1a13521ba6b4cd6146a59bca09bd4db8,
  0x30f1c4e4fc1017ed6e072d4cbd086c166b0652fd591fcad3fb5ea1047e29dd70,
  0x16c784aca673ed591176b70785daedbe4c04f6b2f8e59e1a385ef6ded046e761,
  0x3b941c4da28c2479d37a60b3ec8d59a86d99eac87027ec423127f01d81962f65,
  0x2f161ee9f50f382227d3aaa8e799bca6ced76f05b050d8381a478b1e249fc39d,
  0x1151d9683407c8256d4a8f81adac9839440ce01d119f7481030f25ec8dbe220f,
  0x5586e3c8da98e2d902e9a6b548d44aa783cfd71941baf27b492c93200e5b828e,
  0x6ce436669b3817dec4c856bc5c6d05125f610a60a5c0601655ccc47cb5068e95,
  0x2f91c43dc4c7bbee4efe636e95b10347e6fbce29e51cfb51609327a5b4922bd8,
  0x4fd6cbe0242fb8aba04aebdc6347951733a5c25a7c58ed95a2a89a65aad3d273,
  0x5869bac3dd984f34484615dab1d710eddcfed480200f64fa0b3fb68b446de6c9]

def cB215 : List Nat := [
  0xd3955378dbed603fb9f7b13b1514c5e75a67058110fd8dd9f976696339092b8,
  0x322582347d53b34ab38528465a709ead2e1bf74c3951c7d9087631b9baee5cb7,
  0x540843daebfab1c358afde1f0fa9ff210d4dcf1cf7b6c65e572fe3910888e34,
  0x816f1cc740cdead70d51f15efb7bac94873b0aa7305b2bbc957cf73e85f1517,
  0x58d6f9b5fa4d4f1ba9b3dab913461d32db070fc247c32906d8ebb7cba302352e,
  0x6ec48d1d89ce7cd1eea7d1f71a57afe03e1bc2c2355d56186e452a9c839813ce,
  0x52d3797f763ca80c4cf68567cbdf9d422628414a93ddd0b381edad0f902d23ac,
  0x26ea01adfbdd3e789ecbeb9d3e6150e160c3da34d0374b4695b131ce6965455a,
  0x9cc6fbe123bd35efd1de9f515d9769ec4e4081f2386b65284200654d05e9cdc,
  0x4391246b714e08f162e1272cdf779caf5123b7ec7e35e0ac45aaadba08e8fc2f,
  0x579f20c35ac8313c2cfcc06bf32b2b3714f0354a37e39e8b1f6e86d55cc8e9eb,
  0x8e4d593ea3c957acb36b8e2b38be77d413a7d4cb0f50dce3e47d36ce93d8a1b,
  0x343fd0089aa069fb33dd646fe9e1bbad50680fe090b13c8c90278ec983746c83,
  0x417f0116a7a5aea4d0ddff9ddf8ca735b72fab0681e8bd1b6be5181819dc6447,
  0x2e437bbf519aa18c2050803d192cc28c142010fd2a2b6ef4ab433453517a696f,
  0x1f92a5bd22d61dcf9e56b96dfe5bd385ed57fa60cab124a41c2de2ebc6079885]

def cB216 : List Nat := [
  0x24ccef75b45a2fcd530ec6c8235c22bc39785bfc51d9904f839b93ef464fc1a8,
  0x833533ab0fdde3364a26a0e42928249fc7d69e15b6ead19a46c31a359937710,
  0x7d6d17664a2afbcfdaa2be64011e2f007029c6835d03a0267c7ced8236bc01d,
  0x25a450d3a1739095df8402ecbd2bf0df3677499a252318069ea15d4b951b1be8,
  0x2a8fee56f33ab3b177a36997901e5b1c8c820422cf23153a3c03f30b5e579a70,
  0x2258efb462b26cb5c8110315fe60aaaaeff1b320df80a92ca505ee7bcf72a9da,
  0x5f7272503f8c80eb9c4beb9ae1182887f084a6e22f57f9c7462a2b225ee8754b,
  0x155da5659f99667afdbfff770b8390dbee1afae05c3b55636f218527a58c12df,
  0x30255178979cb7ae8cc30f8794f8610dd33e46bd276acaa3f59fb48d21ff7bfb,
  0x5d30ac45a8c529821f1cfa281d9502bee759015a96a6e4a4a6c3da0bc3919aae,
  0x5a74b910162e664b309e3290720943f06823a7f6b926503ed609b7dec9ed28da,
  0x512853d892d1d1165ffbbc8d760c75368701196b7b89b29fff727700ed1d9081,
  0x5a2b31ed5fad19dda265ee705a03744b2f01066397cb5b3ea6f08267b4c956af,
  0x69628fdfccb19fef6258a1a0cebbbf5529715dba9fcf2b605bd78f41ab8c37f8,
  0x6d226c23e7da890a057e08c222ce62157322ff1380f0dd70f29e028bd68bb9b6,
  0x7aaf8d3e14be3c8d600518a72ddff6f3506cb82596fcc0c58f3bf8af2eba304]

def cB217 : List Nat := [
  0x189cd3305ae61a44729cc2cf4e029de8a87a76c6fc5537aa94de4fd80687e29,
  0x415987607f6c0d3db7dd6153518f701e264044030ce9a435356bcb393a07c842,
  0x3b8b9dfe44d852e111af158f8d3a5b57c6fb4a3a38c38fb79f173c01e4bede3a,
  0x2905219784e7fe98bc2ddeab8e852adb7478ccfba5c19713ef066054c267d990,
  0x236baf08c6735a4dee2a6b95058a7af63855f0e25e0d0e62ab8fe63f3611e4dd,
  0x38cc519074728e49c43f91412b5819301abd3c944a1e12e66a55f60f9ea3d295,
  0x11c49b52967a8c8211fec39ba6afb600f765a1c0d5592a5b344917e29e30d4a,
  0x4c7475abf0a3cbd278794c97be037e7b787f5f6364c5b939b098a2f33a8581df,
  0x5f43b89606a32d24f8613fa16a92c1e06aea10274b460ab240948799816a4ae3,
  0x12ccdf116bc420db105f76d07168425e3855ba61fa13e2b92bfe1fd44d469a1e,
  0x650d976809cde2c432a20863333d29c15bf7fab405f63b989bc0c6073ab1795,
  0xa6b773324eb00eb1d0763f973a0b2878d8852e52d3fe01809d2bf1e86414edc,
  0x140450b6f53872d41fe31dff8e5699cf97ec40dafe69a489f29e3e3b44559157,
  0x4bf8802fce909d883e998ae13bcbf47c0d28a382e2f1c1399caeacf401eb43fa,
  0x2cd7b27e2d3b49a5c832110b45b0776e5bf7965669ffd6d656e0d85754c5d86f,
  0x3a2438fac4beddcf9cf1bf8ad1a52e7fdc20152eb94c80671ea0ef9d295605e3]

def cB218 : List Nat := [
  0x5eaf468d9a24fc34bbc4ccf9200ba96ae11bb027d024d425f60ed21b20c9314c,
  0xc1b61708f2f161f49927be93176fc000135c195391b8feb38987e6efd4121ee,
  0x1f00f00ec0bf553a3fab8783580fd24cd856671afd3a610d3e26abb12ac7534f,
  0x3bbf0854962d13b78a17552753b61ae2c2aa131611d61f41a54f39d482946225,
  0x509950168fe098304c55993851eec99177c4d049c83a0f575d7053eb92565010,
  0x45422fc4f1a2bfad8f6b75491469ebcfc6b06cfa1b9f0289e79545275c2a2215,
  0x29440f0b3200561a9fd0944f26ce2c875ee7c7b9cbc15964ae2dfaebf97d4741,
  0x1af4195da9417854a9ece4485e313f6087fd02470c0240542efb467500685157,
  0x30ed5487928fe2aa0ebe4aed52be748b22f9447562e07c4ba42a1c7f2f5e9cfe,
  0x5bcfb92758db448a1b89710b82cf8e5e521f4ff76ef3e6367df4815089cb2db3,
  0x6ea1ffb9bb62e945d77e158fde0d3ee58ef8d76073d06bfadc62951a86a511f0,
  0x3119508bb658e51eb012ec8a3540812cf90e26497ab180f52bcbb7a21d6f5ccd,
  0x6e77c452213a60cfb92f4af4984cea65b7c226cbdc7f6f40946ac5f0379fc7c8,
  0x65bda7927382afad11a11f5d5250ec2f575fef34655c497ff4548e5e0035ccb2,
  0x2f4942131512708ed398fbeaf1dc1cb247f22b6fd34f5be03ae73fab140de221,
  0x4929e1b58a85a111765bb19b642f08ee4de2bd0eb79be92ca9cd80f684e5124a]

def cB219 : List Nat := [
  0x4477fabe818dbd3f0d9678af6b8d64b419c730a004a3ce1e33a7a41044605358,
  0x66ace1b4b171d1b142f44a491843218b4f1f8575b97eb927ec4c299d432ae718,
  0x22f170b1312b2b8cd3c35c02fd5f5a9c5c293e097f314f1a35f98ffeb8e1c87b,
  0x14dbbc5aa715652eb5fbcd5e9cf60f7bc5013f22c5c6b188e106a4775eb14fdc,
  0x38d5ed12f7407fbf37b04605ddce07fdf2d437fe540f9b7f7d8e5dc0972a8c4d,
  0x1b72c5f2d1dd6a60c7c5f16d0e71f12e04896102f315d3ff9f427b0acf47a086,
  0x436bf25d7c565eef1f9ca399f0733c8c16e08cd45a9d67b854053d33045f0368,
  0x7201f550f0e32ca47614db23a3f1359cf88fa7a313128f3dbfec8762dc6e5b14,
  0x1fc080292363cbb76df6ddcb81ad667085c478cc20d24d66c5c0983923715f95,
  0x583eb7c6bcbfee1931ea2dc2171e58ffed3b40d9f245f53d11b7f30437bec0b6,
  0x1b766273f8cdaba4ccb46963f3ace3fbeea3a0e71ca1e3768302627147dc97c9,
  0x4395ea047915780df88683f3baa40286db234c8e1b15006f065fb3e9c363b545,
  0x41520e3b2cbebd356d6d67ae52d1eec145368636cee771e5ac8a49eba48b0b7f,
  0x442ddc9b55dd8b74122bb0d27a2e65e02665aa610ff2bcb6e1e6e24037dbe80f,
  0x68502244fe63f6a83857b4cdb01078a5f6da680d63943a58fa135df79f339821,
  0x207592d6d4e4f773a814c9b9d63c308bb0dd665d9d196dd8306ffe748aa5e2e5]

def cB220 : List Nat := [
  0x68087974e807fbecea7dcd04c95a95439863fbcb872be633319b2a4d3605aea1,
  0x1b5283171f7ac5c73a75353132bbf9e70c5cb5a34c443abb8dba151112c3e1e5,
  0x5745e603760fc202d5385b3381743f04eab2d77b2798f6666d9386b3350c30b0,
  0xbe86ecd12d31090257ab8c71fb7c7eb66e140319170056be488f8eed71a2e3b,
  0x71d371ef88b2e915cd9d1ff5d9a421e31c65fc547f675a6100fd79048c0d67b7,
  0x5c32355c9503dc285fa4ecb19b2c9c312847171fc868c3fd68c78bc95dc6ee67,
  0x2413ffa64a7ff17e7aaa19427a79d14f0a0aec5aed0ef552126b8bece610de6c,
  0x526495fe13e8ba76483f517cda081d13062f6c19d48654d58481503a802e246,
  0x5caaeaa8f6b0ecbc4822ee1abe59afc29e4ab3339347b1100c21b039283b6cb2,
  0x6964d27c98212467ec5d9399d6115fc4083e7426b90525f0f7da878c504fab6a,
  0x321b2165f1eb059124e61ec9e3638c00f3c45bc09e377305a0757be7eed49c7f,
  0x68b532ad10e9bb625c043b6826a8626e9d9faeac11bb6a0fc0daa9383f7b0784,
  0x6dab014e79af5746fe8027b3a5d6e7bc676efff400e9fe0102e58527a7f58086,
  0x4b85c07316be40a9197b3fd1a92bcffd485e2047d5cbba66524fd01771145048,
  0x55c724a96d264674d3a645487f7c87b952acb81aab910c5f1f47394b9824d3d8,
  0x54239cd1e70e18852d12726ffd6a81aa9409cec1b63b1e5109df48bdba62069e]

def cB221 : List Nat := [
  0x4f6c3e7da0c0377c97e278f377f89c0b7357a598df1206a9373788f19198c813,
  0xf9392fcb319dab82430e7a030fcaac7bf4265c3838985a95b5bedfcaa069533,
  0x403d571f4dc95aabe90b25ac259f99058b37508b91c0617b31fdf5dd48c658f5,
  0x3bbf66c15d12c210af0d9450b214699a3f487471e1442f399c12ebf60889712e,
  0xf1a18d4e814d55a27b716536eface68f730c4f4e8010e18cfdbb5d595caa34c,
  0x31bda22e3a2b8f95161dac106842246ddc9fad9b7f0dc353c13704b47a1d5f4a,
  0x2c678ad4f7b6a27ae52dca2a3e89cf54829f488b9105302c64443e0b6a238922,
  0x1a60f099658a738b06db60afa38c0bfe796e31d9daa58530c5f0b6d0d38737c6,
  0x335f73da0f738ca4e389b567253d7693b6005736d3e722e6c5c7f98003882bb,
  0x1572dcbc8c83bb56afadd00b2e2f04003e40afebeb5bf354fbc603c5da08e649,
  0x664bfafe3ac4fe3f715ea9a17959db2495fc7488f2a9512bfee03bcc6713e3bc,
  0x23ad3eae4f5bfba4894ad8fec3523bf90bd4624955a39e162239987044cd3be3,
  0x66e29011cf42f8c67165c11edc586328c3d346dc9463310a020bdf47669131bf,
  0x2e402158e204da83d3b9e3dc66c86e91f25fe8c6e2b1687c794550ddc1083f6d,
  0x380167ca2fcf2da89f5de5ebee89129be5c8b1fc314f308fc0ea887b1594de03,
  0x5db8fca008dcba07b5d62cfd15a30cfe8b1a5f2d341916f4740a9142a4b24b29]

def cB222 : List Nat := [
  0x585921a243c6de94fa7b57c43cbb04d54c006a5213d4d32b186401417254853,
  0x6ebf4ab52e8c968296c5d3dd77c756245be4311928aa56db2311da99ec73bb60,
  0x5f54b4f0514a0495c1e2edad1fabf277971aab06bf3e07e2d3fdeba29975ed99,
  0x1ce056f8c6bf79206e2ebf5d3f1e09aeb5e338549a2b32a2f148d83aba8ac3f6,
  0x2d9330bd2c9e1a7fe29699f037ef5d0fb655368f33c6aa7673045af81db18f6,
  0x5cb91712798529014c18d4369a1e8bc467ad33f4bbb330740506a5306d775e3e,
  0x3b71dfbcd3f41377930cf3c88d8dc82c6617f258eda9715bcbc2a169fbc194ac,
  0x5446bac08d53a450dac624de0fc1484119e4f6391c79a999e09db8d039591fd9,
  0x45a08b92e9f8686c6cb407eb0016e7da5212df980b759873e8bea0bac270ef7b,
  0x6b9305158b216a35d14ed0b8edaa3770a260899bc18e5a6b71739ad606f5b038,
  0x1461d5826ffdefeebb5bc56c42eb82546ad9a687aae603c6782929db66b0d891,
  0x1f1dfff713b1463a319af7880c48a24320a7a387dd17b9fc45e41d77f4c3e337,
  0x197af0691f0912d975905d0e160622d9c1486d00e676130d0f75902e415f1450,
  0x6eb00af81cb3169dc6d136508d6fb6f985c3346caae0c29335dd90cf9e8c0669,
  0x50227669cdb216810a61bb450949acc50e4881979e991d12ff63d194fc2ebbaa,
  0x650adc31f78fdb6b9012143b4b80e117ac275b01984ed15ef82703603633d78a]

def cB223 : List Nat := [
  0x6e12a29c380ee66e05cdb9034c18b2ddd584f65134764766689f9df20eda7f30,
  0x32acdb2e792dcc5f967e8be3507379078f85c12571e172e17810a811746b36ff,
  0x1cd889a8c3de519ed2c6ca00dcd1c0f8eaba06a0cfe30f1a331f51fcda32d407,
  0x2358acf221e6249a0ba7ef764aac2a0e085e5863e78fe568785c7e5f4b9a19c0,
  0x5ca6cd011a177ddc9b341b4c75ce507d0d2ea436bebfad84b022d4e9a6223cc2,
  0x23b3eeeb3f979aecbdb53ba185999d95707f56f82553fa894f2b89b6ca4343c5,
  0x595daf4b35b67d99db489546c5ae6d13e8e85b87ac8265149cfbb09192ca5c61,
  0x501b32f7459e7f0fc5aa471e4c365200ba42c0239a3aa67126e4dd52b16e81f6,
  0x582163038086b37b53aaf24be85c583d5b310f3e198cf558644a51ba91376569,
  0x3a7408210fb210655e1510c864eff29c7993c6733549eee6bb8f98f0d8bbcc07,
  0x1d94295e12f6305fc4863bb925599c8a7a6c97907df6a885e840836a064f5c04,
  0x7dc909f5924ba0f4906925660bb99383f215f2675c33a0c1e19aeb0ac4950f6,
  0x42621bd37258d2257636e7e46a5498d4275cf06623476aec13e21796631f402c,
  0x2d3d52f6e35c15852f9b9ecf1f805aebb1d0078a34f0d2f6579c1be4c608a23c,
  0xcf645fe2630459fe7c0174ec318f3808d232978c12698b3f89cc3a2ceb9df33,
  0x348a87174faf8b2545fb181cf153e5b5f805283523efdf5c28592e2c96c600a6]

def cB224 : List Nat := [
  0x70564de088f3635bb9cab765547b2d7c778895ab95eb536a02b34815c199023e,
  0x38f9c427b009b790289b9da0d3daff8fa4966627a618104c8963d90a0a17e94d,
  0x21f0640374f72aa714bd79071703bd475059862cce1382ef2e4c2cc7a18f6584,
  0x4644d17e89d882c67770d3b870bbe85e5f64da6cabf6bf88f46f4a029dd9f828,
  0x15d18ae5ca775f1e5a10d8a06e9d039d28bd85306f4f0193f385b12c16ef21da,
  0x418a413a8d45aeacdc2fb1f63d812eaba9f9e79cc0feab974391ddcc4558c19,
  0x455421e58e1e045707fbc60a8b7308a8083a8e7f14ebe9283d33872dc2a3dc4c,
  0x27a983b6f75c42f16b589848c28ff5a676ccd6f9d5a6ef2c85ed94d7524f3da6,
  0x3c939e2dc3a31989422b74cd117a13fe6695f3b171bdbb08301ffb7acd322714,
  0x5ce9f4fa0e44c1f721d7bf4054edb4a045139afe27989b5daeb75854a160d258,
  0x16f43a8fc73058b5d4f187a968e6a0ad3becb80db667d5cb1bcd833a1ff1c814,
  0x34dc978ed752b80990848a4b888f32139f6ca83859bb1f898c24660ba8bf04aa,
  0x259151b3081bdd064918fd16d5565945f241a4e1a375683f886224ad436ac75f,
  0x688d3b3d5fdc09dafea3912afeab3b1986af75b370ffc4c6f72c84a4e3840fa1,
  0x600150279ba857ea3701d17eb205635af476b6cca901fe1d764fbd4892b8c948,
  0x19c860b9f252bf66e1d4ebfc8e4dc73eb3e11d58dfe148302c4ee1e67b64485e]

def cB225 : List Nat := [
  0x4debd245afdef099a9ba1cbb652ac76d2796cd8b97bd90113e97a642b42fcdcd,
  0x6456cf63d922174acaa42fe4f0566750ce5bf86c715554aa99517b35ea8fde59,
  0x2f17a6febbad28ac6cff662e42f708bca35d6ee52653ddb0a604f377d2c3bee9,
  0x16c3e279fb44d1c99fa5e3c0cb783c73ddf3f426f2cd7dd3ba8e94399ead6fec,
  0x2b3db225d68e39ff236d2cdea465d59ec326ea3aa3d70c4ccc9337960cd314cf,
  0x6deb3ba7a542c46c8e022c680bb802d3b4a057a33c736028fa7e03c4d81ebaff,
  0x3931e87e7c6b97497153c49989111924c5506139508c51add86e6bb97601a461,
  0x6ad9d78c2ed0165d7a83119ca9f1b790c5b094728f639fe462fe17ace60de25f,
  0x4bf7cc5935b79b1eed09714de4d9a40dcf43d4cfd9d87f36c8bb81f2c0cba7c7,
  0x620e5e3acbddfff89bf571e9eb78bd8598e95e8995797fb4c0bde9f19239f77e,
  0x2a9b8ad3aef0aa425b5895a28044b9c168d5ec8c4fde3a6eaa3560d9e7c649b,
  0x4a77777f760742b28c6a48a736c36e80655736e8d496e05a7e491bf8cb75c75c,
  0x7182568ecc47903db795ae710b54f1ecf2e58de73b52597fd7b766b703659b85,
  0x2a4fa8fcf060fa96857ec7655ddb85fd3178c5a492755492d806608f7491f77,
  0x46906e745bdce763ea7931bf8cc2bc384194ee11975cf8790f1fee9bbd51945a,
  0x4d96d3a343577939f91c96b147c69aae24b8224decf66de1609a162aec2123]

def cB226 : List Nat := [
  0x68d39be490460597b025941e9cfcfec096396cd423ea47134626b4fe71ae426e,
  0x313b76afc3f94bf8904b7f3342a302e3121dcc497ac154335398dbe1d56e3fbf,
  0x2ce19e0e9694dd93707f1e40e2102f5879bebfeaf60c8bddc1aa642ce328790c,
  0x262f1acc11f10dad270b35c5716ebc1392950c51f9f03aa398559ad04eb9e1cd,
  0x2b0211f58e5bd9cdc9563afa8326894df50a1c6085f499304c57a472f44325bd,
  0x256b15b47ce52f9a38a997ff5a23099c263ce53b1a24a82671da8d1082d99649,
  0x51c5ca6af312999038c999e32a6cc61a715011dd558a68264016c172928a17c7,
  0x46a46fdb3703f187957a738de43595ba8ddaeca160ad6b48c916e54a89ff1477,
  0x4b103a614fc0603e663d16affe2f5dc233a91d79f26019eae041e5ae2097c112,
  0x6a0b16fb657914a2eb441f2ac91a5e6b3a4d3c0e1b46be57196fa3afc19099b,
  0x18a6ccfb2abba3ff748f8ff511ed620764c3eb3a4467ea9e3700168bf0d55936,
  0xeaf9161119db6dbee71a0a34f8bb4a1da89650b788abfa7d5ae4613c4e45b18,
  0x3bfad1a089d4159353a2467c26218e8979760153c9470fdf3948f6d2f2418bfb,
  0x48d0dcf33abfcd65d4f686e773ddee06cb53b50146ce31218780391ca2c61131,
  0x63c91087211ebe4a0cce991b6872939c8a03f67882b5046599c182a7e6039f9c,
  0x4256c9aefa2599e16943b526a52f06564cdb93be351b2c18a4c629a72b6cdee]

def cB227 : List Nat := [
  0x18db9d124c9292e49d3f7607b108186f5c32f8a8879acd0b98696a4c52281316,
  0x3c1c8605a5bdcd3da6c7ef952b57501c5b04a4b03eff3ce7ad1a5c16d4ab7e93,
  0x2b6c4f54e194922b040c0fbefd5d2c1ae4bbd124f590f9015574d82acdb57b5d,
  0x1d589f14359c4d4f4315ea1d3fc77a39fc2eeb4dc6f604c4795f94678e6583b9,
  0x5cb024a489c78f83b3c7aa16a4a7faba6ccd1591e4db7c9758141add4c13d19c,
  0x4b236bf69ce9c3d81959b25e5c122437efcebf9e50311fa8422d8086686aae99,
  0x65d3a7f3c243391439423ac5b02c25065e55aa7c71e4d8489fffa8b8c8b68e0c,
  0x8f942fca3507c378281d531a4819193bc8eea1ba0d0f368b28d07938c47a513,
  0x5209708e5378e3b2397dc4db57a1c77767b23dcd9293ce90fb45def744ca3d40,
  0x14a6341ea3131b40dbdc7207ff71fc577a4085148d560eb0d7190a73a013e2d5,
  0x6df491de8c5575ca7990115c07cea9e076df607648b1bd3d4555abdd61690d50,
  0x3803adf68f7e444ed1c95833221f5a33dc02afb546ba3fc7f06391717b3c9ba6,
  0x4800db4b9e66bc2e1b8ae9f004cd7f53d690a4f75e719abfe5aac7835292697,
  0x708b5055974a4fb66448ac861572899172563bd7e53a8732b198eb5b19e2bb96,
  0x6820e3e031879c452e01e60886a3f0b4807e6d52ccf2d9f39ffca6b8e33d51d7,
  0xd1ee4357cb8c760e5909ae54cbd94a59b2f0dcc6e5fecde20fe84a918cd7b66]

def cB228 : List Nat := [
  0x5fddf449abdad4986924e7b643bc683c21814c871266c2e935c72a01997dd8eb,
  0x430652db2b5cf4ff6746b86aa21e8150f8588cc5a01fdbb6b148449dd06d0365,
  0x2831f76f8c7c32949de401de5e19fcc1902e0ee97c2f19be7660a5d675940988,
  0x57c757509e0d498bc64f69d94cee6d42850ea98b86452b1312629b4eaf8f64b3,
  0x358c76c88b0a35d067765ac6bc3f61d5120a0e7d83332e539527e0dd8133f340,
  0x62aac2fb7b507ec7a6cb7f65ddd4fbd2fed781d23d72e5d11b21146715add5d0,
  0x6eff2ecf570947299083b705c61fcb23a23c19a0e522f9df65da5e8e631df2bf,
  0x734af733786ee79b490643ef018be4eab9962fe34ba6f5987cbeddc74f4944ce,
  0x206aba252432c4ada0785d41afa5d8865b7b747c1816adc5150c9a8b0f0fa9bb,
  0x34dec6052c303a6a6e52da621cf5491438794bd85329e6e63bb38ff0502e3d7,
  0x548fc022ce2ad2693c1e42bcddc0891b11e43065bb9667f2e0229bd8aac0dae0,
  0x4e430bda7005b2fb387728576b94b4433a8330ffb1fcaccde6a06ebdeed75064,
  0x5769d96272fc45d59e1bdbf931e30f5eaef1f3aab700f2b3c9207e38bd358e08,
  0x703ac8bf40636130a882c1fd92ee581319535d1efc1f511497c1bd72a9c20ca9,
  0xd8cb3c2ab061041da68e8f0905306f71e17eea7abf854222f385a1a96f099cb,
  0x3c22a4f383276c033516bd2b4a1c9479b490eaf83aaa6101fe56c77124f7882c]

def cB229 : List Nat := [
  0x2f14cb4af1b39815b647c5f955f2327fb4a3893baf051989de7b8dfab8503bd,
  0x499259435cb5d11f02ba56c475151637cd731ef74ef58f9f612ee3289730f32c,
  0x2a441dd5d9bd7dc7ae99b171381a4a4a1e0991281b2f0110846aeb6014b3058f,
  0x4c27c18af7c5d006a5884610f807da82aecd01f1bffc3fd5891590f04b882843,
  0x5af3549d382ad948e14c07e4c1957ab74c2de4110560f7d63fcd05bc756051b9,
  0x339b48a631c093f51266a560ec7725e9acd6903668dfccd66ef2a4dcea7e18dd,
  0x506f6f1453914223c1c6985e3daeda061e5518f9ec74eb10101586ea583f3a26,
  0x4e76126d4ace9e311e939e277e2dacba1b5cee98c341e90341303c2387b6b1e4,
  0x1ee58d704488c85931efecaa4e2cf33d83993d69046001073f04986778180edf,
  0x2a7e94cfd88e13dff0e4af139e7b9b3b5fa98e49f551d3b16f95ddbb4e7a7f18,
  0x1687594e4d431a2e59917a1b8ab762f7c22dfa3bce5b41c6cdf02e1894888f38,
  0x2a0c2ad127eab321755cbf6d788acd0ef327f98d353409e32ae07a2c9b308ef9,
  0x52198f2a56eb3f52eaaa7320a4fad8790547f732266bcca0cfee8d5c39911b24,
  0x6dedc99821ee7838b6a207af426a61aff9e254780baaf7cf9894931cda13a67a,
  0x13ae5321abad40ca2d527037d14c9b9daf02204cb0addb3e3cfb7f5275cbf3b9,
  0xefff332ac26d647a43ea88a36b82c54164f85cfaecaf9dfe6874ca3bcaff519]

def cB230 : List Nat := [
  0x453890e663535aed1f935ed8e77111808edc5979b2560e9132b04612f51f4f94,
  0x59c33fbbe6893a59bede3b864e15e9467f8dcfde3f0b3c9d64f09bbeed16550a,
  0x407905e2569599d68f3b2187a405ff73651af6a794ebdb362a151ee5babc2a40,
  0x578c9e8033f3ad105f5cd0e2325e6623351312da6786b1e874ae280b4cd9e56b,
  0x311a80ba900725663f740035bb5e41195d0ef539ca3e3314e6ec12a833cc9daa,
  0x547c0c2d5dbf28c3ecf0748c11cc9f58221056a36cc1e25275d1db048797151b,
  0x437e91635d6b9e90b12b65fd8d57e3c493c3e7233dcae50878bea77ae5d39488,
  0x11db3e4866562797463953a62acb5fd00dd0ccb1b1827d3208a888878c8b7893,
  0x5a608f34bb4126bda73cca60a8b3c3a86f5f431f75774736a1b2db329dfb43a7,
  0x5bee160a7199007a8dd3aeca2620284913c002a062736eec12020ac4926e9215,
  0x2dda79097962d284e3a2631744883ded785fa64abbd321af640c65ba75525573,
  0x5cb037b2e36c48c9af933ba869556fd420529de4b1dd55e8fbcc99f6d63436c9,
  0x63374f5f3f55cd1e1db6bef7137213c4fce536d64d53b3a000a434f2d28d35ad,
  0x16b6d35293e623bff44558ace72d60984ae952166f553960aac56e3b4fd49f8e,
  0x1b7b5229f3cb4f2d1eb834e97a37fd2e91ad95739b82b4c8bf741c069dc12728,
  0x7389427d21b1abbbdd4150f05ab8e092127c91e10bf4997d922299b416aac50a]

def cB231 : List Nat := [
  0x71244c3f093fe5c5e42d9932ff4b82853c835d9695707cd06b148a2d3e44b1c7,
  0x653d3d9ff8d88926af098253303b02d376a492503a1f9a46f195c07366fc9c7c,
  0x1df5b1745810bbcb30bf06c61997b0f806c292fa7716391c31c59c7d41370f91,
  0x5a4980ab0194576f3541f153dfab2498ac6b6ae510e2da29d93ea4c7dad7d915,
  0x3480de737a6b9937e4aab3811c6a1b1f6b4e3ec89fc2bd2fbc24c9ebb606970b,
  0x6ede8bd7a9c8092952213b35c6e225f4db32c5ec19b1be6e7bea1dada5de3334,
  0x53a41b760e5c2bd905814a2048f69a4c171d0bb49e293f7d76a08062c75aac19,
  0x44dcd1b8bdef2936b743bde4ae20f51297b9729a97bbde47fc0284feb107f783,
  0x48c58c1f95bcf0ef08e1c6d53b12c323ab13653fb0d4bf07ab51e0d447fb1102,
  0x46052f52153845ce2c9fdc62fd9a00bb1f6ffbc086144c1a585b9e4d74030172,
  0x73ad3f7b61e9b0a6206ef6705ad2187e2e0605c0adc6d1f971a3c96a331a2a9a,
  0x2e082226b8400f3028fd0be10f99fe232a99f1d1445d17e4330b0c499e3efa41,
  0x30a0bb95a2f7ffdd5d1193111f8589b7085309ba5c233e8eb402e89ee7e9e660,
  0xdcd1808e828243b9bf876699eab27e6ea8b93fff5aaf78647d32088b8e6421b,
  0x3112b5867c11e6599f80045fff0651ed402d1da70360831e462f46156bf40117,
  0x398cb559ea30d3300c84346e11437751bdabc571de8b663a43ba0b1d438b881f]

def cB232 : List Nat := [
  0x264337ee7dcb86462632f4ffd033f77d34e5f04e4286c4b0c40d484fd2d94f7,
  0x26c270b90e4ca750f3630aac93ba855d7444212dce33b3fe6e19fe0095cf1fa8,
  0x6c3de037e147b7e033f3dce218789e7b4af40d0e38ab500e2e8b2d05245a0647,
  0x3dd52c3b74b5677abfd79f93df483e060680df18bc1f7e0d37566b87117ccf7a,
  0x2fd805b05b72d21112ee7689bb6121f0a964321275b65ace102862173b4f9214,
  0x5211a8b6ffead9a113f1c980c49676d22248481a13b624ea901b3b1418ac2484,
  0x5614d01b16d8e544e3a3c16b0b23aeab4b0e5f1fa1950b5a417899fedfedfec3,
  0xa404e99c34629727d45556742fbad0ba0d78c99b442738289d72a14d4f3b201,
  0x4229440faac4c27ad796c137405bb9d021d9ff0df7301d94fa689310e4011750,
  0x3ce06ae11d1e08af14154ecc38702764718bfdc62e3c20efe4f6ee1e2f10a683,
  0x5fe1b16028142a09706633269dcd4b47c1a9d57124a2dc84a42aed4493deaf03,
  0x6ab8cae14f3f63bf02b4a38f367461f7a9c6755abdb55dbfce437a2df50b0976,
  0x52f30a443071377e4e01ef4d55879079b77755a2c0c7b8c7bbcdb9408c3c5150,
  0x45e380aa969c20223734ebfcf07e30884f9dfcddee8f98fc7cadccfcc2277125,
  0x670cd0f852c219dd491eafca273355e066399676caeabcf03276a55f58a0e406,
  0x11fc190ee670bec467145bacfde29d5452ac7188545c856c53ee8245e876915d]

def cB233 : List Nat := [
  0x671d701cd1f6f9ef0812e22d0d6825c0f6791570d63086a7071eaa6a9588de69,
  0x678bda960ed0820472cdfd3a38b65179986406758e97d2fa8682dd1cc45a68b0,
  0x34c2244ce25199796654f972c98320a657e1aec2010119751525bf49f9cb96b2,
  0x6486a19cb5ab9912e1f3fed58bc38f0254b244bbc8e0a27228b6afdad2b5a837,
  0x2b9216400af9ccd8b77c5cfee29164a465da17ee68f67dd6a9fc816c22255780,
  0x1b827314efe7df601c0593fc70cc6409c6b6183b43e162a0192ed3967e1dbc6c,
  0x17ef780013257aff80ccfd912de132c090177d6755db2e619e7e24d5245ddb11,
  0x196b3385fcd9dad4f020c387daada2c6a57140dbf5e2c8f12ec2657a3eb931e5,
  0xec8ae0c313d522b32387144bb9f958aac42cf9a3aea9200e0ccf3f214eb1dd0,
  0x5202dc6424a73eba943ff2b2d819fa782af77d84dc4c6caaba67e48ad988bc8,
  0x2521256b4934396d0e95adef1e6b727753fb3addf9001ce2b8f5e7dee1a80d77,
  0x5dc1416167ef5486da739a247da47d5f828a595b395ae72b8f4233858d4f094b,
  0x3ce1f115f2f079b08b151c9455c11239709a825afa045412b10e2c5942ba15c1,
  0x1f000ebc38bfc454e4010d621d72091de7c2e025616826f7f96c2a2025e02d64,
  0x1cc1a323b661cee91e8ed2bd0cf0ed7653dcfc654a6247d201ae351d9c4401d1,
  0x4b6f49e43587d68feee7fad25e72f63c3741bc0db1129d02a5967f3a4f3023ca]

def cB234 : List Nat := [
  0x55a73a86ae63e56eb9ca652b51e595b5cd8d77084c812529823f278e24257b82,
  0x4babc825333c6148482fd2ef100c1cdb53c2436fa267d6acc8338f3d098aea8c,
  0x5769fc06b90af7637228c039dfbd63776e2d4795c9e91020ef6a1558678f6184,
  0x2567df4975077e33d6c8c127ba2e988fb1509797879be3caed315dbbec58b50f,
  0x22f203a3e90dd296167b21825c74ff860658f382117313b257f209114a90899c,
  0x58c85eb981c49b42783279449d9f5abea7cd278ac14c90438aa4b3b6329af5de,
  0x310c12d29dfa1413ac505621735a70dc3a3e05c823fb2499fd42140dc812e64c,
  0x6f3b91efe0fbcb6f8a957aa01592ee994f6112122f523fed0b0942caeb932261,
  0x1adad587501d0f4e01f2540b572fbcc109d2024685e6edf2c4999ba53f1419e9,
  0x3a0b7aef9afd4e940af407ae1f61aabb7d7e4d38c7a54590ec96378a987d636a,
  0x2c484c5a396e593119d45108324927c1ade1ba5d4e1d44f4d6d4cf40bc69c57,
  0x59a49c4409a75ccb5ba0e752acd6add5dca2425e1578c6f5a111fcdcc53c3e64,
  0x44d810353181a172599710e79a7c67a87923ded730206c417e7cd02f001ec598,
  0x6391dc8bdcd4034c915896c751a6783dfa5b13e01ed73d10b8c99e2590502d8a,
  0x3ee1a27c77ecf64ce4a7f5e53760358eaf345b9d7218c42e33e64ac0c18cab8a,
  0x25a0c6b7f866bfc704011caee8269f0238058814d5c160ff4728518d1e479eec]

def cB235 : List Nat := [
  0x6529cd8543de0e9ee388a7e2c19384141dab8fbd555c0333b588f6e7ad663651,
  0x344fc9e0a00d96244e25a16d9e00ab5badeee4973d642b341f83c2c2fba584b2,
  0x64e6fb0590e40d4980f8cf19f1e8687292759f4aa455ce9acb05b730b9e2cd75,
  0x557803e85fc6228188fd67bf7b6c1946a5b0c084affd894629af82f15535107d,
  0x3ce60eeddd500a136ff5bce2f906ece06ef92ee2e577dd70e7ed0f39c29d099a,
  0xe2bfcc884da1d40b7339683da5dad13729a0b7f93f55def3574f17fdbde48db,
  0x3cf29d4e6ac12dd40a27514042ff1a157172a6529cda729106c0693b921a4cb9,
  0x3a5d1d095619e3a5b51e778be24702b67fef4f135801ac1db12047da30073146,
  0x64de77ebaaa06535887a91505a6ff7e0a9cb4a48d409dc8ff55489b9f4e513bb,
  0x32890795be7577eef111f604f6a5996f9410064f881025ddb5db53c962cd7bcc,
  0x28f9b33c74150f8cc92f6cd11bf55f00eb0304d8f863bf0065a5a169b05c9631,
  0x6a711c65b814c70737f0814d8f8c532862cdcdcf26b7dee29e59802c66dd1808,
  0x56de65be82191679000a13ffa6be695bc28773d571213ef82ac1b6334d1e5e80,
  0x4e5e63e5bab1ca8fc75677ae28b94486cc5d26684dfbdb08a97bf6656e23adfd,
  0x455aec15dd6fce435ac28ff777ed7c5e29fda346b4cb9e65257eb7e0644540af,
  0x26698c31fdcc8159986e14cea974a12cdb58e72e350274a371cecc98443a53bb]

def cB236 : List Nat := [
  0x4fa64df84f114bc1ad42b857b6d254d54902df0c91fa277a0ff8c54a833a958a,
  0x26af7d1d4294acc432cce09f94fe23e416bd86dc3ce96600f49ac65b61fb8d40,
  0x67dd50276066e551d6134ce56bf3cfb430ba7dcb0fdaf70f058ddb30bcf29d80,
  0x432e68a88ca7886eed9ce7d07203616f8980fedf274cb67a3d48025a0ee23481,
  0x3dfa54eeffaefbb9a09d22f7cad9a9dc23c153864621df829fa0dedb5323bac8,
  0x495bcc44ab2c33acb9b99a5c73d4a826c4dc5c44930fd8513d56b61e0cc3d263,
  0x15c49b7e6e95eeb5c546e8bac42a4ecb297dd83f8a43b236cfc8fe9432843b0d,
  0x3ca3f46024c8afa007835eaacfaf24c7684dd7d333151367f9bcc4e42a4de54c,
  0x10c390bf6d0a7a7a8bec0e6f2c86cd25019ef96745d409bcd4b5369adf80bfe2,
  0x4561f9a8b02ab32863961af1a6881ae74d6995899a064545a93f4293d7524e29,
  0x2686ea754ddeeba57fbd144ecfe38210632a165443f38ec7e8958cd2ab3fa31,
  0x7202174372023cba384e77aeda97c4551e3210e4b7b3d80a401b4cc398fdaf67,
  0x720dba155248691074142ff1ff486af26c22fb9aa8780a659e618e9c499fcd44,
  0x6fb10d07d0d21c530f3225ca08052f8e5d3503520b81da865ffc66d9de76ff2d,
  0x13c42cefc4cfc533326060a0886f5d13dc799925c0cd73ff2187b71d5207218,
  0x64f303250d34b90056bf92b15ea8ee0e39d4d6d01922b877921ebbecca9bb993]

def cB237 : List Nat := [
  0x49b1883a1bb82e315a62ee204660c56642559f6597058afc28770f572543dff9,
  0x13c3d61ad4d9c9b5a9828ff1d3236cc19cc8479911f533ff02b061ee1d23e58e,
  0x3fa0f7a0b58bab3429398c4d0692bfcf1c9b382e8b2f275417b64411e20a8152,
  0x59ef9c6a0c304e082e8bd0c84a5421ebdd736bbf2580205690f8e01ba1b46346,
  0x36c32967e443d1601b3864d41aa8c852ecde3af035b33f967d5b218fce506e65,
  0x72dfb1f9e5101f7adecaf7605c874b0381fb033c0ebb5b7370877d05e3e7698b,
  0x41195231f4654c89aa004b7bb156c1a79fc6a1961a8a6715abdcce279dcc85e9,
  0xc45e2956d4f5146624ab719df18ac575de3f6dd967312fe573f94b13e5a920d,
  0x55ccc41f904be08f05a14922e988b68355533bfedde7db67f5927694f3d26669,
  0x6222afd0884a0607a28f7d437661977f9b95958afcef800edcb02f80f6aec7e5,
  0x2846f4593c46c8da3aaa802e21d912d07ad8337623da06665e6ce528e920be3c,
  0x416cd51768d461bbce2a087da63bb4795571fe2980589e195a0b8f9a9da2aa9f,
  0x3375f2c06f1ef6d4e496e7628ebd2800ad2807a07828ebd4c4a8552f76a8a7fb,
  0x2c0d8c0c0769136d69c0816d6a5dbe15105f196b7a403b6a30de8151e8baaf1c,
  0x70dde678dd22106df1be0ac44592098c1698baacf48d5f964c518c13e3cfcb1e,
  0x72a386797dcd2e34deb8c9f5474b34d965c016266a68274d1df522457ea9c2bd]

def cB238 : List Nat := [
  0xf7321e67f5c947f59140fef5edc029e223aa496b9d34e8a7afb999ac53077f2,
  0x24c9be99dc4102f9a95efe29ddd4135f1ae0daed533dbb9e0ec6bd5ea522e113,
  0x23d6bd2c3afc22466db95f3022f75e5f9fa9dbe34d4d728cdd50523992722df8,
  0x5c5046ae77d72456a062044eb3c82c54eb904c3d32b14e410b898568ea3ddbf1,
  0x4817656de242ad2e6a18a98e8d06f4bf7769e47830c94f49dfc6c9c8205faaf8,
  0x38165b9b4046eeed5aa9385e48ef08761c42fc55d26f75a57bec9bfe8b4dc2f1,
  0x4368e52045f0d8d4cc97fdc9ba334825dccc95488b182693f7c49a9ac04f8352,
  0x1d85eb5ca3dc485740ed4a6e1246edd65ce061626af6c21282aa11ad0777a68d,
  0x360b738c5746b1411a70de7c6dcd72960fe1f0eee88936c662b41bbfaf339a8e,
  0x2238ca3243bc46b8053fcfddea05eb0b20bcadb315605352f6b669d22abd12a,
  0x133b17a5416b4879d7babc14a98c51c6f3b33cf892fa3623a7ff1949ff2c38ad,
  0x10fc52d802468c55854e1348cb8befb7b2fcaf13ed27774ab2d4be08c507f22f,
  0x5cc084dc6621fba12f138425f44793d60a49b45d3935abf0a5c046c4e85201ad,
  0x3a38cdc0c226f67ba233fa6f1ff370aa3334d58ffbed602e298d740f1efec31f,
  0x27acaf5bb69bda13b1de27ad86452b2a95562e0aac3ca18ca246da8d5345c001,
  0x3a1c036dead3498641828ff7042b4ca769c1f97a0169e64141da60329521f954]

def cB239 : List Nat := [
  0x3e950149aaeefad5995f1d6f91d34552175624d8a9c9ebbe77acc3764944e246,
  0x32bae3dffe62ec78ce4747b79598f3902a6077998ccb67d926450aab5a1235ef,
  0x608e14b56f304dfc7ac3a0a2fd4078fb6e256502661acfc44b8919c2ad0b1632,
  0x332475ddd420e46c0b62f17fbbf665c273b57541f16b891e8318f72aede27c22,
  0x301b192943cfa0a1b99b4e6fadcddf1aabc7adf2ca7ff74488fde75d386f708e,
  0x36330ba71ff04cea04dd4688be82e8fb34353fa4d2b0101c6d34e66ad5b52d6a,
  0x2af238d578c023cce8a04a0a9ac84c76c78a0cd2ea70e67a5ce0a1ad7c282338,
  0x3cc0e4fe4d7ffd8f1539b498c80a13cb2e02d0f8a5920a06c58282e47e7dca0,
  0x2a40342463ef13130a58fd5669f1bd9fff98f37a36dd251a2c87e3a703b02a0,
  0xedb75e1c529c4378a9147ff40c8082f8ef08c4b153dc82914e50f8bbae9f070,
  0x6284b43a8b0aa644bb647273395ed1540ca2ae6d44c2b06722199b58de45b470,
  0x65a285ada47741fcdcaafd5946eff95d6c58f76125ade9a00527f31116798330,
  0x2f09fe3bd0cdefc463acf9202fa52bb8ce9bb3300248cd88e72f492b28007b95,
  0x3a722fd5e08aa0ea6b317422c339779a6f6b41bafcc4a17fbdf40b37065f9b01,
  0x4b51a35639c21baa28072ec5b693d6646da0e98c1a15e05de21b5f7607f46815,
  0x525a6a731fbbaed8725d9ebef1e67619a4e5331dc4b5360ca567ee4b22cf2155]

def cB240 : List Nat := [
  0x2acb16c22573ddd9f1ee3c5219d7664117db72eb658344820b244180a423d909,
  0x5c0bca1066c7f86e545a28ba0386aca984bb8d591ed324150c633abc161f6854,
  0x4064561f1d1d104048eea4c86dac5640c39a6a03ead1f787480c7694169b044c,
  0x482087e6f3e3689bf9667c92bcd3bd44b1e8b9f590597d4326f3eb06c9b744a1,
  0x4d9699856c7404475068faf85c434548f13bb2e0d802c0a155cf6bbdd493fab4,
  0x1ac381ce1c678befd6b8d52aed137dfbfb5d34ba64a9abb3283190f1ff0971ae,
  0x38aee028dcbda08564c7812ed0c365904917ee9600800ce61232d318dd317c24,
  0x3247fab0de43a5399465b569f0fbd6cef82c3159a41d205b59c93a5478c2e340,
  0x6c2b0beebb0e0852623c646211b4e554bdb284d0948a19698b7b28627b258430,
  0x4954eadb5045d3aa9ca83d86d9e87def157e4b168ef893a0bdf0a8b832a6685a,
  0x7064c56d40399d568a37529c995c5d2302101f85c7ced9c0cb112ec78de61d43,
  0x2fee21bcfac31391ea09fbaad8825fa4b380fc4227afc72e2a4289eae5ef2165,
  0x60010ebc97f4776d6a68d65b5cbd7bc491965bc1368ae03ec97456388e4df5e8,
  0x4ed4cd4d083f4b888c0d2e81ab7507618c4902e9685e00f88eef54edd8ccc48f,
  0xe4558fd87710d2b3bcb5245176f3a00ea640113e95564650c230775d00eb035,
  0x4d66f35d8b69799710468dc595dab9af651ce63e261e8c5ba9eea5b730fb9548]

def cB241 : List Nat := [
  0x6299b7fee1b4c48d84aefd3f7992cb95f2eb62c855884c8bf42c7bbef43fd4a1,
  0x6c82a7ec195441ed0b259d61141f49dd6403582f40cce7f25edc68477f94c66d,
  0x2ba923a5ab2ae7b1578e63b638baf7a4bd945faca9f9eabb1aa95fca2ceae82d,
  0xfc05a52537dad509a31b431bdfd9431a615c9d6895f3bffcc31616d3efdbe07,
  0x13e17cb6efbb7193c17965ce1824642682f926eb936a3b88d29cec270cac097f,
  0x3f5392d62be220a0ab83e497bf0fab072aa0bd383719e20de27db1b25038caa3,
  0x2cfec5741af43c46d582c7e903000c867612f184e437a346980a1a29f06d5d45,
  0xaef0706bc6f3b9593ff9cf6d25999bcdb96ac653f92735b7f069d703d86e5f,
  0x13979e71bb58f9638a5ed1f39dab410179b4026099936d6a4da2f85f2eb3fa0a,
  0x21c4f1ea135801a3514f0103a97fb952a95be8315a5d9e51e644b1890d26ed1a,
  0x7016b1bfa68293fae98a9dc36d20553d3cbc06f356d860f537a054c7f9ab3b6a,
  0x606e6e96f44cb05d43d7dbdf57e965d9cd9c583c25c5a4cd181a99bcbb8cfa99,
  0x6a579bb0c1dbcb251855ee8301826b6af74cbcfcf162c9e21e785dd7548b39d1,
  0x30a92eb3a41cde48335053a51faca6202fe8ab7e344dc1e0b723e11355f54c67,
  0x333d4a034c2aafd63be8effe18469450684dc3d3b4f09ad440b190eda427f51d,
  0x3f1440027707109334aa154210508e17056510e220ef40ac3a70a26bc38975c4]

def cB242 : List Nat := [
  0x730c9b51e60e550362b35b6e01014a51b3894aee7e468c5943411aad7c50f778,
  0x8a773a61c2898bf0e444b1f9c3c93bb30852acb00d7765e02df43d5fe7cc7d4,
  0xeda39f6bc4594e07b07e85f036df9af4dc6096a6c5837c9595d8e6f8416f668,
  0x1070c1634335ba9a1d44b75fb50728943de4bfc7e15d557f6efafc6bbf77dfc,
  0x71c83618a7c6495d5d91d62c6c9d7797e6dec3a09b1b712c53896066cf5aa285,
  0x41d3060634f59b4195e0c76c5f3259a4cbdc27331a262af08cdc0e2b6b24253f,
  0x23fb5a8188f1646813a55f9e8f949fddb072456b4a7dd2a9d6310b6ebae1b578,
  0x6f4a517ab32e7a15aea9ebea6e5cd27d1d41b8fe8e41c5daffcecd7f4ee8a186,
  0x705aa24d80fca812c7ab25a5dce761974eb6756906d0692b30b9de300011a5d0,
  0x69ba2bf7b444ef9c62c918d1236e50a0f341798f35e8fc55bd3ab29463ab56a3,
  0x5ec50ad3d8f93c5f360c62e33a01f6f6f671baf3df5d70706abe9b8597b39e71,
  0x8f3acc9ccd2b0558f4ef23763c2f22971d10d4d3f20b84e7a054615cbeae1ad,
  0x1b1dfec0db8ad25cae22f78f00dcb8462adb2a03624819c1d424419cad9a80a,
  0x43e6740a3d1c9a3ee43afed364a083714f63eb15145a3609761046d964ed300a,
  0x7d8d600a9342608b658540b80225e777dc229f49280d06d21cef8c0c77d7c42,
  0x4e6782907e325a459f12a627c864995d8598fe43c5592a9dd2cf0145547b2129]

def cB243 : List Nat := [
  0x66a069ddff5869c5f742598f722404c3293e44e1f6b7cba187c89e5581e76359,
  0x343d813e11c0c5545a7a6188eb83d29b571ae064f115bf067ae5900cd563e61c,
  0x5d18bc74623c28d0f7f85b28c1dee264a081ea087c1296f3b7332aed9aa3f437,
  0x2528694033218fd4bdf3cc7dfbe6214be660834ac316cbe52dd8cb38164f8c47,
  0x6aee6e1a110c707709d8bc456a394a61cd7344588baf9e7ffb2178ec9521dd8,
  0x479dce304a3fe1ec8e7abf2618d1bba99397bf8b670eeeea22be8d0cf59a168d,
  0x25116d107c36a5ca9303bb301d1d84576f8eadf15250a2bccd26d2f4fac4c95b,
  0x32f775e0134ecdcc273df0eed583cc5402db15cb5729a06f45669237d0ace24c,
  0x335883ca7eadb146b2f82ff45f7308b1eed35616b376d90bfcb8f57989ac106,
  0x5f7dd44b1e44ef03cd03706de11f0b553eb50c5faad2c17c427a1f51b3d3a04d,
  0x52bec20b39f73f2b164ad9a456c3476aa6ec37a58ab525bff7c29ce59a1c55e9,
  0x3d48834382265d6f086c3d3fa8809585abbe62d8c57ecdab2a620232958a4696,
  0x4261ddbe594af288b0d3008e0899acf49352e42f0e3f44e4356b39297b6ec049,
  0x60fa2a748a8b7ec8a99b346de455248f2510904cf463f9f5056707cd6ed67ac7,
  0x495b5f281dd0ac2e325bb69ad3b484ba12d08f76776c0ef0a66bc933ed406619,
  0x1134a3a99f1a79d00053f0c871979ac277133418a3ddca5bc875c9ab80571647]

def cB244 : List Nat := [
  0x56d4324c2e8e59f8bcd47587aff75d8232eba26f97f6218db08abcd26357db60,
  0xfecbd3f2c627a3fbb3f65e75e54dba5dbe36760e510a45ce3f13b113c682c5f,
  0x4d5d7cfad6d765af1fcf3a5c2137a405bb666ab6a9ef616da7a36669a9520dc9,
  0x26038bf26a112403da4779a9a8b321f8e6fd33e6d31b7bf8076f2de4376a6c9d,
  0x5a5168f5bf75d9e5a9e7dd8f6b69fcf302827b282503f7b4fc10b4976646440b,
  0x244090a5c494f16cc4b008a1f6ac3d4a533ce6a33f629de804d8adf2ba69b74c,
  0x49da00b3bc04da089bb26df19d92f9195c578cf449b907045841fdca97b43dbd,
  0x3a07cf99d1e619597cb0d1740cda550baa6bbfbd4ec3134abd79ec98609b0c33,
  0x126e125e7448df91e3b2de36f89c2b74bfbee08d57892ea6347243405134975,
  0x68437dda40ca635a62a5082d75f28b1e2073d67b4a84e97156d7d4022e459fb8,
  0x6b0261744e862a6f8a75d64c1ea808db1cf5f36de037fe5efbaf8affedc25178,
  0x56bd84465bb5260a48a3e3278c3e4e5d964ae2a5957d6d80de04197959677067,
  0x4c2d3b829998cee41ee9884c7011e1234b0aae546918d9aeb779ef9de9903104,
  0x132838fc79f42910c37d99231447f9f67e1599b26443f0e50de205f0fd47a38e,
  0xb65fc998b7504050bbc8e3dc4e512f1e4e45cbb672d7a5c30bc9ead16f25304,
  0x37c9e550f7dbfb9dd89636f24f0587b2a346301e4402733f72c975bcc05dcca2]

def cB245 : List Nat := [
  0x4f4c373b14ff2e755fbdd4269cff061899d4eeb8351aa9d3605c2d59548122a2,
  0x3cd9934fbe954bc6289aad4ad29bb7aef8d653b92b03f4d7e5394b9f7a4fa916,
  0x18975304441d71f7006519e8c96bbd5bde975a2026af090f31ca4bbe25ad8755,
  0x3f3e5cf38f077e11539d8b6a7aaa817e4276608a95a427f4acccf67e7e9173e6,
  0x6b8536c3bf4875800084de3168e53d281c2de9d4e96effb715562ea3760478ac,
  0x54b76140303c8d5619d71d0194d60f1d1f8337fce284de26d3d6e1947e91124d,
  0x17eb2c33813ec488e2608c370e04c88576653f6c8cee4ee5b1f83590824eda6c,
  0x6d3ca8f2583650fee639682870562ed429f7a88e57fd4a527e2cf0f35573ba88,
  0x6f6159658dd648787bdbb3d2be6ce64aa2d961426ba597f55eb2c8b6421824c1,
  0x61d49d864ce8d5d70dca55a749bd077241632e4ef6110256661c4f941141fafc,
  0x604a0999648fe3eadfcf473973a73a5c57a27b31abd5f31d11b1b58d6e660545,
  0x4885103804382fa1d1961b94f94d763b0a86c25e0f28d089bf924e328babb3f5,
  0x4866b2f4de8f3dd191f9497687246017c4707617b6456800500710758d5bb110,
  0x6f57ee8a5f5ff2c1a614c54cb66b8daa48c49448e59388a158cb5f3421b8adf1,
  0x65c8a3c71066b7419db393018c76c8217540da937c261a8940b08e2c2cb2e5cc,
  0xe8c6dc4e79cee90b6a7c64b66996670153b109097adf996f7647ec5d5799a14]

def cB246 : List Nat := [
  0x2954ed103234693ef11f3a6b8bbfd04540d8a5d4bb978ac5d7066c52c6aa8447,
  0x2d5018de1e9261e9c9182cf5b9a91efdffaf722eab0046aee2462a5acf12cb75,
  0x60f954484c79fbc98900c49c15436061e573c0d5afdfc33ce043d4085752c440,
  0x3cd4ed9b167d4c397abb7b45a5f19d6d806634b61618728947072c0822581ad7,
  0x5af8595b149c18aaba45bed185f26062f3d2d39d5362e620a15f72f3b994ec9b,
  0x4976fbec2643c01904ea3e42b1d8fe4382fedeba44cb7c1bcb824bf75da4b9c6,
  0xa5eaf10f2a9f41229024348ef1fad7b7d31ab80e915051fa6a062530118d839,
  0x191b9cb756ee7a9cf39a41377781f224889c7dbc3bbff8220e856cf7d3215416,
  0x37eeaf8c3dfce9902234f90696032c909462147908bd8db22b233c293c38a8f0,
  0x699a9254b02a0a92f48040d7871a604b198b8a0f5d72e7b5c98fe3599803db73,
  0x64465bd7199c123d9df898f7ce177a3fdad77d5634fcf672388bc6a7075a30a5,
  0x3001496bc93acda4726f862197e3d3350407b7abac2dcbd9472ab7cf28525d01,
  0x3582e9960a1bce6574f5cac0ff1df5a9c3774d1585fa91ca8fda263ec4da55d4,
  0x4a77e98a271d7edaf14c282bc86ab565adb13ab92608eb65e7e72f3eb8574b8a,
  0x612d2fa87cd24b133dfea4a64bb20e9581397833fdcaad90a14fb9e3e5fbbe99,
  0x1249cc8da76b5efca01d907e1d10bec7ee3cbcaed6cbf9b4921a849ec384313f]

def cB247 : List Nat := [
  0x68f9e2e85d9600ef961dd463e5d007c39ffcdab4a2b604f536bc5a8656d87f2c,
  0x157d947f53d644697993ed61e0c3e7e1c64d2ea44e3530348cfd20576dfb3ea9,
  0x697bb317ba0618c49ef5f438bfde5e93356b4c41fecc779d87149d9054da4004,
  0x634562985dbc33990999acce808a43235b30c2af07299d1a85243511aa76715d,
  0x5ce2d235ef2fbeb5a3baa9d3f0c0fc5272735dee6671bcc1b4ed18c4c1e8b933,
  0x303b146f46a91c8c2620c1dddcb529cf0e44b9d89b9cd961de6ba78d4d87dc19,
  0x3efe161638c8fad635dce2d621956b3a3afa5a6632904c93f13499420fbe635,
  0x49009453d4ddc5e8465bad15b3613e0a471001b94051df328f6cb59da1d3b31d,
  0xf607eb7de0e938894ab173e200c822834705b7bfb55383959be4fd8374fd066,
  0x33a403cd022c44c4def9e39b1e89ca3098390f5b4574194a80596ca8779febb6,
  0x350fba3b23f6eba8c5a5cb2e792f9bb66174e99cb11aba4f94ebfef15dab09e6,
  0x2803efbc2c1abb17a5c14058e027f8c79227f6615d21df860327d8d2089688da,
  0x13560222ec03ede8dacb147a2288e0a19ef293e4f47df6fbcbd54b78330640f0,
  0x11401993e3d50a286ba57ca2de0974d103f32dff307d4ea9ada7ae2099ce0a70,
  0x3fc3febad3d320598a309a0a38b9f329159d110bf1e5bd59e68f40d7ded84d75,
  0x57874c6cb74a123ba0e40c714a36825f40a45206a1d32d3645d1c036776649ba]

def cB248 : List Nat := [
  0x28eefb157e62d6d820b17b4b62d4b4770970b9291550db2b3b68c033a2402396,
  0x5c06c6beb65fb51e16cf3b3c1a71a87f1cdaeaddf4cfd02061731b68fbca1868,
  0x3c6d35687d96995d7faeceeefe747e7e9b74bf07fc820736906f6eb0606e709a,
  0x2138edb15fd4ed873cdebe737e507edba811056f8822a891a0ec984c9984aa9b,
  0x185e38ba4197102ee481f8a911c036cec1860c2d0dad2127d42fe55aab17e3c5,
  0xb4743768ab566a785e467b9b1338da3cb69c7857233c916e2324a3ff3c668ae,
  0x1d844e0597d8e6eb51eac94983aa8c3dfc9effef1cafe0603409ced9877aa5bc,
  0x29e7437213cb33f14b3dd264c3e2815d47a624bb833efb59779f708528d0a23c,
  0x45f8cba110b9c019fbaead093c8532cf16cc945fdd89b3f6c16e3a0c298d33ef,
  0x2b16d8ded085ce98362862ca30877ecea75a3b884e482aee388c9e2226a81f1e,
  0x6b236cfa901ca05b693bd63203b30f2f3a31d84d3c4101cec7a89210bd765717,
  0x441e41d1e68f371bfbb3229349850370e18582838463ec0293abf37f8adfde20,
  0x73ab917a7716fadc68ecce8291986d04e86b003149c95a12ecefa293119eb50b,
  0x4d26b0a8125aac7ceb7e2ce0e04135de43794fc81a7da0311b11557427fd4919,
  0x6c78c16d05a6dd3b7ef46bf1fc69fa7409cfc6834eb049ea3e10470abb9ca02d,
  0x64815fd33169c8cb661e95a974bcfe3d30304f37a0dc77f6dca68e4d6ad53e22]

def cB249 : List Nat := [
  0x4203cfec82d4fc08cc5a2d314d8d08a2160b5504d7b437f8630957bca6486658,
  0x65429829d2eba96e750772c0fd6ba801135b248ecd5d78647aba05359760ac71,
  0x13c1dbdb91369d8016cb13e3820aa41f8f96e96afa4aa7a645a64281b203af32,
  0x71ae2a8ad763da207a5b3ffaeb1291446b6a937ae26df7388bf32db7da341d63,
  0x340644eac0d8b491de6f28dd19fc2ddcf66da95483ccc1266985e9cf72c61f34,
  0x4fdab5ebf1d9a7df255840e5960a2ff6f60e0ecb1bae1d90d8ec495c75a630f5,
  0x1968c1cd54e8d0c23b66de3856d939d4056b2e4892abb503b3092fc3ed05492f,
  0xc097a4347853a8832a2d5da9a4de162e909de0f64196cc5115a6de23fc90861,
  0x4b0f0a69828299eb05e3771d4df6b0c9655f313c614f105d3a609b5933d130f2,
  0x663390b52c6eaf25dc034707aaff719b54486da986cd059490f4cffc84523429,
  0x3387519c0b4dfcc1643bf5263c97f1507342e8ea87b49500a2f8f1eb9ee44c6e,
  0x10418210d23ebf8d8347cead9c7f25afb67706b2ea6c2e6f20f9ad7361db0599,
  0x5d7e423298ee3751070cb1bbac52118f082da29b5f8da35bfc4f2e434c5b3261,
  0x2716619529db04613b819e4030793796e6399a99b2c3faed77d51afcae4ae606,
  0x62408a73ddae45f002b2341b8461ef920ef5723756df023a154c6933f3ce67d5,
  0x1fa8bcd6a2e865274f9875b798723224fa9414f83fe505a6253fc13901bd21bf]

def cB250 : List Nat := [
  0x2c94c0ef1125505bf002e8ccca9e78c7eefdfb939792489d46895cd244c2c076,
  0x3d8107c833704dc116d622c6f86f9ccdbbce9b61e9f55f0810b98a0802905e5b,
  0xf00523899906734d8b50d92e50572da81a476824861a1b3837ef47545705855,
  0xc6c800ad1deb0b70925ea3744a6dd7f8bfe29204bbd24c50e8262c6a2240cae,
  0x64152e97477e30e2e22e460382053af93a4dc51edcc79f3e4d9f9a0f1e4cae5d,
  0xa07bd7bcab384c6a656cd649d0ee79ca004e1df7ae8154c2af4128709f7b138,
  0x60af82b4976fd4fe2c44b960ded16e133f41e12fe8819bc1fd8426e973438ec0,
  0x4ce7d1b03dbf68738a9583ed3060db2e63d60f74cf618976b9c5a04f9d13cbef,
  0x739fa105bfb27ba883b1e6013fcc880f7c9b98e7105cff7431648cc4ff94d296,
  0x26ee8ad8dcb12df51a0c9f61d348347f517935918bb59b126fbbded156accea4,
  0x2cc488248919b3244df6890d8348c91a9d840c38c93acab960bb13022f5d4f1a,
  0x6f79df71836bdbb4f14c96b1823802630091d27ea65fa97d987a6642c083b810,
  0x7018c4983f31d564760e399d2ca3c7b493df94120b73914b50c806f0daa3920,
  0x2be13ee6fd6c6fa4e1e9ce8d33b462f98863b317266bf3cb51b643cfc7945164,
  0x4a63ff457fe6b233da5a57fc30362ff24abf933e066261e75fcd1c7d29d11e50,
  0x1284260bd46e8e0608e5bdde3505e9fc373891df4306cb32f34c6ce4272f9f84]

def cB251 : List Nat := [
  0x2e551eabfc714cb0349bd468ba421ae55e3272a822e064e74c2d9ae27261cb3a,
  0x42feec5f49c58ee8b7bdd2ca9554f45a02d772f9fcf5ecef7458eb0e5f93e668,
  0x10e70bb384eaeebecbf4a676ce749b05f9c12ba866b182eddd51faaeb847268e,
  0x412a09b1014eb98603e590cb8b06a12d45e86300d70d1dff19d252cb02d28b1d,
  0x1234895bf151561c1108103bd7e2af360c5e3c39d8cbda4b0a0f9674bed0e70b,
  0x6495c8aefc29eedd531183b352a3ce0d727047354380fb827bd5d66470cd29ba,
  0x6a5ecf8b664ed280da4ca5ae8e4544965ac1f86bf80898509abeb1b2b218e0a1,
  0x5e0c9b51474bb654d356c8271f34ae32806a98749d8d0bd45a56cad36f81dfd3,
  0x19915e36fcd03eea8c13350d4590c77b3074e8f1f2b241afc1b43c7dbe659f8f,
  0x1f0e3c212606ee587d6c7dae62fa3c99100749d2a9c801da07053d07edd7faf1,
  0x5f861ac8786c82674551e06ab7b689ced50dc119ed306d51ef4c8e1b5d0edf62,
  0x3135313a01f1f988d5d9cfb5f2b4ff9fc7462e21edc0b543234fc590a6c2a994,
  0x452f4c6c92325d2a64e06cf25c03a70c958ef28183b92897cb84bf3512dbdd06,
  0x48f2a0e570a3985dddce5c37746cc8bf8b7e06406e605f650b0c8d77c6c07bb9,
  0x4ad841b1275aab9f3f088912542a82282cb2060e857dc51e2220d7166143a756,
  0x3a92d6fb645730f4cb8152cbf0cb836a00016894495949ee8ead4779ee6c987]

def cB252 : List Nat := [
  0x5e4cfab1da85e0a730b2b06e93bd374279c9ff471d4b171d100c283378b94a01,
  0x6e4dddd541e5d6b9694cbcc95506e7f037d106010b087910c96c6d1972cfb2cf,
  0x2fe66031adeee09267509a08c4d44ace477e8a08be5dbded699a736ee2c30e01,
  0x57c08425d0b2470b170021e05afde583e40483b051e8cc178a6aa6f5267fe9e,
  0xa29167d2d552b1d29d19041ef25822758797f080a5000a90ecbd6a92ed56b74,
  0x17212ee58dbde26a20bf731992e48d73a6e6c06b2960218ea9f8b6b0004b7b57,
  0x1fd35a90fbcf4fa5aa5c62e06a0730ef575c2560611eac996aace88bc56976e8,
  0x45286968ea782aea87f1bcb9c2c72799fe73ee424a53d4ad746963ecf7766672,
  0x543c0c6667705437d6d2d581b8747860d21f12fcef147ad31662fad14db45f73,
  0x25606e9500919f2c0873572acb4955afbd915ee161d21779519977112a65c4e3,
  0x54d3a24ab516f19ca535c5481aded8e5710f6ae970f8c79652eea2c04be7acef,
  0x2787ff755692fc8604e047aa66f6ad5c1d8fe940b21b8b384ee2fb8aa8f0913d,
  0x551130af1963d63d2809b2eee7302c5e5a71da9e784b6945de8065e9a9231260,
  0x55b658d6b9eba6be08173d37d01905d3f9cd5792318ea4e1a357cf3cce2863fe,
  0x2752e9320afc1d22fb9a3692f784bdc0ae05a6e4402a0780b448d6c9a75f3345,
  0x232a1ac10d8d9c8645e8f834cee84cf1db27504b9ee3f7a59ac441cb2a73fe0c]

def cB253 : List Nat := [
  0x30a9566f8fccf366c9af59c39016534c3dbbc8b9ed7b378f34c47b1db2717552,
  0x1668f45b95893c68cb47bac581f7319797ad5741682b4e3b6f484dbee2159e5,
  0x23fa451190b63e0492c4804d51c839b36e9e726bf8edf9e1e7e77d0975a9e808,
  0x5e1e0e2be5a65a6a9899f58689bed80628d5264badb15be3cae20a51a70e9440,
  0x2bf4c080f1a0b4fb0349f1e864cb2b11787428fc58fbebb0faa341a664718a0e,
  0x71db9826e98fcd0c687ff885d813172283daf47ebff890d42e3838cad075f772,
  0x59d180ae029aaa2b81de80d0aec4934d3a362a6adb3cdfe85474bcb414ba4916,
  0xc4140e69920088d1c7724645357f1cafa177d841974ca5ae28a713731c76d33,
  0x4697e4de42bfa111e6e637357ab19109974f168d91829c9a87cd241f8e3a06c,
  0x2c72be2f12aef24ebef5aa9e5714b7e551fb1ab05931c4885ed1fec4fd3180a8,
  0xc5c52b8a2e486d63eea00e702819f3a49b52039402587ee0248105c403691af,
  0x3f0f3b46c2ca49c66acd400c17b0adfcbf1feccaa03784f743ab6b5f753e07fb,
  0x656c4511c22b89ef4e7cec51042ff6d62b720677405411a639d3efecff9be229,
  0x20665a12728bcb1c7d526b05908240ef8b2e5f674fd677d5a0b725df383c13c8,
  0xd260370b8d4add528c9f3682d12c13a6f00fa220b5dc36b7702b8e53592818,
  0x6264e0ca434894ed86fc75264a1b364fead7ab5f5ce9bb86754117bc751ee764]

def cB254 : List Nat := [
  0x66b2001d4466e77f883a65100b547a3b0b5a878f509675f3f6a8d42b8720faf6,
  0x73267dfc677034a8cb7b49f7b3c2dffc256aedd5efc1623313fb740734905c66,
  0x6a8680bd3d52494282766a03aff31736d9118c5a0f759f9d0d44bed99cc6627a,
  0x407cd965ecfb7629440bd7ea698fb11b28d5618f01602379c62c79cf08988605,
  0x3ff23cf23604a81b8e93d34a780c5dba606d1a7a1f1c46ccd98e9d5818bad725,
  0x60b1bc9b608fb1999eb069f7f69b6d36fc5061889619a9181e548c180e3f7293,
  0x123aff976787fde0e4c7940fb4dc9d109938e52527cb3faa65ebb913088055d1,
  0x676d46d1dc58f27e2d22faff4df9fa2d62510125236ff8a16a7c95cb3c434818,
  0x1d04075431830dede34e88563fd7a40295b3d77bcb79ae577f9519b204902bdd,
  0x5ff203de7f15a7c082b0535d13384b4639833b4530cafcdacfe3eb9e360e45d3,
  0x4d0a4726b74f6a44e8de279b3a7816a46900c29b96d437857bc7dcef318f06da,
  0x147abdc5ac89e2080c80e3c025640b69e3572557edddfd632acd7084985875e1,
  0x284e11743ae24421f0ddf873bf181278eb06c0e528b168c106b2f930f8392c21,
  0x52261afd0ffd6028ded1d5a09230b5e1fa76b56d639f32cfc959958d0b7917e2,
  0x141c773374c2d10336982b5d3caa5bd70af985544f858e51a4f33673c9eb4193,
  0x476f096dab33bab5c68ac462461a8a9b1b4517e3bef05d891bb2ea76c4240ea9]

def cB255 : List Nat := [
  0x5a1c61d23a841e139178f4dbdd361d02a0a8f9c63cd4748a3f67a9a85fda955,
  0x1d0f5e627edc8a2b0a0f9e258b12733e8df9c6188d3db86985819a6d1314a513,
  0x36fc1e9751df1f06dced6cb660a220939fceb001ddc95554361fea8a6fbfda23,
  0x1296928e7ecd9105db660f380804fd41d70d7f35df54988a0ad212a5eecf4f6b,
  0x6294584b2deff7486a31da4f74a13c8d41ff74cab77256ed902f3cc997733b08,
  0x10fdd58b4e6d0d8519b8c4a135b2ffefa76abb535540113748f4554b8e297dba,
  0x2b2d15d933ad5e2d76406b1436cff4a0b8704a1d63338bc454e28590c3915222,
  0x25b719828dd0ce8921ec35bc480b8d80f27a6c4ff77392576d9b6fedf5349b01,
  0x71d84d6a4852e6348ade146ce654d6b7cae4d1f47b185c1b19511e59dd7cf425,
  0x602e65c20af337e91e7d00fb9cfd2ed2407ee2c2d7c9afd11398fdf7f7ae7960,
  0x471ebbf0b1733edb8e304c7a4ebbf8484b77b04e1a7d20d2d88b5a6b027439a9,
  0x2d5c3c2640864dcac14dc1e127e9894aef455d416fcec604d9ebd41bd0bdeddd,
  0x51119663477c35c34bbfe748ac389c8d664451f1ce1afa8232d8f1abd07c23a5,
  0x10b4af9e6b796c29228e9952003ef18ecdd55d81cefb1e9833c64cdcc087955c,
  0x5131ae0f70473242f966db3afc80fbd5ae22caed12782478b635a0d8aa0aa68f,
  0x6e3bc72b67d6f814d5158fc8f7547907ec45e5dafce345b08c5b8baa5f7f8032]

/-- the coefficients, in parts -/
def coeffsB : List (List Nat) := [
  cB0, cB1, cB2, cB3, cB4, cB5, cB6, cB7,
  cB8, cB9, cB10, cB11, cB12, cB13, cB14, cB15,
  cB16, cB17, cB18, cB19, cB20, cB21, cB22, cB23,
  cB24, cB25, cB26, cB27, cB28, cB29, cB30, cB31,
  cB32, cB33, cB34, cB35, cB36, cB37, cB38, cB39,
  cB40, cB41, cB42, cB43, cB44, cB45, cB46, cB47,
  cB48, cB49, cB50, cB51, cB52, cB53, cB54, cB55,
  cB56, cB57, cB58, cB59, cB60, cB61, cB62, cB63,
  cB64, cB65, cB66, cB67, cB68, cB69, cB70, cB71,
  cB72, cB73, cB74, cB75, cB76, cB77, cB78, cB79,
  cB80, cB81, cB82, cB83, cB84, cB85, cB86, cB87,
  cB88, cB89, cB90, cB91, cB92, cB93, cB94, cB95,
  cB96, cB97, cB98, cB99, cB100, cB101, cB102, cB103,
  cB104, cB105, cB106, cB107, cB108, cB109, cB110, cB111,
  cB112, cB113, cB114, cB115, cB116, cB117, cB118, cB119,
  cB120, cB121, cB122, cB123, cB124, cB125, cB126, cB127,
  cB128, cB129, cB130, cB131, cB132, cB133, cB134, cB135,
  cB136, cB137, cB138, cB139, cB140, cB141, cB142, cB143,
  cB144, cB145, cB146, cB147, cB148, cB149, cB150, cB151,
  cB152, cB153, cB154, cB155, cB156, cB157, cB158, cB159,
  cB160, cB161, cB162, cB163, cB164, cB165, cB166, cB167,
  cB168, cB169, cB170, cB171, cB172, cB173, cB174, cB175,
  cB176, cB177, cB178, cB179, cB180, cB181, cB182, cB183,
  cB184, cB185, cB186, cB187, cB188, cB189, cB190, cB191,
  cB192, cB193, cB194, cB195, cB196, cB197, cB198, cB199,
  cB200, cB201, cB202, cB203, cB204, cB205, cB206, cB207,
  cB208, cB209, cB210, cB211, cB212, cB213, cB214, cB215,
  cB216, cB217, cB218, cB219, cB220, cB221, cB222, cB223,
  cB224, cB225, cB226, cB227, cB228, cB229, cB230, cB231,
  cB232, cB233, cB234, cB235, cB236, cB237, cB238, cB239,
  cB240, cB241, cB242, cB243, cB244, cB245, cB246, cB247,
  cB248, cB249, cB250, cB251, cB252, cB253, cB254, cB255]

theorem lengthB : coeffsB.length = 256 := by decide +kernel

theorem partsB : ∀ c ∈ coeffsB, c.length = 16 := by decide +kernel

theorem shapeB : coeffsB.map List.length = Embedded.g1Parts.map List.length := by decide +kernel

theorem smallB : ∀ c ∈ coeffsB.flatten, c < 2 ^ 256 := by decide +kernel

theorem evalFirstB : Packed.evalCells 6 [false] (Packed.packs Packed.width 16 coeffsB) (TestVectors.cellsB.take 64) = true := by
  decide +kernel

theorem evalLastB : Packed.evalCells 6 [true] (Packed.packs Packed.width 16 coeffsB) (TestVectors.cellsB.drop 64) = true := by
  decide +kernel

end Verif.Vectors
