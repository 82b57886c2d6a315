import Verif.Lemmas.VectorCheck
import Verif.Model.TestVectorsData

set_option linter.unusedSectionVars false
set_option Elab.async false
set_option maxRecDepth 100000
set_option exponentiation.threshold 100000000

/-! Coefficients of the polynomial of the blob in test_vectors/blob_to_kzg_commitment/kzg-mainnet/
blob_to_kzg_commitment_case_valid_blob_fb324bc819407148: its values are the cells in compute_cells_and_kzg_proofs/kzg-mainnet/
compute_cells_and_kzg_proofs_case_valid_4aedd1a2a3933c3e -/
namespace Verif.Vectors
open Msm

def cD0 : List Nat := [
  0x50625ad853cc21ba40594f79591e5d35c445ecf9453014da6524c0cf6367c359,
  0x62a1723d19900e3db1ce3b22ac684c4b96d172952303c602ac4f976b20c565ef,
  0x22b397896c1465f0e72de43b9128630a2468e34fad2111191d97c9f702590a74,
  0x1fc7b1432ef810bc6a98303a91910f0869d3c90b2c706a7af3a42018ec7c1565,
  0x48e9838ceeb1f9e43f3d1e4a0ef67ecd9ced2d87fae33fe0ce3573c76b61b832,
  0x4bba98c3d1483296779a0614a407571ad0e57d79b6f3bc82da85a724d73ff9c2,
  0x45b82753f6c7e475900bcb69fe1b40cc895c3ffc9f648974f2626e3107df5ae3,
  0x5be8a743bf83f732b00928177f8b3dcd631c708b80a3ed8d52f8bd64acf9d0db,
  0x4df84a7c171c0e49904e5c3078e6f2b7e0ff11da36dc9c08d45377c83aa157d8,
  0x4683fccf72f96a0f0f4a99cbef8c4f56bb5a854f3bdac289b7a2de9ae5418ae1,
  0x4f91294eaa5ac621ec4c9aec54f1c03d6566ce675aebeebb89c49b82724db96e,
  0x702a58b33d08ae6f1ddc76c74e449e38f7631d354d555834fa13984153747c8c,
  0xf9b0fcde438582c00b7666ce4d01bf479777696ae778f249f076b34766e42ed,
  0x4eb5a9b72776e628160fadecdef14ad982361980bd083eff8462b7f6a8164b5f,
  0x5e3842a9d72d2b847ecaa581eb4f499635bab8e17a0abbfa9f312db5f92be349,
  0x3773d019d922f4242a05b55501f0071c273252410743ff5629b5fa53534216b1]

def cD1 : List Nat := [
  0x494b2fcd66808ad768d1ff3140c2472922e702861ded781aa476c1f122b96993,
  0x1b5048b8f0cac6e17deb725fd4cb8c069a67bbb9fe3bee84c9d496ce0554372a,
  0x61241d887200c21e2ddd68c465f2f7979137b12879c05b3eec79da4c8232470c,
  0xd1ea4196fde9eac6a90cf6ad99a69993cd221a649b4a3ad6176d7575102369b,
  0x5c9cb4006fe4c86d033d8786b2b0cf003b732c55eb5f974e136e0721526c5d62,
  0xe9f1d50a1cb770509fa1fe3ccd253b5c218ebbee3a6f8490a3a0f87225160f3,
  0x4e58a88e43acc2b102b44d0a0051578cda4c2fb871539d171be8c9a827d8052a,
  0x13350cbaff0090e918f88abf7a7cf0f8a520080a228b8cbaabc0ba5be30f351e,
  0x1548a003e6ff9c75ff3a18607ffab802b50ca8193775ca1c37479ff50f2517eb,
  0x5e5fb4b6cbf8767c5d1c91f1ab582bed02e68897e064f2d8aa49de6637bf6ab3,
  0x42c2b42ec1d9115fb171fad5fe9d4f4a924aba2ded006d8f905cc63e2874585e,
  0x30d416ec73a2a8762ec50add44eb18988db86a74a4fcfd98a224dc08bc185575,
  0x4e79f6e6bafa935fa644a74ec35545d4b2672141624984da792985086e4ddb16,
  0x49bc44f86d7744dcfc78c702bbf6363d2d99a87ecc125876b34b7d0cfed963ea,
  0x4df1779a50bf444c8a501e62f4fb8452757dc1b6e630b2101b24cd9fc6985f35,
  0x4d0d05fd292ff141f46d1cf6df4e369935a377b70c7e87435f1172b65b2fac17]

def cD2 : List Nat := [
  0x55d5e54adae8bf24924c68946412cef71bb309d3f5344753a47a56aff9f419f3,
  0x4784fa6448dd2e34a511d285f3a98d181499c427975c024c6d9d68623a49038e,
  0x48c8dbbf56f86c35f8f5ef22e461f4490a3c0a9ef67a8c7587d41489bf13be4f,
  0x23d1c1ad39972da07f3824ec6d9150a0572909c3cd15bb3e204a36e66a03e434,
  0x4dee9802521cc70e8bd62cc1bf0fe36d3132f1773906452283ba83bde13a0c41,
  0x12dbdf15f69133ff45ae8099468548b8a36bc58dad249df109793121b64dcc23,
  0x1e60309cdabecd15176a98958417152daf55a3812ac4ab437150c1f26f6a7841,
  0x4243e9483442078178ea3c358d24a38f1c97fefb924ca72a474e4f04200953c3,
  0x69adf429afbaf7cff46f660394745b3f40b22d5775ea43a3511b889950dd357,
  0x2f785bdfb9b092ce5d7191ef4279802c232b97de9a934010453f8b15f5034b4b,
  0x49683dda301ea2f8352ce9d5fd2d18cf329bd82991176573ce45512d0b0c0c45,
  0xad24be788719bc0be18368e09d6743d5c7a0bac0463cfe5a14ebe1935f4abc1,
  0x13c1b15160da2d75942246aaa1faac62d59f426c89767ba9c82e04a3329424a5,
  0x30d246ed5d86749e5f5854e3981a9362a4730a5d4711f645ef1f2953617e68d7,
  0x2e9c007b45cd0a607a1fa53c8eb7c9b41fd5afca9896e78a59bb4c8d96d33e41,
  0x2d23234446dd219e4d5cd274847b61148ba7e033c2e4f8cc90685f325ddd17f5]

def cD3 : List Nat := [
  0x3447353ecd04bc9deeca1ed1608dee15359f1f276ee1051208fb58b3de08c7a9,
  0x47f897295297b831c043660a67c9e7c62e69f42a5151fffcba4df9b17adce5e2,
  0x5368db9b9d750f1d93c993f57562d4d97a05a35e4cb3bf1066148826dfab53d4,
  0x5f9c917e9ddadbb47965b529e7d2fe0ed0984f2396c786b78cf24f6eb4d35c4c,
  0x2450f76e3a9684c1d3bf1eba70bfb99b5529600270d1141a709d2f2b00c92d92,
  0x13858ed5396426bba20dd33518d844828ec2efd98600613a98776ad21ba47aa0,
  0x65b9ea5be863ba418625fe21ba30e8366ab87c8ce694d640d1a055a4253c72d1,
  0x444e459f121d09a063a7df412906e44e23efa22d5bc841b371e486aa6af8562f,
  0x70174a2d00ce4f14cc0eb4f8c6db86ce3913f2ca8a056e1f1212887d5aab69b7,
  0x9f27928bbf70207f0cb2aa471c069842e9ebf270faa558951af7f8deb9f8375,
  0x3a44363fec0dd0a53c851018ac38a98cc83d640bd4c1bb7e9792ccd6d35d7fae,
  0x37956aece91ef9418a3a4bda55330f4cbc86a6bcf9efb5d9e0e5991c1efcc1b,
  0x581586d22dfe30956e6aac8f2cd35d6b27d136e21a4529ae2c105d8c54b58012,
  0x2fe85594739af61ce0122a0dbcbf893fccd7153ac061ea3d48593fb7a3492e16,
  0x399cc6e608b2ade0fdd73d7742a731637a56ccc707b8127acfd37b07051822ab,
  0x27f15d9f484c4e84644bc65c81e5d7b46d5591c4e42cfe94e6d2af68d3bc128a]

def cD4 : List Nat := [
  0x3d415a4a4e04a8de7ff45b0e3ca249ddd3bc00bd7cfdf2afdce4249d92ba0e2a,
  0x718674ca377623731986219cce90e1841bd3e25cceead2951777a2ff40f038e,
  0x40da313cfcf94249a38e9421ee1d3e859b5ebd8dc978c0b36ac8c7f97169610b,
  0x6a54a6cfc0a00a58f42052f4b747c3d515edef3e757b7b5ee2c798fbeb0afdf2,
  0x62575e53ef97b9ea2ee313178758624984d5959a952badc9ba2b2c0221c3cc82,
  0x200318b248b5fd408d6c80a555d9b9279482056c1f6123fc0287f7f2f0cd2a7a,
  0x61f111c85c5fce195fb6af84d3a20abf5ee87bb4bc82879f09d950476265d67b,
  0x10136723ca8fd1fe06f4fc20aae30dd26d3225765408e477343d6959f29738bb,
  0x45582c8375867477ff49f79a8e3609dd5c5f9a1090ca0efac35c492978a29c95,
  0x1522c9faea9d691c9d480d89f9c0e2cfe6ca4b491df6c0ca31051783c09be877,
  0x231f668529d167d6d34825c650ce5c3879dbfaec0ebe95c3ad28480adb1c9be2,
  0x67ac86ef096a248627edec54c56dd4a75d8bacd1611acc0ebe8c3153b3e6dd42,
  0x53247c25bfaf98b1275eb7b621df5c800eae1af75f34587ebe6f16c3c95b9b34,
  0x25f6cd39acf7ddcb0205d08fdf685352bf53859d13e69cdf61bfc67bc1f27540,
  0x5fa215877a2ff87b89790256f299486a558d6b9fec7963b062488579d8f9965e,
  0x4564cfb28718c143ffffc1dd6124b0bd78822c0b19426d2eab3e389bf2634ca5]

def cD5 : List Nat := [
  0x270138c6b904d24a2aab167b19b713ee86439169680eade59ae59cc2b865f252,
  0xef71cb9ca9c799145240086b53b87438931e7b0ccb90f74229eb7a80fb13573,
  0x6af247d182337fe4c204313d5eb7cdad57c3de37306ec2883059ff008ca0d40a,
  0x69465b39fd5bdb038857781abbe6fe851a7f50e3b007ee58ee3f4d134dc311ec,
  0x28f992b854a1b8586d44e1f4c863c198680a2b1c11c06def2d28b3308ec5ac4c,
  0x6634ddb257c725a05aecc1657fb4aa8a82201e4336f7700e23064584bfcbb885,
  0x13a3bc016e0503bfacbe93cd9b6c440d9308786c579b61ff09c674177a3263fc,
  0xc1cbdce234168ebf089e2c0a0476a9ebf3fe22eb6a221cd3124704940dd3049,
  0x13d402480a68504ea8f9deeb0fe95f2f98c68937e87a0a636b441be657143f7c,
  0x438f0f4ef34f721e36c6490eb0ff72648afc4107644b1144a4488b80f0d0f626,
  0x3d5bca688f3182c71d82d7416b2faa0da42daac339d8ac10418645315fef8a9a,
  0x6d857e3d0b521c7e188e14af51680bdac97545bcec08013a4885004a7554a74,
  0x120ffd8cbe4a86be144e887897234bd3983b5a229df25384b0ab74e93af60679,
  0x5867f8545bbba0a16f91bf30e779ee34b53b584078fadc9a340a03f9d970c178,
  0x692c1e88d26084357444a07d20658ec5e7690d7058eb01ffc599319f3006e2a8,
  0xf5fcec6601adac646a8e2b014774d74793cc5e8b724e6a3f3997dc2fdd95738]

def cD6 : List Nat := [
  0xca6ecedb1a40a30931c111b4c646debf480d51adeaf0315de7be4d095b8e735,
  0x1fe9f491c5197c808438f6a252051cdeae64f96cdd65b3eb576d522eddafdb99,
  0x3dae60f3feaba7c28d60908312f3b0ab096a4ac57005dcb87b8cd46d278a0c3a,
  0x6f83f150a48c13e121649e6395ffcaa6a154318e480173f7b1d428df5cc44dcb,
  0x688cf25af159d0c039ca0ef391141b5f176f2b970c3d4423bc1ef9cb28ff8e3,
  0x9609d145d84f08b38ee3bc45eb243846a21306e67928ad9ccd2547913379ff1,
  0x2ac009f261eb0ae04821390ba08020896e1033a8361fc072b3a9a469482f61f8,
  0x6e252c574ea848b6747b6cc20de4a34cf3108b8ab9af7a9387ca5fa743fe555b,
  0x4c629537f4715e33bc67cbd25fa3421f0fef872283de9d625af410dbd7884b97,
  0x6b27cbba376b8cd9b106afacd1d68b464bd354c9c02052f630fed568f38d9be6,
  0x3e2013e7eee83aea6f168d0246a3859357dd4ed4cd0a6709793768a4aa5cd974,
  0x607b5714cfb678429e2b97d97f061c42e7cd5155afee2542377df81a18bd0604,
  0x464a3f39689e9cd965b89de222b74c3dd0fcb99b65bdb9d2b41540d4615a0934,
  0x6b76dcaaa957a20e3cc807dfb70ea1e97044d2272d4d721e3428e2e36aff057,
  0x4acbb57b6d93c809351dab1ef1ea2f2dccda93a9795289031bb05e064370f057,
  0xd9655e23a2c449abbeaab40ed38197b76d3f2e59ca36d8ee37f460c9cc73289]

def cD7 : List Nat := [
  0x6af32408192c3b75bd20522c9d04a51e062011fb07612e948df9202dc8c5a141,
  0x41824efaf55ee954f16561dddbc3c18ece31e936dd9fac2988dc86076c96b179,
  0x59461e82c4af17a92e886d8952da316659cedb1bf8ca64dec082be85f68ba49f,
  0x6a9f6e2ca5514f4424952967b6479fefdcbca821a8b0edb71393584d07bbaf57,
  0x63a5355752f3e33a74b613409225081a689edc3689dbe33c050ee49c097ecab,
  0x6302e821c650efff6e50976237f132869e63d6f8e15a2096154f57473ceeabb6,
  0x2ea7dd78c354a9d9cf84d3f4e23959a5c67399b0f26f0d71c0d16c0798b7fb10,
  0x71d137857189debfa3d127520c7ce72894daad4d4c82315b60b4e8fe9a027831,
  0x43ec6737a4c9a2ad14fc9c564f8811a4f80946b6e03847e0e3acc0fbca027c22,
  0x45da8fafd5b4003c7dd0a4e7cda7bd7927a62510af466936d138374bbdbb0baf,
  0x355c13b69856684afd77ec30f0defca3ad57e0763a1b53b92e95f402ec22d7dd,
  0x47966eb221337c359b7f4672fbb376c568c4a6a29f4a54d8a49003ef9ba78332,
  0x6593bd30c3d85c57a8ae52ad10abaf0b3b96ccccab909f8fc1db4fd2dd5a3c4f,
  0x5c663477cba241367e6636def5fbe1c16eb507ca67285b02b8cc9cc68facc9fb,
  0x24db541ac03a02291c48003804c06d9694c232fa14619bfcee2416496407aaf4,
  0xead7a496dd40ee3018a3f87abc81796fdee0f2e71aaf4d1a68d6e62a32aee8a]

def cD8 : List Nat := [
  0x33c1e7f67777425973d15098d71015a1005e88d815a6775516bea54a09effad,
  0x54e300ebb4f1acb3e8e37f836b893483d8274f515525d26d8b2f0ee1aaf2f868,
  0x569644a6822117d787636ae6391fe52eccc5557a2bbe3012145e887210cd6b22,
  0x3aef76e6ccc9103a36aad554df5996916fb870bceb2735905482cd0f8ef6bf19,
  0x6f050b74033c51b0cf08087adffdc92c8fc12294c6bc0d5b48c0ac5510d429db,
  0x2eeb8a7570cd9a0587908786b1769852d0f37c2374180a8205c22932c1aed387,
  0x2abbb25b59f04004276943d119ffe854a0ec127aafa8c340221a2e6e84c72584,
  0x19d6d3a3fa5612ef90bbf6d350075706ab58600ef744803ca8dfa56fd0949eae,
  0x6a4d1817a285eec7d2291d7961a48f772e68f6407bdbcc9cee59d4829dcb34a9,
  0xfde22d911be795226f8ecbab482d829ecc5d4defc99947ed770c32dcbd20457,
  0x3c069655ce4c43bfd2c0f6ceeba6214391e7fc6211facb40f8fcb25cac92b98d,
  0x731c873e0a0e784f0f199181f15ccab5751db48aad3a2ca383d20b0b6d37b3ac,
  0x41cab9cd9bcf10ef3dc32f273dc5d3de1f5ba1c5c6cf230e6438b20e92b53361,
  0x72d2c3cac55b68a8f783222bbbf47917d1bad362d1bd066eb68dde5d2f411a17,
  0x1546acd94d51d7d6e413d57b4720e2a2de74bacec7e3aae26e7097a7825508cf,
  0x6c134512163e988503b69774909021554c3285608d89a3fab47239cab10efa02]

def cD9 : List Nat := [
  0x149737fe24a839a9bcb0451a1f6c240c44a92209d3e2224f5bb99d2c43f3d920,
  0x3c5a6d7c0dced6f2b4b209e6911e0d8195fa453e59dafb14c577a734b676c92d,
  0x3e0f5a0807f20da999725bd38d0123570c4d8bed1a847d932da2e277f5a09a2d,
  0x1300b5b77a74e0d15ef69e5921a0149e0d4a014f19e2fd9fa8c91dd9f42f01f2,
  0xb9c7e761d23807d0fc2e9fe51e133b67d23e061b97f8752afd218c2c874b559,
  0x4066f992745efb0c6c7f541c1acf0676b38893d9ab0d4b4a26371f277a70b16d,
  0x701bf77f7c1ddb7a6322586dd749fc4d702f4060cfe661dfe97b7e5e48618e5c,
  0x35733b9d23b66dc628a3ad4808897d07490b93e524a80d1dcb3b5489984918fa,
  0x29cc66dc9b1239d34e80e703f3f4850e4350b45470cce82b4331f0ce5c45d503,
  0x61d1625f813c54f118c3d7ff170b06ecc12dd7e3537b1d1dae4a512ada400c16,
  0x62fcbce5b40d4ad46d94f9e95af4a11413d2a7f603b1fc33d044c6a7c3ae5477,
  0x54867e07dce4701c68f9443a21925445b4ddd0cef587a9997c9b831749e0a197,
  0x443ead74adf6247a0e4b5ca4aed96ff8a186237c379b8fc9b32384710f71701a,
  0x44cded63db1bc5fb964fe00d8cbcff3ddd753d05289da2460c6475a98ec7b7aa,
  0x1d22c502f3a4d6b5f6db9ae23c76a825280cfa07edc390f94e94f96f2534d055,
  0x3e1db9ec27f3f120cbdbeb48fd5ecf0e3daeede9f3a37952ef0d12d000c17a3c]

def cD10 : List Nat := [
  0x391855a0c5f2147deec96ff89de2fc89d9b577e5ddb9adf6e6b6ed61b447889a,
  0x2fa8bf68d7ad10f8b7ff5f25095c45b35b7682243826e737cdba1c85b192acb7,
  0x26478b68c96b7c822221b55505531b5b2da618ad8dcd1b7cd988e22e366ed588,
  0x2b91c35cef7de93ff305b8fb9bc40fd40b0899b6e38c76699f020c2b826eba22,
  0xc3c296c6a8b70f3e0a4c5675535b900c3a562b0f257908e01495f95da7b334d,
  0x5829476d08f0514d858780af3c5aeafd5ad4166c5d0d60bded2d32e8eb816246,
  0x953097c20567c2bf3e316a359e6170f4b8882d3f2859fe4d1e145d694bf7f32,
  0x5f878dfb416a09e9eab0de2c45993c8074a55bb3b8ed037978c565855aed305c,
  0x1e4677fdb134fbc3496a7a4e844b9a9e28db553a9f58c24f3b28ab711b10fb9a,
  0x2cf22ef1207fc125687c4c5a7103e723b1a39392d2836f66ff04076872bd4e48,
  0x62161c3daaad6002d4c553ff95bc6eeabcc2bfbf2528c802c4a658ed91607a05,
  0x605c0606e3d313a2a5478e1a7dc7300acb0267fa5e1be0f4491515c5940b5e6e,
  0x379107f5527a8f35622d5f1321942faef0749760328dd40df8af122a4f1f63d8,
  0x26a54ceb1a4935dfd7e75d8d02d1574f44b829ebd8d3e55291f746722a9e49f6,
  0x6eabf07c15bece618fb9307c07f941addcbbe2959e87bdac13cabe83f88ea838,
  0x2f48745c5dd6bc813009a3db206255164556dc89fba99277c27806e5df59fcf2]

def cD11 : List Nat := [
  0x2f0950254fc5fef3e22d598d6ee287ceb5b5cebad607c5d914c3762b23ca4d7b,
  0x6ee1df0b4c0b5cefe7647885c1e1e0fb1ce061220f74e1e1a14ee902bfad5bcb,
  0x28bc8f5dc21ba938feccc39ef6ddf0995f0614df4dded8b06ef27ffc261110ee,
  0x4e531fc3e8d27395df7773302e68864166cc21b086c3d4e9d2a9fa18e48a753a,
  0x5049ba47adaa35517bffa08d2152f62d0793045e9d32f1c59fe7d22682596a21,
  0x1d063a5fd81b4504e402865a19205e5966a4f2e6cde5c769809b01e71f980049,
  0x3e36493bdc5c34e5f1ae412264f2dac51de3e868ca6fc20154656d00c48638d7,
  0x131af09a8b81d4ac2cba0d6153895ab0a7b86784629fae04d35fb4c241ad356f,
  0x56de372a386e2728121e775685feca7a1dcde75bd9d7e6db3857d03898bcb584,
  0x5448ff0a72225ba020bd62e2e69668281636ed39dbcefd65389abfb85db0b4f7,
  0x9ce5c6cf494b5a96e51fd668953276751b9d5bc92b9443b77f51f672304fc66,
  0x5c437e833ecf85f898413e88ab9dfd6c53e40fcad6b006847dd869c0b6262c59,
  0x499dd17c2776d93ad78ca204ec12e0eec6c6f17156759675c31e19e01e0bfe46,
  0xeb9c5e657e23c2c4d631e114bcbb8160b7844395e59334e9f5c76500532a1fa,
  0x83703a919ed08b5801c5e6472d66bf7d8a7d25094ae3e270f3932e1a2054462,
  0x5aad71c6dad60b07ff141e0c17dd26bc3b33af5c35da27db7d0ae46bf54d98b4]

def cD12 : List Nat := [
  0x58887682948b726beda61697e94e754ad4c7037519cce86d827f71d6de36e349,
  0x15a4592db2dbd3d2f2b98d732a1a087525449c15580e77094180ea3f4d1c1554,
  0x402c38cb24815b533480d92fd1fe5fc68e678ca9b45bac95f66a61a680e8714a,
  0x62f097e65e876c42b70dc244e78d82f67e517274232b8a57154f0a4a2f19fe1,
  0x5d4c625fab50a8a45f39338b9fc31a44857264c620cb22b70d0d628e865648ee,
  0x63c228f82f4ac57bb92c1048fd1a13514be18af334117a284ef285c75eaa6f59,
  0x322178cb7940743a99ae97f762fa95565d2472c3dc1da75d2b24d9482a3296b0,
  0x707b22b08e215f8e31e303b81c009ce010eaa4845db9636d6281a13627ba603a,
  0x20f15b82e070b4f47197f8fe1c684b18f7903b21a930e4739da681412a7f16f7,
  0x534117a307166d27fb6139a30b8ed1a8742fb9752354180fef3851e2dd4b3d9d,
  0x3155828353c7de47034026377db4b329c48650308b7f84a4d1255ec96d439e,
  0x4e5daeb234edc3a23dfb0aea23211f5d3feace6bd18e9b0f672857900c23e4c7,
  0x3fc0e4ca069c71b2e479aa5ca1110edc5b45c26c71ff238b708d87b4d0259dd9,
  0x50da6b9931bcabf276735a18d98c1e5aadee567e7db4ccdb51a15e98e2c29922,
  0x37c22efc2d75bb9aa175c0fd8e72798d07c4acef7ba93284b9c97d92001ea16b,
  0x533e13cfdde6fc21dc99646fb4e88b976d6885950876b857c925425aea6fa795]

def cD13 : List Nat := [
  0x47fa6c42f0b3f7b1c4d5a568e8190f3618f35844b67bdb494874244b50cd4d27,
  0x29f7cdb094570bb25a71e1f5b50a346f077e6027b37be2a8cd3d7fe7523a35fe,
  0x7308c33a7feb8ccd7a050fba0c7f9877f48c8d7efbb45afa582c54596f84880b,
  0x19fc8b3897db6f06d1257379c12638f5d2e50fc37f468b0fb800b70cdbc055e0,
  0x64caf0402cfeec4f954c14f2b5a91c6b27ecac5efeee0f7205a13274cc3b3935,
  0x3ed0ae409730d533647d03ae90a9c9fc2a1494c7d06d3812544e4b138c69d438,
  0x9bba4ebf4bef5ac686479ac8a97e280032793de45da15e12a48525dd805a68a,
  0x630de404c0b9c2366724c97abe95355f0f9903efb18170469ec8868f6906ac2a,
  0xa37e27548cda608beabe2bc33d59a5a0d955232ef8e86262651ad1486c88b4f,
  0x5c1591263f3d0cc385c809d49521bf58545fb98e9878e425998d695b572c38b7,
  0x3734b12bc971eafd7e9ebbced7c82ddd996cf5ccb431ff1f9255c247c85687fd,
  0x7153d820c82fe7b776d1f758549e9d2446a12259c04449322c619cfe65f4cffd,
  0x57d2dc7026368dac29a1a52476125a2a207407d9b7342f86f7293f2119ced2ed,
  0x1e1396f03cc122550c067edd3936f51823c8b73744d4a8313102ee00386d36ac,
  0x6a8296823084941d345d8cb686d76897bbdb307dd35404edc36e2d54224fc7f,
  0x19cd12042a343b8981a62a0b98b68bbe718b526d5408ff7665e68e3a0747ce0f]

def cD14 : List Nat := [
  0x16a9f0a9cd10cf310f5412bd32c189fba61da93daf2a6d50441f0ef41716dc5e,
  0x7062d78fdaf047dc88ddf8da83af909a4d75ffbe71a5bf5e2c1bcfc65a77d744,
  0x6eabf4f1be4870d32f5950b320968dee791ae012ba84f7cd330ed5d45f64137f,
  0x11cff44a75e7aeb796d508cebbe963019dc51af75993fe779a9bc830aed27de0,
  0x2fc7b45190d02eb5e36341a01cce46125c473475fbfad4626091fa1af3d78b4a,
  0x15feb57327f440964f9c00904a22c5f62723ee6837e119d5735abd31359e1eb8,
  0x41ef939b5a0d7395619b871fb3b7535075796adf2ea78ced5d4d1dc4421de70f,
  0x2a41caf8f7e18eb6d08f05efbbfd572c11c4d9716bed2a0a0bef516b5433a477,
  0x3808b3e98b1ebdbcb5bfdb91bf73dddfb7b60d15c8d186b3ee5cf337242a9edb,
  0x5a1061625ae4edc72a98a1521af4dd95fcef995e3b9732397e913419c564dcc3,
  0x4ab9879a5d30e30c3bc4bc96ff10cbc49fa9bdf8ade606430a1a4f5e57251754,
  0x3f2a5735937270f3f3e0fe7bd807e9f7613662faacd7ac8b8b1321ab6d90d114,
  0x47388e35ae0456d6e898da183efb039356faa80b84678c690134e752b73584ae,
  0x6725a3f2f951ff87ce78c990c6781b4b19bedec33c41de088519b6d4612fb0c7,
  0x58823c8c8ad74e10a05ab19852a438836c781590d7bd844340135d23f24b65ad,
  0x184faf9b19feaf53b0f068eeb873740452600fcbcaae361525c0e66d19ea610b]

def cD15 : List Nat := [
  0x2eba92a77ab56e760f101595cce2d60126a56d7afb212a662f133d52d21dc746,
  0x320c10e0fd7958217e80987b3206e8dd6b7bb275184d64e31b063c7e92ad09a9,
  0x593c0e3acb9b496dbd44ebffd5336f3562da23d5eb68f3a0ffd17c0f3d592b05,
  0x6da6583d09aa2261e3bfbe2b817f670d464c20862959ef7edd958bccc6fc9298,
  0x37dd2282d0f1f9f8d509fbb339ee23ff7cd5b69838c96cd8a0a402cd5dae4aad,
  0x1b00fcc3e3105da36fa81f2f08a3c593e3adb2c5c76e32de2fcc893166a4dd93,
  0x5c59ce43f5bc85e5ccf925291903428f2c61ea10806c8041878674f94bf8f0f4,
  0x6d2159108032f51946cf981f42c43c140eba3e9002b856114a13c7288f22d097,
  0x19cbe6669e80545ac67a67cce19579c0d4605133f421cbe9c4da6fa89466a7de,
  0x3a09a563f0f880542010b718ca60032acbf1936acf0914c3f2bacc396dc202b2,
  0x2e99a16cbaee4b3603d302ad9344b43299662253d306ca143b0d7b0329fdf64d,
  0x4d4835620612699b785163451666ad193d9a87c0c407006178ffc4c517e7e494,
  0x651df30df5b99509ba703e280791113518b64b8cb337855559a36f36e5999d00,
  0x7385646b0f2e2001a4c0385271721f04467a8edcdf685eafd3c3630d4d4262a7,
  0x37f442537600d374ae3e36f3e36e84cb648c86935037eb11b5140bfcc5adb4c3,
  0x4830f18a4c13d7a896bdd254046889622921563d37123588b72fa861d58abe01]

def cD16 : List Nat := [
  0x5d589aac8da92318a1785a88a271ded93ad03c6df017320c4076716e3f4a682d,
  0x4dc34ed8dbbe2eae37dbf488c4cf1ef67aca36e914a15dba311ce06c2e330150,
  0xe09609b4d6f2aec99c59406487e59163c9aa06d0938ba9d06dce32b6eca0950,
  0x691cbf9a8b8d4f5a78afc34a8fe8aad872b7aa2e9e3331a667b59fd9c7e7df39,
  0x2aff40eb1bfad7a2bcb652c80c398c21327e3a735d8723743ad46f20fc6c162b,
  0x10bcb8a1335182ad6e0f577d7e6eec33c7d8665c2c314a99ac0aa66820e8855f,
  0xe72461e46d42f9f96a07bc7d7aba6c58ac39fdfd8b64e10b8b5a2eaadc7df2f,
  0x1bb2b6b8d150667ba39ba86635866511f1249d1cc056d23f91a542dc6c4c0b4d,
  0x36d4f9b3f8902481b313ad787c97e94aeb3a833d0e76949aa80c17c2bdc5693,
  0x167ec81c3b106853e9d8ffec40c726426f79b1717f57510fd4b4b23f2a49f1aa,
  0x3d219917273429578318216c388d8db72999f90f4b7d3e24cdd3f4ea08a38c1b,
  0x247a64b6fb9d082b5672a5f7908af6e2c918d1405d1b91b3e6012b65ed854fb,
  0x64b4d9e9bc78dbf8aa5f0071f72a99c3298e3151a03757246fe9e7db79bed3a9,
  0x15dfadac0f8014ae7b2a2364e40c3c8019d570a633fb4230e34721d92cdcfc80,
  0xeb3956c580077b76f8aaac98e68d4fa4381064892ca55e973192a8b5bf7aad4,
  0x5cda06dd58ccb279f4b32569556e5d466e8201253442d49e933d4200b19ac85c]

def cD17 : List Nat := [
  0x1b990a8900dff95a8e0562ed92a9e8e67b23813394b5e0bc596dfdddad129db0,
  0x5ccad4d5076de2eebcbd5f5648d4b866d50a032ec138b1d34e03d6ae542f4acd,
  0x3771294d0a75366df3773546c2eda633a86f94842882f5d4f2f188d7c40b24bf,
  0x5fc24785704df33b80bc286a15ac11884a3b681ff66ffdf40add95ede4b46375,
  0x175f288d4cc277794a78ee3c168a50070a866cf744127815888777eb676756f,
  0x1ad39e304ab7990764018e44f1d76a86431e9e373bbda1f19eb5b0a4a9d4dc48,
  0x4c5e7cf2dc15656e3e78220e52477374979c8ba22b68fe7bd3ed53e6edbaac30,
  0x4bb058c4df0033a03f93c9f4e9007a756707275b55121ebc7d31c30012d87a8d,
  0x6e88b97fe5428cffbf1e83b244a08343b5e0f04d2b9fd7f431e52686d57c5803,
  0x52992e58e097aae8c5b0b7718d89c9717db736b30214038db72f3bde5268c4e,
  0x1d29cf3a4bceb6ea7cdcbd43615ae54dcb64a98dfd3e79ea98b165c55e298c5e,
  0x4adde3b3776509ef98b6d36f7f3bff3c77f9ff33389ca001dbbc26865fa9f16e,
  0x4c18ff2c13d5a0582957c1e5dd731cdf62b9739a4f23adea48f52b3a5cd6e9ec,
  0x6b7707c1c4c9e8829970c8fa04ef8a24dca5358392df4a1dad8a6e4622d0c341,
  0x19e4779fa467a23e10ff87700cbaabdf1f07e368e85faaa024fc50b492b7e726,
  0x6d3ff6ab14483bae5582a5a4c156ee7ef7c4c2e6e885405c6c2095bb795e82e7]

def cD18 : List Nat := [
  0x237975c40cc02e383879fcb735f8d1779c4a192c225f01e8754594e64af51d70,
  0x565380096e4fb1a66da5f320cdc8d55e299e750b25b1c9b83f66a15e17c57ba6,
  0x39f27a6ff9ae8697e1a2fed32572621b5fc35d30fe7f4ddef80f0e86d89fb40f,
  0x67d04c26bcb09f1c4d934c40c4928687084d568243957e4b374883401b06c2ac,
  0x2c5c97af71e24cf93d23dcbc7a389dd6ab2e55b5aafae8b91eeac66d1089f76e,
  0x3e4d1a93803d02157972b5e2549e737d106b2ae75a03561c05b8c798224fa81,
  0x62c0ce85a2eee79658d5412ad049f9cea04a0bb87cc38397774d2623ed9f620b,
  0xfcf718cd4e1576bd6533555a6efd1b3eeadb9ba523835232b8e75644eca4980,
  0x653223f0dcb22ece93daf993db47210949a8d2145f5aaa4329cb187d7ce645a7,
  0x728eeb68f71dff0c845a0a62b2d568807faf6e599ea561e2d14ae4578071e757,
  0x454d5d499330c6e2cae7d573d6517e139b486844f1def8c035b37a6f24205688,
  0x50e0b71d1ffa33bf86a3081c9dd853cb730c5cb22603517a43f7403ac09d9d43,
  0x11cf75a82368c6eda39481ecff05a5d3a7bc36f2a82ae8f8795fd895ce6c4857,
  0x1acacd400e513a3cb3c080d1ebd38c779d3b9664fafc3f413e5fbbc43adfc655,
  0x167d20fee5a4077fa59d29f0b86cd33f23cd1596c94a3fa861aa502a903ef3e5,
  0x11717af7a03446cc74120bcf64e20ab2d2e833d47bba64b0ec8f46daf43730b0]

def cD19 : List Nat := [
  0x32b5fa58c5f407d13a0922ad4b610abc22f7194362b505beb1a86550930556ec,
  0x33ae15e9caef29c933c13e797b9b3b0932efae463a841a48a583afe4c9fd2a43,
  0x6344dd909dea1bac3208cb311c8801ddf8f379103f55e360f69df22a5fb2fb00,
  0x1fee00b279c375431bc9d320f2333766f88de4f1373e4e47e4b8b993dc672418,
  0x257a050d82509d7e40faf7ec892d91307516926d7adc82f8d3f36a3094a1b6e,
  0x67e2257b6b13f3947872e1212eed39510363a25b3ddfe4a0bc4873230cdbb978,
  0x65a0bd542bc645504eaa1ea490216bb85239f74d1599f7316ada0867c8156ed4,
  0x3333d09839dbb5d1f4cc86b92ad0d79c3b86a8b7616ac5a7ab1c59b8d6824a06,
  0x6f2eb747971ad00cecac77c51530182565ba66b308a6e392c59e821dfe54b63e,
  0x143b76bcb0202bfe2d32ef84b534c0e0d1ed6c8892f9ccecebaa8c09c2a78b9c,
  0x42d6f7f5e0337c525e9532dfcb322fa5ddbd4cf088738388c81002b3c9eec5f7,
  0x3a9a8f8941102339d1867d61d725e48631c61e0b0345991f1ed37ff016df490f,
  0x1a699561fc4f37c062d9c9599ada4e123c70f09806d0b87869a3eec8b5230f50,
  0x1562994540d2d8fe5c1def2404d27ee959ad9fdff3c201b58e88e1cf584cfc07,
  0x467a5611fcdabb27fe85799caa540e6219e7899146aa6288bbd532b1b01bcef3,
  0x3e8a8cf33e803e476e3967936d898bfbc4710dcb0da92f4b3bd46d639d5da04e]

def cD20 : List Nat := [
  0x1d0a8fac817a06bd255f47634d4fcdde023cae81b732456c8e33e0ac1afa3011,
  0x7be5fa21f45ba4f7b899d27db49245e81222ab67b9156e93655681b298ec7d7,
  0x4c617373bdb5ca086c159d52a4b5974687f73038268406fab5442443259f61c,
  0x22f320083d3c6b96e68dcd38506b4aa10dca09aa94b9cdd1f5a15d649d654562,
  0x5dba635e8663fe25b7921712cb262774457e730698dfb9eb1566c28857007952,
  0x496197213e18228c76d019043e9b23d2b78a0a339bbbb8b84ee691b7297d1b5b,
  0x6d61dec9c24c85c544af2996363544968e2b312c80f056dda1fad99a4eb6a9de,
  0xbda9bd305e7dca9907fdb50eea339f11921f1935fa16b26c9de82b2bbfb092d,
  0x74441e5036a8ad09dad6cb23e566cde51372cb31d0493044a2f9631a9f8e9d1,
  0x20dd7ce2c4e99098bf23a0076e84b9d555343ccea9b9644e2ce42da453222701,
  0x3a1b496bfa4e62df14716c773e016ba844176f7b1006305e79e123662181743b,
  0x398af42b54cb88e5c6405253c92eeb6e9aa3dd634960b69c03f45411a056d93f,
  0x4e8204ac125089c4c75d798c579ea16a1be9e8dd97918ec528b12c63e31f9c87,
  0x3cd6b1ce5c11810473ff4fcf23cee0e7693b29989c23c08a8c081455feafdf37,
  0x5ced304892b9ce48c3177d4a83162628cdf2e96e1c9f50a2c1b9e2f65da67723,
  0x1ea6e556f9a107442083f4848235d2002df9cb94db8e454db5cd04f0aa16f4e5]

def cD21 : List Nat := [
  0x5ed3d7cefa2e8ed8733c4bd98ea2ed7d75670c69870ac7a608750a4452c3d908,
  0x6ce276353eb580dd13a6a84842f8da7a19871f7b2d64517b4be67c74f51a0d9a,
  0x18c4e29efd8e34b8b74c59256b5c608c4b4672d12a15b8c5c3984f15abd91e04,
  0x3adf89a437e0cc5aa2e47d89716ebf41e73e1227dfbf042806382c29cdd67fa9,
  0x2c6953950f2e7a3c64ddcc35891a43c3eb3fd3ac86af3b313bc28fda8ded9893,
  0x2a8ab2322b4c29ef36b85112b41a66236b12ef5bc4bb93547753e8078473bc65,
  0x225bedfc05c6031554d8f5d6d02192d0c6cb8aa77648547efadd6ea1333c9c1b,
  0x6921a1f9c921610ba82d1f4e0364a293d2e835165735be9961c7984f0fec4753,
  0x662bdd0f7befb04d831bb94f1d248ed3398bf2bb5a5c7aa2bdcad65836872a98,
  0x38323f95d1584c1afa306b8b8fe3fce599f5a604bef8b4683e8a07b7f396b850,
  0x6f83127a101a33fbc5733118b9e01c8e279cea8566df2fdf84dcd7eae459a924,
  0x3af5ccf69b6eb0c16a15e3a8bf8c7c771e31cfdc35757518022e3c6e5788b8,
  0x27dbbbcab4f67a6d3eeb7c91ff823ca8257e8feae75311c5ba4a33c21e7d217a,
  0xaa2f17693320209192599bfcc381c0721748dbdd2c361e82f0f8ac686531928,
  0x73dcec3021b788b8a272e4ce93f44a6e870d4a6226d36ecab288a3c6bb0f9671,
  0x10cf0fcc462d57f1133a9f329df839ba95b9a2607e9210b782210b643584063]

def cD22 : List Nat := [
  0x1660e4f7c08ee1e8964bc0f64a57e94894f1b6277d6a0b38abca108268159a26,
  0x49472eea0bfe03b6c047cbcdecacbdcac258f08684f7004d36f70205270c14b4,
  0x5fddd9ef8eab1b4d124487e2d32a2c55e2852e35fa606a65879da2d7a194cb1d,
  0x71b01e28bac6412e171829eb7910fadd573f99fd08c9538f63d61eaae1adb050,
  0x1f81e86a4ad36cabfe70c159097a4cc031ef72d1ed173a13cac3722918f21a04,
  0x4461234041ef40ba38f4e5ea98f8cae8e85fa7960fbac130f3de56f66e75024d,
  0x6d3f11a06e5dd61f7c7992edbc11771d4908dabcce9219fc8d576f0647835b41,
  0xc44b33c6fc582f2d225513ca2538797f4899d6e0ca86257a955c696e64e6667,
  0x39520b9ce195de68d3477f2e55bdafe9dbcc50c14247bc565e37204ea5cf6fd8,
  0x2b9f3a63e6ff9f3f33b48d23a9ba585b98bfedc7d63a04d4807fa8f773346e6f,
  0x1c7136b4f6ae5087b57555418a6fc143bc45f5cbfeaa3be6faffe05eff3524c9,
  0x4292346adbbcccaadc39995b188e445244add4065e71f7bcf1ea012c45ee154d,
  0x31b2fda829dddc06539960ee005ec0853def6bd1a36eb7381250974bd86bc8ba,
  0x179ef3df960be4b84e0f868d74576a66a34c4355b43fa852bd8f7d5713c99d79,
  0x2ed18910331d1851b637b1c8c306b809e5123d75148cc2ea8e6cfee2f44c017e,
  0x4d616f038bf45df0965cc1d93d95cd5cccb7adc673c784c677896ba6ecb27efe]

def cD23 : List Nat := [
  0x63be5dcadadf9e500b803167f0fd4850d9b18b02af72c07d59d02b534b492c5f,
  0x695a2da1624afa842429e1dcc9fd552cf159dd90278667ff176ec81b1d0247b3,
  0x58387bfa19f9c6d3b79241da43a4de3811ddaf4e9e6e5ccc35f2906573637398,
  0x2d3d66f8b1bc639de23be56c744edd529296ad3dee93275777f9088456a30abb,
  0x8ce085fb8f34b7ab074cbad702a0d5264fd20b75b8c38e89443b313a5797a47,
  0xcc8fbedcd3f865c7f97dbd4908c659703173a846f619a7dd4068ac58b765e96,
  0x24fc4b6ac2e9acb5e034d20a3bdf99e82511caaf77eaccff0301ca224703b59a,
  0x41b7d01549ec398aa474766e11be162bb238ca75b80077c48074c043e8b39267,
  0x2005e927c8323ff15233aa063eefaa5d59b598561c75a2b63313cd39d1f94886,
  0x6a478f8a2ca189cd2dedc9b903adb009b93cd970e46dcbc1112d76fb91fdc9a0,
  0x19479ecb76c9297cef818cd45fdb1259387d8c6ef1ef4a14affde8bfbd6bc3eb,
  0x18dcbde4c135bd3b09962562ef5e4b582c6fa28208a0edc57dfa00b474f54d9f,
  0x5911ea4291245aac3b68365fdb523019b9974a61cd039e79bfb9c81c7fb4e561,
  0x636d6e09826d07db60a1d7cc6fbad82a90d8f43cf6f1fb55ec63b5ba5ca182ed,
  0x5e420343ed39c2a5182ee49a18bc381fe95e0102d170b621f43f0ac15c693c08,
  0xf2aa3080c432fd53d5bae3e386c467cfc06cfa8ba663c2ae73db05fae4731a6]

def cD24 : List Nat := [
  0xc4df747cf3a23fac3d6706b064aa43abe53b2a5756434d757d11225dbe76d4e,
  0x37083e027261cbd8067b6234cd5486c657012a72263e0102cd522820efd736c3,
  0x72f8491fa333e6316f952cae533718f0bb975c7bbb62bce844d1fe29a6834dee,
  0x3bc07330198fbef2798a024751c9b2756a5b62ff4fe9e6995d4e98d71ad8fd17,
  0x69e0eb80b08fb40690d985be01228c8b3113b7d8b5a6fcd2a7a18efa162c3231,
  0x42a9062adfebf55c7aa2f89642e0edc081ee02bcf48fd8eae80a2e42d2daa096,
  0x4fc1469d3b3a0ca290d02dd272fec6e17e9398aa04eeb371fd070d8513d7b189,
  0x6d46605ba56da9eae2b998bb4ddb2cf2fdc7f720a3987e9d5b13652005d43e2d,
  0x2c7503a8a0353567fe7abd5e06bc3bd0f34814320958d59e926681990870cdfb,
  0xbb7515b047056062a32d79a6ca49338256575f930d276181311239b8d29c6ca,
  0x612d05275e6c2fca95000cfc56fd0dca3c01b57b4248e5f7fce1f8d1d81a9ed1,
  0x4947c01101eb64ac843b062b7e8985683842237cf23d338485711589b3755cb,
  0x6976509fe00f0fed139b658fdd97d8dfe7cb9bd66196af301b8097ad8d53fe19,
  0x329e8138fded209a9819f7b6281e204843e25e929e9616d19939af142d1a6466,
  0x76d536ffa67bd69ef9ba574f3dce8988e5e1270b57c13417108354fc761d9a1,
  0x504c83ca06dcbd0b5e42dde5693ecc7a9f10e098a0f02117e98493fec2609ad9]

def cD25 : List Nat := [
  0x330d0e9de836039c6088a70cc7811091c58c39100acd757afe97134cad8d305d,
  0x71764104fd03833af0506a5c9d0103ceb4364a83c03c737818c72ebdf3b79844,
  0x40aa3eea81e77a8a9ee00654a7361959348f0f95dddbfebef33244410523a234,
  0x397d302289556e337b1d08c1487fa5c15f5814802fd17051bab4e9d2114dcd4c,
  0x30be80fa06a3278523703e4ac962abf7fdd35c20c5f662e59e36a9a319852fa1,
  0x671431c8acd45b310defc129acdceb8a6e968fa8353b589b307c65d6cc95ed81,
  0x3783baf1c1865c47f61bca2e5b0c59ca17ca776f6c4ebf457008ed78c6769537,
  0x5bd659d6054add03bc52e5fcc4dc7685795dc9e65648df6c17a51301b9648aa2,
  0x5312c39de1e5d158f0cf134d406caf83f82be283c9947c58ed11b018ddbf5afa,
  0x4067985dbe2fbeca2caaa30cb3fdf29316394791509622528b52e4186f6f7c87,
  0x1efdb4af2fb22adc2bc1aebdb6d3a80388f7f9708547337efef5aec78c43470a,
  0x3bc5cae74a89e26ad442e558368871f617a6d09be32d01e0676ec54fc5dd0119,
  0x53a2bf5815e8ad2399067de92647370287d885cb4188e70f414a7587420e427,
  0x4e96a5239809358a4bbed94eba2a344b7dd5a3fabbe5aa84d673ee666f676f5e,
  0x2296ce0827f3de2a6b4f83a1d5566fb8d55cbef3828378aebbbded6b85db7e68,
  0x3855e0dfdf7e9fb01870059dea75f7a0824faabde59e66fe5c8827f29159002e]

def cD26 : List Nat := [
  0x5a49b0a49d3a5a5d51c67fe6b69dcdff511eca5a73b1b9c743ff02c5fb4c63e4,
  0x6bd5487ee431cace979c94cad1141e49d9994a648b83f4b5ec6bf2e2636f7554,
  0x6d4ef35a543151ecc3e1cee0d0321de4f0a88d7253efb4fb4c05e5311681b9d2,
  0x7154267a6e5e33649ee4a589140a498637d7d7e252092eca86e80befff2e10ed,
  0x1bb689200431ddc0a3d847ce05dd0aa5c68efdb9c8bf82e9eb023b6f92f580a,
  0x383ca76ebf39a83a3182a771b5ce638054690793561c521e07de94433a14eb02,
  0x6398b00ac729d5f658ae3ef320df20a26b8b04e954c9c0c646a72d048e1f987a,
  0x4ba23747451941d1c091ad2a667ab9bb8e2977a5e38c6149603fd4b8fa080997,
  0x4d41c76e31d1ae5d92ec695e708701fb4c797973ed18e448610ecda6ee0021ef,
  0x3ef5575a636e89e9524014db0c29330707bb365c45ec5eeca7abd3b79a35e87d,
  0xa5e42677583954121bad47fa57b03e5208ca4159f8b49d41f38156031d50093,
  0x45dc6287e8e55f59350159f374f05ce31613989a0d6b36bd53291db3ae40922f,
  0x3786df58f4da0a3596085c7a6671d6c9a52880bbb494fbaf3cfc255cbbadac9,
  0x2bf920652c2040f1ba55753fe911ebd18461f5e985357ca0f150610ccdc8b81b,
  0x3196241d08af4f186d4f8f332f2b4e7270e98bef71d9942836e38f4c4e607d43,
  0x464b67c3c646c7a8ad7b0eda008a06b78bd3ce725197d352720eb9b11441be00]

def cD27 : List Nat := [
  0x1a05aa2fe9eb90ac6d037694799ee765d64905b69f4ebdb36497775263e2517d,
  0x302080ad8de037c32ec624dd5ec07338c885c52e8540785ad22dbbc715312c3c,
  0x434e2efadf4547755a3299da6f6bbb34183f7b9801969d5e0bef50ec08c0206d,
  0x6e1e5f98598efaa9a15cc7db3131c95a64af5c8c98437f09a470050f4bd8307d,
  0x1d704158baeb6ba7f1b87debdb2310c083ee105cb4a97d79ce7c25cd472f3341,
  0x5679a47af79781a8ee793da99d3939107082cde2591c88541e8f8dde95a8f8c4,
  0x54817cc1759c261af6a07fbd8cac09b3b0269f92191c718d37c8e84e31e151e8,
  0x2f5004c59f897b89abac65071efd7882e37c83343df363960f6509647bdb86d9,
  0x5150e8c7f8c3c25d49065eafac595d741a5a59539a22b12eda741f4000450f28,
  0x2c025a7168ad8eb64f34e2e7f26faf7e636d65878eb9722485ee9f0449fd6e35,
  0x383754d3ce10ad6a901ea1c8488d3e16de78e51b2c641dcb370b18bdd12b170b,
  0x193f0dbcdf6140cedf4fd6af4cbbcf3d3a58b2e03dab7ffaf6b0cce1a417d208,
  0x221cf7c8e97a159106356c8a15103a13b9a0328905787b5578c682d258ddb4e7,
  0x6a9722ae2e1f7a49344a71a0c2fc32eb85211392807ad26dabccec01e2afa506,
  0x1f14d97b6d3195460b3044cbd59d06fed680dac693084c15a4c9bce4da09d708,
  0x64e98250df7d162ba72cf33e4d3a672f09e6c9695d60c05a1c755cee75507e57]

def cD28 : List Nat := [
  0x2c54fec9a969f3a8db9f2aa92e3b873574dddb71b5822242dd7fa4148c6ead51,
  0x6e876214b72383a864929b927d0b393683e3dd47915fc2a81b59a10a1172c376,
  0x6f014035230932b486904a7b0c91d769eede2fab0b6820b5cedd5cb209a318e0,
  0x4372bb768c94ad06c57ca8a444f977efc350e45ed2ecd8782f64939be696334,
  0x534c9b2164f3ad4b702dccefe1760223a7d7bde0df8e04eb0518bfb5aebefad9,
  0x71982e0ccc38b8943c35628b3cdd631faaac94c57c9de7be0d68fa61d81e9ade,
  0x21f8ea8ed53a3302c9ed257d9670af21bca3c026d287d47a959520ee9d68a626,
  0x4d8f77e6ff2d55062956458e79444c4710d6e2b27aab091759f5fdae900b12a8,
  0x5dd93cce900c6ad105a6ee12056eef80f592b5e23e6eff79caa628362e948f4e,
  0x6a21b2136bec0a13f549dbb496cc451e3e28464d5e252f7cb1fa60a73119d66,
  0x33f57922739e08a013ea2f017fc1fbe212a81a6ea83aa96606c18c2ecc13fb8e,
  0x2b3904c1a1877f0024c3659397aceeb8f826af90971776e80a2250b2c5837956,
  0x55d2b08d57c7c120912b0241df56b498ba5b02e768058a27c7e777368bed1773,
  0x12a236e0ed0e05cd549bad640b23cebb92ad1ebfc62642cb818ef6fec59b42bf,
  0x3b5ed24e1a26fe5f15ba5e359855cb40074fb4088e8094806f4c229b9b2a3216,
  0x5c90668d046b4f2dda776a754ac7f436708bd1f28a3df19fa4d7a355e6406c8b]

def cD29 : List Nat := [
  0x51065262246475cfb10fc5fd685550c4149929c1be290bc789f54bef9e1ae1a5,
  0x568195821db8bf539b9e88be86c9bc26938fdb7ce5569f48d9e28a2b133c362c,
  0x6f570591b3fcbdc27db59245ff5012843cbac500174792e7bc9fe51a508efb88,
  0x3d155d51706e21a79ac7d1ca11530206da1291877a778b4d31c42afcbdb6da21,
  0x45a27b49c64703129d40de7a613e1b24f0950a46bd68736c123ce1755bdc06bd,
  0x63a5d62d338ea6d9eb828174291e7a8c82cad16a89d8f90b9434b01f5d8ca9ae,
  0x44ca3802b9d48c7b601d805904a32b6198862543d1772552398ab9bddaf23bd5,
  0x718117d42b4016f2acd2ba3f8e8623c64bf1f3a6fcaed2d5c22609ab76580da3,
  0x4502d2e0eda73762a944e30f96557c7624c541837397e0522dc073adec9a1bc1,
  0x59e8029a228a26b28adf9a066857f5f0dc86d4733aea72e1cd4930bea858b3eb,
  0x57682984cf029ec74631eb92031ba47004a0375db8cad1220a9afde1f9d21520,
  0x66f154e959cc67bb57ec8144c1e9641a41f25e7224d5a952f6cf91fa3839f55d,
  0x69a445abc16c37df728aa1a72b6c1dfc65b8270c322cf658461c9fb061a5c2bb,
  0x5824556a60b07121466f3f952da983a3ba3d57425df15d686efc0eec0c5d4ee2,
  0x17ba757f95717fa4fddae0c0c5ccdfa02d112e41a3edae68343e6064af3c283e,
  0x2576ba28a486072fb9a792f23d0dce0c887ad0da3a8bf11bfc50a7b09096eb0f]

def cD30 : List Nat := [
  0x643974206268ea3c10e9c06724995747874e1a7f728c25d8b16d011b5a53357f,
  0x632e3a7aebb872dd13451537f5fecc17bcb182895040ca11f41caa1b9565b324,
  0x6826dff5e20e0b2b29e44772a87019a958b1812882430ac48276ef5a262c76dd,
  0x69ea7d2cdbeee8bb6daef4e37f600ab2a4ba8d522c1d697b74903c006bddceed,
  0x1bee3e2bcba34f450ae4c82ffa1b83b1939f4dad4a15f2485f0e9d8cc7b4b8d,
  0x25dc37e0383cad11852dc4013831e63bb6ec8e3c63ba0c0a5c7eff7332e1a3b1,
  0x6ff50e1068442cc3719d32bdf777f78000e2eaa869f8e52404ca8798a58136d2,
  0x4e9c5693746ecb17abf5dbf4d971b9b5bfd9b1b10141dd1077904572ceb856a,
  0x6898a666c57a31ac0f852499330158edcbc9ac050af847fe8c46ce8910642b08,
  0x64523a07b6d5d97b4095055147923d6fe5faf12de244a8a0639883588491e0c3,
  0x579fc2d831b8018152148c63633863a068f7f46eb6e85feff720fd95a816457c,
  0x21984a5947097a23a8f50f28dc6bd8b9a69b1d4496856eb5779030cd692a226e,
  0xf13fae430fdab2ecf6267eaad94eec94ab114954bf31a11fec3e15a2612050d,
  0x2ec16fdb44308100f3ebdca0897d7832f60df56eabe69216cbc7000875726043,
  0x3291e23050208c9ab0476f200c7422e3e2a3e1c3afdf3032e92592aa212528b3,
  0x708c5131191bd8a20ae60368f1ce32470060786b1dc191e65e9384516d87b9c0]

def cD31 : List Nat := [
  0x543fc59b1bac17dac18ee7fc82c7f183fedb1c93d8d6d41ceb176f4cbb48a,
  0x25bb4f76b684534668b9f51d053792b78e432346e32ac28adf5f70db5fd2e53,
  0x5f0b0d5f0a69f74f44c890edb36d60403d0ef1ce327fb442c3998edc6b0b9803,
  0x220607a049a897580b81b7da4c87a445ad9332d601a9f5d744aedd8408f66af9,
  0x6e611f42adcc1757f3718ab0203d65b5882bf968a832173473fc6069276dcf63,
  0x4de375763df4209be22eed62f32500ee11cda16048999e7390ab599668dae258,
  0x647b87ef3890b68e43a02940a8591ed59e4c415421ed4c507d014eedced6dd76,
  0x4e16d25fc7152b5370b8d541b59cf96c5e8d9f52f18e88693245ba10573080e2,
  0x48b59be7b08e9ecfecb25add27876c551639e2e2f0971b6bbc73c51e6173d75f,
  0x4963a04dfff995eb12451345d49b6e489c564ec42c53033a4b602cb5e0621bd0,
  0x50eb19e1973de19020bccde198d3feef8816c1b17324247ff631ee0fe93f2226,
  0x8752450084b994635a0c995f6fed715295f0ba5865ee28c88570e51baa440f,
  0x72b74a89f1dfc11bfc6caf25d8101bdc91ed380c05d2b06dc395ffe0fc5b2155,
  0x59d40ac1977d12f6bde1eb07fef54697579ec2543f0baa66908d2ae0ef81ab7c,
  0x6d827a656ed829fb487df185715874015a76e20ac019b8123f23f7a0982e4183,
  0x5aea2bdf1389649236f90bd385f3758da63581ebea6a3e401686e7f66e15c3aa]

def cD32 : List Nat := [
  0x56f781198685b37f3f854239ab30447361736dc94a4eac6bf312f2c2f5677ef0,
  0x70baf51fb56f4e6f89a7d6f01c8b08e50ba27763483f6bfd798acf2e45e4d1f7,
  0xe50cedc49b0e6356b930ed07c57d0ac5b124a797b45c239a92b8d1db27a2d32,
  0x1fab1f310b2b4e5f0307fa71241c5538c8aa081bd47c82d8ef2647267eafc1f7,
  0x6035e8a9257b7d6635fb2cf4e601a98d01dd792186d5ecfe861251b7b48f5cc4,
  0x590ddeca5729bb8935318d13e8b4b746811218f807e47206d28a3afd34e0533b,
  0x6f2c3a9a475e80e1f27ffbce6fcc73b64d09846e83ee26fdabab27ff440060d2,
  0x45db977cca0bd18c5e66339d3b326c2e6fd6bb845194d8fbced0d2ac2a99ac5e,
  0x6cbeb7ff2971601812af198db0f453fc4722eb1a32310d2cfbf37f476a02306c,
  0x16185cbfb9cbe31b56097c92971b7c898fe46802b3f2b17ddf376b370dc5a0d6,
  0x550f6be7118fa3cb8cc0746ff28f6d01098e4ec79eab52d36843a34356a18041,
  0x4f197c636dfb166cabecd792105250166603e156764bf38010d6205e393af51a,
  0x58db35393f42855546160a4c71ae920454a12c71cfc616486b4f83de0175cf6,
  0x1d347beefd948a6dfebfef3ece3e1d01df6d3e08a8438e355d9e4805763040fc,
  0x243b66f46660aac24282bc0abb9e4ae82533510b58ac1e27e58c3b224c99c63e,
  0x3c630a08767fbdb33c85aa5b348b88a23ccfe45fd40ddd3c0bc314821f1deabd]

def cD33 : List Nat := [
  0x60741cf4989d1cb0b5d76e83f4d23a4465f89ff58d4a4532efddd3b571322151,
  0x1d90e3415bb0f1ff2a5a207c884d9b898d81a2ff18787f81520d918a8a3bb34f,
  0x47cf6f1cd6e3f5eade1d4b65c24301ee176b02e1bb8412cd109da60f1cd93a1,
  0x3010a51e28efa806708a5017e707ba57abbda89b4169f6fadea0aab70ce9b560,
  0x3943d89322ca39abf51a8e3d97da3a0a2826a2eefb5f71afd20963b1a9d30912,
  0x46f01aa2ba62e1d1f53a15e271bcbf053573be5811022823a60b73fbbee154be,
  0x646df752d9ea62382823d23b4660bbfd92f624910935adb43cc2ab7501ca3754,
  0x645127aa21dce52e9e8eb93c54a737fa0690aee715c8a6b3091753c0c418aebe,
  0xb3ba0c838a750a6a041ff42690e9d9cbb0e8b27f10bc1d1678e00b837cf74cb,
  0x3ff57ead9c6efe7916c2eb96d7cc51aea77e9f122f96dc269f48d8ecc99e2ec5,
  0x1d26cd573fd29e978c2e1dc56cfd301412d4b53b758d661ddf5fcde622da244f,
  0x84607b9027f2ad449f4d87797d9341dd4cb1ea3377a204124761e62a111ab0a,
  0x5d6b7f2f76675926c8e2f7fbbec32dcb42c02c21f29d128bbae21cec5822bfeb,
  0x1bb418557c488bcb712e2fb0756a8404dccb9aa523e7a267434fd27fd069689d,
  0x6335efa01ddf228d2b38c4425c986955248d0a9d641d330f6f98ee1d0379fef1,
  0x6e4dfdeb1486fce1faa76dcc06817fcdaa5bff202eac07d9c7c3dd31a09a0e4e]

def cD34 : List Nat := [
  0x6174704d3937434e7a221d439bcf50c382302c4aef2c81daac7c54b1d2755b70,
  0x4a9aa2756a3bb8fd037a3da2421f0e4bd22b0ecffdf00c5af3f368138953e592,
  0x5e73a110b247e68c446fa83aa309e93f345b6d91c619a1dfccab4703e7e63cf6,
  0x1cabebcca885e3a5e692875e9be00e6ef9c3fb10e1b7a0717feb8df041502d14,
  0x2c42f01c3de68b573f55f65d270779c31704032f6a53590898c2e6ab8c6e8aab,
  0x6c58048849e1e2ce394c02ee8028543bef3e78548e7fcf4e27f3b16bc4dedb1e,
  0x4356fcba546d45780da7b9f57aba23e5a09a86949562f605cef8c3c810b0a695,
  0x41855999232d0c66d59d59401001710b6795e8a7ef3484926f9ffea855c273b1,
  0x202a55947403dfba8cb13bf4bab3e7d223bfdd157418335870084d26f8621855,
  0x13298e57b45f936104e3160478d9edd6ca219a6ebc9ab1361a77f59d23c1c185,
  0x6afb5790b7bfe694382282c1a98f671ead26a7ea129f9bd955e1ee18314d35a,
  0x69e87be42cef53405aee5cd0853490f6d1dd473a2a35a4b8eca5a9ec36683fe,
  0x54046cab79cd7351c06cb0564d38e74c00986e9e12fba017e672b95ff0ed44b8,
  0x380955af521954b0baa74d4a3b455683b56e96c9f0a0865cef275d375f72a232,
  0x2c0647090319798b4252b7cd9d9d0dfdd607e926c41a0683b2a0fa0a03180e2c,
  0x2eb7a384e208f61f1d65b36b8e3f498115d0c8e986d82cb1751eaa92f4e08cbb]

def cD35 : List Nat := [
  0x3defe40015514fe7eea38ad1a9eae7d4af153397a1388038e123baa2eb6341a,
  0x2387a62a45401dd3ce1d9251fb06d1c688b66b33f6ee40a1eff24d37069431ba,
  0x24700bba05bef822897305685afdf51e8aa87b74aa2f93ea15ede68597b18591,
  0x4eec3d2da966c5c047311a2dca103b73998d8b437072c5fde3b923605f8b552,
  0x9929546539b86a1d213a45da90d3e18e1748db298b60624f0541dc780368a87,
  0x57091aa972df1d154757910ce43a34ce8e02d97f0c7094f325ad5602816bf500,
  0x1c960daa5be426b8233ca90a38481e743e9009238ae00791554485be58cd1488,
  0x5e296c8b24e1347927d0c75d28502c546ce6ed563dc844e2758563b40961c6d,
  0x4af35cb37c36fb0feb804ee5ce63d3db40f5d680aed46a97ffc505fd702914ab,
  0x642fe5e058099a7530ca6ece0826660045d9a5623a4c84994f209ea9fe1a5558,
  0x21752c3cf300162046fa3a42026b9a7668299c598bc3ee9ca0af7291565738c9,
  0x4bda0a7f56f221528d6f5bdf7def854c1704b1f6d753190ab79fd98e434b4f17,
  0xb0b7c980abccd63eded09a1331499e2fc87dc1468ad816d9b18e4bf802382cf,
  0x17159f43366ec93383f5c356b827dd529ed69bcd6ca5aff3cfce4952d3a47ab8,
  0x556d6248882617ce698a41733477ded1e0190a3471086739b6a731b3e5c9b067,
  0x2e05a10711c1e698af3c6c30304d04672ff1293f68f64c5cd19395c5d6a1448c]

def cD36 : List Nat := [
  0x2ac1ae67358272b219412f9990054efe1fb2433d9ca7df5ded31a65cfc5a119b,
  0x35d21491e2817d958b94625577f6487fc6ccac77982f7d8d8fe78af314a7a7a6,
  0x6a3e220c05e3396de6bb3dd8bdc421a2cd7af1a160e80636551d3b9f487c335a,
  0xfb614b18191bab55b095e29eca36502e9d763f062496dd74ec998b994f6879b,
  0x4b8a0afaa22d0357e5ac04bcfef6691e4e59a1ca8656860875129b58339b33bd,
  0x545c30dd4455c79f8f90997765058da54f12fa4decf8cbc33cd31b2eba6ac6d2,
  0x5a3f228da9ee60c13a012088b67ab3fd7f841051302441b9cec47f43febf336e,
  0x23770bf2de329163704c5cd3e011783de7191d0405144f720fc3c07f6fc686ae,
  0x5faf42d051ba066bd243709608de95323569f85aea3cc454c1065d36c862afbe,
  0x2c02236646df796aa44b68d56f22d961d32f45534d5ebe0775ef812f6c288a13,
  0x5687125ab4cc8811fbb32894ab19740e1fd03341d2e4efd190def584e681bdfc,
  0x574dba6cd54d3f828c1c300248368f41259db9fd851e14ae8a6fd1a48d537951,
  0x5bc59c36bd662106e72b8480a364744135745e91a18adf33fdd5bccd6b3d793c,
  0x154e3a65d7950fd7c576fd21c28b25afb6ce51583ba04f2fc6ca03977f20dbfd,
  0x6b32797da27a405abd4885cc544288a7ee48725500ca40421b582b2c6110c409,
  0x29c20aa7255cfe0938ad40bc92b252d976201555a841a17fbcf7b6c6662adc71]

def cD37 : List Nat := [
  0x48c718cc262de9b8be2248d41dd887d82ccddb831dee9a8c374a7499bc1a05c9,
  0x57ee3c01c1a498af22d82278e24573d6623b18f6c328f7c2b81201178ad145e0,
  0x392ab7aec63593e08c951f3dc26223005f2e7deabd7aff839b07699b555b299e,
  0x33aadab4369542ac52477908c5833bae9a895dd0d2fdd871951adb23d9f79549,
  0xa5a497044eaaa74698721fc0925ffdb72e17653f227d302e9e34c9bae70a2e6,
  0xf6ba662f727214ef159a291aa839e38a589aeeea16ae25d66e3885639053e2,
  0x1c467c8a9fbadcc869ff9a4b4cda29fdb5c446bd7a0be81dca13fca1a737e5f8,
  0x25ddd8da3757d2c00019a724cae79793d06b136ad7ffe703c58ad29a2604a7a2,
  0x20d891502dfbf651530ee93075dc0dcd7962ff86302237dc053452b566d71720,
  0x6c7ee84022674d0924f6fd911492557d9898304e1181d72fbe0a9bb2c2271499,
  0x1a81e1c01ec20becd1fd0b0d7057e9a907c791a7dab4aade63eb1b976df2cda7,
  0x5c33cf5f8a9efada26ea8fda93d194fa2fb6cd75e1bfbdd9d3345a96b5056a3a,
  0x3a32d39004e9ee45ec2c0126c2a0177fbb7b1b859d4fd692b027980b4446f48d,
  0x5be1aabe964f986b165fb34fd08cd49a11fac24f447b435bd9a0aa7fec4d9557,
  0x519c435f6d87977fab63ca69693f1e8082487a526a58c0afe3cadcfd293fb136,
  0x5710715b72363361ff8959db7be9bb030971ab2e2cc2dad9a504331de3503805]

def cD38 : List Nat := [
  0x2d0bcc9f7e39c393af3b987446305b271efca0ee870cca36f89ab1003a578b2,
  0x1024b052a9a0eec475b815cdabfcc601a42c483107065267c0688f572d987537,
  0x5c40f298dc0b84d4e650ab55c9cf66b09afb54a521196bb066d3d851e22e696b,
  0x64f0ffcd67d984943bd3d3ab671c4cf7fefd17188e288cbdb5b59930cffcd21d,
  0x33864d9f95195eba2f21c32a86cf4daf4ca580ee073f667f81ac6f4851a5c08c,
  0x53518d809b0db846c48e58234fbeb18f215d234664a25089df40cd9ccda92b3c,
  0x33371c316030c16ea37ee333987dc4a23d7484b6402b0c39bbb204fc842c7c35,
  0x56194de693d3c69be23b1781c572ddcd7d89282be3685cb3b4aedc3a80dd76f9,
  0x51ddf66cc1f8f2c532c2bcd3b1b04826eaaaae4f84507d84c67cf9f3763cda80,
  0x1f66a38f3a4c5e53917e55a6d16c6e6e10d49b858c23301afee718342aaaafd9,
  0x320feeb0a8ff4253eb79a6c113f61ef323b173e41b9c9397b25d6ac89b8d04ab,
  0x1d009cf0ed0231eb7184b71a64b3736bfcec38b5e8b0eafe504698130bb32b7c,
  0x2fed0b11104fcb231c3402848e2c581af99b77d9a9338177978155a3a5806b2f,
  0x537160c5b0ed3ecae55872c0ee7469f1a7b409e17cdea2ad1562b5d63b08c268,
  0x227d33641a09d9b0bbc375faf2e73662ea3aacedf7969631ec48b047c78df2ec,
  0x42f2622acf66b7d1ba37a6b9fdc9e7ee5543a0a26e992516c5d202e08e587cd3]

def cD39 : List Nat := [
  0x24f8377646d8749473e92b3c3100545eba2da4ee45ae879999c81a7d7641c0f5,
  0x648802e1f15cce1eb6a5ab4a871d021fe6d4aa063129a1cfc7e067ce89ed12e8,
  0xe901561dbdab4bd025d7396c5e2180150bde6533a55b4bd6a3f26b6895375db,
  0x450ac85fa6889d08f952b541950bd3c3581a22522886e4a8857c510458ff402a,
  0x63926236797ce9c22b38ad03635ab95317bdceb4393e45fefd1db85e4b037ca7,
  0xc7ac115718fa7a20456e408e1d97ae6723d041eee8d26d3cc73ac6551645e06,
  0x298e3c361550ec78daa44df7481dba2b320cb99d6fbf785126700eebc7bbd314,
  0x32587866ccecafbef9f33f802a3ed9a7e0ccf3045a886e54b0d5ad5202d7f0d2,
  0x450539eac9eec1bcf600cc2b35cb77d71b4a2296809045f7c3d33857cb499df4,
  0x669834fb9b0ff384e27ae4892531e5225b5b857ddf143bcd62f7b3694d979fa0,
  0x60f4b6280ee27c20031fec0925af3ace2e221230a57b8a45dd0f0ca09bb5b04e,
  0x540e9af6e54b0ea410307d48ff6f35f1ec40d96e71dc5faf3f7737a6a8fb4e0b,
  0x55835fd7020645ffb94e718a342988784a408ff5af8716d7a55f19d18e622af4,
  0x63e4d7af5a5634e43853c7249d1960a7166d7ed4be1ef3e1ee834a1a5a043ffc,
  0x43285db2eaaacf67080af1130fb1439385f78d679ba0818743df7bac922cabb7,
  0xc395ce89a1a1222dbbe484073df460067269022695da370a8ea91f8eade18ec]

def cD40 : List Nat := [
  0x4c8c91b3dc8562103dd79cd131b4dc362171ff9680dc27a360e56d43eed8c4ec,
  0x39457a7c25c712a8603545de4c10692044997a448ebcace56241d7636be01d92,
  0x7fb58368c93b689d624b0138d2d462437a02a313250e948f5e9913eaf34afe0,
  0x57f6ecaae743f94a5dbf4f58eae228cb56f61e1cee2abe963c953e570d8964da,
  0xf63dc8b08ede75fb5400f47550ca182c24bd2a8acc4e2500aa45c6973790b96,
  0x65dbbada04d4cb55a9bcc3bce06d36936565e46d2621cb8db1c6d80a9d5c08ab,
  0x5a9c9c9b180ad3c1cde3c2c5c5bd4bcb686d4ba42e1d01d08fa59dfb96552b49,
  0x35231bb647e084247dccbdbbf564a526ffe48d0e2970d531cbbf485322747e68,
  0x55049ff57ea7eacfd888ced356bc2cb52d9dab4bae8b33d4892fa33c3fb985c5,
  0xc895fa989a4a936d7f7d0d28c0907f37797d7c7a1a3c8076b2c8e7cc083a361,
  0x5702aa87eaee7b211315aed50b7fc6545895a960b632d600cfcd92d8f07818d4,
  0x6fc3a920aed8e3d0f697d919f44ca8e646a4a87a83c411a3b686806992d9ff01,
  0x2d836b78f28c213ed54cf0f5d89c4b9367f102719f6bc8db6b98c56e39618c39,
  0x20432033beed58c6481f0a6eea98b9d36b3e128d97a037698333b7b6be6f0b6,
  0x1f15ca72d53b57a05934382399e2908e83f55444a392c534ab69fac054e7ec5d,
  0x17f0dff888450cef203b99d6f2123ca868c50a667399d30df1b64de880f17b18]

def cD41 : List Nat := [
  0x2983b9f2fca26d894188a5a00a62bcfbab2edc09b13ccd0cbb86b40586464c9b,
  0x13cb89b530e34e64f33331634d926e87c873805a4508e32112b4d353eded4dd7,
  0x24773d39234eaf90977b4c9f201b15b6286cc0198ae33cd09e926d99afeedad2,
  0x6cdcce55d8e61837bad12d27ac82c824f8b1279a83f61cba0b7e505e4497f302,
  0x551bbbceacf5ffb1eff73297045d4617eea08ee9fdbad79a404402d8d8d1f5d7,
  0x862591a5262862885331baba306c20636d07b4c75b8eee305be2c9f27297556,
  0x6f19012c61c2fa93c484692ded222249a2d5c3947c9b1a69502e34889c760da3,
  0x21f2bd728bfe28ee2eac8fed20178e0d92b10edfdb9d22c8725cf440785987f1,
  0x9e239e744614deb62470e5f0574e1e9a03cda6bad32ac9480ff8f71e7aa696f,
  0x4739e9fbb81a122ce30b721fa80839ec99d11ada160a616f8f1b6b123a7a5f77,
  0x5b89d06a667a8e433c9775b0c669a9485faf6b0c9a8299c72759e6ba98a61aff,
  0x6eba5282e13691827ca2e963b6ae6c7c8307e6dc09a87c836bdcd1f9019a3a58,
  0x28c452a9c8195393712be1efa285206fb32ee2dafb06f7cd7ec6b70c95b5bbfd,
  0x583855b9dc05c26e20c2bb92b589a7229ac9529c86795b0ec1a28f51bc063552,
  0x9bcf10e5d514b75794d0bcb08dd8f3e95e6582ccc2804c79de5a901f7ba4aae,
  0x4fd4c06007f36443667c43e0eb5ed548dacf029b8d6e0c17dfb59156be1c06a0]

def cD42 : List Nat := [
  0x53045c6d7f7c1eefdddf2f37e4ef90a2a8c373c92aed70021dfadfd207e0240f,
  0x518e413063e7988725f2cbede950a3c96d8936338dab8f8d108a1a574d9a714e,
  0x443e3b761c4431bb8c930a392b343b1b1f398faea3f5c7d48cc6cd9ef4c28384,
  0x5c8ed6fe5109a0d4dd1123ae16b19e3ad8fb06078234fbfe4f0cfba3028fb174,
  0x2cdec89c2c93378b86acfac8d582046a06facf1a47c1280dc5f7e9ba9117dfac,
  0x4939e355c3397628522152e1f6500b8315f1405c3e7e850aff6e5f13e8886cb5,
  0x6fd068ca76148493c7128963bac8579c54f29055cf330bb1e0f29fc89f52cbb3,
  0x736995ce0bffc62f8b647a5db0118b4e07e7d65ad5a787c681737f4886a9ceaf,
  0x6e436744b6e7f46d6d9e9909b2f3b194b7363448be8c35cbe1817897560431d8,
  0x72d740f669dea01393bc2c8bb7dc03e7b675bda0444746e27db21c6a9f8d9a72,
  0x218dece081ab7a9d45be74f144f8bc5d8cf5f807bb952d2d5cc6ccf00cd071b9,
  0x1c20486e52aa6f3feddad35963a5f187e50e3ec26c4b6ae1f1608e7b0c9d6af6,
  0x1b290a6c0cbd500a12b7fb048a4116493c9c53959887ac5947d8026f6b71840c,
  0xc8d1a41e6561ca8498545d0fa8a0463753d043d0095ed102759a8bb78840ae0,
  0x5754da645fed596f7ba2f758db46c24e5e55026ee49c96387fda5fcf9920ba82,
  0x1ad882369be7c86811e2802a230426b2adaf73f0726999fc126a8fb6e882be4]

def cD43 : List Nat := [
  0x4f17be593d4700a934b21414c2e0620b1f3e6eb75244757cfb2076915b73362,
  0x34a9b2920faf5fa207b155e13b8b7bac13cde0925097e726d765fca478fee1e1,
  0x651c7783545547bfd9fdeeeec44d554a5e91957b884971175bc83ad9701a4928,
  0x436552eb0641f6be3aeb66b74251f0ba3399f59408e00cfa7cf1c9ede00bc213,
  0x72d9c5264c36fb0fa5833fcdc6d4db8f03f83b9a5c1cc9e16436cc87cc907930,
  0x71680fcfd02e3868febc1087a1c6b1c743ef9cfb78d3ae48518037e098faa080,
  0x440dec8cca483da138ca263df203a89f7cbb703a8d474e9f5bc1323ee35ab0bc,
  0x4b92948a952b9c41809b7b98f7fbec60120d54ea78b2077bce51a3378a89d725,
  0x6bd44a325c0a5735005e2f500838d4c2b8a08ebef34ae27ce3c9bd6d22c5d663,
  0x53b9b1c94cc921db2f6547f215ae139ce915de01417ce610dd31ee10e9ff6e48,
  0x83c33ce8324069f3dffedc84b09c3e27eaca4499307a01054e8552a81c4733e,
  0x6d4c3a59cdfc98bf1e266148f9de71ee5218d70abccc282410893fb0d44197d,
  0x47c866d0fae2f1547f4d5327359217a7483555fc16f04a884f5916eaf4775364,
  0x6200bd5006ee03b46f01c8c4b3b951efeb6072a19310dc9a4efb5f56451293fd,
  0x376e613bca825d66ad81ced9dcbe16b2bfab0873019a042bd7a10b64066ce2b0,
  0xc9ea846884868cbd8e984f946a7bcfdcbae7408e94d84c639502845a35ea360]

def cD44 : List Nat := [
  0x3307bbce432bee61e02a4c0b32c8be9a524a8bc0f81cee672e7c78e85d72b756,
  0x6126a81c7a7f6cebe679c6985be87dd51604054e77b338d2defba6949bbac773,
  0x277017f7f5b5b61b85f2ebb452c666222222ab522680397328d5c50f38f08338,
  0x3afbb65efa70566381148d8fca6fe7ec24f214a042702af4598a2ee033a42c2,
  0x425c3280378c00304751844f2535bd8322221bd849438cc948d462eca08b7e6a,
  0x414e602051004a8ce9a1fd628fc0ee01f569da6fcc7bdaa6c44fc3d210f84677,
  0x85ee9f16aae8495103ff4028b8e7ca6f0fc3b50c585858c5fbb928e6b4040c5,
  0x433be80d84c6bd0a74696ec91a983183994d25e3289ac9bd567da5a48682e6fe,
  0x2556aef374e2ec0014b99c1a643c9e9745953e60ca21f32a03000ffdd0aac0df,
  0x54fb08811e4cd860a0b93e0419b727bcfd04775b365384789e79aeb450bdfc5c,
  0x5d111e0ad1f7f8054f257e825d5cd7b522b7e6effcf1d11eb735a3d512e0814d,
  0x1e2d138430ff5dddfd35227cf0556e316002b0fdac86ce93b42837288d412e1,
  0xbb1d70f7781e47aa8d46d6fa168f8409f8716ce7a13da4ab9b76c34f1b53977,
  0x21aa397f994fe25bfda2cf955b36a48e0fe936a3919cbf9e2031cbd29784e5f1,
  0x42a636e6239be604b963b50cf6f1a7b1701631a350ef1a56a76398028062cc46,
  0x2f7cccd776528b551b898e6d27a8f051662aeff4b7c7a1da1407fcd649b73db5]

def cD45 : List Nat := [
  0x3a363ba1a663edcaaa97f434a904d3273c53f64f1a23697a9cb25a80f1bd9517,
  0x6889ca96b052433e7ce66815f6cfc6df93022ec3d71d861ca5f28a9a74e5c4fc,
  0x28dfa0649b87eebb6afd8a52b84f3dfdca0dd3ab34b31398923ccabe82391923,
  0x108cc4ac0f4b9bf17870ca424544286b01a2ca6ed3c28e219393fd6e7ec4f653,
  0x4f57ef4097b1eeee301d63f25fae61e3f22ddfb104e301fd89fb125dae2603cd,
  0x4043a118e24f0c938d91838b11b0d603c1dc74c2ae590850f98106a93b404fc4,
  0x2268da7713581eb1233f5c31d1a66d2b49c6682e0450e2cb9557b18e99fa7d68,
  0x70f10744285caf46df05ec00e85d5bedc023cca2f082d5b30e980df382be69eb,
  0x629226e121d3660e671370b9fe7ca41bd5de00a97d2ce2516f1d5265c7d14653,
  0x722c95398f1506907631cda0cbef5ad8dc62a4366dd77dfc40d66c0f64a30e09,
  0x578238c8e7f7ff5bea7739ebe7f4ecdaa7161170bfdc1b266977a70334cfa5bd,
  0x2d3daeff3315c55091eae49f95468fc66d33616375c5e05cf07ebde10f52e75c,
  0x45524a93bdfd5a502f4dfcae5b967a50219f6a2014735d27cd5b1e964dfe6204,
  0x2e070fee97cb4b23d2cf764b94c5e803429c718dbce9759c873984db79e9e80b,
  0x18881dc8d0ffc5f044f85cee7f17a8c869a60c85468fed99a48f7c70f9fcc8e6,
  0x17965157cb74bd975520b6a184c532bb2fc65509179c788571c8242d95806912]

def cD46 : List Nat := [
  0xc72e169dffff37b29fdf092676662238615a012dfc3d8062cfd814c419136ec,
  0x56748f81495fe2b9efbedf6b498aa747451c98189f90a98090317a8e3449f671,
  0x8f66108d58bd9afa81bf70b39ecdccb3848b39967831c01dfe2834c04ad8b26,
  0x3a03fb26ca70eba79a785787729e0bd1d43119ddf5db88c34fa9fe4a0bc3f457,
  0x32cab0d9a8fa9078648b1a5708623cb14ee8923cbd2588334cf05f119e31dd97,
  0x57b86de3cbf543c06f06314187a14ef676b11ebcd12fe070e91df4932017ef2,
  0x3279b19635aeb5fd7d17eca8cd1e23486b41aacd6a75fa28efbc0c7bf68bdd29,
  0x7344496231904e045a963b7f90c476a6dc569e56166fc89392dcc89930780d,
  0x3a43a5bcc45003a0939483d5e0eda002ae62814164f4f4aca6f6f10835c4cff7,
  0x287d7570ff8053b32b8a575a018fa7bab1832007443fcbf7db03bdd0f001b0a7,
  0x4bddfec4748bac87c95ffb64959952dbf2f12fae4b1f7d1d602668e3aef406af,
  0x3632fdd755a8fd10698d9d94f11333e88519af62a673d8aa5e9475ed897acfc6,
  0xbd69a9032d83dce2f5f99f39fea2c50311a66ac14266db622e5df89779e77a8,
  0x23e5445512a1d88883e3b6292a969811bc7dd7352c83b958597170c6daed5a5d,
  0x211a57a8eecd84e405214911f61adb32b0d2b54652cf3e7331fa7c1fef83565a,
  0x6fa350d96d08722d0b84dd4870b5060b4e44f655c30e4e7f3d44e86d3a9eb27f]

def cD47 : List Nat := [
  0x5f90a9de0104723c31eae58812bca0861d050d59e318b8471b1b145e06901232,
  0xa93fdb4f3b77d414ed58b149449916e1eb4ed900cad9444104ec42013dc6e81,
  0x322d50e6ce081a50d7f62434a4b1d195b3d9c22cf2f1942bb3c7ac86c5687e57,
  0x4c81ebfbe2ca8dcf587b8683200dc0583a9d17de2c11927530a7c57498a831aa,
  0x44b1a4670070b8f5e1fd66574ecfd6aa4329f910167bda41f403d74f62929589,
  0x6f5a178b5e96f81b11bdea698a83e03511e3fb03dbc7cec948dda243057796db,
  0xaaa29692224f0691fd53b6f62ef34c1ecc68d790905cc2e289a9315673dddfb,
  0x20ce7c3a0e979af63bb5273526bdfa9c4080bb66eaceea7967f0fc38456e9ef5,
  0x3101de240dece43267d228058d92841feb054eef5b880ef7441ab4beeea778fb,
  0x2aab8c679c36f41f0d64fde16508f497947fa54c07c34b2707145314032b5bfd,
  0x21f2d8a86ef4c4c9fd1e91d761108517282d15185582baffe42c644a32163833,
  0x717f0f6206564951fe04535d55009388bd3d903c49a660eecd6b08da677cec5f,
  0x13face601547bc424e82d55cdf0da7d49eeba91cbe2ec95ec71d06585a153581,
  0x34e618fd6e913a144f9616ce3bdf789462aa5e96d4d5cefc2a0bce2d2ad6971a,
  0x57df8109820f975931bd6a2709a83aefdd1210b1e8c7a7e24c43bab7a5be37c,
  0x1a6dda9a982cd229065eb55a3eeb15b5c364c6b2aac79540d00df8bd89a0c887]

def cD48 : List Nat := [
  0x41de2bc4541ff71bff8d4a6e48aafead852b0535fe0b2e5340a8400c0ca9f8a2,
  0x24e7c66154e5ac98407ce85520a409864ebc769bfbbdc08be720ab9f961dc311,
  0x4562845afc1debde504b9f4664c918df8edf58c16708f4d540bc347c4da47121,
  0x346f41c5bf1d73e8d67be777e306caaf21a040f42248a2bd4059fccb6f5a2024,
  0x3fd5d4c88107f66cab1dfa5a36566403704f7e1511276415a714bf5ddbec3d76,
  0x607bd0a5ee6839c57db1a87947a1a3d5f25c4f196c9310beeb60fba4a41691b3,
  0x4388c0dbbe1d8e4c7c5a2dc576ed6e8d74a6f909c5ec76ce0c3568e96c287c9b,
  0x6e5d32fc008ab42791f23100f4f5f55ccbd4307b95c418f94f1e45c85bd1acff,
  0x3c20dae3436e2e090e71b0a0c013dfd1e5123bd1c16dacf52d9ec0e91394c7e6,
  0x21dc869d7993f3dee1e8ad56fa30f7fb89646b8bf7c56a9adbfdf909ca92cdd1,
  0x5614199d3463a19f1013e1e37ad6c72c7919b5e0e4c0e4eda74abd8b4cf2b6bf,
  0xd34360f44ded875b12f23cd58f2679a2084e2b98673107ca8b42fc11b331d00,
  0x390845eba43d6d50802c5f290e925bb4e2abe74843eba0a333dc56852c1c6a64,
  0x6463c0d045489ea5fad1fabdac7243323de29a1509897f9c92e82f2592316415,
  0x117c37782636666d5766f23f9a408e0968a07c5a84d5b1ce670ace4dcf38f38d,
  0x35a8467edef26ba0e91b115904ae282d32cd96ebad0bccc9cda87a66d3c7624c]

def cD49 : List Nat := [
  0x324d5eee95b9d178774a109a4feff06e8e1b3be4e5faf2c3134ae0a2320b5033,
  0x4111407e1b350d4b5e78067345ba34e68b66e0660f763325c8208e799b7329ae,
  0x4594a0907b319a11920c3f40369d6be9f1b68c84670d81d0904e4a9a67c83163,
  0x2a5ce40dde2d9a4e900614b34392b3d1be49addd39b2a0383c1981034e75f1fe,
  0x56b7f5cdadd89388da11f6a89a095a247fccf9c013c132fc600e8c4d77965da,
  0x362f45bbaa0d9a7e72be48d66cf926c5a5f43ea0321e4c1baadf25626145f414,
  0x2419a5b1fbc35fd980c81c6a07576f316dea50415dbf06f11725dbf33f831047,
  0x3667cf566b2eb638c03c04091693c6cbb38e6f8b9ac71799901fc5343e337b78,
  0x661837ad20d531bc4e7be62596573e824697ec3eaf3ae4b1516255e976981979,
  0x42b061f1e06e15bcc12640db88ee1bd0122a41b3eb0fe3bee67386afdcdbe2e1,
  0x4e5f05822640a4cc65a91463a441a35ad8dc5c2de866a3b2367392d9b7d01291,
  0x3abf6bbfce05a1285664f428887119663f46544a3f84673b4f6c96b1b7822735,
  0x29c5b663dcc8678daf7d84b67593de93e8e0d545dd48eda5df7e0f8627151806,
  0x20dd1b2c62f9e6da135d5a85597e8f3b29f4537d2c1a0652411ac8897606a8c6,
  0x3edc2f2c5030c1f74da97888e33bc6471e3cb18dc4e49b502f57bc9e07db2c8f,
  0x7d0619e973a9a48962eb6c46754ac5129e3a74016123a26c89dfcec0e85ed46]

def cD50 : List Nat := [
  0x3a2a70fb5070dc20c1ed09ff15ed7d1ae443120d6b86d88382b01ce77eba3445,
  0x4801fca4ac96dae614ea03fa6044ef55f8c30a960d5f5742935273c408c7a05c,
  0x28fc4cb246872fe17562696b75f5525cce62a61b8a538728dc215651c7e37b29,
  0x3f87f77b16df512242890fc87a55287dd28b3313e2f247326cd85a5715fb0058,
  0x52681bb55c6b3ecd234c447ba2bb681a7376a7f8c9e9b2f0900db873787d5f6d,
  0x1c557120bbd9d42907cd5a69ae0707bea77602dbd608e873e14dd84d0447d84a,
  0x4a9ce5da63f53f11fc7c1f91bf41adc307f825fe784429184d968991abd5ee0f,
  0x178ba1d23495756fa9d0a146b050cebcf0ab2a85ad53f348101e7430cc182ba7,
  0x5c5858b00420de8ee4460d88080a900f3de5a460875ea3589d95516d66d96191,
  0x38708b4489af5aa39441cbf08a98c3e2397f77ed1eaf824869c54685294943a1,
  0x65dafae79872871586a7877b3410a7b68182375eba2166bef8d03e39216b64c,
  0x5228b7cdb4d71435f31e600082398815754e8ec49dedc9a23328794af9c850d6,
  0x68e69c7924887dac974223b653caf4095a9dfcac262a5c451c19481bf83c273,
  0x512e76a08523ba68a6fdbe46ce38a6347b692ef0d19f2ef5b717a6837d2d9eee,
  0x58d48f5df6b2b319a887a77971bf69ea32a38d05f6884f9f6882982cdedc31c1,
  0x2f8a647ca936cc2dd198f6960a36511b29c2878d83c2e6fd0c6488dfd4e52092]

def cD51 : List Nat := [
  0x2112a97425dbf0203eeac2be8857f0c532f0cc111e73ef8b39b8d044b8cc854c,
  0x1afd5aad1dd15764de805d83db19b8e830e81f7a1b4bbc81da69d54fd733e08e,
  0x4382d57cf63c8489a1a9735a70b782253ee4153d545836aae9279f70876528b5,
  0x3349dd35056961929afd1a713080b3d2feab8edcdd1035f6fd075664814eaa75,
  0x412c46372a089a78b74b220b0f05e7a237585d5c965a572afb810fca725553d2,
  0x21d50513c714e5162a5e98b56ef7fb06d872af6228dab40cab6cc223049f1cc2,
  0x21b4796a7d13ee2d808ca5be6c3e235a1334f22350c14ce7b5d6ca62b568cc9b,
  0x185958e5ed26910455f195e5f460dbec3594481c23003ca26330c5076074d9f7,
  0x825d09592b9fff76c7a22f69de6cf5d8f33f14b5aefec33a4a3d70d5b0c562c,
  0x715ebd4ee27399ccaa7d9b43a19bb5f58d549a7bfcdb5fc9addf586156c96ea0,
  0x511761a6865fc9defb698aba4448e1e59c0fb82f2ffeb67824ba389e02f43056,
  0x47bae348eff28375428eef57a084624aee6f29c089e8ee3a5ddfa001b3f1bad5,
  0x93042e982ae911ed85e460ce65ab250e930489b0124c71ee2bd5369396619c5,
  0x5c53c2cc0c3ff9669221fe8352a94ff39aaf2d436840fdc72d44176f6cd9129b,
  0x2d8fa0cb07cc998c2952f3ea88c087afc6fe6d0bc4eb7aa60a5df3e62c686123,
  0x28a8c3d62afeaa31bb7d8e2a6dcfff81db48d8a2b1f605485d352f9e3db76cb1]

def cD52 : List Nat := [
  0x62f361b9a1e338c5b997375d88f79ab54a7ab475170d09eb7e3fec3752652454,
  0x4d814d86683d50a58d3f7bda06aafb03d664ebf8935c20b18263ec7c5585c2e5,
  0xe76ee957575857f448775e3c50b4ddb4fb925e8f137dff8bac62272a248c915,
  0x1ea115d6a0e120272a0c625482f57675e6c18233b183f60dd78f53100709e5ee,
  0x55e20d57263df61d2046a478188ce9e478293b4a7d70159ec94543eefd88482b,
  0x177e46d5eeb9ccfe8a7e831fddbde3a01201f3e042703cd834eda60b7a705b0b,
  0x34b04bb8a224632d76d0d16e53ee17f18cd5e927ff534b26957d6cb658814392,
  0x4f65e702c21c04bfcb8620f89a552392cc2a565e2f93b6f94598be3d1fa264c9,
  0x2b6b18d3193600cfd9f72cca56b6bafcce28ab879912a4fc9c4e91439ab83dc,
  0x63f0e1e8db78503c8844bd80bc2ba893683b096ae20b68be4b67a62a3ebb979,
  0x1487c25e32916573084b5f29d89fcbad8f4a17e3712c6db591770db7d42ad926,
  0x4d12cd9e3532fabcdf2b9b8bf08109f273a9091e71b8ccfa7d9f2dd399f8080e,
  0x47e53de94c55dc3f35e87c0be15641246bafc746b9f3a0d2b982a4ec45adfd3c,
  0x699ea482d370ab6f2b601b9c2f159a058de36e79f69b575450761b51a80b7663,
  0x30994dbb31b634baf157bbfda1fe0f10b55b68d8fcacb97a5fae94cbbd75e3fa,
  0x3bf2635723531a9f31a19bc8060ecc7f85e7ac162d0f3e40b1dd038470dc0938]

def cD53 : List Nat := [
  0x53bf38b40c6b2ade52da230f8b5e06fba3fd1fc52b760a81abf0199df5305383,
  0x50438bdc4fd60f852bf68b0a5806e5900f8f7d6c29b75ef0a65ac1e45fd08d86,
  0x5f423890f1d9643b5366c626d1292119cab1b0a1a21423538f16fdbcc4fe16ec,
  0x4bb2527bff52c5a19c33160e16c7d64ee41209449ebb2c01a9e4a304d3bfa4cd,
  0x4682fb4c8f3b06fbe68b1ae281cdacadcbe8b823bd0dbbb74a9e2183544bb2dd,
  0xe37a69625adce9c869ad95ba80e7bee1942981d0c78476211e65b96c27160ae,
  0x6e0c788282a0712572644a4825cc2fb8e4715b4ea2583ffe406018cc193dfbba,
  0x2e40091e395ee4234e076db1ca05444ef3320c816a8926e0d0f1c93f3ea5be37,
  0x84a4304bda66795d932f587aa9c62f2ed5e612a65ac14f45c78a32bb7a7bd7,
  0xfa915a28323a4dfbfc56363aaed5a399e1e524653dc58e67812998fcb6e9255,
  0x22a5fe9dc8482124388776d94a5e85b943c26fbc5c3763fda0f3ecffb7e55421,
  0x53cf03a45d3763f4ffcb8cfeb5e2fe1b0ba7d0ebb08e04ed3a5994d93b37f002,
  0xf315313725d06ca47eb1810b818140d3c46a5d42b141022b23c7f07582759c5,
  0x670da16a90fd5d9cf77bbbb3c09d610c33c17dc2b510d90987047affe0e6cb0f,
  0x5262703f1d34661a196a9ab9cfdcff25e617bb92685c2a05748f0d038cbb42e6,
  0x7101b9cd4c91a6cd9dbdc7ed8a5f32a842c2bfcf8a7cece9395e1d871f259c45]

def cD54 : List Nat := [
  0x6a1b012cce6e67456ea68c8318aa32727a09307de14977138068d557ec6c30e7,
  0x3527c52e00e868efd3f47b63203a3535a08f51364a65bf92cec37aaf11a72905,
  0x14bb35f5110c1a67b4534118d94907d700d7b4af77327b269c23489298709f7e,
  0x550d95951eb27d5065cdb00f2c27c23950e0d25be0ae8ccdbdfba913d6a1c02b,
  0xc15cafbd714a2eb64c7fe1fc30225cbf321bbbf666f5a054b1eb6a4de805627,
  0x2df7a366811e3db3fd1c9d2e59856930aef1464c5bea0bda34f132bdc3a592f8,
  0x162268d5072ef81a0aef5a77a2afb536ac2c55417f2a71fb5a1dac6a57d400a5,
  0x1e9120e63fee38756bd15f3739521f80e3d80bd9f82b85ddcce5ab8547068e03,
  0x4361d5cf9099a10c8439346258878f173d636270c026cbc9ab53359f06c5cd31,
  0x59481e7b729f371f3c0ffadfc2d1107277d62938f7b78181ee7ee9476b17a5e4,
  0x5dc9b768240f5b98329415438ad5463f9752c81ff5ccb3bf5d84b558fa5711f1,
  0x8952828974cd6bc15093a06de33672a4470c5c49864bfc47a3f9486b7045998,
  0x16eb6883b857b532c1510b489a26dcea88f599dcf401873f42484e78be689aa2,
  0x2aaf3e2797c31450bde71a74a65dbe4b87692a4c73ff8bb26ca85017c83c055c,
  0x41ceafc0eef317c0979cfe6a6382635a5a401f5f44d4271f731e6dd974554079,
  0x37ead58e01dccb3e7ca2b28dadda14ab8ccf978c54e18e4a78428a59f25175a8]

def cD55 : List Nat := [
  0x4df499b848d360dc9a4e977e1bfb2c864df6c4289c8e3c49050e51d3029b9d39,
  0x4cf88978ef198eb0da4a804debe6209d80fd05afe2f930aead7ca2cca2c5e838,
  0x361f567a1366c5ece33da2e249183d2d0d7ad45f2798fbcf00af813f0f7a793,
  0x6babcdb5f188e04a6ed50845528febe28d347d015daaa081f68d94aa3782b263,
  0x6c07c6586d5e36626087aa3d2633327695fe9b3e40302171cd28d2584f228a19,
  0x57fffc8c46c2e0f63d2124504ed2b5f9457ce6bf9308133c2404e0d95d3a8a36,
  0x587a55ea5efa78814f8b96481466c3a9855c7531f607ab49f9e623b525fb7bd1,
  0x1da459315c7d0ffbe76044084c8201b799d55bab8d34105a080e4db03cbae956,
  0x4b825f202e7db547e099a302f7a7d8ab7621447bc0a464d6c63f8d671ddf56a7,
  0x3bdafc984c73689669f3ca9610cc94f5f6ebf20b19445a7e67750f2ab1c4cc75,
  0x6b7e43e9a5f7749f6496ef9f87c3f184402792ae598e208bfac1a8cce876c8ca,
  0x3ab265131003981886839f6e441272006de639b2a1f5e5e33679dea2c3c97bf6,
  0x2878aaae789e038c4033cdf3f2a9130c6fb7cde677be2c28798cddeb8f6073a1,
  0x59734644414a18a6b0e53c899ade13bab6f8532efb143728a04aef8f4e97a483,
  0x2181b3e9fc2bfa7746f921f7f5e2428082ef591f4bdee0e0e69a34bf4d41049,
  0x92420f75ab36f7c89a2c291101045bb6ea9961d5f487ed9502b4d92d070978b]

def cD56 : List Nat := [
  0x6c73667f88ab04fd4e40eeece184bc0978ff770ac5be3d567908f0e69ed38122,
  0x582f2b76b838a41dd99c433f178297ec30a18cd13d53aed07031e136764455b9,
  0x331b34be1bc56dfef2e434933e3a4e283dd1b32f27738bd50e27ae87a9d53555,
  0x2e9e5c5e6e470e7e98f598a5c09f791c7612628286a008181f4e81e959ef060,
  0x65e87d73905d40c79a91f6dc05ddd82ca58da94149b897fc910c22dfe3c1f0b4,
  0x33e5c5034689e54bbb37c69a8a88773ca8a8d548ef28e8a3bb76b43ccddf0f5c,
  0xa17db0091df71bffa8b45d071915bf78f2563b7b46f523a1c5b41807c15e9ed,
  0x5daf13c68d43e75e85f4df4124ebccbad84a4a022c9bcf548cc628f6fb6c8f5e,
  0x57b35730f1c3457649ae22e82559ebba050d7542545d9baa459779ad6876f1b4,
  0x42cfb498cd1c7315c905c08f59fd3af64ebd1b147d17b0442ce618e898aad42f,
  0x521dcca1103166872cbe6b33ea9cc8b1eabce016c326b994073da93535d4e28b,
  0x6f776174ea9554e14877540759eb635608ca2d81f416726083474ef026572fdb,
  0x1ede1e7e69ef39e74b9071530ca5af1b17951a18c322f95886ecbff9483f6944,
  0x69da862132d76d4760c8b22dca55c3aa7f05061f806bc699bc6420f52672a68e,
  0x3acf3ca2e3344a208330ccc694256eac3fb65ce5bf737cdd8d9a17825ad2a8dd,
  0x52420c48ba3b55bc5abdd4dd242ee9f23733debac61d54cad9d4bd63b2942a11]

def cD57 : List Nat := [
  0x5bf03721dfbb3b161f4c462a07839ccc59c339ddbdcae70f9dce2555db0520b7,
  0x446db12c4a8f6ea545ce03ac0204e8652836638ef9fa9662d5c86f3b2cbc7e0e,
  0x63e861e2565bca31d685ee5c445ee689d2bfc74f5b6debeaff0afb447fffedf1,
  0x35e6991514e78d85bf14eb5526084087374d38e88f84f8691c5710c4f89cfbae,
  0x2c7a61e115f93c7af30dc134dba996b403c87c58a0fdb8f09465d57aa43b4c55,
  0x44de074687b34f0fad3cd3943999f872b4a037a34542111e13b927e1e74120bc,
  0x5bf94809af586d834f2d797ba14d992917762052bc6f8a3a9761ffdbbe586aba,
  0x6d967f742ca157cdb70c5746f07726888cb5e7e1a458f5b03d71f2201afd0935,
  0x6a518b80ad8eec4e0d6bd35790210e3b5c5ee05ac369c992ce650bc47ebef277,
  0x48311655e6e735c69f290fc4f1cbd0c9008038cdd7e207c399a614b2b14cc4e6,
  0x188672651d626441fbef00cf5d503a56c38a26ef4f92b6b2dc689f44187b1e7,
  0x3951376218d7947d594182d8c79cbb63c39e744be6f0a096120d58a2d757ac0e,
  0x34cda7e39a353a80d00cb72d064b324a5fc1fe779581dbc3b09f011d4e34af58,
  0x47a39959de04642f0761e423f0f364d29d1d1304082e73ae6a511a9e862af646,
  0xabb9758a7550bdae9f72c130f6f97918cea803af4e61691bdcf0092692203a3,
  0x5ac4a466671b69767cb9a91c39f9b671bf604f0f5b57af338393e4ba13ce147d]

def cD58 : List Nat := [
  0x458145988380554bda6eeda76bc73364017e672803884acf081d3f9591a84ae4,
  0x356c9719c04ea8341836ebc1a2f0b67c66e2006b6cfcd63158713ec24d30c0f,
  0x1347691caee75e415e7e1cf789700372ace37a0f6b6186d828b0d5aadb7ad298,
  0x1959da7db5b5bbee3c9258d79aa35302a406e9486caf18f5da365dca133d8a20,
  0x4b32683a5560433d904dcda5c17be9b8947f293b4fa947495c90c2117ee65f52,
  0x22637f0a358e8d89912528dbc0dbab0f934343a46f229d60f6e9613dd36952a0,
  0xdc10009efd4a73a2079767d77cda46a3f8b9d102daf1aea30eac97778ec6a71,
  0x464bc847142fd829e4b3626fa5c9042124c752ef1ec13d5e66eadb37b05d5840,
  0x1f078795c416a5a6585b963f6b735fb3ec1b74f2f21df007867830b22209aa37,
  0x19a0ba4f06b6a96bad560a70cde4ff1523e394f3b39b128c854a17292686a4fe,
  0x3495da1d20c7485d52ef58528db000f19e67fa5c3c16ebe86a8cae93f2c19442,
  0x2d055a28c31f7a41e136735bd1f13cf1d6ee7db438abfa0cd3169aae929f1257,
  0x51ee0d7c33c4e0ecf3f67aa21abb5578a2e4f33b0da45eb195c8fd5c747d7e38,
  0x580ea9ec409ef30636d844cf51defae2cb652183a4eb9735234a34196f7ea2aa,
  0xc372cbe6b5bea1dcbad35cd219ae0bfc4bdc36c2be44e476f42c1502accf97c,
  0x127cd73bf3015646a1e4c11ddb22344d9b9649f4b56c56fe85e3e0021667bec0]

def cD59 : List Nat := [
  0x541100898bd802f045a4b6ef8852013b5aa49150d4156123a3a4310a6f2d133f,
  0x3d134f502c4239ca9d577a3db3fe9a5d9ddae99cb53616cfe6ee63096a82b524,
  0x72ae8d05dac262a026b7c57bbe5db97ba0a8e3d134c9dcfeb91938963f8e5038,
  0x2ee8917980ea6875d28965019b0fe51e1f147bc7f165ba63f1ec3f187b2367b2,
  0x3864c69911238b49e0a823c3bb0469bce951ce583b4f20e9eea6700b8a3908c6,
  0x6419fa7d085dc364c87b4d3d7b723a5c8e54127ebc90e1e6b6387df3c4b9ed4c,
  0x13b095cb1127d3784139bdb5b636d537b339bd6d29e380ab1519256de9f7f67b,
  0x60ee048c89ccd9077e0317b325c3d8e6ecae8c47ec4606ac4fb4f4716a342b97,
  0x2c96d9c3c006de671df5cceec4875cd48865f0b5cf5c397ec12ad3b31b8a39d,
  0x532405b2ee6376a2c4f734fa3aa2ee283890c1af2e8cd642e1b021cf2901d3fd,
  0x17a7c2bad19c65a2d3395b0c6ba2de9e1cd99a84180e24ffee571074f7d55cdf,
  0x597b0fc9c108163e2b55df98eaaffce0caf320491fc1d401403313882f5507c5,
  0x4163928638234489f9433db55f9fa0b001ea0a7a48c1b0635accefe0e5c6188b,
  0x39c9e1c82c1078300d1db7db40cf2b52c12662fa584b8b9d8b526e0efe67acb7,
  0x23fcf6811d5ff793c54aadb227b3af52509407f97e59c35ead1c5efc67d43ab2,
  0x346c4dd1aa56d912fc207e4071d59a488ffb118fde12c70ed0cefd8e17bd04e4]

def cD60 : List Nat := [
  0x3d8a5400f2c8e34daa18939a6ec1ba143e4d654e062891b76f3fac8975a6109c,
  0x35dbed6275e400f83076fcdf3cddc22e4e622c410650592e0ea9022079afc2f2,
  0x5a7547a5a1c50fafe733bd25eb95d02faa7403def53085c26b0a646155c55f88,
  0x15523c72187a80bbd7af61303b0f46122d0d9c964001cdb92c6bb271100d6675,
  0x6838b9a741474837b3317b2e8e2938717e7fd65f2e740cde7690cb5deef3a35f,
  0x67c8a34cb27f2a7032278c72572591d5ef42af3d32c7ccffab4d5544c5a102b8,
  0x260d491a08ea7444bd64d724ce1a8b7927a99db1ecdfc60817ca49cf790d3c52,
  0x318ec7ff810b1693d145e8140055926586f023d368d5b1fbd2782b2193d9ddf1,
  0x2b046c08816a299c75ad0d1895612cb9ed693ffe4d4f30c13d8bf7746060c365,
  0x4606e87298a0e2a6a0eaae9a7b45c5385f312f80fb454e1acfac00a06ecaf30c,
  0x3fc8a6f35c7e5e7e191a0b47993ab2b0341b953f211a99c6bc50fdcd0856f111,
  0x213734b5868f706b0c48f88e47a768bb0cd60123c56df4cb4aa31fb289ef510b,
  0x704989f03364e2cc8cdba990fa82f72f158530848471327fb09aef507c75f2b1,
  0x286b47f849dda483fc33e5a1730ddfa0847e1297d78d14ac9a7b90258cf75a7b,
  0x5dc658efbb60c1dffab301a3f2f916e8c9e3a0f80143253acffa354dc0f2cdf5,
  0x5b16dff69906f403916bfe3ea4352d2c588c54f291d3ebd91bb06fc0b643b21]

def cD61 : List Nat := [
  0x4298a73c68db4b97467e435793cf386590ccee9ce9df2eef3183a3030f4ef9cd,
  0x1913d90ab422f7d4bbfbaa3ebc96da61dbff69a0f166a10e293b3d6a4a42ef97,
  0x3f1764a56988727037a3559ae748dd003ce1dbaf17aa1dad6f767aed03f41994,
  0x1e0ac5e4a08a4785122e7633ba75201bc3d3a459d0fe88b96f4458de16f64507,
  0x215ce7c0cb1e136a1bd73bcef71067bc911d5a75ae1531076ef28b8d3ed8adf9,
  0x14360a5ce19496630c0bca58e7523ced51891629e9784a72c12b30b0db2c4b7,
  0x288fda0d7a9fdb0c748def6a033c719c76e4083ed586295ff847dd5e8271cb90,
  0x1d4a538d5fe8856c5e3cb6e6dfcbb84f19f60ed4f61c56c98087fed1dc193d39,
  0x62fd41a24752da1e45fb8dfcafc88edd8b0b19804a0d1694c9474ecb43584327,
  0xdb4756352d1d024be662eb2949752e3a1a5ebaf54287cd58bdc73f07c9fa35d,
  0x290e15fde18a3946153425c7f9f23ae97c36943f0780d66a193404f7628faf14,
  0x6b89969d555054af498eae6d8797f1c95f3d9ff49c693f2142954ec6658810aa,
  0x6687a7183c36d3718a222a46f6228eff99c666f43097aa8f6c25ded3d2dcdc52,
  0x61aaaddb58b427c1d6de50f357df55b9980e29cb3849baa0160680666f29173,
  0x97250df21a81e66274e102c0cd1c9232f6f71c37a70d3814bbbb92f786a34a,
  0xa11ef6a26d5da0be6a6df13edce8d80412d705836c620b6a44dff1bdf7d58c7]

def cD62 : List Nat := [
  0x2cc842cae0c034127b87f6bd9a2cd03134537474245471a0c80b8f7e1ad3acfe,
  0x1c720ecba83b360263e579fc503ad0ea164c1ddc5b6c81924a2ded61c9384044,
  0x3e71fcc66714fa4fa9e5bd4c58584c0c801c4c71e858c8cbc5faabed35851b03,
  0x1f7c359a7a4ce3c8650cfd44b00f438694fdb7d0488ae5feb8a019166ac91626,
  0x570d6fe5d846d08c2632ef430e105416d96d7cb808b46ae870a980a317752e3c,
  0x57c905eebc73fd977b09746fb21cd08c80ad52285807456adfc8ef62982364e4,
  0x54571c566e24936062961b004edd5a798d1a6947ba006fe6107485f0e916e59a,
  0x3acff4caa157d78cd9fddf146e232a3a5417af7a746f113aa3bbab27c2226942,
  0x5331a2be3d0ce6a685a35fce9d37c742bc8b3754b624f5f4f03a2fdeba9bbe7d,
  0x6d1b9f6b4f3a3fce6ab27e66ff1d6eaafb1c0ee398af853d1b39f22cc2020e0b,
  0x48410ba1a9ba88571145d69fe548877a5de19e50d6e435b446ad40cb5c539a01,
  0x6efa032dde5f1796033b1c022f43deaa5be47373e93a2ff3311f73565e0cc75,
  0x5a87f68d5bc33c83b51030513c7ddc738c445f754a45dab34d7c7b7423814bf9,
  0x6b97ec4818bed77e1e18a7cadfaaced94e78cb8f8c76fac927a843c627ecfc9e,
  0x5010e0312e6d2f85457772b8b1dc2dc008a1f05f1d5fea6aba413fbb17d80226,
  0x486875889063ef16a4bd771a333c7c4ba216b6b4a8ae7aca75dcfdad321e4dff]

def cD63 : List Nat := [
  0x6bbc0d1ebe599209b78174bec620f1910e726e195b1b682502968b08a25637d1,
  0x1a06530f78cf8f5ea2183993fdce3702b91f27229d40868bfa943895336dd9b2,
  0x1bd0d758843f4d0c25d1c20938bfe9eeb44fcbfce11aa108f9d5c2c5df41d0a2,
  0x727e58343ad6aa919a8b834b10c5dcc7655cc5ecda05c7c919a05e4438a69ab1,
  0x650dd9dbf9ff56be5a73ac4252bae3259bf7218d26c28985853b9d82197027f,
  0x6713ca79977a792e6b8def3b42b6a18331036e1cefde0616abb3eb28895f44ad,
  0x18020c917a46a049b6ec21f970ae05b19e0da24493e9caf49fa7df2c843478e2,
  0x5bc863216ab9a55ae1f5ad058cb674d2a640ec2ce10c4e25674bbdf908168253,
  0x704b85f8082def308dcf75c99a13af55f39fba38c5e2618488bfcae60b35f5f6,
  0x551bbc64186519bd79ae6323cd7222c3b40c719fec9423472e0d8c1d006d37fe,
  0x2f0db43a4f09b5ec919057179ef493ab7edabf15661c638e821c4b65a40896a4,
  0x4933b51f8e21896e9fd9fb5fdf50b9bb346ba9ba391f6609bae0dd142ac09a2a,
  0x572d28d552494b0a090dbf4fd53194ed046f4e738736d868581a38ae3e102a38,
  0x5e5a59301a2a23534f40f32b708cfd5dd75f77240b8cd67d35da6a96a193b096,
  0x21b6f61be124e7cde645b1b04d9cabab6faf1eee4fde968fb2a8263b1090da5,
  0x5603f8e17947f3f08565e307557fe8fa3aa3f530115e6f4cd01e0f2a1d659273]

def cD64 : List Nat := [
  0x27aa012a626f74b861275b2d4411f3905997fb5077d5d0965962549e5b2b2055,
  0x4c6b31db8aa881a538d482cd9e15594c038c22acf28e16276f6fe820922d5b67,
  0x655ef877dff8745e77eb6d03d8c63e0d5e63e76e4a80a9a0796df7b0ede0ce6,
  0x5aed6fe728b756dcb4d0437fa7ab50a0f7e9b387218816ab1e06ed8280609463,
  0xbe29bbc0f83b77aa84d94a6cde915703b6d71608731d3c875bdfa17f8d73e8a,
  0x39e81072fe74cee1ba794fa07c23868314afbdef1b510bf593c5ac4263017e7b,
  0x2cb9e9d7b311038e1fa3258f26c79ebb7a2901a54f6f7f9926903b946654415,
  0x1eecbbff12deb242ed3a0a870a36284351b98ffa4e425f191b5c3270a4ac2a66,
  0xfdb20126ce450d3a9da14ac96fb91c4f3b7c34b94e51b2206b9cc18171d866b,
  0x253fd247482c6b6459b9b85494d2c5c53391203f5e04a245407c064080f69fc4,
  0x367f0d80292228649315c709f3ff252265160163ce057747ceac1340e91ea1bb,
  0x2372a7080568f4bb5b79de17cbd6592927da5b64bff71ecee2ce692c3c5c3aea,
  0x72c9b106a9bffbf1d90e64ceef77589f42aa46d6ab831e1e5cc4ed580b276a48,
  0x7002edf6e75ab7dea259e86e0e08368aece6994339ecf73e78f6359f50bc2e5a,
  0x6549fb8a79ffb7217c6bb5743a1e19bd1dfc06abd6b49abf6a2b12c15a3245e6,
  0x5defdcc9f488908e2682c2f11434abb93b77719ddc6234b8b8302188ed14fd6b]

def cD65 : List Nat := [
  0x6e4f214280525c1925bacbccaff265afeb019fbd9cb7b4829e41ed80a9729db2,
  0x51a9fbf56e1875cd89a9747f227a31e32ce840726c2f5227e70f955b746ec5b7,
  0x4d87bb7e9988c0ee787a70ed465532d6cdc83a82d241e3aef1dcda671f893adf,
  0x132b93e4cab464315fce303ec403bf602b0bae77fe6a96dc360a6a3454513a4b,
  0x435a6b1824de26b9f80beb4de71f7e63fc4b24cee0dfb8510e1a3728f04a0608,
  0x37aa29dbc94ea987ca2bb6c62af1a702364be6e53779c0b7edf490f395ef0870,
  0x62a8ca23d23f62f6789a84d5255948e99343cb40d283413c26a4e02d1b151716,
  0x360dfc88dddc70b622fdd407c0a423b320128951d00aa605a0db5e88b3f678ea,
  0x13c3bc3b7ebfe97b5d95dcc51c75edd8603ddaf3bd26dbc89aa7b381972ed92,
  0x39ddddb944c8b5d7d5dcd78d48275ef9604bb3118b0aa224784ea41e5606708a,
  0x6260503e43daac063797113be5d70f2f72741317192a02536afcfbf06f7ae502,
  0x2327cd76e2eed99c5fe553e7b172f717f3299166d37e2ebbf425bd23585a22e7,
  0x5de3644df5fcbc0b22d83a56f3e0d29ef1eba424d270f54274eb11d4645c3fef,
  0x667984c0982d17f263a1329c0ea4be75b6da6715b42363b6e0220a915ebc3474,
  0x1d778dc195bdc81e8d370452f6c09e8de0ab7339451ee180793c65cd6c0774cb,
  0x6e42931addbb66954891a0aa6ddbc1ab06b01073fc3c004e7b8a3470698ecfaa]

def cD66 : List Nat := [
  0x3a40175c48a014424d1797623f034277f4e2d41cc6f4d4296cbf140b83948e4b,
  0x3a6c40ac14c46ed624edcb0b047085854680863d1bec9ca7deebbc5df438e8b,
  0x47b2ddf69011ecc0cef24e94c70cf6d15433218aa68e8d12211499c8441c30ef,
  0x2f3ac57d136932473f5616bbfd2864b35aa53adb3569b075f974b07c16f83da1,
  0xa6fad53211623b216ede92baf649f8b9cb9ff7cfdbb32c6da6af62e76b698d7,
  0x3320635ae18226a6b4e9bbc60429d2b083e44b38d8717b2203b4eb409246e1d4,
  0xd97b473fe1c93e06251b2dc8dfd6f6cc51eb2f87b9d41659e8d85042eae1a91,
  0x6fecfafb2502fda8968206a83863c8d367889a8b5bd0af0eeb17190f615a4d0f,
  0x588288d3adeb36b999550cf402a8f100c658366bffe34c3c53d51d8c93c3a14c,
  0x5915de0921db178d853cb58adf5af116f27f428315c3e2e6a27ba42078e562dd,
  0x32b2905ff004943ae8a46b5fb8d6cbe920970883e156747a7324f647acf8f239,
  0x37c879f4c342eccf465416e9e2b910590ddc5000f47660141cf33e85ce44b8,
  0xe10ed164af6c50c8e5a05c4b95785c852b3210ea479bf465eb242c2634f264b,
  0x182c8435a8ffe7bd910c52910805ed13d4eea0b35c2f46a682c583ac17476e2b,
  0x665ea4ed4e64c1bb50a6d4a7b977faac55f63811b24460c95046f4a2ecccfbfa,
  0x62c4166768628bb47f464ec8e3e8279ad96e50d3a4605dfddf0b1036f001ca1e]

def cD67 : List Nat := [
  0x72a8f0a1acdd38c1c0c1dd01ebe837b52953f7baf3331c21e3106d92a7bd50ef,
  0x5dab8af67efe00e0e42d9a93c3ef9f9e9101e28a4d610db1bc4842102b7d559d,
  0xa352036bafc6b09aa110c544bc61072ce46c23ab2fb10a1ad2fce7350066d96,
  0x46ab0fd0b62a391b72544d0af5707370c7a98a9d2af8d880728555ad44076170,
  0x8b82e6574d3231ccd5f9c93e5c6f6bd80369bfd1910d182ea3e50819c5c75f2,
  0x61933dc26277fb12d484063d6059c315e4c548afa7ae1a25be8fe038880cfed7,
  0xae4057515b14ec68edb8be76936eb7ddcb78ac9cee9c61bc49fd4848d5ea201,
  0x4ea78cd199b95bda08323119a9cd22123679b4f4399e69dbe836620c8411996b,
  0x4f029086698930652605ae21fb5ca656777ec0f7684a6c4ddb931a5da8f4d95b,
  0x36c8f672215d5a699b248fa9b034ed22feddc78a883ecd59747241ca1ccdd095,
  0x30eaf856d93e94ca857f5ec6833997bbdf02718a45c340c545cecde2a3d3dc6b,
  0x54a56961931708ad68d7620d59b609690c6b95fdfe52642df9b99ff12265db33,
  0x1c89853a5d7d1bd2d39316993ca606781ddd1d1db66633b3bd050b9cc6d2855f,
  0x10b3d34738b7cdac43f38dc064cbab7499aeb1dc91ab25f01694f02be82c4200,
  0xbc61f9f73ab2305b8fa80f5652671e7d722f270dc364bcc9b4fe53f169a8f39,
  0x58c4b9fa8873c9303ebadf47fbf6b6f7924211d90296f4d3bd553fd9efa778cd]

def cD68 : List Nat := [
  0x521a4aed5394444de50cd7509a3aba401218f8eed1c61f50c03a1caf465989c5,
  0x5262c5a90baaf710e81066ee0cbb096cce0b62622a5786c81bfda1e8b18964d3,
  0x5d34ddf928d9f4610c3997718df15a0fdaf838db87d34081e9f184307c1c66d1,
  0xd2a019e1a776470ae42a1ab71d1a28138e0a289777547e5d7e47dc34783d588,
  0x6f0bba1567093cacf394dffef4ea18c70307fd9fe6f70e0b300f74ea74abe931,
  0x2f233f1aaeb5d81b9fabd63cefd0590640d03a008c4903dfbce8d0e7e6470972,
  0x2e7ea74c13306eb3b5c7b7521028625da76e06a4470a1b7559da4acabe9099a5,
  0x34c46b374f782631db041d6999cf4602fe61be94fdbe4113ebc961a9c71616a2,
  0xa4af231e9a96e2c30c317a0a3f12b8d9c8df29e98b8a5f42ac406a87c132304,
  0x31f55a06eb10bf2089581e236b2592c860692eac7c416d3e83b4759c41a0469e,
  0x33d666decb2f52e630a8fa150fefadbf90b5de0f0b2e77f88490e29f87fa49f0,
  0x6ef1ff64c6395a5cd6996cdd7f6e7b34fa4bf76549ce9133a92134fe0e5f9a32,
  0x29a45ca69a2fad67fe8f0f6869b178a957f55f4883f69f23bb19f57c6d275941,
  0x26643274191b03ca4abb34e8b3a6c58307628ecc94aa52b5686c00cbf7303c65,
  0x1a201409073daeb967bee0eacffb55e1f2458887fbccd883fdfae1b8a557854f,
  0x5c92e5376a5fc24ad685216df6a2bac07af58d019c7eaab0d37fdc960223efa3]

def cD69 : List Nat := [
  0x325a82c733409592b8211e7f546b6a38ddc948fa844fa4a6cb4b2958869a3aa7,
  0x25f52db7d4f4a5a9d3a0116f1a48a61752a1a241062d8432e74888cc65f45014,
  0x557342667b3f2213f211a3de14f6c20b81004169f28284a42287ad55886456bc,
  0x7315eceedd4d821433512f9e2bd628b1bb8f4ed84e4c366170cbff8c3df35736,
  0x3a3913b28c04246179d9719aaac349e62617436aaf8fedff21ef5a9cdc86b00f,
  0x6fda5786d20a75297e718591dfc2e1df7eee01eada8cd3125853c7eca970fe63,
  0xb8d7f2eb9e530c881f849c92cce3c36a09b6dd573fa266a78a8eb26de17d288,
  0x188d7dd0637e0f69bb1c661abd58161eb41cd24772f282af7a22e1f40efba704,
  0x3e0be4cb8020d163526d729c4bdf42c6b02562814081df5dea73f6e08a625f6c,
  0x1c4b79235b99aece07c850177af8ace3c15fe2eb400e10fb8b08b43f55856fde,
  0x5ad65a19b57e981bb61ca2283e5dde74427341a9a8efab4c94175a9a5f33703a,
  0x73c7a19ccf45911ad6845f56f09ee8d2e881755b2d65f0c99da6ae2b111b48c2,
  0x5b2bd0c7bcf69fec861347a7d183c17f48f971a0a664c5ea7234e693076015fc,
  0x4128e8b4023e557e285c49719f3a40fd2388af2c1f5422a3197b3aa349fab250,
  0x455ff14e23df86f3c2a83fd56f186ad823b4235c52c8cd2156cb874b59b5c28,
  0x3ea94b3ce8610baa9bce2db22b0001f59bb8a3247922b25ccb12ee1f013211b2]

def cD70 : List Nat := [
  0x37adb96045570587af4c9284f80feec1dce134604796494c9d7285d6d09476b0,
  0x422e8fccae8d7cdffb3057ef1b964d3ac155c75b63aaab8dd0902f44514adae8,
  0xcf9585f5dc6523ef47f99dfaec2dcd6558bacd5fd82d39f773bb278cef8e670,
  0x33f7dabc2d104843025aa201f55b30c19e0287e11c672e38237dad23b64c071d,
  0x5f1359c9a6d0082ef90733112dfd7f31adc7795639d5c2b59f50d0b83ed16586,
  0x3247c8bb9303684a48aa7850421880258db72654614e6066b3558641863939d2,
  0x5d762789d97f5d4d7e1ef762b02a8ddd8b02abcae623a9fbe61342d681aeee01,
  0x85e2d6eb2a14f5f9e6691a732bcd8a751fdae0fedc5757c9dd234d2bfe78046,
  0x4a143db41e2a166eba2149f46a49541f84c97245ba59952dc791bfc7ad7dac0e,
  0x655d5714c7a44e86e448cf5cb3618499c9bc60612ce2508309e84a9cfa70ed58,
  0x6ba22bedb44837bed2b0d7c5c7b5f56a7708508ae727097ad100017989e4c0f3,
  0x5ccb5f3b9b007b4b2208ad548b03886981cbf47c357ab77de448089d9931c10c,
  0x19e70c5c0b3c6767eb9a522d1234181bfb6c7c7e806e0a91ff75659d69a290f5,
  0x29bfc0945bfdeb69a2748e07eb56bafce314167303fd6a41b9ce9de380eee524,
  0x4b11af1368f1f2efb21c3bc201aaacad29a7325844cf60fb7b6ae89a95269427,
  0x1b8efeaca3dee7be3c938b190efc70685dea48722d6b92ba68a6d79ba44556dc]

def cD71 : List Nat := [
  0x4ecdf6734a9fecd26bda538a75c98647a06053d49fe88511835a0dba72b4ccf5,
  0xe3f4af8ff859e518d5085e71e5cd39911a68ab6dccbf7c7bcea7757614a8fa4,
  0x2273e15e9035b04d08f0de53cc18cd5455e16d33ad38ce01aabff3424c8eb273,
  0x38c5376b8848c879f57abb541082ecc9e17f64d60aeddba04421e416c64a2346,
  0x59e626e6e1b59e6bdb24f76db8c4ade038be03d912537840a9c5e37fd9347a7e,
  0x10a37e9c7c1cb74c65fe0838bd5e3144710d78b10bc9dce4694d9bebe2c88267,
  0x72bae7b9d53e50f930c88ef2123f427abfc1c5a8797cab7629aaf24515008b88,
  0x60bb30a0a9d75beeca64bc8e426ca65aaf885213fc83432b8893ebfd64dadb88,
  0x4267b4b61a751982306dd55642cb63a5e1b5aaa8093bb065ce52fbc12693574a,
  0x6098209652e054c487c339861019fdd8eb8aa0243ce71e58a549660664f12a1c,
  0x70820c9337c0155f066e17f8fad66d5295eaf6c26653d395dd99eed28cf86b0b,
  0x38b6949a93a09e8bbaddbcbcd3f5b6d815b0dc9ae07fb2f8a1b01ddd7432550,
  0x586d36c68469eb2dd6c64e2479abfd6612cec1094ebb8d888ccfc1db1ac50d42,
  0x28a6ede5104bef09b43d5ea1e3ff4f2c2f0d7ab1f573930752720f8df816cf45,
  0x5a9ce50d14bb30cf548c56a0881871df604e84d1d8a2b58114033092b9720ab2,
  0x33ed63a03fe6f87fbbbb0083920e06da9b55e8f495bcb27a318883f9171ab959]

def cD72 : List Nat := [
  0x57b5c926fee0375228d321ad32e1fb4a78e2b0b72f8a002927de625db23c1e17,
  0x2136f77377ef8e564be61a97d968a75498b962ff2645b9aa2b345970f95bee9c,
  0x5debb98d4bc71414436e8b0aec10af4ce34b3ac71fae28897a93417814017542,
  0x4ca103aed053de0eac720fc118434e7f07ba96fcef531f59a0e408adde5482e5,
  0x62ddfca607cee47c75688646a9f27f829b76ed5f74edff45d3796c61c2d7daa7,
  0x2c7d2415b00e9db6a1e7074ee773cc9fd477a0823fdc87f7d532ba6c657d2046,
  0x4b86876af084385a5410e2185ada0820e7112043425d472d1d9c9e9e7f7983fb,
  0x1fe9ff2fa9af293f82b841bc29c1729f7d27666010ae5f9d414cfeaf594c4ba8,
  0x43fc18b2fdf7da1a50cf2409d10ff2226852130e6e9e553241ee7fe61998ed82,
  0xd6c2e419591db5a996ace397669734ed8e26472a8618707dfbd604af819c419,
  0x5b4b0c5d43c267ac8b44b5d0ffea63e084ccb6286b679e9ddcc231f86a486154,
  0xa0f91631b2407a89c9f65888a1b9b93966fc7832cb0873ab6a74837c33f5acc,
  0x3b26b67ccc8ea9056c339e6258da4a9ab44fa476b8582f9963b0beee1df9a30c,
  0x618672a197ac4051124fbc001d5707b00440acd87d6a2ef3aea3f240b17277e0,
  0x71c976cb83ac6e0e6a6f205bbfb0ff644a015e49c04393664484dad6560c04fe,
  0x1f723c94a49de61e687412541b807ddb7457f255d5b1ebbf3290e6f3af55e033]

def cD73 : List Nat := [
  0x6d8dad65b771269096d0e0b39f388f798a25c746f0876ba49de192911a4f070f,
  0x6b84c7c20f497e4451e43eafccae8c86439d9bbe2800c0b5c903e0c7ff475019,
  0x55a8c1a315e1528c3c94239b533d4c8c4171567953d545287fd52b88cb7fa6ba,
  0x1f9949bddfe7176ed42d2dd3dd38544b43ffd50268e3ec23d8c712e9367ccc6e,
  0x6c589d19771d90902ad952092efa4b6eb69cfa82c792df43e68f37f246238d0b,
  0x9c5fa0c5690d858d778fae4286f8654fa944b9b5438c104c4c67614abc0974b,
  0x579eefeec1157c87dfb2a1cdcfe32297c9c7c57c293d202a2a62920e81821c3b,
  0x449effb0c72ddfb6a03acb3123277e12ddf08f89645ae3d7246699331a9b655c,
  0x3872121d592e0e1f48c7a99360b13bd8b2a6ca2775e73806aef91dd682f9f94f,
  0x1c90b0061246000891de08fc18020a5533d1340f96a248de42a0e3216755bb,
  0x3c4b3aced656287ee663eec7da4a79edcaa50a13bcf8898bd3f9bafc2d1f0e78,
  0xa685b1ba88dcafbae9796a371032e59257ec7d19bf64c617f850b3ad516022e,
  0x3ff6066eca76af3d0453700a697cc1b6903319dc332ff6be6b7eeb97c04e412b,
  0x629c959c857872b24b26fcd60953f69c9cf2423eb69cd210d21fee51460976b5,
  0x191688560e753e0b25070ed327e60628c162de18b8a02fb85a0d1d444be14e54,
  0x27f91f05491ffb25be4a82d9e8958e40566a5745cfdf3e6c5e3397f0276bccf6]

def cD74 : List Nat := [
  0x265e75775fa3a856daaa3f541a26683b8a3af0be8285afa43b469757b098bda4,
  0x3204b45be1a0fdad7f94457499bc62e24b9ab2bca8a3ab7d2a3c153882d2a55c,
  0x484610eb38bce9213c536fbbf10ba249da812b0647d452684d0528ce80ff9ea3,
  0x6beca235e5b8628876f2a6996d1410f48d7df139dc461dfaffc6dc54be6afb97,
  0x21127d228aa83cbaa0d07d57f007320f370dc132b24d7c26ba1717ebf09d44c1,
  0xe9dd7c7574a246fb240cd0979550387e10284b042593772632b08dbf186f68e,
  0x3312d0ef58beaad87d55b0c327b173e9b304691dfe30c6fa007033262747fb91,
  0x602c65f8db0e138f697ffaaa1b408a83bd2a91309f6dcce212eeceb70733739c,
  0x56f7488b07ce90c77d82ed0386c3f7254f5c09c215d8407f7f447d1336ae9476,
  0x50f9054a09f9a30be0d44d2b105c1b192d86ed56240b36db92c3e180cfce937,
  0x350d674d6a077af8e8bd33646689b8d036e252053ff7312723e5f21859b9b0fb,
  0x5386fad6a5b1d4e699c31289be7ba8b6e1193361164962c5b4f2754092a0b8c8,
  0x3684c97542f55f96a9ce4a95e97050e493e2af09dfb924d40ea96b905fa484d9,
  0x5f7faa21cbca5af575e7e848b1e4cfaa4e197615189a09ffc59f1ee68777faf,
  0x4dc8cefc45498a0f474a77d91c14d9588ca12adc9776d189c118be93eb971a37,
  0x623ef0a29395a0a17a7f8f0fcfcb04cbe724ec5a529c152fa06e205f55df3a4a]

def cD75 : List Nat := [
  0x3b3c141847b6b068dd5f871b55725275e830c23d4bdea93069786218592feb7,
  0x7118606675bb80c7a960a643d9a36200e75a4fe204f70580766c82bc4c59fcbd,
  0x4bfe05071b9dfaaa2b32d2c55f93ddb1f5cd4aafac3f3532796921e798cb91d,
  0xfff6a9562fdabaf6559168f0318a857268af1f6eab223e0c960359d042cf093,
  0x15031b4ac202f9382a4724d1e1469026ed465727e289e2ff0fbaea1d253adee,
  0x738ede28452881cd39c8e969a47b6091237a6778bfb20e3bff6a514a065eaded,
  0x30460b23825622fd0fd13652e57eb173128a4247e626e32da426ebcc27a1267b,
  0x5076842d7c0631b693e23d567b5909ecf6f01d29a805b67fcce86ccd8799bbaf,
  0x50e6eb7b2b64a0bbfe9553ff6f81c7c3d104ea9e0d3ffbb33ce6ff9921b41bdd,
  0x24807452d8fa64a7b35fef587fbbec9b8e0851d3befdea35aa6da58b5ae0cf70,
  0x2018e1a53874036e3827149eed9e4b0e68850944f200e84f9a7d2e37c94a926,
  0x244c88d92bd16ab03561d55950221e04c4a14528b25e3002d1fb6ca9edc7d807,
  0x2bd8e2bb0b15075e301ee1cf5527c34db2b12e2a889e5579be9c5da0aef3a675,
  0x56dcae2eb48bcd217a530e0f2cf4b5452defabf8184dfccd51e6619e8437388f,
  0x3f3f8fe146811ddada47558b3032c4934ed5f0fe8f9d9b51f510e1cf8f4a6940,
  0xa793d0b1a22eefcf2e8181a370ec0ef58aadb4e0b70c11f135e999a23ccb27e]

def cD76 : List Nat := [
  0x70b3f9b745667ddb63950a5611dd9bf84b54e1e9d64f3cc24105cebb64ab2c5a,
  0x5a66e2e0838f781e247ea44212f64711cca18db2f0d81b8dcfc50d45947f78b8,
  0x1ea29ee853125e145f9c75b80adb26265ae015ed8e84c618960da1ef40e3c51d,
  0x30ff5597a616f45d6a29363cde1767cc1793996659c54e749ffcfa35763fd603,
  0x69b057cb382b0a7ec33a9c7fa18039960cd7bed535618ec103556529fc01b407,
  0x1a2ed8baaf4ef0640d0ed9e5fcd52c9d20aaa8943e32e94c0d1762fb8dddf6c8,
  0x109fe9ed6c52162cab62ec28c77741a80aaa492858df40b685b1e426c776d71b,
  0x2679d96ec4272ca01e57e58533f2ff98be961ed8dd31e3389f6b1ecf54db211e,
  0x3cba0718cc326c2506b7b4ca61f018184a2810e0e01d0a3dd1ff192656a679be,
  0x707e3f790b5d015cc36263859b04e9ad6463bf2127eacad21b040f3bacd72e20,
  0x9fcfd013618800a70c37911f89d20e3ca250599eb3195fc2e5062b37eede73d,
  0x14bf22644be0177252c2a584c3227953257c8c6579f67e7ad32d51b209337f75,
  0x48b055b7048460279405edddbb042fd38ebf8b984170923a71e1c4d876cc4fee,
  0x6ecabec04fa253839304a1cc1f83110998002df212556feb840667dcee708136,
  0x1d09b89603b320b2992c6b1d6cdea5225ae17b66a9e556e0bb2c2b0f66f57ba7,
  0x60a666991c4f18bce3db50c2518da3b45ee89fab70b16926431fbcc6c54cadc4]

def cD77 : List Nat := [
  0x46aacd0a8006e4d12b06cd396d3ff973d0572f2613e3b562afbe9f7234ed3fe9,
  0x3ef4add853ac4370bdf3d31daa3bae066b4df5c6c86ae645c959d11d2f17e65c,
  0x71f38917f165ce4d753fc575c4a090fc30b5518e5c16e4e19977a340a89139e4,
  0x54fb21e3acaa06f30953d2b09e34d018db9eff2f5ed7252f660d459caad62a9b,
  0x3cffbd0ce63a0949a17c03ee5b8a5c260e90fd12f9d2b8140779ffc6e9083606,
  0x12fa44b3d8db18559b1ffe2a3589c50ef1075aac7a90518974b757639b82e381,
  0x30b1adb215e9011b087fa14fa6c4e55841e6b77275d1a65adcce12c09a72a1a3,
  0x2839f4dc7fd363de79b9466d9533f1e1b16276b45f03bbe6c06fc26079976766,
  0x651ecac7a9cc5751898f903a3d67d7a642dfb669c846f1d7040b34ca9de2f266,
  0x12c490266272a89c004842290ea075e058e436c8c3ba41a8865c7af5256552f8,
  0x196b8853c29b79ab6d4f79a66331a38abe56d3218cec036e7ee08b71ad27a40e,
  0x6af9ccc4e429586e8bfd7f620a231a6fc86c2fa583504c08b85006ce4c841801,
  0x4a6d6c818ed0957f7c39c82b882274eeb73910b8c39f0fe2a17ba7fab0e69ba6,
  0x4b1ceab743aaa4ae664bf5b9c5dfedaa2e5eac1dfadebaa6f52c07029d306588,
  0x4bf4b8611bfe631d25d56dcde7e35a898423790589984e4b36da65765fcd2f36,
  0x14f82f0dd3f6f7dd70794a45b011079e179802341a8a4c0bf6aa09a19f31e491]

def cD78 : List Nat := [
  0x43ec0e1d5696f2ca16dbc91b005cffdd81452db1a391a58ca9027041e5f319fb,
  0x297623ca17d4b09973c562a9566e96ab3f5f2b2d86fbc031f407d60be0239f66,
  0x3df3947c7654068201888acd30c2e7bbf1e4d4c98611c9bf27740760a2eb9918,
  0x5d1e419667d62939590dbd0d06d95e49dc12e2faf2503e71bae202f1e0ed98e6,
  0x2da31b1f8c02313c960c12f307e0e49d62329e7e504d02dd39474f95574c9db1,
  0x1fc48336a59d1c7abf5caaeee0391bc9873a50141029b4e22c91aba5fdf63a62,
  0x599485bf80eceb188551166276782ad8a092245e5751232855e4f53547c76e2e,
  0x45974f81d94916de012bcfcc2559a4d3271f18c69d9d7bb2eed8983c995b0a4d,
  0x2cdbf82970470df6ca5fbd1e38dae9044b411b7b9e021bf610b013edd2d49d1d,
  0x5488310aaeebae6e103f0a7e4aee89bdb2c153ed1518aa5d1f88ed1d976ffd9f,
  0x1b4026c011c95a4ce48c3b357257db16951a9f6d46de01075c380e10bb443a86,
  0x4b8bac2392cd8417cf7391e38400f142a9a07672adc96b523e4f84ac31b80f70,
  0x6639cc65f3d31db166dd2767f15516c44812eecc2ef4e662afaeff18f75a92b3,
  0x64e12b53c014eb800b37a960f44c89c86c2ecb3210f2a7801c75b82b3edc3a66,
  0x4e04850822a8ed3115433c3065d88898d11545c23ce00fba4fe000dd37e454ff,
  0x587b67a6c3947860002b6c0c04a62bea270ec8f306b0f91d2244915cc161ee50]

def cD79 : List Nat := [
  0x3e2651c3be9fe02c3f147e0bdb6a41348eb22d0fd7db321dc13abfaf04bba504,
  0x4fe9872bc1a84f4985ce7dd1c8d31a93364ae008d2bd140a61e33b9bac68c209,
  0xeebac509b7626792e0de31a056a6065847023fb74d78f59915dd9ac9b3984dc,
  0x376e82867fad3f406514dfe89c427fe8f5ffcbb0b73af7c5be8be0339a21a127,
  0x55d6af8c37768dbde0e52660d183d7a3eb17339942f112afb84723cc59920f9e,
  0x213746b9ddac2d5512cf619f3e0ea8a35250b92cc090eb7b6c438e4b99e47edd,
  0x20480a6107995d167331610de73cc2fe826bc18e4af840f74c52bd632f928128,
  0x4aac6dcafacd4f55e2e27b07b66028049feca4095c24d61cf72cd17187f0963b,
  0x4a987e91da6f3d2c036e3eed29da7fb77ae360aa5feba2e67796ecc5d4c05779,
  0x692cd24397f5e7b1742b8ee3946a45ea6812956f09f6e306e356fc768f82c2e2,
  0x6e4ee16b82037af0804c52f78259fbd2af396dd597e59c21ed8b067830799c6f,
  0x1bcc42c8665f4dfa28916477593d4945e900dcef6125c2d4b6ff2f5f3bb60160,
  0xd8bb68c786010a51b371284cbb9ca9d6f62b2c4fcdf4530190f1f89acb241e8,
  0x2d101822501af4076c3d09fc4af3aa276510e0739fbfeaa74ee7da0cb0af813c,
  0x2b29c4f15f3db043f67d8225b885d09723d32b1d847625e2fa84cb39d8bd3073,
  0x70739898a4a46088ad893eb812b08555c65840566ec3ab969e3c115bbb0967d3]

def cD80 : List Nat := [
  0x1185c94e5233f8b32b449071866eca77298617be8779edf379e716d825c6f843,
  0x464c2b74c3c151d33828ac466e4fbca541c5ab13f2bb61fb8cfcf832b294b30c,
  0x18fb0975999ea577e9bda8ad82204f01b4ce8f6a1717e79c92eb225e1a022139,
  0x4c71e3bc96e5cc476bbae22ccc7fd1a1ca94505b835d1d2921191b862f58075,
  0x35355b16e17c6df2b8c71484286fd3e7f808b3363ff10b86f7e2067d4b23e4ec,
  0x6ac70838d9ae758779f278daacd24390ef9b36bfe4791e479a37fa482b85a767,
  0x2759a15d70d3b81fc183814245960b7260b8555a27bd9a54d0b9e18a06665b34,
  0x69f66d9c32377059295bc02f9270d4080a6e1f7d6356d141197bda7d328a9cfe,
  0x6bd14e0d33718a50aeec8363784b9313c7cd6f069aad8136855a98da969b4441,
  0x2e1a7c416c33d96bd362e6e02c21a3aa546dcd363410d40e92a26c7d90f5d0b8,
  0x51de85f14f0c5053a71ca42f0e2b64f7f37c55ff8a870e5f2a77e95ed3865151,
  0x65ebd30588d4e31869a9a9637c6f978034591327287defb72b52ec5401c4b4c4,
  0x464b06fa87984d4fd51589fe18f0a116bb474821e7e2d41a0e5f270e81c51751,
  0xab8acff79b5a17c774983f1a295272b81918406ac655cb578c05958659c7c86,
  0x5eb132847ce3a4d60955c3d748bc73c1edf7790cbee1b49d82acbf31e9c3e70a,
  0x272e44e65089e5625ab24bd45d2cc308433c0c5792a043858a3d52e134efd3d3]

def cD81 : List Nat := [
  0x6ec57af922afaaa9d2bf83c46d1329716a29c2799afb32555cdd98f67233b349,
  0x73b340c7495a9c6fa364d81609bc16dc54742e090c0bb364c5865d99f806f151,
  0x61883946be8d90d5f0872165cbfeac50bcde8855482da814d2378f63a0ef30e0,
  0x5a9f0cadde0fb927c35cff37651b3dc93b41b7ff189186859d63d7e56a1191a,
  0x65aa16c5e317be482430e0f9ad6221004d691a0da82c43b2883f133dc80ab5a4,
  0x125f1f0590d2149820a7c4d8f95a8e21a3b9f9a2b2b87a90ffe4d94211546937,
  0x3b4c1e3dd8bbb5a8e4684db6fdbe7adc452dd602a54d862aad022a253255f999,
  0x450da0045c511f4f81df0ef6ab60748a2ccb8b2c2611b45822224650d4ec03c1,
  0x2e5031479ce11e2ff8eb3b6666d8a7b1bbdf5f5ede299e55d908d62bd2c352e1,
  0x39743af6514dbebc2a739c5838f03d9bfa0a2dc56434f6f7522078ef03dd163e,
  0x68a7820ab15591d66c8987555e65815a8ccffcb3e8dfc0ec1eea6cc1668bc0aa,
  0x12cb151ac336bdaf0a36f314a56cb7b96e14bad0f322ccbfe416fe6c332a625b,
  0x403491f3d0a84f6388ea41105f3eea3a8c2e9e965d3994194a850c70f7f2d590,
  0x46203e997fcc8c718ed95d8acb002118eeb4d8ee2d96ac2fde012a15d89cf2fa,
  0x2af396e9393215a7362a9c7fdb7f70ecae02ccc583bc04ea79cceaf46f41da90,
  0x3a727fbfa8bdb95206cda793365f73a0c836bc4cba584441b64435d388de3c6d]

def cD82 : List Nat := [
  0x3d5d290eabf4664bed6441da75bf8a2307811db4a1d0b406958a6877b2d15730,
  0x18433f79f624516f934be17ef09be96051c112ee31e960d7f25323dcb158b8f7,
  0x7063b9ecb8a281588426f78b1913b0487c88a7ebc66a9637549f482a9a312e39,
  0x2ca8f36d6fd4debdf74a0c9cc09e574074298042cc8cc1f2754f7d916afccac9,
  0x50bc747cb9679888f27b9e062982a64200f9ac2ac37c9232144e998e12442a70,
  0x2137ae7a7df2d4ee8b0eb0ec85c0626a765d184c9386bdde60c56b0eff3c0692,
  0x48757e819fab91821302405d5b517ea83d3bbfa6137a860b9da2d87e3fc7213a,
  0x1ad446a0d9628dc21d4b23bd31eb3e41e5bc922f5ba601585f89840891277e61,
  0x48c0af9b334a81c0e8675e356b3d7d26f6faa2fa7ce06ceb0d95950f6ac1a782,
  0x2520d9c353fb0d8db67fd8ec5c7f30daed6075c625e5b6e969b4ef0a381e71f9,
  0x3dad3bc9bb47523a0a8e372285f256dc6f4d890b3627447dd6cf671dbd5ac9a7,
  0x4d3799524403e44788e5ee52d1de434273ef3ec9b0a2c1b25589f21e6c79ce6e,
  0xfdeedb994bc1a2d46f348b758dfa414ce6fad960f3786ba3f0410f7d1ec06ae,
  0x10ac867a70fabfa462ab403cdac75a0685632dd566bef654cebcfdea0b9b6fb8,
  0x6e6332c278166ce8ff61d7311013736ad1f1c6e11f422f88fbe39dc2dcf9e3c7,
  0x6369682a46adb00614187466e4ccf780aa2c6ad6a79aa3baac99f02bbc7fa58b]

def cD83 : List Nat := [
  0x36ac829b8690a455fcb2a85375c44d9ade7795026916968b25892f6d16a9eb1a,
  0x3f1d3a93c29ac106f02c5c8423a6d933436d68509e58a49d277e6c019b7c534f,
  0xee97d502bbd8bc40abd3727c85aef974e1e3f61dc52ce4c2aea560b04c36687,
  0xddb17b26aa36e868fdfcbde48fe76bf198eee89e88a3cf90050e5aef711bbd6,
  0x506bac81da30b8bb0bfd20af825922e522bfc75db7299b1532d3556edd91bd00,
  0x1987ee160b1e05ea4e742af24620c3811c278e4ceb31c631bceb6ae1fe5ff9c1,
  0x4ef1cb2952b7e41eea0bca2cad4e2853a9042fe523d1b158dcc5435413717295,
  0xb88f6b11ce7d88adbe26a693b87bf88fcc42a3aaa3cab72a44ee72d8b0aad2c,
  0x10e1d54b7b0a3a21207dddcea4bb190cbe5ab7039566051e0f37022776c3fc14,
  0x57fea3d5b14ae2e56fede86a6679864effdf82e015fb8e165212a27e4b75bc2d,
  0x1c1490c4c7ed2a559a6d23fe184e9e06f4558e1ba45e6ba73dcdf1f3369d92e5,
  0x5d6c36941ff1123761f8d1d4a8c0e676c422102157fc7742b1f7e635a341bafc,
  0x1b81a48f185f6aa8df9c12ad9e01d603bbf8913379e0fa4a89b3afd13e3f2874,
  0x6da4941d42d35b0f80b1627ab723c5eb16b2994399c2515027400cbafb53eafc,
  0x59afdd2ac280bb93fbbf2fb406a9ff741470868ae63341559cf362d192fcc94e,
  0x270e169bf69172a41d881c9b24ecc50e82d6c2c9ba847fbaef1baa1fae85053b]

def cD84 : List Nat := [
  0x4a67bec86ac33b2e7ddf99e573fd1325116631d1b7ff40ccc2ac48221a1d741b,
  0x619e205e897799da643be6ecc872123cc36879b7e570845677e2e2c0f1fa6a24,
  0x5d5dd4593e04565b42ae8a5d18250a577fe15bf8b9f7ec0e8e76202af0c891b5,
  0x5add725db2dbdb49adcf1d00758add256ecb1b48438c3b66772e20e4e827550,
  0x46c1569e85de42e0b0f4f82958b83c7499b1a2e7b4343f366917c2921201dc90,
  0x2efed12b2fc8d36f9d94d62d6d8ad01c7aaea611205bc5abedcba36a0d5774b3,
  0x25c955597f06b1cf10e8ff1ea6c9582fdb0694f3460c3324aecc1903a404cb9e,
  0x1af69352be411eff06152341ddfb1333d7e10b9290844bf80449dc7f690f645a,
  0x5a23afac00632d605d3062fb266be6cafdf0366e433883344b181843a200d0f9,
  0x1861153413faa72fa849ed597f5a131b67ee20686077cbc972cba17918effa13,
  0x5fabb2eedf401241b7cdded77a143a602c6cfa0dbf397d6fc630d0e92ad8d109,
  0x2adbc6e80274ded8bf0a664f44f40a037b73fa3982cec7abc98c849a9aeaa2d8,
  0xc0660da7bc025699482a94d58aef8e40c4f980315b5a2b8210f7124f21b993f,
  0x5323ba9dae5c9af778e793e034e39fa2317aff0b5e521b663dcc951d7fd2dc28,
  0x60ba680b4daa2c157683b4b435d795ebc64f8fe813491249dd59b6a1cea418bb,
  0x3a277b5c6b41edb82a693dff746ade69629e9072214058b4b23e8114a9db6647]

def cD85 : List Nat := [
  0x4e2cf08a270a0cda09d9a79a0f8ac4c926ebe5966c537d7b0ceebdf4fa416609,
  0x1eaf7bb1267b6442f05ec42e919e324d1c4b0d9bb1d0e7626d8607a433fc1ef5,
  0x1e266b180deb4ae4b05e4ea869a29c7940ab6cfc64d465e4379f9318c3f50290,
  0x5f185d3b996a84e7d7783ab814d3554747f5af16c4f07b447035a2a49d08083d,
  0x56b9d2f8be50168ab4f1cdb1dbe07be9422295ba448b1b3505d766d26c034b48,
  0x2251512ff118ccd17b7dfc54f64c952548cdf7ab02767298bcdb322514df353f,
  0x263ab09c9e88afb832b68c6cca15f2c910177f36eac65297fbdea96ff9f6b022,
  0x30978e36c53a1cdbb3aa80d51446f013e3dac10511501f3dc2de7b4cb645b3f2,
  0x4f46e46b82ada92672bb4327f3bc647108c7ee3136bad2b65f25ec303c75a14f,
  0x45a91edabd81dd1e773d21c34f6ecb180b9bc2109c7d3c850fe494420b83b870,
  0x63e58f033620efacf1f3ecc8e9b7d127343395d53bef12c58665e797d58b196e,
  0x20cc38d6d0fed4c99b3955b0eebabc261c3bb92e7c7da92f3fd6472673e2527a,
  0x2d3c481366c990eb33207a96083b8d4ebb7be65aa9e2794dadb79da7d199e34e,
  0x266b9afc1575cdfc3679f169ee7cac8ab7b5bbf90f7407d32c5d92b6b3119dab,
  0x5b32660d228da499934397df905f634bf5f877ca3cc2615b07507ffbf2e29322,
  0x3d5543d217d112c5e9ba50ecdcb135f54136ac694324eb3d11bc3dddfa7663af]

def cD86 : List Nat := [
  0x62004597f7a20fe4717aacb9079498c0691b3e0b92ed97992a44ca8b744787a5,
  0x3aeee06500b30144fe078f77cb783ff8029860c3fe34f3c4446ea42e737a3465,
  0x58828750893f0cb8256d895f29fbcb921539ceafa3f665e5bca505adaee77e40,
  0x68e46e48e91ddd96aa093869ac8b837dd8b4d545f3dead8fd7e25d20d55ce6d0,
  0x83fd84367306e2b1edb203aeb6d9c5898240463b16af31776e29803b83dd5da,
  0x2899a951b3ab60e29bb8e6d6525caf56ebc477b91ce951e11cd3e76e831fc5a,
  0x6f850b99a8980b463a82fd57aa48ae97a29d281248e113c031c237dc8717a105,
  0x4dfd6475646978f730b813fb99bfc4f04ad4be6439e1fc86ba3669bdc6e4230c,
  0x5f0574c2ec41632426b195e1642cea84a608c2479b40b6b8e4a85bb0a511f12d,
  0x738a1292abb8434ff16a18a1d508fcc34c3923ae627d742738cb88a59c002a5d,
  0x3545ce7fa1bb1b1ec3368392cae09587ef3f5242fb575c998d2aed5b3cdd9a23,
  0x3b0f7c8e8c73cd19ecfb780889623c2826fb1d503044d44fb9c5baa9eb94cef8,
  0x3092db4ee3f5b0d573d47ce1d7b993c60766e061c49b6c1ea328c52ef644f6a2,
  0x56b5d835d1d7bcb6edc6de8d161a971b51979e8384ffed764b4460946a9e4880,
  0x5f09f1321d7f1680e1f7ebb7f677a5d489912d47bb14ceccdbb898ee369b316a,
  0x14f55f6dba81894827757f3d5439df2fdb2983303ec9d613283da891ce448393]

def cD87 : List Nat := [
  0x20ec0c75a503ca482272d06ef166a4a230810597e5e6f02257a2c101de695435,
  0x6b2d954c2f7603d529d93a3e56f17f8c666332d5ba29c8bc8965ab346fec9171,
  0xb8f0591c6fa55dd342c760d9f08040d4457374a04585a6cfb49e3f01c735fff,
  0xf392f2e7cdc65e410a7da20e0508fea62cd6b474fe23e80cddb8d70f766df7b,
  0x22ecfecc4f0fd974b6a99fb5000a38f38360360a0ce251cc19744cd22a45cab3,
  0x54b0aacae793caebbe9dd510447271ad3a6b7c6ada3293152063e0bf35a747b8,
  0x58b536ce9ada9e0cc97c864803c1645cf865b9b8b4e62f69f8464b69ea22995c,
  0x1b2c8c6370c42c60ad1158f35b4cb4bfcaf8919bb93f8252ae8b51c80f8f3787,
  0x82b92578148361e7594096de03015f43f2efeb5ba385fbedf61372ca7fb4b56,
  0x11861e0779cad00e14424d7c30c3775e3f0cde360717aeae4b60c319b1d4b118,
  0x299695c68d811c5f5275e612c43377fb04c2cc1b8d02cbe1e6ed9b243abbb631,
  0x38358ef48834c737b23c8ce93d8191436a6bb5a9bf94052f83d296ff7a078db4,
  0x39be993229b605ddbd55f8e045c893f6afd7c32e8f69fd447f0a758ab807e266,
  0xb9da622f389c83093d7176936677d3541e3ed7d02150902072f82e073c15163,
  0x3f552cd8ced23f719393b011692643c9b9afa038e199511a12c22f009c6e51e5,
  0x2b87cd7535fbcb460f741acaeb48de939c99cb247f0bb2336e995ea8825065f1]

def cD88 : List Nat := [
  0x4b0bc21beddb8759fb4731880c844cec07b65dd2348e9f1a151a849192ae26d6,
  0x6e72d253bb574b0bda7e06598760628a1404f7f3edb51b02f7ea5110a2163bfe,
  0xed682c2988d740af89627cfbe6d96e96414089a5bf5b9d6fe43e8d22378160e,
  0x2af809f29cedd9b31aebde1460172c1ffccc4e8f860bc6129ba8b8476a738b92,
  0x39ad6bf5eb7e031a209368b85a7e25c9b0a6b22b97e512cca61c9d99f104ba,
  0x961f245955c4f1f978560123f9ecddc82ee325c67fc1770849de31bd461f84c,
  0x3e457b1a19401dc0da647911218ca82cf6b553ef051197574c289405ca57b3c6,
  0x6f1fdf155040847c49386736f8db22a9df87c4a1041c17d2d8a9c6c953c8c8ef,
  0x666778ddf77b6f7aea1acaad5e1dcdce49ee7c6a5f2b5b0cbcc4f744f1cede4c,
  0x5cd9c5a7ec9e8900f6e05b356d087edc9662fba3e91dc0b662e1933f6cb65fde,
  0x1820c9006bdd6f39d5b9a74b0cb4d8a681552d82782e95264bf8978dc6663eb8,
  0x3332748bf6c058cf026b2b511235fecd172afcde02785e1878403364c76dbfa1,
  0x169651498a4b70a182d86da784804fe1c8bf9e0b23cb62f177f14b66a323699a,
  0x49594b1ed885d0c1c5e2d7038bd9f2ff92b887fd8e245a2eab56cf252786e66f,
  0x7324b4d97d245def9fb07f931424e406185b4497d6186251c1db5841754b3d36,
  0x2e48b66ee97c5778f00913114dfffe66566a73e0196a6770db254abceae6a7a2]

def cD89 : List Nat := [
  0x2dd6c2b2ffed0ebd3afaf22d705684df1813a29dd515b1737f856c182f8ef421,
  0x16369f65cc25181b13d964f9681b241a36bc15e8a2f74ca65c3ee273fde13f81,
  0x401e39df169d40dbd1fe692239fd6106acd4e0d7d8006d4ccbdecd325b09c26f,
  0x641ba3a01b8b89f4e32ed5d18e376cef9f74d198f321a5999efe5c8e787f6cde,
  0x46fe133ebfa32a5e7c4ff3f9eda5c466a9e4530b0b5370645f6323a43081a99d,
  0x6464ae4da690b687ea8f4869a65a3800efa0f639fee9d78145e2070f129f54e8,
  0x380738ec28b0108b511a51658ad907b1c813c6df0e0d67c51421b1745320b138,
  0x488d5c17de8cc61236a315cd0f1207dad69ca60822597141a0794eb95bbaab3c,
  0x148b3893c2f67f4b94f8c63e3e2bad92d2ddbd77c93f253ddd64aadb98e2c04f,
  0x4cbfcf8946c832bd0fa00a890d3bc6a37639258b6ea4c5e71a174c664aa3823c,
  0x36dcac4fb5919a8d51d1d945a25f4f2e10bc61bf5be89f8f2b8ab3042bbe8c82,
  0x4154be797a1e14fd30dcc56dd0ed87f320ec3c6677186692fdb7d3815ab81aaa,
  0x2388a04eb8ff03c32cae9a2f98783019eacb3552aea42cdd2b69100f30eb1c78,
  0x32faf8c32780fb991f2264402d7ca30eb8964d84347b79acf7d6cce943f988db,
  0x1ed8b5478a5dd9f38e9652bc3a29543618d1863534b1117f7ca39bbf46230189,
  0x5ee00aa25dcb874c1cb193ded18764146babb8e771f69eb6c3776f2d31d5b6e5]

def cD90 : List Nat := [
  0x3ae6e0d21ba0e3526aab29a9ec5b3ba6296a6dbb24fd26e19f3719b6f52199d2,
  0x108d65128997e8cc7799c664074cf9502f86942cc6f45d3507cec20fcb8c2bce,
  0x59c15b5389116ba78551f77e56525135535f17a33e0f64d91a496f09f0c78d80,
  0x502bc406e684342c2532259c41f56cdbaef35631e6903b0a853e7b0980cc78f2,
  0x46c6f4b02a161467dd023565023df42ed337535987ac81a4c80b7613b1af6047,
  0x6f3c10773d6dd4ae0c15f8d368554c5c4115b0d7a5126cec17e8f6207266d37e,
  0x266ceafd34dca844e242f30655238452d4c3316377f4f44f5e2c1ef2eef3b824,
  0x2a61723d52a59da1415dc02c01341ed1467cc400850728ada7300d8049f9ae3d,
  0x29091717fc6a25e088a2c352d92d9f6457373f1bbfaaecc50f498eb81f2c7b34,
  0x700bdc17b633d64b425f2f4c37ab4b8f660b865ccf88a5491721ac3c103cbf2,
  0x69bb6187431f5fb35c3bba1101660d5071a3c157b6742d1c8e67af800a16d2bf,
  0x56fa99f97bb944ff64decc3de87b40028f074cba059d9210329151147c87205f,
  0x28820a6468ab121b8d47020fac3b3cc20b03060835c7fd8ae5e31cc549a0f6b4,
  0x1b7e6a1b48e7a4d01f54a457a3aef3cc035358a7d0e2b79fd1123651be15fe7a,
  0x1a6426ea5b3ba74171cd459eaebad939d7b4200ce78961fdc4024819d75729d3,
  0x2de6f0155c54788d42c77e02c13a0da3acc5c9a2f31f647b2ddda84da1a7f149]

def cD91 : List Nat := [
  0x5dc21051007cb17ed9ae85336210f2309cd612817d14f4bd73c41d64b91db8d5,
  0x2e0b051eaad150f41bbc0dd1568ce8dd43fc3aa6c0c6bb71b39d570b3c41b6af,
  0x1bae5da29fe8cfa33bdc0abb033f02fc82e8336a1453b3f4c1002b4eaf8bcf9,
  0x17b802abd8770f8f96f18f868f8becfa27c344d82777875077ecbaf59fb31d5a,
  0x20755f12f687841705dfdc2115516bcb30ea09ce48ac61595d0932d232025369,
  0x6c71147fd6ded5bc5524ec579b3cc4ed676c3a29bbf3eb94424d4d77fa2ceff,
  0x1ba66ca9606cd26bd77784000f8f8f198ef8d62c6eb70de473d97c01444a9af6,
  0x54bd33e637e2a23a452a5bf346483d21ce46d6a6a779fd83913904f674e68d5a,
  0x127d1975d6b852162db95144b10479b88dd8dd581860776823f53b02f815dd60,
  0x14e6a7c149d1f8242b9e26cb4ebe53c28a2b954facc6d4ff1c76fb92efddd32a,
  0x4168e10e72c30608a1ff1ab910ac3a32097d232a1ec86db56cd365b47ae10650,
  0x5161044b49fc3875b086172ede3e7f7d4073d6fd020a97252686761d9ac65030,
  0x4dc60d10af451e58fcd8e58e2872e9e7d46b01f934e12e45187340a9e8268880,
  0x2621e280a70a3268fe1f4abc82377e80fe7a91d653817e30758fb0fec317c8dc,
  0xa0f6bd5d84772e936bae32b0c570c1fea7e1cf484b38c3a7484c69be93c41cd,
  0x174cd52b5eb648b021a7d69ee388856a9be024af9268bf1a29be4898770e2c8e]

def cD92 : List Nat := [
  0x40cdadd5db30829c0e864c2cb6b5460943cee8b66ab96ed1afb748f8bb8d96c6,
  0xc4e5487937669c854de15a2de4a7978b88c47c1ebcf3f6f724173f593e5aeb4,
  0x6baaee65b9594ce44293d34bdb458cfea4e33d1de6b0aea058f1abda0e9486f4,
  0xb66fdd93a8f6365ad516e308ab501bcef4f7228e14403d989b40d9b37e0d2ee,
  0x3b8895b67709003dc64879a1ba5bc0142156d9a3925bf256a799de415260541,
  0xae6febb29d5542fcc91edb0f3a2ba9f3db7a0ce8fc6727b759f31a1c0b478c2,
  0x32958c5f21054d1e46620cee71a3da5be39a6756ed0e4f2f11c99f66055bf578,
  0x72f9ae112f4703e1ee1cb9e336d486e65cf89124ecdee64656e17ae72729d914,
  0x6dce443304f739976db5f2b7438bef2d14f0ec24a735410d4b741c9fbc10c2b9,
  0x364896a7c61af639237a2b941cf418c6ec32873abd5636007ce4bb4197e3fac4,
  0x428b15cf46345657e2b66c829d678a8a97b608a3f5d25c2f042732200c68050d,
  0x49d131a70308c2605d84b896988d2781623ad41917ad6fcd24db7121ccfad3f7,
  0xda814edbe2c1595829c610a890185e729f7308cc25db200d80b1e42aa3346a2,
  0x53678992a9d24bb5ed087adb6492ec9452c369a5e4617349f6c7a37c3486ecff,
  0x59ed78886b9f787fb3e9d55594aa7c3775aaaab326ab25bb97d3b3a4ff9958cf,
  0x7e1758f0567313b5d549c9f1d42668fefb0edc487af17a5e3148390a4a67481]

def cD93 : List Nat := [
  0x51d3f5295f0a70348102f265f4e30506010ed903e9a7517446c264085ac87981,
  0x38215c2d552900f215ccdd4f494a16c19bcaca33feb4a4f8a3af945810fe0870,
  0x4e24c0b52b823df2f2842819cb3effa9d6cc850cafbbf7e526c3c9cc9a27c37e,
  0x3ebb4a1aabe682fba1f29900010f73646bfad176dadbd7adfba9b59b7e139ef1,
  0x677fe9d474660574a11869ae428b53216f168bd71430f22e1914e98525e994ea,
  0x3cf22adcb8bfbafd31e4baf100fdd0cd16770f5e8e053091a912adb10465f328,
  0x6f4981a365ea87912fcced774aa025ee3dba30266cf7ec48cd65c4bc99da67dd,
  0x71e26e6d2a04f3050cb552e6f06abd87d8433f1d619ef17ecc42e781ed8f6eec,
  0x958b62b8fdae36b547682397b7fbec00c839e85b754bea45fa9adc0213fb9a1,
  0x31a4e04e7fad381466cf7ed30e7354880c8389d954438a1a0af1e6eb692a8094,
  0x15d92448c2bb69d9260bf46c4734e015afefaa272d2d66642111e90f1cf30065,
  0x3ad32614c42adefe745f3a7cbeb6963be4aac2c1419759fa24b605ef10d75938,
  0x273e5c7d24ab622a8f4061699a8dc682e73c74a101639564a66d39b424a3a02d,
  0x5c8c18093fdfc56c88a55a6dc2fd984f254f1dc5aef02faa9f1a85f41c6fd9b,
  0x65ff787158209b044f31e669f51b90f0271e43040f90acea6033fd63a17ad50e,
  0x40ea5f029661108e28e33db0d03e8e94d431200128f461c487b9bdfafac50edd]

def cD94 : List Nat := [
  0x98a0638cc7f5125b73b4b42f6181c9a1c1b7fe078bc98dac6f91ea9c94ce522,
  0x6422e95f841d5be89478e02c6ad587a1b15e576475bc9aaebbd3ac7077df6db2,
  0x34b6e1c65e1d9eee2c35cbf9560bfedd2634d600a0e431c6c9c8ec5bdb734eaa,
  0x3d01983db5acbb0228c6384b1ac8435812ff9725c3533d3ece088a6344998a1d,
  0x3a67d0d9fd50b052a60464a4e164d41d0e8fec530b76c1d7723f1459d94b13c3,
  0x502fcb1750f5e0fc45bd373c9525da985e5c753efb2fdae5118c829883798832,
  0x630972937d68e30d5a70b9e7db1e3f9cf52eb5b2fde722aff2c65e46320c8c10,
  0xbf603520b1e26b6de349f686d49a8a6447e86dfd3d2a34e62a5b59ff9342097,
  0x3b3dc50a72367bb0124c9aa76a88f068a1fdb9549e87f367eb43da725233a1e7,
  0x1ed4e8c906d606dc5ec16cfd45abd324d7f972614c1de5eeb51699300d824416,
  0x3b24c04abdc40b1272fbb81ac106cf20073d09055b6aa0fa8e27feb0571e0514,
  0x4590a037f9d9090cf465d1342248b3e20ee555c29f1bb71fd6c42f85c4db06c4,
  0x6d2de578cba3891fa2f87d8c4898c67d84424b91b0ba4b1e9d732b0046495eff,
  0x3dbd55d0e6998de48761dc934ce4eb5f5bd1c3df72778205dbfad3d727f06e00,
  0x1b373e4c9ed5090bdc47b84856124378f80ceb44a7de28829fbdac99286d48eb,
  0x28d3d4a50db82295c89455134b9788ac5443e25a2037b8e2f8839293d790ab90]

def cD95 : List Nat := [
  0x3acdeb606a09a1fdfe5ddaadbe4d2987ce232d1488a9b8da628a9f99260cc466,
  0x13f4ee8de1809f70c9065ffd2c675f3d5144dcbc10fb52ee13beef88e8f22706,
  0xc274252e9a20f8a60b8a0f205a2c3cd450661a362149a34d440403c3f9a4a92,
  0x5d7ef6ea839fbaf811073ab882b0fea03fcecf2364d47e2e471821090e2109aa,
  0x2f111e5517c805a77df81a80fa92f353e28806da35ea0400173e31bcd5175bfd,
  0x5bb6e760a1aae70c2494e7786c3d9448c321eb8ef3127a45056e76be8a5a2a77,
  0x2468e26ee19435a5cddae375ca768d841628889461824de1ba94c976869901c7,
  0x3383c538262be2a86c0e10e33381e8008156b98e8b2d7b7cc52b8047d80938a5,
  0x49e8adafcbaf4bd62040bd4f61e5426be30362ec0dc6be86763d0dbf30882c6a,
  0x27589c26b5474b09d5c4951d7dd030b3d8b831a3600def5675c005fc0a1552b5,
  0x1f8e7a126c213bd4dfbce8cdbfa32616370a1d0ab8fa753d1e9ba881a5f4dfa3,
  0x6a6ceb3c9492e97e2674fd6aeafc052ec19467d1118fa327155b658b2f02360b,
  0x63fe5322d7bfaed40b693a56740410c2fd52c94be46907c1ffe80a8e230a86c7,
  0x5e70e606bd7c408d2163eae124f01dc62e2a1e1b810687c817b4d1eab106a268,
  0x7224563db32a3c5d9ab7b0b38963d1a5e731a24e72453711ad3f103f70bc8ad8,
  0x156f859f28469f53dfc8e49e2a3190d0e735acb7553892e66d7f6978ae466025]

def cD96 : List Nat := [
  0x1d4370a78201940375055ed77ae17fc08efa40b0039064158cf14af8ea32008f,
  0x5629038d6c3f4fc29d5cde0f3f2bd1eb2f738cc214a55838ae860bb1d7a8b8f4,
  0x597b53a5c443296406bf7341c601b3b4515372e4c3dc20e68f68937329c37fae,
  0x5ff58b9641c8c55d47c469de06dc25b2e23233ba07489d49e32f04113eb1f462,
  0x5ce043b659f3b04ef709cf48b10338d006d2968a0b89104c8893b75bc284da7e,
  0x68650da73df049c7acea5e7537b45c5f695b8c114b55eebcc339b7d18374995c,
  0x2a3728bfe1987d3de2be527b2238cf7ddd9d9a3640a01769fc804ec7f4ca4efd,
  0x3883b83abf3e9f6afc9df33b9d73e8666fdb0ecde565c9854f488f012aeb6ab4,
  0x398369551f449396af311531fab27d48166782eb2bc8a6ba7a5a523306c276a5,
  0x1ff27125128ff7ad11414ee491d21d16a788ffc74ffbfeaf9224992b52a0b4f,
  0x65383fce249b79d6bb486c027fb600935b40491e317b9217ad4cc2ec5660fd40,
  0x3fd88d8df93f74720a28980f87cecdfff203a3ebadd2434f63259d41fa90e999,
  0x3e8014dbacf45f3c056bb188dc6c4ee3ac044166ac3321feabc1d2bea46a913b,
  0x3f9e4ea770f1e0803e0cfc1183227a17ec40f4527f48925ae4b59205f775fa30,
  0x18ce65e656ac4485a8f85e2a13ab53e441c7e6e3af77304878790e8016ed069a,
  0x5e01fc0b3c6b6f4d9ad472861a41fe7a9b6e69171acd682f8ed8c8d4a3b93574]

def cD97 : List Nat := [
  0x5a2c492e937a81e059b3ac14f8401ca8da8613a5e1023ab5d55508213395c951,
  0x3a378e26304e862266a0352b89ec8342b3c82083697f16896bcab581a8a0c56b,
  0x41a17295ab69e80ba755faa03c27706ab9e949258069cf37ccea5790a75f9a80,
  0x59985b964b1c60bc97a67d519cc684612ddb2168d33f1093109c25d5d7b2ee1c,
  0x4f242a9980bb8fc06cf93e2d3b2a61066e9b288589f8abfac055c4dfc696b1da,
  0x21c64eb8aa813d253ece9ad3e9b1ae6fc1556ff6f0e5f57471eab571ed99a1fe,
  0x1eb5f3e51c996d0ae760653bc4a62e9d587dd39eaf61d97e06d4be73c0019516,
  0x6e5819085e8e8fdb23af4aac5138fb15ca48b595b2c6a19b5c01841dfaca3cf3,
  0x3acbeac508a5c92e7adfe637bc2fd5b506c022b9e948664439b37b6902c2bc34,
  0x6d1857ceb128215fe521e8b43b1199ed33728cf539c1c40a4d1fd8268bbbc60d,
  0x38451ed1202196e8b12f9ce23b62afd27253ddaea84eba9ae1dc908a08048953,
  0x597b5c570571040d834105a5a225013e5830da22a2dec4ad626e5a3018b9710e,
  0x72c1631b868739590e71528c56b7bae9fd5e245ad0c4dcbfc3d9be5f42250f1d,
  0x2df846abcd3e12ce729997e1037332bb55429f128116fde4e8e8ae57b3735f6b,
  0x52696e4b63db63b117a2b330c75a15385c613b97139a04d5ef616a45c70abe4d,
  0x1bf718d000c4722e3d483a1d2cce220ea8ab5aea9e71988e6cd05e7937caa422]

def cD98 : List Nat := [
  0x3b62c3a2984da24ae115bd2acdb4bf7acd6f59ccf2821e16609200c3f25dc91a,
  0x3d3253d6377038c70c558b174b734dd56ff9052af667d7d844c11eb55c2aa7b6,
  0x450a8bb1ea5985d007c843eba0f5f1798d5c27c4fd37d95db40a05fa9ddb5f40,
  0x5eb7a5bd312bfb1aa6e45d60484eddc6359547d23cca94a8dfeccbcbb86689c,
  0x9481fc72d2edb19f8726edfb3aabed33ad0ef4c63ccc22a6adc6c160aa87317,
  0x133e57908b863de2b0b61718e8389e33bbaf999b29269798ae67ece0deca1ee7,
  0x522c35cdbdaeb31b382885bc1264483c1c5676f5242ddfbf4327ab69bea808c7,
  0x6b6262aec889f7f119e354df5b9b8f4ba145df331ef29f60a55c78798d6db8a1,
  0x10bf3af3fad8906b7f2d4abe678d3a4d44037f742dd6806a7e52a2be05c60c91,
  0x34b2d0b007f42bda62e7195a497160bf1b6c4b657852d1e350019543d0a1aaac,
  0x4232b5f6f690264094bfbc1aee10432e94e10cc5fdadaca4882a3e03a763a6ed,
  0x16fb9fd44399c86341684111de04d0d306b4b917eb02ba51b34e0da3a38fdb18,
  0x2c0971c90b5760e0cfdb2e001687793337dfa15aea8f0e303319e6a8992dc868,
  0x4ff7096e1ce9184d30cf145c91a114af6bedfed7df4993a5a810a6d994f2a85d,
  0x106f42b50260771b0bb62fe487b5e0c054c4d0ddea11b590998793c95396573f,
  0x6db8d5ff24a6280cc2d4cd0e1a33fdf56ec562f178b16f43294b5f141bc58e69]

def cD99 : List Nat := [
  0x63465c3b7df0470beb93333b6bf48b9dd0c7ff7a8f1aa009554a9f558615841d,
  0x5c25692dcf43715ffc3da27317cfd7bca308e33da5c810667ae8a908922cc029,
  0x318ab9ca37b977de532ec8a2faa34f4e624f3f006a4889f1f0107e88bc3fce74,
  0x6e3e65773337d9e8b487374420057864f29951bc2f3ad971b8b28db6e9867c2f,
  0x1b8f722b6c5ee032cd75a4052e2c85d1db2cf82d2e3d43e422f995cfa279533f,
  0x3ddc856869057c93aec07c3cda5e9c4fb43c76921020f8f663fad1d76151b8d7,
  0x5c8946b7f68868903f2e269601dee7e40f1d37b2056aca17da4ab895b5a7d8ee,
  0x14908774aeafcf99442f840cd94b9cb13fd4d14068367c70e6c130e8600b8eca,
  0x241988179eb4d2380fe2d16f5c883366552289e6d5080ce2f54566986e28b260,
  0x65347b8562a779b5a0b29525949b1688baee5111af54e43a2d74c8c2d6a1f91b,
  0x57d0b69ad2932566a3626cd67d032d107cab5f1651d9fac4d8efafb3b61c5989,
  0x4666b937d74652d05bf1a54fc600062b7a34828eb7ffe6eda30b0ad439170e7c,
  0x2d417e9b9986329cafcd1be6639f75464630826963de4d0e2d9f0b88c03fecaa,
  0x26fc0b963f62150cc0db6892c20b699ca79b43312472cef7b03df66f9820bc75,
  0x24331b58280f6ade7cfa6f466a1132bc1f8c8affc2f148983f1a4c8a2bbbc32c,
  0x70f6592054b400403c9a5e77330a0c03621b11d41b4ba1b2dec2b8224bdc2938]

def cD100 : List Nat := [
  0x18e5ebbe923f82211663905089664fd929ecea0555b1fc266b769f099f1625a0,
  0x645ae3a2fd4f3a1662566f5487846bd0333674c03664424df156ad2eb485789e,
  0x4869c94c7abcb0d1a238bb0c5662efabfe401f27ace70200679b3a0228e83f09,
  0x1f3e644d740c5d18ff8cfc3bf3befe235e71dcfe3ceee57f5e33cf2c724a3246,
  0xfff665f026c683d2c566cd58ef70d5954e4620542f75ffce9fdd100b98c8caa,
  0x44f45857ef1f815355e16c3159b7ede76956962f918feffba3c5984d43ee50c5,
  0x13d2544b4ed92589123c82dc6f0f48bf18d83172d9089a43f26d76aebdd67cae,
  0x2986e910925418b3960f4d06a6835765eecaa945c0af6c3d1d760b612e24866,
  0x66d8de1bfafd1ca35397984887be8cbae62ac5cf64e7901f76da7d719154f538,
  0x34ed4f9f002886355ed2ca79117a604617407fccf06cfb18aedf5bbf7d477d32,
  0x6903ed4c4fbe0b2b29694fd39d2453513a4ec816eaaacc8ef4c3e506c326bf8f,
  0x34afd82d444008bae9ab5af3816c85154b678cedb52a13cb3d71797f53892c21,
  0x44fa0907dec6cf534763c07d6bf15158da95a0b8c55b6c5a85836f13a1a2ade3,
  0x137cd4f4f23b89a845605550427e5dd5d16d29f6e83708be6b91eeddeba8548d,
  0x462b634323b928fcce8b2840ac7a79af3a52a945de5e9c3383742b7907273dc1,
  0xd07d29d0e4c36d5c0954749f6070062083fbde48161924a182ecd9337bfaa1b]

def cD101 : List Nat := [
  0x8ebbcdf5c9e8289a0eb0c6c35f4380194aa744f267c022122a0de6007effcd3,
  0x58e467ff09e956117d6a6ec028d7e4804930621dbe1f039f930b48daa9b4e37a,
  0x393d60782dc7c75103cc0c6f70723af93df18adfaf7a3973001dc88264726163,
  0x24e5edd12d7f2494ef3bd6180b5555dabea2e75630af55a9ea8c5207c4127797,
  0x3857f55aebdfd3b57cfcd792588f6437b61845f39208964210617f2e4f580f43,
  0x18c7032c183dfb9dd46c0d64ecfc1cca2c45520222a9cc38505a3b3d5c6a6f77,
  0x64d4490fd34cf86eea2aa6a99f8b7ffebb8da4f76c361759fa28c88c7a6458c,
  0x5e7ad11845f3c2bf14fb2a71c829649c2d2b969d1e394f93c2d875ea9bfb17de,
  0x1b22a42bdf09190185a4e1c475a36b6411b8cc36d1589fb8141c10838b862265,
  0x348fabace397b15c8033115c0094ad7e21f86a97a3fec5c2847ee907c860b4d6,
  0x15ad3045a637fd1e13ab6fc437e732a8f54e6e5fcd2c925ea46e6c9e606a713d,
  0x64652440869760cf8ca04b9787e068351d35071940a58baeaa4f431f9eff176a,
  0x203fa1301efcb131860e9a41dbe476e9b286120d367e7fb95af41c70d2e25429,
  0x4d8fae3626efb6e49cdf538fbb66fdf2144bd649977e8b0dce2e3b64db998117,
  0x87f713de9bbf8dd6dd199cde06d0dc5bd585f8daaa953ed893460392fa962b4,
  0x17f5704daf9f04d8b3d95df9455404dc389ae5e4b98c97e5a1abb0d9ff316d0e]

def cD102 : List Nat := [
  0x17f1a6d6b3e9f90f86a85e6102f9009ffbfa1cbaa1e11f3335fd53b5efe47043,
  0x8ca2f637ec151ee3d77de6a951d7174be483ca620b9ecdd12d598a3358c4d5d,
  0x974e511dbe874db5191af0d952fa60a8bba268ea448d8f3ab0d164b13416218,
  0x1d74bf8735048489a55e1b3f3a29e69c7fdc12028fd96621d19c21ba73ff7e26,
  0x49a9bbdb5b3d60a07872f529a5427bc9802e15c0be279f681053e45eb0532c6e,
  0x3ca4d5c57418f5738af15c810c5572ffac991a485fd3522efd4dea9d07bb599e,
  0x11f00b2fd80d54fe4b7700745512170c2fb799ada286c5d7cb21877903371a52,
  0x271f7b5cdfb01a6e2aa3928ef1241e980156943abcb518eb5f51a54935569699,
  0x274f763438d091c1eb5c0cbd2a22c2ec9d3e7d49614e82d64215e7a511126463,
  0x510f99df11fa25026c71ccd6e1f4c1a126474a87dd4b73b0f1e7c3589922b6ee,
  0x407568700227b5bf9d721942de78e04a64bfd171d8bbb2d82855421ddb873bea,
  0x4f9d1d15638c2a9151f7b1e16d46de42459d5700a71e4eb03540fad9df2a340f,
  0x18fe5194ffe551b7e8d5cedb8e46ffcc42c074c80cc6895d31c4e4d527341bd1,
  0x5e21faf4fd6cd9e0f56dcff023652154028b9e8f90fcb7402656a4fbcdf00cca,
  0x41707f77f9f5ce0def22fe2a52b429ad2a229c715c39f1b38d61fbfd0cc64744,
  0x1d14d54e639b07c42c4d8a3e1a29ca566e0c2c4a305fdf91a76b8d952f462b36]

def cD103 : List Nat := [
  0x55217bf7cc76897b02d891109f7016c79f981adef2d9c709eb4a660e7c06deff,
  0x33c49c6b258e3d3864811f4be4e902ae10ac8d2888029359e60acf31879939fe,
  0x3651c5a3f1b589645c0f8e107317c129126dcc3f99e6478dff9ac7a53a56cfd4,
  0x180799e8398d8313303973cff01f6f3ef006e80e89a337c184ce7f9bff24e734,
  0x5d227752eddfb16b87ce1422dd9ba8897c2ffa87705d39b17c2ce5711f5e8f78,
  0x17bc1e51d14b1f8da64dbce7ae88988a2ee5f38c18525367353b804490a8b961,
  0x72e4aa97bd3ebb9120444c7b5eeac73254d20b5698b123cfd3e25d6b3c1ecc24,
  0x46e40b0d7965a096b645453900a5eda43f63991a0370235bab57c6d1bb5633d9,
  0x6635b5b55505a045ac3b1903549d75debbb3d5b45d0a4b86515281c2bf905404,
  0x6e7628b7cedf0a45e16f7c500eb3248678fce08ff974527e4676da54a84634b9,
  0x4ee8f1062ca5be1e9a6301f1e04b050d02c78314134f549de9cdc9c4200a8881,
  0x2480911154557fca3da3a4d2724bf1db3789a06a53dbf4afdf8a1b2cf38b5c4b,
  0x331eee52126d19bac96129f30ae48e78046f2a30e4992f8b85e44ef9fe57a897,
  0x4b5865ad157c2c4c62e39c95c2594f94fc6928509ddff8bceba28e0b94a18d6b,
  0x6d44f8a56f6ab8ab23ff0c0617ca6905cf5d0eb70c0fa12bdbcc46518cae3dca,
  0x32c12ab1a41b9bd050d961f0b53b8a6ba358a82802bb57dc1ad965891fe98d5d]

def cD104 : List Nat := [
  0x44f47fd6205cf60defbece7664dbb8154b9f73ee20e8c7672c51586a5379f45b,
  0x2e03f72835e3bd4bde3b20ecbd5b6ee4ea1ab7bb461f4a480d752f1a7d1507,
  0x156ca38205bca4fe639d7450b60ef6ae496d206629c46a4868b3f49b236bae94,
  0x1e0930bbb81f1c36f410b172e4879a01320daf8122e9fe5f7fa243fae927d0cd,
  0x6c644eb5de510cfc3edb9589183da01366f901788c03f25e57b50676810c1b9,
  0xf7734edd5019fe1be33523c94a626d321991be9181d7342f632152586138d20,
  0x3570faebca96051eacb7192f1c8cc2e540fd26c97c70b30506d95fee93c5ec3e,
  0x65746423b6eab18da1a1304d2d7d6c0183736d91c3dd2936fd4df0a42b09c8ae,
  0x6cd4005a7b7efbbdcac4ceaa84a68e7d337b07600d0547932bf5ed48d85cc622,
  0x700a0f85bebec948023b7866621783b7f08e802d3155ea955edb83a848369fdd,
  0x5423acb5bd8642bef7b55ae4a8891bd5104c2ddee16a55e36a56b797acd1e52c,
  0x16762623834752ed8fc99c00b1bdd0521f164a1abd3944beaca264ef79500c7b,
  0x4a1649a0a110ff39bcc8469301a1c28ab6d7de5e5ea1dce347466b13e56131df,
  0xc2e4b4867f0ea7e76414d53f667dfc112fee3946042bae368fede20bf5d53e5,
  0x37c1c3995e914065fd52166d119717d32441de04fe24e190fa18aafeb6ca8dde,
  0x418d06cdb412d67aa8cfff7136208e8b93b7a5193f0e3fa0f467c8b4584eb239]

def cD105 : List Nat := [
  0x2ef11f15d6c5a0748abca5f7ab915973c3e8cc59e6e66a2bd684449d42939ab7,
  0x39d623fd1a6a5786013748e1a833672e8f7cf3f40a43ed2c50c8dbe9b54319ec,
  0x2fd5656d1152bc12925786ceb3e444c2522b783d236cc41ba68b4c391176fea8,
  0x32f40ffcac438155129b060520d18dcd28b6172646403d2dbe99e6feb4a146a9,
  0x6e51f01d79ff3f048a0d1ecea5ee41ea5583a216a74ef2aece72453e39fa0381,
  0x90860f26f17aabe0e059d7ed7b077adc09ace002e0bb2ce1217d1c7b55ef188,
  0x73646bd0a3405adf8d9716a4d8a20f76d4fc2ae522954d8b38a3b25563463bde,
  0x1f3a54aacfe05e8a1da5f7fdf0e6d03f7e393025bebe2a2b256094b166894d93,
  0x147b3ce1ff2fae8242ac0d06eac214758a3ea352829b3c3397b9ef1fb350e274,
  0x2550f19e7e641af183e9e08472ed9a219be3c07fd2966e59a5cb89417ada5ae0,
  0x2f518538260235c54384fe0a16e09d6ba7824ca896f340ee87e691b5fe8b32d5,
  0x4e18d27c546b3f6791e64c25d3dc6d059d3fe5d634bfab6d89ee31864ebd5ade,
  0x381ce4a84f058a993084907f2615d9a8bfdc01dbb106eeea8b9ea6abd8f70e97,
  0x549e1113f7911d8bf33256e52ef37a3cdac32b9e836aaea9481f65c28020062,
  0x17986526e6abfc68259c63840ee8b610767e87bcb976306f7818b84fa2fde5ca,
  0x29efd89c66943522f0cfa4c8a74e046acd455f6fb02c02dd904c22ac8c6dd4df]

def cD106 : List Nat := [
  0x10f991824af35c2c3afd6b3fc4f08e21fea204a067e4fb85aed7ad1797ec0ba2,
  0x445d12b11d6372e08c7cec54da5d741fb9339b0c8d448370b71ff8ab30707c7f,
  0x2dde145df693ef8110e87736edb81dfb1cf8ca787e71d24038990774a8a7697f,
  0x1a085de86d9db470868b01e3b82dca701ea352433a8572181687bfc3a043451c,
  0x20797745ec5640ec08fccd739260806b6b025789cce75ba4e7c601e5456fd710,
  0x4604ddd42e417fa1d74932d046a2e7c43e8bb49d990353307d43bd0cd2f97f3c,
  0x59ab8718776c023fecc7442914beef63af5341af94a40c3c92457e1ccce02835,
  0x2899a562e7fae3d44a1a6b678eb221d53e399a2ce85cf5d410d2385cc5ddad30,
  0x572edd059e1ca83561fc77ef50be7eadf28517da22d38e59a0c458741f3ea7e7,
  0x254427567751e476fafa7d8926c489fd2325957fb2034c0dddba5ab5bfc74adf,
  0x3fa3985bba9074ef27d873b6fc2e3008f0da3c5688e40ec47dbb4c89e4fa691c,
  0x2a22bcf81b4e7f1248f1d36f9c80c3faf807a04c63edcfb5b5b2f4970416be43,
  0x6819c065f059b03aa5441f06bda69de74302cec2fab81e6296154a3d370ba9ae,
  0x45b6c5a0daf4b1158ae4be7afc5dffc14ad43f64ffe95d37cd3361f688689dd2,
  0x1b0d80cb4e32683f1ba273a3c5e0c0b50c5cc47585d32abd98f4ff71917d3990,
  0x9a037cc0624b29a1a760510302fff08c4f6edbc68c013f3b9d3d956a8aac786]

def cD107 : List Nat := [
  0x641a164376b2a50efc4f65975da9621404beedf1cb7267aa31867b824906b405,
  0x29f9761b230fc018b2ae80eb3b5b85920680e1a6c5575b489f7b9ad0d43f3336,
  0x304289e3a0bd4c8e8a9bcc288f7905131d1b9ef631d8b0ad42aec1bbde8fdbce,
  0x63b3eefdee2554a807129adccad6a51859e4fdaa02988a0f6cd0cb1848d5dc97,
  0x2a6eddd165c4613b1990c6c7d757266ff24380dafc80dfbc827cd10acc3e9882,
  0x583e71a460a54097887234e9be604ccbe9c695091c212cc2ceff86ed0d82affa,
  0x16040dac6e64ff691cb9d9e929d979ebf601a3214c2656ae7d6d0f53e77a947e,
  0x92be77012b1ea0df208c30add6051bbdce911a01e34f6e5f02acd0aac5d6f39,
  0x11bb4bc23b2b91d9bc5ae8e27baf7dc1b7d70364faad4b3203b33d937ba5b609,
  0x2a27572e7f419f929bb8ce25ee55aa6bd3563d248b07ec354f3a81802b3ad44c,
  0xe6ffaf2bea3a4938674f35bac05e0da8c090853229f7c18fa17c1ced837d3c7,
  0x52c36d4dbf7b347c1f9d56e927706117706622e3eabebccc024c1a2badde506c,
  0xc20e95adcc4a199beff3fb971b6c3448c077a5b267918f3fd968d2fd3777cdf,
  0x4f14d37e1e05b4d2eacb071b779300a3238e9f21500270613ae0e5f2527f74e9,
  0x31d821eef2ccae7825d57330bcfab435258803c9d9d232f01e9203a4a081277b,
  0x1da10f4a03ccde69bbb530b2df2d13e09ef67242338b45d35470d1e2354a877e]

def cD108 : List Nat := [
  0x29a77842b5bdbc040e6d4449bff5318fa18e2f046c5c43c4b41932d4a18c847d,
  0x48598e91d1c3ba5b1df304f8b9d44e06c30fb776f97eb3d40c48218a953c19e3,
  0x151ad9d207e6fdd7293737ec8298bfc2d664cd9d038f6636fb3ea903658e56b5,
  0x234ec22e0ccb872d833de676fe60d3ba428d930ab7b030cdd8e3ec93baa105e8,
  0x246fdadad33868ac236491f4ae33a68ac0293d06909e0695d768f854bb720879,
  0x26c2e7ba6bfc63b6a0a8648d6fdaa8b9d24c5baec407807ded323bed14ba28b,
  0x1efe54390e48a94f4aa2e810591ef1ea4d07ff7b75168a70897737aaed83be81,
  0x45209dd36d86df7b6ad7da92c0baef0e66de3dd28b3d57587687cbb4e3bec2b1,
  0x1ac1efc31b0a8023ae71eb98d779cc4aa1ca8c993d7a93ac6872352e14afa60c,
  0x2d02b644f4235a1541f3c232f15fd30a0c660f0b64d6bb65bff78d9e379039f8,
  0x6242f1c3bbdddd25ac1634ab36992f535134aee4450e2f3e5ecdc7e10f376392,
  0x37cc4c78c5c4540239d2c768002405a6b28472c0c1943e24383bd14133726fae,
  0x662a29a072ef805a7f31d63bd531f73ad7904c98eeb321a3863cb57a0570d897,
  0x3cc0a2bec19fd3964e15c77a6dc43963d5221c781f67b47edb3ffabf9e723153,
  0x48d070e07da64099d521818d172d7ad0e506f728a28a65b578c2b20ba3580995,
  0x5d1e1cb06fbdd2870b506a4e7429a532eab299c907805b4014f1cfe99108bb0d]

def cD109 : List Nat := [
  0x56386c1d5ec9e8b41d62e3afd5789eea404e85d94c4afc220b348faeed6da54e,
  0x6287ea1440c3b6041fbcbb5ea4924125feccd0f4d966b652566aca738f0b730b,
  0x25dc9044a4f78693f6fc8fbbcef91bdfc4478222cee159c54d5e3f8c659fe0cd,
  0x5c292b6492ffdcaf9d3fe719376d002d550faa2a3197e59c84c99e136191fddc,
  0x44d7bafd92122ea310abbccff6f4e3bee8947b7c8239a252245f55f34062d004,
  0x6e3efdb8b10a6dd07a3ab252c68b09c3ad8c518cea1a596da23df927c8564985,
  0x3e7e00dd995b7a50d5a58bb84f897420c3f6bf5939cd1eaaac2d0c3a1b7533,
  0x5acd3648037650f846ae877f943af9fe39b7b7fc2a355011824f0e3b6a7cab6f,
  0x422b0d874ee1480aaad25952ba0aa55af5fd7fa852e5f4bc72e4b4868d84fd66,
  0x67a73022499f1e9d2df6960c0e0819c7d4ff4bd515a7222cec19ded54e1100e8,
  0x2f6fe91112c8ef51f96c19c9554593e9b41fc1981410c1cf0cdff8e955d81136,
  0x4ddaa116b2460db9af9a85b7f2a2018ac88b4b197467d8d7fe9525ddc866f489,
  0x494a75addb5a057bf08375111393eeac94ee06b0d7890e736d61b3cec0f7f74d,
  0x61ae13bdc47d32cbfee6a8e56c1e125b9454c9cd4a4e2ecb6aa9d982108cb405,
  0x1399ce6b145a26c890ef5f210e0b2c7f281cb3246d9f23e325a474d7739bee66,
  0x5b8e3f00a7840b89b352aee152a91a9144c0bf69f1b464793cf622d9c538aef2]

def cD110 : List Nat := [
  0x6dca39e13432ac5c80a4a1cc38df68d470dc189cdbfcbca6e229aa787da459e6,
  0xc7a88dd01b7f82fc0d2f0dec5d4ac92d98d7ae52e5ae0ddebf6030d4f24c5,
  0x4bdad7ffdab23bcca6b44cc070facd716c7b4ba03245d2eadca0105b4ba1017f,
  0x36288d9c67f041b8aa2f2ff289838189a4c279ac40c9502ccab0c981a150a9cc,
  0x73e4b675e8434159a8b7dd6b6f6e13f774648a49141e3e369ce1ecf0b3ce3ce2,
  0x4bd3d60ed308d3571dcc4af7298659522a027400cd959e1ee2db99c0f1a33e0a,
  0x1dc24ad60e410e712b06ca327c4c5ea6fad6dd8612694e6baf818f00ac11756a,
  0x53184247e85347d35b4ad337f574fab97d36495cf01eed7b826cd58d9c33449c,
  0x2ec762d5f006590abb7200beaf92f2cb2c643c67ff09e1beaff995d4e0abf954,
  0x5bd360e906bb59e1f807e37dd9018017d510a4b47dffafa043b3141f2a349d60,
  0x2211af1d306e7a205c1f5c1db4a65772fe65b650b604d69d1382326bd7218cbb,
  0x60f3feaa99b59d2e02338bd08248f7eb6cb9f2bae3ed122f8f0e7fd68d65ce9d,
  0xb76f954db389d0a1ac6345c0edd7fa9414d96ad9c4b1358028b95f6d23eb67e,
  0x5ce54cecbfb0b91ca612d9f5e75b2ef04d3904ca4027ccbbd3e6a0c030d3e9ed,
  0x15c25ff33a591fe08ec98886152fbfae0d92696b49e442d8116351db5ec62228,
  0x49a75dd47ffa249f6005cae4900cfbb66c27fc108f5c96bdda2658da3288db03]

def cD111 : List Nat := [
  0x5fcddfc4416d60eece1215fac604c110cba6b21e31b32a5830fc32a1482669de,
  0x3205123e8fa1538a24d83aab73f1ed0d62311cd03e69d33e1b9b1eb2f2585df4,
  0xf8d3ef0b0255b396159782b4c9ff13b874d286c0d6ecef619e1af628c16dd13,
  0x378ab197832f909053088331153f8abe4455507575a14b5f6758caa98d8f7759,
  0x10467d309ad024d1a87bdebf9a1c1e04bbd2bf6be13df39f0f38b814d9f035e8,
  0x2a5818a659b9b8bacc1ad8f715b42c75141bf88260b816b94a2a54bfb37f6a,
  0x2f3033bd09e789cd0ad890c9f84a709f54ce26ccef0ef8208ca847cb7de33faa,
  0x2e5152567d8904bdcb9689bb045a45de63dc67e9bc4618f23b2ad93b7cf57e5,
  0x8eb0fc7cbc5f501a3de3f758960a3f49fb50bcc10a540a8669377c7748d54aa,
  0x44dac0bc43cf0bef1d0c750a88357ae6b4b3850d1eaddaea7661a6f9867b4010,
  0x33df389048d4f56306d8e5daff342d462ed91eb229d0f8d96ee6afa6e49c4dff,
  0x961623ef7e9bb2c3c18c39ad7ed018d9f4827ee2edf0b9bdc69174c1bc87032,
  0x31ffc96d028cc8e8823261c8d084f16d65b58b34da897cdafebb68fae7364fb6,
  0x1214d17d97e935be677431e94d3756c6f61e8d631af5aa8e9312d77b03a9d5a4,
  0x16ed51998ca745b1bf067eaab593317557fb85addc87837cd0ecaba68cabf685,
  0x2e0eb5391ec17077440934d8f3343419690079f01a6b5cc011f73778bd657f9c]

def cD112 : List Nat := [
  0x42af652b079e8829c4d7de4d9ed9108cb94c29edaeaf74f4043f72099540eb0c,
  0x5ffc24fcab5d3cc46e8be219152d07902f749a4cc0d766ef61940a7af12d1b99,
  0x47c04c2a96dcfeebbf5028c5cab5ecbb23a5f8ccd027314473898dba974e5ee4,
  0x67edb21e798f98e4d2b19b2d7fd0e02341e60189a83039c001890fd9c0bb625d,
  0x3d39f1812f67535b943a19dcefa4a7395aeeccf3108ae2cd6ec48c5428853883,
  0x49a36e6b6843e5f8c4eb7044a710725e95c4b2bc2062c8541e0e04bb626ddbd4,
  0x2c0faa278827caa7623babe4b43219d69cd433ea1ef3776b82c9310828743a59,
  0x16be5621062474358d35716bd7df05e2e0f53e25050117b743574037c6d5d6f9,
  0x15bc7189111163a98469771f428264d34019d3eaff2880d0571c8cacba49537b,
  0x41d998adb51c75a6ecaf13838373f72c3e2568c93899d5fe834afec0f56ae795,
  0x2e20c6adce5466172e790295cf8ae180fbf01e3e3b7e637f74770d6d09bc9417,
  0x1a16d395456ddcd21640de5a59deb33034fb1ac25fad40b1b73c7fe75d779dae,
  0x5f1c7396ef517b50d7910df62aab96a226561d8f67b87cfd92e783c2bbd92a8d,
  0x73df946bbec9ac41838206face3c704e33fee86e799bdd5cba2776ba4d9e2073,
  0x59628e6367542b4414b9226d090fcf60ce3ef9eaf7ca7fb238ddc3a4173b0960,
  0x6da5b997e158187d424e1973527a9cb4098efd79c6743a629cf1d4e2b24386c1]

def cD113 : List Nat := [
  0x23528896af0066265d04d0b4cccbd2e91a93214450426e36db8103f08dcd7a2a,
  0x1fddb1f853a6987af0cbb122e745efbb6b666eddae8290f4057d45d98d783d98,
  0x6200844643c637ed34feea512d11c67eb9cb7366cd392ebad0f7eb673c229977,
  0x4fe6d23cb2eb9644432a9816ec4cf9ab2238d84b0aacd74dc1a26a63dd5225e3,
  0xf83e7672e0754652e2827772241a7832b0493a1efe0da57cde4928693f330ef,
  0x62945f8447df64d43d9ccd9ee5ce62b197262b06814d69791e81d77235a79be1,
  0x2b1c37986ac813e32bc4a640fe5383a772a3ee866e722008071db87578dacad2,
  0x21d502c67d755316058633ea7d78895996fe8d2b216fb2633ca706ecf958591b,
  0x62ddcfec84488022cb503acdb9e0fa13e38cb98647b8dfb806e33434a4fe9dea,
  0x2a87cfdc51d278d966fe459963eb91d5ba71c78494d41f6b176009fecb0b746d,
  0x2c354a232886b12740186c867eb32d992143460c050759ad0aa17fd9a464e88d,
  0x119ff6391c5fbdfe007e5e873254b1f87090c5d58a7e5a21e29676d794aa026b,
  0x72a653e931ceef11b276b547641710f743b3dc33dbb49bb3619f757460c4c796,
  0x70b8cc084f2404de921c2e5f57a05184dc1b464eb2861e2bdce97a7688776b26,
  0x51bc7a929a6f38282224080c991289929d9656d9fc67ecc08a0176bb99d31692,
  0x485d2b7be736017ac254865261f6c1aa74e4085431ff8ab178b69185a3dc9722]

def cD114 : List Nat := [
  0x6febf9d526d7be981ed4c6cdd28dd92edb1c291d525576d46c5fbeeb86ea08a7,
  0x4b76ee34bad2e981791dc127c60566a2be8f48f4b2f0e43ba8a5c341f8e640ed,
  0x67d812f4fe966ab2f733e9dc067bd2dd23b28ff8fa307f13704388dc6bc3842c,
  0x1f01d3151b3441aad27adcb3c6220c18857a6eb080bb5d4d95a875155c53aa4c,
  0x5bf6c837aaafffc75a7597f7e298ba7b41ed62ecb55f4bd9d959fe20a8654b66,
  0x6928cd85c17a3a548a1d2c221c1a13720c2a509bc2201f3d461be6b57ddf9d53,
  0x5cabf7332c7f2d6ca69c7c899e4bf7e01ee078dd55c6e45f41b48a080131af6c,
  0x5c8d056fd1c3c9f6a17a3d5e1298ec303e970f0e4ced5956d090014881603d1,
  0x296181ba4b4f7e9ad531000b2ba2bb83b67275aa8dca63d16b42834d1faadacf,
  0x61d4c30db2c4077aa0e4caf1598f439d1f0036ada35fcdee1f95579e89f71b1d,
  0x2729b06c872a2441264045aca8ea9b5d9cd989977581e7ef64c7fd14d4e9ecfa,
  0x67c7142e577b4f8bc770daaee77baf567c89d2dbc04c2164dd798f3360ff0f83,
  0x388f8599aca860966996a7c2b19b02d5392a70691e82ede351a48566d6a006d0,
  0x3a55b6ae6acf9d8f2ccbff33d439928c8f1a774e925e3d6dc65d2afd9605874c,
  0x9771826261cd258bf0d3c8ab2be1943c405752061505a58b03e36b89d3ccd,
  0x1e03642f1a0d7a02e79af17269d811cd24effdb59e7c3f69218b5ea2a1e21a08]

def cD115 : List Nat := [
  0x4ea8df0f20b66cbfdc58eedb2623d966f8da0aa30fb85385e87d43361a563d30,
  0x92cecf0879f87a44dde65635e3ccbffbe2a0622b31c79b0c8b3f56db8e3ca5f,
  0x71478ed5b74bbbae6ea0ecfc837547895d7ffe8f7208341cd911e9d58b87adeb,
  0x6714d5b679f15a7f2c05708fdd0e9412fe31223126eeb51d0f15ff31acfc229,
  0x288817af54ce537c8be6a318115ed52aa4c5d0cea6452e132cd3d99f770a852b,
  0x62a03b04dfc07b7fb10dbbb1f949722eaead43939b4ba99568652b38d9fa0bdc,
  0xa155afd432500ff7272bfd742287ce56cafaefbb694bc66cb3cb74fda19fc6b,
  0x30c2b4ae267684146e6addbce33fea214d43af1b844d70c7a13f0f5e301bdc08,
  0x201ebfd13c7a55daa025fee5da1bfaac0ebb84c3821b7e58f164de7d4c6bd631,
  0x5e6fe335096382cf15ab2c7fb3c30cc94f02085949499db26bdd4dc46e0e06ed,
  0x78d8b701e5e23f7298075225a79f8a94abe51b51ab218ed2e1380a2efd7b3db,
  0x27c8c6d8c2a5a62d06aed016664c402688e9f5b145c4b6a7aa6c04adeffa7c87,
  0x6444e93fe927955428611f5b056520607ce4db68353bd92a33c1d2a4e50a8c78,
  0x2e1e55d319f530e4c8d39d9068e22d983e6aad0a71f108756b2c2894d5f906b2,
  0x4acb2faf50ab7791212e3ade7b3a9bdadf9d27e03f4f1482587432fb795a537d,
  0x144cd7107bed43d8e1498069d2b85999548d8b157965756767655c3ccda61931]

def cD116 : List Nat := [
  0x1afdb79e86c7c458cc8e74957049c00d005ac86d85f734a572cf1fb0032795bf,
  0x6dbfe12c9263a37f20fbac02e6ec11634f2b05e246253c0778a0db37815b1797,
  0x11076259c3fea5276411dc587af722d5b5e2fa55cc566369d358a0b31a79d9cb,
  0x70cab6959ebb7014ac70586bbfd19010e34078c73d1697c58ebd1c32d7d5d1ba,
  0x6d6e325f3d999371e39d07d026a65aa081e560efcbb162ec954b8ed77b8e5e1d,
  0xd1cb0a37d17d200cbc13844102c2193d5eb9ca75fe6f6975d4b5a314818148,
  0x19a6c2098c9baac3e94e065a5f365a21c0777f8a8230b1e7c29c3ef0ada48210,
  0x2c778a998430e4eea3e85380af7207dcda4c56fa47b136202674173ad0d41a19,
  0x481f943b35e7136ad73fd5becd6dc827a591239cfac81a829593a54c3ea221bc,
  0x5b44516e0cb666a82f8c2a2df67e6eaa46d6d43ce3dcb64ee3b74cae819b2fc8,
  0x29e9b7abd109bf1ec8fefcae6fe03fafe16c9badfde48f7f026175bc4ce97261,
  0x727af8e5229c1d7d9d9874b210882898c47f6a8a4488544a575fd79886271c94,
  0x3bfe9518a02294a10a720e3cb9953cfad58555d7e2680b76e8cca25503a74ded,
  0x64271f77df4d25e9e602c18a204212ee74b5f725c83cff03a947165c661c9e90,
  0x3e01ce2e79f83ad05ff7a095b2a95c595dcb1d91227cb4ff4fe9106b3dc1bf5c,
  0x4e7a91e141c30e8716afd970b0737222381cac4bf4418fca424eabf03277da2f]

def cD117 : List Nat := [
  0x37aef60ed0118c97a0dd7491421329d53e5a5b3cf283748eee3cc9548b91124f,
  0x4cd684bcce875bd3442d9679fefc7432c8d200d37229a349477d74fb7ac68fc8,
  0xfe9b2f2b0e98ed977d8ec5d197fa184523d798ba8e6ec58954c7048790cbb23,
  0x38282dc95a15c714fa9f6b8c826a8e2774bf8fdb2e21465811331a5935569953,
  0x4265ecf8a30513a604247435bfb636ee6e4b41942d9bed543d4473b7efd8328b,
  0x372b16c585c81e9faac406e4ef936edc05bc8c06df1e8d2e2167d44502910b26,
  0xc5eaf8cde8dc9945c7d67b81b3da77a22fdf981a5d09847114495df3be3a225,
  0x2cceeac5ba7adf119cecdca89c7f7ea2e9ce34c87b9b0b0fbac3b15dc9c438f2,
  0x5c18219217b66f7751c38b746a4b79603e31fde78033e62ed61d64654879fe4d,
  0x5b7705690ae35af243bad757349e929c81b098edd87bf6ecf2dd658bc4d2cc8d,
  0x735aab3ea023cc750e9416da5d5540e72c4c9e977f9cd7aa781a5be38e2ab2b3,
  0x14d94c07eef42fa51927870a2d3b9046b6ebb3055be4cad79232137fa7687cc,
  0x3879eb8456aa01757944c7617d3763717192d7ca3da3e057beb95a3cd0e3e81e,
  0x6be38f35a265839bd0095f8e7a95c0c525caf5f93b5b64b423997471783c4853,
  0x2060ea7987c83251bf1793df68273785733a33dbc474a09c10af0f405a3de891,
  0x22fcd2e19c0c7143c0f446250ddcd70994678dc4add0834b00271d5fb9d325a]

def cD118 : List Nat := [
  0x4d9c0b524a08fd1de6709e6b545139e2ccc5bd22536779d8a302a5bf092aa78b,
  0x3e062eb5f358e73107e40c2680ae3bc7367bd57210703e5c7bcf93f4c5820a87,
  0x2e1bdc8c471b80114590e7206e545588de627a0f3ab1dc72b562e368591daa1e,
  0x4de898d2afe0ff0f75d4149abd3ce5634787cff7e70e62771e343ba687c51747,
  0x407e053e0ad803e3dd995956cf05f679825b55656680da96b7bd36c8ef173fef,
  0xc53b765c09e6e9de3a64659c6bf1023729513df3711091c7cdc29af1254b683,
  0xe1c59841ea10be2ce6c9c26a1e24f7a674c887eae15a11bd1927a785dc93734,
  0x4ddfd2b26eba8a59dd11cc1126c7f426ef55b191ef2233afc4c36aa97c197b24,
  0x488cd0d84bea9deab3581f6f6b94e340bdb6fed66abeef55a70f450d62851369,
  0x73ee1df47e2747c1a2e77797cbb138c3d14d8d96a7d88323cf10222128db6b6,
  0x187fe9e629b50ba7c124a96ff70b96811804002a8175b5c64c4303d74c3dc649,
  0x6a8ece42d1ff25a36359cdc7df740ef89935a8ee30d54d6dadcbbc36cd0f0ce9,
  0xe8ad8c2dc4019591be0fedb1e2ca9f43ffd61620334664a084dd6ba5b9ba5ba,
  0x432029b8b2d6e0fc802a852b85c4b3d1c00cf0ec78bd0bebdbb5ed770f096c3f,
  0xb1e1562a8a98101fedd71332ab264b169f334fc8d3598a6d31d01564fddd8a9,
  0x62c3d76603af92a056cd41842a856518d13f2952459096d8daa13234b08b470c]

def cD119 : List Nat := [
  0x4e09725c1c3388f52d8d21b90465fd06c82b77fa904e9d9c77f9a69ef7aa7535,
  0x4312f57db002cea9fd193964723eec44987817112da440953153a0e58ca49592,
  0x1b687eaa2884ddac870f4eb99a561024f151733e3a8900c1199677d0ca83dd97,
  0x6d14e3a66f8b9cdcd69489322edb327c1072f19c60dc36d42504332dfc4ebf23,
  0x2c986a12bc9ffc0c2926ea1a9313b3e9cb153576593d9797ccb156cc06809d36,
  0x144bc5b0d046221f943e1e7b29467b0df74604aad3af2d91d3f69b9e703fcfcb,
  0x718620cf71c7217d7d1d1226b63f57f9bf84a0663df6de4edfcff634fb35f5ca,
  0x131d50793f30d909fdd7d9a43a370be9a4e8241636e5b310e791592bc7b22cad,
  0x14fa3a67457c46d7a404e41510d0956d8548439ab1432b1cf3a7838fc4b6581f,
  0x257d4dde42333ff6cac422bc0c6044205dca0a369c1bcfbec89ec46d9843d347,
  0x618db0181af61e1cdeadab3e1cc0a13d7ec157e8917deae46472e466e5089580,
  0x585247859125fc0d80792237c3461842da7668b790613f140b4b64b606833a3b,
  0x246bc4322233551ab17f50fbf2635990182acfe89374064028e279814209e377,
  0x10960ff77e651e7e957ec7408afb6970c47a1967da02cbd8e6dc7f0566bad9c9,
  0x4b9310b034230443451334eca67d76e21a3099b45ff9842243ca5a29316b8fb0,
  0xd6f5073b7cbab9aa49bcfec6ce33cf3fdfff75d07f239e61e3b65930e0de50f]

def cD120 : List Nat := [
  0x25a867f029f9423725f25b497f1ea8d776bbb5591c556d8eafbb99ee84e39ad9,
  0x35d26e0c5f7329d11d547ab84023b9dbfad1bb964384ae70b5b812611da5a83a,
  0x4df7e96f99f73383737359d566122ac8addd8d503c291ee8188868566010b5fc,
  0x5e0d540fe7968e5b154c74a496dfe515072ae667344bd5bd4c99ef60edc63091,
  0x139e4c12e61379816ff5b871c5e831d86aca653bf32a993894e2dd450ec045e,
  0x2dd9e833f6008fa2507a977923162ab78bdc94b08fc01572a9bab59dfdac5a59,
  0x499e947fc67ddc9ff2c819f984aa14162f0fca9a406ea50d8969c7592254da48,
  0x16c2750e2cc0c9732d30304e077b5e49be8cc937c84a96e096535cf6ade54f1f,
  0x1b57be64c34735cc326afbcac735926eeabd4f77094543467d0f7af795306ef0,
  0x6272ec148373d1950164902d51c1ac8b788885064a0d00a905afb3f197bcf705,
  0x5d5bd327520e8bf07aa679c5ed8ba1880f80a99964ec2ab83bb902bb6456fa9b,
  0x44543b290198c554c33ad336a7d6cf4984e081189e15c4bea2397941e44298e,
  0x551655ae1e42592afe11afb8dbb01c11673fda03de110e149812695c85b77834,
  0x34eb0a1aabaad061cde7ca702db1240ff3f1316688f994480c43bd133ad2639f,
  0x3e7b8ad16b937fe56beac327cf74aa6787fc4d0b1d5dafe2a6329de398833efa,
  0x150d30017f02fac8e4db5f74edcdc7a9f4f255ddb2356d6a40974eef358f2678]

def cD121 : List Nat := [
  0x35099e244b72b98be66acb443a8535259e0c2614454c38091d48af24ed8b97dc,
  0x16a3b46cd589363200a21477de0985d36023332dfb974d38392a4a8ce1125d36,
  0x4f78dc19c2dcbcea35ee2dbe0a4ebfc6fa170d8ed6b544672cac49d5222f1729,
  0x427631c627ca371e9c774c9c4b74158d6bf38a2d0ef06879d76694027c16c7d7,
  0x3d68d5b1d03cb850a0f6f6e9892c87344ed88ba910da3e11c2fa4dae4d95038c,
  0x41c672cf267b65aaafd266f804afca44c0589499c0b7018ba8351c9b114ab802,
  0x1e4e5f5093120afcf81840667a99c68bc148d7599b10b21174f6f0dff92e25a4,
  0x43a8fb5a5f067ffd58192752b01167a4af335956a79d619c73221a9b1c1442b9,
  0x65ca7acc1e5eb3b43c524d60f979ba98a2433e5169fd8cb9f7e66cbfa4385f75,
  0x4284e7997df4a465857a3eb581cce99c06b0256d4fdf36a6a536c20807867bbf,
  0x1598e9bb5569f484a9611d741f3d965ae00e949d45394ce13d15473df4b4bcf3,
  0x37dee42e88e4b084481820c4dcbce75d13006698c0941cefded65ba96e3faf8d,
  0x1483d456c8c5203bfb97a79f3823e3bf7bdd93e330e684b21944adc42aa2c242,
  0xf2c345608a488555548935f033d7a4e6b8f1543cae96cc129ae9ece550b8c56,
  0x32dc33adee2dc73935b96160ff308ba14ac758047f381b01fb6f748c013f71fa,
  0x41128be483611375915f1efbaf195ce0944e6571ab41e068a77deb57249ab55]

def cD122 : List Nat := [
  0x274be8d1a47646cabe0c5f96fc229ab62f64bdba5824a9eba90d0796e5123423,
  0x2da3daf152031e85d8c5034e920ea906ff5bbef7ac48139b60e3de6b09785bd8,
  0x4750ab451bff2285d0ee41761147cb11b871c828a63f62cb0bc4c550f31d406,
  0x48f7a30e07f9936d557ded5da044438ede6faed517925e2433b8eb046f92f537,
  0x214275670f6d927dbbae94df09c9c8e365f297955cbe5a1266adce19e929acb3,
  0x5544866ca392fd8200828b6bf8bd95146c2f36c618ac221fbdec386fcf76f0a2,
  0x21a79c2502b87092541e00eb49e5456e9dec2c4ad03fcd7591a23a7e7294f73d,
  0x3727304bb6714411d6f410a29b345c960c687d1d4dafde0c7244c9a04fb37821,
  0x3d61454c68df0b128d80b1a0990f5f78f452749a5535cccf1c77aef6b05e62d5,
  0x26a9aa0db976d08f003fbada49e0b320a2b4955a23c98f94df79dfbe39912eea,
  0x4e22ab401c4a67381a85357979cea508a953ef014b4a495f4a1531eb49845751,
  0x4c9fb7083004fcc0da94ea51aed3a18089b49ca6bce44a18ee648e9aacf7b37d,
  0x283422b26daa6584ddadfdf12e993146c2b2926f1037ed526e901b0198d29070,
  0x188f36164eaaf7669c9255a10be2d0dc479a523e92e440aef25498dceaf4ba48,
  0x7342abd717aa59e373fbc34ab3cf7b27dd83d76657afe043bad6ffca5fb144ce,
  0x273bacc632e97a491938aedbb1574038bd026b0c2cd8c5aa720be375e0b0f713]

def cD123 : List Nat := [
  0x56caa23a9338b9d94e37a0d47149a0851d28b5ff1f2a7268a4071ae12c6998bf,
  0x7701cb8f0c052765a3cfb8918bfcc8f21f880b37b4df0297b288a9331e3f64,
  0x16d4ca95e29b2b67a0110d5fea3dd4a57dbe92ca858984a3f532b16b2f74461d,
  0x42c8e793b39d5c147d7972ded2ea20ee6bb5e1f90b37c075d452ec385d646451,
  0x3d0e58a6975194ab69e482cb6f0002e68d10cadaec403ab7eca85e7788a0951e,
  0x1efcf733087b9cc066ff007f57bcba6bbb11cafd839b8cf13f470eee6c1cdf08,
  0x2a6a018cb03a29242a334dd010ef696e8cb45ba5c78cc5b2845d40b7f51fd023,
  0x46d1a91b93ea59375cf17bb96dcbf14e5a925782078fe0b22b680fc462f6253d,
  0x2c45fa96adb2dde1a477104c452810d49b4d8d7b809f5f3ba955322014df37d6,
  0x1b3525f4e2bf7306815687440d0dfc74cd841362aed8cf82f59df14208f0d5a3,
  0x165d772ed73b087470f18b277606693f16f76247b664e9123a81afe73035be35,
  0x36bd2b6d39df19e853f88ad17813affcbf00a3cfe5b7733b63a6be3a2e285743,
  0x430599a5991d450a89f3dcdeb679f03965a8cab7eae09e54c05fa0f6e983aba1,
  0x650b0280d2246f1806f117459c2cf9053bb7901ff0c3280b6acb3031eb2eab0b,
  0x38ffed940cfbe1cb2a1900d5be07d2dd69ea511d32d92ac3fcd4a35fa7b938c1,
  0x44abd576f26a17dcace2ebae56b85a97a462c08ae34f05fefa237d7dc26ed30]

def cD124 : List Nat := [
  0x7ce74b58d818dc8d34e8876537a5256e0cb009bf350e2fad64b79ef91d623cb,
  0x31c24289cda57561c809becbed9b9a0a3c0c4ffd26a395268ed955a2acd51c13,
  0x3c3f8eb746258f229780d5482bdee22015cf5ca7b2d0f0c080aa21dd6e48ed99,
  0x1080881f84dc58a53f274ee7cad8ce50220e46e41f202d99ee40778b748f2df8,
  0x5b230d33ed2b6dbc6a472b37a4134bbbb2021c5fb1ced508fa18e584604843ab,
  0x2aac2c8c8d6f9734a9f5638c697508e67c48a6487bd6d4c7c92a341202de01e5,
  0x458841e223c0f557e295083867cba13aa4553bd8f49a4a45f69d581aaaf4d358,
  0x6283b6e5510aabd6b69b14d2332480a2c38fb0c38a9776319ca7ba93aa364e1d,
  0x435ccc466d26383dd54835bc0f81489b8c8b75849c2d3ad9f1c9c5a095388e69,
  0x2a26629cbeb86fb826daa3be14bdb8c85698ae85a2c06bd44b6ebd30d58414be,
  0x3769a6ffc162769dfe5b3a8cb274a5ce8111abe491c200a5d81d2d2e7ecf3c60,
  0x5c09e8b85feb7b9eea0d7750b2d7451daebfa7ced74d877ce40f3b29769237d2,
  0x5df5c6b7f3ff0bc1b84c49d4bc0f571632fe4d0782acdd6b752df49d7d79f644,
  0x2b5ff6fbd2fd9eae3c0c651c111e5419c2907cb32ea38f90e0ca96f5592a8b0d,
  0x6824d94daec5e75c077dc295de14542d3c9c218305bcd54f2a2ac736667ef054,
  0x358ddb1a488ad1c4f3c2ab3a951dc445f31aaa02244b51509df2eb15acfb4aa]

def cD125 : List Nat := [
  0x66ea6155950eb5ed09286bd68b03c4388cd1d8b1a72b072d4ad7e9461a381b9d,
  0x55e94baed12d4943adbdc9ec6492aa717030699ba6ef314864f8eb9a61c589a0,
  0x61e1e6ea5080e06c3aeeaa96bed76232949b849ac2fbaac78a74ca2b7004637b,
  0x47886b7ef238cdd68f1b47294774371ba16b6065366e07882a3d65b0030efc3d,
  0x48668237c996205190ea876a749b226c5d2815e8d85c33c6cc32bbb2378d56b7,
  0x4d3bada637d2f2ad39bbbfda128b2c2ba647ff6a0c7836687479854279810daa,
  0x3e5633d805ee30adc66738d47f5f679a9e6c9afc58207ac08e3aea12fd812b67,
  0x330570e6e0b45d919b112891796313c561933df622bc6c379f0d423f78d3e2a8,
  0x35bad59ad801250fc6c0a92c0d0497e8437e9558ff26ec4b8d3e59a2098e9352,
  0x102878ce44d7ada795fed127b05493c47d8a4fc736d55dff4a00da6f098939e4,
  0x4cb401750850996415aebc98ee7eb63df3c1574f5797287f1dab1513ff46b08a,
  0x69e52d17295699ef1ffab16eca838d8ce91358edbc92ee76fc1aeb3e2879e419,
  0x419102248114ca4f37c1e56e416135eb7d765a7c926658bd4ebeabba07dedec5,
  0x60d9cb7c148a0ba599bf2bc9bdbcc5dccc4e9a9aba46c9c757535278ee6ddcb9,
  0xd8ea7003d30c6c5bc1513860585c9d847abe43b0e38a3fe5cc4d7ddb2eb7e08,
  0x39aaf344061fe1ff722d66f8aca07bcb2b546baa8292956ad4ca273b066a57fa]

def cD126 : List Nat := [
  0x23d921dcf0e32ba6020e7bea843ec3fe34fe7ecf99dcf56194b7a7388c516eb0,
  0x4761a7d4b7ce796519a7ea0eada95f4add175b813cf01e288d1c545d1689a1a7,
  0x1693219a106b3630c162b8f2b7eb3c03ab0e4364c9d8dcd8748686b8618e67a9,
  0xd9669b8085ff10e0921e00f32680958e9ab5fbbba8b44aa851585896f4c27bc,
  0x729d88c8cf60c9d8dad51582f7f3af84385eb3b38a686739eb04877cf0bbba49,
  0x115aeaa3dd588afe19fec023a04b69ef45eea0045ea94cb225237dcd3d5dd100,
  0x4c03a44daab978a10a657b62d137f90747e1558a6d621a134b417e7d5ac3bbb2,
  0x33c8a46576a25e81014bae4f841e7d41d678ebcd6574627892056aae6dda3eba,
  0x44628a35ea337734e533a07b10e0c3689227a95f855dfb38bb033cbcf53b88b6,
  0x6988ffcecebc4f024f64d31ee9f766a7ec141549178db35e3851c071bb7f075c,
  0x1b822dac38a6c2562bc0326444d032fc786ca23d8019f7d49153db24cd96389f,
  0x5f3a1564e031bbfdaad3a306f3ede8ac4d5ebf82cad71bd3201e0113b80f0b34,
  0x2b1a0f4490e4904c4841c105ef04541b5780d182d35337013adf8e3307e736b9,
  0x7368c02d21cfd45aeba131832a0f96ac250d49a293383c9abcdddb25bef708a1,
  0x4c3ff1fbb98d8404d9533cc190c8bd7fd734ef5e3af201f6c71211ca329704b8,
  0x3acb9f8eac550951555d6281fee1a2a90e79d6608ff0036e61e00a5f4acbc966]

def cD127 : List Nat := [
  0x644e53a61f7d758d4932367d1d10fccbff6c464fb4a21b7c3ed26c506f6cad20,
  0x671d21a0cae7a305280bbb23fa3dd66427f9618317776a15406f8475ca3de38f,
  0x8aa95c823311348683e983fadf091624b0c21a6b60b4fb1db20ed8d84ca5181,
  0x4310f1738e575b0f2a268e49660fd9b8d94f7e485f70c86befff5a1ec37db14b,
  0x2fc94eca1533d96d4855a7c07c93d5171519fb692398aaf6246480780780200d,
  0x61afc140c3ac9d1a96cf98b31bf1f3fa2b73e726b797107042b28081fced45ea,
  0x1360992c0a5195d63327a3c38573a5139f7a34c0e0e9619ef007da48a5cb20f1,
  0x6c5fc6e7ad2f44f85fee6355472e5f7dde31d0d65464426e7ed0567209abaef7,
  0x6376346ad5a8a29f1e5a1b458c803fb9171b9d4d0debbd6e3f79c944f8abc842,
  0x5662d1db00976b4cd1705e28f4a248309f37a3df26b54720c1486f5423f6b077,
  0x1da7b300d0a5c71734df2b5de8e1d3f1db37ce75c0a5535c08525c6fe8241f38,
  0x2b4b6590a1ec7dc9e2d1e9e9699e6886ddeb3288afd620612585e7de6fca5969,
  0x666bd2aaae22ecd5cba0b4d56a691d712d8e89c19d93b0ab23bfac6a38dc3f8,
  0xe30e19d78494721445ea89cfd683f9bbbfbca45855714e12cee5058c68a4409,
  0x4207d5002fa5ac8fd16c4a8ec6fd185d3331c9bc31b3a662f29cbad7717d5bfa,
  0x529b372eec04f11b8e307d5f45cca5cf84b77e01ecc536557402319656bb82c]

def cD128 : List Nat := [
  0x6a0f530e5b47e8be1bc1115512448f513a8f714c2bd5d7e56233310e9c9a9ba1,
  0x4cf866017fb6733745c53332b0ea9eaf84800b19e5bb1f9946b06cadca8edb0c,
  0x78b1a26685c0a3b1914c8f07d140c0609b4e6ba9ee67681efe6e533134cbb60,
  0x618663dabe4fc12383c5462311f8ff9fc6659a66c69c85d5e750e4d1358c367a,
  0x2adda28b03f8a249cfe0c6ab3f0a50e0ac8876aadacd468265f2dbfac3809bab,
  0x59d0535c7f3dfa7639ee68446ed29b029b893819397875a3c8465f12bac7fc08,
  0x6a7994d42ed21c7becc2ba87bbe59ad9f02bbeb27e0f4d58e3fff700c881582e,
  0x6a9fc0635e36a8d085f95a9dc6173cf4dbb9fd5560b99b408cad279429a442b9,
  0x63355eedbff37da1d088df40acbca44ce6aa3cf3cee15164e8cf5e3ef1cbfa48,
  0x622da0fca8feab24c72831cd7d9a2b041385b80685e3941301675c84957d4866,
  0x33b9ae2ae01f3574b901cbc54298f6b6f8cda688e3aa4610f393cfa142345146,
  0x2a44062fa50bf87f77f2afee14ac52fbfc07d725e3a324b28bf7139fd0ff9b11,
  0xa7e7fc2621414d91ef0f804611ec9dc2feeac844695d1c0a37b68fe1c452e2f,
  0x199e05cf0c9605707d64946b9ef6eac39bf3a41bb03bddf55bb0ccf195e53597,
  0x1e6b633e66e931a7f01803110df992e89f19ad4f3dd925fa7bffbd4857099c9e,
  0x4cc6179ec8ced38b0c2d54614af8a419b2ecd9a17c775de6ef0a5aa99bbea75c]

def cD129 : List Nat := [
  0x10d240748c396845277cccbe7254c21dfd83512019b33d14eaeefa0206321175,
  0x68a669dc9b1ab585406586ed29d8f478490cb731650a3f809edf54caa52d927f,
  0x6b61cc2a5028fcf92839fc184934900f51b57fa3af9f0c7e4705e2cc77fe8e86,
  0x3ba923a6c7e316cdb079db7584bf4d039023ae86fd160d109daec343b2ea96a,
  0x28b12f9bfdd6f16f5c9068c54d856a724219845547673670b90660ac27560edc,
  0x50512ccc13d348da138a54389806a1baf0453f3b7b1b597dd9a42f79dea6ca31,
  0x32a7031df6f38e9e4163238fb0df0227b228ad7da9fd27f2e3963525bab88fb4,
  0x60f21e7c0b84826c57c51d6d3ab35f1236c4fe71e6a488da0aeba758a3a93293,
  0x2dc7e65f02aa6e60fa16f38316ef3b5c697518bc9b0c84ca79b3cfaa54b91ab6,
  0x6e17d46cae2925fa95eecc4a34a792f1c2149cbc91f368adbbbe72939eb7085f,
  0x21106c66481a11fc72956243d4ddeb7900b79d5acc5038be0228347b8787bc1,
  0x5eafcf675e7f4fdb4c018faa426261b042dbcd1af1055d1b1a81dd4b59e470fe,
  0x4422172944f20b0ac56b31c372b7822d8d6f2eec2ae745df6b29398ca4e2da4e,
  0x3fa047d26d55427b178e6027edae6be6d2aa4fb8412c8c021b001ce670f3fa4f,
  0x2de9d6b8337faaf7de2b4cde18420ba66088cd8fe8099740511f937464174037,
  0x738ac2ca0b1d099db40b1b9fa998ef7859c6b9e80dd2f65dc2da9171d733a4b8]

def cD130 : List Nat := [
  0x70f88f81747dfccd668bd79a41ce8f98c87afec4ad422e9908257bb254bfd25f,
  0x312ef9d8b6094cde13ff443745d26af8537379de4e77c692025d31fc0b049500,
  0x62f86aca2ca453c66d0ce0946334710402444cf5c929a4777387ce728ff24c1,
  0x2c8edc6598a9c07ffd6cf76dc091aee734607e2303eab85b09d2ab510b2ffc52,
  0x63179e5f3f0952f4b71f1994e7ac080123db0942b330d8778958b286833fe022,
  0x4094130312259f8d69d494c5a19eb753c5ac53a24bba2e3ad2e7c33dd00dee5c,
  0x4a1b87a508e7ed2793e906bc57ba38cfd70038a1e742e1e9c30345370ffdd90f,
  0x528f013c562d52f961f3077795c03f4cb525d07cab59af6d619538d839f0df6e,
  0x6764ab0b6000d19168b202573cb6a4a20c9733c5b0f70471acf4e2a3bd85b69d,
  0x2391497acc34ca3a09389cceb0589cd8471aca2294dd4c855cc3494436827310,
  0x582dfef03d76cd759c1875697cb555f886a08b052368d40551a94146b9d04894,
  0x73133e80cbde8d090903acad83d56d858161b3b596b674895195866f2b0fe179,
  0x33478eb92e7baf6961ab0a8ef479825f6a5fcf900831171ea660d3d50b6f99f2,
  0xedb5d8f8b658f4b9911662e5a5d14b6690e41e089fdae3fced8f4aea2a682b,
  0x2a36a09273cd325400bf38f8c4dbd0c18f81246a4589c531cee37e0cbc5b5767,
  0x436cd5d940a3f10935479f4a0a57b5c34cdfbb3107ac1848e8263e56f2ac91]

def cD131 : List Nat := [
  0x45d014eed3b150a23707949691dc4046c6b19baf464fbca2cdc2e09f3b8ac730,
  0x3ca8d23d6b23bf1f2ef9e8ae2a304203b12cea1ea2fdfd7057be238a42dd761a,
  0x25a243e44e8b36ee10aa41b5f00cfbc0b57a2ef9872fed5f587b47cef3785b18,
  0x9e166d086ea4fadd890af5fc7d9fd014300681634628e5f3aaaea6401310fd9,
  0x9f3261d72745ad0629f18108236f99b4037b26ec6076124fc34e9c41cb4e8e,
  0x3c6f555b1d1a5a51a5c5e4844b5f4e60d98ea5038a2cee707c19b3bca8c0cbbe,
  0x39ff2d713e53c539ed2226576fd18a478efbfbe8c12e91fe3250beb5e8e9debb,
  0x384a15a96bb0f056d36156bb3d43ae38f7d1f86ec88611ba473fcc37537d4b25,
  0x3a1ba303b3caff162b3114b44671558ec74c33ee24175b7cde88d1a795c53969,
  0x31d9c5f0dbe29dc298f7d395a737966a0979ae66d1a64586c9e60590928e9f4d,
  0x2ed5699486042cd29f961bedc4d380297b43c592dfea4833497c00596b3e6320,
  0x337748dbf94463af625affc6a842a5bf43b7306a2ce3849bfbec3c21e616bc8d,
  0x340389dfece00361ec081ee2e811edb0a220fb7398073c578ba777687028c3e,
  0x5d5eb909d8501bdd5f911068755127fc478987641ee5ba6cf27ea1223a9bd99f,
  0x2a9b9fe6ae4984174190221db423a78e74914df4831cf711fa88ac8b0a112266,
  0x66ef691a5ccaf4b6b4d4f6444ceedf234e5f221331589380b653711f2ac8b519]

def cD132 : List Nat := [
  0x5e46cbbb7fc810a5d07ce7d5d6f1ecbe2269ef2985faf843a2d1283a48914585,
  0x356c7a1c2c683cb0225d802fc8bf20e07212aa9a5974dda9511a7bdb798e0df3,
  0x414ab9edcad37e6608c76699cd7ae9e0a8d588b35832934d5ffd5aab5be090cf,
  0x46c1d3fafbcccdaf9b8cc17906bab9b9bc21466dd3fa677e9fbb952c82584622,
  0x4609e8350a4fa408796bf43dcb463f8ae9b8b1bd802e96b842dcebc08a1f5872,
  0xb458f3e49a8a83609fe90290b31cb9bd30a46bfeda3b1266cdc4c7ef1f2c952,
  0x7324356b2655aab1bbfe816f78fd60f5de501dfcaf21c0033cb8f98171ce1ecb,
  0x114f1521ba73268f57446eb6707447a616045e93b7cd5f168f2f1a42aafaf8c0,
  0x695deb526e50bb0c6241d00ae4c9b5fe9b28e3e63443945863b2be9fcf38e128,
  0xe94ca180f480520b9d53b67fbf51ba82ba1d445ef54ba7905e2025b24c4e2d3,
  0x5fc170dec936d4cf1c6b5ba91d6313db412367d4c0aee66a1ddfc8942a70e7c2,
  0x695a309edbf5db511233bdb4798ac01e4126106b5d8b5a2625b5db3e7d17f9c0,
  0x185d15347cffe7d61066f8951ede2c7e816c2c7d4a53a3e133c3b62b2d245c04,
  0x30ac2a8d7c1f52355f4b7d73aa1aafd84cfda62455af111da9949bafac57f739,
  0x23e4698eb92e6d897712215b6aab7bdbbba8d63c23c3fa195af8a3ddf4445102,
  0x259db873d3f6ab3b3b2d90b67ecbf4ab277c169275f2bcdd34ad26f8c68a576f]

def cD133 : List Nat := [
  0x52206410f22aeb9668bbac4a71fa5c02b646bf09706d0ca773d8504b530343b0,
  0x56e077678e9acbb611525942d0e2c4146969e876d721a44d89dcceae48674586,
  0x32b603c0513d0c7f03d34d513c24443777ccc14be7919eed58bb311edd3da954,
  0x5d7e930b9c084fc1113e6b91523ce6bbf8812c4036fbf2756a07772290c71c23,
  0x263f83f48fa11e5a55dbbcc6afbf48bc9429ec66dae999a17b09754f10627b84,
  0x6c1913f730699b5dd7ca5506cc58db7dae993aef10746e06a8ab2b83aac36909,
  0x6243fb3524f6e58ac6c344dc4fafe265ac68f0ddae41050c4fc30e2f19111aa1,
  0x3e19691eb0d70c4b4242e2da15919afa83bec51bdb95a77b7e3e0e10791363df,
  0x46c38a7777a2bebc67b07e56c04d2237d868841de27512fb73ad749eb8f7637f,
  0x3999489cde87b5a633ea28d0b8e4488112ad5ad2698a7d2a60f6fc5a68a8c1a0,
  0x6e6af38449c73e4c0051e11e4dd1efa5da0b6ba2488e9fff2ed3e780987bd664,
  0x801f9273135ee1aa47b43114194ff3aee58a7838d7b2e4b2dd0635bdfeb7d88,
  0x308bed614822a34df0d2041ef4e53f8db73902e3b7778c292568c0f2d6f72dab,
  0x4dddbf2618ab5c05f7715afa94301453dc0118fd5d8bf8483aa655cd822b8e0d,
  0x3c7bcecb6131b1985fd3b83983ff4a4257052da6263c3bbb0da640d563073539,
  0x2b5be244e89913dcf0d778ab9afdbc6e1eb04b0c6793f32958f4ddb17b5fae48]

def cD134 : List Nat := [
  0x62db63df509be9c647e2dcdde6bd1df4d5a46b77f050196be29f3f1451472285,
  0x21642a16318fe3a13fbac28bd773b40641052422229b8b2a0e9c6826b94f3af7,
  0x39e13008ad33d3d52d84bc37797393a0e412b3a4cd38ff2d51a39a9f0e4f9676,
  0x415176652b264a01cf76fe07ba45c96b9e59cbafad2f5b7d3448c28c7ed3c045,
  0x674c9380ab211ec1b1332b39b1f5aaf10cf53c96135596da1a5fd3907a8666c2,
  0x50e085723629c153e9550563a8b1743991e40fc41b3588d78cf2ae98484bdafd,
  0x137b9e99e19faab654891ed0052d9a2a746b16564b43715b90a2199b0e9ac3c9,
  0x19e86f708fd71e987dd1a82d36914243592d868fe27bf79321208d2cfcd82bd4,
  0x6692bf5cd0f1ed7ce020a1cb82b9f19135e51d16d14897231c5265879b85fccd,
  0xf60941dbe28da4a84bf6b6d8c394753def26f157ac70fe6c6e82e57a9126cd0,
  0x24ade4263fdccacff0548ccd10d00430b6a917e17c73031639db6000fc35f7e2,
  0x188e0d50455e3f0cea5a04cd13ccd3840007d83b1831787358f46e51f5547648,
  0x1613cd7cfa244c0965894f43b9994e1a5f68361bcc61fe6055a2719302889b2c,
  0x7356aadd24d4b96664297c3da6216841628039e3f2f40ec24e0a44da51d63988,
  0x73736bc61743ebd8ce53cc5d4233415690d00f2cd548abaa92a30b764cdaa972,
  0x1d3289e989305d114b1d224cf1ddb40d482ca860822582f862cdcf479eb78081]

def cD135 : List Nat := [
  0x4309f03d5e27fa48b879d85a65677b6779f58af603996fbd259826fc89d3a628,
  0x3f0d2b951846b18f258fd46e5b3ad609e939717b41b025619d81d0209d76b32d,
  0x1856dcc3a4457621fb26fa05956ecb8646f847700ea2cfeb5effe14f129ee266,
  0x105fda9d2f921c9c9ca4038261c659d97afbbdc8c8c545c153353433751f0732,
  0x623c8c067160445ecc387af3330a448f4b0d6e1bcb6eb3fb2765b93ca60eec41,
  0x40ceb00ccbcb3108e41eac0e38e232ebead8ddbdb3a697f7c587109916fab117,
  0x1e2aa67e2737948b42f1ce4faee94e72d1f82ac7327379295bc6b15bfa3778b8,
  0x5525dcc1050eec11b09f6d3a1fbdb7ebd43e824368363fd69d4b96d459d28605,
  0x435d807c2dd08db6add4e477520bcf39049d92d0ddd3a308b74fba007c894de3,
  0x65501032d88eca3527c6bfeb99f83dc0cbd48fc9b0b038141544be990be585cb,
  0x5bb0f721660bfc4f3ee9c5273138d9c9b06c04f179b869cd2a52737f149e564f,
  0x161e83f9df657713a52d7f286db0292e81a6d256cb5faad14fd72b8950cd4d00,
  0x37c7a72cee8486f5e94c4468a2dfa6625a00e66fbe13368147ff3dce486c7f9,
  0x21b0d15174443b5c65a94293144944e0949b3ea3dbbfbe44acb4c950133ecae1,
  0x5c84d60b65907068eef6813e8037cfc343495f562a7484d1b4c188f8655d9909,
  0x410d1ce140cdeed422836ae71aecb0569c70b443f5c886be4f727d9c248cb7f5]

def cD136 : List Nat := [
  0x358caf38d5bb2422019153cf6cf0259ab5b6ec290a6e45be51dbea86cef925e1,
  0xbf0e995d3dd47046ef917d93def423a480ecc53652e2017b728b5ba1d4e13b4,
  0x613e83a2a5238e6b799b7fcc182e156dff1b7773f9b812e5a149fd3e371328,
  0x5769ff295dcc01b4e5241a5dc4ab6ac26d36925d264e447f4b8c7131fda3e835,
  0x206716ae5c455389513ab71401bea8409e364655920b2dd7c337490317839a06,
  0x34ee4d61fcd6d8b247ec7215722e13a403179a85b2a192cbd71139f3423db4d1,
  0x7063ec78aa33beee47df2c21cebc776779282daded181629d28c33b842322172,
  0x4f5d9a44bb23202ed327dddc19d7b30d897f17d7292ae2f4eabb8f9b4b23ee06,
  0x558f6d285a1f11a67db83f54aed9f45732d9523b5ae414e3cc6aa24e02acdb3a,
  0xa1602c24f019e0352608e6703e67b5c809b91251ddebd7829fef41a14444571,
  0x112b3457df730b87f98cc9ede55d64d6c0205ec8baa95a298bb67e6032999f75,
  0x450ae9b576bcaf48f763293a9733fb7a876b1aa2677295931b2613c20235e875,
  0x2f8a445aac1bad3cd018e1a7aacef06bc939aeeed5171bb3ab5676aefb30aaef,
  0x1d585eb9dab44638675611f01a65dcd55ca965e67edd54165bbdee3243d6ab31,
  0x2b0972cc1a4636e16e02d40a00125790b26df06e7fd28ff2a8896204cc302ec2,
  0x53502125ace246eafa69e6df97ac761555eb55599f8d10c03a7d111c1f3c72f]

def cD137 : List Nat := [
  0x5135dd9d12aa784a31b94e25b3242b8016471e4a807d815beb815e15350e6c89,
  0x286d06ffb95101d409f68c224afc565a06645ecc81f61e44f2108ebd5d5d2e53,
  0x14ebe6300c2504b0c6e0d8fe60d557315de8face9937d86430a205546c651359,
  0x2bf0f8b7d8ee5f0376f43d425e3bce1c6570572f88cfe42cd81ddadbee86c1ab,
  0x718422cbb01ab924df7a6192426fcf8d5d0117c16062a3114600a1ac5317de10,
  0x323bb4f27b8c7c8f1e9228a91d9df9d0b911de833099c5224efb17a8fcb3effe,
  0x383d360fa3c820bc543036c475daf7c1bea2f8549260244c8acbe0e755b215fc,
  0x68224b8a03df10da716e83662e161d6c34a86fe838edd9c2718e21f62abb5e58,
  0x1412692b518e69afc96f2b1302afac26fd945e011d5a6f1102106267e7cd116b,
  0xdc7891c747ddc5de320b9b33bf0ee2b94f992c5ddd1013fb7b1a2cfbd35fc50,
  0x649435ff0b6c9afa7e44146e3c1c85701b814a7b4bb2e18b7ab7f7793986dd1b,
  0x49c4acfdcd721c472642658673dd199207c11290a295dd2d3c115b6069c4f49,
  0x5a1a6199897719652fe69645dd7913d57ddacf39bd30a537c5ab06d2b98268f8,
  0x76f1694c57132f2b28c94577340546cc1e1a2276a38c0b2c6ad9755be4c1c98,
  0x56ddd4f49559dfcc0f822de0c409671e56502e3ba2e266a15c5523c4a656873b,
  0x21ddf5f857c701eb831af40015ae25df619a7e27de46d4c80e5b8cdecce6ac9d]

def cD138 : List Nat := [
  0x1479b1cfab3ff42e828e9272f273aa059733f3454c792eed7b9c5a784ffe6a7f,
  0x399037dfa55764f69aa5e165ca536af547108ccae971c247699d53e48e02d4c1,
  0xfde9dfcda61fa342e406021ccf62bd5bb2dd2f4ca9233ff9a8ace78f5ab8b57,
  0xd81eb9cf8effa741d7198de35be872c4500779985735d8d5cbe19690835cb12,
  0x53ce098796429a80137a7b51a25eda766e4f1576c4e9b108515ea6238ee1ff8,
  0xf7e9cfc8542a2b8bfcbaa5f66902db5bdf0980574ed56f9cd24efa9a9e14bd2,
  0x422b1a2846f523f2539989900005c5f8a46456f844e2313c9a3236825cff7dd0,
  0x24e5718974b07cf01c964c1ffe194d4dab1c554e92cafd30ffcd9cfc20fe8e3b,
  0xf781cec890deda3861bd7085d10a9ae77cc82b49e5b73a71189ad91b9669cfa,
  0x269e0be1a77de999639ade422914ced34a1bf22c015035c8105d5e46c1cb5f3e,
  0x50ed2d34110d3d98734ec7fcc958349fed937271b199da05de80bd9107f802f1,
  0xb4c9321306dde0671a3b2800ad0a55ee9e86bbd14437d29dec8b1c1fc401b5c,
  0x8a9587d04e998e35aa306d75e823954c2c8669e9a50c688c0b73bade761ca91,
  0x294ba878a57e10171bc50e23f63810c2dad1d3616263111291fadb9f2f8fe5fa,
  0x136a421f6fe60617cf41d0390975a2fb3b56aa41e9275be66ea59b5234470fc9,
  0x654e30ffafe2a34b9f422d2f83da87c2717170e00c05a32ca21a30552b5e24ac]

def cD139 : List Nat := [
  0x37a8a479447bb5e2866347d766d07bd9750551a3b48a96df1aed3de28afeec3b,
  0x1e127aa0f78c4c32fee6a35a8c6bcd5687ecccf542ebc0ab15f974ddded0cbca,
  0x126d080d67457b1429d305101486859027ddc04971ea5a38a8798f1dd45b26c1,
  0x231c30180b12673e328fadedf171300a80eaf02aa0c23a156743ca71234f650d,
  0x460693b423679b007ca1b09ae0f64a6c96fdf524b2f64de38b69e10733623fdb,
  0x25033ddd4e68549de9773f029b0892bdf6cdce1df908aca82785f2f84843d0d6,
  0x60b6e288a0e67ab6c448f17e7837405aac0d612aea4dbc85e084c0dba96adfa6,
  0x3a22a5e352905a4c5a944df490914c913e9ca9b84c98d8642612ec02ff19bd9a,
  0x5e2e88f6d1cac0673bce51c240eb7e44aecbc431e7772ea7a1defc1cb1b88c60,
  0x1b8c512d226ed75d9e4d2b082290513b39fdc4943fd8acc0b7ddcd76e1fd849a,
  0x7065023b00e1ca76630faf07fbee33b21522416480d15e58c1673c3b46bb9b95,
  0x4b83f73ed81e5fe8e6d148796e5b06b0e1d19556491adcf062e7bb79912c067c,
  0x2c66e4e785782e6908e233fbcb0401fdbdee2af19d0163972d12a2243b5489a7,
  0xf0d790b153a0c3ea53e75f50c618f3b4f6892a4acfe70a3727d99578936ceb4,
  0x1c6248b5b5eda8d1f259ee81ede32c605630ac3f670b8d837e70ec56764c0cf5,
  0x5b048013b768480a14bb7da46ce6bcaf05d107d4b9f9d85bbf2320ca8fb89d9a]

def cD140 : List Nat := [
  0x1d46f1e91095d4c6405c6d57fc041d5cd97d6b67c9b1f91e444cc1236fd663b6,
  0x31501560986b3cf149a8b39f19f79b0d53d9e328b89719affbaa2200a071d4a2,
  0x22b24604bec72a662cad73a74a3134f2e5823e5d64571843ade2f2220b186b38,
  0x6cfe5102adcee74072242b8efcbeb9f7f750cb336ed28fb64453d112b75e382e,
  0x13bf66f7927e469b5082505047afc649f98a253d09ff838940d8db68d6012ed7,
  0x19e63d81d2cbfe891809676f9da8d2ae0a2f2b9bac963c07d1080d25e2123e04,
  0x6434a9c254957a84f9f9e790ebac352aa943caccc965f730effd642e32e92bad,
  0x3fe41371745d27a972d7ef8d139b18522fc393f498dfcd3f4f99af1928c0d4d2,
  0x3614a50fd5bab494403537ef34eab6ffb762146292168fceb53e2d4559e1bf32,
  0x27fc05f7fe820d267f3120f0336b9e3834d25ab56978e456623525d0f8fb3e8f,
  0x48ac54b13ed8d1356ac299a3cfe65d0ae88c356de0c8c7c0ba8796a160dc52d6,
  0x4aec72f3cb6eaf16861e6708d1fc9bf7e59964bf41ed08ec35029257b67a0195,
  0x4faf17c8139cf257c17d64273eb2d41503f8a3901384b4a9b5c0c2af2e320a7e,
  0xecfd34aa93d8d31259f959d8826f99e520e631c5d279b033eaba2dcad525152,
  0x36365f5f861ae290e440776a8a24bd0ab1c7f9335239309f4c19dccfd287f07b,
  0xac109bcedc9a3a3929ec8070e1f4f768f306920887410e4d3255fdd2754b17f]

def cD141 : List Nat := [
  0x11c0048040f5287d4d923849f15117657803cafb9b328e3ddf946e255cc240e3,
  0x7f0abced9112fa1419a62f8fcd51e47c842bd6eea2113d3deef4ba94fc59144,
  0x2fb3e1f838fb163dc91f347e3738922a8aa3fd1f60d7f4ca0708a2e58d649722,
  0x4477e0f82965beb661b35baa22fe1ef6ea7a1fd220b8ed9358a5ee8fb198a414,
  0x1bc184ee039cda7dd741d9e182ef9eef27dbd8835bb5f9804e43c6404359991c,
  0x3b248b3534e7255d02f5cbb9edb8260f589d1d904c97b0fd28326991c9ec5c4d,
  0x3b2beb59fdf91f3aba8ab6c1b937132841051ea0744a3ac4ce59da141d58c407,
  0x10d2aae66b987abf20911f7d2c69a8e90a6e8e9d54eeb2c5814de7fbc395cbbf,
  0x2eaa62f413e3a2213c9bd09f18662aa89c3bd6a639ffa28c1961a33a2e22cdf9,
  0x52abeb27760008d01791dcd2fc224d5f9ac72f0be12821ec1d41f34353b076de,
  0x19b05fa340956303ffba8e14bc218c1ab3641095e5fe56865826fecdeb0350e9,
  0x263fd992cfe470d739c5a573660627368033e42a41ca36228467371ffd29cbf3,
  0x4f426b6778123df51f6e882178569d82799522b8a83e3373a04557f05d46b5f6,
  0x33eb8c8c25c8164570e85840d29621c15e62add28cd89cada87efc155efb7b8f,
  0x6b40795dbfe8f5b905ecb41b2014b1df061660caeb3c6534da3d07a5a3da1962,
  0x246d51dfeb7ed58e24ffe3cdf06f984d522ab5aae28658ecb720c74fb2bbaf35]

def cD142 : List Nat := [
  0x3979a26a8f5d44373e6fe38cde025009a843cf71f59def3a86385bb1d39b635a,
  0x5b30b2e3178b902543fb07ef2c51ffe105e9765b0f36b5f27bbe5f2281083d6a,
  0x327b66aaba4429a14bf30cf649585339090301da726e057c47751767c7b8d389,
  0x7944ddefbdc613c02d72ad6a318286431d1f5ca64d34236b5a909da5ad3e281,
  0x552f0fd1efe770ad49ae09ed576163080e80e948889f3593cd62ef44fdc69e34,
  0x70caf5aca5d7e2446ae0e041c126be612630cf30627703ae38a03c3c336fb98f,
  0x2eb026a72b0d504fdcffcf7f8f042d320251f010fe143b8c10c7af11d91a5e5d,
  0x4de0bc8d7581f82d0c924fccb4cd4c934b00dbe78cad9c67012b47a65cb4e241,
  0x614c07819aa47ac9b35a5eef9d6f1f3d2ae3c8b75f3a1bc0ee2aa06b03fc8d63,
  0x210bf1c59a444399f563510cde397d58b19ae0e403a4ba52dc7728b6f06e4fac,
  0x61206def80292926f56917840ffaa4f6a11e5fd3672bcaf71dc656026131d3f6,
  0x5682b90eb38831c6c2e842bc33e55dae7ea75923f95b74aee92ddbaba293d8e5,
  0x51c6c8b6dd6823114a5515c23045962c37fb2076f713239577271c6a7362899c,
  0x2154c1ceef865fa5189cec91833c18e0065c22045b4414a1206709d0460f48fe,
  0x4aef16578e143e0b649a94ae6a37942891c2977d46dd1ff8c771d5f4777cd1d2,
  0x2e6b3372a56f82e81bc299e6c5e275b8ca7760dac01901b90049b10dbe6de376]

def cD143 : List Nat := [
  0x16ffee9ee411d5bde806711ecfb1ed84ceec121c79c2204c39a1f812bce7f507,
  0x5bb1cca481006534131da52f222e1c97a462e8f29a65912a63e46908a2a7ccfe,
  0x6bd62eaa4777a5fa2bf446dcfe5e2f8608e34bcafe37e46cee8321bb706c858b,
  0x31520b0005e21155a377cc7259f46c1e97165d083bd1ea2c1fc7b0e44e724efb,
  0x139618449dc040f141ac0f9d1ae14e91b7349566c87af329b0579cf054a6f983,
  0x5ef3e0b636dc3a4a8c07059437417bb0e382c5274ddeebccdbf983a7bc5e0299,
  0x4bbd0622f5c01732648732ab8b68ce3ca38691be045650e67b721a17574d5732,
  0x6efee01ace5c24e092c9318d5e64e74b177745bbbeac3acfb6c08b4f6c8793bf,
  0x112200d3076ad745aaa45ea12663d69e45b4a0d7f4c086bb1ad5bcf1992ba5e2,
  0x736a8166f5a650476e964f9009246977e0b6e37d4be48046befc5174500e1e18,
  0x18a67c7034fc6e3250511f0df1c270390e60c4884a32521bbfc17c7ff73b2750,
  0xa561cd1c921bb4811ca22ffdb3c6c8ec4b82d71414cdb44c89c4d4ad9afcbb6,
  0x6f34845962f8e18a204ae613d182527ecdbe5e7833cfa6e6833a807549d7fac7,
  0x915fb59e4b2c2b4eb0cf52b9fd4b33ab551cbb93c331131e02c329d644aee05,
  0x17519fbd342f416b6162a3181a4eff15dfc708e74676369c7f2a1f59caca7bd4,
  0x2e92714cbe8975a0e47c64c9ddf628b2ef97b3db651598cf93ed75a04ccb75b5]

def cD144 : List Nat := [
  0x298992a9f97d71df1c0f20e7cb219c2ff128d26461f29d50bac5e3e9780cb116,
  0x7282a397f8e0f1afc435fa1dc632aa9757a2f62028ba0b44c42e35756c5b5f6c,
  0x6f1e2c555e9dbf3dd55429bd3e1632b7fbfa879b758ba40e4241dca800cf0b65,
  0x4313521e778e5332c86f12b5a9d1eba757ab905f15882ff20421947d7e0ecb82,
  0x12326290eb0a924808594164ef8276e744706f673ccabf46eaec864db99605fc,
  0x2b4daed47aee54f23fc26a7452714e147a25be32a970afe915dedc1247faef91,
  0x60ad93e950188332f24a1c6fba980c18f37e9f6544f78e834108e8d9e1b9b05e,
  0x4609f4f681f3f039424cb62825019d3b921cf71e616c6564b11032a833ad153b,
  0x3378d0cf68b954010eddae9c3f9df0bf9cda35798f07472b2e0f06c27ec9c78,
  0x8b474169f7af4859bab249ee0214b2f76766bb65590596507bf1982f920d28e,
  0x4154b36f7ac5eb5117105088ef06b5a7698e4111436113c5ea77717d322a44d4,
  0x3961e9b4f79dbf5684cc1510fd8d6480cda316daac58d658e7fd06a4c49db638,
  0x54cc1c4ff21a33b3c7bbb4a292f88ff0710babb7396c1a0fe003f51bf6c8ce1d,
  0x6dc2196deb268e1ab4a6c3b7b1451a3ed913ae8aa1eaae6d57b0cd85ab2b8d8a,
  0x32c8d724231d148b57a79a03e5627b237b4cf7fecba1a18211818bd1a33a8256,
  0x4b426155b4e8ec995d794f9430a4a52c883a97edb79a1c2604040a23c078ae81]

def cD145 : List Nat := [
  0x61861e5716fecf0af4998c4a3f90b5eef8072330f2411abde7022b7d058883fc,
  0x56662108c839737c3b3a396b21eaa653788713a19cb81653fe4dd3cdef28c8a2,
  0x477e41ef811d1ff4c18d8e0a5bab677567c19a7a25d8e4bed8e41faa69aabf49,
  0x59f3a46a0a9731761652e445ed97ecaa451e6445da36c0a4ab5315edbd56ee1,
  0x133657ccaa3ac3aea5c856cd9682e0d3ac0f30aaf1dec3339e144d5bb5fca9dd,
  0xe61bff59fc902d357d9c51cd6da233805e46bf8f6b7e86a2877c6e36c1b29e5,
  0x5f5a3b09e54d14c664688071aaeddd70eb93545af4560891861d74a3082f3953,
  0x3802ab3a844364661195d7e7299f0c9c4764788c617cb7db9c920676d6d20833,
  0x3accb9651c6e5496142c4b5eb70ba8b9aa6f0d721bc3e3cbe143d1948491859c,
  0x293740100ec4e76ac92d828d5d55190f75d0aaeb8f1e35d77cee52c20d8796b6,
  0x19ac2cef4e09c5ad09f5bf439f248948276134392dda0ebb9cd575bfd70bd024,
  0x40ce77dcc23b4dfae4c989dbbac5416e0169f0b693b888003169f882fc43d733,
  0x696f052ce95adf21e2840147d1ea5b6e5b935e2ccbdc7072a7bdf10398cee212,
  0x59ee3153946b6824d6a51f566cc1f6800181d01969712633c0535e8ffb9f96a9,
  0x1b66e4286c79999ad6df2b3f3a732402d738687a330f4307655248a367179333,
  0x604ffd556dfc9b3ee028aaffe94c902911aa683bee4dbe88798ad9ffe9184b2d]

def cD146 : List Nat := [
  0x15d06f3937e6061bd6102251c79b406c8c22f5534b66eba0b0aebf5589fe70f1,
  0xc15841e61b1503020a5f2ef3aa961088494061e81a97f61d59ea5220564fae0,
  0x26967b1308e05d8cb2702e3b687cdf96eefea2e53a4dff2741fc2e5b3ee2ef68,
  0x2266087db6036f13bc7b3f37a325a92b6579acf4d57ac5a112ffe2867005e259,
  0x6b46b4e6a2ffc52ee6ac5c5230c8bc952e6c2c5218ad01c2a4ae2ac35e114a5e,
  0x1f4195ae6963ddaa9f672b41b204563e9cd718ceaf70d67d53c029ccf56346ea,
  0x711f88b0563a1a6a3106cc236f65bd368784a7cfd5fed3af3822049800948f27,
  0x1d4981e380d70f0d092bc926ce796a4b220786f22a5d1fe0f97f3b4498b1dc47,
  0x4e74656ec6cd2cabe1d9fa09c2101320d53865e3a1ea62aa3197734c292791dc,
  0x4f1a1103daea356da66f1d9950c4936e2db9cf88260e95df7adf2f1a05f795fe,
  0x2732c1f38035bffec71e1847b2194445d531357164d5ab20714d0d4d1a67ec40,
  0x3d1ab1066b7a09c95023e9fc3dbf9eb426612b8862bc18ba6f2901a079b25d0c,
  0x2f6aa59fcae59868a16e7830628dc9439805c281ad932c3448f71971a506c9c2,
  0x4f260648e7c54cc697d12103c2b5e925761e7b88a1c5d11b8518fd500d5dce2c,
  0x1e9eba270692e0337b797ba08fb4d072f3016edca139354ec85700d0231dbc7a,
  0x62d8f5880224251f6ead82fdda448a60af77c8c31f3af552760803e8a221e3bc]

def cD147 : List Nat := [
  0x43fc170e876211644172862d96ad597644f20eccc9a6574e645e52cfe794592a,
  0x12eaf0e4ca1d985b8fcbe46758cba9aa036f2ef654dcbde06d77bcfe2916d33b,
  0x23f42fbf79a00604b36e388d6c0a9515099d65bab09793311b38b8f7c4f933cc,
  0x47c42ebfa783e611fd4015a6466e5f919c0ad4440f88b9e7c91e8463583c685a,
  0xf58360d934114ad697f8cfe7847b51d23c7b66c9c7edb92c894ae01328b1131,
  0x409c12b7bf7dfc84950475f951dff8575dcf5cb942bfb200c4ddb8bb92d48695,
  0xcda540ff89fe9b7f26ce8dda532c56ceb649c01c8d761239c95f0b26986aba3,
  0xc3166776b6c3892f7ecfa2a49193f4990eedc764b9775bdad74f8e2ac5ae51c,
  0x34a8da658c1bd8a17206e13a13232036d6ac5e4a414478cc00fe3712205da91d,
  0x62416b7274b7c131d4fd5ea52dd1d5badd24747f6f696dd43f306bf6affc27bf,
  0x16088b15f7ba9674bd71e2446e0d810ee189a921139123a33c0e676525ffb5db,
  0x6110834b1a4ea15a064ae92032dbee3cfd7d6612bfcd0b502237a26db2ca3d54,
  0x93fb3bf850a65b2441514bba9114731dfa9badc8193c9b800ba33e864516b11,
  0x72ce29986d2ef3f34ad6bf4166cb32901c565de80253fb1ad522260834da96ba,
  0x113e2c17382e277cd99527fa42deadcb0d3bea7265f970c970677048919d9cde,
  0x4e59ac9946a6f1a257b18a560bce1197a06bfea0abd417479fb0e4173f6ad7ab]

def cD148 : List Nat := [
  0x4b932ae3a45894621bccd97dcbf96aab692e5cccab8cdd78ddd844a31007cefc,
  0x6f547d01196959aaa940d5d0dd43374153858027d8bd094ef38d22def1ea287a,
  0x1e7a3da126f4975990f3ae99c2677dd51d8822b714a6c39aaf35643a72799083,
  0x16182858d06944349e8703f21db93ac6f52e39208f94fb0fa79a522bfbf5ffc0,
  0x4491a525a7e13e4ef0f3e255d2279480ad412a2e70bbaec6f04b7318cc1cba96,
  0x6b63ba7359b1423cc4b7ed1f4659124032e6557960b5bda32c6be50932963f70,
  0x6cf566d44aae11e6983f68144d37d28ba72b0b765690d730d3c96f9053e2295a,
  0x70eeee8c94138cfb1e79a97f596ac31548d98a7336b7acbf00a58d361e9b04a2,
  0x68ad425f5d47d8d984e46d7da1e5560e05a8851ca5a4a071c9f554b116ac2c91,
  0x62825e8670b749b4c691112becd8a06526fe1ab87960d3bff3f581b8a4101ce,
  0x3be29f4f7840fc1d3c2e0115d8e899a43517ba52a41b9223f31ee34480cf8933,
  0x1aba6436a70d3ec7017e860b286911a8a14e9190ec28c143d5acc38b8af54e8a,
  0x6dd4bb82a38deb2617fce2ce687a17a05bce0147769a29e1de6826dd866ba414,
  0x2e2ae9b56d97f35e3b1ea31f2a4f00b0742bd68be048ad72501fcff199b35750,
  0x3e039165948690461ff7ac2b32371613af7a958b7742a22412cee5f37fdf7d56,
  0x110152820ec69ff2600ec791022ce7f5e5fa4eafb9ed7b25a82c1e42215a69f3]

def cD149 : List Nat := [
  0x174c518d4c7931d5e8758dae781ab070340b848bd1607441b864a4a204705e8f,
  0x345bcb60568c29cc1d789eca070a974e15894cd016a0cc136a74d13bfedf1460,
  0x124519a3245e999dbf867b7d81136d06bd0f008852f799534d8397ab37a37163,
  0x5446e7f302eaf9eeaa803712f21564a6461b69c37a840d7f09e376aabddbc6b8,
  0x5396b8298cb667c85359676b8903eb8bff06b305df46aa00d8bbb40b16695988,
  0x6bdd76d5feb3d05c64a27871acae2f3e25d68e54ff0f1223abaf9ac77a2df08c,
  0x312c9bd917b80777702327e5f94077266c42bf44d6ff4629c4a2a68af874f6f6,
  0x60ca7ae6a8d066f5c3aa0ad28f33100ef5fefa16be5de008696b8a4bc4792341,
  0x1ceaaaa267c43943c68e2fdbed3e4d120cd3fff45acb9cc34e9a18127674e653,
  0x2bb65e3b85d27aec96411fe9ede0eb69401ae6d2de2ba9ef5aa80db138b66e36,
  0x3165b75625ab74d510fff9f061bb149fca67baab003fe27bd6ba8f7e31da68bf,
  0x20855aeb96028e6af141ed6903a84a650fbdd6ea172ab5202e44bbfb899aecdb,
  0x37d47c6214432df415fa944804933ba5a242f5b610b0ccca57d5a329d803ef9b,
  0x5ccad75f1bac4ad2ddd599b83d97f35f41cdbbe6139c56830ca73387f37e7bc2,
  0x15d15cb243e4e59708976ba62abe216efcc950046f7185d3debe4271065198fd,
  0x673489099c02c6da3406ae794e61ea2546029e95af06cbda220810fa5f826d9c]

def cD150 : List Nat := [
  0x6c8e05f5f122385dda7c18d5774bc65db1d90f1929bccae511c666b14e6e888a,
  0xa1c85ba718b35639b7aeecd0c934cf8ffdf9c8b5506f26de117612dfa529cd1,
  0x226257e2ce2fea0baa890093d663fa9ce638b6be3f3eee5fb15ed200a0e7d198,
  0x11ff1c28bfa5cccc72a564ac133473f5bd946e8731dc2d6627306793a945fb44,
  0x70bba3daaa65b4ce4fda55ca2bd7a48c8e321518a551c6a267e965a441fd6644,
  0x13c9706e61a15f385cbca29a9f76bbc1083a0ec6575f446d5074f8d7ac7a3be6,
  0x3451c2b26bbb71fa611fbe340b1a4cff58ce3c1226e278e27938be122e7650c5,
  0x41b37eebb47aa0820f63470b121b4d4151c9c9f601d227277bfdfd75695c5f78,
  0x6cc38d47da0d6ffee2400d853175bafb43eaf75d41c41ff2f36fd8b33b65ec3d,
  0x684898f89c3e519dcafdb8a6110c705ab161d63b0e0be4085e3a52c0c69dd6d3,
  0x15ce91c3b39ac1a843f248aefde74d9ea10858e4a63aa38e01ad8cbe48304413,
  0x64da5233777c6ef442f581f8cf61ede2a52cc8a3d623bdc7e98952383518bc14,
  0x1fce138e6a26887fbd00e6844838630eaedaca7eae097659a37b8cbc3b099df,
  0x45207082ce96b0b7f7692a19f94df5fa801ba7bceb014e5d1de00827a2da9144,
  0x1adde525b8baaa5e998d236fba40bd29706885b240b81af9e10a13eb18c60116,
  0x368eb1be21e44f020a3d92532fe2eeded834dea136b51c4d312c7ec349705c4a]

def cD151 : List Nat := [
  0x6f803fa4e11d66c00903261574335d8ebdcaf282880e67e183ea381398204122,
  0x3fc6a8baaa86cd76deb74ea9bb102f8bd33c8bf92c2cd32de8c6fa76ee265591,
  0xa1b584a62b2df62d45b264c95cde70ecd4bb1dbb575badc9a11f9f1475d9c2a,
  0x49ee90c6711bd14ee60cdaeb7902cbd2bbc47e1101f685b74a62eb1ba4acf4c3,
  0x33ece1f19f31edeef250e38be5d637cce2c2499f15d712dd958e2cf8d4008e13,
  0x636b4d5398b165dacd6024fd7d6f50dae07e12563c6865212910067a0f56e5ce,
  0x1ac7db56dc9b61c5cd0d00ca4e235bde92bbca85db142ca7e5e7f38fda8de31b,
  0x70da09eb0c0ad1aa34070d8a28ad059990ea7adb1041a3fcdd01bc48cb62e6de,
  0x1037928febf719d062e25a80150889083fd496f2d0263d4af9dcceb94ea815ce,
  0x6d55e388f346d0ee29bd3df5b15c64a6e8e3911f64f10fef71e2c7d90f2cbc23,
  0x66b759fde6661c1811f84e0edc2d7f041b683a40955529a431a3cb43da0c7439,
  0x1d566e9346420afdb430ccf80ba109486b3f2556981e78669eee935ccae78578,
  0x1e458eafa996916ec51e4689441a71be54ef47beac8d82d3fb19d20798502b91,
  0x2e9dd7683bdd379fb1a5e808f902337ce64037f0786b1b18f8d515424a3a6b6b,
  0x3e83d6c05602cfd38ce273f1878dce9bf8599c68c620e2617bad560154f84477,
  0x54bdfe2cbda996d2db0e84aac932014994255822d36dd57132fad5f9959105eb]

def cD152 : List Nat := [
  0x1390ab08bd790392075397a9c17def9e2feb73a9b79606beaf5f2a19caf4b704,
  0x9c5d0b45d7446447143ea26d86f4f38805cc98e8ef86dc8361ca7b2e10515ec,
  0x585b5cf8b70b9dad9a3e80ef501f8725992d081c0f24064d4f5be7fd35508e17,
  0x2d4d6c9c6732e38b53328380d4e55b0dadfd1efe814c4dda1688708b0dd83d81,
  0x6c84ef61822918ce00c446459d0da8e32600beea5efa4e9098f0c09cd0e3f30f,
  0x9b44a1b0ceeea7efe76bd28e5ad2f1dc167b494cb223406ffdb5072ae3ef7a4,
  0x525de46a2ab76d970210cbec6cff13cb9a11f803bdf77feb5395172599402046,
  0x6b0a75e9d55078658997677ac9b361bfd74a5b69f71e679fecb909aeaa36ebdf,
  0x4e5d90a8000587efc077a9d9e4b3847e2b3abe3b314cbd5ba026c17842436aaf,
  0x65e9ac27eabf7232a92fa977f3e57143fd28abbf77b3ca59ff1dae036224053e,
  0x487cc64404f759594b418649ea3f2e1ce741437287db60f049f5544bc9513d57,
  0x2cba5c55c15facc0ed47c7dca18eba8b3ba36903ed9dc84362f6b6af3db8a200,
  0x70090eeda105c3133810602e0b7fdbf576d201616bd56315e817e7d1afc3da1,
  0x5a7b56e9111035a88ad26470fc66781df3347d01515632a89be3c06f7dae964d,
  0x68e12c847f29b9f8683f030c78a0478a5e2c7e07e019af7810137479249c586d,
  0x29c9bda4f7996da55d4ecf652705bb44e93a0c9cedd7ac9d0f51c67fc4eb0495]

def cD153 : List Nat := [
  0x259d3da6dd7ceff965c884660a290281f4a03e1789334c8f6483fabbb172e66c,
  0x549ebc41f6b4c3f0262ce5f2d95fbfaa4c37fa618f4bcbc56b997db33c3303da,
  0x3a0405e04c92d7d63cceef1479201a419d3d5f7867efba9f564618b3818dca78,
  0x2982d49d2283e5b22a3b57b408184389e7bc5f5b76664f6a145f066558dbc5e1,
  0x606f7b4a1c9571e2f6096f4bb1b4726d6262750d3fd27a4c55bb726d00cb37a0,
  0x3c07d71b1705a5990c98be0a2c6a8d667cbd0050107b41148dda821f2fc940da,
  0x1c9754dbe0a1d8cbcb5f36e083a752fde973260d4bd96f4d69b91d8c42d4cfd,
  0x8ef1517a3372e87fc4e409ec0e873a7b6f4d33e223fe9959fe1ee415ae4f138,
  0xa698a96e00ac000abb0c6d5d32571df674def66ae98b8039c44d0cdb7ac7c6,
  0x22d595ceec0fc5bb799a76c7aa80888cb46e58a52ba5e92e84bc0cb44685ee6d,
  0x5c2d62171610c806bf8cb6142f609125d4165d1534443c748a6d8b39c862463a,
  0x3cc6ffb148d4106ca2080398178e48d4f36275a6f24525744b21e2ad72897698,
  0x40da1d2ff286f46622201cae785be9a01b9a6fd9ca095faa04a5f4447d07b0c4,
  0x90d2a0525355083d43f899870ac4195b9a48889212bc7ad01815924881bdd11,
  0x4cd5309ee6552a76306b155b6825d24b78d4d79fd434352f5d2be11cfc3b3c71,
  0x54026f192dcea0407e86f7a09bc71074e3e2913060dcdc1c06ff4779fac4ca06]

def cD154 : List Nat := [
  0x48bb272713857867113ec31a950643dbd4ff7400ddad8026992828824bb823d8,
  0x53bbadb832d06c1083b91a7a45d184c0548a25ce9b65e6dcee8f279f48472d8f,
  0x71d60333087e48496fb712a3ee0e43de9b0ce1aae18993466b361e9a1739e404,
  0x5655af0813f342ffa02bbd7c520079e0ecac5e8010a0f3c4f356e0c2a1eab673,
  0x71622ac8ff91c99bd3316896c3ca47f1a2682ec551c6efbdef483ea3cc701d47,
  0x204dd99db3f2d6309989ec7807d1c3fa8f7f77916c514da07fd329b4d49baa3b,
  0x5310709711e18ab3780cef1b06e4a8022e35d7d55bab0229e20fa0f58642f4b9,
  0x6165bb24cc008db604f10147fe42949b459db510e2450b73cd29883c5e6a1996,
  0x51e642390ef08bd8db19a921c3e72f3aa25eaa4bece51b0bde64b9592fc0d7ac,
  0x4c546ed96bfa323b737a1f27b8c9f03048b9d984b52dc42e9008c30c86de253d,
  0x2e2001db71d38733819bd71c5f08706faa21bd2362887bc6635afadd63f555dc,
  0xd388d192eb03be8f2641b7ec6ee1f216fd03e96fedbfb22fd55162ff741218b,
  0x59b9b0b9b401004aadd323f7b883af37074ead387ce342867af11c2607e196a9,
  0x5b1d002207ac7363ef31751a84f8a5e19db87c8a2e6324a76fb9912d029650fa,
  0x1266bc007c4dc0b3055c3e1d1b259b52256b96b957f8f6d05d98efc20934ddeb,
  0x48929bc90dd5154fc19c27a071d56c78bf9a7d6f0ac281f38b0dc7651b599a6e]

def cD155 : List Nat := [
  0x385ebefd6141736beb09cb8307e069965b6425eb9d7a50409b24568e3d1f5806,
  0x42b100a233b246a153dec0db99c9cae0ea731a93f865fe3d85f34e4d8af9746a,
  0x1bde668fd2a99ae65d21276726daefc87ac727f637e4a1e42285d1da25f4e3e7,
  0x437710cdd7741c6bb03e5ebaa2a65ba64da4fbd10d5f01adf53e4da931958a8e,
  0xfbad6b57767f16adee99dc6fd61a65875072060556ba45f7fa5019e10e667a0,
  0x7c93bd2d4b3c74bef5ad45376dfcb6f7613db58e5728606f3957b611e044cef,
  0x56b825f037ce196bea2942fcf6ea8619c4bfd62fab3d7af618e48b5f31bfde1e,
  0x46b8b78555d9564e425176c4cbf3cb08a15b7aed3dcc3bd2822b2b8f85c50ef6,
  0x2722f94ea9577ab81ba3841afa22aefba71810bd576548b63f3bfa57259824f5,
  0x6a31d8ff9adc7bd68ee73e6c07e79dcafcde773f2ec05863a07f26ca9ef8ac23,
  0xda805cb88d3ac5e73c03ef3a410e62f345c2542ea977acd4369b60587194f7d,
  0xefd36f3cfbed9acd616ef4f8a223875a59e110114ff5c5496881a20928eaadf,
  0x4f11e353e370e1edbfab590d578421dbbd1cabc40ca47c2a325707dafe919ec4,
  0x6a345fdb32fa42760394bcf198ec3d487e4ee34c07bef1c364f41db3cc82e0e2,
  0x1ac015989b16a9d95f2dd199b1548ff6deda42c984f819c546dbf34ae39d0039,
  0x39727247bdc8726ae91b31becf67089d66db13fd439a13c07a2635cee1433aac]

def cD156 : List Nat := [
  0x4541dd7761ce0b674aa808b8fa1267007ce27b5a318a524771bdcc4e9b3b6d73,
  0x3c52e187a70040a69761f097b5ba32602e6d13f3aefd3b4e87b29c4ff518bb2c,
  0x6cb21bce2e417e5e6427bef6a7086b6f8fab0494b0470a2c30b6120a359d75b8,
  0x2c52f19c0524c992bb0cd6489bc910ad50646108c460bc36186c9fe829354ae0,
  0x21d0bc5dae3169ec370895e4262022bf7af0779b06d1f5cabb12aee3b90db1a6,
  0x4af3c68427d7d34d6d5aed1d67188956cf941eb5f4d443647c4dbfc3afcdae7a,
  0x28f033c9263f1e0240a96ff3ccbd7845e0b46b49bf2a8728e2ff525cf2901299,
  0x11f4cba8694cfa0935e8b8b5f50ba0f7feeefdcb39f8f79496e5478ed7fde401,
  0x3b130b776349a194c194ce6e936abfb0f7cd17b78aa05484d5423ead439189ac,
  0x192b1a23ce506763b5eb38c7083ed4901c89b288045c56042fb4d284e8b30cbd,
  0xc8a26a6434282ab7bd304e960964d9e2149bd93c9d168563af2e783a32f14a5,
  0x5a9dc76358d6e92732ac96458786b144f0ca2356daf31ca509c0fd9d6233e052,
  0x5531a406b149cc889fe28fc71641689f7e8675d8bdc9adeb32ee7e77d970bc1b,
  0x4b3c113eb948f280844583885e860ba800f33f8bff05ee873260020c8ab98200,
  0x3ab054a442592f12df261214bc246ba9e198ac37045ef334f1aef440541aec82,
  0x305c3dde1c6898d3a859768b25d951c95eacbf6b882cf8669dd80b1449d2b282]

def cD157 : List Nat := [
  0x3cf40fb0b8b11683d8339941176aad8cae5e987d7090d6ef05e34db031cf3545,
  0x54b33f11b9a8aaacfefc0cc096f8c31a0958bcf14c685f61a57ce88f33148477,
  0x39c1f3274d386ed8047eb3c9220306cc44fa18ab56beb3d34486d8735d7d875c,
  0x6bb5af687df1cba481c98ffd4ef134d0c872f24809a3a82d15dd48728478963c,
  0x193996ef17940f41b9f8f6a8640f5cce098cee1185f246bcd8a9104d835c41e1,
  0x3efb456e90182bfdcb7e9edf0a9d6134436396cf504ef8774642e367ca76db39,
  0x4a21fc459a24575b9fafd662fc2220032a54a006d4824136a880cec7d2332b3b,
  0x577ebe498ed02e59619de65e2c85afeaaa0bfc01e82e1cc3889e5f24c2050aa0,
  0x426538dd0ac9d0baaa72602e13bdc950c2388e6e219252386776fdcdf2c6f99,
  0x2c33f7e3e3572fc89d93c9524ab6cfa5c81c10357ecd6e087ac2d4bc145774bc,
  0x4ca43d5a48509531f9de382bc3b65ec205e6b797440b120249b1098f14b6dd6b,
  0xbfa33ead92daf67ad3033b339ba105abb7e0d43f2b634c86b3e218e6efdd7d3,
  0x62fa268daf68bc0964eb2e24bb4487bbb0cb5661b3b8d771b97d0fefb941cb26,
  0x5a4e9bc0fe96e29fa376c08c3f5bf5af1146316db70c7f45d25ee47780a7ae1b,
  0x58beef3f07bb8ca9887135f8ec978093cb2bad66e1bced241cfda2db1975e1d8,
  0x307d28b0a006ba618a370fb1c265689532085a6651e462fa26b04bcc87668dfb]

def cD158 : List Nat := [
  0x32b867b8516cd4fe2625a9b05a74751b70eeb2253e6e4533ac67e274416ef134,
  0x58533752713bbeb8ded29316b03fa553ecdfc2be9835c573d16f50e214ca6f02,
  0x891ca03696c5661a8ad8da397c8ffe626fffc44993dee8f0e61d46908bc9e84,
  0x69686e7fd8c083b9cbbf432497a44445ce27be6fd3a853ab7fd712fecede8fe6,
  0x26f920e9f6292f7a3cf2b055bb90a482a3e9847c65fdb829691397e92e61e28b,
  0x34f6c432cf164913fe4b92c1cb1407890df1972402cbe73f48888c2b613d22f5,
  0x3988113dcfc93322b64ebd4aa47db9ae7ce9e2ad5c08c215d1de7f4638cb33a,
  0x171ecb0023e1c4200f1d475310f7c00bcfbf149d3b6f4405d6b5abecb05b874d,
  0x4f5771c9ebd3d24a2bb2573427ec414db00662ea76c054d488038ea822e7b3d4,
  0x49281dfb8f11375fc6db0e2aa8abd86a49232a12e744503d608b9e442666c0b4,
  0x3470cc10b9a1881ff609f775526699ef1945be2d1c53f35f3773266847bb2e81,
  0x18a686e4144907456e2e2810e33416c74a9b542c0923fc5124dae5ba741ab804,
  0x17cfd62f7443e81a94221a2f0b407e50ef532e716884603baafbdb2e9866cc00,
  0x1ba38125b5fc33ae9c7e05ebcdc3b2ac77bb672ad1ac5819f29e0ca8d47f46e,
  0x3b51a9267c2ed0378fd6839b29bbe59fd01181e08d00062c6d41b986ca3a029c,
  0x31c8960814e458de97c37d29c3280a91ca0ca76c25c972e605a3ce31a1eabf13]

def cD159 : List Nat := [
  0x97d064dfd6b50b34856fa3d8f004bcd018e164a0cf17065497d88a9d5f1d296,
  0x1cfe1ec59f359e203fb5a6b9cf3a8a09eeffdec893aec8be58492cfd62fe8b52,
  0x4c9e5cb1c3d1d6dc72a087c9f2a869d3872a1cd87184748ebb62f9451bdc9772,
  0x49a45481db92ce81453cc5bd297b6d48e4a021cb1b95016e8b6e9b2a2647da2c,
  0x58f71285d8efacaed6f23cc0749e7b187a86de5aa5be0dda07c1f90bf08727b8,
  0x179598440a5e2cc591151dc24438f31158fa0898032b98ff5a89e16cf2a1e5e5,
  0x51c15858e6b21d5024a0d5713f8caf9e350ca6f402d1d65bed589e5cb3960869,
  0x46479f95041864e5c801b9f03930408776fb2dced9ed4d79f4521c5803af588e,
  0x3a074a9ef4582de64e5dc11651c0c67e564616b58673a31ddb242f7eda547561,
  0x3c4ecb239e726441d817f165f781eec31d5b84d95538bcbd1847bb9a4e8fd597,
  0x58463fb2ed4488706353f8cc03a8f8650001614514afff54995515e25e6fddc,
  0x41d2eb7f2fc7eab79e853a5633ca0a8665949ebcc5bd6ee2b2531dac0bdb6c33,
  0x1450448f1847f7558c5b769b19bd9c9cf8e071ac7604e622b8bd0416c84d146,
  0x2a241068eaf957b77725d155aa06ab6eee04b8648eaac821f4b6b393b9707210,
  0x44e51a8f8499676b11a15a65e8d0f0dcd5c98214dee0beef4b336171281ff73c,
  0x4ce24095ecbfa35a3659001a2027292f7d35b86dfa891abdfbe1d8589059f44d]

def cD160 : List Nat := [
  0x28d24c2d3cdc9195d16fdc6592c54575f2dbabd331d574348ce43131d7d23711,
  0x3020fa0a6866deffa86d78ecb28f930bc1732c8c8f20e910ad896564701ed4bb,
  0xade83f0715ad7420a573d55201931f61ce7a434d671a8a1323137d34f2bc2b5,
  0x33a799224eb4ea6431733747f7d44e60401a91b8a547decb4334e8b7dcf74e95,
  0x11eb2985682f6618f2ea6811401d508b9dd3e888a3877bb98df819ae4ee3da32,
  0x2bd47dddea029949998ca4820bb4db46ea6f74ca83b0ffee0bee7b7b9dc93b7f,
  0x734e377e0cb3750dd1e8022d07a2c625935b161b48ab3be5ecd28923010bfb06,
  0x182ad8420c752d830351e0426c1966bfa12e7b9130d15a305fee9d64a485e9d9,
  0x4ad409a134859915201eb404e1470a36eeb5e69cb1843f9b86bc4d7b09e9e3f8,
  0xb2d2ef73bdac44f3f6340061002495ef6b4e35f85fa127d5a84c940b08dcf40,
  0x1f6dcd35a324a7859becebb32bf597095694989d97fd5eaffaf2b170255a00d6,
  0x449e8c1a3507244c4ed6ee11d99fecde3e12a8f6001f8aa4f77735179055b194,
  0x64fafa8d93599d620108873156107f35d388ab801452a44009f9ba53aaeb9d25,
  0x3653a399d0c52277771a61dfbd2c2e0bfd830a1d831e0d60ce2971e809cf2969,
  0x2b4d56cf7572b08a18afbac4579180a010d4462ed6408452f454f32a18052234,
  0x2b40e991e333a71aca65ba4292128220470acc7c30753c5504a52b2af1c5e65f]

def cD161 : List Nat := [
  0x23b1761e1005287a1b4024139f492ec29b95c62a5a4e4d66f00ee1de4de1a241,
  0x359ecdfc40c11c113d0de247ba3a6a6e042029ed55e262e5ec8fd9959af0f6ab,
  0x1e3bc9ac6ed41a545e27644a99fc1bc10e25df4187af2a84ef8b6cf0ca98103f,
  0x41f63ee9933ef40dabcb1b785c3b8d135395579cb4b4178b3602da50ab25ce3c,
  0x26a961290d574f608f080c545fa87c7cceab141bb85375d12b044947518faad9,
  0x6cf5dea4feda7e5785d3ad888a4c2657f695b02e115a32d33932cd7c4577498c,
  0x6d998ebf2c6b83d9b487c71405344bb45a4ca5e368af0ba00d2d14f995c83a31,
  0x15045fe740914d9ce2416c4e6072d16359785ce5e650bff4d036564c11bd5ff3,
  0x45f1f4a2643832cc882fc04b8de91524a1c72299412a5a09b84d6fe8fdc5722c,
  0x63bd4f5169fa7e9c51e3710e2982130169f851a3c03a6d123288fe608b4c0f05,
  0x478ee49a804e4c4fd60ca878511747b0e942b9ae56555cac49664ead138613cf,
  0x1c6d5c1c75c5039e6244a66cdf8a89263ff0e7f0f17029ec8560702802c9c2a9,
  0x6389db68e70fe9d1b21ac4d6980322851377ff83f4027fda0189891ca25d4dba,
  0x5c004f0c0e175ee21729e9da21635eed83af29b5bdf192275c6fa07ec6d738ef,
  0x303bc1996e15a198b4de3e4939cfbcbabc90716c34cc91b5b5cb8da22bb81d3,
  0x15e73006c40091cae803400af9b493b5ceb00d70ff9aba9f14169e8f9e817e86]

def cD162 : List Nat := [
  0x62b90ec360d9fa10d9c54451820fb2f018aeee0a6aa6b6217f810bf9e54fbdf2,
  0x377869352674976e33e319c9b66f2a4afb78b315b5ebe849c815f7cb4cd0887a,
  0x189006e8e0ca342c532f81f35e40bfff0ae8aef146f0d61b36ff0df65a97a99c,
  0x55b384eb43249fdf3ea47e62e57238ebab96321e89ba61dc4d57e516ca682063,
  0x31ccaa8c12ba77e1bc5175f971812d3875cabac11614e96b4e4321690f9a7feb,
  0x635981c019f2377c0ad7ddb399d46940da0ba83e87c8c2fdf7ed32086dc3ebd9,
  0x4b82a93c472561dc20b1660e823e761ab7ca1c1c2c62c65218caa4b0f3520c05,
  0x1dfe86c13437234c76725b20543e10cbe7bfd9f5e74993b71d47c6350af35764,
  0x37054d264d1df72de8f510019ef47351ea79923bcf7d2d21ca34eece940e6fe4,
  0x6acf37fb97d5d4a438038f839f341c6ed207ba90d2f520ace82f17bcf4ab9dc4,
  0x3e72fe28f9d1ad818fc059626c4afcfefc92da05efe4066379ba6e7e94c8366d,
  0x33e04d05fb792931d05e7fe2becdbed2f86ef75f4b5375e0cce3d01eb9a2528e,
  0xbb1b7167f42abbf2fd5ec8f0448a612e45116cf561bdf4463b99047a4e50974,
  0x443607400ac04a18c54a9ef3859ac6661c34153dffc46d5cb09c40f9a90d813c,
  0x20d91b8c26f6f4032663d6e94c8c9c7e0e7a487bcbdf43e08b70b0a88496a442,
  0x3979e838fb7a2a5437f6ae4dad8f0e58bc5028167ef98cc11ca9ce0b6f501728]

def cD163 : List Nat := [
  0x529d1f17aa10eb5be72f7a8c67a66daad92a77bbfafa96e228c6b382e0da7bb9,
  0x5ad80f4c24114125a961624d3d482ec0ba88fb3bec429da3f7ec549e538d5661,
  0x6284ce54f1f44802d8315832ce669d5eadb574bedc5c278b2c1d28a52f314980,
  0x352f43423dbd6b3e96b2de064266a2ada1e6a464624d91abe3c8c1bbd6c57d9,
  0x1153e0c846798d3de66035a58b4b81103bcbff18f42e6662395319fb01580ec3,
  0x3b6fbe8257cd51c269ba14f8d9323924cd0f1cfddff2c9999c108d80057ea179,
  0x3b4b2c7482b4fb75c9ff64553c85b60be5d0d81e812b7d124b56e3c749c33ffe,
  0x5313a237676942ddf8b92e3f0c709dffce3805abc9fb6de52a2eae840cb839d2,
  0x33ba933805ebf08b454624f9e4869baf5f9387b473fde5d8bb28ee5efbef7458,
  0xb962ddfbc145560a9997ca3a0a4959766e88cfe114d29c44f026bc76b566249,
  0x4dd7d201c6152baa48a75a93a748e7b442976127c7738aa5b896e964123b01af,
  0x5ba2c87ef14631df7a41e48cd5634742b765207a9abc7e97520e09b7839fc356,
  0x7328bb58a66008fb7a14d0d70db39cc2d3c558be1849da09052be81e804231bc,
  0x2b6b0819cbc645af4403d49affebc0ac46298c3df9e1684bdbfda1ef574ca0f1,
  0x3f09acea9f098d676aa09503b25916c241cc4995db53e419a566433fcdc6e421,
  0x1f9d9a46d949fb15fb2f59245952ae24c8d15840727f241fcef96b94b37a19f6]

def cD164 : List Nat := [
  0x4b55f84beda8dbdb6fbc83c42baf11bc4b777fadcc515e2840a591cd4def1c98,
  0x40d8640426fe2ec8e8a44644b7dcea6639585e518a0428abd1edf413f9da2239,
  0x2dd37e163608f44880ae97e4f708cd77fcb393ba2aac2f5aa2cdd96bc21f103a,
  0x47c63c2f89d57944ae604c93ef4671c773f4e53970966e666fe67def0794f7e7,
  0x36ee8ddb2b0f2e08134cf1cf49ef16fa90fe57243ea97a8cde42e860ab0c7ae5,
  0x3a4e060f866df478040a814fe7db8d6e651ee5c2cd4ec36a9fdf36284c5b839b,
  0x613e852907e82f18d7f4565640e9dfa5167bf7aa581dec3239635ea644adfd6,
  0x6cc7ed705505f7ae63f83dd80feae1f823a9fb9942ddb057756cae41878e5d0f,
  0x3cebcd88834a2411ffc6252dae34b41a24b7ed7f810d4afdf427a1bb625b616c,
  0x4fc1f657b082c74548c9324c51fb941390ac7dc8665b831c6d48678e2448e078,
  0x32ddd1c78e7d6d212976061349b886386431ea5c7fdcdcd68cca2add4e493c2b,
  0x4a4faad586b611573335d5194c385a4e09a546d1090f849cd24bdf41edcfeff5,
  0xed5da8ae9880d03c6d9fc951f44696023a6d96bbad72be5c2aeb2dd6eb2b32e,
  0x4343096e0e4a4da1996bbf6560930b1e26c5d436ec7fe8efa830fefb6842abd1,
  0x54dd157d737ee117011db79cc39a934609195c58fe1dbf28e72372e17af864f9,
  0x14f2d7eb7f76a325d3fa702ace2a22bd744728754354297e41ffa11c1d3504bb]

def cD165 : List Nat := [
  0xa4d2d6e45a22a65fa311f68b2322a9a24961b3d1fa3da1771252e9f88c7ea3e,
  0x5d22f7f3134ad5f265648c03a15fdfaad09117ce619d9716bf657d477c452867,
  0x5a8423c1ea747615ed7788439ff858cc7bf7c12432411d92f892d461ff60bc3d,
  0x7e3d251723f2f597259d998586492a3d009b32bc62e5acd86b14ec58131f060,
  0x71ec036ff63fbff60efeea414f7c530d59a770d5c6fb8f07a63642d1e87bdca7,
  0xe5564579591709e9bb1087662ebd36663ee22ee8eb8ccb027085cf898c3d435,
  0x23bcd21635a02e40c53755c7cc406f18dcfa958e0dbd6a02970ca68704aa7416,
  0x5015b97b82d85491b45d0e28533fe667fb0c25e20a05b8dbf7ea8a82ef5fe259,
  0x79c309847ace818e48f94637a3e193fd436a6ba9db298d72d69b083c26d8a6c,
  0x6c3edd88f12b947d36771107b493d552ced31297670defe91fa6faf72e1b8e8d,
  0x693845bb2f633c2b5a6a43c47924a110fd300c68bb7dbdeedb28ee76ed5a7640,
  0x43d373fb18dff8ac842faf5554cec2c8614e51daf3d373b52fb3a1cac7abbec4,
  0x33bec645943fca3a54286a66d3daf4dc3653a50520ac2640bda6d069a4cd680a,
  0x70c4c130a8da281bb13d567f2222eee00942a5049bd38e5f6c6f330c70ae224c,
  0x3c49ac79094d6ca24e20666f1d46ed51ab0cd30f7ca30dfd614d50bb63f73f27,
  0x35a785138f71d4d849775bc2fe6afd0240f5947ec493896988825f0c22a6d668]

def cD166 : List Nat := [
  0x63296bca8679c51268e2a886f9003c971d2eb18cf7bdf8e216784cb18bb1fef,
  0x71d68198d6a36a2be0506507efefb4b6a4bb82b4c2fd15ab20c873f5a33c91a9,
  0x2b213af2d6dac151ab47e380e0071e2207a8942b67aeb18476619ec2a0a715a,
  0x6e29e1cfe183a30d37a57f6394c51e49e7eed5a83377ed1498dce56440e4d53c,
  0xf0ff0ca626e52eb3b70e8597d4184ae7273bc6cc94028b0d1155852a044cd01,
  0x8e6afad93668c02b7ed89361a21c248e8bc402caffd6ff5321826ced5289d94,
  0x28764a2fd72774a914012af014a7d5f63dced38b4e22b9d3c206fc63222d6c3d,
  0x366c553d913adfee4056a1df0ad7131aae0f4533aa083ec9670f55a1a973ed9f,
  0x7554dc9b7ddb1c6dcc7629b1b2f8522079728ca6ee8d009ca7ddaa537497b76,
  0xa791d91d35fdbf4e14a187accfdd18cd598c48a05ff8878a03fb3654f43c2ee,
  0xe50e9a853120d2e770de9b68bc547957290a5593187892a91d492e7957e3f9c,
  0x6c2e04ad67bf6c8bbc290eb654b6628433d98bb906bdb09ce441acf94404c80f,
  0xec26338857c2ae73ad18537a69d54d97a44c77dde7dbb85662b395c1d62eb2a,
  0x106256dcfa8dc7ec4efe42059bb465ddff21ba23afd599f9cb890e3aa0a8c1c0,
  0x2fe8e91c5e141b536546af844a8e8662fdd4dd6e0e5dee28656d0afa73197ca1,
  0x37186060c4c93c3844681a2c1a46ba7960241f48fe1656a61446f3c20fe38000]

def cD167 : List Nat := [
  0x426a720ec2e5af19d356a3fc3d295a9e27903882ad1355d489735dccae17a982,
  0x1f0a42a69155d3b175bf5d93959dec227f2b11859b42a5fd689e8ab3bd368e80,
  0x6a67fb822a6f82b644ea0d327d300082519946f52e9aad6b0612195af2c5e9ec,
  0x45956c2a5d14a04332f8c197ed345b500f62b0676abc2ae4a8bfdfc8bd63f625,
  0x2ad0a38675fc454daec6915355df9dd750d7e5549328baf99f034da011cbc3fd,
  0x251bff6b800a4ac8a642c22ea5055b7dd32ca5e0d26f3e22c8e25a51d6073cc,
  0x6dfeb3aca58e0a0f291a1c2f385b4d0c1df886e1ade7982daabc88006270f9c0,
  0x17df593338371ae21dfba8c30303f31e5e4edf374f2d07e4408754d5db48781d,
  0x43afd8f4a8edf4f66d0710bf858cd3552e1e1f7e237ed3908cbdb7aa74a2ee6e,
  0x299fb05948e05830efbe4e14cd024bac4bcfe79f2ae231f1849d9dd171a3a671,
  0x2a40b4f4d0031138a79a11f66fc58cbdde7956499ddd3af83523d4440a3b54a8,
  0x14a91dbe07c6d88c2cc55bcf65d7259459959803ea80247e7af639d92ad6e53,
  0x4d2629704af102f0410f517fbe820083bcd94d4115d8f144e5bdaec23e2184ad,
  0x4624136d9172bb984686a4c58afeb8fa7ab9fe5e9584e501160bb1f4f2f97dc6,
  0x23a6de36d3c72a1db38777808f1d774b53435ddae458fb293ad88e649bff724a,
  0x6ca87ffad274d39b0b7dbc9ecf6ed2e7ef21fd02fb77c417ad0a15b6c983a1a0]

def cD168 : List Nat := [
  0x1cc0fdd67caf4b5c440495238dc789fb902b974e3e0090c0f3124bb98b667410,
  0x256d404993df2f07666bcb0ce0a5942592b4c0504d86154f443c42eea0e9da81,
  0x5e3221f7aae524dc32e433f44832ce414a304eb9a88e5f830bbf13f0d7c545cf,
  0x5abf3049cdf5f3363972afdc298dcbd0a879628c43b96dc906a9c5f32df949b1,
  0x1caa1b19dab5f410ab4f2e9748faa1e854f98cd1a7194f39b7fc3b51ce78251a,
  0x72cc2a07a6988b6b9bdeb0bd20f2286b9702931a2d1f24051d09a5fb7549ad76,
  0x634310606fc9411453dc1a08d9d19fdaaf1fea4f0d8e2ef947bdb6a49d5c34b1,
  0x460d54f4019f7c6947bfdc4293ef74b543d982d62715587f2bfd88eac3951e07,
  0x6bae828221229fc734ac6bb6d90956cb7c330f2a4f1d44e9ccd6c7ff473d75d9,
  0x17e9a9e8b77a6f15a314d4b3ad320ca7aca81e141c2b7ece3af9eff1f4493fb6,
  0x2ebbd4a95b9958d861df089419b00bc9d6ea31c207d75602d1eb66420e75028b,
  0x71af15f4024ea6d15998813fc21a47e57d2b0421210d67398dcf8ecee47b4685,
  0x5149751365a1fb2cf5ed3d8dfcba5b623d9d4fb9ceff4b906b6493e1f975d606,
  0x130de2579235c722670faed4cd033b66589f90b724b5e2aa63e4e101c4fd62c5,
  0x4e3c7a07ba0e065f8c1fe23546c5aacf9efbe780e40bf1ff2675ebeec47e2fc8,
  0x6ecf462b34d26eda4e6f8202bd16b324199a96e493cf5b6d19463730abea40f8]

def cD169 : List Nat := [
  0x3df77f97d722d4e15dbff8e1f9b9219ecaf9cf3a8cc7b0836137e4fbfcbda7a4,
  0x361404812acdb1e17068c0ea77e871035c753cc464a21de8800b1fdf0e1b0f8d,
  0x4d55bc3947aff5159e6331e21ab23776a071ddc14c92afe4b504a25440880106,
  0x53d5cf42b14f99082aea04f19d7a4f984d7fed9d9968eab96a2c7a9cfb1ef1a3,
  0x64797584a5e1feb68c48884e1706a646b43034d5a8bdf6825d6aa6f70a31ca58,
  0x5e69b5c54497e2c6e8cde48d1a100949c53297316444583a60fc866288f20a7,
  0xa03271a5f15e8a143ac00d267c493c1b8f5f7940e153c440fb43427bc50894f,
  0x3ac73452f0e1dbcbb4108a38f21c3bad66425ab55d7a4c1155bfa72e59e8ffb2,
  0x4f998f40fcdb8d88ede86d301e1dc502ab5aab0b7966db1f553b57555d69e93b,
  0x4d68e5beec9ee0ad7da7358af7aa7ad50da1226c652e189d407f94af30342b49,
  0x8081781d60ac6b8ab682a1e2b85cc28750db863ee219d1e929b0d01a790ee84,
  0x2469865bd10be6a443a5ee9c772f545015f73487c75f52df7b048903a555bc0b,
  0x72af8ccc2edc4f58e9ca69d1454853b2c8a604df9a1fd3c203c8953650c88628,
  0x59b3f810538a5122098aa422225fa406bd522228b145653c768343208d3ddae0,
  0x3aa1d25b96874c40e685da560f9f22436914bf722539d5cca6f683f56581bfed,
  0x147923dba0d42a9dc9a39dea9fff1ee7a3384b704607909d425c9588cba9a294]

def cD170 : List Nat := [
  0x57c4a093e6d33cc6baad88b1280d99a13b84e3b6c00011b17411098a92c06606,
  0x113ce81c0e43c6c1d3403c143cf694c1c984f999d74721b57e5c576f2ab0e05f,
  0x1aee60b91c9b4a9ade06c12d8de855f49159640165310dbe0a87a92de2c8c63b,
  0x336240d5db94db554b2f4c1032e3611bd9da3bbdd3f645e4642390a321270309,
  0x16a3e126805896eed9c8b9b3b0d855de75252a897c5c6be5ae09d66b71d1466c,
  0x70acf8605b4d54fbd8dd1672ae78d6436820839fac9528ed27df96860bf1b791,
  0x2a2864e227ae6f2aedefb107098e1ee4f63a69b5a6787aa3f4bf1f3026939a40,
  0x2defbd8af0ae88462ada4efe38bd168e10ef3d9bcde9e3d08b2686aa4f8f3da9,
  0x5e35637ea3a517cb5f184a54f6fc150bf0bd82a4d97878116020d9387ead26b5,
  0x676499f7f278ce5027e0f6b0fddf9a8efc1ed0187466868559b14a1b2eed0926,
  0x11cb2c08a85ccbce54cb046287fac9ca593237866e1ab50d53faf0b68b490d27,
  0x58c7adaa33f80a2f71a4b68f12313b4ebe45bbfc27fa1093af81198add07b8b6,
  0x3d8fa2741a3087110321d76f53f4d7e65061047cfddaba9fe706c12028e10154,
  0x6be544ed4611efb8f919da9b198eb3c0e7c95fd9d2a50318c45df40115c974d8,
  0x2f3521173012a66684a5579aef75a9857bca9dd470c967572a0d8f0709c0639c,
  0x43401b30862bb9e6ec83629bbb03ded38b3c1b694b449f3a719ea0fd290a9e18]

def cD171 : List Nat := [
  0x6ec5c3fb0bb149dc94d7c7f7cae931b2da7c600008f0eca71e0ccd39b3a12194,
  0x28ecccec427e2d6799d843dbd53e5b30db1a2eeeb4255b1d490ff8eb5e9ade93,
  0x2bea01d37ec90b634dca8559f860192c11dbf3b8edecf9db08fe86ee4e503218,
  0x147980d7384ba3c7c62245ae1d5466954eeea8d1c4480f2b5650519365383c6b,
  0x17c92a847178a441b1f85aa6e0ae106a63c2aeb843bf56abe6fb439f9fe7f007,
  0x390a2b96376bc993fee837da299e1ee02d1dd499ba40c8b74e007fe5f1389c58,
  0x36f7d686e6750afef8c9335cd39a1f0e212cb0f0e20a200234ae5edef016facc,
  0x9dfe429ee2aa9a5a7a415daee6e60bca9cb09e54a24bf62a96b35375aafeb3c,
  0x528bad1e6bdba6ab5986063003610d815be3ffa538480ba74559a862ce3fc756,
  0xef64527a652ac99a82b6d225bc20842f4470c3d0f5fa0339cb964300979cd55,
  0x13926fe1946dfd790aebdd4b3e818a54efa2cae8b98b5ddc1366284a24bce12f,
  0x260958c081411c703aa29252f30d3eb0db4c86e33764cfd1cf1f101672bd8629,
  0x3b8f33c1c4465f6625c2a44bbd6d34b777bb715516084681436681930cc01601,
  0x10dffc2296c869fcc9307b69daa0fd3f4881a73ae9ea2fe3b7494d977515c48e,
  0x21373043f6d5db8398389128de2f8b03c72aa409eeb8a2ff648841b3fee851fb,
  0xe8bea0404f3274c4714ebae9d1d06bb39e1ad042f66257fa24cdb21170a79d8]

def cD172 : List Nat := [
  0x67683c39d3e89a46446e6734b23bc793d7fc182102d65d3ae5b22b8450298f7b,
  0x412ae9d2aee0f7b695f18f10e47ea5f5ffc065c0fb42447b4e2b5e30567c6999,
  0x151b78d14156233098a0c5a9325de8b7e9e95be12ff932d49c5b026d87d2b891,
  0x639d4a1b733c0663ea315a798a1f986a9d1fcfe6d4a65dd4093c0aa4c47ed6a6,
  0x2960b9a4ce30658b9bed4c0a581b4b16d8479c16c0c29f714dab57d77a90eaf2,
  0x697adacc9a2159d70821ba16f721e776b3454341dc1365aee13d638fcefc8c34,
  0x536c88f9ccbc566b6be96dfe96725425f9624990db4519d2fd92d820f401f7ef,
  0x690bd37ff8916fa31be98b65777e4c0aed608a28f0921a3736e8db6891bcbf22,
  0x2c70c107bf23bcc2daf9890783b7c0ace8ad8ad7356a895567b30ec74d544694,
  0x420ca6e3ce05f7e2a2987ac4af02caa49679971054f20b552f98f2e325c5a835,
  0x4fe016613ddcbbd5079d4dedc370294e2d582bea9e0c32d09772cbc80c87d836,
  0x346c843648ac82521d383f5221bbfed89c5cc7a607be2bc50764b65c98b3ffa3,
  0x2f3d6715a9c250850e171f922bccd489066a2f6949bc5a091a8398c8d36d30c0,
  0x11266d1a0ed190d1cbdac419ff3dd9ad9495d280da628f8cad75c1ca8c138b01,
  0x6bc5715505e9d7c204143ed92dffc2e22f888942497c313584e435de2f6d3c41,
  0xd73378c5daf350a34fa085c3222eebce3d54dac8236cd801d08a9c337f893a]

def cD173 : List Nat := [
  0x266e16748c31b9f16ef253409379002468a2d65e49054621489847e113da9e6d,
  0x286d928e11cb7baf68fd919878f8103bf7c107502608e00c3f8e88aba628a7f0,
  0x498a45712036da14f612fff2d4edd068f517af29aca153d1819cf51ccb77dbb,
  0x425e59466bdc2c1cabd41124fc052762660d7b4b3ed2de461a41bf7daffdb01a,
  0x31a07dba8e37b355ac19c20cbc3228b1224f6846767d077d5f1de798a9ae85b6,
  0xf9f41b68f87a7ba6f0a614b7a0fb658dc1cf36f8548fcce4d4dabf84278e37c,
  0x18cfe1a4ee394ac497dd0d92ab0a42cb26cf71312c26ac7e0fb726fd72e3b2a5,
  0x508afeb03b68b508363e9894414b1b06f4ebc79b0bd401b8b52b4ab50caa47f9,
  0x4e7e5731d5de32764d5a0e1209e3588fea44dcd76300e0dd8d48f23dd7629a9b,
  0x1554a51e7c8545455515b1323b36a65d98a078313bb66ca220b7747e5730b31b,
  0x4f5c3cde09698f2bc2041cd2556dad75fe7822dc3e3288b3b2cd61417e41ff58,
  0x234d3a3f8ce8c75685ac550cdb33c8300208916c9a15f582b4ed6372745445d9,
  0x6f238ccf3091c4382f5a78cc81cd5308a1b63508be754812ae2a30d764536002,
  0x6493102c5ab2a816e23ac66bc2c19441bb9887c6fce49736e7086ff762ec53be,
  0x1deb553b87d1a7a9bdeb4b79cf94694f38b97526f937fdef299af1b0d726a77,
  0x1f537920d8202c35320bda1b968af25f763f55b9d564c066d4bdea99eafb6029]

def cD174 : List Nat := [
  0x4db0cb6a71a29a59dbcc65472de22e8e873e0f9668600fbda5a3eaa6f81feeb,
  0x138ea38194d34d435f55747d863f87439c2e3894bbef583b146287ba5b521737,
  0xebab9779500d367afe759685eada7e5c5f50fb74a7776ce0cbcd79d4de4cb52,
  0xa5d5f6ae144771c872ce8e202c05e0abac64d8ccdec3584c2a38a1930807c40,
  0x5002cdff9252a7de1d172bd3598e689e0b4067fbc85e574bd6edb2a85b83643,
  0x4f9a54717a6f856ff50a8f706f383fb90621889c1b5596e21d428c73aa4015b0,
  0x49466d226f1488e6438643805bdc9fc88fc2c6282405925fbb96a63d41075310,
  0xa9bc5e5a21d03b1bf5d7a8e10e64351c7f0a437eb191ff822096dff5ac425df,
  0xf4c5f9f4a8882bf917888bd3af199d9123e91f0a283637431ae0fd54d188802,
  0x37e9abb8ae605debf64f35768dd67a8b6fc43ed5a3cbce6e7282744d21111a21,
  0x715efb8215e4d8520a45a2e4a59e713cd4b08512f5f1002a0b0fa752edfee26c,
  0x6b86289473a8e822f7bc2d94dc9d9176351ff93fa9a1f1010db04f15c3e3d59e,
  0x3fd4ea7e966e0f6b6dea1310c7f76058d5e56ff059c46c45104103972fa68eae,
  0x244f74f7de87719259380f103daf71114f12665e4f5f7fc99eec55d0ce399de5,
  0x361b518d01b2e9eb6c07d58f06b0a74709e4fd752fdd0314825db6830637cd6b,
  0x721a9d1d774a447b021b42587c205e0c10c93473dc3b66da18fa8110ef2dd25d]

def cD175 : List Nat := [
  0x38f829903a0516514ad6cc3b063afc74bc7c49fdc85d51a7180826bc59e86d47,
  0x188f17b7d1ebfb10532bd5d32522b8744f41d1a6451bc4382af9bfa24e29a9b,
  0x6d71d5ca9b3198b391cfb9558a3fadda405c2a1982db99708975ee26cdd00d58,
  0x4beb383c1e5e6a338b4c993128c782b75f28621d85770438095be0e2e16781d,
  0x3c5c2834ecee878a8861ea8686196c485c33e314597d7a127217cb039c30c36f,
  0x69256774deec21dae7d411aaefdb694fdcbc58426f7f4c099570e0b092c2c1a0,
  0xe55e252845c1ccf3e25273c54aaed40e99454dc336d4cee216d44a120401523,
  0x3d9f84824ea15bd4ef039c54710982c069cecd023228075b19b9e3603706d103,
  0x97edffc57e66430e6c5f4436c5ae5e33beac95e2dafcbfc7228ad2e49271616,
  0x3d396eab686adc9febbba58a38611738924c5905fcda05fbc7ddf3150bb72693,
  0x50e203f6a03de77b87624d2219bdcd66008c36ad651e0411000a815944522e9,
  0x5ae4d939544b8790012b8264fe3fa00f4952a23d87abafdbd202b205c6e0384d,
  0x2d4d41191e72dd2cb5582c7d557e81a47bdd557bbb3b2ae47b8c9b2ead753617,
  0x248a7b4ba4b7481c70e3439153561d636e87c90b0b1ccc75b182fc96b6dd7147,
  0x1a5c7948fa44778b21eca4a48370737c02c58ccc16a3ac695a79645f07f7b5a8,
  0x13754dee550b0644b23b8629f622052b7b1b6df3f19a345819e0a1679a447dd2]

def cD176 : List Nat := [
  0x32f38e087bbf5ce5d10ca246078f9af89e942806df0b4eb14704d91f33c2e760,
  0x60889a68504a1d24ee41a3ae865597edd205197ec3b75ed9b62413e3fc10d837,
  0x3c7bc79bf83962b61639c6462227680a7d7764d511542fc4a27b9dcfc43a1846,
  0x6a56c4d478b060cd8fcbdf614cff2aee75e4999c17560b7852d4246fdd7beee7,
  0x59e5de030b47fe504063efe14cb15c107767d592f46ae51ac35f7fd3e2986e9c,
  0x2c23b4b6edba572a2a8692b095d2d95e746fda3887a43db515dadea18fd419c3,
  0x1ae89abc3c10cbe74b4d4bd46271d723ca8b02782e02945393366a77a19e20f9,
  0x1f9ab6b02bcadfe6883565104b335d0575801d9d77c1e2ceae1d97be40c7ca28,
  0x6117cade851314fa39d3c6f7133d85f0b024425bc461af52dd8a39f8468e3dd7,
  0x43ba4d9910f75ff582a399ec6ec6e9c11c97da897cc589074c8a5e2099ddf9b3,
  0xf516caf5265372ee8c9f6fd1e5059220a82a0caf5535301f713c7ddc7ccd99b,
  0xab3b628df152b5645cf4ed004018f508ba61ed7088028fd4bd84f7ba44bf186,
  0x4ab138ca6b468947b13e7cfa1657a0562015799f2980358601fcb2b22d8e69bd,
  0x220a295f151a9eace1761fff177392eb9e667b659f5c6efe75c0a7636e1e54c3,
  0x545d5189a6784d59000e16b56fcf1502fa5f045715cde2f06495f89c9e5433e2,
  0x67bbb0353e9a08a29a34701b1e8a7a91b51f1daf962534dde96cdc2c41ffef52]

def cD177 : List Nat := [
  0x4cf4bfa9199a94443eeec29f906cb636aac6417e429580f506770bf7377fa947,
  0x4eba47ad901c2cdcd149f2a5ca5a9c180533b25f1442857b3cab8e8ca67508a0,
  0x3d09d71078ca993b50db77885e8f90da2ad22873f1890734b9e4672188d06939,
  0x17cbba1e6bfeec623fa05992a597b50edc8557a600ff1f184e1b77f2ce72a41c,
  0x47d9071f1f10f8d81b07f80a4411e6a08f7b05f78736b1ca9a9f5630b9c93774,
  0x658879053a1559e6b37cccef7082c8bd6bad5cd479eabf54c82a2e38d41fd350,
  0x72667f04fb911229844a00aebcc4b45a5d076355a56dcad12a64270febacaf6f,
  0x635ce76c532814ceb2c01f524d65b96ef6be238de73f79a224af11e5d742f7c,
  0x21f9584cfce0b462a4c45649c4c3f2ba197bd72d896e9a8d13106c82e50f083b,
  0x59aa46704ab021369bb15cf729af8feb97dbfe3f46195772b7a27fa9e5a718d4,
  0x310a72432f95128b19753250b09fff4c568f8c7b1eef554ef9aa292b5fce76f8,
  0x190c0c3d5d8b135c14556ec9f219650e7da69c9759f260d0ab2b238577bb1e9b,
  0x1da8090cff806a0375d28373d5a8c275ac2fb75f1ad47f68f3b5f60979934ed9,
  0x4c62fbae84ed29d592595dbecb1ef8e380364f476cdf75e931b4ac9a382dcf2f,
  0x1e4fb83236400ec883345915efc0362b08ab3dd33f2d94a553409129d878f4a3,
  0x37936306a30c5762963449910a19d3e7a54e07c9c028dba1835fc75db5272c13]

def cD178 : List Nat := [
  0x2399ae2a738313240e75182a237b49a70077493cecee32463b72af284cafcaea,
  0x3eeb55e3bef61aff64c1ff86ec253d28cf9cba53117ab25f86cdb07d3587cf54,
  0x6dd4b6c15cb4088fb1b4c349ee03a9e0ac83f26274a1fce872128f789184fbe0,
  0x4970e39aee4582d3eb0d9f34d288e91ddf55f0afc3b6b5497bdec4978571dccd,
  0x72f0fc0585e94ce2a25169033386dd435bc61c6d6ed9cbe65c951458a872f002,
  0x6c22efd8d93b9502f570da0605ab0f6359ab2cab47ab8fdd043ee6c7e56b68ee,
  0x381fbd6cb3c99bca064804d356f66ba86117b942b6775b132e3bcdaaaae3530f,
  0x188409393472876d503e22b33034b795b6c7401da07bf93c85ee9fd8c395bb0,
  0x1c8330381dcc81d69bdef639c7c27b78932ea7dd4ba2eb39e150623a60146c3b,
  0x59ef58c4f47b7f85214ad4b2b2881fcd7be00a701090538e16970c2e39ace467,
  0x6490011f92bd75d1009f3cd2fab18a1946402a04e8d54c6d9d4917d3d96a5547,
  0x21f3fbc759579f75b4c442f7382c9a119a0c4c0f9985d305ccf2ebe1ba4d4cef,
  0x2cf0524c16d435064d8953c2a219e705e21a148e6a5ac54f07f92abeebfdae98,
  0x5d1b95d344afd9c3953086990ea9f1726d648ea2eb878b1e2fd5f60433e76555,
  0x6554283480c24c8485e086ab16a6817dbf3dbea09e6141ad0ac6209759df39cb,
  0x6cd6971c5f5b0c53a3ffb0325f3defb6ef542f961199013270f7f306fe6550ec]

def cD179 : List Nat := [
  0x45a1bc768c9c9769ce75459cd1b6e47883c5daf0d7023b32c233343e67c3ccf4,
  0x5fe76187484f6e0c90d51342172fb450aef1a0d2302cc552135039ff93a4362c,
  0x62266e3622e692b7800f75eee95c413e157d044a0148140788b28d786fc1e9a3,
  0x4abbc2179870b7b12c8d2c920788175744ad57cd0eea5ada1d290505f2406446,
  0x372736bfcc97156e0fcc2a2284fa158dff33a38f8cc776eec2f48ef0b0896663,
  0x913b76bba8fc4214c07a2af689529c1044c5b30cf4356be216229f2da4f3b22,
  0x26dc6fbda4147651c150dbb18c6d02d614211111eba4f276732f53c9d1fca312,
  0x6a6da6248d8c5ec65c9d34a74c6708500a83860bdbd67e068d23e92a97c0a21a,
  0x43c1e84082fbb08e25e40df4e3c3773f0633069defb6f3a758dddfe8d10e3e66,
  0x451d303c94a9111dc08d7b86fd125b66a98a6a8ceb927219a3ce7f4be9930712,
  0x14b26a691ef137c8d301dd20ca9cb9ef20c21c44a3bfa944ac8eef77ad5b89b3,
  0x635cb816dec05213619d5a637d68d84ceb7a36ed32a66f14a0e254575a15334a,
  0x26ea170ea99f5d19006b3c292d73a898311243e015262d0093756a09553e4d90,
  0x43eb24aff99a93fe839914340c7a96df9528631c69761e59a800fecde35f8bcc,
  0x3f6c0c9e4a757c6b24067db3177595d11f525246b934d9e7871f9097cf7bb5dd,
  0x5c50576747044b82278ecdcc066bc7a082633c8389685d6a5df873b83cc602a8]

def cD180 : List Nat := [
  0x1788b7ec68de87fb0ad68a537a763fdab511b41e00a91b18616e61f1335d9775,
  0x421ee4956409ee0120f168ef42f31bdf6764d44c43575ae6d8f32aa0ae887bbf,
  0x5c8337911b3d7d8d7cedceedb841652e3a131375d2b5ad5bff749f40753f70b8,
  0x19aa33ade1f01cec855ae375e91187e3d34096b97794ff6abb61ec7e877c9196,
  0x9e4f764806767c7b61af9bbb6745064e3a35cf67d6cebbbcd716e552abd6fc7,
  0x14c12949b278c56e99be67079a8480febb6c66fea2472822df6a054040f9fda3,
  0x200748f34249da87dfc00c98d984e99d4c8118729d6d3e5ebaed0976e3db6189,
  0xc8e9d5d1742142b86befc5d0fdde6b244b04607daf97c2f5e91b4cd3d49a559,
  0x56d9f92d33a9c52cb2e4515a7fa6bb850c95720c2ced2098556e616414754d2,
  0x56155741feff7dbfb43e26c1b5d16969f2c1b4ca7a40b698a66cf44d71a42d06,
  0x8660131421d496d245f36305f9c528533074e46d75c8343351ece0014a54e99,
  0x3eaec422d82b5d3dc80ea0db9915edfa062902e710d3b16725dcbfa81348f9dd,
  0x20074b4b0e63c50f1faf692529ed5d04ae42f79ab2c8dbc51b99b8168f2eb7a8,
  0x2b675d43d6901efc77b4703acf2e65a66c9401ccb10e4d8f278144c201319882,
  0x721737eaf271864fab08337be4c67c64c0191e917cec5f949075ad3dfc4d3e90,
  0x29c33e065f356559eeea9ff66e1c915c7a213f9b5289f56a00213f49883a940]

def cD181 : List Nat := [
  0x5ea306116e0d9cc3336d144a8c2d77b08d6aa5cba9a5cdc108411ba9b4e10e9a,
  0x60bc051ff62e40d8134cae3a83ac732a2ccdc418741b2d035c38cb7697005856,
  0x69a8fc1ae77a305981d59557d5a5c2669f52a379e93df809290ea1d5ba192bc2,
  0x8ad80ead3fac1331915b88afaac247111ec629f622a5d5d936e6b5d39bf2f6d,
  0xbb9b91250cc6f0417b27d90a6c5bc0f84351426a3be354e230c8faf48ab2204,
  0x20bf51ab1567cc2685d010ae8acf4061bd15771780a2e27ad990fcd22cd4d667,
  0x654a69ed69055ba6bdb96646c5caf98ba02567a92ab36254acdb539092d9854c,
  0x83d4df56816a1229a34669780bc0129cf0ceab21e7629445abf7780dbfbd689,
  0x15ea3b11a400706b1713a4da7290cbe5546f65fa5fec1dc15a32f4dc1ed878d,
  0x2b507440b1e4b7a39c609c77f6924997ed3e005b7a42dde906d110895fa198c1,
  0x1a64a4e6636997b5467526dff0260870464ce59ee904d9b9270460e3e1d27884,
  0x4f794036a5e96f9e6cfc24a3043e95d632f6211df4a3a65e442fc26f8704518,
  0x73674133608723f757cc554c25112cd1edcd9424759c5e653e38d9223be46947,
  0x2f7e959ee01a98f4835d6d2f22d02981f696d0149f89d80648e09a1f64873c60,
  0x5a0faf4ddbbd59f99820e51431e3c41dd3d0b39cc1b972be2a2f273586b589fa,
  0x7c4d2551aef45e4d96e74e725f226d9f35d79fbe2f94b423e04ffd53db9c53d]

def cD182 : List Nat := [
  0x1129d308afc170725db8fea03cff235f55c18a5ba5339041a22eff2767355ea4,
  0x63cd31463549c33da56de3177d3cc8b0362a0c5032f699cf9a3e610ba7733bbb,
  0x102e2612c907b321abcc9efb0f5beec8ff6e63564c0c871e06edcb809dd14a0d,
  0x4fcc258e7d2c9c44d591bd0120e965feebca68467edee6934f9c79fd373add4a,
  0x5772f610910ed7f1e8e65d4274d4c7dd23ec54932931edf0a2ce2b69efa88ca6,
  0x5717d63e81dfd3f2b9d6116a2bf28ec50e206a0eccdec1f7e71cbff3d3143bb5,
  0x620520199bbef0d004a4c002d093b9dda84f5c0f593190ef922df924c1e83168,
  0x5be53267fdeff17461c5fff07a6b87270436c347875e23a6e07654bbb784af21,
  0x3bc6848c2a2293c7cc5ae6b69f6a95fbadc837fa774e590099f1e3d2cec91f06,
  0x4af58d07b68ff3247bb78a13137e4fa9d1ffd3d663f704167daaf7ee07962940,
  0x51f75448d767fc54b08e0c639621262cdae237e2146a0abf7c888d03d56f3e72,
  0x2bba11defbe7bd9b584d0d0e63ab8354e7dd7872ec620e8e98f72c6b6ab98b5,
  0x63a6fc642fde63b4373741121173a0199093c0acc960bf009da5e3fad4c1d27a,
  0x25867ba4ad8bafaf497beda2a078757501135ac95412705bf87f4109653f2660,
  0x2b0468f2b4ceeff98d8dd3e512fc18f94923337e3d5953523758967a1da40509,
  0x6369543eaa8ea1bc27b65ab057adb58c9faa6e492cc214cdeed6a3b617a1c982]

def cD183 : List Nat := [
  0x1ce1b161f8cab323ad4f0d6cbb74b33a9b30c37041d95838f70f80b418c4a3a3,
  0x5fd5924f3eb5203fa30d1896b04f3564bb91a035e89e734aa7b378b0243da8ad,
  0x4580dd0cde120cbf55098944b0161305b0f979990e2b3aec24bd67497812912a,
  0x64e0f9152716e6efdb5fec68fd99a79ef1c4cb2f84e3282cde9cbd0e46d3149c,
  0x3d07669af596b822f2197195fb70149f277f507156c409a66f8d729e8d618f4d,
  0x58499dc38a652ff4807d19ad96556ea81c0dd0b71c9ca884a4bfa1f2daddd27f,
  0x1a2eb5866619beea0eb811096d5ef3195d54c304899b3ea5dde6890cac8e920b,
  0x5dbbbcb7ac1a54d5ed5c93d52136edf96e7e6a2b84f135456aec3adc72917058,
  0x1e693e24601884bf4ec939b28462aa31a2b7cf7466e107a69d330204ef2c7b42,
  0x5b4f1cc9b448fec7639539207b614cd46e1fce65e7ca3f7c42abb803a0d956be,
  0x33ec0a7856fa3349c68ac0ee442d3836a51c86b149ff666996dbce45c9647533,
  0x28e83af1e9b21c5c2fb2a94aee8449a556014cd63b124e9389fc8a6e65edf254,
  0x55f22dc002571e1ebba51f72447bd32d2bc393c9f41b58c022ef9a65175a5d61,
  0x260627dd53e3a8e49c96e267d865670f29ddb8235019929b8ab7377548d826fc,
  0xe5091ed0c465da41b0f575d6d122ae0a994378386369719e549cc44a3d9950,
  0x8b56a1a9a278ddcf5a823cff8d71c3917f3409fcdffe5fe02aacbdd65208377]

def cD184 : List Nat := [
  0x39f1bc89cf355a418b9da65ad2336adbac7f45b238f1de26aca72169d16752b4,
  0x3cd26a458b0b48ba068a78f277bdf58beebeda99b92abae4d83917c3f6d114fb,
  0x6e9c92f773300c869e90f1ccadcd1f50b781575f5af73d34ff98cc7d103bf903,
  0x4d71364ed2d29f42059047e5cdb6e2e025401c3e30ad82972efb0c5637275648,
  0x77a23b6a0f5e63b6106afdfdef91beace792c7b285bee2365b04f08f5fc64fb,
  0x307e2c05d5e23ec39017fd7f6c43e96025a9ed66459685f25a432fff73d969b1,
  0x364a1b9fabdbc9a6202175ec5b802e0ec70db9dd20a7fc4da58d921474e8c8c1,
  0x4f17939cf12f7fd308b3c0f80de76c7f9a845fb16165fade920d3a8c7acf3eef,
  0x2014c103d7c25939077333fe49bdc34c60352000c89749cac8c5144cdfa08d07,
  0x36bb0aae99a3e78d6c4ed30011b7980c7d8cc5c6f9b235a4b634a47bd5c55d71,
  0x5a9e72ff5f3e3810091c25081d65433853f2ab7e9cd7cf4cf57987a337578b44,
  0x437ca6eaad23b872ee9bbbb32f6a6b71d235845cbe4f2683d3f6d7ac7a309c9a,
  0x24d141c5be6bbe9ceb3f0ba8e7a39660205d7563ba108ebcdabf49a8cd66791d,
  0x29e5c58efe59bb04745b74797be85ebdcb03854ecbb8b4a2477b9bbdc824c248,
  0x5a204e508bc65bed886c2257e832ba43fb5ec4277b8bfc7fad23e23e3f5ee480,
  0x2965bdc717e0628ef88d72798b05039c0c5e451e7d19ebd0761a58caaa300d82]

def cD185 : List Nat := [
  0x473018399071746107689fb728c6077f1b64dd7d97a94b4ceac226af717dc233,
  0x3a834f592f88bfdcc157753bf24cbfce097de210620b195a6fc6d520ea28bcf6,
  0x2a56ace63b589d1d727cf3663ec6ca777b3da25386c4a3345f661cff58f4e373,
  0x7fc8af9b1b2f557941d5bb7ab8f4f19233e79a4183ffa2856386b0bc2e69042,
  0x1b16e904f9332b144d0c7389c0cd3636ea6d42e33918f42193c8888b85ddd94c,
  0xc184a5f41867f0ce2a2a5753af5bc882039b7d737080c30998902b07d97982d,
  0x168f8c18c4a5a0ca19fc9fe6eeb948c19df1eaa095faa9d9637fea112ce003d8,
  0x1d8e28b8ec81b2cd5801a9aeeecb23ef4979bbb2a570d18dfebb3212d2070cdd,
  0x39c67092f1d8199151785932287c0e7f5b734e80806ec43b8273087381eb0f,
  0x1cacd1329863bd44e3b5120b3201c6cb950e7478026b99406a7115c1f701dfe4,
  0x4740f0f999d2cd9ecbedd68eef210dddea26186332fc7ed599747a0ff34fa354,
  0x30aaaea39003311689690d29387e66af550aad32d7ce9b31c2279fad8de301c8,
  0x4b291727ed7780466588fb494ec2fa171494b91eca26f68f25b51c67e9bc895,
  0x199ea283d72083f7d480701d881ceae9c3a9633690d35abd3920a009ed4f81b7,
  0x6b17f8a2627ba70c36d238e1b595695864cfcbdaac4d094ff506419f2ed2bce3,
  0x1d975967a18f56f17e842d03d15c029528b27c9fd93ae684522f1e4a6a0428fa]

def cD186 : List Nat := [
  0x8cd08075a3bb039139db8d0ea3718b10f0e20d81f4b9f94d6397fb8736df634,
  0x6ca098198a45237c3b295e6be5fcf5a16a8967728480fed02b817911132b762e,
  0x2e6298ac0555de3fae680c018b9f858d21b03fe4cb7705f54138c209cd9f8444,
  0x5eded78e13bbf0ae24104ddaa7a367949ed6e796d8016844a7f4b50e771840df,
  0x2c5a99838858558effb4de3ad205980b12c290d52bd76104360cea749509df67,
  0x5e0dbf186167a4c01e3117b7d6f6268a2ab63706881cb979add127dfa17b04d3,
  0x126dcbc4b65a3f7522d4deb52ff3913eba357b4554ce39d1ce0421bffecd5d6a,
  0x3e87b4a2f7dfd20d48551f5866168cfe1621579b4bf9e8710a20835cf8d5a1a0,
  0x4e52c5414c42fe167de18437dfd91181f3dfa2bbbcc8de10f02307bdc5f3915e,
  0x22738ebfcf20d3e1660599e6f89dc1e2f8ec492232f0c7b8c142ef2130977856,
  0x302f3995c7a7602e27f8a9d1891349cec48393585ea4c45e42aa0e8f788f964d,
  0x6c4c2c3ed2867647458e7210d5b72d739c1db29ba4a999dd048b9261667c44d7,
  0x2aae5ee3b226cda863d39e884369c1e751588e5deb816b19c508721c5141962e,
  0x7221f9a5979cb91dad57ca68bad049717f091d21498075a782c374e1399e911a,
  0x5d7e6721fcdbf1d3e4b6ec88b0fbbc8198701dc58b2d03b68b8001c621cd4f4a,
  0x1d9a4ea9b619786b0c76fa7c3409a638320fe7d11bfad322aec5a5949fe6cc84]

def cD187 : List Nat := [
  0x4e368249adc63c0b30d531877d50187a12950d4e1ae68c6c56aa6f9723e12c2b,
  0x415b6745d6b9206142b67cdde852e5ef9829b342bfcda2788797ee4ef82f2d46,
  0x6addbf978041a79a290ec5277411c34dc371858f2239af1b0edc9eb8dd66c35c,
  0x4d0b0708459941e1802773fbe907b44d32fe2887c4fb7747889541c6dce0a64d,
  0x20c7384035dc5ebad6becc0ade7e196807566c492e158219d9c04c5a8d49b63b,
  0xa2892f5af21c8bb574a9f02431b3f728adde30bb111beb29320ab99a2e78fc3,
  0x43487b3595c2ee6f54376dbe5c3c32594d3bad0cec850684120c1ad6a82a8747,
  0x7ccb8a9cf393292a274c7b77b64af6682596f350d9b728b24163bfbe5a35282,
  0x3cdef6ee18ffb91b141da91d939548d3f973d86d22b2eda66f9f056ca5cc9dcc,
  0x4308223686d02a531c628854004a207d6d584ffec99adffc5fba1df7e3edee23,
  0x2ba5a4f680a90d54255d18daedb58f87541f0bc9affb79d6131e2abded7fc97e,
  0x6c586db45dc36cf401ba5792b585c69faa69efb8eafcd16663430f6f31ac12e5,
  0x3b0a32ffa15b9515c7b3fbabe11c8e2733af0f428338b1d10b167a9f6909891b,
  0x2353f03acd4b652b2dd51a2b23040b7a3272e56fba0ade10cf28f9fb81f299f1,
  0x3060e8396779bbeb15ef756858bda70b3814d36c7175379368857c3246588b63,
  0x5c25019dba9ef9518bbd1ed1fc0b11eb1b3bf2517576ca85e8412e7092c5e793]

def cD188 : List Nat := [
  0x2d3ff69155321c3de9d06fa51c11ffaca8c619e018abdb84b82f8f4145c0c9e7,
  0x1fb95dca351dd2e9b16dce40bcb2d3a2b3596f1ba86111c2a64fcdff64241fcf,
  0x52c41f5128a749920b04618c06445d3ac955b5b09e4a3b948e83177fff0cefe4,
  0x4976aaa259cd72b2d08ad0b4a43fff09f120697977bad5b26a255f0939edeada,
  0x777061dcb8da15b9ddf905bf160cac8337665925463b0abbddf2fd8a92d2b60,
  0x3ecddacd8db7b479c280176ec23c2601e84061ba30e307dd869da2b70c282fdc,
  0x1da6e45808bed14c81d849c87925bef3d75a516775f99ea8375573068219243b,
  0x2176f9c7a7117f85e9ff4bf861a20bb94ed7de87409d7d465cc4d1214d7206be,
  0x279096fff5ac02f76fba4996fdb68bb2b5b48abf0fb6dcc3eec89d7c2fbf5259,
  0x338de28a560420f4c15b0439a968113ebb83cbfc5fbca3aa6f8463364848bb8b,
  0x4686e33bb27ec13633b4c8c9a3ab391bff9594ed1349dd22f0610bdf0284df9f,
  0x3469582c5f499f520b70980672e48abe3da817cecad3138a483a5c22cd875347,
  0x54c5fbf2ceb8c960576f4d1cb293de7798e1d1334194e8484b52814f807963a6,
  0x255add95b6831d13a89fb901118bc83defba2de2e7dd872eacb4acf19a2fb517,
  0x97828ecad1e1f2adda044efd0d3c5124c010e49599f845dc38e48029a92d8e0,
  0x44c1837ff34823ec546ee7a51f60786ef15fea4d199d46996c8eab6d83ff14c]

def cD189 : List Nat := [
  0x115e523edf622f19df73db73e0bc8e7828c81c68b88648c7102eae0316be520e,
  0x71ad38b3738adef235f9ab40ce4f17faabc8ecb47e3ae35437881f772753217f,
  0x322e76ed7a085f0ceeb05e73664b83ca16679606718488e1dfc5f97122f7d49c,
  0x571b5ba23830ad5b523e901290e96d1b035822a808d022b6adaae662858fdfe6,
  0x5e9ad82e85d2ac2c96d41e488bb546b4b444dcdeccb76f7049bf6ef10be5d158,
  0xc8ea57d01642581b971b84fc5934156ebaf27b26801011ac5dc326113eee1d3,
  0x1b26ae9dc6a1c4aefc7797f2004501fb18a620fd722a5bd1ebde7ab4cc734c5e,
  0x3eac1a26687abb4c3effd2d3b2917fb36a43f8bc1bac09ac81f07576a0ae4efb,
  0x528157f9a522d310a1d2dc79678747ae9c153d898217e3ff0dcf3ac9162a8b5c,
  0x20af8afd52df10cf1d39e2d16493d51ca3b33e8f00abd06be5f68aae0c730e57,
  0x5d3bf6a1edf13c914679205978d546f85372887c0c70e0d596c43d2dad0364de,
  0x62877b2495f5b195a964faf861c678b773cd4502b3ace7840309728782f416bb,
  0x4b1af34d0f38ab7733cacd90cc5a0742cce7d6228d9d5150af332aa3a9517950,
  0x6aec23c6b55f2d79a6966f1f213055753fea7b3622340b0d2aa19df4ae382c1e,
  0x324377628cc2107392235a8e806ac160eb6e0d94ca5122fed0376f0e90219488,
  0x1c7be80900cb478920c81f6b666ac08b6bf06fec2332cff5d1c45736ca688ec4]

def cD190 : List Nat := [
  0x4eb9cabdf3a603f75a04aa0397fce0ccaf28f092822f7ca544ed0e996c4704f9,
  0x67db6a4636fd9c6f2349512fe73b384defd70f4e990b5ed48f365bf9bc2975dc,
  0x3c7ff657664716de750060ad25d4d206f25fa5de352c138c13644d97c0df99c2,
  0x70c131eac2747a00ada46ac129d3bad1d75ef591630c52e17f5d3dc06100a4fe,
  0x5759518768b8dc4ccc7de276cfca006c1e85b7b66f1f189c50a7d7d2b5b74717,
  0x424b1f0a998ea00abed9166523c189ec6c440dec4228a83d08a9e9e138e86df0,
  0x5b6bc9e00a0beb3bac93bb21dc608b1a1be48a19e70a32377171cea4d96df975,
  0xf93ff98b103e332c42ecd646d3b4270dae7d55a0e8e48b54f2be60fe4c8223d,
  0x5bd13b9a62922fa934203839c69c5d1b595858b55d4b06d0a29aa604e5f9d179,
  0x6dc8338bab295fc2e3f4a19d53033dc7c69a6d34de496d46cfcb5de9205af06f,
  0x4a7b34ba079ba12d528ffff2770d4ff89d83b64be92297856bc04804be4fa851,
  0x39efafb976467a17e2afc1363dd0b37a2e0745e55290b71b7dc584f568dc01ac,
  0x59df242ea6bb49f89358f5c974e21966e5ea674acfb272f8199a6be48b6c2dd,
  0x275598ed46db837d035866044806531ea47da12f5aa47c779a6ba190729f23,
  0x6486149a31113e3113ffe798c98f38eb66b08706d3c095be32b29f5350f42327,
  0x559eaac3a2466d12122516beebcbdc1a1380c245a193d01058a1392603db2778]

def cD191 : List Nat := [
  0x3e5446d254856354523c1ba7868a522c3d3efb9dad5ddb7cb4792ba4f5839283,
  0x2b2875f3d460ede385ee13bee6a0a31a303a504b140578492c0fd2a16d77dc91,
  0x3e651087b90cfa2a1b8ceee1cc7951819eed067504d28248644c41bf20081089,
  0x1d5938b6d27a2b28e9b2146a16e97e529cef7998f773b2bdec2b76f403d1bdb4,
  0x5d0b04f7398c2a53b8d2d1d8cec87aea87c97cdffead9b69f8af16597c0f343a,
  0x424cecc35b9a52565675505fae96b99a38671ee36861b565ef0b6844c98c957d,
  0x9923dea443442ec36d3cd34b8db0a6b040ddb46fae23db3e514bd78c851837f,
  0x3447aa8da2a21a2864b8dd31efc8db73901f15c0ecfbd717d35b3ba7ecebdeb7,
  0x6685ac077645dd9a85ae89123dd5dbd264e89a35c0ab145d8c9ddf2bdf5decc0,
  0x3c380aa7a33746c71ad2d96aa5f3863fbedf4a02be43564002b7fae75e03c8a1,
  0x7213dd314f731dfa02faa52674038feaa85f0442da5905888633acb5678f1629,
  0x4806696f13505df47bdc732fe02650f16da32d4c5f8b428d39abf1c45e99f3ee,
  0x2a3e419caf84c034a70c045a11591caecf7ac01b9550e8954791a85dd5bb7e62,
  0xcfe434d811ab824676daa49a562fad5addcd94928979a70cfa102532185c4d0,
  0xd5473d3b9be960a7a17dc11a75f90d4f1e535f52753ffb3ac533adfb32940bc,
  0x40e4a8ab65ccffc4e27e3c06bfd57653c0655e8b2793263ca017459013068912]

def cD192 : List Nat := [
  0x2f56fc441d00f83e07e7fd067bc7af4a3e1a2e57a36ccb1c2c92d07cacfc6586,
  0x24ca8eb618742d3f7e6866ed13b55a087d62d15e8c7c9f786be7c146e03cb8aa,
  0x495ca6a00e243db94ead9a382b11dcbe9b26e30b313a50a093342a021250321c,
  0x4ebba7f4f119df81af164a0bfd40301ccb300a65fa9b19c58e4b577e1e4a4237,
  0xdf04bf15b75da2ea595603cb4fb2665823d252c100329796561665ef585d07b,
  0x5e2ee579869148e868582193b4db20df62b29382a928371550d13cf722ff5c1,
  0x61cfe31629963f2952e4b0e4a19e2606ca01573b365a65999782f8cbedd6b43e,
  0x123e13f6cdd9dbe032ec016edfb995d9affac225b0e0c11437877e1d72252d5,
  0x45a86ba42a5af8b79b941f70a6182425c44461faa40f2886ad4f67ee587e9392,
  0x373b7b679cb6ca16880a1978676286d3df84253434628fc3eb71b353867f04de,
  0x7170bb17cd76aef42ab2b9047d19e4241ede61d94e0d2da1f8d04a8d2e3f752,
  0x149a43bb2c91f10c07259f6c763909af4fa941a09482f422b9a1a5fa3865ae35,
  0x720bdd85105e2e890de9c49a723a99128673283dea2d3cc3a5731955d81c76df,
  0x593222534efc6dd7134efb8e723d2109dc297493ec46f95f1eb4e033e2e5f563,
  0xcba6fa42deaea79965e7b0495235f6247c48164472aae7bb83834de07bb6461,
  0x1452fde88445726a0793f982164fac97496122c1cf51bda3900b93efece68b5d]

def cD193 : List Nat := [
  0x5e5cb504db01c101d2ded63b2a2bdef98a6cb02d6516e89752118a85f0188f22,
  0x6b496a40a006fb2a8c32dcbcb7f24d29ae423a4e0771b4dcf3eebe31b81d8276,
  0x6cd830aa868d03dd458d2da2a74c1bd3fcc33c4c926a8114a5401847551e2cc1,
  0x555372955457f49bcd8cc38196fc931a77a11c7b3e4eb0afc75edc4124af731d,
  0x4e6943e961c7fa7de9798b5005ff022c5c21bd9cf90173687e7e83ab2ad195aa,
  0x4f10459b4661879312791e81ed16c3a5c048c78d11165c6cd3ad2a8edc62efb6,
  0x20a3615bb6f6ae0fe5d355409348decd9e0c0125b962a5d4426890483ca31c0a,
  0xcfc8742f7d809e0ea0a4c5f7129cfe2d3c1b7740ae2b0ad7334bd95f5ffccdb,
  0x1096357eed1ee18caf374e8df1aa5044dd26b06b8446b9d8792e28f8ffa3ad10,
  0x23d0e8e1bc067948a6b31ea0ed83058e4538085c911bd5378728eb4615ca9d0b,
  0x54c575e2af1977ea5ade34572348a718983a3e3f2d28f2905be08bcb70cfdc96,
  0x5d0bb2bbb5eb9e14e683e26e7786b7ada2283da2833dab52eb42501e429c07fb,
  0x5b582ea59a23ffa01fa9508a741951f20eed9bcf0fbcdd5a08cc553a7e348e96,
  0xa2488be3c0d4d68bf51968175f4e267d1089b94f9dc04fc93e893736788ff7f,
  0x564782b736afdcccfa528257699f9f38594e606295bc98182883cec86a06d13c,
  0x43cc1a6834866a7ab75392b2c9afad5eace2d63ac9cdacd7af1ccf638057fa0f]

def cD194 : List Nat := [
  0x72ea5c823be565f7511edaa12fe086b72302780a992420ebec7f5470e1f115dc,
  0x277cbc57f0c7b33857ac1ddb34c1301290afed4eeaa00d94bb9067dbc224d72b,
  0x1fb005d60647b1c778ca9eaf6db1de8824b6bf1d36ba29ab5e98a1e0af88027f,
  0x43c04019d3f31bf892f7d9b719b1856c328fac728b0d669afb122e5bbb65f67b,
  0x25a8588f1346ce19f4b355ae0d64db04525d8c50bae1dc88ff232b1b2ebd6e43,
  0x16383117cd78213943a0ebb3791e76758a7487be3e8f868ab3377578d08b915a,
  0x2cebea9caa1e9dc3d7ce3545c82019396f922b5278227e1a0fbea4c899855a3f,
  0x1de30c932d852ac6a329af17d71375ba450f06d45dc62ec03a947381d65d5ebe,
  0x6309b8c694fa7cfd0ef07bc2411a8e54eda4ba92ef3ac581170c79e4cc4d3daa,
  0x230f11d9c900c0cb80c105682d3e29b605715a78577b5bfe5d9a60d3c2957e5,
  0xe5a2584c5182a82de7b46b123d342717179dea66c977d15b8a4717e1db23193,
  0x3799243c29cd15a1ed999226c686c58caa52db4a1d9466d4e0a7ca4158156a48,
  0x5296dc3d1bc9778fbb09c21cc34bc26e73a5b0f358d6582a7f053f7b7017046f,
  0x4ada99cf2290a3f3965dd7599587851b0dada1d5ce6a4138ae835868690c5a4e,
  0x7249d3e9f6f3282023f47cb9e4e8b01bbb6853d2419e84fbc2165f1505c79228,
  0x10fb744488d0f817ebb3e2380c40083a1b3eefa7f091c2788ee773a7776d61c5]

def cD195 : List Nat := [
  0x5317599b98f7886bb562642628e824a8cac7995645d65dd46d14b1df44ff7908,
  0x444908781687495ce5bad9f52cc475337b9013271b1b1cfa94a8f0424195df8e,
  0x3fe52747ea52c55d13742e88bd150a4072530dde12c1923cfb18874790b62747,
  0x59c4672e4ff7e8d327eb1319f1d587259872f43ff0a03edbc613c32408176539,
  0x6483156147834564ceecc168bce8591f21e9e243b8ef82f5de724f721190604f,
  0x9d7addbf2ce5e2f3b8f5d41307037019e1231b19102b9966cefe3923edd12b,
  0x7008b037362797acd7163017e83cdaa7fca8f01ed64fd4e2c121b98f14ed298e,
  0x57f3720c37648cb8dd56b3a206e222418b29918f83cb1f74c8ba8280b99643f3,
  0x5569b1b932928c166a4a59f5fbdf4109c6cd6f17517dcc49fd191328de48d25,
  0x6e8ca566030cad50e8e5fcdd0820197f265f7255c95dbe05d250989898079db0,
  0x457421d0ca0eba0bd6dc3b852d0ea2b4cd69fe0513f603014ddf652fbd1b0678,
  0x64bc362d0e7ec619444d8e09fd633b7f90eb9866d8c217aaa6666598b8dd761e,
  0x5aab818671568ef59662450f4fce1421cff75056d7ef80822983ff3e1c1de7d3,
  0x40218d8db94615d5126607e1170a6c93fb8497e739307d91eacb0fc0327003ea,
  0xe444ddb77955d4641e35739d57f27d15a7d064a5e27160033a67d69120c5267,
  0x164c8babfe25d4f81f66246aac9d4cf914189704732a523c3209ccc77518eb26]

def cD196 : List Nat := [
  0x16f5ce222d001d7e8c716c65390e990e2b8e07f757fdca5e26d8f5f956462236,
  0xaf0a6a98f447fd47bf8cc424deb6acf79267f67c23825866febe5d5a80ee90d,
  0x3f8ba7ac8125b9981a015d84200fd8ebf553ff39d489485e7dc5751f87e968d2,
  0x1522c43c1539050c2a48c40d4e4668f19e3fc9bb0d8f89aaee6626ed7d4b90ed,
  0x6536ac72a68f040ea11f31bceed45f90ff43469a96b97b2d229fd874114974b3,
  0x59c43c0a71496340f1799c0e2736cea3568060065ccf376a175615bd6e55f04f,
  0x437d7c88bf7c16e5d1d9d094764b410780ec86168298d3d2331994363441f687,
  0x110f8150bba289ba1946cc065d9b95cdf9c877561ee2cc0561e30551b3679263,
  0x345e6b08a1c77153e26600db2e528aab3bdb5ae1fb221cb20f686221d42d496,
  0x2d96df9f4e09f96ed0f9bf15d18f40bfe41e345a59b9af31521bad4f0eb10e35,
  0x2040c3f41bca1c6858f1f263d866b94a60efb5f850c45355d59bbe8d3c77ba59,
  0x27c4ce57898cf3351fbf147fbaa331ae04029056c4f1473efd49c43c939b70ba,
  0x60790b00c66fd30296c22d34844016e6af062af579e21361e9f39bc6c3693b3e,
  0xdf44c31e8dc9f4879c4e4ccf702d717f6e0b39db930bbf13d9f598fb6d8dbbe,
  0x488c140127d255afa935826fa1336b4a5b0dd533ed1b52a6fc863aa2ccb39710,
  0x32b18550e075afbb447155473b24053b637b1e7cb7d2150241e4771097c13e61]

def cD197 : List Nat := [
  0xf14b2421a2df1669d1d73269503ff157c111ff8dd0571cd686c358fd8d4f05c,
  0x10b4e1ac32e85343fed8616fdab82a6255225b027630e92bfcc953c82f4f1d10,
  0x3fd002a15c5baebad5ca5b900b0858a7d36b3262c75a46d47510594f292828e2,
  0x3b541810fda8206788f64823567fdd0724c890c857728bbb6c0bbfe0f984d555,
  0x1f687f832b746fce3833e39956b40ac297f543b4583215c11bb7590702c6f2a8,
  0x470a98ab0746ee658d83a94944d32f18c97de364919b75bc5a3d882537eeb6bd,
  0x1c56c3d5f769ef32fb91acc0688c6defb040fcd8647962fce99843fe86bdcc8f,
  0x480c4f79a2feda12f39db89badd2750b1f10a27060983b16fd1758dd14abfe62,
  0x59bffada54e4bd29aac78c7895d44cc3a38d9173a156e267a155109068665de9,
  0x68107a80b5ccadec6af39647c128afb567b73a8f9133274246ce50009ce5aefd,
  0x86dd6b983aad92d944a167f8fcdfdcef5a3cfaef5f41176bf863007e6ac370b,
  0xf721d1888569c3df40f9868b9eb3300425d66242d0b1edff97408bf23348721,
  0x2106dece5dd5529cb5647dfd8fd600060b1abd5119206963c4b3b1299dbd0776,
  0x136fb11fb94def32ff92d228bffb6d6de8075a36281208655b76eed66706b968,
  0x571d862ddde7aae3b07b71643e780af5ec05b9387feb951e8ad5262e08a4cd90,
  0x523760a75b553a800eb1551932f1c1613a82e0dc4ea6317d8e4a38838d97c35c]

def cD198 : List Nat := [
  0x3a61f06b87668e11cbc722f0b4f4e383ff8b042f737733b958ddbb8b3a2392a8,
  0x6cfa895113fd11d162b6b3f2eb1b3206fd6b0d67a7556764e72bde024fb44964,
  0x11bc43ba0749aa0b6feef60a281031c7f53c795ec651cd81f71a6fa5118ee7a3,
  0x620c9bdb8232a2b36a2d9c46e35da279238366cb9c2fcd2a2981ecfe4f9bf195,
  0x6739f3fae0f223d78634ad0a76623d9ce1d2470b83d8dcd31b3f90e67341b0e8,
  0x32bcb879d2b416c7fced8d72fc81ad47851a568d00f94cee83812d8de72c725f,
  0x5d0ce948becea0221c485c7475f0677b93cc700599758f08d29b69f6025d03f9,
  0x2f26e049789b27d487b6c824706a991f05ddc198afec482767bfa5924a2b3e44,
  0x48ec0f0cb81865efcfa900f5f2ad35fca59c2daeace7d5f1703dd41ddcf9ad3b,
  0x25dc8c314f29b51a87b3a5472371fedb4300277b4d22d2bc85b1410508cce4d5,
  0x402ffa815cd938de007f24357fd89f88c2696e4528af4deeb06f652aa33bfdef,
  0x545e620ac90048562244135eb9a930895897ad430eeee112c4cd0878317269d6,
  0x6d1b43ef8419efe5ae16493689ce6da77d889164d37c3e059c8dc4d3cc59a28f,
  0x7148a5bb6785d27681da3ecd696b423e896e9878d8118b082fe6523d5605f2bf,
  0x11eda3fb076d3b16625cfecb67f440b0f88dd3f905a484aa7258e1b09dfbc19b,
  0x27885fd9ee1f1b50daa0df8db7becedc65f51ea25b2b3342f5363bc31bc7362c]

def cD199 : List Nat := [
  0x549ced75e99ff691a0ead18b5abfb2c7b6d6f6d6fb09ceb1d0e8e6030755e54f,
  0x6cbac1ae98e125d199478a63e1b47e830c4e2d727b4797c5df89884942539e6,
  0x69dc2c016d636bd4156622a66eeaa57eb068dfafa5de1cdfe094d082b4fcde1d,
  0x3d04055233cd1c78a8ecb86ccea3be2b346442d3c19fa58195028a588bc1d5a5,
  0x35e825ab12f49587e14951928ae75fd4b008f1fa3df66637a181cd8d119247c2,
  0x43f18d8eb0573595e1873dbfe64adb23d52eb75529c5672b0a84f2f78bc7a533,
  0x2db80374f0346c449053ced7e229414bac6f19dd878ae8d558402f26ee9bc34d,
  0x5bf564e8a9855ea1dc4e84ca07251de2409a7029e7ea910f31e2687109ef3829,
  0x27afea592e9a3443a0e028ed98a4e8bca4ae08a768fa82dd88e1469c5b9ce521,
  0x4e8179b76acc39a1c536ca34f0f55364537921126f490cb69c0337f3168e7b37,
  0x380dfa74d3b466a0d5ab452315d48c0225ece24c1db868c68bb132142a087641,
  0x27897544363a37667f54c7adfe470622f00115fa6df63afd88819dd8fd69356,
  0x5722aa289096b4ff3dcfd4c6ef42a11bb1b87ad09e3618a85ff3f7150624169b,
  0x65461f097b71f4f2262d0e7c3dbd642f5644452b494d52a81db77681e511beb4,
  0x6ecf9003d372293ae61c20565236b938bb7aede292695e38e574c80f97f06dba,
  0x6e04591f1be02d97b7cd476b5a11d175ddc8dc46db8e3a5ac4f0d14f590c0b9c]

def cD200 : List Nat := [
  0x6cbe5e074a2000422ec8990ca12f042529aa0d5ad4613a07922cbda38ca98756,
  0x6eafb455f89c0548416bbb7492af991f41efd02636707f74621c854de50667cb,
  0x1943f582b42d69e1b657e7bd74a4c25946a8013fe5d5453677adac9a2ed9b3fe,
  0x2be657e3ad314368ccbc74146ea1591ff18e069d1529138653587397fcebaa73,
  0x705b6e7e272a1d9752a03b612b181a5be0c3b11e237144724e5dffce86ccd088,
  0x3f3a86b96abcc18830fb111d1126ead57f1a2b51467c2f160b5fbe865258aba2,
  0xa09655e35a089d926e365b4c7e622147134b171f5769fea846fc74bf6850204,
  0x54fc9333465f7b89d9f2686db6ee5fc9c64ba653071febfd26aafa8a13a924ab,
  0xc9cd5c11a719b94508cf1cfb0765df0c39b450d1f5a68dff5b135efa2a1cc76,
  0xb8d424e96daa6659b4d39c7fe70ead85f434b51cba7c4d677ee6543de5ac0a1,
  0x3bca584ef2d9fea0e6a03ef804a2e02914617e1332bd850f559eca9ac9b6488e,
  0x4d4fc0f913259e840eec1f184640b1da7c60ecb4bf86237daea6c55c25ae60be,
  0x62222dd908157e3db3e80a8260ff7c73bbe91ce0c3d0788988f5efeea3eae663,
  0x5d65cd5f0c51f706ebdb446d33fa444e27afdfe77f82ba9af9e13e426e07932,
  0x3c8a7dee8e5289c34d235edd64e639a4b32a55c5842f4b0dbf8e63e636684e9e,
  0x4442e815986913961be08ff1805f132c5d5a614f7468e332901f8b97d20a7ae8]

def cD201 : List Nat := [
  0x4e1097f9593af0391f36bc2d9203443092f127a3ba25a1e24543810a6be0142f,
  0x3e13c7d9a9654c2f59ac0a6a6b9af3062c0600bd996ac37296491a6bb6a89feb,
  0x724029b615626817460f9033683e59540b53cbe44f0ad1f05e43979158a4fc9c,
  0x38f99c1415d04db8f801aae9a91aeb86b5cb4324870b5c4e2151dd2eef8d80e6,
  0x6c638cc68b251e0bb1e7ab20866f259b173f8e9cf35984e97c47474ef4b0adf8,
  0x54347a1b2f7b6639fb88a9ec85badc77ece10ed44e7978803a0c785197d3edb1,
  0x15a5887106ebb9e6632791bcd60006fb7335fec39714d6cc39adf4e319564320,
  0x2bf5ec8ba00c86837c98632d5ee2008e430b9229c8e2aca3e388edbc0059427a,
  0x551b04e49c162f40b564c3af1f3671b8cbf9965ebb52e94ddcdf2a0c4d58729f,
  0x48c687e1309920cc518a543120023f851f911c906047ce64097cd37ab893d2d2,
  0x1e5bf8133192cd1931fb949c971b24bcc7e3c71e969d72f7a73cfb6a13d848ce,
  0x634c0d1121fb86440a86002c3c936d0fb36c69994b6d428cceaed37194a90e45,
  0x2db286a27c57d84e9f73644ebf8dc02199b7339cd4352e3d3b2bdd6353ceaeb,
  0x9791a99461cf6d79396cf3605a6dbb67d1c6250f784ac2f5fc7511a3d141e9e,
  0x6ca986c37cc14b017dfd2f3fd0e39ef06ff7cec8b4be3f4884509700f225e4ee,
  0x5bdd0500b553d96535dcd1ba1b71034dc161a1deed64cd9e8b97c67f0f087430]

def cD202 : List Nat := [
  0x3f70870a1dcac1b32d6ab2be64a7f9d6949258a36d50d0071c142323b26d42d6,
  0x61ab8318181067f3ed0cdf434d3a4030b9906c0884573642c6d04dbc84487a6b,
  0x5b402c8da759bb50b075d87bc427c76eea77bcfebcba4bf3949ff8e32ae9be4b,
  0x71cad05b4a630a7d03ac2b3bc98ebf702a43cab6728aa1014fec427e86124f4e,
  0x1702a779c90248e026605c5d534d46d0cc2ed40ac51dea5f3e27a1dd74c9cf86,
  0x98a2439f69389815fe45b6ae67260875e0cea24a79401d2e3b5b05ea0a58c69,
  0x2a1162e653733fabb5aa2e3b19cac018b3b685a7ee5564121cbf77e4b30718c7,
  0x5015befab71bd5610999e6d8b680b2bd56fccdbe39006472ff0d706e86914425,
  0x23f553ba8bf13704c9c949b3e979ebd35706bc0abb07ee47552c966c354a958d,
  0x2536ea433c3a8de72479300b72b54dff4b5bf1c74f3cf1cbafec42af79b0999f,
  0x3c30e0bb670e28517225bb82eda54f4d49c8e03f139480d18e035cfce251e104,
  0x58417dc71e5f3d98de019f537002aa35896714ce8331b6330fcb0ab8b13c4b2d,
  0x6ee529188e259a309b869dd427b2536510894c6695cc85496e67f6d4a8fb6b09,
  0x42c52cc930981c9b217575cde6e68c2724b60676803d8cb7df972b3f16f06b7b,
  0x16f607d5417cf58540036a21669020cf84d82f266a3baffe1018ddd443a438a,
  0x1400ee6b6de50da985f2ea74707c179ef057ba8ade20d6c7cb801125da980e38]

def cD203 : List Nat := [
  0x337db6067fb83662d9a3fbbe5543a45136a777a32b558350181c7891ec69b92,
  0x213f38f5e5595a009f8fac483960b40bdfc1452fd8aee643f9a5c41dae15fd8a,
  0x6645c4056b29a703948049952de284b67e0a9bdfda497382c19242b5e8f96c1c,
  0x3ed754f31747445b081fea21f34e1943417e4e2ec35758e975ab9bbb7bf404ef,
  0xaeb9e0e04c033d241f10628b2e3ee052bfbb91adbc0876c6924d827a41fc929,
  0x4440d531dac1cd30d10f8388395767b8b6cdcc3b417a47e9e33426e7bca2d320,
  0x881ed74cd0ac789408d4f2ebcbade6dedc2c249c72db5e6992300c67630e49c,
  0x34ace4fbd83f03fd887c487ea6c6ce0d0207fb5ce55f615d7d94cf05094c4eb7,
  0x46568d2402657c3625e77587136feabdbe5de7add611029bad8cb1bc728ccd98,
  0x7196c1d160ed2c2889857de6334315d167150dc0cbb031783c313d450ab5523f,
  0x6aef270efb31475c452417530611d43c612a3d04086f269d41efbec1b6ba0b92,
  0x71999d89207a237606ae6c16cfc56aeb093dce0af12ca259e61e7aa66ced6028,
  0x25ec91da0401f9ddd58ed25c26b3adeea4d0d7917634370b7dcc305e77697496,
  0x353bd5b67378cc8f732385c584e4d93f79dbc1e5d2faf0c2a46283a44f1ac43a,
  0x6f0f1738966d9ce9311d7691b62911f1563c686dacb8cc864b533cc26eaf57,
  0x37730b097662198dfa5300e51b2c0874ae419114c6a99cec7db61f2fe3bc3a48]

def cD204 : List Nat := [
  0x513fec608b90dad0a9fe6a8825dceb3440fd65c204d9600b8554d773958daacc,
  0x62261ccc9c59c74fe6319b7fe6a5ae0902789b3f858306b2b119be09a3ef0cde,
  0x6e739304113b119be6d8ba32d608b995c286d9f1499f5ac36e21c99ba887b6fd,
  0x61c683af6f4a8e16ba61cab126877ffcead4fd9143d0c8a70503b071667995bf,
  0x4afb51bb8be1c88bad87c14a30ae9b8cbf905fc6f5216b25e42e3edaa680edcd,
  0x10c916d64401e9bc23484fb7842bcda013da98bf4ea897fdade1937c52bb62eb,
  0x1abe00e7ee62cfb410b1484667f7be025a76e41d43dbdc76fdb7d15fa54cc1,
  0x3dee7f0aea3a74ba8224d009f821348503a53503bbd9b548fe6f6022d656807f,
  0x42cb031384f1d882ee1bb43f818370702189efbde3e8c540dd4b6d5528fdf03d,
  0x65a437096d75f593020c48b8c8f35ef87824f57b715c0a9c3f40a0bbbc5781dd,
  0x2631ceb233a35228991b00a90fb2c642056b5a132b0806f830c7e20a53e3617a,
  0x490fb907dffed3063f1bdf6f0f8ccc872b77fff498b017109f10162a5787635a,
  0x2cd7d4f4df60db84f266cea6d20d2eee7f2693f470f270a0f2ebe35f3b83044e,
  0x3846693328d1bca8ba0b42430bcd8551b89d9d3589829f074feaf03d6d957260,
  0x33e4a32e8b9346a02c69963aeb2418c9883e9b14c40cc35f581ae44428c00e19,
  0x489b2f202b43e404c1ce28b0ffb99ec7bcf51154faea8a23a0d6ace80ddb8ce1]

def cD205 : List Nat := [
  0x2a3a53aa787f50465c33541590eafc2dc8974062a4307a861c941005e130bfa4,
  0x5576db54a9609e8fe05af4caae3d3ee10c5892804613dff8868903e3abc8dd6f,
  0x6cc2ee9e035b09ecf14f0abcb01733b545dfa6e8c7c71a1fa5145bf89acaaff,
  0x1acf2eadf7eb85acbe9f8b9e021e4b08e34055717988f68da85e7b848ee5dfa6,
  0x2a44302fd120ee9172a73d8d3ce847780b72c398d2ccd66b363b63c83ac75fa5,
  0x6da684cf1f7efe1688a2da86f5b51a722775dc71bb602656d6ec82ee89f0bb48,
  0x58940f62bc1a580c8d51a8fa8416b9a1e7bed85fd02d09d96a42851671649449,
  0x4ef8904383168b7895102ec3202b91cd66f54c12a0b900347125182510597071,
  0x32ea687cb6145d8b9a7fd3043f9389e0a39680a744c96c6d88792b596ef4f35e,
  0x7c83eb9a99bbb00e6cc616d3cd6424403b323e8e18bc6f5ecf777324e195b26,
  0x4692b62506f16b598850fbe5c736b2becf35671162de0bcfaaacf2253f2aeb4d,
  0x1539d4ba9d3465c9b15ec2e0a4fa6e099758d8fbc16432772b50f42d60932235,
  0x5e172cfd5074bdd966ffb7fed47b39137b6bcecf0ea6508191db13772e6c1af8,
  0x1393e28be90d0f571bf0cfc225dc15cff3b95da24da391b39f56dee32293e34c,
  0x23b221034008eecd501c0a0dc8c3cf8aafc4c99253bacfda7e237b058b2cc9e4,
  0xc4d21aae8334ce1014f4454046675758b8c99c115f779218027e446cd360849]

def cD206 : List Nat := [
  0x5f44a95eb53a0b0f69bae9852c4cea03b296a7b8581efa02279cd40a55ba43ea,
  0x39bdfbf601bfcf4d922d220ccc2bc5be2d83f2c35450367188cfc69e202c0032,
  0x72922858f4f113acfe8975dc711a4330c0f10f2db942491d818fd17e0d03bbe8,
  0xe25ae8e6bd3fa836f787a6dbd069f5bcf1775ebb7def1cdcb25b8080e190c76,
  0x4b2f0c47f550051df58afa3ba3d54d4a580d66f4369512ee3346ba8ce79d70ad,
  0x6317b9a5cb7e5e885fad854aa348a7488d852e61c4987177936c36d387a8e459,
  0x54ecb44bfc2c0fc9d1dff11c89be39d886b68ad56a1e11beb2f83130d77361d1,
  0x341b35a5d78714b6d76c3f05048519f447e2ee31b4a343d8e611d81d3e88615a,
  0x6d564082bd653431e88b8cb9297b764a4b4de0c8eb90d03e4052c89051834add,
  0x3222f73374a5c1706378f79441aa02a2310fd20ce8aaf758f198975b261214e0,
  0x3914675c2ef24b6020ea6308de1ce4d7d7f672c1774fa3fe119bfddba9fbf126,
  0x2b058a9fe1a2f55a9ad92689f7fe1e77b841fdd7170bb2e71930aae534ecf13f,
  0x665aaac8be2855229b6344876ab41822a209f04271b944c71894ffa20d3c70fb,
  0x53f7650791c22b80f9c152a50d9bd16fabeb600716dc1393e2f01e171906066f,
  0x2969d771d3f1f1cc98da785d317e4c0ca9a4f885b7408938c4a7973f752ec7f4,
  0x6cb380d374fecf069bc2641efbed743ee4ff925ea5cf00a55b883aad9939f7b]

def cD207 : List Nat := [
  0x42d02f26963223e07fd20c7c085d8ff9a335a1f09384c8deebe0d74c0271ff6c,
  0x5da10e98423ed06ddbbc663dad4a31afc4baa7ba043d9a7a624945aa71c3d7d6,
  0x25dbb6cb1c00415f76cd488d908ebd6665206d20e1bbcb533d4a0e8c56da25a6,
  0x4c0929282129d53dd88375f80d73f2396d11d83725fb8c6ddd6ed01ca2f1a184,
  0x19a2b87a313dad04318231b16aaeca1fdebacf08b7204fc47b228416f993d2fb,
  0x5f023f9199f9f3a155708e210973f05b372c5ced4735397dd60c1d9f7195ef13,
  0x56aea89fe4fa7f461dfd6359661113b10946d59bcfede34ec414ea7f95eafc63,
  0x5ef3efe2a5b2841f4d90266c8f10b118888078b0875920cd12ea203754a9ab81,
  0x52b40ae31806ab19df130fb56ca770306765068a36b05e86de65ead60699be92,
  0x5a2ee8c6b9efb3f5e5d717fece8fcbee77e8f4689e0ff258d3832ec84c5f44d8,
  0x108720acdc1f81491171b9eb55e303a719b9be749b7165dc34c2b1e0b394a8b9,
  0x31194453156f23843c69a3d4e4aad0635ae26da51b8cfa58f9c4a49921207263,
  0x1194190ac45eb0110cf0c1c693a779b9d76b77bf01717ddf10e7bb04fda39f64,
  0x7244237564e812ff8d9b8e44e94d2a59a91535edca3a440d6a9c17d4f1a40f1d,
  0x4aef782c79865df389a50ed743ef5c5465d05e4092e41f84c88e71785e6f82ac,
  0x3418f612acdf0961e5dc3a1fee762d5b201498f34119f5195817271b3f303b14]

def cD208 : List Nat := [
  0x40ed7098c8be6398e462be414963aba2a2351ccbdac16c107223424b7093181f,
  0x5855f5c87c4120376f3bbbdfa8358230d544d1199f578326815b30fc0722b638,
  0x2f088fcc8a9b6c32d320c89ef375e5420bdf08a5c3a81de7a80555efcd361613,
  0x28a86e55e06e42c6263ddaf9bca86be103656afb6e948a6bed8632a0a9af9fe6,
  0x4511e414680eb3f9b6a14f80e0c60bbe4cf93ec12c2ca7d1418558d49a23b3e4,
  0x46dbbe2e545be0e36e54cb96cfec38c1ffdf84010b1b713fc4e2b94af3e027b1,
  0xd5f8c0f7317cca1fe54015e00131bc2c35bb7a3c3ac3dc5bc5e2691ce5aabfa,
  0x6cf4c762c91bd17dcada2033e81c421d8e024eaaf15575b63794ce3e97d5dfea,
  0x1edbee54261a9e93dd6ec2ea10c13160b5f799f8e0ff759c97dad289da63778b,
  0x40f320103b8472fc7852474fa67f956756c45020b656bd9ed00653acc801308f,
  0x53a3f2a2252b34a5e30201467dda260e047183a3c3936bf7f7af5ad553dbc970,
  0x2b84ebb2d4d423f633fc7f7476b9ee4ac84f999f01cac5fa46a849859e1cd8f,
  0x2728401dd6d6aeeda53cdf0ee1fb9b18bef48064b9ff23358fea5def33345a0b,
  0x41e517c535daadeb842c4b2da8ab8a0853a5f4310330431a3e9e24a9cadb4561,
  0x36a407cb1cdbb235c974f4c2f291c75adbdd1f6e441b8aab94a954e677c15557,
  0x42f6df9ee69dbdfb49f0bf9111a6e690b0baccc497a86723282a3ea0c5726253]

def cD209 : List Nat := [
  0x4722004c474660336c4459d5c94f15e18fa11e6bd58cc07480c12a972f7f038e,
  0x45ff52387be06c70d622f67c54d081fd97a74aa9c1d48191c2e2196b06573736,
  0x6174736221fb11a71036ebea042cd5937c724120e4a9f14366be75123ba75055,
  0x62a5045831cc18761dca2f5e8e6d2b1c6f1330014853a87fd9a7da5585374fcb,
  0x658b46af5273841ab2eb57d64b4d4a58100cb02cccd23f1e30ffcfb6abe61a72,
  0x389185273194b4f9c65c3992d44e8df242e8179973897dfbcec292588f216e1b,
  0x3a06f1211ef0ad1d336e94cc98c50f9394c1289ca1fc3dc4e0fb6b189d7eda4d,
  0x2ce8be98bbeaf751ea3046c791add9bf38c0b0fec824c5322a68c81be6e1b7d7,
  0x474a6a5bf2602c3ebf8b098e3e7296b70a91fec8f1d7d63a12a40a5a92684d6e,
  0x6f3b2d4659c629974e18383ba851de6a5b88ea67a54ff5c77df8e6fd9ce3fca9,
  0x5c0ae1ac739599832cba14d911e1d5f3b885060a16fca9353d7b5e257c5c5b04,
  0x6cbb38194527794a0679bfcc865dc735c9691983910776e9b88a695380aa8adc,
  0x373724d7776c2a6b7394157e01c80163107b0f8fd508ef0b113e48ebf0a9b6bd,
  0x55dae71e67683943e302f988a5da5a2ed65278b0da800f86fbc545242208949f,
  0x167c181e8c335efea44a215ec1d739ccddd55dbd1186935d4f7e16ecea41c734,
  0xb2739e9e5662d8213b19eeab0ba1c19bd256860cf2437d236493fe369e046e5]

def cD210 : List Nat := [
  0x24b34e596b38cfd4dd3e74a8e4d1735ce49ba398e47ed9dc19060596d53acdc8,
  0xd7e29ebd84cee2024556229f5f7e0a1d8939aa6ef4cf97695d83b891f2c946f,
  0x5eea213a20005bb05878dd6f357e9175e96d833edb7d7211d7d06df1a53e97f0,
  0x5f3ea9a6d2eb7e074666b5f86785600579a1659c5c735a33e86153d481fb1592,
  0x6efa9541a87f0250d20523113672f0c049edee4688d079efb579a1466e315d9e,
  0x7006ca88deabcffa67fc7d4e9457d61aeed82a5dfccb9c5bca4d18a46d0392aa,
  0x140dd9b3c6fcb49c9ef2f1ce763ac43892f3c5c9ae71109bc825a458f54d534e,
  0x670bc291c7bc7d79a0552e0e1b3f9e33972dab6ff83c17fcdb07e45ccb611fad,
  0x63ee715dc3db7d05705f59074d456a37bb99d6a85ffb355ea6f699ce87c3f0fc,
  0x7c0b9adc7e5c770c5326b815595bc52f2ff73c6420c9197bdbe545cf4f53847,
  0x4b7726355cf0eb7f45c7eac8019484d9d53fd22b13850c1e7b8359522009ebb7,
  0x4ca71312db58d9ca0794cb99a4e44572eec6c9619b391daf84dc39773a3985bb,
  0x169ab513b0b6dcfd601aec0e1e740dc0fbcbd8989218d3d795a7598bedf64935,
  0x473cb3ea7a7c48ea57598e792a9356df9bcddc8e622f2437743ff08e61f1f617,
  0x52d82acccf69d7767173bea22db2a1a711a0f19246c8a57dc0ef934bbb01ca07,
  0x552cd5ce5871fe4976b16fb2aa2aec82ca6d09f1a3a43538a5a7d4b74945d710]

def cD211 : List Nat := [
  0x326c6f7c9af8ea655a16cdb894f4ffc69951b8e163d29d65a2fd9a12c476c2a6,
  0x4b3701a49dca985c4f5badc8ab74a40404b292412a8f2f468fa7525366efd3b,
  0x6b29b19f609fc1138fb17405f39dc7cc8c8b2e8a341654ad403b99f17d869626,
  0x340f42b2115a8c3bfdd07136b7d94ceb5f60d0ef9a8efa78c401fd48034e052f,
  0x577dbedc2c75ef995e9a01173796ed43def228d5abc43963694ae0ffed51a37c,
  0x73c9edabbe22640e6788be9270af02457cbb97c32e18da3ac7c720713101a052,
  0x548a3cf66bf6f59ddeb4ca48756baef3911a60724f2207f1abdf5d3122df7c7,
  0x6ee8a7c4fff9dc1c85a9126eb5cfe26f93cb7859ed6a14e2c3e2b3975568490,
  0x672c2ffb940771120a6fa91b766a6338652853033379cdf6db11eec1dcf2591b,
  0x1bb323a77bc4742d4b3bb49b27d1c7c42b10d152d6a2dc981b4ccf8627aefd95,
  0xd16b94ae8f35bbd70b6f03a825dfd117e5dca87a6e28878721ba612c76eb88e,
  0x1cd0b6fe62c49fdff68d33f8234f5d046ea1fb41ed2bc6c06d615829767ac53,
  0x41cc8f0c1995fd14e15fbdbabcba0d9937727bca293a7d9de8d7b322837e3525,
  0xec2e1637b9a07f72629ecc83c8dbafeeae0700bf4bde8c9f18adb28b4568df8,
  0xfe59c655d467757224a8e321e3031a2da780251187bbf0eded64fd2405e5774,
  0x4924c15c50396839ceccf3cc68ab11e103f906640148ed5e47f8cb2cf7b3923c]

def cD212 : List Nat := [
  0x137761564be12f6c9593e5e48566420a55c70e3f50b8179dc07b2c7d6bd989a2,
  0x332513925bad473109e17186f5e5f50878f3b7dc8b3dbe7e0fe71ab616adcd3d,
  0x3fad82aec7260356804a78e4a3e8aa894a34503a018b97418515ba16e8f33465,
  0x5131105627e98d26a0ebd39b6b03b79b42f2f0511d475133a3d6367696f5a50a,
  0x31833703d65d0ed0fb3d29958fa8ea092a6eee92a23be63e602b89feb5ff3f55,
  0x533c2d3e19e4a5cc417d9eb840b2989c56bdbb2dc89b8714161bbb204e91d274,
  0x60dd07887387797bd9ff4b05192a4876f824461962053945111ae00dd8694396,
  0x5814d83b15469d4fceb4557c6114b5cdbfc69a1edfe810e5a23772707306e749,
  0x41deb150e971e1d5ea8d3f0c15093bb2e8c908798caa4d053ea59f3d40c558e4,
  0x6350d4d58fc1f534682fdc15c67121a846c8b870195c86cea3d3e7d872e33661,
  0x3e6861bbe02ae5f32ea078be368a072629745798eebcca6bbf55e0133b960c3d,
  0x3dba8b15a16d0cad0dbeef46c1f1d05e9a1689a411621baa01af96b957e194de,
  0x1257ab96f9a712632d55ec47cbc7d107544b85439e729419dfab0df9b17b31e1,
  0x47273cb80b2540e0c80b5530d0dd2636f920bde21d0893f486b958dc64a71ca1,
  0x21c07867d4f2a6b13617d63ebc2a1a3f9122116fc6f6ec119d80aa41301b6f4e,
  0x41f35f6593b88fb44dce940c0ffef72a078b00a6d273f01ec74a8d7936c058b7]

def cD213 : List Nat := [
  0x1247e16692563fbd6ef7a43673974165d73cb25655d09d4ce7e6d4017eabe3b5,
  0x4001df9677adcb97fa6867ed756811c90a673ad0299bd7ac8e24b1464fa2f202,
  0x33ad8f1682edee26bd81bbe3616b24468236171743f96f9cdd35896a33aa627f,
  0x53b51c8437ff64f584011a3d66e95c12c2a062b28774a1e6f9c7b35e7debfc9b,
  0x5d855cbc1f234b936862d9c78dba77027c6f6c8f576783688289a15bc0d54f80,
  0x6d22dcebe5b561fe19563aeede7a3862948142b2ffa08ce41423f0cd6f861327,
  0x1c926f0d815c40b13b11a2814a3d931e3415fe4de66e6a7bded1d9d1965e533d,
  0x67f2d27bcd11dd8603606de2325b549af09fb95dd46eb6fe6d8cf2c2b8c0b96e,
  0x692e184ffa1f7b97e9cae389e3166086b674f536252ca0a9e3b2d45693395c84,
  0x3b0f61798cf8ace3f1346a4c7ff13352e9abc2b22fc8e3fa7da309e05be61574,
  0x6712dff3b2fef863efa5afc48b0146ef0f098d38bf33ba75806ad3cd84f1e6d8,
  0x56d23d1e97ac2df12e8824d57339cf9d2ac00891b3adcab22e9a851656931fa7,
  0x1718939eb89c67ebb17bfa5d18e91b92f9c04daa85199311fd2666f4e08c68bb,
  0x3b618d324fa81146682159846e33a761249afb6f22421d29e4ad2821982836f2,
  0x213a2fae85270aad1fb205f491f4fa16e0a5ae3d2a69dc79339f13d1d962ba47,
  0x4d5ca8b16c37176f1b3eda3eacbd30318bf24466bfa7bf22a2b7b4f3d1a602d4]

def cD214 : List Nat := [
  0x31f4768f572aca93540438069ed8d59a8cfc3c06d177cd189eb30c6e68f61910,
  0x3f18697b6f602c328f18ae2de26fd0deec4889c83599867f899b8dd9087e7f20,
  0x73ace30ee4765a0bdc62f3315aa86abc0ab717fd630f276b0dd941c843ae83f,
  0xb9612da2b3e66cf2d700f29269b36d5c67d8f6f7c6b3d3accda8f31eac8daf2,
  0xf940cb9b865335539087eefd493d5dd59b68a1cfc7b53d8ec7641962b6e8b1d,
  0x617cb500ab3fe3d1b72af1e9a024cec52c2b97ad5195734284801c58aa5b4e72,
  0x74131c8e225241286caf6e73166dda966731d60921aa9099d08e0098b0fb077,
  0xfd5bf9876db657dfcd885f7388dbf6ff2fb7c963e3bb2a2a8ba852046bba6ea,
  0x3d29c0383434b0b01bd976e3eaf885f524860acc3677b331637329e02f17f18b,
  0x5a9195e0df499c18a5f6dab1a849c432eb10924809aeccf39cb81e750b7e3a52,
  0x667b47458f60e550ac1d19d4748cb1988ca4d095f33fdd6b365a014333d5aafd,
  0x174c340fddf332cc58941a87956d14d81ac8e6d1a8d66ac0cb993d5ed782d185,
  0x26323fb2a681d1248f456b79246607ada0e320872861a692a4736ee0c3baad0d,
  0x86c2bb85e828222d8dc5299540680ec383d3e76ae7ebf0115df90be2e0c887a,
  0x536264cc3f441e096cd7fe8d6beee674542a3e9669e452338a6dcb8a8f44f58d,
  0x10e788fdc9dff62b659632d474ec59d64eb041f3251ec6b2503133755d118ea0]

def cD215 : List Nat := [
  0x2a4ffa368c6b2e381f3bb98a846f6fc3c4f5982dc704996cbd58b68644383389,
  0x27552a938e1447c50a7808fbf93f22a95a38566d76929d09efa29a86c8b7f4e,
  0x21f79278de3c793e63c2d2ecc9b79e4568660c5219aacdd0850764828b45535b,
  0x73684479d156c99fa24f2bced611b8eb802c94f65b95a38ad76ae4fc944e1bad,
  0x40fc4542d81c0d95a0af6427dae3c3d2ee2f5ca61e2a428f729e736de5dee88a,
  0x6552ca0ae3831e8961b17e71df67f268209e9cf9eb325a24f8fda90836740293,
  0x120f06ce398c3d204433c9a5f9628f35917b2cc25eead077d3b5e6269b5c26cd,
  0x4777fed4ac7beadaa2a1a33def5d476fc0246e8077d7152bf26ea4bf65d60919,
  0x5e54a5cdabce5e8e61a0ecca1d9b5121de471b64b5ebcf4a4d6b02e54b5080ae,
  0xc65efc5045d2f10b2daadd8bd61143ac770cfb16c011a4e566031c878295bc1,
  0x3d022a821ded5a3408ea4136970eafb8f19980bb34bd6c36cefc629060188c4e,
  0x6eed23a11c48a914a1a71a09e4f49838837056ba335320a7b00fcd9b83f2576a,
  0x5bd1ead4be4f65a1a0aed6dd71110cbb423d888a59cc6954f3396583ace09c1d,
  0x3fc765d0bfc5639731e6da7f36d234011bebd19ebc1398cd5717d7cf74a9a751,
  0x13aa408ffc83115e7a350a3ef1fe3c8e416b5d00970942a75cc6704895f2567e,
  0x596e2f235c23ccf53b5bd5c08728f7b9b5f0df94afd15c76efd806b7b929454d]

def cD216 : List Nat := [
  0x37dc1fd245607cf45ee8484f5ae827f6233bac9010d016730cd087a39793b26a,
  0x26304f795f4eac9d99726b84966a90f63518bcd00fb0305fe3ddc205fea5e94b,
  0x53275f3b9a8d492e3067d2888469f5ca2b547c36dbfaddd26b9b379d97d16b8c,
  0x602ccc0f1cf775642e713f9a6983848a5dd56121babb95ad23a02e5e28897635,
  0x5914e7df8c27ca30d4f9a35836ce3022853c0eb2ee03ac0c6bd69e0458e15414,
  0x3911fdc848d491eaff8df071bb0ec0873c31033e5dce3f10d05cce03a374e532,
  0x36069c3b4043e06343c669ee588717bf87253e93a5e4979394494e0e02bff50f,
  0x28bd6c042063719b814c35e53660e3f2ae0ce7d364878cc7a248c08f846957b6,
  0x32f5bf2b75443b4a3aeef6c32a8cda89127b923c108fc94283950c13bd31c2c7,
  0x6731ad691c9a36116400699e80d17d910d72683cae388f0b7a057cc4ccbbb32b,
  0x42d21453bc79370e63415c598537b0a91be9daa79f9fac2de45d8a797e399293,
  0x473195b727e8009b9e0da4a6fa80d429fba950d19082778af3db570e02d6711f,
  0x42056c7cd2333b5dc865dee43841e04963ae1f42c98a8e49a26aab2ee5829e04,
  0x24450eceedb227db4c136ec5067611b2ebd2d47e69c9443b48f63e46e80b877e,
  0x1211a7124468e1f48fa435050e729440e326a02c8e75b41965bfbadf456c9f3f,
  0x4dfbe248bfef7b51fb2b4c8ab27591b2179f01df6eaf9a5653140a4e40f1a512]

def cD217 : List Nat := [
  0x214db3a0c50828c93705c50cf1af750619ab6e621f5160b8da6768c3c6a7d12e,
  0x351432b51b9230754678bb9cb7432d1b9dbcffae7a28a5439fd6d8ccd02a37c5,
  0xe9f3427c9ef3cc9575ce148c6e196cb94cfd208f910e85aff4e99e573fc0b5f,
  0x591a31cc45310f3f31c0ac596ecd4fb41941597c5e3d719f5bda74767c2102a6,
  0x64d2cf2b74d67caff65ba01c7830e7f092008c9cbadd43a9f32df150a62ba3fc,
  0x6e66335ed27386e858e5b4d3235c6c8b88bdb190544ed9c0573a2349a32549e8,
  0x6a7228e4db160702a09d56814153f836f3ad69bb2f52e17d91249003e8bcac6b,
  0x59c0aa16b1816132fd2ee59a59aa2d12c2b38ac3b7b6d47bf24de59d1285423f,
  0x312d1279a4281bf0a66c4fc51960f611238ae8ec55cd7a2363642877924eaa4a,
  0x2be5edc224f7f2008d66909b28ed003fcd5500eb5e8b2fdcf6588d66f1ddf7ab,
  0x47fdac1b3f807ea20fdaffca50935b577325036a841dbb523eef929274b7ee26,
  0x4644cb0ec9611f9004c78583fdc2ad47513680f230a99977f36ba538ab4927a1,
  0x49cb6514a49b08dc4dd7419b3ff7c99cf7fe09a50302e9950cbc256669f40d01,
  0x63e34938890e962115f0659535b9a1006854bfb93c5c2b8a88ddd78a8926994,
  0x5e9326a160834dbb0af49f4e68d3a48f12f44152cd57f0c9531317bb0757c7d9,
  0x1808e3611985a147a263e68d1c2d3bb7d8266c40fc4a87445d1c2c043e0111c3]

def cD218 : List Nat := [
  0x18c2849b7239ac4b17ece9a6b1a655935cf068aa5774cf02abad35238d7d9b15,
  0x36484ff5034042a340cb90530f64c052d351bffa544b067bd20819b4e12a123a,
  0x1fd1c0c372dc1667c0a49e59b838e3de7639248c3c51094e0393abb514199fe2,
  0x469faa8db18aed111dfe39834cf2d7d03aedb36fe21cb3af3d9dac0df77971a5,
  0x6c097f8c73f00a50b4c7673b32d4b6fb5edfa4a59d566c958a26e278c854139e,
  0x4929753a6e209f546023bf5178a38d4d39e0fac67e73ac7d7e9817df07cb22a2,
  0x219766444535a2e6918ab5b6bb7a40e1166dd5112172feae34f65ee327af3375,
  0x6f52f99a16c0e9cd62d52a0ed668a021daacf7133b5e64a2b1ec32b054768e0e,
  0x6fcd1cd5041722c95a9a4c7ad795cd8619ad5b6c71700e7c36ae9254b4c4f58d,
  0x208b284d9790aa5ebbe647f219df9bbf7bf380d3eb9d1d2f26a53e79adec204a,
  0xd93acc58e779c4f75db1d9191fc7d65b616dc6de31e24cf47488d780c2bf4f0,
  0x194de8de7e58e4c4f733e35294074df33517bedcc848fe26829983cab8c9f753,
  0x426485733e6c34e89b0a80aa386fdd8f56e92f1df00eea3dfcda770ea6f213e4,
  0x9512d97ba81a379479f7c13d2e1155f4e837ae9509edbaf158565b6c60ab6d1,
  0x2c6833a15de108742fab4f3d0ffbcd03cb8c3725706a3cd45d64639a1b4576e5,
  0x6119c2062a445e15e7ab11e1d9577fa268ef1de0d94c9367baeebac39f86bf54]

def cD219 : List Nat := [
  0x3f9356800c153c9efedca2588c464a48c3dd1432d9b2bd8845a02534d71479a2,
  0x37e46cfe839cf30b005b269288d9f4972e507024b38560cf8adce4954a9e4f9b,
  0x2c19ee933c2b784e92f97558dea85cbe439483e09a6ea3c3110440f351d4fd75,
  0x1897a322c862c51f7b2b869d76864cdb46b44bca2ea951e4f82c03e3f2c7df28,
  0x7b9a14ee799ee6d2a24de115b7d420f16fef1832370fd4b4a0af089f96c91e4,
  0x3d5181e565572226c3f7a8c20e91fa09526781225f25c85f60c8a3fa71e02ee6,
  0x5a4a536246905e160112b56de2da746890e0373fe735829a7cef269b4aa9f371,
  0x1704c1d908273f3cecf475ffa74ec4cf416c16a36eb7204047eadc63458bc842,
  0x115a13ca868d93574e791559c18065ae55b04f886a648632cfaf378bad9c045f,
  0x23725f2e57fd562b175ed3dbd30f414549bd07e5d4baa7b976f6ebd516448cd3,
  0x4ca23d8daeff5118cc6dcfa8f54e490326193080589d6c400e14d69d7aedb6eb,
  0x8a386276386cc49bcc174c68eaeb03ee48de9b24e320e18a4c93f6e6080dfaa,
  0x12373e95047a2800308b089c1038bccd1fb7fd24d5c8ea8fb0d75351595db55a,
  0x734d9045af7638490fce1c3b7e9921c0f4f3c7322b9163761c5425a003ac4a84,
  0x4c82b28c37fc2bb69f2f4ce5760181bd1ecf90adb890aa810a12b441573a9b9,
  0x6a7def1be64730ab4531bd8b5afdf5b0ea6fe479b18982690f5081b04e041489]

def cD220 : List Nat := [
  0x5b04898aedb70c5b4232a3c2ca2a8fa9882ef36956c477584ef131aeadebb267,
  0x2bb282f38dd30b9b41f25d99f4801b10dd7654ae4a6e6c1fa988c14d69f6e47f,
  0x61a95f1cae90b4ad84ecb8419959ee77188d34f74daa75e960aa8c2ad3cc5399,
  0xe998a3279a361117d952b8c9a42d2c19dc48f9afb8b56710cc2f9bd95a90ee8,
  0x68f04a8acb74ada73494dc4d046bb4f11b6c1df2133ae2233fdeda6de644dca9,
  0x118ff3bf9605b07f1e2a34ba71a15234a8f1ce032d958e31d1fbb54f95fd4c72,
  0x1e3af477b2b9c02adee2f932ce09de642391ce605f2f79ab610fe3bda45ac4a8,
  0x60cebe04a0a3a02a6ac04bb95994955b4b969251cb253046307035de369f7758,
  0x1587d0965505f51ee405b62d1e9e22bf2a55cdebd27ac96d3a83c68e4fc26c69,
  0x5b635e1dc851369eb4272298dc3108fb9a109b09ae9526ac4630c2a70bf909c8,
  0x98aacb16e82a6fa3387c02e0dc59dbf26663297e32fadfe8a982f9f8b4c2c49,
  0x4b4f50766b55754fc84e2b8cfc56e3ad81e42feef51703af71570ec0d9db7e6e,
  0x475f66df536b83a11f52fc576b08ca0bbd81d852e0f95c040554d38dc01e334d,
  0x1f3dde2e1d8b0a3059d90256e3b3b152501f825bfadfa54d4556e8007f641be0,
  0x51e6bae8a7eee8ad892519bf5573ffe6b4f52a45a00c7d4cdda5d896d5b5880e,
  0xd1ea885b3fdd0e4b027fc74221339e98c724f1981be8d8dc1fc3675bd18c26b]

def cD221 : List Nat := [
  0x3c2d28a6da5986933ef71df12251899be9feb3bd46401a3aa0a95b6e21ac6cd6,
  0x78ca933d478a9ed4315ced22a19bc58bf114e05b70e017425ad160ee942f6d2,
  0x3c6c1f7caf49f7125fd659a6558bf98beb6ba01469abc91ee9f0325bd5a53e5e,
  0xb59ee47f98e7ccf4c78ba9fd77968bba233b66e371b27ca31d2b49432edcd3,
  0x48a0d69badc067c068de63ff1d11229fdaeb1b56c3c4c6afa2db4ab6b281498d,
  0x6db522cf7470ceaf8d42f193ea45f4dad3204e2ebfc21c3315bc8b94078cdb09,
  0x541516d16b0f47fa57ed1cb6178aa5645cea2aabbca013b5b141235a1d752c9a,
  0x4e8975e8026c86282157058e7ae2e345690ed9c35ba5fa7ee16ec0aebaf803c8,
  0x6ffeb0ed515d356afd504564a6ba21e5df8736c94760d66171a94c90f046e385,
  0x2aea2e62199e6deb0074341c3505b9523be877afda75420bf55a4068d9b4c75e,
  0x49de90d4ea581d872c17461efd58b33fe35d252975c866f9217630f5ab4922f6,
  0x685197d309b2c401c42843c8887666c015531ec850f9fbfd46d5b021fcec0839,
  0xa2d1fe2f2b0718fee96affbeeb5e550396de5ca2c1bf4dbf9164df3487bb347,
  0x6a14d0533fd9ec912323eca88694c75e86ea2f72995b04ef341f3e71b57e2caf,
  0x33ed3bac042d1d44ddfee5531878842a63bba8ae29836996c6fa993d879dbe33,
  0x55831096c8c04ecf694513740b8d0ea1be14d842cb13b89f22c80bff1dd46ae1]

def cD222 : List Nat := [
  0x6d8a94931adc958fab7d4988496e1e9b496fa16b19c45fe93681ebe2d356e066,
  0x54a1c57817660bcee1c9ac35030b4e8ce7bba8ed6f565faa524aa8aa720108c4,
  0x51ab69d3f226c2dffca8376c1af8c68115489cb3b67a91247d42caabe7056738,
  0x495a7de8a85326d3c71123c968bd02818ec32822e6f46ab7b2d574710756b934,
  0xcb98d270812723adda2bc4473a5689307645e333d24f11607d65caa4e2edd43,
  0x3667903929a0596713a0d04164d9b58eb791903b9b1e43067ffb4d4f0ed41bba,
  0x5c1fd0a3b89b70dc4770d48085ddbe77d3a2c01bbaaa6af096d0f58a373e4276,
  0x3b1220dc116fc0f9af1811137bb8b5845944dfba67032696fe9693be7cbcd9dc,
  0x31663a6acb57d9ad4f6eaa70bb5a138aa06423394e3af42af78e5219b6adc6f3,
  0x52e871b96a1dbcd2afe2214f37a0c7211204f2d2e8c1750d687765f39777c0ba,
  0x6386bc84c145f28b30ddb18df69ef4df8f856bc37b23347904f27e569f960e6,
  0x66657072203e87dc1d14b381b70b2603a0519f921dd2557413bea69faf33183b,
  0x54fad6a76e0d0819ab7f59f878545e3c0d3baa623e34326103c868ae88301532,
  0x56b252ea0bd8276e84ad2fad6e66798beceb7452eef5c8c2cb4b2332b7e84adf,
  0x67c97fbb507d66afbbcbfc588a96ce7e2a4cd4ec3292e6255378ef1992b92351,
  0x171c4b8987df6788e4a592b647649f482376dbf2cf758e3ff707e5e23ff8d5d0]

def cD223 : List Nat := [
  0x55c8cf08cbc8dc26036a889f533e334170b69cdf00c21cc4a1c7f85dfc62c1ef,
  0x5e690d16a45885eff76d8e3c4c0423d59ec2c9e6fce9c20aac0ecdcd33900ae,
  0x3d4f844d38c69623412c1d4d10c47f4b58094ecf81858b1688300ad5354a560d,
  0x1e3164133866ea668900bfc27bf5b8cbb749e2b9f07383c672252e3f63b12e8f,
  0x5dbfad9d7ab18f5a6b44389d1ed652a12ac52dd438ff6e5854c107dfc2cf36e4,
  0x486fec9b826872d29d4443b290fdc17d71913592551d54910acb3b387c8f309b,
  0x3057acd4bbfd980dd5927ef602fdf35c175a8cc067de6b4317e54c03ce95cbee,
  0x60b63c4f70341f1dfe52b79b8dd6875c27e40badf4c47804be63de717a6dbdbc,
  0x2589bb33ac1d8f8c0d8dc3c658cb8d7890256ead4ac058e9bbe3afddb90d496a,
  0x5aa7df1cc42009061e856958a69869b36dd2fa0e57f3d8b21989362e75e0168d,
  0x1e887c7ff09c0a25e1682a01db9eb5dbc46dd7ddb9f9d97bc21fdf4d379ee3c7,
  0x2598d78d24a6d159ddad4f7204f89caa618c9ac5bf42f6a580865493a20277ec,
  0x3a25faf91063e288e2c9c5bfc6a97fdfe02d6e9ba29390f66685cbf8eb62aef4,
  0x32691cbeb5acc63b04b2d8aa0ae070b80935b1cb862ee66e0d3c2c12a8071000,
  0x46bc04cda11e342a8a3d4e568b71c64e3b37319416ab38405be44cb9ce461fc7,
  0x34353b8fadcc6381d194ad8f51fecfb9e80b43814f10df4d7071175efc146129]

def cD224 : List Nat := [
  0x3344e22fb7877c856297b8f2c0ddbcb0b8f2cd4af9c2989645ad90211b8c3259,
  0x6b3858a4ee600405a61e1755a5aad88f506b4a1639c5c6a069719fc86458d276,
  0x1be71613a969280285200d7e17d2521e3570130101f8170056afd396a9e0606e,
  0x87e13c51ca5edcdf10113c1d710b5e342507b831fe48aa6caaee41ab9038e61,
  0x34b9b4f7df2e4ed14690fd7dd8fb718ad9cc0f516d56d9af4bdb4d5ae8e86a42,
  0xbebab19d00c01e20efa578697cc5663ec8febc858eacdf1f58df9995f06fc16,
  0x448ec00100c45403f4c817fe02e1ede9cfe54cee62b23033f751b3b42889eca7,
  0x40eadac1bdb61185a1408b52a777c0353f09c84da3ac139f44cb94e086010a7c,
  0x27760b904587e812e4888135cef0c466251916cb1e5bd1030f545f60623ef041,
  0x4df185b1de6d01a9cf65cce09f9fa101d70d968bb3199a29ae5df20049d31e8a,
  0xb1bd249bcb8e23cac5f38d36da8c6840c4b115c695aa22e187211855264a7dc,
  0x523c09126a44107e3357be554872b50dac36c42097a9e2daf9d7e1a96709c4b4,
  0x2d86aa6f204b6b6a29097504c7846b212c528479363e6b446cfd1e05b6744c25,
  0x51b23cf14e3d71cd1e1ef07fb8a1929d82dc77cafd9216005ea0bf9c691cf420,
  0x4b61008c2ee625fe76b81ddecb8553e9026dd44f001830c2ff4c6e042b9a4c19,
  0x112fb1bb70e4e47adc234d897f9d495a764ba8617a391bb25623ea5eee7907f6]

def cD225 : List Nat := [
  0x7bdbdc6ce6d27239c2e6f19a6fe31a31ca7b86b403311ca66512893ddc37d73,
  0x4e1fd372f7c8fcd2b656e0bc9f2ec926aed25e29c203f9c95a475dfdd67de16c,
  0x45e5913def66370ea56d3b33394b959942e6281582581024472f6451d1fd52a7,
  0x27dde3869315c7000c40065939d275f617418acd567b3b91c168c61a19e5ed21,
  0x6faa1508bbf11de73af6b03cb90e753cfae316bd7a16a1d238e39cf8c192ecfa,
  0xfa1f7fce16c6412de970dae79c21bbc96b9d46a53eae507392db41c953b1279,
  0x45d8bfd7841ebb1792ea55a293392f8c91b9c5f6e89344da149aa41d1a56c18a,
  0xf21b1ec71992f5f9327c5d39b6c387c2d8f010382a4531f18fd685dce618d97,
  0x546ac0839a6de74ee8e965258e8c15fe8862587ef7e8effc999883e4a47f7970,
  0x2c6b6d6fc4bdddea95f1a4de9b61c798fab5200a38964a074b6205f9fb44e1b1,
  0x47eeb0c6cc05bd4ceffa7db97197f1a8dea662d2a881e13cdb9b6d00f2ae3c92,
  0x3ffce3282d0f210d43a2d61bafa8acfbe2fcfb4d400af1dcc7a23c79c9ac78ed,
  0x1423d5a02cb3d9e8e89614eb092d6566fb49d60210561ead3beac54eaa582fe2,
  0x631d9a0869d51c96bd22b83b18e5c610d965ff12b0c2e9a1fd9fb3857f694a4e,
  0x6bdb85f569a705d70476d09a190d3f8c8b72c1b630b3c86622332b2b7bd7f9a0,
  0x64ebf9f9513fe7e4c6125502da56c2088ca8daf5f28c29ce5f19cace5047a9ca]

def cD226 : List Nat := [
  0x44974c36619f50359d75880e9cd2e11ce889498ba9ad74cfade94b056bc434a6,
  0x2471bf9b9a726e80819226c2bb5d14e9f289188259b0d26e6236020c5bf34630,
  0xd393d22f9006b9e71ff847d961f7cddbe6397e1b96e6e6eefd163d0f06f7427,
  0x15b80baf48eb4d0f4963fc7d5b370500b137dc38a450e320f439888e139a69b7,
  0x332ba38efad7d2929696061f58491c61f28db48aa686faaf1eda7bfc0bd34966,
  0x2c1d1837edc121a3e63f04b7d0f713cef2bdbe1693da301af96aa9ac9ae1bd06,
  0x71137ef836a96a4940bcafba7d24c2613e2b38b96a4afa7e1f02737dca49db38,
  0x6c4936576b262356c153a53af24c0fa8fd8850d71318b760d7a58e0e752b9cee,
  0x6bd8771c5577fa62eaccc0f8a1984d33ac5e4349dd7f492f581efaa4eef07f14,
  0x617151ecbef564b8d7af8dc9f07b2f95124a4c5fb4a115701c4bd46932b374d4,
  0x6d70ac7a0b40ed625a017ce08953eecf6b6b305b75653a17783f16ac53fca319,
  0x4439694bb4edd8765a7defd1fd7d05b733960520e5313c7832802413cd4d351b,
  0x5d125be2a728fa613ad67a94b140dab84f4632f9ee5b695a041270f458695ade,
  0x5106a72bedcd91c7c27ce276188c7d9265a55fde1eb3b49b77f0330c9d1fb5f1,
  0x5cf3ef5b9cab522504307eedc670720dda182c3b31511c7672f54d0956bed654,
  0x395e92e126a8ff0952ddf6d1bf9c3622ee208302071827c86a76a4b715aa93bc]

def cD227 : List Nat := [
  0x1eb1a5f18d290d5de6bd7a6a77fb2bf3ba6e285bcb756a679ae72cc6980399b3,
  0x398ad3d175822f5993c4b37877fae2ad0239cafb91ba3ae59675ee9b2bc5c794,
  0x63450341c043d70f7136a94559ba2d68ea6885b98e2970e84d235a38d626264d,
  0x4249190f139f3696fc768dd475c9666959588f8f61b1b862cdb36469b69d6ed,
  0x3992f2a46f00a272a658209dce353d703cc2646c7e103fbccabd07dd7cf60eb2,
  0x5aeeba7632f4d9728adbeca6acc482b2c29cbc809c0679c024d3c026c3b9e206,
  0x45fa6126085ac5c5d7414521725a093be648d39abb8e05fe8cc87d720444e7c8,
  0x61e4f7a4c8cc18945ae1d10b6dd7e79cf63d4fa6ba11206e9f87064f07ff9c9f,
  0x1282a6f9499aff71ab6e340f504e42e134166ad3871a31a7d6a2659ec2be50ee,
  0x11f1c4c7341db3f55fa514052dfc1ecb0965805b0273252de6d363c12ac5f3fd,
  0x1b3379ad63ad145d89ec09c756cada9fd0e557ff9cd9f7d3b832eb6d6af24a39,
  0x35b4d08ee5b78b4fdb37693dd28814df1695d283097f3c37044f1925f1347683,
  0x68582f9ff549e45a47d50acab3bc86ff4726ffac4dac12ca5725e526fa3bc69,
  0x542d68247a258c2e8739771165a435dc72c2cc719bd164ed59c011501b574df,
  0x48175c72c3bcebe4eeb058c41d2ff3a5b12ca9b22e350aca550d420750d0215b,
  0x76651b895de695e8ba7d0194cbbd0ae0f470064b88a8d6a578698bbf4da4270]

def cD228 : List Nat := [
  0x1175740e66fdd28a8e55d3971f4da647b9e43d4b3ef95b72bbb027b3f54592c9,
  0x44c5c2eb2e95a37bc69cdd327f9e64105b36d5281bb2c619d6ab66fc335c88c4,
  0x3faadb5b8519ad6b27f35a5738def84779f7a2bda0701b03b4b9d5e33eb651cc,
  0x22253bb13b2145564b95927bc96d5fa08d770962d93318d51edb22c14dd22636,
  0x607eea98a742fe0f452d1d1fbf41c1cb8df0b0277cc252074337f7c7ffeb84d5,
  0x31632c12c92ee97cdb87cc46511908387ce1ef06b49574ce3560b23d7e5a1295,
  0x350ded2631cd78c9301d25bbd04df0ef44f171b7a7fda2baa0499a175e5adbf8,
  0x61cf00fb45426bc3276d63d67fa57820c112c9ce0d78eb3789c10e26c95b341,
  0x566fc94262bfa3b0814de31be984a1ea4e0b62f758521d618ca90d6982ca8eae,
  0x165325105d418e38737870067e037dd03b6450aca90568ded7708ff7107c8141,
  0x16f982de90699dfb6d92dc6937edb65814bce2dab51f433e8edb8427636c8c83,
  0x61aef345c11350ac5bf6b749796e4b634b7e8cbb989b4e6e9d2b1752137e5782,
  0x5ff7ef751cb5f1cdfd639db6215481342b5d44492e909e3a47a54e939d3e8bba,
  0x12f68060705e713be8b454ee31f5862266638340d05c05039d1a2fa8e095c7ce,
  0x68bee1897af2138bf0d2a7c6b7c0aa6fbfe081c84e5d796cea6c1e4cdafdb5e2,
  0x3acf17865a0a4a8e807e3a83e3fb7198063ada7f0771b4d50cb4943b59e6e74b]

def cD229 : List Nat := [
  0x1e51464473020698c92c76b7948ff63a872de165df8fca9e220282541702c54d,
  0x644f02c53a4a6bfc957553357ec89f6f92e67f7605bc5a1f53cde8af1fffc604,
  0x650ccbe948fa08306cccb63f558e4c28731d185da442453555a988bcb6942f1c,
  0x573e697bcdca76733bedd07a803216de2b4c91fc8dd92573a00dfb0ae48ed192,
  0x5de527c9de7e0867631628cc77782ab661d1cd6ddce256e4c92ef80262d46b5d,
  0x2247da4a06ae0376d2146ce118537f5a4be6a54559328bb15b770a7523c92e5f,
  0x65032fb8591f096c9ba5ae4d7528a7d7afc7eeb5b50979a9c0cdf5c2deaebe13,
  0x5927eb65d7a444842cc59f4c134abe658ee1d162c3ed8a2b0abb053780bf9b69,
  0x744ffca919ddacf4cca383f1e00f173be3c9489112bf20082c3da1232125d20,
  0x6f932bcdc2ad05fecf0d80501d0b2a5008ba7bd48f8d98471c948f46e5c00b2f,
  0x47a0b5130c8140fb5c82a0ff5a209266ac679cb37e7991c90974f52d63bf3e32,
  0x29c19831db81aafe5f98418f5812817566a9a00d99554d81ded7311e62474739,
  0xb2b0d0675034ddb8b2490b1ec0b36559b140dab60e8a4d1ff18db8b281096f3,
  0x7048d97364a7deb68bde331c03db61042a533ce939e96393db10cb62b744f403,
  0x5eb0e15343e8c396913c0f6c2353634998b3bccea3fec879d893a0647e8c0ee2,
  0x4b6f4fa997b1d48656ee0459969d1f39222b73340f67ec949c26f3e3caf176e5]

def cD230 : List Nat := [
  0x48fcd71cdd91af8ba8e2c575ae36ce370192d6ee94b3be96e8f13bc172989140,
  0x4cb1072606941551f692a07c0e51ba17ac599d85606d2025dd7f97058c7b6d98,
  0xec00a8102d6bdce8e7c86e1698b24723d7b0f943f9a46b728e48be96e58628d,
  0x61786dade07f8864f781410bca35f6c66d208568e48b5bdc553b0c82452af213,
  0x5fefd8db5214df5a3a008ef6735a03c766fd1e18816f5987f9d6f97a1c157cb3,
  0x260ccfcdc2db02f5a0f89de7d1fd7c1cc953361ee628f35b9603ed8574bb3888,
  0x35f06ef8ee76c599858929370184e3d4b84c88d897f908e9959d6a35b089a502,
  0x2f292f19c2409d7bd1d71ae8c5a8a549cdd9bce2ac275ef99a576afcf2eacd92,
  0x4049c0060df0282c51bbb8dabf735dd74d529e6f0fe5f3d24ae013b1bd8a13b1,
  0x521915598098164c7b5ca10f22e47e881169a18bce3b255f9d55b5eb1d2b90a7,
  0x5de526d56a30bd123b2124eba03586ed35346cd01a8f7499d7a07d01e844cf98,
  0x242b41891cd3eb3e0cd8aa4e32d6fd341177196abbd59db147a56bdded03987f,
  0x2510d5a96ce4483186cfb8b3002cf5a7ee110488a78783a696541ec329f67286,
  0x55df93b4a4d3987a8155340e52618efd7feaf0e24d1b9197d7d08bb6db085bdb,
  0x5d97a571a9d2d2120addfc15f54541470d450b1df78ab5e90bea3688b3ba0c7c,
  0x43865532543c13f315ed117a5769412636f91bafc2501b0f34bda407d01d5ac4]

def cD231 : List Nat := [
  0x2daab1a3aead633935072bf8e3d1a3fccb2de72860f9c3f7276d2b83d3f6618c,
  0x32770cae7828352232b39b0efb4ad482e55836ef4d52e92d8afe60ab36f49994,
  0xe234fd654b447787b80e7aa99441ea98ad43c2626b9373c105bd0c2cfe5f3b7,
  0x87e087603c16c95b60b76971e2967fd7995b1294b7150e89bc9fa0f22dcefff,
  0x4594b8d9c11892b70aac9da5b4f69451415a126e9cbc669c0491b8c284b483ef,
  0x601aa728de961b88f46f31fd53f0fb66732df9131623a2d96f8f65502ec29f77,
  0x47d7734f56563fe9cf8dc3f9c07486ac3e76faf7c125b5c7a194229ac9264628,
  0x44c9ac3974db369392429c86eba4c21f786eb9e982de4eaf9e23aa1696cf91ec,
  0x44b84037b1a3ce61ac66ec790fd0239dd98c708bb608a2193cd62e9417a2257c,
  0xcd027d5d7f75fd2bebade206a4ce5ca40941ed5ea4c5acee956d06f7a2de7b3,
  0x350f5458992a3d77b8c2b757f32125ca65c4b35e7a2ba7f54adfb9cc7fafdbb7,
  0x53c5cdb8b3f6d5cd0916d9fa6f0f504dd67f88cfd3d12c874abb17239fa05047,
  0x3e59eb31a5a1ae2b813054532bf9f766f14eb5d8dc3d68981be135ae215cb36e,
  0x6a8524cc7ece2c98f9d82ae56aae5e2c4c582d226304546eeb0df52729411242,
  0x4e28acd0f7726f1c3087c717e6b5373ed2ae814a94a092a692acd7aaf0e44bfd,
  0x4f6884393ad79a75c86cd9e8f45e1b297967d2cb8c465524e1f68b5386a5abe1]

def cD232 : List Nat := [
  0x2eab964bbbdc64de4d6bac324d01a922eba4e43b99fc38f1d1444e168414792,
  0x3ed7aa1a964c498efbd871cb2f4497486a589e92092731b392ef6af0700d75fa,
  0x62d97db851b2c5b09fb5cfa6794bd58093449175f0230cf39050705eb494eb69,
  0x518202a45d884ef7826310138f07c32ad23b52e2e772a57ae11e0d856ee8f0a9,
  0x1dbf3ebca3373a17391b8c555e70995e56b3993bf182d6de38b36eb31507d1de,
  0x69d3e716ba723980b51842eb1f3e468a5260955b9bc5efc0dfdc36a08c05ca1d,
  0x609f4be38920e1e4a2f3556c7c2a063bdd484f4c0ac5492caa631476a6c2a2d1,
  0x8560b015d0146c5f0077c995146b668551cfece9feb31a927700b203e5c4cb2,
  0x31d2031398d4e2df2124cdf26b7249da9c4bd8c2c13f132f95b797463363e2d,
  0x4ab09935caf75eb3ecd40a7d29c253fbc7b734aa7d59be99bf9fb0377a6d12da,
  0x241f1c97bd134a985e932e38d7383439c69c5271f34bc588ad08bd3c7a4ee945,
  0x1d64d6bd4ad9bcdadf68103dedd82e3cdb9b1ee50a1b72764fd33d30c1180ac2,
  0x54bfbf11bfcd2602b5c13e959c0b01668046a2fd526e29dab7a7f6c283da96d3,
  0x48286a96529c17b5081d92fc049e3d5005970251a70837587eac5e4cca7c9869,
  0x24539d16b719a78707e1c9259c4eedb11abe5f84926a81ef872ff86a8a0b41c6,
  0x815f6a58270b643e708b197f34299184f475c3bb66af4c2342f8e2c1fd28078]

def cD233 : List Nat := [
  0x21ef036237b85be3de3d9638ae2f343212a65142862651bbbc8bf51677f0126f,
  0x1294f3c491318004df65945b9ccebdcbec08ae26b52b42e8c402cc23aafc9657,
  0x5747dd39394a406c58fff10bf81af25141d1cab6d926b989ed7df1d163b6fa8b,
  0x53a8e00cf1a10accd5bfc1dfca2d7e23b4a6c0b6d8073a12b3c32f86d05ff18b,
  0x263cb78bb9db9ab6da1823fb240499b9ffda60779140fc7c58e64fc6476ec9da,
  0x5dec546fca6507afffee1bb6d2fa800f38c450d5ab0afc618119f0495c3632e5,
  0x1cc99bf3eaadd40ece4d69bd282d545eab19289531a048bdd2077c04532ad0d8,
  0x31cbbb9a003708d875513672981d753ca97411922b93b14a5623084ee0ae5da4,
  0x4bb71a8532f25acf44481adab20d3b36efdf785100fda8b4f9d90c38deac12e0,
  0x12f627f6dcda9f1f750f7e4e672ab9af840a64cd24738facc1f0bba29d0ad670,
  0x5c8be2146c3d8d3f5fcfb7194630974ebe8ec00e0ecf443ede0875fa9e8de593,
  0x47aa3b4c672ae7b6a3fe972ac2da610863860d7b331db644f8914011a7a827b1,
  0x6dd978bc74b347edb0222bdcb0e0c144fcde343480715afd09b8f0e26ceb626e,
  0x2a00fb03b9bf418221dcc0bdb24b8c6da8dbf1208f76ab114bde8951b45b828d,
  0x2b662eb9fcb1addadd3585f540955c36d4b5bc02e743574534b2672385042e88,
  0x16b2d2e36101b0b9c0ac8bf25b1d661d459b37ec93f9a4c921983a49d730f52f]

def cD234 : List Nat := [
  0x2320e48e5e3acf1d53201d92334d726f7b0401ce351cca35340b05385ba29776,
  0x6048069dac20b4d754d0ef34e26116176240d3a53c0a3b7eb542d47a80d95359,
  0x5f0d118820aa23a377a15b3f6bd3d321887973fef55b24c588f14e25f03c65cd,
  0x21f6091b4b32ea30194ef7d3c72e5ea94802d4f27689e2c1e29517daffa61a26,
  0x1784e598a2b6606e1f6376d632179cc2bed6568c880384eb5822011d2c3425d3,
  0x4bb7ea93404e99729729c59945d967ddd3b1cab50c96ecc3ff655f10ff830a95,
  0x16738bc9213ae67c85e76fec0220c97cfd79f6ee7685ae46e24a497bb9bc5c9,
  0x5dcd9ea53551a1e2638772e3df6eee8ac166dd4cbf07459dce601e4ab527a403,
  0x358c2e576b6f03b6e0f8d2f60e9f76e5dc32ca1b433319091e18213a0e9cb5fb,
  0x5290a68fc3c90a48088194d852554708ab2d33d5ef28e720a9ce544b9b1807aa,
  0x63359e163d8d67ffb705c10d00f40f85c26e004ff7e067956ddb53cde0bbcbc2,
  0x32a03985b1e7d85f50a40e0100af4a2846731947c889ab7a866f3bec410167d9,
  0x4f250a29caecf4556ba9bbd7bf0482850bfc2bcf877472d63108a2864e3b4595,
  0x5655b5d5b096d4bc39d3eed74f2f9b0e4fdc3eef57befbad0add3f1140330437,
  0x2300c92227aa7f10137161a130df296a02a7c56d10b691e173a5ea481172ae26,
  0x309cc46622fbf4f6692e8dd7be5cdfcd676fb464b88ec6da3f0aaa0076fee94c]

def cD235 : List Nat := [
  0xea44353be38cd24547b50fec7906f68ea60ae904fdb6ed5baaa4076e21f3dc2,
  0x1ff49853605a68a76febbd6a3818819291fd2eb357aba4bcee813882ac06a641,
  0x6178cdea27b7bbe54b1ea573214236de239a0240c7af39c9e83a7b1dee8348ce,
  0x1284f7cc452be408aad4fa43e17e6d611d37dba173503edee6bc5d11bd33cd8a,
  0x13a81a828e26f1bc110f867305e4222343a945b41242eb905f2eae43542be729,
  0xc8de0e7a71a6002097cd21761c63b79d987dd3c223d23ff5481270a6a72e5aa,
  0x1f53abb1e4174354327e9e333589c05cf9a7e6be4bfecb65543c80fe9accf12a,
  0x61c9877a1b0ba8767ba2fe3c31ceb326ae4e4c4cde2a038777a90ccd5a60035f,
  0x3ed936243fa86f63f9189f7f79e8fbe2799b2f3c83cc3eaf406b6daeea1b04d1,
  0x573122cf1827d2ac752e8a80844f41e8b2c8f89aa4ce37dfc3211c3326fbf0c9,
  0x4a987037bbb9b73c15a701b1ecff900184f9c243bc79b311324bc8c38e8ac90,
  0x104c08a0928d27b57b52f8ecee53d628d119d810baa00b2fdfe24bb74ccac290,
  0xa0b70710377095e79d8b5c1cfef68a6cf3c3df79e79f65f1bc698885a9b7974,
  0x1968e720c89e4867d0c032a33591e1aabc3f6991fcddbb4f12d7a661469864ac,
  0x300fe833d99d8c4810a1bcc1d75d7bc3c411b6d6a00db8fa0b50dc2266ee2c53,
  0x29030bb7e7262fb3bd76eaff843905dd95ecf109a9066713837af4d66a25e427]

def cD236 : List Nat := [
  0x5832d3203edbbaa29200d1dceee1a6576b109bc094595cb7caa385a269ff6af5,
  0x2d0d88b325b9f5bf4db48cf83132ac9a566bce29dfd1450fdd11626a282d8659,
  0x4205c7666fe105f5a0f7eeef3d08bdb0e99f7ccceefa547397b5391392c33495,
  0x54455188a21497e3dfa77bce0b9cd40243caf36bf35fdae5611349c6fde3e03d,
  0x45a6465bf8a878bc5a5feb7c74efd5627c9471a8d585d08726ebf38fcdcdabaa,
  0x265774c4cb8a4df683ff0b63df05f16466277ea19afbb05872fc6f0598cb5371,
  0x5bd0f01c8d480a8a8a0a8228ce9fe08b67d6a3a52de1c79ab87a85b282f5efa2,
  0x2f78953ccd75424d9ba6fa7d8649443e3ef0b0629cf2c4d9d074808b74abb457,
  0x6112f0ec8107d415fbdd84c5b0a1d6f7eb7f341aef786d0510ef2e817065b06c,
  0x56148ec0d73f9a24d9636e3a5b878667bf1a6cbd932a38ccacd27df2c191a470,
  0x9e6b1c06c504fee68494a8dc5e4b74a8dfdd9e6d0219b67e7940c2f54d7addc,
  0x2911b5498ef4727aa8e7f39327b4376cd258868bbd7819d7b8273aab89d3d2c5,
  0x2193fd464662f703d24de57c0b3c230c6861af45bc5b0ac576b0055f269076c3,
  0x3cff3925800f59a5ec812af60accae872a7cef3ad43221402cfbab087fa0f6f3,
  0xea479e027419c0b7bd9850ac625736f716c4c9b50f118cf118989d591e26fef,
  0x465a36618336e8b344af15cfb07366945bfc915ba6da4d3b65ca6874065e174b]

def cD237 : List Nat := [
  0x212cef72b15b20d33b3db6bec5f04bfcad2ec215c455fb99a0f6cb69d591821,
  0x15749252e5c1aca1638d713164e998222e36e5fe783155861cf3ea7c7b170a44,
  0x2e32a8837b4648dc76e7d4037494d9f6fe92f2abcce86da92b102923c6a55582,
  0x6034c7a6f672b024adc10c66925e08314d0da805b99f1cdf958e82c773a8a040,
  0x297c018b3acdb7f65b0d80bb6d13e51807b5ddd4e70212b2b000d1471826eeda,
  0x704b6be4e610e7663bbe14c169a9f3c3ba32b5e7b55f674636b04fd618a29dca,
  0x3c1ab8ab04413630bd807868cf5c15012ea308d1b81d712411d09a3ecb38a550,
  0x34aa7fb00b4d138f2f70628682f4e62b89e7b1dc6be9a1ce08bf6bba3aabddc7,
  0x57b970a7d6d853936ebd8e04c97f1f6115bca024a3dac1aaddd135c892a7853f,
  0x3509be8534562dad7312d72717e4bd6c0b068f882b611806219fdf63c56b34c9,
  0x6244d4053f47108a28602eee9a936310a6334f691d20f63e0c49c91473f566ab,
  0x3026d914b9a81c3ed17a7a52b768994635c47337a36c885b4fc890df2e4db304,
  0x17702ebcdc2ad8fa797544865f459cae13a9188be72617c1aae205735713737e,
  0x5646d36b71fbfb0707502fed7781a5a0a4f49ddf47881c531b95e8cdb3d24509,
  0x5bf80470d7168b0b0d3c7d51d138311cf89946edbbe6c4da87eb440149b090bf,
  0x578720bbf29fbe2ae174e2797cb401d42556e018a2ab838b3abf1741903e4c9a]

def cD238 : List Nat := [
  0x262d1bc8b9c17e8c74878640fbc63da940f77991882d957de534e726f934deba,
  0x3727b3ff02596fee2dda1012b4f617ab3a961fcc54774de6bb0c31476e6466c7,
  0x39f2159b91f63f1844308759f6b38cf364b81a61c0a02e7a25d824b8bf0ba084,
  0x12b2f0535a4105f8012e77c2af7ea48d8fcc80177eff2a8051ef0c5856245aa0,
  0x7363138e470ad75c5797cee5428b7d1e1064cf015c5c9ec6ac0a2801375f077c,
  0x32a9ad8a6fdea53690a9a30cfbd9caafb59e6523fcb7f9c6bcbc1a3798a2467d,
  0x6bd576decfb04a17c61a7d560665ae5150f7990c34e50edda7fd510936f0ecc1,
  0x7470233443b1e0c9c3c0d5881f6c3af9f74bcbb6084a7c5b81004a51fb42599,
  0x30c803352cfaef05048c2e6817b571aa07202e191d0d8e4256e6f05937c9289,
  0x2020450475bda178bfcc4539bc759c46000978f00df33ebf6c3c80d01361e33f,
  0x329fe7568422574e15798b563b57867e543099e8c87595b2e43f3c6badb6706a,
  0x57d2df6df083e883f0246159bb5dd04b7b46905fa87b42cc294369611ca0e4be,
  0x2083533772dcf771d7a695634d45bf9f2e80e42f41cd5b8651b3145783ecb127,
  0x25bd63629112bd69e9a1ea13a3fcbfd77cc577166c31bbf215e469b23edfec97,
  0x39c8c0a1f5df35d3e47ea0dc480d215cc5f79cf2a961cbb2c094660fc6c2685f,
  0x4a5b6982db66ff50e8e0b28bd81bb2a18e90f4462a70d877c3ece4bc702f4d39]

def cD239 : List Nat := [
  0xe56ac0d9911dccdeff842dd0a0436735350f41037a27c1bbf2135da432d9e1b,
  0x6f06723bb81b97b0a312930315c4448518c5e1a13adedc702f40ea476922900a,
  0x54a26eb81c9707efcd3ad1940be5bc83c25230fd2fe92b8354bf94067a6b9d31,
  0x594691efc1ecfaa257142b33bc3683206a1b3682f93b47351c720b6b3ec269a5,
  0x68cf17b79a44cbe8f5749946984f1b7a4505a7030387957416472b40a658def2,
  0x3b58078eb219a794c5b2db9d05cf7d6de5cb418af9dccadd1b422dc3176c47b,
  0x37f0668c287cc65bb2623cc38f4a67eb308bb83e5c803760cf33e867b0325db6,
  0x686132c5105dd52995bb851234aee2c68b8513db767f3e509ab0d8b5f9fba70d,
  0x23b1a130526821f17dbb325032c921679c2fdd908d4881132bd3b6653f74fb98,
  0x18b74c9cfa507a552ec5e39d0d529d6c2b8665a957274e785b600baeed2ff291,
  0x567f6c6a320e8d05dc9b6dc9aaaa2166631ad9098ec6925bf3f01391f8af3535,
  0x4dcfed63223b3f9fcd6eb99b301ef39bfdde51afe6e33ec86181092990a652ab,
  0x3f9470fe7083ffc08790e61b91a1bcae208c9d82f95ba75677892b4b9576ede2,
  0x4e684fae18727f4b2f5d4450cd855aa3979fdacc96342571de45ff54a263a280,
  0x14f0890001d7e6cf18480939243c746a35b0315fe61e0f63a4c8a2af4a4defc5,
  0x507192e92149b329738561287a90f0ca5366fa9e8c8140e29690ef7bd811977c]

def cD240 : List Nat := [
  0x6e6aa8df426a18b50fe245d0af9e125d34ab28273eaec00f7db34a28ff733034,
  0x40bd026723b96644d617d7e6be29594c062030a1b5d181bef0e2a4001c7cb5b1,
  0x23835abd29f9696527445b0503fabaca22dfb9df9ae4583b08bde4af1e08131e,
  0x6af4e9f81e6ec0bbdfa3683a27b3f7d097021adb5a84a0995d7a826126986f7f,
  0x25478047f03c7142d4db9dc97e811d365f590a0f9bb9ef1a4982a3f632a1bf9a,
  0x1dcb6f0042767796d5e7ccb2a67dd12cd118f4174a62e0189df277ba5a9d63fc,
  0x1a12cc4f7c91a68df0cf1c6cb702331643919ff7bf17717e737821ccefdb9203,
  0x537337e9e410c2d1682c3f0f6b1e7513e16ffaa0ad7c5ece77fa0bb44c4fcdcf,
  0xcf58c066abb5ece77b4e1cc816b427c6e61e18597975e675fb85297bbacbc6c,
  0x24f0c5320ec2f5febbd8608f522971f068c5323d211c94acab4dac1d526c4de,
  0x3b927274b886f9288f7464a8a82e80b324aec3ebfdabba90bae662845aecafc0,
  0x55c2ba78697fded529e665311404ef3cab2c3483778639707db5fed0a05d3334,
  0x3dc0f48ab2a84a928926a2554594f5fe3d73a333bd79373277735e5736ffea8c,
  0x52b17969bfe615c736d84ca4c7f255990fc7d8b003da7a9e05d530499bcb9a1c,
  0x688a6349972fb9921753392cf901e7d00a0cdcecd679636534947363de26fee8,
  0x4ef0cb3240ee90466515468fa5841b3419a2f735e54ce276e5c0819b41ad7496]

def cD241 : List Nat := [
  0x403721248ed7fab369e6a49fb0eaf5a413347932b9c001b253387f2f2f899cb4,
  0x364b983876c9d9491f9afaaedfe57f7277f2c61d3f73a5c61292c2e8527e8b5f,
  0x10f01405a9731f07627a99efe9fca0b299e638e91bb3aff4a2d5709ae0a67b1,
  0xf32b22d59e2dcc5f575aa0be9ab0764d4753f86eaf912583208c4ce692eb70f,
  0x542b06a0f6296d51aec028f76779ab1cc0eb93ebf5367d695cf77f6b1b00e832,
  0x4aa5346158092410516bbb3a314735a5a19c6575b5e8ebe7253919b013345ef4,
  0x2a5f17a601f94272a752b088eca01c4499789a38bfedc32797143ea1efff7ba0,
  0x10e1b33aa3e9f1d72b8b89226b324d28143585822678f6a2ef56dfed7fb85aed,
  0x51f3f24c27840aec38c870bbe55043d615dfa0d4b8348aa4fb567e6841265b60,
  0x2a82a7c2db21051d3624e3e0ae6f48f862e55816c4b35610a774ec52398bd739,
  0x65de795620ca0106b573c5bccae43e9fb945fc0b162be288c750863d84b8f7b2,
  0x71fbf6932800f54238287ba79020550e785506b46d0dcf8f1739fa75e4b8de5c,
  0x2f42359601bbb3223f60f10bce4a32f5eda631606e81306db039f8683f938298,
  0x6026d2e76c01c4299216651e6cc029e8ef1f10ab6f43955c712b9593d581c7f1,
  0x2c032d14ddf2dc9945656330369c7874b350738930a35d2f7b99419999a06fe9,
  0x2b2c40e30398c78b236189cf0a0cbd0c0473527f47c07ef63882e15f6c9a6e4a]

def cD242 : List Nat := [
  0x2613e99ab846248aada74c9b8c876928dff22cfcaa005a0567db7062edd4619c,
  0x4e09da03fd7e651bc4b96f30f21ca81a20dbf1f732384a2758b6f9b1e0be4c8b,
  0x2f1b140cac463b5308875f9ec6111bffe2b7c5eea2de056621583c0cf0451730,
  0x536ad930ec5a1adaf9f201fc3feac29c7473ad46fba6ad756db2ce16d9766ed4,
  0x1d7e9d8f236e5d50815883e35d5c1c31c0e1444ac2fc29c2e630adbd8722f666,
  0x6076085d24721e80bbf6a597ab72bfef84773f905614e3cea9d7c23fb3ea1a4d,
  0x3f2faa0f209652c672ae3d94dbc37649a22d17d894e56937586cab0eca0e3c80,
  0x22cd7ad5cead0f3b73966620c73118dceb05626366f144350fdc0fb9e8f918be,
  0x5c5b3efa3e8959166677be8289b1621f49c241c2126f78168d250fd1d3eb4d59,
  0x6a139adbc9a2c12ef3405d30cdfe271eb0539a42e20b4294f280dd124a607244,
  0x3388f9ac3d4d221b020e957065e28eae1eed8cb1f952c9c222833c3812ee8363,
  0x4fbaf22fb044e7f1a6afd1a09bc80fe29ae526695b37255dc42e849b43b212dd,
  0x2acc91872f071b31c610eefe0dd0f77f612b75d800c8e66da9bb910c73eba8f3,
  0x62669a27039a142c8a57fdff7735d7f60aa7aca430be47c45a66f1878743fa55,
  0x2ed8e01e0ab081c43e85602ab350720eaee4aa7208ee972ffe5414201961b393,
  0xb534c093125b7e85e41afbf96b3bc242ebef776385ac13687dcade9e9f97552]

def cD243 : List Nat := [
  0x23ae6cd2cf24496321742431a40b6fcc0080d825b678f3e568b14829418a7f15,
  0x3f95daf5bcc1d9363fed87617b3f88e0e8f7c4cb96b6cfdd4ee59fd103f1d28a,
  0x5470a59611b21f9614df0f646cadd52fe7df8b14ffe5a7d5f81731ab048a91ae,
  0x39d3d1f81490b8a0774548dccfdb49c8c321474ec20acaee1b0e89fbf4bb57f,
  0x2ae387c9091171c944ed1d6f9bedb41c4b49dbdf89aacc297963c24bf4868176,
  0x6adf07564be64475eb247f764bea289197e7db4a3e96699cd41f40e2db901383,
  0x4d45c7e12e6d337e8e81ec161b66fcadfe15d239d41db9d6bd355b400cf40c8f,
  0x443b5634d4a25992443ff567828187d7695c84135eb7f4c915c09c11f48e565,
  0x1ef852e617ce26eb34959497f62c72826999a66483f3b6c6bbf9f401591dfd63,
  0x3ac4aa75336bdd510136ec631bf10d4c107e7addf7201e42c775c9636af4cedc,
  0x67c27140f04edae1883bd6693efafc26b7d2281f80f38ee648962337e146768b,
  0x3f41f6d70fd330bbee25aff261dc6f23834579ea41580cdaa97e11ae9e48b3bc,
  0x2453d907c4d436eee1714fbdb56cb49593779c4c468f1b3a2b9bd6d3c40b960,
  0x29f4c931f7d6ea13934fc683907e3809f2a8e0c8f02871cd2ca7cbb6d02e474c,
  0x4c3a2722a10af01584f546339a868448814740c26143bce423d076a373019440,
  0xe28e6c61362be3da928d53e10cebedc492ae845c893cede0ca5c2287a43af4c]

def cD244 : List Nat := [
  0x1fa2249e4ab7a55ce47f1121a78cb4009de7364df6ad6ba123e1389ce2aca186,
  0x246f73213e00a28d56f98170837d89edcdb84158b580f72f8ef00dae5ddd3460,
  0x56c297c131ccd238535d9abb178c8c3672012eb3c025d817a9b8c28fcb957cfc,
  0x71423bbcf5519314c7d1a5f992e5a23ce7724a88508603653e746e5b71bcb96b,
  0x644f560ed79d0a5cc224f8d5b5078b091c2d3af9d9ab78e55d0a560153a4f478,
  0x543f5814d63f464c211b87a5e78fbb7571cbf0831a328a1e3fa7214df7cfc728,
  0x38a71852561e36200161b7c3cdf902ac3df8360cec272425cf2373aa12e4d130,
  0x1913364ff25581312cf9aaaac9bbcdf58b792b076c0ee0f7b108e71271e9708e,
  0x62edffde1b1a689d145055ec0f8b898a0d2dc8f1577a912c117d7cb84a198097,
  0x2a209209da6fd7ff57e6bfa718949ad7e4646f06a7b4997e2909c48c419f3b6b,
  0x123212da4a326c702dbc7019c802945858adf6ce5da22f0b82c728d2f455e797,
  0x649f6b1854a9bcfb698e9b77a7aa71fcb2600b623c973aea82c06e4da9d0ddbf,
  0xb12d7bcc7883d6aa2e421b10ec05a3c32dec6caa013a0d94a6481ab47cf43f0,
  0x404c386b0f0920b922873ff4218053253f2d5543290a673ed09d34cc45655dfb,
  0x714f0630132e63637502df9d9a026e9771f32a0abaa80ef6552bdf62eb0eff01,
  0x46a8b2c7f9f54e4f934cdf6aeddc3ac99c6053d5129b2cf178038f06698ab5db]

def cD245 : List Nat := [
  0x12d8c3809db52c702f18a569fb33d8105f7021be98b54873bce2be988597459c,
  0x6268689d589fff9ae6aa06c7090c74863e1b357e2620c2858a919b6b92549c40,
  0x42e54601b56c279bb1b08c9104f2fd94dcc9fffe8931ec733a33f13c50c64542,
  0x12572402b8f032052a261026e705604c1b9e895fa29ff5d3bc1f5132d67f9743,
  0x59c45b17d089b227550955ff9c0f3cc2628551092c05a668763b243f3cf24957,
  0x2fd92d0d75f71e22ee6fd28bd582c2595f596bfee59e525e50677a4c0596613e,
  0x1676dcad197be4a83c6b9dc80b51a7847a88b9b24c6aecdae694a35c195b1e24,
  0x2a9b258d9a99e23dce088f86db425a8959fcf8605f70745aaa11f031008fe2a2,
  0x44822fd080b4744fd1570674cdd0d1ba99a0bc170597bb89fa7eda2426833c98,
  0x293673c8c8ddd75dc8e06f8a11c48cf9ff2dab86cc035448a0ed4fb2ccd79abc,
  0x6a246ca4d8da3de4fcda9956c7fa46b678f263dbfdc875ca7291905198009706,
  0x6bba85aa8e17409365395b128199f20ebe8bfa20e8df9c2fd470139e6dcc6be0,
  0x1aa729062e1c5cf96ae44bf23decb3a904e6ca6bb3a8d3edadd6d0f059706b43,
  0x167d101bebbb1f6d5b1f26eba7376e55c66b5fac57ac1fc54f108910e1ef0a9d,
  0x4bd0f43740c7dbbf8a84b63aacd42e41397ed475dea27d656de3e8f22d9b7169,
  0x2bfe418c0b38752920b257d15777d3c1c1afaa180cba2444a842a6c0dfabb3b2]

def cD246 : List Nat := [
  0x468582117c5bc4a139e4b4a4af4f4acd9d478f86824cb489f1a19b41e0bb5b0f,
  0x1051fdd72e254638b9630bee877512dd4f358cf08123485f5bfd60d271d77d0d,
  0x6d08e4f8b96df9ea6af3a43a279cabb93dc01e89a336e04a7e21551b7d0685c5,
  0x646f33a11f8d4b0ef49c0bd6031d5a9c504540e1d7e73161f7592c3cdc3561c3,
  0x9b214593472079ea6b2a68fea54a7ce319eecde5273d0ccdab56e172b288a73,
  0x132a8e60ad4e057fee14d8f85f7f10c9277163167498c057093fb3b171b69ce8,
  0x653f1893cf9ebaa56db7031af7a420f3a238d6413d75eea71dbd0f9bb05b5c2d,
  0x4e2c729604c089c55bcefc06884be02c7352b127936c377f8a101f3ec0fa241e,
  0x229550c815fc95a8613b287bcccee1072f3f8432b60f3803eca45e189b0b469,
  0x331819c8bdb5f629a5d6a70fc081dcc811872b949bf740db67e4b22968e1b3f6,
  0x53decaffd4028e9cdf9b248dbb7fe00448a304999e1af448f99fa82527109ad8,
  0x230c57a2a9a21dd2c8a09bf41e4b436d3fe6c0a5163a3937e8b95c12b899b7c8,
  0x6ab7f68da2175426ef2728e96e45c5bf0980268ddf7ab0766b8c9a4b096f957d,
  0x2af7bbaf2cca72a49931acea6854df9713d1d2a40c4ac1e3baf721397bc4c9a4,
  0x6494e655e1eff025d8e0805a678c4d35d8acc760db72de82f2eb35e75edab7e4,
  0x549dce8d1629960031cc9a9f89d94866d83ea5682e449cdde777d6da81a414f7]

def cD247 : List Nat := [
  0x12df8319e3c7b2a2af183dff057ff02726f43f22bf0f510f00481b996cc3edd5,
  0x4aca728fd67b40d9a01a08a2792260dda87072c568afaf60a7203d053647111e,
  0x1ae4d1eced8577a53f2516e75995c06e0a155fc65545850ba435cd45c268e33e,
  0x3c13cc41e785880b46fa8ad626adb2cc3c556ee10cc9bd35689408afdd40902f,
  0x692a7e6c774763b234394dbdf8f9e09471c79951530cbbc4e8345eab5f8b9534,
  0x50fd2700c729195efbe783e109b7586022815434f59315bedf50ccf510bb80d9,
  0x6445c5d0165e407b64ef68a2856fcea50bce07630c83f22397f6cd12f3d5ff2a,
  0x206e55ee8baa1fac41044863a87ce524bd4aff9f89219ea6401d8c269a26b819,
  0x6922ae89c6545cc60e584644fceb41c51c578b209477b7e4eb76bfc559959dd2,
  0xed3760ac28c7b2e3942dbce09a4869d6c5a4eb228b2f454d5726c78ce3fb0f9,
  0x162aff7d513e0801ad12762b1548d8636473f9ff15480b86fca077aa87f05ceb,
  0x6a845fa960131f795a22524a1f67a54434552511f016c4238a5cc1a33f8402e9,
  0x65f2e55381351d4b13eb6df7664984b88a7a6955fbeab2004f81c30b27c148ca,
  0xb4243d867cc400d8034e8e1e20de5de62c3a8154a5d96ecfeab112bb869c95a,
  0x88f9bf46f4ecca6e7c50f86252fab7d173ce24d082287fa8d079f418aef7f94,
  0xcf65abe62f8294ab767cda521c41fd10bd16f48c1d6c7f7ee59cbc499040caf]

def cD248 : List Nat := [
  0x16309e51b823c4c6dc4b86b89cf231e0ebb3838c284d4242eb9d7b99e947a028,
  0xfc572ec7c40de4b0ab2e9869af21f9cc5a740eb2ae303e3e77304e6edc50ce2,
  0x311e972d01d4051367181dbcfea4869c026531e34b350b73e19e95f6cc8a0f48,
  0x5126a2476593e4aa3d940ae7fa56d5542e8a525c401db74adcbe25c4bb42a4b2,
  0x15f8ef10ce50712513e4663067b39672cc844a6dab48ddf8f83a835b5595cc84,
  0x68f0b60fa3eac50a5095b6fa5747b7e3b20fa265b37da687cf54f4225abe0cc,
  0x6a9c8550dd6501d7f3b11e97dbaf1400c9e61b862f0932a780b0ea2fb001e075,
  0x124b1c8a69b64d104c68e96a53fefddfb1fba44e45d0feb76e681a1f371c5518,
  0x6fbb33b90c57f4f6b8d29b853db261495620bdaa8a90bbacc0108d84485534c9,
  0x64714a5b38e9f3e2911c5b04e012850938858eafd44da87695fed23e1074ed9d,
  0x294fdbbf356e9bc1e68a614fb1543a7839e133444da443b0900a51884e7173b3,
  0x49bd0ea800b191ba61ad6fb11e07932e2575ae48ac24bb9e2fda1d6448b242c0,
  0x6ec0a3f403f0823718549f16e666eafa454559ecd0d6c2f394a083a1b64fc6d8,
  0xfafb50df8fa10f5dcb6ba7c5e8f7d32c8aa3f00e98dc5ed55570fb18e45a543,
  0x3b3218c3624ddfc34fbd524d3417e71528f9f4c18c2919862fdb974898209fa7,
  0x577ec4e32ab45d9124fac4b0517cba912d5bdba6b2917a886b5387f3da328d09]

def cD249 : List Nat := [
  0x2366523b8a8229d09968ff7bc06cbcae8d7ea6cac9716b3e3ddcfe2d1969b7c5,
  0x6b06ab6e3f31b1dbc734095fcc0e7d163b3ddb90b4a430ffed5731c42535a4a0,
  0x373cac3ad5bf8adf2d0ab8ff7ff77c7f7cdc48bd8681f7d547f825c04233a4f1,
  0x5fab5767da6400c902e2faa47e2fdae1fd3f7b20d795b012d4f0e06e72696148,
  0x5a79b61d7227f1879433fc5366601a0da9e7060fed608843a5f5453f4af2ebd3,
  0x4273b9473fc49f585f672090128d4adfd3d3a6b05ccadc0ef7e7b8c67d44843e,
  0x25c3b3c7e7b8ba24e5de302139d31253d1f87e489b1e6ac6f1840aea75ff248d,
  0x3d1b87f8d0b882b5745d30588787b2ad1665a7ff09a8e1f47501d37bbf2eb60e,
  0x4951c133bd069a607c470c2c97cd1d35eebef445f749d8487d22f8ad93003015,
  0x535c90875e51bffb7afde328effb169b5acfa0459b0c726d31122cd43cd57c13,
  0x14081f041bc05dd67aac099be480ccc17e2b52ea09ee01e6ff60e8804430ca56,
  0x5e178fe98cca30e5b4cdac9383291c5632f3872e4f253875d80cfb196be67e7,
  0x5fcc0a05c18b4c09a38366a07364f67749f2e1f9ebac6532399538fec93fa521,
  0x41ac0995fc0877a3c50ca1d1dd06ce95f2c3f9ce4d0a0665aa7174f1a5f88cfc,
  0x571b3afcbc66801d9afecc36f840ae0f942b501ca519bfd68d05133e834e6072,
  0x260e9ac3f5e06b5fdeae72ef45503ae74ee21b03d3bd55b0d5f494d982f8813]

def cD250 : List Nat := [
  0x6e709ef9afc2b2da43c6d1f36eb4d3c934887a07f74ca18318dcd14964c3bb3b,
  0x5d36930bcdf2718032c925d9ff1284656ab8fdf4e812c95c380794bcffcce6c0,
  0x2910504aaee124e23d30ad7e240c8474bbb55c965c2ef3d7cd6eb415885c6366,
  0x11a186677d1d65cb0bff29c151cc62113f88fd9b951860cf3b2c33d2aa1d373,
  0x1b3a3d31e005624eb1d8dd8ddac8dd98d292d633336e7f435f4125febc397b79,
  0x5055250669aa9e2381bb11753d313a5092c6b54832e77de6c5fd83d625d19c7d,
  0x687fa9cf882f4340b1398f9063536211ec87e3cd87ed0f2023ac1b07e3d208c4,
  0x66a257293fde3299fb349b162297c910e8c430cb303214e7880d1f976a414fb3,
  0x233db00cade4232795343ece3afaa2f8241dc8d72947d06f045c622c1c64823,
  0x6289e4f3a6a73c39ef923e438a220af41de1d6aaea6bee0cacd393aabc76b60d,
  0x4e3d0a9e7259c061f865fe67b22cc7df87311ba681b55c6f8bc9f8282b5d7ad0,
  0x61a674e6da28aab90c4d53fce2354858d62b805fcf4ab1000c7f5e9e1ae03610,
  0x3f5f844213e2e1ee4dadbbf074153fa99bc4c0b8b627dab362b82d5533c0e5ba,
  0x502b8c46fc2957fa0ce0352281f8c64c8eb76096c129aa13a5c19d61ec446b9f,
  0x154e3a710a7d0bdd08b5c0884e08e8f8d62acca55c9b18835d8c8602c848d49c,
  0x1c7c963baa157c5e2f41a38e15fe18716ff9559275fb73d744d9feba8c08b40e]

def cD251 : List Nat := [
  0x295dc9a0caa7fd2996c363e86bafc62a8f403e6d3e270b0695a20de3e0c7405e,
  0x52ad015ee4ab59ca43ff9ad199820366038b03d929514db5ab2f09f602c94865,
  0x664d27604549f7662a9c594934e07b9da3b44c26e62a3470b98f981dd2d44dca,
  0x3ad88e09618e49ae8c45909d4cbb835b972a5b73aab88f41e484e2b5b4d9eabc,
  0x6f317e699847017a8d0996fe6718aabd80f0c6e5166ab83bcc43832b10ad5a3f,
  0x714e1a5b25609da293f5d36432e150323076d6ae42227632a101133a8ddfd430,
  0x116f5be08d8e6dfcaf6bb384597b9255908b94c83370c81fff4f911b99e0b3b0,
  0x47d8ceb528f41160c5b2293429f74a018857df7523fc1337cc8ec92e02937775,
  0x1ab3aa361ad09c0ff86a8e8d9d4d155da9037dc37fd1c8c9cfdfead028a27ca6,
  0x3d7b63247c9a414fa7b62350ada1b90fe134c79390cf91d8d8a0da7efdac7a82,
  0x2dd55a5f8d18a6cb29384adf675190fa0085de15a5ac0d6ad10b87b67bafd915,
  0x44bbea516dc640daec1041ecee76e1dd21ef9276ff01f760dc4fae41b63c3988,
  0x6d9006c18e6fd86269c232f4d18c9355920e764c24a617cfc72d14e463b2d314,
  0x513eac56a908cafed9333166425b2a28354cbceb10f3638a5ca8eccba0b67341,
  0x335beb95bb64268d923e7187fac84c117de498306df42bb847198d243e711021,
  0x45f265d65e64654196e2bb7677dd0941f1526fdc2304687f87316539b6ca55f6]

def cD252 : List Nat := [
  0x69b4e89167c641918dac25a87e092b168e3e8fef50774af9ac7c6b776325bb8b,
  0x47c9c4056f06c51a3ef0d1263d786659848a812b623fb7f39814279cc122dcfe,
  0x20ce8ac8567920089a475a5d4231806084c00655d4327458a462397f1ad27507,
  0x44ad05f7c614cf4a40755688491d20cd2248e9ada09b98a067d228ad0bc6683f,
  0x3dd7a13ab08735dc687a7f4f85331a3bd711b7f90a57ba0e2eb4741cf66bc3f3,
  0xd88bdfa1fdbfff3b2faa08ec982fd2d5eb673ef2f106f118112348a38487b9c,
  0x32a0f961bc6a77ec136dfc850d3949a1ab24e7182c033b479d6deaaa5bec6234,
  0x3f4fff2f396e8936633d2cfd0cb2a537ebd02127a753350c01d01b8be3a36b58,
  0xa254949ec26aa0e5d73a6073852c84be09b77a1b5330f87ce98b9220c97dc87,
  0x5d485ea1869c0af2d24bc0bf35972ae397cfb95a6c7e7fae7aedf1bfa5e43c42,
  0x4ad63d30087f15094abf0aab05036cd677dfabc79c72c150ca35ca7aea149126,
  0x68c1a42357352db6121a17c512a0cf048285973f96544a4036eabbb0974f82cb,
  0x488696256f6b28d97980073de3d7a7023fc875cbaa9c4e7dbfb5ba3f02b3ec60,
  0x6bdc4d55af81f8ff2b262b2e08deb3eb592e79ee0505d7da45c86981cca819d2,
  0x144c964556644c01804490e9c64a06fd3fdaa2007c3850cdde0b8fdfd5886850,
  0x56b69089605a4bddf8891c99312f764028ac99be7f815d92a84842755fd77b57]

def cD253 : List Nat := [
  0x126b8f7e56f46ce783c975d6e83a274921a53da3197d7a1b49e9cb684d60532f,
  0x1a4dc55b322bb553cbca023776f3bee44ffece4967b1e5100233d71abd9ed72b,
  0x170bd6bf2647d104750bd6e427694a3f75f30acbb5484b76a4785ed1277f501b,
  0x56812bd0798fd785111b6be3d137a8647ee21ba44e1d88683fec96dd8c53cf53,
  0x1997094b62bea2e45aad2591d85f372ff3b6b0405775162438636336037aed67,
  0x698bcac3913917895bff6e836c917ec929c8c7c7a34f003edc2462eb17857f35,
  0x256f0c92e2864fc65b941b18418642e984490f46232755803c7d5a07e54f49d1,
  0x2879d57c569647a47ece124f0c8be547705fc2de9d4f40797bdb71d382ab7e82,
  0x541fd90077e04bc53f208b2cff324edd29b2f836f5dd29435e28c909dfaec2f1,
  0x38605f23c7a174b7b77e187318b161d46cf448d6dc9605f9e7e9c591babe8921,
  0x218004681c6337d1563cc242af6b20e491dd104cc35fe8e5293a3c2cf5b50cad,
  0x45762ac83f29b438a38cfdf1a731d7277c78fce1abd500dad3095d696fcbdfce,
  0x652fcc1477d5d6d89f61ad0ad99e9ac0141ac6160f2de25686b2fe53ff3ebecb,
  0x9630af4cce0d344e9a4f80f24bebf0ee3c465c02cdf603ddd3cce1a379237f0,
  0x4c314db38c30107a9f1fb77207e855b323867cde9664e58c8e3c65764ddf2753,
  0x6938a54dac76a43ec87b6054ade5a7e968ec23fb7ebf8bcd5fcf36c824f2641]

def cD254 : List Nat := [
  0x473b81816309c004a7a8589d027d750e57c10352ad6473fbb8a53c7155000662,
  0x5411c4384315ad01d067ec6849f6b2f0159c03ba404206b05d5c5682d931584c,
  0x327fc0008d3fd200d238a9edd7fed7d0fa947688ce3418a467e79a119e92261b,
  0xbda89e9bcb97e658c590ce45413473932ff1c03298db87670087390ccc2636c,
  0x712c71ca2a91d8fe35a10f5fa9f4c19765995cce0c6e0b29452f3ed81a250ded,
  0x119e66d1e314bd04c042be8f780969803539a981c8eff3cf97c6cf076c8fbaeb,
  0x483eeaace860555b1dc68e7789a0448bc33a803a2137a78b5ce18f3a4731b9c9,
  0x2f03a6755f241927ab36609df64e7c239c6e16b48841450b818126370f2d1228,
  0x6d1ca0409d96055040754b6a6f97c69c489e5d64ae141f6865b32e044f8dd24a,
  0x48cb2cf4859bf557554f0303a279832dc3b22bf4abf288125406a51b013855b9,
  0x310e96565ec9103429d49fd6b8abb27bdf56779b5e9f7edad61d3e206fddf124,
  0x3743cc7fe861a619c5b3007c1e40d87ce2545847504c5cc9bbea06f4005e3826,
  0x4357e0191723f26fab54c63ce59e77e322a256d091206309c4c312bea711c5f9,
  0x711d6556ff3c461aab243a4d0ea834ced7a325129b107b01c2bce2dceac27fb0,
  0x4f221b701674587f50e2c52b91e742d3263cbc4c928d6ab2c425d7b3ad328c2b,
  0x5bd429da5bb6a5c18e6a7c74e2105c7c73c8145db3a25d72dccc00dbea621053]

def cD255 : List Nat := [
  0x50cafd03a4576762a058c6968c42db39af7912d70536fa59049131053993e3a5,
  0x3bdb69d0770bed03ee6b28e12d3373c879a4920ebd5fe538b140dc31b0c1a9e0,
  0xd4ebcead19bc2d1057839474c1d4ca5e54726527c94937553acbae1d058192f,
  0x5ad803ef9c4d5e29bb43769f948b00b9418fe618258e5ac1180ed6fa89f9de5e,
  0x677107e2abb6eae7c5cb9466544f0ebc708ddb480da1ba541e1fd4ec6bde9bb1,
  0x3df3644ab713c891a04b7b63f4d61105936dad72a99c2186a961fe372385e431,
  0x694726d0d758200d7d54296ff9ea0997978070cc893efb0bb7126c96a59ef64c,
  0x47d9b149de83ec5ddfbe4ed4f8b3cb2ba8e138b58edcaf68b0bd6c08aee748db,
  0x2834d067b4e065bbe8732a54cb05722b447a096dc9bfd4289046a342a6d783ee,
  0x22a1e11c79defe0d9591f415ed2031289a108582940e4978a15d913b8641b478,
  0x1b2e3a3619bd0597630496b1282c113379c7138c70de8d68a6cb07858a8caf13,
  0x3e4038e65cfc12a0a80dbb2749c6f3cda0a88d0055f821c94f972162e6355010,
  0x680f9ca5ae299efdfbcc6ef0e2da575777197457b8fff4b55bd4ee3f4a48096d,
  0x6034dfb4b3d86b08339a164752b6639dab9e676198fbfa7e4232b516aa4a7785,
  0x555afc67a408a761651a5a772ccd6fe2cd1f5d1c59c1f6b23c4296c1b3a2691a,
  0x72120983f9c77b143fda7f685a0ef381587cd55019d7123e36e32ed59b65b395]

/-- the coefficients, in parts -/
def coeffsD : List (List Nat) := [
  cD0, cD1, cD2, cD3, cD4, cD5, cD6, cD7,
  cD8, cD9, cD10, cD11, cD12, cD13, cD14, cD15,
  cD16, cD17, cD18, cD19, cD20, cD21, cD22, cD23,
  cD24, cD25, cD26, cD27, cD28, cD29, cD30, cD31,
  cD32, cD33, cD34, cD35, cD36, cD37, cD38, cD39,
  cD40, cD41, cD42, cD43, cD44, cD45, cD46, cD47,
  cD48, cD49, cD50, cD51, cD52, cD53, cD54, cD55,
  cD56, cD57, cD58, cD59, cD60, cD61, cD62, cD63,
  cD64, cD65, cD66, cD67, cD68, cD69, cD70, cD71,
  cD72, cD73, cD74, cD75, cD76, cD77, cD78, cD79,
  cD80, cD81, cD82, cD83, cD84, cD85, cD86, cD87,
  cD88, cD89, cD90, cD91, cD92, cD93, cD94, cD95,
  cD96, cD97, cD98, cD99, cD100, cD101, cD102, cD103,
  cD104, cD105, cD106, cD107, cD108, cD109, cD110, cD111,
  cD112, cD113, cD114, cD115, cD116, cD117, cD118, cD119,
  cD120, cD121, cD122, cD123, cD124, cD125, cD126, cD127,
  cD128, cD129, cD130, cD131, cD132, cD133, cD134, cD135,
  cD136, cD137, cD138, cD139, cD140, cD141, cD142, cD143,
  cD144, cD145, cD146, cD147, cD148, cD149, cD150, cD151,
  cD152, cD153, cD154, cD155, cD156, cD157, cD158, cD159,
  cD160, cD161, cD162, cD163, cD164, cD165, cD166, cD167,
  cD168, cD169, cD170, cD171, cD172, cD173, cD174, cD175,
  cD176, cD177, cD178, cD179, cD180, cD181, cD182, cD183,
  cD184, cD185, cD186, cD187, cD188, cD189, cD190, cD191,
  cD192, cD193, cD194, cD195, cD196, cD197, cD198, cD199,
  cD200, cD201, cD202, cD203, cD204, cD205, cD206, cD207,
  cD208, cD209, cD210, cD211, cD212, cD213, cD214, cD215,
  cD216, cD217, cD218, cD219, cD220, cD221, cD222, cD223,
  cD224, cD225, cD226, cD227, cD228, cD229, cD230, cD231,
  cD232, cD233, cD234, cD235, cD236, cD237, cD238, cD239,
  cD240, cD241, cD242, cD243, cD244, cD245, cD246, cD247,
  cD248, cD249, cD250, cD251, cD252, cD253, cD254, cD255]

theorem lengthD : coeffsD.length = 256 := by decide +kernel

theorem partsD : ∀ c ∈ coeffsD, c.length = 16 := by decide +kernel

theorem shapeD : coeffsD.map List.length = Embedded.g1Parts.map List.length := by decide +kernel

theorem smallD : ∀ c ∈ coeffsD.flatten, c < 2 ^ 256 := by decide +kernel

theorem evalFirstD : Packed.evalCells 6 [false] (Packed.packs Packed.width 16 coeffsD) (TestVectors.cellsD.take 64) = true := by
  decide +kernel

theorem evalLastD : Packed.evalCells 6 [true] (Packed.packs Packed.width 16 coeffsD) (TestVectors.cellsD.drop 64) = true := by
  decide +kernel

end Verif.Vectors
