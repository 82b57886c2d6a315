import Verif.Lemmas.VectorASum0
import Verif.Lemmas.VectorASum1

set_option linter.unusedSectionVars false
set_option Elab.async false
set_option maxRecDepth 100000
set_option exponentiation.threshold 100000000

/-! The commitment in test_vectors/blob_to_kzg_commitment/kzg-mainnet/blob_to_kzg_commitment_case_valid_blob_19b3f3f8c98ea31e -/
namespace Verif.Vectors
open Bls Msm

def windowsA : List (List Nat × Jc) := [
  ([255, 254, 253, 252, 251, 250, 249, 248], (.pt 0x16ec5132cb7a1e241ee803acdc16a23b6b04c42787054474e545f05a6014e09e34c19ae748d7ae0658bf034929c560e9 0x1091c37e82ed69a868071107b11abf2e877ed79d7226c4915d93cdda485a034968d6921e35fc8eaf062ecb8ddb42e05c 0xad5e1798f273b091dd466abeba482792de6b90b84454c29280c703d4b5141b7ec20009ce1deaed3cd14073990e0768d)),
  ([247, 246, 245, 244, 243, 242, 241, 240], (.pt 0x37768fca3d19fd0664bc23cdb352f1729c16106effa9a7afa6f064c21e12b158a6b93023a5b16c9d36b746d22b1420c 0x11209aaf325fdf0f855c5a552f7481191612614c87a826b3fbb4550fb79a1ebba4eceb13ae9cbe82c1823b13aaad9420 0x599ec4bf37d3df90b3c526cd236c452b8b805f6626a5bbc1c8b403b475764ae97f311908e99409559c0ff3076d9c711)),
  ([239, 238, 237, 236, 235, 234, 233, 232], (.pt 0x3e77d6a6897b3432ae07b2917cb5eaa8121453322bcb24a1ac599b559aba332fbbc7690c493874f68d787a0e12fb492 0x14d103c816099d09dabc1e040b1a2aa877c3af65c254eed6776ee17c5d10ef9a81231812e641081d9fa5619f7347b6a8 0x17443fb71f70ce057151873eac2cf95fce69358cd9f402c3f421f5dc6abe3b5c2239357183cf1cbcd966cba11d523f3)),
  ([231, 230, 229, 228, 227, 226, 225, 224], (.pt 0xd01e1bb50283165ec0d8112f6b1c7bb8e533ec72e44a5a1652c06b5a6624a8cee1e0ba2e2b447cae47ea6caaba5ff2c 0x1409e7617d4bb46c8eadc3d086ec4a17851e9033231fd1c5d2ce2d742ac8e5cc3d971d8cde57c9556f125470a6478e3e 0x9bfb05b5409fceaf6b89e3197ac7714cd6a053ec5d7e2fe748287c70f1590c4ddf696adc9f82dfd9b227a37dd2fd92f)),
  ([223, 222, 221, 220, 219, 218, 217, 216], (.pt 0x829dce67fd322a855fa0253c6b7c521abf77cd00240ff7519b50a730beb42ca9c7230e0f52b9704b8995f7b45510a56 0x106cf6e50ecf96c053d9f68cdbf3f84b78e27d27ea535fe264c35f7084730c7d15981adf4a967c64d4affe0d88cbab42 0x33b8751e1d2993ff56b506ac8b1e47b95c698f3eb0a5d68516116fc957c506baf1260e281dad2744181c151537f7070)),
  ([215, 214, 213, 212, 211, 210, 209, 208], (.pt 0xd3a28deb4a6d82928884ffafbbaab8ee5fe857d6645fe6e4591e805f04f1228d34e04e50a24451f2b88900b4ec9c8a 0xed801fbbf9ae3b42997780f82d29610ceb056e0801f6c1ec5bcb830f443d3eb8236a5009816d88ccfaad3da7c317c5c 0x2078ac99ae73a1a36ca69334422a30dff4c08c399f7798af5f406a96e69e8f60827fc4d46a82e453066136ce585bea5)),
  ([207, 206, 205, 204, 203, 202, 201, 200], (.pt 0xe2d6b8558da030cfe639080ea991c7117b093ed4ba569a5c24855cafd66068c4e2743257998a657a5928700253a50c5 0xc257f780ba765c016ff5e87df89e906f795bf5a6d266042ea7bc73ef6384180ed365bcaea13872798918008f45da8bc 0xb5f35789df33860767b1d9e00de5d70ade87fbd7137a9a9ccad1ce27b382763044b809bdc2046fb3ef23bcde68569b0)),
  ([199, 198, 197, 196, 195, 194, 193, 192], (.pt 0xa7576535c6f7ca453c033596f740972b0d2b83375050cad49f79f3e34931b0c2616aa8fd82c29dc8751fbf7e0242e30 0xe44dbb5543f682aa28dfbd982192efa74df774b723577805805099a141dd9aa14315d56739ae1807e8d333145cb7fcf 0xb14b17427c410226570877834a62d59acf653b9a29bee72aea0307047910eb4e095d1560e6822ce22ecf748c34cd44c)),
  ([191, 190, 189, 188, 187, 186, 185, 184], (.pt 0x176839bbb490711d02d402a811af936506cf90bfe8351532cebe7551a622dd272c5643655084b28fdc46c41d6e8cc96a 0x11ceac1fdcb81ee2ea08845d192c46a5c7cfd2cd3cd49331cbd56cd56724d6479212268597271a44b0fe847d41dfaec4 0x1f378e16b836d76f94ccf6915c5dd912dadb1ddb912c06f0483a2d1ae7a73a5dd4582462e79ab70fc783c4046df20e3)),
  ([183, 182, 181, 180, 179, 178, 177, 176], (.pt 0x12355a6b2ba62c89fddd2113c66ca0aef9482d6440b18518e0eda41e4eb48a164eb085942bf9aafbf08cf8be202f0af5 0x148079669534ea11e33a90d1bfbd2925982038d36489011d628da762dd27bbbb1d21cc4ee372c78e94c12ebe8fb901b1 0x12d8a304e27605880d91feedec1053663d4373c4ad5fd2497b5ac5319b5bff9d3696d185cbb67a44849bf9b59e8ce215)),
  ([175, 174, 173, 172, 171, 170, 169, 168], (.pt 0x83ef020f2e68556938a271908ff1f8feefa74dfa5d3ef5e1ee6428f876bec04a7fd6156602566518eeb3f87452074bf 0x148a74f9276dde7fcd6b9beae500ba9098796632d0eb38bc61bcf0ec79d9fc26afb2ed6cd44deef523eb6ffcaf31bf34 0xde8f67818cb82e556ce9328c7ae8b4e50050898b1b4fc50020560e942c666168561aac250bf0840ad074f6523a7593b)),
  ([167, 166, 165, 164, 163, 162, 161, 160], (.pt 0x24277477e9768a4d06d4d142577daa74d2042c4c5c17fee79a1a72536103d97cd1402ddb1e790ed02da87d6425ae956 0x383f4a6f7f25c52a05bc85cc261393e4d483439c01d26df74e2f46fa85c60c6d3b82d2b817896317e1886b861653c 0x1351ae158475b909be3ef8d5892998efbcd5200caf7e6e1e24f504683e2095aa9115ad7c6b944639b7b43b738f70c72)),
  ([159, 158, 157, 156, 155, 154, 153, 152], (.pt 0xb193881d8ed5281ad29bf3e9ea883e09aeffed0f6b38af1d874440a224e41a186d06f770dcadfc98a0788c0ab99f8df 0x3594a29821933fc26696b5e368e36545c905694b1f8964c2ced7627d1d79584ab8f5444a2987c26ec1c20acb193b596 0xbdbcc9831b3ba2f54f843596f698ddf6b163a0f530a75a2d157700f12846ce44acbab44ea4c08bc1aec89acbc85002e)),
  ([151, 150, 149, 148, 147, 146, 145, 144], (.pt 0x118d178a0c81d7d079c7d6e06f4f53251b832a7e99033858ea3fabfda75d2b9a239a42936e2fa6f2e98e31aca5d5a58d 0x13a8161aa677a03cf9aa4776db55e7c35be82471d8b60bdac3a449df18f4ea9f8b2b6bd63dbf9714b491a4c40e23f868 0x39223bf476bb21fd2467b698f2bca212793878efd932a972667f12e2e5bc27666222b240beec1641d325aafcf4093ec)),
  ([143, 142, 141, 140, 139, 138, 137, 136], (.pt 0xc6c3d3eaffdb68ea99d069775ad19b8c351fd2dc2d93da5f03269af688a66f3d3affdfee3c2cbea51133f904acd1e80 0x123afa9f19afe59e42343708d45f7ee1673a4f1f4bc6a2f969791913669e1973781369f8dbac72ddf2f83921939d43c0 0x170e2083d2fa332b6af4e4341567563f3787cbb6e7bef2ff63a58186c8a7e627f79ba3bb2e41dfd145de29cd1170f5e4)),
  ([135, 134, 133, 132, 131, 130, 129, 128], (.pt 0x7e5746865a77b214aaf61c337e34dad8e12b8fe4b0031782b46d6d825a6ac1007557fcf3d98b1291334829645adffa3 0x118d7d98a891c9183d8118f0f51865f728c82e4c5a1400d384d9f73cd0a6b9ac19f957d2e4cb78a75564f52775fbf42e 0x28802136285057a728da1ccf1f9e71dbf890f649da855e6064762654170a5a892129c63ce25c971873d8de91a497b4b)),
  ([127, 126, 125, 124, 123, 122, 121, 120], (.pt 0x19a262f9d9c8e3ebe337326239323e550f259f95627cbce508f2f925b26ea4ccfde92e6345a7a58e2c119f81268645a6 0x387cb2ca8fd35fa428921af5bb7d1e9e7a76cbc1385abb8c2bf983843da479b95c4cfe553202258d1d672f4b2c82ce0 0x3ab7e121d7fddc309797ae4ada8ab9547766cadba97595a0bf3679aed25d895cf9dda40addb8edb7ce01a8c6125cec)),
  ([119, 118, 117, 116, 115, 114, 113, 112], (.pt 0xdbc3673df50481907d757837ec26ac26504b15b4404082f5377fbe34c37bf932d5db0e8a0d28b80ff0dac4fc081f1fe 0x131435f14397a3884ea30afbc5d08ea1bfd349a1e52d9ea3473eae8e589ae4ad850a32c8ae2f96b091ae5c01eed7f9e4 0x3ee67e0e9bc025f8c0dfa1e88071f6bd43df0a32d89247fb986e4071d0c2c5484b99a1210872658131c5e56e6edc31e)),
  ([111, 110, 109, 108, 107, 106, 105, 104], (.pt 0xcbb6353b0910b03e68fbd124060f51913b5442f7d1a06a2bb672901798ddc74ee4dfe19976131349c16732b339afbbb 0x194d4d75914201a5388264113fa1a4194ae6d1016d7372de38460278069395f46570436fc1cd9b60b155fa64d2818b42 0x1f7aa89a7d485f05fad70c122dd0485c1ac4738698ce1880b9f5853d52985d7314dab0720372c3aa38e9221f1749b05)),
  ([103, 102, 101, 100, 99, 98, 97, 96], (.pt 0x57096363e7f3e7c5a5a87229fbca79b47f425e38357655d05757f5cac028322cb284ce328bda276ae878b738795334f 0xed929591a17e05c7dd29f7a2ef6031851497c609d1b2942fdbabb6d2445be4cb8e227603eae851bc74591cea2360af6 0xdf899655132c03f243fd9060edec11b53e636a9978af6c4847461aa8fb9cafcbcb47100c26bcc26b302ca2e78191a2c)),
  ([95, 94, 93, 92, 91, 90, 89, 88], (.pt 0x1602ac44ae2bcea5d7f788e2d51ec0b33ffbd3e0422579cb76130cc368108ca456ddbe3371d6b61115ba41871a8d3e3c 0x14321ab4a4942b325d6755ac6295dacd2f427df2f1bff371cbea41db11c6900c0f46d96d4b6c82f187f9ff2eb521ff24 0x289f3086e06ed6467e3ecb01fb0b00eb75d4ce5815bd61d07c88cd3ab210d88e28049df0790438d95f568c28b812c3e)),
  ([87, 86, 85, 84, 83, 82, 81, 80], (.pt 0x505a1e69e4b6e6e1aa84bf16a802fa040c03c180558dfe32a30eb2b5b3d258c768f793d5bc9ff2aed27ba35760cd63d 0x1a39f0be5497ee9f55562a381d73ce780ffc37f7f94c29bf3589e62dfd417f02e3fb6b68e62804fcc34892041e20af5 0xb42419bf7cd6a6882cdc0a2e5a58ccfa9c36ac41f52dbc071dff67b93ae3bc462345d14d78aee416fdbda080b9ea6a7)),
  ([79, 78, 77, 76, 75, 74, 73, 72], (.pt 0x233fa9c74c09ea1e38f37e3546e9dab3937c6e2ebb975f3377e103b2d5eacdb2e3ff28b6c5d8853251405189fc70649 0x154bc6a705f8108bc26dfa245e35e7a799724dbd0c7ff73a89909d26a54ddd55936a90aaa2b6af0cecf4def41da647c6 0xecf8ee47d3a86656b484368184dd3da5f28c1b090e3007fdb63a184fbe6e762324c47f73d171819c73d7e176b07b82e)),
  ([71, 70, 69, 68, 67, 66, 65, 64], (.pt 0xe01e2f1ea9d7eb5ffd3ed1815a29fa7ac6a7a0437b7d7d6aea16527076cf57d492e66d931ef04f6e9e9992c6a91a4dc 0x4baef89180ad68c5057bc1158b07eeb692a124c38c8b5de3c4a57695cd07d01cd812d671a641716e2fdd030ddeb4ced 0x13516d6bb0f6e9b0091e4eda827859f887b27f004b65bb3b38f6c9e6427ac70771463999842c32dd508ec4b1cbb8c8b1)),
  ([63, 62, 61, 60, 59, 58, 57, 56], (.pt 0xc9e4745c628c34d3f565a09458b21fcd77cd3cf4f33345c73529b58558002e8e0e99045415fb35b2aafc73927761b81 0x117ef8066f1c7fbe61099303a6492c161430ceff55f8190453a93536dbea9bd67898bb06e7d228260a1dfaf40acdc986 0x6d6504955132295ad870b085fe98e2e3d208032f6b3eda2617fe6e585abcf76ba065100835a11b3fc18bd6ddd6dc8aa)),
  ([55, 54, 53, 52, 51, 50, 49, 48], (.pt 0xcbf80b701091d21f680e8117b70c994b47b8be504ca497f4d806f927369db8a27d5234d42d8732235a3e6e3419aee01 0x1870c75a95a12b05e1fb8de4df588405d3665c7a103f45a72ad92961231292b8d3f926da8af1fb978d3ff4f558866cbb 0x525b88048ea0e0473c74ddd12bfb0d2cc2ec0f5a3c52ca807fcdf68fe6d170697a2cc607c4d96623edb4db9dfab789)),
  ([47, 46, 45, 44, 43, 42, 41, 40], (.pt 0xb9c445eb0e5c3721133786522ef9ba190933adc411606ee6ef285cfb1f205496d78504f2687d2d58da3777126b5e1d3 0x16b86a5d6886fa337096888fd876bd54886a010db8cae464ff16f9d2b25ce574db6c74c55147e2b8fed893cbbfb72a32 0xcca64110afd34fdd6c1ce7b01ddbcc167329d1ed1263181b6b583e8f63fdd06bf11c639edf8e4695a8ecb4ee718d695)),
  ([39, 38, 37, 36, 35, 34, 33, 32], (.pt 0x12bf1cc27f10513e0841ef3168849a7b7eb21ac123739455104e0ac554d603358afee0bef81b7326adbff981b482c22e 0x10d87a1cc72eeb0b5703fcb2e830b4fc9024b6569b817a5b317b95fb5e8a26de4cee6e639012cac8f1c244439a5ba7b8 0x182e13203ac4745bf68c4fe427f6022de36f0e8542206bc7f325cd3627c224c560ece876f6af0d8c2c4e5ea1e4a75e77)),
  ([31, 30, 29, 28, 27, 26, 25, 24], (.pt 0x123b909422ce52e64a8a09055ebb047df9a5b67e7cb6487f707dc7ede2943647ede1f79dff35ad824b654ee0c2952ff8 0xef7b580f874a07b79b364c0a4c75a53b82916e19b4ca2ddbefc360415aff4b56b64db4d238d496bb2fde13984eccd27 0x1520f7c9fd61f8e72a0c74f11ceb3371fecdee21da8963fb26f0543a6607b7e9cbc7ed957e841b4a879592201abb730c)),
  ([23, 22, 21, 20, 19, 18, 17, 16], (.pt 0x4ccce3491a831fa7e06d8475a086777785877e05c4970074a81c70b36b7298e8af9786a7b56c9da61c5ceca44725d83 0x608333f952c9e1b43b48975d857b36be15cdaf478373dfb4abb0fb8ff409acfd5e8e2748afbada0b0f2465bc3280c7c 0x7adff312a73b103ef44108503c4ab3489bb639ff5ff5d04ff96aca30d4d72a3ff159b59c4ef45d54b224d3f2bd28987)),
  ([15, 14, 13, 12, 11, 10, 9, 8], (.pt 0x193a0cdbd631f0f06bc2f311467229a57ff1a5827761ecf1f65b4cf0871184fbe81495cacab7427ff1d80d078dbe4f1b 0xd36be6bd10dde404a9d5712af0f50beb898f8a2fda2d6d2fc5d5a2f4ad27c22fe184b6273545761b94dcc6012cdaf8f 0x22ae4bd4548b11a1292dbc20ef4b832a1dfa6044787e324b30350709e55bba5359752343783ace8c37d5ac6bb2eaad2)),
  ([7, 6, 5, 4, 3, 2, 1, 0], (.pt 0xf84b72bcea8343b8e3f67737ae18f6564f7eb616fdb934cc44e2c3e1d4af0734316f3ce276533b213300818dfb6f3ea 0x15e89d4bd4f62fbe6fa5d9d58e98eaab15d0e41ddfca91446294cfb4f38378910f872ea3e610bc6e494ebe0828bf7af2 0x6477f721bebc2c4994858ee235a943ee2d6ca44d8ab5c0bf2d2d9fb418e9b2bf1aa4e4edb179574a94274d5834abff1))]

theorem windowsA_eq : ∀ w ∈ windowsA, (agg 0x1a0111ea397fe69a4b1ba7b6434bacd764774b84f38512bf6730d2a0f6b0f6241eabfffeb153ffffb9feffffffffaaab 0x1a0111ea397fe69a4b1ba7b6434bacd764774b84f38512bf6730d2a0f6b0f6241eabfffeb153ffffb9feffffffffaaaa w.1 (zip3s coeffsA Embedded.g1Parts Embedded.g1Ys)).2 = w.2 := by
  refine List.forall_mem_cons.2 ⟨Jc.is_eq windowA0, ?_⟩
  refine List.forall_mem_cons.2 ⟨Jc.is_eq windowA1, ?_⟩
  refine List.forall_mem_cons.2 ⟨Jc.is_eq windowA2, ?_⟩
  refine List.forall_mem_cons.2 ⟨Jc.is_eq windowA3, ?_⟩
  refine List.forall_mem_cons.2 ⟨Jc.is_eq windowA4, ?_⟩
  refine List.forall_mem_cons.2 ⟨Jc.is_eq windowA5, ?_⟩
  refine List.forall_mem_cons.2 ⟨Jc.is_eq windowA6, ?_⟩
  refine List.forall_mem_cons.2 ⟨Jc.is_eq windowA7, ?_⟩
  refine List.forall_mem_cons.2 ⟨Jc.is_eq windowA8, ?_⟩
  refine List.forall_mem_cons.2 ⟨Jc.is_eq windowA9, ?_⟩
  refine List.forall_mem_cons.2 ⟨Jc.is_eq windowA10, ?_⟩
  refine List.forall_mem_cons.2 ⟨Jc.is_eq windowA11, ?_⟩
  refine List.forall_mem_cons.2 ⟨Jc.is_eq windowA12, ?_⟩
  refine List.forall_mem_cons.2 ⟨Jc.is_eq windowA13, ?_⟩
  refine List.forall_mem_cons.2 ⟨Jc.is_eq windowA14, ?_⟩
  refine List.forall_mem_cons.2 ⟨Jc.is_eq windowA15, ?_⟩
  refine List.forall_mem_cons.2 ⟨Jc.is_eq windowA16, ?_⟩
  refine List.forall_mem_cons.2 ⟨Jc.is_eq windowA17, ?_⟩
  refine List.forall_mem_cons.2 ⟨Jc.is_eq windowA18, ?_⟩
  refine List.forall_mem_cons.2 ⟨Jc.is_eq windowA19, ?_⟩
  refine List.forall_mem_cons.2 ⟨Jc.is_eq windowA20, ?_⟩
  refine List.forall_mem_cons.2 ⟨Jc.is_eq windowA21, ?_⟩
  refine List.forall_mem_cons.2 ⟨Jc.is_eq windowA22, ?_⟩
  refine List.forall_mem_cons.2 ⟨Jc.is_eq windowA23, ?_⟩
  refine List.forall_mem_cons.2 ⟨Jc.is_eq windowA24, ?_⟩
  refine List.forall_mem_cons.2 ⟨Jc.is_eq windowA25, ?_⟩
  refine List.forall_mem_cons.2 ⟨Jc.is_eq windowA26, ?_⟩
  refine List.forall_mem_cons.2 ⟨Jc.is_eq windowA27, ?_⟩
  refine List.forall_mem_cons.2 ⟨Jc.is_eq windowA28, ?_⟩
  refine List.forall_mem_cons.2 ⟨Jc.is_eq windowA29, ?_⟩
  refine List.forall_mem_cons.2 ⟨Jc.is_eq windowA30, ?_⟩
  refine List.forall_mem_cons.2 ⟨Jc.is_eq windowA31, ?_⟩
  exact fun w hw => absurd hw List.not_mem_nil

theorem resultA : (horner 0x1a0111ea397fe69a4b1ba7b6434bacd764774b84f38512bf6730d2a0f6b0f6241eabfffeb153ffffb9feffffffffaaab 0x1a0111ea397fe69a4b1ba7b6434bacd764774b84f38512bf6730d2a0f6b0f6241eabfffeb153ffffb9feffffffffaaaa .inf windowsA).is
    0x195f7e0673e9dea380cca06ec41030fef0d87251379a6b46a35073fcff72e576615fc629cbf13481f3bafec261970822
    0x18c2c275b084b5de91359c8acb98bbb383746e093f1ef525c1f38f912b20f707f2a2a0dfdaa119c8a8f6a162bfe4fbd3
    0x115f9c6e533a019f56d63bacc70d959740aaf45234b3f4d62a174c5e662492876a9e79e39e0b49eb1ee456bfb6b89dc9 = true := by decide +kernel

theorem commitmentA {g : List G1}
    (hg : List.Forall₂ (fun n (P : G1) => Spec.EncodesG1 (natToBE 48 n) P) Embedded.g1Parts.flatten g) :
    Spec.EncodesG1 (natToBE 48 0x93efc82d2017e9c57834a1246463e64774e56183bb247c8fc9dd98c56817e878d97b05f5c8d900acf1fbbbca6f146556)
      (Spec.commitment g (Spec.polyOf (coeffsA.flatten.map (Nat.cast : Nat → Fr))) : G1) :=
  commitment_check (m := 0x1a0111ea397fe69a4b1ba7b6434bacd764774b84f38512bf6730d2a0f6b0f6241eabfffeb153ffffb9feffffffffaaaa)
    (y := 0xcde9cb75380d8a346f892dfc6ed97d63ff8fd1247210d178061fd6c7c4f63ab7f13074c199359105fcc527688b29a91) hg coeffsA shapeA smallA
    (by decide +kernel) windowsA windowsA_eq (by decide +kernel) resultA (by decide +kernel) (by decide +kernel)

end Verif.Vectors
