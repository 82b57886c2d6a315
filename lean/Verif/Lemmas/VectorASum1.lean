import Verif.Lemmas.VectorACoeffs

set_option linter.unusedSectionVars false
set_option Elab.async false
set_option maxRecDepth 100000
set_option exponentiation.threshold 100000000

/-! The commitment in test_vectors/blob_to_kzg_commitment/kzg-mainnet/blob_to_kzg_commitment_case_valid_blob_19b3f3f8c98ea31e, part 1: the sums for eight bits of the coefficients -/
namespace Verif.Vectors
open Msm

theorem windowA16 : ((agg 0x1a0111ea397fe69a4b1ba7b6434bacd764774b84f38512bf6730d2a0f6b0f6241eabfffeb153ffffb9feffffffffaaab 0x1a0111ea397fe69a4b1ba7b6434bacd764774b84f38512bf6730d2a0f6b0f6241eabfffeb153ffffb9feffffffffaaaa [127, 126, 125, 124, 123, 122, 121, 120] (zip3s coeffsA Embedded.g1Parts Embedded.g1Ys)).2.is
    0x19a262f9d9c8e3ebe337326239323e550f259f95627cbce508f2f925b26ea4ccfde92e6345a7a58e2c119f81268645a6
    0x387cb2ca8fd35fa428921af5bb7d1e9e7a76cbc1385abb8c2bf983843da479b95c4cfe553202258d1d672f4b2c82ce0
    0x3ab7e121d7fddc309797ae4ada8ab9547766cadba97595a0bf3679aed25d895cf9dda40addb8edb7ce01a8c6125cec) = true := by decide +kernel

theorem windowA17 : ((agg 0x1a0111ea397fe69a4b1ba7b6434bacd764774b84f38512bf6730d2a0f6b0f6241eabfffeb153ffffb9feffffffffaaab 0x1a0111ea397fe69a4b1ba7b6434bacd764774b84f38512bf6730d2a0f6b0f6241eabfffeb153ffffb9feffffffffaaaa [119, 118, 117, 116, 115, 114, 113, 112] (zip3s coeffsA Embedded.g1Parts Embedded.g1Ys)).2.is
    0xdbc3673df50481907d757837ec26ac26504b15b4404082f5377fbe34c37bf932d5db0e8a0d28b80ff0dac4fc081f1fe
    0x131435f14397a3884ea30afbc5d08ea1bfd349a1e52d9ea3473eae8e589ae4ad850a32c8ae2f96b091ae5c01eed7f9e4
    0x3ee67e0e9bc025f8c0dfa1e88071f6bd43df0a32d89247fb986e4071d0c2c5484b99a1210872658131c5e56e6edc31e) = true := by decide +kernel

theorem windowA18 : ((agg 0x1a0111ea397fe69a4b1ba7b6434bacd764774b84f38512bf6730d2a0f6b0f6241eabfffeb153ffffb9feffffffffaaab 0x1a0111ea397fe69a4b1ba7b6434bacd764774b84f38512bf6730d2a0f6b0f6241eabfffeb153ffffb9feffffffffaaaa [111, 110, 109, 108, 107, 106, 105, 104] (zip3s coeffsA Embedded.g1Parts Embedded.g1Ys)).2.is
    0xcbb6353b0910b03e68fbd124060f51913b5442f7d1a06a2bb672901798ddc74ee4dfe19976131349c16732b339afbbb
    0x194d4d75914201a5388264113fa1a4194ae6d1016d7372de38460278069395f46570436fc1cd9b60b155fa64d2818b42
    0x1f7aa89a7d485f05fad70c122dd0485c1ac4738698ce1880b9f5853d52985d7314dab0720372c3aa38e9221f1749b05) = true := by decide +kernel

theorem windowA19 : ((agg 0x1a0111ea397fe69a4b1ba7b6434bacd764774b84f38512bf6730d2a0f6b0f6241eabfffeb153ffffb9feffffffffaaab 0x1a0111ea397fe69a4b1ba7b6434bacd764774b84f38512bf6730d2a0f6b0f6241eabfffeb153ffffb9feffffffffaaaa [103, 102, 101, 100, 99, 98, 97, 96] (zip3s coeffsA Embedded.g1Parts Embedded.g1Ys)).2.is
    0x57096363e7f3e7c5a5a87229fbca79b47f425e38357655d05757f5cac028322cb284ce328bda276ae878b738795334f
    0xed929591a17e05c7dd29f7a2ef6031851497c609d1b2942fdbabb6d2445be4cb8e227603eae851bc74591cea2360af6
    0xdf899655132c03f243fd9060edec11b53e636a9978af6c4847461aa8fb9cafcbcb47100c26bcc26b302ca2e78191a2c) = true := by decide +kernel

theorem windowA20 : ((agg 0x1a0111ea397fe69a4b1ba7b6434bacd764774b84f38512bf6730d2a0f6b0f6241eabfffeb153ffffb9feffffffffaaab 0x1a0111ea397fe69a4b1ba7b6434bacd764774b84f38512bf6730d2a0f6b0f6241eabfffeb153ffffb9feffffffffaaaa [95, 94, 93, 92, 91, 90, 89, 88] (zip3s coeffsA Embedded.g1Parts Embedded.g1Ys)).2.is
    0x1602ac44ae2bcea5d7f788e2d51ec0b33ffbd3e0422579cb76130cc368108ca456ddbe3371d6b61115ba41871a8d3e3c
    0x14321ab4a4942b325d6755ac6295dacd2f427df2f1bff371cbea41db11c6900c0f46d96d4b6c82f187f9ff2eb521ff24
    0x289f3086e06ed6467e3ecb01fb0b00eb75d4ce5815bd61d07c88cd3ab210d88e28049df0790438d95f568c28b812c3e) = true := by decide +kernel

theorem windowA21 : ((agg 0x1a0111ea397fe69a4b1ba7b6434bacd764774b84f38512bf6730d2a0f6b0f6241eabfffeb153ffffb9feffffffffaaab 0x1a0111ea397fe69a4b1ba7b6434bacd764774b84f38512bf6730d2a0f6b0f6241eabfffeb153ffffb9feffffffffaaaa [87, 86, 85, 84, 83, 82, 81, 80] (zip3s coeffsA Embedded.g1Parts Embedded.g1Ys)).2.is
    0x505a1e69e4b6e6e1aa84bf16a802fa040c03c180558dfe32a30eb2b5b3d258c768f793d5bc9ff2aed27ba35760cd63d
    0x1a39f0be5497ee9f55562a381d73ce780ffc37f7f94c29bf3589e62dfd417f02e3fb6b68e62804fcc34892041e20af5
    0xb42419bf7cd6a6882cdc0a2e5a58ccfa9c36ac41f52dbc071dff67b93ae3bc462345d14d78aee416fdbda080b9ea6a7) = true := by decide +kernel

theorem windowA22 : ((agg 0x1a0111ea397fe69a4b1ba7b6434bacd764774b84f38512bf6730d2a0f6b0f6241eabfffeb153ffffb9feffffffffaaab 0x1a0111ea397fe69a4b1ba7b6434bacd764774b84f38512bf6730d2a0f6b0f6241eabfffeb153ffffb9feffffffffaaaa [79, 78, 77, 76, 75, 74, 73, 72] (zip3s coeffsA Embedded.g1Parts Embedded.g1Ys)).2.is
    0x233fa9c74c09ea1e38f37e3546e9dab3937c6e2ebb975f3377e103b2d5eacdb2e3ff28b6c5d8853251405189fc70649
    0x154bc6a705f8108bc26dfa245e35e7a799724dbd0c7ff73a89909d26a54ddd55936a90aaa2b6af0cecf4def41da647c6
    0xecf8ee47d3a86656b484368184dd3da5f28c1b090e3007fdb63a184fbe6e762324c47f73d171819c73d7e176b07b82e) = true := by decide +kernel

theorem windowA23 : ((agg 0x1a0111ea397fe69a4b1ba7b6434bacd764774b84f38512bf6730d2a0f6b0f6241eabfffeb153ffffb9feffffffffaaab 0x1a0111ea397fe69a4b1ba7b6434bacd764774b84f38512bf6730d2a0f6b0f6241eabfffeb153ffffb9feffffffffaaaa [71, 70, 69, 68, 67, 66, 65, 64] (zip3s coeffsA Embedded.g1Parts Embedded.g1Ys)).2.is
    0xe01e2f1ea9d7eb5ffd3ed1815a29fa7ac6a7a0437b7d7d6aea16527076cf57d492e66d931ef04f6e9e9992c6a91a4dc
    0x4baef89180ad68c5057bc1158b07eeb692a124c38c8b5de3c4a57695cd07d01cd812d671a641716e2fdd030ddeb4ced
    0x13516d6bb0f6e9b0091e4eda827859f887b27f004b65bb3b38f6c9e6427ac70771463999842c32dd508ec4b1cbb8c8b1) = true := by decide +kernel

theorem windowA24 : ((agg 0x1a0111ea397fe69a4b1ba7b6434bacd764774b84f38512bf6730d2a0f6b0f6241eabfffeb153ffffb9feffffffffaaab 0x1a0111ea397fe69a4b1ba7b6434bacd764774b84f38512bf6730d2a0f6b0f6241eabfffeb153ffffb9feffffffffaaaa [63, 62, 61, 60, 59, 58, 57, 56] (zip3s coeffsA Embedded.g1Parts Embedded.g1Ys)).2.is
    0xc9e4745c628c34d3f565a09458b21fcd77cd3cf4f33345c73529b58558002e8e0e99045415fb35b2aafc73927761b81
    0x117ef8066f1c7fbe61099303a6492c161430ceff55f8190453a93536dbea9bd67898bb06e7d228260a1dfaf40acdc986
    0x6d6504955132295ad870b085fe98e2e3d208032f6b3eda2617fe6e585abcf76ba065100835a11b3fc18bd6ddd6dc8aa) = true := by decide +kernel

theorem windowA25 : ((agg 0x1a0111ea397fe69a4b1ba7b6434bacd764774b84f38512bf6730d2a0f6b0f6241eabfffeb153ffffb9feffffffffaaab 0x1a0111ea397fe69a4b1ba7b6434bacd764774b84f38512bf6730d2a0f6b0f6241eabfffeb153ffffb9feffffffffaaaa [55, 54, 53, 52, 51, 50, 49, 48] (zip3s coeffsA Embedded.g1Parts Embedded.g1Ys)).2.is
    0xcbf80b701091d21f680e8117b70c994b47b8be504ca497f4d806f927369db8a27d5234d42d8732235a3e6e3419aee01
    0x1870c75a95a12b05e1fb8de4df588405d3665c7a103f45a72ad92961231292b8d3f926da8af1fb978d3ff4f558866cbb
    0x525b88048ea0e0473c74ddd12bfb0d2cc2ec0f5a3c52ca807fcdf68fe6d170697a2cc607c4d96623edb4db9dfab789) = true := by decide +kernel

theorem windowA26 : ((agg 0x1a0111ea397fe69a4b1ba7b6434bacd764774b84f38512bf6730d2a0f6b0f6241eabfffeb153ffffb9feffffffffaaab 0x1a0111ea397fe69a4b1ba7b6434bacd764774b84f38512bf6730d2a0f6b0f6241eabfffeb153ffffb9feffffffffaaaa [47, 46, 45, 44, 43, 42, 41, 40] (zip3s coeffsA Embedded.g1Parts Embedded.g1Ys)).2.is
    0xb9c445eb0e5c3721133786522ef9ba190933adc411606ee6ef285cfb1f205496d78504f2687d2d58da3777126b5e1d3
    0x16b86a5d6886fa337096888fd876bd54886a010db8cae464ff16f9d2b25ce574db6c74c55147e2b8fed893cbbfb72a32
    0xcca64110afd34fdd6c1ce7b01ddbcc167329d1ed1263181b6b583e8f63fdd06bf11c639edf8e4695a8ecb4ee718d695) = true := by decide +kernel

theorem windowA27 : ((agg 0x1a0111ea397fe69a4b1ba7b6434bacd764774b84f38512bf6730d2a0f6b0f6241eabfffeb153ffffb9feffffffffaaab 0x1a0111ea397fe69a4b1ba7b6434bacd764774b84f38512bf6730d2a0f6b0f6241eabfffeb153ffffb9feffffffffaaaa [39, 38, 37, 36, 35, 34, 33, 32] (zip3s coeffsA Embedded.g1Parts Embedded.g1Ys)).2.is
    0x12bf1cc27f10513e0841ef3168849a7b7eb21ac123739455104e0ac554d603358afee0bef81b7326adbff981b482c22e
    0x10d87a1cc72eeb0b5703fcb2e830b4fc9024b6569b817a5b317b95fb5e8a26de4cee6e639012cac8f1c244439a5ba7b8
    0x182e13203ac4745bf68c4fe427f6022de36f0e8542206bc7f325cd3627c224c560ece876f6af0d8c2c4e5ea1e4a75e77) = true := by decide +kernel

theorem windowA28 : ((agg 0x1a0111ea397fe69a4b1ba7b6434bacd764774b84f38512bf6730d2a0f6b0f6241eabfffeb153ffffb9feffffffffaaab 0x1a0111ea397fe69a4b1ba7b6434bacd764774b84f38512bf6730d2a0f6b0f6241eabfffeb153ffffb9feffffffffaaaa [31, 30, 29, 28, 27, 26, 25, 24] (zip3s coeffsA Embedded.g1Parts Embedded.g1Ys)).2.is
    0x123b909422ce52e64a8a09055ebb047df9a5b67e7cb6487f707dc7ede2943647ede1f79dff35ad824b654ee0c2952ff8
    0xef7b580f874a07b79b364c0a4c75a53b82916e19b4ca2ddbefc360415aff4b56b64db4d238d496bb2fde13984eccd27
    0x1520f7c9fd61f8e72a0c74f11ceb3371fecdee21da8963fb26f0543a6607b7e9cbc7ed957e841b4a879592201abb730c) = true := by decide +kernel

theorem windowA29 : ((agg 0x1a0111ea397fe69a4b1ba7b6434bacd764774b84f38512bf6730d2a0f6b0f6241eabfffeb153ffffb9feffffffffaaab 0x1a0111ea397fe69a4b1ba7b6434bacd764774b84f38512bf6730d2a0f6b0f6241eabfffeb153ffffb9feffffffffaaaa [23, 22, 21, 20, 19, 18, 17, 16] (zip3s coeffsA Embedded.g1Parts Embedded.g1Ys)).2.is
    0x4ccce3491a831fa7e06d8475a086777785877e05c4970074a81c70b36b7298e8af9786a7b56c9da61c5ceca44725d83
    0x608333f952c9e1b43b48975d857b36be15cdaf478373dfb4abb0fb8ff409acfd5e8e2748afbada0b0f2465bc3280c7c
    0x7adff312a73b103ef44108503c4ab3489bb639ff5ff5d04ff96aca30d4d72a3ff159b59c4ef45d54b224d3f2bd28987) = true := by decide +kernel

theorem windowA30 : ((agg 0x1a0111ea397fe69a4b1ba7b6434bacd764774b84f38512bf6730d2a0f6b0f6241eabfffeb153ffffb9feffffffffaaab 0x1a0111ea397fe69a4b1ba7b6434bacd764774b84f38512bf6730d2a0f6b0f6241eabfffeb153ffffb9feffffffffaaaa [15, 14, 13, 12, 11, 10, 9, 8] (zip3s coeffsA Embedded.g1Parts Embedded.g1Ys)).2.is
    0x193a0cdbd631f0f06bc2f311467229a57ff1a5827761ecf1f65b4cf0871184fbe81495cacab7427ff1d80d078dbe4f1b
    0xd36be6bd10dde404a9d5712af0f50beb898f8a2fda2d6d2fc5d5a2f4ad27c22fe184b6273545761b94dcc6012cdaf8f
    0x22ae4bd4548b11a1292dbc20ef4b832a1dfa6044787e324b30350709e55bba5359752343783ace8c37d5ac6bb2eaad2) = true := by decide +kernel

theorem windowA31 : ((agg 0x1a0111ea397fe69a4b1ba7b6434bacd764774b84f38512bf6730d2a0f6b0f6241eabfffeb153ffffb9feffffffffaaab 0x1a0111ea397fe69a4b1ba7b6434bacd764774b84f38512bf6730d2a0f6b0f6241eabfffeb153ffffb9feffffffffaaaa [7, 6, 5, 4, 3, 2, 1, 0] (zip3s coeffsA Embedded.g1Parts Embedded.g1Ys)).2.is
    0xf84b72bcea8343b8e3f67737ae18f6564f7eb616fdb934cc44e2c3e1d4af0734316f3ce276533b213300818dfb6f3ea
    0x15e89d4bd4f62fbe6fa5d9d58e98eaab15d0e41ddfca91446294cfb4f38378910f872ea3e610bc6e494ebe0828bf7af2
    0x6477f721bebc2c4994858ee235a943ee2d6ca44d8ab5c0bf2d2d9fb418e9b2bf1aa4e4edb179574a94274d5834abff1) = true := by decide +kernel

end Verif.Vectors
