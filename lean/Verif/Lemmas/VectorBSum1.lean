import Verif.Lemmas.VectorBCoeffs

set_option linter.unusedSectionVars false
set_option Elab.async false
set_option maxRecDepth 100000
set_option exponentiation.threshold 100000000

/-! The commitment in test_vectors/blob_to_kzg_commitment/kzg-mainnet/blob_to_kzg_commitment_case_valid_blob_84d8089232bc23a8, part 1: the sums for eight bits of the coefficients -/
namespace Verif.Vectors
open Msm

theorem windowB16 : ((agg 0x1a0111ea397fe69a4b1ba7b6434bacd764774b84f38512bf6730d2a0f6b0f6241eabfffeb153ffffb9feffffffffaaab 0x1a0111ea397fe69a4b1ba7b6434bacd764774b84f38512bf6730d2a0f6b0f6241eabfffeb153ffffb9feffffffffaaaa [127, 126, 125, 124, 123, 122, 121, 120] (zip3s coeffsB Embedded.g1Parts Embedded.g1Ys)).2.is
    0xb73ee9ae940e7d0deae2ba4a273cddd71a61d9c3ed0d425b264a5e1d14c2ab08a27c808b8773018d75259f015803dee
    0x14387196ec2a8702cfe019d0bb28020c3da457ed46d885cc12ef17886d7b120350695a82bed6a2459b745392d95d370c
    0x9a0843e01473cfb7b092e048c366664de4ecf5b7d4ff5c68a441d54e6909529741c64e28bb21cc78b6eb07eff40dcc4) = true := by decide +kernel

theorem windowB17 : ((agg 0x1a0111ea397fe69a4b1ba7b6434bacd764774b84f38512bf6730d2a0f6b0f6241eabfffeb153ffffb9feffffffffaaab 0x1a0111ea397fe69a4b1ba7b6434bacd764774b84f38512bf6730d2a0f6b0f6241eabfffeb153ffffb9feffffffffaaaa [119, 118, 117, 116, 115, 114, 113, 112] (zip3s coeffsB Embedded.g1Parts Embedded.g1Ys)).2.is
    0x3c8deb5e2e95a352bc64f295341a0c9a3315aea59ad828aca46f32773e422242ed79007bfe345a49db54515de1000b0
    0x1710562dc046b5e53c98ec53ac71d250db7fa23467c109c18e1a87373f12f0c6d13252e7f28d15fa576832fba58a7185
    0x4ea673cf518ad7d7e28f44588340db2ce491097422f3b1931fbd2a412780f58e84d6fe186d8d40237e276464641ac12) = true := by decide +kernel

theorem windowB18 : ((agg 0x1a0111ea397fe69a4b1ba7b6434bacd764774b84f38512bf6730d2a0f6b0f6241eabfffeb153ffffb9feffffffffaaab 0x1a0111ea397fe69a4b1ba7b6434bacd764774b84f38512bf6730d2a0f6b0f6241eabfffeb153ffffb9feffffffffaaaa [111, 110, 109, 108, 107, 106, 105, 104] (zip3s coeffsB Embedded.g1Parts Embedded.g1Ys)).2.is
    0x19e1298223222d7e4091ad2d96187921aec2cc23bd43fa429ec9408814dd14d2166cbd1094ccb288281ff365ce131c34
    0xbd2a30fa12a61110399785569d04297b0bc2f2ef62cd53a3f03a39edabe077570b90e1ecfe9be9a390a63cb971ceaa1
    0x1a26bc74e92108bd1be5538cf6d5aee03ff395f2369c8912d9daa8a2dbb8e2aaedc07d680f2825f11f67b9a28d89494) = true := by decide +kernel

theorem windowB19 : ((agg 0x1a0111ea397fe69a4b1ba7b6434bacd764774b84f38512bf6730d2a0f6b0f6241eabfffeb153ffffb9feffffffffaaab 0x1a0111ea397fe69a4b1ba7b6434bacd764774b84f38512bf6730d2a0f6b0f6241eabfffeb153ffffb9feffffffffaaaa [103, 102, 101, 100, 99, 98, 97, 96] (zip3s coeffsB Embedded.g1Parts Embedded.g1Ys)).2.is
    0x3fde8f211b043bc76d5cb2a252b1832e32c821a559073919845bc8667dee9efcc753c65bf22dc62c893604f2b3f7571
    0x17c39a76d5ac163b227ba43b0c2a61457bb3fb99f6c2df027c4258161d05e714ffe7dc795cca62c1d94dc30428fc89d4
    0x4f7432388bae541d547b62788a216833f82cf39843a8a36bce5a70820de25a3bea7a58c83738eb7542ad2b2e754b600) = true := by decide +kernel

theorem windowB20 : ((agg 0x1a0111ea397fe69a4b1ba7b6434bacd764774b84f38512bf6730d2a0f6b0f6241eabfffeb153ffffb9feffffffffaaab 0x1a0111ea397fe69a4b1ba7b6434bacd764774b84f38512bf6730d2a0f6b0f6241eabfffeb153ffffb9feffffffffaaaa [95, 94, 93, 92, 91, 90, 89, 88] (zip3s coeffsB Embedded.g1Parts Embedded.g1Ys)).2.is
    0x2c93b5ef095cba7166ce8b034a67f790d1870b17d6c670e022d2f5e8fd75855f255dd445228f174e94342eb66d69a7b
    0x163cb326ffaa698eca3934dac347e9c112c75477a4c18531c4b279164d8355495921122ebfdcd8fae6c1d4a9d7a96dfa
    0x74005fbf4cbc8cea5a048ddfc6cef0ffdd3c2f0f08765f5df31e04195ec032116c796e9bb5b7deb1fa42a306e7f3157) = true := by decide +kernel

theorem windowB21 : ((agg 0x1a0111ea397fe69a4b1ba7b6434bacd764774b84f38512bf6730d2a0f6b0f6241eabfffeb153ffffb9feffffffffaaab 0x1a0111ea397fe69a4b1ba7b6434bacd764774b84f38512bf6730d2a0f6b0f6241eabfffeb153ffffb9feffffffffaaaa [87, 86, 85, 84, 83, 82, 81, 80] (zip3s coeffsB Embedded.g1Parts Embedded.g1Ys)).2.is
    0x1852f625a806a6f33f7ddd69be610556b39eb126a3e98bebdedfe63417d005171bc4fce18de9cfef26fee8a54816e122
    0x2b79c589aa7712589c407832f62f9af96e7a2a07385853c54df1c52839e9a8d76f8e5f39aacd3f33eb46f2a315eb342
    0xabb6cc80a68a7a283b14101e4637c076e05d4cc425b77bd3f4b6dfd0411a44a16e046ff9d5255851e7be370f051be56) = true := by decide +kernel

theorem windowB22 : ((agg 0x1a0111ea397fe69a4b1ba7b6434bacd764774b84f38512bf6730d2a0f6b0f6241eabfffeb153ffffb9feffffffffaaab 0x1a0111ea397fe69a4b1ba7b6434bacd764774b84f38512bf6730d2a0f6b0f6241eabfffeb153ffffb9feffffffffaaaa [79, 78, 77, 76, 75, 74, 73, 72] (zip3s coeffsB Embedded.g1Parts Embedded.g1Ys)).2.is
    0x344d17572ed414d17cef93b9c5f656e58f58a0e5ce72f8654b5569bac20dbb0a6ce305e50cc83dab4f7d7787e6f0676
    0x68d18e42a6d3654eb1fba23ae0ccb27b3a37068fad731d3aa1c533092b7623f2abc35183b40537497753654a151b94f
    0x11f79a3efcb4ce37e509be96dc6161c2dbf54069424ace3ebfadffa0e9590858cbe040af76efa1cb73f17a461f600e43) = true := by decide +kernel

theorem windowB23 : ((agg 0x1a0111ea397fe69a4b1ba7b6434bacd764774b84f38512bf6730d2a0f6b0f6241eabfffeb153ffffb9feffffffffaaab 0x1a0111ea397fe69a4b1ba7b6434bacd764774b84f38512bf6730d2a0f6b0f6241eabfffeb153ffffb9feffffffffaaaa [71, 70, 69, 68, 67, 66, 65, 64] (zip3s coeffsB Embedded.g1Parts Embedded.g1Ys)).2.is
    0xb7171a3c3f8fc8a2b783cab6b0f328627de3c10485d76aef6c2f55bccde49864ee3f0fb81f7fc9816fa2ceffa598298
    0x194df161b4c48fadce955c0663cc0939e4fca6d19f6c9a272d037448d8f1ffa6204cf30950d5e10ccbd1e49f50aa4961
    0x97179213bd0e1506b7e7f118f611e5d07a33df4b86bfbb2a19e981198e6c5f6260e3d5751f1d507fbfe0077e8b893f3) = true := by decide +kernel

theorem windowB24 : ((agg 0x1a0111ea397fe69a4b1ba7b6434bacd764774b84f38512bf6730d2a0f6b0f6241eabfffeb153ffffb9feffffffffaaab 0x1a0111ea397fe69a4b1ba7b6434bacd764774b84f38512bf6730d2a0f6b0f6241eabfffeb153ffffb9feffffffffaaaa [63, 62, 61, 60, 59, 58, 57, 56] (zip3s coeffsB Embedded.g1Parts Embedded.g1Ys)).2.is
    0x7600b32354b957c9bc7e5a5812b67d2e5a1437e95e926be3f0ef6e913b09b25f0c996f477995d8712fd9cc2135751f1
    0x77b27977138e0557027159471109975263d5b28e32c9d1d8bfe59cad0f1eaa6e4b57e98df0feca402de5e6c32aa9d10
    0xe20c94c0c0be50ab3c00ed62a3c45bef613ebc6c56c2bd0a970e1d39645e2542137208938b75104269ba2077593df4d) = true := by decide +kernel

theorem windowB25 : ((agg 0x1a0111ea397fe69a4b1ba7b6434bacd764774b84f38512bf6730d2a0f6b0f6241eabfffeb153ffffb9feffffffffaaab 0x1a0111ea397fe69a4b1ba7b6434bacd764774b84f38512bf6730d2a0f6b0f6241eabfffeb153ffffb9feffffffffaaaa [55, 54, 53, 52, 51, 50, 49, 48] (zip3s coeffsB Embedded.g1Parts Embedded.g1Ys)).2.is
    0x18252c5c4d8b816ceac52b2543e7b8d4b25d59d45e0d6574aa27ba467d1b0242734767973ac6bb836e2b7c211f6fd4bd
    0x593313547dba2e77ad22208c7eda636b6d23fef2b48eb18ce4d2e1230fcb041fc20b03f67781f523eb21b619daaf837
    0xeda1ca1f33a5f7abb509304d4499565140fb7b64de9987e14e6425aaf66b386b3f486a9b49a07d642d6c0fdcaa8c44) = true := by decide +kernel

theorem windowB26 : ((agg 0x1a0111ea397fe69a4b1ba7b6434bacd764774b84f38512bf6730d2a0f6b0f6241eabfffeb153ffffb9feffffffffaaab 0x1a0111ea397fe69a4b1ba7b6434bacd764774b84f38512bf6730d2a0f6b0f6241eabfffeb153ffffb9feffffffffaaaa [47, 46, 45, 44, 43, 42, 41, 40] (zip3s coeffsB Embedded.g1Parts Embedded.g1Ys)).2.is
    0x14f3f66f6522e0baebeb21d3d871791e462b56db71b6ddc5eff716b70838f5af4c56a1d5298c88e6b42fcc8490d0d507
    0xdec273b9eb0444e35bab906105b43d409ce65dc943eb9d8da72fce46bfc3c025c9b92fc258cf7dbfc9f4225e24dfa60
    0x4b704c311019c048fa37d7ccde3a4b619867c1658054219a38fcd6ae846061980debe2d5487a4d64573334989436294) = true := by decide +kernel

theorem windowB27 : ((agg 0x1a0111ea397fe69a4b1ba7b6434bacd764774b84f38512bf6730d2a0f6b0f6241eabfffeb153ffffb9feffffffffaaab 0x1a0111ea397fe69a4b1ba7b6434bacd764774b84f38512bf6730d2a0f6b0f6241eabfffeb153ffffb9feffffffffaaaa [39, 38, 37, 36, 35, 34, 33, 32] (zip3s coeffsB Embedded.g1Parts Embedded.g1Ys)).2.is
    0x155e45326ffc2968a9510bbc964e51b82f3cf67c12962df9723336f5b25019e9f7cf25fbdf162c17592920bc63235cad
    0x1852a1d58bca63a6a2f56de84f046f1987ef34164dd257ee66c48004f20449ae306c40c6802814128f015a48fa00ee4b
    0x10caaa9b0537c05ace76ca76dde58ecc776fe861731935574a7bd79d64f8608a33782c203df6e23fdeb9b61e6097d384) = true := by decide +kernel

theorem windowB28 : ((agg 0x1a0111ea397fe69a4b1ba7b6434bacd764774b84f38512bf6730d2a0f6b0f6241eabfffeb153ffffb9feffffffffaaab 0x1a0111ea397fe69a4b1ba7b6434bacd764774b84f38512bf6730d2a0f6b0f6241eabfffeb153ffffb9feffffffffaaaa [31, 30, 29, 28, 27, 26, 25, 24] (zip3s coeffsB Embedded.g1Parts Embedded.g1Ys)).2.is
    0x16306a665b3b82629af57e92c7e63610ca16eb98ae596e581a5f0598dab4d33af5b565855b203280999f8097f7084b75
    0x1137ce4001d22aba6c9ce5199e69e2beaab5654541b32190cd05092ef45132b32b2b06d11e6cb400425fb5e48bc7f010
    0x13e4aff58012e0bcce6fe329cf9b2a3922298be7450105b493017a1ba81643650dbee85813a25a6bd3275861eab9dcff) = true := by decide +kernel

theorem windowB29 : ((agg 0x1a0111ea397fe69a4b1ba7b6434bacd764774b84f38512bf6730d2a0f6b0f6241eabfffeb153ffffb9feffffffffaaab 0x1a0111ea397fe69a4b1ba7b6434bacd764774b84f38512bf6730d2a0f6b0f6241eabfffeb153ffffb9feffffffffaaaa [23, 22, 21, 20, 19, 18, 17, 16] (zip3s coeffsB Embedded.g1Parts Embedded.g1Ys)).2.is
    0xeee27b8571ff1f6f17f9500d7c2ee5bb4eed48a920e9a03afe7f56c23e0fd0a5456bba6ea1a71a6df9d02ead807f5cc
    0x722282c75a249200c5856825e770ce2f2c4825c586527de7e64f3392aa2843c87592e3751b7592bf239419b7b3b364d
    0x178463bd0cb126b4be60bdb3402dca7030148195b3dea75e4d506f053bd443a67b28ae01911f0cd4a4db3b1e3aa501e8) = true := by decide +kernel

theorem windowB30 : ((agg 0x1a0111ea397fe69a4b1ba7b6434bacd764774b84f38512bf6730d2a0f6b0f6241eabfffeb153ffffb9feffffffffaaab 0x1a0111ea397fe69a4b1ba7b6434bacd764774b84f38512bf6730d2a0f6b0f6241eabfffeb153ffffb9feffffffffaaaa [15, 14, 13, 12, 11, 10, 9, 8] (zip3s coeffsB Embedded.g1Parts Embedded.g1Ys)).2.is
    0x2b9ea7689282667aa199ae9d95813812fd7a9c8bd57f71b9226d080c982b0c95df4319436283b964c612cfc1eabd2ee
    0x19f4cff54045e98ad04a611fb231829d6068a80810555a1e3a824b154b764d4595dafae89ff691a56b6e48c86638e2d4
    0x307589c734b4b8dd68265306d2f1f98ca21ca3c324ed4f4ec2313ea5a1c6f33bae3154b7f44c18234a0447f7233f8f8) = true := by decide +kernel

theorem windowB31 : ((agg 0x1a0111ea397fe69a4b1ba7b6434bacd764774b84f38512bf6730d2a0f6b0f6241eabfffeb153ffffb9feffffffffaaab 0x1a0111ea397fe69a4b1ba7b6434bacd764774b84f38512bf6730d2a0f6b0f6241eabfffeb153ffffb9feffffffffaaaa [7, 6, 5, 4, 3, 2, 1, 0] (zip3s coeffsB Embedded.g1Parts Embedded.g1Ys)).2.is
    0x41085313ed041edf4f9711f5ab648a4c79d897bd3e9447802edf0396b84ef738eb2aef696a0c41adcf9057a402c0fd4
    0xc627edf04e25f8c819d07d3787321ee8a3542b0e658fb8bc50de84478f30a4f6abfed625577244badeed32dcc3a0758
    0x18359e8b90e7a9a2662d0d3810f7930dc6a7fd1211499cae7f5449ec14f5ab8d8f508be18652b4e515ccb658181af945) = true := by decide +kernel

end Verif.Vectors
