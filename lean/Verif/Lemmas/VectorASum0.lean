import Verif.Lemmas.VectorACoeffs

set_option linter.unusedSectionVars false
set_option Elab.async false
set_option maxRecDepth 100000
set_option exponentiation.threshold 100000000

/-! The commitment in test_vectors/blob_to_kzg_commitment/kzg-mainnet/blob_to_kzg_commitment_case_valid_blob_19b3f3f8c98ea31e, part 0: the sums for eight bits of the coefficients -/
namespace Verif.Vectors
open Msm

theorem windowA0 : ((agg 0x1a0111ea397fe69a4b1ba7b6434bacd764774b84f38512bf6730d2a0f6b0f6241eabfffeb153ffffb9feffffffffaaab 0x1a0111ea397fe69a4b1ba7b6434bacd764774b84f38512bf6730d2a0f6b0f6241eabfffeb153ffffb9feffffffffaaaa [255, 254, 253, 252, 251, 250, 249, 248] (zip3s coeffsA Embedded.g1Parts Embedded.g1Ys)).2.is
    0x16ec5132cb7a1e241ee803acdc16a23b6b04c42787054474e545f05a6014e09e34c19ae748d7ae0658bf034929c560e9
    0x1091c37e82ed69a868071107b11abf2e877ed79d7226c4915d93cdda485a034968d6921e35fc8eaf062ecb8ddb42e05c
    0xad5e1798f273b091dd466abeba482792de6b90b84454c29280c703d4b5141b7ec20009ce1deaed3cd14073990e0768d) = true := by decide +kernel

theorem windowA1 : ((agg 0x1a0111ea397fe69a4b1ba7b6434bacd764774b84f38512bf6730d2a0f6b0f6241eabfffeb153ffffb9feffffffffaaab 0x1a0111ea397fe69a4b1ba7b6434bacd764774b84f38512bf6730d2a0f6b0f6241eabfffeb153ffffb9feffffffffaaaa [247, 246, 245, 244, 243, 242, 241, 240] (zip3s coeffsA Embedded.g1Parts Embedded.g1Ys)).2.is
    0x37768fca3d19fd0664bc23cdb352f1729c16106effa9a7afa6f064c21e12b158a6b93023a5b16c9d36b746d22b1420c
    0x11209aaf325fdf0f855c5a552f7481191612614c87a826b3fbb4550fb79a1ebba4eceb13ae9cbe82c1823b13aaad9420
    0x599ec4bf37d3df90b3c526cd236c452b8b805f6626a5bbc1c8b403b475764ae97f311908e99409559c0ff3076d9c711) = true := by decide +kernel

theorem windowA2 : ((agg 0x1a0111ea397fe69a4b1ba7b6434bacd764774b84f38512bf6730d2a0f6b0f6241eabfffeb153ffffb9feffffffffaaab 0x1a0111ea397fe69a4b1ba7b6434bacd764774b84f38512bf6730d2a0f6b0f6241eabfffeb153ffffb9feffffffffaaaa [239, 238, 237, 236, 235, 234, 233, 232] (zip3s coeffsA Embedded.g1Parts Embedded.g1Ys)).2.is
    0x3e77d6a6897b3432ae07b2917cb5eaa8121453322bcb24a1ac599b559aba332fbbc7690c493874f68d787a0e12fb492
    0x14d103c816099d09dabc1e040b1a2aa877c3af65c254eed6776ee17c5d10ef9a81231812e641081d9fa5619f7347b6a8
    0x17443fb71f70ce057151873eac2cf95fce69358cd9f402c3f421f5dc6abe3b5c2239357183cf1cbcd966cba11d523f3) = true := by decide +kernel

theorem windowA3 : ((agg 0x1a0111ea397fe69a4b1ba7b6434bacd764774b84f38512bf6730d2a0f6b0f6241eabfffeb153ffffb9feffffffffaaab 0x1a0111ea397fe69a4b1ba7b6434bacd764774b84f38512bf6730d2a0f6b0f6241eabfffeb153ffffb9feffffffffaaaa [231, 230, 229, 228, 227, 226, 225, 224] (zip3s coeffsA Embedded.g1Parts Embedded.g1Ys)).2.is
    0xd01e1bb50283165ec0d8112f6b1c7bb8e533ec72e44a5a1652c06b5a6624a8cee1e0ba2e2b447cae47ea6caaba5ff2c
    0x1409e7617d4bb46c8eadc3d086ec4a17851e9033231fd1c5d2ce2d742ac8e5cc3d971d8cde57c9556f125470a6478e3e
    0x9bfb05b5409fceaf6b89e3197ac7714cd6a053ec5d7e2fe748287c70f1590c4ddf696adc9f82dfd9b227a37dd2fd92f) = true := by decide +kernel

theorem windowA4 : ((agg 0x1a0111ea397fe69a4b1ba7b6434bacd764774b84f38512bf6730d2a0f6b0f6241eabfffeb153ffffb9feffffffffaaab 0x1a0111ea397fe69a4b1ba7b6434bacd764774b84f38512bf6730d2a0f6b0f6241eabfffeb153ffffb9feffffffffaaaa [223, 222, 221, 220, 219, 218, 217, 216] (zip3s coeffsA Embedded.g1Parts Embedded.g1Ys)).2.is
    0x829dce67fd322a855fa0253c6b7c521abf77cd00240ff7519b50a730beb42ca9c7230e0f52b9704b8995f7b45510a56
    0x106cf6e50ecf96c053d9f68cdbf3f84b78e27d27ea535fe264c35f7084730c7d15981adf4a967c64d4affe0d88cbab42
    0x33b8751e1d2993ff56b506ac8b1e47b95c698f3eb0a5d68516116fc957c506baf1260e281dad2744181c151537f7070) = true := by decide +kernel

theorem windowA5 : ((agg 0x1a0111ea397fe69a4b1ba7b6434bacd764774b84f38512bf6730d2a0f6b0f6241eabfffeb153ffffb9feffffffffaaab 0x1a0111ea397fe69a4b1ba7b6434bacd764774b84f38512bf6730d2a0f6b0f6241eabfffeb153ffffb9feffffffffaaaa [215, 214, 213, 212, 211, 210, 209, 208] (zip3s coeffsA Embedded.g1Parts Embedded.g1Ys)).2.is
    0xd3a28deb4a6d82928884ffafbbaab8ee5fe857d6645fe6e4591e805f04f1228d34e04e50a24451f2b88900b4ec9c8a
    0xed801fbbf9ae3b42997780f82d29610ceb056e0801f6c1ec5bcb830f443d3eb8236a5009816d88ccfaad3da7c317c5c
    0x2078ac99ae73a1a36ca69334422a30dff4c08c399f7798af5f406a96e69e8f60827fc4d46a82e453066136ce585bea5) = true := by decide +kernel

theorem windowA6 : ((agg 0x1a0111ea397fe69a4b1ba7b6434bacd764774b84f38512bf6730d2a0f6b0f6241eabfffeb153ffffb9feffffffffaaab 0x1a0111ea397fe69a4b1ba7b6434bacd764774b84f38512bf6730d2a0f6b0f6241eabfffeb153ffffb9feffffffffaaaa [207, 206, 205, 204, 203, 202, 201, 200] (zip3s coeffsA Embedded.g1Parts Embedded.g1Ys)).2.is
    0xe2d6b8558da030cfe639080ea991c7117b093ed4ba569a5c24855cafd66068c4e2743257998a657a5928700253a50c5
    0xc257f780ba765c016ff5e87df89e906f795bf5a6d266042ea7bc73ef6384180ed365bcaea13872798918008f45da8bc
    0xb5f35789df33860767b1d9e00de5d70ade87fbd7137a9a9ccad1ce27b382763044b809bdc2046fb3ef23bcde68569b0) = true := by decide +kernel

theorem windowA7 : ((agg 0x1a0111ea397fe69a4b1ba7b6434bacd764774b84f38512bf6730d2a0f6b0f6241eabfffeb153ffffb9feffffffffaaab 0x1a0111ea397fe69a4b1ba7b6434bacd764774b84f38512bf6730d2a0f6b0f6241eabfffeb153ffffb9feffffffffaaaa [199, 198, 197, 196, 195, 194, 193, 192] (zip3s coeffsA Embedded.g1Parts Embedded.g1Ys)).2.is
    0xa7576535c6f7ca453c033596f740972b0d2b83375050cad49f79f3e34931b0c2616aa8fd82c29dc8751fbf7e0242e30
    0xe44dbb5543f682aa28dfbd982192efa74df774b723577805805099a141dd9aa14315d56739ae1807e8d333145cb7fcf
    0xb14b17427c410226570877834a62d59acf653b9a29bee72aea0307047910eb4e095d1560e6822ce22ecf748c34cd44c) = true := by decide +kernel

theorem windowA8 : ((agg 0x1a0111ea397fe69a4b1ba7b6434bacd764774b84f38512bf6730d2a0f6b0f6241eabfffeb153ffffb9feffffffffaaab 0x1a0111ea397fe69a4b1ba7b6434bacd764774b84f38512bf6730d2a0f6b0f6241eabfffeb153ffffb9feffffffffaaaa [191, 190, 189, 188, 187, 186, 185, 184] (zip3s coeffsA Embedded.g1Parts Embedded.g1Ys)).2.is
    0x176839bbb490711d02d402a811af936506cf90bfe8351532cebe7551a622dd272c5643655084b28fdc46c41d6e8cc96a
    0x11ceac1fdcb81ee2ea08845d192c46a5c7cfd2cd3cd49331cbd56cd56724d6479212268597271a44b0fe847d41dfaec4
    0x1f378e16b836d76f94ccf6915c5dd912dadb1ddb912c06f0483a2d1ae7a73a5dd4582462e79ab70fc783c4046df20e3) = true := by decide +kernel

theorem windowA9 : ((agg 0x1a0111ea397fe69a4b1ba7b6434bacd764774b84f38512bf6730d2a0f6b0f6241eabfffeb153ffffb9feffffffffaaab 0x1a0111ea397fe69a4b1ba7b6434bacd764774b84f38512bf6730d2a0f6b0f6241eabfffeb153ffffb9feffffffffaaaa [183, 182, 181, 180, 179, 178, 177, 176] (zip3s coeffsA Embedded.g1Parts Embedded.g1Ys)).2.is
    0x12355a6b2ba62c89fddd2113c66ca0aef9482d6440b18518e0eda41e4eb48a164eb085942bf9aafbf08cf8be202f0af5
    0x148079669534ea11e33a90d1bfbd2925982038d36489011d628da762dd27bbbb1d21cc4ee372c78e94c12ebe8fb901b1
    0x12d8a304e27605880d91feedec1053663d4373c4ad5fd2497b5ac5319b5bff9d3696d185cbb67a44849bf9b59e8ce215) = true := by decide +kernel

theorem windowA10 : ((agg 0x1a0111ea397fe69a4b1ba7b6434bacd764774b84f38512bf6730d2a0f6b0f6241eabfffeb153ffffb9feffffffffaaab 0x1a0111ea397fe69a4b1ba7b6434bacd764774b84f38512bf6730d2a0f6b0f6241eabfffeb153ffffb9feffffffffaaaa [175, 174, 173, 172, 171, 170, 169, 168] (zip3s coeffsA Embedded.g1Parts Embedded.g1Ys)).2.is
    0x83ef020f2e68556938a271908ff1f8feefa74dfa5d3ef5e1ee6428f876bec04a7fd6156602566518eeb3f87452074bf
    0x148a74f9276dde7fcd6b9beae500ba9098796632d0eb38bc61bcf0ec79d9fc26afb2ed6cd44deef523eb6ffcaf31bf34
    0xde8f67818cb82e556ce9328c7ae8b4e50050898b1b4fc50020560e942c666168561aac250bf0840ad074f6523a7593b) = true := by decide +kernel

theorem windowA11 : ((agg 0x1a0111ea397fe69a4b1ba7b6434bacd764774b84f38512bf6730d2a0f6b0f6241eabfffeb153ffffb9feffffffffaaab 0x1a0111ea397fe69a4b1ba7b6434bacd764774b84f38512bf6730d2a0f6b0f6241eabfffeb153ffffb9feffffffffaaaa [167, 166, 165, 164, 163, 162, 161, 160] (zip3s coeffsA Embedded.g1Parts Embedded.g1Ys)).2.is
    0x24277477e9768a4d06d4d142577daa74d2042c4c5c17fee79a1a72536103d97cd1402ddb1e790ed02da87d6425ae956
    0x383f4a6f7f25c52a05bc85cc261393e4d483439c01d26df74e2f46fa85c60c6d3b82d2b817896317e1886b861653c
    0x1351ae158475b909be3ef8d5892998efbcd5200caf7e6e1e24f504683e2095aa9115ad7c6b944639b7b43b738f70c72) = true := by decide +kernel

theorem windowA12 : ((agg 0x1a0111ea397fe69a4b1ba7b6434bacd764774b84f38512bf6730d2a0f6b0f6241eabfffeb153ffffb9feffffffffaaab 0x1a0111ea397fe69a4b1ba7b6434bacd764774b84f38512bf6730d2a0f6b0f6241eabfffeb153ffffb9feffffffffaaaa [159, 158, 157, 156, 155, 154, 153, 152] (zip3s coeffsA Embedded.g1Parts Embedded.g1Ys)).2.is
    0xb193881d8ed5281ad29bf3e9ea883e09aeffed0f6b38af1d874440a224e41a186d06f770dcadfc98a0788c0ab99f8df
    0x3594a29821933fc26696b5e368e36545c905694b1f8964c2ced7627d1d79584ab8f5444a2987c26ec1c20acb193b596
    0xbdbcc9831b3ba2f54f843596f698ddf6b163a0f530a75a2d157700f12846ce44acbab44ea4c08bc1aec89acbc85002e) = true := by decide +kernel

theorem windowA13 : ((agg 0x1a0111ea397fe69a4b1ba7b6434bacd764774b84f38512bf6730d2a0f6b0f6241eabfffeb153ffffb9feffffffffaaab 0x1a0111ea397fe69a4b1ba7b6434bacd764774b84f38512bf6730d2a0f6b0f6241eabfffeb153ffffb9feffffffffaaaa [151, 150, 149, 148, 147, 146, 145, 144] (zip3s coeffsA Embedded.g1Parts Embedded.g1Ys)).2.is
    0x118d178a0c81d7d079c7d6e06f4f53251b832a7e99033858ea3fabfda75d2b9a239a42936e2fa6f2e98e31aca5d5a58d
    0x13a8161aa677a03cf9aa4776db55e7c35be82471d8b60bdac3a449df18f4ea9f8b2b6bd63dbf9714b491a4c40e23f868
    0x39223bf476bb21fd2467b698f2bca212793878efd932a972667f12e2e5bc27666222b240beec1641d325aafcf4093ec) = true := by decide +kernel

theorem windowA14 : ((agg 0x1a0111ea397fe69a4b1ba7b6434bacd764774b84f38512bf6730d2a0f6b0f6241eabfffeb153ffffb9feffffffffaaab 0x1a0111ea397fe69a4b1ba7b6434bacd764774b84f38512bf6730d2a0f6b0f6241eabfffeb153ffffb9feffffffffaaaa [143, 142, 141, 140, 139, 138, 137, 136] (zip3s coeffsA Embedded.g1Parts Embedded.g1Ys)).2.is
    0xc6c3d3eaffdb68ea99d069775ad19b8c351fd2dc2d93da5f03269af688a66f3d3affdfee3c2cbea51133f904acd1e80
    0x123afa9f19afe59e42343708d45f7ee1673a4f1f4bc6a2f969791913669e1973781369f8dbac72ddf2f83921939d43c0
    0x170e2083d2fa332b6af4e4341567563f3787cbb6e7bef2ff63a58186c8a7e627f79ba3bb2e41dfd145de29cd1170f5e4) = true := by decide +kernel

theorem windowA15 : ((agg 0x1a0111ea397fe69a4b1ba7b6434bacd764774b84f38512bf6730d2a0f6b0f6241eabfffeb153ffffb9feffffffffaaab 0x1a0111ea397fe69a4b1ba7b6434bacd764774b84f38512bf6730d2a0f6b0f6241eabfffeb153ffffb9feffffffffaaaa [135, 134, 133, 132, 131, 130, 129, 128] (zip3s coeffsA Embedded.g1Parts Embedded.g1Ys)).2.is
    0x7e5746865a77b214aaf61c337e34dad8e12b8fe4b0031782b46d6d825a6ac1007557fcf3d98b1291334829645adffa3
    0x118d7d98a891c9183d8118f0f51865f728c82e4c5a1400d384d9f73cd0a6b9ac19f957d2e4cb78a75564f52775fbf42e
    0x28802136285057a728da1ccf1f9e71dbf890f649da855e6064762654170a5a892129c63ce25c971873d8de91a497b4b) = true := by decide +kernel

end Verif.Vectors
