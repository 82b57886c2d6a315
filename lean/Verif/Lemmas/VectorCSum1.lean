import Verif.Lemmas.VectorCCoeffs

set_option linter.unusedSectionVars false
set_option Elab.async false
set_option maxRecDepth 100000
set_option exponentiation.threshold 100000000

/-! The commitment in test_vectors/blob_to_kzg_commitment/kzg-mainnet/blob_to_kzg_commitment_case_valid_blob_c40b9b515df8721b, part 1: the sums for eight bits of the coefficients -/
namespace Verif.Vectors
open Msm

theorem windowC16 : ((agg 0x1a0111ea397fe69a4b1ba7b6434bacd764774b84f38512bf6730d2a0f6b0f6241eabfffeb153ffffb9feffffffffaaab 0x1a0111ea397fe69a4b1ba7b6434bacd764774b84f38512bf6730d2a0f6b0f6241eabfffeb153ffffb9feffffffffaaaa [127, 126, 125, 124, 123, 122, 121, 120] (zip3s coeffsC Embedded.g1Parts Embedded.g1Ys)).2.is
    0xb69900dc0407c26245436cc32edc9438cdb30c7f498c0c16904619577d9166783444f37a2b3818623299973ae566077
    0x2d5624edbf83853ab4e9e0c47bab44b72ead133b0df80ebb2da2f58b289e6a55b40912f5c9d8fcbeaf5430211d9e77a
    0x1494771f17e5c00c1459bb3438ba71cb345101ce074a7464e4b5a0fdb7a24900cd6cbe8a610aeb2779251d9cf8ffc162) = true := by decide +kernel

theorem windowC17 : ((agg 0x1a0111ea397fe69a4b1ba7b6434bacd764774b84f38512bf6730d2a0f6b0f6241eabfffeb153ffffb9feffffffffaaab 0x1a0111ea397fe69a4b1ba7b6434bacd764774b84f38512bf6730d2a0f6b0f6241eabfffeb153ffffb9feffffffffaaaa [119, 118, 117, 116, 115, 114, 113, 112] (zip3s coeffsC Embedded.g1Parts Embedded.g1Ys)).2.is
    0x96fe501ea78bc0be6377da1d226153c0fc81f6b484b9e72ae313ec22d68a95989c33d7641ac1a529723ec2e156c3570
    0x1433df17ca5a11375f8d820e9152c30034ed0363a6c7a87933477dbdb9005301623e6b3d5fa324171b6a9d7c61e8f834
    0x5d942c1abef61cb3badd2475353b9b7eaeb3e38b2a830c1c9db801e6b15a453875836932b8ef18f84d9f45c42be9478) = true := by decide +kernel

theorem windowC18 : ((agg 0x1a0111ea397fe69a4b1ba7b6434bacd764774b84f38512bf6730d2a0f6b0f6241eabfffeb153ffffb9feffffffffaaab 0x1a0111ea397fe69a4b1ba7b6434bacd764774b84f38512bf6730d2a0f6b0f6241eabfffeb153ffffb9feffffffffaaaa [111, 110, 109, 108, 107, 106, 105, 104] (zip3s coeffsC Embedded.g1Parts Embedded.g1Ys)).2.is
    0x170d1ff0ae832a431a3dfe983e0ae88ffa48bd3b264175486ce3ce3453f9f6bc5a24256c037984e451526ab2a02ee91a
    0x16af5b8ed4dbfa151e8ecffb66a73e197b19f510298a934e7ad90e94286e26c49d004f035e9703ad554326571fba252e
    0x19f53c34a7772c2be437fd2c5a56dd6125d01c978a517ddab45fde1a23f9945b46d63b775b9ae08a81df02aed513b224) = true := by decide +kernel

theorem windowC19 : ((agg 0x1a0111ea397fe69a4b1ba7b6434bacd764774b84f38512bf6730d2a0f6b0f6241eabfffeb153ffffb9feffffffffaaab 0x1a0111ea397fe69a4b1ba7b6434bacd764774b84f38512bf6730d2a0f6b0f6241eabfffeb153ffffb9feffffffffaaaa [103, 102, 101, 100, 99, 98, 97, 96] (zip3s coeffsC Embedded.g1Parts Embedded.g1Ys)).2.is
    0x1016e8b7618bead20920e8988489d0372e27a9e525e4048f166bf48381b2d2035ad689c5fba8c6fc55f793104f174ea1
    0x3f8ef05caa8ae0ec474b25aad01f777a94db9622748a528decb19d38fbafc13fe39a7bc25933bbc5cc63674da4a767b
    0xc70f13977f197bd7d07de9a2c76c80af2a3c9387a852242ba3c78eaa1ae3b7a0cb7f2bc8d01c47c085bf6d97b1e1065) = true := by decide +kernel

theorem windowC20 : ((agg 0x1a0111ea397fe69a4b1ba7b6434bacd764774b84f38512bf6730d2a0f6b0f6241eabfffeb153ffffb9feffffffffaaab 0x1a0111ea397fe69a4b1ba7b6434bacd764774b84f38512bf6730d2a0f6b0f6241eabfffeb153ffffb9feffffffffaaaa [95, 94, 93, 92, 91, 90, 89, 88] (zip3s coeffsC Embedded.g1Parts Embedded.g1Ys)).2.is
    0xd18eece9436372815ceea91bf90bb017da3a41f6f189b9aa743d79cb739fd1c7238fd9013031797aab8675bb2a71fa2
    0x1415192e0845810b8b34ae22e24b5f337d34fea5e6ae7e377bdbf6e2b9bf9ac35e6549e0df2b6bd124af7fd380987744
    0xd3b8dcd7e93b0f2d577c8a290088603d6c236403cc2d9816fbd5c7222295428e6037eb300c5dbed39928ceb55aee8c7) = true := by decide +kernel

theorem windowC21 : ((agg 0x1a0111ea397fe69a4b1ba7b6434bacd764774b84f38512bf6730d2a0f6b0f6241eabfffeb153ffffb9feffffffffaaab 0x1a0111ea397fe69a4b1ba7b6434bacd764774b84f38512bf6730d2a0f6b0f6241eabfffeb153ffffb9feffffffffaaaa [87, 86, 85, 84, 83, 82, 81, 80] (zip3s coeffsC Embedded.g1Parts Embedded.g1Ys)).2.is
    0x6e796f80901cfaebb4c6653befbcae57909e9c6dab85dbd9dbc1dcbf714c7a58c8c6a25a85fd287e78762c5089fe4ed
    0xf4e55c48ffe2c2fbfb151f91928186e2ed5f7c879abf6a719fe7aed6222955e242c767c0b7ac4ba73dc8ea88095f44d
    0x13d05a637226856587c736085176eac384dd49dab548f8b7e2f2d628adc9ffa9f4e5bfe733f99371d561fc07beb16c96) = true := by decide +kernel

theorem windowC22 : ((agg 0x1a0111ea397fe69a4b1ba7b6434bacd764774b84f38512bf6730d2a0f6b0f6241eabfffeb153ffffb9feffffffffaaab 0x1a0111ea397fe69a4b1ba7b6434bacd764774b84f38512bf6730d2a0f6b0f6241eabfffeb153ffffb9feffffffffaaaa [79, 78, 77, 76, 75, 74, 73, 72] (zip3s coeffsC Embedded.g1Parts Embedded.g1Ys)).2.is
    0x12ef06222e08b6887df6a169f59874f8dbfc2b284da826746110901d41cc4da42890bf0dcc4724e97bb1fc4ce6a6abd9
    0x5281f4d416f170014b8d6959a6867861ad74b389188251878cd7c5dec676b8ddfd866ef4e9ff082c6d317fb507f195a
    0xacfe3fa721f40391a39778f09de7f27160800ccc4a7f7c7954cf7c4e0a126ec03e4015313ffd96d4415186bcda0794d) = true := by decide +kernel

theorem windowC23 : ((agg 0x1a0111ea397fe69a4b1ba7b6434bacd764774b84f38512bf6730d2a0f6b0f6241eabfffeb153ffffb9feffffffffaaab 0x1a0111ea397fe69a4b1ba7b6434bacd764774b84f38512bf6730d2a0f6b0f6241eabfffeb153ffffb9feffffffffaaaa [71, 70, 69, 68, 67, 66, 65, 64] (zip3s coeffsC Embedded.g1Parts Embedded.g1Ys)).2.is
    0xc2ef35ccd027f7eaa9820a759137496459e0bc4af06bb914bfd6a57fe566f22c14235e06c37ffe591aced7494edb16a
    0x6f5783c8219cb6f161333232cb88e7b9864c74d69254071809fac103067964f4ecd4f5ee14d43f69d15128a05b50ddb
    0xd72c4f0ed3889d8b62456fc598f83456aee7c499e56f34e8e7939f4b69aea94f7753289042a0193592de7ba5ceb9f16) = true := by decide +kernel

theorem windowC24 : ((agg 0x1a0111ea397fe69a4b1ba7b6434bacd764774b84f38512bf6730d2a0f6b0f6241eabfffeb153ffffb9feffffffffaaab 0x1a0111ea397fe69a4b1ba7b6434bacd764774b84f38512bf6730d2a0f6b0f6241eabfffeb153ffffb9feffffffffaaaa [63, 62, 61, 60, 59, 58, 57, 56] (zip3s coeffsC Embedded.g1Parts Embedded.g1Ys)).2.is
    0x172da07833ad0297a4ef4fcaa7f8a9631fc209c9a2e9cec9d54f74193a55be2839772660c8df63b059163703d16eec3b
    0x6d1acd709d5b21ae0a9adfe821ac3bed4f0c1db54fa84141d5fbda0f3fffb9c78b3a76c094d6238877880fbf51e6654
    0x1901da117368ec59f2e6197262dfc7216d38e4b04a0a8a14f402f9d21bdcab4db137bd429f9767bc9e912f0d26fd55f5) = true := by decide +kernel

theorem windowC25 : ((agg 0x1a0111ea397fe69a4b1ba7b6434bacd764774b84f38512bf6730d2a0f6b0f6241eabfffeb153ffffb9feffffffffaaab 0x1a0111ea397fe69a4b1ba7b6434bacd764774b84f38512bf6730d2a0f6b0f6241eabfffeb153ffffb9feffffffffaaaa [55, 54, 53, 52, 51, 50, 49, 48] (zip3s coeffsC Embedded.g1Parts Embedded.g1Ys)).2.is
    0xb2d12f77a464c3c69776b31d7e0e8fdc3cd614bdd9b4ff0c9be793534051f810f035abf08ca32bca45b20a0b419b0fb
    0xc46dcf433ae6f86caa3b83e6090bdd9ec3762a46291874628a1fd5962661ed637df27d9567f56f5e054231eadfd3dc0
    0x18c47608f53ac86cce7a51f355d736210988eb979fa271e680c43dbf25135e20956e4cf5c55c08ecbe6476e980eb0eef) = true := by decide +kernel

theorem windowC26 : ((agg 0x1a0111ea397fe69a4b1ba7b6434bacd764774b84f38512bf6730d2a0f6b0f6241eabfffeb153ffffb9feffffffffaaab 0x1a0111ea397fe69a4b1ba7b6434bacd764774b84f38512bf6730d2a0f6b0f6241eabfffeb153ffffb9feffffffffaaaa [47, 46, 45, 44, 43, 42, 41, 40] (zip3s coeffsC Embedded.g1Parts Embedded.g1Ys)).2.is
    0x164aa4d05113b4eb8dfa08616ecede7e77023a106a7d35fd855ea468ea288b9f5b441f8689bdb47622e40771ee74b82a
    0x10bbd086d2f77b14eb9ceb4f5fb01e5a906a02b2273d7d5b50b463ed88db325af08849b61515c8a4b29a128966bbe470
    0x19af73bae15f76b9fc188e9e6a4efb65d39c1e27e38e9cddb39d709e05c63517bff84ca3e604df51e0a05a14c6ad511f) = true := by decide +kernel

theorem windowC27 : ((agg 0x1a0111ea397fe69a4b1ba7b6434bacd764774b84f38512bf6730d2a0f6b0f6241eabfffeb153ffffb9feffffffffaaab 0x1a0111ea397fe69a4b1ba7b6434bacd764774b84f38512bf6730d2a0f6b0f6241eabfffeb153ffffb9feffffffffaaaa [39, 38, 37, 36, 35, 34, 33, 32] (zip3s coeffsC Embedded.g1Parts Embedded.g1Ys)).2.is
    0xb335bb6daba69992f80e7d1ab60b1f331121e0060f70b3894281c8b3437d6a6d6364361190c41112a9dea0ccb09104f
    0x50133c9ab0bc52285690a74e0b0f9159f01fbe29a8ec19da777784acd7e88ebf9d67fb3e41b5c6a2f736dd8ef7182d3
    0xe7dc04220425e1f96ba8ff3addb53802cb401ee94beac6fe617ca5865d76ec39240f9f9dfc74601f66448b11aac684e) = true := by decide +kernel

theorem windowC28 : ((agg 0x1a0111ea397fe69a4b1ba7b6434bacd764774b84f38512bf6730d2a0f6b0f6241eabfffeb153ffffb9feffffffffaaab 0x1a0111ea397fe69a4b1ba7b6434bacd764774b84f38512bf6730d2a0f6b0f6241eabfffeb153ffffb9feffffffffaaaa [31, 30, 29, 28, 27, 26, 25, 24] (zip3s coeffsC Embedded.g1Parts Embedded.g1Ys)).2.is
    0xa6b6dbbbeb06058a507d0bb1c3542c1419a7fe405d8b319ff3458f6fd16f9ebc0cd62adf3945b380470432f512a2e19
    0x14231a5620862815918131dca4317697b7d9a21522c619a1e2938b8c3a28fafa6b82605bdadd7eba6e5775d7ffa46469
    0x9391471e190a1de60df854f5bf800fcf98e04e9e010acf10a452c835655a76723bb2e5ee42e7ef6174e8c199210d739) = true := by decide +kernel

theorem windowC29 : ((agg 0x1a0111ea397fe69a4b1ba7b6434bacd764774b84f38512bf6730d2a0f6b0f6241eabfffeb153ffffb9feffffffffaaab 0x1a0111ea397fe69a4b1ba7b6434bacd764774b84f38512bf6730d2a0f6b0f6241eabfffeb153ffffb9feffffffffaaaa [23, 22, 21, 20, 19, 18, 17, 16] (zip3s coeffsC Embedded.g1Parts Embedded.g1Ys)).2.is
    0x15b34e18932a1a8d133c116bb07c93204478c159a0fdc2885e327f791efb93f11ba6de95350c49330fde52f9493301b7
    0x1925214175ca4c896405ad772f0fd0184bb10fce5cb117dc8f855ed168c07f814c3817f1a83cc52d62a70b90b330590b
    0x38d968e538d5056d5cd157792dde5a39fd14263ce253c5fee6eb9a3f343018bfd977e6215ed3f322a336af3abbb1b09) = true := by decide +kernel

theorem windowC30 : ((agg 0x1a0111ea397fe69a4b1ba7b6434bacd764774b84f38512bf6730d2a0f6b0f6241eabfffeb153ffffb9feffffffffaaab 0x1a0111ea397fe69a4b1ba7b6434bacd764774b84f38512bf6730d2a0f6b0f6241eabfffeb153ffffb9feffffffffaaaa [15, 14, 13, 12, 11, 10, 9, 8] (zip3s coeffsC Embedded.g1Parts Embedded.g1Ys)).2.is
    0x126ae2b3066a4dc5b21eda81227457bbf45996785aed2ccbf0ccca6dcfa03468b18485f46992a3a8a14176fc0d72e616
    0xe558b854fa41f148416d800c3259ec92daf101a569d1e987a432ed2701fbfeda2b30233fbb2feb208fa24b2b3c26c1e
    0x55fd35806a215f7963906d58867a1f2e146ed118461cc256e24042b14ef64ae98dea33f82c972105d23c85974754181) = true := by decide +kernel

theorem windowC31 : ((agg 0x1a0111ea397fe69a4b1ba7b6434bacd764774b84f38512bf6730d2a0f6b0f6241eabfffeb153ffffb9feffffffffaaab 0x1a0111ea397fe69a4b1ba7b6434bacd764774b84f38512bf6730d2a0f6b0f6241eabfffeb153ffffb9feffffffffaaaa [7, 6, 5, 4, 3, 2, 1, 0] (zip3s coeffsC Embedded.g1Parts Embedded.g1Ys)).2.is
    0x8d220b60a53a54682803f47d57fa30d881ed9f6336b012efc585bb77ef25ad7f8f8dead8e580f8341285521c3ce6314
    0x182c6ab145bbac478289110f05f3e1eedc408de172507df20e93048d5c86d7abf62c649e5dca9c6d3c4f9a8f92da5898
    0xc645904a09866f0285d4a8f1a4475d1d1fd6ba578ada873cb87ec88d1ba1a4f8aeb540dde061dd8545b7f5ac1dc3d7a) = true := by decide +kernel

end Verif.Vectors
