import Verif.Lemmas.VectorCCoeffs

set_option linter.unusedSectionVars false
set_option Elab.async false
set_option maxRecDepth 100000
set_option exponentiation.threshold 100000000

/-! The commitment in test_vectors/blob_to_kzg_commitment/kzg-mainnet/blob_to_kzg_commitment_case_valid_blob_c40b9b515df8721b, part 0: the sums for eight bits of the coefficients -/
namespace Verif.Vectors
open Msm

theorem windowC0 : ((agg 0x1a0111ea397fe69a4b1ba7b6434bacd764774b84f38512bf6730d2a0f6b0f6241eabfffeb153ffffb9feffffffffaaab 0x1a0111ea397fe69a4b1ba7b6434bacd764774b84f38512bf6730d2a0f6b0f6241eabfffeb153ffffb9feffffffffaaaa [255, 254, 253, 252, 251, 250, 249, 248] (zip3s coeffsC Embedded.g1Parts Embedded.g1Ys)).2.is
    0x10a4c9f8aeea194af8208eba3009b93cb0d2eb349503890fe7c06acd5871f2b3362e798c304fc0102f8f7b8aadebe564
    0x361be93162779bfb89b19411e0b1bc244d4b49ec7c964a83777bd9a200cc2b09c569dbd2e137a79ed6967f5a5cc42ad
    0x17f3963320a9ee53807e646f86c2cf6d355b0916524740331174109d26d383b48ca40938e82674dae701ffc99d4698b5) = true := by decide +kernel

theorem windowC1 : ((agg 0x1a0111ea397fe69a4b1ba7b6434bacd764774b84f38512bf6730d2a0f6b0f6241eabfffeb153ffffb9feffffffffaaab 0x1a0111ea397fe69a4b1ba7b6434bacd764774b84f38512bf6730d2a0f6b0f6241eabfffeb153ffffb9feffffffffaaaa [247, 246, 245, 244, 243, 242, 241, 240] (zip3s coeffsC Embedded.g1Parts Embedded.g1Ys)).2.is
    0x2aff3354d92a0c17c4c193e4f6dec17a71f203b41bf1cc8d3db67e8fd8d8ba8a16ee98c7cfbd34013168463535a1a45
    0x14d0b6c7a61672bff6e4d68609e83a1be1ca7ce68f9b8399c246e1b96f866027aa3321b9819420a6a548dce197ae2cb
    0x444755a1cd2c8fd1249be59d1257cec127383695034b3d6b6c18e3202bef4316dd591c309fdbb60fb0d39f2613950d4) = true := by decide +kernel

theorem windowC2 : ((agg 0x1a0111ea397fe69a4b1ba7b6434bacd764774b84f38512bf6730d2a0f6b0f6241eabfffeb153ffffb9feffffffffaaab 0x1a0111ea397fe69a4b1ba7b6434bacd764774b84f38512bf6730d2a0f6b0f6241eabfffeb153ffffb9feffffffffaaaa [239, 238, 237, 236, 235, 234, 233, 232] (zip3s coeffsC Embedded.g1Parts Embedded.g1Ys)).2.is
    0x39e91c3039ed73e1a3c5750ba303a2687c6b2c1ad1876a7b8a09517c8d7020a84e7000c4f3349a943ab2facfb6aa35c
    0x13466522f28f1b6f5b84e009fef9d5b52c5bd90ec5ecbd2103fb2c065d0c13a1239669f14da439f487bddd9a5f463130
    0x75f4d0c706405d55951407fd9cfd2e87ce1a35db2b5653115b0a092d6152c1b042131f451c2e1ab599fd57a6dc848b) = true := by decide +kernel

theorem windowC3 : ((agg 0x1a0111ea397fe69a4b1ba7b6434bacd764774b84f38512bf6730d2a0f6b0f6241eabfffeb153ffffb9feffffffffaaab 0x1a0111ea397fe69a4b1ba7b6434bacd764774b84f38512bf6730d2a0f6b0f6241eabfffeb153ffffb9feffffffffaaaa [231, 230, 229, 228, 227, 226, 225, 224] (zip3s coeffsC Embedded.g1Parts Embedded.g1Ys)).2.is
    0x104d9b29e7dd40346d6f4bda959fbae9cf1327b2fe56c1eee4bbfd2fd53cdd6e63fa3a0e5d2e264b9d055cd70548c8d6
    0x5b1cbb95bd796b4805e77f60fdae4da6380699a91b258c1c2ab9f99d65fa5ced43e044c0b2dd22683324dcd7675c142
    0x64393e62de4afa31c4cd489c5fa8ef95780d58a4e9776af0d4a4320047468a76bff1e02ffebd84e132cde5b95a99597) = true := by decide +kernel

theorem windowC4 : ((agg 0x1a0111ea397fe69a4b1ba7b6434bacd764774b84f38512bf6730d2a0f6b0f6241eabfffeb153ffffb9feffffffffaaab 0x1a0111ea397fe69a4b1ba7b6434bacd764774b84f38512bf6730d2a0f6b0f6241eabfffeb153ffffb9feffffffffaaaa [223, 222, 221, 220, 219, 218, 217, 216] (zip3s coeffsC Embedded.g1Parts Embedded.g1Ys)).2.is
    0x124e0fb869d437d963b257cbbf05525f1b6c91ec15dc26462c50533c8f503c5469c634e929296997a0efc2e4f9db752a
    0x1510a38b9544842b470a0adb059cc4300f6435440c38b21a65bd80eec52656355a665a43242a39bd8e7ca06da47d753d
    0x1216484425b63c4897b04034e5404af81b3f55a28548f4345cd40922cb6cbd796bc6f805971600d95f3dfecaec214330) = true := by decide +kernel

theorem windowC5 : ((agg 0x1a0111ea397fe69a4b1ba7b6434bacd764774b84f38512bf6730d2a0f6b0f6241eabfffeb153ffffb9feffffffffaaab 0x1a0111ea397fe69a4b1ba7b6434bacd764774b84f38512bf6730d2a0f6b0f6241eabfffeb153ffffb9feffffffffaaaa [215, 214, 213, 212, 211, 210, 209, 208] (zip3s coeffsC Embedded.g1Parts Embedded.g1Ys)).2.is
    0xfa78fa8104a04050e978120d17513f6b4739b1afd45fd13e843accabe280e53ff91b20b386a6315b76679c1f09913d1
    0x7845106f8db70e70608105a5d6097b9b57f4fce7f91e0bf670c1d3809eb7eb7ddd6d41d428cd867f32812e6152baf82
    0x18bd4324cfb7d876d1fefd83fc9071a7e27847bdd26123cb6e966db07f2643ac194a6394cd5bd4c01e2c525c579fec28) = true := by decide +kernel

theorem windowC6 : ((agg 0x1a0111ea397fe69a4b1ba7b6434bacd764774b84f38512bf6730d2a0f6b0f6241eabfffeb153ffffb9feffffffffaaab 0x1a0111ea397fe69a4b1ba7b6434bacd764774b84f38512bf6730d2a0f6b0f6241eabfffeb153ffffb9feffffffffaaaa [207, 206, 205, 204, 203, 202, 201, 200] (zip3s coeffsC Embedded.g1Parts Embedded.g1Ys)).2.is
    0x1241ac0b7e83d4b0bd21ee4ef7b95d46c313204cdb1b08b9e9fa2a6d207d7d8e64226949547c00db4a7b92daab8d8fda
    0x1355215f1f3015b2bc291d8c74dca2a7c65bca9c1366856e2c2d09ff9592f89b6652e5a329584f5783ddf0f2a7926538
    0x18fe997541d05994d5fcc09bdfeee700383d3aa541bbfe83a6270840d4a63bba0a47b5625a132775e34c264981b8ad7f) = true := by decide +kernel

theorem windowC7 : ((agg 0x1a0111ea397fe69a4b1ba7b6434bacd764774b84f38512bf6730d2a0f6b0f6241eabfffeb153ffffb9feffffffffaaab 0x1a0111ea397fe69a4b1ba7b6434bacd764774b84f38512bf6730d2a0f6b0f6241eabfffeb153ffffb9feffffffffaaaa [199, 198, 197, 196, 195, 194, 193, 192] (zip3s coeffsC Embedded.g1Parts Embedded.g1Ys)).2.is
    0x11d98e8bfa923040fcb02818aa045093ecd606ebd3a893cf6e83e99749ea1dce457f9529b57a3fdcba3afe2c7dd4ad6
    0x12758c4c1df7a0ffcb0be90140f26784cf03af84e3a641b2b024745dfee30d86818dbac2dbb66b940df9f6b047221f2c
    0x1954e7b939a62678df66876071461e560c55a3dc326be8de87c598309e941a9e2e2a49210e518fc68d3dfc9267958d88) = true := by decide +kernel

theorem windowC8 : ((agg 0x1a0111ea397fe69a4b1ba7b6434bacd764774b84f38512bf6730d2a0f6b0f6241eabfffeb153ffffb9feffffffffaaab 0x1a0111ea397fe69a4b1ba7b6434bacd764774b84f38512bf6730d2a0f6b0f6241eabfffeb153ffffb9feffffffffaaaa [191, 190, 189, 188, 187, 186, 185, 184] (zip3s coeffsC Embedded.g1Parts Embedded.g1Ys)).2.is
    0x9ff7c39d84340d72fa206d4cd66466c8eca4908d89867e680477f0a76566b580014669cfadae8ad98624ac1203a25f0
    0x41adc350941c83fab823eedcaeaf98ef0fd7d7a662bbd7f358627c44e8af1b3a138d39ce7e455412675465855c5e07c
    0xccd16ba0aec0e43cb57eb3540770367f43044570cb8ac3dc367663ad0dd4496d3c8a4ec74ebbdef762ed7dc90142c06) = true := by decide +kernel

theorem windowC9 : ((agg 0x1a0111ea397fe69a4b1ba7b6434bacd764774b84f38512bf6730d2a0f6b0f6241eabfffeb153ffffb9feffffffffaaab 0x1a0111ea397fe69a4b1ba7b6434bacd764774b84f38512bf6730d2a0f6b0f6241eabfffeb153ffffb9feffffffffaaaa [183, 182, 181, 180, 179, 178, 177, 176] (zip3s coeffsC Embedded.g1Parts Embedded.g1Ys)).2.is
    0x10a134532900e75091159d241f3ca4dd24cb3c75a21e49a47e3ea3387b575435e75dcc8d1304e9b6217ead185609d607
    0xbee6f6e52ffdbcddfed98adefa53d661c0d76f0882ed8b22854b69c0359a49110d09141d675b5c1ec6b9ad82a34e61d
    0x163ef04a28dab74e2fcefe16405a7651ee619b2c54d5b9cc9682e5d90541e6d581bf23d1abde232dc80d646798b42268) = true := by decide +kernel

theorem windowC10 : ((agg 0x1a0111ea397fe69a4b1ba7b6434bacd764774b84f38512bf6730d2a0f6b0f6241eabfffeb153ffffb9feffffffffaaab 0x1a0111ea397fe69a4b1ba7b6434bacd764774b84f38512bf6730d2a0f6b0f6241eabfffeb153ffffb9feffffffffaaaa [175, 174, 173, 172, 171, 170, 169, 168] (zip3s coeffsC Embedded.g1Parts Embedded.g1Ys)).2.is
    0xd742d593933a0ad52fa896eea5704b3d12f6dcef111fb6165e95fb1957da1c9e48649ce76d9e16126b3ef52c9ba4536
    0x664f027342cfb4dd6d936d911c79de26f42688c98e089badd0a2592eedb86c8060ed87943c09ad28f28ab6f1649b10
    0x11317115f483c2628289994ce8a795ff0ba9d4550756c17ca75e8480f790258c09eb5edf5d0aa696fcb01217f79e2bdb) = true := by decide +kernel

theorem windowC11 : ((agg 0x1a0111ea397fe69a4b1ba7b6434bacd764774b84f38512bf6730d2a0f6b0f6241eabfffeb153ffffb9feffffffffaaab 0x1a0111ea397fe69a4b1ba7b6434bacd764774b84f38512bf6730d2a0f6b0f6241eabfffeb153ffffb9feffffffffaaaa [167, 166, 165, 164, 163, 162, 161, 160] (zip3s coeffsC Embedded.g1Parts Embedded.g1Ys)).2.is
    0xeaaaf36907d76db6378cff396c4de0c5be440fc2b7317ed3a646984bfb16b0eded38350f61a69d8a078f804459cc1c0
    0x12d380f8ee616e20840257fa6cceaf7cedcf27b9efd54b32bbab89184d39ade2bc91916750d64b069c1b294b4db4f087
    0x140fc16286bb9315861002e98f899fb866bbd5c70ac11c2f183e5f55659f703de72e41c63f559183c2798e2d6a453d37) = true := by decide +kernel

theorem windowC12 : ((agg 0x1a0111ea397fe69a4b1ba7b6434bacd764774b84f38512bf6730d2a0f6b0f6241eabfffeb153ffffb9feffffffffaaab 0x1a0111ea397fe69a4b1ba7b6434bacd764774b84f38512bf6730d2a0f6b0f6241eabfffeb153ffffb9feffffffffaaaa [159, 158, 157, 156, 155, 154, 153, 152] (zip3s coeffsC Embedded.g1Parts Embedded.g1Ys)).2.is
    0x8c063a90353fc8d31685bcdad0b4675eec3d165b40e3228b271c4982d7e7ef6cc8c281df76a532afde59543c92ee3f9
    0x13f03d1fbc97dcf5ba17a5a3bc708aff239f3f61834882d3415bd503ef3f6e8f5e316ff2c51c658046e67459f9af4d23
    0x1688a88ebc828af31872c60716d9273821e1697a2352a0641ce455c904fac4b4838d0a45ec32fb8a592f715ffa49c721) = true := by decide +kernel

theorem windowC13 : ((agg 0x1a0111ea397fe69a4b1ba7b6434bacd764774b84f38512bf6730d2a0f6b0f6241eabfffeb153ffffb9feffffffffaaab 0x1a0111ea397fe69a4b1ba7b6434bacd764774b84f38512bf6730d2a0f6b0f6241eabfffeb153ffffb9feffffffffaaaa [151, 150, 149, 148, 147, 146, 145, 144] (zip3s coeffsC Embedded.g1Parts Embedded.g1Ys)).2.is
    0x196d512c70ce70b63b9bcfced229b9bd475a773ebd09bf7f2bd6eb2b7e22c775f32e3b0261f932f1676c90acb52bf9ac
    0x87175a9424b972c7beb196aab67cf88f47ca032f2d424831021e31fd65764729efda6a3bd249d0aa98e0a85f6880cc4
    0x16414eed524a99b11bd06ecfc04c51f8667d4b192c99f1c4d1fc8b4b868896c4ed84fff185c494ac57b865836bf9b6fb) = true := by decide +kernel

theorem windowC14 : ((agg 0x1a0111ea397fe69a4b1ba7b6434bacd764774b84f38512bf6730d2a0f6b0f6241eabfffeb153ffffb9feffffffffaaab 0x1a0111ea397fe69a4b1ba7b6434bacd764774b84f38512bf6730d2a0f6b0f6241eabfffeb153ffffb9feffffffffaaaa [143, 142, 141, 140, 139, 138, 137, 136] (zip3s coeffsC Embedded.g1Parts Embedded.g1Ys)).2.is
    0xbfebb2ec15f7589a12c67de42180c74cbda9f17a617edd959e4c81ccb6703604d2e6d7e6474927f367700bd9a069ec1
    0x10a3ff199b6ce8d050feeed0101269469192dde80d6e8cbc88185c8557aa26e9d0e71ab1fb60f3e56167580d188d8bb5
    0xf9e9f258c2c0b64d378bf3e2cee9e5b351591b3a4ea695c0dcac48ec7853b3719afb2994d46560c4f41825d1aaf13d5) = true := by decide +kernel

theorem windowC15 : ((agg 0x1a0111ea397fe69a4b1ba7b6434bacd764774b84f38512bf6730d2a0f6b0f6241eabfffeb153ffffb9feffffffffaaab 0x1a0111ea397fe69a4b1ba7b6434bacd764774b84f38512bf6730d2a0f6b0f6241eabfffeb153ffffb9feffffffffaaaa [135, 134, 133, 132, 131, 130, 129, 128] (zip3s coeffsC Embedded.g1Parts Embedded.g1Ys)).2.is
    0x10938869a8f042cf87ac90a19cc54f9512d363f51f034fb3b18c25430c4c421cdc00c3be3def2c7e2213d9f9318db132
    0x16a27fbfd34a3887bc99490964d77d413406d975613c30e807d0a8402f7f4cf5ccdd501ccdcab544b790c92d37bfecc3
    0xab25463829d2033e85aef1615c6e762b5eed09e46f4b2554c8211b640f4aecd4690bbbf59cd9ef41f4bbff0165354e5) = true := by decide +kernel

end Verif.Vectors
