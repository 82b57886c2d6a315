import Verif.Lemmas.VectorDCoeffs

set_option linter.unusedSectionVars false
set_option Elab.async false
set_option maxRecDepth 100000
set_option exponentiation.threshold 100000000

/-! The commitment in test_vectors/blob_to_kzg_commitment/kzg-mainnet/blob_to_kzg_commitment_case_valid_blob_fb324bc819407148, part 0: the sums for eight bits of the coefficients -/
namespace Verif.Vectors
open Msm

theorem windowD0 : ((agg 0x1a0111ea397fe69a4b1ba7b6434bacd764774b84f38512bf6730d2a0f6b0f6241eabfffeb153ffffb9feffffffffaaab 0x1a0111ea397fe69a4b1ba7b6434bacd764774b84f38512bf6730d2a0f6b0f6241eabfffeb153ffffb9feffffffffaaaa [255, 254, 253, 252, 251, 250, 249, 248] (zip3s coeffsD Embedded.g1Parts Embedded.g1Ys)).2.is
    0x9bed98fe1be0fe20fe4ae86c7f19ecef332b27556f2f122e1415d888d3b98c75380e75497d09f00e289ce80f797a972
    0x5f4aebb4def533173a341f27ef1f3c3b9d5ad82f54309e80abfd9aacca9077f05653eaa5efb9c140dd6cb66ddde58fd
    0x1167cc03d9a3db260ff3ca694e6888b9aa82f0d0ff85bca39a9068877ccf1aa7fff8182837d747e9b105f4954c8600e4) = true := by decide +kernel

theorem windowD1 : ((agg 0x1a0111ea397fe69a4b1ba7b6434bacd764774b84f38512bf6730d2a0f6b0f6241eabfffeb153ffffb9feffffffffaaab 0x1a0111ea397fe69a4b1ba7b6434bacd764774b84f38512bf6730d2a0f6b0f6241eabfffeb153ffffb9feffffffffaaaa [247, 246, 245, 244, 243, 242, 241, 240] (zip3s coeffsD Embedded.g1Parts Embedded.g1Ys)).2.is
    0x1575a2be70c3f020ea1a51d8ff9dd4bd46abbf4e58be6cce81ad48f0ca159af5f876b93efd3f1adaf70cd4b884c79f85
    0x3a1b6f8e10656cf48ae9c69463c13b0e7375eeee17726dad64d66c8a19704d90ee7dd3d934dafb9b832a5a5eb61d611
    0x6a3138ca1623ccac3c712c8e8463e35c29dc89e23b755ea39611fe882029f25ac6cd6e0abc9180d621abb63550a5f4d) = true := by decide +kernel

theorem windowD2 : ((agg 0x1a0111ea397fe69a4b1ba7b6434bacd764774b84f38512bf6730d2a0f6b0f6241eabfffeb153ffffb9feffffffffaaab 0x1a0111ea397fe69a4b1ba7b6434bacd764774b84f38512bf6730d2a0f6b0f6241eabfffeb153ffffb9feffffffffaaaa [239, 238, 237, 236, 235, 234, 233, 232] (zip3s coeffsD Embedded.g1Parts Embedded.g1Ys)).2.is
    0x8c319fa8a1a5b7f6721c5904c1e3f2b888414b3097ef06ad70711c812308854b17733d50e223fa069fec68bd59582ce
    0x13c738c70fe3dbac0bb8121c72284f9ee417bd5d0f8ad66805b923545db2a652784320792bf7acf5b29fdb84058ef99b
    0x124f2a9a8434e905c593874570c4e15bec3d3af902695f0b42f92a82f3395177f0bcd259581c5be6ad8418690e30f191) = true := by decide +kernel

theorem windowD3 : ((agg 0x1a0111ea397fe69a4b1ba7b6434bacd764774b84f38512bf6730d2a0f6b0f6241eabfffeb153ffffb9feffffffffaaab 0x1a0111ea397fe69a4b1ba7b6434bacd764774b84f38512bf6730d2a0f6b0f6241eabfffeb153ffffb9feffffffffaaaa [231, 230, 229, 228, 227, 226, 225, 224] (zip3s coeffsD Embedded.g1Parts Embedded.g1Ys)).2.is
    0x15604cfbd3ba0543fa3486a0c2cc74a8e092262c58a4fd9c6c4f8660fb217fea3dda16b566503fe1f3cc27c70bc2e9e6
    0x150fa50606902a56207c2cf60d427a1e9079ec925c92a2bfed2b998daba4132655abd61f4eff0fe9c62701908f8f8881
    0x496cc0a9c0d1eea1b61ecbd5c8688d5ae322af3627488596f4bae2a7d513ea641bd73e583e98dfa9acdf64e22889340) = true := by decide +kernel

theorem windowD4 : ((agg 0x1a0111ea397fe69a4b1ba7b6434bacd764774b84f38512bf6730d2a0f6b0f6241eabfffeb153ffffb9feffffffffaaab 0x1a0111ea397fe69a4b1ba7b6434bacd764774b84f38512bf6730d2a0f6b0f6241eabfffeb153ffffb9feffffffffaaaa [223, 222, 221, 220, 219, 218, 217, 216] (zip3s coeffsD Embedded.g1Parts Embedded.g1Ys)).2.is
    0x12a6c657c32d431d95e3fcfb7dbcd3ed69bfa7bbeab8c311369d2c007e41f9eaa98b9903228e980c8aa2605778929ce4
    0x3a47c21361af2cae6bb6d3b87038be54ac756273037c670dc50d33ea63e99cda7c9b81c5401afa87c1aece747638aa6
    0x45b609472b4663c567c8b95a005c0f27e3852b98aa4818369160f51ce0525d4a9c3702ae25703f5685e7ed5f224630f) = true := by decide +kernel

theorem windowD5 : ((agg 0x1a0111ea397fe69a4b1ba7b6434bacd764774b84f38512bf6730d2a0f6b0f6241eabfffeb153ffffb9feffffffffaaab 0x1a0111ea397fe69a4b1ba7b6434bacd764774b84f38512bf6730d2a0f6b0f6241eabfffeb153ffffb9feffffffffaaaa [215, 214, 213, 212, 211, 210, 209, 208] (zip3s coeffsD Embedded.g1Parts Embedded.g1Ys)).2.is
    0x18c605df1dd61aa9c6dcb75947fcad89f213e2afe045286beee7f118f1c4ad03e91c462fa5e7f7b34599e0e9f7c7c18c
    0xcd37eae1f937dc03fe511c2371eb5f594150c892553f42b9af600caea58df456a6b390a8176b98f224e1b70b70b7fa2
    0xc6daffe434dc686ff6d8f9ac17ed58bf789fab21e4433c50a21c30e21a3e05d9f51cc96c3ccf8df5c286a1ed9d8e76a) = true := by decide +kernel

theorem windowD6 : ((agg 0x1a0111ea397fe69a4b1ba7b6434bacd764774b84f38512bf6730d2a0f6b0f6241eabfffeb153ffffb9feffffffffaaab 0x1a0111ea397fe69a4b1ba7b6434bacd764774b84f38512bf6730d2a0f6b0f6241eabfffeb153ffffb9feffffffffaaaa [207, 206, 205, 204, 203, 202, 201, 200] (zip3s coeffsD Embedded.g1Parts Embedded.g1Ys)).2.is
    0x19b97c4aa15646f7faeadc9e81afab01aaf10bd4d432e5f0ef2babfe92bef3886f92c58ab1916bac237a24d53935dc0d
    0x12ae8741acbf683f8743e6d51aa8a42d31359ffdb799f1ae981e80f2ff28643bec93c70fb04c183355b64ec775e718f7
    0x14966aa739745cb17d9c96ce08b9d06b22de23fea649946654fc6c3ece17f823b9e0e78a09e5921b035a407211b5cdab) = true := by decide +kernel

theorem windowD7 : ((agg 0x1a0111ea397fe69a4b1ba7b6434bacd764774b84f38512bf6730d2a0f6b0f6241eabfffeb153ffffb9feffffffffaaab 0x1a0111ea397fe69a4b1ba7b6434bacd764774b84f38512bf6730d2a0f6b0f6241eabfffeb153ffffb9feffffffffaaaa [199, 198, 197, 196, 195, 194, 193, 192] (zip3s coeffsD Embedded.g1Parts Embedded.g1Ys)).2.is
    0x87edfe0fc82810afe2300483d85872f9f91e6b9cfea99e26112b9097ccf1612d2b11693df0d58328064b1715d29535c
    0x7dd04b9868ab747a0cddf40ef04b210c9d4283126c4b246757fa502274367953a223e79895647529bfd8bf8a1cad50a
    0x15d213cfe4824691cf903a7db7d6c1828b0b1455b9331ddf77d8f17d310b89c966a9421d74235e76ce4a59c1f3252bf0) = true := by decide +kernel

theorem windowD8 : ((agg 0x1a0111ea397fe69a4b1ba7b6434bacd764774b84f38512bf6730d2a0f6b0f6241eabfffeb153ffffb9feffffffffaaab 0x1a0111ea397fe69a4b1ba7b6434bacd764774b84f38512bf6730d2a0f6b0f6241eabfffeb153ffffb9feffffffffaaaa [191, 190, 189, 188, 187, 186, 185, 184] (zip3s coeffsD Embedded.g1Parts Embedded.g1Ys)).2.is
    0x108fa28ed69f8a29fba52a9e5d0513497940221a6e5eb9cba89ea246f370df86d701f9aeecf5530457989c23b6893ad9
    0x35001e54021a03a634ace5b2c768b20d6543fb45394f3e79e3105067bd3d500e195caff6b2824f6b3fc7814886abd7f
    0x12fda79882735d0faa09014ac4a7366e6aba636fc4b945026c9d5e7c16206e58f39a5e97badb59fbf312a4bbc9a0421d) = true := by decide +kernel

theorem windowD9 : ((agg 0x1a0111ea397fe69a4b1ba7b6434bacd764774b84f38512bf6730d2a0f6b0f6241eabfffeb153ffffb9feffffffffaaab 0x1a0111ea397fe69a4b1ba7b6434bacd764774b84f38512bf6730d2a0f6b0f6241eabfffeb153ffffb9feffffffffaaaa [183, 182, 181, 180, 179, 178, 177, 176] (zip3s coeffsD Embedded.g1Parts Embedded.g1Ys)).2.is
    0x126b10f9bfa228f7ce7965433bdc2a782199e2a17a5ea07238a1cf31c0042783b2e70be1ef4676d0eb8a111a9a2a0e04
    0x1f8fb30b4d912b9ee57fe93b40ca8c61ff72b3519315f2b0ad251f9e3aadfa75c36e1e0a444005efacfe442e34c80bc
    0x69a848034b186751a399cd14012b746e18df04a3e9c93a9ff3a298c7d449b3161f243031e4a8cf494f37bd59b7a0e9c) = true := by decide +kernel

theorem windowD10 : ((agg 0x1a0111ea397fe69a4b1ba7b6434bacd764774b84f38512bf6730d2a0f6b0f6241eabfffeb153ffffb9feffffffffaaab 0x1a0111ea397fe69a4b1ba7b6434bacd764774b84f38512bf6730d2a0f6b0f6241eabfffeb153ffffb9feffffffffaaaa [175, 174, 173, 172, 171, 170, 169, 168] (zip3s coeffsD Embedded.g1Parts Embedded.g1Ys)).2.is
    0x19a6e3b691b2d45bedf5d585f9c9d9d074b9a79a25e58753c4047e44c7b7d2ad99d03d2fd1909751792ddd7831aaa4d0
    0x10227e3e35e96c126f45a4054a633151b5e6a3a7ae9bf041c7d025ef232208faee6d1b99af22cefb642cc59d3ab71421
    0xb4e0bd6e7a9fce4f9bcdfb60c8b8a8f50b8d9365ee1867346f5f665e113a4234c9c4501ef696a90ec51c4a13466af46) = true := by decide +kernel

theorem windowD11 : ((agg 0x1a0111ea397fe69a4b1ba7b6434bacd764774b84f38512bf6730d2a0f6b0f6241eabfffeb153ffffb9feffffffffaaab 0x1a0111ea397fe69a4b1ba7b6434bacd764774b84f38512bf6730d2a0f6b0f6241eabfffeb153ffffb9feffffffffaaaa [167, 166, 165, 164, 163, 162, 161, 160] (zip3s coeffsD Embedded.g1Parts Embedded.g1Ys)).2.is
    0x13c30c27de5d074087a64b9631b1d52c69d68a809e497bc5c0b49a49ea6841debc2e26c21fbaf02c0e8f82e6ee1a5768
    0x18ccbc45ba95185f6c27bb47fee9a5bcb10c764ab465b7d0384be71ace595ea3ae1a9c82e976fcb2ebfc2a7f88956db1
    0x2030c2e3047de96d7c6cd3dddf2ddae0584de7cb311200dd56afcad9ab2dbf63d58c128bddd213c1aadf56f7a36afe9) = true := by decide +kernel

theorem windowD12 : ((agg 0x1a0111ea397fe69a4b1ba7b6434bacd764774b84f38512bf6730d2a0f6b0f6241eabfffeb153ffffb9feffffffffaaab 0x1a0111ea397fe69a4b1ba7b6434bacd764774b84f38512bf6730d2a0f6b0f6241eabfffeb153ffffb9feffffffffaaaa [159, 158, 157, 156, 155, 154, 153, 152] (zip3s coeffsD Embedded.g1Parts Embedded.g1Ys)).2.is
    0xf6b00a53adba070d6499d2664920ef3120e4209f8252a47b1edeb332a312331911fd4a9e8c0b5cae0c5bf81fc14a4e8
    0xe4bdabc589ec87fe584e8dc62badc70bde2523eec2f131e212230d5c3473d31060cbb344ee665b4253e2b4a5baba49f
    0x13b7b36610f7a26013719e9928afcae9e42e781dcec9897ed6117fd4554ffc02cedac5d5773c70a07ec4b693388b5be0) = true := by decide +kernel

theorem windowD13 : ((agg 0x1a0111ea397fe69a4b1ba7b6434bacd764774b84f38512bf6730d2a0f6b0f6241eabfffeb153ffffb9feffffffffaaab 0x1a0111ea397fe69a4b1ba7b6434bacd764774b84f38512bf6730d2a0f6b0f6241eabfffeb153ffffb9feffffffffaaaa [151, 150, 149, 148, 147, 146, 145, 144] (zip3s coeffsD Embedded.g1Parts Embedded.g1Ys)).2.is
    0x10f6ab40b97017af476e39cb04ce880773b45a81d6a14880f4b8992f08a3f0886e2064f5d2c05dc56503d892848cf6c1
    0x18a6a1f732fb1b76f58a93d478c338c1a1e075cf67581484608d6a0538c9b2270f52be3f8a7cddbf900ddf72f9858003
    0xca5cbab873fce0d731131a425ca38d8b22b294160088bb4af40377902d556aaa1978f54bf609d0ea4ae1c4ab6298e32) = true := by decide +kernel

theorem windowD14 : ((agg 0x1a0111ea397fe69a4b1ba7b6434bacd764774b84f38512bf6730d2a0f6b0f6241eabfffeb153ffffb9feffffffffaaab 0x1a0111ea397fe69a4b1ba7b6434bacd764774b84f38512bf6730d2a0f6b0f6241eabfffeb153ffffb9feffffffffaaaa [143, 142, 141, 140, 139, 138, 137, 136] (zip3s coeffsD Embedded.g1Parts Embedded.g1Ys)).2.is
    0xa103e9823898123415caa0ee14669d5be569ad2cb02593db15e92957cbc1658adbaa6e99d9eaffa0201a068835accff
    0x3cf5582c22b91f6aab20df61ad375ebcd9638d8919408f8ca0d07391684571ea8933cd26a90ddbea56ca36ab75c6bca
    0x81b3f16448115c3959058cb4c95985cfe5a7a7327c3b112dbae07bf9bb3335f5b15d9e393dddaead0185291d40db524) = true := by decide +kernel

theorem windowD15 : ((agg 0x1a0111ea397fe69a4b1ba7b6434bacd764774b84f38512bf6730d2a0f6b0f6241eabfffeb153ffffb9feffffffffaaab 0x1a0111ea397fe69a4b1ba7b6434bacd764774b84f38512bf6730d2a0f6b0f6241eabfffeb153ffffb9feffffffffaaaa [135, 134, 133, 132, 131, 130, 129, 128] (zip3s coeffsD Embedded.g1Parts Embedded.g1Ys)).2.is
    0x5819d87eab8c90ed07e10f7f66a9d565e7a3a7f99787e8f1e474942c19a1e2b64c29177021d972b3ea7221abfb13b5e
    0x144302526c20319974c003c9a0a663a240831308008f3d4c890f3611c37cfa5ca1c22f65154bcfeaeca416b278a1d0aa
    0x179b0c09cb0ba636579547ee900148aa20de2c100b2d3a03ad22736b047f174665b38872be596aef9a902181281e0c9d) = true := by decide +kernel

end Verif.Vectors
