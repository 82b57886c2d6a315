import Verif.Lemmas.VectorDSum0
import Verif.Lemmas.VectorDSum1

set_option linter.unusedSectionVars false
set_option Elab.async false
set_option maxRecDepth 100000
set_option exponentiation.threshold 100000000

/-! The commitment in test_vectors/blob_to_kzg_commitment/kzg-mainnet/blob_to_kzg_commitment_case_valid_blob_fb324bc819407148 -/
namespace Verif.Vectors
open Bls Msm

def windowsD : List (List Nat × Jc) := [
  ([255, 254, 253, 252, 251, 250, 249, 248], (.pt 0x9bed98fe1be0fe20fe4ae86c7f19ecef332b27556f2f122e1415d888d3b98c75380e75497d09f00e289ce80f797a972 0x5f4aebb4def533173a341f27ef1f3c3b9d5ad82f54309e80abfd9aacca9077f05653eaa5efb9c140dd6cb66ddde58fd 0x1167cc03d9a3db260ff3ca694e6888b9aa82f0d0ff85bca39a9068877ccf1aa7fff8182837d747e9b105f4954c8600e4)),
  ([247, 246, 245, 244, 243, 242, 241, 240], (.pt 0x1575a2be70c3f020ea1a51d8ff9dd4bd46abbf4e58be6cce81ad48f0ca159af5f876b93efd3f1adaf70cd4b884c79f85 0x3a1b6f8e10656cf48ae9c69463c13b0e7375eeee17726dad64d66c8a19704d90ee7dd3d934dafb9b832a5a5eb61d611 0x6a3138ca1623ccac3c712c8e8463e35c29dc89e23b755ea39611fe882029f25ac6cd6e0abc9180d621abb63550a5f4d)),
  ([239, 238, 237, 236, 235, 234, 233, 232], (.pt 0x8c319fa8a1a5b7f6721c5904c1e3f2b888414b3097ef06ad70711c812308854b17733d50e223fa069fec68bd59582ce 0x13c738c70fe3dbac0bb8121c72284f9ee417bd5d0f8ad66805b923545db2a652784320792bf7acf5b29fdb84058ef99b 0x124f2a9a8434e905c593874570c4e15bec3d3af902695f0b42f92a82f3395177f0bcd259581c5be6ad8418690e30f191)),
  ([231, 230, 229, 228, 227, 226, 225, 224], (.pt 0x15604cfbd3ba0543fa3486a0c2cc74a8e092262c58a4fd9c6c4f8660fb217fea3dda16b566503fe1f3cc27c70bc2e9e6 0x150fa50606902a56207c2cf60d427a1e9079ec925c92a2bfed2b998daba4132655abd61f4eff0fe9c62701908f8f8881 0x496cc0a9c0d1eea1b61ecbd5c8688d5ae322af3627488596f4bae2a7d513ea641bd73e583e98dfa9acdf64e22889340)),
  ([223, 222, 221, 220, 219, 218, 217, 216], (.pt 0x12a6c657c32d431d95e3fcfb7dbcd3ed69bfa7bbeab8c311369d2c007e41f9eaa98b9903228e980c8aa2605778929ce4 0x3a47c21361af2cae6bb6d3b87038be54ac756273037c670dc50d33ea63e99cda7c9b81c5401afa87c1aece747638aa6 0x45b609472b4663c567c8b95a005c0f27e3852b98aa4818369160f51ce0525d4a9c3702ae25703f5685e7ed5f224630f)),
  ([215, 214, 213, 212, 211, 210, 209, 208], (.pt 0x18c605df1dd61aa9c6dcb75947fcad89f213e2afe045286beee7f118f1c4ad03e91c462fa5e7f7b34599e0e9f7c7c18c 0xcd37eae1f937dc03fe511c2371eb5f594150c892553f42b9af600caea58df456a6b390a8176b98f224e1b70b70b7fa2 0xc6daffe434dc686ff6d8f9ac17ed58bf789fab21e4433c50a21c30e21a3e05d9f51cc96c3ccf8df5c286a1ed9d8e76a)),
  ([207, 206, 205, 204, 203, 202, 201, 200], (.pt 0x19b97c4aa15646f7faeadc9e81afab01aaf10bd4d432e5f0ef2babfe92bef3886f92c58ab1916bac237a24d53935dc0d 0x12ae8741acbf683f8743e6d51aa8a42d31359ffdb799f1ae981e80f2ff28643bec93c70fb04c183355b64ec775e718f7 0x14966aa739745cb17d9c96ce08b9d06b22de23fea649946654fc6c3ece17f823b9e0e78a09e5921b035a407211b5cdab)),
  ([199, 198, 197, 196, 195, 194, 193, 192], (.pt 0x87edfe0fc82810afe2300483d85872f9f91e6b9cfea99e26112b9097ccf1612d2b11693df0d58328064b1715d29535c 0x7dd04b9868ab747a0cddf40ef04b210c9d4283126c4b246757fa502274367953a223e79895647529bfd8bf8a1cad50a 0x15d213cfe4824691cf903a7db7d6c1828b0b1455b9331ddf77d8f17d310b89c966a9421d74235e76ce4a59c1f3252bf0)),
  ([191, 190, 189, 188, 187, 186, 185, 184], (.pt 0x108fa28ed69f8a29fba52a9e5d0513497940221a6e5eb9cba89ea246f370df86d701f9aeecf5530457989c23b6893ad9 0x35001e54021a03a634ace5b2c768b20d6543fb45394f3e79e3105067bd3d500e195caff6b2824f6b3fc7814886abd7f 0x12fda79882735d0faa09014ac4a7366e6aba636fc4b945026c9d5e7c16206e58f39a5e97badb59fbf312a4bbc9a0421d)),
  ([183, 182, 181, 180, 179, 178, 177, 176], (.pt 0x126b10f9bfa228f7ce7965433bdc2a782199e2a17a5ea07238a1cf31c0042783b2e70be1ef4676d0eb8a111a9a2a0e04 0x1f8fb30b4d912b9ee57fe93b40ca8c61ff72b3519315f2b0ad251f9e3aadfa75c36e1e0a444005efacfe442e34c80bc 0x69a848034b186751a399cd14012b746e18df04a3e9c93a9ff3a298c7d449b3161f243031e4a8cf494f37bd59b7a0e9c)),
  ([175, 174, 173, 172, 171, 170, 169, 168], (.pt 0x19a6e3b691b2d45bedf5d585f9c9d9d074b9a79a25e58753c4047e44c7b7d2ad99d03d2fd1909751792ddd7831aaa4d0 0x10227e3e35e96c126f45a4054a633151b5e6a3a7ae9bf041c7d025ef232208faee6d1b99af22cefb642cc59d3ab71421 0xb4e0bd6e7a9fce4f9bcdfb60c8b8a8f50b8d9365ee1867346f5f665e113a4234c9c4501ef696a90ec51c4a13466af46)),
  ([167, 166, 165, 164, 163, 162, 161, 160], (.pt 0x13c30c27de5d074087a64b9631b1d52c69d68a809e497bc5c0b49a49ea6841debc2e26c21fbaf02c0e8f82e6ee1a5768 0x18ccbc45ba95185f6c27bb47fee9a5bcb10c764ab465b7d0384be71ace595ea3ae1a9c82e976fcb2ebfc2a7f88956db1 0x2030c2e3047de96d7c6cd3dddf2ddae0584de7cb311200dd56afcad9ab2dbf63d58c128bddd213c1aadf56f7a36afe9)),
  ([159, 158, 157, 156, 155, 154, 153, 152], (.pt 0xf6b00a53adba070d6499d2664920ef3120e4209f8252a47b1edeb332a312331911fd4a9e8c0b5cae0c5bf81fc14a4e8 0xe4bdabc589ec87fe584e8dc62badc70bde2523eec2f131e212230d5c3473d31060cbb344ee665b4253e2b4a5baba49f 0x13b7b36610f7a26013719e9928afcae9e42e781dcec9897ed6117fd4554ffc02cedac5d5773c70a07ec4b693388b5be0)),
  ([151, 150, 149, 148, 147, 146, 145, 144], (.pt 0x10f6ab40b97017af476e39cb04ce880773b45a81d6a14880f4b8992f08a3f0886e2064f5d2c05dc56503d892848cf6c1 0x18a6a1f732fb1b76f58a93d478c338c1a1e075cf67581484608d6a0538c9b2270f52be3f8a7cddbf900ddf72f9858003 0xca5cbab873fce0d731131a425ca38d8b22b294160088bb4af40377902d556aaa1978f54bf609d0ea4ae1c4ab6298e32)),
  ([143, 142, 141, 140, 139, 138, 137, 136], (.pt 0xa103e9823898123415caa0ee14669d5be569ad2cb02593db15e92957cbc1658adbaa6e99d9eaffa0201a068835accff 0x3cf5582c22b91f6aab20df61ad375ebcd9638d8919408f8ca0d07391684571ea8933cd26a90ddbea56ca36ab75c6bca 0x81b3f16448115c3959058cb4c95985cfe5a7a7327c3b112dbae07bf9bb3335f5b15d9e393dddaead0185291d40db524)),
  ([135, 134, 133, 132, 131, 130, 129, 128], (.pt 0x5819d87eab8c90ed07e10f7f66a9d565e7a3a7f99787e8f1e474942c19a1e2b64c29177021d972b3ea7221abfb13b5e 0x144302526c20319974c003c9a0a663a240831308008f3d4c890f3611c37cfa5ca1c22f65154bcfeaeca416b278a1d0aa 0x179b0c09cb0ba636579547ee900148aa20de2c100b2d3a03ad22736b047f174665b38872be596aef9a902181281e0c9d)),
  ([127, 126, 125, 124, 123, 122, 121, 120], (.pt 0x10fa7c9d478ebc73cb945deb51b2173ddbe2ba22f6aa3f23794c9c979e642e0b09e6cf6cd0cc1ef64ecbf32758bfba7f 0x105c0215d76c4f90e894e8429791f8465167c21c0f100adac9c7b45361e6c62b245c00da2740c47f05136e7018ea1e25 0x1935fd1d09362f3d33198fad1d6e6f1449210e2c92160c5dd0774b10afef44138081d7d4fe86fcb4052de4660f5b0a9f)),
  ([119, 118, 117, 116, 115, 114, 113, 112], (.pt 0xc1f5e9dacb727ed16ad6ab83542241e1e7ed6005bb8fdd0b5ee831e77f1b48765872df03da5bbb54dce62c097e4ad45 0x1670ce2e6c4da4e31a7a20709ef1b976322ee2ce4bc4cea79e4b32a467fa1eafa48abcbb0bcb45cb7fba9d1aeecd1b04 0xd0a599838e1b0445f9b64e16c7bac9084b55cc43e90fd0e4d004b31ab47b96e98cff35ab7b886f88f281e4e7bc133c9)),
  ([111, 110, 109, 108, 107, 106, 105, 104], (.pt 0x12b6cd5b4f02c2dc6425ac18b97ef3beab517168873daa1f2309f59166b69023001d670d298a455dbab44443bf6d4e45 0xcbfc88c0e905d4b7522658a012b39e1d1dbda1cff5a9566883145802ffedaabcebf539d1d885d117c23174749788572 0x4fa531c14477d5747ef568e96b2baac00233a4abbdf68bf457eb8b406d70261f0918057a089f85786ee5bff85a13b24)),
  ([103, 102, 101, 100, 99, 98, 97, 96], (.pt 0x1621cd07c5db6c7a8603916dc3afcb1b562f773d2601732ebd1fac59db3876e1ad4103e348c45c25d1e5f9268e81a92c 0xa0f3556cc40717c224ff594782ddd1db7b1616a059c06cb47fad22d8ddca472affd2bf3b84e02638ae83098d60567b7 0xc320fbf30620b53fff1f78641c256fee0b9e39849eaebe437965469b3bff603272f9a4e0c25f34e602ee0f762841ddf)),
  ([95, 94, 93, 92, 91, 90, 89, 88], (.pt 0x4d848eac7f6d6c8079e6c22d09741ac5692f2ca89a9b3912820b8ed40ea9826ddd4de9ffb0c86b0ccf7fe05946d05a 0x92ce9e2e914d594461faa45678467e8a134f25cd26efdae86e02417ea1f70a972606e1e2601ae08f3fa285c5355df1f 0x14a76d959c062f1cd702d48b1823b85505571d71611debb1ed80da7c71d8117bb7632d427b0cdf2fd9f8a2a7d39d459c)),
  ([87, 86, 85, 84, 83, 82, 81, 80], (.pt 0xe16aa73b7be75cc7fdc945a078c7267069cb8b57ba4703ca9382b2c86123007f0b486a4665aa61b00b0889c7fbc28a8 0xf24e4600f8ff18b5198d415d49a96c1259237f9dd89bf3e659a35d790b80d7a5972af241d071a02f29d5e50ae9c489e 0x34a2f7e16fda715f3c9663b2153564144293cca9cfb217609160be7c9f39b557f2e02a834ab72e3b28a65be9284c1f1)),
  ([79, 78, 77, 76, 75, 74, 73, 72], (.pt 0x13ee7da3d7bfd6a214da397d2bab17b96fc36f6466b2bad40b35646a0252907d355fcd053b5f32ec07234d81eac20945 0x8130302a64f9f0391fbc9090d8dcc85eb48485f841b368364182694207bf576d16b9419fdb2ca985b7d26c24a72a631 0x150335ebad3b33fec7186464afecc9b42a7beda969dde8b6b7cde90120ec02c3e768919eccdd1fb49ce15dff6b6d73c6)),
  ([71, 70, 69, 68, 67, 66, 65, 64], (.pt 0x903d1180d369762f9f8988e217b1b892f8ae67ebdd89683d0264fe9c9f88206a4c3b5b32c9010391cb126538c63bcb4 0xe969b7ea3d1f147b2feb58c1ebad4f830e9c444415327272764396093b917a0aa7f0d0b2c7b4d17e56abbfdba348246 0x2103962064c0fd8025f09b2855ed73cab511bd51f6bb2febc565baa2179ebeeaa1443b5904db2625d777fef9a7e73d6)),
  ([63, 62, 61, 60, 59, 58, 57, 56], (.pt 0x153574031e6ff2ae00dc313df728927bce98c278298b80b0d757b43933fb4cd6c68d38f086a9ad6340cfc06b6857b507 0xcdb0edcafe7dff9b2bad3e7b4a69e434b7b5723ffef963639ec64ffc83af563953ca9570e27d0eba725b0c50e0c08af 0x142b173b26cc1299aa67b290912d100ec0573fb839f9c1e06b696aaa0836f7e42c8f29f35a873d17acd76b907a032084)),
  ([55, 54, 53, 52, 51, 50, 49, 48], (.pt 0x19970d7a0c5f0ca67aafdfc97e0f4aef44cf3fa7135bb30d3a9f6fe25b46a89a008c63655cfb73573e2a2f25b35afa64 0x7581c229d1269e0688f58c83cf886fa5fbf48f394d07d9867b69cffca2c4ea5f534d26f9462d9d3e7a5673ec2abfed0 0x19bd6e64362ab5241dfa79a39e47f6fbf0bdffffdbcc7bbb06f25b00e3824589e128fa12fbae5085863cec77fa49c5f9)),
  ([47, 46, 45, 44, 43, 42, 41, 40], (.pt 0x1734c1b8abed88bf12f6d705e80b8004643be05c6c1392c4fd0c1631471a49e9f5a61af5ad150d472be6987961ae9b5f 0x118d3930416c25f4909d6ae05710f48103b5983c47a1d9a4900c1cefea29e6c63fe5575007595b1acd93a09555d25b9d 0x720a8516c88cd30d2dd0807ab3746f2968995a0ebfe029adab38cffe40c8cfca30583da58101597f4c331e56a3fda87)),
  ([39, 38, 37, 36, 35, 34, 33, 32], (.pt 0x18cd464f6ef645fd5a0a608559aab403103afe1b8718d3ad4ee9d4f777abb2481e9c4136d6f7fbd9c9244071aacd8c3d 0x1436c02738e2a5cae9cd234424c6707a3a8c060c81ac41ebd8b493ef73461691faf447bafc67b8f5d2f8da296da5912 0x12479c123bfd40bb4e614083d99843b9588160b086bd07aebcdf860f102af9328531cce62bae52675a035cf5bd0e7599)),
  ([31, 30, 29, 28, 27, 26, 25, 24], (.pt 0x19d9c6875e95df803e19d3f908775eef271e057209fa24bba4788c617185970d1d6505b2c0f8864e3fd1f1a7caf66c6f 0xc6fdc195fedcb95aed5b920160409730f459fcb8aef4ff7d7d2d23a5ef90128487d65a3798d2a6e9dce216244f48eae 0x9219f03c7fdd77eaac2f7e00557a5fc19cb603285faabff19f5e8926f1c7f74424c5fe62b045389b2ec3c0c8c637675)),
  ([23, 22, 21, 20, 19, 18, 17, 16], (.pt 0x148641be3041f92b61e8b4f7c04a94c1c6442d7647b611a2fb17e260dfb4b494b32fe426a09d86f09a5d1060db7973f7 0x186bbb16fcef96c57c609d4a678d88d8c0c647dd2be66eb72bd25c7bd91ced41e6fb3c6e7ab739911f2f67a044f899e1 0xab3d3ff5fc49bebdb617eca92f3ddea1ac54d1635c510f6da052474419f2c501c15d43b79c58ad9c9423c08bd399ff6)),
  ([15, 14, 13, 12, 11, 10, 9, 8], (.pt 0xa9908698f10caffa14bc889d64461443dbe16954df837f0ae480d85cf3e73edc1a7ec2ea4e4f2b41d28898c84c24a93 0x71826056b32ae07eec76e71ca7179703f591180e44d825c9502902290ad478bc870e4043f72079d59e14131f9e9d8a1 0xb142e12dd02b573618bc247e0a58cec99a55241536e034d99c0ac414c759810a83a04235577c15f76746556c176fe1e)),
  ([7, 6, 5, 4, 3, 2, 1, 0], (.pt 0x6575b120334fc0e6e6333213a760ab7fb109a79a5aeb2030438c510c5bcc62247cb6aaf59896971cae626c984306476 0x51e64bdbe209f88a89dfec666cafc5a8d2523324ddfffcd1ead3852b763000ea8d1c83b8a78968f8943150d366628b5 0x32c97c06e153a27519587e6d4b73d3532ab0ab569c9da0c05b7d6ae9ea2ed239e4b15b75171e727d5a3a0614e74f525))]

theorem windowsD_eq : ∀ w ∈ windowsD, (agg 0x1a0111ea397fe69a4b1ba7b6434bacd764774b84f38512bf6730d2a0f6b0f6241eabfffeb153ffffb9feffffffffaaab 0x1a0111ea397fe69a4b1ba7b6434bacd764774b84f38512bf6730d2a0f6b0f6241eabfffeb153ffffb9feffffffffaaaa w.1 (zip3s coeffsD Embedded.g1Parts Embedded.g1Ys)).2 = w.2 := by
  refine List.forall_mem_cons.2 ⟨Jc.is_eq windowD0, ?_⟩
  refine List.forall_mem_cons.2 ⟨Jc.is_eq windowD1, ?_⟩
  refine List.forall_mem_cons.2 ⟨Jc.is_eq windowD2, ?_⟩
  refine List.forall_mem_cons.2 ⟨Jc.is_eq windowD3, ?_⟩
  refine List.forall_mem_cons.2 ⟨Jc.is_eq windowD4, ?_⟩
  refine List.forall_mem_cons.2 ⟨Jc.is_eq windowD5, ?_⟩
  refine List.forall_mem_cons.2 ⟨Jc.is_eq windowD6, ?_⟩
  refine List.forall_mem_cons.2 ⟨Jc.is_eq windowD7, ?_⟩
  refine List.forall_mem_cons.2 ⟨Jc.is_eq windowD8, ?_⟩
  refine List.forall_mem_cons.2 ⟨Jc.is_eq windowD9, ?_⟩
  refine List.forall_mem_cons.2 ⟨Jc.is_eq windowD10, ?_⟩
  refine List.forall_mem_cons.2 ⟨Jc.is_eq windowD11, ?_⟩
  refine List.forall_mem_cons.2 ⟨Jc.is_eq windowD12, ?_⟩
  refine List.forall_mem_cons.2 ⟨Jc.is_eq windowD13, ?_⟩
  refine List.forall_mem_cons.2 ⟨Jc.is_eq windowD14, ?_⟩
  refine List.forall_mem_cons.2 ⟨Jc.is_eq windowD15, ?_⟩
  refine List.forall_mem_cons.2 ⟨Jc.is_eq windowD16, ?_⟩
  refine List.forall_mem_cons.2 ⟨Jc.is_eq windowD17, ?_⟩
  refine List.forall_mem_cons.2 ⟨Jc.is_eq windowD18, ?_⟩
  refine List.forall_mem_cons.2 ⟨Jc.is_eq windowD19, ?_⟩
  refine List.forall_mem_cons.2 ⟨Jc.is_eq windowD20, ?_⟩
  refine List.forall_mem_cons.2 ⟨Jc.is_eq windowD21, ?_⟩
  refine List.forall_mem_cons.2 ⟨Jc.is_eq windowD22, ?_⟩
  refine List.forall_mem_cons.2 ⟨Jc.is_eq windowD23, ?_⟩
  refine List.forall_mem_cons.2 ⟨Jc.is_eq windowD24, ?_⟩
  refine List.forall_mem_cons.2 ⟨Jc.is_eq windowD25, ?_⟩
  refine List.forall_mem_cons.2 ⟨Jc.is_eq windowD26, ?_⟩
  refine List.forall_mem_cons.2 ⟨Jc.is_eq windowD27, ?_⟩
  refine List.forall_mem_cons.2 ⟨Jc.is_eq windowD28, ?_⟩
  refine List.forall_mem_cons.2 ⟨Jc.is_eq windowD29, ?_⟩
  refine List.forall_mem_cons.2 ⟨Jc.is_eq windowD30, ?_⟩
  refine List.forall_mem_cons.2 ⟨Jc.is_eq windowD31, ?_⟩
  exact fun w hw => absurd hw List.not_mem_nil

theorem resultD : (horner 0x1a0111ea397fe69a4b1ba7b6434bacd764774b84f38512bf6730d2a0f6b0f6241eabfffeb153ffffb9feffffffffaaab 0x1a0111ea397fe69a4b1ba7b6434bacd764774b84f38512bf6730d2a0f6b0f6241eabfffeb153ffffb9feffffffffaaaa .inf windowsD).is
    0x11cdbd3cdb740a64175b4bf2f403b3ea35f4e29d92ad9c82156e716dec57697461f5eb1c7a2b78b67c8fbf9dbe14423
    0x1375e79d9dde520629cb1814693aad075d7945815a8be78f274eaa84b7d869960f3d202550f51960dbcce39d96071f97
    0x188062b65718b3027849698cd3c59896b9e412461b9f5d2039b645fddcf3193be128e7021d10154e9a9244662ee64654 = true := by decide +kernel

theorem commitmentD {g : List G1}
    (hg : List.Forall₂ (fun n (P : G1) => Spec.EncodesG1 (natToBE 48 n) P) Embedded.g1Parts.flatten g) :
    Spec.EncodesG1 (natToBE 48 0xa421e229565952cfff4ef3517100a97da1d4fe57956fa50a442f92af03b1bf37adacc8ad4ed209b31287ea5bb94d9d06)
      (Spec.commitment g (Spec.polyOf (coeffsD.flatten.map (Nat.cast : Nat → Fr))) : G1) :=
  commitment_check (m := 0x1a0111ea397fe69a4b1ba7b6434bacd764774b84f38512bf6730d2a0f6b0f6241eabfffeb153ffffb9feffffffffaaaa)
    (y := 0xee3c0592ab28e14268541106e48ae30618a7aa78851024e647b234f16da727a91162b4c361eafce2fd3c48c006e77c5) hg coeffsD shapeD smallD
    (by decide +kernel) windowsD windowsD_eq (by decide +kernel) resultD (by decide +kernel) (by decide +kernel)

end Verif.Vectors
