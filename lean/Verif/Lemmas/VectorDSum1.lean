import Verif.Lemmas.VectorDCoeffs

set_option linter.unusedSectionVars false
set_option Elab.async false
set_option maxRecDepth 100000
set_option exponentiation.threshold 100000000

/-! The commitment in test_vectors/blob_to_kzg_commitment/kzg-mainnet/blob_to_kzg_commitment_case_valid_blob_fb324bc819407148, part 1: the sums for eight bits of the coefficients -/
namespace Verif.Vectors
open Msm

theorem windowD16 : ((agg 0x1a0111ea397fe69a4b1ba7b6434bacd764774b84f38512bf6730d2a0f6b0f6241eabfffeb153ffffb9feffffffffaaab 0x1a0111ea397fe69a4b1ba7b6434bacd764774b84f38512bf6730d2a0f6b0f6241eabfffeb153ffffb9feffffffffaaaa [127, 126, 125, 124, 123, 122, 121, 120] (zip3s coeffsD Embedded.g1Parts Embedded.g1Ys)).2.is
    0x10fa7c9d478ebc73cb945deb51b2173ddbe2ba22f6aa3f23794c9c979e642e0b09e6cf6cd0cc1ef64ecbf32758bfba7f
    0x105c0215d76c4f90e894e8429791f8465167c21c0f100adac9c7b45361e6c62b245c00da2740c47f05136e7018ea1e25
    0x1935fd1d09362f3d33198fad1d6e6f1449210e2c92160c5dd0774b10afef44138081d7d4fe86fcb4052de4660f5b0a9f) = true := by decide +kernel

theorem windowD17 : ((agg 0x1a0111ea397fe69a4b1ba7b6434bacd764774b84f38512bf6730d2a0f6b0f6241eabfffeb153ffffb9feffffffffaaab 0x1a0111ea397fe69a4b1ba7b6434bacd764774b84f38512bf6730d2a0f6b0f6241eabfffeb153ffffb9feffffffffaaaa [119, 118, 117, 116, 115, 114, 113, 112] (zip3s coeffsD Embedded.g1Parts Embedded.g1Ys)).2.is
    0xc1f5e9dacb727ed16ad6ab83542241e1e7ed6005bb8fdd0b5ee831e77f1b48765872df03da5bbb54dce62c097e4ad45
    0x1670ce2e6c4da4e31a7a20709ef1b976322ee2ce4bc4cea79e4b32a467fa1eafa48abcbb0bcb45cb7fba9d1aeecd1b04
    0xd0a599838e1b0445f9b64e16c7bac9084b55cc43e90fd0e4d004b31ab47b96e98cff35ab7b886f88f281e4e7bc133c9) = true := by decide +kernel

theorem windowD18 : ((agg 0x1a0111ea397fe69a4b1ba7b6434bacd764774b84f38512bf6730d2a0f6b0f6241eabfffeb153ffffb9feffffffffaaab 0x1a0111ea397fe69a4b1ba7b6434bacd764774b84f38512bf6730d2a0f6b0f6241eabfffeb153ffffb9feffffffffaaaa [111, 110, 109, 108, 107, 106, 105, 104] (zip3s coeffsD Embedded.g1Parts Embedded.g1Ys)).2.is
    0x12b6cd5b4f02c2dc6425ac18b97ef3beab517168873daa1f2309f59166b69023001d670d298a455dbab44443bf6d4e45
    0xcbfc88c0e905d4b7522658a012b39e1d1dbda1cff5a9566883145802ffedaabcebf539d1d885d117c23174749788572
    0x4fa531c14477d5747ef568e96b2baac00233a4abbdf68bf457eb8b406d70261f0918057a089f85786ee5bff85a13b24) = true := by decide +kernel

theorem windowD19 : ((agg 0x1a0111ea397fe69a4b1ba7b6434bacd764774b84f38512bf6730d2a0f6b0f6241eabfffeb153ffffb9feffffffffaaab 0x1a0111ea397fe69a4b1ba7b6434bacd764774b84f38512bf6730d2a0f6b0f6241eabfffeb153ffffb9feffffffffaaaa [103, 102, 101, 100, 99, 98, 97, 96] (zip3s coeffsD Embedded.g1Parts Embedded.g1Ys)).2.is
    0x1621cd07c5db6c7a8603916dc3afcb1b562f773d2601732ebd1fac59db3876e1ad4103e348c45c25d1e5f9268e81a92c
    0xa0f3556cc40717c224ff594782ddd1db7b1616a059c06cb47fad22d8ddca472affd2bf3b84e02638ae83098d60567b7
    0xc320fbf30620b53fff1f78641c256fee0b9e39849eaebe437965469b3bff603272f9a4e0c25f34e602ee0f762841ddf) = true := by decide +kernel

theorem windowD20 : ((agg 0x1a0111ea397fe69a4b1ba7b6434bacd764774b84f38512bf6730d2a0f6b0f6241eabfffeb153ffffb9feffffffffaaab 0x1a0111ea397fe69a4b1ba7b6434bacd764774b84f38512bf6730d2a0f6b0f6241eabfffeb153ffffb9feffffffffaaaa [95, 94, 93, 92, 91, 90, 89, 88] (zip3s coeffsD Embedded.g1Parts Embedded.g1Ys)).2.is
    0x4d848eac7f6d6c8079e6c22d09741ac5692f2ca89a9b3912820b8ed40ea9826ddd4de9ffb0c86b0ccf7fe05946d05a
    0x92ce9e2e914d594461faa45678467e8a134f25cd26efdae86e02417ea1f70a972606e1e2601ae08f3fa285c5355df1f
    0x14a76d959c062f1cd702d48b1823b85505571d71611debb1ed80da7c71d8117bb7632d427b0cdf2fd9f8a2a7d39d459c) = true := by decide +kernel

theorem windowD21 : ((agg 0x1a0111ea397fe69a4b1ba7b6434bacd764774b84f38512bf6730d2a0f6b0f6241eabfffeb153ffffb9feffffffffaaab 0x1a0111ea397fe69a4b1ba7b6434bacd764774b84f38512bf6730d2a0f6b0f6241eabfffeb153ffffb9feffffffffaaaa [87, 86, 85, 84, 83, 82, 81, 80] (zip3s coeffsD Embedded.g1Parts Embedded.g1Ys)).2.is
    0xe16aa73b7be75cc7fdc945a078c7267069cb8b57ba4703ca9382b2c86123007f0b486a4665aa61b00b0889c7fbc28a8
    0xf24e4600f8ff18b5198d415d49a96c1259237f9dd89bf3e659a35d790b80d7a5972af241d071a02f29d5e50ae9c489e
    0x34a2f7e16fda715f3c9663b2153564144293cca9cfb217609160be7c9f39b557f2e02a834ab72e3b28a65be9284c1f1) = true := by decide +kernel

theorem windowD22 : ((agg 0x1a0111ea397fe69a4b1ba7b6434bacd764774b84f38512bf6730d2a0f6b0f6241eabfffeb153ffffb9feffffffffaaab 0x1a0111ea397fe69a4b1ba7b6434bacd764774b84f38512bf6730d2a0f6b0f6241eabfffeb153ffffb9feffffffffaaaa [79, 78, 77, 76, 75, 74, 73, 72] (zip3s coeffsD Embedded.g1Parts Embedded.g1Ys)).2.is
    0x13ee7da3d7bfd6a214da397d2bab17b96fc36f6466b2bad40b35646a0252907d355fcd053b5f32ec07234d81eac20945
    0x8130302a64f9f0391fbc9090d8dcc85eb48485f841b368364182694207bf576d16b9419fdb2ca985b7d26c24a72a631
    0x150335ebad3b33fec7186464afecc9b42a7beda969dde8b6b7cde90120ec02c3e768919eccdd1fb49ce15dff6b6d73c6) = true := by decide +kernel

theorem windowD23 : ((agg 0x1a0111ea397fe69a4b1ba7b6434bacd764774b84f38512bf6730d2a0f6b0f6241eabfffeb153ffffb9feffffffffaaab 0x1a0111ea397fe69a4b1ba7b6434bacd764774b84f38512bf6730d2a0f6b0f6241eabfffeb153ffffb9feffffffffaaaa [71, 70, 69, 68, 67, 66, 65, 64] (zip3s coeffsD Embedded.g1Parts Embedded.g1Ys)).2.is
    0x903d1180d369762f9f8988e217b1b892f8ae67ebdd89683d0264fe9c9f88206a4c3b5b32c9010391cb126538c63bcb4
    0xe969b7ea3d1f147b2feb58c1ebad4f830e9c444415327272764396093b917a0aa7f0d0b2c7b4d17e56abbfdba348246
    0x2103962064c0fd8025f09b2855ed73cab511bd51f6bb2febc565baa2179ebeeaa1443b5904db2625d777fef9a7e73d6) = true := by decide +kernel

theorem windowD24 : ((agg 0x1a0111ea397fe69a4b1ba7b6434bacd764774b84f38512bf6730d2a0f6b0f6241eabfffeb153ffffb9feffffffffaaab 0x1a0111ea397fe69a4b1ba7b6434bacd764774b84f38512bf6730d2a0f6b0f6241eabfffeb153ffffb9feffffffffaaaa [63, 62, 61, 60, 59, 58, 57, 56] (zip3s coeffsD Embedded.g1Parts Embedded.g1Ys)).2.is
    0x153574031e6ff2ae00dc313df728927bce98c278298b80b0d757b43933fb4cd6c68d38f086a9ad6340cfc06b6857b507
    0xcdb0edcafe7dff9b2bad3e7b4a69e434b7b5723ffef963639ec64ffc83af563953ca9570e27d0eba725b0c50e0c08af
    0x142b173b26cc1299aa67b290912d100ec0573fb839f9c1e06b696aaa0836f7e42c8f29f35a873d17acd76b907a032084) = true := by decide +kernel

theorem windowD25 : ((agg 0x1a0111ea397fe69a4b1ba7b6434bacd764774b84f38512bf6730d2a0f6b0f6241eabfffeb153ffffb9feffffffffaaab 0x1a0111ea397fe69a4b1ba7b6434bacd764774b84f38512bf6730d2a0f6b0f6241eabfffeb153ffffb9feffffffffaaaa [55, 54, 53, 52, 51, 50, 49, 48] (zip3s coeffsD Embedded.g1Parts Embedded.g1Ys)).2.is
    0x19970d7a0c5f0ca67aafdfc97e0f4aef44cf3fa7135bb30d3a9f6fe25b46a89a008c63655cfb73573e2a2f25b35afa64
    0x7581c229d1269e0688f58c83cf886fa5fbf48f394d07d9867b69cffca2c4ea5f534d26f9462d9d3e7a5673ec2abfed0
    0x19bd6e64362ab5241dfa79a39e47f6fbf0bdffffdbcc7bbb06f25b00e3824589e128fa12fbae5085863cec77fa49c5f9) = true := by decide +kernel

theorem windowD26 : ((agg 0x1a0111ea397fe69a4b1ba7b6434bacd764774b84f38512bf6730d2a0f6b0f6241eabfffeb153ffffb9feffffffffaaab 0x1a0111ea397fe69a4b1ba7b6434bacd764774b84f38512bf6730d2a0f6b0f6241eabfffeb153ffffb9feffffffffaaaa [47, 46, 45, 44, 43, 42, 41, 40] (zip3s coeffsD Embedded.g1Parts Embedded.g1Ys)).2.is
    0x1734c1b8abed88bf12f6d705e80b8004643be05c6c1392c4fd0c1631471a49e9f5a61af5ad150d472be6987961ae9b5f
    0x118d3930416c25f4909d6ae05710f48103b5983c47a1d9a4900c1cefea29e6c63fe5575007595b1acd93a09555d25b9d
    0x720a8516c88cd30d2dd0807ab3746f2968995a0ebfe029adab38cffe40c8cfca30583da58101597f4c331e56a3fda87) = true := by decide +kernel

theorem windowD27 : ((agg 0x1a0111ea397fe69a4b1ba7b6434bacd764774b84f38512bf6730d2a0f6b0f6241eabfffeb153ffffb9feffffffffaaab 0x1a0111ea397fe69a4b1ba7b6434bacd764774b84f38512bf6730d2a0f6b0f6241eabfffeb153ffffb9feffffffffaaaa [39, 38, 37, 36, 35, 34, 33, 32] (zip3s coeffsD Embedded.g1Parts Embedded.g1Ys)).2.is
    0x18cd464f6ef645fd5a0a608559aab403103afe1b8718d3ad4ee9d4f777abb2481e9c4136d6f7fbd9c9244071aacd8c3d
    0x1436c02738e2a5cae9cd234424c6707a3a8c060c81ac41ebd8b493ef73461691faf447bafc67b8f5d2f8da296da5912
    0x12479c123bfd40bb4e614083d99843b9588160b086bd07aebcdf860f102af9328531cce62bae52675a035cf5bd0e7599) = true := by decide +kernel

theorem windowD28 : ((agg 0x1a0111ea397fe69a4b1ba7b6434bacd764774b84f38512bf6730d2a0f6b0f6241eabfffeb153ffffb9feffffffffaaab 0x1a0111ea397fe69a4b1ba7b6434bacd764774b84f38512bf6730d2a0f6b0f6241eabfffeb153ffffb9feffffffffaaaa [31, 30, 29, 28, 27, 26, 25, 24] (zip3s coeffsD Embedded.g1Parts Embedded.g1Ys)).2.is
    0x19d9c6875e95df803e19d3f908775eef271e057209fa24bba4788c617185970d1d6505b2c0f8864e3fd1f1a7caf66c6f
    0xc6fdc195fedcb95aed5b920160409730f459fcb8aef4ff7d7d2d23a5ef90128487d65a3798d2a6e9dce216244f48eae
    0x9219f03c7fdd77eaac2f7e00557a5fc19cb603285faabff19f5e8926f1c7f74424c5fe62b045389b2ec3c0c8c637675) = true := by decide +kernel

theorem windowD29 : ((agg 0x1a0111ea397fe69a4b1ba7b6434bacd764774b84f38512bf6730d2a0f6b0f6241eabfffeb153ffffb9feffffffffaaab 0x1a0111ea397fe69a4b1ba7b6434bacd764774b84f38512bf6730d2a0f6b0f6241eabfffeb153ffffb9feffffffffaaaa [23, 22, 21, 20, 19, 18, 17, 16] (zip3s coeffsD Embedded.g1Parts Embedded.g1Ys)).2.is
    0x148641be3041f92b61e8b4f7c04a94c1c6442d7647b611a2fb17e260dfb4b494b32fe426a09d86f09a5d1060db7973f7
    0x186bbb16fcef96c57c609d4a678d88d8c0c647dd2be66eb72bd25c7bd91ced41e6fb3c6e7ab739911f2f67a044f899e1
    0xab3d3ff5fc49bebdb617eca92f3ddea1ac54d1635c510f6da052474419f2c501c15d43b79c58ad9c9423c08bd399ff6) = true := by decide +kernel

theorem windowD30 : ((agg 0x1a0111ea397fe69a4b1ba7b6434bacd764774b84f38512bf6730d2a0f6b0f6241eabfffeb153ffffb9feffffffffaaab 0x1a0111ea397fe69a4b1ba7b6434bacd764774b84f38512bf6730d2a0f6b0f6241eabfffeb153ffffb9feffffffffaaaa [15, 14, 13, 12, 11, 10, 9, 8] (zip3s coeffsD Embedded.g1Parts Embedded.g1Ys)).2.is
    0xa9908698f10caffa14bc889d64461443dbe16954df837f0ae480d85cf3e73edc1a7ec2ea4e4f2b41d28898c84c24a93
    0x71826056b32ae07eec76e71ca7179703f591180e44d825c9502902290ad478bc870e4043f72079d59e14131f9e9d8a1
    0xb142e12dd02b573618bc247e0a58cec99a55241536e034d99c0ac414c759810a83a04235577c15f76746556c176fe1e) = true := by decide +kernel

theorem windowD31 : ((agg 0x1a0111ea397fe69a4b1ba7b6434bacd764774b84f38512bf6730d2a0f6b0f6241eabfffeb153ffffb9feffffffffaaab 0x1a0111ea397fe69a4b1ba7b6434bacd764774b84f38512bf6730d2a0f6b0f6241eabfffeb153ffffb9feffffffffaaaa [7, 6, 5, 4, 3, 2, 1, 0] (zip3s coeffsD Embedded.g1Parts Embedded.g1Ys)).2.is
    0x6575b120334fc0e6e6333213a760ab7fb109a79a5aeb2030438c510c5bcc62247cb6aaf59896971cae626c984306476
    0x51e64bdbe209f88a89dfec666cafc5a8d2523324ddfffcd1ead3852b763000ea8d1c83b8a78968f8943150d366628b5
    0x32c97c06e153a27519587e6d4b73d3532ab0ab569c9da0c05b7d6ae9ea2ed239e4b15b75171e727d5a3a0614e74f525) = true := by decide +kernel

end Verif.Vectors
