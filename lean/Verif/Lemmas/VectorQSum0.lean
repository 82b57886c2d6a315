import Verif.Lemmas.VectorQCoeffs

set_option linter.unusedSectionVars false
set_option Elab.async false
set_option maxRecDepth 100000
set_option exponentiation.threshold 100000000

/-! Proof 100 in test_vectors/compute_cells_and_kzg_proofs/kzg-mainnet/
compute_cells_and_kzg_proofs_case_valid_4aedd1a2a3933c3e, part 0: the sums for eight bits of the coefficients -/
namespace Verif.Vectors
open Msm

theorem windowQ0 : ((agg 0x1a0111ea397fe69a4b1ba7b6434bacd764774b84f38512bf6730d2a0f6b0f6241eabfffeb153ffffb9feffffffffaaab 0x1a0111ea397fe69a4b1ba7b6434bacd764774b84f38512bf6730d2a0f6b0f6241eabfffeb153ffffb9feffffffffaaaa [255, 254, 253, 252, 251, 250, 249, 248] (zip3s coeffsQ Embedded.g1Parts Embedded.g1Ys)).2.is
    0x2ddefe4f13a4ce2503cf0b3277807e3c99fc67a21fc6e44e3d213fe7b5cf545b18a130d7cc2faa346175807359157e0
    0x31005f3e442f6143b6728f704bc644a164dbebb10c259e70267615fe24dc1b4c0a870ea5d68b923f98f6ed2defb3f6e
    0x81eacdda4cf36c71ab197056aa7e1ae9ecc2e78019bb50253850bc0aa4b520ad9ce318277df697df88b2c5945f38c51) = true := by decide +kernel

theorem windowQ1 : ((agg 0x1a0111ea397fe69a4b1ba7b6434bacd764774b84f38512bf6730d2a0f6b0f6241eabfffeb153ffffb9feffffffffaaab 0x1a0111ea397fe69a4b1ba7b6434bacd764774b84f38512bf6730d2a0f6b0f6241eabfffeb153ffffb9feffffffffaaaa [247, 246, 245, 244, 243, 242, 241, 240] (zip3s coeffsQ Embedded.g1Parts Embedded.g1Ys)).2.is
    0x12bbe05c3dd4ef2155937d8d3da7f90885723f691385272a9f616869b87eef1a51a9c04a27d87f499640f3b01bbf8d85
    0x464345c2de74dabac27746018a1407737c63aed9544263cb6608517e966f91321a27e44907f18e545d184ac155d62f1
    0x18f8950f617870f249f8ec55d1649f7cf8674fd8bf7fff8badd16a68bbfce11951f8e52a3e07af9f6c5f7ddac5b1bfad) = true := by decide +kernel

theorem windowQ2 : ((agg 0x1a0111ea397fe69a4b1ba7b6434bacd764774b84f38512bf6730d2a0f6b0f6241eabfffeb153ffffb9feffffffffaaab 0x1a0111ea397fe69a4b1ba7b6434bacd764774b84f38512bf6730d2a0f6b0f6241eabfffeb153ffffb9feffffffffaaaa [239, 238, 237, 236, 235, 234, 233, 232] (zip3s coeffsQ Embedded.g1Parts Embedded.g1Ys)).2.is
    0x6908e3ad7077a6def8c3b4e7426f5e85f54016300471aa70e8ce4a30587e7e192318aac14f2672b69fb028ad94c25b1
    0x10d984812373eff36f6bfdeb0800713f52e74dc1ecc548dc4103f22342a8eda1df0b195de6dc015a67c6cc2dc77c0e3b
    0xdb18410bfdc676131e384c8d0f5aa0602a5989fbfa6923a9e5b72c37aeb5ca273f53fc11af5aa9d7f6871ebd87dcc08) = true := by decide +kernel

theorem windowQ3 : ((agg 0x1a0111ea397fe69a4b1ba7b6434bacd764774b84f38512bf6730d2a0f6b0f6241eabfffeb153ffffb9feffffffffaaab 0x1a0111ea397fe69a4b1ba7b6434bacd764774b84f38512bf6730d2a0f6b0f6241eabfffeb153ffffb9feffffffffaaaa [231, 230, 229, 228, 227, 226, 225, 224] (zip3s coeffsQ Embedded.g1Parts Embedded.g1Ys)).2.is
    0x79ee37b4d3054e059bbef886de2a8be37a92f31823a8f48d8ecfc64838bddb8a4004bb15d2fe245f96a1245d5b4b17c
    0x19cbb007f92ea868e3ed3ef3e51dbeac1740106c34341794bf90ed49cf881f5de010928c39bc3f53f833ae7deb43c9ca
    0xe4ec4db6e979c676be584cc59ed8b52ad0ffaeef40518b7c5149c184e87d88545e280267efc53004099681698fc9276) = true := by decide +kernel

theorem windowQ4 : ((agg 0x1a0111ea397fe69a4b1ba7b6434bacd764774b84f38512bf6730d2a0f6b0f6241eabfffeb153ffffb9feffffffffaaab 0x1a0111ea397fe69a4b1ba7b6434bacd764774b84f38512bf6730d2a0f6b0f6241eabfffeb153ffffb9feffffffffaaaa [223, 222, 221, 220, 219, 218, 217, 216] (zip3s coeffsQ Embedded.g1Parts Embedded.g1Ys)).2.is
    0x442de57f71144fdb71a9adebbb1749cd649de799ba3f959c676669f678db7cd2ea4b5222d809612589867995d4a0f9a
    0xd5e1a45228dc72f86d413192f2384d48e74e2ce0f76ce44167f0e7b6c563ec4abee9eecab384d9c14fdea60b9c197d
    0x7512935d3b23459e5d829bb7f5519528eb4ffde54afd1cf6aeea3794760d458d8231352a2fe8fc112aef9324ff05619) = true := by decide +kernel

theorem windowQ5 : ((agg 0x1a0111ea397fe69a4b1ba7b6434bacd764774b84f38512bf6730d2a0f6b0f6241eabfffeb153ffffb9feffffffffaaab 0x1a0111ea397fe69a4b1ba7b6434bacd764774b84f38512bf6730d2a0f6b0f6241eabfffeb153ffffb9feffffffffaaaa [215, 214, 213, 212, 211, 210, 209, 208] (zip3s coeffsQ Embedded.g1Parts Embedded.g1Ys)).2.is
    0xce4c18331b97bb5c99cda284aa0630ee20bcd16e259f45faa98b3f8d90ded66374776007338de1197a5779f0de0f02a
    0x111667b2670344a27d28c3587fa73f5a2bec05f7d2ab57f5a2f17c8cac4d0469f6a104fab69121e83193d0c41021a1a6
    0x668cce59dbd9b0a8248ed6dc44011701c15c866143fd31050c91c368ffdc93ab589c8f281f727da1f21a5d0fa4f2078) = true := by decide +kernel

theorem windowQ6 : ((agg 0x1a0111ea397fe69a4b1ba7b6434bacd764774b84f38512bf6730d2a0f6b0f6241eabfffeb153ffffb9feffffffffaaab 0x1a0111ea397fe69a4b1ba7b6434bacd764774b84f38512bf6730d2a0f6b0f6241eabfffeb153ffffb9feffffffffaaaa [207, 206, 205, 204, 203, 202, 201, 200] (zip3s coeffsQ Embedded.g1Parts Embedded.g1Ys)).2.is
    0x7e8ec34b82653d523cf60d82e0614b8fa1eb112bef346936a7cb3a831d1bf47c5da713186b2d3ac35f486d4246ac45
    0x165ff5dd229ca441841600366e464cf8624b4ad3c13e29ee346b1d6a55a8954a3e0a138cc59458a0fb165bd48189422b
    0x1307325fa3737edba4f61c8cebbfce30c189c63129e0cdc1d8c66ad1131128287f1870f7c2179d2202d3fe0589ab661c) = true := by decide +kernel

theorem windowQ7 : ((agg 0x1a0111ea397fe69a4b1ba7b6434bacd764774b84f38512bf6730d2a0f6b0f6241eabfffeb153ffffb9feffffffffaaab 0x1a0111ea397fe69a4b1ba7b6434bacd764774b84f38512bf6730d2a0f6b0f6241eabfffeb153ffffb9feffffffffaaaa [199, 198, 197, 196, 195, 194, 193, 192] (zip3s coeffsQ Embedded.g1Parts Embedded.g1Ys)).2.is
    0x119ecc2d5704962cf1bc8fa1a6f9e86b5be92f84b19f2ac0142cb477911de76cb0d75f48f3125c15e500aba950afe6d7
    0x9e47ba4d8c07758c2ee01da8916a57c605808d221ad6ce6b88067e5ecf789ed033f4db6cac70195a4ac1949748ac5bd
    0x1323abccaaecc8fe919fe5334c9e627b1738f15e3d1d03d3870084e06c1f17e44929bb0e82e4ec15ad1fb82cd7c75d50) = true := by decide +kernel

theorem windowQ8 : ((agg 0x1a0111ea397fe69a4b1ba7b6434bacd764774b84f38512bf6730d2a0f6b0f6241eabfffeb153ffffb9feffffffffaaab 0x1a0111ea397fe69a4b1ba7b6434bacd764774b84f38512bf6730d2a0f6b0f6241eabfffeb153ffffb9feffffffffaaaa [191, 190, 189, 188, 187, 186, 185, 184] (zip3s coeffsQ Embedded.g1Parts Embedded.g1Ys)).2.is
    0xd0ffc5082a9c80ee80d0577a601178ac52f6af090de2a88e0eca42ed001126f025ccbee21a6839786a386c52cdbed22
    0x19e59e3b4e3a7c84214c140f6690a68bb8c5aa558d30f81ab7916170f3dd4009eba7f5e2fa5bed5bcbcc4fd34374ece2
    0xfe15a06373b3c136cbf506f5d374b2a768be28943e20623e0047259bd6487044254c878d18647ef5e2047adc838d7e5) = true := by decide +kernel

theorem windowQ9 : ((agg 0x1a0111ea397fe69a4b1ba7b6434bacd764774b84f38512bf6730d2a0f6b0f6241eabfffeb153ffffb9feffffffffaaab 0x1a0111ea397fe69a4b1ba7b6434bacd764774b84f38512bf6730d2a0f6b0f6241eabfffeb153ffffb9feffffffffaaaa [183, 182, 181, 180, 179, 178, 177, 176] (zip3s coeffsQ Embedded.g1Parts Embedded.g1Ys)).2.is
    0x41ecdac6469d94f773367506b6d99cc59f5e6caba61ccaf55ffad135d90a6923f271513d476bb683bdb3f2aa4913ebe
    0xa83bfed11efd9edb4cebe260c6a2310d72c7be11073bec41037ae4e56b38c203cf2b5d76b1566d684663251f6b5a9ba
    0x18e3b825870224d816cc8cf38e3f7d3d4ae20ced5e51771aa480f2e7d4b99dc78260752525cc6eae797172aa7bd6f82a) = true := by decide +kernel

theorem windowQ10 : ((agg 0x1a0111ea397fe69a4b1ba7b6434bacd764774b84f38512bf6730d2a0f6b0f6241eabfffeb153ffffb9feffffffffaaab 0x1a0111ea397fe69a4b1ba7b6434bacd764774b84f38512bf6730d2a0f6b0f6241eabfffeb153ffffb9feffffffffaaaa [175, 174, 173, 172, 171, 170, 169, 168] (zip3s coeffsQ Embedded.g1Parts Embedded.g1Ys)).2.is
    0x19b2a163b44d99754fd344d3ba60123cbd0b727762e82255a341872471b32146b8f13473b6c8d486a4f379bd56626449
    0x10624bbe073f7839fc04d38e78d29deed3008ae8cbeae68083f6d7db1ba4b8429494b3988d09d5e9081e426e0a3f1dfa
    0xc48871b551d7b3460fcec154b06435fe4058723d74774c367bb9e84f144840bae3a93faa3d34b0fa2c37e3d8c80393f) = true := by decide +kernel

theorem windowQ11 : ((agg 0x1a0111ea397fe69a4b1ba7b6434bacd764774b84f38512bf6730d2a0f6b0f6241eabfffeb153ffffb9feffffffffaaab 0x1a0111ea397fe69a4b1ba7b6434bacd764774b84f38512bf6730d2a0f6b0f6241eabfffeb153ffffb9feffffffffaaaa [167, 166, 165, 164, 163, 162, 161, 160] (zip3s coeffsQ Embedded.g1Parts Embedded.g1Ys)).2.is
    0x1210c07b759f3251e244f2369e0714cd13da7d6b725f4c007f70d2c63135f4c3de9a718a14cba213f1d6f98649f4e3e2
    0xa9e80200ce60412c10be995f3afef4475c12e36ed957236c996f550b793e7e70cc73a2b73c54c6afcc9c5308d02ddd1
    0x15821610a1eb0bbc97d767219ff499b556affe3520534a411f0bfbf8a0a8ac526faa2439dc0be8c92d6e0daa9ddde65) = true := by decide +kernel

theorem windowQ12 : ((agg 0x1a0111ea397fe69a4b1ba7b6434bacd764774b84f38512bf6730d2a0f6b0f6241eabfffeb153ffffb9feffffffffaaab 0x1a0111ea397fe69a4b1ba7b6434bacd764774b84f38512bf6730d2a0f6b0f6241eabfffeb153ffffb9feffffffffaaaa [159, 158, 157, 156, 155, 154, 153, 152] (zip3s coeffsQ Embedded.g1Parts Embedded.g1Ys)).2.is
    0xee12e7c3fe6ecf23599a81e35d5f9bcb2565baeb83d203dddb31c04d2c7af02f5017138d6fcc9876f57ec8db6749e8e
    0x43a47deb920f985be726f35f6b13f951a3234240dff1a6dc2cfa56925d022d655e53c7a1a49c291e34d95e065ce16e4
    0x11d2a0f75ed237e594bc46f5bc8288f6bc39be8e483c18c029b33a98f7c1b432dd3a2d02d5609ee889e0dd2db015604e) = true := by decide +kernel

theorem windowQ13 : ((agg 0x1a0111ea397fe69a4b1ba7b6434bacd764774b84f38512bf6730d2a0f6b0f6241eabfffeb153ffffb9feffffffffaaab 0x1a0111ea397fe69a4b1ba7b6434bacd764774b84f38512bf6730d2a0f6b0f6241eabfffeb153ffffb9feffffffffaaaa [151, 150, 149, 148, 147, 146, 145, 144] (zip3s coeffsQ Embedded.g1Parts Embedded.g1Ys)).2.is
    0x227e4957b7be791d920f9beda60bf414f77a5704399c8b80c7be9b8d1766f29d2479d0c55d541b675e57f302611e61b
    0x1570efd5440aa1a4b88d99c47af8b27eab38e8ea78df5fae7462a9bf88b4895b5db1ad53b32f7cf0c7a821dfba19a888
    0x2672257ee0ff5eca4891e62389569d89ec9ebb588c4582bd26653b73863a58ae314881418b3b2f1337bccccfd4230f8) = true := by decide +kernel

theorem windowQ14 : ((agg 0x1a0111ea397fe69a4b1ba7b6434bacd764774b84f38512bf6730d2a0f6b0f6241eabfffeb153ffffb9feffffffffaaab 0x1a0111ea397fe69a4b1ba7b6434bacd764774b84f38512bf6730d2a0f6b0f6241eabfffeb153ffffb9feffffffffaaaa [143, 142, 141, 140, 139, 138, 137, 136] (zip3s coeffsQ Embedded.g1Parts Embedded.g1Ys)).2.is
    0x6a4659d24c31bdb21404a8b795902effa1e673dc601156c69f96cfd14d957b7927774861199739bed6338e7785d52e3
    0x181fb2e0041ce20746d994d32ae271082fbffe280c749132bc21d8d9146a166e74023eab3837e9991d36e7a569023e0c
    0x1091f2ce7691cf5ededfa30714be43f3e829e4b62c7917c14b8ae33e39bf7b22fbd7d36d16ed535cc7b58cad8ecb84af) = true := by decide +kernel

theorem windowQ15 : ((agg 0x1a0111ea397fe69a4b1ba7b6434bacd764774b84f38512bf6730d2a0f6b0f6241eabfffeb153ffffb9feffffffffaaab 0x1a0111ea397fe69a4b1ba7b6434bacd764774b84f38512bf6730d2a0f6b0f6241eabfffeb153ffffb9feffffffffaaaa [135, 134, 133, 132, 131, 130, 129, 128] (zip3s coeffsQ Embedded.g1Parts Embedded.g1Ys)).2.is
    0xda369bf9d7e1dbc3527bd710e43133a4a00bc46fe316d8c8577562a77b288a69ab6f24a2238d86e86a8fbac25c556cd
    0xd25546e207ec44b4b5c5de7410a861fdbc7e5a7ee76fa1d4351f31905ea97ea6369600691f589a5674a629f8d4f40d4
    0x8bf2b49b236993d8a02fecbb4429fbdb61c8c57ebba78003b6607b6b152f13976e078663485832c394e54edf835c215) = true := by decide +kernel

end Verif.Vectors
