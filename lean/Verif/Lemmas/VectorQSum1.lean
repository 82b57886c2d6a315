import Verif.Lemmas.VectorQCoeffs

set_option linter.unusedSectionVars false
set_option Elab.async false
set_option maxRecDepth 100000
set_option exponentiation.threshold 100000000

/-! Proof 100 in test_vectors/compute_cells_and_kzg_proofs/kzg-mainnet/
compute_cells_and_kzg_proofs_case_valid_4aedd1a2a3933c3e, part 1: the sums for eight bits of the coefficients -/
namespace Verif.Vectors
open Msm

theorem windowQ16 : ((agg 0x1a0111ea397fe69a4b1ba7b6434bacd764774b84f38512bf6730d2a0f6b0f6241eabfffeb153ffffb9feffffffffaaab 0x1a0111ea397fe69a4b1ba7b6434bacd764774b84f38512bf6730d2a0f6b0f6241eabfffeb153ffffb9feffffffffaaaa [127, 126, 125, 124, 123, 122, 121, 120] (zip3s coeffsQ Embedded.g1Parts Embedded.g1Ys)).2.is
    0x14ff0800d44f11065327c4faf11e98bf1515cf9cea8df5f03014cd4ee6771298347aa08785a197cdaf5b53451232f948
    0x9865f6665a029868686a8e9356dc37e58c20530e1f3ca2b120e8895af7936dab01aed224e9126ca5496e0666bf56d2f
    0x12c83aa21e264eae7dba9b8afbab1820aaed56f38f7b7daf836297010881ffb78637f786877585a7848b8b8996105a8f) = true := by decide +kernel

theorem windowQ17 : ((agg 0x1a0111ea397fe69a4b1ba7b6434bacd764774b84f38512bf6730d2a0f6b0f6241eabfffeb153ffffb9feffffffffaaab 0x1a0111ea397fe69a4b1ba7b6434bacd764774b84f38512bf6730d2a0f6b0f6241eabfffeb153ffffb9feffffffffaaaa [119, 118, 117, 116, 115, 114, 113, 112] (zip3s coeffsQ Embedded.g1Parts Embedded.g1Ys)).2.is
    0xd4224b291e4e9dad7b44ce28ba656c9682fbeb2aac2b10d04d5725356ed6f2d86093ddf907a7c02c5248fbac1415021
    0xcee29260c2938e7365275c8c1915dc5c6b6aecdc61d43599882fea56532eb4dfbae4c4871a2c8ff6b4a39e7f294855e
    0x6c5f5c8ba6086ac93fe009046088ba3905022ab2ae60418bd166486460d46106acc6520361bd49cf7dd4cdf1dae90c1) = true := by decide +kernel

theorem windowQ18 : ((agg 0x1a0111ea397fe69a4b1ba7b6434bacd764774b84f38512bf6730d2a0f6b0f6241eabfffeb153ffffb9feffffffffaaab 0x1a0111ea397fe69a4b1ba7b6434bacd764774b84f38512bf6730d2a0f6b0f6241eabfffeb153ffffb9feffffffffaaaa [111, 110, 109, 108, 107, 106, 105, 104] (zip3s coeffsQ Embedded.g1Parts Embedded.g1Ys)).2.is
    0x66743ca641c3a06cb0fb4781e64c167b143f5e47f5f4bf875b81f625e5f9b8f4eedde14ae74b62bb81fe8ffce538689
    0x117904371f970224f6d315ca138e862320595b76571d9c722b632f702d6e6bd7fefe70f41a24bc23a80d2e30f94f2d7e
    0xff9c438ec7ce7267dc5c0887236f65224bff32a3e25f945a8c1e1af7515332f68643cc1b161f25a9845984dffe93c2c) = true := by decide +kernel

theorem windowQ19 : ((agg 0x1a0111ea397fe69a4b1ba7b6434bacd764774b84f38512bf6730d2a0f6b0f6241eabfffeb153ffffb9feffffffffaaab 0x1a0111ea397fe69a4b1ba7b6434bacd764774b84f38512bf6730d2a0f6b0f6241eabfffeb153ffffb9feffffffffaaaa [103, 102, 101, 100, 99, 98, 97, 96] (zip3s coeffsQ Embedded.g1Parts Embedded.g1Ys)).2.is
    0x30f8bd675739212b5a0eec8548563762b2e6e1ecd59efc4827a468d36d9f8f760a868753874e2cc5c16e11bd17dcefe
    0x1908510bc793b1ad62b304c2b486fe8cd740379b42c4d48fa2a2d8683f8e0338989e254adb84bc4abad53975943795aa
    0x145195aef5f144ec6bc8cc11c5333573fee8d1ad662e6a637d9065ea0232f86a87f1f2b5bee56a7eabe5242d1dce1ee1) = true := by decide +kernel

theorem windowQ20 : ((agg 0x1a0111ea397fe69a4b1ba7b6434bacd764774b84f38512bf6730d2a0f6b0f6241eabfffeb153ffffb9feffffffffaaab 0x1a0111ea397fe69a4b1ba7b6434bacd764774b84f38512bf6730d2a0f6b0f6241eabfffeb153ffffb9feffffffffaaaa [95, 94, 93, 92, 91, 90, 89, 88] (zip3s coeffsQ Embedded.g1Parts Embedded.g1Ys)).2.is
    0x1749d461aca1b81d50f4f57c02708fb276d2bac10fdf8e5d1bb91fc2f88b3722e0b77ee53d5174c6439554ab0ebcde85
    0x42c312745bc82e30cb48178bcade5d57223e5cbf0fe4bda253c9750415cc752f9a9a1203ff447c29bad519503da8942
    0x13d281436c4ff75adfe279215016697eba156310b1018995784bb6cbe84bb400e3b3302996776d278b64bda070955e05) = true := by decide +kernel

theorem windowQ21 : ((agg 0x1a0111ea397fe69a4b1ba7b6434bacd764774b84f38512bf6730d2a0f6b0f6241eabfffeb153ffffb9feffffffffaaab 0x1a0111ea397fe69a4b1ba7b6434bacd764774b84f38512bf6730d2a0f6b0f6241eabfffeb153ffffb9feffffffffaaaa [87, 86, 85, 84, 83, 82, 81, 80] (zip3s coeffsQ Embedded.g1Parts Embedded.g1Ys)).2.is
    0x17c6ef5d65561ee417d91037b640bc777cec0367f4a706581f8c97fbd6de6f9adecf0703a5a47ed7ea530f28f373786
    0x1925569bb5bb443b4ca0ab23760c990b77af1ff21b19561f22e9b8746acfff95ad4fd47de9cfbe63bfb25a4a061b76ec
    0x116d27a1a8011df109435ac5ba1e0d1b209279950872e45204dd275d68a6185efd2723bb78af6dd22f701c8dfc581e8b) = true := by decide +kernel

theorem windowQ22 : ((agg 0x1a0111ea397fe69a4b1ba7b6434bacd764774b84f38512bf6730d2a0f6b0f6241eabfffeb153ffffb9feffffffffaaab 0x1a0111ea397fe69a4b1ba7b6434bacd764774b84f38512bf6730d2a0f6b0f6241eabfffeb153ffffb9feffffffffaaaa [79, 78, 77, 76, 75, 74, 73, 72] (zip3s coeffsQ Embedded.g1Parts Embedded.g1Ys)).2.is
    0x925b67e695bec3a3d8f42d2daea1e79afadb5de40cc50ccc5310108166c0f65d638915e1daacd1e41ab9e4205c4bf3e
    0x3cf3331e794d91bde05ede1a7dbadea3da07ef99cf3c6e63bdb7bc8740ceaca6c28bdfa8d71595c722d504271c526f8
    0xd773829e239a1ad5cd6cf741d6b39f05a13523a8f98f0cf31465df8f7dc89443d364c6c69e367b10b98d631ce478002) = true := by decide +kernel

theorem windowQ23 : ((agg 0x1a0111ea397fe69a4b1ba7b6434bacd764774b84f38512bf6730d2a0f6b0f6241eabfffeb153ffffb9feffffffffaaab 0x1a0111ea397fe69a4b1ba7b6434bacd764774b84f38512bf6730d2a0f6b0f6241eabfffeb153ffffb9feffffffffaaaa [71, 70, 69, 68, 67, 66, 65, 64] (zip3s coeffsQ Embedded.g1Parts Embedded.g1Ys)).2.is
    0x16c768ad7f05675e1ad326a5049afa494e31af4123225dbf1ca629060c42968d8d3b2d7a09a416c46d94556927e5c410
    0x4c0746fb434e3de5397cd49dd13f2fcd94d307cddf44fc21f1edfbd104ee9a42c5fced8232fde7a8f4c3445cab15304
    0x1508479d3cb5f42ad67a4ce582092b26ba60ec57b8ef8a277cd59ba89f34047ddd19ae67db5c0d182efc84fa474422ca) = true := by decide +kernel

theorem windowQ24 : ((agg 0x1a0111ea397fe69a4b1ba7b6434bacd764774b84f38512bf6730d2a0f6b0f6241eabfffeb153ffffb9feffffffffaaab 0x1a0111ea397fe69a4b1ba7b6434bacd764774b84f38512bf6730d2a0f6b0f6241eabfffeb153ffffb9feffffffffaaaa [63, 62, 61, 60, 59, 58, 57, 56] (zip3s coeffsQ Embedded.g1Parts Embedded.g1Ys)).2.is
    0xfdf0b09de80a5c50d303a8bd0417e9c42047471b164c43fd396ba7cb78cad6473c721fe38ab025d92056b518fdd5645
    0x175fe701eaea2d31705b10439396517c80b3caaff293f828deaa19c73122bdf59307af877f37a34d88d4b67e6886ef59
    0x1323e313636f197379de912b762a9d50290fb7af8ddfbb47b44d49067c0b733dbd94745d070fc906f338cec64243d077) = true := by decide +kernel

theorem windowQ25 : ((agg 0x1a0111ea397fe69a4b1ba7b6434bacd764774b84f38512bf6730d2a0f6b0f6241eabfffeb153ffffb9feffffffffaaab 0x1a0111ea397fe69a4b1ba7b6434bacd764774b84f38512bf6730d2a0f6b0f6241eabfffeb153ffffb9feffffffffaaaa [55, 54, 53, 52, 51, 50, 49, 48] (zip3s coeffsQ Embedded.g1Parts Embedded.g1Ys)).2.is
    0x70a85f610bc255cac623955a3e997ec7f972e8682a8e1de2f9c536e4e2321b360c7c9283b144b464a8434d03df13e1e
    0xe781c9559b754a79ab47efe4e1c80a1fe161ab7ef0ac883ea3f47381e2d47bec1b002351bde81c6a66dbb026ac22bec
    0x7e03b14b201c2e62a4834fd3834c60b2a1653e45e20650bbc00457ef2c5c185ee8c944a677d3c23a619b8fbfba2e60) = true := by decide +kernel

theorem windowQ26 : ((agg 0x1a0111ea397fe69a4b1ba7b6434bacd764774b84f38512bf6730d2a0f6b0f6241eabfffeb153ffffb9feffffffffaaab 0x1a0111ea397fe69a4b1ba7b6434bacd764774b84f38512bf6730d2a0f6b0f6241eabfffeb153ffffb9feffffffffaaaa [47, 46, 45, 44, 43, 42, 41, 40] (zip3s coeffsQ Embedded.g1Parts Embedded.g1Ys)).2.is
    0x6a4a8247ac1db49387faa5ccf227bc3271fbb49596a31b70f9110db631c86b075acbf78ca4388cd04c0623b993a29e1
    0x2673aac145f997740480cd4ddd9ed738fb271b160cabbc2196ae71ae413bf9e8813c6f217c971af994867d15ead414a
    0xabd3b2fe48840b7a39c40da0b0c4bb1682c4f6a6603b4070936f3699c2eca830e189bf38148f597c0c17c9cc4d9b438) = true := by decide +kernel

theorem windowQ27 : ((agg 0x1a0111ea397fe69a4b1ba7b6434bacd764774b84f38512bf6730d2a0f6b0f6241eabfffeb153ffffb9feffffffffaaab 0x1a0111ea397fe69a4b1ba7b6434bacd764774b84f38512bf6730d2a0f6b0f6241eabfffeb153ffffb9feffffffffaaaa [39, 38, 37, 36, 35, 34, 33, 32] (zip3s coeffsQ Embedded.g1Parts Embedded.g1Ys)).2.is
    0x1723b136e76b96b57dba170bae4a83d5bde1c9ee8c22dd5964b9d8635eeb6b831ea08aa593c075746f420887388c30b8
    0xda40cf3ff237a684045dc25a2d49b6ae0b59c1c67fc7732abef6dd734e806c29e53d3ac1d783cb1526a824472ef1b1
    0xcb5d2ed16f51cb6467ce22fc4bbdf25ddfb171b832225f23c36b2117c8c63314d9543913339cf3e86f01b39ad70f3f5) = true := by decide +kernel

theorem windowQ28 : ((agg 0x1a0111ea397fe69a4b1ba7b6434bacd764774b84f38512bf6730d2a0f6b0f6241eabfffeb153ffffb9feffffffffaaab 0x1a0111ea397fe69a4b1ba7b6434bacd764774b84f38512bf6730d2a0f6b0f6241eabfffeb153ffffb9feffffffffaaaa [31, 30, 29, 28, 27, 26, 25, 24] (zip3s coeffsQ Embedded.g1Parts Embedded.g1Ys)).2.is
    0x128308542f7a095f8d4233c1780ed7d55a1f1694d6087af3f90fe832de209db423af10976c5138531a137dccaf7e1019
    0xd2c6f4f9b91a13384bbc242bfe2522df64485729b7699dd803140689719c1d5a5975f94c6b46340a57f0155e2cbe922
    0xa3603f5742be0e9a7db572a42b0a98f67f4b7c94549eb1df5ea82e50a376a1220fbb8a028f419debe5c2d768dca03d2) = true := by decide +kernel

theorem windowQ29 : ((agg 0x1a0111ea397fe69a4b1ba7b6434bacd764774b84f38512bf6730d2a0f6b0f6241eabfffeb153ffffb9feffffffffaaab 0x1a0111ea397fe69a4b1ba7b6434bacd764774b84f38512bf6730d2a0f6b0f6241eabfffeb153ffffb9feffffffffaaaa [23, 22, 21, 20, 19, 18, 17, 16] (zip3s coeffsQ Embedded.g1Parts Embedded.g1Ys)).2.is
    0x5cf3b638cddbcad754d820dd2f570b8420fefedfff2d43b293674f152e14b48f6997d402ba0cbf24e3c53c8395c261e
    0x1832d0672e35bb506318b12e443b5507fa8e1153b77cf6e6b929ce1e35445628bce47fc704f96cf6287dc0cd590b7a37
    0x9f7a170d5d4494e9575320081e3b8bdf627d5616d821a878929a43289050f18fdb93d4bb2a3c93a982bc3ee51834b1e) = true := by decide +kernel

theorem windowQ30 : ((agg 0x1a0111ea397fe69a4b1ba7b6434bacd764774b84f38512bf6730d2a0f6b0f6241eabfffeb153ffffb9feffffffffaaab 0x1a0111ea397fe69a4b1ba7b6434bacd764774b84f38512bf6730d2a0f6b0f6241eabfffeb153ffffb9feffffffffaaaa [15, 14, 13, 12, 11, 10, 9, 8] (zip3s coeffsQ Embedded.g1Parts Embedded.g1Ys)).2.is
    0xc95d2b462dcf9c2c7385667b174be29e1aa5ffae19ad424759e365d9a6c99209838e2f9bed46b634a6d022d0930f9b5
    0x156f7215d296326a43712a737ede3e6cda59c7b3046826bf5f13d5c97adc219783df3511ac6155aa2f4a567936e86f94
    0x10a4de53295c82328fca3accca52786c1237916cef76e2a06deecfc025c436a441b5d025417af1dfd4a7814dc05fef85) = true := by decide +kernel

theorem windowQ31 : ((agg 0x1a0111ea397fe69a4b1ba7b6434bacd764774b84f38512bf6730d2a0f6b0f6241eabfffeb153ffffb9feffffffffaaab 0x1a0111ea397fe69a4b1ba7b6434bacd764774b84f38512bf6730d2a0f6b0f6241eabfffeb153ffffb9feffffffffaaaa [7, 6, 5, 4, 3, 2, 1, 0] (zip3s coeffsQ Embedded.g1Parts Embedded.g1Ys)).2.is
    0x19b148f3d52c97ae301e0abfddc669ba6fdd4e3a19453c092c6ff0f30775ae6545807386b3560e879b063e61f3725909
    0x132e7361a8f108f5de7900e8005e5614b5247e37ab5495b60fc68fb13efacc8fe0354b2da10ef308eb31c68c4f515c55
    0xc8bfddb0afa135e4e6107992480faa62bda4ae20b00abd1f4f4c02ad65cec0827256704b39b6e37ea7703192704bc78) = true := by decide +kernel

end Verif.Vectors
