import Verif.Lemmas.VectorQSum0
import Verif.Lemmas.VectorQSum1

set_option linter.unusedSectionVars false
set_option Elab.async false
set_option maxRecDepth 100000
set_option exponentiation.threshold 100000000

/-! Proof 100 in test_vectors/compute_cells_and_kzg_proofs/kzg-mainnet/
compute_cells_and_kzg_proofs_case_valid_4aedd1a2a3933c3e -/
namespace Verif.Vectors
open Bls Msm

def windowsQ : List (List Nat × Jc) := [
  ([255, 254, 253, 252, 251, 250, 249, 248], (.pt 0x2ddefe4f13a4ce2503cf0b3277807e3c99fc67a21fc6e44e3d213fe7b5cf545b18a130d7cc2faa346175807359157e0 0x31005f3e442f6143b6728f704bc644a164dbebb10c259e70267615fe24dc1b4c0a870ea5d68b923f98f6ed2defb3f6e 0x81eacdda4cf36c71ab197056aa7e1ae9ecc2e78019bb50253850bc0aa4b520ad9ce318277df697df88b2c5945f38c51)),
  ([247, 246, 245, 244, 243, 242, 241, 240], (.pt 0x12bbe05c3dd4ef2155937d8d3da7f90885723f691385272a9f616869b87eef1a51a9c04a27d87f499640f3b01bbf8d85 0x464345c2de74dabac27746018a1407737c63aed9544263cb6608517e966f91321a27e44907f18e545d184ac155d62f1 0x18f8950f617870f249f8ec55d1649f7cf8674fd8bf7fff8badd16a68bbfce11951f8e52a3e07af9f6c5f7ddac5b1bfad)),
  ([239, 238, 237, 236, 235, 234, 233, 232], (.pt 0x6908e3ad7077a6def8c3b4e7426f5e85f54016300471aa70e8ce4a30587e7e192318aac14f2672b69fb028ad94c25b1 0x10d984812373eff36f6bfdeb0800713f52e74dc1ecc548dc4103f22342a8eda1df0b195de6dc015a67c6cc2dc77c0e3b 0xdb18410bfdc676131e384c8d0f5aa0602a5989fbfa6923a9e5b72c37aeb5ca273f53fc11af5aa9d7f6871ebd87dcc08)),
  ([231, 230, 229, 228, 227, 226, 225, 224], (.pt 0x79ee37b4d3054e059bbef886de2a8be37a92f31823a8f48d8ecfc64838bddb8a4004bb15d2fe245f96a1245d5b4b17c 0x19cbb007f92ea868e3ed3ef3e51dbeac1740106c34341794bf90ed49cf881f5de010928c39bc3f53f833ae7deb43c9ca 0xe4ec4db6e979c676be584cc59ed8b52ad0ffaeef40518b7c5149c184e87d88545e280267efc53004099681698fc9276)),
  ([223, 222, 221, 220, 219, 218, 217, 216], (.pt 0x442de57f71144fdb71a9adebbb1749cd649de799ba3f959c676669f678db7cd2ea4b5222d809612589867995d4a0f9a 0xd5e1a45228dc72f86d413192f2384d48e74e2ce0f76ce44167f0e7b6c563ec4abee9eecab384d9c14fdea60b9c197d 0x7512935d3b23459e5d829bb7f5519528eb4ffde54afd1cf6aeea3794760d458d8231352a2fe8fc112aef9324ff05619)),
  ([215, 214, 213, 212, 211, 210, 209, 208], (.pt 0xce4c18331b97bb5c99cda284aa0630ee20bcd16e259f45faa98b3f8d90ded66374776007338de1197a5779f0de0f02a 0x111667b2670344a27d28c3587fa73f5a2bec05f7d2ab57f5a2f17c8cac4d0469f6a104fab69121e83193d0c41021a1a6 0x668cce59dbd9b0a8248ed6dc44011701c15c866143fd31050c91c368ffdc93ab589c8f281f727da1f21a5d0fa4f2078)),
  ([207, 206, 205, 204, 203, 202, 201, 200], (.pt 0x7e8ec34b82653d523cf60d82e0614b8fa1eb112bef346936a7cb3a831d1bf47c5da713186b2d3ac35f486d4246ac45 0x165ff5dd229ca441841600366e464cf8624b4ad3c13e29ee346b1d6a55a8954a3e0a138cc59458a0fb165bd48189422b 0x1307325fa3737edba4f61c8cebbfce30c189c63129e0cdc1d8c66ad1131128287f1870f7c2179d2202d3fe0589ab661c)),
  ([199, 198, 197, 196, 195, 194, 193, 192], (.pt 0x119ecc2d5704962cf1bc8fa1a6f9e86b5be92f84b19f2ac0142cb477911de76cb0d75f48f3125c15e500aba950afe6d7 0x9e47ba4d8c07758c2ee01da8916a57c605808d221ad6ce6b88067e5ecf789ed033f4db6cac70195a4ac1949748ac5bd 0x1323abccaaecc8fe919fe5334c9e627b1738f15e3d1d03d3870084e06c1f17e44929bb0e82e4ec15ad1fb82cd7c75d50)),
  ([191, 190, 189, 188, 187, 186, 185, 184], (.pt 0xd0ffc5082a9c80ee80d0577a601178ac52f6af090de2a88e0eca42ed001126f025ccbee21a6839786a386c52cdbed22 0x19e59e3b4e3a7c84214c140f6690a68bb8c5aa558d30f81ab7916170f3dd4009eba7f5e2fa5bed5bcbcc4fd34374ece2 0xfe15a06373b3c136cbf506f5d374b2a768be28943e20623e0047259bd6487044254c878d18647ef5e2047adc838d7e5)),
  ([183, 182, 181, 180, 179, 178, 177, 176], (.pt 0x41ecdac6469d94f773367506b6d99cc59f5e6caba61ccaf55ffad135d90a6923f271513d476bb683bdb3f2aa4913ebe 0xa83bfed11efd9edb4cebe260c6a2310d72c7be11073bec41037ae4e56b38c203cf2b5d76b1566d684663251f6b5a9ba 0x18e3b825870224d816cc8cf38e3f7d3d4ae20ced5e51771aa480f2e7d4b99dc78260752525cc6eae797172aa7bd6f82a)),
  ([175, 174, 173, 172, 171, 170, 169, 168], (.pt 0x19b2a163b44d99754fd344d3ba60123cbd0b727762e82255a341872471b32146b8f13473b6c8d486a4f379bd56626449 0x10624bbe073f7839fc04d38e78d29deed3008ae8cbeae68083f6d7db1ba4b8429494b3988d09d5e9081e426e0a3f1dfa 0xc48871b551d7b3460fcec154b06435fe4058723d74774c367bb9e84f144840bae3a93faa3d34b0fa2c37e3d8c80393f)),
  ([167, 166, 165, 164, 163, 162, 161, 160], (.pt 0x1210c07b759f3251e244f2369e0714cd13da7d6b725f4c007f70d2c63135f4c3de9a718a14cba213f1d6f98649f4e3e2 0xa9e80200ce60412c10be995f3afef4475c12e36ed957236c996f550b793e7e70cc73a2b73c54c6afcc9c5308d02ddd1 0x15821610a1eb0bbc97d767219ff499b556affe3520534a411f0bfbf8a0a8ac526faa2439dc0be8c92d6e0daa9ddde65)),
  ([159, 158, 157, 156, 155, 154, 153, 152], (.pt 0xee12e7c3fe6ecf23599a81e35d5f9bcb2565baeb83d203dddb31c04d2c7af02f5017138d6fcc9876f57ec8db6749e8e 0x43a47deb920f985be726f35f6b13f951a3234240dff1a6dc2cfa56925d022d655e53c7a1a49c291e34d95e065ce16e4 0x11d2a0f75ed237e594bc46f5bc8288f6bc39be8e483c18c029b33a98f7c1b432dd3a2d02d5609ee889e0dd2db015604e)),
  ([151, 150, 149, 148, 147, 146, 145, 144], (.pt 0x227e4957b7be791d920f9beda60bf414f77a5704399c8b80c7be9b8d1766f29d2479d0c55d541b675e57f302611e61b 0x1570efd5440aa1a4b88d99c47af8b27eab38e8ea78df5fae7462a9bf88b4895b5db1ad53b32f7cf0c7a821dfba19a888 0x2672257ee0ff5eca4891e62389569d89ec9ebb588c4582bd26653b73863a58ae314881418b3b2f1337bccccfd4230f8)),
  ([143, 142, 141, 140, 139, 138, 137, 136], (.pt 0x6a4659d24c31bdb21404a8b795902effa1e673dc601156c69f96cfd14d957b7927774861199739bed6338e7785d52e3 0x181fb2e0041ce20746d994d32ae271082fbffe280c749132bc21d8d9146a166e74023eab3837e9991d36e7a569023e0c 0x1091f2ce7691cf5ededfa30714be43f3e829e4b62c7917c14b8ae33e39bf7b22fbd7d36d16ed535cc7b58cad8ecb84af)),
  ([135, 134, 133, 132, 131, 130, 129, 128], (.pt 0xda369bf9d7e1dbc3527bd710e43133a4a00bc46fe316d8c8577562a77b288a69ab6f24a2238d86e86a8fbac25c556cd 0xd25546e207ec44b4b5c5de7410a861fdbc7e5a7ee76fa1d4351f31905ea97ea6369600691f589a5674a629f8d4f40d4 0x8bf2b49b236993d8a02fecbb4429fbdb61c8c57ebba78003b6607b6b152f13976e078663485832c394e54edf835c215)),
  ([127, 126, 125, 124, 123, 122, 121, 120], (.pt 0x14ff0800d44f11065327c4faf11e98bf1515cf9cea8df5f03014cd4ee6771298347aa08785a197cdaf5b53451232f948 0x9865f6665a029868686a8e9356dc37e58c20530e1f3ca2b120e8895af7936dab01aed224e9126ca5496e0666bf56d2f 0x12c83aa21e264eae7dba9b8afbab1820aaed56f38f7b7daf836297010881ffb78637f786877585a7848b8b8996105a8f)),
  ([119, 118, 117, 116, 115, 114, 113, 112], (.pt 0xd4224b291e4e9dad7b44ce28ba656c9682fbeb2aac2b10d04d5725356ed6f2d86093ddf907a7c02c5248fbac1415021 0xcee29260c2938e7365275c8c1915dc5c6b6aecdc61d43599882fea56532eb4dfbae4c4871a2c8ff6b4a39e7f294855e 0x6c5f5c8ba6086ac93fe009046088ba3905022ab2ae60418bd166486460d46106acc6520361bd49cf7dd4cdf1dae90c1)),
  ([111, 110, 109, 108, 107, 106, 105, 104], (.pt 0x66743ca641c3a06cb0fb4781e64c167b143f5e47f5f4bf875b81f625e5f9b8f4eedde14ae74b62bb81fe8ffce538689 0x117904371f970224f6d315ca138e862320595b76571d9c722b632f702d6e6bd7fefe70f41a24bc23a80d2e30f94f2d7e 0xff9c438ec7ce7267dc5c0887236f65224bff32a3e25f945a8c1e1af7515332f68643cc1b161f25a9845984dffe93c2c)),
  ([103, 102, 101, 100, 99, 98, 97, 96], (.pt 0x30f8bd675739212b5a0eec8548563762b2e6e1ecd59efc4827a468d36d9f8f760a868753874e2cc5c16e11bd17dcefe 0x1908510bc793b1ad62b304c2b486fe8cd740379b42c4d48fa2a2d8683f8e0338989e254adb84bc4abad53975943795aa 0x145195aef5f144ec6bc8cc11c5333573fee8d1ad662e6a637d9065ea0232f86a87f1f2b5bee56a7eabe5242d1dce1ee1)),
  ([95, 94, 93, 92, 91, 90, 89, 88], (.pt 0x1749d461aca1b81d50f4f57c02708fb276d2bac10fdf8e5d1bb91fc2f88b3722e0b77ee53d5174c6439554ab0ebcde85 0x42c312745bc82e30cb48178bcade5d57223e5cbf0fe4bda253c9750415cc752f9a9a1203ff447c29bad519503da8942 0x13d281436c4ff75adfe279215016697eba156310b1018995784bb6cbe84bb400e3b3302996776d278b64bda070955e05)),
  ([87, 86, 85, 84, 83, 82, 81, 80], (.pt 0x17c6ef5d65561ee417d91037b640bc777cec0367f4a706581f8c97fbd6de6f9adecf0703a5a47ed7ea530f28f373786 0x1925569bb5bb443b4ca0ab23760c990b77af1ff21b19561f22e9b8746acfff95ad4fd47de9cfbe63bfb25a4a061b76ec 0x116d27a1a8011df109435ac5ba1e0d1b209279950872e45204dd275d68a6185efd2723bb78af6dd22f701c8dfc581e8b)),
  ([79, 78, 77, 76, 75, 74, 73, 72], (.pt 0x925b67e695bec3a3d8f42d2daea1e79afadb5de40cc50ccc5310108166c0f65d638915e1daacd1e41ab9e4205c4bf3e 0x3cf3331e794d91bde05ede1a7dbadea3da07ef99cf3c6e63bdb7bc8740ceaca6c28bdfa8d71595c722d504271c526f8 0xd773829e239a1ad5cd6cf741d6b39f05a13523a8f98f0cf31465df8f7dc89443d364c6c69e367b10b98d631ce478002)),
  ([71, 70, 69, 68, 67, 66, 65, 64], (.pt 0x16c768ad7f05675e1ad326a5049afa494e31af4123225dbf1ca629060c42968d8d3b2d7a09a416c46d94556927e5c410 0x4c0746fb434e3de5397cd49dd13f2fcd94d307cddf44fc21f1edfbd104ee9a42c5fced8232fde7a8f4c3445cab15304 0x1508479d3cb5f42ad67a4ce582092b26ba60ec57b8ef8a277cd59ba89f34047ddd19ae67db5c0d182efc84fa474422ca)),
  ([63, 62, 61, 60, 59, 58, 57, 56], (.pt 0xfdf0b09de80a5c50d303a8bd0417e9c42047471b164c43fd396ba7cb78cad6473c721fe38ab025d92056b518fdd5645 0x175fe701eaea2d31705b10439396517c80b3caaff293f828deaa19c73122bdf59307af877f37a34d88d4b67e6886ef59 0x1323e313636f197379de912b762a9d50290fb7af8ddfbb47b44d49067c0b733dbd94745d070fc906f338cec64243d077)),
  ([55, 54, 53, 52, 51, 50, 49, 48], (.pt 0x70a85f610bc255cac623955a3e997ec7f972e8682a8e1de2f9c536e4e2321b360c7c9283b144b464a8434d03df13e1e 0xe781c9559b754a79ab47efe4e1c80a1fe161ab7ef0ac883ea3f47381e2d47bec1b002351bde81c6a66dbb026ac22bec 0x7e03b14b201c2e62a4834fd3834c60b2a1653e45e20650bbc00457ef2c5c185ee8c944a677d3c23a619b8fbfba2e60)),
  ([47, 46, 45, 44, 43, 42, 41, 40], (.pt 0x6a4a8247ac1db49387faa5ccf227bc3271fbb49596a31b70f9110db631c86b075acbf78ca4388cd04c0623b993a29e1 0x2673aac145f997740480cd4ddd9ed738fb271b160cabbc2196ae71ae413bf9e8813c6f217c971af994867d15ead414a 0xabd3b2fe48840b7a39c40da0b0c4bb1682c4f6a6603b4070936f3699c2eca830e189bf38148f597c0c17c9cc4d9b438)),
  ([39, 38, 37, 36, 35, 34, 33, 32], (.pt 0x1723b136e76b96b57dba170bae4a83d5bde1c9ee8c22dd5964b9d8635eeb6b831ea08aa593c075746f420887388c30b8 0xda40cf3ff237a684045dc25a2d49b6ae0b59c1c67fc7732abef6dd734e806c29e53d3ac1d783cb1526a824472ef1b1 0xcb5d2ed16f51cb6467ce22fc4bbdf25ddfb171b832225f23c36b2117c8c63314d9543913339cf3e86f01b39ad70f3f5)),
  ([31, 30, 29, 28, 27, 26, 25, 24], (.pt 0x128308542f7a095f8d4233c1780ed7d55a1f1694d6087af3f90fe832de209db423af10976c5138531a137dccaf7e1019 0xd2c6f4f9b91a13384bbc242bfe2522df64485729b7699dd803140689719c1d5a5975f94c6b46340a57f0155e2cbe922 0xa3603f5742be0e9a7db572a42b0a98f67f4b7c94549eb1df5ea82e50a376a1220fbb8a028f419debe5c2d768dca03d2)),
  ([23, 22, 21, 20, 19, 18, 17, 16], (.pt 0x5cf3b638cddbcad754d820dd2f570b8420fefedfff2d43b293674f152e14b48f6997d402ba0cbf24e3c53c8395c261e 0x1832d0672e35bb506318b12e443b5507fa8e1153b77cf6e6b929ce1e35445628bce47fc704f96cf6287dc0cd590b7a37 0x9f7a170d5d4494e9575320081e3b8bdf627d5616d821a878929a43289050f18fdb93d4bb2a3c93a982bc3ee51834b1e)),
  ([15, 14, 13, 12, 11, 10, 9, 8], (.pt 0xc95d2b462dcf9c2c7385667b174be29e1aa5ffae19ad424759e365d9a6c99209838e2f9bed46b634a6d022d0930f9b5 0x156f7215d296326a43712a737ede3e6cda59c7b3046826bf5f13d5c97adc219783df3511ac6155aa2f4a567936e86f94 0x10a4de53295c82328fca3accca52786c1237916cef76e2a06deecfc025c436a441b5d025417af1dfd4a7814dc05fef85)),
  ([7, 6, 5, 4, 3, 2, 1, 0], (.pt 0x19b148f3d52c97ae301e0abfddc669ba6fdd4e3a19453c092c6ff0f30775ae6545807386b3560e879b063e61f3725909 0x132e7361a8f108f5de7900e8005e5614b5247e37ab5495b60fc68fb13efacc8fe0354b2da10ef308eb31c68c4f515c55 0xc8bfddb0afa135e4e6107992480faa62bda4ae20b00abd1f4f4c02ad65cec0827256704b39b6e37ea7703192704bc78))]

theorem windowsQ_eq : ∀ w ∈ windowsQ, (agg 0x1a0111ea397fe69a4b1ba7b6434bacd764774b84f38512bf6730d2a0f6b0f6241eabfffeb153ffffb9feffffffffaaab 0x1a0111ea397fe69a4b1ba7b6434bacd764774b84f38512bf6730d2a0f6b0f6241eabfffeb153ffffb9feffffffffaaaa w.1 (zip3s coeffsQ Embedded.g1Parts Embedded.g1Ys)).2 = w.2 := by
  refine List.forall_mem_cons.2 ⟨Jc.is_eq windowQ0, ?_⟩
  refine List.forall_mem_cons.2 ⟨Jc.is_eq windowQ1, ?_⟩
  refine List.forall_mem_cons.2 ⟨Jc.is_eq windowQ2, ?_⟩
  refine List.forall_mem_cons.2 ⟨Jc.is_eq windowQ3, ?_⟩
  refine List.forall_mem_cons.2 ⟨Jc.is_eq windowQ4, ?_⟩
  refine List.forall_mem_cons.2 ⟨Jc.is_eq windowQ5, ?_⟩
  refine List.forall_mem_cons.2 ⟨Jc.is_eq windowQ6, ?_⟩
  refine List.forall_mem_cons.2 ⟨Jc.is_eq windowQ7, ?_⟩
  refine List.forall_mem_cons.2 ⟨Jc.is_eq windowQ8, ?_⟩
  refine List.forall_mem_cons.2 ⟨Jc.is_eq windowQ9, ?_⟩
  refine List.forall_mem_cons.2 ⟨Jc.is_eq windowQ10, ?_⟩
  refine List.forall_mem_cons.2 ⟨Jc.is_eq windowQ11, ?_⟩
  refine List.forall_mem_cons.2 ⟨Jc.is_eq windowQ12, ?_⟩
  refine List.forall_mem_cons.2 ⟨Jc.is_eq windowQ13, ?_⟩
  refine List.forall_mem_cons.2 ⟨Jc.is_eq windowQ14, ?_⟩
  refine List.forall_mem_cons.2 ⟨Jc.is_eq windowQ15, ?_⟩
  refine List.forall_mem_cons.2 ⟨Jc.is_eq windowQ16, ?_⟩
  refine List.forall_mem_cons.2 ⟨Jc.is_eq windowQ17, ?_⟩
  refine List.forall_mem_cons.2 ⟨Jc.is_eq windowQ18, ?_⟩
  refine List.forall_mem_cons.2 ⟨Jc.is_eq windowQ19, ?_⟩
  refine List.forall_mem_cons.2 ⟨Jc.is_eq windowQ20, ?_⟩
  refine List.forall_mem_cons.2 ⟨Jc.is_eq windowQ21, ?_⟩
  refine List.forall_mem_cons.2 ⟨Jc.is_eq windowQ22, ?_⟩
  refine List.forall_mem_cons.2 ⟨Jc.is_eq windowQ23, ?_⟩
  refine List.forall_mem_cons.2 ⟨Jc.is_eq windowQ24, ?_⟩
  refine List.forall_mem_cons.2 ⟨Jc.is_eq windowQ25, ?_⟩
  refine List.forall_mem_cons.2 ⟨Jc.is_eq windowQ26, ?_⟩
  refine List.forall_mem_cons.2 ⟨Jc.is_eq windowQ27, ?_⟩
  refine List.forall_mem_cons.2 ⟨Jc.is_eq windowQ28, ?_⟩
  refine List.forall_mem_cons.2 ⟨Jc.is_eq windowQ29, ?_⟩
  refine List.forall_mem_cons.2 ⟨Jc.is_eq windowQ30, ?_⟩
  refine List.forall_mem_cons.2 ⟨Jc.is_eq windowQ31, ?_⟩
  exact fun w hw => absurd hw List.not_mem_nil

theorem resultQ : (horner 0x1a0111ea397fe69a4b1ba7b6434bacd764774b84f38512bf6730d2a0f6b0f6241eabfffeb153ffffb9feffffffffaaab 0x1a0111ea397fe69a4b1ba7b6434bacd764774b84f38512bf6730d2a0f6b0f6241eabfffeb153ffffb9feffffffffaaaa .inf windowsQ).is
    0xc157adb6c357ffd9281dd706c0c45a2582237ab7638f609ffb36e1dcbb5f5a6d132d03464981bb226b007fa6a6ae6ae
    0x1313474fb3f9602ff3fe4b4a2f21ff00f59e45f94b5c0df627eb0589d38a4d91866a69d58f929e350bfa50eb97892cf0
    0xb9372afcce619b0b812026d9ef93548c568af3bbb70ff259b07429404e6debd1c7c982439bb17c761b6363ef7a99303 = true := by decide +kernel

theorem commitmentQ {g : List G1}
    (hg : List.Forall₂ (fun n (P : G1) => Spec.EncodesG1 (natToBE 48 n) P) Embedded.g1Parts.flatten g) :
    Spec.EncodesG1 (natToBE 48 0x8e8055ace63ce48067a6aa357a420af43f90bf92acf0819642d9995e77879433ed9459bdb6a9c6a04d13b04fdd5aadbc)
      (Spec.commitment g (Spec.polyOf (coeffsQ.flatten.map (Nat.cast : Nat → Fr))) : G1) :=
  commitment_check (m := 0x1a0111ea397fe69a4b1ba7b6434bacd764774b84f38512bf6730d2a0f6b0f6241eabfffeb153ffffb9feffffffffaaaa)
    (y := 0xc4c69f1806c82439c7c2e69d81364857de37d829df059fab4021c3075316fec9f8bcb05f69b7adefb2da1f25cd0b2a) hg coeffsQ shapeQ smallQ
    (by decide +kernel) windowsQ windowsQ_eq (by decide +kernel) resultQ (by decide +kernel) (by decide +kernel)

end Verif.Vectors
