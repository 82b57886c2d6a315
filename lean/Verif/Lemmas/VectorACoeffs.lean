import Verif.Lemmas.VectorCheck
import Verif.Model.TestVectorsData

set_option linter.unusedSectionVars false
set_option Elab.async false
set_option maxRecDepth 100000
set_option exponentiation.threshold 100000000

/-! Coefficients of the polynomial of the blob in test_vectors/blob_to_kzg_commitment/kzg-mainnet/
blob_to_kzg_commitment_case_valid_blob_19b3f3f8c98ea31e: its values are the cells in compute_cells_and_kzg_proofs/kzg-mainnet/
compute_cells_and_kzg_proofs_case_valid_6e773f256383918c -/
namespace Verif.Vectors
open Msm

def cA0 : List Nat := [
  0x73e66878b46ae3705eb6a46a89213de7d3686828bfce5c19400fffff00100001,
  0x5e9b4700a0b422051ec099cbc0678fa85f9b1e254d88d25a747b604b53de38ee,
  0x42a86ec40b3406de0766275560e2fab507a9c51ecc6b0037d3592f4d08022083,
  0x440aba9478a96c4130ba3c02e6440bfd41a8f2add8b1140fb359b3536e2f3321,
  0x5edb871ff3c9cce5c20f3cb2d4de4df6b5a4a9260ce24c50f344123f83baa738,
  0x532aeb92a101871d1249c5256408ddcdd82d9a675b1cc30b4bdf25c4021a792c,
  0x59df39fb0900d61010ad4629581115eaf8394c2972105d991ee41f332773b9fa,
  0x19dead5957d6e17a14880551f616675bda501f17f492d88dc7dd1c92e1ef7189,
  0x4553aca43d6c571c47ebad74d7b098cd881cfc40092287fdba1ebf8f5770a52f,
  0x6cefb5e38b0a743dd4754e8b3aa5f6509309d9c05a8fb45bb88974fcb306cb95,
  0x678a8fe3346a07958997433ed63207b651297c87ae1f37b15d1218761a533887,
  0x339d4f61a3c46b96921db716f9b875cfc1a09c607100958eb99d2aa8cd870b9d,
  0x10b79169fb6eeafedeca979c58799d4490eb57245d4abe117b21194349c05caf,
  0x419fc38605b75bddfccf5bc28b71ed71fb0580c65cc4555c2abc15e89a89fb88,
  0x14852ee61ca6511442cab35ae8e5a7f315fbf3b96b7f1fe40298f9516b2f938b,
  0x3a85a101b285d3e30ca00dad1cd35c45bf37cce197fd9de4801ac7ed839c702e]

def cA1 : List Nat := [
  0x3d9b7b8c06919ebbed883baec9c30c1fd1a2e047edfde4622c88ab308bc021db,
  0x5313ad881eaad20d912aa2f675da9af232d6f894152a6fd81c7b254a9516aed,
  0x6a69daaadbe55953ec879e05bb424db60b7bd00e3eda3674d6f96ab03130e5ae,
  0x40bbf514204c63ce89f0b241342dce861c5acf5d4bcb3fa6c6abca5c7df219b5,
  0x4370631804c88ee5184cb44d473b8cf5df5f4e74b0876a0ea6dc9ac3aed6b1ff,
  0x6f3913a2cf78102d8d7a26e2834b558ebe4d2fc303b51cabc02f85d3c9c8c8c2,
  0x1b4e45912c47337093c3c4e678691dac0b710936e24bb67133eae1137f168e34,
  0xd17543e91ca371afed107d14801a46603012719e368ee828e20210a44627618,
  0x71373c95666f5125fa9ed2986683a3cbf832808e9527ca73d0628f1127a8298b,
  0x294971580695e2baacdae6e8ffc5edb35e89d42c7c26ab845fe5036d1ff3a37e,
  0x4bffa417ea36f11939eb032dfc1b7345b223de2dda5ed909f707ca932a22babe,
  0x2c00cea72cd3756c6b3492faf720bfcafa33cc4a25b39dd2ff83165a6a5ba403,
  0x57f33ba4c54480ec69167043d4a55ebe84f57b89fe0dcebe67e06e02dd38e5ac,
  0x64a1026e735101cb7b2189e4c595f7f5b995a53c07f487e5d43783ed706030b2,
  0x19aa5d0560d5a77eae57a99aa7df0ca6dd5f8d49d66db83c42b2549778a298aa,
  0x7367dd1932c9bb55b9d8ca3d0810a674b21b8447809dd4214c440d543ec2828b]

def cA2 : List Nat := [
  0x6ff59d4a7661c3a83f5c590a76cf671f33c428d2f73a78a7bf2241dd9386c753,
  0x275436f826f8777cf7a8b2133e0392fdc7dabb249adee7ae23da58e9fad15cb3,
  0x33e1f5e1503049b73f3e556f451879326d2c67457e65cba989925a288dc37689,
  0x28abdd11bad08b511ebb335b06d7bc4d5e54bd6a097832ab26ec827e8629f54d,
  0x2efbf6fccdc83d6d6e9c7b63705da6e4c3d4048146bdcba56ac944841ef546b3,
  0x59e56e6e9c5044109d138c883a4a69656e356e460d2f0d0a78a009e1963a2de8,
  0x49ae2ebc7dd4aaf42cc444a938ef5d368327d28dca7f8666c35951982f984b91,
  0x287f7a1b8dc08044542abe391fb94e86b189d85e03f243c02c6d64361f3acd59,
  0x52727e125f2ba39699c436de86328b749218b821947068e32017372d70c5720a,
  0x47dbda8402e781c599b283810af7fd07a17d04c47917f5ea3de677f48b3a0db4,
  0x3623c3abd5c05d5eb009ef918008e514b7c8fac0aea9c98524dfa9b6e802a40c,
  0x6f84fd680f39f712bc5ec49e6e3543a9cfa1c35eafba30722ae121e91cd9f4c3,
  0x321b0740341340adbb986490e6b7084f1ebd32d189b2a7bdae7c6cbf860f2be4,
  0x295206f3d1b71c82ef71ba2a5166c50bb8ed7dc988d0e2386f1ad4ccfeb471bb,
  0x449ba7fc04f998ef72d0506b482086d4690007bb09ee5804937dcd4e16f82b31,
  0x72baf3690d444195eeebae2227438caeb4e63008946fbdff7a058c3c3226b1be]

def cA3 : List Nat := [
  0x2c2c9bb3bbfe47360586393b33b890d26d8ed4ef15bc6a7e95cdbbc708f4c1db,
  0x31b19b1bff9c2252099d8fba9447f2e8741fa5d5df9608f85192e2b9fc31629e,
  0x5958afee1acd1b8c534e521e83d6d2a17c16f3d509f7ca84e3f4f287b867a462,
  0x21543def6b199a361eed3c6c6bd93f61f644db36f0664a40c2721e5a924d7b46,
  0x2641e81c3b668d8a4fe8d1068945a4423402179973a82df0b8c3e40d20fff855,
  0x1a6ca0f28ce8b2b7d2b8eac4bdacb86007ca67e6af8a94ab9d4cbdfcb7245c65,
  0x1e50ed9c96beff354bce22dc8168044ffc71e267349564668127463e34b0c71,
  0x236300db93cc43c2eeb1d0099b103a9f69aa835a404d3f2a32158a7bb02303c6,
  0x17551a301e24916fcb7c4342fbbe973936dd3a5a9f12c29344f1848ef0c2fea3,
  0x47fa05534d6e3c25418cc602a8c6853afd6a92a7c0f277fb42a892e2ecf9f063,
  0x4dc8f59016588e8f34914d1ab1395f0d42eb54c998f76e8020ccdeaeee8b193e,
  0x6b125ece7ba5e02be14aa7524748ac72fbe6a00f114a2aa7ef76b14ae8594284,
  0x2ba140a1760ce6c7634cbd2a5002dd810ee2cbfe217fcd84151568f4506097e0,
  0x5f3ee901681deaef546c5315c9465a1bc9c8c9bba1927b407e3d6480332712b7,
  0x33735690a4a5b7e03be3004ccf4ca656ec2deaedc56d50ae1c0400802a032c04,
  0x2802ee822499ffb15a9118ed851d0b70c371b2a7610acc2bba9776a116348a40]

def cA4 : List Nat := [
  0x68e5991f08ff44d8bbe17416b6708313ab109f69e61f10282c73f0ebc0aaf71b,
  0x56891d8eb64226e16fc219dc85efe192516647652e4a54d97f6071c438858851,
  0x5b22d9019381baa7f4b5b64f1c8a3235794c94e869a3cbef7160e4f91c668549,
  0x5167991dbde932a7ce2c545d9468671d974d0f8de9179c5e3f51415a333648cb,
  0x4bc8bf4049529246aab5029bbdd577341f048db9a228d65784c6807058130898,
  0x355cd1a490fe780c667ba374f2e8d6e67e7775959d79f29dcb1673fd9e66f119,
  0x2ae7c5348f15a936c034aa40859262d498c44a45306c91bc6e3edab27193463a,
  0x4b44d554bb7871eb22a1221777bcd063d8d3d8716775c8ec9f8b8528ed4b2844,
  0x2b20713b4ac2330491f075e21f6149b17c26f32b48f8dbc8169cc7edb6a01f3a,
  0x2533cf8f555b8d6bf21df5da147e5b2b5a7fe9846af8bc4df1c8834de21be817,
  0x661aac7fe8d59a90c14c0b7e72e4442d8aab9cf690d6b6937c373a33afca9e85,
  0x50abe7a8b075be3a4161fc214e8c162e2fd6f67a8eab64e5a8190081e4b4ce68,
  0x44a6fae916fe6bd9317f52ee7bcfc0cdde3ced8d57e6d0c3c9c0abf5e2cfa6f1,
  0x538e7755043b5fa3ba05bdd1c0d5fcde7c5ba211dbe63229252c00da9828b456,
  0x31fca64bc24c32f47ea00dc437ca4032f31d6e0090eac63d4b68b28193f68c12,
  0x5ce8430b25c272a45b1a5e990515f8e855e9702fcce79e25d71b62ab35de31ef]

def cA5 : List Nat := [
  0x36b735fed013a50c908f7d89bd04d14bc012e732bf2f7c1bca1523da9b7c948b,
  0x28f2b92d7130ed56e9a904383ce8bd23e2d2ec932fcc981e16b57de28c2ffe7,
  0x42c9131222a039bc65b6817336d733d21eb058aef23f3c0baba329229a97592e,
  0xfcd004e4368628ee3aac2a432ae0dd878ac5685cc414387cf05f6228f150da0,
  0xc7df419db38769e454eac5e2dbe93b22d27823c401e000ec3cc5266db987444,
  0xc9d61fe1743e1730ccf3c59afe46ddd784beb00b244a827ab782a1d3466a7de,
  0x5b2076c1939fb7518005f1348c0e7caf15d13e9e4e5b1ae25548ab489180223c,
  0x419110f183be748549da396c8b6ff8b3b7623e6ccdac2c7d9fa559c708b221cb,
  0x29a0677eabdafb3625dcb6bd23e1f2538601ab3e6700e39a5783c52066d1a298,
  0x2792dd6e1bcd02e77e4d24f51c579d3d8555104ea5ce6c45cb75aa85b25b6979,
  0x397cb21c77a04da8eacbcba160243cc34156a4a6d885829d0a409b4223c622b,
  0x2c6474e073c8cc3df8158478ec318b9e8691cf70b82dd9bb7ce9dcbc7226819a,
  0x3c75ea61d076a72d80b858e233be2d275450939a370e21df095ae9bda71a128c,
  0x61ee470671c4bed06c130185bae65eb098e661fdb0598ee1136303161e65cbe8,
  0x440e10a0b7fb223263f22c92ba6145c5328fee125b6ff23199d4357646f6602,
  0x623a32042ad2073caa6c61f1cee56a0e532338f2c17acf7490940aa8a999de1e]

def cA6 : List Nat := [
  0x2aa83c815a0a17b74660a1860a57b5cf7c498d58ef5021a34fd35824c41af0ab,
  0x5e0603f7746b9de788a08f8e8f43eacd082a112387f74111300c719d8d9246b9,
  0x362c6d7c43d4f0d4d75dfd42ed9782784fd6694496d1367e41c1aa49803f5808,
  0x49a04fdf41c6ea0b4b45cbb510d3f59ff0336eaa84006d1b6f13364f9801e97f,
  0x37e8249073419fdd554ffa67eba745ce5dc83c7a633660f7c0c855fc26ac045f,
  0x39bc193b7140761046b393f2f8753ad9d2b0ebabbafb8b633fd4c56f34166d3b,
  0x19955dee67fe1d9cd4148fb2fb80be75ad09315b94ee37fb2335e2e4844392b9,
  0x3a66b14c7356f18debc7c46cc670af6d7788253a0c8eb644fbf0358ef66c9c30,
  0x6426c20af4b474eecdb406deb36ee5da9c493158b2201c32f731f574611ccc4a,
  0x13288b5b7f8a6f7349cac0a50325689f51ac244a86afdb5021517b05321dfbd3,
  0x6a22092d98aa1c82258289bca3fcfb760d851a4508771d953d8409f9f1c390c3,
  0x51c37ec348cd2e25f657c69111ebfb7ca2c975087df1f904f33191deddf42006,
  0x5064c86d28f6f4b03aff56159d83583fc21c1bb0bcd815788660af3233e1b3d3,
  0x14f3b45e7fc68d7d8f026ac92055835315177926f9dd7f625630271522c75bcd,
  0x68b254f9b7cd3569d37db671d340208958ec41d94268216d5d3c445fa148e56c,
  0x3721c971ae693703083a39b6a91409cb3434741a0d5275dd71ec8eb35491f9b4]

def cA7 : List Nat := [
  0x21fbec152ab4ce0e6d97172e0236259a4021d5b1d6789c16c9a0ff83d8daf2fe,
  0x1e11051c1beb9077b690a1edcf1b711ac594d299923a14198da12f6ccd6fcb4c,
  0x53f2d02cd502e0b36cd5913d2440f7f2380437cb805b2a09b7b3b217e7065ff0,
  0x308df8a7e1115dc8c15a4b2d7b9ca30c403a41b04944ca06d9541d2cb7e8742,
  0x6c978ab2108a6fa0cc40746f2fabdf154bd62d635678873e8a85beb3cea840f4,
  0x48fa5b5904fc4334e089ec0bdb4d7189c6004d501cc59c6aa49c533d938b6f0,
  0x5778e262fbc275e2f1f23824ac1602a7b57182625e0a66a242c87c4cdcb4145,
  0x5078a87b26ffae106b4cd7834150dda43e5c07a097061354589ebf94afcbb8f2,
  0xc4ec6e8dadce3949d1ebd72ab2cb506b29cea743267a6cb4abaadbf6b5e2960,
  0x6d53269a70ae606ac4ece0cdb147f9711397860ab8bf3dd169897754411979e,
  0x6bf311c076612e6cbd6f804314ae98fb2e4b227e44a6d41905fbfa657cf6d5a4,
  0x4aaedbdf0da3ddfa345ca28a687f589b2d2abd8ba91e1a92205021ecd0a61bf2,
  0x6751ca1f2ba753371cbdcd0fbd14e7283303c7f492fee4bebdba524ba17157d1,
  0x5c93cadbf8eaa0db7a5ccbebd892616c52861361ba94eec5f1bcda5a71438359,
  0x5013aa46ffc3a7a1ee6e9dce3e4c871741c45e9912692674f3f91a9ce8f561dc,
  0x24c9a9b6aebce876ffe435cb1a2b5d6426da8b614a1dd6d612d096c27f59156f]

def cA8 : List Nat := [
  0x9467949552d1fe0c9e17d3c2169149f059f925c33621e90c5020d4ebd24fcd0,
  0x1f5bd0c448d0fb834a02e9991d00ddadeb7cbdaad47ca63828fc550fb19874b5,
  0xdd2e28fb3999c93a3c9ebd246e62bd4966a2607e804ecc052057ca943c2932c,
  0x16607907340ea7021c406bcadb29cf330c551a81afa61128b38c045308a9238f,
  0x1a13e13dc3d37044f4c9b72ff13eb9ba29fdf160fedc25c60ab08d2309111db3,
  0x26e4a12a7688efe0e20a8929c3ada923c3aa07a44bec0905a9162e4b6e534d25,
  0x2159b3c5e7ad2dd28fc442a35d161aed7e1500b82044225f45b56e0eab855a8c,
  0x5b96076c1e6dea8e8f7e83da79ac61e74f826557449725682d4ff563559667e9,
  0x6dca8eccd6d64251ff63cbf6686ee11560ab7101847df46d8cf34d9178f6d9a5,
  0x4a94c6ee9987c71838732a13bd10c8963b430208366a9549ef8975fd98072f6,
  0x4894c31540f882d506f2609d0bde7ad230ed6acf3ba1a9f9a4ea4529319508da,
  0x4a3208e981429a1741743ebaf640b0e99b6021169167051392c926a31cffe401,
  0x1b9bea4d5045759a1d3d2fb0b5ca0ac90cc602b2b46beddcd12625d777124d0c,
  0x6b63de1d3560157df66b079ed09f39e3a947faf950480a49f25d926693261c45,
  0x559001788acea9f9c83d7ac2e97a630ecd086875f4fd94295bb2ffaf7428ed85,
  0x3d167e2f23599295556411d56c96915299a162b14958f3b9c550553792108ec4]

def cA9 : List Nat := [
  0x603daec22da56e5b2da8ae45d6e07b811afa3d6cccaff76f8182caba0a42fe33,
  0x70096695949fd6369d6c5cf75b4d95bee54cfee0dd4a2e3435a3dc8a680a5fb4,
  0xe07feadf74ae23a1687dfd96e3a20008697ca1d8a95bd0b49da79a0973517b4,
  0x23b2481b91bf4b40cb58b0d5967e543a702e17c24ef13b2c103e519a51839835,
  0x425d79a5c86f45824a4105ed15ea3e731b2c8f65453be6d515c8f54c393906e,
  0x1c2fa0c6fd38be767af8fb728c41103d3a77413f55adba85a7462d3794c50143,
  0x47adf4cc3a790a3188764db42813b437d1c39081ac488e980a4898afb70d218b,
  0x65b280692b1b2a8dd8339402f9d2286aa991f033de4653bb564d9cdaff56d755,
  0x3d68e880c023b3efcab58298bec4d3f23271be2b7c313ffad6107da24cff5cd1,
  0x6322c0607789358ae7934703ef986e873247addf497d06ba416a9e8d74c46c84,
  0x6ba30d6e855ba46b73db1210a30bf725d307cb3c6384f3bc44fb1d89991599c2,
  0x466a98d61a5e16f7d7333d30f5015a473ff7c6676b50c787eda23c0281a8d8c3,
  0x400351d7a63a1a034e5dacf598f6e61027d1158eeaa1cb812a9f3a658a6e19d5,
  0x1e5ec18bce6d0fe4cd26918c6d8cad718d94e11a8d9f479778d77eecc7b01d3c,
  0x5113a4a0c90fd02cf5fe3021bcfce49f721e150f9de4a5e6a8cff4a86a5a3782,
  0x53606b84702ea234385445582adba8a1bf3a2a9d35838f4fae0826d21b6f94a5]

def cA10 : List Nat := [
  0x720b4150013d3adc771769cef07e034d02fa7cee685447a5674a0926a757c752,
  0x9e68c4a9da23c31acf2f452544afc4863b43f1a2f3de97c03dd0bab4932b35b,
  0x3a572b72fab4fa339ead922732d186607d5eb14a302f86ed20068fd27c3194d,
  0x42fb4a5c4a2f2f4baea30d0a10bc628d11768ceb40494133864e7775905b3704,
  0x63ad8d6453a50efb13361f68bf9f0643e4a0c86c03b77e502e21b2f67036426b,
  0x3bd49ed6b081dbf45c7655fb5cc3a430418d62248d20c5a2937931449c592a11,
  0xf06cf5fb59be598b2952fa74f4467df42c8ea04068ac03d1bd227fe62b53c1e,
  0x4020b450a5cc11298e2a0c3cf38fb3dc54d13c268eb5b8bad2b276dff57b73cd,
  0x713ff4bc0086311b6f08f418207e78d7e3b6b00c29f31388984d3872f32a6ec1,
  0x4631219f17f2bb5b10cd6146c2914cb88069a6a9df05e8a51f29e4a793ec63,
  0x2785933c830dc93a4685f99ee05102b85cd5ec86a6e9f08a8bf2694551582258,
  0x5dcbc02600678b88d2b6fa90c64cae51b87a03cf16194c055eb44534b232fe9f,
  0x13919a6eace09c959796f6c4e3da070decd24d787e532210f9efb99d4b6acb6,
  0x7308d0a46dedfda2a65b79d4f10240cbd7f925b7fb275a2fe8fd88aea648df11,
  0x23f02b0d5bade7be0a977429928288e5d53529e372e9d7f7655b987964917dd1,
  0x3edfb7515c8431124817536e3c73020a4a7edc3e05a841be4d17aad1beb61213]

def cA11 : List Nat := [
  0x42a71c24c8dde95215b3d60067d47180304eb0f0b80f294c00985ca9a1dd9b2c,
  0x6a8e1a23f2880632ef91bde1df2a195fac8bc87a126d3c08b65439e1d5b3fec1,
  0x4d65a68d7ce9e2cb9a0859f670e451d8cf4c2f1675a49f606553dc3866853a5c,
  0x4676117e5405902a4ce00652aed0d5882151e08ad312b6dc3a1f4bd590d1cadb,
  0x1fb9280dd141adbcafa43c8b1d96209d3e419d38487b61b1b6cc3c1630c47895,
  0x1c0f499b2ac0f7a51e4607265c29f03e2a510522e08cd21856f75fbde948ef6f,
  0x6b94d82b83d5ba50231e1420696b65d5e98e3416927ec02baac912bc164f9175,
  0x5bc7a3686e3284daafc67f62244bee2f5e827aa58630f2d8575f8e0a3a23b1b0,
  0x73d471c51d76bb7553da59518d59ac0a7bc566553269aaf4e885d8e5994bfa24,
  0x6a4ce151ce2e95ac3d3e11e5c7c049ebc7a176444ffe97ca52a47f19dc44f248,
  0x3720ea28ccb76a7eaf53e2d7029ca45436b67e229815ada4d8ddff0fdd1fd5ed,
  0x73141ed854e5353fc97028f538f8b158f01fe0ad39014ece2dfbf254255c0734,
  0x55749e1b2fe8b8da7f54d7d0513d6c5f4b05d55fa91b3f61ccba5ddfec1b929c,
  0x1520505921c638d1eaf9c6a2633e550488f047278ddf4ce30bc5476b5c750106,
  0x72d2723bc91959351f5ac95ede18a56beacf3dca9f297e0a2db2a7549bb4b7cc,
  0x41044b04f50e4e856b3c4e3feee00804d4a7755cd5a467ae615fb735d798e74f]

def cA12 : List Nat := [
  0x23d50b0f2d6e9d367a1d387f4b1b1c5aa368a49aac758b13fc529b4c62f179d0,
  0x1d2efa0c5e7fd456124d93c749c5ccd1a15c7403a682c78d6eb74067a60d28a8,
  0x553cf89382fc659871298b48922e13ef1a63e6808af62dc7384c433a421d106c,
  0x5f1fc6abaa664724accac40cc347bf52c5c27a64ea8ae6312b36116e7a1ee3d3,
  0x5c02dca3c2d3c0d95c928ce2d6d6e4d1d052484f54dfe584b571b07429c6b57d,
  0x467fcb00994468aa259a7703a2520f53dc61358617a68babd1343189b12529df,
  0x43a9b8fa880ff72f854641de89c24763d1a4589caf640f5bbfca99f60b7133d1,
  0x62f0b1c88dc00e9e2de5f691f246c4c45e0d26990f8da8b6fbd6b0b85b75c790,
  0x6c4496afd599428c7a0ce9ca04beeffb98e63f264bdaac616cfc460b031c6dda,
  0x143215731325ba081141569998ea4023466b81d9c57965e4e6d2674873a879e1,
  0x6ab5044fa0fdafde2b283df31bb187ebdd82fbb7a5c88bdfc5d0f2991f64e9a9,
  0x27799cf86edd497b29e1015df74a1b19f7c4c6ad269c963b3768f184a9d83966,
  0x35099c588a50159ea5d12340ed79e44acbd33b004b62d756c2796e7c5c55be12,
  0x1817f67bfc4b6444b42c46311ee402f6cc7b703831b4590f9753d0466b52716c,
  0x23c2c9b519ffde10f4de435a0b2dc8cfed081eb764be1f990a94ec90b12c0982,
  0xb87b9413eefaed09c60e7d077197f3fbb03048950c997fd9198b55b8be8bf63]

def cA13 : List Nat := [
  0x3feca6012ad5ddc4831b27c1c0f88987a31ccc18fd19fc0fbca16487902baa8b,
  0x51687c8d6d2ea56fab405d2f84c25beee2b6f48ea4559d80e93704568fd33f01,
  0x700026b322c290d874589bc7662efaf671ee432b6e71f77a229714fd684a31a0,
  0x45a2cc1cf2bcc2e3fd9d801d9fd94946f817a5e0475e0a2e42f5a2ee45e20413,
  0x8df4a5b6b39ce060bd30659d11e537c41b104019b6152541c2f8c86423bd411,
  0x25bd14262114f609fee9b7b4c7197a90ef75a09be27a53b4b4c790af0a8b9c23,
  0x20b3eb9e688b553b53e91bf9a80ef24b7de3da384b43333fbf45d55495c3121b,
  0xcd100eacc6e3ce999cef37e84baa613b276d22a6b9ac5cc1c708c8829a74a77,
  0x197990c0bd9f54d81ffc277a900054013983c9ef0ca6ee59e01e99ab12cce6c1,
  0x2ab375f3e2aeb34b3fd30f28a8e74a3ae84c720d6a03ff23c9ec7b707bf3ed1b,
  0x167f2138320c22a54cf190b20df3f2fdf8c925cc1d3a2488ccc9c04e66f49157,
  0x41cc3a4ee5d038fe62d5fb7d1d1ed7bcc86bac3c38bf4a1ee5248c8dbf8b3962,
  0x35f8f1a0a742353e768858d590c031964d1560bc651fa7055bbce89d258eca28,
  0x4cdecfe6b02b9803657c4b694fdac3e6cbdec2a553c2d510f2a0b864bc5e5469,
  0x62cff7b17f14812fe3f4e9caa9185f82405ac3b2141514e929f20a861c015f5e,
  0x31bd0c632409e8a36b9ef4be73fe8d49fe12e819f3bfd8eec864179b7d4cd1e8]

def cA14 : List Nat := [
  0x551ce9196f6117d167196234a1332bcbc925ef077ddc8c903ff91e895fb3b6f4,
  0x6e9bab8fb75981a0ecbeeeb99fad02f35ebbeddcf7cf683a300573cb1de1781f,
  0x3012b21051666b0a23360acbfa60b19892f54e787323f48950b2369e8e44781e,
  0x1e44585f9ea64fecc86c9817c1646433178c719ac6817767d1bc3c2a2c52bd09,
  0x414e3b537078e66ce1e8aa28db5fd75833d20d28a366b23dbb1adec4eb09d598,
  0x488b7e44d91458326d07e6ca6e244597df71bcd0c1104462f2633ddf443cb18c,
  0x27e35d0f74eaa17c55ce328ea40ad2841d12f0d45fc6987ecd77b4730c9bb903,
  0x303193fbaf49a19f829b57f68dd1750f9537e42d6610714fe7841a25ae0d0f7e,
  0x4d86f48b107dd83e288eaa05e786869e2c511c75623f29f1e2935d1a3beabd0b,
  0x67b895ccb338dde46137d0f54b61fb3780694733d613c0deb79dc446bbc2580d,
  0x1b8268a06d3a8d5970bff0c1bf58c868e42428d6ac161e5309489ed714f5b140,
  0x49dfdc00996b92596004fbd5e83323ec0a4195d48387b462d8f6abee19eb4141,
  0x6fe54d37bbb9b61f5dccadf2e5ea32a2cdfbeafe7bc53fd99b2c829c440ec72e,
  0x416a8b8810a19448f1f41e90427a16b66fc87adf9c5b610abe81f583280d6adf,
  0x3b892ad17778e5c96c9cd7a57227683a76dd73919d2c2ad173fa11debba2e4b6,
  0x4f9d14ce9faef8fe5cb725535b0556cffc218dfeb3674b2fb22124bb1265b423]

def cA15 : List Nat := [
  0x588755b0ad021b4ff023b93e9ccc0a503c85ecbc2d90b2f561b7a790c08cde85,
  0x59cf7a756e17cc3ee28a56e7e1a42c334dfdeafeed60b9dfb061793df2b57fdb,
  0x556b199cbfdf4311e03f118a04c0cdefbee9adaea6b9d861b98428be80665324,
  0x6d4e72756f58b38c4dd3ffeced4d70440fc5d2116b63bc4482241f48e5e73558,
  0x2af4c3dc7616dda730d5c0b388e9deac73a7377ed8ba307bec29cb7cab395381,
  0x35b0af5f6fe7e075f5ee39249b189beb6b9aa41359e6fadbc1897bba57269fec,
  0x2004ee815acd5749c708865a4449d3bc60992d5dbd93cfd3d180f17ea4495f3,
  0x71933757a8fe5445829e45819594661a49877bb569a65c802f9fda4746b18421,
  0x15fff1449c83241ece87e361d2dbd734b5cd180e83f3245df2ced1c616ab3e32,
  0x15ae0c9f73fef8c487a6ba664a33f47065050174e0934cac198ff00683c9cdbb,
  0x527d9d8c8ff27f41e28752d34badc7de88311fe2566f145af113c090bea741c3,
  0x67af902dc5186a63d3fe2fad0094e01f278fbb7458ebd9ccb3edc83f1dcfb1b1,
  0x4eeaa4744c3c7516a59f4e7c4fb9257c7190d65b1a24e84b58afdbc51ab80761,
  0x43ca826f0e7d1ddfeba393ca85cd798d56ad1c9d8378c63bbeb903505f33f8e0,
  0x25d1897665b68356d36414ae3f5b104d971184978ce7b993b2917d50ad0e47b0,
  0x721bb9131bed9f86cc08eb11e849690cbc5bfa9dc71e91d57b6e33b897beb09d]

def cA16 : List Nat := [
  0x68ac3bc5d33d95aea6fbe39d25eccd48aaede33f0e5fc8963d16a20a656fbee1,
  0x50c19126ae8cf69f5aebf2b08f41c67130310df5c70dd4c2bcde55236e926414,
  0x53a97efdf310c687277bfbd1a2f38be2f9dada4e16991b7a4a369a5df58e0a38,
  0x38781c01485fd023d745ec9ac7de06aa861c51f063d2ff396b71d94eac0d2c68,
  0x5345493dd79323bb233b173f7616119906c894211fb0e334179222b692d3f9ce,
  0x6db39b0c385a29c6948507cbb4facd4f4f5b526fde31b4c9c6a6b7338da24da9,
  0x22624df47330d397c55477bd00f571a3e516c64b3267174077d986b5cb8b24cc,
  0x4bc86b9f8b06474a1c7a15847d8e3e4913fc690950d0c5f6b28225d2b536477e,
  0x54ccba2008c6525c4aab0922b4938e73b4cf90b60dfdb7e8e5b3cd3c72dc03a9,
  0x15c89ed482b03155bb933369c60294d1b3092d8c51e0fc12a0ef6e67beeaeab1,
  0x707d5418e8998a2177b5d9f675fc9ff6bb66989666a64b099a9eed0e25ce15ee,
  0x3513c417c03a83836199a30152855d14c59d1e244f3d87c6563863520c7f47fe,
  0x21a7c2045b23fb20a11620eaea6717bda799904c75e4240cff28ecfa68e9e06d,
  0x4c14a51750befc19db6af5d99be7d820712421e98b84eed8e6e2feab22b1eb5d,
  0x4f1d52dbb611df420cb5b7d2101658b1a3830926791ad85cc15650f9103e20b6,
  0x714f96b1d91d82a39ee943b22d4152e810f3bc538b776b8579250c197f331e1c]

def cA17 : List Nat := [
  0x575557afb0e94b666b5a306c79ed9634cae3b97fec4394aa51ee675f0a6e18fb,
  0xdb18319b52403d927a5d596d1c2643fcc2ce6c76f60d07ba2efee90218a4611,
  0x5c67db03e576de4a0a647acfd4b74d6df4acbc5a71c6a0ee43200b56a9cb7c8,
  0x108b2686aa4bff748bbea59444cae17f024960e31b63d6b8313712b5f770f51,
  0x26555140833ee000a48910c461fcd7755d71d502064528b66b456375308f503f,
  0x1e68c1a4ac04f919449500487972942d2c4ddb3404a9c2c860ed1e463beb3502,
  0x1f6bc3f2d2bec65dc286ba575841940d27a914085feb4f9277bcacdbcbc7f8b9,
  0x69f2d84e9d3331dd791842e9ef6a85ed0b14f1346da8243498a3bcb54fb86de9,
  0x58473d78bcb41f1d7abfe179bb75a73226f1874db38c8be54d845a8ccef95599,
  0x1ba49686a77169fc21b2f47058c91675040470c7bae34d7382e2d291f9b4aba3,
  0x58168ff440fd47050bbb9c1be67ec369a4c50a17133634cd1e1b87f59d16c3ae,
  0x92dd1dc46ed57b6234e068cd610cd638ff4215af98a28a95467218bb744d7c4,
  0x5bd83a03e3e91dfd18cc68ff3a0daacb3281a3fb0d3a2ff71fd6311ab3e3aeed,
  0x9cf3a199972a4e5b77c6c5671dc8dbec542f85cd37fac065e00c35fcc4cc550,
  0x1c4d049abdd367a2219ce07b3ed25f67fe955ab5ac919163d95f9065a94cadd0,
  0x17d1505b1bb2c660c6244c70f555b1d8c5e794f8c9e6e23c2247041b976bd47]

def cA18 : List Nat := [
  0x653678a19aff9389cfa1cbfd47e7d763ce01129094c24fe683db750cc54ab28f,
  0x60fd26604e05cf972704a1b3b1909472867b8e581582f9b477c2587e1a3f5eb2,
  0x30c81aeb1d191f59a948ecd51e713c3623138cc36d2c4fbe37c2fac471d2e55f,
  0xb8364599f6222bb5f8b8e0323c7f3655321c5f9d77ab0700df0907a352b7d59,
  0x6545516f99355fae79565f99182ecd6e8ea2af9afecab462c014470faae71679,
  0x49610539d503e1c7c791ba9dfda401bc7bf68ef44db3286d436349584feb0ada,
  0x41c5fb7e379d829ea2ee6590c9edaf79ac96c526efe9fe872c124a4061a87791,
  0xb4de6e526bcd3839b86b50315c0fac8e7080a6ee2f6493ab4683ec6466c105f,
  0x31573511b8e3b877632d582c857dde1a00ffe9c4222559a155d9b2edad1bf113,
  0xc16635490847b4109151a5cf2a58340aad6f9078cbba4e963abf705d0f460ac,
  0x26fd8f562453a6633c9e3c2ae9619a90e77634af60634ded15ce67e91c5e2111,
  0x19f44a35e3cf7d4854250325032ef2a715693ade8c1cad5f8a5d2f8933e15ba1,
  0x4ff8ce32b73ed433a02f9ddc92bbbc45caba21da661f30966afc52cc8c2674b4,
  0x6493bfd2f83436ebd941e2fc46d4d7ac0e70d58477f6948661031c90f625c7c4,
  0x2dc00de60cff410503a7208ff6cd300f01a7d6b61a0248793663e9fde50fd961,
  0x2ca19c3e6ca0b72b4e356a07bed13515eacf4ab29ccfcf9e5ccd5570a87424bf]

def cA19 : List Nat := [
  0x29781d6c20e7ab805c69b885ede9b5600f7ce32aad1a96d0c462d7876df0313f,
  0x5393473b4331c7256fb135cfd1a469a66d28f2ab78a47f7dc6d16cad29a890ec,
  0x6891d07278e00b1b6f649dd5b9f9983640d1f0fb0c4c01cab22c0b3fc6bab2c8,
  0x9af4db1237b61a840c19074f93c4e2d727295f23cbba2122db742dde08ef4d5,
  0x45614e0089ec18fba51cdb56ca5354d16fa8b0ec61d6ebae6a8c1294524f2f30,
  0x2ea33f780eef07cea73bfe026d1f562c01f0d05ec315a96b79c064112180afa6,
  0x4315a31881da1bb70bdf8f3cc895f691356623b9c80552436b5e22b7f1b57047,
  0x1c1a6893e5f64fcea8cc325aa99b89b9136e8aa04a5439a861be3c0c776782c4,
  0x67b249dedd5716bd23e756aa3fb43ada07409b52b90e7e5e6df67cf8e54e9f5c,
  0x10f1d8d910f7b75d852fa6b4396886a50103a1372d3bde753da8ea22b1094857,
  0x1315e6b77943a1a9bbdac6506541999b3b12d9ec89e8c736df8bdfa8c71646c,
  0x6043251e8e5bfb6656a65a3f6d18bf1ccfe9f711b8e5d3e78efabbb53f3b100f,
  0x12ff90e49ab95cb181f5f870e43496191e1d3276088cafbcc4aea0b1995224fc,
  0x528c6b5a35cad776e3d5fde5cca90a62d66c903f7550795fa64b789ed7aea4a2,
  0x25f37c96c30477ed1b4526bf655b1b27ead9ba11d5da611426c07f38f63f7498,
  0x83005977f53504d9f367fcf53354592539a74499655c0a7ba612a4147c38ee8]

def cA20 : List Nat := [
  0x67c4f8468f72ee432e8b0ef98b09470569157ddd7ad058674577ebf217a0f562,
  0x31d061baaca771796f6d80892bf30eeaf151b1bf63b05dc420d4643774d1a0af,
  0x3d87ed73ca6f46224ffcc527c4eb9e8e5d1d19b5a5847e9c072bf79dbfe93532,
  0x14664a17eabbe14938702820812edfde5a90d42af543b2270ddcaa45f4ab46a5,
  0x6edc6ef8d4281a2c1262603b72c85b84a3761a237a34b40a388d76f6ca4ffbe,
  0x5a3741f8b58ec10cf199e298ae3ee57d68ac4a3a7c010a4b5f90e39b94ddeaca,
  0x3c9bd0be5f295826464419e16d178f3c14869b3557644747c023259f542313a1,
  0x49e092bff6af5a62472d583bfb0a9020bb9ca5d17f965db2d599792817c3cc2b,
  0x175284e553af840d6e75c660c4b3a752188bab859b3d703b830122fdfa8669a3,
  0x143e3505bdf7a4f5e9481a510f608fc6456a608e50413ab4a3c5334bf41ef94e,
  0x30062df624f26e57510de9e58f1b33636dd6629fda51f6fa8382c4a67494c8c,
  0x5b1f93d91aaedc2298ef6e476034a104a544a2c32ac0f636936ff3b04dbcd504,
  0x682b7e1a6f51d5df8ba3d62132c72c4123f6a681ae506fce08d088e9573a615a,
  0x5e82c7a2d67dbc39237e9e6dcbb8d478a67314383dfb3470dc72a13cb31f7fe3,
  0x5e9f7da064b932bb6f10d8348839ded261c3b08c9aceb945e693cd0c81968bd7,
  0x63324512712c3a1f06c49ceeda7f0493a0d308f2f4a76a7a70d10368e208097]

def cA21 : List Nat := [
  0x2a1e16e00eecf370bd58573e0f16a667aefc8fc5b1e7b7d1f0ec3e262516bdc5,
  0x3faa5e7c927588c15721beebaa44e29281af98f08f62dd820de2ed741509a41e,
  0x1a63eb483453a3a7667ef49da715d76041a6d2c8abfcbb074ffc1050c1ce0b3e,
  0x3004e181b4eb0f1f2ac10a6e7fa32d5083864bbce272ead1888c039116b85a4e,
  0x2c16bc9af28dc26d8ccc010eb27cb74c2177f9c6e71cf095b1410fc71b20f679,
  0x1a37d31dc65d5f6ee566bac7fab59cdff6d28c81723879c214f307b6e22af326,
  0x31716e92e37266cbd4893eaf944dcbca54c991ce7f01a24fd514473345a1242c,
  0x42371d80fe1c6725b2b4057ba7ea48a6b75f1dc100c6594290f868b83d0a3c46,
  0x2fb302977dfc5068a97e25e739454ac709b06ba261de75aab5f0d41b22a60af0,
  0x424fdd75d8b933822449bb9e65560553f4c8b9bf43df715deb6238b04a4fb148,
  0x54ea64af6da5e66ce7bdbfff670e5472567f8ab14333a46389fefc0dd9992099,
  0x70d6efb0e09a4d0ea36b9ffe70b41fdaf79e619b9d854424513147d0ee0d2b5e,
  0x72212bcd9e2c5b84675c58776e6795762e8e8436b8c04606535b1c6834c377f8,
  0x2f5fedefb929b55a4a8a5c254a3f3d7274c248bc2e456b0f7735f7294336eb12,
  0x70d90ec9991b3f2900e96f00144390b927906b40987d24b2493c4feaf7891c69,
  0x35714f212b6c7ed1ad9e80cc1f8dae4afaa2778b0571be3eabd20a31dc151aca]

def cA22 : List Nat := [
  0x17236125a2e6e70b304bcbacfc276a8b56abca975c023c73a7b633d3b61c7ca9,
  0x6dc96e371f54712a6c1e15c5f8e855911c4297681e2d28a197228e1d8551e229,
  0x22e418ce6c714325744fb513f2e9c56ddb214aa0584de9b7c3e1c8ecfa580775,
  0x23b16e0b4fd846c9e88de244105895ca7852d27d0a22e65d93f18cba265864f9,
  0x34e6204e3b58b2a18415e298b929c85496d8a635e581c7e11d4898315972c614,
  0x76c0e486254394f747b4d0f74fa3564afd77d55be8866fe9130c850cd05aaab,
  0x13248787bb798d2e426eb54ba5d6b3eb09c1de3672823f3ab3f37929dcc4d7f4,
  0x296898b5c96266bd59e570e81089c49c6255a998e9c6ed9a8c88bd66bf8e0950,
  0x3a9c81b1575e0892011b1828d6e8a2072ad44ffeb2470386950716d57678adca,
  0x36c540bfe474f9b02102eb8c200acdf5a2ee3f8350770aaa47ddc995a0a27e25,
  0x3a0dc09271607e099bc47109be4c34ff59f83d4241ce6001f37921b308695beb,
  0x4f0dc8733e2a600ef2167e4f04047a051dd60689bf5ba30899dcedda438e77fd,
  0x2b38736513c0d38b8a45b054853cfec6e025777215c2ec84aac5cb7f27064fdf,
  0x6d58f8a2c727a98eb736e3ee87b73acc8832120ed833126b45f04513d2a4efd4,
  0x41d87c4dfca0486603079b5d68a8379d6a215b4b64299a50635017fab7fc9774,
  0x365d36ff156529bfabe2b2e4f5060a1a055963d4cdd8308460665d975a0da8a5]

def cA23 : List Nat := [
  0x587dbfea9cef740bfe06e6c9e54f802a5f7c4764e03f11bacef7675a988eb616,
  0x4201d39f61c8f75017f345f91018215653edb701b51e8267f0260b12e8f48207,
  0x574222713e4ea594d2d9c94c5fa3778791add1d5392698211336a2baced51977,
  0x27de7f5eb1665fa20d4927423ac472c5b4f85568be180fd8e578c4176b3ffded,
  0xe9abf66d02bc5b5490eb5b52cdc1dd5b95b9d512702056ccde1c6f621b5ca12,
  0x524ac0b10c588b377ad2384fb5073cb777d5d52ce87bb5d8261309e843e477b,
  0x4fef537271461a4207e0499dbc7cf6b514c6daa513338513cf4e5fb109a23a77,
  0x17a91b1fee22e4a82b7fa3e2834d6662b66a4e55eb2d2859d9bb5ec33b2f5a22,
  0x6752fef6c4d40a5821577496edfe8fb4c9daf0cc74b99397a957ce5007ee597c,
  0x438f7ef0275b22a198b7639f6e56cde909e06ee76f2059f6731ed293febc7ff2,
  0x4928fd408ae7bac412696be6f81886c7d8ef2eccf8e10999ced33c3115988330,
  0x8d9b44da0e67e8322c378f1d586afd31338e0744e092a9d4906333ddc3e1eb0,
  0x1d016617b2c43487152ef7a756c44b846b0bf154075675289df9c096e82f8519,
  0x34ea79d09bfbc1f17cdb4e5fff1ecb157dbaff8e0ef7d6429a8f25cb8ae7e034,
  0x4d2686301e19b8a7d214dac0b9298c5c12238024587731a880602ae79a8da179,
  0x208cfc1d62506f4a06db48976a95ffd7efd39931926904e126201ed6e9c05754]

def cA24 : List Nat := [
  0x35f026d7d919a45f44577fb97d0bcfe474388d84be7f515f89f82e6844fbc50b,
  0x3db6eba6bf96c14652651be3dcb7c0a93a16f8023d1bed95c0d3ff070b7a434a,
  0x2971b2ab34052c0caf10adc43eb97f2550660b99b92e019ec7c80dbd70dd5252,
  0x574871c49356d5c936300f1e87b3937220593733aa8cc5edd36ac13db06a9f1b,
  0x34be2c228e070ba523fc01bc9807b76c47d10e28479d32fd90f6d34241f4751c,
  0x3f2f16d302652905fda595898ca9aab301dfd8f2e2c2682c6850e2bc57f7d6c4,
  0x2a8b6b93714cf6b1e467b232e6fa412803bbd9fa0d63f2e22487c7c72a488619,
  0x84dabf6875bce27420972db17106fb62797f2a31376ed97091c9e1703151f95,
  0x1ef29845c90620ce9bc28ddd38b56de6d717afd0d64d09c876d4bc9240b961d,
  0x59e8e31516be7146f00f37a406516dbfb3b945165a3b10b581b8f80922b711a5,
  0xec9efec165c53d2b72db184ebfa3215edd176ec4b836d9875bc75c7f55425cb,
  0x36748949c589a66deaa40652286c0ce38de80fe661eae93507a896a25fb2d012,
  0x2a31fe30d46c0995c210cad97c6859526ed76a994a3c1c111484a9eb80527b88,
  0x122e8d6480b262effa307e069b422873704c8f77ab14e8960897ab8ec18c98a9,
  0x73cefaa206ab4b183e672a3b8dbce844eea3a453d941871514f81b0d75cb2710,
  0x2a4f0de0f3670db99b4c4c5cc1c472b9949f8fdcf55c2b86b8cfe1c0297e6f5e]

def cA25 : List Nat := [
  0x1f3c39e6890f9e1105db0e969a634737356c088b71d35059dcd090bc98815522,
  0x675cc6bb0e252fe5fc6a220b7ab09af210811e9bac9f0bdeeabb6ed0e2d5c4a,
  0x18852ceedc621509cfeba32b4d0170368d8b2ab210b7bbd176b96fcf3708b2e5,
  0x4c7fcdff82277a5c208a73ba4a442fef3200744914114ad3bf8e5e292e5edf9c,
  0x4139bcaf96e2bc17b0e19c658c04ef0aab15f32d4c3906198b6cad4a4cb40846,
  0xac1c3fff8cddd376efaea065e5969371ed90b5c5e998d493ba77b99d92ca394,
  0x73138aed8e5d65eb087fbec6ed976d040bb401c9e290fd56faf579454c27d34d,
  0x519003f25433191d761fb84fafd02ea3d7bea8782504b89adcfa64ee2295818b,
  0x2aacb78eeb9e3739aa3fe7338a12adf4e767db7bf14a35e356f8bc18d480d275,
  0x21bfdaa648651fad5a20683ced40f653f56934a4aaa55315a76ec7b9b7317e51,
  0x38e48bd8ee6a7acb935e4875027c869a90352ee0dad8d36a83aa744caba57cdc,
  0x2b8334369906f1875175b8d1cc8b4926cebc5a45338ad13ccacf77138f184c07,
  0x4ff4172d93c1be6aca85d936267e09998f5e50237b3a38a22724d415bdd01842,
  0x6a2567e5bd567cfa4c9ead64e35f5c480c59c040b6d917a9c5517c6dba6fca06,
  0x130d8ccf8b7dec83e6710e864adeeeb638b8bff3d0ba97b0a6d4d90ddf2e6480,
  0x56428b44c62ac24d7b201eaab95259da7221b40bfb570539a1eac8973e96e1fb]

def cA26 : List Nat := [
  0x23b981e16d8f2828853355a18418027d5de8ff1eee3a3861bb47528d09a439e6,
  0x6c4a31106486e3fe71f05b49a74b639448070aa007b5ca4d8482e69a433f8c2e,
  0x22f4f4e9e992769fcc1f88cdf2a79a26e5b010ed8f2067ad57b3230662040c1e,
  0x41419476196b3c23cf517d6b764cacc075c91114e9dd49f8ea1c1044bcfa7566,
  0x53ed85e13aa8646c7f1894c73a8722a9c06c0b1fca99deecb8fb52b9165f405a,
  0x325a852a113fefc201d8eb3793bad6230ff561cec1ffa9ab25fe5731902b7e50,
  0x2e0b8fcd813cbbfa1efab000ae7be3237c6fa19c85fb4ff389ae4ab546a8f2be,
  0x38702b42fa715408c4b1eb082ce923e973a7626fd3ba8aeaaa94e29f9b44ffb7,
  0xb6c85ccaeeadf73a283607649ece9b9395225acc81c93dcd192393aa3a485ff,
  0x3930dfff2205dc7beb68cc135a20d33b13edc20df5cfbb877b28396216ca20d4,
  0x3850d50154d0c1d54826fbc54a42e005c05eaa9a4e00b2a8fd02d606dd3bcc1f,
  0x352b0a6b8c60f4a8e4d7cc1e8409bc0bff9a88329cb7f20e0649c5a3bfebbba6,
  0x146903d9552ed0b13b016a7b667f0f61079d572e9b2b1d9af44fde7e007a55a,
  0x21a3f218a44585be5f28b2900679dbfe3ea2399f4e9be8e638eb8bc775e76b4f,
  0x44b3f855dc97c022aa09d6be101f2cb7e5c292913bf64beaaf44b42686dfea8f,
  0x709fc667455de1dd65bc40435c095409cf59ee58caf09348455205127ef9ed76]

def cA27 : List Nat := [
  0x3d97cc8b939c2f55757d39345fb2595e45bab6d6866605aa44b7d017deadd959,
  0x169b534d379fb5fba449b93340d832bb03f8daed3faaf918344c3176991bba6f,
  0xcc1e3a5a7a9f81956ba507b1e2ca4bde39e573b3d06b748ea4fa44b10d5ea9d,
  0x85f20979c102312043ca23912e05cc7bcd92d5d176152492975c501925f6b04,
  0xe1b6228f8e241d4ec9312f5c325f7cbbe194d1d46949f035f013b5cb91a2998,
  0x5912f8a14feb2edd36e2841d2134e4f884e7c23eb573146be94ac2426c544e52,
  0x69e87a2da6a53ba4af0928ceb428518af481b58d93739777129aa3f1104135aa,
  0x3f3de3fa97afb6eb32571aa3c053a642db50a15d7dd4d705ef0930f9756bc172,
  0x150da106344730e5f65b3bde9ff0f8f1ccd68e4ef15243e80f59dac78599d586,
  0x6a18f081c0f2761d1daa7ad3933c3641641494bdc5676a3178901ba16a3d6106,
  0x69d75ebd234023c521147872b23e254e2f78f636f0440a04894c2d344d66fa6e,
  0x68d7c180e73fb50d64fffe09f9db373e3dca2035d403c0cfe315343d7cd167ef,
  0x57212bee06c243e4aa0a8c39266c7cd25f295342ccdfa7e9a8f58bd46e2fdf10,
  0x500723e99eef4d0792c421ee369322fd2c10ba1fbbde9e8b7486b61d6ed3655c,
  0x57b2cf1fc0531d7ed8b5b305dd5fecc0e5dfa8211e77c9f7ae51ebb93558b156,
  0x37cb2cb570d0a565c9d85c56318a50b2a7152c8ae1af58c5cab3d85de392f0d4]

def cA28 : List Nat := [
  0x155039fcf6e45eb8add6a1dcc1337cc3779d2722bb801b228d5870b0ef01ba55,
  0x4ce024a57a42d68e205f3aa27186de39a951e37c35a611fddc5038cae6f5f9e3,
  0x5077efb5f9f3d1f1583c47f54d6b12a0cd32714279348e0f820e868b80f5b950,
  0x6248b348b9795893356113fde31b4bbf3e3b2dce7e176a33bd129a66ec8c11b0,
  0x5c702e29fe8222445894c015087a7545eac90e6f4f3f21d6f0f1bc0180640b85,
  0x14b97a1d7a9b500e02a62fc7886946af65e4650e07ccf066cf67289e65865edd,
  0x3fce62cc9ad0bf36605354623d5b849e70fbc744f95349222edd2fed934f8578,
  0x44d8c53bf24da07d4e67ea73b9b928194cbd04fd0206508574b8768c07875b64,
  0x39d5823725fe0d30f73dcf27470d6b8a4dc931d225399287679daf6b9d12b79c,
  0x408b40029baa2af6a0008bc3a8367d1ac88ff522fba723ef7950228496eda203,
  0x2f92dfbf577821b491503cff6d3746ab8f7a6f3d97751acbd7482190b0f4ee38,
  0x366b502056fc9c754411819e446b3991cec86058969b94a0437b3ae3d65cb610,
  0x598ee50be8aa75f5b13ceb3963ceabf81983682bbf6c38a447d1f7cb8269e843,
  0x5c10778469215e9b793bb5bf19c762b04392958fcae87dff71a8a841cdbd3de0,
  0x3193c583c254666cfeb6385e046d80857e5ecf40de231e5fc752b2762589d97c,
  0x2d37972bd84d99494961c0aee3977dd4667cc2ed7c82c47e3a7c5c1797203789]

def cA29 : List Nat := [
  0x49b4b9fb0baa8e94f14c470347583dabd6dd2b1fce630aa5ee4cca544743314a,
  0x4a4a9c87f2fa75c625f5624fe1f45044a408faa3a08ca0a16cc247b1041979f4,
  0x6f48e6d0d68c710026e72dca9e9a6c7d1134c8e04db45fb962e37eb8cada6bae,
  0x26b09848c10b865c67e6280a18ae5508243a0011f8d0078432ded9bdde830f63,
  0x4972c5a199bf37ff4301287f0f6eff68d9060a3853d68ed0aac4f71f064d693e,
  0x51e80cf5733087bf1a99538fe367307192e58b4b919595569e495f39e445d62a,
  0x3336c9ae1938841d10756c2402dc94a9440a8c247c9768d0b24199d4d17ad455,
  0x45a0865aaa1368a3d918b2baf3e9d4d04eef75537a082e74f94bd51633a2ba83,
  0xb80bc91a3ccb2366458a869c0b384755588a9fa4d3ffbe1f79cf4a22a08337c,
  0x51c9ce8323ef0426a9fb733446dcd8a8c276d0dc99f36912f646b7206c31df2b,
  0x6aae1137a244fe7abc8c18c05e12c6961ba028944668767d2be9cf772bd6c8f5,
  0x3bea4b79e710512f4dda31c4409cd2ad4d4eb50b742161a1d7e38568b9efcd88,
  0x49ce890a79ebb20ad220784802cf6052bd506ea3eef6a408afbeb15ee83e0dc5,
  0x2cff1453e92d1dfbfaece1367af1ade2f65a61639f903a0987dfc5c74589430f,
  0x37cacc4ec24b0f9ee79d9aebbe5acb49aaf2bf1cbd37c2fcd263188cc662bcfc,
  0x19361b60f76b3bf5f1b2a5b5749841659a17b3c1df44337a906f409ee089c3dc]

def cA30 : List Nat := [
  0x33936427432436908e65a5dba4a6036e891b627e21cafc47c94bba977df27ba1,
  0x739b7b711fcf36523d2cbd6cee07cfe42dccac0af3f3ac35715352b1af1d10ee,
  0x40aaf55c96a853a49f8734b63e31bc1e9d11698046bcb11169166090a608fd06,
  0x39306c205da344f3407939c6d8c828702e08830eeecf1e56c2a6dbad1be3e730,
  0x67c3a9f987d7c8d22ac3a24206721b9988b746527569bb5479b75dbf994b0985,
  0x380c2b5d8e7dbc1e3fb3ef11b63a73e7b8d6e16f53653acb4316065f19dc6234,
  0x180701325b1d1fab282532ea29e259f641e97f7d07045d4628acc3e9f9e65d4f,
  0x563ec491c6c36687a9b16cb886186a811132cae20cb1c13fa84df8efea29f9ef,
  0x32f0806d1411854e26645a161ad4763efddd32b80070f19c2541985ddfa0d1e3,
  0x505ae93b8ea4860dd1a97c6c0e25ef37204eea63409d14f4d48218587403596f,
  0x31bd94447795584f21d081c073ef0daa71f84c0b42ccb08826c0f2106320ba88,
  0x4d7acd5da6e1e6f39ca0cca86e260dcab5bcf516a4937697e56f6342af2859a6,
  0x593902ccc3fee399eabe81decc2bbbe839a38a07ede340405442d93b33912cca,
  0x1b2e5f1a95336a37147260fbe400b0bf39a260421c4a1fa70737180d0d84f1ec,
  0x13585ab3825cb109ba9ffdecdbd8579b75a81ec7cd160f83d5ec23617f3f0905,
  0x47a1ea6418394b4195e7d14bf2c979be670481219b51ab2bce8067e23d89b250]

def cA31 : List Nat := [
  0x5dd8979e24789538d7311126eeb06556a760403b7136b6b0459f0ea7d80552c1,
  0x257ed16b108345297f49d09739484ebfc57541e7e37ace659e0ca067a86f034,
  0x3a23933b8f9a77a81481d2cdc792bc70d0f83d42c83a0012df4572129c8e3601,
  0x47a06ad7bec083ec36bb7053349371b4e6ea8665fcd5be58147c101847c82843,
  0x3ad0321ce3cb41eb564e32aac9a6e19f804116681792f8a34924dc266f95eaf6,
  0x10fb45fb420faf652354b4a918d1cb581a2f3cb4fc72622186a18bab300fd5c4,
  0x204f766aba057c82aaaf3affa701220c596efb458a1865c4909211b635a18c10,
  0x25d099c0d897025d047d8f6dbf0c5caeb3bbf7ee5990fb1a787f7d3027814885,
  0x5aae5cb4017ffc89a7cdc951b98abf71626711d8e2fa09607976f9cf3e1fac72,
  0x6faa621d9471c2c3b5abe776e6017f4564b0573f68236daab2a947036f2ee014,
  0x6c20ed65bd42c3c0414c03ba859533e8fbef5f6031d4a2b87d909f3d384cdac7,
  0x6e8c86198c6ba7d68873b58bb4d314c7f769de6d47fb67dd2a2c455d5e4b1a5,
  0x6d9cfa98b6e22f8d1d384da3e3bfc805a0619ebb98b6905f2213f773305fa5ab,
  0x70f6a6fc081ed739c88f066e1a88c90592f5ccf6988e5327ffdffa066e934359,
  0x6467c711910b53d1459efbca192899e83bdc2073eaf6ac5f5b058eeeb0f01b33,
  0x14c0cac732ffd9049034ef63914f585475c6998a2f9c205abfde4bdec038a006]

def cA32 : List Nat := [
  0x701f7b8361c0b6a888141334697a1f1c58f517134ab5f8811858dd6f352688bd,
  0x46fb3d725f239d8d029bcf749db02578939b0e0521bd5534d5c0ec108a98503b,
  0x289396be55e0f9100fe5d803e2d831290c7bfb0be62a19b2da919e458b69dfdd,
  0x117747ca519c92e84ddde4c3b9cebc3d75a2a582ab5afe86c12e44eccd278cfb,
  0x3934c8d41ebdb24823eadc02088a073bc46924a023f41717768504790c06d84c,
  0x53f45f58651e0db40ad5611d17f917c9c9281a03a97a5a7f132c2bb042b95a9b,
  0x3d223d380dfe6559fd4d4c7fefecbbe9c4eebf7f3aa29588eb4eaa95fa6df474,
  0xeed449bcbdbc4a9ff568c61b2c778c018769067ff45aac9247956916bde43fc,
  0x2fb77714374deb307142a7daece5cd842498649f1582141856349ad98453ab26,
  0x37e40da1d9bbdc8c04e94ea1f101683132432cbb8f22e4ef7baf1d0f511934e8,
  0x4977c99f8a1679eed1a5d07351a293cccf4817e9ae1afaff8735d1f7e4eac8e6,
  0x4575c92a867c982077769d2b74298326e2b88b7ee6404c77ba7f4004ee879021,
  0x1917a9887f0988cd40a1da2490f3c8fd70d74ef84dc1ad3de254eca34df86eb3,
  0x3949294786a22b222290f6b1ea22c27cb6e024508b81bf5689e33efb5b871958,
  0x5951bd2c83f841616717ac339a94931c2ce7ba82fdd03209277c6c8cdc2682a5,
  0x385ecdd45de7e3ad1d8227009ff9c29477c89cbb21103f2f79ca5e9e2f1152b5]

def cA33 : List Nat := [
  0x673ffb3511a1b803a206d61d79f45869cf43dd8a60d80ee320a1c2a15de2d08d,
  0x45b44d679a4c31d470feaf2484e7c38806d2063dbea5e89660620b09d07816e0,
  0x5c9067ca4fb9dd4ed2dbbabae59a441044c17823505568322902232f60f6e34f,
  0xa1e7ea294053b0aafa0de89fa10fcff0fd23db0cbfbce5006342ba9b91eeeeb,
  0x340c8a164973d92f18546f22d36577046fe0b78c40da461ec09389489729470f,
  0x2434476af3c8dc29d23f15e65b7f6066cd549bb082353df1a31c24ac468f93d9,
  0x171d9e00a733999659105c42b2844fa5d27a6755a6a7f72aa6214ef7fbe886d2,
  0x6e5927cdc76d49f1b2e5b6da4fd113ec77e837a2d9a1628d82858c7cdd4232f,
  0x4abaeab44cbddd84b1c55fbee21c66dc63ff28ae95e1444f4dfd0c13133274f5,
  0x6902ad883c06ba08873a4dd11bb0a9d88a816a4b48199fb3d6cb17bc23d5bad2,
  0x3b28d42c58b15b47b798cd15cc5685953f4d880cfc1ab400e7fa6910517d809a,
  0x1cb9500678c11bb00b0d249122109ca9a5251bfc0c962be4bda8ae9e7956995b,
  0x1dac592070691871dfbb27644b3ca393479d9ad54bebd2940fc7afa31961fc2a,
  0x4814f113f4dee7985b139a494763fb4c714aa384d7b14990635f90f1a808ede1,
  0x100a158796f4703fa743ead08cd8417c20f084a98ba20c82046595e4224be443,
  0x480589449ce7790e10e5249a621dd54f82745fc78d581e1eada4db63f7c5f477]

def cA34 : List Nat := [
  0x582f178739d95693cf7896f8e54ee15ed073f7b54afacee921dc009c3000763c,
  0x2cb8c8f225815dd1a6f7c2ea47b0859c90489fbe12a1ef9ebac101af2a09a89b,
  0x1c13f2f7c6e17a8baadbb4a7865cddadddaae497945d10b88b76dfe6d73dfa54,
  0x40e9982a93148dca61876fe65fa6656be82538d8b984d64a12e6f344030d2736,
  0x557baaa18efb7f4b07099d14938aa336f2048c246c49fa6b9f92dbb212627159,
  0x515d52a5629b144dc090bb8ad25735189f37c7a1956561f7a5979361ce372577,
  0x261b32a430788bcabf12a93a91f9aa71988d0efadaeea2fb8af91eb60d5ea426,
  0x2f20e1948d2440b49ceb2e0b6f6ae97146fe8e57618df6111a42c5769e69627b,
  0x4f0b0749b9f64aef99c50292a7dee5ea969f2625fba5eba0e1893276c4ea35fb,
  0x7269e64e4bbc6eb83c7c2a6b5c372ea0c9bf63c1fbb270fbf96387c93a968ee7,
  0x6a494f2d7f3559e81a5b24a277f00e2b4eed3b4446b605f4f3d66940b69b23a5,
  0x4d89b7d8d26218c601a636a5601fac2b3f834c46036ac5d884c86bbb7cf1a7ca,
  0xa0076f4471758195c4009acff3d45b4b1e5d7e0aaa2a8e0da49b478715f4843,
  0x664e8197e06e076b0f47444898dc9cabd98d4ccaf4bdb1ee9c776d79b7d52672,
  0x231046ff1c42bf6ff4d818849e49c31df3861a6746665e20c3daa9ae3cc1f3d4,
  0x50d21936669df6d33d08a531833404a7b1eee0a5614a91799235f35433e971df]

def cA35 : List Nat := [
  0x6eff90b4c8811c666519ce5e5f72fef4affb3b476a1815671db25c82c64074a0,
  0x63cef2317eb0f06009bfd65feab8349b95d370ac43e67a0659222a587fa6ef6b,
  0x50d7c1e607b5f0e060418b96746b52380d56e38d66913e2b85fc6b171735398c,
  0x5a3dc5727d9fef3f282b5dc6f48fd076667878fcdeb68e69dc4fbd31739f49f0,
  0x40b00acdcfcd67824d0164629e42df82b5904f812dca2513102aa8f368e31a9e,
  0xb5f4805d53c3744443eadcc179ecf5e7032b7b1b77b9e6784e8f84db3664346,
  0x4fd986152352ddc33b5013db2dc598d971e732928e1f6e270702367c70f49c62,
  0xcf9dce486795583f09468ed2da0aef7e8c55b77618643c0634cf52e61f50d7d,
  0x2ed29057cae366067403b831347e294ea5e1d5b053bca36625f7d8a73f68da4b,
  0x1c884006da2320109a97251c8a5a968fc4dc7a6d4b4e7a5abc6162783c451689,
  0x12c22cda6d6e7d32e88eb22285ce5a3ff565b949100f986eb832c3fcfba0d74f,
  0x3ebd035af7fa847e6b9822472f27dc7c77516aaa0f081058a6b659ecaa71ba7d,
  0x659b960f92a4a78cb29716666d48702d11d3c084b95505ba1dbd04fd37f6b517,
  0x264dad6e5184328a99528549aa0dbe54f89e72fc3ea6ba8390565ace1faac4b,
  0x58d66bf325fe274d40f383e28090c7bd98905c6b3e659efeef3228b5e2e9335f,
  0x26106f78d5dc42d6db6a46f509002b8a22702d9e819f7edcc50414db88b15d0e]

def cA36 : List Nat := [
  0x535af3a245e14b6aaf375a951de8b63fb21f9c6372902f10963d2fc52e8ac5dc,
  0x38c53c9a9a5da9a94b58ada9c4dd98e0de27d12fb67df7189cf2d79c3cb8538c,
  0xf19951c2dc641b9aad47108d4d4dcb870894e6bc060953ba148569c937a9c84,
  0x516fa6416bc472a9469e0688ce4596b0fcebf6e6632735b469620168da059329,
  0x723bbf529ea8eb35373a7f59026cc91e476a89fcd417c15ff66fdc2ed2d53ada,
  0x6c21bb2cfb62aff044426d48074d4955b6ef988a9e84acd68bd808d4d2d3ae2,
  0x204649494bc34ea2a11020202afbf4aa73b726b379f193713234afa1f74d665,
  0x29a7650e8d17b11afeffd23f69b3671b9637188680f7ca27d7336cb15b9133ee,
  0x20ea823c7f1022264e6425abc7beb02805b432570beafe6683b6810af2c9d254,
  0x190cb15f102d4c7ac9cf9cb10d27b62509ac26006816062a8cae1611495dd8e8,
  0x5c7c5c17ee5490bd5ef0c27d0f6b1b6b2a56253dec437613a214eadd82ea1313,
  0x32f2cb54f5b9ffb70b98d83479a413cf7260f7baef2385acd531ede56e181ec0,
  0x46f37460871865c2b3cb5261a573ab0c613a6a2f5062d716bec9749832410f66,
  0x2df4aeaa03a8cef79eb165fc6b482a0c6a4dbce17c516e1b4e64992b6b957711,
  0x1b4b6f0f4abd977e43ed07c56881935b9ceb851a2da59f5d1d543eab34034850,
  0xf876a72f4a3f63639c449f7bbf6f4c16d25db0df2ac14742e50a1157bf32270]

def cA37 : List Nat := [
  0xed3cc1e1875976a23807792439df2a85f978be6f0424ce33fa62b84fd8d2a35,
  0x510ac9e8c40f897062277bb07ae797e1783ab91473228f54c2c3e208e5193f04,
  0x322678cdcb5d32c8389c9dd99fe453618bc9ccc734a65a4ac9067b44ae8561a9,
  0x5d445936afd24f811678233b9c90ab514dfc9b814d687b4147cf9318f6aec52c,
  0x5219bfcdeaffd8430d120d469042c24d5d1e7e157656050f0f47fbbe627c15c7,
  0x4e201ecf03e43f87e504cf269b7d47b99a0b279a7e2f0ae362a8b1610126afea,
  0x2d1fdc7a68beb7074a2d6e2cbfbbc2abbc09dc2bd80c5526fe266a4647a69949,
  0x2a6660cd5cb5540637345a2da148a62768649bd7e837753a8c5cac06bf0bb963,
  0x258c6d7d0da97c74e61d282435fc72a56a6dcbe1445378fbda53232c1fa0ee81,
  0x4b78c1d470ba15d6eedeab88fc41f76f5483cf45fc8e0071dbf002caca7bc972,
  0x20056da78bf102676888ab63f2eed242152510478d8fc4edbd6cf0c5fee1106,
  0x2047d9f3734ff467c1289cec43937aba94b10a95097e378a20c86ebd8dff2e06,
  0x879b91b8f74461ee5d62d581c4c327f75adcf721a07f532ded3c71a6152ec2f,
  0x1035c586e95d3910a29410c18a9f2682608e319f54b93a0011e32c5d32fd1ffd,
  0x50f1ae9a49e856b387a6db46bed80753ada126dacb616e698dd9215c72385131,
  0x65dd242a0f705f23d5b3a7ae68545f5bdfdef399a6dc020058b3f0b40c0d9042]

def cA38 : List Nat := [
  0xc6e34d4973c9b201c7cb255f4feb823a3af6e28b46d0c9e607e9dc8fef50a91,
  0x3bbd939a4168f102662d1d3cd44ebb45f404197f4d5dbb808594e02a8ddd3a22,
  0x3e0a191a5f0beba7c74c7393ab336f65788deb6b7539b51665910b995a097e54,
  0x3ed8dbf5fc5624e78531888322228c228b7c22647f224e8964fa9290af42e1ef,
  0x2de9b121afd7ca6c328b932fc0d3122bb2cf5df5f7e36848eac3dcc6ed0c3206,
  0x3db71027943c26e13d61dd6ebf9f157fbba059c493ec7223f09473e9b8ea309b,
  0x155cfbe1b0cf1aee3cc4768a4fdddb3b32c7f3bb548cd7fba6bee3abeca2e986,
  0x30fbb13a8ec0588c02dd81be168daa4dae1e6d5f84cab36134c5491339dad665,
  0x668c50763d4ee2216fa3b835f9aaf93f1df61bdb4bc33aa3d1f421957064179a,
  0x1f29f09504011f5e1fa6fc4ec98f12ebdfbdea910a85c762951fb1f6e4af3ac6,
  0x185397b4e3faee913bdc5e235b749aafba9d82571beec137c3f6139a6f696b0,
  0x2ca79d68371d10622fec3dd7bef081b24f66af5dffead6ca6713fda108e03ae8,
  0x528bdb011edf3b69a0ee4e7110861e20c2d34601c84699ae489c04f218011535,
  0x16f47ed5f85d4a9176fe2e5913eac749c8d995a430c5e0d8fe5af2063ae230d6,
  0x53216b23f459de2b78e2ce31c08275db0266a10250e00e95ef9237fd0c1ccfec,
  0xe6bed54e10a4fbd235195a673a1f7649e938832470a131f786c43319b52dabd]

def cA39 : List Nat := [
  0x6f90745b213df5d700618d324785146921887acaab37cf83ea5b3e6df70afa12,
  0x3630f22fbac371bfd35357b1820bd5a7495ecb398ba10c618428a57ef0092772,
  0x66384e5bc121ccb2e4e9d86a6d42ac982b9a4cc705851dc48551dc2dab31a001,
  0x222712a948c766ce6d92c523e487fdbd98586743a20a0d2febd739efbcc2e34c,
  0x54389190a4bafc41ee093123460569c29fc708aba33ec209e57a6957eaee8221,
  0x6f4b213098477bb514b0110fc6f82dfd7fbf5b5f7d3bbe10e0d9cc41ee7382e8,
  0x253d125fdbb0de6d99718b0bedb55d484e718b150ec51662be4910b867866685,
  0x4b54f53d08cc4f58166f7e80797cfc611e591140b814874a02af7de6a112844c,
  0x6fa8f5df0a49f202c4d57947ced2ba0507f73c2e1a66712c7628faa3b815baf0,
  0xf6d83418a66da0d89e9ae536843c471f815968e692ee6d83a0e54bb65c7fe81,
  0x64840567147d872bb57a8d740b0faad049a546b97995e737eba84ba0ee41d9ae,
  0x28b09a8ae75be4b416f1e77a855d557af3537c6841c272cfdde35a8788a90b1b,
  0x8476ce37d36217474189b05517e5c8b62b0e960337d3ecc137cdea1f100e866,
  0x36a58cada1dec7ab01d1b461e0a7d61e0172e2b3c303164facf2cc0d034cb4f9,
  0x359c543ef988214d5206dba8287049406033a5bcab95e700353a8e2520a9c584,
  0x3b2e2463594535a1839d3ffaf839ec2eb5cf1b439e6f739efe5e19fe0259dcff]

def cA40 : List Nat := [
  0x50ec1ee80d04faa4ee52f509a4d57d87fcf94a93114b14f2d8360c5fe77369e,
  0x728affe0ccb67fa4a61219f7be27ae44a78492cff2ea4ead483e1a09a85ab585,
  0xa938a0417a0bde80cdd3b970a9e0501a1f451d8f8f190597be2256b3afd8b8a,
  0x6618f1ad564816058521cc771e06f2f273932aebbb66c639049b8f8c99d621b,
  0x296f6b8df80239e54a75effaf12ae8e3b4e4ce59b30f6b5a85da2243df96499f,
  0xd1d0301dd2e8566169de24d84c72325f29d7dfb712bada6114d8007be3ad236,
  0x56525a3ea01ee06175b63881f15ce20437f640731fc288a210769cd56e02c7d4,
  0x2e277d1377c3c5b026062f0fe29bd2e6ce61418d68cd0fcdfc853fd22b62d382,
  0x4ed6bea3bf12e6c0d55cc65f807993c7d65ce5f7abcea5701a35222f8875af93,
  0x59f154a666442bd1b499fff12e34e491522074e12d97dafb9e46dc7bd121a614,
  0x54479fd94013b3c165512ba79e74e3065cebd74e7ff36755eda3bb5566ff46b5,
  0x228490e8494fee4a07ef03e753ee2cdfc0bdab1eeaeb6ef0809ebfad0c578131,
  0x529d01553576f672535e6dd3758cc313fa8666802a0af409c7ad1b7ae17a44a4,
  0x345b3680e23668852c83a2de3346ffc300856bd40928f041a76a310946e7f252,
  0x2e424e529c4f6cf16279e70243713799197ca0c30a8b089f26cd2ca794b01ebe,
  0x3da6c24931cf1e600830a7374127de93f9a4211374827e3e134d05eee8de2603]

def cA41 : List Nat := [
  0x71278d0a7941b056cbe0c4b2de59636659e51745d622eb7f8786358bf7b763f5,
  0x685c03cad97c44dfd6632bcdea4fa550ff59722428d0cf7fc579ff06b6758af4,
  0x3478cd0cd91a20ba2d03965d9a3ddf6e685e12000a2c812b511bd81853ce9b42,
  0x262c453f597dd58006a8c9925e5155bf2183f6a50274ce026932a10a1beaaa5a,
  0x71a20f81954a7c30df4e0ed456f2093d734138654bd27cd384587522b8c6c0c,
  0x73a081e3a655d0a042e04513d8d5d2a3911f6ccf8975db7d545626a37c187c46,
  0x5bd079e300aa9edf3bdfeb8639407ebe0eaa1cf9e586c4f0e43a65b1c41517d5,
  0x16fbc7052ce05a0612d8f16d7d39fb90786787f8c289ed40d1db6463275fca38,
  0x5d94fa8bb8f2ce8df58f8a84ba2643f46eb49d3c07b203f8be3cf2c46374fcaa,
  0x1584ab454e63540d4fafd6478c72cc16989556a9ee6887f62be73d845a059f78,
  0xcc6e374932ff61f13c1c13eabb47cbeb8c7b6ac6ad0eb7013d5ef93069f6cde,
  0x4e2e5bf1d73bfbd472bd634d22dbf9796d2568858ba13796c39a7dab89f758b0,
  0x47d3607f096b636a8f5869c843f6c20e4f3a91467ddfad902f0d2607151e34c,
  0x5a24acdda41593e5c8f807e225b6342c07da2d4597985a91b595e08fc9a764f7,
  0x4143cab8425432f91e42ba1675d716df0e2954101c42bca278da2e5a919ce4ec,
  0x715205d72d79e2ee83d3de4f546a842bad2672f6030e4afa5ded2d0176947787]

def cA42 : List Nat := [
  0x33c9f2c02643e3cd81c6b4f6933f5969bb0ee41e9de8eea33a7c151618746d07,
  0x43e35d80af8d5ebf26b28eb046d5964b7acf2201a6d973fb340defa72d9d09c4,
  0x2a60910cf07d0d4c4250fab2500259094db9576dd3525b8bc988c98f3bb08578,
  0xb8d9baeefecf1305fff5f240f14a599cd80c41616b384aa8e7c83b360bb9e13,
  0x60fe194d3a00190d68cd3a98bbb30825c251b01604d82473a2c8e92e955a949a,
  0x2e6e51b663a0c20d52cafa0c8247c8f29245c0c6a75fae94ad7eaaf808d2a8c3,
  0x7cc15c76277207c80da474377ac7fafb1cde1211cdd71a2a2cffb41a2c2f683,
  0x64e8a36d261cb4f3e9a9b3d78b63d3f976bdfa85485263620ada409cc0100586,
  0x2a48bbfe16c8d1420ec8c5223e65830b1618b468c9e1fec756720da5a9af4a3c,
  0x7b4bf0737bf9401b03c5cd5cec754a4afb115df0d602239bd57091ba7ff4580,
  0x574a624446e9325f9e79895e2e04f71fdc64cf40596815508aca9bfd0e15c378,
  0x33b14334d07e214166517625baa774b5ad48cd4a807a9420da0e67ff4821b488,
  0xcce4a07b3a409f057e6a3c276265ea495f3ebb8da9dc568998b31a19099d26d,
  0x58b01a62a0817289566895e22eede71ef6a6b6c2424c6d2f25d65bf24fe1012e,
  0x648a6dfcbb54101d0dac1a3e9e509e20cff01d3c903180659a67e4ef948f6650,
  0x61106714e9901bb79b52c7b0909b77aeaac924f3131b2f7cb4aec0460d3bc04e]

def cA43 : List Nat := [
  0x2bf3046ffa18d5669d1b52271deb3addbce56affda6ea8dd3a80ffc2c808c105,
  0x725fd5170ea1959d755b0169dbdd919e29a72beab126cab4c165db8d9759ab4d,
  0x20c60128e0018808816d10b15ed3ff1196e8b84eb2ae7288f0eb2126a5de55d6,
  0x35174166aeaf8700830560964d0d528bf90b14cf091e63f2cdf489a6076866de,
  0x342fd02fab02ce624e1036668c87c0ddfabfd787f00b4b2681672fbf61c682d,
  0x5652cca34d1801baa3f086ba298c3c8bbc1b0bee459d323a54ac973fb832dc31,
  0x76632a3b1a2c51ef42a20e84171af183372f8c00085ef78323e30636e9c3c91,
  0x452f2ac4c5384f724aa917c5861391b60a259604ea390a617b825cd168833441,
  0x4358f7f84bcbd9da77a30ff12af0328a4449299b6bfa739658a963a930b6e8be,
  0x6a7501bbdf6e136290113cb648f56650d5af49f6426fd8f6006905e1e71cc479,
  0x4e04c6ed91040f3cd94c3dc298f3faa767ab3e6b59f2de871496527eaef84bea,
  0x6716a9436dc486d26f1dc447be5b40284d447ffb4dbc5b9117af63c9dfaa632,
  0xfefb26b3864c64ae2c08205dce087bf49529e87a7a25f625263a74769680a81,
  0x22057f2d8239055e0d5bc4fb9d2bf80a7586d2035859eb854d3499dc47e7637e,
  0x51fb2de1dc5e62c43b566e6b7c8b6a83375fb53c9aaf5bd4af790406ff446e15,
  0x57610243daed4095d0cd660b6239ad216b4a77fd670008a64e98b71e0ae64ce7]

def cA44 : List Nat := [
  0x6c554e3318cf8c656d81527ac89bd1bb986e0d66f9eeaf46feff8d83d9e4e68c,
  0xd3f4d9e5775a1be952a70f89f627a0226ff5ba48979b244e49bc92e0926bd99,
  0x22d42a877753c1a1a813a17414b6c732d1184849742884d38202ffff6de2e991,
  0x6049154015943b870e817c5ffa05605181e0c0fe7a6c2f5fd3df7515a3e8ef4d,
  0x6fac90114d1062ccb97367a0db015c89f7694b85ed530e26d0f3081748c3cba5,
  0xc04198ce605924c89031d5ba09802d79112c02a2a6c156113347455a910c6af,
  0x5b3dfbe2aed04e00ca06ec4fb7b18455bfb9dd1cb3a2d189861d7f6adfbfa1dd,
  0x289488a99f2befd9a7a6abbbdd45414f3778bf592a2e131496f9d717b8cb7899,
  0x56d764eba59782658f6c9a932ffbd72d45dea38e2735d430ab005e2dacf0db29,
  0x2a7b53a8598cf859d89b9927d79ed902bca040bb93bff65b3e9efdf36f3e8e54,
  0x8769de36a6fc2d02c94d8d10d6689dde82fbaef7a98b159c27aa9bb8321b375,
  0x2d43dc47da1810cccc67aa17ecaa28b7a838bb3d0f27b0d848158cfbd5cead3f,
  0x2e5a4352b2cff264f8af3e81a1477d06937041e7280c808a246f0bea384dba5,
  0x669db95c500b66063c965d7a3e627bc8ef2ae3ad456792209962f11de0c5270c,
  0x503b3a3e8508eea694e3d3e49889a428a60a9c09f1e4e1cad6f43a88de931c9d,
  0x48bf75278804b299d0b6ff7e71c033673500854afa8d84d363f168efa6a7c6de]

def cA45 : List Nat := [
  0x733b3d2a737cc76a08566680ef5151e18f7d906078401181b7e134092a8fe15e,
  0x265160a9a0130265dae3ebf66100c6fa6af1f2c5658e913ff799d71a4307d137,
  0x585110afb786bd33159289e976577f2ed3b267eb11faacf73c36832b4b6cf239,
  0x3dde532f769d5f88c249dfdb23f390f0f5faedecb4f7215a52a87552bc9e7d62,
  0x381603c47ad8985b738b9d31bea736c1737bf1058fa31876630211c3f016936a,
  0x52b4de93eadf8e2c0fc5b3e20726ed15c25f68317769db68ce24bd4ee3c57121,
  0x4a2214e5c5af0332909c1d8ff92b26abec242dfff22e858a05613812c63ee087,
  0x18b2c8eef028b2d5dd3d3c249fcef3f9b6119145e9ad6cbed5875d7211a97a6f,
  0x51501eb73801dcf7c55f5755ed6263e02ce2b7fbbbe514b31cb76fd34c9b4f83,
  0x15cb25affd3b941e8d7f5881f99e2e55d35889142ab09493ef65141a784a2a5f,
  0x6d3a2015a128aefacec0998e4956f3629762438a8842ca865251ac2dcabbf59,
  0x583d4bd221989889722756bcad847d1cdab1af8b37bf0c87b6d39edb42da04d8,
  0x3b95235cd84cee2e89e83063444505142b23e2d279f0b5f5e104069675a1cef3,
  0x170cce7763924102fc35592e2fad86736c9d27562ee66fddf410139da5d0a0,
  0x692363612e2fde4058a248f59fa73219c960e53b8ca9f87c13f671177e309b02,
  0x3e2e87a24cfb751d53fb9a57486b262da99585d16c64f5370e93170486384ca6]

def cA46 : List Nat := [
  0x5983eb55cabb89c510a7657ef73ef396a4ac684ea5584297d79bbf2485f32e06,
  0x4239eb17a70ad8a1c5c768809a81f3fba0c69f77c5feeda0721257e6f72975,
  0x10653a7a47ecd0432218565fd764a22d2a21d38ee6d63eff171ecf979b2437d2,
  0x7a761b96ec2165513b875c73cb14bf032218af534dbc919f118af00863a8494,
  0x53c77b5bef6026d00e53ddabf8c3b9eaff2f144f39c6e302e51589da5f082633,
  0x15e2a3bdb5e3131c355e4a49d7d3e5afbbc248cac96c37a65631df922e85a2ca,
  0x60e80de8f0ad80624254788c08dc83ac53578b6fdaa1693ab1f2dba1b34980d9,
  0x3c8b9f442cc40c74d721dc0ec8b306adbbcce2682718f3ffe094d76b299d3739,
  0x43fd39de6ad5055de0dac0c960b4c9e22bcf00a6ff9f863f2ba02e2efead781e,
  0x1ab9e2089de2f53918cc5f2ae862e98e2fa9adcc19b20f79e7d8db3b5de44240,
  0x4be4503a0b33d9eb62678f7be05cbd91fb8f8ab8be920f5a71844dd4a59b5c76,
  0x7130aa0cd2c3f408871a73ed10eef57db0917b1eeec3717549f35ce2c3e58ac2,
  0x5535350bce72f792b88557d0ed0dc39e4e62316c060b1d18df5412c5a33e6053,
  0x5671f01b40d89ee1ce3cc7bd740eed44b84e98d9685d80d7df1136f16e32184b,
  0x13db4a24c4bba88eebf0ede0244967ab0e85accbbe070e422495149e3f435dab,
  0x3e4130cb2a49d5bc18f63cf76da0061f758c46ff391bbbbf3a086413fcf0c600]

def cA47 : List Nat := [
  0x6d814b95f5becb3a5ba4a30d42c43ea331aaa5812b57149ead0ad5b2c95b65b7,
  0x72c97d9fa2cddc5ab612df26c88013fbf68b983635bf083602d7400e2b118862,
  0x34c7dbd5854e9c2b1bec5326743e10cd6be365cf88c4e45d4de7d0f8ad71a805,
  0x358dce1646e1fd75ead481784aea63084d0b791333da158cf19eb7db6be57507,
  0x61ebf02124b29ee5468ae85b7ed073624fb76b2927857e437762345d4d23f15c,
  0x692b00b29e7eefbde3633ef5281ba5893ed9fd29b86f312ec2234ea87deff262,
  0x6f233c04e04e920debc425b8861d79f665b5bc4fbf0fe59dfd91c40eedb678c,
  0x370e1a3149a4baf747acfd47f283160287bb14fa5206c513bddb29908b1012de,
  0x26992597658b73c3af2017510860bae764a431243535ea88ecb1be699df70831,
  0x13a21a9554db5cb7c38126f43d3969096e07f08e2861e33582fbecb0754cff2,
  0x3552e9336c38b280f3fdd2a5e1c7dcb72f9eebaa44923c359e4abe97df76de53,
  0xb7411b6115626f4eade65f6f10bc53a877f4273273e0df1cf2fbd30f0e6d1cd,
  0x2c4618695ef0fb00558b7d7b2d4e2714c810c54c56d645c7df7dbd79935edccd,
  0x5df66305be6f1c70ee19b79256dd6d5e871c99ac8302e13d64deb1baf9ecbf8d,
  0x55f9045f4df8d5418252d2fcd801fcb550dac8629a3687aff2f42aa7c8729514,
  0x498928033dffb0690a010a2386f0c98edc572e4222c204e61f6d57367f8ba447]

def cA48 : List Nat := [
  0x433ba9347649221acd0086296d037046b5e3c192e842413b175a1aba9d8b3779,
  0x28f9774c868413066ae65ae15a8c3a23f5e4efad83666e0d1a06ef70f54a6068,
  0x9d8670e38ecc87b465954052a96c58e8d5eed1d84aff0b5d917f70ae47ba350,
  0x25af47772b82470f9bb51c7448bb3b3f75fb80318c64dc82ce704d8247ede6dc,
  0xb95a250b7ac633d5ab4118a917d81b6e2e122b627dd82c93d791e05e0a4880f,
  0xf8506737ff0fb72ed480a5527628a9eb73cc983cc399e50a725a90fce4490c0,
  0x1cd3f0151ab2daa3901c0e0d9d6c95588e30afb76618254bd755204fdf3f8908,
  0x486a9d1bb959441fefefcbb625206c37f158ea85687d4278ff40d2544383b5e8,
  0x17abe5a88762b245aa336a5333c0f01573b3f662a433e68416fb9f174736f474,
  0x65931bde515a404551a489bdd6675ff9902ab516c9db12a4e3abaf2526381572,
  0x2026dcb04cbd1e4a1281f4d05106b8fb16d04b020d3cc1c5d5b98b31d0b2417f,
  0x2254e7abedb0d9d60a64ca3b91de38e16033890c9cbb91abdf76940ece0bc186,
  0x15e70320835b9400bd96fd96cc5cae6a43608d5c2276075335ae744954db6745,
  0x35b48a99a1a1c72a825c66523324fd34afd4b37fed232572fd5cff22b4de9ecd,
  0xa2e719706ab30e5fb3f622775f4a5547b3b3156c4a7ae613f838932a336e8d0,
  0x47b1002d6697fe29e3d38824fe319a1ca58c9da699d284da725c76ca33146b48]

def cA49 : List Nat := [
  0x605d86efa71d3f5bd8fc21f8823817fa80083f53c0a6319a76b408a78f92d115,
  0x2197285a7be9eb1e51ad695ba2836044e13cd1cf20709bf8a0c093004dd14fdf,
  0x1e76c0caa0ca882237707e2b45e9c6478636225cd112fadb3da9264228e5106b,
  0x3902812cbf5dfc0bf9398dc42b18dce1123194b1883f462371a077358e873f99,
  0x148ccee95ab64b4f11fd4ea1d96028a295343289ba5da5e16598c2af3448141d,
  0x11f49a90987d8efe247c88fdd620972fee874df2d8f991ef2292551cfd763a58,
  0x5c521e68788cbf1e85236e44302d701ac33ad8ae2b001b7b7dc1a08c927e2e02,
  0x69f399792a85255840945af1091240083ce9b838b26fb67a011bb26883b85c47,
  0x35170609e70397a1973cc00887f170498a15e676a50b7664aca9b6c8b32b1354,
  0x72dbc64d0f1a8ca35f68e22b4475c18e9d59d6a2f635d0241ce7e12525becd44,
  0x184fd0c3f5b73a36d0dfe8e7882c695a5d8486b3200a2fc005980c6c5c888dba,
  0x641f2e07534e2a389629e4882fa775c1b1f8431130d91ea3877073076301147,
  0x16abb6bc2cd0b988415798a6157fab334e917fb98f30bc587bbfd961ba6e5266,
  0x7e0bc6af6b7ecbb0c264c99c8d57b575312d3bd2a1a0e3d02cee4d4eb811edf,
  0x38025f7ebfe4afc5f871f64d46b9b08e9be61f4026aa3c5b18300845642b5c85,
  0x1dfe254b5a3e54517c74bbac1080517bba7b8e1ecb1c0e73f94ec1c5d545ab7b]

def cA50 : List Nat := [
  0x1a71764d8d57a334eff8d552fe154f6b6d3051f2fe04836a314a4f1f4d790885,
  0x64176fde457c198bcdd0b65991e49293df112f6c9ef383d4bde051d56516ef66,
  0x224ea8286894e95ca5512a859afa3fb31d1e74ec4f118b7eaf1c1db2bba2d92f,
  0x22b2800bfda8fd28f6679f0b772be9d4c334cff7a5819ecd9cba3f6ce5851d21,
  0x64ba021f7750035dfd072e4761967f9fa135c124365145cb36aab93e4752906e,
  0x1f0aaa358b565179f0715c9892865a83552f5ea0789893ec520a5e538a4d36db,
  0x637985b8be44092b55eeec54eea83e26e5bbe503c0c9c65b5fc3bfd25c9d2362,
  0x137b3f616ba5be285badb9875cbc8f9685aa2e68b956e134dde594f9e365cc3d,
  0xd63f7a19803b123c9f439035d47b0583a822812ef13e9c4576d5a182ada7be6,
  0x11ceadc5c93bedb1e749ee26f2b4790219fc2ca527d9503daf0950276c06e9e0,
  0x6148cd319bf31e5c6d903cf5f3cf6e040fa72fb3769ff4ecac8ead69ab481c1a,
  0x50009b018cfdc8cf7601a1cbdeadd0fdb75cd3e8ec4486527778d65e779960c7,
  0x5e84527fa6dbd2946a50e015675584f68195a6341bff4fea780c2c90c2b2a37b,
  0x4cdc44b06a6dd60a91f8fc91d0ec38a2f848f318cd0c65519f616dd05bdfe7b,
  0x4e7e7d834a0060eff30a11e55849c902d188abda3e543d65a871574fa3ff2e9,
  0x5029a8a06b2566bda01f047de484b33ec581341654f4d70bd888f8da32158bab]

def cA51 : List Nat := [
  0x5f614ec1bb170e806713c4cc7d8eed22fd5943081e811408016ef677f5d6ccd4,
  0x456e81c30c641a7b9e6d220bf409ee1b2f7dd60c73b92198251e2ae4e1ab246a,
  0x42b5c6eee4cffa81607b70bf80c2b31b3b16ce0be1e58e904ff81172d55a68f8,
  0x2704e83cb440afdda3eb9aba8782b80a29429c07818555fed929d3ef393d59ad,
  0x3e42e8d1335b12ac7e103571288a49f03f5b77fb280792001b821f6902c549e2,
  0x55bdb2fbe9b3ffaa4081adb3fb44dcf15fe42aae202e2609c0ee25cf2c739fa5,
  0x60c5d606a27cf7d9b179318b1de0298f175481ac0933d4b0665da985561fa416,
  0x252e26b9f6a4bb81fae75a40c49bf7ae7044f5e3f430fbf814d6b4e18b6a6e42,
  0x47c9568ed4a88a801ac798bba2ed4cbb83959ac92fbf615d667e785edfb3fdf4,
  0x2125ae70438b4870feb4fcdd50d23be7fc67a8b54ff8b661357dc385f92ab8ab,
  0x608df8185cb65b052d9552a1d7e7d8837b30fb70b9caa10a5104244c6fe4c792,
  0x56e0e957dbb945ace2c2421121ac9d44780efab4ac0b97f7b3a31e99f2713ce7,
  0x6308a072d05cf002a4208d0a5b033996b611e388038a8379b8d21af1c5ac91d,
  0x618ae5fe8d74f257922800770c56435364e41ebde1a78d2a6245e6d9d506fc88,
  0x5f6a6a3d3485cfaa797ee7f4d40a1e929df66620ab68fd3c5255b8624c9208c9,
  0x5a395dcc23e6097afeaa826772c3fc3afc68b89575c69be3ab6cd240c39feeb9]

def cA52 : List Nat := [
  0x3646e2fa7291a0941c209fbf927a0f91e2ef7f1355a05a6ef778469e7d0246b7,
  0x72333ca444010dca721419773b8646d228dcd20a8b379ec5849b50845927902d,
  0x2ea3594b98db777ba66b9b9917cb55a34a79a289ed5fd1c77a472eb44a213ad9,
  0x3d8ee1a2ee9a7df97bda4027ff1af3e51d0da47d978eb6f0c5aa331cb50ccc4f,
  0x43623b51e65489cb28c6afddd4380b4c3f20adc16e93b3094f687d25dcf622e,
  0x3d488c7c1a298dd14d5517ca6bce07198ac13cf1cd9e5075a4aa1078a6123ec1,
  0x4933a81ba972dfeeb7162a6e7a751e902c47ce5853b84223f494be873919013d,
  0x50d51b1562d0ae726c3917dd8aa73fca5dcbff8102debcf92356f51bf8416075,
  0x2f1990b97104c4c888ccdef81cf29fb662cfb71be87d8571fbfbe92d418becd2,
  0x5eefbe0995ec97667dc28abfbb21ae45b09e4f1e4f0e00718e0548ae75f9af15,
  0x6da04446b00328e74ab6bd2e71ee490f27c518bb5798953fdb2fd06535a42ef7,
  0x459db00b6794ac781c17ae5fc7ca3536be296d1ed9129930db29dafc9be3bc11,
  0x31e45779a4db69bc5f01ad3ac1a560e5a230ea1844010cd5266eb5dbc397a8f,
  0x23b1b12c8081fe7bd15365f564d6d607a1d70469b7797588fcf07f81ed88292f,
  0x43bf2f82cf06b9cb32ed057a71e0a3b87f4b8aae91fd09bfc45a3f9799575a46,
  0x6fa8d4e8d58a8de27034cf59f6253edc05abd75edbf91cca9121edb15fa98de0]

def cA53 : List Nat := [
  0x13b815481c7212426dd713afcd10032548de11a52085d2be3d85718b55ff3ccb,
  0x385a7ff8088f1e8180355f2816aa29a478ee0be36ed72b41806cca9e0b85a7f2,
  0x428cdbed1b4cdab206463d4c5291d725be0709ef2c76fdc6f86ee1cadb82b82d,
  0x2ac28ae9c5fc5a6458004dabb87f53680caae0b5ac3b1bbb304f442e18844990,
  0x701f3329921a332dc24c6f7cef2349c3d97a839176eab6dc828ea36c26b53fde,
  0x52bb2a6acbe17e55babcd7676a7ba5119c0947cc3ef900de21ac3f78ceab4db8,
  0x2b3abb21b9e04b01efd73518adfb4b5faf94a45a199e4414d2c056501f82eaa7,
  0xa78cf19e7c1aec9fcfca1b286c2c7eb33819418a8041cb9a853a9a7ae289c74,
  0x6b52f5f3b47c4c8bb071d4bd00b30051ff3556d52cfa17945a7d09868acae4c6,
  0x382ba91fa57cf9e5bda82e74dabd95b2a74db9a8f298d8c45f10c0f76679f57b,
  0x3c17133970d643e05a116db4d5df51d7ea11425fcb2bfb4defb5a0d2b789319a,
  0x5a5820279228e7e95a50912ef3d6d5c59c47e550aef400c6ac87cc2b53d51423,
  0x403acd78ebc764ac5627fdbdc1292295d4a4bd36dd7766a5cd5c30b335947dda,
  0x53b6045c9cab1232ed37bfcaeccbf2e138a442bed732d567dec6502495a25ec3,
  0x2b437d357bdc2bfa2a4ec35d639dc2ca0ec65f8ecb8db345e3dffb39bf5146b0,
  0x57c2ba995f1a7203859f58d13b239eb8561eb8142efd92da3e1a9ee490edea0a]

def cA54 : List Nat := [
  0x154030825901f6e482085d3cc1bb1e67c715617873852befdd16207ca4120dfa,
  0x5625fff30ee0fd2a9f761cb2e60a30cfc0a749c86712305b6f08368b05cf9fe1,
  0x709cd9d57b98c80f2cd3785a80943a411d116bb18eda147815da21ab4c3f3478,
  0x48b008a9b713922f6c699ce92b017b6f5c7c711dbe90f6c7557a8d33daa0d3a5,
  0x725834a59b704ec7118e716bbaf7fab87522b25912f2ba142c89d5281d57329d,
  0x6139137cf70ea1e95ca85231f30283b34ac8de0c2c7ccd39a1fbbcf6176d10fe,
  0x1f850d8d844e220360ae448180f723f7d3fd9987edbffdf3636532cae8dd8d5b,
  0xc7d74e7774753574969946c241c7a1a1fc4101df24785bd9d13aab380b0d505,
  0x641b8bce371199eafcefddd1ea66dc7776f62bfdbfc96915291f52164e6909c9,
  0x18a4411811ffec2cecb111eb9e099802db5670a4ac21d1a85c51c8f4e3c62774,
  0x6024b221af631b48fe1ef8ac8fbfb3d08b38a9acf80c8ad5d3d07959b463a226,
  0x353004e697160f40e27dcd6e6ef2100725b3ba8e8256e44161c5b36aaf56dd79,
  0x3e9c5da6652787c1fa2ba2e183a32e47c7d9583305394e0932bb52e0b2343b9a,
  0x1160593628ef5ff5469299d467ac0c2076428bc7745ce068e783d862f937a66c,
  0x2a656309f4674be8197903e4bc5789c6120d3074c35d7938d68e4013542e24a7,
  0x14aafcdbf52ead4dc022db7917127e468014843590183fea1250d5dc1cff5b55]

def cA55 : List Nat := [
  0x610f5fc332e88f771d1db93533cfc2422179d6ad0c642f923940e506354bada1,
  0x704c9d28b5029bbdd222af0845ea5f4bcced689837dca9b4c7528bcd8640c66b,
  0x527af0f1bee5f3fa67507dea37fbd913bf30cf05e5d1f2a0b07caf94ac4573b9,
  0x18c478966ffc27c2db6fa58888eac165ec8996aa4bfe986f433e457f03d335b8,
  0x4f4829946ba7071c315b31d70196bee29b1045e5a677437781696b277c955bd6,
  0x642c90fd3fe831618d60ea1b03034c2825de0261fbd2609936dee65eeab14f45,
  0x3f0c43e85ff48f50ecb81b0d060388fd907f0ca4aead6140db14faaa06088ae6,
  0x6d31af38c3f65b30f4bab02ea1850949a6fb46c898f2451e3696c52c30fbc62,
  0x5878d9aa7d686c68fc3c841128f457c1c6542a81d6777bb0ba2cd2b231741e00,
  0x62943a7c5270e7831391fe516dc565d3d662fd50760977aee96d72fcf1ff7e15,
  0x5f0365c11c6b1da19eb4d99500cda7aa4858fff53b4c28e16cac9aea9dfa0feb,
  0x6ee2d00740f9f30eb38631cf89817bb3b143363796cc3c4eae58808da047b13d,
  0x530cb92a2f371aa8e0c143d4c016de25d08f029ba9390c937771d58c7f728873,
  0x269622cf917be437732c4891a45276a89bb30dbf49fe6f0ecd4f723a6afbc954,
  0xec2fbb70ecdd3351c61f036c9e63606c3109ee67e19078f7c2d6d7b457f42ec,
  0x27237fe65bc18e7a88589e939e774176879a23d7163ae4af7f13320791549c13]

def cA56 : List Nat := [
  0x1b7b1ecf70228c3af6aa8bd094f48c779775af3d9f102ec3fae11a42d68b1889,
  0xaa52690de9d7ad07901ccc01c8b6bbc649e364218533cd3f4f0592785446721,
  0x6b85d0f846851181a304209772e1351b51ace4d1cd0092596e6034fd669f385b,
  0x623a86e43709bb2596ba54e2617efc6e15a679f227612c1f883f643b106ebcf8,
  0x3106f72ca792580491ad4c2aaa797918c7cdc2507ac547bb3feea65f2c3bc352,
  0x29070004a2e7701d88d0860881bae724942233dbeb3ecb4dd20943fab333376,
  0x6633f332712e2468f7fab708493bb0c7571584565d2e99d7709e7f3533c20c1e,
  0x730c6ff026477b9628521bbec3b09b7998374541a72ecf53e974a3b7d4e0f597,
  0x6b99e885bc89095a755980fa845dc74ef93abbb834116e30d65b38cf775a8445,
  0x6ad1d0429820a5af0f6821152d7b73959fc9307d4b6f1fcad13db5dbf78b3ed,
  0x52c67e943844b6655827977fa041a12a60e95582e09027dc8095ad8224649fcd,
  0x73e313bd2efec81d8f22119a455e569ae136b3ee2f525228dfcd82cc67e85568,
  0x4df7906a683a7d0a7ee2f1a9c0368fce9532809e049343281cc768d4ad06c7e8,
  0x2542b020fac1e5e374acbb03ce988af40035de574f0d7b263fb13913c6f38a0c,
  0x534d79e464b83761b21318ebbd2078a92dc795a423a6242c218989a7fa2cb4b2,
  0x5463ca2fd63f7cac8d57b138c6aa269f6ff8ccfa83c7c1d238e3f346034f36a8]

def cA57 : List Nat := [
  0x4d9f7b927895dbf84ee46750c2c7664b6887a4890f3ab267370d102f799b1d9b,
  0x62e0af27c293f4a30e353308521a7d890bdcfb04f6b4cba59f07e330115542eb,
  0x226e54f5d8ba0c99293c411d77bf6b32fe5f368251aaf6169e893501a59a2aea,
  0x484ff716c2d34a5bfce53309c8cd3232deb7c1e287af75231a61ddcbe2e594b3,
  0x3c544d7cad2b4d7e5a90e6d42c42863a1697d166965cb5a1f4dc3d721455a3d3,
  0x2d7b022eff85fc53d3a7066511c42dbb76185cca148785e41829d6bc33dc1110,
  0x4b026dda78dc757da83810a20928ac62b972cae22d5039c9f01ed93d916bba58,
  0x6aebbec7ab1a3543a09f6aee4875558afd703886410ad1e73cedb8c7ddcf25f2,
  0x46a8007ed0c564da079cec7d9a84eb0ad935c4f3a515ae83f56c40d4c852b59d,
  0x14cc0f817296e685a76cb37b388656b3c8b39c0958057a063950c28f80eaf1e9,
  0x161b1dd2e74d8267a0bf2fb7a05861fc56dd8a06ece30076f5ee5689005f36ac,
  0x33a4e91717c803678d6775f429b777fa6eb9520682ca6c0da136c076d188484d,
  0x7282e3c4cfc69fd519aba6bd336d3301167a2dfe24fd6e3612ee1c52c0f5c415,
  0x3b9c84d11274d153119bfc9d1774b646e4316282256e5771bba1a2eef0266cbc,
  0x216a84d845cd703e132d0e1fbb02de8eb8c355567d63b34a6f3b321295aa0e2e,
  0x5b1aca38172d25ea2f264a59310d678b5b6bb331b78de7d2737b9c47189a8f93]

def cA58 : List Nat := [
  0x6f7bc2728e722ec9ffa0dd6dd47b33221fb8a5d61059519faf9e72cecfa9966e,
  0x949960c30841a902d08f4acf4d85bc966f2d30a8d164665bea07489ffa6cde,
  0x1885e7b118fe52ac64da12fd207b92ed4ca8731e5c2aa4ddc10d6e61367c1422,
  0x477d136c4f10931a8229b3a662c7d460c0a8bb52b0c13dda75767f5311352533,
  0x6b992a85d826279e8cf6f3f79ae7f46f53914a6d90d66f28bed02b917d97753c,
  0x15267c26892c291d975a871793e1296d94a0880bb682041859e05c06eb356d70,
  0x2e306608adba5b301af959f88241a79e01a02627fbdb0c5fc66ff900c632560,
  0x388326468223829f80eb837b2dff368e5021b9c9e629bdc758e4590f3b8c6e20,
  0x15badb5e1049d09463e95126c77c152f14b886fadad1fe9a0a71cfd2030b7ac3,
  0x7291809927361b3c5e69de982aa9e1c76492d9c0a7a4a29e859796ad81e987e4,
  0x59c88ed4c8ab29f9f0fd148c3d42d44516026048deab35d1766651af29729a9a,
  0x283935709607aa9a81314574a63592090e4d420bb1fc6b674c891c83ab8b8ae2,
  0x7363f7c33bbe47c39c379cdda66707ccaf08e977a0015b0d981db35a664d9ab4,
  0x4283d50fa70c4ba6c622b404dbad4497581de7d1d37be44983ef6b19c94e3dcb,
  0x328052d4dded61dc0348f82524769a0a519d135bfd6b492b5d689f89b9404b03,
  0x2a0be94797df1f9ae7244309d208396e79609d8795bb4381b05b530cc6e962f3]

def cA59 : List Nat := [
  0x46f2c537f00d842612c18d2ad91063354403a4aacae800acdb5194e5729a1521,
  0x43ff8f524e62683ba7306a06611a687ffa9ec66b46fa0686b9a57db05e26570e,
  0x6c9eaf7f3a06eeed04d74e602d79b3e35e5a89b5e4bc80eed7d38f5f93424b66,
  0x4b7fc6dca3fdc542de0d064a43edbb214c7e9e10e0af48a8c1f616502fd0b8a7,
  0x5c92216dd86549de06d565273d4494073b03032066dc01719c649aaf97698663,
  0x3d9fca0fe9ccf33d565e114109dfe4e806e9977bdf6ef39d59a091fc17edfd7e,
  0x4371c93163c32343b9aadd700290c4c3f017e95193edbeff90304a581f50e69a,
  0xc913e7fd3a5d4d911facf2619d82bc53b9557bd3bc3b7498e499350d831f239,
  0x2f47b874627ce793136d17da8849a9e01926f897139f043e7a2853362ee811c7,
  0x1854ed2778e78d6dc1fc36a2c37a29e95b64c49f330e997aee96a96af9daba95,
  0x41dabbd6c722bf91c081a6c8a8676a6181bdddd91b4d7d48f4c97c7861e89f71,
  0x55afeedadc794e9c59e34e391b29fb2214b8b5f4172030ca61cd059e29338219,
  0x22942a2acd042fd55fa081cb0def394383d277434d5359bc7e0eb8cf093ae23f,
  0x638fa2fec318ca9969e5f4b4d49939a1118c946338e18c0af4c93fc94a354dfd,
  0x57e95e75fed907bad5e27980d002a40a270b658a2c0f67d5cf896bd7b54dcb3b,
  0x1237a56af466953beda232865d6aeed8bfc06fcd9ce78a008ea1fccdbe3fc589]

def cA60 : List Nat := [
  0x52bcaab9f02d6d3ddee34c16588f3561c093349664fb0b01b4a5ba6b679335d4,
  0x68f86a19c93836edc46488e56a45fbb282448026de1b51f451bd7f6f6df33551,
  0x7316c7884ff255065e549fbaae0ccdc5e8cc9f9ac7acab7e75f9a0dd0b7de4a1,
  0x248cd796bdf63236b19252a071a8b616eacc4d4b3865d7c94c6c9be231f115f4,
  0x1b8ac8289ee85e41c882fb7e8166d0e595fe7f8c5f002de670621eed1748571b,
  0x3940a26457e89845a632fbb2f7170bcf9eeebb1f182ae73b16e8cb2967968cdd,
  0x395d80e2ded30f1282b0384eb203773f669665767f54e1f30b59180cda1cc837,
  0x4d622b1999392d08b4a8524d7a3ab996fb0a76d708d5b8e6eb572bbaaf5113c6,
  0x1af0256c3bd62ff8d11d5e8efe3cce46c0780bf378027b8aff26d4b39b688b9f,
  0x2260193fddeb016552187c4b1bc3785f6ca79ee5849ae41fd778d5ce611e1e00,
  0x666ff42836010e411f3c52c303f866c730c384c84623a07a3de7027aa646a00c,
  0x247433b66cadc5e1755426bfb19c12f36646748f2930a987ca768815eb278202,
  0x31bd5b1c94248d022e3703e463b44aa0e04a185252ee6bb3955814ec79735bd0,
  0x520f672a544c1da336ec541a18dd768d20da00a6da0876b10ddfb47d837f2764,
  0x1da34fb2588ea3df24c989acbc645024302675d59e946539ee47975e35b1deb2,
  0x50c0a371ffd5332319d4561b667f335d4e9653f73aa04173e6f5b504016b34e7]

def cA61 : List Nat := [
  0x4d7ed20e5456525048c5717f7f02b7255c77be513587d817b1ad165a7970ec73,
  0x9cb7a0bee8b16000686ef5b130282c3c7a3a8c765d63bd802fee41c5b4f01f2,
  0x2e9f202d540a255e45a831faaa3fd9ba41009e5ac6c0d0e4fe90fcdf3ab7fe10,
  0x713b0906aa71068b90002088600ea182dc1d56bb09bb8c1995d360816c993cc2,
  0x69b145ef09b72d4833c35152ce8c3d480c85728db0c8b1e8a45c3acf922488f3,
  0x3dab326e40f3acde546cdc12a59a90b53d1fe7d88416ecf58aab1a588ed0c03d,
  0x291ca58aa09253a9faf44ffb9ab6a99e2af29a7c22f9a72bfe379705f8480f40,
  0x4be84b7c9f2068773a7adb3eff3e747dae73d9a74a0e18c318c62078b0aa7c1a,
  0x46175077ff5e5b226423999e58902272ff8707868d84951a7a91ea4cbbe5d6a4,
  0x257742573d9aa95e071806c8d86bda4f12a5422b9be2be9769971892b235642a,
  0x27b89184befbcc88bbb42beab0e1f3edd92f5ebd5d47bbe3efa062886dd22ce6,
  0x58874712f9452ed896c8e38ffe7f5435d03d8aed2d2a198b5bc0997a2cbbca94,
  0x26c919f081558ab477833ed2175a5322bc67582e44fa1a03364b0ad7aa94eb72,
  0x43209cbb69ea20a42728af7840122a191cab1cb8915a2c0cb95c8c58e959f89f,
  0x5200f521cafc98c5d877db54aa0cf2d77d968d46ccd6f5a6fe910cb9d7ba132b,
  0x72970230ab86af3062469c4d01c814511e04aa8e9eb95b75f6673a6f658281b2]

def cA62 : List Nat := [
  0x41e317f3b24a14e973663ff45f55a2d7fc4f7627fdb42c2dbe8810d93e857074,
  0x1246b5d28fd98f3f88c00bc3f231e3f7503e46651a9505fb983b6d28b53a3745,
  0x272002f5dcd2effbdd8e6d4eb1a9ce9bb9c72b4a7a0f7759929ae1517672ba1c,
  0xf925d6aa4ed3c00a72a7d72e3cafaeba86531d34ddad4dc688910124cf99902,
  0x554a8d40d0d39a3e84eeeb97722d53669b58044fbf9ef98efb19ee4f53147f7e,
  0x193b62edd882f79a9bf6ad5921fd1b5c257026633bce0035d005ab66cfe3f535,
  0x42d6addab4de545d99d55c17a18d33d2605be310d5205ee3424ddd56190a7dc6,
  0x48e8f6f2891ec0b450358a0ef9fc10de2c24acd793856459c284fff09f2328d8,
  0x32432d3800d7b8ed81be18aa6c3b71226f06d811b35529c4f58aab348f0a69a,
  0xb4673938394127a6463fd97858df4274dd4800048550b1f36917c094583014b,
  0x268813896beac7bc5fb3bfb01870be58fb09605fb831a7cff603bda309479e12,
  0x16925e575b6ba23a20ba87392988580c02d23dff10d66463e030372e222548f9,
  0x35a3961cd9550b072084d08f834ab35327bbffaf27fcb7cbf2a452b25212eaed,
  0x2acfbbc1d65ba254581a28fd992e304d1fec4f044cbc08c4573d7da4815ed323,
  0x54f4104d8e797f47180c7ae7997e89c5f7e223c30a8a31152b0d203d84174e12,
  0x6a46c07e67741eb0b5bf440fb5aa44728f6a5bba78aeb1f3c39680c081ba25ab]

def cA63 : List Nat := [
  0x4d095e2a385fab2f6108a7330d6a85876d4faae3f6c6b9589b28dfcc9f026680,
  0x226ff0de5d32aff616795af1d86c002f7beaf9f99cea3c9cdfa5388a225eabeb,
  0x10f4fc56e311cb7d798785c94ea9defc3e397fd2b00b8fb51efb9288890a647e,
  0x11ecfacc7cb7b1226bd7ea1fa569365583e1ce4b3d3ddf526446c8db096d92b5,
  0x1d285d8e5455553d2d42c1b6895a369f9295a9ec2334cd298f4c14a9f4668acd,
  0x385c730d635e371a9699a86c64f15ba4d88e6bdf88309271888a549bb5fbd5ed,
  0x66863af02393fa22bd4935b706455c1be08af2602249828d342498ca39a04d76,
  0x6a5cabd4b09f1b274aba625c14bb38ac8d504da630ed467413ac56c3bf4b016,
  0x3065164f5b06cc54239247f82332847a1b8782d66e0556cf7594f5beafc80b4c,
  0x3c2f13614aabdcd97110609e9165df054175d5dafceeb1786de89cb2274efe4c,
  0x2c26ff87a77a79fde6ec0bacdf46286983a1a188100e55fd3e47d47de7eb596d,
  0x3690510172272cd223a2500d671cfab832c261d5ee1cf158889a8704239b5898,
  0x73e31a7b6d89a09cf7e51e3d0214d3fdaf94b6aaca60dae7ce4aae5b2b7313da,
  0x27d090c429e1cc824500fd549ef76e824a1f6187e247f9e975bf3209046ca131,
  0x1152f05d989aa0d7bdaf2875a5e393acab15f742ad7c54ddaf63ab8a28961caa,
  0x2d0c1deb128d94baa03f336ed9cede114e291985b2ee28e425c75daa2499864c]

def cA64 : List Nat := [
  0x8d51ccce760304d0ec030002760300000001000000000,
  0x52c70ef85e8508aaa9ea551f465776b7bbe7a521b1d1eb65e71b4c329b11f85b,
  0x7090a32f3477144cc0b8a3f542672916f2f32f1a750930eb62cd17e219ddde07,
  0x1411fea0698f1f781548627516498b223d35c9d14b2a7625788c1b68a7a990b8,
  0x72b0f1bf8a20a993ab67ca414dcab2de3fcef734e887b208dd7e3ebc6ff0fdab,
  0x2c239bb27da57895a7e5180ff642adf02455d8a38993186f5fd18e398b90f0fc,
  0x4bfcd80a23d8d8d9c7ae79c2d236fa21dbb8a181535e3d94cedde027933e1cb7,
  0x6720c54a6e044802d22e5578a24830320478e3944640e3166e58f487d40a09d2,
  0x5a84b861ab1b95fa956e2add41ea68987fd6499357e36219bda7c5df0c79fa43,
  0x150d263a03a5e6960af4028cefeb1e7b2f2abe599e0c480fb3ea7b96bed2f329,
  0xa20795ca5a7f2783e7d14c0f1062b5931a14f69e5956d45da8dff8678ba741d,
  0xed374b81379d4d49d8de81d4a70c62518afd39e4420e27f0894077e574f3105,
  0x4a610f913a3e3e927ff1503ff008b5916b347a7a3e03f627b2328f472fde82d2,
  0x2eb6fb193c7d3d4b7a9ffdcbc4bbc590b3afe489b43b5d52b12e97c2fdaa8614,
  0x71d1bfe07e3e0fad2b9b03f2c7682c70753de3d9ecbe3338f5aa5dc598e06969,
  0xcfd500dac571f5062c0b1d14506558d933350af66b60870e6d6a8aa6ba2c121]

def cA65 : List Nat := [
  0x3e1091dd9624f9cf2101effd03a210b528bebce273be10ed9d03e15fdbaa9a78,
  0x6a2a48a94e4fd67976b326560efabf521d8b3afb52c0d993cfb31aee4e2d1651,
  0x3d51d7eb7bbe766a9b2a3f01be494914bb6013b1bfa52763ce281d59744fcf8a,
  0x29f76a3063b1b51142312eec28e7ea06bef073ca41dc69473e3ddd50c5cfc306,
  0x5db7f55dcdf0775f03e1a4e348b8a0ccc41b5ba8cfa047a736cbc552f8f42f7c,
  0x600125507b739f30a1352b282299c8dd39445fab7eeed980309f127ca8393e21,
  0x455110de8fb0c509061fd7bed7f4ad02c33430476f7dcfffe92b5e2bf9e72071,
  0x566351c3ef3e967ddc9b2e80a85c6550045488af84453b88fcf3ed3ba7d5778d,
  0x1b3a6fbcf9ead6dda9367a60364a1aac98f209a651ac0260443d519197bde404,
  0x437cdff804e7a8a30a8449565526528b33fdb46f60ac19ad411b104dd1aca30f,
  0x247057d6181086b56570f292895e8a37a9415f667b1927a208ba424110f5d387,
  0x5f6eb0c5e489f2b79c4b1a7fa0827f40aa63ad8883b9b1a69b286edb17947c95,
  0x21f78ec30a25862fecc038b0094a0e5f92bd6d84e36b67c99c45771764258d77,
  0x33fcf0763e7c089e87ff42bf8ca2b3172abdc9b31991da9399da4422780799f4,
  0x52a1a1e5ba87e40bb7ac0a449b89128dd14aff7dd123b5cecc63a369c86ca586,
  0x72e3928a180bdeeaa3d8c5472f554a14d08a8fcf6893d4452d00dfbb5800bfe3]

def cA66 : List Nat := [
  0xbe5aeb09e1f2c22f420f4f21eaf8cad79b0d2103cd70479ad0095e30eada2f9,
  0x243f181b7f4d87d0a6fee0c94bc3395b687db7070e62dad69a6e68373ad80a7c,
  0x4ed4d2a13c6991abd4d26774c69621b550967718dc08421a101393b49ac4204b,
  0x5218c1c98d879e9f23c5f7bbea54ea1d5f70b5740a93fd734189eb7a3c1de4b0,
  0x73b7fcdeebb5b91d94af814c30776c2faf91620dd3a8ebf7afd2a759512d2ff0,
  0x1918c58c597becfd3c616a8d9c4068d8a48aa324310440efc1929ebefc286001,
  0x5d85764024beb27752c626a8a8305376a4ad6c16eeb3fdbe4749da5c3e412725,
  0x237e37608ea84051af3dfee7ca98686c45605ad3bdd7025d797ae0403b10b4ab,
  0xa8f42d6a4d1ab8a524a99ce191c67e7893190194e0a8c2a1505b36bd6452624,
  0x19b86c565a473b226fe657b79d8e322ca1fc3781f2ca966fd87a247a18c14035,
  0x1313261ef2a5210f84c8583229084983893ae98c6ad54400fcdc871b5b6734dd,
  0x509fd5604308fa4a4a4c81af72888a6f4b815e2307dc1f8c036b49533223b9c1,
  0x1036b9ed4db97f97cc22b3b5969bd2fec066771e9c5a6acc1842e3651e25c44e,
  0x39fb0d62ed1ae24332d764947e2305284e66a6145ab4a1ab7941818ec77fd67b,
  0x24c7f996e56c77db4a92874bcac7a634d432cbdf3e40d60667b0bbd48e610120,
  0x5f8028946f117a5d1a2d7d4279573c47a8c46e059c2c5af97ad24a6a66ea1aaf]

def cA67 : List Nat := [
  0x4e2ca421f110ad5f3e61cc2fcc6caa69522573b738ec4bda9a6e95f2d9c0e9d2,
  0x2768082ccd8a4594273705de1d1b90d881e91f2c5894dc8b9898c1e40c3a1e7a,
  0x2566539b4eeb5fdcb8ce9c931cc1bd2a3f6b379857f970d1b196c8b9602f815b,
  0x1a17d4025d7ce7b294735305b1453deb339cbd9e794ca7a80eb5ddc8aefc84d6,
  0x3462d4089eb0c89765c62ebc2c0b6d33a0075779bc750321806c4d74a03cfc1,
  0x46c42be6817bfefae9bc80a9d6ab6c1827bcea66018214c76bf17ed736189d7c,
  0x1f5da30e6f16fd2c17d71ef59f5c7d2c48ee122767804b5482ac8ed58587b9d3,
  0x3594985bedac197a949a196e51e4263edc33cc2e97e81b85d62266943d70708a,
  0x7071f73f1f8feff47ac56eb93586ed641906d36deaab795c5bb0612a1776cc12,
  0x25d9927fc1eaedcc598d392a813cf95960408e6ae50afdd28e82ed6de2fe6008,
  0x1daeae6b607ab7d92ec4b3a1034eb4cfed911785d2bedb4f7369b753a5c9f385,
  0x647149bac9133aeb21034c744c9da5c081562ad171de8cf2a593e979e5c7bf6,
  0x574647fd0c83a5ea54b0e21b159cd2376248c8172bd2e5f76df9d1a8101df05c,
  0x3acfa11f9c247ce34e7c04802c1046a25adee626ab0e11cad5bfab7ae82b529c,
  0x5564828985b9d76890e076829a4b925b4d6ee63b4a0a1bee11945923828bff56,
  0x1015fca382a9fead3f7b9c126f191e3ac0ea3324ce04551b40074ab5979a14a1]

def cA68 : List Nat := [
  0x1161c948076f2a282588868943f5876ea1874921e509a27d380223c4d5a56e44,
  0x13b2186dbb5002c5088de2efb3c078343fb0af988d66412757ddf37352084289,
  0x6440a0f99835c9035915c8de477c2d0f27ff62c8e56c98f4cea08e2ed3a8e12f,
  0x409303429864910e8e56fa3350e6317f437e55ff82690e493a011f55b9edf01f,
  0x33aeaa918c7a0cf0aede93282d11a1b2d5d525b4416741ee97914d4d496e4c99,
  0x7390efb0e51bebf3f0ec771c0fac2b6b627da625dca1e166539f74176ff551d,
  0x4f9d3d64362fc8939afb8f32fe6912738bf578349f2b960e4aa4c726fed5a4f2,
  0x54d4e76701c323239036fe7cc2ced4a43697fe5f5f8ec86a28b56e5d338da273,
  0x27f497bd96aec506ab39aed1d0f51bcf947e8e8951a829f5d5d1f8dbe0914a71,
  0xcbf0d7313a214ebb07d6e14dfe29507f3105f30d1e5446637c731ca74e3f4a8,
  0x81afd5b61da7b091dcf5b4ad91ef6aa1f032cd4e7c9c33074e97b95506c3a7,
  0x436cabf7ef036d1f9566a51590700578d3fa9848f0bd501674e444c06c476c0e,
  0x666e63ba0c3b7a7913f8c9391d7c768c0488f746d0fcaeeff2c669d2bc6258f,
  0x62887c3942fa7cfd9aed68d099c5eb4e6249b65c7d1fed03f5b384a538296,
  0x4581cd9757eb189c2fdc38a3b18bcc0c4170b7665e7000e9f3c8db66e1f04400,
  0x2b8d46a7003814719d265ff0fb4d1a5cd87b76cc32984a49ea89d20c6c8190b0]

def cA69 : List Nat := [
  0x9a9375de1645911accc6df3380ee9bdc2777fbe78fc52ab417d6dcaa7b43ae,
  0x47a14e2cdba5a2b0ce714a9eafe06b18b2147bc22037df411e0772ad94405594,
  0x1e950c31d1539bbde6514234bc05839247ef9215785492e383137b119f88bf0b,
  0xbf3e43bdbe6e02bf54a72a73c50301e2a12defdb35d631317d72f85a238bc41,
  0x347b8fd045dc45aa6095129cc593cf65dba4bbdb34204d00fa206b3e3cedec6b,
  0x67a6282bae29772bb07cda4093d7995b1071d2f41001246f979859d58f027dd0,
  0x1ff13ebe471206b0ccbf78bd4b10f0cf390194aeffe3557bd61707b73751bcaa,
  0x89eab6913c1c9a62089b53769243af9ccd74417cb65f59207588cdfb8063138,
  0x419e51902cc6d3c6231f4759f41b4b441b83cf355b3af725737428c96da80b6a,
  0x604492bfae7ff795cf87e9216257f2730ace4fb5e3eca46a15428d157d241eff,
  0x1e4976dc1e854cccdf4a3a35e2bd7e6bcf0fefe5c4e4668740a084a15f4a4113,
  0x23872d5af098e1c132018879f273f394993f90cd3329506ac347f6aaaad50d13,
  0x24a8822bf0691868784ef203e96b12145c92af79bc2bb96f2db78bad100e8296,
  0x56db07d9392933acad7a32fa3c8d1d28710e44ebc531e4a2eddc2b856b9a29ab,
  0x209d2982356ba55c4acb4e0eb8c74292a9457ae0290c81a780c9e768284f04e3,
  0x389f052745bef186c863f34afa2dceeb0ac5175acba833b26f287cc2a85fe0dd]

def cA70 : List Nat := [
  0x2c4da3e258c695336592ae28a32803e5e3e4d069a703891f124f76a8a49bae9,
  0x3409fbd60d545fdfa2f127d357e15bf5ddb18d29ddebf6d54cd33ec6beb2134e,
  0x1020012d119dd4475465446cf96a5fa7ce66c1e82a291eac1145947cbd1d319d,
  0x65a12addffecd1f3c28a45864477a8261639f1fd29b3efdb81ae047fcaafd9a4,
  0x406919647ee4dcb1372efa74dcca17594179917c5b279b92a99ec479277bada2,
  0x6e4482e2b0e19d47d9f2a8a2c10c9cd13540e4cf4b0dbf1aa8084b5f0d614e26,
  0x51da26e3d7601b58db52ac27a503b7fb6a43bd8ca50857813473f46e1b69144a,
  0x6f223701219f418f3125950f1e6002f86834fafa374b0eb97df5b2c311cb0334,
  0x439d573d57741a411e537d5c2dbb90e919b234bd169a01a15bc2318e8a284404,
  0x33499c923cdb43e444ccfb4722e6856c035a838a6f6cd4b69aead13efa7b95ed,
  0x4e84cd816728a36e113016a72307a3ec48d1dd9869b54c74e818204232fddb78,
  0x2a0596165ce0bc89aca7e964cb0f12f96a7eaae5738f1cc697b8b29f284793ed,
  0x4020312391829aee068cef48001952b186f85c880d36a80c3d21b560a6ec6a48,
  0x5a6ecaf5853ba8dfa76c5af8e86942e4852d559ce048e941b3d72ba705c48c23,
  0xff6679f3b396ed042bfbd8c82fcd1be725c040d23924054735823cb76c2c17c,
  0x26861c3555fe8aaada3c8084ae5d65e8a1b4c135f3a499be232a3e645dd15d31]

def cA71 : List Nat := [
  0x1c8df3e6b904ff0a725b23733f592678320c201496766050bf832b492a0815be,
  0x4f9574e579c52b5e0eb6f82a8370b5eb176f97f86c62e8efbdbd446cc4d3d43d,
  0x4a5ec02669d325f87b1396de98c9d5dc961e766bd09e382a9fe1af92d9a7884c,
  0x2b249526f73ed0fc9abd20e5932dd488f6141f2ef4016b55b23e2b97e207dfa0,
  0x15849d70afc16cc3f65590d44e475efc71caf6ab5e549db1301bac25481bd029,
  0x2fb64b7b73b9273927179022a6f4c11c803211b666aa8c6ab41a0d9e23d42519,
  0x72b71208cf982fbeeedb36c359ec251d6370ae490035206dd53d2a2e0cdccacb,
  0x7cd47439fe06ef47eede1155ccf09c787c7cf16f14260b190dc9037771585bf,
  0x409d401a2f914a8587474d28093a7e15941aa868d681d6ae9cc46adcbf451662,
  0x4e73fe4667298a59e93a7067d5931bc5eecc32ae6f5c2b3c5e789e3956bd6023,
  0x53e287c08004c47b9ed6177e1873b0a52b94b48d661478da07464ed2d6166cc7,
  0x198999a6b1a9ecd5fa86de1aa09971e711c07c2ff31a873de57a8a61149fe126,
  0x1f8ef88a20e56a439cd99d97637542cf50753bd8121fa6ce4a713760a9d046fe,
  0x6af9a6ab2e32eeef91fd558f7bb04e9e563f5acbdefa6b160b2b0a2374fe823e,
  0x3bef728d2db4807bd30837ec1d0e29c66645d38a3d40924a989fc96e6c3c7690,
  0x678303f576a81e543dcdc3ddb8ded8fe8c4e0a58b50775835c1b8e9d523eea98]

def cA72 : List Nat := [
  0x26cad4116081633740dfbdda11654d4d882e25f97aa6e80cd8d9733ee4cba60f,
  0x66462e4226682910661f21a7d3a1cda23865b687b1ac926247753990907037e1,
  0x268aae6038271d93422e1c0972dfa183c053fff2042c859a07bc9f803b9e9107,
  0x2e13e5730b96d3019cd65bca76e76e73dfd81129563e0aff644f104557896c22,
  0x5a9273fdad393a9ddc7430c16cf5534b79b0451bdd3b0c722f0dbe2aa2e6a65f,
  0x317bf71754f4de2934f224bb4166711fdc6302946a0f768dab67502d202f4e2e,
  0x5dc8a26fc5000662174b968ec57f56f2466e8859afac549f2fa5e71a6fb6d0ef,
  0x59910b76c9d6a870f5d59d585a5c12ddf106074e3cf2d6bf2c04d89f879be70c,
  0x2529e801493cc3b550bff3a2ef8adf248e3798c31192ae797cb536a931f65c93,
  0x5695f836f81bd1836e5dc72fd3cddc5a59e1039b0ba0ad90bfe6ca523d514386,
  0x27b8bdb26374341b65989073efbb8edcdc09489b710c949e5d1b4106c747f2af,
  0x3fa5b5774fc003e239d4177e7fff1b518e6613e74604d56040dc3ceadd202bc0,
  0x1d40f3750b62574515eebeae7c60fff4a90ef8a29b339d6bac28e65135da21ab,
  0x1ea3ba54cc7b8556015a1011989efd114885bc7d068ee4e6660dff66408d9c8,
  0x822114cfab8e2aea56c1db839b061b36da6467e431f0946c861297242397f79,
  0x25468469e29c0adc54ede9ad20a3cff8348e3f44fdc44f83458ca98b8435bd2b]

def cA73 : List Nat := [
  0x12c09ecf44798b618778efdfd06f5f1c9e106e69a91a83c5aceeb7d857a073f6,
  0x3a7281eaa5a2959d0f4e459626153cd2ebebdb62bc317dd95b59f405982091cf,
  0x3e986ade4d5d1db0ceb600ef5f64701f5155640ffc6d9e8be23f287a9d8acd2b,
  0xb13519d30cf08b6a1f8d8992a41eb2273d2affca19baaeb5ab6a314ad03c061,
  0x2ca379b14a885e6ea2192506a4a0fbb6886d84847aef29db4b55de6a990568b8,
  0x70a64bf1992ff1933669ee63e3b3f26a0fa6a3616fe8c11b9a44eb86f7af3053,
  0x56046623ebf110e55ae066b6a1d40f67c38ff116130094c467a3329d0f188c59,
  0x66bb7408e9d36bca1411bd3458b42177c423bc248a79168815f81b313dc44307,
  0x43f31647fc24ff961a6f126e5efc067cec0bd78de0445d0a3d1285608ba53331,
  0x4f10cd6fa05247df9c154265593ec4313f78d65ea142431f3888ac61f726e5ae,
  0x8fd2c35abf8e599f30c786f8bba0012a640bfadf30e7ffb159accbc81269dd,
  0x1e96907a699af70941869c08e16ee7ec84e0a495ddbfac54141ff39aef2fc7b1,
  0x1580eb9a9ed7c8b36883e4e9a18177fe07f2c5a19be55a9003f470f4bc584a1c,
  0x2ee879aebc040c3c8a562fe73fe4b81681aa4d91dbd6ea7f5dd3a02ea9d659f,
  0x4e1816dc4e776c80d3171a59de36e194fe433118f7d48645d95c86a03f8672fa,
  0x2fdd10a105e503ea9ef31097abab94bae2806c7ef2ac80a865a17d1eebadefa5]

def cA74 : List Nat := [
  0x299460ebe74e2fcdd536e5ff2d9cf790dc64222fe8d6e9ed105aecf378099fee,
  0x14bf3365c08aeb8c62282a6aeb3ab8507a1cd7f88f366c5fb20d63146327fcf5,
  0x62b060b14b8ddf08e52f1928a4ef3491190fee28aa2b8c5b175076e6d9138dd5,
  0x44855fc5f35ae5b52ec18267fdc59e7832f990d867d553483a496e6bd90e507b,
  0x48ba33568a9440d16fd99a49c91e638dad86ac2a91cceb82b2602a34b56c5ee3,
  0x450cc0dfa1d6825f17291d90952cf9f217e0a12826ba80cd1406a786f3110d6c,
  0x5817aa706233f14a904c69db07e083f2fd0b131730cbf38a63c30c7e068435fe,
  0x22e875591870f6504c03c516ceed5674ad3d1a3ce5f4f0721117080842cd262a,
  0xb1d0907e05bce2b833ae7de2663d197840ccd4f3ca9434d30bd7831d5bb031,
  0x270a73bc72db4378e559ac0bf047b89672bf15ecdbc94588b1230d24296f1b07,
  0x20b11576d62deae5b62e1cc2c227c10098afb864bf2d8fc505774ad6aa0b8332,
  0x67946a94b577b8fedd6033ae0cc0575f99a4f1e853ef5e4306043e9af6a37096,
  0x1d3b14dd9e88c62b6489fac66205a1acd9fddbe7a503045f1728288c2674fdad,
  0x504d5d145a33e970461e06d747eae36bebdc4866aa72922882017868d5a25b8d,
  0x5e570104f42166dd9ab666854fb95797e7e1ffd1c0f4452e649e2cbf72fbaf3f,
  0x44084926326704fb002185bdd70e124f111eb2333531b6ba405eec3bc7b94bae]

def cA75 : List Nat := [
  0x14d324341a8eda2390e737a8741d53f7d455ce17dded32d556bc1f998695bb68,
  0x48105b391c08116dfec98cc7081774b23a72611cf1526855323f2e981f05d15f,
  0x63fab4219caf44c5f7a82091dd97e4a900c4195b5f83307e62b82a006fbfa763,
  0x7584f112ef4da811fbb9e2fb5dd65a7ccf8a5eac3df0c0a801d50c4d95120ce,
  0x5c2ef028b7eb4a7b0999a8b18c58d39cccc0aa0eae4b0a76c315854fb8fd025a,
  0x5c9d843176ced96ac747090c5328609f2a77dbc1c21446b3354ef87bd3195097,
  0x4cbb2edc7d193dce5de1eea9098d295323c50dc9fe6feac2f79460bb1a91371c,
  0x2398da0ca08b0536497564d0e7be638d0e5299ff1dff5966df16df6be2f9cbc9,
  0x2781bc8e544b6a8564fe3c8bded9d335f2825b0c26e35c7d69dba7f1ee203b96,
  0x510743f1bbe56c12458a1e28297ee626c71098b5fe14e18e60eb7d4ea4ea8e24,
  0x715eda8f50a60806ced4b13ae2aa7c967903a18b5e5ae4de594571799411423d,
  0x4f12feeb5633e09f82f9f85881e584918981f39cde7a730f6bc91e09b031dbb5,
  0x51ace4d96a29fffc313237227320847f4821cd4c4dd8dfc679fdba77f1e79557,
  0x54810ebea917a86d30207185ec19b72a35318d5bba8aaed93255cce503a8c086,
  0x52233353ccdb744fb456090db428d61b5ee33106c53e9ec59528f6a947e6e402,
  0x48e59d022f874fb2fcb83059e8ad4bcc0ef7e65e98e79824f1736e21e3349268]

def cA76 : List Nat := [
  0x7a4fa366e4ac24633bf90e3071008e6ad157095fcf64eb0aeb8c15bf4d1901d,
  0x6237b04bf68be751f3d0af6f3dcd184e9a921d7464cf4ed3084dd516c0eb5fda,
  0x713bfb918ef736383c9e9949e258be3014da5b4a30da1ba32bb01deb37b0bf3e,
  0x10e3a8491babdac0e2716cd5041939d8dec856408ee2d0dcd111070cd37b317,
  0x2c5ca1628cfc7640a4da3b8f8695a62798fc3bd4fae941d47f977ab5b80936cc,
  0xaaca2c84f5ad2b4b03d081b9f3528854ab1038ba9e7c8c662b549c31bad5cdb,
  0x114324d6c77258ba67a79c140ce117e8c32c304d64157acd1c1d0b94c5137111,
  0x172f96b87bf2cb2a9ae4ccd1d73a2096e0b8507a7cdc7f05ad01bd7d1f21daad,
  0x60b449066021145a4565404b0c1b5263a41e024e0eaacc46ed32f4279627a4e4,
  0x4de15eac338805573c7e5ee339b07e40bee47e857802d0bc0071eff43820f520,
  0x73135bd15aa4024e8f9ce96b1194362108f30834749c157fdecca1ca7a783b56,
  0x5191bf40316b5f4eae1a709ca6ba6e02770f1456c6d686ddfeda65ff712a7d76,
  0x14903b7133931cee267d9cae488977e63d622492e03d6bf7b9dc291ee76d98a8,
  0x1d7e28a92f776b8f1117d4bbf3698324391e877eefe74711c8469495623b9b33,
  0x455f869c1306047385ca318c6bfab97ee3f7bd7b5f051c454ba9cf9b37a936ca,
  0x25f7018199d5f043dc4b1da38c3b45149586c73959cb3d9cb09fdc16f3d63ca8]

def cA77 : List Nat := [
  0x59d972b773030c9e8651c20600646aa2d5fe1bf48048a40b1dd7535210ca0c96,
  0x42ad4637ed924a63f06b4fb606be8adb736ea2467c39cc04a20948a6bb4d72a1,
  0x65bf127df46206ad6e84e8548c919c3285b3796589a6ccd9f1533c472c2beff4,
  0x6d474cb482dabe3491e4340148eaedf4eaf2ef5d73a25ad7b89f9a42365fe3d,
  0x4f3bf67ace93714ab9fedd427dba16459b945a352561ff6fc6034276b97b037b,
  0x65a9b14cca6c33d4fb926840790e1c27b441fc7375195293d7277ee607bbfd3b,
  0x4f069c2774e8a77b24182c1d65cef49d0a598efdde2574db668035428d75ab28,
  0x509b7b6d5b2afe60a8308e1d8a78996daea3d2ab2c60e607ce87fb954ab72e62,
  0x247ea28517cf4a81744b2e56a38541382a48f86e4b9cb0c9f1057960e0333f28,
  0x332899d822fee90058e7b6c11e7d64868a58c576bcec2711626db9e42d073e8e,
  0x68473adf6ff458981192afbdf6cb8eaf790527e4a0dd77119190671b53705d13,
  0x58378b2d2cdb71b70611ee3c04b107413aaff468eb2679d8a1a9630c30f08b54,
  0x55427906b0181f9a06d949d1d387f3e82799462a1b5dd32eadd45b0b44d142fa,
  0x5b34e60efb74b1d18f5cc39fe8be4ffb234f30051c3ce2144ee4e07426e25cb2,
  0x4042fdc4e1c31fdc0aff2523f0a3c84754ac5dd5629fa13fc71394848d44166f,
  0x469e2026b99da7a58aaaf70afe3858f872c77190b8679f79f6ca483e27c98207]

def cA78 : List Nat := [
  0x1d81089b0de08cefed58e824939669f28a5bb6ff9f208e0c10ccdd811dc4d943,
  0x4ec13b07618a5177c9b1988f2bc437786449313d5571a1f2cee3ec25e0e688db,
  0x47c52be1e33a379b49ca602cb1ee04de396c334b88e945fa1fb4729412b10664,
  0x1ebcff032c365c9f5025d07fde7359ba6b88d63a1f71a8c034b676bccc1ef6cb,
  0x4cee1e0e51d764a634450aed0fb9b4449371908a24bba7688d227684a00f50da,
  0x727de5688f7097716f5350576ede17a01e779dc83601993890613c7b071f17a3,
  0x35c9cbda4517662f43f2dbe27f0502c0b1119abf1773ec4aa6e6d7b035753e2f,
  0x53f8ba1de74ba56da3d90a7d36b0b677bce30d6d99d662f060f6d2a2990d2c2f,
  0x289be2b6310108460446f75caadc1ce4238ad4ca0f7462a5559d11b3a3384bec,
  0x62a5da0ef9bd4d737604fc08a987e21bfbc23acd372afbc1d1e82bf6561e102,
  0x22fbe30dc6a25b4a5d26043fcb37c87ddb272a62def3b04507cb7dd31cae24a5,
  0x33ff43856ed972c9ef5d66d8df71c2ba07f682fb7750466607b7f2f41c6eb5d9,
  0x2a89dfb6d158355b79651a59a8e08437f90dfd0d68ce0838211a96ca95cc3f8c,
  0x35e434b681dd9beb802c207378a09e0a1a6a82c4b0f6083ebdea4edd00166b4c,
  0x5b73239c8d4395509000bb413d4eaa7fd71e7cfbeda8d70b9b6c9dfe277490d1,
  0x665b6229c243c241c51384f386d27a3cd7d0279e532be1e2609275aec8bae53]

def cA79 : List Nat := [
  0x506e6ce40a914d611d4358ed8477e09da57e0c9f199f5117dd2d78b13dc74817,
  0x106e43c6dae2c51602f47cc1d02a997de8a253936e8ad668af48fbbb2d371aad,
  0x12822921b7061cb7066b9bb78e1493a0882adc53bd826b6b32e688ab74504ea7,
  0x131dd371a27f11be8473785a0459a73febc81086273ec1c13f2cd4e7cc3999aa,
  0x6622cf132dc0bf99800a8df4dfa0c5be6c1676946abba3d86bc626523feb04e,
  0x163ee7436fa9bcead36faca113b4d2fc81ee1ddabadf1baacbed283f0a204942,
  0x6bab7f88fe528c77c587a86fb8321f693d72dbb163dfe0af38fc079622bb1cb4,
  0x628b34bf4344b93d1533ae4d88b3f14be04c1c33ad974d5df8a09f22c5e60b83,
  0x28e0b622764b273122b201115847ba33ecd5c3b2cba969e96bd064a4cdccb9b1,
  0x72dc24448f92323ea32d2cfea64bf7c51d32a54ea06d386bf9f64169e568bf29,
  0x4abeab601d464e3a9af436d4068b3de08ad2e55bbe3d45f37900a29d769f4188,
  0x1c4bcc9e85bbffd76eb975ad822d0fd4cf5b907dad069c6d69fc47e642bcda16,
  0x2ee1537c18f5f73b362c3674ae5537d198424bc68640c9be95ce640d8869c3d2,
  0x3ec199d5c43df85b365332e415a09aef5532a0752db9b798a5d07c50a8cda7f5,
  0x5893af3a07df618ac9ccf02603ee27f2605b19b1ae9a12985d0d83ae0c6dd17b,
  0x29bbfc86b3c7e730da33402250d49e6184da88bdec3261c283b7956d5112b8d1]

def cA80 : List Nat := [
  0x1728e12764c3960cbad8bf054a6fbf30431abb4c4a8eccd644453ea5ea67742c,
  0xb4ca424080a59deb51a92c21672ae4c42cf8a0daf7298469f87112e26d3d4ad,
  0x432a1fec6cf7d8c42ba0623e388787bc7d2243e49bd476b95f935041ddfc5b44,
  0x3847683e8c5faff31508471e58690b816d836b531c78b2ecf0798268d76213d6,
  0x50a0bb761ca4110b7b2c1f6747d1fe282e66fede6fa052af97968acaa8bcae52,
  0x56eb308c01fda4e1723ccc5d38fbb66f68d5619e3b970c63dd44c99a83a258d,
  0x504037a7ca8e3ee66b299b726aa45d515ba3cd3736f034b92c749064d4ba0227,
  0x50ad28ef16a461f09cf6a1bb0da3a47de2b2021be4c559cc99e518bd75e7094,
  0x602de651e331d6a6ced266e76f78040f1f34faa1f8cf717875b5cc4a60b05b0,
  0xb6cd06ed19e5b865ff07e9213b1cc88a4f282353975c8dfeba70421a8f3a461,
  0x1b4f2a7f64ce2bc15cc2c1be57109e194217c492260627127557b31b159176d6,
  0x2703c412b215567b2c9a10cef2fbb5a17aa77c57c8c0452649e08b4249b87900,
  0x5661b118040dad826fef81e5c1c481f2c2854ce80103354c413cb69211928f45,
  0x2ea6d1b0c62d30aa18718e9da074e3904698d52185db3777578162ef7f5f1c2c,
  0x27dda1c8b9dcf5cc706cc69b90045d7999b47de8caf30df98edeeeec49aa16d9,
  0xbab105d003a62ff13981a2dd6fa70de16640bf93aa2f70b5b91997e26cb97bd]

def cA81 : List Nat := [
  0x72a3ca30d89820b4aca38f7ccd021c4849211211c4128620be1f3f8fc00b05e7,
  0x17aebca944bc03b205021e2ccb32e6a33a001e8499febea007a08db69b9ab4f6,
  0x175ec07bff10431dc01d774d8ab198da99763a6044b3af973314ae23a0f87733,
  0xae095284390687ad4b1b9b20a2f9b5aacc600c0cfb2aa1a6f7030a0043fba23,
  0x6eb1231e05d043dbec2d1fdd5e7d3e4de80067ada33aa51044359f36b73f484e,
  0x240d05089be4a5c0c1c4ad5b49d750484128f0e7424ce9350bd9af7b0d41346e,
  0x4e56c68767510c1b366defbe19c53ef34cee1fba5e16f09ad49f45da32b7ab58,
  0x4444d28088e77482af8daed7e44658eeef807a1d30f2f70756e0dc43e1c191c7,
  0x6c644150e93b5cb0caaf9a02934b9da0e70007af9c13ff6e6d9e1d968f045af8,
  0x6f4a82ee8b5baae10d7d237d5ee1bcdf45399118bc800010304d5a808e01c7d7,
  0x218e27d5ced0712d692a9f49315a9c5822a37a51729ecb3747f78d74fa47c3f0,
  0x5b6e9a0539dd71c696e9eb6156441dfecbce3022f524f64ed65961a188fd8544,
  0x5978300f5348d995eee19fe3252f5476dd21fdd5827c67ead7d1490ee8c7a7c4,
  0x42f4030261ea85a8e761262b7d9010f2e7fbc7d9420a73e7826c15cc4a2f613f,
  0xe8010beae717e2deba9d6a19e2378b4e0709cf55129ba5c238495d71dfe6eb4,
  0x612916bd258a0aa009f4404a77ae6739bfa36d435ee7cfccfc6ff95126c48b53]

def cA82 : List Nat := [
  0x5e56d9b8a04a9690335f9d31e826cfe466464bb0c92e28fca144222854d45f4f,
  0x168401ee1cf0d73fbcf3e96b622ebc3ea4b64b672d964cc0d9b7ef2f2286db8a,
  0x2d1e77981645e3b77251de80cc7a37c4cf7053329f3a311daacf172f2f872af0,
  0x7749ed1edec72da6d492cadd9c5a6aac3321b232895ebef77aab9cb262c352d,
  0x25bc73fc49667d133d1fb998745058a7b0976c2d6c8358d500c66467a02ad6ad,
  0x5c6db9ff388f6b983d747f6069063df3cab6848cbec9ad3ca056137006df55e7,
  0x2582e74c57cc8eb40cacb388489a2c37dbf915b732980f5563b8a5edb04a9246,
  0x146f9e6236f75fc5c44ee4dbe425c135d1a477522ee1f784ed4f68d0f8d81345,
  0x209e0d387dccd502f9888aa9e5fcf80a99ee6a45c80aa40aeafa0eaa623583a7,
  0x38d7422a665a3198579c6ff05962313a6451cea2e038922f2676ba01dae580ca,
  0x572c9887a6eb597b20097c0ead4bfd1c18cc43f77f017281e6091aaa852c7daa,
  0xc05f326f10c79752160c21343b5c9999ec64e85e4dfaaacdda16bc04a599f45,
  0x20aabf73ff77ceada54bf9f62dc48cff2f688215126689f6eb32fb9795abb686,
  0x300b64c3f6a592564f5492d40b6ffa6c0892d0fa1d18ac35f8c5f3a194d8435,
  0x675d70d4f846808077d583d3138fb8cc5b78d8cdf4ce299a477ab3346755ae63,
  0x4658f0191914bc2bef9adac8c07fd3d662206cb01f30340275642c93d2a433b3]

def cA83 : List Nat := [
  0x257001cded6a87508bfd676dc330867d4a90ed11ce8f398f9f385fcee1221a25,
  0x6c9266dafa6854eae64d2b8d3e50b649bda96f7f8b7b93784be13853409ef54c,
  0x1cb4a594866f7576b65f8116e6d10e20bb243c18d64419f1591c638a7914c147,
  0x331ca9a5df89ce35fdf663a0d4f82a7b5f45ef846cdf7684199235740da245cb,
  0x258dfaf8748d7f9b9d2bf56344179ced272e32c3197f0f68481e87afc154fc4c,
  0x2cfb34d296284ecc498481e67c63b1f8f17072e14e0df8848962dc5afb8b7ed3,
  0xd6cdfbbaf827ece216a34b83893add7f7f79c49c3f39ce10d24a7da669d1a29,
  0x176b3c4db3696bb8991ad87f60f4cba0f46ca828e8c45bf9f68ab3dca39abc0b,
  0x4b7039448edeb439a7a2a4cc7ba3c1208a1cba3f249384c4116ec388a94bbc5f,
  0x4133691afe2a13a181d1804cff4003fd474670bc63af8990d9e8109847a4dea6,
  0x652c5dae27354a2e2921b8be09c2eb1673a41412e82f7936dd591bcf8aff7e54,
  0x22a0afec0246eb8754cd9da33d6ce142efbeb9caf9453f182b79a47e9ab20985,
  0x241612af2e8b23b129a00b8f1da7d65a14e4d350bddb4c7b1c073087cfe9cce3,
  0x30334731f2a17387d88b17116774f1e978bf9de8e628ec49d0ecf3f54adb4aed,
  0x57294dac9a67ae27cbc7aaf4fc996401f88d5d8af11e3cd0c91c0fa783f2b5bf,
  0x27440616054cce5b76d6561586a2c9f0c5ec94e66aca11eba133283188d7619]

def cA84 : List Nat := [
  0x40683f86f4f6bb426dbdcd594e2702a61607614203c9352dd926220b0613bf54,
  0xd86de08ab88a156fd54e3ddb67faf07fffa0f34b8633d5f1e4a9d1b510c71a0,
  0x110f25ccb11f5d908ab4ec9e0037257b1b0d8aa5ee8925c225d88a3d26318e67,
  0x634b9837b1dd50f128d87f3c74d9a143d2bc0299cf92998ceab9422c50f41012,
  0x1c85a56a90dcb42206439e019d3d106ab8f6852e5e0a4b5f53ffe227e36b0b38,
  0x2a2e8705e1093c43b360aac927a5b6553e4feaf38e182849df077e7928cccea1,
  0x5a2c2b22e0cf32eaa9afc96e29103c66e8d76d2301f7190ca1366074031b0114,
  0x661b40b4f01dd45dff4874f5070db07767ab16e59a7879776d33f9546935ac52,
  0x49b3a83f2bb13355d163d60d026a6e1c22d8d328d70fac507cb626cec3712dc8,
  0x4e38ecf5e709466b736624ee7011d601ae8b61c4e46ed631b366c9eb85357801,
  0xa17912c0664be492bc2f083b3f5904def8b7849930f74941387e5c1ee6b3283,
  0x1ae9b16276f512cbf5e9b05dede9e9b4b8cf858dc92c06c4a1465f0f1e960449,
  0x47e353da791b3535139fa06a179e38fd0af71bf9fd98a4c3d281e38c47b03130,
  0x6648a24b638eb52b886d547233caba2dd3a32731f9a1a7a23d1416bfecf37d6e,
  0x4b83b6efc86309f4eedba61a55c591dd68f38792994408a42cecd0ce6f7f403d,
  0x9a85a1aa86e63800d02805b3b686a25c2a6100ba7ddcb0c8422b0e3c2978723]

def cA85 : List Nat := [
  0x70d3c3cb4d8c9b607cdd39767da90518b9201a4867af9d7f6fbf766b518dd949,
  0x4c264c629e1e5090464ffb596bf43e19befe08cc6ef3de93e90f4ff84dfe9527,
  0x43aecfcba3b3a54168877d3bb22bf8471908f6aba4dabc96f9cd3dae0ffba7f2,
  0x6c27a02dfda9da9b6f0202e9a7ec5129f2186dbd1e9a4d6a66ae4caf1482c220,
  0x193d4db8455a0c7b550f0c4bd31f778e3f30bc181f6023dc28622be170fba703,
  0x3877fefe8d607c0365193e89afade1b7d881e1556c6dd811df5f3eb3e7fec60c,
  0x4083b4f23737ec8268d62604ec581784bd6c4a1cdeceb7e73b79f7fb74f21b9a,
  0x5d835abc3d2bb91975e32065471034213dff0e2876cc825bfc673627fadbfe37,
  0x226029686c78e725bb4d156c0cd351612b27c012f5a63b77496077d344fd7d06,
  0x5ad4f3f8ba8f496c78e0bc2d7bedaa2f50509cd93e633258a11a9b9dcba288d2,
  0x6dd3d99b567e2637c0db76924ec684635523282cda8130d8c31756e09339c1b5,
  0x52e6d21280df74e91d2854b5ab7156305d80c5f6d7a99f4a1d254fe72d133eae,
  0x6793cb79e688845fad5488e7585e46cc8101f9a0112080cb6e2398fa79a47b68,
  0x72bbbbbe9084eaf0c46de8a24250b21761b5971c8014e21bb17c7d220fc76d26,
  0x529a3118e8b5bc3125316bedb7edc3afdb22bb8f95db4a881461b670069cf1f9,
  0x145abec7fe6d2ff6ca2249a00eaca0ca46b029ac71e767ff0ff193fecabf0334]

def cA86 : List Nat := [
  0x1720b6e34488aa6471c125b05d823e87d724dfafe3606ae51772a0a80544a64e,
  0x4ddd442351d158308ad022b1057b20ed85821c196322f2a0d24dd53cceed08cd,
  0x631b640c4e14c0698ef9f526c8019f4a8fac1a4b18502d6c0bc5efbd2bd77098,
  0xf57943ad76feb4c874b63639b296876d5969a164396d9ecb47a3c81486a212,
  0x62898668b764070f3d4de53572c1a70b08aa5a3c7984bc2d4ce05b58fb467e79,
  0x714d92cd50f038a3a39343bcf6f7ba8c6c48876f45011e612f435f5ee3b513fe,
  0x39dd63be2624da65d82e12f38f37b885cae3e2b85627bea8528ca9e382c38e7c,
  0x27a5b2276e38d44ce66aec33ca8ae79aab06a11e08d0e2bdb695a6478f5cb47d,
  0x3680bf7b0304023a7dcab4c35dfa8760e379fe27edb3d815fe1f214c4c4a9ca3,
  0x26b0b83045a6ef7cce2ce940d474e98470db81455d6c68f58fbf973094fccca7,
  0x5fccabde43388c001a7768b8418748ff53f4d5ac084fcc8113c8ac4c15ec0593,
  0x316a689b3d6ceac60c57e2693e88ab82d3fe58bb583c2ac79b636b41b90c5390,
  0x70e6fb817909caa292600430c6f8b8c50ad6708b1efb9da8499b0dc07ec6cb0f,
  0x5d9fbe53208ae1d72fdbab1319167adef00ed8be4fc62b0cf75686d292c6ddff,
  0x1d46db43623e14fae8f1d653f8e32c068b7e8dfcf4d94e5c26d7f280e7c0a5e8,
  0x4c87e19a7fe3aceab680afdd59679852c29e012d615801f2c40978fd7a264f38]

def cA87 : List Nat := [
  0x3912c5ad2849202108ab3f83458e86338c3180dadd20be902c1c0ef0475544db,
  0x12110dba5a919d569b36dc971061173d7c83636894ef7776d820442fdf0f0338,
  0x56a736ef5b6934e1b791360a93e4ee2250c7604aaccd11e6925574e6b2ce595c,
  0x2b827648d08c1130a5e28ebd3086e54598f52c3bb2fad6f2bbfc04ad9424b4e1,
  0x4127d2f1b6faa5bf469577816c152be1d7513ed607f21029a7e3556f1f5eba04,
  0x465ddd12ee246b1a31ae96fb5db965a5ef1f04eeff1b8f35ae912f71d5c1ee0a,
  0x52c9154aa3e0083775eeb3db9b12a19896fa310a0bf1e5e04e9dde744d0b04c1,
  0xdc10051cbac7b4ebeef31f209bc6cefac62ac31156804aff4782e77c6204d5f,
  0x302c94e6768139986d123f8995f98e33f9c1eda1e8f1fc1e84f8fde7cf69b110,
  0x7234d3881ccd9b2fbaace52ee04df4f9bb4b171e2986ed2cee0f8517c6fa0f53,
  0x1d831cd9e302b5dce9e04dc03bd6260ef87b33b6cac87e303e725fd2986cb6dc,
  0x3146d6bf4b3f1266c92d5e7797718f593b923b9c015ac5f576a76556c7f979c7,
  0x1147702f4ce0f1d3f8cdadd43d45fc2f3582b61f957c03f345b6c35d08138027,
  0x625b2c88dc1c87ccc0ba7e884e5c392dbdcf1aa95258f48c39c616795ede712d,
  0x5f6342b1ff9e20d55adfa886a2a3e80d74db62b12a230f6912728735b4bd4390,
  0x1d40e1446949164f43a6f8909b9543b472e04f1c60927a7f7b2ca14e3b83bdda]

def cA88 : List Nat := [
  0x1525bf0f97155060924fedd855e2e1e046641a2c204f20be68451cb54f5e3036,
  0x534cf5b2527e749ee01d1fa97437588928e27146d6dd5ff60c47ec6848cec2c5,
  0x218671ea651af347aad425a087c8d358c44358e15af36c6e6a7a741f3d4994fa,
  0x5580024e50d6d9c3f2417ee191d456206223f52501f2b1fbbb2eeaffd0b8b01a,
  0x1d046dbb1c02304c83ace9b604a51a40b0278fedff2b3c3b24b968b09ebdd5c9,
  0x397a20dcf7a605055c2ba9a846a677d9b076881ee8912a4285af2dccff0352e8,
  0x281055f8a9bef5e719c0077f1d196889a104c1cd28d6e800e32616de2207c441,
  0x30d812aeb341338b28319ac024c76d64ad199ee847b8a0f937798eeca92cb161,
  0x2a7120420506277a86c1ee63fb95f040b961fca0adc92827f7087b9204238ab5,
  0x55f187ad6f1552981cf4cd1322d4d4da51e5cac154cd0322604fefcd95afb907,
  0x5b8f344e10dbd6c6b8610f991a935b57188f886d6d600003f98f233d4d6fcd91,
  0x734d81c9d464e8bf0d113fed6963ede8e37f151815b921f43ee98ff84bb98f97,
  0x71d284dcb769270f6a8eae9b0c9d0cd1774502a96919bb18a24ebb066d27911d,
  0x20ac5749ce4a6b4e2121b1ee5c0ed1d93c5f5f58a275892be22e841e61626659,
  0x496fe43c7a920a60f4dbd42b6a3944d5889cf9991df1365a11f24e3735312d67,
  0x4633d672a5cc900b2c02638175dd79d66a729fbdc0e4e8d1aff3ce547bb5b588]

def cA89 : List Nat := [
  0x6f9cf308c537818de672ddc99832ad8adab7d8fc7c4299db6f426dcf67dc4aed,
  0x3ab65dfadff54e70b41b4686fb4f3e63ca980958c7c4778942fe0e0706b187e9,
  0x312bb65c0bf108ebfb75e9ea76506d235de39ec035ba47a0e084d1ea93f8e36a,
  0x387136d05301bd37ef3ecb2b6565111313cfd9c1988cc5bbc42fcfe91958ce97,
  0x5f67ba10e98757ef884f78fe2f0f87f1b2c38453c65fd3b20f012855b95ed36e,
  0x55876a2aa3fd0ad067f954b37d949f7d61fc344a9b4e51538230740110683ea7,
  0xb2d820134f5db13e5a79019731cc326243dff16447a033e2e52289828d08c48,
  0x9713c5f3513e9cbab77683517087381539592ed25ebdff181d62dce928fb24c,
  0x2bf0c1133d3e94cf1d8b7de32f06a568f0a9062fa0867957fb0e3049e6cfe2c4,
  0x65ca40e84ba6fbe05bc41b55b0ff05481662f9ed9622133f0d0e4a931c1db122,
  0x327376522c881ad607ca5c516af0c36612a3ed71f009b5bfa63350cdfb0828b0,
  0x3344a32220f38b6d9f4f644727d8777755a5cf71946f7e596ca297e93aa55f85,
  0x6683a49c694bdc7cef869049989fe11adb337fcf13a56fe23a566da3fc696a,
  0x240cb935ddbb58650cc153d10b1f44c27b159127b7c8c199a8935eceab2f33fc,
  0x152cd9e7493ab860ae5edf0289cc1b2374a83a42a651bcdffe4614098cf445f1,
  0x1b7e1ad766ec6550867ac4ee322a3c807f52fc99d1df91d2e581e86201852e52]

def cA90 : List Nat := [
  0x31998372c25266038ee1f773e01b9068f17338b5334566173554000a9db767ca,
  0x370ae2cd3c312e7cca45235ccbafe6bd796159c606d99e6f6b36e7468749a835,
  0x6a6fd6d2e09ba1a27b2ef1805379e1af8c2f5950e92a672015d17b7f80bc8891,
  0x60a4d9a4db7f2c84bc58b594dd66380bef0133b61fefeb16066ec3d2e45fa868,
  0x345e532fbc642a3d7833911cc0099ffea5618d632ba13c4eb34bf12ca5c7f523,
  0x4b6743d2414407d3e70817286501b886ff9087f62241f67aa7a3de66a982a1dd,
  0x25fa14564c226626aafbdc78ea2fa6b20ba02c4e58775d6d5bf87b5e5869c92a,
  0x34834126b589c01ca9cd5f67ddd4934049f76cb0321e09bf8863d033e9b0455a,
  0x65062c88ecb8d2dfac13099da60fa4329ad52da1450af39250286642096c3c56,
  0x2668c355a8e03c4e795586e8526f3ef3b449ec4d07966372338cab4df1eaa196,
  0x581e7f3a785f8a28cd1d93e61426e2ba903c2010c73da268bacae0dd6ff24159,
  0x26da6e7a531c0b0759f7bfae78ef53cf718b0bcdb3112d115accb772ff5758ed,
  0x23569ac0d9f336c62577fa2ba17813cde6546a167f262ec82303e2865bea36bb,
  0xa920fc8eabbc01b188d5cce7ada233aeefb044631518865ca44b2c4f869db1,
  0x39bf60f323b9ff81eff02a2f595c26c075d822e1a41b7fc111d9ec8517541db7,
  0xd3ad172ca983041b153d8aca506f47df8763874ff27599add56fdf5b1edc0d6]

def cA91 : List Nat := [
  0xbc6e80c9101a1450d8bd5e274af7f1c09b220f5541716910a6cfaf4ae17c14,
  0x1a09d03f16d8502daa91583cb1b4c240b669805fa036d38adefea2eff79654c2,
  0x41ffa3137f428d61e5bedc3955d86d3d3be615eec3a29ef7f70259ba31f06a95,
  0x6d57601660127a83dbe4a8fe2328739479efa73676caf0189e4f3a6a72e601f4,
  0x1a3eee23d99859263007be55954ce40744e5b041c88ae5d5619af9ec3282137,
  0x2a1e624028bd56f6e0d229e187fbd1e30c81f61c81eee42da8e21ae3d0827ded,
  0x3dacf7d0a384ac9d3043f44453fe8670d042fd3e53bcb66146bbad58b945ea08,
  0x7248290d7c5b2244b02eb3ae81d9c52e4bad2aa2a57a1e42e20fa576a6e77bee,
  0x286b059751718070ea0bbdcd81847100064878381d38fe08985a1afe00059ec8,
  0x231794f26c4fac4b0b2694196031ec15a1c1a4e8cf5e554f0da0c5a4dd06e567,
  0x881352b4fde9c60238db73721f99954db085f3b5ff9f7efed554c99166208e,
  0x4bebd61e15849fa7914040781e87f3108be741bd83ed4dbad39b938fd3d592eb,
  0x205b5d24379eccaf8e36b2d5ab635081fbd1d9992a65a15d470ad110a826d2c9,
  0x715d83ed85c6fe3b65ce90007858d0b92df7b184bf582cd3a4ca54150056c069,
  0x58a855277219fb750bd93aaf07d85b05c917b3a7fe30e488bda5bbc0ce74158f,
  0x2a26e94b02bd23eaa8c7ebec3530b058e73cac5d26c8f0e4c8b7c5171b21c4fa]

def cA92 : List Nat := [
  0x3f8897f815d76df3052e3e374c6f02213e0b9f0c94dd45a57e8476dfcfb67d4a,
  0xb78b44fd29900b557db65fe64ffb02be52dd36aa392a4374d0c58c115beb456,
  0x28e63a02bdfb3a30aac9b90b19acce42bbce90eb48cf550b56961908651b3718,
  0x4aa3b9c66f7e76f520f56c88b8fdee86d5fe755f9cdc42e9e432b942e2ed6977,
  0x55ef96b8a949bb4708982c6b0d67a41affe2132885ed9209f71f578b6b6627d4,
  0x104dac459e9fcc046f2d9aab2c7514ccdf86c276baa9f261165c7b1ae9eaf489,
  0x579d21e56403b9e5cdde87c1b9b4a996fbef595a3f79d8e8e0196ce8217452c1,
  0x6e90ed5ee09e602b5c24699d01ae4bcdcdfe7728cf1ae3ee15045961a746ba91,
  0x5c722d3f38978c982d25ba0f1f27bc92c1fa5a25898e80007a1623d39e125778,
  0x4ef09b1e94eef5c1f4291771a375d6e71763ded636ee21aeb30c07fe619704ee,
  0x2c438ffb7da70d5b004cc1bc373d92ad9ec9cc2c662b49810124a83854259cd8,
  0xf1f684e890ab158d5d7a62620e25e61156ae133d122dd383f9e150bc8e8f8d2,
  0x52e760101da1913c93ba0469a0265f9b1705361979b9cd2f91b508dc7967d606,
  0x318e39097e2ef375d08d1ce9f4d5c54fb834bd576a5ecff2033771ec8496fa88,
  0x1c42ff8fe186188da3627e5af4634a175397a59f90d568508daee05c4999e9f4,
  0x21ba139703a4f22340284f6b21935a46e846eefaad00392e977de326cb0965f7]

def cA93 : List Nat := [
  0x6291ca9f02cc8378de81a77749902bc14138cc03da38a346173fba95a98adfaa,
  0x56f4ab3c3ff8e1a1b864f986a32e38d593fdea9e4f84fb01b6418f81bbbe6226,
  0xf87c8465add2d0755728c9333ab2b39e0e99bd5ca33528eba8eae6f5cec97f7,
  0x1285f92cffa596e4591ecfd9ec008dcf9285ad2ffbdf1bfa0835a91aa383e34e,
  0x3e314ae96d14d2580d4e8eb3de94b5d3f2ddb2d752ee982bc9305589945f69bc,
  0x2e9797c09cf4bcee7a639cc83bf76725bad53b3101f60647b5c4f7f86e4f0dc4,
  0x6bd678d542c272973753a1a2a5fac55f3c2d5bd37fa2d7733ef603524f43a469,
  0x3d50670009ade411da21023c53ea16fff09ad2a3ad1029f2178e49d3353f6659,
  0x10897c3ee22f928c9f21778ee5c4e5b981f9b48f3ff3765c8cb6d7e33657dffc,
  0x36238617928e1a7714f03c3bb8b10d220c4cf17618742704165523d028b85f07,
  0x1e5b343fb55b41084ca9d424c8b8d61263368cf62916a2e75b51469d3344aa54,
  0x3ef676d9dac814060dddc8c94ac7c6e6a5929255800ae4185dea2274d2fe7bba,
  0x15bd266125f2dafbcf401c29a981d5afbc149f37547c0d6be7969253a44de1e5,
  0x35f8b81f5cb3a28fde81a1115083fc7d65b3e205487669d85506fb83237faf82,
  0x9d9a4f770c83bcf396b0b60ace45c55f3f367ed0d7976a571ced3256271016,
  0x7275ca0314b7be14ebd983d74730450735940a426e38449a5098ee8d6f1894cc]

def cA94 : List Nat := [
  0xeff5c4956d07d793d3e26ee9685a8240557c9da7fdd4c542b764e8c245229e0,
  0x1e0a393a767ee0fba34b73825783cba50f206a45900706cbf063fcea1800aafd,
  0x68555c1e1ee5e907b2a2bc9833a732ca81b6788abac9143288899c20606444e6,
  0x30a70e8d8e79ab2637e58d14ec9e53506499a376f9506bc77180c1c17b1d08a6,
  0x6a342df368614fc43e95472ef7cb5d166ff6ad0b890ea91f26ea22f3720ff3df,
  0x390ce3f026293d3fd6104b0c1dcaa1b833ecc46d4a288b261f494c826807c448,
  0x541fca7809882dcbd7654d8ea9155bea3a49eacf8b48a3e47c09c77bcdcf2bb9,
  0x51e25bcc47a2da450029aaaa03b5988533a09b2860f7201b2832b07f6b14d040,
  0x4a9371fd0aa923f0dc0e87337e7ebde768c4d2895ccf207ef41bf1b2c520a845,
  0x6443e6a5f7809cea23e24f681558f48f663558c344b353bea031021c50ac26e5,
  0x6f7fa72a0a681a77a7e4735ae2835934ddcb2168c8f6af57f2728e9c304e6770,
  0x3a51325c47ad05f504953ce5d7bed5c43e15a6efa0713e22586996c1199568c7,
  0x466933c5e97b6953ec5360a9d6deba65704487a3aca667cde812bb2473f95031,
  0x41778adfe8dc55f9b36c0b2797c450066dfacac5e4547d2db96c8a73b9d68a55,
  0x583847ad5597dcbb20c27a75b7dac56adfc52a581f60f0b68e91916de2750685,
  0x460a8d3f1d41ff9a14de659ada6f422287d039eb8118cbfe131ade211903cd25]

def cA95 : List Nat := [
  0x408466b2ea518c651cd961008b5b6c0d6b73ff8188ea5b0f1e7e9dd19bd97766,
  0x60d77d7d086157c90ceb73a15189141df7bf123b759784c01ac28c214e8d72bc,
  0x672c0524ff1eb6c87ade1959c2307b98ed14a6b51644f7895ac0d2b5f647aab9,
  0x1d2a12dc8e4a07526f0ede06b05fd1a1365ed47c036d563dc7ac61637c265dd9,
  0x337d254c886d769e857a469486362306e5dd202aa32b1f5bbb30b2887b96081b,
  0x72b0cac5e3bc1068705e8474c433ab967267eb6dfa54089aef868b8c10aab014,
  0x3ee2377d4f1e413dcf7f4dbf33a4b2ba580369c03ced4ef7b2bf14c65f8a428d,
  0x34bec70f72696dcb1d66d4a737ae688651f45cb303297981ad42613f3c4a0d0d,
  0x361cf1acef93111b809a1c2711d86200bd88afb1c5fc0ae381a5f660bd027f55,
  0x70c78c830ee063068b320927e227908764125c40b5f182a89ad22bd32cce278,
  0x1549505c3c53ea0175b86eafd3b124125f7a58847d6694b726ec70774c85d85c,
  0x559f7e9c5d42b496beb8da9b9e2d39d2a90f8c33b831f103cffb8d33e142553c,
  0x3789f5aedc6bd1b48c96311ac6b41ac29bd84e85cf82db4ace461132f6d1217b,
  0x4ce0dbbc349e6d1f8578357e97950063e7b6f2b73f6e9bc8a22a951f04cdb935,
  0x265aa2909ab2717d828f40125302d7c31e427259073cd0b773885471ff180c1e,
  0x1e75622ca0a03d5220cccc5d7c4ff6c98d52b60927b0a8349e8dad295699fd29]

def cA96 : List Nat := [
  0x14c1805ec31d6b72b479a87671f08e118f7d9ee8536b0437f99fc801505166b,
  0x2a3334a62e52b2746f6f5c6f15e8ad992fcf624d340d6571e532e424143d6fbb,
  0x632a45b7da88138d3e1082eaa8af97bb51a6d92ca29f1ff539369877788a09ac,
  0x1462e38763c721d5ba7200302c0dc9f76a194909d05af463ed61803b2d2380d1,
  0x2f467480155824b89cd174f44c6fd97972aa5f739bce46f00fd5a8bd0e581c90,
  0x4d83850f27ff1ead98b501a2d8b8541ca7d8ecff5a454f6f5721d4f627e3fae4,
  0x65ce6de33fc3ca990e92b3ec51f6a253aefe13ad4ec8c473200933a8953e0ac,
  0x37448c1394232768574e7072d2f692d335dca98a6a9b8170db198e1dd95f0667,
  0x42e65fe28c35c3e6a182d9d8ba44b15d1fdd7ce8a9f5064950909af85dd26646,
  0x57473c1f4b82053b1e10c189bf0eeb115ca13225f8d38a761cb421df7195e1d9,
  0x597af707b87888ece9fc966acc2ebf6819a3f6068be42a6727258c9ad15b9c48,
  0x29023721c9739542454c44c2f97cdeae8420db771cba4d2fd29484cd5a2155ab,
  0x47bd0d60484bdc41a7f9e87fcedf010131ef035cb3f8a67a7c50e5adfc10d5d1,
  0xec6ef5710f8c09a0d8710b9f5a50c6607c5e5829d3e8fa0b4dba4f9f4454bbf,
  0x527f6a56685f1698c5eb9a45e05623956561bdb303241996976f3644f2b9dd05,
  0x11ce34c08c010cd2b1a74faf5e5dbda5599c4be5b4431e030485b69356bff00f]

def cA97 : List Nat := [
  0x504d6ba55713be44cc4285c1175a21fb61be8f8e2ad8a8edeedc4d4271d0e139,
  0x51e2b338223567ebb9b2dfc41293ba39c1ff4679db9bb92e85d81ef9e1dfbcfb,
  0x53983b198d6d3cf4a49d1a43ed17ded664a9bbd95afa3313b3574a1eae88c131,
  0x33cd4902ff1348e4199a2fd464acb0cf3cdfa7e3fc78ecde31fd7294a604d8fb,
  0x17cb0153061b6b2e834cc1eb223c278ac9b63300d5f5834bf85629799d065414,
  0x54ee335ea6355a45d02558b546d0c2cd1aad754e2f5d67ea5e62ff2661e1a682,
  0x25a893530fa73ddf2c6bc0e06bd06cc3f40a8efe6b24f8fc6337a770e45ed445,
  0x3dbb6cbf6f4c785ec3ab8eca59e69ce621ba9ae91056f0935af3f1f1072ffc69,
  0x6dd64f30af1eb0c374618ff753a8c76a3033d0ff880ef4b8c1b5d96fee30666f,
  0x1a7a531e124509a8ce114959cb0eea39e9d506e9fdac1dd51e0d8c1d064b10ae,
  0x6e728f2407e21822e65cb2e3253b7e707f5db69807d6020121219c72e75049e8,
  0x8fcdb41e6011772fbf0f326da19558caee18612b652112469fc9fea7d949dd0,
  0x4e25602143ec898a097a7ab4fa4fe3debd03cac1d3e2016e5ce5bd305faa66ca,
  0x71b69273dca31b0c2d933b00e8a5a74f735457e20d58527d568bd5afd7ca1fdc,
  0x292c0cd6f9708c78b19ae4fc4605f357fcc9ab486500f74640e80afc7442a6f9,
  0x4a8d22e40d57be9b1bbaec538a76adee231a52a2668f669e8d217f8c7e7005de]

def cA98 : List Nat := [
  0x17458ef68f85d83ad90756f09f5acc0c13920aec31d7f72eebbc0f0012615eb7,
  0x341a6d8682c36b7d254a68135f4528490e043366cb8345b4a48ff3bdc502b3ca,
  0x22bb684e3e999e13c92fdb220a2af0b325f258884654fa13f794bc5dc4dfb426,
  0x51745aae3f98871707527b80a23f9c544108bfc0eb20f599cf42aaf9d0d8f32d,
  0x14d44a60cf9c2a8c5d00ebca69bb3e0a725cafd4139a3620e567b33521f4df75,
  0x6ea82f74df9d537e8071102c339a3c4810ba29cb770631c1f161c3337d2a895,
  0x1c775bb136baaaa785aec8188d062c89d716897dd38f1d6da914b7db79dd705e,
  0x2dec10034ce0be86e27204cf17de4513c2e4757fe6526245644df4e5d7a1af61,
  0x392e96fc72a6154a8c27edcf51cfb57bcb80941aecfc2761cc5b16c8aac3c307,
  0x4524395c9a59901966c2bbd287c6bf3c76c22e4f216bbbbfb363ccd98f6ddf7d,
  0x4a9ad7dddb66c3a068f8ffb63d575954fadb24404c983f81860e96adace54f1a,
  0x3ebf2a9ac60722ee0a38ab69fcf273b3062fb0ae1340858a256cd3a0a6e4faa2,
  0x717dd132ff0cb0fbb4413c30ee093316ab9123f7c41823f11acdc6dd850dc3d0,
  0x375213edac5f31d3281510136220ce7f6e5f66a46a4bcb90816fcc28148dc699,
  0x685c444d241675bbe8325b329e68e42463e8f58e1aa4df341f41543b9ed50273,
  0x5436ac1b2a8a684a9fb8701c4328b5c7820988bccc7fc5187310651a5c86d886]

def cA99 : List Nat := [
  0x24b8282d8537b1943809a80a5018f526356a0e659288c60b0158117a32ee0dad,
  0x34d440daee6499f8983e7f529978543ffaae54ddca142d6384cd3200ed9f00bd,
  0x42203b5e225ee3faafe1d5ebf469d59894ff5fcbb5b33b08c1d71f0a380022c9,
  0x5c545c663a9806acd1d0b6339eee0dd6352cf2d20640b87a6ac219ff4dede8ab,
  0x57da1cfb110551d977cf5181ea0675ef94a368765cb8f23511aa0d0cf4053a9b,
  0x39c948ac50d2dd8687305601240feae7756299ea2b27110fdc7212b5213a9564,
  0x58f2f8dbb4e326f61919cc9f2f3f5ef13e581ced0291f6fe541930293dff9ab3,
  0x42e1f2da1f58c5252919f9c3cb0eae0fa2c3fe029e94720f7483663b627cd342,
  0x1fee4766a819e105cdb7c670898b093667b8d3b364edd4d8a6b8e69ccbdb2614,
  0x64ba36f760dccb17d43c4b76bf0e81e516692d5eeab5dbe1df796d81a3b56648,
  0x1899ba9a0bfc4faad64ca327ee83a9795389bbf5d541c1ce9ac63fdadcf7e6d4,
  0x528a5a546b51f67116d6a6259e1babcbb07fe63523a39ec360f3e54a0687fe8c,
  0x5b3aaee65f7da5e4ead53cf516fa6616fbf29bc0d95de65e18bf4098b3de0cdc,
  0xfd64f19a8d851753eb8b328009d40278f7b086a03de3f3ac18358d0127fe5ca,
  0x5381e70fe63dbc03dca0985d2700595da40354e87d9d303582652f18c9c43acf,
  0xb2284aa98f5ed02528fe607f6198ea326efc3bc035fbf7843f135c06b512ca]

def cA100 : List Nat := [
  0x10b4caae401cd5d74b14bdc543bed9e3d726ebaf6f5088dc33630f9a389f0c3d,
  0x7a5479032cfbf267a23bfcd81cacef772bb1744f87091d25e9404a631a0c1cc,
  0x363fe783cdbf63cffaeeb7084b1096b25be9b524aced0a33739c5c1de085da00,
  0x340071c8a5663f481effed078b7fae3df26bff61aba6239e212f301fc00443d6,
  0x3dd98fd746503dee8765c7db6835bf4c86f94a7a43e22a34798f54ede08e0644,
  0x58d19b66dfcf04a3bd49f495817f43c849b8b7ef948f05daf06092bb514145af,
  0x496683b2f43a7f85ee7403a871d3d1291621f62eba60d343c48f8f5b55b94f58,
  0x44b1e425ddbef99e3a3d13ce8219706c12b4ea7ecb0192ec7619ade8d179e86e,
  0x4fbb47eb6c4ece68e7d6dee025800e351bcf49b6ba1e183131c4a8650f10d7ff,
  0x491b39562165d002e04dd80cf9681c870f227c96bd3f2b25cbf71302de1b6442,
  0x443e0c348a03f40b5d0efcd895e87ca3b272ceb5d1cd2b7ae27311d2999db644,
  0x53317eed1a6f0b6bab50e47c409ecd5186cc9972f54fca01cf64fc47bf0fdbed,
  0x1bfc2b71366fff82afa10473f3a8a119fd2bac7901a6123e7cbeed065404f065,
  0x1caccb0e568af5312f0dab24216816a6c31399019e38a21f68213defaebe6ef2,
  0x32fde99390be415a6b574d85d800c917c2a203ef84852135f0a1245b2ac03b95,
  0x20884e1fccc2da3463794365bf08a9c73d5fc873dcb71ceb5e69cc171f287d13]

def cA101 : List Nat := [
  0x43501e6b13ad7a14cc59f54118fd6f584d4294ac23856d80bb5b6ca39857e80a,
  0x317272a197d0540d8e489459ace2401573b802d3e6b55444d2256ba1b2ece6b3,
  0x144f2a51a2c0b25326bbe05730dcb82288ed994390d3d5c10305f4dae6e235e1,
  0x150616346a9a9eb3df639312fbd8afa0bda0198c9b43d1e48b03ce8f77b277ff,
  0x50efc32332dce6f795a13bd62bb57a958d0d112d3464af209a2a2c725f672f03,
  0x34354433e545beb27a546fd9ffcffcadc3bba8156f834cd9827c3a927beca3fe,
  0x664ed09ad64eb5928fe149063b126ecb0994f6bc9c2dc89bdd00a4b2b2bfb786,
  0x53170b3e4bb8d9c94d98f696293de848ca11b261118d34197845f0f1d8a209a6,
  0x43cbe8316b6dbe3e124eddf266aaea8c6dfbecf361279aeb33aba7d39edb3e9f,
  0x10d72a1c04d7bf6fb32bf7f834d991790b0b90a10c0c0b643bd129ed389a2890,
  0x14935b5431894c1caa2b22a41a9b936b46a0540b7a303503e80b538730abe422,
  0x8a49e0f1bcba821b540929471d7e92b96afd144c59501581cdb99be4dd5325c,
  0x4c5c72a60749745360cfa1b157d6f1161c549fc21e1c5bc355b017287f3b502,
  0x660951236f93867b1dc646af3cd529260191fbc5e0a5076a96c6dac65e755d0a,
  0x37844217dfd0d86a87e003a5d67c1e1cefe2facc7ff32828d64e7819e0cae383,
  0x4e16780613715c6fb8a71e978c4ba1c15a9b4fa10ffba2a5e7a0e9900b7a609a]

def cA102 : List Nat := [
  0x58d34d42001ab5a36367820cd78cfafda92bc5b757ea4329257a565a33880692,
  0x20c14324cea2bd4a5c2771ebffcd02466b29a29ca33c3d8abf274dc9b4405db4,
  0x48ea6e79247affc3861dcb09d130348c58a53057c725d81585b0d294fd2d9b45,
  0x2f75644491ac8fc80a88d6ea0488a9fdd6a820b6340e684a8f1c910b0136017a,
  0x32275417b2bd74ee5c2d32ade59d2ad3a3c8a2dc96397435d4675fe3e38a3dfa,
  0x5cde8eaa1643018ed6f4c3858a10f9e6bcf95f50e1961a34edd36040ce97b4a8,
  0x28562c89190db089967ab325922243a17b00476ced3d59dfcc4515bb7136b58d,
  0xe9c1a8a0b7a13c818a805a7da967a79ea42bf8ed290a0ee88e38e5a6d571a62,
  0x44f45f3b65f16f02ca9c9f65cfd695e695ff427a84027a6630466b077e72597,
  0x1e2faf90a6115c65a0e13059c5fe69393205e855483317bff0e3390d341b3f43,
  0x578b82b9c183b4553752cd94b6b019175b913bd305a5e928be9ff314da7a6f15,
  0x481f487fdb4f6c094cab9cba6be74581642117716e53bb5fb90acc2abff5217,
  0x33f917f814d6e785c77030f1163cb10cfa4d1f772848ccc3a9992863401eccd3,
  0x1b1da1c98e34b3c14cd0bbc71505273a960594d3d72e7d041c8725b97d968dc7,
  0x5bceb79531f3e0b2043242884204c0e201116f7093bad23264e35395ca31a3c1,
  0x4247140fcd4f89c9ef8c88ea7bdf37ad23016d4315c7055730896809196f1828]

def cA103 : List Nat := [
  0x636df3f0601e1007f133ad9e0a24a2f4344f55f4ecbef5bd9d17429b4417a88d,
  0x4f55aa2653279f2954a5b5174eb4a7405528e40a409f9758c4f21f5bb56b8a85,
  0x48ff2ab54fe98f3104655f271e0b5f411c531a8808c9b50fa91926eb961de29f,
  0x2b7cba1d1beb48881b79ec8ae6a9cb4be2e5a4a24121d2d1b05e4099961a0fe,
  0x485ca9dab3a02c6ecd5ffc8ea79fd07fb355c78437c349190d6b500634254989,
  0x53c5ed5c7bbab4e481fa40b6a4a665b31fef5fa48cf6b06765d38fa5c2dd4f85,
  0x736f615e5a37b42692f2047e6ae238f83b8814642ade66aeb949ab0dab975fab,
  0x9d8a4d9960491675ea4750af47d513a2dea8729aa724acff40ae1124980e063,
  0x52508e54e6923b77eb2c646df14ebdb5c32e9846ffc07ec59750bdbc08552236,
  0x4138c68309c9fde8696fc54864cd7d8093d7ca42094838bab02d6cd0bfd27e26,
  0xebe62433c2d581d6d7b5fc333ab5dd6a6940a0133252f6f26032d354055be18,
  0x1c1bd9a4902ee18e1bcec640cc0b5a7c0388d99cbe6f1ddefaa774634e69cf5e,
  0xc2865e1228c4c6b458752fc70eb705d780cf89a33cb9c9f9818186821d0e982,
  0x3fc2daf06b4aff0f784358ec43739b832060f21958fd81fef3ca3e6b5acc2eea,
  0x439723d457012cf3d1e350da0e37678c9be40f5b2d406c84588c296ce901e507,
  0x15508ecf9d9b27a5b033dcb33e298527a01b30a1d4887ea9c89d2722f3e2e9b2]

def cA104 : List Nat := [
  0x1864c428836736458764f909e6098249381cb8d1d79cbb5d6bf3ec5093331a37,
  0x116344000cd7d1d0b68baed030322b649dba51aaadf04a9605e640aa3ff81466,
  0x55b419946ff2b16b7ce56b3677b8a01d7ada42f6393c0c42d720cc72316a4410,
  0x709a70cc4552e0f32dd8ae83f9f3741d9c51aa994a35494599ef9689de699b98,
  0x3f970ec800ca55a67a1cbfcd7513de39e422df6b07932f752a503ad6444bc6,
  0x5afa88d695b28598984961a10d415e68dbad3fc14bff319c1dffea498d281024,
  0x2293de83890120b6e1c8b48ab28aec9f8e58f3066d17f5192d96154bc404168a,
  0x8a4f45c67c9da7a1a2f888b50329d24f9f245be368a988ca342a8e3e663efc,
  0x2e4e6f7aea181c4ec1d0eceaf8e602b4bad80c09cceff2b60291dad02f797e20,
  0x30d4241eb4110cac1aeca84a57159b591debba8db7d1bd7f969bedabc7f56d73,
  0xdeb8a4bbc41d874bb7c0ff0deaa0729858efbe7a88be6b47d12d6d2423dee1,
  0x6561ab0310fec5376181dd0875d1a249f04081bffd49ae03484932addc2965a5,
  0x4b6c2bf83d136d5c4ce70ed2ad9fe82f25aae15f05658336dfbc932a7e5441a4,
  0x65dbd105a10c2b2d5bb6ebc8f36dc9a99d09956d7ab69ccd7a897e6383786a3d,
  0x6f951bbe6f55ec6ef364f32bc99e6113ceaa0c2bbc1e3e4ce7a179fa1a7c7b7f,
  0x2f2f2b62b6bd456c84e15a7c22e15fa2a6494210ae26bb45f8af89d70f34e3c7]

def cA105 : List Nat := [
  0x4f75fdc0643a040a340fa75463e4f71b7a3bfd6cd94fdcd15a3520c8156748fc,
  0x6c6448db3d12653925ea8feb9aab45a57fea028e552bd65eebd16b4dabd7e7de,
  0x2e2e7abf32ee86a7109f10b0f7fea31db6db125cbde3d000c0fcae17f2dee84c,
  0x3de017fb1f182cd80e46bdbd0b7d3bc1dc47f000b56cad7f51b98a1b2916535,
  0x18a96327636b4553e4e1c750b269c78064396d96d336c3dae4604740c667b810,
  0x2a792d6cead2c1e46e3a727e9ae45ad82abfd78af51dc1653f7512f077f5d19c,
  0x3e67d3c06a6edae993a97b63edfe3e362c5ac4718c1c27312201f41d806ec24d,
  0xe990c4adaad146106a6476b4db9909dff750c7a960d02958aa5f6ed7d24ebc8,
  0x394efd99b9f5a6a6fa36f141dff6546b5f67de8de0c607de712c20b7b24c925f,
  0x37706ab3ddcaa50dfefedb32d6ea58852b4476c5653acf087fc8928a3c1d4fbf,
  0x105b132fab969927ce6f2f8057a7d07f10748f20bdb022b6ad78d9fbee703668,
  0x471c00e8b9c83dc7d69564d7ba3f30c914c3bc3368c491cb379f4b6c2a1968ea,
  0x5819ec14962e50fe8ead1a178a29df4b2133bfbcf1bf15181ceef7fae1ff56fc,
  0x47e19a2695d27c1cad417123743005c4255938628efe9f94b682072a0fee10b1,
  0x2a40d0a329dddc68991b4c4bdc4c7034e590b866abad7963288a87f3e2cfc13b,
  0x20c8627a911962cd309da5996e0f954d220560ee12b481c795e213986699d861]

def cA106 : List Nat := [
  0x882b8e0b2c8fccbefb09c77b3100edadcd7f5a3afbf60342b72ef76520b2441,
  0x44db4f58a70d7996fbd277bf45fe2ca9fb185ea6a8edf9a053b69220bad741db,
  0x2c4fb5ae92d56efc3e32f491bab0788cb444ee37e45ef1cb29598fb401944641,
  0x3b176ef7b6e996af15720deff83e46fa902c0785e3889b54ff0e44c11a083736,
  0x446ef3a94196e654f8fe43910add23f02f0063f91441c20afcf99f34333605be,
  0x350b2793d886873b68ef2cce61e469b128fa4ad030dc2d689d7d49103f71b0f9,
  0x72f1dc31773c2d6d9aad774579932712fc4d9f905b834feaf1fe5dcadd4a601d,
  0x4b2423c8dabefa8cde638850eac9520d6a8edc2c823699cca1153f169cee989c,
  0x4ef3bc20d5d9f408b6c3e3fdb7e326f4cdcc8f8ad31fbec4ba2a87aaf6519b46,
  0x62b401ee2d05411d830eadcdd2d659681a5c22897cd8fe48bdd8460c552041e1,
  0x64240521d8ca42694eba4cf44220bb28a7d2b1774a57aa7393e4f13a0258f0ac,
  0x59bb194d23a4721f685edbd75c95b57b8a4d435b8fe008932276454a4c27b576,
  0x57083a62dec1a4b093ceeea8ce1c3c4694ce49365a511ee2b036982bee7ed487,
  0x1b0f72c8ac124e3add2aee0424392dbcef81a030c4bd27c1636887be4af0d1e1,
  0x54d8685be22b1ff76f4bf2ac6cd32b4c6c430de72540927d2b764738ec8485a9,
  0x3829597a1e82c6db1b817acb2886280217bbc4d8ee28a71232adb9596c44a4e3]

def cA107 : List Nat := [
  0x372488467d59e0c631d13b1d46fed02c625158466aca6d8329ca4a79c8155235,
  0x4a108074da393e47753a95f7c64b4f54830a7154eecc1a6c6e37f5d71c7e0b31,
  0x67468efbc904c1128b7d851baa495e1a49e81abe80046754789caba492e317c6,
  0x6a2e65463ae5a03c56e095ca65ac8247e429a067f0fd80af0d55e1bb6ad847df,
  0x3a0cc7d594346a1d9a4cd15f9964584c2e8a54421422b2673fe69843026431e6,
  0x111466ad051bfe62e3eade7e76588cb26ad0e8792cab41db04db3edd0bfb94c5,
  0x71068ccf02548c0e702b1faed2de302addf31a5f7070ce1a2b7937def9ab29a8,
  0x5b0495c3537ab7f3239f3d261ee49a1f0ce05f19e44194e348be0ef4875d0805,
  0x531760acb5cf0c2e825e06aefc1292aca20c4271c20fc72e39394e5343e64bde,
  0x7367f42ad29474f8f2896cd02734188249497c641bcb8ac3aaee0a6d51891759,
  0xe8ff8e906dd7f2369f0e4a1cdf0493e0885c17e86cd13aeb6b7ddebc35986d6,
  0x2cdda28598b9bd887942535911d7bd8051b16999b7191da4debf50453f046266,
  0x4b7a5a3fe27e101780c1822bb3ab91f3851edac8646e318c0b04010334dfbe68,
  0x29feb354dafb26271e0cba55a9f8e08df3cd08eec4fbd5bb63682ea718a99841,
  0x6c9808011f0fbe82513f7591d305d8650da8225882ebcfe4b61ffb56ae952cf,
  0x4781d30ddeda4f1be2ac5d01eece65b76e43256eb35879abf03d465d42cb477d]

def cA108 : List Nat := [
  0x2a409203a22eb811779dba3c2a5a1065a6de8c7106fd352b8a48d28bb6f168bc,
  0x4a417b6840f07ee625c68dcef4650fa67de07ed0879a09e04ecc8c4e9c1030ce,
  0xf8277bf4bda607396f5747b4b3b56c9f6744eb26e4b3a45f867ed4bbdf9bd48,
  0x6de40f60f928ffa053f1a5fd0254c7aeabab19cf40fb337f6da2c15c8c8a087e,
  0x736311a174789943d471262f7282277d2e36fc37449bd9ac640d7ded1633f8f,
  0x56ba253097d3a418e94e8327065085727dc0269303c7e7733cb33c2ffb1fc5da,
  0xc686b424255fcb2604f02075fba0495b73d0ccf65ac45ff4128dd6a515f1ff4,
  0x62c2d8aecc224d2b9b33dcf20c28e94f82bf338952be78853d4abf7423d099c4,
  0x59dc38034104237e630cab8f65bb2bb2dd5adeb0f5b5447f87d2f0f51fe9950,
  0x4acbe8310c0620baace8ce4d68e12dafa68213e8ec7fcbfdd7233c2865d7f650,
  0x60865dd5301ea9ce33ca0375e7ddcab5155c80da51a5601cc0edf2632fecf3e3,
  0x25a10dd075fc19d3eff934148f4e8b4121086b64bf2b1b88d429bd8e88c9e626,
  0x1c0167c05b8afbeb0d498b6124323642e7a4b56c27e5adb8744d096422130b62,
  0x55957ab9939e74d9c8af0c5ab1d31fdb4213f4694ad8f3eaafe9cab4c36fc60a,
  0x61fe5aec4995136e8c1bf472481ebebc44cde5de7f0c5ae057c43867fdd03e7f,
  0x5b42a147162dfa62a4fc82108f0e9f8d09600f9dec6c643fafb241fb2036b67]

def cA109 : List Nat := [
  0x3559a35f96b1eec72f6c2a2833e3be348e0e46a2e85b5021ce9d010a291b4b64,
  0x638c481d335ddd95a8ab343f1cf2763726e242951c137acc2337250e61233f09,
  0x1571161089041d137a5e3c31e4edb279d1e7a5b08687c8e3e9a10a2e798d9533,
  0x371ebdbc194d6a6448b597c3fc174fbbafe47125d3c063963b3c8b703329cf0e,
  0x485b82605d435eed682a91c236fb04ce6237fba6845936d7581a8462399102f3,
  0x354bd7870327e183622fdef47148e8e4ced74b1b37032fb467200b68649e78fd,
  0x56de6d0b5cc03f2ffe409f4a27735d2e6560ae601cd5b25b05412d7b76572dfb,
  0x7287f32b38e5b60aecf816983997512dd9b70b4efb5b1e35f9991087fde0c4fa,
  0xdd4453ed1507c61c1ccde463878f4f8d030981bf5f7779a5431f0254cf8db58,
  0x3580622bb06f638415478dbb28e77eed3f28ef68488b88d31b6276ac55548e4e,
  0x28a283f57ed508561c0ab62aefb67d9170fdb6d20c697ae09dbd6fdd53437a24,
  0x70c2d04c44527e6d88f89f0f29ac70f33793ba971bf60e5a93d67feabdc8cbe5,
  0x692af78fbba7f8d5d2b888263b2d70ff44c69bf56e26b16d6bb52ac89d0b1847,
  0xc7e05c4e8d171c5c3987cca90d3092c7e598209cc7a502f170c5bde2a7a2bde,
  0x61a15ec1f0969b85bcb6392b062242633dc5961cfcdb0c88ef1f330b9d937fd4,
  0x3fedb0ca40449fc62be288308ce1e57b96d1c5bfe85df5e135861cd546b62aa1]

def cA110 : List Nat := [
  0xc2079ab3810a2c5e315d7bcf4cf109184be9096ce535ed8d2a8e45ce830d7a,
  0x3d4913a75660de1b9284cc86985a1516d5d3ca2052cf5fd2a9ea62488a165fbb,
  0x2eedf3ebd892fc0104c0ee5a4c9801894cfb48bc3a5fb5259d90880808e345d,
  0x27fd27f689ad1555e00891ba7e178ba9884249c0149708984238b2358b38dca0,
  0x348d6f70eac8cbe8e748d3e7b48f35e74ed6c001ba2d8a6255152b3ae780abf7,
  0x437696fadfd695351b6bf3835f008605774b65a106db7bda10d32a07b18ac244,
  0x18d69500f056064f9b51b982180926827129a1b2a369c0effbdad7c34a907a6e,
  0x586ee30521457b32fcf47257465a059cc81ef864e6a57e34f4a9afd0b7a1c79c,
  0x48df92b20fe893418b110f0fe4006a0bf518ed43a8bf1a8ff85fea7b92696a35,
  0x957279777ce1aa76cd0669c50df6a3bc41470157835924cf3deb977465e0581,
  0x4cd5c4087f6a86c0a6ad71e447d68395e6282247c920a99e4497702b6acacac0,
  0x66f2de97aaeca0e278a5ba6a81794ef52c319338b631ee7258ee1b34cf131dd7,
  0x5c6fddb6f7f490710c659fd422ed6992b98e8afda53ed4ff1301813299e2e4de,
  0x6a2a314ca816ddf32eda5347205b6e32a8a00d00e4b020f160a0c722a758a1cd,
  0x5b8d83eb23414bb582354ea21002da392bf99b58a79964809ebc45d5d6ce42c3,
  0x67d5fb0e51ae80b5eb05e18787caa2162c10268ce83be063134740d33bdcf4b7]

def cA111 : List Nat := [
  0x2577327e5743decfae8f9f0adfb4b9d52dbd87d4abd3843ea0d38159a464732a,
  0x52b2effa690ee7c9bac6639c29e8b7ccd0d57fbb9293dc536a3c847abf78bb33,
  0x31b63db135cdf7e208af6c8859c7327ff71fa6efd031cd85a95f1fe2d3712f99,
  0x1629e8ebfc365f28808115f9d70e8a8fd43e816206cff5d3da8a69e3228d4ebc,
  0x3c8af03a3174f6f3124560324ab4e835d60b8b8b55aa41b8d2c821f1bc4fda55,
  0x57a021a72a81c15207f6dfa6c823e160d270dfd4cbe403c63fd187c874c54a,
  0x214b38a407cc3a144f64665a761fa14e7b21d84126a2c5f18c6371d1e282ef83,
  0x7a3c84bb514cb43575069ca0df99b57c501a302fc742d579adbcdf1128752b1,
  0x4ee7c976fff70a2cbf4a6004413eb5358beff362ce0e13c8ab34ec74283ce5cf,
  0x73034c4ecdfe1008efa829e38ff667ce7f53f841e6ff1fe2eccf34df5735f878,
  0x92dc833a5ca529db79f6247614f822c069656b67c9fc08a2e27fb408952c673,
  0x5143d4eccd189d97557f6a995ffd27d17bc9d9a0d0dfe679e09bb8a2ff3d485c,
  0x1f09d600d9e8bee9473c340d0f83036642805868f60362108307e2148085cc38,
  0x175f5a5dab59d57d70f57b5fe7e8c3cdeff9b7f12a1936cf31684e0113c35fc5,
  0x2987a6dafe4c841e86b135f2ffb24d8dbbfbd8c965221feed664e921085c47a1,
  0x62be71d4bae637a592debecdd24c313dedb18156d37593b859763c38fab0e167]

def cA112 : List Nat := [
  0x12796573d825d99587e4dbec64ea06529f20440f03a00c0fcce7f847c587dc09,
  0x28d35b2bea77fc0b891e13bf5ba00b63891fbc00e5de8168c5f116ec94a8e11c,
  0x733ca4b3e7a236c19a8982192f5084730e43b84a41331030a3253a5254e0d484,
  0x67e0751b8d22a6d78d2b4265df8369720e19df83fc5416b4a0f6798a726fe333,
  0x9ce1e3735e796d13bdf07953288e4c997bacd152364bc5338179ac9ecadfa3c,
  0x2fd18456f54a3c6fccbd59141aa347906cd8cebb64814b0e039f498d032a7e72,
  0x28a391c994c73d8c2e71189859058cbbc725cde286d32bb035d7277ea8bca082,
  0x4c4bfadc2b64457be26d320ccd6aa9fdd93fe81624571e1b5c068952d820938e,
  0x37135b5533148592790cbbe0dd320656c2a609dba3a5750e2be05930973dd148,
  0x2ec76bcbf899256221b1d9c1b4212193c4e66b7f7ab75cc8bc22fd78a16d327a,
  0x59ba3ee0ee333946c5e95856143d47cf1a6e2a018b7b85e2d8537eba2a150b46,
  0x5cf4ab19c734e2eaaebdf0247fac7c7b8f34abe4c9b6818123e649860b40916e,
  0x29443cf035d08fcf2b2f1f6860da1373cb09225ca52cff3696e08f8577afd89e,
  0x37ff3f0ee0039f8aeb4622340b6b0aab479b806ad75e1e6152c23a59870f7353,
  0xb201bf51e2b1f3102de79b2c68e1dcede6e296f2e7843a22893a5f2ee581361,
  0x68d4fe07ce927cb0c3cdb33e3d43a4ccbe2fa44adcacf0b026e81ead44ddce4d]

def cA113 : List Nat := [
  0x6b46667057ef78b6ea87fade9ded5a8bbcff8fae368881d977b4b94833b6945a,
  0x5cf3dd27836fabb1f6f3761d4b1a1891f40be62349b78d8b990fe8ba47bdd09f,
  0x6e0a058dcfbb7c34b2ec9cefbcfde6066f960c6dfa252731b90b0c2ff17d2788,
  0x601f680505aa923fb2765f66748c369c890d6c97fdaebb8fd5ea069c4989b705,
  0x5d4c5297ec7bec8fa2bca2c61ab27a5966f67b87ec967a294ddb5e7df9507842,
  0x2239a4ef1d9d12d1397aa0426d5c3660514d48fe92eeccb2a8c41d52aa009c79,
  0xbc4ac6b06f3932c6671d885a77271ea0215b62e2175208927cdd62d5b22f906,
  0x125777b95c56f7e11aafae45d0d6268940522867eb14b2266d87224b6b37826c,
  0x40f2c8452d3e64e00974456ea8b1e71ca174bbb9738d22ad64f41fec8cbf0775,
  0x40cfe62359f082e37ecef4821091778c485035bfc8f9b1f7c19fbe218cae8b01,
  0x73116338fcb8e285ce0534e6edf2d83a91fb63307fc3ae0966e3ee85345ff53,
  0x6da261144d82ea592e3ce15086a5b33cd0582072cf249e7b367a40f07df38566,
  0x64429370ead6db34f193d3ea5188bfcb0c336521af661b6c1259989371524e31,
  0x3430d636c8437685c57d6dc9a11a36aa3f1c0bc578fa0173bdd02c7700956ed1,
  0x62b7bb8a17037be1bfd747513fef0eb2107a42f16310a20dc9b04b56c998ce6d,
  0x56b202856beaabc8365f2d59d9b5e6714e9f7b2ae8177d925ef951450f9d221]

def cA114 : List Nat := [
  0x496c2d778d0905989789f07ab8d3886bac85cd7ea937cef1e9c1260501ccd140,
  0x9d266a4540ae3d6cbbb0449991eef7c7de27176eedd0b707fc40fb8f9f96cc7,
  0x2ebf39c7ba9de839cd747538ab03d55996c3f6f0de5c698cd5de025f57b3b1b3,
  0x1ec28bbce01f8e0a2c1b6f9386f5bed7cab7172bd30cedb5c5b94dd901418bdc,
  0x37db43b10be50d2fd9abe197cadb867e66ce85a00fc568b174d8cfd9dd1295eb,
  0x61bb6503f3ff2dd96173ebb315749e235c2508a99cd19970cacd6e085d296c7b,
  0x54408a7bfc8ce1f0f8ee6971e4f8e21b1535a5ba3ba160c6f9abe2b1d6659fcb,
  0x6f3d601164782414061296e44904666024e11b4bac32bd1a212f2780c8ebda5f,
  0x5bfc867a418a68724ee8e57822e5628dc40f42344a0258bec4c4541ac4d2ee05,
  0x1b60a15c9757cd7cbb8a84ac4b7bb2d4fbb6bbd4cb2e451de8233d0b5b6edcbf,
  0x5b366817ae261bf850cbee59abdac0aac46243d87b1a562fd70bec4a2afa3dd9,
  0x4f6cb84c6d829996ab2b76457a1e70a123e693cd3b0a3bd4dc1351dd6cd28eb0,
  0x5a9d4054cde515c768f51ba0e8d2faae85b27cb8d9643753c724b52b2def5651,
  0x560c70a9d42742b806598b4d63fb0a1556e0312a04afde050ef5650d0747f83e,
  0x701d73b9532ca6fea0508a0b0eb0725eea23cd88b8c330642abdc713a07be572,
  0x39d7aa8325df2cee930693617f9f0580f4b624462db086fcd27a77fc5bbe01fd]

def cA115 : List Nat := [
  0x298411c638e76e2ab26ba3104a6b7d22f321400b1bbc8f6b3f67299438ffe8de,
  0x2e5cc19c65176cc317dcf75f70f6d6de2603ecf9bd6dec6d1e85df8b9e81fd59,
  0x658a149aeaf67c98c46856a0418ce22a372eb50d6e3c5edd085a43afcb41e806,
  0x2572027c23c6b51fd5cf9877e647af404fdcf63a8f10c08a53d9faca539d3611,
  0x150cc2957118c2367fc454d13ec40e2479f6f2446acfae37056cfcec7c01c4,
  0x1640872614d3a7c46cd3f41f8fabb11d37864af8269f2288f13f20ce5c379e36,
  0x553a544fa5331c8cdc6ab6c27e751825cce297dce7ba0eeb4e142be611d95271,
  0x453b349220f8c8d12a0c5703e459354657eb925dd364c2ae3a44e782925aecfa,
  0x4e35edb507dbe5727cb3edb58934fdcb15aa50e645dfbdc181ff8cff5d1c2a6d,
  0x63914391ad297550befb58ee19a3febb4eae5d3c6c9007b6e615de05c4e012d1,
  0x378fee6630e16db5b1cc1781a986d52451d34493e1d0eee379e7c47c25dd92d4,
  0x5b454f8f58470ce363698014abcd3670c35e6f88182c89930620f00e55881a0,
  0x4016164a2fb72c2920275c3df1bc228ad9cad7e67e8a95ce760076488da3c076,
  0x1053f79507fe7f80d2311f7e6dd2454d79620d411593d573d4ecf9f7ed1b1efa,
  0x5ee368669ae0add6d6d5fd9fe34ecc76341be305e672795f0300b1085175983c,
  0x2057791ed519b824d0376b06ddf1b3baacc9d603118175a22b0efe8b34ff4cdc]

def cA116 : List Nat := [
  0x417b329d383cdec4ef441f5ac25d54006b2bf9d222dd72e4eecd941e02a8fb47,
  0x1740f435902e0964d35c4600dd9c77e479a70d8e97ff261f1a26014cc6921189,
  0x2da2f29b112e09dc2da2af6dc77cf068607e0110957ec32b054f9070b5468887,
  0x67109995a67eac553cccfaa3814c8ece3d80f701e642feb365d9415170c9bfa6,
  0x1faa99eebf9abd97828f5f952302186476fb88db925a400a9c8b3a284876cbe7,
  0x7296903481ac44a3afec399997fb33837bf637bbca63bc6a68a7a73cf5ecd0e3,
  0xbbe5d2c6857e3b896f8b9394810431e8f13836639a6501d22012024debb257f,
  0x591cb59cb02d9a7008d31c72c79964eb1ffce195ef9c1aaae0fc789a93b9af3,
  0x1d53ff1ae9c5783ab698e1d9440700b2305469017868f6a296ff7a3f268f9b1a,
  0x6f2694259e7466feb6eb90d13abecde25860228ef89b326afd105c41e6e89157,
  0x46c365db694a7ed1516f0710bdb8fc6198047b38b187bf233dad48574f64432a,
  0x6296dcb40979b7b000653f6acc9aa41107b67310d9b7bfa3eb8cdf98ff96705f,
  0x870d69fa025b633d0603caba1c66e20ef4bfa437deb5d79abb5faddfe37514f,
  0x2d0b4c6489fae065a57aff0509563290ffe4abf08285c3de9912941277e75a28,
  0x5f6da432583ded1a511d13594cf2ed752f3340de27cde7a84ce070c3896bd0ca,
  0x6356a3741570527223aac7cfb2968d6ee611e6f68b124b9392d563be845a91ee]

def cA117 : List Nat := [
  0x5ac1de0d2804b66d812d851c797a9c93322f11b5d1b05084dc6998725680c785,
  0x8ae3d5cba42e64bcd347b4a63606f25554e1f45e0554f32a517b9a714fe045c,
  0x9b0e786317d38f3a8f485b3c793c6f014c2b284ba031a6aefc380d4de106830,
  0x6569f3378fa6dfa1a691ba11909c9dcc2dbb911a90a0e0b90ac5ece47ef029ce,
  0x49d9affffb20775acf9fe556e3352576265aa097243abd52b4ef049858c3aed7,
  0x1734cac64e8a034cfac06049326ec8359d5230611178662031a98d8674629759,
  0x65a62d2c917fdc4116efdd83e9f44f333a3bf4dcb09637939bc8632091c0f448,
  0x407773a5fd0f8114abaeac6a94dd32b966c25e11cbce1c3cfec529dfe92df8d,
  0x38b21dc946d7a358d42d94492bd29cf30d272d00d232e030d6f1836a54742851,
  0x1c6b3560876a31a51e30f840ba2d8dcf0ad7531c6ec8f82740560cdbd6f28b35,
  0x2f9607ed0f8179df0aadfaebe61d4c9163357e964706671fc637e6e517055401,
  0x1b50a4aa4fbb55e5dc55b31f981264f37dfd58738fe71b8b07155b8fd5c75a8d,
  0x234376090ed94ac861a4422db69594d2ef8c989716a6da760a61695fa11e6ebc,
  0x2487a3576f4a2c324a19f01f03f6efb078b4c0c4fa3f60dc34a5957f20845654,
  0x1f5fc33d57ed9e17fd26438cdb7aa674c2dba5e53dad0a9c0b0ed610d6b67948,
  0x63d8a77d794885b56db6d05a3b0809487a32794049ec01b18334a714f28814e5]

def cA118 : List Nat := [
  0x2c28c02872c1ab82eba2f9ffb62af6ed97431e00b9c3a906a8adbcc44dc07449,
  0x392e21743290e6a04866b66d2c3c0b4dbf225f788babea681e13b6ea51c76488,
  0x60ed0848ab24757ab83a3458c64c50792205e49349b4f99f60b4992debff47b0,
  0x6aa9b4035441911250c7fefe9097b2dbb9b1400453c43a7ccef8ac1197db04f2,
  0x58f3530be7e17d184d7822e3361806ac5beddca0873597c3b338d74902955b70,
  0xecdcdd23d5116421a81f7c62572c23208c1844d985f4cbf49c228bbfb5e7e40,
  0x3b655a0dca219193423ee4d257694ad82bf83091e6bd33776bb1c4371f59158a,
  0x692d0de34be64a88cb81a81c056d4990a293f40e6e7d25a5f13a0a9ea1af1418,
  0xcb11c80b821ac925c8f938653a7c73a8631f6f41a16f57221784ae03c66017f,
  0x6f4e69957d58b8321a02f89b9f7be39579eb840067d80a5d024bbb0fae360616,
  0x3abaeb275bb7699c68b0bb87e4f0d621ccd569fa0a6d93e4aa367f85103aacea,
  0x5a007f81f5fbba55ace1f796c7d53c34b1d484402f21044f4d9acceab50ce4cd,
  0x4550a9990f9d70dd05b654856df9edf4b3a4028ca5da9d99b8f0cbeb4982c26,
  0x4a084b6bdded0e2ad4e893d08f6491f746fbf25c7b4886e69c301cc03a0e8517,
  0x6debf8283dad524130cd20384448222f3e871b27bd080e7337a2aff6592a8bd4,
  0x47dbb570d592032826ac50d20624c6687d95640319a2ff1bcdc61da121693107]

def cA119 : List Nat := [
  0x3625170169ffc4c54e06cc92bf4a9ad1a84579f906ad028376a16a9dc6e95d09,
  0x24e5083121fd2cabef7f5739cb3ac5efa8865bb2fd1f19a8d0104cee58e11f50,
  0x6babe93f0b8a3084b1e6406dd9aecda8cf1fc3b6c2800942933001ce22d56ad8,
  0x16bc22726eee459e41b2b465c4f196cb59ceecffe9aebbc375d2c786513995d3,
  0x5c65d6e567b05d0b44ef1c1eef08883e5d5f0f8a72fff00605291708c4306487,
  0x4ff2786a88b72cb3b2f8775de96d1952274f919dd802905e76ff13ea9a11bb6b,
  0x4a7917e7aea9b50626f407e1dc6b8b394397efa21e1f8d812ed594ee8e3bcf78,
  0x66c8c26e623699e8db996d3cfa96f8e1f32eaaced5a3e8d7214736aee1a8dd8d,
  0x3d7ea1c566ba39a0e48907a1912360bddcada59d43483bcc8bf5f2fb14cee9f4,
  0x1522749c47601c4abe943198dc627dd1ed2c94414230fdc75f128328b07ab655,
  0x5dd322be60c20a89a3d5d28ed20da4092439aee01185611d02d51ac52298a030,
  0x6049d24fc908b8aee7d9630232529c322e132e329b4e209b74e25c925c2166c4,
  0x668e82b39f045c773935b44d7c4be15907a8d94bc8e12fecfc24f4e3bcddb97f,
  0x2f8bb5bc3c53bdc1a6012f3bdf55f2b2db951de2cae3da904b6d8bd78e8aef4c,
  0x603d14346720b14da9d6828c2c4fd7d451fbf0ca4306a6d2bd7bf85c28178a51,
  0xeac504dd8c06b2e2614792997a83f26fd880397a57b3515079e188f66ab56de]

def cA120 : List Nat := [
  0x5c0ab52afeafd9847ff41c6aff340d0a8b2a838f10230445be9e6966c9f2ae13,
  0x2a59ec5a2816b9ac74222e35d01d89ee7d194a14952da32104fc98f656248df6,
  0x1ff7bcc19cb329acca6a05981a17fa75d2dd7026415c8fcd84e80c10ab8710ed,
  0x64ae732704762e2f78869780f7febf652e386cdef03ce026b1a2f4efffba22e8,
  0x1528c1841c39414ff541acf94ff29e62124055836cf081445cf8766a3c9eea4c,
  0x289eb38a3e53270519a1f9442bfd983db373d6ea93b0b84b54ba4e4533705941,
  0x1a3f2a7ff4147f1244e7834f0edd5726b6b3db66b5d76ca5d2e175633a2f5396,
  0x58af5c3a59affe49602893c15f029e958da99658a2e1f5b95d2dca2be1fd99cf,
  0xcf6074096d5cb03cc5310a9cc797fb48ce3af2e2928f978890eaa83b42b9843,
  0x30e92e5dd471420976b61f693b336e4b252a6fc9174b927db70455fd036087de,
  0x4fd2ebad8d39da87041974a0555f53fc24efdd31cd317274f960f0b526f1502c,
  0x46e5c140bf320318414513dbdb121c88c43aa5a319e29062563a81bdd10edda8,
  0x2b8045a2653512f235db0536df0232071683bfd3dfa09487bf9d0568904b84b3,
  0x199dfa1221cccdbef52730d26fb94cd40f10161f97f6f0229a45145a91c00593,
  0x4727ff026fa5df8f7c7557ceebb2c228c8b17ffc024404ccd18979782341418e,
  0x586c38d781be04e769bd68191089c985a7178e193f9432f2f04e36bb0ae212a7]

def cA121 : List Nat := [
  0x37925d53320226d722efaa5da97c9711ce78db6960610d54e7502218c0833c3c,
  0x6e02e61e5f69d656ee4839d10037a65768a3b2b6f38ee2eef6344463ba11f36d,
  0x28708cf2fb6ec8e02c20ec80c59da33cdbb5e0e4b42bc18e50ce7b0f2b8f1694,
  0x3d624a9dd43c22db6720ce943f5f59e9f1da22abdef6fc56607adf0541131875,
  0x26de4bf1b4132292b5dc374d5658e92c2ffbdd21c3b61bdfdf4e0069fdab0b23,
  0x1813b9d7e5322792e37359f6a50e10cfc51a1c8be5cd9269dc39ab1fd12303d9,
  0x1ad2d08502b2ad8c3adfb0c0bf985065eaaece858daf45c82f71b529a8dde1d8,
  0x6a716b9c43c46a65a28b5b13638d9aeacc597a1b335e036c71141afa0e2fc44d,
  0x2aa0814ceb87f4abf4951bfcffbcc2ee9ab8d3c4af4d5858f91e9fd2ea5793e1,
  0x3c13072d9c979c32d3f5411f98a8b5ede9c4e63b76a6bdbf59ec085085a72a5c,
  0x2a1ab6aa10e8a1faabb2636f6bf51cdb0b250ca659faeaaf74ae3a1390b58db1,
  0x4b772d6b6d3842b3ffd3ed104d3e47fda49c4ea9bdc1377e30ac9cc29ea8d00,
  0x52c81ed891816938734df002386af4b89692a92e099c1f314a5c65649606e144,
  0x1ef09e9441700fc83d3e4791c18898ba633af5352fe5e5b61372d3f90a48ca4a,
  0x2f4f968999dec5573221039281f141f9c43bcd30a9f52e3945f4ade9333f2065,
  0x3f5ae37ec0c60b270c488d70fd3c49a581188f1364761f9f65d12524630e9de1]

def cA122 : List Nat := [
  0x31d2c6e026669a9e42dc9689220f8894e34af23e4730f5458db14b44343cfe7,
  0x6ec63eb648605fb785e493cedecde843e22d186960b87a840b1a1c37f4f6fed7,
  0x2e339a3c6351029b420fc5704217349d6f4da659d99cfb53d66085f704c583f8,
  0x1332b121fab8eebc88b201203790ab1be5ae1a441f2e580883f305f725284461,
  0x2a63b40680a32b160496ccf8fac46a50b2be831ed9bc8743f943587d8f4f7bdb,
  0x27b18735c37d66556bed868e5110fff0a85c6bed23782ef2192e0f404d3d1d53,
  0x1cf6147f348a52e2047e78bafcae4eb7937efc50d724b117f4d5401dcf3fd3d,
  0xf86607a52b4f01216e65cbae172a851ce5dcb325a44ad3cd36b098ad313e859,
  0x50fb9315b8cc07a4982ffeb7f5155ae451201ede9547e3de175b6e7c85f82447,
  0x3e8c5494b19e78bf1deca3806aadf44393a25748872c424fc7f608f53b99da5e,
  0x332e0f8d6006657c253ad533650e9cf367f1a8d00be9c7f3cb4c1babe30e381d,
  0x6f5c34c55fa1241d7ddb042055ed0e6535a86be0c56e62fd399325cc92058808,
  0x621f1c20c120fd5290addffd2cd52b9725fc13ee7ee9a3f08111b524909c4fe0,
  0x263f781d7e7c8e77cd638ec02dbea0ab5d89bfc19cf487fa18e9b3f612008cf7,
  0x148492dc56b111fa054b3f0e27bea7f673d1b9e9b51ac62d76ee2fb6fccb3707,
  0x1b457f65f9a514d5ba3307ab043db336d8586c750ce581969569350bf1355366]

def cA123 : List Nat := [
  0x6c82a647f59d032d13ceee8b355eab0a362377a7afd07e52687101701fe4afb8,
  0x6b04df9de60a7cb2c6907a4461d681634253d6f65500f5f46d6cee85a098587b,
  0x38b39030a0f1b11939aba5ad0e1f2263441815a0765aa76ef9d818a11884030c,
  0xc602970e7d70777079c1ec28dd34964b555024355037dc653982f643670ffda,
  0x2843228a3ef30eb964d727c1ea26622b837e13fa5f7be6a1fbc47af27cd15407,
  0x61ee21913d0591691c8407b3bd22d41d98a30c4b0aa0da6d1eb25f9ec714d4b9,
  0x5bbcca998f51cf01be6afc71c26547dec9798d991833cfcae3cd03c621c2cf54,
  0x1ca9817c934cfd677af0e81a29133aebfcb6a3200e4d8a7ff0aef976241fc77a,
  0x69935b79f22d9a391285742f74a8fcacc683d70c2759c6ca3acfb34ff2cf02a2,
  0x50aa0ad2d5a7d4080c58b714577cc98d8e0df748a58e1c594864ca078e7a8a39,
  0x4a539e2d9e458aa4db43f981c5eb70ca513ebed9004dde315223e705f90d06a8,
  0x610bc71bbc154deb5b9f046b1b841679587b5b7655f9a8ee2f1dbd32403d427e,
  0xbf243cb1424818f0baf88c9fd2a65921dd075cc504fa0c2b5ae1b3a6673dc9a,
  0x57e1d7112816422a248f5b9ab251fb1af43728ff1cb6fc243252ccc200bf47c7,
  0x2114c2af1f550268d98fb558a203f996cc50f04e83916230db11e9a9db3ff65,
  0x546f2c1120f92d83071b80c2a3fcae0b77780fa665efca2058e44377c0f7158f]

def cA124 : List Nat := [
  0x49e290e44a75c96ce091d1e857b1d039f52bd487ef637e7a5550bb1e15966cd6,
  0x66fa3ecc4285f2e5ac9ad9e532f8827012ad8498198004a97ecc8367da48176d,
  0x2fe873a284b06540d738adcaa5df69df09f074df28f2189c92b6d88724ac92c2,
  0x2fd444c9b298457b6f0bcb0bbaf78e02d09eed8fb4531a59c573c5e86377ac28,
  0x25fc153970515704cc9da35399fedb7c8754dfded231f3f375f065a4dae3e0c8,
  0x224c736c652f82b12ecf025bdf70fa798646524e2843ac99825bd2969d45dcc,
  0x1269aa02ee7cdd6f34d4373144b82bc8c4713eba45e28e1de0a48f3e2dd2b5a6,
  0x41da7a50631dd088eb03f6b67394a7fc07e166f06110a2f0d2b2e593c162173d,
  0x56e348905caa185c459a8f5388cdf68b1c4489ebc397cc1bcbc97c6f991e0f33,
  0x48900aa48893008cc2c764cc97829dddf7b8d00565fc90b3e7810dec370542a1,
  0x1f8fe04e1a34f36607b557515fe9c62067b19a541b524a4f5ed155c595c05370,
  0x395129148a2cb0e0dfa6bc73df625e6f5b1aeb0a357e536c83d840eab10317fc,
  0x4ed163f6ae93727870998dd1ebe9a70376b40299cad7a7320314fc7cb9bfcec7,
  0xa355ac5d0cdb1edb397208c7f94e1c4739e33b8768b6b96ac54f0afa29d964,
  0x4cfd82b8a77feca7bd1382f81da4fa767372c4077488a4084a0f6c181ed1ea27,
  0x4aef3394ef59718756a0c5cbfcc6c2db9bbf5d1b87aac131b40a9f226d3022e1]

def cA125 : List Nat := [
  0x1c8846cd1efe57a9509a6da829ed530cee177a5492342f87e1711c4c36b7ec9d,
  0x2d012f4e0e84d2e75d2b2eada86b4e31e41cf5e78ac54616eb9fae1df2450fe6,
  0x64739d8d6702454a17b8762952ea925dcfb434da83a256304e6f8e847daca48f,
  0x6b881a976ea8de19192805726b329bf6942764465eb80d7f280b515abb96dbfd,
  0x2ee3bf611f60b5d1c879acea8354737333b69c4b5a775982db19fe20ba420b87,
  0x6f98748873fbe1f412ba37c0521020db457f0ffa684b0dd7d249e24b7f9f38d2,
  0x37c2cc8185e8154399e84dccfc4cf7c07a06d74866f47e35fea7261efef4309e,
  0x6dd0eedd5b994839421af6e9b4b4cdfcc386a3a7bd387c05d767936cbad04dd3,
  0x7383efc33460a5eb69d2661df09ee19d1ea1cccedaf9d4871480c08620ec19b2,
  0x171c7ade3ddb844c440d0c65bb5aedb67f436069103e3bcab948f6d897d9a861,
  0x52cbd45d8d50ea2adc71ed21efd5a9604c25d8f599efe25e77e4d6bc67369ccb,
  0x4dcb3ede423c60a0a2649e0d4159fb59b698db4883e2a7c9c8b313be7692bfe7,
  0x1db281d91faf3c7c306ba30d08ee3442a5af280498bc05fb32058fd9604df214,
  0x46f1888f708e6b26ca6c3e07a8b6b6a275d93468215e936308b1e66969c094d8,
  0x26f8f77632448a9a564a37722d477fe4f13ebc95d1d05976efd81c3a7be35f69,
  0x1398f55f11e3747a4637774a4bdc3831bf88b45061482ca55099d7f8d23d5e18]

def cA126 : List Nat := [
  0x624968073422b91ef8735c3cc19da3bce96e4dbf2908e6528cfe2c1a91f7802a,
  0x1ca54428c82731e99ba86cecde3a9eae1d12e6d9d99375a9b0cad461927271ca,
  0x51cb2d16163ab1c1bd69dc4cd8910136b1a13e60efbd446daaff229202eec695,
  0x3a1e4d04610f37b08155946451e9059bc87fadae6d6543d292018b664788e84c,
  0x735db8188921128c6704eea4db1cb9c1711f0c077c493fdb2bc98a5cc53a6a51,
  0x4f050f517bc4734050d3654d3e18b8cf4142ea1e16a64f96c680e797c951f464,
  0xd380eddb3688f0d02f6bfdbf41c6db452b3c7ae63d79e1ff56745cf6471cf55,
  0x528ecf53f358e3c53082ce06005741b060e96c43bf686112422b9bafdb42ef33,
  0x61ebdc85cf33fcef5b1c0032b0e5b3204eef1d043eec7b1b2d039a8e54d56a41,
  0x5749a72118c835a2d51563964fa848a18639390b8159a5325292f275a7b40f43,
  0x45ea017b5ae6c82d9fac6d32ee8e3628f525e5ab107297a0c75208b48ae5e336,
  0xe95b32af3631965d0d0084ce8fbc2b0a1000d7a4d0e1fc059f273236e7947f9,
  0x54b6f115e2fe076e90e3a5f971666e060d9255ee0dc21be7ffba50975c31a41f,
  0x19f9a1726f314a38cb15be48e0312add1452fcba0f0c37e4315709fe80ebd78e,
  0x32f1bdc2f4eb30cf9e9f39d53fe236dac348ce1ffde7a043c656999790ecfb62,
  0x24243b20d391233169b9f3484999e4fe42aa287700fc4f8a182652041d21ccb1]

def cA127 : List Nat := [
  0xc6ff5f3786335730631cc2d01302ecd6942d70d34e47adb55a5dd34d87fbca8,
  0x5915005225b6b0ea87eeed531c57ee9a2bacc90bedf398b231088fcb33af2aa3,
  0x3ffbee348df267e8958cb3a24e8ee6e4c82214ca6bc59d6f5d6249e9bb8e1978,
  0x21642dcd907e2ec5151c3c48f27b85c2dd0af5f12e7be98904ebc29f17c3ab71,
  0x1a9450d3d6ba10d6a7d30ef0ae27f46f9cc3da69cdec90f1284bd9b2613b5d8d,
  0x1ff27ac412f6eceaa624e209b0b121d2af114e736378cb501e22f0a3c1452960,
  0x689d2ad95394c5ef02fb625257eb9c3146467434dddee7afbcb3e43e3608abbc,
  0x33dbc14c5ac0c217a5d96326b2c136833213668b3b6ff248ca1db14895d99f46,
  0xe89f000e6333aa3aa02673c86be70b171b83e500010b379a3f452ccb3984afe,
  0x14502a07913da2de40ac0acef0072bcad24a4c5cb5f0f5ac79283b6888b1d220,
  0x9741fbf98d3e9b29eb50f3bb65e2faf48b511e38923b6e7cd3d31009f71544f,
  0x2b78eb69a3cfb9b3854269c248be7f7e518491dd0eede2cde1f44eb050c9a3e5,
  0x6fa42f0374e792e1c07b28d23d9c3f4ed2f9df34a2bdf6a98562cbec888bf091,
  0x4f922cf69165302c2e1e2d453dc38999afe7668bf8e0f2096b8117a3764bb153,
  0x2de3896423221df29de75c67f0dc5d246d8794dbad43b9e60183892029135698,
  0x2db4c9643a5e8b310ddf78ef5a2010b0353a97c6ce6c2582ac5fc39489b05747]

def cA128 : List Nat := [
  0x73eda753299d7d483339d80809a1d80553bda402fffe5bfeffffffff00000,
  0x1552605288e95b4314793e3c493a485cf42285ddb27589a48b849fb3ac21c713,
  0x3145388f1e69766a2bd3b0b2a8bedd504c13dee433935bc72ca6d0b1f7fddf7e,
  0x2fe2ecbeb0f41107027f9c05235dcc081214b155274d47ef4ca64cab91d0cce0,
  0x1512203335d3b062712a9b5534c38a0e9e18fadcf31c0fae0cbbedbf7c4558c9,
  0x20c2bbc0889bf62b20f012e2a598fa377b90099ba4e198f3b420da3afde586d5,
  0x1a0e6d58209ca738228c91deb190c21a5b8457d98dedfe65e11be0cbd88c4607,
  0x5a0ef9f9d1c69bce1eb1d2b6138b70a9796d84eb0b6b83713822e36c1e108e78,
  0x2e99faaeec31262beb4e2a9331f13f37cba0a7c2f6dbd40145e1406fa88f5ad2,
  0x6fdf16f9e93090a5ec4897ccefbe1b4c0b3ca42a56ea7a347768b024cf9346c,
  0xc63176ff53375b2a9a294c9336fd04f0294277b51df244da2ede788e5acc77a,
  0x405057f185d911b1a11c20f10fe96235921d07a28efdc6704662d5563278f464,
  0x633615e92e2e9249546f406bb1283ac0c2d24cdea2b39ded84dee6bbb63fa352,
  0x324de3cd23e6216a366a7c457e2fea9358b8233ca33a06a2d543ea1665760479,
  0x5f68786d0cf72c33f06f24ad20bc30123dc1b049947f3c1afd6706ad94d06c76,
  0x396806517717a9652699ca5aecce7bbf9485d7216800be1a7fe538117c638fd3]

def cA129 : List Nat := [
  0x36522bc7230bde8c45b19c593fdecbe5821ac3bb1200779cd37754ce743fde26,
  0x6ebc6c7aa7b2d0275a272dd8a2442e5630903479beabb5017e384daa56ae9514,
  0x983cca84db823f446b23a024e5f8a4f4841d3f4c124258a2906954ececf1a53,
  0x3331b23f09511979a94925c6d574097f3762d4a5b4331c58395435a2820de64c,
  0x307d443b24d4ee631aed23bac2664b0f745e558e4f76f1f05923653b51294e02,
  0x4b493b05a256d1aa5bfb125865682769570743ffc493f533fd07a2b3637373f,
  0x589f61c1fd5649d79f7613219138ba59484c9acc1db2a58dcc151eeb80e971cd,
  0x66d6531497d3462d3468d036c1a0339f50bc7ce91c956d7c71dfdef4bb9d89e9,
  0x2b66abdc32e2c22389b056fa31e34395b8b23746ad6918b2f9d70edd857d676,
  0x4aa435fb23079a8d865ef11f09dbea51f533cfd683d7b07aa01afc91e00c5c83,
  0x27ee033b3f668c2ef94ed4da0d8664bfa199c5d5259f82f508f8356bd5dd4543,
  0x47ecd8abfcca07dbc805450d1281183a5989d7b8da4abe2c007ce9a495a45bfe,
  0x1bfa6bae6458fc5bca2367c434fc7946cec8287901f08d40981f91fc22c71a55,
  0xf4ca4e4b64c7b7cb8184e23440be00f9a27fec6f809d4192bc87c118f9fcf4f,
  0x5a434a4dc8c7d5c984e22e6d61c2cb5e765e16b92990a3c2bd4dab67875d6757,
  0x85ca39f6d3c1f279610dcb01913190a1a21fbb7f6087ddb3bbf2aac13d7d76]

def cA130 : List Nat := [
  0x3f80a08b33bb99ff3dd7efd92d270e61ff97b3008c3e35740ddbe216c7938ae,
  0x4c99705b02a505cb3b9125f4cb9e45078be2e8de651f7450dc25a715052ea34e,
  0x400bb171d96d3390f3fb8298c4895ed2e6913cbd81989055766da5d6723c8978,
  0x4b41ca416eccf1f7147ea4ad02ca1bb7f568e698f6862953d9137d8079d60ab4,
  0x44f1b0565bd53fdac49d5ca4994431208fe99f81b94090599536bb7ae10ab94e,
  0x1a0838e48d4d393796264b7fcf576e9fe58835bcf2cf4ef4875ff61d69c5d219,
  0x2a3f7896abc8d2540675935ed0b27aced095d175357ed5983ca6ae66d067b470,
  0x4b6e2d379bdcfd03df0f19cee9e8897ea233cba4fc0c183ed3929bc8e0c532a8,
  0x217b2940ca71d9b19975a129836f4c90c1a4ebe16b8df31bdfe8c8d18f3a8df7,
  0x2c11cccf26b5fb8299875486fea9dafdb2409f3e86e66614c219880a74c5f24d,
  0x3dc9e3a753dd1fe9832fe8768998f2f09bf4a94251549279db20564817fd5bf5,
  0x468a9eb1a63863576db13699b6c945b841be0a450442b8cd51ede15e3260b3e,
  0x41d2a012f58a3c9a77a1737722eacfb635007131764bb4415183933f79f0d41d,
  0x4a9ba05f57e660c543c81dddb83b12f99ad02639772d79c690e52b32014b8e46,
  0x2f51ff5724a3e458c069879cc1815130eabd9c47f61003fa6c8232b0e907d4d0,
  0x132b3ea1c593bb2444e29e5e25e4b569ed773fa6b8e9dff85fa73c2cdd94e43]

def cA131 : List Nat := [
  0x47c10b9f6d9f36122db39eccd5e94732e62ecf13ea41f1806a324437f70b3e26,
  0x423c0c372a015af6299c484d7559e51cdf9dfe2d20685306ae6d1d4503ce9d63,
  0x1a94f7650ed061bbdfeb85e985cb0563d7a6b02df606917a1c0b0d7747985b9f,
  0x52996963be83e312144c9b9b9dc898a35d78c8cc0f9811be3d8de1a46db284bb,
  0x4dabbf36ee36efbde3510701805c33c31fbb8c698c562e0e473c1bf1df0007ac,
  0x598106609cb4ca906080ed434bf51fa54bf33c1c5073c75362b3420248dba39c,
  0x7208987960318d54de7cf5da418b57c053f685dc8cb505b897ed8b9b1cb4f390,
  0x508aa67795d13985448807fe6e919d65ea1320a8bfb11cd4cdea75834fdcfc3b,
  0x5c988d230b78ebd867bd94c50de340cc1ce069a860eb996bbb0e7b700f3d015e,
  0x2bf3a1ffdc2f4122f1ad120560db52ca5653115b3f0be403bd576d1c13060f9e,
  0x2624b1c31344eeb8fea88aed586878f810d24f396706ed7edf3321501174e6c3,
  0x8db4884adf79d1c51ef30b5c2592b9257d703f3eeb4315710894eb417a6bd7d,
  0x484c66b1b3909680cfed1addb99efa8444dad804de7e8e7aeaea970aaf9f6821,
  0x14aebe51c17f9258decd84f2405b7de989f4da475e6be0be81c29b7eccd8ed4a,
  0x407a50c284f7c567f756d7bb3a5531ae678fb9153a910b50e3fbff7ed5fcd3fd,
  0x4beab8d105037d96d8a8bf1a8484cc94904bf15b9ef38fd34568895de9cb75c1]

def cA132 : List Nat := [
  0xb080e34209e386f775863f1533154f1a8ad049919df4bd6d38c0f133f5508e6,
  0x1d6489c4735b5666c377be2b83b1f67302575c9dd1b40725809f8e3ac77a77b0,
  0x18cace51961bc2a03e8421b8ed17a5cfda710f1a965a900f8e9f1b05e3997ab8,
  0x22860e356bb44aa0650d83aa753970e7bc70947516e6bfa0c0aebea4ccc9b736,
  0x2824e812e04aeb018884d56c4bcc60d134b916495dd585a77b397f8ea7ecf769,
  0x3e90d5ae989f053bccbe349316b9011ed5462e6d6284696134e98c0161990ee8,
  0x4905e21e9a87d41173052dc7840f7530baf959bdcf91ca4291c1254c8e6cb9c7,
  0x28a8d1fe6e250b5d1098b5f091e507a17ae9cb919888931260747ad612b4d7bd,
  0x48cd3617dedb4a43a1496225ea408e53d796b0d7b7058036e9633811495fe0c7,
  0x4eb9d7c3d441efdc411be22df5237cd9f93dba7e95059fb10e377cb11de417ea,
  0xdd2fad340c7e2b771edcc8996bd93d7c912070c6f27a56b83c8c5cb5035617c,
  0x2341bfaa7927bf0df1d7dbe6bb15c1d723e6ad887152f71957e6ff7d1b4b3199,
  0x2f46ac6a129f116f01ba85198dd217377580b675a8178b3b363f54091d305910,
  0x205f2ffe25621da479341a3648cbdb26d76201f1241829d5dad3ff2467d74bab,
  0x41f1010767514a53b499ca43d1d797d260a036026f1395c1b4974d7d6c0973ef,
  0x1705644803db0aa3d81f796f048bdf1cfdd433d33316bdd928e49d53ca21ce12]

def cA133 : List Nat := [
  0x3d3671545989d83ba2aa5a7e4c9d06b993aabcd040cedfe335eadc2464836b76,
  0x715e7bc0528a6e72c49f47c485d34c3315907539cd01927d1e94a820d73d001a,
  0x3124944106fd438bcd835694d2caa433350d4b540dbf1ff3545cd6dc6568a6d3,
  0x6420a704e6351ab94f8f1563d6f3ca2cdb114d7d33bd187730fa09dc70eaf261,
  0x676fb3394e6506a9edeb2ba9dbe34453269621c6bfe05bf03c33ad9824678bbd,
  0x6750455512599bd5266a9bae59bd6a27db71b9024db9b3d75487d5e1cb995823,
  0x18cd309195fdc5f6b333e6d37d935b563dec6564b1a3411caab754b66e7fddc5,
  0x325c9661a5df08c2e95f9e9b7e31df519c5b659632522f81605aa637f74dde36,
  0x4a4d3fd47dc282120d5d214ae5bfe5b1cdbbf8c498fd7864a87c3ade992e5d69,
  0x4c5ac9e50dd07a60b4ecb312ed4a3ac7ce6893b45a2fefb9348a55794da49688,
  0x7055dc316223786da48d1b4df39f94391fa839b8927603d52f5bf64addc39dd6,
  0x47893272b5d4b10a3b24538f1d704c66cd2bd49247d08243831623428dd97e67,
  0x3777bcf15926d61ab2817f25d5e3aaddff6d1068c8f03a1ff6a5164158e5ed75,
  0x11ff604cb7d8be77c726d6824ebb7954bad742054fa4cd1dec9cfce8e19a3419,
  0x6facc6491e1dcb250cfab53eddfbc3a90094a521da475cdbe662bca79b9099ff,
  0x11b3754efecb760b88cd76163abc6df7009a6b103e838c8a6f6bf556566621e3]

def cA134 : List Nat := [
  0x49456ad1cf936590ecd93681ff4a2235d77416aa10ae3a5bb02ca7da3be50f56,
  0x15e7a35bb531df60aa9948797a5ded384b9392df78071aedcff38e61726db948,
  0x3dc139d6e5c88c735bdbdac51c0a558d03e73abe692d2580be3e55b57fc0a7f9,
  0x2a4d5773e7d6933ce7f40c52f8cde265638a35587bfdeee390ecc9af67fe1682,
  0x3c0582c2b65bdd6adde9dda01dfa9236f5f567889cc7fb073f37aa02d953fba2,
  0x3a318e17b85d0737ec864415112c9d2b810cb8574502d09bc02b3a8fcbe992c6,
  0x5a584964c19f5fab5f2548550e21198fa6b472a76b102403dcca1d1a7bbc6d48,
  0x3986f606b6468bba4772139b43312897dc357ec8f36fa5ba040fca70099363d1,
  0xfc6e54834e908596585d1295632f22ab77472aa4dde3fcc08ce0a8a9ee333b7,
  0x60c51bf7aa130dd4e96f1763067c6f6602117fb8794e80aedeae84f9cde2042e,
  0x9cb9e2590f360c60db74e4b65a4dc8f463889bdf7873e69c27bf6050e3c6f3e,
  0x222a288fe0d04f223ce21176f7b5dc88b0f42efa820c62fa0cce6e20220bdffb,
  0x2388dee600a68897f83a81f26c1e7fc591a1885243264686799f50cccc1e4c2e,
  0x5ef9f2f4a9d6efcaa4376d3ee94c54b23ea62adc0620dc9ca9cfd8e9dd38a434,
  0xb3b525971d047de5fbc21963661b77bfad16229bd963a91a2c3bb9f5eb71a95,
  0x3ccbdde17b3446452aff9e51608dce3a1f892fe8f2abe6218e13714bab6e064d]

def cA135 : List Nat := [
  0x51f1bb3dfee8af39c5a2c0da076bb26b139bce512985bfe8365f007b27250d03,
  0x55dca2370db1ecd07ca9361a3a8666ea8e28d1696dc447e5725ed092329034b5,
  0x1ffad726549a9c94c66446cae560e0131bb96c377fa331f5484c4de718f9a011,
  0x70e4c7c8ab8c676ba724335531e80dd48fb9ffe7fb6a0f5e926abe2c348178bf,
  0x7561ca119130da766f96398d9f5f8f007e7769fa985d4c0757a414b3157bf0d,
  0x6f5e019d994db914e53139474bed00ecb75d9f2dfe32023855b63acb26c74911,
  0x6e76192cf9e155ea041ab485bee077dad8668bdcda1db594dbd3783a3234bebc,
  0x2374fed8029dcf37c7ed0084c850fa6115619c6268f848aaa761406a5034470f,
  0x679ee06a4ec099b3961b1a955e7522fea120b98ecd96b533b545523f94a1d6a1,
  0x6d1874e98292974186eb09fb2e8d586e42842ba254726821e9676889bbee6863,
  0x7fa9592b33c4edb75ca57c4f4f33f0a25728184bb5787e5fa04059983092a5d,
  0x293ecb741bf99f4dfedd357da1227f6a2692e67756e0416cdfafde122f59e40f,
  0xc9bdd33fdf62a11167c0af84c8cf0dd20b9dc0e6cff77404245adb35e8ea830,
  0x1759dc7730b2dc6cb8dd0c1c310f7699013790a145696d390e4325a48ebc7ca8,
  0x23d9fd0c29d9d5a644cb3a39cb5550ee11f94569ed95358a0c06e562170a9e25,
  0x4f23fd9c7ae094d13355a23cef767aa12ce318a1b5e08528ed2f693c80a6ea92]

def cA136 : List Nat := [
  0x6aa72e09d4705d6769585acbe838c3664e1e11a6cc9c3d6e3afdf2b042db0331,
  0x5491d68ee0cc81c4e936ee6eeca0fa576840e6582b81b5c6d703aaef4e678b4c,
  0x661ac4c37603e0b48f6fec35c2bbac30bd537dfb17f96f3eadfa8355bc3d6cd5,
  0x5d8d2e4bf58ed64616f96c3d2e7808d24768898150584ad64c73fbabf756dc72,
  0x59d9c61565ca0d033e7020d818631e4b29bfb2a201223638f54f72dbf6eee24e,
  0x4d090628b3148d67512f4ede45f42ee190139c5eb41252f956e9d1b391acb2dc,
  0x5293f38d41f04f75a3759564ac8bbd17d5a8a34adfba399fba4a91f0547aa575,
  0x18579fe70b2f92b9a3bb542d8ff5761e043b3eabbb673696d2b00a9baa699818,
  0x623188652c73af633d60c11a132f6eff31233017b806791730cb26d8709265c,
  0x6f445ae4400500d6afb2a566cdd0cb7bf00973e27c97b2aa6107689f267f8d0b,
  0x2b58e43de8a4fa732c47776afdc35d3322d03933c45cb2055b15bad5ce6af727,
  0x29bb9e69a85ae330f1c5994d1361271bb85d82ec6e9756eb6d36d95be3001c00,
  0x5851bd05d95807ae15fca85753d7cd3c46f7a1504b926e222ed9da2788edb2f5,
  0x889c935f43d67ca3cced06939029e21aa75a909afb651b50da26d986cd9e3bc,
  0x1e5da5da9eced34e6afc5d45202774f686b53b8d0b00c7d5a44d004f8bd7127c,
  0x36d729240643eab2ddd5c6329d0b46b2ba1c4151b6a568453aafaac76def713d]

def cA137 : List Nat := [
  0x13aff890fbf80eed059129c232c15c8438c36696334e648f7e7d3544f5bd01ce,
  0x3e440bd94fda71195cd7b10ae5442466e70a52222b42dcaca5c237497f5a04d,
  0x65e5a8a532529b0e1cb1f82e9b67b804cd25d9e575689ef3b625865e68cae84d,
  0x503b5f3797de320767e12732732383cae38f8c40b10d20d2efc1ae64ae7c67cc,
  0x6fc7cfb8cd1688f00e95c7a93843341e220adb0cabaa9d91aea370aa3c6c6f93,
  0x57be068c2c64bed1b840dc957d60c7c8194662c3aa50a17958b9d2c76b3afebe,
  0x2c3fb286ef247316aac38a53e18e23cd81fa138153b5cd66f5b7674f48f2de76,
  0xe3b26e9fe8252ba5b0644050fcfaf9aaa2bb3cf21b80843a9b2632400a928ac,
  0x3684bed26979c9586884556f4add0413214be5d783cd1c0429ef825cb300a330,
  0x10cae6f2b21447bd4ba691041a09697e2175f623b6815544be9561718b3b937d,
  0x84a99e4a441d8dcbf5ec5f76695e0df80b5d8c69c796842bb04e27566ea663f,
  0x2d830e7d0f3f66505c069ad714a07dbe13c5dd9b94ad9477125dc3fc7e57273e,
  0x33ea557b83636344e4dc2b1270aaf1f52bec8e74155c907dd560c5997591e62c,
  0x558ee5c75b306d636613467b9c152a93c628c2e8725f146787288112384fe2c5,
  0x22da02b2608dad1b3d3ba7e64ca4f365e19f8ef36219b61857300b5695a5c87f,
  0x208d3bceb96edb13fae592afdec62f6394837965ca7accaf51f7d92ce4906b5c]

def cA138 : List Nat := [
  0x1e266032860426bbc226e391923d4b850c3271497aa145998b5f6d858a838af,
  0x6a071b088bfb41168646e3b5b556dbbcf00964e8d0c07282fc22f453b6cd4ca6,
  0x7048349bf9f22da4f94efee59674bf9f4be7b8ee5cfb63902dff9701d83ce6b4,
  0x30f25cf6df6e4dfc8496cafdf8e5757842471717bfb51acb79b188896fa4c8fd,
  0x104019eed5f86e4d2003b89f4a02d1c16f1cdb96fc46ddaed1de4d088fc9bd96,
  0x3819087c791ba153d6c3820cacde33d5123041de72dd965c6c86ceba63a6d5f0,
  0x64e6d7f3740197af80a4a860ba5d702610f4b9fef9739bc1e42dd8009d4ac3e3,
  0x33ccf30283d16c1ea50fcbcb16122428feec67dc7148a3442d4d891f0a848c34,
  0x2adb29729174c2cc430e3efe9235f2d7006f3f6d60b487667b2c78c0cd59140,
  0x73a776318a858a8cd8290aa6c2df46b89b3d3a5c561f56165ae0d61a586c139e,
  0x4c681416a68fb40decb3de692950d54cf6e7b77c59146b74740d96b9aea7dda9,
  0x1621e72d2935f1bf6082dd77435529b39b43a033e9e50ff9a14bbaca4dcd0162,
  0x72b48dac3ecf737ed9c0689bbb64379474f07f2b781929ddf06104652b49534b,
  0xe4d6aebbaf7fa58cde5e33189f97397bc47e4b04d701cf1702775059b720f0,
  0x4ffd7c45cdef958a28a263de771f4f1f7e887a1f8d1484079aa467859b6e8230,
  0x350df001cd194c35eb228499cd2ed5fb093ec7c4fa561a40b2e8552d4149edee]

def cA139 : List Nat := [
  0x31468b2e60bf93f61d860207a1cd6685236ef31247ef32b2ff67a3555e2264d5,
  0x95f8d2f3715771543a81a262a77bea5a731db88ed911ff649abc61d2a4c0140,
  0x268800c5acb39a7c99317e1198bd862c847174ec8a59bc9e9aac23c6997ac5a5,
  0x2d7795d4d597ed1de659d1b55ad1027d326bc3782ceba522c5e0b4296f2e3526,
  0x54347f45585bcf8b83959b7cec0bb768157c06cab782fa4d4933c3e8cf3b876c,
  0x57de5db7fedc85a314f3d0e1ad77e7c7296c9ee01f7189e6a908a04116b71092,
  0x858cf27a5c7c2f8101bc3e7a036722f6a2f6fec6d7f9bd35536ed42e9b06e8c,
  0x182603eabb6af86d837358a5e555e9d5f53b295d79cd6926a8a071f4c5dc4e51,
  0x19358e0c26c1d2df5f7eb67c482bfad7f83dadcd94b10a177a271966b405dd,
  0x9a0c6015b6ee79bf5fbc62241e18e198c1c2dbeafffc434ad5b80e523bb0db9,
  0x3cccbd2a5ce612c983e5f531070533b11d0725e067e8ae5a272200ef22e02a14,
  0xd9887ad4b8480869c9af12d0a926ac639dc355c6fd0d30d2040daadaa3f8cd,
  0x1e790937f9b4c46db3e50037b8646ba608b7cea356e31c9d3345a21f13e46d65,
  0x5ecd56fa07d7447648401165a6638300cacd5cdb721f0f1bf43ab893a38afefb,
  0x11b35176084241313df0ea92b89329968ee663860d4ddf4d24d58aa644b4835,
  0x32e95c4e348f2ec2c7fd89c81ac1d0007f162ea62a59f4509ea048c9286718b2]

def cA140 : List Nat := [
  0x50189c43fc2ee011b91c9f88be86bbaab054ff685388d0eb03ad64b29d0e8631,
  0x56bead46cb1da8f220ec4440bfdc0b33b2612fff597b94719148bf9759f2d759,
  0x1eb0aebfa6a117afc2104cbf7773c4163959bd8275082e37c7b3bcc4bde2ef95,
  0x14cde0a77f373623866f13fb465a18b28dfb299e157375cdd4c9ee9085e11c2e,
  0x17eacaaf66c9bc6ed6a74b2532caf333836b5bb3ab1e767a4a8e4f8ad6394a84,
  0x2d6ddc529059149e0d9f6104674fc8b1775c6e7ce857d0532ecbce754edad622,
  0x3043ee58a18d8618adf396297fdf90a182194b66509a4ca340356608f48ecc30,
  0x10fcf58a9bdd6eaa0553e176175b1340f5b07d69f070b34804294f46a48a3871,
  0x7a910a354043abbb92cee3e04e2e809bad764dcb423af9d9303b9f3fce39227,
  0x5fbb91e01677c34021f8816e70b797e20d5222293a84f61a192d98b68c578620,
  0x938a303889fcd6a08119a14edf05019763aa84b5a35d01f3a2f0d65e09b1658,
  0x4c740a5abac033cd0958d6aa1257bceb5bf8dd55d961c5c3c8970e7a5627c69b,
  0x3ee40afa9f4d67a98d68b4c71c27f3ba87ea6902b49b84a83d869182a3aa41ef,
  0x5bd5b0d72d5219037f0d91d6eabdd50e874233cace4a02ef68ac2fb894ad8e95,
  0x502add9e0f9d9f373e5b94adfe740f3566b5854b9b403c65f56b136e4ed3f67f,
  0x6865ee11eaadce7796d8f037928858c598ba9f79af34c4016e674aa37417409e]

def cA141 : List Nat := [
  0x34010151fec79f83b01eb04648a94e7db0a0d7ea02e45fef435e9b776fd45576,
  0x22852ac5bc6ed7d887f97ad884df7c167106af745ba8be7e16c8fba8702cc100,
  0x3ed80a006daec6fbee13c40a372dd0ee1cf60d7918c6484dd68eb0197b5ce61,
  0x2e4adb3636e0ba64359c57ea69c88ebe5ba5fe22b8a051d0bd0a5d10ba1dfbee,
  0x6b0e5cf7be63af422766d1ae38838489120ca001649d09aae3d07378bdc42bf0,
  0x4e30932d0888873e3450205342885d74644803671d84084a4b386f4ff57463de,
  0x5339bbb4c112280cdf50bc0e6192e5b9d5d9c9cab4bb28bf40ba2aaa6a3cede6,
  0x671ca6685d2f405e996ae48984e731f1a146d1d894639632e38f7376d658b58a,
  0x5a7416926bfe2870133db08d79a184041a39da13f3576da51fe16653ed331940,
  0x493a315f46eec9fcf366c8df60ba8dca6b7131f595fa5cdb3613848e840c12e6,
  0x5d6e861af7915aa2e6484755fbade5075af47e36e2c4377633363fb0990b6eaa,
  0x32216d0443cd4449d063dc8aec8300488b51f7c6c73f11e01adb73714074c69f,
  0x3df4b5b2825b4809bcb17f3278e1a66f06a843469adeb4f9a4431761da7135d9,
  0x270ed76c7971e544cdbd8c9eb9c7141e87dee15dac3b86ee0d5f479a43a1ab98,
  0x111dafa1aa88fc184f44ee3d608978831362e050ebe94715d60df578e3fea0a3,
  0x42309af0059394a4c79ae34995a34abb55aabbe90c3e8310379be86382b32e19]

def cA142 : List Nat := [
  0x1ed0be39ba3c6576cc2075d3686eac398a97b4fb8221cf6ec006e175a04c490d,
  0x551fbc37243fba7467ae94e69f4d511f501b626082ef3c4cffa8c33e21e87e2,
  0x43daf542d837123e1003cd3c0f41266cc0c8558a8cda6775af4dc96071bb87e3,
  0x55a94ef38af72d5b6acd3ff0483d73d23c313268397ce4972e43c3d4d3ad42f8,
  0x329f6bffb92496db51512ddf2e4200ad1feb96da5c97a9c144e5213a14f62a69,
  0x2b62290e50892515c631f13d9b7d926d744be7323eee179c0d9cc21fbbc34e75,
  0x4c0a4a43b4b2dbcbdd6ba5796597058136aab32ea037c38032884b8bf36446fe,
  0x43bc13577a53dba8b09e80117bd062f5be85bfd599edeaaf187be5d951f2f083,
  0x2666b2c8191fa50a0aab2e02221b5167276c878d9dbf320d1d6ca2e4c41542f6,
  0xc35118676649f63d2020712be3fdccdd3545ccf29ea9b2048623bb8443da7f4,
  0x586b3eb2bc62efeec279e7464a490f9c6f997b2c53e83dabf6b76127eb0a4ec1,
  0x2a0dcb529031eaeed334dc32216eb419497c0e2e7c76a79c27095410e614bec0,
  0x4085a1b6de3c728d56d2a1523b7a56285c1b90484391c2564d37d62bbf138d3,
  0x32831bcb18fbe8ff4145b977c727c14ee3f5292363a2faf4417e0a7bd7f29522,
  0x38647c81b224977ec69d0062977a6fcadce0307162d2312d8c05ee20445d1b4b,
  0x2450928489ee8449d682b2b4ae9c8135579c16044c9710cf4ddedb43ed9a4bde]

def cA143 : List Nat := [
  0x1b6651a27c9b61f843161ec96cd5cdb51737b746d26da9099e48586e3f73217c,
  0x1a1e2cddbb85b10950af812027fdabd205bfb904129da21f4f9e86c10d4a8026,
  0x1e828db669be3a3652fac67e04e10a1594d3f6545944839d467bd7407f99acdd,
  0x69f34ddba44c9bbe565d81b1c5467c143f7d1f1949a9fba7ddbe0b61a18caa9,
  0x48f8e376b3869fa10264175480b7f958e0166c8427442b8313d6348254c6ac80,
  0x3e3cf7f3b9b59cd23d4b9ee36e893c19e822ffefa61761233e768444a8d96015,
  0x71ed586b13f0a7d396c94fa2655d3ac98db4112d24251f01c2e7f0e715bb6a0e,
  0x25a6ffb809f2902b09b9286740d71eb0a36284d9657ff7ed06025b7b94e7be0,
  0x5dedb60e8d1a592964b1f4a636c600d09df08bf47c0b37a10d312e38e954c1cf,
  0x5e3f9ab3b59e8483ab931da1bf6de394eeb8a28e1f6b0f52e6700ff87c363246,
  0x217009c699aafe0650b28534bdf41026cb8c8420a98f47a40eec3f6e4158be3e,
  0xc3e1725648512e45f3ba85b090cf7e62c2de88ea71282324c1237bfe2304e50,
  0x250302dedd6108318d9a898bb9e8b288e22ccda7e5d973b3a7502439e547f8a0,
  0x302324e41b205f684796443d83d45e77fd1087657c8595c34146fcaea0cc0721,
  0x4e1c1ddcc3e6f9f15fd5c359ca46c7b7bcac1f6b7316a26b4d6e82ae52f1b851,
  0x1d1ee400dafddc16730ecf621586ef89761a96538dfca298491cc4668414f64]

def cA144 : List Nat := [
  0xb416b8d565fe7998c3df46ae3b50abca8cfc0c3f19e9368c2e95df49a904120,
  0x232c162c7b1086a8d84de5577a601194238c960d38f0873c4321aadb916d9bed,
  0x20442855368cb6c10bbddc3666ae4c2259e2c9b4e9654084b5c965a10a71f5c9,
  0x3b758b51e13dad245bf3eb6d41c3d15acda152129c2b5cc5948e26b053f2d399,
  0x20a85e15520a598d0ffec0c8938bc66c4cf50fe1e04d78cae86ddd486d2c0633,
  0x63a0c46f14353819eb4d03c54a70ab60462519321cca735395948cb725db258,
  0x518b595eb66ca9b06de5604b08ac66616ea6ddb7cd9744be882679493474db35,
  0x28253bb39e9735fe16bfc2838c1399bc3fc13af9af2d96084d7dda2c4ac9b883,
  0x1f20ed3320d72aebe88ecee5550e49919eee134cf200a4161a4c32c28d23fc58,
  0x5e25087ea6ed4bf277a6a49e439f4333a0b47676ae1d5fec5f10919741151550,
  0x370533a4103f326bb83fe1193a5380e98570b6c995810f5656112f0da31ea13,
  0x3ed9e33b6962f9c4d1a03506b71c7af08e2085deb0c0d438a9c79cacf380b803,
  0x5245e54ece7982279223b71d1f3ac047ac2413b68a1a37f200d7130497161f94,
  0x27d9023bd8de812e57cee22e6db9ffe4e299821974796d26191d0153dd4e14a4,
  0x24d05477738b9e0626842035f98b7f53b03a9adc86e383a23ea9af05efc1df4b,
  0x29e10a1507ffaa494509455dc60851d42c9e7af7486f07986daf3e580cce1e5]

def cA145 : List Nat := [
  0x1c984fa378b431e1c7dfa79b8fb441d088d9ea8313bac754ae11989ff591e706,
  0x663c24397479796f0b94027137df73c58790bd3b909d8b835d10116ede75b9f0,
  0x6e2729a2eb460f639293905b0c56632e7472d83d58e1f1f01bcdff4995634839,
  0x72e4f4eabef8bd50ea7dedaec55529ed63990df4ce481e937cec8ed3a088f0b0,
  0x4d985612a65e9d478eb0c743a7a5008ff64bcf00f9b9334894ba9c89cf70afc2,
  0x5584e5ae7d98842eeea4d7bf902f43d8276fc8cefb5499369f12e1b8c414caff,
  0x5481e36056deb6ea70b31db0b16043f82c148ffaa0130c6c8843532334380748,
  0x9facf048c6a4b6aba21951e1a37521848a8b2ce925637ca675c4349b0479218,
  0x1ba669da6ce95e2ab879f68e4e2c30d32ccc1cb54c71d019b27ba5723106aa68,
  0x584910cc822c134c1186e397b0d8c1904fb9333b451b0e8b7d1d2d6d064b545e,
  0x1bd7175ee8a03643277e3bec2323149baef899ebecc82731e1e4780962e93c53,
  0x6abfd576e2b025920febd17b33910aa1c3c982a806743355ab98de7348bb283d,
  0x18156d4f45b45f4b1a6d6f08cf942d3a213c0007f2c42c07e029cee44c1c5114,
  0x6a1e6d39902ad8627bbd6bb197c54a468e7aaba62c7eaff8a1ff3c9f33b33ab1,
  0x57a0a2b86bca15a6119cf78ccacf789d5528494d536cca9b26a06f9956b35231,
  0x7270924d77e250e226d79340fa4c7ce7c75f2ab3735feddb3ddb8fbd468942ba]

def cA146 : List Nat := [
  0xeb72eb18e9de9be63980c0ac1ba00a185bc91726b3c0c187c248af23ab54d72,
  0x12f080f2db97adb10c35365458114392cd4215aaea7b624a883da780e5c0a14f,
  0x43258c680c845dee89f0eb32eb309bcf30aa173f92d20c40c83d053a8e2d1aa2,
  0x686a42f98a3b5a8cd3ae4a04e5d9e4a0009bde092883ab8ef20f6f84cad482a8,
  0xea855e390681d99b9e3786ef1730a96c51af4680133a79c3febb8ef5518e988,
  0x2a8ca21954999b806ba81d6a0bfdd648d7c7150eb24b3391bc9cb6a6b014f527,
  0x3227abd4f1fffaa9904b72773fb4288ba726dedc10145d77d3edb5be9e578870,
  0x689fc06e02e0a9c497b32304f3e0dd3c6cb599941d0812c44b97c138b993efa2,
  0x4296724170b9c4d0d00c7fdb8423f9eb52bdba3eddd9025daa264d1152e40eee,
  0x67d743fe991902072a24bdab16fc54c4a8e6aafb7342b7159c5408f92f0b9f55,
  0x4cf017fd0549d6e4f69b9bdd20403d746c476f539f9b0e11ea319815e3a1def0,
  0x59f95d1d45cdffffdf14d4e30672e55e3e54692473e1ae9f75a2d075cc1ea460,
  0x23f4d920725ea914930a3a2b76e61bbf8903822899df2b689503ad3273d98b4d,
  0xf59e7803169465c59f7f50bc2cd0059454cce7e8807c7789efce36e09da383d,
  0x462d996d1c9e3c432f92b77812d4a7f65215cd4ce5fc1385c99c16011af026a0,
  0x474c0b14bcfcc61ce5046e004ad0a2ef68ee5950632e8c60a332aa8e578bdb42]

def cA147 : List Nat := [
  0x4a7589e708b5d1c7d6d01f821bb822a54440c0d852e3c52e3b9d2877920fcec2,
  0x205a6017e66bb622c388a23837fd6e5ee694b1578759dc81392e9351d6576f15,
  0xb5bd6e0b0bd722cc3d53a324fa83fcf12ebb307f3b25a344dd3f4bf39454d39,
  0x6a3e59a206221b9ff2784793106589d7e14b0e10c342b9ecd248bd211f710b2c,
  0x2e8c59529fb1644c8e1cfcb13f4e8333e414f3169e2770509573ed6aadb0d0d1,
  0x454a67db1aae75798bfdda059c8281d951ccd3a43ce8b293863f9bedde7f505b,
  0x30d8043aa7c36191275a48cb410be1741e57804937f909bb94a1dd470e4a8fba,
  0x57d33ebf43a72d798a6da5ad60064e4c404f1962b5aa22569e41c3f288987d3d,
  0xc3b5d744c46668b0f52815dc9ed9d2b4c7d08b046efdda0920983061ab160a5,
  0x62fbce7a18a5c5eaae0a3153d039516052ba02cbd2c27d89c25715dc4ef6b7aa,
  0x72bc48e7b209432d977c2ba3034dbe6ba00c7664375fcf8b92074204738e9b95,
  0x13aa82349b4181e1dc937dc89c8918e883d3acf14718881771054449c0c4eff2,
  0x60ee166e8ee42096b143df97256d41ec35a0718cf771ac423b515f4d66addb05,
  0x21613bf8f3d2a5d14f63da223cf8cda27d5113c38aade29f59b4876028515b5f,
  0x4dfa2abc6699055b17f4b148a446bcdd68e3e9f12a23faead93f80c609c08b69,
  0x6bbda1bbaa4a2cfa94035838b66c927300232fb969a89b57459ed5bdb83c7119]

def cA148 : List Nat := [
  0xc28af0c9a2a8f0504aec90e7e9890ffeaa82625852e0397ba88140ce85f0a9f,
  0x421d45987cf60bcec3cc577eddaec91a626bf2439c4dfe3adf2b9bc78b2e5f52,
  0x3665b9df5f2e3725e33d12e044b63976f6a08a4d5a79dd62f8d408614016cacf,
  0x5f875d3b3ee19bfefac9afe78872f826f92ccfd80abaa9d7f22355b90b54b95c,
  0x6cffe0639c5afba57213b2045275524d09864260c85b10be5c77288f935b0043,
  0x19b6655a740ebc3b419ff56f5b62f287eb1159c883fd51b3a06f1c636b221537,
  0x3751d694ca742521ecf5be269c8a48c93f3708cda89a14b73fdcda5fabdcec60,
  0x2a0d149332ee22e5ec0c7fcc0e9747e49820fe318067fe4c2a6686d6e83c33d6,
  0x5c9b226dd5edf93ac4c411a744ee30b33b31f87d64c0ebc37cfedd010579965e,
  0x5faf724d6ba5d85249f1bdb6fa41483f0e534374afbd214a5c3accb30be106b3,
  0x70ed4473c74e5662be28f969b0b024cf1ce03dd902593c8f57c7d3b498b6b375,
  0x18ce137a0eeea1259a4a69c0a96d3700ae79013fd53d65c86c900c4eb2432afd,
  0xbc22938ba4ba768a79601e6d6daabc42fc6fd8151adec30f72f7715a8c59ea7,
  0x156adfb0531fc10f0fbb399a3de9038cad4a8fcac203278e238d5ec24ce0801e,
  0x154e29b2c4e44a8cc428ffd38167f932f1f9f376652fa2b9196c32f27e69742a,
  0x6dba8302028ab9a642cd8e391bf9e7bc19b07373d0b3e55758f2efc871df7f6a]

def cA149 : List Nat := [
  0x49cf90731ab089d775e180c9fa8b319da4c1143d4e16a42d0f13c1d8dae9423c,
  0x344348d69727f486dc18191c5f5cf572d20e0b12709b7e7cf21d128aeaf65be3,
  0x5989bc0af549d9a0ccbae36a628c00a51216d13a5401a0f7b003efae3e31f4c3,
  0x43e8c5d174b26e290878cd9989feaab4d03758461d8b712d7773fc6de947a5b3,
  0x47d6eab8370fbadaa66dd6f9572520b93245aa3c18e16b694ebef037e4df0988,
  0x59b5d43563401dd94dd31d400eec3b255ceb17818dc5e23ceb0cf8481dd50cdb,
  0x427c38c0462b167c5eb0995875540c3afef4123480fcb9af2aebb8cbba5edbd5,
  0x31b689d22b8116228085d28c61b78f5e9c5e8641ff3802bc6f079746c2f5c3bb,
  0x443aa4bbaba12cdf89bbb220d05c8d3e4a0d38609e1fe6544a0f2be3dd59f511,
  0x319dc9dd50e449c60ef01c69a44bd2b15ef4ea43bc1eeaa1149dc74eb5b04eb9,
  0x1f0342a3bbf796db4b7c1808a2938392fd3e1951bccab79b760103f12666df68,
  0x316b7a2490330398fce380998edb82a5c1f4267627917daaeceb82e11f2d4a3,
  0x1cc7b858b7121c3cbdd7f909b3a428f252f1fcc473e15f8aca4e396cb3c8809,
  0x448db9637073c7ede8af7be2bf629a92defb5b46d1b8f0ef88ca08d5bcc914ef,
  0x314988990823e1f32506907f55e474c2c2d38c26781374cb6c3b0140876e398,
  0x3e7c5831fe30fe76859b573bea1429ba591b2c77fa8c9dc0542df5cd23eae537]

def cA150 : List Nat := [
  0x5cca462d86b6963d02ee0c5b0d7a6d79fd11d96ba3fc1f8b5849cc2b49e38358,
  0x624391c0a490c1dc71bc24210b98274377b0c9ae1d1335d68dd71e17aae1dd8,
  0x51098e84bd2c3a22beea22f416b81297789c5962a7b072473c1e371205a7f88c,
  0x503c3947d9c5367e4aabf5c3f949423adb6ad185f5db75a16c0e7344d9a79b08,
  0x3f078704ee44caa6af23f56f50780fb0bce4fdcd1a7c941de2b767cda68d39ed,
  0x6c81990ac74943f8bebe8af894a7a2a0a3e626ad4175f5006ecf37ae32fa5556,
  0x60c91fcb6e23f019f0cb22bc63cb241a49fbc5cc8d7c1cc44c0c86d5233b280d,
  0x4a850e9d603b168ad954671ff9181368f167fa6a16376e64737742984071f6b1,
  0x395125a1d23f74b6321ebfdf32b935fe28e954044db758786af8e92989875237,
  0x3d286693452883981236ec7be9970a0fb0cf647faf875154b82236695f5d81dc,
  0x39dfe6c0b83cff3e977566fe4b55a305f9c566c0be2ffbfd0c86de4bf796a416,
  0x24dfdedfeb731d39412359b9059d5e0035e79d7940a2b8f666231224bc718804,
  0x48b533ee15dca9bca8f427b38464d93e73982c90ea3b6f7a553a347fd8f9b022,
  0x694aeb06275d3b97c02f41981ea9d38cb8b91f427cb4993ba0fbaeb2d5b102d,
  0x32152b052cfd34e230323caaa0f9a067e99c48b79bd4c1ae9cafe8044803688d,
  0x3d9070541438538887572523149bcdeb4e64402e32262b7a9f99a267a5f2575c]

def cA151 : List Nat := [
  0x1b6fe7688cae093c3532f13e245257daf4415c9e1fbf4a44310898a4677149eb,
  0x31ebd3b3c7d485f81b46920ef989b6aeffcfed014adfd9970fd9f4ec170b7dfa,
  0x1cab84e1eb4ed7b360600ebba9fe607dc20fd22dc6d7c3ddecc95d44312ae68a,
  0x4c0f27f478371da625f0b0c5cedd653f9ec54e9a41e64c261a873be794c00214,
  0x6552e7ec5971b792ea2b2252dcc5ba2f9a6206b1d8fc5692321e3908de4a35ef,
  0x6ec8fb4818d7f494bb8cb4830e516439dc4046b03176a0a17d9ecf607bc1b886,
  0x23fe53e0b85763062b598e6a4d24e1503ef6c95deccad6eb30b1a04df65dc58a,
  0x5c448c333b7a98a007ba3425865471a29d5355ad14d133a52644a13bc4d0a5df,
  0xc9aa85c64c972f011e263711ba3485089e2b3368b44c86756a831aef811a685,
  0x305e286302425aa69a8274689b4b0a1c49dd351b90de02088ce12d6b0143800f,
  0x2ac4aa129eb5c28420d06c211189513d7ace7536071d5265312cc3cdea677cd1,
  0x6b13f30588b6fec510765f16341b28324084c38eb1f53161b6f9ccc123c1e151,
  0x56ec413b76d948c11e0ae060b2dd8c80e8b1b2aef8a7e6d662063f6817d07ae8,
  0x3f032d828da1bb56b65e89a80a830cefd602a474f10685bc6570da3375181fcd,
  0x26c721230b83c4a06124fd4750784ba9419a23dea7872a567f9fd51765725e88,
  0x5360ab35c74d0dfe2c5e8f709f0bd82d63ea0ad16d95571dd9dfe128163fa8ad]

def cA152 : List Nat := [
  0x3dfd807b5083d8e8eee2584e8c960820df85167e417f0a9f7607d196bb043af6,
  0x3636bbac6a06bc01e0d4bc242cea175c19a6ac00c2e26e693f2c00f7f485bcb7,
  0x4a7bf4a7f598513b84292a43cae858e00357986946d05a603837f2418f22adaf,
  0x1ca5358e9646a77efd09c8e981ee449333646ccf557196112c953ec14f9560e6,
  0x3f2f7b309b9671a30f3dd64b719a20990bec95dab86129016f092cbcbe0b8ae5,
  0x34be9080273854423594427e7cf82d5251ddcb101d3bf3d297af1d42a808293d,
  0x49623bbfb85086964ed225d522a796dd5001ca08f29a691cdb783837d5b779e8,
  0x6b9ffb5ca241af20f130652cf291684f2c25b15fec876e67f6e361e7fceae06c,
  0x71fe7dcecd0d1b3b497daf2a36168126e64c2905f2998b627892b435dbf469e4,
  0x1a04c43e12df0c01432aa06403506a45a0045eeca5c34b497e4707f5dd48ee5c,
  0x6523b767134129757c0c26831da7a5ef65ec2d16b47aee668a438a370aabda36,
  0x3d791e096413d6da4895d1b5e135cb21c5d5941c9e1372c9f857695ca04d2fef,
  0x49bba922553173b271290d2e8d397eb2e4e63969b5c23fedeb7b56137fad8479,
  0x61bf19eea8eb1a5839095a016e5faf91e371148b54e97368f76854703e736758,
  0x1eacb122f2322ff4d2adcc7be4efc06519ffaf26bcd4e9eb07e4f18a34d8f1,
  0x499e997236366f8e97ed8bab47dd654bbf1e14260aa2307847301e3ed68190a3]

def cA153 : List Nat := [
  0x54b16d6ca08ddf372d5ec9716f3e90ce1e519b778e2b0ba5232f6f42677eaadf,
  0x6d77dae778bb2a49d37335e751f6ce5632b5921945346b4111544911f1d2a3b7,
  0x5b687a644d3b683e634e34dcbca067cec6327950ef46a02d8946902fc8f74d1c,
  0x276dd953a77602ec12af644dbf5da81621bd2fb9ebed112b4071a1d5d1a12065,
  0x32b3eaa392bac13082583ba27d9ce8faa8a7b0d5b3c555e5749352b4b34bf7bb,
  0x692be35330cfa010c43eee01ab486ece34e498a6a164ceb5c458846526d35c6d,
  0xda1c659b40175d2aba19411c0a6b014809a2391d6d5ea8050a86b9b3d82cb4,
  0x225da360d56a642abd1a1fb859d1a9617bfefb8adaf9a36423059b10dd6a7e76,
  0x4940efc43dff460e88f9f0d47f8f2a106c55c8870eb4261ba90743e62b7f2d8c,
  0x522dccace1385d9ad9196fcb1c60e1b15e546f5e555908e95891384548ce81b0,
  0x3b091b7a3b33027c9fdb8f930725516ac3887522252588947c558bb2545a8325,
  0x486a731c90968bc0e1c41f363d168ede850149bdcc738ac2353088eb70e7b3fa,
  0x23f9902595dbbedd68b3fed1e323ce6bc45f53df84c4235cd8db2be9422fe7bf,
  0x9c83f6d6c47004de69b2aa326427bbd4763e3c2492544553aae8391459035fb,
  0x60e01a839e1f90c44cc8c981bec2e94f1b04e40f2f43c44e592b26f120d19b81,
  0x1dab1c0e6372bafab819b95d504f7e2ae19beff704a756c55e153767c1691e06]

def cA154 : List Nat := [
  0x50342571bc0e551fae0682668589d587f5d4a4e411c4239d44b8ad71f65bc61b,
  0x7a37642c5169949c1497cbe625674710bb69962f84891b17b7d1964bcc073d3,
  0x50f8b269400b06a8671a4f3a16fa3dde6e0d931570ddf451a84cdcf89dfbf3e3,
  0x32ac12dd1032412463e85a9c93552b44ddf492ee1621120615e3efba43058a9b,
  0x20002171eef518dbb4214340cf1ab55b935198e335647d124704ad45e9a0bfa7,
  0x41932229185d8d863160ecd075e701e243c842343dfeb253da01a8cd6fd481b1,
  0x45e21785a860c14e143f28075b25f4e1d74e02667a030c0b7651b549b9570d43,
  0x3b7d7c102f2c293f6e87ecffdcb8b41be01641932c43d114556b1d5f64bb004a,
  0x688121867ab29dd490b67791bfb4ee4c1a6b7e5637e1c8222e6dc6c45c5b7a02,
  0x3abcc7540797a0cc47d10bf4af8104ca3fcfe1f50a2ea07784d7c69ce935df2d,
  0x3b9cd251d4ccbb72eb12dc42bf5ef7ff935ef968b1fda95602fd29f822c433e2,
  0x3ec29ce79d3c889f4e620be985981bf954231bd0634669f0f9b63a5b4014445b,
  0x72a71715944a903d1f89c1605339e70f4343ce90164baa2550bb02171ff85aa7,
  0x5249b53a8557f789d41125780327fc07151b6a63b1627318c71474378a1894b2,
  0x2f39aefd4d05bd2589300149f982ab4d6dfb1171c408101450bb4bd879201572,
  0x34de0ebe43f9b6acd7d97c4ad9883fb8463b5aa350dc8b6baadfaec8106128b]

def cA155 : List Nat := [
  0x3655dac796014df2bdbc9ed3a9ef7ea70e02ed2c79985654bb482fe7215226a8,
  0x5d525405f1fdc74c8ef01ed4c8c9a54a4fc4c915c05362e6cbb3ce8866e44592,
  0x672bc3ad81f3852edc7f878ceb753347701f4cc7c2f7a4b615b05bb3ef2a1564,
  0x6b8e86bb8d8d5a362efd35cef6c17b3d96e476a5e89d09b5d68a3afd6da094fd,
  0x65d2452a30bb3b7346a6c512467be03995a456e5b969bcfba0fec4a246e5d669,
  0x1adaaeb1d9b24e6afc5753eae86cf30cced5e1c44a8b479316b53dbc93abb1af,
  0xa052d2582f841a38430af395579867a5f3bee756c8ac487ed655c0defbeca57,
  0x34afc35891edc65d00e2bd64494e31c2786d02a5822984f910f6cf058a943e8f,
  0x5ee0064cf5564c623cde9c2969b0df1386e715b40eac1816f0a625377a662a7b,
  0x9d4b6d168ab072b158f5d347665a1c3efa90f453a96f1cd876fe45d95c29efb,
  0xa164896065d598312255f955763b2b72444adcc0fba51fa76b3d2cab2990593,
  0xb15e5d2425dc83ace39d9fe0fc6a0c715f383cd2bfa9b2f1ceacbc1832e9812,
  0x1ccc7b6522db3963892f4bcee3355b32f49450c0331eb415570a742a91d020f1,
  0x23e683698aae3040a075b619d30eb50827ace9e3441fbd738b7949e1912c9aa5,
  0x1c3ad833694a5fc95a8425022c41eb446dddfbe1e186920751ae1445caa74eab,
  0x3c227a9db8ccd7e269617bb1d8178752aca877781e4f0339354c27a11c6d0f2d]

def cA156 : List Nat := [
  0x5e9d6d5632b91e8f8563362b486e5b41dc207ce0447e40dc72a78f4e10fe45ac,
  0x270d82adaf5aa6ba12da9d65981af9cbaa6bc086ca584a0123afc734190a061e,
  0x2375b79d2fa9ab56dafd9012bc36c564868b32c086c9cdef7df179737f0a46b1,
  0x11a4f40a702424b4fdd8c40a26868c461582763481e6f1cb42ed65981373ee51,
  0x177d79292b1b5b03daa517f3012762bf68f49593b0bf3a280f0e43fd7f9bf47c,
  0x5f342d35af022d3a3093a84081389155edd93ef4f8316b983098d7609a79a124,
  0x341f44868eccbe11d2e683a5cc465366e2c1dcbe06ab12dcd122d0116cb07a89,
  0x2f14e217374fdccae4d1ed944fe8afec07009f05fdf80b798b478972f878a49d,
  0x3a18251c039f70173bfc08e0c2946c7b05f47230dac4c9779862509362ed4865,
  0x336267508df3525193394c44616b5aea8b2daee00457380f86afdd7a69125dfe,
  0x445ac793d2255b93a1e99b089c6a9159c44334c56889413328b7de6e4f0b11c9,
  0x3d825732d2a0e0d2ef285669c5369e7384f543aa6962c75ebc84c51b29a349f1,
  0x1a5ec24740f3075281fceccea5d32c0d3a3a3bd74092235ab82e08337d9617be,
  0x17dd2fcec07c1eacb9fe2248efda7555102b0e733515ddff8e5757bd3242c221,
  0x4259e1cf674916db34839faa0534577fd55ed4c221db3d9f38ad4d88da762685,
  0x46b61027514fe3fee9d81759260a5a30ed40e115837b9780c583a3e768dfc878]

def cA157 : List Nat := [
  0x2a38ed581df2eeb341ed9104c2499a597ce078e3319b515911b335aab8bcceb7,
  0x29a30acb36a307820d4475b827ad87c0afb4a95f5f71bb5d933db84dfbe6860d,
  0x4a4c08253110c480c52aa3d6b076b884288db22b249fc459d1c814635259453,
  0x4d3d0f0a6891f6ebcb53affdf0f382fd2f83a3f1072e547acd212641217cf09e,
  0x2a7ae1b18fde4548f038af88fa32d89c7ab799caac27cd2e553b08dff9b296c3,
  0x22059a5db66cf58918a08478263aa793c0d818b76e68c6a861b6a0c51bba29d7,
  0x40b6dda51064f92b22c46be406c5435c0fb317de8366f32e4dbe662a2e852bac,
  0x2e4d20f87f8a14a45a21254d15b8033504ce2eaf85f62d8a06b42ae8cc5d457e,
  0x686ceac185d0cb11cee12f9e48ee538ffe34fa08b2be601d08630b5cd5f7cc85,
  0x2223d8d005ae7921893e64d3c2c4ff5c9146d326660af2ec09b948de93ce20d6,
  0x93f961b87587ecd76adbf47ab8f116f381d7b6eb995e581d4163087d429370c,
  0x38035bd9428d2c18e55fa643c9050558066eeef78bdcfa5d281c7a9646103279,
  0x2a1f1e48afb1cb3d61195fc006d277b2966d355f1107b7f650414ea017c1f23c,
  0x46ee92ff40705f4c384cf6d18eb02a225d63429f606e21f578203a37ba76bcf2,
  0x3c22db0467526da94b9c3d1c4b470cbba8cae4e642c699022d9ce772399d4305,
  0x5ab78bf232324152418732529509969fb9a5f04120ba28846f90bf601f763c25]

def cA158 : List Nat := [
  0x405a432be67946b7a4d4322c64fbd496caa24184de335fb736b44567820d8460,
  0x522be209ce46f5f60d1a9b1b9a082125f0f7f80c0aafc98eacad4d50e2ef13,
  0x3342b1f692f529a393b2a351cb701be6b6ac3a82b941aaed96e99f6e59f702fb,
  0x3abd3b32cbfa3854f2c09e4130d9af9525b520f4112f3da83d592451e41c18d1,
  0xc29fd59a1c5b476087635c6032fbc6bcb065db08a94a0aa8648a23f66b4f67c,
  0x3be17bf59b1fc129f385e8f65367641d9ae6c293ac992133bce9f99fe6239dcd,
  0x5be6a620ce805d9d0b14a51ddfbf7e0f11d42485f8f9feb8d7533c150619a2b2,
  0x1daee2c162da16c089886b4f83896d84428ad920f34c9abf57b2070f15d60612,
  0x40fd26e6158bf7fa0cd57df1eecd61c655e0714aff8d6a62dabe67a1205f2e1e,
  0x2392be179af8f73a61905b9bfb7be8ce336eb99fbf61470a2b7de7a68bfca692,
  0x4230130eb20824f91169564795b2ca5ae1c557f7bd31ab76d93f0dee9cdf4579,
  0x2672d9f582bb965496990b5f9b7bca3a9e00aeec5b6ae5671a909cbc50d7a65b,
  0x1ab4a486659e99ae487b56293d761c1d1a1a19fb121b1bbeabbd26c3cc6ed337,
  0x58bf4838946a13111ec7770c25a127461a1b43c0e3b43c57f8c8e7f1f27b0e15,
  0x60954c9fa740cc3e7899da1b2dc98069de15853b32e84c7b2a13dc9d80c0f6fc,
  0x2c4bbcef116432069d5206bc16d85e46ecb922e164acb0d3317f981cc2764db1]

def cA159 : List Nat := [
  0x16150fb50524e80f5c08c6e11af172aeac5d63c78ec7a54eba60f15727faad40,
  0x7195ba3c789548f59b453afe960d531957664fe481c6af18a61f35f885790fcd,
  0x39ca14179a0305a01eb8053a420f1b9482c566c037c45bec20ba8dec6371ca00,
  0x2c4d3c7b6adcf95bfc7e67b4d50e66506cd31d9d03289da6eb83efe6b837d7be,
  0x391d753645d23b5cdceba55d3ffaf665d37c8d9ae86b635bb6db23d8906a150b,
  0x62f26157e78dcde30fe5235ef0d00cad398e674e038bf9dd795e7453cff02a3d,
  0x539e30e86f9800c5888a9d0862a0b5f8fa4ea8bd75e5f63a6f6dee48ca5e73f1,
  0x4e1d0d9251067aeb2ebc489a4a957b56a001ac14a66d60e4878082ced87eb77c,
  0x193f4a9f281d80be8b6c0eb650171893f156922a1d04529e8689062fc1e0538f,
  0x4434535952bba847d8df09123a058bfef0d4cc397daee544d56b8fb90d11fed,
  0x7ccb9ed6c5ab987f1edd44d840ca41c57ce44a2ce29b946826f60c1c7b3253a,
  0x6d04def190d6c2cacab29caf4e54a6b8d447061c2b7ea5812d5d3ba92a1b4e5c,
  0x650acba72bb4dbb16018a6425e20fffb35c05476747cb9fddec088bcfa05a56,
  0x2f70057217ea60e6aaad199ef190effc0c7d70c677008d7002005f8916cbca8,
  0xf85e04198922976ed9adc3df0793e1d17e1838f1507af9fa4fa71104f0fe4ce,
  0x5f2cdc8bf69da443a304e8a478527fb0ddf70a78d0623ba44021b4203fc75ffb]

def cA160 : List Nat := [
  0x3ce2bcfc7dcc69fab25c4d3a027b8e8fac88cefb548637de7a7228fcad97744,
  0x2cf269e0ca79dfbb309e08936bf1b28cc02295fdde4106ca2a3f13ee7567afc6,
  0x4b5a1094d3bc84382354000426c9a6dc4741a8f719d4424c256e61b974962024,
  0x62765f88d800ea5fe55bf3444fd31bc7de1afe8054a35d783ed1bb1232d87306,
  0x3ab8de7f0adfcb000f4efc060117d0c98f547f62dc0a44e7897afb85f3f927b5,
  0x1ff947fac47f6f94286476eaf1a8c03b8a9589ff5684017fecd3d44ebd46a566,
  0x36cb6a1b1b9f17ee35ec8b8819b51c1b8ecee483c55bc67614b1556905920b8d,
  0x650062b75dc1b89e33e34ba656da5f453b47139b00b8b135db86a96d9421bc05,
  0x4436303ef24f9217c1f7302d1cbc0a812f253f63ea7c47e6a9cb65257bac54db,
  0x3c0999b14fe1a0bc2e50896618a06fd4217a774770db770f8450e2efaee6cb19,
  0x2a75ddb39f87035961940794b7ff443884758c1951e360ff78ca2e071b15371b,
  0x2e77de28a320e527bbc33adc957854de7105188419be0f874580bffa11786fe0,
  0x5ad5fdcaaa93f47af297fde378ae0f07e2e6550ab23caec11dab135bb207914e,
  0x3aa47e0ba2fb522610a8e1561f7f15889cdd7fb2747c9ca8761cc103a478e6a9,
  0x1a9bea26a5a53be6cc222bd46f0d44e926d5e980022e29f5d883937223d97d5c,
  0x3b8ed97ecbb5999b15b7b10769a81570dbf50747deee1ccf8635a160d0eead4c]

def cA161 : List Nat := [
  0xcadac1e17fbc544913301ea8fad7f9b8479c6789f264d1bdf5e3d5da21d2f74,
  0x2e3959eb8f514b73c23b28e384ba147d4ceb9dc5415873689f9df4f52f87e921,
  0x175d3f88d9e39ff9605e1d4d240793f50efc2bdfafa8f3ccd6fddccf9f091cb2,
  0x69cf28b09598423d8398f97e0f90db0643eb665234028daef9cbd45546e11116,
  0x3fe11d3ce029a4191ae568e5363c6100e3dcec76bf2415e03f6c76b668d6b8f2,
  0x4fb95fe835d4a11e60fac221ae22779e866908527dc91e0d5ce3db52b9706c28,
  0x5cd009528269e3b1da297bc5571d885f81433cad595664d459deb1070417792f,
  0x6d0814d64d26a8a9180b7c9a64a4c6c68c3f2088d26445d627d7a737322bdcd2,
  0x2932bc9edcdf9fc38174784927857128efbe7b546a1d17afb202f3ebeccd8b0c,
  0xaeaf9caed96c33fabff8a36edf12e2cc93c39b7b7e4bc4b2934e842dc2a452f,
  0x38c4d326d0ec22007ba10af23d4b527014701bf603e3a7fe180596eeae827f67,
  0x5734574cb0dc6198282cb376e7913b5bae988806f368301a4257516086a966a6,
  0x56414e32b93464d6537eb0a3be6534720c20092db412896af038505be69e03d7,
  0x2bd8b63f34be95afd8263dbec23ddcb8e273007e284d126e9ca06f0d57f71220,
  0x63e391cb92a90d088bf5ed377cc9968932cd1f59745c4f7cfb9a6a1addb41bbe,
  0x2be81e0e8cb6043a2254b36da78402b5d149443b72a63de0525b249b083a0b8a]

def cA162 : List Nat := [
  0x1bbe8fcbefc426b463c1410f2452f6a68349ac4db5038d15de23ff62cfff89c5,
  0x4734de61041c1f768c42151dc1f15268c3750444ed5c6c60453efe4fd5f65766,
  0x57d9b45b62bc02bc885e23608344fa577612bf6b6ba14b467489201828c205ad,
  0x33040f289688ef7dd1b26821a9fb72996b986b2a467985b4ed190cbafcf2d8cb,
  0x1e71fcb19aa1fdfd2c303af3761734ce61b917de93b46193606d244ced9d8ea8,
  0x229054adc70268fa72a91c7d374aa2ecb485dc616a98fa075a686c9d31c8da8a,
  0x4dd274aef924f17d74272ecd77a82d93bb309508250fb9037506e148f2a15bdb,
  0x44ccc5be9c793c93964ea9fc9a36ee940cbf15ab9e7065ede5bd3a8861969d86,
  0x24e2a0096fa732589974d57561c2f21abd1e7ddd0458705e1e76cd883b15ca06,
  0x183c104dde10e8ff6bdad9cad6aa96489fe4041044beb03069c7835c569711a,
  0x9a45825aa68236018deb36591b1c9da04d068beb948560a0c2996be4964dc5c,
  0x2663ef7a573b64823193a162a9822bda143a57bcfc9396267b379443830e5837,
  0x69ed305ee286252ed6f9ce5b0a649250a1d7cc22555bb31e25b64b868ea0b7be,
  0xd9f25bb492f75dd23f293bf70c53b597a3057380b40aa1063889285482ad98f,
  0x50dd60540d5abdd83e61bf836b5814e76037899bb997fdde3c255650c33e0c2d,
  0x231b8e1cc2ff8674f63132d6866dd35da1cec35d9eb3ca856dca0caacc168e22]

def cA163 : List Nat := [
  0x4ee169e611c60e1ce2009a9aa2ed910a3c268bb95e64697e24da37c39bf8b61,
  0x101eb521aaec8ce8297a01a81ee9a369bdea3356bc17e1f8a6ddd5a680591096,
  0x2315e56d21e78c67d2f84c71953685cd4666c075996d1dd37a0394e7e8cac675,
  0x19afe1e0abfd8e090b0e7a411512078eed452b062147cd9523b042cd8c60b611,
  0x333d9c8559d015c5e63873a56b5ef8829e2d5481d23436ebefd5570b971ce563,
  0x688e5f4d54614603eefb2a3bf20308a6e38aec514882bd977b1707b14c99bcbb,
  0x2414213e064a9f84f7e9c42cdbdc3f2be1d6717071deedd7f8fdc9828f0b639f,
  0x66f3ca6ea32427c442a56f1adc01290d6af8488b9e78183e9cb30ad09e0af284,
  0x451b16fb5eba1741bf361fd6d523aeb6addbce52ac41b898da082757c09725b6,
  0x5765674c4f7a5d3798a2b2eb7f4741758ee12995b4afe1a4439e9d86c3bae978,
  0x612b7a78bc2f00154aab25e583d37dc55e57eab9efeec39047cd3c02045f28b2,
  0x3530a3f831a2f8c9c7a1b5c0da79fb88dc6c3958f0f64ba65949a612558e4584,
  0xe52114396f8d5bb80a2c1a19c5967d841e9e37e46a95644e242fb01c8094aea,
  0x7188cc7c44853a1f89a4afb36f00fc200433bcd33c13f056c6fa9a521e0553b6,
  0x1b173b60039f55faf246542589111047bb2d4797c198bd0010cdd7491d16cca2,
  0x4ddd37da53c13a7157cf911300a1ac7b314d76647e5edd223afbeb23774ea2f3]

def cA164 : List Nat := [
  0x2092b3b0e3bc31dd84027d72ebb921c5a19e079f8d6e2cee69c2d039d1753a25,
  0x3b286ab88f3fd39ee7e12a5e44c43f247595d2d3498064e6630d2862c347ac75,
  0x64d41236fbd73b8e886566ff34ccfb4ce33455973f9dc6c35eb7a9626c85637d,
  0x227e0111bdd90a9eec9bd17f3b5c415456d1ad1c9cd7264a969dfe9625fa6cd8,
  0x1b1e8008af49212fbff58af07350ee70c531a062be69a9f099023d02d2ac527,
  0x6d2b8ba059e752492ef5b133892d036ff84eaa7a5616113197427f71b2d2c51f,
  0x71e942be94e1485e0928d60606f218baac823197c85f42c7ecdcb504e08b299c,
  0x4a4642449c85cc2d343a05c89fee70e9bd868b7c7f0691d728cc934da46ecc13,
  0x53032516aa8d5b21e4d5b25c41e327dd4e0971abf4135d987c497ef40d362dad,
  0x5ae0f5f4197030cd696a3b56fc7a21e04a117e0297e855d47351e9edb6a22719,
  0x17714b3b3b48ec8ad449158afa36bc9a29677ec513bae5eb5deb15217d15ecee,
  0x40fadbfe33e37d9127a0ffd38ffdc435e15cac4810dad6522ace121991e7e141,
  0x2cfa32f2a28517857f6e85a6642e2cf8f28339d3af9b84e841368b66cdbef09b,
  0x45f8f8a925f4ae509488720b9e59adf8e96fe72183acede3b19b66d3946a88f0,
  0x58a23843dedfe5c9ef4cd042a12044a9b6d21ee8d258bca1e2abc153cbfcb7b1,
  0x64663ce034f98711f9758e104daae343e697c8f50d52478ad1af5ee9840cdd91]

def cA165 : List Nat := [
  0x6519db351127e5de0fb96075c603e55cf426181c0fbc0f1bc059d47a0272d5cc,
  0x22e2dd6a658df3d7d1125c578eba4023db82eaee8cdbccaa3d3c1df61ae6c0fd,
  0x41c72e855e404a7ffa9d3a2e69bd84a3c7f3d73bcb5801b436f984ba517a9e58,
  0x16a94e1c79cb2dc71cc1b4cc6d112cb405c10881b295e0bdb8306ce609513ad5,
  0x21d3e7853e9da5052627cac1795f15b7f69f25ed89a856eff0b804409d83ea3a,
  0x25cd888425b93dc04e3508e16e24904bb9b27c6881cf511b9d574e9dfed95017,
  0x46cdcad8c0dec640e90c69db49e6155997b3c7d727f206d801d995b8b85966b8,
  0x49874685cce82941fc057dda685931ddeb59082b17c6e6c473a353f840f4469e,
  0x4e6139d61bf400d34d1cafe3d3a5655fe94fd821bbaae30325acdcd2e05f1180,
  0x2874e57eb8e36771445b2c7f0d5fe095ff39d4bd03705b8d240ffd343584368f,
  0x71ed5078b0de6d21bcb14d51ca72eae1326b52fe87255fb0242930f2a011eefb,
  0x53a5cd5fb64d88e072113b1bc60e5d4abf0c996df6802474df3791417200d1fb,
  0x6b73ee379a2937294d63aaafed55a585de0fd490e5f666cc212c38e49ead13d2,
  0x63b7e1cc4040443790a5c7467f02b182f32f7263ab4521feee1cd3a1cd02e004,
  0x22fbf8b8dfb52694ab92fcc14ac9d0b1a61c7d28349ced957226dea28dc7aed0,
  0xe1083291a2d1e245d863059a14d78a973deb069592259fea74c0f4af3f26fbf]

def cA166 : List Nat := [
  0x677f727e9260e22816bd25b214a31fe1b00e35da4b914f609f816236010af570,
  0x383013b8e8348c45cd0cbacb35531cbf5fb98a83b2a0a07e7a6b1fd47222c5df,
  0x35e38e38ca9191a06bed64745e6e689fdb2fb8978ac4a6e89a6ef465a5f681ad,
  0x3514cb5d2d475860ae084f84e77f4be2c841819e80dc0d759b056d6e50bd1e12,
  0x4603f63179c5b2dc00ae44d848cec5d9a0ee460d081af3b6153c233812f3cdfb,
  0x3636972b95615666f5d7fa994a02c285981d4a3e6c11e9db0f6b8c154715cf66,
  0x5e90ab7178ce6259f675617db9c3fcca20f5b047ab71840359411c53135d167b,
  0x42f1f6189add24bc305c5649f3142db7a59f36a37b33a89dcb3ab6ebc625299c,
  0xd6156dcec4e9b26c3961fd20ff6dec635c78827b43b215b2e0bde698f9be867,
  0x54c3b6be259c5dea1392dbb94012c51973ffb971f578949c6ae04e081b50c53b,
  0x72686dd7db5dce5f1f7c1225d3ea8e5a5813cbdd8e3f6feb83c09ec559096951,
  0x474609eaf2806ce6034d9a304ab156530456f4a50013853498ec025df71fc519,
  0x2161cc520abe41de924b8996f91bb9e490ea5e0137b7c250b763fb0ce7feeacc,
  0x5cf9287d314032b6bc3ba9aef5b710bb8ae40e5ecf387b2601a50df8c51dcf2b,
  0x20cc3c2f35439f1cba5709d6491f622a51570300af1e4d69106dc801f3e33015,
  0x6581b9fe48932d8b0fe8426195ffe0a0b52a1bd0b8f448df8793bccd64ad2544]

def cA167 : List Nat := [
  0x45d32f8085f877132d84ad5c21cc39c3235293854c68c7b15a4c19108f505ef,
  0x3dbcb5236eda0b885fe680568796025e0a5ed8c9745d4f9d7bd75a800ff6d88f,
  0xdb558f7687bb0954e4fff9d9c5f2b6d2823573bfa793e3a7aae23d154ce6000,
  0x51c694a9e0d61679c5a712e42519da47bb653cbf5df44ecf1428c60f433d1cb5,
  0x1fb515c284e281064530a6e4c39c6e42b3f69b575cbf99f51a8596a715117de0,
  0x4a28622915601931e89c6f842a9aa07d3fe48a382c29dee1f2633bd118c7d19,
  0x4eb094f34dec9eda99c84cfc1bec7abd054c18edf139459c41b6ef469879997c,
  0x2898b21620d12df01cca59879024dba4356492c247e9d4b4fd5082185eed7bb5,
  0x444b1741f538b456e645ec03acf1e004bc667d4e597ead289d7055b47ea4511,
  0x648024119f36a33aa95029b4a15e13935ba80d7496cf7526c5f1ab439a380180,
  0xf69a1ec151ff61c7dbf4a93fe922d350a185d49866874c71457b45e11be2653,
  0x4b3d0cc8424198941c47f08d8444828a606a279abe3be92f221ca5777756f4e6,
  0x6ba63a6fac675bd3bf213d02b8237b79f10cbaa2cc811d32ec83215d0eff179b,
  0x3d481aa587beb59d316823a628fa01e7524ac14f3cfb45af530d33f1fcb34b08,
  0x3e51531430155bfae132fc5fe1318ec4f389fe46546874fecac571d9df563a7d,
  0x38bf82efd05847a6af9c980d1167ebd69dee88bf618ee86001a1e600fda62302]

def cA168 : List Nat := [
  0x6edee564a8cd2d9de454a8b76f54802cd3ee0f59cee9aaafd27c9f390188c963,
  0x162a7725ce6fda38d27be104b7a29c0ac3911330d140d51b7c1e5f557a54a7c,
  0x695a1d4f11fcbf60265c9c70ff03d303b1c9522a070ccba5841dda93c5027477,
  0x6d8c18385438fbe7dae7bb4097c168d62c8471544447ef9b6fb6470636629de6,
  0x4a7e3bc5319b4362e8c3e80d1876ef219ed8d5a94ceef0a47a25ddbb2069b662,
  0x66d0a4514c6ef7e21c9bf5ba84dab4df612026078ed2ae58eeb27ff741c52dcb,
  0x1d9b4d14897e9ce6bd839f861844f6011bc7638fe03bd35cef89632991fd382d,
  0x45c62a3fb1d9b7980d33a8f82706051e855c627597314c31037ac02cd49d2c7f,
  0x2516e8af6a8a96875ddd11a88928443d7d60be0b542fb68ee5caddcf778a506e,
  0x19fc52acc35951767e9fd816db6cf374019d2f21d266810361b923832ede59ed,
  0x1fa60779e989c986cde8ac606b2cf4fef6d1ccb4800af4a9125c44a99900b94c,
  0x5169166ae04d8efe2b4ad420b5b3ab2592fff8e41512ed0e7f614051f3a87ed0,
  0x2150a5fdf42686d5dfdb6a34941514f159373d82d5f367f53852e4841e85bb5d,
  0x3f9270d2476714c306b63529d65ad8425338382ef6d56bbd5895cef5b9180daf,
  0x45ab59008d4e1056d0bff105c630a06c3a41033ff573535fd932d3576b4fe143,
  0x3646e509f7ce5ee82b0930d0c879f9715a1982ef8b7bddc0ecb2fa101721d9fe]

def cA169 : List Nat := [
  0x2c61a48b05bccf1675913552b48749ef9d88cbd29db707f7879ca7308489c0c,
  0xb91a388502138685cd6ac3a1f5232b4546431ded72d8c7f3a8600f8498a750d,
  0x3f74da4650835c8e063641aa6f63f896eb5f9202f5d1dad3aee427e6ac3164bf,
  0x4dc16213d01fa7c82c910e75ab5082463239ad5dfd898dfc96cd5ef4e41555a7,
  0x6cd3865b1048d5852544f71ac432b7717c89907cab413431c7ba78acd47393f5,
  0x4d256f8347aca7f05992f430cc0561c29e373376888081aba9d95b83e783bb,
  0x181d2d7028f2de68f759ec81d0615947451387091a77970e1bc59a4d3beae82c,
  0x5cf1e04dfcbd23422060e69a8c67dc74db561c0a3d746ebe2e249b9bd8a035c9,
  0x1658acc770aaaeba3daa4d834f7b9410e50906c6f84c580641c30d3a9c8b0357,
  0x5e68fc0ddb3a293ae38a01c07d2f0beebb284d591195d408d418c27aa5fa6089,
  0x6726c3de966d87291f7816c95ded5b469af5ed56952d708eec2a106bf9609323,
  0x25bf4b6152618173c07c74bae6c5de8be6983b7d745d24683c6582537608a751,
  0x6f70714b3906c7118a44516b85626be46ec9faee98206125fd0f2d9e8eae1cb5,
  0x19c8fa758587e9626a41d025e3eba3d94be376bd6866016d4a6a1f6f36589b0a,
  0x32a9dc9ae7494a4f14f71df193cac12645944ff2e3bb9f5c8725d1a46e631b15,
  0x29ba17bfc239a59af65f9b8b53753d9a697310cfcf01104a212d2fd896b887a]

def cA170 : List Nat := [
  0x4023b4930359997ab173231176627e9b98aebfe462156d5bc583eae8e78b92fa,
  0x300a49d27a101e890c874957c2cc41b9d8ee82015924e803cbf21057d262f63d,
  0x498d164639206ffbf0e8dd55b99f7efc06044c952cac00733677366fc44f7a89,
  0x68600ba439b08c17d33a78e3fa8d326b863cdfece94ad75471837c4b9f4461ee,
  0x12ef8e05ef9d643aca6c9d6f4deecfdf916bf3ecfb26378b5d3716d06aa56b67,
  0x457f559cc5fcbb3ae06eddfb875a0f12c177e33c589ead6a52815506f72d573e,
  0x6c21918bc7265ccbb25f90c491f55855a1efc2e1e320ea5c5d3004bd5d3d097e,
  0xf0503e60380c854499024307e3e040bdcffa97db7abf89cf525bf623feffa7b,
  0x49a4eb5512d4ac06247112e5cb3c54fa3da4ef9a361c5d37a98df2595650b5c5,
  0x6c38e84bf1dde94682fd7b323ada8360a40c8e23f29e39c542a8f6e35800ba81,
  0x1ca3450ee2b44ae894c04ea9db9ce0e57758d4c2a69646ae75356401f1ea3c89,
  0x403c641e591f5c06cce861e24efa634fa674d6b87f83c7de25f197ffb7de4b79,
  0x671f5d4b75f97357db533445937b7960bdc9b84a256096966674ce5d6f662d94,
  0x1b3d8cf0891c0abedcd14225dab3f0e65d16ed40bdb1eecfda29a40cb01efed3,
  0xf6339566e496d2b258dbdc96b5139e483cd86c66fccdb9965981b0f6b7099b1,
  0x12dd403e400d619097e7105779066056a8f47f0fece32c824b513fb8f2c43fb3]

def cA171 : List Nat := [
  0x47faa2e32f84a7e1961e85e0ebb69d2796d83903258fb321c57f003c37f73efc,
  0x18dd23c1afbe7aabdded69e2dc446672a1678184ed7914a3e9a247168a654b4,
  0x5327a62a499bf53fb1ccc756aacdd8f3bcd4ebb44d4fe9760f14ded85a21aa2b,
  0x3ed665ec7aedf647b0347771bc9485795ab28f33f6dff80c320b7658f8979923,
  0x70aaaa502eed50620e58d4a1a0d95bf77411a68a80fda74c97e98d0309e397d4,
  0x1d9adaafdc857b8d8f49514de0159b7997a29814ba6129c4ab5368bf47cd23d0,
  0x6c8774af77fab8293f0fb71fc83028ed204aab42ff786c86cdc1cf9b9163c370,
  0x2ebe7c8e64652dd5e890c042838e464f49980dfe15c5519d847da32d977ccbc0,
  0x3094af5addd1a36dbb96c816deb1a57b0f747a679403e868a7569c55cf491743,
  0x978a5974a2f69e5a3289b51c0ac71b47e0e5a0cbd8e8308ff96fa1d18e33b88,
  0x25e8e06598996e0b59ed9a4570addd5dec126597a60b7d77eb69ad805107b417,
  0x6d7c3cbef2c134db0c47fbc38dbc2402cee95c034b229645ee8509c2620559cf,
  0x63fdf4e7f138b6fd507956022cc150460a6b057b585bfc9cad9c58b79697f580,
  0x51e82825a76477ea25de130c6c75dffade36d1ffa7a47079b2cb6622b8189c83,
  0x21f279714d3f1a83f7e3699c8d166d821c5deec6654f002a5086fbf800bb91ec,
  0x1c8ca50f4eb03cb2626c71fca7682ae3e8732c0598fe5358b16748e0f519b31a]

def cA172 : List Nat := [
  0x798592010cdf0e2c5b8858d41060649bb4f969c060facb80100727b261b1975,
  0x66ae59b4d227db899e0f670f6a3f5e032cbe485e7684a9ba1b6436d0f6d94268,
  0x51197ccbb249bba68b263693f4eb10d282a55bb98bd5d72b7dfcffff921d1670,
  0x13a49213140941c124b85ba80f9c77b3d1dce30485922c9f2c208ae95c1710b4,
  0x4411741dc8d1a7b79c670672ea07b7b5c54587d12ab4dd82f0cf7e7b73c345c,
  0x67e98dc64397eafbaa36baac6909d52dc2aae3d8d592469deccb8ba956ef3952,
  0x18afab707acd2f476932ebb851f053af9403c6e64c5b8a7579e2809420405e24,
  0x4b591ea98a718d6e8b932c4c2c5c96b61c44e4a9d5d048ea690628e747348768,
  0x1d1642678405fae2a3cd3d74d9a600d80ddf0074d8c887ce54ffa1d1530f24d8,
  0x497253aad01084ee5a9e3ee03202ff02971d63476c3e65a3c161020b90c171ad,
  0x6b77096fbf2dba7806a4ff36fc3b4e276b8de9138565aaa53d8556437cde4c8c,
  0x46a9cb0b4f856c7b66d22df01cf7af4dab84e8c5f0d6ab26b7ea73032a3152c2,
  0x7108031dfe707e21e3aee41fef8d6034ea869fe48d7d93f65db90f405c7b245c,
  0xd4fedf6d9921741f6a37a8dcb3f5c3c6492c055ba96c9de669d0ee11f3ad8f5,
  0x23b26d14a4948ea19e560423711833dcadb307f90e197a34290bc576216ce364,
  0x2b2e322ba198caae6282d88997e1a49e1ebd1eb80570d72b9c0e970f59583923]

def cA173 : List Nat := [
  0xb26a28b620b5de2ae371871a508623c44013a287be4a7d481ecbf5d5701ea3,
  0x4d9c46a9898a7ae25855ec11a8a1110ae8cbb13d9a6fcabf086628e4bcf82eca,
  0x1b9c96a37216c0151da74e1e934a58d6800b3c17ee03af07c3c97cd3b4930dc8,
  0x360f5423b3001dbf70eff82ce5ae47145dc2b6164b073aa4ad578aac4361829f,
  0x3bd7a38eaec4e4ecbfae3ad64afaa143e041b2fd705b43889cfdee3b0fe96c97,
  0x2138c8bf3ebdef1c23742426027aeaef915e3bd18894809631db42b01c3a8ee0,
  0x29cb926d63ee7a15a29dba781076b159679976030dcfd674fa9ec7ec39c11f7a,
  0x5b3ade643974ca7255fc9be369d2e40b9dac12bd1650ef402a78a28cee568592,
  0x229d889bf19ba0506dda80b21c3f742526daec074419474be348902bb364b07e,
  0x5e2281a32c61e929a5ba7f861003a9af80651aeed54dc76b109aebe487b5d5a2,
  0x6d1a0551cf8af258864dce6f250c68cf2a477fca577a2f569adae53c235440a8,
  0x1bb05b810804e4bec112814b5c1d5ae8790bf477c83f4f77492c6123bd25fb29,
  0x385883f651508f19a951a7a4c55cd2f12899c130860da6091efbf9688a5e310e,
  0x73d69a84b239eb07303da2aedb722a7ee05106dba9cf758f220befeb625a2f61,
  0xaca43f1fb6d9f07da978f1269faa5eb8a5cbec773546382ec098ee781cf64ff,
  0x35bf1fb0dca2082adf3e3db0c136b1d7aa281e31939966c7f16ce8fa79c7b35b]

def cA174 : List Nat := [
  0x1a69bbfd5ee1f383229272891262e46eaf113bb45aa61967286440da7a0cd1fb,
  0x73ab6d6811f6726f9174109f89075611581cdd6388385d115f8deda71908d68c,
  0x63886cd8e1b0ad05112181a8323d35d8299bd07419281cffe8e1306764dbc82f,
  0x6c464599badb66f31f816240ccf08c15219c190dcb2292e50ee750fe79c57b6d,
  0x20262bf73a3d567824e5fa5c10de1e1a548e8fb3c63778fc1aea7624a0f7d9ce,
  0x5e0b039573ba6a2bfddb8dbe31cdf25597fb5b3836922458a9ce206cd17a5d37,
  0x1305996a38effce5f0e55f7c00c5545900661893255cf2c44e0d245d4cb67f28,
  0x3762080efcd970d35c17fbf940eed15797f0c19ad8e567ff1f6b2893d662c8c8,
  0x2ff06d74bec877ea525f173ea8ed0e2327eea35c005ed5bfd45fd1d0015287e3,
  0x5933c54a8bba880f1a6d78dd213eee772413f636e64c4c85182724c3a21bbdc1,
  0x280957191e69a35cd0d2488c29451a73582e194a416c4ca48e7bb22a5a64a38b,
  0x2bcfd4656d9893fac1f641af8b2e287a32c28e4113aea89b60ca31c3c1a753f,
  0x1eb872475b2a85b57ab480371c941467055b7296f9f33ee620abed395cc19fae,
  0x1d7bb737e8c4de6664fd104a9592eac09b6f0b2997a0db2720eec90d91cde7b6,
  0x60125d2e64e1d4b94748ea27e558705a4537f73741f74dbcdb6aeb60c0bca256,
  0x35ac7687ff53a78c1a439b109c01d1e5de315d03c6e2a03fc5f79beb030f3a01]

def cA175 : List Nat := [
  0x66c5bbd33deb20dd79534fac6dd99622212fe81d4a7476052f52a4c36a49a4a,
  0x12429b386cfa0ed7d26f8e14121c4095d320bccca3f53c8fd28bff0d4ee779f,
  0x3f25cb7da44ee11d174d84e19563c737e7da3e33773977a1b2182f06528e57fc,
  0x3e5fd93ce2bb7fd24865568fbeb774fd06b22aefcc2446720e614823941a8afa,
  0x1201b73204eade62ecaeefac8ad164a3040638d9d878ddbb889dcba1b2dc0ea5,
  0xac2a6a08b1e8d8a4fd69912e186327c14e3a6d9478f2ad03ddcb15682100d9f,
  0x6cfb7392db989427547d95ac81400065ed62483e040d5da52026e3be11249875,
  0x3cdf8d21dff8c250eb8cdac0171ec202cc028f08adf796eb4224d66e74efed23,
  0x4d5481bbc41209848419c0b701411d1def1972decac87176134e41956208f7d0,
  0x72b385a9d44fc77cb701c598c5ce4174bcdd24fa1d783dcba7d04133f8ab300f,
  0x3e9abe1fbd64cac73f3c056227d9fb4e241eb858bb6c1fc961b54167208921ae,
  0x6879959d18475653485b7211189612cacc3e618fd8c04e0d30d042ce0f192e34,
  0x47a78ee9caac8247ddae5a8cdc53b0f08bacdeb6a9281637208242856ca12334,
  0x15f7444d6b2e60d745202075b2c46aa6cca10a567cfb7ac19b214e4406134074,
  0x1df4a2f3dba4a806b0e7050b319fdb5002e2dba065c7d44f0d0bd557378d6aed,
  0x2a647f4feb9dccdf2938cde482b10e76776675c0dd3c5718e092a8c880745bba]

def cA176 : List Nat := [
  0x30b1fe1eb3545b2d663951de9c9e67be9dd9e27017bc1ac3e8a5e5446274c888,
  0x4af43006a3196a41c8537d26af159de15dd8b4557c97edf1e5f9108e0ab59f99,
  0x6a154044f0b0b4ccece08402df0b1276c65eb6e57b4e6b4926e808f41b845cb1,
  0x4e3e5fdbfe1b36389784bb93c0e69cc5ddc223d173997f7c318fb27cb8121925,
  0x6858050271f11a0ad885c67d7824564e70dc814cd820d935c286e1f91f5b77f2,
  0x6468a0dfa9ac81d545f1cdb2e23f4d669c80da7f33c4bdae58da56ef31bb6f41,
  0x5719b73e0eeaa2a4a31dc9fa6c3542acc58cf44b99e636b328aadfaf20c076f9,
  0x2b830a3770443928434a0c51e4816bcd6264b97d9781198600bf2daabc7c4a19,
  0x5c41c1aaa23acb0289066db4d5e0e7efe009ada05bca757ae90460e7b8c90b8d,
  0xe5a8b74d8433d02e1954e4a333a780bc392eeec3623495a1c5450d9d9c7ea8f,
  0x53c6caa2dce05efe20b7e337b89b1f0a3ced5900f2c19a392a4674cd2f4dbe82,
  0x5198bfa73beca37228d50dcc77c39f23f38a1af66342ca5320896bf031f43e7b,
  0x5e06a432a641e94775a2da713d45299b105d16a6dd8854abca518bb5ab2498bc,
  0x3e391cb987fbb61db0dd71b5d67cdad0a3e8f08312db368c02a300dc4b216134,
  0x69bf35bc22f24c6237fa75e093ad32b0d88272ac3b56ad9dc07c76cc5cc91731,
  0x2c3ca725c3057f1e4f664fe30b703de8ae31065c662bd7248da38934cceb94b9]

def cA177 : List Nat := [
  0x1390206382803dec5a3db60f8769c00ad3b564af3f582a64894bf757706d2eec,
  0x52567ef8adb39229e18c6eac671e77c07280d233df8dc0065f3f6cfeb22eb022,
  0x5576e68888d2f525fbc959dcc3b811bdcd8781a62eeb6123c256d9bcd71aef96,
  0x3aeb26266a3f813c3a004a43de88fb24418c0f5177bf15db8e5f88c97178c068,
  0x5f60d869cee731f9213c89663041af62be89717945a0b61d9a673d4fcbb7ebe4,
  0x61f90cc2911fee4a0ebd4f0a338140d5653656102704ca0fdd6daae20289c5a9,
  0x179b88eab110be29ae1669c3d97467ea9082cb54d4fe4083823e5f726d81d1ff,
  0x9fa0dd9ff1857eff2a57d17008f97fd16d3ebca4d8ea584fee44d967c47a3ba,
  0x3ed6a1494299e5a69bfd17ff81b067bbc9a7bd8c5af2e59a535649364cd4ecad,
  0x111e1061a82f0a4d3d0f5dcc52c1676b663cd6009c88bdae3181ed9da4132bd,
  0x5b9dd68f33e643116259ef2081756eaaf6391d4fdff42c3efa67f392a3777247,
  0x6dabb472b4689aa4a9d739bf86a760a9389e1fd1ecf0ca14c788f8ce89cfeeba,
  0x5d41f096fcccc3bff1e23f61f4222cd2052c244970cd9fa68440269d4591ad9b,
  0x6c0ceae832e5908d27138b6e40cc5cae00aad045d5e44dc1fd311b2a147ee122,
  0x3beb47d469b8cd823ac7e1bac2e82776b7d784c2d9541fa3e7cff7b99bd4a37c,
  0x55ef8207cf5f28f6b6c51c5bf9218689994215e434e24d8b06b13e392aba5486]

def cA178 : List Nat := [
  0x597c31059c45da13434102b50b8c8899e68d521001f9d894ceb5b0dfb286f77c,
  0xfd63774e42163bc656921ae77bd457174ac7496610ad82a421fae299ae9109b,
  0x519eff2ac10893eb8de8ad826ea79852369f2f16b0ecd08050e3e24c445d26d2,
  0x513b27472bf4801f3cd238fc9275ee309088d40b5a7cbd316345c0921a7ae2e0,
  0xf33a533b24d79ea3632a9c0a80b5865b287e2dec9ad1633c95546c0b8ad6f93,
  0x54e2fd1d9e472bce42c87b6f771b7d81fe8e45628765c812adf5a1ab75b2c926,
  0x1074219a6b59741cdd4aebb31af999de6e01beff3f3495a3a03c402ca362dc9f,
  0x607267f1bdf7bf1fd78c1e80ace5486ece13759a46a77aca221a6b051c9a33c4,
  0x6689afb19199cc2469459f04ac5a27ad193b7bf010ea723aa892a5e6d525841b,
  0x621ef98d60618f964befe9e116ed5f0339c1775dd8250bc150f6afd793f91621,
  0x12a4da218daa5eebc5a99b1215d26a014416744f895e67125371529554b7e3e7,
  0x23ed0c519c9fb478bd38363c2af407079c60d01a13b9d5ac888729a088669f3a,
  0x156954d382c1aab3c8e8f7f2a24c530ed227fdcee3ff0c1487f3d36e3d4d5c86,
  0x6f1fe30822f69fe78a1a483eec93147b243914d1732d95a9e609e921fa420186,
  0x6f05bf7af4fd7739340936e9b41d3b7526a519455c191828a578ea8a05c00d18,
  0x23c3feb2be78168a931ad38a251d24c68e3c6fecab0984f327770724cdea7456]

def cA179 : List Nat := [
  0x148c58916e866ec7cc26133b8c12eae2566460fae17d47f6fe9109870a29332d,
  0x2e7f25901d3962cc94ccb5fc1597e9ea243fcdf68c453a66dae1d51a1e54db97,
  0x3137e06444cd82c6d2be674888df24ea18a6d5f71e18cd6eb007ee8c2aa59709,
  0x4ce8bf16755ccd6a8f4e3d4d821f1ffb2a7b07fb7e79060026d62c0fc6c2a654,
  0x35aabe81f6426a9bb529a296e1178e1514622c07d7f6c9fee47de095fd3ab61f,
  0x1e2ff4573fe97d9df2b82a540e5cfb13f3d97954dfd035f53f11da2fd38c605c,
  0x1327d14c8720856e81c0a67cebc1ae763c692256f6ca874e99a25679a9e05beb,
  0x4ebf809932f8c1c638527dc74505e056e378ae1f0bcd6006eb294b1d749591bf,
  0x2c2450c454f4f2c818723f4c66b48b49d0280939d03efaa1998187a0204c020d,
  0x52c7f8e2e61234d73484db2ab8cf9c1d5755fb4db005a59dca823c7906d54756,
  0x135faf3acce7224305a4856631b9ff81d88ca8924633baf4aefbdbb2901b386f,
  0x1d0cbdfb4de4379b507795f6e7f53ac0dbaea94e53f2c4074c5ce1650d8ec31a,
  0x6dbd1d4bfc97ae4808f7cf3763f1a46be85c85ca7fc5b3c76472de4fe3a536e4,
  0x1262c1549c288af0a111d790fd4b94b1eed985451e56ced49dba19252af90379,
  0x14833d15f517ad9db9baf0133597b972b5c73de254955ec2adaa479cb36df738,
  0x19b4498705b773cd348f55a096dddbca5754eb6d8a37c01b54932dbe3c601148]

def cA180 : List Nat := [
  0x3da6c458b70bdcb4171938487727c87370ce24efaa5e01900887b96082fdb94a,
  0x1ba6aaee59c6f7dc125be90ce1b91332ae0d1f874c6bd397b64af7aa6d86fd4,
  0x454a4e0790c205cc8cce3c6ef1d6826209440179129e8a3785b8d14ab5dec528,
  0x365ec5b03b02ff4eb75f97e00a86e42036afff85686fa50e3a55cce24af333b2,
  0x6fb7839e0b3834ab80ad6d0a2c5e57508fcb9926e91520ce6b09782ca2309dd3,
  0x36a51ad70f73ef76e5e4c03d9dd3d0ebc8fc671132600b895b55ef8659edc140,
  0x2ab9ff37802a9d597c23ad998f2cb9752775d5aaac4619db0b6b4177c6e6fec4,
  0x23188c3dc6ccced5c700c02a7efa983af5f1a481fd1f9f05dca90ae307be9f8c,
  0x44d41699b898b87faa6cf90fecaf384ef0edece71780d68d040416d1be74132f,
  0x14fde94993b0e5e1b5774d484e8029bfa31f54e4b0f05b8d71fab7508a0650ec,
  0x64d630c799a5460e8831ad997b38ef62bf88b47a865c6bf24d02f99ca5bd10a,
  0x2e4ff747c208d0d0172229a841d7a2ce959436e426ebc2ce24d62502641c43f0,
  0x70cf61db8f4fc6ac6d49bd345d8781f6f99a95617bbe4b31ad9914a143c68572,
  0x503bf626a91b7ecc61e67212a4cb01fdb1e69f994884e676030f807d1277d6d2,
  0x302e77d05a96c37d004cd28d97c1344cd47219546e01523f3ba5c06766a8a5bb,
  0x444d26a5412ef65c30508ae137c99294e11cca424053f346ede124da0567221]

def cA181 : List Nat := [
  0x6035920b0d2b6b05c562c4583c91d4e00adf925ddf788940c27a8e73aa00c336,
  0x3b93275b210e5ec6b30478dff2f7ae60dacf981f912730bd7f933560f47a580f,
  0x3160cb660e50a2962cf39abbb71000df95b69a13d3875e3807911e34247d47d4,
  0x492b1c6963a122e3db398a5c5122849d4712c34d53c34043cfb0bbd0e77bb671,
  0x3ce742997834a1a70ed688b1a7e8e417a4320718913a5227d715c92d94ac023,
  0x21327ce85dbbfef2787d00a09f2632f3b7b45c36c1055b20de53c0863154b249,
  0x48b2ec316fbd32464362a2ef5ba68ca5a428ffa8e66017ea2d3fa9aee07d155a,
  0x6974d83941dbce7e363d365582df101a203c0fea57fa3f4557ac565751d7638d,
  0x89ab15f752130bc82c8034b08eed7b354884d2dd304446aa582f67875351b3b,
  0x3bc1fe33842083627591a9932ee44252ac6fea5a0d65833aa0ef3f0799860a86,
  0x37d69419b8c73967d9286a5333c2862d69ac61a334d260b1104a5f2c4876ce67,
  0x1995872b9774955ed8e946d915cb023fb775beb2510a5b38537833d3ac2aebde,
  0x33b2d9da3dd6189bdd11da4a4878b56f7f18e6cc2286f55932a3cf4bca6b8227,
  0x2037a2f68cf26b154602183d1cd5e5241b19614428cb86972139afda6a5da13e,
  0x48aa2a1dadc1514e08eb14aaa604153b44f744743470a8b91c2004c540aeb951,
  0x1c2aecb9ca830b44ad9a7f36ce7e394cfd9eebeed100c924c1e5611a6f1215f7]

def cA182 : List Nat := [
  0x5ead76d0d09b8663b1317acb47e6b99d8ca8428a8c79300f22e9df825bedf207,
  0x1dc7a7601abc801d93c3bb552397a73593165a3a98ec2ba390f7c973fa306020,
  0x350cd7dae04b53906665fad890d9dc436ac385171244786ea25de53b3c0cb89,
  0x2b3d9ea97289eb18c6d03b1edea05c95f74132e5416d6537aa8572cb255f2c5c,
  0x19572ad8e2d2e8121ab669c4ea9dd4cde9af1a9ed0ba1ead3762ad6e2a8cd64,
  0x12b493d6328edb5ed69185d6169f545208f4c5f6d3818ec55e044308e892ef03,
  0x546899c5a54f5b44d28b938688aab40d7fc00a7b123e5e0b9c9acd34172272a6,
  0x6770326bb25629f0e9d0439be5855deb33f993e50db6d64162ec554b7f4f2afc,
  0xfd21b84f28be35d3649fa361f3afb8ddcc778054034f2e9d6e0ade8b196f638,
  0x5b49663b179d911b4688c61c6b9840027867335e53dc8a56a3ae370a1c39d88d,
  0x13c8f5317a3a61ff351adf5b79e22434c884fa5607f1d1292c2f86a54b9c5ddb,
  0x3ebda26c92876e0750bc0a999aafc7fe2e09e9747da777bd9e3a4c9450a92288,
  0x355149acc475f586390e352685fea9bd8be44bcffac50df5cd44ad1e4dcbc467,
  0x628d4e1d00ae1d52eca73e33a1f5cbe4dd7b183b8ba17b96187c279c06c85995,
  0x498844493536316019c0d4234d4a4e3f41b0738e3ca0e2c62971bfebabd1db5a,
  0x5f42aa77346ecffa7316fc8ef28f59bed3a91fcd6fe61c14edaf2a22e300a4ac]

def cA183 : List Nat := [
  0x12de478ff6b4edd1161c1ed2d5d215c33243cd55f39a2c6cc6bf1af8cab45260,
  0x3a10a2a749ae18a611728ffc3b778b986d03b6ac821b24a38ad743179bf3996,
  0x2172b6616ab7894dcbe95a1dd1a5fef1948cd4fd1a2c695e4f83506a53ba8c48,
  0x5b292ebcb9a1558557ca327f80b7169f67340d58b3ffc38fbcc1ba7ffc2cca49,
  0x24a57dbebdf6762c01dea631080b1922b8ad5e1d598718877e9694d7836aa42b,
  0xfc11655e9b54be6a5d8eded069e8bdd2ddfa1a1042bfb65c92119a0154eb0bc,
  0x34e1636ac9a8edf74681bcfb039e4f07c33e975e5150fabe24eb0554f9f7751b,
  0x6d1a8c5f9d5e179523ee2d051f898770b94def96766f37ad1c9693ac3cf0439f,
  0x1b74cda8ac3510df36fd53f6e0ad80438d6979812986e04e45d32d4cce8be201,
  0x11596cd6d72c95c51fa7d9b69bdc72317d5aa6b289f4e45016928d020e0081ec,
  0x14ea41920d325fa69484fe7308d4305b0b64a40dc4b2331d935365146205f016,
  0x50ad74be8a38a397fb3a63880205c51a27a6dcb69321fb051a77f715fb84ec4,
  0x20e0ee28fa66629f52789433498af9df832ea16756c54f6b888e2a72808d778e,
  0x4d57848398219910c00d8f76654f615cb80a9643b5ffecf032b08dc4950436ad,
  0x652aab9c1acfaa1316d7e7d13fbba1fe90ad051c81e5546f83d29283ba80bd15,
  0x4cca276ccddbeecdaae139746b2a968ecc23802be9c3774f80eccdf76eab63ee]

def cA184 : List Nat := [
  0x58728883b97af10d3c8f4c3774ad4b8dbc47f4c560ee2d3b051ee5bc2974e778,
  0x694880c24b000277ba380b47ed166c48ef1f6dc0e7ab1f2b0b0fa6d77abb98e0,
  0x867d65ae3186bc69035b77096c0a2ea0210bf3132fdc9a5919fcb019960c7a6,
  0x11b3206ef293c2229c7f8325a822db973e172a10d89d2fdf77c09bc3ef914309,
  0x42e6b026820b2543a18c8bdd5f285eec8befe1b285391443c011599fd3c43caf,
  0x715d3752df6f06465aaccfa7818629930a7b80c5414a6f4a22df6bbf54cccc8b,
  0xdb9b420b86f58df3b3f20ffc066273dfca81faca2cfc2278f6180c9cc3df3e3,
  0xe13763035601b20ae7bc4945f13c8bbb865ec158cf8cab168b5c472b1f0a6a,
  0x853becd6d1473edbde0570d854410b65a82e84acbecedce29a4c72f88a57bbc,
  0x6d408a4f001b72ed424355f6b6ca20cbf9c110fb2b476a0252ec24a140874c14,
  0x212728bef158c6e2db124088696036daf2d44e801f6e34227f6a527cdb9b6034,
  0xa9395fa9eb52aa417c66dc443816a7286f014d0ac09d620327d329817aa99,
  0x25f616e8c163003db456e65e496b4836be8b2364fb6b18d6e338972a52f93819,
  0x4eaaf7322edb9764be8d1d043b094d115387c5abb0f0e0d8c04ec6eb390c75f5,
  0x20a02d6ec4e545e68126bf1c4c815f5c25f60e5edc5837d2de76765705d34b4f,
  0x1f89dd23535e009ba5e226cf42f7b165e3c4d7087c369a2cc71c0cb8fcb0c959]

def cA185 : List Nat := [
  0x264e2bc0b107a14fe45570b746da71b9eb35ff79f0c3a997c8f2efcf8664e266,
  0x110cf82b670988a52504a4ffb7875a7c47e0a8fe0949905960f81cceeeaabd16,
  0x517f525d50e370af09fd96ea91e26cd2555e6d80ae5365e86176cafd5a65d517,
  0x2b9db03c66ca32ec3654a4fe40d4a5d27505e220784ee6dbe59e22331d1a6b4e,
  0x379959d67c722fc9d8a8f133dd5f51cb3d25d29c69a1a65d0b23c28cebaa5c2e,
  0x4672a5242a1780f45f92d1a2f7ddaa49dda54738eb76d61ae7d62942cc23eef1,
  0x28eb3978b0c107ca8b01c76600792ba29a4ad920d2ae22350fe126c16e9445a9,
  0x901e88b7e834804929a6d19c12c827a564d6b7cbef38a17c31247372230da0f,
  0x2d45a6d458d8186e2b9ceb8a6f1cecfa7a87df0f5ae8ad7b0a93bf2a37ad4a64,
  0x5f2197d1b70696c28bcd248cd11b81518b0a07f9a7f8e1f8c6af3d6f7f150e18,
  0x5dd28980424ffae0927aa85069497608fce019fc131b5b880a11a975ffa0c955,
  0x4048be3c11d579e0a5d26213dfea600ae50451fc7d33eff15ec93f882e77b7b4,
  0x16ac38e59d6dd73198e314ad634a5043d437604db00edc8ed11e3ac3f0a3bec,
  0x385122821728abf5219ddb6af22d21be6f8c4180da90048d445e5d100fd99345,
  0x5283227ae3d00d0a200cc9e84e9ef9769afa4eac829aa8b490c4cdec6a55f1d3,
  0x18d2dd1b1270575e04138daed8947079f851f0d14870742c8c8463b7e765706e]

def cA186 : List Nat := [
  0x471e4e09b2b4e7e3398fa9a3526a4e33404fe2cefa50a5f50618d3030566993,
  0x73590df266953b9f306948bd3a545248bd4e76d2572cf798a415f8b660059323,
  0x5b67bfa2109f2a9bce5fc50ae9264518071530e4a3d3b7213ef2919dc983ebdf,
  0x2c7093e6da8cea2db1102461a6da03a49314e8b04f3d1e248a8980abeecadace,
  0x8547ccd517755a9a642e4106eb9e396002c59956f27ecd6412fd46d82688ac5,
  0x5ec72b2ca071542a9bdf50f075c0ae97bf1d1bf7497c57e6a61fa3f814ca9291,
  0x710aa0f29ec1d795318a4268817dbd8b73a3a1a08040ab390399006ef39cdaa1,
  0x3b6a810ca779faa8b24e548cdba2a177039bea3919d49e37a71ba6efc47391e1,
  0x5e32cbf51953acb3cf5086e14225c2d63f051d08252c5d64f58e302cfcf4853e,
  0x15c26ba0267620bd4cff96fdef7f63def2aca425859b9607a6869517e16781d,
  0x1a25187e60f2534e423cc37bcc5f03c03dbb43ba2153262d8999ae4fd68d6567,
  0x4bb471e29395d2adb2089293636c45fc457061f74e01f097b376e37b5474751f,
  0x89af8feddf358497023b2a633ad038a4b4ba8b5ffd00f167e24ca499b2654d,
  0x3169d243829131a16d1724032df4936dfb9fbc312c8277b57c1094e536b1c236,
  0x416d547e4bb01b6c2ff0dfe2e52b3dfb022090a7029312d3a297607546bfb4fe,
  0x49e1be0b91be5dad4c1594fe37999e96da5d067b6a43187d4fa4acf239169d0e]

def cA187 : List Nat := [
  0x2cfae21b398ff92220784add309174d00fb9ff5835165b5224ae6b198d65eae0,
  0x2fee1800db3b150c8c096e01a8876f85591edd97b9045578465a824ea1d9a8f3,
  0x74ef7d3ef968e5b2e6289a7dc282421f5631a4d1b41db10282c709f6cbdb49b,
  0x286de076859fb805552cd1bdc5b41ce4073f05f21f4f13563e09e9aed02f475a,
  0x175b85e55138336a2c6472e0cc5d43fe18baa0e299225a8d639b654f6896799e,
  0x364ddd433fd08a0adcdbc6c6ffc1f31d4cd40c87208f6861a65f6e02e8120283,
  0x307bde21c5da5a04798efa980711134163a5bab16c109cff6fcfb5a6e0af1967,
  0x675c68d355f7a86f213f08e1efc9ac4018284c45c43aa4b571b66cae27ce0dc8,
  0x44a5eedec72095b51fccc02d81582e253a96ab6bec5f57c085d7acc8d117ee3a,
  0x5b98ba2bb0b5efda713da1654627ae1bf858df63ccefc284116956940625456c,
  0x3212eb7c627abdb672b8313f613a6da3d1ffc629e4b0deb60b3683869e176090,
  0x1e3db8784d242eabd95689ceee77dce33f04ee0ee8de2b349e32fa60d6cc7de8,
  0x51597d285c994d72d399563cfbb29ec1cfeb2cbfb2ab024281f1472ff6c51dc2,
  0x105e04546684b2aec953e35335089e6442310f9fc71ccff40b36c035b5cab204,
  0x1c0448dd2ac4758d5d575e87399f33fb2cb23e78d3eef429307694274ab234c6,
  0x61b601e83536e80c4597a581ac36e92c93fd34356316d1fe715e033141c03a78]

def cA188 : List Nat := [
  0x2130fc993970100a54568bf1b112a2a3932a6f6c9b0350fd4b5a4593986cca2d,
  0xaf53d396065465a6ed54f229f5bdc52d17923dc21e30a0aae42808f920ccab0,
  0xd6dfcad9ab2841d4e5384d5b950a3f6af104683851b0808a065f21f4821b60,
  0x4f60cfbc6ba74b1181a7856797f921ee68f156b7c7988435b393641cce0eea0d,
  0x5862df2a8ab51f066ab6dc89883b071fbdbf2476a0fe2e188f9de111e8b7a8e6,
  0x3aad04eed1b4e5028d06dc55128acc35b4cee8e3e7d374c3e91734d598697324,
  0x3a9026704aca6e35b0899fb9579e60c5ed273e8c80a97a0bf4a6e7f225e337ca,
  0x268b7c399064503f7e9185ba8f671e6e58b32d2bf728a31814a8d44450aeec3b,
  0x58fd81e6edc74d4f621c79790b6509be9345980f87fbe07400d92b4b64977462,
  0x518d8e134bb27be2e1215bbcedde5fa5e716051d7b6377df28872a309ee1e201,
  0xd7db32af39c6f0713fd854505a9713e22fa1f3ab9dabb84c218fd8459b95ff5,
  0x4f79739cbcefb766bde5b1485805c511ed772f73d6cdb277358977e914d87dff,
  0x42304c369578f0460502d423a5ed8d6473738bb0ad0ff04b6aa7eb12868ca431,
  0x21de4028d5515fa4fc4d83edf0c4617832e3a35c25f5e54df2204b817c80d89d,
  0x564a57a0d10ed9690e704e5b4d3d87e123972e2d6169f6c511b868a0ca4e214f,
  0x232d03e129c84a25196581eca322a4a80527500bc55e1a8b190a4afafe94cb1a]

def cA189 : List Nat := [
  0x266ed544d5472af7ea7466888a9f20dff745e5b1ca7683e74e52e9a4868f138e,
  0x6a222d473b1267482cb2e8acf69f55418c19fb3b9a282026fd011be2a4b0fe0f,
  0x454e8725d59357e9ed91a60d5f61fe4b12bd05a8393d8b1a016f031fc54801f1,
  0x2b29e4c7f2c76bca339b77fa993368277a04d47f642cfe56a2c9f7d9366c33f,
  0xa3c61641fe64fffff7686b53b159abd473831754f35aa165ba3c52f6ddb770e,
  0x364274e4e8a9d069deccfbf564074750169dbc2a7be76f097554e5a6712f3fc4,
  0x4ad101c8890b299e3845880c6eeb2e6728cb0986dd04b4d301c868f907b7f0c1,
  0x28055bd68a7d14d0f8befcc90a636387a549ca5bb5f0433be739df864f5583e7,
  0x2dd656db2a3f2225cf163e69b111b59254369c7c7279c6e4856e15b2441a295d,
  0x4e7664fbec02d3ea2c21d13f3135fdb6411861d7641b9d679668e76c4dca9bd7,
  0x4c3515ce6aa1b0bf7785ac1d58bfe4177a8e4545a2b6a01b105f9d76922dd31b,
  0x1b66604030584e6f9c70f4780b2283cf83801915d2d44273a43f6684d344356d,
  0x4d248d62a847f293bbb69935f24784e297564bd4bb0441fbc9b4f527556b148f,
  0x30cd0a97bfb35ca40c11288fc98fadec3712874a6ea42ff246a373a616a60762,
  0x21ecb2315ea0e4825ac1fcb35f94e52dd62716bc33276658016ef3452845ecd6,
  0x156a5227e16ce17d0f33bbb07d9c3b435b8f974614500890998c58f9a7d7e4f]

def cA190 : List Nat := [
  0x320a8f5f7753685ebfd39813aa4c352d576e2ddb024a2fd14177ef25c17a8f8d,
  0x61a6f18099c3ee08aa79cc44176ff40e037f5d9de569560367c492d64ac5c8bc,
  0x4ccda45d4cca8d4c55ab6ab957f8096999f678b885eee4a56d651ead898d45e5,
  0x645b49e884b041478c0f5a9525d6dd19ab58722fb22387229776efecb30666ff,
  0x1ea31a1258c9e309ae4aec709774849eb8659fb3405f627004e611afaceb8083,
  0x5ab24465511a85ad97432aaee7a4bca92e4d7d9fc4305bc92ffa5498301c0acc,
  0x3116f97874bf28ea99647bf06814a432f361c0f22addfd1bbdb222a8e6f5823b,
  0x2b04b060a07ebc93e3044df90fa5c7272798f72b6c78f7a53d7b000e60dcd729,
  0x70c9747fa99001b95b1df67d62de20f32ccd3681e4c90962b0a7554bb70f5967,
  0x68a733bfa6096acdced5da708413e3de05e92402b7a950dfc96e83f5ba7cfeb6,
  0x4d6593c9bdb2b58bd3861857f13119ac58b443a347ccb42f09fc425bf6b861ef,
  0x5d5b48fbce31db0e127f50cee0197ff950eb6603ef27f79b1fcfc8d0dddab708,
  0x3e4a11365048724112b50778865724b22c01a453d801a4330d5bad4caded1514,
  0x491deb915341daf3db1faf0a7073a7b833d154feb342533aa8c2825a7ea12cde,
  0x1ef997059b23fe011b2d5d2070234e3f5bdb803ff5742ae9d4f2dfc17be8b1ef,
  0x9a6e6d4c2295e977d7a93f853f79392c4534848874faa0b3c697f3e7e45da56]

def cA191 : List Nat := [
  0x26e44928f13dd218d23130d4fc37527de66df91f0937a2a664d7203260fd9981,
  0x517db674cc6acd521cc07d163135d7d5d7d2aa0963141f62205ac774dda15416,
  0x62f8aafc468bb1cab9b2523ebaf7f909158424304ff2cc49e1046d7676f59b83,
  0x6200ac86ace5cc25c761ede86438a1afcfdbd5b7c2c07cac9bb93723f6926d4c,
  0x56c549c4d548280b05f716518047a165c127fa16dcc98ed570b3eb550b997534,
  0x3b913445c63f462d9ca02f9ba4b07c607b2f382377cdc98d7775ab634a042a14,
  0xd676c630609832575f0a251035c7be97332b1a2ddb4d971cbdb6734c65fb28b,
  0x6d47dc95de938b95be8e31e24856247a8ae89f289cef8797bec53a92c40b4feb,
  0x43889103ce96b0f40fa7900fe66f538b3836212c91f9052f8a6b0a405037f4b5,
  0x37be93f1def1a06ec2297769783bf9001247ce28030faa869217634cd8b101b5,
  0x47c6a7cb8223034a4c4dcc5b2a5baf9bd01c027aeff00601c1b82b811814a694,
  0x3d5d5651b77650760f9787faa284dd4d20fb422d11e16aa6776578fadc64a769,
  0xa8cd7bc13dcab3b54b9cb078d0407a428ed58359d811731b551a3d48cec27,
  0x4c1d168effbbb0c5ee38dab36aaa6983099e427b1db662158a40cdf5fb935ed0,
  0x629ab6f59102dc70758aaf9263be4458a8a7acc052820721509c5474d769e357,
  0x46e18968170fe88d92faa4992fd2f9f405948a7d4d10331ada38a254db6679b5]

def cA192 : List Nat := [
  0x73eda753299d7d48333102eb3cba77d506aee3d2ffd6fbceffffffef00000001,
  0x2126985acb18749d894f82e8c34a614d97d5fee14e2c709918e4b3cc64ee07a6,
  0x35d0423f52668fb72813412c73aaeee60ca74e88af52b139d32e81ce62221fa,
  0x5fdba8b2c00e5dd01df17592f3584ce31687da31b4d3e5d98773e49658566f49,
  0x13cb5939f7cd3b487d20dc6bbd7252713eeacce1776a9f62281c142900f0256,
  0x47ca0ba0abf804b28b54bff8135f2a152f67cb5f766b438fa02e71c5746f0f05,
  0x27f0cf4905c4a46e6b8b5e45376adde378050281aca01e6a31221fd76cc1e34a,
  0xccce208bb993545610b828f6759a7d34f44c06eb9bd78e891a70b772bf5f62f,
  0x1968eef17e81e74d9dcbad2ac7b76f6cd3e75a6fa81af9e542583a1ff38605be,
  0x5ee0811925f796b22845d57b19b6b98a2492e5a961f213ef4c158468412d0cd8,
  0x69cd2df683f58acff4bcc347189bacac221c54991a68eeb92572007887458be4,
  0x651a329b1623a87395abefeabf3111e03b0dd064bbdd797ff76bf880a8b0cefc,
  0x298c97c1ef5f3eb5b34887c819992273e8892988c1fa65d74dcd70b7d0217d2f,
  0x4536ac39ed203ffcb899da3c44e61274a00dbf794bc2feac4ed1683c025579ed,
  0x21be772ab5f6d9b079ed4154239ab94de7fc029134028c60a55a239671f9698,
  0x66f057457d465df7d0792636c49b8277c08a53539948538e19295754945d3ee0]

def cA193 : List Nat := [
  0x35dd1575937883791237e80b05ffc7502afee7208c404b1162fc1e9f24556589,
  0x9c35ea9db4da6cebc86b1b1faa718b336326907ad3d826b304ce510b1d2e9b0,
  0x369bcf67addf06dd980f99064b588ef0985d90514059349b31d7e2a58bb03077,
  0x49f63d22c5ebc836f108a91be0b9edfe94cd3038be21f2b7c1c222ae3a303cfb,
  0x1635b1f55bad05e92f583324c0e937388fa2485a305e1457c9343aac070bd085,
  0x13ec8202ae29de179204acdfe7080f281a794457810f827ecf60ed8257c6c1e0,
  0x2e9c967499ecb83f2d1a004931ad2b02908973bb90808bff16d4a1d30618df90,
  0x1d8a558f3a5ee6ca569ea987614572b54f691b537bb92076030c12c3582a8874,
  0x58b337962fb2a66a8a035da7d357bd58bacb9a5cae52599ebbc2ae6d68421bfd,
  0x3070c75b24b5d4a528b58eb1b47b857a1fbfef939f524251bee4efb12e535cf2,
  0x4f7d4f7d118cf692cdc8e57580434dcdaa7c449c84e5345cf745bdbdef0a2c7a,
  0x147ef68d45138a9096eebd88691f58c4a959f67a7c44aa5864d79123e86b836c,
  0x51f618901f77f71846799f580057c9a5c100367e1c92f43563ba88e79bda728a,
  0x3ff0b6dceb2174a9ab3a95487cff24ee28ffda4fe66c816b6625bbdc87f8660d,
  0x214c056d6f15993c7b8dcdc36e18c5778272a4852edaa630339c5c9537935a7b,
  0x10a14c911919e5d8f6112c0da4c8df083331433976a87b9d2ff2043a7ff401e]

def cA194 : List Nat := [
  0x6807f8a28b7e51253f18e315eaf24b57da0cd1f2c327578552ff6a1bf1525d08,
  0x4fae8f37aa4ff5778c3af73ebdde9ea9eb3fecfbf19b8128659197c7c527f585,
  0x2518d4b1ed33eb9c5e677093430bb65003272cea23f619e4efec6c4a653bdfb6,
  0x21d4e5899c15dea90f73e04c1f4cede7f44cee8ef56a5e8bbe761484c3e21b51,
  0x35aa743de7c42a9e8a56bbd92a6bd5a42c41f52c557007502d58a5aed2d011,
  0x5ad4e1c6d021904af6d86d7a6d616f2caf3300decefa1b0f3e6d614003d7a000,
  0x1668311304decad0e073b15f6171848eaf1037ec114a5e40b8b625a2c1bed8dc,
  0x506f6ff29af53cf683fbd9203f096f990e5d492f422759a186851fbec4ef4b56,
  0x695e647c84cbd1bde0ef3e39f085701dca8c13e9b1f3cfd4eafa4c9329bad9dd,
  0x5a353afccf564225c35380506c13a5d8b1c16c810d33c58f2785db84e73ebfcc,
  0x60da813436f85c38ae717fd5e0998e81ca82ba76952917fe032378e3a498cb24,
  0x234dd1f2e69482fde8ed565897194d96083c45dff8223c72fc94b6abcddc4640,
  0x63b6ed65dbe3fdb0671724527306050693572ce463a3f132e7bd1c99e1da3bb3,
  0x39f299f03c829b05006273738b7ed2dd0556fdeea549ba5386be7e7038802986,
  0x4f25adbc4431056ce8a750bc3eda31d07f8ad823c1bd85f8984f442a719efee1,
  0x146d7ebeba8c02eb190c5ac5904a9bbdaaf935fd63d20105852db5949915e552]

def cA195 : List Nat := [
  0x25c10331388ccfe8f4d80bd83d352d9c0198304bc712102465916a0c263f162f,
  0x4c859f265c1337b40c02d229ec86472cd1d484d6a7697f7367673e1af3c5e187,
  0x4e8753b7dab21d6b7a6b3b74ece01adb14526c6aa804eb2d4e6937459fd07ea6,
  0x59d5d350cc2095959ec68502585c9a1a2020e66486b1b456f14a223651037b2b,
  0x70a77a129fb270bebcdd751c46e1213219bd2e8b64370bcce7f93b27b5fc3040,
  0x2d297b6ca8217e4d497d575e32f66bed2c00b99cfe7c4737940e8127c9e76285,
  0x54900444ba86801c1b62b9126a455ad90acf91db987e10aa7d5371297a78462e,
  0x3e590ef73bf163cd9e9fbe99b7bdb1c67789d7d46816407929dd996ac28f8f77,
  0x37bb0140a0d8d53b874694ed41aeaa13ab6d0951552e2a2a44f9ed4e88933ef,
  0x4e1414d367b28f7bd9ac9edd8864deabf37d15981af35e2c717d12911d019ff9,
  0x563ef8e7c922c56f0475246706532335662c8c7d2d3f80af8c9648ab5a360c7c,
  0x6da692b77d0c49998129a340c4d7fda94ba84155e8e0732fd5a6c16761a3840b,
  0x1ca75f561d19d75dde88f5ecf40505cdf174dbebd42b760792062e56efe20fa5,
  0x391e06338d790064e4bdd387dd919162f8debddc54f04a342a40548417d4ad65,
  0x1e8924c9a3e3a5dfa25961856f5645aa064ebdc7b5f44010ee6ba6db7d7400ab,
  0x63d7aaafa6f37e9af3be3bf59a88b9ca92d370de31fa06e3bff8b5496865eb60]

def cA196 : List Nat := [
  0x628bde0b222e53200db1517ec5ac5096b2365ae11af4b981c7fddc3a2a5a91bd,
  0x603b8ee56e4d7a832aabf51855e15fd1140cf46a72981ad7a8220c8badf7bd78,
  0xfad06599167b444da240f29c225aaf62bbe413a1a91c30a315f71d02c571ed2,
  0x335aa4109138ec39a4e2ddd4b8bba686103f4e037d954db5c5fee0a946120fe2,
  0x403efcc19d237057845b44dfdc9036527de87e4ebe971a10686eb2b1b691b368,
  0x6cb498581b4bbe88f42b109648a7154e9d95c9a0a2343de89ac608bd8900aae4,
  0x245069eef36db4b4983e48d50b38c591c7c82bce60d2c5f0b55b38d8012a5b0f,
  0x1f18bfec27da5a24a302d98b46d303611d25a5a3a06f9394d74a91a1cc725d8e,
  0x4bf90f9592eeb8418800293638acbc35bf3f1579ae5632092a2e07231f6eb590,
  0x672e99e015fb685c82bc69f329bf42fd60ad44d22e191798c838ce348b1c0b59,
  0x736bf77d737fd597a15ce2535c0fe89ab1cd7135b181bfcbf8b16845aaf93c5a,
  0x3080fb5b3a9a10289dd332f27931d28c7fc30bba0f410be88b1bbb3e93b893f3,
  0x6d86c11788d9c5a0a1fa4b7477ca109c9375148e92ee911000d39961d439da72,
  0x73e77ecb66094da0636029317c983ba69ed77f679a368a002fc0a4c6b5ac7d6b,
  0x2e6bd9bbd1b264ac035d9f6458160bf9124cec9ca18e5b150c3724981e0fbc01,
  0x486060ac296568d6961378170e54bda87b422d36cd6611b515762df2937e6f51]

def cA197 : List Nat := [
  0x735313dd4b8737b7186d1128d620e96977962c07186e96d44be829225584bc53,
  0x2c4c59264df7da9764c88d6959c16ceca1a92840dfc67cbde1f88d516bbfaa6d,
  0x55589b215849e18a4ce895d34d9c54730bce11ed87a9c91b7cec84ed607740f6,
  0x67f9c3174db69d1c3def6560cd51a7e729aac5054ca0f8ebe828d0795dc743c0,
  0x3f721782e3c1379dd2a4c56b440e089f7818e827cbde0efe05df94c0c3121396,
  0xc477f277b74061c82bcfdc775ca3eaa434bd10eeffd378f6867a62970fd8231,
  0x53fc6894e28b7697667a5f4abe90e7361abc0f54001b068329e8f847c8ae4357,
  0x6b4efbea15dbb3a212b022d0a07d9d0b86e65feb3498666cf8a7731f47f9cec9,
  0x324f55c2fcd6a982101a90ae15868cc13839d4cda4c364d98c8bd7359257f497,
  0x13a914937b1d85b263b1eee6a749e59248ef544d1c11b794eabd72e982dbe102,
  0x55a430770b18307b53ef9dd226e4599984adb41d3b19f577bf5f7b5da0b5beee,
  0x506679f839049b8701384f8e172de470ba7e1335ccd50b943cb80954552af2ee,
  0x4f452527393464dfbaeae6042036c5f0f72af48943d2a28fd2487451eff17d6b,
  0x1d129f79f074499b85bfa50dcd14badce2af5f173acc775c1223d4799465d656,
  0x53507dd0f431d7ebe86e89f950da9572aa782922d6f1da577f361896d7b0fb1e,
  0x3b4ea22be3de8bc16ad5e4bd0f74091a48f88ca83456284c90d7833c57a01f24]

def cA198 : List Nat := [
  0x7128cd15041113f4fce0ad257f6f57c6f57f56fc658e236d0edb089475b64518,
  0x3fe3ab7d1c491d689048b034b1c07c0f760c16d922126529b32cc138414decb3,
  0x63cda62617ffa900ded4939b1037785d8556e21ad5d53d52eeba6b8242e2ce64,
  0xe4c7c7529b0ab5470af9281c52a2fdf3d83b205d64a6c237e51fb7f3550265d,
  0x33848deeaab8a096fc0add932cd7c0ac12441286a4d6c06c56613b85d884525f,
  0x5a9247078bbe00059472f6548953b341e7cbf33b4f09ce457f7b49ff29eb1db,
  0x2213806f523d61ef57e72be0649e2009e979e6765af6047dcb8c0b90e496ebb7,
  0x4cb705207fe3bb9021442f8eb41d50ceb88a908c8b34d45820a4d3bee34fccd,
  0x30505015d229630714e65aabdbe6471c3a0b6f45e9645a5da43dce7075d7bbfd,
  0x40a40ac0ecc23963ee6cdcc0e6bb5299506320789091874865152ec005846a14,
  0x2568d9d1c274d9da2209c160e69a34190aebc66a96490f8a17e7dfbccd022489,
  0x49e8113cccbcc0be8691eea33e92c50be93ef91d8c6f3f3868474d5fd7b86c14,
  0x33cd762f981ae25a2cace8c009888553ccc5477af2c7b3f2c2de4a9e591395b9,
  0x197edc5da461d4688bcd7d0f21389520ce904e661fb572bd4c28d457fa3b73de,
  0x63f73fb3ee640e77f07a1a7b86a50646e1619ff5dc6c1baa8ca7dc33893d3e85,
  0x4d678b1dd39ef29d58fd57835b44721cb208e2cd0c59c240dcd5c19aa22ea2d0]

def cA199 : List Nat := [
  0x575fb36c70987e3dc0deb494ca48b18d21b183ee6987fbae407cd4b5d5f7ea43,
  0x2458326dafd851ea2482dfdd8631221a3c4e0c0a939b730f4242bb923b2c2bc4,
  0x298ee72cbfca574fb826412970d80228bd9f2d972f6023d4601e506c265877b5,
  0x48c9122c325eac4b987cb7227674037c5da984d40bfcf0a94dc1d4671df82061,
  0x5e6909e279dc10843ce44733bb5a7908e1f2ad57a1a9be4dcfe453d9b7e42fd8,
  0x44375bd7b5e4560f0c2247e562ad16e8d38b924c9953cf944be5f260dc2bdae8,
  0x136954a5a054d89445ea144afb5b2e7f04cf5b9ffc93b912ac2d5d0f3233536,
  0x6c20600f89bd0e53b44bf6f2acd2ce3dcbf5d4ec0ebbfb4d6f236fc788ea7a42,
  0x33506738fa0c32c2abf28ae0006759efbfa2fb9a297c8550633b952240bae99f,
  0x2579a90cc273f2ee49ff67a0340ebc3f64f1715490a230c2a18761c5a9429fde,
  0x200b1f92a998b8cc9463c089f12e27602828ef7599e9e324f8b9b12c29e9933a,
  0x5a640dac77f3907238b2f9ed6908661e41fd27d30ce3d4c11a85759deb601edb,
  0x545eaec908b8130496603a70a62c95360348682aeddeb530b58ec89e562fb903,
  0x8f400a7fb6a8e58a13c82788df18966fd7e49372103f0e8f4d4f5db8b017dc3,
  0x37fe34c5fbe8fccc6031a01bec93ae3eed77d078c2bdc9b46760369093c38971,
  0xc6aa35db2f55ef3f56c142a50c2ff06c76f99aa4af6e67ba3e47161adc11569]

def cA200 : List Nat := [
  0x4d22d341c91c1a10f25a1a2df83c8ab7cb8f7e09855773f227268cc01b3459f2,
  0xda7791103355437cd1ab66036000a631b57ed7b4e51c99cb88ac66e6f8fc820,
  0x4d62f8f2f1765fb4f10bbbfe96c236819369a410fbd1d664f843607ec4616efa,
  0x45d9c1e01e06aa4696637c3d92ba699173e592d9a9c050ff9bb0efb9a87693df,
  0x195b33557c6442aa56c5a7469cac84b9da0d5ee722c34f8cd0f241d45d1959a2,
  0x4271b03bd4a89f1efe47b34cc83b66e5775aa16e95eee5715498afd1dfd0b1d3,
  0x162504e3649d76e61bee4179442281130d4f1ba95052075fd05a18e490492f12,
  0x1a5c9bdc5fc6d4d73d643aafaf45c52762b79cb4c30b853fd3fb275f786418f5,
  0x4ec3bf51e060b992e279e4651a16f8e0c5860b3fee6bad85834ac955ce09a36e,
  0x1d57af1c3181abc4c4dc10d835d3fbaaf9dca067f45dae6e401935acc2aebc7b,
  0x4c34e9a0c629492ccda1479419e6492877b45b678ef1c760a2e4bef838b80d52,
  0x3447f1dbd9dd7965f965c08989a2bcb3c557901bb9f9869ebf23c31422dfd441,
  0x56acb3de1e3b26031d4b19598d40d810aaaeab6064cabe9353d719adca25de56,
  0x72036baddcd5c4f2d3243706f017e8343f35483b2f956db0999f20089bf72639,
  0x6bcb96062ee49a998dcdba4fcff17651e6175d84bcdf52b8379ed68cbdc68088,
  0x4ea722e94701726bde4bee5ae8fe080d1f2f64be023a0c7bba7356737bca42d6]

def cA201 : List Nat := [
  0x612d0883e523f1e6abc0e828393278e8b5ad359956e3d83953114826a85f8c0b,
  0x397b256883fae7ab23eb9271e38c9b3267d1c8a043ccde25a4a60bf967df6e32,
  0x35553c74dc405f976483d718aa3d67e602683ff30390bd731dc0d784627532d6,
  0x68da55b5f8ce74919140ff6edf5fece2dfeaf4065e62b113a5495cea52fc3fa0,
  0x474a2da1df151ed99120b3016500dc4ecb501f7e850f3223b4aa219466fa9749,
  0x3475b61906d8bb4fccfe9a425ede59b441700a190159ae365bb14780850cfae,
  0x1de9412f3dac6c62d859715167cdc89d902db2ececfdc73a985ccd61f0e773a8,
  0xd32334a3fca117e1f281ad3b0edb68d8f99e7de75854576ea07e4cdc23bbcfa,
  0x2ffa910b2d787db218cac599aaa5d18867b1cc751fb9fef4c2ed7a9e745accd0,
  0x24dcd9e3894b3568972495a2b06313d41444cda45ebc18dfc777539d08d91a53,
  0x735dd48fceddeeee9409108110e638042959980820cd73ff4ea6533337ed9624,
  0x555716d8c002863ef1b33bff2832f018cedcff6d223eafaaebe00c6410d03850,
  0x5e6cbbb88ac5b494cab5f31e682060074bcade616419016efc0b8f0a43a7b5e5,
  0x70ff1fb83ddd3c846a94750995a38c83eba2ff29e240ed570a22c5fc15629a62,
  0x25d59076db2610c76022bdae2b6af670557a72ea0829d5b926a3795ec0798d07,
  0x441096b223b8795d9446c7705df6434a713d37840d51db569a5e82e01452105c]

def cA202 : List Nat := [
  0x4a594667424f4d7a5e02f208dc04e074775981d317277211efa5130b87f66013,
  0x5f2e73ed691291bbd111ad9d1e671fb4d9a0cc0a70c7ef9f4df29cea9cd8030c,
  0x113d46a1de0f9e3f4e0abedf64b2a3743aadb5da55d2cfa3e8af891826ec722c,
  0x2f68478d36429793047855a00bdc398d20c4132a982908b6c5b6919326f1af86,
  0x2b3373fc9f093c76c3603dbe40837477a636f7d86e31707c4d9fd5ca4a93a11e,
  0x2ee0e67387c6fae91c10ba777474de133bdd02dad943db31ebf958780ceef295,
  0x1bd5fce2c7698bfda2ed6e2d01c1541256b290ebcf3268749c3cf380f97bca03,
  0x510531fa112c86f7e73612f13ab48190a68089c61a096b8ceee8f7f6bd32d9d7,
  0x733bd6c2ab97c0657b06298a273b9aebdb7cd72e0c33c7ca2cf4287be2a44fd0,
  0x4ce33396b6c239cf4de02bfc195a1f6ee0fe8e16243516764edcf2dad690e4fa,
  0x533c91dc536f92627d0bbb45477a1704bb0deb9e40d0cc39fa88b52855f47ccf,
  0xc593cbe7425c44955d9a459fce180a5ba18b21aac0efdbbf9fbc164095c8f6b,
  0x56b292758b14b71cceafdd41a79c365879bfc81b5afb579fe8d7d772d98b0254,
  0x23a04a3ecf6993d7ed1bd130c1b6f49967e15b9c558bc9d67dfe87962a5da474,
  0x1596a64e357c166a98837182b9e8806d6bdba4313f0a16d09b61d33f8d0450c2,
  0x2fe55e2cf736784d3318524a3293c5b6429ef1cfcacca544bfa113c33846b453]

def cA203 : List Nat := [
  0x5f1a831f0f0ea324a252a05f9584840d7f67d5eb22112929a943e065796a4499,
  0x2bdd4c1a0d956bda34704b41018a6353194b42e60eabf3a9cdc0d166e0fa2ea2,
  0xff2f3318cee38823b91b7762c09f35c52f98aa7a07b2b809d47d5fe9040589e,
  0x6c955841faa8a2c7137e39d853c4725d86c4fe183c1f4ff47fe2af3a26aedf33,
  0x17beb72a71b232cd29a02f567d49046886fcf9f451b351883cea7aaf4702fda7,
  0x17502321b2cea3dd6bf2cefbb67977662945c8413dea154bcab107832ce6af6a,
  0x27327876ac843f79d557e95f0014aeb22ff89639018e713c086b9f43e56ec8e5,
  0x5054cd4689127811e9c4733721e37478456b0a03e1ff029820e920931d063438,
  0x4c6beac4d55212c2ce3b9b7c2ac804cf613b48f6d91aff819624580d11dfc46b,
  0x22e663616db81135edafb9dfe022f1de8cad0b4d01e97a709f1482b05b1571dd,
  0x28eccc3d8f77541646526cd26f75b6edaba0277a1a37720a6ba8e856beebdc4,
  0x24daa867d3699ca8b03fdfaf87bc5373ca3bb0662183e8ef9436e1f54fce244c,
  0x2240c279bf737d4c0207a0e5968153860b9bd6b6b2257c38860245870e186aaa,
  0x1f6c98948085d4db031966821d8820db1e8c16a74573ad25cdaa3319fc573f7b,
  0x21ca73ff5cc208f87ee3cefa557901e9f4da72fc3abfbd396ad70955b8191bff,
  0x2b080a50fa162d953681a7ae20f48c3944c5bda46716c3da0e8c91dd1ccb6d99]

def cA204 : List Nat := [
  0x6c48ad1cbb52bb01ff7a47250291cf1ea6a8336d03080d4e51473ea30b2e6fe4,
  0x11b5f707331195f63f692898cbd4bfb6b92b868e9b2f0d2bf7b22ae83f14a027,
  0x2b1abc19aa6470ff69b3ebe274919d53ee348b8cf24405bd44fe213c84f40c3,
  0x72df6cce97e2bf9c2512c13ab9604467c5d11e9ef7102ef132eeef8e32c84cea,
  0x479105f09ca107078e5f9c78830c31ddbac1682e05151a2a8068854947f6c935,
  0x6941048ada42aa9382fccfec6a6caf80090ca077561693389d4ab63be452a326,
  0x62aa827c622b248dcb923bf3fcc0c01c909173b59be8e131e3e2f46a3aec8ef0,
  0x5cbe109aadaab21d98550b363267b76e730553888321dcf952fe4281e0de2554,
  0x13395e4cc97c68ededd497bcfd8685a1af9fa1b4f1538fb812cd0bd769d85b1d,
  0x260c48a6f61577f0f6bb7924cff159c494d9257d87fb8b42ff8e100ac7df0ae1,
  0xda4b81cef97af9a39cee9cf80da1e44aca9bce8b62467f21335e348587c4ab,
  0x225be812f8321df9851f676b62e76a02dcae8fac3927d521012599ff8ed5828b,
  0x5f5d6be1f60a605a0cbc3b59c118601f165b7f701fc0f0074623d6e018926759,
  0x566f7ea9fa2611b92222034c163854e11a9f1c84101714ed37b96b699dc464ce,
  0x2e8e20b7169778d4ad6fa67b9da71e866fc5e687a0f93fb9b4563063c856c937,
  0x4df6a5d18fc78d0456eeba647d6692f0be36dcc9a6331e624f6023e80c29c359]

def cA205 : List Nat := [
  0x1a14349bb69a70a9ace81602093d6d627dbf880e7fb5b7f3e228acacef35f36b,
  0x3140611b3c0b32e442ce885202e34d29e04f01bc83c48ffa5df6b75844b28d60,
  0xe2e94d5353b769ac4b4efb37d103bd2ce0a2a9d76578f250eacc3b7d3d4100d,
  0x6d193287e16fd164ea1b94c7f5132926050e750d28c436518476065adc9a01c4,
  0x24b1b0d85b0a0bfd793afac58be7c1bfb82949cdda9c5c8f39fcbd884684fc86,
  0xe43f6065f31497337a76fc79093bbdd9f7ba78f8ae5096b28d88118f84402c6,
  0x24e70b2bb4b4d5cd0f21abeaa3d2e3684964150521d8e723997fcabc728a54d9,
  0x23522be5ce727ee78b0949ea7f293e97a519d157d39d75f731780469b548d19f,
  0x4f6f04ce11ce32c6beeea9b1661c96cd2974ab94b461ab350efa869e1fccc0d9,
  0x40c50d7b069e9447da522146eb24737ec964de8c431234ed9d92461ad2f8c173,
  0xba66c73b9a924b021a7284a12d64955dab87c1e5f20e4ed6e6f98e3ac8fa2ee,
  0x1bb61c25fcc20b912d27e9cc04f0d0c4190daf9a14d7e2265e569cf2cf0f74ad,
  0x1eab2e4c79855dae2c608e363619e41d2c245dd8e4a088d0522ba4f3bb2ebd07,
  0x18b8c1442e28cb76a3dd146820e3880a306e73fde3c179eab11b1f8ad91da34f,
  0x33aaa98e47da5d6c283ab2e418fe0fbdff11462d9d5ebabf38ec6b7a72bbe992,
  0x2d4f872c6fffd5a2a88ee0fd0b697f0ce0f632724796bc850935b7c0d8367dfa]

def cA206 : List Nat := [
  0x566c9eb81bbcf05845e0efe3760b6e12c961ed0360ddcdf2ef33227de23b26be,
  0x252c6c4bc8132bd069883f78dddda08cef7472c5aa8cba0c311c13d91f197726,
  0x2c287b71466345ace96f77db57b3d3271a5170b777151604e04b8d6aed4ef99d,
  0x5530a84ffd6720a8e31407882b2e7e4ae834cdc8e08cb33ecb49894233e10936,
  0x26ff8944d7c618a1fef4cd1af9e823c0c04c1378db42b49672dd897a5ff0af27,
  0x16fc1ea9a2ce5d6c3e687b09ac3c0653546063ac9fcc2c66f9ec383f8e0e85e,
  0x3e23db78e4861718ef46fc258a9cd544a2ac0943e88a6fb45919284eca8ac1d2,
  0x1ff4ed354251d7da8f60cd8ad2f1218d96da96956627f90e9f092d5c66f2d3d2,
  0x4b51c49cf89c75022ef2e0ab5ec5bb213032cf38f089f959aa62ee4b5cc7b415,
  0x6dc349b23a01a870fbd988477f0959e3940180562c8bac42e2e17d3f9a9e1eff,
  0x50f1c44562fb21fdd613d3c83e6a0f87789679a0210aabb9f834822be351db5c,
  0x3fee63cdbac40a7e43dc712f2a30154b4bc7210788ae1598f8480d0ae3914a28,
  0x4963c79c584547ecb9d4bdae60c153cd5aafa6f5973053c6dee569346a33c075,
  0x3e09729ca7bfe15cb30db794910139fb3953213e4f0853c04215b121ffe994b5,
  0x187a83b69c59e7f7a3391cc6cc532d857c9f2707125584f364936200d88b6f30,
  0x6d87f1308d79412416e89fb8d134b0618640a1891acb9de0d9f6d8a4137451ae]

def cA207 : List Nat := [
  0x237f3a6f1f0c2fe715f67f1a8529f767ae3f9763e65f0ae722d2874dc238b7ea,
  0x637f638c4ebab83230455b4639773e876b1b506f9173859650b70443d2c8e554,
  0x616b7e31729760912cce3c507b8d4464cb92c7af427bf093cd1977538bafb15a,
  0x60cfd3e1871e6b89aec65fae054830c567f5937cd8bf9a3dc0d32b1733c66657,
  0x6d8b7a61f6c1714e9b392f28bba7cba96cfc3c99b952a1c179439d99dc014fb3,
  0x5daec00fb9f3c05d5fca2b66f5ed0508d1cf8628451f40543412d7bff5dfb6bf,
  0x84227ca2b4af0d06db22f98516fb89c164ac8519c1e7b4fc703f868dd44e34d,
  0x11627293e658c40b1e0629ba80ede6b9737187cf52670ea1075f60dc3a19f47e,
  0x4b0cf130b35256171087d6f6b15a1dd166e7e0503454f215942f9b5a32334650,
  0x111830e9a0b4b09900cab096355e040368afeb45f9123930609be951a9740d8,
  0x292efbf30c572f0d9845a13403169a24c8eabea741c1160b86ff5d618960be79,
  0x57a1dab4a3e17d70c480625a8774c8308462138552f7bf919603b818bd4325eb,
  0x450c53d710a7860cfd0da1935b4ca033bb7b583c79bd92406a319bf177963c2f,
  0x352c0d7d655f84ecfce6a523f4013d15fe8b038dd244a4665a2f83ae5732580c,
  0x1b59f81921be1bbd696ce7e205b3b012f3628a5151644966a2f27c50f3922e86,
  0x4a31aacc75d59617590697e5b8cd39a3cee31b4513cbfa3c7c486a91aeed4730]

def cA208 : List Nat := [
  0x5cc4c62bc4d9e73b78611902bf3218d510a2e8b6b56f8f28bbbac15915988bd5,
  0x68a1032f219323697e1f4545f32f29b910ee19f5508bc3b86078eed0d92c2b54,
  0x30c38766bca5a484079975c9d11a5048d69b601e6429e545a06cafbd2203a4bd,
  0x3ba63f149d3dcd551e3190e9b138cc83e63a38afe385a9120f867d96289dec2b,
  0x234cebdd0cf96c3cb80db8a0c1cfd9dd2556a524905e094f68697534574351af,
  0x6e7ef44a697da2fa1c160b4236121c9e5d304de91c44eb38c22bb36557c5da74,
  0x23ad6fab5f0f3e61c8103c959efd7ab3f819d6cbc90e2745d38b6f9a2b45fdda,
  0x6ee2d4c438333729296a6dec58c79dbd759283e141b206623661ae7328a18f6d,
  0x6deac8ee0b6a5fddc64cb19992aa57c461ca5458e07164e778a4a33a59f4fa51,
  0x6880d6e457ff21c1d3495975f5f00b7caecb21cdc688931f1458fbdd570c5ba0,
  0x589e7cd3c4cf5186d6771649b29139ec11a5df70d9f834ec8aa84ce3ea6e892b,
  0x4ce9e340778826cd069fc73916a62263d91627ab373e16d8b61f74bcb6478701,
  0x1d8bf63b258fcfc5c34a562247dd56129138571afefb26b2bec3496cee6d70bc,
  0x4546d5a263704c9e1ac8496a692cf4750d24cee17a232487a87e9d0f80a0e3d5,
  0x4c10058a6fc0877bc2cd116c799d7a8bba09261a350b4e0571211112b655e928,
  0x684296f629631a491fa1bdda32a767273d599809c55b64f3a46e6680d9346844]

def cA209 : List Nat := [
  0x149dd2251055c938696488b3c9fbbbd0a9c91f13bebd5de41e0c06f3ff4fa1a,
  0x5c3eeaa9e4e179962e37b9db3e6ef16219bd857e65ff9d5ef85f724864654b0b,
  0x5c8ee6d72a8d3a2a731c60ba7ef03f2aba4769a2bb4aac67cceb51db5f0788ce,
  0x690d122ae60d14cd5e881e55ff723caaa6f7a342304bb1e4908fcf5efbc045de,
  0x53c843523cd396c470cb82aab2499b76bbd3c555cc3b6eebbca60c848c0b7b3,
  0x4fe0a24a8db8d78771752aacbfca87bd1294b31bbdb172c9f4265083f2becb93,
  0x2596e0cbc24c712cfccbe849efdc991206cf8448a1e76b642b60ba24cd4854a9,
  0x2fa8d4d2a0b608c583ac2930255b7f16643d29e5cf0b64f7a91f23bb1e3e6e3a,
  0x789660240622097688a3e0576563a646cbd9c5363ea5c909261e26870fba509,
  0x4a324649e41d26725bcb48aaac01b260e8412ea437e5beecfb2a57e71fe382a,
  0x525f7f7d5acd0c1aca0f38bed8473bad311a29b18d5f90c7b808728a05b83c11,
  0x187f0d4defc00b819c4feca6b35dba0687ef73e00ad965b029a69e5d77027abd,
  0x1a757743d654a3b244583824e472838e769ba62d7d81f414282eb6f01738583d,
  0x30f9a450c7b2f79f4bd8b1dc8c11c7126bc1dc29bdf3e8177d93ea32b5d09ec2,
  0x656d96947b2bff1a479001666b7e5f50734d070daed4a1a2dc7b6a27e201914d,
  0x12c49096041372a8294597bd91f370cb941a36bfa1168c32039006add93b74ae]

def cA210 : List Nat := [
  0x1596cd9a8952e6b7ffda3ad6217b0820ed77585236d033025ebbddd6ab2ba0b2,
  0x5d69a5650caca6087645ee9ca7731bc6af07589bd2680f3e264810cfdd792477,
  0x46cf2fbb13579990c0e7f9873d27a040844d50d060c42ae15530e8cfd078d511,
  0x6c7908813bb10a6dc5f0ab5a2fdc315a908b88dfd768700f88554633d9d3cad4,
  0x4e313356e0370034f61a1e6f95517f5da32637d5937b0329ff399b975fd52954,
  0x177fed53f10e11aff5c558a7a09b9a1189071f764134aec25fa9ec8ef920aa1a,
  0x4e6ac006d1d0ee94268d247fc107abcd77c48e4bcd664ca99c475a114fb56dbb,
  0x5f7e08f0f2a61d826eeaf32c257c16cf82192cb0d11c647a12b0972e0727ecbc,
  0x534f9a1aabd0a84539b14d5e23a4dffab9cf39bd37f3b7f41505f1549dca7c5a,
  0x3b166528c3434bafdb9d6817b03fa6caef6bd5601fc5c9cfd98945fd251a7f37,
  0x1cc10ecb82b223cd13305bf95c55dae93af1600b80fce97d19f6e5547ad38257,
  0x67e7b42c389103d311d915f4c5ec0e6bb4f7557d1b1eb152225e943eb5a660bc,
  0x5342e7df2a25ae9a8dedde11dbdd4b06245521eded97d20814cd04676a54497b,
  0x70ecf106ea332422ce448edac8ead85e933476f35e2cd13ba073a0c4e6b27bcc,
  0xc90367e3156fcc7bb645434f6121f38f844cb350b303264b8854cca98aa519e,
  0x2d94b73a1088c11c439efd3f4922042ef19d3752e0ce27fc8a9bd36b2d5bcc4e]

def cA211 : List Nat := [
  0x4e7da5853c32f5f7a73c709a46715188092cb6f1316f226f60c7a0301edde5dc,
  0x75b40782f35285d4cecac7acb5121bb961434837482c886b41ec7abbf610ab5,
  0x573901bea32e07d17cda56f122d0c9e4989967ea29ba420da6e39c7486eb3eba,
  0x40d0fdad4a13af123543746734a9ad89f477b47e931ee57ae66dca8af25dba36,
  0x4e5fac5ab50ffdac960de2a4c58a3b182c8f713fe67f4c96b7e1784f3eab03b5,
  0x46f2728093752e7be9b556218d3e260c624d3121b1f0637a769d23a40474812e,
  0x6680c7977a1afe7a11cfa34fd10e2a2d5bc607b93c0abf1df2db58249962e5d8,
  0x5c826b057634118f9a1eff88a8ad0c645f50fbda173a000509754c225c6543f6,
  0x287d6e0e9abec90e8b97333b8dfe16e4c9a0e9c3db6ad73aee913c7656b443a2,
  0x32ba3e382b7369a6b16857bb0a61d4080c7733469c4ed26e2617ef66b85b215b,
  0xec149a50268331a0a181f49ffdeeceee0198ff017cee2c822a6e42f750081ad,
  0x514cf767275691c0de6c3a64cc34f6c263feea3806b91ce6d4865b80654df67c,
  0x4fd794a3fb1259970999cc78ebfa01ab3ed8d0b242230f83e3f8cf773016331e,
  0x43ba602136fc09c05aaec0f6a22ce61bdafe061a19d56fb52f130c09b524b514,
  0x1cc459a68f35cf2067722d130d0874035b3046780ee01f2e36e3f0577c0d4a42,
  0x717966f1c948b0627bcc72a6b137ab66475edab49951bae045eccd7be77289e8]

def cA212 : List Nat := [
  0x338567cc34a6c205c57c0aaebb7ad55f3db642c0fc3526d126d9ddf3f9ec40ad,
  0x6666c94a7e14dbf135e4f42a532228fd53c394ce479b1e9fe1b562e3aef38e61,
  0x62de8186787e1fb7a884eb6a096ab28a38b0195d1175363cda2775c1d9ce719a,
  0x10a20f1b77c02c570a6158cb94c836c18101a169306bc2721546bdd2af0befef,
  0x576801e898c0c9262cf63a066c64c79a9ac71ed4a1f4109fac001dd71c94f4c9,
  0x49bf204d489441047fd92d3ee1fc21b0156db90f71e633b520f88185d7333160,
  0x19c17c3048ce4a5d898a0e99e0919b9e6ae636dffe0742f25ec99f8afce4feed,
  0xdd2669e397fa8ea33f163130294278dec128d1d6585e28792cc06aa96ca53af,
  0x2a39ff13fdec49f261d601fb073769e930e4d0da28eeafae8349d9303c8ed239,
  0x25b4ba5d429436dcbfd3b31999900203a532423e1b8f85cd4c9936137aca8800,
  0x69d616272338beff0776e78455ac47b764322bb96ceee76aec781a3d1194cd7e,
  0x5903f5f0b2a86a7c3d5027aa1bb7ee509aee1e7536d2553a5eb9a0efe169fbb8,
  0x2c0a5378b08248131f9a379df2039f0848c688090265b73b2d7e1c72b84fced1,
  0xda50507c60ec81caacc8395d5d71dd7801a7cd1065cb45cc2ebe93f130c8293,
  0x2869f063613a7353445e31edb3dc4627eaca1c7066ba535ad3132f309080bfc4,
  0x6a454d38812f19c8263757acce396ddf911793f7582090f27bdd4f1b3d6878de]

def cA213 : List Nat := [
  0x319e387dc10e1e7b65c9e918bf8d2ec9a9d89ba984ebe7f90408993ae7226b8,
  0x27c75af08b7f2cb7ece9dcae9dad99eb94bf9b36910a7d6b16f0b006b2016ada,
  0x303ed78785e9d806cab25acc5775dfbe3ab4ad575b239f680632c250f004580f,
  0x7c607252bf3a2acc437d51e61b586db61a53645e1640e949951b34feb7d3de1,
  0x5ab0599ae44370ccde2acbbc36826077148ce7eae09e3822d79dd41d8f0458fe,
  0x3b75a8549c3d0144ce20997e59f3f64d7b3bc2ad939083ed20a0c14b180139f5,
  0x3369f260f26590c5ca63b2031d49c080965159e6212fa417c48608038b0de467,
  0x166a4c96ec71c42ebd56b7a2c291a3e415be95da8931d9a30398c9d7052401ca,
  0x518d7deabd24962277ecc29bfcce86a42895e3f00a582087b69f882bbb0282fb,
  0x1918b35a6f0e33dbba591bda8db42dd6036d0729c19b29a65ee56461345d772f,
  0x619cdb7d31f5710725e6175badb53a1fe9a7bd6257d2b263ce8a91e6cc63e4c,
  0x2106d540a8be085f161183525e3081d4f63cde0c2854bcb4e2dab017d2ecc153,
  0xc59dbd94314f8e885e54f20b1439138d2bbaa62eedddb3391dc6704865b8499,
  0x131eb94991892576ecbef65c75125edf2080ce67fe979e34e8382dcf03892db,
  0x2153763a40e7c1170e086c1a51b41455789ae8736a231176eb9e498ef9630e08,
  0x5f92e88b2b304d5169178e67faf5373b0d0d7a568e16f3fff00e6c003540fccd]

def cA214 : List Nat := [
  0x5cccf06fe514d2e3c178b257ac1f997d7c98c4531c9df119e88d5f56fabb59b3,
  0x2610632fd7cc2517a869b5570426b717ce3b87e99cdb695e2db22ac23112f734,
  0x10d24346db88bcdea43fe2e141a038bac41189b7e7ae2e92f43a1041d4288f69,
  0x72f82e0f7c267e936ac521d1cfef417de6643a619bc4ee6034b85c36eb795def,
  0x116420ea72397638f5ebf2d296e030fa4b1349c686799fd1b31fa4a604b98188,
  0x2a01485d8ad44a48fa6944b12aa1d78e7751c93bafd3d9dd0bca0a01c4aec03,
  0x3a1043950378a2e25b0bc5147a6a1f7f88d9c14aa9d69d56ad73561b7d3c7185,
  0x4c47f52bbb64a8fb4cceebd43f16f06aa8b702e4f72d7941496a59b770a34b84,
  0x3d6ce7d826997b0db56f2344aba750a47043a5db124a83e901e0deb2b3b5635e,
  0x4d3cef22e3f68dcb650ceec7352cee80e2e222bda291f309704068ce6b03335a,
  0x1420fb74e664f14818c26f4fc81a8f05ffc8ce56f7ae8f7dec3753b2ea13fa6e,
  0x42833eb7ec30928226e1f59ecb192c827fbf4b47a7c23137649c94bd46f3ac71,
  0x306abd1b093b2a5a0d9d3d742a91f4048e73377e102be56b664f23e813934f2,
  0x164de90009129b71035e2cf4f08b5d2663aecb44b03830f208a9792c6d392202,
  0x56a6cc0fc75f684d4a4801b410beabfec83f16060b250da2d9280d7e183f5a19,
  0x2765c5b8a9b9d05d7cb9282ab03a3fb2911fa2d59ea65a0c3bf6870185d9b0c9]

def cA215 : List Nat := [
  0x3adae1a601545d272a8e9884c41351d1c78c232822dd9d6ed3e3f10eb8aabb26,
  0x61dc9998cf0bdff19802fb70f940c0c7d73a409a6b0ee48827dfbbcf20f0fcc9,
  0x1d467063ce3448667ba8a1fd75bce9e302f643b853314a186daa8b184d31a6a5,
  0x486b310a59116c178d57494ad91af2bfbac877c74d03850c4403fb516bdb4b20,
  0x32c5d46172a2d788eca460869d8cac237c6c652cf80c4bd5581caa8fe0a145fd,
  0x2d8fca403b79122e018b410cabe8725f649e9f1400e2ccc9516ed08d2a3e11f7,
  0x2124920885bd7510bd4b242c6e8f366cbcc372f8f40c761eb162218ab2f4fb40,
  0x662ca7015df101f9744aa615ffe56b15a75af7d1ea96574f0b87d18739dfb2a2,
  0x43c1126cb31c43afc627987e73a849d159fbb661170c5fe07b07021730964ef1,
  0x1b8d3cb0ccfe218788cf2d92953e30b98728ce4d6776ed211f07ae73905f0ae,
  0x566a8a79469ac76b49598a47cdcbb1f65b42704c3535ddcec18da02c67934925,
  0x42a6d093de5e6ae16a0c7990723048ac182b6866fea3960989589aa83806863a,
  0x62a63723dcbc8b743a6c2a33cc5bdbd61e3aede36a82580bba493ca1f7ec7fda,
  0x11927aca4d80f57b727f597fbb459ed795ee8959ada56772c639e985a1218ed4,
  0x148a64a129ff5c72d85a2f8166fdeff7dee24151d5db4c95ed8d78c94b42bc71,
  0x56acc60ec05466f8ef92df776e0c9450e0dd54e69f6be17f84d35eb0c47c4227]

def cA216 : List Nat := [
  0x5ec7e84392882ce7a0e9ea2fb3bef6250d5989d6dfaf3b4097bae349b0a1cfcb,
  0x20a0b1a0d71f08a9531cb85e956a7f7c2adb32bc2920fc08f3b81396b7313d3c,
  0x52673568c4828a008865b26781d904ac8f7a4b21a50aef9095858bdfc2b66b07,
  0x1e6da504d8c6a38440f8592677cd81e4f199aeddfe0baa0344d114ff2f474fe7,
  0x56e939980d9b4cfbaf8cee5204fcbdc4a396141500d31fc3db46974e61422a38,
  0x3a73867631f77842d70e2e5fc2fb602ba3471be4176d31bc7a50d23200fcad19,
  0x4bdd515a7fde87611979d088ec886f7bb2b8e235d72773fe1cd9e920ddf83bc0,
  0x431594a4765c49bd0b083d47e4da6aa0a6a4051ab845bb05c886711256d34ea0,
  0x497c8711249755cdac77e9a40e0be7c49a5ba762523533d708f7846cfbdc754c,
  0x1dfc1fa5ba882ab016450af4e6cd032b01d7d941ab3158dc9fb010316a5046fa,
  0x185e730518c1a6817ad8c86eef0e7cae3b2e1b95929e5bfb0670dcc1b2903270,
  0xa02589553894892628981aa03dea1c703e8eeaea453a0ac1167006b446706a,
  0x21b227672345638c8ab296cfd04cb33dc78a15996e4a0e65db144f892d86ee4,
  0x534150095b5311fa12182619ad93062c175e44aa5d88d2d31dd17be09e9d99a8,
  0x2a7dc316af0b72e73e5e03dc9f68932fcb20aa69e20d25a4ee0db1c7caced29a,
  0x2db9d0e083d0ed3d0737748693c45e2ee94b04453f19732d500c31aa844a4a79]

def cA217 : List Nat := [
  0x450b44a6465fbba4cc6fa3e716f2a7a7905cb0683bbc22390bd922f9823b514,
  0x3937495849a82ed77f1e91810e5299a189259aaa3839e475bd01f1f7f94e7818,
  0x42c1f0f71dac745c37c3ee1d93516ae1f5da0542ca44145e1f7b2e146c071c97,
  0x3b7c7082d69bc01043fb0cdca43cc6f23fedca41677196433bd03015e6a7316a,
  0x1485ed4240162558aaea5f09da925013a0fa1faf399e884cf0fed7a946a12c93,
  0x1e663d2885a07277cb4083548c0d3887f1c16fb864b00aab7dcf8bfdef97c15a,
  0x68c02551f4a7a2344d9247ee968514df2f7fa4ecbb8458c0d1add766d72f73b9,
  0x6a7c6af3f489937c87c26fd2f299648400281115da127c0d7e29d2306d704db5,
  0x47fce63fec5ee87915ae5a24da9b329c63149dd35f77e2a704f1cfb519301d3d,
  0xe23666addf68167d775bcb258a2d2bd3d5aaa1569dc48bff2f1b56be3e24edf,
  0x417a3100fd1562722b6f7bb69eb1149f4119b6910ff4a63f59ccaf3104f7d751,
  0x40a9043108a9f1da93ea73c0e1c9608dfe17d4916b8edda5935d6815c55aa07c,
  0x738723ae8d34316bb64a5177c009382438e2708330eab68f1dc5a9915c039697,
  0x4fe0ee1d4be224e326788436fe829342d8a812db48359a65576ca13054d0cc05,
  0x5ec0cd6be062c4e784daf9057fd5bce1df1569c059ac9f1f01b9ebf5730bba10,
  0x586f8c7bc2b117f7acbf1319d7779b84d46aa7692e1eca2c1a7e179cfe7ad1af]

def cA218 : List Nat := [
  0x425423e0674b1744a457e0942986479c624a6b4dccb8f5e7caabfff462489837,
  0x3ce2c485ed6c4ecb68f4b4ab3df1f147da5c4a3cf924bd8f94c918b878b657cc,
  0x97dd0804901dba5b80ae687b627f655c78e4ab216d3f4deea2e847f7f437770,
  0x1348cdae4e1e50c376e122732c3b9ff964bc704ce00e70e8f9913c2c1ba05799,
  0x3f8f54236d39530abb0646eb49983806ae5c169fd45d1fb04cb40ed25a380ade,
  0x28866380e85975744c31c0dfa4a01f7e542d1c0cddbc6584585c2198567d5e24,
  0x4df392fcdd7b1721883dfb8f1f723153481d77b4a786fe91a40784a0a79636d7,
  0x3f6a662c7413bd2b896c78a02bcd44c509c63752cde0523f779c2fcb164fbaa7,
  0xee77aca3ce4aa688726ce6a639233d2b8e87661baf3686cafd799bcf693c3ab,
  0x4d84e3fd80bd40f9b9e4511fb73299119f73b7b5f867f88ccc7354b10e155e6b,
  0x1bcf2818b13df31f661c4421f57af54ac38183f238c0b99645351f21900dbea8,
  0x4d1338d8d6817240d942185990b28435e23298354ced2eeda533488c00a8a714,
  0x50970c924faa46820dc1dddc6829c4376d6939ec80d82d36dcfc1d78a415c946,
  0x734486569af1c14681b1023b21f435d1a4cdf3be9ce94378a35bb4d2b0796250,
  0x3a2e466005e37dc64349add8b045b144dde581215be2dc3dee261379e8abe24a,
  0x66b2d5e05f054d0681e5ff5b649ae3875b476b8e00d7026422a902094e123f2b]

def cA219 : List Nat := [
  0x733138d2608d6333e2611aa9e256e013932281f3aabcea95ef59304fb51e83ed,
  0x59e3d71412c52d1a88a87fcb57ed15c49d5423a35fc7887421015d0f0869ab3f,
  0x31ee043faa5aefe64d7afbceb3c96ac817d78e143c5bbd0708fda644ce0f956c,
  0x696473cc98b02c457552f09e6796470d9cdfccc89336be661b0c5948d19fe0d,
  0x7249b870ec03f7b5d0395c22b04d09c4df6f48fee375ada1a9e650603cd7deca,
  0x49cf451300e026515267ae2681a60622473bade67e0f77d1571de51b2f7d8214,
  0x3640af828618d0ab02f5e3c3b5a35194837aa6c4ac41a59db94452a646ba15f9,
  0x1a57e45ad425b03830b245987c812d7081079605a843dbc1df05a8859188413,
  0x4b82a1bbd82bfcd7492e1a3a881d67054d752bcae2c55df667a5e500fffa6139,
  0x50d61260bd4dd0fd281343eea96febefb1fbff1a30a006aff25f3a5a22f91a9a,
  0x73659400749f93823100fc9497823e70060d1e0f49febc80012aab356e99df73,
  0x2801d1351418dda0a1f9978feb19e4f4c7d662457c110e442c646c6f2c2a6d16,
  0x53924a2ef1feb098a50325325e3e878357ebca69d598baa1b8f52eee57d92d38,
  0x2902365a3d67f0ccd6b48079149074c25c5f27e40a62f2b5b35abe9ffa93f98,
  0x1b45522bb78381d327609d5901c97cff8aa5f05b01cd7776425a443e318bea72,
  0x49c6be0826e0595d8a71ec1bd47127ac6c80f7a5d9356b1a37483ae7e4de3b07]

def cA220 : List Nat := [
  0x34650f5b13c60f552e0b99d0bd32d5e415b204f66b211659817b891f304982b7,
  0x6874f30357047c92db5e7209a4a227d96e8fd0985c6bb7c7b2f3a73dea414bab,
  0x4b076d506ba2431788701efceff509c297ef1317b72f06f3a969e6f69ae4c8e9,
  0x2949ed8cba1f065312446b7f50a3e97e7dbf2ea3632219151bcd46bc1d12968a,
  0x1dfe109a8053c2012aa1ab9cfc3a33ea53db90da7a10c9f508e0a8739499d82d,
  0x639ffb0d8afdb143c40c3d5cdd2cc3387436e18c4554699de9a384e416150b78,
  0x1c50856dc599c362655b50464fed2e6e57ce4aa8c08483161fe69316de8bad40,
  0x55cb9f448ff1d1cd7156e6b07f38c3785bf2cda30e37810eafba69d58b94570,
  0x177b7a13f105f0b006141df8ea7a1b7291c349dd766fdbfe85e9dc2b61eda889,
  0x24fd0c3494ae87863f10c096662c011e3c59c52cc9103a504cf3f8009e68fb13,
  0x47aa1757abf66fed32ed164bd2644557b4f3d7d699d3127dfedb57c6abda6329,
  0x64ce3f04a092cbef5d6231e1e8bf79a43e52c2cf2edb7ec6c061eaf33717072f,
  0x210647430bfbec0b9f7fd39e697b786a3cb86de986448ecf6e4af722869829fb,
  0x425f6e49ab6e89d262acbb1e14cc12b59b88e6ab959f8c0cfcc88e127b690579,
  0x57aaa7c3481764ba8fd759ad153e8dee0025fe636f28f3ae72511fa2b666160d,
  0x523393bc25f88b24f311889ce80e7dbe6b76b50852fe22d068821cd834f69a0a]

def cA221 : List Nat := [
  0x115bdcb426d0f9cf54b83090c011ac441284d7ff25c5b8b8e8c0456956752057,
  0x1cf8fc16e9a49ba67ad4de8166739f2fbfbfb964b07960fd49be707d44419ddb,
  0x6465df0ccec05040ddc74b74d5f6accb72d4082d35cb09704571518fa313680a,
  0x6167ae2629f7e663da1b082e1da14a35c137f6d3041f4004f7ca56e45c7c1cb3,
  0x35bc5c69bc88aaf025eb49542b0d223160dff12bad0fc3d336cfaa756ba09645,
  0x45560f928ca8c059b8d63b3fcdaa70df98e868d1fe0855b74a3b080691b0f23d,
  0x8172e7de6db0ab0fbe6366563a712a61790482f805b848bc109fcacb0bc5b98,
  0x369d40531fef99365918d5cbb5b7c1056322d15f52ee320ce871b62bcac099a8,
  0x63642b14476deabb9418607923dcf24bd1c3ef73c00ae5a27349281bc9a82005,
  0x3dca213b970f62d11e499bcc50f0cae34770b28ce78a34fae9aadc2ed747a0fa,
  0x5592731374423c3fe69003e340e901f2f087170cd6e7b917a4aeb961ccbb55ad,
  0x34f730794ed56942255c0f3ebeda111eae2b11ad7ff377e6a215dd8a2d018447,
  0x5e3080f203aaa24c63f9bbde6020025597a904cbab824e9318696dab5bb21e1c,
  0x3df4ef33cce9dab854b836f6b91ddb87ee09c1fdb787f226aaf9047bdc80507f,
  0x73500d03b290f98b3fa32751fed3923ff47e6d842f26c494a8e312cca9d8efeb,
  0x177dd5014e5bf3347605430c27192fe1e2999c091c61764af67117190e76b35]

def cA222 : List Nat := [
  0x64ee4b09d2ccffcef5fbb119731c2fe14e65da2880210faad489b172dbadd621,
  0x55e36e18b31e9c4c8fee6485b21e0c60449d39bd6ff755330f9c0314e7ff5504,
  0xb984b350ab7944080971b6fd5faa53ad2072b78453547cc777663de9f9bbb1b,
  0x434698c59b23d221fb544af31d0384b4ef24008c06adf0378e7f3e3d84e2f75b,
  0x9b9795fc13c2d83f4a490d911d67aeee3c6f6f776efb2dfd915dd0b8df00c22,
  0x3ae0c363037440085d298cfbebd7364d1fd0df95b5d5d0d8e0b6b37c97f83bb9,
  0x1fcddcdb20154f7c5bd48a79608c7c1b1973b93374b5b81a83f638833230d448,
  0x220b4b86e1faa30333102d5e05ec3f80201d08da9f073be3d7cd4f7f94eb2fc1,
  0x295a35561ef45957572b50d48b231a1deaf8d179a32f3b800be40e4c3adf57bc,
  0xfa9c0ad321ce05e0f57889ff448e375ed884b3fbb4b08405fcefde2af53d91c,
  0x46e00291f3562d08b5564ad271e7ed075f2829a3707aca70d8d7162cfb19891,
  0x399c74f6e1f077532ea49b2231e3024115a7fd135f8d1ddca796693de66a973a,
  0x2d84738d402213f446e6775e32c31d9fe3791c5f5357f43117ed44da8c06afd0,
  0x32761c7340c1274e7fcdcce071dd87fee5c2d93d1ba9ded14693758b462975ac,
  0x1bb55fa5d405a08d12775d9251c7129a73f879aae09d6b48716e6e911d8af97c,
  0x2de31a140c5b7dae1e5b726d2f3295e2cbed6a177ee59000ece521dde6fc32dc]

def cA223 : List Nat := [
  0x336940a03f4bf0e3166077077e466bf7e849a481771400efe181622d6426889b,
  0x131629d6213c257f264e6466b818c3e75bfe91c78a66d73ee53d73ddb1728d45,
  0xcc1a22e2a7ec67fb85bbeae47715c6c66a8fd4de9b96475a53f2d4909b85548,
  0x56c394769b5375f5c42afa01594206641d5ecf86fc9105c138539e9b83d9a228,
  0x40708206a13006a9adbf9173836bb4fe6de083d85cd33ca344cf4d768469f7e6,
  0x13cdc8d45e16cdfc2db5393456e2c6ee155b89505aa536410797472ef554fed,
  0x350b6fd5da7f3c0a63ba8a48d5fd254afbba3a42c3110d074d40eb38a075bd74,
  0x3f2ee043b7340f7d15d30360d1f36f7f01c9474ffcd4e27d52bd9ebfc3b5f2f4,
  0x3dd0b5a63a0a6c2cb29fbbe0f7c976049634f4513a02511b7e5a099e42fd80ac,
  0x6ce12e8af8af7717ca86b7758b7f5efcdd7c7e3ef49f43d47652dd41cd331d89,
  0x5ea456f6ed499346bd81695835f0b3f2f4434b7e8297c747d9138f87b37a27a5,
  0x1e4e28b6cc5ac8b17480fd6c6b749e32aaae17cf47cc6afb300472cb1ebdaac5,
  0x3c63b1a44d31ab93a6a3a6ed42edbd42b7e5557d307b80b431b9eecc092ede86,
  0x270ccb96f4ff1028adc1a289720cd7a16c06b14bc08fc0365dd56adffb3246cc,
  0x4d9304c28eeb0bcab0aa97f5b69f0042357b31a9f8c18b478c77ab8d00e7f3e3,
  0x5578452688fd3ff6126d0baa8d51e13bc66aedf9d84db3ca617252d5a96602d8]

def cA224 : List Nat := [
  0x72a18f4d3d6ba69107f23d80a282cf243ac5ca147ac7abbb8066037eeafae996,
  0x49ba72acfb4acad3c3ca7b98f3b92a6c23ee41b5cbf0f68d1acd1bdaebc29046,
  0x10c3619b4f1569baf529551d60f2404a0216cad65d5f3c09c6c967878775f655,
  0x5f8ac3cbc5d65b7278c7d7d7dd940e0de9a45af92fa3679b129e7fc3d2dc7f30,
  0x44a732d31445588f96686313bd31fe8be113448f6430150ef02a5741f1a7e371,
  0x266a2244019e5e9a9a84d66530e983e8abe4b703a5b90c8fa8de2b08d81c051d,
  0x6d90c074f5a1409ea250acc944826de018cdc2c82b11cfb7cdff6cc476ac1f55,
  0x3ca91b3f957a55dfdbeb679536ab45321de0fa789562da8e24e671e126a0f99a,
  0x310747709d67b96191b6fe2f4f5d26a833e0271a560955b5af6f6506a22d99bb,
  0x1ca66b33de1b780d1529167e4a92ecf3f71c71dd072ad188e34bde1f8e6a1e28,
  0x1a72b04b7124f45b493d419d3d73189d3a19adfc741a3197d8da73642ea463b9,
  0x4aeb70316029e805eded93451024f956cf9cc88be3440ecf2d6b7b31a5deaa56,
  0x2c3099f2e151a1068b3fef883ac2d70421cea0a64c05b58483af1a5103ef2a30,
  0x6526b7fc18a4bcae25b2c74e13fccb9f4bf7be8062bfcc5e4b245b050bbab442,
  0x216e3cfcc13e66af6d4e3dc2294bb46fee5be64ffcda42686890c9ba0d4622fc,
  0x621f72929d9c707581928858ab441a5ffa21581d4bbb3dfbfb7a496ba9400ff2]

def cA225 : List Nat := [
  0x23a03badd289bf0366f75246f247b609f1ff1474d525b3111123b2bc8e2f1ec8,
  0x220af41b0768155c7986f843f70e1dcb91be5d892462a2d07a27e1051e204306,
  0x20556c399c3040538e9cbdc41c89f92eef13e829a50428eb4ca8b5e051773ed0,
  0x40205e502a8a3464199fa833a4f5273616ddfc1f03856f20ce028d6a59fb2706,
  0x5c22a60023821219afed161ce765b07a8a0771022a08d8b307a9d68562f9abed,
  0x1eff73f48368230263147f52c2d1153839102eb4d0a0f414a19d00d89e1e597f,
  0x4e45140019f63f6906ce17279dd16b415fb3150494d963029cc8588e1ba12bbc,
  0x36323a93ba5104e96f8e493dafbb3b1f32030919efa76b6ba50c0e0df8d00398,
  0x61758227a7ecc84bed84810b5f9109b2389d30377ef67463e4a268f11cf9992,
  0x597354351758739f65288eae3e92edcb69e89d1902523e29e1f273e1f9b4ef53,
  0x57b182f21bb65254cdd2524e4665994d45fed6af82859fddede638c18afb619,
  0x6af0cc11439c65d53748e4e12f888278a4dc1df049ac4ada96036014826b6231,
  0x25c84731e5b0f3be29bf5d530f51f42696b9d9412c1c5a90a31a42cea0559937,
  0x23714df4cfa623c05a69d0720fc30b5e0694c20f2a60981a9742a4f2835e025,
  0x4ac19a7c302cf0cf819ef30bc39be4ad56f3f8ba9afd64b8bf17f5028bbd5908,
  0x2960846f1c45bead177eebb47f2b2a1730a35160996ef56072de8072818ffa23]

def cA226 : List Nat := [
  0x5ca8185c9a17a50d5a3281176a470bf9402b9916ce2664d01443f0feed9ea14a,
  0x3fd339cca6da11cb0def6ff4aa5cafbc45b9709c347b164a5b700c413afd4c37,
  0x51323f04eb03df346a09fce5ff76e7522dcb4b7ab9a961eb086b43a13b204bdb,
  0x22794ca4ea04f6312be75c8767623bb112b4e44214dd666530bd55052f270cd4,
  0x5f195cf25a0152bbd638ec3d9fe699fae160f42eec6425de1a984cc9de0b208c,
  0x6d03245bdba3a8104b32c70546683440d2b20166488df8e2e0e9e3cbc82d576c,
  0x57764ba1f2e2d2a0ad8b0fef7c9bab7b7ca71a852c6f3e9156eb482386228fa3,
  0x4601974fdcbcbec150c7d338f1c392f190d92e8319abf9b99bb20b19285e50a0,
  0x3abf1056b6f767fda711ea38b7d22289883d0fe81302349d33a4e936553c3cfa,
  0x2ec96df68f43ed2ecc771c3581db18c8dcfb75b3de92a03f4c9c332570922084,
  0x2952cf754e36b9a7ca40d851cc4a7eb058e27fc2b3661c7d79f16951531ab0e7,
  0x352e7cb863965a5a29012c9e0caf64524d8df354ecbdd674da932c5e591b055f,
  0x26fd6202a90cc4c7ef89bd71b98a4eea82c800b3be6380de53239217af23c31,
  0x3c9b93657d3e4b750b24c7f4a7810985e55e3d5e95b2906e7e9033d6eb723968,
  0xb9163060587078c4b077cd56b38f3e0efd4ae74e5597ccae0beabc3612afd8e,
  0x1fb6fb37ff1314fd938167ebc679223dd1b41b46337e96e68cef9ae4a379277b]

def cA227 : List Nat := [
  0x4f357f25a465cbb3fb302ffdb988e2df1e53959d6d7595f3fea7ee84cd11f254,
  0x3f1966783b38e34f9afb58b5702983c5590f4f2535ea2e9b7b32cdfe1260ff44,
  0x31cd6bf5073e994d8358021c1538026cbebe44374a4b20f63e28e0f4c7ffdd38,
  0x17994aecef05769b616921d46ab3ca2f1e90b130f9bda384953de5ffb2121756,
  0x1c138a5818982b6ebb6a86861f9b6215bf1a3b8ca34569c9ee55f2f20bfac566,
  0x3a245ea6d8ca9fc1ac098206e591ed1dde5b0a18d4d74aef238ded49dec56a9d,
  0x1afaae7774ba56521a200b68da62791415658715fd6c6500abe6cfd5c200654e,
  0x310bb4790a44b8230a1fde443e9329f5b0f9a6006169e9ef8b7c99c39d832cbf,
  0x53ff5fec81839c42658211978016ceceec04d04f9b108726594719623424d9ed,
  0xf33705bc8c0b2305efd8c914a9356203d5476a41548801d2086927d5c4a99b9,
  0x5b53ecb91da12d9d5ced34e01b1e2e8c0033e80d2abc9a306539c0242308192d,
  0x21634cfebe4b86d71c6331e26b862c39a33dbdcddc5abd3b9f0c1ab4f9780175,
  0x18b2f86cca1fd76348649b12f2a771ee57cb084226a075a0e740bf664c21f325,
  0x6417583980c52bd2f48124e0090497ddc4429b98fc201cc43e7ca72eed801a37,
  0x206bc043435fc14456993faae2a17ea7afba4f1a82612bc97d9ad0e6363bc532,
  0x733b7f08800e1e780e10d9a78a403f1b214ea7c73fc860077bc0eca2f94aed37]

def cA228 : List Nat := [
  0x6338dca4e980a770e8251a42c5e2fe217c96b85390add322cc9cf064c760f3c4,
  0x6c485fc2f6cdbe21b916183a87d7090de1028cbe078dca2ca16bfb58ce5f3e35,
  0x3dadbfcf5bde1978384b20ffbe914152f7d3eede531151cb8c63a3e11f7a2601,
  0x3fed358a84373e001439eb007e2229c76151a4a154583860ded0cfdf3ffbbc2b,
  0x3614177be34d3f59abd4102ca16c18b8ccc45988bc1c31ca8670ab111f71f9bd,
  0x1b1c0bec49ce78a475efe3728822943d0a04ec136b6f56240f9f6d43aebeba52,
  0x2a8723a03562fdc244c5d45f97ce06dc3d9badd4459d88bb3b7070a3aa46b0a9,
  0x2f3bc32d4bde83a9f8fcc439878867994108b98434fcc91289e652162e861793,
  0x24325f67bd4eaedf4b62f927e421c9d037ee5a4c45e043cdce3b5799f0ef2802,
  0x2ad26dfd0837ad4552ebfffb1039bb7e449b276c42bf30d93408ecfc21e49bbf,
  0x2faf9b1e9f99893cd62adb2f73b95b61a14ad54d2e3130841d8cee2c666249bd,
  0x20bc28660f2e71dc87e8f38bc9030ab3ccf10a900aae91fd309b03b740f02414,
  0x57f17be1f32d7dc58398d39415f936eb5691f789fe5849c0834112f8abfb0f9c,
  0x5740dc44d3128817042c2ce3e839c15e90aa0b0161c5b9df97dec20f5141910f,
  0x40efbdbf98df3bedc7e28a8231a10eed911ba0137b793ac90f5edba3d53fc46c,
  0x536559335cdaa313cfc094a24a992e3e165ddb8f23473f13a19633e7e0d782ee]

def cA229 : List Nat := [
  0x309d88e815f0033366dfe2c6f0a468ad067b0f56dc78ee7e44a4935b67a817f7,
  0x427b34b191cd293aa4f143ae5cbf97efe005a12f194907ba2dda945d4d13194e,
  0x5f9e7d0186dccaf50c7df7b0d8c51fe2cad00abf6f2a863dfcfa0b24191dca20,
  0x5ee7911ebf02de9453d644f50dc92864961d8a7664ba8a1a74fc316f884d8802,
  0x22fde42ff6c096509d989c31ddec5d6fc6b092d5cb99acde65d5d38ca098d0fe,
  0x3fb8631f4457be95b8e5682e09d1db579001fbed907b0f257d83c56c84135c03,
  0xd9ed6b8534ec7b5a3588f01ce8f693a4a28ad4663d0936322ff5b4c4d40487b,
  0x20d69c14dde4a37ee5a0e171e063efbc89abf1a1ee7127e587ba0f0d275df65b,
  0x3021bf21be2fbf0a20eafa15a2f6ed78e5c1b70f9ed6c113cc54582b6124c162,
  0x63167d3724c5bdd8800de00fd4c8468c48b21361f3f2509ac42ed611c765d771,
  0x5f5a4bfef814312b890eb563ef06449a0d1d4ff785ce26fb17f4ac77cf541bdf,
  0x6b4909440dd1d5267df9457397c9eed9bd0dd2be3a695aa6e3246640b22acda5,
  0x6f27e028c928e602fd2cddecf42468f3f1f85a06de1c9642caa4fe8c780c4aff,
  0xde4562fba09f6cd15739158ccccaedf522ba83d1f59549469392538a18aa2f7,
  0x3c69653b49cca4ddab59d4623325b9e863daa936800b33d629b187e51f351c7e,
  0x25d72f4d162c20d87a92b9707d563643f9225461f002b959185f166ef4859f67]

def cA230 : List Nat := [
  0x1b1a5a112982c7a4cfd255fb3214dd07aa91de4ba81418d5da85a9a4cc77f96f,
  0x532c642e5afabffdd712661c09d4d5bee89401665cc21e7440d8b2354bbfa24d,
  0x2b0338da05227d84ad1c0cfe3871a378fb1873ab38d883e97a4f2d6a02d264bc,
  0x4478430e97f0ed8028b1011e05192e077d15834ccbeff3b470e36ef3fec9fe87,
  0x41c6533b76e00859d70ca55a2404ad31aff5012669c4e7c92b98a01b1c75c207,
  0x170f18a9135a7bb95c4514827f90de1e96c444b21e6841ca122c9fbe31684b59,
  0x4b977aca108fccbe9cbf24e2777f9463d8bd5c9612c1021f33baea438ec94a74,
  0x65518cc91e2369801a91d2602f0b5d8b697ae4742d6dbb10771c71a492a8e59f,
  0x6f9e615f733e665806900e11aca46ea6ea5dafdb57be34589cfb994e8818da6a,
  0x55bdf7c2838c20e29258a7ae43a36ecc21b7bbadb7cb443f0f1cc6f1cbe4c0be,
  0x1c6224996819c8f2fbe70a7352f1beedf82c682ffa5872d641600cea258590ec,
  0x6f6bb2cb2be886879e6f1e3c62e363ad3d7b928be9192049046f533c5400adea,
  0x3ff48f5b14c695c26bc9a716f36526f85970848bd7b58f3b5666d79bbfe1332e,
  0x58d005899b68c986e6691c40f49cb0cabdb80f2f28cfdefae378da458269723a,
  0x181eefbdf7a99c962f07957fc79d172352ac34926c4389cc9b1cac6935ce5c40,
  0x31a693435c4df37e43ad4f1d8dc2a05830bc36bfea3756a7cf7697f5e690e7d9]

def cA231 : List Nat := [
  0x107fb362c97f6d4042062a69ff7d35111f6e4e0e133f664162e8bd63bbe85774,
  0x2497fd2cd675de1ede9422f0baed30c4fe94bff8bf5ec4a63b0de0a34a94757c,
  0x2aee7c9dd9b3ee172ed478e0eb9678c4376a897af734a6ef56e6d91369e21d62,
  0x7135dbb157dec8bfb182393f5b373b50958f49b8dbec3ed1e4fa1bf5669e5f03,
  0x2b90fd7875fd50d965d9db7962020785a067dc7ec83b12e5f294aff8cbdab678,
  0x2027b9f6ade2c863b13f975164fb725233ce445e7307ab979a2c70593d22b07c,
  0x7e45f4cf65c921a047d3899ebf9f0d18358f9ed51ff55046b654f15468a056,
  0x6a1502799398ebe0d49562fd152486cb25d31cd9558c112f0bf51eecb67f1f9e,
  0x219d18fe430b41d0480d739a18531a4f908f0bbc003ddd3968af4242f7aaddcb,
  0x32b4e0d01fd37f5fc9ca12bfa4d45a84bfe5d9c0f6b623444fd2932e402d81db,
  0x652f450fed70252ac5be7844d5f67a2ead299a01ccd92c8fd9fcd2c9bfaa41e9,
  0x57d1cdae996e9bba176b11c73d967d895034ca66418f3e2005588b9bb19630a3,
  0x67c54172071130dcedb2850b98b667a7dbb0ab68cc32bf5f67e7e796de2f167f,
  0x342acc62be527e38baf67f1bc62e3c82335cb1e9a700da000c35c193a533d117,
  0x3056837ed29c50546156872dfb6a7078b7d994a7d2bdef7aa773d69216fe1afa,
  0x5e9d18838c0255a28305fb54cb7852ddb3a273612b75dd553762d8dc0c1d164f]

def cA232 : List Nat := [
  0x5b88e32aa6364702abd4defe239855bc1ba0eb312861a0a1940c13ae6ccce5ca,
  0x628a63531cc5ab777cae2937d96faca0b6035258520e1168fa19bf54c007eb9b,
  0x1e398dbeb9aacbdcb6546cd191e937e7d8e3610cc6c24fbc28df338cce95bbf1,
  0x3533686e44a9c55056129840fae63e7b76bf969b5c912b96610697521966469,
  0x73ae1044619cb2f28cbfbb483c2cc42719d9812394f6c8cf8ad5afc429bbb43b,
  0x18f31e7c93eaf7af9af07666fc60799c78106441b3ff2a62e20015b572d7efdd,
  0x5159c8cfa09c5c915171237d5716eb65c564b0fc92e666e5d269eab33bfbe977,
  0x7363580d6320dfa09196df7f549eae33041e7fa71c95b27635cbd570c199c105,
  0x459f37d83f8560f97168eb1d10bbd55098e597f9330e6948fd6e252ed08681e1,
  0x43198334758c709c184d2fbdb28c3cac35d1e975482c9e7f69641253380a928e,
  0x730eeeae6dd95fc0e7821708fbb73792bb64b44485759d93b82ed291dbdc2120,
  0xe8bfc50189eb810d1b7faff93d035bb637d224302b4adfbb7b6cd5123d69a5c,
  0x28817b5aec8a0febe652c9355c01efd62e12c2a3fa98d8c820436cd481abbe5d,
  0xe11d64d8891521ad782ec3f16340e5bb6b40e958547bf318576819b7c8795c4,
  0x4588b94ba4790d93fd4e4dc400376f1851397d743e01db2185e8604e5838482,
  0x44be7bf072e037dbae587d8be6c07862ad7461f251d7a0b907507627f0cb1c3a]

def cA233 : List Nat := [
  0x2477a992c563793dff2a30b3a5bce0e9d981a69626ae7f2da5cadf36ea98b705,
  0x7895e77ec8b180f0d4f481c6ef6925fd3d3a174aad285a0142e94b154281823,
  0x45bf2c93f6aef6a1229ac75711a334e79ce291a6421a8bfe3f0351e70d2117b5,
  0x700fa5d377abfa7ab2556c2c38ea044935f92502f4a791270ae4675d4d6e9acc,
  0x5b44442bc63237f44e5810b757381084ef84366c2cc798241b9fb8be399847f1,
  0x497479e63ecabb63c4ff65896ebd7d2d28fdcc780ae09a99c08aed0e880a2e65,
  0x3585d392bf2ea25e9f905ca41ba399cf2762df9173e234cdddfe0be17f913db4,
  0x65549b084ef068e72c93909cbbe847675448978869f15969755a091182db1439,
  0x3a9ea9b96fa7d6a13902e6c629ab8399f455c5751f3854208ed3df474db36da2,
  0x3c7d3c9f4bd2d83a343afcd532b77f8028792d3d9ac38cf680376d74c3e2b042,
  0x639294237e06e42064caa887b1fa0786434914e2424e394852872603118fc999,
  0x2cd1a66a6fd53f805ca473304f62a73c3ef9e7cf9739ca33c860b492d5e69717,
  0x1bd3bb3e936f2c49a48cbdf07f77f8ba3289e4460e3f46e6e31108041e00a905,
  0x2c0c0d2c93cb012b85f866e49571d2412e646ba070ffbc6a497df8d4f011ef50,
  0x49acd6afffbfa0df9a1e8bbc2d5567d06e2ceb9c5450e29bd775780b1d303ec6,
  0x532544d898841a7b029c326e9b9242b831b84314ed49da376a1dec66996627a0]

def cA234 : List Nat := [
  0x6b6aee7276d4807c43893b905691c92a76e5ae5f503efbcad48d1088adf4dbc0,
  0x2f1257fa829003b137676048c3a3ab5b58a5455c5710625eac496dde4528be26,
  0x479df1a496c80e4bf506e3764ef15f789f78b5cb1b9f6a33d6a6704afe6bb9c0,
  0x38d6385b72b3e6991dc7ca181163910ac3919c7d1c75c0aa00f1bb3de5f7c8cb,
  0x2f7eb3a9e80696f33a3b9476fec4b41524bd4009ebbc99f4030660caccc9fa43,
  0x3ee27fbf5116f60cca4aab39a7bd6e542ac35932cf222e966282b6eec08e4f08,
  0xfbcb21b2614fda988c60c2900eb0f257700472a47b0c140e01a23422b59fe4,
  0x28c9838a4ede82bb54d64fb71ed885f7e92ec7d67dc7c2325eeac0e863116765,
  0x24f9eb3253c3893f7c75f40a51beb11085f114782cde9d3a45d5785409ae64bb,
  0x1139a564fc983c2ab02b2a3a36cb7e9d3961817983255db64227b9f2aadfbe20,
  0xfc9a23150d33adee47f8b13c7811cdcabeaf28bb5a6b18b6c1b0ec4fda70f55,
  0x1a328e0605f90b28cadafc30ad0c2289c97060a7701e536bdd89bab4b3d84a8b,
  0x1ce56cf04adbd8979f6ae95f3b859bbebeef5acca5ad3d1c4fc967d311812b7a,
  0x58de348a7d8b2f0d560eea03e568aa48643c03d23b41343d9c977840b50f2e20,
  0x1f153ef747725d50c3ede55b9cceacb8e77a961bdabdc981d489b8c6137b7a58,
  0x3bc44dd90b1ab66d17b85d3ce11bb0033c01df2a11d5b4eccd5246a593bb5b1e]

def cA235 : List Nat := [
  0x3cc91f0cac439c8201689ceac2a307d8f16c4bbc9533ee7bd635b58537eaadcc,
  0x29dd26de4f643f00bdff4210435688b0d0b332ae1132419291c80a27e381f4d0,
  0xca718576098bc35a7bc52ec5f5879eb09d589447ff9f4aa8763545a6d1ce83b,
  0x9bf420ceeb7dd0bdc59423da3f555bd6f94039b0f00db4ff2aa1e439527b822,
  0x39e0df7d9569132a98ed06a8703d7fb925334fc0ebdba997c01967bbfd9bce1b,
  0x62d940a624817ee54f4ef98993494b52e8ecbb89d3531a23fb24c121f4046b3c,
  0x2e71a842748f139c30eb85936c3a7da75ca89a38f8d8de4d486c8200654d659,
  0x18e9118fd622c5550f9a9ae1eabd3de646dd44e91bbcc71bb741f10a78a2f7fc,
  0x20d646a673ce7119b0dbd1590d8f4558b1b161913dee94d0c6c6b1abbc19b423,
  0x85b3285709084f40b06b37e26dbf830a74279ee432d13b5511f591ae76e8a8,
  0x655dae6a22bffe24c948f3663bb18ec74b37e28479314850494822133ca6792b,
  0x471004cd90e3bfbfb9f784aef7ca1a85020c3a6948e53e5a2140afb9c0fb9d9b,
  0x28734d13471f6d30b27855dc55f64611ce9ec93a9b902a72f4fbfefbcb204199,
  0x49eef3fe4ea25721152d1db25fa8f7775ff09b143b0286439c97d157e75667c0,
  0x6d2426d317ac81600e25e0aeec717a7f02e321dd77cf9f00b49e00499516ad32,
  0x2c6bd4454ac32e2c508d7b061ad3724de57a7e944ca5e2530fc2b9a1bd34b884]

def cA236 : List Nat := [
  0x49ad154f876ec536bb9c1dcbdf47c79facdf1791f90126d375b72d73490e9745,
  0x29ac2beae8acfe620d734a39153cc85ed5dd25327864521eb13373b063efcf33,
  0x646b2f93ddc31cd49c44638cbe66813b5d49555091b321b9079812b3420642b9,
  0x60997f230747da7df48320b074d1056a8128a33bf03287f925d3ea27375f783,
  0x6cb776391255f3b3f5f2c5a51279b58d80da343f8bb49e6439bf28202e9cc072,
  0x1d33822291c9d92f49eb54e103515292d5fd7d6ffc36748bc34cc3cf04e03a27,
  0x67853c10e7478095d2ead600a9e7d36f9c8097339a5215ffbed72294aea0e00d,
  0x112acea45d7b301c9805fb15fd78eeb5d0fe7079ad3fe379c2b5408adc2f663d,
  0x6e4fe3d2f58d3b104d090d4f1346254a25e7f617f0a307b70782d0efae0166b1,
  0x2921bf221d975c8d865109baa0c0aa55ad3b901a137e900128dcc3d69a2809b1,
  0x1367497df97ed379ff6fd49221c40d503e612328ae58fbe23f120d9bd0130c1e,
  0x4e4c9982b3a163744340a3f37a534cc432b5389e40d340762bd64270773619db,
  0x57ec3f92ce12815d25f04ca6e56fa1c26c18ee96d818ae468bb2f69addecf49f,
  0x1e582c9995ff086e6a8acbad57ceb82a11a9af99b52568145016354a3c9039f7,
  0x11ef4c66e00869d9a71de395c18319490eefbe2480f2011ea83bc797022fc182,
  0x6e397d3eb83a9da208ea0fe700b0ee0c8327a309213795bb0504dbdf4dfc949a]

def cA237 : List Nat := [
  0x3e9403f392eb8e8103cdaddfd5be19d0c5af5d6017a30bdd3162fef4d6e4b49d,
  0x10615f35f63f9fb28a8ea3c8ecaf61ce2cdb616de3eae132dcc8daf09edcc0f8,
  0x5e7c9142a0996034b8db9bd624b4258b81d5fe527976931b165ef5d086726ace,
  0x3ccee997105012e3ea8440440d8a8849a3d932dd2c3df868c4c3748eccd630f3,
  0x2b9224f2cc5a1e5acb0f4645d2a6d336f185a85c7ba52527a7e57b9cc66efd0e,
  0x3ea1cfcc26759bc4d109f9139858ef2084e658e7c8fb2c4a98dff4969b618704,
  0x1d0f3a47ccdd3e1834f938bde22e7ad6ee5cf5a2e328a9a3fabed28389a8d206,
  0x165b427f0b7c73d4641c16fd00a86d77a0698b404a33dc90666ef77021f3b07,
  0x66196214584d00e6716cf9c1d128e30c838d0be70a06e464abce0fd9b30724a9,
  0x3e6d4527792e19c41df24a4ce0ba59181494b49ab772d32be49d8952aaab71b3,
  0x4b4b235daac874f2172f21dd19eb5a73e2bfed30f394e11e62429021acbc85dd,
  0x32ad706e54afedaaa4138f8dff567121c29e96be4084da46c2980144237341c,
  0xac2afc36df5847260814fe1ce7467060ef7080d91d7aa91944ad53662f4e7ba,
  0x676fa18e40cc0b826fa15b3d78ceced8d56421f933840bcfe8f3a420d585d423,
  0x124c48913906e1c276839edd037f95a215f80de603234f7610e0ccf3626c802d,
  0x33fff688e958dd8207574fd77cbff289bcebde4317a0661dca79e329b949d560]

def cA238 : List Nat := [
  0x732b9fb8761c731bd5087a8c3a54e6fc3b71baf99319261172d571b9317cf287,
  0x36a493abd33c9f2ca0b50b817147c2ee7de9d9e2ad2efc2c56159db675e9a046,
  0x70fec8146c144d8822edc92264d857ecbeedef773c5860aca626f77e7f71cba4,
  0x4bf07f5c9ff067f25331464d8b8a4c5bcb7b5a42eb675366bdc74dc974c72361,
  0x3f6037e23ed4b15f4bf104205512a21e04e6e40145d0d19caaead4c4187f540a,
  0x3077105849c6e81317cde484aaa151ffdc723e61f922e024ef2cd5f74e753dbd,
  0x5b171252394776f897e81e85f198b182e29402505c949b0f0425283bb56f8593,
  0x1b7ec44e08580215364565b0c347d2688b9eab9e1958ddca0b56502e485e3865,
  0x2b0e14a119b4ea06a828c8f825a16df95ea4b6bf573f416f07a015836d9695cc,
  0x6a967fbbb1cf62a0c669716bb8c26dc98fa933ed87c8c9b20c214687b9a1fa80,
  0x2717e34aaa32f6878c8c6623c1cb546f6d9581bb36ddb260bb688fd395353541,
  0xcfac8bb7eb0dc65ba941d9d88288910278c10ca49cc6d8ca711e4ca30ece22a,
  0x177dc99c31a8ecd726d43833e6b46e729a2f19055abf86ffecfe7ecc661d1b23,
  0x9c3760681869f55045f84c0e94669d2ab1d97021b4e3b0d9f5f38dc58a75e34,
  0x18602368065c3192b1048965f99efdcc27c408aa5864f77e6143ba292931bd3e,
  0xc17ac44d7eefc924833f68081d735ef27ad7d7617c27b9becb8bf2bc4230b4a]

def cA239 : List Nat := [
  0x4e7674d4d2599e7884aa38fd29ed1e3026001c2e542ad7c05f2c7ea55b9b8cd7,
  0x213ab758c08e957e7873746bdfb9203882e824476d6a7fab95c37b84408744ce,
  0x423769a1f3cf85662a8a6b7fafdaa5855c9dfd132fcc8e7956a0e01c2c8ed068,
  0x5dc3be672d671e1fb2b8c20e32934d757f7f22a0f92e662b2575961bdd72b145,
  0x3762b718f828865520f477d5beecefcf7db21877aa541a462d37de0d43b025ac,
  0x739607318272fb86e131e12862d9b423f2eb33232b3277fb39c02e77378b3ab7,
  0x52a26eaf21d14333e3d571ad938236b6d89bcbc1d95b960d739c8e2d1d7d107e,
  0x6c49df077488b204dbe96e3dfba83cad8ebc0100038a2ea76524320ded78ad50,
  0x2505dddc29a6731b73ef7803c86322cfc7cdb0a031f0483654cb138ad7c31a32,
  0xea5b045b9f6d3f4391ae2479ab7036d469abc118ff3c1c1330cb1fa8ca0789,
  0x6abfdf1f83d32aaa7b9a75c0a85255d94d274d4c835e9b74d1d804be76ad398e,
  0x22a9d2665c84dfb0ddba6d6ea9a4b033d7f3ca622f1e75851f64475c00c2b7a5,
  0x54e3d1524fb4be5eebfda3fafa1ed49f113d4b9a09faf9ee7cf81dea7f7a33c9,
  0x5c8e4cf57e43a7cac2445ca821b9143763c3ec11d5e5252fce97b1fdec3ca03c,
  0x4a6600782b50f929ac88a21509ef8a7797c1cb399adc3c10299b16ddf7a3b860,
  0x112f357e6eb745a2a05b193a3755a6c7660c22ac2c88c846a689c3c6054f1e9a]

def cA240 : List Nat := [
  0x617441df5177a3b2ab54fc1ba4b7d1b2b49d5ff3fc5e4fef331807b73a7823f8,
  0x4b1a4c273f25813caa1bc448ae01cca1ca9de8021a1fda963a0ee9126b571ee5,
  0xb1029f41fb468698b055eeda5153924579ebb8becb4bce5cdac5acab1f2b7d,
  0xc0d32379c7ad670a60e95a22a1e6e9345a3c47f03aa454a5f0986748d901cce,
  0x6a1f891bf3b5e676f75ad072d718f33bbc02d6eddc999fabc7e86535135205c5,
  0x441c22fc345340d8667c7ef3eefe9074e6e4d5479b7d10f0fc60b671fcd5818f,
  0x4b4a158994d63fbc04c8bf6fb09c4b498c97d620792b304eca28d88057435f7f,
  0x27a1ac76fe3937cc50cca5fb3c372e077a7dbbecdba73de3a3f976ac27df6c73,
  0x3cda4bfdf688f7b5ba2d1c272c6fd1ae91179a275c58e6f0d41fa6ce68c22eb9,
  0x45263b87310457e61187fe465580b6718ed738838546ff3643dd02865e92cd87,
  0x1a3368723b6a44016d507fb1f5649036394f7a017482d61c27ac8144d5eaf4bb,
  0x16f8fc3962689a5d847be7e389f55b89c488f81e3647da7ddc19b678f4bf6e93,
  0x4aa96a62f3cced79080ab89fa8c7c49188b481a65ad15cc8691f707988502763,
  0x3bee68444999ddbd47f3b5d3fe36cd5a0c22239828a03d9dad3dc5a578f08cae,
  0x68cd8b5e0b725e17305b5e554313ba36754f7a93d186185cd76c5a0c11a7eca0,
  0xb18a94b5b0b00976f6c24c9cc5e3338958dffb823516b4ed917e151bb2231b4]

def cA241 : List Nat := [
  0x8a740e2d1ae049148b1dd296bb47d7996be1454c975da25884b46b6cc496ba7,
  0x16f9ca2ba62dd1963c4661eabe87bf735fb1bddfb646ce7366f01744b8422f62,
  0x5e3a1c559e20113804d3b184ca3f1fee427979505d934cd46f4f3cf0e82d879,
  0x13ce3f4e23f2eb0880c378a19515a168cab0376b024fa06f2a15f962b67648fc,
  0x16a154bb3d2190b8907d3541eeef5dabecc7287b1367e1d5b224a18106af87bf,
  0x51b402640c006a76f9bf37c59c45a1a502705b046d0f8f4c573be2ac55ff6388,
  0x6828fae822a9ea1bccc7ff82622f661b51a7edd4de893b75d83229d1a4dd06fb,
  0x61962f99cd468567188a29c238cbb17c136b7b9b14e9a9d89278ddb394c87d95,
  0x32fadf0dfc5f186829c5929960eff0e8b248e8498c7139519b0be0127340f88c,
  0x331dc12fcfacfa64b46ae385f91060790b6d6e433704aa073e6041dd73517500,
  0x6cbc911f99d1ef1fd65984b99ac2aa81aa9dedcff802211e6991c116acba00ae,
  0x64b463edc1a92ef04fcf6b782fc24c88365839030d9bd83c985bf0e820c7a9b,
  0xfab13e23ec6a21341a6041db819183a478a3ee150984092eda6676b8eadb1d0,
  0x3fbcd11c615a06c26dbc6a3e6887a15b14a1983d87045a8b422fd387ff6a9130,
  0x1135ebc9129a0166736290b6c9b2c953434361119cedb9f1364fb4a836673194,
  0x6e82872ad2ded28bafd3e5326c06799e3ed3ac50517ce425da106aeaaf062de0]

def cA242 : List Nat := [
  0x2a8179db9c9477af9bafe78d50ce4f99a737d68456c68d0d163ed9f9fe332ec1,
  0x6a1b40aed5929971677ed3be7082e888d5db328c1121508e803bf0460606933a,
  0x452e6d8b6eff950e65c562cf5e9e02abbcf9ad1221a1f2722a21fd9fa84c4e4e,
  0x552b1b96497def3e071e687482ac192d89068cd72cf16e493a46b225febe7425,
  0x3c1263a21db87018598df6703ec65186ecef1e62f038f34d8b27302522ed6a16,
  0x1232424f359e4f6ed1c5ec54f42d39e1f7989b59632cc28e353291f6a2d69386,
  0x1fad1cd72d109b573a4b6e9624a8f5ea3e87fe48c45cfb3806541d4d299a6036,
  0x4b04741c52559342d274123c09d71a52edc88b753cb9ee4ded0d87e371425a2,
  0x17f120d8e81314d5e450f28fe6bc75778fae61ceb5fc03403b3babe43b2d11fc,
  0x588d05f69245afcb77af535bbe2625305806e82e34d016e117dcc2f3a4912342,
  0x18b73f3b7b77614fe26de9ae5dc7175a8f5b602a84e405cf28f413b4d505c228,
  0x2480ef06bc1ae3b1880e61c28f8367642fd71035c4f4202a23ecae21932d7151,
  0x195066fe5bb86780ca44bc6720cedd56ce0b274a269a24ab38db4ad3d210a9b0,
  0x1de136a955763a902ce04cbaa5a6cdeffcdd72d8fb4e7df9f10a9af1f8b807c3,
  0x3d03399d670d64992e94dfcfaf165a66999d67a473b2b9ad54238eb5f841a8f,
  0x3a15fcd003be5059a03344a68a02d2845f077fbcd24dd5022d858802a441fe04]

def cA243 : List Nat := [
  0x4a69958cf0b60f1d80ce34f7bf365ae2609c63f7e441cc93c098d66ac7001723,
  0x4590e5b6c48610851b5ce0a898ab01272db9b70942906f91e17a2073617e02a8,
  0xe6392b83ea700af6ed18167c814f5db1c8eeef591c1fd21f7a5bc4f34be17fb,
  0x4e7ba4d705d6c8285d6a3f90235a28c503e0adc870ed9b74ac260534ac62c9f0,
  0x73d89a90942c6485fcba13b3386313f72f43ad10bb938c50c8fa93021383fe3d,
  0x5dad202d14c9d583c665e3e879f626e81c37590ad95f39760ec0df30a3c861cb,
  0x1eb35303846a60bb56cf21458b2cbfdf86db0c2618444d13b1ebd418ee26ad90,
  0x2eb272c108a4b477092d81042548a2befbd211a52c999950c5bb187c6da51307,
  0x25b7b99e21c197d5b685ea52806cda3a3e13531cba1e9e3d7e0072ffa2e3d594,
  0x105c63c17c7407f7743e7f19effdd94a050f46c6936e544819ea21f93b1fed30,
  0x3c5db8ecf8bc0f92816dc086601b02e101ea5f6f1e2d6d1b86183b82da226d2d,
  0x6e39525a34190c79fd034006bee5049e4787bd0a7e7b9365cf9df0fe1aa77e61,
  0x33d79108f9e6511f13127bca17e5b57a79f2cc1c8173c63089ff89b6725c3f8b,
  0x6399afbe219efdc76108b8899bcf92b7da5b96c1ea6a868b2b13060712e4e107,
  0x150a3eec8ebccf715c63da6826530b8f1fa1c0fd198be29ffcff4ef6ae8a67c5,
  0x53962e345483c52363026d012bb0244aa6f3cdffee7ce65cd4f10173cb00b325]

def cA244 : List Nat := [
  0x327274b5f1609e8343f5b8ad47448404e891aa30dd20e91a11326be0fd5704ba,
  0x5cacb31d996f73e35fdd92072c056020da16967467ff35dfe5d9feb2396dee78,
  0x464ab4b8186f736c0597289a4224e79cf33fa2f26a7f98d3fab06f8e4ab9777a,
  0xcdd0dbd831ed0f2f66cdd6488554937163cad0119bb5d4b9a26bead8f36405b,
  0x54430d646a02bfb0b0aa7872e69fbfa0dcc21b276da41bf46374c5d6b789341a,
  0x157171ea7f138a4834d9e6e71a6a481d7c76c47359a9f94975858c20a132f1e,
  0x682f4a26c145998f9c411ecec19194e6c4aa209cc6580be1ddfedfda2144da82,
  0x6e5bdbf95e9aa3a132aca640dd2841b6a1bdd5e9a1049a5451f0387556c4650e,
  0x5699a8383fd8050d7ca0f62ec59ad75323693b018795655c690085bfd97064e7,
  0x4c7132d8b2916497c4e4736cee30a22fb5d81740763299402efa3bd19176eaa,
  0x2d2a4177c052fe76e1cad0f74be8dba3bbb928ca4e769cdbc252b7a7b09bbcd7,
  0x1156ca9f2023c59832d4989d3d0733f44c0730f226469c5b1473206600698fa2,
  0x6b7cd0b38977c71462d99b5c67db69e46471a9bf8212fe85544a052101c8aeb2,
  0x46e25aee9fa29ce28dbed903004ba57453d8f8127d78982066ed6bec8818a5d9,
  0x14800320d15f902de21cc4aebcaeea90248a6324d8307456b31f8f3b76942f37,
  0x109703df142d2ad60f8f1038570b4a966dabbd0c74ec106b6d2a9c407ba56e13]

def cA245 : List Nat := [
  0x192bc9460198c6dab20c52eb90273b72218e924d2e4e0b7a2396678ca97f387c,
  0x6b3f69f66f5a96fc66055cbda64168dffe6f84bd1fa90ccc5ae84657eb01fba5,
  0x6a3cbfccf82044548a455254420e11153efaf17e45fb4194103c7f2a21ef97d1,
  0xe83b41b99f69da68ca81df679053a39260212e86f5d7b45f53a131a810fd633,
  0x2a13f7532e7d05ed6399f2b1266cb28f2d63036bdbc39eac4b10fb66a73c512a,
  0x5cb8dc8cdb1379fb387977bed7330fcfb66b73a1ee85f5dece5672788b9d68a8,
  0xe477a26981da1071c49fa841fad88d21981af264f68246b64379cde6e3f0bb9,
  0x6fe63018c9cc8536e87eed41605404d9bd517e21e3417a3b3013ad61016d2074,
  0x3b3b8989e2c5d9ef5f0c43beddcf3b12469677022dcb7bce290e7c94ab8bd7b0,
  0x578271f2a2334ba31508dfc74f744a3648e650e6913563d7bfa9f323290d74cc,
  0x44579f661a1c0369288bdd1c23848b73f088256cb8f7f4df39c81919e8faac00,
  0x589d02a8d9e2276256e424e8718f7311d5c04b8f70174073f8eaa46f2a38a574,
  0x50aa314a1ac4327fd19595da530c433264310b6be9578188f59e969f5ee19145,
  0x4f6603fbba535115e91fe7e905aae854db08e33e05befb22cb5a6a7fdf7ba9ad,
  0x548de415d1afdf303613947b2e27319090e1fe1dc2515162f4f129ee294986b9,
  0x1014ffd5b054f792c58307adce99cebcd98b2ac2b6125a4d7ccb58ea0d77eb1c]

def cA246 : List Nat := [
  0x47c4e72ab6dbd1c54796de085376e117bc7a8602463ab2f85752433ab23f8bb8,
  0x3abf85def70c96a7ead3219add65ccb7949b448a74527196e1ec4914ae389b79,
  0x13009f0a7e7907cd7affa3af4355878c31b7bf6fb649625f9f4b66d11400b851,
  0x943f34fd55bec35e271d909790a25299a0c63feac3a2182310753ed6824fb0f,
  0x1afa544741bc002fe5c1b524d389d158f7cfc76278c8c43b4cc728b5fd6aa491,
  0x651fd980ec4c670618b7e041e42f15d34afc1fb5679f0f3fb63dd74304a181c1,
  0x38884d455f7bebb4f0faf335b2388d2d27c5737119412887944e3bc7e0a6ea77,
  0xac0996fddb732bf67b82fec04348e74b129aff4918136590ec5f5605e50ebe9,
  0x673c8ad2717bd0b5d6aa4481b5fa10cacd8bad0ee5e7668cde87b51ec399fe82,
  0x49f3dbdac44c5161936df6c6a25f46fd9d22002982651a1fdb444ef51c9f9eb,
  0x3932bc2bcde613abca891c8024b101e386e83a08f590c81a55c98079efc55317,
  0x19ed27d133a1c2f28657e07141cc9bd0a1e91fc2d0dd57afb26533144af31b34,
  0x6f989cb998a3a63a62de72bfb2c23926088363da35a0b2256470f3404b67d3db,
  0x29e55be74bb06f1d5e5144377a3d460e0cc1b1a684b5d51863cfe33ec5f17aea,
  0x601af2aebf02b07026cb7cfc559b5d6153688db42f64d8bc85d5008a6d5742d,
  0x2c11f1e2540b7a200c8d8736037d119cd6283fffe65b5ce33239e25dde96cefa]

def cA247 : List Nat := [
  0x3dc89051bf9db882e5330b754a573d33ab782a09f951597b895e95613916a2f8,
  0x4f089f2207a0509c43ba80ce3e671215ab37485002df42562fefb310a71ee0b1,
  0x841be141e134cc38153979a2ff30a5c849de04c3d7e52bc6ccffe30dd2a9529,
  0x5d3184e0baaf37a9f18723a244b04139f9eeb703164fa03b8a2d3878aec66a2e,
  0x1787d06dc1ed203cee4abbe91a994fc6f65e94788cfe6bf8fad6e8f63bcf9b7a,
  0x23fb2ee8a0e65094804160aa2034beb32c6e126527fbcba08900ec1465ee4496,
  0x29748f6b7af3c8420c45d0262d364ccc1025b460e1dece7dd12a6b1071c43089,
  0xd24e4e4c766e35f57a06acb0f0adf23608ef9342a5a7327deb8c9501e572274,
  0x366f058dc2e343a74eb0d066787e7747770ffe65bcb62032740a0d03eb31160d,
  0x5ecb32b6e23d60fd74a5a66f2d3f5a3366910fc1bdcd5e37a0ed7cd64f8549ac,
  0x161a8494c8db72be8f640579379433fc2f83f522ee78fae1fd2ae539dd675fd1,
  0x13a3d5036094c4994b607505d74f3bd325aa75d064b03b638b1da36ca3de993d,
  0xd5f249f8a9920d0fa0423ba8d55f6ac4c14cab7371d2c1203db0b1b43224682,
  0x4461f196ed49bf868d38a8cc2a4be55278288620351a816eb4927427717510b5,
  0x13b0931ec27ccbfa8963557bdd52003101c1b338bcf7b52c428407a2d7e875b0,
  0x6541570550dd121a0d255ede71f998de5635a06b5a8326e9f861e76f9954a923]

def cA248 : List Nat := [
  0x17e2f2282aeda3c3b345bb9d0a6dcafac8932073efdb57b941619698360d51ee,
  0x4993baf90186c39bbf17a9d239844e16d6a459ee6ad0b8ddfb036708a9db720b,
  0x53f5ea918cea539b68cfd26fef89dd8f80e033dcbea1cc317b17f3ee5478ef14,
  0xf3f342c25274f18bab3408711a318a0258537240fc17bd84e5d0b0f0045dd19,
  0x5ec4e5cf0d643bf83df82b0eb9af39a3417d4e7f930ddabaa3078994c36115b5,
  0x4b4ef3c8eb4a56431997dec3dda43fc7a049cd186c4da3b3ab45b1b9cc8fa6c0,
  0x59ae7cd33588fe35ee5254b8fac480de9d09c89c4a26ef592d1e8a9bc5d0ac6b,
  0x1b3e4b18cfed7efed3114446aa9f396fc6140daa5d1c6645a2d235d31e026632,
  0x66f7a01292c7b24466e6c75e3d285850c6d9f4d4d6d5628676f1557b4bd467be,
  0x430478f5552c3b3ebc83b89ece6e69ba2e933439e8b2c98148fbaa01fc9f7823,
  0x241abba59c63a2c12f206367b44284092ecdc6d132cce98a069f0f49d90eafd5,
  0x2d07e6126a6b7a2ff1f4c42c2e8fbb7c8f82fe5fe61bcb9ca9c57e412ef12259,
  0x486d61b0c4686a55fd5ed2d12a9fa5fe3d39e42f205dc7774062fa966fb47b4e,
  0x5a4fad4107d0af893e12a73599e88b3144ad8de368076bdc65baeba46e3ffa6e,
  0x2cc5a850b9f79db8b6c480391def15dc8b0c2406fdba57322e768686dcbebe73,
  0x1b816e7ba7df7860c97c6feef9180e7faca615e9c06a290c0fb1c943f51ded5a]

def cA249 : List Nat := [
  0x3c5b49fff79b5671104a2daa602540f38544c8999f9d4eaa18afdde63f7cc3c5,
  0x5eac134ca33a6f144f19e37096a31adeb19f14c0c6f791009cbbb9b45ee0c94,
  0x4b7d1a602e2eb4680718eb87440434c87807c31e4bd29a70af3184efd470e96d,
  0x368b5cb555615a6ccc190973ca427e1b61e3815721075fa89f8520f9beece78c,
  0x4d0f5b61758a5ab57d5da0bab348eed923c1c6e13c48401f20b1ff950254f4de,
  0x5bd9ed7b446b55b54fc67e116493c7358ea387771a30c99523c654df2edcfc28,
  0x591ad6ce26eacfbbf85a27474a09879f690ed57d724f1636d08e4ad557221e29,
  0x97c3bb6e5d912e290ae7cf4a6143d1a876429e7cca058928eebe504f1d03bb4,
  0x494d26063e15889c3ea4bc0b09e51516b904d03e50b103a606e1602c15a86c20,
  0x37daa0258d05e1155f4496e870f9221769f8bdc789579e3fa613f7ae7a58d5a5,
  0x49d2f0a918b4db4d878774989dacbb2a4898975ca603714f8b51c5eb6f4a7250,
  0x6f36347c72c9f91cf33c993704cdf3857973df18642248871cf53632d6157301,
  0x2125887a981c140fbfebe805d136e34cbd2afad4f6623ccdb5a39a9a69f91ebd,
  0x54fd08bee82d6d7ff5fb907648193f4af082aecdd0187648ec8d2c05f5b735b7,
  0x449e10c98fbeb7f10118d47587b0960b8f81d6d256092dc5ba0b5215ccc0df9c,
  0x3492c3d468d7722126f14a970c658e5fd2a514ef9b883c5f9a2edada9cf16220]

def cA250 : List Nat := [
  0x70d07ae52737139e4f0c0e9f7780df7c0588f4df1b8b4caaa724eb4abcbc301a,
  0x527689ce13d1d90ad5544392ad3efc171908b999f45e17af4e5e3c70b09012a,
  0x45ba0d16c64c7aacf12a1297c78aa367e46ffda9266160ab299f7a07fb3a7c09,
  0x60baf6312ee48e8baa87d6e7d2112ce96e0f89bee0d003f67c0cfa07dad7bba0,
  0x4989f34ca8fa52322ea30b0f0edd6db4a0ff20e42641d4bb06bca78170b08426,
  0x4c3c201d662016f2c74c5179b890d814ab613815dc862d0ce6d1f0beb2c2e2ae,
  0x721e460b3654d81a12f1f07c59d6f319da85b43df28c10ed80b2abfd230c02c4,
  0x646746d8d6e88d361c537b4d282f2fb3855fd8d0a5b9aec22c94f6742cec17a8,
  0x22f2143d70d175a39b09d950148c7d21029d85246ab67820e8a491827a07dbba,
  0x356152be77ff0489154d34879ef3e3c1c01b4cba78d219af3809f709c46625a3,
  0x40bf97c5c99717cc0dff02d4a4933b11ebcbfb32f414940b34b3e4531cf1c7e4,
  0x491728dc9fc592ab55ed3e7b3b4c9a01e1538223a8ff901c66cda326dfa77f9,
  0x11ce8b32687c7ff5a28bf80adcccac6e2dc190148114b80e7eee4ada6f63b021,
  0x4dae2f35ab20eed065d64947dbe33759f633e4416309d404e7164c08edff730a,
  0x5f691476d2ec6b4e2dee98f9e1e3300edfebea194ae395d18911d0480334c8fa,
  0x58a827ed2ff868727906d05d056424ce7b65378df318da686a96caf30ecaac9b]

def cA251 : List Nat := [
  0x76b010b34007a1b1f6ae97cd4432cfb1d9a2c5b502dddac978efe8ee01b5049,
  0x8e8c7b5439300956ca95dc3a7cb56a21169cd0caafd660a929311795f67a786,
  0x3b3a172288abcc2ef98e325afb82b5a20fa58e6289a3b4900627e75de77bfcf5,
  0x678d7de241c675d12b9db9457bce8ea09e68a1bfaafade38ac67d09ac98f0027,
  0x4baa84c8eaaa6e8ece62b0461f7b75d9d03f9008a082755d043b850c832eabfa,
  0x11ff85c1ec97ebdf16b5d0544c7f03e7bb1a97b7f55d8191e14da06038eb2b48,
  0x1830dcb99a4bae4674cedb96473c90268a441669e7ca8c341c32fc38de3d30ad,
  0x574425d696507fe0b848efede08e9d19570700e2f1b0d17f0f510688dbe03887,
  0xa5a4bd9376fe30f20b463d894f8db588d39ccf6d8a49534c5304caf0d30fd5f,
  0x23439c8053f5a94026e120f3b2250e77c5afacba5a703fa5b79b35f7718575c8,
  0x299a09258b57f2a357f5de8643b6673b027ee529ffb07dcdaddc18f906f2f959,
  0x12e1e0376d882f5cd79ad39cee1dc18bfb42488caa04b310d0e242ccbfc2bd83,
  0x67fb63881578fbb9278a4f3e0c77727335ed2e36afaebb3c4a51e4c4998c2367,
  0x1c0bd04201873b1e0eaa7c6d574fdcea5f867b03e3475fdacdad333cff40b83a,
  0x71dc5b2837a82d21a5a0dcb27f81986be6f894fe17c545dbf24ee164624c009c,
  0x1f7e7b4208a44fc52c1e574565a529f9dc45945c9a0e91dea71bbc873f08ea72]

def cA252 : List Nat := [
  0x2a0b166edf27b3db52a8061fb1f007cb5e91cf7b109add84aaaf44e0ea69932b,
  0xcf36886e7178a62869efe22d6a9559541101f6ae67e575581337c9725b7e894,
  0x440533b0a4ed18075c012a3d63c26e2649cd2f23d70c43626d492777db536d3f,
  0x44196289770537ccc42e0cfc4eaa4a02831eb6734bab41a53a8c3a169c8853d9,
  0x4df19219b94c2643669c34b46fa2fc88cc68c4242dcc680b8a0f9a5a251c1f39,
  0x71c8e01c634a851d204ce7e24baac85dbb593ede1d7a213567da42d5962ba235,
  0x6183fd503b209fd8fe65a0d6c4e9ac3c8f4c6548ba1bcde11f5b70c0d22d4a5b,
  0x32132d02c67facbf4835e151960d30094bdc3d129eedb90e2d4d1a6b3e9de8c4,
  0x1d0a5ec2ccf364ebed9f48b480d3e17a37791a173c668fe33436838f66e1f0ce,
  0x2b5d9caea10a7cbb7072733b721f3a275c04d3fd9a01cb4b187ef212c8fabd60,
  0x545dc7050f6889e22b8480b6a9b811e4ec0c09aee4ac11afa12eaa396a3fac91,
  0x3a9c7e3e9f70cc6753931b942a3f7995f8a2b8f8ca8008927c27bf144efce805,
  0x251c435c7b0a0acfc2a04a361db83101dd09a1693526b4ccfceb03824640313a,
  0x734a51a6cc90a229580065ff41a889e90c83c0c77895a545953ab0f405d6269d,
  0x26f0249a821d90a07626550febfcdd8ee04adffb8b75b7f6b5f093e6e12e15da,
  0x28fe73be3a440bc0dc99123c0cdb1529b7fe46e778539acd4bf560dc92cfdd20]

def cA253 : List Nat := [
  0x576560860a9f259ee29f6a5fdfb484f865a629ae6dca2c771e8ee3b2c9481364,
  0x46ec78051b18aa60d60ea95a613689d36fa0ae1b753915e8146051e10dbaf01b,
  0xf7a09c5c29b37fe1b8161deb6b745a784096f287c5c05ceb190717a82535b72,
  0x8658cbbbaf49f2f1a11d2959e6f3c0ebf963fbca1464e7fd7f4aea444692404,
  0x4509e7f20a3cc7766ac02b1d864d6492200707b7a587027c24e601de45bdf47a,
  0x45532cab5a19b54207fa047b791b72a0e3e940897b34e272db61db38060c72f,
  0x3c2adad1a3b5680499518a3b0d54e044d9b6ccba9909ddc90158d9e0010bcf63,
  0x61cb875ce04350ef11ee11e54ed0a089037005b42c5dff928986c92452fb22e,
  0x69b78ff53cd75cc96771ea1902f668351bd73425048777eb7f3f78df13e64f,
  0x5cd12c74ebc1f8fbef2ccba24e46ea4ed47a4399efc0203446b70926682657a0,
  0x2121d2f59c4c931d56c7eae619cc2ea50797cb0d660e79a0881b294298c96336,
  0x26226874e7611ca790d539fac847dcab9d24c8ba7c1bb435374cec40896d401a,
  0x563b257a09ee40cc02ce34fb00b3a3c2ae0e7bfe67425603cdfa70259fb20ded,
  0x2cfc1ec3b90f122168cd9a0060eb2162dde46f9ade9fc89bf74e1995963f6b29,
  0x4cf4afdcf758f2addcefa095dc5a5820627ee76d2e2e02881027e3c4841ca098,
  0x6054b1f417ba08cded0260bdbdc59fd39434efb29eb62f59af6628062dc2a1e9]

def cA254 : List Nat := [
  0x11a43f4bf57ac4293ac67bcb480434486a4f5643d6f575ac7301d3e46e087fd7,
  0x5748632a61764b5e97916b1b2b67395736aabd29266ae6554f352b9d6d8d8e37,
  0x22227a3d1362cb8675cffbbb3110d6cea21c65a2104117915500dd6cfd11396c,
  0x39cf5a4ec88e4597b1e443a3b7b8d2698b3df6549299182c6dfe7498b87717b5,
  0x8fef3aa07c6abbcc34e9632e851e43e29e97fb83b51c23d43675a23ac595b0,
  0x24e89801add90a07e26672bacb891f36127ab9e4e9580c68397f186736ae0b9d,
  0x66b598757634ee3b3043182c15856a510109dc549c26bddf0a98ba2f9b8e30ac,
  0x215ed7ff3644998302b70a02094a9654f2d437bf4095faecbdd4644f24bd10ce,
  0x1201cacd5a698058d81dd7d558bc24e504ce86fec111e0e3d2fc6570ab2a95c0,
  0x1ca4003210d547a55e247471b9f98f63cd846af77ea4b6ccad6d0d89584bf0be,
  0x2e03a5d7ceb6b51a938d6ad51b13a1dc5e97be57ef8bc45e38adf74a751a1ccb,
  0x6557f428363a63e26269cfbb20a61554b2bd9688b2f03c3ea60d8cdb9186b808,
  0x1f36b63d469f75d9a256320e983b69ff462b4e14f23c40170045af67a3ce5be2,
  0x59f405e0ba6c330f682419bf2970ad283f6aa748f0f2241acea8f6007f142873,
  0x40fbe99034b24c78949a9e32c9bfa12a9074d5e30216bbbb39a966676f13049f,
  0x4fc96c32560c5a16c97fe4bfc007f30711137b8bff020c74e7d9adfae2de3350]

def cA255 : List Nat := [
  0x677db15fb13a47d52d080bdb0871a937ea7accf5cb19e123aa5a22ca27804359,
  0x1ad8a70103e6cc5dab4aeab4ed49e96b2810daf7120ac34ccef77033cc50d55e,
  0x33f1b91e9bab155f9dad2465bb12f1208b9b8f389438be8fa29db6154471e689,
  0x52897985991f4e831e1d9bbf1726524276b2ae11d1827275fb143d5fe83c5490,
  0x5959567f52e36c718b66c9175b79e395b6f9c9993211cb0dd7b4264c9ec4a274,
  0x53fb2c8f16a6905d8d14f5fe58f0b632a4ac558f9c8590aee1dd0f5b3ebad6a1,
  0xb507c79d608b759303e75b5b1b63bd40d772fce221f744f434c1bc0c9f75445,
  0x4011e606cedcbb308d6074e156e0a18221aa3d77c48e69b635e24eb66a2660bb,
  0x6563b752436a42a4893770cb82e36753e20565b2ffeda8855c0bad324c67b503,
  0x5f9d7d4b985fda69f28dcd39199aac3a817357a64a0d665286d7c496774e2de1,
  0x6a79879390c993959484c8cc5343a8560b08921f76daa51732c2cefe608eabb2,
  0x4874bbe985cdc394adf76e45c0e3588702391225f11079311e0bb14eaf365c1c,
  0x449784fb4b5ea6672beaf35cc0598b680c3c4ce5d4065557a9d341277740f70,
  0x245b7a5c98384d1c051baac2cbde4e6ba3d63d77071d69f5947ee85b89b44eae,
  0x460a1def067b5f5595527ba018c57ae0e6360f2752baa218fe7c76ded6eca969,
  0x4638ddeeef3ef217255a5f18af81c7551e830c3c3192367c53a03c6a764fa8ba]

/-- the coefficients, in parts -/
def coeffsA : List (List Nat) := [
  cA0, cA1, cA2, cA3, cA4, cA5, cA6, cA7,
  cA8, cA9, cA10, cA11, cA12, cA13, cA14, cA15,
  cA16, cA17, cA18, cA19, cA20, cA21, cA22, cA23,
  cA24, cA25, cA26, cA27, cA28, cA29, cA30, cA31,
  cA32, cA33, cA34, cA35, cA36, cA37, cA38, cA39,
  cA40, cA41, cA42, cA43, cA44, cA45, cA46, cA47,
  cA48, cA49, cA50, cA51, cA52, cA53, cA54, cA55,
  cA56, cA57, cA58, cA59, cA60, cA61, cA62, cA63,
  cA64, cA65, cA66, cA67, cA68, cA69, cA70, cA71,
  cA72, cA73, cA74, cA75, cA76, cA77, cA78, cA79,
  cA80, cA81, cA82, cA83, cA84, cA85, cA86, cA87,
  cA88, cA89, cA90, cA91, cA92, cA93, cA94, cA95,
  cA96, cA97, cA98, cA99, cA100, cA101, cA102, cA103,
  cA104, cA105, cA106, cA107, cA108, cA109, cA110, cA111,
  cA112, cA113, cA114, cA115, cA116, cA117, cA118, cA119,
  cA120, cA121, cA122, cA123, cA124, cA125, cA126, cA127,
  cA128, cA129, cA130, cA131, cA132, cA133, cA134, cA135,
  cA136, cA137, cA138, cA139, cA140, cA141, cA142, cA143,
  cA144, cA145, cA146, cA147, cA148, cA149, cA150, cA151,
  cA152, cA153, cA154, cA155, cA156, cA157, cA158, cA159,
  cA160, cA161, cA162, cA163, cA164, cA165, cA166, cA167,
  cA168, cA169, cA170, cA171, cA172, cA173, cA174, cA175,
  cA176, cA177, cA178, cA179, cA180, cA181, cA182, cA183,
  cA184, cA185, cA186, cA187, cA188, cA189, cA190, cA191,
  cA192, cA193, cA194, cA195, cA196, cA197, cA198, cA199,
  cA200, cA201, cA202, cA203, cA204, cA205, cA206, cA207,
  cA208, cA209, cA210, cA211, cA212, cA213, cA214, cA215,
  cA216, cA217, cA218, cA219, cA220, cA221, cA222, cA223,
  cA224, cA225, cA226, cA227, cA228, cA229, cA230, cA231,
  cA232, cA233, cA234, cA235, cA236, cA237, cA238, cA239,
  cA240, cA241, cA242, cA243, cA244, cA245, cA246, cA247,
  cA248, cA249, cA250, cA251, cA252, cA253, cA254, cA255]

theorem lengthA : coeffsA.length = 256 := by decide +kernel

theorem partsA : ∀ c ∈ coeffsA, c.length = 16 := by decide +kernel

theorem shapeA : coeffsA.map List.length = Embedded.g1Parts.map List.length := by decide +kernel

theorem smallA : ∀ c ∈ coeffsA.flatten, c < 2 ^ 256 := by decide +kernel

theorem evalFirstA : Packed.evalCells 6 [false] (Packed.packs Packed.width 16 coeffsA) (TestVectors.cellsA.take 64) = true := by
  decide +kernel

theorem evalLastA : Packed.evalCells 6 [true] (Packed.packs Packed.width 16 coeffsA) (TestVectors.cellsA.drop 64) = true := by
  decide +kernel

end Verif.Vectors
