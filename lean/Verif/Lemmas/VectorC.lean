import Verif.Lemmas.VectorCSum0
import Verif.Lemmas.VectorCSum1

set_option linter.unusedSectionVars false
set_option Elab.async false
set_option maxRecDepth 100000
set_option exponentiation.threshold 100000000

/-! The commitment in test_vectors/blob_to_kzg_commitment/kzg-mainnet/blob_to_kzg_commitment_case_valid_blob_c40b9b515df8721b -/
namespace Verif.Vectors
open Bls Msm

def windowsC : List (List Nat × Jc) := [
  ([255, 254, 253, 252, 251, 250, 249, 248], (.pt 0x10a4c9f8aeea194af8208eba3009b93cb0d2eb349503890fe7c06acd5871f2b3362e798c304fc0102f8f7b8aadebe564 0x361be93162779bfb89b19411e0b1bc244d4b49ec7c964a83777bd9a200cc2b09c569dbd2e137a79ed6967f5a5cc42ad 0x17f3963320a9ee53807e646f86c2cf6d355b0916524740331174109d26d383b48ca40938e82674dae701ffc99d4698b5)),
  ([247, 246, 245, 244, 243, 242, 241, 240], (.pt 0x2aff3354d92a0c17c4c193e4f6dec17a71f203b41bf1cc8d3db67e8fd8d8ba8a16ee98c7cfbd34013168463535a1a45 0x14d0b6c7a61672bff6e4d68609e83a1be1ca7ce68f9b8399c246e1b96f866027aa3321b9819420a6a548dce197ae2cb 0x444755a1cd2c8fd1249be59d1257cec127383695034b3d6b6c18e3202bef4316dd591c309fdbb60fb0d39f2613950d4)),
  ([239, 238, 237, 236, 235, 234, 233, 232], (.pt 0x39e91c3039ed73e1a3c5750ba303a2687c6b2c1ad1876a7b8a09517c8d7020a84e7000c4f3349a943ab2facfb6aa35c 0x13466522f28f1b6f5b84e009fef9d5b52c5bd90ec5ecbd2103fb2c065d0c13a1239669f14da439f487bddd9a5f463130 0x75f4d0c706405d55951407fd9cfd2e87ce1a35db2b5653115b0a092d6152c1b042131f451c2e1ab599fd57a6dc848b)),
  ([231, 230, 229, 228, 227, 226, 225, 224], (.pt 0x104d9b29e7dd40346d6f4bda959fbae9cf1327b2fe56c1eee4bbfd2fd53cdd6e63fa3a0e5d2e264b9d055cd70548c8d6 0x5b1cbb95bd796b4805e77f60fdae4da6380699a91b258c1c2ab9f99d65fa5ced43e044c0b2dd22683324dcd7675c142 0x64393e62de4afa31c4cd489c5fa8ef95780d58a4e9776af0d4a4320047468a76bff1e02ffebd84e132cde5b95a99597)),
  ([223, 222, 221, 220, 219, 218, 217, 216], (.pt 0x124e0fb869d437d963b257cbbf05525f1b6c91ec15dc26462c50533c8f503c5469c634e929296997a0efc2e4f9db752a 0x1510a38b9544842b470a0adb059cc4300f6435440c38b21a65bd80eec52656355a665a43242a39bd8e7ca06da47d753d 0x1216484425b63c4897b04034e5404af81b3f55a28548f4345cd40922cb6cbd796bc6f805971600d95f3dfecaec214330)),
  ([215, 214, 213, 212, 211, 210, 209, 208], (.pt 0xfa78fa8104a04050e978120d17513f6b4739b1afd45fd13e843accabe280e53ff91b20b386a6315b76679c1f09913d1 0x7845106f8db70e70608105a5d6097b9b57f4fce7f91e0bf670c1d3809eb7eb7ddd6d41d428cd867f32812e6152baf82 0x18bd4324cfb7d876d1fefd83fc9071a7e27847bdd26123cb6e966db07f2643ac194a6394cd5bd4c01e2c525c579fec28)),
  ([207, 206, 205, 204, 203, 202, 201, 200], (.pt 0x1241ac0b7e83d4b0bd21ee4ef7b95d46c313204cdb1b08b9e9fa2a6d207d7d8e64226949547c00db4a7b92daab8d8fda 0x1355215f1f3015b2bc291d8c74dca2a7c65bca9c1366856e2c2d09ff9592f89b6652e5a329584f5783ddf0f2a7926538 0x18fe997541d05994d5fcc09bdfeee700383d3aa541bbfe83a6270840d4a63bba0a47b5625a132775e34c264981b8ad7f)),
  ([199, 198, 197, 196, 195, 194, 193, 192], (.pt 0x11d98e8bfa923040fcb02818aa045093ecd606ebd3a893cf6e83e99749ea1dce457f9529b57a3fdcba3afe2c7dd4ad6 0x12758c4c1df7a0ffcb0be90140f26784cf03af84e3a641b2b024745dfee30d86818dbac2dbb66b940df9f6b047221f2c 0x1954e7b939a62678df66876071461e560c55a3dc326be8de87c598309e941a9e2e2a49210e518fc68d3dfc9267958d88)),
  ([191, 190, 189, 188, 187, 186, 185, 184], (.pt 0x9ff7c39d84340d72fa206d4cd66466c8eca4908d89867e680477f0a76566b580014669cfadae8ad98624ac1203a25f0 0x41adc350941c83fab823eedcaeaf98ef0fd7d7a662bbd7f358627c44e8af1b3a138d39ce7e455412675465855c5e07c 0xccd16ba0aec0e43cb57eb3540770367f43044570cb8ac3dc367663ad0dd4496d3c8a4ec74ebbdef762ed7dc90142c06)),
  ([183, 182, 181, 180, 179, 178, 177, 176], (.pt 0x10a134532900e75091159d241f3ca4dd24cb3c75a21e49a47e3ea3387b575435e75dcc8d1304e9b6217ead185609d607 0xbee6f6e52ffdbcddfed98adefa53d661c0d76f0882ed8b22854b69c0359a49110d09141d675b5c1ec6b9ad82a34e61d 0x163ef04a28dab74e2fcefe16405a7651ee619b2c54d5b9cc9682e5d90541e6d581bf23d1abde232dc80d646798b42268)),
  ([175, 174, 173, 172, 171, 170, 169, 168], (.pt 0xd742d593933a0ad52fa896eea5704b3d12f6dcef111fb6165e95fb1957da1c9e48649ce76d9e16126b3ef52c9ba4536 0x664f027342cfb4dd6d936d911c79de26f42688c98e089badd0a2592eedb86c8060ed87943c09ad28f28ab6f1649b10 0x11317115f483c2628289994ce8a795ff0ba9d4550756c17ca75e8480f790258c09eb5edf5d0aa696fcb01217f79e2bdb)),
  ([167, 166, 165, 164, 163, 162, 161, 160], (.pt 0xeaaaf36907d76db6378cff396c4de0c5be440fc2b7317ed3a646984bfb16b0eded38350f61a69d8a078f804459cc1c0 0x12d380f8ee616e20840257fa6cceaf7cedcf27b9efd54b32bbab89184d39ade2bc91916750d64b069c1b294b4db4f087 0x140fc16286bb9315861002e98f899fb866bbd5c70ac11c2f183e5f55659f703de72e41c63f559183c2798e2d6a453d37)),
  ([159, 158, 157, 156, 155, 154, 153, 152], (.pt 0x8c063a90353fc8d31685bcdad0b4675eec3d165b40e3228b271c4982d7e7ef6cc8c281df76a532afde59543c92ee3f9 0x13f03d1fbc97dcf5ba17a5a3bc708aff239f3f61834882d3415bd503ef3f6e8f5e316ff2c51c658046e67459f9af4d23 0x1688a88ebc828af31872c60716d9273821e1697a2352a0641ce455c904fac4b4838d0a45ec32fb8a592f715ffa49c721)),
  ([151, 150, 149, 148, 147, 146, 145, 144], (.pt 0x196d512c70ce70b63b9bcfced229b9bd475a773ebd09bf7f2bd6eb2b7e22c775f32e3b0261f932f1676c90acb52bf9ac 0x87175a9424b972c7beb196aab67cf88f47ca032f2d424831021e31fd65764729efda6a3bd249d0aa98e0a85f6880cc4 0x16414eed524a99b11bd06ecfc04c51f8667d4b192c99f1c4d1fc8b4b868896c4ed84fff185c494ac57b865836bf9b6fb)),
  ([143, 142, 141, 140, 139, 138, 137, 136], (.pt 0xbfebb2ec15f7589a12c67de42180c74cbda9f17a617edd959e4c81ccb6703604d2e6d7e6474927f367700bd9a069ec1 0x10a3ff199b6ce8d050feeed0101269469192dde80d6e8cbc88185c8557aa26e9d0e71ab1fb60f3e56167580d188d8bb5 0xf9e9f258c2c0b64d378bf3e2cee9e5b351591b3a4ea695c0dcac48ec7853b3719afb2994d46560c4f41825d1aaf13d5)),
  ([135, 134, 133, 132, 131, 130, 129, 128], (.pt 0x10938869a8f042cf87ac90a19cc54f9512d363f51f034fb3b18c25430c4c421cdc00c3be3def2c7e2213d9f9318db132 0x16a27fbfd34a3887bc99490964d77d413406d975613c30e807d0a8402f7f4cf5ccdd501ccdcab544b790c92d37bfecc3 0xab25463829d2033e85aef1615c6e762b5eed09e46f4b2554c8211b640f4aecd4690bbbf59cd9ef41f4bbff0165354e5)),
  ([127, 126, 125, 124, 123, 122, 121, 120], (.pt 0xb69900dc0407c26245436cc32edc9438cdb30c7f498c0c16904619577d9166783444f37a2b3818623299973ae566077 0x2d5624edbf83853ab4e9e0c47bab44b72ead133b0df80ebb2da2f58b289e6a55b40912f5c9d8fcbeaf5430211d9e77a 0x1494771f17e5c00c1459bb3438ba71cb345101ce074a7464e4b5a0fdb7a24900cd6cbe8a610aeb2779251d9cf8ffc162)),
  ([119, 118, 117, 116, 115, 114, 113, 112], (.pt 0x96fe501ea78bc0be6377da1d226153c0fc81f6b484b9e72ae313ec22d68a95989c33d7641ac1a529723ec2e156c3570 0x1433df17ca5a11375f8d820e9152c30034ed0363a6c7a87933477dbdb9005301623e6b3d5fa324171b6a9d7c61e8f834 0x5d942c1abef61cb3badd2475353b9b7eaeb3e38b2a830c1c9db801e6b15a453875836932b8ef18f84d9f45c42be9478)),
  ([111, 110, 109, 108, 107, 106, 105, 104], (.pt 0x170d1ff0ae832a431a3dfe983e0ae88ffa48bd3b264175486ce3ce3453f9f6bc5a24256c037984e451526ab2a02ee91a 0x16af5b8ed4dbfa151e8ecffb66a73e197b19f510298a934e7ad90e94286e26c49d004f035e9703ad554326571fba252e 0x19f53c34a7772c2be437fd2c5a56dd6125d01c978a517ddab45fde1a23f9945b46d63b775b9ae08a81df02aed513b224)),
  ([103, 102, 101, 100, 99, 98, 97, 96], (.pt 0x1016e8b7618bead20920e8988489d0372e27a9e525e4048f166bf48381b2d2035ad689c5fba8c6fc55f793104f174ea1 0x3f8ef05caa8ae0ec474b25aad01f777a94db9622748a528decb19d38fbafc13fe39a7bc25933bbc5cc63674da4a767b 0xc70f13977f197bd7d07de9a2c76c80af2a3c9387a852242ba3c78eaa1ae3b7a0cb7f2bc8d01c47c085bf6d97b1e1065)),
  ([95, 94, 93, 92, 91, 90, 89, 88], (.pt 0xd18eece9436372815ceea91bf90bb017da3a41f6f189b9aa743d79cb739fd1c7238fd9013031797aab8675bb2a71fa2 0x1415192e0845810b8b34ae22e24b5f337d34fea5e6ae7e377bdbf6e2b9bf9ac35e6549e0df2b6bd124af7fd380987744 0xd3b8dcd7e93b0f2d577c8a290088603d6c236403cc2d9816fbd5c7222295428e6037eb300c5dbed39928ceb55aee8c7)),
  ([87, 86, 85, 84, 83, 82, 81, 80], (.pt 0x6e796f80901cfaebb4c6653befbcae57909e9c6dab85dbd9dbc1dcbf714c7a58c8c6a25a85fd287e78762c5089fe4ed 0xf4e55c48ffe2c2fbfb151f91928186e2ed5f7c879abf6a719fe7aed6222955e242c767c0b7ac4ba73dc8ea88095f44d 0x13d05a637226856587c736085176eac384dd49dab548f8b7e2f2d628adc9ffa9f4e5bfe733f99371d561fc07beb16c96)),
  ([79, 78, 77, 76, 75, 74, 73, 72], (.pt 0x12ef06222e08b6887df6a169f59874f8dbfc2b284da826746110901d41cc4da42890bf0dcc4724e97bb1fc4ce6a6abd9 0x5281f4d416f170014b8d6959a6867861ad74b389188251878cd7c5dec676b8ddfd866ef4e9ff082c6d317fb507f195a 0xacfe3fa721f40391a39778f09de7f27160800ccc4a7f7c7954cf7c4e0a126ec03e4015313ffd96d4415186bcda0794d)),
  ([71, 70, 69, 68, 67, 66, 65, 64], (.pt 0xc2ef35ccd027f7eaa9820a759137496459e0bc4af06bb914bfd6a57fe566f22c14235e06c37ffe591aced7494edb16a 0x6f5783c8219cb6f161333232cb88e7b9864c74d69254071809fac103067964f4ecd4f5ee14d43f69d15128a05b50ddb 0xd72c4f0ed3889d8b62456fc598f83456aee7c499e56f34e8e7939f4b69aea94f7753289042a0193592de7ba5ceb9f16)),
  ([63, 62, 61, 60, 59, 58, 57, 56], (.pt 0x172da07833ad0297a4ef4fcaa7f8a9631fc209c9a2e9cec9d54f74193a55be2839772660c8df63b059163703d16eec3b 0x6d1acd709d5b21ae0a9adfe821ac3bed4f0c1db54fa84141d5fbda0f3fffb9c78b3a76c094d6238877880fbf51e6654 0x1901da117368ec59f2e6197262dfc7216d38e4b04a0a8a14f402f9d21bdcab4db137bd429f9767bc9e912f0d26fd55f5)),
  ([55, 54, 53, 52, 51, 50, 49, 48], (.pt 0xb2d12f77a464c3c69776b31d7e0e8fdc3cd614bdd9b4ff0c9be793534051f810f035abf08ca32bca45b20a0b419b0fb 0xc46dcf433ae6f86caa3b83e6090bdd9ec3762a46291874628a1fd5962661ed637df27d9567f56f5e054231eadfd3dc0 0x18c47608f53ac86cce7a51f355d736210988eb979fa271e680c43dbf25135e20956e4cf5c55c08ecbe6476e980eb0eef)),
  ([47, 46, 45, 44, 43, 42, 41, 40], (.pt 0x164aa4d05113b4eb8dfa08616ecede7e77023a106a7d35fd855ea468ea288b9f5b441f8689bdb47622e40771ee74b82a 0x10bbd086d2f77b14eb9ceb4f5fb01e5a906a02b2273d7d5b50b463ed88db325af08849b61515c8a4b29a128966bbe470 0x19af73bae15f76b9fc188e9e6a4efb65d39c1e27e38e9cddb39d709e05c63517bff84ca3e604df51e0a05a14c6ad511f)),
  ([39, 38, 37, 36, 35, 34, 33, 32], (.pt 0xb335bb6daba69992f80e7d1ab60b1f331121e0060f70b3894281c8b3437d6a6d6364361190c41112a9dea0ccb09104f 0x50133c9ab0bc52285690a74e0b0f9159f01fbe29a8ec19da777784acd7e88ebf9d67fb3e41b5c6a2f736dd8ef7182d3 0xe7dc04220425e1f96ba8ff3addb53802cb401ee94beac6fe617ca5865d76ec39240f9f9dfc74601f66448b11aac684e)),
  ([31, 30, 29, 28, 27, 26, 25, 24], (.pt 0xa6b6dbbbeb06058a507d0bb1c3542c1419a7fe405d8b319ff3458f6fd16f9ebc0cd62adf3945b380470432f512a2e19 0x14231a5620862815918131dca4317697b7d9a21522c619a1e2938b8c3a28fafa6b82605bdadd7eba6e5775d7ffa46469 0x9391471e190a1de60df854f5bf800fcf98e04e9e010acf10a452c835655a76723bb2e5ee42e7ef6174e8c199210d739)),
  ([23, 22, 21, 20, 19, 18, 17, 16], (.pt 0x15b34e18932a1a8d133c116bb07c93204478c159a0fdc2885e327f791efb93f11ba6de95350c49330fde52f9493301b7 0x1925214175ca4c896405ad772f0fd0184bb10fce5cb117dc8f855ed168c07f814c3817f1a83cc52d62a70b90b330590b 0x38d968e538d5056d5cd157792dde5a39fd14263ce253c5fee6eb9a3f343018bfd977e6215ed3f322a336af3abbb1b09)),
  ([15, 14, 13, 12, 11, 10, 9, 8], (.pt 0x126ae2b3066a4dc5b21eda81227457bbf45996785aed2ccbf0ccca6dcfa03468b18485f46992a3a8a14176fc0d72e616 0xe558b854fa41f148416d800c3259ec92daf101a569d1e987a432ed2701fbfeda2b30233fbb2feb208fa24b2b3c26c1e 0x55fd35806a215f7963906d58867a1f2e146ed118461cc256e24042b14ef64ae98dea33f82c972105d23c85974754181)),
  ([7, 6, 5, 4, 3, 2, 1, 0], (.pt 0x8d220b60a53a54682803f47d57fa30d881ed9f6336b012efc585bb77ef25ad7f8f8dead8e580f8341285521c3ce6314 0x182c6ab145bbac478289110f05f3e1eedc408de172507df20e93048d5c86d7abf62c649e5dca9c6d3c4f9a8f92da5898 0xc645904a09866f0285d4a8f1a4475d1d1fd6ba578ada873cb87ec88d1ba1a4f8aeb540dde061dd8545b7f5ac1dc3d7a))]

theorem windowsC_eq : ∀ w ∈ windowsC, (agg 0x1a0111ea397fe69a4b1ba7b6434bacd764774b84f38512bf6730d2a0f6b0f6241eabfffeb153ffffb9feffffffffaaab 0x1a0111ea397fe69a4b1ba7b6434bacd764774b84f38512bf6730d2a0f6b0f6241eabfffeb153ffffb9feffffffffaaaa w.1 (zip3s coeffsC Embedded.g1Parts Embedded.g1Ys)).2 = w.2 := by
  refine List.forall_mem_cons.2 ⟨Jc.is_eq windowC0, ?_⟩
  refine List.forall_mem_cons.2 ⟨Jc.is_eq windowC1, ?_⟩
  refine List.forall_mem_cons.2 ⟨Jc.is_eq windowC2, ?_⟩
  refine List.forall_mem_cons.2 ⟨Jc.is_eq windowC3, ?_⟩
  refine List.forall_mem_cons.2 ⟨Jc.is_eq windowC4, ?_⟩
  refine List.forall_mem_cons.2 ⟨Jc.is_eq windowC5, ?_⟩
  refine List.forall_mem_cons.2 ⟨Jc.is_eq windowC6, ?_⟩
  refine List.forall_mem_cons.2 ⟨Jc.is_eq windowC7, ?_⟩
  refine List.forall_mem_cons.2 ⟨Jc.is_eq windowC8, ?_⟩
  refine List.forall_mem_cons.2 ⟨Jc.is_eq windowC9, ?_⟩
  refine List.forall_mem_cons.2 ⟨Jc.is_eq windowC10, ?_⟩
  refine List.forall_mem_cons.2 ⟨Jc.is_eq windowC11, ?_⟩
  refine List.forall_mem_cons.2 ⟨Jc.is_eq windowC12, ?_⟩
  refine List.forall_mem_cons.2 ⟨Jc.is_eq windowC13, ?_⟩
  refine List.forall_mem_cons.2 ⟨Jc.is_eq windowC14, ?_⟩
  refine List.forall_mem_cons.2 ⟨Jc.is_eq windowC15, ?_⟩
  refine List.forall_mem_cons.2 ⟨Jc.is_eq windowC16, ?_⟩
  refine List.forall_mem_cons.2 ⟨Jc.is_eq windowC17, ?_⟩
  refine List.forall_mem_cons.2 ⟨Jc.is_eq windowC18, ?_⟩
  refine List.forall_mem_cons.2 ⟨Jc.is_eq windowC19, ?_⟩
  refine List.forall_mem_cons.2 ⟨Jc.is_eq windowC20, ?_⟩
  refine List.forall_mem_cons.2 ⟨Jc.is_eq windowC21, ?_⟩
  refine List.forall_mem_cons.2 ⟨Jc.is_eq windowC22, ?_⟩
  refine List.forall_mem_cons.2 ⟨Jc.is_eq windowC23, ?_⟩
  refine List.forall_mem_cons.2 ⟨Jc.is_eq windowC24, ?_⟩
  refine List.forall_mem_cons.2 ⟨Jc.is_eq windowC25, ?_⟩
  refine List.forall_mem_cons.2 ⟨Jc.is_eq windowC26, ?_⟩
  refine List.forall_mem_cons.2 ⟨Jc.is_eq windowC27, ?_⟩
  refine List.forall_mem_cons.2 ⟨Jc.is_eq windowC28, ?_⟩
  refine List.forall_mem_cons.2 ⟨Jc.is_eq windowC29, ?_⟩
  refine List.forall_mem_cons.2 ⟨Jc.is_eq windowC30, ?_⟩
  refine List.forall_mem_cons.2 ⟨Jc.is_eq windowC31, ?_⟩
  exact fun w hw => absurd hw List.not_mem_nil

theorem resultC : (horner 0x1a0111ea397fe69a4b1ba7b6434bacd764774b84f38512bf6730d2a0f6b0f6241eabfffeb153ffffb9feffffffffaaab 0x1a0111ea397fe69a4b1ba7b6434bacd764774b84f38512bf6730d2a0f6b0f6241eabfffeb153ffffb9feffffffffaaaa .inf windowsC).is
    0x123cc25786847c8022593aa3014a7b785b0f40230c7b1dad1a3d8c39958a456dcce6fa9688958dce7c3dd8698f993e27
    0xd78ecc78c8a1f081badbbb4b2abbbe3f0cc7c4d373477f951c35647c90022808d664cb944257cc0f4e2de8b9623d490
    0x1ec011260353bd6fc5bf07ef3b3fe68e62ac36b5bd07a0d594ec7244a5805a2787fe698989922920f17a9cb3c7c05b0 = true := by decide +kernel

theorem commitmentC {g : List G1}
    (hg : List.Forall₂ (fun n (P : G1) => Spec.EncodesG1 (natToBE 48 n) P) Embedded.g1Parts.flatten g) :
    Spec.EncodesG1 (natToBE 48 0xb49d88afcd7f6c61a8ea69eff5f609d2432b47e7e4cd50b02cdddb4e0c1460517e8df02e4e64dc55e3d8ca192d57193a)
      (Spec.commitment g (Spec.polyOf (coeffsC.flatten.map (Nat.cast : Nat → Fr))) : G1) :=
  commitment_check (m := 0x1a0111ea397fe69a4b1ba7b6434bacd764774b84f38512bf6730d2a0f6b0f6241eabfffeb153ffffb9feffffffffaaaa)
    (y := 0xf6b84705fbb73a057d3a849820729bcc51186730007bee522d581f023500788c45a9992d2348aa700ac648e2532cea1) hg coeffsC shapeC smallC
    (by decide +kernel) windowsC windowsC_eq (by decide +kernel) resultC (by decide +kernel) (by decide +kernel)

end Verif.Vectors
