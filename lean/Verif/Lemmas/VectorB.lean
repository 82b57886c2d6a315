import Verif.Lemmas.VectorBSum0
import Verif.Lemmas.VectorBSum1

set_option linter.unusedSectionVars false
set_option Elab.async false
set_option maxRecDepth 100000
set_option exponentiation.threshold 100000000

/-! The commitment in test_vectors/blob_to_kzg_commitment/kzg-mainnet/blob_to_kzg_commitment_case_valid_blob_84d8089232bc23a8 -/
namespace Verif.Vectors
open Bls Msm

def windowsB : List (List Nat × Jc) := [
  ([255, 254, 253, 252, 251, 250, 249, 248], (.pt 0x81a26396b505e09cc83ecb110aefd91541c008b7a3a49930a4f1e8557f1c1bcdc924f92971cd748cd5ce02ba67a5902 0x78400dda01b142728e3357bac15aab1bf8c3b3f61ec45563580619c8f411e8e74986211339c6148707c337a0c847fa 0x109957ade84207bb05c706cb2edcc275dc4f60864bd2f97f2b40b04a26625f6ebf6f334820836fafb2b568a252d52294)),
  ([247, 246, 245, 244, 243, 242, 241, 240], (.pt 0x1698483b2b9228d28a6d178c15ba637476945b65334e63f260c7b770d0e75f1f72fc621b3bf94fb82b52176e7e37398d 0x44a68b2b761bb238cd071679e8304d358f492f574e54b9ee88d836936095f2fa3a30719c1e02f7e8b02c2c74a569d49 0x8d5e2fa98644fe05cc0b7c9adc3e84f04fa2b7d52cca849823bab9d3e3ace1726438e2c383bbb62f0d52dad26a253f7)),
  ([239, 238, 237, 236, 235, 234, 233, 232], (.pt 0xfa4cb374c2d5c491bfe5776799158c82c5b5805abef360a36826d1b35f0e47283d4672420115d90dd7cfc12c86a6ac7 0x5cf1081d364abb4acf373a761eee7ecf26a0fb3773d31c28f82ad38402f2c0e0802fbada09b02d64106af0175188a56 0xd53137f9bc7498989e0498d3cdb4be7433cb20065079539f35a15fb01dd6afc160b0707f671d1438a65fafc4db4ee6a)),
  ([231, 230, 229, 228, 227, 226, 225, 224], (.pt 0x131e5816ec6c6b7976f7b093d596651e83ccf83bd919f76b48549a97fcfae0901ef6a6cef86c4ad9ad6894e19244b67 0x386bbec042b0c7ca66b1a75d704f0dd009ad40c83f9e78e74b2647d623dd1f34c1d97a124cfdcbc6056b30c61cff63e 0x61de0ffc8660e6bfcf220354b2f9b98fc83d5817571ea64d2ce9a6cbd167debf61cf2cb8531343ad76b8ef90e929565)),
  ([223, 222, 221, 220, 219, 218, 217, 216], (.pt 0x90aa11633d8c1783b681ba576fa635ff00e4192dc23ed4f02c680cf938c0717a610b4c5aad00d80c2ac520f50e9f5bd 0x87623b31510f11796ed33eee6c6d9693d5b4a981fe9dad998432e0ca665d0a728ec3f94985e2652a0d73e8c87fd9119 0x7cb3e181956dd31066b9dd384b2ec59713cc966849175818ffd9f7cc858ea00cbc812f3ae1bd013760041a491fc804f)),
  ([215, 214, 213, 212, 211, 210, 209, 208], (.pt 0xf3e7e9946e73ed229ffffb2f4c9065bdc01366b63b63f9c1dbeb3b4d84fd41eb14c3cde5691c920a22facde18221144 0xd820e28f85ded3293f326481b947d88b205e7b7feb6aceee8c7f0cf7f44b676cb08038b6781ab202d5efdc003c13d4a 0x1303acf78859e049d38bcd43726edefda2a9eb59b4775f8419e620a7c853234b2d58a42484340d95da8242504ce8dcec)),
  ([207, 206, 205, 204, 203, 202, 201, 200], (.pt 0xfd28386ca11da2d988d8272513065d5878ba19c36eedae897eef8644408592c1de2b97c04ef4647a427c8519be937cb 0xa03f03e73de143d184f4fa9d6f7e4f74677d14fa407347f83c634329c6b3b11fe1266f0250bfbbda08783fa0190f683 0x973570e07c73f022d67aefb88d3cb9dbdc2e06e1e887bb66e6d0d52bb9d9cc81b6bc9b25ba020fa85e98375ede4320f)),
  ([199, 198, 197, 196, 195, 194, 193, 192], (.pt 0x33d240ce115b7552176a38604f881fd63bb76069ccf0682c9edcc09b833348e94871fd0a22ff551024ceff4bab97ee8 0x1302ac3f881fcd281a2f591c0f3daae7db8b7770770e58c4e540091de4d9d44146ac8759a1eb53ddc5bd94c3a53a62ae 0xf7ba9fd933c765ac622bb10187941d173e456b46822e5b4326af08d0d5390385d0f1275ba1963668a14ade2dbdce337)),
  ([191, 190, 189, 188, 187, 186, 185, 184], (.pt 0xeaf087e7304f85b3a3100ae36c390906f36f0e7bbff2246fab5c907bd92ce5615f2ac37d93cabfd4d17a046c73e538f 0x12fdefba55785d3626c48471395581fd905db32ee36258626af48e60488316986fb9f8772019152f2d2750ac220e4f17 0x91941c580a866fbe107dd9d2dc8cb7438671b1007e4193234cbb4c3f538cba720057aed794ea0c6c8db4388620c8ad3)),
  ([183, 182, 181, 180, 179, 178, 177, 176], (.pt 0x13d398dd5ad0ddf1b181d7301a8d372aa8cbfd3f69dafbef06274ed5bf208a6a2ba35b1de16e2be2780fd1450a5a0627 0x1621a8b76049699859de62e641a476cc3fcf0aa2ea81feee550a2c69c48d6d011ab2a94f7378b5b23bc3f82bc63687ab 0x18f8305f1b77c7aee442f620c3d59fc02bc0adaace9eeaeb4034e4f48e9185dee5ed26510e0dba03e763157063027e28)),
  ([175, 174, 173, 172, 171, 170, 169, 168], (.pt 0xc9b7d71da78aaf78861d87741decfd5633c5764be8d4a6e39695e9f5ca29fa5c2e375bb7a4eeb903972e77a08dcb4a9 0xeaf0c46a1f001acdccc83120c5ce5597fecb4ee27575035c38d1158ef22256058799ebba25e56042b00cc6af7a3eae8 0x6471e5e51338d945d75d86bb1296feb2a8ba4846d5e257f1d6dfede9a201bd62870c130f2fd21e482e95ca018b103a2)),
  ([167, 166, 165, 164, 163, 162, 161, 160], (.pt 0x15be0bddb56bd8bd150e22a2eeeb229df288019bbdb9131c868ff79f450c56109b897a16d6811898f028e485cc5120a8 0x5ca85eeb4f4a7b6a5c849df564fe4df36dea68ad78d99d15ae7a8ed928b8a3ae8eb96b69c6a4cb410a859871af2128e 0x76e7a02e4a000ef0e2c6216f19f84b8b25131640c2a5c76ce2c8e15c3b41f3766da9251bc22676e4417fda70d998f86)),
  ([159, 158, 157, 156, 155, 154, 153, 152], (.pt 0x7c9c24d1652ed67d345fcaf83ba8976705b0eb02010303c533249a0b13986c7f50ff70b22dd44b8e8a4ec885e86449e 0xf681140fa34c944610bb1e0c01492182e5755f7b3d29a58f3666c48f1d06615c5670858d596c0012571c8f007fe2ff9 0xf06e6e76f5ba0ffb6f0bd4c34f534e8d1a6a236b6611382f88faa58afdad0949f41af32a94aa847a845f1063cf04c30)),
  ([151, 150, 149, 148, 147, 146, 145, 144], (.pt 0x1ad41fe266a4b5e85cdc18eed4a27ff13f1d67d1b03851c35eb46fc1d05c13bdb17b7e109d3058a6c3b008b26e0447 0x7abb6708334207f09a400dee9ef9e640ff3abf8ee62bcc64287d3983d6734f75fffff4cdf38b01b82c180259dcc3a50 0xd4a0faa50fc0849210bd2bdacccdd5021364c2ef113baa2d7420d5e03c414055f43973dccfda3fab38a3cfc9a4b31e)),
  ([143, 142, 141, 140, 139, 138, 137, 136], (.pt 0x2060405cf03daec5b3d37367757bb071825e22b60d5fa3e56254413b88b27f8390aa214759675d53d24cb07a4f79071 0x37778cbb2ab6e0964561ed2c977a3b18f883fdf9a870ded944ee61b56f3dcb2db32a660344c47fb4f5212ee2dc4d635 0x187f8e3f6b09347b2319b7ba13bf91dc5043d2908b0d482c65dd93b51ae34ba60c247c7b886df149d5cf0f350b65674e)),
  ([135, 134, 133, 132, 131, 130, 129, 128], (.pt 0xf3fb5f9e0ef1128815679fba01f7f8e6bbb19b374ef64e0dfce382e44cca7e728aee5662a20ff31931da5b68e5a8524 0xd8a69e78d351725a3cdd2cd86bc21ecf0e37fa890975a652ca4d6c901a838d3bbe13b4636e65d6010f6ed875fc55f0c 0xe2a5a5938cadf59e8ee906da9fb95d7a874ee89478821bbaabd0162062eb10a97c82a8a8beaa5bab240f8663270bbbb)),
  ([127, 126, 125, 124, 123, 122, 121, 120], (.pt 0xb73ee9ae940e7d0deae2ba4a273cddd71a61d9c3ed0d425b264a5e1d14c2ab08a27c808b8773018d75259f015803dee 0x14387196ec2a8702cfe019d0bb28020c3da457ed46d885cc12ef17886d7b120350695a82bed6a2459b745392d95d370c 0x9a0843e01473cfb7b092e048c366664de4ecf5b7d4ff5c68a441d54e6909529741c64e28bb21cc78b6eb07eff40dcc4)),
  ([119, 118, 117, 116, 115, 114, 113, 112], (.pt 0x3c8deb5e2e95a352bc64f295341a0c9a3315aea59ad828aca46f32773e422242ed79007bfe345a49db54515de1000b0 0x1710562dc046b5e53c98ec53ac71d250db7fa23467c109c18e1a87373f12f0c6d13252e7f28d15fa576832fba58a7185 0x4ea673cf518ad7d7e28f44588340db2ce491097422f3b1931fbd2a412780f58e84d6fe186d8d40237e276464641ac12)),
  ([111, 110, 109, 108, 107, 106, 105, 104], (.pt 0x19e1298223222d7e4091ad2d96187921aec2cc23bd43fa429ec9408814dd14d2166cbd1094ccb288281ff365ce131c34 0xbd2a30fa12a61110399785569d04297b0bc2f2ef62cd53a3f03a39edabe077570b90e1ecfe9be9a390a63cb971ceaa1 0x1a26bc74e92108bd1be5538cf6d5aee03ff395f2369c8912d9daa8a2dbb8e2aaedc07d680f2825f11f67b9a28d89494)),
  ([103, 102, 101, 100, 99, 98, 97, 96], (.pt 0x3fde8f211b043bc76d5cb2a252b1832e32c821a559073919845bc8667dee9efcc753c65bf22dc62c893604f2b3f7571 0x17c39a76d5ac163b227ba43b0c2a61457bb3fb99f6c2df027c4258161d05e714ffe7dc795cca62c1d94dc30428fc89d4 0x4f7432388bae541d547b62788a216833f82cf39843a8a36bce5a70820de25a3bea7a58c83738eb7542ad2b2e754b600)),
  ([95, 94, 93, 92, 91, 90, 89, 88], (.pt 0x2c93b5ef095cba7166ce8b034a67f790d1870b17d6c670e022d2f5e8fd75855f255dd445228f174e94342eb66d69a7b 0x163cb326ffaa698eca3934dac347e9c112c75477a4c18531c4b279164d8355495921122ebfdcd8fae6c1d4a9d7a96dfa 0x74005fbf4cbc8cea5a048ddfc6cef0ffdd3c2f0f08765f5df31e04195ec032116c796e9bb5b7deb1fa42a306e7f3157)),
  ([87, 86, 85, 84, 83, 82, 81, 80], (.pt 0x1852f625a806a6f33f7ddd69be610556b39eb126a3e98bebdedfe63417d005171bc4fce18de9cfef26fee8a54816e122 0x2b79c589aa7712589c407832f62f9af96e7a2a07385853c54df1c52839e9a8d76f8e5f39aacd3f33eb46f2a315eb342 0xabb6cc80a68a7a283b14101e4637c076e05d4cc425b77bd3f4b6dfd0411a44a16e046ff9d5255851e7be370f051be56)),
  ([79, 78, 77, 76, 75, 74, 73, 72], (.pt 0x344d17572ed414d17cef93b9c5f656e58f58a0e5ce72f8654b5569bac20dbb0a6ce305e50cc83dab4f7d7787e6f0676 0x68d18e42a6d3654eb1fba23ae0ccb27b3a37068fad731d3aa1c533092b7623f2abc35183b40537497753654a151b94f 0x11f79a3efcb4ce37e509be96dc6161c2dbf54069424ace3ebfadffa0e9590858cbe040af76efa1cb73f17a461f600e43)),
  ([71, 70, 69, 68, 67, 66, 65, 64], (.pt 0xb7171a3c3f8fc8a2b783cab6b0f328627de3c10485d76aef6c2f55bccde49864ee3f0fb81f7fc9816fa2ceffa598298 0x194df161b4c48fadce955c0663cc0939e4fca6d19f6c9a272d037448d8f1ffa6204cf30950d5e10ccbd1e49f50aa4961 0x97179213bd0e1506b7e7f118f611e5d07a33df4b86bfbb2a19e981198e6c5f6260e3d5751f1d507fbfe0077e8b893f3)),
  ([63, 62, 61, 60, 59, 58, 57, 56], (.pt 0x7600b32354b957c9bc7e5a5812b67d2e5a1437e95e926be3f0ef6e913b09b25f0c996f477995d8712fd9cc2135751f1 0x77b27977138e0557027159471109975263d5b28e32c9d1d8bfe59cad0f1eaa6e4b57e98df0feca402de5e6c32aa9d10 0xe20c94c0c0be50ab3c00ed62a3c45bef613ebc6c56c2bd0a970e1d39645e2542137208938b75104269ba2077593df4d)),
  ([55, 54, 53, 52, 51, 50, 49, 48], (.pt 0x18252c5c4d8b816ceac52b2543e7b8d4b25d59d45e0d6574aa27ba467d1b0242734767973ac6bb836e2b7c211f6fd4bd 0x593313547dba2e77ad22208c7eda636b6d23fef2b48eb18ce4d2e1230fcb041fc20b03f67781f523eb21b619daaf837 0xeda1ca1f33a5f7abb509304d4499565140fb7b64de9987e14e6425aaf66b386b3f486a9b49a07d642d6c0fdcaa8c44)),
  ([47, 46, 45, 44, 43, 42, 41, 40], (.pt 0x14f3f66f6522e0baebeb21d3d871791e462b56db71b6ddc5eff716b70838f5af4c56a1d5298c88e6b42fcc8490d0d507 0xdec273b9eb0444e35bab906105b43d409ce65dc943eb9d8da72fce46bfc3c025c9b92fc258cf7dbfc9f4225e24dfa60 0x4b704c311019c048fa37d7ccde3a4b619867c1658054219a38fcd6ae846061980debe2d5487a4d64573334989436294)),
  ([39, 38, 37, 36, 35, 34, 33, 32], (.pt 0x155e45326ffc2968a9510bbc964e51b82f3cf67c12962df9723336f5b25019e9f7cf25fbdf162c17592920bc63235cad 0x1852a1d58bca63a6a2f56de84f046f1987ef34164dd257ee66c48004f20449ae306c40c6802814128f015a48fa00ee4b 0x10caaa9b0537c05ace76ca76dde58ecc776fe861731935574a7bd79d64f8608a33782c203df6e23fdeb9b61e6097d384)),
  ([31, 30, 29, 28, 27, 26, 25, 24], (.pt 0x16306a665b3b82629af57e92c7e63610ca16eb98ae596e581a5f0598dab4d33af5b565855b203280999f8097f7084b75 0x1137ce4001d22aba6c9ce5199e69e2beaab5654541b32190cd05092ef45132b32b2b06d11e6cb400425fb5e48bc7f010 0x13e4aff58012e0bcce6fe329cf9b2a3922298be7450105b493017a1ba81643650dbee85813a25a6bd3275861eab9dcff)),
  ([23, 22, 21, 20, 19, 18, 17, 16], (.pt 0xeee27b8571ff1f6f17f9500d7c2ee5bb4eed48a920e9a03afe7f56c23e0fd0a5456bba6ea1a71a6df9d02ead807f5cc 0x722282c75a249200c5856825e770ce2f2c4825c586527de7e64f3392aa2843c87592e3751b7592bf239419b7b3b364d 0x178463bd0cb126b4be60bdb3402dca7030148195b3dea75e4d506f053bd443a67b28ae01911f0cd4a4db3b1e3aa501e8)),
  ([15, 14, 13, 12, 11, 10, 9, 8], (.pt 0x2b9ea7689282667aa199ae9d95813812fd7a9c8bd57f71b9226d080c982b0c95df4319436283b964c612cfc1eabd2ee 0x19f4cff54045e98ad04a611fb231829d6068a80810555a1e3a824b154b764d4595dafae89ff691a56b6e48c86638e2d4 0x307589c734b4b8dd68265306d2f1f98ca21ca3c324ed4f4ec2313ea5a1c6f33bae3154b7f44c18234a0447f7233f8f8)),
  ([7, 6, 5, 4, 3, 2, 1, 0], (.pt 0x41085313ed041edf4f9711f5ab648a4c79d897bd3e9447802edf0396b84ef738eb2aef696a0c41adcf9057a402c0fd4 0xc627edf04e25f8c819d07d3787321ee8a3542b0e658fb8bc50de84478f30a4f6abfed625577244badeed32dcc3a0758 0x18359e8b90e7a9a2662d0d3810f7930dc6a7fd1211499cae7f5449ec14f5ab8d8f508be18652b4e515ccb658181af945))]

theorem windowsB_eq : ∀ w ∈ windowsB, (agg 0x1a0111ea397fe69a4b1ba7b6434bacd764774b84f38512bf6730d2a0f6b0f6241eabfffeb153ffffb9feffffffffaaab 0x1a0111ea397fe69a4b1ba7b6434bacd764774b84f38512bf6730d2a0f6b0f6241eabfffeb153ffffb9feffffffffaaaa w.1 (zip3s coeffsB Embedded.g1Parts Embedded.g1Ys)).2 = w.2 := by
  refine List.forall_mem_cons.2 ⟨Jc.is_eq windowB0, ?_⟩
  refine List.forall_mem_cons.2 ⟨Jc.is_eq windowB1, ?_⟩
  refine List.forall_mem_cons.2 ⟨Jc.is_eq windowB2, ?_⟩
  refine List.forall_mem_cons.2 ⟨Jc.is_eq windowB3, ?_⟩
  refine List.forall_mem_cons.2 ⟨Jc.is_eq windowB4, ?_⟩
  refine List.forall_mem_cons.2 ⟨Jc.is_eq windowB5, ?_⟩
  refine List.forall_mem_cons.2 ⟨Jc.is_eq windowB6, ?_⟩
  refine List.forall_mem_cons.2 ⟨Jc.is_eq windowB7, ?_⟩
  refine List.forall_mem_cons.2 ⟨Jc.is_eq windowB8, ?_⟩
  refine List.forall_mem_cons.2 ⟨Jc.is_eq windowB9, ?_⟩
  refine List.forall_mem_cons.2 ⟨Jc.is_eq windowB10, ?_⟩
  refine List.forall_mem_cons.2 ⟨Jc.is_eq windowB11, ?_⟩
  refine List.forall_mem_cons.2 ⟨Jc.is_eq windowB12, ?_⟩
  refine List.forall_mem_cons.2 ⟨Jc.is_eq windowB13, ?_⟩
  refine List.forall_mem_cons.2 ⟨Jc.is_eq windowB14, ?_⟩
  refine List.forall_mem_cons.2 ⟨Jc.is_eq windowB15, ?_⟩
  refine List.forall_mem_cons.2 ⟨Jc.is_eq windowB16, ?_⟩
  refine List.forall_mem_cons.2 ⟨Jc.is_eq windowB17, ?_⟩
  refine List.forall_mem_cons.2 ⟨Jc.is_eq windowB18, ?_⟩
  refine List.forall_mem_cons.2 ⟨Jc.is_eq windowB19, ?_⟩
  refine List.forall_mem_cons.2 ⟨Jc.is_eq windowB20, ?_⟩
  refine List.forall_mem_cons.2 ⟨Jc.is_eq windowB21, ?_⟩
  refine List.forall_mem_cons.2 ⟨Jc.is_eq windowB22, ?_⟩
  refine List.forall_mem_cons.2 ⟨Jc.is_eq windowB23, ?_⟩
  refine List.forall_mem_cons.2 ⟨Jc.is_eq windowB24, ?_⟩
  refine List.forall_mem_cons.2 ⟨Jc.is_eq windowB25, ?_⟩
  refine List.forall_mem_cons.2 ⟨Jc.is_eq windowB26, ?_⟩
  refine List.forall_mem_cons.2 ⟨Jc.is_eq windowB27, ?_⟩
  refine List.forall_mem_cons.2 ⟨Jc.is_eq windowB28, ?_⟩
  refine List.forall_mem_cons.2 ⟨Jc.is_eq windowB29, ?_⟩
  refine List.forall_mem_cons.2 ⟨Jc.is_eq windowB30, ?_⟩
  refine List.forall_mem_cons.2 ⟨Jc.is_eq windowB31, ?_⟩
  exact fun w hw => absurd hw List.not_mem_nil

theorem resultB : (horner 0x1a0111ea397fe69a4b1ba7b6434bacd764774b84f38512bf6730d2a0f6b0f6241eabfffeb153ffffb9feffffffffaaab 0x1a0111ea397fe69a4b1ba7b6434bacd764774b84f38512bf6730d2a0f6b0f6241eabfffeb153ffffb9feffffffffaaaa .inf windowsB).is
    0x7de6998ff0d9ed7de14638fa8bc1f9db94eb8527d6449111dbc4d98a11fb4bdf7bb5ea1b095f9da49e3be0d5a18458d
    0x31e99a91a02fc39ca69c29f59b6876df16932b4b3329530ef6eab58c1d6e36e64e337b456fccbfb1c4d4a718fbfda63
    0x10b4f6f239ed286bc3798db7292f654350ff0b68079afed5c3fbf4e8a998c8d3fb06f3bdafe2a66072c11b3cc16e3fb4 = true := by decide +kernel

theorem commitmentB {g : List G1}
    (hg : List.Forall₂ (fun n (P : G1) => Spec.EncodesG1 (natToBE 48 n) P) Embedded.g1Parts.flatten g) :
    Spec.EncodesG1 (natToBE 48 0x8f59a8d2a1a625a17f3fea0fe5eb8c896db3764f3185481bc22f91b4aaffcca25f26936857bc3a7c2539ea8ec3a952b7)
      (Spec.commitment g (Spec.polyOf (coeffsB.flatten.map (Nat.cast : Nat → Fr))) : G1) :=
  commitment_check (m := 0x1a0111ea397fe69a4b1ba7b6434bacd764774b84f38512bf6730d2a0f6b0f6241eabfffeb153ffffb9feffffffffaaaa)
    (y := 0x832da26009019e133b8b74aa2040674042a5d5d2e11ab9289e95e9052e451853bebb100d7d2e7101ee225e37c5da32e) hg coeffsB shapeB smallB
    (by decide +kernel) windowsB windowsB_eq (by decide +kernel) resultB (by decide +kernel) (by decide +kernel)

end Verif.Vectors
