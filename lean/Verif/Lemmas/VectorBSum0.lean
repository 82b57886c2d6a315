import Verif.Lemmas.VectorBCoeffs

set_option linter.unusedSectionVars false
set_option Elab.async false
set_option maxRecDepth 100000
set_option exponentiation.threshold 100000000

/-! The commitment in test_vectors/blob_to_kzg_commitment/kzg-mainnet/blob_to_kzg_commitment_case_valid_blob_84d8089232bc23a8, part 0: the sums for eight bits of the coefficients -/
namespace Verif.Vectors
open Msm

theorem windowB0 : ((agg 0x1a0111ea397fe69a4b1ba7b6434bacd764774b84f38512bf6730d2a0f6b0f6241eabfffeb153ffffb9feffffffffaaab 0x1a0111ea397fe69a4b1ba7b6434bacd764774b84f38512bf6730d2a0f6b0f6241eabfffeb153ffffb9feffffffffaaaa [255, 254, 253, 252, 251, 250, 249, 248] (zip3s coeffsB Embedded.g1Parts Embedded.g1Ys)).2.is
    0x81a26396b505e09cc83ecb110aefd91541c008b7a3a49930a4f1e8557f1c1bcdc924f92971cd748cd5ce02ba67a5902
    0x78400dda01b142728e3357bac15aab1bf8c3b3f61ec45563580619c8f411e8e74986211339c6148707c337a0c847fa
    0x109957ade84207bb05c706cb2edcc275dc4f60864bd2f97f2b40b04a26625f6ebf6f334820836fafb2b568a252d52294) = true := by decide +kernel

theorem windowB1 : ((agg 0x1a0111ea397fe69a4b1ba7b6434bacd764774b84f38512bf6730d2a0f6b0f6241eabfffeb153ffffb9feffffffffaaab 0x1a0111ea397fe69a4b1ba7b6434bacd764774b84f38512bf6730d2a0f6b0f6241eabfffeb153ffffb9feffffffffaaaa [247, 246, 245, 244, 243, 242, 241, 240] (zip3s coeffsB Embedded.g1Parts Embedded.g1Ys)).2.is
    0x1698483b2b9228d28a6d178c15ba637476945b65334e63f260c7b770d0e75f1f72fc621b3bf94fb82b52176e7e37398d
    0x44a68b2b761bb238cd071679e8304d358f492f574e54b9ee88d836936095f2fa3a30719c1e02f7e8b02c2c74a569d49
    0x8d5e2fa98644fe05cc0b7c9adc3e84f04fa2b7d52cca849823bab9d3e3ace1726438e2c383bbb62f0d52dad26a253f7) = true := by decide +kernel

theorem windowB2 : ((agg 0x1a0111ea397fe69a4b1ba7b6434bacd764774b84f38512bf6730d2a0f6b0f6241eabfffeb153ffffb9feffffffffaaab 0x1a0111ea397fe69a4b1ba7b6434bacd764774b84f38512bf6730d2a0f6b0f6241eabfffeb153ffffb9feffffffffaaaa [239, 238, 237, 236, 235, 234, 233, 232] (zip3s coeffsB Embedded.g1Parts Embedded.g1Ys)).2.is
    0xfa4cb374c2d5c491bfe5776799158c82c5b5805abef360a36826d1b35f0e47283d4672420115d90dd7cfc12c86a6ac7
    0x5cf1081d364abb4acf373a761eee7ecf26a0fb3773d31c28f82ad38402f2c0e0802fbada09b02d64106af0175188a56
    0xd53137f9bc7498989e0498d3cdb4be7433cb20065079539f35a15fb01dd6afc160b0707f671d1438a65fafc4db4ee6a) = true := by decide +kernel

theorem windowB3 : ((agg 0x1a0111ea397fe69a4b1ba7b6434bacd764774b84f38512bf6730d2a0f6b0f6241eabfffeb153ffffb9feffffffffaaab 0x1a0111ea397fe69a4b1ba7b6434bacd764774b84f38512bf6730d2a0f6b0f6241eabfffeb153ffffb9feffffffffaaaa [231, 230, 229, 228, 227, 226, 225, 224] (zip3s coeffsB Embedded.g1Parts Embedded.g1Ys)).2.is
    0x131e5816ec6c6b7976f7b093d596651e83ccf83bd919f76b48549a97fcfae0901ef6a6cef86c4ad9ad6894e19244b67
    0x386bbec042b0c7ca66b1a75d704f0dd009ad40c83f9e78e74b2647d623dd1f34c1d97a124cfdcbc6056b30c61cff63e
    0x61de0ffc8660e6bfcf220354b2f9b98fc83d5817571ea64d2ce9a6cbd167debf61cf2cb8531343ad76b8ef90e929565) = true := by decide +kernel

theorem windowB4 : ((agg 0x1a0111ea397fe69a4b1ba7b6434bacd764774b84f38512bf6730d2a0f6b0f6241eabfffeb153ffffb9feffffffffaaab 0x1a0111ea397fe69a4b1ba7b6434bacd764774b84f38512bf6730d2a0f6b0f6241eabfffeb153ffffb9feffffffffaaaa [223, 222, 221, 220, 219, 218, 217, 216] (zip3s coeffsB Embedded.g1Parts Embedded.g1Ys)).2.is
    0x90aa11633d8c1783b681ba576fa635ff00e4192dc23ed4f02c680cf938c0717a610b4c5aad00d80c2ac520f50e9f5bd
    0x87623b31510f11796ed33eee6c6d9693d5b4a981fe9dad998432e0ca665d0a728ec3f94985e2652a0d73e8c87fd9119
    0x7cb3e181956dd31066b9dd384b2ec59713cc966849175818ffd9f7cc858ea00cbc812f3ae1bd013760041a491fc804f) = true := by decide +kernel

theorem windowB5 : ((agg 0x1a0111ea397fe69a4b1ba7b6434bacd764774b84f38512bf6730d2a0f6b0f6241eabfffeb153ffffb9feffffffffaaab 0x1a0111ea397fe69a4b1ba7b6434bacd764774b84f38512bf6730d2a0f6b0f6241eabfffeb153ffffb9feffffffffaaaa [215, 214, 213, 212, 211, 210, 209, 208] (zip3s coeffsB Embedded.g1Parts Embedded.g1Ys)).2.is
    0xf3e7e9946e73ed229ffffb2f4c9065bdc01366b63b63f9c1dbeb3b4d84fd41eb14c3cde5691c920a22facde18221144
    0xd820e28f85ded3293f326481b947d88b205e7b7feb6aceee8c7f0cf7f44b676cb08038b6781ab202d5efdc003c13d4a
    0x1303acf78859e049d38bcd43726edefda2a9eb59b4775f8419e620a7c853234b2d58a42484340d95da8242504ce8dcec) = true := by decide +kernel

theorem windowB6 : ((agg 0x1a0111ea397fe69a4b1ba7b6434bacd764774b84f38512bf6730d2a0f6b0f6241eabfffeb153ffffb9feffffffffaaab 0x1a0111ea397fe69a4b1ba7b6434bacd764774b84f38512bf6730d2a0f6b0f6241eabfffeb153ffffb9feffffffffaaaa [207, 206, 205, 204, 203, 202, 201, 200] (zip3s coeffsB Embedded.g1Parts Embedded.g1Ys)).2.is
    0xfd28386ca11da2d988d8272513065d5878ba19c36eedae897eef8644408592c1de2b97c04ef4647a427c8519be937cb
    0xa03f03e73de143d184f4fa9d6f7e4f74677d14fa407347f83c634329c6b3b11fe1266f0250bfbbda08783fa0190f683
    0x973570e07c73f022d67aefb88d3cb9dbdc2e06e1e887bb66e6d0d52bb9d9cc81b6bc9b25ba020fa85e98375ede4320f) = true := by decide +kernel

theorem windowB7 : ((agg 0x1a0111ea397fe69a4b1ba7b6434bacd764774b84f38512bf6730d2a0f6b0f6241eabfffeb153ffffb9feffffffffaaab 0x1a0111ea397fe69a4b1ba7b6434bacd764774b84f38512bf6730d2a0f6b0f6241eabfffeb153ffffb9feffffffffaaaa [199, 198, 197, 196, 195, 194, 193, 192] (zip3s coeffsB Embedded.g1Parts Embedded.g1Ys)).2.is
    0x33d240ce115b7552176a38604f881fd63bb76069ccf0682c9edcc09b833348e94871fd0a22ff551024ceff4bab97ee8
    0x1302ac3f881fcd281a2f591c0f3daae7db8b7770770e58c4e540091de4d9d44146ac8759a1eb53ddc5bd94c3a53a62ae
    0xf7ba9fd933c765ac622bb10187941d173e456b46822e5b4326af08d0d5390385d0f1275ba1963668a14ade2dbdce337) = true := by decide +kernel

theorem windowB8 : ((agg 0x1a0111ea397fe69a4b1ba7b6434bacd764774b84f38512bf6730d2a0f6b0f6241eabfffeb153ffffb9feffffffffaaab 0x1a0111ea397fe69a4b1ba7b6434bacd764774b84f38512bf6730d2a0f6b0f6241eabfffeb153ffffb9feffffffffaaaa [191, 190, 189, 188, 187, 186, 185, 184] (zip3s coeffsB Embedded.g1Parts Embedded.g1Ys)).2.is
    0xeaf087e7304f85b3a3100ae36c390906f36f0e7bbff2246fab5c907bd92ce5615f2ac37d93cabfd4d17a046c73e538f
    0x12fdefba55785d3626c48471395581fd905db32ee36258626af48e60488316986fb9f8772019152f2d2750ac220e4f17
    0x91941c580a866fbe107dd9d2dc8cb7438671b1007e4193234cbb4c3f538cba720057aed794ea0c6c8db4388620c8ad3) = true := by decide +kernel

theorem windowB9 : ((agg 0x1a0111ea397fe69a4b1ba7b6434bacd764774b84f38512bf6730d2a0f6b0f6241eabfffeb153ffffb9feffffffffaaab 0x1a0111ea397fe69a4b1ba7b6434bacd764774b84f38512bf6730d2a0f6b0f6241eabfffeb153ffffb9feffffffffaaaa [183, 182, 181, 180, 179, 178, 177, 176] (zip3s coeffsB Embedded.g1Parts Embedded.g1Ys)).2.is
    0x13d398dd5ad0ddf1b181d7301a8d372aa8cbfd3f69dafbef06274ed5bf208a6a2ba35b1de16e2be2780fd1450a5a0627
    0x1621a8b76049699859de62e641a476cc3fcf0aa2ea81feee550a2c69c48d6d011ab2a94f7378b5b23bc3f82bc63687ab
    0x18f8305f1b77c7aee442f620c3d59fc02bc0adaace9eeaeb4034e4f48e9185dee5ed26510e0dba03e763157063027e28) = true := by decide +kernel

theorem windowB10 : ((agg 0x1a0111ea397fe69a4b1ba7b6434bacd764774b84f38512bf6730d2a0f6b0f6241eabfffeb153ffffb9feffffffffaaab 0x1a0111ea397fe69a4b1ba7b6434bacd764774b84f38512bf6730d2a0f6b0f6241eabfffeb153ffffb9feffffffffaaaa [175, 174, 173, 172, 171, 170, 169, 168] (zip3s coeffsB Embedded.g1Parts Embedded.g1Ys)).2.is
    0xc9b7d71da78aaf78861d87741decfd5633c5764be8d4a6e39695e9f5ca29fa5c2e375bb7a4eeb903972e77a08dcb4a9
    0xeaf0c46a1f001acdccc83120c5ce5597fecb4ee27575035c38d1158ef22256058799ebba25e56042b00cc6af7a3eae8
    0x6471e5e51338d945d75d86bb1296feb2a8ba4846d5e257f1d6dfede9a201bd62870c130f2fd21e482e95ca018b103a2) = true := by decide +kernel

theorem windowB11 : ((agg 0x1a0111ea397fe69a4b1ba7b6434bacd764774b84f38512bf6730d2a0f6b0f6241eabfffeb153ffffb9feffffffffaaab 0x1a0111ea397fe69a4b1ba7b6434bacd764774b84f38512bf6730d2a0f6b0f6241eabfffeb153ffffb9feffffffffaaaa [167, 166, 165, 164, 163, 162, 161, 160] (zip3s coeffsB Embedded.g1Parts Embedded.g1Ys)).2.is
    0x15be0bddb56bd8bd150e22a2eeeb229df288019bbdb9131c868ff79f450c56109b897a16d6811898f028e485cc5120a8
    0x5ca85eeb4f4a7b6a5c849df564fe4df36dea68ad78d99d15ae7a8ed928b8a3ae8eb96b69c6a4cb410a859871af2128e
    0x76e7a02e4a000ef0e2c6216f19f84b8b25131640c2a5c76ce2c8e15c3b41f3766da9251bc22676e4417fda70d998f86) = true := by decide +kernel

theorem windowB12 : ((agg 0x1a0111ea397fe69a4b1ba7b6434bacd764774b84f38512bf6730d2a0f6b0f6241eabfffeb153ffffb9feffffffffaaab 0x1a0111ea397fe69a4b1ba7b6434bacd764774b84f38512bf6730d2a0f6b0f6241eabfffeb153ffffb9feffffffffaaaa [159, 158, 157, 156, 155, 154, 153, 152] (zip3s coeffsB Embedded.g1Parts Embedded.g1Ys)).2.is
    0x7c9c24d1652ed67d345fcaf83ba8976705b0eb02010303c533249a0b13986c7f50ff70b22dd44b8e8a4ec885e86449e
    0xf681140fa34c944610bb1e0c01492182e5755f7b3d29a58f3666c48f1d06615c5670858d596c0012571c8f007fe2ff9
    0xf06e6e76f5ba0ffb6f0bd4c34f534e8d1a6a236b6611382f88faa58afdad0949f41af32a94aa847a845f1063cf04c30) = true := by decide +kernel

theorem windowB13 : ((agg 0x1a0111ea397fe69a4b1ba7b6434bacd764774b84f38512bf6730d2a0f6b0f6241eabfffeb153ffffb9feffffffffaaab 0x1a0111ea397fe69a4b1ba7b6434bacd764774b84f38512bf6730d2a0f6b0f6241eabfffeb153ffffb9feffffffffaaaa [151, 150, 149, 148, 147, 146, 145, 144] (zip3s coeffsB Embedded.g1Parts Embedded.g1Ys)).2.is
    0x1ad41fe266a4b5e85cdc18eed4a27ff13f1d67d1b03851c35eb46fc1d05c13bdb17b7e109d3058a6c3b008b26e0447
    0x7abb6708334207f09a400dee9ef9e640ff3abf8ee62bcc64287d3983d6734f75fffff4cdf38b01b82c180259dcc3a50
    0xd4a0faa50fc0849210bd2bdacccdd5021364c2ef113baa2d7420d5e03c414055f43973dccfda3fab38a3cfc9a4b31e) = true := by decide +kernel

theorem windowB14 : ((agg 0x1a0111ea397fe69a4b1ba7b6434bacd764774b84f38512bf6730d2a0f6b0f6241eabfffeb153ffffb9feffffffffaaab 0x1a0111ea397fe69a4b1ba7b6434bacd764774b84f38512bf6730d2a0f6b0f6241eabfffeb153ffffb9feffffffffaaaa [143, 142, 141, 140, 139, 138, 137, 136] (zip3s coeffsB Embedded.g1Parts Embedded.g1Ys)).2.is
    0x2060405cf03daec5b3d37367757bb071825e22b60d5fa3e56254413b88b27f8390aa214759675d53d24cb07a4f79071
    0x37778cbb2ab6e0964561ed2c977a3b18f883fdf9a870ded944ee61b56f3dcb2db32a660344c47fb4f5212ee2dc4d635
    0x187f8e3f6b09347b2319b7ba13bf91dc5043d2908b0d482c65dd93b51ae34ba60c247c7b886df149d5cf0f350b65674e) = true := by decide +kernel

theorem windowB15 : ((agg 0x1a0111ea397fe69a4b1ba7b6434bacd764774b84f38512bf6730d2a0f6b0f6241eabfffeb153ffffb9feffffffffaaab 0x1a0111ea397fe69a4b1ba7b6434bacd764774b84f38512bf6730d2a0f6b0f6241eabfffeb153ffffb9feffffffffaaaa [135, 134, 133, 132, 131, 130, 129, 128] (zip3s coeffsB Embedded.g1Parts Embedded.g1Ys)).2.is
    0xf3fb5f9e0ef1128815679fba01f7f8e6bbb19b374ef64e0dfce382e44cca7e728aee5662a20ff31931da5b68e5a8524
    0xd8a69e78d351725a3cdd2cd86bc21ecf0e37fa890975a652ca4d6c901a838d3bbe13b4636e65d6010f6ed875fc55f0c
    0xe2a5a5938cadf59e8ee906da9fb95d7a874ee89478821bbaabd0162062eb10a97c82a8a8beaa5bab240f8663270bbbb) = true := by decide +kernel

end Verif.Vectors
