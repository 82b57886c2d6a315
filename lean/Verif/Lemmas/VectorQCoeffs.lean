import Verif.Lemmas.VectorCheck
import Verif.Lemmas.VectorDCoeffs

set_option linter.unusedSectionVars false
set_option Elab.async false
set_option maxRecDepth 100000
set_option exponentiation.threshold 100000000

/-! Coefficients of the quotient that belongs to proof 100 in test_vectors/compute_cells_and_kzg_proofs/kzg-mainnet/
compute_cells_and_kzg_proofs_case_valid_4aedd1a2a3933c3e -/
namespace Verif.Vectors
open Msm

def cQ0 : List Nat := [
  0x21946b6b14ee12141895f0ccdbc6b08dc43cac0ab0d97ffa1557e2ca2e032319,
  0x1a25c8763a30966fe2c189e5f9b9f4e3db678c2d194423967f899569eef4f6a0,
  0x50208b1f4cc0db60e0e7fe641d2b6ae7daed60df0859cbcac62ace9ce8a310ef,
  0x35622e7b921f2f25ba8b87867c5d7c0255fcaadbe858c76ede3341cf51ad1e8e,
  0x65829c5f6b29a1a27ae12b98707dab59333bfbc1d7f180597cc3e9c5087b862b,
  0x3a08af75d5bf73a2e0d4b5727cfa70737efc4cf21651dcdd484e5d6eea8745ef,
  0xc1c45315f4f0a88afd638af25d36bc739af24e025dffbe652bf9353aa40ae68,
  0x3dcef6a0b9ee9554491f4196d21803906e3756f5317053f5ad84997a943aa8cb,
  0x373a84856c4f3c3adb12161e34e7304340e605813dd7bc3e042404a0c4f48dba,
  0xfe82eb7ef0c859c9508e1ec8a0c0b9f9004e66c5d50062f80a2902753ad0c04,
  0x287a96fc3b55a3861428e265427044e184a6a02965ca68f752e6f836f673ae64,
  0x45d14f4dff0a60d471811e2d2ddfd387c7b4e46a4ad14da639afade7eac2ff70,
  0x3cd68b5240d1fe4435c9671ac26624e51f3fddaedd9d6a3f6c73fc7c8e669b79,
  0x57245b1c4780baa56c07c8aaf881a6a055221c7a296f171c1404975fba8d3d08,
  0x2ae7a0bf0e7d14ace1f33d89e39db63123cc952c04876ce4fff637af37a654d8,
  0x117d3b5772420b8b58e2aac26eb054a1df114539f1f59704533449f2ed24a19d]

def cQ1 : List Nat := [
  0x5e8fc691ff3c3e74d2a83bbc49383dee77a5b4e45deaa6c42620ff08c1af4857,
  0x8f8f9f4a3c8668b6c3686bbf861e6193983859acecdd90530c3a1883f2acf8e,
  0x55ab0e56bee981cd4144e5478566bea621f14b8f4d2c69145508c403e9bf7330,
  0x55bf0897b0ea3747789e69cd6f08c15d5a763e7ca496ea87180a760245d16de3,
  0x4ee641f42a180936c56742816e98734f72855ce97c9e4156115a5402d9438c0c,
  0x66feac054836a22bb7ff99a3a56e351d2faacafbfecf1594b1260fdd29dde32,
  0x6d8de8ba79859f5b47b847bf6a49edea07dc47d609a943ba2f52197d7bce3b39,
  0xefe0423ca61a5c2960f7c26cb82cbd28ebd0bbf9cf5f698119adba00e5b9f6a,
  0x56cff605fb8bd5746b427a64f4cb688ccdec638fe5113a679f29b431dcd2dcf9,
  0x650f0d3c1417b1736e7735967214ebca8137278993f357fd6f1caecfa3f6a62b,
  0x4b322c89e3c5e42708bed495365135a7416a9c4877a6c41eacd27349c41896e9,
  0x14d66c249dc136061c6ed5bb2970ee2436502672ee93d2d75e6da98bed71b1b5,
  0x1df17b262d3d0393c261df4ead507396b22419b2a415dc898818188fd30bf31c,
  0x1987feb3e435be449aadb38b042866dd21c3ebd5717e372c2564bca5bd3b9bc5,
  0xfc9dfa532354a000788c0e361990e837dd733fff5f50c0a2dedc561554aafb3,
  0x4f2ca7ebe6db9998665a09c5e26b3ba85d716f60c5548ddd15bb202485711541]

def cQ2 : List Nat := [
  0x24a8689f499f07b9fe6d18332cd3f08c3251ef658588a3508d01dbc8641ddccc,
  0x314b14b209538b9428784294206643db9389d1cb2adc17b6eea0a57acc5706fd,
  0x64951cace4c9a78022f4b287b92a1a36cc9c4a556378f9616ab1cd773809d897,
  0x2084efd6decc58e43829e9965aca45fed830d0426e64becab1928f7e554cc522,
  0x5e4192354bab1b109831f4a9ef50bfe27db1b21bb07f187007b2223acaff9daf,
  0x63088bef3b0aaef2591593347c4019ced756520b9f0331c9b917d914fe329a32,
  0xef6db71ce4d21e8fba6f4b13e15c543dc84e72f6dae31ba34b1bccf5369667c,
  0x599423197f13baf465360a06ad31f1e4de96326868a11a494273b31aeb8d0490,
  0x65ff920bfb9d62ac7c2bca18a828f85371889ee14ccb4dd19027b1f971247f66,
  0x2db100501652bcc0a454cf8943bd17d2b3b6c38d09c296e32696dd363fa08ef2,
  0x354ef56e413800b9bf6986d4610a8c85ba17b050bbc968f09180a2412bfc60c9,
  0x30d99c76421e9463a92227559c3c9ae23e590b77490fcd4cd155503b9aff4eb1,
  0x1b7cdfc2289e027b6a9c9140d8379e82b0d5bfead9cf1cf04fbdaa2b54f2fa36,
  0x2cf345817cc189d9acc6f898dfb62919979a2f75b5f4d36dc2256d0e4fa1c158,
  0x536d58186362f27713f822e46faa61295584c27f002cb117b78dde277355bd12,
  0x1f96c20d5209f4d677d3bd9740703f24d4def430368785e7332b425acacb10e3]

def cQ3 : List Nat := [
  0x46147c1792cb3da1a26a95969d1874d9766e11553e1468d8b5766c0b238030d7,
  0xb1cfd19c1e486b210ba41c8d3aee044eba1320cae0a12f15556a3554053e481,
  0x21e3011d4d3f0f95affab6a2e0fccc457daabcb4d2a1738a44f9a9c4cb098f52,
  0x6705c584ea15deb58ab224f3b9fe209f7fa45514f0b2fbf7a344f428e9b18df8,
  0x341f094bb68a49c87d1fd777c85bb9b7d69dedc8708cdabb0bb6e4cc94d966df,
  0xdfd4c1eb95d499aa270c76237c670ea09de118d30b75416a5a72eaf94075087,
  0x67fcf3ad5625d9698d25ca3edfe73253cdb415f7660f3229e5f4a3dccea8d0d6,
  0x190accc3f573ea304d8aa2b976dea7101bfba39c6fd21e705ee0dd8b8eb68d7c,
  0x45c0e8e9c391be7c98e30fedcdf362ebde656698aeba01c874a918ccd7255789,
  0x12cec3c6600f85176cb349dd4d89b87deee679480636f4db45409678d53a9a6d,
  0x3a0da24ad981c1c5e44cbd74c622620bd39a168b0deca3c991c19178bd322629,
  0x486a1347ffb49ede1333cd0910f9ce057c34a907f76130d72e7f4de8f8d4bd9,
  0x34eef5ace1f68322035c6e4d686c00078c7540dbd2b27ea832dd33bd1eef7c44,
  0xc278c85118994d09e8f0748e1718c932b984a747befa77b1b4e3b5c6d13ee1a,
  0x194e4b498947d83d0d7826715795e87907566b98f3d8b083f33606d8bfe2a7f0,
  0x6e4b06dd5130cbb4462931605f7383c260170f2ab8d7364719f8b6d2d1638f4d]

def cQ4 : List Nat := [
  0x167ba3d8480a918dd541f8beef139e0fd905aa50bc6c28de610b2077c0a690ce,
  0x8fec555d3cc1ee676a1700c60d8c59ffd8a92b24c3fdd806a46796d3eaaeadf,
  0x22617de58917f93d2d15294f23fe901c0cc2518d9c1fd4c7a97d2ea9249d0dd4,
  0xc78e2d5012e69c0828d227a0b250cd6b3d2a1eaea590dd24f4f0dd9786e581c,
  0xe068d75ef240610153cfd8292bc9d2f0a056c7249e632f2194eebc9d16fb9bd,
  0x67ee2d8763ea497f8af383e80a1cc2d6a67f4b9f2f7461d4863ad7acb5b2d227,
  0x2d06cd04d8e09a3ea35197993a788687f68aaba4ff8a0de8200cb2a7fe71e549,
  0x18bc151d7a7042bbc335dc20e0bb0f65f317d5f5b049344dada227c6aa7f6550,
  0x73e2059342918777ec903140ee5eff93227db1e606cb92dce7a9849a4c223fd6,
  0x37b2e578e189f1bb19c9d4d79803c7e26166f715ff2b857f8ed48513d82180c4,
  0x6c78aa16702ebfad7a6045cd28c47ac195919549b22c38d5a15505600968d070,
  0x42c82f325fa10fa2801e8439732ba20de1feca3cf410ea0767a1eb318069528a,
  0x599d50f9c69c93794e5126ab9d17c2080dc01b016a730c7c352101bf3452fead,
  0x4ae8b5fe1dc7bca38d96a4cfab2b8f1e16685f7beecf075c327efd51e8a633d1,
  0x24f1944511f7b03fb953e1452a973aac52c70ca898897052936aa97036b98118,
  0x32afe45b055e7b47c3e63d2ab6c8541f54fd6345fa87e11936b3a0cb279d6e97]

def cQ5 : List Nat := [
  0x176a0bac0d99973105f5efea02206c05f705aea76c041972198ae42e654de6b0,
  0x188026af00e45af115cfefe01f0e6b4f4dff8f1bf1df4a74760727c1b2fc6b05,
  0x53fd742849f2ddac7c273a17509732b3126fbf511f8e96538b902e495f1835bf,
  0x58211493aca70fc40803c86363e54d3cb778c885f3bfa27202e08e3e094b062d,
  0x73cd61f71238294b68db1737877b10502e110a12c62b05ac41bc563cfd5927bd,
  0x816e51cd952406105689b920d6a412fa70e7e0c9dfcc1047cc0f5c6fc94d180,
  0x3ff67f1dedebf3bc01a10418720728686cdc822431e011a65508e6c2456aeb40,
  0x5a1e7bfbf291431a385d807dd083b9afcdabd5109f9dc4bd1de095bab96584d6,
  0x4e5ff875388b89d29443536070486fefa9c7a648f57981a46766c45d83dc4c60,
  0x5cf5469bf3cb8d5e0c7c9e23433e85e49a7f9240c66a9b833340a52a34d0769,
  0xb407361af88504f753abd888d509baadc61a3c8830b7471718896ee347e6cde,
  0x3620ed1c8f12cb5d59bf80f328c87f8d82d6a960f06fb68f4e4e558039e27588,
  0x1e72ddbab1930b8b3859139260ab86555edcfe1fa436581d1e8efc50bc28b5e1,
  0xde85194aaf7ae03d5c24e832f2435104a7d7ca2fabfd19f08674cc2b4d900df,
  0x7326e349d182260ed56b890376aa56674c7ae863ebb9a7acd5db979b4c564f5b,
  0x4d239f895f90a7c068895c5dcaf352901b7cea10910433886704bf5e0caea648]

def cQ6 : List Nat := [
  0x2e08c521311f240ab474930b3de6b81977cbe9ae16743c985162d9236486a9b0,
  0x6275790681360aaa632288f69161fd70fa85300ba406647a0dc4e59f4582abd8,
  0x6c630ca83ad67c431e44c5dcdad428200c99f8fffe6d7d6461e076f24382690,
  0x61c497645b60fb12ea53dd73e293ede1d93ec315fabbbc4f79483b2cc3e0fb5b,
  0x1470cf67883a289c463a9101357d7d771843edbb6616b66c2389d673758ea40,
  0x611bbf458a39cb3b51321600174396e80fb1ca753fb24b737638e82c0eaca612,
  0x24227d138c78f912dd379ef33ab5134c28106fd94779c78429d0f2ef4759de52,
  0x670733f0aa5241a052658485c1cc60d23fcf59005736c6ce1c08570497bb5ccc,
  0x6c1c46567d95938863adb8b0aa1d854c70a7382adb5dae1e45b72fb4af413533,
  0x3911d7b05f4a7475eee0ea431b4ba339a36aba8d80dbf4e62d1ac1a796095795,
  0x7274d958cf494d2b4c5a22b8034e713648e49ddc73bd2c546362cc6c3cf7a76,
  0x17bd299e1ed288691267fc9d6277c25bb81bcdcf6b1002248c622e888331d210,
  0x34dd448850229712d16802c63e6f102f4d0003a689fa41bc9967bfa114af14da,
  0x35bc37218121f4dc61f488bf31b9cc079e73c943e3d7d5e58ed986457c406f4a,
  0x63225ca8b63b0b191f54a38bed6d8f27bdb57897b75682a1449d7b1e23dc61f8,
  0x3fde873ca79d9f0c2df8437bd357c76023381ea6dec872a3a25402b04c1f94e7]

def cQ7 : List Nat := [
  0x52aaa9d25fe669956b2d54d84af40ed553b2322216e9c1d2e32ad98b82bef48a,
  0x2d41ca3633052b47f945f3340dfbf611b60079313953193a5ec822bf917272a6,
  0x18decd908c98c69945ebe51f4d74b6171e881cbd86fdb197c586ebce422ed3d4,
  0x3152c33492d514bbe963104195662261c575e4616b37bd8635428891b4276131,
  0x66b119fd459495461f5ece47d06972b4598db898f5cab235c2c89ee39d67f7b2,
  0x1a0891fa2e7af29e3fd1eead77091cd2cea464ac79b994aa078bb246fcaf6359,
  0x44717420b77541de382d8b57fca45bd19f5eecc18d8d410edb6e69da348a409b,
  0x1284785b4114e8ce437b317f88f121a474c5c26d332ac954303bd709d5ab703f,
  0x3e81342aef92875309b24a76570f66bb149c197ce6803d4de9f8ce58f7c954ea,
  0x24e2eaeacc5b3e2d12ed7db62dd0ace25b9f53c00800cd31cf99d18e126413c1,
  0x7b8cec426d91825f2cde354938728793f6f7dcfaa40141bddc47ad09f0127d,
  0x1cfbed48469e94a63f0e89b8d25c4259c1ef8a8cea77a4ae1d2050da6d2134b,
  0x438d8b0c8a654ce54029ff42b38afac3c94fddcaf6fad4e1f5ac0f23f8a06925,
  0x3dd36794e4b8dbce556b23d52a4114ab2ca6195c2fef7a566f57a534b9e2d6fc,
  0x60751b581ba86f83297f81338dfd331d0e7643483fd9cf0237716135ea2c06bf,
  0x6bb7ca83b08540eae60ca063ab4532e861a308fcc8cdd12bc5cab640ac261623]

def cQ8 : List Nat := [
  0x2ac8c4434a4c1a047d068e4271c4eafae45e92fb258bde27ed11a9a39022907c,
  0x480ac2e3012b13a40a29f0dbabfa62b72fb00e255cc4f6eb18b6637d6068612f,
  0x51f7b89ea8200f2b5878a923323dfc9c8c1b844cb0e734b60196b5d3b0dc2dac,
  0x465f27542e0b307d4dccaaa571c8e48b53093e47d1468d731f4e39392086e3bf,
  0x158cec9f2e1e1a905faa9baf06a500bf6ffa929d829d1dd8e8a88376e567c3b,
  0x29aae9dccef9027b62fbde7cf3e8b5b48d617672131e7d98142c5f9cbda03083,
  0x117997985fa80fca350b76d10db22f579c5788866eb81773022c5bb363c4eb29,
  0x4736ec2247a6d8daba29b680b8accac6588a1f4ae1d5192ee1b5ad9b4d6262f6,
  0x61fa9b280679b04a0927cd5c514dcd47f6fabfc408a8ee8cd2e21295b7ccc1e0,
  0x53d53b88b727a5a97c1d4f38d3e4ed497be0106a09c4f55b1df04f7de9ecfe55,
  0x5c79094c9947516ce389c7abe08dfa7628b364fc49349766c39658313f3fe96a,
  0xed7307c0bdc21186ff807a2e75d27c3539e32b0c8834bece4c39f6f819d0eda,
  0x21098e8ea9c6f6cf0ea8336bedbf27030921727c3377e358a799899cfadcc5b1,
  0x52858217f7560c6e14f7931ad8449eba2e8394eb1423e1fd1f630e2446019fb8,
  0x197c42c4a55a0b40bd27dd6488fb62263a1e92caa82c9e6024dd56dbd882546c,
  0x709ea202fca2efc12ecbbb6d106b24e10e1db764f4c44953a9fe08dbe93c85bb]

def cQ9 : List Nat := [
  0x4942cbc2de303c60b6d8d240f5c6e6bdd9ddef9b98023b3a582810cd3b4b29f8,
  0x7fa5cc8dd6da99669ca26b3d66754a4f63e7863cf9ad46363692d5d71cc243c,
  0x155c84636d33647718d1b31551f143e76859fee7f0029719839fdf489aa64ecb,
  0x3570c510b5b92be1183d3e4c482f8eec412f270064649c1257d0ba76e845830,
  0x3201bf9044519fa10abd90eba7d49fa96f683d9aed36d9f26d8c09f50042d018,
  0x1b3649b18b6f1361397cc10fe915c9d5e08da8a0a16516130f4690714a45baae,
  0x97371578cf9340b6c86359c1474752b67327698ea1edff42c0263beab378d7c,
  0x41e9953d543e2b6c4ba4c1b3ec07965d42676a2b23026db0c35d3c9c2d7a456a,
  0x3188ffdc2920d90874662cb4edd43fe89e7c59af9e40431774bf6517510384cc,
  0x560e197911e8886ed6bd2f2d8673f74ea8d28f4b541cfd8423f1bc655f278c08,
  0x3d10a41f3460bddebb7fa75b48be653362b208b856c62da3975656714ad1b4c5,
  0x4460c8940d45566c7ce6036641d29baacd2eb69f0f29bfeb7fa4d8e38b8a93be,
  0x1edfc06a38c99945ee8810d84894a9c2d986def67f3dc98c403adb56bc12f822,
  0x43b47289e3878ccd8da2afc00bbdb08049f76c1a1eaf95077b25dddadf2dc48d,
  0x292dc4dd5bd201bdf885be9c6a0e6acebb1dcd86465d8b9baacef80cea02754a,
  0x40cbd7586464481be99b99593b3dda41a66ac42ce19f406c69fa3b012710fdbe]

def cQ10 : List Nat := [
  0x4e468f32de7fc1a083d7e42542ba32d5398a40110dd749da57f6414b1fb5ca9f,
  0x21d60e3eee81949483620f72b1a20c53a3d2e9d99c75d1bc64c60cf0ec40844e,
  0x2c107429cd763c7fd30d7ac8415c7844d63fd3fccecdf5ae6df74d2c8e816bc6,
  0x34765ab7bfc9edb79478dc6a7bbaa28bb628d1b5c4f1ab54fd7b8e72e632bfd3,
  0x44f30bd4cf755fac6f597361b5f224597e8fd5ea0828932ef49425a99e8fe3f0,
  0x223d4fc22f33c6383fb7743e85a93a100c1ad868119bda9ce68c8fc44cf9cb7d,
  0x4aa5615975dd191753e428ec868a27c3f79fc0e3379113046ecba18cfb669a99,
  0x146054c07c21a01568cc47a7904afaee86f6f7725ce5d8bee06dfbf66cc6cd46,
  0x32124e9aca8b40b374a0b66d37f63f90a16167b1633dda8adcb168fbbaef47be,
  0x33a8dc90ac1ddaf0025bc571515faf78281aed82ce2bc858399f50159ab51f72,
  0x3d2384ba7a607d673c347e14588fcab71c9d8caae2fcd3f2d6a1195416ff1e2d,
  0x70d1871b4ddb54edc5bae3833594bcb21303b183002a14c02e1dde4301cf8f32,
  0x57e94a503c6a32abe6c0d451058b7bc694a8ca28d1db38b478b283a2f1b9e457,
  0x6d1ac1908578d8ed1b90a0b6571dd33729529797189ff87fb59b1395dfb91171,
  0x5628179b1e0ff10365d1c64f1ee2b1485ab23d67c8daf7ec61db3a5815f6aff4,
  0x6376a1b1dff9ddfafd3b3105f9bdc57623083b83740e4961699f0e3a8accf1ca]

def cQ11 : List Nat := [
  0xccdf230b00a1bececa35fadd092eb73598acbfd8e6ffbd95b5f90170f3733f5,
  0x6528bb2212f9e61a324c00afb98a80bb9e27d745ec7c9b8f6a33882af34d2198,
  0x485e0c30a3a8f761fd43454b65bd2f9519973ad896a656957c1b11cd8bc90b6e,
  0x1da56d008464b4dfe6219f0d3f1b353bbe732f24abe8334aae443afc014ffe04,
  0x25375e13d3c6386e2d42b08ce8c8f0fcb234b1dfc73fbccfb3a1ca207249d551,
  0x338f58752f760345a1c6ec962fad1a1c5313c49e1c4c35e919cfaf12aaacab45,
  0x589f99085deb490d83345fb9cbc10274036cc026190a7b626bd30bc24d1064fb,
  0x3595fa5a3adde713734f749d26a74ea2aad8403d9aaf1a31b8667ac875a14625,
  0x616f773380a50c322aa442ea52b3a06ddb188166741d951207221c88f942c2db,
  0xddffb398845ffa67650df13c8f0382e424abf4f021c55b27a03cfbf6a94efcc,
  0x59bb432086123e07dd46811e2f40ef19c72f52aefabdf25e68d64c2cb2bf38a2,
  0x1e3ad34f16f3ffd7ddab7d3b93a86ed1ab7cdc1b4581f3232fec4419791e42a6,
  0x220660af1b6c7588d9cdad19330772d3e10bb32359b2196775d4f809a3105d99,
  0x442dec6b6f7f3b9e5b25f3c4d87dbb63342aa51e6ce78d9ec073e121928dfaf4,
  0x6a445e9e8f61a13aa40bb1de45cd8be87f24aa13ed2453d9c5a51ab7578e856b,
  0x23a720c529642477a413d6ae8a2ee99876f3159c6400de02d1563314555c12e4]

def cQ12 : List Nat := [
  0x35b92c6ca1fb49fc31f71668bdb657b62c59038c64e0b6ec2b3f14daee0eec59,
  0x611cfce9bd5f237cf3dcf33f7284946399404122a9fc40fda4ddf0d1176110f1,
  0x668793a67c83b7e6211a55a94a9c13d4dcfe771321adeede345be7da00489d92,
  0x5c5ccf8d8efa7f34bb9c596363d517599022dbb80783d796071ae03646aa10b7,
  0x1c40d4e24d6affc17976c09047f6b63a5aca516c0f023f4f2b3f797a15fc6274,
  0x26dd9d16ed68604b819bb48342412cb3146820e012be75c62eac4aacdea6710a,
  0x33d35585805a87a51583d5122b83bcf01e8ad73cac14251550cc1cdf75112e3a,
  0x27e6f05004dc46fd7dd7ee9df4f62ac4f5050196c61688f76c4134404a3c31a7,
  0x40522b0af82b89622f48a30d4a6255b135d4579328bd0d965da25a40e7cb6971,
  0x35b786805a99ac82546b4a59c0df15774118815141059546132d5cb2a690438b,
  0x2751c046646d33948fa9418ada7acd6b06569c310c6188c703e827c0638ade65,
  0xad5e1cd96a0d56f847180465702e3031b4591ef2ce1b3f2cebeb8d42b3686e4,
  0x63c6212878a2b85332adae0183459b6cc40bf3d5fb04bc69b843436a86b3ca0f,
  0x29c960c06258fa5bf550ab769966b8f97093841a637f0af00cf4f96c036a4033,
  0x18d4b5aa6b4530e37a2c5604d1f315901d4eb3ba8314e01c8618a194d80af939,
  0x499916581104402c7a7a506963b54de24525cd3241c2b931b5cd3f84977025b5]

def cQ13 : List Nat := [
  0x5fba94e0421bd79494fcb9314d9b7122da1b736d901d3365ef6fee0cb28ae57,
  0x4afe3f90f4d0f45aaf1701e1481eb854004d2ffbc414c7c3e09071d65b0e78f5,
  0x50a9df0b54ef6f553f3ed4b10c03ddf09235bed6a7dca37ef0ec973c7bba44a8,
  0x73826dcc93ecfb0e74767177a6ce1401d47833414cfe4dda18a868f1059de537,
  0x4f386bc7f10826151e782e985863c59b4fc25b26cff1fcba223d2546f740ac6c,
  0x161fca67d224cd6dc47e95097067fc97ce4ae01892eeb3c1254b2f610e91a3be,
  0x300c3e2c837c6a5ec23ddd433a3577c8ea2c64e1c97d7956392f08e2f9325af,
  0x5be1620a826c0d80422fb4e96391b33b1467ff789a56f29926c41c93d1dac560,
  0x4a8a3b190c24c56c1c841249eadf257a39e5f17b52a4385517f5c5b4223d4c0d,
  0x2cb9cd7f5971ed1105d070704385b8c94269fd440f6d2f80c90f565cd11f2350,
  0x17457193f0fcc86116939bf9888be5aae2e58446477eb514d624ab6846fe51e6,
  0x4b8ce08811d098cbeabbebf7dd44e6beee5b1805f17a35caf1011ad0d91e5e57,
  0x6dc1b5a1e4a8d339b6c6ad0023f50fcf3ea19f794648a8889cc7670563b5aa55,
  0x37f85177ef7dccb77b73303772f7473fc56adfeb674839603757424c2fdadc31,
  0xb42e30038cc32431cc3fcb163b10b2d80b03baabd3b65a5b5bfe6aefd1befc9,
  0x61df95226a0107ddc1b4026011393121c22c65b5c934ccbfd18a11fc2bbf9bbf]

def cQ14 : List Nat := [
  0x3081c02549933423a34879d4c646127d3f0f4e1f135f2f7d613fa6b436dda187,
  0x53f0f0db163dec1ecda9a5bc68b91db8e3285ab1ba19496a46f7291966acbdb9,
  0x19138115420f01ade3dd3c0512ff19b02a4d8bc0ccc6cf9a3ab713dc6c7e5c04,
  0x55c73652eb7c5e216367b021714632e01e8c6a8fdb37e5d9dc54dae6a96db97b,
  0x5e182a2c4a22fb732110376bf870c420c3b503df278dddba2f50a0c003f61145,
  0x9a4e7b82a45424702f7b5be319bd0c326e24a682c58c55e3b38fdb95d8181d0,
  0xa5bba21d88cd5461de64240727420f378f303860fb4a0ec1da756eea243a91e,
  0x5b1133a1ae4c4d0366dfda9ef9e79c1cca6f01f39965fcf43bdd2c3f97378331,
  0x6d706f7fc1ce03b9297b378402dee94a8a2956c1a4b661efe4411f8b9e3d46c8,
  0x6307c44d7e0e744af84eb411a62c69304f0b8704cad74ffb656d18c3197f0c0b,
  0x718a8bbe6212dc173c4b62d2f050903e02d049d620db6187837ec70bcf0777d6,
  0x4d4ebdd9136406ac62b4fc22caabbbf31ca3ecf4f6d863b05b8551d0d5823caa,
  0x3c226d289e7814946d53d84021b91d3ee485526cc992358cc85efd32a4f64729,
  0x3b35aaeb857cd28091e7529cb8f9e3329263380ce03989b93a4e7e1169328477,
  0x1eee755b3b61a841842abd0f952d7fcc6d9b5dc4a02616a3d98fb3c6d2161a0a,
  0x3bff9339cc6b6df1eab30fc9551a8a1042319cd767b148f530801f8105935fe3]

def cQ15 : List Nat := [
  0x1f6c359b12d301078ec9dc3f4332ca498512bf03f348216829c37710d35f822b,
  0x180aea8e3b4450e2d46a35b57c0e4b1e18b7766488983698615a452c22f0e589,
  0x6d666072e4fd0b1a5c9521990888116b22f56e6fb6184b33cf6becea146b70eb,
  0x4f3af557ffa34516e8671d405dec4f6c228b5bf3f088e3430494427e705b556c,
  0x4179bf24b5eb5473270fa9d3eef097f92467323381d61893dc4c26fe1c263af5,
  0x227ce17d2294dae9f13dd580d4c45f334b7475573503618523ad9d0a7bbfd2e5,
  0x1f6768b8a30920dd9f446a1af79809f3978621cd86f843e892cf9f0ac611245a,
  0x5540ec9d0f43dbca93310d2d81d51a335796469d4c0708ee0f7874ed473d1623,
  0x2a9d1ed728132f1a68672972793e9b177e47521c9e8187befd5addf6e7c8a788,
  0x1c989861f75dd1d61b430d98b082e9540e3694e5ac4a467a9708d2b1275521bb,
  0x3f8b004d574f5db706da10e6f34f600823a88651f96ac811ac18f0e6c64f60,
  0x525d5841aed2d6e750b9c34c9934312880933eaecf6221dd77d54c1ea274c33e,
  0x3bf9b96224118d6051ad9873f8c1a7da9828da4a4862bbe7d91f0fb81a00efdd,
  0x501f105397c7584ebbf47ca1fe3b2f0aa9e07eb16f91cad56283ca13d96ae78c,
  0x2ea428c7cd5f73f977d0cdcf2f937b5f12ef45f1c47e47871ec6d1ec0b1212fb,
  0x2b255d625f4774129caf23531b7a62fb1f3adfafaad9b38990b2482b5d50a38c]

def cQ16 : List Nat := [
  0x26265f1b0d32bc6dcadfec5f83e9ca4bae3e28ec96c934703de6a3d804e14426,
  0x4148bafd6fa078385989f6e69760c2217dc3902b2c740421ff744917bb3c37cf,
  0x2d5f62435123074432f83928702101c2587c6c2a6ff91c19f80d809c45808abf,
  0x11b978b20ff75c66d3429d5247406237736b9d893e599055d99a70e1b6b4b84,
  0x59c8ce819ede2bc84f885d73c880dc124190c17b7f341dd67e5bb7cc9b117379,
  0x3348dd055804700320a0406349c5c6233338a44726a5f5c6ec888d0a73ea39e7,
  0x4392db6a138d57795e6e2d062f5dd7343093c35aff4ed537b26ba6fb5d46fe29,
  0x5c9cfc56c849ef09555f3e7b1bd86d1cf94f8b212ded0799c726ca1baa18b0d8,
  0x1ac534ff09423eadc6067bd4cc33e1b53b20bd0006adf90b082e168061db5540,
  0x2f7d87902b4f0613b22d170cf87597be17b9fa6aa348e999aa07730ed26a5686,
  0x3d3f5e378fa64aa1bf91ea643cb783464a0d641a04053601b1977b036ff7995f,
  0x5ca52c476cc9c43e776512ad892cc3cd6fff8aa587a82326049d760d8f84db28,
  0x1048076a232a0ae9dc71130b9699bbecdeaf5e328c58975047c45771bed1567e,
  0x688b4425bd29cbe9c2ca11644fc79b1a959494e77cf5413ed85568a7ce5e65bf,
  0x41b16dd4c7806d2ce593a448026b5dc7edaf9f22a4ad5c48cb5e5c85e39af940,
  0x2e95fa332bc70d393982d55a8a7f078c3f11ec444bf8b6fdb2f8db74a9436815]

def cQ17 : List Nat := [
  0x3dc59e71795219ac396e66413c5ef20514e01df05a0ab459ce3d97dc2959ecaa,
  0x3973d703155499b3007d9fd17bf856715dee348f4ded42fd4f19d92ec138ebae,
  0x32c15edbcb72e09754157920ae86d0ec38059d07646578de9567f1cfc3932e53,
  0x1469230195075f24be8ddccddb534bfd58041b58a8a0a1bbf60e65d61c4e945d,
  0x1261f5a2d19481aa341b6190550a27a6399b370822de35e9ac6ed658522ed27f,
  0x2fc0e1c7ad5bb59e259c814665201a1a653e7c0195f179f38575b03dd7ee7401,
  0x70e558ff7644b9aeb39a26cb5ad478728fa10e1e1b5a3d5e673c6e9c9ba2dee8,
  0x28806179b6b2aa39acfe0bc4736e5a1f95b182764b6fcf97d6b248c78ff7deff,
  0x1e9326c4600eae1e0aa2d9604fda7e7995251203656ab031307ed3bb11d10f3c,
  0x6b56a5ab3d2224df4753f81b5fdc54608bbc6f9214009feb360d929fbdba9d2f,
  0x167679fb3ab13207008e5d8c1ca602eee8e96123155f527c1dab8a97e03a2a79,
  0x81d3e96cdde7cb5377da8ecd0f613910bda987856c3ac363c85d630c5d78c3e,
  0x5e9820454dc12850b135e64648bcf8121371bf30e3ab5add014dbea6326be6ec,
  0x2ef7c532c187221fd722947db8711f8945178917239270c6a4e96cdd9914903e,
  0x181d6c9468c535e2ee27e820745f535cf6e9426906d1a99010e95984df605d48,
  0x36e1c20ba41de1ad61491f1a8f62200095bba3dd2d0e33bb5014ac4ca838da12]

def cQ18 : List Nat := [
  0x3ceae08effe8871c1ca7d2cb58cbd901c3dfec24c82417bb23d2ed5f3cd75347,
  0x6f174bd111faf9c46a9218b3cb5ef0a5689d540e8739162474e8345392956744,
  0x179bfbb3f70985e0a4a371d065490c42729ad385f14f6610925e3f31ca463f22,
  0x3f7281a2811214d8fb9a7370d1097bdf92bb7314805cd660117b04bcc33c2035,
  0x1cbe68c9dd54e5d70fd9ed1c986458db7294b2b263f7474d2de52240c14a8e09,
  0x4c7670bd9a6b5642143549d8bb7985c49ff36ef3f6f7f9825c309279ec426659,
  0x2ed5dccd4bb282b278646a592672a76b821e6e6a842a9388b9642d75e2de53b0,
  0x193591888d0ed6936e4b74b2dbbe6a20aac4b397fe8d66005c8005e8a374b7d6,
  0x1d0c7da9941c24c7ae010c27f375871279bf10b3affdd06b921845c3d29df283,
  0x77f7b05227a6c8da8ff01cca8903be4d56758389736b0749e0617f7e543e352,
  0x681a38ed2954230a09e2935df34578698f7a063a40a818fbc22a95d3e847bab9,
  0x6e3983d4667c29ba82038809559fca654754260a42ef77cce55d754a2c8257d0,
  0x286b378c9071be2be8bc177aeae7870393a9ef9ccd4ccd3405ed80dc7ac54424,
  0x2424455df8ae0cebf963fb932f6b95eb2e2865bed41b6eaf815ca643479ea86c,
  0x6d9d31dfa616fe040ab34837f2f5b37f6ac1bacb712bca8b363cd24d59f318f3,
  0x467e29d86f09d5d881b0fded00fbe26d7a4915b895c9b0d1bd002638e977ee69]

def cQ19 : List Nat := [
  0x49ff187497449ce5e32ac667f5f5e93679b3a3f4f92dfaee3cf32cecd4081bfd,
  0x364dcebf2002605bcc3789de6edc10cea06dbbfbdd7871767bb0529bcc50c1bb,
  0x20fed746595509c716f7cb139b54a4cf5f5bef3fa92ded58ce47df2eb937ea23,
  0x38a639739901418f8dbc2eaec8f6cbc17144eec0de01ba9cbb4fe29ef62c5723,
  0x3ff467bd6bb78aec547bf78efe6e54da6a0c0905f524510dd263de720c89601,
  0x166595cd9ad38f2c6076048ec38ae70c0f951b58b6c461ed11fcb5ffbf041c60,
  0x3816e54882dd5c2318a38c4b8ae8e33e551390d6ea15164333ab5b7a5e124d03,
  0x37d5028c65d6c76998f162007536e5f418d05dc88d655eec2d5dc41e7643ce16,
  0x2f071949e31081619a45a2740131dadaa47ac8972d88e8170c06f909e8a951fd,
  0x1b76106aba7ea2d8cb33eac39b74da2538155d6d762ececc3ccfa6c402f296a0,
  0x1ea3e6cdd1259f702749f7dcef6888914291b9b11e534c2c42db95b924d1e76f,
  0x3929dcd94ac74e2a14d6173dd1e5c28ef4dbf464b33803ccd0186e726cf4ffc1,
  0x54c3d3349dd4fe75299e38ea635543e92824ea3cc29710bb3faec818c17b2778,
  0xb3f9e4a0816f31b54376bfe99770b1ab6f1dd9d14d94df94b02b0ff81c6a09c,
  0x37812c67b7f3e81af11b86d660f146be5c21c185dad9ef69287881498b23424f,
  0x68a206f2431420f685bd352bc3b49ee0e8785d68305ca6af18fa994ca98856fa]

def cQ20 : List Nat := [
  0x6908c66345c3dc99eec6a567c2dc00cc49e09b62c078b291ac777af1ff334683,
  0x65caac65a7102bcbee6540300ae6fea134cf6612e633dd29e66860950de0f49a,
  0x69a6d930295e9c7ed9027c74f0202eb26674e3363bd7f640e191970e87878f7b,
  0x6c48b42f2a05e567dbca69793830291cee5c46b4c38cbe5a3d8397eddb2b974c,
  0x1dc4d38842e49f95008c58e27675e55d81aa6befab16eafb68174bca364d495e,
  0x431b7d358ca583599aebb40e158e20520a2fc6fcb5110898f31975cd66064666,
  0x244942fbaf1e2e4e74acf31b88609450b8262dd2740cb9d25c6fe2363a6e4b17,
  0x4defd6999db03e00e3a1466f7bcf01898b2b50ca6cdaa513aa8b3f6112e6b061,
  0x581ff157012d5be6aa096427d93e178798b69fe06a518d6e3d87b79875ae5ef6,
  0x45b3b001856f5f5fc3cf729624aa9915198014d9be7e6e7cd8730162f351a3ce,
  0x6c524c52fb6a9f18516a1750609a622d2120b27147c457b0d96aed88728c5dd8,
  0x516c65b2dfe4d59ffcfe1c3b25a4b7edcc4917701bdb1939e5fa9a33d6483179,
  0x5e2a7bb1eb409472e607eb8c9baa8148f4ff35c1293aeb79d7a31488f76f2638,
  0x2313ca30650ee9c99292bf593c8cba165ee92fa04178c4c877735645b087d30b,
  0x1eab378a5c324b964b3cab9fd3a28cc37b7e677d5bde2b9cc5795229e5f6cd6b,
  0x111fae551fd865ca067616348de20befbd79671ad9b5e4686631290bd477eedf]

def cQ21 : List Nat := [
  0x37d2dd1e72f161a7d5a7a8c4d28d06c41cf1a23b537b57058a020202b002da76,
  0x5a71906bf590608744b601654e4979bac05f998b3846f7698d1dbd16524aa3cc,
  0x6feda842ff9a0ca4f161712660e9da0b9ca801775bca91aa81eecc174d4c74a0,
  0x245ac1954e215da6b7977eb9fa6e02447a54566db27e802f2a280d16dff946c6,
  0x36e49198f75cb4444e8ebcd97e8438c4c93433fcc14205ad6d7bf4f75f5b2efc,
  0x603b9fa1347735a34c136e82eed2cfdc9669e04f3c48048bac0c2274375926f5,
  0x61a49e93f01b5f0057d4f656fac309d74509dcf41bb30cb40b96a746e00390ef,
  0x33f43ddc0f22553261ab6b4ed8bcecaf595524ea92dceb8e3bf10b6d625a4fd8,
  0x5c5279fe9864c4ae8d31d87623e028b004735ee6d013874fb387a6f629dd5822,
  0x1faebafbf2fbe2633dcddb64c542a894193b9a574cbe841fdab8f9afda935052,
  0x6c9878ac7a4d22c1ddf7a1f20d28bed82c2181a2cf748b942e59252a960b42d5,
  0x396c0efebc594f192de5217b91ec6a91dfeda5d26d12a9ea95c47d65f471eb43,
  0x23b00665dc844b82175b1b2831f7499b6e5c4b1ef1c9c899197421fc993b5a,
  0x6a8be2b3bbe20ee9aba381c5e209a63978972be86cdaa99252a31d5d3471485,
  0x4851a2b31f3e47649c47fc640a7e20b5c342880a4ab926989c2e17709d23f040,
  0x65765cf5c5b706ec8800872d29626d9307e503a6f7e7f3a6d66bc1f2f7a4c65c]

def cQ22 : List Nat := [
  0x5d1677a0099284df4d1dfa87ed8686590e9e8698497f549dc399c4c4b924ebfd,
  0x6adf47984400aa52ccb7bd2b95408124c487151660b91ae220e45b003a0fac43,
  0x855e87304defad7a730267ed7c5521d4260cd9e95e76fdb9f654be7394c6ba9,
  0x411c10474681f55689543014c88a6744c1934206c5333c048122c21efa32aa4,
  0x4e9cb1d4543801fc1308557d448f676c0ca4cf1b538aa860cc08bd900933fddb,
  0x13a421ddd54d932f2b6b1631d8ef0ab85532fbeff8e023a44f3adc09adbb392,
  0x3dd74bab4edb0095f71accb6b418fe02e4d0ad2fb0b7cbfee9917226cd8949f,
  0x2a58889e61e9f0dec5c4d1f0c896ba3340b83370eff4117f7da4ec558f19b40d,
  0x3b9a4bc5c4c7dc81f24cc1e38fc1b6e7335db9cbb48c9b38e042d71779508af3,
  0x98af197755c61a72c21a9e8949b629b596fa632b3283010ade1a5a237b11941,
  0x1128de79804b9aee25074cc6db8a7fd5439a3512c49ff158e0aa9144b5c3aaf8,
  0x5d82e5e403c4797793f9d9ed03cbf1900190d8157dca65de2e2cfd69e9f24570,
  0x78dfe16a09ef04e039037519279185e228ad373d361c62bd93dffe1e13804fd,
  0x420c46bc1e0862b31f25eedc6bae46ebd1085073f7f606a45138837fcaa29378,
  0x7118538cb12218b1c60a0db3fc57013e8a2804ebee948d8ac305372d98977560,
  0x536fa85780c7d2dd4f73416d2398e1af3e6aa1ee32bbbd1069dda99b2056148c]

def cQ23 : List Nat := [
  0x3c244e83ab3de9dff95330b888bb44ae2f3596b8c1d537b1d151c9a16823ef2c,
  0x54033af5e7572c6469e66ba367c2c6844544a9697823a4230e93f65353d7ed08,
  0x4061c34bad2c173184a24d212fcab27122454525abec1e5fb76fbad8393b482f,
  0x315bb8c381a0d0c5bfbb8be21310036a41efd87f3270a22c5d6ecb9cda13f048,
  0x157eb5d499f3aa055d36fd703e0b1f5cb3cf700981b4b255233ee1947b0e278b,
  0xe09deb6ea00ff8ac81602263b71b8598ac8795db26947951010c40ac672194f,
  0x4ebb2abaa134cdf76bd5b6a57980490a0a29f8a2bef2929e0a7ebff47f5c41ef,
  0x1b95dff8d7dc1387d7b4112db5011be8c955a33ef4417db64b02c24e2c4f4b76,
  0x6f431895fbfc6b2eaebe5ca5fd9ebce30a3130ae4e2f4c91daafcca221bcde5a,
  0x737f91338f01bb69b652d59387286d4668e8fd456d5e2dece6c65d1b6e6b27c3,
  0x5e8eb648e73630677bcc92ebd15e6d501d20ee560693b05b60e0122e9d21dd59,
  0x5d70f0b90369995c86067a1f612eab73a241fa59164f302d664c49dad7dca61b,
  0x30c141695d64c81b66acaccf45ffca7f6ba73f48748737da54106b870e6f490b,
  0x20ac4f800eec34fddef9b9ee277ab98c658d3996696f05ace92c3fade0fd3be7,
  0x1f83d0368bfa201040ae67e3cc0e9f8f92b1898070b31a070963518b9dd640cb,
  0xcb64088b3e8637af1f7a101dd05cf3f4d3878108b6981cc9c19bd952a36b64]

def cQ24 : List Nat := [
  0x4d20c6837ac87ea38f7c01e2ee9c3ca9adbfff360170a1401357b6176d10d672,
  0x57ccbbdb350302ea49e74739a3af47e79f2e8ae9ca9993e054027b3d54c29906,
  0x1eb6dc89e44e3df6abbd57da117eb82275bcf41f7b48dbb22213d9f841a3384e,
  0x3b49a278b29a71d9bfe93dc36d82849d7c55eac754df978870aadfe5a8a85852,
  0x899968413749a8c48237acd4a4399cf68214ac9fe73dd29691ff1633fa31fbc,
  0x110a9f96143017244bf12ad4769b212948496e666e4daa15d02a4aeaba4f6541,
  0x72fca55d84f0a7455ec44ecf1b2e830e7cc0adc19c8a9259129312c1ad9c72b5,
  0x1270f575941abd69fbffa547903847c21f13412d26900fc11b8332879b1b94fa,
  0x476dc26e29a93071e825b8faeef7c42a999ec68527f20416b3b13565edc1558d,
  0x3845a765a3d0d8ac325b8bffcdb1c91b2bf97b25dc3d3967d44b3598cdd293fe,
  0xea9e49b3c088253416d1c479e5ce6496ebaa8e62a66a4ce15e2955cc010a90d,
  0x2098df40757890f151a916e615f5c91d0daf15d177e30990bae7201b883f519f,
  0x9bf168f969aafd3215c482257c8e66ab49cc8c21ce01b261cce09d25555b908,
  0x3566e68e42467c9b94e9bb59aea1162b6317ce2162ee126bea0ed73aabaa9d39,
  0x38bc8b23423e24db2a2f60c8cde4e5b9ebe3960dd8e511d7e018ee5ede468fe1,
  0x20eb4c993df8eb7ee80a19a022fbd020057a40d3da743f8f79f8862487100c9f]

def cQ25 : List Nat := [
  0x34acfded158fedcf606309ab885de15a01e95546e8a1141471c7716bd7ff05fd,
  0x1d38a65f30497b9086c5377707f76d351264f52cca9af3f5cf87e95319bc1974,
  0x27db6ef2622502b65c9d5dbebde5c4373696cd7fb0af6da351750d3e00bf90e2,
  0x1838e5db5f95f28d52988b8f74af090c7cbd82feca6edf2999407f8cf08872e,
  0x363249eeedd7b208b766ff254611311dd086bbe02644c904c685412630a90a6,
  0x1eba64d725ca3a7190245c33544fd5d4949253cb12c92ee1b95feacc90026516,
  0x4b14d4b47602353d377494156fe99ff2913a3a9f5252f74d6a5b5fcc9214389a,
  0x35a590b370cd45bc881755e434f8aeceb4f1835bb3e57b468cdac36a78d4fa91,
  0x5eac97cf54b505092d40b8c5a61abcb87b6c098c053300a96c2c4b3352452b77,
  0x1827ae8d7fe369ea5ad4170d36f47d18646ec6738b4b6aaca241046176c3c575,
  0xfbe50a4b085f7ce63c16cb5fbb1f01500bf11c52d0b98493d851e1c87fb56db,
  0x4c014504d4ddb7e6e0027e1f6a9c706b4ff24a7d219ab80eedfa75f2343a5278,
  0x2bb8de62326ec3a14c285d649ae9deb5f83f772360cab3d5f278c2eb72e76bf8,
  0x4833fb116f7709af5108e96a3aa1b93687a9d6e82af7f0365a5b220546eef1c6,
  0x4ba393f9453fd9cadcf286abdedca70da0b883384191a73df0a79b1582856c91,
  0xe78165e368156ef3c99c6c31b6036bd84b7e3229bb7ecf0c9ea1a80115e133c]

def cQ26 : List Nat := [
  0x6ebc6a74d221e087d1a15bc30f20b2b26565670f23cc54e6611df49fb22aa622,
  0xc4eea531fd93ad7797b39c529a0c26529005f76eaaae64665d3485b1f534319,
  0x4fe83b569de27af71f67ecfba21fbdd35f425b44656535616f9055613a52e4bb,
  0x32c4d20d6daf8640dde4d7fa1b0197fe5f0fb8352a576cc2a110bc21f35a9ebb,
  0x5d500d9c0bac053490e8a9aa5db08a193748dd96bd0a6abf2ca6b03974465a35,
  0xbdd84877774b04d5ffff17d7a90c0a2a795875b27a8d5b2835ba465c91ddcd6,
  0x1dd63eba5b0994946864c35cb8715d788b8189c884bc01fa8682aeb540a32929,
  0x36ec7c8d40864b0fd198a9bbd4a6e568feb3cb8422942803e849fe52278c2535,
  0x49025bd7e7a96d2c64a6031607be235d6dd0c8844e785daf1fe31acc938ce573,
  0x58a67727a756c6c5901601fc5f894a6365a349ede0b3cc88642cfcf3ada14e8c,
  0x59684a9499dcd5ff8ac68f6701556e79960681795b708d4025609fdc766fa17b,
  0x26b591b3a68fadfeea1ac5064fa0cf130dacb60097c8cb79d2035b33521cebde,
  0x73e129319c514257d1233a8ec56d3e30a7221c875118288c58c0414fbc07e5ab,
  0x63f16c68bb0dedcff5990d98b9e3be595172e12358873f7469d2b286efb34ee2,
  0x1c68a4dfcd3bf331263d1c843445141e2da19d53a6c876e07af8864ef32ae5fa,
  0x62793a964c200a101cb36d3e62f8e3da7a4dd866208e5a52ed56277a0e9eb4d1]

def cQ27 : List Nat := [
  0x23b56939788de9bfc40216579516cbaae5d509011226358a37e85147a79f862,
  0x67e2bf143e16a9e5acd3be4da1ac30cb07c268768b9fb56692df2b2ec6ef5aaa,
  0x694de26bf38d0ac356c61a312eb4cff7d7076d957fcd788d5d7a7ee21e80ded7,
  0x6a13cf24f04e7818389b8f41e52489fe8f2a2a103f5085c41a8bde9e92569341,
  0x6fe07d568d94204223a2c330c63d6a263dbbca814a45959b6da11ae27616cbc4,
  0x6aca92f1650ae606cf98b648f05ba70e68d5c75d56d0d8a3e785329621f12611,
  0x33b2e71f5e42fd0c50b9ef02ea72facc0408965d0dd3c251a556b6007d3a7a3f,
  0x6060a019840c9f7593d4343dc79d0a00bc536ebec435abee4bbefdbb14e2184a,
  0x56afce31fa4c0ef8eba1052483cb7353c6758b723599595d6a233bdea2df9bfe,
  0xbcd21036cb120838ef59d244f62fb98c31b07dd50077b4354db409c4ace0658,
  0xd6ba1c0c30d0f4d93c5393640eb524814e6f791bc716428c471c82b312257f9,
  0x347b82e8e8c0405541e2e3d768e93c34a47f08b5176f451c3c55aa0c6dc879a0,
  0x21173de91f6799fd0b0e67a741c4db85350d4fe5e134fcc042c7f9131e419d2b,
  0x4db234c45118f16d162fc4c4dfcd4b3593de61538b14a7cafd63a42059d06dda,
  0x3522c07fccb73a00be5f84157cad3f064c293b51aa0ca28d3e7e541a7ddce33b,
  0x19054d2d09592af8c7671c0a39cbbaa2c118de5de9939d1ea56860e064ffae7c]

def cQ28 : List Nat := [
  0xa2b1088b0299ed67a53d7627344d5f3532920a60c0f9c82624e6e0fa8f208df,
  0x3f1e2fb46b945f345c2ac3ad2f1fb770446d587d14ed98f62050ff1ef0855e7b,
  0x21a9a1d0adf457c866d0caddef6e68d3cba6fcd71e8cc13e2c643db66b13f511,
  0x13bc31e623cf97169420cf24b6c0d19c1369024065f4898bf98c0bdb78dfda7c,
  0x41b8ee03903364f940c1f626c99083d58800bd0f4fdeab233be0699a5100b25e,
  0x57a5bbd8543108bf40a773d931b3b33bcfe3cee951cca223dfe9e764f94cb09,
  0x18846b984e3f6da4489d090f80d45afa85e6544f4febac9f16fbd2c21ead5679,
  0x468922b8a5a81d459976be6f5b89eb7839b8b01ff8ab3a11e10727107cae28d,
  0x1614e8c2d8dfb71faf4dd6bf7534f055d5fecc022d5b84ec0b7003127c29d74d,
  0x38021f2a95508d7b047b4d63e6dbd845aa93fec92c8909816ddaf7f23a89c3e3,
  0x7002d141374e3a04fbc679d46443db34133e800883e334f4c8153cdd62e89b51,
  0x4fa6870551c414631e435a424bed1b021174af2e0eee4a6f0417fbab89f70882,
  0x148b504c1660a06e5171abc8bb221583af2e9d22bda860cd7f46555c18871e34,
  0x363ef78a8c8a4d9572a6a83e06c885e43c86ad209b12eb7910ae9a003bee1106,
  0x1d27f39e7effaf9f425a15a039c8faadda5bba6983b7e971bb2ddfd9c890647d,
  0x92eb625cb02f4abb5283bf42560bd3f9fb4fac4ec60da71b4ac2aab99c01944]

def cQ29 : List Nat := [
  0x178c70fd42c8f8bdef9386d53c8e338cb21efa4899ec5fc8a76a408825cad4e9,
  0xe15cfcca4fb760d045a945f47a5613301ff180b35aa72b31adfab4efb669d24,
  0x35a7ca7fb58f68a28fa19f8b5abcbf262f1dbdcbf4e7e9f1c94903e36c14764,
  0x451cbb07f29c6b3ff5cbce2839a4ceffa9796c42caf95248d732c3b0c2487a4,
  0x28b1bde65f0de63dee876c3663bda16bb27538a471be05cd4a5b67737e156146,
  0x710acc66c164969dbce9875431ccb22d1db8ac88d030fb4a0ab4bbd3c57449b3,
  0x30b3af4332efd18c41c084462b2b9a2bdc606341c278fc0ecff0454c62d4f5bb,
  0x4bd33bbee3c2bacfb44b0f2c8465cf594860429e9b88e27f86b16c730c4b2285,
  0x1c03e8b7c9209b9403d30b264a73cd91c9c2e329d4b3b0f196a046817da414d1,
  0x4f505f66fab378cd552c8dd5e5caf8660772cfc1a0fcb6293a6b4c2fd404f83e,
  0x3a28e6323befa4a8c2cb952b9206cdee54ae27fa21394747a65c1863ec85f98,
  0x56731265c8a8bc236f21e4ddde2f11e62ee9d8eab953c8e6f48f06f2f00efd26,
  0x2e82b909a04b33b5e40b874c78dcd0be00de8b7482b66d6c2e03f6c18c786ba9,
  0x27081cdb2537974a03aed6702e89405e7428f01163fe129a67b506b81d590a69,
  0x501b580f1ad2948f2e8e94019f4a3b16300f1763b0fdb73cd6accee51f82b20b,
  0x1e0555d3642d5047c222c884d6759e510959c98a7fdfa4f027a5bcc583c5b38a]

def cQ30 : List Nat := [
  0x598e34588ebe80be66f9926a8930e62e89deb36a6b0231ea26c226d09b49ffaf,
  0x3496faba37287e813bfbd0fb3ee4ebecd73cab7711d320c2c256b9952e8cda3b,
  0x651aae4a80f554867fc602e9b0a15613c40f9a8560b41e985383d31f8db86b70,
  0x275bb6644b38f72a147a991158cf082a71362878fcd35cbee16706fb782da5aa,
  0x45930d330a950e2ab0798fd99e6825dc39ae91e34f30cf0ec74c5c038ba7bdab,
  0x6c5433e0d141f29a26bc007416c4bf49f2f6c08e17e0c8b83064c8888a1703e,
  0x597803ac048a3829781cf44c899ee53db4255750dbac79ff4589f0695ffcc5a1,
  0x6cb5d95b31f6a65e791c28702379f197bdff9911f6ce288ffb10478d50a6ef1c,
  0x5006a4f2059302da18f85baf97eb7abd16310b00180639d8975308212efd936f,
  0x1925227eaaccb34a703d1a55404acd9590a609c2ad66d630afa89e91bf4636f6,
  0xdd4631bd1cc3e8ced09076d60754ae87cceb361d8760df3d6da9a4bc1e53da7,
  0xb6c2ec17cd4b0a25f48496b5469f3c39dbf0a3bca8867c8a8e4bf04b96ba298,
  0x52ef29fa23ac3fd7b3f76d45def9b21d8f0c2b109f1f25424f8b190c4a964fa4,
  0x6b9d4b1fbe0c9120c7ae1926f397ef893c2835ff80433b42200ab7961143f428,
  0x430b1761465488da4a021d7fc1c65985b250a80d37d8449488f4511008db811f,
  0x3162d84f7f4e594df694ec2abcf3133a22369a03480e519e3a3e75fcba4aa3]

def cQ31 : List Nat := [
  0x3179a71be970a974d214027fb9616966b46f3822735e1c92c8f3cee7842e6e50,
  0x57935c8bbff50afc5b28822ab9680794d5aed8758a9a713db7da16ebd0f91f63,
  0x28a91d5ede6d64c1e9189b69f155c8bd0f391ae18ab673e526f1673f41066097,
  0x3e7d6e3cc883df9790bbf310b0be5ffeb59f594630c1131c6e317e76e3cd4d34,
  0xd7440449b385000c4efdc904807bca23756c5985308216a6297f216f220d10e,
  0x9cef01792b05dfb291e1879f6db75cf54179919b04784bd8ba3a07e376c849b,
  0x1cf9d0cbb90320644e7f459507074db255c4389d205fae0374b3ce5f5788b5f5,
  0x290340a79203c8a298a1de2e915f18de3b03831f1167bff685ad686c6d4f59ee,
  0x2a4368f9f522ca146bb7ef0b943d55f2a843c386b9d9bf9a828334c57510f532,
  0x7037c87161af2f7e0b5bf3e406e2b0163a379dcc8b365a983abac8a9c0d1d433,
  0x13b74fac558db3ad8dc7ac74d864c0052be63c94fd70ffe27bf2d9f7052113b5,
  0x49a80842d99202bab24bb2432ee97fa9d315531d8a6917cfaf6cde17398cc959,
  0x16ce2dce92f022ab7117f05fc85cdd102ac6927619dbb7bff85dcf41c3856c5,
  0x5805a21e068458b2bb9bff596122f3251ab3d5c70faa424b49dff1360df5d6b0,
  0x1663790e7f2131cbfcc0694c9e873063c5c595bcdeb34e64df1b283dc83c37fe,
  0x257fa1cf014a76b273b35ede1c3ca43104241a885b141ec451810ae22b2acb09]

def cQ32 : List Nat := [
  0x5d1cbb150db8016187bd7d6c73bfce11c399036ab387b418094f7fe87070bd18,
  0x3241d64e3280d3e53c9620d65f0321eb41e4f12bb66a402bc4299b38e6ba4d4b,
  0x3d9d611360ec1d1964856b738bac6152a0e00c8c70453b19446831c19de3522b,
  0x9a67a5c46d62ce627f670cca44a3d6a7b9f29a499e8902d3ca3ab71f4ca6eb,
  0x49e67ef53fdabe749bf2d18c81e813cee45849ab9125d1ab79525e4d0dbce1c2,
  0x14cad6b90f7ede9ffa84c0afd6a80d331f1ef458635e82b99252bc29ee22945e,
  0x3cc8f5e4f90bbd9d5b56107b2af23f4849df048401c12970451ca6fdf5d4451c,
  0x264b9fcb61348af8e7577c6bdc1d3cd4cc9a1f833c836387a812e85fa2a57e19,
  0x1c319bacd452e96c89e66bd331cb51bd709010ebc08d9498b9eec8db74141581,
  0x45ed4e5eb44ea71ed4b8f96a1e2bc40a6b644b85cd3213d4eafb8150169d1146,
  0xa19c46789bc5949e6edbc3b9f781a4f1690ed9dd97db6e94058aad6888e2b59,
  0x659c951eaa6d8a625152bc10e1e3acd986ffbd0bc5fd78d58eb1fbf63685b009,
  0x5a02f3fa19d358441a7a6df1df237a1227d56fc68766d1130eb2c19e20922870,
  0x4034ac6aa234d11326429bd145c70882d22cdad521b188fe0fc7af1a87798a50,
  0x313e2dfe018b0db5366a29fa3f347ca72c7a30ae5777281e3e6fd26d46c846ea,
  0x2c828a65e3f34d2a382fb093d30f60caa3a80eaea8d627d539f8b28541833296]

def cQ33 : List Nat := [
  0x31e5e51a7c953bf796a4d6f21ffbf04ca3a2011ef58631ddba5b19b1f318efaf,
  0x5429d41081c92aaf0f335f74bebd757f1c3faa2abba1185256895584839f4ade,
  0x33a492005e9c219916d6567c47626bd7487b7d82186566f554452cee35c23a4e,
  0x2c5a570738404e3252840084b587c1b4a3cc7fd447f99235dbe32341e3ca4e23,
  0x1bfeb15e7196275799fe5888e0b536f57b6218d86a0642386d4fa6616b68abd0,
  0x1e049e48e8b9b41330f8bbbb934cfa9d9c8e56a3a31a2bc365e757bc49a172d9,
  0xb7065e7a4fdb9d30f55ad8a1f56803b642e03c3eb11f37757684507ea699e3d,
  0x13b27f6463b2540938c4104196805705e82e4bcf5b6c718849fc589ddf673b9a,
  0x166571cbe535514f78e1a903a99cbcc8adf1bb9876ec771920392dfe2ecd8c0a,
  0x8b3737fe981511016151d8db9b416758628dd6d3123d2740c6605026c702246,
  0x2ba9e0773badbafc391b48616c4e49e11a2cabfaacaa3abd53728d5bdd76a7f4,
  0x23b95fa64ff491dd523b85e7171770b2adc7904f9079e90c1e289a4c865e091e,
  0x47efe6a9a5d595b04d8b14ec0b48356549026744cbc47d79d0298bdd36ddf568,
  0x2c5d584b06ecfa79fc7330b686626089af26e1313976c3f44faf14f74e73a305,
  0x5a64c05489eedfdd5bc3843916ee143063c47a8e8dbb89dc4511125462441aca,
  0x164ca55f992ce7e248ae0f4a12dd1a7def3c8f03ca9850e0a0121608341cd656]

def cQ34 : List Nat := [
  0x5f14b5e7a17bdab97b11147f31ae15596c6be5556a7849c0382c56a3c949f0f9,
  0x6cf344dd7c6d3b60da0d90f8a90adea692bcbacfc40804b131a841b2c3ffe016,
  0x712bd9d16af394e1c06dd95fd92d71a444d67d7d8e52401155ad0d7dc96926a,
  0x16ae8372e33bb7107167e39838233c2dcb478dca3aeef8a607af0904ad578322,
  0x5892927c018cfef4c86ce6682b4d3ca394f34c05f364483782a0b372777dd0,
  0x365bdd420a55df4d45c70016dd2589db8420f21504d8736ba8ac184abb54dbc0,
  0x12441d587d555f7ba329af53dc4d53955c16470dcfcd7a205e580bd1304c94ba,
  0xa7b289ace90aac07924d09c821bd9e7f3a0300206ef8fdffca2df972914bec1,
  0x472b0f7cc9fbec174eb97648524a56face3a1a6f8ce908f8d939a1335465dbf1,
  0x3488cefef80f556dfcfea4623e2312f54891568a49834c0ffe66e3e22c924f58,
  0x71f964091860bdfca3897b0ceb66ab7383ec46e7f5aa14d003c235f3f026c213,
  0x4119b170ea5cd8b9022575a532b101d53e10020fef85dfcab9003c16e434b35a,
  0x229569500433c66bf70b7ea287d229c787e1fe3476ddd34169735e3e8ac69cf,
  0x4ab00726752786870e23c6958010b476c82c569f73e94484bfafa0fcb042e2e2,
  0x1d71e2ae7c0c0c52f62028364d0196792a62088349bb9fde065e1aae99c41466,
  0x2cf42e66a114d1ff060ace1c87b1eb558e58b3caefe6647777e9094609fd914e]

def cQ35 : List Nat := [
  0x39c884af59e5e31a72cc8efa04af6ac21a4cef98f87c43bc4705878e3b4b8d95,
  0x58a5c256b01b243a54cb18d8369c3900ec92f59f990c500074d6b63aa50bbb76,
  0xfa5bc231c764cb62db0fdbe75a905184c3900d2d1cdfcbefa873c0a5866698c,
  0x2b957b7639c3190bfaf761457ef5be5fe3c67d0f9d5caef7e8fa9ca43bdf975,
  0x660851f0dcd14c2aadd5ad6ce37f69661afd31f7dde625d08b30d5a948700da4,
  0x4a278d52fa6afcfe0718f68f739d688fe128b091e63bcbbf05cfe7821ef5cf28,
  0x3f4b41f4bc50ecc7dca1980ae2ad761166e675b744c6d82e8a01134434928326,
  0x479747ac6c05012da85d2957c2b085a1a5f68f9e529aa2f9896ecdfb49acb23e,
  0x6fa8a2f91bc97ebe5969b6c61bb576434da9c8ad580af45e108e4ad7bd44abcf,
  0x36acdcbe17b6cdb2ea0b81a8f76975a9e87e3019c4c71fd519ba40d6913b08cc,
  0x344c8e5f026980418cb514366a93afc4b26d48cf2ffc3e2b885f34662b9256b9,
  0x6f724a4ab413a85cd25924a8c7ff7fe8db21ff1c9ae02af5195af34a56c14570,
  0x34f1c1ac0dc745ef3334a73f18ffda57e15e74c82ad416cc100d47cd1afb33d9,
  0x32dab088dfbd9b65ebd9b311aef6cd890cc50296328f16a9c6d638d0bc5a73dc,
  0x2f8f6e3fa791eae7875ad612011ac7cec73fa3afc46b3d60a131b4f460fcbf29,
  0xa93cc1874fd5f77a66ced3b1b6f4028f8691f3965c94648c1c0ccdbe3f46477]

def cQ36 : List Nat := [
  0x33364a58be1e6a34bd1b5ee2cb413732ff44eb8303090ae0711defa063a45d54,
  0x1ee1960abcf5190b298a49233f3ca97df56b85960dab27bbb0fab1e9c7d82bd5,
  0x3aff6df89e82105d58094af973501a1f9fe4d82f14508a5bc5d20314c2e9dd6d,
  0x237bce02f5af803da4493ad690e228c771c2179dc08763c301a0f6a5af884c9e,
  0x563a02ec323c21901565e286963dc38dba7e228121dcac4198bd7c3477b8760e,
  0x25d5f248db98eb94e60134f4ad44eb0b3d712e977778f18b9f6d7239bc939960,
  0x3e42e3c359af9f7953d5df948c616556d37094dda3e58a8d5b8ff46c377196be,
  0x477babfb3b9ed796aa10ea3fefdbebe0a53a979a4791852e7537f66f87c9272,
  0x47f5b630726871d932ef1c37c587ee55fe61d165e32e987611d7e8d78bb5cc3f,
  0x2436cd933cd3a1c70e9d7803b244b5d9522d9002ddf4df6191a1e271a176fd3a,
  0x36eaf50b058f22d95ca4d61d60d1366f4e1e8ca0f50b82ef137585ad8f98bf03,
  0x5f6b58d06cb38cb38b79289c9bda73e8ecdb5927abf3b3bef9ef0bf9b70c2742,
  0x6bcf11b548e04f0a4a6e06994c3b6bd84749adbd0273107978634ce4cc7a73bd,
  0x6ee492d9b012d77a8d63f5c05f11bcb6bd67ddbf361c3daf61cc77fb75972c99,
  0x525c48cff7956419b363c624d0231357a9ceddb7ab084a0eed0d74731bf2b016,
  0x3fe566cd69bd0282c99caf4a305fb8e86d263dfd6e51155d585e1d80ed90a0c9]

def cQ37 : List Nat := [
  0x52968797dd3ce8d9f003f733c9611806021c0a1023fd25fcc5946f81a012d505,
  0x4bb359c5e3f22c929a17145ea80508dbabfc253e1c844a294c824ecf6580d495,
  0x11a3cf8d7917183583be2799ffd163846601a9d9d045b9300b56dc5e6e1c8450,
  0x6899eb61572c124b1bf694185ebdc692234ffe183b79cca1dbe1bebb2d30fe83,
  0x5700a4ca04f2a89c2432280901b891bc19851d86abfe2f234a143541230bee27,
  0x51b072bf235967b0c09e43b3b658468f17ad3ace93147990d173089ad66f9e2b,
  0x5e6e078c45aeeffce7e22e5c4e5b41c3871c493d39f4f6b30376c74c041619a6,
  0x5931d72b2e4fa2f9c8b2764b88cbbc10eff20e73452c7acb88a4d806140bd5c4,
  0x55b6fc5062b9330f28a5a5d688c49a351854c9e34e9ef8f79ce99d01ec8329dc,
  0x67f1e316b359c1f43d165e8b15bbba8068422548aaf3890056f1a5820217ec8,
  0x2e4703527a95bd6a75ebee65579d97f6031b1e5051b3459c77fabc36a3d4254e,
  0x2eb6d0d134fd0c15f8a6bc17dc7551421c03000076f2935a3d6eb616d3d78287,
  0x117797856e1aeeff276d21b91f3982f0c9320c749c92c6b4f4534db13ad889c0,
  0x4d89d0eb7d2a44a536f21410b25eb0dfff3dd49dad13c9ca9e68b301aeb36cdb,
  0x2b637f3c8ce7d1b41ed27ba5b37341db61ae5f53a8eb740fde27887b37e86f70,
  0x4c3dddbf867724efc27beb60dfd5c50dc43d241353ebb749144a976510620135]

def cQ38 : List Nat := [
  0x2b510b2ce001af458ce038c35e311cbd444dc68c598a063f7dfb83d3d1567b7e,
  0x72620c0b8bff75371536eeaa39eaf0c72e7dd4e8e3c2dcaf14ac6c4639212eca,
  0x3441da10fdcc718703a2628eefb48367779055eb47d6863a9eb8175095b608a,
  0x68435c84653be0496c6316373bf6f01d76ed6244a31dbf43dfbb56771432e8e,
  0x10c195d4acce1b8f0fe971b9f1d22047930744ddf56859f3d1b002c5c2787774,
  0x6c1c951bb2c907ecbdd3055e8721b2818281381774da82a78c76c39a73eba82e,
  0x345dddc371f1f6e8bf9ca61f61a0b6b19f049a07da29a80f6be7ebb711933d91,
  0x604678b72fb31b4ecd24809ee4f103d3e953b77e81885f1ce4d39b0d0e58b381,
  0x10d7e4a1c51b9fdf4e3c382b637d5f2267f81396a08c403572d8c855aa74468d,
  0x52b1a166dc45de66630156139f2093eda1787a01db5d6bcdda13ba87bda31362,
  0x2ee22902d7931c00f5ac551e141218d889c62de7c639622993fb600cc0f666f1,
  0x4a42f483f7764c8cfd8fc4569b38abfa6f2ac52db93d4c5bb72bf808f801416e,
  0x50ab1f0bf5717d1bbd7f43d38f59ec257ffc13fd6902c39f1a01b5dddaf86d5,
  0x980b2ae67858e8ddf9301509e9037c4bbb975b45a3792247d9b8422ef3aacd0,
  0x130534a5ff904cbb6240d20391b2a8e373b18f90612212374aa37b4216d2f561,
  0x19fdf841554a7c06dd496d517e59d6ab6977bc9546020606fe252533ca5aadbd]

def cQ39 : List Nat := [
  0x50298b664b8f1ebfdc9296cd0eb3c570ccdec5c15561adb9da13d3ea7e83065c,
  0x6f0177df69d3af98247e932f9339c42c5bd641b53bbd5a0695946b09d7cf96f,
  0x1f0c6805f3c6309dc18b88ea488713feca069542d210330fa7adf54fd67efd80,
  0x3a621fb338638f9f960e502254b0a3155ee019c9a9d0a4dbdd17021a9e1cb1c,
  0x6c7d57cc27c37ddc3b4cf8b4f75a367484da212b3846f8e6003bc84949be131,
  0x1028072e88a160eb1120ecc47c5f1bfc721d2e654f5292e71d3bcc50fac61a59,
  0x2f8e26b504bc7e943053ea85f7f0f59dc5b7e6bca169e09f4125f9844944f8f,
  0x6b4d9145dcc47874d2add312bba2a9001498cc0552c990bd3d08427de107c932,
  0x928425d32d57bcb7536889bb8a9e2c3f54e42715ce952bb2c2ddb217bd78189,
  0x39c4c4f4b397cf6f4984b5fb4520dce76d9a8bb77ea32bcb233c62502be1794e,
  0x340f81830b814a9860fcf0856b18ae3e7dea3cfc50d3c13cf43b50fe89af0761,
  0x6a5d43b682f4a46c9b8dae148fe975f4c6707a943428d1957a0581cbdd2dc170,
  0x42bee077268b77dd090ae87250da9cbd3915d33a4014f36a837316ac2854b7ff,
  0x6553fba86e3b64409770283e6760745aa23f351f334282b16c7defcab30ba492,
  0x6cf1fb9675d5b608a1db9e062c94dec9616bc5a43771c101fb1b7e0e2d6b26b3,
  0x72ba4304df0445c4ac0dd5d4bbee95ebe03071805ab9766e4de767ba46e0991c]

def cQ40 : List Nat := [
  0xa43dc5c8f409c6ba652700742f33f8e90959cecb9128504f31cbf053b7fc49,
  0x679c3ed2744d888bdec5a37b0b090676b89f9fc113113bab24367614a943fa2f,
  0x18a75e675ec9a39ec859793a8450789047d3b1040a274311ed8d933304bdef53,
  0x494d7a20a972f1255196ddbe19163a45153d185faf176081b701be4e231e0b39,
  0x2dab738e87c5f590247edc0c47d4351b40cc8a782b419b8b6c09a5c73ea20a56,
  0x2cecb4a3bc0fdee443d2fb4d389ba75e22306df31ed6be7970736c1b21585b94,
  0x2068ebb6504736a7652364bccc6d41c686b3341cc6ba4713ba117301442d2a9b,
  0x1feac881c6cfcfe67155877d1970ff517305e892616951da8f00152962e3e658,
  0x39f4184f0662c3f4fa1071956af7e6001cf8f2b972862dc8869c16a1be9f2d8c,
  0x2750df8ede02bcde968901c5d285b538a337dbc9e1170bb387e33e1190ab6956,
  0x43fda6ff97621b6c12ee470b8b308ab13a28ee50579778544a3ce94557e74a25,
  0x2c1da25d16bc1a0b4c5fdebe491daf6c674c455bb6b0ec12f51e679005357c9d,
  0x2c1ad49e35f5a28a19a805883d2a1069365bcede388590a77a542d4cb0b09b45,
  0x25bb4b1e5c9cc0617b8e6d11c17cc8e0d16cd2e398b27373e81ce73e90496c3f,
  0x736756931e0076d3adf6830e8173898ffe937601baf3769d4eecf62458d3d39d,
  0x3b400dbb232b79a6eb2d0738eb48ff66cdc9b2113a6f52b5f2fea3019ff5aa0d]

def cQ41 : List Nat := [
  0x57ff6c3656f8a66f05207ccff7917feb4e1338a0ae4245f178b24b2ca0d70f65,
  0x410197ffde6e3973e6f2872f40aa2bda988d60f1992cc491975a921a7edfbd79,
  0x18bab1612488f76c1df8338219a64d1529dd465f8886ecef8330728493154c18,
  0x6bd1b2d5d12b0c4bdd16e551c47ca08f3400b4fc8e143551ad2fcb4b25df65cb,
  0x52d3f0b2d87bfa0678f7bd09a11f78671a70cd02683af79e06e39d877cf471f8,
  0x4e47c702aa24eac4aaff446b1257cd01f96ab0a03f91394cb88c49743c6bca07,
  0x3cb389d7496ede113ce8b773324729e864dad4389b6c22361622b2b82976168c,
  0xbf65282dc4aad4b5b3af479d69ef39d035d06c10971a67ed2856d3bc14b8c87,
  0x2c8eef4e787d14bbcbaf8cacf10ea60dc51d6ae1943409ffee2aaf71e61a0843,
  0x48cce9404e581704435a3970b2101f7f1d2de1ea22c9e438540723cbea589c7a,
  0x315e4dca8c8cdfa733277c7ab7f0f808f5c8008ef835aa7a4b1e9689c79e91cd,
  0xff2c3bd6247f71c54a74c63296b69775cabadec534eda447d130f38083bb0d6,
  0x2c4fedd81fec2111c43ca1f1a4dacadaaab506b3b6555f013da9c51ed6174dbb,
  0x51dcfad798e2c286b24550fafe313a8cdb2d2022dcaf303544d5db3daa7ea1f0,
  0x121f07b8fd7ba851ecf3468ddd7fffe817e007fcb007300acadd0aac698d8b81,
  0x43799cc7af395ca28f51e443955994f37fddfc5293726e561644e39eae81fce4]

def cQ42 : List Nat := [
  0x32125990e47a061efd3fc67d0c3150b31d7b1f0d546b5ef96fa88be657c07595,
  0x67d07cdb856976f23b4e8b3377c76255156b065813d100a4b8f1df73c8882bc8,
  0x641abbf193995223f1f12463e3c688e5642f12c6ac06ed988af3b27c165308de,
  0x6d56b5cfdc35c8de683977915967abd8c91694b48621d92c85ee68b3bc18f38f,
  0x5bb20e8af92a33755b499e44cca3d0e3538df93fde765e6a6f56cbc46bf0a376,
  0x55d111ab3a6e3d87daf95ec28969ccf3c43c61e55d79de3b392a6697e12a6c4f,
  0x20a5c0d210c41b31b67d1a9f6971430998e021217f3f3acc5f8f346841d1f9ac,
  0x68fe99418734bb2ba66cb2739eb858215e581e8916f04f96523166d372b0b83c,
  0x123dca4471bda03f8732c96faaa740a0936d9848b709ce633a19de0068cb26e7,
  0x1da99b88f1c4de27d35aa150fcb5eac058271c05f4abb0785d2924948f00fc92,
  0x390f54ab40d8c3d13f93407b996b9ce939be67b6572e9aa6733544a99dcb44d1,
  0x22f446fd4ab093db677cbbe26617e5621efe875e9c3468807572b67ab480f3f5,
  0x14ebb3e9e2781fda574adf1b9b385f7de0a98e74dd0671d1d23700e5ab3ca0c4,
  0x2fe88d2a7935c428953606d0ece4120549c7d66b7b361bfed863435bf1520114,
  0x9c3ee651506713ea0d5d44c532c1a043d80f3bd8f9d1e81b689ec80edfe537f,
  0x14fa020dc7e7de93fe3ae210617eabe7bfd5858d9ee51e3834b0db05f269fade]

def cQ43 : List Nat := [
  0x142f886068a3fc1db5f2e73a4d9e04e9c5a6d3bff86299efb51402baabe6a735,
  0x117228f83e46cb0fc6eda29104b717bec7ab669f61f8400d19969dc7d8610c26,
  0xe5c68c3c38d8f7168dfe80d049cb1d0474dd7a103e1fd79d3596313c4d4f743,
  0x13ff0e221734fc9d9428a6ef9ea273491f83fc9c018493da470d303662a79cc1,
  0x9bb1091821e465ecf676cf207471e2306021708503ee9129f8f2cc4e74f97a,
  0x50df80f7f27443bb3c4ee6c73795784fed21e0e5b5a54f911b47b8b050d6a161,
  0x4e83b9ccd9e3516d4b713a7333db7f9c6941df19d2d0cefd552bb79b170bc9e,
  0x67339fad5a96b714291fda93589237aac4fd4b2942bebd7d397ce61a7b21bccd,
  0x47e2b5b6af26257e352a4eb4390cb36c54595874bed8bde123d2f266efe5f05b,
  0x5030b78dee6f3dce54d4925695ce1d053733e6eebe64da827556635f0d7714cc,
  0x29a308365115de1b4a8462f575b48da24f14ee144282607b7b8eae6f684d3a0d,
  0x1f5e64386f1637dc4b15671cd8b55cbfba950a3c0bbd918c020186c93dbf7437,
  0x6ca59b56159ab2d127e49565f6c167443e176001da4eace17cf8c06a2786f2e,
  0x5f1361f0620fabdf17545d5e18f42b320b24356bfb2ae4780d3b6e3e2c853725,
  0x2eff332acf3421387210c14ad8415b40a28f211e7a7168fc510970535c11b171,
  0x4daa7024de68fc4052b72469f70771468ab1242272b059b9a943bd56281dfd7b]

def cQ44 : List Nat := [
  0x4c43ae9e77272b66bc2956c5d0c79fb4989b9d8f61788c04f3dfe91288715336,
  0x64f4c7e91edc5d85d6f267e2278eb7a2e6b7c736c322b29a1e95973cedc8e197,
  0x4bb264b7bbd43ab9109093f7d88fb3891b926949fa7d1b3effbe06a1df3268cd,
  0x102bf9bb234f92672d458c95028b02248073631b3369e1c172975839070676b3,
  0x3c33c5ef71da66ba6fed1df2374e6cdfb375b4fc0fcb3c2307dd8094a64bc43f,
  0x51ebaee5619efec56af86609fb356d808a6eebb6a85d3007b54e896314bb41dc,
  0x4ea4472dc63950eb5a34e94a1b11f3d63c84afb3952b6aabc5e3972a2be458ae,
  0x68b7bb7fd8f49f51de08efcc621e27b3a65b967cdc391e9d3b069078064a66a4,
  0x26a9e112aed46f291253aefbf3d28dbe131ff277cba79d50b6f96497c0aa3dbc,
  0x29dd6fbe65baf4b165200c0195798bf200965e521672018af838b031ac755d9d,
  0x3a9cd603aff6f3d24f177b4a18b8189a37ae6dce292bc57ddfb4b9ed287fb6b3,
  0xe23c8679b8560ed86d7cb52a59702fc6a08bdeb61f53012774dc4617d0b6f7,
  0x705593036ebc48977e5f9e6f0faf2c8ae98f5a667df78bd07309efdfce02685f,
  0x53ab4f492bf93bfb75aa310cfe1949be6b45871651806b59d01e5d895bb28c66,
  0x64c85f00a447d21b8892a5d5ef61da39d2018eea59dfd3220219852593877713,
  0x13ba30040a709357ed4c03c91378e306f2c2edf8a25f8cbb2e8375a20c42dd58]

def cQ45 : List Nat := [
  0x4940815836a46dfb2f19d0ff96d265f919cd489dd345b0bb4895d1ec6001124,
  0x629569bfb02125e3b28cd10932263696d433be7183111fe83a5eb7ee6fff285e,
  0x3851c3e2bd0636ceaa58dd20fcaaabe678eeb7d143348b39afd6365c2954482b,
  0x2ab2c73e516768ae6300828ec61a22053db4c0297f00a1e99fa6de72c501d0bc,
  0x5d4d3b6536e384324b89ebd4932a4f6cab59714e2ac179a670df53270b4e7a3d,
  0x319721b9897d794eceadc7f0cae5950ba7730d9b70b1783268853790e3e8ceae,
  0x2fb24d40b322f7f9bbaf2cc6bafcf1bd541a0f5d5f77ba959f6c9a930e9f8dcb,
  0x4c5082a9936958bf3d0b2a6e2b5efce31c9044bb0147378bf5c83d25178cd2c2,
  0x478dd869c995801779201a9c3193838514ecea85e079d8c83a6dbe2ffdd74dbd,
  0x15b31c054fb82a1701f6bdb9ca597cb7de698da8c4710989e88f12bc141a254e,
  0x1f63eb360c4ff492281674ac96700baefd1594e4b513e3382445a18c60c63fd2,
  0x4e63ec7bb30ca327d2158fec9d9589fa3feaa8a3192c5430e022d7a767d2e226,
  0x5d3a25bc6dcf502f7d514b08fba14601fa41ddf2153c13e65fc7bed40b2d956a,
  0x6923fcf1dbf5c0e883848e1349b7232f70153ae062574c37b09d4c74492533b5,
  0x1fd1569abf17d9a8273719d4a0a785f38ca443ad59a7cec5e997cb5dc7397dcf,
  0x34204dedea7e70a26a46ef3f3ffc9abdad42c15494d74ca6f811d4006bbf044b]

def cQ46 : List Nat := [
  0x23f3487089dbea4e2e31f1e609814efec31089c4bc0a086cadbd3bbbe50aac5f,
  0x4666bc1bd891d32f2aa53dc6b7dc2755f39bc225c53de669eec588dea8d3c3cb,
  0x56ee9b28057778f75c8e03f3c2dbcb46e2e052aea58e1d9e7b08bbadc6f269f1,
  0x28542cc3ab495f82cf7fd6f6cc26ec4fa63109e8049e50e3e1b1bfb5d9c21606,
  0x637e554b100c97b2cd44bfe3cfd1734a935f142ee44f033a4278a49f2a57cc05,
  0x25d7d92722713e64154c0f3dea5bfbcc05966d54b0520e5ce3d11bb465066801,
  0x13056c921069d7562248294aa46131f3a739dc0affb3a92653f4747b14ca1ae6,
  0xde932982214ce4ea22ba9271a4fccddb6a9b61169ff794bfc355abfc69e1df6,
  0x6b12c1371f3e34f9f369b068d2b1c64adfe9f61346e489b6875b5e85f71355e1,
  0x3f512f3552c88c284e2e2486c2907d331023dd6a266545cc04f5de6e366336b6,
  0x21d7915ac48250703a1c5482eeb2bac583d669d18b63b4d1cd25ab8bc6279b2,
  0x1515d6b40fcf32035e4746147c2910346c1c90439832343850cc7ec0484d326d,
  0x121c42c9bcc3bbc7c7cdda36431d1b3927d6eb8c0001662372da97bd254fb1f7,
  0x222a8f841f63f4b772ee90f7ec7e982528985783780e401307431c659aa22dbb,
  0x3a049ecd3ca0ae4774c7e8fbf56a98a53875997ac7d92b7536626cf896bec10c,
  0x9a7887bc2b04e152ed980acbd1bee0e7cd893c20a752669a9e18c080a961d54]

def cQ47 : List Nat := [
  0x1a785ea4fc13ee34ffea42578eb2dc940acb14ee9fd4f27a6efe6c3dffaa4b10,
  0x1bc3b0a3a7d2d6eede65ca70d57cee845b06e0eeef82a5e587883186fec25d46,
  0x602607211249e0719815e97aba56d936725589f31ce62f14cb80a1e29c99d5a0,
  0x77eff7da4fa210f999b526f9e49f89c7f8467e66fc06532685676527e400133,
  0x1c2bda1eb674d77ff934823b9ac6bb0dde13a5062aab037d737fe369978207dd,
  0x660ff645447d72b55bd61a88c5275139ac7536cae410fa2d63484b065add0ea3,
  0x5f5f70a99a2022f22d509a8759f984cba7b294fd6001fb95c0c719bc3a1e1a81,
  0x1f6f321420665e264faae009db3554e4e5ce38080a092c753229602f083b15ca,
  0x10b41a9c8b23c1e5a4b23a2563829bf3bf901e020a3b5d2d648240bbb4694b0a,
  0x18dad2d7eabf1f1ac650719463502ca21069a91ed225a823263588df35272920,
  0x6f93ee9cbb62a6ebe26b02fea253ec86489261df8de2df0656b227b0451890f7,
  0x6798d54c84c4897786f6c5b5c4b7362fca779317191c7e9c23edb67562655d7b,
  0x3c85bf2c07af17289bd6117e75a7d2d189476b27daf9d625dd43a5971fcd7349,
  0x6ad5b3d359e49081eff886d9ee3e2d32dee2ddc52cf89da72f4d01fc9e06698e,
  0x5511f31250f89f6957f411896508f41b5d7db9ad4e51da962023e882b6892826,
  0x6765bf3bc28a136e7dc20713472e55303e15f59809e9857d4768cfb77977d7e3]

def cQ48 : List Nat := [
  0x5741594817e37525d760ad7bc5935c77f7c08f4c776657258ea6a0d0f4b90a0d,
  0x6827bb78e814802266a123e303f9f48f22268dfd8ae96396e753d657386a78d6,
  0x3cf07fe12ff2b3b09496e64bdc7e36c4dce712ecd15365df867fe0efbde7b4f6,
  0x54dfe21bdc0c8dc66a7f28897694622667b7b587bb1d1f82bf0e66344dd5b10a,
  0x720a22af735cba0be2cf49c737681d2eb631b0f487827dab12f22883542285ab,
  0x6bf7ae6d87aa284b4ebde7b9d027d8ab76b27d4960b96330d45e3f6f98f084fc,
  0x6be0559a662be3710758b587e69d6687be516bae1059d176809d20caf0c9152,
  0x5d892f40ce03ad8550f95add6e44053e32b38a9efc6af3001b7c0d821ff3ddeb,
  0x2c2ee434f2288d67bcbb76d62056340713ed1338cb52bb72ba0753c6325c9f0e,
  0x283bf3812e67330de6209dc6ecd2a85798a3b12ded752a5a070f118862287557,
  0x4b79a63468354343a8816d340187e966ffe71985285a73ccb87a458a8731ef2e,
  0x20470ccc4f9ac4bc5822bdb435ffefded273525ebf0cc54a0ad83401769437b5,
  0x202909fbd794ac4d7c10e40852478ff8d6853835eca7da7bb6b3da8a2cfd7581,
  0x5ecc2d6b8d64c9f2bc302c0d56811a4ffa16d69c6fa4ad8823e9fd1288f5d453,
  0x539fd039a19174ffba264caf174b1723e43bb87374d574a57e7b7f13911b7c5e,
  0x2a070fc28c11f4888e025a7b6c9f8d48c12bb922a79ec305ef39cd82c8603e26]

def cQ49 : List Nat := [
  0x1f2b5f7892082bee68387dcf1b2079dfd5b70b21c52a71bb0e4b082acaad6dc8,
  0x53fc5f6328391393a9e45e5761f42d1aa4120692ad8cdcae0b12c7da09d6dc16,
  0x57b80ca1b40840b9296194ff199a6adfcf0bb5cf225b147c7bd06efe1bcb3a6d,
  0x6416566e145508f0bbebeb4e0fa348291f67b83eda4aa20a5741df6dc8035e2e,
  0x5dee3b23528e22cc06ee8e33c6d04a35948285525996e029c4d67ce12c26a9d7,
  0x5d666a7c6d0ca59eab98d68bc0cb97276617ec7a021f80b10ff5d1b6af141fc1,
  0x15fad95a26361c294c825beee17b4e0e670e6480753524430f6e8111cd5bc48b,
  0xe2cf4530ab25a10a7b96ad1745c0787ece1dafad80c294af954f7eb59b1eae,
  0x5daadbaed1160ebd3f168448687b556a277faadd22bc4c32825ea31611c9caf4,
  0x5d7567476a1cfdaebc150ac97b166b62c87bf27aa1599113296a1078c4138312,
  0x19729c94acf987c424fa155eee8453b2042c2deedf76c8b36898236de08aba60,
  0x34ea20c76192aa780b8451f14e2d24cf6df482ef14be4668b6d041e5d79307ce,
  0x2f951c26c5d6b4b6150f33ad6025119f0a6a020ca226029356a77ea6618a2551,
  0x76e3aa4a3b95fed52cdf5aac47440f9546e068ebfcd1d0a5b0384bebd7903b0,
  0x3d4dcf10225950ebad47e54600698f84f3a3976a4d06b36d29977958d053b546,
  0x50c1dd6cc9cc3c4b6f0803baf097e9287ca9ebb8bead6d6b34ab97d8ac0718bc]

def cQ50 : List Nat := [
  0x6173018ef2ec6784d51494dc926c543369d35221e1b08bd0f8c07a7b3d344099,
  0x97c1a91c55ad4bd9e5926845c48ddcebc5af744f583495437ac5301dcccf01d,
  0x51b761be47000b04f7566a5d00be472bc9d4684c99fd0f62f4ab5ab642413ca9,
  0x2bf1f9a51cd59713d1f7828878a5e13ece06be50ec4521ddc3a067dd4eadc020,
  0x62b2c026d3efe00684cb73e669b98cd905331878f19b62d10e0bbe7056219fbe,
  0x649dce8eee275938b2717bb783e84cec1b61fb2a38e21bf2b4b3441121d154c0,
  0x71133c07f8136cc22355dedb64a3be1bd9bbdbe0f4ab0a2cd1559ca6d84febd6,
  0x3da578c6ea709b33fb50f36f2e84dd390ba70c11f6198f01847fed25891afc7d,
  0x766a84a0d064b7a4b9316fd7ca63b69e4dcffe48fb6f4e65a98ce7d20d72589,
  0x6fe73fca7d10872ee9bd7850cfd70c34ee2f4787c1ec7f43d47165d220d10c32,
  0x206a8572f0e3da77e8c1a5f2ea86a4bc01f5147927978adf00f601eef0c3fee,
  0x739e41bef3e29e3d4394b943a6e83a3adc29568f0ec01a9a229931b0ff1bcd96,
  0x14eeb2839b9f2d999c0d9c33aecb8aa7aa61a071a26de3ed6d4dcbca345c441c,
  0x1e785492906d17c26435d43f2ed25a604fd0ded23671070e7544dc9da3c347a,
  0xce7f215f80712afaf33de5d09b2c8d075e376b106297c2fc37be0e59c74d6c4,
  0x4634301ffddc45046ce2e844a70c5ac268e6e5b6da013a406a29baef48d2a0ec]

def cQ51 : List Nat := [
  0x6824a62bfc504fc8652789c6bae3d4af2f5a0228a5022a03193096aeefc32c2e,
  0x7323c56efbfa16255ad75998e2bf0d7d25835e9f9a67db74dde56641d948205e,
  0x6d729dbcd6f1f112678bb23323ed2f6e6438a4fbc128f25ef86a4279cf763d55,
  0x702c7d50ecdff7125b328eb95ce93633a547813c581ff3eaae4000f85062188a,
  0x5f32087b99437b476c7f1ee6fd029ce4e969db1e7340030ee60775be72208fea,
  0x70a19467f7e486fb5d225e223ea0b0287960cf3d642ca8dac4a04b8576b87b30,
  0x48d522a130f36551e36d00e0909422b99d797989d095ca7c6a74a6aff549e6d,
  0x2502f356c7bd02830836b6c8d9170bcdb34807c8f8176da42ee91f3c3fbfad56,
  0x12eb67b38d9f38498628ac7f06cdf023e35648a67484ed62e0d23f992134bf07,
  0x5223982fba7bffd3ddfe2d61d6093c6277a69379d33bd19a9f6989e911d0a44a,
  0x1562a9fc64ad3b2fd628a813344c70c0bd625a598710db5b921058957dd63a3b,
  0x29bac3b12187f74da56a8044f3e1cf6bc5805a321ead85945469493c808b687d,
  0x22a7d19444e00a233aee953116b1eee43261a4618723e9bf8788156a4675beab,
  0x7292a5ad8677ddc5738a75cb1f40558d4fdd2609a9eb4c8fcffa2c652074cd07,
  0x53190c5d00eb8007404c8b25f73858ff4e0fa926e9f89029f8fb0373b43ae1a,
  0x33df260da5cf46b216c2ee054a7774fde0afd37f91f2809ad6cf5380582abac1]

def cQ52 : List Nat := [
  0x3c05646a66d4cccfc37554943cfe9749c0cf5fed52d0f4e3e027fa3fecc56635,
  0x18200169804139bdad0caa2b372dabfae1f3100e0a31100bc97625689e9a0a07,
  0x1cf3a5a39cb16efd080a16c72c548aa4b18c109040d14399f844be8c10cc550d,
  0xb12fac368f2db15d02e16527248d4cb23b61f0a8041c943c01933adf962b00e,
  0x61b7965875940a10d8083e525426858239f9ff1c97493172c6d7caf509c78e2a,
  0x56bdd325cfdaca2c32b4a59a3470d42ee7c98682ff415dc190aedf6333d6efeb,
  0x4e2631f1551477654a77fc25b05fbaba9b50e037c3701adc03c7d0fe9fca8c31,
  0x67faa1044fa964300f93b8e69a85ebdf17ae94afcc8bbb0ac123e45bdb6e85b3,
  0x17e9cacc4a6f34e6a9f85bbbf30d0cd3be5e511b886ab38f565c4528c8c4751,
  0x27897b4d432651d7d0e546b779809671359e59f57baad6716e1d8bc5823b8fa7,
  0x685871aebc30842b495436472bc55dbd3d9e7b5453193178f4a4ddba56492fe,
  0x4a443df7b8e08106eac229bfd5c65c296de4f3e6ff561a9ee1b0eecef0826c53,
  0x2d1607173725a376041e3d74ab2702e25adbb642c4c3683edefce90f03cee3dc,
  0x1690ef8cb6515bc81d3ded3d2af69e9fcfb2a2d3894e2b79811c18e6029b6483,
  0x7140090823143bb96cdaed9f05aaa997c341101c6d6d12478f71f7cf230f644f,
  0x517967f032e2383ffb43fc641e766fee6992315a62ce9265a2dbed93892a09c4]

def cQ53 : List Nat := [
  0x8c79d7bafae957f2c0b6206e5a8e7b3663168daf43db510f6a7a72dfdb8f791,
  0x5e4fbde2717e19045c2b00b14e28b1f13b05e06a0497effadd6f4d71fcfb9cf4,
  0x4cf7fb923da909f12c6eee3286f8b1fd3119bcb04094a62edf8513323512cc10,
  0x28dc89a3d1084b32c588eb7cf4941e3223c97d095081d0c7594ac00374871dc2,
  0x6662dd24db353fecb4866e90b94fefbe4bacfbe8d9e1a4b88dd74010c460c15,
  0x25ba02c6698c06685ed9c23711279ae1e791f8c4e4cb72b13e279bd633ba6183,
  0x4c5d88b09d616c0d48169e75f0e2205e44840a62a132375b88b655e5f59c90f2,
  0x57fe60e24f90737e24859d145768b05a96f778ea32d78ff8eebb77a5453ca9fe,
  0x3faa714c88a8e27de5fa6d7e2b3d771b59546c04cb426c0dbb637ec47f007aee,
  0x6e95ab85496030931cbcb1246a0ecc969371a397e4bbb7677143f254a1b0ee60,
  0x33372272ac6a04a00a2ecaaa1567798ed05a8678211c6e10dfc2cf59a670a993,
  0x73343894e6d77882a41ecf78ac752edda25d30629b9bca5d43fba6d99b7d21ec,
  0x177e0407e079c706d515d26f8261b309b0d228ce1519963e7022b1714ae7e1e5,
  0x5dfa76c30a4fff9672be598a96f06bfe5717ce76f1a49ec98e9eb8dfb26e66e8,
  0x525eb2c676243e5d9195a73082ae1d7323aa1029d44d4bf6a14a67e8e0fbc499,
  0x5962022a926ad9c86ffccf6c59c69c3d7c2de9a07667af5be242b33fa9871f6f]

def cQ54 : List Nat := [
  0x53f678f20a84f883c4df98d961a14eb2e7f9d371c3a2597bd8f24fa1f2c8f836,
  0x37605960d1e821b411522d315b4cd1bcbf76ba3b72a05cfd54d29a66027dd2f7,
  0x312f131d4cc68edc3e9c78cca2df21498e013cdd68aaabaf5ea17a831494d855,
  0x1176c7e20d9f5fbe1a9c11dc931d68183343424009204da5f8380913a6523e3a,
  0x6a3439be9125e04cc002c8f5ff16905b21809ad1d3aeef3877f41aaea24272c5,
  0x2c7980962281424c57efb0fb51b049ff96b19108fa128fc3c140bf074070714b,
  0x6aecfcc0e7d5c01d83cc697503680b875a62119978ffd6c1b8ebbec54e798dac,
  0x3126bf75d433b0afd4e19d2a3b125a350242ab19eaca3f9d13b986319bd94d4c,
  0x64c09367096b555a841bc8ee7dc6e6859bc67facd5aead8a3644442cbac49acb,
  0x12928c9b6903ae5b4be88d8f171f03dd13b8f9ffa18bc0c95e655d36ec58c678,
  0x36d7b2d41b704ebf77b90a703392b1e245fb17727f2ad076da3341a3e372f922,
  0x541a3f5041db3f714985874a957227ea88e602822bc0529dcf5328675849692d,
  0x1e7cdeaa8f0e1aea5bc432624981832f8163be1e4eba9e270bbc28e0249b12e6,
  0x5b9e71a5d98cc355a65e555284ee21ee97deda443d4b8500834a92e4f471021e,
  0x36f1af5c4b59e39f3f82674e363d6e24853e6881f8053038af757c764765f9dd,
  0x1d200c28b9cbf024a97edf1575b5cfdc49593c366a155a7aaef9546ec50d8371]

def cQ55 : List Nat := [
  0x6b82a0fa9961ea60654110066f42f540e8a9e11a41c964449b84fc60d7504249,
  0x1a2a87a23c666e2c49b7094cfa63d111d14d94f0f240735114a84abd3b41bfb4,
  0x6a1d3094cec5dba6874fa215bd65932bb6dda512f8d1b808ceb0f43ef911a2a1,
  0x3aada77d114dc287061196c6d85ae9be5d1d9e90bd5c6b1be64d6353c7ff717,
  0x32a310ba11275396d3dfbcf4f463a2b072d4410860244a6afa4b84f19ebdb06e,
  0x373ada0a100e76f385ff9d76222eb0a4d5ee0b4754452d99aae9ce347e928f50,
  0xb5a39b130ab08a7b735c53db734ccfd4eec3064e259e3f61e12f1a7f2f8d85e,
  0x5fc54af1c9b634d59d17022df10d8e06b87d7ef3d16b96bfabc6f928e63b134e,
  0x309e7f7cf48d2a581a34d1ca69045138e386071dbbd42bb95db62cf6e1688330,
  0x2a14fb9011f68c03eadf0906ed6f6a342a9301c34c963cf67af899afa7bdccf0,
  0x35d7aa5fddbf70e7a5f25f349ce70b891859039c52543622d63dd520eedad069,
  0x2366a3baa051356ca2c2021bff75b1c959f55e5fdcabe4a1607e102ef404724e,
  0x3f988f52cddea1a441a3373b3f60a32548b91e44f3f0f7eab5627c64ba1b7346,
  0x1ab14aa866996ee5132b8e3eca15debb349f95f9ea75f6104dc9dd2ce8039494,
  0x2b620215f1885a6117abd8299252dc32ddfde9336809189023435c68b9998f4d,
  0x6f3f77cc3dd425e3ab54429bc14066ac6f4bb25160e76147d011859b5b78aa28]

def cQ56 : List Nat := [
  0x27bd73a892bd7d7d9ad2cdccf4841e648ba622c7ec08f4aa582ac7a6aee26023,
  0x4faae773306289d01bf49e7856fe3995c95417042661d2a1f2bf71d385b395fd,
  0x1a31f55c87c40ce12d1806e9ba2ad8841e34c7348746335a345a35ab34d39239,
  0x22c12902243e1111b4f2533411227058f89d4c11b30d8936ded6744c5c828c37,
  0x5ed6d6e0bc00436dd06ec31f143c24faf38ee0b82376b9fbff169fbc097fd770,
  0x4ac183b32186c9189ef35b9a9e11290d11b733f13774dc99ca891abad7620b70,
  0xbe5903ec0bd11b6260cf625b09d9d465bebaf8ead6cdf1b578e3e2434f49841,
  0x67b0f8381b57b4183cbb1ec9252a64d4d70af01b5230b4729099a0f6f6450f55,
  0x18c95f7ad2ff07149214a86c485b0ee58bb1847eb12794b10cc78fe1509ea908,
  0x2a595e9026ceef09e840cc4ef4299074e1e4b5527d195c3f6ea5f747a6ac279b,
  0x4967bb818ec6665a9c9d155afc4642e0e1e3876b5950e47c2af100771be709fe,
  0x1e8ac9f1bdf0266e5e90306a8c6cd166869f60b3c975f5a94407b07fb16db7de,
  0x409a3306be890963e62c0041721b379ee32810654c25967212875a4ca7661930,
  0x6246439becf7e61fc4a0957dcf27ca6f84c1e0640c9e4c89028fb54790c851a0,
  0x24e3516a7255039a28fd0bd99bfd56a41d7b5209dddc8a88e86ba8e1e8295b7a,
  0x4cc3c037f2b77a97be5c51f5757e01f303ee3acf2eab56c852e63b7aad280c04]

def cQ57 : List Nat := [
  0x44d7dd138621fd979eff28d26c057387de3cb42a1e14ea3e1c33cbf183a02124,
  0x11298c7d99c846bcf95b81d456acd2db175ebba2aa83ca07c010e6f9596b85a0,
  0x1ea265bcec258a6f4292902688b631add25648ac872b3e2c23627ee652c9e873,
  0x2855d9c895c5f6eeeeb2941b80d7a489ddf15834733c08ba2138784c5abf6b7c,
  0x3d04bddcb58275619d32196ed9e3c25c3e391f850c41420009cff1c59328b204,
  0x139594beb7250c72c1319f6ac7a7ea0adc946532a20887ec6bf6a05f7fcc6924,
  0x23650c3ae3788519a4b98fd487632fb6d476ed9b7a49b05b453f491cfa76c860,
  0x1c3f2be76597bb8f2e71cc0afa2845db6816679769019e3d1bc740bbc32fb17d,
  0x5d4db1eb67aebde6bb9f67a8bdb1ee2647c85289d0797112d9abbf6f5305e698,
  0x2ac3f03eb8ce744daf28c14649a4cceb1be904eecd4a2766c71cef13585a646a,
  0x2c0d350dafc792088ce3c904957f20bb23002a1b642ac6e5a33a595d22aabc25,
  0x21e081186fe61ac6a31033aedb6a7098d629fdc57b31fc1e8ee6cb6e570a6dcc,
  0x508eef0180f5e45d92ed47dd04258172276628006565d750639b7d53ff227ed5,
  0x259a9c34f4c7e36a4832c10c258d2964f73bb17fb7698c32595c47d72cdb835c,
  0x2cd2e3423055060e610c7da95c375c64070571ebcfe1223f939d9b6006fab4b1,
  0x1c22ee1118658d09bd35bd848a5b0ae2d1be66d6bdc8c107386ff3da0a8e9770]

def cQ58 : List Nat := [
  0x3d6f5f5064f6c825df923a59b71eb8a84087baea18d97653e57f57821d06fe45,
  0x493d89d2d86e06b684438d5ec2a81a3f0321cf8d01404f2bb4943346a1d68e76,
  0x1283a24f6ae3798a64b7151eade48feeed1c391df1d7b191c7d8451dce256696,
  0x376f284e6f50d807b30c9bf87096dd21540fdd4c055c19f186016a58545fa369,
  0x3c221128fa7591580454436b5f99bf63cea5dffef3f43bfafdf5fc9ab257d37d,
  0x47470163770bff7dde4e934c47b3a97bfb9ef6af00bee71f97e671fc7a1b7ed3,
  0x1ffd4f3744e2082e45d78fbdbb3600648082a0ea98eed866cc743dedd9801776,
  0x5f4b459c5198fd2b7445fae8708230227fdb70c44ec74739cdb0d53ad36a141d,
  0x2d2b6ebd075bbcc4fdccaf408f170c342b1e4d5cc1e6a73277eed68c60681448,
  0x3fc785ec83a9cdb509c5fad9978df67c0c46745e9c976f6ab9a00f70820443f8,
  0x6613ef3246c2e54e219f8f94683ae8727bec07aa58dcb7a861bea7af84f0d609,
  0x1d13328e22e8dfc24775d50f628947ce914290245399a1034a7647ade61081e2,
  0x677c1ae9ca1d589bbecdd3e2664304740f76eb61fbe8ff3ad87cd553c208b698,
  0x549b243fe99a19faab8f0ab5a6a4515634dd5600ef6b11cc9c6e4cfd2fc92d41,
  0x6828ec4fd2cec6dcfd3e6c8a7c2ffac67400a6c45bb80af2e341f84ce10bde2d,
  0x4183fcb71da9d0d0060ad6128da5e37b974cbf227bb98aed45bf348c1e9b7d38]

def cQ59 : List Nat := [
  0x32079b3d0ed2fd754da20ba2bdb06fab8ff1f1882cb9633011d1c6e116ecb812,
  0x26e5e6412391af388227464461c1bb0adbf308a0d098a7ab54a154e06b4c9000,
  0x53260fb9d1a62cec08a85c521843d94885ae027e9c23d0f0c1410d75f2d7d9c1,
  0x2e6747cfa65d5b515a408325d3ac934fdc42393f669ce16e49cbc505146242ce,
  0x472e6547f112546eae799cf5814f59557872dd805b478ec6628e90e79a134372,
  0x120ef50de0cd7b942f49a8570d654c85f3a92faf527fbb940d02328de9eac4,
  0x6867d879988186784f2947a39660e86cec3277ca599fde10fea1da8848e0bfa5,
  0x4ef17785d9e64fcf0aa212b0d6dfe4f3c49be18bc39a0c0da89c2c5180ff5443,
  0x100340137bfc4ceaff765fd46520f6c58a7e705e436dacbcdaba0fdd5e95774b,
  0x3476e537b0b79b6b4cc577465e425a8a57576060aeff4ce6ce7fca7c715642e3,
  0x6cc68a94b2e67ab6a7331c005c85cfaa1915909b42f44b6eacd4ae9f4b2a29c7,
  0x265a2ebae75df9303be759ddff274e769d7042dd63d2941be85c3a192cd17fe3,
  0x259692a93ecbe8d6f88d823cd5393695baa535b6374c708d9c2581c2ee893e60,
  0x59358abb4d72a22b1109210630e6eb6c5061e8c69ab85c9736ec07226e4dcf9d,
  0x17f7a802b331a46b8b9b5b245ab197357af1ea0d18e897f908b257032597f2f5,
  0x53747ee94d4c98bbf632646c86b8b4618dbadec9d1dca6e69af6a1f680b16512]

def cQ60 : List Nat := [
  0x463119791377a526c62abdd49d43f049c32a8a391166162d0ecb86e6c5aa39c8,
  0x9472b7f89cc13f11e8400b2dd069d1261a29b6ad46234ad4c54845f761aa716,
  0x42fcbf5a97ccb5998c2e1d2339141030f83cba4363f3473e39b0d14c0a1c60e7,
  0x2a6594b4cb35487922567ab30a2910612b13ed697561afb079329ddb79fd0271,
  0x3308500f9349fb49f0e87e954dafe6c488ca432a5bdef6064fa97fdaf214d7a4,
  0x711ecd3644f5b00578c8d85c609451130cb844b5b8a88b710f92379814f6011a,
  0x3acddb0e10649a28fac555883ec22c4b41ac8feaa8e0060b2e6a5dffb56b98b0,
  0x6ee9c7f43ec8a4241b9b19da015fde54a56d24f29921fbc9dee0575e01ba4cf3,
  0x9b8110507cc4e67500ee5f31f04c83900aa04855a3ad3025156540ac2d63dc4,
  0xe30283eb3a078d1b511139f63d4748c2e8b589ee50893d02408d673808bdb43,
  0x4d683190eff2c6a2ee12b6f3ab73545711af43b5a4fcb35b14e6f29a4b6d762a,
  0xa06f5f9473a170b5fd844e3dc389a8dd35f255843284d07084035a006ce7c58,
  0x1b928dd84b917fd1bb72d0521ef6d51dfcc3ac3fc86cda3673301b467e45b25c,
  0x2e2cde56f8cab2541015d5e81de278b7d48be035c53b458d9c9252397decd8b1,
  0x72add8370f65ab614d4b48a6819d08c0bc72cdeb9e9026a77eb2c616d9d43074,
  0x418f2637af23e7520c1802b9880f5ea54abb53d745748647e2e56833d681f3ae]

def cQ61 : List Nat := [
  0x339524a53fb6c2de4265e3375cfeea29f1835f28d18dec24f5ef4f97138a3edb,
  0x4c6463f2f514f02f4e9e976d7c8f837d329e70c0b5e90617223d55721b5547f5,
  0x60c6ecb606c64f99bdd6a6b8efa02e08fa147716da2e1d0c818f1c569465f40b,
  0x25d0ce4640da3189a1c055746b654af363e9ca88d6b24fce4c791f31536ae509,
  0xd96d9cbfd41c05745948751b3e70be2f4dd1298e742ec6593dd0f37c80c80cf,
  0x52bce9a5b23725b514b836f293150eb306c92a7a6c404c32f170061aa1c68db2,
  0xb41d8517f2c3333dac81c11e99f6d8139e0a4947fa7c4285ad320e760cd561a,
  0x2048cb450dd30380e94218d40ccad0aa6327828d9e77d02e7aec66279d08d592,
  0x55fd720b884b9caca66865905772a9806a683c3ffb3fda4fa004695523b81f69,
  0x287d859bd3b45bced109001706959fd8cc9a325b75656ebaf265f34b4fd714f8,
  0x2931b8c0f94e9259f930c5a60f52b2030e948277d14cf8d3c58d898a876bde64,
  0x10bb9ba4580e6a18d64dc9049935814abd80dd41da37637e13d4306231c7643d,
  0x32d70d9e4a4b75f3408a723e26c9b8c6769f6f697a73cd71108b0326ab41ef54,
  0x539f6629ee9f3dc186846d381610613c0e70735797114f328dff1a87549c36e4,
  0x3613db8b18faf1571f13063e5eb022b483ffbf2bd6beaf11e61b32ababda80c9,
  0x15cd93e30707b002474683bc27cbaeb0210165221ebea96ac1fde7a51990d1e8]

def cQ62 : List Nat := [
  0x4447a87b54a79caaf047bfe5e23cee57b71ea82d646191056743761a2f8f608e,
  0x34254ec54e4e767f8608eae9c8bf37fe53d939b0476facd6ea3930e3f4ae602e,
  0x687ddb5947a3e165ba338bde49cfb8756bf8f805692995d49346bcb895b4a4d1,
  0x19d8d2112a3a5d58f1fe853cd8a4d16ccc602e40d985524edb2df58ad788f9fc,
  0x2a5d13a5377a0403c79e2400804c21b8026c21912d27989285cf2f194823ae6d,
  0x37c12a954dd4481bd7d09c65ea7370d246476f33851b32e7bae5a561fc6c0ec8,
  0x39153d0a0cdc69ee8a07a1d4aae7bced6e1cf6d40aa3f56f71a93671eb85edef,
  0x1c006e764ddac82a4fce82fbf858c5a793cb74f75bd5ccaf617551f48088f2a4,
  0x4307168246312b2a00348d05acef7d36ad43b20f98b47b549d3cc99c6d336a4d,
  0x3f83fdfcd0968773803c7887956f62518b3b47e42fd34046083249a548e86064,
  0x40c27e7d0c8af4b8283c552e7d074261713682621d6adede7d03a65785dc6a80,
  0x2d32f4d221137426a5df5f95a2ff7ff608c0e90b72b14a6250b8250410a9d2f8,
  0x7023ba2c44a719e2316e11ea5466019fbebb195a35ab0277a4eed8c170703545,
  0x6f1f77442cab9e4f233edda1d2b63ff3a935cf42674b6412396aef34807db813,
  0x10a16677efcdb95757325001a953f58c42b04b87b8ba8661b53636f0f70122b,
  0x5fb8a7381bb11c9948accfac93d13c6274b6c9561400d7f3e7c483cedc139bbe]

def cQ63 : List Nat := [
  0x37f901fdeee017f7c5acd864aa29f377e49e55eb36f77d2161f131e402d5604c,
  0xb3f2149fbda48f7037030e4f5c0584b37f5cfb51418f2390cf358bffa500087,
  0x18e43da80d0801dedccde15bcbcd1cf108085b0f2694f03eafa59544d67adb81,
  0x33b882ed95f1d0075d8e3944e148bc7dfd97842526c3b5d7a257ded541f2e852,
  0x680e64ea1720dc68b0da93343a9dee7f8a1bf3057ac84ec515e54b1341eb2b69,
  0x25357f416b0ecdc8232acca7d2ae4f279df3674fd33fff2fd5c53253d3c06db7,
  0x1041765e2a61950352c41ec123c90c7109e7bd8c62c22edb46a8f098a7c5b203,
  0x406630aaf711a5b6fdb630545c1cd472ad4ac3244f27481a7fa9ed765987a89b,
  0x58227fbb2a19284a2c3d41f176608155525d2f6d84850b1df6c4707519c27a87,
  0x1647dfd3bea09f684b1723ed466f552479731c4494e13aa44c5e228e8b3c7bd5,
  0x4c5e7370030768e249f56e8dd2978854ee57c045d0bce2b5dae62dd2aa047af3,
  0xd18a3225e72e80f1484f9b157a100a8379d999060c76f3888e12e48d8cad40d,
  0x36f1ee206fc2e334e85d5dbe3f3b563acfca6c924719627909d27af59d7df361,
  0x450937059d93692483514132fb6f34481b709bf5f216bdddff89515b9c11201c,
  0x142d9cb3eb829842cbcdc8c4e1d9b274fa9c697c78c57cab2bc097553b92e800,
  0x626dc9727fdd1dc0520031e02b246304dc0e551d057c1a0e1eef4fb0bb5e7844]

def cQ64 : List Nat := [
  0x1861e111b1598f394d1ab70b023c3d03a164245e82de3ffa20b10bdf40bb55e4,
  0x4ed5057205d257b4ac152a21174aadffeb0fc9202056b99c10d9339d0d9cfbc2,
  0x2fa0753664b61b31d2843b22f2d78bac9c4bccbe7527c18fad68b423b3a31e6d,
  0x36a6e79539a5b9594c8b5f2f13e6428897769383a34cc616d1bdc11eb48d959b,
  0x32d39565a58e717d239363ccb54a6b068e202b655d9f3cd79bef0a610b0007aa,
  0xf290bfe50f77b1abe784cf8bbbd35baf37cbeecc7a1fb6f2d4dd1b07711309b,
  0x244001b064e2ad53b442a792c74217c2f132f4f607aa56ec40b43c8a67f85a2f,
  0x487e39d4d95e6417d3451c6cd81df1a94b2db0b2eab3728326a0333cb501c15c,
  0x3134a58deccac65cb8e7ea14a1c8c50c635955c5f502f85e70bd3f2edb319795,
  0x4d79b6ac201430cf9c9a0e8450f1abdaaa7e0ec335131f937c8b87e87c89071d,
  0x48d167d10dd4edbe64c74dd1b1d2a84b65a03890521f5e85c9526b5a39e0c0dd,
  0x21ee8dbf19a5b0ce09aaddb91f9e393a0a79b6d6839b6f75f7b46dddf75a0b8b,
  0x5e7151f50383c1d603ddd5b7a891d8cb787463f25b748aa7cdf8bea4a11c0935,
  0x690b52f3c9f387fb9ac0cc98c5437c17308c0a58dfa4c23a0da25076427c2861,
  0x70259cbc93b04daa8d203687bd20cb6a471830bb17a9fe9e21ab3916b4613fbd,
  0x43a7446d69a34a40f3705d265c6f20ed62492caef87362bdc1b45ab27ab2dc75]

def cQ65 : List Nat := [
  0x5bbe7bc24b22bc4a3c82e44f98df5f5f380403d9dd3d991ded8c3086076b22cd,
  0x575bc7dff1318c50c7a7bd21d9000317210b32367635108a56a83fc5c6e4e4b5,
  0x45a338e4973b8b9dcf857c479e2eb988299683c571fc5bf7f79978448159ef35,
  0x14e428fe91ead05fa707bad1009037bf630933a37988762b88d845fb0d8d35dc,
  0x243f7919d7ca3aedd37e46eee2fe512c5a37e14c8190041643d4d0432bd97337,
  0x491d552e0d6450614299b49b1b417e883867709337d0058c3d8f5764ecf76ed5,
  0x6227ad412f0a7dd2bc022275fcaf0ff7034b2c16a1733aab99bbb510d60c437,
  0x3829e2fea287ecac7bd9f29cd505b9df9331ad0d162ed9d2d5daa5305d6f8920,
  0x39bf589fb5a52136bd0094c97bd200d2f4ce1586fb2f0064919908f1ecd71094,
  0x6d79451acbd6519356d065e36a67d8dab1623d0102e3045a74016a380be3adf0,
  0x4e15195780ba95a8ffd6f1c58e2e78b55a4ea4f6dfda7770ea5b0227a2da365,
  0x58df452b3742258f44d53d78b777abb32b92f9b9a51b222173a1f80b58344f7c,
  0x417363c20fe8880c1cb6025b50c30e4329742d6ec93b25653752d4cb4b8f938c,
  0x2374936d7984c3c787f31205adcbc716f0f826fc35bf9108611e4c18602537de,
  0x29cc136ec97f6b45d82b048a442a421a15aec4249bd0834eb4a79e1e517f8b9a,
  0x42bea816dd0dbbf9f16a3f50f782a9871e7fcb56437e926f33bcccc2f36ef0b8]

def cQ66 : List Nat := [
  0x4b06171be0b8d74dbec7f23367708a34463715191db426daa8359d9d7b05730f,
  0x1bcb6e11dbf11376921049ac5ce10079c533c6041e4da04feecadc58c0d69bc8,
  0x22fd569a6b7637227d14dd91db228c7846cf55d8c6c294bdc21b0b9b057ef18b,
  0x49e71083f15fb92a10343904e611f9cee22eb64997a752e29b83c5cc0d21058,
  0x3219e8b524f6cd3499fe9ff83ee24b6e48a38fc9ee4be9e929001a5fbde58dce,
  0x2e229db3744b5a05aeb6264bad0171ee0f4a71da0943b05fb3735a95e7c8a407,
  0x66799e5ed57bcdc46e6e9f6235bd0dde520d6176ef719e4af6f508432d42a473,
  0x3bb93c9ed85f8b6196d4e3ba87d19ea4fe048c54749a7c4215e772e86620d306,
  0xeb9edc3ca04e6cdd0b9f97f131f7418386b2e1240ff5f9e93423e7566a1d7f8,
  0x4eda7a4599f3fc3022800b9cbd475b5f1fffb8d696359ad6a77619284455d317,
  0x1020fed4b4d027095f36e678dedf46b69729e20ce22dd0dcbe12fd4a0ca7f12e,
  0x4960d0d3091df9a60ce0f94f4894bb2457c9561b00d4639113a5cb05dd3f0e42,
  0x5c5e1b0f18004b8599809f95decd494bd71bc3ba2a911510d532a19175c6e8b4,
  0x1bfc1e8477a4a63c57ccda099bc838e844424ee9d642e0189afb973372a30d34,
  0x4fd490c5e556343c5717e8338dedda1c74adda00a2d0c047c91b3d23fe395869,
  0x2daf42cc0911d684a5d05b62fe334a256d81001f68379f807920ed15df804cea]

def cQ67 : List Nat := [
  0x111015c89c5691558c3b67bbbdb9d73966a209635b0e70f3dded3380e197450,
  0x3c0657a90ff7b7d0423f1a0a15fec046cb3ab1bb4f3235a8d77f298c60097038,
  0x50acafaf88b143e7e58248831d2b0dd00c43c980d68f59267d575c42c7a0041a,
  0x27802bf6f7c797363d40d2cc41c8c04d4d03d3bc45894a4fd0b80aa25060489e,
  0x5a0b60ce405a03ba55b5d06569e173daecedc9e54adde09169db248ff4c1991b,
  0x1cd24dbd31d14c4751a908cce9ae20b8070540e5c09c1fd01818bc7a5d48593d,
  0x72d6475247eb9a85f783eb2b17f26d650cb410ae9f7a62cee3f3cab0779c03a3,
  0x6603dded8babf264c5e6bab14bec808a5c3c60db120fcb3dad475863fa94b3f1,
  0x5e64a51d600de69d7b81337926913aabfe8fe7a13eba92ece5995b9d024e1b7d,
  0x60bdab08be2fde53075cb8572645e867d0c37e3f8a991af7738bfda8a265a62e,
  0x11fee8ac4d19b18f9ba70dafb97fd2cb90ec0765ad82a68f03e01bb1edccc73e,
  0x4c0617bf1b5924f5cf4654530271410977edcce121444c313f72e67416e4d0a2,
  0x5d0dd17a2a5e30442fbc368a552e57c068cdecb6ca85bc8687e6c5c3394e4b49,
  0x6136f18dfae6477e35d24a46058bd7ac0ac37e0ffdb61ef0dfc82c130562a9fa,
  0x4351513379b956ce2b6df9dbf734f6e406f64b3970a32651d0e28153b5d0cbdd,
  0x565acba8790a5ed9dbdddc97eb68b7b00c4d60fc36e5a19a28b64df73b0f92e3]

def cQ68 : List Nat := [
  0xa2c3a762d0d5a5b50c3e1a4eafe4cb0d9d0333ffb8b0d4ef5a555952050146c,
  0xd2e8cd74f74864ed79ea69cdb77e8e5bd07cdd1fa69ad55794b24e303321e5b,
  0x66f3a090e0effe2c45024e58d122fb0fe34f203891c5f20ee34909e0dab3ed46,
  0x147d93129f62b2fcb3b58533e14a65f9ebc65b80e556071695be0faca45b8bd1,
  0x6844056fbc81f0209240b014170173cda7ff9c52196b5474f3f3672c584e79ad,
  0x3fd515feddac65c20c6322f9c9d2f218fc58ef82a1070ce2a26cfd018755c0c6,
  0x39cc1b8c4c278770540c8f9fdff01520c35975779a58024f7a20f6598cb12b74,
  0x4b0efe9addf7ec4cfbcd2e1ea68c0df8531bd47cafbc236f8b14bbd8ce1b3671,
  0x19d4d96a09d25d9d289588df130ca64958d462efc15f254b59c019341227af43,
  0x5dd7035c20d039c49e4091a483a5ee8166ce2fbc0596906a75366ab1edcbcb1f,
  0x22e1f19418ed621bf91722d55716bc9d69ae8dc5dc29f081b0360bb4aecbbc67,
  0x1cf0cf48c621b51a8bb5fdda40f0f45eab2bd2ad151dda442a886a31b4e5ed7,
  0x2a7931a8c4ecbaba0d0bcdf8a5123835c84caaabb73f76c0bd71879fbef25d79,
  0x5fbb3f53857260d13a688e49016d4206431d5505e64872f59f429fcb734a0ee2,
  0x56a381d8dc785b760a400c215ef89f948daf847c08f3badf9ab0733c2ae06009,
  0x470cc6c2e339a4de1bceebb472404c53399885e0f348fd2534e7c72cc1ee368c]

def cQ69 : List Nat := [
  0x845e8bf85791b51606f8a054f2873113ccfe955ff45fe2b8fe07ecd2beb5144,
  0x39c83b8d84952057808cc88a6d506d5f8b5c49712234f5ef1e72d9f5bcee5eeb,
  0x134742db27604b68b5a37f91d2ec12a0af44b324b2fa3406ec1856e62a7bba08,
  0x24012b90e3597ad39124f35272b6f736f772e98a0839ededea9ffeddad180bef,
  0x2835ef995d78018249fc47725956c5ac81bef42d5dfcf7ae351076251bfa7c01,
  0x6b4c81912e343dd566f5484c6bffe85f7374e3812d8a1a81e5dc9832cf2436a0,
  0x32c752c843c06cea2db503a15b2ac8bce3964d9c3484056d04030fa355ce5adc,
  0x2bc3c68c8546fd76d4f0a79f873f103bf1002bc06d4f985fe636b5947e049de3,
  0x6876c3b75ef53b14b0911b07596699dd85fa25c59e1d80897811c684f642d1ce,
  0x31bcbc403e1b99872edddf060d4e264d5bfee1b694ef4108553f099780b0c9d9,
  0x5db4de6f3bea36ce70fbe435a10ed024cc4f91b8a4b7485520f91ffcec3ac18a,
  0x147c5467bcf755ef97f89daade9646e9910ad5fd91f4f0fc29d0d12040cece1e,
  0x2aa1ad1463acea7af5f6ee204cab6927b2a73cd51ebbd39dc86cdbf13554079d,
  0x1f42aa298ca9fa02040c7966e6049825da280cc31b9deb4901736df67df40278,
  0x511a9c7741296fda2e97a25d2945c873e5e43b43939a429b440812465634dd10,
  0x2950026c4c82c6ed854e0ca66b118a95e31e86c9c0b7d6cb28fd702e0f37a75e]

def cQ70 : List Nat := [
  0x7399a167246c0b8d776166e3cd029adf71d18ce6a56fcf7e9d9fb2ef65eef6af,
  0x258909ea099c0ae1ffd5a0c9e5e9d48ce79a0c12a60a27e2ecf74e783a8bae61,
  0x3b8eb40b7f0ede785ef186e5baa98b13f78842f02157901cff636b2cce54f656,
  0x1a5bf7c6a85a71cc4eed87bc5045a3c3e0d40912e90d6da0ffcb804c3315eddb,
  0x5ca667af2a32e265442eba5fd891e0c008ed03cf78ed6b58f6cc775400106ac2,
  0x68f52204ecfbff4940e1f32c659865982197027129a63479b6bb0b5335b6ad49,
  0x3df5c4f78130410a8f5004cefc96e0e00057754f823ec6f90fb6a6a51b303c1d,
  0x13dd3beddfd33dedd79bf739ebe97de86130ae56d1afa5d9c72e81e3509cce7,
  0x894e07843b2c8bc2bcc668e78f880a30af9c25c0a98b7e3254c921a584dd8e3,
  0x42ed1e3029eb3fbc901a14af2a7d70f216a9ba18ffcc38c8ddaae32413da8d4a,
  0xa4916d2a6a1938318ea775445042ffb89a94adab15b6fa9be24abcb686a97fe,
  0x2af654ae1e73f1f48857d9084d511626baa1c9b1f9d4a9da89a0b052ab73e1a4,
  0x5c114661f6501793196da665a59c44c2f271d9bc668aa1bb337483e5ac9cdb9,
  0x41e0f9dacd10672ab8ec180b779accef4076d2cb2565e12d029a1d665180a7ed,
  0x5c6b354e210b1140cd0ad9442e33398e67c4a406ea3f83e747b2bc267a912ed2,
  0x2cd07a0cba18990627b359036a1b2d71f1adcef02cc0a5f9ea8afb8255321ed7]

def cQ71 : List Nat := [
  0x576290d46b3e6a64d3feaebc991f078aa7b810bd1de790682061c74fef3b55a1,
  0x34202b4ab0be6052e55cc105e1c6d1abda85b95f659e95394ea2cea9deda0d08,
  0x6525576a1df276a31569b279fa087f408e684ce0f36cf51271f899b40d210f5b,
  0x66ae702fe3dcd33431feae60ef40d6836711ee04589e79b11c36788178493634,
  0xd720c2865b7ee63797d193c78fa65eb1d35e9754364005caeb3f28bf9692d62,
  0x2d9cdce8dc246271b686f1d14ad8a57e13b81c85c035f0d281d92bb354b038e5,
  0x4930aadaeffe0ce47037c646756f91afa690690ebe1dbe5a4c0eb52fe4c5ab65,
  0x2c1ab4ccead0f922be4a1a0c4718304dc7ffddda6b5dcc365ae504fb18ec336e,
  0x2f6ac988485630f5def817706595ecdf955f34288b89e58613c9bdd3a532b0cb,
  0x914190a94cb6e03b229ad8e9c16e2e4825cd845e9b496e7321f2b5572db1c02,
  0x44ef550f651f1b893ac32b1600358f2d24c321efebf814954b408ae55f15768b,
  0x5e863814cccd5770f45da97090a32e22ab2ffab529cf65d5042b6a137c1efe4a,
  0x1d8cf1d857d121c2f7125db6b6d5651dde297a324f16596e9dd55d6f51271ae0,
  0xa29f3c0011d96b39a7481d496cbfda53d806b5e2c3da5ae0ec72bb7e0840f53,
  0x6a03454247a41471da4f389015912ef4a459e20b732b319a191e3c3f00642ea9,
  0x4ede2e7fc833fa97efedef159c40b76be00d2eb0aefbc743b8edda34e0b819a9]

def cQ72 : List Nat := [
  0x2cb4323a449995b37a637ccd9e9987cc237ce246ee69f735d39c594d3213644b,
  0x2ee6c7098c5f01c855a5255c4416f8e418c66ae593ae7a543b11abd2a2d4ccc0,
  0x144372717683abf725de09f0305510b0000f1ea101f34595bda28a90540aecf6,
  0x4ab6b09963b1745e990a042934c81d2613f61f3fc7c41edb9ea9733f901dbee5,
  0x5d80e39b6c6ea298f4e183057c52af7cf1fdca129e4df385688e11d312a3b0a6,
  0x17ce6288e3a67796d95ade59a875d902c477c7dad1d2ca737880bdf7598b3eba,
  0x3b0d522965649fcca0c2dfa46146e9732447133ff8700f58685f9f71db8298ce,
  0x54e9c7b8c8c37d5af65cbbda03757eddc45f420c3a0d379e12b609f56ccee315,
  0x6f9c6f1622847552aeaa72ed6065bf94df7940416968be66c883fbaee7f932ec,
  0x3d27e0306791e42de568de4f44bd15fd56a8283c9dc4f17fa54cdb581019dc10,
  0x675e894ab888e22ddd184baab1d1eddb4d297496f9428db8ac853ca03061a243,
  0x18e1e7fd12bf09791ea8fec068d05c9e46ff2a511b99f773d0724bb8c8700d3c,
  0x357da6f2f1bc6e88eba951a1c836dda1187fc59ec44658bd1dde4ef9909b32ee,
  0x996d7f383f1709bd9a9c15c22a5035324428d57e967528b251d88865959dc90,
  0x6970a73ad4e1393775f849cef4852d6a767afd76ad866ba2d01b5a743c4c287d,
  0x43d76d13f38f5602916ae7eafc1b3b7e6a879fe39ab30368ba28e6dcb7a46e1e]

def cQ73 : List Nat := [
  0x61bfe6436935999dcf67c60a618a7ebccafb02e30f2be27715351ea7d386f2f,
  0x6da2adb2722a1cdb1136fd6b723955f8699d8e33c8cd07691c603b81c4125fb5,
  0x482dcb0a46d3fef4262d8c69f84bbaa3f170fae1a6e4e88eed28ff0e69b6a92f,
  0x61cfa10390b613c91a43d4ac1a914fbf768612bc78003845f6489b45ff790e4f,
  0x14f075478e76cbd49688596931f9a41e443fe154c0660117d5d7fea27eafb1b5,
  0x11768b4127832c91f2d0d69bcb4b61c32a72952aa0e406892727eb79daf0a39d,
  0x2f0c96ace4955e9054347daed2e75acd24065e728fd5965d1d04b05b3c5fe03f,
  0x54dc95c1f09c88bcd5aca1e7d6abc5277416d11b25f4bb21edb77a47047ce07e,
  0x61684a39c5e2b1eade1fa40503ee6ab3828a634a78ac0d6966c7735b973a2ec6,
  0x44b468da7bef62079815f03920ad88369b045e858333e1d90f4d6d2fde70ab42,
  0x1dd1176764d8e00d2c19f0e0d33c2bb10d69da285f35117106bd89a0266ee314,
  0x627d8f5ea6d52a773116f34df1f99e01e5301888477d9665fb6eff9353cfda5f,
  0x380352c30d77361a8c5d8d686ffc57567a54f681fb19877795ce48153a0a6155,
  0x601b1af5d7c44f43311a0b842ca2246dab5a0df16879b9af87a8ae96f2f101a8,
  0x3c780649ed257fbf547902bd176c81ef352279eac73e77357b8d830884f56c5b,
  0x20c6f0338ff0608e28fc08f3b9ae1d729f44757b5df4543d71f51d58a70d2cd1]

def cQ74 : List Nat := [
  0x56aa10fe79b25c4124dc6594120f068bb60f994c00a224e8d01147440f6d02ca,
  0x145998c869061a6caaebe33c453a71686cc747b3568da48697a232f34617f8f0,
  0x5179044daa5410356fb482399c6a6eb35f5a741e685ada7a229c8ea968414dac,
  0x656c708001ed2c61a65c56781a9b6e1cfc27a73ee48f33f4fb545b02f15ac600,
  0x2c5ce38eba10d84964d85ada527f8062e1d4f4c6f57c45775b3316bc791712a0,
  0x16bf5d70d158093c6c60046fbbab0144832ea8985931dab1d53bcbb1da8207c7,
  0x205f729cc05f1716ab3c03db86d735fd960b6300e111b58a1b06ccd7445b0eb4,
  0x4967c9f6476642538cbf715f726580b294e1dbbb374a8dd2db37474e7f1ab077,
  0x36b52a3604490313d28deac7c31930ca59bd45467f6e15b3e59246c58ffacf2e,
  0x715b177f8bf81d6713c27e2c2ab089afe2dca358b439128bdc366f98a2416bdc,
  0xbcb7ab44cef8588805765fe1071fbaf8f4f822474972558f4d80fe0c0581e8b,
  0x67b52956b000e7ebd3e2e8addf4aabda093dbd0dab9f3d6d79447e8b06f4c306,
  0x206909fdf6c4dd3b796c12b72b58a2b993c9316ab433664ca7f0b01e6dbe105b,
  0x1eeca03a767e792f86eee19ee4067b1196a95e6ff44d82eec0f0a8af99e1e692,
  0x530fdfb6fa8fd1791f2d8a4e8ac7781b832454b299dd765cab83a25825080649,
  0x4fb75c216328948380f3e874cd7132bb5cbf3b1014f62ca53b771f828a49a84c]

def cQ75 : List Nat := [
  0x21212f8efa9fd338bf8a71e2c0a8b761d94cc5585cd5eed63a701941c5e0f97f,
  0x311849b3734363ab035ba96c17207dc3ca25859c6afee57fd661615d8f9b5dee,
  0x308de8f2e24796c4573cf7f28422027e16fc357f420b332c5c60e082a3336a3e,
  0x7dc5e15f7637798ba6ff117f1289b774098ef41e8da19d9814b8e15f09ecb08,
  0x758f702d3df40796c948e62ad38748e7e925b781706243191f6bba226e60a25,
  0x3bf7d84aeb36b724837f83ef494b31adba5c8c09291e306411b620af52a6636,
  0x6def213da99fc7fc8bc6a33894a01e5509c870315c6b7cdeb93c447d5deaa07a,
  0x7711c02a2ac0a8393cd15867b0755754949322f9453ab2e674b2f99a1cd93a4,
  0x236184601d45ef420befe6aa1cdfdaf438cb87d00949c0e35b92f9e4a76e7eb4,
  0x667e07a2cc92318101e58c474900d8eee88defa3952dba35c0c6e097eef997dc,
  0x1a44378a9d2ad34776ca74c274f9e9ca519f4e63576bc11c17f85405fcf28271,
  0x313762bd989526d48a1b1869d946a265db2fbeac120efc8daf0da433222012d7,
  0x4c745b4a340c19e9c5b3534345c0cdbe2a432d110e04c75fa9b073c6e0f6e037,
  0x69d9b0acef6c3b820173a36b4edbdaf1fb3a83f837aba3e98a5c63a90049d3c7,
  0x5a7de6a17876ff8e3a53495d68c3137fe2a2d359f101a37eb3e17cb3816e5d2b,
  0x14e45c67d8e34b66bd8d968485f14583df6a8cffb26589fa1e9b4fa18159cc0e]

def cQ76 : List Nat := [
  0x52aa09cf0ef2e7f7afb9f736086752d11dad480c02b65bd4525237dc43cda000,
  0x27e4c4cf4ecbc06d2cf1c0c2f6b702cb937a483404ad474fea4186eab53380a2,
  0x6b3604e5e38dd4a9f36f256495a8c1f166a3e022d3a3b024ac6e534c29cfeef3,
  0x33e565dddf159c1aeaf5110e7357c72ea5e6af2e79c05ebf0c0644bb8bb4061c,
  0x352c2a58227520163a874818c28db0d0a0b52226145e1aa38c417e92bca31724,
  0x192cb9665c6bd1cbd0749177f9917474e079cb24a901fae4062211fcd0f881ce,
  0x647052abbe4d544e2f1bd9a3d3a05d1f51d61406358615f788e8bfbfc121a1f1,
  0x405925f1320dfbb09e0502d0147cfb2e72a74aca031e7a2445929f816c0820e7,
  0x4f6f95920d5babd0847f63b888dcc9a62020aa191cb5cc2363785a2d61faa7b,
  0x34b364a257a3fe7a2be77d41ba89e65d4d74af6faf503985399a3958c0020d1f,
  0x30a7347da4f24028c1ebef7f01b95d069f8c285fe808d2328fda4102d03027fa,
  0x3cd748270ac3f907453787103853e51635ae00a2a65fc99380b398ee349f710e,
  0x4b5058c805d6cb30dc01a9dab8cb1671f34ebf316c75138d95b5dd15561b124d,
  0x6fc38311a4befe90dd03995722e41bdc686aaab609256e8b4ecf880e626dd3d6,
  0x8d6ade4c443ae6fb3c5e4d2981afd74ee33f464a3afcdc936d1de0e7508472c,
  0x6587659a4fb13d2f4f38f07673d3210119b7b678953883ac71cded7ecb0d0cbd]

def cQ77 : List Nat := [
  0x62b22d6e704fdee10618838d3b4ab41fcbffc3c42c88ed260247525d9073f839,
  0x133671a0b922132e3449107cda257f71661fe8a19863210805f7ff9c8ef9aa0d,
  0x6ec7022d9467c0046eb6e4c6923fe4f146dd7caf13077e629a2d5c08f0a45bd1,
  0x67a540513135496fdd6f838fc2cebc0dcaa294f798fe2b403163ff3b7108dd93,
  0x3fe3e6f6416f73cd364d8df7ac07ecaae66fe8eccd67027a10efa4916f1c875f,
  0x3f25aaa8ae29be4448a444a175081031f97a7bdd74d5f02236ae2feb648cea45,
  0x73cbdbc113427353d023a57db89887b000db63d48d1040de6fbe20eab9387209,
  0x25a7097d49b4a318efd62d4221aa387e0bf13f688022c51b52ec0256eeb73826,
  0xbca7ac7d668a31dd8204eca44871b168b06942e53c7feafc4169bad9891529a,
  0x4a1211d5ca8f398e90ac52885ba6bd5659f9f5a72637d64fe6233131597c4ec2,
  0x35bffeb4e3b114e480686fce0c4d9e41a0573573ef5d1edd4d066f64b579959,
  0x6e52e8f670e54b413632a08a724cf884e7c4aebedbed477dce7b9dd3452c95f6,
  0x7135f149c26a3ced68047c8ccac7f95fbd1380b6632e8c4e880abc0f2cec368e,
  0x738e7d6d0e5e76eba849a4db5953cce2e631f419d1a0cd5d21a790a2be9f9340,
  0x6027f86eb6c5741b8d7588cb09fe8b740739edd10bd90047811222a09d028a,
  0x39e965016a442b2d6fb6217138013120f9d1218a81a2d105dd322530609a1de2]

def cQ78 : List Nat := [
  0x13dbfcf2bd366b3b2a0a63810cb16f21f05403285144b181813db2f523e8bce5,
  0x67234af2321ba4de2d097c678def53833fdc25f6c3c7506422a1d0acd08cf0ee,
  0x23479e0632940c5f113b0f29d8ca1dfa937c21dd511870fc67f6698bd0a2bebe,
  0x70173cafe65ec3cce974c6377cfbebddc58e962be99bd57fe3ed8c6274b1f363,
  0x4da1b720489df9d2df05b5ea2557fcb61a49aab64aa2bdf88a843115a3ad6a30,
  0x6354f6e9cf35d188ad77a013fe7b023f5679c4bdf2f2bb80173b878f24a123d0,
  0x1c36edc867b2fcbd3f7c3d23ac0536c48f8e49b0f5df4d4aa6eeb8c677dd3bb9,
  0x10d3b3b9fbb7dc96e0b7342cfd8444c3b878d709e084bb770a66babd29cede8d,
  0x2350626262f5cfffd6cb1623877dce32815e0282232a1eb166019186b7b9f0d6,
  0x17671dfdbbc1f98f62c4563bd948e89778b6ab344409809e78c84c38a610d3ce,
  0xc5824a05538fbdf770d1b60232842e4081e9acd9d5f2ee9cb112b40b7846634,
  0x8b5f27ff40587db3bea8628aeb4c8b7b47480a76798195405c47dde0a7c5914,
  0x6f0ebe1439b5879315b03a7d4fc048b859303b82e05438bccc857e5d7210da42,
  0x39ff6d69b152c559c4580a3c6b36c582c1d5fa469984756b7474c73a5f770267,
  0x353a314220b4b93194d546009343bc0d9a599982c2b5acff052a703df0023b38,
  0x6fcacb536245e8e9bcbfea0fd1e036cd2fa61d46774ff43dbdc81daa308e92ed]

def cQ79 : List Nat := [
  0x6a888266f310eb9cdf42a41d4119addf9c204989ec1470be0ceeb2ceec81e17a,
  0x221a62abbbf42b3729492403702e09e1850d69c38637e11127a6aef9841a7e9e,
  0x3b041a5204aeea50d88803ff7eddf7c25e8b39090195783f919672444c3cea45,
  0x44b6c8a76b12546c7173cbd6eb040511878c41297486072bfd2a68d3f377fb8e,
  0xcda31ec9b9fcbe4f989d46cd6ac7b2feabda1d04d2cc41901efa1097617e965,
  0x24fa7b4bb89ee836d6147651d1f277d1432b3b2220c90598519a0e3e29541f7a,
  0x1c594d65449f7a3528a871ede2607637a34156f9ba336898b198fc9d85ebc543,
  0x39c05b15e6809a7031fa04f22ab7c99f55c27af74a6a864e3493ba8e8700dee5,
  0x561d31c2c5d2a302f710ccbd5a3bc6aa274baa2654630d1ae0e4eed7b5b23607,
  0x4be5c154be4794cd8c16c6133a8854b61df2b8158a6d2f7c80ed286f189df6de,
  0xec643e1b79880978575b9f346b0938420ae46f6fb21e4053db4824a2ed1cb9f,
  0x37f90e09c2115d2eb6f538c2bdc63db1191a5eb9615d3384c6733f1d02a76c13,
  0x1420056f3e17bf6ab8053f7c5229d93cc1a0622eefb0890778563708b7059e82,
  0x1e31a0676e172b529ed684a55acca6859b3230fe45b919d1aefd4acd777da13,
  0x1fc6fda3dc99e1c0a17eb6e2350da1d04cc4044f04d6fe700fd343510e4494f1,
  0x2239ab2609292ba29a2c6b58b54fd7bd7a243b1125950e0d46a7fa54f2c2970a]

def cQ80 : List Nat := [
  0x38531af7c733e3f5d37adfb0b2c7e5d6a803687630197af64a67c54e1d122a63,
  0x44f300ce92207c11a461fc1ef840fbff40ac7923c138b840888d75de3dc3b130,
  0xf6a083a8e53966316edb5016de921fc15b3f6d866d93c6ba3d6fd640a664f5c,
  0x3c42208558fd4895108440dd172166db5444a03ef3a12608b978cdf10546dd6e,
  0x2beed1b05f7560b733e70676a0e264f65bd86bab9871d736b48616cc6856c727,
  0x3fe038f8fd2ac6665d626654a0ae9855c4bf7da25c63ea2eb9c52ea5f2ab5039,
  0x52330913d7d8119e7453f6fdb95d6460fa4267fcad0c6913573f957e61e22ad9,
  0x6d422638537b5d5c4c2bc0756c65ed6b1fb08ba0a013d8228166fdcac1adcba1,
  0x388cffff804c40ba2ef9d8ba823bfc6c29873f3a9e97fac015972b5a55684a25,
  0x22d8fecba08adcc5d7d5ffde70e835f86ab1d866ac41417f7208a6eda062fb53,
  0x50ed1fb7d5d8aef36bfb4d1ad15f020f615fa261dc5699d1f3c002d69a2ecb22,
  0x5ec314a3290b878dc4db9c0cc11f256fd0ea67f6dca2894c4159a84b62f57665,
  0xe5a47d444654b28596f95be3e2d48d41c93770bbfaeb01958928e37d764da59,
  0x331f58c18d801610cf839d159d577b89b71c2df8bde86d7cc30c40691b5f3e97,
  0x38133aca100b6a7f5f6e2a7bdd3f0e852ef0e4315732e57fb67a5add7eaea861,
  0x1a4c476e6e4aaef2dcf8a79fb6dfa79af024d9fe46c9eb83fcb7853234198456]

def cQ81 : List Nat := [
  0x2e3e2f3492a37b8dac7fdbe45d5c997335bc56fcd5e90e48fe86e57a017cc1ca,
  0x30f6119f0bd1fefbf44cdcee328d1ea9b576aec10b74371aaf4759afdfff7738,
  0xba3d065d2c6e34f76e5488d96650f35e56551ed4177f61f0bed9d9ae6f3a8ed,
  0x2723fb2a97181ff6eb8dd1adb32eb8fbf1829380b756f1e84c5e897f77efe69c,
  0x237f24e2d1f90d3757716be3d43d38cb5ca00c6a078859fe683f35e9aad98663,
  0x3460586171b3c4ba3d053c8ec5fc80a339be53dbd776a3e48c75b69c16ccd798,
  0x33fe1c3c827e280d4d3b6af78baa52047801088816898d8fac01911e9d23bd16,
  0x65804de93cf795f5c9294aabafbcb51f5d6d10fa2d3ff0744ba171debc381129,
  0x6c8dc7541d5c5e7bbb3a6073baf17b88eed392f5f1d8aa9c443431f3874b55d4,
  0x2c9b165e7c07d6e2dc26a17c326c1fd23c2477c213c9479caddaec56d6c3606e,
  0x1a39b5469713a89ba8140dcfe988dc47f4c71235f970eb1754c77f6e51d535e2,
  0x2881e4e1ac7a2ba3346b9346ca2a800cb0fe296b078fa73eb6ce3c64b55e2420,
  0x4e8ed4a1af8221ed206ca9be8e84d74b8b1357da8b4d5a016b39427691de07a8,
  0xb78f1ea91ea58087004628cd941693dd533bf0210b8f18278c197c786d9d04,
  0x3638999d1deb4681a01708329496a79c9c0c9f20b007bf4034dd5b039b722b6d,
  0x26e0a58f1f5fb87e2d38b7e3f237ee791a19d8c47f5b4aeaeb04f5c51a33ab2c]

def cQ82 : List Nat := [
  0x74df8d8b3483eda1fa709d6f06f4542b64d67eb3928cec8907e88b9a81cc23c,
  0x1124b9e264d3d5ba471bada82c31abaab49d47123978464fb7197c744d73186e,
  0x50cadac0fdef8546ed1c8e8c134e0c79573d43f639929c241fd80bf55982255f,
  0x33f5a4eb3d454b758dc21c23d56901e205c4b8edd21420a65c8829da7b1aafbf,
  0x2520fc86aef7fca7ce0590d9a04d6c77677b1cbb4a05f56b18c3fdc23722acfc,
  0x2b36b07902c664d315e53b07a8e2c7ba6fd6e5e45f8c0fc830abed6200b81e2b,
  0x17c8b8a5e4b62598180df5e9369e1466df492884e4f3f280f389f4bd17264fa0,
  0x3b20768cc4700c626a93a587025b30896a167048524adb90d2b579ad422d8ac1,
  0x402dec4bd2a97292ffaf67db1ca3db78d982c61fa3de4780fd8c599f059626b7,
  0x3cdef8f90826c34f436fe6d296f1e260c7d7aea1f80b0c91798f9d64a5dd314d,
  0x3579afa07c74f1950443de7266f5479ba587824784aaec051566b8905d4bea96,
  0x6a513d892f7f520aee870087f76f7f7078ae0098fd4dd3a9bbd073a3c4ca0299,
  0xb8e4c2f9db6dcfb88fadecdd8fde94f4ab46ea214e3a56b13615026996315cb,
  0x374dc18aae6c86266be4d348f98b1db090970f18726df7ace0f8972a1c7425a7,
  0x67ccb46b02ac089ff2eee7c35863138570f4c28ff06f2998d6e380b042aad1a7,
  0x6c71d8ae6fdf9edb9d16baa573cb9524416adb8b9af8809a1749248d1c6753b5]

def cQ83 : List Nat := [
  0x2fe924e1cd263b18f056e4a554bb3303e569c2c270e45abc32eea2108a93dc9f,
  0x419e1361b69c631400a9904cb8e9fe30ba800079d9d0b76c17de90b45158ea1,
  0x2340f1fa24040dbdb8af81cb279f91b09c140356bc2de5bfd2fa0e157e91716a,
  0x35a03be69735c9ddd96f567d324423af425b26b90d59eaa6ae94dd8047763e74,
  0x4cd1aa67185b7011895342e6aa92666b911eb9161602258b40880ef3b7bffc9b,
  0x3501afa40f9c8ed740b044ff287a3991899da0801130a77bc573e1e0fdd81f8e,
  0x2fea472c480459048acc89fded87e716541a88729ed426cb4c9e938414cfce6,
  0x30a2b5d24fa7d04489e6fe3b5a55aacb0aa747d4f572943b6656d9a2615e27ce,
  0x132ce4b3e79420eaa4a9bc0f58b282c2689796c3ae82506e4b75739aeb076df2,
  0xbd74e3b499c8a79ada4b0f8627336a0fcdf5b64f5a835290e0be225282b2923,
  0x65ba4f8a346a7415069358885a1b6bde590db19e722a104439cacb7af19b97b9,
  0x1b01ed0b0c1de3b6a0c283b9497ba3b0785027692962c7e57e6e1363a7886481,
  0x49c80d2fcd95294b84ef6af34040a74877fd4ad9ba2377daad21bfe6e6833d3b,
  0x50faf6f089f7178cfcb2aad604c939510d52bae4eb427658f9e9ce3e1d9015a8,
  0x3a81a73f6d10f3f3bc0d68e15946f50cde75b4c7258cbc2478c34d597736ade5,
  0x3b70fb12d7b024b2cffe312d6f0a7d894a8a4e27f48e5dfba5badfe078740e52]

def cQ84 : List Nat := [
  0x135bb78ce7fd40f894ceed6aaa2c2284923fd90f9f1803330fb36a702375fce6,
  0x523132cbc20922763df11b1e9c8d04cb6ce0be9e43218a310920966dc4e9c04d,
  0x32da781748aedeceed4c79889ff4ed682fbfc01b6f2563d17300148ccc3ffb12,
  0x4cdd4d7ec338b80042801804470dcfbe7bb5d893ecf269d5eb42d71aa4c71977,
  0x595b272c2e013945e71edd8f2a022c5323b5933b4425bce137cea217f5592afe,
  0x117f7234665abca9d9b8f00ee2359ceb6599fda3b9b1971f6a8c89df9e856971,
  0x42f8e1fbee195b3163b63071a98d75c55aa734212e893bce10722488b8dc0f87,
  0x2a8fd1fd6c658531063a943a85b89495dae71c0a460019aca8fa531641c1e69c,
  0x234cc3bad7898136d6e4ed3bc5dfd1facb99921f061f04de4848dc3a7a50ecbf,
  0xc1a2fdca28a2556535cccdd3c9396b8ed5b31c1b4f9efbed00b7fe4d3028a6,
  0x170f48d8b27b0c8e6c86d33729014112c62c1c5737510dd98237f58f64b858a9,
  0x35c2d5e442fd2773043c3add354d475044aa3ea5c3fb1ec73486fc44cdeb0d3e,
  0x15abac38375eca47677e4ffcdeac810d18af9ac0572a4c60b00c4a409afcd357,
  0x5c210eebb75f1c8a339cee8ece9cfb9829a420f0124313ace523e083ec5692fb,
  0x7101b04c999bd65aa4b9ed3cbc562cc9ab1741c7f0f29f8b8b8e1f95362465b5,
  0x42539a2a611582817bf8c91bf703fa3fb074e611a7a7680defbe2b687b6750bb]

def cQ85 : List Nat := [
  0x4ef5b65ad5e23f50a6835885efc2d134d269b313d78a1305e8fddac696d1fd33,
  0x50365a7c8144c9b456459053d4e032a1617db93147af655ca888068b3df8c876,
  0x34e3e1d17a9a295037a29aa11833dfbdf083e2307d6cc24a4876af1e36cb3777,
  0x14c5d1454e94fcbbc5c93ae8a2ea47e01e4942233c0243e89a74f2e59a725e5e,
  0x76d15998bb9e00362020408b62924444c8dea676b4c534f2db9bca412b29bd5,
  0x5f40909a53ad39b940f55f9a6cf04b429bd0622efbc087ef631131bee4f896b7,
  0x4dcf0e5d71a228bb6fab4d3917462a69e25993319b6a33e82cbb3c2bb8d7f774,
  0x29ddc15525d2650ad70532fff7f17bb144de3e598e191a0f9427145ab899e02f,
  0xf7c6f8da47fb213b0a4ee84d4e2f3bedbe2c344b36c0b0e51e94141b2c94960,
  0xd6bd05be9dc807b60a94608587e552b0ff804b7155339f3188fff51d6277fb3,
  0x4cb46d4415622fd3c15f4c998089000570a455f8fe0b6ea5b8f0b8b03e00ea3e,
  0x4b2f0edb95db5019b1daad74fc6aa30f0924c83c0054923282a03e4624f4bad4,
  0x5321e49f3af7d2a7c1e71c6a7e75e928a91fb4b2e0c017af0e09e9ba228b1a8,
  0x17f783fb10bd8cd586142dd2b94cb45700227029bb008da7f38cf46c3b7d74a7,
  0x307039c0ed1cdd5a0985374c4542c85f414eb0cf6cf369be3688e68b1f72edf4,
  0x6c897dbb726056d8a65b1e1714c307b0fae7ecb4d965d2c2c5aa00024148c569]

def cQ86 : List Nat := [
  0x22d7b6e93f4c55e6a7fdca30659c7dd7f7da935b8605c449a1b677092327f52c,
  0x285c4558f1021ee606edf233cfb3d4fd66f700d41a1237c49616f269d5ee2c92,
  0x1b98ef186c8e3bc6671edaa22f87aa1ab6c50e25d3d6c06461bf8760a7065204,
  0x56b8e6dec52fc30ff6a8a0566ff9a293ae06d8888c66fddd79fe4c61282029bd,
  0x1f30dc334a0c26b4fcd1b854db7b11d0ef21123b4ce12bb99743a95421f69bf4,
  0x4e21b22e50eff2be45990d1d75080e442dd35314bf98c888c2bcc910a385cf9c,
  0x29c7606e9fa139681f5841c3c3c501ddefb4061221bccda4b1d1368b16719161,
  0x386ebd42834a562e3ec23fbc634ac769b00f668f766f008cb459e1160e81cb6,
  0x4da34d31c25e151d1259c4d13bc424ad8470c19076446ba84e3edeecf2969ac0,
  0x11286364b98a7a29964e31463f3ac58e9590870e7d9bb8a5de062ef78709c5eb,
  0x4d3d6a2d02b398618c91e1a7cf310af2f890202473b14e7b856293173d2977da,
  0x3f4dfdb4823adca4d19ccc4141c06a4d19a447acfe3b292d46c9eba162ce4c9c,
  0x3a21c5eddd0cdf4741d419014bc10780ee3f2a3ceb4c374d1f6818a956ec4a6d,
  0x6579ce0545f2e7f6171926de510684514cbb752cafad6be6802897f458d84aa3,
  0x52bb7adadeab48aaefcd070e74ebeaef0e7bd1b76eefe602d3b3f60f08eeaec3,
  0x288373612758a352ffab7d3ddde2c60f450237f403a412d6bbb6cd72b4316180]

def cQ87 : List Nat := [
  0x4bd0d48a296c06f493578cdf081fa89f61f8cb1fe4c37fa9d48be8ee0a737baa,
  0x8929be97c00428a7943191ac872c3c53c63fadd3e755dd775a72f84c596e5b2,
  0x623b1814d04db7564769352c25590ef66527cf1da8b81c088a57e7439daa7c57,
  0x520e6176064582c5671e102cf2251415f128c22225133307ca1c09b21017421,
  0x20ec2f500235a9bb6c7fb43e892fde5173db99744293be952fe2661e4c471ee,
  0x3f6cd22c33bae456e458992dadefb87a31b7da2f030c5c89c12dab7fa8edaef5,
  0x59104db9e629f2def1a332bc49ff679091ed6259c8275bfe48da189eb5c769b3,
  0x54513b564e7d35ec3fe315ab89bb1060fe6236c8d3573dd2d19bca9e9b240f57,
  0x4357639a7f3abed89aa1539a736a76854fb3c9f24912144c48f19d1d3b26068f,
  0x536964d26794d4684dabbcd5fcd38f500878466e4eb373c42971269dcd6c3238,
  0x70cf51f1183f705b9a9938eb6d2450599b9eacd89c7be003274a38626efe9521,
  0x39e6f05e3da04e2a6c7b93404148a1168006820869c66647fa97261689d71afe,
  0x539a285c2d2919b26804c3bee784b3906ecf212626a46531670470cfeb639378,
  0x32248f574b09a57831ded979f7871f6281314823b48a0ee2e518c7781b7fecfd,
  0x2caf192f318fc47753867a8191392bf4c2fe197cce8c73c896900abaaf25e9,
  0x4c9365c301327a1cc47f4d8de62ee3c75cc105af64e78f94c6f0dc345177471c]

def cQ88 : List Nat := [
  0x263fd4da4dd01229cf3337a99bfe0664a5ce445f436a0a92ac3ba5a65d70707a,
  0x63cd658f83962b60a52f49ef5d2d13ddf54fb60d8e3d21017ac0968d83d5b67d,
  0x67bb6028752b0d4fdd38865cd685a0258e4f84ef666bae7ca4dd9d24a668523e,
  0x4963c4c0ec2067677879c66943e51f6706839499ad38a8cbc81b4f7c98f5d8c0,
  0x4ac58ed95a21773f29958cd327f37b5daeb14ea0d4acbd71f42bd010195ea34f,
  0x4436598939308dcbe0aaedf34c9e9aac8b20655108eece5c1f4bf35937e0e94a,
  0x44b96a1629476f7aaa03ad26469f1a0f9f1a7f617605bab5b9706511be6c942,
  0x6c13ea74b73b46189e4f3df37c4594cd3c6ea27f3c3a1b7572ff0de3a24cf037,
  0x25796392285be364fc4ed7c1a3b4c5e37bf01ae5785bd02d32f39e571be67225,
  0x3274cbc609353aacd4fb4c4311e354eb9425d7a5ddffe4089866819561fed6c3,
  0x6dd63aac4cce2f84f17dd8bb4ca5f8a6b16e411fd05d1bbb5827ea9cfb360406,
  0x45836ab3e06108e76b8889b9945db74bbb9f16ce1083301eb85be473561b9bec,
  0x6a9227d522617e122937e80e80b059c0091dc21c69116ba470e82cd732aa48a8,
  0x3cf8be71618db0ee6c637668a98b56771ff66c6e9d83440d3ec0e94c68437646,
  0x72a4802b5a5f9c1aa8fd55d353e58c637619cb24a85d47fc167c4c1c834cdab9,
  0x18e34fbc0f9d3f95d2ac30dbf9c2709cfd97deb3e49fd3123e62556b4715e837]

def cQ89 : List Nat := [
  0x22a0de0d1c6aefa5e0c5b3ec7a9ee5520167107324b8d9d1e216574d21c214ff,
  0x512cff32e0fb47eabcdb1793b370e9be2e1c6af3db9dbaf4f3be94593c7d3a81,
  0x5363695afceeaeb6df174ec053ccb895340ffc2ba68b912948c0a9cdce612d38,
  0x414e5460ec766ef54eb9545234141c377e179637f18a93d7cbd85216567539f4,
  0x2f1ee52c6ee6445bf5bf12bd3b09ab45346753172a6f1e0aaa70f1599ea2f769,
  0x1be88f52db3f114f5204235d1b12572b895a413fa19085a933b3bbfa2984e671,
  0x143021339b920a0f78f34b4d4b1ad71e02a796f0eb40ab6107f42433f58d7d5f,
  0x28165aed533d0dd77fbbe46b004a389eb182b23fb8bd56c3b91200a6c0156520,
  0x6b922f5779c7c1156c3c81e338371ab674e5893a475a980d3484abefcd35d2fd,
  0x32e2b15027b61061b8e06244bdb7ed7fef7c7da1fd26e29222b01254c968be98,
  0x2f94af08a86a19e8dec15cd5a39303c21e9bb9236975edf686a61d322a58b11,
  0x3be8b29087e33b9bfbc12b528673136b02ce7c5c0de0f0709e15615e89568feb,
  0x167a5d2fe5d3d7fe5ccae4e5b4e2b16fc9523f8329999a526f1be1015cb48780,
  0xac1728ecf1443ccad1621e7b0721cfa19eabd5f1f3d0c9f640ae3ee0df537f8,
  0x638d29646f72f0418149895fcb779cb03220394ac178f52b1f3502e225afcc85,
  0x64b3783bd3d07ffedecabd1c68f05a6d3de0c46bcdbe7e6f7ff43f0349eda422]

def cQ90 : List Nat := [
  0x4a328905e39357ef25bafd4c1d2cfca3234155932c83f9a25acf612d540d01d0,
  0x4fd0d4993f9914de39b8be96f0d561353564229a4601ebe2b6891e4b6f5d54a6,
  0x5c97bfea8a467d31b0aec5a8c7209cd4f991c820184019a80a3f29c77d7bb63f,
  0x1256f4e5ff85e6958d72d062f6fa9e04a6f0e17a570ca40f2ca994581ae3b096,
  0x285facff0a5675ef200461a662766955626f50fbe1f9ddd5bf84a676beeaf0b,
  0x699c6f144d3356f05cdd51d0001b09d8e8beacb7967d82ffca44708e2af47f7f,
  0x458f33dfbb0fce7bca0db8553e79c793e6ac0994b70bbde54f4a5aea70c3cd43,
  0x1186e03642fc6f3a8b7c8b9289ea23820c0b0bd15c8eab7e15c2824ad52b2597,
  0x6ff35bfa70328aee765562d3f9e60186eb918f98d165d4918582debc193768a7,
  0x5b62c32acc3ecc8b41b6bc8e21d5c033da6b8a6d52fd6cef2e32c53513c1630c,
  0x16957599dcfb32bf4a9bf771195c57f5f3732c72c7a9b7c08267e8b07460dca0,
  0x4d44e43d648d593c745733cdbe44d6be4726030e9fbd54b74bdf046456316f39,
  0x54a398f26502d18e1bd7cc3a43a055cfab3cce2f74d9e3470144f9ef3fdfe206,
  0x55b48b6c7d7a0657b308dd0d70bcef3c5488d6b953c359494100d2b2eb121978,
  0x18563afa7fa5ab32bb845000990134cfa6503dc53a2cf414dec4626712194929,
  0x577adbfa51efb08ab4a72de8f414df006b6af4010ee1b7554921671f0efe4631]

def cQ91 : List Nat := [
  0x2e1662a89324f78bc59edea7f931cb01f0e27bd0f24cbfffccbf7122450943d,
  0x46c7409d9fb5d25c00c84c1b34b3b36f9907a5e45d876e865be714d98bfb0510,
  0x5455253a6542bd640d03969eee8a0815e858dbdc49cc0b80aa36fa83a668a70f,
  0x1c53c9447b2acabf22305688b13c3a2595f26f79e878111fcce1c96de5758d18,
  0x17ddbddd639ba669ab9d0ccde0e2c822bc774fe63829aa75ce088a9232b968a9,
  0x5ee467297266929ed27543d4055b1acfefd70eb5ebf611b1db70c2fb23aafa92,
  0x4809a0b076696b12d76e4a198ac4e320271a3161022d567539291c0bf69db2eb,
  0x338496d26554f638e33e05118a2a2eb6a06d60700ec62393f08e22b05bd39936,
  0x4150984e8b40f704691f317368fda5f8cd979dc700e34797bad60934777c4abd,
  0x17ee302354ce54b5d5f9fcb6ea49de385185ce3817e6b81b53344a48d1ab175a,
  0x4b4a5c56f16cc646745c9544c78f38671fd5bb788a154018f4dbfd9e20417e6c,
  0x93029707585afe96ab3365e9bea3d01795fd40eb9f45b7d20883c056e8b4375,
  0xc46549625074dc6c84d13fa36d5621731d85854fc65a6e05dd491acbe2e00d6,
  0x53440332154442a6ad455690785be665c7ad69baab9c4b55c3c9d767b1f863d4,
  0x6b786ec52d66f3c4209071713f7aa2556e72e2b49bf4bed1825c608522876a0,
  0x577b3ed74216e02f9c7c492931e2a4c48114a683b3b95807e4eeb31d1eb41b07]

def cQ92 : List Nat := [
  0x41f19d2f929a1ad98e63ae17eec3f72fd7e11d92e800bfb8de2cc0bc3ee73af9,
  0x3f98915e6ddafc8b7c2d93cc97ec6741eea2892952e8eaff1e391ec1f08aaf65,
  0x25fa99b64d6164554468853f5fce67c4a73bc103b7db8f8f43855f9d59d06606,
  0x6cb4b581ea6162426b18381221d02828917a4a972d9bc1bd09d27c83367c94ea,
  0x545b15082ffd98b8aa6b9aeae835541e66cb1472d24fed4d54f5d4fbcff2822f,
  0x418f65b935a6050a6bbbb555e89b284ae79d7d20df281289e88b3dfe9e9b2a4e,
  0xf17980ba3b21c17adf2f241e578670933491cb97bd1429f62be711efb17c3d1,
  0x2486859ac6d46d86d7b88276cd0d5bdae20ee44aeb91e2c3d50af91db90bbed3,
  0x523cc2328c0e4e157c79175966af261bd954b984662569f5afe58d9597744dd0,
  0x4b0ac02db74491c76ea9476bf3c4b75a6f90d641fda88a0a008ccf997e53f76b,
  0xe2b57a552f513f17bdaa83fd23d2e08c5864ae32a068e4cf19000735d337cad,
  0x6e43dd68961c377e60a8c3874d809b9ff713e12ac694fad4efc662a35826333f,
  0x242ce7165bb292f7382e53d29d4977d96e7dfb16852c792dad2ee1352f291bf4,
  0xb7fbd8d79306253ca80787a9499051543dc6cf0a5a1afab0ba1d898a1e9608,
  0x2c26e220f865423e2d3a5309336ddfc02ebbc9754fa2fcc1fb587aff19667972,
  0x64aef25eb98eba9f1b017fd9b1ec7d2eb3ba3cf43d61d30a9445ba7a95935e59]

def cQ93 : List Nat := [
  0x6ba1073406bf469f6e8a1b9b166a0da82f97555baba146fd3da69f6c583b0267,
  0x235a953947f1b8fff847e02171bae5c0b20fe50ba5d50b468b2128dca7d3e5f8,
  0xd2bfeacea02d699eba17c3f70ddf31e6a263f3ca0ac981e0fa9664d672ecf5a,
  0x49f384bdcefb9ade0ea3fcd3df74b9b997c55c1e36c382db33827169123bb8b9,
  0x2f2bef51065227e79b7fe2ce0d2408096d5f68d312cb98bbac310448f79839a4,
  0x5773df0201b442758397889153c26c432baca2f8eaa2f46ef4e959bc1664ca86,
  0x53a551957f26234c7fcef30ba2869ee03c78e302f05439474d0e0e6a1904153e,
  0x522ca047dcb2efff019dac310afb29d5a217db257c4a31c0b0fc2703690eb8f,
  0x2b03cbf5459bc93e62e2364fa69ab1b9c7889c0e18d8d1a36551aecd7dc71048,
  0x245b651008354648d64a75fecd945157deffd3fa4161b25a5d53a5396429feb8,
  0x6a268f618f1a84d39aac9ab25f1bf68a186db06a4bb725109c50daa2c170ed07,
  0x6b6b9789ed7bff7b63d55addec15edc9dfdeaf65ff4f5bcf490e83c9c6859d3f,
  0x35ca7193311037ee76abaa8a8eb7ea2b3746829d36af1f7e20385400c1a9cbbc,
  0x71de33623c9db813233aa0d2b7a2f044ec6d79809b5c11f7d2552dc9a8a21fb5,
  0x318d5bb4bed3c3f05ae7f62b4c5425d4aeaae123aa7c09de4b5758c610c63255,
  0x5c5ea16e67eb67d06ee8485da34e69f7d559e9799d9ff7a7454f14cc24fde5a4]

def cQ94 : List Nat := [
  0x86338e3cc29c6d83174ff98fbb1059165ca2a59f3545e32d2a4b287762a23b5,
  0x393ea6edabe930c93db10421aa33756b6b14d4ee5cca35edc381adfbbbc8a682,
  0x6c3ef689767f7f63328d4523c07bc040572d1e1f7773542f53476544a1683573,
  0x425c0f0eed83620629b9d3255c83a5230c32b0f5e4afa8e5ea21f8d3d9e436e3,
  0x395892aa4e6824fb7c8d3313f7ec8a6841d6be59835eb40e015746db1b6b612c,
  0x541e90bf61915a593ca8275a765a1bf053f8cdd04e27c273e6a4d7bbb59f0387,
  0x10ee370499cb5e418e41ad176fbd39f29b7f6112d2d036bdec29604a354a9db2,
  0x4ee7c4a6f2cd383fd10d0b9ae3064c779ee49d12b429c1bc6659c2e72704fff6,
  0x3a2c0988aa58e1cbead31524da9aad47b56c03998a32c452674604ccacc61962,
  0x23d797311ac827e509b11ef39e700f839a6aa4ece98099fdfef852b3a6766552,
  0x5ab5dd93eab7f9f37c9bfc14cf6686f5ea77f40955c249e785225eb34f25ea6d,
  0x42e17d4df3a93690795e78c1d0a82b3b6c28fbe44502a527890621b38feee353,
  0x29986b1aa04fbe56db2650fbf7729e02f0f709e7f0ff6c6407399a220653cd0,
  0x3a4939cb8d96f73258018aeb4f23147c87eed9c50ee20c512eef0a742f98dcc0,
  0x2f827ac1579a449586f2d5296f7432dc8388d80e68ea8e3352078f93bd8adb31,
  0x2053f81854ca5a1eb68ca646babb2d1a57cf021f6d9bdcbac57b3b44fd2b1349]

def cQ95 : List Nat := [
  0x484764cd3c5fbf3f10b26d98e4a34563528b690ad178225c36634dcdea91b6a6,
  0x21ddfe2f07fe136cd8e00c884c8a2b748150eb37ea92bae65b16030b6086b6de,
  0x324e5c7d6e30d6875a95919bfd42df8be7ceb99e253ea12d2c670ca4facc6d8a,
  0x40e1d01459ae109fd499fa8731c22f2f52833a412daa711392f27d64e883927e,
  0x24125101bbe6b468beb3b3ce8dc04ec49f750616c29921ccc8bc093a32a14d9b,
  0x49ae2725e1f23d2b931615f22873903d110e3158681ede2a8f9aa55ea5002a7,
  0x1bf97991e3a5b5cb97861adab23199b889d484eef2c459597f14fc8ac97ce22e,
  0x4f88f106e5dc489bf45426841fb67ac41a485ce6ce5bde2357aa57f62524671f,
  0x4a4a73cfe12eb7105663e2e7081bff3003aa0ee3b18f3e5d4911b93f13fd87e3,
  0xd6c1321d97c8cc37a8a701f7bf0e15962e752df579a1c47b381445935b3f1f3,
  0x4f2b9d19fb3abf6f4bd12c5772e3acb3c1f7bb0afd20fd2168b4a080be6bb0a4,
  0x4a68b066019c4bbf878be7d3367cea8cdc1d4daa60a63b17cfd92e201c56083d,
  0x5032be24e0695840ea9e15a7f4940fb991c84c9496126c9e9710d92cf9f5dde5,
  0x5de52c05b35e4406fece409e379cff58e78cfec0e56a3a54daa81320cae069fe,
  0x3dbf14e07bdd1378e2c628fe375e6201b1eb67c4670b559834900a92890efa3a,
  0xbdda0112c9cbbc5ff6a523e3e3a8af5474b07f0f22bcb479a62067aaf213675]

def cQ96 : List Nat := [
  0x50bf47ba78c0b777fb26652c8279a806e6e1d147a8a12e4aa3013d350498a9a7,
  0x48deb00a24ac5676f9be409ca0c1cf196b60756137cd50cc59f9d9bc6bcccc62,
  0x9c27bae4f29d457a7c560738c4420271a3807049f3eb552499a83aae4192483,
  0x4f69f3be92092c230336a9e05642cb97222b6cb0829dc4d445dcaf2ad68c4bc0,
  0x142cc3ed3caab232710acc51892ff6194ed58e0ac465da0b7381b0ebd17e3d91,
  0x6c2b8af59260bd7bee7f09f63c05c5f50f86596665d4595f9f40d32bf3599cf8,
  0x715a4e7291cd2f18ff59a09133caf74117105034e970675007d479c2f6dd0930,
  0x210e7647c44e25f90478178f4c2e57c808339ea84ba2eec72434d5f884b1231f,
  0x567201114dcdced7af74c393a1b72261642473773360860cf20b78951e4d63a1,
  0x3defc8af4cd0611275a2dfadc088fbb67d8a45115ad486e76776cd633ed6f9c7,
  0x43fcf678d7bf5d7462a8361e8b8bbbfaa7835a74c1462ed4e2b0389d3dfbd312,
  0x60f4ed4d252ae343a26967699089d32f4e642daa4208fcfb13fdc2882811f1f6,
  0x6889cfa93904063a1f9e840eead71354d1f5dfae3515764215b9dfe52e662252,
  0x4d36dfddf2e3fec6cc1316ce7458c3f24e4f1b473e8fd312c30d322711163a5e,
  0x277d4d637ac6d22fb6000e2fc8bbc42c96dfdf80132f33e5f0655138532fa988,
  0xca9963bc39d97d54162d31a8c03af59cd38185475ccf8f685cf45225adb4735]

def cQ97 : List Nat := [
  0x1642b9019d78ed687cbff6b96c3aec7220255ae96a32d1b03c425229e00cff3f,
  0x453ad0aaef450419453639344fa018fd30ce8a110462489035863675b27eb575,
  0x141c0444e020ab37503fbf4a5b74b91739e83f4002fa2a52579774230f749cf2,
  0x3d8899eb45fe27e4b6b7e686f6b199d6265630549cb6b2f600eb2e88f03f0a4b,
  0x41689ba41ae052de4d30adccfad9736a4b954a4018f742dfde5c27856307572e,
  0x699b636d3e753a0a10d12db6e7902c9b7a8abde186f677f9125a5cc1e0cb8e38,
  0x57c4d87b6bcd17ac85b5e4c63d356f36be0c91f877535aa0aef2831c1b9ba0fa,
  0x5c881c74f2f3b7c886dff45d4337307b53370f74beca12db8b30eee6761b5c1b,
  0x325db0882c0a04968d306adaba7f705a8407869b25a05b588134732b09d54b1,
  0x1a6c5154669f63576d7df1fbb89e986d5ad55b66ff510a898b3f9ca7363985d0,
  0x664628a0300d89bb15fe86d20ea06d1bb5038a3a6ae627b6ba48cbedb9d996d9,
  0x1552ce9d55cc9e4d08f24cbded7aaac0c4ad277f321baf7725af8058d8fb20b1,
  0x3c5e008bd74a7975c13fcdf8e5b3c8bab217ef31504a5bf7e7bd157d5507fbdd,
  0x1ed65c6e99907f68626a8c07676086335bc53d5c1bd48b942af46b658949ff34,
  0x3859435392a149826e44611bf52f75a8f65937a5183ff2c28a07c691f763d45e,
  0x38f2bcbc5f9b5b7baeecd50bde982b3704bc4270005728e8c46bcff5e2f4727f]

def cQ98 : List Nat := [
  0x67ab73dc0aff6d028d1aaff2317a34ac6ed301fc53f45e1c4b2e786f0e8a05d0,
  0x4d8bf288be70691ff835fb3be8efb3cb3b9b3eaa2c9c326c611c6dd72e7ce81c,
  0x22a5e5aebf1900ba66e909c56f9e662f1697713ee034aa63c044da12ce7ca89a,
  0x491e9badc1607372d941d490ddb4d0d5b5bd854bda045a7319bffe240e94b9f4,
  0x303be16ee17f8e56fcb5f965b6c0033c6d45253a1975d2191344c01d4e778fa7,
  0x6b8f50ff76fdbd1c8f32894702d8f380eb70a5523fbd3efe80d16f1857f79b60,
  0x457f3fbd73ad04e4ebbd923426a3280bb3d93f0e6cc204163bdc2d62c5f31fe5,
  0x2e8099d2248b506ea7504357e8e3cf879cb7e28febe0613ea34426e025a86919,
  0x156d64dc66de62e9402017ed1bd66427f8b5185f107311cdca0ab144b1cb80a,
  0x2be4ac3897fef01b500218a0874a4d8c7d5f89af914b1f724d706de2bb50cb7f,
  0xa1815cecad0b22f18ce09485d4d80b7752e4ae270678718d321fdedb2df8ebd,
  0x178fb1ac26b62789b2d36d3dcedcf58f7ddab08a62b1536edd561ef82e09d7e0,
  0x4c7d680f1d29ee21aed910e88a29d686593c28fa305581091eac1b347f7bfced,
  0x2644b8474a741e19c0f340aacec00062325db0f6aa019161cf339e9180ecf612,
  0xec20ef2d63ad02b1ffffffd5784dea1babff610d15c4ad0b86baf46b967a15c,
  0x1b7102eab51e7cbc7c0c5574e78de8f4a7a4db48dd9c6ce36785fca73f7c756b]

def cQ99 : List Nat := [
  0x696abd838a2be715fd02f18fc2b24a2dc13ea4511ec38788d39a2ccdb99ebb3c,
  0x1a6fc3c08ba1c18b32f194571ffbeafdeca706ec793fbffa1bcbc244bf03fc0,
  0xd809dff95342a2d1e5190a125bb101ce2f49cc513b6720f3b7d1530411bd33,
  0x4d2e4778aa9d4308f023f62fea51e21c7586152eefa8832bdc003eb99194f80d,
  0x53ebfc87da788f77e4dcc4ef414487a4f68082c19380adeff5eda290ee2c0a37,
  0x3f7a2691fc70315f0a380be830e0f82b545de7ad112cc495153fb63acf3e8e4e,
  0x363f477b64e8a9dec449d7595e4397490ce87d621368cbb2414281f71ecadf7b,
  0x148b336e8e5e1269b7c511be5080e98cce4ed100b8568c9f4a8bc58003f7e3a3,
  0x6361604b84b0762440011b43d27fc0f62b8fd7ca05e363178c0d87fa56fe0f55,
  0x6a9201597e4d8d5e048b5e243078297ec29b97db3ff6cd17cc043164e3377680,
  0x17a6f44d5e35d6d26a53cfdb7f4244041fea6d5bb7115d02a2978623ae56b99,
  0x9c99647a39532f18c62f1b962ae996ef3f3614dc8dd696ac94dabbd7e974932,
  0x26e75a73e40c0a00e93a4e6e7d0c7073f93a7d402806bb33428718856dbb5fbf,
  0x4ef250f9890adbca9487096ddc50ce6cef5d40877a8a61acc843c0af0164a49b,
  0x61d28daa607d9aab7f65ccd68ede44883d63b8d3ebcacf767b38c19650a1dc54,
  0x90f1782b32a29ab93796da8cc37e022ad4a7c47f27f080ac50431641bc6230f]

def cQ100 : List Nat := [
  0x51a6f95b1e0755eb6aefdff59d124db5a20436977911b11aadb2b0a46d5a29b4,
  0x51b03d6f263180cef98609abbf3d44d5ef1c6c0a69600aba2727e9fda7ce5660,
  0x543e3c798fb73baac5d68dc050a82357e529c5265b78a1f36d88b5952fc44676,
  0x4bbfa6af6d26654ed7f6b37f70ac636a39de0579d943604099394fd030db5d5f,
  0x1720fca5e6064030358483bacf625761f78193cae251d4b3bc69dc3f15a8a053,
  0x11cb3a99c70f591366424871a89384c9c6ff85ddf54c3364e4a91b10abb17ab,
  0x30cae8edc186b74e8c3933e5490c07e3a5df5b5e10e0e1b8ee1ffdb56d909a9f,
  0x3baf0e67ea6ac5511f98df938c4cb35c9ab392b8c418752e8300a07f7b6a1908,
  0x123d98aba50c45dd34eb7bbeecd4992c6c7ec32362649de0faf7953c36981c52,
  0x202577b989780d666e9ff44ce67a33417847e47eacdbd953e84f908e22b33a63,
  0xbb25834fddd873f648b1e5992008798be309391179e5c7a3003a8c95191fca6,
  0x559297899c6036481c85c096fd8fe4501ecc2d94ecdcb02f5604c95f4ac5d8d,
  0xc9cb877a948123408a1ff3b8cf9087922a7ec9561f6bd7fea5c8ad1f07aea0e,
  0x268c491cd01ae72ec41a90ad5a070ce8c1a732d64cc88802cb3808593bc7cbc7,
  0xccfbe6ea350ba57c03ebd72b9ef54d47d131fb0cea5d7f2485911febdacc2b2,
  0x63ec37bf82771e4dcab9dd6b6e80108ad85bb535e98202c21db4fbe2f179833]

def cQ101 : List Nat := [
  0x6954db0d5e81e6063fded56bb905361d5ebe9d1105809a84251f0f344f5e1935,
  0x6731516bf7578b9b0f5c7438c12d1e035026d552fb394b917c643ecd243a3501,
  0x8c07844d64ca9aa3123b18faef64bc04443e68cc4e79317f0c852a143f6180d,
  0x2971ffa8147cf4023f93b9bc63fb611f533e66bed31aff869006b7259495f51e,
  0x2fdce6fac5d8a761b75d1dbb083c92cc022bf211d8aab15346dc1b8c604c28ba,
  0x460e01ad2592946a87d59e7b617c7a3afec0711d7b855504092925a5b10d347f,
  0x128064a9288f2c8030ddea96392d30bad84f8cc528c3e1e744f9e06e0fed2a5c,
  0x2cba6844e60aad9480eed2266af65cbf9ed0c39f405a0b7537050fac72c13556,
  0x3fbc4940569a4a2ea1df65913ebe36531a14f3b4276a8cb688257a7cf531979a,
  0x663859dfee3644943b0b01e99c362ac9a6fbda93bd611dddb3a5ee28a7ea345f,
  0x13f620173d4391a468ac0937c489a7a0f73f8ca6c8c75fc2a8cc8efbd09bfa9c,
  0x5e9f5a587818310fbbcb82b6f37368efc33337cdd82369e47b1f62b68c27b263,
  0x21641fce52fbe9db7b9f50895c5f31029ffcecf3771f76f397d492d9fe0bb97c,
  0x70e7bce7468a33e8c6d3fe34f86bdbb727ca5372a4c7efe8454ab6ff9c9f768b,
  0x190f72f8b454058197882e9e512d645ce7a5f8d1549119de4431576cc5dfc1d9,
  0x1737da1c34fd8cc35284f22e5a3761c4cfdf0ec085e7a83915d182663f1e2dad]

def cQ102 : List Nat := [
  0x6e2a95e0d24d85b15547fab3aa78bdfe7726558266b6449df4a2a8d017cb6cb6,
  0x3b7dffcce702fa79598c5cffaaee24f730c718c2d12ace3e1f8103a8d0e2d700,
  0x33fb45f957daa5f1f3533e55baaaa574c4172467ca01851d41bd4bde4561416b,
  0x19d1f57be5aab84d221c0d96d6cdb308b1ac104ba76794ea61e8f2e3bd4e0d23,
  0x5339ccdc51854c195db06798060365b26193c961e5e0a2ab644e57b1be4d5d38,
  0x1a98b830c436f8ead441b0309e62e22e4d7cd620457b2b1a32a8943fdbd83a82,
  0x2f81ccd0a3edf390a8562f6607a988ba351100fbd8325512d68d12be1aac23a3,
  0x268fea54ea1c9fa06d25c3891d2e2f1b92f526fe10c87b6fbc7d059378be8449,
  0x5ae06b11fa658a33a7ac7366c7a0347fb844fd111a8719a20dc0bc3e8e348f0b,
  0x30e6ee69b9ec24b02b0e4e1aee5777b639e525102522bca0c64f6c14e487602e,
  0x5bfaa2fd0a42b21a45aedad74a5cc70634d27ba2a29c5f5a032405e29b5bc52a,
  0x1363fdc290da715f6fff1c7cf0b790d1a30584c06c8597732ecafd8d8e0a8b3e,
  0x5b1220458b9e7c6e5a315e34e9bc97857ba7ba3d13e8c96ef9e29acccce861e8,
  0x3df6fe3237aed371d8bc4f10ad7fc01e360416415769287e94d4a66de12fa805,
  0x3020ecdf44f1ed5f9e84be1cd298e0dc075d615e8c4957cd5d53ffb01819e66a,
  0x17212de8caa13c48dfd49c821fb02453840eaabba1d3729f310bf18d0f75995f]

def cQ103 : List Nat := [
  0x69f01f5980e2fd67e4e34c4c34417934b0b02a53987204ae8dd16b05dd9829a,
  0x291fbf27ba4c9e838ee31dbeaa280355b3b5530fc0e0b8de946a5171a739f5c5,
  0x67bb1ea735a9ab5f5200d2374a4f7e1c514b67ee643231d65f7322f9efa4703b,
  0x2a246559bccf957791236f7119e29c2d55c763116058b9d8570e37f5e6d15716,
  0x2f7480eb3e5eb845407051c4a07b82271f5ce3847bc98645aa9880ebd71eee04,
  0x34bf4f061fb4620728f9ddf08cb92caed4d585f5932f031715a760e60b947478,
  0x6ceaa8406fa512697d7aa2d0d31957b4dd4da6f1dcf3d243a37ab7dfe72fca60,
  0x1d8e8da81eabb4e33966c0af2cd1e32fbbec751fc7a146a477d8e85980407681,
  0x28e1d625a9b3d62cd8c15ae68472e58e92e577bdbd31d49b9cad89dd792415b,
  0xb1b1a18501af88d456eeba1a9c211385d6131d8104ab6bcf72b1ae1538538be,
  0x4c83ec0a04bfd0a1682cbb4c7a15677f755a97e5e3b8e4ea4f7c65e3d3c8c989,
  0x35e20efe85cee795139304372fb3d444e19e1835c50661d4530f58bf13c3ec31,
  0x111cc2813e61d4dc94aa9d16239b935efd3ec1585589b0bd753dbbfb8ca80968,
  0x68fedc0911a34d7d914b2a3a9ea99afb461d77cd863add90bc77e381b5b33a62,
  0xb0ce916250812a5e7e0b2f6b6973a1832496b022531c5fcccf22931d8ad3266,
  0x2abefd741a90d1f62994a2ad73fb9deff27ee63b8efa08e217271c2ab27684]

def cQ104 : List Nat := [
  0xeb4fa7df7573a0a92c265df02e10b69b02a71a0ca50bb909b818b5825ffeb,
  0x64339ae07bd88ee75fd7a5d36fb2a22c5bfc6241b9914234f01ea394f9a2928f,
  0x419abc706a49cdfc97f026846a60becc1acacaf5004c104c20d4e7d2edfd197f,
  0x55a55d936cc5eafb3c5a52cecb442e3a4f9ef8e50fa64af7f13174375cc91311,
  0x3623d8fe6084860017a14f83d5ed0b558eef6895d1114618dde2f2358d56cda5,
  0x53f94ad01d1527027b613caf5dfa79b112e913d5c8ea7399ddb922718299d114,
  0x6d6cf5e0d261239cc8cb06c33ca186dc0c07a975f5a37ee2744043d741a8e6c4,
  0x338de9fc99e507fb630f01de29ae07f5f59d88b5cce605fdb18ab4cc219d1e0f,
  0x2690c4a1851e013a599de25ec189c6513e0f9969e2e103f95d7523853562739f,
  0x665ace3eb9dd81aecc498f4dbf8c9e58b9250f388ded845d32e7ba1c5d3a7b22,
  0x5dcb7d720d3d1def2289e72309da213d03cb8257bc96d8f941012ac38141b72c,
  0x6e10a105b514e00a6a83d86f39a7ca5239f6517d1a3e3b3f799cc5c3f5ae9e67,
  0x2e132de650b9cb3590ca372670ce97a396e97a63fae2404d194c85e88584b899,
  0x732b640d89150b1e4f5f01f2fadedf8ad2330dfa6bad983b196f6c80f9bcdbc3,
  0x29b93312ec29cdb9e333228b91672ea8249b65cd079e11eeeae5e09f78c9ee60,
  0x39d22e6eab353ccab6cc1f042d0cd14c337f1ab4e96e01d6502574229214a05a]

def cQ105 : List Nat := [
  0x609e14fbe1f9b9a31f6b2cee5af7f6e4c2b83ca68bfb3f0f59e00e656ca1cf7d,
  0x205c4b1d997c14545220a9abefb3b2df406f4c3b2dd3ed9a9df09057958f53cd,
  0x5914794ab0a6ade758bafe42e0df89c1f55f1d951672525c7089a6001636be64,
  0xc3f77c1187b0e1702074f3eee5947bd0afcf16124934d70f427a7637075cacf,
  0x13b900bb809fc5a756d23b8944c6ce3f80aa12f535864b4150c8c86d46dc526e,
  0x5d337e6f1bcc2afa5bd417433e1dee6910bc92fcbe329d941bb26038cda5b811,
  0x6133407497e31bd5248d908363d26f446a39afe6a519f1591d7d4a0be4649832,
  0x262a62eb955613004cefd408c488cd58d5ffea6711e150bab491a0d3e002bde1,
  0x64f36567c6e016ea3d91953e20f1f861fdf5ae4b59c98bc4fd0400d170380c83,
  0xdb11e14b1cd66dadfaa9764610bbe0c995cc3c259f6c7afe4e829bae7082aa3,
  0x6cc63d55d37b5f2f08d3d6b0d21d97b0424487d1c1bbbd6682320c01bc28d15d,
  0x4324e0a3a8df439b9fdf660db098ca071ce6056dde7e5ef0de3da56b5e93ddc6,
  0x1466088d407f8dfca4e28f998eff398d674eaf488c3c9a59f9ccef5e7b9cab38,
  0x361437cb9a2c1ee626279135e4f52f40829d302a5f293734b630b68d0a60b15a,
  0x5a9ea43d8ec24f58adfaa8505285482f80a36bd9bae348cf07a3823662c77e51,
  0x55b441b87907003d9d0ea273162e76f0523ec7bf99518760ba330e9c45aa2102]

def cQ106 : List Nat := [
  0x6388667eaea03bf0d85cba947c53cc39d42d1403ca9e0b76b64ab764e8d0962c,
  0x1467156764cb27ef8e2bce613649e810d0cf4e5af43ebfe328c9c7fe3fb31d1b,
  0x51001ff1a534b8ba24aeda916d5262d8530946a250d9b70331f41625c24a49f9,
  0x5efc44642e1322e2a4243e86ccf948a55fe6d8065aef5de94f8e256caf61a63,
  0x6af01018c47e1490b17f0b427471548da1f9b94975c9956d17b91353d309ee87,
  0x3368e2985e55860e7a4e150b151107146599071f25e4e07492333cd771ae7d7e,
  0x37f678d6f40d2d9112d2f1ce4087d99da4ee5a2afe5bb5059ec9052a12a31927,
  0x1a60a9927aa5b4ccf1e137bc0781b00699f1f02b61e5dc062cfbe00461baf25f,
  0x12e54e9a75d1b848b73ee8587e0a4dfc167ac8996115903a60bc0ac72b175a2f,
  0x26a074bb9552900250fe4442cc043eb04885856fa2e68cf08332da4f21d712e6,
  0x5f58f853faefaa8943e4d5ba05244b8e0c186d6f50c7a63f5d565c998a02c126,
  0x2f3230235a98921e982d5e593901c58a1126a396c212f0a9e53c1b9e78b4f18c,
  0x1e4b07e5398e9d9f7e74e2786577731b1f778c5b5c4af090bf29fd946a242cde,
  0x8a63189e47ac2dc9c555c4237b9eb66b9c9394fb3a0c7e0ae0136c0cb85d7c3,
  0x4bc24a28c9d131ca2d531978a197fa92e078dda5eb8d646cbf8b9e955aef8578,
  0x1550c8bbd2ff7898ca5b17e76dace97b15c3c4ebf00b8b727a7e7aa791ca9041]

def cQ107 : List Nat := [
  0x38c8073398a4701589e78206e28b86fa84d594e081b7b16592b253002c06a509,
  0x533c69640016381f2a607add0a4ba30c04b1042f049a8cfee7b9691db800a85a,
  0x51f582f8d5d4a836b0e3957e52633d4b17aa2df312a6848d03bbf83c22b2fd32,
  0x28d50f7c4c1b5e73bcc91345bbca9a1a2839ef3d4a0be569900986ed51b5a750,
  0x182361071ac198d9d5e9582c9f1c1d0f040fdc831cf0624a41277f3b566362d,
  0x6b704b13725deae66741745a6a7725bd01afbd5cdd999eeef574cfa679431928,
  0x2ffefde21cd3d6fa641adb3d3957e1079d197f6d073155be1e36a563fc77fe27,
  0x5afb5aea5ced1b86947b07a8c2b97f4778f93014c5a4ac97b3a8bf7d33d270a3,
  0x1d60d348244d09312f33f92387a2d1675bdc5dced83d1fae2d8b6e998ecf134c,
  0x49fcbaa8abf7c4eb28176e8918deb4674621f03229ef371ac655aa31a20ac5b6,
  0x62bbe1fed61b8e5dee3685deeb61b5326b42c1664cf6e1154cc320c7a6d93956,
  0xca1d9cf96a8ceb8796649a43fed6b12a954dc65be798f6f943e35418dd4b08e,
  0x9a2d13fda05b04ecb8d49cba1d52528d6f25d27bc7fb2ebe3261c89dd7966de,
  0x1a20ecbc1a6ad1367aa146aede129dee680a8d826810f23e1c81f747e2089523,
  0x3d9cd1001bf1394a915bf66d0d885b73af4dd45e0b6869694304a982a56f342a,
  0x1507f24099bcb9209f1cc3336face1544543d3bdf741887dca84083da737f5d3]

def cQ108 : List Nat := [
  0x1ccd5e2620c3ab5798aa0aa46375560e02ec1eefc54496e8ef0eb407e8b5c528,
  0x70de4c9beab5986112d9357faa712d036fd38d0e95e0f4707747ed011020a7dd,
  0x714465d6454aa793dbd40c96dc1408c171d5f8704738047493580728a816a28a,
  0x43cf87e936f682e817e9c73ed9a6207a36942e571400989b15958c0596386b25,
  0xe08821fa91369616419d888875c1bc401e69a5d0d576aecbf983b312657e0ab,
  0xe14cde429fa456dfa191b126ce4b4ef950ec6f32d0435402345ff8298dd5784,
  0x6fe7f26471d130565454cab68ad644704c5aad5fe670536c01e90c214957975,
  0x2c3bbd309ac7ae6352c049a6f7958b5d64be143fa3985bbcf4ad83868dd8a993,
  0x33a1ccd30b52b07fc2a720db39b18cebaf64bd93e5f1749e822a7a265173854f,
  0x4b267b7bf05c7b20389e20ef4f5b9b607496d1931d98a1fa924dd8f50b24f81,
  0x16d6dbabf7a21f121e6990b6e84bb1d4c568a600e2e2341e95053ca3e614cac9,
  0x2f5c36b0575c59ec579307619272b39a9b32b23a69373128dc46b86144ce5aa1,
  0x2dc9e718fdae2885b91a9a8aec2d0b524dcb1ed01a607aef546629078f60e4cf,
  0xe6118730335115918e6dec125dc13531035bea8aa5fd92dc32294555de05fac,
  0x3509d14a5da67d9c4c753cbd6e3d28eccbd2cfe7be782c18e7c7039a57aa29f3,
  0x1b5e0c2d19e717e9ecd3dd430bf6b321590f4baafd00a852b2e34801627e9d80]

def cQ109 : List Nat := [
  0x4793a1edfb3cde070d38cec94ef96734210fa51fe186f351a99ea905c2d8159b,
  0x5ce80c5cb946cdb68a24a6f277af8ae42b9ad2ed7af1e24f8533625cb35052a7,
  0x3cb454ae59c1c24ba5c166a0f04e157f18147369799d3f59754d7f0e0aa4343a,
  0x18b9c1438be3ba61f34c13e7fb7c547cb7aa0d727914cb8c5bc32254731a19a3,
  0x40f13867d552032a0e9edd29ccb9532a25f60e832973536b63ec763171f12843,
  0x32938d582416bc5a927ae8f1269bef26848b5483b42e26c0338c8203565fb07d,
  0x2169b557f670fa0ca9429a86a239c8387d830d3d9e5236e10bed9df3551c1145,
  0x330732d8886d7275cda7367cb6f94dcfcd77c78ce65e198b10a61090c3c7e36b,
  0x383a45619e03cde5d715286edd1a0031f441aaa824265e28f4138a80df658cc5,
  0x3f97c48246ae9b9e16bc8ddb750b30d19777c4e56cddf6ffa7f35368dd411334,
  0x715247ea8c8cf70b3a638692e03160afc69df92ff042a1d6385f5b9fccae3537,
  0x2473e61de6c7f2cc69eab9ebbbb2697c0ed0d285e51825fd5ae9ef3f340d1aa2,
  0x19366515189a317ae4363e3684f8a852c128e0517dc18149cba7ab2b0054f7e0,
  0x49c9002ca07a358eee137a8d852d6871fabd4da1b611b05b6973a4a6d061bede,
  0x35fb7c53702075a68a0b1528145829c43d629b7114bec14961d8fb447eb25855,
  0x39adfcda8086eed7daf0e04ba23b859ed81b2c375d2ce6b46460f9aa76c55458]

def cQ110 : List Nat := [
  0x2ce1695ddb40bcfecd2ebebcd444872ebf80527fb0a0a9b8f04ece158504d885,
  0x2b0ff771978de74551401f4aade8ae4dce44b4400125237e28002eb9aa949ef3,
  0x6fe95eca147252439115055c2c66bccea9bcf2f703ca4d9db9dc7e274e6937d,
  0x46ebb0e66cde4648255d6fb2675c9658a6b620988b2e7855b9d456c85bfdf531,
  0x131ba78a19efcea6e8104cd515a40011ad9243c274ce6f50c5fc00aad2d83752,
  0x32e4218bc97006478435f884f095825d1f1adebab5dd8d978dd272acff704f60,
  0x1677b8c822e7652e900d31fb4e4580478527f2e1ba5fdbf8c74ec28862cde073,
  0xc1b0124d77a425e581eae44b839e06bb63b0811c5851bcb0e340a4ec6223080,
  0x5a3a1fac30c8fcd3b7a0d3b257af8117566945f0f496a693fff030ce73cda69f,
  0x5320c4067c7ed4ed36c6bb8babbea72c6cfe0000d48f10aad2bdeaef46c7bc7a,
  0x6855efaeb6a91fd98f224b6e5ea74724a3fd6829f0f3fb1834518750ab83e381,
  0x3f78d27bfca51ab5fa4b43dca01c02fc7a6dfc3734bc17c1fba9e6708ad0717e,
  0x18526277c193adb516043588bf0ce865510854d014d38d152e778a34a09b85d4,
  0x1ef4ee068f21d92ce7af69452eba01b723cdf766a82281d989c96101ff9c6da8,
  0x2e6d13391640057892397e7324940f8171bce7362ca1503b554454de46c9a84b,
  0x5eb719d0cc4e97fe650227e487e822c22d4e7b297b9319fa1224766a9cb7609f]

def cQ111 : List Nat := [
  0x26e37aba31c196539713e24ed293afe00324e4dbd96ba0ee47cb58efc4d1254a,
  0x4697aeeb724da5e56bbe2ca99001f0347a2e0e6bfdd341542bd488116c285bf4,
  0x4f9b598d43f16b33f133697300316bce3e625dd2270c43b4a70f70f799187c74,
  0x21113cca3feda6a04df1ff07afc43cecbc8dad0b913ac0698206bfff4c34c593,
  0x4c0f12e271013cc7e55186106e4cb5ccd59776eac5cab297e4b29008ee51c2ec,
  0xe799253bf0d6acc64be2ebf0a4e274ea693e08ead8c065ccabe6a16d1f88bde,
  0x1952806d9abfcc6b545e05e81034117c023899a1d75456d431df479afc59af7e,
  0x4c2f61df169404b452de457ea96714288e578ddd1b102aa51093fb8163d2ee74,
  0x275f4539b99f97321793c28c015bccfa1c5f6ca2b3f28b7ea77bf90b993d6634,
  0x1cb3051cfe6427dacec724ca59b37c20f63e78d4f34fb7d8d816e04d7291472c,
  0x6565d843fb78f80bbd4fd14526d5c2da9a8a58f25968ee9de3d52fa0810d84ed,
  0x6f6ee97549070e3c72ebe528b8ed3adef1b8121b4045ba82cd6b647fae6cba5a,
  0xc15571b222597cadb4ddb1b1c2cab80e57eced446a69576264e65eeaeacbf16,
  0x56222b0453f7277ae7e3ed6b1eb4d7a2455e20575ab8a7093933571685ab0d12,
  0x4bd0809f4edc3e498a618ed7cf293d20002fba0dfcce5091e460fc1d99aa7ac6,
  0x6da91a29c7b65145a597dcb50876ecfb4a955b070939a0b94cfd0f466cf78470]

def cQ112 : List Nat := [
  0x2631ac097b2f38fa9cc46eb426ac533bd32752ec724d9d721c90ce948d961854,
  0x53a166d8d04348a82e5c17fba76d69aa9a26c79610aec6dd64f196c5e81fd741,
  0x5c932a663c645f19026b9bfbb618c5cca8068d98a796522725213ca5cce58d68,
  0x1f7230ce98c9175318fbfcb5cf8f4589717239d6c99f353830b83cb137ffe734,
  0x1f84e7c8fe905fdca0d6287f22660d5b2919fcfaf8b184a8cf1bdb4bc4297bf5,
  0xc7452c908324feae2b80c49e148e1a0a1eddc03b3f2d65c6dc53f455f7e8d94,
  0x3ba7b978c08157c977899b5c8e24df9869be02402a74acb9a4ad74ce180feaa5,
  0x53ff31a635bfc81c8552feafd78880ea69f4cae84c5fd6a7d69fcd5acf709ead,
  0x42f2837ee20208fcb5effb16af82fdaca83506a4e99b5fb2dfec89cc5524e52,
  0x50cd5e2a3ae91ea8f51a656a7235f47ba408eebdc156bef08eb6546c58927e4a,
  0x53f39528e74475710a95fe5b86f32af0eb38e9fd709585b5abe7e36013d51941,
  0x385d9e5f0dacfe8d8bd717bd3b9ad3b67c3046d61f7fb4b97606a5203cd21c55,
  0x1800e3db6e2e12c509e2604c1a736ea815c558d93f70d8ae3663c4498c814375,
  0x5a5d6b234d18bce6dcde783ec9cf6b5178a7a069b497a87f4e4d941ea1740e81,
  0x2f2e54422bf3012b22b2c1e184ef533a495a1d5466a45144c27886eac23d7356,
  0x56d4b719b573cdf06608456d0b51eb9f3b503b3c5cb12161f0cef33e56151969]

def cQ113 : List Nat := [
  0x4dc5f46b0be1302ff4de2971b0909e9a45591bb587cd0bff7fe9f707a78a4a26,
  0x1f09568c4cae56ccc6992287ce2f14bf806e414ec9f9d037ced56328bc12d832,
  0x586059a2c7026582e2d6f443e697a3c123cd0d1e990d637081d1812a8f65d91c,
  0x47405abb91b0abc6ead43e532cb0043803f3a074d4b0844055e8326b20440892,
  0x1e47c4fbded6386934ae1b97f7ac453bda5205b2c0c00cb97d9d90a574a12afe,
  0xcadff70c612444c7df69e04569416de3a8782a6fd1821f173faf98cd4a9d42e,
  0x1af09675731c48e51d117f3a1f2fb59256750f835a376027c92430ed7d14b971,
  0x71e86d165be8e3b8921565f831a5cea6ee3926df3ff58ff69ea9b3e9487136a9,
  0x5bba23c1d0524e99f6afca1133db4553a9d5e22d3732bb29974ac252e897cb76,
  0x18a19e5cc787730cdd7c73ff320f627a25411c27f102594f7a8e4088c850bab2,
  0x21a3b1acfd25923b7d90d0d81221f7aaa0c3bff8a3d903a1f201aed0b6ab0d14,
  0x5053d06bdd49c1b44a92ab8d341f19cc6ace786b8cca8c30640b2173693f6b25,
  0x6a54c7c2324459d4cadb139f83686c84eb2b3dc64f2679443ea08f73506ee314,
  0x547439a93c22f0d7a641b100bc34bd6e21f88f6193712a9c7f5747d45802d6ef,
  0x52fa57972fab93c68a39ad65b0a972b4825a2982571cf86b9102a0e70bc85af,
  0x9e7988cc7a22cfaac16ea23a3dc0754f7f38fffff26024133badaad409f6f7e]

def cQ114 : List Nat := [
  0x534b1809e1d0c8091ad9b8ac987d72b58bb7234240e2f4f6650bcf30307677d0,
  0x6f6cfdf5d6c18a2e4f35d90289e2c8912866a2dcebc37e3a52dc0ed656c72fd6,
  0x1584c45e1e2c26c906108329b05a54d21fbc99a37befa627afb36c99e45a9de1,
  0x4046e787cdfbc75e9746cf69767e182dac4d284632ea34bd22cdeff871672a62,
  0x29250d8a1a9227435106789d10046d60c662beca78fa170802f6c488a7d0f3df,
  0x35a2a7aa64a3db9c636d4bcd4456c2cf61265b0d4d882f90f080a93251a3d68f,
  0x688e071cd9e8caaabdaab9aea4e4d89a765be2748d85a90ddd7af45d48448412,
  0xbefd0d314c8b0c323cd91fc9209fa638ec992724b366e5965e4aade70fa70e2,
  0x6a49e50b3840d139c980f175a4ebd856d3d4fdd0234fd81fb68fbc8c3e2399a8,
  0x44e102351ef578441ec5b0435e2165e292c7d136b301e67f8bcd171aacfd4029,
  0x2217385165e5c653188364c4b441e8b98a9af0b1ad24480b3976e8557b9ff5a8,
  0x69f72f8fad51b969d894b1e249325f1b9fdaf0e8adeae9d76e18778cb1b8d4ce,
  0x5b7748b76410de9410ec1945956b6918c7124fa824e04adbcf614a85749a3728,
  0x51d94f7d060d28c3aa4bde7140115d0e119de48c5661fb3781fa859ac70c720e,
  0x179a5305e628470bdb37318b2eb7e8a69f79500b9ec3251a3665b7953b6add52,
  0x67ee7054a525032e8353ac4973d51995afb08c46589fa2831e20124229f878af]

def cQ115 : List Nat := [
  0x5a19a0bc297d4a65c01eb9ddcc31e4b04f05ab7859735da0964c01af6f852716,
  0x72e3ce137fdc63dea9bf4be261be0f32751d90d8b37382b6abc48556fc714667,
  0x49e4e92713410a7f023bdcfafc50b9fcc049477d2795b55878864497b6736a2e,
  0x4801fc3d8d6c22f38694a47ed7b5269c16a6528f1f146bb21fa4eee2f9afd41f,
  0x72697e5822215ae900ed39bc7a8b41374c701814f61a64d6e88f5823c026cc0d,
  0x3ecd0454fd55cf73672b637da0375551a3fd66d5c71df8508888fa54d35fa456,
  0xedab77a025400acd9e206bc0ffeadb14bd8c2914385088f889711cc002a928c,
  0x5b27a15887a4f442050fecd7169b7a620b83fe33c44c4ac234f6816180b407a1,
  0x2d6383d95d0d68e44d01f36977da0d95ded18b5c6f5df264e3c40de5148bc5f2,
  0x48b3795ceba7b6fa1ac0581f86e25d51d8dac301f5c04312f1c0c4079a241541,
  0x5c814f182ac551c2b0c8aad2ab81683ce7877179520dd8577a66cc734ea51aa4,
  0x543fb02d44c5fd20414a56b68e60b358d3826fcbad9ada79da165f218023d754,
  0x40061a4fe0ce009f9aad33479e16904edfd87b58c47aaf6fcf125492710104de,
  0x136155274de15455ae58fa0b59b5a4c435718f32bef3d7737a5d922c6d2a49c7,
  0x172d04a7a97eb90bc49e00c38586dff546549b1ac7f8b1e557d3d8bdf94aca98,
  0xc928488ad79bf55e55f7ad936ab1a2f021879cfc5ec45ed3cd72efda7941000]

def cQ116 : List Nat := [
  0x5229e5507120a7d39d92c550aca629e2f881387df911be6cd3e33ae360e67c65,
  0x21bb46e7694945d5646e9807ddcdff8aebddc092af72bd9697afc834126a1d1,
  0x6c7a4c918239427faef2b95995df2d4412a6d536150f588ea9af865646fa2809,
  0x3af2a2f8d3f031b5e1af6dd315a4987bda27e0e580ba2a8e88f36401a656cfd,
  0x2ff1ef006c87b98f68d4443584d420c7c9e4bbd97b13b180ae6f5ebaa2fda94,
  0x296afe4ad4a2a66e4055a6976cca7aab6f9cb80a3c8074c22c9977f695cee1ee,
  0x56540a1ce48b7b81b8f7f6b71cdb7260333558036e2b3ae8eef665126c78a88d,
  0x53aeec9293697bfa9de4b791c55c36e2a120caaee6957c9b992cac37d2acf8d2,
  0x3ea802c60b1a67f3b85850f10d2030520837d629e60446d20b6c9bd0ee2c887d,
  0x53722ca5ff66624e38e8ebe0c13d0b071726f50c0b5632e8e134dbeb6019960f,
  0x715eb5cb26945f656844e1432177cef6c69dd9ac07db811f611ab3856b60a344,
  0x35ee9c0015da368223cf11c0d3e67f7cc72a2db7ceb906bc4877c08e817c680f,
  0x6ac810169a44549872f2e28c4c3cbca5062cfbd603d182b65c35a03fd38dacf7,
  0x1f63fc7ea709c45625f0f9b991d118b416120bbbe45fa50595140976f2ca5210,
  0x3f5a236f1bbdb2654af10f930ca212b214e850836b5a74700c2d235f7fe5475f,
  0x3184eb443475254851744fca0022f331e88fb8f1c77abefe1551d2e2951ae20]

def cQ117 : List Nat := [
  0x19c2791d0ca58d12ed54a13451c84c5acf1907c4235fde35cb8c1890d4e1428e,
  0x4218436c0a98d23e798cee9e20a25c60e04d3bad4c2520a274a89f41a0bcd1d6,
  0x545a2024e7c3d2e1ec45170885d32afc10d669e27691568fb904c0b2769b5802,
  0x20960d800653263710e1e3cb6091a377c1b8a71a2026d054929077cacdfefbb,
  0x6a9d3228bd9403ebfcf937282c8eeb133f6c4e600a49a6c8805a6c8d40e232e2,
  0x3b0b90fb4a06658d54691cd91695b51f239dbb4c0dd0f760be0f66dc5560e304,
  0x544cdeb298c5fb11fb9f8e5c33754b74d6cd075c993e4ec698792cd43700588,
  0x424993f821ba81db5a2b7193526f9c6e53de779c2e26d17e072e3071dee47cd1,
  0x4d5d91a146a82f87bd7483306af972a30e38224e4444bc3b7f39694edf843cb5,
  0x30f0cc8a7506dc2392b3d39d227ae033fc1a4ccd84277ba25481137025b082a7,
  0x290cd452a00ee3caa081b0bbd5cee29505f50dd04f5e7b8a5e59c7e6f8fc9f7b,
  0x3365b1b29c5e53407bfedec8090e7a8fbfece295426025b8aee339e19ebdab66,
  0x26f6c390d6690d0159ef92f451d16fac78f34062cd0ffec8f4ae130a3e4230c2,
  0x73808f303136db6bf8e9c0b986dd1c8fbf716fd69c09812b4132be0a776e6cd1,
  0x540bf9dd71628208e2149b2da290052b18e90b6521be3e440e75eb77ae6179a4,
  0x233103d8d2979649d62e731db73dc02f321043dd8b6d4107330273f8a5f3d905]

def cQ118 : List Nat := [
  0x5dcb3018d33f068719fdddd4c4c8a936c1a6d3c7495b19a525441ed5f3206cf0,
  0x1cc908d81856b449356c5e303d9e38c13c6a46b106ed456ef10e019cec7b2f77,
  0x3f040ac56cbfafce1da32804470e1d947f18025f908923f5adc844303b9ee9f7,
  0x3109f9dd0ee5cdac6bc763b28b94a4e690ab1fc8d5a36c528e1aefb2d338b5ee,
  0xfa2605dde63f6c49028b583d6d1677ef227e5961600673097f54e8b0198b46e,
  0x478ce6977b1ee6813d56c96127f5fa5b762b52d2c0c53bf1ece21f10f15a8be7,
  0x2db10084c7e090fb99b3f99d7037d88740217bdac7bbe3f0c19fd15b1c0d42c7,
  0x16cf56c8af0db0308b1db85c61df94d5027f33025bc3d155f8eb91b7c6a45654,
  0x3dc9747b7908923cf15ec6487089e98ae973e464f7d295ea9be60448b29128b4,
  0x474075e22ce867c2f7366f8269b44a03af509118e113008a3645bf88e4130171,
  0x4feae10028fc9522c66e509a81caf8354bb54baa3a49fc65a91e670e380260b3,
  0x6186235387feb564393463e0a96d40d502529e03a718591edce317b4fbf52754,
  0x675d1a83d3fb051362b3e5c64f028df0ec7a455497e9dcd78f9e07b11f12a9fb,
  0x3a68cb5048dfa558c91acecaab435bffa4529264aa2d8f26f2b8fb74ed75814f,
  0x505ec235abe518cd787421fc265ea68abe5e1a6b7c8e46bcc6966c3f0c85dea3,
  0x525392b3412e9db987c7ec728919208e1e06e936edcec150ef3c9f70a98d0f2f]

def cQ119 : List Nat := [
  0x27938c76f5b0dcc25157c4b3f35aee83329d5d33cadaa42193ec0d2b3015487b,
  0x1198e41a0f07bf7edbe08989d4ffd1715caf4f6cc5fc118b2994a9c3f72ff56a,
  0xe0af55c1907f24c9bff83812ddd08fe2a77496200b2fca018be43a753b1a1d4,
  0x2a4dfb3e78d84a934bd1f613d11ea6785f882001e0516f928bac803ac4e3369c,
  0x597106c1825136481d50a769614e6d6fe2dbcdfd97d383285a720d1ac3b834ec,
  0x2cbfb049a5b4f07f6926fa3dadd2088f44c5bd0129c4ae86f76488a8130b08f8,
  0x401f695b2a84e635a211cf4a4c169eb4c4af7d17274053bde0508dce4f4048c,
  0x36f270204b634626ebb102428ab10694efbd65d360b8e255bb432a5503c85915,
  0x6515436fdbd87d586631df692dbf3c5442e24d59cb3225cad1dfe1c06fc2c1c5,
  0x56bc623bb5b0cfc40459074f3549d891addb2fa723c906f0bf6f94fc6d615070,
  0x27598a514e3c33b072fa82ffe930279da20e26006bf1f05cf12dce284e9a926d,
  0xda60af8bb2083b4019b63dff2ade4b0acce76ab49827869e954c8c0e28137bf,
  0x5cfe0d7527061efe0af3d6326c5306a72606387e14547902721f4b632670a9e7,
  0x5664b999c1237ac57c31ad6a628d03df45de13aedb7794976d9de92cb80e6e9f,
  0x4a906238e1cff6b6c337016008ad6e81b68fdfe5fe9bcf092ce53a469f5e528c,
  0x3a3e4add0aa3888439abc3b9792b3134d2ff5f1847bb90487427a446909e39fd]

def cQ120 : List Nat := [
  0x2c1651e1f9209dccb38ea914635ca7881766e75be6268791057fa2dd4d2aae48,
  0x28471bde46ddc66aa735652b74ff6e7df8eb3d82533b402d0caa30da1bf33126,
  0x6d19ad50e3e523508b027973b5bc1e48247d1f7ef5f737dadd42d71d63084e7c,
  0x3fa594373f5e717f3d750d0b4798b97163a613fb215a682e9c1e930138488f8b,
  0x11f95126c6024c55532b5dba57eed772073a9aa38f6a5a20dcff6b264b48eccb,
  0x3117c5e908195cb6acb8e5be2aa72e8d6711e85790942a9410d43ce70023ad10,
  0x1e16c46f72e3f504526aedb0e68dbcba19548ce4c7680b7d6254cf39e06400b6,
  0x3e7981147fb3e38675706f8bf8e8efd2ae4cb1e49a80afc00b3ab826aec96592,
  0x322f6f31cc679b7195ac8d36def5be36345f62e3b16afc8ec73af6dde8335a53,
  0x729c0f245e067a5a70668098a7f59ad62ba07680fd9a3b04b3aceed74724e11c,
  0x25479edb0948eec9167fe8e6b00eb759dabcc58f1d38ee00b538c7518a31d5ad,
  0x620cd065eeeeb7f9b50858ed6aeaf5c0fb2fbc7440c9c90bc270237319cbea19,
  0x633e2f431534c8a693bf40ae772912dcbd291e9806fbf5856353ca8b6533e7d0,
  0x2e3a3ca951bb0d9c9205df32bc620832dfb9ae9d9462416edeaa752145296ec2,
  0x571bb11d8284e7d1eaff19d5556ebb8d0271cb93164f14b135a1cda829f61f52,
  0x36d31d1bb61bbc2d53fe6819b984d99c2f8e250cf1f9b5be00a9c0dee4a36fba]

def cQ121 : List Nat := [
  0x51742b7a501b15f68e3cc923994611ab565c9916b473de26ca79320df2d054d4,
  0x57d7d48659f78b3dca9abc889f9526f0c1b3a6fab799ab5270c5bdb8a1a0c385,
  0x1d126b9e503b14478cdf49180096f852af5c4c8f63777769d70bd949917f10a,
  0x38a2f88cdb27d15ac8f1f3bd5672fa6b0a86ab26df713afcb169b014a27253f3,
  0x4451b94bf429b46cbc31c858b8fc498963112b556860d988e6dbf237dce7c0bf,
  0x6b5cce8d0a382ac5eedb339e30df1d632957b0e98d0957fdf552376753a6de87,
  0x673a7fe6076332ffbae24d154c651979cf4d3b14487bb450090ce2cbe984d5f8,
  0x38537b0575af2b4d72c17e3bc4f42858c0a9e7923785e17bf380e42903527215,
  0x3028ad934bf4505e29a30d77f7d45d5fcb5cd9339d034b7fcbecd92afee9369c,
  0x6b17b395b10683fefa80ba9e6f344e872e0908597ad1c4efc77ae1a16186304b,
  0x66fba459b0e590bb364cb1b7bf97a629774a76b2499d30d21a5f638e734e764d,
  0x46762c7e35f2b527da9a0dbff80f78802cdf6518fb33b667340ca113c96bace8,
  0x5c2d1b239c4a9b75e8cb1433a356eb1527700f4af908c2647ad4630ae1454fa5,
  0x695d28084d46c75e2b009174fcc133c4c9cca26e195fed6b9147553c0d8f25f2,
  0x20e72b57e8e342f5d8d1de56d04eb5aa2f78c693aaff5b954b0745c99139716c,
  0x5b642509114b6ecc493308ed8948b378047245f5495566318be7cc42711de91e]

def cQ122 : List Nat := [
  0x68ffa8660a79ea87d2ece422833a42afeb4870a4044c5e0c15570b119b2af241,
  0x42e1113af6dbff393f685c16f2a291bae3e84a56e097388d6528de5a9b886801,
  0x143298951d27d7202d031c12935e3582134011f1335f9436aac2b91ef60139ec,
  0x6bc18a2c29a122c48f4cd341544932fd311b1efdb6bc1f2e280ffaba8146d70f,
  0x41e198f6c86b3992bb8fd3ec5c71c6824bd7babc10f01fe1a0948e1b105427cd,
  0x6ee0e6c745ea3298f20101938a221da459df494431d70bfeefa2ea531204fe06,
  0x39af726d1fafac7120aa5fa615a528ff41a20927c8a70cc5bb1a53088eacd113,
  0x442bfc747b01d0a9f4889928b24f2c9f49049f5da31e0929d498f27d65f544b7,
  0xe8848d66c679ba976b46f5f5e5adeb7da95bdac00f031b9761b26fe9340387a,
  0x2af0262b5b002d7b6b6994548a412486b7c0ef4c1120bb2167a50212a75b878a,
  0x520dabf9210d96c0047897e5528c25515d4e94008e3c70873838190276ec986f,
  0xa420e808b4cf78b2705ed6a355efc5be422cc3687b1b31b037457527ad1cfb6,
  0x2881dbc833084086775784430a087f00ace73a29e211909d79f8ec169ecb663e,
  0x4b171d7bbc9fc7c35e5b72bec42eedbf35f2149dcba0f742b37a30129e19eba,
  0x12d60fcd72273f73cfdd60e64391e199ff0892d26d1da5a28b273c072c90120e,
  0x1cd1ea7d86fcd58fe49df95fd4ee4250f4d1f3e6fe59e95d98b21ab7f4076fa]

def cQ123 : List Nat := [
  0x57c1fc4e66c626c2e837fde2a29cbf0ba117e3d3fe6d89301405634e7848592e,
  0x72bd645742d2de8f462a240935110ce5417978d84b948df7a831a714ba456615,
  0x1093cfde6fa44bc327797d6c24de6d20d8fee7805e408138db71fd859c267f73,
  0x55b939ebe501c812cd2e196b69f67e699ef3f4d25d1ca187847152b35487b250,
  0x59cd4c7338b56dd535a1ef1ea5b210e9fc994107bf3e16b55883727a94e9cc39,
  0x1acfed12281905cd0842a0aa774c684e8037e2d8478a7d9aedf72ba8864781ed,
  0x32d8fe0d15cdde4b4ed37e9505fdef1dc0a0be20da0e631c326217764aa99bf3,
  0x1c4886afc526e0a7f98981814e3550eb3ea0663df47f487c029a4781d5b5696d,
  0x3b1300be23e7caa175043edc871b957a4017fc147a6ec6325fbaeee58c620fca,
  0x161780c4f4aa1e8b61794827b0546cd26c460f63503c4d60f25286535d9d3b3a,
  0x279ece70336daa6a156dda70041228edd9adb1f85e340ec44d96fd764c64b2b1,
  0x3c5c56b248efc34e9141c43554d586276fa2c759436df6c189cd4aec68e8e8b2,
  0x1c097c96673b27dc7fbb01876053987072dac9927a9deceed33e3e445ef631a0,
  0x697125c1a416b4d90b20796e88806ce6dd71b8e5af913f2c50b016b496075207,
  0x2d3f8e556a41a49c59487f4c01ae6281f72a2e6da679e34ba831ff85b589546f,
  0x206b5132384408f5da0a5587394e3ae096cc2e9b7f9a6c5095d582c7389628a6]

def cQ124 : List Nat := [
  0x15cda402bd0a3ba03b2152400acbc700215e5b414d4734c396e6d120cc8ce00,
  0x4967b226eb635b360cc8ad856be8c403dbe3114ec90963cebba31935ce87030c,
  0x62ea945f57cb57cb23e7bfab295d0b460361318127b3ee43e7bbdd32a7f8b0a3,
  0x21db383837cbbb6c8d787724c7a573bfaa374cf1e08a9acb1582bdda1f02d3ae,
  0x2da023769a53d4847e905d78d382d4eff47696db2593f3e28b524681e30dfe0f,
  0x20852c086cb3fce9b698f970f67dde42ef5b18ae4418d76b7c601376e681c81c,
  0x116d7c699a41d7cea86b1d5c5d44fa3e6a81077e8cae168b9e775ca2da2e6a08,
  0x1a20fdc6d864d6bd72b02d239efe30a4cb459d6a6f87dbdcf2d28d2e25b3352c,
  0x25925a30c30b3abaf20877f828a88d5d39f9176464851d6e761caf2738528825,
  0x5d1ff3d87f2d2dd0a79addfc27474bcb962ff7729e5e87cfe7527e829d6b9fbe,
  0x39d182ac5639db9beb0661e1af85e18869b50a31104ece03302057705a7dfd50,
  0xa0379b5a3d5c53cc720bf8f696ad7e7c338d192f464cbc31c14a40b3c7e7226,
  0xba4936513669a5d937b90ba3cbba32f8a3a3191417980e3fd2c534c0f46f08a,
  0x528852f30fe8e415e98c849782b686a214b89311caeed8f58be72295b53cc8ea,
  0x43f2cc502116853e1af3b8eda5ab24659b84d5522fe1f25fa085ac418a5f97a4,
  0x6b4057b1284c9be56b93fc4e6f5d318c6cbd4771c3d5eadb8bb1128e7f4c90c8]

def cQ125 : List Nat := [
  0xb2e8a39efbef272e282dc0425030cc4a171f15c70a009f99fcbc356896b95b2,
  0x22660aeb63fc751294869538f63503d3ce4a587f7738223a4ce433633d20412f,
  0xf47712e54517606be0b6d8df259ed9002c104c91b18b9e784ab53054865faaa,
  0x6040259d73cac54e19f069bec0178b092422b445a455fd60a3bec2b7325dc990,
  0x2c8b93670fe5174139e14d793e2c6cd822b6c07385a1310a44874b935bd4784d,
  0x643a803b71c115fa932ff0846d365f8bc2956c60b9bb6612fdd61a4ba260e5fa,
  0xb1b79b3db732f34cccb4689e6dc6e8a52203c27f1d09a3985744717c9054d,
  0x26e2122c4102c02febdcce5bf665b735a205099666f01b246395228a91782cc3,
  0x670734102b35567405f503f016da872de77ac27959caf21fba56b0f708ebfbfe,
  0x647822447acaf13241b1023305c97bb393b59c26f76a82e9803975cecaf18626,
  0x2102c77c622aef2067687289bb5ad2e1488fc1edac276c75ef273b0141dc004,
  0x2845a6954b846011ddda9ab867e18b11c3dff78155c096422d9df138179bf709,
  0x22b5842b6b79b08c2d80cff75a600e2c26e754d5e705f28a3ad64df88e9a9168,
  0x30dd855c907e546fdef3cc8259428b53efe53cf1bdbc377afb8ec738dfa3797a,
  0x4df9123e01d41430ac8116d35dcad89da565ff78b8c8b4296b43151fa15e3897,
  0x639c9eb849541a47cff86a72b7be750820bd7268d1ba51baa05268c86f78dfd2]

def cQ126 : List Nat := [
  0x24e3092e79ce60e1854a96854bd9fa6d1e98e2e3dcd6597319b08f687ac09a0f,
  0x64e90ce69f17fd2f13622242a1c14e5d4e383b15979bbff5f0fa0491f3154ac6,
  0x2667d4cdb2da696d8ec75113c3d2e81ba7932781f9651e0355e5a24e09f17b35,
  0x325cac23efabff555267cbe482dcb8ddc0bdd2ef06f05888fd4d2783a3c4d7fa,
  0x5cd85b86a1c608d77388f0eab430f567f4d1927659e065b9906482275032f877,
  0x241e7e10c85ec356a8717c5e6957ab741d2ba458c104397ef88de8c999758019,
  0x22b8d84961cf33fc8ecfa3e536f117c30a45a8063854a05707d96a25a11e1f4,
  0x640b8708412f120954937871d0279e52e715e9457ca1eef442546c2a7e5614ea,
  0x85d35e6fc271bb8524e9f766fc2ae045bcfab15b1e89f175ec7ec8dcf34124d,
  0x2bd602eac7efb79e70cff346b953521fb137fc2c6892d48a04926c6622da547d,
  0x7387593459a966cce25475dc2004092fd11145a5ac0e19de4612d758f5f20f44,
  0x3137cdd3d9937dac6c41c4f57f3588005d0756764489dc164750340b0e4b69b9,
  0x3de5dd0d01766a7b8d399dae6a7d6567bcfdc7dcb1c6def32d217c695f377245,
  0x7285b4b93c9d138ab24db90d4caea2a4115d0624831c8f89ee653eceef3306ce,
  0x56c3ca6fbba47b1a7ba5b7d51aad6de3b5f525a54e603a0ab41230ad09ee6eaf,
  0x3f9c9a38a78a618d02893c49a98e85cce6111dd1e01d70554866555d8253f84a]

def cQ127 : List Nat := [
  0x415595f69f4551ebfca7053be632bebc751956a3727f8bced125b0fda39e0773,
  0x62cd717711b42bb4374339a786c6c8edd42b82a726eadc76ea027e9ecb62a5db,
  0x50b22a97b5000e0e6c2b174a326169e5ff2f6117549b9592a7635180692b3d7e,
  0x186cbeb937fcbed53184fbffd8b24ae6447b708c9d6524241949303af5f5f6e3,
  0x122485057b2e2a48ec7997421516a388635270a4670a399df410cee8b0428f08,
  0x7ee10da9fb3cd0116646cbce3c3cc7600fe41bfa07b7f90bdfef1d046d56848,
  0x2427f099a92d99e87d20ff9e997be368b7e7185cde9c48d83b10855e1ee3ae1b,
  0x4f0eebf4b3f4f4fbb681ddc464bb7e41817536f6b799d83185039c06e7259719,
  0x52959a897be29bb6998639468709ee8101c942c9b280e36e95bbe92c760ef76,
  0xfaac7206800efbdd4a2377e200c77bc4ac83773b731268e2f9b8cc7f37d6251,
  0x639a41a3ffd11c0f8b2d1a95244b7e8a89626e6804be37c8348f519c70c4850c,
  0xdd49ef6ca3926a7ca34f0c1f868cd2280e6278fde965ef342848b9e841d5930,
  0x28279f941a707d9188aebfe13837ab013cdc11b3b4b1d7523e40af916cff79cc,
  0x4edcdc6e7a557a99ea534be863d1bd6d86fd295bcaa353180dacd377965c1823,
  0x317091fdc2b3aa0f9b407e0de74d3687e709340a1a74cec352d760e1118ecba6,
  0x2a6680710f9c68c13165bb8fd18fef187f795ca6f069a994f4bc45633ae0a139]

def cQ128 : List Nat := [
  0x28f28e99c97768eedf9a6a488cc5aac925267264b31c74f069672b39d6d9fa19,
  0xd54912f7d90302e716e7873fce675cfb81178424eae4eee2e854528640a6509,
  0xcbaa49ed79d948ab2d885b3ddbb7d433940b0f4b84839d4cbf1f4c44575fe1f,
  0x23356f336906e527a8cbe89286e7d90da2317f092d523c09c7991b21eb25fbfc,
  0x6a4a9553e8306411ef789ede4ff0edb12fee28ca3004ef9ffbb8ddf80bc02b77,
  0x3f38dc200d6a74814d0352c84a87cb74a4694883559a9cc42f3797bbc43a9d9e,
  0x11e43ac3cee5e47608dacfad2b012e0087e3a4b7208e80f75dc87a700737d23d,
  0x20061700761571edd624208553debdc4cbab78e957c364d9f2d81467ad116e9d,
  0x28101f78707fde1fef9544e0b5f753dc18fdd6b4af36b9d955bc571fced82130,
  0x6eeb5ac087a1a14c680edb76cf01210ce98e538d03977b58a666383e34922eeb,
  0x5c4be1891dea4fb0a3144171a65f52e0816f6767c811275f7a00d920fef0c939,
  0x57e70f1b008eb152f82996db0314ea9ba62e15e3a6092651544db71021894ded,
  0xa02fb48a4182bdfe96935b1e900f08c63cc571d74d65b10a445b565abbff197,
  0x73b2566b55742c7e2e9655c7218d6a3a68b79ee2792eefb7f636d3ffec1ce0af,
  0x61fd597fcf30810717be75c66cd796d063551bddce2de1e6c1b12bec20049dab,
  0x2c945013fffabcd360f9c4dd5a3e8c38b3028887ad0497c3c7cbb1f72bf2d542]

def cQ129 : List Nat := [
  0x67bac91bcf01b868fcb2bf783a90f87c8bc955860e6fbf709e5c73a55e777c1c,
  0x48e6368bd9b1610badfbc7cce89ca3ba5cebcd3ac2cfe22337da8759a7a82163,
  0x3067de6d43726a9a96efff76e596aef9ef236653b78b53c5a6dce172f19bfe6d,
  0x8ddb17e8bf4615d9a63bf1bc80aa1ac9f73b7eedf9cd4429d63cfd3b2d8b9fd,
  0x3cefb550e2138685a7660a02a02e733a43b901714d05ef47079d65ba2abe8703,
  0x704f68bada0702cf985ab0ba33af1c4f20ab46424a4ffd8045abaaefab561a31,
  0x670d8653f7bff668d1f266121b514750cd62c7d04b55988d594ad5a7539d20c7,
  0x2aec277ddcc5b32357ae0466852d8d1413d1a8c21fc7a96f7b4d657e7fc239c7,
  0x2ee54912fae53fd2b10f25bf8a2c91e1c7da8cc4469fde239aa6f82b0d23036d,
  0x2c1714a58c7bb0802d5a9c80b37c5af069af57fc8dc3533e51bdd867dd08de46,
  0x45f01cdf4e1f2f4482ce36a52bb77481603124f904dc3ea9f02ce37c364266ed,
  0xe2ca888078e2c5cb459ab285b266ea094149f609c8b4c4004496656b906ae9c,
  0x444cd7062c94457eda7e6e7c021ed51c5815192cb8366f35a107c26c9108719c,
  0x720c4d98b5ef505fe033c2dda0e6921fd6f4b6a5fad3f3f9bc441af59b0444d4,
  0x40c0965ac92735d6214805f261d174039569ed56a7f00cba3a13aff36d0996e2,
  0x6d8eac3cbcc6188e6609a117386763179063c06ae0ce7fda36c649ab90673eba]

def cQ130 : List Nat := [
  0x5ef6ff3fc31a1d265a3f4bde41f0bba648d15adf8b9912c8dbc8b944c0ed36a7,
  0x4ed7744af3e36de50c3dbff4ac5357332b032090aa71a1c9beec4ad84a400c76,
  0x487249052bd003d4c410f5eb01b921cba75aa7c180562a3cdbe7f79c5f7566f3,
  0x399c4407814ebf6571997c11b822220aa9c7158bc4edc51df078ca0d7b9a916e,
  0x1760d9ed499fb0f20b846108fd306b0cf50e6bacc01de74f8602789e0e0953ee,
  0x5e21ca8c78f5391e77c8c3c9b33a96bdef0c9fff1697b92374755fe84dff6c85,
  0x369d803d310dadc071f0467a57ebd3a1d632ebbed8cf2cf822f6275aa273ef18,
  0x4adb3036ece4a4a8ba16261868c345de6519f2211e4a6a0dbe7089bcf79f9ab4,
  0x249c7ca01fda069d4fb9fd1c2c36268c02e71ea335767cf9fb45763160e5adba,
  0xa54f80595a38c499e6fc8417bc9560936858f466d73ec6f8423f675adeec7c7,
  0x6574e8f0f538a429e97bdbe8f63d6701fcc3ed21c33bf448d93e1ecd931e80ae,
  0x314ed3080f91fae2d9df7ea7becf0b93e506a8091a48d80d081d0ce3c7a2ef84,
  0x39901e07c9421b1206f8dafddffe7b6e875450153c4b18dd6b6fee48ff302c21,
  0x3017545c5971763ac634c46407a72ff5f4163b0ccc4c0705d9edbda5278a84ef,
  0x25ff0793b22e9c798f96769323c47682ef2e6b808de27d10cc456ad917e7a170,
  0x6f2da64f1230b2566e584557f2bd8356f161a0ff9a8c6a21a856a4a09b2ea9ab]

def cQ131 : List Nat := [
  0xd993411a3058611e609b49e386a071d85a6e75b642e21d4aff8280b27eb8977,
  0x252b8b9cf60f6ec44d0549077ab19ff679b3475222977ece4aa1e8453edf5788,
  0x3877012a1675f78903bcf90c0be754bb55cf7a6f9298a3bddc616aacaba86963,
  0x6e47ae3aeba16e90ca85a1fad4c51deab76b41c4d4301221f1092417f969f330,
  0x2b05538deaf6b13e6f01b9e2d12f5fc2d1c7324d9d992a33fe59c104a5c32617,
  0x3060a91af3a2b2a18381158eec80f539323089de37120689ea19a82dff6666a1,
  0x1ffbad09739eb268d7fb9f0d88c6ed8dfed9b5faf9ef338adf2471d6d8857957,
  0x37fc49fcf01bc6b747bbdba6b7b5bc9d0317b2416fc9193a9199a409b0b2aa9a,
  0x2bcf7bbab8bb38f4fb1f2c7a230e0025d179e51d9259ac499b17b92c8bb75655,
  0x28977e3a9ee0ba88973979cff74577bc9b3ade573785c7e0b41602eec793f1f1,
  0x35bcd9166cb8ce3bd401e90c40e1753769efd4aa66b6d962a3474693d67f63a4,
  0x33bb692fa684810df7d31be059df31bf219c758ee1f947e0c2f9a5f14e9837a8,
  0x58f1704b68ace71f644c3917a9d1b259a802402ea1c7673aaec6207dadc557db,
  0x1f9fd37c65ffe1a959a6f20575d832fed910ad07c1251a7aa267a37bce3273ae,
  0x5702d4c3c24f8e5016cf9f703c7fef8d6a7428b0636dc2562afbd044fdfa768e,
  0x25a7070ad919b416a15a7afb63932cc1d15c8581f35e9b6d56d617c3f5f0a9d4]

def cQ132 : List Nat := [
  0x4b8768f2fef2d80eba8fad7332bea3056df0e2c2aa6d658889daad041b7da34e,
  0x71eaa19abfd3170aabd3f7cf624cbd1862a642d04135cd5f0fdb66ba5c8bbbd1,
  0x577685f5bad331a3de60df966331d0f1b165618fe03207fcecc15eb14c44f081,
  0x1c5a509b1db22ac96cb02ce6c71e762e8983d04d3b69fb6ff8bc8202e546e5d2,
  0x50d96b1dfb5bd1bd5498bdaff90449397bccd1b71a36a130275596f792589bbe,
  0x3a50d1abf4987023841079e525e8944a47edb0952757b204bc1b006bfa37dd27,
  0x5f67cf5554d5021e88912a312a448cf4864f3e46384bc47730f43ec6f6f454a7,
  0x6426e608dd6962df67be5c6153c195168f724d97db7a90a13966a8cb791af7fc,
  0x2e880e1942f1caf8c79e59249bb767959342a456b6266499e635072bce0729bc,
  0x18e5743ddb5dccd9e7ac4213d1b42ea0400687093d52c9e590e34eff551b2af8,
  0x350390af7c233bd850c2e77a42894483d0b06c9626ecc2fcc8b5f7d35a5f8371,
  0x48f17c066fb178af6bdbd4fff15427c6196f72f1ffab737192fb4434f2b5ddab,
  0x6b15935aa2a1cf29f2063057714abc6b8f81714eab13a2e5ffbca07581f7f8a2,
  0x3e5354ea95fa859826ff1c14deffcfe95068fef4c96711b96bf6d512a5785cdf,
  0x14931302254ae8fa4023b646e4675b7fe90b08bf8e29573fedfe473442b8435e,
  0xd9864d38cd453bfcb2320304986deab28eac93b80f4440bd3b9e48d9485b314]

def cQ133 : List Nat := [
  0x6041e3078fb1850cb0df9ce1bb7d1fab677ad7d726393982f435aede8be1dea,
  0x1595bcb54a4a5831ae0d16871e66dd63d8895697c1258a5cc65ce7ab432da5d6,
  0x11a0256c93f6bf01d5d12bcc2f80f999963381dbf654e4be28b2968933689123,
  0x21a6aa2a0bb3629a0a21a28d59242c13abacc9d08ad1881e8dde95848e284dbc,
  0x6b15b9893339aae156c706bc4710469fe60099e9de31124a0601ddd08801a678,
  0x613e3ebb959ffcdfd13e99e63aab62a4cb71f54578b1e12b3e4b198924eb47c8,
  0x308f5dbc500d0809a06eee6eb1df6bf8d08d620a2f412b6cf1b46ea849d619d3,
  0x5a9420a516f06ebabeb747429e79b4b7ec9087f8dabf840c9c6e6d1d3bc8671d,
  0x350f977478bc2ef3432912e6169e531a245f6bcecb78743c5760b18550e2293e,
  0x322a130d0111fd326f7a72274ba3867229395ad099769ea6667ab2ab5dd9115e,
  0x5ea16e0c2e0062180c4c09ce5486a8b8d4cf06cea0102e180805ecabe923e645,
  0xb5042353062fbde085c9daa6329db6da27d29569b08384043d3ab6a364b35ca,
  0x49c5f5b89c27baa7611f57d357710bbcb3f4e8fb2cc38ade0b696fb07badef84,
  0x520d3263ce8a4ec0860bfba4da8abb06dd599cbee7e39f0429976e8a0991bae0,
  0x41f80024d020b028f0105bdc989afeab1c34b3e3116d80c7d25dd686f9522fec,
  0x6fa11cd534fbcf81dda55f71a7165115151847fb65d7e890ce2680d0d405cdcf]

def cQ134 : List Nat := [
  0x1af240e69a2886ad30dd1658ee3e7b2289fcdcd775391cbfc7e7dcaa84c3a973,
  0x690525b6a787db700e08eed4029f7b6bc736223ee71d5bacfdde41e100565f6a,
  0x5d3bd5f1d760102e069891d5ad9a4368c34c9be7495ea0289bab61ab5cb12774,
  0x4fc4cfacafd77a4ea3fa852db92d6e026a63104249cbe4a5491810049c9fa0b3,
  0x6402ab14c87485076972a60a698fcc291dbc6728a79cdd0720f81cb74504046c,
  0x5977eb0ce403d6a8a5db5e23a33bdb3f676e84728ed18d27b8b0ca08f06a8f82,
  0x4c953cbfc6b01de6fc00fb30439a204b89ccac46f97234fb09f2cca0fea2cf76,
  0x4d014710d8b3e51704b0fb970bafe65880b605f4204e04d594dc414a6333e1c2,
  0x364fa612c6dd2d165f4bfc52f582da6c252e1ea4b1ab77857a8ca232a0fcb758,
  0x2b932747f28920275e00b1d45ef87adb28c4c0ef02a6b2db8a455e29da01f898,
  0x31e38221d23d79e72c967181b10d92410e89d98ca104852f8bbe3d6f1d253450,
  0x38cd49796c363a4793a79e2b9548c83c2cd93224eb659f07b80d54c4fa29c843,
  0x66535da59a2ce432627b199247fc8087d66bdbd8509974de9c776e08d19330b,
  0x44d4eb464f3c8370e1fffff5254585d7d718b2762a12d5fd74313bf310a01c10,
  0x6bbe1043f2245cdaac87f5c83ab8f03fb522fb4d80a2c3f434cab0db939f3d6f,
  0x3caf516c2dd1166bd17c8061e0dea00c0adcd5e20af3f09df8c54ad3ada4daec]

def cQ135 : List Nat := [
  0x404e6f4b37a6c3b746d510659690e78455e1a102eecff0edee0bf15a0a4a68ab,
  0x62927574eb3b62acf35c200d7673b869ef0dfced447233c01dbccd6f765d053d,
  0x4934f8b6e1e5b60e7d04ac89968ab34000ccb91318d2149f7eb6c8de22567cf5,
  0x485f843deb3f3809a1a2bc7183693c373221f5130bbef1d9fbac5e076b630934,
  0x409eeaf888ae7e8723f419c7a149f6ad013bb035a85123bc658271dad1cdc27b,
  0x42337be78874068244cf2203b61f238bca412c218de9064202cf6f4e9080060d,
  0x313e52c4b1ec116961441d20d6d8500fe5f76a592ed5b19a941432450e9e0eb7,
  0x4fbffd6de943e0e639922b6a4f2dcf3f97d7cad67db048de8cfaa721585b8198,
  0x1c6d44b84b529e2bf9c444a5eb06a4f84824921a95ac42ff189a7350055aa21b,
  0x3f2473e2fc4de049dd66ed4d5baa9dd15c4accda359f0ba4b8648545dad1cdec,
  0x391d3dd59e5d3fdc548896d83d823a02028483caecf5f953f5b60d80644d672b,
  0x5534a1e88401a79f5a3cd49c168e9524bd79947d9cd6bde78d64c6a1a3634191,
  0x1c275740c90030d6f91d78d6380c9e7d19ec6c2c6835aefb7daf33906312051e,
  0x70fb68997b7c836316e68884710a92955124860e2c1d60c5f9e747607ed384e1,
  0x15ccf881439083e2c2859a287b31077ba169a1d9643c7eacfa6ad0b083fbb151,
  0x3c8b7c09219c93008f891bb0acc572a2c6202feff995ce0513220d4c35bcf7ed]

def cQ136 : List Nat := [
  0x1a214ddd655da3999eefdda568fe1c84443b0b587997e6f72361db02baa65dfc,
  0x21fecfdfb95ce5c990ef38856acbbc1f2528027d68790eaf3a154f813585b13c,
  0x41339e7e059f039b868af2d3365ad4b5ea0382fbe5e5ff82c1fd294c1ceba442,
  0x3668dadbd7bb21b30ded6adfd96a09d801be7970a181f263ecd5358d393bbbe5,
  0x4674ba8d11cb460086f2b03b380dc34b63f428c8c8ed2087ee35692250222f07,
  0x46cbf6841f55ef0b07c0dc09c3222a82c59f2f98b1dcd010a383539cc75a89e9,
  0x2892dd512a9ec4e3c68dc5096eb3f5faedd60db67c7bfa988a200999ffdcf74c,
  0x572efe612987976cb22b89263d2575b8ba78eb49c6d5e9b5640891ca541b098e,
  0x6cf91b46ddc889951e32f94d3ae017dcb432cf6213d120e07581a373e59e50fb,
  0x6a5ec33aa3d6d2ec127276384a99c59bce06e2ea82f0cc6301aae5bacc6b2402,
  0x101e2a854048fff16d87a314d187c4f8d7b4e2b3b833914d511b3711a88a6eff,
  0x5c853785fbce1d19c95264780bcb9741d3a42a1da8445710a2af2720ef0d72be,
  0x36f90c4fd78769be941b50e25590c586aea80bf82c0b894c6d00b44655d5fa13,
  0xac1887b4696240f81c31b5af2a9539bc7320677a46e4c2ab56083b910ac5889,
  0x1313c76e86f527ce95f02a43b335058b9712b0a833ba20e27c2f1e93c104d5da,
  0x4befbe08f670a60e655fc45b6c7cca28060164ef80fea802b7df92629e51b43b]

def cQ137 : List Nat := [
  0x5a934bbdda51b636029a84fb2bf772754006fc237fc166c46be5cc04da792a19,
  0x6cb6cce43a085b750c21a9d3faa705d624b1c4f438b4ebd0880685f8c2224753,
  0x60be81073eb2033bfc1772e96837f9b217323ad7b1ac9320b8fc14dfd7d326d4,
  0x1d2e0dafe070d049fa4b97db92ba6f7c97ce3ba00d133468d16439f05f61f604,
  0x1078695575408621bf1edc5c462886c2a3bf55159eee816b6596dc708bec94e2,
  0x5ece290fa428f06293d6e561e1a36f25d6cc47a702f03a60f0c88705f5af6979,
  0x2853f69d3d2bc219a7d07f79886f1148034ecafaa7e9af51cda5d9a0b0b623a8,
  0x3ebbea1a9ec2d53bab0cd341de9125c056cc8372955b289b4020e9c5a8d795c4,
  0x347663b6965e63046500586d135af47f980e2df7b98503dc97e409f7eebab2d5,
  0x30874a65a55150624ebab7c1c06ba5bcd47817769596a4cbf50c1c087f9640f7,
  0x6b3a099d3949bfd28acfc8b3e82b2c0f373e34afd1faf7616083bab7de489272,
  0x3848ee692819929aca0e5513353906c6267f63b22ebe7db3f39d7e45e20be104,
  0x1cf91fc6370464e78af942d9015a555111151d100b587af1b13e0be074d41e22,
  0x2cea5ac14a0abbae77c032688934e58478005834eaa95ed56bb5b92efb8c800a,
  0x35e8530075ebb3fc7852ebb837c9c90708bf5c05a0c71ac438567c1225f6c648,
  0x722069f90672d2d3690676e0c7279063af170388667428bea5b58a847cf9df8]

def cQ138 : List Nat := [
  0x13b382a4050d30f45f02c1f13f80981fdd50a78b012e0b5cf41a978078701188,
  0x4cb6b9cd64ba6652baaf9728601e20c4dce6f466a18a22c9fc7c133171524d9f,
  0x13423c9106953671e4fa3eff13d1a99268afcb1b6438ccc7dc554d9f49e1670c,
  0x6f9ab0f081d35431085cdb63d20aef5f88ebfda431ee71503256b4708b0d06bc,
  0x5bcb7ddd0333485b53789f87bb3f6c8e4362f55d0ded5ce44bd1e3e1781174d,
  0x14829951ef49fb91b56b2db520077ef6cec4f8b86df24ba03957697034340ef1,
  0x3bd2e39d8303c0a621aeb7031d7f6c8a7ca8339000d8c6f1ab448fa8b3481dde,
  0x4ad96cd0638edb9e0ec7e9c6f688f891ed5be657db8fb379bd056a8ca2ecd475,
  0x2bae42131376daaf5dd9f2112071df93e7cdb0e54307e8dfbda2943c51c9f8bc,
  0x11615c6e32066c7fff8c074c6eb4ffdd60528a456a1361b778318d48b152dce9,
  0x2fbed919c3cc9e03c630366ed66a1fe6aac06eb113aeb28e039127418eee2fc,
  0x63a8cef78b8d0bb2c9ebc3f5d286af0463417e7fa5aeb354a5e1af965b9bb0ef,
  0x498bc3f8ee72142d609a7d1de0b51cea30fe2fbaa1aeebaad5e9cb72b9d875db,
  0x4cd3ea3af2a2aafefa6fc7f78d761309eafe90397112f433ed45ec0cfea24c79,
  0x53579cbd4951ff1dea80d0f31b4e3597335378a88af487fffdeee0ccd0a8ea7,
  0x24f1fb308253d47d3ab47a1737eef7e93d16f4c4276f4472099df83321f6f272]

def cQ139 : List Nat := [
  0x43443da883dfeda39c4003348a44c3eb358c7599b5392abb0dc6b90bc0689561,
  0x4a3d4db8aaac4a6bdac0f302827287c2b7f3064c8dddc478d47bff1a610c429c,
  0x377f5f4828933dc3d88d654324ad268fb74e0e15ac2f5ee2dcce7dba9e032225,
  0x60a66c8aa1635a55515d3a16d1d58cf89ec98adaa63bf1cfc3167e7b7955adf5,
  0x5a1caf637d41a3b401044089883d94c6e60855ec4d8596dacf53e9db4dc7031,
  0x48a853f5d57819d9283384706a66c1e8d6617f1879890312ba6487c3de5017ef,
  0xdbfab5ce0f4609de210a694cf631bc98206ffa759a96b3fed6947cbb0fde9d0,
  0x55bb487b4103e1cba3d5e8d51603a688dbce04585815145cafd5ccb24228f22a,
  0x6a8258593c78adff29078dbaf5e26299d03292176832e1f741f074dc66618596,
  0x4e2a4098d59bb1d509ae0b052c1fb2ff406497aaf7defaebcf89c4cc6d64ff91,
  0x4002ef29f77bed29d6398ded28e8ac0028586f688704edc0a27420df71c1037d,
  0x34cfc12296af7e947c028289b119184d4f186011e6c57f5fe69083f22e93f33e,
  0x68c1bd02bd9b7d3fdc789eb5e8dbdd387a007468cafa22a3b7d4ca0e072bf58f,
  0x1042f0212d4f2edf450ef793d0698d4ccb5014562f510ba6fb4e399212abd187,
  0x648842ee103035fac5526859f89d8ec06ba485ed3b37876acdf5851f998c1e47,
  0xfbd42b706f00a17b28f22d1031d0056a9fd702706bb03e689882679bdbf5653]

def cQ140 : List Nat := [
  0x6a90324ecad3896ae4820e48efd3e6d1c1b0712e79167c676307cca69944595c,
  0x665187d831fd94c01842184479fd48ecb8619ef7ca727b93fcd4ef4cc6d01901,
  0x56abd9f7ccb3c832fd0d31c8193c293a02aba32ab602e64125eda9e4ecb39e75,
  0x6a673a8c51413f53ce352ada0492f96c70c7b49716f3d62dcd47b6f85c4fb477,
  0x4828a4f2eafed471ceaf9b7dd1689d88e72dcf2d8fd54f5269d92a426ed4a6da,
  0x55f21e3195d2b487dfbab2c1fc8f93f7a0d0037260d812856c7ce3eab10c6f3,
  0x19e09f3bc2531f28dcbcf1955021003e17ddce5ad3585c14ba79b0dc73548b0e,
  0x32082be2b544a3e28b3c091c2995342e4dceda74f6ed632e71965a77a8f8eadb,
  0x6ec2cf868219a268bfdb726cf8b1b33702743a0424d3d68bc4d0d21657db88c2,
  0x32602240d407975a5c76fa7641f1142d31493ae87d3af56e6fb1b25f073d2914,
  0x43e214da64eea78ba9933ed113912eb82ca4e4c5395438b44585542be9309704,
  0x119875257f9e6e3bd39b399228a8c67f991144749b7fd6386132b0a6a9495798,
  0x352aff8645f5515a9a63b9736dc09cb6b41d31113b20735aa7e345093c018d32,
  0x40595de73a6f0de8c8a7302ddc414a8504ac97edc2d1792061d815ccb78fb480,
  0x5751a8e9bdba3ef352a2741a2d9acece6dec21c826fbcd87dc0836bed8a03a3c,
  0x2cec704c32b23a291bc95de81297d0b2af1f062906f6b394ee3e307ae484246]

def cQ141 : List Nat := [
  0x5cce2666ade2e4642f062e0688cee25e243026aba960abb25efe1c988242d300,
  0x46c676e9824d7b738584b39db83a03cb1fbd3562a8cece374d3a5f8a338fd2b7,
  0x564dedad9807c9dab49401cb3259cc90919dfefa25543ef22a0453c3d23dfbd9,
  0x2ada05dc7ecdcc207f5616b868f70f8c65055322a70576f189885598b37fc5fb,
  0x5538ed9a154df31baa6c4c4cee3cade1d393f6d753b4478a3b52c9be67bfdf87,
  0x1fa2b606cb50bb1d2b7bbe27f67e24dc2cc900da477eb4643a7f0c1fc3ee2dc3,
  0x6e5c5e83e6fd23cbf9de6ed9352f248f456f3d1e3d427740e04a3ad65a7c490,
  0x53385246f9b899be4ab7997d05eb8c33f81106390eed82db6c51049a733b9d21,
  0x4109c819660a72ae69bdf87e29b425d3f05089a078565a215075664390646ae3,
  0x83109fd8cbfbf60a9fc679d60b73a1e1f5529e81ac097adb8c0077e48035418,
  0x3055096f881fc5c6720daa114be0d420747e9a960a66e4f87a275c4b17db7835,
  0x2874c96ac6af3aef830ad51f288d7a4985531ff0a1ac9e633a6b2b50e026e7bf,
  0x6f243ca2f1321bcc4f7688a74b18dd70daf803b4ff49580b2dc08317ea9a0957,
  0xfa253f6be10608496ebdb4c3d310018dd69e980682e03da00517f13f0a1bc75,
  0x26ed3a74ca720e2a83c15bf62706a996a7c01bd5e1488a6587aecf9dd0b25c37,
  0x2d6097fbce1e8af7ac4214e99f2417dcf54a49d90860a7f7e913833080d59761]

def cQ142 : List Nat := [
  0x72cb2740667404760087262de2c926be363ea2d877a10e6d440df8c1cc84c6f4,
  0x5c8a02266ad288e7547f15b61eb3078aad2468c754b53b383b256cce24f1630f,
  0x70f882947cee0faa0dc28656a64c0fb44685d0bca0f738ed15d082a5fcc50ed6,
  0x4dccc5e51b18b5fcff448efe676d3bb6c02515ae61c929e289c5191c35b9533d,
  0x31d015f54af1a030785b279f1c3ea8ceffb312f4fdc002f75169983c2b8c0081,
  0x55e3965c310c98de182d85b355e5e095c65d20e14567533867fa3e865c8f96e7,
  0x43c40977153d890a50a95f7fc1ffa45d5a07e452503681bbb3520dadffbb2b8c,
  0x34c35a1cae7bc43f838586489362ba4e97684e3af7b3cbfe82d0759107631a9,
  0x1822cc17926a5031a12e0225ddd7f69d63019bf5190d34cf3ee64b43d407bbd4,
  0x4c5e1c59a804c3c50d6d2250f6f2c9989271731657cbc88604a139b2596682fc,
  0x1e5a6490dc7cf379b7890af35058be134aabf8b519d32f726e9c881fac1cb5b8,
  0x4b64a6664012161afc535a1fbe62d66568b24142f1ff4304900da939aaf9b3b7,
  0x725bc50f88607e0b19f41c90175b1fca482284faea9c338e93cdbae2500044f9,
  0x59dbc06c770b33a2d748de3ee591b1fc1ae6c95620890efb485c90ebdcb515ab,
  0x9ea17578983e4afd857383d62dd93c0d08367ffe617b62e422555bb2a7c3d0b,
  0x1cc4d9e4dc4aecd385797b4bf51c55459aef328cfc297701f21f47dc74036113]

def cQ143 : List Nat := [
  0x5dafafee0335b0253b1ead937a869d518ca12e47be9fac41fd7aad18e933b5ae,
  0x5cacd0a18a8058d26b09a505bb43c736461df21dfe0b31dcf32507f02bc5571d,
  0x29613b92d454e4a7d64b9b471b6e74c7aeba3b7dc35ace8881e9c60e4ae8ab95,
  0xddf11a9a630ef3733ce7cd5a5f5fa4ec6368376363b24fa5b1a5756cee5cf3e,
  0x396241ac01f2dbaa45c594afad82590aadf81d4bb30f7f39f0cc0d8ddb8302da,
  0x3ee5e18473d55b578877e2b9d073de6cacb775ca6a326503a7a619442de5bb3b,
  0x121680deabd413828bc5b8984135f409ba4cfc8825ac8eb2bc4b651aa0573396,
  0x46663440bc216fac1f6372506b2a65290d73df2449fd0c1444df5b32e5d3d2b9,
  0x5845ba29b1c6a0a74c017f9143381929ab2959c66dbdc79a0ca52ca471886f03,
  0x69b99881c099e6ec6c5f744d7feb40c860919d33a650dad386a71bcdd4a4fcbc,
  0x7a776f36deb2a1dcf716915881322f2ca7e6c5c6c977838847301ef9729ed00,
  0x5ee9844da368118720db6416fbce6b8cea9e8297dbf78a2acf3df7ea133ff2d5,
  0x66736ea0c771f1642f30e77243730f4ec721b186dfb22cff7d4325329fa210dd,
  0x62c71251a50342fa4834e4df7785aa8ca456af5dda7dd8bd2e19d8595e161ee,
  0xa8553ae83bc017002848f4d10c1d8603cbee31fda4c54e6b961ac587e47a891,
  0x46db5a8a3f1d92886777dc7ca6aac364d3f8fe6afc5be56de8dd7ad158d1120d]

def cQ144 : List Nat := [
  0x228abbc655204e84d0d2e5907a3244aa0bd73b20ba9cd8ddc87685a7d0fdaa40,
  0x603ce9bb638a853d8a90b9faee74371740f333ee6098f5f21e22163af8f945a1,
  0x3925e3efb7b9c336c532f7f829d5f1ab637c1d6493aebeba705002d8577070a0,
  0x1d1675e6da47e0146e64da8feb6aaeee2a23ee18d6e3c5385c192e2b47cea80e,
  0x4608f563bf281afaa5b88f7a5b2ec5de009c51ea7ff1a302989c9a3a9c621e04,
  0x1c4ed6b8eadf550407b1b76c2cdbabd03beafad16f7d9d57350d484e09a401bd,
  0x6a948b9a68162b83405cca59303bcf39c445b4e15fbd83aec587ba73ef0a8bd6,
  0x44b0f488ffca6218d028de42101ff525283ee1c52c23c45c11a84d83c9ccf2bf,
  0x5a9b77ffef70c14cdd24a747b03b8702add8546f7a7a87876b7324f09e6f6f84,
  0x4ca7bdf7f637d29b938449586107ffcd98ea8244cf300c6831fdce842a3c680a,
  0x3b841ec3dbaf6f7c4addf1a145d1490964376ba234eb4278c35169e3288754fd,
  0xb0985f6797d6771b1509ff24b3d724a6293448de116f009132b198590474cbf,
  0x5ff1ae5b60ed1f9f7bf1ece38e62f6269b50d50118954816053f217cb0cadba5,
  0x46b12782b01ae000c46632b958b971e6f864f4ed2f3d45db4ecb4956f445d5ca,
  0x57b3df0faef737e630b15a5431e2c2a0136a7ee5f520010aab99cc3edee98fb8,
  0x1b4d768f99aa2164832cb81ea566c996f7c70af22c870615596a7334e393ca73]

def cQ145 : List Nat := [
  0x71ef486ce53cc2b64e42e774ae531b703e8acace4a6e33ef27021a795c86b496,
  0x47a7094c44f308d85c21f575e3114e3f268103d07ab98303c2872bc0506f7bb1,
  0x3bd77fb9cd6fd7715ac776d9c63ad0a1e9f3a0f40b4ef69b8b3fd1b3f0c4f8dd,
  0x663b2b84ef693c334f95c5b66c8efc3fa68c88869e7b15a845f8be2a9e46f887,
  0x422785d87564898104d9e7e34a05b427dd4570c063111dcdc9f49ac928ce031d,
  0xfdc1d0f49efbe2f6ebb44a6f0b5d3ccb94369bc4d184576131de78ca7aca755,
  0x55010eb2573f390cbfcf7cb7b14e6c08fcdd4fc3393dba879786ef3012d037d,
  0x3024a73cb9573ddaa95c2aba8e21602be81f5f258666fb196c5b042fcc1c9969,
  0x4c61cf39cd257cbef6aa0ee4ae8b11829169c73ba5df608237e1d626001a12ef,
  0x130bc732c093b1bf40b3f6c8a375744848d90bd4fcbe8f01aac9f5099094e11d,
  0x5fe74fee1b00336b3624eef6da15368c4b2069400d93e9928f0322822b72b91c,
  0x5e6d73f31bf00da005b184788b9d40931640c22a59d9b2204b975e8b0c893653,
  0x4fd7b770e0e9a1a2990a5a4363512733184b1aea86401f24381ade72514f3f38,
  0x5dcd5519b828e332629aafc76ce6cf3d4a29537e1de44cc35415b2847645b4e9,
  0x9f87cd86c7612a6d0db314d7388f6bf0091ba68c6b3c2319e925fefcf222bee,
  0x63e0313e93a58c11b2e1e4acf972b632b61ba1d53b61ff377437d3dfcb6a6ed1]

def cQ146 : List Nat := [
  0x36d10aaea51d7e64722216855e1dd70150c85b9a82b03492da4b7c2d32f1ec54,
  0x1a6f7428a14a18ce011e4b81126145a3bcbe265c5238fe59174fe26ba3cf713d,
  0x45ec6f0f42c0465d26a01f6bebdb80afd9c1d66315de6e98dd9ba5a1e9d885b6,
  0x14e64ca9fa129aa7d18da2f1f72b3c16cbe633b124cf88cba08237c66cd74449,
  0x14fd2ea21a5f96e5d95c45336bb1013a26c88d8cefc5e462504693420e5541b9,
  0x15742793f6ef84bf13965883d0db6bd12a99edd953b95abbd32fec32c5516bf2,
  0xc8178f8c5f4f8df9db3392d7b62307852b0daf9cb909d31b6e821e67b23b587,
  0x10f4d26e0fde221090547ba47ae5bbc6386da9a0322586b4da83d00e44aac7ef,
  0xb2a36e2ca98b9724e434da0afa153093474c1865f6ce67b00073fe71218d8c9,
  0x5d23e9043a61f24acf10f02cf20c1a5f9283214fa74864e3ee55c937197d709,
  0x6e2e54a12102799ba08597bc8775fdc01a7f447fd5a740b349788cd1f92559cc,
  0x59146be4ad2448277d2fe89c5b0467c1acfb4b9e80bd07414122ea525a5238ab,
  0x73cf420767595bfa4bbde18314508ad823e5bb7518de3f85981c19682329cf08,
  0x3f268063a4afb27af60832200096be89c83f6d03b599cb60b41290f125a01f99,
  0x1f0ab9c5a3c1e28c6076fbc8e6154f5a8035ad7ebddea2229911657bff828912,
  0x1f3bf86ac2153038814c57461d6501ae5a407ddbddb04d13e53f4b09242f4141]

def cQ147 : List Nat := [
  0x3b70d053716535d2e880fa3062f7ba8da765d93b9661068c5ab57cf8dd4a6403,
  0x2f3d7ed35cd6300db50a9b40e946b70037c48246cf181347add069ac8636a053,
  0x4b59f837cbba7963bae1bd25abc6336eef918eee2e3b96ef483555179f05a2f,
  0x303904a1997ee1b0d3339cbcb341cb8b6c8863bb3004bcf62ca0cd228cf1dbd2,
  0x4cab07d14829a0afc4e0effb9111b41da3b305074ad612613da223e9b69f5838,
  0x19da70db28b771a6fd9a88e055880500b71407e2fac4156ad805b50898c113fd,
  0x5e680509a6b0d24da14e50f1ba55095107ea710d88409bb21a009278fe0ed299,
  0x4662a9236e833bac088f3d5944d73055c40341ca420f3a350607fa876fc7b454,
  0x81a5191907a7993c4136c93e447f1755bad82341effc317a517be4202e1edc,
  0x69c887b7c2a6dbf71af4634a9581a56fc53db38536ea7c15dc4962c61fa722ff,
  0x258b097f83e76ec79fb3a1f90f82add1a4cabf198ef00b8c7b312646cc4d2529,
  0x332c254c6e6b945a38a9756d57869e5630457f68da8f47d87d9274825b502052,
  0x5588265da99aa6d60819911598db6db47cf1a5896ac49e1b78ce1d17a13af429,
  0x1b67189a1f822637ecbaf390907f9532cd5066c37e9e172674c55017a7c6ddf5,
  0x6305f5035d0244b9d530ce64eb411b3770f0cd2477e70bfccf296a22d151e52c,
  0x5bbcabbf380e57bd69534816c0fe24061b544e015c3ce3a67df19ea4d9f11965]

def cQ148 : List Nat := [
  0x6794d7509e5305d196edc70c86b3a06ad5f9b7d4bc17ec276391d90a07f31c43,
  0x520f767889b19c3bc5027b9d3a8fbd41714c19659a145ec4725238941b2b415e,
  0x58447c4aff49df97078a88b9ae44ffe4a3f25f18900773a7e7c22c8ad72a2f98,
  0x72e351ea573818caf1befc3469deb6a4d2936b8a441e24e9fdcbf1a8b71afd18,
  0x346d7784096c78ad5450733b5ea913f1407d61430751ab4315789fdd93a04eae,
  0x6665eb06903a6b654fc00930c5345fc0a7189be5a34a8fe1a40920401077dddb,
  0x724813e6550cb226e19f6a7dd002a539ffc749d39569ac24b20a206b631b1e27,
  0x5d7154988bd2b5986fb6d699b18a998eab40f4b102bd0036853f79d795c26c91,
  0x4cb0aa73bee6fc59e05e7d54fd1f28014b137e51c5434ca8240c1e184c06fdeb,
  0x4e533377db6942be27135a2cd3c5b649e9b8f906e77f9c04a7d64d6de800b417,
  0x5ccb180e60315605ed015dd86226e76aeff16967d8f2bdebb65cdff2c3430600,
  0x4a4ebd885f01b0e510384bda302c06235cafe95a14b57bbcfa0d7ab146e787d0,
  0x3a85d94848d8eb181805ca557f081fc76ed83c30b4d3a5043da13ff55cf048f5,
  0xed76cc78dc3e0c980046c63fe6dc839625e714403316e3169d4c3b4029ccb6a,
  0x3ec831263c1c98aed9bebd00863fad3ac211f515b618e6fe5f69ec33cf66fc1e,
  0x251d7ff91cc01cf3cbd54dd6d91daacfd215702b2d0c64d4f98d63a96d3f7fe4]

def cQ149 : List Nat := [
  0x593d1fd55bfdfbdf01c141e0f8a94fff92a052736da42250baaf391944991250,
  0x698a00521f87ab74b291efefa43600aa20aff6fea5fae191eed595800c14a300,
  0x6aadbdf184b82bbcb2795932075fad1a34ec60583cadc19a5cae714b3d39c48d,
  0xc4fd5613c810b09af60391d7cfe8dec14919f9e40e954b6663a631276a29700,
  0x1739c16ce80e68a8adefb338bebaa1138696cd7c7cfc99b4f4ec65b646444bec,
  0x27e6accc370be285bca63129d1065ad4b49264f66dbf51d143eaa0dec1143634,
  0x56bd7e8a90d3931712c97efe187f17486567f6f551b4f3aeaaf0fdf42d2824c1,
  0x4d966297a78037ffc10f4162a2916cdeb4ec57cb5dc1316be6ff46c2feeea09f,
  0x63a6531affa10ba76b228a8152fd372e1912f7395c2e2e9a3c4bd9db4065f888,
  0x5058da8acaa1e0f2bd63fdde1638e538e28930eea4c6a6838ef84fa4c5407462,
  0x507f50847894bc12c42da9897544ee8d203a68cd921a01573650fd8b2edc42d0,
  0x71fee4d3f34ff2c9062d0ac3a57cc2456279cd87ce634855de8c2858a52c0508,
  0x68517d02a1b3bf2f11c4b4e40dce6d87810241e3cc794e96ca2d8b06f52846ae,
  0x4a18a675c7436b45e22a6fd1a09f7ca2197fa16e38ff1bda156574620ca73b08,
  0xe57c213a1b2d32774417a72e679b652f0662457b926029557f7d4f16c99fe2b,
  0x505bcd1e06b15551b5f68486d760148ae2600265abd27ba3246a33d7c50e05a4]

def cQ150 : List Nat := [
  0x1d1e67b55096bbfd744ee9a34de2986be0ba82d244b7b8c629cc9db2524434aa,
  0x17f81a48cd8a0d7a87d73a5307f108d28eb1a44665fd11847b3d66388d86d1b1,
  0x37105a263892e75773aa0d4ac18118ea20feb775638288800b0c84b5e2451ad2,
  0x6837f653edcbbf1504190cf36f92a319f7d1f42829798d2e5ea37f36b328d5e8,
  0x4730cd2ab77003227c0328e5f3491af9949ea891278be04be0a2abaed3a76a02,
  0x3fcecf563e768b76bc04ca9059f9213eef2b2178714435b175e6aea1a8c1f87d,
  0xeb7ac3736ed27445ecdde24d33d65f6be542f9222f6cd646de5b5912faf6c3c,
  0x2cd635703ef5c29a0c0cf7463dcf3ccd1acaa7c38ade746989046611a6f0dd65,
  0x2ef589128f627b474c006c3d191e240e9394870c90cfb97cc54017284bde3d7f,
  0x1abd0eea25d630c8158df7adc329956b155422f98b985f638062b72f180c2b39,
  0x2f4dc5ccd0cf644cd3d1ba443f87308aefe1b67fafc07ecfedaa08c59b19b0ef,
  0x5e6d8cba3253a68157f0bf0208ab5e554459a270f9a33b98ef3250de9c69bc9c,
  0x4b2b5e87b756bb48fa1f610ffadac124aa0f475b273b8080d1a120d5b7813ac4,
  0x5250c8f0d851c83105404a7ad3a0ebb5e5b305139835353e94a97f60b7264e90,
  0x3e8df3dfe5ed9716a2682f465034a38409876d8e89dfb9f055760c420cb346ce,
  0x43efbf4558047f719ed863ba3a32d853703341ff7b4ffd995c315be44e236133]

def cQ151 : List Nat := [
  0x121319a649c16786ee62f851a4158d9379c32677544b32251d31de87dd0f1947,
  0x7278c1d4cfd1d9ce939b4304a662553d4e029740f79e82e89d5b458aff2fba82,
  0x116eaf72ac94cc9b59b30c9aab84e6f253e14403df0ca38c296f4e219b3067bc,
  0x1a6ba983b8b5909273810e1cbad7a0e5e7a2954e1e5d636aa1526ccc659d29ed,
  0x3d739d2734650e788bfaac571edf7cdc23e52f17b89ef1970b8e4b3a2fb3f0cd,
  0x1d7d4f0ec072de89748b138ddf70178e71f4ccece8ab7f24695a6c41298b37fa,
  0x603e394fb9c9210e0222d03350c7e6b714d15606f5e2f58a07f1cdac9c867765,
  0x2e976e1579367c037b6adc4455c3149dec66e5779aec35ab91ade46583f57b73,
  0x13458349cc10c8b8a6f893ae07671e15321d0151f1c9bb5713f2e3a5c94b02d6,
  0x1ea93ea9dc6fa14ae5cb74ea0154c958279a39d3a9653beba1ff82d27862316c,
  0x52583db79ee7c4c10b0148b2664f024b25753ea9e7b5475a45b322cf82d3c55a,
  0x6d4a2f77909f33a1e439b90cd6f24aad972bb466447461f7eaa78d2980e375b2,
  0x13c2b98d5a7292c2c53428e4a9d6056c21fbdce7a3c08544ada41475019ed8f7,
  0x363f4c9b1c8a63b8e503718fa1ffeb0757196a85a641ff8cf3d56fc29418d005,
  0x6bc297a7165a0942449c87f32eaedaa46cbedfb537a133aaafd42e3d4b5ca953,
  0x2b5a51aea5ec85e73f9b43682282377cbcceee774c6610703317a353bf17d4c2]

def cQ152 : List Nat := [
  0x2d8b2e6e376f796a9a8aed4f8577ac24c7c162f2c1da7f34a71d136a5269aa63,
  0x6bc008b7919ed9d614abb9c834427ca208083dc7491705282f566647cc3ad617,
  0x5269065b656405bb875dea18fcf651fbc720ca9867bc056afd13be53a0ef1318,
  0x72c4fc2219b16fa1da00e904da4d5335813ed29e76301d0f5ab68be0ccfea1b4,
  0x22a6cd9a799a90a56c8d3153ccb5ef65ea65889442266fee617e2fe15ac9315b,
  0x5829b00df8f4420b33177964b00e75c53883e9fd39fa3f4044f8532e3fa95dab,
  0x1f7e908be508c568b5992af408124d4943a35b6a9a6366e70f204cac8a3a548b,
  0x3742fb7bb0cb4886c529002573716d44fc3b276c75cd8848cd3a3accc7a103ee,
  0x2c9e65f384d1dfbcaaa4e72685b82cc23d71814af2354325064b2f95c12fceda,
  0x12f2f26a7ae60f8c0aea5cd7ffcf9b8100c9fe323e3074cb414fc236156af014,
  0x2cdc5cdac3d413b5aff696eeecdf857f7122b90b9ee99e3004dfac57a4eb1c31,
  0x336a94ffb84397a54482f501a20a81589de19caa592a9961f474dd2c1023f603,
  0x2f2c9260e26027cd2304e763c78ebb4a8705faccbffefa83c64767267f1f12ef,
  0x425cfbf5aa3e35b5a8e228e8e7ee09c845a624675d74e23c72c9316401e4b45c,
  0xbf3458edc9657eddccb8ce6e5d7ba0e91dde2e6084d163fbed5373864e1d428,
  0x469550cade45f2c98cc5790509ec77e217dd605c7b18a9c303e06bfda42b69b4]

def cQ153 : List Nat := [
  0x2ee431aa02db71d69e90f93bc6c2743afb8a99bb7cfecd197f9c1e502cd07744,
  0x271d2d25f4879bc076c561b811a2460c44204ff09498c89ab0947ca4beeacca9,
  0x6e6a7d6336b4338e5252c5bc619abbc553ad183af249dc156b56e4d3d50417bc,
  0x36d1e1ab51458ad38266e3742fb287831668daa946b3da377d620e35778d12bc,
  0x44531d930b7e82e2698e958918563463fd192aad4c89fccf691d360d7e1f20ad,
  0x3310f4be65f8834a9741cd1240e7cf8aba305c40a3693709f85b57b636ae3fab,
  0xe2e27c080d2dd3f5a1de3e698955f2b74a40d7fe053cc4718c34ddcea7c648f,
  0x108821a43cb3bbe0d5bc3d1205e9b4130d6970d79ff97e92fdb7c903baf5bbb1,
  0x3e9291f485956801bf65321d695d07f62842bd2a8eab5b2133aa73d99822ec28,
  0x102984a6dfa036ef5fce8a4ff572c3de572258595cefd0652804fd79e29b5731,
  0x32e869867c93015994cf2c28c458edff2f01a0151df8e964b2f9c7c08a1a50c6,
  0x5d5dfedfbad8f3133cb5fd3818a38b3e7754d946c740b6d629dc9a323050e2dc,
  0x6126fdea847999e9df6c820007529887e0d7c7c3f037a73c1ae4d6ccc0e329dc,
  0x64f80960f7428b8fc39290cfc2a5de7ec102e6b9b22873d75a76da67debfd2af,
  0x60df9d8c8ca73ee406217b82592a18fbfcd99621d1fa480f0df61ba776432cc2,
  0x61845316c6b5c87f760c4c72ea647900103759a31e7f219accb02d715e8a853a]

def cQ154 : List Nat := [
  0x6f06e48ce910c07e75c5ac1903cc47acbb3fd3f9946ba0ff4dc1eb0403b2b954,
  0x3f88cb4bcfed95ace87d1796292856a81ea6711aa4f45fc05e474a109d2afa58,
  0x25283041646fad661e1aaa4db300f07723bff100a677734e6c2c445e4fad47b2,
  0x4a6736028cd578f85ee1478428b38fd69df8663c56be93deac063e4a53e3ab3,
  0x509b3e42f5f19a668d9656450f97b9a2b92612068b31e4e9dc18a34b6cf8a485,
  0x4f7d0a67ad46c94f38eca337586081f95207c918ee4f52830290386b09faaa47,
  0x2a06178f3dabcaeceec8e5fa62c037dd30ab6e20dd136c9b88b72666d32a086e,
  0x622f05971b999a2cda0063c0915b55f0956e02625d9372f62f54e042c63321c,
  0x1095c339ba844ea9888fd1477f1dd4a792cba8e41fa6508ea6b3f50ce28240d5,
  0x1cf5dcce7f4935059c0c6b0380214e16cc8b46b13aacb189c6eb1e3a1362ae1b,
  0x62736f47a106723c12ce44cccb464d00fdebc8a76309ad11079e374ff34621cc,
  0x3b763e0debc5b64ab3f0022b9116d04d83d8a98166656ad301f4b5443631e9b4,
  0x1b5af8b71c3cb7dbced435de687bf943c500046e88c4ea407227b1cabcaf3285,
  0x40be41b4653b33bd65445fbdf1bfadda71a43c9f1ffa0b68ec08b39bccaa8366,
  0x28743fcc9420cdbdd3cdf09aef46341b9f7aafe0d02225de51162258d7c8c3aa,
  0x1daea403c1c066de7361cf8e574180518fec43ba3b8fd762d56d00e3e0982423]

def cQ155 : List Nat := [
  0x28497383f739002756a572c7ac8e11fcfd8e4d7ff7e1cbfd435b4aada62d1eff,
  0x1ebe1cfd3d0e02d80eb973e019ecb8a8b819533d79910c1d22b0ead94728eaa2,
  0xb3c942e08971a3aa59a60e3d5d49a652c80937379765f1d21936e485fe122a8,
  0x47067b14a4bfcb10ee9047ae6a4a9ed6253319f0294726217b88947c4775d6da,
  0x1e498e43c07bfc97e3604e5a0eb5e248e55b9b84ebbe6ca267af1497fbcf9b44,
  0x25cbaee07c1376307dc33e019dc0a091340fd3067b4bc9bad8c2cd5da3ac4324,
  0x263778c8a9ffeceb0107f75850ba12e7734db55da04afeabb2102c4c82c52ea7,
  0xf4623d276a04f5ad21c43ba7c1f5af9c9d20b42260e5bccf5beea6cdf2d4fe3,
  0x28140971ffb2dc5ea07f1feb4d17d248bd0faebb314f91b9cf2be238ca93742e,
  0x514bc423d93f476f6dd243f0c91e807308d6ca4433924e8139f681da5f445c68,
  0xa9bb9a989d18feaf02e64afdd5ffec069c265196be729fe8e296a4772561cf3,
  0x1c6b8881178d1f2d5046111ee57fa20c0df6199cd37b037526713d6d7f55f003,
  0x2c5decb878d0db40a0fa4712b13c8ef40ec939c19522a2f7cd42e64f514f14eb,
  0x61c4abf6144bda1a06d61374a6862dbc1e073fe43bc06f5af6924ab05925ffc0,
  0x60da095a12143fe8c45a00e6167a45eab3c685b778525ca45df61b53c0850bb1,
  0x59b2aa833e096dee618174ecb14906c2de77e298f49d87dafd7e67311657f336]

def cQ156 : List Nat := [
  0x38647c19ace74109ffa48b7d43866d6fa160a118066fd1136d115dfd1a29520e,
  0x6a9ee9e83f8a9857c533fa0bda90406bb39cd199107a61bcd36df581b3a44b1e,
  0x5af080acba6d9fc16ad62d3737ca142140a34b95855bd04a0d8b252f97ef4b11,
  0x592566bba2871566dc61357b54a50dc6cb834a5506153199d7dacc9f82da90bf,
  0x717d01e1b33c6aada2171ad6f4fb2bdccfdacf73158b825ac6aa07a38b8974b,
  0x523ac77b538c473ca6315a777da7fdfeb110b2d6191cfab7e695f3fdfa8a9fa3,
  0x6e4dcfc9e65343dd5989b9fa54d8a31d4ad3c00cfd974f133254345ea425adab,
  0x1865bbcabd7d1106bcdb0c51230e767309b96471f430d58dff2c7c4fcd098fda,
  0x32a4b2a4c92a85b6aa9826798c001b896704a7deb81d475562db7ded90a17824,
  0xd802076733d5bb20b2a84bbba49dd065e371c0ab8c1d1c6337f31d1cf049aee,
  0xc27d8b4d96700c297d18cb083fed03e2c928c95afbf1671851b69e8ea74467b,
  0x319f4f7772047256fad8a6b1a9280a3d7457011e3fb96acc25148f61ab1a6457,
  0x6dfc3723ab46f47a907b54982fbcf147a94a21f1060addf377bcfff056658061,
  0x53d316eaa2cdd23ffc91eb025493ffbdcb8b192436d7cf41c2f4368b2b2dcf5a,
  0x4eb1c4c0ede400a4abe6c827d642df4de72223125cad5b3c4f5d97c7bd1d4fce,
  0x44dc2853f20bc37b1a5a30a7dabbfa68a1168d8123d545a3b45b18a7c4b3ffc2]

def cQ157 : List Nat := [
  0x5353e540d4f2a27b5d82d5fb7ce891e138cbf9255129fed11318524829175b65,
  0x524e6063cac33d474568022dccb69939c892e2c4b2e12ff7d062159d907af866,
  0x3bb4c4557155fb8c747ead6fc3f83d6d24429434402b7e3a67c4c7fc02a024d9,
  0x19328ead6ba39791e9ef955124491f9603c35703c639d23b9b6fc3a9239d4745,
  0x1f3d5c80e0a5005ee8aee7e5206abdce4d42dba3ac5d93a50ce176c200ff11aa,
  0x30b7ea2153580100a0950fd4b24e90c30324fdbaf882d2040e231904220539b9,
  0x4825d8573bee2ebb1dec39ba4bb47145eb4a412abe223bf674f1391de0c3b4df,
  0x422b32a21b9815601d5ebe9099f0625ec6b875c53db7c1ae59affa40399a0936,
  0x7a1a6804da1e75bf8a4c34f96efc971081381aaad0a2d8ad8f11a2833ac7ee3,
  0x4bf73865432f42480c6fcfb47cd421ba5f13a23ae5af63c707c19ea2098ef99b,
  0x5f50ff1c1a3315be99ac9afd293690c269f1e5457ae90f2beda7144d6478e092,
  0x562ca08c55b6c2bce74f6802d338181a57914f529bd654ccab467d9ad366bc1f,
  0x839d24390f7ebba183c39bed92803fab7a279f162bc9578f0ceebca3a4c154c,
  0x689208f1d36dc0640a133832ffb44b58036f0555a0974ed9b50bdc567d6e91d0,
  0x3ac345e8b39f91923a29c8169a5a9a9c86382394a3423aa8c30b4a016090618c,
  0x39fbbadc27bdc3d0ab5ad348f844f68c4f18c8be7928e3f669bf75743c277b4c]

def cQ158 : List Nat := [
  0x452363a5914fecc1ccc3e8933abdd4d51cdbe24991eef697766a7a1dcf7bbd0f,
  0x60d3c9feaa29ffb4573110ffa99e93da9fbf0e7d721213f9cdd98514c1441aae,
  0x5160a06b8d960b31d2c6102116cbcd039afd2926a3e42d9dc7b693e8cebab95b,
  0x242441b80e15b46ca19a8d867999ac81abb93627a63f6d5c1aaf054acc169e34,
  0x47d96537a695b4e30a3d4437d5f25b9739aee20a9dbcdd6ffe1249806931b684,
  0xad63791212d6e107c001b4517c0eccc00d1dd6d660c1d08bdbe3aa7e06dd8ef,
  0x467f735498379f139f2ce5b5839e453d7247363894e7e93537b3d647bb53f39d,
  0x3aeef064d4d9f61ee0196c26fa49e7113caf65829bff75beb50b6e8ce629d22,
  0x603277c6149eb6a50de1c78a59dd650725f23c2c5e1db5db9c18fca74f3c30b,
  0x26bc27c7919980b3e3eef3573a059a33dfe68958868e55ba60dd60549514e8c2,
  0x127d545e1f4f43de366e6f312331ffd6ecc102dbe1a494e5041362f864fc32ad,
  0x497275736d63242def329c32f31df111cd412d49377d9da6ac208ffeb9f1ceaa,
  0x5549beebf84df3aaa3e289be0085bec2e29dffed1030bd81afe434c616e68c95,
  0x20fe1d293e28122c5fe07cd62213a23bd14430f690ec15dd1f6594ca62591fa7,
  0x648e64400f17e35c1bdc7d66c5191d1b7745b00767ad1bd564fc5f8fd61e83d2,
  0x433712e0d247b9ac5210f8b8469b227ff47cc7066f1de97a402189fab8bf4f0f]

def cQ159 : List Nat := [
  0x406ea182e9857fe6ad86a22a9065f6ad4a53ec1507cd1ccfb818092be4b772b7,
  0x13cd3709ec491140ab9c88c185043d4009222d77b838c797365cf7aecea9e60b,
  0x10a1988ea4b755535cec07f501bf1f8ff7932cdd4083aa9ae66f31b05da98902,
  0x3f476e71d00d6652fb6c23266e732403db312517fa9c16148d94d2e7e925e767,
  0x129586fd90d1cfda3797939d6adb31bbc98a3ebedddd0b097c643ce9a547c852,
  0x23c77f3b9b4cbd075d0ad9f105ea6664fa5ed3438e49ad59805f59e35317d4b3,
  0x108d2a07437421530f041031b009bd2b2a767b2034c041eb90dc050af6953d2c,
  0x46ddd1a036e632dec6e1ccb7592ed9213f0a7939d4360598d5f4356796e7287b,
  0x47dd0d28e592bff83f60419c3bfc8fa9f5ffb7009b733e9ca2a97928cce71e00,
  0x3f20a66a02c47eac2be4e1aa76c6e12834b878c29f8d21efd72681a6f3e83566,
  0xd9b823621d967e084b1e37bd343bd23cd7dcb82b47c58dfb59c58e87ea3469c,
  0x331dcfa0eb913a00167e70f5b23d573219773058e5b09fdb7413e6ffc7fe7c79,
  0x3280abc566002bf05368b81ffa5a33df263ae0b9fe836450667b8f5b0b2f9d,
  0x22c5980dc17db3f0ac9be33938d2bdc8d02b7aecc38d81108bf5e9361314e094,
  0x537aad0e98169ff5db9d18de6497fc1456cf1c2cd36c437e3d507d877793dea8,
  0x6fa5d3b70c6468daf3dacb155b9522177a4e3b84b9f7c88cd1314d15c8194272]

def cQ160 : List Nat := [
  0x664efd26832a0241cd9f026ab02d867139b332e1c68e5773d075779f934400ba,
  0x61de6aae7d992476aa1d04a9a5bc0d67fe5af28a278c50c97eec1b79a9f760b7,
  0x5f0d0e17fdf9b2472f116561b7f7a2edb06f7d5923de3b1664d7c1b02e543899,
  0x591e5ece161f385e31c6073b0554be6f4293046c0ab0db08142020acf041684a,
  0x6144ac0ec8690938cc7e43098d9128f0aa2590747758958aa2b3d64f8353dd5b,
  0x2ebf3237be42d5f549db6b5606d73f293fbb5d41fe2fe681c6c43ad6c63df082,
  0x3609cf7d6910fcaf15895fabc51154bd01f7d8f078c60aab08464a3e224366ea,
  0x6127c97f129bc6cfacbf7c30f94d77574a06bace8bc6186d778fae3f3cb02a7,
  0xa99e4760c4e741907d2c77c9a75e97a160e4815311b2241c8b1a9b76497a3b4,
  0x4b8ae90d30b644c10ccad7213a03b5f351d81a732bfa135be6b3d24990dbd6dc,
  0x6e4e8b58e492ec0fe1741fe0468e2090aff5fb3770b1579aac7e1e5a073b6571,
  0x3d4a609ee6040c3800cb9b97a30bf36c7b9d96aa3b61833cf9b461720176f279,
  0xea5aa381e45d49188cb1c4a5d4c34082bf95886cd204dd6fc2dd299459d7955,
  0x624a4466ac17ab447b72e97dc7925a95385ced9d1c70dca6176ef9c0af7efb6e,
  0x5e015730683b71c67079a1465a63589525e6c2d100780238f9e034d98104c2d3,
  0x43d505dee60bc4c2f7dda67508c226b6edd3a7a6f3e3458f8b6f405e9868d360]

def cQ161 : List Nat := [
  0x139f025642f911454b6daf9be0e25a30f2580ca8f6212f45977365146fa74892,
  0x67d8b19777066a76ad2ae40b85c495fceea14a8bb2d6b6f5f2ac75d5347b522d,
  0x3438245cb9c855cbb661a8b15158de630bf553a2881d301a93ac9ddac9c2a583,
  0x12e76efd122e45f9b013aef8bf52a6fcd48a2bb42fa331e7c8764eb80482a4f,
  0x48b158ef3909821fdd9d54eb796d87500b49b40fda7c3de7cb13b9078fbf5c33,
  0x4ec21c303c70ef3efdb927cf83c12251ccbe4a46659d4abb31a7c654ee8c529,
  0x69c33a3402e2e594fe9c92ec3e8a38c676931a4563f7ccef9cca67e2c9056a34,
  0x22e7ebfe30f8d5bbbcac18771ff5e1c18c52647d98eb1c6b5cdd0c96b01ef506,
  0x54bd720221d58ac74f49aed3ad57955779ae5835dd2a4211344a746258738468,
  0x28a200047c04ebe816f951c289e7d06184891f08ddcede6006784c079254437b,
  0x6b517fc48e81e1a354ec5d7031e561a8f534165e33813b2c06fd18ac671d857f,
  0x631e5804552e69aebbd35c91a9f2f325524135b8fc1b025b004a767266b1a7fd,
  0x1d27bf683834f308efe8592fc12c77c8a70ae5c02afeaa20a31cbd682fa83a53,
  0x5bed86c5b1c97cd7cd19f7cfcf6ed327dcc75150d08e1026b949a7985a7bf892,
  0x129fbd5fd27ec67e35a3b806c7d174291a3537aa4004d629164749942d77bcb0,
  0x30478fc57c2f09dbd9d616847b9ecc7d1967a8058ab1c379d695ce47cec5b89f]

def cQ162 : List Nat := [
  0x562c1f2cafff72f1d3e3c230dc938a6deeddf89b96e6b9fd74535895b53d5de1,
  0x250ec950e5dd3d04144a684533c27339a38d44b30c48abdd7413bcd82567a81f,
  0x3bcc8349b9b0488f942765aad5b1c350a273db007235f489dafa4c4f721b6595,
  0x4d439956ae3f6784ca42fca00c3a840ab459ca76617f412c160c552b8fade98f,
  0x23e1a71d66e2bad369427aedb715c293c636d153ce6dccf4650766739c2c89ba,
  0x360440d916345fb50cd5ee5f3145f9497142a1eac572149d0d4cae01ba7f4c3c,
  0x1319697a7e62ec73d8d07c8bdcaefa4ffa50c389339fb2ba4143764e3713253b,
  0x10db645ea7886900aaac616cd55accbdd82f95c5871a9dc3f59ebadcbd395499,
  0x21e8348ad0efb225fd8f373edba938af436b211e936821a7052c1b365dccc64d,
  0x56d1f500579181465671619686652d45091e8f8c13a1f176c5b64a3d2172e687,
  0x63ec466c219086889d156e9e4d343c3e7a32f97d5bc59d9b5ad47fffd3262be3,
  0x166eb27801dd3e42d1cff7fdef109bb60fade01f4ef9b7d40cac8bb797d8510,
  0x61211a5008fc6c1373688e9cd929d138ab871e59e1938dfafebb09fd5b79bcd4,
  0x492f170aeb0bc7c47e865dded611a03bdeed4d425d2739cddf7a244a2fb566b5,
  0xab7c11641969c9298aab8c30f5ec55c323521a7d5517c6c2386e2f8b2a6ce34,
  0x42163d36460aee37f98cf05a233c481c7ce391b0355142381783adb95550796a]

def cQ163 : List Nat := [
  0x11621461c6427a58364497247aabe8195316de5880eba8da1a8029d55dc7edce,
  0x2ffc146d5c6f83219828887f453605449d82335529ef368ef75d8afbc7b08663,
  0x5544f3c92d37f583578e63ca4feebd7ef38a1a6b04a0a2576254443825102ae6,
  0x40a03121097f75d8e57065782c6dcd91fe088bc12ddc4efdf2b1a89737ca6581,
  0x5113a29da795631d5f42cbd58b35914b8de8863afe614a9128ff9c98784a437e,
  0xb147150e2d41f21b9ff0023cfee5288af52ee1b9e27fe13ba289594e7ab8fdf,
  0x5b7d4d42ec013e21af712d09ac8bd1c8c406e2158b212bbddcb0947b87670053,
  0x4fb02d10f3a4304b9c558376246ea1b220a5cd2d316ff7f14b66a3481899532b,
  0x1ed52dd922a3e1b23260e99881c03d0a8ce75c378eb24778735bcf106b8f8654,
  0x1cbc3492356d416d702ad843a22014e748e7be521262b2535ef34017d05b87d,
  0x34d0f4f9c1832be55d1d5bade87fcdb102fe31672af5782ae7f4a26666464058,
  0x3a9e8e27ccbe383170e50388ed70f4485cbbdd47486760bdb4825febee9f524b,
  0x1025cd59f98d95f324d8f476c17fb12dbdcdc3fffcdfd483f097d3efb7c32d5b,
  0x33585ddd9b48f71cca2936aca9e1d49e62d241471c248144915420f791ad5143,
  0x25d34cfa274fb18d02c718dd7d4d2e400e1e66b58af6d25dbf679779f1db17c0,
  0x571ee3e845d227846523292d566fec98f2838c8cede4f878533e044a3f9adeff]

def cQ164 : List Nat := [
  0x3b8d7b228b71da75198c200348afc063997347a0c5e37bf0fabe3655fd8a823a,
  0x6d2ec40d57794d1410b3c96d942ffb30a3e49513d401833cc3c4dd2bb9dbc131,
  0x214fe068b47f300b94a77a149ed4ce8ba9bca10ada9d452865d68083953aacc7,
  0x4014f54db0f1db70691ff31ad247a4f2e9c348c1a8ea5e7cabab8c6a00b7e64,
  0x58856a5eecee04fecab40d83268d7eb26b1f5bb242e54a0abcf9c72fffd89f16,
  0x6529617a29a4b2b00e79704016929a036bd587a20e1108106704b8e1f4d1eb11,
  0xc8b9f7ba9b0861108f36a8ca347dfee63661f56476bbceefdce121b93c76b36,
  0x1eb81dd50935645cd580bd0ac678b36d75461b8d95569802c6d85138893d6598,
  0x3b5153fd1b1b1bb9d816fa1df2eb12221d48f4e727ed2e607aed4a80e0fdbc04,
  0x49cb4533d1d9d8324a0d6b76888d83b7568ae0720f9807830fe698b8cbe3676f,
  0x53e63428de86539761b927d0a5293daeccc198e8cf161c5660890981b5940ad9,
  0x216fc36569b089d52df879d71d852cfe640156c36aa09c2227aa847b4b98df20,
  0x6052ad6ba593285953d4a474ac0c684758b8037962c0c9c9cd39d3ed553b87c3,
  0x171b25cd99127b1a2526e4de5f4eac287bec43fbb68a3b0c9b53abf700befa13,
  0x13d580dd7dda94e02f155e4bf6ad9a9832a5ab56b1202e2f9bbbce4d74abeefa,
  0x3e6d4a7202d78d30d07c2cf30a1bf744c05400d5918c65e1af1e9f6a0c7e258b]

def cQ165 : List Nat := [
  0x234da2dbfcbbd7842dd8d23fdd68424beca023e4c3a4e6776ba17afe18c65e2c,
  0x3646d7a3e5412472e2edec65782fb52332f8272e93add14697deccd24999b2b6,
  0x53ab24a61af0a322cd8e557faa82ae636bece7e2ca31adba5023783358b7ebcf,
  0x1a84bdb6958cd1258863d46118b5c70c1ec59f028cb630005d878fec4a1ea39c,
  0x1be0a0128dd8741c29d4e0ae4f5a314db96895ff9f2992a704360971ed4493d7,
  0x823cbc76fa8ecde75e8657ab37e5a7ef221c2bfb81d815281a91f745579613a,
  0x4244d4be3216b39dc17a9fd3789c59af13aabe37439871fa4cf68d97cc0650b0,
  0x2eef0d263eb42c36117b6d94af88b29ed1b58151597ee5478c36c5b4b64559a,
  0x22dcdd462713b936ed8bd733f48329fbc4c58d0c2d137dd139123c47c0e64496,
  0x72720fe03edad9076a2909c200a1c42faffd4d3bdfd94e0479bf1ed048c383ee,
  0x36750995e9cf39aaf7ac65662c08ff3484b037cbc0f859176e830eac9afb2c67,
  0x495bebea2c049a5bc90097a9f1b9b6658381c30d74e7a5981836f3a37726b7d1,
  0x5dd8d8c40b1a72becedd781844d53c4b33da56b39a7bb960398bd95d0107c6c7,
  0x35ced568c0347d50c63555ce254973843ea8971932db0a9ab53ce440fed78bb2,
  0x6d126ba931fe701d0a7fe3bba0895dd02670139401c1f4054eaf0e51c6b52770,
  0x484cde43ddf56913f075a923b46c5349954a88cc095c90b2355164798ed0590a]

def cQ166 : List Nat := [
  0x18be7c4b911a20d44f34b4a10e074ce0500c67d7820c47251ac183495f37de72,
  0x86d5371840cf66b6d8e9429b9ff02921f54bb8920aa1794bea1111c97196f9f,
  0x64070fbeefc13292f32d837d08c3ff1d4030ac36fbe2e9203347fbab1a01786f,
  0x6ad6c3396ec296fc2f8f8fe249649d35f616c88f9bf406d1001594ea8058fd22,
  0x1ebc79f9518e130789fe143d72e7ea90e3ef996507e12659420d0a1992c7cf1a,
  0x15d1ee36f863d5fc26c808486cbfbda11d9f3fb440abdac32390a90b97363e29,
  0x6485aa783f1fffd383bc9a5e19f4bb2d7af8c672ce8939359ceb425f705f2bed,
  0xa5f6ccc09ed6ea63d49b4902ed9a7ae0b890171673efd6a7d2c0178f8dddfb7,
  0x6fdfb912c9663ec791c9266e47a34f3c9595ad18e909272aa1588483fc8bdf7,
  0x2f9dd3e4ef5c49ed44663fd080ccabaa26f2824e075a04af2c36086708bf6451,
  0x4f88db7f596f0e3259695840efab8b8ce5aea8f9793aac79ccb8bac1c6bc14aa,
  0x2d9225f7d83ffef286a8c7c8a673770ef1166b0212050a673688eff12d1fb616,
  0x185b0d88f087ac92961bcb1d5fe72cdaff075ccc1811a4f08fd1cea119e4e1ee,
  0x5d1e27bac88eb16c9a10b354275217820e8c2ab3d3e2a541a4e2e282b26075d8,
  0x4b3584178a0c6c69a036165046390ccc0942bfb61270511a4d68f49e46f7b419,
  0x5312d74962e09ec70948db15c97ee012e6a07e949f5fa53e7e5f5054074301fb]

def cQ167 : List Nat := [
  0x71a30d5530f9fed3f443544b13bbc83f04f21c94e93519cdd1cbb0a72742a517,
  0x6ddf721e99a9c2edf23895823a8af0ea74695597235a4ceeae33e51a81682b37,
  0x43e0f17b8308bdf2f2deede03c4160f29fd61e8e1bf4573d0fa63eeb16bf4574,
  0x17252bda4156adb8b26c09599eb8f5281d6022a9e02f369fa5e8f82dd710ce52,
  0x4ee53b285dce4e5ac4e9a4017944d1e7894e51157cb061908b3c2548284e33db,
  0x3169cf365eeef3b3d519169b703f0b750c74fa915cf9b04fd3efa6d89daae885,
  0x60c6ff413b01e8d09d7aa2e1753e8fced98d0d5e51224f2ef06a5892244e7973,
  0x419af1ca4e305ad04353d8c88c105847b18ec803f094aa239f394fe9e1f1699a,
  0x1f6ee52405224a8d206419514f499e2449f7cd323c8bcbee48f10baac14a9420,
  0x2fac4df4beabe38977fad52e766eeee8039345fdc048df7ed9c7c30d8f25636a,
  0x14793393daadf28daec193985f2bb8b935612ecfbf6d65fd91ae3b6b5bb2d637,
  0x3fc301454453f55cb3efa4e56e9ee64392f88882ab3e1c5008d24f72ab57c2a5,
  0x1daea7f461fe8503388cb750990d0eb43723f1dc596026823de38c894e04230e,
  0x6b8482ceb09c9d862156d6e5c607ff56f9eb23857e48a73facfdbc2bee9a50f2,
  0x50ffc80a5614e2b43e98379e3261f6ec2a365c1b34a1acfa63c1b995a3bc6c8a,
  0x5eb91a516537fc82bea9a89f33ee22b3b1a1b58e90b3b9fb324a421bbf17f6f]

def cQ168 : List Nat := [
  0x5f9a13211985cebef352b97953a7cf54bb67cb1bd96bb6b59253d344413dcb7a,
  0x61fcf714ef21c470e98f20cdb9be93d3e1f58e5eeb939110cfdbc9636d5e3c1a,
  0x466ddba85dfecdd55ae3b158337d54cda1c532f1bd544167ba3d9e850e3304ff,
  0xe0d2f2b71cc5e9c6c68ecad2812c1fc7f8b5a734a57b68287ab8fb69e2b4796,
  0x30835492b1a8f992599eb8d4e67a9bb313e97f217ef37610366e070c9b8fbce9,
  0x54107b8e5e5765c6b2715948a3d56f625bdc21d4de99364929c24d95c19f18a2,
  0x41bc72b661eef51e3fa5dd6115df19739d073524a456468297618718597476da,
  0x1e5c7ba4f86cd1c2eb3a689ab26cc2a391ead46efb656ec42ac5f5d8699b675,
  0x41c93025ae1fb4041178f3b917a6a910acf4c2cdabbf504f449f73e194308dc2,
  0x6ab21bae6e3f3a7fafa366b9e3ce60e4d9e2be43edc870abda8bc559eb9c8fc9,
  0x3da5d7c2df2b905149a6b9258b61bf8e43428311dcb7127f76ad60a7cd67b23,
  0x698e22782f2c43dfef96026b8f2facab4e3ae538b469813009dccc03a2d22e1a,
  0x5006e575e236e79132976724b56cebc6a43b1cc3430a6e508fbc966010dcab60,
  0x635f9258c1935d2882be156107aea1bc46b5964750aef4f128e85ae250516df2,
  0x2ab9a8ab0b72d0d6877b06e728b263d8f1dbbfcf9a6fc5ac0e1aa2e034c9b6b8,
  0x206206be276733cb091fe3e54b0e25849d98fb23dd7b76e6a07f99b2cbefd911]

def cQ169 : List Nat := [
  0x6912582e4621a95049aef62b9e1382383e001e46b5d091742c694f8c2a4c6c6b,
  0x3a5af475fec2db4eb17af175c90145b46cb7d7554d0b361a86ccf68ccb19dcd4,
  0xc8c938391703ad3f10390b97df8900660606984a1667bf43333bbc41e92af13,
  0xddfcd0162613a6572f4d4aa56fb8760746b7f338eb0a73f974befa4928104e4,
  0x552adbab720b48c9cc59540e84a9e38ad76bab633d0f037eb2a847b4ba5c8612,
  0x51b20ec1919d46b7212f8f4a9ab6793ae80327a3d3a2a8f21b6c38773f36d37,
  0x53f001741ae1f705cdd4aeef445bf0fb0b04f4026405d42e04ddd29a511a4a46,
  0x42db3c0d506cb4f03622bf8a8bda796cdacde59de5e12cbb0ef4fbb565784812,
  0x6e260cf7b114c8562f2688567ecaa5a168e7f9aa570b8af18015a1f092c9d52d,
  0x6e428e6c6b234c3b9d227fafb798607f2fd8f63bfe72cecc37d59000a2f3f59d,
  0x289c8ca1b15d28465c221443de186d277fff75b24aa8773a6bf9047365a608e2,
  0x2bb15d04ceb995eec565467e3288f4176521d721fcf29b889f2b57d14561f8d8,
  0x43618ddedd9d113d33f92748bde9603577602bcb600c5e10ed9833b6fb84354f,
  0x3163023015b80160ed41e0ce295592752e599a5ce90f2b435b93ee678ee540b1,
  0x258f5769cb0150acd05dd80f9a6140bd0e31c7045d29edf58ddd80d163bae07a,
  0x308142755a58c9d41c81aac574349e7255e9df13e0bebbebf813d5319c97f834]

def cQ170 : List Nat := [
  0x18d47eaa16ca40a21514c85cfc56f1cf1f7b8c75917502dfb6621ff75fbf071b,
  0x564c34a1f3f8fb691854c477b858bee4f08e09f222aa9060524de6400a99c67a,
  0x5eacd6f2cb30b9dd01c0bc2657c6d93bc6a72453f80ed7087b490b2254a20e42,
  0x24ed5d6d59caf583dea2819bd25ce55f301a61ba838e37b4c073dc96d741323e,
  0x523597c6ffb4d1926aa39a2e8f290cba6015526df71b3574d6445dbdbe137b2e,
  0x571c1339fc4a15ed84d9a5cae0de1fbecc6babfd4aba6919b62c411e77451313,
  0x61115eb3f4feeed04ba3dda23ea21ccea6a32b8778d5c3893f0a30ea9754cfe,
  0x6184a02c6ca3a35f74dc2bfd95b73cc3dc433a9e1ecddb34c4427faaa66a4b06,
  0x6bff725ce2ab94057f624b73e76f8723c802d854d94ad98a65e2900c0f8e2cf0,
  0x27e587d8e3c3a92790b00b488bdba3e689cc0958c3c3c94d38f747a79062bf21,
  0x52b85261aaca9b646468d7bbe4033734a0d5b5688557f54680711b574a68e8a5,
  0x33e913205452aa5cc349fcf56dc1bbd6ba48ca58dd111d93d367440d64507705,
  0x6bf12cbf25fa25b2b1b3bfae5a8e81b4ef528556e193659b019b95648de4b744,
  0x497333c503a782878e6ceb3abd73b45d4b6f910dc1e1a9b11030e436f3a3a4ba,
  0x67fb35d862446496a6ed225569411586174615814b4385047b27a81316ffac87,
  0x6c1aedfced94bf37cb1338eb5f7dbfafcbe352ff91bc605ce339314dafe10aa5]

def cQ171 : List Nat := [
  0xf2162ac8cb17ea8fbb7a4d8e1a363f5cfeec8dd5c4810f1526a67dea3030c0d,
  0x5c606b78340592125a988e63218468fd79daf424e1184150021a455e25958c45,
  0x4e53245ebbfc692ec84a4a2d3bb9f666a9bb7105ea838ad3a1587c3a85f3689f,
  0x5383bb7ed934a22bba50c2d7da0a6d777a611305cb89198515c48f6d61f91887,
  0x65ea0061496c9ddf2da4c5e05e2ff33f338604f1181754faea05bec34f18ac77,
  0x60a2cb559b05492ccb452e5c4257833e35aae20a9128615e76c5f95fe5930d37,
  0x144654d50d812d4ff72ece8eabaedf274eca90604efd1a9d1029eed8dc52965e,
  0x562ddcf8030875c0dfe9d7f4bc440721ffb440e57168cbe616c9b33ae786f455,
  0x58137e375a1aeef7429c79d7852581fae004674946f7e81255cda18c60c5dac1,
  0x52d5bd95359471a24f54d4a08df1d40e23b4d444493d9d2488a4313a780cef00,
  0x6956d668352bbb6ebc11e193a724694c34f357c80774268fc56436fbaefeafc3,
  0x71e728b033981af3302191b8918cef5078b6ed3b00dbac97abf2fad85658dade,
  0x1677f062f16287c6753133706d0dae1fe6ae20c4c5a7d3b1e93276142d6257bc,
  0x6c0efb75c6eec3631fab45cd291924dfd569fed753f14ba7dd8a3d6b5a87a14d,
  0x32b1931ff26555cde8084f6bc0b999a36f8c52cfdb5934c774a586a4d25f733e,
  0x2207f63cce4ec4a4f6f3836094a8ec4fa8e35d52bf4b1797b16bcdbbb93aff28]

def cQ172 : List Nat := [
  0x6d3812807bcceb9c063db7e6ac8115012237e8d4e8be1aa27487290abb69b5ae,
  0x3312695448be58340f09a38aa54a83504b6720749e97257a582a7b912704a039,
  0x52aa0eb9bc4b3e520b1afa189e05cc7aef202c2f1235b6d414002d3ab23a482b,
  0x6cfc45a997d164c77486003fdff1437b660f9462128c431000e2c69738ec7d0c,
  0x722fbcef473093280e672049669b6ec50f9273afff6cd8b8fd1182217ef3aa25,
  0x4c161ef189cfce34518a203ff7e95fd7a04f549f1b43ea288776c235e7184e44,
  0x50ceb906c3a715bed7ab3641981d25dc1c79dd29405fff743271e2e1ed9b35ab,
  0x1132163e4b59f67add349b637d4a39199b85058141744a2f29426577d1516904,
  0x240007435fbebeb189004d292475772864204c2470858c5c6522ab5855792501,
  0x554400970b5617560248937a9de9e9a3091ce0504a195641c166d648a2cadde6,
  0xe956aecc7d324b034f8d37c2a199e3f7331bb97c3553057997d39549310165,
  0x3eb9371330f0118835e3725c5c2d90390004b14b3e84ffa92927e5ce40923c8d,
  0x3e2f1b61c177190bd185fd03073c86df436b28a3218113d3549d90e96e5dd710,
  0x17d3b1bb10545d4f2141d7f787bb980f1f081a9eed70ca4d055d8d8ec6516348,
  0x5324c0c4446cbb4c25f59977f8f8d8e8a802c8f640059dbea66304a712894b1b,
  0x598402f0e77b8041c097c5cceb855b9d622189b7e6846092f1134b8a64327de0]

def cQ173 : List Nat := [
  0x677f055064ba34d6beaa2b196575673324b2660faf0b29b124ddf3baf4f151d9,
  0x56fed54ff7407719f840ae823321eb3b4f94a8d48c760ce4ca221db956e3484e,
  0x14ce71e5435b6b4cb9d11fbc9159a6864dcc9c3dcebd0ad1eb8cad9c46508fdf,
  0x4b8b4ae0153282553ad6ab98c3cbeb31ebb33ff6b8bfa8b4fa366766e1434a5c,
  0x13647ad90fa58fafb2c2d97d50ca38a4114bbe4c3b22dc121ea1b1115cb46c63,
  0x6c1648ab208357a0721236e63bc54f07a10ce08a9135c413c01dea03f5e81858,
  0x71a89af22fa7a3e61b26139be4d7331ebf7b73b25ac40158a3f430578e04c060,
  0x53d8d08f061e72519140efbb7831727e10de96ce327162c781c2c016ebbeb28b,
  0x1af208c9b80356e43541b6765ba122af170e966f68727b31210e4c8790141b3,
  0x1c327004cc5d2347414da8cadba13e4d2b1ed1d48e7790839c38f5b8b321e69c,
  0x2092a1c5cfa5ba4203d365565d3595e01864c6f1c651b4edb04110069059d529,
  0x2d107cbe41909dc4e585b18420f1af51500c41d84f0f244d58428ea897f41a71,
  0x3771ed695f6ed17e6b95f20bdd2c645f550e838751e4a03e1c8203b22eaee2d8,
  0x2e61825d4a97fdd7820cc650f98d09a782460cc8057c35761cfb81ec858c6c61,
  0x46c216883bc1130e6e3f17646ff108e4807f963bcd9098de4136bdc830eb91bd,
  0x2ca2da166372ac9628cd805ad66f0e033de54396212d026d55c8dfe7d4b7b1e1]

def cQ174 : List Nat := [
  0x3173ad2dcd6e13b7babbec90857ee9f9daf39808d387fcb8c397ee80b50811,
  0x324b072942bca7ba7e5d9d7bfd2315edb7531b4e3f737a285757f28614427580,
  0x3cdf438d048044497736458ac3e4d190ddc2b647e42004e71cf29126a2ae5d36,
  0x662dc00ab7544c34c5b0785001c71687299fa69083a4d961baa88849c5913a4c,
  0x3851ea47fc592e6db3993a4ee62e3fbb78e6ceff3f09b0fc60cdb96952507c7c,
  0x60aa43e5e03f34d44b52f43487afecaecdf4c2e7d8083501d4a3a73303b0c524,
  0x4f0d207b1b28ce51d2d3fb8659ce37f961b164d1f4a1dfe47425de89e10494be,
  0x3231e86abe3e740a30f831bbdd24b477e90ad96a0af77b848c3d66aa47f6b5d9,
  0x22ecad72befda8bb740b40ad958865295889c3338935e796eec18474d7377829,
  0x2bbda2866573a333012ebc316d4f8acb60fdd49e5f84c61f8b8ef67d7d17f376,
  0x714fb072c392e1aff65a8c403466e2f2a200955769bc6aa6e7d1218d297bc6a7,
  0xe5dd3b7a6785a6d64a833f6383207ed373e44ae0e6f723e7fb383c620c12448,
  0x1345bfc71aa672ad5fd4a56141e7a905c995d19a48db206cc32179b33e09745,
  0x25d3634f4de4b85f0ba68699fcb5f6b665ef1515301667f5506cb626161a099a,
  0x2bf16c2a408a1cf848480f12164211e57f03752a01057d25cd6e32f74b703e0,
  0x6f72d828f25ddea2d653f30a0e19d96e45f486e0dd975162c8e08e7855924be1]

def cQ175 : List Nat := [
  0x3bcd4d0bd391c95e2dd33b1b62ed5642d42852c648447be85c42b7fd53500485,
  0x34a378c3cc65662fe6e0982af6d6817ade3f491e645b1fdc6a38fa5bcdd21b0e,
  0x1c42f31492945e3f170e498bb5bf2e95893f0a154e2541e7010f1b376c3460e8,
  0x250078cc10761162e34c242c001c8a7cf8882712fa7d47d593da1f91931fde88,
  0x53886073f56efdb27f0caecbb79ff71399349ce027f1a8715e70aa637a4ae84d,
  0x1b32113f9458b42703433b76635f66b1da57e468f5c7ca655fea84b0ed581479,
  0xe978f4178ae06abf4f68739b4d794ce6344f65b95009ea58eaf7ef80ebefe84,
  0x80548bd446336a2a08a8e46e54c6194d700680930155426163e21fa9996fd70,
  0x30db92d577107a3567826fb0611b2a6562603c48082a7bba699e69db4ac4b462,
  0x309c2ec01ec80dad2c26cc63b6ab3cc169df3261212ab72420f7258d027e7116,
  0x25c20f45fd20580be93454a03d31d86d04f149e6312956b4645404c18108b72,
  0x1598fb312ec1af15831df3e4a1a87cf02ec13428490f0278589060bcf09796d0,
  0x32e4fef25865e5c1ec92f9ac4513654b3d1ac7c4f91a60f6916aaa8fafd8f11d,
  0x65e6c8599f405f6929e1cad90361d493bcab7b286e6001d88b02bca00f06faee,
  0x215a48dc82ce74cfba2593ccf73363e52b5eb0407fa69a8b7b5bd9ef885ff005,
  0x39a6b55aa451bd071ee6f627900e1aea013b283f7efe84beca9912f7a8ae1728]

def cQ176 : List Nat := [
  0x3544d846d9765b6ce3fd202dbbfd0a38226d85571b21bb94e1f715d236f43848,
  0x6fb4f56b8364cca774a10e9a3ee92be22c0507b1a5b2b7ae8f71aef0ceee25ed,
  0x666dd2b976fde3301ac2d35511b2a37e9880c9dca48887c91fc519cf11f0e180,
  0x3ee55d367f84d18fd95c6b5e20426c677bd522633e903f74977ca716b6161c91,
  0x50640ac23c8f549310c80a67003806313a131f1b03352d3d787d1239f3ab2abb,
  0x4444da9f09a839c8f98a179b009ada27068d77f2c90bdd9375c2c4e61e9923a6,
  0xc505497e3cae053b4e237e1c6430381ff57a751531b09b33e5fa30ba26b2ebb,
  0x55175f8d2708a5dac9f1ed124677303cd965e166a92ff2d808d72762389dc7d,
  0x251c4051df0d7f3bc0afd5263a2c46e7e8d81c58b23ec22a0f45aa1ed7566d77,
  0x59888914e1a18f24f93e6d6311ffc977734233aef4d4edf3cd3fcb48c4686927,
  0x73dcdfc9e826652d5fd19ca646881ee62072b551255eacf93e8d4f658c25465f,
  0x167053196b2d486a3b7cd0368eb2bb0ecc2cf887cfa399d517ade4726236067d,
  0x420625b8c5c4bed7608983676f23080af0b4a598be6a7a69ca19304d973f7a1e,
  0x60feb7b8bda233d0c488eaeced9d1e88adde79830236ec50c082cf0d76a3cf60,
  0x12cb7ec888d4bcedca91b482998ecfc95c312be054935ae72488dd5d8d2c99d3,
  0x4d9ecbd0bd8326794fea16f2380585bfd63f5af7b179c396b5b236f0b2c0e10a]

def cQ177 : List Nat := [
  0x29a05d6b6ba722774066ea25940e7af195fbb9f2dfb0ea4401b09db31eeee956,
  0x17477cef56436b0b6e073a4e554792691ea79963808e55db7a84bbcc9aa70447,
  0x3de0654030599598e2f8ae270f0b0168b16be64c361b3e5827b4feaeee7b4809,
  0x1c428efe69f04516986c4449f051104c6aab9359ceeac87f201b821eab731fa1,
  0x4803fbd2a178a855711c11b047a7d2aa63c2107c59f18a49ed3931c2b45a119e,
  0x34830d0d1a3c7dd4d6add1b81aed05f49f1a0b57a601eb58081e9b7443426394,
  0x17ff47194d6a555a458359f5397cdc0a25a2228b7f193f63e64fd1e1fe3266b1,
  0x627e2def6b7f04d8cb54bf4b026fe959a273021705ab5045010be6297d04c788,
  0x6caeea386082888ef4bd9c552e0ccde523761f6c3b75ea7530baf48b83785eee,
  0x912f824ac58736e777c93bb672ecec4d0bf5ecad236c71dff22896e17e8e4dd,
  0x4ae55ba005385517aacad1f40b499122c4be165ea3b1337b493737b2e5cde4e4,
  0xa223353dbcec4bdb4f89b3b2ac7df01de6e31d372c5e77465d40c96f74cbe3d,
  0x3086b4aa863fd1c1b3655f801a3d6d14eb6c6a06ecb607d51d9081d74efe9be8,
  0x46d2c5631ef6fb8d8a72dde91fd4c0b50a86d4978da846927defb50ca1879966,
  0x362fc42de8d3d83963ae0534b66dcce1d6681bd1518b690f5ac7b10af664e9bb,
  0x1258421bd24cd8eadd93cfeddc81c24a20e45aa5e0b1073157e7ce80a093e624]

def cQ178 : List Nat := [
  0x102c47107ac0c3d783b8b6f2fc07ace72c4f022bdb540a74612421ae68e4b988,
  0x6d9a6ac74d478be39c5832af88d1b0ccd4571136f639fbbedc5852470f6fa3f6,
  0xe552794fd2ad9d841230f94caaeaf69ef6c8b3279a4fc521c6bc915efb9b1a9,
  0x57924f127f090c64ae93d9cb53e18d0bfabf0ca39ad336667be2472fdb6a5b6b,
  0x350ff96470d23fbdc42c579709e3640deeb53f013ed730240f31d936c204222f,
  0x4eaf321f32ce5b5918f8a3b44b76595bfbcfb1e64ea9e9d49c5e6eefbef339bd,
  0xcecf7e47de9cb99c7f94dfb73050beac71d29b31fc7bfb98106ab121ba311b6,
  0x426b6978a2702b116002b1cab5a6e064c861ae6f16d50c95a52fed42bc7c056a,
  0x231d0af618e28dc7aecf064dc1ce8b83fd1f15e0802a8db71a3f7a9410bee67d,
  0x47750a8af7fca44f88a0e7f7bd66323a7620bbbbc4d5d9be729f34f88cd9d5e9,
  0x302b94b95f904e17e4d01570851604dd1e9797557cb6c07d3bf665dcdd000eb7,
  0x1b7001481efed47568d1d0f480bb0eeb549d60e1c890803dd1868921e7b00f30,
  0x6de1d3a529ef4650c0cd99399cc4621e2f12a6ccf16741309cce9d008ca47a4a,
  0x119c7c1ca4b25794270446e4f96bafbd6c1f8db39c0963fcc6e4528ceb8db043,
  0x40e122558e83510cd5b1801379c5d4045826e85d1ac1079368e58390cb528e1d,
  0xf67278909eac31f35d48e9d11204a3856d656d9b2a9082e09b19e507ca2c1fa]

def cQ179 : List Nat := [
  0xb27859629b2ac7aa17bc829eeedbe84ee6025594be54126941a96927d235fdc,
  0x482b6c6cef461a712d2efab0235f9123a912443df4127cdfceedf0106e25e578,
  0x44515a30cbf3742299ff2ebc67ce0fe04229c720854e62d3e2379996a55f3b6b,
  0xad5e7e941963dd2fe38730d3d65b3ed78b712e74f3ad5195785b4e4e47a430d,
  0x66c0ab897d3d02c6273896a15f6bd98bb9fc62201980a81a262231c88ca0ce30,
  0x301ab75c9aa05bd1039da256d939595f7a5f068ad142c241dd9ae3825af460d1,
  0x484dd6e3d1f51108e96afef660e065e23b9df51c14df0dab7e08c081781bf51d,
  0x1b0138e2145154797917d0589f07f5ad3144d33fb0fa18db1c66218035aad956,
  0x1fd2ad05ad868e75ad5b8d82ef1d96dd597a0bbeff2ed0d4267f1ba398a96d9b,
  0x6dbebb6e965aa9995b14076359a5ca1daae08a90e58f46fe1cd6b16a798ff6b4,
  0x4264553e1285dc9d7a2b605d52a70209184126dc095b0dc93a2cecde7d3f4ad7,
  0x14e1e048dcf7bc8a135d59e5411ff697c4ed215c467d9bfddb6ef04fd1fb2ab3,
  0x5bb4bfc6b4d6637022d8a9e1f0c2078759171213b134fd6b368997c2a84c3ac7,
  0x46982bc6c996653411f767ff876fd474a4ecbcb3dacfb5b85550ad412256792,
  0xc48b452577622febfbf78ee2a798aaee707fe16af325c2b363839d06c3c9f9a,
  0x6ccc9ae08570cf386f962ca5bc1727b31313a73c9023d28f647b22dd09ece764]

def cQ180 : List Nat := [
  0x5dc36a911742415e12a4ba790006e7c673ca6482054dd450b60651cd6ce1a58,
  0x5f7907f5e3fd38eabdae29267ce446d3a76b439d46a52c0df1015aeb49623ee5,
  0x187777e6fe8dd22e6e71ccc68c292f3034b2b161bef54d099235b23eaba00b8c,
  0x6acbae64f509cca31e843d917ddfa97957f2c873e0310080f00002da8431a8d7,
  0x63c7c81c0db66746c5abb40b6a3bc298e60a292839e86deb8c7cdc13c08735b1,
  0x720d2be4495c91882c4e6b303edbad49c6a2694aed45daf623278a652d6ab6a9,
  0x3cbe4a2f4458eee558dfaf7cd6fe5fa7f19bfc09019062b904578549dd3116f5,
  0x59be1f2f0c5e9fbd46bef3ecf352588272e12c4fcf668498dfaf61249e2e5be2,
  0x6d2efa7d546a523b83fe98a6f97d32d43e8dc9a3df4ff938e24b838b581e779e,
  0x4c84668e9dec29a64f38b08b49de16e20661480d65c1497da7213273c5f131a9,
  0x13323c05762fad480f3cd5f345ea35435bc5f99c926dc3fdad58d88cfb9cac10,
  0x69e0ea9b5a68ecf96fe17299d55b4290f9c7e6596b8c70a659baad98803d3700,
  0x9e7bd1b7af92276a4b5e735e61b8da9230e10eff1d32ebd319ae88f4afa81d0,
  0x361ed38020325d76d0735a3fc5de466697515ac407d6a6b05742f5b7cc26835b,
  0x692b5d0e8ada23244956ad8639e9965cea6d820e7492c3a213b7dff53828b5e2,
  0x4a7dd078433a3812f93f8272a666c45bbc771335ec26d734c3fdac68609139ef]

def cQ181 : List Nat := [
  0x21ccfcacc6592ebc19bbb65aa5cb4e00358a254e7dcb909e0121d20f1f7ed198,
  0x63bf27b651e7490c9a0a332519899112ea442e785bf770fc14c3f1940fc7be42,
  0x20e061ae7858ea9d31f8b4ac37ff978911b1a4e7cee08e975c3dbc6df64fda88,
  0x4e9debcbe32d0bd9330ca5152bedd5042f57d471fae7079d646effdbd88efa8b,
  0x59c5683d244363e6458b800fe38633c05bfdfbec2edd984ccf11bfb19bbce4e5,
  0x21afa1c87230c8ea0c9e7dd5114d4099b82d6fb3473fcb58f6d65e8497fed895,
  0x479ab1c3cc6f5d86d15ac8f5f22ba0c57be5f1b3aaf0fcdcad56a28989a4cd9b,
  0x1b4a82e88e1c5821f6085abb835ff38c05ec0896f848ce7c254af9b8437731af,
  0x702da619f1f00f2742d2d117c063da2953a0f4d8baad58042ed09b1c92a364c8,
  0x4d0afb182cc6070f9e29634fa57b42a2357ea164c8d0cfee2d89d1895155d1f5,
  0x2cb16c14782f508e3f351b001e746aa31284e3fac80800620af1173df4204d4a,
  0x395bb62dbd1728dc3e16c256cdab2ff7e08c381b9d3641b6b143e62221dee283,
  0x2078825ac85697109671c3ee141c533f03e177350f84d2e0be0c078d94eb0cb4,
  0x6539649b73dfef783dcd49a8eb8aa241c5ca66505f3528f98e96841452fd7d05,
  0x19409e3b80bb3876b9ee7a92eeeb26c051e45646a53b754e5a44efb2c0c5a7b4,
  0x6bedecc10301c9bc74f217601a088111cd891bf553270315b4ef6b01ec1f6e90]

def cQ182 : List Nat := [
  0x2f7366060807bd7ee4c79a7311e92399485807a135d8f764ad92b66e02b613ff,
  0x1c13e8d372d95e33fc22bed98e19f2e88114eca1961770c8b55df1b0bdd5bafc,
  0x5919991b842094f5b321b87c6d2cd29c19bfed1d0d92d9863384116baba781ed,
  0x4b4200e708cc1678cbc585e107e59ac89ec768d9a296c2d89bf96743bc3427d2,
  0x24dde445158c3555dd6a0325b4264d7f8f348e695d5e62bcaf1e1aff5134e296,
  0x51a820cd9ced08e6d6b0cbafcf5737a716d15ba8c64d7bb9d594f56c77c370f4,
  0x2f7084d51a9ffb4e59ec30486482b44dd8ad6117bcb7471edfa1bf949e9887bf,
  0x29698f0f00b267c436270c5265be63b37a199420a7d92fa1c823b8ea3207e041,
  0x6e0362001dcc283936443b7fc487aa90dc0eaa21ba750cfdecd6a705fb6ef0a7,
  0x2c60418ae0e4e366693b129eaf95fabb7edc592bb8ca9897fd56d7d879fdae27,
  0x675876faff19d9605e7c427ceedc5a00f1ed37cbd30446fb1952b44c69175e4c,
  0x1260f41528224d51a071d35e6c0ffc7386d1a787305f040822771315dabb0880,
  0x1cbfc7604c897a2ffd6b9377ea3cac7c291e4e1ac34e5e9260f91ea2c5b2565f,
  0x73b8dc6cdf1ef5df84f2e300098836c7c00a1e9313ed1134a6a71235b465bcea,
  0xedafcee05a15bb01c825da592c81015fa87a759b7dc19faea55ea35cbd72f6c,
  0x6bec335b579b6df7a4faa54b6f55fed55d1b32489c322c1c0218161effb78746]

def cQ183 : List Nat := [
  0x65f95ca24b931387db685263aeabad80b8bf5db1ed7cf218c5551567c2b0d841,
  0x55a2d5d6e3bf2c281e05060a3e313b904a07c93db89d96faa7cace121a7ae3b1,
  0x2d5fdfcf8a019a9fcfee7a93b3e2fd419537f26297231f8a06934ab7e13b4701,
  0x1a06cecb34550b2b2cbe66a4b7595e8b69474c47561a9cb45b962fc206928cad,
  0xcc69bda2b5d98ab3bd41369b71193e08a634e3a2b1efe4f7e2e8648ebf911fa,
  0x1b94dc8378349f14e762ae45e8941e4c8d593ae1445a6122f0eac6daf33989dc,
  0x4acd4e8e9a29fb4adb83661769ff89b407c9855f131f2a2fd10bd3d997556662,
  0x16bcbc44f941bdbc20750b69e77845a4c5e2ad072538e543412822635b7b2dae,
  0x125d8be038d221888927b670e4f945a7da73d5ce2f429abcab80e3418b4607e0,
  0x1cb272ff2f019220e0dba2f36ced8afc8d23374383cce45b8fe41ffcc00966f8,
  0x3a925bc978ed7f985eef47a1a2f381cd86d9e9e037a0e4ac35cd7060e6ffae90,
  0x662cb6a09e1f615f9d3fdf499f45c911cec430968540e464d27b16db6d62d76c,
  0x1f31de18290475ff01d660d4f68f9a908141dbb85c551c7559389b2709eb373e,
  0x4bc02d62001ba62a253feb0c768ff558353197f4a487ac590e7e8ce95ac81edb,
  0x4c58af02d6faa5cea882bad17e56aae311a125a1e926a765d880f021a6da19c5,
  0x56eaeefc2cdd3c9f5c9306da3989c774342061cc20a23a0b8e475720103d4ee9]

def cQ184 : List Nat := [
  0x5ba5b660a0a2a6dd57c724dfa5b0a3be20979043efac2121401f0576e06afebf,
  0xf4d1b8b2a69fb4dd8fe90aa6bb4412a4baee4a9165d304d96704ec39820295f,
  0x205713ce614bc432c4a978e01f4eeb2ab02c96d9c884949dd8cd84483235921,
  0x216322ec23876faa3932e226c425b9e2636f320fa7003d8138e924d20eedf878,
  0x2bb9dbd25080ace55a496b3fb9121015e13d460b862380b865e22884cdb5e639,
  0x1ad87bf821d4229619c22abdee1dee246316a4d125e05ebc94faf010291bb625,
  0x32469d9cada1d25604815758b1ce48262b2eb8b68286deb3b27f602af833023b,
  0x1dcf26c7f691abb93b02447d5fb980af32ee771e6f449561b8938b0b6e1b64e5,
  0x26b86f196f33fa490c2057f6692b2e9a71cb2f220e1cd57c61c6de9c74f403c9,
  0x4a0a98c181788bfcdb5a841f7982a6194bb2e0d2ea594f914820f9f579e6de30,
  0x65c0c9a36acec56c145d49357340f13c98f69384eab69e9017267ba7078edfc2,
  0x2d124f6caff9e1ba496e107645f2f4928cccf0b14ca467860937e9b61edf7f7f,
  0x534b07b11176e4db4c4b72ebfdd61b850a893a5d2e4d627210506b951071d7e2,
  0x2b380940148f8e9911f85513d36e4f19fa7695b3daaebe74a2a385c830119ae2,
  0x24ed2d1675e7a4eb9baf5ab7603a0b065b8cbca25893e0563259986361f4b5db,
  0x511260c44d38b98bacc28335ca3a488e0e30bbf38d6cf0811d1f32155e90e3d3]

def cQ185 : List Nat := [
  0x2b128c699f632f1d3fe4a9faf90ebbfb33411a5e2688dfbf940be8d170d3757e,
  0x33f3caa4bfa3a120670912634ce8b7be542146d12b91a6c32ae0742d750de317,
  0x6135341749d5e00fe5a856e7431080eb4f273bce00e0e77fb1e475a19b6dbbbb,
  0x515f5f6dce9d7a1527d05c7457246e38a3985ad750d9d646a0593563e659804,
  0x39c5998ee2edcfb5601ec33c43f6094f615e61bdb4de645806e282c96b5b65d9,
  0x6a3d9c6abe7cf8a0bdc5df3c4cf5db658cfcfcbbb8f04de8715fd89387d6e50,
  0x2da760a17481d09efcf0e6e8f8ac3b1ba2d17a4c9285650bcdffc0ce0088b137,
  0x875bb0461fe61b43774dfb667baa36f8358417605d78913086aade5621ce841,
  0x104aa6fd551db34ab974b6b85850300945432988dcc8534513c15b5c50bb45cc,
  0x1cdc6ee334b890f12c76b07d8a8469448696ba431fa69a271af46a1bb3e51265,
  0x735bb433643f924c809e820a690672a97b0591e3033a32cbe5ce9741ffe576e9,
  0x5ad21e1f0577117913fae22f99f1e68d3af890980724757b1435a9359f175c0c,
  0x4bf1cb0b740401c9bbc331c7cf6c24380a76a7c7172f6e8d703bacf53b08a29c,
  0x3dd224b43cfa2b8078589d8e850d67c783218d0428ea7c30953d28112bda5478,
  0x6e5b1b6a803b2a7751485d0e268435f6d9da2b5f28923ab30169e346c494a59c,
  0x5c350ef562a8f9d0591d19df3c70b4372e6ff96821f3ef2aea8319be0fc1cf6e]

def cQ186 : List Nat := [
  0x263920bcaa7cbb643a06b3507b8fcd002b3a3b76c91f660063bb3e41c4439a93,
  0x5011bf524da3cc902e756a5caaa6ecca0ffb91bb64b71738f91b72991577ff71,
  0x3fa2a9baf43ae4037fdaaddc118fb333e34da345a480ab7c02fc08bca7193c93,
  0x3304e95f784dc2051558130dee954631f5954253a08f245742d92b6f3befe1e6,
  0x44582a5f349551aa0fa91826e0146f639a54ed968d2540a31d730dc528f2b6d6,
  0x280ffb387d0bfbf493687bb4aea8117bb423bf49c7475a51a773f926a6fa9186,
  0x11d0fb237f1fb86b9d2a1f999ce29741d6ea079dd8a707db78d010b9c786a314,
  0x4bb0ac160c27e060a84bb41cb8845a79c67a462cd130db3cc5960841b94a4233,
  0x32c4b0197706d95c34c53a357ea2b228a0c877d75b20b9a7f061c2a9b6f66407,
  0x1e7f513a929c83a1168896481c46fedc924b12a18589c3f3239217ffc4f542de,
  0x2f624888691a114168830ada25919ddd83c4c96d8d7cea2d9f852c1ecd89d23,
  0x6394aa9dd0b71ed6a0b8bb3d728f3aef23e42ea68115880033fd0c8b9b4fda22,
  0x10749a6cfe87ae931f029f35134a0792323beb77dd8df4f1cc81780031c21698,
  0x1da4195d64d8dfbc647dd065231d0632302c5113551722887504b58f876c8816,
  0x437aa2cda6d5a9881cbff04ef270b19ed8b78d872468d3700609901aba826f41,
  0x4cdfee5f7522dcdf6518cd95a1eb4547f4fcfeccb2072bd1ebc6cba445d9ff7a]

def cQ187 : List Nat := [
  0x3bff641c90c5b6453b9521b1c2b69dceb73884c40243d28322f8415ae98358f1,
  0x2caca22ad5fbb841e00fec4ed343433824377a1a0228582186e90b63f3032dc4,
  0x596aef7c17999936d298f51de5b07254c8f265b6f30bc3300e8cb9a916bd007a,
  0x7153b4441bb84c32c981ca12590a4ba68d07992893a8eb1fc838af0a091e694b,
  0x6fed5865c6548eca152c047cc20df0a9c0fa68c015c97a25aa963157d999f029,
  0x537fb0a8867fdaed354ece5f51f152c30482979b61c875a79a5d4073bb63206f,
  0x19443ce03979fa43d6e629125727467f265ceb1e9818381090ce590014334d88,
  0x1ea5300d381c59c3aae55377728050058da6143db550308538328c238efb527e,
  0x524f0878d2904b5650d0afc303fd6e0fc9303f8c5868c14f723cd69108e128e0,
  0x32c11dde9f993cd16342f310bc0b7452bc98a871268ee4e3e74f6e07b4d54f88,
  0x5227d7f7033fea0953416cb8a08de14bbdb57e2d56bd8d85600f4d4a6676e9e7,
  0x26f1f0a2275a447c6922d308b467e1461fa824eccd34feaf78bbbdbd3ef23990,
  0x5fe148f22e1d59615c45cb1208361a0d56650ef01ce43ce77f88a12ddd98f58a,
  0x3157fb414f1bb8b26d7aff7301d78356b49e2214b6cbe91e4c2fd9b2252127c,
  0x3e438fdac672a2c8d5aae57ab598231c52d8c57c4bcc85d6cd36a991a77e5328,
  0x57844c82cb5ed5bcf04ecfe7022edc75ff88bbe86a44ef920ecc25d262552506]

def cQ188 : List Nat := [
  0x2c51a8831277586eb9a33487aeef05f9554a5bb2a9adbf907773cee3a17d0bd5,
  0x312d738bd2342bca14fa4186584ecefad4aa54dba4ba0793367cf6c8341f85ac,
  0x57d2b1fe192e7216365d073b959ed4f40d1f14b36f69d58894cf04b09f9a092,
  0x323217cd4fe131070834dd986b5b3a3ca221504e4f045bb54dc1dda0f5b1ac0c,
  0x4c85c42b6edd96ece490576cd300053011518c78335cd70a1a6da02f5c1c2899,
  0x1aa3c2a2f4866c3c0b42c81d8f250785a9507c030a4dd9c0780f08e49fd76105,
  0x54e92c26cd341174b73452860d8ba08abe50e491a7b12e0d4e7c66ca88b5843b,
  0x36fd9d4f0db6aa0372ea4c70b40fa555e7f8be6877cf353740b8c384e7e44675,
  0xf9d38281f33477cb0034d4def00c36b2928323fc7e1fb71e33f94473ddbcf83,
  0x23cdcc1cf7358651ec3a060c3c2445b5ebcf3fd38117135e68f042c6eef3c181,
  0x1db89cf17f3ed32396d44ec0c1f888bac2e7efdc072a8d29a5b2994bc02fd69b,
  0x19ec28efd2573a99f411ec56b72a2242bdf963639f39b3f1824dfdb3d0fac66b,
  0x531dab254c6d82954b2eff5239e9ae1210f921e4aa3014cc637a6c048b2deb70,
  0x6e45c168513333648840ab6c6b879bacb450fd8d0d3ef8d9b294197ec88a6d72,
  0xd1b18d19b515147e7b843186c85a4caa2c570f8e2c507d16b2a2aac2fe45de8,
  0x67c7dfdcdcb3dee71ccba374f00d23a2d6e7ffd3d71a1bfed46c3484b613e48]

def cQ189 : List Nat := [
  0x54ff86df6908ad6e7d979607fc468f798a15a7d48b0d17d3df48ba40bf3ba567,
  0x2dc5a9782f387199a9dc4a51c84f35e77c29caa3a0c481c5f9f902e6a17d55d8,
  0x1438b20e39f5711bf420faf420af135e23d3886280ef9347eaa41054d25197c6,
  0x63d47d0eea3931f29c2682af190da6ccd43ba7f588884d4a2e77b14a026605be,
  0x68f386e2a04edc8f88b9007d20ca3fe0232e02ca5aac71383a820fffaa51b9fa,
  0x46c9df73ee2ad3f25645a66180b0d9f80a3d1b155dc889db0a8bbd0d91539795,
  0x19e84d9c61075fda715ba80c2b2743db72cc0d76f73658efc41cd94e61cb7d3c,
  0x16e7f88bd5fba0e298fdc45fb03b155f65421a0fc686fc02e04d45f51d58e810,
  0x2680367f3fd0695d57a213929edafec82284b1cdea5d1ec0317a134a5aa8bf1b,
  0x1c0362fdf34461e832bfbadf9c4b584276565815134f309c14ccb90c5c168fac,
  0x2901ab84d06ccc98159dfbda91f0cbcdec45ecd0eea811f8680615342aaa630f,
  0x2c7d00fd2547a8d14e139591243348dcac1b845b9fdc3dac97215d584be426ae,
  0x64e89b6c39eb1a37a2d67c667bd1991bea3904b2e5156b6e909fba0384e128fe,
  0x1540c8f37b6a6f9418bae682896bcdd2158975d84ea194c8fb5c9bdd69e47437,
  0x298d38b262340dedb77a9f26cfb58ddca19fabedb44dad472510cf8b10882cfe,
  0x62f10762cdddb478c61aee31b7192d12ca4542fd928dbfad7068334315bf2ca1]

def cQ190 : List Nat := [
  0x401ba827a925698f98498adb0b5566688d2c6cc4e52c320821d793365bd5b361,
  0x4f9860e3a7679287cedc5680950006fd94001208d6c63ee49e6124b44f066de8,
  0x607173cadf48c755f3f2f9341ce7c521f6baf0ca2078487a82c8da05c86c73ad,
  0x49b96efc3a28cf4f42e0d2baa5893820c6742d207353c29e2ddda04f3472ff19,
  0x3b01b6c11dc35a6421d2de16127fba44e5a58b3b21ef8b4095c936c49f8d09cc,
  0x19bbdd2bb79ff38680368cc3616c4e57a4850dc613532eca988758feb1ba3448,
  0x3961fbdbcde8bac26be6725f14d787fbdad4959c463af2cb24ffda589fd26586,
  0x384ba382126df7977abb34a2d97d1fbb0433583a64df938bb2dfcf5a62a50539,
  0x28c9fa412186022b73e6a6072f1f204a35325bdb2a9013c2977ab1d9c5f27965,
  0x1be0517e10f2953fa1296fe44091757331753fbb68e5ffdb033c232624a7dc03,
  0x4cdbdf0e4de0727ea90153deab890604827b66dfea6c42c45b782dc55b24600b,
  0x68760df5044506d8f24921e03e99f9c2941c02ffa94686a86fd74f2a6938f90c,
  0x45052a20a0eda9e62df48c5d7b588c5cb385e8bf4585f49e427a65fecea07a5f,
  0x6fbff3975f3be1adc617b4420fab4f6ae70b42e3909d00aaeda0a1f02a61f6fa,
  0x1fd1410b4f23cd3d0b783ea2ddc0c7ae54e03b6ac5cd5fcb5376aad2ba90c0ac,
  0x13f7ca7a94cd2707bdd1d74f9853de0a8e31fd01a3af93f34295d017beae964a]

def cQ191 : List Nat := [
  0x525e2cb868df0e39be4351ccec577874aa859b9e52797c2b7e73dcb2cf618db,
  0x5e9dfaa397304f027705078cc8edf4e8db48ff84c66b4cd3087416ca0befbf1d,
  0x2f45a3127443705ea2095c3a3ac37edf7f4536cfd020cff4ef2afc808086f66d,
  0x25b84bbb1d6661ae34aaff745e766708abb15ffa5a0cc758d02956f0b3937556,
  0x432cce7125f9e0fb94a9e173d85c0cf4961e7a1036516032d3b0a10bec6e66e,
  0x4cb196a2bbb3100f42f4e4342cc19a75ac3a000de2d65cdb5fc9e4c587e275f8,
  0x10f91a8608385de0342fdb44e79c8ac8cc6431f96a2198990719ef309285373b,
  0x10724916c1993a12022dd2c7f74005eb7ce1dfe21037b0694c1917d43e841e5d,
  0x4add33c213ec341aa15bc55ddd42f5372b62253b496a5d4f349ae69e2020623,
  0x2cfcdcf479b978a48ee8e0f103751c6f4acacc79ada4125730c26288a2288eb9,
  0x4eb33215e13333f74e61d14f0f662fe769303453ae37848947c837d35347c053,
  0x6183da61a8c6c7b9ca639e92ac08e3dd1e8e0ff794aaf35b18c67cc810ab4016,
  0x29207443356be0aff6d78c239d1d95b7fcbf790ce920bfa1e0ffe06030564504,
  0x348f059ad937e88a95adb77df3f3fe9602306623bec413126e5fd8e9c6ea9ccf,
  0x275719cd24b4fe744b4b20e99db9269f8ab8680d2479d3d61475c7acab32b567,
  0x486135f1b61c910a0c8f402bfc5d7059673bec18018d49bfb9c64d30c8b30af2]

def cQ192 : List Nat := [
  0x143576793f59771beeaf40dcfd4992f88047aec32eb42440b6244e11cf9d98a,
  0x2a48b002cb0d5243deff09fc2db31b1e9d5f120aa3335a9b4068a20baac74a9c,
  0x1c7331b5020fa76ee464136066752a7c956ea5c6af3ed29daad3131b984e6bca,
  0x3229f2af1c6ccd3f8c3b0ea54a8caa69c2c4facc6edb6528c8b394d89c730492,
  0xded27178d2b0dfda78b25673f5751353ad1157b890c0627d64ffa7c8f901f68,
  0x2079501a54dd26be8acfd47b0edc486855bc46b2271b39ebab6e1b697b84cfd,
  0x5e6215674c3d994fe35c09dcfd86442b3a9e5712d6efcf25ed83178a955daff2,
  0x5dfc1be31fc4dbc4231aa703947e0ee405034175430b446caf79d0a40aab4362,
  0x19305feb0aa31b660f10215fbc35cac70d3dd52a2e7e4fb4e03b9d8ce3fe1592,
  0x25e2333b674fdd57b8cfc09749928a902c1f0d547e11b789be01a1a5df1764db,
  0x1a3055f1838401f89b2820831b8fdbc143be6fbd0662b2a93c02bfce951017e2,
  0x100485f1a59bdcc221d943396dc1be0a8bdf79e877a9fc18a298a8211f3a39b8,
  0x4684c11e9f2ece22e2fb57ac7bccf0c9bba7cb13351017e224359bdc96fc304b,
  0x22f7e3739e7e41261380b493d81974bf34f2302df56a50c5502f9849dd98137f,
  0x44b6048640b844bc34d588bce2fc7edc2fb2670b43d79508a1ac5f6be5e5f484,
  0x4b7783639b245bc4a353cd9f83bcb43005244889fe0d0c12537811ade78a4aff]

def cQ193 : List Nat := [
  0x27f8e78193d1524cb9413108a36de568e6ff4e5d7fd608208871ce3a080ca6a7,
  0x4f0d71a642efb1b96d59617dcc494a0997cb8481566e16c5f6627a74fab5d639,
  0x35dd0a63cf81aba1870b369d1ccc57ed794f6c6619b5954a0fb4f3e62f45284a,
  0xc922bd9cca40c904bb4ce0821f914c869fe5970a865b77e93b706ff3177c0e5,
  0x3371573901e3d3fd540f56eea454fa811d0ebdf05fa205bc4d4849aa368ba057,
  0x6c5f480a640e3b6d39250aa50382d2e6c33a17dffc11001d05c4bb6544b39fcf,
  0x56cb169918998943f93ef4a4c677e212bdcbe905c884943a466ee673d58ed8a1,
  0x612d098ab1233c7bc7879f67491d721fd9db8f7f903315c46f6e7392c767a88c,
  0x70c8adcea0cdb45fe20497296bc6702a8976028cf8118612048519d161bd03ed,
  0x7258ce373b247ad1e253c91b64e88b7a5f275c0703ab9c11c96f6c7b16d08edb,
  0x5dd963b81f4b5ed5840cc297b2f55b126c60e4c775371d567c47d89d2461d23,
  0x2ead0630c6ce931c6bbbaf68bfa0f79d697ad26e132ffd57d356785ab95bceaa,
  0x2ffe57250c12726c2be2b3c5a1a874c28b52f0bfb7fb4be22791b47ddde72665,
  0x4da1f3a984bce4bdfa1e1ec27eccf917d069bc2a759aae0e0ac39938b5553b38,
  0x21a0c8dc62b5d69db563bd39cb8c6626305b1ffcf031c845d5cb25693ff2982,
  0xfde2b3c060002abbfd8ec9d4436577d25a2adf1df5bde768c218aa4e1fbd52b]

def cQ194 : List Nat := [
  0x518266afc1eceb427d1613836d073bd3904d168c2c960dac05e7a8f4c66511ae,
  0x1d7198cfda400d9005ed7c09d15930f7cbd1617e3040ef674e6796a365f00f1b,
  0x59c94398c577b906d432fdf5b2e13e50bbab77f7507855c87c19cb654f08654a,
  0x40e70aaf8cb9ddd0bbff6204e4fc94b4b6e41e1de4cfeda97f8bfee9fe1fe964,
  0x48f978e13354ffb7954e5eff45280ab395cd141d436067bef168b1f1ebaf5f13,
  0x3b73279221fae2311424c98c8a2c578b3a74a6b1ac26fffb1b80c71ec5a01c99,
  0x3d480ac47985deea3308d60c576480f44e68174d7447c2519dbfe870b6e940c9,
  0x3e0fe7a6c49f5df7ff9105532fd02fec87e9a9443674e267b7578d143bbb8861,
  0x680cef35e8063912c4789858af19efc97e59b4f4dbaab80222bca997dea1516a,
  0x4a90627fd71502b17461ed3e16a532a30c33a8efa8a4a406696269b9af9ba73c,
  0x38621a28b917d936444adca622696e1c9e891504fd4a4aa5618646c1ccf610f3,
  0x4a38ddd6e00cac0f6d37517b7e20fe21a97c8ac67eff704eca2b4a5101f9451,
  0x21bff8c7f1d331b9b8bcfc7eec9f51f9f42edd1189f6e0137d892a88491cbb9f,
  0x34895b27c7ba8ab9d2200ad98e8f4bccb407a3b13f814fe7271c47b86c5e8e9f,
  0x2f16c88a3a67721f0e12de97778b282f11232404dd2ff3238a26568d1f3fa2cb,
  0x5957858c8a92c53063111bb705df764ae9d7ddbc4088ebfa2374c4c27c3d99d3]

def cQ195 : List Nat := [
  0x387d03236b7793d8b1f47039b52a4455122670c840b94570ae73b10b816328a,
  0x36be650a18eaade6513e9f31f90cad9a7ac4b3d30011ffdc26e9c8a261759d06,
  0x64769ed45f9200c57de833ad12ff27933a1d15b37ed0b054dff8774545ce00e6,
  0x58918910425e76e78df860f39dbf1880648a49e9547b6de43e940b2d39181892,
  0xd742e295c9d3db67ada7379a1955ed1755c7afe8c779f0f76190fec34474760,
  0x118e968d65c70f02ec2d803e3a36a4caa31a51b2922e0183bee3662baf34dcf6,
  0x3f0e5cde45a24725aaa823f2a89d2a0f2254314e3852b060a04beeebbc1c2a6d,
  0x3d6ae8e4ecbe8d2119770192a096758e43dd4e95dbc45da74a94061fe7bf8b33,
  0x48c076e7d38b296d7431789e49db2295e5049802fbb3c4a499e442eaf2a27de7,
  0x124e96b3e47c973b7f803dd008a231388da111a5fe7565acd523389ad85fe3d6,
  0x59c70193677b251cdf807e23ef4838734989388d8c2c3896750be4f0cd3bf650,
  0x673323307ed352fd1e9a5aaa1f5897e0424ad122dfa77d088f43ef59a8cbde3,
  0x52c47324430f13246a81a2b55575fb7fa997667f1c7c26e86d1e712b5e372697,
  0xa07c17a1f1dc53de323a27272329bbe6d0c97c5f3c471f1191bbd4321e43e5f,
  0x365afe9e94c9cfe9b38196fb0b7d939ea6c4700234ab0670eced671f45e8ea9b,
  0x50b0d88104928c15cea9be4d8ed383512b0eb76c8c1785de28a518a57e494fb2]

def cQ196 : List Nat := [
  0x675b3cbfdf5a55616f160358afc8ed3145872eecbb6836dd570798fad5514362,
  0x5fb03a5773342163541a0b801a0762cc8c3569b355bd6f4fbc8f181a908a5acb,
  0x2ef9e6861786a7b4ea5831fd571ba5bf7a0f394afe303d893575cdd180ae588f,
  0x3bbceaf873f040eee8a10cd29f9e8a2531408f7e61c9f2a4e6a95ad593884f1c,
  0x3171fba7bfdb54465ff69cf8f2822fc614a7c3f9a3301444af3236e9ab167fa2,
  0x6a6e29bc08e431988af155c55175d455d3053e13ba87caaae3650e3eb6b9d341,
  0x157c9cf1bea074f24734cd148bfe5c282534e2a93f0330290ce18808d86ce28a,
  0x677ff86ed62c1d57e6edfa3b79eb55fb8f19a893168d01aa389c2ce64418ec16,
  0x6d7f04d23a5126c3dbe0e8c49ecf53cad7cc03e8a0f4039c647a8743dffcd7d4,
  0x4330cb7bda2207d2b064ffa5e48d07a89eda9c8bff526c43d2c20bb63ac1109,
  0x46d09cb3cbe2e78e980b602c5fa69adab2cb08053e957d1893b6d06746b87660,
  0x31e00617a7fcb97f2e5ade0edfee857f792be17fc84a1ff1fa0bd9ef9d125d7f,
  0x3b0b5af51c7f532892d45cc4426a8788ee7bff87947a9192888bd8848e497375,
  0x37084b92728fce0cdcfa925c6c6207151c5b0be73bb4000f4dae7e3bdaa6d939,
  0x3ef6569814c6ac770268c3888bf7157407f4e6265afb787e4ae64e07436fe6cd,
  0x582cca0a650706ae0246a5ef48db63d3dd7c10028f667b33e73379e908bba99e]

def cQ197 : List Nat := [
  0x29f5ed495406679b5359b17040022b221704955ca40ea5e6d7f7fe9fed22b1de,
  0x696ea0cdf3216c3b06e9c4f9483d42c7dd2f5b7e98e1f40dfff468fa3ad3017f,
  0x7f78be616dbf7c1ce57e1800200cc82e213f63bc7dd440190a863b79f0efce2,
  0x8a26b7020ff4239c4db8fbf3808deec897a697e489e8a4ed5ba09c4aff1fa1f,
  0x5f7d56bcf31676c7231eafb5130273e8eb61d96aabac1d0cedca6cd2d5f1d04d,
  0x73bbe81fe17045b5ff55099474e7c17fce8767f5e7980648d95fced23dc16207,
  0x38c0ad19ebf0f8111f04b6c616cec1cec6f8d18ba2b87dedabf78ce11bde6f3d,
  0x7376d3a2f31e1d1ddab9d8f71d45aab9bdcdc5ea475ed1e89d714be12bfb9872,
  0x6b215223cfbc17302bc1b9093bb74a13862fefc2ebd10f613b7c2cf6310cfd35,
  0x1e695dc36de949dfe031a1769f47f3d5775a67de3c4f5899cf61f8f6b360968e,
  0x16577c2228f05e0b7956edf4db8e12682c0e600b781584af5b3dbbeb829d1b,
  0x5e8575fb9088ebe3f08dcb57b0ed155afae80fb5c2dc077fb8686a34a0191e9b,
  0x519092ecce207a3760da3c2d92104329e49f52155794dd923b232347e995a5bc,
  0x3e803037aa6098c2cc5d454bfeda6e6ca467140b579a03b10988a67f617e0436,
  0x1e07880d072bf82d9fceee41275cc00b849869362bfcddccf322c4db7f028807,
  0xb22daa5c34816d98e2fb4513931c443de56899e6917e100238ab9d72bd9a09e]

def cQ198 : List Nat := [
  0x30241b8c2a99eb4153d29949342ab3f48e7bfac3cf75fbde4ce7982542a2cc89,
  0x479e546ac92008bdebfb177a1a4baa84e29d4c39de5752b4a8483acf864c2cbc,
  0x32ee36f8009bdfed51b955f0664a18397db7007abdbae6e714996beeaa409f38,
  0x7374f827172c330b195dc5fa9554763d05cb9e07d6b3091efa882bab1286459a,
  0x1d6d256e7c652c31787ed70466d993e4f1b73d6b0cc3027238c1752c1d98c85e,
  0x3be90a22746ad9dcd292c182e260c35c12d9919e74efea9398b1ca2ee37fb0e4,
  0x26f2c89789a419cef583b6bccb0159b0ae38d3c462e7b85a1c083bc69e3a474f,
  0x22ce04eae73db21d5e35cb5ee903904012535a84dda716064acc039a1bdaeaf7,
  0x2aa924a60f5cb30afae47a2b64ad9e2999c75dc358a99ede27d1a289031834b9,
  0x644ba0cfcb60f7d02279e2360690b842eaa9b9f6d2db1e8d2757fc851546e7e7,
  0x58386f8d233cd303b09f38ada1dce87a8e88d04d56d2cf93f0c844bdf220dda4,
  0x5b0986a9903a61c56cf61109c90bb752b3374029ea5aa394b660bd59d5f8448f,
  0x2fbbcdf2ed0ae6d092dff50de7baca2ec6cd2a0b97418f55d55c58946a5f2c9e,
  0x6c9d1ed9536687773984d7e4969efde927658a381a63560ce0e5dbeb815a5161,
  0x5700ec0ee574861600db40bfeb4b556179863b8625b803147a4d667d24618b86,
  0x2970b801b29197e698ca28f6655cbd0f67d725eceb44c36a2f8ec452fa2026c6]

def cQ199 : List Nat := [
  0x2c7ad377b874240ba1017578dcf41e868e0b8ea0a5863159329e70004034faf3,
  0xa5d8a78a5c5fe8590f4fbba709d3bdaa5ca7c57f5030a434c1a0bd8a5fe5d36,
  0x1f13f151f50ef0e11298dd7173018d18677ddd7897e2fa9b5547803a4d19cf52,
  0x688d7ece11cf37498c6561451df67642041ee02ca27b2998ea92c8be3a0bbd9d,
  0x107cbe21a76fe11aec73907dae40719d2989b9adb5d820299a994c0b1980a1bf,
  0x226a3aabb68cbdea547de59abdac7a20adfab6415ddaf70f38fb753d4040cb92,
  0x37235db2c56dfb6a4d3dd2f9922bb50e53719164230501f2b422e9465d398a35,
  0x2db6790c199f4c5a3896106a46cd21d55293a102c163ebafdd44341f03f2d81a,
  0x15614cfae88adb8fe0bd4c49f0c5776c81fbd0d7af9d7e88a157d2326cf29083,
  0x7121c640935941cc09c3c634ca9996b0aa865aff088dcc9397f1bc52ad0a7754,
  0x661598cedefdec9d509df1b19e437ba87397a3bc28c47275bf157df573f47b0f,
  0x207b8f27d1e84ffa04d5e0e5ec9b32bf756c9b8bda4076cab5cff83a7087346f,
  0x2b77af17379bb7b030725e29594f29f00c6b7834ddc05d62f4577ace68ea59c7,
  0x584e4a3d224d60ce0f131b7676387c92a6115da6fbd4c04a635e693371ba38ec,
  0x66f08bef99475bdc9367c05f204ac1a6f14563d1335c547ccc32b88684b94de0,
  0x4e5b7b84079c97b4f6ed7f423f270e0d39cc01eb540cc177afb0fd19f434fbe9]

def cQ200 : List Nat := [
  0x54d4bef9a22029f0e694e22992275623a2f5088e0bfc0e1cd366f9ab4a10df07,
  0x4dd9cae53611e98309269b9d3c89189bd7f400c5c4b4498c8fec07b6aa33be5e,
  0x4aef77e2affb5106864c32cf04e98fa2220fd8c634fed1954b5c8ecc3d178552,
  0x3a40efca603c7d33bb1070230462d77f1e5890d3498c37979e13f9168f23226a,
  0x6f6dd58b2d71631de0306423cc5b745808148a366ab27fb835090b0f9c8c029a,
  0x2cc2edd06d909cb21124ba067ac8b05958cecbddc15b145040f93861b81e2fc,
  0xbe609aea3767e78fd12532041a4b0f100d0452a15d27e251656f786edd4f28f,
  0x367aaea3935e0e31272442ed0ee687dde6ba98f29558a39f58b89e37c79adac9,
  0x1b686574f02a3db0d36a342d2e354f8c7ec0322fa24078ed23d20afec297bf01,
  0x1419a429571a828c1b918a399aeaf0f3869bd5ec229d41832fd62c5e44d85489,
  0x67a03a13fd43ba0acfbf35fff0ba0bcd0f6e4ec23f11f1cc684892042a99f151,
  0x3f4ad95137f0e967a27de4509ce187418433691701327507915932509d638657,
  0x3dd0ef8b31e4be4bef441a4c7df45e04e03af05014ff46340aec0c498b6ef9aa,
  0xee47ddbb335f2a80a64b9bb84b1cf196c92a4f43a808827ca14b64dc4852c85,
  0x51ce28476fad72c0fb56e1496d0af0c6af30b22717be9f45f4541be811c50d16,
  0x4cac4125ae641606345b4ce5c202b7b92d9ea71bd0d977b66e5c3f3682d283e]

def cQ201 : List Nat := [
  0x3b39b7903234c6076453277c006dcfe9e4d90b77bd301239d339c81f69aabbb5,
  0x6cf0500646a1ea2d3b579fc4ab67f03f750ee088c74fa81ef79ab98b409619cc,
  0x45c645d77216bc98962b82add012459b391094616ccfab3995f6b1a98375a197,
  0x589d2a13fb005a6a28ccfa8250f72f3e3ed7993d13955f78ddb94759b35c4cb2,
  0x615f60b30b2627e02eaaf346084bb02c255afa220cb434801fdc332a4a36de4f,
  0x3bf94efe06b9272e42de9cd8cc260e315fca9aa295cc3245672a49243fe9a8ee,
  0x6f8a34c78fbf8869e6ed6d9e0f84c58b8d5da99184a181364074bc1008bc7d8d,
  0x5a915fbaa9aca6a76905b5a1ca2931aa0213bd05ac54ac094211a3bf87d42c3d,
  0x3c9096a9601a3bffddc71f31ac94659792dda5f5e42b6c66ea6bfaa7e7d1f4b4,
  0x242b735b6fabdf80a18a2ce3775684c427783422c969cfbb8cfa51e99a86abdb,
  0x2254fe6e57c0bc455123f639eb6477d7373d842f5f432e3d46587a9d052b163e,
  0x6136ff627a907ea0603b2cfa78f928aeb4f9c9cc23a85b08641a86d748e1e80d,
  0x3ddb2f8a2848f3530b219fbdde20bbe0fe7f932d82ad7cfbb1249d6753749beb,
  0x9185cd0b0e466453d66e586daac64328c21601c73545ceea22331c3cfc9d4b6,
  0x3fc53b863df921a3468302d64600d68aec4ee8974ef1d9cf4b1bf000df7aaa6b,
  0x376a6748a9b5c98458cf5cc6099865003f4580b0eb66f79971db8145010d1061]

def cQ202 : List Nat := [
  0x63fda9496dff9105690ef56bd0980b24720beb47a3297ed9aa2e68d6240826b4,
  0x27c7f8567193ce209d347f69b8c5d6969323dbafca91ec0ec8395c527f67e37b,
  0x6f87981ae509eb9b0305ad8cdaf5e087ba01d581d2512752a145df08bd0c0ddd,
  0x1d1ded4059148d7c848cb4892d0a3068ae762b06808eb1d139ad7b6742714381,
  0x1e02e6695097e18d95cd5a27aef26be9a011fe7df19d5f1a4a5265590df67242,
  0x622f8bd2c1b065f94b75a92e45d9d1feacdba8c4c025a4e3d4d1ce6dc1cf1a15,
  0x71d41cab194e639938e2e6bc99d19341e1129d0bd89ac5c201875c18cb195715,
  0x1bf8042dff228e3c366c012ac535b322898286f5bf4f9ed5397048d10d6023ae,
  0x58d1471984f9e802c7f5e351e646881f1ef779b70a197ea7d1d0de4cfd909b25,
  0xfa988f2d75dd970f456f359b679d900bc89853a82b6c51bb5af75592de8178d,
  0x455624c559cced3fc52421d1b20605da582348091b78f69924b6168cce2ce82f,
  0x4dcf126b4dd40d515733f0f7da3223ab9ea4a3a59e57f9fcc45860d8411016b7,
  0x6fa58766ee17437554a2a12931f09798e0b6b579d9b0615787aab62966a7cf8,
  0x5265bcc468cd287124b624345d760a206d1dab52364aa1f0f6964e6d4ccfd18c,
  0xee069fee2373403ed059f06994e3c65c39134f660635d8c8f52cb133f95774,
  0x660b83e540564e9ee5983326d025c12b40ec2aeb2bec96d81d10cd4ec2e668ee]

def cQ203 : List Nat := [
  0x2551af9833e761cc4da308328438c0e252b832a8640537fbaac73647a44c05ee,
  0x7cd5618fb8d05df62b2e02a44b87504e51a9b61e77a673573c5b4b9cfc24e96,
  0x6a691eb5e803cb8482efa0c10daa85983858812e5811fab907d16f81ed956590,
  0x38bb4f6dc6d52afc8c203d4f5fb8e270be2959352951f17609d5f1c77b34540e,
  0x40c5c448f2329d931f4b6b60c2a9b990737ff295b89f63d1db9a315e23b0d6f0,
  0x1ba982343300e29d8fb49e52d9e3a543b0f78eec238a8b2e636204eff9299ca8,
  0x3a99edc3f95028852bbcafd4e40e3f8dd24b550deeba77722ae607e9c0b714e,
  0x855826b058bf3e493b7807a7a83fcb8d867e5b32d7336710c232c96f9cacd42,
  0x69c93b5a19852552a863611f835043d70ff45541e0525f3e5b839c77b65a94aa,
  0x66465d84b3fdc7bec87c80391a17c87fa67248d2e45ef6475f68fab6ccc97d48,
  0x1b58a51953c6b5e52a0a223ad02beb3d13f7cba9dbf1b4bb6e8160baf7948e60,
  0x2859ed4bb86e4537913e8d4cc9b7d8532e51c0e8869b0426715e75a33cd54d1e,
  0x70ffd54a83bb9e50e497fa1849aed2aa8d7f8808291689956fac5c954926ed1a,
  0x9d652fe8a6036ea9633ec92a4c3e8658feef1923a2de8eae58d90ca45a213fc,
  0x711528a3835d2176a87856477957b33ba9321bb746f4c0288e7746ef50fc16f9,
  0x5bc15ee322290a02ec071705eb3cf0faf683f5a5b8e0c9010bb55d979bd1b66]

def cQ204 : List Nat := [
  0x4d412c87108e4d38f6ccc95cec22ba7175678ed99ca0a4f54c5cd224438e7ef2,
  0x1be278fe918539e92b49f7550afcc5083d146676b699cf6258bd1ad51e6411b5,
  0x3d5a476128fe5f3cec748816f666b2f71301a3cfd01af9edd8734d1af26c07ac,
  0x3b32ed6e0707d908f4f90bfbfc181c602db9021e496e206c279e6b838cbcc2a1,
  0x5f0e36019fdbeef98379ead11ceab97622df5b73b1eb2590837c4bbeff5c3f5a,
  0x404effa5817c0e6b4ba5fa17c30d237cdc76c4d312a799b88a785b20e7d1ac13,
  0x57652b0855136b422f13d46488240dfe483188b4dba4609f0f88ba07da55aab1,
  0x29416baf7d2b087afe354f4de93116fa9ec90ae9dd1e5b63d104e31c70f59be9,
  0x15c2787c5f2bc3b531fdfae2842a15f13f797377e051fdf290ce15f9799f6fa2,
  0x65c6d936558c799d99ccbf41e7c2b1fa564faba3452483c8101f3a7980686b4a,
  0xa5d8e3077a391f1179e36810bd47b21a6573ef79b009bf636deb95f2d625a68,
  0x585026d1ef2622c020b06ce6b4ea3382e0990d2ac4c1219f12636d52295da429,
  0x2de7394aeba805c2c819b038813135c2c10cce155421af091e6b5d091f7eba53,
  0x2e0cea0d5247757be3b4c2bb7c97a1c1e064404a8531d3f7063e405045336e94,
  0x19d09a0d1738c9318b7d8180f5a8a407c41478078cada9b871249892c9f67ecf,
  0x27bcaf34bad4a6acd106a5313f42fb5c54f415f36e477fec93144fdc1f19f350]

def cQ205 : List Nat := [
  0x1936076bb5c5ad183e73f798bbee419c7f20aae3ce0149ec3924108b2cbde061,
  0x36ed0b163ee0c41d9e6860cb7e2b892caa32247b2406465d581d77bd477deaea,
  0x5e93ad7582763ab0ec19a34f50b0785fec53a2de0a5e77657ee4ef537692f5f0,
  0x12bd8affe994fbb4592ace379cb668ec95ae2481eeb98ee7dec8cee0ba08e83f,
  0x42a5c6b48c6c12a154368fceaf314e91e69f14e49fd89902fdc7e033e456da39,
  0x2beb1b2b934dfb44f11147d2e508bcee513fcf59d8927a00166010dcd05b48d0,
  0x847b54822a85c8c0bd1d00e6a82604ed674ce2d4872f19b24dceb6042a22b9c,
  0x4ef82cedccd24a8dc59e5a11a52fd63d441c3a42126f366a250be7c6ab676fd6,
  0x1a023469ec5812c9269d5661b54f0bf896277bda600e7ebde297aa086420f12f,
  0x6f2d76ef7743f1e29c995aa8a988507a6bfd68c2ba3690f7b6ae45685ebc7af1,
  0x401ce91206e1573c36c582697fcd1738c503e8947786c3c9ad08487a6601d776,
  0x24be021e97c4ee10f8a592f06fbeb24bda266a7a757fd1dac3911abac722dad4,
  0x1a6ccf9d697010376b9ad4d72c8607f9f993cffe3acc881f05fc939261a290bb,
  0x5bcab464b84e0f376eae8cdd5687bb86c3212d545787b1aa31d5a11082a623ae,
  0x531bb37b426ea564b707e76c622ff7eed23a9b350312feb4fcaea6b3a2ab0b74,
  0x6e70e27e53d3a3c4dd5d6c0975a4818f8c932e5aedc9d2c4e366c5527f31b60c]

def cQ206 : List Nat := [
  0x1f05489949bd3da2e7bf1ee49654142b85d7fb5638c7a8bc14bb6ecc81bdb7a,
  0x5bd3111011e447c6cb1a6daf65b422f7002ae619569a6e6c796c022330ab66d4,
  0x152bc82db8a52cbb69e9da1bc41e2c48fc9959eed1e083bef753a20beba0c8c9,
  0x5707291f92b21229f8a4ed7f19ee6f194e004fa8ee14f2739c6240929f30c587,
  0x270df1ea95cdc8b5caed3a1c6b4439c4add2d45c3e20da4137b1ee7d356b1639,
  0x119d79b5229a8bb2359054d1fc3ac06592a193516a6fb606ba13ae7474659e8f,
  0x27d04194671577c96ad0896286765b19e0931e43c466ce38ccbebd05b6092497,
  0x50796e0860fcb742740454350c6cb5c10f655269826879e38b26330c7482cffd,
  0x108bab7f6853f632adcd00ef4e337f2cc8cfc3b52cff76a56d40fd11f1eaed2,
  0x572aa23b937a60a03d607de10e8cd919569354e334225c84ae09eeb0ca1bd6c6,
  0x464a4bf06dd5298e7dc19d70e999f8c7566a283ab8128bd8e4cc2e882899b746,
  0x348355456e6f715c71ed74d45534927ee4de37634dfbfb60ac2681d71feaa5aa,
  0x70adad78199b7981cac608e016ac0408f1a75a5e87e6ded96eea2f10ea4ed4da,
  0x2a9853afca8d2cde7a29928038223f64be486fa35308fc844cb1376d2272c31a,
  0x6705ce08f58c63b87fc2af16b5a8310316d55c43f641689d1f7670b99f72b471,
  0x407d51b1c310549044ed8eb2bd685207b0024ae113a0d37bec66bfc463973a0b]

def cQ207 : List Nat := [
  0x3bbb53e0ac9bece02d54004cfb5f10ad2261bb1c001d7e30f2c079dae409e2e5,
  0x4314bf2ea6be1f7c2c8ede2dbd6e4fcb67cd0e77a4a0466b7af065b51421d2d7,
  0x2a2a22de39fa93c325ad5d50985c2afed4cb52a0c63782116fb9ba2df39fc435,
  0x88c40fab70149f70fbd514e756ec10cf9d16de456297136301eb532ac2b1d3f,
  0x19b0c219cd0242a49c2bf4be1a1a4e2641e0e4e7ee593cc212fca1e7c18b7547,
  0x44637e961c764d5581214534b8a7a993e0cb47c4ae3fd0c825704b04d6e71032,
  0x8c53fb4cfd4d2fd96a881876c96de0020c39b87e412dd0ecb334c65c7508ce4,
  0x3512f21fd91514e6077df564380de6ee770f482e7d3019a2ef6bd64ee071d8e3,
  0x68192cdc5e2a87fd0e81faaaf839394cb20cf387b85f127d9aa25157cb2a34a5,
  0x48d9cd1b0ab63e9fd85b4782ff5d1f4000b47a2382ad71f3e3b3782faa062c3f,
  0x5ce574249934fab2091841ec5f48cbccfe2971940cb12f5b723983ca02f56131,
  0x4b5282e049d0d8b3d220d077ee8ba208c5c0b84b3313bc73c18c2d4251e083ea,
  0x67252d45ca060c812977080182c100baf0f1d487decc659f26b57739ce4dfbce,
  0x462fa178b5625f2349ca25b0e8385f4d648f0c24b694b22c0c3333d462a508ec,
  0x600888d90d34511d29c66d42bfe9e8be58046518e8682cc59b5a0a6efbf525a6,
  0x66b547895ce3237ca40ce09fef08bc6a8e53bde0d9655dd0a1574f40b077ed21]

def cQ208 : List Nat := [
  0x2eea732d669d748d7589b25a82eee1f0add7aed08fc3048b2657ca20c3112eec,
  0x70e147622645e7db89efe8fb108d34cd98a1b296cb4835ae5ab5a097d894e0ef,
  0x570377baf870a8969ca9a36b2e2a101aee4960d335f741e29de1c3bcdeb450ff,
  0x2c43f87cc779e27677f830bd373a44dadcf9d5aff175b3d7a3616577ccd146b2,
  0x2b3e31188c061c61382b046ae70d0d9e674f3da6887504cc849d319de58a2dd4,
  0x2baad736c2adc69f51c83cbf3831309b03fdf30ea667584d5dea89892ebfb9d6,
  0x4f8132eccf3ee16f6702ac359b4dcf8fcbce18b6fa6fef87beb915f6b96a1822,
  0x713345cb1f011d92f190c018d67a8b68063e2f8810a12e970816e4c36ad332f7,
  0x723647b709af0d03e2ba9f3fc57e3e2bf18529deb37a815abba38bc46c75f18e,
  0x51157453c708951aa3b86d37140242e5b5a475312ed3ba2888ed2bcf66efb805,
  0x602bd5884b5210edf7b9df8d008af6053c494106be57d675256ecccf874a2554,
  0x13e45d76b3626c6cf8ae2eed966cc79390fac2417391923b159fd88b766b9759,
  0xa4f665361b7699dddcd9a667af67a622d884fa4d70a0a4162db28565d075a96,
  0x19c4c227e7ccebc092d902120a9dde862672010e3d267e1475052d17597ef7ae,
  0x3ab527691df347bf8c26457cfb9ce7323464ec3aea7bb1de3c2f3a6cd57b3134,
  0x1ab6088b195824b8689972cfe6c7aa34a787e61e7230f0fa4f6c53cf6d56ec9c]

def cQ209 : List Nat := [
  0x306866f8b87811c09e8fed711382f0921b999a5f44b1f75d2dd01801ef25cacb,
  0x539f846f96d1adce5005c2fbb498fc35090bdd94bc5e9c4cb7acb3787e207e14,
  0x32aa7f9e063584fa6094fdde878a91501a7e9ccf498d23ccb118d1b004a44120,
  0x5825d5f06ed2aaf0baa1356753d55661ce5a3e1a51c998a031d78ea1918a7c99,
  0x5d738f552c865d23b892ba0bfe8ca8ac954e961fff6b8421789f5e91e3e1684e,
  0x4ab166c3105fc912cad51c3540d6b794a63d4d16627a3056c9d34d8fcb6d90ca,
  0x665f566f9bcc8bbb235ed3e93831a2d363334906617dcac77385e415ea7a7da2,
  0xe7b7b3b0006ddd33e4e75e0339aebdd6a3fb4a1c6a204c07038ba02d8d8dbe0,
  0x538c98a02ae340e0db15af90eb890e7638ba0150488c79a83f38868a047d0ab8,
  0x2b2876388e4e78843d4f591267f4894723d969728ad996e3c4a2f3cc4551b8d3,
  0x5e66b561a72f6ab126c66264c7f724dbc96ac77fcdf9d366c3f0904a9bbad36f,
  0x653eaaec27f549cd2bb55a956c8cfcf09c3481fe15d80f09276f21b604a414e7,
  0x71e5aca8e8a58613346edada157b63e5baeff6882694e3cdef2639c2912de708,
  0x233f639a0277b48e4f754fc11d7da05d3fc675b807136f0e31de32466caf6294,
  0x6c52a784a7b7c7de2f82d825f15ae1a64ef1202c6f39cde891d32809a7a6e0b2,
  0x540ff897565d76b1e57cc4217cbd8694a440879653813e51f1a3ab4fdc290366]

def cQ210 : List Nat := [
  0x62245a8e0bb4874f57c2c66534f89186d2720aee0cc7db98b4a980fe498d2964,
  0x5c8c7d5f2416f750304eb5e66887fa96c5fdb281547368da410396471576559c,
  0x2a1257ab6e5886398826c90814f85476d1e6bb5b3c5aaae2fa1af4993a7a2684,
  0x19082363cab252af15bfc82c5c6fd792bc0d5de24180d37ff6c51e461cd05162,
  0x3c88a8ed19e968ed1647db0b1e00b6e9dada2b4ede7b0c7280b9c25ad4255554,
  0x3b3ca336fe53c5eb277bf171e0d27f24252b6ea0f464c2d83f1f46b55cb11046,
  0x269b61e300d2cd13a860a618cdb706f1115a4b68376fa5317e21e50235951f0b,
  0x5cde00b558e7cabc58003e1ae55b7e0ac8bdbd10b522bf47ee0056e41a7e0ec5,
  0x2739007861eb6db716940f85dfcb85b87fafff489215aaae816e904bfa67d19d,
  0xc01288554fbcd0cbdd0be7dbde1c8e06f2c40e0a9f98fab4f7b4bf39ce7186d,
  0x52876d27dcb846663f243a58e00801efb9f5c54c073a9fa7a9db3b7edc9c2d6f,
  0x4703332fff4345a31a1f3d2113e345d80ceb766665928f4faf5c0fb69b75eace,
  0x67e9f1b611bb69bd6a8ac7cec3f0ee2669ccf20bc5d6a5c86683e8c384cafad3,
  0x2a0057a27e872d2737e0d07cb3fa419a7d80f1ac92dd08b9c75e2ead2c6dbb40,
  0x2135decb6abf1ce47d94067af56b75d63a91e3292b7dece38b814214c5141e1d,
  0x6e2509c434edeac72518b6dc3f505e59a89a8a428a788704887badf1a574e2be]

def cQ211 : List Nat := [
  0x7fe9f68444d3674cee8f756a6da764241bb9c70f7cb9472dcab1ba301b60be6,
  0x164fc365711cdfc3b11d01e6de4eea83b60facf84aa19b666d1c96fb93b9e6ed,
  0x15d23c35e28a7ef8b3f99ef42fc090246531f3355ca48a0dc90a503aff46bb84,
  0x364758446cab48d8b6a4ec578d067ae083c8a680ebf5234e76f062ad9fb8b469,
  0x45358dadd3d4dc5efd2e9793373bef1981665bbd7bd870f737a1103209d5373a,
  0x54ba1ec42311572455ef8d3b7dd92321d81be5dd930a722b8b026cb278a7cd2f,
  0x500c1b527ae81264121e53e95c70491b23e4f964a5ea56eae9d6ba69f0657bbc,
  0x1beb3ffa1da42888dbc724e845593e8104933dbda0af0b5b045fbd50f5711957,
  0x37804db9cf399f7098e0017b8ff445426230a63b3aa5f9d2c50772196a0a7ea0,
  0x7221b438d34fa71acedf1bdd4942cddbf0cce8cbc6ea745a8af8f0f0be44a9c1,
  0x19fcb3356fac07566ab460e8e748071ef4e33e2a515b7b90960b437f633eee36,
  0x321cb1fcd6be6753297014a0fae6387960937c678c7776571791df1bd1b881af,
  0x300cb868e8f51fd3af3f95004379fc26b900581cc77e2f90bba4cea5689d1ee,
  0x25da059f449e19574bb790b913c7bb27f6e04a0cc5859256ab87d82b6aba4bc8,
  0x59118b8aa12c03bae0520b41eecabd8279b07ee9a64dcfbac4b0798d99447d60,
  0x2f57be87cb221a705443df3ea80ee41064c17dc5c8fb915882934159142a915d]

def cQ212 : List Nat := [
  0x70ce84da7e327713ef3185ae1f2609ba2dd83956175f05adc6df97cebd7d7d65,
  0x521b40d4ca3acc5eec2fbed8324ce639328915741a13363782af4347c2b21b66,
  0x4220568c54a76a6817ba95f01a70961df201ca4aa5554f1e08e948f7e8ef9b66,
  0x3aedae5c7a6bca79ea619e3a4184a721ed3cafc1d420dba194397f67f9e3f2d8,
  0x559f3c18240996e399a1ca99f2046af28d81309bef1e304d56bb32571f6e1deb,
  0x47f0a01c71b9b8a11e86cc5d48a06d7ee4757487dfe91c8917d2a71767f66e81,
  0x5d51427497247392033b64ccb1728fe0ecbe9dcb752614413d2391700da96107,
  0x34f38340719d5186a027f4a8a7c3c1e8315bbeb0e8466a9bbe56030ada877541,
  0x56d107a42a10b99c1925d7114730b42f2633cc7fe20908ec5a6f63aadb43904f,
  0x55b91dee746cedf09387c5de1ba79376633f807c53ffa693ba40b8adfcdaa596,
  0xb8332e081b543f6854ab93bb2bc0d1a21f842b0e95093ba9e31c1e3b6ff4ede,
  0x6f2e553c6fc4a01a7e717f5af20fd3f50dc559c5d2c17ba1fcd751e8155a6d8,
  0x1a482e9d2bbe5547b55ba6792d8a38c38e90838d770c5def5c8e48343af96cc9,
  0x67c8c94ce0168678d9f3424e5f47279369e8f78908169fae011646a40562c86b,
  0xcb900b466961a490bfe60e6c81e39835ac0e71d2ee15c578b1ce0a459248fd5,
  0x5f0515e74456ead9dab9d3c0f94c7e2e2e42762c9a4e61d5db956be5c6a4ccd0]

def cQ213 : List Nat := [
  0x1b12ac00dca8f104e07c23ab9261556730b56f6fe1eb85664da530db9a58c222,
  0x3aab369e9d980372f1a2c1d2bda5e9a1ee4c15a1996fbfae7d915e7b90202a06,
  0x1abbbd98502916fd23677081282d67e18341135d150d2ac6ddf9df87c4a30587,
  0x400ecf6af286b3410bc7507570bd7c6c8d5ce7d9cef0847d596643a09f3d4db5,
  0x37cc39ef043ba9fc44c8c3012f160a1c55f4bb1e5bd794af7fdc45a9fecaea11,
  0x5075514c25167a95eb1f59e4acbe5f04a58c3f0366db15b4bd23b521711e2dae,
  0x5ea06842954ad218fade40de8168f4b65872a63e78fa454e1a01695b6e99f0dc,
  0x323509cfc6d870ac83c11206c58fa6afb5fbe15b7089656588ae39a1f286334e,
  0x2e5ec2b7f7a621e4177f4f74c4742db4fd354a89699be1256bc35609318e1fce,
  0x26b3f9a85344e1070eb4d26ca6e7b9849243de77bedffe57882e6ab2cc6bf1d,
  0x3c11637d95d667f88fadaf4eac530c78b9bf779b6dd81fef4be8080ce2595de6,
  0x2639aa11444f278310c1044a66a58a549617bea7991c3721b3ec2d442f8b186,
  0x5ff26168324b54cece07d0a28f5ec9026a840e306fc2742f63703976e94683f3,
  0x265f3f52ba4ea75efe74f8ed6089f989a319c4b77d1fe14cda7328468400ddf2,
  0x5ae7091020fdb9bca1e707b9c91079af26444b87a2e9533795b32764eef3edb3,
  0x3388b548e686166a63fb926248002e6a396d243accc16784adfa870a26dc26cd]

def cQ214 : List Nat := [
  0x3bb99325e455abc5d747a45cf3cb20e0a4622fb77344050896f176971bf1d36b,
  0x4a10cac0572ea0c00b701e83091d69204ed4b2e862f408737814e3b82669dfc8,
  0x72a09855a81e2b9290e9ff31c7015f39db509ec2812138e241d0a8d3287b5217,
  0x58e2225bf83b68aaf506159a6ec6ccec79f2693c82a0c1371c1426ea5a34569,
  0x466dc19513c31c86e79b9a3d4b021b8c6701eab7a5323a18ec8f1abd092a2e84,
  0x11b6e6dbe3ce5c25767b5d6a2657004a325f6c5b05b8835bb81f2e8d4fe9e85c,
  0x791b3294c7dcf1779d0b928e84c1b4934fcd3b464a79e064eb67db5faaa77cb,
  0x62fc568ac15c02c45c986403d79fc7a08b31c52e5893da65d5f0950ed92aa1ff,
  0x6c44aeb4b9c00cadbe99b835cfb21095ccaaa834d623ce9c946215ca450baf8a,
  0x526ad72ebd71c7f38adf99765bcba9d55d6263e9e6b0904a1dde2a7734cc8e7b,
  0x5b13c7134c0ed97ddac17fb3e57302c694c8d8434bfd700d1180c66462f1df8b,
  0x616fa21c7f4090be741dddb761cc02682b3823ec7b5b79829d4aa0883120fb37,
  0x64231c3e98c8ad9cc2d2574e659bbc05897515bb987f0529734a1300fe3a613a,
  0xca15b1465295e036de59da8eb4e7f311c6182487a2352030c4cad459e00f37c,
  0x417e257aee4e02e2152ab3d00875cbd6b1d3c393b4777bf57165fd3c45a8f690,
  0x8924926c52dfadfde1445b67b549dab7f0167e1c4765551695756d690908248]

def cQ215 : List Nat := [
  0x1c3b080df52d5cb6eedc31adc5e4ecd02c38f3163684382b152462e9221a05ee,
  0x2ac45b0646165137c55a9f8811b01daad51b70999eb90a6ea9bbf2f231fd4397,
  0x3e38486e849cf2aa1e816ce281449088fd59a57572f36258f99e92347f0dfdab,
  0x6d963f1d856faa5816819c98015f68e94a824b76a91ae5b85cfea73c09472bca,
  0x320ba5ca009a8f8dbef93557898fe76ecb608b7f13b82bee3d8827cedd9d1983,
  0x14332138abf8d43c08eea25285a963fa06a370b37a8288c0eb17eebb4536bd29,
  0x5718f84704032bf0ba3d477ebbfc5672cd4473e4ea23bd72a29addcd5521a3be,
  0xf608df620cb82715702b7076f935d6d4a348c143408a77c7a8dcd1bfff61fe4,
  0x63260897847038083bc72f15f364e93e051005170bea21a9a78bbe2ef181bcb8,
  0xfeaeaccb1cb3fdc6b1e277d11ed8fc0894c2007835a59adcd55e64a8380384c,
  0x405c28938884b0cc1dfd930d74044e26391e166e37e14c78d2bccfd5404413c6,
  0x10d9125580bb7d16e2cc96ecf098187e3cf38ee30b1311410e20d33f15692644,
  0x50d44151fae5360e00fa310f04cb5de84e928c5749e003780d1da9c99680c3fb,
  0x364a66e468701f8df6beeccfd4a5b272ef5836d235fb47d9577b440d42b53a21,
  0x3e47ed8c28e38b8d3dff5ee8b6d96194f8d963d90b09502c487cf33d60823a2b,
  0x5452faced6c5278cc89ed0ffc763c55451b9bf266520131a8d2a716820f2aa45]

def cQ216 : List Nat := [
  0x2d7eea8856eff0c1084dc8c917f3c2f8e256c938deec5ed6bd6523ded215644d,
  0x6dfd8323da2e6750c1c1fca6a72eaa4866b1e1dfef9f85dfb3da12fd9cd8359b,
  0x525ec9f62a836479cdb05ceee539a960de6fa5d95baac8c93d994c3d0c5e7fee,
  0x17a03c42348c43f333b527e804c366fba490ce6da5a3179af1dfba04d57931bd,
  0x44f24c301774e086d764d7ec9681f85af6e1c7c8fa5ec4a19083cbdb5347820c,
  0x31b8d0d37adb3ac171c2e0443426ff67c441fec9803cd63c402347279730d649,
  0x70546e5022944871059c82e6988edda1f5214e4067c1558e8ec0d5453c6dbead,
  0x42a7f799e0c53b4f4dca53d34e3e2ea4859e45c10ed56d42f67eee68173e87d4,
  0x475fe75be9295f4af9ad79a89167487311d8fa8ac1b912d8e30a87229c2c2813,
  0x3a0e9ff2bb6f1d2e7b4367e1bdce3336ccd83573a3b8a0bce24156af82aa3206,
  0xcaf0a4fb582e133b09f4cb881d6fc5243b7a7d3c720d281d9c9edc7f2b0f7fb,
  0x4215db71bf1321cc697548fd3ab253a6e65acc6e840c849a4deeb2b8a70d4dfd,
  0x5028acbbb0a085845728cfe17635ca999db4ef61945368e4dbfac872b181bf95,
  0x516257bcd39bb0919faa937bf62cc8eb7803b84e149edebc2a04356c49958bf3,
  0x47fbcd4ce5b03a8450c2189b3d542cb04efa19019ea40adaf7d842803dc3647f,
  0x75f5e3db261c31bd23d19ca46d0f81efd07008476204605c78bba171e976841]

def cQ217 : List Nat := [
  0x5b05cf487606d8adeedcffbadab02ac82ef83e25be7aaac54f82e3834226458a,
  0xa473d7fc36c89475c0b6fc36806e465b055cea4846324e241e0bcaf3c42608f,
  0x6e2b4cab0e9683c2f6a0df9b13476fe569a9af09b027b225eb8c656d45b79ad,
  0x5bd1545c232496118fef06a68dc67a8fbc31e77289e023e2a21f40f4383190ca,
  0xab055ffb6a0c42be0b290bc18f53c07815d592feab6a45d6d50c3a4bcc3f0aa,
  0x6490a9a9fd19eb3059941f239e627b754c53adb8b220fd76b357d1551f2372c7,
  0xc8f1d0218cc78f4314aaa57d0d8b75ba5acca90c85b08faf4337f7ab0c222d8,
  0x5988d2f9dfcccaba9ea74b2850a4de359738e26878497fd3bacca34e61115075,
  0x43e01caf9a45cd295780d8acf69160ac95a107df22b78eb5073627e7d95f8a97,
  0x55b2ed24e4b57f1ff9c11aadbff655049b42a7bab8d7f82cacf5d906a4a44474,
  0x25a0666ac37f799ae61a31667001ef721ad2aeefd774a50fd3b946de16f575ee,
  0x16e90012e2e6fb1a57a9531dd3c11e7b8deb599221aef744768bd061c3e2f6a9,
  0xa233b9f797e3ba14bea1db7c6994db0d14fcf123cc9adcdf0fe9d1582153a30,
  0x2d09b300a77641998e15f92479bcd6dfe627ccb53cc2904379a23d417dedfdbe,
  0x3a1e32191d308a777618dd9c867bf0a5df4879cc394795004bfdb48cda3c5f62,
  0x26ce8a81dc28a5bf6624d91f2b7a081d054b4dedd92ccc2489ded52163c163e3]

def cQ218 : List Nat := [
  0x3ae186b4895ca914bfc4139d72fe10ae242cd5b60c51708f8e4396443a6dd16e,
  0xc25877cb99ea9610c7761fe61b88e3e9e9f1bfac125e04251ca544cad5abf8c,
  0x1882585682c0b1b628458010620aa839e62c3ec79fd088f20117175aa6d1ad6c,
  0x4aacb31340faa16e81195a3af4c63a39bfed2a6bb74946c4921f5349d70d08ff,
  0x6dd6434bd7c95e35b60583c0da82670d7cb95cf9c92044534ede91c3e34e2b5b,
  0x704934fef76890401eb2a458de5cf2ffb7caadd6784a9abdd2302bf3f789c810,
  0x3228902082235e757071d9b843ba29d1012306ee58222a3e291c751e5cdf9cad,
  0x36b3db697ddcc41e295846aff36d6dd6faeb438d9682e00f8815eaa20a2c0ab9,
  0x563d624a8c0d4c41d7319c3a0683468119e2cea2c08f0aef547bc7ac38158f95,
  0x30bcb4a5a8c44c293c543ae11480d9c6908f264fa70a7b6179e604344da23992,
  0x84e04a2127b49e1d192f055a05663b77a661f00ba35b58bb8bba8b3e559e70e,
  0x6118b11384594332be8f625751d4323e3c4006870134a072a57b10521c1fd46f,
  0x1672beda247f39d932564b4fc546fe98630ba4f603502079f020501df7aa82f,
  0x49a73b29aa1e68a52a8d61d2811a8e350049910f9a0702158bd64a784554d8c5,
  0x4a9c05f1e81d9725bd213d44d15b02e0602c49aadb3609bb6df1aaa3b418bef7,
  0x5bf201b29355e594144fa3d78bc73ab97e311893b5db248108fa9e3fe8e2f4d4]

def cQ219 : List Nat := [
  0x18176e6c1135e9d56038fe3bf681ffe8f23c430d926fa1586bb512a606733656,
  0x5a232099970ac9e6b294b7f426e75cc920b06544fcaad33f04ffcdcb140f883a,
  0x69a275f8f058d315c4b0f4ec7c02afbfb7e4d54727e9f8f14d407588b77450c3,
  0x30104a885aba9215c6997cb36af793eadc2bd8822a1c11b68a45e9829de211b8,
  0x5e5dd66f8c5cca1c2f87ec6f9dc8ffc48e8764fc4f489556e696ff5a6b81becb,
  0x2bee3814ac23dcbcee0321c7d203631a52d59d605fbd978210412872b64571c7,
  0x60dfece5d0ab6b9223cca139c38a6f488bdcc8170c474956516de2186f9a8d3e,
  0x11a2e9f74185e0e7e8667899b41e670f34a4510312dcf0e97ec3e58839e8063,
  0x4b640312f0c78d59de6436f08677d1a545b52f67a056b986f2fb8d21c8e74154,
  0x181ef60f06e1055b477c07fd9445364a07a71256b35383c63114d1deca49c493,
  0x69a276a69c426088a26130d55ad9c9b7de1221029bc4b3910cc29e143bc6bf99,
  0x2713919182322d5cb342fb635e536addfa326668cac8ddd25922770f001e3e7c,
  0x40061383cd52a43fc9bfe76a084cc94fc6fd6386a2103cebd394661573b37ef1,
  0x39a53d28e87a4b599f7232c7f0f214b284e6ce04713dfc73c6a7a1fb52f3cc43,
  0x1de3ac84caf6bc1fd423fc0026bb170b3f4c03fdf7b569bffaa080c584fdf686,
  0x4963c8f654b3671d6d8d9cd8e85d08bb79adbdcc93be21bd97e6aa6d72e15137]

def cQ220 : List Nat := [
  0x321b96fa6b0229636b8d7a99a33d37efceb5ad64febc0278f5b8c4a70d3da43,
  0x232f503e9447eb89d59ac2355e490bfb72048db863ed1d0cbd4124c34052aede,
  0x1799cc7beed883f720d8a3ca2f7a2cc8ca9eb0ad1455153ebcc06a5ea4a2e99c,
  0x2f7abf9a55ac8861bfa51fadcaf954a3ac97210a7b70eeb3ddc63e2fb3784653,
  0x147af53f401f96df0b386d2b1713efc35bae96728b1917fbcfec8bc06db3a216,
  0x66ba6a6ce737578b79c7044fc7490756e51fe81e3efc7637695aa8c9518b642,
  0x5c6d37efab7c93612be9ab0f1ae5eaf421ce725e727df973d941ee25e55fa93f,
  0x4f58f5b27f480d38b6cf00219994357ef3ac56f0faac664316f0883d23dd64ca,
  0x34f42c90da686ace3b779df60bfa370046036965b55caf2bfbf2f61a41deafc1,
  0x1878d38b8a3fb9fa42e468b328464c29965ffad6e9223680ff1cfe73effd641b,
  0xa7a0aa69e16640199957efc81039fe6767351d5f889ed2a6703960e80af43b8,
  0x4aa433f47be36bfe303632c29053e93c9ad76700b4196b7863d06ae56a302a3b,
  0x5a3a91b6b2bb96964f867d30b70b1d8e147374765d6812c9dfdfc5fb9d286e38,
  0x4d6998189cdc3534ea25d7d0e3bd73054c7d32ebc396602ed105c4179b4508e8,
  0x63a9ed22dd42a8e71e0d66da9d776a9eb1705aa2e04593a85c4809b7b2e64e82,
  0x6c8133e08622f1d2d87852e9330c1ddb05a4f18e9efd00ca6d46c8540c422a1d]

def cQ221 : List Nat := [
  0x1680293d29d95f0b7fddc29b6d7094dee3cfbd76e7f4d21a6f13bf616d6865b5,
  0x5759840a4e149474e6a7bba92c159238107069e0b097a7f57c3c1448771d891f,
  0x3e61d525b13d84372088c0a06d636f7754a2f811a5f48e4ddb7cb2d900e2cc83,
  0x47b3dd1eec3bd873694b2fc76018d607e0dc7e4e28f7c9d8e6dbc20b5af95030,
  0x3cb3b9c279a0f8f2c6a1ee216ccfbf04877a2d06b54bc537cf58d5e6e82682dc,
  0x1f823f74c2af291ac5899c46174c723cbbf23408dde8a216c764757bafea3d31,
  0x3293a856e3e843f8312dae79ca976d4a484c2764ab298776ef42999f80147760,
  0x1fadfd4a3f0f946e557cf3530727dde241a384b020fd8c8e8776027e005aae23,
  0x69eaf035ed898f38b34a25ac38240853721c20ca32795de56783a9325256f7eb,
  0x63a08d2b215255b3d4338fbd19d803b673800cc2f664193a7c85ea9b4d631160,
  0x5d083f700faf5d72323e954aab5d1a600903d953218773e2d85a4104978497d3,
  0x59f1af78661b0e774ac24520d23a68356ccfffd214ce8e97bb8e68249f4bb7ab,
  0x173b33b6bbd99258c2dce04a85494fbdf658ae92e183b9c732aaf4442f778b6a,
  0x133e2d8e9ba15b5ba49b0c8aae685e4d2950d7f31db1463c8d7d77a5ce4ed415,
  0x6441270e1167dce61e9bc5fab12e8714c20f4b7b9c729d492ab96e786d33f0a6,
  0x3b5160524911b012ee8f3ba6b4e5eb3030679492cbcb484f43776a937f3745ad]

def cQ222 : List Nat := [
  0x22901c8cbcf9e6d9b58969bbed986914e63629cde16b57681beb830a58de2296,
  0x2849247bca7525dac1e71f62a126002b917f8bb454ead419aae6a960dddbd1fa,
  0x629989483a274843a7731f809f48c1a12fcc8bfa84d42a7c0c8a85371c1dce1d,
  0x3bef5a179691e25695c2f1a714b31619c72a2e9dd3f0ade1da000415452ff776,
  0x36eaa3c21f7df1ad680002854815b2fa9fbe4a3c5600a4b444af437bde86d31b,
  0x23d21228a5a906319780a128b4045ba5db4315c690b5f03c4164df6504781ca1,
  0x5f6d5b6a206d8aeed0662a9f0022b933efc7254877394cb793c39b3e676cfc3d,
  0x46be81f46fcfcb4acd271aa5fc6a1802dc26ac1086af58d6b420fdc8a2c32ae8,
  0x25bd10ce9c18ca67b115fce294840103f3dd2246f32c9c290ab3fb7b95dda57d,
  0x660607b418403a293a494b9a328d27d431e2393666cbb19e9dc5ff6b52eb5d2d,
  0x69ff5b28fe6dbbc5a431d59879e75161bfa5559913edfc9c0dec6e8c0cd7f7a7,
  0x6f089d2ccbb9f104bc21f1b32150cca6f58ac42fbe348357caf88bb44456a212,
  0x148aed6e1cfbde2cf9cd108ae6829aa2ef651fc8b7233db6b5e3280d02555483,
  0x6a1b071567ec55f72ca253267561803cadd68b011ae8f6a9366a301a5fa87821,
  0x288fb9451941413188789bd6da738f8d6256e91bac869b17b81d8937ea73294d,
  0x62c5eca5a291eaa41a619ec41d5df5b5511c8b67e9c6650e2f64dfd7dfde6bd4]

def cQ223 : List Nat := [
  0x3515cec0362b8a3d6cfb9dfd95cd27978a440da5a13630afd3a56cdc0152cd1a,
  0x3c65ecfac15db3d5bb8e021963c3bf88f204eab2c69b2e8196c78b0ebe76701f,
  0x2cce6ab89398c55791e5e5ca361714224ff023f7741fc987a622e50124fb2a5,
  0x434a6dc5849bc4a15a18844058e1652d92ef4008029594f19431362271775fa4,
  0x293ddc9fabf244501c5df58adf19d072c65af16013ad89b1b9651f562238bb6a,
  0xcf1d92422202968a7fe270e567ab6ba412f22f49698a976399caed0dfd15a71,
  0x319c7e446edb8cd5009cd2474a2529609f1c8be6d7ddade1dcad9ed10664e6c1,
  0x34fad6382e4b9999f92c3976121b90fb973b24c26d6205e89b8dbec2a8868764,
  0x56a68277819a942d05135001439a1886e969be9f516d8ee451802548557c4dcf,
  0x1b00a7a8c088d663e285c832c2ddf1c2030d8eed82f47d97503536978ed194ef,
  0x11dee049372afcb44935736f729d00c4d4b555353d9b3322fc2ff09e124dc636,
  0x3994c920c87c7b35c98bf59185fbc3eaa9e6835001e7fcd744d1c77d616e7dc2,
  0x1dabcebb89a76c51dbaf77436ef4b7d7c4ec3e2c6c9229ff33113de8cfbd5211,
  0x13ee640719af4d5fc93ee2c56d68e17edf6c43b31f3ffcf226540fdda906e873,
  0x5ea7d3d140669ea082ec5ea411a0152685119e63daf85b2f2520ef9ab01ca920,
  0x31f0c0cd84d99c978796ceef829ca89b229a6e1c569d40ec873a9d945a713562]

def cQ224 : List Nat := [
  0x4a16d4e87b3689642e14b2cb550ec9894854c2d682008eeae1ae7c2403d9d328,
  0x3be673080449d4b597b845fad21bda7b91d367fbb0cf3299d3844b9b9ac04d34,
  0x2075937651668e563bd67d8ff51685ffd35852fde5fb333c5ce16df184881aff,
  0x3eca45535e9fc87ae3ebf770c1da6f92e8ef28b5140356703cd76249864f8659,
  0x59b6e9008534d9768b44464163606d3b7b0bf20f3b712e3803edce4152241fb3,
  0x34a9c159389edbf4baf94c9e6c5aee8178f530dfa0d6c8f96c2728cc7edfcc8d,
  0x42adca1e7847741580c862ed10cccea8c45ce8ec52da1d7f958d7bc7a553eab,
  0x4005580168e89bb9dcbab9f4e98c3cc3eb7459cc422ebad64193b57b254ff60a,
  0x336b1f5cc518aad8335abe22767f1d9502026be21bd2c7627bc5ef0411c7449e,
  0x5a9a0e3c42215c7e720f26d719f335325cc6e2c63d5aca786f3cea6902fe164e,
  0x2dcd6a1275923363d4de2fd92e5d6457cea66e6ea0cc68300aca87f26d343c42,
  0x439581a5fc90e329a4a6593271875dc299f8d33bf2fe28e48b98d73311892b61,
  0x5e6fb68f5006ff9e59b33cd42aed2dac7aa0d5321e01d8d9578aa67cb922fe2d,
  0x5c38ffec3d39c6f2fa3dd29fa445516a2b5bfe94acf26ac486f84f0b0a1be21d,
  0x61ab98d6218dbd2422d2d1113b3c90c1f826808695bfb068d31b47eeaae8ee13,
  0x3d18cc4e9afb644efa22d979d394f3e8de774f4a8ed1665f53cf3c010c61e00e]

def cQ225 : List Nat := [
  0x4e25955a5251b7ef6f093903cead160ceb96cc696eb1bf6d12c1071bb51110f5,
  0x25270d9e44f90c38154c687b88ad797288b1060d621b299efb30fcac55146656,
  0x59d675dac0ed0002ab2d4dd66b68cc8d4f4e8f1a83516789bb6d86becd49724e,
  0x42b31bd26facd24830e1ccb91111eb1b0d85187ec7c13a63205b0258deb9c247,
  0x356f2eebd7175251a5283e25c752b2d7ed049b974c4ef50b88c1113c42097321,
  0x198ccdbfcf624b59592c6d66b1bcf16f820032ec3085360fce1da7278d35dfda,
  0x5a87edb5b7a4a44faae756bf144116e6495dc45cc36024c334768a35ddb9a379,
  0x3fa9f9891a22e4224eb25acbb3897493774c3c1972b46d80d324b111c4b5760c,
  0xa1f7a49bed6d1b1999955f8bc3d30da44c693b7b24cd9f1c9378f486cab1645,
  0x1f94ec2690106368b5b0cccacfea7e45ee142ffb23f1850a546f385e5da5880b,
  0x20d54a27dc4321e5fea88aaf609b562e6a2e9281bd8a9f5f18ac7bd7f01b7ece,
  0x473b4f66c67bbf98b966422c4b16242b9123139f6ff530581133cc528bcc39ce,
  0x117c7f7496bc9806dafb4f78c4f8f9626b8a24ca95f2dacee1368fe7fd2e4bce,
  0x2b9df29193c24bc98712bea1dd778fc9baf7bd44c7b10114598a88aaa2762700,
  0x59e0fbeba65683115ce5557269f9dbd1026988ece772cab5c0c02a17a358cd08,
  0x5b7d6177c3c1d0282a99aa8ba4e5e705cf1bc4d0592c1c5496fc7363c4592118]

def cQ226 : List Nat := [
  0x3badbbf1ad9ab1e7f45d9e98de8a3366c35b6fe8beeee6dd2fb73d77235e610c,
  0x576a494fcb25662e2de857788f389193e69e5b2630a4eab01588473fc4e72bb7,
  0x398433eda9da9ee893191937f0cafc43e88bc03ebde0972615029da8d408b5ca,
  0x717a0dd7c07359f59c9c0fa70d8f2194b092b48df6912c4028f612f711bdd392,
  0x65e2d53cf3c84ffa506f3d6089714d91655c608469390f3f747a8545abc59d8f,
  0x1cb3d7c125c8e6b2371247cc02474a3bd1a7a2662f1a82ac359b6f48623abc4b,
  0x489acfdd5578be98361a483a69a1d4183ba9c0097574b3643f1ab2f54680cdf3,
  0x2ea681e8168cafc3971961a84853e23723b810e4ab506b55a9f86955da73c07b,
  0x2b5e14f87f09a3f81aac5cc1110e4ed24bc860bc5423046afc8cc44368759317,
  0x57d718b904fe2aeddb65288cbdc121e20aa69568c1a8389acb743e875d516739,
  0x64160e2d4ee2467c253d1f94c780d9fa893868642de2b1ed996ccebe3b4896bb,
  0x1dc772f739a0e6b2a2c56b3676982771b220797a4bf583b28e2b6201cda32891,
  0x2364624e5cfe5451455bccd690a308fd77b70f8734a066e38dcec4cdd703482,
  0x4ed30fb335d688b2b889b26660e2842674cf52244377df1293236fe2ba557a7e,
  0x31bb34c0de8c31b389e482cceb5a122787313eb826507ec9d6ae4e55718a4589,
  0x5cd448e087880037056c7778df2031ff9c7d4322a2bba3847f1f41bb7833c529]

def cQ227 : List Nat := [
  0x4ddda182476ff7fcd146b7ca28ba38ed33000439816eb6d8aca0140cb31c4d9,
  0x65460e8e2b307feb12c078f5eb49c953324854e7e64cc4e9625fade5d31571ab,
  0x7da27636c818f2411ab081ff09795e6c70702132d01c575ed4c5e438fbd7552,
  0x2542d8d1f43f6a8ed95fde30f5462d4ae083b477c17c13325c6630a246332a7e,
  0x5e158b6290a47a7a935339ea98863511211fd377139f6ec2fbca8f9662f7bb6e,
  0x2b04a96d9c329d6104b86cd3de34aabea51004afa4eb427771baef419464e8b3,
  0x23d8f1a9c8ce15fba2c45c8de165531f3a2db6a5646a431f59c1142cfd09510c,
  0x226bfd4ee2ffe07794f73951f47fc9ca0f61473d21f26529803d61e5d999315c,
  0x57312ac3a2dadb3a37689c5986bae01d6f8b5214fc0a5e7aad5be81f6a853fcd,
  0x718dcfd25e1d373c3a64c2d030a1d19f7e3115b87366b79633864f4788c214e7,
  0x1d61078839aa4c94fc10afd5ccefea6fd3afe0f1b779ebd8f5c2d574206c3bad,
  0x171cd6babbe9a7d9be6c8207c52e486cd568b9b8da922b0481830e2ab1595790,
  0x47eeb25c93c11c0ff4dc8e1f2412e5522ebdf9ac0e992a8ac9e020d99280fdb0,
  0x7807c6774403f242b4371471060d5f661eae47db1c31b5c6a959491e3b63ddf,
  0x426d6f0f41486ae871f644d3e3fcd834ac3b329156a00dbbca73d9c43a32c865,
  0x490c7ca5b35cd8d02fe1f8ae6bcba5e2b1c04bfafa2121315bcd33dec5f93e64]

def cQ228 : List Nat := [
  0xfb22e529919254c90959c554b5fac458a38ae72f1eb4d885bbb234470abb91,
  0x38920762e80c23b306904d1d227ad9c585819e43c01b14431df2578374eea8a7,
  0x2d533a33e465cba87e72f81b188f68390aaff7bf9c4e693659fdc583f02bb3c6,
  0x6e9dcdecda9c1ac359c8766162e3a63d206d3dff6f48fba37f5a208718df2b8d,
  0xe9f72526960678c454d4841f7a647d4a01438c43aa2baa21458a307ae29a1ba,
  0x1eda2af509196e2134ef2cb820a118443df4f7e218b5c18915e3dfbfd1dc0b53,
  0x4fe1eb45aaf4fd14a39eb49e886acc3534418e493aa9c1d77a1b5d2f6d232461,
  0x496555be918a68e75944f73f3d29412c79b0f7c245f4266915422b035a907e0d,
  0x3190feaa4a714e0347ec3d8ab97385f5b988eb087f425096785073ddac05d206,
  0x4b1eb15fdb495d2b799c89bf3e2324a9e4f76f0d82ffad8b2e0d080b7d78cfbd,
  0x71c8162192bf077e3be1b272148d0f68341ad8db95250f7083f7df301affce1f,
  0x3e11549a6a5326fbce3bd0c89096d8fccce722ccd07e5757623c3eabb9f4b4d3,
  0x2fd6dfda9cd447341c352fe41d4192a0b339ffdfd28e631b2df8559398cf28ca,
  0x64839a3ec9766ffef7ec0679589ef32bfdc446a9372c4b461d53f75d070bb9dd,
  0x12a34c1a892dd722fc6de418add2c6e81bb2122927a0e5a9a133253da24d3e54,
  0x65b3cd9614726e34b8b6298958261831a14890de775adfba095f3d57e9a6eae3]

def cQ229 : List Nat := [
  0x266bca316d62eede5f9da19b324728cfe5d1bf27d626f702b9296060da93d59c,
  0x46da10d46745847f119449cf6a16be13a670b152aeb26e3413ead5676d13235,
  0x3ff9910adda59358493dfce570943d2177c58725809edcf1d9f7f5349d1b7c9a,
  0x26d3a16d91c82b9af299fd16391278dc8615f89c584047519d3c33dc77ebb4de,
  0x6120a805940e9e8a6746f98ba2742ba6f421f34d19118091d51505fb53e9eb66,
  0x24707a2ef2bf44801a3c196c99ac3240872374d8c64ed272cdca76ff99fa496a,
  0x14ad2d5e7f77b7d7d405ed6b53e75ae911e67fb2cf210869f32d0f45a5dcbcbf,
  0x6e4d864109a92299748fbacd3c4fe79222b093949e42921c8129c7fa4b8cc27c,
  0x4192780888ae845a0ddf34d902bdc57c73f8e82762bafebba6f7c43a9d75abb8,
  0x6997e3bc22f5828273614db4b32f1b6213f5055e93df0df880ae565dd25cd727,
  0x2f05349d55dd87f5a4f3b8899a90f3a3d5920427d6b50fbb41c5624806aed943,
  0x53354d663fc7624dce5dba7aa2b4aa2c5e841976ad94a9eee785878e8b1cd505,
  0x58222328b88bdd253df76fdc119eed8d858bc08d74bf9b98a626413c1ea7ebb9,
  0x257ce5b18c7c7eb0fa3adff3460b8a326b13cbbb34f9952e95e5242746c49a1b,
  0x609c6af6e165cf30c04a51dc5c22d101dde14eef9448e2d12de35d5d754db7bc,
  0xd883ee454ae6a0e85b413c7849b87bab71d170d0b87ca867364acc59f476fa]

def cQ230 : List Nat := [
  0xfd8f57c5d7c8e5ead236be1288e655e9dfad6f896dbcae91528d1a2c473fe1a,
  0x4739b1f71bca373074edb82c9246a60f913fdca4c03d7647f298fec8214736f6,
  0x3047de63977d59e2ce6502420a50a76fa8b5078a0fad8cc6cd5c4f483cb5defe,
  0x1d12e249e3abd66634d2e1ea945fc950b12bf44edbe17416cd669b4fd39ecc77,
  0x9a36f006f80740152aa9f465f4c7bd7f4e405c00739f254d6b394a1f205e780,
  0x64b5dabc2d4b79d03027694525dcda6c18a68fb7b3a43f01426b78e0764a84f2,
  0x140457536cbaa10e4312dec747441cebba7c56007b137aef680f6a936ca94fc4,
  0xf03a1f16a4414e362e3bdb18c817989e853135cd6398f03a13007e80f9cee1e,
  0x44ebe40eabc5c4263360cac0b64f20268797f10b4491bc377896747ed18d6268,
  0x717f2647f76aa00ae91c24e9f2efa7c060d8ad30dbb6b09132c7284f246b779d,
  0x4498f1398cfcd3f94209f18954ad96bab14231a9b228f44c9bded8ee721f8f4e,
  0x50298869e7333a51ca4b15e2135c62b63886b75ede4e6a046ed6161c78649813,
  0x731e3855509038c228cac1fd07545a3c1ce5db8cd1837582890a4745cedb560e,
  0x3dbf26b34db4d579a9a5d3df4950184035a413962ed53c2004249654d28a2c8a,
  0x6f51a467bb18c9ad86deac3214a7c8fc796987b35d34dc5d4882be5a4ae68780,
  0xe4c0b58680e519f0f7400c32baa854210a80a9ca90f172f8e9e5e01204a4e45]

def cQ231 : List Nat := [
  0x43768dba1ad8f90788adb838f54843d635b8f45f0761afd8b54ab4c211d61771,
  0x329bc01c473d8b7a5a04b41690a1ed67936cbba3d258f20422b361893d49e372,
  0xcae378b3b0f9f361c9506ed3a89ef9bd1fe16e7033797ddf467c7a1f92d80b1,
  0x6a32f6c5d4151654f3c6df8ad65ebf9a20eadc0589af7db27288a1d939bbec64,
  0x6fbb971d1087177fc1b57faa917be697cde9269ceff1d2c461ae92466ef52a4d,
  0x1153e067e3a5cecc44a2d9ca3acf7ff9f73fd46f8583a532b6299e4a19879bcb,
  0x6ddad20ddd4a207b10cd7f200cdbd4dfb37ef7a6e6bc7acadcb331ceee4e0b74,
  0x64a7c3d53ab7b3b0e3f598d6aa94c26746be6ba2004d3ddf04ba628b5333967a,
  0x6b44015457f8c7cfce6166e4e525b3efe1deb7eca40d936b5245fc550ce731f8,
  0x3fda31b133c452744c322b6d3b6b01cb56b0d67649f25145e9d73281b64a571b,
  0x6a655034375edd2070417ebbbb2abd6198a333fcb3ae367b17ccbfe6dd10d761,
  0xbe825acf8631707d8ec39a93af75afd25b415a5c69edc4837bae01a59f08441,
  0x6484e3f4eb6f38ed4c7d58a85c8f3dc08e6bf60aa9e92504c891c5956685047f,
  0x223cc72a89701d9f6df1b7ae2ba677d927d3e7a06c875bd2e1fa43d830405d13,
  0x6553036089a49c183e4715be744f5830da9bc7fdfb8265d0a4cf4daf82ae76bd,
  0x558afe899ea56dc25b3e21d0fe65b1cb8acbbb71bf106b503fec3311f7a9be9a]

def cQ232 : List Nat := [
  0x1889057794aeb530981c12f97d2a6d2e0d36b260fb9d8f7c910b494be7aa71cd,
  0x68b9dc23dc9c02f3e73de31fd42290aa406d2c506ee64755720d721dae811f73,
  0x2c1d93360f562b6ab40df44da7fb1330f3c3ae57f1ddc3fb9fd28ee36ea3edd5,
  0x13fc7fd14fa1dde3cc0d277a33ccce225251813751fe64f2ed95e2dc68cb5b46,
  0x33ab0f736b17e70f841e797955da76387cc97ebba4ab596822e2a40a45e7d747,
  0x5622ee1ef7cd628fb04d4f9afd4b32da40bf21de6263b3f9bc13b10676d04879,
  0x104fcfd997b600801bcd6aa384de5874f9f8b1552b945f84acfb0b773a3d082,
  0xe41fb8bb2c390797cdec2b84967b1a155f7cd671aa4b5353496c1085367100,
  0x518f27b85f7ad32ccdcdcf1a1a3ccec4fa32a9dc9fa3f69391a60be19676f4e4,
  0x301935f434dd796bcba8b60a54a6eaa11f877c837890b6cdb6a3762dd17a1bd7,
  0xbc331c87dc79cc5dc69a7ec406042f75b36b60d590410775f0bd983dede5eef,
  0x393d79e8e8f661c4a4894c64b5084a257e94aecf8fc1d33617588b5d86f93d58,
  0x578a8d6379e5e28f38ec7ef05d6ef7da1593b13fd6c54bf763789a3a6bb07f0c,
  0x63a5e048c35fed8b966138969e23fc310e04b454f37fbcca74bfb5be741d6938,
  0x38935aa268d2b5e098f672f75ac590b6839181efb7b50986138b588e93df2bea,
  0x4206f98294bd6c1b50a72bec4c1feb9cbbf24aa5c3c6ea66517726a31262ca95]

def cQ233 : List Nat := [
  0x72f0829803caafb7dd6a29f8c69236f4b55eff563941a8090e48ad6548bfd118,
  0x9b91732fb3154859c5020e9653328e3d748fb2fec925fbeb18c66934ca196d4,
  0x59e1a729c63264fbeec563d4957a163feec14b04459dfa5c46196f5a7073772f,
  0x1305d660fb1eaa543a632b772cc9f4a761b25b304bc827d7729e83a0aa4a411,
  0x5d6da3079c74dd1b8ae62d0d99e53428f4a39caefb7c6e7f5daeb9d895fdd2eb,
  0x2717ee678901045210ffdac32e0588c0e3e5d5133ccaaa8693b6af4f01e5748f,
  0x4ae2975b321ddeed1a9d7b6d56321292886653582f92e0f1b6abb04a6877d824,
  0x4374d24ff2cf6ba35bca00b84a7e4a9797940dd9a63a847863d07f5f1b5d1dbe,
  0x724ea2cfaa4ef9c3e2fc1bdd1aa5f3f9a17dd943b666497f8400a00b500b1bab,
  0x5c25ca91a93b6343644a873423b19e13a8920c4599fa9fbd59ed9bca3d8d106e,
  0x1545ae633509dce7504fa2ec41cc9cf2f02fb5f98aaccaac1fa19c5be13c66c,
  0x336c9c6130bb6180fcfc95272748c760553022acfaf17320fe23273df7a13e44,
  0x170201fe028712459559d1ee4038c1c5c628bac9e93090071305dccfb3b68ec5,
  0x4262a67089a35d5eee17e6000c7c401fd7f529e020dfe84c33cbb4ef70173b0a,
  0x2ae9c577c8459e994bc03e8011b4ad587edd696ab92e904b927f4e406cf6828f,
  0x204f8ba516fe1e55757544d45e44a6792c63767ddcaa989dc0f408aa645eccff]

def cQ234 : List Nat := [
  0x458f9c016884a0aabd155de48269221a237b46db133bd1b9d99db769cec51c9,
  0x571f47316e875c14cdeb48a260b09f26453abdf7f024ba3ed9edef77b7702587,
  0x54fe4feb9f78ef538858a7957bfc7da5220daa03b248ad0c52be0ede3f0d361d,
  0x521b5af2b431dc571a304103e3ea5f8398227dc56cd1378f1dc65a83b2d2bf48,
  0xce319b302d7b448ea932480b72d11f0ecca8d79c276870f042014e5dec00c22,
  0x48251f848f1344772bbc8f0f46dc17dabd0091c5026ad51b792def3fd3c092d1,
  0x114f9e1b28982877d46add519518ba0f3dfdf36467d657fa12a261ced81ed637,
  0x49852afaf55bc8e91b1ffec30508122f893e6e1d96b3922ff02638c40987aa90,
  0x23eb4d4c0719105ef8aff08451138944ceef1668cdc0576260f0e13bcd96ea51,
  0x3458eb8a17ad5ab854878d26c8c77555889de77c63db25a7475be4703d76141b,
  0x3f14cc5129573b3111c4e7d31acf413e18f2863d92f5c87a12bac298f309e852,
  0x1cc8c44dbc0462d6df353949fdc0d8fb5386821bfa50f96e4c7b8d393620c3c8,
  0x22b1a08bb661680cdeb280ca2c84f86beb6a208fa10f16daf5bc0c78f4d3ee5,
  0xdbf7b9ca6080980d3be55ea31be4c9d130ce81e0ec75ad74ac46ec147a8cb0,
  0x53d892d42e74f8ec83f73c4fbf0aae8c2ad9210995cd738941a96669ae82e6c,
  0x32bbe1b1267e3f324fbe814fa53c3ca7685dd4345a6fe93a207c28d1df34a994]

def cQ235 : List Nat := [
  0x628f2d5fa0072ffb5746e5ea00d5df989dc78124d36de85ca15ba0a7259841af,
  0x163086cfea7b13c945b02154519f406648046e7d509d28e7e94b7df3249eea9b,
  0x1556fd24e5e8716c186c18e36ed951deedda1b0e2f8fa1784e0bcc6bde8465fd,
  0x288c3e20feed4fa01cc69d91330cd42fbd030a73ca101d680e2f82c147a516d9,
  0x515f904d8fc8bad8a9626b5b4028f71ece1a7370266b928951a29b89f1c6bee0,
  0x545765c68d6b4052073971f199056e09bb7a50c7cb94670c34ed5b7bbf242811,
  0x73171038231ae6ea2293b41d6e2f1ee218c9879e13264c0210820f099b77ae97,
  0x19b50e8a3ce23a0dc5a9a8ec2f6e82da1d94d687ae82db0466da66c357f4a54e,
  0xe01d0a2f548c32ed0c3a92f2956c1ffb3dfba316be21ad0275750be6d7c8443,
  0x205162bfa9e57c9a5891f6f6e25b86c079efc02668a7d4a3608c2bb30169d760,
  0x314dd83b598a3d433c6bdd2aaa900479a7e1962b6e6f8479202ea4381820bdd1,
  0x19771d2171416286a815b7c409580cc62e1eed7cbd42f6670d8cd812201f0e59,
  0x65f6f2c7509f9ae69523565040a5b129e666b73ce22417c44e4e9a5d5c2f9f0,
  0x69ab3dafeeeac572017ba637b43e7eba7ef013d95a9c7e09f845931e292fd000,
  0x3ad70c46d1087ce81479755158d77f3189dff948da66aff0657ac04b2514495b,
  0x826f7181d93b74b33923859e42df7e58ab9ac2e1f43eed4ef8615c1be647ef9]

def cQ236 : List Nat := [
  0x1a201c7fa4bcbae38333f44614a1cbc8b5344fd275460f15b982c126e9d30d19,
  0x42449dfc2657dba5381707c15383d420e0de950eb95013fa5688d05bcef1c133,
  0x18a1c619fe76b056eafff6e25b3e66107f55b03da4fef2fd0c0a7fb583af0df2,
  0x48b1ff0158eff1833446d2286418dc063e7e86dbd6d1f7aad169b573e523b546,
  0x1faebbe6888c5c9fcbe758ba160bdcb4ffba061b0162c57f7679a116fc1114b7,
  0x497c6f6afda9c889efd8d737e49abcc632a9d4d03d4a40181a9cf7ad5cda7cd2,
  0x50fe90e0d5453a7dca452e2b0389e2f4c736b7953618f40e2adf96bcff6ad0e4,
  0x56a4404edd22bb89a7883790e8832b4c9b7a950ce9e3c4b7e8a213429f0ef09,
  0x2d6bd0896b0645a8240a324b37fc3755cd1ee0e83fe705ce90e16cc36d210b93,
  0x14809c313d198546b1fa9845f73052502bcff8a3a6c864e482893adf8454d698,
  0x2ab1601c3fb16d2a857e58d855658d715c49253adb5c249a849623ae7a55bdc3,
  0x5bdfbc29a80c27e5f4925b9829edb7c091ea7297947a4f847c66f36f488c8e87,
  0x2f29d0b111ff04413184822119d3118e64dcc1bda634f881c44de084fb95d2cf,
  0x457a09aeb995fa508879b43d044e918e6ff2e9e2cff82d1f839cedbadd09f1fa,
  0x717f9e80e7d8dfc510685548b354f8ec1486cad8645e465c684b3b7be5f72201,
  0x3226532daaba6cf930734be01d378f151387856860007d7c9bb5ce2bb4ec1fa4]

def cQ237 : List Nat := [
  0xbd8af20719fbe5c910affe02a9097c82d92b20f68d0dfd4872b9d69ef1305de,
  0x16eaeb863ef31043f271517b522213196dab553460bd89c4b10f3551d6c1d5b6,
  0x1432a399cf7050878fed4cdcb1d0364fd293f8a89657d7832c2c53b14a044264,
  0x6ae94ba3a985382b5b3c7e19b7f0d05acd2340aeb0119b6e46f14023397fec2e,
  0x2c0f0f707d12c683f2517059ceb5d1d4f1416ebc90934a4e77e4073711052e4d,
  0x40cb41810af0c192aff7bea57f2459788260d05aabe4b34b4387a9e61a74147e,
  0x5fce6f9e0694b2c727899202a8fe33372a8291a59b4dfa8787ec621848c358b6,
  0x1b5067dfe1d73c75a27583efb58a3753acd94930ad486ac4f4ef3514cdd87e0c,
  0x4573c34a9eb67b07d847f65c32f881ab70afd93b09ffa2c65deaee11785e95cc,
  0x3daf0022a4b63c8052f549636444b303a7ff3ef09f4639d0b617ed0f3e406696,
  0x4402cf47f7463bee4f3cb4791cbdac41f9dcb76f12d9a3d385498894eb3610db,
  0x55fc819c85580db47bcf95af202ad847109eb1971b6c2123a2dbf22ceac0ca43,
  0x202bbf3a89cfb7c7e7b9da87e9cf28d7085ff518077b95229e9584bfbfbff2c1,
  0x25f190ac9a3a6ac2dd0d99644979d3b07eef6cd75cbcadabbabe08be1206bf34,
  0x13ea777187bc522ce5bd99f5d1b02ef669e0ddcb7eba43d55f032ec9920f31a4,
  0x275d1ebd4b7efd900a00b11c2b21404767c48f44597544b0769f30524ab14452]

def cQ238 : List Nat := [
  0x4840a8ff3bc1f728c14e8804726d0bafbcede427b8829f35774c89425a5a2a0f,
  0x460f5edf47710b251872c7a425802e2d61eec6fda4c17f71d0834784c028bf92,
  0x121d308cffbe233774cd8b01d13ba4d5c89053c6fece7983d0ce8ecc6800fcbe,
  0x2812a2fb132fa6907b0c01c621e30a8f2e10c82907318b44137f5d9b017b390,
  0x355494255eaec78ddb774971dec3e86b43a01eb07880a71dceaee424edb85b41,
  0x992a2b2ae562d6f32e06b59978c082f1909f03a45cfca4b6e419e9fec225c0a,
  0x20d1710f11f833d0bd409ae72605ec6f83e255fe46c3069a5635270d568bed1e,
  0x1baeafcff77491ed760b76ac34a2deb564a0fa3e11cef92b0fe761d94bafdf73,
  0x54542a2853dbeb7000d2833e4ca5fa5d62e41acebdbd72969be2e7b8fabf3350,
  0x1779fd34be0e6c265c229d4d6c7be8e8f669dd92e6e06f80aefb9a4a4801bb40,
  0x3a1f8ba76d4fe3d892a3aab5efb9eea52f0dd238a9b4672c2be810388fb2d49,
  0x47f78e92b0e57f0c2e259793619827a0e8536efadb940b9af7a92d5feeb6b24c,
  0x47a9a4c1ae2aa28b310bb77da7aefadd7874b31bb9dea5f4afba523550a4fa86,
  0xc1f9f03ca1a31c162e1c0c6d9239932f5fc915a78ba09e347203786d2f1e92e,
  0x5d0a6c61b8f59b80c608779fab61644a6b6ad8802aef904ba756608c972addbb,
  0x6a80849d42b9e93240eb6c7d33afdac3675c793ab054624d8d35cf569f6143c3]

def cQ239 : List Nat := [
  0x65af1efbc9d4f7983226ef5a5f130ad9155eeea0096efffa429861f230391c01,
  0x494fd90116cd1845d0f7305f80564da3ec2f7030bdfdfdec90658742a00065a4,
  0x15d814c139ae9eb408f57b2e6c9f836627985777780e8fc4072db77a4e7f5f67,
  0x1338a2eb9d12c08abb95deb46673f6f96b90825647f29b1655629c513cb6804d,
  0x18ad6852a84d496b9f15f722710f5570fd8b96205df7a2c3bccb296164f95930,
  0x3d3d14b960c498b9b1c78e3b29c1a22a8a95cffbb4e7252f1611468387ad1402,
  0x279dbcb300439744ec6f93933f917224f1bb170931798a53953e8e64e1cf35ff,
  0x348fb177a8978e7d979553d1621b16dccfb12d7dcf2e39f4f3d8041a9aa109ac,
  0x31f5b1582614a8334cb03f68b1c02f2d5fb674c747960681f85e212c2bd3731,
  0x4e07e55d0b843cf08b6b7364cb26b9216520d69f7e2b497e1e950ae97c7de66e,
  0x1a627d4f3ddefaf1745f4c3b6ea34c97a0b8c0a88058978e5678381c542398c9,
  0x56b6e08f93eb3bebd1d1a86176041e969304cc535e46911103b7c4fb15b050db,
  0x62bd252059fcbde620cde1acff0f526612d243869c1102e36575475b3485bdde,
  0x56ecbb3432aa280d2fd40eed2ccdc372de57cfed512077388872ef7ad8979ef4,
  0x5c6d9aa07fc47f00bdc697eaafe5d13443a6883a7b826a137d7a6bffac8bc77f,
  0x4ff83ef61c3cd4c690684edf83ba9cd669591f538fd0f823f111cf39659e92cf]

def cQ240 : List Nat := [
  0x84149b3b62a36b82774cff6166fcf0d96a2b97aa199d2b997b9eef13fa0d7dc,
  0x6daba68c28331e0edb6f17ca86bd37fff0a2fe658084571389dc203438469278,
  0x42ca331e4963b60cbda52b536ce89c623cacd5413bdaf4770fb2450e2369f7ed,
  0x4ad1c26b7159dc79fd218ca412ed542736aa6dbdfe42ac85ca405e5ab310be,
  0x577058a60d41b3bde34366de6305267bb2be4a6d8810f0a3771125c30774cee8,
  0x6cfa337bdba9bcf75666eca9ac8d54f786bbdfd29102c6fd5d82101bc08f0ab,
  0x1fb806e444c3bf0e059c20b33c054f0b0776d22a28b538ea271ed1b798170592,
  0x6415f21230c1b8abef001de56c961cc4c7f05cfa442e93c4acf50a6a12d5bda,
  0x3884139945a19aaa14a456cb8c1c50c3f97a6ecbcba4f93c720676dc75d8c161,
  0x2005277d8a69894e7b2be1561d7601a1fff1764691ea13beb72468f11b29b1f,
  0x6e65939060a5f65c39bca3c0c64ebc100b1ce53a15f90c38bb9e603c94ffc135,
  0x69816ce7fe7469a3ff600f1dd4612e02f93099c5be816a7145a9457ede54ece5,
  0x6b7496a7e7d9f7666ed61a2a6c8c80833674be061093055f0a8da8298611d86b,
  0x719eecf4d363f33d7274ba22261afd99ae12ba530b74f774002384a488002252,
  0xf63720bd470fe4d40611b0db58f7128338471237b9fb1d8bad7738a0931d955,
  0x5a300c0e3f2f7d8b89a3da3bc4de49715062da081bca2f4b2407586a68c834f8]

def cQ241 : List Nat := [
  0x20851b81a859b121d0e2e56f28110b289f5df7741ba4de0cc5469221bba8aed0,
  0x47a656a692ee53b8f29cf442435989fbf54b564c21bd93d47e9b7249bb1b65ea,
  0x4c72b0c0ac310e2bfa87bf634e117b7f844639a0f69e43927a5340a2354102ec,
  0x527403af18a4e14ac2a91330523aee38bcbd0f574fb2e631fa680811d76dfb27,
  0x1f09f367e47804722efb130913658eb84054759adfb8ed992f49288035fb53e3,
  0x2e2a97cfc9570a5839a1280e967c718bb3875ab5d4b7d8314cdb3c53b5a594d2,
  0x30fcd865ba6b4a066cbba50b370ad8e07e990c91650538f373969daa111c3444,
  0x32091c7543fdfc8af0b037653ba2ed9d82c02c2ef100647b3aa91ef416f9a9d5,
  0x417c4abb92d70d30b3508b4035ec37327eb30b33f9b27ecf21d93b6b0b3bc564,
  0x329d068683beadb12efb85cf01b9daf2e8cbd495126afb660ffe9f8e04f7a567,
  0x20bec20907d050fa1ece55cd3cbf2042751aa83aa81249d579bc93884bacea9e,
  0x5fbd994c01b86186cf9cc86d3db22d607070aad039e2734172074d8a7061033b,
  0x6a66b541d1fc2a33c2efbd90e1d47863444ff6437f3872771ddacfdce4392b66,
  0x6655d2188b927ec2d3783266477ecb994dbfc75b3acf49cfbd38d9c79dc4557f,
  0x1f57f35ee066784c67f2726d4d412b7016698d8a9e595ba1fb21a97155ac5883,
  0x73da0bd858967af33040f1fd1c9fdf005bd2537d7eedab507efb9e13bc76efff]

def cQ242 : List Nat := [
  0x109add27f37de304000ab407cec4eac54dd7428d6e28fff437ab9309ea82278b,
  0x5e6d5aa9e9efa5e83e4ddb402a552e886c0336d2f43912605e8de2d9a86e2963,
  0xc015a6565aca9676d95f161bb23dbd7ab1507bb357f159865aea7abd6a6aa2e,
  0x295d73c893b5e6a381874ba8429dcd114a72dab39acd37b95ab393a42a632976,
  0x52fd30e239f295310c34bb897efce17bd4c27b4f5d4837d0a20f7ef234a350d8,
  0x148b0ecba3c6e0534a33af56f11db6040c9d3a1fef9c86f3fa376809ee9d7e9,
  0x36e2af513bcb0ba4bc286d4afd9022c35f16be56b8eb78799fe574345c4b910d,
  0x706180b84e099b66b14fb870515a8eb5bf845b04a1ff8d1dfdb7f374749db3fd,
  0x6676e7b6542d741067a79a97f93de43cfbfe664236b2841c2e4eb53b1b471cd6,
  0x39beceeb7c8e84af91d136418834504742f7c5a59b3a0a31aff41f08ade8de9a,
  0x3989cd42353fb800c1aa83de43ee01137d9a5602f854c5fa24c9409266b046d5,
  0x52a2e963d684d7951a9c65875aa919012f8f128909eba99f7d3a15755666da07,
  0xee1105977092559b370abf4934ba9686766bf931f6757020cbafab763f399a0,
  0x4502bb515307c45b691d8f2b4b1ede487b01da8093a7712b7bb9c762150847a9,
  0x45024d654c8e81ba0f2f09df4541570a305d4c68debc86322315e5666beeebcb,
  0x5aaa8695e4bec9f308bf140bfb701baefd0f2a653704cdc87b09f7e717ff91cc]

def cQ243 : List Nat := [
  0x5fa2fe51e25bc62840ab19ab8206e95b43fc1e9c131da8121f40a0100fb814e7,
  0x395db7f1ac43dc5f27fa5d1fc55601e05f9aa7489988ebefdb7b67dbac905991,
  0x71ff42e0d59bd91a48e62d0548d8aab72994ae446ba84e251c4a1b6d8baab72a,
  0x55ad3eca41a20375968122c6fbd2b4cf704d4bf0b39a930ab574293fb3bacf38,
  0x1fab520f824788ae4564ec3ad566cdc262739581da30eb697c6d9c6ee3afea1,
  0x6c98b800f4c015c3c3ce3c600bed45e191a333d5bf485cc9eb151b7e340c69c4,
  0x493bbffe33d2e1a9328dde8c287e3cce0785b1977bead410581ac876ac5e93a3,
  0x69e91bb81764080c80496c42441200900c540bfae9879ec78ef07f82f10eb332,
  0x5f39812af28033a3deda04d5158fffa2c12aea8188aea2571d41c8b9c13352c9,
  0x5f838061c1ac35dd5d3895c208e938ff8c128ab7f4ffe4cd3153cedf7b2daff8,
  0x320e7c9e5ca097a06562a2d89b25d31a9b1e8ff893cd5833adafe5d088d802e7,
  0x5269196cdefa1a3c194c643bc5e54cd000cb54e8e568a5a96a82c393a44313be,
  0x597205aefb8d1c167907e01d89a213eb6f1a701e7dae8ed3403597023497ce18,
  0x3da1b8315e0cf5f82212db96e018c4d05aee70ce21afa3a529dc2a2db966248e,
  0x4911c67cb1cb22eee2edad2960a3b449c6fce0eaf2cea937b03ae58302b563bf,
  0x3d3a8f49cacb82ada15817780b9b614e7d3c7bde1af45954d61827913ae2f444]

def cQ244 : List Nat := [
  0x6c6f45e808e0bae25e28210182cbe58bd3be919256dbcbd981e6e0d70bbea2f6,
  0x388869e53777500bbaeb27fe4299d1a8a80663c317409d03f51556d69a922b47,
  0x3c2541d1a630f3b3cf06cef16df143b1835fb0a3d4f8d35f19ca5c5124a7e5e5,
  0x21fa8b9b541a0b52908781dc6c6599a51b2690dc1b0780af3ce36116a29dbc6a,
  0x30c07de1e87a4fb648772e2eed9efcd22d43a5745904794bb69b93f9632a608e,
  0x4efc8da4fa156d12b49731e4f71c0127277b37c07152e2f5cee67ddf182cc889,
  0x61efb18d2baef5642b0e727b0f128c3cb5053a56cdd11fd6b9c282fe7d06646,
  0x1749d1b4a9fc8902d591139e0be4ad4a4a2d78753816da54f83eeb6293fd8d79,
  0x7342cda1f338e25ddbac0901c45769f2da71a11cf36d2a041a30352d56f7199a,
  0x2ddc9e427f05bd9a6b289b3bf0ad474085f074f9bb78cae8da467558f86c7f99,
  0xf56ebf071d46e326ba6838690d5b2270daa3332902cb45a262a58a4e3612c93,
  0x575648c2eac0103fbd78e047300345b43756e02c8adc642e493dd2fe41567278,
  0x1afcdea5975b7d402e1dda88ef608cafc8fb4bd53d7e723b586cd6b047260056,
  0x736d6e6e30ba268d0dcacf55acef002f5a6ad4ec618ff4fe95ce5c8b73224d78,
  0x57ed0bd970b42a30708d4c1af1c2ac7efe966c94af67c54e901aeef41b6202a2,
  0x2cce9d19b21c9342c36e72aa03eda984423b82ea0f608db047b66ef1717f4596]

def cQ245 : List Nat := [
  0x5b5f8592a6435aee8918fedee2beb3e6a8d1b54df2460e574b8285f1e8b2d786,
  0x5778679ef41c51367a35e233d12abbd060ce38feccf53c884aba049a7dc667a6,
  0xbdfa57f7c755de6fc2d95038b218f7b3e5456249fc44fabcb11e438040ebde6,
  0xda2072ca490289ffe97c45437a1b138cb97e6773b9c78b3878943e7cdbe9b93,
  0x634d290a3dbf63daf37946fbab08d2ff6befd1d4f6f322b84f440ed2858c00df,
  0x58e38f2fe75391b4b908227fb56dc517a0dfe12e012aeb067416fa21b8b94e9f,
  0x2716900e0d8c45639995bde81bbe04533a05ba43f15b393d6961a9d303462c21,
  0x409f1aa13b0ff8a049e0821c85534ae1f4d45060e3f4dd55007cbf95d409eddb,
  0xb96c568bfc6da6da899ee341d49de3bded29b22f67382c59330f0f920a799e0,
  0x70536f110d663f14688f4dc36943769cbe80b9bfe44b4128f6cd46bc5ad3c3a,
  0x466481741573882da6af626b4907b2fddca3d9f5ce02d3af2cde2f3001f6bfae,
  0x54fc3390f70ee65a7e8b90dc1c6f6c7aec6d37b00bfcf4346f3c643d593a3e2a,
  0x361f13e254bda80a9e4441a499089fd7f16a97b1783a429d0548ca92a22df31a,
  0x53675c7ee833c25200ef0f79aa15aad17268321c2d2b4ea1ac088880db2f2457,
  0x6d3ff6005ab165f934a27ae49cac1b81bcf450ecc9de614a46719cb414925478,
  0x16d3b822864a9c624d0b26f6fd6e3148c6fcd0a16954af7ddc0d3e75910b9796]

def cQ246 : List Nat := [
  0x5906d870cc31df80e550b0fdc0fb8ec9c5342abc9be7fd15ee2bc25431eeef94,
  0x671f9efe6d86dc081acbb1accc805d01a803d8395970ce4ed9c199d3446cc925,
  0x271967ef722fdabecfab69bce1f04d20971649a11a6904f6c73e68dde26899a4,
  0x7195a1c77f35cf2c84409b1ced37e2aba871813985547280dc3d1f6eaca10bae,
  0x52adc258fac9fce41c6c6c82f198f0eca87c6ccc9ebd187d33d27d2ffeec530b,
  0x6917bb09e8c1bb4787a3588b6b49614f76d83c552cdc737705ec74eca33fd3f5,
  0x297eb0af0698e9a04b20a239ba272b82c08e26eebd0a702bae6484dcbe818a40,
  0x1e7f58a4e80bd3661e794c8a1c71e782cecf778fc13d13e1d995e600c72c8885,
  0x6960fb74fabe6770f2bae919196b283dc283b3a3a00752b59d1a1bef75ff7a1c,
  0x71fb1564bcd77b88b086d09d10a31080318e6e49eb8ed03c6ad1756b634ce7a0,
  0x4d15e2fcb9268545345226ef3ae458092d50bf472dcef77cadc56724fa2ea28e,
  0x4f1e25d314300370b48de7871928690ce81373007a8fe1b197e9fa4757df9d9c,
  0x467741495548493fd713b41dd399f11322cb526a86f1bec06e184f25c2ee40f1,
  0x65c25b7e5b417d82361907799e0e1d3cda459742838fd443e5991a7bfd69b505,
  0x1a0e9a91395a49c36911ad7b3cc5ee45150db98548e41f5b8bbc3233da28fc29,
  0x6429cc18e70724d4dcbffa35d743c1e5d59333ad48d7d49eca4b03d199021eb]

def cQ247 : List Nat := [
  0x207bedb5e11e249fa2f97c2ae8437f9f17423ec1bb232fa65224f80ddc4b5edb,
  0x374cfc390761df74cb5283f35de4a5a9623a7691c3a029003d1c2bca23a7c49c,
  0x40e9e31fbb77d3ab04d6fc06cbed6020aa94a66a0bea445098a45335d632b65d,
  0x40a8544d079cc5aee6b62b2b3bfdeb09259ee0bbd4e279db1258df2e6dc569ad,
  0x503eea454cf9cbf62745e055d283d1404c5d35b06b76607273d135f937dc1762,
  0x21742a5144266cf1ffb7766735fdf1d1336371d2220d06053e47d312eac48cb0,
  0x44fdedc14c45542f4b8dd02e22b52fa2f34b3545fe0ee2877ea11885c999103b,
  0x6daae89ef606bfab7ec77ded0238dd43daf4bedf431eabbc2b1682362eaad42b,
  0x284aadb2e127f75006b172a222a041bb7e31b7ebe5b3c7ab1d6ef476b7b0e433,
  0x537161db65274122195de49d5e8545ff5e33ef6dc04bc94cb3c6296b5cc38670,
  0x2f71512d48b295f9f74294f5c59f6993c3ebfa4c982978b93f5aa2648a035936,
  0x1fa685e705322459a851341d8877653fc3ef82bb5c3a964503d91d37a62691f,
  0x64ec3c4dd6ae57cbc8cfdd8530cabc580e286d73caa4191f9014ff5a81d79dea,
  0x514116c07890c03782d5d52f3511c8a481aaed5ccbc0dcae5f3500601874ec9d,
  0x411d2f40b5ad3a89b8ff1f4e79420e2ffd86dc600f5e8580dccb48fd5a33f540,
  0x815a40250afe9029ef3a24c520d582b23391cdf8fc0c02f490bc8d756601492]

def cQ248 : List Nat := [
  0x69b4e89167c641918dac25a87e092b168e3e8fef50774af9ac7c6b776325bb8b,
  0x47c9c4056f06c51a3ef0d1263d786659848a812b623fb7f39814279cc122dcfe,
  0x20ce8ac8567920089a475a5d4231806084c00655d4327458a462397f1ad27507,
  0x44ad05f7c614cf4a40755688491d20cd2248e9ada09b98a067d228ad0bc6683f,
  0x3dd7a13ab08735dc687a7f4f85331a3bd711b7f90a57ba0e2eb4741cf66bc3f3,
  0xd88bdfa1fdbfff3b2faa08ec982fd2d5eb673ef2f106f118112348a38487b9c,
  0x32a0f961bc6a77ec136dfc850d3949a1ab24e7182c033b479d6deaaa5bec6234,
  0x3f4fff2f396e8936633d2cfd0cb2a537ebd02127a753350c01d01b8be3a36b58,
  0xa254949ec26aa0e5d73a6073852c84be09b77a1b5330f87ce98b9220c97dc87,
  0x5d485ea1869c0af2d24bc0bf35972ae397cfb95a6c7e7fae7aedf1bfa5e43c42,
  0x4ad63d30087f15094abf0aab05036cd677dfabc79c72c150ca35ca7aea149126,
  0x68c1a42357352db6121a17c512a0cf048285973f96544a4036eabbb0974f82cb,
  0x488696256f6b28d97980073de3d7a7023fc875cbaa9c4e7dbfb5ba3f02b3ec60,
  0x6bdc4d55af81f8ff2b262b2e08deb3eb592e79ee0505d7da45c86981cca819d2,
  0x144c964556644c01804490e9c64a06fd3fdaa2007c3850cdde0b8fdfd5886850,
  0x56b69089605a4bddf8891c99312f764028ac99be7f815d92a84842755fd77b57]

def cQ249 : List Nat := [
  0x126b8f7e56f46ce783c975d6e83a274921a53da3197d7a1b49e9cb684d60532f,
  0x1a4dc55b322bb553cbca023776f3bee44ffece4967b1e5100233d71abd9ed72b,
  0x170bd6bf2647d104750bd6e427694a3f75f30acbb5484b76a4785ed1277f501b,
  0x56812bd0798fd785111b6be3d137a8647ee21ba44e1d88683fec96dd8c53cf53,
  0x1997094b62bea2e45aad2591d85f372ff3b6b0405775162438636336037aed67,
  0x698bcac3913917895bff6e836c917ec929c8c7c7a34f003edc2462eb17857f35,
  0x256f0c92e2864fc65b941b18418642e984490f46232755803c7d5a07e54f49d1,
  0x2879d57c569647a47ece124f0c8be547705fc2de9d4f40797bdb71d382ab7e82,
  0x541fd90077e04bc53f208b2cff324edd29b2f836f5dd29435e28c909dfaec2f1,
  0x38605f23c7a174b7b77e187318b161d46cf448d6dc9605f9e7e9c591babe8921,
  0x218004681c6337d1563cc242af6b20e491dd104cc35fe8e5293a3c2cf5b50cad,
  0x45762ac83f29b438a38cfdf1a731d7277c78fce1abd500dad3095d696fcbdfce,
  0x652fcc1477d5d6d89f61ad0ad99e9ac0141ac6160f2de25686b2fe53ff3ebecb,
  0x9630af4cce0d344e9a4f80f24bebf0ee3c465c02cdf603ddd3cce1a379237f0,
  0x4c314db38c30107a9f1fb77207e855b323867cde9664e58c8e3c65764ddf2753,
  0x6938a54dac76a43ec87b6054ade5a7e968ec23fb7ebf8bcd5fcf36c824f2641]

def cQ250 : List Nat := [
  0x473b81816309c004a7a8589d027d750e57c10352ad6473fbb8a53c7155000662,
  0x5411c4384315ad01d067ec6849f6b2f0159c03ba404206b05d5c5682d931584c,
  0x327fc0008d3fd200d238a9edd7fed7d0fa947688ce3418a467e79a119e92261b,
  0xbda89e9bcb97e658c590ce45413473932ff1c03298db87670087390ccc2636c,
  0x712c71ca2a91d8fe35a10f5fa9f4c19765995cce0c6e0b29452f3ed81a250ded,
  0x119e66d1e314bd04c042be8f780969803539a981c8eff3cf97c6cf076c8fbaeb,
  0x483eeaace860555b1dc68e7789a0448bc33a803a2137a78b5ce18f3a4731b9c9,
  0x2f03a6755f241927ab36609df64e7c239c6e16b48841450b818126370f2d1228,
  0x6d1ca0409d96055040754b6a6f97c69c489e5d64ae141f6865b32e044f8dd24a,
  0x48cb2cf4859bf557554f0303a279832dc3b22bf4abf288125406a51b013855b9,
  0x310e96565ec9103429d49fd6b8abb27bdf56779b5e9f7edad61d3e206fddf124,
  0x3743cc7fe861a619c5b3007c1e40d87ce2545847504c5cc9bbea06f4005e3826,
  0x4357e0191723f26fab54c63ce59e77e322a256d091206309c4c312bea711c5f9,
  0x711d6556ff3c461aab243a4d0ea834ced7a325129b107b01c2bce2dceac27fb0,
  0x4f221b701674587f50e2c52b91e742d3263cbc4c928d6ab2c425d7b3ad328c2b,
  0x5bd429da5bb6a5c18e6a7c74e2105c7c73c8145db3a25d72dccc00dbea621053]

def cQ251 : List Nat := [
  0x50cafd03a4576762a058c6968c42db39af7912d70536fa59049131053993e3a5,
  0x3bdb69d0770bed03ee6b28e12d3373c879a4920ebd5fe538b140dc31b0c1a9e0,
  0xd4ebcead19bc2d1057839474c1d4ca5e54726527c94937553acbae1d058192f,
  0x5ad803ef9c4d5e29bb43769f948b00b9418fe618258e5ac1180ed6fa89f9de5e,
  0x677107e2abb6eae7c5cb9466544f0ebc708ddb480da1ba541e1fd4ec6bde9bb1,
  0x3df3644ab713c891a04b7b63f4d61105936dad72a99c2186a961fe372385e431,
  0x694726d0d758200d7d54296ff9ea0997978070cc893efb0bb7126c96a59ef64c,
  0x47d9b149de83ec5ddfbe4ed4f8b3cb2ba8e138b58edcaf68b0bd6c08aee748db,
  0x2834d067b4e065bbe8732a54cb05722b447a096dc9bfd4289046a342a6d783ee,
  0x22a1e11c79defe0d9591f415ed2031289a108582940e4978a15d913b8641b478,
  0x1b2e3a3619bd0597630496b1282c113379c7138c70de8d68a6cb07858a8caf13,
  0x3e4038e65cfc12a0a80dbb2749c6f3cda0a88d0055f821c94f972162e6355010,
  0x680f9ca5ae299efdfbcc6ef0e2da575777197457b8fff4b55bd4ee3f4a48096d,
  0x6034dfb4b3d86b08339a164752b6639dab9e676198fbfa7e4232b516aa4a7785,
  0x555afc67a408a761651a5a772ccd6fe2cd1f5d1c59c1f6b23c4296c1b3a2691a,
  0x72120983f9c77b143fda7f685a0ef381587cd55019d7123e36e32ed59b65b395]

def cQ252 : List Nat := [
  0x0,
  0x0,
  0x0,
  0x0,
  0x0,
  0x0,
  0x0,
  0x0,
  0x0,
  0x0,
  0x0,
  0x0,
  0x0,
  0x0,
  0x0,
  0x0]

def cQ253 : List Nat := [
  0x0,
  0x0,
  0x0,
  0x0,
  0x0,
  0x0,
  0x0,
  0x0,
  0x0,
  0x0,
  0x0,
  0x0,
  0x0,
  0x0,
  0x0,
  0x0]

def cQ254 : List Nat := [
  0x0,
  0x0,
  0x0,
  0x0,
  0x0,
  0x0,
  0x0,
  0x0,
  0x0,
  0x0,
  0x0,
  0x0,
  0x0,
  0x0,
  0x0,
  0x0]

def cQ255 : List Nat := [
  0x0,
  0x0,
  0x0,
  0x0,
  0x0,
  0x0,
  0x0,
  0x0,
  0x0,
  0x0,
  0x0,
  0x0,
  0x0,
  0x0,
  0x0,
  0x0]

/-- the coefficients, in parts -/
def coeffsQ : List (List Nat) := [
  cQ0, cQ1, cQ2, cQ3, cQ4, cQ5, cQ6, cQ7,
  cQ8, cQ9, cQ10, cQ11, cQ12, cQ13, cQ14, cQ15,
  cQ16, cQ17, cQ18, cQ19, cQ20, cQ21, cQ22, cQ23,
  cQ24, cQ25, cQ26, cQ27, cQ28, cQ29, cQ30, cQ31,
  cQ32, cQ33, cQ34, cQ35, cQ36, cQ37, cQ38, cQ39,
  cQ40, cQ41, cQ42, cQ43, cQ44, cQ45, cQ46, cQ47,
  cQ48, cQ49, cQ50, cQ51, cQ52, cQ53, cQ54, cQ55,
  cQ56, cQ57, cQ58, cQ59, cQ60, cQ61, cQ62, cQ63,
  cQ64, cQ65, cQ66, cQ67, cQ68, cQ69, cQ70, cQ71,
  cQ72, cQ73, cQ74, cQ75, cQ76, cQ77, cQ78, cQ79,
  cQ80, cQ81, cQ82, cQ83, cQ84, cQ85, cQ86, cQ87,
  cQ88, cQ89, cQ90, cQ91, cQ92, cQ93, cQ94, cQ95,
  cQ96, cQ97, cQ98, cQ99, cQ100, cQ101, cQ102, cQ103,
  cQ104, cQ105, cQ106, cQ107, cQ108, cQ109, cQ110, cQ111,
  cQ112, cQ113, cQ114, cQ115, cQ116, cQ117, cQ118, cQ119,
  cQ120, cQ121, cQ122, cQ123, cQ124, cQ125, cQ126, cQ127,
  cQ128, cQ129, cQ130, cQ131, cQ132, cQ133, cQ134, cQ135,
  cQ136, cQ137, cQ138, cQ139, cQ140, cQ141, cQ142, cQ143,
  cQ144, cQ145, cQ146, cQ147, cQ148, cQ149, cQ150, cQ151,
  cQ152, cQ153, cQ154, cQ155, cQ156, cQ157, cQ158, cQ159,
  cQ160, cQ161, cQ162, cQ163, cQ164, cQ165, cQ166, cQ167,
  cQ168, cQ169, cQ170, cQ171, cQ172, cQ173, cQ174, cQ175,
  cQ176, cQ177, cQ178, cQ179, cQ180, cQ181, cQ182, cQ183,
  cQ184, cQ185, cQ186, cQ187, cQ188, cQ189, cQ190, cQ191,
  cQ192, cQ193, cQ194, cQ195, cQ196, cQ197, cQ198, cQ199,
  cQ200, cQ201, cQ202, cQ203, cQ204, cQ205, cQ206, cQ207,
  cQ208, cQ209, cQ210, cQ211, cQ212, cQ213, cQ214, cQ215,
  cQ216, cQ217, cQ218, cQ219, cQ220, cQ221, cQ222, cQ223,
  cQ224, cQ225, cQ226, cQ227, cQ228, cQ229, cQ230, cQ231,
  cQ232, cQ233, cQ234, cQ235, cQ236, cQ237, cQ238, cQ239,
  cQ240, cQ241, cQ242, cQ243, cQ244, cQ245, cQ246, cQ247,
  cQ248, cQ249, cQ250, cQ251, cQ252, cQ253, cQ254, cQ255]

theorem lengthQ : coeffsQ.length = 256 := by decide +kernel

theorem partsQ : ∀ c ∈ coeffsQ, c.length = 16 := by decide +kernel

theorem shapeQ : coeffsQ.map List.length = Embedded.g1Parts.map List.length := by decide +kernel

theorem smallQ : ∀ c ∈ coeffsQ.flatten, c < 2 ^ 256 := by decide +kernel

/-- the 64th powers of the points of cell 100 -/
def shiftQ : Nat := 0x249a8bf565feb0f7bdf7f8f0d267d1ae2ae21a225b58e59f1d3e494f87fd6d91

theorem shiftQ_eq : (shiftQ : Fr) = Spec.point 13 (64 * 100) ^ 64 := by
  unfold Spec.point Spec.omega
  rw [← pow_mul, ← pow_mul]
  exact (pow_eq_of_powMod (b := 7) (by decide +kernel) (by decide +kernel)).symm

theorem quotientQ : quotCheck frOrder shiftQ (coeffsD.flatten.drop 64) coeffsQ.flatten (coeffsQ.flatten.drop 64 ++ List.replicate 64 0) = true := by
  decide +kernel

theorem topQ : coeffsQ.flatten.drop (coeffsD.flatten.length - 64) = List.replicate 64 0 := by decide +kernel

theorem flatQ : coeffsQ.flatten.length = coeffsD.flatten.length := by decide +kernel

end Verif.Vectors
