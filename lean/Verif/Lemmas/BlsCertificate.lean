import Verif.Model.Bls12381

/-!
The certificate of the order of the G1 generator of BLS12-381: the inverses modulo `fpOrder` needed by the affine
double-and-add chain that computes `(r - 1) • generator`, one line per step. Nothing here is trusted: `Lemmas/BlsPrime.lean`
checks every entry in the kernel. `.double i` doubles, where `i` is the inverse of `2 y`; `.add i` adds the generator, where
`i` is the inverse of the difference of the `x` coordinates.
-/
namespace Verif

inductive ChainStep where
  | double (inv : Nat)
  | add (inv : Nat)

def orderChain0 : List ChainStep := [
  .double 0x3a0ab1094f9aac23ddb7932e0787dc53fbdac85b6e9df9252a6c2653213975f7c75c41318b68544e88a5cf31e7a629f,
  .add 0xe1c24c0d56fa3d8211980fb07694adafba76962f6a91a6151f6a9fa8d9bf53e837a1edc1e4392401a13ff7ba5158432,
  .double 0x131567629f9e3a6a3a1da30532ce1931d318e535662edc150dfebe5869e34a0ef1824f7d4693c7e7326461d4bf9ad3af,
  .add 0x16a84b120b8daf684737bc2c317641245b0228f43bdcb5d663ca12f8614368367e103e9cd9e2fa281589f6efdf0a41,
  .double 0x17c057aa120159ad5f3b98fea7615764e8b730441ae29f517efb1093024f94d8feab563102095067bc55c03750dc938b,
  .double 0x9cd1f7d32288f3abc6e2af303fa6d9ed54a7bca43217a7607f697e87fa472dea00957816c55b51977df0713ba4e9ea6,
  .double 0x165ce6b3598215fe857624d05e031ad4a23529f744d403bd125fb407a53c3d7565b0ee5086f86d8ce442a02fd605873c,
  .add 0x723bc99bdb8e78f311a9a925707cd9ef306ebb953984232d5bef875a052598535b566ac42e6540de134cd2f86529d46,
  .double 0x11004f679fca3a3f8afc48477206f077885cb55ecfd30c2ccdc671a9d0f404eef4c05c77b0ed10b0db2bb8132f3a2eb9,
  .add 0x73bdad3e506c4cf0e556a968e58c06aeb44c64366003cdbe9c7e84bb96cf09b915feac434b25f0fb0ea7d8406c42ee3,
  .double 0x12445e32dfa16ea48edc852e96b7ecd848bcc42f5b9d816ee00a0836d0b2e4310a4fe6cd8743362712ec99c3d7807255,
  .add 0x47caae7adbbd1e9623776b595b3e2265092d6d33ef1e4d58d04959cf8cb927c4157ea67dd1fff1278920ccccdc6f4ce,
  .double 0xfa2c64b8a7533c91520790835bb6a17dd0267e2b7640fa17c6f8d195c3b1d2b54384466498d40f08803341a18cd34f5,
  .add 0x5d962574f5a2d0c2b853c98c2484cc22635f7dbe9a0541b2a41f25d3d61097c6ec1777bc69aef0c978d4c2173d95b33,
  .double 0x14a0ef5ee5ed8f25b8b03f481521999185c2d8f2ed40152112418f39757be5a5b9df4e328ef305da37e6999193030ee1,
  .add 0x1874abc21617cceea85c9ca143fa91b80d257d79ea0bfb9ec4a3418bdeb6f266a50aa1b8986c9ab0966d9baeb1300f56,
  .double 0x14bedcdd8af7163db888859373e5a29046071136407d33eee3d27e71f3f8d06000254e4d690f45834101d525e088565e,
  .double 0x85d4222934539744bc8db1e0ea65d23f4a862d61f4a72aa2f64b3f4711fd6d8597062449769afda126a4ba9e20d0cd4,
  .add 0xe9c4eda507dcc359dd4953ba7adee83a2cbbe176ec0a86310e16a274e35737624777338c8cc6b65f776692d0d458110,
  .double 0x4608bc6fac7b4299e1ede38f3f6f9eabbf25167b8f20e280922cafddeafcb07ce0df9a55c585ae2fa4f91d40106151a,
  .add 0x158d6cf35b310e06cf56794033a10fdabb122a1f8ece2ff305fd613087521848ddf27dc2f1942c83fe631b4f81f597f1,
  .double 0xef53fe2368eb481c5a53aaeab2559bf2107d977552c1005a35af22bd2a873bf9dacf1089179bafe138b84bc5b40e4d9,
  .double 0x136a3dbb2fda0abb325647a35e90cf2e694f326b53521b9128b6367c17d722f9307240853b3ea1f429c4f9110733bed,
  .add 0x2033b10fe6d5d1f1d2df149cb3449116c422726bc624a378219e48dfb16fb826d29c112a3fa7296d530d870ec49ff7b,
  .double 0x5dcf66114bbe531d3684031eaef9722f77bf48f81f86c91e3958d55a1abfc3c5712eb37b68b919f737d8d317ffcdffb,
  .add 0xf18130a597cf5f896ce9a8a63b609252b5b5574b085f9cb4dd89fbb1cddae25254dc48ab8a96ae16407d3138f382c98,
  .double 0x10e97a6d05db9c21a6892b6c11394733602c26ce1dd777039b10f68a0b16ea6dc8698156a4afdc3c2332a31e90b11aca,
  .double 0x1982208187c2dd9dc9088c9bea4ec3410852fda2332d78573d9a24bcaeb216a1d37387bdbacccb1eebe46871ec64a0f9,
  .add 0x19f1ead852a0943d82bb1d5ed59afbd62390b51f42ab96f0b1e34f407b7b053cf06b759d6b4cc7bd941e26985fba1e2c,
  .double 0x77ce88bda16c14b83977bc2aa73f6d9ed5b9a2cef20b3390bb3a628760976ffe7a4d8e790f7bf8ed8b97fd7a3b94abe,
  .double 0x18afd5cba86c3862cf1ee4f5084f37c6929fcfc3c91ecb16b66e561116e0f5163a3f26922f74b3066743009bdd53335b,
  .double 0x99b1164db245746501115d818124c06ea02133923d618604adb28f04c2085560382950c17ac7337e650c77bc7aff707,
  .add 0x2562fceee000d3874dd82bcc788735bd0fd0b857bfd3200cb4c3a8d7e56488887f5157ff0df8b809c98666717abfde1,
  .double 0x92acaddbe86e0b8b55b9f60efdd9641b569d9b8cd0d67acfc5f58b75b0831dd51999f7b911077539b95b230db582365,
  .add 0xf25e99cd3fde0618b328340c1fea1260660e8eeb46d5390f23baec64ec15a9150f48ca80b7d142bc5abf46af9df9740,
  .double 0x2d1876d5bf43fa04e983725908353ab66aa65733cc142d3f5252d4f4dca95207a5752ea500d4a28d8e583dd84bc7cfe,
  .add 0x16ed867f1fff38f1a612efee549753ec3cc054aea66c7f8a7f062eeb1e25cbadf3cc4f1dd3cab5c820d61a1770851f41,
  .double 0xc8dc5221a1c8495aa4baa96fa0ab7d99cc7b15363a47fc61d251c3affdcbc54a7be81b1ca4ec801dd6a96adcd9f34ef,
  .double 0xa7c7d95baa46d1b585facd777df4df6d43d48408e5634f97172075a4d4d2fcfaabc3c45bb25e2dd4e9452aafd40b71c,
  .add 0x44464940333f9addbcacbffdbcd723a63d1a1589dbb1312c2186d1c1a64f38aa027ae2a2f80191b6100ba9caaa6adf3,
  .double 0x61672f175cb75655fba2e47816dcf8b8d52e941e7a9dcf9beecc96fc5a222f45d3c0c271ac7c0a8feff65800c7f1db6,
  .double 0xe01061e0c81b1129b1459b16feca48b08bba6775d92537f6270243ffa9b62e34b4468106ed0af5e514bc39d52b525c,
  .add 0x19daec87ce1be230e2eb3dbba820fad48e438ebb0cb0509bba946699944b7df1d2922f7d14dd4ba5dccd73386c15b41,
  .double 0x1726eee25ff16870ff8cbbf84aec223949ce55d4503b750f0b1fcb35101bcc244fd1eb0ed7e9bb665743db770faa084c,
  .double 0x124402773536901c4ee6294de44764e3247f902a1c6acc64ce11d9446471f5415ffef89c74c413a6aeed0fe97fc524ad,
  .double 0xdb8f8149c31964c7a4a08e96c1c3c3a8eeeeb4b48f816c0fda0f4495d8ca3b79a61729d02654a5e3666bca9b6257ebc,
  .add 0x167019e184f64ab61c05a60b6b8167ed12176d5c274b9cf58fc89cb634b0721be0e8f94d43a5c7bbe6d5d897f39c8e99,
  .double 0xde0a710f20bc9b2a41050ba8c1a725da98312317f37905738719401cc0c5a5cf285308cfd0fc7fba2d835645a0bc76,
  .add 0x8ea3a6bef664c268d3708f2f5ba98b76995e97a0ecc713a908c6609992245940fa81edf9a6949ef6cb55e935216c151,
  .double 0x15c2ba8cc96e11c08d3812d9b82656a34ff9c5eb6b33ddb6b10a7049be6aaad5620dc7997211b78ca7a8283655952c0f,
  .double 0x17d9674f322de22ad600963eb8cc96cae9489cfa449b9798565bd4f076a8c504432c15110eee0e741a31e7edf4b8adfc,
  .double 0x326a51972da82392d8b5bcb2c6e2c9c23d4e4a590256f98b5b620fbfd1c4801b5b2f40def130b205ddb3c7ed09d4e8,
  .add 0x55e547d89c2cf2b9844f60f33608bdbe8d48674e23dd0fb91a51db9765f7fce81656f663d3a075581ccf9b6776f7712,
  .double 0x17c6e454b8078d92ec1efb16a0ea45dc44b6a474c55bf7145666476203b91415e9f7c3e62b6294fe686961814ec5acd8,
  .double 0x1d45fd3164f56adb82e86494c37b2a77967554c6791b980172faa1802de42bf91eb5b59a8a1789b4a583eaf4c9eebe3,
  .add 0x60ad7d8845b1d1be85fb1de1eb043ce01343b24a9557299f125c824a3b81f64e8ee2cc470b3aae6f6db063128340061,
  .double 0x111aa4c3337e2fcbb61c8c074f5cb32d65931176a2d9cd9fc18625e3da26765aa605e2ba1cad5ff0d94e824899c9ab59,
  .double 0xaf22f3d9c5822ecd2880fec3899e84bed44e7a7198b60f8859482bc00cb3055262fe3ebb1c5a3f8305295d568b997de,
  .double 0x81e9e0eb277559672623baa52b8a6a322374b99c78bc9dd06f440e690e76290fef17fad325df48cb45fd6bdd66870a5,
  .add 0xec0fac2e07df6b1f4e4cf1c103ee353e1535755d80c661c0252bff9b17020ece872b8ace01ea234967f53cc802149d1,
  .double 0x14b4c44b05f478ae7b6faa69349d4b0d3a588017f8c397afb0af4e8f0da79682ba118516c04147099d960f45b9a48e6e,
  .add 0x113ebafef32f695a0b0b8a6ede658cf88f5af6446452797261a17f20380c731addf188ed1c97647eb435f34fd2252013,
  .double 0xf0467aa9b95daecffe5577351474335ede7e513eb2480582ed14ef3718d28c63fed05e003b268501addc3eb734e8ada,
  .double 0x23af35d85813b0aa90181b5a9d56e36bdb8f5b04ac125d8df5f809d35807ee95643e5e31e8539489caf03a5e593b5f7,
  .double 0x5ef99fc7b65b7ae843dde61f2ffb2a279db510c43006e741f93393dd4222fa424f4bd8a8846750293f2357d86c78f86,
  .add 0x89851292cd890411e2b9825b767b93d9e0d3eae83383fed434827aef9b86113c6041538caf5d15b746fe50450f3b28,
  .double 0x13147b78de10e02114fe4b76dd1412e66b74b42c41a58493444662b47f315068c7662bf8d788d795ffabe950aeae6977,
  .add 0x79e75f009f281c1eeaa9e5db6bdd734aa0edb461d2ef33d3e77945e3287383f5ea6d4e721e936db5288db2a5eb163e0,
  .double 0x1617ef65e4968a600ce38cf91c2ea63b39100f8d34ae52f6e0142237744f85ccd2de0b77ec29cd03c4f3f87bb69c4ed6,
  .add 0x117377da0229ced23ecc82ee219199251ba710c3fc0e2c61138961849c8ceeddd93fd59fde76c4e014671f7d5a9315da,
  .double 0x3b00377b6699577f84908e1f91e3dc7f0024f591b106e84fa37e0fe97a9f76d1e57c136fb57b0794768f3c5c8ed29b2,
  .double 0x169118bcd6b2c338e66d2a785bcd6d91043152bdc40069fd40e5c13c17db9989901dd349884646c06f1ae76bc5041e91,
  .add 0x354be0c5aab7c89f6ce619972d501f19d72318d6d9be9ca1a7c5a47985f11e14b6e20beab220684261e11a1d99fea13,
  .double 0xd248f7021e31410f43073908346b0a5ba79a920ed65e9dbd08c1c08b02168abb1abf249a62777d313824c56a6b338aa,
  .double 0x34a7f792296266a0f8420b176cc871ae02d7529698cc2305db1ee38e22df3d266d1e032534eb9e7d9b43f44c54a5ec1,
  .add 0x196b82465c3572a304916c5b763945f40c48e06890930cc8dba3c34262b316175724f39575a9b2a9a1bc0d8a872d5734,
  .double 0xbaf2a917b114e8ccba25be077ca054927daa48b64b09963b22890eb5e5a8ba21259c53432d9795f148bb6e30706666d,
  .add 0x7f238fa1dd798ea8ce5484dcf40338bcb634bd49da39f86982cebfb0e30dc16b2b8dc00f25a3e0ca1ff0f445578e507,
  .double 0x190706e0ccef5e5258aec9da3a7927a51305565ac09c0a998ad885a9545307af4240d1190570ae11ad3e2c3c463738da,
  .add 0x41c4e833bc9237bbaa1232d68411b6b9cb7d84402ffda58464024fe16cda9fbd0acbbd3aa1f6b1daa78840c8a521c18,
  .double 0x18432418c62b145d24123baa81c9d25179dc017d92274faec2b1fd948790d0b610165cd4e3f0e2e4c089c059e59da71a,
  .add 0x1213b7b2fed32dd104e3db5b164b92c53fc25b198e8f0d725da30cdea4f8db16b0515cd67df64ff8b648bd50b32ae2dc,
  .double 0x1b0e3090597b42048501d06eea2d9f4316c30e51600bd570fbe48defa237619106238325ce96eb95ff8c11b5fce8313,
  .add 0x15a68d78bda2f06f7b41850f6e5a3688ac44f5ecb545c6ec8c4f753053b0919da048b70053bc86a1785e22932fbf6b0f,
  .double 0x12facd78b5959ca9c5eae6aa55da9d131928dc55f75e6afaa6b3b8975b16d145ee00af58700ef5705abde03d42bf6701,
  .double 0x15d215753d341cc120cae8cef5510330ecbf69e9f569390c7843c331e1f59ed3e27be2d1f8bf2a2d058a75d2c2dc6da7,
  .add 0x3da5a731942ee95ebd0637161c35dd666413539a4d1974d181eb5be2a3484f434ff42223c0226885c51245d9289604f,
  .double 0xec7d5c5a5553aa8808c7c2bfce038fab0b289fe5777e4ec61c15dbeeb5f04a36b3aa56d6cc4df13c893792f96ab67d2,
  .double 0x3b1f31cc34d99a63a2d33e525a646f1daa49ed73fe8118a6a7f4564153071d94490429013bf3af84f8e25a805cb3100,
  .add 0xda7a02b21619b244fb40879d117d72b71deb19381e3e9b85bb69f614479a33f18bf474bd7db4a6b8ac966b404eeaa,
  .double 0xa7e298359adcf2610239b4a1b575fe5fe9075625dcde21cd2312f6190703bf8019b3e9bf1aa8aba5dfa4e777d965132,
  .double 0x11582b659d264d56f878de79d53de5362f45a8e8d98abd5afd0353334fe0861416820fd966cbe880118a3934b4f32779,
  .double 0x145edab4a58c2658a77c64a49da39ec890fc075867457294593347e1480965b9e465dc00620e48f14cfc3f11819db810,
  .add 0x6f8edcb96d77d0dd8a3ca87ebdb430fb13d1593e6689a98b1b46eaa6eec852a92df55475e71eb8a25e8d56f259aab34,
  .double 0xcf360f14dbc77cac1cb6c4ddd6d6f0c7579ca37e02697a98fe7e0bb37760e2bb0e5124fa3ce5091f966cea4f71e85b2,
  .double 0x9c6d23ff303a6cac5b76738fe570b5a85ded9bc53e6bf66918cf07bfaffdf98215848fd60da0f817247fe5661eb4506,
  .double 0xb295a31a70bf3f7f7139a3bb224e7c6b5056cf1d400e70eb3303e07635a3f8ce2ad3bf17d79c575c2a737d827d11e0e]

def orderChain1 : List ChainStep := [
  .double 0x89973ccbb2e98f2ca5d6a67e47f3f5b3e86d5c615a25a166db10a889ee03a6fd24e6d68b4bc90793c58011609fdc7a5,
  .double 0xa3deacafabe929febf237de6bac2f44286a0acd6faeeeac2eac2962c306f0e5f22c778cb27aeed03e8fe26baa8f3df9,
  .double 0x7bd79791d2204fbce46ff91f277adbfa6debb61ff2effacd90db5bb5791854d38253a7b2237c6ac852adee99729294f,
  .add 0x153dd215ed2473341a9c9ba19b2c91dd338de1368f3582742e296bdec5972c0e0e3d5f7cded34fff25ae99987db2ea3,
  .double 0x12160b069cb46dc27976bd037a8f16d7f45107c85565c27f19c061f8b3cf0eb6afe5cb757f4b39b6b4bd828f21b673a2,
  .add 0xc8d7d4a9ac0c613017690f6b47c16707bcf85801a612987256de3d3687819a8f3c0a8d6075f134c34df5779f7185946,
  .double 0xf67ca5f35c1dd060b96f91e6fe953f1830fc0ed53279e1feafb79a3c8fb8dbcc5aed9365ec5e829759d652dcd76c32d,
  .double 0x1b57758deb33bdcb9e61fadda3bee6e004ad8781b88efe8f0d5dc894bd0ce06c9cdb1a7511c038b64076c2c957d858,
  .double 0x701499cf1540baee4bf5696aa8a01dde777a36ba4a18a7e06de765114cf15bf23340bb56bdd81fffe0a717355fc5c4d,
  .add 0xc9c6e296d4d445eddfe8e79c7a50f73486dcd31adc55f2b9d947b8159b9f9b4f5897e46efc7c4874f22e988468f8bcb,
  .double 0x116f96709f0820ce6ab6615a73482fea2fff522955ab9bd5df1cd10bf2ed2227c532ac4572d33737721094809d30322,
  .add 0x71fe5a7d56180b40ebb61f5a1ceb1ed07a7f9e5730d6a36fd89a817b5bd800d7a86b6cd827abe17acb7bce34ea8924f,
  .double 0x14f4feb9638330d37996aff96e4eb641e8c04ac07e9df55966b5fbe2d78b5acb007286a38cfc8975913b882a68499a36,
  .double 0x17392f2c0eff2d92a15ee90a4661080adfa7575e10a4959c596c486722b1e1054b58b524114f5a973e5637776fe3d82a,
  .double 0x1692ae8c08a972efb9dfe1c4eee391c8acb367208d7e4be9dd5c0e38a097ffb74d0713ae44681c3e11f51fe8ba6fd6ca,
  .add 0x13f1c2c045068d6d558a5b333439e55a683c7d6680effae608dd14a98bbd1b4d31a219a40c140548b37c252720e34bfc,
  .double 0x12e29f6d6bd53cd888ff226a5a7c6605edcd891943ff1a7466be770dcbcddee19bc0987522a477ccc69035de0ec9b271,
  .add 0x293fd66fe30e140d3fbb80f458456256b8e516ba96e8e7e33a0f8dfe52a9c11b409cc34f84c9f0019637bec6603c881,
  .double 0x12eac8e892bd0a8c16d8d47a81d6a49b214c075e6352da0903928501d0a9cbcf686e0b7271a12d3a480168347555a844,
  .add 0x9082eb9b7b541437395cf1ddd697e452682570724e2938cfa56860e259c60ae34197be1536c109e965439e92f1649d7,
  .double 0x10d9e1eff4cbffd230e5af88972edfbcc495ebe9669da1ae6b6880dbf0dbf97ecadf0561eccc133608a057dcc26acab,
  .double 0x19f6be93c7e11492e6fa2c89131517bda238ba407dc92175f4fc26871c0794e3c7a50c630889e1b0d05a43b23c9ca419,
  .double 0x737bd49918a5997c784f7f0949c6e78ca73fb61676a0d158ebd732ba7eab5395c741999f0a8e49a86c9b638ec07912b,
  .add 0xfb2c7f5e885eb38b1aa30022aca0300f4701362e2f10098ea7539727b4511acf6bb12351a971135ea9c6695353bd383,
  .double 0x4fa9214f74ba96b89f289c3bc896b68b066d7d16264cdd43ea4daaa9e3b556fc272ab51ff310c8878cc60d2e7d8527e,
  .add 0x127352f79b38930ba6240307ccc189f30825964382b0b30573f697893b6d5080ff965a0287fd4d1b06355a7a662b74a,
  .double 0xce91606199c898868f49ce227cb014036abcc8a7ce32792bbdc39cc7a99157a2e8113ac0fb653041a0e22619510f5ef,
  .add 0x15275e436f98b2f68529e20ae169530f3b2c8338fe5324fec9de12fe7dbff26b696686bc09186376d4d8100075a61766,
  .double 0x329ec971756e315b8a8ef8d817464d9685090a95970b74a3dec051e9934fd095d401d75596ae3e444ed60bc4cb77390,
  .double 0x121981934be4cb1f1e7bb18dd8b9e4d9a25324048efc2893c2885c87995f84d12aa657d711b48046c97f163499f16434,
  .add 0x19091a2916dec019ffc8949d9ff3eae68e2935cee7af5d1d3069dd85aa3dad8e252c1f8b1c583ed7d884d63fa495db51,
  .double 0xe9c5db3db7469330dc8a30a144df8e7c9e720ff0dddae6c73734898c0b176f407b7fc8de508318eebf12363265b1c35,
  .add 0x90650237ae96b9f9f8c1a872ff9ef6c601480943d038bf0f42f1d8cf252b5a5e9bca4ba0067cbf2928814eaa7689add,
  .double 0xde5dab4236e02f6c999d1d723b648ba66713cacbef58e4dcbe9f6f3a9658f17a8042642ec7dfd8a73c6d7edcb260c6f,
  .double 0x856ef41bbb716e825ae5bea509722737d07527ec6c7c1e601c795613c6f7d6a27ae659d92f73643c5cf00215587fff8,
  .double 0xd44764845166481b44126abca4a9d93d83b249fcf1234f6954dda5bbd9bece9e2625162b35999f48468766572d2b56f,
  .double 0x73baea502fa03cea42880f545c398ca23389323b25006757daf5a31314081460ae5a2d669dce42ddaa9ca4e710341ca,
  .double 0x9a46fab474853f991d1f14cc7fade33203a14e7b81d859207ce8a392527c2a53921e8d078b22efd5084b063270aaa6e,
  .double 0x3c5e31aaecda7217d343b645e5cf493bce7a8fab9913980c69eabc1706c0f0269b22f7ae5fd2bbf2cae559f1861d205,
  .double 0x9fb384c6b5f0457bcdb9ff973911777302318ca8116e85ae837696d5722a6076d4454f7f2d00a737809a8fc24bad7c8,
  .double 0x1441073b3e023b8bb1e0ad3416cbae031d07b9db1d818204e34cf5e90f9cd8bcb4ca30c6baa2ccf71a5cef37404802a2,
  .add 0x15caea5708064a971a2becc3f048bd0a98d9e25016b02d35d47366f28c9478bd8bf4095c679549dbdca231e7c50b40df,
  .double 0xc3d24c7e684b6506e59e32db7e390b13a93f1853cc8c29c1949e50955333ced45796c9d170e38b1627d8b91211e06a3,
  .double 0x13667006cbbb75449ad4521621a7d63411e3925a2a0f799153612af184f6ce0a3a015445f07bd8cbf97690543d15f544,
  .double 0x165b1965cd39c062dd27c3e3e034061b017879e9fce3eb005749c1959d0f04f5ec3fdcb233f7f76c8acf3f1bde7747e2,
  .double 0x128955b0d6844cda93fba616317e4cd1700d62ac36aa6b10e723817c2f04f87cd287232c10efceeaf527a4dcce1ce977,
  .double 0x16c3fd4e4da5ed2c75b3afe8f61fe5a8a232d7c7ce52a6572cac67d40de6d09c9ffe2f39a8c986b022f31b1ac0d1d076,
  .double 0x2edff39e3984eb849e34f059c3403bfa648750d6251585a50b33b9137a0fb2f5c04a2ca0a989493be5ce317c63bc789,
  .double 0xdf1ceca3a1a9ee8f37dad33eb21ef41a891cbd92d70de1d92931ccb7a4b22762b089c1c8ac5b238e1d5be923f38a6af,
  .double 0x14b3884570606af771ed3ccd881e8f1f4d8e4f3f6d912237be75c5f7aceb92e5a22df6d885d05cac3acca5c5dc5d9dd3,
  .add 0x11e5cf75f19597e439ee609a7fbf8ffb48c0ef6606a30efbb9d71171e0209435019b5ad579b61b2b5e493c45d2d9e041,
  .double 0xc8a3958b4c64e1333996736966ee034613c92b6a8a4185d34dac396462ff636e9259745084491b6572bad91758121b6,
  .double 0x83d65b06654428c72f19ea1c5fa8325c6552d4326cc45e97db3207b56436e7bc3a70b033291aaa593e065fd24e901cf,
  .double 0x1125735df25e4eeb1524b62988d4208f76519c63f777a9c28ed5b311a086188b1b1be0dcef7ef204758adce155c7335c,
  .add 0x17175e9e0e29d1effe91a42338b7bb038b6c45dc87d4853951d0435dd34df427e313916a9ba74ca7ba7db04ca784ca12,
  .double 0x144f05aee9778e0d5c637c6c4beb5c3fe367cec93458d6ee600ad68d6bf2736b81a2273b3c4654ddee1beb27301bf8b7,
  .add 0xa537244e2e78ab7a94ad8c0be3b5ed96a8755301a140d52ab74457fbb38a86f28fe8e30b2510ee6ed7d1b0a0765e908,
  .double 0xa500ed9a3dbded5d268849f03f7171d814c32ed43a56ba22e43de39cb1d7371b0ed902309715c996d5527f27d12ed8e,
  .double 0x184b95882f41126a4f275c5a285de15f49023bdf5ff206d6f7d5c07d472a02eb00cf2483a4586326cedef4a812cb5207,
  .add 0x7d83b5f5aa1f263ef0bee749fd58ae5a4d75f3462e3d15809fcdb67ea3ba6b6451dd5e3ee43339ca17687c4db54ed91,
  .double 0x298e1c6d4dafb0ee22786bb4663bc740733bd8f843b103f9fc3dbc58f15220e992d2bd3be7ddd1673ee31e8b1ca95fa,
  .double 0x660c91b20a76aca5246ce50f9d8664405e304a663e356af5f5df9ab0d0919d18299b71c4cb03fda471b03892042e3df,
  .double 0x1258a2880b856f4f1c3ecdbb2a7edbd0cd0933370886c97102dff0971c3ff4b08f2c4e125c4a45a60e2a88266c1c07db,
  .double 0xee37a1d4054c76bc8e5c36471755e65e672ff4fbc64c7f4e64a317689eb0294f2be10cd14e0d0de699c2fff46fc990,
  .double 0x610dd3f4d0ac762837fdb300b0eaa45ca71bb3b560a25289d9851ba85ce4d2c3bb0331709eea8c0e536c4489cd66904,
  .add 0xf53a4954f53e21756f99a4848ce115d9d0fb1e918d4ea7381678a144ef35274243c0474c230dac83c5d725831611977,
  .double 0xecb9b1a64caac1a81b0f9ce4afbabe5385e4c59e45923baa8b85ba3f6924fd7205748518928fce59bdb754afa899f6d,
  .add 0xf6f91a676c8a4c3e44c0c930857e200606a4d3450eedd53c6cf5fb1df9bdaebe29c48f38b6db3584a586ce12ba81dd4,
  .double 0x1011bca191ab7ca4370e521a16aef7b6f71c555e99101f0d9539086b900d528c72a386cd4ccac564285b49a580ce60be,
  .add 0x99e9b6241ba2378bbf039ed3b0036cc5869412ef946e223fb5806bc41d2568c73b4e134b93d17803a4e843ac81ea5c0,
  .double 0xb5bd379a1c3f1235f5e7cd2f7f4dbecbfdf0478f352693ae2b7affdb55c7ebea3136af83484005a1895b498807b69d8,
  .double 0x16f461cb5380ec5b9ca41f4531efa55e1c99f8d08a066403c4c137de9c4273cad1c04875364ce78aa0d57769c970937c,
  .add 0xf4c00477218c73eacbea1072b5e8b46185740329562cb58db51788f8125c27a59f4d7d3233426ffa358b452312ec596,
  .double 0x1631d9001ac5ae97263f9cff315932aff4721f70dfda80e8609c4f34d41bf0563dfa0bb00a10205e31a8cfadd3934e91,
  .add 0xde91897f7087467bdabf489d80ef4e45b470906d4a0fbc66496d27e8b810db79ccaf2373c2ccf231ec5fec7a28fbc01,
  .double 0x5203fa36934bddb6cf4c95555c5b450100c6732bd04eca2843f486be7ed10da37163829dfec74f70341d9472e449e88,
  .double 0x20b52072005ab956dddc243b6f448ee26927bae93024a98dc9d2f38cac1ec98fa844983c6f514d9c39d7b5669dfa5b7,
  .double 0x29dced9a5c6e4b55f006fd2b301a82f54f37121b612e989a07258a6385ba36273790aef2d64bbf60ef25bbf8be1cbb1,
  .double 0xad372405a4152dc6f26898e13d5ca7f7a5c746e6ab918ba6c3e577ffd99998b3dec2c073ef5c535e21ae528582ddbe4,
  .double 0x146b12cb290378483ff8615dbce807ad2cdb5a235e2d0324ec833ab924eeefb10bc1e3a96d7b21c919956d0be2f4cfc,
  .double 0xfa3b5cb8a72ef1ce2bb59e6c73a306a81e230f537b0e9ab86818f73a2d30c47d94fa4e29860389cf7a5bb4b17beb27e,
  .double 0xb4263457fe4da5040abd08f5aa1dc76d0ada99256db6908cd8dd51543fa78d5038bc13fda84116a50a953dc054a425a,
  .double 0x13423b744ae84af0432350bdaa70f533c4e6159adc726659fac21907e5f79af19be32dfac728148fd3b8e279ac14919f,
  .double 0x1151dcfd7c20ead947bf2f2e5426ef880e3417537d9b6801b48bfd53980b36b10f83aff09e9623c36685b56cfed89904,
  .add 0x6b7cc1bd683d059564ce134944f8502f57f89a40b4518b130b35f5beffb177a3c850d18925e08bc201a076e100e277e,
  .double 0x1233a2290a0ff85bbbd90c0e9d7f7a0ea64786fc4fedbb8bbfa17a1855c9d427e9d0e115f79bf317249419f4756fea42,
  .double 0x162867dc9c334af826f40e70d26098a0e5a63fb85c0b9cd8664d56fe260f9bf75bd4909d43f9aaf02309c77adf86ed69,
  .add 0x11aa674e87c2d09b728d2674df3858e2f594276da14f65041044057ab8efe8a37a0104683d0c8cdce498559e1fd053a0,
  .double 0x4a4e30b2f6d3efec606fc9d778f7b39a35714ec0ccd3b43cfbe3f77dcc914a1678378b9d858f22780b7f7d37290027f,
  .double 0x6d1967ceb57dcc87af81a6a0ea7585cf0f27d019e352fa5f78f6f0d432c92e7ff0fcc29196393c0b500119819ac0535,
  .add 0xc948d3e6b97051d78160a98049c374f3aa0823e7711b568cd898d241c2fba37559ffde957195c1de97550732e13e90c,
  .double 0x29602094847f676ad6c8e8279afa20bc37639736c8e88e97ed3bc241d7d21d636a8426368a31d58de84ac833bea04b2,
  .double 0x23d1fd7c79cdf1e26cd5edea62cf5c91b3b3537702c6e94a0c86ac4452b35b1790951f2b10b23094d1c744f21b2c4f1,
  .add 0x179bde35e442661291b0dfcdb07897db6d5132ce9cf089f907d984dbea6f595bcef6cfe10e63e7593a54bd931ff4ee6b,
  .double 0xf57e4e94a515290683ba32f891ec3c63487ed796a1db2c70bc9567a48245384bc140f169d19007e02baaa144aa13c3c,
  .double 0x2f5876a847ce359633f6141777e6e3dadb3f579a8765f9ea826c59da40d4098c32eb37986afd02e01f8c1a6c71f3ef8,
  .double 0x2e4aa60bfa85680b38e0b8e6e47fbbb6f7c8113a305fa3f694ff34450d1f22efd0b337c3ec096616fb76ccc016f6245]

def orderChain2 : List ChainStep := [
  .add 0x17b25d53ace94e81477c17e850af3da1aff34c93a35ac3ddda2d47b573586f0503c92d4b170620dfc6285669c5dd51fd,
  .double 0xf1d6a395aa7673546d9f2ea0649aac05631fe63c635d0222c2056a9b0f0c50f54266bce34884b4d76b4a991e1e11398,
  .add 0xfe3100022e27eb3c64b3c4576c71115d097d4a7d995ee0b44027fa913c501be0c922a7e5460553c2ffd80597494ab71,
  .double 0x102a9d95825593f958d2cfda0a78df17bff095f1847db8b1115d38eadc78841282aa4b8500427c07ac808cb4d1a89a2a,
  .add 0x16c4fe4b62f4bff07b3844c713cc660eafb5346a3a2adc6a3a2cf9f43710be8168aac8911a4de15828f80bd7625158ba,
  .double 0xad46dd3e69ff2b0c6b940010451ba1dd26d4f0dfa305aae3aa83640c79ba841aef709ba14baf22b4852d8477057c9bc,
  .double 0xc672839b388d12dc3398415c4868729ee68ea1742d35dbb0df348e439696dccec425d4bf67fbfe538863d60b6c93b5e,
  .add 0xa0eac7df53800e4bc7ed8c6d76ca1c20e276a9c1e4bc38be95fcb29324ad8f9dd0bd71c5a64a00674b16d60206c4a4a,
  .double 0xbefe70d6d7f19c9aa94e2258b29641de2d122fa60a1def5960eab277c69ea3f613f4cab1b9b5611799ccff073abb914,
  .add 0x602e15ff765eab505b62bf57530acdc6caafd3aa140da767ff7b6210ce72e2524680b703666632c01060bdcc28361f4,
  .double 0x71c408e334ca80aa4cc5802e1ad28fabf44f02671b96863781e72d6f3db5077f020ea07ce84f102c8c83606bdcab035,
  .add 0x113b704b1ee8aacdca762636ddf5fc2a6580df08ec2b7baf848b349f08087270c072f06a43837e0f1a66243f6a42a509,
  .double 0x1908b28da84ed62ae8d1f716787303e7eaa7bfa570c5f6687036700244b5b03a693db96134bd1e4a17e401c0097ab62,
  .add 0x466b0897385e2a27c57431f819adf271ea2220b8e6f1b4786be458dd87410539f8001af42aab8aacba3ff7e0e40b184,
  .double 0xadfcc9af6b89f20d0522e907bd0b170b29bd6ea8069444e7f8a71aee99a43fa16fe4d6024188871be2770f439b4f317,
  .double 0x184b1c48325d070a8efd343c417a53125b1f212910ee6cabc21d03796a1c3662dc5a07627f952b209ab17d3b6c330ffb,
  .add 0xe02d5eaef69c3a28036cc2c347ea7f30f460c15091a72891984683e3c6a6b8c5ecdd02df37fc848de4ae4d158982e7d,
  .double 0x151d9b6d2d1d9835b576e295429bc89a9e40289d37f1c15debc6d8e3df037d151cb0444d37475648a73e39f64b967488,
  .add 0x159ddec81dd79ccb9a219713746ff18b300e91520b2d6e18026c509fdaeefe404c45777d396561257eba2524d2708ea2,
  .double 0xb478e608eb1e28f1b432fea20d33b43d5dfa28fdafec4d68a7fac93e49fa858aee1212284c233a9ddfd96405f2d8a3f,
  .double 0x17cdcff05c26a6a2d8a5662b127f44d2c9cb47201c12539cb990ac8abeb18b8b08a37a393fd5765a4a2f698c9ab6eae4,
  .add 0xed509390c8af87f74791b677372f70372733af990b75ecc2c621d3432ffcc06f49412680fee0c2e0803d7dda23fb34,
  .double 0xe5511fa7a567b3ba7047da514315187ab81327a9ca0f26057b790c662732ee4026fb4a20af3235faa8357d8bcae0760,
  .double 0xcd6cc6092932b9ee76931fb08e9996117e2ef636c8038bb83bb111e8f6da633f162627a60b55eabe0b73a05534f7103,
  .double 0x20a261d0e52e8593c73c4b22241ff37c68f08987dbf2a257719a5db4f1883ab98be04cf20f9c3f9d9b1034682984e2,
  .add 0x1950a0cda5993f87ad9e0394906816c1d7e4ea98be619688a0365a162ee77d0542a9b61d5d0d077399a6b0289706b664,
  .double 0x2a3140925dc533630ad5e8dc49e744c7eb162a4cec886ac6f550ab9c73f9594bd5638d97fc11d69f910a0bf2dcca10f,
  .double 0x2be8ed7ceec703bdd964ea9cca501d717924a0a1cdeee7d7e48dbd84c7791951264c1be396a8cdcf7fa811d78fa06c4,
  .double 0x1901cdf9a126ac3ad908a812a6390709b30cc001427b32e1d08a79aff4c8eb81ab9f8a85d6dba48695861d0f23826d40,
  .double 0xa902009e2d1e845b9edd312e22087191991499ed0bbcc63713d83b80f3f16d2f61bc8ec2f175184cadedb5d6a013b9e,
  .double 0x603554e505ad1ebdefa1e34526d8bb0f6dc126446f7cdf20fff2df7a5200de9a85a0e2ddb7f3ffe91a4a6487190ba1,
  .double 0x101203edbde240e5db65e8b6fb38c425df2bf540e8f4351d97f1ad1292bfd79467c7174bc8380d81a5d61dab042841b0,
  .double 0x8da10b495d578bc4ea417b428a6cdc475a6411b250db333a3d672db41144d784e23fbabcc7e5df946173d506786906d,
  .double 0x3db2596406d8cf505021a9f050c3c0949ecb5ab47ee96897cda94550213aaf64bfaa0242b17601fa23f90189c787e41,
  .double 0x1771898494a942100f9b4178b7dbf4ebfeea67a74226115765293ac6a6cb04ef40f978935bbaf3b1c71e3a7f03bde392,
  .add 0xda94b9e64538b5eddad82cb867656b01b19bfba5a828e688a5b8527762fe2801763908e85f10857d207cca158b84a49,
  .double 0x8fabeb2af347d473b13141f4585d9f207fbecc16fbd96ee5fda733fb093a8dc92700ac9c3c0f4962c7e268de228c699,
  .double 0x35db44353159cbb1a1440532ef84426ae742c15f48832038ff16a9cc97978d3647cccba50d4b8cc640cbeb4c08e0273,
  .add 0x1036e221bb0424be1beb3720ae42d9a763c1b4fe39b521f7107752b62ca517d324b1bb6b20c820f6e7da0b891308f6cf,
  .double 0xc37e0cf5db11898f73528aca8d305c115de1e8a06ccf960a58fcfa483fd45390613f98b989b64870ef60f06e9e6fa9a,
  .add 0x4fe0d2e4070ef55727313b32c616df09e08934ac2a4028ddb0c68b101830e8d463496363646052778bb71f4bac45219,
  .double 0x12b814ccd3f6fb6b3d769deb5017e900a2747f4a111674a71fd5473484a6bffc6d88038dc30d06bb285cddac46b7eefd,
  .add 0xf00154cf0670cb57bd00b86d95e3bb3b308912d76c1c86509432235bb399f3d5fc2d8a7d8808dca281209a6e94f5ea7,
  .double 0xb221bf21994201445ba68b76a4dcf5c12fb0ebb35083b7f42ca74a427d57cbf2589fe22ade8741d1ce42bd95fff9191,
  .add 0xb4a85f191c8bb99deded477090b6c9800a4a7dd11dce733f9248ae6866c4eb274b58c9f9d343716bd20feb21140bebf,
  .double 0x6039923583c711325afdfd9afb6bb0bf9b8c40de57c86500733d5fc285f3ee9fb06954d7be6165420c83fe2f56a2a6a,
  .add 0xf79ea21016c2d7dd3f16748fad4997c3c73d3002f0559d9f0fdc36f6f98369ef76122ff7b960dac218e18fa0cae8295,
  .double 0x5eec86d606cbab20e348ff4bc1ed36ae3014d6de634c2182a0632bf03e1849628ca6ca616e406bb2769f522ea357153,
  .add 0x125514202e522726a8f66909268313f31b223c5e59de550364c4d60c5f3e72f4cc1c7ec5bc45d509485d28f7545e45ee,
  .double 0x14ca4a71e3354255ee9e7700df500977c56660a9432622082f9e5388e8ab2d8e7c95f679d2696b4bb822472fdee11f75,
  .add 0x80cbda7e7934a5ab7ae707b5eddac3ad8667c870155ca25b704d07f4e9f08f5957fe47f32e141b930d32d1f585190dc,
  .double 0x154ce4fa69a8bb4a109d9b3669fbbcb478e97e2d0455fe81ea75a3ed73c47806f0065918a0febb4e251bae33050ec6e4,
  .add 0x1942bb04a4353ad41bb823e024c61fcb9db0ec17bb65459b1b6b64206209fe66fb7586ddab53c7a53fa05979242b343d,
  .double 0xdc6916ea3fa439dacbbe90fbadaef6284721fd6759d17f4c738311c67e59955eeaeee65b97a9cff7f68a272adb2589d,
  .add 0xec16ec2ba74974dd20e263ef85c5eb5b962c5a70dfbf924dc4ee4fff8ba39148a1eff6301b969c5d62a27e33785af8c,
  .double 0x10e0974a523949574eadb15956735ba060ba56a129cc88481241a72dc4caa4a9b5a703cf7f8e40796ecfd0a9fc427c76,
  .add 0xcf57836e77d378bc69a48bff45e22e98ac10c410059c597b6c3e71e9af8922359e8823e726e106b9269b3af4f76fcc5,
  .double 0x2e4fa23861afae8460e635c8ee308ad0b2957ffa96c62730fa3e75b0f9dcb3641a1fbb5e57e282924d46da95259abdc,
  .add 0x13301a151a7525ffbd10bb6c0397e2e1a29b82005be30f44f799af54a058ae542ec5cbaeb6f276d796ec7c29c230fb1f,
  .double 0x12ed1376e1aa4b616ca21214bfde5c1253ed994073cdaa181c8cac2969780cdbfd047cc2cac41b3ba21de7bff52f2bbd,
  .add 0x15ba91c0f32188bdd9d2ebbfbf5b10c10a4babc6e5ca4cf0f382cdd669aee73f2c95bdde0fe8a9fbfd1af693c7be7d0c,
  .double 0x1400b0f4f55fd3e1333a12e6276259d4c11241769bbffd208fe1d826d17e39c895b0df806c0f689ef7d676e99e2fb18b,
  .add 0x85c51cb58056287a974ebdcff1c951594b8355f0221e40cb08a2ac58c2c03a7fe016e6ca5dd414b41e0308314495208,
  .double 0xfa466c6944359fe74a5cafad44b4afe5d135554cf4df1216639e50bc44d054cd0312e0dd51c7578e4a72280aadd4f19,
  .add 0xd3caff2e85bf0051520190ea799e328fcee98a81ec42f99fc94a540e22c30684746ea6e30ded91a8803be140103b5eb,
  .double 0x1671305ebebadbe465d3a6476986ef319f28e7876941a383f0e79533cd45bbf907a25a1bfe2f9e1d7e9889955e43292b,
  .add 0xce9f26dc6390b785837c1bd3bf53c4fdb865bffd36e61e0c425939196d7bfcb2d9f7c5391cf13fcc888a5e37ed159e4,
  .double 0x1ce1d62a4377885b8cbaaf9253c187bb4530a3cda5c9e5506a634edb3b33fbdbc4cf084faa833bbbe01a82e9e027080,
  .double 0x1295016fac266768614047a562e6aab3443c54619d0bd36008100515942c2bff3994301a83b82c7ee9b4b8569459128b,
  .double 0x6e408d66da37aca0b659ecfbda7804b9d83d64981759145dc8709f5dcab326a5de042edfdeb3ead3f08f718234bde5d,
  .add 0x144720f2a5b4f98eacb488b8412e16f26637bcb274ece9fcdde819870aad602fffab1fa0c01a48b3de160e2647000a5b,
  .double 0x3de978f05e1b6bbbfc09bc96aac0a6e1cddbbaa05e73a3c4eaea59160df02876cd632c5cd49dfda8e95d19cb491e511,
  .double 0x1646c8558f6f43bb3e5ae0e212aa45c706e55b12be81c205fd7c2efbd874b76015ed0778625f872fe1a8818fa50f90cb,
  .add 0xbee4f2d0ebe6f1626b8a50fd64898c54ed95045f1c1d90645dfde010e17540fd8b942853994e02bcf8d96b507e06fdd,
  .double 0xb1ed66e77b70d0c4394885077df03ecbb72a5dc4f12fa429a639132ce76ad5c33e9d0fd129176483fa373afac28477d,
  .add 0x149ab021a63575f7bc5ae9553ab14173dc2160de91c7e3158f9799f6a1dd2cbdfafdfa9106e6c5f66bc6fe27ed35886f,
  .double 0x12f27e48d419241534b88d3326293088a5c37028ab697eb3e8758919b701956332be4d484d9fb09707a5e6a6a9d8430,
  .double 0x1b5403b7e9a832d4425826fcdca3107c59d20cee681aac0ad727ed83c449f00c7b8f88d6956b807b04651e852a755ca,
  .add 0x12ccb49506cd71b0f9b168cb175910808f7a38316d14f19261a2721740de589733fd4e0be01f1b6b32fa6fdb7d61c3a5,
  .double 0x27d3ae7d46efdba578e7166b2ebb317d928de4d730a95e455e693ce619d4224e82443aa9fdc9d2cddeb1471f0787dc6,
  .add 0x4a28e6c5cb9113eb216ec0df73adf597ee659649a44ab0a378bd2e7356825ddfbde5a266b45d8428b63bd8fe1d2243d,
  .double 0x288ba093aa4700610504d0ec62617fff80d60f84bb712b46a23512a763a4bcaf5b42cc290ef70225e86e5ddb01b562a,
  .add 0x1180ad352605bf73dfd67f7f347d38885526f01303796285d14abe393d7b9b74780021b0194a2201d1d189a6006b08fa,
  .double 0x18dfd3fab76e3ec2ef34f611f1f758841c911ab96322aaaed62a4c8f597cd4eb09b29cd11727dd08cd124396d572e7ee,
  .add 0x1302e9e37c0159574a2608414ba28dc7a76ea78dffb93930fa78048adba8b77fd2efcbd307b78ace013912740fbb2de8,
  .double 0x9c62d2d0452927110c63b379ccfa40ccbd0778b2f546109a702ec93ae6312777d79e783597ec735325981dfe7325505,
  .add 0x9644e1099df09fa8678a416513121f52abd762e2769b758c9c4888c24da84fad9224a851181f6190272297b175d52b4,
  .double 0x1938c85abbb01c53b121c9bf46b417a85fd69798058a38d1d0609fff93e68848ba699d0b38f2db99e8cbf83a47d7dadd,
  .add 0x188cb144563fe92fd217c68683ab70784d59b10fd692700d612aade2a5b4ff52674794b71fc22c415e02a96519af95f,
  .double 0x462f4d2cb3287815f8c880503efea153c8fafbe593f75138da22b97d09db1986714eb6096e2347cdd5793f30f0fa436,
  .add 0x169f788f60a8ccf28e2e4f2f0052006a80085a71540ff3d2cd279b1818417b7f9f1a92d627480946e2970916b5a2d4ab,
  .double 0x1765822993d56f323ab859108d8865b5718e41deff6d9c9e67f00eaba4bf0212b7173a365d56b28eddc00b0ba9475884,
  .add 0xda80f93dba8940fc4c0d810d40030bb74a959c54fbd21f8fdca65dae733d598ce43c4c5c533549e09a643c4e85ef2a0,
  .double 0x99627a3571ff7903a084a326b55f33e983a01f6c041c96d8578cc9ec9d72dda6894adb32f75ef33a4d8d302c99b3f36,
  .add 0x445036c9e400faf41e42005a504db10e16086bcb5b3705a04703ae54ea294a0c609c75537e3bcafca7b0b2da7696cff,
  .double 0xb18ab0e800c7630b64b2c7478c16c47d5f237ab2825ac1197117a03838cd7394746de6d97eda0411df06fe63fdb9483,
  .double 0x18ed96962f859eb2b5f522a17da5fd2a7507e82a95b7f14ea4928a0778e6a6ff3b6d6c671f0b6b1660aa60dd78db3df8]

def orderChain3 : List ChainStep := [
  .add 0x13e5d061e379151f93eb958a446345297a1e5d1358a533b1be47beadcfeae216259c6473c8db88c4dca9d88c5db3c7ed,
  .double 0x43a112c91d7a9bbf4e2194e72335f070849f4a19cee015ea258ac5e6673c595d58512ab9a4a4213bb269c43f1f13d75,
  .add 0x9f6fe78ee9a2bb92fd0aa01e051c4cbdb9f7b56d2f0dbdf11ee75be764a78111bb8f4081a294b08c2990f9f8c379a03,
  .double 0x1290d12659c9cebbeec4fe3f26bbc0b6f112a7dee174abf7d6cae6f9cc39452e12faafa40596275e5d47bbacfb91fd8,
  .add 0xed0395159c74a636704a2dd055246a4f0c6869c1aa27fc66f9d328ececde32abde5690b735a3ed8bfcef1fb15df1b8a,
  .double 0x1461d3ad0b5b0af6cbb59475cb7bfd8f2f61238a437bec923466739b471eeebb3360be7bb6766b6c81c001528b263354,
  .add 0x60aa4988a1713e4b82eb09732c7368ee345732c27c212d5be6555765bda06c48f46620c48c5f37ba59a2189ce15a092,
  .double 0x176dd7a27d2e92ee34e5e4f9fd25122371dc806bfaa5f843f24dcbf6439264ea760234168c0002d85a9e412a419dbde4,
  .add 0x84f823190c8f90a587734587693b7a97ac03b76ca9478fac6ad84b48d43263d3664dcdd90ef187f6e73edaf054b952f,
  .double 0x11537ffd3b39641e27e0c6f36e0e167596869e8cbb933f0057b42c55ff972f437e9758b30fe88b93e4ab174aec2f9cf7,
  .add 0x93088c5e5d99eb14c39fb617c6e846d98b99fc0f2e35861f781ddedb3a2ce0e45f22c86ee760cb9488fc2b01399e2aa,
  .double 0x177b502ebbd30b7535579b64069956457ab4a6b4b68f207ce4e41dc31173af1a690e3c0fa8adea2d224f2f93e32d17fc,
  .add 0x3a8e6ab3c6970c60f9f2ab9bb6f93da45d07ea1a9e2a7b46aabda6442d895d9663fc808bccb5b8a78e1e86619371a4f,
  .double 0x8ee7212004f5ef9b561662d9049605e62f33a8cc2c69b1e3c47163f1ca6d00a8984417638fac10f63063f9de94206df,
  .add 0x8c9772ed440accefb40e702df1e9422792300aa031f01187d0ee41da9c688b9e51f19ab70e294e642cf9abff4a2549a,
  .double 0x58b041851862c40a53fce978bcee97296dd1655cb27de2748de2992ba3f209dbb59052d8bea06856b9e2e867f6a6848,
  .add 0x18034905888dae1e3cc5b0506cf120a028215d02cf5bc2fec1446aef5b1fcbcd16532e4b46dfe20721468993492eb40a,
  .double 0x4126cd282e4fa59db7c5c9651d76ec049a76d9a7b142a9428ed73d3345253085df1e6b0319d02f48ef9402738056444,
  .add 0xc4ecf82cc1d1b64461d966596d0d48187ddc75305634fa385725cd1111e62ecf70bfffceaaf3d017e1ab6f8281b9494,
  .double 0x55bb376b0090788c9da6a291202ab143a9a2af9971b80f0ffeaed6f2e765a9e0096060cf5a5b5fd76e1e48c9a9ef2a5,
  .add 0x159a4c4c3e884976c28c1c73067beebbc109373a90d6cefcdcc1e20f217ea6fd6c1d4492a0f768a37665d2bdecb01641,
  .double 0xb959df35596d0137017e7aabc9c4fcc777ef72ac271a037a696d149ef95a19f05aec5174c1f823b14ed3c9e9f97613a,
  .add 0xa0326eea9bfb5a9033b24018e4a35157c9c8ce59acafad0e0aec54d7f7e55817c287c79f9484b27edec81c24ce21b08,
  .double 0xf442e60668ffa61cdbb468ab3cb1f0174727b3ae5ea5ceb970e84991e45af2276faae5b21a61f839bded99e53611fd7,
  .add 0x142346e0493b6443bf050b68560715507af2e5ef69ace2f5e3f0b5f8bdc7c9e25f194a6288f010dcb64e8a26686dc0f6,
  .double 0x67a8f40b147ce9404b8225292c1de7c13b2061a7e2ed1bbb34685d0208089984b0e825c98e5fc8e8e5ac96763d10e7f,
  .add 0xb297901bb620a4cc1983aa3de5a9f2598e8fa7994f71ebfdc81a48436915225cced42564cc4c818954f7aa7d11188e1,
  .double 0xf1f4abda093be1c6d77c80a11ad4df11295f350a80bc780a10ab0cb9c7008bf56f2be964f6dceea3b67e29f7570ef4e,
  .add 0xb1f552ca0360f97fe8a35a7ddc465425143912383dd9469785e7037bcfd87734d00cfdaf6cc09ccd864cf6dd6a57b1c,
  .double 0x45c1c08ed6a4cfe26f4837938f5b89dfc7480492f8426ecb3b02ac19084ccdb173cbb5a1f354a01de4828810fab60f8,
  .add 0x113226ede49f6cf23e328f6c3f8bbac03d8d7a8738925639afed946f9921d0a16b07f77f2887c5c502c5b3a465907e08,
  .double 0x9b43e0c6ff470d4adbd74b1c3d644ada836bb5167f04257a9b0da814a3eb28dd250a1b7617aa4f9983ec93558d509b4,
  .add 0x1032fd4c06efb2ec0ca0828f2ec2c2217be20c30be69dfd0dd24a0f8631a9cf7d1f37dd85178e5da8b5d377bb8a598e,
  .double 0x18b989c6cdd5ccd2bb7c304a04c645a5ff7c6c3efba4cbf92766d7905f5f760d4e1bd40ed939b396f7f94e2bb821c617,
  .add 0x1511cc8f62455c3ec2476ea2604807f2a249ecd181dbc956ea4b9a3debc180478774f610aea3018d58efb8b91e9d7c64,
  .double 0x29aa1a43d135b64be8e5f10a8c71d751f448ae1a9bd50128fc5560d8d63623e3ad5c9af606352ae228be0bca25a7d47,
  .add 0x150b4b6f59b27c34933551eb0df0f1edf69ae7b615c9fd40d57b8871bfc73f8fb8a3221bac0791d9938bb9a3d2479bf1,
  .double 0x14c0613f2bd4837d62dec4a15189a1c7ab121fa7f1af19e28b11ad6a0bab443cd1ab0cded6c9dd3960dd3b4b338401d2,
  .add 0x75c39e91fd9b1de9385b6d561ba4efe5be3a416810a26b7b67d82506fd22c4a9b74c672ab6883e56a8891d8a63eecb9,
  .double 0x84ca89f2ff121f0ed710f66aa2baa6486a7f4d18f5832c467c99cf96f2eadde8ae4d0ce8ac55486a3919a23a1e861c,
  .add 0x39e754a2c24f56d923a152e568db8b2c4b743f26ee4a01acd29db5d9095c6e2e429fc12bdec05a606e151900fb49423,
  .double 0xcfc75949c0963eb8240cd73b6208b0ab53933fb3f12e64ab435456fd69b3f6d170b810a7ea996d0b1542182aeb2de8c,
  .add 0x14b309149e93dc6ad9237ca0a4175a0c42b1308a5011d14625498a0b5e4e6faedd060ef1511c5fcdcb2a84818800e7ef,
  .double 0xce1dc7e52f0187dffba788e5eeec62c02d374a1fc369351cc2973f77903e32b86ce4a9dc3d597b190d3a862864b679e,
  .add 0x10402eb943c5e3c9ed275484f3d2ab7155894be64681e471964a7d423e47c87f8d574de3e9c271eafe7f28f82215f732,
  .double 0x179a0eece1bf5562836bd902ba398c2d1dd91378d5a21d0e0821f20c8dcc07e59fa3e27b59d076a6ebd21796ade3faf4,
  .add 0x11df1e3ea96c091553ebb6f6979f07034ba408fdefef79910f676d46e01b45fd62ed1f020af6a6318c587e7b46fce649,
  .double 0xd2977d6a6fda6e974cac952ed3f55f25b72788cd412e6707a4b8c408dcdd519011b1f9e00d345fedbff6d6227a90b80,
  .add 0x15809830e3c3e8ae9c4f0a114c60a3acbe3be9843a621c67d5fccbbcbeb84e55c796a447a44a68448bdbe93a4b14f161,
  .double 0x19479da3a870353d465bb4c3ca208937afe8ef65f754a5e247bd3dfc21dae68b03384e88f5d67da517216ed6d79b64f2,
  .add 0x13843f66415f716714cdf6808facdcfdcd67b8f7c9de6f36d15b6477c1cd84d5ee146b15376fa30d3761b78e0f490ca8,
  .double 0x981638e4de3e62c118268bfe1d45b7d53e48cc7517ae235b9be7523b3091be048053e0dc0331fc6569f941815a5d51d,
  .add 0x16aa28d679a34e3823e23e78f9505d58654d299648fe3b11966706437846f606fa255e7b0a7b296b312182d460a7b4e8,
  .double 0x57ba678fb8237b8c03b511f5e69e329ef605ba2b7cf37501a7a5ed593ad631ed8c35a98d212fec3cdc772b346c87313,
  .add 0x16c3b00f98b32f6300288a194e3c517802878f58ab1afd905a82a928dfa3f2f102e090d41269759af2597c5e9076ca25,
  .double 0x174ec52e33a48e71630dbb4d978e5acdf3098f47744fca8b5c55878c58140b35a075eaf9141ad1689d4ab7330b421bbb,
  .add 0x835612cf1fbb6b4b22a1c9885bc4ba1732a588acb2528c5a41097a1f0c58cc0389af6c60c06ff660c01bd70acda98ac,
  .double 0xd9ef43044ecb21889b3d21475147eb1698e013144b12cf65d15e12260e884f7022dff3b948cd335d6d73790a72d49e5,
  .add 0x14d5e5a0e9d078c7ba7b90db8af89c4e6a5add2cdf9fea962150cb95ddf2905a979690544b9c288d081221aaba2630ed,
  .double 0xabbc9fad4d9b37a34f5b4fded24ed29b167114deb305b1ff6832f619b96771c0032f878fdab07e602191ed99bf26d87,
  .add 0xee97d2fb1f3ff641c205dcb8f4c795d437a2e9ed6d749aacf580f455861a534d2c397763efd6797a7c22b2007a1f2bb,
  .double 0xe20344f57202c006ebaf8df48a050d35a003c7772fffdef0f40c33819707229861c5d0194251c21e9d38fcfb5a88d0c,
  .add 0x11d0474445fe060b258706c931447cf20037ac50e8ada1ae440d769fe4eae36c62c1a613da3af41afd38aa8627578456,
  .double 0x9de0a995dee231aba2fcf5e0d43c89f63f1686a4c1a88ee7d9acdbe940c4a48056ffc99af0de2be7b9f2d2f78d3d2f4,
  .double 0x11b69b2184dfcb01496b5d5309248798f61821f1c6137105b45c4f9cdbdf57ec3be2017fcdc619cea19f0bf17f6a1cb2,
  .double 0x18dbc8b0e25fe58c03a7de276d7a5c5d85b912f2506871679d409b37d3b0b211fcd46f5e0fa7c14980970093ea7fc816,
  .double 0x2d8866aa5de512c2f4ea2488c80101e6a040b8ec70776122e220a78f46e8c5fdf94f1f3751d897ff47172afb6816536,
  .double 0x13d0f2c7b9c16a8d44db2afad42cdda2dbe3ef96f5eec6b743758facc4277532fcd4516b303c6b48ddc522160b612530,
  .double 0x16b1dfa1938a37d0324da943e03cc1d4f09716bb2ec9f96ae5ecce04cfefc2bc67baee220ff9cf258a27a8a376b86e5c,
  .double 0xe5bd3949e6d96ac3f77ac36a707f352ae39686b027fa381a4b35d0595af8318fbc42f6665707f2358648e32df190f55,
  .double 0x1624f4e5a7e29ff070fd7bcae0cd7cec368e2db1e6cc0e57e239ae416339ec772f39d4b4fb8dcb57903d4778cacb5808,
  .double 0xd4677f8091353fd00046203c6fb91cea5aaa040524d337d46ed1671aaa4d981da100fef3701541e3d79a9eddd03c5c0,
  .double 0x159d20ceb31ba553226898df2c45318c936ea906653f3abb6c22b258e9182730873c3ccc64a5ca7acd4080ab67b82d11,
  .double 0xd81d8884980fe71cfc3d096d72c08e89e32427dfc5ebad9db099190b0be1006601b5e232573c4d6caf352cf4539fe4a,
  .double 0x15d94bc2baae7faf9a037a63c62cf59ccaae8dde2465e1605d37e438199da5e030fb42934375410d08513cd5b8df53a,
  .double 0x2d71b140c8105d141d71dcc6610d92daa69da600a73026fba31089443a4d16f2b4c4996501734efa667202aeca2dc70,
  .double 0xf5136f7bf071c2c11b937002d5fe44f00b754fd36ef90d4a333f2dc0613d00ff008dee8faac02c738e663af60146f1b,
  .double 0x14b8d8584a4f3ff8fcbb721a843beaae8f5df10b2618079547bf7cf91758a26cfb589f0c886f0e116a5052f974bd9d23,
  .double 0x9ee7b29f631eedde8552f006812b27bad722760d7a77fb3f29e8439007bd45d1cdfe0633297ab8ecc2b6803671bfa7f,
  .double 0x79fe6b97d3ab2de2967a232b81d8a60c9d20347d57acdbc2ea323bb290c9aed011dbf62d6df3c0ad1edf89c909c31fd,
  .double 0x18024edb2035bc8a723c267d13288c41f1af6a5ae5c5c313458625962858070dfda354606bba1cdb2bd599e923165993,
  .double 0xdee135766830c267cd223801f5b43a2225a16a6ae8f060931d47e617845af4bb3103557b3d3c225434d646bb1615213,
  .double 0x1057cb45a1fd87306b0cffa6da630fb74bff54eaab53d008b14175566bb12dbf4f52d5390e6fdde055f07857c1ffca3e,
  .double 0x18e394775707927dc09e699cecda0b3f0cef31956f6cb6c81481ab9550bedb369e3eb3486d8ae304c886557bc768974a,
  .double 0xc33d176fc78a276973ba90a4df36afa917838b9bea0f7b5d0c29fd94dea06a2ce0b37ecec726aa10e8db90e77a1b0ad,
  .double 0x106351c3bbb36f5856f1db1128147393f3a703dce38c4c8b6a1b3950ed862fa3879939b8fa135d3da777118d7da0ab25,
  .double 0x6585b5cff8aebcc3adc594d0d09cb53b213671c6690e5f61563ae969ea94b7328ed099eabfdf05be0832c8911114759,
  .double 0x10d9d9e0a0ff68d9da16b3e6c8d454c69af1a158b7f4398e45070bb1ae9af4ed3a19dd6fcdb6064007ccbdc9e89bc73c,
  .double 0x4404b8466448fa564393a508c1f06f52600c0727676fe93ea21e88dcdd836c595ebb5a80c0003ba23ec8faa6e80c32d,
  .double 0xcb92d519d869c21cea164293b42e831506c412d0ca7a420f4c78778643bff239110ef8e6f25f43aec42cf450797a109,
  .double 0x123602b110b5787d94e8d673ae9fabe5221b8ac8cedfc2f10699c8d89569a18b13a8d113f7ecd2dcec30d89415d2b4bb,
  .double 0x17b081659aaade109e3be3b2d41d046910821201fba2169acefed98dffd84cb620f80802f48f64b2ddb87fc01f03b4fd,
  .double 0xac3c564ebcae98d4901030c56ad7452ef18efcf529b7136adf0757213410b484cb772e0cc4c49a503921b9a1fc06275,
  .double 0x19f7e6231db59ee258b0a13da99325bb88d7aea7f0464e5f2a616324ac9cd8b8ab59ed714d1e93c5fe09dea2f8df2648,
  .double 0x39ec84d24768e16c3c3b71f6c45d602cc38e8aecf01fb0108ccb9e94fe6779fa2f9f384f7a75bc5ff8bddfa8d99dfc]

def orderChain : List ChainStep := orderChain0 ++ orderChain1 ++ orderChain2 ++ orderChain3

end Verif
