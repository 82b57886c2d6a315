import Verif.Lemmas.EmbeddedCheck
import Verif.Model.EmbeddedSetup

/-! The G2 points of the embedded setup: each number passes the check, with the second coordinate of the point as a witness. -/
namespace Verif.Embedded
open Bls

set_option maxRecDepth 100000
set_option Elab.async false

theorem g2Part0_check : g2Checks g2Part0 [
  (0x0ce5d527727d6e118cc9cdc6da2e351aadfd9baa8cbdd3a76d429a695160d12c923ac9cc3baca289e193548608b82801,
   0x0606c4a02ea734cc32acd2b02bc28b99cb3e287e85a763af267492ab572e99ab3f370d275cec1da1aaa9075ff05f79be),
  (0x014353bdb96b626dd7d5ee8599d1fca2131569490e28de18e82451a496a9c9794ce26d105941f383ee689bfbbb832a99,
   0x1666c54b0a32529503432fcae0181b4bef79de09fc63671fda5ed1ba9bfa07899495346f3d7ac9cd23048ef30d0a154f),
  (0x09f0fabb0e24d7eb8461e5b0945f138b2f744d73252c32f4dc338992cc8aeeebd13e0d09daed197e157ebcdca2a2467e,
   0x0de88a31faedc5d91d0c82512132ac3d7bb9cc4c3313a4be971189fcfd3221325283831b866a5b8b362dbac3357125fe),
  (0x09896d51f742218cbf80321f4bc03120d54f0d7fed7de30de185f1e82ea57ce2cd1c7d718d87d5daa17bb8c51051d200,
   0x15701f2c297a14151a5695faae6514d00d8014b452ab1022f4e7f22316a977175374efbb981262875e5a30a3745c62c3),
  (0x13d8d53bd3cb09af74f2ce72951aaf33c06a44b8edfda81befd4c0c4cad036dbc4782a34401167ec944a4930841b218c,
   0x0c5fb5acff365c5cc4d552e51dd7844e57a755708d3bda31ce2852816859e46310ef792452763ec6f83d75f2246f6590)] = true := by decide +kernel

theorem g2Part1_check : g2Checks g2Part1 [
  (0x136c6ef1e4e1d20f4cfbb9e27e52ae4b269f3b23cbcb0d355ab94c4fe8add43b903d311895e993e770b5f2c05fab6c78,
   0x0a746822154bc069e99734e472a5c4a0844792a8ca91481406411ba8005cd304c0e4042a55af2439ec099be98386443d),
  (0x0d08ec9be9c32d351481b4f66262650a629912ecd00a7f8c55cc0698daa800f0f2b0a0e2f3979babcbc20289a15d18ed,
   0x0c18c3b1a6e2c1455e6d639390571bd07165a910282d749c7697177b6b849ea346c47da517077861867b76f5bebc3d2e),
  (0x0fe3e12fab95f025d6b37e2d1eb95be0a5b37e81a0176b3e24cfdab30a3d91c18b858585f163d3e63069c57e95fbc60b,
   0x0824f5df3ecb07e8760c0337a88da1e8159da6f680dfe1e999f990277bf648008ec7c9f67aaeac484e337d67f0ff757c),
  (0x02e75fb93b68a573a3bb17de6bf53c8a712e9fb0b672353972224e5daca22cd682a099d6fbeb6f95ee265a0d84278022,
   0x131627cebde3493d3c5358e5225002a39a8d8e9ab4bb9681a6bdc375651bea75470d4d42013193e77214944a47338dde),
  (0x0d3620e3cdd0d2b774fc21dc2e379af49bb15ef648e6ac2099afc47d29b1cf72e73512fd63a2f166731d824378fe7770,
   0x1204915dbb4abf4ab93a30b7547969c39ffd017b7be6db9e411118d1e4df8eeb5e2b74c49a37a84479e582666caeb6a5)] = true := by decide +kernel

theorem g2Part2_check : g2Checks g2Part2 [
  (0x029ddebf3a7c9b4f59e8161e98aa57ed87b9c2ffaa22ba4e929068a4710d9744f578a4111f782abd623c465c5653a5c7,
   0x01f72e62ffa0f663673fef790aa2c5119f23352b5d03019d9dbcc70b6dd3fbed63f6a18e3fd28f1cedb20a55a3043faa),
  (0x0982df65d03323814ca31e13da9157d0a463f6dea0d97ddb636e6da6f3251f1523914b18bd2522811a02996277f4cf82,
   0x15262c53a5779e65247e2dc56b90adfaa2f2b58b18312f88e206e8452965effcff25f01e0774ac0ac2b5d5fc692a1dff),
  (0x0202df603962ca437b790f9bf53dcf1c2949228327a3863028ade50fc889ea225cbc1783060e5c5c1702a9f119e66e3c,
   0x04e46a87e1ffb0a0aed9a90cceadbeb358a1950f32f5f3daca03d99ebda63b59cbcdbb8e011fb870d298a10888ea9330),
  (0x175e8fac2eabe544d66ce52713be641d184063db01b8d0708c7dad28a49ddf8049f4c8ea2d2f80aab52015b51af21b1a,
   0x06465a79a27be3f10bc087b7b771d6a50c64982d7356ef8bee7bd7f73c22511540319e08acac66389ee43bf3b3cc48dd),
  (0x11b47b2d4ce0a8913ce0b6b98b7f30eb26689d635aac81d27f8d1ff229227d951b560e7698b2cc323a4f05c7e91c98d7,
   0x094aca528d11dc1edf6e7cfdc934c30cda89bf3bd0fbc7123316674d2c8eb3086a95434e5d14cb76c771532249d5b40e)] = true := by decide +kernel

theorem g2Part3_check : g2Checks g2Part3 [
  (0x05ffa2f4a862780842c7631977a836efce152497a9c1b1ca02da5223e9501bb7424ae07a7a33267b69ac972035e89387,
   0x1684c1c048088bc25fbc36ceddb1f85232f2a934beea7d7593bf38d817e4d42a339c323196a5d200920e72eb61e33a5e),
  (0x06189c6d3271ff8af0000725185077ccb81b72b729b1145ee20a8044a05ca1f71659051ce007f655319dd4d571416da5,
   0x00b3ff7b73ffa7d1cb1c30884e79709897539188bc3a33b6c38c6af6815e92a9f08d57b186f74c176da5d0247b393166),
  (0x02d5b5159f20dc0d3eb933b86edec20c3cd4dab1b88bdf274f85f9a94fcd0d873fcda2aadfd59c2945cd568743f2397a,
   0x00a6f098dba96fa9d09a94e69a85ff50363b371888581a2b71146aa982a27894c20817cb6e5cbc4cdbb865f77caf1cd0),
  (0x10e9466c26956086fdf52188e7f8b92de917d898184cd93b68ef7a188cfb31cf2e4a0bdf2b49a1912ba00a482704ac6c,
   0x14245271664b6f6095db72eb688da7b5a8e9542db3772c649deb446b41acef12196ea5042998f9b66c7fc9525a66aea7),
  (0x1177c9e0b8d330ad607fcc395254860ad1c10096f70ea9df480babccaed8c8998d83bf2e2d6838815cae99034bff18cf,
   0x1121ac8eff8d12c9362f0cdb99af6b7b59441b55601e5b6b2c42775839473f6807f8b481dd7c56d466cd0ad8dfeba3ab)] = true := by decide +kernel

theorem g2Part4_check : g2Checks g2Part4 [
  (0x06ed6a09447ebdb0845e52063bd011574a2eab15604fe14a705df57258f7080c96638b4be40a4362400d0834deaaf4cc,
   0x1218e67091d6427728ef2eeaccd13bea993ffe6514f177fc292f582e8bf126a5a1eda71882a7af08c3123411da4b91e4),
  (0x08abf042611df12e94a3ee1cde13df04993ed24de7950b2cc1f572391f97e8a0770d73efe518d878c3c4b538f27a25a1,
   0x0ca63c3d7181d6c418ae3586af98a68d7c925a283f2a20d7ec344e3fe3a8b09c7288404b4bcb1f8a3fe87e39658870dd),
  (0x02e8fc7a337b31566fefa45daff5cc97e32ff7d6361948876177415a122a2fb6528ac4d3353d2336d2db33eea1e88da7,
   0x01cdf369c473ec44f54d5f641471d2caf3a1a8b0ddc3f6672ec6740a2839c26823506abe85be3caa2d2be836d0eded86),
  (0x16da9ee3f849d01bb82ad38b160a2a497c2e9b88e35a7cf9542f1b65b729b16d33c1fe26562e87e4c0bdff3e26c153fe,
   0x0b34df5f05a5e9cfdd9a23d8c58a9d4f68bb46af5a5ff4bd202e3972c34897cd6d454417917ea88fdfbeb175845dc3e9),
  (0x0f04068cc52d9bdd34a700dde7e89ef2525ce4776c90d5bb7c529c95b5830f40e961028a2af570eabfc7cbca825b03d8,
   0x16ad303498822dc543b688c181cf0553d9a02d1586eb75c3c128baefd98cbd38e961bae83f2f1b4ef5776f4d3053dd73)] = true := by decide +kernel

theorem g2Part5_check : g2Checks g2Part5 [
  (0x04de773a809da5d369be81b89ed77e6df74e45c9725b3e8852807e08303f897b54dbfd7c715b381acf1ca728c3cb8210,
   0x0c28fd75b8e5fafca004b081524c545d10c71b640f5f0ef3c0ac47a21edbb4e92e7175b9a4f5308a924f8991424a212e),
  (0x10b3855ce91d46012a8070fb7af1e01969bf822b7a564ed8822730f1687ed8e77cc92a61031b56fb946a57ed00c4418e,
   0x0cefba072f1c616bb133d46944415dfdf03aac9f3ae5c2064ab7271bce88aeb2e861e9bbf36f36aae10fb7ae80b008b2),
  (0x01c8d858bcb01d2c953e99f9e6adb547017cdb8559dee3aa0ba87fca59dcfd2da83a5f81323ead16a4669e3a60f13b43,
   0x0534ce5bbf7777f0b0d6d6971e84a3fbd27c76c49c958dfa8d872e7d1e81cd0a26c7392db487c2c5f98a536b98a1518e),
  (0x04b3ce98f6178b733b4374f7755a565ce013a32b0c0d8c875eed77ba26919ca2380cea10c0bfaf4a656658a59d206670,
   0x0d85ce9bb93ec649f9c0e062c037e01db1af6475bba06e13b7c4a0ed8863b23e75ec6c03f59d28a415890467eb4d199a),
  (0x193730c4e1fe9f82e8325c8aef3175acdfb6f69d5583417c4acf214b192cc8b782cac9eb595f71dff43ff0aaa38fa0bd,
   0x03c24cc3d579ea1aea7ac4f2ddc62894ff98a457d17f2e8d5b547c578c8c3d308087fc8655f8190e1c6b4263b35d7dfa)] = true := by decide +kernel

theorem g2Part6_check : g2Checks g2Part6 [
  (0x191213b7e0d6bc44b2d95f30da66f7314f573cd629eefbda7cdd1c592d6d455dec7b00b5f8d5ee932a875f56e6c176a5,
   0x0a1d58cef96468f05a383a4d1ff07f13883d3ef70d4d0cd62a32ed47d861c698f156138a55522ee077336e13f340b0a6),
  (0x0c43488ea9f305cc9fd7750c94d6682c987d99e7e93789cb902ee7fe1486fcb48a1196799777fc8082a72a48129c732b,
   0x0460f45756121ce7e79e12606ba02666abd2bd74781cee2dc7ff14343eece3cac3ef470a94daf5acdb84fa3fe529606d),
  (0x01623f28a5e6b14aee61dac6cfa4595c7f9ccc8cf887ffefe18febb33ec2d1874493b41c1f2ab7dfd34ec700a53b0b7c,
   0x06c8006652c6701e02dcad7d2ffe59f2ebb8068bf45abe090a1045e3591b4dc0e2fd0e64b7419eab77b507ced258606d),
  (0x0522fd0ae63ad8fcdd6592117fcf4340cbf63b6f44e544ee21cb17e81eda902a72fed6397e5d0fbc8f312a320c306de5,
   0x09a36e20537fc96c1da31367bb76c6832ce6c6fc6b69c6215094ad71088cbd084fab12a393648b39839fd4e802cb5496),
  (0x0f3dcc7c768717ff03888b64963a3e9342046782a4221abe0c0c53e27e08c652ef041ebe9404691b2d239285cf11a9f3,
   0x13d3a9d394453626e86e6d6aaf1c02e8ac8231354c74f85991e75a9bb0a671227a43dc3be4887e0fc696e995def96825)] = true := by decide +kernel

theorem g2Part7_check : g2Checks g2Part7 [
  (0x09b007fbd0ac98a908790c87f9a5a9e3c36e04f05394b9590741d7682ce5898a7c6d301185bda9aae755921874502400,
   0x0a7d12adbe112cd1e42985e05f8eeedf4fefee3f6b828ab0b0d803f3fe2c69885a36392bddf9e57326a41fa65bc8205f),
  (0x096663aca1f3cd4700562f1271907cc3c3d05c2db260896f13f04f364d7bfdef47ed273aeff8b15c3109c3fe5f2655cb,
   0x17c5137c8f0402248b527cfe6ff3d975d514dc1abfad72c7cff4080b81ccb6f3ed2f22f22360227f703d4f705ac9804e),
  (0x020ae6bd625ce007de0806e6490b665f0e99dc9a44b519aa6631e979fde9d77e755e842211a4f3e92004b7e90bf66e4e,
   0x1869f1abc089ddf0ace6a2ef72bfca901fc244316cd0a8e6e7b5a3e5d52030e9263a6db8629d93c93dd363ba8dcd03b8),
  (0x0cc6d023543fc3a340ff1dcb7902bc81f97d744f038d091158d07f698d2b00e673455d5e8e74611df16ddf0a3eab80a7,
   0x09d471a6720a892231a6ac55e0be5415ff990dfb5aa624a33e90c707076211856c41b8faab18a9608b6e4533575dce3f),
  (0x13e65548f8eb9ab224d2861bd63f4ee148c9a8db8e20e78bbeb1460e369355b45b7ddca1e02e044e01f09cd7dcfa5c46,
   0x19923a223bf5a89768c94b9aa741cc12e20925ec22ca1855e5ae80a28e81a1995321ece8ed990ec36dff7b012bbf9375)] = true := by decide +kernel

theorem g2Part8_check : g2Checks g2Part8 [
  (0x07314e52ef996f2632bc700355b95ef616e554f8e91da5028c5d7069ce4ca09eae3cdd4d2e728e2136e1630666ab6238,
   0x035cb6c17566d6bd2b3a696d335e841312abfcccd1888a97ffc14042d42d637e717d9b7ff2e38d59e59523f7579f872e),
  (0x1620d009249dfd5305891f3f9b4b0e93a1e4c3b2bfa4acde037ca4c6718ddd9f3fe6160c67b91c825f0a4902cc3a5c1c,
   0x05ce5c52076e1ea1e5cdd5ebba177dcc679268e115faee3fbf1cda0175d8acc06ab47402e556a2c6a71c9b81a7f4dce5),
  (0x09634899790c2b6553810ea8999273b24811f17b20f0a96032a8118ab4bd2b00fcbb76a945643cb13a2c21696f0b285a,
   0x03ba1e2cde130c795d9633f3e8fdd305a5d423e594964f6b6ed7473e633a267b21f581ceab3e792ddcc5619e771d83e2),
  (0x05397637bc67936cb06850a7ab637da9c543a9d770ca2ed92babceb0bb4f3f8952c683cdb649609d55b41ffdfe227a30,
   0x0d5f0b390e2e64092e92dcbe14dbd68b6ac521087137b114901ecc2cb234916864c603e516d0ac4d3e0bd0cfe9ed79dd),
  (0x13bffae8b7e101b01064d9e80e5cd69d94f09037d9976d0638faf777c7a9886f39e974c4977982a0324bf3deffdcff55,
   0x15aa8657467b95d1566e9561b544cd0be7de9797338a8105a732c3ce61e4b7863ab322fe490605d987a37a3d0f2c1aea)] = true := by decide +kernel

theorem g2Part9_check : g2Checks g2Part9 [
  (0x12f02b25a799d8e5f9eb5c7ae5883269cd0c6cf6553529fe9b1f6b8cdbd4e4abdc10f4dfd36b7a55a501e70684d88405,
   0x0b6803777bc368db48ab0a12aa2b315184d2b72e63e53162a6583d9c71d9a5407a597a20dadc1913f8b42a4c9ab5b00e),
  (0x1124c6f5872316b794aa6f7c128a65220abf20cf165cd06202e955f62f58f7dc231d611f59f08caaed893443180068eb,
   0x04249389df17b62626014e1f0a52b73ae48856f6d15dfa3a37bb32d3b4b76fb3f4d9ac63cc1dccaeb011ab1c4a8b7d6d),
  (0x17654292a4101152b953798d9f587c8887df0fe428d7ccfbebae972f70f4c996f2627563acaf48efea5cccae463d6ae6,
   0x189879479a1b72915b696e471ee26e34fa2b9b4013b900a614f870ab05001890f6b1301ce5b79f7e5b6f9fbb9738f093),
  (0x103ac7ee8b8f000a5a984b60154a1dceadbd57093a4b0658ee8e2799fe2800b21814fbbd94bd4bc455075b937d96ea6e,
   0x0da149c65c29bf599bbee4f458745db83ecfda6f6d87aa5eeacca0ea5db319cf38e72ee4e99c25a6f2fbbb85ebd1b3c4),
  (0x041449c391e098227369bd1b3a72df6cc27edb57fe37f4d416066cbe819a76c87f3f80899c1ae4f631e89dba3fb4518e,
   0x16ebff5c0cff13fed61941bf867c2ad078e158c731bdcc67ea09ff8732cfabfb3982014bf7c3665925cfa37f8b761a69)] = true := by decide +kernel

theorem g2Part10_check : g2Checks g2Part10 [
  (0x01a562b9444fdc334557c738f3a9ec826f9caadf7872bdb7e4d6bb0fd24b2033cf863da58ec003c212ab6e2aecaa586d,
   0x18247eb53b33afdb9c5d7d068d230de513ec263deddef15ddf15cfd04e46c93317e207361b3fc57467511672fcd03f72),
  (0x0e373e21a132f1155079d2c7f54722f2833286da349258528ef7167c8366c1519c31a432706cce6525b6bba3787bb70d,
   0x03ead56bf5775febaec3d5b1191c88c2a38ab24c84ea25611bcac127c4aeb5acf5e616d1e6168c5ad4de6d128e3b04fb),
  (0x1246b170542070e83eb578d368e74dd532745b728788f1ba728b8092e716c61edae9a13d5d3ae9cb8acdbacd34ee0914,
   0x16439366c7123f27cd1d5c6054d16fb385baba5d31e03f63efe0d51897f37f83be3bd6cd4ca3205b2863dc4c23237d89),
  (0x078e18dbf07c244912829cd4f1105c207bd710fd154a7a0cd9cd3e98a8e71fc6a2f31a48fcbcb82abecc99b5025e61c2,
   0x0b9fd95f6815a0b7e6d2c0df54c13e9fa295fe01bbc3aba80bfafa7f28b9de47a6e3baa6e97b688aaabd6f6594618789),
  (0x1372f9eab5a5aaa60e7418a40d1ec644a330ebb7b36e32a8215f890bbf3000cf6cf4f578fb8f730cfd1972eed7d1b070,
   0x13e062584c06978ed9cbdd08ecb6dae3d64bbf001edff2dea172ee1e1bfa6b97964c7221431cd5d8ba2dcc962ec423f7)] = true := by decide +kernel

theorem g2Part11_check : g2Checks g2Part11 [
  (0x0e5310c5646ea9958eabde080bfff26b9e8bc151aa114412b8391a6569f6bc13b0c8e6ee17fa101d4bbd90ba63f17fad,
   0x0a305aa6e119c858ed181ddd4edc8527a13c5d147e98c646751e2ed4dfcec23fc5f2ca003f2facdfad0d9a826c0f1e96),
  (0x174d4de7c9055a6e09c2ec7cec10c4e361cfe7640067ae0f8517312f1abf743f6f86f5dd0761d4703c123dc388d13cf0,
   0x0e82ffa1dba4172e156b88803f4b6732ae8dbc10be3d60ea91957cbea43ba83770fd937b29db08c45f5d22ad674452f9),
  (0x141484794c1e75e6651838f9679de790c3c0fcf2f562d41d845d4a67e0038d8601d17109e2cc7378113e4fbd76cf3e7a,
   0x015c2c47ebe255bdb76ba160bc39cb69f37c58526dea79030451a15cae989a5dae2f3e9f4b4495d4c22dc65ae2a87ec6),
  (0x189ea53a11562cfd0a3fc95d6e876dc08a6bdc9b281261559461e65e5b290b584a64904b844b5233e86c1f611ee2adbd,
   0x0dcefc5f6d7cacdaa4e6784bc6aae6852d272d4c0a075e6608741611570771f293208b1918c74c5e0743738224feb3ac),
  (0x18fbf4b495b0389985d92e9ce8eb22be1365c9e021eb088c9ba2e44c12374ab1557e026163d7066a1d86c61d5389a799,
   0x19fb9c194e73072344aa37e893141c6a919119ec2e4334a6582631049f601d988de01d1e42dd744b80f4d01878492c01)] = true := by decide +kernel

theorem g2Part12_check : g2Checks g2Part12 [
  (0x03aaabd079d94e957c2eddb1b6f8165c7a4b2a735ea584ae06e1b8085138b19f7b8ea2b2941df2285be4b9596eecb78f,
   0x1442ba50f09db8a57744bceeaedb9e4da68362c1b8195a1eed63b1097e2c7146d9bd66a336caf3a09b7137f86d32705b),
  (0x00d5d48f90a84f713ba23f3a7bd550c2d53f77883dec42c860d546ac05d17c7d1286f6d4e4947dc8ee23a9ec56bf1b84,
   0x0fef85158d5ab100f4d292de66af436064b9117bd69121d385da0c3db163b38dfca0e109e9f42e138ef263b37390dd53),
  (0x0c836f80fffc5be77cc5d5cbfa969ccc7a3bc7c32e2e8e3bdec6240bfaeafe9b0c9ed2e48ad01a9cd56e7cbbd8f48ccf,
   0x076ccb47b1008f9fa0b5cbf1746a9d867d85b0c72baa41327f091348ef7abc7d5dc304f7e6b0190dbf162257c1cc1316),
  (0x00d99766f1a4bbdeb8b90e27aa460f1b0d2fd518db69d1edd42fa9aa6e0402fcb842f04b3cd65dc7e51bc2749b016589,
   0x154807c7554fae7747e6a0d650f8a07c1ec0039f719979e60897c057f72151b3f22d259332b0cd1bb5b28ccadadf1016),
  (0x01ae6000d8e795efa3e96b939df6861db9f6bcff35b4694605ad5fdaf950fec9ae3e9c7e28da965024ed859c18db9c73,
   0x056e7a04ea62222711a986e4f4f38ba4909ea2f4cb8abe56fec9fe9bcfadbcea5fb660bc4b1032ed359261d74d2ba725)] = true := by decide +kernel

end Verif.Embedded
