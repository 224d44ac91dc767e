import Verif.Cut

/-!
# Gates of `data/circ/sha256.txt` and a certificate for them

Generated by `tools/gen_circuits.py`.
-/

namespace Verif.Data

def shaGateTree0 : BTree :=
  .nd (.nd (.nd (.lf
  0x5d6f5eb3d7ad707acf5eb3c2dcf82dcf8b7402dcfd2dd01eb3c009182dcfdeb3c006985d6f1eb3c7ad6c7acf1eb3b2dcec2dcecb73d2dcf12dcf5eb3b009142dcf1eb3b006945d6edeb3b7ad687acedeb3a2dce02dce0b73a2dce52dce9eb3a009102dce5eb3a006905d6e9eb3a7ad647ace9eb392dcd42dcd4b7372dcd92dcddeb390090c2dcd9eb390068c5d6e5eb397ad607ace5eb382dcc82dcc8b7342dccd2dcd1eb38009082dccdeb38006885d6e1eb387ad5c7ace1eb372dcbc2dcbcb7312dcc12dcc5eb37009042dcc1eb37006845d6ddeb377ad587add0025f006fc7adcc025e006f87adc8025d006f47adc4025c006f07adc0025b006ec7adbc025a006e87adb80259006e47adb40258006e07adb00257006dc7adac0256006d87ada80255006d47ada40254006d07ada00253006cc7ad9c0252006c87ad980251006c47ad940250006c07ad90024f006bc7ad8c024e006b87ad88024d006b47ad84024c006b07ad80024b006ac7ad7c024a006a87ad780249006a47ad740248006a07ad7002470069c7ad6c0246006987ad680245006947ad640244006907ad6002430068c7ad5c0242006887ad580241006845d6d80240006807acdc024000681)
  (.lf
  0x71f18ea44b61063a918ea3071dc071dc1c79071e1071e18ea3008c8071e58ea34b60c63a8d8ea2071d0071d01c76071d5847498ea263b04071d58ea2008c4071d98ea24b60863a898ea1071c4071c41c73071c95f91404cf3d6f8847458ea163b003d6792d604b600071cd8ea14b604071c98ea1008c063a858ea0071b8071b81c70071bd3d6f92d803d779071c18ea04b6003b6cd2d804b5ec4b601910c644ac644ad5ea000d3c5f91004ce3d6f46c1c97e3e618f8618f92d723b6dc3b6dd2d844b5fc5f92004d23d7043d7052d833d785071bd8ea0008bc63a818e9f071ac071ac1c6d071b1071b58e9f4b5fc8473d8e9f63af863af92d7f008b83b6c92d7f4b5e83d6752d5f4b5fc3d6f52d7f3d7754b5fd910b644a8644a95e9f00d386c1c57e3d618f4618f52d713b6d85f92804d43d70c63b0d2d84008cc3d68d2d654b61463b112d85008d03d70d2d853d78d619452d853b7284b6159111644c008015911200d5464449911108004080042003080090800d911157a9408009911100d5064445911007ff807ff8200007ffd619412d843b7245f92404d33d7083d7092d843d7894b6119110644bc08001911057a9007ffd911000d4c64441910f07fec))
  (.nd (.lf
  0x607cc0a7d3f430607d00a7e3f434607d40a7f3f4383f3e80a2b3f4693f3ec0a2c3f46d3f3f00a2d3f4713f3f40a2e3f4753f3f80a2f3f4793f3fc0a303f47d3f4000a313f4813f4040a323f4853f4080a333f4893f40c0a343f48d3f4100a353f4913f4140a363f4953f4180a373f4993f41c0a383f49d3f4200a393f4a13f4240a3a3f4a53f4280a3b3f4a93f42c0a3c3f4ad3f4300a3d3f4b13f4340a3e3f4b53f4380a3f3f4b95c609c9ef728381ee65c9ef4aaf4727bdc9ee1ee5442234082b0208042238082c02084728540a334ab10728680a384ab2445e68084b020ac45e6c084c020b054870086b45f6854874086c45f6c45f6917fa4606945f6d17fb4606d46068086b020ac4606c086c020b01ee547b971ee591ee5dc9ee028ac728480a304ab04728400a2e4aafc728340a2b4aaf07284c0a314ab08728500a324ab0c728440a2f4ab00728380a2c4aaf47283c0a2d4aaf87286c0a394ab28728640a374ab200d2ad9f54588f8028fd9f2867d1c67ca19f270d20c0d20c34850d2110d2119f2702af80d2159f275893c028f99f2767d1867c9d9f260d2000d20034820d2050d2059f2602af40d2099f2658938028f59f2667d1467c999f250d1f4)
  (.lf 0))) (.nd (.nd (.lf
  0x77725ddc827cec27cec9f3d27cf127cf1ddc84b51827b95dd8b5f0307762ddd8a27b8427b849ee327b8927b8ddd8a5d02c27a049e7f279f8279f89e7f59119591189e7f5b0585b059dd8a776a4776a5740b5f02c5d02dddc87779c7779c0eb54b5184b51a1003840888408934464e9184d11a1041841808410610403b5b83b5b8ed703b5bd3b5c21040007d03b5be1040519143b46210034e9188400e10023b4503b450ed163b4553b45a10024d114399aa0b694fd9882da60b683999839998e6683999d399a20b684b514396de0aed4cd9882bb60aec396c8396c8e5b4396cd396ce0aec4e5944b1960aec82c2c82c2d33654e5944e5960b6882e1c82e1d2d454fd943724a04a1511188128604a03723837238dc903723d3724204a04b5144c91604a0812fc812fd2d455111469bf16445041d027cf5ddc803ad477721ddc727ce027ce09f3a27ce527ce5ddc74b51427b89dd8a5f02c77629dd8927b7827b789ee027b7d27b81dd895d028279fddd70279ec279ec9e7d279f1279f1dd705b05459115dd7027a7c27a7c00005b0565b055dd89776a0776a1740a5f0285d029ddc777798777980eb44b5144b5161002840848408534454e9144d11610408417c)
  (.lf 0)) (.nd (.lf
  0x3be140641019703be180642019740a7d597e201b743e4a00679019643e4a4067a019683e4a8067b0196c3e4ac067c019703e4b0067d019746003c08993e5206f9a580106204060040089a3e5246f9a980116204460044089b3e5286f9ad80126204860048089c3e52c6f9b180136204c6004c089d3e5303e52006593e5a13e524065a3e5a53e528065b3e5a93e52c065c3e5ad3e530065d3e5b10a7d997e2581b80197597e26600465f8997e10a7c40a7c429f30a7c90a7c997e101b700197197e1660000a7cd97e1581b465f8597e00a7b80a7b829f00a7bd0a7c197e0581b00196d97e065ffc0a7bd97e001b6c65f8197df0a7ac0a7ac29ed0a7b10a7b197df01b680196597de65ff40a7b597df581ac0196997df65ff865f7d97de0a7a00a7a029ea0a7a50a7a597de01b640a7a997de581a865f7997dd0a7940a79429e70a7996f97180036200c6200c06463bdf06205406583be383bdf006580194c3e49c0678019606003808983e51c3e51c06583e59d0196197dd65ff00a79d97dd581a40a79997dd01b6065f7597dc0a7886f6c1504c561306f6715038560e0560e0049d41a586f69550415610456104048641a7c56130049141aa841a7c049d01248)
  (.lf 0)))

def shaGateTree1 : BTree :=
  .nd (.nd (.nd (.lf
  0x594a4aaff5b3cc5b3cde483792887928974ee5f3b85f3b9e4ff79478793fde4fe2b0382b038ac102b03d2b041e4fe613b42b03de4fe633b42ad7de4835d3b87920de4822ad682ad68ab5c2ad6d2ad6de4825f3b42abfde4682abec2abecaafd2abf12abf1e4685b3c829299e0c3001607830de0c22928829288a4a42928d29291e0c203c5c5d1b5e0c278384783840f170015c113e5aa83534a46aa0daa82113d0113d044f6113d5113d5aa82594a00435daa826aa846aa854d28594a011279aa45045606a915aa441126811268449c1126d11271aa44594a003c5daa446a98c6a98d65280455c594a1e4682ac542ac5400005b3ca5b3c9e482792847928574ed5f3b45f3b5e4fe79474793f9e4fd2b02c2b02cac0d2b0312b035e4fd613b02b031e4fd633b02ad71e4825d3b479209e4812ad5c2ad5cab592ad612ad61e4815f3b02abf40000791a2791a0aafa2abe42abe4aafa5949d5d1b1e0c178380783800f16001582928de0c20015c78309e0c12927c2927ca4a12928129285e0c103c5803c59aa436a9886a989652704558113d9aa82534a06aa09aa81113c4113c444f3113c9113c9aa815949c04359aa816aa806aa814d275949c1126daa440455c)
  (.lf 0)) (.nd (.lf
  0x1cf61c5a05a48c1cf6400007168266d59613f01eb8584fdc5a01d02071681c59f1cf5066e4d493e584f866d55613e01eb4584f9c59f1d01c1cf5073d61cf551cf5800007167e1cf55c59f5a4887167c73d31cf481cf4873d3584f566d51613d01eb066e49493d584f4584f473d35a4841cf4dc59e1cf3c1cf3c73d11cf413eb64094a024a860380096a3ebe43ebe4092a3ec65024a99b3366d4866d49613b01ea85a485c5b7717581d115c5bc5e41c1d02400005a4921d02c00005a49a5a499c5bc7176c716f1c5bb1d1041d10474431d1091d10dc5bb5c4181d109c5bb5e4181d02800005a4965a495c5bb71768716edc5ba1d0f81d0f874401d0fd1d101c5ba5c4141d0fdc5ba5e4145a491c5ba71764716e9c5b91d0ec1d0ec743d1d0f11d0f5c5b95c4101d0f1c5b95e4101d02000005a48e5a48dc5b971760716e5c5b81d0e01d0e0743a1d0e51d0e9c5b85c40c1d0e5c5b85e40c1d01c00005a48a5a489c5b87175c716e1c5b71d0d41d0d474371d0d91d0d9c5b75e4081d0ddc5b75c408716ddc5b61d0c81d0c874341d0cd1d0d1c5b65c4041d0cdc5b65e4041cf41c59e5a48066e45493c584f066d4d613c01eac584f1c59e1d0181d01800005a482)
  (.lf 0))) (.nd (.nd (.lf
  0x5abddd48f752b8752b972e35eb8c5cb8dd4cd753b0753b00d8d4b0784b07a09718264082641331e4e4784e47a09ed82830827b609ec390c8390c8e434390cd390d209ec4b3f4390ce09ec4fc7438e0e09714cc78825c6097038df838df8e38038dfd38dfe09704e4740e4f5a27a02e34689e9a2790e4e40e4e4393b0e4e90e4eda27958c7403431a27968a6068a61631d02e3023ca9d4cd0363475335d4cc23c9423c948f2723c9923c99d4cc4b07423b3dd48f5eb8c7523dd48e23b2c23b2c8ecd23b3123b35d48e5cb88239c88e70239bc239bc8e7058c7558c748e705abd85abd9d48e752b4752b572e25eb885cb89d4cc753ac753ac0d8c4b0744b07609708263c8263d331d4e4744e47609ec8282c827b209eb390bc390bce431390c1390c609eb4b3f0390c209eb4fc7038e0209704cc74825c2096f38dec38dece37d38df138df2096f4e4700e4e9a27902e30689e5a2780e4d80e4d839380e4dd0e4e1a27858c700342da27868a5c68a5d631c02e2c23c9dd4cc0363075331d4cb23c8823c888f2423c8d23c8dd4cb4b07023b31d48e5eb8875239d48d23b2023b208eca23b2523b29d48d5cb84239c08e6e239b4239b48e6e58c7158c708e6e5abd4)
  (.lf 0)) (.nd (.lf
  0x7cea1f3a730f8c30f8cc3e530f9130f95f3a74bd804bd81f3e57d0107cf99f3e5310f4310f4c43f310f9310fdf3e54a980310f9f3e5505807cf95f3e4310e8310e8c43c310ed310edf3e45057c310f1f3e44a97c30f91f3a74d5807ce9df3a630f804a17df3a67cf1430f80c3e230f857cf152f5f4d57c30f89f3a64bd7c4bd7df3e47d00c7cf91f3e3310dc310dcc439310e1310e5f3e34a978061e128584a158061e528594a15c7cb5529074ec9c4ec9d285a4a1607cb5929084eca04eca1285b4a1647cb5d29094eca44eca5285c4a1687cb61290a4eca84eca9285d4a16c7cb65290b4ecac4ecad285e4a170168cdb709017306dba96f225dc886dba56f215dc845bc85b7086dc9c5bc89b7096dca06dc25b708168b8168b85a30168bd168c1b7080172c168bdb7084a1706dc21b707168ac168ac5a2d168b1168b1b7074a16c168b5b707017286db9d6f1f5dc7c5bc7db7066dc946dba16f205dc805bc81b7076dc986dc1db706168a0168a05a2a168a5168a9b70601724168a5b7064a1686dc19b70516894168945a27168991689db705017206db996f1e5dc7816899b7054a1645bc79b7056dc906dc15b70416888168885a241688d1688db7044a160)
  (.lf 0)))

def shaGateTree2 : BTree :=
  .nd (.nd (.nd (.lf
  0x12035acaa047c46b2a9aca91202412024480b120291202daca95970459704b3a45b6185b619e9817a6807a68175865f6185f619e9fd7a8707a7f5e9fc2d3142d314b4c72d3192d31de9fc616142d319e9fc636142d059e9815d6187a605e9802d0442d044b4132d0492d049e9805f6142ce90b3ce2ce802ce80b3a22ce852ce84b3ce5b6142b589e5b1003c0796c5e5b02b5782b578ad602b57d2b581e5b003ebc5d415e5b07973c7973c0faf003bc12195ace7537046b39dace6121801218048621218512185ace659700045bdace66b4146b4154dc05970012029aca9047c06b2a5aca8120181201848081201d12021aca85970003ebdaca86b31c6b31d65c0047bc59700b3ce2cf782cf7800005b6165b615e9807a67c7a67d75855f6145f615e9fc7a86c7a7f1e9fb2d3082d308b4c42d30d2d311e9fb616102d30de9fb636102d04de9805d6147a601e97f2d0382d038b4102d03d2d03de97f5f6102ce8800002cf3a2cf38b3cd2ce742ce74b39f2ce792ce78b3cd5b6102b57de5b0003bc796c1e5af2b56c2b56cad5d2b5712b575e5af03eb85d411e5af79738797380fae003b812189ace6537006b399ace51217412174485f1217912179ace5596fc)
  (.lf 0)) (.nd (.lf
  0x3c36809b6026c43c36c09b7026c83c37009b8026cc3c37809ba026d43c37c09bb026d83c38009bc026dc3c38409bd026e03c38c09bf026e83c39009a0026ec3c39409a1026f03c39809a2026f43c39c09a3026f83c3a009a4026fc3efac09dc026f03efb009dd026f43efb409de026f83efb809df026fc605c809fc3f02c605cc09fd3f030605d009fe3f034605d409ff3f0383f02c09bc3f0ad3f03009bd3f0b13f03409be3f0b53f03809bf3f0b9026fd9d386755c674e19d370c6cc0c6cc31b50c6d1026f99d37675580c6d59d375873c0c6d19d37020f8674dd9d360c6c00c6c031b20c6c50c6c99d36587380c6c59d36020f4026f59d3667554674d99d350c6b40c6b431af0c6b90c6bd9d3558734026f19d35675500c6b99d35020f0674d59d340c6a80c6a831ac0c6ad0c6ad9d34020ec3ef7409ce026b83ef7809cf026bc3ef7c09d0026c03ef8009d1026c43ef8409d2026c83ef8809d3026cc3ef8c09d4026d03ef9009d5026d43ef9409d6026d83ef9809d7026dc3ef9c09d8026e03efa409da026e83efa809db026ec6059009ee3eff46059409ef3eff86059809f03effc6059c09f13f000605a009f23f004605a409f33f008605a809f43f00c)
  (.lf 0))) (.nd (.nd (.lf
  0x471a11c88472a1471a51c89472a5471a91c8a472a9471ad1c8b472ad471b11c8c472b1471b51c8d472b5471b91c8e472b94723c0be002e80472400be102e84472440be202e88472480be302e8c4724c0be402e90472500be502e94472540be602e98472580be702e9c4725c0be802ea0472600be902ea4472640bea02ea8472680beb02eac4726c0bec02eb0472700bed02eb4472740bee02eb8472780bef02ebc4727c0bf002ec0472800bf102ec4472840bf202ec8472880bf302ecc4728c0bf402ed0472900bf502ed4472940bf602ed8472980bf702edc4729c0bf802ee0472a00bf902ee4472a40bfa02ee8472a80bfb02eec472ac0bfc02ef0472b00bfd02ef4472b40bfe02ef8472b80bff02efc4c74201c380788807892cd050f4002efda53669554695554bd058f4058f4097705ae905ae91d9a5767107671173955ee545ce55d9e376808768080e3f4b3404b3420d25835108351133d04e7404e7420da183700836860da03a6b83a6b8e9b03a6bd3a6c20da0001783a6be0da04ff3c834960d243a3e83a3e8e8fc3a3ed3a3ee0d244e73c8070e01c2361d0361d0d876361d5361da01c24b33c4c73e01c280784807852ccf50f3c02ef9a53569550)
  (.lf 0)) (.nd (.lf
  0x31addf5984ee8431ae1f5984a6044d685f5987d6dc7d661f59731acc31accc6b531ad131ad5f5974a60031ad1f5974ee807d65df59631ac031ac0c6b231ac531ac5f5964ee7c31ac9f5964a5fc7d659f59531ab431ab4c6af31ab931ab9f5954ee7831abdf5954a5f84d679f5957d6d07d655f59431aa831aa8c6ac31aad4d675f5947d6cc31ab1f5944a5f431aadf5944ee747d651f59331a9c31a9cc6a931aa131aa1f5934ee7031aa5f5934a5f04d671f5937d6c87d64df59231a9031a90c6a631a9531a95f5924ee6c4d66df5927d6c431a99f5924a5ec7d649f59131a844d669f5917d6c031a84c6a331a8931a8df5914a5e831a89f5914ee687d645f59031a7831a78c6a031a7d31a81f5904a5e431a7df5904ee644d665f5907d6bc7d641f58f31a6c31a6cc69d31a7131a75f58f4a5e04d661f58f7d6b831a71f58f4ee607d63df58e31a6031a60c69a31a6531a69f58e4a5dc31a65f58e4ee5c4d65df58e7d6b47d639f58d31a5431a54c69731a5931a59f58d4ee5831a5df58d4a5d84d659f58d7d6b07d635f58c31a4831a48c69431a4d31a51f58c4a5d431a4df58c4ee544d655f58c7d6ac7d631f58b31a3c4d651f58b7d6a831a3cc69131a41)
  (.lf 0)))

def shaGateTree3 : BTree :=
  .nd (.nd (.nd (.lf
  0x630700e7f3ce5477c7d841d63074630740e603ce5877c81841e63078630780e613ce5c77c85841f6307c6307c0e623ce6077c89842063080630800e633ce6477c8d842163084630840e643ce6877c91842263088630880e653ce6c77c9584236308c6308c0e663ce7077c99842463090630900e673ce7477c9d842563094630940e683ce7877ca1842663098630980e693ce7c77ca584276309c6309c0e6a3ce8077ca98428630a0630a00e6b3ce8477cad8429630a4630a40e6c3ce8877cb1842a630a8630a80e6d3ce8c77cb5842b630ac630ac0e6e3ce9077cb9842c630b0630b00e6f3ce9477cbd842d630b4630b40e703ce9877cc1842e630b8630b80e713ce9c77cc5842f630bc630bc0e723cea077cc98430630c0630c00e733cea477ccd8431630c4630c40e743cea877cd18432630c8630c80e753ceac77cd58433630cc630cc0e763ceb077cd98434630d0630d00e773ceb477cdd8435630d4630d40e783ceb83ce3c0e6b039983ce400e6c0399c3ce440e6d039a03ce480e6e039a43ce4c0e6f039a83ce500e70039ac3ce540e71039b03ce580e72039b43ce5c0e73039b83ce600e74039bc3ce640e75039c03ce680e76039c43ce6c0e77039c8)
  (.lf 0)) (.nd (.lf
  0x33e84cfa333e8933e8dfbb14c3304a731fbb17ef407ef4130cc4db304c331fbef7f0387efbdfbee33fe033fe0cffa33fe533fe9fbee4af2c33fe5fbee50b2c33e89fbb14db307eec5fbb033e7833e78cfa033e7d33e81fbb04c32c4a72dfbb07ef3c7ef3d30cb4db2c4c32dfbee7f0347efb9fbed33fd433fd4cff733fd933fddfbed4af2833fd9fbed50b2833e7dfbb04db2c7eec1fbaf33e6c33e6ccf9d33e7133e75fbaf4c3284a729fbaf7ef387ef3930ca4db284c329fbed7f0307efb5fbec33fc833fc8cff433fcd33fd1fbec4af2433fcdfbec50b2433e71fbaf4db287eebdfbae33e6033e60cf9a33e6533e69fbae4c3244a725fbae7ef347ef3530c94db244c325fbec7f02c7efb1fbeb33fbc33fbccff133fc133fc5fbeb4af2033fc1fbeb50b2033e65fbae4db247eeb9fbad33e5433e54cf9733e5933e5dfbad4c3204a721fbad7ef307ef3130c84db204c321fbeb7f0287efadfbea33fb033fb0cfee33fb533fb9fbea4af1c33fb5fbea50b1c33e59fbad4db207eeb5fbac33e4833e48cf9433e4d33e51fbac4c31c4a71dfbac7ef2c7ef2d30c74db1c4c31dfbea7f0247efa9fbe933fa433fa4cfeb33fa933fadfbe94af1833fa9fbe950b18)
  (.lf 0))) (.nd (.nd (.lf
  0x742b9725c5e97021e71d0905e97474241d08f21e6021e60879a21e6521e69d08f5c9705c971d0cd743b021fcdd0cd4ae5c74335d0cc21fbc21fbc87f121fc121fc1d0cc4ae583c7240c8503200462d00aa502a14549d80ac5463d0463d11914464d1464d00ac502a1402a15a0c06837c6837d4a9658a583f6500ca503214608ec0cc53f6d03f6d00c853f7510d961a08302c186820da0820d9500d95036560d9550d959a08258a5803215a082682840dacda0c152a5c68285629602c1468305a0c00dab80dab836b00dabd0dabda0c058a5821cb4000021dae21dac872a21ca421ca4872a58a5958a58872a5a9c85a9c9d08e742b4742b5725b5e96c21e65d08f5e9707423dd08e21e5421e54879721e5921e5dd08e5c96c5c96dd0cc743ac21fc5d0cc0341474331d0cb21fb021fb087ee21fb521fb9d0cb0341021fb5d0cb4ae543f64c0ca403210608e80cc43f6cc3f6cc0c843f74d0d955a08202c1468209a0810d9440d94436530d9490d94da08158a5403211a081682800dac1a0c052a5868301a0bf0daac462cc0aa402a10549d40ac4463cc463cd1913464cd464cc0ac402a100daac36ad0dab10dab1a0bf58a5402a11a0bf68378683794a9558a54)
  (.lf 0)) (.nd (.lf
  0x15e3c579057cf964f4d473e57cf864e555f3e00fb457cf8579059ccc15e40578e15e3415e34578e57cf508dbd937557cf46c8f4052c49ef464f49473d57cf43b940052c0149c3db6c054c014b05fb88056c3dbec3dbec052c3dc6d014b1937564e5064e515f3d00fb057cf4578e59cc815e38578c15e2c15e2c578c57cf108db9937500fb064dd5937408da808da8236c08dad08db1937457cf05ba05b21d6c8f03b93c052b014986c8f0052b49ef03db68054b014ac5fb84056b3dbe83dbe8052b3dc69014ad937464e4c64e4d5f3c00fac57cf0578c59cc459cc5b5d26d7c451cf5b5956d6d05b9f5b2196c8e06c8e0052749ee05b9f9b21a6c8e45ba01b21c6c8ec1453db21d49ef06c875b21c1452c1452c514d1453114531b21c49eec14535b21c014a86c871b21b1452014520514a1452514525b21b49ee814529b21b014a45b9fdb21b6c8e86c86db21a145141451451471451914519b21a49ee41451db21a014a06c869b219145081450851441450d43a64038a00da853c6c03aa43b6443b650ef943c6543c6403aa00da800da993b164f4008f1993b251cf064ec993b108f0408f0423c308f0908f0993b157cec08f0d93b151cec64ec593b008ef8)
  (.lf 0)))

def shaGateTree4 : BTree :=
  .nd (.nd (.nd (.lf
  0x431a011c60476c431a411c704770431a811c804774431ac11c904778431b011ca0477c431b411cb04700431b811cc0470448cbc11e00470048cc011e10470448cc411e20470848cc811e30470c48ccc11e40471048cd011e50471448cd411e60471848cd811e70471c48cdc11e80472048ce011e90472448ce411ea0472848ce811eb0472c48cec11ec0473048cf011ed0473448cf411ee0473848cf811ef0473c48cfc11f00474048d0011f10474448d0411f20474848d0811f30474c48d0c11f40475048d1011f50475448d1411f60475848d1811f70475c48d1c11f80476048d2011f90476448d2411fa0476848d2811fb0476c48d2c11fc0477048d3011fd0477448d3411fe0477848d3811ff0477c557c402e0497c4557c802e1497c8557cc02e2497cc557d002e3497d0557d402e4497d4557d802e5497d8557dc02e6497dc557e002e7497e0557e402e8497e4557e802e9497e8557ec02ea497ec557f002eb497f0557f402ec497f4557f802ed497f8557fc02ee497fc5580002ef498005580402f0498045580802f1498085580c02f24980c5581002f3498105581402f4498145581802f5498185581c02f64981c5582002f7498205582402f849824)
  (.lf 0)) (.nd (.lf
  0x567ac07f042124420f807fc01fc44212407e701ff045bac081c01ff0547b4083c45cac45cad174b45dad45dac083c01ff001ff19e6b67a281fa4c00001fa8e1fa8c7e901fa3c1fa3c7e9058839027f59e2e6793467935620e021f467a2d4a0e588380cc719e2f021f8678bd9e2e0cc600cc60331a0cc650cc699e2e58838588387e905a7b41fc3dcbb35c7505a7b5cbb272f4472ecdcbb21fc281fc287f0c1fc2d1fc31cbb25c74c1fc2dcbb25e74c72ec9cbb11fc1c1fc1c7f091fc211fc21cbb15e748027f19e2d6793067931620d021f01fa407e8e1fa341fa347e8e588350cc659e2e021f4678b99e2d0cc540cc5433170cc590cc5d9e2d5883467a294a0d58834588347e8e5a7b05a7b1cbb172f4072f4171d25e7485e749cc2d7313072d4981b0626c072a2551dc567701f0f1ca655475c72995ca641f0dc1f0dc7c391f0e11f0e1ca64567581f0e5ca645475852759ca6472a0c72991ca631f0d01f0d07c361f0d51f0d9ca63547541f0d5ca635675452755ca6372a087298dca621f0c41f0c47c331f0c91f0c9ca62567503f1a80a1b027ec72d4d81b1626c4606c40a3b3f2283f22809fb3f2a972a5d51ea567a80cdc59e6b52834679ad9e6a0cdb0)
  (.lf 0))) (.nd (.nd (.lf
  0x4e82e0f1083cbc83c420f0f3aeec3aeecebbd3aef13aef60f0f002643aef20f0f500283ac320e944d02c83a520e933ac1c3ac1ceb093ac213ac220e934e82836a1603325102c80cca033136a0436a04da8336a0936a0e03314b4284c82a033180d4080d412d0a5102869825640a031e426ed1dbce039e876f39dbcd26ebc26ebc9bb126ec126ec1dbcd4b42826d65db905ef4076e41db8f26d5426d549b5726d5926d5ddb8f5cf3c26b94000026bee26bec9afa26b8026b809ae226b8526b849afa5af6c590289afa26c2826c2800005af6e5af6ddb8f76eb876eb973cf5ef3c5cf3ddbcd76fb076fb00e794b4284b42a0e9383ac883ac9340a4e8284e82a0f0f83cb883c3e0f0e3aee03aee0ebba3aee53aeea0f0e002603aee60f0e500243ac260e934d02883a4e0e923ac103ac10eb063ac153ac160e924e82436a0a03315102880cc60330369f8369f8da80369fd36a0203304b4244c826033080d3c80d3d2d0951024698216409031e026ec5dbcd039e476f35dbcc26eb026eb09bae26eb526eb5dbcc4b42426d59db8f5ef3c76e3ddb8e26d4826d489b5426d4d26d51db8e5cf3826b88000026bea26be89af926b7426b749adf26b7926b789af95af68)
  (.lf 0)) (.nd (.lf
  0x4471804970115c0115d972265d0465d054828580a00a3559722580a065d11482b580ac65d19482d580b465c21602d01a70580b5bcbb1914c6f2edbcba190f4190f4643f190f9190f9bcba5a06c65c1d602c01a6c190fc00006f2ea65d15482c580b0580b1bcba191486f2e9bcb9190e8190e8643c190ed190edbcb95a068190f000006f2e665c19602b01a68580adbcb9191446f2e5bcb8190dc190dc6439190e1190e1bcb85a06465d0d482a580a865c15602a01a64580a9bcb819140190e400006f2e26f2e06436190d4190d46436580a565c11602901a6065d094829580a4580a464365a060190d86434190cc190cc6434580a1580a064345a05c18791bb7953fc861efc06023bce061f4406143bd283bce006140183c0a1c428730a1c9190d06432190c465c8997210a3440a34428d30a3496ede54ff155fc551fc54ff155fc455fc404564193c56014044a4198c4196004560112c4198c044101158445140476011585401c0496446144461511a5447154471404960115801159972165d0065d0148275809c0a34997215809c190c464325809d5809c64325a058190c9bcb7190b8190b86430190bd190bdbcb75a0540a34d97215209c65c8597200a338)
  (.lf 0)))

def shaGateTree5 : BTree :=
  .nd (.nd (.nd (.lf
  0x29a35e1fa631f029775e17f5d1f4785fde17e2976029760a5da2976529765e17e5f1f0295e5e168295d4295d4a577295d9295d9e1685b2081093da8c00439c6a301a8bf1092c1092c424d1093110935a8bf592dc592dde168296e4296e400005b20a5b209e17e7867478675747c5f1f05f1f1e1fa78864787e9e1f929a2429a24a68b29a2929a2de1f9611ec29a29e1f9631ec29769e17e5d1f0785f9e17d2975429754a5d72975929759e17d5f1ec295dc0000785a2785a1e167295c8295c8a574295cd295cde1675b20410931a8bf043986a2fda8be1092010920424a1092510929a8be592d803a95a8be6a3746a37564b604394592d9e167296e0296e000005b2065b205e17d7867078671747b5f1ec5f1ede1f978860787e5e1f829a1829a18a68829a1d29a21e1f8611e829a1de1f8631e82975de17d5d1ec785f5e17c2974829748a5d42974d2974de17c5f1e8295d000007859e7859de166295bc295bca571295c1295c1e1665b20010925a8be043946a2f9a8bd10914109144247109191091da8bd592d4592d5e166296dc296dc00005b2025b201e17c7866c7866d747a5f1e85f1e9e1f87885c787e1e1f729a0c29a0ca68529a1129a15e1f7611e4)
  (.lf 0)) (.nd (.lf
  0x1c461c3fb4a80c5a39dc3bd70f7070f7170c85e3205c321c3fb7106870fedc3fa1c4501c45071161c4551c459c3fa025c41c21000005a39a1c455c3fa4a80870ef5c3bc1c2e81c2e870bc1c2ed1c2f1c3bc5c31c5a399c3bc70f6c70f6d70c75e31c5c31dc3fa7106470fe9c3f91c4441c44471131c4491c449c3f94a8041c20c00005a3961c2edc3bc5e31c70ef1c3bb1c2dc5a395c3bb70f681c2dc70b91c2e11c2e5c3bb5c31870f6970c65e3185c319c3f9710601c20800005a3921c2e1c3bb5e31870eedc3ba1c2d01c2d070b61c2d55a391c3ba70f641c2d9c3ba5c31470f6570c55e3145c315c3f87105c1c44dc3f9025c070fe5c3f81c4381c43871101c43d1c43dc3f84a8001c441c3f8025bc70fe1c3f71c42c1c42c710d1c4311c435c3f7025b81c20400005a3821c2d5c3ba5e31470ee9c3b91c2c41c2c470b31c2c91c2cdc3b95c3105a38dc3b970f601c2c9c3b95e31070ee5c3b81c2b81c2b870b01c2bd1c2bdc3b85e30c1c2c1c3b85c30c5a389c3b870f5c70ee1c3b71c2ac1c2ac70ad1c2b11c2b1c3b75e3081c2b5c3b75c3085a385c3b770f5870eddc3b61c2a01c2a070aa1c2a51c2a9c3b65c3045a381c3b670f541c2a5c3b65e304)
  (.lf 0))) (.nd (.nd (.lf
  0x22b9c8ae922ba122ba08b195aaf458b848b1922cbc22cbc00005aaf65aaf5d28974aa074aa172a65ea985ca99d2c774b9874b980d504af844af8608008207c8207d32e14e3844e386087c8226c821f2087b3887c3887ce2213888138886087b4b30038882087b4fb80385c208004cb848200207ff385ac385ace16d385b1385b207ff4e380687854ae058b806868d62e002d3c22f0dd2c70354074b1dd2c622ef822ef88bc022efd22efdd2c64af8022da1d2895ea9874a25d28822d9022d908b6622d9522d99d2885ca9422ba4000022c6622c648ae622b9422b948ae658b8158b808ae65aaf05aaf1d28874a9c74a9d72a55ea945ca95d2c674b9474b940d4f4af804af8207ff820788207932e04e3804e382087b82268821ee087a3887038870e21e388753887a087a4b2fc38876087a4fb7c385b607ff4cb8081ffe07fe385a0385a0e16a385a5385a607fe4e37c687814adf58b7c6868962df02d3822f01d2c60353c74b19d2c522eec22eec8bbd22ef122ef1d2c54af7c22d95d2885ea9474a21d28722d8422d848b6322d8922d8dd2875ca9022b988b1822b8822b888ae422b8d22b8c8b185aaec58b7c8b1822cb822cb800005aaee5aaedd28774a98)
  (.lf 0)) (.nd (.lf
  0x601527b349ec40601d27b549ecc49ecdeff87c05c0601927b449ec80602127b649ed049ed1eff97c0607c0612eb44d2d02fc84bf232fc890602927b849ed849ed9effb7c0682fa7df0054bb002fa79f0054d30049f01f0057c0907c015f0042fa682fa68be9c2fa6d2fa71f0044bafc7bce1286c4ea304ea3127bf49ef449efdf0047c08c2fa6df0044d2fc7c011f0032fa5c2fa5cbe992fa612fa61f0034d2f82fa65f0034baf87c00df0022fa507bcd9286a4ea284ea2927bd49eec49ef1f0017c0802fa50be962fa5549ef5f0027c0842fa55f0024d2f42fa59f0024baf47c009f0012fa442fa44be932fa492fa4df0014baf02fa49f0014d2f07c005f0002fa382fa38be902fa3d2fa41f0004baec0602527b749ed40602d27b949edc7bcd128684ea204ea2127bb49ee42fa3df0004d2ec49eedf0007c07c7c001efff2fa2c2fa2cbe8d2fa312fa35efff4bae82fa31efff4d2e87bffdeffe2fa202fa20be8a2fa252fa29effe4bae449ee5effe7c0742fa25effe4d2e47bff9effd2fa142fa14be872fa192fa19effd4d2e02fa1deffd4bae049ee1effd7c0707bff5effc2fa082fa08be842fa0d2fa11effc4badc2fa0deffc4d2dc49eddeffc7c06c)
  (.lf 0)))

def shaGateTree6 : BTree :=
  .nd (.nd (.nd (.lf
  0x614a00fb240e04614a40fb340e08614a80fb440e0c614ac0fb540e10614b00fb640e14614b40fb740e18614b80fb840e1c614bc0fb940e20614c00fba40e24614c40fbb40e28614c80fbc40e2c614cc0fbd40e30614d00fbe40e34614d40fbf40e3840dbc0f6040e3d40dc00f6140e4140dc40f6240e4540dc80f6340e4940dcc0f6440e4d40dd00f6540e5140dd40f6640e5540dd80f6740e5940ddc0f6840e5d40de00f6940e6140de40f6a40e6540de80f6b40e6940dec0f6c40e6d40df00f6d40e7140df40f6e40e7540df80f6f40e7940dfc0f7040e7d40e000f7140e8140e040f7240e8540e080f7340e8940e0c0f7440e8d40e100f7540e9140e140f7640e9540e180f7740e9940e1c0f7840e9d40e200f7940ea140e240f7a40ea540e280f7b40ea940e2c0f7c40ead40e300f7d40eb140e340f7e40eb540e380f7f40eb9535c1e63c7996c798f1e63b2b8fc2b8fcae412b9012b905e63b555bc2b901e63b575bc535bde63b79968798ede63a2b8f02b8f0ae3e2b8f52b8f9e63a555b82b8f5e63a575b8535b9e63a79964798e9e6392b8e42b8e4ae3b2b8e92b8ede639555b42b8e9e639575b4535b5e63979960798e5e6382b8d82b8d8ae382b8dd)
  (.lf 0)) (.nd (.lf
  0x5c54dc8027208472009c8011e0f01e0f0783e1e0f51e0f9c801027f01df99c7c45e54c71f11c7c31df881df8877e41df8d1df8dc7c35e5485e45dc72c71d2c1da35c72f6046871cbdc72e1da201da20768a1da251da29c72e604641da25c72e624645e465c72e71d3471cb9c72d1da141da1476871da191da1dc72d604601da19c72d624605e461c72d71d3071cb5c72c1da081da0876841da0d5e4598116624581da11c72c6045c1da0dc72c6245c71cb18116624596245809793c23c71d2d81176245c6245c097a3c24071d3181186246062460097b3c24471d3581196246462464097c3c24871d5d81236248c6248c09663c27071d618124624906249009673c27471d658125624946249409683c27871d698126624986249809693c27c71d6d81276249c6249c096a3c28071d7d812b624ac624ac096e3c29071d81812c624b0624b0096f3c294624d409783c2b83c2700978025cc3c2740979025d03c278097a025d43c27c097b025d83c280097c025dc3c2900960025ec3c2940961025f00c2919c7c52638671f19c7b0c27c0c27c30a10c28171a4d5160565800c2819c7b586340c2859c7b5263471a2951575655c5655c077c41ed456580076541ef8)
  (.lf 0))) (.nd (.nd (.lf
  0x75cdd832162c8462c840d643ca6875ce1832262c8862c880d653ca6c75ce5832362c8c62c8c0d663ca7075ce9832462c9062c900d673ca7475ced832562c9462c940d683ca7875cf1832662c9862c980d693ca7c75cf5832762c9c62c9c0d6a3ca8075cf9832862ca062ca00d6b3ca8475cfd832962ca462ca40d6c3ca8875d01832a62ca862ca80d6d3ca8c75d05832b62cac62cac0d6e3ca9075d09832c62cb062cb00d6f3ca9475d0d832d62cb462cb40d703ca9875d11832e62cb862cb80d713ca9c75d15832f62cbc62cbc0d723caa075d19833062cc062cc00d733caa475d1d833162cc462cc40d743caa875d21833262cc862cc80d753caac75d25833362ccc62ccc0d763cab075d29833462cd062cd00d773cab475d2d833562cd462cd40d783cab83ca3c0d6b035983ca400d6c0359c3ca440d6d035a03ca480d6e035a43ca4c0d6f035a83ca500d70035ac3ca540d71035b03ca580d72035b43ca5c0d73035b83ca600d74035bc3ca640d75035c03ca680d76035c43ca6c0d77035c83ca700d78035cc3ca740d79035d03ca780d7a035d43ca7c0d7b035d83ca800d7c035dc3ca840d7d035e03ca880d7e035e43ca8c0d7f035e83ca900d60035ec)
  (.lf 0)) (.nd (.lf
  0x175845d63175891758db8c75bd7c6e3996f5f5dd7c17701b906018286e419b905176ec176ec5dbd176f1176f1b9054a2685bd7db9056e4906e49006094a2684a269f5157d4d0317b9f5154d668317bdf5154be687d455f514317a83bb240585016003bb280586016043bb2c0587016083bb3005880160c0960594e6011246539994e5095f4095f4257f095f9095fd94e557e643de5c05a8016205fcf805c83dedc3dedc05883df5d0162194e565410095f994e5011206539594e4095e8095e8257c095ed095f194e457e60095ed94e40111c3de5005a5016145fcec05c53ded03ded005853df510161594e2654043de5405a6016183de5805a70161c5fcf005c63ded45fcf405c73ded83ded405863df553ded805873df590161994e3654080161d94e46540c6539194e3095dc095dc2579095e1095e594e357e5c095e194e3011186538d94e2095d0095d02576095d5095d994e257e58095d594e2011146538994e1095c4095c42573095c93de4c05a4016105fce805c43decc3decc05843df4d095c994e1011100161194e165400095cd94e157e546538594e0095b8095b82570095bd095bd94e00110c3de4805a30160c5fce405c33dec83dec805833df49)
  (.lf 0)))

def shaGateTree7 : BTree :=
  .nd (.nd (.nd (.lf
  0x39e5a0c4d4e6484b24533914e6448313533914e6454ce440140516448322c01405164551644012305d3c832a801415164851648012405d40832ac01425164c5164c012505d44832b001435165051650012605d48832b401445165451654012705d4c832b801455165851658012805d50832bc01465165c5165c012905d54832c001475166051660012a05d58832c401485166451664012b05d5c832c801495166851668012c05d60832cc014a5166c5166c012d05d64832d0014b5167051670012e05d68832d4014c5167451674012f05d6c832d8014d5167851678013005d70832dc014e5167c5167c013105d74832e0014f5168051680013205d78832e401505168451684013305d7c832e801515168851688013405d80832ec01525168c5168c013505d84832f001535169051690013605d88832f401545169451694013705d8c832f801555169851698013805d90832fc01565169c5169c013905d94833000157516a0516a0013a05d98833040158516a4516a4013b05d9c833080159516a8516a8013c05da08330c015a516ac516ac013d05da483310015b516b0516b0013e05da883314015c516b4516b4013f05dac05d3c01320049c05d400133004a0)
  (.lf 0)) (.nd (.lf
  0x6fe0dbf821a4ac1a4ac692d1a4b11a4b5bf825423452235bf826fe841a4b1bf82562346fe09bf811a4a01a4a0692a1a4a51a4a5bf81562301a4a9bf815423052231bf816fe806fe05bf801a4941a49469271a4991a49dbf805422c5222dbf806fe7c1a499bf805622c6fe01bf7f1a4881a48869241a48d1a48dbf7f562281a491bf7f5422852229bf7f6fe786fdfdbf7e1a47c1a47c69211a4811a485bf7e5422452225bf7e6fe741a481bf7e562246fdf9bf7d1a4701a470691e1a4751a475bf7d562201a479bf7d5422052221bf7d6fe706fdf5bf7c1a4641a464691b1a4691a46dbf7c5421c5221dbf7c6fe6c1a469bf7c5621c6fdf1bf7b1a4581a45869181a45d1a45dbf7b5621852219bf7b6fe681a461bf7b542186fdedbf7a1a44c1a44c69151a4511a455bf7a5421452215bf7a6fe641a451bf7a562146fde9bf791a4401a44069121a4451a445bf795621052211bf796fe601a449bf79542106fde5bf781a4341a434690f1a4391a43dbf785420c5220dbf786fe5c1a439bf785620c6fde1bf771a4281a428690c1a42d1a42dbf775620852209bf776fe581a431bf77542086fdddbf761a41c1a41c69091a4211a425bf76542041a421bf7656204)
  (.lf 0))) (.nd (.nd (.lf
  0x20a8882a420a8d20a91cdd90329c20a8dcdd94ace073765cdd820a7c20a7c82a120a8120a81cdd84acdc20a85cdd8032985c7f1cdd8737dc73761cdd720a7020a70829e20a7520a79cdd70329420a75cdd74acd85c7edcdd7737d87375dcdd620a6420a64829b20a6920a6dcdd60329020a69cdd64acd45c7e9cdd6737d473759cdd520a5820a58829820a5d20a61cdd50328c20a5dcdd54acd05c7e5cdd5737d073755cdd420a4c20a4c829520a5120a55cdd40328820a51cdd44accc5c7e1cdd4737cc73751cdd320a4020a40829220a4520a49cdd30328420a45cdd34acc85c7ddcdd3737c8738400cbf4ad407383c0cbe4ad3c738380cbd4ad38738340cbc4ad34738300cbb4ad307382c0cba4ad2c738280cb94ad28738140cb44ad14738080cb14ad08738100cb34ad10737e40ca84ace4737e80ca94ace8737d00ca34acd07374c0ca04acc5737c80ca14acc8737e00ca74ace0738040cb04ad04738240cb84ad24737dc0ca64acdc738000caf4ad00738200cb74ad20737d80ca54acd8737fc0cae4acfc7381c0cb64ad1c737d40ca44acd4737f80cad4acf8738180cb54ad184ad42046d812308123132504e1404e14204e981420813a604e837418)
  (.lf 0)) (.nd (.lf
  0x137504dd61375513759b021013d013755b02149e146c085b02013744137444dd3137491374db020013cc13749b02049e105b925b0206c0fc6c081b01f13738137384dd01373d13741b01f013c81373db01f49e0c5b921b01f6c0f86c07db01e1372c1372c4dcd1373113731b01e49e0813735b01e013c46c079b01d13720137204dca1372513725b01d49e045b919b01d6c0f013729b01d013c06c075b01c1371414cec533d14cf114cf1b35361a606bcd804c249d4c435c4032200c08437c4034200c0800c099235649503d84404e20130812ef5af17013085f9e005023d8c43d8c404c23d9450130991f764858648595ed300e0808649923651b50648d992350863408634218f08639084dd91f800e0c647e191f7084cc084cc2135084d1084d591f757b4c6495146d357b4c08639923557b4c57b4db2d76cbd86cbd96e985da6014a31b2d85ba646cb61b2d714a1c14a1c528914a2114a21b2d75da605da61b3536cdc86cdf57ea361a8c6cddd7e9d61a746cdc97e9861a605b911b01b6c0e86ce117eaa61aa8137144dc7137191371db01c013bc5fa8c052d3d9f013719b01c49e005b915b01c6c0ec6c071b01b13708137084dc41370d1370db01b49dfc)
  (.lf 0)))

def shaGateTree8 : BTree :=
  .nd (.nd (.nd (.lf
  0x7b389563c578f0558f002ab494f07b38d563d578f4558f402ac494f47b391563e578f8558f802ad494f87b395563f578fc558fc02ae494fc7b3995640579005590002af495007b39d5641579045590402b0495047b3a15642579085590802b1495087b3a556435790c5590c02b24950c7b3a95644579105591002b3495107b3ad5645579145591402b4495147b3b15646579185591802b5495187b3b556475791c5591c02b64951c7b3b95648579205592002b7495207b3bd5649579245592402b8495247b3c1564a579285592802b9495287b3c5564b5792c5592c02ba4952c7b3c9564c579305593002bb495307b3cd564d579345593402bc495347b3d1564e579385593802bd495387b3d5564f5793c5593c02be4953c7b3d95650579405594002bf49540494c52551495c5494c92552495c9494cd2553495cd494d12554495d1494d52555495d5494d92556495d9494dd2557495dd494e12558495e1494e52559495e5494e9255a495e9494ed255b495ed494f1255c495f1494f5255d495f5494f9255e495f9494fd255f495fd4950125604960149505256149605495092562496094950d25634960d495112564496114951525654961549519256649619)
  (.lf
  0x4b6a59099642e007d6d909957a2407d69909900ce064265909807d5807e901fa607e95412d52e244b8644b89190d2643c407e9590d257a1007e9990d251a106434990d107e8407e841fa307e8907e8990d157a0c3d6092da43d689412d12e234b8605f8b12d673d6145f8b52d683d6185f8ad2d663d6103d6192da83d6995f8a12d633d6043d6052da33d6856bde97e1e6187807d581f5807d5d07d61909857a206bdf97e2261888618892d963b66c618d12da83b6b43b66d2da84b68c63c152da80095c4b6a19098642dc07d5d909800cdc64261909707d4c07d4c1f5507d5107d51909700cd83d6152da73d69563c112da700958618852d953b6683b6692da74b688618cd2da73b6b04b69d9097642d807d55909757a1c6425d909607d4007d401f5207d4507d49909657a1807d45909600cd46bdf17e2061880618812d943b6643d6112da63d69163c0d2da6009543b6652da64b684618c92da63b6ac4b6999096642d464259909507d3407d341f4f07d3907d3d909557a1407d39909500cd06187d2d933b6603b6612da54b68063c092da5009504b6959095642d064255909407d2807d281f4c07d2d07d31909457a1007d2d909400ccc618792d923b65c))
  (.nd (.lf
  0x547f4084c45dec547f8084d45df0547fc084e45df445ded179b45eed45df1179c45ef145df5179d45ef545eec084c0203045ef0084d0203445ef4084e02038200e08036200d4020399ed967be067be14a1f5887c0cff99eda5288067b699ed90cfe40cfe433fb0cfe90cfe99ed95887c200d480365887d5887c80365a7ec200d88061200c8200c88034200cd200cc80615a7e8020359ed867bdc0cfed9ed95287c67b659ed80cfd80cfd833f80cfdd67bdd4a1e588780cfdd9ed858878588788061201b8200d00000201860cfe19ed85287867b619ed70cfcc0cfcc33f50cfd10cfd19ed758874020319ed767bd80ce64339b0ce690ce6d9e995887467bd94a1d58874201848031200c0200c08031588755887480315a7e45a7e5cc99732e00ce699e9902a3067a659e980ce580ce5833980ce5d0ce619e98588703f2680a2b0282c607040a4b3f2e83f2e80a0b3f3690282d9e9867adc67add621c02a2c200c4802f200b8421b4080b0200045ce8082b0202c547f0084b45de845de9179a45ee945ee8084b0202c0cfd59ed75287467b5d9ed60cfc00cfc033f20cfc50cfc59ed6588700202d9ed667bd467bd54a1c58870200b8802f5887158870802f5a7e0)
  (.lf 0))) (.nd (.nd (.lf
  0xfc29a669041707641c0e1c4b2b403871a66969a20699a5a6680fc180fc183f080fc1d0fc21a668590b00fc1da6680416c764180e1b4b2b00386da66869a1c763c80e074b2600381da654699cc699cd64180411c763cc0e084b26403821a655699d0699d164190412025859d8d24b25c76349d8d1258482584896142584d25851d8d1038145cd6dd8d1763c0763c00e054b25803815a652699c4699c5641604114699a1a6670fc0c0fc0c3f050fc110fc15a667590ac0fc11a66704168764140e1a4b2ac03869a66769a186999da6660fc000fc003f020fc050fc09a666590a80fc05a66604164764100e194b2a803865a66669a1469999a6650fbf40fbf43eff0fbf90fbfda665590a40fbf9a665041607640c0e184b2a403861a66569a1069995a6640fbe80fbe83efc0fbed0fbf1a664590a00fbeda6640415c764080e174b2a00385da66469a0c69991a6630fbdc0fbdc3ef90fbe10fbe5a6635909c0fbe1a66304158764040e164b29c03859a66369a086998da6620fbd00fbd03ef60fbd50fbd9a662590980fbd5a66204154764000e154b29803855a66269a0469989a6610fbc40fbc43ef30fbc90fbcda661590940fbc9a66104150763fc0e144b294)
  (.lf 0)) (.nd (.lf
  0x6f735bdcc1996c1996c665d1997119975bdcc5c038197cc6607197bc197bc65f1197c1197c066075a0dc3e39c0658018e05ffb806783e41c3e41c06383e49d65d8997610a4c4018e1976165e0065e01604901ae018ecdbc73540506f1cdbc7218eb818eb863b018ebd18ebdbc725604c5204dbc726f2446f24550135604c5604c0478419c46f269501c56070560700461419e85609c046c41a14419e80478011b441a140463011e00a4c429330a4c90a4cd9761581244469c0498011e0540a404b84479c4479d12074489d4489c04b8011e0011e1979f65ef865ef94849581240a64197a05212865e81979f0a62c0a62c298d0a6310a631979f581245812466071984c197c400001981e1981c6606197b0197b065ee197b5197b466065a0d80a4c9976101ae065d8597600a4b80a4b829300a4bd3e3980657018dc5ffb406773e4183e41806373e4990a4c197605812019971bdcc5e03818ec1bc725404c6f1c9bc7118eac18eac63ad18eb118eb1bc715604852049bc716f2406f2915026560986f241501256048560480477419c06f265501b5606c5606c0460419e456098046b41a10419e40477011b041a100462011dc446980497011dc540a004b744798)
  (.lf 0)))

def shaGateTree9 : BTree :=
  .nd (.nd (.nd (.lf
  0x29b71e2345534c29b6de2345734c5334de2347894c788d1e23329b5c29b5ca6d929b6129b65e2335534829b61e2335734853349e233789485334554d157344788cd54d1573455734410b642cbc7894954d2573485734810b742cc07894d54d35734c5734c10b842cc47895154d4573505735010b942cc87895554d5573545735410ba42ccc7895954d6573585735810bb42cd07895d54d75735c5735c10bc42cd47896154d8573605736010bd42cd87896554d9573645736410be42cdc7896954da573685736810bf42ce07896d54db5736c5736c10a042ce47897154dc573705737010a142ce87897554dd573745737410a242cec7897954de573785737810a342cf07897d54df5737c5737c10a442cf47898154e0573805738010a542cf87898554e1573845738410a642cfc7898954e2573885738810a742d007898d54e35738c5738c10a842d047899154e4573905739010a942d087899554e5573945739410aa42d0c7899954e6573985739810ab42d107899d54e75739c5739c10ac42d14789a154e8573a0573a010ad42d18789a554e9573a4573a410ae42d1c789a954ea573a8573a810af42d20789ad54eb573ac573ac10b042d24789b154ec573b0)
  (.lf 0)) (.nd (.lf
  0x5849c72265a42c5a42dc4b9713605a435c4bb713685a431c4ba71364712edc4ba1ca501ca5072961ca551ca59c4ba5c3b41ca55c4ba5e3b4712e9c4b91ca441ca4472931ca491ca49c4b95e3b01ca4dc4b95c3b066c7949255849466b85612601e5466b81612501e50712e5c4b81ca3866c7d4926584981c89872241c88c1c88c7224584995849872245a4285a429c4b87135c1ca3872901ca3d1ca3dc4b85e3ac1ca41c4b85c3ac712e1c4b71ca2c1ca2c728d1ca311ca31c4b75e3a81ca35c4b75c3a81c89072411c8805849472411c9381c88072221c8851c88472415a4241c93800005a4265a425c4b771358712ddc4b61ca2066b7d612401e4c1c88800001c9061ca20728a1ca251ca25c4b65e3a41ca29c4b65c3a41c90472401c8741c874721f1c8791c87872405a42066c754924584905849072401c9341c93400005a4225a421c4b671354712d9c4b51ca141ca1472871ca191ca19c4b55e3a01ca1dc4b55c3a066b79612301e4866c7149235848c1c87c00001c9021c900721c1c86c1c86c721c5848d5848c721c5a41c1c870723f1c86066c6d4922584881c860721a1c8651c86800001c8fe1c864723f5a41858488723f1c9301c8fc72171c858)
  (.lf 0))) (.nd (.nd (.lf
  0x6887962ff02db8235c9d3c9035bc74f25d3c8235b4235b48d6f235b9235b9d3c84affc2345dd38b5eb1474e2dd38a2344c2344c8d152345123455d38a5cb10232f88cbc232ec232ec8cbc58bfd58bfc8cbc5ab605ab61d38a74ea474ea572c45eb105cb11d3c874f9c74f9c0d6e4affc4affe08b88235c8235d32ff4e3fc4e3fe09348254c824d2093338c9c38c9ce32938ca138ca609334b37838ca209334fbf8389e208b84cbfc822e208b7389cc389cce275389d1389d208b74e3f80e231a1ff02db8687fda1fe0e2200e220388a0e2250e229a1fe58bf8033b5a1fe688746887562fe02db4235bdd3c8035b874f21d3c7235a8235a88d6c235ad235add3c74aff823451d38a5eb1074e29d38923440234408d122344523449d3895cb0c232f1d377232e0232e08cba232e5232e5d3775ab5c58bf9d377233982339800005ab5e5ab5dd38974ea074ea172c35eb0c5cb0dd3c774f9874f980d6d4aff84affa08b7823588235932fe4e3f84e3fa093382548824ce093238c9038c90e32638c9538c9a09324b37438c9609324fbf4389d608b74cbf8822de08b6389c0389c0e272389c5389c608b64e3f40e225a1fe02db4687f9a1fd0e2140e21438870e219)
  (.lf 0)) (.nd (.lf
  0x4eb792828061147c56528bf4eb7c4eb7d2829061187c57528c34eb8c4eb8d282d061287c57928c44eb904eb91282e0612c7c57d28c54eb944eb95282f061307c58128c64eb984eb9928300613406105282d4a0ac06109282e4a0b00610d282f4a0b40611128304a0b80611528114a0bc0611928124a0c06d52c059f4a0c04a0c1f2437c9887c90df242307d0307d0c1f6307d5307d5f2424d4bc6d528059e4a0bc4a0bdf2427c984307d9f2424bcbc7c909f241307c4307c4c1f3307c9307cdf2414bcb86d524059d4a0b84a0b9f2417c980307c9f2414d4b87c905f240307b8307b8c1f0307bd6d520059c4a0b44a0b5f2407c97c307bdf2404d4b4307c1f2404bcb47c901f23f307ac307acc1ed307b17c9712f2a4d4a87c54928b84eb604eb612822060fc7c56d28c14eb844eb85282b061207c57128c24eb884eb89282c06124060fd282b4a0a47c97d2f2d4d4b44bcb5f27e7ca747c9892f304d4c04bcc1f2817ca807ca05f2803093830938c2503093d3093df280504bc30941f2804a8bc7c9852f2f4d4bc4bcbdf2807ca7c7ca01f27f3092c3092cc24d3093130931f27f504b86d51c059b4a0b04a0b1f23f7c978307b1f23f4d4b0307b5f23f4bcb0)
  (.lf 0)))

def shaGateTree10 : BTree :=
  .nd (.nd (.nd (.lf
  0x2c9b1e8965f5cc2c81c00007a1e27a1e0b2042c80c2c80cb204596b95d3cde4c679394793940f9d003742af29e4c7003787931de4c62af182af18abc82af1d2af21e4c603e7403e75ac3a6b1646b16565ae0477411f6dac79536bc6b1e5ac7811f5811f5847d811f5d11f5dac78596b804575ac786b25c6b25d4dae596b811e01ac3b047786b0edac3a11df011df0477e11df511df9ac3a596b8596b8b2045b5cc5b5cde8967a2d47a2d575735f5cc5f5cde9127a4c47a449e9112cc702cc70b31e2cc752cc79e911615c82cc75e911635c82c9b5e8965d5cc7a259e8952c9a02c9a0b26a2c9a52c9a5e8955f5c82c811e8772c8002c800b2022c8052c805e8775b5c82af1de4c60037479319e4c52af0c2af0cabc52af112af15e4c503e705d3c9e4c579390793900f9c0037011f61ac78536b86b1e1ac7711f4c11f4c47d511f5111f51ac77596b404571ac776b2586b2594dad596b411df5ac3a047746b0e9ac3911de411de4477b11de911dedac39596b403e71ac396b1606b16165ad04770596b5e8772c8542c85400005b5ca5b5c9e8957a2d07a2d175725f5c85f5c9e9117a4c07a445e9102cc642cc64b31b2cc692cc6de910615c42cc69e910635c4)
  (.lf 0)) (.nd (.lf
  0xc2e19ca3020180c2e59ca35865c3ee5009a5026143ee5409a602618604ec09c53eed0604f009c63eed43eed009853ef513eed409863ef55026199ca3673086728d9ca20c2d00c2d030b60c2d50c2d99ca2586580c2d59ca202014026159ca267304672899ca10c2c40c2c430b30c2c90c2cd9ca1586544ddc1ffd37ffc87ff4dffd23569035690d5a63569535699ffd24ad3c35695ffd24f5bc4ddbdffd27ffc47ff49ffd13568435684d5a3356893568dffd14ad3835689ffd14f5b84ddb9ffd17ffc07ff45ffd03567835678d5a03567d35681ffd04ad343567dffd04f5b44ddb5ffd07ffbc7ff41ffcf3566c3566cd59d3567135675ffcf4ad3035671ffcf4f5b04ddb1ffcf7ffb87ff3dffce3566035660d59a3566535669ffce4ad2c35665ffce4f5ac4ddadffce7ffb47ff39ffcd3565435654d597356593565dffcd4ad2835659ffcd4f5a84dda9ffcd7ffb07ff35ffcc3564835648d5943564d35651ffcc4ad243564dffcc4f5a44dda5ffcc7ffac7ff31ffcb3563c3563cd5913564135645ffcb4ad2035641ffcb4f5a04dda1ffcb7ffa87ff2dffca3563035630d58e3563535639ffca4ad1c35635ffca4f59c4dd9dffca7ffa47ff29ffc935624)
  (.lf 0))) (.nd (.nd (.lf
  0x7610d835562d5462d540d983cb383cabc0d8b036183cac00d8c0361c3cac40d8d036203cac80d8e036243cacc0d8f036283cad00d900362c3cad40d91036303cad80d92036343cadc0d93036383cae00d940363c3cae40d95036403cae80d96036443caec0d97036483caf00d980364c3caf40d99036503caf80d9a036543cafc0d9b036583cb000d9c0365c3cb040d9d036603cb080d9e036643cb0c0d9f036683cb100d800366c3cb140d81036703cb180d82036743cb1c0d83036783cb200d840367c3cb240d85036003cb280d86036043cb2c0d87036083cb300d880360c3cb340d89036103cb380d8a036143fe3c0da0036003fe400da1036043fe440da2036083fe480da30360c3fe4c0da4036103fe500da5036143fe540da6036183fe580da70361c3fe5c0da8036203fe600da9036243fe640daa036283fe680dab0362c3fe6c0dac036303fe700dad036343fe740dae036383fe780daf0363c3fe7c0db0036403fe800db1036443fe840db2036483fe880db30364c3fe8c0db4036503fe900db5036543fe940db6036583fe980db70365c3fe9c0db8036603fea00db9036643fea40dba036683fea80dbb0366c3feac0dbc036703feb00dbd03674)
  (.lf 0)) (.nd (.lf
  0x17df05f7e17df517df5b9fa4a2dc17df9b9fa018986e7e9b9f917de417de45f7b17de917dedb9f9018944d605f4de7d3f44d61df4e47d40c316edf4e44ee1c7d391f4e3316dc316dcc5b9316e1316e1f4e34ee18316e5f4e34a5984d619f4e37d4087d38df4e2316d0316d0c5b6316d5316d5f4e24ee144d60df4e07d3fc4d615f4e27d404316d9f4e24a5947d389f4e1316c4316c4c5b3316c9316cdf4e14a5904d611f4e17d400316c9f4e14ee107d385f4e0316b8316b8c5b0316bd316bdf4e04ee0c316c1f4e04a58c7d381f4df316ac316acc5ad316b1316b1f4df4ee084d609f4df7d3f8316b5f4df4a5887d37df4de316a0316a0c5aa316a5316a5f4de4ee047d3f529614ee044ee0528cb062d87d3fd29634ee0c4ee0d28cd062e0062d928b44a2c8062e128b64a2d03bba405a5016803df5005c5016945fd6c05e53dfd03dfd005a53e05101695955e655f46557d955e098a0098a0262a098a5098a9955e57ed8098a5955e0119465579955d09894098942627098990989d955d57ed43df4c05c4016905fd6805e43dfcc3dfcc05a43e04d01691955d655f009899955d0119065575955c098880988826240988d17c8db9bc5ddf06e6f1b9bb17c7c)
  (.lf 0)))

def shaGateTree11 : BTree :=
  .nd (.nd (.nd (.lf
  0x5cf7ddcb577350773500e894b4684b46a0f3d83d7083d71341a4e8684d06a0f7b83e6883dee0f7a3b0f03b0f0ec3e3b0f53b0fa0f7a007203b0f60f7a518643af9a0f3d4e86883cf60f3c3af883af88ebe43af8d3af920f3c4d06427565dcb503a24772d5dcb427550275509d562755527555dcb44b4645cf79dcb47734c7734c0e884b4644b4660f3c83d6c83d6d34194e8644d0660f7a83e6483dea0f793b0e43b0e4ec3b3b0e93b0ee0f790071c3b0ea0f79518603af8e0f3c4e86483cf20f3b3af7c3af7cebe13af813af860f3b4d06027559dcb403a20772d1dcb327544275449d532754927549dcb34b4605cf75dcb377348773480e874b4604b4620f3b83d6883d6934184e8604d0620f7983e6083de60f783b0d83b0d8ec383b0dd3b0e20f78007183b0de0f785185c3af820f3b4e86083cee0f3a3af703af70ebde3af753af7a0f3a4d05c2754ddcb303a1c772cddcb227538275389d502753d2753ddcb24b45c5cf71dcb277344773440e864b45c4b45e0f3a83d6483d6534174e85c4d05e0f7883e5c83de20f773b0cc3b0ccec353b0d13b0d60f77007143b0d20f77518583af760f3a4e85c83cea0f393af643af64ebdb3af693af6e0f394d058)
  (.lf 0)) (.nd (.lf
  0x7ec21309e4da784c279fb277ed187ec9dfb2633b007ec1d309d4da744c275fb267ed1433b00cec233b0533b09fb264ae7433b05fb2650a747ec99fb2533af433af4cebf33af933afdfb254ae7033af9fb2550a704c26dfb247ed0c7ec19309c4da704c271fb257ed107ec95fb2433ae833ae8cebc33aed33af1fb244ae6c33aedfb2450a6c7ec91fb2333adc33adcceb933ae14c269fb237ed0833ae5fb234ae6833ae1fb2350a687ec8dfb2233ad033ad0ceb633ad533ad9fb224ae6433ad5fb2250a647ec0d30994da644c265fb227ed047ec89fb2133ac433ac4ceb333ac933acdfb214ae6033ac9fb2150a607ec0130964da584c261fb217ed007ec85fb2033ab833ab8ceb033abd33ac1fb204ae5c33abdfb2050a5c7ebfd30954da544c25dfb207ecfc7ec81fb1f33aac33aaccead33ab133ab1fb1f50a5833ab5fb1f4ae584c259fb1f7ecf87ec7dfb1e33aa033aa0ceaa33aa533aa9fb1e4ae544c255fb1e7ecf433aa5fb1e50a547ec79fb1d33a947ebf930944da504c251fb1d7ecf033a94cea733a9933a99fb1d50a5033a9dfb1d4ae507ec75fb1c33a8833a88cea433a8d33a91fb1c4ae4c33a8dfb1c50a4c7ebf530934da4c4c24dfb1c7ecec)
  (.lf 0))) (.nd (.nd (.lf
  0x298da0046808c215cdcf86215bc215bc8571215c1215c1cf865a94c681914a77589dc68099627702b98589ddcf86216b4215c4000073e1a73e18856e215b4215b4856e589d968095627602b94589d8856e5a948215b9cf85215a8215a8856c215ad215adcf855a944215b0000073e1668091627502b90589d5cf85216b073e148569215a0215a08569589d16808d627402b8c589d085695a940215a4856721598215988567589cd02989a0036808868089627302b880d66da00402b8c68011a0030d65c0d65c35990d6610d665a003589cc589cc85675a93c216b400005a94e5a94dcf9773ed82171c85c92172121725cf975c8f021721cf975e8f073e5dcf96217102171085c62171521715cf965e8ec5a949cf9673ed421719cf965c8ec73e59cf95217042170485c3217092170dcf955c8e821709cf955e8e8216b000005a9465a945cf9573ed073e55cf94216f8216f885c0216fd5a941cf9473ecc21701cf945c8e4216fdcf945e8e473e51cf93216ec216ec85bd216f1216f5cf935c8e0216f1cf935e8e05a93dcf9373ec873e4dcf92216e0216e085ba216e5216e9cf925c8dc73ecd72395e8e473ed1723a5e8e873ed5723b5e8ec73f2972505e940)
  (.lf 0)) (.nd (.lf
  0x8b3d930000f4c6c4dc051349e9061af805013b8dc61b4005133b9243b8dc0513014383da8805330144c5fb2405533db083db0805133db890144d930064c7c64c0192ff08b2c6c4d0051049e846d1e57ebd61af461af405003b8d83b8d80512014346c4d8051249e8c3da840532014485fb2005523db043db0405123db850144992ff64c7808b2c22cd08b3108b3592ff57c8c08b3192ff00f4864bfd92fe08b2008b2022ca08b2508b2592fe00f4408b2992fe57c886c4d4051149e883b8d40511014303da800531014445fb1c05513db003db0005113db810144592fe64c7464bf992fd08b1408b1422c708b1908b1d92fd57c843b8d005100142c08b1992fd00f403da7c0530014405fb1805503dafc3dafc05103db7d0144192fd64c7064bf592fc08b0808b0822c408b0d08b0d92fc00f3c43914037600d586cf2d4f0e55c386cf014f0355c0c55c0c03484158441584035f00d506cf354f1055c4053c40039f43a3843a390eae43b3943b38039f00d7c43938037f00d7c6cedd4efa55be855be8035f4156055c380353415b0415b0034a00d7c00d7d934a64da464d29934908d2408d24234b08d2908d29934957cbc6cf294f0d55c346cefd4f0255c08)
  (.lf 0)))

def shaGateTree12 : BTree :=
  .nd (.nd (.nd (.lf
  0x5f699ea8c7aaac7aa31ea8b2d7642d764b5db2d7692d76dea8b616942d769ea8b636945f695ea8b7aaa87aa2dea8a2d7582d758b5d82d75d2d761ea8a616902d75dea8a636905f691ea8a7aaa47aa29ea892d74c2d74cb5d52d7512d755ea896168c2d751ea896368c5f68dea897aaa07aa25ea882d7402d740b5d22d7452d749ea88616882d745ea88636885f689ea887aa9c7aa21ea872d7342d734b5cf2d7392d73dea87616842d739ea87636845f685ea877aa987aa1dea862d7282d728b5cc2d72d2d731ea86616802d72dea86636805f681ea867aa947aa19ea852d71c2d71cb5c92d7212d725ea856167c2d721ea856367c5f67dea857aa907aa15ea842d7102d710b5c62d7152d719ea84616782d715ea84636785f679ea847aa8c7aa11ea832d7042d704b5c32d7092d70dea83616742d709ea83636745f675ea837aa887aa0dea822d6f82d6f8b5c02d6fd2d701ea82616702d6fdea82636705f671ea827aa847aa09ea812d6ec2d6ecb5bd2d6f12d6f5ea816166c2d6f1ea816366c5f66dea817aa807aa05ea802d6e02d6e0b5ba2d6e52d6e9ea80616682d6e5ea80636685f669ea807aa7c7aa01ea7f2d6d42d6d4b5b72d6d92d6ddea7f61664)
  (.lf 0)) (.nd (.lf
  0x1f559de86781c677a19de70ca8c0ca8c32a50ca910ca959de7527940ca919de75879401f519de7678186779d9de60ca800ca8032a20ca850ca899de6527900ca859de65879001f4d9de667814677999de50ca740ca74329f0ca790ca7d9de55278c0ca799de55878c01f499de567810677959de40ca680ca68329c0ca6d0ca719de4527880ca6d9de45878801f459de46780c677919de30ca5c0ca5c32990ca610ca659de3527840ca619de35878401f419de3678086778d9de20ca500ca5032960ca550ca599de2527800ca559de25878001f3d9de267804677899de10ca440ca4432930ca490ca4d9de15277c0ca499de15877c01f399de167800677859de00ca380ca3832900ca3d0ca419de0527780ca3d9de05877801f359de0677fc677819ddf0ca2c0ca2c328d0ca310ca359ddf527740ca319ddf5877401f319ddf677f86777d9dde0ca200ca20328a0ca250ca299dde527700ca259dde5877001f2d9dde677f4677799ddd0ca140ca1432870ca190ca1d9ddd5276c0ca199ddd5876c01f299ddd677f0677759ddc0ca080ca0832840ca0d0ca119ddc527680ca0d9ddc58768677719ddb0c9fc0c9fc32810ca010ca019ddb587643f08c09f402750)
  (.lf 0))) (.nd (.nd (.lf
  0x471d40be602f1854edc0c06472d4472d51cd5473d5473d40c0602f1802f19a599696e0471f40bee02f38471f80bef02f3c471fc0bf002f40472000bf102f44472040bf202f4854efc0c0e472f454f000c0f472f854f040c10472fc54f080c114730054f0c0c1247304472f51cdd473f5472f91cde473f9472fd1cdf473fd473011ce047401473051ce147405473f40c0e02f38473f80c0f02f3c473fc0c1002f40474000c1102f44474040c1202f4802f45a5a46970c0f789a5a652f9069699a5a50f7740f7743ddf0f7790f779a5a558f8c02f49a5a5697100f77da5a552f8c69695a5a40f7680f7683ddc0f76d0f771a5a452f880f76da5a458f8869691a5a30f75c0f75c3dd90f7610f761a5a358f8402f41a5a3697080f765a5a352f846968da5a20f7500f7503dd60f7550f759a5a252f800f755a5a258f8002f3da5a26970469689a5a10f7440f7443dd30f7490f749a5a158f7c0f74da5a152f7c02f39a5a16970069685a5a00f7380f7383dd00f73d0f73da5a058f780f741a5a052f7869681a59f0f72c0f72c3dcd0f7310f731a59f58f74471d80be702f1c471dc0be802f20471e00be902f24471e40bea02f28471e80beb02f2c471ec0bec02f30)
  (.lf 0)) (.nd (.lf
  0x6ef35bbcc18b7018b7062de18b7518b75bbcc5df3018a60000059fe618b79bbcc5bf3059fe5bbcc6efac6ef31bbcb18b6418b6462db18b6918b6dbbcb5bf2c59fe1bbcb6efa818b69bbcb5df2c6ef2dbbca18b5818b5862d818b5d18b61bbca5bf2818b5dbbca5df286ef29bbc918b4c18b4c62d518b5118b51bbc95df2418a5c000059fda59fd9bbc96efa018b55bbc95bf246ef25bbc818b4018b4062d218b4559fd5bbc86ef9c18b45bbc85df2018b49bbc85bf206ef21bbc718b3418b3462cf18b3918b3dbbc75bf1c18b39bbc75df1c59fd1bbc76ef986ef1dbbc618b2818b2862cc18b2d18b31bbc65bf1859fcdbbc66ef9418b2dbbc65df186ef19bbc518b1c18b1c62c918b2118b25bbc55bf1418b21bbc55df1459fc9bbc56ef906ef15bbc418b1018b1062c618b1518b15bbc45df1018a58000059fc659fc5bbc46ef8c18b19bbc45bf106ef11bbc318b0418b0462c318b0918b0dbbc35bf0c18a54000059fc218b09bbc35df0c59fc1bbc36ef886ef0dbbc218af818af862c018afd18b01bbc25bf0818a50000059fbe59fbdbbc26ef8418afdbbc25df086ef09bbc118aec18aec62bd18af118af5bbc15bf0441934042b0108044368044b010ac)
  (.lf 0)))

def shaGateTree13 : BTree :=
  .nd (.nd (.nd (.lf
  0x10829a8895927c04139a8896a2a06a225a888108181081842081081d10821a888532781081da8885927804135a8886a29c6a221a8871080c1080c42051081110815a8875327410811a8875927404131a8876a2986a21da886108001080042021080510809a8865327010805a886592700412da8866a2946a219a885107f4107f441ff107f9107fda8855326c107f9a8855926c04129a8856a2906a215a884107e8107e841fc107ed107f1a88453268107eda8845926804125a8846a28c6a211a883107dc107dc41f9107e1107e5a88353264107e1a8835926404121a8836a2886a20da882107d0107d041f6107d5107d9a88253260107d5a882592600411da8826a2846a209a881107c4107c441f3107c9107cda8815325c107c9a8815925c04119a8816a2806a205a880107b8107b841f0107bd107c1a88053258107bda8805925804115a8806a27c6a201a87f107ac107ac41ed107b1107b5a87f53254107b1a87f5925404111a87f6a2786a1fda87e107a0107a041ea107a5107a9a87e53250107a5a87e592500410da87e6a2746a1f9a87d107941079441e7107991079da87d5324c10799a87d5924c04109a87d6a2706a1f5a87c107881078841e41078d)
  (.lf 0)) (.nd (.lf
  0x5c28dc2fe70c741bd29c2fe025341bd25c2fe4a77870bf9c2fd1bd141bd146f471bd191bd1dc2fd025301bd19c2fd4a77470b7970a25e2885c289c2fd70c7070bf5c2fc1bd081bd086f441bd0d70b7570a15e2845c285c2fc70c6c1bd11c2fc0252c1bd0dc2fc4a77070bf1c2fb1bcfc1bcfc6f411bd011bd05c2fb025281bd01c2fb4a76c70b7170a05e2805c281c2fb70c6870bedc2fa1bcf01bcf06f3e1bcf570b6d709f5e27c5c27dc2fa70c641bcf9c2fa025241bcf5c2fa4a76870be9c2f91bce41bce46f3b1bce91bcedc2f9025201bce9c2f94a76470b69709e5e2785c279c2f970c6070be5c2f81bcd81bcd86f381bcdd70b65709d5e2745c275c2f870c5c1bce1c2f80251c1bcddc2f84a76070be1c2f71bccc1bccc6f351bcd11bcd5c2f7025181bcd1c2f74a75c70b61709c5e2705c271c2f770c5870bddc2f61bcc01bcc06f321bcc51bcc9c2f60251470b5d709b5e26c1bcc5c2f64a7585c26dc2f670c5470bd9c2f51bcb41bcb46f2f1bcb970b59709a5e2685c269c2f570c501bcb9c2f54a7541bcbdc2f50251070bd5c2f41bca81bca86f2c1bcad1bcb1c2f40250c1bcadc2f44a75070bd1c2f31bc9c1bc9c6f291bca170c6c094b4a770)
  (.lf 0))) (.nd (.nd (.lf
  0x81f1207c33845c3845ce119384613846607c34b2883846207c34fb08381a207484cb0c81d2207473818c3818ce065381913819207474e3086859d4ac258b08684a562c202cc422799d1d1034c874745d1d0227842278489e32278922789d1d04af082262dd1935ea207464dd1922261c2261c89892262122625d1925ca1c2246c89192246022460891958b0958b0889195aa785aa79d192746c4746c572875ea1c5ca1dd1d0747bc747bc0d314af084af0a074781d9881d9932c24e3084e30a07c381f8881f0e07c23845038450e116384553845a07c24b2843845607c24fb043819607474cb0881d1e07463818038180e062381853818607464e304685994ac158b04684a162c102cc02278dd1d0034c474741d1cf227782277889e02277d2277dd1cf4af0422621d1925ea1c74649d191226102261089862261522619d1915ca182246489172245822458891758b0558b0489175aa745aa75d191746c0746c172865ea185ca19d1cf747b8747b80d304af044af06074681d9481d9532c14e3044e30607c281f8481f0a07c13844438444e113384493844e07c14b2803844a07c14fb003818a07464cb0481d1a07453817438174e05f381793817a07454e300)
  (.lf 0)) (.nd (.lf
  0x1674db6c95bc806db25b6c8167381673859d01673d16741b6c85bc7c166a8000059d3e59d3db6c86db9c1673db6c85dc7c6db21b6c71672c1672c59cd1673116735b6c75bc7816731b6c75dc78166a4000059d3a59d39b6c76db986db1db6c6167201672059ca1672516725b6c65dc74166a0000059d3659d35b6c66db9416729b6c65bc746db19b6c5167141671459c7167191671db6c55bc7016694000059d2a59d29b6c36db8816719b6c55dc701669c000059d3259d31b6c56db906db15b6c4167081670859c41670d16711b6c45bc6c1670db6c45dc6c6db11b6c3166fc166fc59c11670116705b6c35bc6816701b6c35dc686db0db6c2166f0166f059be166f5166f9b6c25bc6459d21b6c16db80166f5b6c25dc646db09b6c1166e4166e459bb166e9166edb6c15bc60166e9b6c15dc606db05b6c0166d8166d859b8166dd166e1b6c05bc5c166ddb6c05dc5c6db016f165dc5951d81b6906dabc51dc1b6a06dafc6da81b69f165081650859441650d51dbdb69f6daf816511b69f53dbc1650db69f55dbc6da7db69e164fc164fc59411650116505b69e53db851db9b69e6daf416501b69e55db86da79b69d164f0164f0593e164f5164f9b69d53db4)
  (.lf 0)))

def shaGateTree14 : BTree :=
  .nd (.nd (.nd (.lf
  0x594ecac8f5b4085b409e56d796307963175005f4005f401e5e979820797a5e5e82b6982b698ada82b69d2b6a1e5e8613fc2b69de5e8633fc2b3dde56d5d400795b5e56c2b3c82b3c8acf42b3cd2b3cde56c5f3fc2b23cacc22b22c2b22cac8d2b2312b230acc25b404298fde1c0001a878701e1bf298ec298eca63d298f1298f5e1bf03ca45d1fde1bf78778787780f29001a41160daaf1534ec6abc5aaf0115f8115f84580115fd115fdaaf0594e8043a5aaf06ac3c6ac3d4d3a594e8114a1aab3045a86aacdaab2114901149045261149511499aab2594e803ca5aab26ab446ab45653a045a4594e8acc22b33c2b33c00005b4065b405e56c7962c7962d74ff5f3fc5f3fde5e87981c797a1e5e72b68c2b68cada52b6912b695e5e7613f82b691e5e7633f82b3d1e56c5d3fc795b1e56b2b3bc2b3bcacf12b3c12b3c1e56b5f3f82b23400002b30a2b308ac8a2b2242b224ac8a594e55d1f9e1be78774787740f28001a0298f1e1bf001a4786fde1be298e0298e0a63a298e5298e9e1be03ca003ca1aab16ab406ab416539045a011601aaf0534e86abc1aaef115ec115ec457d115f1115f1aaef594e4043a1aaef6ac386ac394d39594e411495aab2045a4)
  (.lf 0)) (.nd (.lf
  0xbfc42ff30bfc90bfc99c01585bc585bc75c15a54c5a551c6ce71bb471b39c6cd1d8941d89476271d8995a54dc6cd71bb01d89dc6cd5c4d01d899c6cd5e4d071b35c6cc1d8881d88876241d88d1d88dc6cc5e4cc1cdddc565544e471595c5641cdc81cdc873741cdcd1cdd1c564544e0524e1c5647160c1cdcdc564564e071591c5631cdbc1cdbc73711cdc11cdc1c563564dc524ddc56371608716095137564dc564dc075c41e547160d5138564e0564e0075d41e587162d51405650056500074541e787163151415650456504074641e7c71659514b5652c5652c075041ea47165d514c5653056530075141ea841e78075c01d4441e7c075d01d4841ea4074701d7041ea8074801d740bfcd9c01525bc670059c000bfb845430077d01d7454538079d4553045531156c4563145630079d01d740bfb82ff00bfbd0bfc19c00525b801d759c006707c0bfbd9c00585b8670019bff0bfac0bfac2fed0bfb14542c077c01d7054534079c4552c4552d156b4562d4562c079c01d7001d719bff6707867079496d585b40bfb19bff585b4585b5c6ae1d7301d73000005a5461d70475bf1d6f81d6f875bf585b966f85616e01f746707d496e585b8585b875bf5a548)
  (.lf 0))) (.nd (.nd (.lf
  0x24220908a2422524229d5945cc0c240bc0000755fe755fc902c240ac240ac902c58cf958cf8902c5ac585ac59d594756cc756cd73035ec0c5cc0dd5d2757c4757c40dad4b0f84b0fa0a2b8292882929333e4e4f84e4fa0aa782b1882a9e0aa63950039500e542395053950a0aa64b474395060aa64fcf4392460a2b4ccf8828ae0a2a3923039230e48e39235392360a2a4e4f468c51633d02eb024391d5d2036b475749d5d12437c2437c90e12438124381d5d14b0f424225d5945ec0c75651d59324214242149087242192421dd5935cc08240b1d57e240a0240a0902a240a5240a5d57e5ac5458cf5d57e241682416800005ac565ac55d593756c8756c973025ec085cc09d5d1757c0757c00dac4b0f44b0f60a2a8292482925333d4e4f44e4f60aa682b1482a9a0aa5394f4394f4e53f394f9394fe0aa54b470394fa0aa54fcf03923a0a2a4ccf4828aa0a293922439224e48b392293922a0a294e4f068d454b3c58cf068c4d633c02eac24385d5d1036b075745d5d0243702437090de2437524375d5d04b0f024219d5935ec087564dd592242082420890842420d24211d5925cc04240a80000755fa755f890272409824098902758cf158cf090275ac50)
  (.lf 0)) (.nd (.lf
  0x7ce51292c4ed304ed31287f4a1f47ce55292d4ed344ed3528804a1f87ce59292e4ed384ed3928814a1fc7ce5d292f4ed3c4ed3d28824a2007ce6129304ed404ed4128834a2046e09405f14a2086e09805f24a20c313edf4644d60c313f1f4644be0c4a20df4647d20c7d191f463313dc313dcc4f9313e1313e5f4634be086e09005f04a204313e1f4634d6084a209f4637d2087d18df462313d0313d0c4f6313d5313d5f4624d604313d9f4624be044a205f4627d2047d189f461313c4313c4c4f3313c9313c9f4614d6006e08c05ef4a2006e08805ee4a1fc4a1fdf4607d1fc4a201f4617d200313cdf4614be007d185f460313b8313b8c4f0313bd6e08405ed4a1f8313bdf4604d5fc313c1f4604bdfc7d181f45f313ac313acc4ed313b1313b1f45f4d5f8313b5f45f4bdf84a1f9f45f7d1f87d17df45e313a0313a0c4ea313a5313a5f45e4d5f46e08005ec4a1f44a1f5f45e7d1f4313a9f45e4bdf47d179f45d3139431394c4e7313993139df45d4bdf031399f45d4d5f06e07c05eb4a1f04a1f1f45d7d1f07d175f45c3138831388c4e43138d31391f45c4bdec7d2312f8c4d6304be31f4ab7d3287d2392f8e4d6384be39f4ad7d330315e0c57a315e5)
  (.lf 0)))

def shaGateTree15 : BTree :=
  .nd (.nd (.nd (.lf
  0x383220788001d03831e0788513144cb16078881e9c81e2207873830c3830ce0c538311383160787001cc383120787513104cb12078781e9881e1e07863830038300e0c2383053830a0786001c83830607865130c4cb0e078681e9481e1a0785382f4382f4e0bf382f9382fe0785001c4382fa0785513084cb0a078581e9081e160784382e8382e8e0bc382ed382f20784001c0382ee0784513044cb06078481e8c81e120783382dc382dce0b9382e1382e60783001bc382e20783513004cb02078381e8881e0e0782382d0382d0e0b6382d5382da0782001b8382d60782512fc4cafe078281e8481e0a0781382c4382c4e0b3382c9382ce0781001b4382ca0781512f84cafa078181e8081e060780382b8382b8e0b0382bd382c20780001b0382be0780512f44caf6078081e7c81e02077f382ac382ace0ad382b1382b6077f001ac382b2077f512f04caf2077f81e7881dfe077e382a0382a0e0aa382a5382aa077e001a8382a6077e512ec4caee077e81e7481dfa077d3829438294e0a7382993829e077d001a43829a077d512e84caea077d81e7081df6077c3828838288e0a43828d38292077c001a03828e077c512e44cae6077c81e6c81df2077b3827c)
  (.lf 0)) (.nd (.lf
  0x1a289bf34620885e089bf346fd4c1a28dbf34600886fcd1bf331a2781a27868a01a27d1a27dbf33620841a281bf33600845e085bf336fd486fccdbf321a26c1a26c689d1a2711a271bf32620801a275bf32600805e081bf326fd446fcc9bf311a2601a260689a1a2651a265bf316207c5e07dbf316fd401a269bf316007c6fcc5bf301a2541a25468971a2591a259bf30620785e079bf306fd3c1a25dbf30600786fcc1bf2f1a2481a24868941a24d1a24dbf2f620745e075bf2f6fd381a251bf2f600746fcbdbf2e1a23c1a23c68911a2411a241bf2e620705e071bf2e6fd346fd35801c6207062070067f3be546fd6d802a620a8620a8066d3be8c6fd81802f620bc620bc06723bea03be8c067f019e83bea00664019fc3e5b8089f019fc6fd998035620d4600d408bf3e6383e638067f3e6b9019fd9860661fc661fd609001bfc58241bfb21a6246fec9bfb11a5e419cf9be77541686f9ddbe7619ce419ce4673b19ce96faad506f561bc52165be766fa546fa555059561646faa5506d561b419ce9be76561645616404be41adc6fa795062561885618804a741b00561b404b241b2c41b0004be012cc41b2c04a9012f8449b4069e012f8541bc06be44ab4)
  (.lf 0))) (.nd (.nd (.lf
  0x21024840b2102921029ce915e86c2102dce915c86c73a45ce90210182101884082101d21021ce905c8682101dce905e8685a8c5ce9073abc73a41ce8f2100c2100c84052101121015ce8f5c86421011ce8f5e86473a3dce8e210002100084022100521005ce8e5e8605a8bdce8e73ab421009ce8e5c86073a39ce8d20ff420ff483ff20ff920ffdce8d5c85c20ff9ce8d5e85c73a3572165e85973b2972355e8d45c8d5cee973c2073b2172335e8cc73ba5cee8212b8212b884b0212bd73b2572345e8d05c8d1cee873c1c212c1cee803378212bdcee84adbc73ba1cee7212ac212ac84ad212b1212b5cee703374212b1cee74adb85c8cdcee773c1873b9dcee6212a073b1d72325e8c85c8c9cee673c14212a084aa212a5212a9cee603370212a5cee64adb473b99cee5212942129484a72129921299cee54adb02129dcee50336c73b1972315e8c45c8c5cee573c1073b95cee4212882128884a42128d21291cee40336873b1572305e8c05c8c1cee473c0c2128dcee44adac73b91cee32127c2127c84a12128121285cee30336473b11722f5e8bc5c8bdcee373c0821281cee34ada873b8dcee22127021270849e2127521279cee20336073b0d722e5e8b8)
  (.lf 0)) (.nd (.lf
  0x14781b26d5fa4c6c9b5b26c1476c1476c51dd1477114775b26c5fa4814771b26c61a486c83d6e925da485da49b26c6ca2c6c9b1b26b147601476051da1476514769b26b5fa441449051261449559b1db1ef6c83814495b1ef5da446c8396e915da445da45b26b6ca2814765b26b61a446c9adb26a147541475451d71475914499b1ef5ba446c7bdb1ee144841448451231448959b19b1ee6c83414489b1ee5da401448db1ee5ba406c7b9b1ed144781447851201447d14481b1ed5ba3c59b15b1ed6c8301447db1ed5da3c6c7b5b1ec1446c1446c511d1447114475b1ec5ba3814471b1ec5da3859b11b1ec6c82c6c7b1b1eb1446014460511a1446514469b1eb5ba3414465b1eb5da341434c000059b0e59b0db1eb6c8286c7adb1ea14454144545117144591445db1ea5ba3014459b1ea5da3059b09b1ea6c8246c7a9b1e9144481444851141444d14451b1e95ba2c1444db1e95da2c14348000059b0659b05b1e96c8206c7a5b1e81443c1443c51111444114445b1e85ba2814441b1e85da2814344000059b0259b01b1e86c81c6c7a1b1e71443014430510e1443514439b1e75ba2414435b1e75da2414340000059afe59afdb1e76c8186c79db1e614424)
  (.lf 0)))

def shaGateTree16 : BTree :=
  .nd (.nd (.nd (.lf
  0x2e94cba552e9512e951ed175f7fc2e82c00007b3ea7b3e9ecf92e8182e818ba082e81d2e81decf95b7fc598ddecf97b4187b41800005b7fe5b7fded177b4d87b4d975ff5f7fc5f7fded937b6c87b64ded922ec102ec10bb062ec152ec19ed92617f82ec15ed92637f82e955ed175d7fc7b45ded162e9402e940ba522e9452e945ed165f7f82e82000007b3e67b3e5ecf82e80c2e80cba052e8112e811ecf85b7f8598d9ecf87b4147b41400005b7fa5b7f9ed167b4d47b4d575fe5f7f85f7f9ed927b6c47b649ed912ec042ec04bb032ec092ec0ded91617f42ec09ed91637f42e949ed165d7f87b459ed152e9342e934ba4f2e9392e939ed155f7f42e81400007b3e27b3e1ecf72e8002e800ba022e8052e805ecf75b7f4598d5ecf77b4107b41000005b7f65b7f5ed157b4d07b4d175fd5f7f45f7f5ed917b6c07b645ed902ebf82ebf8bb002ebfd2ec01ed90617f02ebfded90637f02e93ded155d7f47b455ed142e9282e928ba4c2e92d2e92ded145f7f02e80800007b3de7b3dcb9ff2e7f82e7f8b9ff598d1598d0b9ff5b7f05b7f1ed147b4cc7b4cd75fc5f7f05f7f1ed907b6bc7b641ed8f2ebec2ebecbafd2ebf12ebf5ed8f617ec2ebf1ed8f637ec)
  (.lf
  0x55a3d2e05413b408175914f51a9453a1403144340c4340d0d234350d4350c03144b8144330d2de54b814413592e054b7e84b815914f645b86453d914e0816008160205a081658494d8f9b63ee863ee92e0300ac8077998f9d00ad063e758f9c07788077881de40778d077918f9c4b8100778d8f9c00acc849518f9c63eec63e718f9b0777c0777c1de107781077818f9b00ac8077858f9b4b80c63e6d8f9a07770849458f9963ee0077701dde07775077798f9a4b808077758f9a00ac4849498f9a63ee463e698f9907764077641ddb0776963ee12e0100ac053a040310433fc433fd0d1f434fd434fc03104b804432fd2de14b8040776d8f994b8044b805914b645a8539f0030b433e853a08031143400434010d204350163eed2e0400acc63ee52e0200ac44134d2e024b7dc433012de24b8084350003114b8084b809914c645ac077698f9900ac063e658f9807758413552e044b7e408169914e51a90433092de44b8104b811914e645b408165914e57a9064539914d081540815420570815953a0c031243404434050d21435054350403124b80c08159914d57a8c433052de34b80c413512e034b7e00815d914d51a8c4b80d914d645b064535914c08148))
  (.nd (.lf
  0x36ef6041a4f86c4e06e041a810e48106a041936ee436ee4dbbb36ee936eee04194afe836eea04194f8684e06a0419810e081066041836ed836ed8dbb836edd36ee204184afe436ede04184f8644e0660418810dc81062041736ecc36eccdbb536ed136ed604174afe036ed204174f8604e0620417810d88105e041636ec036ec0dbb236ec536eca04164afdc36ec604164f85c4e05e0416810d48105a041536eb436eb4dbaf36eb936ebe04154afd836eba04154f8584e05a0415810d081056041436ea836ea8dbac36ead36eb204144afd436eae04144f8544e0560414810cc81052041336e9c36e9cdba936ea136ea604134afd036ea204134f8504e0520413810c88104e041236e9036e90dba636e9536e9a04124afcc36e9604124f84c4e04e0412810c48104a041136e8436e84dba336e8936e8e04114afc836e8a04114f8484e04a0411810c04e0452bf14f844810452bf14f8454f8452b5b069d0810c12bf24f8484f8492b5c069d4810c52bf34f84c4f84d2b5d069d8810c92bf44f8504f8512b5e069dc810cd2bf54f8544f8552b5f069e0810d12bf64f8584f8592b60069e4810d52bf74f85c4f85d2b61069e8810d92bf84f8604f8612b62069ec)
  (.lf 0))) (.nd (.nd (.lf
  0x429bc0c2d03088429c00c2e0308c429c40c2f03090429c80c3003094429cc0c3103098429d00c320309c429d40c33030a0429d80c34030a4429dc0c35030a8429e00c36030ac429e40c37030b0429e80c38030b4429ec0c39030b8429f00c3a030bc429f40c3b030c0429f80c3c030c4429fc0c3d030c842a000c3e030cc42a040c3f030d042a080c20030d442a0c0c21030d842a100c22030dc42a140c23030e042a180c24030e442a1c0c25030e842a200c26030ec42a240c27030f042a280c28030f442a2c0c29030f842a300c2a030fc42a340c2b0308042a380c2c03084476540c4603098476580c470309c4765c0c48030a0476600c49030a4476640c4a030a8476680c4b030ac4766c0c4c030b0476700c4d030b4476740c4e030b8476780c4f030bc4767c0c50030c0476800c51030c4476840c52030c8476880c53030cc4768c0c54030d0476900c55030d4476940c56030d8476980c57030dc4769c0c58030e0476a00c59030e4476a40c5a030e8476a80c5b030ec476ac0c5c030f0476b00c5d030f4476b40c5e030f8476b80c5f030fc5505c0c6647754550600c6747758550640c684775c550680c69477605506c0c6a47764550700c6b47768)
  (.lf 0)) (.nd (.lf
  0x32749f7c14eff07df05f7c03273832738c9d03273d4d7edf7c07df7c32741f7c04a76c3273df7c04efec7df01f7bf3272c3272cc9cd3273132735f7bf4a76832731f7bf4efe84d7e9f7bf7df787defdf7be3272032720c9ca327254d7ddf7bc7df6c4d7e5f7be7df7432729f7be4a76432725f7be4efe47def9f7bd327144d7e1f7bd7df7032714c9c7327193271df7bd4a76032719f7bd4efe07def5f7bc3270832708c9c43270d3270df7bc4efdc32711f7bc4a75c7def1f7bb326fc326fcc9c13270132701f7bb4efd84d7d9f7bb7df6832705f7bb4a7587deedf7ba326f0326f0c9be326f50a5219788520c865e214831580c54d7d5f7ba7df64326f9f7ba4a754326f5f7ba4efd47dee9f7b9326e4326e4c9bb326e9326e9f7b94efd0326edf7b94a7504d7d1f7b97df607dee5f7b8326d8326d8c9b8326dd326e1f7b84a74c4d7cdf7b87df5c326ddf7b84efcc7dee1f7b7326cc326ccc9b5326d1326d1f7b74efc84d7c9f7b77df58326d5f7b74a7487dedd29d14efc54d7c529d14efc44efc5293b063f87df5929d24efc84efc9293c063fc7df5d29d34efcc4efcd293d064007df6129d44efd04efd1293e064047df6529d54efd44efd5293f06408)
  (.lf 0)))

def shaGateTree17 : BTree :=
  .nd (.nd (.nd (.lf
  0x10ed843b810edd10ee1a9b8593e003b9da9b86a75c6a75d64f80449c593e0a94a2a5602a56000005b30a5b309e36f78e3878e3974bd5f2f45f2f5e3eb7902878fade3ea2a8902a890aa262a8952a899e3ea612f02a895e3ea632f02a5d5e36f5d2f478dbde36e2a5c02a5c0a9722a5c52a5c5e36e5f2f02a44000002a52a2a528a90d2a4302a430a90d593dd5d0f1dfb977f6077f600ee60009828a85dfba0009c77ee9dfb928a7428a74a29f28a7928a7ddfb903b9803b99a9b76a7586a75964f70449811049a9f6533e06a7d9a9f51103411034440f1103911039a9f5593dc04299a9f56a8506a8514cf7593dc10edda9b80449c6a6e1a9b710ecc10ecc43b510ed110ed5a9b7593dc593dca90d5b3045b305e36e78e3478e3574bc5f2f05f2f1e3ea7902478fa9e3e92a8842a884aa232a8892a88de3e9612ec2a889e3e9632ec2a5c9e36e5d2f078db9e36d2a5b42a5b4a96f2a5b92a5b9e36d5f2ec2a434a9492a4242a424a90b2a4292a428a9495b30028a79dfb90009877ee5dfb828a6828a68a29c28a6d28a71dfb803b945d0eddfb877f5c77f5c0ee5000941103da9f5533dc6a7d5a9f41102811028440c1102d1102da9f4593d804295a9f46a84c)
  (.lf 0)) (.nd (.lf
  0x1c77dc47d544a4524a5c47d712701c779c47d564a4711f5c47c1c7681c76871dc1c76d1c771c47c544a01c76dc47c564a0524a1c47c7126c711f1c47b1c75c1c75c71d91c7611c761c47b5649c5249dc47b712681c765c47b5449c711edc47a1c7501c75071d61c7551c759c47a544981c755c47a5649852499c47a71264711e9c4791c7441c74471d31c7491c749c479564941c74dc4795449452495c47971260711e5c4781c7381c73871d01c73d1c73dc4785649052491c4787125c52481c4747124c1c741c47854490711e1c4771c72c1c72c71cd1c7311c731c4775648c1c735c4775448c5248dc47771258711ddc4761c7201c72071ca1c7251c729c4765448852489c476712541c725c47656488711d9c4751c7141c71471c71c7191c71dc4755448452485c475712501c719c47556484711d5c4741c7081c70871c41c70d1c711c474544801c70dc47456480711d1c4731c6fc1c6fc71c11c7011c705c4735447c1c701c4735647c5247dc47371248711cdc4721c6f01c6f071be1c6f51c6f9c4725447852475c4717124071281512d564b452479c472712441c6f5c47256478711c9c4711c6e471289512f564bc52469c46e712341c6e471bb1c6e9)
  (.lf 0))) (.nd (.nd (.lf
  0x46b240b5a02c6802c69a2c568b900e6fda2c552cac68b15a2c40e6e80e6e839bc0e6ed0e6f1a2c452ca82314dd33754bd474cddd33623138231388c502313d2313dd33656bd052bd1d33674d5474d5552f456bd056bd00b194254874d7952fd56bf456bf40b024256c74da5530856c2056c200b0d425984256c0b1902c38425980b0402c64469200b3902c6454c280b5946a2046a211aa846b2146b200b5902c6402c65a2c468b8c0e6eda2c458ca868b11a2c30e6dc0e6dc39b90e6e10e6e1a2c358ca423141d33654bd074cd9d3352312c2312c8c4d2313123131d33556bcc52bcdd33574d5074d5152f356bcc56bcc0b184254474d7552fc56bf056bf00b014256874da1530756c1c56c1c0b0c42594425680b1802c34425940b0302c604691c0b3802c6054c240b5846a1c46a1d1aa746b1d46b1c0b5802c6002c61a2c368b880e6e5a2c352ca468b0da2c20e6d00e6d039b60e6d50e6d9a2c252ca023135d33554bcc74cd5d33423120231208c4a2312523125d33456bc852bc9d33474d4c74d4d52f256bc856bc80b174254074d7152fb56bec56bec0b004256474d9d530656c1856c180b0b42590425640b1702c30425900b0202c5c469180b3702c5c)
  (.lf 0)) (.nd (.lf
  0x30b81f2f04bd0c161bdb618016cc6d861b617161a8161a8586c161ad161adb6174a10c5bc21b6176d8d830b7df2f04d50c6d8d805b24a10c4a10df2f07cc3c7cbc1f2ef30b6c30b6cc2dd30b7130b75f2ef4bd085bc19b6156d8d06d8d005b04a104161b1b617016c86d85db6161619c1619c5869161a1161a1b6164a108161a5b616016c45bc1db6166d8d46d859b615161901619058661619516195b6154a10416199b615016c06d855b61416184161845863161895bbf9b60d6d8b016189b6144a1001618db614016bc5bc15b6146d8cc6d851b613161781617858601617d5bc11b6136d8c81617db6134a0fc16181b613016b86d84db6121616c1616c585d1617116171b6124a0f816175b612016b45bc0db6126d8c46d849b6111616016160585a1616516165b6114a0f416169b611016b05bc09b6116d8c06d845b61016154161545857161591615db610016ac5bc05b6106d8bc16159b6104a0f06d841b60f161481614858541614d1614db60f4a0ec5bc01b60f6d8b816151b60f016a86d83db60e1613c1613c58511614116145b60e016a416141b60e4a0e85bbfdb60e6d8b46d839b60d1613016130584e1613516139b60d016a016135b60d4a0e4)
  (.lf 0)))

def shaGateTree18 : BTree :=
  .nd (.nd (.nd (.lf
  0x7a4ad856d635b4635b40fb03d3987a4b1856e635b8635b80fb13d39c7a4b5856f635bc635bc0fb23d3a07a4b98570635c0635c00fb33d3a47a4bd8571635c4635c40fb43d3a87a4c18572635c8635c80fb53d3ac7a4c58573635cc635cc0fb63d3b07a4c98574635d0635d00fb73d3b47a4cd8575635d4635d40fb83d3b83d33c0fab03e983d3400fac03e9c3d3440fad03ea03d3480fae03ea43d34c0faf03ea83d3500fb003eac3d3540fb103eb03d3580fb203eb43d35c0fb303eb83d3600fb403ebc3d3640fb503ec03d3680fb603ec43d36c0fb703ec83d3700fb803ecc3d3740fb903ed03d3780fba03ed43d37c0fbb03ed83d3800fbc03edc3d3840fbd03ee03d3880fbe03ee43d38c0fbf03ee83d3900fa003eec3d3940fa103ef03d3980fa203ef43d39c0fa303ef83d3a00fa403efc3d3a40fa503e803d3a80fa603e843d3ac0fa703e883d3b00fa803e8c3d3b40fa903e903d3b80faa03e9440f3c0fc003e8040f400fc103e8440f440fc203e8840f480fc303e8c40f4c0fc403e9040f500fc503e9440f540fc603e9840f580fc703e9c40f5c0fc803ea040f600fc903ea440f640fca03ea840f680fcb03eac40f6c0fcc03eb040f700fcd03eb4)
  (.lf 0)) (.nd (.lf
  0x5c571c8e372408724080a064aa5c456d007a501e14545d807c5457d0457d11614458d1458d007c501e1401e159ce0673fc673fd4996586580c44d9ce15265c673859ce00c4380c43831100c43d0c43d9ce058658673056196020145865879461e55c1e41c79461e40c1e40c79051e4111e41079465a5e41e55c00005a5e65a5e5c8a47230c1e5d1c8a55e57072295c8a41e5c01e5c079721e5c51e5c5c8a45e56c1e5c9c8a45c56c72291c8a31e5b41e5b4796f1e5b91e41400001e51a7237571755e5d47236571715e5c45c5c5c8f87245c5c5d5c8fc7246c723f1c8fb1e8541e8547a171e8591e85dc8fb028781e859c8fb4aabc7237171745e5d05c5d1c8fb72468723edc8fa1e8481e8487a141e84d1e851c8fa028741e84dc8fa4aab87236d71735e5cc5c5cdc8fa72464723e9c8f91e83c1e83c7a111e8411e841c8f94aab47236971725e5c85c5c9c8f9724601e845c8f902870723e5c8f81e8301e8307a0e1e8351e839c8f80286c1e835c8f84aab0723e1c8f71e8241e8247a0b1e8291e82dc8f7028681e829c8f74aaac7236171705e5c05c5c1c8f772458723ddc8f61e8181e8187a081e81d1e81dc8f64aaa87235d716f5e5bc5c5bdc8f672454)
  (.lf 0))) (.nd (.nd (.lf
  0x2561c95892562125621d8895ade858e99d8892569c2569c00005adea5ade9d8a37630876309736b5edac5edadd91f764f87647dd91e25a6425a64969b25a6925a6dd91e60da825a69d91e62da8257a9d8a35cdac7628dd8a2257942579495e72579925799d8a25eda82562400007622676225d888256102561095862561525615d8885ade458e95d888256982569800005ade65ade5d8a27630476305736a5eda85eda9d91e764f476479d91d25a5825a58969825a5d25a61d91d60da425a5dd91d62da42579dd8a25cda876289d8a1257882578895e42578d2578dd8a15eda4256180000762227622095832560825608958358e9158e9095835ade05ade1d8a1763007630173695eda45eda5d91d764f076475d91c25a4c25a4c969525a5125a55d91c60da025a51d91c62da025791d8a15cda476285d8a02577c2577c95e12578125781d8a05eda02560dd887255fc255fc95812560125601d8875addc58e8dd887256942569400005adde5adddd8a0762fc762fd73685eda05eda1d91c764ec76471d91b25a4025a40969225a4525a49d91b60d9c25a45d91b62d9c25785d8a05cda076281d89f257702577095de2577525775d89f5ed9c2560400007621e)
  (.lf 0)) (.nd (.lf
  0x6584d5ff00127c51f19b98d6e6b017a61b98e53f1c51f1db98e6e6b46e639b98d17a4c17a4c5e9517a5117a51b98d55f1817a55b98d53f186e635b98c17a4017a405e9217a4517a49b98c53f1451f15b98c6e6ac17a45b98c55f146e631b98b17a3417a345e8f17a3917a39b98b55f1017a3db98b53f1051f11b98b6e6a86e62db98a17a2817a285e8c17a2d17a2db98a55f0c51f0db98a6e6a417a31b98a53f0c6e629b98917a1c17a1c5e8917a2117a25b98953f0817a21b98955f0851f09b9896e6a06e625b98817a1017a105e8617a1517a15b98855f0451f05b9886e69c17a19b98853f046e621b98717a0417a045e8317a0917a09b98755f0017a0db98753f0051f01b9876e6986e61db986179f8179f85e80179fd17a01b98653efc6e6a54fc355f0c51ef5b9846e68c51ee9b9816e68051efdb9866e694179fdb98655efc6e619b985179ec179ec5e7d179f1179f1b98555ef851ef9b9856e690179f5b98553ef86e615b984179e0179e05e7a179e5179e5b98455ef4179e9b98453ef46e611b983179d451ef1b9836e688179d45e77179d9179ddb98353ef0179d9b98355ef06e60db982179c8179c85e74179cd179cdb98255eec179d1b98253eec)
  (.lf 0)))

def shaGateTree19 : BTree :=
  .nd (.nd (.nd (.lf
  0x571240c4e42a9c77581544a57128571280c4f42aa077585544b5712c5712c0c5042aa477589544c57130571300c5142aa87758d544d57134571340c5242aac77591544e57138571380c5342ab077595544f5713c5713c0c5442ab477599545057140571400c5542ab842a3c0c4d0310842a400c4e0310c42a440c4f0311042a480c500311442a4c0c510311842a500c520311c42a540c530312042a580c540312442a5c0c550312842a600c560312c42a640c570313042a680c580313442a6c0c590313842a700c5a0313c42a740c5b0314042a780c5c0314442a7c0c5d0314842a800c5e0314c42a840c5f0315042a880c400315442a8c0c410315842a900c420315c42a940c430316042a980c440316442a9c0c450316842aa00c460316c42aa40c470317042aa80c480317442aac0c490317842ab00c4a0317c42ab40c4b0310042ab80c4c03104477bc0c6003100477c00c6103104477c40c6203108477c80c630310c477cc0c6403110477d00c6503114477d40c6603118477d80c670311c477dc0c6803120477e00c6903124477e40c6a03128477e80c6b0312c477ec0c6c03130477f00c6d03134477f40c6e03138477f80c6f0313c477fc0c7003140)
  (.lf 0)) (.nd (.lf
  0x705818065621946219408a83bf78705858066621986219808a93bf7c7058980676219c6219c08aa3bf807058d8068621a0621a008ab3bf84705918069621a4621a408ac3bf8870595806a621a8621a808ad3bf8c70599806b621ac621ac08ae3bf907059d806c621b0621b008af3bf94705a1806d621b4621b408b03bf98705a5806e621b8621b808b13bf9c705a9806f621bc621bc08b23bfa0705b18071621c4621c408b43bfa8705b58072621c8621c808b53bfac705b98073621cc621cc08b63bfb0705bd8074621d0621d008b73bfb4705c18075621d4621d408b83bfb83bf6008b4022bc3bf6408b5022c03bf6808b6022c43bf6c08b7022c83bf7008b8022cc3bf7408b9022d03bf7808ba022d43bf7c08bb022d83bf8008bc022dc3bf8408bd022e03bf8808be022e43bf8c08bf022e83bf9008a0022ec3bf9408a1022f03bf9808a2022f43bf9c08a3022f83bfa008a4022fc3e7b008dd022f4601cc08fd3e8303e83008bd3e8b1022f59956665d43e7b408de022f83e7b808df022fc601d008fe3e834601d408ff3e8383e83408be3e8b53e83808bf3e8b9022fd9958665dc6656199570b04c022f99957665d80b04c2c150b0510b051995701cf8)
  (.lf 0))) (.nd (.nd (.lf
  0x214a9cf51569f073d45cf50214982149885282149d2149dcf50569ec529edcf5073dbc214a1cf50549ec73d41cf4f2148c2148c85252149121495cf4f549e821491cf4f569e8529e9cf4f73db873d3dcf4e214802148085222148521485cf4e569e4529e5cf4e73db421489cf4e549e473d39cf4d2147421474851f2147921479cf4d569e02147dcf4d549e073d35cf4c2146821468851c2146d21471cf4c549dc529ddcf4c73dac2146dcf4c569dc73d31cf4b2145c73df5528956a2473db9527a569e8569e80a9f4236073ddd528356a0c56a0c0a884238473e09528e56a3856a380a93423b0423840a9f02a50423b00a8a02a7c73e11529056a40463380abf02a7c54a400adf4643846439192e46539465380adf02a7c02a7da0da683e4683e54ab058ac03f6b80cbf0327c609540cdf3f7383f7380c9f3f7b90327da09c682ec682ed62b002c7c58ac0877821e2021e2000005aa325aa31d0a87431c7431d72755e9d421de0877721d9c21d9c876921da121da087775aa2c68271a09b0da7c0da7c36a10da810da85a09b58abc3f6b40cbe03278609500cde3f7343f7340c9e3f7b503279a09b682e873db55279569e4569e40a9e4235c73dd9528256a08)
  (.lf 0)) (.nd (.lf
  0x1572c0000157ce157cc55c81571c64c755f2200f441571c55c857c8957c8855c859c601572055f2157101571055c615715157180000157ca64c6d5f2000f3c64c715f2100f4057c8455f2158101571455f259c5c157c855c3157081570855c357c8157c8055c359c581570c55f1156fc156fc55c1157011570055f159c54157040000157c664c655f1e00f3464c695f1f00f3857c7c55f11580c157c455f0156f0156f055be156f5156f455f059c50156f80000157c257c7855f015808157c055bb156e8156e855bb57c7508aed92f957c743b8c0050c0141c6c4c0050c49e743da6c052c014305fb08054c3daec3daec050c3db6d0143192f964c6064c615f1d00f3057c7455bb59c4c08ae992f900f3064be592f808ad808ad822b808add08ae192f857c70156ec55b9156e0156e055b957c7164c5d5f1c00f2c57c7055b959c48156e455b7156d8156d855b757c6d6d4356ef55dbd45dbd5b56a6d6246d5a9b56915c5c15c5c571915c6115c65b5695fbd015c61b56961bd06d4316ef45dbd05dbd1b5696d6206d5a5b56815c5015c50571615c5515c59b5685fbcc6d42d6ef35dbcc5dbcdb5686d61c15c55b56861bcc6d5a1b56715c4415c44571315c49)
  (.lf 0)))

def shaGateTree20 : BTree :=
  .nd (.nd (.nd (.lf
  0x2df05eb87617242df01eb87637242dc41eb0c5d7287ac31eb0b2dc2c2dc2cb70d2dc312dc31eb0b5f7242da54b6932da482da48b693598115d525e7c279f8479f840ff3004cc2c3a9e7c3004d079f0de7c22c3982c398b0e82c39d2c3a1e7c203fcc03fcdada46b70c6b70d660400b4c12765ade3538146b78dade2127501275049d61275512755ade259810046cdade26b8046b8054e0459810125f9ada500b506b695ada4125e8125e8497c125ed125f1ada45981059810b6935b7245b725eb0b7aca87aca975c95f7245f725eb877ae987ae1deb862def02def0b7be2def52def9eb86617202def5eb86637202dc35eb0b5d7247ac2deb0a2dc202dc20b70a2dc252dc25eb0a5f7202da4cb6912da402da40b6915980d5d521e7c179f8079f800ff2004c82c39de7c2004cc79f09e7c12c38c2c38cb0e52c3912c395e7c103fc803fc9ada36b7086b709660300b4812759ade2538106b789ade1127441274449d31274912749ade15980c046c9ade16b8006b8014e035980c125edada400b4c6b691ada3125dc125dc4979125e1125e5ada35980c5980cb6915b7205b721eb0a7aca47aca575c85f7205f721eb867ae947ae19eb852dee42dee4b7bb2dee9)
  (.lf 0)) (.nd (.lf
  0x4c7a2027580a50809d60274365a8365a8d96c365ad365b202744b39c365ae027450f9c3645202374dfa0808de02363644036440d912364453644a02364c79c72c400a564ab9c4ab9e0236809548095531e74df9c4c79e027480a4c809d202733659c3659cd969365a1365a602734b398365a2027350f983644602364df9c808da02353643436434d90f364393643e02354c79872c3c0a554ab984ab9a0235809508095131e64df984c79a027380a48809ce02723659036590d966365953659a02724b39436596027250f943643a02354df98808d602343642836428d90c3642d3643202344c7944ab9602348094c8094d31e54df944c796027280a44809ca02713658436584d963365893658e02714b3903658a027150f903642e02344df94808d202333641c3641cd909364213642602334c7904ab920233809488094931e44df904c792027180a40809c602703657836578d9603657d3658202704b38c3657e027050f8c3642202334df90808ce02323641036410d906364153641a02324c78c72c300a524ab8c4ab8e0232809448094531e34df8c4c78e027080a3c809c2026f3656c3656cd95d3657136576026f4b38836572026f50f883641602324df8c)
  (.lf 0))) (.nd (.nd (.lf
  0x76c79839b62e6c62e6c0dfe3cc5076c7d839c62e7062e700dff3cc5476c81839d62e7462e740de03cc5876c85839e62e7862e780de13cc5c76c89839f62e7c62e7c0de23cc6076c8d83a062e8062e800de33cc6476c9183a162e8462e840de43cc6876c9583a262e8862e880de53cc6c76c9983a362e8c62e8c0de63cc7076c9d83a462e9062e900de73cc7476ca183a562e9462e940de83cc7876ca583a662e9862e980de93cc7c76ca983a762e9c62e9c0dea3cc8076cad83a862ea062ea00deb3cc8476cb183a962ea462ea40dec3cc8876cb583aa62ea862ea80ded3cc8c76cb983ab62eac62eac0dee3cc9076cbd83ac62eb062eb00def3cc9476cc183ad62eb462eb40df03cc9876cc583ae62eb862eb80df13cc9c76cc983af62ebc62ebc0df23cca076ccd83b062ec062ec00df33cca476cd183b162ec462ec40df43cca876cd583b262ec862ec80df53ccac76cd983b362ecc62ecc0df63ccb076cdd83b462ed062ed00df73ccb476ce183b562ed462ed40df83ccb83cc3c0deb037983cc400dec0379c3cc440ded037a03cc480dee037a43cc4c0def037a83cc500df0037ac3cc540df1037b03cc580df2037b43cc5c0df3037b83cc600df4037bc)
  (.lf 0)) (.nd (.lf
  0x17899653659c809e219653012886594d965209e1009e10278609e1509e19965257fc832431f73f4d7d87dcfdf73e3242032420c90a3242532425f73e4d7d418aa9bbbb5deec18904623f188f8188f8623f57fd5659d15ff50129065ac947f557fd457fd4623f59f9c59f9dbbba6ef646ef656fba5dee86eeedbbba18a9818a9862a818a9d18aa1bbba5bee818c15bbf9019946efe5bbf818c0018c00630218c0532429f73e4bfd45bee9bbf86f05c6f05c06644a3d418c05bbf84a3d44a3d5f73e7dd747dcf9f73d3241432414c907324193241df73d4bfd018a9dbbba5dee8188fd67e5188f0188f15ff3188f565ac547f457fd0659cd5ff40128c57fd167e518a3c188f567e559f9818a3c000059f9a59f99bbb96ef606ef616fb95dee418c09bbf8019906efe1bbf718bf418bf462ff18bf918bf9bbf74a3d06eee9bbb918a8c18a8c62a518a9118a95bbb95bee45bee5bbf76f0586f05806634a3d04a3d1f73d7dd7032419f73d4d7d07dcf5f73c3240832408c9043240d3240df73c4d7cc659c95ff30128818a91bbb95dee46eee5bbb818a8018a8062a218a8565ac147f357fcc57fcc000059f9618a89bbb85bee059f95bbb86ef5c6ef5d6fb85dee0)
  (.lf 0)))

def shaGateTree21 : BTree :=
  .nd (.nd (.nd (.lf
  0x10ba1a9135933428d59e03655260780d9e03528d4428d44a35328d4928d49e0355725c5325de035781507815154975725c5725c107c42bd47817554a05728057280106542bf8781a154ab572ac572ac107042c2442bf8107c041c442c241067041f047cac109c041f0552b410bc47dac47dad1f8b47ead47eac10bc041f0041f1a9136a4c810ba5a913533346a44da91210b9010b9042e610b9510b99a9125333028d4de0355525c780d5e03428d3828d38a35028d3d28d3de0345725853259e0347814c7814d54965725857258107b42bd078171549f5727c5727c106442bf47819d54aa572a8572a8106f42c2042bf4107b041c042c201066041ec47ca8109b041ec552b010bb47da847da91f8a47ea947ea810bb041ec041eda9126a4c410b95a912593306a449a91110b8410b8442e310b8910b89a9115932c28d41e03455258780d1e03328d2c28d2ca34d28d3128d31e0335725453255e033781487814954955725457254107a42bcc7816d549e5727857278106342bf07819954a9572a4572a4106e42c1c42bf0107a041bc42c1c1065041e847ca4109a041e8552ac10ba47da447da51f8947ea547ea410ba041e8041e9a9116a4c010b8da9115332c)
  (.lf 0)) (.nd (.lf
  0x70abd50ec563b0563b006f141d2841cfc06fd01bc841d2806e801bf444fb0071d01bf4543b8073d450b0450b1144c451b1451b0073d01bf401bf59a8c66aac0b74d9a8c5843866a319a8b0b73c5635c06fc41cd470a8d50e0563805638006e541cf8563ac06f041d2441cf806fc01bc441d2406e701bf044fac071c01bf0543b4073c450ac450ad144b451ad451ac073c01bf00b73c2dd10b7410b7459a8b524340b7419a8b5843401bf19a8b66aa866a2d9a8a0b7300b7302dce0b7350b7359a8a5843052349c27670a541b855c27954354709e5c2781b8401b8406e121b8451b849c2785435052351c27870a5c1b845c27856350709e1c2771b8341b8346e0f1b8395234550d15634470a8950df5637c1b83dc2775434c1b839c2775634c5234dc27770a58709ddc2761b8281b8286e0c1b82d1b82dc276563481b831c27654348709d950d15634570a5550d2563485634806f741cc070a7950db5636c5636c06e041ce470aa550e6563985639806eb41d1041ce406f701bb041d1006e201bdc44f98071701bdc70aad50e8563a0543a00737450984509914464519945198073701bdc01bdd9a8666a9470a6550d6563585635806fb41cd05637c06e441cf4)
  (.lf 0))) (.nd (.nd (.lf
  0x7459152b356acc54acc0b02466c4466c519d1467c5467c40b0202b0802b09a1b568750687514ad358b4c745b152bb56aec56aec0ac042464745d552c456b1056b100ac9424887460152cf56b3c56b3c0ad4424b4424880ac002b54424b40acb02b00465bc0ae002b0054ac40b00466bc466bd19cf467bd467bc0b0002b0002b014ad158b443f8a00cf90336460a3c0d193f9203f9200cd93f9a103365a18e686b43f8a40cfa033683f8a80cfb0336c3f8ac0cfc033703f8b00cfd033743f8b40cfe033783f8b80cff0337c60a400d1a3f92460a440d1b3f92860a480d1c3f92c60a4c0d1d3f93060a500d1e3f93460a540d1f3f9383f9240cda3f9a53f9280cdb3f9a93f92c0cdc3f9ad3f9300cdd3f9b13f9340cde3f9b53f9380cdf3f9b903379a193686c80337da194686cc68651a1930e01c0e01c38090e0210e021a19302d780e025a19358bbc6864da1920e01003375a192686c40e01038060e0150e015a19202d740e019a19258bb868649a1910e0040e00438030e0090e009a19102d700e00da19158bb403371a191686c068645a1900dff80dff838000dffd0dffda19002d6c0e001a19058bb00336da190686bc68641a18f0dfec0dfec37fd0dff1)
  (.lf 0)) (.nd (.lf
  0x7bbe5298b5022c5022d296e04b107bbe9298c5023050231296f04b147bbed298d5023450235297004b1804aa929634a56004aad29644a56404ab129654a56804ab529664a56c04ab929674a57004abd29684a57404ac129694a57804ac5296a4a57c04ac9296b4a58004acd296c4a58404ad1296d4a58804ad5296e4a58c04ad9296f4a59004add29704a59404ae129514a59804ae529524a59c04ae929534a5a004aed29544a5a404af129554a5a804af529564a5ac04af929574a5b004afd29584a5b404b0129594a5b804b05295a4a5bc04b09295b4a5c004b0d295c4a54404b11295d4a54804b15295e4a54c04b19295f4a5507bbf1298e502385023929604a5547bbf5298f5023c5023d29614a5587bbf92990502405024129624a55c4d175ee507b9bc4d1c1ee637ba087b98dee622f1504d1bdee627ba042f150bc562f1552f155ee624e9bc2f159ee624a13c7b989ee612f1442f144bc532f1492f14dee614a1384d1b9ee617ba002f149ee614e9b87b985ee602f1382f138bc502f13d2f141ee604a1344d1b5ee607b9fc2f13dee604e9b47b981ee5f2f12c2f12cbc4d2f1312f131ee5f4e9b02f135ee5f4a1304d1b1ee5f7b9f87b97dee5e2f120)
  (.lf 0)))

def shaGateTree22 : BTree :=
  .nd (.nd (.nd (.lf
  0x5d2c1e2c878b9c78b9c0f5a002682a109e2c90026c78b25e2c82a0f82a0f8a8402a0fd2a101e2c803d6803d69ab3f6ad786ad79656b04668119a9ab7e535b06adf9ab7d119941199446671199911999ab7d595ac04469ab7d6ae706ae714d6b595ac1183dab400466c6ad01ab3f1182c1182c460d1183111835ab3f595ac595acae825b4c85b4c9e68679a9479a9575305f4c05f4c1e70279c8479c09e7012be682be68af9c2be6d2be71e701614bc2be6de701634bc2bbade6865d4c079a19e6852bb982bb98aee82bb9d2bb9de6855f4bc2ba09e6692b9f82b9f8ae802b9fd2b9fde6695b4c42a0fde2c80026878b21e2c72a0ec2a0eca83d2a0f12a0f5e2c703d645d2bde2c778b9878b980f59002641199dab7d535ac6adf5ab7c119881198846641198d1198dab7c595a804465ab7c6ae6c6ae6d4d6a595a811831ab3f046686acfdab3e1182011820460a1182511829ab3e595a803d65ab3e6ad746ad75656a04664595a9e6692ba682ba6800005b4c65b4c5e68579a9079a91752f5f4bc5f4bde70179c8079c05e7002be5c2be5caf992be612be65e700614b82be61e700634b82bba1e6855d4bc79a15e6842bb8c2bb8caee52bb912bb91e6845f4b8)
  (.lf 0)) (.nd (.lf
  0x35501ff904b1ac354fdff9050dac353a1ff534ddb07fd4dff523539035390d4e63539535399ff524c5ac4a9adff527fdc47fdc5316b4ddac4c5adff907febc7fe41ff8f354ec354ecd53d354f1354f5ff8f4b1a8354f1ff8f50da835395ff524ddac7fd49ff513538435384d4e3353893538dff514c5a84a9a9ff517fdc07fdc1316a4dda84c5a9ff8f7feb87fe3dff8e354e0354e0d53a354e5354e9ff8e4b1a4354e5ff8e50da435389ff514dda87fd45ff503537835378d4e03537d35381ff504c5a44a9a5ff507fdbc7fdbd31694dda44c5a5ff8e7feb47fe39ff8d354d4354d4d537354d9354ddff8d4b1a0354d9ff8d50da03537dff504dda47fd41ff4f3536c3536cd4dd3537135375ff4f4c5a04a9a1ff4f7fdb87fdb931684dda04c5a1ff8d7feb07fe35ff8c354c8354c8d534354cd354d1ff8c4b19c354cdff8c50d9c35371ff4f4dda07fd3dff4e3536035360d4da3536535369ff4e4c59c4a99dff4e7fdb47fdb531674dd9c4c59dff8c7feac7fe31ff8b354bc354bcd531354c1354c5ff8b4b198354c1ff8b50d9835365ff4e4dd9c7fd39ff4d3535435354d4d7353593535dff4d4c5984a999ff4d7fdb07fdb131664dd984c599ff8b7fea8)
  (.lf 0))) (.nd (.nd (.lf
  0x46e100b9502d5446e140b9602d5846e180b9702d5c46e1c0b9802d6046e200b9902d6402d65a3bc68f6c68ef1a3bb0ec7c0ec7c3b210ec8102d61a3bb68f680ec85a3bb52da40ec81a3bb58da468eeda3ba0ec700ec703b1e0ec750ec79a3ba52da00ec75a3ba58da002d5da3ba68f6468ee9a3b90ec640ec643b1b0ec690ec6da3b952d9c0ec69a3b958d9c02d59a3b968f6068ee5a3b80ec580ec583b180ec5d0ec5da3b858d980ec61a3b852d9802d55a3b868f5c68ee1a3b70ec4c0ec4c3b150ec510ec55a3b752d9446c0c0b7402d5054d140b9446d0c46d0d1b6346e0d46e0c0b9402d500ec51a3b758d9402d51a3b768f5868edda3b60ec400ec403b120ec450ec49a3b652d900ec45a3b658d90426540b5302d2046c080b7302d4c54d100b9346d0846d091b6246e0946e080b9302d4c02d4da3b668f5468ed9a3b50ec340ec343b0f0ec390ec3da3b552d8c426400b4e02d0c426440b4f02d10426480b5002d144264c0b5102d18426500b5202d1c46bf80b6f02d3c46bfc0b7002d4046c000b7102d4446c040b7202d4854d000b8f46cf854d040b9046cfc54d080b9146d0054d0c0b9246d0446cf91b5e46df946cfd1b5f46dfd46d011b6046e01)
  (.lf 0)) (.nd (.lf
  0x96c025b2096c5096c994f657ea83dea005b9016645fd3c05d93df203df2005993dfa1096c594f6011640166594f665454653d994f5096b4096b425af096b9096bd94f557ea46de8d4f7c55df06de6d4f7455dd06e17d7f4361d0c61d0c05863baf061d5405983bb383baf005980164c3de9c05b8016605fd3805d83df1c3df1c05983df9d096b994f5011600166194f565450653d594f4096a86de894f7b55dec6e1797f4261d0861d0805853baec61d5005973bb343baec05970164816b25b77b53dcc6debd4f8855e2051dc9b77a6de64654d595340982809828260c0982d0982d953457ea855dd003d9417486de914f7d55df455df403c24176c55e2003cd417984176c03d900f384179803c400f6443f2003f900f6453e280419440204402110284412144120041900f6400f6595346554c09831953451ea8654d195330981c0981c26090982109821953357ea451dcdb77b6de686deb94f8755e1c6de694f7355dcc55dcc03d84174455df003c14176855e1c03cc417944176803d800f344179403c300f6043f1c03f800f6053e2404184401c4401d10274411d4411c041800f6000f6195336554809825953351ea4654cd9532098103de9805b70165c)
  (.lf 0)))

def shaGateTree23 : BTree :=
  .nd (.nd (.nd (.lf
  0x3938ce4e539391393960a67003ac393920a67514f04ccf20a6782a188299e0a663938039380e4e2393853938a0a66003a8393860a66514ec4ccee0a6682a148299a0a653937439374e4df393793937e0a65003a43937a0a65514e84ccea0a6582a10829960a643936839368e4dc3936d393720a64003a03936e0a64514e44cce60a6482a0c829920a633935c3935ce4d939361393660a630039c393620a63514e04cce20a6382a088298e0a623935039350e4d6393553935a0a6200398393560a62514dc4ccde0a6282a048298a0a613934439344e4d3393493934e0a61003943934a0a61514d84ccda0a6182a00829860a603933839338e4d03933d393420a60003903933e0a60514d44ccd60a60829fc829820a5f3932c3932ce4cd39331393360a5f0038c393320a5f514d04ccd20a5f829f88297e0a5e3932039320e4ca393253932a0a5e00388393260a5e514cc4ccce0a5e829f48297a0a5d3931439314e4c7393193931e0a5d003843931a0a5d514c84ccca0a5d829f04ccc400e0514c48297400e0514c5514c400c305be0829f000e1514c8514c800c405be4829f400e2514cc514cc00c505be8829f800e3514d0514d000c605bec829fc00e4514d4)
  (.lf 0)) (.nd (.lf
  0x4d91df9407e57c7e501f93f3302c3302ccc0d3303133035f93f4a89833031f93f4f1184d919f93f7e5787e4fdf93e3302033020cc0a3302533029f93e4a89433025f93e4f1144d915f93e7e5747e4f9f93d3301433014cc07330193301df93d4a89033019f93d4f1104d911f93d7e5707e4f5f93c3300833008cc043300d4d90df93c7e56c3300df93c4f10c33011f93c4a88c7e4f1f93b32ffc32ffccc013300133001f93b4f10833005f93b4a8884d909f93b7e5687e4edf93a32ff032ff0cbfe32ff54d905f93a7e56432ff9f93a4a88432ff5f93a4f1047e4e9f93932fe432fe4cbfb32fe932fe9f9394f1004d901f9397e56032fedf9394a8807e4e5f93832fd832fd8cbf832fdd32fe1f9384a87c32fddf9384f0fc4d8fdf9387e55c7e4e1f93732fcc32fcccbf532fd132fd5f9374a8784d8f5f9367e5547e5552a1d4f0f432fd1f9374f0f84d8f9f9377e5587e4ddf93632fc032fc0cbf232fc532fc5f9364f0f44f0f52987064d87e55d2a1f4f0fc4f0fd2989064e07e5792a264f1184f1192990064fc064d929904a638064e129724a6401a62400005a1ea5a1e9bfd16ffc06ffc170555e1545c155c00f700b8700b808ff4a6404a641fa417e980)
  (.lf 0))) (.nd (.nd (.lf
  0x4df1601f680854807da01f5362b4362b4d8af362b9362be01f54ae90362ba01f54f71035ffa017a4c714805ea017935fe435fe4d7fb35fe935fea01794df104ab120179806608066131c44df104df1201f580850807d601f4362a8362a8d8ac362ad362b201f44ae8c362ae01f44f70c35fee01794c710805e6017835fd835fd8d7f835fdd35fde01784df0c4ab0e01788065c8065d31c34df0c4df0e01f48084c807d201f33629c3629cd8a9362a1362a601f34ae88362a201f34f70835fe201784c70c805e2017735fcc35fccd7f535fd135fd201774df084ab0a0177806588065931c24df084df0a01f380848807ce01f23629036290d8a6362953629a01f24ae843629601f24f70435fd601774c708805de017635fc035fc0d7f235fc535fc601764df044ab060176806548065531c14df044df0601f280844807ca01f13628436284d8a3362893628e01f14ae803628a01f14f70035fca01764c704805da017535fb435fb4d7ef35fb935fba01754df004ab020175806508065131c04df004df0201f180840807c601f03627836278d8a03627d3628201f04ae7c3627e01f04f6fc35fbe01754c700805d6017435fa835fa8d7ec35fad35fae01744defc)
  (.lf 0)) (.nd (.lf
  0x853821500853d08541920057b703d86804eb0132c5fa04050b3d8e83d8e804cb3d9693b7bc04cb013180132d92006487c0853d920000e2c6480191ff0852c0852c214d085310853191ff00e285b881af1f6bcf86bcf804ca49d6c5b87daf1e6bcf43d86404ea013285fa00050a3d8e43b83804ca013140853591ff57b6c3d8e404ca3d96512f55af1f013280132991ff64878647fd91fe0852008520214a0852512f51af1f49d6c6bc7daf1e12f4012f404bd212f4512f49af1e013245f9fc05093d8e03d8e004c93d9616bcf404c949d683b83404c9013103d86004e9013240132591fe648740852991fe57b680852591fe00e24647f991fd085143d85c04e8013205b879af1d6bcf06bcf004c849d6412f45af1e49d686bc79af1d12f3412f344bcf12f395f9f805083d8dc3d8dc04c83d95d12f3daf1d013203b83004c80130c0132191fd64870085142147085190851991fd00e200851d91fd57b64647f591fc0850812f39af1d49d646bc75af1c12f2812f284bcc12f2d5b875af1c6bcec12f31af1c0131c12f2daf1c49d606bc71af1b12f1c12f1c4bc912f2112f25af1b013183d85404e6013185f9f005063d8d43d8d404c63d9555b871af1b6bce8)
  (.lf 0)))

def shaGateTree24 : BTree :=
  .nd (.nd (.nd (.lf
  0x2ca09e8bd0401804019ae136b8c86b8c9661700a9812999ae52538606b949ae5112984129844a631298912989ae515985c04719ae516b9c06b9c14e175985c1282dae1400a9c6b851ae131281c1281c4a091282112825ae135985c5985cb8485b7705b771ec047b08c7b08d75dc5f7705f771ec807b27c7b201ec7f2e5482e548b9542e54d2e551ec7f6176c2e54dec7f6376c2e28dec045d7707b011ec032e2782e278b8a02e27d2e27dec035f76c2e120b8462e1142e114b846598595d56de8bc7a36c7a36c1005005142ca05e8bd005187a2f5e8bc2c9f42c9f4b27f2c9f92c9fde8bc0401404015ae126b8c46b8c5661600a941298dae515385c6b945ae5012978129784a601297d1297dae505985804715ae506b9bc6b9bd4e165985812821ae1300a986b84dae1212810128104a061281512819ae125985859858b8465b76c5b76dec037b0887b08975db5f76c5f76dec7f7b2787b1fdec7e2e53c2e53cb9512e5412e545ec7e617682e541ec7e637682e281ec035d76c7b00dec022e26c2e26cb89d2e2712e271ec025f7682e119ebf12e1082e108b8442e10d2e10debf15b7682c9f9e8bc005147a2f1e8bb2c9e82c9e8b27c2c9ed2c9f1e8bb04010)
  (.lf
  0x559b92e24413306bac54e5a55968559692e30412e0432b50ccd433b5433b52def4b8bc6bb0d4e6c559b0559b12e2241328640152e3000b7c6bac14e5955964559652e2f412dc640112e2f00b786bae54e6255988559892e1841300413012e2f4b890559b52e234132c4132d2e1a4b8bc4b8bd90dd643f0413312e1b4b8c05598d2e1941304413052e304b8944b8c190de643f46400d2e2e00b746437990dd07f1407f141fc707f1907f1d90dd51a3c07f1990dd57a3c6437590dc07f0807f081fc407f0d07f1190dc51a386bae14e615598407f0d90dc57a38413292e194b8b8559852e17412fc433b12dee4b8b8412fd2e2e4b88c4b8b990dc643ec6437190db07efc6bad54e5e559786badd4e60559806bad94e5f5597c5597d2e15412f4412f52e2c4b884539b12dec432a8432a90cca433a9559a92e2041320413212e174b8b06bab54e5655958559592e2c412d0640052e2c00b6c433a92dec4b8b04b8b190da643e46bab94e575595c5595d2e2d412d407efc1fc107f0107f0190db57a346bb014e69559a4559a52e1f4131c4131d2e164b8ac539b52ded432ac432ad0ccb433ad640012e2b00b686bb094e6b559ac559ad2e2141324413252e184b8b4))
  (.nd (.lf
  0x3c51c0a03028783c5200a040287c52841cb7672e5472dd9cb751f9241f9247e4b1f9291f929cb755683c1f92dcb755483c3f2b40a3e028787313981d462750607500a5e3f3343f3340a1e3f3b5028799eab67b2867b29622f02a783f2b00a3d028743f2b80a3f0287c7313581d36274c6074c0a5d3f3307313d81d562754607540a5f3f3383f3300a1d3f3b13f3380a1f3f3b95283dcb7572e5072dd5cb741f9181f9187e481f91d1f921cb74548381f91dcb745683852839cb7472e4c72dd1cb731f90c1f90c7e451f9111f915cb73548341f911cb735683452835cb7372e4872dcdcb721f9001f9007e421f9051f909cb72548301f905cb725683052831cb7272e4472dc9cb711f8f41f8f47e3f1f8f91f8fdcb715482c1f8f9cb715682c5282dcb7172e4072dc5cb701f8e81f8e87e3c1f8ed1f8f1cb70548281f8edcb705682852829cb7072e3c72dc1cb6f1f8dc1f8dc7e391f8e11f8e5cb6f548241f8e1cb6f5682452825cb6f72e3872dbdcb6e1f8d01f8d07e361f8d51f8d9cb6e548201f8d5cb6e5682052821cb6e72e3472db9cb6d1f8c41f8c47e331f8c91f8cdcb6d5481c1f8c9cb6d5681c5281dcb6d72e3072db5cb6c1f8b81f8b87e301f8bd)
  (.lf 0))) (.nd (.nd (.lf
  0x5ef49dc0e770b477039dc0d2703c2703c9c112704127045dc0d60f4427041dc0d62f445ef45dc0d770b077035dc0c27030270309c0e2703527039dc0c60f4027035dc0c62f405ef41dc0c770ac77031dc0b27024270249c0b270292702ddc0b60f3c27029dc0b62f3c5ef3ddc0b770a87702ddc0a27018270189c082701d27021dc0a60f382701ddc0a62f385ef39dc0a770a477029dc092700c2700c9c052701127015dc0960f3427011dc0962f345ef35dc09770a077025dc0827000270009c022700527009dc0860f3027005dc0862f305ef31dc087709c77021dc0726ff426ff49bff26ff926ffddc0760f2c26ff9dc0762f2c5ef2ddc07770987701ddc0626fe826fe89bfc26fed26ff1dc0660f2826feddc0662f285ef29dc067709477019dc0526fdc26fdc9bf926fe126fe5dc0560f2426fe1dc0562f245ef25dc057709077015dc0426fd026fd09bf626fd526fd9dc0460f2026fd5dc0462f205ef21dc047708c77011dc0326fc426fc49bf326fc926fcddc0360f1c26fc9dc0362f1c5ef1ddc03770887700ddc0226fb826fb89bf026fbd26fc1dc0260f1826fbddc0262f185ef19dc027708477009dc0126fac26fac9bed26fb126fb5dc0160f14)
  (.lf 0)) (.nd (.lf
  0x65bc1601501a100a26c289d0a2710a271970f58054444cc04640111053fd40484445cc445cd1193446cd446cc04840111001111970f65cb819185bcc15df6c65cb94815580541901d680319014190156803580555805568035a0106f305bcc01917419174645f191791917dbcc05bf685a011bcc06f37c6f37d6fda5df685bf69bcfe6f4746f47808854a4586f47408844a4544a459f7f97e0603286df7f94c0587dfe5f7f83285832858ca183285d32861f7f84c0543285df7f84d8544a455f7f87e05c7dfe1f7f73284c3284cca15328514c0c1f8517e1c07e145f85032af832af8cac032afd32b01f8504acbc7e0c5302f4d8bc4c0bdf8507e1bc32afdf850508bc7e141f84f32aec32aeccabd32af132af5f84f4acb87e0b9302c4d8b04c0b1f84d7e1b032af1f84f508b84c0b5f84e7e1b47e0c1302e4d8b84c0b9f84f7e1b87e13df84e32ae032ae0caba32ae532ae5f84e508b432ae9f84e4acb47e139f84d32ad432ad4cab732ad932addf84d4acb032ad9f84d508b07e135f84c32ac832ac8cab432acd32acdf84c508ac7e0b5302b4d8ac4c0adf84c7e1ac32ad1f84c4acac7e131f84b32abc32abccab132ac132ac5f84b4aca87e09130224d888)
  (.lf 0)))

def shaGateTree25 : BTree :=
  .nd (.nd (.nd (.lf
  0x5b2c5e28578a9078a9174ab5f2ac5f2ade30178c8078c05e3002a2182a218a8882a21d2a221e300612a82a21de300632a829f5de2855d2ac78a15e28429f4829f48a7d429f4d29f4de2845f2a829d90a76229d8429d84a762593955d0a9decf77bb877bb80ed400050283e9ded00005477b41decf283d8283d8a0f8283dd283e1decf03b5003b51a9496a5a06a5a164e50445010e21a988533986a621a98710e0c10e0c438510e1110e11a9875939404251a9876a6986a6994ce55939410cb5a94a044546a529a94910ca410ca4432b10ca910cada9495939459394a7625b2c05b2c1e28478a8c78a8d74aa5f2a85f2a9e30078c7c78c01e2ff2a20c2a20ca8852a2112a215e2ff612a42a211e2ff632a429f51e2845d2a878a11e28329f3c29f3ca7d129f4129f41e2835f2a429d88a78429d7829d78a76029d7d29d7ca7845b2bc283dddecf0005077b3ddece283cc283cca0f5283d1283d5dece03b4c5d0a5dece77bb477bb40ed30004c10e15a987533946a61da98610e0010e00438210e0510e05a986593900424da9866a6946a6954ce45939010ca9a949044506a525a94810c9810c98432810c9d10ca1a9485939003b4da9486a59c6a59d64e40444c)
  (.lf 0)) (.nd (.lf
  0x7f4292ad04f3c04f3c12a234a8845e355c4467119471119c4451c6541c65471971c6591c65dc445603501c659c445623505e351c4457119071115c4441c6481c64871941c64d1c64dc4446234c5e34dc4447118c1c651c4446034c71111c4431c63c1c63c71911c6411c645c443603481c641c443623485e349c443711887110dc4421c6301c630718e1c6351c635c442623441c639c442603445e345c4427118471109c4411c6241c624718b1c6291c629c441623405e341c441711805e33dc4407117c1c62dc4416034071105c4401c6181c61871881c61d1c61dc4406233c1c621c4406033c71101c43f1c60c1c60c71851c6111c615c43f603381c611c43f623385e339c43f71178710fdc43e1c6001c60071821c6051c605c43e623345e335c43e711741c609c43e60334710f9c43d1c5f41c5f4717f1c5f91c5fdc43d603301c5f9c43d623305e331c43d71170710f5c43c1c5e81c5e8717c1c5ed1c5edc43c6232c5e32dc43c7116c1c5f1c43c6032c710f1c43b1c5dc5e315c436711541c5dc71791c5e11c5e1c43b623285e325c43a711645e329c43b711681c5e5c43b60328710edc43a1c5d01c5d071761c5d51c5d5c43a623241c5d9c43a60324)
  (.lf 0))) (.nd (.nd (.lf
  0x22a45d24a54b8022a41d24a56b8052b81d24a749a474929d24922a3022a308a8e22a3522a39d24954b7c22a35d24956b7c52b7dd249749a074925d24822a2422a248a8b22a2922a2dd24854b7822a29d24856b7852b79d2487499c74921d24722a1822a188a8822a1d22a21d24754b7422a1dd24756b7452b75d247749987491dd24622a0c22a0c8a8522a1122a15d24654b7022a11d24656b7052b71d2467499474919d24522a0022a008a8222a0522a09d24554b6c22a05d24556b6c52b6dd2457499074915d244229f4229f48a7f229f9229fdd24454b68229f9d24456b6852b69d2447498c74911d243229e8229e88a7c229ed229f1d24354b64229edd24356b6452b65d243749887490dd242229dc229dc8a79229e1229e5d24254b60229e1d24256b6052b61d2427498474909d241229d0229d08a76229d5229d9d24154b5c229d5d24156b5c52b5dd2417498074905d240229c4229c48a73229c9229cdd24054b58229c9d24056b5852b59d2407497c74901d23f229b8229b88a70229bd229c1d23f54b54229bdd23f56b5452b55d23f74978748fdd23e229ac229ac8a6d229b1229b5d23e54b50229b1d23e56b5052b51d23e74974748f9d23d229a0)
  (.lf 0)) (.nd (.lf
  0x7c2a528a94eb245bb19b4256d1105bb55b4346d14c6d0d1b4331539c1539c54e9153a1153a1b4334a03c153a5b433015f85bb51b4336d1486d0cdb432153901539054e61539515399b432015f415395b4324a0385bb4db4326d1446d0c9b431153841538454e3153891538db431015f05bb49b4316d14015389b4314a0346d0c5b430153781537854e01537d1537db4304a0305bb45b4306d13c15381b430015ec6d0c1b42f1536c1536c54dd153715bb3db42e6d1345bb41b42f6d13815371b42f4a02c15375b42f015e86d0bdb42e153601536054da1536515369b42e015e415365b42e4a0286d0b9b42d153541535454d7153595bb31b42b6d1285bb39b42d6d1305bb2db42a6d1245bb35b42c6d12c15359b42d4a0241535db42d015e06d0b5b42c153481534854d41534d1534db42c4a02015351b42c015dc6d0b1b42b1533c1533c54d11534115341b42b4a01c15345b42b015d86d0adb42a153301533054ce1533515335b42a4a01815339b42a015d46d0a9b429153241532454cb153291532db429015d05bb29b4296d12015329b4294a0146d0a5b428153181531854c81531d1531db4284a01015321b428015cc6d0a1b4271530c1530c54c515311)
  (.lf 0)))

def shaGateTree26 : BTree :=
  .nd (.nd (.nd (.lf
  0x11a71abaf046b86aebdabae11a6011a60469a11a6511a69abae595f8595f8b01d5b50c5b50de77e79e7479e7575435f50c5f50de7fa7a06479fe9e7f92c4ac2c4acb12d2c4b12c4b5e7f9615082c4b1e7f9635082c1f1e77e5d50c79df9e77d2c1dc2c1dcb0792c1e12c1e1e77d5f5082c074b01b2c0682c068b01b595f55d309e3b278f4478f440f6c002b02a781e3b3002b478ecde3b22a7702a770a9de2a7752a779e3b203db003db1abad6af306af31657d046b011bd1abec535f86afb1abeb11bbc11bbc46f111bc111bc1abeb595f4044b1abeb6b0286b0294d7d595f411a65abae046b46aeb9abad11a5411a54469711a5911a5dabad595f4595f4b01b5b5085b509e77d79e7079e7175425f5085f509e7f97a06079fe5e7f82c4a02c4a0b12a2c4a52c4a9e7f8615042c4a5e7f8635042c1e5e77d5d50879df5e77c2c1d02c1d0b0762c1d52c1d5e77c5f5042c06cb0192c0602c060b019595f15d305e3b178f4078f400f6b002ac2a775e3b2002b078ec9e3b12a7642a764a9db2a7692a76de3b103dac03dadabac6af2c6af2d657c046ac11bc5abeb535f46afadabea11bb011bb046ee11bb511bb5abea595f0044adabea6b0246b0254d7c595f0)
  (.lf 0)) (.nd (.lf
  0x3edc809633ee490c1659c63525d46718d9c620c1500c15030560c1550c1559c62585d045548078301d8c5455007a3456484564915b2457494574807a301d8c01d8d9c6267204672054974585d00bff99c2501f90670959c240bfe80bfe82ffc0bfed0bff19c24585d00258d9c246710c6710d617401f8c585d0777a1de181de1800005a55e1dcf0777a1dce01dce0773a1dce51dce4777a5a55c5a55dc7aa71f241de61c7aa5e4e471ea9c7a91de501de5077961de551de55c7a95e4e03ed440982025886046009a23edc43edc409623ee450c1599c62525d0671899c610c1440c14430530c1490c1499c61585cc45544078201d885454c07a2456444564515b1457454574407a201d8801d899c6167200672014973585cc1dce800001ddea1dde969551dcd81dcd961721dcdd1dcdd69555a5580bfed9c2401f8c670919c230bfdc0bfdc2ff90bfe1025899c23671080bfe59c23585cc67109617301f88585cd69551de141de1400005a55a5a559c7a971f201de59c7a95c4e071ea5c7a81de441de4477931de491de4dc7a85c4dc71f2571395e4e45c4e5c7e87201c7201c09e34a9d03ed400981025846045c09a13edc03edc009613ee410c14d9c61525cc)
  (.lf 0))) (.nd (.nd (.lf
  0x250ec943d250f1250f5d7a25cd3c24f24000024f7e24f7c93c624f1424f1493c658e2958e2893c65ad7c5ad7dd7a275f0475f05734f5ed3c5cd3dd7e075ffc75ffc0df94b2284b22a0bab82f2882f29338a4e6284e62a0c27831188309e0c2639e0039e00e78239e0539e0a0c260006039e060c264fe2439b460bab4ce2882eae0baa39b3039b30e6ce39b3539b360baa4e62469061638902fe02525dd7e0037e475f81d7df252482524894942524d2524dd7df4b224250f1d7a25ed3c75e89d7a1250e0250e0943a250e5250e9d7a15cd3824f1893c424f0c24f0c93c458e2558e2493c45ad785ad79d7a175f0075f01734e5ed385cd39d7df75ff875ff80df84b2244b2260baa82f2482f2533894e6244e6260c26831148309a0c2539df439df4e77f39df939dfe0c250005c39dfa0c254fe2039b3a0baa4ce2482eaa0ba939b2439b24e6cb39b2939b2a0ba94e6206905d638802fdc25251d7df037e075f7dd7de2523c2523c94912524125241d7de4b220250e5d7a15ed3875e85d7a0250d4250d49437250d9250ddd7a05cd3424f1093de24f0024f0093c224f0524f0493de5ad7458e2093de24fb824fb800005ad765ad75d7a075efc75efd734d5ed34)
  (.lf 0)) (.nd (.lf
  0x3bbb805aa016940990c26450991109915956757efc099119567011b86559d9566099000990026420990509909956657ef8099059566011b43df7005cd016b45fd8c05ed3dff03dff005ad3e071016b5956665614655999565098f4098f4263f098f9098fd956557ef4098f99565011b0655959564098e8098e8263c098ed098ed9564011ac098f1956457ef0655919563098dc098dc2639098e1098e5956357eec3df6405ca016a85fd8005ea3dfe43dfe405aa3e065016a9956365608098e19563011a86558d9562098d0098d02636098d53bbb405a9016903df6005c9016a45fd7c05e93dfe03dfe005a93e061098d9956257ee8016a5956265604098d59562011a4655899561098c4098c42633098c93bbac05a7016883bbb005a80168c3df5c05c8016a05fd7805e83dfdc3dfdc05a83e05d098c99561011a0098cd956157ee4016a1956165600655859560098b8098b82630098bd3df5805c70169c5fd7405e73dfd83dfd805a73e0590169d9560655fc098c1956057ee0098bd95600119c65581955f098ac098ac262d098b1098b1955f011983bba805a6016843df4005c1016845fd5c05e13dfc03dfc005a13e04101685955a655e4655e55fb201184)
  (.lf 0)))

def shaGateTree27 : BTree :=
  .nd (.nd (.nd (.lf
  0x4cf5a0e03838888380e0e023a8503a850ea163a8553a85a0e02006103a8560e02517543a6fa0dc54e758837160dc43a6e83a6e8e9bc3a6ed3a6f20dc44cf542669ddac10391476b05dac0266882668899a42668d2668ddac04b3545ce69dac076b7c76b7c0e444b3544b3560dc48378c8378d33d54e7544cf560e02838848380a0e013a8443a844ea133a8493a84e0e010060c3a84a0e01517503a6ee0dc44e754837120dc33a6dc3a6dce9b93a6e13a6e60dc34cf5026691dac00391076b01dabf2667c2667c99a12668126681dabf4b3505ce65dabf76b7876b780e434b3504b3520dc3837888378933d44e7504cf520e0183880838060e003a8383a838ea103a83d3a8420e00006083a83e0e005174c3a6e20dc34e7508370e0dc23a6d03a6d0e9b63a6d53a6da0dc24cf4c26685dabf0390c76afddabe2667026670999e2667526675dabe4b34c5ce61dabe76b7476b740e424b34c4b34e0dc2837848378533d34e74c4cf4e0e008387c838020dff3a82c3a82cea0d3a8313a8360dff006043a8320dff517483a6d60dc24e74c8370a0dc13a6c43a6c4e9b33a6c93a6ce0dc14cf4826679dabe0390876af9dabd2666426664999b2666926669dabd4b348)
  (.lf 0)) (.nd (.lf
  0x4d95df9ea7e824333b5f9ea4f15c7e7a9f9e9333a4333a4cceb333a9333a9f9e94f1584d959f9e97e820333adf9e94a8d87e7a5f9e83339833398cce83339d333a1f9e84a8d44d955f9e87e81c3339df9e84f1547e7a1f9e73338c3338ccce53339133391f9e74f15033395f9e74a8d04d951f9e77e8187e79df9e63338033380cce23338533389f9e64a8cc33385f9e64f14c4d94df9e67e8147e799f9e53337433374ccdf333793337df9e54a8c833379f9e54f1484d949f9e57e8104d9452a314f1447e7952a314f1454f145299b065007e8112a324f1484f149299c065047e8152a334f14c4f14d299d065087e8192a344f1504f151299e0650c7e81d2a354f1544f155299f065107e8212a364f1584f15929a0065147e8252a374f15c4f15d29a1065187e8292a384f1604f16129a20651c7e82d2a394f1644f16529a3065207e8312a3a4f1684f16929a4065247e8352a3b4f16c4f16d29a5065287e8392a3c4f1704f17129a60652c7e83d2a3d4f1744f17529a7065307e8412a3e4f1784f17929a8065347e8452a3f4f17c4f17d29a9065387e8492a404f1804f18129aa0653c7e84d2a414f1844f18529ab065407e8512a424f1884f18929ac06544)
  (.lf 0))) (.nd (.nd (.lf
  0x5297dce5c739ec20e05ce63569987398dce6220df420df4837f20df920df9ce625699452995ce6273a0420dfdce625499473989ce6120de820de8837c20ded20dedce615699052991ce6173a0020df1ce615499073985ce6020ddc20ddc837920de15298dce60739fc20de1ce605698c20de5ce605498c73981ce5f20dd020dd0837620dd520dd9ce5f5498820dd5ce5f5698852989ce5f739f87397dce5e20dc420dc4837320dc920dc9ce5e5698452985ce5e739f420dcdce5e5498473979ce5d20db820db8837020dbd20dbdce5d5698052981ce5d739f020dc1ce5d5498073975ce5c20dac20dac836d20db120db1ce5c5697c20db5ce5c5497c73971ce5b20da020da0836a20da520da5ce5b5697852979ce5b739e820da9ce5b549787396dce5a20d9420d94836720d9920d9dce5a5497452975ce5a739e420d99ce5a5697473969ce5920d8820d88836420d8d20d8dce595697020d91ce595497052971ce59739e073965ce5820d7c20d7c836120d8120d85ce585496c5296dce58739dc20d81ce585696c73961ce5720d7020d70835e20d7520d75ce575696873a315270569c073a29526e569b8739fd52635698c52969ce57739d8739d9525a56968)
  (.lf 0)) (.nd (.lf
  0x64ae992b90896408964225b089690896992b957bec0896d92b951bec64ae592b8089580895822580895d0895d92b857be84375c034800ca043760034900ca414ef5b39e55c0064b75470057c0051c01b39e6cef414ef9b39e53c006ce79b39d14ee414ee453bb14ee914ee9b39d55bfc14eedb39d53bfc64b7146ff57bfc51bfdb39d6cef06ce75b39c14ed814ed853b814edd14eddb39c55bf864b6d46fe57bf851bf9b39c6ceec14ee1b39c53bf86ce71b39b14ecc14ecc53b514ed114ed5b39b53bf414ed1b39b55bf464b6946fd57bf451bf5b39b6cee86ce6db39a14ec014ec053b214ec514ec9b39a53bf014ec5b39a55bf064b6546fc57bf051bf1b39a6cee46ce69b39914eb414eb453af14eb914eb9b39955bec64b6146fb57bec51bedb3996cee014ebdb39953bec6ce65b39814ea814ea853ac14ead14eadb39855be853b68036943860438610e384396143960036900ca414eb1b39853be800ca592b864b5c64b5d46fa57be80896192b851be851be9b3986cedc6ce61b39714e9c14e9c53a914ea114ea1b39755be414ea5b39753be453b6403684385c4385d0e374395d4395c036800ca000ca192b764b5864b5946f957be464ae192b70894c)
  (.lf 0)))

def shaGateTree28 : BTree :=
  .nd (.nd (.nd (.lf
  0x5573c11de48b345574011df48b3848abd22cf48bbd48ac122d048bc148ac522d148bc548ac922d248bc948acd22d348bcd48ad122d448bd148ad522d548bd548ad922d648bd948add22d748bdd48ae122d848be148ae522d948be548ae922da48be948aed22db48bed48af122dc48bf148af522dd48bf548af922de48bf948afd22df48bfd48b0122e048c0148b0522e148c0548b0922e248c0948b0d22e348c0d48b1122e448c1148b1522e548c1548b1922e648c1948b1d22e748c1d48b2122e848c2148b2522e948c2548b2922ea48c2948b2d22eb48c2d48b3122ec48c3148b3522ed48c3548b3922ee48c3948bbc11c00460048bc011c10460448bc411c20460848bc811c30460c48bcc11c40461048bd011c50461448bd411c60461848bd811c70461c48bdc11c80462048be011c90462448be411ca0462848be811cb0462c48bec11cc0463048bf011cd0463448bf411ce0463848bf811cf0463c48bfc11d00464048c0011d10464448c0411d20464848c0811d30464c48c0c11d40465048c1011d50465448c1411d60465848c1811d70465c48c1c11d80466048c2011d90466448c2411da0466848c2811db0466c48c2c11dc0467048c3011dd04674)
  (.lf 0)) (.nd (.lf
  0x4f6812aea068ac8055d2b814f6844f6852aeb068b0805612b824f6884f6892aec068b4805652b834f68c4f68d2aed068b8805692b844f6904f6912aee068bc8056d2b854f6944f6952aef068c0805712b864f6984f6992af0068c4068712ae44ab88068752ae54ab8c068792ae64ab900687d2ae74ab94068812ae84ab98068852ae94ab9c068892aea4aba00688d2aeb4aba4068912aec4aba8068952aed4abac068992aee4abb00689d2aef4abb4068a12af04abb8068a52ad14abbc068a92ad24abc0068ad2ad34ab44068b12ad44ab48068b52ad54ab4c068b92ad64ab50068bd2ad74ab54068c12ad84ab58068c52ad94ab5c805752b874f69c4f69d2ada4ab60805792b884f6a04f6a12adb4ab648057d2b894f6a44f6a52adc4ab68805812b8a4f6a84f6a92add4ab6c805852b8b4f6ac4f6ad2ade4ab70805892b8c4f6b04f6b12adf4ab748058d2b8d4f6b44f6b52ae04ab78805912b8e4f6b84f6b92ae14ab7c805952b8f4f6bc4f6bd2ae24ab80805992b904f6c04f6c12ae34ab843c33c09ab026983c3a409a5026803c3a809a6026843c3ac09a7026883c3b009a80268c3c3b409a9026903c3b809aa026943ef5809c70269c3ef5c09c8026a0)
  (.lf 0))) (.nd (.nd (.lf
  0x25c8897635ae2c58edc976325dd425dd400005ae2e5ae2dd98c766ac766ad737c5edf05cdf1d9ca767a4767a40e264b2dc4b2de0d0c834ac834ad33b74e6dc4e6de0d888369c836220d873a58c3a58ce9653a5913a5960d87001143a5920d874fed83a2d20d0c4cedc834320d0b3a2bc3a2bce8b13a2c13a2c20d0b4e6d8360b601aa50edc806aa01a9360a4360a4d82b360a9360ae01a94b2d84c6da01a980720807212cb650ed80f41da51d52edc02e95a51c694ec694ed4bb658ed869475a51c0f4080f4083d040f40d0f40da51c58ed825fb5d9ca0389876729d9c925fa025fa097ea25fa525fa5d9c94b2d825e49d98c5edf076631d98b25e3825e38979025e3d25e41d98b5cdec25c8c000025d8e25d8c976225c7825c78972025c7d25c7c97625ae2858ed8976225dd025dd000005ae2a5ae29d98b766a8766a9737b5edec5cdedd9c9767a0767a00e254b2d84b2da0d0b834a8834a933b64e6d84e6da0d87836988361e0d863a5803a580e9623a5853a58a0d86001103a5860d864fed43a2c60d0b4ced88342e0d0a3a2b03a2b0e8ae3a2b53a2b60d0a4e6d4360aa01a950ed8806a601a83609836098d8283609d360a201a84b2d44c6d601a88071c)
  (.lf 0)) (.nd (.lf
  0x4fb92ac84aaf404fbd2ac94aaf804fc12aca4aafc04fc52acb4ab0004fc92acc4ab0404fcd2acd4ab0804fd12ace4ab0c04fd52acf4ab1004fd92ad04ab1404fdd2ab14ab1804fe12ab24ab1c04fe52ab34ab2004fe92ab44ab2404fed2ab54ab2804ff12ab64ab2c04ff52ab74ab3004ff92ab84ab3404ffd2ab94ab38050012aba4ab3c050052abb4ab40050092abc4aac40500d2abd4aac8050112abe4aacc050152abf4aad07dbe92aee507b8507b92ac04aad47dbed2aef507bc507bd2ac14aad87dbf12af0507c0507c12ac24aadc51fc1ba8f6eab86ea3dba8e181e0181e0607a181e5181e9ba8e53fbc181e5ba8e55fbc51fbdba8e6eab46ea39ba8d181d4181d46077181d9181d9ba8d55fb851fb9ba8d6eab0181ddba8d53fb86ea35ba8c181c8181c86074181cd181d1ba8c53fb4181cdba8c55fb451fb5ba8c6eaac6ea31ba8b181bc181bc6071181c1181c5ba8b53fb0181c1ba8b55fb051fb1ba8b6eaa86ea2dba8a181b0181b0606e181b5181b9ba8a53fac181b5ba8a55fac51fadba8a6eaa46ea29ba89181a4181a4606b181a9181adba8953fa8181a9ba8955fa851fa9ba896eaa06ea25ba88181981819860681819d181a1ba8853fa4)
  (.lf 0)))

def shaGateTree29 : BTree :=
  .nd (.nd (.nd (.lf
  0x28810a21f5b15c59224a21f288bc288bc00005b15e5b15ddf8d77eb077eb1744e5f1385f139e009780a078025e00828ca828ca8a32c28cad28cb1e0086113428cade00863134289eddf8d5d13877e35df8c289d8289d8a278289dd289dddf8c5f1342881400002887e2887ca21e2880028800a2022880528804a21e5b15859220a21e288b8288b800005b15a5b159df8c77eac77ead744d5f1345f135e0087809c78021e00728c9c28c9ca32928ca128ca5e0076113028ca1e00763130289e1df8c5d13477e31df8b289cc289cca275289d1289d1df8b5f1302880800002887a28878a21d287f4287f4a1ff287f9287f8a21d5b1545921ca21d288b4288b400005b1565b155df8b77ea877ea9744c5f1305f131e007780987801de00628c9028c90a32628c9528c99e0066112c28c95e0066312c289d5df8b5d13077e2ddf8a289c0289c0a272289c5289c5df8a5f12c287fc00002887628874a1fc287ec287eca1fc5921959218a1fc5b1505b151df8a77ea477ea5744b5f12c5f12de0067809478019e00528c8428c84a32328c8928c8de0056112828c89e00563128289c9df8a5d12c77e29df89289b4289b4a26f289b9289b9df895f128287f0a21c287e0)
  (.lf 0)) (.nd (.lf
  0x3e8a808fb0236c3e8ac08fc0237060244091b3e92860248091c3e92c3e92808db3e9a93e92c08dc3e9ad1b1a1c179542e8705e5c1781b18c1b18c6c651b1911b195c178542e4522e5c1787065c1b191c178562e4705e1c1771b1801b1806c621b1851b185c177562e01b189c177542e0522e1c17770658705ddc1761b1741b1746c5f1b179522ddc176706547065550b7562dc1b179c176562dc562dc06dc41c547067950c0563005630006c541c78706a550cb5632c5632c06d041ca441c7806dc01b4441ca406c701b70706ad50cd5633444e2c06fc01b7054334071c44f2c44f2d13eb4502d4502c071c01b7001b719a0f668b8668b948ed583b40b4899a11583bc7065950b8562e0562e006dd41c587065d50b9562e4562e406de41c5c7067d50c1563045630406c641c7c7068150c2563085630806c741c80706a950cc563305633006d141ca85633406d241cac41c7c06dd01b4841c8006de01b4c41ca806c801b7441cac06c901b78706b550cf5633c44e3406fe01b785433c071e44f3444f3513ed4503545034071e01b7801b799a11668c0668459a100b4780b4782d200b47d0b4819a10523b80b47d9a10583b844e3006fd01b7454338071d44f30)
  (.lf 0))) (.nd (.nd (.lf
  0x21b59d05156a5c52a5dd051741c074145d05021b4821b4886d421b4d21b51d05054a5821b4dd05056a5874141d04f21b3c21b3c86d121b4121b45d04f54a5421b41d04f56a5452a55d04f741b87413dd04e21b3021b3086ce21b3521b39d04e54a5021b35d04e56a5052a51d04e741b474139d04d21b2421b2486cb21b2921b2dd04d54a4c21b29d04d56a4c52a4dd04d741b074135d04c21b1821b1886c821b1d21b21d04c54a4821b1dd04c56a4852a49d04c741ac74131529156a45741ad529256a48741c1529756a5c56a5c0abc423d4741c5529856a6056a600abd423d8741c9529956a6456a640abe423dc741cd529a56a6856a680abf423e0741e552a056a8056a800aa5423f8741e952a156a8456a840aa6423fc741ed52a256a8856a880aa742400741f152a356a8c56a8c0aa8424047421152ab56aac56aac0ab0424247421552ac56ab056ab00ab1424287421952ad56ab456ab40ab24242c7421d52ae56ab856ab80ab342430423f80abc02ac4423fc0abd02ac8424000abe02acc424040abf02ad0424240aa702af0424280aa802af44242c0aa902af8424300aaa02afc464ac0adc02af0464b00add02af4464b40ade02af8464b80adf02afc)
  (.lf 0)) (.nd (.lf
  0x16259b6455fbe06d915b644162441624458931624916249b64461bdc61bdc055a3b9c06d9c57f0561c1461c1405483b9f83b9f8055a015546d9f17f1061c405fc40059a3dd243dd24055a3dda53dca4057a015680156993ff65078650795f6b01068092a9943e51db0650f9943d092940929424a70929909299943d57dac6d7014f4955d2455d24038e4169c4169c038500e6815ca1b58e53cd86d639b58d15c8c15c8c572515c9151cd5b58d6d6b00913d94000106c6d6d54f3e55cf86d6b14f3555cd415c91b58d55cd455cd4039a4164c55cf803834167041670039a00e3c53d2c03da43d2443d250f6943e2543e2403da00e6843c2403ba00e6800e69943d651706500193ff0912c0912c244d091310913593ff57dac65171476b57dac57dac598659d801661859841660c1660c598457da90929d943d51dac650f5943c092880928824a40928d0928d943c57da808d35936a00f84144c5b21349ec86d9c17f0461c101624db6445fbdc5b9d8052049ec415f7db5c85bbdc43a3c038000d8008ea193a851cc83db3c0540014805fb5805603dbbc3dbbc05203dc3d6c84c052049ec5014815f3100f8053c4403a043b3c43b3d0eef43c3d43c3c03a000d80)
  (.lf 0)))

def shaGateTree30 : BTree :=
  .nd (.nd (.nd (.lf
  0x2aaa5e4365749453495e43679154790d9e4352aa942aa94aaa72aa992aa9de435554902aa99e4355749053491e43579150790d5e4342aa882aa88aaa42aa8d2aa91e4345548c2aa8de4345748c5348de4347914c790d1e4332aa7c2aa7caaa12aa812aa85e433554882aa81e4335748853489e43379148790cde4322aa702aa70aa9e2aa752aa79e432554842aa75e4325748453485e43279144790c9e4312aa642aa64aa9b2aa692aa6de431554802aa69e4315748053481e43179140790c5e4302aa582aa58aa982aa5d2aa61e4305547c2aa5de4305747c5347de4307913c790c1e42f2aa4c2aa4caa952aa512aa55e42f554782aa51e42f5747853479e42f79138790bde42e2aa402aa40aa922aa452aa49e42e554742aa45e42e5747453475e42e79134790b9e42d2aa342aa34aa8f2aa392aa3de42d554702aa39e42d5747053471e42d79130790b5e42c2aa282aa28aa8c2aa2d2aa31e42c5546c2aa2de42c5746c5346de42c7912c790b1e42b2aa1c2aa1caa892aa212aa25e42b554682aa21e42b5746853469e42b79128790ade42a2aa102aa10aa862aa152aa19e42a554642aa15e42a5746453465e42a79124790a9e4292aa042aa04aa832aa09)
  (.lf 0)) (.nd (.lf
  0x7fa1dfe8634e8034e80d3a234e8534e89fe864c4e44a8e5fe867fa947fa9531394dce44c4e5fec47fb8c7fb11fec334fdc34fdcd3f934fe134fe5fec34b0e034fe1fec350ce034e85fe864dce47fa19fe8534e7434e74d39f34e7934e7dfe854c4e04a8e1fe857fa907fa9131384dce04c4e1fec37fb887fb0dfec234fd034fd0d3f634fd534fd9fec24b0dc34fd5fec250cdc34e79fe854dce07fa15fe8434e6834e68d39c34e6d34e71fe844c4dc4a8ddfe847fa8c7fa8d31374dcdc4c4ddfec27fb847fb09fec134fc434fc4d3f334fc934fcdfec14b0d834fc9fec150cd834e6dfe844dcdc7fa11fe8334e5c34e5cd39934e6134e65fe834c4d84a8d9fe837fa887fa8931364dcd84c4d9fec17fb807fb05fec034fb834fb8d3f034fbd34fc1fec04b0d434fbdfec050cd434e61fe834dcd87fa0dfe8234e5034e50d39634e5534e59fe824c4d44a8d5fe827fa847fa8531354dcd44c4d5fec07fb7c7fb01febf34fac34facd3ed34fb134fb5febf4b0d034fb1febf50cd034e55fe824dcd47fa09fe8134e4434e44d39334e4934e4dfe814c4d04a8d1fe817fa807fa8131344dcd04c4d1febf7fb787fafdfebe34fa034fa0d3ea34fa534fa9febe4b0cc)
  (.lf 0))) (.nd (.nd (.lf
  0x2ce9a34168d800e9cda34152d2c68d05a3400e9b80e9b83a700e9bd0e9c1a34052d280e9bda34058d2875161531456c5056c500b39425c875185531d56c7456c740b22425ec425ec0b3902cb8426180b2402ce446aa00b5902ce454ca80b7946ba046ba11b0846ca146ca00b7902ce402ce5a34068d7c68d01a33f0e9ac0e9ac3a6d0e9b10e9b5a33f52d2475159531256c4856c480b37425c07515d531356c4c56c4c0b38425c47517d531b56c6c56c6c0b20425e456c900b2942608751a5532556c9456c940b2a4260c751a9532656c9856c980b2b42610751ad532756c9c56c9c0b2c4261456cbc0b344263456cc00b3542638425d80b3402ca4425dc0b3502ca8425e00b3602cac425e40b3702cb0426080b2002cd44260c0b2102cd8426100b2202cdc426140b2302ce046a8c0b5402cd046a900b5502cd446a940b5602cd846a980b5702cdc46a9c0b5802ce054c940b7446b8c54c980b7546b9054c9c0b7646b9454ca00b7746b9854ca40b7846b9c46b8d1b0346c8d46b911b0446c9146b951b0546c9546b991b0646c9946b9d1b0746c9d46c8c0b7402cd046c900b7502cd446c940b7602cd846c980b7702cdc46c9c0b7802ce00e9b1a33f58d24)
  (.lf 0)) (.nd (.lf
  0x43e790fbe43f7943f7803ef00ebc00ebd94ae65334094e994ae51e00652b994ad094d4094d42537094d9094d994ad57dfc094dd94ad51dfc652b594ac094c8416bc03ad00e8843d7003cd00eb453d7803ed43e7043e710fbc43f7143f7003ed00eb400eb594ac6532c094c82534094cd094d194ac51df8094cd94ac57df8652b194ab094bc094bc2531094c1094c594ab51df4094c194ab57df44173803ac00e8443d6c03cc00eb053d7403ec43e6c43e6d0fbb43f6d43f6c03ec00eb000eb194ab65328652ad94aa094b0094b0252e094b5094b994aa51df04173403ab00e8043d6803cb00eac53d7003eb43e6843e690fba43f6943f6803eb00eac00ead94aa65324094b594aa57df0652a994a9094a4094a4252b094a9094a994a957dec094ad94a951dec43d6403ca00ea853d6c03ea43e6443e650fb943f6543f6403ea00ea800ea994a965320652a594a8094980949825280949d094a194a851de843d6003c900ea453d6803e943e6043e610fb843f6143f6003e900ea400ea594a86531c0949d94a857de8652a194a70948c0948c2525094910949594a751de40949194a757de443d5c03c800ea053d6403e843e5c43e5d0fb743f5d43f5c03e800ea0)
  (.lf 0)))

def shaGateTree31 : BTree :=
  .nd (.nd (.nd (.lf
  0x5190401d3048408417001f1519085190801d4048448417401f25190c5190c01d5048488417801f3519105191001d60484c8417c01f4519145191401d7048508418001f5519185191801d8048548418401f65191c5191c01d9048588418801f7519205192001da0485c8418c01f8519245192401db048608419001f9519285192801dc048648419401fa5192c5192c01dd048688419801fb519305193001de0486c8419c01fc519345193401df048700480001d20071c0480401d3007200480801d4007240480c01d5007280481001d60072c0481401d7007300481801d8007340481c01d9007380482001da0073c0482401db007400482801dc007440482c01dd007480483001de0074c0483401df007500483801c0007540483c01c1007580484001c20075c0484401c3007600484801c4007640484c01c5007680485001c60076c0485401c7007700485801c8007740485c01c9007780486001ca0077c0486401cb007000486801cc007040486c01cd007080487001ce0070c841a001fd519385193801cf00710841a401fe5193c5193c01d000714841a801ff519405194001d1007184e9418e346394c638d18e3304a2804a28128c04a2d04a2d8e335013c)
  (.lf 0)) (.nd (.lf
  0x5a125beba6fb646fae9beb919fc019fc067f219fc519fc9beb95c08c19fc5beb95e08c19f1400005a1225a121beb96fb606fae5beb819fb419fb467ef19fb95a11dbeb86fb5c19fbdbeb85c08819fb9beb85e0886fae1beb719fa819fa867ec19fad19fb1beb75c08419fadbeb75e0845a119beb76fb586faddbeb619f9c19f9c67e919fa119fa1beb65e0805a111beb56fb505a115beb66fb5419fa5beb65c0806fad9beb519f9019f9067e619f9519f95beb55e07c19f99beb55c07c6fad5beb419f8419f8467e319f8919f8dbeb45c0785a10dbeb46fb4c19f89beb45e0786fad1beb319f7819f7867e019f7d19f7dbeb35e0743e45806670191c5fff408873e4d83e4d806473e5590a6d997cd01b2065f3597cc0a6c80191d97cc65fac65fad605801b1c660a54858581600a6c829b40a6cd0a6d197cc581605816067845a10819f81beb35c0745a109beb36fb486facdbeb219f6c19f6c67dd19f713e4540666019185fff008863e4d43e4d406463e55519f75beb25c07019e1067ba19e0019e00678219e050a6cd97cc01b1c65f3197cb0a6bc0a6bc29b10a6c10a6c597cb5815c0191997cb65fa865fa9605701b18660a148575815c5815c67ba19f10)
  (.lf 0))) (.nd (.nd (.lf
  0x3c5d40a51029303c5d80a52029343c5dc0a53029383c5e00a540293c3c5e40a55029403c5e80a56029443c5ec0a57029483c5f00a580294c3c5f40a59029503c5f80a5a029543c5fc0a5b029583c6000a5c0295c3c6040a5d029603c6080a5e029643c60c0a5f029683c6100a400296c3c6140a41029703c6180a42029743c61c0a43029783c6200a440297c3c6240a45029003c6280a46029043c62c0a47029083c6300a480290c3c6340a49029103c6380a4a02914528edcd51735c02068081a22068520689cd51548ec20685cd51568ec73545cd502067420674819f206792067dcd50548e8528e1cd4e735b4528e9cd50735bc20679cd50568e873541cd4f2066820668819c2066d2066dcd4f568e420671cd4f548e4528e5cd4f735b87353dcd4e2065c2065c81992066120661cd4e568e020665cd4e548e073539cd4d206502065081962065520655cd4d568dc20659cd4d548dc528ddcd4d735b073535cd4c20644206448193206492064dcd4c548d820649cd4c568d8528d9cd4c735ac73531cd4b206382063881902063d2063dcd4b568d4735f152475691c3f4480a630290c3f44c0a64029103f4500a65029143f4540a66029183f4580a670291c)
  (.lf 0)) (.nd (.lf
  0x13f0c4fc513f1113f11b14561960619612d6c3b7446c5c97e6661998619992d5a3b77c3b77d2d6c4b59c0832d919400dec5f9c404fb3d8283d7a804db4b5b0619ad2d5f3b7903d8292d6c3d8a93b7912d514b5b04b5b19194646cc08331919457b306465191930831c0831c20c90832108325919357b2c13f15b1455f9606c515b14413f0013c45b0c95b9606c325b0c813c3013c304f0e13c3513ab1668d13aa413aa55e9113aa913aa9668d59a3859a39b0c86c39c3d7a404da4b5ac6c39d6e575d95c08321919300de813f004fc213f0513c35b0c85d95c5d95db1446c58c6c58d7e576195c13f05b1446195c63a312d6b008686195d2d6b3b7404b5ad9193646c86464d919208310076b58f8a00a845f8d804c03d6bc3d6bd2d713d73d63a492d7100881847052d71008803d63d2d514b5c44b5c55e9100d00432bd2dd14b7c4539c40300433bc433bd0d0f434bd434bc03004b7c4849052df100a8063e292df100a814b7c5469157a4408091913c51a48644f1469157a4507f2590fe00d04643f95e9100d0157a44000059a3659a356e565d9586c5c17e6461990619912d583b7743b7752d6a4b59413f09b1445f95c6c5117e56619590831020c608315)
  (.lf 0)))

def shaGateTree32 : BTree :=
  .nd (.nd (.nd (.lf
  0x8465c02760065884658027500654846540274006508465002730064c8464c027200648846480271006448464402700064084640026f0063c8463c026e0063884638026d0063484634026c0063084630026b0062c8462c026a0062884628026900624846240268006208462002670061c8461c02660061884618026500614846140264006108461002630060c8460c026200608846080261006045d6580260006008458c0260006015d855ed6b7b6287b5aded6a2ebb02ebb0baee2ebb52ebb9ed6a008782ebb5ed6a007f85d851ed6a7b6247b5a9ed692eba42eba4baeb2eba92ebaded69008742eba9ed69007f45d84ded697b6207b5a5ed682eb982eb98bae82eb9d2eba1ed68008702eb9ded68007f05d849ed687b61c7b5a1ed672eb8c2eb8cbae52eb912eb95ed670086c2eb91ed67007ec5d845ed677b6187b59ded662eb802eb80bae22eb852eb89ed66008682eb85ed66007e85d841ed667b6147b599ed652eb742eb74badf2eb792eb7ded65008642eb79ed65007e45d83ded657b6107b595ed642eb682eb68badc2eb6d2eb71ed64008602eb6ded64007e05d839ed647b60c7b591ed632eb5c2eb5cbad92eb612eb65ed630085c2eb61ed63007dc)
  (.lf
  0x138edb063619385d939b0636c2086c18db062138dc138dc4e39138e1138e5b0625f934138e1b062619346c0156e4d5d9345d935b0626c2046c189b061138d0138d04e36138d56c0116e4c5d9305d931b0616c200138d5b06161930138d9b0615f9306c185b060138c4138c44e33138c9138c9b0606192c6c00d6e4b5d92c5d92db0606c1fc138cdb0605f92c6c181b05f138b8138b84e30138bd6c0056e495d9245d925b05e6c1f46c0096e4a5d9285d929b05f6c1f8138c1b05f5f928138bdb05f619286c17db05e138ac138ac4e2d138b1138b1b05e61924138b5b05e5f9246c179b05d138a0138a04e2a138a5847798eae63b3463b352d8e008f4134c00000599d2599d1afd66bfd43d69d2d694b624134bc0000599ce13599afdc5d90c6bf71afdb13588599e5afdb6bfe8135884d641358d1358dafdb5d90813591afdb5b9086bf6dafda1357c1357c4d611358113581afda5d90413585afda5b904599e1afda6bfe46bf69afd913570135704d5e1357513579afd95b90013575afd95d900599ddafd96bfe06bf65afd813564134c80000599da135644d5b1356913569afd85d8fc1356dafd85b8fc599d9afd86bfdc6bf61afd713558135584d581355d))
  (.nd (.lf
  0x45f9d18074609d46070086d020b446074086e020b846078086f020bc4607c0870020c0460800871020c4460840872020c8460880873020cc4608c0874020d0460900875020d4460940876020d8460980877020dc4609c0878020e0020d59f5c67dec0d33d9f605892867d819f5f0d32c0d32c34cd0d3310d3359f5f529240d3319f5f58924020e19f5f67df867d7d9f5e0d3200d32034ca0d3250d3299f5e529200d3259f5e58920020dd9f5e67df467d799f5d0d314020d99f5d67df00d31434c70d3190d3199f5d5891c0d31d9f5d5291c67d759f5c0d3080d30834c40d30d0d3119f5c529180d30d9f5c5891867d719f5b0d2fc0d2fc34c10d3010d3019f5b589140d3059f5b52914020d19f5b67de867d6d9f5a0d2f00d2f034be0d2f50d2f59f5a589100d2f99f5a52910020cd9f5a67de467d699f590d2e40d2e434bb0d2e90d2e99f595890c0d2ed9f595290c020c99f5967de067d659f580d2d80d2d834b80d2dd0d2e19f58529080d2dd9f5858908020c59f5867ddc67d619f570d2cc0d2cc34b50d2d10d2d19f57589040d2d59f5752904020c19f5767dd867d5d9f560d2c00d2c034b20d2c50d2c59f56589000d2c99f5652900020bd9f5667dd4)
  (.lf 0))) (.nd (.nd (.lf
  0x38b5a6d669bd469b59a6d50fe340fe343f8f0fe390fe3da6d5590f40fe39a6d5041b0038b1a6d569bd069b55a6d40fe280fe283f8c0fe2d0fe31a6d4590f00fe2da6d4041ac038ada6d469bcc69b51a6d30fe1c0fe1c3f890fe210fe25a6d3590ec0fe21a6d3041a8038a9a6d369bc869b4da6d20fe100fe103f860fe150fe19a6d2590e80fe15a6d2041a4038a5a6d269bc469b49a6d10fe040fe043f830fe090fe0da6d1590e40fe09a6d1041a0038a1a6d169bc069b45a6d00fdf80fdf83f800fdfd0fe01a6d0590e00fdfda6d00419c0389da6d069bbc69b41a6cf0fdec0fdec3f7d0fdf10fdf5a6cf590dc0fdf1a6cf0419803899a6cf69bb869b3da6ce0fde00fde03f7a0fde50fde9a6ce590d80fde5a6ce0419403895a6ce69bb469b39a6cd0fdd40fdd43f770fdd90fddda6cd590d40fdd9a6cd0419003891a6cd69bb069b35a6cc0fdc80fdc83f740fdcd0fdd1a6cc590d00fdcda6cc0418c0388da6cc69bac4b1c20af782c5882c5933704e5c04e5c20b7382e4882e492d504fdc04c94204ab81328813292d505114069d154c505914069c1d6450041fc59141dd7527a9027a9000005b0825b081dd94776cc776cd74155f0545d055ddd2777c4)
  (.lf 0)) (.nd (.lf
  0x32e01f8f04acd432dfdf8f0508d47e3c1f8ef32dec32deccb7d32df132df5f8ef4acd07e34130344d8d04c0d1f8ef7e43832df1f8ef508d07e3bdf8ee32de032de0cb7a32de532de9f8ee4accc7e33d30334d8cc4c0cdf8ee7e43432de5f8ee508cc7e3b9f8ed32dd432dd4cb7732dd932dddf8ed4acc87e33930324d8c84c0c9f8ed7e43032dd9f8ed508c87e3b52b31508c5508c52b14051007e4312b32508c8508c92b15051047e4352b33508cc508cd2b16051087e4392b34508d0508d12b170510c7e43d2b35508d4508d52b18051107e4412b36508d8508d92b19051147e4452b37508dc508dd2b1a051187e4492b38508e0508e12b1b0511c7e44d2b39508e4508e52b1c051207e4512b3a508e8508e92b1d051247e4552b3b508ec508ed2b1e051287e4592b3c508f0508f12b1f0512c7e45d2b3d508f4508f52b20051307e4612b3e508f8508f92b21051347e4652b3f508fc508fd2b22051387e4692b4050900509012b230513c7e46d2b4150904509052b24051407e4712b4250908509092b25051447e4752b435090c5090d2b26051487e4792b4450910509112b270514c7e47d2b4550914509152b28051507e4812b4650918509192b2905154)
  (.lf 0)))

def shaGateTree33 : BTree :=
  .nd (.nd (.nd (.lf
  0x78cd9e3352a3142a314a8c72a3192a31de335553f02a319e335573f0533f1e33578d5078cd5e3342a3082a308a8c42a30d2a311e334553ec2a30de334573ec533ede33478d4c78cd1e3332a2fc2a2fca8c12a3012a305e333553e82a301e333573e8533e9e33378d4878ccde3322a2f02a2f0a8be2a2f52a2f9e332553e42a2f5e332573e4533e5e33278d4478cc9e3312a2e42a2e4a8bb2a2e92a2ede331553e02a2e9e331573e0533e1e33178d4078cc5e3302a2d82a2d8a8b82a2dd2a2e1e330553dc2a2dde330573dc533dde33078d3c78cc1e32f2a2cc2a2cca8b52a2d12a2d5e32f553d82a2d1e32f573d8533d9e32f78d3878cbde32e2a2c02a2c0a8b22a2c52a2c9e32e553d42a2c5e32e573d4533d5e32e78d3478cb9e32d2a2b42a2b4a8af2a2b92a2bde32d553d02a2b9e32d573d0533d1e32d78d3078cb5e32c2a2a82a2a8a8ac2a2ad2a2b1e32c553cc2a2ade32c573cc533cde32c78d2c78cb1e32b2a29c2a29ca8a92a2a12a2a5e32b553c82a2a1e32b573c8533c9e32b78d28533c554f1573c478cad54f1573c5573c410d642d3c78d2954f2573c8573c810d742d4078d2d54f3573cc573cc10d842d4478d3154f4573d0573d010d942d48)
  (.lf 0)) (.nd (.lf
  0x1cca1c52b623885e389c52b71528714adc52a1cc901cc9073261cc951cc99c52a603841cc95c52a623845e385c52a71524714a9c5291cc841cc8473231cc891cc8dc529603801cc89c529623805e381c52971520714a5c5281cc781cc7873201cc7d1cc81c5286037c1cc7dc5286237c5e37dc5287151c714a1c5271cc6c1cc6c731d1cc711cc75c527603781cc71c527623785e379c527715187149dc5261cc601cc60731a1cc651cc69c526603741cc65c526623745e375c5267151471499c5251cc541cc5473171cc591cc5dc525603701cc59c525623705e371c5257151071495c5241cc481cc4873141cc4d1cc51c5246036c1cc4dc5246236c5e36dc5247150c71491c5231cc3c1cc3c73111cc411cc45c523603681cc41c523623685e369c523715087148dc5221cc301cc30730e1cc351cc39c522603641cc35c522623645e365c5227150471489c5211cc241cc24730b1cc291cc2dc521603601cc29c521623605e361c5217150071485c5201cc181cc1873081cc1d1cc1dc5206235c5e35dc520714fc714fd80d76235c6235c093a3c1407150180d86236062360093b3c1447150580d96236462364093c3c1487150980da6236862368093d3c14c)
  (.lf 0))) (.nd (.nd (.lf
  0x5ac1dd49f752f8752f972f35ebcc5cbcdd4dd753f0753f00d9d4b0b84b0ba09818268082681332e4e4b84e4ba09fd82870827f609fc3918839188e4643918d3919209fc4b4343918e09fc4fcb438ece09814ccb882606098038eb838eb8e3b038ebd38ebe09804e4b468aa1632d02e7023d69d4dd0367475375d4dc23d5423d548f5723d5923d59d4dc4b0b423bfdd49f5ebcc7527dd49e23bec23bec8efd23bf123bf5d49e5cbc823a64000075206752048e9623a5423a548e9658cb558cb48e965ac185ac19d49e752f4752f572f25ebc85cbc9d4dc753ec753ec0d9c4b0b44b0b609808267c8267d332d4e4b44e4b609fc8286c827f209fb3917c3917ce461391813918609fb4b4303918209fb4fcb038ec209804ccb482602097f38eac38eace3ad38eb138eb2097f4e4b068a9d632c02e6c23d5dd4dc0367075371d4db23d4823d488f5423d4d23d4dd4db4b0b023bf1d49e5ebc875279d49d23be023be08efa23be523be9d49d5cbc423a59d48023a4823a488e9423a4d23a4dd4805ac1458cb1d48023a9c23a9c00005ac165ac15d49d752f0752f172f15ebc45cbc5d4db753e8753e80d9b4b0b04b0b2097f8267882679332c4e4b04e4b209fb82868)
  (.lf 0)) (.nd (.lf
  0x16995b71a4a1b86dbed6f335dccc5bccdb71a6dce416999b71a017746dc69b719169846dbe56f315dcc45bcc5b7186dcdc169845a631698916989b7194a1b41698db719017706dbe96f325dcc85bcc9b7196dce06dc65b71816978169785a601697d1697db7184a1b016981b7180176c6dc61b7171696c1696c5a5d1697116971b7174a1ac6dbe16f305dcc016975b717017685bcc1b7176dcd86dc5db71616960169605a5a1696516965b7164a1a816969b716017646dbdd6f2f5dcbc5bcbdb7166dcd46dc59b71516954169545a57169596dbd96f2e5dcb85bcb9b7156dcd01695db7150176016959b7154a1a46dc55b71416948169485a541694d16951b7140175c1694db7144a1a06dbd56f2d5dcb45bcb5b7146dccc6dc51b7131693c1693c5a51169416dbd16f2c5dcb05bcb1b7136dcc816945b7130175816941b7134a19c6dc4db71216930169305a4e1693516939b7120175416935b7124a1986dbcd6f2b5dcac5bcadb7126dcc46dc49b711169246dbc56f295dca4169245a4b169291692db711017506dbc96f2a5dca85bca9b7116dcc016929b7114a1946dc45b71016918169185a481691d1691db7104a1905bca5b7106dcbc16921b7100174c)
  (.lf 0)))

def shaGateTree34 : BTree :=
  .nd (.nd (.nd (.lf
  0x48a9411b6045d848a9811b7045dc48a9c11b8045e048aa011b9045e448aa411ba045e848aa811bb045ec48aac11bc045f048ab011bd045f448ab411be045f848ab811bf045fc5d455e5c07977c7977c0fbf003fc045fdacf66b4546b4554dd05974003efdacb86b35c6b35d65d0047fc59740b3d75b6545b655e9907a6bc7a6bd75955f6545f655ea0c7a8ac7a831ea0b2d3c82d3c8b4f42d3cd2d3d1ea0b616502d3cdea0b636507a641e98f2d0f82d0f8b4402d0fd2d0fde98f5f6502cf5cb3c82cf1c2cf1cb3c85973d5d451e5bf79778797780fbe003f879701e5bf2b62c2b62cad8d2b6312b635e5bf03ef803ef9acb76b3586b35965cf047f86b3d9acf51223412234488f1223912239acf55973c045f9acf56b4506b4514dcf5973c6b2e1acb7120cc120cc4835120d1120d5acb75973c5973cb3c85b6505b651e98f7a6b87a6b975945f6505f651ea0b7a8a87a82dea0a2d3bc2d3bcb4f12d3c12d3c5ea0a6164c2d3c1ea0a6364c2d101e98f5d6507a63de98e2d0ec2d0ecb43d2d0f12d0f1e98e5f64c2cf20b3d62cf102cf10b3c62cf152cf14b3d65b64c2b631e5bf003f8796fde5be2b6202b620ad8a2b6252b629e5be03ef45d44de5be79774)
  (.lf 0)) (.nd (.lf
  0x802fa00bd35b9435b94d6e735b9935b9e00bd4c6884aa8a00bd803708037131a24de884c68a00fb80468803ee00fa35cf035cf0d73e35cf535cfa00fa4b28435cf600fa50e8435b9a00bd4de88802f600bc35b8835b88d6e435b8d35b9200bc4c6844aa8600bc8036c8036d31a14de844c68600fa80464803ea00f935ce435ce4d73b35ce935cee00f94b28035cea00f950e8035b8e00bc4de84802f200bb35b7c35b7cd6e135b8135b8600bb4c6804aa8200bb803688036931a04de804c68200f980460803e600f835cd835cd8d73835cdd35ce200f84b27c35cde00f850e7c35b8200bb4de80802ee00ba35b7035b70d6de35b7535b7a00ba4c67c4aa7e00ba8036480365319f4de7c4c67e00f88045c803e200f735ccc35cccd73535cd135cd600f74b27835cd200f750e7835b7600ba4de7c802ea00b935b6435b64d6db35b6935b6e00b94c6784aa7a00b98036080361319e4de784c67a00f780458803de00f635cc035cc0d73235cc535cca00f64b27435cc600f650e7435b6a00b94de78802e600b835b5835b58d6d835b5d35b6200b84c6744aa7600b88035c8035d319d4de744c67600f680454803da00f535cb435cb4d72f35cb935cbe00f54b270)
  (.lf 0))) (.nd (.nd (.lf
  0x36cda4ec6942c0f3483cd40f34d0f351a4ec58f100f34da4ec030cc693b1a4eb0f33c0f33c3cd10f3410f345a4eb58f0c0f341a4eb030c8036c5a4ea69424036c9a4eb69428693ada4ea0f3300f3303cce0f3350f339a4ea58f080f335a4ea030c4693a9a4e90f324036c1a4e9694200f3243ccb0f3290f32da4e958f040f329a4e9030c0693a5a4e80f3180f3183cc80f31d3ff780dcf036bc60d940def3fff83fff80daf40079036bda4e86941c0f321a4e858f000f31da4e8030bc693a1a4e70f30c0f30c3cc50f3110f311a4e7030b83ff740dce036b860d900dee3fff43fff40dae40075036b9a4e7694180f315a4e758efc6939da4e60f3000f3003cc20f3050f309a4e658ef83ff700dcd036b460d8c0ded3fff03fff00dad40071036b5a4e6694140f305a4e6030b469399a4e50f2f40f2f43cbf0f2f90f2f9a4e5030b03ff6c0dcc036b060d880dec3ffec3ffec0dac4006d036b1a4e5694100f2fda4e558ef469395a4e40f2e80f2e83cbc0f2ed0f2f1a4e458ef03ff680dcb036ac60d840deb3ffe83ffe80dab40069036ada4e46940c0f2eda4e4030ac69391a4e30f2dc0f2dc3cb90f2e10f2e1a4e3030a83ff640dca036a860d800dea3ffe4)
  (.lf 0)) (.nd (.lf
  0x6e6a94fc455f1055f1004094188855f400415418b84185c041501028418880400010544421004350105453f180455443104431110e444411444100455010540105596286591c6591d47e657f983e09405f6017585fe3006163e1143e11405d63e19509c4d95ec0125c657b195eb09c3c09c3c271109c4109c4595eb57f9c09c4195eb012580175995eb65828657ad95ea09c3009c30270e09c3509c3995ea57f9809d98276809d9d09d9d962857f9857f99bab91833c6592947e957fa4182dc60b5182d0182d060b557fa5658315fe90126057fa460b559f74182d5baba182c4182c460b3182c9182c9baba59f70182cc00006eaea6eae860b0182bc182bc60b057f9d6592147e757f9c658295fe70125857f9c60b059f6c182c1bab9182b0182b060ae182b5182b800006eae6182b5bab959f686eae5bab8182a4182a460ab182a909da1962851f98658a1962709d8c09d8c276509d9109d91962757f946e9697f7f61dfc61dfc05c23bbe061e4405d43bc283bbe005d40173c55f3c0414418b4418580414010244420c04340105053f1404544430c4430d10e34440d4440c045401050010519627659186591947e557f943e08c05f4017505fe2806143e10c)
  (.lf 0)))

def shaGateTree35 : BTree :=
  .nd (.nd (.nd (.lf
  0x69eb54c5c5917069de164650425069ea54c585916069df5646a0426469eb94c5d5917469e05646e0427469df9646b0426869ddd64640424c69de964670425869dfd646c0426c69ebd4c5e5917869de564660425469ec54c605918069ecd4c625918869ec94c615918469ec14c5f5917c69dd964630424869e0d64700427c591c1de7d281882818800005b0fa5b0f9de9c77aec77aed74355f0d45f0d5df1877cdc77c61df17285b8285b8a170285bd285c1df17610d0285bddf17630d069e09646f0427877a71de9b282e8282e8a0bc282ed282edde9b5f0d0779f5de7c2814028140a0522814528145de7c5b0f4591bdde7c281842818400005b0f65b0f5de9b77ae877ae974345f0d05f0d1df1777cd877c5ddf16285ac285aca16d285b1285b5df16610cc285b1df16630cc282f1de9b5d0d077a6dde9a282dc282dca0b9282e1282e1de9a5f0cc281480000779f2779f0a04f2813828138a04f591b9591b8a04f5b0f05b0f1de9a77ae477ae574335f0cc5f0cddf1677cd477c59df15285a0285a0a16a285a5285a9df15610c8285a5df15630c8282e5de9a5d0cc77a69de99282d0282d0a0b6282d5282d5de995f0c82813ca04d2813028130a04d591b5)
  (.lf 0)) (.nd (.lf
  0x1b4e5c1d05e22c1b4e9c1d05c22c5a2b9c1d0707bc70741c1cf1b4d41b4d46d371b4d91b4d9c1cf5e2281b4ddc1cf5c2281b3d800005a2b65a2b5c1cf707b87073dc1ce1b4c81b4c86d341b4cd1b4d1c1ce5c2245a2b1c1ce707b41b4cdc1ce5e22470739c1cd1b4bc1b34c6cd11b3401b3406cd15830d666a148c35830c665a960c301cc85830c6cd15a2ac1b4bc6d311b4c11b4c5c1cd5c2205a2adc1cd707b01b4c1c1cd5e22070735c1cc1b4b01b4b06d2e1b4b51b345c1b51b3341b3346ccf1b3391b339c1b55a2a86669948c158304665a560c201cc46669d48c25830858309c1b51b3d41b33c0000706d6706d46ccc1b32c1b32c6ccc58305665a160c101cc0583046ccc5a2a46669548c0583001b331c1b41b3201b3206cca1b3251b325c1b45a2a06659d60c001cbc58301c1b41b3d01b4b5c1cc5e21c1b3d400005a2aa5a2a9c1cc707ac1b4b9c1cc5c21c70731c1cb1b4a41b4a46d2b1b4a91b4a9c1cb5e2185a2a5c1cb707a81b4adc1cb5c2187072dc1ca1b4981b4986d281b49d1b4a1c1ca5c2141b49dc1ca5e2141b3d000005a2a25a2a1c1ca707a470729c1c91b48c1b48c6d251b4911b495c1c95c2101b491c1c95e2106668948bd582f4)
  (.lf 0))) (.nd (.nd (.lf
  0x3241a08d682b068235a08c0d9c80d9c836740d9cd0d9d1a08c58a800323da08c682ac423480a9002a14462fc0ab002a4054a040ad0463fc463fd191f464fd464fc0ad002a400db51a0cc52a8868331a0cb0db3c0db3c36d10db410db45a0cb52a840db41a0cb58a84682ad62a002c3c02a41a0cb683a86832da0ca0db300db3036ce0db350db35a0ca58a8058a80876e21df821df800005a9f221d20000021dc221dc0876f21d0c21d0c874521d1121d14000021dbe21d10876f5a9f4683a94aa158a84682b162a102c4058a84876f21dfc21dbc876e21d0021d00874221d0521d04876e5a9f05a9f1d098742dc742dd72655e994742a1d0a721f8021f8087e221f8521f85d0a75e9d021f89d0a75c9d021e1c00005aa2e5aa2dd0a7743187429dd0a621f7421f7487df21f7921f79d0a65e9cc21f7dd0a65c9cc21e1800005aa2674299d0a521f6821f6887dc21f6d21f71d0a55c9c821f6dd0a55e9c85aa25d0a57431074295d0a421f5c21f5c87d921f6121f61d0a45e9c421f65d0a45c9c474291d0a321f5021f5087d621f5521f55d0a35e9c021f59d0a35c9c021e1400005aa1e5aa1dd0a3743087428dd0a221f4421f4487d321f4921f4dd0a25c9bc)
  (.lf 0)) (.nd (.lf
  0x61ba8052d3b98c6d60d7eef61bbc61bbc05323b9a03b98c053f014e83b9a00524014fc3dbb8055f014fc5fbd4057f3dc383dc38053f3dcb9014fd938864e9c64e9d5f5000ffc15b15b54d5fb606d3c16ed85db605db61b54d6d5b015b11b54d61b606d535b54c15b005ba51b2306c93c6c8c5b2301461c1461c51891462114621b23049f3c14625b230014f86c8c1b22f146101461051861461514615b22f49f385ba4db22f6c93814619b22f014f46c8bdb22e146041460451831460914609b22e49f345ba49b22e6c9341460db22e014f06c8b9b22d145f8145f85180145fd145fdb22d49f3014601b22d014ec5ba45b22d6c9306c8b5b22c145ec145ec517d145f1145f5b22c014e86d5b97eda61b686d61d7ef361bcc61b68053d3b94c6d5f17ee861ba061ba0052b3b9846d6057eed61bb461bb405303b9983b984053d014e03b9980522014f43dbb0055d014f45fbcc057d3dc303dc30053d3dcb16c938053d49f38014f5938664e9464e955f4e00ff408a7192ef00f0864bbd92ee08a6008a60229a08a6508a6592ee00f045b95db1066c4946c494050149e4813da9b10749e4c6c41db10613d9813d984f6813d9d13da1b106014043da40052101404)
  (.lf 0)))

def shaGateTree36 : BTree :=
  .nd (.nd (.nd (.lf
  0x2db7deafc5f6e82d9b8b66c2d9ac2d9acb66c597d55d4e9e7b379f4879f480fe4004902c2f5e7b40049479ed1e7b32c2e42c2e4b0bb2c2e92c2ede7b303f9003f91ad956b6d06b6d165f500b10126b1add4537d86b751add31269c1269c49a9126a1126a1add3597d404691add36b7c86b7c94df5597d412545ad9600b146b659ad951253412534494f125391253dad95597d4597d4b66c5b6e85b6e9eafc7ac6c7ac6d75ba5f6e85f6e9eb787ae5c7ade1eb772de3c2de3cb7912de412de45eb77616e42de41eb77636e42db81eafc5d6e87abf1eafb2db6c2db6cb6dd2db712db71eafb5f6e42d9b0b6b12d9a02d9a0b66a2d9a52d9a4b6b15b6e42c2e9e7b30049079ecde7b22c2d82c2d8b0b82c2dd2c2e1e7b203f8c5d4e5e7b279f4479f440fe30048c126a5add3537d46b74dadd2126901269049a61269512695add2597d00468dadd26b7c46b7c54df4597d012539ad9500b106b655ad941252812528494c1252d12531ad94597d003f8dad946b6cc6b6cd65f400b0c597d0b6b12db102db1000005b6e65b6e5eafb7ac687ac6975b95f6e45f6e5eb777ae587adddeb762de302de30b78e2de352de39eb76616e02de35eb76636e02db75eafb5d6e4)
  (.lf 0)) (.nd (.lf
  0x4f7652b230694080b112bba4f7684f7692b240694480b152bbb4f76c4f76d2b250694880b192bbc4f7704f7712b260694c80b1d2bbd4f7744f7752b270695080b212bbe4f7784f7792b280695480b252bbf4f77c4f77d2b290695880b292bc04f7804f7812b2a0695c80b2d2bc14f7844f7852b2b0696080b312bc24f7884f7892b2c0696480b352bc34f78c4f78d2b2d0696880b392bc44f7904f7912b2e0696c80b3d2bc54f7944f7952b2f0697080b412bc64f7984f7992b3006974069212b244ac88069252b254ac8c069292b264ac900692d2b274ac94069312b284ac98069352b294ac9c069392b2a4aca00693d2b2b4aca4069412b2c4aca8069452b2d4acac069492b2e4acb00694d2b2f4acb4069512b304acb8069552b114acbc069592b124acc00695d2b134ac44069612b144ac48069652b154ac4c069692b164ac500696d2b174ac54069712b184ac58069752b194ac5c80b452bc74f79c4f79d2b1a4ac6080b492bc84f7a04f7a12b1b4ac6480b4d2bc94f7a44f7a52b1c4ac6880b512bca4f7a84f7a92b1d4ac6c80b552bcb4f7ac4f7ad2b1e4ac7080b592bcc4f7b04f7b12b1f4ac7480b5d2bcd4f7b44f7b52b204ac7880b612bce4f7b8)
  (.lf 0))) (.nd (.nd (.lf
  0x474a11d48475a1475740c2e02fb8475780c2f02fbc4757c0c3002fc0475800c3102fc4475840c3202fc8475880c3302fcc4758c0c3402fd0475900c3502fd4475940c3602fd8475980c3702fdc4759c0c3802fe0475a00c3902fe402fe1a62769918698a5a6280fa980fa983ea80fa9d0fa9da6285902802fe5a6286991c0faa1a62853028698a1a6270fa8c0fa8c3ea50fa910fa91a627590240fa95a627530246989da6260fa800fa803ea20fa850fa85a6265902002fdda626699140fa89a6265302069899a6250fa740fa743e9f0fa790fa7da6255301c0fa79a6255901c02fd9a6256991069895a6240fa680fa683e9c0fa6d0fa6da624590180fa71a6245301802fd5a6246990c69891a6230fa5c0fa5c3e990fa610fa61a623590140fa65a6235301402fd1a623699086988da6220fa500fa503e960fa550fa55a6225901002fcda622699040fa59a6225301069889a6210fa440fa443e930fa490fa49a6215900c02fc9a621699000fa4da6215300c69885a6200fa3802fc5a620698fc0fa383e900fa3d0fa41a620530080fa3da6205900869881a61f0fa2c0fa2c3e8d0fa310fa35a61f5300402fc1a61f698f80fa31a61f590046987da61e0fa20)
  (.lf 0)) (.nd (.lf
  0x51ffdbb866ee941882dbb8653ffc18829bb8655ffc6ee19bb85188181881862081881d1881dbb8555ff851ff9bb856ee9018821bb8553ff86ee15bb841880c1880c62051881118815bb8453ff451ff5bb846ee8c18811bb8455ff46ee11bb83188001880062021880518805bb8355ff051ff1bb836ee8818809bb8353ff06ee0dbb82187f4187f461ff187f9187fdbb8253fec51fedbb826ee84187f9bb8255fec6ee09bb81187e8187e861fc187ed187edbb8155fe86eed95010560406eed1500e5603851fe9bb816ee806ee814ffa55fe855fe8045f419606eea550035600c5600c044841984560380453419b041984045f01150419b0044a0117c44538047f0117c54040049f446384463911ae4473944738049f0117c0117d972a65d2465ca997290a3a4187f1bb8153fe86ee05bb80187dc187dc61f9187e151fe5bb806ee7c6eea15002560086ee7d4ff955fe4187e1bb8055fe455fe4045e4195c560080447419806eecd500d56034560340452419ac41980045e0114c419ac04490117844534047e011786eed5500f5603c5403c049e446344463511ad4473544734049e0117801179972965d200a3a428eb0a3a90a3ad9729520bc0a3a99729580bc)
  (.lf 0)))

def shaGateTree37 : BTree :=
  .nd (.nd (.nd (.lf
  0x3a89a8bb6a3686a36964b30438803a8164b1043806a3dd64d0043fc59341e1785b26c5b26de197786d8786d974955f2545f255e213788c87884de21229b5029b50a6d629b5529b59e2126125029b55e212632507865de1962988029880a6222988529885e1965f250785e1e177296d0296d0a5b6296d5296d5e1775b26803af9a8d76a3d86a3d964cf043f85933de177297202972000005b26a5b269e196786d4786d574945f2505f251e212788c478849e21129b4429b44a6d329b4929b4de2116124c29b49e2116324c29889e1965d25078659e1952987429874a61f2987929879e1955f24c296d80000785de785dde176296c4296c4a5b3296c9296c9e1765b2646a35da8d610a4010a40429210a4510a49a8d65933803af5a8d66a3d46a3d564ce043f459339e1762971c2971c00005b2665b265e195786d0786d174935f24c5f24de211788c078845e21029b3829b38a6d029b3d29b41e2106124829b3de210632482987de1955d24c78655e1942986829868a61c2986d2986de1945f248296cc0000785da785d9e175296b8296b8a5b0296bd296bde1755b26010a45a8d6043f46a359a8d510a3410a34428f10a3910a3da8d55933403af1a8d56a3d0)
  (.lf 0)) (.nd (.lf
  0xb5dd9a4d584343e9ac091c023f0602c8093c3ea2c3ea2c08fc3eaad023f19a4d669b00b5d99a4d01df0669359a4c0b5c83e9a8091b023ec70da580b1622c4602c4093b3ea283ea2808fb3eaa9023ed9a4c669ac0b5c82d740b5cd669b9610f01df8669b5610e01df4669b1610d01df0669ad610c01dec66aa5490c5843066aad490e584380b5d19a4c584301c1bc707b5a3cc5843c707b1c2201c1ec706d1c1b01c1b0706d5843958438706d5a3c81c1b4706b1c1a81c1a8706b5843566aa9490d5843458434706b5a3c41c1ac70691c1a01c1a07069584315843070695a3c01c1a470671c1981c19870675842d1be0dc3316026070cc5c3301bdf81bdf86f801bdfd1bdfdc3306225c5e25dc33070d3c70d3d80976225c6225c08fa3c04070d7580a5622946229408e83c0783c07808fa023d470da180b0622c00b5cd9a4c01dec669319a4b0b5bc0b5bc2d710b5c10b5c59a4b5842c3e9a4091a023e8602c0093a3ea243ea2408fa3eaa5023e99a4b669a8669a9610b01de866aa1490b5842c5842c70675a3bc1c19c707a1c18c1c18c70651c1911c190707a5a3b81be01c3306025c5e25980966225870cc18096622596225808f93c03c70d7180a462290)
  (.lf 0))) (.nd (.nd (.lf
  0x68709a1c10e0c40e0c438330e0c90e0c9a1c158b7c0e0cda1c152b7c02b39a1c16878068705a1c00e0b80e0b838300e0bd0e0bda1c058b780e0c1a1c052b7802b35a1c06877c68701a1bf0e0ac02b31a1bf687780e0ac382d0e0b10e0b1a1bf58b740e0b5a1bf52b74686fda1be0e0a00e0a0382a0e0a50e0a5a1be58b700e0a9a1be52b7002b2da1be68774686f9a1bd0e0940e09438270e0990e099a1bd58b6c0e09da1bd52b6c02b29a1bd68770686f5a1bc0e0880e08838240e08d0e091a1bc52b680e08da1bc58b6802b25a1bc6876c686f1a1bb0e07c0e07c38210e0810e085a1bb52b640e081a1bb58b6402b21a1bb68768686eda1ba0e0700e070381e0e0750e079a1ba52b600e075a1ba58b6002b1da1ba68764686e9a1b90e0640e064381b0e0690deeda17958b5403311a17968660685e5a1780ded80ded837b80dedd6868162dd02d306867562da02d24465c00ae102b04465c80ae302b0c465cc0ae402b10465d00ae502b14465d40ae602b1854ac80b01466c054ad00b03466c854ad40b04466cc54ad80b05466d054adc0b06466d4466c119d0467c1466c919d2467c9466cd19d3467cd466d119d4467d1466d519d5467d5467c00b0102b04)
  (.lf 0)) (.nd (.lf
  0x2f779ef85502707be15ef842f7682f768bddc2f76d2f76def845026c7bd952e9b4d26c4ba6def847be8c2f771ef844a66c7be11ef832f75c2f75cbdd92f7612f765ef834a6687bd912e9a4d2684ba69ef837be882f761ef83502687be0def822f7502f750bdd62f7552f755ef82502647bd8d2e994d2644ba65ef827be842f759ef824a6647be09ef812f7442f744bdd32f7492f74def814a66005fd1279849e5849e61ef437bd887bd892e984d2602f5e5ef434ba604ba61ef817be802f749ef81502607be05ef802f7382f738bdd02f73d2f73def805025c05fbd279349e4405fc1279449e4805fc5279549e4c05fc9279649e5005fcd279749e542f5e1ef434d2607bd0def422f5d02f5d0bd762f5d52f5d9ef424ba5c2f5d5ef424d25c49e5def427bd847bd09ef412f5c42f5c4bd732f5c92f5cdef414ba582f5c9ef414d25849e59ef417bd807bd05ef402f5b82f5b8bd702f5bd49e4def3e7bd747bd752e934d24c2f5c1ef404ba542f5bdef404d25449e55ef407bd7c7bd01ef3f2f5ac2f5acbd6d2f5b12f5b1ef3f4d2502f5b5ef3f4ba5049e51ef3f7bd787bcfdef3e2f5a02f5a0bd6a2f5a52f5a9ef3e4ba4c4ba4def7c7be6c7bd7d2e954d254)
  (.lf 0)))

def shaGateTree38 : BTree :=
  .nd (.nd (.nd (.lf
  0x442dab6e6ae346ae354d5c5957011789ab31046306acc5ab30117781177845e01177d11781ab305957003d2dab306ad3c6ad3d655c0462c59571e6622ba4c2ba4c00005b48e5b48de67779a5879a5975215f4845f485e6f379c4879bcde6f22bdb42bdb4af6f2bdb92bdbde6f2614802bdb9e6f2634802baf9e6775d484799dde6762bae42bae4aebb2bae92bae9e6765f4802b97400007998a79989e6612b9602b960ae5a2b9652b965e6615b4882a049e2b90022c78ae5e2b82a0382a038a8102a03d2a041e2b803d285d281e2b878b5c78b5c0f4a00228118e9ab6e535706adb9ab6d118d4118d44637118d9118d9ab6d5956c04429ab6d6ae306ae314d5b5956c1177dab300462c6acc1ab2f1176c1176c45dd1177111775ab2f5956c03d29ab2f6ad386ad39655b046285956de6612ba482ba4800005b48a5b489e67679a5479a5575205f4805f481e6f279c4479bc9e6f12bda82bda8af6c2bdad2bdb1e6f16147c2bdade6f16347c2baede6765d480799d9e6752bad82bad8aeb82badd2badde6755f47c2b96800007998679985e6602b9542b954ae572b9592b959e6605b4842a03de2b80022878ae1e2b72a02c2a02ca80d2a0312a035e2b703d24)
  (.lf 0)) (.nd (.lf
  0x351ecd47d351f1351f5ff0f4ac98351f1ff0f4f5184dd19ff0f7fcb87fc3dff0e351e0351e0d47a351e5351e9ff0e4ac94351e5ff0e4f5144dd15ff0e7fcb47fc39ff0d351d4351d4d477351d9351ddff0d4ac90351d9ff0d4f5104dd11ff0d7fcb07fc35ff0c351c8351c8d474351cd351d1ff0c4ac8c351cdff0c4f50c4dd0dff0c7fcac7fc31ff0b351bc351bcd471351c1351c5ff0b4ac88351c1ff0b4f5084dd09ff0b7fca87fc2dff0a351b0351b0d46e351b5351b9ff0a4ac84351b5ff0a4f5044dd05ff0a7fca47fc29ff09351a4351a4d46b351a9351adff094ac80351a9ff094f5004dd01ff097fca07fc25ff083519835198d4683519d351a1ff084ac7c3519dff084f4fc4dcfdff087fc9c7fc21ff073518c3518cd4653519135195ff074ac7835191ff074f4f84dcf9ff077fc987fc1dff063518035180d4623518535189ff064ac7435185ff064f4f44dcf5ff067fc947fc19ff053517435174d45f351793517dff054ac7035179ff054f4f04dcf1ff057fc907fc15ff043516835168d45c3516d35171ff044ac6c3516dff044f4ec4dcedff047fc8c7fc11ff033515c3515cd4593516135165ff034ac6835161ff034f4e84dce9ff037fc88)
  (.lf 0))) (.nd (.nd (.lf
  0x68f114b5358d4c68f154b5458d5068f194b5558d5468f0d4b5258d4868e59636302f4868e4d636002f3c68e51636102f4068e55636202f4468e49635f02f3802d014b5158d4468e45635e02f3468e914b5158d4568f854b7058dc068f7d4b6e58db858dc1d6915ad1c5ad1dd6b075b3c75b3d73355ecd45ecd5d72c75d2c75cb1d72b24cc824cc8933424ccd24cd1d72b60cd024ccdd72b62cd075ac1d6af249f8249f89280249fd249fdd6af5ecd075a45d6902484c2484c92152485124851d6905ad1858dbdd690248982489800005ad1a5ad19d6af75b3875b3973345ecd05ecd1d72b75d2875cadd72a24cbc24cbc933124cc124cc5d72a60ccc24cc1d72a62ccc24a01d6af5ccd075abdd6ae249ec249ec927d249f1249f1d6ae5eccc24854000075a4275a41d68f248402484092122484524845d68f5ad1458db9d68f248942489400005ad165ad15d6ae75b3475b3573335eccc5eccdd72a75d2475ca9d72924cb024cb0932e24cb524cb9d72960cc824cb5d72962cc8249f5d6ae5cccc75ab9d6ad249e0249e0927a249e5249e5d6ad5ecc824848000075a3e75a3dd68e2483424834920f2483924839d68e5ad1058db5d68e248902489000005ad12)
  (.lf 0)) (.nd (.lf
  0x7d08df4223125031250c4963125531259f4224a4fc4d55df41a7d0e47d0e529374ed5c175c05d72175c5175c9b8cc5bd904173c03cd00f0843ef003ed00f3453df8040d43ff043ff1101c440f1440f0040d00f3400f3595286551c0979825e80979d0979d952857e78097a1952851e78417b403cb00f0043ee803eb00f2c53df0040b43fe843fe9101a440e9440e8040b00f2c00f2d9526655143babc058b016183bac0058c0161c3bac4058d01620654a195270978c0978c25e50979109795952751e74417b803cc00f0409791952757e7443eec03ec00f3053df4040c43fec43fed101b440ed440ec040c00f3000f319527655186549d9526097800978025e2097850964d94ec0113c653b194eb0963c0963c2591096410964194eb011383de7405ae016385fd1005ce3def43def4058e3df750163994eb654280964594eb57e7c653ad94ea0963009630258e096353de7005ad016345fd0c05cd3def03def0058d3df710963994ea57e780163594ea654240963594ea01134653a994e9096243de6c05ac016305fd0805cc3deec3deec058c3df6d0163194e96542009624258b096290962994e9011300962d94e957e74653a594e8096180961825880961d)
  (.lf 0)))

def shaGateTree39 : BTree :=
  .nd (.nd (.nd (.lf
  0x39bd20bd7515e04cde20bd782fd882f5e0bd639bc039bc0e6f239bc539bca0bd60049839bc60bd6515dc4cdde0bd682fd482f5a0bd539bb439bb4e6ef39bb939bbe0bd50049439bba0bd5515d84cdda0bd582fd082f560bd439ba839ba8e6ec39bad39bb20bd40049039bae0bd4515d44cdd60bd482fcc82f520bd339b9c39b9ce6e939ba139ba60bd30048c39ba20bd3515d04cdd20bd382fc882f4e0bd239b9039b90e6e639b9539b9a0bd20048839b960bd2515cc4cdce0bd282fc482f4a0bd139b8439b84e6e339b8939b8e0bd10048439b8a0bd1515c84cdca0bd182fc04cdc40120515c482f440120515c5515c4010305cc882fc00121515c8515c8010405ccc82fc40122515cc515cc010505cd082fc80123515d0515d0010605cd482fcc0124515d4515d4010705cd882fd00125515d8515d8010805cdc82fd40126515dc515dc010905ce082fd80127515e0515e0010a05ce482fdc0128515e4515e4010b05ce882fe00129515e8515e8010c05cec82fe4012a515ec515ec010d05cf082fe8012b515f0515f0010e05cf482fec012c515f4515f4010f05cf882ff0012d515f8515f8011005cfc82ff4012e515fc515fc011105d0082ff8012f51600)
  (.lf 0)) (.nd (.lf
  0x6ff11bfc31a6e81a6e869bc1a6ed1a6f1bfc35c11c5c11dc001700807008008f14a6081a865c002023c870009c0011a8501a8506a161a8551a855c0014a6084a609fa337e948335a1fa334da087e8cdfa323359033590cd663359533595fa324da045a1adbfc26ff846ff8570465e1181a6edbfc35e11c6ff0dbfc21a6dc1a6dc69b91a6e11a6e5bfc25c1185c119c0007007c7007c08f04a6041a859c001023c470005c0001a8441a8446a131a8491a849c0004a6044a605fa327e94433599fa324c2047e8c9fa313358433584cd63335893358dfa314c2001a6e1bfc25e1186ff09bfc11a6d01a6d069b61a6d55a1a9bfc16ff806ff8170455e1141a6d9bfc15c1145c115bfff700787007808ef4a6001a84dc000023c070001bfff1a8381a8386a101a83d1a83dbfff4a6004a601fa317e94033589fa314da007e8c5fa303357833578cd603357d33581fa304c1fc3357dfa304d9fc1a841bfff023bc6fffdbffe1a82c5a1a5bfc06ff7c6ff7d70445e1101a6d5bfc15e1146ff05bfc01a6c41a6c469b31a6c91a6cdbfc05c1105c111bffe700747007408ee4a5fc1a82c6a0d1a8311a831bffe4a5fc4a5fdfa307e93c7e8c1fa2f3356c3356ccd5d33571)
  (.lf 0))) (.nd (.nd (.lf
  0x368d602f74c83880bde02f6368c0368c0da32368c5368c602f64e0344ac3602f680c5480c55320d4e0344e036037280e4480dca037136b8436b84dae336b8936b8e03714afb036b8a03714f830368ca02f64c83480bda02f5368b4368b4da2f368b9368ba02f54e0304ac3202f580c5080c51320c4e0304e032037180e4080dc6037036b7836b78dae036b7d36b8203704afac36b7e03704f82c368be02f54c83080bd602f4368a8368a8da2c368ad368ae02f44e02c4ac2e02f480c4c80c4d320b4e02c4e02e037080e3c80dc2036f36b6c36b6cdadd36b7136b76036f4afa836b72036f4f828368b202f44c82c80bd202f33689c3689cda29368a1368a202f34e0284ac2a02f380c4880c49320a4e0284e02a036f80e3880dbe036e36b6036b60dada36b6536b6a036e4afa436b66036e4f824368a602f34c82880bce02f23689036890da26368953689602f24e0244ac2602f280c4480c4532094e0244e026036e80e3480dba036d36b5436b54dad736b5936b5e036d4afa036b5a036d4f8203689a02f24c82480bca02f13688436884da23368893688a02f14e0204ac2202f180c4080c4132084e0204e022036d80e3080db6036c36b4836b48dad436b4d)
  (.lf 0)) (.nd (.lf
  0x6cdadb36a14e0014e00538214e0514e05b36a61abc6cc316eae5dab85dab9b3696ce206cc356eaf5dabc5dabdb36a6ce2414e09b36a5fabc6cda9b36914df414df4537f14df914dfdb3695fab814df9b36961ab86cda5b36814de814de8537c14ded14df1b3685fab4149fc000059b7e59b7db2eb6cc286cc296eac5dab06cc2d6ead5dab45dab5b3686ce1c14dedb36861ab46cda1b36714ddc14ddc537914de114de1b36761ab014de5b3675fab014b11b2eb5dab05dab1b3676ce186cd9db36614dd014dd0537614dd514dd5b36661aac59b79b2ea6cc246cc256eab5daac14b15b2eb5bab06cbadb2ea14b0014b0052c214b0514b05b2ea5daac14dd9b3665faac5daadb3666ce146cd99b36514dc414dc4537314dc953afc034e436f4436f50ddd437f514b09b2ea5baac6cba9b2e914af414af452bf14af914afdb2e95baa814af9b2e95daa859b75b2e96cc206cba5b2e814ae814ae852bc14aed14af1b2e85baa414aedb2e85daa459b71b2e86cc1c6cba1b2e714adc14adc52b914ae114ae5b2e75baa014ae1b2e75daa0149f8000059b6e59b6db2e76cc186cb9db2e614ad014ad052b614ad514ad9b2e65ba9c14ad5b2e65da9c149f4000059b6a)
  (.lf 0)))

def shaGateTree40 : BTree :=
  .nd (.nd (.nd (.lf
  0x431d411f3047a0431d811f4047a4431dc11f5047a8431e011f6047ac431e411f7047b0431e811f8047b4431ec11f9047b8431f011fa047bc431f411fb047c0431f811fc047c4431fc11fd047c84320011fe047cc4320411ff047d04320811e0047d44320c11e1047d84321011e2047dc4321411e3047e04321811e4047e44321c11e5047e84322011e6047ec4322411e7047f04322811e8047f44322c11e9047f84323011ea047fc4323411eb047804323811ec047845584402c0496445584802c1496485584c02c24964c5585002c3496505585402c4496545585802c5496585585c02c64965c5586002c7496605586402c8496645586802c9496685586c02ca4966c5587002cb496705587402cc496745587802cd496785587c02ce4967c5588002cf496805588402d0496845588802d1496885588c02d24968c5589002d3496905589402d4496945589802d5496985589c02d64969c558a002d7496a0558a402d8496a4558a802d9496a8558ac02da496ac558b002db496b0558b402dc496b4558b802dd496b8558bc02de496bc558c002df496c04964525b1497454964925b2497494964d25b34974d4965125b4497514965525b5497554965925b649759)
  (.lf
  0x642fd5e9000cfc643f5469057a4057a404d2a1350013500000059a3259a31afee6c0346bfb9afed13660136604d9a1366513669afed5b9506be0d7e276189c643dd468a57a28074218f130099863c4d8f1207410074101d0607415074198f124b6d8074158f1200994848198f1263cc463c498f1107404074041d03074090740d8f114b6d4074098f1100990848158f1163cc063c458f10073f8073f81d00073fd074018f104b6d06be417e34618d05f8d12d6f3d634847f58eeb63c28847fd8eed63c3063bb98eed073d4073d41cf7073d9073dd8eed4b6bc073d98eed0097863bb58eec073c8073c81cf4073cd847f98eec63c2c073cd8eec00974073d18eec4b6b863bb18eeb073bc073bc1cf1073c1073c18eeb00970073c58eeb4b6b463bad8eea073b0073b01cee073b5073b58eea0096c073b98eea4b6b0847f18eea63c2463ba98ee9073a4073a41ceb073a9073a98ee900968847ed8ee963c20073ad8ee94b6ac63ba58ee807398073981ce80739d073a18ee84b6a80739d8ee800964847e98ee863c1c63ba18ee70738c0738c1ce507391073918ee700960847e18ee663c14073958ee74b6a4847e58ee763c1863b9d8ee607380073801ce207385))
  (.nd (.lf
  0x527d1cb5a72de472e3952095682472e3552085682072e0d51fe567f872e0951fd567f472de951f5567d472de551f4567d072d6dcb5a1f7e01f7e07dfa1f7e51f7e5cb5a567d0567d0081942148567d4081a4214c567f408024216c567f808034217056820080d4219856824080e4219c4216c08190203842170081a0203c421980804020644219c08050206845d2008390206445d24083a0206854828085945e205482c085a45e2445e2117a845f2145e2517a945f2545f2008590206445f24085a020680d0899ee6528b067b999ee50d0740d074341f0d079020699ee567c100cf1d9ea802a6c0d0799ee5588ac67c114a2b588ac67aa19ea70cf0c0cf0c33c50cf110cf159ea7588ac588ac8067201d02015c0000201a2201a08067201482014880542014d2015000002019e2014c80675a81c2019c80662013c2013c8051201412014080665a8182014400002019a0d07d9ee5528ac67b959ee40d0680d068341c0d06d0d06d9ee4588a8020659ee467c0c67c0d4a2a588a80cf119ea702a6867a9d9ea60cf000cf0033c20cf050cf099ea6588a8588a88066201cc20198804e2013420134804e588a50cf059ea602a6467a999ea50cef40cef433bf0cef9)
  (.lf 0))) (.nd (.nd (.lf
  0x26a189a8826a1d26a21db4c5501426a1ddb4c5701453015db4c76dac76d31db4b26a0c26a0c9a8526a1126a15db4b5501026a11db4b5701053011db4b76da876d2ddb4a26a0026a009a8226a0526a09db4a5500c26a05db4a5700c5300ddb4a76da476d29db49269f4269f49a7f269f9269fddb4955008269f9db495700853009db4976da076d25db48269e8269e89a7c269ed269f1db4855004269eddb485700453005db4876d9c76d21db47269dc269dc9a79269e1269e5db4755000269e1db475700053001db4776d9876d1ddb46269d0269d09a76269d5269d9db4654ffc269d5db4656ffc52ffddb4676d9476d19db45269c4269c49a73269c9269cddb4554ff8269c9db4556ff852ff9db4576d9076d15db44269b8269b89a70269bd269c1db4454ff4269bddb4456ff452ff5db4476d8c76d11db43269ac269ac9a6d269b1269b5db4354ff0269b1db4356ff052ff1db4376d8876d0ddb42269a0269a09a6a269a5269a9db4254fec269a5db4256fec52feddb4276d8476d09db4126994269949a67269992699ddb4154fe826999db4156fe852fe9db4176d8076d05db4026988269889a642698d26991db4054fe42698ddb4056fe452fe5db4076d7c)
  (.lf 0)) (.nd (.lf
  0x6f1fdbc7e18f4818f4863d418f4d18f51bc7e5407c18f4dbc7e5607c6f1f9bc7d18f3c18f3c63d118f4118f45bc7d5407818f41bc7d560786f1f5bc7c18f3018f3063ce18f355dfd5bd576f5d86f55dbd561957c1957c65611958119585bd565ffd05dfd1bd566f5d419581bd5661fd06f559bd551957019570655e195755df91bd466f5945dfcdbd556f5d019579bd555ffcc19575bd5561fcc6f555bd541956419564655b1956919569bd5461fc85dfc5bd536f5c81956dbd545ffc85dfc9bd546f5cc6f551bd53195581955865581955d1955dbd5361fc419561bd535ffc46f54dbd521954c1954c65551955119555bd525ffc05dfc1bd526f5c419551bd5261fc06f549bd51195401954065521954519549bd515ffbc19545bd5161fbc5dfbdbd516f5c06f545bd501953419534654f195391953dbd505ffb819539bd5061fb85dfb9bd506f5bc6f541bd4f1952819528654c1952d19531bd4f5ffb41952dbd4f61fb45dfb5bd4f6f5b86f53dbd4e1951c1951c65491952119525bd4e5ffb019521bd4e61fb05dfb1bd4e6f5b46f539bd4d195101951065461951519519bd4d5ffac5df95bd476f5985dfa5bd4b6f5a85dfa1bd4a6f5a419515bd4d61fac)
  (.lf 0)))

def shaGateTree41 : BTree :=
  .nd (.nd (.nd (.lf
  0x78bc9e2f12a1642a164a85b2a1692a16de2f16126c2a169e2f16326c29ea9e2765d270789d9e27529e9429e94a7a729e9929e99e2755f26c29cf4000029dee29deca73a29ce429ce4a73a593595d06ddec077b7c77b7c0ec50001428335dec10001877b05dec02832428324a0cb283292832ddec003b1403b15a93a6a5646a56564d60441410d6da9795335c6a5e5a97810d5810d58435810d5d10d5da9785935804215a9786a65c6a65d4cd65935810c01a93b044186a4eda93a10bf010bf042fe10bf510bf9a93a5935859358a73a5b2845b285e27578a5078a51749b5f26c5f26de2f178c4078bc5e2f02a1582a158a8582a15d2a161e2f0612682a15de2f06326829e9de2755d26c789d5e27429e8829e88a7a429e8d29e8de2745f26829ce8a73829cdc29cdca738593555d069debf77b7877b780ec40001028329dec00001477b01debf2831828318a0c82831d28321debf03b1003b11a9396a5606a56164d50441010d61a978533586a5e1a97710d4c10d4c435510d5110d51a9775935404211a9776a6586a6594cd55935410bf5a93a044146a4e9a93910be410be442fb10be910beda9395935459354a7385b2805b281e27478a4c78a4d749a5f268)
  (.lf 0)) (.nd (.lf
  0x1c068701c1c06d1c071c384544201c06dc3845642052421c38470e8c70e11c3831c05c1c05c70191c0611c065c3835441c1c061c3835641c5241dc38370e8870e0dc3821c0501c05070161c0551c059c382544181c055c3825641852419c38270e8470e09c3811c0441c04470131c0491c04dc381544141c049c3815641452415c38170e8070e05c3801c0381c03870101c03d1c041c380544101c03dc3805641052411c38070e7c70e01c37f1c02c1c02c700d1c0311c035c37f5440c1c031c37f5640c5240dc37f70e7870dfdc37e1c0201c020700a1c0251c029c37e544081c025c37e5640852409c37e70e7470df9c37d1c0141c01470071c0191c01dc37d544041c019c37d5640452405c37d70e7070df5c37c1c0081c00870041c00d1c011c37c544001c00dc37c5640052401c37c70e6c70df1c37b1bffc1bffc70011c0011c005c37b543fc1c001c37b563fc523fdc37b70e6870dedc37a1bff01bff06ffe1bff51bff9c37a543f81bff5c37a563f8523f9c37a70e6470de9c3791bfe4523f5c37970e601bfe46ffb1bfe91bfedc379543f41bfe9c379563f470de5c3781bfd81bfd86ff81bfdd523f1c37870e5c1bfe1c378543f01bfddc378563f0)
  (.lf 0))) (.nd (.nd (.lf
  0x33e5a20a688a468829a2090e2a40e2a438ab0e2a90e2ada20958c240e2a9a20902de0688bd631002dfc58c41d37c233ac233ac00005aba65aba5d39b74ee874ee972d55eb545cb55d3d974fe074fe00d7f4b0404b04208c9823a0823a133104e4404e44209458259082516094438d6838d68e35c38d6d38d7209444b3bc38d6e09444fc3c8232608c838a9838a98e2a838a9d38a9e08c84e43c688b9630f02df874f65d3d823674236748d9f2367923679d3d84b03c74e6dd39a2350c2350c8d452351123515d39a5cb5074df08ce02337c2337c8ce058c3d58c3c8ce05aba05aba1d39a74ee474ee572d45eb505cb51d3d874fdc74fdc0d7e4b03c4b03e08c88239c8239d330f4e43c4e43e09448258c82512094338d5c38d5ce35938d6138d6609434b3b838d6209434fc3838aa208c84cc3c8232208c738a8c38a8ce2a538a9138a9208c74e438688b5630e02df42367dd3d8035f874f61d3d723668236688d9c2366d2366dd3d74b03823511d39a5eb5074e69d39923500235008d422350523509d3995cb4c23381d37b23370233708cde2337523375d37b5ab9c58c39d37b233a8233a800005ab9e5ab9dd39974ee074ee172d35eb4c5cb4dd3d774fd8)
  (.lf 0)) (.nd (.lf
  0x4bc31f1c37c7887c6952f0d4d434304f1f1c44a8344bc35f1c47c78c7c711f1c3304dc304dcc139304e1304e5f1c34a830304e1f1c3504307c70df1c2304d0304d0c136304d5304d5f1c25042c304d9f1c24a82c4bc2df1c27c7847c709f1c1304c4304c4c133304c9304cdf1c14a8287c6892f0a4d4284bc29f1c17c780304c9f1c1504287c705f1c0304b8304b8c130304bd304c1f1c04a824304bdf1c0504247c6852f094d4244bc25f1c07c77c7c701f1bf304ac304acc12d304b17c6812f084d4204bc21f1bf7c778304b1f1bf50420304b5f1bf4a8207c6fdf1be304a07c67d2f074d41c7c6752f054d4144bc15f1bc7c76c7c6792f064d4184bc19f1bd7c770304a0c12a304a5304a9f1be4a81c4bc1df1be7c774304a5f1be5041c7c6f9f1bd3049430494c127304993049df1bd4a81830499f1bd504187c6f5f1bc3048830488c1243048d3048df1bc5041430491f1bc4a8147c6f1f1bb3047c3047cc1213048130485f1bb4a8107c6712f044d41030481f1bb504104bc11f1bb7c7687c6edf1ba304707c66d2f034d40c30470c11e3047530475f1ba5040c30479f1ba4a80c4bc0df1ba7c7647c6e9f1b93046430464c11b3046930469f1b950408)
  (.lf 0)))

def shaGateTree42 : BTree :=
  .nd (.nd (.nd (.lf
  0x40e580fa703e1c40e5c0fa803e2040e600fa903e2440e640faa03e2840e680fab03e2c40e6c0fac03e3040e700fad03e3440e740fae03e3840e780faf03e3c40e7c0fb003e4040e800fb103e4440e840fb203e4840e880fb303e4c40e8c0fb403e5040e900fb503e5440e940fb603e5840e980fb703e5c40e9c0fb803e6040ea00fb903e6440ea40fba03e6840ea80fbb03e6c40eac0fbc03e7040eb00fbd03e7440eb40fbe03e7840eb80fbf03e7c614d80fc040ebc614dc0fc140ec0614e00fc240ec4614e40fc340ec8614e80fc440ecc614ec0fc540ed0614f00fc640ed4614f40fc740ed8614f80fc840edc614fc0fc940ee0615000fca40ee4615040fcb40ee8615080fcc40eec6150c0fcd40ef0615100fce40ef4615140fcf40ef8615180fd040efc6151c0fd140f00615200fd240f04615240fd340f08615280fd440f0c6152c0fd540f10615300fd640f14615340fd740f18615380fd840f1c6153c0fd940f20615400fda40f24615440fdb40f28615480fdc40f2c6154c0fdd40f30615500fde40f34615540fdf40f3840ebc0f8040f3d40ec00f8140f4140ec40f8240f4540ec80f8340f4940ecc0f8440f4d40ed00f8540f5140ed40f8640f55)
  (.lf 0)) (.nd (.lf
  0x50df92c61055bc801752c7f50dfc50dfd2c62055c0801792c8050e0050e012c63055c48017d2c8150e0450e052c64055c8801812c8250e0850e092c65055cc801852c8350e0c50e0d2c66055d0801892c8450e1050e112c67055d48018d2c8550e1450e152c68055d8801912c8650e1850e192c69055dc801952c8750e1c50e1d2c6a055e0801992c8850e2050e212c6b055e48019d2c8950e2450e252c6c055e8801a12c8a50e2850e292c6d055ec801a52c8b50e2c50e2d2c6e055f0801a92c8c50e3050e312c6f055f4801ad2c8d50e3450e352c70055f8055892c634b1600558d2c644b164055912c654b168055952c664b16c055992c674b1700559d2c684b174055a12c694b178055a52c6a4b17c055a92c6b4b180055ad2c6c4b184055b12c6d4b188055b52c6e4b18c055b92c6f4b190055bd2c704b194055c12c514b198055c52c524b19c055c92c534b1a0055cd2c544b1a4055d12c554b1a8055d52c564b1ac055d92c574b1b0055dd2c584b1b4055e12c594b1b8055e52c5a4b1bc055e92c5b4b1c0055ed2c5c4b144055f12c5d4b148055f52c5e4b14c055f92c5f4b150801b12c8e50e3850e392c604b154801b52c8f50e3c50e3d2c614b158)
  (.lf 0))) (.nd (.nd (.lf
  0x25191d7cf037a075f3dd7ce2517c2517c94612518125181d7ce4b1e025025d7915ecf875e45d79025014250149407250192501dd7905ccf424e78000024f6224f6093d724e6424e64939b24e6924e6893d75ad3458de093d724f9c24f9c00005ad365ad35d79075ebc75ebd733d5ecf45ccf5d7ce75fb475fb40de74b1e04b1e20b9982ee082ee133784e5e04e5e20c15830d0830560c1439d2839d28e74c39d2d39d320c140001839d2e0c144fddc39a6e0b994cde082e660b9839a5839a58e69839a5d39a5e0b984e5dc691114b7758ddc25185d7ce0379c75f39d7cd2517025170945e2517525175d7cd4b1dc25019d7905ecf475e41d78f250082500894042500d25011d78f5ccf024e6c000024f5e24f5c93d624e5824e58939824e5d24e5c93d65ad3058ddc93d624f9824f9800005ad325ad31d78f75eb875eb9733c5ecf05ccf1d7cd75fb075fb00de64b1dc4b1de0b9882edc82edd33774e5dc4e5de0c14830cc830520c1339d1c39d1ce74939d2139d260c130001439d220c134fdd839a620b984cddc82e620b9739a4c39a4ce69539a5139a520b974e5d86910d4b7658dd825179d7cd0379875f35d7cc2516425164945b2516925169d7cc4b1d8)
  (.lf 0)) (.nd (.lf
  0x53e900433441884418910824428944288043300fcc00fcd95aa657246572547c457f1057f105eff17c3417b74000017bfe17bfc5efe17b6017b605eda17b6517b68000017bfa417d003f200f9c44084041200fc853e8c0432441844418510814428544284043200fc800fc995a9657206572147c357f0c09ab995aa51f10656a995a909aa409aa426ab09aa9656295fc3011c809aa995a957f0c57f0c5efe17c3017b645efe59edc17bf85ed717b5817b585ed757f0909aad95a951f0c656a595a809a9809a9826a809a9d09a9d95a857f08656255fc2011c4417cc03f100f9853e880431441804418110804428144280043100fc444080041100fc400fc595a86571c6571d47c257f0857f085ed759ed86571147bf57efc09aa195a851f08656a195a709a8c09a8c26a509a91417c803f000f944407c041000fc053e8404304417c4417d107f4427d4427c043000fc000fc195a76571809a9195a757f0409a9595a751f046569d95a609a8009a8026a209a8509a8595a657f00417c403ef00f9009a8995a651f0044078040f00fbc53e80042f4417844179107e4427944278042f00fbc00fbd95a6657146569995a509a7409a74269f09a7909a7995a557efc)
  (.lf 0)))

def shaGateTree43 : BTree :=
  .nd (.nd (.nd (.lf
  0x3aa160e47001ac3aa120e474ff704e7720e47839988391e0e463aa003aa00ea823aa053aa0a0e46001a83aa060e464ff6c4e76e0e46839948391a0e453a9f43a9f4ea7f3a9f93a9fe0e45001a43a9fa0e454ff684e76a0e4583990839160e443a9e83a9e8ea7c3a9ed3a9f20e44001a03a9ee0e444ff644e7660e448398c839120e433a9dc3a9dcea793a9e13a9e60e430019c3a9e20e434ff604e7620e43839888390e0e423a9d03a9d0ea763a9d53a9da0e42001983a9d60e424ff5c4e75e0e42839848390a0e413a9c43a9c4ea733a9c93a9ce0e41001943a9ca0e414ff584e75a0e4183980839060e403a9b83a9b8ea703a9bd3a9c20e40001903a9be0e404ff544e7560e408397c839020e3f3a9ac3a9acea6d3a9b13a9b60e3f0018c3a9b20e3f4ff504e7520e3f83978838fe0e3e3a9a03a9a0ea6a3a9a53a9aa0e3e001883a9a60e3e4ff4c4e74e0e3e83974838fa0e3d3a9943a994ea673a9993a99e0e3d001843a99a0e3d4ff484e74a0e3d839704e74400604ff44838f400604ff454ff452d1b06ea08397000614ff484ff492d1c06ea48397400624ff4c4ff4d2d1d06ea88397800634ff504ff512d1e06eac8397c00644ff544ff552d1f06eb0)
  (.lf 0)) (.nd (.lf
  0x1aef1c1004a6741acd800005a20e70379705f5e17c1ad7dc0c15e1845a211c0c17038070305c0c01ad6c1ad6c6b5d1ad711ad71c0c05e1801ad75c0c05c1805a20dc0c07037c70301c0bf1ad601ad606b5a1ad651ad69c0bf5c17c5c17dc0fd704707047009094a6687038570625e1887038170615e1847037d70605e1805c189c1007047c1aef5c1000243070401c0ff1aee01aee06bba1aee51aee5c0ff4a6701aee9c0ff0242c5c185c0ff70478703fdc0fe1aed41aed46bb71aed91aed9c0fe4a66c1aeddc0fe024285c181c0fe70474703f9c0fd1aec81aec86bb41aecd1aecdc0fd4a6684a669fae57ec1044ad006a501a14541d806c544bd044bd1131444cd144cd006c501a1401a1599006647c6647d4896582583bf240885022003bf280886022043bf2c0887022083bf3008880220c3e65c08a802220600f808c83e6dc3e6dc08883e75d0ac8598c601c246631998c50ac740ac742b1f0ac790ac7998c501c200222198c5663900ac7d98c5582646631598c40ac680ac682b1c0ac6d0ac6d98c401c1c3e65808a70221c600f408c73e6d83e6d808873e7590221d98c46638c0ac7198c4582606631198c30ac5c0ac5c2b190ac610ac6598c35825c)
  (.lf 0))) (.nd (.nd (.lf
  0x58a11cf8c216cc21644000073e3221641cf8c5a98073e30858e2163421634858e58a0d021c9a051681c0681c14a8358a0c680c9628302bc80d899a05252a1068149a0510d8840d88436230d8890d889a05158a0c58a0c858e5a97c21639cf8b2162821628858c2162d21630000073e2e2162dcf8b5a978680c1628102bc00d88da05152a0c68145a0500d8780d87836200d87d0d881a05052a080d87da05058a0868141a04f0d86c0d86c361d0d8710d871a04f58a04021c1a04f681b8681b94a8158a04680c5628202bc458a09cf8b216c873e2c85892162021620858958a0558a0485895a974216248587216183f56c0c8c029b03f5700c8d029b43f5740c8e029b83f5780c8f029bc608880cac3f5ec6088c0cad3f5f0608900cae3f5f4608940caf3f5f83f5ec0a6c3f66d3f5f00a6d3f6713f5f40a6e3f6753f5f80a6f3f679422bc086d02188422c0086e0218c422c4086f0219042338086c02184216dc00005a99e216cc00005a982216d000005a98e216d800005a99a5a9b1cfb073f3c73ec1cfaf2183c2183c86112184121841cfaf5e9505a9adcfaf73f3821845cfaf5c95073ebdcfae2183021830860e2183521839cfae5c94c21835cfae5e94c)
  (.lf 0)) (.nd (.lf
  0x151a9b3e95db20151adb3e95bb2059be5b3e96d0206cfa5b3e8151981519854681519d59be1b3e86d01c151a1b3e85bb1c1519db3e85db1c6cfa1b3e71518c1518c54651519159bddb3e76d01815195b3e75bb1815191b3e75db186cf9db3e61518059bd9b3e66d0141518054621518515185b3e65db1415189b3e65bb146cf99b3e51517415174545f1517915179b3e55db10150c0000059bd61517db3e55bb1059bd5b3e56d0106cf95b3e41516815168545c1516d15171b3e45bb0c150bc000059bd259bd1b3e46d00c1516db3e45db0c6cf91b3e31515c1515c54591516115165b3e35bb0815161b3e35db08150b4000059bca59bc9b3e26d004150b8000059bce59bcdb3e36d0086cf8db3e2151501515054561515515159b3e25bb0415155b3e25db046cf89b3e1151445fa6005223d9c43d9c404e23da45136adb01349ddc6c04db0121369c5b8edb0126c0c41369c4da9136a1136a1b01249dd8136a5b012013946c049b01113690136904da61369513699b0110139013695b01149dd46c045b01013684136844da3136891368db0100138c13689b01049dd05b8e5b0106c0bc6c041b00f136783d944050201388136784da01367d13681b00f01388)
  (.lf 0)))

def shaGateTree44 : BTree :=
  .nd (.nd (.nd (.lf
  0x3f3dad246b50c6b50d65e000bbc59781ea722d6902d69000005b6965b696113384548844ce1132492904929124a6492954929a11325d6904929611325f6902d5d000007a9ca7a9c9ea712d5bc2d5bcb5712d5c12d5c1ea715b6902bc8de6b90043c79ae5e6b82bc7c2bc7caf212bc812bc85e6b803f385d491e6b879b5c79b5c0fce0043812459ad62537806b589ad61124441244449131244912449ad615977c04639ad616b6006b6014ddf5977c122edad2400bbc6b491ad23122dc122dc48b9122e1122e5ad235977c03f39ad236b5086b50965df00bb85977dea712d68c2d68c00005b6925b692113284544844ca1131492844928524a3492894928e11315d68c4928a11315f68c2d5c400007a9c67a9c4b56e2d5b42d5b4b56e597795d48de6b779b5879b580fcd004342bc81e6b80043879ae1e6b72bc702bc70af1e2bc752bc79e6b703f3403f35ad226b5046b50565de00bb41244dad615377c6b585ad60124381243849101243d1243dad605977804635ad606b5fc6b5fd4dde59778122e1ad2300bb86b48dad22122d0122d048b6122d5122d9ad225977859778b56e5b68c5b68e113184540844c61130492784927924a04927d4928211305d688)
  (.lf 0)) (.nd (.lf
  0x5e649ca3d729701f091ca3d60648728f5ca3c1f07c1f07c7c211f0817277d71915e6445e645ca3c7296c1f081ca3c626441f085ca3c60644728f1ca3b1f0701f0707c1e1f0751f075ca3b626401f079ca3b6064072769718c5e6305e631ca37729587277971905e6405e641ca3b72968728edca3a1f0641f0647c1b1f0691f069ca3a6263c72775718f5e63c5e63dca3a729641f06dca3a6063c728e9ca391f0581f0587c181f05d1f061ca39606381f05dca396263872771718e5e6385e639ca3972960728e5ca381f04c1f04c7c151f0511f055ca38606347276d718d5e6345e635ca387295c1f051ca3862634728e1ca371f0401f0407c121f0451f045ca37626301f049ca3760630728ddca361f0341f0347c0f1f0391f03dca366062c72765718b5e62c5e62dca36729541f039ca366262c728d9ca351f0281f0287c0c1f02d1f02dca356262872761718a5e6285e629ca35729501f031ca3560628728d5ca341f01c1f01c7c091f0211f021ca34626247275571875e61c5e61dca32729447275d71895e6245e625ca347294c1f025ca3460624728d1ca331f0101f0107c061f0151f019ca33606207275971885e6205e621ca33729481f015ca3362620)
  (.lf 0))) (.nd (.nd (.lf
  0x62e300dcf3cc14768e1838d62e3462e340dd03cc18768e5838e62e3862e380dd13cc1c768e9838f62e3c62e3c0dd23cc20768ed839062e4062e400dd33cc24768f1839162e4462e440dd43cc28768f5839262e4862e480dd53cc2c768f9839362e4c62e4c0dd63cc30768fd839462e5062e500dd73cc3476901839562e5462e540dd83cc383cbbc0dcb037183cbc00dcc0371c3cbc40dcd037203cbc80dce037243cbcc0dcf037283cbd00dd00372c3cbd40dd1037303cbd80dd2037343cbdc0dd3037383cbe00dd40373c3cbe40dd5037403cbe80dd6037443cbec0dd7037483cbf00dd80374c3cbf40dd9037503cbf80dda037543cbfc0ddb037583cc000ddc0375c3cc040ddd037603cc080dde037643cc0c0ddf037683cc100dc00376c3cc140dc1037703cc180dc2037743cc1c0dc3037783cc200dc40377c3cc240dc5037003cc280dc6037043cc2c0dc7037083cc300dc80370c3cc340dc9037103cc380dca037144003c0de003700400400de103704400440de203708400480de30370c4004c0de403710400500de503714400540de603718400580de70371c4005c0de803720400600de903724400640dea03728400680deb0372c4006c0dec03730)
  (.lf 0)) (.nd (.lf
  0x17f5966e65a3409f75966f5803c017f9966f65a3809f71966f012f8659bd966e09f6009f6027da09f6509f69966e5803809f65966e012f4659b9966d09f5409f5427d709f5909f5d966d58034017f1966d65a3009f59966d012f0659b5966c09f4818641bb3d5fe646ecf5bb3c1862c1862c618d1863118631bb3c61e605de61bb3c6ed6c6ed6d7f9861e6061e6005fb3bc446eda57fa661e9861e9805e93bc7c6edb97fab61eac61eac05ee3bc903bc7c05fb017d83bc9005e0017ec6edd17fb161ec43e1a8061b017ec5fec4063b3e2283e22805fb3e2a9017ed966c65a2c09f4827d409f4d09f4d966c012ec09f51966c58030659b1966b09f3c09f3c27d109f4109f41966b012e809f45966b5802c5de597f9661e585de5dbb3b6ed6818635bb3c5fe606ecf1bb3b1862018620618a1862518629bb3b5fe5c18625bb3b61e5c6eced7f9661e5961e5805f93bc3c6ed697f9761e5c61e5c05fa3bc406ed917fa161e8461e8405e43bc686ed957fa261e8861e8805e53bc6c6ed997fa361e8c61e8c05e63bc706ed9d7fa461e9061e9005e73bc746eda17fa561e9461e9405e83bc7861ecc05f63bcb061ed005f73bcb461ed405f83bcb83bc6805f6017c4)
  (.lf 0)))

def shaGateTree45 : BTree :=
  .nd (.nd (.nd (.lf
  0x611080ecc406ec6110c0ecd406f0611100ece406f4611140ecf406f8611180ed0406fc6111c0ed140700611200ed240704611240ed340708611280ed44070c6112c0ed540710611300ed640714611340ed740718611380ed84071c6113c0ed940720611400eda40724611440edb40728611480edc4072c6114c0edd40730611500ede40734611540edf40738406bc0e804073d406c00e8140741406c40e8240745406c80e8340749406cc0e844074d406d00e8540751406d40e8640755406d80e8740759406dc0e884075d406e00e8940761406e40e8a40765406e80e8b40769406ec0e8c4076d406f00e8d40771406f40e8e40775406f80e8f40779406fc0e904077d407000e9140781407040e9240785407080e93407894070c0e944078d407100e9540791407140e9640795407180e97407994071c0e984079d407200e99407a1407240e9a407a5407280e9b407a94072c0e9c407ad407300e9d407b1407340e9e407b5407380e9f407b953241df5677dd477d59df552872028720a1ca2872528729df555523c28725df555723c5323ddf5577dd077d55df542871428714a1c7287192871ddf545523828719df545723853239df5477dcc77d51df5328708)
  (.lf 0)) (.nd (.lf
  0x60204090b3e8e860208090c3e8ec6020c090d3e8f060210090e3e8f460214090f3e8f86021809103e8fc3e8e808cb3e9693e8ec08cc3e96d3e8f008cd3e9713e8f408ce3e9753e8f808cf3e9793e8fc08d03e97d41cb406cb01b0044de806eb01b2c542f0070b44ee844ee913da44fe944fe8070b01b2c01b2d99fe668746687548dc583700b28599c601d446671999c50b2740b2742c9f0b2790b27d99c5583840b27999c501d400234199c5667906671599c40b2680b2682c9c0b26d0b27199c4583800b26d99c401d3c0233d99c46678c6671199c30b25c0b25c2c990b2610b26599c35837c0b26199c301d380233999c3667886670d99c20b2500b2502c960b2550b25999c2583780b25599c201d340233599c2667846670999c10b2440b2442c930b2490b24d99c1583740b24999c101d300233199c1667806670599c00b2380b2382c900b23d0b24199c0583700232d99c06677c6677d60dc01d2c6678960df01d386688148df5837c5837c6eb11bb006688948e1583846679160e101d401ba1c6e8858385583846e885a3241ba206e861ba141ba146e86583816688548e0583806678d60e001d3c583806e865a3201ba186eb11ba081ba086e841ba0d)
  (.lf 0))) (.nd (.nd (.lf
  0x3f7640cca032a8609800cea3f7e43f7e40caa3f865032a9a103684880dc65a10358aec6840da1020dc500dc5037160dc550dc59a10258ae83f74c0cc4032903f7500cc5032943f7540cc6032983f7580cc70329c3f75c0cc8032a03f7600cc9032a4609680ce43f7cc6096c0ce53f7d0609700ce63f7d4609740ce73f7d8609780ce83f7dc6097c0ce93f7e03f7cc0ca43f84d3f7d00ca53f8513f7d40ca63f8553f7d80ca73f8593f7dc0ca83f85d3f7e00ca93f8610dc55a10202ca4032a5a1026848468409a1010dc440dc4437130dc490dc49a10102ca0032a1a101684800dc4da10158ae468405a1000dc380dc3837100dc3d0329da1006847c0dc41a10058ae00dc3da10002c9c68401a0ff0dc2c0dc2c370d0dc310dc35a0ff58adc0dc31a0ff02c9803299a0ff68478683fda0fe0dc200dc20370a0dc250dc29a0fe58ad803295a0fe684740dc25a0fe02c94683f9a0fd0dc140dc1437070dc190dc1da0fd58ad40dc19a0fd02c9003291a0fd68470683f5a0fc0dc080dc0837040dc0d0dc0da0fc02c8c6849162bd02cb03f7480cc30328c609640ce33f7c83f7c80ca33f8490328da0fc6846c0dc11a0fc58ad0683f1a0fb0dbfc0dbfc37010dc01)
  (.lf 0)) (.nd (.lf
  0x43df003cd00e3400e3594306513c5ba8db3206ccfc6ccfc054d49f780920d943151d7c650c59430091f8091f82480091fd091fd943057d7814c19b32149f7c6cc85b32014c083b9c4054d0152014c08530414c0d3dc70056d015345fc0c058d3dcf03dcf0054d3dd7114c11b320015340153593f265044650455f5e01034090a193f30103864fcd93f209090090902426090950909993f257d786513d475e57d7857d78599a166b41659c00001666a1666859641658c1658c596457d7509201943051d78650c1942f091ec091ec247d091f1091f1942f57d74416b8038c00e0453cf403cc43cec43bec03ac00e3043ced0f5b43ded43dec03cc00e3000e31942f6513865139475d57d740909593f20103464fc993f1090843b9c0054c0151c14c0db32049f786cc81b31f14bfc14bfc530114c0114c05b31f015303dc6c056c015305fc08058c3dcec3dcec054c3dd6d5ba89b31f6ccf86ccf8054c49f740153193f165040650415f5d01030090842423090890908d93f157d7457d74596459d48165905999165801658059621658516584599959d4443be803ab00e2c416b4038b00e000908993f10103064fc593f0090780907824200907d0908193f057d70)
  (.lf 0)))

def shaGateTree46 : BTree :=
  .nd (.nd (.nd (.lf
  0x299aca66d299b1299b5e1cf03ce403ce5aac26ab846ab85654a045e4116cdab015352c6ac05ab00116b8116b845b0116bd116bdab0059528043e5ab006ac7c6ac7d4d4a5952811561aac3045e86ab0daac2115501155045561155511559aac25952859528acb35b4445b445e57c7966c7966d750f5f43c5f43de5f87985c797e1e5f72b74c2b74cadd52b7512b755e5f7614382b751e5f7634382b491e57c5d43c795f1e57b2b47c2b47cad212b4812b481e57b5f4382b2ccacb12b2c02b2c0acb1595255d239e1ce787b4787b40f38001e0299b1e1cf001e47873de1ce299a0299a0a66a299a5299a9e1ce03ce003ce1aac16ab806ab816549045e0116c1ab00535286ac01aaff116ac116ac45ad116b1116b1aaff59524043e1aaff6ac786ac794d495952411555aac2045e46ab09aac111544115444553115491154daac15952459524acb15b4405b441e57b7966879669750e5f4385f439e5f779858797dde5f62b7402b740add22b7452b749e5f6614342b745e5f6634342b485e57b5d438795ede57a2b4702b470ad1e2b4752b475e57a5f4342b2c4acaf2b2b82b2b8acaf595215d235e1cd787b0787b00f37001dc299a5e1ce001e078739e1cd29994)
  (.lf 0)) (.nd (.lf
  0x1d3a474eb1d3a95e409c633719481d3adc633604081d3a9c63362408718cdc6321d3981d39874e81d39d1d39dc632624041d3a1c63260404718c9c6311d38c1d38c74e51d3911d391c631624001d395c631604005e3fdc6307193c5e401c63171940718c5c6301d3801d38074e21d3851d385c630623fc1d389c630603fc718c1c62f1d3741d37474df1d3791d379c62f623f85e3f9c62f719381d37dc62f603f8718bdc62e1d3681d36874dc1d36d1d36dc62e623f41d371c62e603f45e3f5c62e71934718b9c62d1d35c1d35c74d91d3611d365c62d603f05e3f1c62d719301d361c62d623f0718b5c62c1d3501d35074d61d3555e3edc62c7192c1d355c62c623ec1d359c62c603ec718b1c62b1d3441d34474d31d3491d34dc62b603e81d349c62b623e85e3e9c62b71928718adc62a1d3381d33874d01d33d1d341c62a603e45e3e5c62a719241d33dc62a623e4718a9c6291d32c1d32c74cd1d3311d335c629603e01d331c629623e05e3e1c62971920718a5c6281d3201d32074ca1d3251d329c628603dc1d325c628623dc5e3ddc6287191c718a180f6623d95e3d980f6623d8623d809593c1bc7191d80f7623dc623dc095a3c1c07192180f8623e0)
  (.lf 0))) (.nd (.nd (.lf
  0x58d41d5872418c2418c00005aca25aca1d5a6757147571573155ec545cc55d5e47580c7580c0dbf4b1404b1420a3d829708297133504e5404e5420ab982b6082ae60ab8395d8395d8e578395dd395e20ab84b4bc395de0ab84fd3c828f60a3c3930839308e4c43930d3930e0a3c4e53c68d914b4f58d3c68c99634f02ef875791d5e3244542445491172445924459d5e34b13c75699d5a5242ec242ec90bd242f1242f5d5a55cc507561c90562415424154905658d3d58d3c90565ac9c5ac9dd5a5757107571173145ec505cc51d5e375808758080dbe4b13c4b13e0a3c8296c8296d334f4e53c4e53e0ab882b5c82ae20ab7395cc395cce575395d1395d60ab74b4b8395d20ab74fd38393120a3c4cd3c828f20a3b392fc392fce4c139301393020a3b4e53868c95634e02ef468d8d4b4e58d382445dd5e3036f87578dd5e2244482444891142444d2444dd5e24b138242f1d5a55ec5075695d5a4242e0242e090ba242e5242e9d5a45cc4c2415890542414c2414c905458d3958d3890545ac985ac99d5a47570c7570d73135ec4c5cc4dd5e275804758040dbd4b1384b13a0a3b8296882969334e4e5384e53a0ab782b5882ade0ab6395c0395c0e572395c5)
  (.lf 0)) (.nd (.lf
  0x170345c0f170391703db803017b817039b8034a1fc6e00db80217028170285c0c1702d1702db8024a1f859dc1b7c16df806df816f405dd006df8d6f435dd0c5bd0db8026e08417031b802017b46e009b8011701c1701c5c091702117025b801017b06df896f425dd085bd09b8016e08017021b8014a1f46e005b80017010170105c061701516eadb7c25dd046df09b7c116e9c17015b8004a1f017019b800017ac6e001b7ff17004170045c03170091700db7ff017a816e9c5ba916ea116ea5b7c15bd005bd01b7ff6e07817009b7ff4a1ec6dffdb7fe16ff816ff85c0016ffd16ffdb7fe4a1e816ea1b7c15dd006df05b7c016e9016dfc000059dbe59dbdb7c06df7c16e905ba616e9516e95b7c05dcfc16e99b7c05bcfc6df01b7bf16e8459db9b7bf6df7859db5b7be6df7416e845ba316e896df756f3d5dcf416e89b7bf5dcf816e8db7bf5bcf86defdb7be16e7816e785ba016e7d16e81b7be5bcf45bcf5b7fc6e06c6df7d6f3f5dcfc5bcfdb7fe6e07417001b7fe017a46dff9b7fd16fec16fec5bfd16ff116ff1b7fd4a1e46df796f3e5dcf85bcf9b7fd6e07016ff5b7fd017a06dff5b7fc16fe016fe05bfa16fe516fe5b7fc4a1e016fe9b7fc0179c)
  (.lf 0)))

def shaGateTree47 : BTree :=
  .nd (.nd (.nd (.lf
  0x81866061837ad837ad8deb837add37ae20618000e037ade0618512244ca260618818dc81862061737acc37accdeb537ad137ad60617000dc37ad20617512204ca220617818d88185e061637ac037ac0deb237ac537aca0616000d837ac606165121c4ca1e0616818d48185a061537ab437ab4deaf37ab937abe0615000d437aba0615512184ca1a0615818d081856061437aa837aa8deac37aad37ab20614000d037aae0614512144ca160614818cc81852061337a9c37a9cdea937aa137aa60613000cc37aa20613512104ca120613818c88184e061237a9037a90dea637a9537a9a0612000c837a9606125120c4ca0e0612818c48184a061137a8437a84dea337a8937a8e0611000c437a8a0611512084ca0a0611818c081846061037a7837a78dea037a7d37a820610000c037a7e0610512044ca060610818bc81842060f37a6c37a6cde9d37a7137a76060f000bc37a72060f512004ca02060f818b88183e060e37a6037a60de9a37a6537a6a060e000b837a66060e511fc4c9fe060e818b48183a060d37a5437a54de9737a5937a5e060d000b437a5a060d511f84c9fa060d818b081836060c37a4837a48de9437a4d37a52060c000b037a4e060c511f4)
  (.lf 0)) (.nd (.lf
  0x4c189f9b77e7584c185f9b67e754332d1f9b7509887e6ddf9b6332c0332c0ccb2332c5332c9f9b64ad84332c5f9b6509847e6d9f9b5332b4332b4ccaf332b9332b9f9b550980332bdf9b54ad804c181f9b57e7507e6d5f9b4332a8332a8ccac332ad7e655305f4d97c4c17df9b47e74c332b1f9b44ad7c332adf9b45097c7e6d1f9b33329c3329ccca9332a1332a1f9b3509784c179f9b37e748332a5f9b34ad787e6cdf9b23329033290cca6332954c175f9b27e74433295f9b25097433299f9b24ad747e6c9f9b13328433284cca33328933289f9b1509704c171f9b17e7403328df9b14ad707e6c5f9b03327833278cca03327d4c16df9b07e73c33281f9b04ad6c3327df9b05096c7e6c1f9af3326c3326ccc9d3327133271f9af509687e641305a4d96833275f9af4ad684c169f9af7e7387e6bdf9ae3326033260cc9a3326533265f9ae509647e63d30594d9644c165f9ae7e73433269f9ae4ad647e6b9f9ad3325433254cc97332593325df9ad4ad6033259f9ad509601a0f5bef2023206fbc9bef11a0e01a0e0683a1a0e51a0e5bef14a5604a561f96f7e6387e63930584d9604c161f9ad7e7307e6b5f9ac33248330f1f96f4d9607e5bdf96e330e0)
  (.lf 0))) (.nd (.nd (.lf
  0xd4c19fa0589b00d4bd9fa002b6c0296d9fa067efc67e819f9f0d4ac0d4ac352d0d4b10d4b19f9f02b680d4b59f9f589ac029699f9f67ef867e7d9f9e0d4a00d4a0352a0d4a50d4a99f9e589a80d4a59f9e02b6467e799f9d0d4940d49435270d4990d4999f9d02b600d49d9f9d589a4029619f9d67ef067e759f9c0d4880d48835240d48d0d48d9f9c02b5c0d4919f9c589a00295d9f9c67eec67e719f9b0d47c0d47c35210d4810d4819f9b02b580d4859f9b5899c029599f9b67ee867e6d9f9a0d4700d470351e0d4750d4799f9a589980d4759f9a02b54029519f9967ee0029559f9a67ee467e699f990d4640d464351b0d4690d46d9f99589940d4699f9902b5067e659f980d4580d45835180d45d0d45d9f9802b4c0294d9f9867edc0d4619f985899067e619f970d44c029499f9767ed80d44c35150d4510d4519f9702b480d4559f975898c67e5d9f960d4400d44035120d4450d4459f9602b440d4499f9658988029459f9667ed467e599f950d4340d434350f0d4390d4399f9502b400d43d9f9558984029319f9167ec0029419f9567ed067e559f940d4280d428350c0d42d0d4319f94589800d42d9f9402b3c0293d9f9467ecc67e519f930d41c)
  (.lf 0)) (.nd (.lf
  0x63a0d2d62008443b7552d624b5744b589918a646a46c5a57e5d619746c5a97e5e61978619792d523b75c3b75d2d644b57c3d78804d34b5905f9a404f33d808619c12d643b7a463a152d640084c3d8092d643d8894b591918c646ac5f9a004f23d8043d8052d633d885082cd918c00dcc082d1918c57b1064631918b082bc63a112d6300848082bc20b1082c1619752d513b758082c1918b00dc83d78404d24b58c082c5918b57b0c3b7592d634b5784b58d918b646a86462d918a082b0082b020ae082b5082b5918a00dc4082b9918a57b08646299189082a4082a420ab082a9639f92d5d00830070018e5b008206396d8e5a06ff006ff01bfe06ff5846a18e5a639e406ff98e5a4b56006ff58e5a0081c639698e5906fe406fe41bfb06fe906fed8e594b55c848b18f5663dd4075c98f564b77063d598f55075b4075b41d6f075b9848a98f5463dcc848ad8f5563dd0075b98f5500a28075bd8f554b76c63d558f54075a8075a81d6c075ad075ad8f5400a24075b18f544b76863d518f530759c0759c1d69075a1075a18f5300a203b7512d614b5705f99804f03d7fc3d7fd2d613d87d3d77c04d04b584082a9918900dc063a092d61008404b5859189646a0)
  (.lf 0)))

def shaGateTree48 : BTree :=
  .nd (.nd (.nd (.lf
  0x2d1b1e9be005bc7a6f9e9bd2d1a02d1a0b46a2d1a52d1a9e9bd040b85d611e9bd7a7707a770102e005b8040ba10788425c841e2107748e4c48e4d239548e5148e561077598ec48e52107700a342d1a5e9bd005b87a6f5e9bc2d1942d194b4672d1992d19de9bc040b45d60de9bc7a76c7a76c102d005b4040b6107784258841de107648e4048e41239248e4548e4a1076598e848e46107600a302d199e9bc005b47a6f1e9bb2d1882d188b4642d18d2d191e9bb040b05d609e9bb7a7687a768102c005b0040b2107684254841da107548e3448e35238f48e3948e3e1075598e448e3a107500a2c2d18de9bb005b07a6ede9ba2d17c2d17cb4612d1812d185e9ba040ac5d605e9ba7a7647a764102b005ac040ae107584250841d6107448e2848e29238c48e2d48e321074598e048e2e107400a282d181e9ba005ac7a6e9e9b92d1702d170b45e2d1752d179e9b9040a85d601e9b97a7607a760102a005a8040aa10748424c841d2107348e1c48e1d238948e2148e261073598dc48e22107300a242d175e9b9005a87a6e5e9b82d1642d164b45b2d1692d16de9b8040a45d5fde9b87a75c7a75c1029005a4040a6107384248841ce107248e1048e11238648e15)
  (.lf
  0x6be81af9f1324c1324c4c951325113255af9f539fc13251af9f559fc078ad8fd400b3463f518fd30789c0789c1e29078a1519f9af9e6bef46be7daf9e13240132404c921324513245af9e559f813249af9e539f86be79af9d13234132344c8f1323913239af9d559f4849b58fd363fc863fc92e1d00b30078a58fd34b8741323daf9d539f46433190cb07e3c07e3c1f9107e4107e4590cb519f4413392e1d4b8484b87590cb643a8643a9467d579f4519f5af9d6bef06be75af9c13228132284c8c1322d1322daf9c559f007e4190cb579f46432d90ca07e3007e301f8e07e3507e3990ca519f0849b18fd263fc4078a18fd300b3063f4d8fd207890078901e2607895078998fd24b870078958fd200b2c63f498fd107884078841e2307889078898fd100b280788d8fd14b86c849ad8fd163fc063f458fd007878078781e200787d63fc52e1c00b2c63fc12e1b00b28539692dda43260432610cb8433615396d2ddb4326407e3590ca579f0433612dda4b868849a98fd063fbc539712ddc43268432690cba43369433692ddc4b870413352e1c4b8444b87190ca643a46432990c907e2407e241f8b07e2907e2990c9579ec07e2d90c9519ec078818fd04b868))
  (.nd (.lf
  0x36d0a03b14e0b880ec603b036cf836cf8db4036cfd36d0203b04c8b44acb603b080f3c80f3d322d4e0b44c8b603ee8103480fba03ed36e5436e54db9736e5936e5e03ed4b4b036e5a03ed510b036cfe03b04e0b480ec203af36cec36cecdb3d36cf136cf603af4c8b04acb203af80f3880f39322c4e0b04c8b203ed8103080fb603ec36e4836e48db9436e4d36e5203ec4b4ac36e4e03ec510ac36cf203af4e0b080ebe03ae36ce036ce0db3a36ce536cea03ae4c8ac4acae03ae80f3480f35322b4e0ac4c8ae03ec8102c80fb203eb36e3c36e3cdb9136e4136e4603eb4b4a836e4203eb510a836ce603ae4e0ac80eba03ad36cd436cd4db3736cd936cde03ad4c8a84acaa03ad80f3080f31322a4e0a84c8aa03eb8102880fae03ea36e3036e30db8e36e3536e3a03ea4b4a436e3603ea510a436cda03ad4e0a880eb603ac36cc836cc8db3436ccd36cd203ac4c8a44aca603ac80f2c80f2d32294e0a44c8a603ea8102480faa03e936e2436e24db8b36e2936e2e03e94b4a036e2a03e9510a036cce03ac4e0a480eb203ab36cbc36cbcdb3136cc136cc603ab4c8a04aca203ab80f2880f2932284e0a04c8a203e98102080fa603e836e1836e18db8836e1d)
  (.lf 0))) (.nd (.nd (.lf
  0x5ef91dcf87745c773e1dcf7276f4276f49dbf276f9276fddcf760f8c276f9dcf762f8c27439dc7c5cf90771f1dc7b27424274249d0b2742927429dc7b5ef8c2724c000027312273109c902723c2723c9c9059079590789c905afb85afb9dc7b772687726973e35ef8c5ef8ddcf777458773dddcf6276e8276e89dbc276ed276f1dcf660f88276eddcf662f882742ddc7b5cf8c771eddc7a27418274189d082741d2741ddc7a5ef88272409c8e27234272349c8e59075590749c8e5afb45afb5dc7a772647726573e25ef885ef89dcf677454773d9dcf5276dc276dc9db9276e1276e5dcf560f84276e1dcf562f8427421dc7a5cf88771e9dc792740c2740c9d052741127411dc795ef84272389c8c2722c2722c9c8c59071590709c8c5afb05afb1dc79772607726173e15ef845ef85dcf577450773d5dcf4276d0276d09db6276d5276d9dcf460f80276d5dcf462f8027415dc795cf84771e5dc7827400274009d022740527405dc785ef80272309cc327220272209c8a27225272249cc35afac5906c9cc3273582735800005afae5afaddc787725c7725d73e05ef805ef81dcf47744c773d1dcf3276c4276c49db3276c9276cddcf360f7c276c9dcf362f7c)
  (.lf 0)) (.nd (.lf
  0x6f7c970155e0545c055be116f8c06f845be1019b1c19b1c66c919b2119b21be104a53c6f7c570145e0505c051be106f8bc19b25be10022f86f841be0f19b106f7bd70125e0485c049be0e6f8b419b1066c619b1519b19be0f022f419b15be0f4a5386f7c170135e04c5c04dbe0f6f8b86f83dbe0e19b0419b0466c319b0919b09be0e4a53419b0dbe0e022f06f839be0d19af819af866c019afd6f79d700a5e0286f7b970115e0446f78570045e0106f77970015e0046f7b570105e0406f77d70025e0086f78170035e00c5c029be066f8946f7a1700b5e02c5c02dbe076f89819b01be0d022ec5c045be0d6f8b019afdbe0d4a5306f835be0c19aec19aec66bd19af119af1be0c4a52c19af5be0c022e85c041be0c6f8ac6f831be0b19ae019ae066ba19ae519ae9be0b022e46f7b1700f5e03c5c03dbe0b6f8a819ae5be0b4a5286f82dbe0a19ad419ad466b719ad919ad9be0a4a52419addbe0a022e06f7a9700d5e0345c035be096f8a06f7ad700e5e0385c039be0a6f8a46f829be0919ac819ac866b419acd19acdbe094a52019ad1be09022dc6f825be0819abc19abc66b119ac119ac5be08022d819ac1be084a51c6f7a5700c5e0305c031be086f89c)
  (.lf 0)))

def shaGateTree49 : BTree :=
  .nd (.nd (.nd (.lf
  0x77fa00ef6000d828b45dfca000dc77f29dfc928b3428b34a2cf28b3928b3ddfc903bd803bd9a9c76a7986a7996507044d811109aa06534206a819aa05110f4110f4443f110f9110f9aa055941c042d9aa056a8906a8914d075941c10f9da9c8044dc6a721a9c710f8c10f8c43e510f9110f95a9c75941c5941ca9345b3445b345e37e78e7478e7574cc5f3305f331e3fa7906478fe9e3f92a9442a944aa532a9492a94de3f96132c2a949e3f96332c2a689e37e5d33078df9e37d2a6742a674a99f2a6792a679e37d5f32c2a4d0a9502a4c02a4c0a9322a4c52a4c4a9505b34028b39dfc9000d877f25dfc828b2828b28a2cc28b2d28b31dfc803bd45d12ddfc877f9c77f9c0ef5000d4110fdaa055341c6a815aa04110e8110e8443c110ed110edaa0459418042d5aa046a88c6a88d4d065941810f91a9c7044d86a71da9c610f8010f8043e210f8510f89a9c65941803bd5a9c66a7946a7956506044d459418a9502a5782a57800005b3425b341e37d78e7078e7174cb5f32c5f32de3f97906078fe5e3f82a9382a938aa502a93d2a941e3f8613282a93de3f8633282a67de37d5d32c78df5e37c2a6682a668a99c2a66d2a66de37c5f3282a4c800002a542)
  (.lf 0)) (.nd (.lf
  0xb8d19aec5244866bb1491158445450bc072001c00543c40740451bc451bd148f452bd452bc074001c0001c014911584440b7659aae01e0466ab9611101e015844400005a3d65a3d570d65e3587144409914a8887143c098f4a8801cabc72b11cac11cac5c4e3026085c361c4e3714081cac1c4e34a84c7138dc4e21cab01cab072ae1cab57147c099f4a8c071478099e4a8bc7130d70d75e35c5c35dc4e2714047142009884a8647141409854a8587141009844a8547141809864a85c7141c09874a8601cab9c4e2026047140c09834a8507146c099b4a8b071470099c4a8b471474099d4a8b871428098a4a86c5c35809804a8447140409814a8487140809824a84c1cab5c4e24a8487142409894a86871434098d4a8787144809924a88c7144c09934a8907144009904a88471468099a4a8ac7138809804a8457142c098b4a8707145409954a8987145809964a89c7145009944a89471438098e4a87c4a8c1fde37f8087f80931304dcc04c4c1fe217f9007f885fe2034cb834cb8d33034cbd34cc1fe204b0bc34cbdfe2050cbc7f78dfde234b5034b50d2d634b5534b59fde24c4bc4a8bdfde27f8047f805312f4dcbc4c4bdfe207f8fc7f881fe1f34cac)
  (.lf 0))) (.nd (.nd (.lf
  0x6c612c4e4b13006c652c4f4b13406c692c504b13806c6d2c314b13c06c712c324b14006c752c334b0c406c792c344b0c806c7d2c354b0cc06c812c364b0d006c852c374b0d406c892c384b0d806c8d2c394b0dc8256d2ce74fc1c4fc1d2c3a4b0e0825712ce84fc204fc212c3b4b0e4825752ce94fc244fc252c3c4b0e8825792cea4fc284fc292c3d4b0ec8257d2ceb4fc2c4fc2d2c3e4b0f0825812cec4fc304fc312c3f4b0f4825852ced4fc344fc352c404b0f8825892cee4fc384fc392c414b0fc8258d2cef4fc3c4fc3d2c424b100825912cf04fc404fc412c434b1045eb55d417750d87505dd416237dc237dc8df9237e1237e5d41660b50237e1d41662b505eb51d416750d475059d415237d0237d08df6237d5237d9d41560b4c237d5d41562b4c5eb4dd415750d075055d414237c4237c48df3237c9237cdd41460b48237c9d41462b485eb49d414750cc75051d413237b8237b88df0237bd237c1d41360b44237bdd41362b445eb45d413750c87504dd412237ac237ac8ded237b1237b5d41260b40237b1d41262b405eb41d412750c475049d411237a0237a08dea237a5237a9d41160b3c237a5d41162b3c5eb3dd411750c075045d41023794)
  (.lf 0)) (.nd (.lf
  0x159b9b5100160c5bb65b5106d4bc159b5b5104a0506d441b50f159a4159a4566b159a9159adb50f01608159a9b50f4a04c5bb61b50f6d4b86d43db50e159981599856681599d1599db50e4a0480611d28134a0440612128144a0480612528154a04c6d4c005844a0546d4bc05834a0504a051f2277c9184a055f2287c91c6d4b805824a04c3069df2284d4547c8a1f2273068c3068cc1a53069130691f2274d45030695f2274bc507c89df2263068030680c1a2306854a04df2267c91430689f2264bc4c30685f2264d44c7c899f2253067430674c19f3067930679f2254d4485bb5db50e6d4b4159a1b50e016046d43805804a0456d4b405814a0484a049f2257c9103067df2254bc487c8952f114d4455bb5805804a0444a0452f114d4444bc452a11504447c9212f164d4584bc59f2677ca1830811f2675045830815f2674a8587c99df2663080030800c202308057c9112f124d4487c91d2f154d45430809f2664a8544bc55f2667ca1430805f266504547c999f265307f4307f4c1ff307f9307f9f265504507c9152f134d44c4bc4df2647ca0c7c9192f144d450307fdf2654a8504bc51f2657ca107c995f264307e8307e8c1fc307ed307edf2645044c)
  (.lf 0)))

def shaGateTree50 : BTree :=
  .nd (.nd (.nd (.lf
  0x2ae64ab9b2ae692ae6de4b703e3803e39ac2b6b1286b129659f0473811eb9ac6a536806b1a9ac6911ea411ea447ab11ea911ea9ac695967c04539ac696b2206b2214d9f5967c11d4dac2c0473c6b0b1ac2b11d3c11d3c475111d4111d45ac2b5967c5967cb1de5b5905b591e8877a2987a29975645f5905f591e9037a4887a40de9022cbbc2cbbcb2f12cbc12cbc5e9026158c2cbc1e9026358c2c901e8875d5907a21de8862c8ec2c8ecb23d2c8f12c8f1e8865f58c2c778b1dc2c76c2c76cb1dc596795d38de4b679354793540f8d003342ae69e4b700338792dde4b62ae582ae58ab982ae5d2ae61e4b603e3403e35ac2a6b1246b125659e0473411eadac695367c6b1a5ac6811e9811e9847a811e9d11e9dac685967804535ac686b21c6b21d4d9e5967811d41ac2b047386b0adac2a11d3011d30474e11d3511d39ac2a5967859678b1dc5b58c5b58de8867a2947a29575635f58c5f58de9027a4847a409e9012cbb02cbb0b2ee2cbb52cbb9e901615882cbb5e901635882c8f5e8865d58c7a219e8852c8e02c8e0b23a2c8e52c8e5e8855f5882c771e86f2c7602c760b1da2c7652c765e86f5b5882ae5de4b600334792d9e4b52ae4c2ae4cab952ae51)
  (.lf 0)) (.nd (.lf
  0x71e315175565d4565d4079a41f4c565f0078141f6871e55517e565f8565f8078341f705661c078c41f9456624078e41f9c41f68079801e3441f70079a01e3c41f94078301e6041f9c078501e680c5399cf5586ac4571c07b801e604572407ba01e685462407d84581c5462c07da458244581d16274591d458251629459254591c07d801e604592407da01e680c53d9cf5526ac01e699cf567450673d59cf40c5280c528314c0c52d0c52d9cf4586a80c5319cf4526a801e619cf367448673d19cf30c51c0c51c31490c5210c5219cf3586a40c5259cf3526a4673cd9cf20c5100c51031460c51571e7551865661871e255172565c8565c8079741f4071e49517b565ec565ec078041f6456618078b41f9041f64079701e3041f90078201e5c4571807b701e5c5462007d745818458191626459194591807d701e5c01e5d9cf26744471e71518556614525c55171565c4565c4079641f3c56614078a41f8c41f60079601e2c41f8c078101e580c5199cf2526a04571407b601e585461c07d645814458151625459154591407d601e580c5159cf2586a0673c99cf10c5040c50431430c5090c5099cf15869c01e599cf1674406744149a75869c6734961a702058)
  (.lf 0))) (.nd (.nd (.lf
  0x2e41a4ab69328692ada4aa0f1b00f1b03c6e0f1b50f1b9a4aa52e800f1b5a4aa58e80427440b8f02e1046ef80baf02e3c54e000bcf46ff846ff91c1e470f9470f80bcf02e3c02e3da4aa69324692a9a4a90f1a40f1a43c6b0f1a90f1ada4a952e7c0f1a9a4a958e7c4273c0b8d02e08427400b8e02e0c427b40b8b02e00427b80b8c02e040367da47c6926c691f1a47b0f0fc0f0fc3c410f1010f105a47b58ebc03679a47b692680f101a47b03078691eda47a0f0f00f0f03c3e0f0f50f0f9a47a58eb803675a47a692640f0f5a47a03074691e9a4790f0e40f0e43c3b0f0e90f0eda47958eb403671a479692600f0e9a47903070691e5a4780f0d80f0d83c380f0dd0f0e1a47858eb00366da4786925c0f0dda4780306c691e1a4770f0cc0f0cc3c350f0d10f0d5a47758eac03669a477692580f0d1a47703068691dda4760f0c00f0c03c320f0c50f0c9a47658ea803665a476692540f0c5a47603064691d9a4750f0b40f0b43c2f0f0b90f0bda47558ea403661a475692500f0b9a47503060691d5a4740f0a80f0a83c2c0f0ad0f0b1a47458ea00365da4746924c0f0ada4740305c691d1a4730f09c0f09c3c290f0a10f0a5a47358e9c03659a47369248)
  (.lf 0)) (.nd (.lf
  0x7d7f12fc84d7204bf21f61b7d8e87d86df61a31df031df0c77e31df531df9f61a4ab1c31df5f61a5071c4bf1df61a7d8e47d869f61931de431de4c77b31de931dedf6194ab1831de9f619507187d865f61831dd831dd8c77831ddd31dddf618507147d7d92fc24d7084bf09f6157d8d07d7e52fc54d71431de1f6184ab144bf15f6187d8dc7d861f61731dcc31dccc77531dd131dd5f6174ab1031dd1f617507104bf11f6177d8d87d85df61631dc031dc0c77231dc531dc9f6164ab0c31dc5f6165070c7d7dd2fc34d70c4bf0df6167d8d47d859f61531db431db4c76f31db931db9f6155070831bfdf5d04d6ec6e86c06284a2e44a2e5f5ce7d7b47d741f5cf31bec31becc6fd31bf131bf5f5cf4bee831bf1f5cf4d6e86e87006294a2e84a2e9f5cf7d7b87d73df5ce31be031be0c6fa31be531be5f5ce4d6e431be9f5ce4bee47d739f5cd31bd431bd4c6f731bd96e86006254a2d831bd9f5cd4d6e04a2d9f5cb7d7a86e86406264a2dc31bddf5cd4bee07d735f5cc31bc831bc8c6f431bcd31bd1f5cc4bedc31bcdf5cc4d6dc4a2ddf5cc7d7ac7d731f5cb31bbc31bbcc6f131bc131bc1f5cb4d6d831bc5f5cb4bed87d72df5ca31bb07d7ad2fb74d6dc)
  (.lf 0)))

def shaGateTree51 : BTree :=
  .nd (.nd (.nd (.lf
  0x27e81de096103827e7dde09630385f039de09778a077825de0827e6c27e6c9f9d27e7127e75de086103427e71de08630345f035de087789c77821de0727e6027e609f9a27e6527e69de076103027e65de07630305f031de07778987781dde0627e5427e549f9727e5927e5dde066102c27e59de066302c5f02dde067789477819de0527e4827e489f9427e4d27e51de056102827e4dde05630285f029de057789077815de0427e3c27e3c9f9127e4127e45de046102427e41de04630245f025de047788c77811de0327e3027e309f8e27e3527e39de036102027e35de03630205f021de03778887780dde0227e2427e249f8b27e2927e2dde026101c27e29de026301c5f01dde027788477809de0127e1827e189f8827e1d27e21de016101827e1dde01630185f019de017788077805de0027e0c27e0c9f8527e1127e15de006101427e11de00630145f015de007787c77801ddff27e0027e009f8227e0527e09ddff6101027e05ddff630105f011ddff77878777fdddfe27df427df49f7f27df927dfdddfe6100c27df9ddfe6300c5f00dddfe77874777f9ddfd27de827de89f7c27ded27df1ddfd6100827dedddfd630085f009ddfd77870777f5ddfc27ddc)
  (.lf 0)) (.nd (.lf
  0x1af99995666d05626806bf41be07027550a35628c5628c06a841c04702a150ae562b8562b806b341c3041c0406bf01ad041c3006aa01afc44cb806df01afc702a950b0562c0542c006ff44db844db9138e44eb944eb806ff01afc01afd9996666d46665999950b1b40b1b42c6f0b1b90b1b999955833c0b1bd99955233c6665599940b1a85626006bd41bd87026d50a1562845628406a641bfc7029950ac562b0562b006b141c2841bfc06bd01ac841c2806a801af444cb006dd01af4542b806fd44db044db1138c44eb144eb006fd01af401af59994666cc0b1a82c6c0b1ad0b1b19994523380b1ad9994583386665199930b19c0b19c2c690b1a10b1a5999352334702395094562505625006b941bc87025d509d562745627406a241bec7028950a8562a0562a006ad41c1841bec06b901ab841c1806a401ae444ca006d901ae47029150aa562a8542a806f944da044da1138844ea144ea006f901ae401ae59990666bc70261509e562787023d5095562545625406ba41bcc702415096562585625806bb41bd05625c06bc41bd45627806a341bf070265509f5627c5627c06a441bf47026950a0562805628006a541bf87028d50a9562a4562a406ae41c1c)
  (.lf 0))) (.nd (.nd (.lf
  0x2187886202187d5c8edcfd473fcc2187dcfd44add873fcc0ce54add84adda05c7817988179932764e1d84e1da0643819888190e064237b5037b50ded637b5537b5a06424b15437b5606424f9d43789605c74c9d88171e05c63788037880de22378853788605c64e1d421881cfd40339473f51cfd32186c2186c861d218715c8e9cfd373fc821871cfd34add473fc80ce44add44add605c6817948179532754e1d44e1d60642819848190a064137b4437b44ded337b4937b4e06414b15037b4a06414f9d03788a05c64c9d48171a05c53787437874de1f378793787a05c54e1d021875cfd30339073f4dcfd2218605c8e5cfd273fc421860861a2186521865cfd24add073fc40ce34add04add205c5817908179132744e1d04e1d206418198081906064037b3837b38ded037b3d37b4206404b14c37b3e06404f9cc3787e05c54c9d08171605c43786837868de1c3786d3786e05c44e1cc21869cfd20338c73f49cfd1218545c8e1cfd173fc02185486172185921859cfd14adcc73fc00ce24adcc4adce05c48178c8178d32734e1cc4e1ce06408197c81902063f37b2c37b2cdecd37b3137b36063f4b14837b32063f4f9c83787205c44c9cc8171205c33785c)
  (.lf 0)) (.nd (.lf
  0x51c6db49b6d2e86d26db49a1557015570555e1557515575b49a55c6851c69b49a6d2e415579b49a53c686d269b4991556415564555b155696d3054f2255c8855c880367416004162c036900df843ab4039e00df808c25933351c6451c65b4996d2e06d2e14f1955c6415569b49955c6455c64037e415dc6d3394f2f55cbc53cbc03be43bb443bb50f0d43cb543cb403be00df841600037e00dcc00df993c564f9008c21933357c6453be00387439d8439d90e9643ad943ad8038700d1c438d8036700d1c64ccd933208c1008c10230608c1553bdc0386439d4439d50e9543ad508c15933257c6008c19933251c6000d1d933264d4464cc9933108c0408c04230308c0908c0d933151c5c08c09933157c5c53bd80385439d0438d4036600d1843ad4038600d1800d19933164d4064cc5933008bf808bf8230008bfd08bfd933057c5808c01933051c58438d0036500d14439d10e9443ad143ad0038500d1400d15933064d3c64cc1932f08bec08bec22fd08bf108bf5932f51c5443aac039c00df06d2e54f1a55c6855c68037f415e06d3354f2e55cb855cb80373416306d33d4f3055cc053cc003bf43bb843bb90f0e43cb96d3094f2355c8c55c8c036841604)
  (.lf 0)))

def shaGateTree52 : BTree :=
  .nd (.nd (.nd (.lf
  0x4312811a8046f44312c11a9046f84313011aa046fc4313411ab046804313811ac0468448b3c11c00468048b4011c10468448b4411c20468848b4811c30468c48b4c11c40469048b5011c50469448b5411c60469848b5811c70469c48b5c11c8046a048b6011c9046a448b6411ca046a848b6811cb046ac48b6c11cc046b048b7011cd046b448b7411ce046b848b7811cf046bc48b7c11d0046c048b8011d1046c448b8411d2046c848b8811d3046cc48b8c11d4046d048b9011d5046d448b9411d6046d848b9811d7046dc48b9c11d8046e048ba011d9046e448ba411da046e848ba811db046ec48bac11dc046f048bb011dd046f448bb411de046f848bb811df046fc5574411e048c3c5574811e148c405574c11e248c445575011e348c485575411e448c4c5575811e548c505575c11e648c545576011e748c585576411e848c5c5576811e948c605576c11ea48c645577011eb48c685577411ec48c6c5577811ed48c705577c11ee48c745578011ef48c785578411f048c7c5578811f148c805578c11f248c845579011f348c885579411f448c8c5579811f548c905579c11f648c94557a011f748c98557a411f848c9c557a811f948ca0557ac11fa48ca4)
  (.lf 0)) (.nd (.lf
  0x1f2507c961f2551f2547ccd5a6e85a6e9caa572b101f3e47cfb1f3e91f3edcaa55c6781f3e9caa55e67872a95caa41f3d83f05809e70271c605f40a073f0d83f0d809c73f1591f25800001f336459d807e701f1c546e0080745ad845ad916d645bd945bd8080701f1c01f1d9dda677e4677e549d8587600ca059ddb527640c8999d9d02120676759d9c0c8880c88832240c88d0c8919d9c587600271d9d9c676ec1f3347c931f2481f2487c9358761676ed61d80211c6776d9dda0c9f00c9f0327e0c9f50c9f59dda58760587607c935a6e45a6e5caa472b0c1f3d87cf81f3dd1f3ddcaa45e6741f3e1caa45c67472a91caa31f3cc1f3cc7cf51f3d11f3d5caa35c6703f05009e5027143f05409e602718605ec0a053f0d0605f00a063f0d43f0d009c53f1513f0d409c63f155459d007e501f14546d8080545ad045ad116d445bd145bd0080501f1401f159dd8677dc677dd49d6587580c88d9d9c0211c676719d9b0c87c0c87c32210c8810c8859d9b5875c027199d9b676e80c8819d9b021180c9f99dda52760677699dd90c9e40c9e4327b0c9e90c9e99dd95875c0c9ed9dd95275c027159d9a676e4677659dd80c9d80c9d832780c9dd0c9dd9dd858758)
  (.lf 0))) (.nd (.nd (.lf
  0x75bc00dc24b14c03709a557695d8695d963d303108696f94bdd58f74697054be058f80697014bdf58f7c0f555a55758f4c0f551a557031086955da5560f5406964963ef03178696f54bdc58f70695dd63d40310c24a15d6d14b14c75b45d6d024a0424a04928324a0924a0dd6d00370424a09d6d04b1485cc5dd6d075bbc5cc580dc04b14475b400dc04b1450370163d1031006964563ee0317475bbc0dc14b14803705a556695d46964d63f00317c6964163ed03170695e163d503110696fd4bde58f780f5403d520f5450f549a55658f48695e963d7031180f545a556031046970d4be258f88695d563d2031046955963d103101697214be758f9c697154be458f906971d4be658f98697094be158f84697394bed58fb46972d4bea58fa8697314beb58fac697354bec58fb0697294be958fa46960163dd03130695f563da03124695f963db03128695fd63dc0312c695f163d903120697254be858fa0695ed63d80311c58fc099345af085af09da9d76af076af173b55eed45eed5db1976ce076c65db1826928269289a4c2692d26931db1860ed02692ddb1862ed076a75da9c266582665899982665d2665dda9c5eed0264d0992a264a4264a4992a58fbd)
  (.lf 0)) (.nd (.lf
  0x7de51f7933269c3269cc9a9326a1326a1f79350830326a5f7934ac307de4df7923269032690c9a63269532699f7924ac2c32695f7925082c4c02df7927dec47de49f791326844c029f7917dec032684c9a3326893268df7914ac2832689f791508287de45f7903267832678c9a03267d3267df7905082432681f7904ac244c025f7907debc7de41f78f3266c3266cc99d3267132675f78f4ac2032671f78f508204c021f78f7deb87de3df78e3266032660c99a3266532669f78e4ac1c4d6d1f6457d9907d99129944eed031e89f6464a6547d919f64531e7431e74c79f31e7931e79f6454eed04eed128fe063540635529074a4146f0a406764a41c4a41df7507ddbc7ddbd30074d81c32509f7514d8207dd45f750324f8324f8c940324fd32501f7504c01c4c01df78e7deb432665f78e5081c7de39f78d3265432654c9973265932659f78d508184d6cdf6447d98c7d98d29934eecc31e7df6454a6507d915f64431e6831e68c79c31e6d31e6df6444eecc4eecd28fd063500635129064a4106f0a006754a4184a419f74f7ddb87ddb930064d818324fdf7504d81c7dd41f74f324ec324ecc93d324f1324f5f74f4c0184c019f78d7deb03265df78d4ac18)
  (.lf 0)))

def shaGateTree53 : BTree :=
  .nd (.nd (.nd (.lf
  0x29390a4e62939529399e0f86119429395e0f863194290d5e07d5d198781f5e07c290c0290c0a432290c5290c5e07c5f19428f08a3ed28ef828ef8a3c028efd28efca3ed5b1b46a1ad64a00433c59280a3ed28ff828ff800005b1b65b1b5e07c7826c7826d74655f1945f195e0f87845c783e1e0f72938429384a4e3293892938de0f76119029389e0f763190290c9e07c5d194781f1e07b290b4290b4a42f290b9290b9e07b5f19028f00000028fb628fb4a3bd28ef028ef0a3bd5927d6a1a9649f043385927ca3bd5b1b05b1b1e07b782687826974645f1905f191e0f778458783dde0f62937829378a4e02937d29381e0f66118c2937de0f66318c290bde07b5d190781ede07a290a8290a8a42c290ad290ade07a5f18c28ef4a3ec28ee428ee4a3bb28ee928ee8a3ec5b1ac6a1a5649e0433459278a3ec28ff428ff400005b1ae5b1ade07a782647826574635f18c5f18de0f678454783d9e0f52936c2936ca4dd2937129375e0f56118829371e0f563188290b1e07a5d18c781e9e0792909c2909ca429290a1290a1e0795f18828eec000028fb228fb0a3eb28ed828ed8a3b828edd28edca3eb5b1a86a1a1649d0433059274a3eb28ff028ff000005b1aa)
  (.lf 0)) (.nd (.lf
  0x7f2c52bd550b5450b552bb8053547f2c92bd650b5850b592bb9053587f2cd2bd750b5c50b5d2bba0535c7f2d12bd850b6050b612bbb053607f2d52bd950b6450b652bbc053647f2d92bda50b6850b692bbd053687f2dd2bdb50b6c50b6d2bbe0536c7f2e12bdc50b7050b712bbf053707f2e52bdd50b7450b752bc0053747f2e92bde50b7850b792bc1053787f2ed2bdf50b7c50b7d2bc20537c7f2f12be050b8050b812bc3053807f2f52be150b8450b852bc4053847f2f92be250b8850b892bc5053887f2fd2be350b8c50b8d2bc60538c7f3012be450b9050b912bc7053907f3052be550b9450b952bc8053947f3092be650b9850b992bc9053987f30d2be750b9c50b9d2bca0539c7f3112be850ba050ba12bcb053a07f3152be950ba450ba52bcc053a47f3192bea50ba850ba92bcd053a87f31d2beb50bac50bad2bce053ac7f3212bec50bb050bb12bcf053b07f3252bed50bb450bb52bd0053b4053452bc34aee0053492bc44aee40534d2bc54aee8053512bc64aeec053552bc74aef0053592bc84aef40535d2bc94aef8053612bca4aefc053652bcb4af00053692bcc4af040536d2bcd4af08053712bce4af0c053752bcf4af10053792bd04af14)
  (.lf 0))) (.nd (.nd (.lf
  0x4e2ca07b381f48380d607374cac8683e962b102c810328162b102c800dd61a13852ac802a814ab158ac4684e14ab158ac5226cdd1c00348422561d1825e9dc58ac400005aa365aa3572765e9d87460972765e9d95c9d80d204aec4747000d204aec54aec532b14e2c481cdd32b14e2c54e2c52c914fac481ecd2c914fac54fac52bfb06b8881f492c924fac84fac92bfc06b8c81f4d2c934facc4facd2bfd06b9081f512c944fad04fad12bfe06b9481f552c954fad44fad52bff06b9881f592c964fad84fad92c0006b9c81f5d2c974fadc4fadd2c0106ba081f612c984fae04fae12c0206ba481f652c994fae44fae52c0306ba881f692c9a4fae84fae92c0406bac81f6d2c9b4faec4faed2c0506bb081f712c9c4faf04faf12c0606bb481f752c9d4faf44faf52c0706bb881f792c9e4faf84faf92c0806bbc81f7d2c9f4fafc4fafd2c0906bc081f812ca04fb004fb012c0a06bc481f852ca14fb044fb052c0b06bc881f892ca24fb084fb092c0c06bcc81f8d2ca34fb0c4fb0d2c0d06bd081f912ca44fb104fb112c0e06bd481f952ca54fb144fb152c0f06bd881f992ca64fb184fb192c1006bdc06b892c044b00806b8d2c054b00c06b912c064b010)
  (.lf 0)) (.nd (.lf
  0x7b7a12e524d1482ed24bb4b2ed292ed2dedc94b9484b949ee077b8982eec5ee0b4a5587b7b12e564d1584b959ee0b7b8a87b82dee0a2eeb02eeb0bbae2eeb57b7ad2e554d1544b955ee0a7b8a42eeb9ee0a4a5542eeb5ee0a501547b829ee092eea42eea4bbab2eea92eea9ee09501502ed29edc94d1487b7252e514d1457b7a52e534d14c4b94dee087b89c2eeadee094a5507b825ee082ee982ee98bba82ee9d2ee9dee085014c2eea1ee084a54c7b821ee072ee8c2ee8cbba52ee912ee95ee074a5482ee91ee07501487b81d29515014549d452e514d1444b94529515014450145293404a347b89929525014850149293504a387b89d29535014c5014d293604a3c7b8a129545015050151293704a407b8a529555015450155293804a447b8a929565015850159293904a487b8ad29575015c5015d293a04a4c7b8b129585016050161293b04a507b8b529595016450165293c04a547b8b9295a5016850169293d04a587b8bd295b5016c5016d293e04a5c7b8c1295c5017050171293f04a607b8c5295d5017450175294004a647b8c9295e5017850179294104a687b8cd295f5017c5017d294204a6c7b8d129605018050181294304a707b8d5296150184)
  (.lf 0)))

def shaGateTree54 : BTree :=
  .nd (.nd (.nd (.lf
  0x53535e5417958079505e5402b1d02b1d0ac762b1d52b1d9e540555302b1d5e5405753053531e5407957c79501e53f2b1c42b1c4ac732b1c92b1cde53f5552c2b1c9e53f5752c5352de53f79578794fde53e2b1b82b1b8ac702b1bd2b1c1e53e555282b1bde53e5752853529e53e79574794f9e53d2b1ac2b1acac6d2b1b12b1b5e53d555242b1b1e53d5752453525e53d79570794f5e53c2b1a02b1a0ac6a2b1a52b1a9e53c555202b1a5e53c5752053521e53c7956c794f1e53b2b1942b194ac672b1992b19de53b5551c2b199e53b5751c5351de53b79568794ede53a2b1882b188ac642b18d2b191e53a555182b18de53a5751853519e53a79564794e9e5392b17c2b17cac612b1812b185e539555142b181e5395751453515e53979560794e5e5382b1702b170ac5e2b1752b179e538555102b175e5385751053511e5387955c794e1e5372b1642b164ac5b2b1692b16de5375550c2b169e5375750c5350de53779558794dde5362b1582b158ac582b15d2b161e536555082b15de5365750853509e53679554794d9e5352b14c2b14cac552b1512b155e535555042b151e5355750453505e53579550794d5e5342b1402b140ac522b1452b149e53455500)
  (.lf 0)) (.nd (.lf
  0xbf0d9bf15257c66fc59bf00bef80bef82fc00befd0befd9bf058578453f0076d01d34544f8078d454f0454f1155c455f1455f0078d01d3401d359bf06703c6703d495e5857858579c6a81d7181d664000071aa271aa075961d6541d654759658575544f4078c454ec454ed155b455ed455ec078c01d3041eb8074c01d04453ec076c01d3001d319bef6703867039495d5857466f41615d01f300bf019bf05257866fc19bef0beec0beec2fbd0bef10bef19bef585745857475965a5045a505c6bb71b6866f3d615c01f2c71b8171285e4a05a511c6be71b741d7e075fa1d7e51d7e5c6be5e4941d7e9c6be5c49471af9c6bd1d7d41d7d475f71d7d971b7d71275e49c71b7971265e49871b7571255e49471b7171245e4901d96c765d1d9711d971c6ff4a98c5c4a1c6ff71c781d7ddc6bd5c4901d975c6ff0274871bfdc6fe1d9601d960765a1d9651d969c6fe027441d965c6fe4a9885c49dc6fe71c7471bf9c6fd1d9541d95476571d9591d95dc6fd027401d959c6fd4a9845c499c6fd71c7071bf5c6fc1d9481d94876541d94d1d951c6fc0273c1d94dc6fc4a9805c495c6fc71c6c71bf1c6fb1d93c1d93c76511d9411d945c6fb027381d941c6fb4a97c)
  (.lf 0))) (.nd (.nd (.lf
  0x5ec2dd618758dc75861d61724544245449153245492454dd61760c2824549d61762c285ec29d617758d87585dd616245382453891502453d24541d61660c242453dd61662c245ec25d616758d475859d6152452c2452c914d2453124535d61560c2024531d61562c205ec21d615758d075855d6142452024520914a2452524529d61460c1c24525d61462c1c5ec1dd614758cc75851d61324514245149147245192451dd61360c1824519d61362c185ec19d613758c87584dd612245082450891442450d24511d61260c142450dd61262c145ec15d612758c475849d611244fc244fc91412450124505d61160c1024501d61162c105ec11d611758c075845d610244f0244f0913e244f5244f9d61060c0c244f5d61062c0c5ec0dd610758bc75841d60f244e4244e4913b244e9244edd60f60c08244e9d60f62c085ec09d60f758b87583dd60e244d8244d89138244dd244e1d60e60c04244ddd60e62c045ec05d60e758b475839d60d244cc244cc9135244d1244d5d60d60c00244d1d60d62c005ec01d60d758b075835d60c244c0244c09132244c5244c9d60c60bfc244c5d60c62bfc5ebfdd60c758ac75831d60b244b4244b4912f244b9244bdd60b60bf8)
  (.lf 0)) (.nd (.lf
  0x1720db84a61d345dd31b8496e1a017211b84a5fd345dd35b84a6e1a46e129b849171fc171fc5c811720117205b8495fd3017201b84961d306e125b848171f0171f05c7e171f5171f9b8485fd2c171f5b84861d2c5dd2db8486e19c6e121b847171e4171e45c7b171e95dd29b8476e198171edb8475fd28171e9b84761d286e11db846171d8171d85c78171dd171e1b8465fd24171ddb84661d245dd25b8466e1946e119b845171cc171cc5c75171d1171d1b84561d20171d5b8455fd205dd21b8456e1906e115b844171c0171c05c72171c5171c9b8445fd1c5dd1db8446e18c171c5b84461d1c6e111b843171b4171b45c6f171b9171b9b84361d18171bdb8435fd185dd19b8436e1886e10db842171a8171a85c6c171ad171adb84261d14171b1b8425fd145dd15b8426e1846e109b8411719c1719c5c69171a15dd11b8416e180171a1b84161d10171a5b8415fd106e105b84017190171905c661719517195b84061d0c17199b8405fd0c5dd0db8406e17c6e101b83f17184171845c631718917189b83f61d081718db83f5fd085dd09b83f6e1786e0fdb83e17178171785c601717d17181b83e5fd041717db83e61d045dd05b83e6e1746e0f9b83d1716c)
  (.lf 0)))

def shaGateTree55 : BTree :=
  .nd (.nd (.nd (.lf
  0x4cc0608f88245c823e208f738b4c38b4ce2d538b5138b5608f7002bc38b5208f7514004cc0208f782458823de08f638b4038b40e2d238b4538b4a08f6002b838b4608f6513fc4cbfe08f682454823da08f538b3438b34e2cf38b3938b3e08f5002b438b3a08f5513f84cbfa08f582450823d608f438b2838b28e2cc38b2d38b3208f4002b038b2e08f4513f44cbf608f48244c823d208f338b1c38b1ce2c938b2138b2608f3002ac38b2208f3513f04cbf208f382448823ce08f238b1038b10e2c638b1538b1a08f2002a838b1608f2513ec4cbee08f282444823ca08f138b0438b04e2c338b0938b0e08f1002a438b0a08f1513e84cbea08f182440823c608f038af838af8e2c038afd38b0208f0002a038afe08f0513e44cbe608f08243c823c208ef38aec38aece2bd38af138af608ef0029c38af208ef513e04cbe208ef82438823be08ee38ae038ae0e2ba38ae538aea08ee0029838ae608ee513dc4cbde08ee82434823ba08ed38ad438ad4e2b738ad938ade08ed0029438ada08ed513d84cbda08ed82430823b608ec38ac838ac8e2b438acd38ad208ec0029038ace08ec513d44cbd608ec8242c823b208eb38abc38abce2b138ac138ac608eb0028c)
  (.lf 0)) (.nd (.lf
  0x6207806613be5c620c006733bea43be580672019b43be5c0673019b80aa39985501bd06615598540aa280aa282a8c0aa2d0aa2d985401bcc0aba59893522146624d98920ab900ab902ae60ab953e5880893019cc600a408b33e6083e60806733e689019cd9854661cc661cd608401bcc3e5840892019c8600a008b23e6043e60406723e6850aa319854582106615198530aa1c0aa1c2a890aa210ab9598925821041ad004b20129c41ad404b3012a0449880693012cc5419006b344a8844a8912c244b8944b8806b3012cc012cd9892662c4449840692012c85418c06b244a8444a8512c144b8544b8406b2012c80ab99989252210662c54884582106624998910ab840ab842ae30ab890ab8998915820c1a58dbfad1a57c012c99891662c0019c99853661c8661c9608301bc8662c148835820c0aa2598535820c58211bfad1a6101a57c69611a5811a581bfad5a1b81a58400006feb66feb5bfac1a5701a570695e1a5751a575bfac5a1b45820dbfac1a60c1a57800006feb26feb1bfab1a5641a564695b1a5693be540671019b00ab8d98915220c6624598900ab780ab782ae00ab7d3e5800891019c46009c08b13e6003e60006713e681019c59852661c4)
  (.lf 0))) (.nd (.nd (.lf
  0x8026d2b5f4f5fc73bdc0cce4ad7c4ad7e0516814d4814d5325f4e17c4c97e0554815cc8155205533761c3761cdd89376213762605530003437622055351178374c605164e17c8145a0515374b4374b4dd2f374b9374be05154c97835a0e007c4f5fc801f2007b359fc359fcd68135a0135a06007b4ad784ddfa007b80268802692b5e4f5f873bd80ccd4ad784ad7a0515814d0814d1325e4e1784c97a0553815c88154e05523761037610dd86376153761a05520003037616055251174374ba05154e178814560514374a8374a8dd2c374ad374b205144c97435a02007b4f5f8801ee007a359f0359f0d67e359f5359fa007a4ad744ddf6007a80264802652b5d4f5f473bd40ccc4ad744ad760514814cc814cd325d4e1744c9760552815c48154a05513760437604dd83376093760e05510002c3760a055151170374ae05144e1748145205133749c3749cdd29374a1374a605134c970359f6007a4f5f4801ea0079359e4359e4d67b359e9359ee00794ad704ddf2007980260802612b5c4f5f073bd00ccb4ad704ad720513814c8814c9325c4e1704c9720551815c0815460550375f8375f8dd80375fd37602055000028375fe05505116c374a205134e170)
  (.lf 0)) (.nd (.lf
  0x140ddb18b53aec6c62db18a140c851ae9b18a6c6a4140c85034140cd140cdb18a55ae8140d1b18a53ae86c629b189140bc140bc5031140c1140c1b18955ae4140c5b18953ae451ae5b1896c6a06c625b188140b0140b0502e140b5140b9b18853ae0140b5b18855ae06c621b187140a4140a4502b140a9140a9b18755adc6c6f14ecd55b3453b34035c4372c4372d0deb4382d6c6bd4ec055b0055b000305414784382c035c00c7051addb1876c6986c6994eb755adc55adc031c414546c6e94ecb55b2c55b2c0310414a44362c033c00c7041478031c00c44414a4030700c7000c71924f649b85b8d5af346bd4c6bcd1af331303c1303c4c111304113041af3349dbc13045af33013785b8d1af336bd486bccdaf3213030130304c0e1303513035af3249db813039af32013745b8cdaf326bd446bcc9af31130245b8c9af316bd40130244c0b130291302daf310137013029af3149db46bcc5af3013018130184c081301d13021af300136c1301daf3049db05b8c5af306bd3c6bcc1af2f1300c1300c4c05130115b8bdaf2e6bd3413015af2f0136813011af2f49dac5b8c1af2f6bd386bcbdaf2e13000130004c021300513005af2e49da813009af2e01364)
  (.lf 0)))

def shaGateTree56 : BTree :=
  .nd (.nd (.nd (.lf
  0x2e33dec135f7ac2e1c1ebf92e1b02e1b0b86e2e1b52e1b5ebf95b7ac2cac5e8cd005587a335e8cc2cab42cab4b2af2cab92cabde8cc040545d5ade8cc7a3ac7a3ac10150055412a4dae615389c6b985ae6012a3812a384a9012a3d12a3dae605989804755ae606b9fc6b9fd4e2659898128e1ae2300ad86b88dae22128d0128d04a36128d5128d9ae225989804055ae226b9046b905662600ad459899ebf92e2342e23400005b7ae5b7adec137b0c87b0c975eb5f7ac5f7adec8f7b2b87b23dec8e2e5fc2e5fcb9812e6012e605ec8e617a82e601ec8e637a82e341ec135d7ac7b04dec122e32c2e32cb8cd2e3312e331ec125f7a82e1b800007afe67afe5ebf82e1a42e1a4b86b2e1a92e1a9ebf85b7a82cab9e8cc005547a331e8cb2caa82caa8b2ac2caad2cab1e8cb040505d5a9e8cb7a3a87a3a810140055012a41ae60538986b981ae5f12a2c12a2c4a8d12a3112a31ae5f5989404751ae5f6b9f86b9f94e2559894128d5ae2200ad46b889ae21128c4128c44a33128c9128cdae215989404051ae216b9006b901662500ad059895ebf82e2302e23000005b7aa5b7a9ec127b0c47b0c575ea5f7a85f7a9ec8e7b2b47b239ec8d2e5f02e5f0b97e2e5f5)
  (.lf
  0x641cd466257988641d546645799051991ae9c6baec12b91ae9c539906ba71ae9b12b7c12b7c4ae112b8112b85ae9b5398c641d146635798c5198dae9b6bae812b81ae9b5598c6ba6dae9a12b7012b704ade12b7512b75ae9a5598812b79ae9a5398851989ae9a6bae46ba69ae9912b64641c546605798051981ae986badc84a359011640c007a0d90114b8f4641c946615798451985ae996bae012b644adb12b6912b6dae995398412b69ae99559846ba65ae9812b5812b584ad812b5d12b61ae985398012b5dae98559806ba61ae9712b4c12b4c4ad512b51641bd465e5797851979ae966bad412b51ae975597c12b55ae975397c641c1465f5797c5197dae976bad86ba5dae9612b4012b404ad212b4512b45ae965597812b49ae96539786ba59ae9512b3412b344acf12b3912b3dae9553974640c12e3d00bb04b8f5904f641b807b75904f51974641b9465d5797451975ae956bad012b39ae95559746ba55ae9412b2884a319010640bc07a09901100bb0640bd2e3c00bac640459010079f8079f81e80079fd07a0190104b8f04b8f1904e641b407b71904f579746413d904e07b6007b601eda07b6507b69904e5197012b284acc12b2d641b5465c57970))
  (.nd (.lf
  0x45d80083101fc401fc59e60679fc1f9d400001fa761fa747e721f9c41f9c47e72588090cbe19e23021c86788d9e220cbd00cbd032f60cbd50cbd99e2258808027c59e2267904679056202021c4679fd4a0258808588087e725a7841fbadcba75c72072e9dcba61fb985a785cba672f1472f1571c75e71c1fb987ee81fb9d1fb9dcba65e71c5e71dcc22731041fe6dcc226271c73089cc211fe5c1fe5c7f991fe611fe61cc21627183f17c0a10027c0606980a303f1fc3f1fc09f03f27d0cd419e6052808679819e5f0cd2c0cd2c334d0cd310cd319e5f58804420c807f001f9445b7c081001fc054784083045c7c45c7d173f45d7d45d7c083001fc001fc19e5f679f80cbd59e22021c4678899e210cbc41f9c87e701f9bc1f9bc7e70588050cbc432f30cbc90cbcd9e2158804027c19e2167900679016201021c0679f94a0158804588047e705a7805a781cba572f101fba1cba65c71c72e99cba51fb8c1fb8c7ee51fb911fe65cc216071872f1171c65e7181fb91cba55e7185e719cc217310073085cc201fe501fe507f961fe551fe59cc20607141fe55cc20627141f9c07e6e1f9b41f9b47e6e588010cbc99e21021c0678859e200cbb83f1780a0f027bc)
  (.lf 0))) (.nd (.nd (.lf
  0x26e19dbbf4b3f026cbddb825ef0876e09db8126cac26cac9b2d26cb126cb5db815cf0426b08000026bd226bd09af326af426af49abf26af926af89af35af3458ff09af326c0c26c0c00005af365af35db8176e8076e8173c15ef045cf05dbbf76f7876f780e6b4b3f04b3f20e8583a9083a9133fc4e7f04e7f20f0183c8083c060f003ae383ae38eb903ae3d3ae420f00002283ae3e0f004ffec3ab7e0e854cff083a160e843ab683ab68eadc3ab6d3ab6e0e844e7ec36962032350ff080c8e03223695036950da56369553695a03224b3ec4c7ee032280d0480d052cfb50fec698e14bfb58fec697e963fb031a826e1ddbbf039ac76efddbbe26e0826e089b8426e0d26e0ddbbe4b3ec26cb1db815ef0476e05db8026ca026ca09b2a26ca526ca9db805cf0026afc000026bce26bcc9af226ae826ae89abc26aed26aec9af25af3058fec9af226c0826c0800005af325af31db8076e7c76e7d73c05ef005cf01dbbe76f7476f740e6a4b3ec4b3ee0e8483a8c83a8d33fb4e7ec4e7ee0f0083c7c83c020eff3ae2c3ae2ceb8d3ae313ae360eff002243ae320eff4ffe83ab720e844cfec83a120e833ab5c3ab5cead93ab613ab620e834e7e836956032250fec)
  (.lf 0)) (.nd (.lf
  0x65c4d97120a2900a29028a60a2950a295971258060444d804670111c53fe00487445d8445d91196446d9446d804870111c0111d971265cc40a29997125206065c4997110a2843e2600629018245fefc06493e2e03e2e006093e3610182596d665bd40a14028520a1450a14596d601a240a14996d65806865b5996d50a1340a134284f0a1390a13996d501a203bd240605018003bd280606018043bd2c0607018083bd3006080180c3e25806270181c5fef406473e2d83e2d806073e3590181d96d465bcc3e25c0628018205fef806483e2dc3e2dc06083e35d0182196d565bd00a13d96d55806465b5596d40a1283e2500625018143e2540626018185feec06453e2d05fef006463e2d43e2d006053e3513e2d406063e3550a128284c0a12d0a13196d4580600a12d96d401a1c65b5196d30a11c0a11c28490a1210a12596d35805c0a12196d301a180181996d365bc865b4d96d20a1100a11028460a1150a11596d201a140a11996d2580580181596d265bc465b4996d10a1040a10428430a1090a10996d101a100a10d96d15805465b4596d00a0f8322d9f7024a6dc322d5f7024ef5c4d751f6ff7dc784d759f7017dc804d75df7027dc847dc09f701322c4)
  (.lf 0)))

def shaGateTree57 : BTree :=
  .nd (.nd (.nd (.lf
  0x57320108d42c987857954c95732457324108e42c9c7857d54ca5732857328108f42ca07858154cb5732c5732c109042ca47858554cc5733057330109142ca87858954cd5733457334109242cac7858d54ce5733857338109342cb07859154cf5733c5733c109442cb47859554d05734057340109542cb842c3c108d0420842c40108e0420c42c44108f0421042c4810900421442c4c10910421842c5010920421c42c5410930422042c5810940422442c5c10950422842c6010960422c42c6410970423042c6810980423442c6c10990423842c70109a0423c42c74109b0424042c78109c0424442c7c109d0424842c80109e0424c42c84109f0425042c8810800425442c8c10810425842c9010820425c42c9410830426042c9810840426442c9c10850426842ca010860426c42ca410870427042ca810880427442cac10890427842cb0108a0427c42cb4108b0420042cb8108c0420447dbc10a00420047dc010a10420447dc410a20420847dc810a30420c47dcc10a40421047dd010a50421447dd410a60421847dd810a70421c47ddc10a80422047de010a90422447de410aa0422847de810ab0422c47dec10ac0423047df010ad0423447df410ae04238)
  (.lf 0)) (.nd (.lf
  0x4a809fd1b7f4e87f4e931024dc084c409fd597f5e07f565fd58347d8347d8d1f8347dd347e1fd584b004347ddfd5850c0434681fd1b4dc087f46dfd1a3467034670d19e3467534679fd1a4c4044a805fd1a7f4e47f4e531014dc044c405fd587f5dc7f561fd57347cc347ccd1f5347d1347d5fd574b000347d1fd5750c0034675fd1a4dc047f469fd193466434664d19b346693466dfd194c4004a801fd197f4e07f4e131004dc004c401fd577f5d87f55dfd56347c0347c0d1f2347c5347c9fd564affc347c5fd5650bfc34669fd194dc007f465fd183465834658d1983465d34661fd184c3fc4a7fdfd187f4dc7f4dd30ff4dbfc4c3fdfd567f5d47f559fd55347b4347b4d1ef347b9347bdfd554aff8347b9fd5550bf83465dfd184dbfc7f461fd173464c3464cd1953465134655fd174c3f84a7f9fd177f4d87f4d930fe4dbf84c3f9fd557f5d07f555fd54347a8347a8d1ec347ad347b1fd544aff4347adfd5450bf434651fd174dbf87f45dfd163464034640d1923464534649fd164c3f44a7f5fd167f4d47f4d530fd4dbf44c3f5fd547f5cc7f551fd533479c3479cd1e9347a1347a5fd534aff0347a1fd5350bf034645fd164dbf47f459fd1534634)
  (.lf 0))) (.nd (.nd (.lf
  0x81fc532d14e3454e3452cb14fb44821b52cb14fb454fb452c1b06be0822312cb24fb484fb492c1c06be4822352cb34fb4c4fb4d2c1d06be8822392cb44fb504fb512c1e06bec8223d2cb54fb544fb552c1f06bf0822412cb64fb584fb592c2006bf4822452cb74fb5c4fb5d2c2106bf8822492cb84fb604fb612c2206bfc8224d2cb94fb644fb652c2306c00822512cba4fb684fb692c2406c04822552cbb4fb6c4fb6d2c2506c08822592cbc4fb704fb712c2606c0c8225d2cbd4fb744fb752c2706c10822612cbe4fb784fb792c2806c14822652cbf4fb7c4fb7d2c2906c18822692cc04fb804fb812c2a06c1c8226d2cc14fb844fb852c2b06c20822712cc24fb884fb892c2c06c24822752cc34fb8c4fb8d2c2d06c28822792cc44fb904fb912c2e06c2c8227d2cc54fb944fb952c2f06c30822812cc64fb984fb992c3006c3406be12c244b08806be52c254b08c06be92c264b09006bed2c274b09406bf12c284b09806bf52c294b09c06bf92c2a4b0a006bfd2c2b4b0a406c012c2c4b0a806c052c2d4b0ac06c092c2e4b0b006c0d2c2f4b0b406c112c304b0b806c152c114b0bc06c192c124b0c006c1d2c134b04406c212c144b04806c252c154b04c)
  (.lf 0)) (.nd (.lf
  0x4ea6927e4060547bf85287b4ea6c4ea6d27e5060587bf89287c4ea704ea7127e60605c7bf8d287d4ea744ea7527e7060607bf91287e4ea784ea7927e8060647bf95287f4ea7c4ea7d27e9060687bf9928804ea804ea8127ea0606c7bf9d28814ea844ea8527eb060707bfa128824ea884ea8927ec060747bfa528834ea8c4ea8d27ed060787bfa928844ea904ea9127ee0607c7bfad28854ea944ea9527ef060807bfb128864ea984ea9927f0060840603d27e749f940604127e849f980604527e949f9c0604927ea49fa00604d27eb49fa40605127ec49fa80605527ed49fac0605927ee49fb00605d27ef49fb40606127f049fb80606527d149fbc0606927d249fc049fc1f0cf7c3b87c33df0ce2ff602ff60bfda2ff652ff69f0ce4bbbc49fbdf0ce7c3b42ff65f0ce4d3bc7c339f0cd2ff542ff54bfd72ff592ff5df0cd4bbb849fb9f0cd7c3b02ff59f0cd4d3b87c335f0cc2ff482ff48bfd42ff4d2ff51f0cc4bbb449fb5f0cc7c3ac2ff4df0cc4d3b47c331f0cb2ff3c2ff3cbfd12ff412ff41f0cb4d3b049fb1f0cb7c3a82ff45f0cb4bbb07c32df0ca2ff302ff30bfce2ff352ff39f0ca4bbac49fadf0ca7c3a42ff35f0ca4d3ac7c329f0c92ff24)
  (.lf 0)))

def shaGateTree58 : BTree :=
  .nd (.nd (.nd (.lf
  0x11c7c472111c8111c81abfb59634044f1abfb6b0686b0694d8d5963411b25abbe046f46aef9abbd11b1411b1446c711b1911b1dabbd5963403df1abbd6af706af71658d046f059635e7702c1502c15000005b54a5b549e78d79eb079eb175525f5485f549e8097a0a07a025e8082c5602c560b15a2c5652c569e808615442c565e808635442c2a5e78d5d54879e35e78c2c2902c290b0a62c2952c295e78c5f5442c110000079dc279dc0b0412c1002c100b041596315d345e3c178f8078f800f7b002ec2a835e3c2002f078f09e3c12a8242a824aa0b2a8292a82de3c103dec03dedabbc6af6c6af6d658c046ec11c85abfb536346afedabfa11c7011c70471e11c7511c75abfa59630044edabfa6b0646b0654d8c5963011b19abbd046f06aef5abbc11b0811b0846c411b0d11b11abbc5963059630b0415b5445b545e78c79eac79ead75515f5445f545e8087a09c7a021e8072c5542c554b1572c5592c55de807615402c559e807635402c299e78c5d54479e31e78b2c2842c284b0a32c2892c289e78b5f5402c104b03f2c0f82c0f8b03f5962d5d341e3c078f7c78f7c0f7a002e82a829e3c1002ec78f05e3c02a8182a818aa082a81d2a821e3c003de8)
  (.lf 0)) (.nd (.lf
  0x1e08478231e0891e089c7f84aa101e08dc7f8027cc1df19c7b95c5205c525c7f87205c71fe1c7f71e0781e07878201e07d1e081c7f7027c81e07dc7f74aa0c5c521c7f77205871fddc7f61e06c1df15c7b95e52071ee5c7b81df041df0477c31df091df0dc7b85c51c3c2540971025b041ecc077101d9845580079101dc45458807b1456804568115c0457814578007b101dc401dc59c706723c0c20d9c715260c671c59c700c1f80c1f830800c1fd0c1fd9c70586083ed800991025c46049c09b13ee003ee0009713ee816723d4982586080c0a19c3301fc8670cd9c320c0900c09030260c095025c59c32671440c0999c325860867145618201fc45860877801de301de3000005a5961dd7877801dd681dd68775c1dd6d1dd6c77805a5945a595c7b871f5c71f5d71475e51c1e06c781d1e0711e071c7f64aa085c51dc7f6720541e075c7f6027c471fd9c7f51e0601e060781a1e0651e069c7f5027c00c2019c7052608671c19c6f0c1ec0c1ec307d0c1f10c1f19c6f586040c1f59c6f5260441ec8077001d944557c079001dc05458407b04567c4567d15bf4577d4577c07b001dc001dc19c6f67238671bd9c6e0c1e00c1e0307a0c1e50c1e59c6e58600)
  (.lf 0))) (.nd (.nd (.lf
  0x56dc00b7542738426bc0b6d02d88426c00b6e02d8c426c40b6f02d90426c80b7002d94426cc0b7102d98426d00b7202d9c426d40b7302da0426d80b7402da4426dc0b7502da8426e00b7602dac426e40b7702db0426e80b7802db4426ec0b7902db8426f00b7a02dbc426f40b7b02dc0426f80b7c02dc4426fc0b7d02dc8427000b7e02dcc427040b7f02dd0427080b6002dd44270c0b6102dd8427100b6202ddc427140b6302de0427180b6402de44271c0b6502de8427200b6602dec427240b6702df0427280b6802df44272c0b6902df8427300b6a02dfc427380b6c02d8446d6c0b8c02db046d700b8d02db446d740b8e02db846d780b8f02dbc46d7c0b9002dc046d800b9102dc446d840b9202dc846d880b9302dcc46d8c0b9402dd046d900b9502dd446d940b9602dd846d980b9702ddc46d9c0b9802de046da00b9902de446da40b9a02de846da80b9b02dec46dac0b9c02df046db00b9d02df446db40b9e02df846db80b9f02dfc54d740bac46e6c54d780bad46e7054d7c0bae46e7454d800baf46e7854d840bb046e7c54d880bb146e8054d8c0bb246e8454d900bb346e8854d940bb446e8c54d980bb546e9054d9c0bb646e9454da00bb746e98)
  (.lf 0)) (.nd (.lf
  0x318c8c634318cd318cdf54c5064c318d1f54c4aa4c7d4b52f934d64c4be4df54c7d5ac7d531f54b318bc318bcc631318c1318c1f54b506483de3c05a0016005fcd805c03debc3debc05803df3d016015f9101100095a594de0110417529b8bf5dd5c6e2fd6f565dd5943ebc03e000f0053dc4040043fbc43fbd100f440bd440bc040000f0000f01479157e4409711951c51e4865471479157e45653795f910110157e456f565dd585bd5806004a24417695b8fd0180431759f50d4d6486e3f406004a2454a2452f914d6447d4352f914d6454be452a9150644318c5f54b4aa487d52d2a9150645506452a7404ebc7d5a92a9250648506492a7504ec07d5ad2a935064c5064d2a7604ec47d5b12a9450650506512a7704ec87d5b52a9550654506552a7804ecc7d5b92a9650658506592a7904ed07d5bd2a975065c5065d2a7a04ed47d5c12a9850660506612a7b04ed87d5c52a9950664506652a7c04edc7d5c92a9a50668506692a7d04ee07d5cd2a9b5066c5066d2a7e04ee47d5d12a9c50670506712a7f04ee87d5d52a9d50674506752a8004eec7d5d92a9e50678506792a8104ef07d5dd2a9f5067c5067d2a8204ef47d5e12aa050680506812a8304ef8)
  (.lf 0)))

def shaGateTree59 : BTree :=
  .nd (.nd (.nd (.lf
  0x833c000294fe684fe692ce406e14833c4002a4fe6c4fe6d2ce506e18833c8002b4fe704fe712ce606e1c833cc002c4fe744fe752ce706e20833d0002d4fe784fe792ce806e24833d4002e4fe7c4fe7d2ce906e28833d8002f4fe804fe812cea06e2c833dc00304fe844fe852ceb06e30833e000314fe884fe892cec06e34833e400324fe8c4fe8d2ced06e38833e800334fe904fe912cee06e3c833ec00344fe944fe952cef06e40833f000354fe984fe992cf006e4406df12ce44b38806df52ce54b38c06df92ce64b39006dfd2ce74b39406e012ce84b39806e052ce94b39c06e092cea4b3a006e0d2ceb4b3a406e112cec4b3a806e152ced4b3ac06e192cee4b3b006e1d2cef4b3b406e212cf04b3b806e252cd14b3bc06e292cd24b3c006e2d2cd34b34406e312cd44b34806e352cd54b34c06e392cd64b35006e3d2cd74b35406e412cd84b35806e452cd94b35c833f400364fe9c4fe9d2cda4b360833f800374fea04fea12cdb4b364833fc00384fea44fea52cdc4b3688340000394fea84fea92cdd4b36c83404003a4feac4fead2cde4b37083408003b4feb04feb12cdf4b3748340c003c4feb44feb52ce04b37883410003d4feb84feb92ce14b37c)
  (.lf 0)) (.nd (.lf
  0x1a9b86a701a9bd1a9c1c03f6011c1a9bdc03f6211c700fdc03e1a9ac1a9ac6a6d1a9b11a9b1c03e621181a9b5c03e601185e111c03c7016c5e0ddc02f701385e119c03e70174700f9c03d1a9a01a9a06a6a1a9a51a9a5c03d621145e115c03d701701a9a9c03d60114700f5c03c1a9941a9946a671a9991a99dc03c601101a999c03c62110700f1c03b1a9881a9886a641a98d1a991c03b6010c5e101c0387015c5e10dc03b701681a98dc03b6210c700edc03a1a97c1a97c6a611a9811a981c03a621081a985c03a601085e109c03a70164700e9c0391a9701a9706a5e1a9751a975c039621041a979c039601045e105c03970160700e5c0381a9641a9646a5b1a9691a96dc038601001a969c03862100700e1c0371a9581a9586a581a95d1a961c037600fc1a95dc037620fc700ddc0361a94c1a94c6a551a9511a951c036620f81a955c036600f85e0f1c0347014c5e0f9c03670154700d9c0351a9401a9406a521a9451a945c035620f45e0f5c035701501a949c035600f4700d5c0341a9341a9346a4f1a9391a93dc034600f01a939c034620f0700d1c0331a9281a9286a4c1a92d1a931c033600ec5e0e1c0307013c5e0edc033701481a92dc033620ec)
  (.lf 0))) (.nd (.nd (.lf
  0x37826059e4f9ac4e1ae059e816f48167a059d3781437814de07378193781e059d4b1283781a059d4f9a84e1aa059d816f081676059c3780837808de043780d37812059c4b1243780e059c4f9a44e1a6059c816ec81672059b377fc377fcde013780137806059b4b12037802059b4f9a04e1a2059b816e88166e059a377f0377f0ddfe377f5377fa059a4b11c377f6059a4f99c4e19e059a816e48166a0599377e4377e4ddfb377e9377ee05994b118377ea05994f9984e19a0599816e0816660598377d8377d8ddf8377dd377e205984b114377de05984f9944e1960598816dc816620597377cc377ccddf5377d1377d605974b110377d205974f9904e1920597816d88165e0596377c0377c0ddf2377c5377ca05964b10c377c605964f98c4e18e0596816d48165a0595377b4377b4ddef377b9377be05954b108377ba05954f9884e18a0595816d0816560594377a8377a8ddec377ad377b205944b104377ae05944f9844e1860594816cc8165205933779c3779cdde9377a1377a605934b100377a205934f9804e1820593816c88164e05923779037790dde6377953779a05924b0fc3779605924f97c4e17e0592816c48164a05913778437784dde337789)
  (.lf 0)) (.nd (.lf
  0x6caa9b2a9148c8148c85234148cd148d1b2a953bb051bb1b2a96cb20148cdb2a955bb06caa5b2a8148bc51ba1b2a56cb1051ba9b2a76cb1851badb2a86cb1c148bc5231148c1148c1b2a855bac148c5b2a853bac6caa1b2a7148b0148b0522e148b5148b9b2a753ba8148b5b2a755ba86ca9db2a6148a4148a4522b148a9148adb2a653ba4148a9b2a655ba451ba5b2a66cb146ca99b2a5148981489852281489d148a1b2a553ba01489db2a555ba06ca95b2a41488c1488c52251489114891b2a455b9c51b8db2a06cafc51b9db2a46cb0c14895b2a453b9c6ca91b2a3148801488052221488514889b2a353b9814885b2a355b9851b99b2a36cb086ca8db2a21487414874521f148791487db2a253b9451b95b2a26cb0414879b2a255b946ca89b2a11486814868521c1486d14871b2a153b901486db2a155b9051b91b2a16cb006ca85b2a01485c1485c52191486114865b2a053b8c14861b2a055b8c6ca81b29f148501485052161485514859b29f53b8851b81b29d6caf051b89b29f6caf814855b29f55b886ca7db29e14844148445213148491484db29e53b8414849b29e55b846ca79b29d148381483852101483d1483db29d55b8014841b29d53b80)
  (.lf 0)))

def shaGateTree60 : BTree :=
  .nd (.nd (.nd (.lf
  0x120e1acd8536c8045814db1596c46b3614db1596c511f75ac9a0478403e8165b1047806b26965b104781596c400005b5da5b5d975765f5d87a5c975765f5d95f5d98576635d87a7b98576635d9635d80fd93d3bc7a8358577635dc635dc0fda3d3c07a8398578635e0635e00fdb3d3c47a83d8579635e4635e40fdc3d3c87a841857a635e8635e80fdd3d3cc7a845857b635ec635ec0fde3d3d07a849857c635f0635f00fdf3d3d47a84d857d635f4635f40fc03d3d87a851857e635f8635f80fc13d3dc7a855857f635fc635fc0fc23d3e07a859858063600636000fc33d3e47a85d858163604636040fc43d3e87a861858263608636080fc53d3ec7a86585836360c6360c0fc63d3f07a869858463610636100fc73d3f47a86d858563614636140fc83d3f87a871858663618636180fc93d3fc7a87585876361c6361c0fca3d4007a879858863620636200fcb3d4047a87d858963624636240fcc3d4087a881858a63628636280fcd3d40c7a885858b6362c6362c0fce3d4107a889858c63630636300fcf3d4147a88d858d63634636340fd03d4187a891858e63638636380fd13d41c7a895858f6363c6363c0fd23d4207a899859063640636400fd33d424)
  (.lf 0)) (.nd (.lf
  0x52731c9747264c1eb05c97456730725d1c9731eaf41eaf47abf1eaf91eaf9c9735672c6764149cb5872c5272dc973726481eafdc9735472c725cdc9721eae81eae87abc1eaed1eaf1c972547281eaedc972567286763d49ca5872852729c97272644725c9c9711eadc1eadc7ab91eae11eae5c971547241eae1c971567246763949c95872452725c97172640725c5c9701ead01ead07ab61ead51ead9c970547201ead5c970567204588807d301ecc4588c07d401ed04589007d501ed44589407d601ed85469007f3459885469407f44598c5469807f5459905469c07f64599445989168245a894598d168345a8d45991168445a9145995168545a9545a8807f301ecc45a8c07f401ed045a9007f501ed445a9407f601ed80c7d99d6d5871c01ed99d6d67630675b59d6c0c7c80c7c831f40c7cd01ed59d6c6762c0c7d19d6c527180c7cd9d6c58718675b19d6b0c7bc0c7bc31f10c7c10c7c59d6b527140c7c19d6b5871401ecd9d6a6762401ed19d6b67628675ad9d6a0c7b00c7b031ee0c7b50c7b99d6a527106762549c45871052711c96c7262c6763549c85872052721c9707263c725c1c96f1eac41eac47ab31eac91eacdc96f5471c1eac9c96f5671c)
  (.lf 0))) (.nd (.nd (.lf
  0x25ee9d9995ce2425d10976825d0025d00974225d0525d0497685ae6058f10976825de825de800005ae625ae61d999766e0766e173895ee245ce25d9d7767d8767d80e334b3104b3120d19834e0834e133c44e7104e7120d95836d0836560d943a6283a628e98c3a62d3a6320d94001483a62e0d944ff0c3a36e0d194cf10834660d183a3583a358e8d83a35d3a35e0d184e70c3615201b750f10806de01b63614036140d852361453614a01b64b30c4c70e01b680754807552cc350f0c0f4b9a52a52f10694a9a5290f4a40f4a43d2b0f4a90f4a9a52958f0c02ec9a52969520695214bc358f0c26051d9d7038cc7675dd9d62603c2603c98112604126041d9d64b30c25ee5d9995ee2476665d99825ed425ed497b725ed925eddd9985ce2025d08000025da225da0973f25cf825cf8973f58f0d58f0c973f5ae5c5ae5dd998766dc766dd73885ee205ce21d9d6767d4767d40e324b30c4b30e0d18834dc834dd33c34e70c4e70e0d94836cc836520d933a61c3a61ce9893a6213a6260d93001443a6220d934ff083a3620d184cf0c834620d173a34c3a34ce8d53a3513a3520d174e7083614601b650f0c806da01b53613436134d84f361393613e01b54b308)
  (.lf 0)) (.nd (.lf
  0x4bfb5f6da7dbe47db69f6d93226432264c89b322693226df6d94abb032269f6d9507b07db65f6d83225832258c8983225d32261f6d84abac3225df6d8507ac4bfadf6d87dbdc7db61f6d73224c3224cc8953225132255f6d74aba832251f6d7507a84bfa9f6d77dbd87db5df6d63224032240c8923224532249f6d64aba432245f6d6507a47db59f6d53223432234c88f322393223df6d54aba07dad92fe84d7a04bfa1f6d57dbd032239f6d5507a07db55f6d4322287dad52fe74d79c4bf9df6d47dbcc32228c88c3222d3222df6d45079c32231f6d44ab9c7db51f6d33221c3221cc8893222132225f6d34ab9832221f6d3507987dad12fe64d7984bf99f6d37dbc87db4df6d2322107dac92fe44d79032210c8863221532215f6d25079432219f6d24ab947dacd2fe54d7944bf95f6d27dbc47db49f6d13220432204c883322093220df6d14ab904bf91f6d17dbc032209f6d1507907db45f6d0321f87dac52fe34d78c321f8c880321fd32201f6d04ab8c321fdf6d05078c4bf8df6d07dbbc7db41f6cf321ec321ecc87d321f17dac12fe24d7884bf89f6cf7dbb8321f5f6cf4ab88321f1f6cf507887db3df6ce321e0321e0c87a321e5321e9f6ce4ab84)
  (.lf 0)))

def shaGateTree61 : BTree :=
  .nd (.nd (.nd (.lf
  0x47a911ec447b9147a951ec547b9547a991ec647b9947a9d1ec747b9d47aa11ec847ba147aa51ec947ba547aa91eca47ba947aad1ecb47bad47ab11ecc47bb147ab51ecd47bb547ab91ece47bb947b3c10600318047b4010610318447b4410620318847b4810630318c47b4c10640319047b5010650319447b5410660319847b5810670319c47b5c1068031a047b601069031a447b64106a031a847b68106b031ac47b6c106c031b047b70106d031b447b74106e031b847b78106f031bc47b7c1070031c047b801071031c447b841072031c847b881073031cc47b8c1074031d047b901075031d447b941076031d847b981077031dc47b9c1078031e047ba01079031e447ba4107a031e847ba8107b031ec47bac107c031f047bb0107d031f447bb4107e031f847bb8107f031fc031fda81e6a0f46a079a81d10614031f9a81d6a0f01061441871061910619a81d5923c1061da81d5323c6a075a81c106081060841841060d1060da81c5923810611a81c53238031f5a81c6a0ec6a071a81b105fc105fc41811060110601a81b5923410605a81b53234031f1a81b6a0e86a06da81a105f0105f0417e105f5105f9a81a53230031e1a8176a0d8031e9a8196a0e0)
  (.lf 0)) (.nd (.lf
  0x33c25fb5e4f25c4da5dfb5e7edf47ed79fb5d33c1433c14cf0733c1933c1dfb5d4a9d833c19fb5d4f2584da59fb5d7edf07ed75fb5c33c0833c08cf0433c0d33c11fb5c4a9d433c0dfb5c4f2544da55fb5c7edec7ed71fb5b33bfc33bfccf0133c0133c05fb5b4a9d033c01fb5b4f2504da51fb5b7ede87ed6dfb5a33bf033bf0cefe33bf533bf9fb5a4a9cc33bf5fb5a4f24c4da4dfb5a7ede47ed69fb5933be433be4cefb33be933bedfb594a9c833be9fb594f2484da49fb597ede04da452a714f2447ed652a714f2454f24529db065b07ede12a724f2484f24929dc065b47ede52a734f24c4f24d29dd065b87ede92a744f2504f25129de065bc7eded2a754f2544f25529df065c07edf12a764f2584f25929e0065c47edf52a774f25c4f25d29e1065c87edf92a784f2604f26129e2065cc7edfd2a794f2644f26529e3065d07ee012a7a4f2684f26929e4065d47ee052a7b4f26c4f26d29e5065d87ee092a7c4f2704f27129e6065dc7ee0d2a7d4f2744f27529e7065e07ee112a7e4f2784f27929e8065e47ee152a7f4f27c4f27d29e9065e87ee192a804f2804f28129ea065ec7ee1d2a814f2844f28529eb065f07ee212a824f2884f28929ec065f4)
  (.lf 0))) (.nd (.nd (.lf
  0x743ac0d054ae584ae5a068181a8081a8132964e2584e25a06fd81c7081bf606fc37f8837f88dfe437f8d37f9206fc4b1d437f8e06fc4fa5437cce06814ca5881a06068037cb837cb8df3037cbd37cbe06804e254743a80d044ae544ae56068081a7c81a7d32954e2544e25606fc81c6c81bf206fb37f7c37f7cdfe137f8137f8606fb4b1d037f8206fb4fa5037cc206804ca5481a02067f37cac37cacdf2d37cb137cb2067f4e2504ae52067f81a7881a7932944e2504e25206fb81c6881bee06fa37f7037f70dfde37f7537f7a06fa4b1cc37f7606fa4fa4c37cb6067f4ca50819fe067e37ca037ca0df2a37ca537ca6067e4e24c4ae4e067e81a7481a7532934e24c4e24e06fa81c6481bea06f937f6437f64dfdb37f6937f6e06f94b1c837f6a06f94fa4837caa067e4ca4c819fa067d37c9437c94df2737c9937c9a067d4e2484ae4a067d81a7081a7132924e2484e24a06f981c6037c9e067d4ca484ae4532914e244819f532914e2454e2452c714fa4481be52c714fa454fa452bdb06b3081c612c724fa484fa492bdc06b3481c652c734fa4c4fa4d2bdd06b3881c692c744fa504fa512bde06b3c81c6d2c754fa544fa552bdf06b4081c712c764fa58)
  (.lf 0)) (.nd (.lf
  0x6d7c96f025dc085dc09b64f6d9b86d93db64e162bc162bc58b1162c1162c5b64e5fc04162c1b64e61c046d7c56f015dc045dc05b64e6d9b46d939b64d162b0162b058ae162b5162b9b64d5fc00162b5b64d61c006d7c16f005dc005dc01b64d6d9b06d935b64c162a4162a458ab162a9162adb64c5fbfc162a9b64c61bfc6d7bd6eff5dbfc5dbfdb64c6d9ac6d931b64b162981629858a81629d162a1b64b5fbf81629db64b61bf86d7b96efe5dbf85dbf9b64b6d9a86d92db64a1628c1628c58a51629116295b64a5fbf416291b64a61bf46d7b56efd5dbf45dbf5b64a6d9a46d929b649162801628058a21628516285b64961bf05b9f1b2186c8dc6c8dc052649edc08ee993ae51ce064eb993ad08ed43b9a805260148408d7d937000f9c64dc1936f08d6c1450db21949ee06c865b218144fc144fc51411450108ed423b708ed914505b218014983db540546014985fb7005663dbd43dbd405263dc5501499936f64e3808d6c235d08d7108d75936f57cdc08ed993ad57cdc64e395f3700f9857cdc57bf15f4015dfc57bf59cb015f40000059cb259cb1b5cd6d7b06d7b16efc5dbf05dbf1b6496d9a06da057f1561c546d9ed7f0f61c3c6d9d97f0a61c28)
  (.lf 0)))

def shaGateTree62 : BTree :=
  .nd (.nd (.nd (.lf
  0x2ab6c00007918a79189e4612ab582ab58aad82ab5d2ab5de4615b38c291e5e0b400124782d1e0b3291d4291d4a477291d9291dde0b303c205d179e0b378348783480f080012011331aa74534686a9d1aa731131c1131c44c91132111321aa735946404321aa736aa486aa494d1959464111c5aa36045246a8d9aa35111b4111b4446f111b9111bdaa355946403c21aa356a9506a95165190452059465e4612ac382ac3800005b38e5b38de473792487924974de5f3785f379e4ef79438793bde4ee2af782af78abe02af7d2af81e4ee613742af7de4ee633742acbde4735d378791cde4722aca82aca8ab2c2acad2acade4725f3742ab6000007918679184aad52ab502ab50aad5594615d175e0b278344783440f070011c291d9e0b300120782cde0b2291c8291c8a474291cd291d1e0b203c1c03c1daa346a94c6a94d65180451c11325aa73534646a9cdaa72113101131044c61131511315aa72594600431daa726aa446aa454d1859460111b9aa35045206a8d5aa34111a8111a8446c111ad111b1aa345946059460aad55b3885b389e472792447924574dd5f3745f375e4ee79434793b9e4ed2af6c2af6cabdd2af712af75e4ed613702af71e4ed63370)
  (.lf 0)) (.nd (.lf
  0x7f6e52ae54f4144f4152a4f067087f6e92ae64f4184f4192a500670c066b92a444a908066bd2a454a90c066c12a464a910066c52a474a914066c92a484a918066cd2a494a91c066d12a4a4a920066d52a4b4a924066d92a4c4a928066dd2a4d4a92c066e12a4e4a930066e52a4f4a934066e92a504a938066ed2a314a93c066f12a324a940066f52a334a8c4066f92a344a8c8066fd2a354a8cc067012a364a8d0067052a374a8d4067092a384a8d80670d2a394a8dc7f6ed2ae74f41c4f41d2a3a4a8e07f6f12ae84f4204f4212a3b4a8e47f6f52ae94f4244f4252a3c4a8e87f6f92aea4f4284f4292a3d4a8ec7f6fd2aeb4f42c4f42d2a3e4a8f07f7012aec4f4304f4312a3f4a8f47f7052aed4f4344f4352a404a8f87f7092aee4f4384f4392a414a8fc7f70d2aef4f43c4f43d2a424a9007f7112af04f4404f4412a434a9040bbdd9b6d524dc66db59b6c0bbc80bbc82ef40bbcd0bbcd9b6c584d845250074501c94544580765453504535114f44545145450076501c940bbd19b6c524d801c959b6c66e2c66db19b6b0bbbc0bbbc2ef10bbc10bbc59b6b524d44524c074401c905445407644534c4534d14f34544d4544c076401c9001c919b6b66e28)
  (.lf 0))) (.nd (.nd (.lf
  0x75471d51b23ec823ec88fb423ecd23ed1d51b60bcc23ecdd51b62bcc5ebcdd51b754e87546dd51a23ebc23ebc8fb123ec123ec5d51a60bc823ec1d51a62bc85ebc9d51a754e475469d51923eb023eb08fae23eb523eb9d51960bc423eb5d51962bc45ebc5d519754e075465d51823ea423ea48fab23ea923eadd51860bc023ea9d51862bc05ebc1d518754dc75461d51723e9823e988fa823e9d23ea1d51760bbc23e9dd51762bbc5ebbdd517754d87545dd51623e8c23e8c8fa523e9123e95d51660bb823e91d51662bb85ebb9d516754d475459d51523e8023e808fa223e8523e89d51560bb423e85d51562bb45ebb5d515754d075455d51423e7423e748f9f23e7923e7dd51460bb023e79d51462bb05ebb1d514754cc75451d51323e6823e688f9c23e6d23e71d51360bac23e6dd51362bac5ebadd513754c87544dd51223e5c23e5c8f9923e6123e65d51260ba823e61d51262ba85eba9d512754c475449d51123e5023e508f9623e5523e59d51160ba423e55d51162ba45eba5d511754c075445d51023e4423e448f9323e4923e4dd51060ba023e49d51062ba05eba1d510754bc75441d50f23e3823e388f9023e3d23e41d50f60b9c23e3dd50f62b9c)
  (.lf 0)) (.nd (.lf
  0x61cb405703ba983ba84057d015e03ba980562015f43ddb0059d015f46dddd7f3361ccc5fccc05bd3de303de30057d3deb1015f5947e652746dde17f3461cd06dde57f3561cd46dd817f1c61c7061c70057f3ba546ddb97f2a61ca861ca8056d3ba8c61cbc05723baa03ba8c057f015e83baa00564015fc3ddb8059f015fc5fcd405bf3de383de38057f3deb9015fd94806527c65201947f0942c0942c250d09431169d5b73f5fc686dcfdb73e169c0169c05a72169c55dc65b73e6dd74169c9b73e5fc64169c5b73e61c646dcf9b73d169b4169b45a6f169b9169bdb73d5fc606dda57f2561c945dc61b73d6dd70169b9b73d61c606dcf5b73c169a8169a85a6c169ad169adb73c61c5c5dc5db73c6dd6c6dd6d7f1761c5c61c5c057a3ba4061c9405683ba783ba78057a015d43dda4059a015e86ddd17f3061cc05fcc005ba3de243de24057a3dea5015e9947b6526809435947f57e3c09431947f010f86ddc97f2e61cb86dd7d7f1b61c6c61c6c057e3ba506ddb57f2961ca461ca4056c3ba8861cb805713ba9c3ba88057e015e43ba9c0563015f83ddb4059e015f85fcd005be3de343de34057e3deb5015f9947f65278651fd947e0942009420250a09425)
  (.lf 0)))

def shaGateTree63 : BTree :=
  .nd (.nd (.nd (.lf
  0x371d20497510f08125e0496371c0371c0dc72371c5371ca04964b4ec4c8ee0496812d4812d52d3b510ec69bc9643b041a827c7dddbe03aac776f9ddbd27c6827c689f1c27c6d27c6dddbd4b4ec27b11dd805f00477601dd7f27b0027b009ec227b0527b09dd7f5d000279940000775aa775a89e6227984279849e62590ed590ec9e625b02c5b02ddd7f776787767974005f0005d001ddbd77770777700eaa4b4ec4b4ee0ff88405c8405d343b4e8ec4d0ee103684154840da10353b5343b534ed4f3b5393b53e1035007a43b53a1035518e83b3de0ff84e8ec83fe20ff73b3cc3b3ccecf53b3d13b3d60ff74d0e8399260b5e4fd6c82d7a0b5d3991439914e647399193991e0b5d4b4e83965a0ae24cd6c82b8a0ae13964439644e593396493964a0ae14e5684b16a0ae182c0082c01335a4e5684e56a0b5d82df082df12d3a4fd68371c60496510ec8125a0495371b4371b4dc6f371b9371be04954b4e84c8ea0495812d0812d12d3a510e869cbd4c3a590e869bc5643a041a427c71ddbd03aa8776f5ddbc27c5c27c5c9f1927c6127c61ddbc4b4e827b05dd7f5f000775fddd7e27af427af49ebf27af927afddd7e5cffc279889e602797c2797c9e60590e9)
  (.lf 0)) (.nd (.lf
  0x4d879f87d7e2707e1f5f87c32b8832b88cae432b8d32b91f87c4a7f432b8df87c4f0744d875f87c7e26c7e1f1f87b32b7c32b7ccae132b8132b85f87b4a7f032b81f87b4f0704d871f87b7e2687e1edf87a32b7032b70cade32b7532b75f87a4f06c32b79f87a4a7ec4d86df87a7e2647e1e9f87932b6432b64cadb32b6932b6df8794a7e832b69f8794f0684d869f8797e2607e1e5f87832b5832b58cad832b5d32b61f8784a7e432b5df8784f0644d865f8787e25c7e1e1f87732b4c32b4ccad532b5132b55f8774a7e032b51f8774f0604d861f8777e2587e1ddf87632b4032b40cad232b4532b45f8764f05c32b49f8764a7dc4d85df8767e2547e1d9f87532b3432b34cacf32b3932b39f8754f05832b3df8754a7d84d859f8757e2507e1d5f87432b2832b28cacc32b2d32b31f8744a7d44d855f8747e24c32b2df8744f0547e1d1f87332b1c32b1ccac932b2132b21f8734f05032b25f8734a7d04d851f8737e2487e1cdf87232b1032b10cac632b1532b15f8724f04c32b19f8724a7cc7e1c9f87132b0432b04cac332b0932b0df8714a7c841a48049001214447d004a501214540d80685448d0448d11254449d1449d00685012140121598086609c)
  (.lf 0))) (.nd (.nd (.lf
  0x5e81dce217390073885ce2020c5c20c5c831920c6120c65ce206081820c61ce2062818209a1cda55c81c73695cda42098c2098c82652099120991cda45e8182081400007362e7362dcd8a208002080082022080520805cd8a5a87467ce1624102ac058905cd8a208b0208b000005a8765a875cda47370c7370d72065e8185e819ce20738fc73881ce1f20c5020c50831620c5520c59ce1f6081420c55ce1f6281420995cda45c8182080800007362a7362881ff207f8207f881ff5890167cdd624002abc5890081ff5a8705a871cda37370873691cda320980209808262209857370972055e81420985cda35e8145e815ce1f738f87387dce1e20c4420c44831320c4920c4dce1e6081020c49ce1e62810207fc81fd207f0207f081fd588fd67cd9623f02ab8588fc81fd5a86c5a86dcda27370420989cda35c8147368dcda22097420974825f2097920979cda25e8107370572045e8105e811ce1e738f473879ce1d20c3820c38831020c3d20c41ce1d6080c20c3dce1d6280c2097dcda25c81073689cda120968207f481fb207e8207e881fb588f967cd5623e02ab4588f881fb5a8685a869cda17370020968825c2096d2096dcda15e80c7370172035e80c)
  (.lf 0)) (.nd (.lf
  0x719d8e9d4b5f407fb5910a00d3464429910907fa407fa41feb07fa907fad910957a7464599469d57a743b6c12d7d4b5e05f90804cc3d6ec3d6ed2d7d3d76d3d66d2d5d4b5f44b5f59109644a0644a15e9d00d3013b24000013bde13bdc4ec613b1413b144ec657a7557a744ec659a6459a65b0d36c3c86c351b0d313cb413cb44f2f13cb913cb9b0d35d9886c3c96e625d9885d989b14f6c5b813f89b14f619886c53db14e13f7813f784fe013f7d13f81b14e5f9843b6bd2d7c4b5dc071998e9d008b063a758e9c07188071881c640718d071918e9c4b5f00718d8e9c008ac847318e9c63aec63a718e9b0717c13f7db14e619840717c1c6107181071858e9b4b5ec5f90404cb3d6e83d6e92d7c3d76963aed2d7c008ac3d6692d5c4b5f04b5f191086449c6449d5e9c00d2c07fa9910900d3064425910807f9807f981fe807f9d07f9d910800d2c07fa1910857a7064421910707f8c07f8c1fe507f9107f95910757a6c3d6652d5b4b5ec3b7392d7b4b5d88472d8e9b63ae863ae92d7b008a84b5ed910764498644995e9b00d2864591469b57a6c57a6c4ef513c0c13c0c000059a5e13b184ef613b0813b084ec413b0d13b0c4ef659a6064595469c57a70)
  (.lf 0)))

def shaGateTree64 : BTree :=
  .nd (.nd (.nd (.lf
  0x2e4a9ec51008d42e4a5ec51007545d7adec517b1c07b145ec502e4942e494b9272e4992e49dec50008d02e499ec50007505d7a9ec507b1bc7b141ec4f2e4882e488b9242e48d2e491ec4f008cc2e48dec4f0074c5d7a5ec4f7b1b87b13dec4e2e47c2e47cb9212e4812e485ec4e008c82e481ec4e007485d7a1ec4e7b1b47b139ec4d2e4702e470b91e2e4752e479ec4d008c42e475ec4d007445d79dec4d7b1b07b135ec4c2e4642e464b91b2e4692e46dec4c008c02e469ec4c007405d799ec4c7b1ac7b131ec4b2e4582e458b9182e45d2e461ec4b008bc2e45dec4b0073c5d795ec4b7b1a87b12dec4a2e44c2e44cb9152e4512e455ec4a008b82e451ec4a007385d791ec4a7b1a47b129ec492e4402e440b9122e4452e449ec49008b42e445ec49007345d78dec497b1a07b125ec482e4342e434b90f2e4392e43dec48008b02e439ec48007305d789ec487b19c7b121ec472e4282e428b90c2e42d2e431ec47008ac2e42dec470072c5d785ec477b1987b11dec462e41c2e41cb9092e4212e425ec46008a82e421ec46007285d781ec467b1947b119ec452e4102e410b9062e4152e419ec45008a42e415ec45007245d77dec457b1907b115ec442e404)
  (.lf
  0x3b7092d8f4b628618ed2d8f3b6d03d7352d8f3d7b54b63d911b644e808081911b00d786446d911a0807008070201e0807508075911a00d7408079911a57ab86446991190806408064201b0806908069911900d706c2117e50619406c2197e52619485f94804dc3d72c8476d8eab63b28072658eae008f463ab98ead07254072541c9707259072598ead008f0847758ead63b300725d8ead4b63463ab58eac07248072481c940724d0724d8eac008ec6c1b17e38618e06c2017e4c61930619312d803b7143b7152d724b6346c1e97e4661918619192d7a3b6fc5f94004da3d7243d7252d8b3d7a5072518eac4b6306c1b57e39618e4618e52d8d3b6c83d6ad2d6d4b6346c1ed7e476191c6191d2d7b3b7003b7012d8d4b62063b312d8d008f03d72d2d8d3d7ad4b6359119644e00806d911957ab4644659118080580805820180805d08061911857ab0847718eac63b2c63b2d2d8c008ec6c2157e51619445f94404db3d7283d7292d8c3d7a96c1fd7e4b6192c6192d2d7f3b7103b7112d714b630618e12d8c3b6c43b6fd2d8c4b61c0805d911800d6c3d6a92d6c4b6304b6319118644dc6446191170804c0804c20150805108055911757aac3d6a52d6b4b62c))
  (.nd (.lf
  0x72809ca011ef381ef387bd01ef3d1ef41ca01028f85c651ca01728801ef3dca014ab3c72805ca001ef2c1ef2c7bcd1ef311ef31ca004ab385c64dca007287c1ef35ca00028f472801c9ff1ef201ef207bca1ef251ef29c9ff028f05c649c9ff728781ef25c9ff4ab34727fdc9fe1ef141ef147bc71ef191ef19c9fe4ab305c645c9fe728741ef1dc9fe028ec727f9c9fd1ef081ef087bc41ef0d1ef11c9fd028e85c641c9fd728701ef0dc9fd4ab2c727f5c9fc1eefc1eefc7bc11ef011ef01c9fc4ab285c63dc9fc7286c1ef05c9fc028e4727f1c9fb1eef01eef07bbe1eef51eef9c9fb028e05c639c9fb728681eef5c9fb4ab24727edc9fa1eee41eee47bbb1eee91eeedc9fa028dc1eee9c9fa4ab205c635c9fa72864727e9c9f91eed81eed87bb81eedd1eee1c9f9028d81eeddc9f94ab1c5c631c9f972860727e5c9f81eecc1eecc7bb51eed11eed5c9f8028d41eed1c9f84ab185c62dc9f87285c727e1c9f71eec01eec07bb21eec51eec9c9f7028d01eec5c9f74ab145c629c9f772858727ddc9f61eeb41eeb47baf1eeb91eebdc9f6028cc1eeb9c9f64ab105c625c9f672854727d9c9f51eea81eea87bac1eead1eeb1c9f5028c85c621c9f572850)
  (.lf 0))) (.nd (.nd (.lf
  0x3b498ed283b49d3b4a210084d12c399f20b6f4fdb082dbe0b6e399e0399e0e67a399e5399ea0b6e4b52c397260af34cdb082bce0af23971039710e5c639715397160af24e5ac4b1ae0af282c4482c45336b4e5ac4e5ae0b6e82e3482e352d4b4fdac3729204a7511308129e04a63728037280dca2372853728a04a64b52c4c92e04a681314813152d4b5112c69c09644b041e827d3dddce03aec77739ddcd27d2827d289f4c27d2d27d2dddcd4b52c27bd1dd905f04477641dd8f27bc027bc09ef227bc527bc9dd8f5d04027a35dd7227a2427a249e8b27a2927a29dd725b06c5912ddd7227a8427a8400005b06e5b06ddd8f776b8776b974105f0405d041ddcd777b0777b00eba4b52c4b52e10088409c8409d344b4e92c4d12e1046841948411a10453b5f43b5f4ed7f3b5f93b5fe1045007e43b5fa1045519283b49e10084e92c8402210073b48c3b48ced253b4913b49610074d128399e60b6e4fdac82dba0b6d399d4399d4e677399d9399de0b6d4b5283971a0af24cdac82bca0af13970439704e5c3397093970a0af14e5a84b1aa0af182c4082c41336a4e5a84e5aa0b6d82e3082e312d4a4fda83728604a65112c8129a04a53727437274dc9f37279)
  (.lf 0)) (.nd (.lf
  0x127998216610066101486f581bc5e055be4f6f9b86f93dbe4e19c8419c84672319c8919c8dbe4e6005019c89be4e620505e051be4e6f9b46f939be4d19c7819c78672019c7d19c81be4d6004c19c7dbe4d6204c5e04dbe4d6f9b06f935be4c19c6c19c6c671d19c7119c75be4c6004819c71be4c620485e049be4c6f9ac6f931be4b19c6019c60671a19c6519c69be4b600445e045be4b6f9a819c65be4b620446f92dbe4a19c5419c54671719c5919c5dbe4a6004019c59be4a620405e041be4a6f9a46f929be4919c4819c48671419c4d19c51be496003c5e03dbe496f9a019c4dbe496203c6f925be4819c3c19c3c671119c4119c45be48600385e039be486f99c19c41be48620386f921be4719c3019c30670e19c3519c39be476003419c35be47620345e035be476f9986f91dbe4619c2419c24670b19c2919c29be46620305e031be466f99419c2dbe46600306f919be4519c1819c18670819c1d19c21be456002c19c1dbe456202c5e02dbe456f9906f915be4419c0c19c0c670519c115e011be3e6f9745e029be446f98c19c11be446202819c15be44600286f911be4319c0019c00670219c055e025be436f98819c09be436002419c05be4362024)
  (.lf 0)))

def shaGateTree65 : BTree :=
  .nd (.nd (.nd (.lf
  0x482dc110804320482e0110904324482e4110a04328482e8110b0432c482ec110c04330482f0110d04334482f4110e04338482f8110f0433c482fc11100434048300111104344483041112043484830811130434c4830c11140435048310111504354483141116043584831811170435c4831c1118043604832011190436448324111a0436848328111b0436c4832c111c0437048330111d0437448334111e0437848338111f0437c5d1d5e0ca783a4783a40f1f0017c0437daa8a6aaa46aaa54d30594c003c7daa4c6a9ac6a9ad65300457c594c1e46b5b3e85b3e9e48a792a4792a574f55f3d45f3d5e5067949479419e5052b08c2b08cac252b0912b095e505613d02b091e505633d079229e4892adbc2adbcab712adc12adc1e4895f3d0791acab0d2ac302ac30ab0d594bd5d1d1e0c9783a0783a00f1e0017878329e0c9292dc292dca4b9292e1292e5e0c903c7803c79aa4b6a9a86a9a9652f045786aa29aa891142411424450b1142911429aa89594bc04379aa896aaa06aaa14d2f594bc6a931aa4b112bc112bc44b1112c1112c5aa4b594bc594bcab0d5b3e45b3e5e489792a0792a174f45f3d05f3d1e5057949079415e5042b0802b080ac222b085)
  (.lf 0)) (.nd (.lf
  0xbaf02ebe0baf50baf99b3a585083eb7c0950024c06039809703ebfc3ebfc09303ec7d024c19b3966d603eb800951024c46039c09713ec003ec0009313ec810baf59b3a01ec4024c59b3a66d6466ce99b390bae43eb70094d024b43eb74094e024b83eb78094f024bc6038c096d3ebf060390096e3ebf460394096f3ebf83ebf0092d3ec713ebf4092e3ec753ebf8092f3ec790bae42ebb0bae90bae99b3901ec00baed9b395850466ce59b380bad80bad82eb80badd0bae19b3858500024bd9b3866d5c0badd9b3801ebc66ce19b370bacc0bacc2eb50bad10bad19b3701eb80bad59b37584fc024b99b3766d5866cdd9b360bac00bac02eb20bac50bac59b3601eb4024b59b3666d540bac99b36584f866cd99b350bab43eb6c094c024b060388096c3ebec3ebec092c3ec6d0bab42eaf0bab90bab99b3501eb00babd9b35584f4024b19b3566d5066cd59b340baa80baa82eac0baad0bab19b34584f066d71614501ed066d9d615001efc66e9549505854058541c5ab1d04c1d04c00005a4d25a4d1c5ca717a471729c5c91d1ac1d1ac746d1d1b11d1b5c5c95c45066d6d614401ecc66d69614301ec8716ac74031d0081d00874035853d66d99614f01ef8)
  (.lf 0))) (.nd (.nd (.lf
  0x38e58e39838e5d38e5e09784e4940e555a28202e5468a09a2810e5440e54439530e5490e54da28158c9403451a28168a8068a81632502e5023d09d4d50365475355d4d423cf423cf48f3f23cf923cf9d4d44b09423b9dd4975ebac7525dd49623b8c23b8c8ee523b9123b95d4965cba823a1c0000751fe751fdd47e23a0823a088e8423a0d23a0dd47e5abf858c95d47e23a9423a9400005abfa5abf9d496752d4752d572ea5eba85cba9d4d4753cc753cc0d944b0944b09609788265c8265d33254e4944e49609f48284c827d209f33911c3911ce449391213912609f34b4103912209f34fc9038e6209784cc94825e2097738e4c38e4ce39538e5138e5209774e4900e549a28102e5068a05a2800e5380e53839500e53d0e541a28058c900344da28068a7c68a7d632402e4c23cfdd4d40365075351d4d323ce823ce88f3c23ced23cedd4d34b09023b91d4965eba875259d49523b8023b808ee223b8523b89d4955cba423a100000751fa751f88e8123a0023a008e8158c9158c908e815abf45abf5d495752d0752d172e95eba45cba5d4d3753c8753c80d934b0904b0920977826588265933244e4904e49209f382848827ce09f23911039110e44639115)
  (.lf 0)) (.nd (.lf
  0x7cfcdf3f23119031190c4663119531195f3f2505b44d455f2a47cb0c309b9f2aa4a3ec7caa9f2a9309a4309a4c26b309a94d469f2a97cb207cb2128fa4ec68309a9f2a94ec684ec692864061b47cb4529034ec8c4ec8d286d061d8061b5286d4a1ac31039f3b54d5b87ced5f3b43102831028c40c3102d6dce005dc4a1b431031f3b44bdb44a1b5f3b47cf4c7cf4d2f6d4d5b44bdb5f3f27d04431199f3f24a9b47cfc9f3f13118431184c4633118931189f3f1505b04d465f2a87cb1c309adf2a94a3e87caa5f2a83099830998c2683099d309a1f2a84a3e43099df2a84ec647caa1f2a73098c3098cc2653099130995f2a74a3e030991f2a74ec604d461f2a77cb187ca9df2a63098030980c2623098530989f2a64a3dc30985f2a64ec5c4d45df2a67cb147ca99f2a53097430974c25f309794d459f2a57cb103097df2a54a3d830979f2a54ec587ca95f2a43096830968c25c3096d3096df2a44ec5430971f2a44a3d47ca91f2a33095c3095cc2593096130965f2a34a3d04d451f2a37cb0830961f2a34ec507ca8df2a23095030950c2563095530955f2a24ec4c4d44df2a27cb047cb0528f34ec4c4ec4d285d061987cb0928f44ec504ec51285e0619c)
  (.lf 0)))

def shaGateTree66 : BTree :=
  .nd (.nd (.nd (.lf
  0x7a625e9882d0a42d0a4b42b2d0a92d0a9e9885f6342cee400002cf4e2cf4cb3b62ced42ced4b3b6597215d435e5b87975c7975c0fb7003dc2b5e9e5b9003e0796e5e5b82b5d82b5d8ad782b5dd2b5e1e5b803edc03eddacb06b33c6b33d65c8047dc121f5acef537246b3bdacee121e0121e0487a121e5121e5acee59720045ddacee6b4346b4354dc85972012089acb1047e06b2c5acb0120781207848201207d12081acb05972059720b3b65b6345b635e9887a69c7a69d758d5f6345f635ea047a88c7a811ea032d3682d368b4dc2d36d2d371ea03616302d36dea03636302d0ade9885d6347a621e9872d0982d098b4282d09d2d09de9875f6302ced8b3d22cec82cec8b3b42cecd2ceccb3d25b6302b5dde5b8003dc796e1e5b72b5cc2b5ccad752b5d12b5d5e5b703ed85d431e5b779758797580fb6003d8121e9acee537206b3b9aced121d4121d44877121d9121d9aced5971c045d9aced6b4306b4314dc75971c1207dacb0047dc6b2c1acaf1206c1206c481d1207112075acaf5971c03ed9acaf6b3386b33965c7047d85971cb3d22cf882cf8800005b6325b631e9877a6987a699758c5f6305f631ea037a8887a80dea022d35c2d35cb4d92d361)
  (.lf 0)) (.nd (.lf
  0x56292c8e4b20c0562d2c8f4b210056312c904b214056352c714b218056392c724b21c0563d2c734b220056412c744b224056452c754b228056492c764b22c0564d2c774b230056512c784b234056552c794b238056592c7a4b23c0565d2c7b4b240056612c7c4b1c4056652c7d4b1c8056692c7e4b1cc0566d2c7f4b1d0804992cae50eb850eb92c804b1d48049d2caf50ebc50ebd2c814b1d8804a12cb050ec050ec12c824b1dc5e5d5c93a72564724e9c9391e9bc1e9bc7a711e9c11e9c5c939605d01e9c1c939625d05e5d1c93972560724e5c9381e9b01e9b07a6e1e9b51e9b9c938605cc1e9b5c938625cc5e5cdc9387255c724e1c9371e9a41e9a47a6b1e9a91e9adc937605c81e9a9c937625c85e5c9c93772558724ddc9361e9981e9987a681e99d1e9a1c936605c41e99dc936625c45e5c5c93672554724d9c9351e98c1e98c7a651e9911e995c935605c01e991c935625c05e5c1c93572550724d5c9341e9801e9807a621e9851e985c934625bc5e5bdc9347254c1e989c934605bc724d1c9331e9741e9747a5f1e9791e97dc933605b85e5a5c92e72534725358169625a45e5b5c932725441e979c933625b85e5b9c93372548724cdc9321e968)
  (.lf 0))) (.nd (.nd (.lf
  0x76149d851254a0254a0952a254a5254a9d85154e7c254a5d85156e7c52e7dd851761c076145d85025494254949527254992549dd85054e7825499d85056e7852e79d850761bc76141d84f254882548895242548d25491d84f54e742548dd84f56e7452e75d84f761b87613dd84e2547c2547c95212548125485d84e54e7025481d84e56e7052e71d84e761b476139d84d2547025470951e2547525479d84d54e6c25475d84d56e6c52e6dd84d761b076135d84c2546425464951b254692546dd84c54e6825469d84c56e6852e69d84c761ac76131d84b254582545895182545d25461d84b54e642545dd84b56e6452e65d84b761a87612dd84a2544c2544c95152545125455d84a54e6025451d84a56e6052e61d84a761a476129d849254402544095122544525449d84954e5c25445d84956e5c52e5dd849761a076125d8482543425434950f254392543dd84854e5825439d84856e5852e59d8487619c76121d8472542825428950c2542d25431d84754e542542dd84756e5452e55d847761987611dd8462541c2541c95092542125425d84654e5025421d84656e5052e51d8467619476119d845254102541095062541525419d84554e4c25415d84556e4c)
  (.lf 0)) (.nd (.lf
  0x18425bad05bea059f5dbad06ebbc6eb41bacf184101841061061841518415bacf5de9c18419bacf5be9c6eb3dbace184041840461031840918409bace5de9859f55bace6ebb41840dbace5be986eb39bacd183f8183f86100183fd183fdbacd5de9418401bacd5be946eb35bacc183ec183ec60fd183f11828000006eade6eadc609d1827018270609d57f7d5fe10060e3e0f43e0f405ce3e1753bbc805ce017243e07405ee017380173995e365808658095fdf0123841840040e0100c441f4042e0103853efc044e442f4442f510dd443f5443f4044e010380103996216590009d49962157f7c6590147df57f7c09bed95e40123c6579195e309bdc09bdc26f909be109be595e357f7c57f7c609d59f4c59f4dbacc6ebac183f5bacc5be906ebad6fa45de905be91bb0a6eca46eca4064e4a37c183f1bacc5de9065885962009d383bbc405cd017206eb31bacb183e0183e060fa183e509d38275009d3d09d3d962057f7818275bab61826418264609b1826918269bab659f484183c040d01008441f0042d0103453ef8044d442f0442f110dc443f1443f0044d01034010359620658fc658fd47de57f783e07005ed017345fe0c060d3e0f03e0f005cd3e171)
  (.lf 0)))

def shaGateTree67 : BTree :=
  .nd (.nd (.nd (.lf
  0x5b0bdde8d77ab077ab174265f0985f099df0977ca077c25df082850428504a143285092850ddf086109428509df086309428249de8d5d09877a35de8c2823428234a08f2823928239de8c5f094280c00000779da779d9de75280ac280aca02d280b1280b1de755b0b859181de75281682816800005b0ba5b0b9de8c77aac77aad74255f0945f095df0877c9c77c21df07284f8284f8a140284fd28501df0761090284fddf07630902823dde8c5d09477a31de8b2822828228a08c2822d2822dde8b5f090280b40000779d6779d5de74280a0280a0a02a280a5280a5de745b0b45917dde74281642816400005b0b65b0b5de8b77aa877aa974245f0905f091df0777c9877c1ddf06284ec284eca13d284f1284f5df066108c284f1df066308c28231de8b5d09077a2dde8a2821c2821ca0892822128221de8a5f08c280a80000779d2779d1de732809428094a0272809928099de735b0b059179de73281602816000005b0b25b0b1de8a77aa477aa574235f08c5f08ddf0677c9477c19df05284e0284e0a13a284e5284e9df0561088284e5df056308828225de8a5d08c77a29de892821028210a0862821528215de895f0882809c0000779ce779cdde7228088)
  (.lf 0)) (.nd (.lf
  0x5c1fdc202708841b5bdc2024a6e870809c2011b5ac1b5ac6d6d1b5b11b5b1c2014a6e41b455c1c45e1fc6658160b901ca01b2e86cb81b2dc1b2dc6cb8582e56667948b9582e4582e46cb85a2845a285c1c37078870711c1c31b44470789707e5e1f81b4446d131b4491b44dc1c35c1f85c1f9c201708801b5b5c201024a070805c2001b5a01b5a06d6a1b5a51b5a9c2000249c1b449c1c35e1f87070dc1c21b4381b4386d101b43d1b441c1c25c1f46657d60b801c9c6667548b8582e01b2e06cb61b2d41b2d46cb6582e1582e06cb65a2805a281c1c27078470785707d5e1f45c1f5c2007087c1b5a5c2004a6e070801c1ff1b5941b5946d671b5991b599c1ff4a6dc1b43dc1c25e1f470709c1c11b42c1b42c6d0d1b4311b435c1c15c1f06667148b7582dc6657960b701c981b2d86cb41b2cc1b2cc6cb4582dd582dc6cb45a27c5a27dc1c17078070781707c5e1f05c1f1c1ff708781b59dc1ff02498707fdc1fe1b5881b5886d641b58d1b591c1fe024941b58dc1fe4a6d86657560b601c946666d48b6582d81b2d06cb21b2c41b2c46cb2582d9582d86cb25a2785a279c1c07077c1b431c1c15e1f070705c1c01b4201b4206d0a1b4257077d707b5e1ec)
  (.lf 0))) (.nd (.nd (.lf
  0xdb1da0c858a7821cfc873d21cf021cf0873d58a79682a5629e02c3458a78873d5a9e85a9e9d096742d4742d572635e98c21ec5d0975e9907425dd09621eb421eb487af21eb921ebdd0965c98c5c98dd0d4743cc2201c88092202122021d0d44ae7822025d0d40343474351d0d3220102201088062201522019d0d3034303c6c00c8c0321c21eb9d0965e98c74259d09521ea821ea887ac21ead21eb1d0955c9883f66c0cac03230609080ccc3f6ec3f6ec0c8c3f76d0d9b5a08a02c3468229a0890d9a40d9a4366b0d9a90d9ada08958a7403231a089682a0423b80a8c02a04462ec0aac02a30549f40acc463ec463ed191b464ed464ec0acc02a3021cf4876d21ce421ce4873b21ce921ce8876d5a9e402a31a0c768398683994a9d58a740db21a0c852a7868321a0c70db0c0db0c36c50db11682a1629d02c300db11a0c758a7458a74876d21df421df400005a9e65a9e5d095742d0742d172625e9885c989d0d3743c822015d0d34ae747434dd0d2220042200488032200922009d0d24ae703c6bc0c8b03218423b40a8b02a00462e80aab02a2c549f00acb463e8463e9191a464e9464e80acb02a2c02a2da0c668394683954a9c58a703f6680cab0322c)
  (.lf 0)) (.nd (.lf
  0x145d1b229014dc5ba35b2296c9206c920053749f203db980557014dc5fbb405773dc183dc1805373dc99014dd938064e7c08e3d938000fdc08e41938057d2064e01937f08e2c08e2c238d08e3108e31937f00fd861b8405243b96861bcc05363b9b03b9680536014c45ba31b2286c91c6c8a5b228145bc6c91c053649f1c145bc5171145c1145c5b228014d83db940556014d85fbb005763dc143dc1405363dc95014d9937f64e7808e35937f57d1c64dfd937e08e20145c1b22849f1c6c8a1b227145b0145b0516e145b5145b5b22749f185ba2db2276c918145b9b227014d46c89db226145a4145a4516b145a9145adb226014d05ba29b2266c9146c914053449f146d5cd7edf61b7c61b7c05223b96061bc405343b9a83b9600534014bc3db8c0554014d05fba805743dc0c3dc0c05343dc8d014d1937d64e70145a9b22649f146c899b225145981459851681459d5ba25b2256c9101459db22549f10145a1b225014cc6c895b2241458c1458c51651459114591b22449f0c14595b224014c85ba21b2246c90c6c891b223145801458051621458514585b22349f086d5d17ee061b806c918053549f1808e20238a08e2508e25937e00fd408e29937e57d18)
  (.lf 0)))

def shaGateTree68 : BTree :=
  .nd (.nd (.nd (.lf
  0x41280103104044412841032040484128810330404c4128c10340405041290103504054412941036040584129810370405c4129c103804060412a0103904064412a4103a04068412a8103b0406c412ac103c04070412b0103d04074412b4103e04078412b8103f0407c53841ead97abe07ab65ead82d9802d980b6622d9852d989ead85583c2d985ead85783c5383dead87abdc7ab61ead72d9742d974b65f2d9792d97dead7558382d979ead75783853839ead77abd87ab5dead62d9682d968b65c2d96d2d971ead6558342d96dead65783453835ead67abd47ab59ead52d95c2d95cb6592d9612d965ead5558302d961ead55783053831ead57abd07ab55ead42d9502d950b6562d9552d959ead45582c2d955ead45782c5382dead47abcc7ab51ead32d9442d944b6532d9492d94dead3558282d949ead35782853829ead37abc87ab4dead22d9382d938b6502d93d2d941ead2558242d93dead25782453825ead27abc47ab49ead12d92c2d92cb64d2d9312d935ead1558202d931ead15782053821ead17abc07ab45ead02d9202d920b64a2d9252d929ead05581c2d925ead05781c5381dead07abbc7ab41eacf2d9142d914b6472d9192d91deacf55818)
  (.lf 0)) (.nd (.lf
  0x1f195ca73567941f199ca7354794729cdca721f1841f1847c631f1891f189ca725679052769ca6872a1c72a1d51da567681f18dca725479052791ca7272a44729c9ca711f1781f1787c601f17d1f17dca715678c5278dca7172a401f181ca715478c729c5ca701f16c1f16c7c5d1f1711f175ca70547881f171ca705678852789ca7072a3c729c1ca6f1f1601f1607c5a1f1651f169ca6f5478452779ca6c72a2c52785ca6f72a381f165ca6f56784729bdca6e1f1541f1547c571f1591f159ca6e567801f15dca6e5478052781ca6e72a34729b9ca6d1f1481f1487c541f14d1f14dca6d5677c1f151ca6d5477c5277dca6d72a30729b5ca6c1f13c1f13c7c511f1411f141ca6c567781f145ca6c54778729b1ca6b1f1301f1307c4e1f1351f139ca6b5477452775ca6b72a281f135ca6b56774729adca6a1f1241f1247c4b1f1291f12dca6a547701f129ca6a5677052771ca6a72a24729a9ca691f1181f1187c481f11d1f11dca695676c5276dca6972a201f121ca695476c729a5ca681f10c1f10c7c451f1111f111ca68567685676807ff420e072a4151e35678c5678c07e84210472a6d51ee567b8567b807f3421304210407ff01fd04213007ea01ffc)
  (.lf 0))) (.nd (.nd (.lf
  0xf891a5dc58ff0037ada5dc697ec69771a5db0f87c0f87c3e210f8810f881a5db031a80f885a5db58fec6976da5da0f8700f8703e1e0f8750f875a5da031a40f879a5da58fe80379da5d8697dc697dd63f80319c037a5a5da697e469769a5d90f8640f8643e1b0f8690f86da5d958fe4037a1a5d9697e00f869a5d9031a069765a5d80f8580f8583e180f85d0f85da5d80319c0f861a5d858fe069761a5d70f84c0f84c3e150f8510f855a5d758fdc03799a5d7697d80f851a5d7031986975da5d60f8400f8403e120f8450f849a5d658fd80f845a5d60319403795a5d6697d469759a5d50f8340f8343e0f0f8390f839a5d5031900f83da5d558fd403791a5d5697d069755a5d40f8280f8283e0c0f82d0f82da5d40318c0f831a5d458fd069751a5d30f81c0f81c3e090f8210f821a5d3031880f825a5d358fcc4733c0c0002f80473400c0102f84473440c0202f88473480c0302f8c4734c0c0402f90473500c0502f9454f440c204743c54f480c214744054f4c0c224744454f500c234744854f540c244744c54f580c25474504743d1d2f4753d474411d3047541474451d3147545474491d32475494744d1d334754d474511d34475514753c0c2002f80)
  (.lf 0)) (.nd (.lf
  0x61f24060c3bd086f1957fca61f2861f28060d3bd0c6f1a57fce61f3861f3806113bd1c6f1a97fcf61f3c61f3c06123bd203bd08061e018643bd0c061f018683bd1c0603018783bd2006040187c3e2b4063e018783e2b8063f0187c6f1bd7fd461f505ff50065e3e3346f1c17fd561f545ff54065f3e3383e334061e3e3b53e338061f3e3b90187996eb65c2865c29602f01a780187d96ec65c2c65bb196eb0a23c0a23c28910a2410a24596eb580bc65d21482f580bc65c2d603001a7c65d254830580c0580c1bcbc5a07c6f2f0644619114191146446580bd580bc64465a0780a24196eb01a7865bad96ea0a2300a230288e0a2351911864441910c1910c6444580b90a23996ea580b865c25602e01a74580b864445a07419111bcbb19100191006442191051910800006f2ee6f1657fbe61ef861ef806013bcdc6f1797fc361f0c61f0c06063bcf06f1ad7fd061f4061f4006133bd243bcdc0613018383bcf006180184c3e28806330184c5ff2406533e3083e30806133e3890184d96e065bfc65bfd602401a4c0a3619723580a4187a9bb7b53fd06ededbb7a187941879461e71879918799bb7a55fcc51fcdbb7a6ee640a3659723520a46ee654ff355fcc)
  (.lf 0)))

def shaGateTree69 : BTree :=
  .nd (.nd (.nd (.lf
  0x5b23de18b786a8786a974895f2245f225e207788987881de20629ac029ac0a6b229ac529ac9e2066122029ac5e2066322029805e18b5d2247862de18a297f0297f0a5fe297f5297f5e18a5f220296640000785c2785c1e16f2965029650a5962965529655e16f5b238109cda8cc043cc6a331a8cb109bc109bc4271109c1109c5a8cb5930c5930de16f297002970000005b23a5b239e18a786a4786a574885f2205f221e2067889478819e20529ab429ab4a6af29ab929abde2056121c29ab9e2056321c297f9e18a5d22078629e189297e4297e4a5fb297e9297e9e1895f21c296580000785be785bde16e2964429644a5932964929649e16e5b234109c1a8cb043c86a32da8ca109b0109b0426e109b5109b9a8ca5930803ac5a8ca6a3a46a3a564c2043c459309e16e296fc296fc00005b2365b235e189786a0786a174875f21c5f21de2057889078815e20429aa829aa8a6ac29aad29ab1e2046121829aade20463218297ede1895d21c78625e188297d8297d8a5f8297dd297dde1885f2182964c0000785ba785b8a5902963c2963ca59059305109b5a8ca043c46a329a8c9109a4109a4426b109a9109ada8c95930459304a5905b2305b231e1887869c)
  (.lf 0)) (.nd (.lf
  0x66a7148ff583fc669019a3f0b52c0b52c2d4d0b5310b5359a3f583fc583fc70495a38c1c12470471c1181c1187047583f96028c092d3e9f03e9f008ed3ea713c04408ed023a03e970090d023b4023b59a3e669746697560fe01db466a6d48fe583f80b5319a3f01db8668fd9a3e0b5200b5202d4a0b5250b5299a3e583f8583f870475a3881c11c70451c1101c1107045583f560288092c3e9ec3e9ec08ec3ea6d3c04008ec0239c3e96c090c023b0023b19a3d669706697160fd01db066a6948fd583f40b5259a3e01db4668f99a3d0b5140b5142d470b5190b51d9a3d583f4583f470455a3841c11470741c1041c10470431c1091c10870745a3803c03c08eb0239866a6548fc583f03e968090b023ac60284092b3e9e83e9e808eb3ea690b5199a3d01db0668f59a3c0b5080b5082d440b50d0b5119a3c583f0023ad9a3c6696c6696d60fc01dac583f070741c2041c10c00001c1d21c1d070401c0fc1c0fc7040583ed60280092a3e9e43e9e408ea3ea653c0b808ea023943e964090a023a8023a99a3b669686696960fb01da866a6148fb583ec0b50d9a3c01dac668f19a3b0b4fc0b4fc2d410b5010b5059a3b583ec583ec70405a37c1c10070731c0f0)
  (.lf 0))) (.nd (.nd (.lf
  0x4afaa0809820a0820a132ea4e3a84e3aa088582290822160884388e8388e8e23c388ed388f208844b324388ee08844fba43862e08094cba88202608083861838618e1883861d3861e08084e3a4687a94ae958ba4686b162e902d6022f79d2d00356474b41d2cf22f6422f648bdb22f6922f69d2cf4afa422e0dd2925eabc74a49d29122dfc22dfc8b8122e0122e05d2915cab822c00000022c7a22c788b1d22bec22bec8afd22bf122bf08b1d5ab1458ba48b1d22ccc22ccc00005ab165ab15d29174ac074ac172ae5eab85cab9d2cf74bb874bb80d584afa44afa608088209c8209d32e94e3a44e3a608848228c822120883388dc388dce239388e1388e608834b320388e208834fba03862208084cba48202208073860c3860ce185386113861208074e3a0687a54ae858ba0686ad62e802d5c22f6dd2cf0356074b3dd2ce22f5822f588bd822f5d22f5dd2ce4afa022e01d2915eab874a45d29022df022df08b7e22df522df9d2905cab422bf4000022c7622c748afa22be422be48afa58ba158ba08afa5ab105ab11d29074abc74abd72ad5eab45cab5d2ce74bb474bb40d574afa04afa20807820988209932e84e3a04e3a20883822888220e0882388d0)
  (.lf 0)) (.nd (.lf
  0x2f50def114a1904d211ef117bcc07bc45ef102f4f84d20def107bcbc2f4f8bd402f4fd2f501ef104a18c2f4fdef104ea0c7bc41ef0f2f4ec2f4ecbd3d2f4f12f4f5ef0f4a1882f4f1ef0f4ea084d209ef0f7bcb87bc3def0e2f4e02f4e0bd3a2f4e54d1fdef0c7bcac2f4e5ef0e4ea044d205ef0e7bcb42f4e9ef0e4a1847bc39ef0d2f4d42f4d4bd372f4d92f4d9ef0d4ea002f4ddef0d4a1804d201ef0d7bcb07bc35ef0c2f4c82f4c8bd342f4cd2f4cdef0c4e9fc2f4d1ef0c4a17c7bc31ef0b2f4bc4d1f9ef0b7bca82f4bcbd312f4c12f4c1ef0b4e9f82f4c5ef0b4a1787bc2def0a2f4b02f4b0bd2e2f4b52f4b5ef0a4e9f42f4b9ef0a4a1747bc29ef092f4a42f4a4bd2b2f4a92f4adef094a1702f4a9ef094e9f04d1f1ef097bca07bc25ef082f4982f498bd282f49d2f4a1ef084a16c7bcc928664ea187bca1285c4e9f04e9f127c6060047bca5285d4e9f44e9f527c7060087bca9285e4e9f84e9f927c80600c7bcad285f4e9fc4e9fd27c9060107bcc528654ea144ea1527cf060284ea1927d00602c0600527cf49f340600927d049f380600d27b149f3c0601127b249f4049f3df0147c0cc49f41f0157c0d07c055f0142fb282fb28becc2fb2d)
  (.lf 0)))

def shaGateTree70 : BTree :=
  .nd (.nd (.nd (.lf
  0x2baa5e6705d468799c1e66f2ba902ba90aea62ba952ba95e66f5f4642b92800007997679974ae472b9182b918ae47595515d265e2b178b4078b400f430020c29ff5e2b20021078ac9e2b129fe429fe4a7fb29fe929fede2b103d0c03d0dab286ad1c6ad1d65540460c11895ab67535546ad9dab66118801188046221188511885ab66595500440dab666ae146ae154d545955011729ab29046106aca5ab28117181171845c81171d11721ab285955059550ae475b46c5b46de66f79a3879a3975195f4645f465e6eb79c2879bade6ea2bd542bd54af572bd592bd5de6ea614602bd59e6ea634602ba99e66f5d464799bde66e2ba842ba84aea32ba892ba89e66e5f4602b91de65c2b90c2b90cae452b9112b911e65c5b46829fe9e2b10020c78ac5e2b029fd829fd8a7f829fdd29fe1e2b003d085d261e2b078b3c78b3c0f420020811889ab66535506ad99ab651187411874461f1187911879ab655954c04409ab656ae106ae114d535954c1171dab280460c6aca1ab271170c1170c45c51171111715ab275954c03d09ab276ad186ad196553046085954de65c2ba342ba3400005b46a5b469e66e79a3479a3575185f4605f461e6ea79c2479ba9e6e92bd48)
  (.lf 0)) (.nd (.lf
  0x5e4c9c74771d981db5dc748624cc5e4cdc74871d9c71d21c7471db4c1db4c76d51db511db51c747624c81db55c747604c871d1dc7461db401db4076d21db451db49c746604c41db45c746624c45e4c5c74671d9471d19c7451db341db3476cf1db391db39c745624c05e4c1c74571d901db3dc745604c071d15c7441db281db2876cc1db2d1db2dc744624bc1db31c744604bc5e4bdc74471d8c71d11c7431db1c1db1c76c91db211db21c743624b85e4b9c74371d881db25c743604b871d0dc7421db101db1076c61db151db19c742604b41db15c742624b45e4b5c74271d8471d09c7411db041db0476c31db091db0dc741604b01db09c741624b05e4b1c74171d8071d05c7401daf81daf876c01dafd1dafdc740624ac1db01c740604ac5e4adc74071d7c71d01c73f1daec1daec76bd1daf11daf1c73f624a81daf5c73f604a85e4a9c73f71d7871cfdc73e1dae01dae076ba1dae51dae9c73e604a45e475c73271d441dae5c73e624a45e4a5c73e71d7471cf9c73d1dad41dad476b71dad91daddc73d604a05e4a1c73d71d701dad9c73d624a071cf5c73c1dac81dac876b41dacd1dacdc73c6249c1dad1c73c6049c5e49dc73c71d6c71cf1c73b1dabc)
  (.lf 0))) (.nd (.nd (.lf
  0x5ace1d6a175b0075b0173265ec985ec99d71d75cf075c75d71c24c1424c14930724c1924c1dd71c60c9424c19d71c62c9424959d6a15cc9875a85d6a0249442494492532494924949d6a05ec94247bc000075a1a75a19d685247a8247a891ec247ad247add6855acdc58d81d6852486c2486c00005acde5acddd6a075afc75afd73255ec945ec95d71c75cec75c71d71b24c0824c08930424c0d24c11d71b60c9024c0dd71b62c902494dd6a05cc9475a81d69f249382493892502493d2493dd69f5ec90247b0000075a1675a1491e9247a0247a091e958d7d58d7c91e95acd85acd9d69f75af875af973245ec905ec91d71b75ce875c6dd71a24bfc24bfc930124c0124c05d71a60c8c24c01d71a62c8c24941d69f5cc9075a7dd69e2492c2492c924d2493124931d69e5ec8c247a491e7247982479891e758d7958d7891e75acd45acd5d69e75af475af573235ec8c5ec8dd71a75ce475c69d71924bf024bf092fe24bf524bf9d71960c8824bf5d71962c8824935d69e5cc8c75a79d69d2492024920924a2492524925d69d5ec882479c91e5247902479091e558d7558d7491e55acd05acd1d69d75af075af173225ec885ec89d71975ce075c65d71824be4)
  (.lf 0)) (.nd (.lf
  0x624d28a74a2940625128a84a2980625528a94a29c0625928aa4a2a00625d28ab4a2a40626128ac4a2a80626528ad4a2ac0626928ae4a2b00626d28af4a2b40627128b04a2b80627528914a2bc0627928924a2c07d12929484eda04eda1289b4a2647d12d29494eda44eda5289c4a2687d131294a4eda84eda9289d4a26c7d135294b4edac4edad289e4a2707d139294c4edb04edb1289f4a2747d13d294d4edb44edb528a04a2787d141294e4edb84edb928a14a27c7d145294f4edbc4edbd28a24a2807d14929504edc04edc128a34a2846e4e8061f4a2c04a2c1f52b7d5287d4adf52a318b0318b0c62e318b5318b9f52a4bebc318b5f52a4d6bc6e4e4061e4a2bc4a2bdf52a7d5247d4a9f529318a4318a4c62b318a9318a9f5294d6b8318adf5294beb86e4e0061d4a2b84a2b9f5297d5207d4a5f5283189831898c6283189d6e4dc061c4a2b44a2b5f5287d51c3189df5284d6b4318a1f5284beb47d4a1f5273188c3188cc6253189131895f5274beb06e4d8061b4a2b04a2b1f5277d51831891f5274d6b07d49df5263188031880c6223188531885f5264d6ac31889f5264beac6e4d4061a4a2ac4a2adf5267d5147d499f525318746e4d006194a2a8)
  (.lf 0)))

def shaGateTree71 : BTree :=
  .nd (.nd (.nd (.lf
  0x4b2a60c648320c8320d33a94e6a44cea60ca2833048328a0ca13a0c43a0c4e8333a0c93a0ce0ca10055c3a0ca0ca1516a039f6e0c644e6a4831920c6339f5c39f5ce7d939f6139f660c634cea04b2a20c63832088320933a84e6a04cea20ca183300832860ca03a0b83a0b8e8303a0bd3a0c20ca0005583a0be0ca05169c39f620c634e6a08318e0c6239f5039f50e7d639f5539f5a0c624ce9c4b29e0c62832048320533a74e69c4ce9e0ca0832fc832820c9f3a0ac3a0ace82d3a0b13a0b60c9f005543a0b20c9f5169839f560c624e69c8318a0c6139f4439f44e7d339f4939f4e0c614ce984b29a0c61832008320133a64e6984ce9a0c9f832f88327e0c9e3a0a03a0a0e82a3a0a53a0aa0c9e005503a0a60c9e5169439f4a0c614e698831860c6039f3839f38e7d039f3d39f420c604ce944b2960c60831fc831fd33a54e6944ce960c9e832f48327a0c9d3a0943a094e8273a0993a09e0c9d0054c3a09a0c9d5169039f3e0c604e694831820c5f39f2c39f2ce7cd39f3139f360c5f4ce904b2920c5f831f8831f933a44e6904ce920c9d832f0832760c9c3a0883a088e8243a08d3a0920c9c005483a08e0c9c5168c39f320c5f4e6908317e0c5e39f20)
  (.lf 0)) (.nd (.lf
  0x1a7adbff34a5d04a5d1fa257e910334fdfa254c1d0334f9fa254d9d07e895fa24334e8334e8cd3c334ed1a7b1bff30238c6ffcdbff21a79c1a79c69e91a7a11a7a1bff24a5cc4a5cdfa247e90c334f1fa244c1cc334edfa244d9cc7e891fa23334dc334dccd39334e1334e1fa234d9c87e939307e4d9f87e935307d4d9f47e931307c4d9f07e92530794d9e47e92130784d9e01a639bfb45e0e06fed1bfb31a6281a628698c1a62d1a631bfb35c0dc1a62dbfb35e0dc5a171bfb36ff480a955984201b8466109607101b813e53c0880019806005808a03e5bc3e5bc06603e63d4493c0680012805414406a044a3c44a3d12af44b3d44b3c06a001280012814871581c401981607101b800aac19880521c8662014871581c5581c400005a16e5a16d70365e0d833709fa7150a087e94930824da084c209fa717ea407e9c5fa70336f8336f8cdc0336fd336fdfa7050a047e94530814da044c205fa707ea3c33701fa704ae047e9c1fa6f336ec336eccdbd336f1336f5fa6f4ae00336f1fa6f50a007e93d307f4d9fc7e94130804da004c201fa6f7ea387e9bdfa6e336e0336e0cdba336e5336e5fa6e509fc4c1fdfa6e7ea34336e9fa6e4adfc7e9b9fa6d336d4)
  (.lf 0))) (.nd (.nd (.lf
  0x367b202df4dfd84abda02df80bf880bf931f64dfd84dfda035b80de880d6e035a36a7036a70da9e36a7536a7a035a4af5436a76035a4f7d4367b602df4c7d880b7e02de367a0367a0d9ea367a5367a602de4dfd44abd602de80bf480bf531f54dfd44dfd6035a80de480d6a035936a6436a64da9b36a6936a6e03594af5036a6a03594f7d0367aa02de4c7d480b7a02dd3679436794d9e7367993679a02dd4dfd04abd202dd80bf080bf131f44dfd04dfd2035980de080d66035836a5836a58da9836a5d36a6203584af4c36a5e03584f7cc3679e02dd4c7d080b7602dc3678836788d9e43678d3678e02dc4dfcc4abce02dc80bec80bed31f34dfcc4dfce035880ddc80d62035736a4c36a4cda9536a5136a5603574af4836a5203574f7c83679202dc4c7cc80b7202db3677c3677cd9e1367813678202db4dfc84abca02db80be880be931f24dfc84dfca035780dd83678602db4c7c84abc531f14dfc480b6d31f14dfc54dfc52bd14f7c480d5d2bd14f7c54f7c52b3b0697880dd92bd24f7c84f7c92b3c0697c80ddd2bd34f7cc4f7cd2b3d0698080de12bd44f7d04f7d12b3e0698480de52bd54f7d44f7d52b3f0698880de92bd64f7d84f7d92b400698c)
  (.lf 0)) (.nd (.lf
  0x1491852441490c1490c524457b6157b60524459b401491052421490414904524257b5d6496146d757b5c57b5c524259b3c59b3db2db6cbe86cbe96e9c5da705b955b02c6c12c6c0b1b02b137c8137c84df4137cd137cdb02b49e3c5b951b02b6c128137d1b02b013f86c0adb02a137bc137bc4df1137c1137c5b02a013f4137c1b02a49e385b94db02a6c1246c0a9b029137b014aa9b2e25ba8c59b51b2e06cbfc59b55b2e16cc006cb89b2e114a9414a9452a714a9914a99b2e15da8814a9db2e15ba886cb85b2e014a8814a8852a414a8d14a91b2e05ba8414a8db2e05da846cb81b2df14a7c14a7c52a114a815b86daf1a6bce46bce404c549d580866d923951b5c648e59238086580865821980865d0865d923857b5812f21af1b49d5c6bc6daf1a12f1012f104bc612f153d85004e50131412f15af1a49d585f9ec05053d8d03d8d004c53d9515b869af196bce012f19af1a013143b82404c5013000131591fa64864084f591fa00e14647e991f9084e4084e4213b084e9084e991f900e106bce004c449d546bc69af1912f0412f044bc312f0912f0daf19013105f9e805043d8cc3d84c04e4013103d8cc04c43d94d0131191f964860084ed91f957b54)
  (.lf 0)))

def shaGateTree72 : BTree :=
  .nd (.nd (.nd (.lf
  0x48f9123e648f9548f9a10b2538ec48f9610b2598e0047aa10b284344842ca10b148f8448f8523e348f8948f8e10b1538e848f8a10b1598dc047a610b184340842c610b048f7848f7923e048f7d48f8210b0538e448f7e10b0598d8047a210b08433c842c210af48f6c48f6d23dd48f7148f7610af538e048f7210af598d40479e10af84338842be10ae48f6048f6123da48f6548f6a10ae538dc48f6610ae598d00479a10ae84334842ba10ad48f5448f5523d748f5948f5e10ad538d848f5a10ad598cc0479610ad84330842b610ac48f4848f4923d448f4d48f5210ac538d448f4e10ac598c80479210ac8432c842b210ab48f3c48f3d23d148f4148f4610ab538d048f4210ab598c40478e10ab84328842ae10aa48f3048f3123ce48f3548f3a10aa538cc48f3610aa5b7e00478a10aa84324842aa10a948f2448f2523cb48f2948f2e10a9538c848f2a10a95b7dc0478610a984320843994e5059934843954e4f59930843914e4e5992c8438d4e4d59928843894e4c59924843854e4b59920843814e4a5991c8437d4e4959918843794e4859914843754e4759910843714e465990c8436d4e4559908843694e4459904843654e4359900843614e42598fc)
  (.lf
  0x1344c0000134a6134a44d2813438134384d101343d134f8000059a2613665afed5d95059a2dafed6c0306bfb5afec13654136544d97136591365dafec5b94c13659afec5d94c134fc000059a2a59a29afec6c02c6bfb1afeb13648136484d941364d1364dafeb5d9481343c4d2859a2459a25afeb6c02813651afeb5b9486bfadafea1363c1363c4d911364163bf52da00093c84a0990066409407991900700b886401d900607980079801e62079850798990064b8c864115904407ae807ae81ebc07aed07aed904457948640952e3200b844b8c990446418c07af1904451948641114651579456baed4e6455990539912de443288432890cc243389433892de44b89013645afea5b94407ec990d651a206418d46525794851949ae8a6baa46baa54e5255948849dd8fdd63ff0079318fdf00b6063f7d8fde07920079201e4a07925079258fde00b5c849e18fde63ff4079298fde4b8a063f798fdd07914079141e4707919079198fdd00b580791d8fdd4b89c63f758fdc07908079081e440790d0790d8fdc00b54849d98fdc63fec079118fdc4b89863f718fdb078fc078fc1e4107901079058fdb4b894079018fdb00b50849d58fdb63fe863f6d8fda078f0))
  (.nd (.lf
  0x5888c80405a7fc201cc00005a81a20301cca65e7bc5a815cca5733105a819cca67331473299cca5202f0202f080be202f5202f5cca55e7b8202f9cca55c7b873295cca4202e4202e480bb202e9202e9cca45e7b45a811cca47330c202edcca45c7b473291cca3202d8202d880b8202dd202e1cca35c7b05a80dcca373308202ddcca35e7b07328dcca2202cc202cc80b5202d1202d5cca25c7ac202d1cca25e7ac201c800005a8065a809cca27330473289cca1202c0202c080b2202c5202c5cca15e7a8202c9cca15c7a85a805cca17330073285cca0202b4202b480af202b9202bdcca05c7a4201008063200f0200f0803e200f5200f800002018e4214c08110201845d0008310204454808085145e0045e0117a045f0145f00085102044200f480635a7f80d01d9edd5288c020459edc67bec67bed4a225888867b759edc0d0080d00834040d00d0d00d9edc588880ceb19e9f02a4867a7d9e9e0cea00cea033aa0cea50cea99e9e58888588888063201c02018c8062200e4200e4803b200e94214808100201445cfc08300204054804085045dfc45dfd179f45efd45efc085002040020419edb67be867be94a21588840d0119edc5288867b719edb0cffc)
  (.lf 0))) (.nd (.nd (.lf
  0x476111da447711476151da547715476191da6477194761d1da74771d476211da847721476251da947725476291daa477294762d1dab4772d476311dac47731476351dad47735476391dae47739476e40c4a03028476e80c4b0302c476ec0c4c03030476f00c4d03034476f40c4e03038476f80c4f0303c476fc0c5003040477000c5103044477040c5203048477080c530304c4770c0c5403050477100c5503054477140c5603058477180c570305c4771c0c5803060477200c5903064477240c5a03068477280c5b0306c4772c0c5c03070477300c5d03074477340c5e03078477380c5f0307c0307da6aa69b2469aa9a6a90fda40fda43f6b0fda90fdada6a9530bc0fda9a6a9590bc03079a6a969b2069aa5a6a80fd980fd983f680fd9d0fda1a6a8530b80fd9da6a8590b803075a6a869b1c69aa1a6a70fd8c0fd8c3f650fd910fd95a6a7530b40fd91a6a7590b403071a6a769b1869a9da6a60fd800fd803f620fd850fd89a6a6530b00fd85a6a6590b00306da6a669b1469a99a6a50fd740fd743f5f0fd790fd7da6a5530ac0fd79a6a5590ac03069a6a569b1069a95a6a40fd680fd683f5c0fd6d0fd71a6a4530a80fd6da6a4590a803065a6a469b0c)
  (.lf 0)) (.nd (.lf
  0x5813c65ff5a0f4197fc65fd197f0197f065fd58139540b804bd447b0447b1120c448b1448b004bd011f46f2a9502c560b0560b0047141a286f27d502156084560840466419fc419fc047d011c841a280468011f4446b0049d011f418f09bc78540646f1e1bc7718ef418ef463bf18ef918ef9bc775606052061bc776f2586f25950185606056060047d419d8011f597a465f0c65f0d484e581380a67d97a55213c65e9597a40a6680a668299c0a66d0a66d97a45813865e15604e01af45813865fd5a0f05a0f5bdd26f7c4199b4666f199b9199b9bdd25e050199bdbdd25c0506f749bdd1199a8199a8666c199ad199b1bdd15c04c5a0f1bdd16f7c0199adbdd15e04c6f745bdd01999c1944dbd3c5ff686f4f1bd3b194381943865101943d1943dbd3b61f645df65bd3b6f5686f5697fd961f6461f64063c3bd486f5a17fe761f9c61f9c062a3bd806f5b57fec61fb061fb0062f3bd943bd80063c018dc3bd940621018f05205dbc766f25418efdbc77540606f1ddbc7618ee818ee863bc18eed18eedbc765605c6f25550175605c5605c047c419d46f279502056080560800465419f86f2a5502b560ac560ac047041a24419f8047c011c441a240467011f0)
  (.lf 0)))

def shaGateTree73 : BTree :=
  .nd (.nd (.nd (.lf
  0x3d0780efa03bd43d07c0efb03bd83d0800efc03bdc3d0840efd03be03d0880efe03be43d08c0eff03be83d0900ee003bec3d0940ee103bf03d0980ee203bf43d09c0ee303bf83d0a00ee403bfc3d0a40ee503b803d0a80ee603b843d0ac0ee703b883d0b00ee803b8c3d0b40ee903b903d0b80eea03b944093c0f0003b80409400f0103b84409440f0203b88409480f0303b8c4094c0f0403b90409500f0503b94409540f0603b98409580f0703b9c4095c0f0803ba0409600f0903ba4409640f0a03ba8409680f0b03bac4096c0f0c03bb0409700f0d03bb4409740f0e03bb8409780f0f03bbc4097c0f1003bc0409800f1103bc4409840f1203bc8409880f1303bcc4098c0f1403bd0409900f1503bd4409940f1603bd8409980f1703bdc4099c0f1803be0409a00f1903be4409a40f1a03be8409a80f1b03bec409ac0f1c03bf0409b00f1d03bf4409b40f1e03bf8409b80f1f03bfc612580f20409bc6125c0f21409c0612600f22409c4612640f23409c8612680f24409cc6126c0f25409d0612700f26409d4612740f27409d8612780f28409dc6127c0f29409e0612800f2a409e4612840f2b409e8612880f2c409ec6128c0f2d409f0612900f2e409f4)
  (.lf 0)) (.nd (.lf
  0x66c0d9b020b9d00b9d02e760b9d50b9d59b02584a045118073701c5c544200757452184521914a64531945318075701c5c01c5d9b0266c840b9d99b02524a066c099b010b9c470db950f1563c5523c550f1563c4563c4071641d3c70e8151055641456414070a41d8c41d60071601c2c41d8c070101c580b9c42e730b9c90b9c99b015849c45114073601c585441c0756452144521514a54531545314075601c580b9cd9b015249c01c599b0166c8066c059b000b9b80b9b82e700b9bd0b9c19b00524980b9bd9b005849870e7d51045641056410070941d8856440071541db841d5c071501c2841d88070001c5445110073501c54544180755452104521114a44531145310075501c5401c559b0066c7c66c019aff0b9ac0b9ac2e6d0b9b10b9b59aff5249441d54071301c2045108073301c4c544100753452084520914a24530945308075301c4c01c4d9afe66c745643c071441db441d58071401c244510c073401c505441407544520c4520d14a34530d4530c075401c500b9b19aff5849401c519aff66c7866bfd9afe0b9a00b9a02e6a0b9a50b9a59afe584900b9a99afe5249066bf99afd0b9940b9942e670b9990b99d9afd5248c0b9999afd5848c)
  (.lf 0))) (.nd (.nd (.lf
  0x234bdd3935eb3474e4dd392234ac234ac8d2d234b1234b5d3925cb30233408cce23334233348cce58c1d58c1c8cce5ab805ab81d39274ec474ec572cc5eb305cb31d3d074fbc74fbc0d764b01c4b01e08c08237c8237d33074e41c4e41e093c8256c824f2093b38cfc38cfce34138d0138d06093b4b39838d02093b4fc1838a4208c04cc1c8230208bf38a2c38a2ce28d38a3138a3208bf4e4180e291a20702dd86881da2060e2800e28038a20e2850e289a20658c18033d5a2066889468895630602dd42361dd3d0035d874f41d3cf23608236088d842360d2360dd3cf4b018234b1d3925eb3074e49d391234a0234a08d2a234a5234a9d3915cb2c233388ccc2332c2332c8ccc58c1958c188ccc5ab7c5ab7dd39174ec074ec172cb5eb2c5cb2dd3cf74fb874fb80d754b0184b01a08bf823788237933064e4184e41a093b82568824ee093a38cf038cf0e33e38cf538cfa093a4b39438cf6093a4fc1438a3608bf4cc18822fe08be38a2038a20e28a38a2538a2608be4e4140e285a20602dd468819a2050e2740e274389f0e2790e27da20558c14033d1a2056889068891630502dd023611d3cf035d474f3dd3ce235fc235fc8d812360123601d3ce4b014)
  (.lf 0)) (.nd (.lf
  0x503dd29da04c907c73929f8503e0503e129db04c947c73d29f9503e4503e529dc04c987c74129fa503e8503e929dd04c9c7c74529fb503ec503ed29de04ca07c74929fc503f0503f129df04ca47c74d29fd503f4503f529e004ca87c75129fe503f8503f929e104cac7c75529ff503fc503fd29e204cb07c7592a00504005040129e304cb47c75d2a01504045040529e404cb87c7612a02504085040929e504cbc7c7652a035040c5040d29e604cc07c7692a04504105041129e704cc47c76d2a05504145041529e804cc87c7712a06504185041929e904ccc7c7752a075041c5041d29ea04cd07c7792a08504205042129eb04cd47c77d2a09504245042529ec04cd87c7812a0a504285042929ed04cdc7c7852a0b5042c5042d29ee04ce07c7892a0c504305043129ef04ce47c78d2a0d504345043529f004ce804c7929e34a76004c7d29e44a76404c8129e54a76804c8529e64a76c04c8929e74a77004c8d29e84a77404c9129e94a77804c9529ea4a77c04c9929eb4a78004c9d29ec4a78404ca129ed4a78804ca529ee4a78c04ca929ef4a79004cad29f04a79404cb129d14a79804cb529d24a79c04cb929d34a7a004cbd29d44a7a404cc129d54a7a8)
  (.lf 0)))

def shaGateTree74 : BTree :=
  .nd (.nd (.nd (.lf
  0x575e0115d42f5879d355579575e4575e4115e42f5c79d39557a575e8575e8115f42f6079d3d557b575ec575ec114042f6479d41557c575f0575f0114142f6879d45557d575f4575f4114242f6c79d49557e575f8575f8114342f7079d4d557f575fc575fc114442f7479d5155805760057600114542f7879d5555815760457604114642f7c79d5955825760857608114742f8079d5d55835760c5760c114842f8479d6155845761057610114942f8879d6555855761457614114a42f8c79d6955865761857618114b42f9079d6d55875761c5761c114c42f9479d7155885762057620114d42f9879d7555895762457624114e42f9c79d79558a5762857628114f42fa079d7d558b5762c5762c115042fa479d81558c5763057630115142fa879d85558d5763457634115242fac79d89558e5763857638115342fb079d8d558f5763c5763c115442fb479d9155905764057640115542fb842f3c114d0450842f40114e0450c42f44114f0451042f4811500451442f4c11510451842f5011520451c42f5411530452042f5811540452442f5c11550452842f6011560452c42f6411570453042f6811580453442f6c11590453842f70115a0453c42f74115b04540)
  (.lf 0)) (.nd (.lf
  0x7215581496252462524098c3c30872159814a6252862528098d3c30c7215d814b6252c6252c098e3c31072161814c6253062530098f3c31472165814d625346253409903c31872169814e625386253809913c31c7216d814f6253c6253c09923c320721718150625406254009933c324721758151625446254409943c328721798152625486254809953c32c7217d81536254c6254c09963c330721818154625506255009973c334721858155625546255409983c3383c2bc098b026183c2c0098c0261c3c2c4098d026203c2c8098e026243c2cc098f026283c2d009900262c3c2d40991026303c2d80992026343c2dc0993026383c2e009940263c3c2e40995026403c2e80996026443c2ec0997026483c2f009980264c3c2f40999026503c2f8099a026543c2fc099b026583c300099c0265c3c304099d026603c308099e026643c30c099f026683c31009800266c3c3140981026703c3180982026743c31c0983026783c32009840267c3c3240985026003c3280986026043c32c0987026083c33009880260c3c3340989026103c338098a026143eea009b9026643eea409ba026683eea809bb0266c3eeac09bc026703eeb009bd026743eeb409be02678)
  (.lf 0))) (.nd (.nd (.lf
  0x6d992cc44b30806d9d2cc54b30c06da12cc64b31006da52cc74b31406da92cc84b31806dad2cc94b31c06db12cca4b32006db52ccb4b32406db92ccc4b32806dbd2ccd4b32c06dc12cce4b33006dc52ccf4b33406dc92cd04b33806dcd2cb14b33c06dd12cb24b34006dd52cb34b2c406dd92cb44b2c806ddd2cb54b2cc06de12cb64b2d006de52cb74b2d406de92cb84b2d806ded2cb94b2dc8310c00164fe1c4fe1d2cba4b2e08311000174fe204fe212cbb4b2e48311400184fe244fe252cbc4b2e88311800194fe284fe292cbd4b2ec8311c001a4fe2c4fe2d2cbe4b2f083120001b4fe304fe312cbf4b2f483124001c4fe344fe352cc04b2f883128001d4fe384fe392cc14b2fc8312c001e4fe3c4fe3d2cc24b30083130001f4fe404fe412cc34b3045ed55d8247610c76091d823253f8253f89500253fd25401d82360d50253fdd82362d505ed51d823761087608dd822253ec253ec94fd253f1253f5d82260d4c253f1d82262d4c5ed4dd8227610476089d821253e0253e094fa253e5253e9d82160d48253e5d82162d485ed49d8217610076085d820253d4253d494f7253d9253ddd82060d44253d9d82062d445ed45d820760fc76081d81f253c8)
  (.lf 0)) (.nd (.lf
  0x6e6fdb9be17ca017ca05f2a17ca517ca9b9be5bdf844058040700f9c53e600427441584415910764425944258042700f9c00f9d959e656f4656f547b857ee04405c040800fa053e6404284415c4415d10774425d4425c042800fa000fa1959f656f809a4195a051ee865681959f09a2c09a2c268d09a3109a31959f57ee409a35959f51ee46567d959e09a2009a20268a09a2509a25959e57ee017ca5b9be5ddf817b145ec317b0817b085ec357ee5656015fb9011a0656f947b957ee457ee45ec359eb459eb5b9be6e7746e6f9b9bd17c94655fd5fb80119c57ee05efb17c2417c24000059eb217b0c5efb17afc17afc5ec117b0117b005efb59eb059eb1b9bd6e77017c945f2717c9917c9db9bd5bdf46e7716f7d5ddf45bdf5b9fb6e8686e86806274a2e04d631f4e97d4204d629f4e77d4184d639f4eb7d4284d63df4ec7d42c4d641f4ed7d4307d3b5f4ec3174831748c5d43174d3174df4ec4ee3c31751f4ec4a5bc7d3b1f4eb3173c3173cc5d13174131745f4eb4a5b831741f4eb4ee387d3adf4ea3173031730c5ce3173531735f4ea4ee344d635f4ea7d42431739f4ea4a5b47d3a9f4e93172431724c5cb3172931729f4e94ee303172df4e94a5b0)
  (.lf 0)))

def shaGateTree75 : BTree :=
  .nd (.nd (.nd (.lf
  0x27615dcc44b4a45cfb9dcc47738c7738c0e984b4a44b4a60f4c83dac83dad34294e8a44d0a60f8a83ea483e2a0f893b1a43b1a4ec6b3b1a93b1ae0f890075c3b1aa0f89518a03b04e0f4c4e8a483d320f4b3b03c3b03cec113b0413b0460f4b4d0a027619dcc403a6077311dcc327604276049d832760927609dcc34b4a05cfb5dcc377388773880e974b4a04b4a20f4b83da883da934284e8a04d0a20f8983ea083e260f883b1983b198ec683b19d3b1a20f88007583b19e0f885189c3b0420f4b4e8a083d2e0f4a3b0303b030ec0e3b0353b03a0f4a4d09c2760ddcc303a5c7730ddcc2275f8275f89d80275fd275fddcc24b49c5cfb1dcc277384773840e964b49c4b49e0f4a83da483da534274e89c4d09e0f8883e9c83e220f873b18c3b18cec653b1913b1960f87007543b1920f87518983b0360f4a4e89c83d2a0f493b0243b024ec0b3b0293b02e0f494d09827601dcc203a5877309dcc1275ec275ec9d7d275f1275f1dcc14b4985cfaddcc177380773800e954b4984b49a0f4983da083da134264e8984d09a0f8783e9883e1e0f863b1803b180ec623b1853b18a0f86007503b1860f86518943b02a0f494e89883d260f483b0183b018ec083b01d)
  (.lf 0)) (.nd (.lf
  0x703f5c0fc1aebc1aebc6bb11aec11aec1c0fc4a66470375705e5e1785c179c0fc7046c7046c09084a6644a665fae47ec0c33968ce5c3396d3396dfae44da6433971fae44c2647eb91fae33395c3395cce593396133961fae34da6070371705d5e1745c175c0fb704687046809074a6601aec5c0fc02420703f1c0fb1aeb01aeb06bae1aeb51aeb5c0fb4a6604a661fae37ec0833965fae34c2607eb8dfae23395033950ce563395533959fae24c25c7036d705c5e1705c171c0fa704647046409064a65c33955fae24da5c1aeb9c0fb0241c703edc0fa1aea41aea46bab1aea91aea9c0fa4a65c4a65dfae27ec047eb89fae13394433944ce533394970369705b5e16c5c16dc0f9704607046009054a6581aeadc0fa02418703e9c0f91ae981ae986ba81ae9d1ae9dc0f94a6584a659fae17ec003394dfae14c25833949fae14da587eb85fae03393833938ce503393d33941fae04c2541aea1c0f902414703e5c0f81ae8c1ae8c6ba51ae915c169c0f87045c1ae91c0f84a6541ae95c0f802410703e1c0f71ae805a1f1c0b9703607036170595e1645c165c0f7704581ae806ba21ae851ae85c0f74a6507045809034a6504a651fadf7ebf87045c09044a654)
  (.lf 0))) (.nd (.nd (.lf
  0xd6cda00c02bac029ada00c680ac68031a00b0d6bc0d6bc35b10d6c10d6c5a00b589ec029a9a00b680a8215fc857d215f0215f0857d589f10d845a04b529f46812da04a0d8300d830360e0d8350d835a04a589f0680ad627c02bac589f0857d5a960215f4857b215e8215e8857b589ed680a9627b02ba80d839a04a529f068129a0490d8240d824360b0d8290d829a049589ec021a9a049681a0681a14a7b589ec589ec857b5a95c215edcf88215dc215dc8579215e1215e1cf885a9583f55c0c88029a03f5600c89029a4608780ca83f5dc6087c0ca93f5e03f5dc0a683f65d3f5e00a693f661461600a89021a4549680aa9462604626118b846361463600aa9021a4021a5a0486819c6819d4a7a589e80d6c1a00b02ba86802da00a0d6b00d6b035ae0d6b50d6b9a00a589e8029a5a00a680a4215e4000073e22680a5627a02ba40d82da049529ec68125a0480d8180d81836080d81d0d81da048589e8589e9cf88216bc73e21cf87215d04615c0a88021a0549640aa84625c4625d18b74635d4635c0aa8021a0021a1a047681980d6b5a00a02ba468029a0090d6a40d6a435ab0d6a90d6ada009589e4029a1a009680a0680a1627902ba00d821a048529e8)
  (.lf 0)) (.nd (.lf
  0x61ae4051c3b8c86d2397ed261b485fb48055c3db2c3db2c051c3dbad6d20d7ec761b1c61b1c050a3b90061b30050f3b9143b900051c0145c3b9140501014703daac053c014706c500051c49eb401471930964ca053b48036143840438410e304394143940036100c8443740034100c8400c8592b064b3c64b3d46f257bc86d2197eca61b283dab8053f0147c6d1e17ebc61af061af0051f3b8d461b28050d3b90c6d22d7ecf61b3c61b3c05123b9203b90c051f014683b92005040147c6d2457ed561b545fb54055f3db383db38051f3dbb96c50c051f49ec00147d930c64cac64c31930b08bbc08bbc22f108bc108bc1930b00f78150f9b3da5bae46cf69b3d9150e4150e4543b150e9087ad927400e8c649d192730879c0879c21e9087a1087a5927357bcc64a495ef300e880890992b157bcc57bcc000059ba659ba5b3d96cfe0150e9b3d95dae06cfe16eb85dae05dae1b4556d1d06d1d17eb861ae01367db00f49dcc6c03db00e1366c1366c4d9d1367113675b00e0138464ac592b0088f8088f82240088fd088fd92b057bc83dab0053d014743dab4053e014786d2297ece61b386d1dd7ebb61aec6d2157ec961b2461aec051e3b8d061b24050c3b908)
  (.lf 0)))

def shaGateTree76 : BTree :=
  .nd (.nd (.nd (.lf
  0x5975cb55b5b6705b672112a84524844aa11294922449225248b492294922e11295d66c4922a11295f66c2d56dea6b2d55c2d55cb5592d5612d561ea6b5b66c2bc21e6b00041879ac1e6af2bc102bc10af062bc152bc19e6af03f145d46de6af79b3879b380fc500414123edad595375c6b565ad58123d8123d848f8123dd123ddad585975804615ad586b5dc6b5dd4dd65975812281ad1b00b986b46dad1a1227012270489e1227512279ad1a5975803f15ad1a6b4e46b4e565d600b9459759ea6b2d6742d67400005b66e5b66e112984520844a61128492184921924884921d4922211285d6684921e11285f6682d56400007a9ae7a9acb5562d5542d554b556597555d469e6ae79b3479b340fc4004102bc15e6af0041479abde6ae2bc042bc04af032bc092bc0de6ae03f1003f11ad196b4e06b4e165d500b90123e1ad58537586b561ad57123cc123cc48f5123d1123d1ad575975404611ad576b5d86b5d94dd55975412275ad1a00b946b469ad191226412264489b122691226dad195975459754b5565b6685b66a11288451c844a211274920c4920d2485492114921611275d6644921211275f6642d558b5542d54c2d54cb554597515d465e6ad79b30)
  (.lf 0)) (.nd (.lf
  0x3c41809c2027743c41c09c3027783c42009c40277c3c42409c5027003c42809c6027043c42c09c7027083c43009c80270c3c43409c9027103c43809ca02714725fd51b8566e0566e007dd420587262d51c4567105671007c9420887265151cd567345673407d2420ac4205807d401f24420ac07c901f78459e007e901f247260551ba566e8546e8080945ae045ae116d845be145be0080901f2401f259ddc677ec526d1c95c725ec725ed51b4566d0725f551b6566d81e9f5c95d546d4526c551b1566c472575c95c1e9e01e9e07a7a1e9e51e9e9c95c546d01e9e5c95c566d072571c95b1e9d41e9d47a771e9d91e9ddc95b546cc1e9d9c95b566cc526cdc95b725e87256dc95a1e9c81e9c87a741e9cd1e9d1c95a546c81e9cdc95a566c8526c9c95a725e47256951b1566c5566c407d64203c725e551b2566c8566c807d742040725e951b3566cc566cc07d842044566d007d942048566d807db42050566dc07dc420547260151b9566e4566e407de4205c566e807df420607260951bb566ec566ec07c0420647260d51bc566f0566f007c1420687261151bd566f4566f407c24206c7261551be566f8566f807c3420707261951bf566fc566fc07c442074)
  (.lf 0))) (.nd (.nd (.lf
  0x25b4dd95156ee852ee9d951765c076545d95025b3c25b3c96d125b4125b45d95054ee425b41d95056ee452ee5d950765bc76541d94f25b3025b3096ce25b3525b39d94f54ee025b35d94f56ee052ee1d94f765b87653dd94e25b2425b2496cb25b2925b2dd94e54edc25b29d94e56edc52eddd94e765b476539d94d25b1825b1896c825b1d25b1dd94d56ed852ed9d94d765b0765b153b656ed856ed80bdb42850765b553b756edc56edc0bdc42854765b953b856ee056ee00bdd42858765bd53b956ee456ee40bde4285c765c153ba56ee856ee80bdf42860765d553bf56efc56efc0bc442874765d953c056f0056f000bc542878765dd53c156f0456f040bc64287c765e153c256f0856f080bc742880765e553c356f0c56f0c0bc8428847660153ca56f2856f280bcf428a07660553cb56f2c56f2c0bd0428a47660953cc56f3056f300bd1428a87660d53cd56f3456f340bd2428ac7661153ce56f3856f380bd3428b0428740bdb02f40428780bdc02f444287c0bdd02f48428800bde02f4c428840bdf02f50428a00bc602f6c428a40bc702f70428a80bc802f74428ac0bc902f78428b00bca02f7c472280bfb02f6c4722c0bfc02f70472300bfd02f74)
  (.lf 0)) (.nd (.lf
  0xa06596a35201465a8d96a20a0500a05028160a0550a05596a2580100a05996a25201065a8996a10a0440a04428130a0490a04996a15800c65991966309edc09edc27b909ee109ee596635800c65b0148035800c65b0548045801065a0d6004012cc58010628818a5c65a1d6008012dc189c0628a59fec65b1548085802065a216009012e065b1948095802458024628a18a6418a28626e189b4189b4626e5802158020626e59fe8189b86289189a8189a8626c189ad65a196007012d865b1148075801c5801c628918a60189b0000018a26189ac628959fe418a246269189a065b0d48065801865a156006012d4189a062695801958018626959fe0189a46267189981899862675801558014626759fdc1899c62881898c1898c62651899118994000018a2218990628859fd818a206262189841898462625800d5800c626259fd41898862601897c1897c62605800909ee19663012c86598d966209ed00a04d96a15200c65a8596a00a03809ed027b609ed509ed9966258008443800451010c453f8804714448044481114044581418cc043101098445800471010c4010c596a065afc65afd4802580080a03828100a03d0a03d96a0580085fe9c06313e200)
  (.lf 0)))

def shaGateTree77 : BTree :=
  .nd (.nd (.nd (.lf
  0x77dc1548b5722c5722c105042ba477dc5548c5723057230105142ba877dc9548d5723457234105242bac77dcd548e5723857238105342bb077dd1548f5723c5723c105442bb477dd554905724057240105542bb842b3c104d0410842b40104e0410c42b44104f0411042b4810500411442b4c10510411842b5010520411c42b5410530412042b5810540412442b5c10550412842b6010560412c42b6410570413042b6810580413442b6c10590413842b70105a0413c42b74105b0414042b78105c0414442b7c105d0414842b80105e0414c42b84105f0415042b8810400415442b8c10410415842b9010420415c42b9410430416042b9810440416442b9c10450416842ba010460416c42ba410470417042ba810480417442bac10490417842bb0104a0417c42bb4104b0410042bb8104c0410447b38107f0417c55240109f47c3847c391f2e47d3947d38109f0417c0417da89a6a2e46a269a899108e4108e4423b108e9108e9a899592bc47b34107e041785523c109e47c3447c351f2d47d3547d34109e0417804179a8996a2e0108eda899532bc6a265a898108d8108d84238108dd108e1a898532b847b30107d0417455238109d47c3047c311f2c47d31)
  (.lf 0)) (.nd (.lf
  0xb34599f65835044dc806e301b0c542d0070344ec844ec913d244fc944fc8070301b0c01b0d99f6668541bc1dc2c85e2ac1bc21c2c85c2ac1bb0c00005a33a5a339c2c870b9c70b21c2c71bc0c1bc0c6f051bc116685d48d6583580b20199bb01d18666ed99ba0b1f00b1f02c7e0b1f50b1f999ba583580231599ba667646676560d601d14583586ead1baf01baf000005a2fa1baf400005a3021bc15c2c75c2a81bc11c2c75e2a85a335c2c770b9870b1dc2c61bc001bc006f021bc051bc09c2c65c2a41bb0800005a3325a331c2c670b941bc05c2c65e2a470b19c2c51bbf41bbf46eff1bbf91bbfdc2c55c2a01bbf9c2c55e2a01bb0400005a32e5a32dc2c570b9070b15c2c41bbe81bbe86efc1bbed1bbf1c2c45c29c1bbedc2c45e29c5a329c2c470b8c70b11c2c31bbdc1bbdc6ef91bbe11bbe5c2c35c2981bbe1c2c35e2985a325c2c370b8870b0dc2c21bbd01bbd06ef61bbd51bbd9c2c25c2941bbd5c2c25e2945a321c2c270b8470b09c2c11bbc41bbc46ef31bbc91bbcdc2c15c2901bbc9c2c15e2901bb0000005a31e5a31dc2c170b8070b05c2c01bbb81bbb86ef01bbbd1bbc1c2c05c28c1bbbdc2c05e28c5a319c2c070b7c70b01c2bf1bbac)
  (.lf 0))) (.nd (.nd (.lf
  0x22691d19b5ca403820e07514cb3081d460750381f8381f8e080381fd381fe07504e32c224c88945224b8224b88930224bd224bc89455aa9c684c962cb02ce858b2c8945225502255000005aa9e5aa9dd19b746e8746e972905ea4022805d1da034ec74769d1d9227f0227f089fe227f5227f5d1d94af2c5ca41d1d9747e0747e00d3a4af2c4af2e075081dbc81dbd32cb4e32c4e32e07cc81fac81f3207cb384bc384bce131384c1384c607cb4b2a8384c207cb4fb28684c562ca02ce458b2889442254c2254c00005aa9a224c00000225163820207504cb2c225148944224ac224ac892d224b1224b089445aa985aa99d19a746e4746e5728f5ea3c81d42074f381ec381ece07d381f1381f2074f4e328227f9d1d9034e874765d1d8227e4227e489fb227e9227e9d1d84af282268dd19b5ea407466dd19a2267c2267c89a12268122685d19a5ca3c5ca3dd1d8747dc747dc0d394af284af2a074f81db881db932ca4e3284e32a07cb81fa881f2e07ca384b0384b0e12e384b5384ba07ca4b2a4384b607ca4fb24381f6074f4cb2881d3e074e381e0381e0e07a381e5381e6074e4e324224b4000022512684c162c902ce0227edd1d8034e474761d1d7227d8)
  (.lf 0)) (.nd (.lf
  0x1656400001665a166585995165501655059561655516558000016656650295f570101865121475757d5c16554599559d346502d5f580101c57d605995166a0166545994165441654459531654916548599459d3057d5c59941669c1654c000016652166505993165381653859501653d1653c599359d2c59d2db6c46db8c6db8d6f1b5dc6c53cd003c343cc843cc90f5243dc943dc803c300e0c5ba69b3176ccd86ccd8054449f5414badb31849f586cc61b31714b9c14b9c52e914ba114ba5b317015103dc4c0564015105fbe805843dccc3dccc05443dd4d0151193e965020650215f5501010091a1942851d58650a194270918c0918c24650919109195942751d5443bc803a300e0c43bcc03a400e100903593ea0101464fa993e90902409024240b090290902d93e957d540902993e90101064fa593e8090180901824080901d09191942757d5453cd403c443ccc43ccd0f5343dcd43dcc03c400e1000e1194276511865119475557d5457d545992166941654000001664e1664c59921652c1652c594d1653116530599259d281653400001664a16648594a1652416524594a57d516509d94260918000e0d9426651140918024620918509185942657d50)
  (.lf 0)))

def shaGateTree78 : BTree :=
  .nd (.nd (.nd (.lf
  0x2995de1c8001c878721e1c72994c2994ca6552995129955e1c703cc45d21de1c778798787980f31001c41166daaf95350c6abe5aaf8116581165845981165d1165daaf859508043c5aaf86ac5c6ac5d4d425950811501aabb045c86aaedaaba114f0114f0453e114f5114f9aaba5950803cc5aaba6ab646ab656542045c459508acc72b3502b35000005b4265b425e5747964c7964d75075f41c5f41de5f07983c797c1e5ef2b6ec2b6ecadbd2b6f12b6f5e5ef614182b6f1e5ef634182b431e5745d41c795d1e5732b41c2b41cad092b4212b421e5735f4182b28800002b31e2b31cacc62b2742b274ac9f2b2792b278acc65b42029951e1c7001c47871de1c62994029940a6522994529949e1c603cc05d219e1c678794787940f30001c011661aaf8535086abe1aaf71164c1164c45951165111651aaf759504043c1aaf76ac586ac594d4159504114f5aaba045c46aae9aab9114e4114e4453b114e9114edaab95950403cc1aab96ab606ab616541045c059504acc62b34c2b34c00005b4225b421e573796487964975065f4185f419e5ef79838797bde5ee2b6e02b6e0adba2b6e52b6e9e5ee614142b6e5e5ee634142b425e5735d418795cde5722b410)
  (.lf 0)) (.nd (.lf
  0x3ec800971025446041c09913ed003ed0009513ed81025459bb666f540bdc99bb65858866ed99bb50bdb40bdb42f6f0bdb90bdbd9bb5585843ec7c0970025406041809903ecfc3ecfc09503ed7d025419bb566f503ec74096e025383ec78096f0253c60410098e3ecf460414098f3ecf83ecf4094e3ed753ecf8094f3ed790bdb99bb501f4066ed59bb40bda80bda82f6c0bdad0bdb19bb4585800bdad9bb401f3c0253d9bb466f4c66ed19bb30bd9c0bd9c2f690bda10bda59bb35857c0bda19bb301f38025399bb366f4866ecd9bb20bd900bd902f660bd950bd999bb2585783c1c0094c0251c3c22c0947025083ec5809670251c603f409873ecd83ecd809473ed590251d9bac66f2c66f81616d01f703c1c4094d025203ec6c096c025303ec70096d0253460408098c3ecec6040c098d3ecf03ecec094c3ed6d3ecf0094d3ed71025359bb266f440bd959bb201f3466ec99bb10bd840bd842f630bd890bd8d9bb1585740bd899bb101f30025319bb166f4066ec59bb00bd780bd782f600bd7d3c1bc094b025183c2240945025003c2280946025043c23009480250c3c2340949025103c238094a025143ec54096602518603f009863ecd43ecd409463ed55)
  (.lf 0))) (.nd (.nd (.lf
  0x756f1730c5ec305cc31d5db757e8757e80db64b11c4b11e0a348294c8294d33474e51c4e51e0ab082b3c82ac20aaf3956c3956ce55d39571395760aaf4b498395720aaf4fd18392b20a344cd1c828d20a333929c3929ce4a9392a1392a20a334e51868c75634602ed468d6d4b4658d18243fdd5db036d87576dd5da243e8243e890fc243ed243edd5da4b11824291d59d5ec3075675d59c242802428090a22428524289d59c5cc2c24111d584241002410090422410524105d5845ac7858d19d584241802418000005ac7a5ac79d59c756ec756ed730b5ec2c5cc2dd5da757e4757e40db54b1184b11a0a33829488294933464e5184e51a0aaf82b3882abe0aae3956039560e55a395653956a0aae4b494395660aae4fd14392a60a334cd18828ce0a323929039290e4a639295392960a324e51468c71634502ed068d694b4558d14243f1d5da036d475769d5d9243dc243dc90f9243e1243e1d5d94b11424285d59c5ec2c75671d59b2427424274909f242792427dd59b5cc282410800007561275611d583240f4240f4903f240f9240f9d5835ac7458d15d5832417c2417c00005ac765ac75d59b756e8756e9730a5ec285cc29d5d9757e0757e00db44b114)
  (.lf 0)) (.nd (.lf
  0x6211288e4a23006215288f4a2340621d28714a23c6e0c405fd4a2384a239f46f7d2387d1c5f4703147831478c5203147d3147df4704d63c31481f4704be3c6e0c805fe4a23c4a23df4707d23c7d1c1f46f3146c3146cc51d3147131471f46f4d63831475f46f4be387d1bdf46e3146031460c51a3146531469f46e4be3430d85f35b4a44830d81f35b4ecc84d4c9f35b7cde87cd6d29114ecc54d4c529114ecc44ecc5287b061e87cde929124ecc84ecc9287c061ec7cded29134eccc4eccd287d061f07cdf129144ecd04ecd1287e061f47cdf529154ecd44ecd5287f061f87cdf929164ecd84ecd92880061fc7cdfd29174ecdc4ecdd2881062007ce0129184ece04ece12882062047ce0529194ece44ece52883062087ce09291a4ece84ece928840620c7ce2129204ed004ed01288a062247ce2529214ed044ed05288b062287ce2929224ed084ed09288c0622c7ce2d29234ed0c4ed0d288d06230061e928844a208061ed28854a20c061f128864a210061f528874a214061f928884a218061fd28894a21c06201288a4a22006205288b4a22406209288c4a2280620d288d4a22c6e0a805f64a21c6e0ac05f74a2206e0bc05fb4a2306e0a005f44a214)
  (.lf 0)))

def shaGateTree79 : BTree :=
  .nd (.nd (.nd (.lf
  0x37ef8dfc037efd37f0206d00015837efe06d05129c4ca9e06d081bbc81b4206cf37eec37eecdfbd37ef137ef606cf0015437ef206cf512984ca9a06cf81bb881b3e06ce37ee037ee0dfba37ee537eea06ce0015037ee606ce512944ca9606ce81bb481b3a06cd37ed437ed4dfb737ed937ede06cd0014c37eda06cd512904ca9206cd81bb081b3606cc37ec837ec8dfb437ecd37ed206cc0014837ece06cc5128c4ca8e06cc81bac81b3206cb37ebc37ebcdfb137ec137ec606cb0014437ec206cb512884ca8a06cb81ba881b2e06ca37eb037eb0dfae37eb537eba06ca0014037eb606ca512844ca8606ca81ba481b2a06c937ea437ea4dfab37ea937eae06c90013c37eaa06c9512804ca8206c981ba081b2606c837e9837e98dfa837e9d37ea206c80013837e9e06c85127c4ca7e06c881b9c81b2206c737e8c37e8cdfa537e9137e9606c70013437e9206c7512784ca7a06c781b9881b1e06c637e8037e80dfa237e8537e8a06c60013037e8606c6512744ca7606c681b9481b1a06c537e7437e74df9f37e7937e7e06c50012c37e7a06c5512704ca7206c581b9081b1606c437e6837e68df9c37e6d37e7206c40012837e6e06c45126c4ca6e06c481b8c)
  (.lf 0)) (.nd (.lf
  0x509b12b4f051e07e7852b6d509b4509b52b50051e4051752b434ace0051792b444ace40517d2b454ace8051812b464acec051852b474acf0051892b484acf40518d2b494acf8051912b4a4acfc051952b4b4ad00051992b4c4ad040519d2b4d4ad08051a12b4e4ad0c051a52b4f4ad10051a92b504ad14051ad2b314ad18051b12b324ad1c051b52b334ad20051b92b344ad24051bd2b354ad28051c12b364ad2c051c52b374ad30051c92b384ad34051cd2b394ad38051d12b3a4ad3c051d52b3b4ad40051d92b3c4acc4051dd2b3d4acc8051e12b3e4accc051e52b3f4acd07e7892b6e509b8509b92b404acd47e78d2b6f509bc509bd2b414acd87e7912b70509c0509c12b424acdc5e0b5bf3f6fd785e0d5bf476fd986fd1dbf461a35c1a35c68d91a3611a365bf46600d01a361bf46620d05e0d1bf466fd946fd19bf451a3501a35068d61a3551a359bf45600cc1a355bf45620cc5e0cdbf456fd906fd15bf441a3445e0c9bf446fd8c1a34468d31a3491a34dbf44600c81a349bf44620c86fd11bf431a3381a33868d01a33d5e0c5bf436fd881a33dbf43620c41a341bf43600c46fd0dbf421a32c1a32c68cd1a3311a331bf42620c01a335bf42600c0)
  (.lf 0))) (.nd (.nd (.lf
  0x20ee883e920ed820ed883b820edd20edc83e95a8e020ee0000020fa667ebd625c02b2c67fb54a5c589705897083e920fd820fa483b520ed067eb9625b02b2867fb14a5b5896c20ed083b55896d5896c83b55a8dc20ed483b320ec820ec883b35896967fad4a5a5896867eb5625a02b245896883b35a8d820ecc83e820ebc20ebc83b120ec120ec4000020fa267eb1625902b2067fa94a59589645896483e820fd420ec083e85a8d420fa083ae20eb420eb483ae5896167ead625802b1c67fa54a58589605896083ae5a8d020eb883e720ea820ea883ac20ead20eb0000020f9e20eac83e75a8cc67ea9625702b1867fa14a575895c5895c83e720fd020f9c83e620e9c20e9c83a920ea120ea4000020f9a20ea083e65a8c867f9d4a565895867ea5625602b145895883e620fcc20f9883a620e9420e9483a65895567f994a55589545895483a65a8c420e9883a420e8c20e8c83a4589515895083a45a8c03f4440a6202908607e00c823f4c43f4c40a423f54545fc4086202108548cc0a82460c4460c51851461c5461c40a8202108021099fc567f9067f914a535894c0d5099fc65295067f199fc50d4f40d4f4353f0d4f90d39d9f8802b0c0d4f99fc55894c)
  (.lf 0)) (.nd (.lf
  0x646a95ec300dc8142d850b757b2d647b946c957b24646c15ec900de0647c146cb57b2c647bd46ca57b28646c95ecb00de857b2c50b759b18646c55eca00de4142dc50b5142d0142d050b557b2957b2850b559b14142d450b3142c8142c850b357b2557b2450b359b10142cdb1d2142bc142bc50b1142c1142c1b1d259b0c647a946c557b1457b15b1d014344647b546c857b20646bd5ec800ddc57b21b1d21434c142c400006c74a6c74850ae142b4142b450ae57b1d646b95ec700dd8647b146c757b1c57b1c50ae59b08647ad46c657b18647a546c457b10142b9b1d1142a8142a850ac142ad142adb1d159b04142b000006c74657b19b1d1143486c745b1d01429c1429c50a9142a1142a1b1d059b00142a400006c7426c741b1cf142901429050a614295646ad5ec400dcc647a146c357b0c57b0db1ce1433c14295b1cf59afc1429800006c73e57b11b1cf143406c73db1ce142841428450a31428914289b1ce59af81428c00006c73a6c739b1cd142781427850a01427d1427db1cd59af41428000006c7366c734509d1427014270509d57b0557b04509d59af053a6c032a4356414275b1cc1426414264509b142691426c00006c732646995ebf00db8)
  (.lf 0)))

def shaGateTree80 : BTree :=
  .nd (.nd (.nd (.lf
  0x2e8ccba312e8c02e8c0ba315992159920ba315b8405b841ed287b51c7b51d76105f8405f841eda47b70c7b691eda32ecdc2ecdcbb392ece12ece5eda36183c2ece1eda36383c2ea21ed285d8407b4a1ed272ea0c2ea0cba852ea112ea11ed275f83c2e8c5ed002e8b42e8b4ba2f2e8b92e8b9ed005b83c5991ded007b4347b43400005b83e5b83ded277b5187b519760f5f83c5f83deda37b7087b68deda22ecd02ecd0bb362ecd52ecd9eda2618382ecd5eda2638382ea15ed275d83c7b49ded262ea002ea00ba822ea052ea05ed265f8382e8bc00007b4027b400ba2c2e8ac2e8acba2c5991959918ba2c5b8385b839ed267b5147b515760e5f8385f839eda27b7047b689eda12ecc42ecc4bb332ecc92eccdeda1618342ecc9eda1638342ea09ed265d8387b499ed252e9f42e9f4ba7f2e9f92e9f9ed255f8342e8b1ecff2e8a02e8a0ba2a2e8a52e8a5ecff5b83459915ecff7b4307b43000005b8365b835ed257b5107b511760d5f8345f835eda17b7007b685eda02ecb82ecb8bb302ecbd2ecc1eda0618302ecbdeda0638302e9fded255d8347b495ed242e9e82e9e8ba7c2e9ed2e9eded245f8302e8a800007b3fe7b3fcba272e8982e898ba2759911)
  (.lf
  0x434110d24435118493d8f9763ed86bedd4e78559e0539e00307433d8539492dd243240432410cb043341433412dd24b848078358fca00b0c63f298fc907824078241e0b078290782d8fc94b84c8498d8fc963fa0078298fc900b0863f258fc807818078181e080781d849898fc863f9c63f9d2e1200b04078218fc84b8484b84990c06437c6bed54e76559d8559d92e0c41350433212dea4b828433312dee4b8386bee14e79559e4559e52e0f4135c6befd4e8055a0055a012df641378413792e0d4b808077e18fa300ae863e8d8fa2077d0077d01df6077d5077d98fa24b828077d58fa200ae4849698fa263f0463e898fa1077c4077c41df3077c9077c98fa100ae0077cd8fa14b824849658fa163f0063e858fa0077b8077b81df0077bd077c18fa04b8200781d8fc800b0463f212e1100b01539452dd14323c4323d0caf4333d4333d2dd14b844849852e1100b004b8454671579c4413752e0c4b8046bed94e77559dc63fa12e1300b086bf054e8255a0863f0d2e0c00aec5394d2dd343244432450cb143345433452dd34b84c07dd590c2579d06430990c107dc407dc41f7307dc907dcd90c1519cc07dc990c1579cc4b84d90c1643806430590c007db8))
  (.nd (.lf
  0x80f6203d736d4c36d4cdb5536d5136d5603d74b45836d5203d75105836bf6039a4e05c80e6a039936be436be4dafb36be936bee03994c8584ac5a039980ee080ee132164e0584c85a03d780fd880f5e03d636d4036d40db5236d4536d4a03d64b45436d4603d65105436bea03994e05880e66039836bd836bd8daf836bdd36be203984c8544ac56039880edc80edd32154e0544c85603d680fd480f5a03d536d3436d34db4f36d3936d3e03d54b45036d3a03d55105036bde03984e05480e62039736bcc36bccdaf536bd136bd603974c8504ac52039780ed880ed932144e0504c85203d580fd080f5603d436d2836d28db4c36d2d36d3203d44b44c36d2e03d45104c36bd203974e05080e5e039636bc036bc0daf236bc536bca03964c84c4ac4e039680ed480ed532134e04c4c84e03d480fcc80f5203d336d1c36d1cdb4936d2136d2603d34b44836d2203d35104836bc603964e04c80e5a039536bb436bb4daef36bb936bbe03954c8484ac4a039580ed080ed132124e0484c84a03d380fc836bba03954e0484ac4532114e04480e5532114e0454c8452d115104480f4d2d1151045510452cf4057cc80fc92d1251048510492cf5057d080fcd2d135104c)
  (.lf 0))) (.nd (.nd (.lf
  0x7749583f262fc862fc80e353cdac7749983f362fcc62fcc0e363cdb07749d83f462fd062fd00e373cdb4774a183f562fd462fd40e383cdb83cd3c0e2b038983cd400e2c0389c3cd440e2d038a03cd480e2e038a43cd4c0e2f038a83cd500e30038ac3cd540e31038b03cd580e32038b43cd5c0e33038b83cd600e34038bc3cd640e35038c03cd680e36038c43cd6c0e37038c83cd700e38038cc3cd740e39038d03cd780e3a038d43cd7c0e3b038d83cd800e3c038dc3cd840e3d038e03cd880e3e038e43cd8c0e3f038e83cd900e20038ec3cd940e21038f03cd980e22038f43cd9c0e23038f83cda00e24038fc3cda40e25038803cda80e26038843cdac0e27038883cdb00e280388c3cdb40e29038903cdb80e2a03894530c1dc4f771b87713ddc4e271c8271c89c74271cd271d1dc4e550bc271cddc4e570bc530bddc4e771b477139dc4d271bc271bc9c71271c1271c5dc4d550b8271c1dc4d570b8530b9dc4d771b077135dc4c271b0271b09c6e271b5271b9dc4c550b4271b5dc4c570b4530b5dc4c771ac77131dc4b271a4271a49c6b271a9271addc4b550b0271a9dc4b570b0530b1dc4b771a87712ddc4a27198271989c682719d271a1dc4a550ac)
  (.lf 0)) (.nd (.lf
  0x446500485011945405804a5447504475111f4448514485004a50119401195978c65eac65ead4836580d801895974e65db465db5603601a940a55d978d520dc65e35978c0a5480a54829540a54d0a54d978c580d8580d865c45a0905a091bdb96f7606f7616ffb5dfec19891bdb95bfec5bfedbdf76f8586f7656ffc5dff06f7696ffd5dff45bff5bdf96f86019a0dbdf94a4e06f7e5bdf8199fc199fc668119a0119a05bdf80229819a01bdf84a4dc5bff1bdf86f85c6f7e1bdf7199f0199f0667e199f5199f5bdf74a4d8199f9bdf7022946f7ddbdf6199e4199e4667b199e90a3e5974e01a9465d39974d0a3d40a3d428f70a3d9199edbdf6022900a3dd974d580d43e34c0644018905ff6806643e3cc3e3cc06243e44d197106600197001970065c2197051970466005a08c01891974d65db065db1603501a904464c0484011905405404a44474c4474d11f34484d4484c04a40119001191978b65ea865ea94835580d40a551978c520d865e31978b0a53c0a53c29510a5410a541978b580d4580d46600198301983000005a08e5a08dbdb86f75c6f75d6ffa5dfe81988dbdb95dfec6f6e5bdb81987c199e9bdf64a4d41987c66211988119885bdb85bfe8)
  (.lf 0)))

def shaGateTree81 : BTree :=
  .nd (.nd (.nd (.lf
  0x78fcde3f22a8f02a8f0aa3e2a8f52a8f9e3f2613102a8f5e3f2633102a635e3775d31478ddde3762a6202a620a98a2a6252a625e3765f3102a48c00002a5362a534a9202a47c2a47ca920593fd5d111dfc177f8077f800eee000b828ae5dfc2000bc77f09dfc128ad428ad4a2b728ad928adddfc103bb803bb9a9bf6a7786a77964ff044b8110a9a9fe534006a7f9a9fd110941109444271109911099a9fd593fc042b9a9fd6a8706a8714cff593fc10f3da9c0044bc6a701a9bf10f2c10f2c43cd10f3110f35a9bf593fc593fca9205b3245b325e37678e5478e5574c45f3105f311e3f27904478fc9e3f12a8e42a8e4aa3b2a8e92a8ede3f16130c2a8e9e3f16330c2a629e3765d31078dd9e3752a6142a614a9872a6192a619e3755f30c2a480a91e2a4742a474a91e593f95d10ddfc077f7c77f7c0eed000b428ad9dfc1000b877f05dfc028ac828ac8a2b428acd28ad1dfc003bb403bb5a9be6a7746a77564fe044b41109da9fd533fc6a7f5a9fc110881108844241108d1108da9fc593f8042b5a9fc6a86c6a86d4cfe593f810f31a9bf044b86a6fda9be10f2010f2043ca10f2510f29a9be593f8593f8a91e5b3205b321e37578e5078e5174c35f30c)
  (.lf 0)) (.nd (.lf
  0x34a78d2a034a7d34a81fdd04c4744a875fdd07f7bc7f7bd311d4dc744c475fe0e7f8b47f839fe0d34bd434bd4d2f734bd934bddfe0d4b07034bd9fe0d50c7034a7dfdd04dc747f741fdcf34a6c34a6cd29d34a7134a75fdcf4c4704a871fdcf7f7b87f7b9311c4dc704c471fe0d7f8b07f835fe0c34bc834bc8d2f434bcd34bd1fe0c4b06c34bcdfe0c50c6c34a71fdcf4dc707f73dfdce34a6034a60d29a34a6534a69fdce4c46c4a86dfdce7f7b47f7b5311b4dc6c4c46dfe0c7f8ac7f831fe0b34bbc34bbcd2f134bc134bc5fe0b4b06834bc1fe0b50c6834a65fdce4dc6c7f739fdcd34a5434a54d29734a5934a5dfdcd4c4684a869fdcd7f7b07f7b1311a4dc684c469fe0b7f8a87f82dfe0a34bb034bb0d2ee34bb534bb9fe0a4b06434bb5fe0a50c6434a59fdcd4dc687f735fdcc34a4834a48d29434a4d34a51fdcc4c4644a865fdcc7f7ac7f7ad31194dc644c465fe0a7f8a47f829fe0934ba434ba4d2eb34ba934badfe094b06034ba9fe0950c6034a4dfdcc4dc647f731fdcb34a3c34a3cd29134a4134a45fdcb4c4604a861fdcb7f7a87f7a931184dc604c461fe097f8a07f825fe0834b9834b98d2e834b9d34ba1fe084b05c34b9dfe0850c5c)
  (.lf 0))) (.nd (.nd (.lf
  0x3c8dc0d13034383c8e00d140343c3c8e40d15034403c8e80d16034443c8ec0d17034483c8f00d180344c3c8f40d19034503c8f80d1a034543c8fc0d1b034583c9000d1c0345c3c9040d1d034603c9080d1e034643c90c0d1f034683c9100d000346c3c9140d01034703c9180d02034743c91c0d03034783c9200d040347c3c9240d05034003c9280d06034043c92c0d07034083c9300d080340c3c9340d09034103c9380d0a0341452c41d35274dc474d49d3512327c2327c8ca12328123285d35154c3c23281d35156c3c52c3dd35174dc074d45d35023270232708c9e2327523279d35054c3823275d35056c3852c39d35074dbc74d41d34f23264232648c9b232692326dd34f54c3423269d34f56c3452c35d34f74db874d3dd34e23258232588c982325d23261d34e54c302325dd34e56c3052c31d34e74db474d39d34d2324c2324c8c952325123255d34d54c2c23251d34d56c2c52c2dd34d74db074d35d34c23240232408c922324523249d34c54c2823245d34c56c2852c29d34c74dac74d31d34b23234232348c8f232392323dd34b54c2423239d34b56c2452c25d34b74da874d2dd34a23228232288c8c2322d23231d34a54c202322dd34a56c20)
  (.lf 0)) (.nd (.lf
  0x16205b61e016e45bc3db61e6d8f46d879b61d161f05bc39b61d6d8f0161f0587e161f5161f5b61d4a124161f9b61d016e06d875b61c161e4161e4587b161e95bc2db61a6d8e45bc31b61b6d8e8161edb61c016dc161e9b61c4a1205bc35b61c6d8ec6d871b61b161d8161d85878161dd161ddb61b4a11c161e1b61b016d86d86db61a161cc161cc5875161d1161d1b61a4a118161d5b61a016d46d869b619161c0161c05872161c5161c5b6194a1144d409f1f77c8584d40df1f87c85c305ddf1f84ec0c305e1f1f84a38c7c7e1f1f7305cc305ccc175305d1305d5f1f74a388305d1f1f74ec087c7ddf1f6305c0305c0c172305c5305c9f1f64a384305c5f1f64ec044d405f1f67c8547c7d9f1f5305b4305b4c16f305b9305b9f1f54ec004d401f1f57c850305bdf1f54a3807c7d5f1f4305a8305a8c16c305ad305b1f1f44a37c4d3fdf1f47c84c305adf1f44ebfc7c7d1f1f33059c3059cc169305a1305a5f1f34a3784d3f9f1f37c848305a1f1f34ebf87c7cdf1f23059030590c1663059530595f1f24ebf44d3f5f1f27c84430599f1f24a3747c7c9f1f13058430584c1633058930589f1f14ebf03058df1f14a3704d3f1f1f17c8407c7c5f1f030578)
  (.lf 0)))

def shaGateTree82 : BTree :=
  .nd (.nd (.nd (.lf
  0x2c898b2282c89d2c89de87f5f5702c73800007a1b67a1b5e86c2c7242c724b1cb2c7292c729e86c5b5702ae15e4b00031c792c1e4af2ae042ae04ab832ae092ae0de4af03e185d371e4af79338793380f860031811e59ac62536606b189ac6111e4411e44479311e4911e49ac615965c04519ac616b2006b2014d975965c11cedac240471c6b091ac2311cdc11cdc473911ce111ce5ac235965c03e19ac236b1086b1096597047185965de86c2c8282c82800005b5725b571e87f7a2787a279755c5f5705f571e8fb7a4687a3ede8fa2cb5c2cb5cb2d92cb612cb65e8fa6156c2cb61e8fa6356c2c8a1e87f5d5707a1fde87e2c88c2c88cb2252c8912c891e87e5f56c2c72c00007a1b27a1b1e86b2c7182c718b1c82c71d2c71de86b5b56c2ae09e4af00318792bde4ae2adf82adf8ab802adfd2ae01e4ae03e145d36de4ae79334793340f850031411e4dac615365c6b185ac6011e3811e38479011e3d11e3dac605965804515ac606b1fc6b1fd4d965965811ce1ac23047186b08dac2211cd011cd0473611cd511cd9ac225965803e15ac226b1046b10565960471459659e86b2c8242c82400005b56e5b56de87e7a2747a275755b5f56c5f56de8fa7a464)
  (.lf 0)) (.nd (.lf
  0x5868c79235a6181e56c00005a6161e48c794a1e47c1e47c79211e4811e480794a5a6145a615c8b07233c7233d71675e59c1e68079a21e6851e685c8b45e5ac1e689c8b45c5ac1e57400005a6265a625c8b47234c722d1c8b31e6741e674799f1e6791e679c8b35e5a85a621c8b3723481e67dc8b35c5a8722cdc8b21e6681e668799c1e66d1e671c8b25c5a41e57000005a61e5a61dc8b2723441e66dc8b25e5a4722c9c8b11e65c0c4d19cec52688673b19ceb0c4bc41f40078e01e0c456f407ae01e38545fc07ce457f4457f5161d458f5458f407ce01e3801e399ce96742041f44078f01e1041f48079001e140c4bc31310c4c10c4c19ceb58684456f807af01e3c456fc07b001e405460007cf457f85460407d0457fc457f9161e458f9457fd161f458fd458f807cf01e3c458fc07d001e4001e419ceb674280c4c59ceb52684673ad9cea0c4b00c4b0312e0c4b50c4b59cea586800c4b99cea5268001e3d9cea67424673a99ce90c4a40c4a4312b0c4a90c4ad9ce95267c0c4a99ce95867c673a59ce80c4980c49831280c49d0c49d9ce8586780c4a19ce85267841f3c078d01e0841fb8078c01e04456ec07ac01e30456f007ad01e34545f407cc457ec)
  (.lf 0))) (.nd (.nd (.lf
  0x6920563960301469201639503010691fd63940300c691f9639303008691f5639203004036016391030006917963910300102e39a4a969320692a5a4a80f1980f1983c680f19d0f19da4a858e780f1a1a4a852e7802e35a4a86931c692a1a4a70f18c0f18c3c650f1910f191a4a758e740f195a4a752e7402e31a4a7693186929da4a60f1800f1803c620f1850f185a4a658e700f189a4a652e7002e2da4a66931469299a4a50f1740f1743c5f0f1790f179a4a558e6c0f17da4a552e6c02e29a4a56931069295a4a40f1680f1683c5c0f16d0f16da4a458e680f171a4a452e6802e25a4a46930c69291a4a30f15c0f15c3c590f1610f161a4a358e640f165a4a352e6402e21a4a3693086928da4a20f1500f1503c560f1550f155a4a258e600f159a4a252e6002e1da4a26930469289a4a10f1440f1443c530f1490f149a4a158e5c0f14da4a152e5c02e19a4a16930069285a4a00f1380f1383c500f13d0f13da4a058e580f141a4a052e5802e15a4a0692fc69281a49f0f12c0f12c3c4d0f1310f131a49f58e540f135a49f52e5402e11a49f692f86927da49e0f1200f1203c4a0f1250f125a49e58e500f129a49e52e5002e0da49e692f469279a49d0f114)
  (.lf 0)) (.nd (.lf
  0x506e92a9d04f547d8b52abb506ec506ed2a9e04f587d8b92abc506f0506f12a9f04f5c7d8bd2abd506f4506f52aa004f607d8c12abe506f8506f92aa104f647d8c52abf506fc506fd2aa204f687d8c92ac050700507012aa304f6c7d8cd2ac150704507052aa404f707d8d12ac250708507092aa504f747d8d52ac35070c5070d2aa604f787d8d92ac450710507112aa704f7c7d8dd2ac550714507152aa804f807d8e12ac650718507192aa904f847d8e52ac75071c5071d2aaa04f887d8e92ac850720507212aab04f8c7d8ed2ac950724507252aac04f907d8f12aca50728507292aad04f947d8f52acb5072c5072d2aae04f987d8f92acc50730507312aaf04f9c7d8fd2acd50734507352ab004fa004f312aa34aa6004f352aa44aa6404f392aa54aa6804f3d2aa64aa6c04f412aa74aa7004f452aa84aa7404f492aa94aa7804f4d2aaa4aa7c04f512aab4aa8004f552aac4aa8404f592aad4aa8804f5d2aae4aa8c04f612aaf4aa9004f652ab04aa9404f692a914aa9804f6d2a924aa9c04f712a934aaa004f752a944aaa404f792a954aaa804f7d2a964aaac04f812a974aab004f852a984aab404f892a994aab804f8d2a9a4aabc04f912a9b4aac0)
  (.lf 0)))

def shaGateTree83 : BTree :=
  .nd (.nd (.nd (.lf
  0x60ffc0e89404e0610000e8a404e4610040e8b404e8610080e8c404ec6100c0e8d404f0610100e8e404f4610140e8f404f8610180e90404fc6101c0e9140500610200e9240504610240e9340508610280e944050c6102c0e9540510610300e9640514610340e9740518610380e984051c6103c0e9940520610400e9a40524610440e9b40528610480e9c4052c6104c0e9d40530610500e9e40534610540e9f40538404bc0e404053d404c00e4140541404c40e4240545404c80e4340549404cc0e444054d404d00e4540551404d40e4640555404d80e4740559404dc0e484055d404e00e4940561404e40e4a40565404e80e4b40569404ec0e4c4056d404f00e4d40571404f40e4e40575404f80e4f40579404fc0e504057d405000e5140581405040e5240585405080e53405894050c0e544058d405100e5540591405140e5640595405180e57405994051c0e584059d405200e59405a1405240e5a405a5405280e5b405a94052c0e5c405ad405300e5d405b1405340e5e405b5405380e5f405b953141dd47775987751ddd4627928279289e4c2792d27931dd465513c2792ddd465713c5313ddd467759477519dd452791c2791c9e492792127925dd4555138)
  (.lf 0)) (.nd (.lf
  0xb0e19983582f40b0e59983522f401ab19983666886660d99820b0d00b0d02c360b0d50b0d59982582f044c6006c901aa45426806e944d6044d61137844e6144e6006e901aa401aa599806667c41c3406ab01a8044c6806cb01aac5427006eb44d6844d69137a44e6944e6806eb01aac01aad9982666840b0d99982522f06660999810b0c40b0c42c330b0c90b0cd9981522ec44c6406ca01aa85426c06ea44d6444d65137944e6544e6406ea01aa80b0c99981582ec01aa99981666806660599800b0b80b0b82c300b0bd0b0bd9980582e844c5c06c801aa05426406e844d5c44d5d137744e5d44e5c06e801aa00b0c19980522e866601997f0b0ac0b0ac2c2d0b0b10b0b5997f522e401aa1997f666780b0b1997f582e4665fd997e0b0a00b0a02c2a0b0a50b0a9997e522e044c5406c601a985425c06e644d5444d55137544e5544e5406e601a9801a99997d6667044c5806c701a9c5426006e744d5844d59137644e5944e5806e701a9c01a9d997e666740b0a5997e582e0665f9997d0b0940b0942c270b0990b09d997d522dc44c5006c501a945425806e544d5044d51137444e5144e5006e501a940b099997d582dc665f5997c0b0880b0882c240b08d)
  (.lf 0))) (.nd (.nd (.lf
  0x21a51d01b629105e911d01b740e87406dd01a21a4021a40869221a4521a49d01a6090c21a45d01a6290c5e90dd01a740e474069d01921a3421a34868f21a3921a39d0196290821a3dd019609085e909d019740e074065d01821a2821a28868c21a2d5e905d018740dc21a31d0186090421a2dd0186290474061d01721a1c21a1c868921a215e901d017740d821a25d0176090021a21d017629007405dd01621a1021a10868621a1521a19d016608fc21a15d016628fc5e8fdd016740d474059d01521a0421a04868321a0921a09d015628f85e8f9d015740d021a0dd015608f874055d014219f8219f88680219fd21a01d014608f4219fdd014628f45e8f5d014740cc74051d013219ec219ec867d219f1219f5d013608f0219f1d013628f05e8f1d013740c87404dd012219e0219e0867a219e5219e9d012608ec219e5d012628ec5e8edd012740c474049d011219d4219d48677219d9219ddd011608e8219d9d011628e85e8e9d011740c074045d010219c8219c88674219cd219d1d010608e45e8e5d010740bc219cdd010628e474041d00f219bc219bc8671219c1219c1d00f628e05e8e1d00f740b8219c5d00f608e07403dd00e219b0219b0866e219b5)
  (.lf 0)) (.nd (.lf
  0x8bd1932c51c4851c49b4926d2c41551055461551515515b49255c486d2c54f1255c4855c480377415c043c9803b700ddc00ddd93be64f7408fa593be57d2064ef993bd08f9408f9423e708f9908f9d93bd51d1c53bc40380439bc415d4037300da06d30d4f2455c9055c9003694160855cc0037541638415e0037600dac6d3114f2555c9453c9403b443b8c43b8d0f0343c8d43c8c03b400dd055c94036a4160c43a94039600dd8439bd0e8f43abd438bc036000d0043abc038000d0000d01471157c4415519b49253c486d2494f1155c4553c9c03b643b9443b950f0543c9508bcd932c57c4864cb1471157c4551c454f1155c4455c440376415bc4160c036100dd843c9403b600dd800dd993bd64f7008f9993bd57d1c64ef593bc08f8808f8823e408f8d53c9803b543b9043b910f0443c9143a90039500dd443c9003b500dd441608036000dd4415dc037500da800dd593bc64f6c08f8d93bc57d1808f9193bc51d1864ef193bb08f7c08f7c23e108f8108f8593bb51d1443a8c039400dd0415d8037400da408f8193bb57d1455cbc03744163400dd193bb64f6864eed93ba08f7008f7023de08f7553c9003b343b8843b890f0243c8943a88039300dcc)
  (.lf 0)))

def shaGateTree84 : BTree :=
  .nd (.nd (.nd (.lf
  0x2c3f8b1002c3fd2c401e7ca03fec03fedadac6b72c6b72d660c00b6c127c5adeb538346b7adadea127b0127b049ee127b5127b5adea59830046edadea6b8246b8254e0c5983012659adad00b706b6b5adac126481264849941264d12651adac5983059830b6a75b7445b745eb137acc87acc975d15f7445f745eb8f7aeb87ae3deb8e2df502df50b7d62df552df59eb8e617402df55eb8e637402dc95eb135d7447ac4deb122dc802dc80b7222dc852dc85eb125f7402da9cb6be2da8c2da8cb6a52da912da90b6be5b7402c3fde7ca004ec79f29e7c92c3ec2c3ecb0fd2c3f12c3f5e7c903fe85d541e7c979fa079fa00ffa004e8127b9adea538306b7a9ade9127a4127a449eb127a9127a9ade95982c046e9ade96b8206b8214e0b5982c1264dadac00b6c6b6b1adab1263c1263c49911264112645adab5982c03fe9adab6b7286b729660b00b685982cb6be2db442db4400005b7425b741eb127acc47acc575d05f7405f741eb8e7aeb47ae39eb8d2df442df44b7d32df492df4deb8d6173c2df49eb8d6373c2dc89eb125d7407ac49eb112dc742dc74b71f2dc792dc79eb115f73c2da9400002dafa2daf8b6a22da842da84b6a2598295d53de7c879f9c)
  (.lf 0)) (.nd (.lf
  0x1f575cae64ab7072b99cae51f5641f5647d5b1f5691f56dcae5029281f569cae54ab6c72b95cae41f5581f5587d581f55d1f561cae4029241f55dcae44ab6872b15719f5e67c5c67dcae472c0c72b91cae31f54c1f54c7d551f5511f555cae3029201f551cae34ab6472b8dcae21f5401f5407d521f5451f545cae24ab601f549cae20291c72b0d719d5e6745c675cae272c0472b89cae11f5341f5347d4f1f5391f539cae14ab5c1f53dcae10291872b09719c5e6705c671cae172c0072b85cae01f5281f5287d4c1f52d1f531cae0029141f52dcae04ab5872b81cadf1f51c1f51c7d491f5211f525cadf029101f36400005a6da1f3c5caa25e66c5a6d9caa172b0072a89caa11f3b41f3b47cef1f3b91f3bdcaa15c66872b01719a5e6685c669cadf72bf81f521cadf4ab5472b7dcade1f5101f3b9caa15e66872a85caa01f3a81f3a87cec1f3ad1f3b1caa05c6645a6d5caa072afc72afd71995e6645c665cade72bf41f5107d461f5151f515cade4ab501f519cade0290c72b79cadd1f5041f5047d431f5093f04009e1027043f04409e202708605dc0a013f0c0605e00a023f0c43f0c009c13f1413f0c409c23f1451f2287c881f21c1f21c7c885874d)
  (.lf 0))) (.nd (.nd (.lf
  0x264c0990c2642c2642c990c58f8958f88990c5aed05aed1da8f76ab876ab973a75ee9c5ee9ddb0b76ca876c2ddb0a26880268809a222688526889db0a60e9826885db0a62e98265c5da8f5ce9c76a3dda8e265b0265b0996e265b5265b5da8e5ee9826430990a2642426424990a58f8558f84990a5aecc5aecdda8e76ab476ab573a65ee985ee99db0a76ca476c29db0926874268749a1f268792687ddb0960e9426879db0962e94265b9da8e5ce9876a39da8d265a4265a4996b265a9265a9da8d5ee9426428992f264182641899082641d2641c992f5aec858f80992f264e8264e800005aeca5aec9da8d76ab076ab173a55ee945ee95db0976ca076c25db0826868268689a1c2686d26871db0860e902686ddb0862e90265adda8d5ce9476a35da8c265982659899682659d2659dda8c5ee90264200000264be264bc99052641026410990558f7d58f7c99055aec45aec5da8c76aac76aad73a45ee905ee91db0876c9c76c21db072685c2685c9a192686126865db0760e8c26861db0762e8c265a1da8c5ce9076a31da8b2658c2658c99652659126591da8b5ee8c26414992e264042640499032640926408992e5aec058f78992e264e4264e400005aec2)
  (.lf 0)) (.nd (.lf
  0x18c4dbbfe4a3ec18af1bbc15df046ef05bbc018ae018ae062ba18ae518ae9bbc05bf0065ae147fb57fec1894462841893418934624f1893918938628459fb4659e95ffb012a857fec628418a4c18a4c000059fb659fb5bbc06ef7c6ef7d6fc05df005bf01bbfe6f0746f074066a4a3ec4a3edf7447dd8c7dd8d2ffb4d7ec32468c91c3246d32471f7444bfec4bfedf7827de847de09f781325c4325c4c973325c9325cdf7814abe8325c9f781507e87d9dd29a74ef1c4ef1d28fa4a3e03246df7444d7ec7dd11f7433245c3245cc9193246132465f7434bfe865add47fa57fe8659e55ffa012a41893c000018a1218a1062831892818928624c1892d1892c628359fb057fe8628318a4818a48000059fb259fb1bbbf6ef7818ae5bbc05df006ef796fbf5defc6ef01bbbf18ad418ad462b718ad918addbbbf5befc5befdbbfd6f0706f07006694a3e818c51bbfe019a86eff9bbfd18c3c18c3c631118c4118c41bbfd4a3e84a3e9f7437dd887dd892ffa4d7e84bfe9f7817de807de05f780325b8325b8c970325bd325c1f7804abe4325bdf780507e40639d28f94a3dc32461f7434d7e87dd0df7423245018ad9bbbf5defc6eefdbbbe18ac818ac862b418acd)
  (.lf 0)))

def shaGateTree85 : BTree :=
  .nd (.nd (.nd (.lf
  0x6316c0ebe3cf5078439845c63170631700ebf3cf547843d845d63174631740ea03cf5878441845e63178631780ea13cf5c78445845f6317c6317c0ea23cf6078449846063180631800ea33cf647844d846163184631840ea43cf6878451846263188631880ea53cf6c7845584636318c6318c0ea63cf7078459846463190631900ea73cf747845d846563194631940ea83cf7878461846663198631980ea93cf7c7846584676319c6319c0eaa3cf80784698468631a0631a00eab3cf847846d8469631a4631a40eac3cf8878471846a631a8631a80ead3cf8c78475846b631ac631ac0eae3cf9078479846c631b0631b00eaf3cf947847d846d631b4631b40eb03cf9878481846e631b8631b80eb13cf9c78485846f631bc631bc0eb23cfa0784898470631c0631c00eb33cfa47848d8471631c4631c40eb43cfa8784918472631c8631c80eb53cfac784958473631cc631cc0eb63cfb0784998474631d0631d00eb73cfb47849d8475631d4631d40eb83cfb83cf3c0eab03a983cf400eac03a9c3cf440ead03aa03cf480eae03aa43cf4c0eaf03aa83cf500eb003aac3cf540eb103ab03cf580eb203ab43cf5c0eb303ab83cf600eb403abc3cf640eb503ac0)
  (.lf 0)) (.nd (.lf
  0x4f2e92a040662c7f0ed2a9b4f2ec4f2ed2a05066307f0f12a9c4f2f04f2f12a06066347f0f52a9d4f2f44f2f52a07066387f0f92a9e4f2f84f2f92a080663c7f0fd2a9f4f2fc4f2fd2a09066407f1012aa04f3004f3012a0a066447f1052aa14f3044f3052a0b066487f1092aa24f3084f3092a0c0664c7f10d2aa34f30c4f30d2a0d066507f1112aa44f3104f3112a0e066547f1152aa54f3144f3152a0f066587f1192aa64f3184f3192a100665c066092a044a8080660d2a054a80c066112a064a810066152a074a814066192a084a8180661d2a094a81c066212a0a4a820066252a0b4a824066292a0c4a8280662d2a0d4a82c066312a0e4a830066352a0f4a834066392a104a8380663d29f14a83c0664129f24a8400664529f34a7c40664929f44a7c80664d29f54a7cc0665129f64a7d00665529f74a7d40665929f84a7d80665d29f94a7dc7f11d2aa74f31c4f31d29fa4a7e07f1212aa84f3204f32129fb4a7e47f1252aa94f3244f32529fc4a7e87f1292aaa4f3284f32929fd4a7ec7f12d2aab4f32c4f32d29fe4a7f07f1312aac4f3304f33129ff4a7f47f1352aad4f3344f3352a004a7f87f1392aae4f3384f3392a014a7fc7f13d2aaf4f33c)
  (.lf 0))) (.nd (.nd (.lf
  0x629d80cd93c7bc748758277629dc629dc0cda3c7c0748798278629e0629e00cdb3c7c47487d8279629e4629e40cdc3c7c874881827a629e8629e80cdd3c7cc74885827b629ec629ec0cde3c7d074889827c629f0629f00cdf3c7d47488d827d629f4629f40cc03c7d874891827e629f8629f80cc13c7dc74895827f629fc629fc0cc23c7e074899828062a0062a000cc33c7e47489d828162a0462a040cc43c7e8748a1828262a0862a080cc53c7ec748a5828362a0c62a0c0cc63c7f0748a9828462a1062a100cc73c7f4748ad828562a1462a140cc83c7f8748b1828662a1862a180cc93c7fc748b5828762a1c62a1c0cca3c800748b9828862a2062a200ccb3c804748bd828962a2462a240ccc3c808748c1828a62a2862a280ccd3c80c748c5828b62a2c62a2c0cce3c810748c9828c62a3062a300ccf3c814748cd828d62a3462a340cd03c818748d1828e62a3862a380cd13c81c748d5828f62a3c62a3c0cd23c820748d9829062a4062a400cd33c824748dd829162a4462a440cd43c828748e1829262a4862a480cd53c82c748e5829362a4c62a4c0cd63c830748e9829462a5062a500cd73c834748ed829562a5462a540cd83c8383c7bc0ccb03318)
  (.lf 0)) (.nd (.lf
  0x4ba11eed37bbc82f39cbce92f3a12f3a5eed34a6102f3a1eed3502107bb4deed22f3902f390bce62f3952f395eed25020c2f239ee954d2107ba55ee942f2282f228bc8c2f22d2f231ee944ba0c4ba0deed27bbc42f399eed24a60c7bb49eed12f3842f384bce32f3892f38deed14a6082f22dee944d20c7ba51ee932f21c2f21cbc892f2212f225ee934ba0849e09ee937bac87bac92e824d2084ba09eed17bbc02f389eed1502087bb45eed02f3782f378bce02f37d2f37deed0502042f221ee934d2087ba4dee922f2102f210bc862f2152f219ee924ba0449e05ee927bac42f381eed04a6047bac52e814d2044ba05eed07bbbc7bb41eecf2f36c2f215ee924d2047ba49ee912f2042f204bc832f2092f36cbcdd2f3712f371eecf5020049e01ee917bac07bac12e804d2002f375eecf4a6002f20dee914ba004ba01eecf7bbb87bb3deece2f3602f360bcda2f3652f209ee914d2007ba45ee902f1f82f1f8bc802f1fd2f201ee904b9fc49dfdee907babc2f369eece4a5fc7babd2e7f4d1fc2f365eece501fc4b9fdeece7bbb47bb39eecd2f3542f354bcd72f3592f359eecd501f849dedee8c7baac7baad2e7b4d1ec2f1fdee904d1fc7ba41ee8f2f1ec)
  (.lf 0)))

def shaGateTree86 : BTree :=
  .nd (.nd (.nd (.lf
  0x4841811370445c4841c1138044604842011390446448424113a0446848428113b0446c4842c113c0447048430113d0447448434113e0447848438113f0447c554c41140484bc554c81141484c0554cc1142484c4554d01143484c8554d41144484cc554d81145484d0554dc1146484d4554e01147484d8554e41148484dc554e81149484e0554ec114a484e4554f0114b484e8554f4114c484ec554f8114d484f0554fc114e484f455500114f484f8555041150484fc555081151485005550c115248504555101153485085551411544850c555181155485105551c115648514555201157485185552411584851c555281159485205552c115a4852455530115b4852855534115c4852c55538115d485305553c115e4853455540115f48538484bd214f485bd484c12150485c1484c52151485c5484c92152485c9484cd2153485cd484d12154485d1484d52155485d5484d92156485d9484dd2157485dd484e12158485e1484e52159485e5484e9215a485e9484ed215b485ed484f1215c485f1484f5215d485f5484f9215e485f9484fd215f485fd4850121604860148505216148605485092162486094850d21634860d4851121644861148515216548615)
  (.lf 0)) (.nd (.lf
  0x3ec4c096402510603e809843eccc3eccc09443ed4d025119ba966f2066ea59ba80bd183ec4809630250c603e409833ecc83ecc809433ed490bd182f480bd1d0bd219ba8585500bd1d9ba801f0c0250d9ba866f1c66ea19ba70bd0c0bd0c2f450bd110bd159ba75854c3ec44096202508603e009823ecc43ecc409423ed45025099ba766f18453c4076201d08453c8076301d0c453cc076401d10544cc0782454c4544d00783454c8544d40784454cc454c51551455c5454c91552455c9454cd1553455cd455c4078201d08455c8078301d0c455cc078401d1066f19615301f080bea19be85255866fa19be70be8c0be8c2fa50be910be959be7525540be919be75855401d119be76701866f9d9be60be800be802fa20be850be899be6525500be859be65855001d0d9be66701466f999be50be740be742f9f0be790be799be55854c01d099be5670106701149535854c5854dc6a41d70866f21615501f101d61475831d6081d608758358555670194955585545855475835a4e41d60c75811d6001d6007581585516701549545855066f1d615401f0c5855075815a4e01d605c6a41d5f41d70800005a4de1d5f4757f1d5f91d5f9c6a45a4dc5a4ddc6b171b40)
  (.lf 0))) (.nd (.nd (.lf
  0x23fc1d54f54d1023fbdd54f56d1052d11d54f755b87553dd54e23fac23fac8fed23fb123fb5d54e54d0c23fb1d54e56d0c52d0dd54e755b475539d54d23fa023fa08fea23fa523fa9d54d54d0823fa5d54d56d0852d09d54d755b075535d54c23f9423f948fe723f9923f9dd54c54d0423f99d54c56d0452d05d54c755ac75531d54b23f8823f888fe423f8d23f91d54b54d0023f8dd54b56d0052d01d54b755a87552dd54a23f7c23f7c8fe123f8123f85d54a54cfc23f81d54a56cfc52cfdd54a755a475529d54923f7023f708fde23f7523f79d54954cf823f75d54956cf852cf9d549755a075525d54823f6423f648fdb23f6923f6dd54854cf423f69d54856cf452cf5d5487559c75521d54723f5823f588fd823f5d23f5dd54756cf052cf1d5477559875599533c56cf056cf00b4142668755bd534556d1456d140b4a4268c755e9535056d4056d400b55426b84268c0b4102d58426b80b4c02d0446bc00b6102d0423f61d54754cf07551dd54623f4c23f4c8fd523f5123f55d54654cec23f51d54656cec52cedd5467559475519d54523f4023f408fd223f4523f49d54554ce823f45d54556ce852ce9d5457559075515d54423f3423f348fcf23f39)
  (.lf 0)) (.nd (.lf
  0x4412c041c00f7000f7195376555809855953751eb409851953757eb4654dd953609840098402612098456ddfdb77e16b4051dd9b77e6de746de754f7655dd816b405ad216b4516b45b77e55dd855dd803db4175055dfc03c44177455e2803cf417a04177403db00f40417a003c600f6c43f2803fb00f6c53e30041b4402844029102a4412944128041b00f6c00f6d95366555409849953651eb009845953657eb0654d995350983409834260f098390983d953551eac6e1957f4961d246555547ac57eb05dce9b8376e1586e1597f3a61ce817145b8395fcf06e0e5b83817130171305c4e171355dcedb8386e15c17135b83861cec17139b8385fcec6e0e1b83717124171245c4b1712917129b83761ce861ce8059d3bacc6e15d7f3b61cec61cec059e3bad06e1917f4861d2061d20058b3bb0461d24058c3bb086e1a57f4d61d3461d3405903bb186e1a97f4e61d3861d3805913bb1c3bb04059d016603bb08059e016643bb180582016743bb1c0583016783deb405be016786e1c17f5461d505fd5005de3df343df34059e3dfb50167994fb65468653f194fb096fc096fc25c1097010970194fb011780970594fb57ebc653ed94fa096f0096f025be096f5)
  (.lf 0)))

def shaGateTree87 : BTree :=
  .nd (.nd (.nd (.lf
  0x826c209af38f6c38f6ce3dd38f7138f7609af0033438f7209af514784cc7a09af82738826be09ae38f6038f60e3da38f6538f6a09ae0033038f6609ae514744cc7609ae82734826ba09ad38f5438f54e3d738f5938f5e09ad0032c38f5a09ad514704cc7209ad82730826b609ac38f4838f48e3d438f4d38f5209ac0032838f4e09ac5146c4cc6e09ac8272c826b209ab38f3c38f3ce3d138f4138f4609ab0032438f4209ab514684cc6a09ab82728826ae09aa38f3038f30e3ce38f3538f3a09aa0032038f3609aa514644cc6609aa82724826aa09a938f2438f24e3cb38f2938f2e09a90031c38f2a09a9514604cc6209a982720826a609a838f1838f18e3c838f1d38f2209a80031838f1e09a85145c4cc5e09a88271c826a209a738f0c38f0ce3c538f1138f1609a70031438f1209a7514584cc5a09a7827188269e09a638f0038f00e3c238f0538f0a09a60031038f0609a6514544cc5609a6827148269a09a538ef438ef4e3bf38ef938efe09a50030c38efa09a5514504cc5209a5827108269609a438ee838ee8e3bc38eed38ef209a40030838eee09a45144c4cc4e09a48270c8269209a338edc38edce3b938ee138ee609a30030438ee209a351448)
  (.lf 0)) (.nd (.lf
  0xa9cd984c01bac66131984b0a9bc0a9bc2a710a9c10a9c5984b581ec0ab299889581ec0ab2d9889521ec0a9c1984b01ba8019a9984b661a86612d984a0a9b00a9b02a6e0a9b56622598880ab180ab182ac80ab1d0ab1d9888581e8661a9607b01ba8662a1487b581ec0a9b9984a581e8581edbfa81a5fc6fea069471a5181a5186947581e9581e869475a1901a51dbfa71a50c1a50c69451a5111a51400006fe9e0ab219888521e86622198870ab0c3beb006680198c3e55c0888019a06007808a83e5dc3e5dc06683e65d019a19849661a04495c0688012a05416406a844a5c44a5d12b744b5d44b5c06a8012a0012a1988766298662994879581e40a9b5984a01ba46612998490a9a40a9a42a6b0a9a90a9ad9849581e40ab0c2ac50ab11661a1607901ba00ab119887581e41a511bfa75a18c581e5bfa71a5f86fe9dbfa61a5001a50069421a5051a505bfa65a1880a9a9984901ba06612598480a9980a9982a680a99d0a9a19848581e00ab159887521e46621d98860ab000ab002ac20ab053beac0667019883e55808870199c6007408a73e5d83e5d806673e6590199d98486619c6619d607801b9c4495806870129c5416006a744a5844a5912b644b59)
  (.lf 0))) (.nd (.nd (.lf
  0x5115d2d3a058cc815b0000751160511612d3b058d0815b4000851164511652d3c058d4815b8000951168511692d3d058d8815bc000a5116c5116d2d3e058dc815c0000b51170511712d3f058e0815c4000c51174511752d40058e4815c8000d51178511792d41058e8815cc000e5117c5117d2d42058ec815d0000f51180511812d43058f0815d4001051184511852d44058f4815d8001151188511892d45058f8815dc00125118c5118d2d46058fc815e0001351190511912d4705900815e4001451194511952d4805904815e8001551198511992d4905908815ec00165119c5119d2d4a0590c815f00017511a0511a12d4b05910815f40018511a4511a52d4c05914815f80019511a8511a92d4d05918815fc001a511ac511ad2d4e0591c81600001b511b0511b12d4f0592081604001c511b4511b52d5005924058b52d434b4e0058b92d444b4e4058bd2d454b4e8058c12d464b4ec058c52d474b4f0058c92d484b4f4058cd2d494b4f8058d12d4a4b4fc058d52d4b4b500058d92d4c4b504058dd2d4d4b508058e12d4e4b50c058e52d4f4b510058e92d504b514058ed2d314b518058f12d324b51c058f52d334b520058f92d344b524058fd2d354b528)
  (.lf 0)) (.nd (.lf
  0x836991b957acc6c70166ad141d0141d166ad57acd08205917b57acc57acd66ad59ab859ab9b1d66c7d46c7d56e785d9e05d9e1b2526c9c414639b252619e06c949b2511462814628518c1462d14631b2515f9dc846852d51008006ca297e9161a445fa44051b3d9283d92804db3d9a96c9fd7e8661a1808201917b00d88645ed917a081f05f95804e03d7bc3d7bd2d513d83d846898e54639cc06fad8e540080406fb18e544b548639512d51008013d73c04c04b5444b5455eb100d805fa3c05193d9206ca257e9061a406bd3404d949da86c9f57e8461a103d8a804fb0136c08601921057bb06c9c57e78619e0619e004db3b7c461a1804c93b7fc6ca117e8b61a2c61a2c04ce3b8103b7fc04db013583b81004c00136c6bd3c04db49db00136d9210648bc085fd921000e6c64841920f085ec085ec217d085f1085f5920f57bac639cd2d52008040836d91b951acc646e591b8083580835820d80835d0835d91b857ac853a48032143540435410d70436414364003214b7484344003014b74863dad2dd200a044b74991b86475c081f0207e081f56475d46b257ac85f95c04e13d7c03d7c12d523d8413d74004c14b5484b549917a64664646655eb200d84)
  (.lf 0)))

def shaGateTree88 : BTree :=
  .nd (.nd (.nd (.lf
  0x6b871ae1b1287c1287c4a211288112885ae1b5987c04039ae1b6b8e86b8e9661f00ab85987debf42e2202e22000005b7925b791ec0c7b0ac7b0ad75e45f7905f791ec887b29c7b221ec872e5a82e5a8b96c2e5ad2e5b1ec876178c2e5adec876378c2e2edec0c5d7907b031ec0b2e2d82e2d8b8b82e2dd2e2ddec0b5f78c2e16c00007afd27afd0b8582e15c2e15cb858598795d58de8c47a38c7a38c100d005342ca65e8c5005387a315e8c42ca542ca54b2972ca592ca5de8c40403404035ae1a6b8e46b8e5661e00ab4129edae595387c6b965ae58129d8129d84a78129dd129ddae585987804735ae586b9dc6b9dd4e1e5987812881ae1b00ab86b86dae1a12870128704a1e1287512879ae1a5987859878b8585b78c5b78dec0b7b0a87b0a975e35f78c5f78dec877b2987b21dec862e59c2e59cb9692e5a12e5a5ec86617882e5a1ec86637882e2e1ec0b5d78c7b02dec0a2e2cc2e2ccb8b52e2d12e2d1ec0a5f7882e160b8562e1542e154b856598755d589e8c37a3887a388100c005302ca59e8c4005347a311e8c32ca482ca48b2942ca4d2ca51e8c30403004031ae196b8e06b8e1661d00ab0129e1ae58538786b961ae57129cc129cc4a75129d1)
  (.lf
  0x4914d2455491514915610f757988844695e6600c5457999aed212d6012cd9aed2599886bb49aed112cc812cc84b3412ccd12ccdaed15998412cd000006bb46844655e6500c5057995aed112d5c6bb444b3112cc012cc04b3157991579904b315998012cc44b2f12cb812cb84b2f5798d8445d5e6300c485798c4b2f5997c12cbc4b2d12cb012cb04b2d57989579884b2d5997859979aee86bc1c12d6400005998e5997daee96bc2012d700000599ae599adaef56bc5012cb5aed012ca412ca44b2b12ca963cf12dc1009c04b70610f6844544915210f700c44843de10f64914049141245249145844555e6100c404914a10f65798457985aed012d5812d5800005997612ca9aed05997459975aee76bc1812d740000599b2599b1aef66bc546bbd9aef512ed412ed44bb712ed912ed9aef55d8d0599a1aef26bc4412d6c00005999e12eddaef55b8d06bbd5aef412ec812ec84bb412ecd12ecdaef45d8cc12ed1aef45b8cc6bbd1aef312ebc12ebc4bb112ec112ec1aef35d8c812ec5aef35b8c8599a5aef36bc486bbcdaef212eb012eb04bae12eb512eb5aef25d8c412eb9aef25b8c46bbc9aef112ea412ea44bab12ea95999daef16bc4012ea9aef15d8c0))
  (.nd (.lf
  0x679699e590cce40cce4333b0cce90cced9e59527ec01fa99e59679e00cce99e59587ec679659e580ccd801fa59e58679dc0ccd833380ccdd0ccdd9e58587e8679dd49fa587e8678e961fb021a81f98400001fa66679e149fb587ec587ec7e991faac1fa647e5e1f9741f9747e5e587e9587e87e5e5a76472f0171c25e7085e709cc1d730f01fe2c7f8d1fe311fe31cc1d627081fe35cc1d6070873075cc1c1fe201fe207f8a1fe251fe29cc1c607041fab000005a76e5a76dcba072efc72efd71c15e7041fb55cba05e7045e705cc1c730ec1fe25cc1c6270473071cc1b1fe141fe147f871fe191fe1dcc1b6070072e81cb9f1fb441fb447ed31fb491faac00005a76a5a769cb9f72ef85a765cb9e72ef472ef571bf5e6fc1fb49cb9f5e7001fb4dcb9f5c70072e7dcb9e1fb381fb387ed01fb3d1fb3dcb9e5e6fc72ef971c05e7005e701cc1b730e81fe19cc1b627005e6fdcc1a730e47306dcc1a1fe081fe087f841fe0d1fe11cc1a606fc1fe0dcc1a626fc73069cc191fdfc1fdfc7f811fe011fe01cc19626f83f15c0a08027a0606780a283f1dc3f1dc09e83f25d0cb759e1a021a4678699e190cb6445b5c080801fa054764082845c5c45c5d173745d5d)
  (.lf 0))) (.nd (.nd (.lf
  0x26dc5dbb84b3d426c69db7b5eeec76deddb7a26c5826c589b1826c5d26c61db7a5cee826ab89aac26aac26aac9aac58fd558fd49aac5af185af19db7a76e6476e6573ba5eee85cee9dbb876f5c76f5c0e644b3d44b3d60e7e83a7483a7533f54e7d44e7d60efa83c6483bea0ef93ade43ade4eb7b3ade93adee0ef90020c3adea0ef94ffd03ab2a0e7e4cfd4839fa0e7d3ab143ab14eac73ab193ab1a0e7d4e7d03690e031c50fd480c72031b368fc368fcda413690136906031b4b3d04c7d2031b80ce880ce92cf450fd00f9a5a61352fd46984da6120f9900f9903e660f99502f8da612698c4698c54bf458fd00f995a61258fd026dc9dbb80399076ee1dbb726db426db49b6f26db926db9dbb74b3d026c5ddb7a5eee876de9db7926c4c26c4c9b1526c5126c55db795cee426ab09aaa26aa426aa49aaa58fd158fd09aaa5af145af15db7976e6076e6173b95eee45cee5dbb776f5876f580e634b3d04b3d20e7d83a7083a7133f44e7d04e7d20ef983c6083be60ef83add83add8eb783addd3ade20ef8002083adde0ef84ffcc3ab1e0e7d4cfd0839f60e7c3ab083ab08eac43ab0d3ab0e0e7c4e7cc36902031b50fd080c6e031a368f0368f0da3e368f5)
  (.lf 0)) (.nd (.lf
  0x6f4ac08924a48c1913000005a0465a045bccd6f3b04a48df8067e09432915f8074c0907e01df8063290032900ca423290532905f8064d88c6f3b16fe75df9c5bf9dbd0b6f4a86f4a808914a48832909f8064c08c7e019f805328f4328f4ca3f328f9328fdf8054c088328f9f8054d8884a489f8057e0907e015f804328e8328e8ca3c328ed328f1f8044c08419215bccd5df9c6f335bccc192041920464831920919209bccc5df981920dbccc5bf981912c00005a0425a041bccc6f3ac6f331bccb191f8191f86480191fd191fdbccb5df9419201bccb5bf945a03dbccb6f3a86f32dbcca191ec1912800005a03a5a039bcca6f3a4191ec647d191f1191f5bcca5bf90191f1bcca5df906f329bcc9191e0191e0647a191e5191e5bcc95df8c191e9bcc95bf8c1912400005a0365a035bcc96f3a06f325bcc8191d4191d46477191d95a031bcc86f39c191d9bcc85df88191ddbcc85bf886f321bcc7191c8191c86474191cd0a0f828400a0fd0a10196d0580507e0c930304d8c065bc9601701a180a28428a30a2890a28997115805c444d404660111853fdc0486445d4445d51195446d5446d404860111801119971165cc065cc148175805c5805c64095a018)
  (.lf 0)))

def shaGateTree89 : BTree :=
  .nd (.nd (.nd (.lf
  0x29fa8a7ec29fad29fade28c5f2c829ddca78729dcc29dcca77529dd129dd0a7875b2e028449ded80007477b61ded72843828438a1102843d28441ded703b705d0c9ded777bd877bd80edc0007010e81a990533b86a641a98f10e6c10e6c439d10e7110e71a98f593b404271a98f6a6b86a6b94ced593b410d15a952044746a549a95110d0410d04434310d0910d0da951593b403b71a9516a5c06a5c164ed04470593b4a78729e5c29e5c00005b2e25b2e1e28c78aac78aad74b25f2c85f2c9e30878c9c78c21e3072a26c2a26ca89d2a2712a275e307612c42a271e307632c429fb1e28c5d2c878a31e28b29f9c29f9ca7e929fa129fa1e28b5f2c429dd4000029e1e29e1ca77229dc429dc4a772593b15d0c5ded677bd477bd40edb0006c2843dded70007077b5dded62842c2842ca10d2843128435ded603b6c03b6da9506a5bc6a5bd64ec0446c10e75a98f533b46a63da98e10e6010e60439a10e6510e65a98e593b00426da98e6a6b46a6b54cec593b010d09a951044706a545a95010cf810cf8434010cfd10d01a950593b0593b0a7725b2dc5b2dde28b78aa878aa974b15f2c45f2c5e30778c9878c1de3062a2602a260a89a2a2652a269e306612c0)
  (.lf 0)) (.nd (.lf
  0x53f52bd24af9c053f92bd34afa0053fd2bd44afa4054012bd54afa8054052bd64afac054092bd74afb00540d2bd84afb4054112bd94afb8054152bda4afbc054192bdb4afc00541d2bdc4af44054212bdd4af48054252bde4af4c054292bdf4af507f6112c0e50c3850c392be04af547f6152c0f50c3c50c3d2be14af587f6192c1050c4050c412be24af5c4dbc1fceb7f4287f3adfcea345b0345b0d16e345b5345b9fcea4ab3c345b5fcea4f3bc4dbbdfcea7f4247f3a9fce9345a4345a4d16b345a9345adfce94ab38345a9fce94f3b84dbb9fce97f4207f3a5fce83459834598d1683459d345a1fce84ab343459dfce84f3b44dbb5fce87f41c7f3a1fce73458c3458cd1653459134595fce74ab3034591fce74f3b04dbb1fce77f4187f39dfce63458034580d1623458534589fce64ab2c34585fce64f3ac4dbadfce67f4147f399fce53457434574d15f345793457dfce54ab2834579fce54f3a84dba9fce57f4107f395fce43456834568d15c3456d34571fce44ab243456dfce44f3a44dba5fce47f40c7f391fce33455c3455cd1593456134565fce34ab2034561fce34f3a04dba1fce37f4087f38dfce23455034550d1563455534559fce24ab1c)
  (.lf 0))) (.nd (.nd (.lf
  0x74c71829e62a7862a780ce13c85c74c75829f62a7c62a7c0ce23c86074c7982a062a8062a800ce33c86474c7d82a162a8462a840ce43c86874c8182a262a8862a880ce53c86c74c8582a362a8c62a8c0ce63c87074c8982a462a9062a900ce73c87474c8d82a562a9462a940ce83c87874c9182a662a9862a980ce93c87c74c9582a762a9c62a9c0cea3c88074c9982a862aa062aa00ceb3c88474c9d82a962aa462aa40cec3c88874ca182aa62aa862aa80ced3c88c74ca582ab62aac62aac0cee3c89074ca982ac62ab062ab00cef3c89474cad82ad62ab462ab40cf03c89874cb182ae62ab862ab80cf13c89c74cb582af62abc62abc0cf23c8a074cb982b062ac062ac00cf33c8a474cbd82b162ac462ac40cf43c8a874cc182b262ac862ac80cf53c8ac74cc582b362acc62acc0cf63c8b074cc982b462ad062ad00cf73c8b474ccd82b562ad462ad40cf83c8b83c83c0ceb033983c8400cec0339c3c8440ced033a03c8480cee033a43c84c0cef033a83c8500cf0033ac3c8540cf1033b03c8580cf2033b43c85c0cf3033b83c8600cf4033bc3c8640cf5033c03c8680cf6033c43c86c0cf7033c83c8700cf8033cc3c8740cf9033d03c8780cfa033d4)
  (.lf 0)) (.nd (.lf
  0x49f79f0bd7c3707c3712ede4d3787c2f9f0bd2fe942fe94bfa72fe992fe9df0bd4bb784bb79f0fb7c4687c3edf0fa2fff02fff0bffe2fff57bfc1288a4eaa84eaa927dd49f6c49f75f0bc7c36c7c36d2edd4d3742fff5f0fa503742fe99f0bd4d3787c2f5f0bc2fe882fe88bfa42fe8d2fe91f0bc4bb744bb75f0fa7c4642fff9f0fa4a7747c3e9f0f92ffe42ffe4bffb2ffe97bfbd28894eaa44eaa527dc49f682fe8df0bc4d3747c2f1f0bb2fe7c2fe7cbfa12fe812fe81f0bb4d3702fe85f0bb4bb7049f71f0bb7c3687c2edf0ba2fe702fe70bf9e2fe752fe79f0ba4bb6c7bfb928884eaa04eaa127db49f6449f6df0ba7c3647c3652edb4d36c4bb6df0f87c45c7bfb528874ea9c4ea9d27da49f6049f69f0b97c3602fe75f0ba4d36c7c2e9f0b92fe642fe64bf9b2fe692fe69f0b94d3682fe6df0b94bb687c2e5f0b82fe582fe58bf982fe5d2fe5df0b84d3640608127d849f580608527d949f5c2ffe9f0f9503707c3692edc4d3702ffedf0f94a7704bb71f0f97c4607c3e5f0f82ffd82ffd8bff82ffdd2ffe1f0f84a76c2ffddf0f85036c7c3e1f0f72ffcc2ffccbff52ffd12ffd5f0f74a7682ffd1f0f7503687c3612eda4d3684bb69f0f77c458)
  (.lf 0)))

def shaGateTree90 : BTree :=
  .nd (.nd (.nd (.lf
  0x2c0c1e76d5b5282a7e1e3bb002d478eede3ba2a7d02a7d0a9f62a7d52a7d9e3ba03dd05d329e3ba78f6478f640f74002d011c31abf4536186afd1abf311c1c11c1c470911c2111c21abf359614044d1abf36b0486b0494d855961411ac5abb6046d46aed9abb511ab411ab446af11ab911abdabb55961403dd1abb56af506af516585046d059615e76d2c1442c14400005b52a5b529e78579e9079e91754a5f5285f529e8017a0807a005e8002c5002c500b1422c5052c509e800615242c505e800635242c245e7855d52879e15e7842c2302c230b08e2c2352c235e7845f5242c0c4000079db679db5e76c2c0b02c0b0b02e2c0b52c0b5e76c5b5242a7d5e3ba002d078ee9e3b92a7c42a7c4a9f32a7c92a7cde3b903dcc5d325e3b978f6078f600f73002cc11c25abf3536146afcdabf211c1011c10470611c1511c15abf259610044cdabf26b0446b0454d845961011ab9abb5046d06aed5abb411aa811aa846ac11aad11ab1abb45961003dcdabb46af4c6af4d6584046cc59611e76c2c1402c14000005b5265b525e78479e8c79e8d75495f5245f525e8007a07c7a001e7ff2c4f42c4f4b13f2c4f92c4fde7ff615202c4f9e7ff635202c239e7845d524)
  (.lf 0)) (.nd (.lf
  0xc04830140c04d0c0519c2c585f06712d617c01fac585f0777d1de241de2400005a57e1dd30777d5a57c5a57dc7b271f441e02dc7f0027ac71f4571415e5045c505c7f07203c71fc1c7ef1e0181e01878081e01d1e021c7ef027a81dec1c7b25e50471ec9c7b11deb01deb077ae1deb51deb5c7b15e5003c2b8096a025941dd3400001ddf60c1b99c6a525f0671a99c690c1a40c1a4306b0c1a90c1a99c69585ec45564078a01da85456c07aa456644566515b9457654576407aa01da801da99c69672203ed64098a025a86048009aa3ede43ede4096a3ee650c04d9c2c01fac670b19c2b0c03c67221497b585ec025a99c2b671280c03c30110c0410c0459c2b585ec67129617b01fa81ddf4774a1dd241dd24774a585ed585ec774a5a5785a579c7b171f401deb9c7b15c50071ec5c7b01dea41dea477ab1dea91deadc7b05c4fc1dea9c7b05e4fc3c2b40969025900c0419c2b01fa8670ad9c2a0c0300c030300e0c0350c1ad9c69525ec671a59c680c1980c19830680c19d0c19d9c68585e845560078901da45456807a9456604566115b8457614576007a901da401da59c686721c3ed600989025a46047c09a93ede03ede009693ee616721d497a585e8)
  (.lf 0))) (.nd (.nd (.lf
  0x691594b8958e243fd3c0d80035803fd400d81035843fd440d82035883fd480d830358c60c580da03fdbc60c5c0da13fdc060c600da23fdc460c640da33fdc83fdbc0d603fe3d3fdc00d613fe413fdc40d623fe453fdc80d633fe496915d4b8a58e28691614b8b58e2c691554b8858e200358da3e46900c0ecf1a3e458dd068f91a3e30ecdc0ecdc3b390ece169025637a02fa40ece1a3e302f880ece5a3e358dcc69019637702f986901d637802f9c69021637902fa069015637602f940ee743b9f0ee790ee79a42558ddc46d540b8602d9854d5c0ba646e5446e551bb546f5546f540ba602d980ee7da42552ddc02d99a4256911069095a4240ee680ee683b9c0ee6d0ee71a42452dd803589a3e36900869011637502f9046d440b8202d8846d480b8302d8c46d4c0b8402d9046d500b8502d9454d4c0ba246e4454d500ba346e4854d540ba446e4c54d580ba546e5046e451bb146f4546e491bb246f4946e4d1bb346f4d46e511bb446f5146f440ba202d8846f480ba302d8c46f4c0ba402d9046f500ba502d940ee6da42458dd802d95a4246910c69091a4230ee5c0ee5c3b990ee610ee65a42352dd402d91a423691080ee61a42358dd46908da4220ee50)
  (.lf 0)) (.nd (.lf
  0x17829b93f61d6c1782db93f5fd6c6e4fdb93e17818178185e081781d17821b93e5fd681781db93e61d686e4f9b93d1780c1780c5e05178115dd65b93d6e57017815b93d5fd6417811b93d61d646e4f5b93c17800178005e021780517809b93c5fd6017805b93c61d605dd61b93c6e56c6e4f1b93b177f4177f45dff177f95dd5db93b6e5686e5697f5761d5c177f9b93b61d5c61d5c05ba3bb406e5a17f6561d9461d9405a83bb786e5b57f6a61da861da805ad3bb8c3bb7805ba016d43bb8c05bf016e83dfa405da016e86e5cd7f7061dc05fdc005fa3e0243e02405ba3e0a5016e99573656486e5917f6161d8461d8405a43bb686e5a57f6661d9861d9805a93bb7c6e5d97f7361dcc61dcc05b63bbb03bb6805b6016c43bb7c05bb016d83df9405d6016d86e5bd7f6c61db05fdb005f63e0143e01405b63e095016d9956f656386e5717f5961d6461d6405bc3bb486e5a97f6761d9c61d9c05aa3bb8061db005af3bb943bb8005bc016dc3bb9405a1016f03dfac05dc016f06e5d57f7261dc85fdc805fc3e02c3e02c05bc3e0ad016f19575656506e5c57f6e61db86e5757f5a61d6861d6805bd3bb4c6e5797f5b61d6c61d6c05be3bb506e57d7f5c61d70)
  (.lf 0)))

def shaGateTree91 : BTree :=
  .nd (.nd (.nd (.lf
  0x837cd33e54e7944cf960e12838c48384a0e113a9043a904ea433a9093a90e0e110064c3a90a0e11517903a7ae0dd44e794837520dd33a79c3a79ce9e93a7a13a7a60dd34cf9026751dad00395076b41dacf2673c2673c99d12674126741dacf4b3905cea5dacf76bb876bb80e534b3904b3920dd3837c8837c933e44e7904cf920e11838c0838460e103a8f83a8f8ea403a8fd3a9020e10006483a8fe0e105178c3a7a20dd34e7908374e0dd23a7903a790e9e63a7953a79a0dd24cf8c26745dacf0394c76b3ddace267302673099ce2673526735dace4b38c5cea1dace76bb476bb40e524b38c4b38e0dd2837c4837c533e34e78c4cf8e0e10838bc838420e0f3a8ec3a8ecea3d3a8f13a8f60e0f006443a8f20e0f517883a7960dd24e78c8374a0dd13a7843a784e9e33a7893a78e0dd14cf8826739dace0394876b39dacd267242672499cb2672926729dacd4b3885ce9ddacd76bb076bb00e514b3884b38a0dd1837c0837c133e24e7884cf8a0e0f838b88383e0e0e3a8e03a8e0ea3a3a8e53a8ea0e0e006403a8e60e0e517843a78a0dd14e788837460dd03a7783a778e9e03a77d3a7820dd04cf842672ddacd0394476b35dacc267182671899c82671d)
  (.lf 0)) (.nd (.lf
  0x6635d98d60ad400ad402b520ad450ad4998d6582a8663d560aa01c641aca40000702ce702cdc0b21ac901ac906b261ac951ac980000702ca1ac95c0b25a248664cd48aa582a8582a9c0b21acec702c86b231ac881ac886b23582a53e69c08b8022606013808d83e71c3e71c08983e79d0ad4598d601c646635998d50ad340ad342b4f0ad390226198d5663d0663d160a901c600ad3d98d5582a4664c948a9582a4582a46b235a2445a245c0ce703b41acec00005a24a5a249c0cf703b81ae25c0cf5e1bc1ae29c0cf5c1bc7033dc0ce1ae141ae146b871ae19703b5706e5e1b81ae1dc0ce5c1b85c1b9c10c704ac704ac09184a6a4701658042621086210808853beec6215008973bf343beec0897022483e69808b70225c6013408d73e7183e71808973e7990225d98d4663cc663cd60a801c5c0ad3998d501c606635598d40ad280ad282b4c0ad2d0ad3198d4582a0664c548a8582a0582a1c0b11ace81ac8dc0b11ac7c1ac7c6b211ac811ac81c0b15a2401ac840000702c6702c46b1e1ac741ac746b1e5829d6013008d63e7143e71408963e795701618041621046210408843bee83bee80896022443e69408b6022586214c08963bf300225998d3663c8)
  (.lf 0))) (.nd (.nd (.lf
  0x20e0c838520e1120e11ce645699c5299dce6473a0c20e15ce645499c73991ce6320e0020e00838220e0520e09ce635499852999ce6373a085e8d5cf2773d1873c9dcf262142021420850a2142521429cf26608d05e8d1cf2673d1421425cf26628d073c99cf2521414214148507214192141dcf25608cc5e8cdcf2573d1021419cf25628cc73c95cf24214082140885042140d21411cf24608c82140dcf24628c85e8c9cf2473d0c73c91cf23213fc213fc85012140121405cf23608c45e8c5cf2373d0821401cf23628c473c8dcf22213f0213f084fe213f5213f9cf22608c0213f5cf22628c05e8c1cf2273d0473c89cf21213e4213e484fb213e9213edcf21608bc5e8bdcf2173d00213e9cf21628bc73c85cf20213d8213d884f8213dd213ddcf20628b8213e1cf20608b85e8adcf1d73cf05e8b9cf2073cfc73c81cf1f213cc213cc84f5213d1213d1cf1f628b4213d5cf1f608b45e8b5cf1f73cf873c7dcf1e213c0213c084f2213c5213c5cf1e628b0213c9cf1e608b05e8b1cf1e73cf473c79cf1d213b4213b484ef213b9213bdcf1d608ac213b9cf1d628ac73c75cf1c213a8213a884ec213ad213adcf1c628a8213b1cf1c608a85e8a9cf1c73cec)
  (.lf 0)) (.nd (.lf
  0x51c2db3a96cf2014f79b3a955c2c6cea5b3a814f6814f6853dc14f6d14f6db3a855c2853ba80379438a0438a10e48439a1147bdb29253b546ca49b291147a8147a851ec147ad6cae54edd55b7455b740322414ec6cb114ee855ba055ba0032d41518147adb29155b5051b51b2916cac06cac14ed455b5055b500339414c8414ec033900cb8439a0037900ce441518032400ce400ce592c864b9c64b9d470a57c2808a2192c851c2851c29b3a86cf1c14f71b3a853c286cea1b3a714f5c14f5c53d914f6151b4db2906cabc6cabd4ed355b4c14f65b3a753c24147b1b29153b506ca45b2901479c1479c51e9147a1147a1b29055b4c55b4c0338414c453ba403784389c4389d0e474399d6cb0d4ee755b9c6cae14edc55b7055b700321414e855b9c032c4151441514032300ce04399c037800ce0414e8033800cb400ce192c764b9864b99470957c2464b2192c708a0c08a0c228508a1108a1592c751c2451c25b3a76cf1814f61b3a755c246ce9db3a614f5014f5053d614f5514f59b3a653c20147a5b29053b4c6ca41b28f147901479051e61479514799b28f53b4843794035600cd853b9c037643894438950e454399551b49b28f6cab8414e0033600cac)
  (.lf 0)))

def shaGateTree92 : BTree :=
  .nd (.nd (.nd (.lf
  0x2cd7de9475771453715e9477a5987a51de9462cd6c2cd6cb35d2cd712cd75e946557102cd71e9465771053711e9467a5947a519e9452cd602cd60b35a2cd652cd69e9455570c2cd65e9455770c5370de9457a5907a515e9442cd542cd54b3572cd592cd5de944557082cd59e9445770853709e9447a58c7a511e9432cd482cd48b3542cd4d2cd51e943557042cd4de9435770453705e9437a5887a50de9422cd3c2cd3cb3512cd412cd45e942557002cd41e9425770053701e9427a5847a509e9412cd302cd30b34e2cd352cd39e941556fc2cd35e941576fc536fde9417a5807a505e9402cd242cd24b34b2cd292cd2de940556f82cd29e940576f8536f9e9407a57c7a501e93f2cd182cd18b3482cd1d2cd21e93f556f42cd1de93f576f4536f5e93f7a5787a4fde93e2cd0c2cd0cb3452cd112cd15e93e556f02cd11e93e576f0536f1e93e7a5747a4f9e93d2cd002cd00b3422cd052cd09e93d556ec2cd05e93d576ec536ede93d7a5707a4f5e93c2ccf42ccf4b33f2ccf92ccfde93c556e82ccf9e93c576e8536e9e93c7a56c7a4f1e93b2cce82cce8b33c2cced2ccf1e93b556e42ccede93b576e4536e5e93b7a5687a4ede93a2ccdc2ccdcb3392cce1)
  (.lf 0)) (.nd (.lf
  0xc72031ca0c7250c7259d5e586e001e9d9d5e675f40c7299d5e526e0675799d5d0c7140c71431c70c7190c71d9d5d526dc01e999d5d675f0675f149b7586dc526ddc95f725f8725f951b7566dc1ea2dc962566e8675fd49ba586e8526e9c9627260472589c9611ea1c1ea1c7a891ea211ea25c961546e4675f949b9586e4526e5c961726001ea21c961566e472585c9601ea101ea107a861ea151ea15c960566e07264551ca567287262151c1567044585007c501e945465807e54595045951167445a5145a5007e501e9401e959d5c675ec0c7199d5d586dc675759d5c0c7080c70831c40c70d0c70d9d5c586d80c7119d5c526d8675719d5b0c6fc0c6fc31c10c7010c7059d5b526d44584c07c401e905465407e44594c4594d167345a4d45a4c07e401e9001e919d5b675e81ea19c960546e0675f549b8586e0526e1c960725fc72581c95f1ea041ea047a831ea091ea0dc95f546dc1ea09c95f566dc7257dc95e1e9f81e9f87a801e9fd1ea01c95e546d81e9fdc95e566d8675ed49b6586d8526d9c95e725f4675e949b5586d4526d5c95d725f0725f151b5566d472579c95d1e9ec1e9ec7a7d1e9f11e9f1c95d566d4566d407da4204c5670407c64207c)
  (.lf 0))) (.nd (.nd (.lf
  0x806c601b0360f8360f8d840360fd3610201b04b2f44c6f601b08073c8073d2cbd50ef40f471a52452ef802eb1a52369508695094bbd58ef469491a5230f45c0f45c3d190f4610f461a52358ef426009d9d1038b476745d9d025ff425ff497ff25ff925ff9d9d04b2f425e9dd9935ee0c7664dd99225e8c25e8c97a525e9125e95d9925ce0825cd0000025d9a25d98973125cc025cc0973158ef558ef497315ae445ae45d992766c4766c573825ee085ce09d9d0767bc767bc0e2c4b2f44b2f60d12834c4834c533bd4e6f44e6f60d8e836b48363a0d8d3a5d43a5d4e9773a5d93a5de0d8d0012c3a5da0d8d4fef03a31a0d124cef48344a0d113a3043a304e8c33a3093a30a0d114e6f0360fe01b050ef4806c201af360ec360ecd83d360f1360f601af4b2f04c6f201af80738807392cbc50ef002eada52269504695054bbc58ef00f465a52352ef46948da5220f4500f4503d160f4550f455a52258ef025ffdd9d0038b076741d9cf25fe825fe897fc25fed25fedd9cf4b2f025e91d9925ee0876649d99125e8025e8097a225e8525e89d9915ce0425cc4976525cb425cb4972f25cb925cb897655ae4058ef0976525ddc25ddc00005ae425ae41d991766c0)
  (.lf 0)) (.nd (.lf
  0x18201baaf181f03e04405e2017085fde006023e0c43e0c405c23e1450170995d7657d809b5d95d80120c6576195d709b4c09b4c26d509b51657d95fd30120809cc9961651f5065859961509cb409cb4272f09cb909cb9961557f4c441c404220100853ecc0442442c4442c510d1443c5443c4044201008010099615658d0658d147d357f4c181f0607e181f5181f5baaf59f1c09b5595d757f4c57f4dbaaf1831418314000059f1e59f1dbac06eb7c1836dbac15de646eb05bac01835c1835c60d91836118365bac05be606eb7d6f985de605be61bafe6ec74184c46133184c9184cdbafe01908184c9bafe4a34c6ebf9bafd184b8184b86130184bd184c1bafd01904184bdbafd4a3486ec8406464a35c18361bac05de606eb01babf183501835060d61835518355babf5de5c09b5195d7012086575d95d609b4009b4026d209b45181f800006eabe6eabd67c5181ec09cbd961551f4c65855961409ca809ca8272c09cad09cad961457f48441c004210100453ec80441442c0442c110d0443c1443c0044101004010059614658cc3e04005e1017045fddc06013e0c03e0c005c13e141658cd47d257f48181ed67c557f4909b4995d657f480170595d6657d4)
  (.lf 0)))

def shaGateTree93 : BTree :=
  .nd (.nd (.nd (.lf
  0x1041c41091042110421a7d3042c810425a7d35920c039c9a7d369fc869f4da7d2104101041041061041510415a7d2042c410419a7d259208039bda7d069fbc039c5a7d269fc469f49a7d110404039c1a7d169fc0104044103104091040da7d15920410409a7d1042c069f45a7d0103f8103f84100103fd103fda7d0042bc10401a7d05920069f41a7cf103ec103ec40fd103f1103f1a7cf042b8039b9a7cf69fb8103f5a7cf591fc69f3da7ce103e0103e040fa103e5103e9a7ce591f8103e5a7ce042b469f39a7cd103d4103d440f7103d9103d9a7cd042b0103dda7cd591f4039b1a7cd69fb069f35a7cc103c8103c840f4103cd103cda7cc042ac103d1a7cc591f0039ada7cc69fac69f31a7cb103bc103bc40f1103c1103c1a7cb042a8103c5a7cb591ec039a5a7ca69fa4039a9a7cb69fa869f2da7ca103b0103b040ee103b5103b9a7ca591e8103b5a7ca042a469f29a7c9103a4103a440eb103a9103a9a7c9042a0039a1a7c969fa00399da7c869f9c103ada7c9591e469f25a7c8103981039840e81039d103a1a7c8591e01039da7c80429c69f21a7c71038c03999a7c769f981038c40e51039110391a7c70429810395a7c7591dc69f1da7c610380)
  (.lf 0)) (.nd (.lf
  0x708e9c2391b6cc1b6cc6db51b6d11b6d1c239621e01b6d5c239601e05e1e1c23970960708e5c2381b6c01b6c06db21b6c51b6c9c238601dc709c1809062240709c98092622481b6c5c238621dc5e1d98076621d85e1ddc2387095c708e18076621d9621d808d93bfbc7095d8077621dc621dc08da3bfc0709618078621e0621e008db3bfc4709658079621e4621e408dc3bfc870969807a621e8621e808dd3bfcc7096d807b621ec621ec08de3bfd070971807c621f0621f008df3bfd470975807d621f4621f408c03bfd870979807e621f8621f808c13bfdc7097d807f621fc621fc08c23bfe0709818080622006220008c33bfe4709858081622046220408c43bfe8709898082622086220808c53bfec7098d80836220c6220c08c63bff0709918084622106221008c73bff4709958085622146221408c83bff8709998086622186221808c93bffc7099d80876221c6221c08ca3c000709a18088622206222008cb3c004709a58089622246222408cc3c008709a9808a622286222808cd3c00c709ad808b6222c6222c08ce3c010709b1808c622306223008cf3c014709b5808d622346223408d03c018709b9808e622386223808d13c01c709bd808f6223c)
  (.lf 0))) (.nd (.nd (.lf
  0x2213c88512214122145d10c609745e975d10c744ac22141d10c6297474431d10b2213022130884e2213522139d10b6097022135d10b629705e971d10b744a87442dd10a2212422124884b221292212dd10a6096c22129d10a6296c5e96dd10a744a474429d109221182211888482211d22121d109609685e969d109744a02211dd1096296874425d1082210c2210c88452211122115d1086096422111d108629645e965d1087449c74421d10722100221008842221055e961d107744985e95982566295822105d1076296022109d107609607441dd106220f4220f4883f220f9220fdd1066095c5e95dd10674494220f9d1066295c74419825662959629580cb93c73c7449582576295c6295c0cba3c74074499825862960629600cbb3c7447449d825962964629640cbc3c748744a1825a62968629680cbd3c74c744a5825b6296c6296c0cbe3c750744a9825c62970629700cbf3c754744ad825d62974629740ca03c758744b1825e62978629780ca13c75c744b5825f6297c6297c0ca23c760744b9826062980629800ca33c764744bd826162984629840ca43c768744c1826262988629880ca53c76c744c582636298c6298c0ca63c770744c9826462990)
  (.lf 0)) (.nd (.lf
  0x14cd1b330015745bacdb3306cd3c53d3803dd43d3043d310f6c43e3143c3003bd00e7455d300391416a8416a8038800e7443e3003dd00e7400e7594406517c6517d476e57db86cd3c055d49fb8092cd944151dbc166380000166866d9997efa61be861be8055d3b9cc6d9d17f0861c2061c20054b3ba0461c3405503ba183ba04055d015603ba180542015743dcb0057d015745fc4c059d3dd303dd30055d3ddb101575940265084650855f6e01074651059440092b8092b824b0092bd092bd944057db857db859a1166d016684598b1662816628598b57db56d7094f4b55d2c55d2c0390416a4416a4038700e706d6dd4f4055d0055d0003854167853d3403dc43d2c43d2d0f6b43e2d43e2c03dc00e7041678039c00e4443c2c03bc00e7015cb9b59053ce06d641b58f15ca415ca4572b15ca951cddb58f6d6b86d6b94f3755cdc15ca9b58f55cdc55cdc039c4165400e71943f6517865179476d57db408d59936d00f9064db5936c08d4808d48235408d4d144e9b21649ed408d51936c57cd008ec593ab51cd4092c1944051db86c859b215144d8144d85138144dd144e1b2150148c16271b6475fbe86d91db6461625c1625c58991626116261b64661be4)
  (.lf 0)))

def shaGateTree94 : BTree :=
  .nd (.nd (.nd (.lf
  0x112d1aa6c53448043014d11594446a9b14d115944511165aa2e0450403c016511045006a8b96511045015944400005b36e5b36d74d65f358791b174d65f3595f35984d663358793a184d663359633580f393d13c7941d84d76335c6335c0f3a3d1407942184d863360633600f3b3d1447942584d963364633640f3c3d1487942984da63368633680f3d3d14c7942d84db6336c6336c0f3e3d1507943184dc63370633700f3f3d1547943584dd63374633740f203d1587943984de63378633780f213d15c7943d84df6337c6337c0f223d1607944184e063380633800f233d1647944584e163384633840f243d1687944984e263388633880f253d16c7944d84e36338c6338c0f263d1707945184e463390633900f273d1747945584e563394633940f283d1787945984e663398633980f293d17c7945d84e76339c6339c0f2a3d1807946184e8633a0633a00f2b3d1847946584e9633a4633a40f2c3d1887946984ea633a8633a80f2d3d18c7946d84eb633ac633ac0f2e3d1907947184ec633b0633b00f2f3d1947947584ed633b4633b40f303d1987947984ee633b8633b80f313d19c7947d84ef633bc633bc0f323d1a07948184f0633c0633c00f333d1a4)
  (.lf 0)) (.nd (.lf
  0x7186c09b34a9107187c09b74a9207183c09a74a8e07185c09af4a900717a809a04a8c57184c09ab4a8f07182c09a34a8d04a941fe9d7faf07faf131504dd404c541fedb7fbe87fb6dfeda350f0350f0d43e350f5350f9feda4b13c350f5feda50d3c7fa75fe9c34f8834f88d3e434f8d34f91fe9c4c53c4a93dfe9c7faec7faed314f4dd3c4c53dfeda7fbe47fb69fed9350e4350e4d43b350e9350edfed94b138350e9fed950d3834f8dfe9c4dd3c7fa71fe9b34f7c34f7cd3e134f8134f85fe9b4c5384a939fe9b7fae87fae9314e4dd384c539fed97fbe07fb65fed8350d8350d8d438350dd350e1fed84b134350ddfed850d3434f81fe9b4dd387fa6dfe9a34f7034f70d3de34f7534f79fe9a4c5344a935fe9a7fae47fae5314d4dd344c535fed87fbdc7fb61fed7350cc350ccd435350d1350d5fed74b130350d1fed750d3034f75fe9a4dd347fa69fe9934f6434f64d3db34f6934f6dfe994c5304a931fe997fae07fae1314c4dd304c531fed77fbd87fb5dfed6350c0350c0d432350c5350c9fed64b12c350c5fed650d2c34f69fe994dd307fa65fe9834f5834f58d3d834f5d34f61fe984c52c4a92dfe987fadc7fadd314b4dd2c4c52dfed67fbd4)
  (.lf 0))) (.nd (.nd (.lf
  0x23931d45256cb452cb5d452751c475149d45123920239208e4a2392523929d45154cb023925d45156cb052cb1d451751c075145d45023914239148e47239192391dd45054cac23919d45056cac52cadd450751bc75141d44f23908239088e442390d23911d44f54ca82390dd44f56ca852ca9d44f751b87513dd44e238fc238fc8e412390123905d44e54ca423901d44e56ca452ca5d44e751b475139d44d238f0238f08e3e238f5238f9d44d54ca0238f5d44d56ca052ca1d44d751b075135d44c238e4238e48e3b238e9238edd44c54c9c238e9d44c56c9c52c9dd44c751ac75131d44b238d8238d88e38238dd238e1d44b54c98238ddd44b56c9852c99d44b751a87512dd44a238cc238cc8e35238d1238d5d44a54c94238d1d44a56c9452c95d44a751a475129d449238c0238c08e32238c5238c9d44954c90238c5d44956c9052c91d449751a075125d448238b4238b48e2f238b9238bdd44854c8c238b9d44856c8c52c8dd4487519c75121d447238a8238a88e2c238ad238b1d44754c88238add44756c8852c89d447751987511dd4462389c2389c8e29238a1238a5d44654c84238a1d44656c8452c85d4467519475119d44523890238908e2623895)
  (.lf 0)) (.nd (.lf
  0x3ddec056c3de6d3ddf0056d3de713ddf4056e3de75015b5946e65234015b9946f65238651bd946e093600936024da0936509365946e010b409369946e57df8651b9946d093540935424d7093590935d946d57df4015b1946d6523009359946d010b0651b5946c093480934824d40934d09351946c57df03ba3c056b015983dd68058b015ac5fc8405ab3dde83dde8056b3de69015ad946c6522c0934d946c010ac651b1946b0933c0933c24d10934109341946b010a86da9d4f5855d6055d6003bd416d855d8c03a84170455dbc03b441734416d803b400ea44170403bf00ed043d8c03d400ed053d9403f443e8c43e8d0fc343f8d43f8c03f400ed000ed194b3653486daad4f5c55d706da894f5355d4c55d4c03b8416c455d7003a1416e855d9c03ac41714416e803b800eb44171403a300ee043d9c03d800ee053da403f843e9c43e9d0fc743f9d43f9c03f800ee000ee194b7653586dac14f6155d846dab94f5f55d7c6dab54f5e55d786dab14f5d55d746daa54f5a55d686daa14f5955d646da994f5755d5c6da954f5655d586da8d4f5455d5055d6403be416dc55d8803a74170055db403b24172c4170003be00ecc4172c03a900ef843db403de00ef8)
  (.lf 0)))

def shaGateTree95 : BTree :=
  .nd (.nd (.nd (.lf
  0x5b019dd7a776647766573fb5efec5cfedddb87775c7775c0ea54b4d84b4da0ff3840488404934364e8d84d0da103184140840c610303b4f83b4f8ed403b4fd3b5021030007903b4fe1030518d43b3a20ff34e8d883fce0ff23b3903b390ece63b3953b39a0ff24d0d4398ea0b594fd5882d660b58398d8398d8e638398dd398e20b584b4d43961e0add4cd5882b760adc3960839608e5843960d3960e0adc4e5544b1560adc82bec82bed33554e5544e5560b5882ddc82ddd2d354fd543718a0491510d88124604903717837178dc603717d3718204904b4d44c8d60490812bc812bd2d35510d469bb164350419027c35ddb803a94776e1ddb727c2027c209f0a27c2527c25ddb74b4d427ac9dd7a5efec775e9dd7927ab827ab89eb027abd27ac1dd795cfe8279549e5327948279489e53590d5590d49e535b0145b015dd79776607766173fa5efe85cfe9ddb777758777580ea44b4d44b4d60ff2840448404534354e8d44d0d610308413c840c2102f3b4ec3b4eced3d3b4f13b4f6102f0078c3b4f2102f518d03b3960ff24e8d483fca0ff13b3843b384ece33b3893b38e0ff14d0d0398de0b584fd5482d620b57398cc398cce635398d1398d60b574b4d0)
  (.lf 0)) (.nd (.lf
  0x4f06d2965064787e26929fc4f0704f07129660647c7e26d29fd4f0744f0752967064807e27129fe4f0784f0792968064847e27529ff4f07c4f07d2969064887e2792a004f0804f081296a0648c7e27d2a014f0844f085296b064907e2812a024f0884f089296c064947e2852a034f08c4f08d296d064987e2892a044f0904f091296e0649c7e28d2a054f0944f095296f064a07e2912a064f0984f0992970064a40645129644a5880645529654a58c0645929664a5900645d29674a5940646129684a5980646529694a59c06469296a4a5a00646d296b4a5a406471296c4a5a806475296d4a5ac06479296e4a5b00647d296f4a5b40648129704a5b80648529514a5bc0648929524a5c00648d29534a5440649129544a5480649529554a54c0649929564a5500649d29574a554064a129584a558064a529594a55c7e2952a074f09c4f09d295a4a5607e2992a084f0a04f0a1295b4a5647e29d2a094f0a44f0a5295c4a5687e2a12a0a4f0a84f0a9295d4a56c7e2a52a0b4f0ac4f0ad295e4a5707e2a92a0c4f0b04f0b1295f4a5747e2ad2a0d4f0b44f0b529604a5787e2b12a0e4f0b84f0b929614a57c7e2b52a0f4f0bc4f0bd29624a5807e2b92a104f0c0)
  (.lf 0))) (.nd (.nd (.lf
  0x67cb1623502a900d2519f4c528d867d319f4b0d23c0d23c34910d2410d2419f4b588d4020919f4b67da867da94a35588d4588d481e65a8445a845cd98736dc208fc82412090120901cd985e7e8736fd72025e8085e809ce1c738ec73871ce1b20c2020c20830a20c2520c25ce1b6280420c29ce1b60804736dd71fa5e7e85e7e9ce14738cc736f972015e8045e805ce1b738e87386dce1a20c1420c14830720c1920c19ce1a6280020c1dce1a60800736f572005e8005e801ce1a738e473869ce1920c0820c08830420c0d20c0dce19627fc20c11ce19607fc736f171ff5e7fc5e7fdce19738e073865ce1820bfc20bfc830120c0120c01ce18627f820c05ce18607f8736ed71fe5e7f8736e971fd5e7f4736e571fc5e7f0736e171fb5e7ec5e7f9ce18738dc73861ce1720bf020bf082fe20bf520bf5ce17627f45e7f5ce17738d820bf9ce17607f47385dce1620be420be482fb20be920bedce16607f020be9ce16627f05e7f1ce16738d473859ce1520bd820bd882f820bdd20be1ce15607ec20bddce15627ec5e7edce15738d073855ce1420bcc20bcc82f520bd120bd5ce14607e820bd1ce14627e873851ce1320bc020bc082f220bc520bc5ce13627e4)
  (.lf 0)) (.nd (.lf
  0x71401c52071453d6512d564b5d8847198e9663ad45f8ec04c53d6d0071498e964b5d83b7252d764b5c463ad52d76008943d6d12d763d7514b5d991026448407f61910300d186440d910207f5007f501fd607f5507f59910257a5807f55910200d1464409910107f4407f441fd307f49847158e9563ad063ad12d75008903d64d2d554b5d4071458e960089463a598e9507134071341c4f071390713d8e954b5d407f49910100d105f8e804c43d6cc07f4d910157a543d6cd2d753d74d4b5d591016448064405910007f3807f381fd007f3d07f41910057a50539d40304433cc433cd0d13434cd434cc03044b7d4076e58f8e00a9463e398f8d076d4076d41db7076d9076d98f8d00a90076dd8f8d4b7d4849158f8d63eb063e358f8c076c8076c81db4076cd433c90d12434c9080bd914057a5864501913f080ac080ac202d080b1080b1913f57a54080b5913f51a54432cd2dd54b7d463eb12df500a904b7d5913f64578644fd913e080a0080a0202a080a5080a5913e57a50432c92dd44b7d0849118f8c63eac63ead2df400a8c071398e950089063a558e9407128076d18f8c4b7d0434c803034b7d04b7d1913e6457464575469457a50071281c4c0712d)
  (.lf 0)))

def shaGateTree96 : BTree :=
  .nd (.nd (.nd (.lf
  0x49b4402400098049b4802410098449b4c02420098849b5002430098c49b5402440099049b5802450099449b5c02460099849b6002470099c49b640248009a049b680249009a449b6c024a009a849b70024b009ac49b74024c009b049b78024d009b449b7c024e009b849b80024f009bc49b840250009c049b880251009c449b8c0252009c849b900253009cc49b940254009d049b980255009d449b9c0256009d849ba00257009dc49ba40258009e049ba80259009e449bac025a009e849bb0025b009ec49bb4025c009f049bb8025d009f449bbc025e009f849bc0025f009fc637d8027949cc4637dc027a49cc8637e0027b49ccc637e4027c49cd0637e8027d49cd4637ec027e49cd8637f0027f49cdc637f4026049ce0637f8026149ce4637fc026249ce863800026349cec63804026449cf063808026549cf46380c026649cf863810026749cfc63814026849d0063818026949d046381c026a49d0863820026b49d0c63824026c49d1063828026d49d146382c026e49d1863830026f49d1c63834027049d2063838027149d246383c027249d2863840027349d2c63844027449d3063848027549d346384c027649d3863850027749d3c63854027849d40)
  (.lf
  0x847ad8ed963be0072e98ed90092863b658ed8072d8072d81cb8072dd072e18ed84b668847a98ed863bdc072dd8ed80092463b618ed7072cc072cc1cb5072d1072d58ed74b664847a58ed763bd8072d18ed70092063b5d8ed6072c0072c01cb2072c5072c98ed64b660072c58ed60091c847a18ed663bd48479d8ed563bd063b598ed5072b4072b41caf072b9072b98ed500918072bd8ed54b65c63b558ed4072a8072a81cac072ad63be92d9d009305f8892d5d3d5ec3d5ed2d9d3d66d3b6412d9d4b6604b675908d642b0642b15e7d00cb007cd9908d00cb064235908c07cc863be52d9c0092c3b63d2d9c4b65c5f8852d5c3d5e83d5e92d9c3d6694b671908c642ac07cc81f3407ccd07ccd908c00cac07cd1908c579f064231908b07cbc07cbc1f3107cc107cc1908b00ca83b6b12d994b6503b6b52d9a4b6545f8812d5b3d5e407cc5908b579ec63be12d9b009283b6b92d9b4b6583d5e52d9b3d6654b66d908b642a86422d908a07cb007cb01f2e07cb55f8792d593d5dc63bdd2d9a0092407cb5908a00ca45f87d2d5a3d5e007cb9908a579e83d5e12d9a3d6614b669908a642a464229908907ca463bd92d99009203d5dd2d993d65d4b6659089642a0))
  (.nd (.lf
  0x1ff4c7fd51ff511ff51cc555685c732355230568c073231522f568bc7322d522e568b873229522d568b473225522c568b073221522b568ac7320152235688c731f9522156884731d95219568645285dcc55731d0731d152175685c5685c083c421d4731d552185686056860083d421d856864083e421dc731dd521a5686856868083f421e0731f5522056880568800825421f8568840826421fc731fd522256888568880827422005688c082842204568ac083042224568b0083142228568b408324222c568b8083342230421f8083c020c4421fc083d020c842200083e020cc42204083f020d0422240827020f0422280828020f44222c0829020f842230082a020fc45eac085c020f045eb0085d020f445eb4085e020f845eb8085f020fc548b4087c45fac548b8087d45fb0548bc087e45fb4548c0087f45fb845fad180b460ad45fb1180c460b145fb5180d460b545fb9180e460b9460ac087c020f0460b0087d020f4460b4087e020f8460b8087f020fc020f19f6367e0867e094a4d58934020fd9f6667e1467d999f650d374020f99f6567e10020f59f6467e0c0d37434df0d3790d37d9f655293c0d3799f655893c67d959f640d3680d36834dc0d36d)
  (.lf 0))) (.nd (.nd (.lf
  0x309da70e69cb469c39a70d0ff540ff543fd70ff5903099a70d69cb00ff59a70d590dc0ff5da70d530dc69c35a70c0ff480ff483fd40ff4d0ff51a70c530d8476500c4503094550580c6547750477511df447851478500c650309403095a70c69cac0ff4da70c590d869c31a70b0ff3c4764c0c4403090550540c644774c4774d1df34784d4784c0c640309003091a70b69ca80ff3c3fd10ff410ff41a70b590d40ff45a70b530d469c2da70a0ff300ff303fce0ff350ff39a70a530d0476480c430308c550500c6347748477491df247849478480c630308c0308da70a69ca40ff35a70a590d069c29a7090ff240ff243fcb0ff290ff29a709590cc476440c42030885504c0c6247744477451df147845478440c620308803089a70969ca00ff2da709530cc69c25a7080ff180ff183fc80ff1d0ff21a708530c8476400c4103084550480c6147740477411df047841478400c610308403085a70869c9c69d114c4f5913c69d094c4d5913469d014c4b5912c69cf94c495912469cf14c475911c69ce94c455911469ce14c435910c69cd94c415910469cd14c3f590fc69cc94c3d590f469cc14c3b590ec69cb94c39590e469cb14c37590dc69ca94c35590d4)
  (.lf 0)) (.nd (.lf
  0x4c121f9037e4887e40df90232ed032ed0cbb632ed532ed9f9024ad1c6f89c08b64a51c4a51df8c47e38c7e38d30474d91c32ed5f9025091c32d68cb5c32d6d32d71f8c44c11c4c11df9027e4847e409f90132ec432ec4cbb332ec932ecdf9014ad1832ec9f9015091832d6df8c44d91c7e311f8c332d5c32d5ccb5932d6132d65f8c34c1184a519f8c37e3887e38930464d9184c119f9017e4807e405f90032eb832d61f8c34d9187e30df8c232d5032d50cb5632d556f89408b44a5144a515f8c27e38432d59f8c24c1147e38530454d9144c115f9007e47c32eb8cbb032ebd32ec1f9004ad1432ebdf900509147e401f8ff32eac32eaccbad32eb132eb5f8ff4ad105bfe5bdf56f850199ddbdf54a4d06f7d5bdf4199cc199cc6675199d16f89008b34a5104a511f8c17e3807e38130444d91032eb1f8ff5091032d55f8c24d9147e309f8c132d4432d44cb5332d4932d4df8c14c1104c111f8ff7e4787e3fdf8fe32ea032ea0cbaa32ea532ea5f8fe5090c32d49f8c14d9107e305f8c032d386f88c08b24a50c32d38cb5032d3d32d41f8c04c10c4a50df8c07e37c32d3df8c04d90c7e301f8bf32d2c32d2ccb4d32d3132d35f8bf4c10832d31f8bf4d908)
  (.lf 0)))

def shaGateTree97 : BTree :=
  .nd (.nd (.nd (.lf
  0x7904d84c663318633180f093d0fc7905184c76331c6331c0f0a3d1007905584c863320633200f0b3d1047905984c963324633240f0c3d1087905d84ca63328633280f0d3d10c7906184cb6332c6332c0f0e3d1107906584cc63330633300f0f3d1147906984cd63334633340f103d1187906d84ce63338633380f113d11c7907184cf6333c6333c0f123d1207907584d063340633400f133d1247907984d163344633440f143d1287907d84d263348633480f153d12c7908184d36334c6334c0f163d1307908584d463350633500f173d1347908984d563354633540f183d1383d0bc0f0b03c183d0c00f0c03c1c3d0c40f0d03c203d0c80f0e03c243d0cc0f0f03c283d0d00f1003c2c3d0d40f1103c303d0d80f1203c343d0dc0f1303c383d0e00f1403c3c3d0e40f1503c403d0e80f1603c443d0ec0f1703c483d0f00f1803c4c3d0f40f1903c503d0f80f1a03c543d0fc0f1b03c583d1000f1c03c5c3d1040f1d03c603d1080f1e03c643d10c0f1f03c683d1100f0003c6c3d1140f0103c703d1180f0203c743d11c0f0303c783d1200f0403c7c3d1240f0503c003d1280f0603c043d12c0f0703c083d1300f0803c0c3d1340f0903c103d1380f0a03c14)
  (.lf 0)) (.nd (.lf
  0x56448073741dc071239511b5646c5646c072041de47126551265649856498072b41e1041de4073701cb041e10072201cdc45298075701cdc544a00777453984539915064549945498077701cdc0bca99b7e5252001cdd9b7e66e7466df99b7d0bc940bc942f270bc990bc999b7d5851c711995111564455244551115644456444073641dbc7126151255649456494072a41e0c41de0073601cac41e0c072101cd845294075601cd85449c0776453944539515054549545494077601cd80bc9d9b7d5251c01cd99b7d66e7066df59b7c0bc887125d51245649056490072941e08564c0073541e3841ddc073501ca841e08072001cd445290075501cd4544980775453904539115044549145490077501cd401cd59b7c66e6c0bc882f240bc8d0bc919b7c525180bc8d9b7c5851866df19b7b0bc7c564bc073441e3441dd8073401ca44528c075401cd05449407744538c4538d15034548d4548c077401cd001cd19b7b66e680bc7c2f210bc810bc859b7b525140bc819b7b5851466ded9b7a0bc700bc702f1e0bc750bc759b7a5851041dcc073101c9841dd0073201c9c41dd4073301ca045288075301ccc544900773453884538915024548945488077301ccc)
  (.lf 0))) (.nd (.nd (.lf
  0x60adc0d413fac060ae00d423fac460ae40d433fac860ae80d443facc60aec0d453fad060af00d463fad460af40d473fad860af80d483fadc60afc0d493fae060b000d4a3fae460b040d4b3fae860b080d4c3faec60b0c0d4d3faf060b100d4e3faf460b140d4f3faf860b180d503fafc60b1c0d513fb0060b200d523fb0460b240d533fb0860b280d543fb0c60b2c0d553fb1060b300d563fb1460b340d573fb1860b380d583fb1c60b3c0d593fb2060b400d5a3fb2460b440d5b3fb2860b480d5c3fb2c60b4c0d5d3fb3060b500d5e3fb3460b540d5f3fb383fabc0d003fb3d3fac00d013fb413fac40d023fb453fac80d033fb493facc0d043fb4d3fad00d053fb513fad40d063fb553fad80d073fb593fadc0d083fb5d3fae00d093fb613fae40d0a3fb653fae80d0b3fb693faec0d0c3fb6d3faf00d0d3fb713faf40d0e3fb753faf80d0f3fb793fafc0d103fb7d3fb000d113fb813fb040d123fb853fb080d133fb893fb0c0d143fb8d3fb100d153fb913fb140d163fb953fb180d173fb993fb1c0d183fb9d3fb200d193fba13fb240d1a3fba53fb280d1b3fba93fb2c0d1c3fbad3fb300d1d3fbb13fb340d1e3fbb53fb380d1f3fbb9468dc0b2802c20)
  (.lf 0)) (.nd (.lf
  0x7ccc1f32f30cec30cecc33d30cf130cf1f32f5051030cf5f32f4a9104bd11f32f7cd387ccbdf32e30ce030ce0c33a30ce530ce9f32e4a90c7cc392f424d5084bd09f32d7cd307cc3d2f434d50c30ce5f32e5050c4bd0df32e7cd347ccb9f32d30cd430cd4c33730cd930cddf32d4a90830cd9f32d505087ccb5f32c30cc830cc8c33430ccd30ccdf32c505047cc352f414d5044bd05f32c7cd2c30cd1f32c4a9047ccb1f32b30cbc30cbcc33130cc17cc212f3c4d4f07cc312f404d50030cc1f32b5050030cc5f32b4a9004bd01f32b7cd287ccadf32a30cb07cc252f3d4d4f430cb0c32e30cb57cc2d2f3f4d4fc4bcfdf32a7cd2430cb5f32a504fc30cb9f32a4a8fc7cca9f32930ca44bcf1f3277cd1830ca4c32b30ca97cc292f3e4d4f84bcf9f3297cd2030ca9f329504f830cadf3294a8f87cca5f32830c9830c98c32830c9d30c9df328504f430ca1f3284a8f44bcf5f3287cd1c7cca1f32730c8c30c8cc32530c9130c95f3274a8f030c91f327504f07cc9df32630c8030c80c32230c8530c89f3264a8ec7cc152f394d4e44bce5f3247cd0c7cc1d2f3b4d4ec4bcedf3267cd1430c85f326504ec7cc99f32530c7430c74c31f30c7930c7df3254a8e8)
  (.lf 0)))

def shaGateTree98 : BTree :=
  .nd (.nd (.nd (.lf
  0x53669e8347a14c7a0d1e8332c5e42c5e4b17b2c5e92c5ede833556642c5e9e8335766453665e8337a1487a0cde8322c5d82c5d8b1782c5dd2c5e1e832556602c5dde8325766053661e8327a1447a0c9e8312c5cc2c5ccb1752c5d12c5d5e8315565c2c5d1e8315765c5365de8317a1407a0c5e8302c5c02c5c0b1722c5c52c5c9e830556582c5c5e8305765853659e8307a13c7a0c1e82f2c5b42c5b4b16f2c5b92c5bde82f556542c5b9e82f5765453655e82f7a1387a0bde82e2c5a82c5a8b16c2c5ad2c5b1e82e556502c5ade82e5765053651e82e7a1347a0b9e82d2c59c2c59cb1692c5a12c5a5e82d5564c2c5a1e82d5764c5364de82d7a1307a0b5e82c2c5902c590b1662c5952c599e82c556482c595e82c5764853649e82c7a12c536455591576447a0b155915764557644117642fbc7a12d55925764857648117742fc07a13155935764c5764c117842fc47a13555945765057650117942fc87a13955955765457654117a42fcc7a13d55965765857658117b42fd07a14155975765c5765c117c42fd47a14555985766057660117d42fd87a14955995766457664117e42fdc7a14d559a5766857668117f42fe07a151559b5766c5766c116042fe4)
  (.lf 0)) (.nd (.lf
  0x545cc07c2457c4457c51611458c5458c407c201e080c4299cde52650673799cdd0c4140c41431070c4190c4199cdd5864c01e099cdd673f0673f149935864c672819c9f0c2ac0c2ac30ad0c2b1026099c9f672f80c2b59c9f5864c672f96193020081e3fc00001e5121e51078fc1e3ec1e3ec78fc5864d5864c78fc5a5d81e5adc8a25e56472289c8a11e59c1e59c79691e5a11e5a5c8a15c5605a5d9c8a1723007230171585e5605c561c8df723f87237dc8de1e6f81e6f879c01e6fd724100a084aa64724140a094aa683ee4009a102604604dc09c13eec03eec009813ef410c41d9cdd5264c673759cdc0c408456c007a101e04545c807c1457c0457c11610458c1458c007c101e040c40831040c40d0c40d9cdc5864801e059cdc673ec1e3f169741e3e41e3e561911e3e9673ed4992586480c2b19c9f020086727d9c9e0c2a00c2a030aa0c2a50c2a99c9e58648026059c9e672f4672f56192020045864969741e5501e55000005a5d61e3e969745a5d45a5d5c8a0722fc724580a1a4aaac3ee3c09a002600604d809c03eebc3eebc09803ef3d0c2a59c9e0200467279619102001722fd71575e55c0c4119cdc5264867371499158645724340a114aa88)
  (.lf 0))) (.nd (.nd (.lf
  0x256d9d8925ed682558c00007620e7620c95602557c2557c956058e5558e5495605ada45ada5d892762c4762c5735a5ed685ed69d90e764b476439d90d259982599896682599d259a1d90d60d642599dd90d62d64256ddd8925cd6876249d891256c8256c895b4256cd256cdd8915ed6425581d8822557025570955e2557525575d8825ada058e51d882256802568000005ada25ada1d891762c0762c173595ed645ed65d90d764b076435d90c2598c2598c96652599125995d90c60d6025991d90c62d60256d1d8915cd6476245d890256bc256bc95b1256c1256c1d8905ed602557800007620a762096b662556c2556d6b6658e4d58e4d6b665ad9c5ad9dd890762bc762bd73585ed605ed61d90c764ac76431d90b259802598096622598525989d90b60d5c25985d90b62d5c256c5d8905cd6076241d88f256b0256b095ae256b5256b5d88f5ed5c58e4800005ad9a5ad99d88f762b8762b973575ed5c5ed5dd90b764a8256b9d88f5cd5c58e4573565ed587623d73565ed595ed59835662d587642d835662d5962d580db93cb3c764a9835762d5c62d5c0dba3cb40764ad835862d6062d600dbb3cb44764b1835962d6462d640dbc3cb48764b5835a62d68)
  (.lf 0)) (.nd (.lf
  0x3bbf405d9017503bbfc05db017583bc1005c00176c1849461271849951ed5b97c6e66c1830800006eaf66eaf5babc182f4182f460bf182f96e6754fb755edc55edc041c418546e6994fc055f0055f000405418786e6c54fcb55f2c55f2c0410418a441878041c01044418a40407010704422c043c0107053f34045c4432c4432d10eb4442d4442c045c0107001071962f659386593947ed57fb409e01963051fb8658c1962f09dec09dec277d09df109df1962f57fb409c9595f201274657c995f109c8409c84272309c8909c8d95f157fb457fb5babc18348182fc00006eaf2182f9babc59f846eaf060bc182ec182ec60bc57fb109c8995f101270657c595f009c7809c78272009c7d09c8195f057fb06e6954fbf55efc09df5962f51fb417991b97d55ed851ed9b97d6e6706e6714fb655ed855ed8041b4185055efc0404418746e6c14fca55f2855f28040f418a041874041b01040418a004060106c44228043b0106c53f30045b443284432910ea4442944428045b0106c0106d962e659346593547ec57fb03e0a805fb0176c5fe44061b3e1283e12805db3e1a90176d95f06583c6583d5fec0126c658bd962e09de009de0277a09de509de5962e57fb0)
  (.lf 0)))

def shaGateTree99 : BTree :=
  .nd (.nd (.nd (.lf
  0x313da79269ec469e49a791102841028440a31028910289a7915917c1028da7915317c03139a79169ec069e45a790102781027840a01027d1027da7905917810281a7905317803131a78f69eb803135a79069ebc69e41a78f1026c1026c409d1027110275a78f5317410271a78f5917469e3da78e1026010260409a1026510265a78e5917010269a78e531700312da78e69eb469e39a78d10254102544097102591025da78d5316c03129a78d69eb010259a78d5916c69e35a78c102481024840941024d10251a78c531681024da78c5916869e31a78b1023c1023c40911024110241a78b5916410245a78b5316403109a78569e9003121a78b69ea869e2da78a1023010230408e1023510235a78a5916010239a78a531600311da78a69ea469e29a7891022410224408b1022910229a7895915c1022da7895315c03119a78969ea069e25a7881021803115a78869e9c1021840881021d10221a788531581021da7885915869e21a7871020c1020c40851021110211a7875915410215a7875315403111a78769e9869e1da786102001020040821020510205a7865915010209a786531500310da78669e9469e19a785101f4101f4407f101f9101fda7855314c)
  (.lf 0)) (.nd (.lf
  0xaf382bd00af3d0af419940582e03e75808c70229c6017408e73e7d83e7d808a73e8590af3d994001c9c0229d99406657c66501993f0af2c0af2c2bcd0af310af31993f01c983bfa408a5022803bfa808a6022843e75408c6022986017008e63e7d43e7d408a63e8550af35993f582dc02299993f66578664fd993e0af200af202bca0af250af25993e01c943e74c08c4022903e75008c5022946016808e43e7cc6016c08e53e7d03e7cc08a43e84d3e7d008a53e85102295993e665740af29993e582d8664f9993d0af140af142bc70af190af1d993d582d40af19993d01c9002291993d66570664f5993c0af080af082bc40af0d0af11993c582d03e74408c2022886016008e23e7c43e7c408a23e84502289993b665683e74808c30228c6016408e33e7c83e7c808a33e8490228d993c6656c0af0d993c01c8c664f1993b0aefc0aefc2bc10af010af05993b582cc0af01993b01c88664ed993a0aef00aef02bbe0aef54d9c52a514f1c44f1c529bb065584f1c929bc0655c7eafd2a534f1cc4f1cd29bd065604f1d129be065647eb052a554f1d44f1d529bf065684f1d929c00656c7eb0d2a574f1dc4f1dd29c1065704f1e129c2065747eb152a594f1e4)
  (.lf 0))) (.nd (.nd (.lf
  0x21d6487745aa140da45a09602c6468259a0950da340da34368f0da390da3da09558aa43f69c0cb803260609380cd83f71c3f71c0c983f79d03261a095682d0529cdcf4873d9c73d9d5273569cc2144dcf49549d073d25cf48214382143885102143d2143dcf48569cc569cc0a984234473dc1527c569f0569f00a814236873ded528756a1c56a1c0a8c42394423680a9802a34423940a8302a604631c0ab802a6054a240ad84641c4641d19274651d4651c0ad802a6002a61a0d3683c8683c94aa958aa40dbb1a0d452aa868351a0d30db9c0db9c36e90dba10dba1a0d358aa4682d162a902c6058aa4877421e1021d68000021dd221dd0877321d5421d54875721d5921d5887735aa1021441cf48549cc73d21cf472142c2142c850d21431529c9cf4773d9821431cf47569c873d995272569c8569c80a974234073dbd527b569ec569ec0a804236473de9528656a1856a180a8b42390423640a9702a30423900a8202a5c463180ab702a5c54a200ad74641846419192646519465180ad702a5c02a5da0d2683c4683c54aa858aa00da39a09502c6068255a0940da280da28368c0da2d0da31a09458aa03f6980cb70325c609340cd73f7183f7180c973f799)
  (.lf 0)) (.nd (.lf
  0x6d55db55615b7815b7856e015b7d15b81b5565fb845db85b5566d5d415b7db55661b846d559b55515b6c15b6c56dd15b7115b75b5555fb8015b71b55561b806d555b55415b6015b6056da15b6515b65b55461b7c158a5b4d95bb806d365b4d8158901589056261589515895b4d85db7c156d055ef59c403b93405090141008ac022b208ac508ac992f657c686c4b4050949e683da600529014245fafc05493dae03dae005093db610142592f664c5464c555f1a00f2457c6855ef1580415804000059c4259c41b4d86d3dc6d3dd6edf5db7c5db7db5546d5cc15b69b5545fb7c6d551b55315b5415b5456d715b5915b5db5535fb7813df1b10d49e6413df5b10d014205b979b10d6c4b06c435b10c13de013de04f7a13de513de9b10c0141c13de5b10c49e605b975b10c6c4ac6c431b10b13dd413dd44f7713dd913dddb10b0141813dd9b10b49e5c5b971b10b6c4a86c42db10a13dc813dc84f7413dcd13dd1b10a0141413dcdb10a49e585b96db10a6c4a46c429b10913dbc13dbc4f7113dc108ac592f600f2464bd992f508ab408ab422af08ab908abd92f557c64156d40000157be157bc55ee156c0156c055b2156c5156c80000157ba3b93005080140c)
  (.lf 0)))

def shaGateTree100 : BTree :=
  .nd (.nd (.nd (.lf
  0x125944967125991259dad9d597f403fb1ad9d6b6f06b6f165fd00b30597f4b6b72db282db2800005b70a5b709eb047ac8c7ac8d75c25f7085f709eb807ae7c7ae01eb7f2de9c2de9cb7a92dea12dea5eb7f617042dea1eb7f637042dbe1eb045d7087ac11eb032dbcc2dbccb6f52dbd12dbd1eb035f7042da0800002dade2dadcb6b62d9f42d9f4b67f2d9f92d9f8b6b65b7042c349e7bb004b079eede7ba2c3382c338b0d02c33d2c341e7ba03fac5d505e7ba79f6479f640feb004ac12705addb537f46b76dadda126f0126f049be126f5126f5adda597f0046adadda6b7e46b7e54dfc597f012599ad9d00b306b675ad9c125881258849641258d12591ad9c597f003fadad9c6b6ec6b6ed65fc00b2c597f0b6b62db242db2400005b7065b705eb037ac887ac8975c15f7045f705eb7f7ae787adfdeb7e2de902de90b7a62de952de99eb7e617002de95eb7e637002dbd5eb035d7047ac0deb022dbc02dbc0b6f22dbc52dbc5eb025f7002d9fc00002dada2dad8b67c2d9ec2d9ecb67c597ed5d501e7b979f6079f600fea004a82c33de7ba004ac79ee9e7b92c32c2c32cb0cd2c3312c335e7b903fa803fa9ad9b6b6e86b6e965fb00b28126f9adda537f0)
  (.lf 0)) (.nd (.lf
  0x80a012cd450f5050f512cb7056f080a052cd550f5450f552cb8056f480a092cd650f5850f592cb9056f880a0d2cd750f5c50f5d2cba056fc80a112cd850f6050f612cbb0570080a152cd950f6450f652cbc0570480a192cda50f6850f692cbd0570880a1d2cdb50f6c50f6d2cbe0570c80a212cdc50f7050f712cbf0571080a252cdd50f7450f752cc00571480a292cde50f7850f792cc10571880a2d2cdf50f7c50f7d2cc20571c80a312ce050f8050f812cc30572080a352ce150f8450f852cc40572480a392ce250f8850f892cc50572880a3d2ce350f8c50f8d2cc60572c80a412ce450f9050f912cc70573080a452ce550f9450f952cc80573480a492ce650f9850f992cc90573880a4d2ce750f9c50f9d2cca0573c80a512ce850fa050fa12ccb0574080a552ce950fa450fa52ccc0574480a592cea50fa850fa92ccd0574880a5d2ceb50fac50fad2cce0574c80a612cec50fb050fb12ccf0575080a652ced50fb450fb52cd005754056e52cc34b2e0056e92cc44b2e4056ed2cc54b2e8056f12cc64b2ec056f52cc74b2f0056f92cc84b2f4056fd2cc94b2f8057012cca4b2fc057052ccb4b300057092ccc4b3040570d2ccd4b308057112cce4b30c)
  (.lf 0))) (.nd (.nd (.lf
  0x262f9da5056f8452f85da50769bc76941da4f262e8262e898bc262ed262f1da4f54f80262edda4f56f8052f81da4f769b87693dda4e262dc262dc98b9262e1262e5da4e54f7c262e1da4e56f7c52f7dda4e769b476939da4d262d0262d098b6262d5262d9da4d54f78262d5da4d56f7852f79da4d769b076935da4c262c4262c498b3262c9262cdda4c54f74262c9da4c56f7452f75da4c769ac76931da4b262b8262b898b0262bd262c1da4b54f70262bdda4b56f7052f71da4b769a87692dda4a262ac262ac98ad262b1262b5da4a54f6c262b1da4a56f6c52f6dda4a769a476929da49262a0262a098aa262a5262a9da4954f68262a5da4956f6852f69da49769a076925da48262942629498a7262992629dda4854f6426299da4856f6452f65da487699c76921da47262882628898a42628d26291da4754f602628dda4756f6052f61da47769987691dda462627c2627c98a12628126285da4654f5c26281da4656f5c52f5dda467699476919da452627026270989e2627526275da4556f5852f59da45769907699153d656f5856f580bfb428d07699553d756f5c56f5c0bfc428d47699953d856f6056f600bfd428d87699d53d956f6456f640bfe428dc)
  (.lf 0)) (.nd (.lf
  0x323c5f7164efac4d7adf7167dcd47dc59f715323b4323b4c8ef323b9323bdf7154a728323b9f7154efa84d7a9f7157dcd07dc55f714323a84d7a1f7137dcc84d7a5f7147dccc323a8c8ec323ad323b1f7144a724323adf7144efa47dc51f7133239c3239cc8e9323a1323a1f7134efa0323a5f7134a7207dc4df7123239032390c8e63239532399f7124a71c32395f7124ef9c4d79df7127dcc47dc49f7113238432384c8e33238932389f7114ef983238df7114a7184d799f7117dcc07dc45f7103237832378c8e03237d4d795f7107dcbc3237df7104ef9432381f7104a7147dc41f70f3236c3236cc8dd3237132375f70f4a7104d78df70e7dcb44d791f70f7dcb832371f70f4ef907dc3df70e3236032360c8da3236532369f70e4a70c32365f70e4ef8c7dc39f70d3235432354c8d7323593235df70d4a70832359f70d4ef884d789f70d7dcb07dc35f70c3234832348c8d43234d3234df70c4ef844d77df70a7dca44d785f70c7dcac32351f70c4a7047dc31f70b3233c3233cc8d1323414d781f70b7dca832345f70b4a70032341f70b4ef807dc2df70a3233032330c8ce3233532339f70a4a6fc32335f70a4ef7c7dc29f7093232432324c8cb32329)
  (.lf 0)))

def shaGateTree101 : BTree :=
  .nd (.nd (.nd (.lf
  0x407640eca03aa8407680ecb03aac4076c0ecc03ab0407700ecd03ab4407740ece03ab8407780ecf03abc4077c0ed003ac0407800ed103ac4407840ed203ac8407880ed303acc4078c0ed403ad0407900ed503ad4407940ed603ad8407980ed703adc4079c0ed803ae0407a00ed903ae4407a40eda03ae8407a80edb03aec407ac0edc03af0407b00edd03af4407b40ede03af8407b80edf03afc611580ee0407bc6115c0ee1407c0611600ee2407c4611640ee3407c8611680ee4407cc6116c0ee5407d0611700ee6407d4611740ee7407d8611780ee8407dc6117c0ee9407e0611800eea407e4611840eeb407e8611880eec407ec6118c0eed407f0611900eee407f4611940eef407f8611980ef0407fc6119c0ef140800611a00ef240804611a40ef340808611a80ef44080c611ac0ef540810611b00ef640814611b40ef740818611b80ef84081c611bc0ef940820611c00efa40824611c40efb40828611c80efc4082c611cc0efd40830611d00efe40834611d40eff40838407bc0ea04083d407c00ea140841407c40ea240845407c80ea340849407cc0ea44084d407d00ea540851407d40ea640855407d80ea740859407dc0ea84085d407e00ea940861)
  (.lf 0)) (.nd (.lf
  0x45160072901ba401ba59a7866a5c44f64070a01ba85436c072a450644506514394516545164072a01ba801ba99a7966a60669e59a780b6580b6582d980b65d0b65d9a78583e80b6619a78523e844f5c070801ba05436407284505c4505d14374515d4515c072801ba0669e19a770b64c0b64c2d950b6510b6559a77523e40b6519a77583e401ba19a7766a58669dd9a760b6400b6402d920b6450b6459a76583e044f58070701b9c543600727450584505914364515945158072701b9c0b6499a76523e001b9d9a7666a54669d99a750b6340b6342d8f0b6390b63d9a75523dc0b6399a75583dc669d59a740b6280b6282d8c0b62d0b62d9a74583d80b6319a74523d866ab549105844066ab1490f5843c66a794901584045e2d1c34d70db05e2d5c34e70db470d39c34d1bf541bf546fd71bf591bf59c34d622d01bf5dc34d602d070d35c34c1bf481bf486fd41bf4d1bf51c34c602cc5e2cdc34c70dac1bf4dc34c622cc70d31c34b1bf3c1bf3c6fd11bf415e2c9c34b70da81bf41c34b622c81bf45c34b602c870d2dc34a1bf301bf306fce1bf351bf39c34a602c45e2c5c34a70da41bf35c34a622c470d29c3491bf241bf246fcb1bf291bf2dc349602c0)
  (.lf 0))) (.nd (.nd (.lf
  0x56ad00ad9424487459952b556ad456ad40ada4244c7459d52b656ad856ad80adb42450745a152b756adc56adc0adc42454745a552b856ae056ae00add42458745a952b956ae456ae40ade4245c745ad52ba56ae856ae80adf42460745b552bc56af056af00ac142468745bd52be56af856af80ac342470745c152bf56afc56afc0ac442474745c552c056b0056b000ac542478745c952c156b0456b040ac64247c745cd52c256b0856b080ac742480745d152c356b0c56b0c0ac842484745d952c556b1456b140aca4248c745e152c756b1c56b1c0acc42494745e552c856b2056b200acd42498745e952c956b2456b240ace4249c745ed52ca56b2856b280acf424a0745f152cb56b2c56b2c0ad0424a4745f552cc56b3056b300ad1424a8745f952cd56b3456b340ad2424ac745fd52ce56b3856b380ad3424b07460552d056b4056b400ad5424b8424400ace02b0c424440acf02b10424480ad002b144244c0ad102b18424500ad202b1c424540ad302b20424580ad402b244245c0ad502b28424600ad602b2c424640ad702b30424680ad802b344246c0ad902b38424700ada02b3c424740adb02b40424780adc02b444247c0add02b48424800ade02b4c)
  (.lf 0)) (.nd (.lf
  0x2f6adef544d2a42f6b1ef544baa449ea5ef547bdcc7bd51ef532f69c2f69cbda92f6a12f6a5ef534baa049ea1ef537bdc82f6a1ef534d2a07bd4def522f6902f690bda62f6954d151ee477b9987b99928344e9502f021ee484a0d47b921ee472f00c2f00cbc052f0112f015ee474a0d02f011ee474e9507b91dee462f0002f000bc022f0052f005ee464e94c4d14dee467b9947b99528334e94c4e94d279d05f884e951279e05f8c05f8927a649e9005f8d27a749e942f695ef524d29c49e99ef517bdc02f699ef524ba9c49e9def527bdc47bd49ef512f6842f684bda32f6892f68def514ba982f689ef514d2987bd45ef502f6782f678bda02f67d2f681ef504ba942f009ee464a0cc7b919ee452eff42eff4bbff2eff92eff9ee454e9484d149ee457b9907b99128324e9484e949279c05f8405f8527a549e8c49e95ef507bdbc4d14528314e9442effdee454a0c87b91528314e9454e945279b05f8005f8127a449e887ba0928504e9c04e9c127a349e842f67def504d2947bd41ef4f2f66c2f66cbd9d2f6712f671ef4f4d29049e91ef4f7bdb82f675ef4f4ba907bd3def4e2f6602f660bd9a2f6652f665ef4e4d28c2f669ef4e4ba8c49e8def4e7bdb4)
  (.lf 0)))

def shaGateTree102 : BTree :=
  .nd (.nd (.nd (.lf
  0x5f4a5e6fb79c6879bede6fa2be142be14af872be192be1de6fa614a02be19e6fa634a02bb59e67f5d4a4799fde67e2bb442bb44aed32bb492bb49e67e5f4a02b9c400007999a79999e6652b9b02b9b0ae6e2b9b52b9b5e6655b4a82a0a9e2c10024c78b05e2c02a0982a098a8282a09d2a0a1e2c003d485d2a1e2c078b7c78b7c0f520024811949ab76535906add9ab751193411934464f1193911939ab755958c04449ab756ae506ae514d635958c117ddab380464c6ace1ab37117cc117cc45f5117d1117d5ab375958c03d49ab376ad586ad596563046485958de6652ba582ba5800005b4aa5b4a9e67e79a7479a7575285f4a05f4a1e6fa79c6479be9e6f92be082be08af842be0d2be11e6f96149c2be0de6f96349c2bb4de67e5d4a0799f9e67d2bb382bb38aed02bb3d2bb3de67d5f49c2b9b800007999679994ae6b2b9a82b9a8ae6b595895d29de2bf78b7878b780f51002442a09de2c00024878b01e2bf2a08c2a08ca8252a0912a095e2bf03d4403d45ab366ad546ad556562046441193dab755358c6add5ab741192811928464c1192d1192dab745958804445ab746ae4c6ae4d4d6259588117d1ab37046486acddab36117c0117c045f2117c5)
  (.lf 0)) (.nd (.lf
  0x7fcf1ff3b3527c3527cd4a13528135285ff3b4c5504a951ff3b7fd687fd6931544dd504c551ff797fe607fde5ff78353d8353d8d4f8353dd353e1ff784b14c353ddff7850d4c35281ff3b4dd507fcedff3a3527035270d49e3527535279ff3a4c54c4a94dff3a7fd647fd6531534dd4c4c54dff787fe5c7fde1ff77353cc353ccd4f5353d1353d5ff774b148353d1ff7750d4835275ff3a4dd4c7fce9ff393526435264d49b352693526dff394c5484a949ff397fd607fd6131524dd484c549ff777fe5835269ff394dd484a94531514dd447fce531514dd454c5452c5150d447fddd2c5150d4550d452c34055147fe592c5250d4850d492c35055187fe5d2c5350d4c50d4d2c360551c7fe612c5450d5050d512c37055207fe652c5550d5450d552c38055247fe692c5650d5850d592c39055287fe6d2c5750d5c50d5d2c3a0552c7fe712c5850d6050d612c3b055307fe752c5950d6450d652c3c055347fe792c5a50d6850d692c3d055387fe7d2c5b50d6c50d6d2c3e0553c7fe812c5c50d7050d712c3f055407fe852c5d50d7450d752c40055447fe892c5e50d7850d792c41055487fe8d2c5f50d7c50d7d2c420554c7fe912c6050d8050d812c4305550)
  (.lf 0))) (.nd (.nd (.lf
  0x68dc5a3700ea780ea783aa00ea7d0ea81a37058d700ea7da37002f2c0352da37068e3c68dc1a36f0ea6c0ea6c3a9d0ea710ea71a36f02f283fc5c0d680352060bf80d883fcdc3fcdc0d483fd5d03521a36d68e3068e31635902f2068e3d635c02f2c3fc580d670351c60bf40d873fcd83fcd80d473fd590351da36c68e2c68e2d635802f1c3fc640d6a0352860c000d8a3fce43fce40d4a3fd6503529a36f68e380ea75a36f58d6c68dbda36e0ea600ea603a9a0ea650ea65a36e02f243fc480d630350c3fc4c0d64035103fc500d65035143fc540d66035183fc600d690352460be40d833fcc860be80d843fccc60bec0d853fcd060bf00d863fcd460bfc0d893fce03fcc80d433fd493fccc0d443fd4d3fcd00d453fd513fcd40d463fd553fce00d493fd6103525a36e68e340ea69a36e58d6868db9a36d0ea540ea543a970ea590ea5da36d58d640ea59a36d02f200350da36868e1c68db5a36c0ea480ea483a940ea4d0ea51a36c58d600ea4da36c02f1c68db1a36b0ea3c0ea3c3a910ea410ea45a36b58d5c0ea41a36b02f1803519a36b68e2868dada36a0ea300ea303a8e0ea350ea39a36a58d5803515a36a68e240ea35a36a02f1468da9a3690ea24)
  (.lf 0)) (.nd (.lf
  0x97e025fa097e56e1697f3e61cf817631b8d55ddb46e355b8d417620176205d8a1762517629b8d45bdb017625b8d45ddb01750c000059e6e59e6db8d46e3cc6e351b8d317614176145d87176191761db8d35bdac17619b8d35ddac6e34db8d217608176085d841760d17611b8d25bda861cf805813badc61d4005933bb243badc0593016380968994f1011501748000006e2de6e2ddb8b61746c1746c5d1d1747117471b8b659e603de8805b30164c5fd2405d33df083df0805933df890164d94f06543c6543d5fa40114c653c594f0096780967825a00967d0968194f057e90097e5952e57e9057e91b8b61750417504000059e6259e61b8d16e3c01760db8d25dda86e349b8d1175fc175fc5d811760117605b8d15bda417601b8d15dda46e345b8d0175f0175f05d7e175f5175f9b8d05bda06e1657f3d61cf461cf405803bad83bad80592016341747400006e2da6e2d85d1a17464174645d1a57e8d4175003d200f1c43f0403f200f4853e0c0412440044400510214410544104041200f4800f49952d655306553147a357e8c3de8405b2016485fd2005d23df043df0405923df850164994ef65438654395fa301148097e9952e51e90654b9952d097d4)
  (.lf 0)))

def shaGateTree103 : BTree :=
  .nd (.nd (.nd (.lf
  0x397b60b1f00424397b20b1f515684cd6a0b1f82cf882c7e0b1e397a0397a0e5ea397a5397aa0b1e00420397a60b1e515644cd660b1e82cf482c7a0b1d3979439794e5e7397993979e0b1d0041c3979a0b1d515604cd620b1d82cf082c760b1c3978839788e5e43978d397920b1c004183978e0b1c5155c4cd5e0b1c82cec82c720b1b3977c3977ce5e139781397860b1b00414397820b1b515584cd5a0b1b82ce882c6e0b1a3977039770e5de397753977a0b1a00410397760b1a515544cd560b1a82ce482c6a0b193976439764e5db397693976e0b190040c3976a0b19515504cd520b1982ce082c660b183975839758e5d83975d397620b18004083975e0b185154c4cd4e0b1882cdc82c620b173974c3974ce5d539751397560b1700404397520b17515484cd4a0b1782cd84cd4401005154482c5c0100515455154400e305c5482cd80101515485154800e405c5882cdc01025154c5154c00e505c5c82ce00103515505155000e605c6082ce40104515545155400e705c6482ce80105515585155800e805c6882cec01065155c5155c00e905c6c82cf00107515605156000ea05c7082cf40108515645156400eb05c7482cf80109515685156800ec05c78)
  (.lf 0)) (.nd (.lf
  0x1a8c5c00a023e870029c0091a8b01a8b06a2e1a8b51a8b5c0094a6281a74869d41a74d1a751bfcb5c13c5c13dc009700a0700a008f94a6284a629fa3b7e9687e969308a4da284c229fa797ea603376dfa794ae287e9e5fa783375833758cdd83375d33761fa784ae243375dfa7850a241a74dbfcb5e13c6ff2dbfca1a73c1a73c69d11a7411a745bfca5c13832f81f9304a85c4d8d9f92f7e5387e4c1f92f32f6c32f6ccbdd32f7132f71f92f4f0d87e5392a164f0d84f0d92980064bc064bd29894a61c5a1cdbfca6ffa46ffa5704e5e1381a8b9c009023e470025c0081a8a41a8a46a2b1a8a91a8a9c0084a6245c139c0087009c7009c08f84a6244a625fa3a7e9647e96530894da2433601fa3b4da287e8edfa3a335f0335f0cd7e335f5335f9fa3a4c2244c225fa787ea5c7e9e1fa773374c3374ccdd53375133755fa774ae2033751fa7750a2032f75f92f4a8587e4bdf92e32f604d8d5f92e7e53432f60cbda32f6532f65f92e4f0d47e5352a154f0d44f0d5297f064b8064b929884a618335f5fa3a4da247e8e9fa39335e4335e4cd7b335e9335edfa394c2205a1c9bfc96ffa06ffa1704d5e1341a8adc008023e070021c0071a8981a8986a281a89d)
  (.lf 0))) (.nd (.nd (.lf
  0x808592ba64f7184f7192b100691c068c92b044ac08068cd2b054ac0c068d12b064ac10068d52b074ac14068d92b084ac18068dd2b094ac1c068e12b0a4ac20068e52b0b4ac24068e92b0c4ac28068ed2b0d4ac2c068f12b0e4ac30068f52b0f4ac34068f92b104ac38068fd2af14ac3c069012af24ac40069052af34abc4069092af44abc80690d2af54abcc069112af64abd0069152af74abd4069192af84abd80691d2af94abdc8085d2ba74f71c4f71d2afa4abe0808612ba84f7204f7212afb4abe4808652ba94f7244f7252afc4abe8808692baa4f7284f7292afd4abec8086d2bab4f72c4f72d2afe4abf0808712bac4f7304f7312aff4abf4808752bad4f7344f7352b004abf8808792bae4f7384f7392b014abfc8087d2baf4f73c4f73d2b024ac00808812bb04f7404f7412b034ac045c755cbf27304472fc9cbf11fd9c1fd9c7f691fda11fda1cbf14ac3c5c751cbf1730401fda5cbf1029f872fc5cbf01fd901fd907f661fd951fd99cbf0029f45c74dcbf07303c1fd95cbf04ac3872fc1cbef1fd841fd847f631fd895c749cbef730381fd8dcbef029f01fd89cbef4ac3472fbdcbee1fd781fd787f601fd7d1fd81cbee029ec5c745cbee73034)
  (.lf 0)) (.nd (.lf
  0x1407db18353acc6c60db1821406814068501c1406d6c6d54ec655b1855b18030b4149051ac9b1826c68453b200357437181406db18255ac86c6854eb255ac855ac803174144041490030200c5c41464031700c3043618033700c5c437190de64381943818035700c5c00c5d924a649a408735924a57ba0649299249087240872421cb0872953b0c0352437046c6d14ec555b1453b1403544370c53b1c035643714437050de1438054370d0de34380d437150de54381508729924957b9c55b400315414b855b14030a4148c4148c030100c5814071b18253ac843614033600c580872d924951b9c51ac54eb155ac46c6094eb155ac555ac403164143c41460031600c2c43814035600c5800c599249649a0649259248087180871821c80871d08721924851b984380c035400c5055b3c0314414b44360c033400c5041458031400c2400c5192476499853b18035543710437110de44381143810035500c5443610033500c544145c031500c2841488030000c5400c5592486499c43608033300c4c41454031300c200871d924857b986492192470870c0870c21c50871108711924757b9408715924751b946491d9246087000870021c20870508709924651b90)
  (.lf 0)))

def shaGateTree104 : BTree :=
  .nd (.nd (.nd (.lf
  0x7b2e185f5637d4637d410383d5b83d53c102b040983d540102c0409c3d544102d040a03d548102e040a43d54c102f040a83d5501030040ac3d5541031040b03d5581032040b43d55c1033040b83d5601034040bc3d5641035040c03d5681036040c43d56c1037040c83d5701038040cc3d5741039040d03d578103a040d43d57c103b040d83d580103c040dc3d584103d040e03d588103e040e43d58c103f040e83d5901020040ec3d5941021040f03d5981022040f43d59c1023040f83d5a01024040fc3d5a41025040803d5a81026040843d5ac1027040883d5b010280408c3d5b41029040903d5b8102a04094538c1ebd17afc07af45ebd02e0e82e0e8b83c2e0ed2e0f1ebd0558bc2e0edebd0578bc538bdebd07afbc7af41ebcf2e0dc2e0dcb8392e0e12e0e5ebcf558b82e0e1ebcf578b8538b9ebcf7afb87af3debce2e0d02e0d0b8362e0d52e0d9ebce558b42e0d5ebce578b4538b5ebce7afb47af39ebcd2e0c42e0c4b8332e0c92e0cdebcd558b02e0c9ebcd578b0538b1ebcd7afb07af35ebcc2e0b82e0b8b8302e0bd2e0c1ebcc558ac2e0bdebcc578ac538adebcc7afac7af31ebcb2e0ac2e0acb82d2e0b12e0b5ebcb558a82e0b1ebcb578a8)
  (.lf
  0x4b6f210f1844404911610f200c30843ca10f149104491052443491094910e10f15797012c6c4b1d12c7112c7400006bb32844415e5c00c2c12c71aecc5996057971aecc12d486bb304b1a12c6412c644b1a5796d63cd92dbb009a84910a10f100c2c843c610f0490f8490f92440490fd4910210f05796c490fe10f000c284b6ee10f08443c843c210ef490ec490ed243d490f1074401d1207445074498f164b6e84b6ea10ef84438844395e5a00c24490f610ef579688443d5e5b00c285796c4b1a5995c12c684b1812c5c12c5c4b1857969579684b185995859959aee06bbfc12d5000005996a12e29aee65b89459971aee66bc146bb99aee512e1412e144b8712e1912e19aee55d89012e1daee55b89012d5400005996e5996daee56bc106bb95aee412e0812e084b8412e0d12e0daee45d88c59969aee46bc0c12e11aee45b88c6bb91aee312dfc12dfc4b8112e0112e01aee35d88812e05aee35b8886bb8daee212df012df04b7e12df512df5aee25d88412d4800005996212df9aee25b88459961aee26bc046bb89aee112de45995daee16bc0012de44b7b12de912dedaee15b88012de9aee15d8806bb85aee012dd812dd84b7812ddd12dddaee05d87c))
  (.nd (.lf
  0x28719ea967b2067b21622d02a701f819cb5e547e072d79cb5d1f8041f8047e031f8091f809cb5d567dc527ddcb5d72df072e1552005680072df151f7567dc567dc081c421545680008054217872e41520b5682c5682c0810421a442178081c02044421a408070207045d2c083c0207054834085c45e2c45e2d17ab45f2d45f2c085c020700cf359eaa02a7467aa99ea90cf240cf2433cb0cf290cf2d9ea9588b40d0a19ee8528b867ba19ee70d08c0d08c34250d0910d0919ee7588b4020719ee767c1867c194a2d588b4201608059588b5588b480595a8241faf9cb985c6e43f13c0a00027803f1400a01027843f1440a0202788606580a203f1bc6065c0a213f1c0606600a223f1c43f1bc09e03f23d3f1c009e13f2413f1c409e23f2450cb2d9e140218c678519e130cb1c0cb1c32c90cb210cb259e13587cc0cb219e1302188027899e13678c86784d9e120cb100cb1032c60cb150cb199e12587c80cb159e1202184027859e12678c445b3c080001f8045b40080101f8445b44080201f8854744082045c3c54748082145c405474c082245c4445c3d172f45d3d45c41173045d4145c45173145d4545d3c082001f8045d40082101f8445d44082201f88)
  (.lf 0))) (.nd (.nd (.lf
  0x402980e370385c4029c0e3803860402a00e3903864402a40e3a03868402a80e3b0386c402ac0e3c03870402b00e3d03874402b40e3e03878402b80e3f0387c60ed80e40402bc60edc0e41402c060ee00e42402c460ee40e43402c860ee80e44402cc60eec0e45402d060ef00e46402d460ef40e47402d860ef80e48402dc60efc0e49402e060f000e4a402e460f040e4b402e860f080e4c402ec60f0c0e4d402f060f100e4e402f460f140e4f402f860f180e50402fc60f1c0e514030060f200e524030460f240e534030860f280e544030c60f2c0e554031060f300e564031460f340e574031860f380e584031c60f3c0e594032060f400e5a4032460f440e5b4032860f480e5c4032c60f4c0e5d4033060f500e5e4033460f540e5f40338402bc0e004033d402c00e0140341402c40e0240345402c80e0340349402cc0e044034d402d00e0540351402d40e0640355402d80e0740359402dc0e084035d402e00e0940361402e40e0a40365402e80e0b40369402ec0e0c4036d402f00e0d40371402f40e0e40375402f80e0f40379402fc0e104037d403000e1140381403040e1240385403080e13403894030c0e144038d403100e1540391403140e1640395)
  (.lf 0)) (.nd (.lf
  0x5bf61bcfc6f46c6f46c08824a44c192d9bcfd0220c6f3f5bcfc192c4192c464b3192c9192c9bcfc4a44c4a44df7f67e0547e05530134d84c3e2400621018045fedc06413e2c03e2c006013e3410a25d970d5204c65c35970c0a2480a0f196cf01a0865b3d96ce0a0e00180596ce65bb40a24828940a24d0a24d970c58048444c004610110453fc80481445c0445c11190446c1446c004810110401105970c65cac65cad4812580480a0e0283a0a0e50a0e996ce5804819161bcbe5df606f2f9bcbd191501915064561915519159bcbd5bf5c19155bcbd5df5c65bb5601201a0458049bcbd6f3706f2f56fd65df593e23c0620018005fed806403e2bc3e2bc06003e33d192cdbcfc022086f3f1bcfb192b8192b864b0192bd192c1bcfb022046f3716fd75df5c5bf5dbcfb6f468444bc04600110053fc40480445bc445bd118f446bd446bc0480011000a251970c520480110148115804465c3148115804501801601101a000a0e596ce01a0465b39601101a01580456fd65df58192bdbcfb4a4486f3ec08804a4455bf5808804a4444a44530114d84432851f7f74d8507dfddf7f63284032840ca123284532845f7f64d84c32849f7f64c04c7dfd9f7f532834)
  (.lf 0)))

def shaGateTree105 : BTree :=
  .nd (.nd (.nd (.lf
  0x10dbda9805937804235a9806a67c6a67d4cde5937810c61a943044386a50da94210c5010c50431610c5510c59a9425937803b35a9426a5846a58564de0443459378a78129e4429e4400005b2a65b2a5e27d78a7078a7174a35f28c5f28de2f978c6078be5e2f82a1b82a1b8a8702a1bd2a1c1e2f8612882a1bde2f86328829efde27d5d28c789f5e27c29ee829ee8a7bc29eed29eede27c5f28829d44000029e0629e04a78029d3029d30a74e29d3529d34a7805b2a028389dec80003477b21dec72837828378a0e02837d28381dec703b305d089dec777b9877b980ecc0003010dc1a980533786a601a97f10dac10dac436d10db110db1a97f5937404231a97f6a6786a6794cdd5937410c55a942044346a509a94110c4410c44431310c4910c4da9415937403b31a9416a5806a58164dd0443059374a78029e4029e4000005b2a25b2a1e27c78a6c78a6d74a25f2885f289e2f878c5c78be1e2f72a1ac2a1aca86d2a1b12a1b5e2f7612842a1b1e2f76328429ef1e27c5d288789f1e27b29edc29edca7b929ee129ee1e27b5f28429d38000029e0229e00a77f29d2429d24a74b29d2929d28a77f5b29c2837ddec70003077b1ddec62836c2836ca0dd28371)
  (.lf 0)) (.nd (.lf
  0x7115180c4623106231009073c0f46235409183c1383c0f009180244c3c0f40919024503ea9c0938024603eaa00939024646033809583eb1c6033c09593eb203eb1c09183eb9d3eb2009193eba1024659ac666b940b8899ac6584a866b199ac50b8740b8742e1f0b8790b8799ac501e600b87d9ac5584a4024619ac566b9066b159ac40b8680b8682e1c0b86d0b8719ac4584a07114580c1623046230409043c0e83c0d40911024303c0e80916024443ea800931024446031c09513eb003eb0009113eb81024459abe66b747114980c2623083c0c0090c0241c3ea6c092c0243060308094c3eaec3eaec090c3eb6d024319ab966b606230809053c0ec6235009173c1343c0ec0917024483ea9809370245c6033409573eb183eb1809173eb990245d9ac466b8c0b86d9ac401e5c66b119ac30b85c0b85c2e190b8610b8659ac35849c7113980be622f8622f809013c0dc6234009133c1243c0dc0913024383ea8809330244c6032409533eb083eb0809133eb890244d9ac066b7c7113d80bf622fc622fc09023c0e07114180c0623006230009033c0e46234409143c1286234809153c12c6234c09163c1303c0e009140243c3c0e40915024403ea94093602458)
  (.lf 0))) (.nd (.nd (.lf
  0x68915a2440e3e80e3e838fc0e3ed0e3f1a24452c18467900b1502bd454b980b3546890468911a4446991469900b3502bd402bd5a2446898c0e3eda24458c1868911a2430e3dc0e3dc38f90e3e10e3e1a24358c144678c0b1402bd054b940b344688c4688d1a434698d4698c0b3402bd002bd1a243689880e3e5a24352c146890da2420e3d00e3d038f60e3d50e3d9a24252c10467880b1302bcc54b900b3346888468891a4246989469880b3302bcc02bcda242689840e3d5a24258c1068909a2410e3c40e3c438f30e3c90e3cda24152c0c0e3c9a24158c0c467840b1202bc854b8c0b3246884468851a4146985469840b3202bc802bc9a2416898068905a2400e3b80e3b838f00e3bd0e3c1a24052c080e3bda24058c08467800b1102bc454b880b3146880468811a4046981469800b3102bc402bc5a2406897c68901a23f0e3ac0e3ac38ed0e3b10e3b5a23f52c040e3b1a23f58c044677c0b1002bc054b840b304687c4687d1a3f4697d4697c0b3002bc002bc1a23f68978688fda23e0e3a00e3a038ea0e3a50e3a9a23e52c000e3a5a23e58c00467780b0f02bbc54b800b2f46878468791a3e46979469780b2f02bbc02bbda23e68974688f9a23d0e394)
  (.lf 0)) (.nd (.lf
  0x60a9280c4a028060b1280e4a0304a031f1857c6907c27d289f4eafc6d14c057f4a0407c275289d4eaf44eaf52807060b84eafd2809060c07c29928a64eb184eb192810060dc060b928104a038060c127f24a0404a041f1897c6a07c625f1883039830398c0e83039d303a1f1884bc3c6d148057e4a03c7c271289c4eaf04eaf12806060b47c279289e4eaf84eaf92808060bc7c29528a54eb144eb15280f060d8060b5280f4a034060bd27f14a03c4a03df1887c69c3039df1884d43c7c621f1873038c3038cc0e53039130391f1874d4386d144057d4a0387c29128a44eb104eb11280e060d44a039f1877c69830395f1874bc387c61df1863038030380c0e23038530389f1864bc346d140057c4a0347c269289a4eae84eae92804060ac7c28d28a34eb0c4eb0d280d060d0060ad280d4a02c4a035f1867c69430385f1864d4347c619f1853037430374c0df3037930379f1854d4303037df1854bc307c615f1843036830368c0dc3036d30371f1844bc2c3036df1844d42c7c26128984eae04eae12802060a47c28528a14eb044eb05280b060c8060a5280b4a0244a02df1847c68c7c611f1833035c3035cc0d93036130365f1834bc2830361f1834d428)
  (.lf 0)))

def shaGateTree106 : BTree :=
  .nd (.nd (.nd (.lf
  0x6af95abe411b6811b6846dc11b6d11b6dabe4595d804495abe46b00c6b00d4d76595d811a11aba7046986ae9daba611a0011a00468211a0511a09aba6595d803d95aba66af146af15657604694595d9e7652c1242c12400005b4ee5b4ede77679e5479e55753b5f4ec5f4ede7f27a04479fc9e7f12c44c2c44cb1152c4512c455e7f1614e82c451e7f1634e82c191e7765d4ec79dd9e7752c17c2c17cb0612c1812c181e7755f4e82c02c000079d9679d94b0082c01c2c01cb008595d55d2e9e3aa78f2478f240f64002902a721e3ab0029478eade3aa2a7102a710a9c62a7152a719e3aa03d9003d91aba56af106af1165750469011b71abe4535d86af91abe311b5c11b5c46d911b6111b61abe3595d404491abe36b0086b0094d75595d411a05aba6046946ae99aba5119f4119f4467f119f9119fdaba5595d4595d4b0085b4e85b4e9e77579e5079e51753a5f4e85f4e9e7f17a04079fc5e7f02c4402c440b1122c4452c449e7f0614e42c445e7f0634e42c185e7755d4e879dd5e7742c1702c170b05e2c1752c175e7745f4e42c0216d382c0182c0196d38595d15d2e5e3a978f2078f200f630028c2a715e3aa0029078ea9e3a92a7042a704a9c32a709)
  (.lf 0)) (.nd (.lf
  0x3578cd5e5357913579600074c6184aa1a0007800988009931864de184c61a004580190801160044358e8358e8d63c358ed358f200444b214358ee004450e143579200074de188001e00063578035780d5e2357853578a00064c6144aa160006800948009531854de144c61600448018c801120043358dc358dcd639358e1358e600434b210358e2004350e103578600064de148001a00053577435774d5df357793577e00054c6104aa120005800908009131844de104c6120043801888010e0042358d0358d0d636358d5358da00424b20c358d6004250e0c3577a00054de108001600043576835768d5dc3576d3577200044c60c4aa0e00048008c8008d31834de0c4c60e0042801848010a0041358c4358c4d633358c9358ce00414b208358ca004150e083576e00044de0c8001200033575c3575cd5d9357613576600034c6084aa0a0003800888008931824de084c60a004180180801060040358b8358b8d630358bd358c200404b204358be004050e043576200034de088000e00023575035750d5d6357553575a00024c6044aa060002800848008531814de044c60600408017c80102003f358ac358acd62d358b1358b6003f4b200358b2003f50e00)
  (.lf 0))) (.nd (.nd (.lf
  0x251edd7d74b20425091d79a5ed1c75e69d799250802508094222508525089d7995cd1824ecc93b124ec024ec093b158e0558e0493b15ad585ad59d79975ee075ee173465ed185cd19d7d775fd875fd80df04b2044b2060ba282f0482f0533814e6044e6060c1e830f48307a0c1d39d9439d94e76739d9939d9e0c1d0003c39d9a0c1d4fe0039ada0ba24ce0482e8a0ba139ac439ac4e6b339ac939aca0ba14e600691354b8058e006903d638002fbc251f1d7d7037c075f5dd7d6251dc251dc9479251e1251e1d7d64b20025085d7995ed1875e65d7982507425074941f250792507dd7985cd1424ec493db24eb424eb493af24eb924eb893db5ad5458e0093db24fac24fac00005ad565ad55d79875edc75edd73455ed145cd15d7d675fd475fd40def4b2004b2020ba182f0082f0133804e6004e6020c1d830f0830760c1c39d8839d88e76439d8d39d920c1c0003839d8e0c1c4fdfc39ace0ba14ce0082e860ba039ab839ab8e6b039abd39abe0ba04e5fc691314b7f58dfc69039637f02fb8251e5d7d6037bc75f59d7d5251d0251d09476251d5251d5d7d54b1fc25079d7985ed1475e61d7972506825068941c2506d25071d7975cd1024ebc000024f6e)
  (.lf 0)) (.nd (.lf
  0x172b9b87853e606e1e1b877172a451e5db8776e258172a45cab172a9172a9b87755e5c656515fcd011f06e2594f9755e5c55e5c03fc417d46e27d4fa055e8055e8003e5417f855eac03f041824417f803fc00fc44182403e700ff0440ac041c00ff053eb4043c441ac441ad108b442ad442ac043c00ff000ff195b3657486574947cd57f3457f345f0317c4459f11b9d56e7d06e755b9d417da859f0db9d46e7cc17da85f6c17dad17dadb9d45de5017db1b9d45be506e751b9d317d9c17d9c5f6917da117da1b9d35de4c17da5b9d35be4c17c44000059f066e74db9d217d9017d905f6617d9517bc85f0359f0459f05b9d26e7c46e7c56f925de4817d99b9d25be485be49ba106e8bc6e8bc063c4a33409b2595b351f34656cd95b209b1009b1026c609b1509b1995b251f30172adb87753e5c6e1ddb8761729851e59b8766e254172985ca81729d1729db87655e586e2554f9655e5855e5803fb417d06e2794f9f55e7c55e7c03e4417f46e2a54faa55ea855ea803ef41820417f403fb00fc04182003e600fec440a8041b00fec53eb0043b441a8441a9108a442a9442a8043b00fec00fed95b26574409b1595b257f30656c995b109b0409b0426c309b09)
  (.lf 0)))

def shaGateTree107 : BTree :=
  .nd (.nd (.nd (.lf
  0x3acf4eb3f3acf93acfe0ec5006b43acfa0ec5517f84cffa0ec583b9083b160ec43ace83ace8eb3c3aced3acf20ec4006b03acee0ec4517f44cff60ec483b8c83b120ec33acdc3acdceb393ace13ace60ec3006ac3ace20ec3517f04cff20ec383b8883b0e0ec23acd03acd0eb363acd53acda0ec2006a83acd60ec2517ec4cfee0ec283b8483b0a0ec13acc43acc4eb333acc93acce0ec1006a43acca0ec1517e84cfea0ec183b8083b060ec03acb83acb8eb303acbd3acc20ec0006a03acbe0ec0517e44cfe60ec083b7c83b020ebf3acac3acaceb2d3acb13acb60ebf0069c3acb20ebf517e04cfe20ebf83b7883afe0ebe3aca03aca0eb2a3aca53acaa0ebe006983aca60ebe517dc4cfde0ebe83b7483afa0ebd3ac943ac94eb273ac993ac9e0ebd006943ac9a0ebd517d84cfda0ebd83b7083af60ebc3ac883ac88eb243ac8d3ac920ebc006903ac8e0ebc517d44cfd60ebc83b6c83af20ebb3ac7c3ac7ceb213ac813ac860ebb0068c3ac820ebb517d04cfd20ebb83b6883aee0eba3ac703ac70eb1e3ac753ac7a0eba006883ac760eba517cc4cfce0eba83b6483aea0eb93ac643ac64eb1b3ac693ac6e0eb9006843ac6a0eb9517c84cfca0eb983b60)
  (.lf 0)) (.nd (.lf
  0x704a809174a6a04a6a1faf37ec487ebcdfaf233a1033a10ce8633a1533a15faf24da9c33a19faf24c29c704a409164a69c4a69dfaf27ec447ebc9faf133a0433a04ce8333a0933a09faf14da9833a0dfaf14c298704a009154a6984a699faf17ec407ebc5faf0339f8339f8ce80339fd33a01faf04c294703a5706a5e1a85c1a9c1087049c7049c09144a6944a695faf07ec3c339fdfaf04da947ebc1faef339ec339ecce7d339f1339f1faef4da901af55c1080245070421c1071af401af406bd21af451af45c1074a6901af49c1070244c1ace000005a2325a231c0c9703a0703a170695e1a45c1a5c107704987041dc1061af341af346bcf1af391af39c1064a68c7049809134a6904a691faef7ec38339f5faef4c2907ebbdfaee339e0339e0ce7a339e5339e9faee4c28c5a22dc0c87039c1adddc0c95e1a470325c0c81adcc1adcc6b751add11add5c0c85c1a07039d70685e1a05c1a1c106704947049409124a68c339e5faee4da8c4a68dfaee7ec347ebb9faed339d4339d4ce77339d93e67c08b0022406011808d03e6fc3e6fc08903e77d1add1c0c85e1a070321c0c71adc01adc06b721adc57039970675e19c1adc9c0c75c19c5c19dc10570490)
  (.lf 0))) (.nd (.nd (.lf
  0x461a40a9a021e8461a80a9b021ec461ac0a9c021f0461b00a9d021f4549a40ab84629c549a80ab9462a0549ac0aba462a4549b00abb462a8549b40abc462ac549b80abd462b04629d18c74639d462a118c8463a1462a518c9463a5462a918ca463a9462ad18cb463ad462b118cc463b14639c0ab8021e0463a00ab9021e4463a40aba021e8463a80abb021ec463ac0abc021f0463b00abd021f46806da01a0d7700d77035de0d7750d779a01a58a280d775a01a02be4029e5a01a680e468069a0190d7640d76435db0d7690d76da01958a240d769a01902be0029e1a019680e068065a0180d7580d75835d80d75d0d761a01858a20029dda018680dc0d91da05d52a3c68175a05c0d9080d90836440d90d0d911a05c52a380d90da05c58a38021f5a05c681ec68171a05b0d8fc0d8fc36410d9010d905a05b52a340d901a05b58a34021f1a05b681e86816da05a0d8f00d8f0363e0d8f50d8f9a05a52a300d8f5a05a58a30021eda05a681e468169a0590d8e40d8e4363b0d8e90d8eda05952a2c0d8e9a05958a2c021e9a059681e068165a0580d8d80d8d836380d8dd0d8e1a05852a280d8dda05858a28021e5a058681dc68161a0570d8cc0d8cc36350d8d1)
  (.lf 0)) (.nd (.lf
  0x136d5b016013a46c059b015136c0136c04db2136c5136c5b01549de408801927b00ea86c0d804ea49dec3b8b804ea013943d964050a013a85fa80052a3d9e43d9e404ea3da65013a9927b64a68649ed927a087f0087f021fe087f56c0d404e949de83b8b404e9013905fa7c05293d9e03d9e004e93da613d9600509013a4013a5927a64a64087f5927a00ea4087f9927a57be8649e99279087e464a8d5f0400ecc64a815f0100ec015051b3d315040150405412150451504800006cf4e15045b3d359be857c11b3d3150c46cf4c540f1503815038540f57c0d64a895f0300ec857c0c540f59be41503c540d1503015030540d57c0964a855f0200ec457c08540d59be015034540b1502815028540b57c0557c04540b59bdc1502c54091502015020540957c0164a7d5f0000ebc57c00540959bd815025b3d215014150145407150191501c00006cf4a15019b3d259bd457bfdb3d2150c06cf49b3d1150081500854041500d1500db3d159bd057bf9b3d1150bc1501000006cf466cf45b3d014ffc14ffc5401150011500400006cf425b8f5b0146c0cc6c0cc04e749de064a715efd00eb015001b3d059bcc57bf5b3d0150b86cf41b3cf14ff014ff053fe14ff5)
  (.lf 0)))

def shaGateTree108 : BTree :=
  .nd (.nd (.nd (.lf
  0x12365ad2e00be46b4b9ad2d123541235448d7123591235dad2d597a403f61ad2d6b5306b53165e900be0597a5ea782d6a82d6a800005b6ba5b6ba113c8456c844f2113b492fc492fd24c14930149306113b5d6b449302113b5f6b42d63000007a9e27a9e1ea772d61c2d61cb5892d6212d621ea775b6b42bcf9e6c20046079b09e6c12bce82bce8af3c2bced2bcf1e6c103f5c5d4b5e6c179b8079b800fd70045c124c5ad6b537a46b5adad6a124b0124b0492e124b5124b5ad6a597a00465dad6a6b6246b6254de8597a012359ad2d00be06b4b5ad2c123481234848d41234d12351ad2c597a003f5dad2c6b52c6b52d65e800bdc597a1ea772d6a42d6a400005b6b65b6b6113b84568844ee113a492f0492f124be492f5492fa113a5d6b0492f6113a5f6b02d62400007a9de7a9dcb5862d6142d614b5865979d5d4b1e6c079b7c79b7c0fd6004582bcede6c10045c79b05e6c02bcdc2bcdcaf392bce12bce5e6c003f5803f59ad2b6b5286b52965e700bd8124b9ad6a537a06b5a9ad69124a4124a4492b124a9124a9ad695979c04659ad696b6206b6214de75979c1234dad2c00bdc6b4b1ad2b1233c1233c48d11234112345ad2b5979c5979cb5865b6b0)
  (.lf 0)) (.nd (.lf
  0x5a689c9b5727501ed2dc9b55e618726d5c9b41ed1c1ed1c7b491ed211ed21c9b45e6141ebb47aeb1eba81eba87aeb587016751d61c0020bc587007aeb5a6845a685c9b47274c1ed25c9b45c614726d1c9b31ed101ed107b461ed151ed19c9b35c6101ebadc99e1eb9c1eb9c7ae91eba16751961bf020b8586fdc99e1ec581eba1c99e5a6801ec5800005a6825a681c9b3727481ed15c9b35e610726cdc9b21ed041ed047b431ed091ed09c9b25e60c6751561be020b4586f9c99d1ec541eba400007267a72679c99d1eb901eb907ae61eb951eb95c99d5a67c1ec5400005a67e5a67dc9b2727441ed0dc9b25c60c726c9c9b11ecf81ecf87b401ecfd1ed01c9b15c6081eb9800007267672675c99c1eb841eb847ae31eb891eb89c99c5a6786751161bd020b0586f5c99c1ec501ec5000005a67a5a679c9b1727401ecfdc9b15e608726c5c9b01ecec1ecec7b3d1ecf11ecf1c9b05e6046750d61bc020ac1eb8c000072672726707ae01eb7c1eb7c7ae0586f1586f07ae05a6741ecf5c9b05c6045a675c9b07273c726c1c9af1ece01ece07b3a1ece51ece9c9af5c6001eb807ade1eb741eb747ade586ed6750961bb020a8586ec7ade5a6705a671c9af72738)
  (.lf 0))) (.nd (.nd (.lf
  0x4fef92d0806e7c836bc004e4fefc4fefd2d0906e80836c0004f4ff004ff012d0a06e84836c400504ff044ff052d0b06e88836c800514ff084ff092d0c06e8c836cc00524ff0c4ff0d2d0d06e90836d000534ff104ff112d0e06e94836d400544ff144ff152d0f06e98836d800554ff184ff192d1006e9c06e492d044b40806e4d2d054b40c06e512d064b41006e552d074b41406e592d084b41806e5d2d094b41c06e612d0a4b42006e652d0b4b42406e692d0c4b42806e6d2d0d4b42c06e712d0e4b43006e752d0f4b43406e792d104b43806e7d2cf14b43c06e812cf24b44006e852cf34b3c406e892cf44b3c806e8d2cf54b3cc06e912cf64b3d006e952cf74b3d406e992cf84b3d806e9d2cf94b3dc836dc00564ff1c4ff1d2cfa4b3e0836e000574ff204ff212cfb4b3e4836e400584ff244ff252cfc4b3e8836e800594ff284ff292cfd4b3ec836ec005a4ff2c4ff2d2cfe4b3f0836f0005b4ff304ff312cff4b3f4836f4005c4ff344ff352d004b3f8836f8005d4ff384ff392d014b3fc836fc005e4ff3c4ff3d2d024b40083700005f4ff404ff412d034b4045ee55da217690076885da202623426234988f262392623dda2060e5026239da2062e50)
  (.lf 0)) (.nd (.lf
  0xa0b0282e0a0b50a0b596aa580300a0b996aa520306ea514fd655f586eaa14fea55fa855f58043b418d06ea754fdf55f7c55f7c0424418f455fa8042f41920418f4043b010c0419200426010ec443a8045b010ec53fb0047b444a8444a9114a445a9445a8047b010ec010ed96aa65b2465aa996a90a0a40a0a4282b0a0a90a0ad96a95202c6ea714fde55f786ea4d4fd555f5455f54043a418cc55f780423418f055fa4042e4191c418f0043a010bc4191c0425010e8443a4045a010e853fac047a444a4444a51149445a5445a4047a010e8010e996a965b200a0a996a95802c6ea994fe855fa06ea494fd455f5055f500439418c86ea6d4fdd55f7455f740422418ec55fa0042d41918418ec0439010b8419180424010e4443a00459010e453fa80479444a0444a11148445a1445a00479010e465aa596a80a0980a09828280a09d0a0a196a852028010e596a865b1c0a09d96a85802865aa196a70a08c0a08c28250a0910a09596a7520240a09196a75802465a9d96a60a0800a08028220a0850a08596a658020418d004320109c443840452010c853f8c04724448444485114144585445840472010c8010c996a165b0065b31480f5803c65b35481058040)
  (.lf 0)))

def shaGateTree109 : BTree :=
  .nd (.nd (.nd (.lf
  0x77e71743e5f0f85f0f9dff97806077fe5dff828be828be8a2fc28bed28bf1dff8610f428beddff8630f42892ddf7d5d0f877df5df7c2891828918a2482891d2891ddf7c5f0f428774a2172876428764a1db2876928768a2175b118591e0a2172889c2889c00005b11a5b119df7c77e6c77e6d743d5f0f45f0f5dff87805c77fe1dff728bdc28bdca2f928be128be5dff7610f028be1dff7630f028921df7c5d0f477df1df7b2890c2890ca2452891128911df7b5f0f02876c00002885e2885ca1d82875c2875ca1d8591dd591dca1d85b1145b115df7b77e6877e69743c5f0f05f0f1dff77805877fdddff628bd028bd0a2f628bd528bd9dff6610ec28bd5dff6630ec28915df7b5d0f077deddf7a2890028900a2422890528905df7a5f0ec28760a2162875028750a1d62875528754a2165b110591d8a216288982889800005b1125b111df7a77e6477e65743b5f0ec5f0eddff67805477fd9dff528bc428bc4a2f328bc928bcddff5610e828bc9dff5630e828909df7a5d0ec77de9df79288f4288f4a23f288f9288f9df795f0e82875800002885a28858a1d32874828748a1d3591d5591d4a1d35b10c5b10ddf7977e6077e61743a5f0e85f0e9dff578050)
  (.lf 0)) (.nd (.lf
  0x3e88808f30234c3e88c08f4023503e89008f5023543e89408f6023583e89808f70235c6022009123e9046022409133e9086022809143e90c6022c09153e9106023009163e9146023409173e9183e90408d23e9853e90808d33e9893e90c08d43e98d3e91008d53e9913e91408d63e9953e91808d73e9991ba6c6e9d1ba711ba706eb65a3441ba7400001bada1bad86e9a1ba641ba646e9a583a10b2d999cd01d606673599cc0b2c80b2c82cb40b2cd0b2d199cc583a01b14dc172542cc705c9c1711b1381b1386c501b13d54320071744f1844f1913e64501945018071701b5c1b13dc171562c8522c9c171706400b4459a0b523a46682d9a0a0b4300b4302d0e0b4357064150b2562c8562c806d741c407066550bb562ec562ec06c041c6444e1806f701b5c7069150c6563185631806cb41c9041c6406d701b3041c9006c201b5c01b5d9a0a668a4668a548e8583a00b4359a0a583a00235d99cc667ac667ad60e801d5c583a06e9a5a3401b141c171542c8522c550b1562c4705c550b1562c5562c406d641c3c7068d50c5563145631406ca41c8c41c6006d601b2c41c8c06c101b5844e1406f601b585431c071644f1444f1513e54501545014071601b58)
  (.lf 0))) (.nd (.nd (.lf
  0xde21a14852b0802ac5a1486859c68521a1470de0c0de0c37850de110de11a14758b040de15a14752b0402ac1a147685986851da1460de000de0037820de050de09a14652b000de05a14658b0002abda1466859468519a1450ddf4423c00aae02a8c464740ace02ab854a7c0aee4657446575197d46675466740aee02ab80ddf4377f0ddf90ddfda14552afc02ab9a145685900ddf9a14558afc68515a1440dde80dde8377c0dded0ddf1a14452af8423bc0aad02a88424340aab02a80424380aac02a844645c0ac802aa0464600ac902aa4464640aca02aa8464680acb02aac4646c0acc02ab0464700acd02ab454a640ae84655c54a680ae94656054a6c0aea4656454a700aeb4656854a740aec4656c54a780aed465704655d19774665d465611978466614656519794666546569197a466694656d197b4666d46571197c466714665c0ae802aa0466600ae902aa4466640aea02aa8466680aeb02aac4666c0aec02ab0466700aed02ab40ddeda14458af802ab5a1446858c68511a1430dddc0dddc37790dde102ab1a143685880dde5a14352af40dde1a14358af46850da1420ddd00ddd037760ddd502aada142685840ddd9a14252af00ddd5a14258af0)
  (.lf 0)) (.nd (.lf
  0x650655f66010546d6ed4f4455d1055d1003894168841688038000e5453d1803d543d1043d110f6443e1143e1003d500e5443c1003b500e5455d400395416b84165c039500e2800e5594386515c6515d476657d980910193fb0105864fed93fa090f0090f0243e090f5090f993fa57d980926d943951d9c650e59438092580925824980925d0925d943857d9857d98599f166c8165f000001667e1667c5979165e0165e0597957d95090f593fa0105464fe993f9090e4090e4243b090e9090ed93f957d9409261943851d98650e194370924c5baa9b3276cd186cd18055449f9453d1403d443d0c43d0d0f6343e0d43e0c03d400e5055d3c0394416b443c0c03b400e5041658039400e2400e5194376515865159476557d9414c6db32849f986cca1b32714c5c14c5c531914c6114c65b327015506d9ad7eff61bfc61bfc05423b9e061c4405543ba283b9e005540153c0924c2495092513dc8c0574015505fc2805943dd0c3dd0c05543dd8d0155193f965060650615f650105009251943757d9457d94597959d68165e4599e165d4165d45977165d9165d8599e59d645baa5b3266cd1414c61b32749f946cc9db32614c5014c50531614c556d9a97efe61bf8)
  (.lf 0)))

def shaGateTree110 : BTree :=
  .nd (.nd (.nd (.lf
  0x554bc113e483b4554c0113f483b84833d20ef4843d4834120f0484414834520f1484454834920f2484494834d20f34844d4835120f4484514835520f5484554835920f6484594835d20f74845d4836120f8484614836520f9484654836920fa484694836d20fb4846d4837120fc484714837520fd484754837920fe484794837d20ff4847d4838121004848148385210148485483892102484894838d21034848d4839121044849148395210548495483992106484994839d21074849d483a12108484a1483a52109484a5483a9210a484a9483ad210b484ad483b1210c484b1483b5210d484b5483b9210e484b94843c11200438048440112104384484441122043884844811230438c4844c11240439048450112504394484541126043984845811270439c4845c1128043a0484601129043a448464112a043a848468112b043ac4846c112c043b048470112d043b448474112e043b848478112f043bc4847c1130043c0484801131043c4484841132043c8484881133043cc4848c1134043d0484901135043d4484941136043d8484981137043dc4849c1138043e0484a01139043e4484a4113a043e8484a8113b043ec484ac113c043f0484b0113d043f4)
  (.lf 0)) (.nd (.lf
  0x7f941fe4f34d6c34d6cd35d34d7134d75fe4f4ac0034d71fe4f4f4804dc81fe4f7f9b87f93dfe4e34d6034d60d35a34d6534d69fe4e4abfc34d65fe4e4f47c4dc7dfe4e7f9b47f939fe4d34d5434d54d35734d5934d5dfe4d4abf834d59fe4d4f4784dc79fe4d7f9b07f935fe4c34d4834d48d35434d4d34d51fe4c4abf434d4dfe4c4f4744dc75fe4c7f9ac7f931fe4b34d3c34d3cd35134d4134d45fe4b4abf034d41fe4b4f4704dc71fe4b7f9a87f92dfe4a34d3034d30d34e34d3534d39fe4a4abec34d35fe4a4f46c4dc6dfe4a7f9a47f929fe4934d2434d24d34b34d2934d2dfe494abe834d29fe494f4684dc69fe497f9a07f925fe4834d1834d18d34834d1d34d21fe484abe434d1dfe484f4644dc65fe487f99c7f921fe4734d0c34d0cd34534d1134d15fe474abe034d11fe474f4604dc61fe477f9987f91dfe4634d0034d00d34234d0534d09fe464abdc34d05fe464f45c4dc5dfe467f9947f919fe4534cf434cf4d33f34cf934cfdfe454abd834cf9fe454f4584dc59fe457f9907f915fe4434ce834ce8d33c34ced34cf1fe444abd434cedfe444f4544dc55fe447f98c7f911fe4334cdc34cdcd33934ce134ce5fe434abd034ce1fe434f450)
  (.lf 0))) (.nd (.nd (.lf
  0xe805a2fb58d0c0e801a2fb02ec8034c9a2fb68c6868beda2fa0e7f00e7f039fe0e7f50e7f5a2fa02ec40e7f9a2fa58d08034c5a2fa68c6468be9a2f90e7e43fb7c0d50034c060b980d703fbfc3fbfc0d303fc7d034c1a2f968c600e7e439fb0e7e90e7eda2f958d040e7e9a2f902ec068be5a2f80e7d83fb640d4a034a83fb680d4b034ac3fb6c0d4c034b03fb700d4d034b43fb740d4e034b83fb780d4f034bc60b800d6a3fbe460b840d6b3fbe860b880d6c3fbec60b8c0d6d3fbf060b900d6e3fbf460b940d6f3fbf83fbe40d2a3fc653fbe80d2b3fc693fbec0d2c3fc6d3fbf00d2d3fc713fbf40d2e3fc753fbf80d2f3fc790e7d839f80e7dd0e7dda2f802ebc0e7e1a2f858d00034bda2f868c5c68be1a2f70e7cc0e7cc39f50e7d1034b9a2f768c580e7d1a2f702eb80e7d5a2f758cfc68bdda2f60e7c0034b5a2f668c540e7c039f20e7c50e7c5a2f602eb40e7c9a2f658cf868bd9a2f50e7b40e7b439ef0e7b90e7b9a2f502eb00e7bda2f558cf4034b1a2f568c5068bd5a2f40e7a80e7a839ec0e7ad0e7ada2f402eac0e7b1a2f458cf0034ada2f468c4c68bd1a2f30e79c0e79c39e90e7a10e7a5a2f358cec0e7a1a2f302ea8034a9a2f368c48)
  (.lf 0)) (.nd (.lf
  0x65329477d57df4652315f7d010b016ce45b3a57df557df45b3a59dc816ce85b6e16cd816cd85b3816cdd16ce0000016dba65325477c57df06522d5f7c010ac57df05b6e16e0016cdc5b6e59dc416db85b3516cd016cd05b3557ded65321477b57dec57dec5b3559dc0652255f7a010a416cd45b6d16cc416cc45b3316cc96531d477a57de857de85b6d16dfc16cc85b6d59dbc16ccc000016db616db45b3016cbc16cbc5b3057de5652215f79010a065319477957de457de45b3059db816cc05b2e16cb416cb45b2e57de157de05b2e59db416cb85b6c16ca816ca85b2c16cad16cb0000016db2652195f770109865311477757ddc57ddc5b6c16df816cac5b6c59db016db05b2916ca016ca05b2957dd957dd85b2959dac16ca45b2716c9859e15b7d66dfd46df59b7d516f8c16f8c5be516f9116f95b7d55bd5016e2c000059e1259e11b7d56dfd016f91b7d55dd506df55b7d416f8016f805be216f8559e0db7d46dfcc16f89b7d45bd4c16f85b7d45dd4c6df51b7d316f7416f745bdf16f7916f7db7d35bd4816f79b7d35dd4816e28000059e0a59e09b7d36dfc86df4db7d216f6816f685bdc16f6d16f71b7d25bd4416e24000059e0659e05b7d26dfc4)
  (.lf 0)))

def shaGateTree111 : BTree :=
  .nd (.nd (.nd (.lf
  0x48740033000c4048780034000c80487c0035000cc048800036000d0048840037000d4048880038000d80488c0039000dc04890003a000e004894003b000e404898003c000e80489c003d000ec048a0003e000f0048a4003f000f4048a80020000f8048ac0021000fc048b0002200080048b4002300084048b8002400088048bc00250008c048c0002600090048c4002700094048c80028000986392800d65011c5011c00290009c6392c00d75012050120002a000a06393000d85012450124002b000a46393400d95012850128002c000a86393800da5012c5012c002d000ac6393c00db5013050130002e000b06394000dc5013450134002f000b46394400dd50138501380030000b86394800de5013c5013c0031000bc6394c00df50140501400032000c050ec52c940567050ec92c950567450ecd2c960567850ed12c970567c50ed52c980568050ed92c990568450edd2c9a0568850ee12c9b0568c50ee52c9c0569050ee92c9d0569450eed2c9e0569850ef12c9f0569c50ef52ca0056a050ef92ca1056a450efd2ca2056a850f012ca3056ac50f052ca4056b050f092ca5056b450f0d2ca6056b850f112ca7056bc50f152ca8056c050f192ca9056c4)
  (.lf 0)) (.nd (.lf
  0x7e619f985331f4331f4cc7f331f9331f9f9854d9b86fc9808dd4a5b84a5b9f9857e690331fdf9854c1b87e615f984331e8331e8cc7c331ed331f1f9844c1b46fc9408dc4a5b44a5b5f9847e68c331edf9844d9b47e611f983331dc331dccc79331e1331e5f9834c1b0331e1f9834d9b06fc9008db4a5b04a5b1f9837e6887e60df982331d0331d0cc76331d5331d9f9824c1ac331d5f9824d9ac4a5adf9827e6847e609f981331c4331c4cc73331c9331c9f9814d9a84a5a9f9817e680331cdf9814c1a87e605f980331b86fc8408d84a5a44a5a5f9807e67c331b8cc70331bd331c1f9804c1a4331bdf9804d9a47e601f97f331ac331accc6d331b1331b5f97f4c1a06fc8008d74a5a04a5a1f97f7e678331b1f97f4d9a07e5fdf97e331a0331a0cc6a331a5331a9f97e4c19c331a5f97e4d99c6fc7c08d64a59c4a59df97e7e6747e5f9f97d3319433194cc67331993319df97d4c19833199f97d4d9986fc7808d54a5984a599f97d7e6707e5f5f97c3318833188cc643318d3318df97c4d99433191f97c4c1944a595f97c7e66c7e5f1f97b3317c3317ccc613318133181f97b4d99033185f97b4c1907e5edf97a3317033170cc5e3317533175f97a4d98c)
  (.lf 0))) (.nd (.nd (.lf
  0x422b0084a0217c422b4084b02100422b8084c0210445fc808630210c45fcc08640211045fd008650211445fd408660211845fd808670211c45fdc08680212045fe008690212445fe4086a0212845fe8086b0212c45fec086c0213045ff0086d0213445ff4086e0213845ff8086f0213c45ffc08700214046000087102144460040872021484600808730214c4600c08740215046010087502154460140876021584601808770215c4601c0878021604602008790216446024087a0216846028087b0216c4602c087c0217046030087d0217446034087e0217846038087f0217c548d00a83460c8548d40a84460cc548d80a85460d0548dc0a86460d4548e00a87460d8548e40a88460dc548e80a89460e0548ec0a8a460e4548f00a8b460e8548f40a8c460ec548f80a8d460f0548fc0a8e460f4549000a8f460f8549040a90460fc549080a91461005490c0a9246104549100a9346108549140a944610c549180a95461105491c0a9646114549200a9746118549240a984611c549280a99461205492c0a9a46124549300a9b46128549340a9c4612c549380a9d461305493c0a9e46134549400a9f46138460c91852461c9460cd1853461cd460d11854461d1)
  (.lf 0)) (.nd (.lf
  0x434a003194b7a84b7a991d0647bc6c2cd4e9c55a706c2d94e9f55a7c6c2f14ea555a9453a9403344358c4358d0d834368d4348c03144b7946c2e94ea355a8c6c3194eaf55abc55abd2de541434848d58f5f63df863df92de500a506c2bd4e9855a6055a612dee413d8413d92de54b76855a8d2dd941404414052df04b7944368c03344b7944b79591cb647a86c2c54e9a55a686c30d4eac55ab055ab12de241428414292dd94b7b86c31d4eb055ac053ac0033f435b8435b90d8e436b96c3154eae55ab8436b8033f4b7c055ab92de441430414312ddb4b7c055a692df0413e0434b8031f4b7c063e252df000a7c4b7c191d6647d46475991d5084b4084b4212f084b96c2e54ea255a8855a892dd841400434b4031e4b7bc6c3114ead55ab46c2c14e9955a6463e212def00a78084bd91d551b3c55a652def413dc53abc033e435b4435b50d8d436b555ab52de34142c4142d2dda4b7bc436b4033e4b7bc414012def4b7904b7bd91d5647d0084b991d557b3c6475591d4084a8084a8212c084ad084ad91d457b3863e1d2dee00a74084b191d451b3853ab8033d435b0435b10d8c436b1436b0033d4b7b86c2e14ea155a8455a852dd7413fc413fd2dee4b78c)
  (.lf 0)))

def shaGateTree112 : BTree :=
  .nd (.nd (.nd (.lf
  0x617b0025649b1c617b4025749b20617b8025849b24617bc025949b28617c0025a49b2c617c4025b49b30617c8025c49b34617cc025d49b38617d0025e49b3c617d4025f49b4049ac4102049b4549ac8102149b4949acc102249b4d49ad0102349b5149ad4102449b5549ad8102549b5949adc102649b5d49ae0102749b6149ae4102849b6549ae8102949b6949aec102a49b6d49af0102b49b7149af4102c49b7549af8102d49b7949afc102e49b7d49b00102f49b8149b04103049b8549b08103149b8949b0c103249b8d49b10103349b9149b14103449b9549b18103549b9949b1c103649b9d49b20103749ba149b24103849ba549b28103949ba949b2c103a49bad49b30103b49bb149b34103c49bb549b38103d49bb949b3c103e49bbd49b40103f49bc149c4402600408049c4802610408449c4c02620408849c5002630408c49c5402640409049c5802650409449c5c02660409849c6002670409c49c640268040a049c680269040a449c6c026a040a849c70026b040ac49c74026c040b049c78026d040b449c7c026e040b849c80026f040bc49c840270040c049c880271040c449c8c0272040c849c900273040cc49c940274040d049c980275040d4)
  (.lf
  0x3b64d2da04b66c134d40000599f6599f5afdf6bff8643b5468057a005f88d2d5e3d5f0134ec000059a1a59a19afe86c01c073081cc40730d073118edc4b6781362dafe85b93c6bfa1afe713618136184d881361d1361dafe75d93813621afe75b93859a15afe76c0186bf9dafe61360c1360c4d851361113615afe65b934134e8000059a1259a11afe66c01413611afe65d9346bf99afe513600134e4000059a0e59a0dafe56c010134dc000059a0659a05afe36c008134e0000059a0a59a09afe46c00c136004d821360513605afe55d93013609afe55b9306bf95afe4135f4135f44d7f135f9135fdafe45b92c135f9afe45d92c6bf91afe3135e8135e84d7c135ed135edafe35d928135f1afe35b9286bf8dafe2135dc135dc4d79135e1135e1afe25d924135e5afe25b9246bf89afe1135d0135d04d76135d5135d9afe15b920135d5afe15d920599fdafe16c0006bf85afe0135c4135c44d73135c9135cdafe05b91c5f8952d603d5f83d5f92da03d67907d09909100cc064245909007cf807cf81f4007cfd07cfd909000cbc4b6819090642bc07d01909057a0064241908f07cec07cec1f3d07cf107cf1908f00cb863bf12d9f009385f8912d5f3d5f4))
  (.nd (.lf
  0x45dd1179445ed145dd5179545ed545ed008450201445ed40846020182009880242008c2008c80245885d0cf999ed25286067b499ed10cf84020199ed167bc00cf8433e30cf8967bc14a175885c0cf899ed15885c5885c80245a7cc20090805f200802008080222008520084805f5a7c80cf8d9ed15285c67b459ed00cf78020159ed067bbc0cf7833e00cf7d0cf7d9ed05885867bbd4a165885858858805f201b0201b000005a7ca5a7c9cc92732c420229cc945e77473251cc93202182021880882021d20221cc935c7705a7cdcc93732c82021dcc935e7707324dcc922020c2020c808520211203adccd403224732d571df5e77c5c77dccd4733cc73351ccd3203982039880e82039d203a1ccd3032200ce159e9202a1467a499e910ce040ce0433830ce090ce099e9102a103f24c0a2402810606e80a443f2cc3f2cc0a043f34d028119e9167ac00ce0d9e915885467a459e900cdf80cdf833800cdfd0ce019e90588503f2480a230280c606e40a433f2c83f2c80a033f3490280d9e9067abc67ac1621502a1067abd621402a0c732d171de5e7785c779ccd3733c82039dccd34ac647334dccd22038c2038c80e52039120391ccd24ac6020395ccd20321c)
  (.lf 0))) (.nd (.nd (.lf
  0x277b9dd0762fcc274f9dc8c5cfd077231dc8b274e4274e49d3b274e9274e9dc8b5efcc272fc000027342273409ccf272e8272e89cbc272ed272ec9ccf5aff8590b89ccf273882738800005affa5aff9dc8b772a8772a973f35efcc5efcddd07774987741ddd06277a8277a89dec277ad277b1dd0660fc8277addd0662fc8274eddc8b5cfcc7722ddc8a274d8274d89d38274dd274dddc8a5efc8272f000002733e2733c9cb9272e0272e09cb9590b5590b49cb95aff45aff5dc8a772a4772a573f25efc85efc9dd067749477419dd052779c2779c9de9277a1277a5dd0560fc4277a1dd0562fc4274e1dc8a5cfc877229dc89274cc274cc9d35274d1274d1dc895efc4272e49cce272d4272d49cb7272d9272d89cce5aff0590b09cce273842738400005aff25aff1dc89772a0772a173f15efc45efc5dd057749077415dd0427790277909de62779527799dd0460fc027795dd0462fc0274d5dc895cfc477225dc88274c0274c09d32274c5274c5dc885efc0272dc00002733a273389ccd272c8272c89cb4272cd272cc9ccd5afec590ac9ccd273802738000005afee5afeddc887729c7729d73f05efc05efc1dd047748c77411dd0327784277849de327789)
  (.lf 0)) (.nd (.lf
  0xa485975b5810c65de9604301ac80a5f9979a5211065e6997990a5e40a5e4297b0a5e90a5e997995810c5810c660419840197880000198121981065df197781977865df581095ff9c06713e4003e40006313e4813e3800651018c4018c5975a65de465de5604201ac40a481975b01ac865d6d975a0a4700a470291e0a4750a479975a58108419cc047101198446800491011c45408804b144780447811200448814488004b1011c4011c5979865edc65edd4842581080a5ed97995210c65e6597980a5d80a5d829780a5dd0a5dd9798581085810865df5a0c01977c65dd197701977065dd581055408404b04477c4477d11ff4487d4487c04b0011c0419c80470011944467c0490011c0011c1979765ed865ed948415810465de1604101ac00a5e197985210865e6197970a5cc0a5cc29750a5d10a5d19797581040a475975a01ac465d6997590a4640a464291b0a4690a46d9759581045810465dd5a0bc5a0bdbdc46f78c19929bdc65e0201984000005a0c65a0c5bdc66f7946f719bdc5199181991866481991d19921bdc55c01c5a0c1bdc56f7901991dbdc55e01c6f715bdc41990c1990c66451991119911bdc45e01819915bdc45c0186f711bdc319900)
  (.lf 0)))

def shaGateTree113 : BTree :=
  .nd (.nd (.nd (.lf
  0x28b9ddfd103bf803bf9a9cf6a7b86a7b9650f044f86a839aa0d111541115444571115911159aa0d5943c042f9aa0d6a8b06a8b14d0f5943c6a741a9cf10fec10fec43fd10ff110ff5a9cf5943c5943ca9465b3645b365e38678e9478e9574d45f3505f351e4027908479009e4012a9a42a9a4aa6b2a9a92a9ade4016134c2a9a9e4016334c2a6e9e3865d35078e19e3852a6d42a6d4a9b72a6d92a6d9e3855f34c2a518a9522a5082a508a9442a50d2a50ca9525b36028b99dfd1000f877f45dfd028b8828b88a2e428b8d28b91dfd003bf45d14ddfd077fbc77fbc0efd000f41115daa0d5343c6a835aa0c111481114844541114d1114daa0c59438042f5aa0c6a8ac6a8ad4d0e5943810ff1a9cf044f86a73da9ce10fe010fe043fa10fe510fe9a9ce5943803bf5a9ce6a7b46a7b5650e044f459438a9522a5802a58000005b3625b361e38578e9078e9174d35f34c5f34de4017908079005e4002a9982a998aa682a99d2a9a1e400613482a99de400633482a6dde3855d34c78e15e3842a6c82a6c8a9b42a6cd2a6cde3845f3482a51000002a54a2a548a9412a5002a500a941594355d149dfcf77fb877fb80efc000f028b8ddfd0000f477f41dfcf28b7c)
  (.lf 0)) (.nd (.lf
  0x602e409433eac83eac809033eb490240d9ab066b3c66b3d611401e0c0b7782de00b77d0b7819ab0584500b8f59aef5245466bbd9aee0b8e00b8e02e3a0b8e50b8e59aee58450450c8072301c0c543d00743451c8451c91492452c9452c8074301c0c01c0d9aee66c3466c354914584505845072391c9181c91800005a3e25c3d5c5007147c71401c4ff1cc0c1cc0c73051cc117138170f45e3d05c3d1c4ff714781cc15c4ff026781cc11c4ff4a8bc713fdc4fe1cc001cc0073021cc051cc09c4fe026741cc05c4fe4a8b87136970ee5e3b85c3b9c4f9714605c3cdc4fe71474713f9c4fd1cbf41cbf472ff1cbf97137970f25e3c85c3c9c4fd714701cbfdc4fd026701cbf9c4fd4a8b4713f5c4fc1cbe81cbe872fc1cbed1cbf1c4fc0266c1cbedc4fc4a8b07137570f15e3c45c3c5c4fc7146c713f1c4fb1cbdc1cbdc72f91cbe11cbe5c4fb026681cbe1c4fb4a8ac7137170f05e3c05c3c1c4fb71468713edc4fa1cbd01cbd072f61cbd51cbd9c4fa026641cbd5c4fa4a8a87136d70ef5e3bc5c3bdc4fa71464713e9c4f91cbc41cbc472f31cbc91cbcdc4f9026601cbc9c4f94a8a4713e5c4f81cbb81cbb872f01cbbd1cbbdc4f84a8a07132570dd5e374)
  (.lf 0))) (.nd (.nd (.lf
  0x4e3e2092d82530824b6092c38c4838c48e31438c4d38c52092c4b35c38c4e092c4fbdc3898e08b14cbe0822c608b03897838978e2603897d3897e08b04e3dc0e1dda1f802d9c03399a1f7688586885962f702d98687e1a1f70e1cc0e1cc38750e1d10e1d5a1f758bdc23569d3c10359c74f05d3c023554235548d572355923559d3c04afdc233fdd3835eaf474e0dd382233ec233ec8cfd233f1233f5d3825caf0232a8000074dce74dcdd37223294232948ca72329923299d3725ab4058bddd372233842338400005ab425ab41d38274e8474e8572bc5eaf05caf1d3c074f7c74f7c0d664afdc4afde08b08233c8233d32f74e3dc4e3de092c8252c824b2092b38c3c38c3ce31138c4138c46092b4b35838c42092b4fbd83898208b04cbdc822c208af3896c3896ce25d389713897208af4e3d803395a1f6688546885562f602d940e1d1a1f702d98687dda1f60e1c00e1c038720e1c50e1c9a1f658bd82355dd3c00359874f01d3bf23548235488d542354d2354dd3bf4afd8233f1d3825eaf074e09d381233e0233e08cfa233e5233e9d3815caec2329c000074dca74dc88ca42328c2328c8ca458bd958bd88ca45ab3c5ab3dd38174e8074e8172bb5eaec)
  (.lf 0)) (.nd (.lf
  0x3072df2344d4846d4f005904a0844a085f2347c94c30731f2344bc847c8d1f2333071c3071cc1c93072130725f2334bc8030721f2334d48015a40569215a4515a45b51c4a0806d4ec058f4a0804a081f2337c9487c8cdf2323071030710c1c63071515a49b51c0163c6d471b51b15a3415a34568f15a3915a39b51b4a07c30719f2324bc7c4a07df2327c94430715f2324d47c7c8c9f2313070430704c1c33070930709f2314d4787c96d2f294d4a44bca5f27a7ca64308f9f27a4a8a47c9e9f279308e4308e4c23b308e9308e9f279504a07c9692f284d4a04bca1f2797ca60308edf2794a8a07c9e5f278308d8308d8c238308dd308e1f2784a89c308ddf2785049c7c9652f274d49c4bc9df2787ca5c7c9e1f277308cc7c59528cb4ebac4ebad281e4a0707c9612f264d4984bc99f2777ca58308ccc235308d1308d5f2774a898308d1f277504987c9ddf276308c0308c0c232308c5308c9f2764a894308c5f276504947c95d2f254d4944bc95f2767ca547c9d9f275308b4308b4c22f308b97c9592f244d4904bc91f2757ca50308bdf2754a890308b9f275504907c9d5f274308a8308a8c22c308ad308adf2745048c308b1f2744a88c7c9552f234d48c)
  (.lf 0)))

def shaGateTree114 : BTree :=
  .nd (.nd (.nd (.lf
  0x11da5ac335969c03e59ac336b1486b14965a7047585969de8732c8442c84400005b5b25b5b1e88f7a2b87a2b9756c5f5b05f5b1e90b7a4a87a42de90a2cc1c2cc1cb3092cc212cc25e90a615ac2cc21e90a635ac2c961e88f5d5b07a23de88e2c94c2c94cb2552c9512c951e88e5f5ac2c7c800007a1ce7a1cde8722c7b42c7b4b1ef2c7b92c7b9e8725b5ac2aec9e4bf00358792fde4be2aeb82aeb8abb02aebd2aec1e4be03e545d3ade4be79374793740f950035411f0dac715369c6b1c5ac7011ef811ef847c011efd11efdac705969804555ac706b23c6b23d4da65969811da1ac33047586b0cdac3211d9011d90476611d9511d99ac325969803e55ac326b1446b14565a60475459699e8722c8402c84000005b5ae5b5ade88e7a2b47a2b5756b5f5ac5f5ade90a7a4a47a429e9092cc102cc10b3062cc152cc19e909615a82cc15e909635a82c955e88e5d5ac7a239e88d2c9402c940b2522c9452c945e88d5f5a82c7bc00007a1ca7a1c9e8712c7a82c7a8b1ec2c7ad2c7ade8715b5a82aebde4be00354792f9e4bd2aeac2aeacabad2aeb12aeb5e4bd03e505d3a9e4bd79370793700f940035011f01ac70536986b1c1ac6f11eec11eec47bd11ef1)
  (.lf 0)) (.nd (.lf
  0x52641c78871e9c71e21c7871dccc1dccc77351dcd11dcd5c7875463c5263dc78771e981dcd1c7875663c71e1dc7861dcc01dcc077321dcc51dcc5c786566381dcc9c7865463852639c78671e9471e19c7851dcb41dcb4772f1dcb91dcbdc7855463452635c78571e901dcb9c7855663471e15c7841dca81dca8772c1dcad1dcadc784566301dcb1c7845463052631c78471e8c71e11c7831dc9c1dc9c77291dca11dca5c7835462c5262dc78371e881dca1c7835662c71e0dc7821dc901dc9077261dc951dc95c7825662852629c78271e841dc99c7825462871e09c7811dc841dc8477231dc891dc8dc7815462452625c78171e801dc89c7815662471e05c7801dc781dc7877201dc7d1dc7dc7805662052621c78071e7c1dc81c7805462071e01c77f1dc6c1dc6c771d1dc711dc75c77f5461c1dc71c77f5661c5261dc77f71e7871dfdc77e1dc601dc60771a1dc651dc69c77e546181dc65c77e5661852619c77e71e7471df9c77d1dc541dc5477171dc591dc5dc77d546141dc59c77d5661452615c77d71e7071df5c77c1dc481dc4877141dc4d1dc51c77c546101dc4dc77c5661052611c77c71e6c71df1c77b1dc3c1dc3c77111dc411dc45c77b5460c)
  (.lf 0))) (.nd (.nd (.lf
  0xf26da4b952ebc0f269a4b958ebc24d3dd75454de875d51d75324d2824d28934c24d2d24d2dd75356de452de5d75375dc875dc9537956de456de40b9e4275c75ded538256e0856e080b874278075e19538d56e3456e340b92427ac427800b9e02e4c427ac0b8902e7846f340bbe02e7875e21538f56e3c54e3c0bde47034470351c2d47135471340bde02e7802e79a4b969360692e5a4b80f2580f2583c980f25d0f261a4b852eb80f25da4b858eb824d31d75354de475d4dd75224d1c24d1c934924d2124d21d75256de052de1d75275dc475dc5537856de056de00b9d4275875de9538156e0456e040b864277c75e15538c56e3056e300b91427a84277c0b9d02e48427a80b8802e7446f300bbd02e7454e380bdd47030470311c2c47131471300bdd02e7402e75a4b86935c692e1a4b70f24c0f24c3c950f2510f255a4b752eb40f251a4b758eb424d25d75254de075d49d75124d1024d10934624d1524d15d75156ddc52dddd75175dc075dc1537756ddc56ddc0b9c4275475de5538056e0056e000b854277875e11538b56e2c56e2c0b90427a4427780b9c02e44427a40b8702e7046f2c0bbc02e7054e340bdc4702c4702d1c2b4712d4712c0bdc02e70)
  (.lf 0)) (.nd (.lf
  0x6e8c4063e4a33c4a33df5e47d80c7d80d2fcf4d73c7d795f5e431ce831e50c79631e5531ce8c73c31ced31cf1f5e44bf3c4bf3df6227d90431e55f6225073c31e59f6224ab3c7d889f62131e443160df4d14a55031609f4d14edd07d345f4d0315f8315f8c580315fd31601f4d04a54c315fdf4d04edcc4d5cdf4d07d3bc7d341f4cf315ec31cedf5e44d73c7d791f5e331cdc31cdcc73931ce131ce5f5e34bf384d5c529514edc4315ecc57d315f1315f5f4cf4a5484d5c9f4cf7d3b8315f1f4cf4edc87d33d29514edc54edc528bb062987d3b929524edc84edc928bc0629c7d3bd29534edcc4edcd28bd062a07d3c129544edd04edd128be062a47d3c529554edd44edd528bf062a87d3c929564edd84edd928c0062ac7d3cd29574eddc4eddd28c1062b07d3d129584ede04ede128c2062b47d3d529594ede44ede528c3062b87d3d9295a4ede84ede928c4062bc7d3dd295b4edec4eded28c5062c07d3f129604ee004ee0128ca062d47d3f929624ee084ee0928cc062dc7d40129644ee104ee1128ce062e40629928c44a3080629d28c54a30c062a128c64a310062a528c74a314062a928c84a318062ad28c94a31c062b128ca4a320062b528cb4a324)
  (.lf 0)))

def shaGateTree115 : BTree :=
  .nd (.nd (.nd (.lf
  0x4e8b60fcc83fac83f320fcb3b33c3b33cecd13b3413b3460fcb002ec3b3420fcb500b04e8b20fcb83fa883f2e0fca3b3303b330ecce3b3353b33a0fca002e83b3360fca500ac4e8ae0fca83fa483f2a0fc93b3243b324eccb3b3293b32e0fc9002e43b32a0fc9500a84e8aa0fc983fa083f260fc83b3183b318ecc83b31d3b3220fc8002e03b31e0fc8500a44e8a60fc883f9c83f220fc73b30c3b30cecc53b3113b3160fc7002dc3b3120fc7500a04e8a20fc783f9883f1e0fc63b3003b300ecc23b3053b30a0fc6002d83b3060fc65009c4e89e0fc683f9483f1a0fc53b2f43b2f4ecbf3b2f93b2fe0fc5002d43b2fa0fc5500984e89a0fc583f9083f160fc43b2e83b2e8ecbc3b2ed3b2f20fc4002d03b2ee0fc4500944e8960fc483f8c83f120fc33b2dc3b2dcecb93b2e13b2e60fc3002cc3b2e20fc3500904e8920fc383f8883f0e0fc23b2d03b2d0ecb63b2d53b2da0fc2002c83b2d60fc25008c4e88e0fc283f8483f0a0fc13b2c43b2c4ecb33b2c93b2ce0fc1002c43b2ca0fc1500884e88a0fc183f8083f060fc03b2b83b2b8ecb03b2bd3b2c20fc0002c03b2be0fc0500844e8860fc083f7c83f020fbf3b2ac3b2acecad3b2b13b2b60fbf002bc)
  (.lf 0)) (.nd (.lf
  0x338a1fab34f2187eacdfab2338904da15fab27eb4433890ce263389533895fab24f21433899fab24a9947eac9fab13388433884ce233388933889fab14f2103388dfab14a9907eac5fab03387833878ce203387d3387dfab04f20c33881fab04a98c4da0dfab07eb3c7eac1faaf3386c3386cce1d3387133871faaf4f20833875faaf4a9887eabdfaae3386033860ce1a3386533865faae4f20433869faae4a9844da05faae7eb347eab9faad3385433854ce17338593385dfaad4a98033859faad4f2007eab5faac3384833848ce143384d33851faac4a97c3384dfaac4f1fc4d9fdfaac7eb2c7eab1faab3383c3383cce113384133845faab4a97833841faab4f1f87eaadfaaa3383033830ce0e3383533839faaa4a97433835faaa4f1f44d9f5faaa7eb247eaa9faa93382433824ce0b3382933829faa94f1f03382dfaa94a9707eaa5faa83381833818ce083381d3381dfaa84f1ec33821faa84a96c4d9edfaa87eb1c7eaa1faa73380c3380cce053381133815faa74a96833811faa74f1e87ea9dfaa63380033800ce023380533805faa64f1e433809faa64a9644d9e5faa67eb147ea99faa5337f4337f4cdff337f9337f9faa54f1e0337fdfaa54a960)
  (.lf 0))) (.nd (.nd (.lf
  0x3798e05dc4e22c740200cfa4ae2c4ae2e05dc817ec817ed328b4e22c4e22e0658819dc81962065737c4c37c4cdf1537c5137c5606574b1a837c5206574fa283799205dc4ca2c8177205db3797c3797cde61379813798205db4e2287401c0cf94ae284ae2a05db817e8817e9328a4e2284e22a0657819d88195e065637c4037c40df1237c4537c4a06564b1a437c4606564fa243798605db4ca288176e05da3797037970de5e379753797605da4e224740180cf84ae244ae2605da817e4817e532894e2244e2260656819d48195a065537c3437c34df0f37c3937c3e06554b1a037c3a06554fa203797a05da4ca248176a05d93796437964de5b379693796a05d94e220740140cf74ae204ae2205d9817e0817e132884e2204e2220655819d081956065437c2837c28df0c37c2d37c3206544b19c37c2e06544fa1c3796e05d94ca208176605d83795837958de583795d3795e05d84e21c740100cf64ae1c4ae1e05d8817dc817dd32874e21c4e21e0654819cc81952065337c1c37c1cdf0937c2137c2606534b19837c2206534fa183796205d84ca1c8176205d73794c3794cde55379513795205d74e2187400c0cf54ae184ae1a05d7817d8817d932864e218)
  (.lf 0)) (.nd (.lf
  0x43904037200d4841550035200d1c43b04039200d4800d49933d64d7008c99933d57c8c08c9d933d51c8c64cf5933c08c8808c88232408c8d08c91933c51c884154c035100d1853c08039143a0043a010ea043b0143b00039100d4408c8d933c57c8800d45933c64d6c64cf1933b08c7c08c7c232108c8108c81933b57c8453c040390439fc439fd0e9f43afd41548035000d1443afc039000d4000d41933b64d6808c85933b51c8464ced933a08c7008c70231e08c7508c79933a51c8053c00038f439f808c75933a57c80439f90e9e43af943af8038f00d3c438f8036f00d3c00d3d933a64d6464ce9933908c6408c64231b08c6908c69933957c7c438f4036e00d3853bfc038e439f4439f50e9d43af541540034e00d0c43af4038e00d3800d39933964d6008c6d933951c7c64ce5933808c5808c58231808c5d08c61933851c7853bf8038d439f0439f10e9c43af143af0038d00d3408c5d933857c78438f0036d00d344153c034d00d0800d35933864d5c64ce1933708c4c08c4c231508c5108c51933757c7453bf4038c439ec439ed0e9b43aed438ec036c00d3043aec038c00d30415b8034c00d0400d31933764d5808c55933751c7464cdd933608c40)
  (.lf 0)))

def shaGateTree116 : BTree :=
  .nd (.nd (.nd (.lf
  0x412080ff3412894120c0ff44128d412100ff541291412140ff641295412180ff7412994121c0ff84129d412200ff9412a1412240ffa412a5412280ffb412a94122c0ffc412ad412300ffd412b1412340ffe412b5412380fff412b9537c1ea4a7a9a47a929ea492d5302d530b54e2d5352d539ea49557bc2d535ea49577bc537bdea497a9a07a925ea482d5242d524b54b2d5292d52dea48557b82d529ea48577b8537b9ea487a99c7a921ea472d5182d518b5482d51d2d521ea47557b42d51dea47577b4537b5ea477a9987a91dea462d50c2d50cb5452d5112d515ea46557b02d511ea46577b0537b1ea467a9947a919ea452d5002d500b5422d5052d509ea45557ac2d505ea45577ac537adea457a9907a915ea442d4f42d4f4b53f2d4f92d4fdea44557a82d4f9ea44577a8537a9ea447a98c7a911ea432d4e82d4e8b53c2d4ed2d4f1ea43557a42d4edea43577a4537a5ea437a9887a90dea422d4dc2d4dcb5392d4e12d4e5ea42557a02d4e1ea42577a0537a1ea427a9847a909ea412d4d02d4d0b5362d4d52d4d9ea415579c2d4d5ea415779c5379dea417a9807a905ea402d4c42d4c4b5332d4c92d4cdea40557982d4c9ea405779853799ea407a97c)
  (.lf 0)) (.nd (.lf
  0x5a72dcab672b5472ad9cab51f4a41f4a47d2b1f4a91f4a9cab55e6b81f38000005a72a5a729cab572b501f4adcab55c6b872ad5cab41f4981f4987d281f49d1f4a1cab45c6b41f49dcab45e6b45a725cab472b4c72ad1cab31f48c1f48c7d251f4911f495cab35c6b05a721cab372b481f491cab35e6b072acdcab21f4801f4807d221f4851f485cab25e6ac1f37c00005a71e5a71dcab272b441f489cab25c6ac72ac9cab11f4741f4747d1f1f4791f47dcab15c6a81f479cab15e6a81f37800005a71a5a719cab172b4072ac5cab01f4681f4687d1c1f46d1f471cab05c6a43f08809f30274c606240a133f1083f10809d33f1890c9299da902150676a59da80c9180c91832480c91d0c9219da8587900274d9da86771c0c91d9da80214c676a19da70c90c0c90c32450c9110c9159da75878c3f07409ee027383f07809ef0273c3f07c09f0027403f08009f1027443f08409f202748606100a0e3f0f4606140a0f3f0f8606180a103f0fc6061c0a113f100606200a123f1043f0f409ce3f1753f0f809cf3f1793f0fc09d03f17d3f10009d13f1813f10409d23f1851f2c800001f3461f3447cd01f2b41f2b47caf1f2b96771d61e40214c6781549e458790)
  (.lf 0))) (.nd (.nd (.lf
  0x696d94bd558f54696d54bd458f50696dd4bd658f58696e14bd758f5c75c280ddc4b1b403771a571696400f68da57158fb4695c5a5700f6780f6783da00f67d75c240ddb4b1b00376da5706963c0f681a57058fb00f67da5700316c695c1a56f0f66c75c200dda4b1ac03769a56f696380f66c3d9d0f6710f671a56f031680f675a56f58fac695bda56e0f6600f6603d9a0f6650f665a56e031640f669a56e58fa875c1c0dd94b1a803765a56e69634695b9a56d0f6540f6543d970f6590f659a56d031600f65da56d58fa475c080dd44b19403751a5696962075c180dd84b1a403761a56d69630695b5a56c0f6480f6483d940f64d0f651a56c58fa00f64da56c0315c75c140dd74b1a00375da56c6962c695b1a56b0f63c0f63c3d910f6410f641a56b031580f645a56b58f9c695ada56a0f6300f6303d8e0f6350f639a56a58f980f635a56a0315475c0c0dd54b19803755a56a69624695a9a5690f6240f6243d8b0f6290f62da56958f940f629a56903150695a5a5680f6180f6183d880f61d0f61da5680314c75c040dd34b1900374da5686961c0f621a56858f90695a1a5670f60c0f60c3d850f6110f615a56758f8c24abdd6df4b18475b7dd6de24aac)
  (.lf 0)) (.nd (.lf
  0x6f039bc0d18cfc6efb96fcf5df3c5bf3dbc0d6f0b018cfc634118d0118d05bc0d019e418d01bc0d4a4286f035bc0c18cf018cf0633e18cf518cf5bc0c4a42418cf9bc0c019e06efb56fce5df385bf39bc0c6f0ac6f031bc0b18ce418ce4633b18ce918ce9bc0b4a4206efad6fcc5df305bf31bc0a6f0a418cedbc0b019dc6f02dbc0a18cd818cd8633818cdd18cddbc0a4a41c18ce1bc0a019d86f029bc0918ccc18ccc633518cd118cd5bc09019d46efa96fcb5df2c5bf2dbc096f0a018cd1bc094a4186f025bc0818cc018cc0633218cc518cc5bc084a41418cc9bc08019d06efa56fca5df285bf29bc086f09c6f021bc0718cb418cb4632f18cb96ef9d6fc85df205bf25bc076f0985bf21bc066f09418cb9bc074a41018cbdbc07019cc6f01dbc0618ca818ca8632c18cad18cb1bc06019c818cadbc064a40c6f019bc0518c9c18c9c632918ca118ca5bc05019c418ca1bc054a4086ef996fc75df1c5bf1dbc056f0906f015bc0418c904d6e9f64b7d9a87d9a9299a4eee831f49f6564a69431f45f6564ef144d715f6567d9d47d959f65531f344d711f6557d9d031f34c7cf31f3931f3df6554a69031f39f6554ef107d955f65431f2831f28c7cc31f2d)
  (.lf 0)))

def shaGateTree117 : BTree :=
  .nd (.nd (.nd (.lf
  0x1063da8400430c6a101a83f1062c03a09a83f6a1781062c418d1063110631a83f0430810635a83f5924c6a0fda83e1062010620418a106256a18164950431010625a83e0430403a05a83e6a1746a17564920430410629a83e592486a0f96491043016a199649b043286a195649a043246a17d64940430c6a1796493043086a1896497043186a18d64980431c03a016491043006a191649904320592c0a3f4290142901400005b1f65b1f5e08c782ac782ad74755f1d45f1d5e1087849c78421e1072944429444a513294492944de107611d029449e107631d078231e08b2917429174a45f2917929179e08b5f1d028fd0a3e428f8c28f8ca3e4592bd592bca3e45b1f05b1f1e08b782a8782a974745f1d05f1d1e107784987841de1062943829438a5102943d29441e106611cc2943de106631cc2917de08b5d1d07822de08a2916829168a45c2916d2916de08a5f1cc28f90a3e228f8428f84a3e2592b9592b8a3e25b1ec5b1ede08a782a4782a574735f1cc5f1cde1067849478419e1052942c2942ca50d2943129435e105611c829431e105631c829171e08a5d1cc78229e0892915c2915ca4592916129161e0895f1c828f88a3e028f7c28f7ca3e0592b5)
  (.lf 0)) (.nd (.lf
  0x7f21930e84dba04c3a1fca57f3107f295fca4343e8343e8d0fc343ed343f1fca44af9c343edfca450b9c34291fc674dba07f19dfc663428034280d0a23428534289fc664c39c4a79dfc667f2147f21530e74db9c4c39dfca47f30c7f291fca3343dc343dcd0f9343e1343e5fca34af98343e1fca350b9834285fc664db9c7f199fc653427434274d09f342793427dfc654c3984a799fc657f2107f21130e64db984c399fca37f3087f28dfca2343d0343d0d0f6343d5343d9fca24af94343d5fca250b9434279fc654db987f195fc643426834268d09c3426d34271fc644c3944a795fc647f20c7f20d30e54db944c395fca27f3047f289fca1343c4343c4d0f3343c9343cdfca14af90343c9fca150b903426dfc644db947f191fc633425c3425cd0993426134265fc634c3904a791fc637f2087f20930e44db904c391fca17f3007f285fca0343b8343b8d0f0343bd343c1fca04af8c343bdfca050b8c34261fc634db907f18dfc623425034250d0963425534259fc624c38c4a78dfc627f2047f20530e34db8c4c38dfca07f2fc7f281fc9f343ac343acd0ed343b1343b5fc9f4af88343b1fc9f50b8834255fc624db8c7f189fc613424434244d09334249)
  (.lf 0))) (.nd (.nd (.lf
  0x383f607ba4fae438136073f4cae881cfe073e3812038120e04a3812538126073e4e2e4685794ab958ae42272dd1c8034a474721d1c7227182271889c82271d2271dd1c74aee4225c1d18a5e9fc74629d189225b0225b0896e225b5225b9d1895c9f8224200000224fe224fc893e2240c2240c89052241122410893e5aa5458ae4893e225342253400005aa565aa55d189746a0746a1727e5e9f85c9f9d1c774798747980d284aee44aee6073e81d7481d7532b94e2e44e2e607ba81f6481eea07b9383e4383e4e0fb383e9383ee07b94b260383ea07b94fae03812a073e4cae481cfa073d3811438114e047381193811a073d4e2e0685754ab858ae06847d62b802c9c22721d1c7034a07471dd1c62270c2270c89c52271122711d1c64aee0225b5d1895e9f874625d188225a4225a4896b225a9225add1885c9f4224140000224fa224f8893d224002240089022240522404893d5aa5058ae0893d225302253000005aa525aa51d1887469c7469d727d5e9f45c9f5d1c674794747940d274aee04aee2073d81d7081d7132b84e2e04e2e207b981f6081ee607b8383d8383d8e0f8383dd383e207b84b25c383de07b84fadc3811e073d4cae081cf6073c38108)
  (.lf 0)) (.nd (.lf
  0x2ee1deddd4b9982ee19eddd4d19849d99eddd7b7f07b775eddc2ee082ee08bb842ee0d2ee11eddc4b9942ee0deddc4d19449d95eddc7b7ec7b771eddb2edfc2edfcbb812ee012ee05eddb4b99049d85edd87b7dc2ee01eddb4d19049d91eddb7b7e87b76dedda2edf02edf0bb7e2edf52edf9edda4b98c2edf5edda4d18c49d8dedda7b7e47b769edd92ede42ede4bb7b2ede92edededd94b9882ede9edd94d18849d89edd97b7e07b765edd82edd82edd8bb782eddd2ede1edd84b9842edddedd84d1847b761edd72edcc2edccbb752edd12edd1edd74d1802edd5edd74b98049d81edd77b7d87b75dedd62edc02edc0bb722edc52edc5edd64d17c2edc9edd64b97c7b759edd52edb42edb4bb6f2edb92edbdedd54b97849d79edd57b7d02edb9edd54d1787b755edd42eda82eda8bb6c2edad2edadedd44d1742edb1edd44b97449d75edd47b7cc7b751edd32ed9c2ed9cbb692eda12eda1edd34d1702eda5edd34b97049d71edd37b7c87b74dedd22ed902ed90bb662ed952ed95edd24d16c2ed99edd24b96c49d6dedd27b7c47b749edd12ed842ed84bb632ed892ed8dedd14b9682ed89edd14d16849d69edd17b7c07b745edd02ed782ed78bb602ed7d)
  (.lf 0)))

def shaGateTree118 : BTree :=
  .nd (.nd (.nd (.lf
  0x1143c45111144111445aaab594cc03c89aaab6ab286ab29653304588594cde565796107961174f85f3e05f3e1e5e17980079785e5e02b6382b638ad902b63d2b641e5e0613dc2b63de5e0633dc2b37de5655d3e079595e5642b3682b368acdc2b36d2b36de5645f3dc2989de1b800188786e1e1b72988c2988ca6252989129895e1b703c845d1dde1b778758787580f2100184115adaae9534cc6aba5aae8115981159845681159d1159daae8594c804385aae86ac1c6ac1d4d32594c811441aaab045886aaadaaaa1143011430450e1143511439aaaa594c803c85aaaa6ab246ab25653204584594c9e5647960c7960d74f75f3dc5f3dde5e0797fc2b371e5645d3dc29891e1b7001845d1d80f2000180786dc0f2000181115a1aae8534c8043814d31594c46aba14d31594c511435aaaa0458403c816531045806aaa9653104581594c574f65f3d87959174f65f3d95f3d984f6633d87978184f6633d9633d80f593d1bc797fd84f7633dc633dc0f5a3d1c07980184f8633e0633e00f5b3d1c47980584f9633e4633e40f5c3d1c87980984fa633e8633e80f5d3d1cc7980d84fb633ec633ec0f5e3d1d07981184fc633f0633f00f5f3d1d47981584fd633f4)
  (.lf 0)) (.nd (.lf
  0x66f6d616801f5c1d6cc75b11d6c01d6c075b1585a1585a075b15a5301d6c5c6ac1d6b41d6b475af1d6b91cd89c55e544c8524c55131564c4715795131564c5564c4075641e3c7164151455651456514074a41e8c41e60075601d2c41e8c074101d580bf799bfa525a066fe99bf90bf640bf642fdb0bf6945414077601d585451c0796455144551515654561545614079601d5801d599bf9670606706149675859c0bf699bf95859c66f69616701f585859dc6ac1d7281d6bc000071ab21d6b9c6ac5a52c71ab1c6ab1d6a81d6a875ac1d6ad5a531c6c671b9471ba171305e4c071b9d712f5e4bc5c4c1c70771c981d9d5c707027681d9d1c7074a9ac71c1dc7061d9c01d9c076721d9c51d9c9c706027645c4bdc70671c941d9c5c7064a9a871c19c7051d9b41d9b4766f1d9b91d9bdc705027601d9b9c7054a9a471c15c7041d9a81d9a8766c1d9ad1d9adc7044a9a01d851c6c75e4b871b1dc6c61d8401d84076121d84571b95712d5e4b41d849c6c65c4b45c4b5c70471c8c1d9b1c7040275c71c11c7031d99c1d99c76691d9a17163d51445651056510074941e885653c075441eb456540075541eb841e54075301d2041e58075401d2441e5c075501d28)
  (.lf 0))) (.nd (.nd (.lf
  0x241bdd58b5cbe824065d57b240542405490172405924059d57b5ac3458cd5d57b2415c2415c00005ac365ac35d58b756a8756a972fa5ebe85cbe9d5c9757a0757a00da44b0d44b0d60a22829048290533354e4d44e4d60a9e82af482a7a0a9d3949439494e527394993949e0a9d4b4503949a0a9d4fcd0391da0a224ccd48288a0a21391c4391c4e473391c9391ca0a214e4d002c8da32a68d2468cada32a0e8b00e8b03a2e0e8b568d254b3458cd00e8b5a32a58cd024325d5c90369075725d5c8243102431090c62431524315d5c84b0d0241b9d58b5ebe87562dd58a241a8241a8906c241ad241b1d58a5cbe42405c0000755ee755ec90142404c2404c901458cd158cd090145ac305ac31d58a756a4756a572f95ebe45cbe5d5c87579c7579c0da34b0d04b0d20a21829008290133344e4d04e4d20a9d82af082a760a9c3948839488e5243948d394920a9c4b44c3948e0a9c4fccc391ce0a214ccd0828860a20391b8391b8e470391bd391be0a204e4cc0e8b9a32a52cd068ca9a3290e8a40e8a43a2b0e8a90e8a9a32958ccc02c89a32968d2068d214b3358ccc24319d5c80368c75721d5c7243042430490c32430924309d5c74b0cc241add58a5ebe4)
  (.lf 0)) (.nd (.lf
  0x6e06005e44a1d44a1d5f4567d1d47d1d52f754d5d431351f4574d5d87d15df4563134031340c4d23134531349f4564bdd44bdd5f4947d2cc314adf494505d47d251f4933149c3149cc529314a1314a1f493505d00622928744a1c86e05c05e34a1d04a1d1f4557d1d07d1d12f744d5d031345f4564d5d47d159f4553133431334c4cf313393133df4554bdd04bdd1f4937d2c8314a5f4934a9d07d24df4923149031490c5263149531499f4924a9cc16df0000059da259da1b7b96df606df616f385dce016e4db7ba5dce46dee9b7b916e3c16e3c5b9116e4116e45b7b95bce05bce1b7f76e0580622528734a1c431339f4554d5d06e05805e24a1cc16fa9b7f74a1cc4a1cdf4547d1cc7d1cd2f734d5cc7d155f4543132831328c4cc3132d31331f4544bdcc4bdcdf4927d2c431495f492505cc7d249f4913148431484c523314893148df4914a9c831489f491505c816fadb7f7017886dfddb7f616f9816f985be816f9d16c7d676659d9c652fd477257dc8652055f720108457dc9676616dec16dec000059d9e59d9db7b86df5c6df5d6f375dcdc3132df4544d5cc7d151f4533131c3131cc4c93132116e41b7b95dce06dee5b7b816e3016e305b8e16e35)
  (.lf 0)))

def shaGateTree119 : BTree :=
  .nd (.nd (.nd (.lf
  0x3873e08405138c4cb8e08408217c82102083f3872c3872ce1cd3873138736083f0024438732083f513884cb8a083f82178820fe083e3872038720e1ca387253872a083e0024038726083e513844cb86083e82174820fa083d3871438714e1c7387193871e083d0023c3871a083d513804cb82083d82170820f6083c3870838708e1c43870d38712083c002383870e083c5137c4cb7e083c8216c820f2083b386fc386fce1c13870138706083b0023438702083b513784cb7a083b82168820ee083a386f0386f0e1be386f5386fa083a00230386f6083a513744cb76083a82164820ea0839386e4386e4e1bb386e9386ee08390022c386ea0839513704cb72083982160820e60838386d8386d8e1b8386dd386e2083800228386de08385136c4cb6e08388215c820e20837386cc386cce1b5386d1386d6083700224386d20837513684cb6a083782158820de0836386c0386c0e1b2386c5386ca083600220386c60836513644cb66083682154820da0835386b4386b4e1af386b9386be08350021c386ba0835513604cb62083582150820d60834386a8386a8e1ac386ad386b2083400218386ae08345135c4cb5e08348214c820d208333869c3869ce1a9386a1)
  (.lf 0)) (.nd (.lf
  0x52155be726fa446f9c9be7119ca819ca8672c19cad19cadbe715615019cb1be71541506f9c5be7019c9c19c9c672919ca119ca5be705414c19ca1be705614c6f9c1be6f19c9019c90672619c9519c99be6f541486fa8d50675619c19c95be6f5614852149be6f6fa386fa85506556194521455051561446f9bd5051561455614404b641abc5619404aa41b0c41ae004b6012ac41b0c04a1012d8449940696012d85419c06b644a9444a9512c544b9544b9406b6012d8012d99895662d0662d148875821c0aa8d985c01bec66171985b0aa7c1a215bf2a600606fca9bf291a2001a20068821a2051a205bf296205c5e0598016620581a209bf296005c5e05dbf296fd206fca58016620596205806793be3c6fd2180176205c6205c067a3be406fd558024620906209006673be746fd598025620946209406683be783be740679019d03be78067a019d40aa7c2aa10aa810aa85985b5822c3e5a4089a019e86fd858030620c0600c008ba3e6243e624067a3e6a5019e9985b661e80aa81985b01be86616d985a0aa700aa702a9e0aa753e5a00899019e4600bc08b93e6203e62006793e6a10aa75985a01be4019e5985a661e40aa79985a582286616998590aa64)
  (.lf 0))) (.nd (.nd (.lf
  0x4adba05258151081511326e4e1b84c9ba0563816088158e0562376d0376d0ddb6376d5376da056200070376d60562511b43757a05254e1b88149605243756837568dd5c3756d3757205244c9b435ac2008b4f6388022e008a35ab035ab0d6ae35ab535aba008a4adb44de36008a802a4802a52b6d4f63473c140cdc4adb44adb605248150c8150d326d4e1b44c9b60562816048158a0561376c4376c4ddb3376c9376ce05610006c376ca0561511b03756e05244e1b48149205233755c3755cdd59375613756605234c9b035ab6008a4f6348022a008935aa435aa4d6ab35aa935aae00894adb04de320089802a0802a12b6c4f6304adb205238150881509326c4e1b04c9b2056181600815860560376b8376b8ddb0376bd376c2056000068376be0560511ac3756205234e1b08148e05223755037550dd56375553755a05224c9ac35aaa00894f63080226008835a9835a98d6a835a9d35aa200884adac4de2e00888029c8029d2b6b4f62c4adae05228150481505326b4e1ac4c9ae0560815fc81582055f376ac376acddad376b1376b6055f00064376b2055f511a83755605224e1ac8148a05213754437544dd53375493754e05214c9a835a9e00884f62c)
  (.lf 0)) (.nd (.lf
  0x6c771b1db143a0143a050ea143a5143a5b1db5d9f4143a9b1db5b9f46c76db1da143941439450e71439914399b1da5d9f01439db1da5b9f06c769b1d9143881438850e41438d14391b1d95b9ec06fdd8e5800814639618e5706fcc06fcc1bf506fd106fd58e574b554846958e57639d8848958f4f63db8639d92d55008103d74c04c44b5545f96804e43d7cc3d7cd2d553d84d4b555917d64670646715eb500d90075898f5100a1863d458f5007578075781d600757d075818f504b75853a58032543550435510d744365153a5403244354c4354d0d734364d4364c03244b7540839d91bd51adc646f591bc083880838820e40838d0838d91bc57ad80757d8f5000a144344c03044b75463d418f4f0756c0756c1d5d07571075758f4f4b75463db92dd500a104b75591bb647684365003254b7584345003054b7580839191bc51ad84b75991bc6476c646f191bb0837c0837c20e1083810821d917d57ad40838191bb57ad46476946b557ad457ad5b1c11430814308000059ac21420000006c70e646755eb600d946c70db1c2141ec141ec507d141f1141f1b1c259ac46476d46b657ad857ad9b1c21430c141f400006c70a6c709b1c1141e0141e0507a141e5)
  (.lf 0)))

def shaGateTree120 : BTree :=
  .nd (.nd (.nd (.lf
  0x7a3cc101d0057412aadae69538bc6b9a5ae6812a9812a984aa812a9d12a9dae68598b804775ae686ba1c6ba1d4e2e598b812941ae2b00af86b8adae2a12930129304a4e1293512939ae2a598b804075ae2a6b9246b925662e00af4598b9ebfc2e2402e24000005b7ce5b7cdec1b7b0e87b0e975f35f7cc5f7cdec977b2d87b25dec962e65c2e65cb9992e6612e665ec96617c82e661ec96637c82e3a1ec1b5d7cc7b06dec1a2e38c2e38cb8e52e3912e391ec1a5f7c82e20400007aff27aff1ebfb2e1f02e1f0b87e2e1f52e1f5ebfb5b7c82cb19e8d4005747a351e8d32cb082cb08b2c42cb0d2cb11e8d3040705d5c9e8d37a3c87a3c8101c0057012aa1ae68538b86b9a1ae6712a8c12a8c4aa512a9112a91ae67598b404771ae676ba186ba194e2d598b412935ae2a00af46b8a9ae2912924129244a4b129291292dae29598b404071ae296b9206b921662d00af0598b5ebfb2e23c2e23c00005b7ca5b7c9ec1a7b0e47b0e575f25f7c85f7c9ec967b2d47b259ec952e6502e650b9962e6552e659ec95617c42e655ec95637c42e395ec1a5d7c87b069ec192e3802e380b8e22e3852e385ec195f7c42e1f800007afee7afecb87b2e1e82e1e8b87b598b1)
  (.lf
  0x7ad990224b93884a79902264104641052e4e00bf44b9399060641fc64181905f07c2c07c2c1f0d07c3184a65901d640f007ad5902200bf464089902107ac407ac41eb307ac907acd90214b93407ac9902100bf084a7590216410064085902007ab884a719020640fc07ab81eb007abd07abd902000bec07ac190204b93064081901f07aac07aac1ead07ab107ab5901f4b92c84a69901e640f407ab1901f00be884a6d901f640f86407d901e07aa007aa01eaa07aa507aa9901e4b928640f52e4a00be44b929905c641ec07c31905f579b407c35905f519b4641012e4d00bf04b935905f641f86417d905e07c2007c201f0a07c2507c25905e579b084a59901a640e4640e52e4600bd407aa5901e00be464079901d07a9407a941ea707a9907a9d901d4b92407a99901d00be064075901c07a8807a881ea407a8d07a91901c4b92084a61901c640ec640ed2e4800bdc4b921905a641e4640fd2e4c00bec07c29905e519b04b931905e641f464179905d07c1407c141f0707c1907c1d905d519ac07c19905d579ac640f92e4b00be84b92d905d641f064175905c07c0807c081f0407c0d640f12e4900be04b925905b641e807c11905c519a807c0d905c579a8))
  (.nd (.lf
  0x5a7a9cbaf72f3872ebdcbae1fbf81fbf87f001fbfd1fc01cbae5c73c5a7a5cbae72f341fbfdcbae5e73c72eb9cbad1fbec1fbec7efd1fbf11fbf1cbad5e7381fac800005a7a21fbf5cbad5c7385a7a1cbad72f3072eb5cbac1fbe01fbe07efa1fbe51fbe9cbac5c7341fbe5cbac5e7341fa047e7f1f9f81f9f87e7f5881d027d99e2767918679196207021d867a114a075881c0cc1d9e28021dc678a19e270cc0c0cc0c33050cc110cc159e275881c5881c7e7f5a7985a79dcbac72f2c72eb1cbab1fbd41fbd47ef71fbd91fbd9cbab5e73072f4571d35e74c5a799cbab72f281ff01cc2e6074c5e74dcc2e73134730b9cc2d1feec1feec7fbd1fef11fef5cc2d6074872f3d71d15e74472f3971d05e74072f3571cf5e73c1fef1cc2d62748730b5cc2c1fee01fee07fba1fee51fee9cc2c607441fee5cc2c627445e745cc2c7312c730b1cc2b1fed41fed47fb71fed95e73dcc2a731241fed9cc2b627401feddcc2b607405e741cc2b73128730adcc2a1fec81fec87fb41fecd1fecdcc2a6273c72f3171ce5e7385e739cc29731201fed1cc2a6073c730a9cc291febc1febc7fb11fec11fec5cc29607381fec1cc2962738730a5cc281feb01feb07fae1feb5)
  (.lf 0))) (.nd (.nd (.lf
  0x80cae032a369b0369b0da6e369b5369ba032a4b40c4c80e032a80d2480d252d035100c698096403031c8699014c035900c26e7ddbc7039cc76f1ddbc626e6826e689b9c26e6d26e6ddbc64b40c26d11db895ef2476e25db8826d0026d009b4226d0526d09db885cf2026b489ad026b3c26b3c9ad05900d5900c9ad05af505af51db8876e9c76e9d73c85ef205cf21dbc676f9476f940e724b40c4b40e0e8c83aac83aad34034e80c4e80e0f0883c9c83c220f073ae8c3ae8ceba53ae913ae960f07002443ae920f07500083abd20e8c4d00c83a320e8b3abbc3abbceaf13abc13abc20e8b4e808369b6032a5100c80caa0329369a4369a4da6b369a9369ae03294b4084c80a032980d2080d212d0251008698056402031c4698fd4c025900826e71dbc6039c876f19dbc526e5c26e5c9b9926e6126e61dbc54b40826d05db885ef2076e21db8726cf426cf49b3f26cf926cfddb875cf1c26b409ace26b3426b349ace59009590089ace5af4c5af4ddb8776e9876e9973c75ef1c5cf1ddbc576f9076f900e714b4084b40a0e8b83aa883aa934024e8084e80a0f0783c9883c1e0f063ae803ae80eba23ae853ae8a0f06002403ae860f06500043abc60e8b4d008)
  (.lf 0)) (.nd (.lf
  0x4460511a1447054470404920114801149971d65cf065cf148235808c65bf9602301a485808dbcb5191341913400005a04a5a049bcce6f3b419225bcce5bfa06f3b56fe85dfa05bfa1bd0c6f4ac1938dbd0c022486f431bd0b193781937864e01937d1937dbd0b4a48819221bcce5dfa06f339bccd192101921064861921519219bccd5bf9c3bcd006100182c3e27c0630018405ff1806503e2fc3e2fc06103e37d0184196dd65bf065bf1602101a403bcd40611018303e2800631018445ff1c06513e3003e30006113e3810184596de65bf465bf5602201a443bccc060f018283e278062f0183c5ff14064f3e2f83e2f8060f3e3790183d96dc65bec65bed602001a3c0a31d971d5208c65c75971c0a3080a30828c40a30d0a1b196df01a4865b7d96de0a1a00a1a0286a0a1a50a1a596de01a440a1a996de5808865b7996dd0a1940a19428670a1990a19996dd01a400a19d96dd5808465b7596dc0a1880a30d971c580880a18828640a18d0a19196dc580804194c0451011180a311971c5208844500047101144540080491446004460111a0447014470004910114401145971c65cec65c71971b0a2fc0a2fc28c10a3010a305971b520840a301971b58084)
  (.lf 0)))

def shaGateTree121 : BTree :=
  .nd (.nd (.nd (.lf
  0x611f40f07408d8611f80f08408dc611fc0f09408e0612000f0a408e4612040f0b408e8612080f0c408ec6120c0f0d408f0612100f0e408f4612140f0f408f8612180f10408fc6121c0f1140900612200f1240904612240f1340908612280f144090c6122c0f1540910612300f1640914612340f1740918612380f184091c6123c0f1940920612400f1a40924612440f1b40928612480f1c4092c6124c0f1d40930612500f1e40934612540f1f40938408bc0ec04093d408c00ec140941408c40ec240945408c80ec340949408cc0ec44094d408d00ec540951408d40ec640955408d80ec740959408dc0ec84095d408e00ec940961408e40eca40965408e80ecb40969408ec0ecc4096d408f00ecd40971408f40ece40975408f80ecf40979408fc0ed04097d409000ed140981409040ed240985409080ed3409894090c0ed44098d409100ed540991409140ed640995409180ed7409994091c0ed84099d409200ed9409a1409240eda409a5409280edb409a94092c0edc409ad409300edd409b1409340ede409b5409380edf409b953341e1467859478519e145295ac295aca56d295b1295b5e1455533c295b1e1455733c5333de1457859078515e144295a0)
  (.lf 0)) (.nd (.lf
  0x23899a33669486694960f301d880238d9a346694c6694d60f401d8c0b4b99a3501d90668d59a340b4a80b4a82d2c0b4ad0b4b19a34583d00b4ad9a3401d8c668d19a330b49c0b49c2d290b4a10b4a59a33583cc0b6099a71583cc1c251c3af5e2e8583d1c3ae70f3470ebdc3ae1c2401c24070921c2451c245c3ae5e2e41c249c3ae5c2e470eb9c3ad1c2341c234708f1c2391c23dc3ad5c2e0583cdc3ad70f3070f3170b85e2e05c2e1c3eb710287102809624a7cc3e9400901023846025c09213e9c03e9c008e13ea410b4a19a3301d88668cd9a320b4900b4902d260b4950b4999a32583c80b4959a3201d84023859a3266944668c960f101d8144f40070101b84543480721450404504114304514145140072101b8401b859a7066a3c66a3d48f2583c80b60d9a71523cc669c59a700b5f80b5f82d800b5fd0b5fd9a70583c80b6019a70523c8669c148f1583c53e93c0900023806025809203e9bc3e9bc08e03ea3d44f3c070001b805434407204503c4503d142f4513d4513c072001b8001b8148f1583c40238160f101d806694560f201d841c239c3ad5e2e070eb5c3ac1c2281c228708c1c22d1c22dc3ac5e2dc1c231c3ac5c2dc583c9c3ac70f2c)
  (.lf 0))) (.nd (.nd (.lf
  0x3882208734fb603856207f84cb6481fe207f73854c3854ce155385513855207f74e3606866d62d802d1c687654ad858b6022eadd2bf0352074afdd2be22e9822e988ba822e9d22e9dd2be4af6022d41d2815ea7874a05d28022d3022d308b4e22d3522d39d2805ca7422b48000022c4a22c488b1122b3422b348acf22b3922b388b115aad058b608b1122c9c22c9c00005aad25aad1d28074a7c74a7d729d5ea745ca75d2be74b7474b740d474af604af6207f7820588205932d84e3604e362087382248821ce08723881038810e206388153881a08724b2dc3881608724fb5c3855607f74cb6081fde07f63854038540e152385453854607f64e35c02b19a1b9687606866962d702d18687614ad758b5c0e069a1b958b5c22ea1d2be0351c74af9d2bd22e8c22e8c8ba522e9122e91d2bd4af5c22d35d2805ea7474a01d27f22d2422d248b4b22d2922d2dd27f5ca7022b3c000022c4622c448b1022b2822b288acc22b2d22b2c8b105aacc58b5c8b1022c9822c9800005aace5aacdd27f74a7874a79729c5ea705ca71d2bd74b7074b700d464af5c4af5e07f6820548205532d74e35c4e35e087282244821ca08713880438804e203388093880e08714b2d8)
  (.lf 0)) (.nd (.lf
  0x4bac9f0357c1502fb3df0354a6c87c0d529b1502c5502c5299404b907c15129b2502c8502c9299504b947c15529b3502cc502cd299604b987c15929b4502d0502d1299704b9c7c15d29b5502d4502d5299804ba07c16129b6502d8502d9299904ba47c16529b7502dc502dd299a04ba87c16929b8502e0502e1299b04bac7c16d29b9502e4502e5299c04bb07c17129ba502e8502e9299d04bb47c17529bb502ec502ed299e04bb87c17929bc502f0502f1299f04bbc7c17d29bd502f4502f529a004bc07c18129be502f8502f929a104bc47c18529bf502fc502fd29a204bc87c18929c0503005030129a304bcc7c18d29c1503045030529a404bd07c19129c2503085030929a504bd47c19529c35030c5030d29a604bd87c19929c4503105031129a704bdc7c19d29c5503145031529a804be07c1a129c6503185031929a904be47c1a529c75031c5031d29aa04be87c1a929c8503205032129ab04bec7c1ad29c9503245032529ac04bf07c1b129ca503285032929ad04bf47c1b529cb5032c5032d29ae04bf87c1b929cc503305033129af04bfc7c1bd29cd503345033529b004c0004b9129a34a66004b9529a44a66404b9929a54a66804b9d29a64a66c)
  (.lf 0)))

def shaGateTree122 : BTree :=
  .nd (.nd (.nd (.lf
  0x79965556e575b8575b8113342f3079969556f575bc575bc113442f347996d5570575c0575c0113542f3842ebc112d0448842ec0112e0448c42ec4112f0449042ec811300449442ecc11310449842ed011320449c42ed41133044a042ed81134044a442edc1135044a842ee01136044ac42ee41137044b042ee81138044b442eec1139044b842ef0113a044bc42ef4113b044c042ef8113c044c442efc113d044c842f00113e044cc42f04113f044d042f081120044d442f0c1121044d842f101122044dc42f141123044e042f181124044e442f1c1125044e842f201126044ec42f241127044f042f281128044f442f2c1129044f842f30112a044fc42f34112b0448042f38112c044844853c11400448048540114104484485441142044884854811430448c4854c11440449048550114504494485541146044984855811470449c4855c1148044a0485601149044a448564114a044a848568114b044ac4856c114c044b048570114d044b448574114e044b848578114f044bc4857c1150044c0485801151044c4485841152044c8485881153044cc4858c1154044d0485901155044d4485941156044d8485981157044dc4859c1158044e0485a01159044e4)
  (.lf 0)) (.nd (.lf
  0x1e0d5c7fe027e41e0d1c7fe4aa285c53dc7fe7207471ff9c7fd1e0c01e0c078321e0c51e0c9c7fd027e01e0c5c7fd4aa245c539c7fd7207071ff5c7fc1e0b471d598122624886248809653c26c624d009773c2b43c26c0977025c83ed980997025dc604b409b73ee183ee1809773ee99025dd9c386715c1df5dc7bf5e5380c2559c7752624671dd9c760c2400c24030920c2450c2459c76586201d49dc6675454c7199dc6661d4881d48875241d48d52549c66671a1471a155152565481d48dc6665654856548077741ec071a39515b5656c5656c076041ee471a6551665659856598076b41f1041ee4077701db041f10076201ddc45598079701ddc545a007b7456984569915c6457994579807b701ddc01ddd9c7667254672554988586200c0e99c3901fe0670e59c380c0d80c0d830380c0dd0c0e19c38586206715d618801fdc5862077821de381de3800005a5ae1ddb400001de0e1de0c77821dda01dda0776a1dda51dda477825a5ac5a5adc7be71f7471f75714d5e53471efdc7be1df4c1df4c77d51df511df55c7be5c5341e0b4782f1e0b91e0bdc7fc027dc1e0b9c7fc4aa205c535c7fc7206c71ff1c7fb1e0a81e0a8782c1e0ad1e0b1c7fb027d8)
  (.lf 0))) (.nd (.nd (.lf
  0x3fdd00d653fe513fdd40d663fe553fdd80d673fe593fddc0d683fe5d3fde00d693fe613fde40d6a3fe65035a9a3eb690280ed41a3eb02fa80ed45a3eb58dec68fada3ea0ed300ed303b4e0ed350ed35a3ea02fa40ed39a3ea58de8035a5a3ea69024035a1a3e96902068fa9a3e90ed240ed243b4b0ed290ed2da3e958de40ed29a3e902fa068fa5a3e80ed180ed183b480ed1d0ed1da3e802f9c0ed21a3e858de00359da3e86901c68fa1a3e70ed0c0ed0c3b450ed110ed11a3e702f980ed15a3e758ddc03599a3e76901868f9da3e60ed000ed003b420ed050ed05a3e602f940ed09a3e658dd803595a3e66901468f99a3e50ecf40ecf43b3f0ecf90ecfda3e558dd40ecf9a3e502f9068f95a3e40ece80ece83b3c0eced0eceda3e402f8c52dc1d660759fc75981d65f247242472491cb247292472dd65f54dbc24729d65f56dbc52dbdd65f759f87597dd65e247182471891c82471d24721d65e54db82471dd65e56db852db9d65e759f475979d65d2470c2470c91c52471124715d65d54db424711d65d56db452db5d65d759f075975d65c247002470091c22470524709d65c54db024705d65c56db052db1d65c759ec75971d65b246f4246f491bf246f9)
  (.lf 0)) (.nd (.lf
  0x174ec000059e22173e5b8b0173d4173d45cf7173d9173d9b8b059e2059e21b8c16e3806e3816f595dd645bd65b8ff6e4786e47806034a2504a251f50f7d4b87d43df50e3176031760c5da3176531769f50e4be4c095b594df57e4c3de4405a2016085fce005c23dec43dec405823df450160994df653f8653f95f9301108173dc00006e2c26e2c16786173d043ec403e200f0853dcc040243fc443fc51011440c5440c4040200f0800f09951d654f009729951e51e5065479951d097140971425c70971909719951d57e4c654f1479357e4c173d1678657e4d57e4d678659e1c59e1db8c06e37c17541b8c15dd646e305b8c017530175305d4e1753517539b8c05bd600627d28934a244176adb8ff0180c6e3fdb8fe17698176985da81769d1769db8fe4a24c6e37d6f585dd605bd61b8fe6e4746e47406024a24c4a24df50e7d4b431765f50e4d64c17535b8c05dd606e301b8bf17524175245d4b175297d439f50d31754095b194df011086537d94de095a0095a0256a095a53de4005a1016045fcdc05c13dec03dec005813df410160594de653f4653f55f920110443ec003e100f0453dc8040143fc043fc11010440c1440c0040100f0400f05951c654ec)
  (.lf 0)))

def shaGateTree123 : BTree :=
  .nd (.nd (.nd (.lf
  0x516d0014605dbc8359c0164516d4516d4014705dc0835a00165516d8516d8014805dc4835a40166516dc516dc014905dc8835a80167516e0516e0014a05dcc835ac0168516e4516e4014b05dd0835b00169516e8516e8014c05dd4835b4016a516ec516ec014d05dd8835b8016b516f0516f0014e05ddc835bc016c516f4516f4014f05de0835c0016d516f8516f8015005de4835c4016e516fc516fc015105de8835c8016f5170051700015205dec835cc01705170451704015305df0835d001715170851708015405df4835d401725170c5170c015505df8835d801735171051710015605dfc835dc01745171451714015705e00835e001755171851718015805e04835e401765171c5171c015905e08835e801775172051720015a05e0c835ec01785172451724015b05e10835f001795172851728015c05e14835f4017a5172c5172c015d05e18835f8017b5173051730015e05e1c835fc017c5173451734015f05e2005db001520051c05db401530052005db801540052405dbc01550052805dc001560052c05dc401570053005dc801580053405dcc01590053805dd0015a0053c05dd4015b0054005dd8015c0054405ddc015d0054805de0015e0054c)
  (.lf 0)) (.nd (.lf
  0x6fe49507e561f86fe3d507b561ec6fe255075561d46fe195072561c8521c55071561c46fd9d5071561c5561d4069a41b4c561f8068341b7056224068e41b9c41b70069a01a3c41b9c068501a6844b2406ba01a685422c06da44c2444c25132944d2544d2406da01a6801a699915664d00aeb99915582ac6645599140aea80aea82bac0aead0aead9914582a80aeb19914522a86645199130ae9c0ae9c2ba90aea10aea59913522a40aea19913582a46644d99120ae900ae902ba60ae950ae999912522a00ae959912582a0561c8069741b40561ec068041b6456218068b41b9041b64069701a3041b90068201a5c44b1806b701a5c5422006d744c1844c19132644d1944d1806d701a5c01a5d9912664c4561c4069641b3c56210068941b8856214068a41b8c5623c069441bb456240069541bb841b54069301a2041b58069401a2441b5c069501a2841b60069601a2c41b88068001a5441b8c068101a5844b0c06b401a5044b1006b501a5444b1406b601a585421406d444c0c5421806d544c105421c06d644c1444c0d132344d0d44d0c06d401a5001a51990f664b86644999110ae840ae842ba30ae890ae8999115829c44c11132444d1144c15132544d15)
  (.lf 0))) (.nd (.nd (.lf
  0x3707cdc213708137082045b4e0f84acfa045b811e8811e9323e4e0f84e0fa04d7813d88135e04d63734037340dcd2373453734a04d64b0743734604d64f8f437086045b4c8f88116e045a3707037070dc1e3707537076045a4e0f4737f40cac4acf44acf6045a811e4811e5323d4e0f44e0f604d6813d48135a04d53733437334dccf373393733e04d54b0703733a04d54f8f03707a045a4c8f48116a04593706437064dc1b370693706a04594e0f0737f00cab4acf04acf20459811e0811e1323c4e0f04e0f204d5813d08135604d43732837328dccc3732d3733204d44b06c3732e04d44f8ec3706e04594c8f08116604583705837058dc183705d3705e04584e0ec737ec0caa4acec4acee0458811dc811dd323b4e0ec4e0ee04d4813cc8135204d33731c3731cdcc9373213732604d34b0683732204d34f8e83706204584c8ec8116204573704c3704cdc15370513705204574e0e84acea0457811d8811d9323a4e0e84e0ea04d3813c88134e04d23731037310dcc6373153731a04d24b0643731604d24f8e43705604574c8e88115e04563704037040dc12370453704604564e0e44ace60456811d4811d532394e0e44e0e604d2813c48134a04d137304)
  (.lf 0)) (.nd (.lf
  0x88b5928a00ee4088b9928a57c28013e5928a64aa464a299289088a4088a4222b088a95fab405373da186cdf17ea261a883da1804f73da996c10c04f749e2061a8804e53b86c61ad004f73b8b43b86c04f7013c83d9980517013dc013dd928864a9c5fab805383da1c3da1c04f83da9d6c11004f849e2461ad404f83b8b8013e1928964aa0088a9928900ee0088ad928957c2464a259288088980889822280889d088a1928857c200889d928800edc64a2192870888c0888c22250889108891928700ed85faac05353da103da1004f53da915faa805343da0c3da0c04f43da8d6cde57e9f61a7c6c10004f449e1461a7c04e23b86061ac404f43b8a83b86004f4013bc3d98c0514013d0013d1928564a906c10804f649e1c6cded7ea161a846cde97ea061a805fab005363da143da1404f63da956c10404f549e1861a8004e33b86461a8404e43b86861ac804f53b8ac61acc04f63b8b03b86404f5013c03b86804f6013c43d9940516013d8013d9928764a9808895928757c1c64a1d9286088800888022220888508889928657c18013d5928664a9408885928600ed464a1992850887408874221f088790887d928557c1408879928500ed064a15928408868)
  (.lf 0)))

def shaGateTree124 : BTree :=
  .nd (.nd (.nd (.lf
  0x2b52de5a903ea003ea1aca16b3006b30165b9047a012141ace0536e86b381acdf1212c1212c484d1213112131acdf596e4045a1acdf6b3f86b3f94db9596e411fd5aca2047a46b289aca111fc411fc447f311fc911fcdaca1596e4596e4b3915b5f85b5f9e9797a6607a661757e5f5f85f5f9e9f57a8507a7d5e9f42d2b42d2b4b4af2d2b92d2bde9f4615f42d2b9e9f4635f42cff9e9795d5f87a5e5e9782cfe42cfe4b3fb2cfe92cfe9e9785f5f42ce44b38f2ce382ce38b38f596e15d3f5e5a87971c7971c0fa70039c2b529e5a9003a0796a5e5a82b5182b518ad482b51d2b521e5a803e9c03e9daca06b2fc6b2fd65b80479c12135acdf536e46b37dacde1212012120484a1212512125acde596e00459dacde6b3f46b3f54db8596e011fc9aca1047a06b285aca011fb811fb847f011fbd11fc1aca0596e0596e0b38f5b5f45b5f5e9787a65c7a65d757d5f5f45f5f5e9f47a84c7a7d1e9f32d2a82d2a8b4ac2d2ad2d2b1e9f3615f02d2ade9f3635f02cfede9785d5f47a5e1e9772cfd82cfd8b3f82cfdd2cfdde9775f5f02ce3cb3cb2ce2c2ce2cb38d2ce312ce30b3cb5b5f02b51de5a80039c796a1e5a72b50c2b50cad452b5112b515e5a703e98)
  (.lf 0)) (.nd (.lf
  0x1e311c86e566781e315c86e5467852679c86e72234721b9c86d1e3001e30078c21e3051e305c86d5667452675c86d722301e309c86d54674721b5c86c1e2f452671c86c7222c1e2f478bf1e2f91e2f9c86c566701e2fdc86c54670721b1c86b1e2e81e2e878bc1e2ed1e2edc86b5666c1e2f1c86b5466c5266dc86b72228721adc86a1e2dc1e2dc78b91e2e11e2e1c86a566681e2e5c86a5466852669c86a72224721a9c8691e2d01e2d078b61e2d51e2d9c869546641e2d5c8695666452665c86972220721a5c8681e2c41e2c478b31e2c91e2c9c868566601e2cdc8685466052661c8687221c721a1c8671e2b81e2b878b01e2bd1e2bdc8675665c5265dc867722181e2c1c8675465c7219dc8661e2ac52659c866722141e2ac78ad1e2b11e2b1c866566581e2b5c8665465872199c8651e2a01e2a078aa1e2a51e2a5c865566541e2a9c8655465452655c8657221072195c8641e2941e29478a71e2991e299c864566501e29dc8645465052651c8647220c72191c8631e2881e28878a41e28d1e291c8635464c5264dc863722081e28dc8635664c7218dc8621e27c1e27c78a11e2811e281c862566487220d5194566507221151955665472221519956664)
  (.lf 0))) (.nd (.nd (.lf
  0x4c72a01bd80770807712cca50f2802ee5a5306953c6953d4bca58f280f50da53152f2c694c5a5300f4f80f4f83d400f4fd0f4fda53058f28260a5d9de038e876779d9dd260902609098262609526095d9dd4b32825f39d9a05ee4076681d99f25f2825f2897cc25f2d25f31d99f5ce3c25d54000025db625db4975225d4425d44975258f2958f2897525ae785ae79d99f766f8766f9738f5ee3c5ce3dd9dd767f0767f00e394b3284b32a0d1f834f8834f933ca4e7284e72a0d9b836e88366e0d9a3a6703a670e99e3a6753a67a0d9a001603a6760d9a4ff243a3b60d1f4cf288347e0d1e3a3a03a3a0e8ea3a3a53a3a60d1e4e7243619a01bd50f28806f601bc3618836188d8643618d3619201bc4b3244c72601bc8076c8076d2cc950f2402ee1a52f69538695394bc958f240f501a53052f28694c1a52f0f4ec0f4ec3d3d0f4f10f4f1a52f58f2426099d9dd038e476775d9dc260842608498232608926089d9dc4b32425f2dd99f5ee3c7667dd99e25f1c25f1c97c925f2125f25d99e5ce3825d48976c25d3825d38975025d3d25d3c976c5ae7458f24976c25df825df800005ae765ae75d99e766f4766f5738e5ee385ce39d9dc767ec767ec0e384b324)
  (.lf 0)) (.nd (.lf
  0x7d715298f4eebc4eebd28e24a3807d71929904eec04eec128e34a3846ecc406564a39c4a39df6967dad46ece4065e4a3bc4a3bdf69e7daf46ece8065f4a3c04a3c1f69f7daf87da7df69e3212032120c84a3212532129f69e4bfbc32125f69e4d7bc7da79f69d3211432114c847321193211df69d4bfb832119f69d4d7b86ece0065d4a3b84a3b9f69d7daf07da75f69c3210832108c8443210d32111f69c4bfb43210df69c4d7b46ecdc065c4a3b44a3b5f69c7daec7da71f69b320fc320fcc8413210132101f69b4d7b032105f69b4bfb04a3b1f69b7dae87da6df69a320f0320f0c83e320f5320f5f69a4d7ac320f9f69a4bfac4a3adf69a7dae47da69f699320e4320e4c83b320e9320edf6994bfa8320e9f6994d7a84a3a9f6997dae07da65f698320d8320d8c838320dd4a3a5f6987dadc320e1f6984bfa4320ddf6984d7a47da61f697320cc320ccc835320d1320d5f6974bfa0320d1f6974d7a04a3a1f6977dad87da5df696320c0320c0c832320c5320c5f6964d79c320c9f6964bf9c7da59f695320b4320b4c82f320b9320bdf6954bf98320b9f6954d7986ecc006554a3984a399f6957dad07da55f694320a8320a8c82c320ad6ecb806534a390)
  (.lf 0)))

def shaGateTree125 : BTree :=
  .nd (.nd (.nd (.lf
  0x27f749fdf27f7927f7dde3e5518027f79de3e5718053181de3e77974778f9de3d27f6827f689fdc27f6d27f71de3d5517c27f6dde3d5717c5317dde3d77970778f5de3c27f5c27f5c9fd927f6127f65de3c5517827f61de3c5717853179de3c7796c778f1de3b27f5027f509fd627f5527f59de3b5517427f55de3b5717453175de3b77968778edde3a27f4427f449fd327f4927f4dde3a5517027f49de3a5717053171de3a77964778e9de3927f3827f389fd027f3d27f41de395516c27f3dde395716c5316dde3977960778e5de3827f2c27f2c9fcd27f3127f35de385516827f31de385716853169de387795c778e1de3727f2027f209fca27f2527f29de375516427f25de375716453165de3777958778ddde3627f1427f149fc727f1927f1dde365516027f19de365716053161de3677954778d9de3527f0827f089fc427f0d27f11de355515c27f0dde355715c5315dde3577950778d5de3427efc27efc9fc127f0127f05de345515827f01de345715853159de347794c778d1de3327ef027ef09fbe27ef527ef9de335515427ef5de335715453155de3377948778cdde3227ee427ee49fbb27ee927eedde325515027ee9de325715053151de3277944)
  (.lf 0)) (.nd (.lf
  0x7eee530b54dad44c2d5fbd87efdc7ef61fbd733ecc33ecccfb533ed133ed5fbd74aed033ed1fbd750ad033d75fb9a4dad47ee69fb9933d6433d64cf5b33d6933d6dfb994c2d04a6d1fb997eee07eee130b44dad04c2d1fbd77efd87ef5dfbd633ec033ec0cfb233ec533ec9fbd64aecc33ec5fbd650acc33d69fb994dad07ee65fb9833d5833d58cf5833d5d33d61fb984c2cc4a6cdfb987eedc7eedd30b34dacc4c2cdfbd67efd47ef59fbd533eb433eb4cfaf33eb933ebdfbd54aec833eb9fbd550ac833d5dfb984dacc7ee61fb9733d4c33d4ccf5533d5133d55fb974c2c84a6c9fb977eed87eed930b24dac84c2c9fbd57efd033d51fb974dac84a6c530b14dac47ee5d30b14dac54c2c52bb150ac47ef552bb150ac550ac52b94052d07efd12bb250ac850ac92b95052d47efd52bb350acc50acd2b96052d87efd92bb450ad050ad12b97052dc7efdd2bb550ad450ad52b98052e07efe12bb650ad850ad92b99052e47efe52bb750adc50add2b9a052e87efe92bb850ae050ae12b9b052ec7efed2bb950ae450ae52b9c052f07eff12bba50ae850ae92b9d052f47eff52bbb50aec50aed2b9e052f87eff92bbc50af050af12b9f052fc7effd2bbd50af4)
  (.lf 0))) (.nd (.nd (.lf
  0x37dd8df7837ddd37dde06984e2b44aeb6069881adc81add32ad4e2b44e2b6071481ccc81c5207133809c3809ce029380a1380a607134b230380a207134fab037de206984cab481a62069737dcc37dccdf7537dd137dd206974e2b04aeb2069781ad881ad932ac4e2b04e2b2071381cc881c4e07123809038090e026380953809a07124b22c3809607124faac37dd606974cab081a5e069637dc037dc0df7237dc537dc606964e2ac4aeae069681ad481ad532ab4e2ac4e2ae071281cc481c4a07113808438084e023380893808e07114b2283808a07114faa837dca06964caac81a5a069537db437db4df6f37db937dba06954e2a84aeaa069581ad081ad132aa4e2a84e2aa071181cc081c4607103807838078e0203807d3808207104b2243807e07104faa437dbe06954caa881a56069437da837da8df6c37dad37dae06944e2a44aea6069481acc81acd32a94e2a44e2a6071081cbc81c42070f3806c3806ce01d3807138076070f4b22038072070f4faa037db206944caa481a52069337d9c37d9cdf6937da137da206934e2a04aea2069381ac881ac932a84e2a04e2a2070f81cb881c3e070e3806038060e01a380653806a070e4b21c38066070e4fa9c)
  (.lf 0)) (.nd (.lf
  0x160945827160991609db5e05bc3c16099b5e05dc3c59cfdb5e06d7fc6d781b5df160881608858241608d16091b5df5bc381608db5df5dc386d77db5de1607c1607c58211608116085b5de5bc3415f60000059cf659cf5b5de6d7f459cf1b5dd6d7f016081b5de5dc346d779b5dd1607016070581e1607516075b5dd5dc3016079b5dd5bc306d775b5dc1606416064581b160691606db5dc5bc2c59cedb5dc6d7ec16069b5dc5dc2c6d771b5db160581605858181605d1605db5db5dc2859ce9b5db6d7e816061b5db5bc286d76db5da1604c1604c58151605116051b5da5dc2416055b5da5bc2415f5c000059ce659ce5b5da6d7e46d769b5d9160401604058121604516045b5d95dc2015f58000059ce259ce1b5d96d7e016049b5d95bc206d765b5d81603416034580f1603916039b5d85dc1c15f54000059cde59cddb5d86d7dc1603db5d85bc1c6d761b5d71602816028580c1602d1602db5d75dc1815f50000059cda59cd9b5d76d7d816031b5d75bc186d75db5d61601c1601c58091602116021b5d65dc1415f4c000059cd659cd5b5d66d7d459cd1b5d56d7d016025b5d65bc146d759b5d5160101601058061601516015b5d55dc1016019b5d55bc10)
  (.lf 0)))

def shaGateTree126 : BTree :=
  .nd (.nd (.nd (.lf
  0x6aa694d215948411225aa3e045446a8f9aa3d11214112144487112191121daa3d5948403c41aa3d6a9706a97165210454059485e4662ac4c2ac4c00005b3ae5b3ade47b792687926974e65f3985f399e4f779458793dde4f62afd82afd8abf82afdd2afe1e4f6613942afdde4f6633942ad1de47b5d398791ede47a2ad082ad08ab442ad0d2ad0de47a5f3942abb400007919a79198aaea2aba42aba4aaea594815d195e0ba78364783640f0f0013c29239e0bb00140782ede0ba2922829228a48c2922d29231e0ba03c3c03c3daa3c6a96c6a96d65200453c11385aa7b534846a9edaa7a113701137044de1137511375aa7a594800433daa7a6aa646aa654d205948011219aa3d045406a8f5aa3c112081120844841120d11211aa3c5948059480aaea5b3a85b3a9e47a792647926574e55f3945f395e4f679454793d9e4f52afcc2afccabf52afd12afd5e4f5613902afd1e4f5633902ad11e47a5d394791e9e4792acfc2acfcab412ad012ad01e4795f3902aba9e4652ab982ab98aae82ab9d2ab9de4655b3a42922de0ba0013c782e9e0b92921c2921ca4892922129225e0b903c385d191e0b978360783600f0e0013811379aa7a534806a9e9aa7911364)
  (.lf 0)) (.nd (.lf
  0x717c9c5f11d20c1d20c74851d2111d211c5f14a8e41d215c5f1026a0717c5c5f01d2001d20074821d2051d209c5f00269c66dbd9b6e0bbe00bbe02efa0bbe50bbe59b6e584e0716cdc5b21d0981d09874281d09d1d0a1c5b25c3f43eb5809470249c6037409673ebd83ebd809273ec590249d9b3066d3c66d3d613801e9c0ba899b3101ea066cc59b300ba780ba782ea00ba7d45258074701c9c544600767453584535914f64545945458076701c9c01c9d9b6e66e340ba819b30584e066e354938584e0584e1c59d1d0141d01400005a4725a471c5b2717447174570fd5e3f45c3f5c5f07183c1d205c5f04a8e0717c1c5ef1d1f41d1f4747f1d1f90bbe99b6e524e066db99b6d0bbd40bbd42ef70bbd90bbd99b6d584dc1cf200000716767167473c51cf103eb540946024986037009663ebd43ebd409263ec551d09dc5b25e3f4716c9c5b11d08c1d08c74251d0911d095c5b15c3f00ba7d9b3001e9c66cc19b2f0ba6c0ba6c2e9d0ba711cf1073c5584dd024999b2f66d3866d39613701e980ba759b2f584dc584dc73c55a46c5a46dc5b1717407174170fc5e3f05c3f1c5ef718381d1fdc5ef026981d1f9c5ef4a8dc717bdc5ee1d1e81d1e8747c1d1ed)
  (.lf 0))) (.nd (.nd (.lf
  0x23c45d4c54b05823ae9d4885eb7075221d48723ad823ad88eb823add23ae1d4875cb6c239880000751e2751e1d47723974239748e5f2397923979d4775abbc58c59d47723a7823a7800005abbe5abbdd487752987529972db5eb6c5cb6dd4c575390753900d854b0584b05a0969826208262133164e4584e45a09e5828108279609e43906839068e41c3906d3907209e44b3d43906e09e44fc5438dae09694cc58825a6096838d9838d98e36838d9d38d9e09684e4540e495a27202e14689c9a2710e4840e48439230e4890e48da27158c5403411a27168a4068a41631502e1023c49d4c50361475315d4c423c3423c348f0f23c3923c39d4c44b05423addd4875eb6c7521dd48623acc23acc8eb523ad123ad5d4865cb682397c0000751de751dc8e5c2396c2396c8e5c58c5558c548e5c5abb85abb9d486752947529572da5eb685cb69d4c47538c7538c0d844b0544b05609688261c8261d33154e4544e45609e48280c8279209e33905c3905ce419390613906609e34b3d03906209e34fc5038da209684cc54825a2096738d8c38d8ce36538d9138d9209674e4500e489a27102e10689c5a2700e4780e47839200e47d0e481a27058c500340da27068a3c)
  (.lf 0)) (.nd (.lf
  0x53cc403c043cbc43cbd0f4f43dbd43dbc03c000e0000e01475157d440900593e60100464f995f510100157d44000059d1a59d196f165dc5830ef5f39a4d54c7ce69f39930ee430ee4c3bb30ee930eedf3994bd487cee12f524d5484bd49f3d77cfd830ee9f3994d54816849b6fe017046dbf805c04a1455bc5805c04a1444a1452f514d5447ce652f514d5454bd452a515054431055f3d74a9487cf5d2a5150545505452a3404dd47cfd92a5250548505492a3504dd87cfdd2a535054c5054d2a3604ddc7cfe12a5450550505512a3704de07cfe52a5550554505552a3804de47cfe92a5650558505592a3904de87cfed2a575055c5055d2a3a04dec7cff12a5850560505612a3b04df07cff52a5950564505652a3c04df47cff92a5a50568505692a3d04df87cffd2a5b5056c5056d2a3e04dfc7d0012a5c50570505712a3f04e007d0052a5d50574505752a4004e047d0092a5e50578505792a4104e087d00d2a5f5057c5057d2a4204e0c7d0112a6050580505812a4304e107d0152a6150584505852a4404e147d0192a6250588505892a4504e187d01d2a635058c5058d2a4604e1c7d0212a6450590505912a4704e207d0252a6550594505952a4804e24)
  (.lf 0)))

def shaGateTree127 : BTree :=
  .nd (.nd (.nd (.lf
  0x3b57ced613b5813b586103b007bc3b582103b519003b4260ffe4e90483ffa0ffd3b4143b414ed073b4193b41e0ffd4d1003996e0b644fd8482d920b633995c3995ce65939961399660b634b500396a20ae84cd8482ba20ae73968c3968ce5a539691396920ae74e5804b1820ae782c1882c1933604e5804e5820b6382e0882e092d404fd803720e049c5110481272049b371fc371fcdc813720137206049b4b5004c902049b812e8812e92d405110069cd54c405910069bdd6440041bc27cb9ddc303ac07770dddc227ca427ca49f2b27ca927ca9ddc24b50027b4ddd855f01877615dd8427b3c27b3c9ed127b4127b45dd845d014279c80000775b6775b49e6f279b8279b89e6f59101591009e6f5b0405b041dd847768c7768d74055f0145d015ddc277784777840eaf4b5004b5020ffd840708407134404e9004d102103b84168840ee103a3b5703b570ed5e3b5753b57a103a007b83b576103a518fc3b41a0ffd4e90083ff60ffc3b4083b408ed043b40d3b4120ffc4d0fc399620b634fd8082d8e0b623995039950e656399553995a0b624b4fc396960ae74cd8082b9e0ae63968039680e5a239685396860ae64e57c4b17e0ae682c1482c15335f4e57c)
  (.lf 0)) (.nd (.lf
  0x3e48806730194c3e48c0674019503e4900675019543e4940676019583e49806770195c6002408933e5086002808943e50c6002c08953e5106003008963e5146003408973e5183e50806533e5893e50c06543e58d3e51006553e5913e51406563e5953e51806573e5990a901981b581a46606d981a0a8f00a8f02a3e0a8f50a8f9981a521a00a8f5981a581a06606998190a8e40a8e42a3b0a8e90a8ed98195219c0a8e998195819c6606598180a8d80a8d82a380a8dd0a8e19818521980a8dd9818581986606198170a8cc0a8cc2a350a8d10a8d59817521940a8d19817581946605d98160a8c00a8c02a320a8c50a8c598165819041a540493012204480804b30124c5411006934490844909126244a0944a0806930124c0124d9816660d4660d54864581900194d97d865fdc65fdd606401b4c0195997db65fe80195d97dc65fec0a78829e40a78d0a78d97dc01b5c0a79197dc581a065f7197db0a77c0a77c29e10a7810a78597db5819c0a78197db01b5865f6d97da0a7700a77029de0a7750a77997da581980195597da65fe40a77597da01b5465f6997d90a7640a76429db0a7690195197d965fe00a76997d901b500a76d97d95819465f6597d80a758)
  (.lf 0))) (.nd (.nd (.lf
  0x5e855ce2f73938738bdce2e20d0420d04834320d093f34c0a44028903f3500a45028943f3540a46028983f3580a470289c3f35c0a48028a03f3600a49028a43f3640a4a028a8607680a643f3cc6076c0a653f3d0607700a663f3d4607740a673f3d8607780a683f3dc6077c0a693f3e0607800a6a3f3e43f3cc0a243f44d3f3d00a253f4513f3d40a263f4553f3d80a273f4593f3dc0a283f45d3f3e00a293f4613f3e40a2a3f465736508227208982089882275893d67d19624f02af85893c82275a8ac5a8adcdb2737447374572145e850736cdcdb220a3420a34828f20a3920a39cdb25e8505e851ce2e7393420d0dce2e6085020d09ce2e62850738b9ce2d20cf820cf8834020cfd20d01ce2d6084c20cfdce2d6284c20a3dcdb25c850736c9cdb120a2820a28828c20a2d20a2dcdb15e84c2089dcd932088c2088c82252089120891cd935a8a867d15624e02af458939cd93208d4208d400005a8aa5a8a9cdb1737407374172135e84c5e84dce2d73930738b5ce2c20cec20cec833d20cf120cf5ce2c6084820cf1ce2c6284820a31cdb15c84c736c5cdb020a1c20a1c828920a212089400007364e7364c82222088467d11624d02af020884822258935)
  (.lf 0)) (.nd (.lf
  0x13a91b0a655ab851ab9b0a66c3146c299b0a513a8013a804ea213a8513a89b0a553ab451ab5b0a56c31013a85b0a555ab451ab1b0a46c30c6c295b0a413a7413a744e9f13a7913a7db0a453ab013a79b0a455ab06c291b0a313a6813a684e9c13a6d13a71b0a353aac13a6db0a355aac51aadb0a36c3086c28db0a213a5c13a5c4e9913a615f90004ca3d6e43d6e52d7b3d76513c28000059aaa13c2c000059ab259ab1b0e66c4146c399b0e513d8c13d8c4f6513d9113d95b0e55b9d059aadb0e56c41013d91b0e55d9d06c395b0e413d8013d804f6213d8513d85b0e45d9cc59aa9b0e46c40c13d89b0e45b9cc6c391b0e313d7413d744f5f13d7913d7db0e35b9c859aa5b0e36c40813d79b0e35d9c86c38db0e213d6813d684f5c13d6d13d6db0e25d9c459aa1b0e26c40413d71b0e25b9c46c389b0e113d5c13d5c4f5913d6113d61b0e15d9c013c24000059a9e59a9db0e16c40013d65b0e15b9c06c385b0e013d5013d504f5613d5513d55b0e05d9bc59a99b0e06c3fc13d59b0e05b9bc6c381b0df13d4413d444f5313d4913d4db0df5b9b86c4156e755d9d45d9d5b1626c6046c589b1611405c1405c50191406114065b1615f9d06c4116e745d9d0)
  (.lf 0)))

def shaGateTree128 : BTree :=
  .nd (.nd (.nd (.lf
  0x7b1840226007187b1800225007147b17c0224007107b17802230070c7b1740222007087b1700221007045d7580220007007b0f40220007015d755eb557add07ad55eb542de182de18b7882de1d2de21eb54009782de1deb54006f85d751eb547adcc7ad51eb532de0c2de0cb7852de112de15eb53009742de11eb53006f45d74deb537adc87ad4deb522de002de00b7822de052de09eb52009702de05eb52006f05d749eb527adc47ad49eb512ddf42ddf4b77f2ddf92ddfdeb510096c2ddf9eb51006ec5d745eb517adc07ad45eb502dde82dde8b77c2dded2ddf1eb50009682ddedeb50006e85d741eb507adbc7ad41eb4f2dddc2dddcb7792dde12dde5eb4f009642dde1eb4f006e45d73deb4f7adb87ad3deb4e2ddd02ddd0b7762ddd52ddd9eb4e009602ddd5eb4e006e05d739eb4e7adb47ad39eb4d2ddc42ddc4b7732ddc92ddcdeb4d0095c2ddc9eb4d006dc5d735eb4d7adb07ad35eb4c2ddb82ddb8b7702ddbd2ddc1eb4c009582ddbdeb4c006d85d731eb4c7adac7ad31eb4b2ddac2ddacb76d2ddb12ddb5eb4b009542ddb1eb4b006d45d72deb4b7ada87ad2deb4a2dda02dda0b76a2dda52dda9eb4a009502dda5eb4a006d05d729eb4a7ada4)
  (.lf
  0x63b192d87008d86194d2d873b7305f93004d63d714072158ea74b61c3d6952d674b61c3d7152d873d7954b61d9113644c85f93404d73d7183d7192d883d7996c1d97e4261908619092d763b6ec63b1d2d88008dc63b212d89008e008034200f080390803d911557aa4619552d893b7385f93804d83d71c3d71d2d893d79d08039911500d604b6259115644d0619512d883b7343b6ed2d884b60c3d6992d684b6204b6219114644cc6445591140802808028200c0802d08031911457aa00802d911400d5c6445191130801c0801c20090802108025911357a9c08021911300d586444d9112080100801020060801508019911257a986c1d17e4061900619012d743b6e43b6e52d864b604644d95eab00d68645e546b057ac0644dd5eac00d6c645e146af57abc644d55eaa00d64644d15ea900d60644e95eaf00d78644e55eae00d74645dd46ae57ab857ab84efc13c28644ed5eb000d7c57ac04efd13c2c13bf44ef013bbc13bbc4ef057abd57abc4ef059aac13bc04efc13bb013bb04eee13bb513bb44efc59aa813bb8000013bf213bf04eeb13ba813ba84eeb57ab5645c546a857aa0644cd5ea800d5c644e15ead00d70645d946ad57ab457ab44eeb59aa4))
  (.nd (.lf
  0x734cd81e162784627840a243c568734d181e262788627880a253c56c734d581e36278c6278c0a263c570734d981e462790627900a273c574734dd81e562794627940a283c578734e181e662798627980a293c57c734e581e76279c6279c0a2a3c580734e981e8627a0627a00a2b3c584734ed81e9627a4627a40a2c3c588734f181ea627a8627a80a2d3c58c734f581eb627ac627ac0a2e3c590734f981ec627b0627b00a2f3c594734fd81ed627b4627b40a303c5987350181ee627b8627b80a313c59c7350581ef627bc627bc0a323c5a07350981f0627c0627c00a333c5a47350d81f1627c4627c40a343c5a87351181f2627c8627c80a353c5ac7351581f3627cc627cc0a363c5b07351981f4627d0627d00a373c5b47351d81f5627d4627d40a383c5b83c53c0a2b028983c5400a2c0289c3c5440a2d028a03c5480a2e028a43c54c0a2f028a83c5500a30028ac3c5540a31028b03c5580a32028b43c55c0a33028b83c5600a34028bc3c5640a35028c03c5680a36028c43c56c0a37028c83c5700a38028cc3c5740a39028d03c5780a3a028d43c57c0a3b028d83c5800a3c028dc3c5840a3d028e03c5880a3e028e43c58c0a3f028e83c5900a20028ec)
  (.lf 0))) (.nd (.nd (.lf
  0x5d039ddcb777a8777a80eb84b5244b5261006840948409534494e9244d12610448418c8411210433b5dc3b5dced793b5e13b5e61043007dc3b5e21043519203b48610064e9248401a10053b4743b474ed1f3b4793b47e10054d120399ce0b6c4fda482db20b6b399bc399bce671399c1399c60b6b4b520397020af04cda482bc20aef396ec396ece5bd396f1396f20aef4e5a04b1a20aef82c3882c3933684e5a04e5a20b6b82e2882e292d484fda03726e04a4511248129204a33725c3725cdc99372613726604a34b5204c92204a381308813092d485112069cf54c485912069bfd6448041dc27d19ddcb03ae07772dddca27d0427d049f4327d0927d09ddca4b52027baddd8d5f03877635dd8c27b9c27b9c9ee927ba127ba5dd8c5d03427a19dd7127a0827a089e8427a0d27a0ddd715b06059121dd7127a8027a8000005b0625b061dd8c776ac776ad740d5f0345d035ddca777a4777a40eb74b5204b5221005840908409134484e9204d1221043841888410e10423b5d03b5d0ed763b5d53b5da1042007d83b5d610425191c3b47a10054e9208401610043b4683b468ed1c3b46d3b47210044d11c399c20b6b4fda082dae0b6a399b0399b0e66e399b5)
  (.lf 0)) (.nd (.lf
  0x61ff0065f3bdd46f98d800a6202862028064d3be0c6f9a1800f6203c6203c06523be203be0c065f019683be2006440197c3e4b8067f0197c6f9b980156205460054089f3e5383e538065f3e5b90197d97e46600c6600d607001b7c581c067c25a16819f0867b919ee06f98980096202419b6dbe365fff06f8d9be3519b5819b5866d819b5d19b5dbe3561fec5dfedbe356f9506f9517ffb61fec61fec065e3bdd062024064c3be086f99d800e620386203806513be1c3be08065e019643be1c0643019783e4b4067e019786f9b580146205060050089e3e5343e534065e3e5b50197997e36600866009606f01b786608998210a9440a9442a530a9490a9499821581bc65f9197e30a7dc19ee067b9581bd0a7dc29f90a7e10a7e597e3581bc581bc67b95a16419ee467b719ed819ed867b7581b9195e5bd7e540e46f5f9bd7d195d0195d06576195d5195d5bd7d560e0520e1bd7d6f670195d9bd7d540e06f5f5bd7c195c4195c46573195c9195cdbd7c540dc520ddbd7c6f66c195c9bd7c560dc6f5f1bd7b195b8195b86570195bd520d5bd7a6f664195c1bd7b540d8195bdbd7b560d8520d9bd7b6f6686f5edbd7a195ac195ac656d195b1195b1bd7a560d4)
  (.lf 0)))

def shaGateTree129 : BTree :=
  .nd (.nd (.nd (.lf
  0x7940de5022b0682b068ac1c2b06d2b071e502613c42b06de502633c42adade4875d3c87921de4862ad982ad98ab682ad9d2ad9de4865f3c42ac240000791aa791a8ab062ac142ac14ab06594b15d1c5e0c678394783940f1b0016c292c9e0c7001707831de0c6292b8292b8a4b0292bd292c1e0c603c6c03c6daa486a99c6a99d652c0456c11415aa87534b46aa1daa86114001140045021140511405aa86594b00436daa866aa946aa954d2c594b0112a9aa49045706a925aa48112981129844a81129d112a1aa48594b0594b0ab065b3d85b3d9e486792947929574f15f3c45f3c5e5027948479409e5012b05c2b05cac192b0612b065e501613c02b061e501633c02ada1e4865d3c479219e4852ad8c2ad8cab652ad912ad91e4855f3c02ac18ab042ac0c2ac0cab04594ad5d1c1e0c578390783900f1a00168292bde0c60016c78319e0c5292ac292aca4ad292b1292b5e0c503c6803c69aa476a9986a999652b0456811409aa86534b06aa19aa85113f4113f444ff113f9113f9aa85594ac04369aa856aa906aa914d2b594ac1129daa480456c6a921aa471128c1128c44a51129111295aa47594ac594acab045b3d45b3d5e485792907929174f05f3c0)
  (.lf 0)) (.nd (.lf
  0x1d19474671d1991d199c5c75e4485a4c5c5c7717981d19dc5c75c4487171dc5c61d1881d18874641d18d1d191c5c65c4445a4c1c5c6717941d18dc5c65e44471719c5c51d17c1d17c74611d1811d181c5c55e4405a4bdc5c5717901d185c5c55c44071715c5c41d1701d170745e1d1751d179c5c45c43c1d04400005a4ba5a4b9c5c47178c1d175c5c45e43c71711c5c31d1641d164745b1d1691d16dc5c35c4381d169c5c35e4385a4b5c5c3717887170dc5c21d1581d15874581d15d1d161c5c25c4341d15dc5c25e4341d04000005a4b25a4b1c5c27178471709c5c11d14c1d14c74551d1511d155c5c15c4301d151c5c15e4305a4adc5c17178071705c5c01d1401d14074521d1451d149c5c05c42c1d145c5c05e42c1cfc1c5a71cfb01cfb073ee1cfb51cfb5c5a75a4a85a4a9c5c07177c71701c5bf1d1341d134744f1d1391d13dc5bf5c4281d139c5bf5e42866e6949455851458515c5a61d0381cfb800007169e7169dc5a61cfa41cfa473eb1cfa91cfa9c5a65a4a41d03800005a4a65a4a5c5bf71778716fdc5be1d1281d128744c1d12d1d131c5be5c4241d12dc5be5e4241cfac00007169a71699c5a51cf981cf9873e81cf9d1cf9dc5a55a4a0)
  (.lf 0))) (.nd (.nd (.lf
  0x3910209f04b404390fe09f04fc8438e3e09754cc88825d6097438e2838e28e38c38e2d38e2e09744e4840e525a27e02e44689f9a27d0e5140e51439470e5190e51da27d58c8403441a27d68a7068a71632102e4023cd9d4d10364475345d4d023cc423cc48f3323cc923cc9d4d04b08423b6dd4935eb9c7524dd49223b5c23b5c8ed923b6123b65d4925cb98239f5d47d239e4239e48e7b239e9239e9d47d5abe858c85d47d23a9023a9000005abea5abe9d492752c4752c572e65eb985cb99d4d0753bc753bc0d904b0844b08609748264c8264d33214e4844e48609f08283c827c209ef390ec390ece43d390f1390f609ef4b400390f209ef4fc8038e3209744cc84825d2097338e1c38e1ce38938e2138e2209734e4800e519a27d02e40689f5a27c0e5080e50839440e50d0e511a27c58c800343da27c68a6c68a6d632002e3c23ccdd4d00364075341d4cf23cb823cb88f3023cbd23cbdd4cf4b08023b61d4925eb9875249d49123b5023b508ed623b5523b59d4915cb94239ec0000751f6751f5d47c239d8239d88e78239dd239ddd47c5abe458c81d47c23a8c23a8c00005abe65abe5d491752c0752c172e55eb945cb95d4cf753b8753b80d8f4b080)
  (.lf 0)) (.nd (.lf
  0x30fddf3ad4bd9830fd9f3ad4d5987ceb5f3ac30fc87cf492f6c4d5b04bdb1f3f17d0403118df3f14a9b07cfc5f3f03117831178c4603117d7cf452f6b4d5ac4bdadf3f07d03c31181f3f04a9ac3117df3f0505ac7cfc1f3ef3116c3116cc45d3117131175f3ef4a9a831171f3ef505a87cf412f6a4d5a84bda9f3ef7d0387cfbdf3ee3116031160c45a3116531165f3ee505a47cf3d2f694d5a44bda5f3ee7d03431169f3ee4a9a47cfb9f3ed3115431154c457311593115df3ed4a9a031159f3ed505a07cf392f684d5a04bda1f3ed7d0307cfb5f3ec311484d449f2a17cb0030959f2a24a3cc7ca89f2a1309444d44528f14ec4430944c253309493094df2a14a3c830949f2a14ec487ca8528f14ec454ec45285b061907cb0128f24ec484ec49285c061940619128644a1880619528654a18c7cb69290c4ecb04ecb1285f4a1747cb6d290d4ecb44ecb528604a1787cb71290e4ecb84ecb928614a17c7cb75290f4ecbc4ecbd28624a1807cb7929104ecc04ecc128634a1846dcb005d04a1846dcac05cf4a1806dca805ce4a17c31148c4543114d31151f3ec4a99c3114df3ec5059c7cf352f674d59c4bd9df3ec7d02c7cfb1f3eb3113c7cf312f664d598)
  (.lf 0)))

def shaGateTree130 : BTree :=
  .nd (.nd (.nd (.lf
  0x5f629ea017a8807a805ea002d3442d344b4d32d3492d34dea00616242d349ea00636242d089e9855d6287a615e9842d0742d074b41f2d0792d079e9845f6242cebc00002cf462cf44b3ac2ceac2ceacb3ac597115d425e5b47974c7974c0fb3003cc2b5b9e5b5003d0796d5e5b42b5a82b5a8ad6c2b5ad2b5b1e5b403ecc03ecdacac6b32c6b32d65c4047cc121c5aceb537146b3adacea121b0121b0486e121b5121b5acea59710045cdacea6b4246b4254dc45971012059acad047d06b2b5acac120481204848141204d12051acac5971059710b3ac5b6245b625e9847a68c7a68d75895f6245f625ea007a87c7a801e9ff2d3382d338b4d02d33d2d341e9ff616202d33de9ff636202d07de9845d6247a611e9832d0682d068b41c2d06d2d06de9835f6202ceb0b3d02cea02cea0b3aa2cea52cea4b3d05b6202b5ade5b4003cc796d1e5b32b59c2b59cad692b5a12b5a5e5b303ec85d421e5b379748797480fb2003c8121b9acea537106b3a9ace9121a4121a4486b121a9121a9ace95970c045c9ace96b4206b4214dc35970c1204dacac047cc6b2b1acab1203c1203c48111204112045acab5970c03ec9acab6b3286b32965c3047c85970cb3d02cf80)
  (.lf 0)) (.nd (.lf
  0x1e8d5c925605801e8d1c925625805e581c9257251072495c9241e8c01e8c07a321e8c55e57dc9247250c1e8c9c9246057c1e8c5c9246257c72491c9231e8b45e579c923725081e8b47a2f1e8b91e8bdc923605781e8b9c923625787248dc9221e8a81e8a87a2c1e8ad1e8adc922625745e571c921725005e575c922725041e8b1c9226057472489c9211e89c1e89c7a291e8a11e8a5c921605701e8a1c9216257072485c9201e8901e8907a261e8951e899c9206056c5e56dc920724fc1e895c9206256c72481c91f1e8841e8847a231e8891e88dc91f605681e889c91f625685e569c91f724f87247dc91e1e8781e8787a201e87d1e881c91e605641e87dc91e625645e565c91e724f472479c91d1e86c1e86c7a1d1e8711e875c91d605601e871c91d625605e561c91d724f072475c91c1e8605e5598156625581e8607a1a1e8651e869c91c6055c5e55dc91c724ec1e865c91c6255c724718156625596255809b93c33c725218164625906259009a73c374625a409ac3c3883c37409b9026d03c38809be026e47254d816f625bc3efa009d9026e4605bc09f93f0203f02009b93f0a1026e59d3267544724ed81576255c6255c09ba3c340724f1815862560)
  (.lf 0))) (.nd (.nd (.lf
  0x56eb40bb24282c761fd53ae56eb856eb80bb3428307620153af56ebc56ebc0bb4428347620553b056ec056ec00bb542838427bc0bad02e88427c00bae02e8c427c40baf02e90427c80bb002e94427cc0bb102e98427d00bb202e9c427d40bb302ea0427d80bb402ea4427dc0bb502ea8427e00bb602eac427e40bb702eb0427e80bb802eb4427ec0bb902eb8427f00bba02ebc427f40bbb02ec0427f80bbc02ec4427fc0bbd02ec8428000bbe02ecc428040bbf02ed0428080ba002ed44280c0ba102ed8428100ba202edc428140ba302ee0428180ba402ee44281c0ba502ee8428200ba602eec428240ba702ef0428280ba802ef44282c0ba902ef8428300baa02efc428340bab02e80428380bac02e844703c0bc002e80470400bc102e84470440bc202e88470480bc302e8c4704c0bc402e90470500bc502e94470540bc602e98470580bc702e9c4705c0bc802ea0470600bc902ea4470640bca02ea8470680bcb02eac4706c0bcc02eb0470700bcd02eb4470740bce02eb8470780bcf02ebc4707c0bd002ec0470800bd102ec4470840bd202ec8470880bd302ecc4708c0bd402ed0470900bd502ed4470940bd602ed8470980bd702edc4709c0bd802ee0)
  (.lf 0)) (.nd (.lf
  0x6eb29bac9183c8183c860f4183cd183d1bac95be8409d35961f51f746587d961e09d2009d20274a09d25418b4040b01000441e8042b0102c53ef0044b442e8442e910da443e9443e8044b0102c0102d961e658f4658f547dc57f70657fd5fdc0122c09d25961e57f7057f71bab41832818328000059f4259f41bac96eba0183cdbac95de846eb25bac8183bc1825400006ead26ead1bab3182401824060921824518245bab359f3c09d29961e51f7065879961d09d1409d14274709d1909d19961d57f6c441e4042a0102853eec044a442e4442e510d9443e5443e4044a0102801029961d658f0658f147db57f6c3e06405ea017285fe00060a3e0e43e0e405ca3e1650172995df657f8657f95fdb0122857f6dbab31832418324000059f3e59f3dbac86eb9c6eb9d6fa05de80183bc60f1183c1183c5bac85be805be81bb066ec946ec94064a4a36c5be9dbb0d6ecb06ecb006514a3886ebb56fa65de985be99bb0c6ecac6ecac06504a3846ebc16fa95dea44d6c1f5a77d7187d69df5a631b8031b80c6e231b854d6bdf5a67d71431b85f5a64eebc31b89f5a64a63c7d699f5a531b7431b74c6df31b7931b7df5a54a63831b79f5a54eeb84d6b9f5a57d710)
  (.lf 0)))

def shaGateTree131 : BTree :=
  .nd (.nd (.nd (.lf
  0x77a91741e5f0785f079df0177c8077c05df00284a4284a4a12b284a9284addf0061074284a9df0063074281e9de855d07877a15de84281d4281d4a077281d9281d9de845f0742806c0000779c6779c4a0182805c2805ca0185916159160a0185b0985b099de8477a8c77a8d741d5f0745f075df0077c7c77c01deff2849828498a1282849d284a1deff610702849ddeff63070281ddde845d07477a11de83281c8281c8a074281cd281cdde835f07028061de702805028050a0162805528055de705b0945915dde70281542815400005b0965b095de8377a8877a89741c5f0705f071deff77c7877bfddefe2848c2848ca1252849128495defe6106c28491defe6306c281d1de835d07077a0dde82281bc281bca071281c1281c1de825f06c280580000779c2779c1de6f2804428044a0132804928049de6f5b09059159de6f281502815000005b0925b091de8277a8477a85741b5f06c5f06ddefe77c7477bf9defd2848028480a1222848528489defd6106828485defd63068281c5de825d06c77a09de81281b0281b0a06e281b5281b5de815f0682804c0000779be779bdde6e2803828038a0102803d2803dde6e5b08c59155de6e2814c2814c00005b08e)
  (.lf 0)) (.nd (.lf
  0x706bc6caa1b2a41b2a46caa582cd582cc6caa5a26c5a26dc1bd707707077170785e1e01b405c1bd5c1e05c1e1c1fb70868707edc1fa1b5581b5586d581b55d1b561c1fa024841b55dc1fa4a6c81b401c1bd5e1e0706f5c1bc1b3f01b3f06cfe1b3f51b3f9c1bc5c1dc3e74008c1022846015c08e13e7c03e7c008a13e8410aef9993a582c844c4006c101a845424806e144d4044d41137044e4144e4006e101a841b2a968991b2a01b2a16899582c901a8599786665c6665d48b2582c802285993a665646656560b201c840b06d9979522cc665e599780b0580b0582c180b05d0b05d9978582c8582c968995a2685a269c1bc7076c7076d70775e1dc5c1ddc1fa70864708dc093f4a740708d8093e4a73c708d4093d4a738708d0093c4a734708cc093b4a730708c8093a4a72c1b3f5c1bc5e1dc706f170765e1d93e73c08c0022806015808e03e7bc3e7bc08a03e83d0b0619978522c8708c409394a728708c009384a724708bc09374a720708b809364a71c708b409354a718708b009344a714708ac09334a710708a809324a70c708a409314a708708a009304a7047089c092f4a70070898092e4a6fc70894092d4a6f870890092c4a6f47088c092b4a6f0)
  (.lf 0))) (.nd (.nd (.lf
  0x463e11918464e1464e00ac902a2402a25a0c46838c6838d4a9a58a683f6600ca903224608fc0cc93f6e03f6e00c893f7610d991a08702c286821da0860d9800d98036620d9850d989a08658a6803225a086682940dafda0c552a6c68295629a02c2468315a0c40dae80dae836bc0daed0daeda0c458a6821cd8873421ccc21ccc873458a6958a6887345a9d85a9d9d092742c4742c5725f5e97c21e95d0935e9807424dd09221e8421e8487a321e8921e8dd0925c97c5c97dd0d0743bc21ff5d0d00342474341d0cf21fe021fe087fa21fe521fe9d0cf034203c7300c880320c3f65c0ca803220608f80cc83f6dc3f6dc0c883f75d0d985a08602c2468219a0850d9740d974365f0d9790d97da08558a6403221a08568290462dc0aa802a20549e40ac8463dc463dd1917464dd464dc0ac802a2002a21a0c368388683894a9958a6468291629902c200daf1a0c452a6868311a0c30dadc0dadc36b90dae10dae1a0c358a6458a64876c21df021df000005a9d621cd0876c21cc021cc0873221cc521cc4876c5a9d45a9d5d091742c0742c1725e5e97821e89d0925e97c74249d09121e7821e7887a021e7d21e81d0915c9785c979d0cf743b821fe5d0cf4ae64)
  (.lf 0)) (.nd (.lf
  0x8df9937a57d083db800551014c45fb9c05713dc003dc0005313dc8108df5937a00fc4014c5937a64e6464de9937908de408de4237b08de93db7c0550014c05fb9805703dbfc3dbfc05303dc7d014c1937964e6008de9937900fc008ded937957d0464de5937808dd86c900052f49f0008dd8237808ddd08ddd937800fbc3b94c052f014a83db78054f014bc5fb94056f3dbf83dbf8052f3dc79014bd937864e5c08de1937857d0064de1937708dcc08dcc237508dd108dd1937700fb808dd5937757cfc64ddd937608dc008dc0237208dc508dc5937600fb464e815f4900fe015eac57ac57d2564f79474957d2457d2457ac59cf815eb057c715ea015ea057aa15ea515ea8000015f1e64f75474857d2064e7d5f4800fdc57d2057c715f6015ea457c759cf415f1c57a715e9815e9857a757d1d64e795f4700fd864f71474757d1c57d1c57a759cf015e9c57a515e9015e9057a557d1964f6d474657d1864e755f4600fd457d1857a559cec15e9457a315e8815e8857a357d1564f69474557d1464e715f4500fd057d1457a359ce815e8c57c615e7c15e7c57a115e8164f65474457d1064e6d5f4400fcc57d1057c615f5c15e8057c659ce415e84000015f1a)
  (.lf 0)))

def shaGateTree132 : BTree :=
  .nd (.nd (.nd (.lf
  0x2d881eac2557e42d87deac2577e4537e5eac27ab847ab09eac12d86c2d86cb61d2d8712d875eac1557e02d871eac1577e0537e1eac17ab807ab05eac02d8602d860b61a2d8652d869eac0557dc2d865eac0577dc537ddeac07ab7c7ab01eabf2d8542d854b6172d8592d85deabf557d82d859eabf577d8537d9eabf7ab787aafdeabe2d8482d848b6142d84d2d851eabe557d42d84deabe577d4537d5eabe7ab747aaf9eabd2d83c2d83cb6112d8412d845eabd557d02d841eabd577d0537d1eabd7ab707aaf5eabc2d8302d830b60e2d8352d839eabc557cc2d835eabc577cc537cdeabc7ab6c7aaf1eabb2d8242d824b60b2d8292d82deabb557c82d829eabb577c8537c9eabb7ab68537c555f1577c47aaed55f1577c5577c411d64313c7ab6955f2577c8577c811d7431407ab6d55f3577cc577cc11d8431447ab7155f4577d0577d011d9431487ab7555f5577d4577d411da4314c7ab7955f6577d8577d811db431507ab7d55f7577dc577dc11dc431547ab8155f8577e0577e011dd431587ab8555f9577e4577e411de4315c7ab8955fa577e8577e811df431607ab8d55fb577ec577ec11c0431647ab9155fc577f0577f011c1431687ab9555fd577f4)
  (.lf 0)) (.nd (.lf
  0x72d1d81a5626946269409e83c47872d2181a6626986269809e93c47c72d2581a76269c6269c09ea3c48072d2981a8626a0626a009eb3c48472d2d81a9626a4626a409ec3c48872d3581ab626ac626ac09ee3c49072d3981ac626b0626b009ef3c49472d3d81ad626b4626b409f03c49872d4181ae626b8626b809f13c49c72d5581b3626cc626cc09f63c4b072d5981b4626d0626d009f73c4b4626d409f83c4b83c46809f6027c43c46c09f7027c83c47009f8027cc3c47409f9027d03c47809fa027d43c47c09fb027d83c48009fc027dc3c48409fd027e03c48809fe027e43c49009e0027ec3c49409e1027f03c49809e2027f43c49c09e3027f8679b99e6d0cdd40cdd433770cdd90cdd99e6d5883c3f1b40a1e027f8606d00a3e3f2343f23409fe3f2b51f115ca6854768729a1ca671f1001f1007c421f1051f105ca675676452765ca6772a1872a1951d9567645676407fe420dc72a3d51e2567885678807e74210072a6951ed567b4567b407f24212c4210007fe01fcc4212c07e901ff845bb4081e01ff872a7151ef567bc547bc083e45cb445cb5174d45db545db4083e01ff801ff99e6d67a30027f99e2f6793867939620f021f867a314a0f5883c)
  (.lf 0))) (.nd (.nd (.lf
  0x4c83a033580d5080d512d0e5103869835640e031f46992d4c0e5903826f01dbd2039f876f49dbd126eec26eec9bbd26ef126ef1dbd14b43826d95db945ef5076e51db9326d8426d849b6326d8926d8ddb935cf4c26bb89aec26bac26bac9aec59039590389aec5af7c5af7ddb9376ec876ec973d35ef4c5cf4ddbd176fc076fc00e7d4b4384b43a0e9783ad883ad9340e4e8384e83a0f1383cc883c4e0f123af103af10ebc63af153af1a0f12002703af160f12500343ac560e974d03883a5e0e963ac403ac40eb123ac453ac460e964e83436a3a03355103880cd6033436a2836a28da8c36a2d36a3203344b4344c836033480d4c80d4d2d0d5103469831640d031f0699294c0d5903426ef5dbd1039f476f45dbd026ee026ee09bba26ee526ee5dbd04b43426d89db935ef4c76e4ddb9226d7826d789b6026d7d26d81db925cf4826bb09aea26ba426ba49aea59035590349aea5af785af79db9276ec476ec573d25ef485cf49dbd076fbc76fbc0e7c4b4344b4360e9683ad483ad5340d4e8344e8360f1283cc483c4a0f113af043af04ebc33af093af0e0f110026c3af0a0f11500303ac4a0e964d03483a5a0e953ac343ac34eb0f3ac393ac3a0e954e830)
  (.lf 0)) (.nd (.lf
  0x6f19d7fcc61f3061f30060f3bd146f1b57fd261f4861f4806153bd2c61f4c06163bd3061f5006173bd343bce40615018403bce80616018443bcec0617018483bcf40619018503bcfc061b018583bd00061c0185c3bd1006000186c3bd140601018703e2ac063c018705ff48065c3e32c3e32c061c3e3ad0a23596ea01a7465ba996e90a2240a224288b0a2290a22d96e9580b40187196e965c200a22996e901a7065ba596e80a2180a21828880a21d3e2a8063b0186c6f1b17fd161f445ff44065b3e3283e328061b3e3a90a21d96e801a6c0186d96e865c1c0a22196e8580b065ba196e70a20c0a20c28850a2113e2a00639018645ff3c06593e3203e32006193e3a10186596e665c140a21596e7580ac0a21196e701a6865b9d96e60a2000a20028820a2050a20996e6580a80a20596e601a6465b9996e50a1f40a1f4287f0a1f90a1fd96e5580a40a1f996e501a6065b9596e40a1e83e2900635018543e2940636018583e29806370185c5ff2c06553e3105ff3006563e3145ff3406573e3183e31006153e3913e31406163e3953e31806173e3990a1e8287c0a1ed0a1ed96e401a5c0a1f196e4580a00185596e265c040185996e365c080185d96e465c0c)
  (.lf 0)))

def shaGateTree133 : BTree :=
  .nd (.nd (.nd (.lf
  0x29a78a6a029a7d29a81e2006120829a7de20063208297bde1855d20c78615e184297a8297a8a5ec297ad297ade1845f20829625e16c2961429614a5872961929619e16c5b22010985a8c6043b46a319a8c51097410974425f109791097da8c5592f4592f5e16c296f4296f400005b2225b221e1847868c7868d74825f2085f209e2007887c78801e1ff29a6c29a6ca69d29a7129a75e1ff6120429a71e1ff63204297b1e1845d20878611e1832979c2979ca5e9297a1297a1e1835f2042961c0000785b2785b1e16b2960829608a5842960d2960de16b5b21c10979a8c5043b06a315a8c41096810968425c1096d10971a8c4592f003aada8c46a38c6a38d64bc043ac592f1e16b296f0296f000005b21e5b21de183786887868974815f2045f205e1ff78878787fde1fe29a6029a60a69a29a6529a69e1fe6120029a65e1fe63200297a5e1835d2047860de1822979029790a5e62979529795e1825f200296100000785ae785ade16a295fc295fca5812960129601e16a5b2181096da8c4043ac6a311a8c31095c1095c42591096110965a8c3592ec592ede16a296ec296ec00005b21a5b219e182786847868574805f2005f201e1fe78874787f9e1fd29a54)
  (.lf 0)) (.nd (.lf
  0x5c351c407710987101dc4061c4e01c4e0713a1c4e51c4e5c4064a8381c4e9c406025f470f9d70d35e34c5c34dc4067109471019c4051c4d41c4d471371c4d91c37dc3c85e34c70f21c3c71c36c5a3c5c3c770f981c36c70dd1c3711c375c3c75c34870f9970d25e3485c349c405710901c4d9c4054a8341c4ddc405025f071015c4041c4c81c4c871341c4cd1c4d1c404025ec1c371c3c75e34870f1dc3c61c3601c36070da1c3651c369c3c65c3445a3c1c3c670f941c365c3c65e34470f19c3c51c3541c35470d71c3591c359c3c55e3405a3bdc3c570f901c35dc3c55c34070f15c3c41c3481c34870d41c34d1c351c3c45c33c1c34dc3c45e33c1c21c00005a3ba5a3b9c3c470f8c70f11c3c31c33c1c33c70d11c3411c345c3c35c3381c341c3c35e3385a3b5c3c370f8870f0dc3c21c3301c33070ce1c3351c339c3c25c3341c335c3c25e3345a3b1c3c270f8470f09c3c11c3241c32470cb1c3291c32dc3c15c3301c21800005a3ae5a3adc3c170f8070f8170cc5e3305c331c3ff710781c329c3c15e33070f05c3c01c3181c31870c81c31d1c321c3c05c32c5a3a9c3c070f7c1c4cdc4044a83070f9570d15e3445c345c4047108c71011c4031c4bc)
  (.lf 0))) (.nd (.nd (.lf
  0x385e8e17c385ed385ee08044e394687994ae558b94686a162e502d5022f49d2cc0355474b31d2cb22f3422f348bcf22f3922f39d2cb4af9422dddd28e5eaac74a39d28d22dcc22dcc8b7522dd122dd5d28d5caa822bd48b1b22bc422bc48af322bc922bc88b1b5ab0458b948b1b22cc422cc400005ab065ab05d28d74ab074ab172aa5eaa85caa9d2cb74ba874ba80d544af944af9608048208c8208d32e54e3944e39608808227c82202087f388ac388ace22d388b1388b6087f4b310388b2087f4fb90385f208044cb94820120803385dc385dce179385e1385e208034e390687954ae458b9022f3dd2cb0355074b2dd2ca22f2822f288bcc22f2d22f2dd2ca4af9022dd1d28d5eaa874a35d28c22dc022dc08b7222dc522dc9d28c5caa422bcc000022c6e22c6c8b1a22bb822bb88af022bbd22bbc8b1a5ab0058b908b1a22cc022cc000005ab025ab01d28c74aac74aad72a95eaa45caa5d2ca74ba474ba40d534af904af920803820888208932e44e3904e392087f82278821fe087e388a0388a0e22a388a5388aa087e4b30c388a6087e4fb8c385e608034cb908200e0802385d0385d0e176385d5385d608024e38c687914ae358b8c22f31d2ca0354c)
  (.lf 0)) (.nd (.lf
  0x2f450bd162f4552f455ef024e9d42f459ef024a1544d1d5ef027bc847bc09ef012f4442f444bd132f4492f449ef014e9d02f44def014a1507bc05ef002f4382f438bd102f43d2f43def004e9cc4d1cdef007bc7c2f441ef004a14c7bc01eeff2f42c2f42cbd0d2f4312f435eeff4a1482f431eeff4e9c84d1c9eeff7bc787bbfd28514e9c54d1c528514e9c44e9c527bb05fd87bc7928524e9c84e9c927bc05fdc7bc7d28534e9cc4e9cd27bd05fe07bc8128544e9d04e9d127be05fe47bc8528554e9d44e9d527bf05fe87bc8928564e9d84e9d927c005fec7bc8d28574e9dc4e9dd27c105ff07bc9128584e9e04e9e127c205ff47bcb128604ea004ea0127ca060147bcb528614ea044ea0527cb0601805fd927c449f0805fdd27c549f0c05fe127c649f1005fe527c749f1405fe927c849f1805fed27c949f1c05ff127ca49f2005ff527cb49f247bcf128704ea404ea4127c349f0449f11f0097c0a049f2df0107c0bc49f29f00f7c0b82fafdf0104d32c7c041f00f2faec2faecbebd2faf12faf5f00f4bb282faf1f00f4d3287c03df00e2fae02fae0beba2fae549f25f00e7c0b42fae5f00e4d3242fae9f00e4bb247c039f00d2fad449f21f00d7c0b0)
  (.lf 0)))

def shaGateTree134 : BTree :=
  .nd (.nd (.nd (.lf
  0x79c41851f6347c6347c0f623d26079c45852063480634800f633d26479c49852163484634840f643d26879c4d852263488634880f653d26c79c5185236348c6348c0f663d27079c55852463490634900f673d27479c59852563494634940f683d27879c5d852663498634980f693d27c79c6185276349c6349c0f6a3d28079c658528634a0634a00f6b3d28479c698529634a4634a40f6c3d28879c6d852a634a8634a80f6d3d28c79c71852b634ac634ac0f6e3d29079c75852c634b0634b00f6f3d29479c79852d634b4634b40f703d29879c7d852e634b8634b80f713d29c79c81852f634bc634bc0f723d2a079c858530634c0634c00f733d2a479c898531634c4634c40f743d2a879c8d8532634c8634c80f753d2ac79c918533634cc634cc0f763d2b079c958534634d0634d00f773d2b479c998535634d4634d40f783d2b83d23c0f6b03d983d2400f6c03d9c3d2440f6d03da03d2480f6e03da43d24c0f6f03da83d2500f7003dac3d2540f7103db03d2580f7203db43d25c0f7303db83d2600f7403dbc3d2640f7503dc03d2680f7603dc43d26c0f7703dc83d2700f7803dcc3d2740f7903dd03d2780f7a03dd43d27c0f7b03dd83d2800f7c03ddc)
  (.lf 0)) (.nd (.lf
  0x71d3d811b6246c6246c097e3c25071d41811c6247062470097f3c25471d718128624a0624a0096b3c28471d758129624a4624a4096c3c28871d79812a624a8624a8096d3c28c71d85812d624b4624b409703c29871d89812e624b8624b809713c29c71d8d812f624bc624bc09723c2a03c284097d025e03c288097e025e43c28c097f025e83c2980962025f43c29c0963025f83c2a00964025fc71a81516d565b471a8d5170565c071a5951635658c71a35515a5656871a85516e565b856568077f41ee05658c076841f04565b8077341f3041f04077f01dd041f30076a01dfc455b8079f01dfc545c007bf456b8456b915ce457b9457b807bf01dfc01dfd9c7e67274671f99c7d0c2940c29430a70c2990c29d9c7d5263c3edb0099d025f43edb4099e025f83edb8099f025fc71d9d8133624cc604cc09bd3ee3071da18134624d0604d009be3ee3471da58135624d4604d409bf3ee383ee30097d3eeb13ee34097e3eeb53ee38097f3eeb90c2999c7d5863c71a89516f565bc71a5551625658871a3151595656456564077e41edc56588076741f00565b4077241f2c41f00077e01dcc41f2c076901df8455b4079e01df8545bc07be456b4456b515cd457b5)
  (.lf 0))) (.nd (.nd (.lf
  0x248e4923b248e9248e9d6985ec7424771d683247602476091da2476524765d6835acbc58d61d683248642486400005acbe5acbdd69875adc75add731d5ec745ec75d71475ccc75c51d71324ba824ba892ec24bad24bb1d71360c7024badd71362c70248edd6985cc7475a61d697248d8248d89238248dd248ddd6975ec7024768000075a0e75a0dd682247542475491d72475924759d6825acb858d5dd682248602486000005acba5acb9d69775ad875ad9731c5ec705ec71d71375cc875c4dd71224b9c24b9c92e924ba124ba5d71260c6c24ba1d71262c6c248e1d6975cc7075a5dd696248cc248cc9235248d1248d1d6965ec6c2475c000075a0a75a0891d42474c2474c91d458d5958d5891d45acb45acb5d69675ad475ad5731b5ec6c5ec6dd71275cc475c49d71124b9024b9092e624b9524b99d71160c6824b95d71162c68248d5d6965cc6c75a59d695248c0248c09232248c5248c5d6955ec6824751d681247402474091d22474524745d6815acb058d55d6812485c2485c00005acb25acb1d69575ad075ad1731a5ec685ec69d71175cc075c45d71024b8424b8492e324b8924b8dd71060c6424b89d71062c64248c9d6955cc6875a55d694248b4)
  (.lf 0)) (.nd (.lf
  0x7d47df51e3182031820c60a3182531825f51e4d68c1775db90e4a28c6e4b406124a28c4a28df51e7d4f46e3b96f675dd9c5bd9db90d6e4b06e4b006114a2886e439b90d1774c1774c5dd51775117751b90d4a2884a289f51d7d4f031829f51e4be8c7d479f51d3181431814c607318193181df51d4be8831819f51d4d6887d475f51c3180831808c6043180d3180df51c4d68431811f51c4be8417755b90d018446e435b90c17740177405dd21774517745b90c4a2846e3b56f665dd985bd99b90c6e4ac6e4ac06104a2844a285f51c7d4ec7d471f51b317fc317fcc6013180131801f51b4d6806e3b16f655dd9417749b90c018406e431b90b17734177345dcf1773917739b90b4a2805bd95b90b6e4a86e4a8060f4a2804a281f51b7d4e831805f51b4be807d46df51a317f0317f0c5fe317f5317f9f51a4be7c317f5f51a4d67c6e3ad6f645dd905bd91b90a6e4a41773db90b0183c6e42db90a17728177285dcc1772d1772db90a4a27c6e4a4060e4a27c4a27df51a7d4e47d469f519317e4317e4c5fb317e9317edf5194be7817731b90a018386e429b9091771c1771c5dc91772117721b9094a2786e3a56f625dd8817725b909018346e3a96f635dd8c)
  (.lf 0)))

def shaGateTree135 : BTree :=
  .nd (.nd (.nd (.lf
  0x39eea0c594e678831660c5839ed839ed8e7b839edd39ee20c584ce744b2760c58831dc831dd339d4e6744ce760c96832d48325a0c953a0343a034e80f3a0393a03e0c950052c3a03a0c955167039ede0c584e674831620c5739ecc39ecce7b539ed139ed60c574ce704b2720c57831d8831d9339c4e6704ce720c95832d0832560c943a0283a028e80c3a02d3a0320c94005283a02e0c945166c39ed20c574e6708315e0c5639ec039ec0e7b239ec539eca0c564ce6c4b26e0c56831d4831d5339b4e66c4ce6e0c94832cc832520c933a01c3a01ce8093a0213a0260c93005243a0220c935166839ec60c564e66c8315a0c5539eb439eb4e7af39eb939ebe0c554ce684b26a0c55831d0831d1339a4e6684ce6a0c93832c88324e0c923a0103a010e8063a0153a01a0c92005203a0160c925166439eba0c554e668831560c5439ea839ea8e7ac39ead39eb20c544ce644b2660c54831cc831cd33994e6644ce660c92832c48324a0c913a0043a004e8033a0093a00e0c910051c3a00a0c915166039eae0c544e664831520c5339e9c39e9ce7a939ea139ea60c534ce604b2620c53831c8831c933984e6604ce620c91832c0832460c9039ff839ff8e80039ffd)
  (.lf 0)) (.nd (.lf
  0x7e90d30734d9cc4c1cdfa627ea047e989fa613364433644cd93336493364dfa614adc81a7a5bff2023886ffc9bff11a7901a79069e61a7951a795bff14a5c86ff4970375e0dc5c0ddbff1700407004008e14a5c84a5c9fa237e9087e90930724d9c8334e5fa234c1c84c1c9fa617ea0033649fa61509c87e9852b71509c57e88d30714d9c51a799bff1023846fecd70365e0d95c0d808e04a5c46ffc408e04a5c54a5c530714d9c44c1c52b71509c4509c52b54051e87ea012b72509c8509c92b55051ec7ea052b73509cc509cd2b56051f07ea092b74509d0509d12b57051f47ea0d2b75509d4509d52b58051f87ea112b76509d8509d92b59051fc7ea152b77509dc509dd2b5a052007ea192b78509e0509e12b5b052047ea1d2b79509e4509e52b5c052087ea212b7a509e8509e92b5d0520c7ea252b7b509ec509ed2b5e052107ea292b7c509f0509f12b5f052147ea2d2b7d509f4509f52b60052187ea312b7e509f8509f92b610521c7ea352b7f509fc509fd2b62052207ea392b8050a0050a012b63052247ea3d2b8150a0450a052b64052287ea412b8250a0850a092b650522c7ea452b8350a0c50a0d2b66052307ea492b8450a1050a112b6705234)
  (.lf 0))) (.nd (.nd (.lf
  0x80e412bec4f8304f8312b3f4acf480e452bed4f8344f8352b404acf880e492bee4f8384f8392b414acfc80e4d2bef4f83c4f83d2b424ad0080e512bf04f8404f8412b434ad045c845cded738305c841cdec7382c5c851cdf07383c5c855cdf173840737c5cdf020b9c20b9c82e920ba120ba5cdf0032f820ba1cdf04ad3c737c1cdef20b9020b9082e620b955c84dcdef7383820b95cdef4ad3820b99cdef032f4737bdcdee20b8420b8482e320b895c849cdee7383420b89cdee4ad3420b8dcdee032f0737b9cded20b7820b7882e020b7d20b81cded032ec5c83dcdeb7382820b7dcded4ad30737b5cdec20b6c20b6c82dd20b7120b71cdec4ad2c20b75cdec032e8737b1cdeb20b6020b6082da20b6520b65cdeb4ad2820b69cdeb032e4737adcdea20b5420b5482d720b5920b59cdea4ad2420b5dcdea032e05c839cdea738245c82dcde773818737a9cde920b4820b4882d420b4d20b4dcde94ad2020b51cde9032dc5c835cde973820737a5cde820b3c20b3c82d120b415c831cde87381c20b41cde84ad1c20b45cde8032d8737a1cde720b3020b3082ce20b3520b35cde74ad1820b39cde7032d47379dcde620b2420b2482cb20b2920b29cde64ad14)
  (.lf 0)) (.nd (.lf
  0x59b45b2dd6cbf06cb75b2dc14a5814a58529814a5d14a61b2dc5ba7459b41b2dc6cbec14a5db2dc5da746cb71b2db14a4c14a4c529514a5114a55b2db5ba7014d69b35d61a8814d6db35d5fa886cc016ea25da885da89b35d6cdf06cd75b35c14d5814d58535814d5d14d61b35c5fa8414a51b2db5da706cb6db2da14a4014a40529214a4514a45b2da5da6c14a49b2da5ba6c59b39b2da6cbe46cb69b2d914a3414a34528f14a3914d5db35c61a846cbfd6ea15da845da85b35c6cdec6cd71b35b14d4c14d4c535514d5114d55b35b5fa806cbf96ea05da805da81b35b6cde814d51b35b61a806cd6db35a14d4014d40535214d4514d45b35a61a7c6cbe56e9b5da6c14d49b35a5fa7c6cbf56e9f5da7c5da7db35a6cde46cd69b35914d3414d34534f14d3914d3db3595fa786cbf16e9e5da785da79b3596cde014d39b35961a786cd65b35814d2814d28534c14d2d14d2db35861a746cbed6e9d5da7414d31b3585fa745da75b3586cddc6cd61b35714d1c14d1c534914d2114d25b3575fa705da71b3576cdd814d21b35761a706cd5db35614d1014d10534614d1514d15b35661a6c5da6db3566cdd414d19b3565fa6c6cd59b35514d0414d04534314d09)
  (.lf 0)))

def shaGateTree136 : BTree :=
  .nd (.nd (.nd (.lf
  0x7b339eccd2e7702e770b9de2e7752e779eccd559182e775eccd5791853919eccd7b3b07b335eccc2e7642e764b9db2e7692e76deccc559142e769eccc5791453915eccc7b3ac7b331eccb2e7582e758b9d82e75d2e761eccb559102e75deccb5791053911eccb7b3a87b32decca2e74c2e74cb9d52e7512e755ecca5590c2e751ecca5790c5390decca7b3a47b329ecc92e7402e740b9d22e7452e749ecc9559082e745ecc95790853909ecc97b3a07b325ecc82e7342e734b9cf2e7392e73decc8559042e739ecc85790453905ecc87b39c7b321ecc72e7282e728b9cc2e72d2e731ecc7559002e72decc75790053901ecc77b3987b31decc62e71c2e71cb9c92e7212e725ecc6558fc2e721ecc6578fc538fdecc67b3947b319ecc52e7102e710b9c62e7152e719ecc5558f82e715ecc5578f8538f9ecc57b3907b315ecc42e7042e704b9c32e7092e70decc4558f42e709ecc4578f4538f5ecc47b38c7b311ecc32e6f82e6f8b9c02e6fd2e701ecc3558f02e6fdecc3578f0538f1ecc37b3887b30decc22e6ec2e6ecb9bd2e6f12e6f5ecc2558ec2e6f1ecc2578ec538edecc27b3847b309ecc12e6e02e6e0b9ba2e6e52e6e9ecc1558e82e6e5ecc1578e8)
  (.lf
  0x6435590d407ea807ea81fac07ead07ead90d457a1807eb190d451a186435190d307e9c07e9c1fa907ea107ea590d351a1412d99aeda5b8646bb69aed912d8412d844b6312d8912d8daed95b86007d99909d00cf064275909c07d8807d881f6407d8d07d91909c57a305f8a92d653d60c3d60d2da53d68d63c052da40094c6be317e30618c0618c12da43b6a46be357e31618c4618c52da53b6a86bdf57e2161884848052db1009806be097e2661898618992d9a3b67c073f18f0f0098863c3d8f0e073e0073e01cfa073e5073e98f0e4b6c8848098f0e63cb4073e58f0e0098463c392db10098163c252dac0096c5f8a52d643d608539952de54328c4328d0cc34338d4338d2de54b894559bd2e2541334412d92e254b86863fe92e2500b504b89590d3643c807ea190d357a146434d90d207e906be1d7e2b618ac618ad2d9f3b6903b6912d914b6b05993daed96bbe06bbe16e185d86012d89aed95d8605d861af556bdd05f8c52d6c3d6283d6292dac3d6a913069af565f8646bd59af5513054130544c171305913059af55618603b67d2dac4b69c6bdd17e1861860618612dac3b6444b6b1909c642ec07d8d909c00cec64271909b07d7c6bded7e1f6187c))
  (.nd (.lf
  0x2046dcce40326420469cce44aca87331571ef5e7bc5c7bdcce47340c7331171ee5e7b873391cce3204582045881182045d20461cce3032602045dcce34aca45c7b9cce3734087338dcce22044c2044c8115204517330d71ed5e7b420451cce24aca020455cce20325c5c7b5cce27340473389cce12044020440811220445732f971e85e7a0732fd71e95e7a47330571eb5e7ac5c7adcce0733fc7330971ec5e7b05c7b1cce17340020449cce10325820445cce14ac9c73385cce02043420434810f2043920439cce04ac982043dcce00325473381ccdf2042820428810c2042d2042dccdf4ac945c7a9ccdf733f820431ccdf032507337dccde2041c2041c81092042120421ccde4ac9020425ccde0324c5c7a5ccde733f473379ccdd204102041081062041520415ccdd4ac8c20419ccdd032485c7a1ccdd733f073375ccdc204042040481032040920409ccdc4ac882040dccdc03244732f571e75e79c5c79dccdc733ec73371ccdb203f8203f88100203fd203fdccdb4ac8420401ccdb032407336dccda203ec203ec80fd203f1203f1ccda4ac80203f5ccda0323c3c4cc0a0f028283f2780a2f0283c607140a4f3f2f83f2f80a0f3f3790283d9e9c67aec)
  (.lf 0))) (.nd (.nd (.lf
  0x3031a69769ad869a5da6960fcc00fcc03f320fcc50fcc9a696530700fcc5a696590700302da69669ad469a59a6950fcb40fcb43f2f0fcb90fcbda6955306c0fcb9a6955906c03029a69569ad069a55a6940fca80fca83f2c0fcad0fcb1a694530680fcada6945906869a51a6930fc9c0fc9c3f290fca10fca1a69359064474dc0c280302054fe40c48475dc475dd1d97476dd476dc0c480302003021a69369ac80fca5a6935306469a4da6920fc900fc903f260fc950fc99a69253060474d80c270301c54fe00c47475d8475d91d96476d9476d80c470301c0301da69269ac40fc95a6925906069a49a6910fc840fc843f230fc890fc89a6915905c474d40c260301854fdc0c46475d4475d51d95476d5476d40c460301803019a69169ac00fc8da6915305c69a45a6900fc780fc783f200fc7d0fc81a69053058474d00c250301454fd80c45475d0475d11d94476d1476d00c450301403015a69069abc0fc7da6905905869a41a68f0fc6c0fc6c3f1d0fc710fc71a68f59054474cc0c240301054fd40c44475cc475cd1d93476cd476cc0c440301003011a68f69ab80fc75a68f5305469a3da68e0fc600fc603f1a0fc650fc69a68e53050474c80c230300c)
  (.lf 0)) (.nd (.lf
  0x3bd7c063b018d83bd900620018ec3e3a8065b018ec6f5c97ff161fc45ffc4067b3e4283e428063b3e4a9018ed976465e0c0a4f9976501af065d9597640a4e80a4e8293c0a4ed0a4ed976401aec0a4f197645813065d9197630a4dc19435bd3a5ff606f4e9bd391942019420650a1942519425bd3961f5c5df5dbd396f5606f5617fd761f5c61f5c063a3bd406f5997fe561f9461f9406283bd783bd78063a018d40a4dc29390a4e10a4e597635812c3e3a4065a018e86f5c57ff061fc05ffc0067a3e4243e424063a3e4a56f25150165605856058047b419d06f275501f5607c5607c0464419f46f2a1502a560a8560a8046f41a20419f4047b011c041a200466011ec446a8049b011ec540b004bb447a8447a9120a448a9448a804bb011ec0a66597a35213465e8d97a20a6500a65029960a6550a65997a2521300a65597a258130011ed97a265f0465e8997a10a6440a64429930a6490a64997a15812c018e9976365e0865e09604b01ae865e0d604c01aec65f05484c5813058130660819850197ec000019826198246608197d8197d865f8197dd197dc66085a0e8197e00000198221982065f5197d0197d065f55812d5812c65f55a0e45a0e5bdce6f7b4)
  (.lf 0)))

def shaGateTree137 : BTree :=
  .nd (.nd (.nd (.lf
  0x533b5e24e789b478939e24d29c9429c94a72729c9929c9de24d553b029c99e24d573b0533b1e24d789b078935e24c29c8829c88a72429c8d29c91e24c553ac29c8de24c573ac533ade24c789ac78931e24b29c7c29c7ca72129c8129c85e24b553a829c81e24b573a8533a9e24b789a87892de24a29c7029c70a71e29c7529c79e24a553a429c75e24a573a4533a5e24a789a478929e24929c6429c64a71b29c6929c6de249553a029c69e249573a0533a1e249789a078925e24829c5829c58a71829c5d29c61e2485539c29c5de2485739c5339de2487899c78921e24729c4c29c4ca71529c5129c55e2475539829c51e2475739853399e247789987891de24629c4029c40a71229c4529c49e2465539429c45e2465739453395e2467899478919e24529c3429c34a70f29c3929c3de2455539029c39e2455739053391e2457899078915e24429c2829c28a70c29c2d29c31e2445538c29c2de2445738c5338de2447898c78911e24329c1c29c1ca70929c2129c25e2435538829c21e2435738853389e243789887890de24229c1029c10a70629c1529c19e2425538429c15e2425738453385e2427898478909e24129c0429c04a70329c0929c0de24155380)
  (.lf 0)) (.nd (.lf
  0xb9559af752474450e0072901c24543e80749451e0451e11498452e1452e0074901c2401c259af466c4c0b9519af75847466bdd9af60b9400b9402e520b9450b9459af6584700b9499af65247041db4070b01c00450e8072b01c2c543f0074b451e8451e9149a452e9452e8074b01c2c01c2d9af666c5466bd99af50b9340b9342e4f0b9390b93d9af55246c450e4072a01c28543ec074a451e4451e51499452e5452e4074a01c2801c299af566c500b9399af55846c66bd59af40b9280b9282e4c0b92d0b9319af4524680b92d9af45846866bd19af30b91c0b91c2e490b9210b9219af358464450c4072201c08543cc0742451c4451c51491452c5452c4074201c0801c099aed66c3066c3149135844c66ca54930584c066bad613001e7c584c072441c9441c94400005a4525a451c4c27138471309c4c11caa41caa472ab1caa91caadc4c15c3d066ba9612f01e7866ca1492f584bc1c91072381c8dc1c8dc7238584bd584bc72385a44c1c8e072431c8d01c8d072361c8d51c8d472435a44866b99612b01e6866c91492b584ac66b9d612c01e6c66c95492c584b0584b072421c93c1c8d800001c90e66ba5612e01e7466c9d492e584b8584b872431c940)
  (.lf 0))) (.nd (.nd (.lf
  0x2348dd38f5eb2474e3dd38e2347c2347c8d212348123485d38e5cb20233208cc623314233148cc658c0d58c0c8cc65ab705ab71d38e74eb474eb572c85eb205cb21d3cc74fac74fac0d724b00c4b00e08bc8236c8236d33034e40c4e40e09388255c824e2093738ccc38ccce33538cd138cd609374b38838cd209374fc0838a1208bc4cc0c822f208bb389fc389fce28138a0138a0208bb4e40868885630202dc40e261a20302dc86880da2020e2500e25038960e2550e259a20258c08235edd3cc035c874f31d3cb235d8235d88d78235dd235ddd3cb4b00823481d38e5eb2074e39d38d23470234708d1e2347523479d38d5cb1c23319d37923308233088cc42330d2330dd3795ab6c58c09d379233a0233a000005ab6e5ab6dd38d74eb074eb172c75eb1c5cb1dd3cb74fa874fa80d714b0084b00a08bb823688236933024e4084e40a093782558824de093638cc038cc0e33238cc538cca09364b38438cc609364fc0438a0608bb4cc08822ee08ba389f0389f0e27e389f5389f608ba4e404033c1a201688800e255a20202dc468809a2010e2440e24438930e2490e24da20158c0468881630102dc0235e1d3cb035c474f2dd3ca235cc235cc8d75235d1)
  (.lf 0)) (.nd (.lf
  0x301cdf1414a3184d399f1417c580301c9f1414eb987c505f140301b8301b8c070301bd301bdf1404eb94301c1f1404a3144d395f1407c57c7c501f13f301ac301acc06d301b1301b5f13f4a310301b1f13f4eb904d391f13f7c5787c4fdf13e301a0301a0c06a301a5301a9f13e4a30c301a5f13e4eb8c4d38df13e7c5747c4f9f13d3019430194c067301994d389f13d7c57030199f13d4eb883019df13d4a3087c4f5f13c3018830188c0643018d30191f13c4a3043018df13c4eb844d385f13c7c56c7c4f1f13b3017c3017cc0613018130181f13b4eb8030185f13b4a3004d381f13b7c5687c4edf13a3017030170c05e3017530179f13a4a2fc4d37df13a7c56430175f13a4eb7c7c4e9f1393016430164c05b3016930169f1394eb783016df1394a2f84d379f1397c5607c4e5f1383015830158c0583015d30161f1384a2f44d375f1387c55c3015df1384eb747c4e1f1373014c3014cc0553015130155f1374a2f05bb71b5136d4c86d4c805864a05c30151f1374eb704d371f1377c5587c4ddf1363014030140c0523014530145f1364eb6c30149f1364a2ec4d36df1367c5547c4d9f1353013430134c04f301393013df1354a2e830139f1354eb68)
  (.lf 0)))

def shaGateTree138 : BTree :=
  .nd (.nd (.nd (.lf
  0x55600118f487f8556041190487fc556081191488005560c119248804556101193488085561411944880c556181195488105561c119648814556201197488185562411984881c556281199488205562c119a4882455630119b4882855634119c4882c55638119d488305563c119e4883455640119f48838487bd220f488bd487c12210488c1487c52211488c5487c92212488c9487cd2213488cd487d12214488d1487d52215488d5487d92216488d9487dd2217488dd487e12218488e1487e52219488e5487e9221a488e9487ed221b488ed487f1221c488f1487f5221d488f5487f9221e488f9487fd221f488fd4880122204890148805222148905488092222489094880d22234890d4881122244891148815222548915488192226489194881d22274891d488212228489214882522294892548829222a489294882d222b4892d48831222c4893148835222d4893548839222e48939488bc118004500488c0118104504488c4118204508488c811830450c488cc118404510488d0118504514488d4118604518488d811870451c488dc118804520488e0118904524488e4118a04528488e8118b0452c488ec118c04530488f0118d04534488f4118e04538)
  (.lf 0)) (.nd (.lf
  0x6050c09cd3eef03eef0098d3ef71026359caa673243ee8c09b4026506052809d43ef0c3ef0c09943ef8d026519cb1673403ee9009b5026543ee9409b6026586052c09d53ef106053009d63ef143ef1009953ef913ef1409963ef95026599cb3673480c39c30e90c3a10c3a59cb35869c0c3a19cb302058672cd9cb20c3900c39030e60c3950c3959cb202054026559cb2673440c3999cb258698672c99cb10c3840c38430e30c3890c38d9cb1586940c3899cb102050672c59cb00c3780c37830e00c37d0c3819cb0586903ee8409b2026483ee8809b30264c6052009d23ef046052409d33ef083ef0409923ef853ef0809933ef890c37d9cb00204c0264d9cb06733c672c19caf0c36c0c36c30dd0c3710c3719caf02048026499caf673380c3759caf5868c672bd9cae0c3600c36030da0c3650c3699cae586883ee5c09a8026203ee6009a9026243ee6409aa026283ee6809ab0262c3ee6c09ac026303ee7409ae026383ee7809af0263c3ee7c09b0026403ee8009b102644604f809c83eedc604fc09c93eee06050009ca3eee46050409cb3eee86050809cc3eeec6051009ce3eef46051409cf3eef86051809d03eefc6051c09d13ef003eedc09883ef5d)
  (.lf 0))) (.nd (.nd (.lf
  0x7604dd8122532c2532c94cd2533125335d81260d0c25331d81262d0c5ed0dd812760c476049d811253202532094ca2532525329d81160d0825325d81162d085ed09d811760c076045d810253142531494c7253192531dd81060d0425319d81062d045ed05d810760bc76041d80f253082530894c42530d25311d80f60d002530dd80f62d005ed01d80f760b87603dd80e252fc252fc94c12530125305d80e60cfc25301d80e62cfc5ecfdd80e760b476039d80d252f0252f094be252f5252f9d80d60cf8252f5d80d62cf85ecf9d80d760b076035d80c252e4252e494bb252e9252edd80c60cf4252e9d80c62cf45ecf5d80c760ac76031d80b252d8252d894b8252dd252e1d80b60cf0252ddd80b62cf05ecf1d80b760a87602dd80a252cc252cc94b5252d1252d5d80a60cec252d1d80a62cec5ecedd80a760a476029d809252c0252c094b2252c5252c9d80960ce8252c5d80962ce85ece9d809760a076025d808252b4252b494af252b9252bdd80860ce4252b9d80862ce45ece5d8087609c76021d807252a8252a894ac252ad252b1d80760ce0252add80762ce05ece1d807760987601dd8062529c2529c94a9252a1252a5d80660cdc252a1d80662cdc)
  (.lf 0)) (.nd (.lf
  0x17ed1ba0c018e05be39ba0c6e8ac6e831ba0b17ebc17ebc5fb117ec16e7b16f8d5de3417ec5ba0b018dc17ec1ba0b4a3205be35ba0b6e8a86e82dba0a17eb06e7ad6f8c5de306e7a56f8a5de2817eb05fae17eb517eb5ba0a4a31c17eb9ba0a018d85be31ba0a6e8a46e829ba0917ea417ea45fab17ea917ea9ba094a31817eadba09018d46e825ba0817e9817e985fa817e9d17ea1ba08018d05be29ba086e89c17e9dba084a3146e821ba0717e8c17e8c5fa517e9117e95ba07018cc6e7a16f895de2417e91ba074a3105be25ba076e8986e81dba0617e8017e805fa217e8517e85ba064a30c6e7956f865de186e7916f855de145be15ba036e8886e79d6f885de2017e89ba06018c85be21ba066e8946e819ba0517e7417e745f9f17e796e7996f875de1c17e7dba05018c417e79ba054a3085be1dba056e8906e815ba0417e686e78d6f845de106e7816f815de046e7856f825de086e7896f835de0c17e685f9c17e6d17e6dba044a30417e71ba04018c05be19ba046e88c6e811ba0317e5c17e5c5f9917e6117e61ba034a30017e65ba03018bc6e80dba0217e5017e505f9617e5517e59ba02018b85be11ba026e88417e55ba024a2fc6e809ba0117e44)
  (.lf 0)))

def shaGateTree139 : BTree :=
  .nd (.nd (.nd (.lf
  0x3b1560f82518843affa0f454e88883d160f443afe83afe8ebfc3afed3aff20f444d084275c5dcbd03a44772f5dcbc275b0275b09d6e275b5275b5dcbc4b4845cf99dcbc7736c7736c0e904b4844b4860f4483d8c83d8d34214e8844d0860f8283e8483e0a0f813b1443b144ec533b1493b14e0f810073c3b14a0f81518803afee0f444e88483d120f433afdc3afdcebf93afe13afe60f434d080275b9dcbc03a40772f1dcbb275a4275a49d6b275a9275a9dcbb4b4805cf95dcbb77368773680e8f4b4804b4820f4383d8883d8934204e8804d0820f8183e8083e060f803b1383b138ec503b13d3b1420f80007383b13e0f805187c3afe20f434e88083d0e0f423afd03afd0ebf63afd53afda0f424d07c275addcbb03a3c772eddcba27598275989d682759d2759ddcba4b47c5cf91dcba77364773640e8e4b47c4b47e0f4283d8483d85341f4e87c4d07e0f8083e7c83e020f7f3b12c3b12cec4d3b1313b1360f7f007343b1320f7f518783afd60f424e87c83d0a0f413afc43afc4ebf33afc93afce0f414d078275a1dcba03a38772e9dcb92758c2758c9d652759127591dcb94b4785cf8ddcb977360773600e8d4b4784b47a0f4183d8083d81341e4e878)
  (.lf 0)) (.nd (.lf
  0x7045009014a6481ae79c0f64a64c7035d70585e1605c161c0f670454703d9c0f51ae681ae686b9c1ae6d1ae6dc0f54a6484a649fadd7ebf07ec5d30ad4dab47ec6530af4dabc7ec4130a64da987ec3530a34da8c7ec3930a44da907ec3d30a54da947ec0930984da607ec0530974da5c7ec11309a4da6833929fade4c24c7045409024a64c4a64dfade7ebf47eb79fadd3391433914ce473391933919fadd4da483391dfadd4c2487eb7530914da457ec6930b04dac04c2c1fb397ed607ece5fb3833bd833bd8cef833bdd4c2bdfb387ed5c33be1fb384aebc33bddfb3850abc7ece1fb3733bcc33bcccef533bd133bd1fb3750ab87ec5930ac4dab04c2b1fb357ed507ec6130ae4dab84c2b9fb377ed5833bd5fb374aeb87ecddfb3633bc033bc0cef233bc533bc9fb364aeb433bc5fb3650ab44c2b5fb367ed547ecd9fb3533bb433bb4ceef33bb933bbdfb354aeb033bb9fb3550ab07ecd5fb3433ba87ec5530ab4daac4c2adfb347ed4c33ba8ceec33bad33badfb3450aac33bb1fb344aeac7ecd1fb3333b9c33b9ccee933ba133ba5fb334aea833ba1fb3350aa87ec5130aa4daa84c2a9fb337ed487eccdfb3233b9033b90cee633b9533b95fb3250aa4)
  (.lf 0))) (.nd (.nd (.lf
  0x608580ca03f5bc6085c0ca13f5c0608600ca23f5c4608640ca33f5c8608680ca43f5cc6086c0ca53f5d0608700ca63f5d43f5bc0a603f63d3f5c00a613f6413f5c40a623f6453f5c80a633f6493f5cc0a643f64d3f5d00a653f6513f5d40a663f65573f3972545e95073f3d72555e9545c955cfee7403473fb9cfed219a4219a4866b219a9219adcfed033f8219a9cfed4ae3c5c951cfed7403073fb5cfec219982199886682199d219a1cfec033f42199dcfec4ae3873f3572535e94c5c94dcfec7402c73fb1cfeb2198c2198c86652199121995cfeb033f021991cfeb4ae345c949cfeb7402873fadcfea219802198086622198521989cfea033ec21985cfea4ae3073f2d72515e9445c945cfea7402473fa9cfe92197421974865f219792197dcfe9033e821979cfe94ae2c0d809a046529e068119a0450d7f40d7f435ff0d7f90d7fda045529dc461540a86021985495c0aa6462544625518b546355463540aa60219802199a045681900d7f9a045589dc68115a0440d7e80d7e835fc0d7ed0d7eda044589d8461500a8502194549580aa5462504625118b446351463500aa50219402195a0446818c0d7f1a044529d868111a0430d7dc0d7dc35f90d7e1)
  (.lf 0)) (.nd (.lf
  0x64a455ef200e84649cd9272087900879021e60879508799927257bc857bc9b3d86cfdc6cfdd6eb75dadc6d2317ed061b4008b8c22e508b9108b95930757cac6d155b454153a8153a854ec153ad5daddb4546d1cc6d1cd7eb761adc5fb40055a3db243db24051a3dba5153adb45461adc61adc051a3b8c06d2057ec561b1461b1405083b8f83b8f8051a014546c4f8051a49eac08b91930700f683daa4053a0146801469930764c9864c1d930608b804373c034000c8008795927200e84649c95ef100e8108b8022e208b8553b4403604383c4383d0e2f4393d4393c036000c8000c8146f157bc4150e1b3d85badc6cf616eb65dad913671b00e49dc86c03804e049dc50890192b051bc85b8d804e049dc43d93c0500013805fa5805203d9bc3d9bc04e03da3d013815ef100e8064ac146f157bc557bc56eb65dad8153b1b4545fadc6d1517eb661ad95dad97eb661ad86d2017ec461b1061ad805193b8bc61b1005073b8f43b8f405190145008b89930657ca86c4f4051949ea808b85930600f643daa00539014645fb3c05593db203db2005193dba101465930664c9464c19930508b7408b7422df08b7908b7d930557ca46d1fd7ec361b0c61b0c05063b8f0)
  (.lf 0)))

def shaGateTree140 : BTree :=
  .nd (.nd (.nd (.lf
  0x123a848ec123ad123adad545974804605ad546b5cc6b5cd4dd25974812251ad1700b886b45dad16122401224048921224512249ad1659748597496d965b65c5b65e1125845108458975b55f6d48458575b45f6d08458175b35f6cc8457d75b25f6c88457975b15f6c48457575b05f6c08457175af5f6bc8456d75ae5f6b88456975ad5f6b48456575ac5f6b08456175ab5f6ac8455d75aa5f6a88455975a95f6a48455575a85f6a08455175a75f69c8454d75a65f6988454975a55f6948454575a45f6908454175a35f68c8453d75a25f6888453975a15f6848453575a05f68084531759f5f67c8452d759e5f67884529759d5f67484525759c5f67084521759b5f66c8451d759a5f6688451975995f6648451575985f6608451175975f65c2bbe5e6ab004045d4580fc00040079aac0fc000401123b1ad5453748046014dd1597446b5514dd15974512245ad1600b8403f0165d100b806b45965d100b815974400005b65a5b65975965f6588449575965f6595f6d5ea9b7aae87aa6dea9a2d8182d818b6082d81d2d821ea9a616d02d81dea9a636d05f6d1ea9a7aae47aa69ea992d80c2d80cb6052d8112d815ea99616cc2d811ea99636cc5f6cdea997aae0)
  (.lf 0)) (.nd (.lf
  0x45a0c07f401f5045a1007f501f5445a1407f601f5845a1807f701f5c45a1c07f801f6045a2007f901f6445a2407fa01f6845a2807fb01f6c45a2c07fc01f7045a3007fd01f7445a3407fe01f7845a3807ff01f7c546ec080a45ae4546f0080b45ae8546f4080c45aec546f8080d45af0546fc080e45af454700080f45af854704081045afc54708081145b005470c081245b0454710081345b0854714081445b0c54718081545b105471c081645b1454720081745b1854724081845b1c54728081945b205472c081a45b2454730081b45b2854734081c45b2c54738081d45b305473c081e45b3454740081f45b3845ae516d945be545ae916da45be945aed16db45bed45af116dc45bf145af516dd45bf545af916de45bf945afd16df45bfd45b0116e045c0145b0516e145c0545b0916e245c0945b0d16e345c0d45b1116e445c1145b1516e545c1545b1916e645c1945b1d16e745c1d45b2116e845c2145b2516e945c2545b2916ea45c2945b2d16eb45c2d45b3116ec45c3145b3516ed45c3545b3916ee45c3945be4080a01f2845be8080b01f2c45bec080c01f3045bf0080d01f3445bf4080e01f3845bf8080f01f3c45bfc081001f4045c00081101f44)
  (.lf 0))) (.nd (.nd (.lf
  0xf7cda5ac58fa80f7d1a5ac52fa825b15d94c54ed476531d94b25b0025b0096c225b0525b09d94b54ed025b05d94b56ed052ed1d94b765a87652dd94a25af425af496bf25af925afdd94a54ecc25af9d94a56ecc52ecdd94a765a476529d94925ae825ae896bc25aed25af1d94954ec825aedd94956ec852ec9d949765a052ec553b156ec47652553b156ec556ec40bd64283c765a153b256ec856ec80bd742840765a553b356ecc56ecc0bd842844765a953b456ed056ed00bd942848765c553bb56eec56eec0bc042864765c953bc56ef056ef00bc142868765cd53bd56ef456ef40bc24286c765e953c456f1056f100bc942888765ed53c556f1456f140bca4288c765f153c656f1856f180bcb42890765f553c756f1c56f1c0bcc42894765f953c856f2056f200bcd4289856f3c0bd4428b456f400bd5428b8428580bd402f244285c0bd502f28428600bd602f2c428640bd702f30428680bd802f344286c0bd902f38428880bc002f544288c0bc102f58428900bc202f5c428940bc302f60428980bc402f644720c0bf402f50472100bf502f54472140bf602f58472180bf702f5c4721c0bf802f60472200bf902f6454f140c144730c54f180c1547310)
  (.lf 0)) (.nd (.lf
  0x10b9969d65af065a75969c0a008418bc042d0108844370044d010b453f78046d4447044471113c4457144570046d010b4010b5969c65aec0a00828040a00d0a00d969c57ff80a011969c51ff865a71969b09ffc09ffc28010a00141938042c010844436c044c010b053f74046c4446c4446d113b4456d4456c046c010b0010b1969b65ae80a001969b57ff43bc4405ed017a03bc4805ee017a41897062871896018960625a1896518968000018a1e3e174060e017b85fe90062e3e1f43e1f405ee3e275017b9965f659f8659f95fff012b83e170060d017b45fe8c062d3e1f03e1f005ed3e271017b5965e659f4659f55ffe012b418964628759fc465af147ff57ffc09ebd9660012bc65981965f09eac09eac27ad09eb109eb5965f57ffc57ffc628718a5818a1c628618954189546257189591895c000018a1a18958628659fc065aed47fe57ff809eb1965f012b86597d965e09ea009ea027aa09ea509ea9965e57ff857ff8628618a5418a186285189481894862541894d1894c628559fbc3bc4005ec0179c3e16c060c017b05fe88062c3e1ec3e1ec05ec3e26d017b1965d659f0659f15ffd012b065ae947fd57ff409ea5965e012b465979965d09e94)
  (.lf 0)))

def shaGateTree141 : BTree :=
  .nd (.nd (.nd (.lf
  0x47d1410960415804159a8916a2c06a245a890108781087842201087d10881a890532981087da8905929847b1010750415455218109547c1047c111f2447d1147d1010950415404155a8906a2bc6a241a88f1086c1086c421d1087110875a88f5329410871a88f5929447b0c10740415055214109447c0c47c0d1f2347d0d47d0c10940415004151a88f6a2b86a23da88e1086010860421a1086510869a88e5329010865a88e5929047b0810730414c55210109347c0847c091f2247d0947d0810930414c0414da88e6a2b46a239a88d10854108544217108591085da88d5328c10859a88d5928c47b041072041485520c109247c0447c051f2147d0547d0410920414804149a88d6a2b06a235a88c108481084842141084d10851a88c532881084da88c5928847abc10600410047ac010610410447ac410620410847ac810630410c47acc10640411047ad010650411447ad410660411847ad810670411c47adc10680412047ae010690412447ae4106a0412847ae8106b0412c47aec106c0413047af0106d0413447af4106e0413847af8106f0413c47afc10700414047b00107104144551c4108047bbc551c8108147bc0551cc108247bc4551d0108347bc8)
  (.lf 0)) (.nd (.lf
  0xb1d82c780b1dd0b1e199b8583500230d99b86675c6675d60d401d0c1b9ac6e691b9a01b9a06e6958351583506e695a2f05a2f1c2b670b5470b5570995e2645c265c2f470c4c70c4c09434a75070bbd70b35e2cc5c2cdc30e70cb470bc570b55e2d45c2d5c31070cbc70c41c30f1bdec70bc170b45e2d05c2d1c30f70cb81bdec6f7d1bdf11bdf5c30f025781bdf1c30f4a7bc70c3dc30e1bde01bde06f7a1bde51bde5c30e4a7b81bde9c30e0257470c39c30d1bdd41bdd46f771bdd91bdddc30d0257070bb970b25e2c85c2c9c30d70cb01bdd9c30d4a7b470c35c30c1bdc81bdc86f741bdcd1bdcdc30c4a7b070bb570b15e2c45c2c5c30c70cac1bdd1c30c0256c70c31c30b1bdbc1bdbc6f711bdc11bdc5c30b025681bdc1c30b4a7ac70bb170b05e2c05c2c1c30b70ca870c2dc30a1bdb01bdb06f6e1bdb51bdb9c30a0256470bad70af5e2bc5c2bdc30a70ca41bdb5c30a4a7a870c29c3091bda41bda46f6b1bda91bdadc309025601bda9c3094a7a470ba970ae5e2b85c2b9c30970ca070c25c3081bd981bd986f681bd9d1bda1c3080255c1bd9dc3084a7a070ba570ad5e2b45c2b5c30870c9c70c21c3071bd8c1bd8c6f651bd9170ba170ac5e2b0)
  (.lf 0))) (.nd (.nd (.lf
  0x227c5d1d54af1c5aa8dd197746d8746d9728c5ea3022669d1985ea3474661d197226582265889982265d22661d1975ca305ca31d1d5747d0747d00d364af1c4af1e074c81dac81dad32c74e31c4e31e07c881f9c81f2207c73848c3848ce125384913849607c74b2983849207c74fb182249400002250a2250889412248022480892222485684b562c602cd4685ad4ac658b1858b188941225402254000005aa8a381d2074c4cb1c81d32074b381bc381bce071381c1381c2074b4e3182248489415aa885aa89d196746d4746d5728b5ea2c227c9d1d5034d874755d1d4227b4227b489ef227b9227b9d1d44af182265dd1975ea307465dd1962264c2264c89952265122655d1965ca2c5ca2dd1d4747cc747cc0d354af184af1a074b81da881da932c64e3184e31a07c781f9881f1e07c63848038480e122384853848a07c64b2943848607c64fb142248800002250622504891f2247822478891f58b15684b162c502cd0685a94ac558b1458b14891f5aa84381c6074b4cb1881d2e074a381b0381b0e06e381b5381b6074a4e314227bdd1d4034d474751d1d3227a8227a889ec227ad227add1d34af1422651d1965ea2c74659d1952264022640899222645)
  (.lf 0)) (.nd (.lf
  0x57d496746166901652859481651c1651c594857d4d650195f530100865111475357d4c57d4c594859d2016521674616514165155f511651916519674659d1c16690000059d1e59d1db6c06db7c6db7d6f175dc5c59d89b6db6dbe8166d4000059d9259d95b6de6dbf46db79b6dd16834168345a0f168391683db6dd5bcd016839b6dd5dcd059d91b6dd6dbf06db75b6dc16828168285a0c1682d166d0000059d8e59d8db6dc6dbec1682db6dc5dccc16831b6dc5bccc6db71b6db1681c1681c5a091682116821b6db5dcc816825b6db5bcc86db6db6da16810168105a061681516819b6da5bcc416815b6da5dcc4166cc000059d8659d85b6da6dbe46db69b6d916804168045a03168091680db6d95bcc059d81b6d96dbe016809b6d95dcc06db65b6d8167f859d7db6d86dbdc167f85a00167fd16801b6d85bcbc167fdb6d85dcbc6db61b6d7167ec167ec59fd167f1167f1b6d75dcb8167f5b6d75bcb859d79b6d76dbd86db5db6d6167e0167e059fa167e5167e9b6d65bcb459d71b6d56dbd059d75b6d66dbd4167e5b6d65dcb46db59b6d5167d4167d459f7167d9167d9b6d55dcb0167ddb6d55bcb06db55b6d4167c8167c859f4167cd167cdb6d45dcac)
  (.lf 0)))

def shaGateTree142 : BTree :=
  .nd (.nd (.nd (.lf
  0x2b6d1e5ec6140c2b6cde5ec6340c2b40de5715d410795c5e5702b3f82b3f8ad002b3fd2b3fde5705f40c2b264acc42b2542b254ac972b2592b258acc45b4142992de1c4001b878711e1c32991c2991ca6492992129925e1c303cb45d20de1c378788787880f2d001b41163daaf5534fc6abd5aaf41162811628458c1162d1162daaf4594f8043b5aaf46ac4c6ac4d4d3e594f8114d1aab7045b86aaddaab6114c0114c04532114c5114c9aab6594f803cb5aab66ab546ab55653e045b4594f8acc42b3442b34400005b4165b415e5707963c7963d75035f40c5f40de5ec7982c797b1e5eb2b6bc2b6bcadb12b6c12b6c5e5eb614082b6c1e5eb634082b401e5705d40c795c1e56f2b3ec2b3ecacfd2b3f12b3f1e56f5f4082b25c00002b3122b310ac942b24c2b24cac94594f55d209e1c278784787840f2c001b029921e1c3001b47870de1c22991029910a6462991529919e1c203cb003cb1aab56ab506ab51653d045b011631aaf4534f86abd1aaf31161c1161c45891162111621aaf3594f4043b1aaf36ac486ac494d3d594f4114c5aab6045b46aad9aab5114b4114b4452f114b9114bdaab5594f4594f4ac945b4105b411e56f796387963975025f408)
  (.lf 0)) (.nd (.lf
  0x1ceb5c5775452c1ceb1c5775652c715ddc5761cea01cea073aa1cea51cea5c576565287166d5150565401cea9c5765452852529c57671654715d9c5751ce941ce9473a71ce991ce99c575565241ce9dc5755452452525c57571650715d5c5741ce881ce8873a41ce8d1ce8dc574565201ce91c5745452052521c5747164c715d1c5731ce7c1ce7c73a11ce811ce81c5735651c1ce85c5735451c5251dc57371648715cdc5721ce701ce70739e1ce751ce75c572565181ce79c5725451852505c56d7163052519c57271644715c9c5711ce641ce64739b1ce691ce69c571565141ce6dc5715451452515c57171640715c5c5701ce581ce5873981ce5d1ce5dc570565101ce61c5705451052511c5707163c715c1c56f1ce4c1ce4c73951ce511ce55c56f5450c5250dc56f716381ce51c56f5650c715bdc56e1ce401ce4073921ce451ce45c56e565081ce49c56e5450852509c56e71634715b9c56d1ce341ce34738f1ce391ce39c56d565041ce3dc56d54504715b5c56c1ce281ce28738c1ce2d1ce2dc56c565001ce31c56c5450052501c56c7162c715b1c56b1ce1c1ce1c73891ce211ce21c56b564fc1ce25c56b544fc524fdc56b71628715adc56a1ce10)
  (.lf 0))) (.nd (.nd (.lf
  0x3953ce55139541395460aab4b488395420aab4fd08392820a304cd0c828c20a2f3926c3926ce49d39271392720a2f4e50868c65634202ec4243cdd5d7036c87575dd5d6243b8243b890f0243bd243bdd5d64b10824261d5995ec2075665d598242502425090962425524259d5985cc1c240e400007560675605d580240d0240d09036240d5240d5d5805ac6858d09d580241702417000005ac6a5ac69d598756dc756dd73075ec1c5cc1dd5d6757d4757d40db14b1084b10a0a2f829388293933424e5084e50a0aab82b2882aae0aaa3953039530e54e395353953a0aaa4b484395360aaa4fd04392760a2f4cd08828be0a2e3926039260e49a39265392660a2e4e50468c61634102ec0243c1d5d6036c475759d5d5243ac243ac90ed243b1243b1d5d54b10424255d5985ec1c75661d59724244242449093242492424dd5975cc18240d8000075602756009033240c8240c8903358d0558d0490335ac645ac65d597756d8756d973065ec185cc19d5d5757d0757d00db04b1044b1060a2e829348293533414e5044e5060aaa82b2482aaa0aa93952439524e54b395293952e0aa94b4803952a0aa94fd003926a0a2e4cd04828ba0a2d3925439254e49739259)
  (.lf 0)) (.nd (.lf
  0x930594660109416c985b2757dd5651999465092f4092f424bf092f965309477557dd4092fd946557dd457dd45b2759da816c9c5b6b16c8c65305477457dd0092f9946501090651959464092e8092e824bc092ed3dd4805830158c5fc6405a33ddc83ddc805633de49092f1946457dd00158d94646520c6520d5f740108c57dd05b6b16df416c8c5b2516c9116c94000016dae16c905b6b59da416dac5b6a16c8016c805b2216c8516c845b6a59da0092ed94640108c651919463092dc3dd440582015885fc6005a23ddc43ddc405623de4543d4403c200e8853d4c03e243e4443e450fb143f4543f4403e200e8800e8994a16530065301477357dcc01589946365208652095f7301088092dc24b9092e1092e5946357dcc57dcc5b6a16df016c88000016daa16da9676616c7816c795f7116c7d53d4403e043e3c43e3d0faf43f3d43f3c03e000e80092e19463010886518d9462092d03dd400581015845fc5c05a13ddc03ddc005613de4101585946265204092d024b6092d5092d5946201084092d9946257dc8651895f710108143d3c03c000e8000e81477157dc443d4003c100e8453d4803e143e4043e410fb043f4143f4003e100e8400e8594a0652fc)
  (.lf 0)))

def shaGateTree143 : BTree :=
  .nd (.nd (.nd (.lf
  0x81b8800495126851268002c059c081b8c004a5126c5126c002d059c481b90004b5127051270002e059c881b94004c5127451274002f059cc81b98004d51278512780030059d081b9c004e5127c5127c0031059d481ba0004f51280512800032059d881ba4005051284512840033059dc81ba8005151288512880034059e081bac00525128c5128c0035059e481bb0005351290512900036059e881bb4005451294512940037059ec81bb8005551298512980038059f081bbc00565129c5129c0039059f481bc00057512a0512a0003a059f881bc40058512a4512a4003b059fc81bc80059512a8512a8003c05a0081bcc005a512ac512ac003d05a0481bd0005b512b0512b0003e05a0881bd4005c512b4512b4003f05a0c0599c00320009c059a00033000a0059a40034000a4059a80035000a8059ac0036000ac059b00037000b0059b40038000b4059b80039000b8059bc003a000bc059c0003b000c0059c4003c000c4059c8003d000c8059cc003e000cc059d0003f000d0059d40020000d4059d80021000d8059dc0022000dc059e00023000e0059e40024000e4059e80025000e8059ec0026000ec059f00027000f0059f40028000f4059f80029000f8)
  (.lf 0)) (.nd (.lf
  0x19dd4677719dd919dd9be8a561b419dddbe8a541b4521b5be8a6faa46fa29be8919dc819dc8677419dcd19dcdbe89561b052175be7a6fa64521a1be856fa9052199be836fa8819dd1be89541b0521b1be896faa06fa25be8819dbc19dbc677119dc119dc5be88541ac521adbe886fa9c19dc1be88561ac6fa21be8719db019db0676e19db519db9be87541a8521a9be876fa9819db5be87561a86fa1dbe8619da419da4676b19da919dadbe86541a419da9be86561a4521a5be866fa946fa19be8519d9819d98676819d9d19da1be85541a019d9dbe85561a06fa15be8419d8c19d8c676519d915218dbe806fa7c19d95be845419c19d91be845619c5219dbe846fa8c6fa11be8319d8019d80676219d8519d89be835419819d85be83561986fa0dbe8219d7419d74675f19d7952195be826fa8419d79be825619419d7dbe82541946fa09be8119d6852191be816fa8019d68675c19d6d19d6dbe815619019d71be81541906fa05be8019d5c19d5c675919d6119d65be805418c19d61be805618c6fa01be7f19d5019d50675619d5519d59be7f5418819d55be7f561886f9fdbe7e19d4419d44675319d4919d4dbe7e5418419d49be7e5618452185be7e6fa74)
  (.lf 0))) (.nd (.nd (.lf
  0x21159ceaa5c8d021155ceaa5e8d073aa9cea921144211448453211492114dcea95c8cc5a929cea973b2021149cea95e8cc73aa5cea8211382113884502113d2113dcea85e8c821141cea85c8c820ff000005a9265a925cea873b1c73aa1cea72112c2112c844d2113121131cea75e8c421135cea75c8c45a921cea773b1873a9dcea62112021120844a2112521129cea65c8c021125cea65e8c073a99cea521114211148447211192111dcea55c8bc5a911cea373b085a919cea573b1021119cea55e8bc73a95cea4211082110884442110d2110dcea45e8b821111cea45c8b85a915cea473b0c73a91cea3210fc210fc84412110121101cea35e8b421105cea35c8b473a8dcea2210f0210f0843e210f55a90dcea273b04210f9cea25c8b0210f5cea25e8b073a89cea1210e4210e4843b210e9210edcea15c8ac210e9cea15e8ac20fe800005a90a5a909cea173b0073a85cea0210d8210d88438210dd210e1cea05c8a820fe400005a902210ddcea05e8a85a905cea073afc73a81ce9f210cc210cc8435210d1210d5ce9f5c8a4210d1ce9f5e8a45a901ce9f73af873a7dce9e210c0210c08432210c55a8f5ce9c73aec5a8fdce9e73af4210c5ce9e5e8a0)
  (.lf 0)) (.nd (.lf
  0x53a68032943560435610d78436614366003294b7684b76991c06477c083cd91c151aec6470591c0083b8083b820f0083bd083bd91c057ae86477d46ba57ae808261918300da86460d9182082500825020960825508259918257ae85f97c04e93d7e03d7e12d5a3d8613b7b52d5a4b5544b569918264684646855eba00da414221b1c659ad457ae9b1c61431c1422400006c71a6c719b1c514210142105086142151421800006c71663dc92dd900a2008255918200da4646099181082440824420930824908249918100da00824d918157ae45f97804e83d7dc3d7dd2d593d85d639e92d59008203b7b12d594b5504b565918164680646059180082380823820900823d5f97404e73d7d83d7d92d583d859639e52d580081c3b7ad2d584b54c3d75804c74b5604b56191806467c08241918057ae00823d918000d9c64601917f0822c083c191c051ae86470191bf083ac083ac20ed083b1083b191bf57ae453a60032743558646815eb900da0646795eb700d984345403064b75c4345c03084b76453a6403284355c4355d0d774365d4365c03284b7644b76591bf647786477946b957ae46467d5eb800d9c083b591bf51ae4646fd91be083a0083a020ea083a5)
  (.lf 0)))

def shaGateTree144 : BTree :=
  .nd (.nd (.nd (.lf
  0x2ec7cbb212ec812ec85ed9b6181c2ec81ed9b6381c2e9c1ed205d8207b481ed1f2e9ac2e9acba6d2e9b12e9b1ed1f5f81c2e879ecfd2e8682e868ba1c2e86d2e86decfd5b81c598fdecfd7b4287b42800005b81e5b81ded1f7b4f87b4f976075f81c5f81ded9b7b6e87b66ded9a2ec702ec70bb1e2ec752ec79ed9a618182ec75ed9a638182e9b5ed1f5d81c7b47ded1e2e9a02e9a0ba6a2e9a52e9a5ed1e5f8182e87000007b3f67b3f4ba192e8602e860ba19598f9598f8ba195b8185b819ed1e7b4f47b4f576065f8185f819ed9a7b6e47b669ed992ec642ec64bb1b2ec692ec6ded99618142ec69ed99638142e9a9ed1e5d8187b479ed1d2e9942e994ba672e9992e999ed1d5f8142e864ba172e8582e858ba17598f5598f4ba175b8145b815ed1d7b4f07b4f176055f8145f815ed997b6e07b665ed982ec582ec58bb182ec5d2ec61ed98618102ec5ded98638102e99ded1d5d8147b475ed1c2e9882e988ba642e98d2e98ded1c5f8102e85cba152e8502e850ba15598f1598f0ba155b8105b811ed1c7b4ec7b4ed76045f8105f811ed987b6dc7b661ed972ec4c2ec4cbb152ec512ec55ed976180c2ec51ed976380c2e991ed1c5d8107b471ed1b2e97c)
  (.lf
  0x4137d2e0e4b80c53a38031d43430559e12e0e41358434310d2c4353143530031d4b83863f152e0e00af455a312e02413a8413a92df94b8384b8399158645dc081dd915857ab8645619157081cc081cc2075081d1081d1915757ab4081d5915751ab4559dd2e0d4135455a2d2e01413a4413a52df84b8344342d0d2b4352d4332d2ded4b8344352c031c4b8344b8359157645d86455d9156081c0081c02072081c5081c9915651ab06bf254e8a55a2855a292e00413a043528031b4b830413a12df74b830433292dec4b8304b8319156645d4081c5915657ab0645599155081b4081b4206f081b9081bd915551aac6bef14e7d559f4559f52df34136c081b9915557aac645559154081a8081a8206c081ad081b1915451aa8081ad915457aa84136d2e0a4b7fc6bf1d4e8855a2053a28031943420434210d28435214352003194b82855a212dfe41398413992df54b8284b8299154645cc6455191530819c0819c2069081a1081a1915357aa455a192dfc41390849618fa063efc081a5915351aa46bf194e8755a1c4331d2de94b82455a1d2dfd41394413952df44b82453a2403184341c413692e094b7f84341d0d274351d4351c03184b8244b8259153645c8))
  (.nd (.lf
  0x57f92d0e4b40c057fd2d0f4b410058012d104b414058052cf14b418058092cf24b41c0580d2cf34b420058112cf44b424058152cf54b428058192cf64b42c0581d2cf74b430058212cf84b434058252cf94b438058292cfa4b43c0582d2cfb4b440058312cfc4b3c4058352cfd4b3c8058392cfe4b3cc0583d2cff4b3d0810392d2e510b8510b92d004b3d48103d2d2f510bc510bd2d014b3d8810412d30510c0510c12d024b3dc4e0c2042f81138810be042e36fe036fe0dbfa36fe536fea042e4b03c36fe6042e4f8bc4e0be042e81134810ba042d36fd436fd4dbf736fd936fde042d4b03836fda042d4f8b84e0ba042d81130810b6042c36fc836fc8dbf436fcd36fd2042c4b03436fce042c4f8b44e0b6042c8112c810b2042b36fbc36fbcdbf136fc136fc6042b4b03036fc2042b4f8b04e0b2042b81128810ae042a36fb036fb0dbee36fb536fba042a4b02c36fb6042a4f8ac4e0ae042a81124810aa042936fa436fa4dbeb36fa936fae04294b02836faa04294f8a84e0aa042981120810a6042836f9836f98dbe836f9d36fa204284b02436f9e04284f8a44e0a604288111c810a2042736f8c36f8cdbe536f9136f9604274b02036f9204274f8a0)
  (.lf 0))) (.nd (.nd (.lf
  0x27105dc3d5507827101dc3d5707853079dc3d77170770f5dc3c270f0270f09c3e270f5270f9dc3c55074270f5dc3c5707453075dc3c7716c770f1dc3b270e4270e49c3b270e9270eddc3b55070270e9dc3b5707053071dc3b77168770eddc3a270d8270d89c38270dd270e1dc3a5506c270dddc3a5706c5306ddc3a77164770e9dc39270cc270cc9c35270d1270d5dc3955068270d1dc395706853069dc3977160770e5dc38270c0270c09c32270c5270c9dc3855064270c5dc385706453065dc387715c770e1dc37270b4270b49c2f270b9270bddc3755060270b9dc375706053061dc3777158770dddc36270a8270a89c2c270ad270b1dc365505c270addc365705c5305ddc3677154770d9dc352709c2709c9c29270a1270a5dc3555058270a1dc355705853059dc3577150770d5dc3427090270909c262709527099dc345505427095dc345705453055dc347714c770d1dc3327084270849c23270892708ddc335505027089dc335705053051dc3377148770cddc3227078270789c202707d27081dc325504c2707ddc325704c5304ddc3277144770c9dc312706c2706c9c1d2707127075dc315504827071dc315704853049dc317714053045541157044)
  (.lf 0)) (.nd (.lf
  0x5ff6006623e3c43e3c406223e44501889974b65da80a3c5974b580cc65d2d974a0a3b00a3b028ee0a3b50a3b9974a580c8196fd6820196f0196f16032196f5196f568205a08465da9603301a8865ea14833580cc580cd68201982c0a51829480a51d0a51d9788580c865e9d4832580c8580c800005a0821982c00005a0861986dbdb65bfe05a081bdb56f7506f7516ff75dfdc5a085bdb66f7546f6d9bdb5198581985866181985d19861bdb55bfdc5bfddbdf36f8486f84808a14a4c86f8b008bb4a5304d815f7ca7dfa44d83df7d47dfcc4d841f7d57dfd07df55f7d43282832828ca0c3282d32831f7d44a7bc3282df7d44f03c7df51f7d33281c3281cca093282132825f7d34a7b84d81df7cc7dfac4d831f7d17dfc04d839f7d37dfc832821f7d34f0387df4df7d23281032810ca063281532815f7d24f03432819f7d24a7b44d835f7d27dfc47df49f7d13280432804ca033280932809f7d14f0303280df7d14a7b07df45f7d0327f8327f8ca00327fd4d825f7ce7dfb432801f7d04a7ac327fdf7d04f02c4d82df7d07dfbc7df41f7cf327ec327ecc9fd327f1327f5f7cf4a7a8327f1f7cf4f0284d829f7cf7dfb87df3df7ce327e0327e0c9fa327e5)
  (.lf 0)))

def shaGateTree145 : BTree :=
  .nd (.nd (.nd (.lf
  0x5f305e3ef7903878fbde3ee2a8c02a8c0aa322a8c52a8c9e3ee613002a8c5e3ee633002a605e3735d30478dcde3722a5f02a5f0a97e2a5f52a5f5e3725f3002a468a94c2a4582a458a9182a45d2a45ca94c5b31428ab5dfbe000ac77ef9dfbd28aa428aa4a2ab28aa928aaddfbd03ba85d101dfbd77f7077f700eea000a811079a9fa533f06a7e9a9f91106411064441b1106911069a9f9593ec042a9a9f96a8606a8614cfb593ec10f0da9bc044ac6a6f1a9bb10efc10efc43c110f0110f05a9bb593ec03ba9a9bb6a7686a76964fb044a8593eca94c2a5682a56800005b3165b315e37278e4478e4574c05f3005f301e3ee7903478fb9e3ed2a8b42a8b4aa2f2a8b92a8bde3ed612fc2a8b9e3ed632fc2a5f9e3725d30078dc9e3712a5e42a5e4a97b2a5e92a5e9e3715f2fc2a46000002a5322a530a9152a4502a450a915593e95d0fddfbc77f6c77f6c0ee9000a428aa9dfbd000a877ef5dfbc28a9828a98a2a828a9d28aa1dfbc03ba403ba5a9ba6a7646a76564fa044a41106da9f9533ec6a7e5a9f8110581105844181105d1105da9f8593e8042a5a9f86a85c6a85d4cfa593e810f01a9bb044a86a6eda9ba10ef010ef043be10ef510ef9a9ba593e8)
  (.lf 0)) (.nd (.lf
  0x7f71531114dc454c4452c1150c447f80d2c1150c4550c452bf40542c7f8892c1250c4850c492bf5054307f88d2c1350c4c50c4d2bf6054347f8912c1450c5050c512bf7054387f8952c1550c5450c552bf80543c7f8992c1650c5850c592bf9054407f89d2c1750c5c50c5d2bfa054447f8a12c1850c6050c612bfb054487f8a52c1950c6450c652bfc0544c7f8a92c1a50c6850c692bfd054507f8ad2c1b50c6c50c6d2bfe054547f8b12c1c50c7050c712bff054587f8b52c1d50c7450c752c000545c7f8b92c1e50c7850c792c01054607f8bd2c1f50c7c50c7d2c02054647f8c12c2050c8050c812c03054687f8c52c2150c8450c852c040546c7f8c92c2250c8850c892c05054707f8cd2c2350c8c50c8d2c06054747f8d12c2450c9050c912c07054787f8d52c2550c9450c952c080547c7f8d92c2650c9850c992c09054807f8dd2c2750c9c50c9d2c0a054847f8e12c2850ca050ca12c0b054887f8e52c2950ca450ca52c0c0548c7f8e92c2a50ca850ca92c0d054907f8ed2c2b50cac50cad2c0e054947f8f12c2c50cb050cb12c0f054987f8f52c2d50cb450cb52c100549c0542d2c034afe0054312c044afe4054352c054afe8054392c064afec)
  (.lf 0))) (.nd (.nd (.lf
  0x23191d33d56bec52bedd33d74d7074cf5d33c23180231808c622318523189d33c54be823185d33c56be852be9d33c74d6c74cf1d33b23174231748c5f231792317dd33b54be423179d33b56be452be5d33b74d6874cedd33a23168231688c5c2316d23171d33a54be02316dd33a56be052be1d33a74d6474ce9d3392315c2315c8c592316123165d33954bdc23161d33956bdc52bddd33974d6074ce5d33823150231508c562315523155d33856bd852bd9d33874d5c74d5d52f656bd856bd80b1b4255074d8152ff56bfc56bfc0b044257474dad530a56c2856c280b0f425a0425740b1b02c40425a00b0602c6c469280b3b02c6c74db5530c56c3054c300b5b46a2846a291aaa46b2946b280b5b02c6c02c6da2c668b9474d6552f856be056be00b1d4255874d6952f956be456be40b1e4255c74d6d52fa56be856be80b1f4256074d89530156c0456c040b064257c74d8d530256c0856c080b074258074d91530356c0c56c0c0b084258456c300b11425a874db9530d56c3456c340b12425ac74dbd530e56c3856c380b13425b04257c0b1d02c48425800b1e02c4c425840b1f02c50425a80b0802c74425ac0b0902c78425b00b0a02c7c469300b3d02c74)
  (.lf 0)) (.nd (.lf
  0x3052df1e94a35030529f1e94ebd07c7a5f1e83051830518c1483051d3051df1e84ebcc30521f1e84a34c7c7a1f1e73050c3050cc1453051130511f1e74ebc830515f1e74a3484d3c9f1e77c8187c79d28d14ebc57c82928d64ebd86d90405bd4a1386d8fc05bb4a1306d8f405b94a1286d8ec05b74a1206d8e405b54a1186d8dc05b34a1104d3c528d14ebc44ebc5283b061387c81928d24ebc84ebc9283c0613c7c81d28d34ebcc4ebcd283d061407c82128d44ebd04ebd1283e061447c82528d54ebd44ebd5283f061484ebd928400614c7c82d28d74ebdc4ebdd2841061507c83128d84ebe04ebe12842061547c83528d94ebe44ebe52843061587c83928da4ebe84ebe928440615c7c83d28db4ebec4ebed2845061607c85128e04ec004ec01284a061747c85528e14ec044ec05284b061784ec09284c0617c7c85d28e34ec0c4ec0d284d061807c86128e44ec104ec11284e061840613928444a1080613d28454a10c0614128464a1100614528474a1140614928484a1180614d28494a11c06151284a4a12006155284b4a12406159284c4a1280615d284d4a12c06161284e4a1307c89128f04ec404ec4128434a1045bc29b6196d8e06d8e005b44a114)
  (.lf 0)))

def shaGateTree146 : BTree :=
  .nd (.nd (.nd (.lf
  0x59650b1c25b5645b565e87c7a26c7a26d75595f5645f565e8f87a45c7a3e1e8f72cb382cb38b2d02cb3d2cb41e8f7615602cb3de8f7635602c87de87c5d5647a1f1e87b2c8682c868b21c2c86d2c86de87b5f5602c708b1c02c6fc2c6fcb1c05964d5d361e4ab79328793280f82003082ade5e4ac0030c792b1e4ab2add42add4ab772add92addde4ab03e0803e09ac1f6b0f86b0f965930470811e29ac5e536506b179ac5d11e1411e14478711e1911e19ac5d5964c04509ac5d6b1f06b1f14d935964c11cbdac200470c6b081ac1f11cac11cac472d11cb111cb5ac1f5964c5964cb1c05b5605b561e87b7a2687a26975585f5605f561e8f77a4587a3dde8f62cb2c2cb2cb2cd2cb312cb35e8f66155c2cb31e8f66355c2c871e87b5d5607a1ede87a2c85c2c85cb2192c8612c861e87a5f55c2c7016d562c6f82c6f96d56596495d35de4aa79324793240f81003042add9e4ab00308792ade4aa2adc82adc8ab742adcd2add1e4aa03e0403e05ac1e6b0f46b0f565920470411e1dac5d5364c6b175ac5c11e0811e08478411e0d11e0dac5c5964804505ac5c6b1ec6b1ed4d925964811cb1ac1f047086b07dac1e11ca011ca0472a11ca511ca9ac1e59648)
  (.lf 0)) (.nd (.lf
  0x6733161a10204067325619e020346742949a15868467411499b5866c67415499c5867067329619f0203867421499f5867c6742549a0586801e48400001e52a1e528791e1e4741e474791e5868558684791e5a6101e478791c1e46c1e46c791c5868158680791c5a60c1e470791a1e4641e464791a5867d5867c791a5a6081e46879181e45c1e45c7918586796741d499e586785867879185a60467419499d586741e46079161e4541e4547916586755867479165a6001e45879491e4485867079491e5681e44879141e44d1e44c79495a5fc1e45000001e5261e52479111e4401e44079115866d5866c79115a5f81e44479481e4341e434790f1e4391e43c00001e52267315619a020245866879481e564674094999586641e43879485a5f41e520790c1e42c1e42c790c586656731161990202058664790c5a5f01e43079471e4201e420790a1e4251e42479475a5ec674054998586606730d61980201c5866079471e5601e56000005a5ee5a5edc8a6723141e42800001e51e5a619c8b1723401e65c79991e6611e661c8b15e5a01e665c8b15c5a0722c5c8b01e6501e65079961e6551e655c8b05e59c1e659c8b05c59c722c1c8af1e6441e64479931e649)
  (.lf 0))) (.nd (.nd (.lf
  0x25ad5d92762dcc25815d8ac5cdd0762b1d8ab258002580096022580525805d8ab5edcc2567c00007623676234959c2566c2566c959c58eb958eb8959c5ae085ae09d8ab763287632973735edcc5edcdd927765187649dd92625ac425ac496b325ac925acdd92660dc825ac9d92662dc825809d8ab5cdcc762add8aa257f4257f495ff257f9257f9d8aa5edc825670959a2566425664959a58eb558eb4959a5ae045ae05d8aa763247632573725edc85edc9d9267651476499d92525ab825ab896b025abd25ac1d92560dc425abdd92562dc4257fdd8aa5cdc8762a9d8a9257e8257e895fc257ed257edd8a95edc425669d88c256582565895982565d2565dd88c5ae0058eb1d88c256a8256a800005ae025ae01d8a9763207632173715edc45edc5d9257651076495d92425aac25aac96ad25ab125ab5d92460dc025ab1d92462dc0257f1d8a95cdc4762a5d8a8257dc257dc95f9257e1257e1d8a85edc0256600000762327623095952565025650959558ead58eac95955adfc5adfdd8a87631c7631d73705edc05edc1d9247650c76491d92325aa025aa096aa25aa525aa9d92360dbc25aa5d92362dbc257e5d8a85cdc0762a1d8a7257d0257d095f6257d5)
  (.lf 0)) (.nd (.lf
  0x1806c601d1807118071ba4f61e4c5de4dba4f6e9b818075ba4f5fe4c6e93dba4e1806018060601a180655de11ba406e97c18069ba4e5fe485de45ba4d6e9b018065ba4e61e485de49ba4e6e9b46e939ba4d18054180546017180591805dba4d5fe4418059ba4d61e446e935ba4c180481804860141804d18051ba4c5fe401804dba4c61e405de41ba4c6e9ac6e931ba4b1803c1803c60111804118045ba4b5fe3c18041ba4b61e3c6e92dba4a1803018030600e1803518035ba4a61e3818039ba4a5fe385de39ba4a6e9a46e929ba491802418024600b180295de35ba496e9a01802dba495fe3418029ba4961e346e925ba48180181801860081801d18021ba485fe301801dba4861e305de31ba486e99c6e921ba471800c1800c6005180115de21ba446e98c18011ba4761e2c5de2dba476e99818015ba475fe2c6e91dba46180001800060021800518009ba465fe2818005ba4661e286e919ba4517ff417ff45fff17ff917ff9ba4561e2417ffdba455fe245de25ba456e9906e915ba4417fe817fe85ffc17fed17ff1ba445fe2017fedba4461e206e911ba4317fdc17fdc5ff917fe117fe1ba4361e1c17fe5ba435fe1c5de1dba436e9886e90dba4217fd0)
  (.lf 0)))

def shaGateTree147 : BTree :=
  .nd (.nd (.nd (.lf
  0x27889dd385510427885dd385710453105dd387755c774e1dd3727874278749e1f278792787ddd375510027879dd375710053101dd3777558774dddd3627868278689e1c2786d27871dd36550fc2786ddd36570fc530fddd3677554774d9dd352785c2785c9e192786127865dd35550f827861dd35570f8530f9dd3577550774d5dd3427850278509e162785527859dd34550f427855dd34570f4530f5dd347754c774d1dd3327844278449e13278492784ddd33550f027849dd33570f0530f1dd3377548774cddd3227838278389e102783d27841dd32550ec2783ddd32570ec530eddd3277544774c9dd312782c2782c9e0d2783127835dd31550e827831dd31570e8530e9dd3177540774c5dd3027820278209e0a2782527829dd30550e427825dd30570e4530e5dd307753c774c1dd2f27814278149e07278192781ddd2f550e027819dd2f570e0530e1dd2f77538774bddd2e27808278089e042780d27811dd2e550dc2780ddd2e570dc530dddd2e77534774b9dd2d277fc277fc9e012780127805dd2d550d827801dd2d570d8530d9dd2d77530774b5dd2c277f0277f09dfe277f5277f9dd2c550d4277f5dd2c570d4530d5dd2c7752c774b1dd2b277e4)
  (.lf 0)) (.nd (.lf
  0x7051dc1461b0b41b0b46c2f1b0b91b0bdc146601a81b0b9c146621a85e1a9c1467059470519c1451b0a81b0a86c2c1b0ad1b0b1c145601a41b0adc145621a45e1a5c1457059070515c1441b09c1b09c6c291b0a11b0a5c144601a01b0a1c144621a05e1a1c1447058c70511c1431b0901b0906c261b0951b099c1436019c1b095c1436219c5e19dc143705887050dc1421b0841b0846c231b0891b08dc142601981b089c142621985e199c1427058470509c1411b0781b0786c201b07d1b081c141601941b07dc141621945e195c1417058070505c1401b06c1b06c6c1d1b0711b075c140601901b071c140621905e191c1407057c70501c13f1b0601b0606c1a1b0651b069c13f6018c1b065c13f6218c5e18dc13f70578704fdc13e1b0541b0546c171b0591b05dc13e601881b059c13e621885e189c13e70574704f9c13d1b0481b0486c141b04d1b051c13d601841b04dc13d621845e185c13d70570704f5c13c1b03c1b03c6c111b0411b045c13c601801b041c13c621805e181c13c7056c704f1c13b1b0301b0306c0e1b0351b039c13b6017c1b035c13b6217c5e17dc13b70568704edc13a1b0241b0246c0b1b0291b02dc13a601781b029c13a62178)
  (.lf 0))) (.nd (.nd (.lf
  0x74129825462950629500c973c7347412d825562954629540c983c7383c6c80c8e032243c6cc0c8f032283c6d00c900322c3c6d40c91032303c6d80c92032343c6dc0c93032383c6e00c940323c3c6e40c95032403c6e80c96032443c6ec0c97032483c6f00c980324c3c6f40c99032503c6f80c9a032543c6fc0c9b032583c7000c9c0325c3c7040c9d032603c7080c9e032643c70c0c9f032683c7100c800326c3c7140c81032703c7180c82032743c71c0c83032783c7200c840327c52a41cf6573e1073d95cf64215882158885642158d21591cf6454a3c2158dcf6456a3c52a3dcf6473e0c73d91cf632157c2157c85612158121581cf6356a3821585cf6354a3852a39cf6373e0873d8dcf622157021570855e2157521575cf6256a3452a35cf6273e0421579cf6254a3473d89cf612156421564855b215692156dcf6154a3021569cf6156a3052a31cf6173e0073d85cf60215582155885582155d52a29cf5f73df852a2dcf6073dfc21561cf6054a2c2155dcf6056a2c73d81cf5f2154c2154c85552155121551cf5f56a2821555cf5f54a2873d7dcf5e215402154085522154521545cf5e56a2452a25cf5e73df421549cf5e54a2473d79cf5d21534)
  (.lf 0)) (.nd (.lf
  0x415bc036d00d8843a70038d00db443c7003ad00db400db593b464f4c08f2d93b457cf864ed193b308f1c08f1c23c908f2108f2193b357cf408f2593b351cf464ecd93b208f1008f1023c608f1508f1593b257cf064ca95f2f00f7857cbc55f91582c64cad5f3000f7c57cc055fa59c9859c99b4ee6d4346d3b9b4ed1598c1598c56651599115995b4ed5bbd0157e855f91579c1579c55e9157a115991b4ed5dbd0157a055f959c941582c000059c9659c95b4ed6d4306d3b5b4ec159801598056621598564c9d5f2c00f6c57cb055f615820157a40000157e6157e455f8157901579055e615795157980000157e264ca55f2e00f741579455f859c9057cb855f815828157e055f7157841578455e3157891578c0000157de64ca15f2d00f701578855f759c8c57cb455f715824157dc55f6157781577855e01577d157800000157da1577c55f659c88157d855dd157701577055dd57cad15828000059c9259c91b4ec6d42c15985b4ec5dbcc15989b4ec5bbcc6d3b1b4eb1597415974565f1597915979b4eb5dbc815824000059c8e59c8db4eb6d4281597db4eb5bbc86d3adb4ea1596815968565c1596d64c955f2a00f641596db4ea5dbc464c915f2900f60)
  (.lf 0)))

def shaGateTree148 : BTree :=
  .nd (.nd (.nd (.lf
  0x2daf4b6bc2da6c2da6cb69d2da712da70b6bc5b7342c3d9e7c7004e079f1de7c62c3c82c3c8b0f42c3cd2c3d1e7c603fdc5d535e7c679f9479f940ff7004dc12795ade7538246b79dade6127801278049e21278512785ade659820046ddade66b8146b8154e085982012629ada900b606b6a5ada8126181261849881261d12621ada85982003fddada86b71c6b71d660800b5c59820b6bc2db3c2db3c00005b7365b735eb0f7acb87acb975cd5f7345f735eb8b7aea87ae2deb8a2df202df20b7ca2df252df29eb8a617302df25eb8a637302dc65eb0f5d7347ac3deb0e2dc502dc50b7162dc552dc55eb0e5f7302da7400002daf22daf0b6bb2da602da60b69a2da652da64b6bb5b7302c3cde7c6004dc79f19e7c52c3bc2c3bcb0f12c3c12c3c5e7c503fd85d531e7c579f9079f900ff6004d812789ade6538206b799ade5127741277449df1277912779ade55981c046d9ade56b8106b8114e075981c1261dada800b5c6b6a1ada71260c1260c49851261112615ada75981c03fd9ada76b7186b719660700b585981cb6bb2db382db3800005b7325b731eb0e7acb47acb575cc5f7305f731eb8a7aea47ae29eb892df142df14b7c72df192df1deb896172c)
  (.lf 0)) (.nd (.lf
  0x5a6c971965e65872c380a544ab9472bf80a444ab5472bfc0a454ab5872c340a534ab9072c100a4a4ab6c1f509cadd4ab4c72c140a4b4ab7072c180a4c4ab7472c000a464ab5c1f50dcadd0290872c0c0a494ab6872c1c0a4d4ab7872c200a4e4ab7c72c240a4f4ab8072af971985e6605c661cadd72bf072b75cadc1f4f81f4f87d401f4fd1f4fdcadc4ab4872af571975e65c5c65dcadc72bec72c640a5f4abc072bec0a414ab481f501cadc0290472b700a404ab455c6580a404ab4472c600a5e4abbc72c540a5b4abb072c580a5c4abb472c5c0a5d4abb872bf40a434ab5072bf00a424ab4c72c280a504ab8472c040a474ab604abc2023f809788097931f04dfc04c7c2027d80a70809f6027c3660836608d9843660d36612027c4b3bc3660e027c50fbc808fe023e364a0364a0d92a364a5364aa023e4c7bc4abbe023e809748097531ef4dfbc4c7be027c80a6c809f2027b365fc365fcd9813660136606027b4b3b836602027b50fb8364a6023e4dfbc808fa023d3649436494d927364993649e023d4c7b84abba023d809708097131ee4dfb84c7ba027b80a68809ee027a365f0365f0d97e365f5365fa027a4b3b4365f6027a50fb43649a023d4dfb8)
  (.lf 0))) (.nd (.nd (.lf
  0x26565da875ce7c76a1dda86265502655099562655526555da865ee78263e8992d263d8263d898f8263dd263dc992d5aeac58f64992d264e0264e000005aeae5aeadda8676a9476a95739e5ee785ee79db0276c8476c09db0126814268149a07268192681ddb0160e7426819db0162e7426559da865ce7876a19da85265442654499532654926549da855ee74263e00000264b6264b4992c263cc263cc98f5263d1263d0992c5aea858f60992c264dc264dc00005aeaa5aea9da8576a9076a91739d5ee745ee75db0176c8076c05db0026808268089a042680d26811db0060e702680ddb0062e702654dda855ce7476a15da84265382653899502653d2653dda845ee70263d40000264b2264b0992b263c0263c098f2263c5263c4992b5aea458f5c992b264d8264d800005aea65aea5da8476a8c76a8d739c5ee705ee71db0076c7c76c01daff267fc267fc9a012680126805daff60e6c26801daff62e6c26541da845ce7076a11da832652c2652c994d2653126531da835ee6c263c80000264ae264ac98ef263b8263b898ef58f5958f5898ef5aea05aea1da8376a8876a89739b5ee6c5ee6ddaff76c7876bfddafe267f0267f099fe267f5267f9dafe60e68)
  (.lf 0)) (.nd (.lf
  0x59fa5bbbc6ef6c6ef6d6fbc5def018ac1bbbd5def46eef5bbbc18ab018ab062ae18ab518ab9bbbc5bef05bef1bbfa6f0646f06406664a3dc6efedbbfa18c1818c18630818c1d18c1dbbfa4a3dc4a3ddf7407dd7c7dd7d2ff74d7dc32438c9103243d32441f7404bfdc4bfddf77e7de747ddf9f77d3259432594c967325993259df77d4abd809fbd969551fdc4435004450109453f58046544450444511134445514455004650109401095969465acc65acd47f657fd80639128f64a3d03243df7404d7dc7dd01f73f3242c3242cc90d3243132435f73f4bfd83bca405e50178009e519657012986595d965609e403e1500605017945fe6c06253e1d03e1d005e53e25118910000018a0618a0462411890009e40279209e4509e49965657fd865a55969409fa809fa827ec09fad09fad969457fd818900624157fd9017959656659d4659d55ff60129457fd8624159fa059fa1bbbb6ef6818ab5bbbc5def06eef1bbbb18aa418aa462ab18aa96ef696fbb5deec18aadbbbb5beec5beedbbf96f0606f06006654a3d818c21bbfa019986efe9bbf918c0c18c0c630518c1118c11bbf94a3d84a3d9f73f7dd787dd792ff64d7d84bfd9f77d7de7032599f77d507d8)
  (.lf 0)))

def shaGateTree149 : BTree :=
  .nd (.nd (.nd (.lf
  0x28e0de0455529c28e09e0455729c5329de0457819078115e04428df828df8a38028dfd28e01e0445529828dfde0445729853299e0447818c78111e04328dec28deca37d28df128df5e0435529428df1e0435729453295e043781887810de04228de028de0a37a28de528de9e0425529028de5e0425729053291e0427818478109e04128dd428dd4a37728dd928ddde0415528c28dd9e0415728c5328de0417818078105e04028dc828dc8a37428dcd28dd1e0405528828dcde0405728853289e0407817c78101e03f28dbc28dbca37128dc128dc5e03f5528428dc1e03f5728453285e03f78178780fde03e28db028db0a36e28db528db9e03e5528028db5e03e5728053281e03e78174780f9e03d28da428da4a36b28da928dade03d5527c28da9e03d5727c5327de03d78170780f5e03c28d9828d98a36828d9d28da1e03c5527828d9de03c5727853279e03c7816c780f1e03b28d8c28d8ca36528d9128d95e03b5527428d91e03b5727453275e03b78168780ede03a28d8028d80a36228d8528d89e03a5527028d85e03a5727053271e03a78164780e9e03928d7428d74a35f28d7928d7de0395526c28d79e0395726c5326de03978160780e5e03828d68)
  (.lf 0)) (.nd (.lf
  0x52391c28870a9c70a21c2871b8f41b8f46e3f1b8f952385c28570a901b8fdc2875438c5238dc28770a981b8f9c2875638c70a1dc2861b8e81b8e86e3c1b8ed1b8edc286563881b8f1c2865438852389c28670a9470a19c2851b8dc1b8dc6e391b8e11b8e1c285563841b8e5c2855438470a15c2841b8d01b8d06e361b8d51b8d9c2845438052381c28470a8c1b8d5c2845638070a11c2831b8c41b8c46e331b8c91b8c9c2835637c1b8cdc2835437c70a0dc2821b8b81b8b86e301b8bd1b8bdc282563781b8c1c2825437852379c28270a8470a09c2811b8ac1b8ac6e2d1b8b11b8b5c2815437452375c28170a801b8b1c2815637470a05c2801b8a01b8a06e2a1b8a51b8a5c280563701b8a9c2805437052371c28070a7c70a01c27f1b8941b8946e271b8991b899c27f5636c52369c27e70a741b89dc27f5436c5236dc27f70a78709fdc27e1b8881b8886e241b88d1b88dc27e563681b891c27e54368709f9c27d1b87c1b87c6e211b8811b885c27d543641b881c27d5636452365c27d70a70709f5c27c1b8701b8706e1e1b8751b875c27c5636052361c27c70a6c1b879c27c54360709f1c27b1b8641b8646e1b1b8691b869c27b5635c5235dc27b70a68)
  (.lf 0))) (.nd (.nd (.lf
  0x22379d15b54b2422375d15b56b2452b25d15b745e87456dd15a223642236488db223692236dd15a54b2022369d15a56b2052b21d15a745e474569d159223582235888d82235d22361d15954b1c2235dd15956b1c52b1dd159745e074565d1582234c2234c88d52235122355d15854b1822351d15856b1852b19d158745dc74561d157223402234088d22234522349d15754b1422345d15756b1452b15d157745d87455dd156223342233488cf223392233dd15654b1022339d15656b1052b11d156745d474559d155223282232888cc2232d22331d15554b0c2232dd15556b0c52b0dd155745d074555d1542231c2231c88c92232122325d15454b0822321d15456b0852b09d154745cc74551d153223102231088c62231522319d15354b0422315d15356b0452b05d153745c87454dd152223042230488c3223092230dd15254b0022309d15256b0052b01d152745c474549d151222f8222f888c0222fd22301d15154afc222fdd15156afc52afdd151745c074545d150222ec222ec88bd222f1222f5d15054af8222f1d15056af852af9d150745bc74541d14f222e0222e088ba222e5222e9d14f54af4222e5d14f56af452af5d14f745b87453dd14e222d4)
  (.lf 0)) (.nd (.lf
  0x7bb2deeca2f3302f330bcce2f3352f339eeca4a5ec4b9edeeca7bba42f335eeca501ec7bb29eec92f3242f324bccb2f3292f329eec9501e84b9e9eec97bba02f32deec94a5e87bb25eec82f3182f318bcc82f31d2f321eec84a5e44b9e5eec87bb9c2f31deec8501e47bb21eec72f30c4b9e1eec77bb982f30cbcc52f3112f311eec7501e02f315eec74a5e07bb1deec62f3002f300bcc22f3052f305eec6501dc7ba9d2e774d1dc2f309eec64a5dc4b9ddeec67bb947bb19eec52f2f42f2f4bcbf2f2f92f2fdeec54a5d82f2f9eec5501d87bb15eec42f2e82f2e8bcbc2f2ed49dd5ee867ba942f191ee874d1d87ba1dee862f1802f180bc622f1852f189ee864b9d42f185ee864d1d47ba19ee852f1742f174bc5f2f1792f17dee854b9d07ba952e754d1d42f2edeec4501d42f2f1eec44a5d44b9d5eec47bb8c7bb11eec32f2dc4b9d1eec37bb882f2dcbcb92f2e12f2e5eec34a5d02f2e1eec3501d07bb0deec22f2d02f179ee854d1d07ba15ee842f1682f168bc5c2f16d49dcdee847ba8c2f2d0bcb62f2d52f2d5eec2501cc2f2d9eec24a5cc2f171ee844b9cc7ba8d2e734d1cc4b9cdeec27bb847bb09eec12f2c42f2c4bcb32f2c92f2cdeec14a5c8)
  (.lf 0)))

def shaGateTree150 : BTree :=
  .nd (.nd (.nd (.lf
  0x2a128a84c2a12d2a131e2cc03d7803d79ab436ad886ad89656f046786ae09ab81119c4119c44673119c9119c9ab81595bc04479ab816ae806ae814d6f595bc6ad11ab431185c1185c46191186111865ab43595bc595bcae8c5b4d85b4d9e68a79aa479aa575345f4d05f4d1e70679c9479c19e7052be982be98afa82be9d2bea1e705614cc2be9de705634cc2bbdde68a5d4d079a29e6892bbc82bbc8aef42bbcd2bbcde6895f4cc2ba31e66b2ba202ba20ae8a2ba252ba25e66b5b4d42a12de2cc0027878b31e2cb2a11c2a11ca8492a1212a125e2cb03d745d2cde2cb78ba878ba80f5d00274119cdab81535bc6ae05ab80119b8119b84670119bd119bdab80595b804475ab806ae7c6ae7d4d6e595b811861ab43046786ad0dab42118501185046161185511859ab42595b803d75ab426ad846ad85656e04674595b9e66b2ba702ba7000005b4d65b4d5e68979aa079aa175335f4cc5f4cde70579c9079c15e7042be8c2be8cafa52be912be95e704614c82be91e704634c82bbd1e6895d4cc79a25e6882bbbc2bbbcaef12bbc12bbc1e6885f4c82ba280000799ae799acae872ba182ba18ae87595b55d2c9e2ca78ba478ba40f5c002702a121e2cb00274)
  (.lf 0)) (.nd (.lf
  0x71b55711d5e4745c475c6f471c4c1d8f1c6f40271c1d8edc6f44a96071bd1c6f31d8dc1d8dc76391d8e11d8e5c6f3027181d8e1c6f34a95c71bcdc6f21d8d01d8d076361d8d51d8d9c6f2027141d8d5c6f24a95871b4d711b5e46c5c46dc6f271c4471bc9c6f11d8c41d8c476331d8c91d8cdc6f1027101d8c9c6f14a95471bc5c6f01d8b81d8b876301d8bd1d8c1c6f00270c1d8bdc6f04a95071b4571195e4645c465c6f071c3c71bc1c6ef1d8ac1d8ac762d1d8b11d8b5c6ef027081d8b1c6ef4a94c71b4171185e4605c461c6ef71c3871bbdc6ee1d8a01d8a0762a1d8a51d8a9c6ee027041d8a5c6ee4a9481d741c6b05c45c5c45dc6ee71c3471cac09df4a9c071ca809de4a9bc71ca409dd4a9b871ca009dc4a9b471c9c09db4a9b071c9809da4a9ac71c9409d94a9a871c9009d84a9a471c8c09d74a9a071c8809d64a99c1d73dc6b05e45c71ac171165e4590bd059ba601f0466e99615101f0102501615101f00453bc076001d00544c40780454bc454bd154f455bd455bc078001d000be719be45254801d0149515854466f914951585455854400005a4d65a4d571165e45871c8409d54a99871c6809ce4a97c71c6409cd4a97871c6009cc4a974)
  (.lf 0))) (.nd (.nd (.lf
  0x755d5534b56d2c56d2c0b50426a4755d9534c56d3056d300b51426a8755dd534d56d3456d340b52426ac755e1534e56d3856d380b53426b0426740b5b02d40426780b5c02d444267c0b5d02d48426800b5e02d4c426840b5f02d50426a00b4602d6c426a40b4702d70426a80b4802d74426ac0b4902d78426b00b4a02d7c46c280b7b02d6c54d300b9b46d2846d291b6a46e2946e280b9b02d6c02d6da3be68f7446c2c0b7c02d7046c300b7d02d7446c340b7e02d7846c380b7f02d7c54d340b9c46d2c54d380b9d46d30755e5534f56d3c54d3c0b9e46d3454d400b9f46d3846d2d1b6b46e2d46d311b6c46e3146d351b6d46e3546d391b6e46e3946e2c0b9c02d7046e300b9d02d7446e340b9e02d7846e380b9f02d7c02d7da3c268f8468f09a3c10ecc40ecc43b330ecc90ecc9a3c158dbc0eccda3c152dbc02d79a3c168f8068f05a3c00ecb80ecb83b300ecbd0ecbda3c058db80ecc1a3c052db802d75a3c068f7c68f01a3bf0ecac0ecac3b2d0ecb10ecb5a3bf52db40ecb1a3bf58db402d71a3bf68f7868efda3be0eca00eca03b2a0eca50eca9a3be52db00eca5a3be58db068ef9a3bd0ec940ec943b270ec997557d533556cd456cd40b5a4264c)
  (.lf 0)) (.nd (.lf
  0x61d1805893bafc6e18d7f4761d1c61d1c058a3bb006e19d7f4b61d2c61d2c058e3bb106e1a17f4c61d3061d30058f3bb143bafc059b016583bb00059c0165c3bb1005800166c3bb140581016703deac05bc016706e1b97f5261d485fd4805dc3df2c3df2c059c3dfad6555947ad57eb40167194f965460654615fad01170096ed94f957eb4174dc5d35174d0174d05d3557eb557eb45d3559e8459e85b8da6e3e417671b8da5bdc81766db8da5ddc86e369b8d91765c3dea805bb0166c6e1b57f5161d445fd4405db3df283df28059b3dfa9096e994f9011700166d94f86545c6545d5fac0116c653e594f8096d8096d825b8096dd096e194f857eb057eb1b8bc1751c174d5b8bc174c4174c45d33174c9174c9b8bc59e801751c000059e8259e81b8d96e3e06e3e56f725ddc85bdc9b9186e4dc177d5b9184a2b46e461b917177c4177c45df3177c9177cdb9170186c6e3e16f715ddc41765c5d991766117665b8d95bdc45bdc5b9176e4d8177c9b9174a2b06e45db916177b817105b83461cdc5dcddb8346e14c6e14d7f3761cdc61cdc059a3bac06e1857f4561d1461d1405883baf83baf8059a0165417661b8d95ddc46e365b8d817650176505d9617655)
  (.lf 0)))

def shaGateTree151 : BTree :=
  .nd (.nd (.nd (.lf
  0x5b7c00b6002ac05b8000b7002b005b8400b8002b405b8800b9002b805b8c00ba002bc05b9000bb002c005b9400bc002c405b9800bd002c805b9c00be002cc05ba000bf002d005ba400a0002d405ba800a1002d805bac00a2002dc05bb000a3002e005bb400a4002e405bb800a5002e805bbc00a6002ec05bc000a7002f005bc400a8002f405bc800a9002f805bcc00aa002fc05bd000ab0028005bd400ac0028405bd800ad0028805bdc00ae0028c8277800dd514b8514b800af002908277c00de514bc514bc00b0002948278000df514c0514c000b1002984cd420a7b82a68829ee0a7a3947039470e51e394753947a0a7a003f8394760a7a5153c4cd3e0a7a82a64829ea0a793946439464e51b394693946e0a79003f43946a0a79515384cd3a0a7982a60829e60a783945839458e5183945d394620a78003f03945e0a78515344cd360a7882a5c829e20a773944c3944ce51539451394560a77003ec394520a77515304cd320a7782a58829de0a763944039440e512394453944a0a76003e8394460a765152c4cd2e0a7682a54829da0a753943439434e50f394393943e0a75003e43943a0a75515284cd2a0a7582a50829d60a743942839428e50c3942d)
  (.lf 0)) (.nd (.lf
  0x1a4fc693d1a4f01a4f0693d581d96628d4876581d8581d8693d5a1800aadc2ab90aae10aae19883581d466191607501b901a4f4693b1a4e81a4e8693b581d5581d4693b5a17c1a4ec69391a4e01a4e06939581d10aae59883521d46620d98820aad00aad02ab60aad50aad99882521d00aad59882581d0449440682012885414c06a244a4444a4512b144b4544b4406a20128801289988166280662814873581cc0a979984501b906611598440a9680a9682a5c0a96d0a96d984401b8c3e54808830198c6006408a33e5c83e5c806633e6490198d98446618c0a9719844581d06611198430a95c0a95c2a590a9610a9659843581cc3e5440882019886006008a23e5c43e5c406623e645019899843661884494806830128c5415006a344a4844a4912b244b4944b4806a30128c0128d98826628466189607301b886620998810aac40aac42ab30aac90aac99881581cc581cdbfa51a5f01a60c00005a1b66618d607401b8c662854874581d0581d069395a1781a4e5bfa51a4d41a4d469371a4d91a4d9bfa55a1741a4dc00006fe966fe95685b1a4d01a4d1685b581c90a961984301b886610d98420a9500a9502a560a9550a9599842581c844940068101284)
  (.lf 0))) (.nd (.nd (.lf
  0x4f62d2abe4aaf04f6312abf4aaf44f6352ac04aaf84f6392ac14aafc4f63d2ac24ab004f6412ac34ab044ab420185806908069131d04df404df420201808808080602003633836338d8d03633d3634202004aebc3633e02004f73c8061601843606836068d81c3606d3606e01844df3c4ab3e01848068c8068d31cf4df3c4df3e02008087c8080201ff3632c3632cd8cd363313633601ff4aeb83633201ff4f7383607201844c73c8061201833605c3605cd819360613606201834df384ab3a0183806888068931ce4df384df3a01ff80878807fe01fe3632036320d8ca363253632a01fe4aeb43632601fe4f7343606601834c7388060e01823605036050d816360553605601824df344ab360182806848068531cd4df344df3601fe80874807fa01fd3631436314d8c7363193631e01fd4aeb03631a01fd4f7303605a01824c7348060a01813604436044d813360493604a01814df304ab320181806808068131cc4df304df3201fd80870807f601fc3630836308d8c43630d3631201fc4aeac3630e01fc4f72c3604e01814c7308060601803603836038d8103603d3603e01804df2c4ab2e01808067c8067d31cb4df2c4df2e01fc8086c807f201fb362fc)
  (.lf 0)) (.nd (.lf
  0x85cd920c00e5c085d1920c57ba064831920b085bc085bc2171085c1085c1920b00e583d89004f5013543d87004ed013346c9e17e7f619fc3d87404ee013386c9d97e7d619f46bd0404cd49d785fa0c050d3d8f0619f404c03b7d83b7c404cd013203b7d804d2013343d8f004cd3d971013359202648845fa10050e3d8f43d8f404ce3d9756c9dd7e7e619f86bd0804ce49d7c619f804c13b7dc3b7c804ce013243b7dc04d301338013399203648886c9e57e8061a006bd1404d149d883d89404f6013585fa3005163d9146bd2804d649d9c3d91404d63d9956bd2404d549d985fa2c05153d910085c5920b57b9c3d91004d53d9916c9e97e8161a0461a0404c43b7e861a4c04d63b8303b7e804d60134401359920b648a861a0004c33b7e461a4804d53b82c3b7e404d5013406482d920a085b0085b0216e085b5085b9920a57b98085b5920a00e5401355920a648a4648299209085a4085a4216b085a9085ad920957b945fa2805143d90c3d90c04d43d98d6bd2004d449d94085a9920900e50619fc04c23b7e061a4404d43b8283b7e004d40133c3d88c04f401350013519209648a0648259208085986bd1804d249d8c5fa1c05113d9003d90004d13d981)
  (.lf 0)))

def shaGateTree152 : BTree :=
  .nd (.nd (.nd (.lf
  0x4729ae556b9d06b9d14e1b5986c1285dae1800aac6b861ae171284c1284c4a151285112855ae175986c04029ae176b8d86b8d9661b00aa85986debf32e21c2e21c00005b7825b781ec087b09c7b09d75e05f7805f781ec847b28c7b211ec832e5782e578b9602e57d2e581ec836177c2e57dec836377c2e2bdec085d7807b021ec072e2a82e2a8b8ac2e2ad2e2adec075f77c2e14800007afce7afccb84f2e1382e138b84f598695d57de8c07a37c7a37c1009005242ca35e8c1005287a305e8c02ca242ca24b28b2ca292ca2de8c00402404025ae166b8d46b8d5661a00aa4129bdae555386c6b955ae54129a8129a84a6c129ad129adae545986804725ae546b9cc6b9cd4e1a5986812851ae1700aa86b85dae1612840128404a121284512849ae165986859868b84f5b77c5b77dec077b0987b09975df5f77c5f77dec837b2887b20dec822e56c2e56cb95d2e5712e575ec82617782e571ec82637782e2b1ec075d77c7b01dec062e29c2e29cb8a92e2a12e2a1ec065f7782e13cb84d2e1302e130b84d598655d579e8bf7a3787a3781008005202ca29e8c0005247a301e8bf2ca182ca18b2882ca1d2ca21e8bf0402004021ae156b8d06b8d1661900aa0)
  (.lf
  0x4b8e1904a641a407b41904b579646412d904a07b3007b301ece07b3507b39904a5196007b35904a5796064129904907b2407b241ecb07b2907b2d90495195c64031900b079bc079bc1e71079c1079c5900b4b8dc4b8dd9049641a007b2990495795c64125904807b1807b181ec807b1d07b1d90485795884a159009640a06bad14e5d55974559752e13412ec412ed2e2a4b87c849f98fe46400c84a018fe66401463f998fe507974079741e5f079790797d8fe54b8bc079798fe500b7863f958fe407968079681e5c0796d079718fe44b8b80796d8fe400b7463f918fe30795c0795c1e5907961079618fe300b70849e98fe063ffc63ffd2e2a00b64079c1900b00b986402d900a079b0079b01e6e079b5079b5900a00b9484a19900a640a4079b9900a4b8d8640299009079a4079a41e6b079a9079ad90094b8d4079a9900900b9064025900807998079981e680799d079a190084b8d084a1190086409c6409d2e3400b8c4b8d1904664194641a546585796012afdae905596051961ae906babc6ba41ae8f12aec12aec4abd12af112af5ae8f5395c07b21904851958640a52e3600b944b8d990486419c6419d46565795851959ae8e6bab4641a146575795c))
  (.nd (.lf
  0x3c4a809e6027841fde9cc17626f01f96400001fa5e1fa5c7e961f9501f9507e561f9553f1540a0602798606700a263f1d43f1d409e63f2550cb5d9e180219c678619e170cb4c45b54080601f985475c082645c5445c55173545d5545d54082601f98027999e17678d8678d961f7021980ccc99e56527e0679599e550ccb401f999e55679d00ccb4332f0ccb90ccb99e55587dc679d149f7587dc0cb4c32d50cb510cb559e17587dc587dc7e961faa01f95800001fa5a1f9547e965a7581fa587e951f9441f9447e531f9491f9487e955a7543f14c0a04027903f1500a0502794606680a243f1cc6066c0a253f1d03f1cc09e43f24d3f1d009e53f2510cb519e17021986785d9e160cb400cb4032d20cb450cb499e16587d8027959e16678d40cb459e1602194678599e150cb340cb3432cf0cb39027919e15678d045b4c080401f9045b50080501f9454754082445c4c54758082545c5045c4d173345d4d45c51173445d5145d4c082401f9045d50082501f94678d161f5021900ccbd9e55527dc679559e540cca80cca8332c0ccad0ccb19e54527d801f959e54679cc0ccad9e54587d8679519e530cc9c01f919e53679c80cc9c33290cca10cca19e53587d4)
  (.lf 0))) (.nd (.nd (.lf
  0x58fc800005af0e5af0ddb7776e5876e5973b75eedc5cedddbb576f5076f500e614b3c84b3ca0e7b83a6883a6933f24e7c84e7ca0ef783c583ab060e7b4cfc8368ea031950fc84c7c52cf150fc480c652cf150fc50f981a61052fc8698414bf158fc502f814bf158fc40f815a5d2031846974963f1031810378163f10318026da5dbb50398426c39db775eedc58fc573b65eed876ddd73b65eed95ced80e604b3c476ed40e604b3c54b3c533f14e7c4839ed33f14e7c54e7c400804ffc483bdc00804ffc54ffc52d3b06ef883c5800814ffc84ffc92d3c06efc83c5c00824ffcc4ffcd2d3d06f0083c6000834ffd04ffd12d3e06f0483c6400844ffd44ffd52d3f06f0883c6800854ffd84ffd92d4006f0c83c6c00864ffdc4ffdd2d4106f1083c7000874ffe04ffe12d4206f1483c7400884ffe44ffe52d4306f1883c7800894ffe84ffe92d4406f1c83c7c008a4ffec4ffed2d4506f2083c80008b4fff04fff12d4606f2483c84008c4fff44fff52d4706f2883c88008d4fff84fff92d4806f2c83c8c008e4fffc4fffd2d4906f3083c90008f50000500012d4a06f3483c94009050004500052d4b06f3883c98009150008500092d4c06f3c83c9c00925000c)
  (.lf 0)) (.nd (.lf
  0x6f3996fe15df845bf85bd056f490191c5bcc65bf806f3956fe05df805bf81bd046f48c6f48c088a4a46c19335bd054a47019339bd050222c6f415bd04193241932464cb1932919329bd044a46c4a46df7fe7e0746f490088b4a4706f494088c4a4744a475f8007e07c328b8ca30328bd328c1f8004c074328bdf8004d8747e001f7ff328ac328acca2d328b1328b1f7ff4d870328b5f7ff4c0704a471f7ff7e0787dffdf7fe328a0328a0ca2a328a5328a5f7fe4d86c328a9f7fe4c06c7dff9f7fd32894191c1bcc65df806f319bcc5191b0191b0646e191b5191b9bcc55bf7c5a025bcc56f3906f3916fdf5df7c5bf7dbd036f4886f48808894a4681932dbd04022286f411bd03193181931864c81931d1931dbd034a4684a469f7fd7e07032894ca273289932899f7fd4d868191b5bcc55df7c6f315bcc4191a4191a4646b191a95a021bcc46f38c191adbcc45bf786f38d6fde5df785bf79bd026f4846f48408884a4643289df7fd4c0687dff5f7fc3288832888ca243288d32891f7fc4c0643288df7fc4d86419321bd03022246f40dbd021930c1930c64c51931119311bd024a4644a465f7fc7e06c7dff1f7fb3287c3287cca213288132885f7fb4c060)
  (.lf 0)))

def shaGateTree153 : BTree :=
  .nd (.nd (.nd (.lf
  0x78c15e3042a2482a248a8942a24d2a251e304612b82a24de304632b829f8de2895d2bc78a25e28829f7829f78a7e029f7d29f7de2885f2b829db4a78529da429da4a76b29da929da8a7855b2d028419ded40006477b51ded32840828408a1042840d28411ded303b605d0b9ded377bc877bc80ed80006010e51a98c533a86a631a98b10e3c10e3c439110e4110e41a98b593a404261a98b6a6a86a6a94ce9593a410ce5a94e044646a539a94d10cd410cd4433710cd910cdda94d593a403b61a94d6a5b06a5b164e904460593a4a78529e5429e5400005b2d25b2d1e28878a9c78a9d74ae5f2b85f2b9e30478c8c78c11e3032a23c2a23ca8912a2412a245e303612b42a241e303632b429f81e2885d2b878a21e28729f6c29f6ca7dd29f7129f71e2875f2b429dac000029e1629e14a76829d9c29d9ca768593a15d0b5ded277bc477bc40ed70005c2840dded30006077b4dded2283fc283fca1012840128405ded203b5c03b5da94c6a5ac6a5ad64e80445c10e45a98b533a46a62da98a10e3010e30438e10e3510e35a98a593a00425da98a6a6a46a6a54ce8593a010cd9a94d044606a535a94c10cc810cc8433410ccd10cd1a94c593a0593a0a7685b2cc)
  (.lf 0)) (.nd (.lf
  0x344bdfcd54aae8344b9fcd54f3684db69fcd57f3d07f355fcd4344a8344a8d12c344ad344b1fcd44aae4344adfcd44f3644db65fcd47f3cc7f351fcd33449c3449cd129344a1344a5fcd34aae0344a1fcd34f3604db61fcd37f3c87f34dfcd23449034490d1263449534499fcd24aadc34495fcd24f35c4db5dfcd27f3c47f349fcd13448434484d123344893448dfcd14aad834489fcd14f3584db59fcd17f3c07f345fcd03447834478d1203447d34481fcd04aad43447dfcd04f3544db55fcd07f3bc7f341fccf3446c3446cd11d3447134475fccf4aad034471fccf4f3504db51fccf7f3b87f33dfcce3446034460d11a3446534469fcce4aacc34465fcce4f34c4db4dfcce7f3b47f339fccd3445434454d117344593445dfccd4aac834459fccd4f3484db49fccd7f3b04db452ab14f3447f3352ab14f3454f3452a1b066607f3b12ab24f3484f3492a1c066647f3b52ab34f34c4f34d2a1d066687f3b92ab44f3504f3512a1e0666c7f3bd2ab54f3544f3552a1f066707f3c12ab64f3584f3592a20066747f3c52ab74f35c4f35d2a21066787f3c92ab84f3604f3612a220667c7f3cd2ab94f3644f3652a23066807f3d12aba4f3684f3692a2406684)
  (.lf 0))) (.nd (.nd (.lf
  0x60a800d2a3f9e460a840d2b3f9e860a880d2c3f9ec60a8c0d2d3f9f060a900d2e3f9f460a940d2f3f9f860a980d303f9fc60aa00d323fa0460aa40d333fa0860aa80d343fa0c60aac0d353fa1060ab00d363fa1460ab80d383fa1c60abc0d393fa2060ac00d3a3fa2460ac40d3b3fa2860ac80d3c3fa2c60acc0d3d3fa3060ad00d3e3fa3460ad40d3f3fa383f9bc0ce03fa3d3f9c00ce13fa413f9c40ce23fa453f9c80ce33fa493f9cc0ce43fa4d3f9d00ce53fa513f9d40ce63fa553f9d80ce73fa593f9dc0ce83fa5d3f9e00ce93fa613f9e40cea3fa653f9e80ceb3fa693f9ec0cec3fa6d3f9f00ced3fa713f9f40cee3fa753f9f80cef3fa793f9fc0cf03fa7d3fa040cf23fa853fa080cf33fa893fa0c0cf43fa8d3fa100cf53fa913fa140cf63fa953fa1c0cf83fa9d3fa200cf93faa13fa240cfa3faa53fa280cfb3faa93fa2c0cfc3faad3fa300cfd3fab13fa340cfe3fab53fa380cff3fab952bc1d25a749e474969d25922af022af08abe22af522af9d25954bbc22af5d25956bbc52bbdd259749e074965d25822ae422ae48abb22ae922aedd25854bb822ae9d25856bb852bb9d258749dc74961d25722ad822ad88ab822add22ae1d25754bb4)
  (.lf 0)) (.nd (.lf
  0x7c3492ed44d3504bb51f0f17c4407c3552ed74d35c4bb5df0f47c44c7c3d1f0f32ff9c2ff9cbfe92ffa12ffa1f0f3503587c3512ed64d3584bb59f0f37c4482ffa5f0f34a7587c3cdf0f22ff902ff90bfe62ff952ff95f0f2503542ff99f0f24a7547c34d2ed54d3544bb55f0f27c4447c3c9f0f12ff842ff84bfe32ff892ff8df0f14a7502ff89f0f1503507c3c5f0f02ff782ff78bfe02ff7d2ff7df0f05034c7c3452ed34d34c4bb4df0f07c43c2ff81f0f04a74c7c3c1f0ef2ff6c2ff6cbfdd2ff712ff71f0ef503487c3412ed24d3482ff75f0ef4a7484bb49f0ef7c4387c3bd29d1503455034529b404c047c43929d2503485034929b504c087c43d29d35034c5034d29b604c0c7c44129d4503505035129b704c107c44529d5503545035529b804c147c44929d6503585035929b904c187c44d29d75035c5035d29ba04c1c7c45129d8503605036129bb04c207c45529d9503645036529bc04c247c45929da503685036929bd04c287c45d29db5036c5036d29be04c2c7c46129dc503705037129bf04c307c46529dd503745037529c004c347c46929de503785037929c104c387c46d29df5037c5037d29c204c3c7c47129e0503805038129c304c40)
  (.lf 0)))

def shaGateTree154 : BTree :=
  .nd (.nd (.nd (.lf
  0x5f51de7fe7a07479ff9e7fd2c4dc2c4dcb1392c4e12c4e5e7fd615182c4e1e7fd635182c221e7825d51c79e09e7812c20c2c20cb0852c2112c211e7815f5182c0a0000079daa79da9e7692c08c2c08cb0252c0912c091e7695b5182a7b1e3b7002c478edde3b62a7a02a7a0a9ea2a7a52a7a9e3b603dc05d319e3b678f5478f540f70002c011c01abf0536086afc1abef11bec11bec46fd11bf111bf1abef59604044c1abef6b0386b0394d815960411a95abb2046c46aec9abb111a8411a8446a311a8911a8dabb15960403dc1abb16af406af416581046c059605e7692c1342c13400005b51a5b519e78179e8079e8175465f5185f519e7fd7a07079ff5e7fc2c4d02c4d0b1362c4d52c4d9e7fc615142c4d5e7fc635142c215e7815d51879e05e7802c2002c200b0822c2052c205e7805f5142c094000079da679da5e7682c0802c080b0222c0852c085e7685b5142a7a5e3b6002c078ed9e3b52a7942a794a9e72a7992a79de3b503dbc5d315e3b578f5078f500f6f002bc11bf5abef536046afbdabee11be011be046fa11be511be5abee59600044bdabee6b0346b0354d805960011a89abb1046c06aec5abb011a7811a7846a011a7d11a81abb059600)
  (.lf 0)) (.nd (.lf
  0x585e077435a56c5a56dc7ae71f3471eb9c7ad1de801de8077a21de851de89c7ad5c4f03c2a80966025840c1899c66525e0671999c650c1740c174305f0c1790c1799c65585dc45554078601d985455c07a6456544565515b5457554575407a601d9801d999c65672103ed540986025986047009a63edd43edd409663ee550c01d9c2801f9c670a19c270c00c0c00c30050c0110c0159c27585dc025999c2767118672114977585dc1dd0c77411dd001dd007741585dd67119617701f98585dc77415a5685a569c7ad71f3071f3d713f5e4fc71f4171405e50071f39713e5e4f81e01dc7ef4a9ec5c501c7ef7203871fbdc7ee1e00c1e00c78051e0115c4fdc7ee720341e015c7ee027a41e011c7ee4a9e871fb9c7ed1e0001e00078021e0051e009c7ed027a01e005c7ed4a9e45c4f9c7ed7203071fb5c7ec1dff41dff477ff1dff91dff9c7ec4a9e071f31713c5e4f071f35713d5e4f41dffdc7ec0279c5c4f5c7ec7202c71fb1c7eb1dfe85c4f1c7eb720281dfe877fc1dfed1dfedc7eb4a9dc1dff1c7eb0279871fadc7ea1dfdc1dfdc77f91dfe11dfe1c7ea4a9d87206409f54aa187205c09f34aa101de85c7ad5e4f071eb5c7ac1de741de74779f1de79)
  (.lf 0))) (.nd (.nd (.lf
  0x82ec20baf39b6c39b6ce6dd39b7139b720baf4e63869075638e02ff46916d4b8e58e3825299d7e5037f875f95d7e4252842528494a32528925289d7e44b2382512dd7a75ed5075e9dd7a62511c2511c94492512125125d7a65cd4c24f50000024f8a24f8893d124f4024f4093d158e3958e3893d15ad8c5ad8dd7a675f1475f1573535ed4c5cd4dd7e47600c7600c0dfd4b2384b23a0baf82f3882f39338e4e6384e63a0c2b83128830ae0c2a39e3039e30e78e39e3539e3a0c2a0007039e360c2a4fe3439b760baf4ce3882ebe0bae39b6039b60e6da39b6539b660bae4e63469071638d02ff02528dd7e4037f475f91d7e3252782527894a02527d2527dd7e34b23425121d7a65ed4c75e99d7a5251102511094462511525119d7a55cd4824f4493e124f3424f3493cf24f3924f3893e15ad8858e3493e124fc424fc400005ad8a5ad89d7a575f1075f1173525ed485cd49d7e376008760080dfc4b2344b2360bae82f3482f35338d4e6344e6360c2a83124830aa0c2939e2439e24e78b39e2939e2e0c290006c39e2a0c294fe3039b6a0bae4ce3482eba0bad39b5439b54e6d739b5939b5a0bad4e6306906d638c02fec25281d7e3037f075f8dd7e22526c)
  (.lf 0)) (.nd (.lf
  0x3bb9005a0016ec3dfa805db016ec6e5d17f7161dc45fdc405fb3e0283e02805bb3e0a9016ed95746564c655d195730999c0999c2669099a1099a19573011e83dfa005d9016e45fdbc05f93e0203e02005b93e0a1016e5957265644099a5957357f2c655cd9572099900999026660999509999957257f28099959572011e4655c9957109984099842663099890998d957157f243df9805d7016dc3df9c05d8016e05fdb405f73e0185fdb805f83e01c3e01805b73e0993e01c05b83e09d016e1957165640099899571011e0655c59570099780997826600997d09981957057f200997d9570011dc016dd95706563c655c1956f0996c0996c265d0997109975956f57f1c09971956f011d8655bd956e0996009960265a0996509965956e011d461d7805a13bb5c6e5897f5f61d7c61d7c05a23bb606e58d7f6061d8061d8005a33bb6461dc005b33bba461dc405b43bba861dc805b53bbac3bb5c05b3016b83bb6005b4016bc3bb6405b5016c03df9005d5016d45fdac05f53e0103e01005b53e091016d5956e6563409969956e57f18655b9956d099540995426570995909959956d011d03df8c05d4016d05fda805f43e00c3e00c05b43e08d016d1956d65630)
  (.lf 0)))

def shaGateTree155 : BTree :=
  .nd (.nd (.nd (.lf
  0x3a7520dcc4cf74266fddac90393476b25dac8266e8266e899bc266ed266eddac84b3745ce89dac876b9c76b9c0e4c4b3744b3760dcc837ac837ad33dd4e7744cf760e0a838a48382a0e093a8a43a8a4ea2b3a8a93a8ae0e090062c3a8aa0e09517703a74e0dcc4e774837320dcb3a73c3a73ce9d13a7413a7460dcb4cf70266f1dac80393076b21dac7266dc266dc99b9266e1266e1dac74b3705ce85dac776b9876b980e4b4b3704b3720dcb837a8837a933dc4e7704cf720e09838a0838260e083a8983a898ea283a89d3a8a20e08006283a89e0e085176c3a7420dcb4e7708372e0dca3a7303a730e9ce3a7353a73a0dca4cf6c266e5dac70392c76b1ddac6266d0266d099b6266d5266d5dac64b36c5ce81dac676b9476b940e4a4b36c4b36e0dca837a4837a533db4e76c4cf6e0e088389c838220e073a88c3a88cea253a8913a8960e07006243a8920e07517683a7360dca4e76c8372a0dc93a7243a724e9cb3a7293a72e0dc94cf68266d9dac60392876b19dac5266c4266c499b3266c9266c9dac54b3685ce7ddac576b9076b900e494b3684b36a0dc9837a0837a133da4e7684cf6a0e07838988381e0e063a8803a880ea223a8853a88a0e0600620)
  (.lf 0)) (.nd (.lf
  0x5a235c0ca703a470329c0c91add81add86b781addd1ade1c0c95c1a44d9c1fa037e8887e80dfa02334d0334d0cd36334d5334d9fa024a93c334d5fa024f1bc4d9bdfa027e8847e809fa01334c4334c4cd33334c9334cdfa014a9384d9b5fa007e87c334c9fa014f1b84d9b9fa017e8807e805fa00334b8334b8cd30334bd334c1fa004a934334bdfa004f1b47e801f9ff334ac334accd2d334b1334b5f9ff4a930334b1f9ff4f1b04d9b1f9ff7e8784d99df9fa7e8647e7fdf9fe334a0334a0cd2a334a5334a9f9fe4a92c334a5f9fe4f1ac4d9adf9fe7e8747e7f9f9fd334944d9a9f9fd7e87033494cd27334993349df9fd4a92833499f9fd4f1a87e7f5f9fc3348833488cd243348d33491f9fc4a9244d991f9f77e8584d9a5f9fc7e86c3348df9fc4f1a47e7f1f9fb3347c3347ccd213348133485f9fb4a92033481f9fb4f1a04d9a1f9fb7e8687e7edf9fa3347033470cd1e3347533479f9fa4a91c33475f9fa4f19c7e7e9f9f93346433464cd1b334693346df9f94a9184d995f9f87e85c4d999f9f97e86033469f9f94f1987e7e5f9f83345833458cd183345d33461f9f84a9143345df9f84f1947e7e1f9f73344c3344ccd153345133455f9f74a910)
  (.lf 0))) (.nd (.nd (.lf
  0x21315cf0f6087473c3dcf0e213002130084c22130521305cf0e6287021309cf0e608705e871cf0e73cb473c39cf0d212f4212f484bf212f9212fdcf0d6086c5e86dcf0d73cb0212f9cf0d6286c73c35cf0c212e8212e884bc212ed212f1cf0c60868212edcf0c628685e869cf0c73cac73c31cf0b212dc212dc84b9212e1212e5cf0b60864212e1cf0b628645e865cf0b73ca873c2dcf0a212d0212d084b6212d5212d5cf0a628605e85dcf0973ca0212d9cf0a608605e861cf0a73ca473c29cf09212c4212c484b3212c9212c9cf096285c212cdcf096085c73c258216628595e859821662858628580a793c63c73ca182176285c6285c0a7a3c64073ca5821862860628600a7b3c64473ca9821962864628640a7c3c64873cad821a62868628680a7d3c64c73cb1821b6286c6286c0a7e3c65073cb5821c62870628700a7f3c65473cb9821d62874628740a603c65873cbd821e62878628780a613c65c73cc1821f6287c6287c0a623c66073cc5822062880628800a633c66473cc9822162884628840a643c66873ccd822262888628880a653c66c73cd182236288c6288c0a663c67073cd5822462890628900a673c67473cd9822562894628940a683c678)
  (.lf 0)) (.nd (.lf
  0x89d02276089d5089d992c251c1051c11b3a26cf044377c035000cc043780035100cc443784035200cc814f55b3a655c2064b95470857c2051c21b3a66cf146ce99b3a514f4414f4453d314f4951c1db3a56cf1014f4db3a553c1c14f49b3a555c1c6ce95b3a414f3814f3853d014f3d14f41b3a453c1814f3db3a455c1853b8c037243884438850e414398543984037200cc8089d592c257c1064b0992c1089c4089c42273089c9089cd92c151c0c414d0033200c9c00cc992c164b8064b81470357c0c51c0db3a16cf0064b89470557c1451c15b3a36cf086ce91b3a314f2c14f2c53cd14f3114f31b3a355c1414f35b3a353c146ce8db3a214f2014f2053ca14f2514f29b3a253c1014f25b3a255c106ce89b3a114f1414f1453c714f1914f1db3a153c0c14f19b3a155c0c6ce85b3a014f0814f0853c414f0d14f0db3a055c08414cc033100c9853b88037143880438810e404398143980037100cc400cc592c064b7c64b7d470257c08089c992c157c0c64b0592c0089b8089b82270089bd089c192c051c0851c09b3a06cefc14f11b3a053c086ce81b39f14efc089bd92c057c0853b8403704387c4387d0e3f4397d4397c037000cc0414c8033000c94)
  (.lf 0)))

def shaGateTree156 : BTree :=
  .nd (.nd (.nd (.lf
  0x7a58555c057700577001185430787a58955c1577045770411864307c7a58d55c257708577081187430807a59155c35770c5770c1188430847a59555c457710577101189430887a59955c55771457714118a4308c7a59d55c65771857718118b430907a5a155c75771c5771c118c430947a5a555c85772057720118d430987a5a955c95772457724118e4309c7a5ad55ca5772857728118f430a07a5b155cb5772c5772c1190430a47a5b555cc57730577301191430a87a5b955cd57734577341192430ac7a5bd55ce57738577381193430b07a5c155cf5773c5773c1194430b47a5c555d057740577401195430b84303c118d0460843040118e0460c43044118f04610430481190046144304c1191046184305011920461c43054119304620430581194046244305c1195046284306011960462c43064119704630430681198046344306c11990463843070119a0463c43074119b0464043078119c046444307c119d0464843080119e0464c43084119f04650430881180046544308c1181046584309011820465c43094118304660430981184046644309c118504668430a011860466c430a4118704670430a8118804674430ac118904678430b0118a0467c)
  (.lf 0)) (.nd (.lf
  0x4de96013c8056c804f2013b35e7c35e7cd7a135e8135e86013b4ae1035e82013b4f6904de92013b80568804ee013a35e7035e70d79e35e7535e7a013a4ae0c35e76013a4f68c4de8e013a80564804ea013935e6435e64d79b35e6935e6e01394ae0835e6a01394f6884de8a013980560804e6013835e5835e58d79835e5d35e6201384ae0435e5e01384f6844de8601388055c804e2013735e4c35e4cd79535e5135e5601374ae0035e5201374f6804de82013780558804de013635e4035e40d79235e4535e4a01364adfc35e4601364f67c4de7e013680554804da013535e3435e34d78f35e3935e3e01354adf835e3a01354f6784de7a013580550804d6013435e2835e28d78c35e2d35e3201344adf435e2e01344f6744de7601348054c804d2013335e1c35e1cd78935e2135e2601334adf035e2201334f6704de72013380548804ce013235e1035e10d78635e1535e1a01324adec35e1601324f66c4de6e013280544804ca013135e0435e04d78335e0935e0e01314ade835e0a01314f6684de6a013180540804c6013035df835df8d78035dfd35e0201304ade435dfe01304f6644de6601308053c804c2012f35dec35decd77d35df135df6012f4ade0)
  (.lf 0))) (.nd (.nd (.lf
  0xf4383d100f43d0f43da52058ee8694fd4bba58ee825fe5d9ce038a876739d9cd25fd025fd097f625fd525fd5d9cd4b2e825e79d9905ee0076641d98f25e6825e68979c25e6d25e71d98f5cdfc25cb0000025d9225d90972925ca025ca0972958ee958ee897295ae385ae39d98f766b8766b9737f5edfc5cdfdd9cd767b0767b00e294b2e84b2ea0d0f834b8834b933ba4e6e84e6ea0d8b836a88362e0d8a3a5b03a5b0e96e3a5b53a5ba0d8a001203a5b60d8a4fee43a2f60d0f4cee88343e0d0e3a2e03a2e0e8ba3a2e53a2e60d0e4e6e4360da01ad50ee8806b601ac360c8360c8d834360cd360d201ac4b2e44c6e601ac8072c8072d2cb950ee40f441a52052ee869481a51f0f42c02ea1a51f694f80f42c3d0d0f4310f431a51f58ee4694f94bb958ee425fd9d9cd038a476735d9cc25fc425fc497f325fc925fc9d9cc4b2e425e6dd98f5edfc7663dd98e25e5c25e5c979925e6125e65d98e5cdf825ca4972725c9825c98972758ee558ee497275ae345ae35d98e766b4766b5737e5edf85cdf9d9cc767ac767ac0e284b2e44b2e60d0e834b4834b533b94e6e44e6e60d8a836a48362a0d893a5a43a5a4e96b3a5a93a5ae0d890011c3a5aa0d894fee0)
  (.lf 0)) (.nd (.lf
  0x32185f6c6507647da9d2fd94d7644bf65f6c67db947db19f6c53217432174c85f3217932179f6c5507607da992fd84d7604bf61f6c57db903217df6c54ab607db15f6c43216832168c85c3216d6eb796f975de5c31fe1f6834d7504a351f6837da887da0df68231fd031fd0c7f631fd531fd9f6824bf4c6ec7406424a34c4a34df6827da8431fd5f6824d74c7da09f68131fc431fc4c7f331fc931fcdf6814bf485be5dbafd6ec706ec7006414a34831fc9f6814d7484a349f6817da807da052fd14d7457da812fd24d7486ebf406404a3457da8d2fd54d7547da952fd74d75c7da912fd64d75832171f6c44ab5c3216df6c45075c4bf59f6c37db884bf5df6c47db8c7db11f6c33215c3215cc8593216132161f6c35075832165f6c34ab587db0df6c23215032150c8563215532159f6c24ab5432155f6c2507544bf55f6c27db847db09f6c13214432144c8533214932149f6c1507507da892fd44d7507da852fd34d74c4bf51f6c17db803214df6c14ab507db05f6c03213832138c8503213d32141f6c04ab4c3213df6c05074c4bf4df6c07db7c7db01f6bf3212c3212cc84d3213132131f6bf507484a3452fd14d7444bf452ad15074432135f6bf4ab48)
  (.lf 0)))

def shaGateTree157 : BTree :=
  .nd (.nd (.nd (.lf
  0x6a0c94c85592146a0d14c875921c69f8d64740428c69f9964770429869f9564760429469ffd6490042fc6a0c54c845921069f856472042846a0dd4c8a5922869f896473042886a0b94c81592046a0bd4c82592086a0c14c835920c6a0b54c805920069ff5648e042f46a0f54c905924059240a223288cc288cc00005b17a5b179df9477ecc77ecd74555f1545f155e010780bc78041e00f28cfc28cfca34128d0128d05e00f6115028d01e00f6315077e51df9328a2c28a2ca28d28a3128a31df935f1502888ca2142884c2884ca2145923d6a0f14c8f5923c5923ca2145b1745b175df9377ec877ec974545f1505f151e00f780b87803de00e28cf028cf0a33e28cf528cf9e00e6114c28cf5e00e6314c28a35df935d15077e4ddf9228a2028a20a28a28a2528a25df925f14c28850a2122884428844a212592396a0ed4c8e5923859238a2125b1705b171df9277ec477ec574535f14c5f14de00e780b478039e00d28ce428ce4a33b28ce928cede00d6114828ce9e00d6314828a29df925d14c77e49df9128a1428a14a28728a1928a19df915f14828848a2222883828838a2102883d2883ca2225b16c6a0e94c8d5923459234a222288c8288c800005b16e)
  (.lf 0)) (.nd (.lf
  0x1b275c18b5633052331c18b706a87062dc18a1b2641b2646c9b1b2691b26dc18a5432c1b269c18a5632c70629c1891b2581b2586c981b25d1b25dc189563281b261c1895432852329c189706a070625c1881b24c1b24c6c951b2511b255c188543241b251c1885632452325c1887069c70621c1871b2401b2406c921b2451b249c187543201b245c1875632052321c187706987061dc1861b2341b2346c8f1b2391b23dc1865431c1b239c1865631c70619c1851b22852319c185706901b2286c8c1b22d1b22dc185563181b231c1855431870615c1841b21c1b21c6c891b2211b225c1845431452315c1847068c1b221c1845631470611c1831b2101b2106c861b2151b215c1835631052311c183706881b219c183543107060dc1821b2041b2046c831b2091b20dc1825430c52309c181706801b209c1825630c5230dc1827068470609c1811b1f81b1f86c801b1fd1b201c181543081b1fdc1815630870605c1801b1ec1b1ec6c7d1b1f11b1f1c180563041b1f5c1805430470601c17f1b1e01b1e06c7a1b1e51b1e5c17f5630052301c17f706781b1e9c17f54300705fdc17e1b1d41b1d46c771b1d91b1ddc17e542fc522fdc17e706741b1d9c17e562fc)
  (.lf 0))) (.nd (.nd (.lf
  0x3c7b00ca80328c3c7b40ca9032903c7b80caa0329452ac1d06a74224741a9d06921c7421c74871f21c7921c7dd06954abc52abdd0697422021c79d06956abc741a5d06821c6821c68871c21c6d21c71d06854ab852ab9d0687421c21c6dd06856ab8741a1d06721c5c21c5c871921c6121c61d06756ab452ab5d0677421821c65d06754ab47419dd06621c5021c50871621c5521c59d06654ab021c55d06656ab052ab1d0667421474199d06521c4452aadd0657421021c44871321c4921c4dd06554aac21c49d06556aac74195d06421c3821c38871021c3d21c3dd06456aa821c41d06454aa852aa9d0647420c74191d06321c2c21c2c870d21c3121c35d06354aa452aa5d0637420821c31d06356aa47418dd06221c2021c20870a21c2521c29d06254aa052aa1d0627420421c25d06256aa074189d06121c1421c14870721c1921c1dd06154a9c21c19d06156a9c52a99d060741fc52a9dd0617420074185d06021c0821c08870421c0d21c0dd06056a9821c11d06054a9874181d05f21bfc21bfc870121c0121c05d05f54a9421c01d05f56a9452a95d05f741f87417dd05e21bf021bf086fe21bf521bf9d05e54a9052a91d05e741f421bf5d05e56a90)
  (.lf 0)) (.nd (.lf
  0x6c855b214144cc144cc5135144d1144d5b214014883db440542014885fb6005623dbc43dbc405223dc4501489936b64e2864e295f3300f8808eb993aa51cd064ea993a908ea408ea423ab08ea953c4c03a243b4443b450ef143c4543c4403a200d8843a44038200d8800d8993a964f2064f21473357ccc08d4d936c00f8c64db1936b08d3c08d3c235108d4108d45936b57ccc08ea993a957ccc57ccd672715f3415f34000059ca215dd15f3215dd515dd5672759ca059ca1b5c96d7a0092b5943f51db415cadb58f53cdc6d63db58e15c9815c98572815c9d15c9db58e55cd851cd9b58e6d6b46d6b54f3655cd855cd8039b416506d6d94f3f55cfc55cfc038441674650fd943e092a0092a024aa092a5092a5943e57db016265b6465fbe46d919b645162501625058961625516255b64561be06d7a16ef85dbe015f95b5ca5bbe46d729b5c915f8015f8057e215f8515f85b5c95dbe05dbe1b6456d9906d9f57f1161c446d9dd7f0b61c2c6d7054f4a55d2814cc1b32f49fb46ccbdb32e14cb014cb0532e14cb514cb9b32e0156c5bac5b32e6cd341662400001668253d3003db43d286d9c97f0661c186d9917ef861be061be0055b3b9c461c1805493b9fc)
  (.lf 0)))

def shaGateTree158 : BTree :=
  .nd (.nd (.nd (.lf
  0x40b940f5603cd840b980f5703cdc40b9c0f5803ce040ba00f5903ce440ba40f5a03ce840ba80f5b03cec40bac0f5c03cf040bb00f5d03cf440bb40f5e03cf840bb80f5f03cfc613580f6040bbc6135c0f6140bc0613600f6240bc4613640f6340bc8613680f6440bcc6136c0f6540bd0613700f6640bd4613740f6740bd8613780f6840bdc6137c0f6940be0613800f6a40be4613840f6b40be8613880f6c40bec6138c0f6d40bf0613900f6e40bf4613940f6f40bf8613980f7040bfc6139c0f7140c00613a00f7240c04613a40f7340c08613a80f7440c0c613ac0f7540c10613b00f7640c14613b40f7740c18613b80f7840c1c613bc0f7940c20613c00f7a40c24613c40f7b40c28613c80f7c40c2c613cc0f7d40c30613d00f7e40c34613d40f7f40c3840bbc0f2040c3d40bc00f2140c4140bc40f2240c4540bc80f2340c4940bcc0f2440c4d40bd00f2540c5140bd40f2640c5540bd80f2740c5940bdc0f2840c5d40be00f2940c6140be40f2a40c6540be80f2b40c6940bec0f2c40c6d40bf00f2d40c7140bf40f2e40c7540bf80f2f40c7940bfc0f3040c7d40c000f3140c8140c040f3240c8540c080f3340c8940c0c0f3440c8d40c100f3540c91)
  (.lf 0)) (.nd (.lf
  0x7fac531454dd144c515fed07fbbc7fb41fecf3506c3506cd41d3507135075fecf4b11035071fecf50d1034f15fe924dd147fa49fe9134f0434f04d3c334f0934f0dfe914c5104a911fe917fac07fac131444dd104c511fecf7fbb87fb3dfece3506035060d41a3506535069fece4b10c35065fece50d0c34f09fe914dd107fa45fe9034ef834ef8d3c034efd34f01fe904c50c4a90dfe907fabc7fabd31434dd0c4c50dfece7fbb47fb39fecd3505435054d417350593505dfecd4b10835059fecd50d0834efdfe904dd0c7fa41fe8f34eec34eecd3bd34ef134ef5fe8f4c5084a909fe8f7fab87fab931424dd084c509fecd7fbb07fb35fecc3504835048d4143504d35051fecc4b1043504dfecc50d0434ef1fe8f4dd087fa3dfe8e34ee034ee0d3ba34ee534ee9fe8e4c5044a905fe8e7fab47fab531414dd044c505fecc7fbac7fb31fecb3503c3503cd4113504135045fecb4b10035041fecb50d0034ee5fe8e4dd047fa39fe8d34ed434ed4d3b734ed934eddfe8d4c5004a901fe8d7fab07fab131404dd004c501fecb7fba87fb2dfeca3503035030d40e3503535039feca4b0fc35035feca50cfc34ed9fe8d4dd007fa35fe8c34ec834ec8d3b434ecd)
  (.lf 0))) (.nd (.nd (.lf
  0x23821d43b54c582381dd43b56c5852c59d43b75168750edd43a2380c2380c8e052381123815d43a54c5423811d43a56c5452c55d43a75164750e9d43923800238008e022380523809d43954c5023805d43956c5052c51d43975160750e5d438237f4237f48dff237f9237fdd43854c4c237f9d43856c4c52c4dd4387515c750e1d437237e8237e88dfc237ed237f1d43754c48237edd43756c4852c49d4377515852c45531156c44750dd531156c4556c440b36425bc75181531c56c7056c700b21425e8751b1532856ca056ca00b2d42618425bc0b2d02c88425e80b3802cb446a700b4d02cb475189531e56c7854c780b6d46b7046b711afc46c7146c700b6d02cb402cb5a33468d4c75165531556c5456c540b3a425cc75169531656c5856c580b3b425d075171531856c6056c600b3d425d875175531956c6456c640b3e425dc75179531a56c6856c680b3f425e056c780b23425f07518d531f56c7c56c7c0b24425f475191532056c8056c800b25425f875195532156c8456c840b26425fc7519d532356c8c56c8c0b2842604751b5532956ca456ca40b2e4261c751b9532a56ca856ca80b2f42620751bd532b56cac56cac0b3042624751c1532c56cb0)
  (.lf 0)) (.nd (.lf
  0x4171c03a500ee843da403da00ee853dac03fa43ea443ea50fc943fa543fa403fa00ee800ee994b965360652e594b8095580955825580955d0956194b851e280955d94b857e2855d5003b9416c855d7403a2416ec6dadd4f6855da055da003ad41718416ec03b900eb84171803a400ee443da003d900ee453da803f943ea043ea10fc843fa143fa003f900ee400ee594b86535c652e194b70954c0954c2555095510955594b751e240955194b757e24652dd94b609540095402552095450954594b657e206daa94f5b55d6c6da854f5255d4851d454f5155d44163b1b68255d486da094f5155d4555d4803b7416c055d6c03a0416e46dad54f6655d9855d9803ab41710416e403b700eb04171003a200edc43d9803d700edc53da003f743e9843e990fc643f9943f9803f700edc00edd94b6653540954994b651e20652d994b50953409534254f095390953994b557e1c0953d94b551e1c55d4403b6416bc55d9403aa4170c416e003b600eac4170c03a100ed843d9403d600ed853d9c03f643e9443e950fc543f9543f9403f600ed800ed994b565350652d594b4095286dacd4f6455d9055d9003a94170855dc003b541738416dc03b500ea84170803a000ed4)
  (.lf 0)))

def shaGateTree159 : BTree :=
  .nd (.nd (.nd (.lf
  0x69ba964330418827c1dddb603a8c776d9ddb527c0827c089f0427c0d27c0dddb54b4cc27ab1dd785efe4775e1dd7727aa027aa09eaa27aa527aa9dd775cfe0279449e4f27938279389e4f590cd590cc9e4f5b00c5b00ddd77776587765973f85efe05cfe1ddb577750777500ea24b4cc4b4ce0ff08403c8403d34334e8cc4d0ce102e84134840ba102d3b4d43b4d4ed373b4d93b4de102d007843b4da102d518c83b37e0ff04e8cc83fc20fef3b36c3b36cecdd3b3713b3760fef4d0c8398c60b564fd4c82d5a0b55398b4398b4e62f398b9398be0b554b4c8395fa0ada4cd4c82b6a0ad9395e4395e4e57b395e9395ea0ad94e5484b14a0ad982be082be133524e5484e54a0b5582dd082dd12d324fd4837166048e510cc8123a048d3715437154dc57371593715e048d4b4c84c8ca048d812b0812b12d32510c869c9d4c32590c80ff1da708590c80fdc1a6cb0418869b2da6ca0fdb00fdb03f6e0fdb50fdb9a6ca590c803885a6ca69ba469ba564320418427c11ddb503a88776d5ddb427bfc27bfc9f0127c0127c01ddb44b4c827aa5dd775efe0775dddd7627a9427a949ea727a9927a9ddd765cfdc2793d6c0127934279356c01590c9590c96c015b008)
  (.lf 0)) (.nd (.lf
  0x3bdc4064d019203bdc8064e019240a72d97d401b3c65f5197d30a71c0a71c29c90a7210a72597d35817c3e470066d019343e474066e019386000c088d3e4f060010088e3e4f43e4f0064d3e5713e4f4064e3e5750a72197d301b380193997d365fc865f4d97d20a7100a71029c60a7150a71997d2581780193597d265fc40a71597d201b3465f4997d10a7040a70429c30a7090a70d97d1581743bdbc064b019183bdc0064c0191c3be38064a019143e464066a019283e468066b0192c3e46c066c0193060000088a3e4e460004088b3e4e860008088c3e4ec3e4e4064a3e5653e4e8064b3e5693e4ec064c3e56d0193197d165fc00a70997d101b3065f4597d00a6f80a6f829c00a6fd0a6fd97d001b2c0192d97d065fbc0a70197d05817065f4197cf0a6ec0a6ec29bd0a6f10a6f597cf5816c0192997cf65fb80a6f197cf01b2865f3d97ce0a6e00a6e029ba0a6e50a6e997ce581683be3406490191065fc9605f01b385817c67935a12419e4c67bb19e3c19e3c679119e4165fc5605e01b34660bd485e581785817867bb19f1419e4067bb5a12019e44000019eee19eec678e19e3465fc1605d01b30660b9485d5817419e34678e5817558174678e5a11c)
  (.lf 0))) (.nd (.nd (.lf
  0x20bb482ef20bb920bb9ce12627e020bbdce12607e073849ce1120ba820ba882ec20bad20bb1ce11607dc3f33c0a40028803f3400a4102884607580a603f3bc6075c0a613f3c03f3bc0a203f43d3f3c00a213f44145e3c08400208045e4008410208454844086045f3c54848086145f4045f3d17ef4603d45f4117f0460414603c08600208046040086102084208edcd965c7e073659cd95208d8208d88238208dd208ddcd955e7dc2078800007361a736196a0d2077c2077d6a0d588c9020859f4867d9c67d9d4a32588c87280c0a214aac80d0c19f0b02a880d22d9f49528cc67d259f480d2180d21834880d21d67c2d9f0a0d0b00d0b0342e0d0b50d0b99f0a588c8028859f0a67ca467ca5623202a840d21d9f48588c8588c96a0d5a8385a839cd95736d0736d171f75e7dc5e7ddce11738c0208e1cd955c7dc727900a204aac5020814a31588c40d2219f48528c867d214a31588c50d0b59f0a02a8467c29623102a815c5d80a204aac402881623102a80588c400005a8365a83571f65e7d87365571f65e7d95e7d981f6627d820badce11627dc7384581f6627d9627d80a593c5bc738c181f7627dc627dc0a5a3c5c0738c581f8627e0627e00a5b3c5c4)
  (.lf 0)) (.nd (.lf
  0x539cc0302433c4433c50d11434c5434c403024b7cc076c58f8b4b7cc4b7cd913d64570644f5913c08088847098e9263ac463ac52d7200884076c18f8b00a8863e2d8f8a076b0076b01dae076b55f8e004c23d6c43d6452d534b5cc3d6c52d733d7454b5cd90ff6447807f3190ff00d0807f3590ff57a4c643fd90fe07f2007f201fca07f25076b98f8a4b7c8432c12dd24b7c8849098f8a63ea4539c80301433c0433c10d10434c163ea52df200a84434c003014b7c84b7c9913c6456c0808820240808d5f8dc04c13d6c03d6c12d723d7413d6412d524b5c8071198e924b5c84b5c990fe644746456d469257a4807f2990fe57a48644755e9200d040808d913c57a4857a49668d13bf813bf8000059a3a13f39b1485f96c6c521b14713f246c331b0cb13c5408355919757b3c6465d91960834013ad0000013bca13bc84eb113ac013ac04eb157a5564579469557a54644815e9500d1057a544eb159a4413ac44ef113ab413ab44eaf13ab913ab84ef159a4059a45b0cb6c3a86c3a96e5a5d96813c544f1713c5913c59b0cb5d9685d969b1476c5986c5fd7e73619cc6c5997e5a6196863a3d2d6e008746c5e57e6d619b4619b52d613b7983b7992d534b5b8)
  (.lf 0)))

def shaGateTree160 : BTree :=
  .nd (.nd (.nd (.lf
  0x49471251e494754947a117a009e049476117a006605d6ba117a84664845ea11794946449465251b494694946e1179009dc4946a11790065c5d6b6117984660845e61178494584945925184945d494621178009d84945e1178006585d6b211788465c845e211774944c4944d251549451494561177009d4494521177006545d6ae117784658845de117649440494412512494454944a1176009d0494461176006505d6aa117684654845da11754943449435250f494394943e1175009cc4943a11750064c5d6a6117584650845d611744942849429250c4942d494321174009c84942e1174006485d6a211748464c845d211734941c4941d250949421494261173009c4494221173006445d69e117384648845ce117249410494112506494154941a1172009c0494161172006405d69a117284644845ca117149404494052503494094940e1171009bc4940a11710063c5d696117184640845c61170493f8493f92500493fd494021170009b8493fe1170006385d69211708463c845c2116f493ec493ed24fd493f1493f6116f009b4493f2116f006345d68e116f84638845be116e493e0493e124fa493e5493ea116e009b0493e6116e006305d68a116e84634)
  (.lf
  0x6429d5e7800c9c1335c4d1a599d0579e04d1a134c0134684d191334c1334c4cd51335113354000013466133504d19599cc642995e7700c98642955e7600c94579dc4d19134bc134644d1813340133404cd213345579d84d18134b813348000013462133444d18599c8134604d1713334847958ed363bc85f8652d543d5c8847918ed263bc4072a18ed300910072a58ed34b65463b4d8ed207290072901ca607295072998ed24b65063bc52d940090c3d5c92d943d6494b65190846428c5f8692d553d5cc3d5cd2d953d64d63bc92d95009104b65590856429007c7d9085579d407c79908500c9064215908407c6807c681f1c07c6d07c719084579d0642915e7500c906428d5e7400c8c579d44d17134b4133344ccf133391333c00001345e133384d17599c41345c4ccc1332c1332c4ccc579d1579d04ccc599c0133304d1613320072958ed20090c07c6d908400c8c64211908307c5c07c5c1f1907c6107c659083579cc63b498ed1072848478d8ed163bc063bc12d9300908072841ca3072890728d8ed14b64c5f8612d533d5c43d5c52d933d6454b64d908364288642895e7300c88579cc4d16134b0847898ed063bbc63bbd2d9200904072898ed100908))
  (.nd (.lf
  0x422180824020e44221c0825020e8422200826020ec45ea00859020e445ea4085a020e845ea8085b020ec548a8087945fa0548ac087a45fa4548b0087b45fa845fa11808460a145fa51809460a545fa9180a460a9460a00879020e4460a4087a020e8460a8087b020ec0d3619f635893467d8d9f620d3500d35034d60d3550d3599f6252930020ed9f6267e0467e054a4c5893052931cd627360473589cd61207402074081d22074520749cd615492c0d3559f625893067d899f610d3440d34434d30d3490d34d9f615292c020e99f6167e0067e014a4b5892c5292dcd617360020745cd615692c73585cd60207342073481cf207392073dcd605492820739cd60569280d3499f615892c020e59f6067dfc67dfd4a4a5892867d859f600d3380d33834d00d33d0d3419f605292852929cd60735fc73581cd5f207281ff31cc525485073149cc511ff1c1ff1c7fc91ff211ff21cc515684c5284dcc51731c01ff25cc515484c73145cc501ff101ff107fc61ff151ff19cc50548481ff15cc505684852849cc50731bc7321152275689c7320d5226568987320952255689473205522456890731e1521b5686c731c152135684c5284552115684473141521156845)
  (.lf 0))) (.nd (.nd (.lf
  0x4041c0e384049d038e1a6e169c0069b85a6e00feb80feb83fb00febd0fec1a6e0591200febda6e0041dc403980e57038dc60fb40e7740418404180e3740499038dda6e069bfc69b81a6df0feac0feac3fad0feb10feb5a6df5911c0feb1a6df041d84033c0e4003880403400e4103884403440e4203888403480e430388c4034c0e4403890403500e4503894403540e4603898403580e470389c4035c0e48038a0403600e49038a4403640e4a038a8403680e4b038ac4036c0e4c038b0403700e4d038b4403740e4e038b8403780e4f038bc4037c0e50038c0403800e51038c4403840e52038c8403880e53038cc4038c0e54038d0403900e55038d4403940e56038d860f580e60403bc60f5c0e61403c060f600e62403c460f640e63403c860f680e64403cc60f6c0e65403d060f700e66403d460f740e67403d860f780e68403dc60f7c0e69403e060f800e6a403e460f840e6b403e860f880e6c403ec60f8c0e6d403f060f900e6e403f460f940e6f403f860f980e70403fc60f9c0e714040060fa00e724040460fa40e734040860fa80e744040c60fac0e754041060fb00e7640414403bc0e204043d403c00e2140441403c40e2240445403c80e2340449)
  (.lf 0)) (.nd (.lf
  0x7e3f5f8fc32e8832e88cba432e8d7e37530414d9044c105f8fc7e46c32e91f8fc4ad0432e8df8fc509047e3f1f8fb32e7c32e7ccba132e8132e85f8fb4ad0032e81f8fb509007e37130404d9004c101f8fb7e4687e3edf8fa32e707e36d303f4d8fc4c0fdf8fa7e46432e70cb9e32e7532e75f8fa508fc32e79f8fa4acfc7e3e9f8f932e6432e64cb9b32e6932e6df8f94acf832e69f8f9508f87e3e5f8f832e5832e58cb9832e5d32e61f8f84acf432e5df8f8508f47e365303d4d8f44c0f5f8f87e45c7e3e1f8f732e4c32e4ccb9532e5132e55f8f74acf032e51f8f7508f07e361303c4d8f04c0f1f8f77e4587e3ddf8f632e4032e40cb9232e4532e49f8f64acec32e45f8f6508ec7e35d303b4d8ec4c0edf8f67e4547e3d9f8f532e3432e34cb8f32e3932e3df8f54ace832e39f8f5508e87e3d5f8f432e2832e28cb8c32e2d32e31f8f44ace432e2df8f4508e47e2ddf8b632cc032cc0cb3232cc532cc9f8b64c0e46f86408a84a4e44a4e5f8b67e3547e35530394d8e44c0e5f8f47e44c7e3d1f8f332e1c32e1ccb8932e2132e25f8f34ace032cc5f8b64d8e47e2d9f8b532cb432cb4cb2f32cb932cbdf8b54c0e032e21f8f3508e06f86008a74a4e0)
  (.lf 0)))

def shaGateTree161 : BTree :=
  .nd (.nd (.nd (.lf
  0x40abc0f0040b3d40ac00f0140b4140ac40f0240b4540ac80f0340b4940acc0f0440b4d40ad00f0540b5140ad40f0640b5540ad80f0740b5940adc0f0840b5d40ae00f0940b6140ae40f0a40b6540ae80f0b40b6940aec0f0c40b6d40af00f0d40b7140af40f0e40b7540af80f0f40b7940afc0f1040b7d40b000f1140b8140b040f1240b8540b080f1340b8940b0c0f1440b8d40b100f1540b9140b140f1640b9540b180f1740b9940b1c0f1840b9d40b200f1940ba140b240f1a40ba540b280f1b40ba940b2c0f1c40bad40b300f1d40bb140b340f1e40bb540b380f1f40bb953441e34978da078d25e3482a3f82a3f8a9002a3fd2a401e3485543c2a3fde3485743c5343de34878d9c78d21e3472a3ec2a3eca8fd2a3f12a3f5e347554382a3f1e3475743853439e34778d9878d1de3462a3e02a3e0a8fa2a3e52a3e9e346554342a3e5e3465743453435e34678d9478d19e3452a3d42a3d4a8f72a3d92a3dde345554302a3d9e3455743053431e34578d9078d15e3442a3c82a3c8a8f42a3cd2a3d1e3445542c2a3cde3445742c5342de34478d8c78d11e3432a3bc2a3bca8f12a3c12a3c5e343554282a3c1e3435742853429e34378d8878d0de3422a3b0)
  (.lf 0)) (.nd (.lf
  0xbc319b74524f80bc2d9b74584f866dd19b730bc1c0bc1c2f090bc210bc219b73584f40bc259b73524f401cb19b7366e4866dcd9b720bc100bc102f060bc150bc199b72524f00bc159b72584f045268074b01cac54470076b453684536914fa4546945468076b01cac01cad9b7266e4466dc99b710bc040bc042f030bc090bc0d9b71524ec45264074a01ca85446c076a453644536514f94546545464076a01ca80bc099b71584ec01ca99b7166e4066dc59b700bbf80bbf82f000bbfd0bc019b70524e845254074601c985445c0766453544535514f54545545454076601c9801c999b6d66e3066e314937584dc5e3d5c53e71574714f9c53d1cd741cd74735f1cd791cd7dc53d603d01cd79c53d623d05e3d1c53d71570714f5c53c1cd681cd68735c1cd6d1cd71c53c603cc1cd6dc53c623cc5e3cdc53c7156c714f1c53b1cd5c1cd5c73591cd611cd65c53b603c81cd61c53b623c85e3c9c53b71568714edc53a1cd501cd5073561cd551cd59c53a603c41cd55c53a623c45e3c5c53a71564714e9c5391cd441cd4473531cd491cd4dc539603c01cd49c539623c05e3c1c53971560714e5c5381cd381cd3873501cd3d1cd41c538603bc1cd3dc538623bc)
  (.lf 0))) (.nd (.nd (.lf
  0x469c11a9046ac146ac00b4102c0402c05a2ac68b2c68ba54b3058cc068ba14b2f58cbc68b9d4b2e58cb868b994b2d58cb468b954b2c58cb068b914b2b58cac68b8d4b2a58ca868b894b2958ca468b854b2858ca068b814b2758c9c68b7d4b2658c9868b794b2558c9468b754b2458c9068b714b2358c8c68b6d4b2258c8868b694b2158c8468b654b2058c8068b614b1f58c7c68b5d4b1e58c7868b594b1d58c7468b554b1c58c7068b514b1b58c6c68b4d4b1a58c6868b494b1958c6468b454b1858c6068b414b1758c5c68b3d4b1658c5868b394b1558c5468b354b1458c5068b314b1358c4c68b2d4b1258c48468bc0b2002c0054bc40b40469bc469bd1a8f46abd46abc0b4002c0002c014b1158c4468ab14b1158c450347da28c68aac68a31a28b0e5bc0e5bc39710e5c10e5c5a28b58cbc0e5c1a28b02e7803479a28b68aa868a2da28a0e5b00e5b0396e0e5b50e5b9a28a58cb80e5b5a28a02e7403475a28a68aa468a29a2890e5a40e5a4396b0e5a90e5ada28958cb40e5a9a28902e7003471a28968aa068a25a2880e5980e59839680e59d0e5a1a28858cb00e59da28802e6c0346da28868a9c68a21a2870e58c0e58c39650e5910e595a28758cac)
  (.lf 0)) (.nd (.lf
  0x4bcd1f31f7ccf830c41f3204a8d47cc81f31f30c2c30c2cc30d30c3130c35f31f4a8d030c31f31f504d07cc7df31e30c2030c20c30a30c2530c29f31e4a8cc30c25f31e504cc30ac1f2e04bccc4bccdf31e7ccf47cc79f31d30c1430c14c30730c1930c1df31d4a8c87cb81f2df30aac30aacc2ad30ab15bbd805a04a0c44a0c52f314d4c430ab1f2df4d4c830ab5f2df4bcc87cb7d2f314d4c54bcc52a31504c430c19f31d504c84bcc9f31d7ccf07cc752a31504c5504c52a1404d607ccf12a32504c8504c92a1504d647ccf52a33504cc504cd2a1604d687ccf92a34504d0504d12a1704d6c7ccfd2a35504d4504d52a1804d707cd012a36504d8504d92a1904d747cd052a37504dc504dd2a1a04d787cd092a38504e0504e12a1b04d7c7cd0d2a39504e4504e52a1c04d807cd112a3a504e8504e92a1d04d847cd152a3b504ec504ed2a1e04d887cd192a3c504f0504f12a1f04d8c7cd1d2a3d504f4504f52a2004d907cd212a3e504f8504f92a2104d947cd252a3f504fc504fd2a2204d987cd292a4050500505012a2304d9c7cd2d2a4150504505052a2404da07cd312a4250508505092a2504da47cd352a435050c5050d2a2604da87cd392a4450510)
  (.lf 0)))

def shaGateTree162 : BTree :=
  .nd (.nd (.nd (.lf
  0x430141163045e0430181164045e44301c1165045e8430201166045ec430241167045f0430281168045f44302c1169045f843030116a045fc43034116b0458043038116c045844883c11800458048840118104584488441182045884884811830458c4884c11840459048850118504594488541186045984885811870459c4885c1188045a0488601189045a448864118a045a848868118b045ac4886c118c045b048870118d045b448874118e045b848878118f045bc4887c1190045c0488801191045c4488841192045c8488881193045cc4888c1194045d0488901195045d4488941196045d8488981197045dc4889c1198045e0488a01199045e4488a4119a045e8488a8119b045ec488ac119c045f0488b0119d045f4488b4119e045f8488b8119f045fc5564411a04893c5564811a1489405564c11a2489445565011a3489485565411a44894c5565811a5489505565c11a6489545566011a7489585566411a84895c5566811a9489605566c11aa489645567011ab489685567411ac4896c5567811ad489705567c11ae489745568011af489785568411b04897c5568811b1489805568c11b2489845569011b3489885569411b44898c5569811b548990)
  (.lf 0)) (.nd (.lf
  0x803a131ae4deb84c6ba0107804988041e010635d8035d80d76235d8535d8a01064b2b435d86010650eb435c2a00c94deb88032600c835c1835c18d70835c1d35c2200c84c6b44aab600c88039c8039d31ad4deb44c6b60106804948041a010535d7435d74d75f35d7935d7e01054b2b035d7a010550eb035c1e00c84deb48032200c735c0c35c0cd70535c1135c1600c74c6b04aab200c7803988039931ac4deb04c6b201058049080416010435d6835d68d75c35d6d35d7201044b2ac35d6e010450eac35c1200c74deb08031e00c635c0035c00d70235c0535c0a00c64c6ac4aaae00c6803948039531ab4deac4c6ae01048048c80412010335d5c35d5cd75935d6135d6601034b2a835d62010350ea835c0600c64deac8031a00c535bf435bf4d6ff35bf935bfe00c54c6a84aaaa00c5803908039131aa4dea84c6aa0103804888040e010235d5035d50d75635d5535d5a01024b2a435d56010250ea435bfa00c54dea88031600c435be835be8d6fc35bed35bf200c44c6a44aaa600c48038c8038d31a94dea44c6a60102804848040a010135d4435d44d75335d4935d4e01014b2a035d4a010150ea035bee00c44dea48031200c335bdc35bdcd6f935be1)
  (.lf 0))) (.nd (.nd (.lf
  0x3cb600db4036bc3cb640db5036c03cb680db6036c43cb6c0db7036c83cb700db8036cc3cb740db9036d03cb780dba036d43cb7c0dbb036d83cb800dbc036dc3cb840dbd036e03cb880dbe036e43cb8c0dbf036e83cb900da0036ec3cb940da1036f03cb980da2036f43cb9c0da3036f83cba00da4036fc3cba40da5036803cba80da6036843cbac0da7036883cbb00da80368c3cbb40da9036903cbb80daa036943ff7c0dd0036c03ff800dd1036c43ff840dd2036c83ff880dd3036cc3ff8c0dd4036d03ff900dd5036d43ff940dd6036d83ff980dd7036dc3ff9c0dd8036e03ffa00dd9036e43ffa40dda036e83ffa80ddb036ec3ffac0ddc036f03ffb00ddd036f43ffb40dde036f83ffb80ddf036fc60d980df03fffc60d9c0df14000060da00df24000460da40df34000860da80df44000c60dac0df54001060db00df64001460db40df74001860db80df84001c60dbc0df94002060dc00dfa4002460dc40dfb4002860dc80dfc4002c60dcc0dfd4003060dd00dfe4003460dd40dff400383fffc0db04007d400000db140081400040db240085400080db3400894000c0db44008d400100db540091400140db640095400180db7400994001c0db84009d)
  (.lf 0)) (.nd (.lf
  0x9c6995ee57fa857fa860b759f7859f81bad96ebe018348000059f8659f85bada6ebe418499bada5dec81849dbada5bec86eb69bad9184881848861241848d18491bad95bec41848dbad95dec459f79bad76ebd818344000059f7e59f7dbad86ebdc6eb65bad81847c1847c61211848118485bad85bec018481bad85dec06eb61bad71847018470611e1847518475bad75debc18479bad75bebc6eb5dbad61846418464611b184691797db97b53ed06e5edb97a17968179685e5c1796d1796db97a55ecc51ecdb97a6e6646e6b54fc755f1c6e6654fb355ecc09dd1962c51fa8658b1962b09dbc09dbc277109dc109dc5962b51fa455ecc0418418446e6894fbc55ef055ef004014186855f1c040c4189441868041801034418940403010604421c04380106053f2404584431c4431d10e74441d4441c04580106009dc1962b57fa401061962b65928658ad962a09db009db0276e09db509db5962a57fa06e6854fbb55eec51ec9b9796e6606e6614fb255ec817971b97a53ecc6e5e9b9791795c1795c5e591796117961b97955ec855ec804174184055eec0400418646e6b14fc655f1855f18040b41890418640417010304189004020105c4421804370105c)
  (.lf 0)))

def shaGateTree163 : BTree :=
  .nd (.nd (.nd (.lf
  0x10169a759042501016da7595919403951a75969de069d65a758101581015840581015d1015da7580424c10161a7585919069d61a7571014c03949a75769dd81014c40551015110151a7570424810155a7575918c69d5da756101401014040521014510145a7560424410149a7565918803945a75669dd469d59a7551013410134404f1013910139a755042401013da7555918403941a75569dd069d55a7541012810128404c1012d10131a7545918003931a75169dc01012da7540423c0393da75469dcc69d51a7531011c1011c40491012103939a75369dc810125a7535917c10121a7530423869d4da752101101011040461011503935a75269dc410119a7525917810115a7520423469d49a75110104101044043101091010da7515917410109a7510423069d45a750100f80392da75069dbc100f84040100fd100fda7500422c10101a7505917069d41a74f100ec100ec403d100f1100f1a74f04228100f5a74f5916c03929a74f69db869d3da74e100e0100e0403a100e5100e5a74e04224100e9a74e5916803925a74e69db469d39a74d100d4100d44037100d9100dda74d5916403915a74a69da4100d9a74d0422003921a74d69db069d35a74c100c8)
  (.lf 0)) (.nd (.lf
  0x1b3ec00005a2e25a2e1c1da707e4707e570955e2545c255c218708dc70861c2171b6b41b6b46daf1b6b91b6bdc217024f8666b148c75831c706edc1ba1b3b01b3b06cee1b3b51b3b5c1ba5a2dc665d960cf01cf8666d148cf5833c5833dc1ba1b3e81b3b80000706ea706e86ceb1b3a81b3a86ceb58339666cd48ce58338665d560ce01cf4583386ceb5a2d81b3adc1b91b39c1b39c6ce91b3a1665d160cd01cf0666c948cd5833458335c1b91b3e41b3a1c1b95a2d41b3a40000706e6706e46ce61b3941b3946ce658331666c548cc58330665cd60cc01cec583306ce65a2d01b3986ce41b38c665c960cb01ce8666c148cb5832c1b38c6ce45832d5832c6ce45a2cc665c560ca01ce4666bd48ca583281b3906ce21b3841b3846ce258329583286ce25a2c81b389c1b81b378666b948c958324665c160c901ce058325c1b81b3e01b3786ce01b37d1b37dc1b85a2c4666b548c858320665bd60c801cdc58321c1b71b3dc1b3800000706e2706e1c1b71b36c1b36c6cdd1b3711b371c1b75a2c01b3dc00005a2c25a2c1c1d2707c470769c1d91b54c1b54c6d551b5511b555c1d95c2501b551c1d95e2501b3e800005a2de5a2ddc1d9707e070765c1d81b540)
  (.lf 0))) (.nd (.nd (.lf
  0x682c562a602c5468345a0d00db780db7836e00db7d0db7da0d058a9858a98877221e0821e0800005aa0a5aa09d09e742f4742f5726b5e9ac21d48000021dca21dc8874f21d3821d38874f58a95609280cd43f70c3f70c0c943f78d3f68c0cb40325003251a091682c0682c162a502c500db81a0d052a9868341a0cf0db6c0db6c36dd0db710db71a0cf58a940da15a09202c5468249a0910da040da0436830da090da0da09158a9456a3c0a94423b4423580a9402a244630c0ab402a5054a140ad44640c4640d19234650d4650c0ad402a5002a51a0cf683b8683b94aa558a9458a94874f5aa0421d3c874d21d3021d30874d58a91609240cd33f7083f7080c933f7893f6880cb30324c0324da090682bc682bd62a402c4c0db75a0cf52a94423540a9302a20463080ab302a4c54a100ad34640846409192246509465080ad302a4c02a4da0ce683b4683b54aa458a900da09a09102c5068245a0900d9f80d9f836800d9fd0da01a09058a906833da0ce0db600db6036da0db650db65a0ce58a9058a90874d5aa005aa01d09c742ec742ed72695e9a421d34877121d2421d24874b21d2921d2887715a9fc3f6840cb203248609200cd23f7043f7040c923f785)
  (.lf 0)) (.nd (.lf
  0x156a055aa156a5156a80000157b2156a455ec59c30157b055a7156981569855a757c553da4c0524014105fae805443dacc3dacc05043db4d08a9592f200f1464bc992f108a845b969b1096c4a06c4a0050449e540141192f164c4008a8422a308a8964c415f1500f1008a8d92f157c5457c5455a759c2c59c39b4d66d3d46d3d56edd5db741588db4d75bb786d35db4d6158781587856201587d15881b4d65bb741587db4d65db746d359b4d51586c1586c561d1587115875b4d55bb7015871b4d55db70157fc000059c3659c35b4d56d3d06d355b4d41586015860561a1586515865b4d45db6c157f8000059c3259c31b4d46d3cc6d3d16edc5db705db75b5526d5c415b4db55261b746d549b55115b3c15b3c56d115b4115b45b5515fb7015b41b55161b705db71b5516d5c06d545b55015b306d3cd6edb5db6c5db6db5506d5bc15b3056ce15b3515b39b5505fb6c15b35b55061b6c6d541b54f15b2415b2456cb15b2915b29b54f61b6815b2db54f5fb6815869b4d45bb6c6d351b4d3158541585456171585915859b4d35db6859c2db4d36d3c86d3c96eda5db685db69b54f6d5b86d53db54e15b1815b1856c815b1d15b1db54e61b6408a8992f100f10)
  (.lf 0)))

def shaGateTree164 : BTree :=
  .nd (.nd (.nd (.lf
  0x79f580fe8004a0126e1add8537e86b761add7126cc126cc49b5126d1126d1add7597e4046a1add76b7d86b7d94df9597e412575ad9a00b246b669ad991256412564495b125691256dad99597e403fa1ad996b6e06b6e165f900b20597e4b6b42db1c2db1c00005b6fa5b6f9eb007ac7c7ac7d75be5f6f85f6f9eb7c7ae6c7adf1eb7b2de6c2de6cb79d2de712de75eb7b616f42de71eb7b636f42dbb1eb005d6f87ac01eaff2db9c2db9cb6e92dba12dba1eaff5f6f42d9dc00002dad22dad0b6b32d9c82d9c8b6742d9cd2d9ccb6b35b6f42c319e7b7004a079edde7b62c3082c308b0c42c30d2c311e7b603f9c5d4f5e7b679f5479f540fe70049c126d5add7537e46b75dadd6126c0126c049b2126c5126c5add6597e00469dadd66b7d46b7d54df8597e012569ad9900b206b665ad98125581255849581255d12561ad98597e003f9dad986b6dc6b6dd65f800b1c597e0b6b32db182db1800005b6f65b6f5eaff7ac787ac7975bd5f6f45f6f5eb7b7ae687adedeb7a2de602de60b79a2de652de69eb7a616f02de65eb7a636f02dba5eaff5d6f47abfdeafe2db902db90b6e62db952db95eafe5f6f02d9d000002dace2daccb6b22d9bc2d9bcb6712d9c1)
  (.lf 0)) (.nd (.lf
  0x80ace02b23671036710d9c6367153671a02b24af1c3671602b24f79c4df9e02b280b4480aca02b13670436704d9c3367093670e02b14af183670a02b14f7984df9a02b180b4080ac602b0366f8366f8d9c0366fd3670202b04af14366fe02b04f7944df9602b080b3c80ac202af366ec366ecd9bd366f1366f602af4af10366f202af4f7904df9202af80b3880abe02ae366e0366e0d9ba366e5366ea02ae4af0c366e602ae4f78c4df8e02ae80b3480aba02ad366d4366d4d9b7366d9366de02ad4af08366da02ad4f7884df8a02ad80b3080ab602ac366c8366c8d9b4366cd366d202ac4af04366ce02ac4f7844df8602ac80b2c80ab202ab366bc366bcd9b1366c1366c602ab4af00366c202ab4f7804df8202ab80b2880aae02aa366b0366b0d9ae366b5366ba02aa4aefc366b602aa4f77c4df7e02aa80b2480aaa02a9366a4366a4d9ab366a9366ae02a94aef8366aa02a94f7784df7a02a980b2080aa602a83669836698d9a83669d366a202a84aef43669e02a84f7744df7602a880b1c80aa202a73668c3668cd9a5366913669602a74aef03669202a74f7704df7202a780b1880a9e02a63668036680d9a2366853668a02a64aeec3668602a64f76c)
  (.lf 0))) (.nd (.nd (.lf
  0x2ff5a62c6992c698b1a62b0fabc0fabc3eb10fac10fac5a62b530340fac1a62b5903402ff1a62b69928698ada62a0fab00fab03eae0fab50fab5a62a590300fab9a62a5303002feda62a69924698a9a6290faa40faa43eab0faa90faada6295302c26279da4554f5876915da442626426264989b2626926269da4456f5452f55da447698c7698d53d556f5456f540bfa428cc769b153de56f7856f780be3428f0769dd53e956fa456fa40bee4291c428f00bfa02fbc4291c0be502fe8473a40c1a02fe854fac0c3a474a4474a51d49475a5475a40c3a02fe802fe9a629699200faa9a6295902c2626dda4454f5476911da43262582625898982625d26261da4354f502625dda4356f5052f51da43769887690dda422624c2624c98952625126255da4254f4c26251da4256f4c52f4dda427698476909da41262402624098922624526249da4154f4826245da4156f4852f49da417698052f4553d156f447690553d156f4556f440bf6428bc7698153d256f4856f480bf7428c07698553d356f4c56f4c0bf8428c47698953d456f5056f500bf9428c8769a553db56f6c56f6c0be0428e4769a953dc56f7056f700be1428e8769ad53dd56f7456f740be2428ec)
  (.lf 0)) (.nd (.lf
  0x18e69bc4b61f3c18e6dbc4b5ff3c6f12dbc4a18e585df31bc486f19c5df39bc4a6f1a418e58639818e5d18e5dbc4a61f3818e61bc4a5ff386f129bc4918e4c18e4c639518e5118e55bc495ff3418e51bc4961f345df35bc496f1a06f125bc4818e4018e40639218e4518e49bc485ff3018e45bc4861f306f121bc4718e3418e34638f18e3918e3dbc475ff2c5df2dbc476f19818e39bc4761f2c6f11dbc4618e2818e28638c18e2d18e2dbc4661f285df1dbc436f18818e31bc465ff285df21bc446f18c5df29bc466f1946f119bc4518e1c18e1c638918e2118e21bc4561f2418e25bc455ff245df25bc456f1906f115bc4418e1018e10638618e1518e15bc4461f2018e19bc445ff206f111bc4318e0418e04638318e0918e0dbc435ff1c18e09bc4361f1c6f10dbc4218df818df8638018dfd18e01bc425ff1852041bb976eed86ee5dbb96188e4188e4623b188e9188e9bb965603c5203dbb966eed4188edbb965403c6ee59bb95188d852039bb956eed0188d86238188dd188ddbb9556038188e1bb95540386ee55bb94188cc188cc6235188d1188d1bb945603452035bb946eecc188d5bb94540346ee51bb93188c0188c06232188c5188c9bb9354030)
  (.lf 0)))

def shaGateTree165 : BTree :=
  .nd (.nd (.nd (.lf
  0x41a1a8ff6a4786a3fda8fe10aa010aa042aa10aa510aa9a8fe532e010aa5a8fe592e047c5810870419c5526010a747d5847d591f7647e5947e5810a70419c0419da8fe6a4746a3f9a8fd10a9410a9442a710a9910a9da8fd532dc10a99a8fd592dc47c541086041985525c10a647d5447d551f7547e5547e5410a60419804199a8fd6a4706a3f5a8fc10a8810a8842a410a8d10a91a8fc532d810a8da8fc592d847c501085041945525810a547d5047d511f7447e5147e5010a50419404195a8fc6a46c6a3f1a8fb10a7c10a7c42a110a8110a85a8fb532d410a81a8fb592d447c4c1084041905525410a447d4c47d4d1f7347e4d47e4c10a40419004191a8fb6a4686a3eda8fa10a7010a70429e10a7510a79a8fa532d010a75a8fa592d047c4810830418c5525010a347d4847d491f7247e4947e4810a30418c0418da8fa6a4646a3e9a8f910a6410a64429b10a6910a6da8f9532cc10a69a8f9592cc47c441082041885524c10a247d4447d451f7147e4547e4410a20418804189a8f96a4606a3e5a8f810a5810a58429810a5d10a61a8f8532c810a5da8f8592c847c401081041845524810a147d4047d411f7047e4147e4010a10418404185a8f86a45c)
  (.lf 0)) (.nd (.lf
  0x1be99c33d6229070cf5c33c1be881be886fa41be8d1be91c33c6028c5e285c33a70d641be8dc33c6228c5e28dc33c70d6c70cf1c33b1be7c1be7c6fa11be811be85c33b602885e289c33b70d681be81c33b6228870cedc33a1be701be706f9e1be751be79c33a602841be75c33a6228470ce9c3391be641be646f9b1be691be69c339622801be6dc3396028070ce5c3381be581be586f981be5d1be5dc3386227c1be61c3386027c5e27dc33870d5c70ce1c3371be4c1be4c6f951be511be55c337602785e279c33770d581be51c3376227870cddc3361be401be406f921be451be49c336602741be45c336622745e275c33670d5470cd9c3351be341be346f8f1be391be39c335622705e271c33570d501be3dc3356027070cd5c3341be281be286f8c1be2d1be2dc3346226c1be31c3346026c5e26dc33470d4c70cd1c3331be1c1be1c6f891be211be21c333622685e269c33370d481be25c3336026870ccdc3321be101be106f861be151be15c332622645e265c33270d441be19c3326026470cc9c3311be041be046f831be091be09c331622606226008fb3c04470d458099622646226408fc3c04870d49809a622686226808fd3c04c70d4d809b6226c)
  (.lf 0))) (.nd (.nd (.lf
  0x466e519d9467e5466e919da467e9466ed19db467ed466f119dc467f1466f519dd467f5466f919de467f9466fd19df467fd4670119e0468014670519e1468054670919e2468094670d19e34680d4671119e4468114671519e5468154671919e6468194671d19e74681d4672119e8468214672519e9468254672919ea468294672d19eb4682d4673119ec468314673519ed468354673919ee46839467d80b0702b1c467dc0b0802b20467e00b0902b24467e40b0a02b28467e80b0b02b2c467ec0b0c02b30467f00b0d02b34467f40b0e02b38467f80b0f02b3c467fc0b1002b40468000b1102b44468040b1202b48468080b1302b4c4680c0b1402b50468100b1502b54468140b1602b58468180b1702b5c4681c0b1802b60468200b1902b64468240b1a02b68468280b1b02b6c4682c0b1c02b70468300b1d02b74468340b1e02b78468380b1f02b7c02b7da1d2687c468749a1d10e1840e18438630e1890e189a1d158bbc0e18da1d152bbc02b79a1d1687c068745a1d00e1780e17838600e17d0e181a1d052bb802b69a1cd687b00e17da1d058bb802b75a1d0687bc68741a1cf0e16c0e16c385d0e1710e175a1cf52bb40e171a1cf58bb402b71a1cf687b8)
  (.lf 0)) (.nd (.lf
  0x7bd15ef442f5e82f5e8bd7c2f5ed49e65ef447bd8c2f5edef444d2642f5f1ef444ba647bd11ef432f5dc2f5dcbd792f5e17bdc52ea74d29c7bddd2ead4d2b47bde92eb04d2c04bac1ef997bee07be65ef982f8582f858be182f85d2f861ef984a6bc7bde52eaf4d2bc4babdef987bedc2f85def98502bc7be61ef972f84c2f84cbe152f8512f855ef974a6b82f851ef97502b87bde12eae4d2b84bab9ef977bed87be5def962f8402f840be122f8452f845ef96502b42f849ef964a6b44bab5ef967bed47be59ef952f8342f834be0f2f8392f83def954a6b02f839ef95502b07bdd92eac4d2b04bab1ef957bed07be55ef942f8282f828be0c2f82d2f82def94502ac7bdc92ea84d2a07bdd12eaa4d2a84baa9ef937bec87bdd52eab4d2ac4baadef947becc2f831ef944a6ac7be51ef932f81c2f81cbe092f8212f825ef934a6a82f821ef93502a87be4def922f8102f810be062f8152f815ef92502a47bdcd2ea94d2a44baa5ef927bec42f819ef924a6a47be49ef912f8042f804be032f8094baa1ef917bec02f80def914a6a02f809ef91502a07be45ef902f7f82f7f8be002f7fd2f7fdef905029c7bdbd2ea54d2947bdb92ea44d2904ba91ef8d7beb0)
  (.lf 0)))

def shaGateTree166 : BTree :=
  .nd (.nd (.nd (.lf
  0x117b1ab345958059580ae675b49c5b49de67b79a6879a6975255f4945f495e6f779c5879bdde6f62bde42bde4af7b2bde92bdede6f6614902bde9e6f6634902bb29e67b5d494799ede67a2bb142bb14aec72bb192bb19e67a5f4902b99de6642b98c2b98cae652b9912b991e6645b4982a079e2bd0023c78af5e2bc2a0682a068a81c2a06d2a071e2bc03d385d291e2bc78b6c78b6c0f4e0023811919ab72535806adc9ab71119041190446431190911909ab715957c04439ab716ae406ae414d5f5957c117adab340463c6acd1ab331179c1179c45e9117a1117a5ab335957c03d39ab336ad486ad49655f046385957de6642ba542ba5400005b49a5b499e67a79a6479a6575245f4905f491e6f679c5479bd9e6f52bdd82bdd8af782bddd2bde1e6f56148c2bddde6f56348c2bb1de67a5d490799e9e6792bb082bb08aec42bb0d2bb0de6795f48c2b99400007999279990ae622b9842b984ae62595795d28de2bb78b6878b680f4d002342a06de2bc0023878af1e2bb2a05c2a05ca8192a0612a065e2bb03d3403d35ab326ad446ad45655e046341190dab715357c6adc5ab70118f8118f84640118fd118fdab705957804435ab706ae3c6ae3d4d5e59578)
  (.lf 0)) (.nd (.lf
  0x1d5e4757b1d5e91d5e9c683565bc525bdc68371a881d5edc683545bc71a0dc6821d5d81d5d875781d5dd1d5e1c682545b81d5ddc682565b8525b9c68271a8471a09c6811d5cc1d5cc75751d5d11d5d1c681565b41d5d5c681545b4525b5c68171a8071a05c6801d5c01d5c075721d5c51d5c9c680545b01d5c5c680565b0525b1c68071a7c71a01c67f1d5b41d5b4756f1d5b91d5b9c67f565ac1d5bdc67f545ac525adc67f71a78719fdc67e1d5a8525a9c67e71a741d5a8756c1d5ad1d5b1c67e545a81d5adc67e565a8719f9c67d1d59c525a5c67d71a701d59c75691d5a11d5a5c67d545a41d5a1c67d565a4719f5c67c1d5901d59075661d5951d595c67c565a01d599c67c545a0525a1c67c71a6c719f1c67b1d5841d58475631d5891d589c67b5659c5259dc67b71a681d58dc67b5459c719edc67a1d5781d57875601d57d52599c67a71a641d581c67a545981d57dc67a56598719e9c6791d56c1d56c755d1d5711d571c679565941d575c67954594719e5c6781d5601d560755a1d5651d565c6785659052591c67871a5c1d569c67854590719e1c6771d5541d55475571d5591d559c6775658c5258dc67771a581d55dc6775458c719ddc6761d548)
  (.lf 0))) (.nd (.nd (.lf
  0xebd43af70ebd90ebd9a3ad58d6c0ebdda3ad52d6c02d29a3ad68f3068eb5a3ac0ebc80ebc83af40ebcd0ebcda3ac58d680ebd1a3ac52d6802d25a3ac68f2c68eb1a3ab0ebbc0ebbc3af10ebc10ebc5a3ab52d640ebc1a3ab58d6402d21a3ab68f2868eada3aa0ebb00ebb03aee0ebb50ebb5a3aa58d600ebb9a3aa52d6002d1da3aa68f2468ea9a3a90eba40eba43aeb0eba946bd40b6602d1854cdc0b8646cd446cd51b5546dd546dd40b8602d1802d19a3a968f200eba9a3a958d5c0ebada3a952d5c68ea5a3a80eb980eb983ae80eb9d0eba1a3a852d5868f714b6b58dac0eb9da3a858d5868f654b6858da068f694b6958da468f6d4b6a58da868f614b6758d9c03509a36768e180ea15a36758d4c68d9da3660ea000ea003a820ea050ea09a36658d4868e29635702f180ea05a36602f0468e1d635402f0c68e21635502f1068e25635602f1468e19635302f0868f5d4b6658d9868f814b6f58dbc68f794b6d58db468e41635d02f3046bbc0b6002d0046bc40b6202d0846bc80b6302d0c46bcc0b6402d1046bd00b6502d1454cc40b8046cbc54ccc0b8246cc454cd00b8346cc854cd40b8446ccc54cd80b8546cd046cbd1b4f46dbd46cc51b5146dc5)
  (.lf 0)) (.nd (.lf
  0x1745c5d1857e8957e885d1859e583de7805af0163c5fd1405cf3def83def8058f3df790163d94ec6542c174605d1617454174545d1657e8557e845d1659e544174403cf00f1043ef803ef00f3c53e00040f43ff843ff9101e440f9440f8040f00f3c00f3d952a655246552547a057e806542d5fa00113c57e81b8b51750017500000059e5217459b8b517448174485d141744d1744db8b559e5059e51b8cd6e3b0175edb8cf5bd9c59e59b8cf6e3b86e33db8ce175d859e55b8ce6e3b4175d85d78175dd175ddb8ce5dd98175e1b8ce5bd986e339b8cd175cc175cc5d75175d1175d5b8cd5bd94175d1b8cd5dd946e335b8cc175c0097b9952a51e80654a99529097a4097a425eb097a9097ad952951e7c097a9952957e7c4174003ce00f0c43ef403ee00f3853dfc040e43ff443ff5101d440f5440f4040e00f3800f39952965520654a59528097984d5c1f4337d1487d0cdf4323131031310c4c63131531315f4324edbc31319f4324a53c4d5bdf4327d1447d0c9f4313130431304c4c3313093130df4314a53831309f4314edb84d5b9f4317d1407d0c5f430312f8312f8c4c0312fd31301f4304a534312fdf4304edb44d5b5f4307d13c7d0c1f42f312ec)
  (.lf 0)))

def shaGateTree167 : BTree :=
  .nd (.nd (.nd (.lf
  0x5cbc00ec0038405cc000ed0038805cc400ee0038c82d48011d515b8515b800ef0039082d4c011e515bc515bc00f00039482d50011f515c0515c000f1003984ce420bef8303882fbe0bee39ce039ce0e73a39ce539cea0bee004f839ce60bee5163c4ce3e0bee8303482fba0bed39cd439cd4e73739cd939cde0bed004f439cda0bed516384ce3a0bed8303082fb60bec39cc839cc8e73439ccd39cd20bec004f039cce0bec516344ce360bec8302c82fb20beb39cbc39cbce73139cc139cc60beb004ec39cc20beb516304ce320beb8302882fae0bea39cb039cb0e72e39cb539cba0bea004e839cb60bea5162c4ce2e0bea8302482faa0be939ca439ca4e72b39ca939cae0be9004e439caa0be9516284ce2a0be98302082fa60be839c9839c98e72839c9d39ca20be8004e039c9e0be8516244ce260be88301c82fa20be739c8c39c8ce72539c9139c960be7004dc39c920be7516204ce220be78301882f9e0be639c8039c80e72239c8539c8a0be6004d839c860be65161c4ce1e0be68301482f9a0be539c7439c74e71f39c7939c7e0be5004d439c7a0be5516184ce1a0be58301082f960be439c6839c68e71c39c6d39c720be4004d039c6e0be451614)
  (.lf 0)) (.nd (.lf
  0x6ff21bfc71a7181a71869c81a71d1a721bfc75c12c5c12dc005700907009008f54a6184a619fa377e9587e95930864da184c219fa757ea507e9d5fa743372833728cdcc3372d33731fa744ae143372dfa7450a1432f51f92c4a84c7e4b1f92b32f3c32f3ccbd132f4132f41f92b4f0c84d8c9f92b7e5287e5292a124f0c84f0c9297c064ac064ad29854a60c335d1fa374da187e8ddfa36335c01a889c005023d45a1bdbfc66ff946ff95704a5e128335c0cd72335c5335c9fa364c2141a71dbfc75e12c6ff1dbfc61a70c1a70c69c51a7111a715bfc65c1285c129c0047008c7008c08f44a61470015c0041a8741a8746a1f1a8791a879c0044a6144a615fa367e9547e95530854da144c215fa747ea4c7e9d1fa733371c3371ccdc93372133725fa734ae1033721fa7350a1032f45f92b4a8484d8c52a114f0c47e4ad2a114f0c54f0c5297b064a8064a929844a608335c5fa364da147e8d9fa35335b4335b4cd6f335b9335bdfa354c2101a87dc004023d070011c0031a8681a61000005a1ba5a1b9bfc56ff906ff9170495e1241a711bfc65e1286ff19bfc51a7001a70069c21a7051a709bfc55c1245c125c003700887008808f34a6101a8686a1c1a86d)
  (.lf 0))) (.nd (.nd (.lf
  0x1fce1cbe14abfc1fce5cbe1029b872f85cbe01fcd01fcd07f361fcd51fcd5cbe04abf81fcd9cbe0029b45c70dcbe072ffc72f81cbdf1fcc41fcc47f331fcc91fcc9cbdf4abf41fccdcbdf029b05c709cbdf72ff872f7dcbde1fcb81fcb87f301fcbd1fcc1cbde029ac5c705cbde72ff41fcbdcbde4abf072f79cbdd1fcac1fcac7f2d1fcb11fcb5cbdd029a81fcb1cbdd4abec5c701cbdd72ff072f75cbdc1fca05c6fdcbdc72fec1fca07f2a1fca51fca9cbdc029a41fca5cbdc4abe872f71cbdb1fc941fc947f271fc995c6f9cbdb72fe81fc9dcbdb029a01fc99cbdb4abe472f6dcbda1fc881fc887f241fc8d1fc8dcbda4abe05c6f5cbda72fe41fc91cbda0299c72f69cbd91fc7c1fc7c7f211fc811fc81cbd94abdc5c6f1cbd972fe01fc85cbd90299872f65cbd81fc701fc707f1e1fc751fc79cbd8029945c6edcbd872fdc1fc75cbd84abd872f61cbd71fc641fc647f1b1fc691fc69cbd74abd45c6e5cbd672fd41fc6dcbd7029905c6e9cbd772fd872f5dcbd61fc581fc587f181fc5d1fc5dcbd64abd01fc61cbd60298c72f59cbd51fc4c1fc4c7f151fc511fc51cbd54abcc1fc55cbd5029887303c0a7d4ac38730440a7f4ac40730340a7b4ac30)
  (.lf 0)) (.nd (.lf
  0x86d021b6086d5435f8032f00c3c086d5924257b8053b00034f436f8436f90dde437f941444030f00c10437f8034f00c3c00c3d9242649846498546e057b806488d5ee000e3c648995ee300e48648b15ee900e60649a946e957ba4649b546ec57bb0648bd5eec00e6c57bb1b2d414a08149d9b2d4149c8149c85274149cd149cdb2d459b90149d000006cb526cb51b2d3149bc149bc5271149c1649b146eb57bac648b95eeb00e6857badb2d314a04149c1b2d359b8c649ad46ea57ba8648b55eea00e64149c400006cb4e6cb4c526e149b4149b4526e57ba957ba8526e59b88149b8526c149ac149ac526c57ba557ba4526c59b84149b1b2d2149a0149a0526a149a5648a55ee600e546499d46e657b98649a146e757b9c648ad5ee800e5c649a546e857ba057ba1b2d214a00149a5b2d259b80149a800006cb4a6cb49b2d114994149945267149991499c00006cb4614999b2d159b7c648a95ee700e5857b9db2d1149fc6cb4452641498c1498c526457b9957b98526459b786499146e357b8c57b8db2d0149f86489d5ee400e4c1499052621498414984526257b95648a15ee500e506499946e557b9457b94526259b741498852601497c1497c526057b91)
  (.lf 0)))

def shaGateTree168 : BTree :=
  .nd (.nd (.nd (.lf
  0x2e015ebbe5787453875ebbe7af747aef9ebbd2e0042e004b8032e0092e00debbd558702e009ebbd5787053871ebbd7af707aef5ebbc2dff82dff8b8002dffd2e001ebbc5586c2dffdebbc5786c5386debbc7af6c7aef1ebbb2dfec2dfecb7fd2dff12dff5ebbb558682dff1ebbb5786853869ebbb7af687aeedebba2dfe02dfe0b7fa2dfe52dfe9ebba558642dfe5ebba5786453865ebba7af647aee9ebb92dfd42dfd4b7f72dfd92dfddebb9558602dfd9ebb95786053861ebb97af607aee5ebb82dfc82dfc8b7f42dfcd2dfd1ebb85585c2dfcdebb85785c5385debb87af5c7aee1ebb72dfbc2dfbcb7f12dfc12dfc5ebb7558582dfc1ebb75785853859ebb77af587aeddebb62dfb02dfb0b7ee2dfb52dfb9ebb6558542dfb5ebb65785453855ebb67af547aed9ebb52dfa42dfa4b7eb2dfa92dfadebb5558502dfa9ebb55785053851ebb57af507aed5ebb42df982df98b7e82df9d2dfa1ebb45584c2df9debb45784c5384debb47af4c7aed1ebb32df8c2df8cb7e52df912df95ebb3558482df91ebb35784853849ebb37af48538455611578447aecd5611578455784411f6431bc7af495612578485784811f7431c07af4d56135784c5784c11f8431c4)
  (.lf
  0x844355e5900c20579644b165995412c59aecb12c486bbfd6e1f5d87c130a84c2c130ad130adaf5c6187c5d87daf5c6bdec130b1af5c5f87c6bd71af5b1309c1309c4c29130a1130a5af5b5f87859955aedf6bbf86bbf96e1e5d8785d879af5b6bde8130a1af5b618786bd6daf5a13090130904c261309513095af5a6187412dd5aedf5b8786bb7daede12dc012dc04b7212dc512dc5aede5d874074398f15009a0848218f1463ccc490e610ee00c2063c558f1407428074281d0c0742d074318f144b6e063ccd2db80099c4b6e210ed84430844315e5800c1c843ba10ed490d4490d52437490d9490de10ed5796057961aecb12d4412d4400005995212c484b1412c4d12c4daecb5995059951aede6bbf46bbf56e1d5d8745d875af5a6bde46bde57e1d61874618752d913b6583b6592da34b67812ad1ae8c539506ba31ae8b12abc12abc4ab112ac112ac1ae8b5594c07b0590465795064119904507af407af41ebf07af907afd90455194c07ecc1fb507ed107ed590d751a24849e58fdf63ff80793d8fe000b640799d900800b8c6402190070798c6bacd4e5c55970559712e12412e86baf94e675599c84a0d900764098640992e3300b880798c1e6507991))
  (.nd (.lf
  0x730f581c36270c6270c0a063c4f0730f981c462710627100a073c4f4730fd81c562714627140a083c4f87310181c662718627180a093c4fc7311581cb6272c6272c0a0e3c5107312981d062740627400a133c5247312d81d162744627440a143c528627480a153c52c6274c0a163c530627500a173c534627540a183c5383c4d00a100282c3c4d40a11028303c4d80a12028343c4dc0a13028383c4e00a140283c3c4e40a15028403c4e80a16028443c4ec0a17028483c4f00a180284c3c4f40a19028503c4f80a1a028543c4fc0a1b028583c5100a000286c20164806820154201548057201592015880685a8203f2a80a3b0286c607440a5b3f3283f3280a1b3f3a972e1151ff567fc527d9cb5c72dec72ded51f6567d81f80dcb5d547dc72d75cb5c1f7f81f7f87e001f7fd1f7fdcb5c567d8567d8081b42150567fc08044217472e3d520a5682856828080f421a042174081b02040421a008060206c45d28083b0206c54830085b45e2845e2917aa45f2945f28085b0206c0cf299ea902a700286d9ea867b1c67b1d622c02a6c67aa59ea80cf180cf1833c80cf1d0cf219ea8588b00206d9ee667c140d0959ee7528b467b9d9ee60d0800d08034220d085)
  (.lf 0))) (.nd (.nd (.lf
  0x5cda9d8e0763fc76381d8df258f0258f0963e258f5258f9d8df0384c258f5d8df4b2905cda5d8df763f87637dd8de258e4258e4963b258e9258edd8de03848258e9d8de4b28c5cda1d8de763f476379d8dd258d8258d89638258dd258e1d8dd03844258ddd8dd4b2885cd9dd8dd763f076375d8dc258cc258cc9635258d1258d5d8dc03840258d1d8dc4b2845cd99d8dc763ec76371d8db258c0258c09632258c5258c9d8db0383c258c5d8db4b2805cd95d8db763e87636dd8da258b4258b4962f258b9258bdd8da03838258b9d8da4b27c5cd91d8da763e476369d8d9258a8258a8962c258ad258b1d8d903834258add8d94b2785cd8dd8d9763e076365d8d82589c2589c9629258a1258a5d8d803830258a1d8d84b2745cd89d8d8763dc76361d8d7258902589096262589525899d8d70382c25895d8d74b2705cd85d8d7763d87635dd8d625884258849623258892588dd8d60382825889d8d64b26c5cd81d8d6763d476359d8d5258782587896202587d25881d8d5038242587dd8d54b2685cd7dd8d5763d076355d8d42586c2586c961d2587125875d8d40382025871d8d44b2645cd79d8d4763cc76351d8d32586025860961a2586525869d8d30381c)
  (.lf 0)) (.nd (.lf
  0x7e1a52b29508a4508a52b0c050ec7e1a92b2a508a8508a92b0d050f07e1ad2b2b508ac508ad2b0e050f47e1b12b2c508b0508b12b0f050f87e1b52b2d508b4508b52b10050fc0508d2b034abe0050912b044abe4050952b054abe8050992b064abec0509d2b074abf0050a12b084abf4050a52b094abf8050a92b0a4abfc050ad2b0b4ac00050b12b0c4ac04050b52b0d4ac08050b92b0e4ac0c050bd2b0f4ac10050c12b104ac14050c52af14ac18050c92af24ac1c050cd2af34ac20050d12af44ac24050d52af54ac28050d92af64ac2c050dd2af74ac30050e12af84ac34050e52af94ac38050e92afa4ac3c050ed2afb4ac40050f12afc4abc4050f52afd4abc8050f92afe4abcc050fd2aff4abd07e1b92b2e508b8508b92b004abd47e1bd2b2f508bc508bd2b014abd87e1c12b30508c0508c12b024abdc52089bc816f28052079bc7d6f270520bdbc8e6f2b4520c1bc8f6f2b86f23dbc8e190081900864041900d19011bc8e540bc1900dbc8e560bc6f239bc8d18ffc18ffc64011900119005bc8d540b819001bc8d560b8520b9bc8d6f2b06f235bc8c18ff018ff063fe18ff518ff9bc8c540b4520b5bc8c6f2ac18ff5bc8c560b46f231bc8b18fe4)
  (.lf 0)))

def shaGateTree169 : BTree :=
  .nd (.nd (.nd (.lf
  0x29df8a74529d1029d10a745593695d07ddec477b8c77b8c0ec90002428365dec50002877b15dec42835428354a0d7283592835ddec403b2403b25a93e6a5746a57564da0442410d9da97d5336c6a5f5a97c10d8810d88436410d8d10d8da97c5936804225a97c6a66c6a66d4cda5936810c31a93f044286a4fda93e10c2010c20430a10c2510c29a93e5936859368a7455b2945b295e27978a6078a61749f5f27c5f27de2f578c5078bd5e2f42a1882a188a8642a18d2a191e2f4612782a18de2f46327829ecde2795d27c789e5e27829eb829eb8a7b029ebd29ebde2785f27829d14a77d29d0429d04a74329d0929d08a77d5b29028359dec40002477b11dec32834828348a0d42834d28351dec303b205d079dec377b8877b880ec80002010d91a97c533686a5f1a97b10d7c10d7c436110d8110d81a97b5936404221a97b6a6686a6694cd95936410c25a93e044246a4f9a93d10c1410c14430710c1910c1da93d5936403b21a93d6a5706a57164d90442059364a77d29e3429e3400005b2925b291e27878a5c78a5d749e5f2785f279e2f478c4c78bd1e2f32a17c2a17ca8612a1812a185e2f3612742a181e2f36327429ec1e2785d278789e1e27729eac)
  (.lf 0)) (.nd (.lf
  0x3ea70092d024343ea74092e0243860304094b3eae86030c094d3eaf060310094e3eaf43eae8090b3eb693eaf0090d3eb713eaf4090e3eb750b8019abb01e38024399abb66b6866aed9aba0b7f00b7f02dfe0b7f50b7f99aba584780b7f59aba01e34024359aba66b6466ae99ab90b7e40b7e42dfb0b7e90b7ed9ab9584740b7e99ab901e3066ae59ab80b7d80b7d82df80b7dd0b7dd9ab801e2c0242d9ab866b5c0b7e19ab85847066ae19ab70b7cc0b7cc2df50b7d10b7d19ab701e283c138090a024143ea64092a0242860300094a3eae43eae4090a3eb65024299ab766b5866b59611b01e280b7d59ab75846c66add9ab60b7c00b7c02df20b7c50b7c59ab601e243c1240905024003c1280906024043c12c0907024083c13009080240c3c1340909024103ea5809270241c602f409473ead83ead809073eb590241d9ab466b4c3ea500925024143ea540926024183ea5c0928024203ea60092902424602ec09453ead0602f009463ead4602f809483eadc602fc09493eae03ead009053eb513ead409063eb553eadc09083eb5d3eae009093eb61024259ab666b540b7c99ab65846866ad99ab50b7b40b7b42def0b7b90b7b99ab501e20024219ab566b50)
  (.lf 0))) (.nd (.nd (.lf
  0x4695c0b2802ba0469600b2902ba4469640b2a02ba8469680b2b02bac4696c0b2c02bb0688f1a23b0e37c0e37c38e10e3810e385a23b52bf40e381a23b58bf402bb1a23b68968688eda23a0e3700e37038de0e3750e379a23a52bf00e375a23a58bf002bada23a68964688e9a2390e3640e36438db0e3690e36da23952bec0e369a23958bec02ba9a23968960688e5a2380e3580e35838d80e35d0e361a23852be80e35da23858be802ba5a2386895c688e1a2370e34c0e34c38d50e3510e355a23752be40e351a23758be402ba1a23768958688dda2360e3400e34038d20e3450e349a23652be00e345a23658be002b9da23668954688d9a2350e3340e33438cf0e3390e33da23552bdc0e339a23558bdc02b99a23568950688d5a2340e3280e32838cc0e32d0e331a23452bd80e32da23458bd802b95a2346894c688d1a2330e31c0e31c38c90e3210e325a23352bd40e321a23358bd402b91a23368948688cda2320e3100e31038c60e3150e319a23252bd00e315a23258bd002b8da23268944688c9a2310e3040e30438c30e3090e30da23152bcc0e309a23158bcc02b89a23168940688c5a2300e2f80e2f838c00e2fd0e301a23052bc80e2fda23058bc8)
  (.lf 0)) (.nd (.lf
  0x608d28054a00c30329f17e4bc146d12005744a0144a015f17e7c6747c5f9f17d3031430314c0c7303193031df17d4bc102fca5f0734a2484d2c528914eac47c1cd28914eac54eac527fb060880608928044a0087c2c128b04eb404eb4128034a0044a011f17d7c67030319f17d4d4107c5f5f17c3030830308c0c43030d30311f17c4bc0c6d11805724a00c4a00df17c7c66c3030df17c4d40c7c5f1f17b302fc7c2bd28af4eb3c4eb3d28024a0006d11405714a0084a009f17b7c668302fcc0c13030130305f17b4bc0830301f17b4d4087c5edf17a302f07c2b928ae4eb384eb39280149ffc6d11005704a0044a005f17a7c664302f0c0be302f5302f9f17a4bc04302f5f17a4d4047c5e9f179302e46d100056c49ff415299b41d49fe4060dd27f949fdc7c29d28a74eb1c4eb1d27fa49fe07c2a128a84eb204eb2127fb49fe44eb2527fc49fe87c2a928aa4eb284eb2927fd49fec7c2ad28ab4eb2c4eb2d27fe49ff04eb3127ff49ff47c2b528ad4eb344eb35280049ff8302e4c0bb302e9302edf1794bc006d10c056f4a000302e9f1794d4004a001f1797c6607c5e5f178302d86d104056d49ff849ff9f1777c6586d108056e49ffc49ffdf1787c65c)
  (.lf 0)))

def shaGateTree170 : BTree :=
  .nd (.nd (.nd (.lf
  0x11b3dabe0595c804485abe06affc6affd4d72595c8119e1aba3046886ae8daba2119d0119d04676119d5119d9aba2595c803d85aba26af046af05657204684595c9e77279e4479e4575375f4dc5f4dde7ee7a0342c161e7725d4dc2a6f1e3a7002845d2d80f600028078e9c0f600028111b41abe0535c8044814d71595c46af814d71595c5119d5aba20468403d816571046806ae89657104681595c575365f4d879dc975365f4d95f4d98536634d879fb98536634d9634d80f993d2bc7a0358537634dc634dc0f9a3d2c07a0398538634e0634e00f9b3d2c47a03d8539634e4634e40f9c3d2c87a041853a634e8634e80f9d3d2cc7a045853b634ec634ec0f9e3d2d07a049853c634f0634f00f9f3d2d47a04d853d634f4634f40f803d2d87a051853e634f8634f80f813d2dc7a055853f634fc634fc0f823d2e07a059854063500635000f833d2e47a05d854163504635040f843d2e87a061854263508635080f853d2ec7a06585436350c6350c0f863d2f07a069854463510635100f873d2f47a06d854563514635140f883d2f87a071854663518635180f893d2fc7a07585476351c6351c0f8a3d3007a079854863520635200f8b3d3047a07d854963524)
  (.lf 0)) (.nd (.lf
  0x3586e00394b1e83586a003950de83570dfffc4ddec7fff1fffb356fc356fcd5c13570135705fffb4c5e84a9e9fffb8006880069317a4dde84c5ea003980160800e600383585835858d6183585d3586200384b1e43585e003850de435701fffb4dde87ffedfffa356f0356f0d5be356f5356f9fffa4c5e44a9e5fffa800648006531794dde44c5e600388015c800e200373584c3584cd615358513585600374b1e035852003750de0356f5fffa4dde47ffe9fff9356e4356e4d5bb356e9356edfff94c5e04a9e1fff9800608006131784dde04c5e2003780158800de00363584035840d612358453584a00364b1dc35846003650ddc356e9fff94dde07ffe5fff8356d8356d8d5b8356dd356e1fff84c5dc4a9ddfff88005c8005d31774dddc4c5de003680154800da00353583435834d60f358393583e00354b1d83583a003550dd8356ddfff84dddc7ffe1fff7356cc356ccd5b5356d1356d5fff74c5d84a9d9fff7800588005931764ddd84c5da003580150800d600343582835828d60c3582d3583200344b1d43582e003450dd4356d1fff74ddd87ffddfff6356c0356c0d5b2356c5356c9fff64c5d44a9d5fff6800548005531754ddd44c5d600348014c)
  (.lf 0))) (.nd (.nd (.lf
  0x5cd09d7d375fc875fc80dec4b1f44b1f60b9e82ef482ef5337d4e5f44e5f60c1a830e48306a0c1939d6439d64e75b39d6939d6e0c190002c39d6a0c194fdf039aaa0b9e4cdf482e7a0b9d39a9439a94e6a739a9939a9a0b9d4e5f0691254b7c58df06902d637c02fac251c1d7d3037b075f4dd7d2251ac251ac946d251b1251b1d7d24b1f025055d7955ed0875e55d79425044250449413250492504dd7945cd0424e9c93d924e8c24e8c93a524e9124e9093d95ad4458df093d924fa424fa400005ad465ad45d79475ecc75ecd73415ed045cd05d7d275fc475fc40deb4b1f04b1f20b9d82ef082ef1337c4e5f04e5f20c19830e0830660c1839d5839d58e75839d5d39d620c180002839d5e0c184fdec39a9e0b9d4cdf082e760b9c39a8839a88e6a439a8d39a8e0b9c4e5ec691214b7b58dec251b5d7d2037ac75f49d7d1251a0251a0946a251a5251a5d7d14b1ec25049d7945ed0475e51d793250382503894102503d25041d7935cd0024e94000024f6624f6493a224e8424e8493a258ded58dec93a25ad405ad41d79375ec875ec973405ed005cd01d7d175fc075fc00dea4b1ec4b1ee0b9c82eec82eed337b4e5ec4e5ee0c18830dc830620c1739d4c)
  (.lf 0)) (.nd (.lf
  0x9aec26bd09af109af595af51f2409af195af57f24656bd95ae09ae009ae026ba09ae509ae595ae57f2009ae995ae51f2051e49b8726e2446e2454f9255e481727db87353e4c6e1cdb87217268172685c9c1726d1726db87255e4855e4803f7417c06e2694f9b55e6c55e6c03e0417e455e9803eb41810417e403f700fb04181003e200fdc44098041700fdc53ea00437441984419910864429944298043700fdc00fdd95ae65734656b995ad09ad409ad426b709ad909ad995ad57f1c17271b87253e486e1c94f9155e4551e454f9155e4455e4403f6417bc6e2914fa555e9455e9403ea4180c417e003f600fac4180c03e100fd844094041600fd853e9c0436441944419510854429544294043600fd800fd995ad657306573147c757f1c656395fc7011d817bcc000017c0e17c0c5f0217bb817bb85ef017bbd17bc0000017c0a6574547cc57f306564d5fcc011ec57f305f0217c4017bbc5f0259f0017c085eed17bb017bb05eed57f2d6574147cb57f2c656495fcb011e857f2c5eed59efc17bb45eeb17ba817ba85eeb57f29656455fca011e46573d47ca57f2857f285eeb59ef817bac5f0117b9c17b9c5ee917ba117ba4000017c0617ba05f0159ef4)
  (.lf 0)))

def shaGateTree171 : BTree :=
  .nd (.nd (.nd (.lf
  0x5eac01970063005eb001980063405eb401990063805eb8019a0063c05ebc019b0064005ec0019c0064405ec4019d0064805ec8019e0064c05ecc019f0065005ed001800065405ed401810065805ed801820065c05edc01830066005ee001840066405ee401850066805ee801860066c05eec01870067005ef001880067405ef401890067805ef8018a0067c05efc018b0060005f00018c0060405f04018d0060805f08018e0060c83bd001bd5183851838018f0061083bd401be5183c5183c01900061483bd801bf51840518400191006184e7c20e5b839e88396e0e5a3aaf03aaf0eabe3aaf53aafa0e5a001f83aaf60e5a4ffbc4e7be0e5a839e48396a0e593aae43aae4eabb3aae93aaee0e59001f43aaea0e594ffb84e7ba0e59839e0839660e583aad83aad8eab83aadd3aae20e58001f03aade0e584ffb44e7b60e58839dc839620e573aacc3aacceab53aad13aad60e57001ec3aad20e574ffb04e7b20e57839d88395e0e563aac03aac0eab23aac53aaca0e56001e83aac60e564ffac4e7ae0e56839d48395a0e553aab43aab4eaaf3aab93aabe0e55001e43aaba0e554ffa84e7aa0e55839d0839560e543aaa83aaa8eaac3aaad3aab20e54001e0)
  (.lf 0)) (.nd (.lf
  0x1ac306b0d58281582806b0d5a2201ac346b0b1ac281ac286b0b5827d5827c6b0b5a21c1ac2c6b091ac201ac206b09582790acc198cb01c386632d98ca0acb00acb02b2e0acb50acb998ca582783e67008ad022346010c08cd3e6f03e6f0088d3e7710223598ca663a46649d489e58278663a5609e01c34582786b095a2181ac246b071ac181ac186b07582753bec0088c0221c66499489d582740acb598ca01c343e66c08ac022306010808cc3e6ec3e6ec088c3e76d0223198c9663a0663a1609d01c301adb9c0c65e19870319c0c51ada81ada86b6c1adad1adb1c0c55c1941adadc0c55e1945a221c0c57039070315c0c41ad9c1ad9c6b691ada11ada5c0c45c1901ada1c0c45e1905a21dc0c47038c70311c0c31ad905a219c0c3703881ad906b661ad951ad99c0c35c18c1ad95c0c35e18c7030dc0c21ad841ad846b631ad891ad8dc0c25c1886632998c90aca40aca42b2b0aca90acad98c9582741ad89c0c25e188582746b075a2145a215c0c27038470309c0c11ad781ad786b601ad7d1ad81c0c15c1843bebc088b022183e66808ab0222c6010408cb3e6e83e6e8088b3e7690222d98c86639c0aca998c901c306632598c80ac980ac982b280ac9d)
  (.lf 0))) (.nd (.nd (.lf
  0x422c8087002194422cc087102198422d008720219c422d40873021a0422d80874021a4422dc0875021a8422e00876021ac423080860021d44230c0861021d8681dd4a8a58a28680e5628a02be458a29cf8f216d82167dcf8f5a99873e3c859d2167021670859d58a25680e1628902be0681d94a8958a2458a24859d5a99421675cf8e2166421664859b21669461900a95021d4549980ab5462904629118c446391463900ab5021d4021d5a054681cc681cd4a8658a18461880a93021cc549900ab3462884628918c246389463880ab3021cc021cda052681c4681c54a8458a10461800a91021c4549880ab1462804628118c046381463800ab1021c4021c5a050681bc681bd4a8258a084617c0a90021c0461840a92021c84618c0a94021d0461940a96021d8549840ab04627c5498c0ab246284549940ab44628c5499c0ab6462944627d18bf4637d4628518c1463854628d18c34638d4629518c5463954637c0ab0021c0463840ab2021c84638c0ab4021d0463940ab6021d80d75da01802bdc68061a0170d74c0d74c35d50d7510d755a01758a1c0d751a01702bd8029d9a017680d86805da0160d7400d74035d20d7450d749a01658a180d745a01602bd4)
  (.lf 0)) (.nd (.lf
  0x59c19b3f66d0546cfd9b3f51523415234548f152391523db3f55bb5059c15b3f56d05015239b3f55db506cfd5b3f41522815228548c1522d1522db3f45db4c59c11b3f46d04c15231b3f45bb4c6cfd1b3f31521c1521c54891522115221b3f35db4859c01b3f06d03c15225b3f35bb4859c0db3f36d0486cfcdb3f2152101521054861521515219b3f25bb4415215b3f25db4459c09b3f26d0446cfc9b3f1152041520454831520915209b3f15db40150d0000059c0659c05b3f16d0401520db3f15bb406cfc5b3f0151f8151f85480151fd151fdb3f05db3c15201b3f05bb3c6cfc1b3ef151ec151ec547d151f1151f1b3ef5db38151f5b3ef5bb3859bfdb3ef6d0386cfbdb3ee151e06d0556ed55db545db55b4726d2446d1c9b47115504155045543155091550db4715fb50150cc000059bfa59bf9b3ee6d0346d0516ed45db505db51b4716d24015509b47161b506d1c5b470154f8154f85540154fd6d04d6ed35db4c15501b4705fb4c5db4db4706d23c154fdb47061b4c6d1c1b46f154ec154ec553d154f1154f5b46f5fb486d0496ed25db485db49b46f6d238154f1b46f61b486d1bdb46e154e0154e0553a154e5154e5b46e61b44154e9b46e5fb44)
  (.lf 0)))

def shaGateTree172 : BTree :=
  .nd (.nd (.nd (.lf
  0x2d5f4b57e597915d4a5e6bd79b7079b700fd30044c2bcc9e6be0045079af9e6bd2bcb82bcb8af302bcbd2bcc1e6bd03f4c03f4dad286b51c6b51d65e400bcc12495ad67537946b59dad66124801248049221248512485ad66597900464dad666b6146b6154de45979012329ad2900bd06b4a5ad28123181231848c81231d12321ad285979059790b57e5b6a45b6a6113784558844de1136492c0492c124b2492c5492ca11365d6a0492c611365f6a02d5f9ea742d5e82d5e8b57c2d5ed2d5edea745b6a02bcbde6bd0044c79af5e6bc2bcac2bcacaf2d2bcb12bcb5e6bc03f485d4a1e6bc79b6c79b6c0fd20044812489ad66537906b599ad651247412474491f1247912479ad655978c04649ad656b6106b6114de35978c1231dad2800bcc6b4a1ad271230c1230c48c51231112315ad275978c03f49ad276b5186b51965e300bc85978dea742d6982d69800005b6a25b6a2113684554844da1135492b4492b524af492b9492be11355d69c492ba11355f69c2d5f000007a9d27a9d0b5792d5e02d5e0b579597895d49de6bb79b6879b680fd1004442bcb1e6bc0044879af1e6bb2bca02bca0af2a2bca52bca9e6bb03f4403f45ad266b5146b51565e200bc4)
  (.lf 0)) (.nd (.lf
  0x586d87ad15a65c5a65dc9aa7272472725717b5e5ec5e5edca267291472915817b625ec1ecadc9aa5c5ec726a9c9a91ec981ec987b281ec9d1eca1c9a95c5e81ec9dc9a95e5e83ef4c09c4026906056809e43efcc3efcc09a43f04d0c7019d5b586d4026919d1d674f00c5a59d1e02094674799d1d0c5940c59431670c5990c59d9d1d586d4674f161b502090586d5c9981ec401ec4000005a65a1eb45c9981eb341eb347acf1eb391eb39c9985a6585a659c9a972720726a5c9a81ec8c1ec8c7b251ec911ec91c9a85e5e43ef4809c30268c6056409e33efc83efc809a33f0490c5999d1d02090674759d1c0c5880c58831640c58d0c5919d1c586d04584807c301e8c5465007e34594845949167245a4945a4807e301e8c6756d9d5a0c6f00c6f031be0c6f501e8d9d5a675e40c6f59d5a586d01eb3c0000726627266169941eb301eb316994586d10268d9d1c674ec674ed61b40208c675e549b4586d0586d169945a6545a655c9a87271c7271d71795e5e45e5e5ca247290c7290d8179625e41ec95c9a85c5e4726a1c9a71ec801ec807b221ec851ec89c9a75c5e03ef4009c1026843ef4409c2026886055c09e13efc06056009e23efc43efc009a13f041)
  (.lf 0))) (.nd (.nd (.lf
  0x2619dda1362e1c5ee1dda13768c87684dda122618c2618c98652619126195da1260e1826191da1262e185ee19da12768c476849da11261802618098622618526189da1160e1426185da1162e145ee15da11768c076845da102617426174985f261792617dda1060e1026179da1062e105ee11da10768bc76841da0f2616826168985c2616d26171da0f60e0c2616dda0f62e0c5ee0dda0f768b87683dda0e2615c2615c98592616126165da0e60e0826161da0e62e085ee09da0e768b476839da0d261502615098562615526159da0d60e0426155da0d62e045ee05da0d768b076835da0c26144261449853261492614dda0c60e0026149da0c62e005ee01da0c768ac76831da0b261382613898502613d26141da0b60dfc2613dda0b62dfc5edfdda0b768a87682dda0a2612c2612c984d2613126135da0a60df826131da0a62df85edf9da0a768a476829da092612026120984a2612526129da0960df426125da0962df45edf5da09768a076825da0826114261149847261192611dda0860df026119da0862df05edf1da087689c76821da07261082610898442610d26111da0760dec2610dda0762dec5ededda07768987681dda06260fc260fc984126101)
  (.lf 0)) (.nd (.lf
  0x186ec61bd186f1186f5bb4c5fea0186f1bb4c61ea05dea1bb4c6edac6ed31bb4b186e05de95bb496eda0186e061ba186e5186e9bb4b5fe9c186e5bb4b61e9c5de9dbb4b6eda86ed2dbb4a186d4186d461b7186d9186ddbb4a5fe98186d9bb4a61e985de99bb4a6eda46ed29bb49186c8186c861b4186cd186d1bb495fe94186cdbb4961e946ed25bb48186bc186bc61b1186c1186c1bb4861e90186c5bb485fe906ed21bb47186b0186b061ae186b5186b5bb4761e8c186b9bb475fe8c5de8dbb476ed986ed1dbb46186a4186a461ab186a9186a9bb4661e88186adbb465fe885de89bb466ed946ed19bb45186981869861a81869d1869dbb4561e84186a1bb455fe845de85bb456ed906ed15bb441868c1868c61a5186915de81bb446ed8c18695bb445fe8018691bb4461e806ed11bb43186801868061a21868518685bb4361e7c18689bb435fe7c5de7dbb436ed886ed0dbb421867418674619f186795de79bb426ed841867dbb425fe7818679bb4261e786ed09bb411866818668619c1866d1866dbb4161e7418671bb415fe745de75bb416ed806ed05bb401865c1865c6199186615de71bb406ed7c18665bb405fe7018661bb4061e706ed01bb3f18650)
  (.lf 0)))

def shaGateTree173 : BTree :=
  .nd (.nd (.nd (.lf
  0x78059843c630f0630f00e9f3ced47805d843d630f4630f40e803ced878061843e630f8630f80e813cedc78065843f630fc630fc0e823cee078069844063100631000e833cee47806d844163104631040e843cee878071844263108631080e853ceec7807584436310c6310c0e863cef078079844463110631100e873cef47807d844563114631140e883cef878081844663118631180e893cefc7808584476311c6311c0e8a3cf0078089844863120631200e8b3cf047808d844963124631240e8c3cf0878091844a63128631280e8d3cf0c78095844b6312c6312c0e8e3cf1078099844c63130631300e8f3cf147809d844d63134631340e903cf18780a1844e63138631380e913cf1c780a5844f6313c6313c0e923cf20780a9845063140631400e933cf24780ad845163144631440e943cf28780b1845263148631480e953cf2c780b584536314c6314c0e963cf30780b9845463150631500e973cf34780bd845563154631540e983cf383cebc0e8b03a183cec00e8c03a1c3cec40e8d03a203cec80e8e03a243cecc0e8f03a283ced00e9003a2c3ced40e9103a303ced80e9203a343cedc0e9303a383cee00e9403a3c3cee40e9503a403cee80e9603a44)
  (.lf 0)) (.nd (.lf
  0x234d99c86679c6679d60e401d4c583906eb31bb086689d48e658398667a160e501d506689948e558394668a148e75839c667a960e701d585839c6eb51bb101ba686eb51ba581ba586e981ba5d1ba6000001bad61ba5c6eb55a33c1bad46eb41ba4c1ba4c6e951ba511ba5400001bad2667a560e601d54583986eb41bb0c1ba506eb45a3381bad06e921ba441ba446e9258395583946e925a3341ba486eb31ba381ba386e901ba3d1ba3c6eb35a3301ba4000001bace1bacc6eb21ba2c1ba2c6e8d1ba311ba306eb25a32c44e0406f201b485430c071244f0444f0513e14500545004071201b480b3f99a055838c01b499a05668906689148e35838c0b29d99c801d4c6672199c70b28c0b28c2ca50b2910b29599c75838c0234999c7667986679960e301d485838c6eb21bb041ba3400001baca1bac86e8a1ba241ba246e8a583893e88008f1023446021c09113e9003e90008d13e98141c4c06d101b180b3fd9a055238c668159a040b3e80b3e82cfc0b3ed0b3ed9a045838844e0006f101b4454308071144f0044f0113e04500145000071101b4401b459a046688c6688d48e2583880b29199c701d486671d99c60b2800b2802ca20b2850b28999c658388)
  (.lf 0))) (.nd (.nd (.lf
  0xdd3da11558b3468455a1140dd280dd28374c0dd2d0dd31a11458b30032eda114684cc0dd2da11402cec68451a1130dd1c0dd1c37490dd210dd25a11358b2c0dd21a11302ce8032e9a113684c86844da1120dd100dd1037460dd150dd15a11202ce40dd19a11258b28032e5a112684c468449a1110dd040dd0437430dd090dd0da11158b240dd09a11102ce0032e1a111684c068445a1100dcf80dcf837400dcfd0dd01a11058b203f7980cd7032dc609b40cf73f8183f8180cb73f899032dda110684bc0dcfda11002cdc68441a10f0dcec0dcec373d0dcf10dcf1a10f02cd83f7840cd2032c83f7880cd3032cc3f78c0cd4032d03f7900cd5032d43f7940cd6032d8609a00cf23f804609a40cf33f808609a80cf43f80c609ac0cf53f810609b00cf63f8143f8040cb23f8853f8080cb33f8893f80c0cb43f88d3f8100cb53f8913f8140cb63f895032d5a10e684b4032d9a10f684b80dcf5a10f58b1c6843da10e0dce00dce0373a0dce50dce9a10e58b180dce5a10e02cd468439a10d0dcd40dcd437370dcd90dcd9a10d02cd00dcdda10d58b14032d1a10d684b068435a10c0dcc80dcc837340dccd0dccda10c02ccc0dcd1a10c58b10032cda10c684ac)
  (.lf 0)) (.nd (.lf
  0x5ba9db3246cd0c6cd0c055149f8814c49b32549f8c6cc95b32414c3814c38531014c3d14c41b324015443b9d40551015303dc800571015445fc1c05913dd003dd0005513dd810154593f665054650555f62010440923d943551d8c53d0803d143d0043d010f6043e0143e0003d100e44650d594340922809228248c0922d0922d943457d884164c039100e1843c0003b100e4400e4594346514c090d193f70104864fdd93f6090c0090c02432090c5090c993f657d886514d476257d8857d88599c166bc165c400001667216670596e165b4165b4596e57d8553d0403d043cfc43cfd0f5f43dfd43dfc03d000e4043bfc03b000e4041648039000e1400e4194336514865149476157d8409231943451d88650d194330921c0921c24890922109221943357d8414c3db32449f886cc91b32314c2c14c2c530d14c3114c35b32301540090c593f60104464fd993f5090b43b9d005500152c5ba99b3236cd086cd08055049f843dc7c0570015405fc1805903dcfc3dcfc05503dd7d0154193f565050650515f6101040090b4242f090b9090bd93f557d8457d84596e59d58165b8596c165ac165ac596c57d8109225943351d84650cd94320921009210248609215)
  (.lf 0)))

def shaGateTree174 : BTree :=
  .nd (.nd (.nd (.lf
  0x116e845bc116ed116edab0459538043f5ab046ac8c6ac8d4d4e5953811591aac7045f86ab1daac6115801158045621158511589aac65953859538acbd5b4545b455e5807967c7967d75135f44c5f44de5fc7986c797f1e5fb2b77c2b77cade12b7812b785e5fb614482b781e5fb634482b4c1e5805d44c79601e57f2b4ac2b4acad2d2b4b12b4b1e57f5f4482b2f4acca2b2e42b2e4acbb2b2e92b2e8acca5b450299e1e1d3001f47874de1d2299d0299d0a676299d5299d9e1d203cf05d249e1d2787c4787c40f3c001f0116f1ab04535386ac11ab03116dc116dc45b9116e1116e1ab0359534043f1ab036ac886ac894d4d5953411585aac6045f46ab19aac51157411574455f115791157daac55953403cf1aac56ab906ab91654d045f059534acca2b35c2b35c00005b4525b451e57f796787967975125f4485f449e5fb79868797ede5fa2b7702b770adde2b7752b779e5fa614442b775e5fa634442b4b5e57f5d448795fde57e2b4a02b4a0ad2a2b4a52b4a5e57e5f4442b2ec00002b32a2b328acc92b2d82b2d8acb82b2dd2b2dcacc95b44c299d5e1d2001f078749e1d1299c4299c4a673299c9299cde1d103cec5d245e1d1787c0787c00f3b001ec)
  (.lf 0)) (.nd (.lf
  0x67312a6c4a9a8067352a6d4a9ac067392a6e4a9b00673d2a6f4a9b4067412a704a9b8067452a514a9bc067492a524a9c00674d2a534a944067512a544a948067552a554a94c067592a564a9500675d2a574a954067612a584a958067652a594a95c7f9d52b074f49c4f49d2a5a4a9607f9d92b084f4a04f4a12a5b4a9647f9dd2b094f4a44f4a52a5c4a9687f9e12b0a4f4a84f4a92a5d4a96c7f9e52b0b4f4ac4f4ad2a5e4a9707f9e92b0c4f4b04f4b12a5f4a9747f9ed2b0d4f4b44f4b52a604a9787f9f12b0e4f4b84f4b92a614a97c7f9f52b0f4f4bc4f4bd2a624a9807f9f92b104f4c04f4c12a634a9845e42dc63c7196c7196d810b6242c5e455c6467199471919c6451d47c1d47c75211d4811d481c645624501d485c645604505e451c6457199071915c6441d4701d470751e1d4751d479c6446044c1d475c6446244c5e44dc6447198c71911c6431d4641d464751b1d4691d469c643624485e445c642719845e449c643719881d46dc643604487190dc6421d4581d45875181d45d1d45dc642624441d461c6426044471909c6411d44c1d44c75151d4511d455c641604405e441c641719801d451c6416244071905c6401d4405e43dc6407197c)
  (.lf 0))) (.nd (.nd (.lf
  0x54c700b6b46b6846b691afa46c6946c680b6b02cac02cada33268d4446a500b4502c9446a540b4602c9846a580b4702c9c46a5c0b4802ca046a600b4902ca446a640b4a02ca854c580b6546b5054c5c0b6646b5454c600b6746b5854c640b6846b5c54c680b6946b6054c6c0b6a46b6446b511af446c5146b551af546c5546b591af646c5946b5d1af746c5d46b611af846c6146b651af946c6546c500b6502c9446c540b6602c9846c580b6702c9c46c5c0b6802ca046c600b6902ca446c640b6a02ca802c99a32d68d300e915a33258cf002ca9a33168d4068cc9a3310e9040e9043a430e9090e90da33152cec0e909a33158cec68cc5a3300e8f80e8f83a400e8fd0e8fda33058ce80e901a33052ce802ca5a33068d3c68cc1a32f0e8ec0e8ec3a3d0e8f10e8f1a32f58ce40e8f5a32f52ce402ca1a32f68d3868cbda32e0e8e00e8e03a3a0e8e50e8e5a32e58ce00e8e9a32e52ce002c9da32e68d3468cb9a32d0e8d40e8d43a370e8d90e8dda32d52cdc0e8d9a32d58cdc68cb5a32c0e8c80e8c83a340e8cd0e8cda32c58cd80e8d1a32c52cd802c95a32c68d2c68cb1a32b0e8bc0e8bc3a310e8c10e8c1a32b58cd468d594b4158d0468d4d4b3e58cf8)
  (.lf 0)) (.nd (.lf
  0x16ed85bb816edd16eddb7c65dd1416ee1b7c65bd1459dd5b7c66df946df19b7c516ecc16ecc5bb516ed116e00000059dc616ed1b7c55dd1016e04000059dd259dcdb7c46df8c16ed5b7c55bd1059dd1b7c56df906df15b7c416ec016ec05bb216ec516ec5b7c45dd0c16ec9b7c45bd0c6df11b7c316eb416eb45baf16eb916eb9b7c35dd0859dc9b7c36df8816ebdb7c35bd086df0db7c216ea816ea85bac16ead16eb1b7c25bd0459dc5b7c26df846df856f415dd045bd05b8006e07c6df916f445dd105bd11b8036e0886dfc56f515dd445bd45b8106e0bc6dfd56f555dd545bd55b8146e0cc6e051b813170f46dfcd6f535dd4c5bd4db8126e0c46dfd16f545dd505bd51b8136e0c8170f45c3f170f9170f9b8134a23c170fdb813017f86e04db812170e8170e85c3c170ed170edb8124a238170f1b812017f46e049b811170dc170dc5c39170e1170e5b811017f06dfc96f525dd485bd49b8116e0c0170e1b8114a2346e045b810170d0170d05c36170d5170d9b810017ec170d5b8104a2306e041b80f170c4170c45c33170c9170c9b80f4a22c170cdb80f017e86dfc16f505dd405bd41b80f6e0b86e03db80e170b8170b85c30170bd170c1b80e017e4)
  (.lf 0)))

def shaGateTree175 : BTree :=
  .nd (.nd (.nd (.lf
  0x510292ced057bc5102d2cee057c0510312cef057c4510352cf0057c8057592ce34b3600575d2ce44b364057612ce54b368057652ce64b36c057692ce74b3700576d2ce84b374057712ce94b378057752cea4b37c057792ceb4b3800577d2cec4b384057812ced4b388057852cee4b38c057892cef4b3900578d2cf04b394057912cd14b398057952cd24b39c057992cd34b3a00579d2cd44b3a4057a12cd54b3a8057a52cd64b3ac057a92cd74b3b0057ad2cd84b3b4057b12cd94b3b8057b52cda4b3bc057b92cdb4b3c0057bd2cdc4b344057c12cdd4b348057c52cde4b34c057c92cdf4b350510392ce04b3545103d2ce14b358510412ce24b35c510c52d1405840510c92d1505844510cd2d1605848510d12d170584c510d52d1805850510d92d1905854510dd2d1a05858510e12d1b0585c510e52d1c05860510e92d1d05864510ed2d1e05868510f12d1f0586c510f52d2005870510f92d2105874510fd2d2205878511012d230587c511052d2405880511092d25058845110d2d2605888511112d270588c511152d2805890511192d29058945111d2d2a05898511212d2b0589c511252d2c058a0511292d2d058a45112d2d2e058a8511312d2f058ac)
  (.lf 0)) (.nd (.lf
  0x6fbd9bef51a1101a11068461a1151a115bef54a5701a119bef50232c6fbd5bef41a1041a10468431a1091a10dbef4023281a109bef44a56c6fbd1bef31a0f81a0f868401a0fd1a0fdbef34a5681a101bef3023246fbcdbef21a0ec1a0ec683d1a0f11a0f1bef24a5646fb4d701e5e0785c079bef26fc446fc4408c84a5644a56df9727e6444a571f9737e6487e5cdf9723311033110cc463311533119f9724c16c33115f9724d96c7e5c9f9713310433104cc43331093310df9714c16833109f9714d9684a569f9717e6407e5c5f970330f84a565f9707e63c330f8cc40330fd33101f9704c164330fdf9704d9647e5c1f96f330ec330eccc3d330f1330f5f96f4c1607e689306c4d9b07e685306b4d9ac7e681306a4d9a87e67d30694d9a46fb49701d5e0745c075bef16fc406fc4008c74a5607e68d306d4d9b47e66130624d9887e65930604d9807e651305e4d9787e64d305d4d9747e649305c4d9707e645305b4d96c7e715f9c43336833368ccdc3336d33371f9c44adbc7e67930684d9a07e66d30654d9947e67130664d9987e67530674d99c7e66930644d9907e691306e4d9b87e695306f4d9bc7e65d30614d9847e66530634d98c3336df9c4509bc)
  (.lf 0))) (.nd (.nd (.lf
  0xd63d9fe0589b80d6419fe0529b867f819fdf0d62c0d62c358d0d6310d6319fdf589b40d6359fdf529b4021719fdf67ff867f7d9fde0d6200d620358a0d6250d6259fde589b00d6299fde529b00216d9fde67ff467f799fdd0d6140d61435870d6190d61d9fdd529ac0d6199fdd589ac021699fdd67ff067f759fdc0d6080d60835840d60d0d6119fdc529a80d60d9fdc589a8021659fdc67fec67f719fdb0d5fc0d5fc35810d6010d6019fdb589a40d6059fdb529a4021619fdb67fe867f6d9fda0d5f00215d9fda67fe40d5f0357e0d5f50d5f99fda529a00d5f59fda589a067f699fd90d5e40d5e4357b0d5e9021599fd967fe00d5ed9fd95299c0d5e99fd95899c67f659fd80d5d80d5d835780d5dd0d5e19fd8529980d5dd9fd858998021559fd867fdc67f619fd70d5cc0d5cc35750d5d10d5d59fd752994021419fd367fc8021519fd767fd80d5d19fd75899467f5d9fd60d5c00d5c035720d5c50d5c99fd6529900d5c59fd6589900214d9fd667fd467f599fd50d5b40d5b4356f0d5b90d5bd9fd55298c0d5b99fd55898c021499fd567fd067f559fd40d5a80d5a8356c0d5ad0d5b19fd452988021459fd467fcc0d5ad9fd45898867f519fd30d59c)
  (.lf 0)) (.nd (.lf
  0x6474991d108484084842123084890848d91d151b2c0848991d157b2c6474591d0084780847821200847d63e052de800a5c0848191d051b2863e012de700a580847d91d057b2853aa0033743598435990d86436994369803374b7a06c2a54e9255a4855a492de8413c06c2a94e9355a4c55a4d2de9413c46c2f94ea755a9c55a9d2ddd41414414152dd44b7a453aa403384359c4359d0d874369d4369c03384b7a455a952ddb4140c4140d2dd24b79c6474191cf0846c0846c211d084710847591cf51b2463e092de900a6055a712dd2413e8413e92de94b7780847191cf57b244349c03184b7a44b7a591cf647b86473d91ce0846008460211a084650846991ce51b2053a9c033643594435950d85436954369403364b79c6c2c94e9b55a6c55a6d2dd1413e4413e52de84b7740846591ce57b204349803174b7a055a992ddc41410414112dd34b7a04b7a191ce647b46473991cd08454084542117084590845991cd57b1c413e12de74b7704349403164b79c0845d91cd51b1c51a454e9155a4455a452de7413bc4b79d91cd647b06473591cc084480844821140844d0844d91cc57b186c2ed4ea455a90413dd2de64b76c4349003154b79855a912dda41408)
  (.lf 0)))

def shaGateTree176 : BTree :=
  .nd (.nd (.nd (.lf
  0x5d641e9c97a7a07a7a0103a005e8040ea10848428c84212108348edc48edd23b948ee148ee610835991c48ee2108300a642d235e9c9005e87a725e9c82d2242d224b48b2d2292d22de9c8040e45d63de9c87a79c7a79c1039005e4040e61083842888420e108248ed048ed123b648ed548eda10825991848ed6108200a602d229e9c8005e47a721e9c72d2182d218b4882d21d2d221e9c7040e05d639e9c77a7987a7981038005e0040e21082842848420a108148ec448ec523b348ec948ece10815991448eca108100a5c2d21de9c7005e07a71de9c62d20c2d20cb4852d2112d215e9c6040dc5d635e9c67a7947a7941037005dc040de10818428084206108048eb848eb923b048ebd48ec210805991048ebe108000a582d211e9c6005dc7a719e9c52d2002d200b4822d2052d209e9c5040d85d631e9c57a7907a7901036005d8040da10808427c84202107f48eac48ead23ad48eb148eb6107f5990c48eb2107f00a542d205e9c5005d87a715e9c42d1f42d1f4b47f2d1f92d1fde9c4040d45d62de9c47a78c7a78c1035005d4040d6107f84278841fe107e48ea048ea123aa48ea548eaa107e5990848ea6107e00a502d1f9e9c4005d47a711e9c32d1e8)
  (.lf
  0x848f58f6763e1863d9d8f6607680076801da207685076898f664b7b0076858f6600a6c848f18f6663e1463d998f6507674848ed8f6563e10076741d9f07679076798f6500a680767d8f654b7ac63d958f6407668848e98f6463e0c076681d9c0766d0766d8f6400a64076718f644b7a863d918f630765c0765c1d9907661848e58f6363e08076618f6300a60076658f634b7a463d8d8f6207650076501d9607655076558f6200a5c848e18f6263e04076598f624b7a063d898f6107644076441d9307649076498f6100a580764d8f614b79c848dd8f6163e0063d858f6007638076381d900763d0763d8f6000a54076418f604b798848d98f6063dfc63d818f5f0762c0762c1d8d07631076358f5f4b794848998f5063dbc63dbd2dd600a14519fdaf9f6bef86bef94e7f559fc51a25afa96bf2051a41afb06bf3c6bec1afaf1330c1330c4cc51331113311afaf55a3c51a3dafaf6bf3813315afaf53a3c6bebdafae13300133004cc21330513309afae53a3813305afae55a3851a39afae6bf346beb9afad132f4132f44cbf132f9132fdafad53a34132f9afad55a3451a35afad6bf306beb5afac132e8132e84cbc132ed132f1afac53a30132edafac55a30))
  (.nd (.lf
  0x20355cccd4ac4c201f9cc905e76420359cccd032080cdfd9e9002a0c67a419e8f0cdec3f2440a2202808606e00a423f2c43f2c40a023f345028099e8f67ab867ab9621302a0845cc4082202008547cc084245dc445dc5179145ec545ec408420200873241cc8f201e8201e8807c201ed0cdec337d0cdf10cdf59e8f5884c0cf699ece5285067b399ecd0cf540cf5433d70cf590cf599ecd5884c020099ecd67bb067bb14a135884c5884dcc8f732b8732b971d85e760201f1cc8f5c7605c761cccd733b073335cccc203442034480d3203492034dcccc03204733b40c834ac50733cc0c894ac680cdf19e8f02a0867a3d9e8e0cde00cde0337a0cde50cde99e8e588483f2400a2102804606dc0a413f2c03f2c00a013f341028059e8e67ab467ab5621202a043f23c0a2002800606d80a403f2bc3f2bc0a003f33d02801621102a000cde59e8e02a0467a39621102a01733b80c844ac54733bc0c854ac58734180c9c4acb445cbc08200200045cc0082102004547c4084045dbc547c8084145dc045dbd178f45ebd45dc1179045ec145ebc08400200045ec0084102004733c00c864ac5c7341c0c9d4acb8734200c9e4acbc734240c9f4acc0733c40c874ac60)
  (.lf 0))) (.nd (.nd (.lf
  0x77401dcff27754277549dd7277592775ddcff60fac27759dcff62fac27499dc845cfb077211dc8327484274849d232748927489dc835efac272a09cc927290272909ca627295272949cc95afd8590989cc9273702737000005afda5afd9dc83772887728973eb5efac5efaddcff77478773fddcfe27748277489dd42774d27751dcfe60fa82774ddcfe62fa82748ddc835cfac7720ddc8227478274789d202747d2747ddc825efa827298000027326273249cc827284272849ca327289272889cc85afd4590949cc82736c2736c00005afd65afd5dc82772847728573ea5efa85efa9dcfe77474773f9dcfd2773c2773c9dd12774127745dcfd60fa427741dcfd62fa427481dc825cfa877209dc812746c2746c9d1d2747127471dc815efa42728c000027322273209cc727278272789ca02727d2727c9cc75afd0590909cc7273682736800005afd25afd1dc81772807728173e95efa45efa5dcfd77470773f5dcfc27730277309dce2773527739dcfc60fa027735dcfc62fa027475dc815cfa477205dc8027460274609d1a2746527465dc805efa02728000002731e2731c9cc62726c2726c9c9d27271272709cc65afcc5908c9cc6273642736400005afce)
  (.lf 0)) (.nd (.lf
  0xa5b4296f0a5b90a5b99795580fc011b9979565ed065ed1483f580fc580fc6602198381976000001980a1980865d5197501975065d5580f95407804ad447704477111fc448714487004ad011b4419bc046d0118844670048d011b4011b5979465ecc65ecd483e580f865dd5603e01ab40a5bd9795520fc65e5597940a5a80a5a8296c0a5ad0a5ad9794580f8580f865d55a0b01975465d3197481974865d3580f541a38046c011845407404ac4476c4476d11fb4486d4486c04ac011b04466c048c011b0011b1979365ec865ec9483d580f43e36c064c018b05ff88066c3e3ec3e3ec062c3e46d0a43d9755580f4018b1975565dd065dd1603d01ab00a5b19794520f865e5197930a59c0a59c29690a5a10a5a19793580f4580f465d35a0ac1974c65d1197401974065d1580f165d5597540a4280a428290c0a42d0a4319754580f03e368064b018ac5ff84066b3e3e83e3e8062b3e46941a34046b01180018ad975465dcc65dcd603c01aac44668048b011ac5407004ab447684476911fa448694486804ab011ac0a5a59793520f465e4d97920a5900a59029660a5950a5959792580f0011ad979265ec465ec5483c580f0580f065d15a0a81974465cf19738)
  (.lf 0)))

def shaGateTree177 : BTree :=
  .nd (.nd (.nd (.lf
  0x28b6ddfcd03be85d141dfcd77fb077fb00efa000e811139aa0a534306a829aa091112411124444b1112911129aa095942c042e9aa096a8a06a8a14d0b5942c10fcda9cc044ec6a731a9cb10fbc10fbc43f110fc110fc5a9cb5942c03be9a9cb6a7a86a7a9650b044e85942ca9512a57c2a57c00005b3565b355e38278e8478e8574d05f3405f341e3fe7907478ff9e3fd2a9742a974aa5f2a9792a97de3fd6133c2a979e3fd6333c2a6b9e3825d34078e09e3812a6a42a6a4a9ab2a6a92a6a9e3815f33c2a4f400002a5462a544a93a2a4e42a4e4a93a594295d13ddfcc77fac77fac0ef9000e428b69dfcd000e877f35dfcc28b5828b58a2d828b5d28b61dfcc03be403be5a9ca6a7a46a7a5650a044e41112daa095342c6a825aa08111181111844481111d1111daa0859428042e5aa086a89c6a89d4d0a5942810fc1a9cb044e86a72da9ca10fb010fb043ee10fb510fb9a9ca5942859428a93a5b3505b351e38178e8078e8174cf5f33c5f33de3fd7907078ff5e3fc2a9682a968aa5c2a96d2a971e3fc613382a96de3fc633382a6ade3815d33c78e05e3802a6982a698a9a82a69d2a69de3805f3382a4e8a9382a4dc2a4dca938594255d139dfcb77fa8)
  (.lf 0)) (.nd (.lf
  0x1cb49c4ee02634713b9c4ed1cb341cb3472cf1cb391cb3dc4ed026301cb39c4ed4a8747133970e25e3885c389c4ed71430713b5c4ec1cb281cb2872cc1cb2d1cb31c4ec0262c1cb2dc4ec4a8707133570e15e3845c385c4ec7142c713b1c4eb1cb1c1cb1c72c91cb211cb25c4eb026281cb21c4eb4a86c7133170e05e3805c381c4eb71428713adc4ea1cb101cb1072c61cb151cb19c4ea026241cb15c4ea4a868713a9c4e91cb041cb0472c31cb091cb09c4e94a8647132970de5e3785c379c4e9714201cb0dc4e902620713a5c4e81caf81caf872c01cafd1cafdc4e84a8605c375c4e87141c1cb01c4e80261c713a1c4e71caec1c7e872391c7d81c7d871f81c7dd1c975c4a75c3687129dc4a61c9601c960725a1c9651c7dc72395a3e05a3e1c4a6713141c969c4a65c3647131570d95e3645c365c4e47140c7132170dc5e3705c371c4e7714181caec72bd1caf11caf5c4e7026181caf1c4e74a85c7139dc4e61cae01cae072ba1cae51cae9c4e6026141cae5c4e64a8587131d70db5e36c5c36dc4e67141471399c4e51cad41cad472b71cad91caddc4e5026101cad9c4e54a8545c369c4e57141071395c4e41cac81cac872b41cacd1cad1c4e40260c)
  (.lf 0))) (.nd (.nd (.lf
  0x4afd208ad823308233132f44e3d04e3d2092982520824a6092838c1838c18e30838c1d38c2209284b34c38c1e09284fbcc3895e08ad4cbd0822b608ac3894838948e2543894d3894e08ac4e3cc0e1ada1f402d8c687d1a1f30e19c0e19c38690e1a103389a1f3688486884962f302d880e1a5a1f358bcc23539d3bd0358c74ef5d3bc23524235248d4b2352923529d3bc4afcc233cdd37f5eae474dfdd37e233bc233bc8cf1233c1233c5d37e5cae058bcdd37e74e7474e7572b85eae05cae1d3bc74f6c74f6c0d624afcc4afce08ac8232c8232d32f34e3cc4e3ce09288251c824a2092738c0c38c0ce30538c1138c1609274b34838c1209274fbc83895208ac4cbcc822b208ab3893c3893ce251389413894208ab4e3c80e1a1a1f302d88687cda1f20e1900e19038660e1950e199a1f258bc803385a1f2688446884562f202d842352dd3bc0358874ef1d3bb23518235188d482351d2351dd3bb4afc8233c1d37e5eae074df9d37d233b0233b08cee233b5233b9d37d5cadc58bc9d37d74e7074e7172b75eadc5caddd3bb74f6874f680d614afc84afca08ab823288232932f24e3c84e3ca0927825183894608ab4cbc80e195a1f202d840338162f102d80)
  (.lf 0)) (.nd (.lf
  0x7c58528c74eb9c4eb9d281a4a0607c58928c84eba04eba1281b4a0647c58d28c94eba44eba5281c4a06815a19b5180162c306fdf2304d4747c8c1f22f306ec306ecc1bd306f1306f5f22f4bc70306f1f22f4d4705bb85b5186d4dc6d4dc058b4a0704a071f22f7c9386d461b51715a0415a04568315a0915a09b5174a06c5bb81b5176d4d86d4d8058a4a06c4a06df22e7c9347c9352f1b4d46c7c8bdf22e306e07c9392f1c4d4704bc71f26d7ca3030859f26d504707c9b5f26c3084830848c2143084d306e0c1ba306e5306e9f22e4bc6c30851f26c4a86c4bc6df26c7ca2c3084df26c5046c7c9b1f26b3083c3083cc2113084115a0db517016286d45db516159f8159f85680159fd306e5f22e4d46c7c8b9f22d306d4306d4c1b7306d9306ddf22d4bc68159fdb5164a0685bb7db5166d4d46d4d405894a0684a069f22d7c9307c9312f1a4d46830845f26b4a86830841f26b504684bc69f26b7ca287c9adf26a3083030830c20e3083530839f26a4a8640612d28174a0540613128184a0580613528194a05c15a01b516016246d459b515159ec159ec567d159f1159f1b5154a064159f5b515016205bb79b5156d4d06d455b514159e0159e0567a159e5)
  (.lf 0)))

def shaGateTree178 : BTree :=
  .nd (.nd (.nd (.lf
  0x6b13965a30474811ee9ac6e536906b1b9ac6d11ed411ed447b711ed911ed9ac6d5968c04549ac6d6b2306b2314da35968c11d7dac300474c6b0c1ac2f11d6c11d6c475d11d7111d75ac2f5968c5968cb1e75b5a05b5a1e88b7a2a87a2a975685f5a05f5a1e9077a4987a41de9062cbec2cbecb2fd2cbf12cbf5e9066159c2cbf1e9066359c2c931e88b5d5a07a22de88a2c91c2c91cb2492c9212c921e88a5f59c2c79cb1e52c7902c790b1e5596895d39de4ba79364793640f91003442ae99e4bb00348792ede4ba2ae882ae88aba42ae8d2ae91e4ba03e4403e45ac2e6b1346b13565a20474411eddac6d5368c6b1b5ac6c11ec811ec847b411ecd11ecdac6c5968804545ac6c6b22c6b22d4da25968811d71ac2f047486b0bdac2e11d6011d60475a11d6511d69ac2e5968859688b1e55b59c5b59de88a7a2a47a2a575675f59c5f59de9067a4947a419e9052cbe02cbe0b2fa2cbe52cbe9e905615982cbe5e905635982c925e88a5d59c7a229e8892c9102c910b2462c9152c915e8895f5982c795e8702c7842c784b1e32c7892c789e8705b5982ae8de4ba00344792e9e4b92ae7c2ae7caba12ae812ae85e4b903e405d399e4b979360793600f9000340)
  (.lf 0)) (.nd (.lf
  0x1dba5c76e565d8525d9c76e71e341dba9c76e545d871db9c76d1db941db9476e71db991db9dc76d545d41db99c76d565d4525d5c76d71e3071db5c76c1db881db8876e41db8d1db91c76c545d01db8dc76c565d0525d1c76c71e2c71db1c76b1db7c1db7c76e11db811db81c76b565cc525cdc76b71e281db85c76b545cc71dadc76a1db701db7076de1db751db79c76a545c81db75c76a565c8525c9c76a71e2471da95171565c571e99518f5663c71e8d518c5663071e85518a5662871e59517f565fc71e355176565d8565d8079b41f50565fc078441f7456628078f41fa041f74079b01e4041fa0078601e6c4572807bb01e6c5463007db4582845829162a459294592807db01e6c01e6d9cf66745471e95518e5663871e91518d5663471e6551825660871e6951835660c71e415179565e4565e4079e41f5c71e45517a565e8565e8079f41f6056608078741f805660c078841f8456634079241fac56638079341fb041f80079e01e4c41f84079f01e5041fac078901e7841fb0078a01e7c4573407be01e784573807bf01e7c5463c07de4583471e9d5190566405464007df4583845835162d4593545839162e459394593407de01e784593807df01e7c)
  (.lf 0))) (.nd (.nd (.lf
  0x470211c2847121471200bd902e6402e65a4b46934c692d1a4b30f21c0f21c3c890f2210f225a4b352ea40f221a4b358ea424cf5d74e54dd075d39d74d24ce024ce0933a24ce524ce5d74d56dcc52dcdd74d75db075db1537356dcc56dcc0b984274475dd5537c56df056df00b814276875e01538756e1c56e1c0b8c42794427680b9802e34427940b8302e6046f1c0bb802e6054e240bd84701c4701d1c274711d4711c0bd802e6002e61a4b369348692cda4b20f2100f2103c860f2150f219a4b252ea00f215a4b258ea024ce9d74d54dcc75d35d74c24cd424cd4933724cd924cd9d74c56dc852dc9d74c75dac75dad537256dc856dc80b974274075dd1537b56dec56dec0b804276475dfd538656e1856e180b8b42790427640b9702e30427900b8202e5c46f180bb702e5c54e200bd747018470191c2647119471180bd702e5c02e5da4b269344692c9a4b10f2040f2043c830f2090f20da4b152e9c0f209a4b158e9c24cddd74c54dc852dc5537156dc475d31537156dc556dc40b964273c75df9538556e1456e140b8a4278c427600b9602e2c4278c0b8102e5846f140bb602e5854e1c0bd647014470151c2547115471140bd602e5802e59a4b169340)
  (.lf 0)) (.nd (.lf
  0x4a329f5df7d7f87d77df5de31ca031ca0c72a31ca531ca9f5de4bf246e8ac06384a32431ca5f5de4d7244a325f5de7d7f47d779f5dd31c9431c94c72731c996e8a806374a3204a321f5dd7d7f031c9df5dd4bf2031c99f5dd4d7207d775f5dc31c8831c88c72431c8d31c8df5dc4d71c31c91f5dc4bf1c6e8a406364a31c4a31df5dc7d7ec7d771f5db31c7c31c7cc72131c8131c85f5db4bf1831c81f5db4d7186e8a006354a3184a319f5db7d7e87d76df5da31c7031c70c71e31c7531c79f5da4bf1431c75f5da4d7147d769f5d931c6431c64c71b31c6931c69f5d94d7106e89006314a30831c6df5d94bf107d765f5d831c5831c58c71831c5d31c61f5d84bf0c31c5df5d84d70c4a30df5d87d7dc7d761f5d731c4c31c4cc71531c5131c55f5d74bf0831c51f5d74d7084a309f5d77d7d87d75df5d631c4031c40c71231c4531c45f5d64d7046e884062e4a2fc4a2fdf5d47d7cc6e888062f4a30031c49f5d64bf046e88c06304a3044a305f5d67d7d47d759f5d531c3431c34c70f31c3931c3df5d54bf0031c39f5d54d7004a301f5d57d7d07d755f5d431c2831c28c70c31c2d31c31f5d44befc31c2df5d44d6fc7d751f5d331c1c31c1cc70931c21)
  (.lf 0)))

def shaGateTree179 : BTree :=
  .nd (.nd (.nd (.lf
  0x3b21a0fb2002883b2160fb25004c4e84e0fb283f4483eca0fb13b2043b204ec833b2093b20e0fb1002843b20a0fb1500484e84a0fb183f404e84400a05004483ec400a05004550044000a06f5083f4000a15004850048000b06f5483f4400a25004c5004c000c06f5883f4800a35005050050000d06f5c83f4c00a45005450054000e06f6083f5000a55005850058000f06f6483f5400a65005c5005c001006f6883f5800a75006050060001106f6c83f5c00a85006450064001206f7083f6000a95006850068001306f7483f6400aa5006c5006c001406f7883f6800ab5007050070001506f7c83f6c00ac5007450074001606f8083f7000ad5007850078001706f8483f7400ae5007c5007c001806f8883f7800af5008050080001906f8c83f7c00b05008450084001a06f9083f8000b15008850088001b06f9483f8400b25008c5008c001c06f9883f8800b35009050090001d06f9c83f8c00b45009450094001e06fa083f9000b55009850098001f06fa406f5000130004406f5400140004806f5800150004c06f5c00160005006f6000170005406f6400180005806f6800190005c06f6c001a0006006f70001b0006406f74001c0006806f78001d0006c)
  (.lf 0)) (.nd (.lf
  0x70211c0831ab681ab686adc1ab6d1ab71c083542a01ab6dc083562a0522a1c083702887020dc0821ab5c1ab5c6ad91ab611ab65c0825429c1ab61c0825629c5229dc0827028470209c0811ab501ab506ad61ab5552299c081702801ab59c081542981ab55c0815629870205c0801ab4452295c0807027c1ab446ad31ab491ab4dc080542941ab49c0805629470201c07f1ab381ab386ad01ab3d1ab3dc07f5629052289c07d702701ab41c07f542905228dc07e7027452291c07f70278701fdc07e1ab2c1ab2c6acd1ab311ab35c07e5428c1ab31c07e5628c701f9c07d1ab201ab206aca1ab251ab25c07d562881ab29c07d54288701f5c07c1ab141ab146ac71ab1952285c07c7026c1ab1dc07c542841ab19c07c56284701f1c07b1ab081ab086ac41ab0d1ab11c07b542801ab0dc07b5628052281c07b70268701edc07a1aafc1aafc6ac11ab011ab05c07a5427c1ab01c07a5627c5227dc07a70264701e9c0791aaf052279c079702601aaf06abe1aaf51aaf9c079542781aaf5c07956278701e5c0781aae41aae46abb1aae91aae9c0785627452275c0787025c1aaedc07854274701e1c0771aad81aad86ab81aadd1aae1c077542701aaddc07756270)
  (.lf 0))) (.nd (.nd (.lf
  0x37bda064d4fa003791a05d24ca048174a05d13790437904de43379093790a05d14e20073ff40cef4ae004ae0205d1817c0817c132804e2004e202064d819b081936064c37bc837bc8def437bcd37bd2064c4b17c37bce064c4f9fc3790e05d14ca008174605d0378f8378f8de40378fd378fe05d04e1fc73ff00cee4adfc4adfe05d0817bc817bd327f4e1fc4e1fe064c819ac81932064b37bbc37bbcdef137bc137bc6064b4b17837bc2064b4f9f83790205d04c9fc8174205cf378ec378ecde3d378f1378f205cf4e1f873fec0ced4adf84adfa05cf817b8817b9327e4e1f84e1fa064b819a88192e064a37bb037bb0deee37bb537bba064a4b17437bb6064a4f9f4378f605cf4c9f88173e05ce378e0378e0de3a378e5378e605ce4e1f473fe80cec4adf44adf605ce817b4817b5327d4e1f44e1f6064a819a48192a064937ba437ba4deeb37ba937bae06494b17037baa06494f9f0378ea05ce4c9f48173a05cd378d4378d4de37378d9378da05cd4e1f073fe40ceb4adf04adf205cd817b0817b1327c4e1f04e1f20649819a081926064837b9837b98dee837b9d37ba206484b16c37b9e06484f9ec378de05cd4c9f08173605cc378c8378c8de34378cd)
  (.lf 0)) (.nd (.lf
  0x1563c55911564115645b4ab53cac15641b4ab55cac6d2adb4aa1563015630558e1563515639b4aa53ca815635b4aa55ca851ca9b4aa6d3246d2a9b4a91562415624558b156291562db4a953ca415629b4a955ca464d89472957ca451ca5b4a96d3206d2a5b4a8156181561855881561d15621b4a853ca01561db4a855ca06d2a1b4a71560c1560c55851561115611b4a755c9c53bf0038b439e8439e90e9a43ae9438e8036b00d2c43ae8038b00d2c00d2d933664d5408c49933651c7064cd9933508c3408c34230f08c3953be80389439e0439e10e9843ae143ae0038900d24438e0036900d2400d25933464d4c53bec038a439e4439e50e9943ae508c39933557c6c438e4036a00d2843ae4038a00d2800d29933564d5008c3d933551c6c64cd5933408c2808c28230c08c2d08c2d933457c6808c31933451c6864cd1933308c1c64d75472457c9015615b4a753c9c64d81472757c9c51c9db4a76d3186d29db4a6156001560055821560515609b4a653c9815605b4a655c9864d7d472657c9851c99b4a66d3146d299b4a5155f4155f4557f155f9155fdb4a553c94155f9b4a555c946d295b4a4155e8155e8557c155ed155edb4a455c90155f1b4a453c90)
  (.lf 0)))

def shaGateTree180 : BTree :=
  .nd (.nd (.nd (.lf
  0x53765ea337a9487a8cdea322d41c2d41cb5092d4212d425ea32557602d421ea325776053761ea327a9447a8c9ea312d4102d410b5062d4152d419ea315575c2d415ea315775c5375dea317a9407a8c5ea302d4042d404b5032d4092d40dea30557582d409ea305775853759ea307a93c7a8c1ea2f2d3f82d3f8b5002d3fd2d401ea2f557542d3fdea2f5775453755ea2f7a9387a8bdea2e2d3ec2d3ecb4fd2d3f12d3f5ea2e557502d3f1ea2e5775053751ea2e7a9347a8b9ea2d2d3e02d3e0b4fa2d3e52d3e9ea2d5574c2d3e5ea2d5774c5374dea2d7a9307a8b5ea2c2d3d42d3d4b4f72d3d92d3ddea2c557482d3d9ea2c5774853749ea2c7a92c5374555d1577447a8b155d1577455774411b6430bc7a92d55d2577485774811b7430c07a93155d35774c5774c11b8430c47a93555d4577505775011b9430c87a93955d5577545775411ba430cc7a93d55d6577585775811bb430d07a94155d75775c5775c11bc430d47a94555d8577605776011bd430d87a94955d9577645776411be430dc7a94d55da577685776811bf430e07a95155db5776c5776c11a0430e47a95555dc577705777011a1430e87a95955dd577745777411a2430ec7a95d55de57778)
  (.lf 0)) (.nd (.lf
  0x1f4447d131f4491f44dcaad5c6981f449caad5e6985a709caad72b3072ab5caac1f4381f4387d101f43d1f441caac5c6941f43dcaac5e6945a705caac72b2c72ab1caab1f42c1f42c7d0d1f4311f435caab5c6901f431caab5e69072aadcaaa1f4201f4207d0a1f4251f429caaa5c68c3f07009ed027346060c0a0d3f0f03f0f009cd3f171677fd49de587780c8e19da3021386768d9da20c8d00c8d032360c8d50c8d99da258778027359da2677046770561de021341f2907ca21f2841f2847ca258779587787ca25a6fc5a6fdcaaa72b241f425caaa5e68c72aa9caa91f4141f4147d071f4191f41dcaa95c6883f06c09ec02730606080a0c3f0ec3f0ec09cc3f16d0c8d59da202134676899da10c8c40c8c432330c8c9677f949dd587740c8cd9da158774027319da1677006770161dd021301f2887ca01f27c1f27c7ca058775587747ca05a6f8677f149db5876c1f419caa95e6885a6f9caa972b2072aa5caa81f4081f4087d041f40d1f411caa85c6843f06809eb0272c606040a0b3f0e83f0e809cb3f1691f2807ccf1f270677f549dc587700c8c99da102130676859da00c8b80c8b832300c8bd0272d9da0676fc0c8c19da058770676fd61dc0212c)
  (.lf 0))) (.nd (.nd (.lf
  0x75be40dcb4b1700372da560695fc69581a55f0f5ac0f5ac3d6d0f5b10f5b5a55f58f6c24a81d6da4b17075b69d6d924a7024a70929e24a7524a79d6d90372824a75d6d94b16c5cc81d6d975be075b65d6d824a6424a64929b24a6924a6dd6d80372424a69d6d84b1685cc7dd6d875bdc75b61d6d724a5824a58929824a5d24a61d6d70372024a5dd6d74b1645cc79d6d775bd875b5dd6d624a4c24a4c929524a5124a55d6d60371c5cc75d6d675bd475bd40dc74b1600371da55c695ec75bd80dc84b16403721a55d695f00f5b1a55f0312875be00dca4b16c03729a55f695f86957da55e0f5a075bdc0dc94b16803725a55e695f40f5a03d6a0f5a50f5a9a55e58f680f5a5a55e0312469579a55d0f5940f5943d670f5990f59da55d58f640f599a55d0312069575a55c0f5880f5883d640f58d0f591a55c58f600f58da55c0311c69571a55b0f57c24a51d6d64b16075b59d6d524a4024a40929224a4524a49d6d5037185cc71d6d575bd075bd00dc64b15c03719a55b695e80f57c3d610f5810f581a55b031180f585a55b58f5c6956da55a0f5700f5703d5e0f5750f575a55a031140f579a55a58f586963163e9031606962563e6031546962163e503150)
  (.lf 0)) (.nd (.lf
  0x4ef1929100639c0636d290d4a42c06371290e4a43006375290f4a4340637929104a4380637d28f14a43c0638128f24a4406f0c0067d4a4386f0c8067f4a4404a441f7597dde07dd65f7583255832558c9583255d3255df7584d83c6f0c4067e4a43c4a43df7587dddc32561f7584c03c7dd61f7573254c3254cc9553255132551f7574d8384a439f7577ddd832555f7574c0387dd5df7563254032540c9523254532545f7564d83432549f7564c0346f0bc067c4a4344a435f7567ddd47dd59f7553253432534c94f325393253df7554c03031ec5f64b4a6687d92df64a31eb031eb0c7ae31eb531eb9f64a4a66431eb5f64a4eee44d6e5f64a7d9a47d929f64931ea431ea4c7ab31ea931eadf6494a66031ea9f6494eee04d6e1f6497d9a07d925f64831e9831e98c7a831e9d31ea1f6484a65c4d6ddf6487d99c31e9df6484eedc7d921f64731e8c31e8cc7a531e9131e91f6474eed84d6d9f6477d99831e95f6474a6587d91df64631e8031e80c7a231e8531e85f6464eed44d6d5f6467d9947d99529954eed44eed528ff063587d99929964eed84eed929000635c7d99d29974eedc4eedd2901063607d9a129984eee04eee12902063647d9a529994eee4)
  (.lf 0)))

def shaGateTree181 : BTree :=
  .nd (.nd (.nd (.lf
  0x29135e0855d1b878215e0842912029120a44a2912529125e0845f1b428f60a3f328f5028f50a3d628f5528f54a3f35b1d4592a0a3f3290102901000005b1d65b1d5e0847828c7828d746d5f1b45f1b5e1007847c78401e0ff293e4293e4a4fb293e9293ede0ff611b0293e9e0ff631b029129e0845d1b478211e0832911429114a4472911929119e0835f1b028f58000028fce28fcca3f228f4428f44a3d328f4928f48a3f25b1d05929ca3f22900c2900c00005b1d25b1d1e0837828878289746c5f1b05f1b1e0ff78478783fde0fe293d8293d8a4f8293dd293e1e0fe611ac293dde0fe631ac2911de0835d1b07820de0822910829108a4442910d2910de0825f1ac28f4c000028fca28fc8a3d028f3c28f3ca3d05929959298a3d05b1cc5b1cde0827828478285746b5f1ac5f1ade0fe78474783f9e0fd293cc293cca4f5293d1293d5e0fd611a8293d1e0fd631a829111e0825d1ac78209e081290fc290fca4412910129101e0815f1a828f40a3f128f3028f30a3ce28f3528f34a3f15b1c859294a3f1290082900800005b1ca5b1c9e0817828078281746a5f1a85f1a9e0fd78470783f5e0fc293c0293c0a4f2293c5293c9e0fc611a4293c5e0fc631a4)
  (.lf 0)) (.nd (.lf
  0x7f171fc5b341fc341fcd0813420134205fc5b4c3704a771fc5b7f1e87f1e930dc4db704c371fc997f2e07f265fc983435834358d0d83435d34361fc984af6c3435dfc9850b6c34201fc5b4db707f16dfc5a341f0341f0d07e341f5341f9fc5a4c36c4a76dfc5a7f1e47f1e530db4db6c4c36dfc987f2dc7f261fc973434c3434cd0d53435134355fc974af6834351fc9750b68341f5fc5a4db6c7f169fc59341e4341e4d07b341e9341edfc594c3684a769fc597f1e07f1e130da4db684c369fc977f2d87f25dfc963434034340d0d23434534349fc964af6434345fc9650b64341e9fc594db687f165fc58341d8341d8d078341dd341e1fc584c3644a765fc587f1dc7f1dd30d94db644c365fc967f2d47f259fc953433434334d0cf343393433dfc954af6034339fc9550b60341ddfc584db647f161fc57341cc341ccd075341d1341d5fc574c3604a761fc577f1d87f1d930d84db604c361fc957f2d07f255fc943432834328d0cc3432d34331fc944af5c3432dfc9450b5c341d1fc574db607f15dfc56341c0341c0d072341c5341c9fc564c35c4a75dfc567f1d47f1d530d74db5c4c35dfc947f2cc7f251fc933431c3431cd0c93432134325fc934af58)
  (.lf 0))) (.nd (.nd (.lf
  0x380f6073a4e2d40dd91a13c52ad8684f1a13b0dd7c0dd7c37610dd810dd81a13b58ad402a91a13b68568685694ab558ad4226fdd1c40349474711d1c3226e8226e889bc226ed226edd1c34aed422591d1865e9ec74619d185225802258089622258522589d1855c9e8223f00000224ee224ec893a223dc223dc88f9223e1223e0893a5aa4458ad4893a225242252400005aa465aa45d1857469074691727a5e9e85c9e9d1c374788747880d244aed44aed6073a81d6481d6532b54e2d44e2d607b681f5481eda07b5383b4383b4e0ef383b9383be07b54b250383ba07b54fad0380fa073a4cad481cea0739380e4380e4e03b380e9380ea07394e2d00dd85a13b52ad4684eda13a0dd700dd70375e0dd750dd75a13a58ad002a8da13a68564685654ab458ad0226f1d1c3034907470dd1c2226dc226dc89b9226e1226e1d1c24aed022585d1855e9e874615d1842257422574895f225792257dd1845c9e4223e40000224ea224e888f6223d4223d488f658ad158ad088f65aa405aa41d1847468c7468d72795e9e45c9e5d1c274784747840d234aed04aed2073981d6081d6132b44e2d04e2d207b581f5081ed607b4383a8383a8e0ec383ad383b207b44b24c)
  (.lf 0)) (.nd (.lf
  0x2efacbbed2efb12efb1ee1f501a82efb5ee1f4a5a87b87dee1e2efa02efa0bbea2efa52efa5ee1e501a42efa9ee1e4a5a47b7f12e664d1984b999ee1b7b8e87b7fd2e694d1a47b7f92e684d1a04b9a5ee1e7b8f47b879ee1d2ef942ef94bbe72ef992ef9dee1d4a5a02ef99ee1d501a04b9a1ee1d7b8f07b875ee1c2ef882ef88bbe42ef8d2ef91ee1c4a59c7b7f52e674d19c4b99dee1c7b8ec2ef8dee1c5019c7b871ee1b2ef7c2ef7cbbe12ef812ef85ee1b4a5982ef81ee1b501987b86dee1a2ef702ef70bbde2ef757b7ed2e654d1944b995ee1a7b8e42ef79ee1a4a5942ef75ee1a501947b869ee192ef642ef64bbdb2ef692ef69ee19501907b7e92e644d1904b991ee197b8e02ef6dee194a5907b865ee182ef582ef58bbd82ef5d2ef5dee185018c7b7dd2e614d1844b985ee167b8d42ef61ee184a58c7b7e52e634d18c4b98dee187b8dc7b861ee172ef4c7b7e12e624d1882ef4cbbd52ef512ef55ee174a5882ef51ee17501884b989ee177b8d87b85dee162ef402ef40bbd22ef452ef45ee16501847b7d92e604d1804b981ee157b8d02ef49ee164a5847b859ee152ef342ef34bbcf2ef392ef3dee154a5802ef39ee15501807b855ee142ef28)
  (.lf 0)))

def shaGateTree182 : BTree :=
  .nd (.nd (.nd (.lf
  0x3d1f80f5a03d543d1fc0f5b03d583d2000f5c03d5c3d2040f5d03d603d2080f5e03d643d20c0f5f03d683d2100f4003d6c3d2140f4103d703d2180f4203d743d21c0f4303d783d2200f4403d7c3d2240f4503d003d2280f4603d043d22c0f4703d083d2300f4803d0c3d2340f4903d103d2380f4a03d1440c3c0f6003d0040c400f6103d0440c440f6203d0840c480f6303d0c40c4c0f6403d1040c500f6503d1440c540f6603d1840c580f6703d1c40c5c0f6803d2040c600f6903d2440c640f6a03d2840c680f6b03d2c40c6c0f6c03d3040c700f6d03d3440c740f6e03d3840c780f6f03d3c40c7c0f7003d4040c800f7103d4440c840f7203d4840c880f7303d4c40c8c0f7403d5040c900f7503d5440c940f7603d5840c980f7703d5c40c9c0f7803d6040ca00f7903d6440ca40f7a03d6840ca80f7b03d6c40cac0f7c03d7040cb00f7d03d7440cb40f7e03d7840cb80f7f03d7c613d80f8040cbc613dc0f8140cc0613e00f8240cc4613e40f8340cc8613e80f8440ccc613ec0f8540cd0613f00f8640cd4613f40f8740cd8613f80f8840cdc613fc0f8940ce0614000f8a40ce4614040f8b40ce8614080f8c40cec6140c0f8d40cf0614100f8e40cf4)
  (.lf 0)) (.nd (.lf
  0x71b89712a5e4a85c4a9c70171c8071b91712c5e4b01d9a5c703027581d9a1c7034a99c1d821c6c35e4a871b0dc6c21d8101d81076061d8151d819c6c25c4a45a521c6c271b845c4b1c70371c8871c0dc7021d9901d99076661d9951d999c702027541d995c7024a9985c4adc70271c8471c09c7011d9841d98476631d9891d98dc701027501d989c7014a99471c05c7001d9781d97876601d97d1d981c7000274c71b8571295e4a41d97dc7004a9905c4a5c70071c7c71c01c6ff1d96c41e50075201d1c0bf499bf65259066fd99bf50bf340bf342fcf0bf3945404077201d485450c0792455044550515614560545604079201d4801d499bf5670506705149635858c66f59616301f480bf399bf55858c1d69875a41d68c1d68c75a45858d5858c75a45a51c66f55616201f441d691c6a91d6801d68075a21d6851d685c6a95a51841e4c075101d180bf3d9bf55258c66fd59bf40bf280bf282fcc0bf2d0bf2d9bf45858845400077101d44545080791455004550115604560145600079101d4401d459bf46704c6704d49625858858589c6a91d71c1d688000071aa671aa4759f1d67841e48075001d140bf319bf45258866fd19bf30bf1c0bf1c2fc90bf21)
  (.lf 0))) (.nd (.nd (.lf
  0x82af52d154fcd44fcd52c7f06cf882af92d164fcd84fcd92c8006cfc82afd2d174fcdc4fcdd2c8106d0082b012d184fce04fce12c8206d0482b052d194fce44fce52c8306d0882b092d1a4fce84fce92c8406d0c82b0d2d1b4fcec4fced2c8506d1082b112d1c4fcf04fcf12c8606d1482b152d1d4fcf44fcf52c8706d1882b192d1e4fcf84fcf92c8806d1c82b1d2d1f4fcfc4fcfd2c8906d2082b212d204fd004fd012c8a06d2482b252d214fd044fd052c8b06d2882b292d224fd084fd092c8c06d2c82b2d2d234fd0c4fd0d2c8d06d3082b312d244fd104fd112c8e06d3482b352d254fd144fd152c8f06d3882b392d264fd184fd192c9006d3c06ce92c844b20806ced2c854b20c06cf12c864b21006cf52c874b21406cf92c884b21806cfd2c894b21c06d012c8a4b22006d052c8b4b22406d092c8c4b22806d0d2c8d4b22c06d112c8e4b23006d152c8f4b23406d192c904b23806d1d2c714b23c06d212c724b24006d252c734b1c406d292c744b1c806d2d2c754b1cc06d312c764b1d006d352c774b1d406d392c784b1d806d3d2c794b1dc82b3d2d274fd1c4fd1d2c7a4b1e082b412d284fd204fd212c7b4b1e482b452d294fd244fd252c7c4b1e8)
  (.lf 0)) (.nd (.lf
  0x7d3192a8850620506212a6b04ea47d31d2a8950624506252a6c04ea87d3212a8a50628506292a6d04eac7d3252a8b5062c5062d2a6e04eb07d3292a8c50630506312a6f04eb47d32d2a8d50634506352a7004eb804e492a634a96004e4d2a644a96404e512a654a96804e552a664a96c04e592a674a97004e5d2a684a97404e612a694a97804e652a6a4a97c04e692a6b4a98004e6d2a6c4a98404e712a6d4a98804e752a6e4a98c04e792a6f4a99004e7d2a704a99404e812a514a99804e852a524a99c04e892a534a9a004e8d2a544a9a404e912a554a9a804e952a564a9ac04e992a574a9b004e9d2a584a9b404ea12a594a9b804ea52a5a4a9bc04ea92a5b4a9c004ead2a5c4a94404eb12a5d4a94804eb52a5e4a94c04eb92a5f4a9507d3312a8e50638506392a604a9547d3352a8f5063c5063d2a614a9587d3392a9050640506412a624a95c51e39b7966ded451e41b7986dedc6de61b79716c6c16c6c5b1d16c7151e35b7956ded051e3db7976ded816c75b79753e3c16c71b79755e3c6de5db79616c6016c605b1a16c6516c69b79653e3816c65b79655e386de59b79516c5416c545b1716c5916c5db79553e3416c59b79555e346de55b79416c48)
  (.lf 0)))

def shaGateTree183 : BTree :=
  .nd (.nd (.nd (.lf
  0x8218400945139451394007705ad48218800955139851398007805ad88218c00965139c5139c007905adc821900097513a0513a0007a05ae0821940098513a4513a4007b05ae4821980099513a8513a8007c05ae88219c009a513ac513ac007d05aec821a0009b513b0513b0007e05af0821a4009c513b4513b4007f05af405a8400720019c05a880073001a005a8c0074001a405a900075001a805a940076001ac05a980077001b005a9c0078001b405aa00079001b805aa4007a001bc05aa8007b001c005aac007c001c405ab0007d001c805ab4007e001cc05ab8007f001d005abc0060001d405ac00061001d805ac40062001dc05ac80063001e005acc0064001e405ad00065001e805ad40066001ec05ad80067001f005adc0068001f405ae00069001f805ae4006a001fc05ae8006b0018005aec006c0018405af0006d0018805af4006e0018c821a8009d513b8513b8006f00190821ac009e513bc513bc007000194821b0009f513c0513c00071001984cc420907824988241e090638c0038c00e30238c0538c0a0906002f838c0609065143c4cc3e0906824948241a090538bf438bf4e2ff38bf938bfe0905002f438bfa0905514384cc3a090582490)
  (.lf 0)) (.nd (.lf
  0x1a5c000006feba1a5bdbfae5a1d46feb8696d1a5b01a5b0696d5822958228696d5a1d01a5b4696b1a5a81a5a8696b58225541a406b844a9c44a9d12c744b9d44b9c06b8012e06fa3d50535614c5614c04b841ac45617004a141ae85619c04ac41b1441ae804b8012b441b1404a3012e04499c0698012e0012e19897662d8662d94889582240abe19898522286626198970abcc0abcc2af50abd10aa6d9859582240abd198975822458224696b5a1cc0abd59897522246625d98960abc00abc02af20abc50abc59896582206fa895066561986fa395052561485614804b741ac06fa5d505b5616c5616c04a041ae45619804ab41b1041ae404b7012b041b1004a2012dc449980697012dc541a006b744a9844a9912c644b9944b9806b7012dc012dd9896662d43e5980897019dc600b408b73e6183e61806773e699019dd9858661dc661dd608801bdc0aa69985901be06616598580aa580aa582a980aa5d0aa619858582200aa5d985801bdc6616198570aa4c0aa4c2a950aa510aa5598575821c0abc9989652220662d54888582206625998950abb40abb42aef0abb90abb998955821c1a5ac69691a5a01a5a06969582215822069695a1c81a5a469671a598)
  (.lf 0))) (.nd (.nd (.lf
  0x8147a051d3751437514dd47375193751e051d4c99835a6e00844f61c80212008335a5c35a5cd69935a6135a6600834ad984de1a008380288802892b664f6184ad9a051d814f0814f132664e1984c99a055b815e88156e055a3767037670dd9e376753767a055a0005037676055a511943751a051d4e19881476051c3750837508dd443750d37512051c4c99435a6200834f6188020e008235a5035a50d69635a5535a5a00824ad944de16008280284802852b654f6144ad96051c814ec814ed32654e1944c996055a815e48156a05593766437664dd9b376693766e05590004c3766a0559511903750e051c4e19481472051b374fc374fcdd413750137506051b4c99035a5600824f6148020a008135a4435a44d69335a4935a4e00814ad904de12008180280802812b644f6104ad92051b814e8814e932644e1904c9920559815e08156605583765837658dd983765d376620558000483765e05585118c37502051b4e1908146e051a374f0374f0dd3e374f5374fa051a4c98c35a4a00814f61080206008035a3835a38d69035a3d35a4200804ad8c4de0e00808027c8027d2b634f60c4ad8e051a814e4814e532634e18c4c98e0558815dc8156205573764c)
  (.lf 0)) (.nd (.lf
  0x57ad1b1c01430414304000059abe6c705b1c0141d4141d45077141d9141d9b1c059abc59abdb1d76c7d814375b1d75d9e46c7d96e795d9e45d9e5b2536c9c86c7e16e7b5d9ec5d9edb2556c9d06c955b2541464c1464c51951465114651b254619e814655b2545f9e86c951b253146401464051921464514645b253619e414649b2535f9e46c94db2521463414634518f146391463db2525f9e051ae1b1886c69c51b39b19e6c6f451b41b1a06c6fc6c681b19f141c4141c45073141c9141c9b19f55b3c51b3db19f6c6f8141cdb19f53b3c6c67db19e141b8141b85070141bd141bdb19e55b38141c1b19e53b386c679b19d141ac51b35b19d6c6f0141ac506d141b1141b1b19d55b34141b5b19d53b346c675b19c141a0141a0506a141a551b31b19c6c6ec141a9b19c53b30141a5b19c55b306c671b19b141941419450671419914199b19b55b2c1419db19b53b2c51b2db19b6c6e86c66db19a141881418850641418d1418db19a55b2851b29b19a6c6e414191b19a53b286c669b1991417c1417c50611418114181b19955b2451b25b1996c6e014185b19953b246c665b1981417014170505e1417514179b19853b2051b1db1976c6d814175b19855b20)
  (.lf 0)))

def shaGateTree184 : BTree :=
  .nd (.nd (.nd (.lf
  0x5d5bde8d07a3bc7a3bc1019005642caf5e8d1005687a345e8d02cae42cae4b2bb2cae92caede8d00406404065ae266b9146b915662a00ae412a7dae65538ac6b995ae6412a6812a684a9c12a6d12a6dae64598a804765ae646ba0c6ba0d4e2a598a812911ae2700ae86b89dae2612900129004a421290512909ae26598a8598a8b8775b7bc5b7bdec177b0d87b0d975ef5f7bc5f7bdec937b2c87b24dec922e62c2e62cb98d2e6312e635ec92617b82e631ec92637b82e371ec175d7bc7b05dec162e35c2e35cb8d92e3612e361ec165f7b82e1ddebfa2e1cc2e1ccb8752e1d12e1d1ebfa5b7b82cae9e8d0005647a341e8cf2cad82cad8b2b82cadd2cae1e8cf040605d5b9e8cf7a3b87a3b810180056012a71ae64538a86b991ae6312a5c12a5c4a9912a6112a61ae63598a404761ae636ba086ba094e29598a412905ae2600ae46b899ae25128f4128f44a3f128f9128fdae25598a404061ae256b9106b911662900ae0598a5ebfa2e2382e23800005b7ba5b7b9ec167b0d47b0d575ee5f7b85f7b9ec927b2c47b249ec912e6202e620b98a2e6252e629ec91617b42e625ec91637b42e365ec165d7b87b059ec152e3502e350b8d62e3552e355ec155f7b4)
  (.lf
  0x7a2d901400bbc07a3190144b90064051901307a1c07a1c1e8907a2107a21901300bb807a2590134b8fc84a3d9013640c86404d901207a1007a101e8607a1507a15901200bb407a1990124b8f884a399012640c464049901107a0407a041e8307a09640dd2e4400bcc4b9119056641d407bd19057579946415d905607bc007bc01ef207bc507bc990565199007bc590565799064159905507bb407bb41eef07bb907bb990555798c640cd2e4000bbc4b9019052641c4640d12e4100bc04b9059053641c8640d52e4200bc407bbd90555198c640d92e4300bc84b90d9055641d064155905407ba807ba81eec07bad07bb190545198807bad9054579884b9099054641cc64151905307b9c07b9c1ee907ba107ba190535798407ba59053519846414d905207b9007b901ee607b9507b9590525798007b9990525198064149905107b8407b841ee307b8907b8990515797c640c92e3f00bb807b8d90515197c4b8fd9051641c064145905007b7807b781ee007b7d07b81905051978640c52e3e00bb44b8f99050641bc07b7d90505797864141904f07b6c07b6c1edd07b7164201466f579bc641fd466e579b8519b9aea66bb14642054670579c0519c1aea86bb1c))
  (.nd (.lf
  0x72eadcbaa1fbc81fbc87ef41fbcd1fbcdcbaa5e72c5e72dcc26731141fea1cc266072c73099cc251fe8c1fe8c7fa51fe911fe95cc25607281f9f400001fa7e1fa7c7e7a1f9e41f9e47e7a588150cc059e26021d4678999e250cbf40cbf432ff0cbf90cbfd9e25588143f18c0a14027d0606a80a343f20c3f20c09f43f28d0cd719e6452818679919e630cd5c0cd5c33590cd610cd619e6358814567bc07f442134420d807f401fa445b8c081401fd054794083445c8c45c8d174345d8d45d8c083401fd001fd19e6367a08027d19e2567910679116205021d067a094a0558814588147e7a5a7905a791cba972f2072f2171ca5e7283f1880a13027cc606a40a333f2083f20809f33f2890cd659e63528146798d9e620cd500cd5033560cd550cd559e6258810420d407f301fa045b88081301fcc54790083345c8845c89174245d8945d88083301fcc01fcd9e6267a04027cd9e246790c6790d6204021cc67a054a04588100cbf99e25021d0678959e240cbe80cbe832fc0cbed0cbf19e2458810588107e9e1fac03f1840a12027c8606a00a323f2043f20409f23f2850cd599e6252810679899e610cd440cd4433530cd490cd499e615880c420d007f201f9c)
  (.lf 0))) (.nd (.nd (.lf
  0x76f880e6f4b4004b4020e8983aa083aa134004e8004e8020f0583c9083c160f043ae683ae68eb9c3ae6d3ae720f04002383ae6e0f044fffc3abae0e894d00083a260e883ab983ab98eae83ab9d3ab9e0e884e7fc3699203275100080c9e03263698036980da62369853698a03264b3fc4c7fe032680d1480d152cff50ffc697f963ff031b8698f14bff58ffc26e4ddbc3039bc76f0ddbc226e3826e389b9026e3d26e3ddbc24b3fc26ce1db855ef1476e15db8426cd026cd09b3626cd526cd9db845cf1026b24000026bd626bd49ac626b1426b149ac658ffd58ffc9ac65af405af41db8476e8c76e8d73c45ef105cf11dbc276f8476f840e6e4b3fc4b3fe0e8883a9c83a9d33ff4e7fc4e7fe0f0483c8c83c120f033ae5c3ae5ceb993ae613ae660f03002343ae620f034fff83aba20e884cffc83a220e873ab8c3ab8ceae53ab913ab920e874e7f836986032650ffc80c9a03253697436974da5f369793697e03254b3f84c7fa032580d1080d112cfe50ff8698ed4bfe58ff8697f563fe031b426e41dbc2039b876f09dbc126e2c26e2c9b8d26e3126e31dbc14b3f826cd5db845ef1076e11db8326cc426cc49b3326cc926ccddb835cf0c26b189ac426b0c)
  (.lf 0)) (.nd (.lf
  0x65c5d97160a2c00a2c028b20a2c50a2c59716580700a18d96dc01a3c65b7196db0a17c0a17c28610a1813bcc8060e018243e274062e018385ff10064e3e2f43e2f4060e3e3750183996db65be865be9601f01a38419b4044b01100444e8046b0112c53ff0048b445e8445e9119a446e9446e8048b0112c0112d971665cd40a18596db5807c0a18196db01a3865b6d96da0a1700a170285e0a1750a17596da01a343bcbc060b018183bcc0060c0181c3bcc4060d018201906c641d1907119071bcb25a03865ce1481f5807c5807dbcb2191281907400006f2ca6f2c9bcb11906019060641a190650a17996da580783e26c062c018303e270062d018345ff08064c3e2ec5ff0c064d3e2f03e2ec060c3e36d3e2f0060d3e3710183596da65be465be5601e01a340183196d965be065be1601d01a3065cdd481e5807858079bcb11912419065bcb15a0341906800006f2c66f2c46417190581905864175807565cd9481d5807465b6996d90a1640a164285b0a1690a16d96d9580745807464175a0301905dbcb01904c1904c6415190510a16996d901a3065b6596d80a1580a15828580a15d0a16196d8580703e268062b0182c5ff04064b3e2e83e2e8060b3e369)
  (.lf 0)))

def shaGateTree185 : BTree :=
  .nd (.nd (.nd (.lf
  0x784e1e1372950429504a543295092950de1375530429509e1375730453305e13778558784dde136294f8294f8a540294fd29501e13655300294fde1365730053301e13678554784d9e135294ec294eca53d294f1294f5e135552fc294f1e135572fc532fde13578550784d5e134294e0294e0a53a294e5294e9e134552f8294e5e134572f8532f9e1347854c784d1e133294d4294d4a537294d9294dde133552f4294d9e133572f4532f5e13378548784cde132294c8294c8a534294cd294d1e132552f0294cde132572f0532f1e13278544784c9e131294bc294bca531294c1294c5e131552ec294c1e131572ec532ede13178540784c5e130294b0294b0a52e294b5294b9e130552e8294b5e130572e8532e9e1307853c784c1e12f294a4294a4a52b294a9294ade12f552e4294a9e12f572e4532e5e12f78538784bde12e2949829498a5282949d294a1e12e552e02949de12e572e0532e1e12e78534784b9e12d2948c2948ca5252949129495e12d552dc29491e12d572dc532dde12d78530784b5e12c2948029480a5222948529489e12c552d829485e12c572d8532d9e12c7852c784b1e12b2947429474a51f294792947de12b552d429479e12b572d4)
  (.lf 0)) (.nd (.lf
  0x34868d21c3486d34871fd644b0343486dfd6450c3434711fd274dc387f49dfd263470034700d1c23470534709fd264c4344a835fd267f5147f515310d4dc344c435fd647f60c7f591fd633485c3485cd2193486134865fd634b03034861fd6350c3034705fd264dc347f499fd25346f4346f4d1bf346f9346fdfd254c4304a831fd257f5107f511310c4dc304c431fd637f6087f58dfd623485034850d2163485534859fd624b02c34855fd6250c2c346f9fd254dc307f495fd24346e8346e8d1bc346ed346f1fd244c42c4a82dfd247f50c7f50d310b4dc2c4c42dfd627f6047f589fd613484434844d213348493484dfd614b02834849fd6150c28346edfd244dc2c7f491fd23346dc346dcd1b9346e1346e5fd234c4284a829fd237f5087f509310a4dc284c429fd617f6007f585fd603483834838d2103483d34841fd604b0243483dfd6050c24346e1fd234dc287f48dfd22346d0346d0d1b6346d5346d9fd224c4244a825fd227f5047f50531094dc244c425fd607f5fc7f581fd5f3482c3482cd20d3483134835fd5f4b02034831fd5f50c20346d5fd224dc247f489fd21346c4346c4d1b3346c9346cdfd214c4204a821fd217f5007f50131084dc20)
  (.lf 0))) (.nd (.nd (.lf
  0x821c2086f387ec387ece1fd387f1387f6086f4b2d0387f2086f4fb503853207f44cb5481fd207f33851c3851ce149385213852207f34e3500e055a1b752b540330da1786865c6865d62d402d0c686dda1b60e0400e04038120e0450e045a1b658b5002b0da1b668754687554ad458b500dee1a17858b5022e7dd2bb0351074aedd2ba22e6822e688b9c22e6d22e6dd2ba4af5022d11d27d5ea68749f5d27c22d0022d008b4222d0522d09d27c5ca6422b1c8ac522b1022b108ac558b5158b508ac55aac05aac1d27c74a6c74a6d72995ea645ca65d2ba74b6474b640d434af504af5207f3820488204932d44e3504e352086f82238821be086e387e0387e0e1fa387e5387ea086e4b2cc387e6086e4fb4c3852607f34cb5081fce07f23851038510e146385153851607f24e34c0dedda17802d0c685e1a1770decc03309a177686586865962d302d080decc37b50ded10e049a1b652b500ded5a17758b4c686d9a1b50e0340e034380f0e0390e039a1b558b4c22e71d2ba0350c74ae9d2b922e5c22e5c8b9922e6122e61d2b94af4c22d05d27c5ea64749f1d27b22cf422cf48b3f22cf922cfdd27b5ca6022b148b0f22b0422b048ac322b0922b088b0f5aabc)
  (.lf 0)) (.nd (.lf
  0x2f981efd04a2244d2a5efd07bfbc2f97defd04eaa47bf41efcf2f96c2f96cbe5d2f9712f975efcf4a2204d279efc57bf902f971efcf4eaa04d2a1efcf7bfb87bf3defce2f9602f960be5a2f9652f965efce4ea9c4d29defce7bfb42f969efce4a21c7bf39efcd2f9542f954be572f9592f959efcd4ea982f95defcd4a2184d299efcd7bfb07bf35efcc2f9484d295efcc7bfac2f948be542f94d2f951efcc4a2142f94defcc4ea947bf31efcb2f93c2f93cbe512f9412f941efcb4ea902f945efcb4a2104d291efcb7bfa87bf2defca2f9302f930be4e2f9352f935efca4ea8c4d28defca7bfa42f939efca4a20c7bf29efc92f9242f924be4b2f9292f92defc94a2084d285efc87bf9c2f929efc94ea884d289efc97bfa07bf25efc82f9182f918be482f91d2f921efc84a2042f91defc84ea847bf21efc72f90c2f90cbe452f9112f915efc74a2004d27defc67bf942f911efc74ea804d281efc77bf987bf1defc62f9002f900be422f9052f905efc64ea7c2f909efc64a1fc7bf19efc52f8f42f8f4be3f2f8f92f8fdefc54a1f82f8f9efc54ea787bf15efc42f8e82f8e8be3c2f8ed2f8f1efc44a1f44d269efc17bf802f8edefc44ea744d275efc47bf8c)
  (.lf 0)))

def shaGateTree186 : BTree :=
  .nd (.nd (.nd (.lf
  0x486a521c9487a5486a921ca487a9486ad21cb487ad486b121cc487b1486b521cd487b5486b921ce487b94873c11600448048740116104484487441162044884874811630448c4874c11640449048750116504494487541166044984875811670449c4875c1168044a0487601169044a448764116a044a848768116b044ac4876c116c044b048770116d044b448774116e044b848778116f044bc4877c1170044c0487801171044c4487841172044c8487881173044cc4878c1174044d0487901175044d4487941176044d8487981177044dc4879c1178044e0487a01179044e4487a4117a044e8487a8117b044ec487ac117c044f0487b0117d044f4487b4117e044f8487b8117f044fc5d355e3c578f9078f900f7f002fc044fdabfe6b0746b0754d905964003dfdabc06af7c6af7d6590046fc59641e7712c1542c15400005b5565b555e79079ebc79ebd75555f5545f555e80c7a0ac7a031e80b2c5842c584b1632c5892c58de80b615502c589e80b6355079e41e78f2c2b42c2b4b0af2c2b92c2b9e78f5f55079dc4b0482c11c2c11cb0485963d5d351e3c478f8c78f8c0f7e002f878f15e3c42a8482a848aa142a84d2a851e3c403df803df9abbf6af78)
  (.lf 0)) (.nd (.lf
  0x4569515c5457954579407b601dd801dd99c75672500c2399c755861c671d59c740c2280c228308c0c22d0c22d9c74586186725149875861c6724d49865861867159618701fd85861c77811de341de3400005a5aa1dd9877815a5a85a5a9c7bd71f701df49c7bd5c53071ef5c7bc1df341de0477641dd8c1dd8c77645861967155618601fd45861877645a5a45a5a5c7bc71f6c1df3477cf1df391df39c7bc5e52c1df3dc7bc5c52c71ef1c7bb1df281df2877cc1df2d0c2319c7452618671d19c730c21c0c21c30890c2210c2259c7352614565bc077441f3441ed8077401da44558c079401dd05459407b44568c4568d15c34578d4578c07b401dd001dd19c73672480c2219c7358614671cd9c720c2100c21030860c2150c2159c72586103ed880993025cc3ed8c0994025d0604a409b33ee08604a809b43ee0c3ee0809733ee893ee0c09743ee8d0c0c59c3601fd4670d99c350c0b40c0b4302f0c0b90c0b99c3501fd00c0bd9c3558614025d19c35671506724949855861441ed4077301da045588079301dcc5459007b3456884568915c2457894578807b301dcc01dcd9c726724467245498458610670d59c340c0a80c0a8302c0c0ad0c0b19c3458610)
  (.lf 0))) (.nd (.nd (.lf
  0x2465891982465d24661d64e54d782465dd64e56d7852d79d64e759b475939d64d2464c2464c91952465124655d64d54d7424651d64d56d7452d75d64d759b075935d64c246402464091922464524649d64c54d7024645d64c56d7052d71d64c759ac75931d64b2463424634918f246392463dd64b54d6c24639d64b56d6c52d6dd64b759a87592dd64a2462824628918c2462d24631d64a54d682462dd64a56d6852d69d64a759a475929d6492461c2461c91892462124625d64954d6424621d64956d6452d65d649759a075925d648246102461091862461524619d64854d6024615d64856d6052d61d6487599c75921d64724604246049183246092460dd64754d5c24609d64756d5c52d5dd647759987591dd646245f8245f89180245fd24601d64654d58245fdd64656d5852d59d6467599475919d645245ec245ec917d245f1245f5d64554d54245f1d64556d5452d55d6457599075915d644245e0245e0917a245e5245e9d64454d50245e5d64456d5052d51d6447598c75911d643245d4245d49177245d9245ddd64354d4c245d9d64356d4c52d4dd643759887590dd642245c8245c89174245cd245d1d64254d48245cdd64256d4852d49d64275984)
  (.lf 0)) (.nd (.lf
  0x4bea9f5637d608319e5f5634aaa87d50d2fa94d6a47d58df562319d0319d0c676319d5319d9f5624aaa4319d5f562506a44bea5f5627d6047d589f561319c4319c4c673319c9319c9f561506a0319cdf5614aaa07d5092fa84d6a04bea1f5617d6007d585f560319b8319b8c670319bd319c1f5604aa9c319bdf5605069c7d4fd2fa54d6944be95f55e7d5f44be9df5607d5fc7d581f55f319ac319acc66d319b1319b5f55f4aa98319b1f55f506984be99f55f7d5f87d57df55e319a0319a0c66a319a5319a5f55e50694319a9f55e4aa947d579f55d3199431994c667319993199df55d4aa9031999f55d506904be91f55d7d5f07d575f55c3198831988c6643198d3198df55c5068c4be8df55c7d5ec31991f55c4aa8c7d571f55b3197c3197cc6613198131981f55b506887d4f12fa24d6884be89f55b7d5e831985f55b4aa887d56df55a3197031970c65e319757d4ed2fa14d6844be85f55a7d5e431975f55a5068431979f55a4aa847d569f5593196431964c65b319693196df5594aa804be81f5597d5e031969f559506807d565f558319587d4e52f9f4d67c4be7df5587d5dc31958c6583195d31961f5584aa7c3195df5585067c7d561f5573194c)
  (.lf 0)))

def shaGateTree187 : BTree :=
  .nd (.nd (.nd (.lf
  0x3a220e88a3a2253a22a0cde000d83a2260cde4fe9c4e69e0cde833f48337a0cdd3a2143a214e8873a2193a21e0cdd000d43a21a0cdd4fe984e69a0cdd833f0833760cdc3a2083a208e8843a20d3a2120cdc000d03a20e0cdc4fe944e6960cdc833ec833720cdb3a1fc3a1fce8813a2013a2060cdb000cc3a2020cdb4fe904e6920cdb833e88336e0cda3a1f03a1f0e87e3a1f53a1fa0cda000c83a1f60cda4fe8c4e68e0cda833e48336a0cd93a1e43a1e4e87b3a1e93a1ee0cd9000c43a1ea0cd94fe884e68a0cd9833e0833660cd83a1d83a1d8e8783a1dd3a1e20cd8000c03a1de0cd84fe844e6860cd8833dc833620cd73a1cc3a1cce8753a1d13a1d60cd7000bc3a1d20cd74fe804e6820cd7833d88335e0cd63a1c03a1c0e8723a1c53a1ca0cd6000b83a1c60cd64fe7c4e67e0cd6833d48335a0cd53a1b43a1b4e86f3a1b93a1be0cd5000b43a1ba0cd54fe784e67a0cd5833d0833560cd43a1a83a1a8e86c3a1ad3a1b20cd4000b03a1ae0cd44fe744e6760cd4833cc833520cd33a19c3a19ce8693a1a13a1a60cd3000ac3a1a20cd34fe704e6720cd3833c88334e0cd23a1903a190e8663a1953a19a0cd2000a83a1960cd24fe6c4e66e0cd2833c4)
  (.lf 0)) (.nd (.lf
  0xae302b8e0ae350ae39990a522800ae35990a582806642999090ae240ae242b8b0ae290ae2999095827c0ae2d99095227c01a399909664a06642599080ae180ae182b880ae1d41bb4068b01a0044ae806ab01a2c541f006cb44be844be9131a44ce944ce806cb01a2c01a2d99066649441b3c068d01a0841bb8068c01a0444af006ad01a34541f806cd44bf044bf1131c44cf144cf006cd01a3401a3599086649c0ae1d9908582780ae219908522786642199070ae0c0ae0c2b850ae110ae1199075827444aec06ac01a30541f406cc44bec44bed131b44ced44cec06cc01a3001a319907664980ae159907522746641d99060ae000ae002b820ae050ae099906522700ae059906582706641999050adf40adf42b7f0adf90adfd99055226c44ae406aa01a28541ec06ca44be444be5131944ce544ce406ca01a2801a299905664900adf999055826c6641599040ade80ade82b7c0aded0aded9904582680adf199045226844ae006a901a24541e806c944be044be1131844ce144ce006c901a2401a2599046648c6641199030addc0addc2b790ade10ade59903522645e155c04d701b070135c04c1aa545e151c04c701ac5e141c0487019c1aa546a971aa59)
  (.lf 0))) (.nd (.nd (.lf
  0x811bd32334e0cc4e0ce04cc813ac8133204cb372bc372bcdcb1372c1372c604cb4b048372c204cb4f8c83700204504c8cc81142044f36fec36fecdbfd36ff136ff2044f4e0c84acca044f811b8811b932324e0c84e0ca04cb813a836ff6044f4c8c85c7d80ca04acc44acc532314e0c48113d32314e0c54e0c52c114f8c48132d2c114f8c54f8c52b7b06a28813a92c124f8c84f8c92b7c06a2c813ad2c134f8cc4f8cd2b7d06a30813b12c144f8d04f8d12b7e06a34813b52c154f8d44f8d52b7f06a38813b92c164f8d84f8d92b8006a3c813bd2c174f8dc4f8dd2b8106a40813c12c184f8e04f8e12b8206a44813c52c194f8e44f8e52b8306a48813c92c1a4f8e84f8e92b8406a4c813cd2c1b4f8ec4f8ed2b8506a50813d12c1c4f8f04f8f12b8606a54813d52c1d4f8f44f8f52b8706a58813d92c1e4f8f84f8f92b8806a5c813dd2c1f4f8fc4f8fd2b8906a60813e12c204f9004f9012b8a06a64813e52c214f9044f9052b8b06a68813e92c224f9084f9092b8c06a6c813ed2c234f90c4f90d2b8d06a70813f12c244f9104f9112b8e06a74813f52c254f9144f9152b8f06a78813f92c264f9184f9192b9006a7c06a292b844ae0806a2d2b854ae0c)
  (.lf 0)) (.nd (.lf
  0x13efdb123014786c48db12213ee813ee84fbc13eed13ef1b122014745b9cdb1226c50413eedb12249eb86c489b12113edc13edc4fb913ee113ee1b12149eb413ee5b121014705b9c9b1216c5006c485b12013ed05b9c5b1206c4fc5b9c1b11f6c4f813ed04fb613ed513ed5b12049eb013ed9b1200146c6c481b11f13ec413ec44fb313ec913ec9b11f49eac13ecdb11f014686c47db11e13eb813eb84fb013ebd13ec1b11e014645b9bdb11e6c4f413ebdb11e49ea86c479b11d13eac13eac4fad13eb15b9b9b11d6c4f013eb5b11d0146013eb1b11d49ea46c475b11c13ea013ea04faa13ea513ea9b11c0145c5b9b1b11b6c4e813ea5b11c49ea05b9b5b11c6c4ec6c471b11b13e9413e944fa713e9913e9db11b0145813e99b11b49e9c6c46db11a13e8813e884fa413e8d13e8db11a49e9813e91b11a014545b9adb11a6c4e46c469b11913e7c13e7c4fa113e815b9a9b1196c4e013e81b11949e9413e85b119014506c465b11813e7013e704f9e13e7513e79b1180144c5b9a5b1186c4dc13e75b11849e906c461b11713e6413e644f9b13e6913e69b11749e8c5b9a1b1176c4d813e6db117014486c45db11613e5813e584f9813e5d13e61b11601444)
  (.lf 0)))

def shaGateTree188 : BTree :=
  .nd (.nd (.nd (.lf
  0x79699e5a52b4f42b4f4ad3f2b4f92b4fde5a503e905d3e9e5a579710797100fa40039012111acdc536d86b371acdb120fc120fc48411210112101acdb596d404591acdb6b3e86b3e94db5596d411fa5ac9e047946b279ac9d11f9411f9447e711f9911f9dac9d596d403e91ac9d6b2f06b2f165b504790596d4b3ca2cf682cf6800005b5ea5b5e9e9757a6507a651757a5f5e85f5e9e9f17a8407a7c5e9f02d2842d284b4a32d2892d28de9f0615e42d289e9f0635e42cfc9e9755d5e87a5d5e9742cfb42cfb4b3ef2cfb92cfb9e9745f5e42ce2000002cf2a2cf28b3c92ce0c2ce0cb3852ce112ce10b3c95b5e42b4f9e5a50039079695e5a42b4e82b4e8ad3c2b4ed2b4f1e5a403e8c5d3e5e5a47970c7970c0fa30038c12105acdb536d46b36dacda120f0120f0483e120f5120f5acda596d00458dacda6b3e46b3e54db4596d011f99ac9d047906b275ac9c11f8811f8847e411f8d11f91ac9c596d003e8dac9c6b2ec6b2ed65b40478c596d0b3c92cf642cf6400005b5e65b5e5e9747a64c7a64d75795f5e45f5e5e9f07a83c7a7c1e9ef2d2782d278b4a02d27d2d281e9ef615e02d27de9ef635e02cfbde9745d5e47a5d1e9732cfa82cfa8b3ec2cfad)
  (.lf 0)) (.nd (.lf
  0x5668007a541ff87225d51a8566a0566a007ad420187226151a9566a4566a407ae4201c7226551aa566a8566a807af420207226951ab566ac566ac07b04202441fec07b901eb841ff007ba01ebc41ff407bb01ec041ff807bc01ec44201807a401ee44201c07a501ee84202007a601eec4202407a701ef0458a007d901ee4458a407da01ee8458a807db01eec458ac07dc01ef0546a807f9459a0546ac07fa459a4546b007fb459a8546b407fc459ac459a1168845aa1459a5168945aa5459a9168a45aa9459ad168b45aad45aa007f901ee445aa407fa01ee845aa807fb01eec45aac07fc01ef001ef19d73676480c8219d7358734675cd9d720c8100c81032060c8150c8159d72587300c8199d725273001eed9d7267644675c99d710c8040c80432030c8090c8099d715872c0c80d9d715272c01ee99d7167640675c59d700c7f80c7f832000c7fd01ee59d706763c0c7fd9d70587280c8019d7052728675c19d6f0c7ec0c7ec31fd0c7f10c7f19d6f587247220951935664c5664c07b841fc47222d519c566705667007a141fe87225951a75669c5669c07ac4201441fe807b801eb44201407a301ee04589c07d801ee0546a407f84599c4599d168745a9d)
  (.lf 0))) (.nd (.nd (.lf
  0x26081d9db038dc7676dd9da2606c2606c981d2607126071d9da4b31c25f15d99d5ee3476675d99c25f0425f0497c325f0925f0dd99c5ce3025d34000025dae25dac976a25d2025d20974a25d2525d24976a5ae6c58f1c976a25df025df000005ae6e5ae6dd99c766ec766ed738c5ee305ce31d9da767e4767e40e364b31c4b31e0d1c834ec834ed33c74e71c4e71e0d98836dc836620d973a64c3a64ce9953a6513a6560d97001543a6520d974ff183a3920d1c4cf1c834720d1b3a37c3a37ce8e13a3813a3820d1b4e7183617601ba50f1c806ea01b93616436164d85b361693616e01b94b3184c71a01b980760807612cc650f180f4dda52d52f1c694b5a52c0f4c80f4c83d340f4cd0f4cda52c58f1802ed5a52c6952c6952d4bc658f1826075d9da038d876769d9d92606026060981a2606526065d9d94b31825f09d99c5ee3076671d99b25ef825ef897c025efd25f01d99b5ce2c25d28000025daa25da8976925d1425d14974725d1925d1897695ae6858f18976925dec25dec00005ae6a5ae69d99b766e8766e9738b5ee2c5ce2dd9d9767e0767e00e354b3184b31a0d1b834e8834e933c64e7184e71a0d97836d88365e0d963a6403a640e9923a645)
  (.lf 0)) (.nd (.lf
  0x442e110d8443e1443e004490102401025961c658ec658ed47da57f683e06005e9017245fdfc06093e0e03e0e005c93e1610172595de657f409bb195df012286577d95de09ba009ba026ea09ba5657f55fda0122409ba995de57f6857f68608f59f3859f39bac76eb986eb996f9f5de7c183c1bac85de806eb21bac7183b0183b060ee183b5183b9bac75be7c5be7dbb056ec906ec9006494a36832035f68a4d76c18539bb070192c6ec1dbb061852418524614b185291852dbb060192818529bb064a36c6ec19bb05185181851861481851d1851dbb054a3684a369f6897daa04a36df68a7daa47da29f6893202432024c80b320293202df6894bf6832029f6894d7687da25f6883201832018c8083201d3201df6884d764183b5bac75de7c6eb1dbac6183a4183a460eb183a91823c608d1823018230608d57f653e05c05e8017203bc3005c80170c5fdf806083e0dc3e0dc05c83e15d0172195dd657f0657f15fd90122009ba595de012246577995dd09b9409b9426e709b9909d11961c51f6865871961b09cfc09cfc274109d0109d01961b57f64441dc04280102053ee40448442dc442dd10d7443dd443dc04480102001021961b658e8658e947d957f64)
  (.lf 0)))

def shaGateTree189 : BTree :=
  .nd (.nd (.nd (.lf
  0x571ac0c7042b24779a5546c571b0571b00c7142b28779a9546d571b4571b40c7242b2c779ad546e571b8571b80c7342b30779b1546f571bc571bc0c7442b34779b55470571c0571c00c7542b3842abc0c6d0318842ac00c6e0318c42ac40c6f0319042ac80c700319442acc0c710319842ad00c720319c42ad40c73031a042ad80c74031a442adc0c75031a842ae00c76031ac42ae40c77031b042ae80c78031b442aec0c79031b842af00c7a031bc42af40c7b031c042af80c7c031c442afc0c7d031c842b000c7e031cc42b040c7f031d042b080c60031d442b0c0c61031d842b100c62031dc42b140c63031e042b180c64031e442b1c0c65031e842b200c66031ec42b240c67031f042b280c68031f442b2c0c69031f842b300c6a031fc42b340c6b0318042b380c6c031844793c10400318047940104103184479441042031884794810430318c4794c10440319047950104503194479541046031984795810470319c4795c1048031a0479601049031a447964104a031a847968104b031ac4796c104c031b047970104d031b447974104e031b847978104f031bc4797c1050031c0479801051031c4479841052031c8479881053031cc4798c1054031d0)
  (.lf 0)) (.nd (.lf
  0x7f0452bcf50b3c50b3d2ba14ae587f0492bd050b4050b412ba24ae5c4dac1fb777ee587edddfb7633d4033d40cf5233d4533d49fb764aa3c33d45fb764f2bc4dabdfb767ee547edd9fb7533d3433d34cf4f33d3933d3dfb754aa3833d39fb754f2b84dab9fb757ee507edd5fb7433d2833d28cf4c33d2d33d31fb744aa3433d2dfb744f2b44dab5fb747ee4c7edd1fb7333d1c33d1ccf4933d2133d25fb734aa3033d21fb734f2b04dab1fb737ee487edcdfb7233d1033d10cf4633d1533d19fb724aa2c33d15fb724f2ac4daadfb727ee447edc9fb7133d0433d04cf4333d0933d0dfb714aa2833d09fb714f2a84daa9fb717ee407edc5fb7033cf833cf8cf4033cfd33d01fb704aa2433cfdfb704f2a44daa5fb707ee3c7edc1fb6f33cec33ceccf3d33cf133cf5fb6f4aa2033cf1fb6f4f2a04daa1fb6f7ee387edbdfb6e33ce033ce0cf3a33ce533ce9fb6e4aa1c33ce5fb6e4f29c4da9dfb6e7ee347edb9fb6d33cd433cd4cf3733cd933cddfb6d4aa1833cd9fb6d4f2984da99fb6d7ee307edb5fb6c33cc833cc8cf3433ccd33cd1fb6c4aa1433ccdfb6c4f2944da95fb6c7ee2c7edb1fb6b33cbc33cbccf3133cc133cc5fb6b4aa1033cc1fb6b4f290)
  (.lf 0))) (.nd (.nd (.lf
  0x3802207084b2043801e07084fa8437d5e068d4ca8881a36068c37d4837d48df5437d4d37d4e068c4e2844ae86068c81aac81aad32a14e2844e286070881c9c81c2207073800c3800ce005380113801607074b2003801207074fa8037d52068c4ca8481a32068b37d3c37d3cdf5137d4137d42068b4e2804ae82068b81aa881aa932a04e2804e282070781c9881c1e07063800038000e002380053800a07064b1fc3800607064fa7c37d46068b4ca8081a2e068a37d3037d30df4e37d3537d36068a4e27c4ae7e068a81aa481aa5329f4e27c4e27e070681c9481c1a070537ff437ff4dfff37ff937ffe07054b1f837ffa07054fa7837d3a068a4ca7c81a2a068937d2437d24df4b37d2937d2a06894e2784ae7a068981aa081aa1329e4e2784e27a070581c9081c16070437fe837fe8dffc37fed37ff207044b1f437fee07044fa7437d2e06894ca7881a26068837d1837d18df4837d1d37d1e06884e2744ae76068881a9c81a9d329d4e2744e276070481c8c81c12070337fdc37fdcdff937fe137fe607034b1f037fe207034fa7037d2206884ca7481a22068737d0c37d0cdf4537d1137d1206874e2704ae72068781a9881a99329c4e2704e272070381c88)
  (.lf 0)) (.nd (.lf
  0x15cec573d15cf115cf1b59555cf46d6e94f4355d0c55d0c03884168441684039f00e506d7154f4e55d3855d380393416b0416b0038a00e7c43a54038600d9853c5c03a643b5443b550ef543c5543c5403a600d9800d9993ad64f3064f31473757cdc6d7d96f065dc186d8116f145dc5015cf5b59553cf46d655b59415ce06d8156f155dc545dc55b6626da046d989b661163a0163a058ea163a5163a9b6615fc50163a5b66161c505dc51b6616da006d985b660163941639458e7163991639db6605fc4c16399b66061c4c6d80d6f135dc4c5dc4db6606d9fc6d981b65f163881638858e41638d16391b65f5fc481638db65f61c486d8096f125dc485dc49b65f6d9f86d97db65e1637c1637c58e11638116385b65e5fc4416381b65e61c446d8056f115dc445dc45b65e6d9f46d979b65d163701637058de1637516379b65d5fc4016375b65d61c406d8016f105dc405dc41b65d6d9f06d975b65c163641636458db163691636db65c5fc3c16369b65c61c3c6d7fd6f0f5dc3c5dc3db65c6d9ec6d971b65b163581635858d81635d16361b65b5fc381635db65b61c385dc39b65b6d9e86d96db65a1634c1634c58d51635116355b65a5fc3416351b65a61c34)
  (.lf 0)))

def shaGateTree190 : BTree :=
  .nd (.nd (.nd (.lf
  0x783580f0c0013011361aa78534786a9e1aa771134c1134c44d51135111351aa775947404331aa776aa586aa594d1d59474111f5aa3a045346a8e9aa39111e4111e4447b111e9111edaa395947403c31aa396a9606a961651d0453059475e4642ac442ac4400005b39e5b39de477792587925974e25f3885f389e4f379448793cde4f22afa82afa8abec2afad2afb1e4f2613842afade4f2633842acede4775d388791dde4762acd82acd8ab382acdd2acdde4765f3842ab8c00007919279191e4632ab782ab78aae02ab7d2ab7de4635b39829209e0b700130782dde0b6291f8291f8a480291fd29201e0b603c2c5d185e0b678354783540f0b0012c11355aa77534746a9ddaa76113401134044d21134511345aa76594700432daa766aa546aa554d1c59470111e9aa39045306a8e5aa38111d8111d84478111dd111e1aa385947003c2daa386a95c6a95d651c0452c59471e4632ac402ac4000005b39a5b399e476792547925574e15f3845f385e4f279444793c9e4f12af9c2af9cabe92afa12afa5e4f1613802afa1e4f1633802ace1e4765d384791d9e4752accc2acccab352acd12acd1e4755f3802ab8000007918e7918caadd2ab702ab70aadd5946d)
  (.lf 0)) (.nd (.lf
  0x3495dfd984f40c4dc0dfd987f6dc7f661fd973494c3494cd2553495134955fd974ab8834951fd974f4084dc09fd977f6d87f65dfd963494034940d2523494534949fd964ab8434945fd964f4044dc05fd967f6d47f659fd953493434934d24f349393493dfd954ab8034939fd954f4004dc01fd957f6d07f655fd943492834928d24c3492d34931fd944ab7c3492dfd944f3fc4dbfdfd947f6cc7f651fd933491c3491cd2493492134925fd934ab7834921fd934f3f84dbf9fd937f6c87f64dfd923491034910d2463491534919fd924ab7434915fd924f3f44dbf5fd927f6c47f649fd913490434904d243349093490dfd914ab7034909fd914f3f04dbf1fd917f6c07f645fd90348f8348f8d240348fd34901fd904ab6c348fdfd904f3ec4dbedfd907f6bc7f641fd8f348ec348ecd23d348f1348f5fd8f4ab68348f1fd8f4f3e84dbe9fd8f7f6b87f63dfd8e348e0348e0d23a348e5348e9fd8e4ab64348e5fd8e4f3e44dbe5fd8e7f6b47f639fd8d348d4348d4d237348d9348ddfd8d4ab60348d9fd8d4f3e04dbe1fd8d7f6b07f635fd8c348c8348c8d234348cd348d1fd8c4ab5c348cdfd8c4f3dc4dbddfd8c7f6ac7f631fd8b348bc348bcd231348c1)
  (.lf 0))) (.nd (.nd (.lf
  0xe460391a0e4650e469a26e58c4803405a26e68a3468a35631202e0423c25d4c20360875309d4c123c1023c108f0623c1523c15d4c14b04823ab9d4845eb6075211d48323aa823aa88eac23aad23ab1d4835cb5c2395c0000751d6751d56aea23950239516aea58c4958c496aea5abac5abadd483752887528972d75eb5c5cb5dd4c175380753800d814b0484b04a0965826108261133124e4484e44a09e18280038d7e09654cc480e465a26e02e04689b9631102e0123c19d4c10360423aadd4835eb5c58c4400005abaa5aba972d65eb587520d72d65eb595cb580d804b044753040d804b0454b04533114e4448259533114e4454e4452cf14fc44827852cf14fc454fc452c5b06c90828012cf24fc484fc492c5c06c94828052cf34fc4c4fc4d2c5d06c98828092cf44fc504fc512c5e06c9c8280d2cf54fc544fc552c5f06ca0828112cf64fc584fc592c6006ca4828152cf74fc5c4fc5d2c6106ca8828192cf84fc604fc612c6206cac8281d2cf94fc644fc652c6306cb0828212cfa4fc684fc692c6406cb4828252cfb4fc6c4fc6d2c6506cb8828292cfc4fc704fc712c6606cbc8282d2cfd4fc744fc752c6706cc0828312cfe4fc784fc792c6806cc4)
  (.lf 0)) (.nd (.lf
  0x6dd61b75716aec16aec5abd16af116af5b7575fcc816af1b75761cc85dcc9b7576ddd86dd5db75616ae016ae05aba16ae516ae5b75661cc45dcc1b7556ddd05dcc5b7566ddd416ae9b7565fcc46dd59b75516ad416ad45ab716ad916ad9b75561cc016addb7555fcc06dd55b75416ac816ac85ab416acd16acdb75461cbc16ad1b7545fcbc6dd51b75316abc16abc5ab116ac116ac5b7535fcb85dcb9b7536ddc816ac1b75361cb86dd4db75216ab016ab05aae16ab516ab9b7525fcb45dcb5b7526ddc416ab5b75261cb46dd49b75116aa416aa45aab16aa916aadb7515fcb016aa9b75161cb05dcb1b7516ddc06dd45b75016a9816a985aa816a9d16a9db75061cac5dcadb7506ddbc16aa1b7505fcac6dd41b74f16a8c16a8c5aa516a9116a95b74f5fca85dca9b74f6ddb816a91b74f61ca86dd3db74e16a8016a805aa216a8516a89b74e5fca416a85b74e61ca45dca5b74e6ddb46dd39b74d16a7416a745a9f16a7916a79b74d61ca05dca1b74d6ddb016a7db74d5fca06dd35b74c16a6816a685a9c16a6d16a6db74c61c9c5dc95b74a6dda45dc9db74c6ddac16a71b74c5fc9c6dd31b74b16a5c16a5c5a9916a6116a65b74b5fc985dc99b74b6dda8)
  (.lf 0)))

def shaGateTree191 : BTree :=
  .nd (.nd (.nd (.lf
  0x27b2ddd825d00c279b40000775b2775b1dd6b279a0279a09e6a279a5279a5dd6b5b038590f9dd6b27a6827a6800005b03a5b039dd82776847768574035f00c5d00dddc07777c7777c0ead4b4f84b4fa0ffb8406884069343e4e8f84d0fa103984160840e610383b5583b558ed583b55d3b5621038007b03b55e1038518f43b4020ffb4e8f883fee0ffa3b3f03b3f0ecfe3b3f53b3fa0ffa4d0f43994a0b614fd7882d860b603993839938e6503993d399420b604b4f43967e0ae54cd7882b960ae43966839668e59c3966d3966e0ae44e5744b1760ae482c0c82c0d335d4e5744e5760b6082dfc82dfd2d3d4fd74371ea0499510f8812660498371d8371d8dc78371dd371e204984b4f44c8f60498812dc812dd2d3d510f469bd1643d041b027c95ddc003ab477701ddbf27c8027c809f2227c8527c85ddbf4b4f427b29dd825f00c77609dd8127b1827b189ec827b1d27b21dd815d008279a80000775ae775ac9e6727998279989e67590f5590f49e675b0345b035dd81776807768174025f0085d009ddbf77778777780eac4b4f44b4f60ffa8406484065343d4e8f44d0f610388415c840e210373b54c3b54ced553b5513b5561037007ac3b5521037518f0)
  (.lf 0)) (.nd (.lf
  0x6fb19bec51a0501a05068161a0551a059bec55c0bc1a055bec55e0bc5a151bec56fb906fb15bec41a0441a04468131a0491a04dbec45c0b81a049bec45e0b85a14dbec46fb8c6fb11bec31a0381a03868101a03d1a041bec35c0b45a149bec36fb881a03dbec35e0b46fb0dbec21a02c5a13dbec06fb7c19f2800005a1465a145bec26fb841a02c680d1a03119f2400005a1421a035bec25c0b01a031bec25e0b06fb09bec11a0201a020680a1a0251a029bec15c0ac5a141bec16fb801a025bec15e0ac6fb05bec01a0141a01468071a0191a01dbec05c0a81a019bec05e0a86fb01bebf1a0081a00868041a00d1a011bebf5c0a45c0a5befd6fc706fc7008d34a5904d84df8727e2444d8c1f88f7e2b87e23df88e32c6032c60cb1a32c6532c69f88e4a83c32c65f88e4f0bc4d8b9f88d7e2b04d8bdf88e7e2b47e239f88d32c5432c54cb1732c5932c5df88d4a83832c59f88d4f0b87e235f88c32c4832c48cb1432c4d32c4df88c4f0b432c51f88c4a8344d8b5f88c7e2ac7e231f88b32c3c32c3ccb1132c4132c41f88b4f0b032c45f88b4a8304d8b1f88b7e2a87e22df88a32c3032c30cb0e32c3532c39f88a4a82c32c35f88a4f0ac4d8adf88a7e2a4)
  (.lf 0))) (.nd (.nd (.lf
  0x67d01624902ae058925cd90208c8208c800005a8965a895cdac7372c736b5cdac209ec209ec827d209f17372d720e5e838209f1cdac5e8385e839ce287391c738a1ce2720cb020cb0832e20cb520cb9ce276083420cb5ce2762834209f5cdac5c8382086000007364273641cd8f2084c67cfd624802adc58921cd8f208c42084c82152085120851cd8f5a890208c400005a8925a891cdab7372873729720d5e834736b1cdab209e0209e0827a209e5209e5cdab5e8345e835ce27739187389dce2620ca420ca4832b20ca920cadce266083020ca9ce2662830209e9cdab5c834736adcdaa209d4209d48277209d92085400007363e7363c8212208442084482125891d67cf9624702ad85891c82125a88c5a88dcdaa7372473725720c5e830209d9cdaa5e8305e831ce267391473899ce2520c9820c98832820c9d20ca1ce256082c20c9dce256282c209ddcdaa5c830736a9cda9209c820849cd8e208382083882102083d2083dcd8e5a88867cf5624602ad458919cd8e208c0208c000005a88a5a889cda97372073721720b5e82c209c88274209cd209cdcda95e82c5e82dce257391073895ce2420c8c20c8c832520c9120c95ce246082820c91ce2462828)
  (.lf 0)) (.nd (.lf
  0x13d29b0dc5b9ac13d25b0dc5d9ac59a89b0dc6c3ec6c371b0db13d1413d144f4713d1913d1db0db5b9a86c3ed6e6b5d9ac6c3f16e6c5d9b05d9b1b1596c5e014005b1595f9b06c565b15813ff013ff04ffe13ff513ff5b158619ac13ff9b1585f9ac5d9adb1586c5dc6c561b15713fe413fe44ffb13fe913fedb1575f9a813d19b0db5d9a813c1c000059a8659a85b0db6c3e813fe9b157619a86c3e96e6a5d9a85d9a9b1576c5d86c55db15613fd813fd84ff813fdd6c36db0da13d0813d084f4413d0d13d0db0da5d9a459a81b0da6c3e46c3e56e695d9a413fe1b1565f9a45d9a5b1566c5d413fddb156619a46c559b15513fcc13fcc4ff513fd16c3e16e685d9a013d11b0da5b9a46c369b0d913cfc13cfc4f4113d0113d01b0d95d9a013fd1b155619a013fd5b1555f9a05d9a1b1556c5d06c555b15413fc013fc04ff213fc513fc5b1546199c59a79b0d86c3dc6c3dd6e675d99c13d05b0d95b9a06c365b0d813cf013cf04f3e13cf513cf5b0d85d99c5d99db1546c5cc13fc9b1545f99c6c551b15313fb413cf9b0d85b99c6c361b0d713ce413ce44f3b13ce913cedb0d75b99813fb44fef13fb913fb9b1536199813ce9b0d75d99813fbdb1535f998)
  (.lf 0)))

def shaGateTree192 : BTree :=
  .nd (.nd (.nd (.lf
  0x2eac5ed56007a85d801ed567b5d47b559ed552eab42eab4baaf2eab92eabded55008242eab9ed55007a45d7fded557b5d07b555ed542eaa82eaa8baac2eaad2eab1ed54008202eaaded54007a05d7f9ed547b5cc7b551ed532ea9c2ea9cbaa92eaa12eaa5ed530081c2eaa1ed530079c5d7f5ed537b5c87b54ded522ea902ea90baa62ea952ea99ed52008182ea95ed52007985d7f1ed527b5c47b549ed512ea842ea84baa32ea892ea8ded51008142ea89ed51007945d7eded517b5c07b545ed502ea782ea78baa02ea7d2ea81ed50008102ea7ded50007905d7e9ed507b5bc7b541ed4f2ea6c2ea6cba9d2ea712ea75ed4f0080c2ea71ed4f0078c5d7e5ed4f7b5b87b53ded4e2ea602ea60ba9a2ea652ea69ed4e008082ea65ed4e007885d7e1ed4e7b5b47b539ed4d2ea542ea54ba972ea592ea5ded4d008042ea59ed4d007845d7dded4d7b5b07b628021f007fc7b624021e007f87b620021d007f47b61c021c007f07b618021b007ec7b614021a007e87b6100219007e47b60c0218007e07b6080217007dc7b6040216007d87b6000215007d47b5fc0214007d07b5f80213007cc7b5f40212007c87b5f00211007c47b5ec0210007c07b5e8020f007bc)
  (.lf
  0x5d901b0556c1d06c155b05413834138344e0f1383913839b054618fc6bfdd6e3f5d8fc5d8fdb0546c1cc1383db0545f8fc6c151b05313828138284e0c1382d13831b0535f8f81382db053618f86c14db0521381c1381c4e091382113825b0525f8f46c20d7e4f6193c6193d2d833b720134b40000599c613549afd55b8f06bf55afd413534135344d4f13539134b80000599ca599c9afd46bfcc6bfcd6e3b5d8ec13539afd45d8ec5d8edb0506c1bc6bfd56e3d5d8f45d8f5b0526c1c413821b052618f46c149b05113810138104e061381513815b051618f013819b0515f8f06c145b05013804138044e03138091380db0505f8ec13809b050618ec6c141b04f137f81353dafd45b8ec6bf51afd313528135284d4c1352d1352dafd35d8e8599c5afd36bfc86bfc96e3a5d8e85d8e9b04f6c1b8137f84e00137fd13801b04f5f8e8137fdb04f618e86c13db04e137ec137ec4dfd137f1137f1b04e618e4599c1afd26bfc413531afd35b8e86bf4dafd21351c1351c4d491352113525afd25b8e413521afd25d8e46bf49afd113510135104d4613515134b00000599be599bdafd16bfc06bfc16e385d8e013515afd15d8e05d8e1b04d6c1b0137f5b04e5f8e4))
  (.nd (.lf
  0x205a1cd1e627ac5e7adcd1e734f473479cd1d205902059081662059520595cd1d627a85e7a9cd1d734f020599cd1d607a873475cd1c20584205848163205892058dcd1c607a420589cd1c627a473471cd1b205782057881602057d2057dcd1b627a020581cd1b607a05e7a1cd1b734e87346dcd1a2056c5e78dcd16734d42056c815d2057120575cd1a6079c20571cd1a6279c73469cd19205605e799cd19734e020560815a2056520565cd196279820569cd196079873465cd18205542055481572055920559cd18627942055dcd18607945e795cd18734dc73461cd17205482054881542054d2054dcd176279020551cd17607905e791cd17734d87345dcd162053c2053c81512054120545cd166078c20541cd166278c73459cd152053020530814e2053520535cd156278820539cd15607885e789cd15734d073455cd142052420524814b205292052dcd146078420529cd14627845e785cd14734cc73451cd13205182051881482051d2051dcd136278020521cd13607805e781cd13734c87344dcd122050c2050c81452051120511cd126277c5e77dcd12734c420515cd126077c73449cd11205002050081422050520509cd116077820505cd1162778)
  (.lf 0))) (.nd (.nd (.lf
  0x82e412d4e4fdb8372b604aa5113c812aa04a9372a4372a4dcab372a9372ae04a94b5384c93a04a981320813212d4e5113869d0d4c4e5913869c15644e041f427d61ddd103af877745ddd027d4c27d4c9f5527d5127d51ddd04b53827bf5dd935f0507764ddd9227be427be49efb27be927beddd925d04c27a540000775d2775d1dd7327a4027a409e9227a4527a45dd735b07859139dd7327a8827a8800005b07a5b079dd92776c4776c574135f04c5d04dddd0777bc777bc0ebd4b5384b53a100b840a8840a9344e4e9384d13a1049841a08412610483b6183b618ed883b61d3b6221048007f03b61e1048519343b4c2100b4e9388402e100a3b4b03b4b0ed2e3b4b53b4ba100a4d13439a0a0b714fdb882dc60b70399f8399f8e680399fd39a020b704b5343973e0af54cdb882bd60af43972839728e5cc3972d3972e0af44e5b44b1b60af482c4c82c4d336d4e5b44e5b60b7082e3c82e3d2d4d4fdb4372aa04a951138812a604a83729837298dca83729d372a204a84b5344c93604a88131c8131d2d4d5113469c11644d041f027d55ddd003af477741ddcf27d4027d409f5227d4527d45ddcf4b53427be9dd925f04c77649dd9127bd827bd89ef827bdd)
  (.lf 0)) (.nd (.lf
  0x196d1bd925613452135bd926f6c46f649bd91196c0196c065b2196c5196c9bd9154130196c5bd915613052131bd916f6c06f645bd90196b4196b465af196b9196bdbd905412c196b9bd905612c5212dbd906f6bc6f641bd8f196a8196a865ac196ad196b1bd8f54128196adbd8f5612852129bd8f6f6b86f63dbd8e1969c1969c65a9196a1196a5bd8e54124196a1bd8e5612452125bd8e6f6b46f639bd8d196901969065a61969519699bd8d5412019695bd8d5612052121bd8d6f6b06f635bd8c196841968465a3196891968dbd8c5411c19689bd8c5611c5211dbd8c6f6ac6f631bd8b196781967865a01967d19681bd8b541181967dbd8b5611852119bd8b6f6a86f62dbd8a1966c1966c659d1967119675bd8a5411452115bd8a6f6a419671bd8a561146f629bd891966019660659a1966519669bd895411019665bd895611052111bd896f6a06f625bd8819654196546597196591965dbd885410c19659bd885610c6f621bd87196481964865941964d19651bd8754108520fdbd846f68c1964dbd875610852109bd876f69852105bd866f6946f61dbd861963c1963c65911964119641bd865610419645bd86541046f619bd851963019630658e19635)
  (.lf 0)))

def shaGateTree193 : BTree :=
  .nd (.nd (.nd (.lf
  0x42d5c10d50432842d6010d60432c42d6410d70433042d6810d80433442d6c10d90433842d7010da0433c42d7410db0434042d7810dc0434442d7c10dd0434842d8010de0434c42d8410df0435042d8810c00435442d8c10c10435842d9010c20435c42d9410c30436042d9810c40436442d9c10c50436842da010c60436c42da410c70437042da810c80437442dac10c90437842db010ca0437c42db410cb0430042db810cc04304480bc10e004300480c010e104304480c410e204308480c810e30430c480cc10e404310480d010e504314480d410e604318480d810e70431c480dc10e804320480e010e904324480e410ea04328480e810eb0432c480ec10ec04330480f010ed04334480f410ee04338480f810ef0433c480fc10f0043404810010f1043444810410f2043484810810f30434c4810c10f4043504811010f5043544811410f6043584811810f70435c4811c10f8043604812010f9043644812410fa043684812810fb0436c4812c10fc043704813010fd043744813410fe043784813810ff0437c553c41100481bc553c81101481c0553cc1102481c4553d01103481c8553d41104481cc553d81105481d0553dc1106481d4553e01107481d8)
  (.lf 0)) (.nd (.lf
  0x7156980f2623c8603c8097c3ec2c3ec28093b3eca93ec2c093c3ecad66d199b450bb740bb742edf0bb790bb7d9b45585340bb799b4501ef0024f19b4566d9066d159b440bb680bb682edc0bb6d0bb6d9b4401eec024ed9b4466d8c0bb719b445853066d119b430bb5c0bb5c2ed90bb610bb619b4301ee83eba4095a024e87156180f0623c0603c0097a3ec243ec24093a3eca5024e99b4366d880bb659b435852c66d0d9b420bb500bb502ed60bb550bb559b4201ee41cc21c5206035c7148180d6623595e35980d6623586235809393c13c7151980de623786237809213c15c7151d80df6237c6237c09223c1607152180e0623806238009233c1647152580e1623846238409243c1687152980e2623886238809253c16c7152d80e36238c6238c09263c1707153180e4623906239009273c174623c009333c1a4623c409343c1a8623c809353c1ac623cc09363c1b0623d009373c1b4623d409383c1b83c15c0933024b83c1600934024bc3c1640935024c03c1680936024c43c16c0937024c83c1700938024cc3c1740939024d03eba00959024e4603bc09793ec203ec2009393eca1024e59b4266d840bb599b425852866d099b410bb440bb442ed30bb49)
  (.lf 0))) (.nd (.nd (.lf
  0xe585a28602e6468a19a2850e5740e574395f0e5790e57da28558ca403461a28568a9068a91632902e6023d39d4d90366475365d4d823d2423d248f4b23d2923d29d4d84b0a423bcdd49b5ebbc7526dd49a23bbc23bbc8ef123bc123bc5d49a5cbb823a3c8e8d23a3023a308e8d58ca558ca48e8d5ac085ac09d49a752e4752e572ee5ebb85cbb9d4d8753dc753dc0d984b0a44b0a6097c8266c8266d33294e4a44e4a609f88285c827e209f73914c3914ce455391513915609f74b4203915209f74fca038e92097c4cca4825f2097b38e7c38e7ce3a138e8138e82097b4e4a00e579a28502e6068a15a2840e5680e568395c0e56d0e571a28458ca00345da28468a8c68a8d632802e5c23d2dd4d80366075361d4d723d1823d188f4823d1d23d1dd4d74b0a023bc1d49a5ebb875269d49923bb023bb08eee23bb523bb9d4995cbb423a348e8b23a2823a288e8b58ca158ca08e8b5ac045ac05d499752e0752e172ed5ebb45cbb5d4d7753d8753d80d974b0a04b0a2097b826688266933284e4a04e4a209f782858827de09f63914039140e452391453914a09f64b41c3914609f64fc9c38e86097b4cca0825ee097a38e7038e70e39e38e7538e76097a4e49c)
  (.lf 0)) (.nd (.lf
  0x30a75f2ba4ecac30a79f2ba4a42c4d4adf2ba7cb647cae9f2b930a6430a64c29b30a6930a69f2b94eca830a6df2b94a4284d4a9f2b97cb607cae5f2b830a5830a58c29830a5d30a61f2b84a4244d4a1f2b77cb5830a5df2b84eca44d4a5f2b87cb5c7cae1f2b730a4c30a4cc29530a5130a51f2b74eca030a55f2b74a4207caddf2b630a404d48df2b27cb444d49df2b67cb5430a40c29230a4530a49f2b64a41c30a45f2b64ec9c7cad9f2b530a3430a34c28f30a3930a3df2b54a4184d499f2b57cb5030a39f2b54ec987cad5f2b430a2830a28c28c30a2d30a31f2b44a41430a2df2b44ec944d495f2b47cb4c7cad1f2b330a1c30a1cc28930a2130a21f2b34ec904d491f2b37cb4830a25f2b34a4107cacdf2b230a1030a10c28630a1530a19f2b24a40c30a15f2b24ec8c7cac9f2b130a0430a04c28330a094d485f2b07cb3c30a09f2b14ec884d489f2b17cb4030a0df2b14a4087cac5f2b0309f8309f8c280309fd309fdf2b04ec8430a01f2b04a4047cac1f2af309ec309ecc27d309f14d481f2af7cb38309f1f2af4ec80309f5f2af4a4007cabdf2ae309e0309e0c27a309e5309e5f2ae4ec7c309e9f2ae4a3fc7cab9f2ad309d4309d4c277309d9)
  (.lf 0)))

def shaGateTree194 : BTree :=
  .nd (.nd (.nd (.lf
  0x2cefcb3d45b6442b619e5bd003f0796f5e5bc2b6082b608ad842b60d2b611e5bc03eec5d445e5bc7976c7976c0fbb003ec12225acf3537346b3cdacf2122101221048861221512215acf259730045edacf26b4446b4454dcc59730120b9acb5047f06b2d5acb4120a8120a8482c120ad120b1acb45973003eedacb46b34c6b34d65cc047ec59730b3d42cf902cf9000005b6465b645e98c7a6ac7a6ad75915f6445f645ea087a89c7a821ea072d3982d398b4e82d39d2d3a1ea07616402d39dea07636402d0dde98c5d6447a631e98b2d0c82d0c8b4342d0cd2d0cde98b5f6402cf0000002cf522cf50b3bd2cef02cef0b3bd5972d5d441e5bb79768797680fba003e82b60de5bc003ec796f1e5bb2b5fc2b5fcad812b6012b605e5bb03ee803ee9acb36b3486b34965cb047e812219acf2537306b3c9acf1122041220448831220912209acf15972c045e9acf16b4406b4414dcb5972c120adacb4047ec6b2d1acb31209c1209c4829120a1120a5acb35972c5972cb3bd5b6405b641e98b7a6a87a6a975905f6405f641ea077a8987a81dea062d38c2d38cb4e52d3912d395ea066163c2d391ea066363c2d0d1e98b5d6407a62de98a2d0bc2d0bcb4312d0c1)
  (.lf 0)) (.nd (.lf
  0x35c6cd71d35c7135c7600ef4b25835c7200ef50e5835b1600b24de5c802ca00b135b0435b04d6c335b0935b0e00b14c658724040a054aa584aa5a00b1803408034131964de584c65a00ef80438803be00ee35c6035c60d71a35c6535c6a00ee4b25435c6600ee50e5435b0a00b14de58802c600b035af835af8d6c035afd35b0200b04c6544aa5600b08033c8033d31954de544c65600ee80434803ba00ed35c5435c54d71735c5935c5e00ed4b25035c5a00ed50e5035afe00b04de54802c200af35aec35aecd6bd35af135af600af4c6504aa5200af803388033931944de504c65200ed80430803b600ec35c4835c48d71435c4d35c5200ec4b24c35c4e00ec50e4c35af200af4de50802be00ae35ae035ae0d6ba35ae535aea00ae4c64c4aa4e00ae803348033531934de4c4c64e00ec8042c803b200eb35c3c35c3cd71135c4135c4600eb4b24835c4200eb50e4835ae600ae4de4c802ba00ad35ad435ad4d6b735ad935ade00ad4c6484aa4a00ad803308033131924de484c64a00eb8042835ada00ad4de484aa4531914de44802b531914de454c6452c9150e44803ad2c9150e4550e452c74055fc804292c9250e4850e492c75056008042d2c9350e4c)
  (.lf 0))) (.nd (.nd (.lf
  0x60d600de23ffc43ffc40da24004503689a4db693e86936da4da0f2700f2703c9e0f2750f279a4da58ec80f275a4da030843ff400dc10368460d5c0de13ffc03ffc00da14004103685a4da693e46945d63d0030fc6945963cf030f86945563ce030f46945163cd030f06944d63cc030ec6944963cb030e86944563ca030e46944163c9030e06943d63c8030dc6943963c7030d86943563c6030d46943163c5030d06942d63c4030cc6942963c3030c86942563c2030c46942163c1030c06941d63c0030bc6941963bf030b86941563be030b46941163bd030b06940d63bc030ac6940963bb030a83ff3c0dc00368060d580de03ffbc3ffbc0da04003d6940563ba030a46940163b9030a0693fd63b80309c693f963b703098693f563b603094693f163b503090693ed63b40308c693e963b303088693e563b2030840368163b1030806936963b10308152ec1d8627620476189d8612556025560955a2556525569d86154ebc25565d86156ebc52ebdd8617620076185d86025554255549557255592555dd86054eb825559d86056eb852eb9d860761fc76181d85f255482554895542554d25551d85f54eb42554dd85f56eb452eb5d85f761f87617dd85e2553c)
  (.lf 0)) (.nd (.lf
  0x3bbd405d10173009d7d962551f8c65895962409d6809d68275c09d6d4184c0411010184420004310104453f080451443004430110e044401444000451010440104596246590c6590d47e257f883e08005f1017445fe1c06113e1003e10005d13e18109c1195e7012486579d95e609c0009c00270209c0509c0995e657f880174595e665814658155fe20124409d6d962457f8857f8860a459f5859f59bacf6ebb86ebb96fa75de9c4184804100101409d71962451f8865891962309d5c441fc04300104053f040450442fc442fd10df443fd443fc0450010400104196236590809d5c275909d6109d65962351f8409d61962357f846588d962209d5009d50275609d5509d59962251f8041844040f01010441f8042f0103c53f00044f442f8442f910de443f9443f8044f0103c0103d96226590409d55962257f8065889962109d4409d44275309d4909d4d962151f7c6ebd96faf5debc5bebdbb156ecd06ecd006594a3a86ebe16fb15dec45bec5bb176ecd86ecd8065b4a3b01846dbad65beb859f75bad66ebd418469bad65deb86eb59bad51845818340000059f7259f71bad56ebd06ebd16fad5deb41845861181845d18461bad55beb45beb5bb136ecc8)
  (.lf 0)))

def shaGateTree195 : BTree :=
  .nd (.nd (.nd (.lf
  0x28564a15b285692856ddf10610b428569df10630b469ee54c68591a0282a9de955d0b877a55de942829428294a0a72829928299de945f0b4281140000779ee779edde7a2810028100a0422810528105de7a5b0d8591a1de7a2817c2817c00005b0da5b0d9de9477acc77acd742d5f0b45f0b5df1077cbc77c41df0f2855828558a1582855d28561df0f610b02855ddf0f630b069ee14c675919c2829dde945d0b477a51de932828828288a0a42828d2828dde935f0b0281080000779ea779e8a03f280f8280f8a03f5919d5919ca03f5b0d45b0d5de9377ac877ac9742c5f0b05f0b1df0f77cb877c3ddf0e2854c2854ca1552855128555df0e610ac28551df0e630ac69edd4c665919828291de935d0b077a4dde922827c2827ca0a12828128281de925f0ac280fca03d280f0280f0a03d5919959198a03d5b0d05b0d1de9277ac477ac5742b5f0ac5f0addf0e77cb477c39df0d2854028540a1522854528549df0d610a828545df0d630a869ed94c655919428285de925d0ac77a49de912827028270a09e2827528275de915f0a8280f5de79280e4280e4a03b280e9280e9de795b0cc59195de79281782817800005b0ce5b0cdde9177ac077ac1742a5f0a8)
  (.lf 0)) (.nd (.lf
  0x707d970925e2485c249c215708d01b6a1c2154a73470855c2141b6901b6906da61b6951b695c2144a7301b699c214024ec70851c2131b6841b6846da31b6891b689c2134a72c1b68dc213024e85c241c213708c87084dc2121b6781b6786da01b67d1b67dc2124a728707cd708f5e23c707c9708e5e2385c23dc212708c41b681c212024e470849c2111b66c1b66c6d9d1b671707c5708d5e2345c235c210708bc5c239c211708c01b671c2114a7241b675c211024e070845c2101b6601b6606d9a1b6651b669c210024dc1b665c2104a72070841c20f1b6541b6546d971b6591b65dc20f024d81b659c20f4a71c707c1708c5e2305c231c20f708b87083dc20e1b6481b6486d941b64d1b651c20e024d41b64dc20e4a71870839c20d1b63c1b63c6d911b6411b641c20d4a7141b645c20d024d0707b570895e224707b9708a5e2285c229c20d708b070835c20c1b6301b6306d8e1b6351b635c20c4a7105c225c20c708ac1b639c20c024cc70831c20b1b6241b6246d8b1b6291b629c20b4a70c707b170885e2205c221c20b708a81b62dc20b024c87082dc20a1b6181b6186d881b61d1b621c20a024c4707ad70875e21c5c21dc20a708a41b61dc20a4a708)
  (.lf 0))) (.nd (.nd (.lf
  0x742f9726c5e9b074271d09b21ef021ef087be21ef521ef5d09b5e9a021ef9d09b5c9a05c9d5d0e67441474399d0e5220e8220e8883c220ed220f1d0e5034787431972745e9d05c9d1d0e574410220edd0e54aebc74395d0e4220dc220dc8839220e1220e5d0e403474220e1d0e44aeb85c9cdd0e47440c74391d0e3220d0220d08836220d5220d5d0e34aeb4220d9d0e3034705c9c9d0e3744087438dd0e2220c4220c48833220c9220cdd0e20346c74301726e5e9b85c9c5d0e274404220c9d0e24aeb074389d0e1220b8220b88830220bd220bdd0e14aeac220c1d0e1034685c9c1d0e17440074385d0e0220ac220ac882d220b1220b5d0e003464220b1d0e04aea85c9bdd0e0743fc74381d0df220a05c9b9d0df743f8220a0882a220a5220a9d0df03460220a5d0df4aea47437dd0de220942209488272209922099d0de4aea02209dd0de0345c5c9b5d0de743f474379d0dd220882208888242208d2208dd0dd4ae9c22091d0dd034585c9b1d0dd743f074375d0dc2207c2207c88212208122081d0dc4ae9822085d0dc034545c9add0dc743ec74371d0db2207022070881e2207522079d0db034505c9a9d0db743e822075d0db4ae947436dd0da22064)
  (.lf 0)) (.nd (.lf
  0x61b64053c3b9486d5ed7ee761b9c61b9c052a3b98061bb0052f3b9943b980053c014dc3b9940521014f06c934053c49f346d6197ef261bc83dbac055c014f05fbc8057c3dc2c3dc2c053c3dcad014f1938564e9064e915f4d00ff064e21938708e8c64f95475057d4008e8c23a508e9108e95938757d3c64f91474f57d3c57d4057cc59d1415f3057cb15ee815ee857bc15eed15eec57cb59d1057d3c57cb15f7015ef0000015f2e15f2c57ca15edc15edc57b915ee108e91938700ff864e1d938608e8008e8023a208e8508e89938657d3864f8d474e57d3857d3857ca15f6c15ee057ca59d0c15ee4000015f2a15f2857c915ed015ed057b615ed508e85938600ff464e19938508e7408e74239f08e7908e7d938557d3464f89474d57d3457d3457c915f6815ed8000015f2615ed457c959d0815f2457b315ec815ec857b357d316d5e97ee661b986d5b17ed861b6064f85474c57d3008e79938500ff064e15938408e6808e68239c08e6d08e71938457d306c930053b49f3061b60053b3b94461b9805293b97c6d5fd7eeb61bac61bac052e3b9903b97c053b014d83b9900520014ec3dba8055b014ec6d6157ef161bc45fbc4057b3dc283dc28053b3dca9)
  (.lf 0)))

def shaGateTree196 : BTree :=
  .nd (.nd (.nd (.lf
  0x5f6ddeb757ae502db5deaf95d6dc2c2c5e7b0004845d4d80fe00048079ec00fe00048112681add0537c8046814df1597c46b7414df1597c512515ad9200b0403f8165f100b006b64965f100b01597c400005b6da5b6d975b65f6d87abe575b65f6d95f6d985b6636d87add585b6636d9636d810193d4bc7ae5185b7636dc636dc101a3d4c07ae5585b8636e0636e0101b3d4c47ae5985b9636e4636e4101c3d4c87ae5d85ba636e8636e8101d3d4cc7ae6185bb636ec636ec101e3d4d07ae6585bc636f0636f0101f3d4d47ae6985bd636f4636f410003d4d87ae6d85be636f8636f810013d4dc7ae7185bf636fc636fc10023d4e07ae7585c0637006370010033d4e47ae7985c1637046370410043d4e87ae7d85c2637086370810053d4ec7ae8185c36370c6370c10063d4f07ae8585c4637106371010073d4f47ae8985c5637146371410083d4f87ae8d85c6637186371810093d4fc7ae9185c76371c6371c100a3d5007ae9585c86372063720100b3d5047ae9985c96372463724100c3d5087ae9d85ca6372863728100d3d50c7aea185cb6372c6372c100e3d5107aea585cc6373063730100f3d5147aea985cd637346373410103d5187aead85ce63738)
  (.lf 0)) (.nd (.lf
  0x5e699cb2972d201f73dcb2c626a45e6a5cb2c72d2c72cb1cb2b1f72c1f72c7dcd1f7311f731cb2b626a05e6a1cb2b72d281f735cb2b606a072cadcb2a1f7201f7207dca1f7251f729cb2a6069c1f725cb2a6269c5e69dcb2a72d2472ca9cb291f7141f7147dc71f7191f719cb29626981f71dcb296069872ca5cb281f7081f7087dc41f70d1f70dcb28626945e695cb2872d1c1f711cb286069472ca1cb271f6fc1f6fc7dc11f7011f701cb27626901f705cb27606905e691cb2772d1872c9dcb261f6f01f6f07dbe1f6f51f6f5cb266268c5e68dcb2672d141f6f9cb266068c72c99cb251f6e41f6e47dbb1f6e91f6edcb25606881f6e9cb25626885e689cb2572d1072c95cb241f6d81f6d87db81f6dd1f6ddcb24626845e685cb2472d0c1f6e1cb246068472c91cb231f6cc1f6cc7db51f6d11f6d5cb23606805e681cb2372d081f6d1cb236268072c8dcb221f6c01f6c07db21f6c51f6c5cb226267c1f6c9cb226067c5e67dcb2272d0472c89cb211f6b41f6b47daf1f6b91f6bdcb21606781f6b9cb21626785e679cb2172d0072c85cb201f6a81f6a87dac1f6ad1f6b1cb20606745e675cb2072cfc1f6adcb20626745e671cb1f72cf872cf9819c62670)
  (.lf 0))) (.nd (.nd (.lf
  0x2fa5a618698dc69861a6170f9cc0f9cc3e750f9d10f9d1a61758fe40f9d5a61752fe402fa1a617698d86985da6160f9c00f9c03e720f9c50f9c9a61652fe00f9c5a61658fe002f9da616698d469859a6150f9b40f9b43e6f0f9b90f9b9a61558fdc473540c0602f9854f5c0c2647454474551d3547555475540c2602f9802f99a615698d00f9bda61552fdc69855a6140f9a80f9a83e6c0f9ad0f9b1a61452fd8037fda5f06983c697c1a5ef0f96c0f96c3e5d0f9710f971a5ef031f80f975a5ef5903c037f9a5ef69838697bda5ee0f9600f9603e5a0f9650f969a5ee59038699114c075901c699154c0859020699194c09590246990d4c06590180f965a5ee031f4037f5a5ee69834697b9a5ed0f9540f9543e570f9590f95da5ed590340f959a5ed031f0037f1a5ed69830697b5a5ec0f948037eda5ec6982c0f9483e540f94d0f94da5ec031ec0f951a5ec59030697b1a5eb0f93c0f93c3e510f9410f945a5eb5902c037e9a5eb698280f941a5eb031e8697ada5ea0f9300f9303e4e0f9350f939a5ea590280f935a5ea031e4037e5a5ea69824697a9a5e90f9240f9243e4b0f9290f929a5e9031e00f92da5e959024037e1a5e969820697a5a5e80f918)
  (.lf 0)) (.nd (.lf
  0xa3859726580b06ee954fff55ffc6ee714ff655fd855fd8045b4195055ffc04444197456028044f419a041974045b01140419a004460116c44528047b0116c54030049b446284462911aa4472944728049b0116c0116d972665d1465c9997250a3746ee694ff455fd055fd00459419486ee6d4ff555fd455fd4045a4194c6ee8d4ffd55ff455ff404424196c6ee914ffe55ff855ff804434197056020044d419986eebd50095602456024044e4199c4196c04590113841970045a0113c419980444011644199c0445011680a37428df0a3790a3799725580ac0a37d9725520ac4452004790116444524047a01168540280499446205402c049a446244462111a8447214462511a9447254472004990116444724049a0116801169972565d1065c9597240a3680a36828dc0a36d0a3719724520a801165972465d0c0a36d9724580a865c9197230a35c0a35c28d90a3615df15bc416f18018dfdbc4261f185df19bc426f1846f109bc4118dec18dec637d18df118df5bc415ff1418df1bc4161f146f105bc4018de018de0637a18de518de9bc405ff105df11bc406f17c18de5bc4061f106f101bc3f18dd418dd4637718dd918dddbc3f5ff0c18dd9bc3f61f0c)
  (.lf 0)))

def shaGateTree197 : BTree :=
  .nd (.nd (.nd (.lf
  0x59329e174297142971400005b2565b255e191786c0786c1748f5f23c5f23de20d788b078835e20c29b0829b08a6c429b0d29b11e20c6123829b0de20c632382984de1915d23c78645e1902983829838a6102983d2983de1905f238296a40000785d2785d0a5a62969429694a5a65932510a15a8d2043e46a349a8d110a0410a04428310a0910a0da8d15932459324a5a65b2505b251e190786bc786bd748e5f2385f239e20c788ac78831e20b29afc29afca6c129b0129b05e20b6123429b01e20b6323429841e1905d23878641e18f2982c2982ca60d2983129831e18f5f23429699e1732968829688a5a42968d2968de1735b24c10a09a8d1043e06a345a8d0109f8109f84280109fd10a01a8d05932003adda8d06a3bc6a3bd64c8043dc59321e173297102971000005b24e5b24de18f786b8786b9748d5f2345f235e20b788a87882de20a29af029af0a6be29af529af9e20a6123029af5e20a6323029835e18f5d2347863de18e2982029820a60a2982529825e18e5f230296900000785ce785cca5a12968029680a5a15931d109fda8d0043dc6a341a8cf109ec109ec427d109f1109f5a8cf5931c5931ca5a15b2485b249e18e786b4786b5748c5f230)
  (.lf 0)) (.nd (.lf
  0x66a9149075841c5841c70791c2181c17800001c1e61c1e4705b1c1681c168705b584190b5919a4701dd86691d9a460b5800b5802d620b5850b5899a465841870d6180a0622806228008e33c064622c808f53c0ac3c06408f5023c03e9900915023d4602ac09353ea103ea1008f53ea91023d59a466699466995610601dd466a8d49065841858418705b5a3a81c16c70591c1601c16070595841566a8949055841470d5d809f6227c6227c08e23c060622c408f43c0a83c06008f4023bc0b5859a4601dd4669199a450b5740b5742d5f0b5790b57d9a45584143e98c0914023d0602a809343ea0c3ea0c08f43ea8d023d19a456699066991610501dd05841470595a3a41c16470781c1541c15470571c1591c15870785a3a070d59809e622786227808e13c05c622c008f33c0a43c05c08f3023b80b5799a4501dd0669159a440b5680b5682d5c0b56d0b5719a44584103e9880913023cc602a409333ea083ea0808f33ea89023cd9a446698c6698d610401dcc66a854904584105841070781c2141c15c00001c1e21c1e070541c14c1c14c70545840d602a009323ea043ea0408f23ea8570d55809d622746227408e03c0583c05808f2023b43e9840912023c8)
  (.lf 0))) (.nd (.nd (.lf
  0x5ab29d29674ad474ad572b35eacc5cacdd2d474bcc74bcc0d5d4afb84afba080d820b0820b132ee4e3b84e3ba0889822a08222608883891838918e2483891d3892208884b3343891e08884fbb43865e080d4cbb882036080c3864838648e1943864d3864e080c4e3b4686c162ed02d70687b94aed58bb422fa9d2d40357474b51d2d322f9422f948be722f9922f99d2d34afb422e3dd2965eacc74a59d29522e2c22e2c8b8d22e3122e35d2955cac822c30000022c8a22c888b2122c1c22c1c8b0922c2122c208b215ab2458bb48b2122cdc22cdc00005ab265ab25d29574ad074ad172b25eac85cac9d2d374bc874bc80d5c4afb44afb6080c820ac820ad32ed4e3b44e3b608888229c8222208873890c3890ce245389113891608874b3303891208874fbb038652080c4cbb482032080b3863c3863ce1913864138642080b4e3b0686bd62ec02d6c687b54aec58bb022f9dd2d30357074b4dd2d222f8822f888be422f8d22f8dd2d24afb022e31d2955eac874a55d29422e2022e208b8a22e2522e29d2945cac422c24000022c8622c848b2022c1022c108b0622c1522c148b205ab2058bb08b2022cd822cd800005ab225ab21d29474acc74acd72b15eac4)
  (.lf 0)) (.nd (.lf
  0x50275298004b4c7be99299e5027850279298104b507be9d299f5027c5027d298204b547bea129a05028050281298304b587bea529a15028450285298404b5c7bea929a25028850289298504b607bead29a35028c5028d298604b647beb129a45029050291298704b687beb529a55029450295298804b6c7beb929a65029850299298904b707bebd29a75029c5029d298a04b747bec129a8502a0502a1298b04b787bec529a9502a4502a5298c04b7c7bec929aa502a8502a9298d04b807becd29ab502ac502ad298e04b847bed129ac502b0502b1298f04b887bed529ad502b4502b5299004b8c04b1d29834a5e004b2129844a5e404b2529854a5e804b2929864a5ec04b2d29874a5f004b3129884a5f404b3529894a5f804b39298a4a5fc04b3d298b4a60004b41298c4a60404b45298d4a60804b49298e4a60c04b4d298f4a61004b5129904a61404b5529714a61804b5929724a61c04b5d29734a62004b6129744a62404b6529754a62804b6929764a62c04b6d29774a63004b7129784a63404b7529794a63804b79297a4a63c04b7d297b4a64004b81297c4a5c404b85297d4a5c804b89297e4a5cc04b8d297f4a5d07bed929ae502b8502b929804a5d4)
  (.lf 0)))

def shaGateTree198 : BTree :=
  .nd (.nd (.nd (.lf
  0x78ad9e2b52a0142a014a8072a0192a01de2b503d1c5d275e2b578b5078b500f470021c118c5ab6b535646adadab6a118b0118b0462e118b5118b5ab6a595600441dab6a6ae246ae254d585956011759ab2d046206acb5ab2c117481174845d41174d11751ab2c5956003d1dab2c6ad2c6ad2d65580461c59561e65f2ba402ba4000005b47e5b47de67379a4879a49751d5f4745f475e6ef79c3879bbde6ee2bd842bd84af632bd892bd8de6ee614702bd89e6ee634702bac9e6735d474799cde6722bab42bab4aeaf2bab92bab9e6725f4702b94800007997e7997de65e2b9342b934ae4f2b9392b939e65e5b4782a019e2b50021c78ad5e2b42a0082a008a8042a00d2a011e2b403d185d271e2b478b4c78b4c0f4600218118b9ab6a535606ada9ab69118a4118a4462b118a9118a9ab695955c04419ab696ae206ae214d575955c1174dab2c0461c6acb1ab2b1173c1173c45d11174111745ab2b5955c03d19ab2b6ad286ad296557046185955de65e2ba3c2ba3c00005b47a5b479e67279a4479a45751c5f4705f471e6ee79c3479bb9e6ed2bd782bd78af602bd7d2bd81e6ed6146c2bd7de6ed6346c2babde6725d470799c9e6712baa82baa8aeac2baad)
  (.lf 0)) (.nd (.lf
  0x4f4f12a86067947fc952b1d4f4f44f4f52a87067987fc992b1e4f4f84f4f92a880679c7fc9d2b1f4f4fc4f4fd2a89067a07fca12b204f5004f5012a8a067a47fca52b214f5044f5052a8b067a87fca92b224f5084f5092a8c067ac7fcad2b234f50c4f50d2a8d067b07fcb12b244f5104f5112a8e067b47fcb52b254f5144f5152a8f067b87fcb92b264f5184f5192a90067bc067692a844aa080676d2a854aa0c067712a864aa10067752a874aa14067792a884aa180677d2a894aa1c067812a8a4aa20067852a8b4aa24067892a8c4aa280678d2a8d4aa2c067912a8e4aa30067952a8f4aa34067992a904aa380679d2a714aa3c067a12a724aa40067a52a734a9c4067a92a744a9c8067ad2a754a9cc067b12a764a9d0067b52a774a9d4067b92a784a9d8067bd2a794a9dc7fcbd2b274f51c4f51d2a7a4a9e07fcc12b284f5204f5212a7b4a9e47fcc52b294f5244f5252a7c4a9e87fcc92b2a4f5284f5292a7d4a9ec7fccd2b2b4f52c4f52d2a7e4a9f07fcd12b2c4f5304f5312a7f4a9f47fcd52b2d4f5344f5352a804a9f87fcd92b2e4f5384f5392a814a9fc7fcdd2b2f4f53c4f53d2a824aa007fce12b304f5404f5412a834aa045257dc67371a48)
  (.lf 0))) (.nd (.nd (.lf
  0x75b21732e5ecb85ecb9d72575d1075c95d72424c7424c74931f24c7924c7dd72460cb424c79d72462cb4249b9d6a95ccb875aa5d6a8249a4249a4926b249a9249a9d6a85ecb424811d68b248002480092022480524805d68b5acfc58da1d68b248842488400005acfe5acfdd6a875b1c75b1d732d5ecb45ecb5d72475d0c75c91d72324c6824c68931c24c6d24c71d72360cb024c6dd72362cb0249add6a85ccb475aa1d6a7249982499892682499d2499dd6a75ecb024808000075a2e75a2dd68a247f4247f491ff247f9247f9d68a5acf858d9dd68a248802488000005acfa5acf9d6a775b1875b19732c5ecb05ecb1d72375d0875c8dd72224c5c24c5c931924c6124c65d72260cac24c61d72262cac249a1d6a75ccb075a9dd6a62498c2498c92652499124991d6a65ecac247fc000075a2a75a29d689247e8247e891fc247ed247edd6895acf458d99d6892487c2487c00005acf65acf5d6a675b1475b15732b5ecac5ecadd72275d0475c89d72124c5024c50931624c5524c59d72160ca824c55d72162ca824995d6a65ccac75a99d6a5249802498092622498524985d6a55eca8247f0000075a2675a25d688247dc247dc91f9247e1247e1d6885acf0)
  (.lf 0)) (.nd (.lf
  0x1742800006e2ce6e2cc5d0717418174185d0757e6d53dec040a43fe443fe51019440e5440e4040a00f2843ee403ea00f2800f2995256551065511479b57e6c09779952557e6c57e6c5d0759e3c59e3db8c86e39c6e39d6f605dd806e3bd6f685dda05bda1b90e6e4b431255f4224ed7c4d579f4217d1004d57df4227d1047d089f4213124431244c493312493124df4214a4f831249f4214ed787d085f4203123831238c4903123d31241f4204a4f43123df4204ed744d575f4207d0fc7d081f41f3122c4d571f41f7d0f83122cc48d3123131235f41f4a4f031231f41f4ed707d07df41e3122031220c48a3122531229f41e4a4ec31225f41e4ed6c4d56df41e7d0f47d079f41d3121431214c4873121931219f41d4ed683121df41d4a4e84d569f41d7d0f07d075f41c3120831208c4843120d3120df41c4ed6431211f41c4a4e44d565f41c7d0ec7d071f41b311fc311fcc4813120131201f41b4ed6031205f41b4a4e04d561f41b7d0e87d06df41a311f0311f0c47e311f5311f5f41a4ed5c311f9f41a4a4dc7d069f419311e4311e4c47b311e9311e9f4194ed584d559f4197d0e0311edf4194a4d87d065f418311d8311d8c478311dd311e1f4184a4d4)
  (.lf 0)))

def shaGateTree199 : BTree :=
  .nd (.nd (.nd (.lf
  0x4fd4d2c9d06d484fd512c9e06d4c4fd552c9f06d504fd592ca006d544fd5d2ca106d584fd612ca206d5c4fd652ca306d604fd692ca406d644fd6d2ca506d684fd712ca606d6c4fd752ca706d704fd792ca806d744fd7d2ca906d784fd812caa06d7c4fd852cab06d804fd892cac06d844fd8d2cad06d884fd912cae06d8c4fd952caf06d904fd992cb006d9406d412ca44b28806d452ca54b28c06d492ca64b29006d4d2ca74b29406d512ca84b29806d552ca94b29c06d592caa4b2a006d5d2cab4b2a406d612cac4b2a806d652cad4b2ac06d692cae4b2b006d6d2caf4b2b406d712cb04b2b806d752c914b2bc06d792c924b2c006d7d2c934b24406d812c944b24806d852c954b24c06d892c964b25006d8d2c974b25406d912c984b25806d952c994b25c4fd9d2c9a4b2604fda12c9b4b2644fda52c9c4b2684fda92c9d4b26c4fdad2c9e4b2704fdb12c9f4b2744fdb52ca04b2784fdb92ca14b27c4fdbd2ca24b2804fdc12ca34b2844b2c20c6b832288322933b04e6c04cec20ca983320832a60ca83a1183a118e8483a11d3a1220ca8005783a11e0ca8516bc831ae0c6a39fb039fb0e7ee39fb539fba0c6a4cebc4b2be0c6a832248322533af4e6bc)
  (.lf 0)) (.nd (.lf
  0x4a5edfa2c7e92c33551fa2c4c1ec7e8b1fa2b3353c3353ccd513354133545fa2b4c1e81a699bfbc5e1006fef1bfbb1a6881a68869a41a68d1a691bfbb5c0fc5a191bfbb6ff681a805bffa023a86ffe9bff91a7f01a7f069fe1a7f51a7f5bff94a5e86ff69703f5e0fc5c0fdbff9700607006008e94a5e84a5e9fa2b7e92833541fa2b4d9e87e8adfa2a3353033530cd4e3353533535fa2a4d9e41a68dbfbb5e0fc6feedbfba1a67c1a5f800005a18e5a18dbfba6ff646ff65703e5e0f81a7f9bff9023a41a67c69a11a6811a685bfba5c0f86ffe5bff81a7e41a7e469fb1a7e91a7e9bff84a5e45c0f9bff87005c7005c08e84a5e44a5e5fa2a7e92433539fa2a4c1e47e8a9fa293352433524cd4b335293352dfa294c1e01a681bfba5e0f86fee9bfb91a6701a670699e1a6751a679bfb95c0f41a5f400005a18a5a189bfb96ff601a7edbff8023a06ffe1bff71a7d86ff61703d5e0f45c0f5bff7700587005808e74a5e01a7d869f81a7dd1a7ddbff74a5e04a5e1fa297e9201a675bfb95e0f46fee5bfb81a6645a185bfb86ff5c6ff5d703c5e0f01a664699b1a6691a66dbfb85c0f05c0f1bff6700541a7e1bff70239c6ffddbff61a7cc1a7cc69f51a7d1)
  (.lf 0))) (.nd (.nd (.lf
  0x80d9e036636b0036b00dac236b0536b0a03664af8436b0603664f8043684602eb4c80880bae02ea3683036830da0e368353683602ea4e0044ac0602ea80c2480c2532014e0044e006036680e1480d9a036536af436af4dabf36af936afe03654af8036afa03654f8003683a02ea4c80480baa02e93682436824da0b368293682a02e94e0004ac0202e980c2080c2132004e0004e002036580e1080d96036436ae836ae8dabc36aed36af203644af7c36aee03644f7fc3682e02e94c80080ba602e83681836818da083681d3681e02e84dffc4abfe02e880c1c80c1d31ff4dffc4dffe036480e0c80d92036336adc36adcdab936ae136ae603634af7836ae203634f7f83682202e84c7fc80ba202e73680c3680cda05368113681202e74dff84abfa02e780c1880c1931fe4dff84dffa036380e0880d8e036236ad036ad0dab636ad536ada03624af7436ad603624f7f43681602e74c7f880b9e02e63680036800da02368053680602e64dff44abf602e680c1480c1531fd4dff44dff6036280e0480d8a036136ac436ac4dab336ac936ace03614af7036aca03614f7f03680a02e64c7f480b9a02e5367f4367f4d9ff367f9367fa02e54dff04abf202e580c10)
  (.lf 0)) (.nd (.lf
  0x14d81b35f61a906cb91b2e314aac14aac52ad14ab114ab1b2e35da905da91b35f6cdf86cd7db35e14d7014d70535e14d7514d79b35e5fa8c086cd924151b7c649059240086b8086b821b0086bd086bd924057b784143c030d00c08435f0032d00c3453af8034d436f0436f10ddc437f1648855ede00e34437f0034d00c3400c3592406497c6497d46de57b781494c52511494014940525157b7957b78525159b5859b59b2e26cc046cc056ea35da8c14ab5b2e35ba906cb8db2e214aa014aa052aa14aa514aa5b2e25da8c14d75b35e61a8c5da8db35e6cdf46cd79b35d14d6414d64535b14d6953ae00347436d8436d90dd6437d9437d8034700c1c435d8032700c1c00c1d923a649646496546d857b6053ae40348436dc436dd0dd7437dd435dc032800c20437dc034800c2000c21923b64968435e8032b00c2c53af4034c436ec53adc0346436d4436d50dd5437d553aec034a436e4436e50dd9437e5436ed0ddb437ed414b8030c00c04437ec034c00c30435ec032c00c3000c31923f64978086c1924051b7864901923f086ac086ac21ad086b16497946dd57b74648815edd00e30086b1923f57b7414944524f1493814938524f57b7557b74524f59b54)
  (.lf 0)))

def shaGateTree200 : BTree :=
  .nd (.nd (.nd (.lf
  0x4985c02e6047984986002e70479c4986402e8047a04986802e9047a44986c02ea047a84987002eb047ac4987402ec047b04987802ed047b44987c02ee047b84988002ef047bc4988402f0047c04988802f1047c44988c02f2047c84989002f3047cc4989402f4047d04989802f5047d44989c02f6047d8498a002f7047dc498a402f8047e0498a802f9047e4498ac02fa047e8498b002fb047ec498b402fc047f0498b802fd047f4498bc02fe047f8498c002ff047fc047fe10c7843988431e10c649080490812422490854908a10c65393c4908610c659930047fa10c6843948431a10c54907449075241f490794907e10c5539384907a10c55992c047f610c5843908431610c44906849069241c4906d4907210c4539344906e10c459928047f210c48438c8431210c34905c4905d2419490614906610c3539304906210c359924047ee10c3843888430e10c249050490512416490554905a10c25392c4905610c259920047ea10c2843848430a10c149044490452413490494904e10c1539284904a10c15991c047e610c1843808430610c0490384903924104903d4904210c0539244903e10c059918047e210c08437c8430210bf4902c4902d240d49031)
  (.lf
  0x490ba10ea5795463cc12db5009904b6d610ea84424844255e5500c1057955aec812d38490b610ea00c10843aa10e9490a463cbd2db40098c4b6d210e984420844215e5400c0c490a5242b490a9490ae10e95795012c2c00006bb226bb204b0812c1c12c1c4b0857951579504b085994012c21664e12c1812c19664e5794d073fd8f100098c63c418f0f073ec073ec1cfd073f1073f58f0f4b6cc8480d8f0f63cb863cb92db3009884b6ce10e88441c8441d5e5300c08490aa10e900c0c843a610e8490984909924284909d490a210e85794c07af990455794c5794d664e5993c12dbdaedd5b8706bb75aedc12da812da84b6c12dad12db1aedc5b86c12dadaedc5d86c12d3800005994659945aedb6bbe86bbe96e1a5d86812d3c00005994a59949aedc6bbec1308daf595f8706bd65af58130786bbed6e1b5d86c5d86daf586bddc130784c201307d1307daf586186c13081af585f86c6bd61af571306c1306c4c1d1307113071af57618686bb71aedb12d9c12d9c4b6912da112da1aedb5d86813075af575f8685d869af576bdd86bd5daf5613060130604c1a1306564281909f07dac07dac1f6d07db107db5909f57a3c6be157e29618a4618a52d9d3b688))
  (.nd (.lf
  0x45e1917a645f1945f0c08540205045f1008550205445f1408560205845f1808570205c0d0659ee3528a467b8d9ee20d0500d05034160d0550d0559ee2588a00d0599ee2528a00205d9ee267c0467b899ee10d044020599ee167c000d04434130d0490d0499ee15889c0d04d9ee15289c67b859ee00d0380d03834100d03d0d0419ee05289820138804c2012c2012c804c588a10cef99ea502a6067a959ea40cee80cee833bc0ceed0cef19ea4588a067c054a28588a0588a0804c5a81020130804a2012420124804a5889d0ceed9ea402a5c67a919ea30cedc0cedc33b90cee10cee59ea35889c67c014a275889c5889c804a5a80c2012880482011c2011c8048588990cee19ea302a5867a8d9ea20ced00ced033b60ced50ced99ea2588980d03d9ee058898020559ee067bfc67bfd4a26588985889880485a808020519edf67bf867bf94a25588940ced59ea202a5467a899ea10cec40cec433b30cec90cecd9ea15889467b819edf0d02c0d02c340d0d0310d0319edf58894588948065201c82012080652011020110804620115201180000201962011480655a80420194806420104201048043201092010880645a8004215408130202045d0808330204c)
  (.lf 0))) (.nd (.nd (.lf
  0x76d9553ff56ffc56ffc0c044297476d99540057000570000c054297876d9d540157004570040c064297c76da1540257008570080c074298076da554035700c5700c0c084298476da9540457010570100c094298876dad540557014570140c0a4298c76db1540657018570180c0b4299076db554075701c5701c0c0c4299476db9540857020570200c0d4299876dbd540957024570240c0e4299c76dc1540a57028570280c0f429a076dc5540b5702c5702c0c10429a476dc9540c57030570300c11429a876dcd540d57034570340c12429ac76dd1540e57038570380c13429b076dd5540f5703c5703c0c14429b476dd9541057040570400c15429b84293c0c0d03008429400c0e0300c429440c0f03010429480c10030144294c0c1103018429500c120301c429540c1303020429580c14030244295c0c1503028429600c160302c429640c1703030429680c18030344296c0c1903038429700c1a0303c429740c1b03040429780c1c030444297c0c1d03048429800c1e0304c429840c1f03050429880c00030544298c0c0103058429900c020305c429940c0303060429980c04030644299c0c0503068429a00c060306c429a40c0703070429a80c0803074)
  (.lf 0)) (.nd (.lf
  0x5df6dbd3d6f5705df75bd3f6f5781946dbd3f61f7419471bd3f5ff746f4fdbd3e1945c1945c65191946119465bd3e5ff705df71bd3e6f57419461bd3e61f706f4f9bd3d194501945065161945519455bd3d61f6c19459bd3d5ff6c6f4f5bd3c194441944465131944919449bd3c61f685df69bd3c6f56c6f56d7fda61f6861f68063d3bd4c6f5717fdb61f6c61f6c063e3bd506f5757fdc61f7061f70063f3bd546f5a57fe861fa061fa0062b3bd846f5a97fe961fa461fa4062c3bd886f5ad7fea61fa861fa8062d3bd8c6f5b97fed61fb461fb406303bd986f5bd7fee61fb861fb806313bd9c6f5c17fef61fbc61fbc06323bda03bd84063d018e03bd88063e018e43bd8c063f018e83bd980622018f43bd9c0623018f83bda00624018fc3e3b4065e018f83e3b8065f018fc6f5d57ff461fd05ffd0067e3e4346f5d97ff561fd45ffd4067f3e4383e434063e3e4b53e438063f3e4b9018f9976765e18018fd976865e1c65da197670a50c0a50c29450a5110a51597675813c0a511976701af865d9d97660a5000a50029420a5050a505976601af43e3b0065d018f46f5d17ff361fcc5ffcc067d3e4303e430063d3e4b1018f5976665e140a509976658138)
  (.lf 0)))

def shaGateTree201 : BTree :=
  .nd (.nd (.nd (.lf
  0x5f261e2ee78c3478bb9e2ed2a1342a134a84f2a1392a13de2ed6125c2a139e2ed6325c29e79e2725d260789c9e27129e6429e64a79b29e6929e69e2715f25c29cd16c9c29cc429cc564d129cc929cc96c9c5b27428305debd0000877af5debc282f4282f4a0bf282f9282fddebc03b045d05ddebc77b6c77b6c0ec10000410d3da9755334c6a5d5a97410d2810d28434c10d2d10d2da9745934804205a9746a64c6a64d4cd25934810bd1a937044086a4dda93610bc010bc042f210bc510bc9a9365934803b05a9366a5546a55564d204404593496c9c29e2829e2800005b2765b275e27178a4078a4174975f25c5f25de2ed78c3029e6de2715d25c282f9debc000045d0580ec00000077af00ec00000110d31a97453348042014cd1593446a5d14cd15934510bc5a9360440403b0164d1044006a4d964d1044015934400005b2725b27174965f258789c574965f2595f25984966325878bb5849663259632580ef93d03c78c3184976325c6325c0efa3d04078c35849863260632600efb3d04478c39849963264632640efc3d04878c3d849a63268632680efd3d04c78c41849b6326c6326c0efe3d05078c45849c63270632700eff3d05478c49849d63274)
  (.lf 0)) (.nd (.lf
  0x4523114ac4533145330075d01c740ba1d9b08584b801c759b0866c9c66c219b070ba0c0ba0c2e850ba110ba119b07584b41bfb1c374543e070dd1c3731bf9c1bf9c6fe91bfa11bfa1c373563dc523ddc37370e4870e99510b5642c70e4950f7563dc563dc071c41d5470e6d51005640056400070541d785642c071041da441d78071c01c4441da4070701c704512c073c01c7054434075c4522c4522d14ab4532d4532c075c01c7001c719b0766c980ba159b07524b466c1d9b060ba000ba002e820ba050ba099b06524b00ba059b06584b01bfa5c373543dc70dcdc3721bf901bf906fe61bf951bf95c372563d81bf99c372543d8523d9c37270e4470dc9c3711bf841bf846fe31bf891bf89c371563d41bf8dc371543d4523d5c37170e4070dc5c3701bf781bf786fe01bf7d1bf7dc370563d01bf81c370543d0523d1c37070e3c70dc1c36f1bf6c1bf6c6fdd1bf711bf71c36f563cc1bf75c36f543cc523cdc36f70e3870dbdc36e1bf601bf606fda1bf651bf65c36e563c81bf69c36e543c8523c9c36e70e3470e95510a5642870e9151095642470e3d50f4563d0563d0071941d4870e6150fd563f4563f4070241d6c70e8d51085642056420070d41d98)
  (.lf 0))) (.nd (.nd (.lf
  0x38d4209404b3ac38d3e09404fc2c38a7e08c54cc308231608c438a6838a68e29c38a6d38a6e08c44e42c688a9630b02de823659d3d5035ec74f55d3d423644236448d932364923649d3d44b02c234edd3975eb4474e5dd396234dc234dc8d39234e1234e5d3965cb40233608cd623354233548cd658c2d58c2c8cd65ab905ab91d39674ed474ed572d05eb405cb41d3d474fcc74fcc0d7a4b02c4b02e08c48238c8238d330b4e42c4e42e09408257c82502093f38d2c38d2ce34d38d3138d36093f4b3a838d32093f4fc2838a7208c44cc2c8231208c338a5c38a5ce29938a6138a6208c34e428688a5630a02de42364dd3d4035e874f51d3d323638236388d902363d2363dd3d34b028234e1d3965eb4074e59d395234d0234d08d36234d5234d9d3955cb3c233588cd42334c2334c8cd458c2958c288cd45ab8c5ab8dd39574ed074ed172cf5eb3c5cb3dd3d374fc874fc80d794b0284b02a08c38238882389330a4e4284e42a093f82578824fe093e38d2038d20e34a38d2538d2a093e4b3a438d26093e4fc2438a6608c34cc288230e08c238a5038a50e29638a5538a5608c24e424033e1a209688a0688a1630902de023641d3d3035e474f4dd3d22362c)
  (.lf 0)) (.nd (.lf
  0x60cd27f549fcc060d127f649fd0060d527f749fd430415f1b2503ec30419f1b24a7ec7c64d2efb4d3ec4bbedf1b27c7447c6c9f1b13040430404c1033040930409f1b1503e83040df1b14a7e87c6492efa4d3e84bbe9f1b17c7407c6c5f1b0303f8303f8c100303fd303fdf1b0503e430401f1b04a7e47c6452ef94d3e44bbe5f1b07c73c7c6c1f1af303ec303ecc0fd303f1303f1f1af503e06d0e8056649fdc49fddf1707c63c7c5c1f16f3026c3026cc09d3027130275f16f4bbd87c6412ef84d3e04bbe1f1af7c738303f5f1af4a7e07c6bdf1ae303e0303e0c0fa303e5303e9f1ae4a7dc7c63d2ef74d3dc4bbddf1ae7c734303e5f1ae503dc7c6b9f1ad303d4303d4c0f7303d9303ddf1ad4a7d86d0e4056549fd849fd9f16f7c6387c6392ef64d3d84bbd9f1ad7c730303d9f1ad503d87c6b5f1ac303c8303c8c0f4303cd30271f16f4d3d87c5bdf16e3026030260c09a3026530269f16e4bbd4303d1f1ac4a7d449fd5f16e7c634303cdf1ac503d47c6352ef54d3d44bbd5f1ac7c72c7c6b1f1ab303bc303bcc0f1303c1303c5f1ab4a7d030265f16e4d3d47c5b9f16d3025430254c097302591526db419015906d065b418152581525854981525d)
  (.lf 0)))

def shaGateTree202 : BTree :=
  .nd (.nd (.nd (.lf
  0x2bfbde73d5762053621e73d79d7079cf5e73c2bfac2bfacafed2bfb12bfb5e73c5561c2bfb1e73c5761c5361de73c79d6c79cf1e73b2bfa02bfa0afea2bfa52bfa9e73b556182bfa5e73b5761853619e73b79d6879cede73a2bf942bf94afe72bf992bf9de73a556142bf99e73a5761453615e73a79d6479ce9e7392bf882bf88afe42bf8d2bf91e739556102bf8de7395761053611e73979d6079ce5e7382bf7c2bf7cafe12bf812bf85e7385560c2bf81e7385760c5360de73879d5c79ce1e7372bf702bf70afde2bf752bf79e737556082bf75e7375760853609e73779d5879cdde7362bf642bf64afdb2bf692bf6de736556042bf69e7365760453605e73679d5479cd9e7352bf582bf58afd82bf5d2bf61e735556002bf5de7355760053601e73579d5079cd5e7342bf4c2bf4cafd52bf512bf55e734555fc2bf51e734575fc535fde73479d4c79cd1e7332bf402bf40afd22bf452bf49e733555f82bf45e733575f8535f9e73379d4879ccde7322bf342bf34afcf2bf392bf3de732555f42bf39e732575f4535f5e73279d4479cc9e7312bf282bf28afcc2bf2d2bf31e731555f02bf2de731575f0535f1e73179d4079cc5e7302bf1c2bf1cafc92bf21)
  (.lf 0)) (.nd (.lf
  0x1e1e0787a1e1e51e1e5c835625201e1e9c835605205e521c83572150720d5c8341e1d41e1d478771e1d91e1d9c8346251c1e1ddc8346051c5e51dc8347214c720d1c8331e1c81e1c878741e1cd1e1d1c833605185e519c833721481e1cdc83362518720cdc8321e1bc5e515c832721441e1bc78711e1c11e1c5c832605141e1c1c83262514720c9c8311e1b01e1b0786e1e1b51e1b5c831625105e511c831721401e1b9c83160510720c5c8301e1a45e50dc8307213c1e1a4786b1e1a91e1a9c8306250c1e1adc8306050c720c1c82f1e1981e19878681e19d1e19dc82f625081e1a1c82f605085e509c82f72138720bdc82e1e18c1e18c78651e1911e191c82e625041e195c82e605045e505c82e72134720b9c82d1e1801e18078621e1851e189c82d605001e185c82d625005e501c82d72130720b5c82c1e1741e174785f1e1791e179c82c624fc5e4fdc82c7212c1e17dc82c604fc720b1c82b1e1681e168785c1e16d1e16dc82b624f85e4f9c82b721281e171c82b604f8720adc82a1e15c5e4f5c82a721241e15c78591e1611e161c82a624f41e165c82a604f4720a9c8291e1501e15078561e1551e155c829624f01e159c829604f05e4f1c82972120)
  (.lf 0))) (.nd (.nd (.lf
  0x24e3d637324e4124e416b485ad2458dd16b4824f9024f9000005ad265ad25d78c75eac75ead73395ece45cce5d7ca75fa475fa40de34b1d04b1d20b9582ed082ed133744e5d04e5d20c11830c0830460c1039cf839cf8e74039cfd39d020c100000839cfe0c104fdcc39a3e0b954cdd082e560b9439a2839a28e68c39a2d39a2e0b944e5cc69009637302f88691014b7358dcc25155d7ca0378c75f29d7c9251402514094522514525145d7c94b1cc24fe9d78c5ece475e31d78b24fd824fd893f824fdd24fe1d78b5cce058dcc00005ad225ad21d78b75ea875ea973385ece05cce1d7c975fa075fa00de24b1cc4b1ce0b9482ecc82ecd33734e5cc4e5ce0c10830bc830420c0f39cec39cece73d39cf139cf60c0f0000439cf20c0f4fdc839a320b944cdcc82e520b9339a1c39a1ce68939a2139a220b934e5c868f8da3e20ecd003585a3e26900469005637202f840ecd03b360ecd50ecd9a3e258dc802d85a420690fc0ee383b900ee3d0ee3da42058dc8690fd4b7258dc825149d7c90378875f25d7c82513425134944f2513925139d7c84b1c824fddd78b5ece075e2dd78a24fcc24fcc93f524fd124fd5d78a5ccdc58dc9d78a75ea475ea573375ecdc)
  (.lf 0)) (.nd (.lf
  0x57ef45ecd59ec417b345efd17b2417b245ecb17b2917b285efd59ec017b2c000017bf66570547bc57ef057ef05efd17c2c17bf45efc17b1817b185ec817b1d17b20000017bf217b1c5efc59ebc17bf05ec517b1017b105ec557ee909a4d95a151eec6568595a009a3809a38269009a3d09a3d95a057ee8656055fba011a444060040900fa453e680429441604416110784426144260042900fa400fa595a0656fc656fd47ba57ee857ee85ec559eb817c40000059f0217d95b9d25de486e749b9d117d8417d845f6317d8917d8db9d15be4459f01b9d16e7c017d89b9d15de446e745b9d017d7817d785f6017d7d17d7db9d05de4017d81b9d05be4059ef9b9cf6e7b859efdb9d06e7bc6e741b9cf17d6c17d6c5f5d17d7117d75b9cf5be3c17d71b9cf5de3c6e73db9ce17d6017c3c000059ef659ef5b9ce6e7b417d605f5a17d6517d69b9ce5be3817d65b9ce5de386e739b9cd17d5417d545f5717d5917d5db9cd5be3459ef1b9cd6e7b017d59b9cd5de346e735b9cc17d4817d485f5417d4d17d4db9cc5de3059eedb9cc6e7ac17d51b9cc5be306e731b9cb17d3c17d3c5f5117d4117d45b9cb5be2c17d41b9cb5de2c59ee9b9cb6e7a86e72db9ca17d30)
  (.lf 0)))

def shaGateTree203 : BTree :=
  .nd (.nd (.nd (.lf
  0x839d4007a4ffac4ffad2d1e4b470839d8007b4ffb04ffb12d1f4b474839dc007c4ffb44ffb52d204b478839e0007d4ffb84ffb92d214b47c839e4007e4ffbc4ffbd2d224b480839e8007f4ffc04ffc12d234b4845cfd5dccb773a8773a80e9f4b4c04b4c20f5383dc883dc934304e8c04d0c20f9183ec083e460f903b1f83b1f8ec803b1fd3b2020f90007783b1fe0f90518bc83d4e0f523b0903b090ec263b0953b09a0f524d0bc7732ddcca27658276589d982765d2765ddcca4b4bc5cfd1dcca773a4773a40e9e4b4bc4b4be0f5283dc483dc5342f4e8bc4d0be0f9083ebc83e420f8f3b1ec3b1ecec7d3b1f13b1f60f8f007743b1f20f8f518b83b0960f524e8bc83d4a0f513b0843b084ec233b0893b08e0f514d0b827661dcca03a7877329dcc92764c2764c9d952765127651dcc94b4b85cfcddcc9773a0773a00e9d4b4b84b4ba0f5183dc083dc1342e4e8b84d0ba0f8f83eb883e3e0f8e3b1e03b1e0ec7a3b1e53b1ea0f8e007703b1e60f8e518b43b08a0f514e8b883d460f503b0783b078ec203b07d3b0820f504d0b427655dcc903a7477325dcc827640276409d922764527645dcc84b4b45cfc9dcc87739c7739c0e9c4b4b44b4b60f5083dbc)
  (.lf 0)) (.nd (.lf
  0x702b06afd1abf066391609901c201abf06afd58265582646afd5a2041abf46afb1abe81abe86afb582616638d609801c1c582606afb5a2001abec6af91abe01abe06af95825d66389609701c185825c6af95a1fc1abe5c0ab1abd41abd46af71abd91abdc0000702ae1abd9c0ab5a1f8702ac6af41abcc1abcc6af458255582546af45a1f45a1f5c0ba703641ad65c0bf5e17c702fdc0be1ad541ad546b571ad591ad5dc0be5c1781acd000005a1fa5a1f9c0bb703685a205c0be703741ad59c0be5e178702f9c0bd1ad481ad486b541ad4d1ad4dc0bd5e1741ad51c0bd5c1745a201c0bd70370702f5c0bc1ad3c1ad3c6b511ad411ad41c0bc5e1701ad45c0bc5c1705a1fdc0bc7036c702f1c0bb1ad301ad306b4e1ad351ad39c0bb5c16c1ad35c0bb5e16c702edc0ba1ad241ad246b4b1ad291ad29c0ba5e1681ad2dc0ba5c168702e9c0b91ad181ad186b481ad1d1ad21c0b95c16470365705a5e1680ac4998c101c106630598c00ac380ac382b100ac3d0ac4198c0582500adb598ff52254663fd98fe0ada00ada02b6a0ada53e64808a30220c600e408c33e6c83e6c808833e74944ac806a301a0c541d006c344bc844bc9131244cc944cc806c301a0c)
  (.lf 0))) (.nd (.nd (.lf
  0x463780aaf021bc021bda04e681b4681b54a8058a00461700a8d021b4549780aad462704627118bc46371463700aad021b4021b5a04c681ac681ad4a7e589f8461740a8e021b85497c0aae462744627518bd46375463740aae021b8216c800005a97a5a979cfa273f0473e89cfa1217942179485e7217992179dcfa15c91821799cfa15e9185a975cfa173f0073e85cfa0217882178885e42178d21791cfa05c9142178dcfa05e9140d709a01102bc068045a0100d6f80d6f835c00d6fd0d701a01058a00029bda010680bc680bd628002bbc0d875a04f52a046813da04e0d8600d860361a0d8650d865a04e58a0021618858758a0158a0085875a9705a971cfa073efc73e81cf9f2177c2177c85e12178121785cf9f5c91021781cf9f5e9100d6fda01002bbc68041a00f0d6ec0d6ec35bd0d6f10d6f5a00f589fc029b9a00f680b82161dcf8a2160c2160c858521611680b9627f02bb80d869a04e52a0068139a04d0d8540d85436170d8590d859a04d589fc021b9a04d681b0681b14a7f589fc589fdcf8a216c4216c400005a96e21611cf8a5a96c5a96dcf9f73ef873e7dcf9e217702177085de2177521779cf9e5c90c21775cf9e5e90c0d6f1a00f02bb8)
  (.lf 0)) (.nd (.lf
  0x6d0056ec15db045db05b45e6d1f415425b45e61b046d179b45d154141541455071541915419b45d61b001514454531514915149b3e15db001541db45d5fb005db01b45d6d1f06d175b45c154081540855041540d1540db45c61afc59bc1b3e06cffc6cffd6ebf5dafc1514db3e15bb006cf85b3e0151381513854501513d1513db3e05dafc5dafdb45c6d1ec15411b45c5fafc6d171b45b153fc153fc55011540115405b45b5faf86c0c404e549dd85fa6c05253d9d03d9d004e53da513d9500505013943b8a404e50138001395927664a5464a555ef600e94087d1927700e98649dd9276087c0087c021f2087c5087c9927657bd857bd853f159bb059bb1b3dc6cfec6d2217ecc61b30087c5927600e94649d99275087b4087b421ef087b95fa6805243d9cc3d9cc04e43da4d14fc5b3ce14fb414fb453ef14fb914fbc00006cf3a3d94c05040139001391927564a5064a515ef500e90087bd927557bd457bd5b3ce150b014fb9b3ce59bac6cf3966e914fb015141b3e05bafc6cf81b3df1512c1512c544d1513115135b3df5baf815131b3df5daf859bbdb3df6cff86cf7db3de1512015120544a1512515129b3de5baf415125b3de5daf459bb9b3de6cff4)
  (.lf 0)))

def shaGateTree204 : BTree :=
  .nd (.nd (.nd (.lf
  0x79ad5e6b42bc4c2bc4caf152bc512bc55e6b403f2803f29ad1f6b4f86b4f965db00ba812429ad5e537706b579ad5d124141241449071241912419ad5d5976c04629ad5d6b5f06b5f14ddb5976c122bdad2000bac6b481ad1f122ac122ac48ad122b1122b5ad1f5976c5976cb5665b6805b682112e84534844ba112d49254492552497492594925e112d5d67c4925a112d5f67c2d599ea6e2d5882d588b5642d58d2d58dea6e5b67c2bc51e6b40042879ad1e6b32bc402bc40af122bc452bc49e6b303f245d47de6b379b4879b480fc9004241241dad5d5376c6b575ad5c124081240849041240d1240dad5c5976804625ad5c6b5ec6b5ed4dda59768122b1ad1f00ba86b47dad1e122a0122a048aa122a5122a9ad1e5976803f25ad1e6b4f46b4f565da00ba459769ea6e2d6802d68000005b67e5b67e112d84530844b6112c492484924924944924d49252112c5d6784924e112c5f6782d59000007a9ba7a9b9ea6d2d57c2d57cb5612d5812d581ea6d5b6782bc45e6b30042479acde6b22bc342bc34af0f2bc392bc3de6b203f205d479e6b279b4479b440fc80042012411ad5c537686b571ad5b123fc123fc49011240112401ad5b5976404621ad5b6b5e8)
  (.lf 0)) (.nd (.lf
  0x1ef89ca27605f072729717c5e5f072721717a5e5e85e5f1ca27729187289dca261ef741ef747bdf1ef791ef7dca26605ec1ef79ca26625ec72899ca251ef681ef687bdc1ef6d1ef71ca25605e81ef6dca25625e85e5e9ca257291072895ca241ef5c1ef5c7bd91ef611ef61ca24625e41ef65ca24605e472891ca231ef501ef507bd61ef557271971785e5e05e5e1ca23729081ef59ca23605e01ef55ca23625e07288dca221ef441ef447bd31ef491ef49ca22625dc1ef4dca22605dc728898176625d93ef3c09c0026806055809e03efbc3efbc09a03f03d4583c07c001e805464407e04593c4593d166f45a3d45a3c07e001e8001e8149b1586c41ec7dc9a65c5dc0c6e19d58526c80c5759d1a020846746961b1020810268161b1020806756149b1586c5586c571765e5d87269971765e5d95e5d98176625d8625d809d93c3bc625dc09da3c3c0729098178625e0625e009db3c3c4625e409dc3c3c872911817a625e8625e809dd3c3cc625ec09de3c3d072919817c625f0625f009df3c3d47291d817d625f4625f409c03c3d872921817e625f8625f809c13c3dc72925817f625fc625fc09c23c3e0729298180626006260009c33c3e47292d818162604)
  (.lf 0))) (.nd (.nd (.lf
  0x400f00dcd40171400f40dce40175400f80dcf40179400fc0dd04017d401000dd140181401040dd240185401080dd3401894010c0dd44018d401100dd540191401140dd640195401180dd7401994011c0dd84019d401200dd9401a1401240dda401a5401280ddb401a94012c0ddc401ad401300ddd401b1401340dde401b5401380ddf401b952f41d967766187659dd96625c4425c44971325c4925c4dd96654f3c25c49d96656f3c52f3dd9667661476599d96525c3825c38971025c3d25c41d96554f3825c3dd96556f3852f39d9657661076595d96425c2c25c2c970d25c3125c35d96454f3425c31d96456f3452f35d9647660c76591d96325c2025c20970a25c2525c29d96354f3025c25d96356f3052f31d963766087658dd96225c1425c14970725c1925c1dd96254f2c25c19d96256f2c52f2dd9627660476589d96125c0825c08970425c0d25c11d96154f2825c0dd96156f2852f29d9617660076585d96025bfc25bfc970125c0125c05d96054f2425c01d96056f2452f25d960765fc76581d95f25bf025bf096fe25bf525bf9d95f54f2025bf5d95f56f2052f21d95f765f87657dd95e25be425be496fb25be925bedd95e54f1c25be9d95e56f1c)
  (.lf 0)) (.nd (.lf
  0xa07d96a55201c0a07996a55801c51f454fd155f441808dba7153f486e9c54fd155f4555f440436418bc6ea8d4fe555f9455f94042a4190c418e00436010ac4190c0421010d8443940456010d853f9c04764449444495114544595445940476010d8010d996a565b1065a9596a40a0680a068281c0a06d0a06d96a45801865b25480c580306ed857f9e61e7861e7805e13bc5c61ec005f33bca43bc5c05f3017b83e1880613017cc5fea406333e2083e20805f33e289017cd966465a0c6ed897f9f61e7c61e7c05e23bc6061ec405f43bca83bc6005f4017bc3e18c0614017d05fea806343e20c3e20c05f43e28d017d1966565a1065a116005012d06ea894fe455f90418d40433010a0443880453010cc53f9004734448844489114244589445880473010cc010cd96a265b046ed8d7fa061e8061e8005e33bc6461ec805f53bcac3bc6405f5017c03e1900615017d45feac06353e2103e21005f53e291017d5966665a1409f0027c209f0509f0996665801809f059666012d465999966509ef409ef427bf09ef909ef99665012d06ed817f9d61e7461e7405e03bc583bc5805f2017b409efd96655801465995966409ee809ee827bc09eed09ef1966458010)
  (.lf 0)))

def shaGateTree205 : BTree :=
  .nd (.nd (.nd (.lf
  0x77d1ddf462866c2866ca19d2867128675df465520028671df465720053201df4677d9477d19df452866028660a19a2866528669df45551fc28665df45571fc531fddf4577d9077d15df442865428654a197286592865ddf44551f828659df44571f8531f9df4477d8c77d11df432864828648a1942864d28651df43551f42864ddf43571f4531f5df4377d8877d0ddf422863c2863ca1912864128645df42551f028641df42571f0531f1df4277d8477d09df412863028630a18e2863528639df41551ec28635df41571ec531eddf4177d8077d05df402862428624a18b286292862ddf40551e828629df40571e8531e9df4077d7c77d01df3f2861828618a1882861d28621df3f551e42861ddf3f571e4531e5df3f77d7877cfddf3e2860c2860ca1852861128615df3e551e028611df3e571e0531e1df3e77d7477cf9df3d2860028600a1822860528609df3d551dc28605df3d571dc531dddf3d77d7077cf5df3c285f4285f4a17f285f9285fddf3c551d8285f9df3c571d8531d9df3c77d6c77cf1df3b285e8285e8a17c285ed285f1df3b551d4285eddf3b571d4531d5df3b77d6877ceddf3a285dc285dca179285e1285e5df3a551d0285e1df3a571d0)
  (.lf 0)) (.nd (.lf
  0xb39199fc52368667f199fb0b37c0b37c2ce10b3810b38599fb523640b38199fb5836444ddc06e801b20542e4070844edc44edd13d744fdd44fdc070801b2001b2199fb66868667ed99fa0b3700b3702cde0b3750b37999fa5236044dd006e501b1444dd406e601b1844dd806e701b1c542d8070544ed0542dc070644ed4542e0070744ed844ed113d444fd144ed513d544fd544ed913d644fd944fd0070501b1444fd4070601b1844fd8070701b1c0b37599fa5836001b1d99fa66864667e999f90b3640b3642cdb0b3690b36d99f95235c0b36999f95835c01b1999f966860667e599f80b3580b3582cd80b35d0b35d99f85835801b1599f86685c0b36199f852358667e199f70b34c3e84808e30230c3e84c08e4023103e85008e5023143e85408e6023183e85808e70231c3e85c08e802320601e409033e8c8601e809043e8cc601ec09053e8d0601f009063e8d4601f409073e8d8601f809083e8dc3e8c808c33e9493e8cc08c43e94d3e8d008c53e9513e8d408c63e9553e8d808c73e9593e8dc08c83e95d1bb1c00005a34e5a34dc2cd70bb01bc5dc2cd5c2c01bc59c2cd5e2c070b35c2cc1bc481bc486f141bc4d1bc4dc2cc5e2bc1bc51c2cc5c2bc)
  (.lf 0))) (.nd (.nd (.lf
  0x684dd62d002cfc685d54ad058b4058b408947225582255800005aab25aab1d1a0746fc746fd72955ea545ca55d1de747f4747f40d3f4af404af42075581dd081dd132d04e3404e34207d181fc081f4607d0384f8384f8e140384fd3850207d04b2bc384fe07d04fb3c81d5607543822838228e08c3822d3822e07544e33c2251c8946224dc224dc8939224e174681d19f226b8226b889b0226bd226c1d19f5ca50684d962cf02cf858b3c894622554224e089465aaac2255400005aaae5aaadd19f746f8746f972945ea505ca51d1dd747f0747f00d3e4af3c74779d1dd22820228208a0a2282522825d1dd4af3c4af3e075481dcc81dcd32cf4e33c4e33e07d081fbc81f4207cf384ec384ece13d384f1384f607cf4b2b8384f207cf4fb383823207544cb3c81d5207533821c3821ce089382213822207534e338224e400002251a225188936224d4684d562ce02cf4685cd4ace58b38224d4893658b3958b3889365aaa85aaa9d19e746f4226bdd19f5ea507467dd19e226ac226ac89ad226b1226b5d19e5ca4c746f572935ea4c5ca4dd1dc747ec747ec0d3d4af3822829d1dd034f874775d1dc22814228148a072281922819d1dc4af384af3a075381dc8)
  (.lf 0)) (.nd (.lf
  0x14bc052f214bc514bc5b31a49f6043bdc03a800e2053ce403c843cdc43cdd0f5743ddd43ddc03c800e2000e21942b65128091dd942d51d6c650b5942c091c8091c82474091cd091cd942c57d68091d1942c51d6853ce803c943ce043ce10f5843de143de003c900e2443be003a900e2400e25942c6512c650b1942b091bc091bc2471091c1091c5942b51d64091c1942b57d64650ad942a091b0091b0246e091b5091b5942a57d6043bd803a700e1c53ce003c743cd843cd90f5643dd943dd803c700e1c00e1d942a65124091b9942a51d60650a99429091a4091a4246b091a9091a9942957d5c65125475857d6053cdc03c643cd443bd003a500e1453cd803c543cd043cd10f5443dd143dd003c500e1400e1594286511c6cce8054849f645ba71b3196cce06cce0054649f5c43bd403a600e1843cd50f5543dd543dd403c600e18091ad942951d5c00e19942965120650a59428091980919824680919d14bc9b31a0151c5ba75b31a6cce46cc69b31914bb414bb452ef14bb93ba240545015003ba280546015043ba2c0547015083ba3005480150c3ba3405490151014bbdb3190151814bb9b31949f5c6cc65b31814ba85ba6db3186ccdc6ccdc054549f58)
  (.lf 0)))

def shaGateTree206 : BTree :=
  .nd (.nd (.nd (.lf
  0x2997ca6612998129985e1cb03cd403cd5aabe6ab746ab756546045d41169daafd5351c6abf5aafc116881168845a41168d1168daafc59518043d5aafc6ac6c6ac6d4d465951811531aabf045d86aafdaabe1152011520454a1152511529aabe5951859518acab5b4345b435e5787965c7965d750b5f42c5f42de5f47984c797d1e5f32b71c2b71cadc92b7212b725e5f3614282b721e5f3634282b461e5785d42c795e1e5772b44c2b44cad152b4512b451e5775f4282b2acaca92b2a02b2a0aca9595155d229e1ca787a4787a40f34001d029981e1cb001d47872de1ca2997029970a65e2997529979e1ca03cd003cd1aabd6ab706ab716545045d011691aafc535186abf1aafb1167c1167c45a11168111681aafb59514043d1aafb6ac686ac694d455951411525aabe045d46aaf9aabd11514115144547115191151daabd5951459514aca95b4305b431e5777965879659750a5f4285f429e5f379848797cde5f22b7102b710adc62b7152b719e5f2614242b715e5f2634242b455e5775d428795dde5762b4402b440ad122b4452b445e5765f4242b2a4aca72b2982b298aca7595115d225e1c9787a0787a00f33001cc29975e1ca001d078729e1c929964)
  (.lf 0)) (.nd (.lf
  0x3c21009400256c3c2140941025703c2180942025743c21c0943025783c22009440257c3ec8c0974025503ec900975025543ec940976025583ec9809770255c3ec9c0978025603eca00979025643eca4097a025683eca8097b0256c3ecac097c025703ecb0097d025743ecb4097e025783ecb8097f0257c6042809943ed0c6042c09953ed106043009963ed146043409973ed186043809983ed1c6043c09993ed207198181106244060440099a3ed2460444099b3ed2860448099c3ed2c6044c099d3ed3060450099e3ed3460454099f3ed383ed0c09543ed8d3ed1009553ed913ed1409563ed953ed1809573ed993ed1c09583ed9d3ed2009593eda13ed24095a3eda53ed28095b3eda93ed2c095c3edad3ed30095d3edb13ed34095e3edb53ed38095f3edb90257d9bc466f8c66f119bc30be5c0be5c2f990be610be659bc3585bc0be619bc301f78025799bc366f8866f0d9bc20be500be502f960be550be599bc2585b80be559bc201f74025759bc266f8466f099bc10be440be442f930be490be4d9bc1585b40be499bc101f70025719bc166f8066f059bc00be380be382f900be3d0be419bc0585b00be3d9bc001f6c0256d9bc066f7c66f019bbf0be2c)
  (.lf 0))) (.nd (.nd (.lf
  0x828e60a38392d8392d8e4b8392dd392de0a384e52c68c89634b02ee868d814b4b58d2c24439d5e0036ec75781d5df2442424424910b2442924429d5df4b12c242cdd5a25ec4475689d5a1242bc242bc90b1242c1242c5d5a15cc402413c00007561675614904c2412c2412c904c58d2d58d2c904c5ac8c5ac8dd5a1757007570173105ec405cc41d5df757f8757f80dba4b12c4b12e0a388295c8295d334b4e52c4e52e0ab482b4c82ad20ab33959c3959ce569395a1395a60ab34b4a8395a20ab34fd28392e20a384cd2c828e20a37392cc392cce4b5392d1392d20a374e52868c85634a02ee468d7d4b4a58d282442dd5df036e87577dd5de244182441891082441d2441dd5de4b128242c1d5a15ec4075685d5a0242b0242b090ae242b5242b9d5a05cc3c24130904a2412424124904a58d2958d28904a5ac885ac89d5a0756fc756fd730f5ec3c5cc3dd5de757f4757f40db94b1284b12a0a378295882959334a4e5284e52a0ab382b4882ace0ab23959039590e566395953959a0ab24b4a4395960ab24fd24392d60a374cd28828de0a36392c0392c0e4b2392c5392c60a364e52468c81634902ee068d794b4958d2424421d5de036e475779d5dd2440c)
  (.lf 0)) (.nd (.lf
  0x30e78c3a030e7d30e7df3704ed1c30e81f3704a49c4d51df3707ce3c7cdc1f36f30e6c30e6cc39d30e7130e71f36f4ed1830e75f36f4a4984d519f36f7ce387cdbdf36e30e6030e60c39a30e6530e65f36e4ed1430e69f36e4a4944d515f36e7ce347cdb9f36d30e5430e54c39730e5930e59f36d4ed1030e5df36d4a4904d511f36d7ce307cdb5f36c30e4830e48c39430e4d30e51f36c4a48c30e4df36c4ed0c4d50df36c7ce2c7cdb1f36b30e3c30e3cc39130e4130e41f36b4ed084d509f36b7ce2830e45f36b4a4887cdadf36a30e3030e30c38e30e3530e39f36a4a4844d505f36a7ce2430e35f36a4ed047cda9f36930e2430e24c38b30e2930e2df3694a4804d501f3697ce2030e29f3694ed007cda5f36830e1830e18c38830e1d30e1df3684ecfc30e21f3684a47c4d4fdf3687ce1c7cda1f36730e0c30e0cc38530e1130e11f3674ecf84d4f5f3667ce147ce15291d4ecf44d4f9f3677ce1830e15f3674a4787cd9df36630e0030e00c38230e0530e05f3664ecf44ecf52887062187ce1d291f4ecfc4ecfd2889062207ce3929264ed184ed1928900623c0621928904a2380622128724a2404a241f4717d2407d2412f904d6404be41f4af7d338)
  (.lf 0)))

def shaGateTree207 : BTree :=
  .nd (.nd (.nd (.lf
  0x511d00006059348188c0024511d4511d4000705938818900025511d8511d800080593c818940026511dc511dc000905940818980027511e0511e0000a059448189c0028511e4511e4000b05948818a00029511e8511e8000c0594c818a4002a511ec511ec000d05950818a8002b511f0511f0000e05954818ac002c511f4511f4000f05958818b0002d511f8511f800100595c818b4002e511fc511fc001105960818b8002f5120051200001205964818bc00305120451204001305968818c00031512085120800140596c818c400325120c5120c001505970818c800335121051210001605974818cc00345121451214001705978818d00035512185121800180597c818d400365121c5121c001905980818d800375122051220001a05984818dc00385122451224001b05988818e000395122851228001c0598c818e4003a5122c5122c001d05990818e8003b5123051230001e05994818ec003c5123451234001f059980592800120001c0592c00130002005930001400024059340015000280593800160002c0593c001700030059400018000340594400190003805948001a0003c0594c001b0004005950001c0004405954001d0004805958001e0004c)
  (.lf 0)) (.nd (.lf
  0x6fc3008c34a5506fbb9beed1a0b01a0b0682e1a0b51a0b5beed4a5504a551f96b7e6287e5adf96a330b0330b0cc2e330b5330b5f96a4d94c330b9f96a4c14c1a0b9beed0230c6fbb5beec1a0a41a0a4682b1a0a91a0adbeec023081a0a9beec4a54c6fb3570185e0605c061beec6fc2c6fbb1beeb1a0981a09868281a09d1a09dbeeb4a5484a549f9697e6207e62130524d9486fc2c08c24a54c4a54df96a7e6247e5a9f969330a4330a4cc2b330a9330adf9694c1484c149f9a77e7183e43c0660019005ffd808803e4bc3e4bc06403e53d7e63130564d9584c159f9ab7e72833245f9ab4ad587e6adf9aa3323033230cc8e3323533239f9aa4ad5433235f9aa509547e62d30554d9544c155f9aa7e7247e6a9f9a93322433224cc8b332293322df9a94ad506fab570165e05933229f9a9509507e62930544d9504c151f9a97e7207e6a5f9a83321833218cc883321d33221f9a84ad4c3321df9a85094c7e62530534d94c4c14df9a87e71c7e6a1f9a73320c3320ccc853321133215f9a74ad480a68597c601b0401901605101b0065f19605101b01447bc04a001200540c40680448bc448bd124f449bd449bc0680012006601148515814501201485158144)
  (.lf 0))) (.nd (.nd (.lf
  0xd52d9fc95295c0290d9f8867e9c021199fc967fa067f259fc80d5180d51835480d51d0d51d9fc8589580d5219fc85295867e9d625402b0c021159fc867f9c67f219fc70d50c0d50c35450d5110d5119fc7589540d5159fc752954021119fc767f9867f1d9fc60d5000d50035420d5050d5059fc65895067ea1625502b10680054a70589c067f0d627002b7c589c083f05a93020fc083e420f8c20f8c83e4589bd67f09626f02b78680014a6f589bc589bc83e45a92c20f9083e220f8420f8483e2589b967f05626e02b7467ffd4a6e589b8589b883e25a92820f8883ef20f7820f7883e020f7d20f7c83ef5a92467ff94a6d589b467f01626d02b70589b483ef20ff020f80000020fbe20fbc83dd20f7020f7083dd589b167efd626c02b6c67ff54a6c589b0589b083dd5a92020f7483ee20f6420f6483db20f6920f6c000020fba20f6883ee5a91c67ff14a6b589ac67ef9626b02b68589ac83ee20fec20fb883d820f5c20f5c83d8589a967ef5626a02b6467fed4a6a589a8589a883d85a91820f6083d620f5420f5483d6589a567ef1626902b6067fe94a69589a4589a483d65a91420f5883d420f4c20f4c83d4589a167eed626802b5c67fe54a68589a0)
  (.lf 0)) (.nd (.lf
  0x63df12de300a4853a8c033243584435850d81436854368403324b78c4b78d91c9647a00842991c957b0c6472591c8084180841821080841d63ded2de200a4453a88033143580435810d80436814368003314b788413cd2de24b75c0842191c851b080841d91c857b084b78991c86479c6472191c70840c0840c2105084110841591c751b040841191c757b04413c92de14b7584367c03304b7844b78591c7647986471d91c608400084002102084050840991c651b0053a80032f43578435790d7e4367943478030f4b78063de52de000a3c413c52de04b75443678032f4b7800840591c657b004b78191c6647946471991c5083f4083f420ff083f9435750d7d4367543674032e4b77c43474030e4b77c413c12ddf4b75063de12ddf00a384b77d91c564790083f991c557afc083fd91c551afc6471591c4083e8083e820fc083ed083ed91c457af8413bd2dde4b74c43470030d4b77863ddd2dde00a3453a78032d43570435710d7c4367143670032d4b7784b77991c46478c083f191c451af86471191c3083dc083dc20f9083e1075a58f534b764848a58f5363dc863d4d8f5207590075901d6607595075958f5200a1c848a18f5263dc4075998f524b760)
  (.lf 0)))

def shaGateTree208 : BTree :=
  .nd (.nd (.nd (.lf
  0x841b6106c48dc848dc9237448dcd48dd2106c5b7e048dce106c00a082d121e9b20058c7a6c9e9b12d1102d110b4462d1152d119e9b1040885d5e1e9b17a7407a7401022005880408a106c8422c841b2106b48dbc48dbd237148dc148dc6106b5b7dc48dc2106b00a042d115e9b1005887a6c5e9b02d1042d104b4432d1092d10de9b0040845d5dde9b07a73c7a73c10210058404086106b84228842a1664d00a7c8429d664c00a7884299664b00a7484295664a00a7084291664900a6c8428d664800a6884289664700a6484285664600a6084281664500a5c8427d664400a5884279664300a5484275664200a5084271664100a4c8426d664000a4884269663f00a4484265663e00a4084261663d00a3c8425d663c00a3884259663b00a3484255663a00a3084251663900a2c8424d663800a2884249663700a2484245663600a2084241663500a1c8423d663400a1884239663300a1484235663200a1084231663100a0c8422d6df800a08842296df700a042d109e9b0005845d5d81020005807a6c0102000581040816df600a00841ad6df600a0159935ed025b8545b855ed2d7b5307b53176155f8545f855eda97b7207b6a5eda82ed182ed18bb482ed1d)
  (.lf
  0x8499d8fcd63fb063fb12e1700b18131ec4c7d131f1131f5af97539dc07e0590c6579e06431990c507df407df41f7f07df9078658fce00b1c63f398fcd0785407dfd90c5519dc5395d2dd743254432550cb543355078541e17078590785d8fcd4b85c433552dd74b85c4b85d90c564390643914677579dc519ddaf976bed8131f1af97559dc6be5daf96131e0131e04c7a131e5849818fa863f1c63ea18fa70780c8497d8fa763f180780c1e0507811078158fa74b83c078118fa700af863e9d8fa607800078001e0207805078058fa600af46bf214e8955a2455a252dff4139c07df990c5579dc6431590c407de807de81f7c07ded539592dd643250078598fcd00b1863f358fcc07848078481e140784d849998fcc63fac432510cb44335163fad2e1600b14078518fcc4b858433512dd64b8584b85990c46438c6438d4676579d807df190c4519d8519d9af966bed4131e5af96559d8131e9af96539d86be59af95131d4131d44c77131d96bf294e8b55a2c53a2c031a43424434250d294352543524031a4b82c539552dd54324c4324d0cb34334d849958fcb63fa8849798fa663f14078098fa64b83863e998fa5077f4077f41dff077f9077f98fa500af0))
  (.nd (.lf
  0x80f8e03e236dd036dd0db7636dd536dda03e24b48436dd603e25108436c7a03a54e08880e9603a436c6836c68db1c36c6d36c7203a44c884733e80c904ac844ac8603a480f0c80f0d32214e0844c88603e28100480f8a03e136dc436dc4db7336dc936dce03e14b48036dca03e15108036c6e03a44e08480e9203a336c5c36c5cdb1936c6136c6603a34c880733e40c8f4ac804ac8203a380f0880f0932204e0804c88203e18100080f8603e036db836db8db7036dbd36dc203e04b47c36dbe03e05107c36c6203a34e08080e8e03a236c5036c50db1636c5536c5a03a24c87c733e00c8e4ac7c4ac7e03a280f0480f05321f4e07c4c87e03e080ffc80f8203df36dac36dacdb6d36db136db603df4b47836db203df5107836c5603a24e07c80e8a03a136c4436c44db1336c4936c4e03a14c878733dc0c8d4ac784ac7a03a180f0080f01321e4e0784c87a03df80ff880f7e03de36da036da0db6a36da536daa03de4b47436da603de5107436c4a03a14e07880e8603a036c3836c38db1036c3d36c4203a04c874733d80c8c4ac744ac7603a080efc80efd321d4e0744c87603de80ff480f7a03dd36d9436d94db6736d9936d9e03dd4b47036d9a03dd51070)
  (.lf 0))) (.nd (.nd (.lf
  0x2769ddcef60f6c27699dcef62f6c273d9dc745cf70771d1dc73273c4273c49cf3273c9273c9dc735ef6c271f89c7c271ec271ec9c7c59059590589c7c5af985af99dc73772487724973db5ef6c5ef6ddcef77438773bddcee27688276889da42768d27691dcee60f682768ddcee62f68273cddc735cf6c771cddc72273b8273b89cf0273bd273bddc725ef68271f09c7a271e4271e49c7a59055590549c7a5af945af95dc72772447724573da5ef685ef69dcee77434773b9dced2767c2767c9da12768127685dced60f6427681dced62f64273c1dc725cf68771c9dc71273ac273ac9ced273b1273b1dc715ef64271e89c78271dc271dc9c7859051590509c785af905af91dc71772407724173d95ef645ef65dced77430773b5dcec27670276709d9e2767527679dcec60f6027675dcec62f60273b5dc715cf64771c5dc70273a0273a09cea273a5273a5dc705ef60271e16be2271d4271d56412271d9271d96be25af8c5904d6be2273482734800005af8e5af8ddc707723c7723d73d85ef605ef61dcec7742c773b1dceb27664276649d9b276692766ddceb60f5c27669dceb62f5c273a9dc705cf60771c1dc6f27394273949ce72739927399dc6f5ef5c)
  (.lf 0)) (.nd (.lf
  0x3e35c0648018a05ff7806683e3dc3e3dc06283e45d0a409975101aa0018a1975165dc065d4597500a3f81973c65cd197301973065cd580e95406804a9447604476111f8448614486004a9011a4446600489011a4011a5979065ebc65ebd483a580e865dc5603a01aa40a58d9791520ec65e4597900a5780a57829600a57d0a57d9790580e8580e865cd5a0a05a0a1bdbd6f770198c9bdbe5e0006f6f9bdbd198b819a20668a19a2519a29bdfb022a43bdac0627018883e35806470189c5ff7406673e3d83e3d806273e4590189d975065dbc0a3f829000a3fd0a4019750580e00a3fd975001a9c65d41974f0a3ec3bda40625018803bda8062601884197346601197241972465cb197291972866015a09c4465c0488011a05406404a84475c4475d11f74485d4485c04a8011a0011a1978f65eb865eb94839580e465dc1603901aa00a5819790520e865e41978f0a56c0a56c295d0a5710a571978f580e4580e46601198341972c0000198061980465c81971c1971c65c8580e15406004a7447584475911f6448594485804a70119c4465804870119c0119d978e65eb465eb54838580e00a575978f520e465dbd603801a9c65e3d978e0a5600a560295a0a565)
  (.lf 0)))

def shaGateTree209 : BTree :=
  .nd (.nd (.nd (.lf
  0x78dede37a2a6502a650a9962a6552a655e37a5f3202a4b0a92a2a4a42a4a4a92a5940d5d121dfc577f9077f900ef2000c828b15dfc6000cc77f19dfc528b0428b04a2c328b0928b0ddfc503bc803bc9a9c36a7886a7896503044c8110d9aa02534106a809aa01110c4110c44433110c9110c9aa015940c042c9aa016a8806a8814d035940c10f6da9c4044cc6a711a9c310f5c10f5c43d910f6110f65a9c35940c5940ca92a5b3345b335e37a78e6478e6574c85f3205f321e3f67905478fd9e3f52a9142a914aa472a9192a91de3f56131c2a919e3f56331c2a659e37a5d32078de9e3792a6442a644a9932a6492a649e3795f31c2a4a8a9282a49c2a49ca928594095d11ddfc477f8c77f8c0ef1000c428b09dfc5000c877f15dfc428af828af8a2c028afd28b01dfc403bc403bc5a9c26a7846a7856502044c4110cdaa015340c6a805aa00110b8110b84430110bd110bdaa0059408042c5aa006a87c6a87d4d025940810f61a9c3044c86a70da9c210f5010f5043d610f5510f59a9c25940859408a9285b3305b331e37978e6078e6174c75f31c5f31de3f57905078fd5e3f42a9082a908aa442a90d2a911e3f4613182a90de3f4633182a64de3795d31c)
  (.lf 0)) (.nd (.lf
  0x4c4a5fe1a7f8e47f869fe1934c6434c64d31b34c6934c6dfe194b0a034c69fe1950ca034b0dfddc4dca47f771fddb34afc34afcd2c134b0134b05fddb4c4a04a8a1fddb7f7e87f7e931284dca04c4a1fe197f8e07f865fe1834c5834c58d31834c5d34c61fe184b09c34c5dfe1850c9c34b01fddb4dca07f76dfdda34af034af0d2be34af534af9fdda4c49c4a89dfdda7f7e47f7e531274dc9c4c49dfe187f8dc7f861fe1734c4c34c4cd31534c5134c55fe174b09834c51fe1750c9834af5fdda4dc9c7f769fdd934ae434ae4d2bb34ae934aedfdd94c4984a899fdd97f7e07f7e131264dc984c499fe177f8d87f85dfe1634c4034c40d31234c4534c49fe164b09434c45fe1650c9434ae9fdd94dc987f765fdd834ad834ad8d2b834add34ae1fdd84c4944a895fdd87f7dc7f7dd31254dc944c495fe167f8d47f859fe1534c3434c34d30f34c3934c3dfe154b09034c39fe1550c9034addfdd84dc947f761fdd734acc34accd2b534ad134ad5fdd74c4904a891fdd77f7d87f7d931244dc904c491fe157f8d07f855fe1434c2834c28d30c34c2d34c31fe144b08c34c2dfe1450c8c34ad1fdd74dc907f75dfdd634ac034ac0d2b234ac534ac9fdd64c48c)
  (.lf 0))) (.nd (.nd (.lf
  0x75011d403236f8236f88dc0236fd23701d40360b04236fdd40362b045eb05d403750887500dd402236ec236ec8dbd236f1236f5d40260b00236f1d40262b005eb01d4027508475009d401236e0236e08dba236e5236e9d40160afc236e5d40162afc5eafdd4017508075005d400236d4236d48db7236d9236ddd40060af8236d9d40062af85eaf9d4007507c75001d3ff236c8236c88db4236cd236d1d3ff60af4236cdd3ff62af45eaf5d3ff7507874ffdd3fe236bc236bc8db1236c1236c5d3fe60af0236c1d3fe62af05eaf1d3fe7507474ff9d3fd236b0236b08dae236b5236b9d3fd60aec236b5d3fd62aec5eaedd3fd7507074ff5d3fc236a4236a48dab236a9236add3fc60ae8236a9d3fc62ae85eae9d3fc7506c74ff1d3fb23698236988da82369d236a1d3fb60ae42369dd3fb62ae45eae5d3fb7506874fedd3fa2368c2368c8da52369123695d3fa60ae023691d3fa62ae05eae1d3fa7506474fe9d3f923680236808da22368523689d3f960adc23685d3f962adc5eaddd3f9750605ead982b662ad874fe582b662ad962ad80d193c8bc7506182b762adc62adc0d1a3c8c07506582b862ae062ae00d1b3c8c47506982b962ae462ae40d1c3c8c8)
  (.lf 0)) (.nd (.lf
  0x4ced2a034a7e004cf12a044a7e404cf52a054a7e804cf92a064a7ec04cfd2a074a7f004d012a084a7f404d052a094a7f804d092a0a4a7fc04d0d2a0b4a80004d112a0c4a80404d152a0d4a80804d192a0e4a80c04d1d2a0f4a81004d212a104a81404d2529f14a81804d2929f24a81c04d2d29f34a82004d3129f44a82404d3529f54a82804d3929f64a82c04d3d29f74a83004d4129f84a83404d4529f94a83804d4929fa4a83c04d4d29fb4a84004d5129fc4a7c404d5529fd4a7c804d5929fe4a7cc04d5d29ff4a7d07ca792a2e504b8504b92a004a7d47ca7d2a2f504bc504bd2a014a7d87ca812a30504c0504c12a024a7dc4d411f1f97c8604d441f2057c8907c815f2043066830668c19c3066d4d43df2047c88c3066df2044ec3c30671f2044a3bc7c811f2033065c3065cc1993066130665f2034a3b84d439f2037c88830661f2034ec387c80df2023065030650c1963065530655f2024ec344d435f2027c88430659f2024a3b47c809f2013064430644c193306493064df2014a3b030649f2014ec304d431f2017c8807c805f2003063830638c1903063d3063df2004ec2c4d42df2007c87c30641f2004a3ac7c801f1ff3062c4d429f1ff7c878)
  (.lf 0)))

def shaGateTree210 : BTree :=
  .nd (.nd (.nd (.lf
  0x793480f8a003282ae45e4b40032c792d1e4b32ae342ae34ab8f2ae392ae3de4b303e2803e29ac276b1186b119659b0472811e89ac66536706b199ac6511e7411e74479f11e7911e79ac655966c04529ac656b2106b2114d9b5966c11d1dac280472c6b0a1ac2711d0c11d0c474511d1111d15ac275966c5966cb1d55b5805b581e8837a2887a28975605f5805f581e8ff7a4787a3fde8fe2cb8c2cb8cb2e52cb912cb95e8fe6157c2cb91e8fe6357c2c8d1e8835d5807a20de8822c8bc2c8bcb2312c8c12c8c1e8825f57c2c754b1d32c7482c748b1d3596695d37de4b279344793440f89003242ae39e4b300328792cde4b22ae282ae28ab8c2ae2d2ae31e4b203e2403e25ac266b1146b115659a0472411e7dac655366c6b195ac6411e6811e68479c11e6d11e6dac645966804525ac646b20c6b20d4d9a5966811d11ac27047286b09dac2611d0011d00474211d0511d09ac265966859668b1d35b57c5b57de8827a2847a285755f5f57c5f57de8fe7a4747a3f9e8fd2cb802cb80b2e22cb852cb89e8fd615782cb85e8fd635782c8c5e8825d57c7a209e8812c8b02c8b0b22e2c8b52c8b5e8815f5782c74de86e2c73c2c73cb1d12c7412c741e86e5b578)
  (.lf 0)) (.nd (.lf
  0x5a649c8bd723701e6f5c8bd5c5d0722f5c8bc1e6e01e6e079ba1e6e51e6e9c8bc5c5cc1e6e5c8bc5e5cc1e58800005a6465a645c8bc7236c722f1c8bb1e6d41e6d479b71e6d91e6ddc8bb5c5c81e6d9c8bb5e5c81e58400005a6425a641c8bb72368722edc8ba1e6c81e6c879b41e6cd1e6d1c8ba5c5c41e6cdc8ba5e5c45a63dc8ba72364722e9c8b91e6bc1e6bc79b11e6c11e58000005a63a5a639c8b9723601e6c5c8b95c5c01e6c1c8b95e5c0722e5c8b81e6b01e6b079ae1e6b51e6b9c8b85c5bc1e6b5c8b85e5bc1e57c00005a6365a635c8b87235c722e1c8b71e6a41e6a479ab1e6a91e6adc8b75c5b81e6a9c8b75e5b85a631c8b772358722ddc8b61e6981e69879a81e69d1e6a1c8b65c5b41e69dc8b65e5b45a62dc8b672354722d9c8b51e68c1e68c79a51e6911e695c8b55c5b01e691c8b55e5b0722d5c8b41e68071e6d51845661056610078941f8856640079541fb841f5c079501e2841f88078001e540c50d9cf15269c673c59cf00c4f80c4f831400c4fd4571007b501e545461807d545810458111624459114591007d501e5401e559cf06743c1e4b800001e5361e534794c1e4a41e4a4792b1e4a91e4ac00001e5320c4fd9cf058698)
  (.lf 0))) (.nd (.nd (.lf
  0x3625a466692140f005a4660302469199a4650eff40eff43bff0eff90eff9a4650302003621a465692100effda46558e6469195a4640efe80efe83bfc0efed0eff1a46458e600efeda4640301c0361da4646920c69191a4630efdc0efdc3bf90efe10efe5a46358e5c0efe1a4630301803619a463692086918da4620efd00efd03bf60efd50efd9a46258e580efd5a4620301403615a4626920469189a4610efc40efc43bf30efc90efcda46158e540efc9a4610301003611a4616920069185a4600efb80efb83bf00efbd0efc1a46058e500efbda4600300c0360da460691fc69181a45f0efac0efac3bed0efb10efb5a45f58e4c0efb1a45f0300803609a45f691f86917da45e0efa00efa03bea0efa50efa9a45e58e480efa5a45e0300446ebc0ba002e0046ec00ba102e0446ec40ba202e0846ec80ba302e0c46ecc0ba402e1046ed00ba502e1446ed40ba602e1846ed80ba702e1c46edc0ba802e2046ee00ba902e2446ee40baa02e2846ee80bab02e2c46eec0bac02e3046ef00bad02e3446ef40bae02e3854dc40bc046fbc54dc80bc146fc054dcc0bc246fc454dd00bc346fc854dd40bc446fcc54dd80bc546fd054ddc0bc646fd454de00bc746fd8)
  (.lf 0)) (.nd (.lf
  0x31d39f60a4aadc7d829f60931d2431d24c74b31d2931d29f609506d831bb0c6ee31bb531bb9f5ca4bed431bb5f5ca4d6d47d729f5c931ba431ba4c6eb31ba931badf5c94bed04bed1f6077d89831d2df6094aad84bed9f6097d8a07d825f60831d1831d18c74831d1d31d1df608506d431d21f6084aad44bed5f6087d89c7d821f60731d0c31d0cc74531d1131d11f607506d031d15f6074aad07d81df60631d0031d00c74231d0531d09f6064aacc09881955b011886556d955a0987009870261e0987509879955a57ec817ac967a559e9817dd5b9f70188c6e7ddb9f617dc017dc05f7217dc517dc9b9f60188859e9db9b86e75c17c69b9b95dde46e6e5b9b817c5817c585f1817c5d17c5db9b85dde017c61b9b85bde06e6e1b9b717c4c17c4c5f1517c5117c55b9b75bddc6e75d6f785dde017dc5b9f64a2cc5bde1b9f66e8546e7d9b9f517db417db45f6f17db9099ed959951ecc656659598099d8099d82678099dd099dd959857ec844040040100f8453e480421441404414110704424144240042100f8400f859598656dc656dd47b257ec857ec967a517c1817c18000059e9a59e99b9b76e7586e7596f775dddc5bdddb9f56e8506e85006214a2c8)
  (.lf 0)))

def shaGateTree211 : BTree :=
  .nd (.nd (.nd (.lf
  0x62fe80e5d3cdcc7785583fb62fec62fec0e5e3cdd07785983fc62ff062ff00e5f3cdd47785d83fd62ff462ff40e403cdd87786183fe62ff862ff80e413cddc7786583ff62ffc62ffc0e423cde077869840063000630000e433cde47786d840163004630040e443cde877871840263008630080e453cdec7787584036300c6300c0e463cdf077879840463010630100e473cdf47787d840563014630140e483cdf877881840663018630180e493cdfc7788584076301c6301c0e4a3ce0077889840863020630200e4b3ce047788d840963024630240e4c3ce0877891840a63028630280e4d3ce0c77895840b6302c6302c0e4e3ce1077899840c63030630300e4f3ce147789d840d63034630340e503ce18778a1840e63038630380e513ce1c778a5840f6303c6303c0e523ce20778a9841063040630400e533ce24778ad841163044630440e543ce28778b1841263048630480e553ce2c778b584136304c6304c0e563ce30778b9841463050630500e573ce34778bd841563054630540e583ce383cdbc0e4b039183cdc00e4c0391c3cdc40e4d039203cdc80e4e039243cdcc0e4f039283cdd00e500392c3cdd40e51039303cdd80e52039343cddc0e5303938)
  (.lf 0)) (.nd (.lf
  0x41c1006a201adc44c9806d701adc542a006f744d9844d99138644e9944e9806f701adc01add998e666b40b1602c5a0b1650b169998e523200b165998e5832066639998d0b1540b1542c570b1590b159998d5831c522455091562441aa69c06d54248701b55091562455624406b641bbc7027950a4562905629006a941c087027d50a5562945629406aa41c0c562bc06b441c34562c006b541c3841bd806b401aa441bdc06b501aa841be006b601aac41c0806a001ad441c0c06a101ad844c9006d501ad444c9406d601ad85429806f544d905429c06f644d9444d91138444e9144d95138544e9544e9006f501ad444e9406f601ad80b15d998d5231c01ad5998c666ac01ad9998d666b066635998c0b1480b1482c540b14d0b151998c523180b14d998c5831866631998b0b13c0b13c2c510b1410b141998b583140b145998b5231444c8c06d401ad05429406f444d8c44d8d138344e8d44e8c06f401ad001ad1998b666a86662d998a0b1300b1302c4e0b13541bd406b301aa044c8806d301acc5429006f344d8844d89138244e8944e8806f301acc0b135998a5831001acd998a666a40b139998a523106662999890b1240b1242c4b0b1290b12d99895230c)
  (.lf 0))) (.nd (.nd (.lf
  0x819c92c664fa184fa192bd006b2c06ad92bc44af0806add2bc54af0c06ae12bc64af1006ae52bc74af1406ae92bc84af1806aed2bc94af1c06af12bca4af2006af52bcb4af2406af92bcc4af2806afd2bcd4af2c06b012bce4af3006b052bcf4af3406b092bd04af3806b0d2bb14af3c06b112bb24af4006b152bb34aec406b192bb44aec806b1d2bb54aecc06b212bb64aed006b252bb74aed406b292bb84aed806b2d2bb94aedc819cd2c674fa1c4fa1d2bba4aee0819d12c684fa204fa212bbb4aee4819d52c694fa244fa252bbc4aee8819d92c6a4fa284fa292bbd4aeec819dd2c6b4fa2c4fa2d2bbe4aef0819e12c6c4fa304fa312bbf4aef4819e52c6d4fa344fa352bc04aef8819e92c6e4fa384fa392bc14aefc819ed2c6f4fa3c4fa3d2bc24af00819f12c704fa404fa412bc34af045e931d023741085e955d02c7412c740b1d02b21b0c21b0c86c521b1121b15d02b6095021b11d02b629505e951d02b74128740add02a21b0021b0086c221b0521b09d02a6094c21b05d02a6294c5e94dd02a74124740a9d02921af421af486bf21af921afdd0296094821af9d029629485e949d02974120740a5d02821ae821ae886bc21aed21af1d02860944)
  (.lf 0)) (.nd (.lf
  0x15555b49753c5c6d25db496155401554055521554515545b49655c5815549b49653c5864d3d471657c5851c59b4966d2d46d259b4951553415534554f1553915539b49555c5451c55b4956d2d06d2d14f1555c5455c54037a415cc415f4037b00dc06d2f54f1e55c7855c780363415f0415f0037a00dbc6d3254f2a55ca855ca8036f4162041620036600dec6d2d54f1655c586d3214f2955ca443aa8039b00dec08fd993c251d3053cb003bb43ba843ba90f0a43ca955c58037b415d043ca803bb00dec00ded93c264f8464f0993c108fc408fc423f308fc953cac03ba43ba443ba50f0943ca543aa4039a00de808fcd93c151d2c43ca403ba00de855ca4036e4161c4161c036500de800de993c164f8008fc993c157d2c64f0593c008fb808fb823f008fbd08bf1932f57c5453ca403b843b9c43b9d0f0743c9d43c9c03b800de053bd00383439c8439c90e9243ac96d31d4f2855ca055ca0036d4161841618036400de464cbd932e08be008be022fa08be5438c8036300d0c43aa0039900de453ca803b943ba043ba10f0843ca11553db49553c546d255b4941552815528554c1552d1552db49455c5008be9932e51c5043ac8038300d0c00d0d932e64d34)
  (.lf 0)))

def shaGateTree212 : BTree :=
  .nd (.nd (.nd (.lf
  0x48da811fb046ec48dac11fc046f048db011fd046f448db411fe046f848db811ff046fc5d555e7ce79fb479fb40fff004fc046fdadee6b8346b8354e105984003ffdadb06b73c6b73d661000b7c59840b6c12db502db5000005b7565b755eb177acd87acd975d55f7545f755eb937aec87ae4deb922df802df80b7e22df852df89eb92617502df85eb92637507ac5deb162dcb02dcb0b72e2dcb52dcb5eb165f7502db04b6af2dab82dab8b6af5983d5d551e7cd79fb079fb00ffe004f879f39e7cd2c41c2c41cb1092c4212c425e7cd03ff803ff9adaf6b7386b739660f00b786b7b9aded127d4127d449f7127d9127d9aded5983c046f9aded6b8306b8314e0f5983c6b6c1adaf1266c1266c499d1267112675adaf5983c5983cb6af5b7505b751eb167acd47acd575d45f7505f751eb927aec47ae49eb912df742df74b7df2df792df7deb916174c2df79eb916374c2dcb9eb165d7507ac59eb152dca42dca4b72b2dca92dca9eb155f74c2dabcb6c02daac2daacb6ad2dab12dab0b6c05b74c2c421e7cd004f879f35e7cc2c4102c410b1062c4152c419e7cc03ff45d54de7cc79fac79fac0ffd004f4127ddaded5383c6b7b5adec127c8127c849f4127cd)
  (.lf 0)) (.nd (.lf
  0x1f65dcaf9029781f659caf94abbc5c6d1caf972c6072be5caf81f6481f6487d941f64d1f64dcaf84abb81f651caf80297472be1caf71f63c1f63c7d911f6411f641caf74abb45c6c9caf772c581f645caf70297072bddcaf61f6301f6307d8e1f6351f639caf60296c72b5571af5e6bc5c6bdcaf472c4c5c6c5caf672c541f635caf64abb072bd9caf51f6241f6247d8b1f6291f629caf54abac1f62dcaf5029685c6c1caf572c5072bd5caf41f6181f6187d881f61d1f61dcaf44aba81f621caf40296472bd1caf31f60c1f60c7d851f6111f611caf34aba41f615caf30296072bcdcaf21f6001f6007d821f6051f609caf20295c1f605caf24aba072bc9caf11f5f41f5f47d7f1f5f91f5f9caf14ab9c1f5fdcaf10295872b3d71a95e6a472b4971ac5e6b05c6b1caf172c4072b4571ab5e6ac72bc5caf01f5e81f5e87d7c1f5ed5c6adcaf072c3c1f5f1caf0029541f5edcaf04ab9872bc1caef1f5dc1f5dc7d791f5e11f5e5caef029501f5e1caef4ab9472b4171aa5e6a85c6a9caef72c3872bbdcaee1f5d01f5d07d761f5d51f5d9caee0294c1f5d5caee4ab905c6a5caee72c3472bb9caed1f5c41f5c47d731f5c972b3971a85e6a05c6a1caed72c30)
  (.lf 0))) (.nd (.nd (.lf
  0x5eec1db1476ccc76c51db13268ec268ec9a3d268f1268f5db1360ebc268f1db1362ebc26631da985cec076a61da972661c2661c99892662126621da975eebc264840000264ca264c8991e2647426474991e58fa958fa8991e5aef05aef1da9776ad876ad973af5eebc5eebddb1376cc876c4ddb12268e0268e09a3a268e5268e9db1260eb8268e5db1262eb826625da975cebc76a5dda96266102661099862661526615da965eeb826478991c2646c2646c991c58fa558fa4991c5aeec5aeedda9676ad476ad573ae5eeb85eeb9db1276cc476c49db11268d4268d49a37268d9268dddb1160eb4268d9db1162eb426619da965ceb876a59da95266042660499832660926609da955eeb426470991a2646426464991a58fa158fa0991a5aee85aee9da9576ad076ad173ad5eeb45eeb5db1176cc076c45db10268c8268c89a34268cd268d1db1060eb0268cddb1062eb02660dda955ceb476a55da94265f8265f89980265fd265fdda945eeb02646899182645c2645c991858f9d58f9c99185aee45aee5da9476acc76acd73ac5eeb05eeb1db1076cbc76c41db0f268bc268bc9a31268c1268c5db0f60eac268c1db0f62eac26601da945ceb076a51da93265ec)
  (.lf 0)) (.nd (.lf
  0x3262df7894ac087de25f7883261832618c9883261d32621f7884ac047d9f929ae4ef384ef3929014a3fc6ef956fc65df185bf19bc046f08c6f08c06704a40418c90632618c9518c95bc044a4044a405f74a7dda47dda530014d804324c1f74b4d8087dd2df74a324b0324b0c92e324b5324b9f74a4c0044c005f7887de9c3261df788508047de21f7873260c3260cc9853261132611f787508007d9f529ad4ef344ef3529004a3f818c99bc04019c06f011bc0318c8418c84632318c8918c89bc034a4006ef916fc55df145bf15bc036f0886f088066f4a4004a401f7497dda0324b5f74a4d8047dda130004d8007dd29f749324a4324a4c92b324a9324adf7494c0004c001f7877de9832615f7874ac007de1df7863260032600c9823260532609f7864abfc7d9f129ac4ef304ef3128ff4a3f418c8dbc03019bc6f00dbc0218c7818c78632018c7d18c7dbc024a3fc6ef8d6fc45df105bf11bc026f0846f084066e4a3fc4a3fdf7487dd9c7dd9d2fff4d7fc324a9f7494d8007dd25f7483249832498c9283249d324a1f7484bffc4bffdf7867de9432605f786507fc7de19f785325f4325f4c97f325f9325f9f785507f87d9ed29ab4ef2c4ef2d28fe4a3f0)
  (.lf 0)))

def shaGateTree213 : BTree :=
  .nd (.nd (.nd (.lf
  0x29330a4ce2933529339e0f06117429335e0f06317429075e0755d178781d5e0742906029060a41a2906529065e0745f17428ebc000028faa28fa8a3e928ea828ea8a3ac28ead28eaca3e95b19459260a3e928fe828fe800005b1965b195e0747824c7824d745d5f1745f175e0f07843c783c1e0ef2932429324a4cb293292932de0ef6117029329e0ef6317029069e0745d174781d1e0732905429054a4172905929059e0735f17028eb0000028fa628fa4a3e828e9c28e9ca3a928ea128ea0a3e85b1905925ca3e828fe428fe400005b1925b191e0737824878249745c5f1705f171e0ef78438783bde0ee2931829318a4c82931d29321e0ee6116c2931de0ee6316c2905de0735d170781cde0722904829048a4142904d2904de0725f16c28ea4000028fa228fa0a3e728e9028e90a3a628e9528e94a3e75b18c59258a3e728fe028fe000005b18e5b18de0727824478245745b5f16c5f16de0ee78434783b9e0ed2930c2930ca4c52931129315e0ed6116829311e0ed6316829051e0725d16c781c9e0712903c2903ca4112904129041e0715f16828e98000028f9e28f9ca3e628e8428e84a3a328e8928e88a3e65b18859254a3e628fdc28fdc00005b18a)
  (.lf 0)) (.nd (.lf
  0x34121fc284aa9c3411dfc284f31c4db1dfc287f11c7f0a1fc273410c3410cd0453411134115fc274aa9834111fc274f3184db19fc277f1187f09dfc263410034100d0423410534109fc264aa9434105fc264f3144db15fc267f1147f099fc25340f4340f4d03f340f9340fdfc254aa90340f9fc254f3104db11fc257f1107f095fc24340e8340e8d03c340ed340f1fc244aa8c340edfc244f30c4db0dfc247f10c7f091fc23340dc340dcd039340e1340e5fc234aa88340e1fc234f3084db09fc237f1087f08dfc22340d0340d0d036340d5340d9fc224aa84340d5fc224f3044db05fc227f1047f089fc21340c4340c4d033340c9340cdfc214aa80340c9fc214f3004db01fc217f1007f085fc20340b8340b8d030340bd340c1fc204aa7c340bdfc204f2fc4dafdfc207f0fc7f081fc1f340ac340acd02d340b1340b5fc1f4aa78340b1fc1f4f2f84daf9fc1f7f0f87f07dfc1e340a0340a0d02a340a5340a9fc1e4aa74340a5fc1e4f2f44daf5fc1e7f0f47f079fc1d3409434094d027340993409dfc1d4aa7034099fc1d4f2f04daf1fc1d7f0f07f075fc1c3408834088d0243408d34091fc1c4aa6c3408dfc1c4f2ec4daedfc1c7f0ec7f071fc1b3407c)
  (.lf 0))) (.nd (.nd (.lf
  0x5ea41d217748d87485dd2162294c2294c8a552295122955d21660a3c22951d21662a3c5ea3dd216748d474859d21522940229408a522294522949d21560a3822945d21562a385ea39d215748d074855d21422934229348a4f229392293dd21460a3422939d21462a345ea35d214748cc74851d21322928229288a4c2292d22931d21360a302292dd21362a305ea31d213748c87484dd2122291c2291c8a492292122925d21260a2c22921d21262a2c5ea2dd212748c474849d21122910229108a462291522919d21160a2822915d21162a285ea29d211748c074845d21022904229048a43229092290dd21060a2422909d21062a245ea25d210748bc74841d20f228f8228f88a40228fd22901d20f60a20228fdd20f62a205ea21d20f748b87483dd20e228ec228ec8a3d228f1228f5d20e60a1c228f1d20e62a1c5ea1dd20e748b474839d20d228e0228e08a3a228e5228e9d20d60a18228e5d20d62a185ea19d20d748b074835d20c228d4228d48a37228d9228ddd20c60a14228d9d20c62a145ea15d20c748ac74831d20b228c8228c88a34228cd228d1d20b60a10228cdd20b62a105ea11d20b748a87482dd20a228bc228bc8a31228c1228c5d20a60a0c)
  (.lf 0)) (.nd (.lf
  0x7bafd2e8f4d23c49e41eea17bb007ba85eea02f2b82f2b8bcb02f2bd2f2c1eea04ba3c4ba3deede7bbf47bb012e904d2404ba41eedf7bbf87bb7deede2f4202f420bd0a2f4252f429eede4a63c2f425eede5023c7bb79eedd2f4142f414bd072f4192f419eedd5023849e39ee9f7baf849e2dee9c7baec2f2bdeea04d23c49e35ee9e7baf47ba81ee9f2f2ac2f2acbcad2f2b12f2b1ee9f4d2382f2b5ee9f4ba387ba7dee9e2f2a02f2a0bcaa2f2a52f2a9ee9e4ba342f2a5ee9e4d2347ba79ee9d2f2942f294bca72f2992f299ee9d4d2302f29dee9d4ba307ba75ee9c2f2882f288bca42f28d2f28dee9c4d22c2f291ee9c4ba2c7ba71ee9b2f27c2f27cbca12f28149e29ee9b7bae82f285ee9b4ba282f281ee9b4d2287ba6dee9a2f2702f270bc9e2f2752f279ee9a4ba247baf52e8d4d2347baf92e8e4d2384ba39eedd7bbf02f41deedd4a6387bb75eedc2f4082f408bd042f40d2f40deedc502344ba35eedc7bbec2f411eedc4a6347bb71eedb2f3fc2f275ee9a4d22449e25ee9a7bae47ba69ee992f2642f264bc9b2f2692f269ee994d22049e21ee997bae02f26dee994ba207ba65ee982f2582f258bc982f25d2f25dee984d21c2f261ee984ba1c)
  (.lf 0)))

def shaGateTree214 : BTree :=
  .nd (.nd (.nd (.lf
  0x2b0ade527554cc2b0a9e527574cc534cde527795187949de5262b0982b098ac282b09d2b0a1e526554c82b09de526574c8534c9e52679514534c55531574c4794995531574c5574c4111642e3c795155532574c8574c8111742e40795195533574cc574cc111842e447951d5534574d0574d0111942e48795215535574d4574d4111a42e4c795255536574d8574d8111b42e50795295537574dc574dc111c42e547952d5538574e0574e0111d42e58795315539574e4574e4111e42e5c79535553a574e8574e8111f42e6079539553b574ec574ec110042e647953d553c574f0574f0110142e6879541553d574f4574f4110242e6c79545553e574f8574f8110342e7079549553f574fc574fc110442e747954d55405750057500110542e787955155415750457504110642e7c7955555425750857508110742e807955955435750c5750c110842e847955d55445751057510110942e887956155455751457514110a42e8c7956555465751857518110b42e907956955475751c5751c110c42e947956d55485752057520110d42e987957155495752457524110e42e9c79575554a5752857528110f42ea079579554b5752c5752c111042ea47957d554c57530)
  (.lf 0)) (.nd (.lf
  0x454e51559455e5455e4078a01d2801d299bed6703067031495b5856c66f39615b01f285856dc6a61d7101d644000071a9a71a98758e1d6341d634758e58569544e80789454e0454e11558455e1455e0078901d24453e0076901d2401d259bec6702c6702d495a585680bedd9bed5256c66fb59bec0bec80bec82fb40becd0becd9bec5856858568758e5a4f8453dc076801d20544e40788454dc454dd1557455dd455dc078801d2066f31615901f201d638758c1d62c1d62c758c5856501d219beb67028670294959585640bed19bec5256866fb19beb0bebc0bebc2fb10bec10bec19beb5856458564758c5a4f41d631c6a51d6201d620758a1d6251d628000071a961d7b5c6ba5e48471ae9c6b91d7a41d7a475eb1d7a91d7a9c6b95e4801d71000005a4fe5a4fdc6b971b601d7adc6b95c48071ae5c6b81d7981d79875e81d79d1d79dc6b85e47c5a4f9c6b871b5c1d7a1c6b85c47c71ae1c6b71d78c1d78c75e51d7911d795c6b75c4785a4f5c6b771b581d791c6b75e47871addc6b61d7801d78075e21d7851d789c6b65c4741d785c6b65e474453d8076701d1c544e00787454d8454d91556455d9455d8078701d1c66f2d615801f1c0bec59beb52564)
  (.lf 0))) (.nd (.nd (.lf
  0x758bd830362c0c62c0c0d463c9f0758c1830462c1062c100d473c9f4758c5830562c1462c140d483c9f8758c9830662c1862c180d493c9fc758cd830762c1c62c1c0d4a3ca00758d1830862c2062c200d4b3ca04758d5830962c2462c240d4c3ca08758d9830a62c2862c280d4d3ca0c758dd830b62c2c62c2c0d4e3ca10758e1830c62c3062c300d4f3ca14758e5830d62c3462c340d503ca18758e9830e62c3862c380d513ca1c758ed830f62c3c62c3c0d523ca20758f1831062c4062c400d533ca24758f5831162c4462c440d543ca28758f9831262c4862c480d553ca2c758fd831362c4c62c4c0d563ca3075901831462c5062c500d573ca3475905831562c5462c540d583ca383c9bc0d4b035183c9c00d4c0351c3c9c40d4d035203c9c80d4e035243c9cc0d4f035283c9d00d500352c3c9d40d51035303c9d80d52035343c9dc0d53035383c9e00d540353c3c9e40d55035403c9e80d56035443c9ec0d57035483c9f00d580354c3c9f40d59035503c9f80d5a035543c9fc0d5b035583ca000d5c0355c3ca040d5d035603ca080d5e035643ca0c0d5f035683ca100d400356c3ca140d41035703ca180d42035743ca1c0d43035783ca200d440357c)
  (.lf 0)) (.nd (.lf
  0x16ba9b78653df816ba5b78655df86de19b78516b9416b945ae716b9916b99b78555df416b9db78553df46de15b78416b8816b885ae416b8d16b91b78453df051df1b7846de8c16b8db78455df06de11b78316b7c16b7c5ae116b8116b85b78353dec51dedb7836de8816b81b78355dec6de0db78216b7016b705ade16b7516b75b78255de86ded54f8e55e381714db83a61cf45dcf5b83a6e1646e0e9b8391713c1713c5c511714117141b83961cf05dcf1b8396e1606e1617f3c61cf061cf0059f3bad46e1997f4a61d2861d28058d3bb0c6e1ad7f4f61d3c61d3c05923bb203bb0c059f016683bb2005840167c51de9b7826de846de854f7a55de855de803df417606dea94f8355e0c55e0c03c84178455e3803d3417b04178403df00f50417b003ca00f7c6dedd4f9055e4043f3803ff00f7c53e40041f4403844039102e4413944138041f00f7c00f7d953a655646556547b057ec03deb805bf0167c6e1c57f5561d545fd5405df3df383df38059f3dfb90167d94fc6546c6546d5fb00117c57ec1b8be59e9059e91b8dd6e3f06e3f16f755ddd45bdd5b91b6e4e86e46db91a177e8177e85dfc177ed177edb91a4a2bc51de1b7806de7c16b79b78253de8)
  (.lf 0)))

def shaGateTree215 : BTree :=
  .nd (.nd (.nd (.lf
  0x51428009c05b5c8248400ba5142c5142c009d05b608248800bb5143051430009e05b648248c00bc5143451434009f05b6805af800920021c05afc00930022005b0000940022405b0400950022805b0800960022c05b0c00970023005b1000980023405b1400990023805b18009a0023c05b1c009b0024005b20009c0024405b24009d0024805b28009e0024c05b2c009f0025005b3000800025405b3400810025805b3800820025c05b3c00830026005b4000840026405b4400850026805b4800860026c05b4c00870027005b5000880027405b5400890027805b58008a0027c05b5c008b0020005b60008c0020405b64008d0020805b68008e0020c8249000bd5143851438008f002108249400be5143c5143c0090002148249800bf51440514400091002184ccc209c1827808270609c03903839038e4103903d3904209c0003783903e09c0514bc4ccbe09c08277c8270209bf3902c3902ce40d390313903609bf003743903209bf514b84ccba09bf82778826fe09be3902039020e40a390253902a09be003703902609be514b44ccb609be82774826fa09bd3901439014e407390193901e09bd0036c3901a09bd514b04ccb209bd82770826f609bc39008)
  (.lf 0)) (.nd (.lf
  0xab69988e5220041ac004ae0128c66239988d0ab540ab542ad70ab590ab5d988d521fc44974068e012b85417c06ae44a7444a7512bd44b7544b7406ae012b80ab59988d581fc012b9988d662b066235988c0ab480ab482ad40ab4d0ab4d988c581f80a9fd985001bbc66141984f0a9ec0a9ec2a7d0a9f10a9f5984f581fc3be44066d019a03be48066e019a43e574088e019b86009008ae3e5f43e5f4066e3e675019b9984f661b80a9f1984f01bb86613d984e0a9e00a9e02a7a0a9e53e570088d019b46008c08ad3e5f03e5f0066d3e671019b5984e661b4661b5607e01bb441abc04ad0128844970068d012b45417806ad44a7044a7112bc44b7144b7006ad012b4012b5988c662ac662ad487e581f8662b1487f581fc661b9607f01bb80a9e9984e581f81a55869541a54c1a54c6954581fd581fc69545a1a41a551bfaa1a540581f9bfaa1a6041a54069521a5451a54800006feaa1a545bfaa5a1a06fea9bfa91a5341a534694f1a5393be40066c0199c0a9e5984e01bb466139984d0a9d40a9d42a770a9d90a9dd984d581f43e56c088c019b06008808ac3e5ec3e5ec066c3e66d41b3804ac012844496c068c012b05417406ac44a6c44a6d12bb44b6d)
  (.lf 0))) (.nd (.nd (.lf
  0x4ad62050f814b8814b932584e1604c962054d815b081536054c375c8375c8dd74375cd375d2054c00018375ce054c5115c37472050f4e1608143e050e3746037460dd1a374653746a050e4c95c359ba00754f5e0801d60074359a8359a8d66c359ad359b200744ad5c4ddde00748024c8024d2b574f5dc4ad5e050e814b4814b532574e15c4c95e054c815ac81532054b375bc375bcdd71375c1375c6054b00014375c2054b5115837466050e4e15c8143a050d3745437454dd17374593745e050d4c958359ae00744f5dc801d200733599c3599cd669359a1359a600734ad584ddda007380248802492b564f5d873bb80cc54ad584ad5a050d814b0814b132564e1584c95a054b815a88152e054a375b0375b0dd6e375b5375ba054a00010375b6054a511543745a050d4e15881436050c3744837448dd143744d37452050c4c954359a200734f5d8801ce00723599035990d666359953599a00724ad544ddd6007280244802452b554f5d473bb40cc44ad544ad56050c814ac814ad32554e1544c956054a815a48152a0549375a4375a4dd6b375a9375ae05490000c375aa0549511503744e050c4e15481432050b3743c3743cdd113744137446050b4c950)
  (.lf 0)) (.nd (.lf
  0x12f69af2149d7412f6daf21013306bc85af2012f5812f584bd812f5d12f5daf2049d7012f61af200132c6bc81af1f12f4c12f4c4bd512f516c9d57e7c619f06ca097e8961a246ca317e9361a4c5fa4c051d3d9306ca1d7e8e61a386ca197e8d61a343d8b004fd013746ca0d7e8a61a286ca2d7e9261a486ca217e8f61a3c6bd4c04df49dc06bd4004dc49db46ca157e8c61a305fa48051c3d92c6c9c97e79619e4619e404dc3b7c86ca017e8761a1c61a1c04ca3b80061a3004cf3b8143b80004dc0135c3b81404c1013703d8ac04fc013703d92c04dc3d9ad013719211648c03d8b404fe013786ca357e9461a505fa50051e3d9343d93404de3d9b56c9cd7e7a619e86ca057e8861a206bd4804de49dbc3d8b804ff0137c619f004df3b7d461a2804cd3b80c61a3c04d23b8206ca397e9561a545fa54051f3d9383d93804df3d9b93b80c04df013683b82004c40137c0137d9214648cc6485192130861c0861c21890862108621921300e786c9d17e7b619ec619ec04de3b7d061a2404cc3b80861a3804d13b81c3b80804de013643b81c04c30137808625921357bbc013799213648c86484d9212086100861021860861508615921200e7408619921257bb8)
  (.lf 0)))

def shaGateTree216 : BTree :=
  .nd (.nd (.nd (.lf
  0x5f7a1ec8c7b2ac7b231ec8b2e5d82e5d8b9782e5dd2e5e1ec8b6179c2e5ddec8b6379c2e31dec105d7a07b041ec0f2e3082e308b8c42e30d2e30dec0f5f79c2e19800007afde7afddebf62e1842e184b8632e1892e189ebf65b79c2ca95e8c9005487a325e8c82ca842ca84b2a32ca892ca8de8c8040445d59de8c87a39c7a39c10110054412a1dae5d5388c6b975ae5c12a0812a084a8412a0d12a0dae5c5988804745ae5c6b9ec6b9ed4e2259888128b1ae1f00ac86b87dae1e128a0128a04a2a128a5128a9ae1e5988804045ae1e6b8f46b8f5662200ac459889ebf62e2282e22800005b79e5b79dec0f7b0b87b0b975e75f79c5f79dec8b7b2a87b22dec8a2e5cc2e5ccb9752e5d12e5d5ec8a617982e5d1ec8a637982e311ec0f5d79c7b03dec0e2e2fc2e2fcb8c12e3012e301ec0e5f7982e18c00007afda7afd9ebf52e1782e178b8602e17d2e17debf55b7982ca89e8c8005447a321e8c72ca782ca78b2a02ca7d2ca81e8c7040405d599e8c77a3987a39810100054012a11ae5c538886b971ae5b129fc129fc4a8112a0112a01ae5b5988404741ae5b6b9e86b9e94e2159884128a5ae1e00ac46b879ae1d12894128944a27128991289dae1d59884)
  (.lf
  0x12d31aed6599ac844161104491e863d292dcf009f84b73e11048448c491e9247c491ed491ee110400c78491f21104579bc844121103491dc491dd2479491e1491e61103579b84b73a110384488844895e6e00c748448d5e6f00c78579bdaed612d7012d3400006bb5a6bb584b4a12d2412d244b4a579b9579b84b4a599a8599a9aef46bc4c491e2110300c748440e1102491d0491d12476491d5491da1102579b463d1d2dcc009ec4b73211018448063d212dcd009f04b736110284484491d6110200c708440a1101491c4491c52473491c9491ca110100c6c491ce1101579b0844061100491b863d0d2dc8009dc491b92470491bd491be110000c6863d112dc9009e04b72610fe8447463d192dcb009e84b72e11008447c491c21100579ac8440210ff491ac491ad246d491b1491b210ff00c64491b610ff579a863d152dca009e44b72a10ff84478843fe10fe491a0491a1246a491a5491aa10fe579a4491a610fe00c60843fa10fd49194491952467491994919a10fd00c5c4b72210fd844704919e10fd579a0843f610fc491884918924644918d4918e10fc00c5863d092dc7009d84b71e10fc8446c4919210fc5799c843f210fb4917c4917d246149181))
  (.nd (.lf
  0x3c43c09eb027983c44009ec0279c3c44409ed027a03c4b009e80278c3c4b409e9027903c4b809ea027943f1700a0d027b46068c0a2d3f1f03f1f009ed3f2710cd1d9e5d527fc679759e5c0cd080cd0833440cd0d0cd0d9e5c587f8420bc07ed01f8845b70080d01fb454778082d45c7045c71173c45d7145d70082d01fb401fb59e5c679ec0cbb19e1f021b86787d9e1e0cba00cba032ea0cba50cba99e1e587f8027b59e1e678f4678f561fe021b4679ed49fe587f8587f87e9b1fab41f9b000001fa721fa707e9b1f99c1f99c7e691f9a11fab400005a7761f9a07e9b5a7745a775cba272f0472f0571c35e70c1fb7dcba35c71072e8dcba21fb681fb687edc1fb6d1fb6dcba25e70c5e70dcc1e730f41fe3dcc1e6270c73079cc1d1fe2c1fb71cba25c70c72e89cba11fb5c1f9a400001fa6e3f16c0a0c027b0606880a2c3f1ec3f1ec09ec3f26d0cd119e5c527f8679719e5b0ccfc0ccfc33410cd010cd019e5b587f44213807ec01f8445b6c080c01fb054774082c45c6c45c6d173b45d6d45d6c082c01fb001fb19e5b679e81fa6c7e661f9941f9947e66587f50cba59e1e021b4678799e1d0cb940cb9432e70cb990cb9d9e1d587f4027b19e1d678f0)
  (.lf 0))) (.nd (.nd (.lf
  0x3ae1e0efd0021c3ae1a0efd4ffe03ab5a0e824cfe483a0a0e813ab443ab44ead33ab493ab4a0e814e7e03693e032050fe480c82031f3692c3692cda4d3693136936031f4b3e04c7e2031f80cf880cf92cf850fe0698d54bf858fe026df9dbbc039a076ef1dbbb26de426de49b7b26de926de9dbbb4b3e026c8ddb7e5eef876df9db7d26c7c26c7c9b2126c8126c85db7d5cef426adc000026bc626bc49af026ac826ac89ab426acd26acc9af05af2458fe09af026c0026c0000005af265af25db7d76e7076e7173bd5eef45cef5dbbb76f6876f680e674b3e04b3e20e8183a8083a8133f84e7e04e7e20efd83c7083bf60efc3ae083ae08eb843ae0d3ae120efc002183ae0e0efc4ffdc3ab4e0e814cfe083a060e803ab383ab38ead03ab3d3ab3e0e804e7dc36932031f50fe080c7e031e3692036920da4a369253692a031e4b3dc4c7de031e80cf480cf52cf750fdc698d14bf758fdc26deddbbb0399c76eeddbba26dd826dd89b7826ddd26ddddbba4b3dc26c81db7d5eef476df5db7c26c7026c709b1e26c7526c79db7c5cef026ad0000026bc226bc09aef26abc26abc9ab126ac126ac09aef5af2058fdc9aef26bfc26bfc00005af225af21db7c76e6c)
  (.lf 0)) (.nd (.lf
  0x63ad29274a494063b129284a498063b529294a49c063b9292a4a4a0063bd292b4a4a4063c1292c4a4a8063c9292e4a4b0063d129304a4b8063d529114a4bc063d929124a4c0063e129144a448063e529154a44c063e929164a450063ed29174a454063f129184a458063f529194a45c7dcc529c74ef9c4ef9d291a4a4607dcc929c84efa04efa1291b4a4647dccd29c94efa44efa5291c4a4687dcd129ca4efa84efa9291d4a46c7dcd529cb4efac4efad291e4a4707dcd929cc4efb04efb1291f4a4747dcdd29cd4efb44efb529204a4787dce129ce4efb84efb929214a47c7dce529cf4efbc4efbd29224a4807dce929d04efc04efc129234a48465bd5601a01a241904800006f2be65bd1601901a2065cd1481b5806c65bcd601801a1c65bd9601b01a285806dbcaf1911c6f2bc640f1903819038640f5806965ccd481a5806858068640f5a02465cc94819580641903c640d1903019030640d5806558064640d5a02019034640b1902819028640b5806165cc548185806058060640b5a01c1902c6409190201902064095805d6f4e0089f4a4c04a4c1f8137e0c87e04df8123299032990ca663299532999f8124c0bc32995f8124d8bc6f4dc089e4a4bc)
  (.lf 0)))

def shaGateTree217 : BTree :=
  .nd (.nd (.nd (.lf
  0x47ef91fde47ff947efd1fdf47ffd47f011fe04800147f051fe14800547f091fe24800947f0d1fe34800d47f111fe44801147f151fe54801547f191fe64801947f1d1fe74801d47f211fe84802147f251fe94802547f291fea4802947f2d1feb4802d47f311fec4803147f351fed4803547f391fee4803947fbc10c00420047fc010c10420447fc410c20420847fc810c30420c47fcc10c40421047fd010c50421447fd410c60421847fd810c70421c47fdc10c80422047fe010c90422447fe410ca0422847fe810cb0422c47fec10cc0423047ff010cd0423447ff410ce0423847ff810cf0423c47ffc10d0042404800010d1042444800410d2042484800810d30424c4800c10d4042504801010d5042544801410d6042584801810d70425c4801c10d8042604802010d9042644802410da042684802810db0426c4802c10dc042704803010dd042744803410de042784803810df0427c5d0d5deda77be477be40edf0007c0427da9926a6c46a6c54cf0593c003b7da9546a5cc6a5cd64f00447c593c0a7895b2ec5b2ede28f78ab878ab974b55f2d45f2d5e30b78ca878c2de30a2a2902a290a8a62a2952a299e30a612d02a295e30a632d078a3de28e29fc0)
  (.lf 0)) (.nd (.lf
  0x345fdfd104dbdc7f441fd0f345ec345ecd17d345f1345f5fd0f4c3d84a7d9fd0f7f4b87f4b930f64dbd84c3d9fd4d7f5b07f535fd4c3474834748d1d43474d34751fd4c4afd43474dfd4c50bd4345f1fd0f4dbd87f43dfd0e345e0345e0d17a345e5345e9fd0e4c3d44a7d5fd0e7f4b47f4b530f54dbd44c3d5fd4c7f5ac7f531fd4b3473c3473cd1d13474134745fd4b4afd034741fd4b50bd0345e5fd0e4dbd47f439fd0d345d4345d4d177345d9345ddfd0d4c3d04a7d1fd0d7f4b07f4b130f44dbd04c3d1fd4b7f5a87f52dfd4a3473034730d1ce3473534739fd4a4afcc34735fd4a50bcc345d9fd0d4dbd07f435fd0c345c8345c8d174345cd345d1fd0c4c3cc4a7cdfd0c7f4ac7f4ad30f34dbcc4c3cdfd4a7f5a47f529fd493472434724d1cb347293472dfd494afc834729fd4950bc8345cdfd0c4dbcc7f431fd0b345bc345bcd171345c1345c5fd0b4c3c84a7c9fd0b7f4a87f4a930f24dbc84c3c9fd497f5a0345c1fd0b4dbc84a7c530f14dbc47f42d30f14dbc54c3c52bf150bc47f5252bf150bc550bc52bd4053b87f5a12bf250bc850bc92bd5053bc7f5a52bf350bcc50bcd2bd6053c07f5a92bf450bd050bd12bd7053c47f5ad2bf550bd4)
  (.lf 0))) (.nd (.nd (.lf
  0x5eab5d30c74cac74c31d30b230b4230b48c2f230b9230bdd30b60ab0230b9d30b62ab05eab1d30b74ca874c2dd30a230a8230a88c2c230ad230b1d30a60aac230add30a62aac5eaadd30a74ca474c29d3092309c2309c8c29230a1230a5d30960aa8230a1d30962aa85eaa9d30974ca074c25d30823090230908c262309523099d30860aa423095d30862aa45eaa5d30874c9c74c21d30723084230848c23230892308dd30760aa023089d30762aa05eaa1d30774c9874c1dd30623078230788c202307d23081d30660a9c2307dd30662a9c5ea9dd30674c9474c19d3052306c2306c8c1d2307123075d30560a9823071d30562a985ea99d30574c9074c15d30423060230608c1a2306523069d30460a9423065d30462a945ea95d30474c8c74c11d30323054230548c17230592305dd30360a9023059d30362a905ea91d30374c8874c0dd30223048230488c142304d23051d30260a8c2304dd30262a8c5ea8dd30274c8474c09d3012303c2303c8c112304123045d30160a8823041d30162a885ea89d30174c8074c05d30023030230308c0e2303523039d30060a8423035d30062a845ea85d30074c7c74c01d2ff23024230248c0b230292302dd2ff60a80)
  (.lf 0)) (.nd (.lf
  0x300bcc031300c1300c5f10b4a7b87c3ad2eed4d3b44bbb5f10a7c4a4300c1f10b503b87c3b12eee4d3b84bbb9f10b7c4a87c42df10a300b0300b0c02e300b5300b9f10a4a7b4300b5f10a503b47c429f109300a47c3a92eec4d3b04bbb1f1097c4a07c3a52eeb4d3ac4bbadf1087c49c300a4c02b300a9300a9f109503b0300adf1094a7b07c425f1083009830098c0283009d300a1f1084a7ac3009df108503ac7c421f1073008c3008cc0253009130091f107503a830095f1074a7a87c3a12eea4d3a84bba9f1077c4987c41df1063008030080c0223008530085f106503a47c39d2ee94d3a430089f1064a7a44bba5f1067c4947c419f105300747c3912ee64d3987c3952ee74d39c4bb9df1047c48c7c3992ee84d3a04bba1f1057c49030074c01f300793007df1054a7a030079f105503a07c415f1043006830068c01c3006d30071f1044a79c3006df1045039c7c411f1033005c3005cc0193006130065f1034a7984bb99f1037c48830061f103503987c40df1023005030050c0163005530059f1024a7947c38d2ee54d39430055f102503944bb95f1027c4847c409f1013004430044c013300493004df1014a7907c3892ee44d3904bb91f1017c480)
  (.lf 0)))

def shaGateTree218 : BTree :=
  .nd (.nd (.nd (.lf
  0x78efde3be2a8002a800aa022a8052a809e3be03de003de1abb96af606af616589046e011c61abf8536286afe1abf711c4c11c4c471511c5111c51abf759624044e1abf76b0586b0594d895962411af5abba046e46aee9abb911ae411ae446bb11ae911aedabb95962459624b03a5b5385b539e78979ea079ea1754e5f5385f539e8057a0907a015e8042c5302c530b14e2c5352c539e804615342c535e804635342c275e7895d53879e25e7882c2602c260b09a2c2652c265e7885f5342c0e8b0382c0dc2c0dcb038596215d335e3bd78f7078f700f77002dc2a805e3be002e078ef9e3bd2a7f42a7f4a9ff2a7f92a7fde3bd03ddc03dddabb86af5c6af5d6588046dc11c55abf7536246afddabf611c4011c40471211c4511c45abf659620044ddabf66b0546b0554d885962011ae9abb9046e06aee5abb811ad811ad846b811add11ae1abb85962059620b0385b5345b535e78879e9c79e9d754d5f5345f535e8047a08c7a011e8032c5242c524b14b2c5292c52de803615302c529e803635302c269e7885d53479e21e7872c2542c254b0972c2592c259e7875f5302c0e0b0362c0d42c0d4b0365961d5d331e3bc78f6c78f6c0f76002d82a7f9e3bd002dc)
  (.lf 0)) (.nd (.lf
  0x670c59c300c0780c07830200c07d0c0819c3058600025bd9c306713c6713d618001fbc58600777f1de2c1de2c00005a58e5a58dc7b671f541def1c7b65e51471ed9c7b51dee01dee077ba1dee51dee5c7b55e5103c248096e025a40c07d9c3001fbc670c19c2f0c06c0c06c301d0c0710c0759c2f585fc3ed74098e025b86049009ae3edf43edf4096e3ee75025b99c2f6713867231497f585fc67139617f01fb8585fc777e1de281de2800005a58a1dd5c00001ddfe1ddfc777e1dd481dd4877541dd4d1dd4c777e5a5885a589c7b571f501dee9c7b55c51071ed5c7b41ded41ded477b71ded91deddc7b45c50c3c244096d025a00c0719c2f01fb8670bd9c2e0c0600c060301a0c0653ed70098d025b46048c09ad3edf03edf0096d3ee710c0699c2e585f86722d497e585f8025b59c2e671341dd5000001ddfa1ddf877511dd401dd407751585f967135617e01fb4585f877515a5845a585c7b471f4c1ded9c7b45e50c71ed1c7b31dec83c240096c0259c41f38076c01d844556c078c01db05457407ac4566c4566d15bb4576d4576c07ac01db001db19c6b672283ed6c098c025b06048809ac3edec3edec096c3ee6d0c0659c2e01fb4670b99c2d0c054)
  (.lf 0))) (.nd (.nd (.lf
  0x690eda43a0ef700ef703bde0ef750ef79a43a52e300ef75a43a58e3002deda43a69164690e9a4390ef640ef643bdb0ef690ef6da43952e2c0ef69a43958e2c02de9a43969160690e5a4380ef580ef583bd80ef5d0ef61a43852e280ef5da43858e2802de5a4386915c690e1a4370ef4c0ef4c3bd50ef510ef55a43752e240ef51a43758e2402de1a43769158690dda4360ef400ef403bd20ef450ef49a43652e200ef45a43658e2002ddda43669154690d9a4350ef340ef343bcf0ef390ef3da43552e1c0ef39a43558e1c02dd9a43569150690d5a4340ef280ef283bcc0ef2d0ef31a43452e180ef2da43458e1802dd5a4346914c690d1a4330ef1c0ef1c3bc90ef210ef25a43352e140ef21a43358e1402dd1a43369148690cda4320ef100ef103bc60ef150ef19a43252e100ef15a43258e1002dcda43269144690c9a4310ef040ef043bc30ef090ef0da43152e0c0ef09a43158e0c02dc9a43169140690c5a4300eef80eef83bc00eefd0ef01a43052e080eefda43058e0802dc5a4306913c690c1a42f0eeec0eeec3bbd0eef10eef5a42f52e040eef1a42f58e0402dc1a42f69138690bda42e0eee00eee03bba0eee50eee9a42e52e000eee5a42e58e00)
  (.lf 0)) (.nd (.lf
  0x6e565b95817950179505e561795517955b95861dd05ddd1b9586e5dc17959b9585fdd06e561b95717944179445e53179491794db9575fdcc5ddcdb9576e5d817949b95761dcc6e55db95617938179385e501793d1793db95661dc817941b9565fdc85ddc9b9566e5d46e559b9551792c1792c5e4d1793117935b9555fdc45ddc5b9556e5d017931b95561dc46e555b95417920179205e4a1792517925b95461dc017929b9545fdc05ddc1b9546e5cc6e551b95317914179145e47179191791db9535fdbc5ddbdb9536e5c817919b95361dbc6e54db95217908179085e441790d1790db95261db85ddb9b9526e5c417911b9525fdb86e549b951178fc178fc5e411790117901b95161db417905b9515fdb45ddb5b9516e5c06e545b950178f0178f05e3e178f5178f9b9505fdb0178f5b95061db05ddb1b9506e5bc6e541b94f178e4178e45e3b178e9178edb94f5fdac178e9b94f61dac5ddadb94f6e5b86e53db94e178d8178d85e38178dd178e1b94e5fda8178ddb94e61da85dda9b94e6e5b46e539b94d178cc178cc5e35178d1178d5b94d5fda4178d1b94d61da45dda5b94d6e5b06e535b94c178c0178c05e32178c5178c9b94c5fda0178c5b94c61da0)
  (.lf 0)))

def shaGateTree219 : BTree :=
  .nd (.nd (.nd (.lf
  0x3a7fcea013a8013a8060ddb4cfb0267b1dad80397076b61dad72679c2679c99e9267a1267a1dad74b3b05cec5dad776bd876bd80e5b4b3b04b3b20ddb837e8837e933ec4e7b04cfb20e19838e0838660e183a9583a958ea583a95d3a9620e18006683a95e0e18517ac3a8020ddb4e7b08376e0dda3a7f03a7f0e9fe3a7f53a7fa0dda4cfac267a5dad70396c76b5ddad6267902679099e62679526795dad64b3ac5cec1dad676bd476bd40e5a4b3ac4b3ae0dda837e4837e533eb4e7ac4cfae0e18838dc838620e173a94c3a94cea553a9513a9560e17006643a9520e17517a83a7f60dda4e7ac8376a0dd93a7e43a7e4e9fb3a7e93a7ee0dd94cfa826799dad60396876b59dad5267842678499e32678926789dad54b3a85cebddad576bd076bd00e594b3a84b3aa0dd9837e0837e133ea4e7a84cfaa0e17838d88385e0e163a9403a940ea523a9453a94a0e16006603a9460e16517a43a7ea0dd94e7a8837660dd83a7d83a7d8e9f83a7dd3a7e20dd84cfa42678ddad50396476b55dad4267782677899e02677d2677ddad44b3a45ceb9dad476bcc76bcc0e584b3a44b3a60dd8837dc837dd33e94e7a44cfa60e16838d48385a0e153a9343a934ea4f3a939)
  (.lf 0)) (.nd (.lf
  0x664e548b0582c0582c1c0b61acfc702d9c0b51acc41acc46b331acc91accc0000702d61acc9c0b55a25c582bdc0b51acf8702d46b301acbc701a980536214c70145803a620e8620e8089d3becc7017d80486212062120088b3bf0470191804d621346213408903bf183bf04089d022603bf180882022743e6b008bd022746014c08dd3e7303e730089d3e7b10227598da663e4663e560ae01c74664dd48ae582b80ad7998da582b81acbc6b30582b9582b86b305a2587017980476211c701418039620e4620e4089c3bec86211c088a3bf007018d804c6213062130088f3bf143bf00089c0225c3bf140881022703e6ac08bc02270701a58052621486014808dc3e72c3e72c089c3e7ad0227198d9663e0663e160ad01c706636998d90ad640ad642b5b0ad690ad6d98d9582b41acc1c0b41acb0664d948ad582b4582b5c0b41acf41acb06b2e1acb51acb5c0b45a2541acf400005a2565a255c0d2703c41acfc00005a2621acf800005a25e701398037620dc620dc089a3bec07013d8038620e0620e0089b3bec4701718045621146211408883bef8701758046621186211808893befc70189804b6212c6212c088e3bf103bef8089a022543befc089b02258)
  (.lf 0))) (.nd (.nd (.lf
  0x816152c314f9454f9452b9b06a80816912c324f9484f9492b9c06a84816952c334f94c4f94d2b9d06a88816992c344f9504f9512b9e06a8c8169d2c354f9544f9552b9f06a90816a12c364f9584f9592ba006a94816a52c374f95c4f95d2ba106a98816a92c384f9604f9612ba206a9c816ad2c394f9644f9652ba306aa0816b12c3a4f9684f9692ba406aa4816b52c3b4f96c4f96d2ba506aa8816b92c3c4f9704f9712ba606aac816bd2c3d4f9744f9752ba706ab0816c12c3e4f9784f9792ba806ab4816c52c3f4f97c4f97d2ba906ab8816c92c404f9804f9812baa06abc816cd2c414f9844f9852bab06ac0816d12c424f9884f9892bac06ac4816d52c434f98c4f98d2bad06ac8816d92c444f9904f9912bae06acc816dd2c454f9944f9952baf06ad0816e12c464f9984f9992bb006ad406a812ba44ae8806a852ba54ae8c06a892ba64ae9006a8d2ba74ae9406a912ba84ae9806a952ba94ae9c06a992baa4aea006a9d2bab4aea406aa12bac4aea806aa52bad4aeac06aa92bae4aeb006aad2baf4aeb406ab12bb04aeb806ab52b914aebc06ab92b924aec006abd2b934ae4406ac12b944ae4806ac52b954ae4c06ac92b964ae5006acd2b974ae54)
  (.lf 0)) (.nd (.lf
  0x55b8c03284150441504033f00cd041530032a00cfc00cfd92ce64bb464b3992cd08a5408a54229708a596cad54ed955b6455b64033e414dc6caf94ee255b8855b8803274150041500033e00ccc438b50e4d439b56cb254eed55bb455bb403324152c4152c032900cf8439b4037e00cf800cf992cd64bb008a5992cd57c3c08a5d92cd51c3c64b3592cc08a4808a48229408a4d08a4d92cc57c3808a5192cc51c386cb214eec55bb055bb003314152841528032800cf46caf54ee155b8453bb8037d438b055b840326414fc438b10e4c439b1439b0037d00cf4414fc033d00cc800cf592cc64bac64b3192cb08a3c08a3c229108a4108a4192cb57c346cae94ede55b7855b780323414f0414f0033a00cbc51b55b2926cac4147e1b29553b606ca55b294147cc147cc51f5147d1147d1b29455b5c6caf14ee055b8051b5db2946cacc6cacd4ed755b5c55b5c033c414d4437a4035a00ce8437a8035b00cec437ac035c00cf06cb194eea55ba855ba8032f4152041520032600cec6cb1d4eeb55bac147d5b29453b5c53bb4037c438ac438ad0e4b439ad439ac037c00cf055b800325414f855bac03304152441524032700cf06ca51b293147c0414f8033c00cc4)
  (.lf 0)))

def shaGateTree220 : BTree :=
  .nd (.nd (.nd (.lf
  0x410940ff603f58410980ff703f5c4109c0ff803f60410a00ff903f64410a40ffa03f68410a80ffb03f6c410ac0ffc03f70410b00ffd03f74410b40ffe03f78410b80fff03f7c615d81000410bc615dc1001410c0615e01002410c4615e41003410c8615e81004410cc615ec1005410d0615f01006410d4615f41007410d8615f81008410dc615fc1009410e061600100a410e461604100b410e861608100c410ec6160c100d410f061610100e410f461614100f410f8616181010410fc6161c10114110061620101241104616241013411086162810144110c6162c10154111061630101641114616341017411186163810184111c6163c10194112061640101a4112461644101b4112861648101c4112c6164c101d4113061650101e4113461654101f41138410bc0fc04113d410c00fc141141410c40fc241145410c80fc341149410cc0fc44114d410d00fc541151410d40fc641155410d80fc741159410dc0fc84115d410e00fc941161410e40fca41165410e80fcb41169410ec0fcc4116d410f00fcd41171410f40fce41175410f80fcf41179410fc0fd04117d411000fd141181411040fd241185411080fd3411894110c0fd44118d411100fd541191)
  (.lf 0)) (.nd (.lf
  0x1ec19d67676186759d9d660c7800c78031e20c7850c7899d66527006761949c15870452705c9697262041fbc07ad01e8841fc007ae01e8c41fc407af01e904587007cd01eb45467807ed4597045971167c45a7145a7007ed01eb401eb59d646760c6760d49be586f80c7859d66587004587407ce01eb84587807cf01ebc5467c07ee459745468007ef4597845975167d45a7545979167e45a7945a7407ee01eb845a7807ef01ebc01ebd9d6667614675999d650c7740c77431df0c7790c7799d65586fc01eb99d65676100c77d9d65526fc675959d640c7680c76831dc0c76d0c7719d64526f8526f9c966726146761149bf586fc6761549c05870052701c9687261c725a5c9681ea701ea707a9e1ea751ea75c968567001ea79c96854700725a1c9671ea641ea647a9b1ea691ea6dc967546fc1ea69c967566fc526fdc967726187259dc9661ea581ea587a981ea5d1ea61c966546f81ea5dc966566f872599c9651ea4c1ea4c7a951ea511ea51c965566f41ea55c965546f44203807ac01e844586c07cc01eb05467407ec4596c4596d167b45a6d45a6c07ec01eb001eb19d63676086760949bd586f44203407ab01e800c76d9d64586f8675919d630c75c)
  (.lf 0))) (.nd (.nd (.lf
  0x834d533c14e7044e7060d92836c48364a0d913a6043a604e9833a6093a60e0d910013c3a60a0d914ff003a34a0d164cf048345a0d153a3343a334e8cf3a3393a33a0d154e7003612e01b450f04806d201b33611c3611cd849361213612601b34b3004c70201b380748807492cc050f000f495a52752f046949da5260f4800f4803d220f4850f485a52658f0002ebda52669514695154bc058f002602dd9d4038c076751d9d3260182601898082601d2601dd9d34b30025ec1d9965ee1876659d99525eb025eb097ae25eb525eb9d9955ce1425cec000025d9e25d9c973825cdc25cdc973858f0158f0097385ae505ae51d995766d0766d173855ee145ce15d9d3767c8767c80e2f4b3004b3020d15834d0834d133c04e7004e7020d91836c0836460d903a5f83a5f8e9803a5fd3a6020d90001383a5fe0d904fefc3a33e0d154cf00834560d143a3283a328e8cc3a32d3a32e0d144e6fc3612201b350f00806ce01b23611036110d846361153611a01b24b2fc4c6fe01b280744807452cbf50efc0f489a52652f0069499a5250f4740f4743d1f0f4790f479a52558efc02eb9a52569510695114bbf58efc26021d9d3038bc7674dd9d22600c2600c980526011)
  (.lf 0)) (.nd (.lf
  0x57f5c608859f2c18221bab1182101821060861821518215bab159f283bc2405c50170009b8195db012186576d95da09b7009b7026de09b753e05005e5017145fdec06053e0d03e0d005c53e1510171595da657e4657e55fd60121409ced961951f5c65865961809cd809cd8273809cdd441d004250101453ed80445442d0442d110d4443d1443d0044501014010159618658dc09b7995da57f58658dd47d657f5809cdd961857f5857f59bab11831c1821800006eac66eac5bab0182041820460831820918209bab059f2409ce1961851f5865861961709ccc09ccc273509cd109cd1961757f543e04c05e4017105fde806043e0cc3e0cc05c43e14d09b7595da012146576995d909b6409b6426db09b69441cc04240101053ed40444442cc442cd10d3443cd443cc044401010010119617658d8658d947d557f540171195d9657e009b6d95d957f54657e15fd50121057f55bab0183181820c00006eac26eac06080181fc181fc608057f5109cd5961751f546585d961609cc009cc0273209cc509cc5961657f50441c804230100c53ed00443442c8442c910d2443c9443c804430100c0100d9616658d43e04805e30170c5fde406033e0c83e0c805c33e149)
  (.lf 0)))

def shaGateTree221 : BTree :=
  .nd (.nd (.nd (.lf
  0x31b9a80d6a0b06a035a80c105481054841541054d1054da80c591f810551a80c531f8031b5a80c6a0ac6a031a80b1053c1053c41511054110545a80b531f4031ada80a6a0a4031b1a80b6a0a810541a80b591f46a02da80a1053010530414e1053510539a80a531f010535a80a591f06a029a80910524031a9a8096a0a010524414b1052910529a809591ec1052da809531ec6a025a808105181051841481051d10521a808531e8031a5a8086a09c1051da808591e86a021a8071050c1050c41451051110515a807531e410511a807591e4031a1a8076a0986a01da806105001050041421050510505a806591e010509a806531e003195a8046a08c03191a8036a0880319da8066a0946a019a805104f403199a8056a090104f4413f104f9104fda805531dc104f9a805591dc6a015a804104e8104e8413c104ed104f1a804531d8104eda804591d86a011a803104dc104dc4139104e1104e5a803531d4104e1a803591d46a00da802104d00318da8026a084104d04136104d5104d5a802591d0104d9a802531d06a009a801104c4104c44133104c9104c9a801591cc104cda801531cc6a0a14c7b591ec6a0954c78591e06a0914c77591dc6a0994c79591e4)
  (.lf 0)) (.nd (.lf
  0x1b8046e031b8091b809c253622481b80dc253602487094dc2521b7f81b7f86e001b7fd1b7fdc252622441b801c2526024470949c2511b7ec1b7ec6dfd1b7f11b7f1c251622401b7f5c251602405e241c251709c070945c2501b7e05e23dc250709bc1b7e06dfa1b7e51b7e5c2506223c1b7e9c2506023c70941c24f1b7d41b7d46df71b7d91b7d9c24f622385e239c24f709b81b7ddc24f602387093dc24e1b7c81b7c86df41b7cd5e225c24a709a41b7d1c24e602341b7cdc24e622345e235c24e709b470939c24d1b7bc1b7bc6df11b7c11b7c1c24d622301b7c5c24d602305e231c24d709b070935c24c1b7b01b7b06dee1b7b51b7b5c24c6222c1b7b9c24c6022c5e22dc24c709ac70931c24b1b7a41b7a46deb1b7a95e219c247709981b7a9c24b622281b7adc24b602285e229c24b709a87092dc24a1b7981b7986de81b79d1b79dc24a622241b7a1c24a6022470929c2491b78c1b78c6de51b7911b791c249622201b795c249602205e221c249709a070925c2481b7801b7806de21b7855e20dc2447098c1b789c2486021c1b785c2486221c5e21dc2487099c70921c2471b7741b7746ddf1b7791b77dc247602181b779c247622187091dc2461b768)
  (.lf 0))) (.nd (.nd (.lf
  0x4faad2bde4af7081cc92c8c4fab04fab12bdf4af7481ccd2c8d4fab44fab52be04af7881cd12c8e4fab84fab92be14af7c81cd52c8f4fabc4fabd2be24af8081cd92c904fac04fac12be34af845e9d5d1247450c74491d123222502225088962225522255d123629d05e9d1d1237450822259d123609d07448dd12222244222448893222492224dd122609cc5e9c9d1217450022249d122629cc5e9cdd1227450474489d121222382223888902223d22241d121609c82223dd121629c874485d1202222c2222c888d2223122235d120609c422231d120629c45e9c5d120744fc74481d11f2222022220888a2222522225d11f629c05e9c1d11f744f822229d11f609c07447dd11e22214222148887222192221dd11e609bc22219d11e629bc5e9bdd11e744f474479d11d222082220888842220d5e9b9d11d744f022211d11d609b82220dd11d629b874475d11c221fc221fc88812220122205d11c609b45e9b1d11b744e85e9b5d11c744ec22201d11c629b474471d11b221f0221f0887e221f5221f9d11b609b0221f5d11b629b07446dd11a221e4221e4887b221e9221e9d11a629ac221edd11a609ac5e9add11a744e474469d119221d8221d88878221dd)
  (.lf 0)) (.nd (.lf
  0x16274589f1627916279b64861bec15e00000015efe15efc57be15dec15dec577d15df115df057be59cac5b9edb2176c8d843a50038500d9453c5803a543b5043b510ef443c5143c5003a500d9400d9593ac64f2c64f2d473657cd83b9a40525014806c8d8052549ed814501b21849edc6c861b217144f0144f0513e144f5144f9b217014943db500545014945fb6c05653dbd03dbd005253dc5101495936e64e3415fb9b5cd5bbf06d735b5cc15fa464eb593ac08ec815fa457eb15fa915fa9b5cc5dbec08ec823b408ecd08ecd93ac57cd808d69936e57cd864e355f3600f9457cd857be15f3c15f3c000059cae59cadb5cc6d7ac6d7ad6efb5dbec5dbedb6486d99c6da017f1461c506d9e97f0e61c386d9d57f0961c246ccc9b33114cd414cd4533714cd914cddb331015785bad1b3316cd406cd40055e49fbc651099441092c4092c424b3092c91664400001668a6d99d7efb61bec61bec055e3b9d061c24054c3ba0861c3805513ba1c3ba08055e015643ba1c0543015783dcb4057e015785fc50059e3dd343dd34055e3ddb501579940365088650895f6f0107865181476f57dbc092c9944157dbc6501194030915c0915c24590916109165940357dbc)
  (.lf 0)))

def shaGateTree222 : BTree :=
  .nd (.nd (.nd (.lf
  0x2ac99e4705d36c791c1e46f2ac842ac84ab232ac892ac89e46f5f3682ab44aacf2ab382ab38aacf594555d169e0af78338783380f0400110291b5e0b000114782c1e0af291a4291a4a46b291a9291ade0af03c1003c11aa316a9406a94165150451011301aa70534586a9c1aa6f112ec112ec44bd112f1112f1aa6f5945404311aa6f6aa386aa394d155945411195aa32045146a8c9aa3111184111844463111891118daa315945459454aacf5b37c5b37de46f792387923974da5f3685f369e4eb79428793ade4ea2af482af48abd42af4d2af51e4ea613642af4de4ea633642ac8de46f5d368791bde46e2ac782ac78ab202ac7d2ac7de46e5f3642ab3caacd2ab302ab30aacd594515d165e0ae78334783340f030010c291a9e0af00110782bde0ae2919829198a4682919d291a1e0ae03c0c03c0daa306a93c6a93d65140450c112f5aa6f534546a9bdaa6e112e0112e044ba112e5112e5aa6e594500430daa6e6aa346aa354d145945011189aa31045106a8c5aa30111781117844601117d11181aa305945059450aacd5b3785b379e46e792347923574d95f3645f365e4ea79424793a9e4e92af3c2af3cabd12af412af45e4e9613602af41e4e963360)
  (.lf 0)) (.nd (.lf
  0x66d31613501e90584d473c05a4641cf0073be1cef466d29613301e8866d2d613401e8c1cef473be584d1584d073be5a4601cef873bc1ceec1ceec73bc584cd584cc73bc5a45c1cef169151cee80ba419b2b01e883eb400941024846035c09613ebc03ebc009213ec41024859b2a66d241d091c5b15e3f0716c5c5b01d0801d08074221d0851d089c5b05c3ec1d085c5b05e3ec1d01000005a46a5a469c5b07173c716c1c5af1d0741d074741f1d0791d07dc5af5c3e81d079c5af5e3e85a465c5af71738716bdc5ae1d0681d068741c1d06d1d071c5ae5c3e41d06dc5ae5e3e45a461c5ae71734716b9c5ad1d05c1d05c74191d0611d065c5ad5c3e01d061c5ad5e3e05a45dc5ad71730716b5c5ac1d0501d05074161d0551d059c5ac5c3dc45240074101c84544480761453404534114f04544145440076101c8466cad9b2a0ba3066d25613201e840ba302e8e0ba350ba399b2a584c801c859b6866e1c66e1d4932584c866da59b680bb980bb982ee80bb9d0bb9d9b68584c81cee96915584c9584c969155a4585a459c5ac7172c7172d70f75e3dc5c3ddc5ea718247182409a14a8c87173d70fb5e3ec5c3edc5ee718347183409a54a8d87185409ad4a8f8)
  (.lf 0))) (.nd (.nd (.lf
  0x23da1d50262b685eb69d5027548475409d50123d9023d908f6623d9523d99d50160b6423d95d50162b645eb65d5017548075405d50023d8423d848f6323d8923d8dd50060b6023d89d50062b605eb61d5007547c75401d4ff23d7823d788f6023d7d23d81d4ff60b5c23d7dd4ff62b5c5eb5dd4ff754785eb5982d662b58753fd82d662b5962b580d393c93c7547982d762b5c62b5c0d3a3c9407547d82d862b6062b600d3b3c9447548182d962b6462b640d3c3c9487548582da62b6862b680d3d3c94c7548982db62b6c62b6c0d3e3c9507548d82dc62b7062b700d3f3c9547549182dd62b7462b740d203c9587549582de62b7862b780d213c95c7549982df62b7c62b7c0d223c9607549d82e062b8062b800d233c964754a182e162b8462b840d243c968754a582e262b8862b880d253c96c754a982e362b8c62b8c0d263c970754ad82e462b9062b900d273c974754b182e562b9462b940d283c978754b582e662b9862b980d293c97c754b982e762b9c62b9c0d2a3c980754bd82e862ba062ba00d2b3c984754c182e962ba462ba40d2c3c988754c582ea62ba862ba80d2d3c98c754c982eb62bac62bac0d2e3c990754cd82ec62bb062bb00d2f3c994)
  (.lf 0)) (.nd (.lf
  0x93e424fb093e9093ed947957e24093e99479010e0651e59478093d8093d824f8093dd093e1947857e20093dd9478010dc6dd957f2161c8461c8405643ba6861ccc05763bab03ba680576015c43dd940596015d85fcb005b63de143de1405763de95015d99477652586dd997f2261c8861c8805653ba6c61cd005773bab43ba6c0577015c83dd980597015dc5fcb405b73de183de1805773de99015dd94786525c651e19477093cc093cc24f5093d1093d5947757e1c093d19477010d8651dd9476093c0093c024f2093c5093c59476010d46dd8d7f1f61c7c61c7c05623ba606dd917f2061c8061c8005633ba6461cc405743baa861cc805753baac3ba600574015bc3ba640575015c03dd900595015d45fcac05b53de103de1005753de91015d5947665254093c9947657e183dd8c0594015d05fca805b43de0c3de0c05743de8d651d99475093b4093b424ef093b9093bd947557e14093b99475010d0015d1947565250651d59474093a86dd897f1e61c7861c7805613ba5c61cc005733baa43ba5c0573015b83dd880593015cc5fca405b33de083de0805733de89093a824ec093ad093ad9474010cc093b1947457e10015cd94746524c651d194730939c)
  (.lf 0)))

def shaGateTree223 : BTree :=
  .nd (.nd (.nd (.lf
  0x82d720b5b398fc398fce64139901399060b5b4b4e0396420ae04cd6482b820adf3962c3962ce58d39631396320adf4e5604b1620adf82bf882bf933584e5604e5620b5b82de882de92d384fd60371ae0494510e48125204933719c3719cdc69371a1371a604934b4e04c8e20493812c8812c92d38510e069cb54c38590e069bbd64380419c27c59ddbb03aa0776edddba27c4427c449f1327c4927c49ddba4b4e027aeddd7d5eff8775f5dd7c27adc27adc9eb927ae127ae5dd7c5cff4279780000775a6775a5dd6827964279649e5b2796927969dd685b020590e1dd6827a5c27a5c00005b0225b021dd7c7766c7766d73fd5eff45cff5ddba77764777640ea74b4e04b4e20ff5840508405134384e8e04d0e2103384148840ce10323b5103b510ed463b5153b51a1032007983b5161032518dc3b3ba0ff54e8e083fd60ff43b3a83b3a8ecec3b3ad3b3b20ff44d0dc399020b5b4fd6082d6e0b5a398f0398f0e63e398f5398fa0b5a4b4dc396360adf4cd6082b7e0ade3962039620e58a39625396260ade4e55c4b15e0ade82bf482bf533574e55c4e55e0b5a82de482de52d374fd5c371a20493510e08124e04923719037190dc66371953719a04924b4dc)
  (.lf 0)) (.nd (.lf
  0x41ab8048c01204447ec04ac01230540f4068c448ec448ed125b449ed449ec068c0123001231980f660b86603d980e0a8600a8602a1a0a8650a869980e521700a865980e5817041ab4048b01200447e804ab0122c540f0068b448e8448e9125a449e9449e8068b0122c0122d980e660b466039980d0a8540a8542a170a8590a85d980d5216c0a859980d5816c447e404aa01228540ec068a448e4448e51259449e5449e4068a0122801229980d660b066035980c0a8480a8482a140a84d0a851980c521680a84d980c58168447e004a901224540e80689448e0448e11258449e1449e006890122401225980c660ac66031980b0a83c0a83c2a110a8410a845980b521640a841980b58164447dc04a801220540e40688448dc448dd1257449dd449dc06880122001221980b660a86602d980a0a8300a8302a0e0a8350a839980a521600a835980a58160447d804a70121c540e00687448d8448d91256449d9449d806870121c0121d980a660a46602998090a8240a8242a0b0a8290a82d98095215c0a82998095815c447d404a601218540dc0686448d4448d51255449d5449d4068601218012199809660a06602598080a8180a8182a080a81d0a821980852158)
  (.lf 0))) (.nd (.nd (.lf
  0xd1199f12588e8028a59f1267cc467cc5623a02aa40d28d9f51528ec67d459f500d2780d27834a00d27d0d27d9f50588e8020a59f5067dbc67dbd4a3a588e8588e9cd88208a8208a800005a85a5a859cd9d736f073675cd9c2092c2092c824d2093145e5c0848020a054864086845f5c45f5d17f74605d4605c0868020a0207c80000736227362081ef207b8207b881ef588e5020a19f4f67db867db94a39588e40d1159f1202aa4028a19f1167cc067cc1623902aa067c499f110d1040d10434430d1090d10d9f11588e40d2819f50528e867d419f4f0d26c0d26c349d0d2710d2719f4f588e4588e481ef5a8545a855cd9c736ec20935cd9c5c7f820931cd9c5e7f873671cd9b2092020920824a2092520929cd9b5c7f420925cd9b5e7f445e5808470209c54860086745f5845f5917f6460594605808670209c207bdcd87207ac207ac81ed207b1207b1cd875a850728240a274aae00d2759f4f528e467d3d9f4e0d2600d260349a0d2650d2659f4e588e00209d9f4e67db40289d9f1067cbc67cbd623802a9c0d1099f1102aa067c459f100d0f80d0f834400d0fd0d1019f10588e067db54a38588e0588e1cd87208a4208a400005a8525a851cd9b736e8)
  (.lf 0)) (.nd (.lf
  0x7f741fdf07f793d65d2d594b5e43b7312d794b5d063ae12d79008a04b5e591056449064589469957a64644915e9900d2007f7d910557a646458d469a57a68644955e9a00d2413af44ebe57a6957a684ebe59a5813af84ebc13aec13aec4ebc57a6557a644ebc59a54847218e9863adc63add2d780089c64585469857a603d6592d584b5e0071698e99008a063a658e9807158071581c580715d071618e984b5e007f79910500d2064415910407f6807f681fdc07f6d07f71910457a603b72d2d784b5cc5f8f404c73d6d83d6d92d783d7594b5e191046448c13af04ef413ae013ae04eba13ae513ae44ef459a506448d5e9800d1c57a604ef413c0813c08000059a5259a51b0ce6c3b46c6057e75619d45f9d404ff3d8383d8392d703d8b959a55b0cf6c3b83d6552d574b5dc59a59b0d06c3bc13ca5b0d15b9806c345b0d013c9013c904f2613c9513c99b0d05b97c13c95b0d05d97c6c3b96e5e5d9786c341b0cf13c8413c844f2313c8913c89b0cf5d9785d979b14b6c5a813f75b14d5f9806c535b14c13f6013f604fda13f6513f65b14c6197c6c3bd6e5f5d97c13f69b14c5f97c5d97db14c6c5ac6c531b14b13f5413f544fd713f5913f5db14b5f978)
  (.lf 0)))

def shaGateTree224 : BTree :=
  .nd (.nd (.nd (.lf
  0x7b62d85f6637d9617d80220499c47b6a985f7637dc617dc0221499c87b6ad85f8637e0617e00222499cc7b6b185f9637e4617e40223499d07b6b585fa637e8617e80224499d47b6b985fb637ec617ec0225499d87b6bd85fc637f0617f00226499dc7b6c185fd637f4617f40227499e07b6c585fe637f8617f80228499e47b6c985ff637fc617fc0229499e87b6cd86006380061800022a499ec7b6d186016380461804022b499f07b6d586026380861808022c499f47b6d986036380c6180c022d499f87b6dd86046381061810022e499fc7b6e186056381461814022f49a007b6e586066381861818023049a047b6e986076381c6181c023149a087b6ed86086382061820023249a0c7b6f186096382461824023349a107b6f5860a6382861828023449a147b6f9860b6382c6182c023549a187b6fd860c6383061830023649a1c7b701860d6383461834023749a207b705860e6383861838023849a247b709860f6383c6183c023949a287b70d86106384061840023a49a2c7b71186116384461844023b49a307b71586126384861848023c49a347b71986136384c6184c023d49a387b71d86146385061850023e49a3c7b72186156385461854023f49a40)
  (.lf
  0x76ec1dbd076f1539d80305433d0433d10d14434d1849198f8e63eb463eb52df600a948491d8f8f63eb8076f58f8f4b7dc076f18f8f00a9863e3d8f8e076e0434d003054b7d8432d12dd64b7d8076e01dba076e5076e98f8e4b7d84b7d991406457c413b52dfc4b7c4539f8030d433f0433f10d1c434f10812d914951a7c539fc030e433f4433f50d1d434f5434f4030e4b7fc432f52ddf4b7fc63ed92dff00ab8413412dff4b7d04b7fd9149645a008129914957a7c645259148081180811820480811d08121914851a7863ed52dfe00ab4434f0030d4b7f8432f12dde4b7f84133d2dfe4b7cc4b7f991486459c0811d914857a786452191470810c0810c20450811108115914751a74539f4030c433ec433ed0d1b434ed08111914757a74434ec030c4b7f4432ed2ddd4b7f463ed12dfd00ab0413b92dfd4b7c84b7f59147645986451d91460810008100204208105432e92ddc4b7f0433e90d1a434e963ecd2dfc00aac434e8030b4b7f04b7f191466459408109914651a7008105914657a70645199145080f4080f4203f080f9080f9914557a6c539ec030a433e4080fd914551a6c433e50d19434e5434e4030a4b7ec432e52ddb4b7ec63ec92dfb00aa8))
  (.nd (.lf
  0x811312c0e4f8b84f8b92b614ad7c811352c0f4f8bc4f8bd2b624ad80811392c104f8c04f8c12b634ad8452885cc5f731f8528c1cc6e73234731b9cc6d2006c2006c801d2007120075cc6d548bc20071cc6d568bc528bdcc6d73230731b5cc6c2006020060801a2006520065cc6c568b820069cc6c548b8528b9cc6c7322c731b1cc6b200542005480172005920059cc6b568b4528b5cc6b732282005dcc6b548b4731adcc6a200482004880142004d2004dcc6a568b0528b1cc6a7322420051cc6a548b0731a9cc692003c2003c80112004120041cc69568ac20045cc69548ac528adcc6973220731a5cc682003020030800e2003520035cc68568a8528a9cc687321c20039cc68548a8731a1cc672002420024800b200292002dcc67548a420029cc67568a4528a5cc67732187319dcc66200182001880082001d2001dcc66568a0528a1cc667321420021cc66548a073199cc652000c2000c80052001120015cc655489c20011cc655689c5289dcc657321073195cc64200002000080022000520005cc645689852899cc647320c20009cc645489873191cc631fff41fff47fff1fff91fff9cc63568941fffdcc635489452895cc63732087318dcc621ffe8)
  (.lf 0))) (.nd (.nd (.lf
  0x4789c0c78030e0478a00c79030e4478a40c7a030e8478a80c7b030ec478ac0c7c030f0478b00c7d030f4478b40c7e030f8478b80c7f030fc030f1a72369d08030fda72669d1469c99a7251007410074401f10079030f9a72569d1010079a7255913c1007da7255313c69c95a7241006810068401c1006d10071a724531381006da72459138030f5a72469d0c69c91a7231005c1005c40191006110065a7235313410061a7235913469c8da722100501005040161005510055a72259130030eda72269d0410059a7225313069c89a72110044100444013100491004da7215312c030d5a71c69cec10049a7215912c030e9a72169d0069c85a720100381003840101003d1003da7205912810041a72053128030e1a71f69cf8030dda71e69cf4030e5a72069cfc69c81a71f1002c1002c400d1003110031a71f5912410035a71f5312469c7da71e1002010020400a1002510029a71e5312010025a71e5912069c79a71d100141001440071001910019a71d5911c030d9a71d69cf01001da71d5311c69c75a71c100081000840041000d1000da71c5911810011a71c5311869c71a71b0fffc0fffc40011000110001a71b5911410005a71b53114030d1a71b69ce8)
  (.lf 0)) (.nd (.lf
  0x7dfbd29eb4f02c4f02d293e4a4f07dfc129ec4f0304f031293f4a4f47dfc529ed4f0344f03529404a4f87dfc929ee4f0384f03929414a4fc7dfcd29ef4f03c4f03d29424a5007dfd129f04f0404f04129434a5041985dbdb55dfdc6f6d56ff65dfd93e33c0640018805ff5806603e3bc3e3bc06203e43d0a3b5974a01a844463c0480011805404404a04473c4473d11ef4483d4483c04a001180011814831580c401881603101a8065d29603101a81580c56ff65dfd85bfd808a04a4c44a541f8cd7e3b07e3b130504d9404c141f90b7e4a87e42df90a32f3032f30cbce32f3532f39f90a4ad3c6f8bc08be4a53c4a53df8cc7e3ac7e3ad304f4d93c7e335f8cc32dc832dc8cb7432dcd32dd1f8cc4c13c32f35f90a5093c4c13df90a7e4a47e429f90932f2432f24cbcb32f2932f2df9094ad386f7596ff95dfe46f87808ad4a4f86f8b808bd4a5384a539f8cb7e3a832dcdf8cc4d93c7e331f8cb32dbc32dbccb7132dc132dc1f8cb4d9386f8b408bc4a53432dc5f8cb4c1387e32df8ca32db032db0cb6e32db532db9f8ca4c13432db5f8ca4d9344a535f8ca7e3a47e329f8c932da44a531f8c97e3a06f89808b54a51832da4cb6b32da932da9f8c94d930)
  (.lf 0)))

def shaGateTree225 : BTree :=
  .nd (.nd (.nd (.lf
  0x77f540ee30008c11025a9f3533d46a7cda9f2110101101044061101511015a9f2593d00428da9f26a8446a8454cf4593d010eb9a9b5044906a6d5a9b410ea810ea843ac10ead10eb1a9b4593d003b8da9b46a74c6a74d64f40448c593d0a9472a5542a55400005b2fa5b2f9e36b78e2878e2974b95f2e45f2e5e3e77901878f9de3e62a8602a860aa1a2a8652a869e3e6612e02a865e3e6632e02a5a5e36b5d2e478dade36a2a5902a590a9662a5952a595e36a5f2e02a41400002a51e2a51d6cbc2a4042a40564f22a4092a4096cbc5b2f428a55dfb60008c77ed9dfb528a4428a44a29328a4928a4ddfb503b885d0e1dfb577f5077f500ee20008811019a9f2533d06a7c9a9f1110041100444031100911009a9f1593cc04289a9f16a8406a8414cf3593cc10eada9b40448c6a6d1a9b310e9c10e9c43a910ea110ea5a9b3593cc03b89a9b36a7486a74964f304488593cd6cbc2a5502a55000005b2f65b2f5e36a78e2478e2574b85f2e05f2e1e3e67901478f99e3e52a8542a854aa172a8592a85de3e5612dc2a859e3e5632dc2a599e36a5d2e078da9e3692a5842a584a9632a5892a589e3695f2dc28a49dfb50008877ed5dfb428a3828a38a29028a3d)
  (.lf 0)) (.nd (.lf
  0x56484072641dfc564b0073141e2841dfc073d01cc841e28072801cf4452b0075d01cf4544b8077d453b0453b1150c454b1454b0077d01cf401cf59b8466e8c0bced9b84585387123d511c564705244dc467712187121951135644c1c6b1c46c54460711b1c46b1c69c1c69c71a91c6a11c6a1c46b5645c5245dc46b712287122951175645c5645c073c41dd47124d51205648056480072541df871279512b564ac564ac073041e2441df8073c01cc441e24072701cf0452ac075c01cf0544b4077c453ac453ad150b454ad454ac077c01cf001cf19b8366e8866e119b830bcdc0bcdc2f390bce10bce59b83525340bce19b835853466e0d9b820bcd00bcd02f360bcd50bcd99b82525301c6a5c46b5445c711adc46a1c69052459c46a71224712255116564581c69071a61c6951c695c46a5645856458073b41dd071249511f5647c5647c072441df471275512a564a8564a8072f41e2041df4073b01cc041e20072601cec452a8075b01cec544b0077b453a8453a9150a454a9454a8077b01cec0bcd59b825853001ced9b8266e8466e099b810bcc40bcc42f330bcc90bccd9b815252c52451c4687121c1c699c46a54458711a9c4691c6841c68471a31c689)
  (.lf 0))) (.nd (.nd (.lf
  0x46b040b5202c4802c49a2bd68b700e69da2bd52c8c68af5a2bc0e6880e68839a40e68d0e691a2bc52c884254c0b1102c18469000b3102c4454c080b5146a0046a011aa046b0146b000b5102c4402c45a2bc68b6c0e68da2bc58c8868af1a2bb0e67c0e67c39a10e6810e681a2bb58c84425480b1002c14468fc0b3002c4054c040b50469fc469fd1a9f46afd46afc0b5002c4002c41a2bb68b680e685a2bb52c8468aeda2ba0e6700e670399e0e6750e679a2ba52c80425440b0f02c10468f80b2f02c3c54c000b4f469f8469f91a9e46af946af80b4f02c3c02c3da2ba68b640e675a2ba58c8068ae9a2b90e6640e664399b0e6690e669a2b958c7c425400b0e02c0c468f40b2e02c3854bfc0b4e469f4469f51a9d46af546af40b4e02c3802c39a2b968b600e66da2b952c7c68ae5a2b80e6580e65839980e65d0e661a2b852c780e65da2b858c784253c0b0d02c08468f00b2d02c3454bf80b4d469f0469f11a9c46af146af00b4d02c3402c35a2b868b5c68ae1a2b70e64c0e64c39950e6510e655a2b752c740e651a2b758c74425b80b0c02c04468ec0b2c02c3054bf40b4c469ec469ed1a9b46aed46aec0b4c02c3002c31a2b768b5868adda2b60e640)
  (.lf 0)) (.nd (.lf
  0x7cbb1f2eb30b3c30b3cc2d130b4130b41f2eb4d4f830b45f2eb4bcf87cbadf2ea30b3030b30c2ce30b3530b39f2ea4bcf430b35f2ea4d4f44a0f5f2ea7cc247cba9f2e930b2430b24c2cb30b2930b29f2e94d4f04a0f1f2e97cc2030b2df2e94bcf07cba5f2e830b1830b18c2c830b1d6d8b805aa4a0ec4a0edf2e87cc1c30b1df2e84d4ec30b21f2e84bcec7cba1f2e730b0c30b0cc2c530b1130b15f2e74bce84a0e9f2e77cc1830b11f2e74d4e87cb9df2e630b0030b00c2c230b0530b09f2e64bce46d8b005a84a0e44a0e5f2e67cc1430b05f2e64d4e47cb99f2e530af430af4c2bf30af930af9f2e54d4e04a0e1f2e57cc1030afdf2e54bce07cb95f2e430ae830ae8c2bc30aed30aedf2e44d4dc5bbe9b6096d8a06d8a405a54a0d80617d28354a0cc0618128364a0d00618528374a0d46d8a805a64a0dc4a0ddf2e47cc0c30af1f2e44bcdc7cb91f2e330adc30adcc2b930ae130ae1f2e34d4d86d8a005a44a0d430ae5f2e34bcd84a0d9f2e37cc087cb8df2e230ad030ad0c2b630ad530ad9f2e24bcd44a0d5f2e27cc047cc052f354d4d44bcd5f3207ccfc7cc712f504d5404bd41f33b7cd687ccedf33a30d7030d70c35e30d757cc6d2f4f4d53c)
  (.lf 0)))

def shaGateTree226 : BTree :=
  .nd (.nd (.nd (.lf
  0x40ff40fae4107540ff80faf4107940ffc0fb04107d410000fb141081410040fb241085410080fb3410894100c0fb44108d410100fb541091410140fb641095410180fb7410994101c0fb84109d410200fb9410a1410240fba410a5410280fbb410a94102c0fbc410ad410300fbd410b1410340fbe410b5410380fbf410b9536c1e84a7a1a47a129e8492c6ec2c6ecb1bd2c6f12c6f5e849556bc2c6f1e849576bc536bde8497a1a07a125e8482c6e02c6e0b1ba2c6e52c6e9e848556b82c6e5e848576b8536b9e8487a19c7a121e8472c6d42c6d4b1b72c6d92c6dde847556b42c6d9e847576b4536b5e8477a1987a11de8462c6c82c6c8b1b42c6cd2c6d1e846556b02c6cde846576b0536b1e8467a1947a119e8452c6bc2c6bcb1b12c6c12c6c5e845556ac2c6c1e845576ac536ade8457a1907a115e8442c6b02c6b0b1ae2c6b52c6b9e844556a82c6b5e844576a8536a9e8447a18c7a111e8432c6a42c6a4b1ab2c6a92c6ade843556a42c6a9e843576a4536a5e8437a1887a10de8422c6982c698b1a82c69d2c6a1e842556a02c69de842576a0536a1e8427a1847a109e8412c68c2c68cb1a52c6912c695e8415569c2c691e8415769c5369de8417a180)
  (.lf 0)) (.nd (.lf
  0x5c591c8eb72428723adc8ea1e7881e78879e41e78d1e791c8ea028341e78dc8ea4aa787232d71635e58c5c58dc8ea72424723a9c8e91e77c1e77c79e11e7811e785c8e9028301e781c8e94aa747232971625e5885c589c8e972420723a5c8e81e7701e77079de1e7751e779c8e80282c7232571615e5845c585c8e87241c1e775c8e84aa70723a1c8e71e7641e76479db1e7691e76dc8e7028281e769c8e74aa6c7232171605e5805c581c8e7724187239dc8e61e7581e75879d81e75d1e75dc8e64aa687231d715f5e57c5c57dc8e6724141e761c8e60282472399c8e51e74c1e74c79d51e7511e755c8e5028201e751c8e54aa6472319715e5e5785c579c8e57241072395c8e41e7401e74079d21e7451e749c8e40281c1e745c8e44aa6072315715d5e5745c575c8e47240c72391c8e31e7341e73479cf1e7391e73dc8e3028181e739c8e34aa5c7238dc8e21e7281e72879cc1e72d1e731c8e2028141e72dc8e24aa587230d715b5e56c5c56dc8e27240472389c8e11e71c3ee4c09a402610604e809c43eecc3eecc09843ef4d456cc07a401e10545d407c4457cc457cd1613458cd458cc07c401e10026119ca16730001e119cdf673f8673f9499558654)
  (.lf 0))) (.nd (.nd (.lf
  0x5ed8dd917764d87645dd91625a0425a04968325a0925a0dd91660d8825a09d91662d8825749d89b5cd8c7626dd89a257342573495cf2573925739d89a5ed88255d49573255c8255c8957358e7558e7495735adc45adc5d89a762e4762e573625ed885ed89d916764d476459d915259f8259f89680259fd25a01d91560d84259fdd91562d842573dd89a5cd8876269d899257282572895cc2572d2572dd8995ed84255cc9571255c0255c0957158e7158e7095715adc05adc1d899762e0762e173615ed845ed85d915764d076455d914259ec259ec967d259f1259f5d91460d80259f1d91462d8025731d8995cd8476265d8982571c2571c95c92572125721d8985ed80255c5d885255b4255b4956f255b9255b9d8855adbc58e6dd8852568c2568c00005adbe5adbdd898762dc762dd73605ed805ed81d914764cc76451d913259e0259e0967a259e5259e9d91360d7c259e5d91362d7c25725d8985cd8076261d897257102571095c62571525715d8975ed7c255bc00007621676214956c255ac255ac956c58e6958e68956c5adb85adb9d897762d8762d9735f5ed7c5ed7dd913764c87644dd912259d4259d49677259d9259ddd91260d78259d9d91262d78)
  (.lf 0)) (.nd (.lf
  0x6594147ef57fbc09e04278309e09657d195f309c9c09c9c272909ca109ca595f357fbc09e09963157fbc57fbc60c459f8c59f8dbadc6ebec184b1badc5ded06eb71badb184a0184a0612a184a5184a5badb5decc179b9b98053ee46e601b97f179a4179a45e6b179a951eddb97e6e674179adb97f53ee0179a9b97f55ee051ee1b97f6e6786e5fdb97e17998179985e681799d179a1b97e53edc1799db97e55edc6e5f9b97d1798c1798c5e651799117995b97d53ed85ddddba336e9486e97d7f8461e1017f55ba375fdec6e8ddba3617f4017f405fd217f4517f49ba365fde85dde9ba366e95417f45ba3661de86e8d9ba3517f3417f345fcf17f3917f3dba355fde417f39ba3561de45dde5ba356e9506e8d5ba3417f2817f285fcc17f2d17f2dba3461de06e9b17f9161e446e9517f7961de461de405dc3bbc86e9897f8761e1c61e1c05ca3bc006e99d7f8c61e3061e3005cf3bc143bc0005dc0175c3bc1405c1017706e9b57f9261e483e0ac05fc017705fe48061c3e12c3e12c05dc3e1ad0177195f165840658415fed0127017f31ba345fde05dde1ba346e94c6e8d1ba3317f1c17f1c5fc917f2117f21ba3361ddc6e9497f7761ddc61ddc05da3bbc0)
  (.lf 0)))

def shaGateTree227 : BTree :=
  .nd (.nd (.nd (.lf
  0x479011e6047a01479051e6147a05479091e6247a094790d1e6347a0d479111e6447a11479151e6547a15479191e6647a194791d1e6747a1d479211e6847a21479251e6947a25479291e6a47a294792d1e6b47a2d479311e6c47a31479351e6d47a35479391e6e47a39479bc104003100479c0104103104479c4104203108479c810430310c479cc104403110479d0104503114479d4104603118479d810470311c479dc104803120479e0104903124479e4104a03128479e8104b0312c479ec104c03130479f0104d03134479f4104e03138479f8104f0313c479fc10500314047a0010510314447a0410520314847a0810530314c47a0c10540315047a1010550315447a1410560315847a1810570315c47a1c10580316047a2010590316447a24105a0316847a28105b0316c47a2c105c0317047a30105d0317447a34105e0317847a38105f0317c0317da7a269f0469e89a7a11034403179a7a169f001034440d3103491034da7a1531bc10349a7a1591bc69e85a7a0103381033840d01033d10341a7a0531b803175a7a069efc1033da7a0591b80315da79a69ee469e81a79f1032c1032c40cd1033110335a79f531b410331a79f591b403171a79f69ef8)
  (.lf 0)) (.nd (.lf
  0x22d9994f665b80aff1994f01cd80aff5994f5831c6653d994e0afe0022d5994e665b40afe02bfa0afe50afe5994e01cd40afe9994e5831866539994d0afd40afd42bf70afd90afd9994d01cd00afdd994d58314022d1994d665b066535994c0afc80afc82bf40afcd0afd1994c5831070565805e621786217808a13bf5c621c008b33bfa43bf5c08b3022b83e78808d3022cc601a408f33e8083e80808b33e889022cd994c665ac0afcd994c01ccc66531994b0afbc0afbc2bf10afc10afc5994b5830c70561805d621746217408a03bf583bf4408ad022a03bf4808ae022a43bf4c08af022a83bf5008b0022ac3bf5408b1022b03bf5808b2022b43e77808cf022bc3e77c08d0022c03e78008d1022c43e78408d2022c86019408ef3e7f86019808f03e7fc6019c08f13e800601a008f23e8043e7f808af3e8793e7fc08b03e87d3e80008b13e8813e80408b23e8850afc1994b01cc8022c9994b665a86652d994a0afb00afb02bee0afb50afb5994a01cc40afb9994a58308022c5994a665a46652999490afa40afa42beb0afa90afa9994901cc0022c19949665a00afad9949583046652599480af980af982be80af9d0afa1994858300022bd99486659c)
  (.lf 0))) (.nd (.nd (.lf
  0x56a000a854237873dfd528b56a2c56a2c0a90423a4423780a9c02a44423a40a8702a704632c0abc02a7054a340adc4642c4642d192b4652d4652c0adc02a7002a71a0d7683d8683d94aad58ab40dbe1a0d852ab868361a0d70dbcc0dbcc36f50dbd10dbd1a0d758ab4682e162ad02c7058ab4877621e1821d90000021dda21dd8876121d8021d80876158ab10dbd5a0d752ab46835da0d60dbc00dbc036f20dbc50dbc5a0d658ab073df9528a56a282145c85192146121461cf4b569d8529d9cf4b73da873da95276569d8569d80a9b4235073dcd527f569fc569fc0a844237456a280a8f423a0423740a9b02a40423a00a8602a6c463280abb02a6c54a300adb4642846429192a46529465280adb02a6c02a6da0d6683d4683d54aac58ab00da69a09902c7068265a0980da580da5836980da5d3f6a80cbb0326c609440cdb3f7283f7280c9b3f7a90326da098682dc0da61a09858ab0682dd62ac02c6c58ab087615aa205aa21d0a47430c7430d72715e9c421d84877521d7421d74875f21d7921d7887755aa1c0dbc9a0d652ab068359a0d50dbb40dbb436ef0dbb90dbb9a0d558aac0da5da09802c6c68261a0970da4c0da4c36950da510da55a09758aac)
  (.lf 0)) (.nd (.lf
  0x6d391b4e315914159145647159191591db4e35bba859c6db4e36d40815919b4e35dba86d38db4e2159081590856441590d1590db4e25dba459c69b4e26d40415911b4e25bba46d389b4e1158fc158fc56411590115905b4e15bba015814000059c6659c65b4e16d40015901b4e15dba06d385b4e0158f0158f0563e158f5158f5b4e05db9c6d4056ee95dba415be9b55f61ba86d4016ee85dba06d4096eea5dba85dba9b55f6d5f815bedb55f5fba86d57db55e15bd815bd856f815bdd15bddb55e61ba415be1b55e5fba45dba5b55e6d5f46d579b55d15bcc15bcc56f515bd115bd5b55d5fba05dba1b55d6d5f015bd1b55d61ba06d575b55c15bc06d3fd6ee75db9c5db9db55c6d5ec15bc056f215bc515bc5b55c61b9c15bc9b55c5fb9c6d571b55b15bb415bb456ef15bb915bb9b55b61b98158f9b4e05bb9c6d381b4df158e4158e4563b158e9158edb4df5bb9815810000059c5e59c5db4df6d3f8158e9b4df5db986d37db4de158d8158d85638158dd6d3f96ee65db985db99b55b6d5e8158ddb4de5db9459c59b4de6d3f415bbdb55b5fb986d56db55a15ba815ba856ec15bad6d3f56ee55db945db95b55a6d5e415badb55a61b9415bb1b55a5fb94)
  (.lf 0)))

def shaGateTree228 : BTree :=
  .nd (.nd (.nd (.lf
  0x2ded5eb83617142ded1eb83637142dc11eb085d7187ac21eb072dbfc2dbfcb7012dc012dc01eb075f7142da34b6ba2da242da24b68b2da292da28b6ba5b7142c379e7bf004c079efde7be2c3682c368b0dc2c36d2c371e7be03fbc5d515e7be79f7479f740fef004bc12735addf538046b77dadde127201272049ca1272512725adde59800046bdadde6b7f46b7f54e0059800125c9ada100b406b685ada0125b8125b84970125bd125c1ada05980003fbdada06b6fc6b6fd660000b3c59800b6ba2db342db3400005b7165b715eb077ac987ac9975c55f7145f715eb837ae887ae0deb822dec02dec0b7b22dec52dec9eb82617102dec5eb82637102dc05eb075d7147ac1deb062dbf02dbf0b6fe2dbf52dbf5eb065f7102da2c00002daea2dae8b6b92da182da18b6882da1d2da1cb6b95b7102c36de7be004bc79ef9e7bd2c35c2c35cb0d92c3612c365e7bd03fb85d511e7bd79f7079f700fee004b812729adde538006b779addd127141271449c71271912719addd597fc046b9addd6b7f06b7f14dff597fc125bdada000b3c6b681ad9f125ac125ac496d125b1125b5ad9f597fc03fb9ad9f6b6f86b6f965ff00b38597fcb6b92db302db3000005b712)
  (.lf 0)) (.nd (.lf
  0x3652a026950f70363ce022c4df74808b2022b363bc363bcd8f1363c1363c6022b4c7704ab72022b809288092931dc4df704c772026980a20809a602683651836518d9483651d3652202684b36c3651e026850f6c363c2022b4df70808ae022a363b0363b0d8ee363b5363ba022a4c76c4ab6e022a809248092531db4df6c4c76e026880a1c809a202673650c3650cd945365113651602674b36836512026750f68363b6022a4df6c808aa0229363a4363a4d8eb363a9363ae02294c7684ab6a0229809208092131da4df684c76a026780a188099e02663650036500d942365053650a02664b36436506026650f64363aa02294df68808a602283639836398d8e83639d363a202284c7644ab6602288091c8091d31d94df644c766026680a148099a0265364f4364f4d93f364f9364fe02654b360364fa026550f603639e02284df64808a202273638c3638cd8e5363913639602274c7604ab620227809188091931d84df604c762026580a10809960264364e8364e8d93c364ed364f202644b35c364ee026450f5c3639202274df608089e02263638036380d8e2363853638a02264c75c4ab5e0226809148091531d74df5c4c75e026480a0c809920263364dc)
  (.lf 0))) (.nd (.nd (.lf
  0x60e800e2a401e460e840e2b401e860e880e2c401ec60e8c0e2d401f060e900e2e401f460e940e2f401f860e980e30401fc60e9c0e314020060ea00e324020460ea40e334020860ea80e344020c60eac0e354021060eb00e364021460eb40e374021860eb80e384021c60ebc0e394022060ec00e3a4022460ec40e3b4022860ec80e3c4022c60ecc0e3d4023060ed00e3e4023460ed40e3f40238401bc0de04023d401c00de140241401c40de240245401c80de340249401cc0de44024d401d00de540251401d40de640255401d80de740259401dc0de84025d401e00de940261401e40dea40265401e80deb40269401ec0dec4026d401f00ded40271401f40dee40275401f80def40279401fc0df04027d402000df140281402040df240285402080df3402894020c0df44028d402100df540291402140df640295402180df7402994021c0df84029d402200df9402a1402240dfa402a5402280dfb402a94022c0dfc402ad402300dfd402b1402340dfe402b5402380dff402b952fc1da5f769f87697dda5e2639c2639c98e9263a1263a5da5e54fbc263a1da5e56fbc52fbdda5e769f476979da5d263902639098e62639526399da5d54fb826395da5d56fb8)
  (.lf 0)) (.nd (.lf
  0x7ddedf77a3257032570c95e3257532579f77a4abcc32575f77a507cc4bfcdf77a7de647dde9f7793256432564c95b325693256df7794abc832569f779507c84bfc9f7797de607dde52af1507c54bfc52af1507c4507c52ad4050187de612af2507c8507c92ad50501c7de652af3507cc507cd2ad6050207de692af4507d0507d12ad7050247de6d2af5507d4507d52ad8050287de712af6507d8507d92ad90502c7de752af7507dc507dd2ada050307de792af8507e0507e12adb050347de7d2af9507e4507e52adc050387de812afa507e8507e92add0503c7de852afb507ec507ed2ade050407de892afc507f0507f12adf050447de8d2afd507f4507f52ae0050487de912afe507f8507f92ae10504c7de952aff507fc507fd2ae2050507de992b0050800508012ae3050547de9d2b0150804508052ae4050587dea12b0250808508092ae50505c7dea52b035080c5080d2ae6050607dea92b0450810508112ae7050647dead2b0550814508152ae8050687deb12b0650818508192ae90506c7deb52b075081c5081d2aea050707deb92b0850820508212aeb050747debd2b0950824508252aec050787dec12b0a50828508292aed0507c7dec52b0b5082c)
  (.lf 0)))

def shaGateTree229 : BTree :=
  .nd (.nd (.nd (.lf
  0x41dda90e6a4b410b65a90e593206a439a90d10b5410b5442d710b5910b59a90d5931c28d11e0305524853245549157244780c154915724557244107642bbc7818954a55729457294106a42c0c42be01076041ac42c0c1061041d847c941096041d85529c10b647d9447d951f8547e9547e9410b6041d8041d9a90d6a4b010b5da90d5331c6a435a90c10b4810b4842d410b4d10b51a90c533187818554a45729057290106942c08572c0107542c3842bdc1075041a842c081060041d447c901095041d45529810b547d9047d911f8447e9147e9010b5041d4041d5a90c6a4ac10b4da90c593186a431a90b10b3c10b3c42d110b4110b41a90b59314572bc107442c3442bd81074041a447c8c1094041d05529410b447d8c47d8d1f8347e8d47e8c10b4041d0041d1a90b6a4a810b45a90b533146a42da90a10b3010b3042ce10b3510b39a90a5331042bd41073041a047c881093041cc5529010b347d8847d891f8247e8947e8810b3041cc041cda90a6a4a410b35a90a593106a429a90910b2410b2442cb10b2910b2da9095330c10b29a9095930c42bd010720419c47c841092041c85528c10b247d8447d851f8147e8547e8410b2041c8041c9a9096a4a0)
  (.lf 0)) (.nd (.lf
  0xb6f99a855841c66a159a840b6e870a9d50e4563905639006e941d08563c006f541d3841cdc06f501ba841d0806e001bd444f90071501bd4543980735450904509114444519145190073501bd401bd59a8466a8c0b6e82dbc0b6ed0b6f19a84524180b6ed9a845841866a119a830b6dc0b6dc2db90b6e10b6e59a8352414563bc06f441d3441cd806f401ba444f8c071401bd05439407344508c4508d14434518d4518c073401bd001bd19a8366a880b6e19a835841466a0d9a820b6d00b6d02db60b6d50b6d59a825841041cd406f301ba00b6d99a825241044f88071301bcc543900733450884508914424518945188073301bcc01bcd9a8266a8466a099a810b6c40b6c42db30b6c90b6cd9a815240c41ccc06f101b9844f54070601b985435c0726450544505514354515545154072601b9801b999a7566a500b6c99a815840c41cd006f201b9c44f84071201bc85438c0732450844508514414518545184073201bc801bc99a8166a8066a059a800b6b80b6b82db00b6bd0b6bd9a805840844f80071101bc4543880731450804508114404518145180073101bc401bc59a8066a7c0b6c19a805240841cc406ef01b9041cc806f001b9466a019a7f0b6ac)
  (.lf 0))) (.nd (.nd (.lf
  0x60a0c0d0d3f8f060a100d0e3f8f460a140d0f3f8f860a180d103f8fc60a1c0d113f90060a200d123f9043f8f00ccd3f9713f8f40cce3f9753f8f80ccf3f9793f8fc0cd03f97d3f9000cd13f9813f9040cd23f9850df95a18758b8c03349a187686986861da1860df800df8037e20df850df89a18658b880df85a18602d4403345a1866869468619a1850df740df7437df0df790df7da18558b8403341a185686900df79a18502d4068615a1840df680df6837dc0df6d0df6da18402d3c0df71a18458b800333da1846868c68611a1830df5c0df5c37d90df610df61a18302d380df65a18358b7c03339a183686886860da1820df500df5037d60df550df59a18258b780df55a18202d3403335a1826868468609a1810df440df4437d30df493f86c0cec0333060a080d0c3f8ec3f8ec0ccc3f96d0df4da18158b740df49a18102d3003331a1816868068605a1800df380df3837d00df3d0df41a18058b706869d62e402d4c3f8500ce503314609ec0d053f8d03f8d00cc53f95103315a17a686643f8540ce6033183f8580ce70331c3f85c0ce8033203f8600ce9033243f8640cea033283f8680ceb0332c609f00d063f8d4609f40d073f8d8609f80d083f8dc)
  (.lf 0)) (.nd (.lf
  0x2f095ee524e97c7b949ee512f0842f084bc232f0892f08dee514a0f82f089ee514e9787b945ee502f0782f078bc202f07d2f07dee504e9744d16dee4e7b9b42f081ee504a0f47b941ee4f2f06c2f06cbc1d2f0712f075ee4f4a0f04d171ee4f7b9b82f071ee4f4e9707b93dee4e2f0602f060bc1a2f0652f065ee4e4e96c2f069ee4e4a0ec7b939ee4d2f0542f054bc172f0592f05dee4d4a0e84d169ee4d7b9b02f059ee4d4e9687b935ee4c2f0482f048bc142f04d7b9d128424e9884d165ee4c7b9ac2f04dee4c4e9642f051ee4c4a0e47b931ee4b2f03c2f03cbc112f0412f041ee4b4e9604d161ee4b7b9a87b9a928384e9604e96127a205f9c7b9b1283a4e9684e96927a405fa47b9cd28414e9844e98527ab05fc005f9d27ab49ea405fa527ad49eac49eadef567bdd47b9b9283c4e9704e97127a605fac7b9d528434e98c4e98d27ad05fc805fad27af49eb449eb5ef587bddc7b9bd283d4e9744e97527a705fb07b9c1283e4e9784e97927a805fb47b9c5283f4e97c4e97d27a905fb87b9dd28454e9944e99527af05fd07b9e128464e9984e99927b005fd405fb127b049eb805fb5279149ebc05fb9279249ec049ec1ef5b7bde87bd6def5a2f6f0)
  (.lf 0)))

def shaGateTree230 : BTree :=
  .nd (.nd (.nd (.lf
  0x2bb89e6835d4b479a0de6822bb742bb74aedf2bb792bb79e6825f4b02b9e8ae782b9dc2b9dcae785959d5d2b1e2c478b8c78b8c0f56002582a0d9e2c50025c78b15e2c42a0c82a0c8a8342a0cd2a0d1e2c403d5803d59ab3b6ad686ad6965670465811979ab7a535a06ade9ab791196411964465b1196911969ab795959c04459ab796ae606ae614d675959c1180dab3c0465c6acf1ab3b117fc117fc46011180111805ab3b5959c5959cae785b4b85b4b9e68279a8479a85752c5f4b05f4b1e6fe79c7479bf9e6fd2be382be38af902be3d2be41e6fd614ac2be3de6fd634ac2bb7de6825d4b079a09e6812bb682bb68aedc2bb6d2bb6de6815f4ac2b9e0ae762b9d42b9d4ae76595995d2ade2c378b8878b880f55002542a0cde2c40025878b11e2c32a0bc2a0bca8312a0c12a0c5e2c303d5403d55ab3a6ad646ad656566046541196dab795359c6ade5ab78119581195846581195d1195dab785959804455ab786ae5c6ae5d4d665959811801ab3b046586acedab3a117f0117f045fe117f5117f9ab3a5959859598ae765b4b45b4b5e68179a8079a81752b5f4ac5f4ade6fd79c7079bf5e6fc2be2c2be2caf8d2be312be35e6fc614a82be31e6fc634a8)
  (.lf 0)) (.nd (.lf
  0x7fd9931604dd804c581ff857fe907fe15ff843546835468d51c3546d35471ff844b17c3546dff8450d7c35311ff474dd807fd1dff463530035300d4c23530535309ff464c57c4a97dff467fd947fd95315f4dd7c4c57dff847fe8c7fe11ff833545c3545cd5193546135465ff834b17835461ff8350d7835305ff464dd7c7fd19ff45352f4352f4d4bf352f9352fdff454c5784a979ff457fd907fd91315e4dd784c579ff837fe887fe0dff823545035450d5163545535459ff824b17435455ff8250d74352f9ff454dd787fd15ff44352e8352e8d4bc352ed352f1ff444c5744a975ff447fd8c7fd8d315d4dd744c575ff827fe847fe09ff813544435444d513354493544dff814b17035449ff8150d70352edff444dd747fd11ff43352dc352dcd4b9352e1352e5ff434c5704a971ff437fd887fd89315c4dd704c571ff817fe807fe05ff803543835438d5103543d35441ff804b16c3543dff8050d6c352e1ff434dd707fd0dff42352d0352d0d4b6352d5352d9ff424c56c4a96dff427fd847fd85315b4dd6c4c56dff807fe7c7fe01ff7f3542c3542cd50d3543135435ff7f4b16835431ff7f50d68352d5ff424dd6c7fd09ff41352c4352c4d4b3352c9)
  (.lf 0))) (.nd (.nd (.lf
  0x60c540d9f3fd383fd000d513fd813fd040d523fd853fd080d533fd893fd0c0d543fd8d3fd100d553fd913fd140d563fd953fd180d573fd993fd200d593fda13fd240d5a3fda53fd280d5b3fda93fd2c0d5c3fdad3fd300d5d3fdb13fd340d5e3fdb53fd380d5f3fdb903579a38368e880357da38468e8c68e11a3830eb5c0eb5c3ad90eb610eb61a38302f780eb65a38358dbc68e0da3820eb500eb503ad60eb550355da37c68e6c0eb55a38202f740eb59a38258db803575a38268e8403571a38168e8068e09a3810eb440eb443ad30eb490eb4da38158db40eb49a38102f7068e05a3800eb380eb383ad00eb3d0eb3da38002f6c0eb41a38058db00356da38068e7c68e01a37f0eb2c0eb2c3acd0eb310eb31a37f02f680eb35a37f58dac03569a37f68e7868dfda37e0eb200eb203aca0eb250eb25a37e02f640eb29a37e58da803565a37e68e7468df9a37d0eb140eb143ac70eb190eb1da37d58da40eb19a37d02f6068df5a37c0eb080eb083ac40eb0d0eb0da37c02f5c0eb11a37c58da068df1a37b0eafc0eafc3ac10eb010eb01a37b02f580eb05a37b58d9c03559a37b68e6803555a37a68e6468deda37a0eaf00eaf03abe0eaf50eaf9a37a58d98)
  (.lf 0)) (.nd (.lf
  0x1763db8d65ddb86e359b8d51762c1762c5d8d17631174985d281749d1749db8b959e7059e71b8d56e3d017635b8d55bdb46e3d16f6d5ddb45bdb5b9136e4c86e44db91217788177885de41778d17791b912018583bac8058e016243bb340589016103de6005a9016246e16d7f3f61cfc5fcfc05c93dee03dee005893df610162594e665414654155f9a011246deb14f8555e1455e3c03d4417b44175803d400f2443f0c03f400f5053e1404144400c4400d10234410d4410c041400f5000f51952f6553809819953251ea0654c9953109804098042603098090980d953151e9c51dc54f7155dc416b19b77a53dc86dde94f7155dc555dc403d64173c55e1403ca4178c4176003d600f2c4178c03c100f5843f1403f600f5853e1c0416440144401510254411544114041600f5800f5995316554009809953157e9c654c59530097f8097f82600097fd09801953051e9861cfc05823bae061d4405943bb283bae005940163c3de8c05b4016505fd2805d43df0c3df0c05943df8d0165194f165440654415fa5011506e1757f4161d0461d0405843bae861d4c05963bb303bae8059601644096ad94f40115c653d194f30969c0969c25a9096a13de9405b601658)
  (.lf 0)))

def shaGateTree231 : BTree :=
  .nd (.nd (.nd (.lf
  0x5c1c00c10035805c2000c20035c05c2400c30036005c2800c40036405c2c00c50036805c3000c60036c05c3400c70037005c3800c80037405c3c00c90037805c4000ca0037c05c4400cb0030005c4800cc0030405c4c00cd0030805c5000ce0030c82a6000fd515385153800cf0031082a6400fe5153c5153c00d00031482a6800ff515405154000d1003184cdc20b3582d5082cd60b34398a8398a8e62c398ad398b20b3400478398ae0b34515bc4cdbe0b3482d4c82cd20b333989c3989ce629398a1398a60b3300474398a20b33515b84cdba0b3382d4882cce0b323989039890e626398953989a0b3200470398960b32515b44cdb60b3282d4482cca0b313988439884e623398893988e0b310046c3988a0b31515b04cdb20b3182d4082cc60b303987839878e6203987d398820b30004683987e0b30515ac4cdae0b3082d3c82cc20b2f3986c3986ce61d39871398760b2f00464398720b2f515a84cdaa0b2f82d3882cbe0b2e3986039860e61a398653986a0b2e00460398660b2e515a44cda60b2e82d3482cba0b2d3985439854e617398593985e0b2d0045c3985a0b2d515a04cda20b2d82d3082cb60b2c3984839848e6143984d398520b2c00458)
  (.lf 0)) (.nd (.lf
  0x5c14dc00d700b0700b008fd4a6384a639fa3f7e9787e979308e4da384c239fa7d7ea703379dfa7d4ae387e9f5fa7c3378833788cde43378d33791fa7c4ae3432fb1f9344a86c7e4d1f93332f9c32f9ccbe932fa132fa1f9334f0e84d8e9f9337e5487e5492a1a4f0e84f0e92984064cc7e56d2a234f10c4f10d298d064f0064cd298d4a62c1a61800005a1de5a1ddbfce6ffb46ffb570525e1481a77dbfcf5e14c6ff3dbfce1a76c1a76c69dd1a7711a775bfce5c1485c149c00c700ac1a8e9c00d023f470035c00c1a8d41a8d46a371a8d91a8d9c00c4a634700ac08fc4a6344a635fa3e7e9747e975308d4da3433631fa3f4da387e8fdfa3e3362033620cd8a3362533629fa3e4c2344c235fa7c7ea6c3378dfa7c50a347e9f1fa7b3377c3377ccde13378133781fa7b50a301a8ddc00c023f070031c00b1a8c832fa5f9334a8687e4cdf93232f9032f90cbe632f9532f95f9324f0e44d8e5f9327e5447e5452a194f0e44f0e52983064c87e5692a224f1084f109298c064ec064c9298c4a6285a1d9bfcd6ffb06ffb170515e14433625fa3e4da347e8f9fa3d336141a771bfce5e1486ff39bfcd1a7601a76069da1a7651a769bfcd5c1441a8c86a341a8cd)
  (.lf 0))) (.nd (.nd (.lf
  0x35f60d7da35f6535f66016e4dee44aae6016e806348063531b94dee44dee601ea80824807aa01e93622436224d88b362293622e01e94ae603622a01e94f6e035f6a016e4c6e4805ba016d35f5435f54d7d735f5935f5a016d4dee04aae2016d806308063131b84dee04dee201e980820807a601e83621836218d8883621d3622201e84ae5c3621e01e84f6dc35f5e016d4c6e0805b6016c35f4835f48d7d435f4d35f4e016c4dedc4aade016c8062c8062d31b74dedc4dede01e88081c807a201e73620c3620cd885362113621601e74ae583621201e74f6d835f52016c4c6dc805b2016b35f3c35f3cd7d135f4135f42016b4ded84aada016b806288062931b64ded84deda01e7808188079e01e63620036200d882362053620a01e64ae543620601e64f6d435f46016b4c6d8805ae016a35f3035f30d7ce35f3535f36016a4ded44aad6016a806248062531b54ded44ded601e6808148079a01e5361f4361f4d87f361f9361fe01e54ae50361fa01e54f6d035f3a016a4c6d4805aa016935f2435f24d7cb35f2935f2a01694ded04aad20169806208062131b44ded04ded201e5808108079601e4361e8361e8d87c361ed361f201e44ae4c361ee01e44f6cc)
  (.lf 0)) (.nd (.lf
  0x878421e3087896c6c54ec255b0855b08030741480648cd5ef000e7c649c546f057bc057bc1b2d514a0c6c6f94ecf55b3c53b3c035e43734437350ded4383543834035e00c7853b38035d43730437310dec4383143830035d00c74648c15eed00e7055b340312414ac43634033e00c78414ac030900c786c6a14eb955ae455ae4031e4145c41480031e00c4c00c799251649c055b0403064147c6c6ed4ecc55b3055b300311414a8414a8030800c740878d925151bbc08789925157bbc649459250087786c69d4eb855ae055ae0031d4145843630033d00c744147c031d00c4800c759250649bc0877821e00877d08781925051bb80877d925057bb864941924f0876c0876c21dd0877108771924f57bb4649b946ed57bb4649bd46ee57bb86cb54527a149e4649c146ef57bbc648c95eef00e78149e4527a57bbd57bbc527a59b9c149e85278149dc149dc527857bb9648c55eee00e7457bb8527859b98149e05276149d4149d4527657bb557bb4527659b9459b95b2f16cc4043628033b00c6c08775924f51bb46493d924e087600876021da0876508769924e51bb053b2c035a43724437250de94382553b30035b43728437290dea4382943828035b00c6c)
  (.lf 0)))

def shaGateTree232 : BTree :=
  .nd (.nd (.nd (.lf
  0x2c9e1e8ba0050c7a2e9e8b92c9d02c9d0b2762c9d52c9d9e8b90400804009ae0f6b8b86b8b9661300a8812969ae4e538506b939ae4d12954129544a571295912959ae4d5984c04709ae4d6b9b06b9b14e135984c127fdae1000a8c6b841ae0f127ec127ec49fd127f1127f5ae0f5984c5984cb83f5b7605b761ec007b07c7b07d75d85f7605f761ec7c7b26c7b1f1ec7b2e5182e518b9482e51d2e521ec7b6175c2e51dec7b6375c2e25dec005d7607b001ebff2e2482e248b8942e24d2e24debff5f75c2e0fd6dd62e0f42e0f56dd6598495d55de8b87a35c7a35c1001005042c9d5e8b9005087a2e5e8b82c9c42c9c4b2732c9c92c9cde8b80400404005ae0e6b8b46b8b5661200a841295dae4d5384c6b935ae4c12948129484a541294d1294dae4c5984804705ae4c6b9ac6b9ad4e1259848127f1ae0f00a886b83dae0e127e0127e049fa127e5127e9ae0e59848598496dd65b75c5b75debff7b0787b07975d75f75c5f75dec7b7b2682e251ebff5d75c2c9c9e8b8005045d5581000005007a2e010000050112951ae4c53848047014e11598446b9314e1159845127e5ae0e00a8404001661100a806b839661100a815984400005b75a5b75975d65f758)
  (.lf
  0x5d8bdaf6c6be2c6bdb1af6b1315c1315c4c591316113165af6b5f8b813161af6b618b86bc396e2e5d8b85d8b9af6b6be286bdadaf6a13150131504c561315513155af6a618b413159af6a5f8b46bc356e2d5d8b45d8b5af6a6be246bda9af6913144131444c53131491314daf695f8b013149af69618b06bc316e2c5d8b05d8b1af696be206bda5af68131386bc2d6e2b5d8ac5d8adaf686be1c131384c501313d1313daf68618ac13141af685f8ac6bda1af671312c1312c4c4d131316bc256e295d8a413131af67618a813135af675f8a86bc296e2a5d8a85d8a9af676be186bd9daf6613120131204c4a1312513125af66618a45d8a5af666be1413129af665f8a46bd99af6513114131144c47131191311daf655f8a013119af65618a06bc216e285d8a05d8a1af656be106bd95af6413108131084c441310d848398f1a63ce4074881d240748d0748d8f1c009bc074918f1c4b700848418f1c63cec63c718f1b0747c0747c1d2107481074818f1b009b863ce52dbe009b4074858f1b4b6fc8483d8f1b63ce863c6d8f1a07470074701d1e07475074798f1a4b6f84b6fa10f384448844495e5e00c3412cac00006bb426bb404b2812c9c12c9c4b2857981))
  (.nd (.lf
  0x1f81c7e091f821527e5cb5f72df81f825cb5f547e41f821cb5f567e472d7dcb5e1f8101f8107e061f8151f815cb5e567e072e51520f5683c72e4d520e5683872e5552105684072dfd51fa567e872df951f9567e4527e1cb5e72df472df551f8567e0567e0081d42158567e4081e4215c567e8081f4216072e195201568045680408064217c72e1d5202568085680808074218072e2152035680c5680c08084218472e45520c56830568300811421a872e49520d56834568340812421ac568380813421b04217c081d0204842180081e0204c42184081f02050421a8080802074421ac080902078421b0080a0207c45d30083d0207445d34083e0207845d38083f0207c54838085d45e305483c085e45e3454840085f45e3845e3117ac45f3145e3517ad45f3545e3917ae45f3945f30085d0207445f34085e0207845f38085f0207c0287d9eac67b2c67b2d623002a7c0207d9eea67c2467c254a30588c0588c0806a5a830201a8805e2017420174805e588bd020799ee967c2067ba99ee90d0a40d0a4342b0d0a967ab19eab0cf3c0cf3c33d10cf410cf459eab588bc67c214a2f588bc0d0a99ee9588bc588bc805e5a82c028759eaa67b2467b25622e02a74)
  (.lf 0))) (.nd (.nd (.lf
  0x26f19dbf460ee026f15dbf462ee05eee1dbf47704c76fd1dbf326f0426f049bc326f0926f0ddbf360edc26f09dbf362edc5eedddbf3770485eed983b662ed876fcd83b662ed962ed80e193ccbc7704983b762edc62edc0e1a3ccc07704d83b862ee062ee00e1b3ccc47705183b962ee462ee40e1c3ccc87705583ba62ee862ee80e1d3cccc7705983bb62eec62eec0e1e3ccd07705d83bc62ef062ef00e1f3ccd47706183bd62ef462ef40e003ccd87706583be62ef862ef80e013ccdc7706983bf62efc62efc0e023cce07706d83c062f0062f000e033cce47707183c162f0462f040e043cce87707583c262f0862f080e053ccec7707983c362f0c62f0c0e063ccf07707d83c462f1062f100e073ccf47708183c562f1462f140e083ccf87708583c662f1862f180e093ccfc7708983c762f1c62f1c0e0a3cd007708d83c862f2062f200e0b3cd047709183c962f2462f240e0c3cd087709583ca62f2862f280e0d3cd0c7709983cb62f2c62f2c0e0e3cd107709d83cc62f3062f300e0f3cd14770a183cd62f3462f340e103cd18770a583ce62f3862f380e113cd1c770a983cf62f3c62f3c0e123cd20770ad83d062f4062f400e133cd24770b183d162f44)
  (.lf 0)) (.nd (.lf
  0x4c095f8467e1947e09930244d8904c091f8457e19032a85f846508947e119f84532a7432a74ca9f32a7932a7df8454ac9032a79f845508907e115f84432a6832a68ca9c32a6d32a6df8445088c4c08df8447e18c32a71f8444ac8c7e111f84332a5c32a5cca9932a6132a61f8435088832a65f8434ac884c089f8437e1887e10df84232a5032a50ca9632a5532a55f8425088432a59f8424ac847e08d30214d8844c085f8427e1847e109f84132a447e08930204d8804c081f8417e18032a44ca9332a4932a49f8415088032a4df8414ac807e105f84032a3832a38ca9032a3d32a3df8405087c7e085301f4d87c32a41f8404ac7c4c07df8407e17c7e101f83f32a2c32a2cca8d32a3132a35f83f4ac787e081301e4d8784c079f83f7e17832a31f83f508787e0fdf83e32a2032a20ca8a32a2532a29f83e4ac7432a25f83e508747e07d301d4d8744c075f83e7e1747e0f9f83d32a1432a14ca8732a1932a1df83d4ac704c071f83d7e17032a19f83d508707e0f5f83c32a0832a08ca8432a0d32a0df83c5086c7e075301b4d86c32a11f83c4ac6c4c06df83c7e16c7e0f1f83b329fc329fcca8132a017e06d30194d8644c065f83a7e1647e071301a4d868)
  (.lf 0)))

def shaGateTree233 : BTree :=
  .nd (.nd (.nd (.lf
  0x6a68d4ce25938810c91a947044486a51da94610c8010c80432210c8510c89a9465938859388a75a5b2b45b2b5e28178a8078a8174a75f29c5f29de2fd78c7078bf5e2fc2a1e82a1e8a87c2a1ed2a1f1e2fc612982a1ede2fc6329829f2de2815d29c78a05e28029f1829f18a7c829f1d29f1de2805f29829d68a75829d5c29d5ca758593855d099decb77ba877ba80ed000040283b9decc0004477b31decb283a8283a8a0ec283ad283b1decb03b4003b41a9456a5906a59164e10444010df1a984533886a611a98310ddc10ddc437910de110de1a9835938404241a9836a6886a6894ce15938410c85a946044446a519a94510c7410c74431f10c7910c7da9455938459384a7585b2b05b2b1e28078a7c78a7d74a65f2985f299e2fc78c6c78bf1e2fb2a1dc2a1dca8792a1e12a1e5e2fb612942a1e1e2fb6329429f21e2805d29878a01e27f29f0c29f0ca7c529f1129f11e27f5f29429d60a75629d5429d54a756593815d095deca77ba477ba40ecf0003c283addecb0004077b2ddeca2839c2839ca0e9283a1283a5deca03b3c03b3da9446a58c6a58d64e00443c10de5a983533846a60da98210dd010dd0437610dd510dd5a982593800423da9826a684)
  (.lf 0)) (.nd (.lf
  0x1c53dc42d602f01c539c42d622f0710b5c42c1c5281c528714c1c52d1c52dc42c622ec622ec091e3c0d07113180bc622f0622f0091f3c0d47116580c96232462324090c3c1087116980ca6232862328090d3c10c7117980ce623386233809113c11c7117d80cf6233c6233c09123c1203c108091e024643c10c091f024683c11c0903024783c12009040247c3eab8093f0247c7119580d56235460354095f3eb383eb38091f3ebb90247d9acc66bac66b319acb0b8bc0b8bc2e310b8c10b8c59acb584bc3eab4093e024787119180d46235060350095e3eb343eb34091e3ebb50b8c19acb01e78024799acb66ba866b2d9aca0b8b00b8b02e2e0b8b51c531c42c602ec710b1c42b1c51c1c51c71491c5211c521c42b622e81c525c42b602e85e2e9c42b71128710adc42a1c5101c51071461c5151c515c42a622e45e2e5c42a711247115580c5623141c519c42a602e4710a9c4291c5041c50471431c5091c50dc429602e01c509c429622e05e2ddc4287111c7111d80b7622dc5e2e1c42971120710a5c4281c4f81c4f871401c4fd1c4fdc428622dc622dc091a3c0c07112180b8622e0622e0091b3c0c47112580b9622e4622e4091c3c0c87112980ba622e8)
  (.lf 0))) (.nd (.nd (.lf
  0x749d552ec56bb056bb00af142528749d952ed56bb456bb40af24252c749dd52ee56bb856bb80af342530749e152ef56bbc56bbc0af442534749e552f056bc056bc00af542538424bc0aed02b88424c00aee02b8c424c40aef02b90424c80af002b94424cc0af102b98424d00af202b9c424d40af302ba0424d80af402ba4424dc0af502ba8424e00af602bac424e40af702bb0424e80af802bb4424ec0af902bb8424f00afa02bbc424f40afb02bc0424f80afc02bc4424fc0afd02bc8425000afe02bcc425040aff02bd0425080ae002bd44250c0ae102bd8425100ae202bdc425140ae302be0425180ae402be44251c0ae502be8425200ae602bec425240ae702bf0425280ae802bf44252c0ae902bf8425300aea02bfc425340aeb02b80425380aec02b84467b80b1f02bfc54bc00b3f468b8468b91a4e469b9469b80b3f02bfc02bfda24e689b468939a24d0e4540e45439170e4590e459a24d58c3c467b40b1e02bf854bbc0b3e468b4468b51a4d469b5469b40b3e02bf802bf9a24d689b00e45da24d52c3c68935a24c0e4480e44839140e44d0e451a24c52c38467b00b1d02bf454bb80b3d468b0468b11a4c469b1469b00b3d02bf402bf5a24c689ac)
  (.lf 0)) (.nd (.lf
  0x7c23df08e2fde02fde0bf7a2fde52fde5f08e4eb342fde9f08e4a2b47c239f08d2fdd44d329f08b7c2a82fdd4bf772fdd92fdd9f08d4eb304d331f08d7c2b02fdddf08d4a2b07c235f08c2fdc82fdc8bf742fdcd4d32df08c7c2ac2fdd1f08c4a2ac2fdcdf08c4eb2c7c231f08b2fdbc2fdbcbf712fdc12fdc1f08b4eb282fdc5f08b4a2a87c22df08a2fdb02fdb0bf6e2fdb52fdb9f08a4a2a42fdb5f08a4eb247c229f0892fda42fda4bf6b2fda92fdadf0894a2a02fda9f0894eb204d321f0897c2a07c225f0882fd982fd98bf682fd9d2fda1f0884a29c2fd9df0884eb1c4d31df0887c29c7c221f0872fd8c2fd8cbf652fd912fd95f0874a2982fd91f0874eb184d319f0877c2987c21df0862fd802fd80bf622fd852fd89f0864a2942fd85f0864eb144d315f0867c2947c219f0852fd742fd74bf5f2fd792fd7df0854a2902fd79f0854eb104d311f0857c2907c215f0842fd682fd68bf5c2fd6d2fd6df0844eb0c2fd71f0844a28c4d30df0847c28c7c211f0832fd5c2fd5cbf592fd612fd61f0834eb082fd65f0834a2887c20df0822fd502fd50bf562fd552fd59f0824a2842fd55f0824eb044d2f9f07f7c2784d305f0827c2847c209f0812fd44)
  (.lf 0)))

def shaGateTree234 : BTree :=
  .nd (.nd (.nd (.lf
  0x6aeadabaa11a3011a30468e11a3511a39abaa595e803da5abaa6af246af25657a046a4595e9e7672c12c2c12c00005b4fe5b4fde77a79e6479e65753f5f4fc5f4fde7f67a05479fd9e7f52c47c2c47cb1212c4812c485e7f5614f82c481e7f5634f82c1c1e77a5d4fc79de9e7792c1ac2c1acb06d2c1b12c1b1e7795f4f82c054000079d9e79d9cb0122c0442c044b012595e55d2f9e3ae78f3478f340f68002a02a751e3af002a478ebde3ae2a7402a740a9d22a7452a749e3ae03da003da1aba96af206af216579046a011ba1abe8535e86afa1abe711b8c11b8c46e511b9111b91abe7595e4044a1abe76b0186b0194d79595e411a35abaa046a46aea9aba911a2411a24468b11a2911a2daba9595e4595e4b0125b4f85b4f9e77979e6079e61753e5f4f85f4f9e7f57a05079fd5e7f42c4702c470b11e2c4752c479e7f4614f42c475e7f4634f42c1b5e7795d4f879de5e7782c1a02c1a0b06a2c1a52c1a5e7785f4f42c049e7662c0382c038b0102c03d2c03de7665b4f42a745e3ae002a078eb9e3ad2a7342a734a9cf2a7392a73de3ad03d9c5d2f5e3ad78f3078f300f670029c11b95abe7535e46af9dabe611b8011b8046e211b8511b85abe6595e0)
  (.lf 0)) (.nd (.lf
  0x7203c09eb4a9f07202c09e74a9e07204809ee4a9fc7202009e44a9d47202409e54a9d87202809e64a9dc7204409ed4a9f87201809e24a9cc7208009fc4aa347207c09fb4aa307206809f64aa1c7206009f44aa147208409fd4aa387208c09ff4aa407205009f04aa047208809fe4aa3c7204c09ef4aa007207009f84aa247207809fa4aa2c7205809f24aa0c7205409f14aa084aa420011800c0800c131904de404c642004f801b88013e004e3596035960d65a359653596a004e4b23c35966004e50e3c800460010357f8357f8d600357fd3580200104c63c4aa3e0010800bc800bd318f4de3c4c63e004e801b48013a004d3595435954d657359593595e004d4b2383595a004d50e38357fe00104de3c80042000f357ec357ecd5fd357f1357f6000f4c6384aa3a000f800b8800b9318e4de384c63a004d801b080136004c3594835948d6543594d35952004c4b2343594e004c50e34357f2000f4de388003e000e357e0357e0d5fa357e5357ea000e4c6344aa36000e800b4800b5318d4de344c636004c801ac80132004b3593c3593cd6513594135946004b4b23035942004b50e30357e6000e4de348003a000d357d4357d4d5f7357d9357de000d4c630)
  (.lf 0))) (.nd (.nd (.lf
  0x39dd0e77639dd539dda0c220005039dd60c224fe1439b160ba74ce1882e9e0ba639b0039b00e6c239b0539b060ba64e614691494b8558e1469051638502fd02522dd7dc037d475f71d7db252182521894882521d2521dd7db4b214250c1d79e5ed2c75e79d79d250b0250b0942e250b5250b9d79d5cd2824ef4000024f7624f7493dc24ee024ee093ba24ee524ee493dc5ad6858e1493dc24fb024fb000005ad6a5ad69d79d75ef075ef1734a5ed285cd29d7db75fe875fe80df44b2144b2160ba682f1482f1533854e6144e6160c22831048308a0c2139dc439dc4e77339dc939dce0c210004c39dca0c214fe1039b0a0ba64ce1482e9a0ba539af439af4e6bf39af939afa0ba54e610691454b8458e106904d638402fcc25221d7db037d075f6dd7da2520c2520c94852521125211d7da4b210250b5d79d5ed2875e75d79c250a4250a4942b250a9250add79c5cd2424ee8000024f7224f7093b724ed824ed893b758e1158e1093b75ad645ad65d79c75eec75eed73495ed245cd25d7da75fe475fe40df34b2104b2120ba582f1082f1133844e6104e6120c2183100830860c2039db839db8e77039dbd39dc20c200004839dbe0c204fe0c39afe0ba54ce10)
  (.lf 0)) (.nd (.lf
  0x173405cd21734517349b88453e9051e91b8846e28c17345b88455e906e211b88317334173345ccf173391733db88353e8c51e8db8836e28817339b88355e8c6e20db88217328173285ccc1732d17331b88253e881732db88255e886e209b8811731c1731c5cc91732117325b88153e8451e85b8816e28017321b88155e846e205b88017310173105cc61731517319b88053e8051e81b8806e27c17315b88055e806e201b87f17304173045cc3173091730db87f53e7c51e7db87f6e27817309b87f55e7c6e1fdb87e172f8172f85cc0172fd17301b87e53e7851e79b87e6e274172fdb87e55e786e1f9b87d172ec172ec5cbd172f1172f5b87d53e7451e75b87d6e270172f1b87d55e746e1f5b87c172e0172e05cba172e5172e9b87c53e7051e71b87c6e26c172e5b87c55e706e1f1b87b172d4172d45cb7172d9172ddb87b53e6c51e6db87b6e268172d9b87b55e6c6e1edb87a172c8172c85cb4172cd172d1b87a53e68172cdb87a55e686e1e9b879172bc172bc5cb1172c1172c1b87955e6455e6403fe417dc55e8803e74180055eb403f24182c4180003fe00fcc4182c03e900ff86e2b94faf55ebc440b4041e00ff853ebc043e441b4441b5108d442b5)
  (.lf 0)))

def shaGateTree235 : BTree :=
  .nd (.nd (.nd (.lf
  0x838dc019a517ac517ac017d05e8c838e0019b517b0517b0017e05e90838e4019c517b4517b4017f05e9405e2401720059c05e280173005a005e2c0174005a405e300175005a805e340176005ac05e380177005b005e3c0178005b405e400179005b805e44017a005bc05e48017b005c005e4c017c005c405e50017d005c805e54017e005cc05e58017f005d005e5c0160005d405e600161005d805e640162005dc05e680163005e005e6c0164005e405e700165005e805e740166005ec05e780167005f005e7c0168005f405e800169005f805e84016a005fc05e88016b0058005e8c016c0058405e90016d0058805e94016e0058c838e8019d517b8517b8016f00590838ec019e517bc517bc017000594838f0019f517c0517c00171005984d0420ed783bd883b5e0ed63adc03adc0eb723adc53adca0ed6006f83adc60ed65183c4d03e0ed683bd483b5a0ed53adb43adb4eb6f3adb93adbe0ed5006f43adba0ed5518384d03a0ed583bd083b560ed43ada83ada8eb6c3adad3adb20ed4006f03adae0ed4518344d0360ed483bcc83b520ed33ad9c3ad9ceb693ada13ada60ed3006ec3ada20ed3518304d0320ed383bc883b4e0ed23ad903ad90eb663ad95)
  (.lf 0)) (.nd (.lf
  0x1af886be41af8d1af8dc10d4a6a81af91c10d0246470435c10c1af7c1af7c6be11af811af85c10c02460703b1706d5e1b4703ad706c5e1b0703a9706b5e1ac1af81c10c4a6a470431c10b1af701af706bde1af751af79c10b0245c5c1b5c10b704a81af75c10b4a6a07042dc10a1af641af646bdb1af691af6dc10a024585c1b1c10a704a41af69c10a4a69c70429c1091af581af586bd81af5d1af5dc1094a6981af61c109024545c1adc109704a070425c1081af4c1af4c6bd51af511af51c1084a69470155803e620f8620f808813bedc6214008933bf243bedc0893022383e68808b30224c6012408d33e7083e70808933e7890ad0998d101c506634598d00acf80acf82b400acfd0224d98d0663bc664b548a4582900ad0198d058290663bd60a401c4c58291c0af1ace070151803d620f4620f408803bed83bed80892022340acfd98d001c4c6634198cf0acec0acec2b3d0acf13e68408b2022486012008d23e7043e70408923e7850acf598cf5828c0acf198cf01c480224998cf663b86633d98ce0ace03bed40891022303e68008b1022446011c08d13e7003e70008913e781664b148a35828c664ad48a2582881ac680000702c2702c1c0af1ac54)
  (.lf 0))) (.nd (.nd (.lf
  0x20d45ce535695852959ce53739c820d49ce53549587394dce5220d3420d34834f20d3920d3dce525495452955ce52739c420d39ce525695473949ce5120d2820d28834c20d2d20d2dce515695052951ce51739c020d31ce515495073945ce5020d1c20d1c834920d2120d25ce505494c5294dce50739bc20d21ce505694c73941ce4f20d1020d10834620d1520d15ce4f5694852949ce4f739b873a21526c569b073a1d526b569ac73a19526a569a873a155269569a473a115268569a073a0d52675699c73a09526656998739f5526156984739f1526056980739ed525f5697c739e9525e56978739e5525d56974739e1525c56970739dd525b5696c739d1525856960739cd52575695c739c9525656958739c5525556954739c15254569503f5980c97029dc3f59c0c98029e03f5a00c99029e43f5a40c9a029e83f5a80c9b029ec3f5ac0c9c029f03f5b00c9d029f4608b40cb73f618608b80cb83f61c608bc0cb93f620608c00cba3f624608c40cbb3f628608c80cbc3f62c608cc0cbd3f6303f6180a773f6993f61c0a783f69d3f6200a793f6a13f6240a7a3f6a53f6280a7b3f6a93f62c0a7c3f6ad3f6300a7d3f6b1739bd52535694c739b9525256948)
  (.lf 0)) (.nd (.lf
  0x64b4946f557bd40892592b351bd451bd5b3936cec853b50036343848438490e324394943948036300c8c6ce4db39214e6014e60539a14e6514e69b39253bd00892192b357bd464acd92b208910089102246089150891992b251bd043748034300c8c00c8d92b264b4464b4546f457bd051bd1b3926cec414e65b39255bd06ce49b39114e5414e54539714e5914e59b39155bcc0891592b257bd064ac992b10890400c8992b164b4064b4146f357bcc089042243089090890d92b151bcc51bcdb3916cec06cec14ef355bcc55bcc03584154441544034f00d106cee14efb55bec55bec03404156441564035700d3064a955f0600ed464ab15f0d00ef064abd5f1000efc57c41b3d7150d46cf5c542b150a8150a8542b57c3d64ab95f0f00ef857c3c542b59c14150ac5429150a0150a0542957c3964ab55f0e00ef457c38542959c10150a454271509815098542757c3557c34542759c0c1509c54251509015090542557c3164aad5f0c00eec57c30542559c0815095b3d6150841508454231508915089b3d659c0464aa95f0b00ee857c2db3d6150d01508c00006cf5a6cf5854201507c1507c542057c2964aa55f0a00ee457c28542059c0015080541e15074)
  (.lf 0)))

def shaGateTree236 : BTree :=
  .nd (.nd (.nd (.lf
  0x5b6ce114184580845061140493384933924d04933d4934211405d6c84933e11405f6c82d66000007a9ea7a9e8b5952d6502d650b595597b55d4c9e6c679b9479b940fdc004702bd35e6c70047479b1de6c62bd242bd24af4b2bd292bd2de6c603f7003f71ad316b5406b54165ed00bf012501ad70537b86b5c1ad6f124ec124ec493d124f1124f1ad6f597b404671ad6f6b6386b6394ded597b412395ad3200bf46b4c9ad31123841238448e3123891238dad31597b4597b4b5955b6c85b6ca11408457c84502113f4932c4932d24cd4933149336113f5d6c449332113f5f6c42d655ea792d6442d644b5932d6492d649ea795b6c42bd29e6c60047079b19e6c52bd182bd18af482bd1d2bd21e6c503f6c5d4c5e6c579b9079b900fdb0046c124f5ad6f537b46b5bdad6e124e0124e0493a124e5124e5ad6e597b00466dad6e6b6346b6354dec597b012389ad3100bf06b4c5ad30123781237848e01237d12381ad30597b003f6dad306b53c6b53d65ec00bec597b1ea792d6ac2d6ac00005b6c65b6c6113f84578844fe113e493204932124ca493254932a113e5d6c049326113e5f6c02d64c00007a9e67a9e4b5902d63c2d63cb590597ad5d4c1e6c479b8c)
  (.lf 0)) (.nd (.lf
  0x1ec2dc9a35a6bc1ec3000007268e58739c9a31ec6c7268c7b091ec201ec207b0958735587347b095a6b81ec247b071ec181ec187b0758731587307b075a6b41ec1dc9a21ec0c1ec0c7b051ec116754161c9020e058725c9a11ec641ec1400007268a1ec11c9a25a6b0726887b021ec041ec047b02587296754561ca020e4587287b025a6ac1ec09c9a11ebf81ebf87b001ebfd1ebfdc9a15a6a81ec6400005a6aa5a6a9c9bd727701ec6c00005a6be5a6bdc9c2727841edc9c9c25e64c72709c9c11edb81edb87b701edbd1edc1c9c15c6485a6b9c9c1727801edbdc9c15e64872705c9c01edac1edac7b6d1edb11edb1c9c05e6441edb5c9c05c6445a6b5c9c07277c72701c9bf1eda01eda07b6a1eda51eda5c9bf5e6401eda9c9bf5c6405a6b1c9bf72778726fdc9be1ed941ed947b671ed991ed9dc9be5c63c5a6adc9be727741ed99c9be5e63c726f9c9bd1ed881ed887b641ed8d1ed91c9bd5c6381ed8dc9bd5e638726f5c9bc1ed7c1ed7c7b611ed811ed85c9bc5c6346753d61c8020dc1ec00000072686726847afd1ebf01ebf07afd58721587207afd5a6a41ebf47afb1ebe81ebe87afb5871d1ed81c9bc5e6345a6a5c9bc7276c726f1c9bb1ed70)
  (.lf 0))) (.nd (.nd (.lf
  0x834a133b44e6d04e6d20d8583690836160d843a5683a568e95c3a56d3a5720d84001083a56e0d844fecc3a2ae0d094ced0834260d083a2983a298e8a83a29d3a29e0d084e6cc3609201a750ed08069e01a63608036080d822360853608a01a64b2cc4c6ce01a680714807152cb350ecc0f3f9a51a52ed069469a5190f3e402e89a519694e0694e14bb358ecc0f3e43cfb0f3e90f3e9a51958ecc25f91d9c70388c7671dd9c625f7c25f7c97e125f8125f81d9c64b2cc25e25d9895ede476625d98825e1425e14978725e1925e1dd9885cde025c6c000025d8625d84976025c5825c58971825c5d25c5c97605ae1c58ecc976025dc825dc800005ae1e5ae1dd9887669c7669d73785ede05cde1d9c676794767940e224b2cc4b2ce0d088349c8349d33b34e6cc4e6ce0d848368c836120d833a55c3a55ce9593a5613a5660d83001043a5620d834fec83a2a20d084cecc834220d073a28c3a28ce8a53a2913a2920d074e6c83608601a650ecc8069a01a53607436074d81f360793607e01a54b2c84c6ca01a580710807112cb250ec80f3eda51952ecc69465a5180f3d802e85a518694dc0f3d83cf80f3dd0f3dda51858ec8694dd4bb258ec825f85d9c603888)
  (.lf 0)) (.nd (.lf
  0x18105ba7b53f7051f71ba7b6ea6818101ba7b55f706e9edba7a180f0180f0603e180f5180f5ba7a55f6c51f6dba7a6ea64180f9ba7a53f6c6e9e9ba79180e4180e4603b180e9180edba7953f6851f69ba796ea60180e9ba7955f686e9e5ba78180d8180d86038180dd180ddba7855f6451f61ba776ea5851f65ba786ea5c180e1ba7853f646e9e1ba77180cc180cc6035180d1180d1ba7755f606eaa94fec55fb06eab14fee55fb86ea7d4fe155f846ea594fd855f6055f60043d418d855f840426418fc55fb0043141928418fc043d010c8419280428010f4443b0045d010f453fb8047d444b0444b1114c445b1445b0047d010f4010f596ac65b2c180d5ba7753f6051f4dba726ea446ea454fd355f4c6e9ddba76180c0180c06032180c5180c9ba7653f5c51f5dba766ea54180c5ba7655f5c6e9d9ba75180b4180b4602f180b9180bdba7553f5851f59ba756ea50180b9ba7555f586e9d5ba74180a8180a8602c180ad180b1ba7453f5451f55ba746ea4c180adba7455f546e9d1ba731809c1809c6029180a1180a1ba7355f50180a5ba7353f5051f51ba736ea486e9cdba72180901809060261809518095ba7255f4c6ea954fe755f9c6ea9d4fe955fa4)
  (.lf 0)))

def shaGateTree237 : BTree :=
  .nd (.nd (.nd (.lf
  0x287c4a1ef287b8287b8a1ef5920559204a1ef5b13c5b13ddf8577e9077e9174465f1185f119e0017808078005e00028c4828c48a31428c4d28c51e0006111428c4de000631142898ddf855d11877e15df842897828978a2602897d2897ddf845f114287bca1ed287b0287b0a1ed5920159200a1ed5b1385b139df8477e8c77e8d74455f1145f115e0007807c78001dfff28c3c28c3ca31128c4128c45dfff6111028c41dfff6311028981df845d11477e11df832896c2896ca25d2897128971df835f110287b4a1eb287a8287a8a1eb591fd591fca1eb5b1345b135df8377e8877e8974445f1105f111dfff7807877ffddffe28c3028c30a30e28c3528c39dffe6110c28c35dffe6310c28975df835d11077e0ddf822896028960a25a2896528965df825f10c287aca1e9287a0287a0a1e9591f969fb5647e042b4591f8a1e95b1305b131df8277e8477e8574435f10c5f10ddffe7807477ff9dffd28c2428c24a30b28c2928c2ddffd6110828c29dffd6310828969df825d10c77e09df812895428954a2572895928959df815f108287a4a1e72879828798a1e7591f569fb1647d042b0591f4a1e75b12c5b12ddf8177e8077e8174425f1085f109dffd78070)
  (.lf 0)) (.nd (.lf
  0x41ca006c601b6c1ba9c6ea51ba901bc69c2ce5c2c444e2806fb01b6c54330071b44f2844f2913ea4502945028071b01b6c01b6d9a0e668b4668b548ec583b06674599d00b2f80236d99d0667bc0b2f82cc00b2fd0b30199d0583b01ba906ea5583b1667bd60ec01d6c583b06ea55a3505a351c2ce70bb470b39c2cd1bc541bc546f171bc591b171c175542d8705d5c1741b15c1b15c6c591b161522d5c1747064c7064d50b5562d41b161c174562d4562d406da41c4c7067150be562f8562f806c341c707069d50c9563245632406ce41c9c41c7006da01b3c41c9c06c501b6844e2406fa01b685432c071a44f2444f2513e94502545024071a01b6801b699a0d668b0668b148eb583ac3e8a408fa0236860240091a3e9243e92408da3e9a50b4699a0e523b0668399a0d0b4540b4542d170b4590b4599a0d583ac1ba946eb81ba841ba846ea31ba890b2fd99d001d6c6674199cf0b2ec0b2ec2cbd0b2f10b2f599cf583ac0236999cf667b8667b960eb01d68583ac6eb81bb1c1ba886eb85a34c1ba8c00001bae21bae06eb71ba781ba786ea01ba7d3e8a008f9023646023c09193e9203e92008d93e9a11b165c174542d4705d1c1731b1501b1506c561b155)
  (.lf 0))) (.nd (.nd (.lf
  0x7420d52aa56aa856aa80aaf42420423e00ab602aac423e40ab702ab0423e80ab802ab4423ec0ab902ab8423f00aba02abc423f40abb02ac04240c0aa102ad8424100aa202adc424140aa302ae0424180aa402ae44241c0aa502ae8424200aa602aec464a80adb02aec54ab00afb465a8465a9198a466a9466a80afb02aec02aeda152685c40de95a15258b3068549a1510de840de8437a30de89464940ad602ad8464980ad702adc4649c0ad802ae0464a00ad902ae4464a40ada02ae854a9c0af64659454aa00af74659854aa40af84659c54aa80af9465a054aac0afa465a446595198546695465991986466994659d19874669d465a11988466a1465a51989466a5466940af602ad8466980af702adc4669c0af802ae0466a00af902ae4466a40afa02ae802ae9a151685c00de8da15152b2c02ae5a150685bc0de89a15158b2c68545a1500de780de7837a00de7d0de81a15052b280de7da15058b2868541a14f0de6c0de6c379d0de710de71a14f58b240de75a14f52b2402ae1a14f685b86853da14e0de600de60379a0de650de65a14e58b200de69a14e52b2002adda14e685b468539a14d0de540de5437970de590de59a14d58b1c0de5da14d52b1c)
  (.lf 0)) (.nd (.lf
  0x43d1d0f6743e1d43c1c03b800e6055ccc03984164443e1c03d800e6055cf003814166841668039800e3400e61943b6516861c0c05463b9f061c5405583ba383b9f005580154c5bab9b32b6cd286cd28055849fa414c9db32c49fa86ccb1b32b14c8c14c8c532514c9114c95b32b015603dc9c0578015605fc3805983dd1c3dd1c05583dd9d0156193fd65070650f1943b0927c0927c24a109281650715f690106065169476957da409281943b57da457da4598259d78166085980165fc165fc598057da114c91b32b49fa46ccadb32a14c8014c80532214c8514c89b32a0155c5bab5b32a6cd246cd24055749fa06d9b97f0261c0861c0805453b9ec61c5005573ba343b9ec0557015483dc9805770155c5fc3405973dd183dd1805573dd990155d93fc6506c6506d5f680105c15c7db58b53ccc6d62db58a15c6815c68571c15c6d15c6db58a55cc851cc9b58a6d6a46d6a54f3255cc855cc80397416406d6f54f4655d186d6c94f3b55cec55d18038b4169053d2003d743d1809285943b51da4650ed943a0927009270249e0927509275943a57da00911993fd0106064ff593fc091080910824440910d55cec0380416640911193fc57da043d190f6643e19)
  (.lf 0)))

def shaGateTree238 : BTree :=
  .nd (.nd (.nd (.lf
  0x791415520574805748010e542df8791455521574845748410e642dfc791495522574885748810e742e007914d55235748c5748c10e842e04791515524574905749010e942e08791555525574945749410ea42e0c791595526574985749810eb42e107915d55275749c5749c10ec42e14791615528574a0574a010ed42e18791655529574a4574a410ee42e1c79169552a574a8574a810ef42e207916d552b574ac574ac10f042e2479171552c574b0574b010f142e2879175552d574b4574b410f242e2c79179552e574b8574b810f342e307917d552f574bc574bc10f442e34791815530574c0574c010f542e3842dbc10ed0438842dc010ee0438c42dc410ef0439042dc810f00439442dcc10f10439842dd010f20439c42dd410f3043a042dd810f4043a442ddc10f5043a842de010f6043ac42de410f7043b042de810f8043b442dec10f9043b842df010fa043bc42df410fb043c042df810fc043c442dfc10fd043c842e0010fe043cc42e0410ff043d042e0810e0043d442e0c10e1043d842e1010e2043dc42e1410e3043e042e1810e4043e442e1c10e5043e842e2010e6043ec42e2410e7043f042e2810e8043f442e2c10e9043f842e3010ea043fc)
  (.lf 0)) (.nd (.lf
  0x50d152c28054f07fbc12c4650d1850d192c29054f47fbc52c4750d1c50d1d2c2a054f87fbc92c4850d2050d212c2b054fc7fbcd2c4950d2450d252c2c055007fbd12c4a50d2850d292c2d055047fbd52c4b50d2c50d2d2c2e055087fbd92c4c50d3050d312c2f0550c7fbdd2c4d50d3450d352c3005510054a12c234b060054a52c244b064054a92c254b068054ad2c264b06c054b12c274b070054b52c284b074054b92c294b078054bd2c2a4b07c054c12c2b4b080054c52c2c4b084054c92c2d4b088054cd2c2e4b08c054d12c2f4b090054d52c304b094054d92c114b098054dd2c124b09c054e12c134b0a0054e52c144b0a4054e92c154b0a8054ed2c164b0ac054f12c174b0b0054f52c184b0b4054f92c194b0b8054fd2c1a4b0bc055012c1b4b0c0055052c1c4b044055092c1d4b0480550d2c1e4b04c055112c1f4b0507fbe12c4e50d3850d392c204b0547fbe52c4f50d3c50d3d2c214b0587fbe92c5050d4050d412c224b05c4dcc1fe5f7f9f87f97dfe5e34e2034e20d38a34e2534e29fe5e4ac3c34e25fe5e4f4bc4dcbdfe5e7f9f47f979fe5d34e1434e14d38734e1934e1dfe5d4ac3834e19fe5d4f4b84dcb9fe5d7f9f07f975fe5c34e08)
  (.lf 0))) (.nd (.nd (.lf
  0xe951a33758d0468cdda3360e9400e9403a520e9450e949a33652d000e945a33658d0002cbda33668d5468cd9a3350e9340e9343a4f0e9390e939a33558cfc0e93da33552cfc02cb9a33568d5068cd5a3340e9280e9283a4c0e92d0e931a33452cf80e92da33458cf868cd1a3330e91c0e91c3a490e9210e921a33358cf468d654b4458d1068d714b4758d1c3fb940d56034d860bb00d763fc143fc140d363fc95034d9a2ff68c783fb980d57034dc3fb9c0d58034e03fba00d59034e43fba40d5a034e83fba80d5b034ec3fbac0d5c034f03fbb00d5d034f43fbb40d5e034f83fbb80d5f034fc60bb40d773fc1860bb80d783fc1c60bbc0d793fc2060bc00d7a3fc2460bc40d7b3fc2860bc80d7c3fc2c60bcc0d7d3fc3060bd00d7e3fc3460bd40d7f3fc383fc180d373fc993fc1c0d383fc9d3fc200d393fca13fc240d3a3fca53fc280d3b3fca93fc2c0d3c3fcad3fc300d3d3fcb13fc340d3e3fcb53fc380d3f3fcb9034f1a30568c90034f5a30668c94034fda30868c9c68c21a3070e88c0e88c3a250e8910e895a30758d3c0e891a30702ef8034f9a30768c9868c1da3060e8800e8803a220e8850e889a30658d380e885a30602ef468c19a3050e874)
  (.lf 0)) (.nd (.lf
  0x6519d9466093003baa40565015803dd500585015945fc6c05a53ddd03ddd005653de51015959466652140930024c20930509309946657dd8652155f760109465315477857de06521d5f780109c65369478d57e34652755f8e010f46527d5f90010fc65375479057e4057e405b7a59e1465371478f57e3c652795f8f010f857e3c5b7916e2c16de85b7916d9c16d9c5b6916da116da05b7959e1016da4000016de616de45b6616d9416d945b6657e396536d478e57e3857e385b6659e0c16d985b7816d8816d885b6416d8d16d90000016de2652715f8d010f016d8c5b7859e0857e345b7816e2816de05b7716d7c16d7c5b6116d8165365478c57e306526d5f8c010ec57e305b7716e2416d84000016dde16d805b7759e0416ddc5b5e16d7416d745b5e57e2d652695f8b010e865361478b57e2c57e2c5b5e59e0016d785b7616d6816d685b5c16d6d16d70000016dda652655f8a010e46535d478a57e2857e285b7616e2016d6c5b7659dfc16dd85b7516d5c16d5c5b5916d6116d605b7559df865359478957e24652615f89010e057e245b7516e1c16d64000016dd616dd45b7416d5016d505b5616d5565345478457e106534d478657e1865355478857e20)
  (.lf 0)))

def shaGateTree239 : BTree :=
  .nd (.nd (.nd (.lf
  0x49918e2650108049958e26003444e9098e2663914638998e250498004980126204985049858e2550104049898e25003404e9058e2563910638958e240497404974125f04979049798e24501000497d8e240033c4e9018e246390c638918e230496804968125c0496d0496d8e23500fc049718e23003384e8fd8e23639086388d8e220495c0495c125904961049618e22500f8049658e22003344e8f98e2263904638898e210495004950125604955049558e21500f4049598e21003304e8f58e2163900638858e200494404944125304949049498e20500f00494d8e200032c4e8f18e20638fc638818e1f049380493812500493d0493d8e1f500ec049418e1f003284e8ed8e1f638f86387d8e1e0492c0492c124d04931049318e1e500e8049358e1e003244e8e98e1e638f4638798e1d0492004920124a04925049258e1d500e4049298e1d003204e8e58e1d638f0638758e1c0491404914124704919049198e1c500e00491d8e1c0031c4e8e18e1c638ec638718e1b049080490812440490d0490d8e1b500dc049118e1b003184e8dd8e1b638e86386d8e1a048fc048fc124104901049018e1a500d8049058e1a003144e8d98e1a638e4638698e19048f0)
  (.lf 0)) (.nd (.lf
  0x19f51beaf5c06465f9d605401b0c6609548545815058151beaf6fb386fabdbeae19f3c19f3c67d119f4119f45beae5c06019f41beae5e0606fab9bead19f3019f3067ce19f3519f35bead5e05c6fb8d702e5e0b819f39bead5c05c6fb9570305e0c06fb91702f5e0bc6fb81702b5e0ac6fb89702d5e0b46fb85702c5e0b06fb7570285e0a06fb7170275e09c6fba970355e0d45c0d5bf096fca06fca008df4a5c04a5c1f9877e6987e69930704d9c04c1c1f9c57e7906fb6d70265e0985c09dbefb6fc686fc6808d14a5885c0b9bf026fc845c0c1bf046fc8c6fba570345e0d06fba170335e0cc6fb9970315e0c46fb9d70325e0c86fc25bf081a1f41a1f4687f1a1f91a1fdbf08023781a1f9bf084a5bc5c0d1bf086fc9c6fc21bf071a1e81a1e8687c1a1ed1a1f1bf07023741a1edbf074a5b85c0cdbf076fc986fc1dbf061a1dc1a1dc68791a1e11a1e5bf06023701a1e1bf064a5b45c0c9bf066fc946fc19bf051a1d01a1d068761a1d51a1d9bf050236c1a1d5bf054a5b05c0c5bf056fc906fc15bf041a1c41a1c468731a1c91a1c9bf044a5ac1a1cdbf04023686fc11bf031a1b81a1b868701a1bd1a1c1bf03023645c0bdbf036fc881a1bdbf034a5a8)
  (.lf 0))) (.nd (.nd (.lf
  0x3f4f40a4e3f5753f4f80a4f3f5793f4fc0a503f57d3f5000a513f5813f5040a523f5853f5080a533f5893f50c0a543f58d3f5100a553f5913f5140a563f5953f5180a573f5993f51c0a583f59d3f5200a593f5a13f5240a5a3f5a53f5280a5b3f5a93f52c0a5c3f5ad3f5300a5d3f5b13f5340a5e3f5b53f5380a5f3f5b9528d5cd4b735a820641cd4b548d47352dcd4a2062c2062c818d2063120631cd4a568d0528d1cd4a735a420635cd4a548d073529cd492062020620818a2062520629cd49548cc20625cd49568cc528cdcd49735a073525cd48206142061481872061920619cd48568c8735b15237568dc528c9cd487359c528c55231568c42061dcd48548c8735215231568c5568c408564223c7359d5232568c8568c8085742240735a15233568cc568cc085842244735a55234568d0568d0085942248735a95235568d4568d4085a4224c735ad5236568d8568d8085b42250568dc085c42254735b55238568e0568e0085d42258735b95239568e4568e4085e4225c735bd523a568e8568e8085f42260735c1523b568ec568ec084042264735c5523c568f0568f0084142268735c9523d568f4568f408424226c735cd523e568f8568f8084342270)
  (.lf 0)) (.nd (.lf
  0x3d78c04d44b5944b595918d646b064635918c082c8082c820b4082cd51aa9b0a26c30413a65b0a253aa813a61b0a255aa86c289b0a113a5013a504e9613a5513a59b0a153aa451aa5b0a16c30013a55b0a155aa46c285b0a013a4413a444e9313a4913a49b0a055aa013a4db0a053aa051aa1b0a06c2fc6c281b09f13a3851a9db09f6c2f813a384e9013a3d13a3db09f55a9c13a41b09f53a9c6c27db09e13a2c13a2c4e8d13a3113a31b09e55a9813a35b09e53a9851a99b09e6c2f46c279b09d13a2051a89b09a6c2e413a204e8a13a2513a29b09d53a9413a25b09d55a9451a95b09d6c2f06c275b09c13a1413a144e8713a1913a19b09c55a9013a1db09c53a9051a91b09c6c2ec6c271b09b13a0813a084e8413a0d13a11b09b53a8c13a0db09b55a8c51a8db09b6c2e86c26db09a139fc139fc4e8113a0113a01b09a55a8813a05b09a53a886c269b099139f0139f04e7e139f5139f5b09955a8451a85b0996c2e0139f9b09953a846c265b098139e4139e44e7b139e9139e9b09855a80139edb09853a8051a81b0986c2dc6c261b097139d851a7db0976c2d8139d84e78139dd139e1b09753a7c139ddb09755a7c6c25db096139cc139cc4e75139d1)
  (.lf 0)))

def shaGateTree240 : BTree :=
  .nd (.nd (.nd (.lf
  0x4961c02b600bd84962002b700bdc4962402b800be04962802b900be44962c02ba00be84963002bb00bec4963402bc00bf04963802bd00bf44963c02be00bf84964002bf00bfc496c402c000b80496c802c100b84496cc02c200b88496d002c300b8c496d402c400b90496d802c500b94496dc02c600b98496e002c700b9c496e402c800ba0496e802c900ba4496ec02ca00ba8496f002cb00bac496f402cc00bb0496f802cd00bb4496fc02ce00bb84970002cf00bbc4970402d000bc04970802d100bc44970c02d200bc84971002d300bcc4971402d400bd04971802d500bd44971c02d600bd84972002d700bdc4972402d800be04972802d900be44972c02da00be84973002db00bec4973402dc00bf04973802dd00bf44973c02de00bf84974002df00bfc578c402f649944578c802f749948578cc02f84994c578d002f949950578d402fa49954578d802fb49958578dc02fc4995c578e002fd49960578e402fe49964578e802ff49968578ec02e04996c578f002e149970578f402e249974578f802e349978578fc02e44997c5790002e5499805790402e6499845790802e7499885790c02e84998c5791002e9499905791402ea499945791802eb49998)
  (.lf
  0x134884d21133dc133dc4cf9133e1133e04d2159a04133e4000013486134844d20133d0133d04cf6133d5133d8000013482133d44d2059a00134804cf3133c8133c84cf357a0d57a0c4cf3599fc539852de14327c4327d0cbf4337d4337d2de14b8845f8992d613d5fc3d5fd2da13d67d539892de243280432810cc043381433812de24b88863fdd2e2200b44412cd2e224b85c4b88990d0643bc643bd468257a0807e8d90d151a0c6434590d007e7807e781fa007e7d07e7d90d057a085f89d2d623d6003d6012da23d68107d21909300cc863bfd2da2009443b6552da24b6744b6899092642c46424d909207d1007d101f4607d1507d19909257a08642c55e8200cc4133cc4cf1133c0133c04cf157a0957a084cf1599f8133c44d1f133b4133b44cef133b907d15909200cc464249909107d0407d041f4307d0907d0d909157a04133b84d1f599f463bf92da100940078d58fd74b884412c92e214b858849c58fd763fd863fd92e2100b404b88590cf643b8643b9468157a043b6512da14b6704b6859091642c0642c15e8100cc0133bc00001347e07e8190d051a086434190cf07e6c07e6c1f9d07e7107e7190cf57a0457a044d1f134d41347c4d1e133a8))
  (.nd (.lf
  0x73261cc97202482024880942024d20251cc975c7805a7ddcc97732d8732d971e05e7805c781ccd5733d0732dd71e15e7845c785ccd6733d473359ccd5203b0203b080ee203b5203b9ccd503228203b5ccd54ac6c73355ccd4203a4203a480eb203a9203a9ccd44ac683c52c0a07028083c5300a080280c3c5340a09028100ce519e9702a2867a5d9e960ce400ce4033920ce450ce499e96588683f2600a2902824606fc0a493f2e03f2e00a093f361028259e9667ad40ce459e9602a2467a599e950ce340ce34338f0ce390ce399e9502a203f25c0a2802820606f80a483f2dc3f2dc0a083f35d028219e9567ad00ce3d9e955886467a559e940ce280ce28338c0ce2d0ce319e94588603f2580a270281c606f40a473f2d83f2d80a073f3590281d9e9467acc67ad5621a02a2467ad1621902a2067acd621802a1c200b4802b200a8200a8802b5886945cdc08280202045ce0082902024547e4084845ddc547e8084945de045ddd179745edd45de1179845ee145edc08480202045ee0084902024020259ed467bcc67bcd4a1a588680cfbd9ed55286c67b559ed40cfa80cfa833ec0cfad0cfad9ed45886858868802b5a7d8200ac80602009c2009c8029200a1)
  (.lf 0))) (.nd (.nd (.lf
  0xfb45a65604124763d00e094b26803825a656699d469959a6550fb340fb343ecf0fb390fb3da655590640fb39a6550412069955a6540fb280fb283ecc0fb2d0fb31a654590600fb2da6540411c69951a6530fb1c0fb1c3ec90fb210fb25a6535905c0fb21a653041186994da6520fb100fb103ec60fb150fb19a652590580fb15a6520411469949a6510fb040fb043ec30fb090fb0da651590540fb09a651041102584dd8d14b25876345d8d02583c2583c96112584125845d8d0038105cd69d8d0763bc763bc0e044b25403811a651699c069945a6500faf80faf83ec00fafd0fb01a650590500fafda6500410c25841d8d04b25476341d8cf2583025830960e2583525839d8cf0380c5cd65d8cf763b8763b80e034b2500380da650699bc69941a64f0faec0faec3ebd0faf10faf5a64f5904c0faf1a64f0410825835d8cf4b2507633dd8ce2582425824960b258292582dd8ce038085cd61d8ce763b4763b40e024b24c03809a64f699b86993da64e0fae00fae03eba0fae50fae9a64e590480fae5a64e0410469a1164290416069a0564260415469a0164250415069a0964270415869a0d64280415c69a19642b04168699f5642204144699f9642304148)
  (.lf 0)) (.nd (.lf
  0x41a0c0461011d8446940496011d85409c04b644794447951205448954489404b6011d8011d9979d65ef065ef148475811c5811c65eb5a0d4197ac66051979c1979c65e9197a1197a066055a0d00a4b1975f01ad865d7d975e0a4a00a4a0292a0a4a56f28950245609056090046941a08560c0047541a38419dc0475011a841a080460011d4446900495011d45409804b544790447911204448914489004b5011d4011d5979c65eec65eed484658118197a400001981665df5604601ad40a61d979d5211c65e75979c0a6080a60829840a60d0a60d979c581180a4a9975e58118581186605198441981465e6197941979465e6581155409404b44478c4478d12034488d4488c04b4011d0560bc047441a34419d80474011a44468c0494011d0011d1979b65ee865ee94845581140a4a5975e01ad465d79975d0a4940a49429270a49965df1604501ad00a49d975d581140a611979c5211865e71979b0a5fc0a5fc29810a6010a601979b581145811465e65a0cc5a0d5bdca6f7a41995dbdca5c03019959bdca5e0306f729bdc9199481994866541994d1994dbdc95e02c1984400005a0d25a0d1bdc96f7a019951bdc95c02c6f725bdc81993c1993c665119941)
  (.lf 0)))

def shaGateTree241 : BTree :=
  .nd (.nd (.nd (.lf
  0x47f9810d7042dc47f9c10d8042e047fa010d9042e447fa410da042e847fa810db042ec47fac10dc042f047fb010dd042f447fb410de042f847fb810df042fc5534410e04803c5534810e1480405534c10e2480445535010e3480485535410e44804c5535810e5480505535c10e6480545536010e7480585536410e84805c5536810e9480605536c10ea480645537010eb480685537410ec4806c5537810ed480705537c10ee480745538010ef480785538410f04807c5538810f1480805538c10f2480845539010f3480885539410f44808c5539810f5480905539c10f648094553a010f748098553a410f84809c553a810f9480a0553ac10fa480a4553b010fb480a8553b410fc480ac553b810fd480b0553bc10fe480b4553c010ff480b84803d202f4813d4804120304814148045203148145480492032481494804d20334814d4805120344815148055203548155480592036481594805d20374815d480612038481614806520394816548069203a481694806d203b4816d48071203c4817148075203d4817548079203e481794807d203f4817d4808120404818148085204148185480892042481894808d20434818d4809120444819148095204548195)
  (.lf 0)) (.nd (.lf
  0x66c51491b5846c66c55491c584701c828720b5847158470720b5a4001c82c723c1c81c1c81c72091c8211c82400001c8f21c820723c5a3fc5846c723c1c9241c8f0723b1c8101c81072061c815450dc072801c20543e40748451dc451dd1497452dd452dc074801c2001c219af366c481c81800001c8ee1c814723b5a3f81c8ec72031c8081c80872035846566b51611901e2066c494919584645846472035a3f41c80c72011c8000b9259af35246466bcd9af20b9100b9102e460b9150b9159af2584605a405c4af713381c9d5c4af5c388712bdc4ae1c9c01c9c072721c9c51c9c5c4ae5e3841c8007201584615a401c4ae713341c9c9c4ae5c384712b9c4ad1c9b41c9b4726f1c9b91c9b9c4ad5e3801c92400005a3fe1c9bdc4ad5c3805a3fdc4ad71330712b5c4ac1c9a81c92000005a3fa5a3f9c4ac7132c1c9a8726c1c9ad1c9adc4ac5e37c1c9b1c4ac5c37c712b1c4ab1c99c1c99c72691c9a11c9a1c4ab5e3781c9a5c4ab5c3785a3f5c4ab71328712adc4aa1c9901c99072661c995450d8072701c1c543e00747451d8451d91496452d9452d8074701c1c01c1d9af266c4466c454918584601c995c4aa5e3741c999c4aa5c3745846072015a3f0)
  (.lf 0))) (.nd (.nd (.lf
  0xe1fc38810e2010e205a1fb58bec033a9a1fb688686886962fb02da823599d3c5035ac74f15d3c423584235848d632358923589d3c44afec2342dd3875eb0474e1dd3862341c2341c8d092342123425d3865cb00232d5d376232c4232c48cb3232c9232c9d3765ab5058bedd376233942339400005ab525ab51d38674e9474e9572c05eb005cb01d3c474f8c74f8c0d6a4afec4afee08b48234c8234d32fb4e3ec4e3ee09308253c824c2092f38c6c38c6ce31d38c7138c76092f4b36838c72092f4fbe8389b208b44cbec822d208b33899c3899ce269389a1389a208b34e3e80e201a1fb02da8687eda1fa0e1f0033a5a1fa688640e1f0387e0e1f50e1f9a1fa58be86886562fa02da42358dd3c4035a874f11d3c323578235788d602357d2357dd3c34afe823421d3865eb0074e19d38523410234108d062341523419d3855cafc232cc000074dda74dd9d375232b8232b88cb0232bd232bdd3755ab4c58be9d375233902339000005ab4e5ab4dd38574e9074e9172bf5eafc5cafdd3c374f8874f880d694afe84afea08b3823488234932fa4e3e84e3ea092f82538824be092e38c6038c60e31a38c6538c6a092e4b36438c66092e4fbe4389a608b34cbe8)
  (.lf 0)) (.nd (.lf
  0x6d495b52415aa015aa056aa15aa515aa9b5240165c5bbb5b5246d50c15aa5b5244a0a06d491b52315a9415a9456a715a9915a99b5234a09c5bbb1b5236d5084d355f1307c53c30101f1304a2d47c4c1f12f300ec300ecc03d300f1300f1f12f4eb507c53928b44eb504eb51281e060ec060ed28274a0946d50805964a09c4a09df23a7c964300f5f12f4a2d07c4bdf12e300e0300e0c03a300e5300e5f12e4eb4c7c53d28b54eb544eb55281f060f0060f128284a0986d50c05974a0a04a0a1f23b7c96830785f23b4bca030781f23b4d4a07c8edf23a3077030770c1de3077530775f23a4d49c30779f23a4bc9c7c8e9f2393076430764c1db3076915a9db523016586d48db52215a8815a8856a415a8d15a91b5220165415a8db5224a0985bbadb5226d5046d489b52115a7c15a7c56a115a8115a85b5210165015a81b5214a0945bba9b5216d5006d485b52015a7015a70569e15a7515a75b5204a0905bba5b5206d4fc300e9f12e4a2cc4d34df12e7c5347c4b9f12d300d4300d4c037300d9300d9f12d4eb484d349f12d7c530300ddf12d4a2c84d34528b14eb447c4b528b14eb454eb45281b060e07c53128b24eb484eb49281c060e47c53528b34eb4c)
  (.lf 0)))

def shaGateTree242 : BTree :=
  .nd (.nd (.nd (.lf
  0x7a43de90e2cc4c2cc4cb3152cc512cc55e90e615bc2cc51e90e635bc2c991e8935d5c07a24de8922c97c2c97cb2612c9812c981e8925f5bc2c7f0b1fa2c7e42c7e4b1fa596a95d3bde4c279384793840f99003642aef9e4c3003687930de4c22aee82aee8abbc2aeed2aef1e4c203e6403e65ac366b1546b15565aa0476411f3dac75536ac6b1d5ac7411f2811f2847cc11f2d11f2dac74596a804565ac746b24c6b24d4daa596a811dd1ac37047686b0ddac3611dc011dc0477211dc511dc9ac36596a8596a8b1fa5b5bc5b5bde8927a2c47a2c5756f5f5bc5f5bde90e7a4b47a439e90d2cc402cc40b3122cc452cc49e90d615b82cc45e90d635b82c985e8925d5bc7a249e8912c9702c970b25e2c9752c975e8915f5b82c7e9e8752c7d82c7d8b1f82c7dd2c7dde8755b5b82aeede4c20036479309e4c12aedc2aedcabb92aee12aee5e4c103e605d3b9e4c179380793800f980036011f31ac74536a86b1d1ac7311f1c11f1c47c911f2111f21ac73596a404561ac736b2486b2494da9596a411dc5ac36047646b0d9ac3511db411db4476f11db911dbdac35596a403e61ac356b1506b15165a904760596a5e8752c84c2c84c00005b5ba5b5b9e8917a2c0)
  (.lf 0)) (.nd (.lf
  0x7fef5ffbc3558835588d5643558d35591ffbc4ace43558dffbc4f5644dd65ffbc7ff6c7fef1ffbb3557c3557cd5613558135585ffbb4ace035581ffbb4f5604dd61ffbb7ff687feedffba3557035570d55e3557535579ffba4acdc35575ffba4f55c4dd5dffba7ff647fee9ffb93556435564d55b355693556dffb94acd835569ffb94f5584dd59ffb97ff607fee5ffb83555835558d5583555d35561ffb84acd43555dffb84f5544dd55ffb87ff5c7fee1ffb73554c3554cd5553555135555ffb74acd035551ffb74f5504dd51ffb77ff587feddffb63554035540d5523554535549ffb64accc35545ffb64f54c4dd4dffb67ff547fed9ffb53553435534d54f355393553dffb54acc835539ffb54f5484dd49ffb57ff504dd452b314f5447fed52b314f5454f5452a9b067c07ff512b324f5484f5492a9c067c47ff552b334f54c4f54d2a9d067c87ff592b344f5504f5512a9e067cc7ff5d2b354f5544f5552a9f067d07ff612b364f5584f5592aa0067d47ff652b374f55c4f55d2aa1067d87ff692b384f5604f5612aa2067dc7ff6d2b394f5644f5652aa3067e07ff712b3a4f5684f5692aa4067e47ff752b3b4f56c4f56d2aa5067e87ff792b3c4f570)
  (.lf 0))) (.nd (.nd (.lf
  0x3ff340d9e3ffb53ff380d9f3ffb952e41d76a75e2475da9d76924e3024e30938e24e3524e39d76954e3c24e35d76956e3c52e3dd76975e2075da5d76824e2424e24938b24e2924e2dd76854e3824e29d76856e3852e39d76875e1c75da1d76724e1824e18938824e1d24e21d76754e3424e1dd76756e3452e35d76775e1875d9dd76624e0c24e0c938524e1124e15d76654e3024e11d76656e3052e31d76675e1475d99d76524e0024e00938224e0524e09d76554e2c24e05d76556e2c52e2dd76575e1075d95d76424df424df4937f24df924dfdd76454e2824df9d76456e2852e29d76475e0c75d91d76324de824de8937c24ded24df1d76354e2424dedd76356e2452e25d76375e0875d8dd76224ddc24ddc937924de124de5d76254e2024de1d76256e2052e21d76275e0475d89d76124dd024dd0937624dd524dd9d76154e1c24dd5d76156e1c52e1dd76175e0075d85d76024dc424dc4937324dc924dcdd76054e1824dc9d76056e1852e19d76075dfc75d81d75f24db824db8937024dbd24dc1d75f54e1424dbdd75f56e1452e15d75f75df875d7dd75e24dac24dac936d24db124db5d75e54e1024db1d75e56e1052e11d75e75df475d79d75d24da0)
  (.lf 0)) (.nd (.lf
  0x99f5959a57ed057ed05eb659ea059ea1b9b96e7606e7696f7b5ddec5bdedb9f96e8606e7e5b9f817dd817dd85f7817ddd17de1b9f8018906e7616f795dde45bde5b9f76e8586e85806234a2d017dddb9f84a2d46e7656f7a5dde85bde9b9f86e85c6e7e1b9f717dcc17dcc5f7517dd117dd1b9f74a2d04a2d1f5c97d7a07d7a12fb44d6d03df4405c2016885fd6005e23dfc43dfc405a23e04517ad85eb417acc17acc5eb457ecd44044040200f8853e4c0422441444414510714424544244042200f8800f899599656e0656e147b357ecc0988d955c0118c65571955b0987c0987c26210988101689955b655e8655e95fb301188099f9959a51ed0656699599099e4099e4267b099e9099e9959957ecc09885955b57ecc57ecc5eb459e9c17ad167a517ac417ac55fb117ac9316a9f4de4a5847d379f4dd3169431694c5a73169931699f4dd4ee004d601f4dd7d3f03169df4dd4a5807d375f4dc3168831688c5a43168d3168df4dc4edfc31691f4dc4a57c4d5fdf4dc7d3ec7d371f4db3167c3167cc5a13168131685f4db4a57831681f4db4edf84d5f9f4db7d3e87d36df4da3167031670c59e3167531675f4da4edf431679f4da4a5744d5f5f4da7d3e4)
  (.lf 0)))

def shaGateTree243 : BTree :=
  .nd (.nd (.nd (.lf
  0x3af460f364e84c83cda0f353af343af34ebcf3af393af3e0f354d04827511dcae03a08772b9dcad274fc274fc9d412750127501dcad4b4485cf5ddcad77330773300e814b4484b44a0f3583d5083d5134124e8484d04a0f7383e483af3a0f354e84827505dcad03a045cf580e804b444772b40e804b4454b44534114e84483cd534114e8454d04401c05184483dcc01c0518455184401a305f0c83e4801c1518485184801a405f1083e4c01c25184c5184c01a505f1483e5001c3518505185001a605f1883e5401c4518545185401a705f1c83e5801c5518585185801a805f2083e5c01c65185c5185c01a905f2483e6001c7518605186001aa05f2883e6401c8518645186401ab05f2c83e6801c9518685186801ac05f3083e6c01ca5186c5186c01ad05f3483e7001cb518705187001ae05f3883e7401cc518745187401af05f3c83e7801cd518785187801b005f4083e7c01ce5187c5187c01b105f4483e8001cf518805188001b205f4883e8401d0518845188401b305f4c83e8801d1518885188801b405f5083e8c01d25188c5188c01b505f5483e9001d3518905189001b605f5883e9401d4518945189401b705f5c83e9801d5518985189801b805f60)
  (.lf 0)) (.nd (.lf
  0x50a8d2b86052a47ed312ba450a9050a912b87052a87ed352ba550a9450a952b88052ac7ed392ba650a9850a992b89052b07ed3d2ba750a9c50a9d2b8a052b47ed412ba850aa050aa12b8b052b87ed452ba950aa450aa52b8c052bc7ed492baa50aa850aa92b8d052c07ed4d2bab50aac50aad2b8e052c47ed512bac50ab050ab12b8f052c87ed552bad50ab450ab52b90052cc0525d2b834ade0052612b844ade4052652b854ade8052692b864adec0526d2b874adf0052712b884adf4052752b894adf8052792b8a4adfc0527d2b8b4ae00052812b8c4ae04052852b8d4ae08052892b8e4ae0c0528d2b8f4ae10052912b904ae14052952b714ae18052992b724ae1c0529d2b734ae20052a12b744ae24052a52b754ae28052a92b764ae2c052ad2b774ae30052b12b784ae34052b52b794ae38052b92b7a4ae3c052bd2b7b4ae40052c12b7c4adc4052c52b7d4adc8052c92b7e4adcc052cd2b7f4add07ed592bae50ab850ab92b804add47ed5d2baf50abc50abd2b814add87ed612bb050ac050ac12b824addc4da21fab57eb507eb512a684f2204da19fab37eb487eb492a664f2184da11fab17eb407eb412a644f2104da09faaf7eb387eb392a624f208)
  (.lf 0))) (.nd (.nd (.lf
  0x218f9cfde033bc218f5cfde4ae0073efd72455e9145c915cfde73ff473f79cfdd218e4218e4863b218e9218edcfdd033b8218e9cfdd4adfc73ef972445e9105c911cfdd73ff073f75cfdc218d8218d88638218dd218e1cfdc033b4218ddcfdc4adf873ef572435e90c5c90dcfdc73fec73f71cfdb218cc218cc8635218d1218d5cfdb033b0218d1cfdb4adf473ef172425e9085c909cfdb73fe873f6dcfda218c0218c08632218c5218c9cfda033ac218c5cfda4adf073eed72415e9045c905cfda73fe473f69cfd9218b4218b4862f218b9218bdcfd9033a8218b9cfd94adec73ee972405e9005c901cfd973fe073f65cfd8218a8218a8862c218ad218b1cfd8033a4218adcfd84ade873ee5723f5e8fc5c8fdcfd873fdc73f61cfd72189c2189c8629218a1218a5cfd7033a0218a1cfd74ade473ee1723e5e8f85c8f9cfd773fd873f5dcfd6218902189086262189521899cfd60339c21895cfd64ade073edd723d5e8f45c8f5cfd673fd473f59cfd521884218848623218892188dcfd50339821889cfd54addc0d661a00302b886800da0020d6500d65035960d6550d659a002589c80d655a00202b8402985a0026808402981627102b8068009627102b81)
  (.lf 0)) (.nd (.lf
  0x55bd8035b41550415a0034600d6c00d6d934664d9408d09934651cb064d19934508cf408cf4233f08cf908cfd934551cac55bd4035a4154c55bf803434157041570035a00d3c6cf194f0955c2455c24034e4159c43b24039a00d6843924037a00d684159c034500d6800d69934564d9064d91472b57cac51cadb4ab6d3286d3294f2b55cac43900037100d446cee54efc55bf04391c037800d6053c24039843a1c43a1d0ea743b1d6cf114f0755c1c55c1c034c4159443b1c039800d6055bf003414156841568035800d3441594034300d6000d61934364d886cec54ef455bd06cf0d4f0655c1855c18034b4159051bc9b3906cebc6cebd4ef255bc853c28039943a2043a210ea843b2143b20039900d6414e5db39153bcc6ce45b39014e4855bd00359415486cf154f0855c2053c20039743a1843918037700d5c43a190ea643b1941590034200d5c43b18039700d5c14e48539414e4d14e4db39055bc855bc803574154000d5d934264d8443920037900d646cee94efd55bf455bf403424156c4156c035900d3855c20034d4159841598034400d6400d65934464d8c08cf9934557cac64d15934408ce808ce8233c08ced08cf1934451ca808ced934457ca8)
  (.lf 0)))

def shaGateTree244 : BTree :=
  .nd (.nd (.nd (.lf
  0x636bc0ff23d4a07aad585b0636c0636c00ff33d4a47aad985b1636c4636c40ff43d4a87aadd85b2636c8636c80ff53d4ac7aae185b3636cc636cc0ff63d4b07aae585b4636d0636d00ff73d4b47aae985b5636d4636d40ff83d4b83d43c0feb03f983d4400fec03f9c3d4440fed03fa03d4480fee03fa43d44c0fef03fa83d4500ff003fac3d4540ff103fb03d4580ff203fb43d45c0ff303fb83d4600ff403fbc3d4640ff503fc03d4680ff603fc43d46c0ff703fc83d4700ff803fcc3d4740ff903fd03d4780ffa03fd43d47c0ffb03fd83d4800ffc03fdc3d4840ffd03fe03d4880ffe03fe43d48c0fff03fe83d4900fe003fec3d4940fe103ff03d4980fe203ff43d49c0fe303ff83d4a00fe403ffc3d4a40fe503f803d4a80fe603f843d4ac0fe703f883d4b00fe803f8c3d4b40fe903f903d4b80fea03f944113c100003f8041140100103f8441144100203f8841148100303f8c4114c100403f9041150100503f9441154100603f9841158100703f9c4115c100803fa041160100903fa441164100a03fa841168100b03fac4116c100c03fb041170100d03fb441174100e03fb841178100f03fbc4117c101003fc041180101103fc441184101203fc8)
  (.lf 0)) (.nd (.lf
  0xc9699dae587a8027659dae677340c9659dae02164676b99dad0c9540c95432570c9590c95d9dad587a4027619dad677300c9599dad02160676b59dac0c9480c94832540c94d0c9519dac587a00c94d9dac0215c0275d9dac6772c676b19dab0c93c0c93c32510c9410c9419dab021580c9459dab5879c676ad9daa0c9306062c0a153f1103f11009d53f1910c930324e0c9350c9359daa021540c9399daa587986781949e558794027559daa67724676a99da90c9240c924324b0c9290c92d9da958794587947cd11f3786772d61e80215c6782549e8587a06773d61ec0216c6774d61f00217c6784549f0587c0587c07cd75a7441f35c7cd61f3241f3247ccb1f3291f3287cd65a7406783549ec587b06783949ed587b46774161ed02170587b47cd51f3886774561ee021746783d49ee587b86774961ef021786784149ef587bc587bc7cd61f38c1f32c00001f35a1f3587cc81f31c1f31c7cc8587b9587b87cc85a73c1f3207cd51f3101f3107cc61f3151f3147cd55a7381f31800001f3561f3547cc31f3081f3087cc3587b1587b07cc35a7341f30c7cc11f3006783149eb587ac1f3007cc1587ad6773961eb02168587ac7cc15a7301f3047cd41f2f4)
  (.lf 0))) (.nd (.nd (.lf
  0x3779a57369648695cda5720f690697194be558f94697114be358f8c24b65d6ed4b1bc75bb5d6ec24b5424b5492d724b5924b5dd6ec037745cccdd6ec75c2c75c2c0ddd4b1b803775a572696440f6903da60f6950f699a57258fb80f695a57203174695c9a5710f6840f6843da30f6890f689a5710317024b59d6ec4b1b875bb1d6eb24b4824b4892d424b4d24b51d6eb0377024b4dd6eb4b1b45ccc9d6eb75c2875badd6ea24b3c24b3c92d124b4124b45d6ea0376c24b41d6ea4b1b05ccc5d6ea75c2475ba9d6e924b3024b3092ce24b3524b39d6e90376824b35d6e94b1ac5ccc1d6e975c2075ba5d6e824b2424b2492cb24b2924b2dd6e80376424b29d6e84b1a85ccbdd6e875c1c75ba1d6e724b1824b1892c824b1d24b21d6e70376024b1dd6e74b1a45ccb9d6e775c1875b9dd6e624b0c24b0c92c524b1124b15d6e60375c24b11d6e64b1a05ccb5d6e675c1475b99d6e524b0024b0092c224b0524b09d6e50375824b05d6e54b19c5ccb1d6e575c1075b95d6e424af424af492bf24af924afdd6e40375424af9d6e44b1985ccadd6e475c0c75b91d6e324ae824ae892bc24aed24af1d6e30375024aedd6e34b1945cca9d6e375c0875b8dd6e224adc)
  (.lf 0)) (.nd (.lf
  0x65a65969809fd809fd827f809fdd09fdd969857fe8443600449010a453f6804694446044461113844561445600469010a4010a5969865adc4435c0448010a053f6404684445c4445d11374455d4455c0468010a009fe1969851fe865a61969709fcc09fcc27f509fd109fd5969751fe409fd1969757fe4010a1969765ad865a5d969609fc009fc027f209fc54435804470109c53f60046744458444591136445594455804670109c0109d969665ad409fc5969657fe009fc9969651fe065a59969509fb409fb427ef09fb909fb9969557fdc3bca805e6017843e1540606017985fe7006263e1d43e1d405e63e255017999657659d809e4c279509e5109e55965757fdc659d95ff70129865ad147f757fdc57fdc628118a404d741f6617da007d985f66031fb831fb8c7f031fbd31fc1f6604a6bc4d73df6607d9fc31fbdf6604ef3c7d981f65f31fac31facc7ed31fb131fb5f65f4a6b84d739f65f7d9f831fb1f65f4ef387d97df65e31fa031fa0c7ea31fa531fa5f65e4ef3431fa9f65e4a6b44d735f65e7d9f47d979f65d31f9431f94c7e731f9931f99f65d4ef304d731f65d7d9f031f9df65d4a6b07d975f65c31f8831f88c7e431f8d31f91f65c4a6ac)
  (.lf 0)))

def shaGateTree245 : BTree :=
  .nd (.nd (.nd (.lf
  0x10749a856592a810745a8560436403a55a8526a1c403a65a8566a1d46a159a855107341073441cf1073910739a855043601073da855592a403a61a8556a1d06a155a854107281072841cc1072d03a5da8546a1cc10731a854592a01072da8540435c6a151a8531071c1071c41c91072110725a8535929c10721a8530435803a59a8536a1c86a14da852107101071041c61071510719a8525929810715a852043546a149a851107041070441c31070910709a8510435003a51a8516a1c01070da851592946a145a850106f8106f841c0106fd10701a85059290106fda8500434c03a4da8506a1bc6a141a84f106ec106ec41bd106f1106f1a84f04348106f5a84f5928c03a49a84f6a1b86a13da84e106e0106e041ba106e5106e5a84e04344106e9a84e5928803a45a84e6a1b46a139a84d106d4106d441b7106d9106d9a84d0434003a41a84d6a1b0106dda84d592846a135a84c106c8106c841b4106cd106d1a84c59280106cda84c0433c03a3da84c6a1ac6a131a84b106bc03a39a84b6a1a8106bc41b1106c1106c5a84b5927c106c1a84b043386a12da84a106b0106b041ae106b5106b9a84a5927803a35a84a6a1a4106b5a84a0433403a1da8446a18c)
  (.lf 0)) (.nd (.lf
  0x70c70094c4a77470c6409494a76870c5009444a7541bc906f261bc951b99568b95a2e81bb39c2b55e26070ad5c2b41bb281bb286ecc1bb2d1bb31c2b45c25c5a2e9c2b470b4c70b4d70975e25c5c25dc2f270c441bc95c2f24a7481bc99c2f20250470bc809404a74570c4409414a74870c74094d4a77870c8c09534a79070c5409454a75870c4809424a74c70cb0095c4a7b41bb2dc2b45e25c5a2e570965e25870ad170965e2595c25809404a74470cb4095d4a7b870c9409554a79870ca009584a7a470c9c09574a7a070c8009504a78470c9809564a79c70ca409594a7a870c8809524a78c70c7c094f4a78070c8409514a78870c5c09474a76070cb8095e4a7bc70ca8095a4a7ac70c5809464a75c70cac095b4a7b04a7c1fc6f7f2387f23930f04dbc04c3c1fcad7f3307f2b5fcac3444834448d1143444d34451fcac4afbc3444dfcac50bbc7f1bdfc6e342e0342e0d0ba342e5342e9fc6e4c3bc4a7bdfc6e7f2347f23530ef4dbbc4c3bdfcac7f32c7f2b1fcab3443c3443cd1113444134445fcab4afb834441fcab50bb8342e5fc6e4dbbc7f1b9fc6d342d4342d4d0b7342d9342ddfc6d4c3b84a7b9fc6d7f2307f23130ee4dbb84c3b9fcab7f328)
  (.lf 0))) (.nd (.nd (.lf
  0x225ec897d225f1225f5d18e5ca0c2244c89112244022440891158af958af889115aa685aa69d18e746b4746b572835ea0c5ca0dd1cc747ac747ac0d2d4aef84aefa074381d8881d8932be4e2f84e2fa07bf81f7881efe07be3842038420e10a384253842a07be4b2743842607be4faf43816607434caf881d0e07423815038150e056381553815607424e2f4685894abd58af42275dd1cc034b474731d1cb227482274889d42274d2274dd1cb4aef4225f1d18e5ea0c74639d18d225e0225e0897a225e5225e9d18d5ca0822444890f2243822438890f58af558af4890f5aa645aa65d18d746b0746b172825ea085ca09d1cb747a8747a80d2c4aef44aef6074281d8481d8532bd4e2f44e2f607be81f7481efa07bd3841438414e107384193841e07bd4b2703841a07bd4faf03815a07424caf481d0a07413814438144e053381493814a07414e2f0685854abc58af022751d1cb034b07472dd1ca2273c2273c89d12274122741d1ca4aef0225e5d18d5ea0874635d18c225d4225d48977225d9225ddd18c5ca042243c89402242c2242c890d224312243089405aa6058af089402253c2253c00005aa625aa61d18c746ac746ad72815ea045ca05d1ca747a4)
  (.lf 0)) (.nd (.lf
  0x16459b69055d801645db69053d806da41b68f164481644859141644d1644db68f55d7c16451b68f53d7c51d7db68f6dab86da3db68e1643c1643c59111644116445b68e53d7851d79b68e6dab416441b68e55d786da39b68d1643016430590e1643516435b68d55d7416439b68d53d7451d75b68d6dab06da35b68c1642416424590b164291642db68c53d7051d71b68c6daac16429b68c55d706da31b68b164181641859081641d1641db68b55d6c16421b68b53d6c51d6db68b6daa86da2db68a1640c1640c59051641116415b68a53d6851d69b68a6daa416411b68a55d686da29b689164001640059021640516405b68955d6451d65b6896daa016409b68953d646da25b688163f4163f458ff163f9163fdb68853d6051d61b6886da9c163f9b68855d606da21b687163e8163e858fc163ed163edb68755d5c51d5db6876da98163f1b68753d5c6da1db686163dc163dc58f9163e1163e5b68653d58163e1b68655d5851d59b6866da946da19b685163d0163d058f6163d5163d9b68553d54163d5b68555d5451d55b6856da906da15b684163c4163c458f3163c9163cdb68453d50163c9b68455d5051d51b6846da8c6da11b683163b8163b858f0163bd)
  (.lf 0)))

def shaGateTree246 : BTree :=
  .nd (.nd (.nd (.lf
  0x4399aaed6ac306ac314d37594dc1147daab00459c6aac1aaaf1146c1146c451d1147111475aaaf594dc594dcac855b3f85b3f9e569796207962174fc5f3f05f3f1e5e57981079795e5e42b6682b668ad9c2b66d2b671e5e4613ec2b66de5e4633ec2b3ade5695d3f0795a5e5682b3982b398ace82b39d2b39de5685f3ec2b214ac832b2082b208ac83594d95d1ede1bb78768787680f2500194298cde1bc00198786f1e1bb298bc298bca631298c1298c5e1bb03c9403c95aaae6ab346ab35653604594115ddaaed534dc6abb5aaec115c8115c84574115cd115cdaaec594d804395aaec6ac2c6ac2d4d36594d811471aaaf045986aabdaaae1146011460451a1146511469aaae594d8594d8ac835b3f45b3f5e5687961c7961d74fb5f3ec5f3ede5e47980c79791e5e32b65c2b65cad992b6612b665e5e3613e82b661e5e3633e82b3a1e5685d3ec795a1e5672b38c2b38cace52b3912b391e5675f3e82b20d6cfb2b2002b20165342b2052b2056cfb5b3f0298c1e1bb00194786ede1ba298b0298b0a62e298b5298b9e1ba03c905d1e9e1ba78764787640f2400190115d1aaec534d86abb1aaeb115bc115bc4571115c1115c1aaeb594d404391aaeb6ac28)
  (.lf 0)) (.nd (.lf
  0x1d9ddc7084a9b01d879c6ca5c4c471ba571315e4c45c4c5c70871c9c71c21c7071d9cc1d9cc76751d9d1524d5c561716001cdb9c562544d871589c5611cda41cda4736b1cda91cda9c561564d4716015135564d4564d4075a41e4c71625513e564f8564f8074341e707165151495652456524074e41e9c41e70075a01d3c41e9c074501d680bfa99bfe525b066ff99bfd0bf940bf942fe70bf9945424077a01d685452c079a455244552515694562545624079a01d6801d699bfd670701d6e875b81d6dc1d6dc75b8585ad0bf999bfd585ac67071496b585ac66f79616b01f68585ac75b85a53c5a53dc6c971ba01cdadc561544d471585c5601cd981cd9873681cd9d1cd9dc560564d0524d1c560715fc715fd5134564d0564d0075941e4871621513d564f4564f4074241e6c7164d51485652056520074d41e9841e6c075901d3841e98074401d640bf9d9bfd525ac66ff59bfc0bf880bf882fe40bf8d0bf8d9bfc585a845420077901d64545280799455204552115684562145620079901d641d6e1c6ad1d6d01d6d075b61d6d51d6d5c6ad5a53801d659bfc6706c6706d496a585a8585a9c6ad1d72c1d72c00005a53a5a539c6c871b9c1cda1c560544d0)
  (.lf 0))) (.nd (.nd (.lf
  0x394da0aa24b464394d60aa24fce4392160a274cce88289e0a263920039200e48239205392060a264e4e468d394b3958ce424361d5ce036a475739d5cd2434c2434c90d52435124351d5cd4b0e4241f5d5905ebfc75641d58f241e4241e4907b241e9241edd58f5cbf82408dd57d2407c2407c90212408124081d57d5ac4458ce5d57d241642416400005ac465ac45d58f756b8756b972fe5ebf85cbf9d5cd757b0757b00da84b0e44b0e60a26829148291533394e4e44e4e60aa282b0482a8a0aa1394c4394c4e533394c9394ce0aa14b460394ca0aa14fce03920a0a264cce48289a0a25391f4391f4e47f391f9391fa0a254e4e068d354b3858ce024355d5cd036a075735d5cc243402434090d22434524345d5cc4b0e0241e9d58f5ebf87563dd58e241d8241d89078241dd241e1d58e5cbf4240840000755f6755f4901e2407424074901e58ce158ce0901e5ac405ac41d58e756b4756b572fd5ebf45cbf5d5cc757ac757ac0da74b0e04b0e20a25829108291133384e4e04e4e20aa182b0082a860aa0394b8394b8e530394bd394c20aa04b45c394be0aa04fcdc391fe0a254cce0828960a24391e8391e8e47c391ed391ee0a244e4dc68d314b3758cdc)
  (.lf 0)) (.nd (.lf
  0x7d2052f814d6047d1fd2f7f4d5fc31561f4a3506107d28df4a23155031550c5563155531559f4a24aa0c31555f4a25060c7d2092f824d6084be0df4a27d3047d289f4a13154431544c5533154931549f4a1506083154df4a14aa084be09f4a17d3007d285f4a03153831538c5503153d3153df4a05060431541f4a04aa044be05f4a07d2fc7d281f49f3152c3152cc54d3153131535f49f4aa007d2012f804d6004be01f49f7d2f831531f49f506007d27df49e315204bdfdf49e7d2f431520c54a3152531529f49e4a9fc31525f49e505fc7d279f49d3151431514c5473151931519f49d505f83151df49d4a9f87d1f92f7e4d5f84bdf9f49d7d2f07d275f49c3150831508c5443150d31511f49c4a9f47d1f52f7d4d5f44bdf5f49c7d2ec3150df49c505f47d271f49b314fc314fcc5413150131501f49b505f07d1f12f7c4d5f04bdf1f49b7d2e831505f49b4a9f07d26df49a314f0314f0c53e314f5314f9f49a4a9ec7ce4129284ed204ed21287b4a1e46e07805ea4a1ec4a1edf45c7d1ec7d1ed2f7b4d5ec4bdedf49a7d2e4314f5f49a505ec7d269f499314e4314e4c53b314e9314e9f499505e87ce3d29274ed1c4ed1d287a4a1e03138df45c4d5ec)
  (.lf 0)))

def shaGateTree247 : BTree :=
  .nd (.nd (.nd (.lf
  0x512fc005105a4881e88006f5130051300005205a4c81e8c00705130451304005305a5081e9000715130851308005405a5481e9400725130c5130c005505a5881e9800735131051310005605a5c81e9c00745131451314005705a6081ea000755131851318005805a6481ea400765131c5131c005905a6881ea800775132051320005a05a6c81eac00785132451324005b05a7081eb000795132851328005c05a7481eb4007a5132c5132c005d05a7881eb8007b5133051330005e05a7c81ebc007c5133451334005f05a8005a1000520011c05a1400530012005a1800540012405a1c00550012805a2000560012c05a2400570013005a2800580013405a2c00590013805a30005a0013c05a34005b0014005a38005c0014405a3c005d0014805a40005e0014c05a44005f0015005a4800400015405a4c00410015805a5000420015c05a5400430016005a5800440016405a5c00450016805a6000460016c05a6400470017005a6800480017405a6c00490017805a70004a0017c05a74004b0010005a78004c0010405a7c004d0010805a80004e0010c81ec0007d5133851338004f0011081ec4007e5133c5133c00500011481ec8007f5134051340005100118)
  (.lf 0)) (.nd (.lf
  0x19cd8673819cdd19ce1be755416019cddbe755616052161be756fa506f9d5be7419ccc19ccc673519cd119cd1be745615c5215dbe746fa4c6fa4d50575615c5615c04bc41ad46fa715060561805618004a541af86fa9d506b561ac561ac04b041b2441af804bc012c441b2404a7012f0449ac069c012f0541b406bc44aac44aad12cb44bad44bac06bc012f0012f1989b662e8662e9488d582346faa1506c561b052159be736fa4819cd5be745415c6f9d1be7319cc019cc0673219cc519cc5be73561586fa495056561585615804bb41ad06fa6d505f5617c5617c04a441af46fa99506a561a8561a804af41b2041af404bb012c041b2004a6012ec449a8069b012ec541b006bb44aa844aa912ca44ba944ba806bb012ec012ed989a662e4662e5488c582301a22dbf2c600686fcb1bf2b1a2181a21868881a21d1a21dbf2b620641a221bf2b600645e065bf2b6fd286fcadbf2a1a20c1a20c68851a2111a211bf2a620605e061bf2a6fd246fd2580186206062060067b3be446fd2980196206462064067c3be486fd5d8026620986209806693be7c6fd6180276209c6209c066a3be806fd71802b620ac620ac066e3be906fd75802c620b0620b0066f3be94)
  (.lf 0))) (.nd (.nd (.lf
  0x211f1ced74ad78211f5ced70333473ae172235e88c5c88dced773bd873b5dced6211e0211e0847a211e5211e9ced60333073add72225e88873ad572205e8805c889ced673bd4211e5ced64ad7473b59ced5211d4211d48477211d9211d9ced54ad70211ddced50332c73ad972215e8845c885ced573bd073b55ced4211c8211c88474211cd211cdced44ad6c211d1ced4033285c881ced473bcc73b51ced3211bc211bc8471211c1211c1ced34ad6873ad1721f5e87c5c87dced373bc8211c5ced30332473b4dced2211b0211b0846e211b573acd721e5e8785c879ced273bc4211b5ced24ad64211b9ced20332073b49ced1211a4211a4846b211a973ac9721d5e8745c875ced173bc0211adced10331c211a9ced14ad6073b45ced0211982119884682119d211a1ced0033182119dced04ad5c73ac5721c5e8705c871ced073bbc73b41cecf2118c2118c84652119121191cecf4ad5821195cecf0331473abd721a5e8685c86dcecf73bb873b3dcece211802118084622118521185cece4ad5421189cece033105c869cece73bb473b39cecd2117421174845f211795c865cecd73bb02117dcecd0330c21179cecd4ad5073b35cecc2116821168845c2116d)
  (.lf 0)) (.nd (.lf
  0x1441db1e55da1c14421b1e55ba1c14338000059af659af5b1e56c8106c795b1e41440c1440c51051441114415b1e45ba1814411b1e45da1859af1b1e46c80c6c791b1e3144001440051021440514405b1e35da1414409b1e35ba1414334000059aee59aedb1e36c8086c78db1e2143f4143f450ff143f9143f9b1e25da1014330000059aea59ae9b1e26c804143fdb1e25ba106c789b1e1143e8143e850fc143ed143edb1e15da0c143f1b1e15ba0c6c785b1e0143dc143dc50f9143e1143e1b1e05da086c8016e835da0c6c8116e875da1c5da1db2616ca00146edb26161a1c6c985b260146dc146dc51b9146e1146e1b26061a18146e5b2605fa186c80d6e865da185da19b2606c9fc6c981b25f146d0146d051b6146d5146d9b25f5fa146c8096e855da14146d5b25f61a145da15b25f6c9f86c97db25e146c4146c451b3146c96c8056e845da10146cdb25e5fa10146c9b25e61a105da11b25e6c9f46c979b25d146b8146b851b0146bd146bdb25d61a0c146c1b25d5fa0c5da0db25d6c9f06c975b25c146ac146ac51ad146b114328000059ae259ae1b1e06c7fc6c7fd6e825da085da09b25c6c9ec146b1b25c61a08146b5b25c5fa086c971b25b146a0)
  (.lf 0)))

def shaGateTree248 : BTree :=
  .nd (.nd (.nd (.lf
  0x4992802f9047644992c02fa047684993002fb0476c4993402fc047704993802fd047744993c02fe047784994002ff0477c616d8026049bc4616dc026149bc8616e0026249bcc616e4026349bd0616e8026449bd4616ec026549bd8616f0026649bdc616f4026749be0616f8026849be4616fc026949be861700026a49bec61704026b49bf061708026c49bf46170c026d49bf861710026e49bfc61714026f49c0061718027049c046171c027149c0861720027249c0c61724027349c1061728027449c146172c027549c1861730027649c1c61734027749c2061738027849c246173c027949c2861740027a49c2c61744027b49c3061748027c49c346174c027d49c3861750027e49c3c61754027f49c4049bc4100049c4549bc8100149c4949bcc100249c4d49bd0100349c5149bd4100449c5549bd8100549c5949bdc100649c5d49be0100749c6149be4100849c6549be8100949c6949bec100a49c6d49bf0100b49c7149bf4100c49c7549bf8100d49c7949bfc100e49c7d49c00100f49c8149c04101049c8549c08101149c8949c0c101249c8d49c10101349c9149c14101449c9549c18101549c9949c1c101649c9d49c20101749ca149c24101849ca5)
  (.lf
  0x848818f2c63d2c63cb18f2b0753c0753c1d5107541075418f2b009f88487d8f2b63d28075458f2b4b73c63cad8f2a07530075301d4e07535848718f2863d1c075358f2a009f4075398f2a4b738848798f2a63d2463ca98f2907524848758f2963d20075241d4b07529075298f29009f00752d8f294b73463ca58f2807518075181d480751d075218f284b7300751d8f28009ec63ca18f270750c0750c1d4507511075118f27009e88486d8f2763d18075158f274b72c848658f2563d10848698f2663d1463c9d8f2607500075001d4207505075058f26009e4075098f264b72863c998f25074f4))
  (.nd (.lf
  0xcd9d9e685882852751ca6272a0472a0551d4567505675007f9420c85677407e2420ec72a5551e8567a0567a007ed42118420ec07f901fb84211807e401fe445ba0081901fe4547a8083945ca045ca1174845da145da0083901fe401fe59e6867a1c027e99e2b6792867929620b021e867a214a0b5882c0cc4d9e2c021ec678b19e2b0cc3c0cc3c33110cc410cc459e2b5882c5882c7ea11facc1fa2400001fa861fa847e861fa141fa147e86588290cc419e2b021e8678ad9e2a0cc300cc30330e0cc350cc399e2a58828027e59e2a6792467925620a021e467a1d4a0a58828588287e865a7a41fa187ea01fa081fa087e841fa0d1fa1000001fa823f19c0a18027e0606b80a383f21c3f21c09f83f29d0cda19e6852828679a19e670cd8c0cd8c33650cd910cd919e67588241f0cdca625475072989ca611f0b81f0b87c301f0bd1f0bdca615674c5274dca6172a0072a0151d35674c5674c07f8420c45677007e1420e872a5151e75679c5679c07ec42114420e807f801fb44211407e301fe045b9c081801fe0547a4083845c9c45c9d174745d9d45d9c083801fe001fe19e6767a18027e19e2967920679216209021e01fa0c7ea05a7a067a194a0958824)
  (.lf 0))) (.nd (.nd (.lf
  0x26d41db8d5ef3476e35db8c26d3026d309b4e26d3526d39db8c5cf3026b70000026be226be09af726b5c26b5c9ad926b6126b609af75af605901c9af726c1c26c1c00005af625af61db8c76eac76ead73cc5ef305cf31dbca76fa476fa40e764b41c4b41e0e9083abc83abd34074e81c4e81e0f0c83cac83c320f0b3aebc3aebcebb13aec13aec60f0b002543aec20f0b500183ac020e904d01c83a420e8f3abec3abeceafd3abf13abf20e8f4e818369e6032e5101c80cba032d369d4369d4da77369d9369de032d4b4184c81a032d80d3080d312d0651018698156406031d426ea1dbca039d876f29dbc926e8c26e8c9ba526e9126e91dbc94b41826d35db8c5ef3076e31db8b26d2426d249b4b26d2926d2ddb8b5cf2c26b64000026bde26bdc9ad626b5426b549ad659019590189ad65af5c5af5ddb8b76ea876ea973cb5ef2c5cf2ddbc976fa076fa00e754b4184b41a0e8f83ab883ab934064e8184e81a0f0b83ca883c2e0f0a3aeb03aeb0ebae3aeb53aeba0f0a002503aeb60f0a500143abf60e8f4d01883a3e0e8e3abe03abe0eafa3abe53abe60e8e4e814369da032d5101880cb6032c369c8369c8da74369cd369d2032c4b4144c816032c80d2c)
  (.lf 0)) (.nd (.lf
  0x5a061bcd46f3cc19264649b192691926dbcd45bfb819269bcd45dfb86f351bcd3192581913c00005a0565a05dbcd36f3c81925864981925d19261bcd35bfb41925dbcd35dfb46f34dbcd21924c1924c64951925119255bcd25bfb05a059bcd26f3c419251bcd25dfb06f349bcd1192401924064921924519249bcd15bfac19245bcd15dfac5a055bcd16f3c06f345bcd01923419234648f192391923dbcd05bfa86f1617fbd61ef461ef406003bcd83bcd80612018346f3d16fef5dfbc5bfbdbd136f4c86f3e96ff55dfd45bfd5bd196f4e06f465bd1819414194146507194191941dbd180227819419bd184a4bc6f3e56ff45dfd05bfd1bd186f4dc6f461bd17194081940865041940d19411bd17022741940dbd174a4b86f3e16ff35dfcc5bfcdbd176f4d86f45dbd16193fc193fc65011940119405bd160227019401bd164a4b46f3dd6ff25dfc85bfc9bd166f4d46f459bd15193f0193f064fe193f5193f9bd150226c193f5bd154a4b06f3d96ff15dfc45bfc5bd156f4d06f455bd14193e4193e464fb193e9193edbd1402268193e9bd144a4ac6f3d56ff05dfc05bfc1bd146f4cc6f451bd13193d8193d864f8193dd193ddbd134a4a8193e1bd1302264)
  (.lf 0)))

def shaGateTree249 : BTree :=
  .nd (.nd (.nd (.lf
  0x631e40edc3cfc87885d847a631e8631e80edd3cfcc78861847b631ec631ec0ede3cfd078865847c631f0631f00edf3cfd478869847d631f4631f40ec03cfd87886d847e631f8631f80ec13cfdc78871847f631fc631fc0ec23cfe078875848063200632000ec33cfe478879848163204632040ec43cfe87887d848263208632080ec53cfec7888184836320c6320c0ec63cff078885848463210632100ec73cff478889848563214632140ec83cff87888d848663218632180ec93cffc7889184876321c6321c0eca3d00078895848863220632200ecb3d00478899848963224632240ecc3d0087889d848a63228632280ecd3d00c788a1848b6322c6322c0ece3d010788a5848c63230632300ecf3d014788a9848d63234632340ed03d018788ad848e63238632380ed13d01c788b1848f6323c6323c0ed23d020788b5849063240632400ed33d024788b9849163244632440ed43d028788bd849263248632480ed53d02c788c184936324c6324c0ed63d030788c5849463250632500ed73d034788c9849563254632540ed83d0383cfbc0ecb03b183cfc00ecc03b1c3cfc40ecd03b203cfc80ece03b243cfcc0ecf03b283cfd00ed003b2c3cfd40ed103b30)
  (.lf 0)) (.nd (.lf
  0x1c281c3b35e2f870ecdc3b21c2701c270709e1c2751c275c3b25e2f45a371c3b270f441c279c3b25c2f470ec9c3b11c2641c264709b1c2695a36dc3b170f401c26dc3b15c2f070f4170bc5e2f05c2f1c3ef7103870f4970be5e2f85c2f9c3f17104070f4d70bf5e2fc5c2fdc3f27104470fc9c3f11c3e41c3e470fb1c3e91c3edc3f1025a01c3e9c3f14a7e470fc5c3f01c3d81c3d870f81c3dd1c3ddc3f04a7e01c3e1c3f00259c70f4570bd5e2f45c2f5c3f07103c70fc1c3ef1c3cc1c3cc70f51c3d11c3d1c3ef4a7dc1c3d5c3ef0259870fbdc3ee1c3c01c3c070f21c3c544f4c070401b905435407244504c4504d14334514d4514c072401b9001b919a7366a4866a4948f5583d41c0d800001c1c61c1c568d91c0c81c0c960f51c0cd1c0cd68d95a36844f50070501b94543580725450504505114344515145150072501b9401b959a7466a4c66a4d48f6583d83e9500905023946026c09253e9d03e9d008e53ea510b4d19a3701d98668dd9a360b4c00b4c02d320b4c50b4c99a36583d8023959a36669546695560f601d94583d968d91c1f41c1f400005a36a3e94c0904023906026809243e9cc3e9cc08e43ea4d669d19a730b61c0b61c2d890b621)
  (.lf 0))) (.nd (.nd (.lf
  0x4af7607fc8206c8206d32dd4e3744e37608788225c821e208773884c3884ce215388513885608774b2f03885208774fb703859207fc4cb7481ff207fb3857c3857ce161385813858207fb4e370687754adc58b706867d62dc02d2c22eddd2c30353074b0dd2c222ec822ec88bb422ecd22ecdd2c24af7022d71d2855ea8874a15d28422d6022d608b5a22d6522d69d2845ca8422b78000022c5a22c588b1522b6422b648adb22b6922b688b155aae058b708b1522cac22cac00005aae25aae1d28474a8c74a8d72a15ea845ca85d2c274b8474b840d4b4af704af7207fb820688206932dc4e3704e372087782258821de08763884038840e212388453884a08764b2ec3884608764fb6c3858607fb4cb7081fee07fa3857038570e15e385753857607fa4e36c687714adb58b6c6867962db02d2822ed1d2c20352c74b09d2c122ebc22ebc8bb122ec122ec1d2c14af6c22d65d2845ea8474a11d28322d5422d548b5722d5922d5dd2835ca8022b6c000022c5622c548b1422b5822b588ad822b5d22b5c8b145aadc58b6c8b1422ca822ca800005aade5aaddd28374a8874a8972a05ea805ca81d2c174b8074b800d4a4af6c4af6e07fa820648206532db4e36c)
  (.lf 0)) (.nd (.lf
  0x7c0992ec24d3084bb09f0457c1902fc1df048503147c121f0472fc0c2fc0cbf052fc112fc11f047503102fc15f0474a7107c0a12ec44d3104bb11f0477c1987c11df0462fc002fc00bf022fc052fc05f0465030c7c09d2ec34d30c4bb0df0467c1942fc09f0464a70c7c119f0452fbf42fbf4beff2fbf92fbfdf0454a7082fbf9f045503087c115f0442fbe82fbe8befc2fbed2fbedf044503047c0952ec14d3044bb05f0447c18c2fbf1f0444a7047c111f0432fbdc2fbdcbef92fbe12fbe5f0434a7007c0912ec04d3004bb01f0437c1882fbe1f043503007c10df0422fbd02fbd0bef62fbd52fbd9f0424a6fc2fbd5f042502fc7c08d2ebf4d2fc4bafdf0427c1847c109f0412fbc42fbc4bef32fbc92fbcdf0414a6f84baf9f0417c1802fbc9f041502f87c105f0402fbb82fbb8bef02fbbd2fbbdf040502f47c0852ebd4d2f44baf5f0407c17c2fbc1f0404a6f47c101f03f2fbac2fbacbeed2fbb12fbb5f03f4a6f07c0812ebc4d2f04baf1f03f7c1782fbb1f03f502f07c0fdf03e2fba02fba0beea2fba52fba9f03e4a6ec2fba5f03e502ec7c07d2ebb4d2ec4baedf03e7c1747c0f9f03d2fb942fb94bee72fb992fb9df03d4a6e82fb99f03d502e8)
  (.lf 0)))

def shaGateTree250 : BTree :=
  .nd (.nd (.nd (.lf
  0x2b83cae112b8412b845e62b5557c2b841e62b5757c5357de62b79928798ade62a2b8302b830ae0e2b8352b839e62a555782b835e62a5757853579e62a79924798a9e6292b8242b824ae0b2b8292b82de629555742b829e6295757453575e62979920798a5e6282b8182b818ae082b81d2b821e628555702b81de6285757053571e6287991c798a1e6272b80c2b80cae052b8112b815e6275556c2b811e6275756c5356de627799187989de6262b8002b800ae022b8052b809e626555682b805e6265756853569e6267991479899e6252b7f42b7f4adff2b7f92b7fde625555642b7f9e6255756453565e6257991079895e6242b7e82b7e8adfc2b7ed2b7f1e624555602b7ede6245756053561e6247990c79891e6232b7dc2b7dcadf92b7e12b7e5e6235555c2b7e1e6235755c5355de623799087988de6222b7d02b7d0adf62b7d52b7d9e622555582b7d5e6225755853559e6227990479889e6212b7c42b7c4adf32b7c92b7cde621555542b7c9e6215755453555e6217990079885e6202b7b82b7b8adf02b7bd2b7c1e620555502b7bde6205755053551e620798fc79881e61f2b7ac2b7acaded2b7b12b7b5e61f5554c2b7b1e61f5754c5354de61f798f8)
  (.lf 0)) (.nd (.lf
  0x71a41515d5657456574076241eec565a0076d41f1841eec077901db841f18076401de4455a0079901de4545a807b9456a0456a115c8457a1457a007b901de401de59c786725c67269498d5863467265498c5863067261498b5862c6725d498a586280c1259c3e01ff4670f99c3d0c1140c11430470c1190c11d9c3d586340c1199c3d01ff0025f19c3d67170670f59c3c0c1080c10830440c10d0c1119c3c586300c10d9c3c01fec025ed9c3c6716c670f19c3b0c0fc0c0fc30410c1010c1059c3b5862c0c1019c3b01fe8025e99c3b67168670ed9c3a0c0f00c0f0303e0c0f50c0f99c3a58628025e59c3a671646716d618c01fec1dddc77751ddd01ddd077755863567171618d01ff05863477755a5c01ddd477731ddc81ddc87773586315863077735a5bc1ddcc77711ddc00c25d9c785862867169618b01fe81ddc077715862d5862c77715a5b81ddc4776f1ddb81ddb8776f5862967165618a01fe458628776f5a5b45a5b5c7c071f7c0c2619c7852628671e19c770c24c0c24c30950c2511d4a9c66854550719a1c6671d4941d49475271d4991d499c6675654c5254dc66771a1871a1951535654c5654c077841ec471a3d515c5657056570076141ee8)
  (.lf 0))) (.nd (.nd (.lf
  0x3fd680d8b035ac3fd6c0d8c035b03fd700d8d035b43fd740d8e035b83fd780d8f035bc3fd7c0d90035c03fd800d91035c43fd840d92035c83fd880d93035cc3fd8c0d94035d03fd900d95035d43fd940d96035d83fd980d97035dc3fd9c0d98035e060c840dab3fde860c880dac3fdec60c8c0dad3fdf060c900dae3fdf460c940daf3fdf860c980db03fdfc60c9c0db13fe0060ca00db23fe0460ca40db33fe0860ca80db43fe0c60cac0db53fe1060cb00db63fe1460cb40db73fe1860cb80db83fe1c3fde80d6b3fe693fdec0d6c3fe6d3fdf00d6d3fe713fdf40d6e3fe753fdf80d6f3fe793fdfc0d703fe7d3fe000d713fe813fe040d723fe853fe080d733fe893fe0c0d743fe8d3fe100d753fe913fe140d763fe953fe180d773fe993fe1c0d783fe9d0ededa3f958e240ede9a3f902fe0035e1a3f96906068fe5a3f80edd8035dda3f86905c0edd83b780eddd0ede1a3f858e200eddda3f802fdc68fe1a3f70edcc0edcc3b750edd10edd1a3f702fd80edd5a3f758e1c035d9a3f76905868fdda3f60edc00edc03b720edc5035d5a3f6690540edc9a3f658e180edc5a3f602fd468fd9a3f50edb40edb43b6f0edb90edbda3f558e140edb9a3f502fd0)
  (.lf 0)) (.nd (.lf
  0x317a8c5ec317ad317adf5144d664317b1f5144be647d451f5133179c3179cc5e9317a1317a5f5134be60317a1f5134d6607d44df5123179031790c5e63179531799f5124be5c0628d28974a25409749952157e5c43ed403e600f1853ddc040643fd443fd51015440d5440d4040600f1800f19952165500654095f970111817401b8b1173f065501479757e5c57e5db8b1174f0173f05cfe173f5173f5b8b159e2c17571b8c55dd7431795f5124d65c174f0000059e2e6e315b8c417560175605d5a1756559e2db8c46e38c6e38d6f5c5dd7017569b8c45bd70176ddb9030181c6e40db902176c8176c85db4176cd176cdb9024a25c5bd71b9026e4846e48406064a25c4a25df5127d4c47d449f5113178431784c5e3317893178df5114be580628928964a25031789f5114d6580974d952151e5c654055f9601114654859520097380973825d00973d0973d952057e5843ed003e500f1453dd8040543fd043fd11014440d1440d0040500f1400f159520654fc654fd479657e58173f800006e2c66e2c45cfb173e8173e85cfb57e5957e585cfb59e2859e29b8c36e38817565b8c45dd706e311b8c317554175545d57175596e3896f5b5dd6c1755db8c35bd6c)
  (.lf 0)))

def shaGateTree251 : BTree :=
  .nd (.nd (.nd (.lf
  0x835760d5c3a5083a508e9443a50d3a5120d5c005e03a50e0d5c517244cf260d5c835ec835720d5b3a4fc3a4fce9413a5013a5060d5b005dc3a5020d5b517204cf220d5b835e88356e0d5a3a4f03a4f0e93e3a4f53a4fa0d5a005d83a4f60d5a5171c4cf1e0d5a835e48356a0d593a4e43a4e4e93b3a4e93a4ee0d59005d43a4ea0d59517184cf1a0d59835e0835660d583a4d83a4d8e9383a4dd3a4e20d58005d03a4de0d58517144cf160d58835dc835620d573a4cc3a4cce9353a4d13a4d60d57005cc3a4d20d57517104cf120d57835d88355e0d563a4c03a4c0e9323a4c53a4ca0d56005c83a4c60d565170c4cf0e0d56835d48355a0d553a4b43a4b4e92f3a4b93a4be0d55005c43a4ba0d55517084cf0a0d55835d0835560d543a4a83a4a8e92c3a4ad3a4b20d54005c03a4ae0d54517044cf060d54835cc835520d533a49c3a49ce9293a4a13a4a60d53005bc3a4a20d53517004cf020d53835c88354e0d523a4903a490e9263a4953a49a0d52005b83a4960d52516fc4cefe0d52835c48354a0d513a4843a484e9233a4893a48e0d51005b43a48a0d51516f84cefa0d51835c0835460d503a4783a478e9203a47d3a4820d50005b03a47e0d50516f4)
  (.lf 0)) (.nd (.lf
  0x56234069241bac41b80069e01a4c41bac068901a7844b3406be01a785423c06de44c3444c35132d44d3544d3406de01a7801a799919664e06646599180aed80aed82bb80aedd1a3c5bf6e541e46fdb9bf6d1a3b01a3b068ee1a3b51a3b9bf6d541e01a3b5bf6d561e0521e1bf6d6fe306fdb5bf6c1a3a41a3a468eb1a3a91a3adbf6c541dc1a3a9bf6c561dc521ddbf6c6fe2c6fdb1bf6b1a3981a39868e81a39d1a3a1bf6b541d81a39dbf6b561d8521d9bf6b6fe286fdadbf6a1a38c1a38c68e51a3911a395bf6a541d41a391bf6a561d4521d5bf6a6fe246fda9bf691a3801a38068e21a3851a385bf69561d0521d1bf696fe206fe79508a562286fe715088562206fe45507d561f46fe215074561d0561d0069941b48561f4068241b6c56220068d41b9841b6c069901a3841b98068401a6444b2006b901a645422806d944c2044c21132844d2144d2006d901a6401a659914664cc1a389bf69541d06fda5bf681a3741a37468df1a3791a379bf68561cc521cdbf686fe1c6fe755089562246fe6d50875621c6fe41507c561f06fe1d5073561cc561cc069841b44561f0068141b685621c068c41b9441b68069801a3441b94068301a6044b1c06b801a60)
  (.lf 0))) (.nd (.nd (.lf
  0x8138e04e2373d0373d0dcf6373d5373da04e24b0a4373d604e24f9243711604674c9288119e04663710037100dc42371053710604664e1244ad260466812148121532494e1244e12604e2814048138a04e1373c4373c4dcf3373c9373ce04e14b0a0373ca04e14f9203710a04664c9248119a0465370f4370f4dc3f370f9370fa04654e1204ad220465812108121132484e1204e12204e1814008138604e0373b8373b8dcf0373bd373c204e04b09c373be04e04f91c370fe04654c920811960464370e8370e8dc3c370ed370ee04644e11c4ad1e04648120c8120d32474e11c4e11e04e0813fc8138204df373ac373acdced373b1373b604df4b098373b204df4f918370f204644c91c811920463370dc370dcdc39370e1370e204634e1184ad1a0463812088120932464e1184e11a04df813f88137e04de373a0373a0dcea373a5373aa04de4b094373a604de4f914370e604634c9188118e0462370d0370d0dc36370d5370d604624e1144ad160462812048120532454e1144e11604de813f48137a04dd3739437394dce7373993739e04dd4b0903739a04dd4f910370da04624c9148118a0461370c4370c4dc33370c9370ca04614e1104ad12046181200)
  (.lf 0)) (.nd (.lf
  0x6cdd57e9b61a6c6ce217eae61ab86c12804fe49e3c6ce397eb461ad061a6c04fe3b85061aa404ec3b88861ab804f13b89c3b88804fe013e43d9b4051e013f83b89c04e3013f85fad0053e3da343da3404fe3dab5013f9928f64ab8088f1928f00ef8088f5928f57c3c64a3d928e088e0088e0223a088e53d9b0051d013f46ce357eb361acc6ce1d7ead61ab46cdd17e9a61a686ce097ea861aa06c12404fd49e3861a6804fd3b84c61aa004eb3b88461ab404f03b8983b88404fd013e03b89804e2013f45facc053d3da303da3004fd3dab1013f5928e64ab4088e9928e57c38088e5928e00ef464a39928d088d4088d42237088d9088dd928d57c346ce157eab61aac6ce057ea761a9c6cdcd7e9961a646c12004fc49e346ce317eb261ac86ce197eac61ab061a6404fc3b84861a9c04ea3b88061ab004ef3b8943b88004fc013dc3b89404e1013f05fac8053c3da2c3da2c04fc3daad013f1928d64ab0088d9928d00ef064a35928c088c8088c82234088cd088cd928c00eec6c11c04fb49e306ce017ea661a9861a9804e93b87c61aac04ee3b8903b87c04fb013d83b89004e0013ec3da2804fb3daa9013ed928c64aac088d1928c57c3064a31928b088bc)
  (.lf 0)))

def shaGateTree252 : BTree :=
  .nd (.nd (.nd (.lf
  0x12171ace4536f86b391ace31215c1215c48591216112161ace3596f4045b1ace36b4086b4094dbd596f412005aca6047b46b299aca511ff411ff447ff11ff911ffdaca5596f4596f4b39a5b6085b609e97d7a6707a67175825f6085f609e9f97a8607a7e5e9f82d2e42d2e4b4bb2d2e92d2ede9f8616042d2e9e9f8636042d029e97d5d6087a5f5e97c2d0142d014b4072d0192d019e97c5f6042ce68b3982ce5c2ce5cb398596f15d405e5ac7972c7972c0fab003ac2b559e5ad003b0796b5e5ac2b5482b548ad542b54d2b551e5ac03eac03eadaca46b30c6b30d65bc047ac12165ace3536f46b38dace2121501215048561215512155ace2596f0045adace26b4046b4054dbc596f011ff9aca5047b06b295aca411fe811fe847fc11fed11ff1aca4596f0596f0b3985b6045b605e97c7a66c7a66d75815f6045f605e9f87a85c7a7e1e9f72d2d82d2d8b4b82d2dd2d2e1e9f7616002d2dde9f7636002d01de97c5d6047a5f1e97b2d0082d008b4042d00d2d00de97b5f6002ce60b3962ce542ce54b396596ed5d401e5ab79728797280faa003a82b54de5ac003ac796b1e5ab2b53c2b53cad512b5412b545e5ab03ea803ea9aca36b3086b30965bb047a8)
  (.lf 0)) (.nd (.lf
  0xc6419d2b020c8674ad9d2a0c6300c630318e0c6350c6399d2a587080c6359d2a020c4026c59d2a67524674a99d290c6240c624318b0c629026c19d29675200c62d9d29587040c6299d29020c0674a59d280c6180c61831880c61d0c6219d28587000c61d9d28020bc026bd9d286751c674a19d270c60c0c60c31850c6110c6159d27586fc026b99d27675180c6119d27020b86749d9d260c6000c60031820c6050c6059d26020b43ef6c09cc026b03ef7009cd026b46058809ec3efec6058c09ed3eff03efec09ac3f06d3eff009ad3f071026b59d26675140c6099d26586f8674999d250c5f40c5f4317f0c5f90c5fd9d25586f40c5f99d25020b0026b19d2567510674959d240c5e80c5e8317c0c5ed0c5ed9d24020ac526c1c8807227c72201c87f1e3d8526bdc87f722781e3d878f81e3dd1e3e1c87f546bc1e3ddc87f566bc721fdc87e1e3cc1e3cc78f51e3d1526b9c87e722741e3d5c87e546b81e3d1c87e566b8721f9c87d1e3c01e3c078f21e3c51e3c9c87d546b41e3c5c87d566b4526b5c87d72270721f5c87c1e3b41e3b478ef1e3b91e3b9c87c566b01e3bdc87c546b0526b1c87c7226c721f1c87b1e3a81e3a878ec1e3ad1e3b1c87b546ac)
  (.lf 0))) (.nd (.nd (.lf
  0x3a3e60d234cf388348e0d223a3d03a3d0e8f63a3d53a3d60d224e734361ca01c150f388070601c0361b8361b8d870361bd361c201c04b3344c73601c08077c8077d2ccd50f340f531a53452f38694d1a5330f51c0f51c3d490f5210f521a53358f3402ef1a53369548695494bcd58f34260c9d9e1038f476785d9e0260b4260b4982f260b9260b9d9e04b33425f5dd9a35ee4c7668dd9a225f4c25f4c97d525f5125f55d9a25ce4825d74000025dbe25dbc975a25d6425d64975a58f3558f34975a5ae845ae85d9a2767047670573925ee485ce49d9e0767fc767fc0e3c4b3344b3360d22835048350533cd4e7344e7360d9e836f48367a0d9d3a6943a694e9a73a6993a69e0d9d0016c3a69a0d9d4ff303a3da0d224cf348348a0d213a3c43a3c4e8f33a3c93a3ca0d214e730361be01c050f348070201bf361ac361acd86d361b1361b601bf4b3304c73201bf80778807792ccc50f300f525a53352f3402eeda53269544694cda5320f5100f5103d460f5150f515a53258f30695454bcc58f30260bdd9e0038f076781d9df260a8260a8982c260ad260add9df4b33025f51d9a25ee4876689d9a125f4025f4097d225f4525f49d9a15ce4425d68976e25d58)
  (.lf 0)) (.nd (.lf
  0x6ec49bb11185a8185a8616c185ad185b1bb1101954185adbb114a3986eba56fa25de885beadbb116ecc06ec45bb101859c1859c6169185a1185a5bb1001950185a1bb104a3946ebc56faa5dea85bea9bb106ecbc6ec41bb0f185901859061661859518599bb0f0194c18595bb0f4a3905bea5bb0f6ecb86ec3dbb0e18584185846163185891858dbb0e0194818589bb0e4a38c6ebbd6fa85dea05bea1bb0e6ecb46ec39bb0d185781857861601857d18581bb0d019441857dbb0d4a3886ec35bb0c1856c1856c615d1857118575bb0c0194018571bb0c4a3846ec31bb0b1856018560615a1856518569bb0b0193c18565bb0b4a3806ebb16fa55de945be95bb0b6eca86ec2dbb0a18554185546157185591855dbb0a0193818559bb0a4a37c6ec29bb09185481854861541854d18551bb09019341854dbb094a3786ec25bb081853c1853c61511854118545bb080193018541bb084a3745be89bb086ec9c6ec21bb071853018530614e1853518535bb074a3706eba16fa15de845be85bb076ec986ec98064b4a3704a371f68b7daa84d64529714ee4431a2df5894a5c87d62529714ee454ee4528db062f07d6a529734ee4c4ee4d28dd062f87d6a929744ee50)
  (.lf 0)))

def shaGateTree253 : BTree :=
  .nd (.nd (.nd (.lf
  0x6108c0ead405f0610900eae405f4610940eaf405f8610980eb0405fc6109c0eb140600610a00eb240604610a40eb340608610a80eb44060c610ac0eb540610610b00eb640614610b40eb740618610b80eb84061c610bc0eb940620610c00eba40624610c40ebb40628610c80ebc4062c610cc0ebd40630610d00ebe40634610d40ebf40638405bc0e604063d405c00e6140641405c40e6240645405c80e6340649405cc0e644064d405d00e6540651405d40e6640655405d80e6740659405dc0e684065d405e00e6940661405e40e6a40665405e80e6b40669405ec0e6c4066d405f00e6d40671405f40e6e40675405f80e6f40679405fc0e704067d406000e7140681406040e7240685406080e73406894060c0e744068d406100e7540691406140e7640695406180e77406994061c0e784069d406200e79406a1406240e7a406a5406280e7b406a94062c0e7c406ad406300e7d406b1406340e7e406b5406380e7f406b9531c1de4e779b477939de4d2802828028a00c2802d28031de4d551bc2802dde4d571bc531bdde4d779b077935de4c2801c2801ca0092802128025de4c551b828021de4c571b8531b9de4c779ac77931de4b2801028010a00628015)
  (.lf 0)) (.nd (.lf
  0x33f65fbe34af0033f61fbe350b0033e05fba64db047ee99fba533df433df4cf7f33df933dfdfba54c3004a701fba57ef107ef1130c04db004c301fbe37f0087ef8dfbe233f5033f50cfd633f5533f59fbe24aefc33f55fbe250afc33df9fba54db007ee95fba433de833de8cf7c33ded33df1fba44c2fc4a6fdfba47ef0c7ef0d30bf4dafc4c2fdfbe27f0047ef89fbe133f4433f44cfd333f4933f4dfbe14aef833f49fbe150af833dedfba44dafc7ee91fba333ddc33ddccf7933de133de5fba34c2f84a6f9fba37ef087ef0930be4daf84c2f9fbe17f0007ef85fbe033f3833f38cfd033f3d33f41fbe04aef433f3dfbe050af433de1fba34daf87ee8dfba233dd033dd0cf7633dd533dd9fba24c2f44a6f5fba27ef047ef0530bd4daf44c2f5fbe07effc7ef81fbdf33f2c33f2ccfcd33f3133f35fbdf4aef033f31fbdf50af033dd5fba24daf47ee89fba133dc433dc4cf7333dc933dcdfba14c2f04a6f1fba17ef007ef0130bc4daf04c2f1fbdf7eff87ef7dfbde33f2033f20cfca33f2533f29fbde4aeec33f25fbde50aec33dc9fba14daf07ee85fba033db833db8cf7033dbd33dc1fba04c2ec4a6edfba07eefc7eefd30bb4daec4c2edfbde7eff4)
  (.lf 0))) (.nd (.nd (.lf
  0xd92c364d0d9310d935a07f58a4c03209a07f6827821c98876a21c88683714a9358a4c0da99a0bd58a4c68279629302c0858a4c876a21de821c88872421c8d21c8c876a5a9bc21de800005a9be5a9bdd08b742a821e39d08b5c960742a972585e9605c961d0c9743a074325d0c821f8c21f8c87e521f9121f95d0c80340421f91d0c84ae4821e35d08b5e9607422dd08a21e240da9da0bd52a4c682f5a0bc0da880da8836a40da8d0da8da0bc58a48462c00aa102a04549c80ac1463c0463c11910464c1464c00ac102a0402a05a0bc6836c6836d4a9258a483f6400ca103204608dc0cc13f6c03f6c00c813f7410d931a07f02c0821c90000021daa21da96a6d21c8021c81629121c8521c856a6d5a9b8681fda07e0d9200d920364a0d9250d929a07e58a4803205a07e6827468275629202c0458a496a6d21de421de400005a9ba5a9b9d08a742a4742a572575e95c21e24878b21e2921e2dd08a5c95c5c95dd0c87439c744140d1f4aec0744100d1e4aebc7440c0d1d4aeb8744040d1b4aeb0743fc0d194aea8743f40d174aea0743ec0d154ae98743e40d134ae90743dc0d114ae88743d40d0f4ae80743cc0d0d4ae78743c40d0b4ae70743bc0d094ae68)
  (.lf 0)) (.nd (.lf
  0x149d937064e3c64e3d5f3800f9c64f35473857ce057ce057c015f4464e455f3a00fa415e30578a15e2415e24578a57ced64f41473b57cec64e495f3b00fa857cec578a59cc015e2857c115e1815e18578815e1d15e1c57c159cbc64f3d473a57ce857ce857c115f4815e20000015f0615f04578515e1015e10578557ce564f39473957ce464e415f3900fa057ce4578559cb815e1457c015e0415e04578315e0915e0857c059cb415e0c000015f0215f0057bf15df815df8578015dfd51d41b5a86d71c6d6a1b5a715dc415dc4577315dc915dc9b5a755d3c51d3db5a76d71815dcdb5a753d3c6d69db5a615db851d39b5a66d71415db8577015dbd15dbdb5a655d3815dc1b5a653d386d699b5a515dac15dac576d15db115db5b5a553d3415db1b5a555d3451d35b5a56d7106d695b5a415da015da0576a15da515da5b5a455d3051d31b5a46d70c15da9b5a453d306d691b5a315d9415d94576715d9915d99b5a355d2c51d2db5a36d70815d9db5a353d2c6d68db5a215d8815d88576415d8d15d91b5a253d2851d29b5a26d70415d8db5a255d286d689b5a115d7c51d1db59f6d6f815d7c576115d8115d85b5a153d2451d25b5a16d70015d81b5a155d24)
  (.lf 0)))

def shaGateTree254 : BTree :=
  .nd (.nd (.nd (.lf
  0x6a909aa4111244112444493112491124daa415949459494aaf65b3bc5b3bde47f792787927974ea5f3a85f3a9e4fb79468793ede4fa2b0082b008ac042b00d2b011e4fa613a42b00de4fa633a42ad4de47f5d3a8791fde47e2ad382ad38ab502ad3d2ad3de47e5f3a42abd8aaf42abcc2abccaaf4594915d1a5e0be78374783740f130014c29269e0bf00150782fde0be2925829258a4982925d29261e0be03c4c03c4daa406a97c6a97d65240454c113b5aa7f534946a9fdaa7e113a0113a044ea113a5113a5aa7e594900434daa7e6aa746aa754d245949011249aa41045506a905aa40112381123844901123d11241aa405949059490aaf45b3b85b3b9e47e792747927574e95f3a45f3a5e4fa79464793e9e4f92affc2affcac012b0012b005e4f9613a02b001e4f9633a02ad41e47e5d3a4791f9e47d2ad2c2ad2cab4d2ad312ad31e47d5f3a02abd0aaf22abc42abc4aaf25948d5d1a1e0bd78370783700f12001482925de0be0014c782f9e0bd2924c2924ca4952925129255e0bd03c4803c49aa3f6a9786a979652304548113a9aa7e534906a9f9aa7d113941139444e71139911399aa7d5948c04349aa7d6aa706aa714d235948c1123daa400454c)
  (.lf 0)) (.nd (.lf
  0x7181dc6061d3081d30874c41d30d1d311c606026f45c44dc606718941d30dc6064a93871819c6051d2fc1d2fc74c11d3011d305c605026f07176971065e4187177d710b5e42c7179971125e4485c449c605718901d301c6054a93471815c6041d2f01d2f074be1d2f51d2f5c6044a9301d2f9c604026ec7179571115e4447179171105e4405c445c6047188c71811c6031d2e41d2e474bb1d2e91d2edc603026e85c441c603718881d2e9c6034a92c7180dc6021d2d81d2d874b81d2dd1d2ddc6024a9287178d710f5e43c5c43dc602718841d2e1c602026e471809c6011d2cc1d2cc74b51d2d11d2d1c6014a9241d2d5c601026e071789710e5e43871779710a5e4287177571095e4245c42dc5fe718745c439c6017188071805c6001d2c01d2c074b21d2c51d2c9c600026dc71785710d5e4345c435c6007187c1d2c5c6004a92071801c5ff1d2b41d2b474af1d2b91d2bdc5ff026d87176d71075e41c5c425c5fc7186c71781710c5e4305c431c5ff718781d2b9c5ff4a91c717fdc5fe1d2a81d2a874ac1d2ad1d2adc5fe4a9181d2b1c5fe026d4717f9c5fd1d29c1d29c74a91d2a11d2a1c5fd4a9145c429c5fd718701d2a5c5fd026d0717f5c5fc1d290)
  (.lf 0))) (.nd (.nd (.lf
  0x751e9d4792399c2399c8e69239a1239a1d4795abcc58c69d47923a8023a8000005abce5abcdd48b752a8752a972df5eb7c5cb7dd4c9753a0753a00d894b0684b06a096d8263082631331a4e4684e46a09e982820827a609e83909839098e4283909d390a209e84b3e43909e09e84fc6438dde096d4cc68825b6096c38dc838dc8e37438dcd38dce096c4e4640e4c5a27602e24689d9a2750e4b40e4b4392f0e4b90e4bda27558c6403421a27568a5068a51631902e2023c79d4c90362475325d4c823c6423c648f1b23c6923c69d4c84b06423b0dd48b5eb7c7522dd48a23afc23afc8ec123b0123b05d48a5cb78239a40000751e6751e48e6623994239948e6658c6558c648e665abc85abc9d48a752a4752a572de5eb785cb79d4c87539c7539c0d884b0644b066096c8262c8262d33194e4644e46609e88281c827a209e73908c3908ce425390913909609e74b3e03909209e74fc6038dd2096c4cc64825b2096b38dbc38dbce37138dc138dc2096b4e4600e4b9a27502e20689d5a2740e4a80e4a8392c0e4ad0e4b1a27458c600341da27468a4c68a4d631802e1c23c6dd4c80362075321d4c723c5823c588f1823c5d23c5dd4c74b06023b01d48a5eb78)
  (.lf 0)) (.nd (.lf
  0x6dc8405c54a1586dc0db70216870168705a1e1687516875b7024a15830f19f39d4d5584a159f39d7cef07ce75f39c30f0830f08c3c430f0d6db816f185dc605bc61b6ff6dc787cf012f5a4d5684bd69f3df7cff8061d528554a14c7cf112f5e4d5784bd79f3e37d008310e1f3e3505787cf8df3e2310d0310d0c436310d5310d9f3e24a9747cf0d2f5d4d5744bd75f3e27d004310d5f3e2505747cf89f3e1310c4310c4c433310c9310cdf3e14a9707cf092f5c4d5704bd71f3e17d000310c9f3e1505707cf85f3e0310b8310b8c430310bd310c1f3e04a96c310bdf3e05056c7cf052f5b4d56c4bd6df3e07cffc7cf81f3df310ac310acc42d310b1310b5f3df4a968310b1f3df505687cf7df3de310a0310a0c42a310a5310a9f3de4a964310a5f3de505646db896f1a5dc685bc69b7016dc8016879b702017146dc09b701168647cefd2f594d5644bd65f3de7cff47cf79f3dd3109431094c4273109931099f3dd505607cef92f584d5604bd61f3dd7cff03109df3dd4a9607cf75f3dc3108831088c4243108d31091f3dc4a95c3108df3dc5055c6dc8005c44a154168645a1b1686916869b7014a1544a155f39c7ceec7cef52f574d55c4bd5df3dc7cfec)
  (.lf 0)))

def shaGateTree255 : BTree :=
  .nd (.nd (.nd (.lf
  0x396b60aea4e58c4b18e0aea82c2482c2533634e58c4e58e0b6682e1482e152d434fd8c37232049f511108127e049e3722037220dc8a372253722a049e4b50c4c90e049e812f4812f52d435110c69be96443041c827cddddc603acc77719ddc527cc827cc89f3427ccd27ccdddc54b50c27b71dd885f02477621dd8727b6027b609eda27b6527b69dd875d020279e80000775be775bc9e77279d8279d89e775910d5910c9e775b04c5b04ddd87776987769974085f0205d021ddc577790777900eb24b50c4b50e10008407c8407d34434e90c4d10e103e84174840fa103d3b5943b594ed673b5993b59e103d007c43b59a103d519083b43e10004e90c840020fff3b42c3b42ced0d3b4313b4360fff4d108399860b664fd8c82d9a0b653997439974e65f399793997e0b654b508396ba0aea4cd8c82baa0ae9396a4396a4e5ab396a9396aa0ae94e5884b18a0ae982c2082c2133624e5884e58a0b6582e1082e112d424fd8837226049e5110c8127a049d3721437214dc87372193721e049d4b5084c90a049d812f0812f12d425110869cdd4c425910869be56442041c427cd1ddc503ac877715ddc427cbc27cbc9f3127cc127cc1ddc44b50827b65dd875f020)
  (.lf 0)) (.nd (.lf
  0x1959465671959919599bd78560cc520cdbd786f65c6f65d5033560cc560cc049841a44560f0048141a686f6ad50475611c5611c048c41a9441a6804980123441a940483012604481c04b8012605412406984491c4491d126744a1d44a1c06980126001261981b660e8660e94869581a46f6a150445611056110048941a8856140049541ab841a5c04950122841a880480012546f6a95046561184481004b5012545411806954491044911126444a1144a10069501254012559818660dc660dd4866581985613c049441ab441a580494012244480c04b4012506f6a55045561145411406944490c4490d126344a0d44a0c069401250012519817660d8660d94865581941959dbd78540cc6f5e1bd7719588520c9bd776f6581958865641958d19591bd77540c81958dbd77560c86f5dd5031560c5520c55031560c4560c4049641a3c56114048a41a8c41a6004960122c41a8c0481012584481404b6012585411c06964491444915126544a1544a14069601258012599819660e0660e148675819c6f67d503b560ec6f6595032560c8560c8049741a40560ec048041a6456118048b41a9041a6404970123041a9004820125c4481804b70125c54120069744918)
  (.lf 0))) (.nd (.nd (.lf
  0xd164345b0d1690d16d9f19589040d1699f1902ac067d519f530d29c0d29c34a90d2a10d2a19f53588f40d2a59f53528f4028c19f1967ce067c659f180d1580d15834580d15d0d1619f1858900028ad9f1467ccc67ccd623c02aac020b19f5367dc8028bd9f1867cdc0d15d9f1802abc67c619f170d14c0d14c34550d1510d1559f17588fc0d1519f1702ab8028b99f1767cd867c5d9f160d1400d14034520d1450d1499f16588f8028b59f1667cd4028b19f1567cd00d1459f1602ab467c599f150d1340d134344f0d1390d13d9f15588f40d1399f1502ab067c559f140d12867d4d9f520d2900d29034a60d2950d2959f52588f0020ad9f5267dc467dc54a3c588f00d128344c0d12d0d1319f14588f0588f1cd89208ac208ac00005a862206c5cd565490067dd54a405890052901cd56735d473559cd55206b0206b081ae206b5206b5cd55568fc206b9cd55548fc67dd14a3f588fc528fdcd55735d073555cd54206a4206a481ab206a9206a9cd54568f8206adcd54548f873551cd53206982069881a82069d2069dcd53568f4206a1cd53548f467dc94a3d588f4528f5cd53735c87354dcd522068c2068c81a52069120695cd52548f00d2999f52528f0)
  (.lf 0)) (.nd (.lf
  0x13b384ef813b2813b284ecc13b2d13b2c4ef859a6c59a6db0d56c3d06c3d16e645d990846f58e6f63a38847018e7263a44639c98e7107104071041c43071090710d8e714b5bc846fd8e7163a40071098e7100878639c58e70070f8070f81c40070fd071018e704b5b8070fd8e7000874846f98e7063a3c639c18e6f070ec070ec1c3d070f1070f58e6f4b5b4070f18e6f00870639bd8e6e070e0070e01c3a070e5070e58e6e0086c846f18e6e63a34070e98e6e4b5b0639b98e6d070d4070d41c37070d9070d98e6d00868846ed8e6d63a30070dd8e6d4b5ac846e98e6c63a2c639b58e6c070c8070c81c34070cd070cd8e6c00864070d18e6c4b5a8639b18e6b070bc070bc1c31070c1070c58e6b4b5a4070c18e6b00860846e58e6b63a28639ad8e6a070b0070b01c2e070b5070b98e6a4b5a0846e18e6a63a24070b58e6a0085c639a98e69070a4070a41c2b070a9070a98e6900858070ad8e694b59c846dd8e6963a20639a58e6807098070981c280709d0709d8e6800854070a18e684b598846d98e6863a1c639a18e670708c0708c1c2507091070918e6700850070958e674b594846d58e6763a186399d8e6607080070801c2207085070858e660084c)
  (.lf 0)))

def shaGateTree256 : BTree :=
  .nd (.nd (.nd (.lf
  0x7ad29eb492dd942dd94b7672dd992dd9deb490094c2dd99eb49006cc5d725eb497ada07ad25eb482dd882dd88b7642dd8d2dd91eb48009482dd8deb48006c85d721eb487ad9c7ad21eb472dd7c2dd7cb7612dd812dd85eb47009442dd81eb47006c45d71deb477ad987ad1deb462dd702dd70b75e2dd752dd79eb46009402dd75eb46006c05d719eb467ad947ad19eb452dd642dd64b75b2dd692dd6deb450093c2dd69eb45006bc5d715eb457ad907ad15eb442dd582dd58b7582dd5d2dd61eb44009382dd5deb44006b85d711eb447ad8c7ad11eb432dd4c2dd4cb7552dd512dd55eb43009342dd51eb43006b45d70deb437ad887ad0deb422dd402dd40b7522dd452dd49eb42009302dd45eb42006b05d709eb427ad847ad09eb412dd342dd34b74f2dd392dd3deb410092c2dd39eb41006ac5d705eb417ad807ad05eb402dd282dd28b74c2dd2d2dd31eb40009282dd2deb40006a85d701eb407ad7c7ad01eb3f2dd1c2dd1cb7492dd212dd25eb3f009242dd21eb3f006a45d6fdeb3f7ad787acfdeb3e2dd102dd10b7462dd152dd19eb3e009202dd15eb3e006a05d6f9eb3e7ad747acf9eb3d2dd042dd04b7432dd092dd0deb3d0091c2dd09eb3d0069c)
  (.lf
  0x13bac4ee913ba013ba04ee957ab1645d546ac57ab057ab04ee959aa013ba44efb13b9413b944ee713b9913b984efb59a9c13b9c000013bee645d146ab57aac57aac4efb13c2413bec4ee413b8c13b8c4ee457aa9645cd46aa57aa857aa84ee459a9813b904ee213b8413b844ee257aa5645c946a957aa457aa44ee259a9413b884ee013b7c13b7c4ee057aa157aa04ee059a9013b804efa13b7013b704ede13b7513b78000013bea5f92c04d53d710619492d863b72c072118ea7008d863a9d8ea607200072001c8207205072098ea64b6183d7112d863d791847598ea663b1463b152d86008d44b6199112644c4644c55ea600d54645bd46a657a9813b744efa59a8c644c95ea700d58645c146a757a9c57a9c4efa13c2013be84edb13b6813b684edb57a9957a984edb59a8813b6c4ef913b5c13b5c4ed913b613d6812d624b6083d6892d644b610645ad46a257a886c1cd7e3f618fc618fd2d733b6e03b6e12d854b600072058ea6008d48474d8ea363b08847418ea063afc63afd2d80008bc847558ea563b1063a998ea5071f4071f41c7f071f9071fd8ea54b614071f98ea5008d063a958ea4071e8071e81c7c071ed071ed8ea4008cc847518ea463b0c))
  (.nd (.lf
  0x3c5940a21028f03c5980a22028f43c59c0a23028f83c5a00a24028fc5c615c9f2728441ee8dc9f2028bc727c9c9f11ee781ee787ba01ee7d1ee81c9f1028b81ee7dc9f14aafc5c611c9f172840727c5c9f01ee6c1ee6c7b9d1ee711ee71c9f04aaf85c60dc9f07283c1ee75c9f0028b4727c1c9ef1ee601ee607b9a1ee651ee69c9ef028b05c605c9ee72834728840a3f4ab40728800a3e4ab3c7287c0a3d4ab38728700a3a4ab2c728600a364ab1c3f3680a4b028ac3f36c0a4c028b03f3700a4d028b43f3740a4e028b83f3780a4f028bc3f37c0a50028c03f3800a51028c43f3840a52028c83f3880a53028cc3f38c0a54028d03f3900a55028d43f3940a56028d83f3980a57028dc3f39c0a58028e03f3a00a59028e43f3a40a5a028e83f3a80a5b028ec3f3ac0a5c028f03f3b00a5d028f43f3b40a5e028f83f3b80a5f028fc607840a6b3f3e8607880a6c3f3ec6078c0a6d3f3f0607900a6e3f3f4607940a6f3f3f8607980a703f3fc6079c0a713f400607a00a723f404607a40a733f408607a80a743f40c607ac0a753f410607b00a763f414607b40a773f418607b80a783f41c607bc0a793f420607c00a7a3f424607c40a7b3f428607c80a7c3f42c)
  (.lf 0))) (.nd (.nd (.lf
  0x399ba0b6a4b51c396f60aef4cda082bbe0aee396e0396e0e5ba396e5396e60aee4e59c4b19e0aee82c3482c3533674e59c4e59e0b6a82e2482e252d474fd9c3726204a3511208128e04a23725037250dc96372553725a04a24b51c4c91e04a281304813052d475111c69bf96447041d827d0dddca03adc77729ddc927cf827cf89f4027cfd27cfdddc94b51c27ba1dd8c5f03477631dd8b27b9027b909ee627b9527b99dd8b5d03027a100000775c6775c49e8127a0027a009e815911d5911c9e815b05c5b05ddd8b776a8776a9740c5f0305d031ddc9777a0777a00eb64b51c4b51e10048408c8408d34474e91c4d11e1042841848410a10413b5c43b5c4ed733b5c93b5ce1041007d43b5ca1041519183b46e10044e91c8401210033b45c3b45ced193b4613b46610034d118399b60b6a4fd9c82daa0b69399a4399a4e66b399a9399ae0b694b518396ea0aee4cd9c82bba0aed396d4396d4e5b7396d9396da0aed4e5984b19a0aed82c3082c3133664e5984e59a0b6982e2082e212d464fd983725604a25111c8128a04a13724437244dc93372493724e04a14b5184c91a04a181300813012d465111869ced4c465911869bf56446041d427d01ddc903ad8)
  (.lf 0)) (.nd (.lf
  0x195b5bd7a540d46f5e9bd79195a0195a0656a195a5195a9bd79540d06f685503d560f46f6915040561006f681503c560f019b61be355ffec6f8d5be3419b4c5dfe9be346f94c19b4c66d519b5119b55be345ffe819b51be3461fe85dfe5be336f9486f8d1be3319b4019b4066d219b4519b49be335ffe419b45be3361fe46f8cdbe3219b3419b3466cf19b3919b39be3261fe019b3dbe325ffe05dfe1be326f9446f8c9be3119b2819b2866cc19b2d19b2dbe3161fdc6f94d7ffa61fe80a7e197e301b7865f8d97e20a7d00a7d029f60a7d519b31be315ffdc5dfddbe316f9406f98180076201c6f9858008620206f97d8006620185dfd97ff661fd86f9457ff861fe06f8c57ff661fd961fd806593bdbc6f9417ff761fdc61fdc065a3bdc061fe0065b3bdc46f9497ff961fe461fe4065c3bdc861fe8065d3bdcc6f9758004620106201006473bdf46f9798005620146201406483bdf86201806493bdfc6201c064a3be0062020064b3be046f991800b6202c6202c064e3be106f995800c6203062030064f3be146f999800d620346203406503be183bdf40659019503bdf8065a019543bdfc065b019583be00065c0195c3be04065d019603be1006400196c)
  (.lf 0)))

def shaGateTree257 : BTree :=
  .nd (.nd (.nd (.lf
  0x5f3c1e5017948079405e5002b0502b050ac162b0552b059e500613bc2b055e500633bc2ad95e4855d3c079215e4842ad802ad80ab622ad852ad85e4845f3bc2ac11e4692ac002ac00ab022ac052ac05e4695b3d0292b1e0c50016878315e0c4292a0292a0a4aa292a5292a9e0c403c645d1bde0c47838c7838c0f1900164113fdaa85534ac6aa15aa84113e8113e844fc113ed113edaa84594a804365aa846aa8c6aa8d4d2a594a811291aa47045686a91daa46112801128044a21128511289aa46594a803c65aa466a9946a995652a04564594a9e4692ac582ac5800005b3d25b3d1e4847928c7928d74ef5f3bc5f3bde5007947c79401e4ff2b0442b044ac132b0492b04de4ff613b82b049e4ff633b82ad89e4845d3bc79211e4832ad742ad74ab5f2ad792ad79e4835f3b82ac080000791a6791a4aaff2abf82abf8aaff594a55d1b9e0c378388783880f1800160292a5e0c40016478311e0c32929429294a4a7292992929de0c303c6003c61aa456a9906a991652904560113f1aa84534a86aa11aa83113dc113dc44f9113e1113e1aa83594a404361aa836aa886aa894d29594a411285aa46045646a919aa451127411274449f112791127daa45594a4)
  (.lf 0)) (.nd (.lf
  0x5a4a1c5be71774716f9c5bd1d11c1d11c74491d1211d125c5bd5c4201d121c5bd5e42066e6149435850c1cfa000007169671695c5a41cf8c1cf8c73e51cf911cf91c5a45a49c5850dc5a41d0301d03000005a49e5a49dc5bd71770716f5c5bc1d1101d11074461d1151d119c5bc5c41c66e51493f584fc3c13c092b024983c1a80926024843c1ac0927024883c1b009280248c3c1b40929024903c1b8092a0249445260074901ca4544680769453604536114f84546145460076901ca401ca59b7066e3c0bbfd9b70584e866dc19b6f0bbec0bbec2efd0bbf10bbf59b6f524e40baad9b3401eac3eb68094b024ac60384096b3ebe83ebe8092b3ec69024ad9b3466d4c66cd19b330ba9c0ba9c2ea90baa10baa59b33584ec66d5d614001ebc66d65614201ec41cf9400007169271691c5a31cf801cf8073e21cf851cf85c5a35a49866e5d49425850858509c5a31d02c1cf8800007168e7168dc5a21cf741cf7473df1cf791cf79c5a25a49466e5949415850466d61614101ec058505c5a21d0281cf7c00007168a71689c5a11cf681cf6873dc1cf6d1cf6dc5a15a49066e5549405850058501c5a11d0241cf7000007168671685c5a01cf5c1cf5c73d91cf61)
  (.lf 0))) (.nd (.nd (.lf
  0x4b0820973826488264933204e4804e48209ef82838827be09ee390e0390e0e43a390e5390ea09ee4b3fc390e609ee4fc7c38e2609734cc80825ce097238e1038e10e38638e1538e1609724e47c0e50da27c02e3c689f1a27b0e4fc0e4fc39410e5010e505a27b58c7c03439a27b68a6868a69631f02e3823cc1d4cf0363c7533dd4ce23cac23cac8f2d23cb123cb1d4ce4b07c23b55d4915eb9475245d49023b4423b448ed323b4923b4dd4905cb90239e00000751f2751f1d47b239cc239cc8e75239d1239d1d47b5abe058c7dd47b23a8823a8800005abe25abe1d490752bc752bd72e45eb905cb91d4ce753b4753b40d8e4b07c4b07e09728264482645331f4e47c4e47e09ee82834827ba09ed390d4390d4e437390d9390de09ed4b3f8390da09ed4fc7838e1a09724cc7c825ca097138e0438e04e38338e0938e0a09714e4780e501a27b02e38689eda27a0e4f00e4f0393e0e4f50e4f9a27a58c7803435a27a68a6468a65631e02e3423cb5d4ce0363875339d4cd23ca023ca08f2a23ca523ca5d4cd4b07823b49d4905eb9075241d48f23b3823b388ed023b3d23b41d48f5cb8c239d40000751ee751ec8e72239c4239c48e7258c7958c788e725abdc)
  (.lf 0)) (.nd (.lf
  0x4bd99f3eb7d0283113cc4513114131145f3eb4a99831141f3eb505987cfadf3ea3113031130c44e3113531135f3ea5059431139f3ea4a9946dcc005d44a19430fc8c3f430fcd30fd1f3ac4bd944a195f3ac7cf2c7cf2d2f654d5944bd95f3ea7d0247cfa9f3e93112431124c44b3112931129f3e9505903112df3e94a99030fcdf3ac4d5947ceb1f3ab30fbc30fbcc3f130fc16dcbc05d34a19030fc5f3ab4bd904a191f3ab7cf287cf292f644d5904bd91f3e97d0207cfa5f3e83111831118c4483111d31121f3e84a98c3111df3e85058c30fc1f3ab4d5907ceadf3aa30fb030fb0c3ee30fb530fb9f3aa4bd8c6dcb805d24a18c4a18df3aa7cf247cf252f634d58c4bd8df3e87d01c7cfa1f3e73110c3110cc4453111131115f3e74a98830fb5f3aa4d58c7cea9f3a930fa430fa4c3eb30fa930fadf3a94bd886dcb405d14a1884a189f3a97cf207cf212f624d5884bd89f3e77d01831111f3e7505887cf9df3e63110031100c4423110531109f3e64a98431105f3e65058430fa9f3a94d5887cea5f3a830f9830f98c3e830f9d4a185f3a87cf1c30fa1f3a84bd847cf1d2f614d5844bd85f3e67d0144a181f3a77cf187cf192f604d58030f9df3a84d584)
  (.lf 0)))

def shaGateTree258 : BTree :=
  .nd (.nd (.nd (.lf
  0x2cf8000005b6225b621e9837a6887a68975885f6205f621e9ff7a8787a7fde9fe2d32c2d32cb4cd2d3312d335e9fe6161c2d331e9fe6361c2d071e9835d6207a60de9822d05c2d05cb4192d0612d061e9825f61c2cea800002cf422cf40b3cf2ce942ce94b3a72ce992ce98b3cf5b61c2b5a1e5b3003c8796cde5b22b5902b590ad662b5952b599e5b203ec45d41de5b279744797440fb1003c4121adace95370c6b3a5ace8121981219848681219d1219dace859708045c5ace86b41c6b41d4dc25970812041acab047c86b2adacaa1203012030480e1203512039acaa5970803ec5acaa6b3246b32565c2047c459708b3cf2cf7c2cf7c00005b61e5b61de9827a6847a68575875f61c5f61de9fe7a8747a7f9e9fd2d3202d320b4ca2d3252d329e9fd616182d325e9fd636182d065e9825d61c7a609e9812d0502d050b4162d0552d055e9815f6182ce9c00002cf3e2cf3cb3a42ce8c2ce8cb3a4597055d419e5b179740797400fb0003c02b595e5b2003c4796c9e5b12b5842b584ad632b5892b58de5b103ec003ec1aca96b3206b32165c1047c0121a1ace8537086b3a1ace71218c1218c48651219112191ace759704045c1ace76b4186b4194dc159704)
  (.lf 0)) (.nd (.lf
  0x6256009bb3c344724f58159625646256409bc3c348724f9815a625686256809bd3c34c724fd815b6256c6256c09be3c35072501815c625706257009bf3c35472505815d625746257409a03c35872509815e625786257809a13c35c7250d815f6257c6257c09a23c360725118160625806258009a33c364725158161625846258409a43c368725198162625886258809a53c36c7251d81636258c6258c09a63c370725258165625946259409a83c378725298166625986259809a93c37c7252d81676259c6259c09aa3c380725318168625a0625a009ab3c38472539816a625a8625a809ad3c38c7253d816b625ac625ac09ae3c39072541816c625b0625b009af3c39472545816d625b4625b409b03c39872549816e625b8625b809b13c39c625bc09b23c3a0725518170625c0625c009b33c3a4725558171625c4625c409b43c3a8725598172625c8625c809b53c3ac7255d8173625cc625cc09b63c3b0725618174625d0625d009b73c3b4725658175625d4625d409b83c3b83c34009ac0269c3c34409ad026a03c34809ae026a43c34c09af026a83c35009b0026ac3c35409b1026b03c35809b2026b43c35c09b3026b83c36009b4026bc3c36409b5026c0)
  (.lf 0))) (.nd (.nd (.lf
  0x470a00bd902ee4470a40bda02ee8470a80bdb02eec470ac0bdc02ef0470b00bdd02ef4470b40bde02ef8470b80bdf02efc54e440be04713c54e480be14714054e4c0be24714454e500be34714854e540be44714c54e580be54715054e5c0be64715454e600be74715854e640be84715c54e680be94716054e6c0bea4716454e700beb4716854e740bec4716c54e780bed4717054e7c0bee4717454e800bef4717854e840bf04717c54e880bf14718054e8c0bf24718454e900bf34718854e940bf44718c54e980bf54719054e9c0bf64719454ea00bf74719854ea40bf84719c54ea80bf9471a054eac0bfa471a454eb00bfb471a854eb40bfc471ac54eb80bfd471b054ebc0bfe471b454ec00bff471b84713d1c6f4723d471411c7047241471451c7147245471491c72472494714d1c734724d471511c7447251471551c7547255471591c76472594715d1c774725d471611c7847261471651c7947265471691c7a472694716d1c7b4726d471711c7c47271471751c7d47275471791c7e472794717d1c7f4727d471811c8047281471851c8147285471891c82472894718d1c834728d471911c8447291471951c8547295471991c86472994719d1c874729d)
  (.lf 0)) (.nd (.lf
  0x7d695f5a431b6831b68c6dc31b6d31b71f5a44a6344d6b5f5a47d70c31b6df5a44eeb47d691f5a331b5c31b5cc6d931b6131b65f5a34a6304d6b1f5a37d70831b61f5a34eeb07d68df5a231b5031b50c6d631b5531b59f5a24a62c4d6adf5a27d70431b55f5a24eeac7d689f5a131b4431b44c6d331b4931b4df5a14a62831b49f5a14eea84d6a9f5a17d7007d685f5a031b3831b38c6d031b3d31b41f5a04a62431b3df5a04eea44d6a5f5a07d6fc7d681f59f31b2c4d6a1f59f7d6f831b2cc6cd31b3131b35f59f4a62031b31f59f4eea07d67df59e31b2031b20c6ca31b2531b29f59e4a61c4d69df59e7d6f431b25f59e4ee9c7d679f59d31b1431b14c6c731b1931b19f59d4ee984d681f5977d6d84d691f59b7d6e84d67df5967d6d431b1df59d4a6184d699f59d7d6f07d675f59c31b0831b08c6c431b0d31b0df59c4ee9431b11f59c4a6144d695f59c7d6ec7d671f59b31afc31afcc6c131b0131b01f59b4ee9031b05f59b4a6107d66df59a31af031af0c6be31af531af5f59a4ee8c4d68df59a7d6e431af9f59a4a60c7d669f59931ae431ae4c6bb31ae931ae9f5994ee884d689f5997d6e031aedf5994a6087d665f59831ad831ad8c6b831add)
  (.lf 0)))

def shaGateTree259 : BTree :=
  .nd (.nd (.nd (.lf
  0x5b08dde8177a8077a81741a5f0685f069defd77c7077bf5defc2847428474a11f284792847ddefc6106428479defc63064281b9de815d06877a05de80281a4281a4a06b281a9281a9de805f064280400000779ba779b96c2128034280356c2159151591516c215b0885b089de8077a7c77a7d74195f0645f065defc77c6c77bf1defb2846828468a11c2846d28471defb610602846ddefb6306069d99645304208281adde805d06477a01de7f2819828198a0682819d2819dde7f5f0605914c00005b0865b085de7f77a7877a7974185f0605f061defb77c6877beddefa2845c2845ca1192846128465defa6105c28461defa6305c03905a74669d9469d95645204204281a1de7f5d060779fdde7e2818c2818ca0652819128191de7e5f05c59149de7e77a7477a7574175f05c5f05ddefa77c6410085a7460420469d196451042010390164510420028195de7e5d05c5914574165f058779f974165f0595f05984166305877be9841663059630580e793ce3c77c6584176305c6305c0e7a3ce4077c69841863060630600e7b3ce4477c6d841963064630640e7c3ce4877c71841a63068630680e7d3ce4c77c75841b6306c6306c0e7e3ce5077c79841c63070)
  (.lf 0)) (.nd (.lf
  0x70888092a4a6ec7088409294a6e87088009284a6e47087c09274a6e07087809264a6dc7087409254a6d87087009244a6d47086c09234a6d07086809224a6cc7086409214a6c80228160b101c8044c3c06c001a805424406e044d3c44d3d136f44e3d44e3c06e001a800aef5993a01c84664e960b101c8101a8148b1582c4665e148b1582c5582c400005a2665a26570765e1d85c1d809204a6c4707e809204a6c54a741fbb57ef507ef5130d04db404c341fbf37f0487efcdfbf23401034010d0063401534019fbf24af3c34015fbf250b3c7eed5fbb433ea833ea8cfac33ead33eb1fbb44c33c4a73dfbb47ef4c7ef4d30cf4db3c4c33dfbf27f0447efc9fbf13400434004d003340093400dfbf14af3834009fbf150b3833eadfbb44db3c7eed1fbb333e9c33e9ccfa933ea133ea5fbb34c3384a739fbb37ef487ef4930ce4db384c339fbf17f0407efc5fbf033ff833ff8d00033ffd34001fbf04af3433ffdfbf050b3433ea1fbb34db387eecdfbb233e9033e90cfa633e9533e99fbb24c3344a735fbb27ef447ef4530cd4db344c335fbf07f03c7efc1fbef33fec33feccffd33ff133ff5fbef4af3033ff1fbef50b3033e95fbb24db347eec9fbb133e84)
  (.lf 0))) (.nd (.nd (.lf
  0x7433dd0ce21fd421fd487f721fd921fd9d0ce4ae603c72c0c8703208462d80aa702a1c549e00ac7463d8463d91916464d9464d80ac702a1c02a1da0c268384683854a9858a603f6580ca70321c608f40cc73f6d83f6d80c873f7590d979a08502c2068215a0840d9680d968365c0d96d0d971a08458a600321da0846828c0dae5a0c352a646830da0c20dad06828d629802c1c0dad036b60dad50dad5a0c258a6021cc8000021db221db0872f21cb821cb8872f58a6158a60872f5a9d05a9d1d090742bc742bd725d5e97421e7dd0915e97874245d09021e6c21e6c879d21e7121e75d0905c9745c975d0ce743b421fddd0ce0341c74339d0cd21fc821fc887f421fcd21fd1d0cd034183c7280c86032043f6540ca603218608f00cc63f6d43f6d40c863f7550d96da08402c1c68211a0830d95c0d95c36590d9610d965a08358a5c03219a083682880dad9a0c252a60462d40aa602a18549dc0ac6463d4463d51915464d5464d40ac602a1868309a0c10dac402a19a0c168380683814a9758a5c0dac436b30dac90dac9a0c158a5c68289629702c1858a5c876b21dec21cbc876b21cac21dec00005a9ce21cac872d21cb121cb0876b5a9cc5a9cdd08f742b8)
  (.lf 0)) (.nd (.lf
  0x15f1857c515e7015e70579e15e7515e78000015f1664f61474357d0c64e695f4300fc857d0c57c515f5815e7457c559ce015f1457c415e6415e64579b15e6964f5d474257d0864e655f4200fc457d0857c415f5415e6857c459cdc15e6c000015f1215f1057c315e5815e58579815e5d64e615f4100fc064f59474157d0457d0457c315f5015e5c57c359cd815e60000015f0e15f0c57c215e4c64f51473f57cfc53c7003ab43b6843a68038b00dac43b690efa43c6943c6803ab00dac41634036b00d8000dad93b264f4464f45473c57cf014561b22049efc6c881b21f145501455051561455514555b21f49ef85ba0db21f6c8f814559b21f014b46c87db21e145445ba09b21e6c8f41454451531454914549b21e49ef41454db21e014b06c879b21d145381453851501453d14541b21d014ac64e595f3f00fb83b944052d014a06c8f8052d49ef83db70054d014b45fb8c056d3dbf03dbf0052d3dc71014b5937664e5408dc9937657cf864dd9937508db408db4236f08db915e4c579515e5164f55474057d0064e5d5f4000fbc57d0057c215f4c15e5057c259cd415e54000015f0a15f08579215e4415e44579257cfd57cfc579259cd015e48579015e3c)
  (.lf 0)))

def shaGateTree260 : BTree :=
  .nd (.nd (.nd (.lf
  0x577f411c24316c7ab9955fe577f8577f811c3431707ab9d55ff577fc577fc11c4431747aba15600578005780011c5431787aba55601578045780411c64317c7aba95602578085780811c7431807abad56035780c5780c11c8431847abb15604578105781011c9431887abb55605578145781411ca4318c7abb95606578185781811cb431907abbd56075781c5781c11cc431947abc15608578205782011cd431987abc55609578245782411ce4319c7abc9560a578285782811cf431a07abcd560b5782c5782c11d0431a47abd1560c578305783011d1431a87abd5560d578345783411d2431ac7abd9560e578385783811d3431b07abdd560f5783c5783c11d4431b47abe15610578405784011d5431b84313c11cd047084314011ce0470c4314411cf047104314811d0047144314c11d1047184315011d20471c4315411d3047204315811d4047244315c11d5047284316011d60472c4316411d7047304316811d8047344316c11d9047384317011da0473c4317411db047404317811dc047444317c11dd047484318011de0474c4318411df047504318811c0047544318c11c1047584319011c20475c4319411c3047604319811c4047644319c11c504768)
  (.lf 0)) (.nd (.lf
  0x678c19e2f0cc6c0cc6c331d0cc710cc759e2f5883c5883c7ea31fad41fad400005a7ba1fa907ea31fa441fa447e931fa491fa487ea35a7b85a7b9cbb372f4872f4971d45e750730c1cc2f1ff041ff047fc31ff091ff0dcc2f607501ff09cc2f6275072ed1cbb31fc341fc347f0f1fc391fc39cbb35e7505e751cc2f73138730bdcc2e1fef81fef87fc01fefd1fefdcc2e6274c1f109ca67547647299dca661f0f41f0f47c3f1f0f91f0f9ca66567601f0fdca665476052761ca6672a1472999ca651f0e872a3551e0567805275dca6572a100cddd9e6d5283c3f1ac0a1c027f03f1b00a1d027f472d5181b2626c8606c80a3c3f22c606cc0a3d3f2303f22c09fc3f2ad3f23009fd3f2b1679b59e6c0cdc80cdc833740cdcd0cdd19e6c528380cdcd9e6c5883872a1551d8567605676007fd420d872a3951e1567845678407e6420fc72a6551ec567b0567b007f142128420fc07fd01fc84212807e801ff445bb0081d01ff4547b8083d45cb045cb1174c45db145db0083d01ff401ff59e6c67a2c679b19e6b0cdbc0cdbc33710cdc10cdc19e6b5883472a1151d75675c1f0e87c3c1f0ed1f0edca655675c5675c07fc420d45678007e5420f872a6151eb567ac)
  (.lf 0))) (.nd (.nd (.lf
  0x36a2e03345103480cd2033336a1c36a1cda8936a2136a2603334b4304c832033380d4880d492d0c510306982d640c031ec699254c0c5903026ee9dbd0039f076f41dbcf26ed426ed49bb726ed926ed9dbcf4b43026d7ddb925ef4876e49db9126d6c26d6c9b5d26d7126d75db915cf4426ba89afc26b9826b989ae826b9d26b9c9afc5af74590309afc26c3026c3000005af765af75db9176ec076ec173d15ef445cf45dbcf76fb876fb80e7b4b4304b4320e9583ad083ad1340c4e8304e8320f1183cc083c460f103aef83aef8ebc03aefd3af020f10002683aefe0f105002c3ac3e0e954d03083a560e943ac283ac28eb0c3ac2d3ac2e0e944e82c36a2203335103080cce033236a1036a10da8636a1536a1a03324b42c4c82e033280d4480d452d0b5102c69829640b031e8699214c0b5902c26edddbcf039ec76f3ddbce26ec826ec89bb426ecd26ecddbce4b42c26d71db915ef4476e45db9026d6026d609b5a26d6526d69db905cf4026ba0000026bf226bf09afb26b8c26b8c9ae526b9126b909afb5af705902c9afb26c2c26c2c00005af725af71db9076ebc76ebd73d05ef405cf41dbce76fb476fb40e7a4b42c4b42e0e9483acc83acd340b4e82c)
  (.lf 0)) (.nd (.lf
  0x65b9196e30a1dc0a1dc28790a1e10a1e196e301a580a1e596e35809c65b8d96e20a1d00a1d028760a1d50a1d596e201a540a1d996e25809865b8996e10a1c45a07dbcdb6f3e86f36dbcda192ac192ac64ad192b1192b1bcda5dfd0192b5bcda5bfd05a079bcda6f3e46f369bcd9192a0192a064aa192a5192a9bcd95bfcc5a075bcd96f3e0192a5bcd95dfcc6f365bcd8192940a35028d60a3550a3599722520a019105bcbb5a0706f1697fbf61efc65c05602601a5465c09602701a586eeb15006560186eea950045601056010044941988560400455419b84195c0455011284198804400115444510047501154540180495446104461111a4447114471004950115401155972065cfc65cfd4826580985603c0454419b4419580454011244450c0474011506eead5005560145401404944460c4460d11a34470d4470c04940115001151971f65cf865cf94825580941879dbb7a53fcc6ede9bb79187881878861e41878d1878dbb7955fc865c0d602801a5c51fc9bb796ee606ee614ff255fc855fc80457419406ee854ffb55fec55fec04404196456018044b41990419640457011304199004420115c4451804770115c540200497446184461911a644719)
  (.lf 0)))

def shaGateTree261 : BTree :=
  .nd (.nd (.nd (.lf
  0x29a54a69729a5929a5de1fd611fc29a59e1fd631fc29799e1825d20078609e1812978429784a5e32978929789e1815f1fc296040000785aa785a8a57e295f4295f4a57e592e903aa5a8c26a3846a38564ba043a410961a8c3043a86a30da8c2109501095042561095510959a8c2592e8592e8a57e5b2145b215e1817868078681747f5f1fc5f1fde1fd78870787f5e1fc29a4829a48a69429a4d29a51e1fc611f829a4de1fc631f82978de1815d1fc78605e1802977829778a5e02977d2977de1805f1f8295f9e169295e8295e8a57c295ed295ede1695b21010955a8c2043a46a309a8c110944109444253109491094da8c1592e4592e5e169296e8296e800005b2125b211e1807867c7867d747e5f1f85f1f9e1fc7886c787f1e1fb29a3c29a3ca69129a4129a45e1fb611f429a41e1fb631f429781e1805d1f878601e17f2976c2976ca5dd2977129771e17f5f1f4295f00000785a6785a4a579295e0295e0a579592e103a9da8c06a37c6a37d64b80439c10949a8c1043a06a305a8c0109381093842501093d10941a8c0592e0592e0a5795b20c5b20de17f7867878679747d5f1f45f1f5e1fb78868787ede1fa29a3029a30a68e29a3529a39e1fa611f0)
  (.lf 0)) (.nd (.lf
  0x1c4bc71311c4c11c4c5c403025e81c4c1c4034a82c70f9170d05e3405c341c403710887100dc4021c4b01c4b0712e1c4b570f8d70cf5e33c5c33dc402710841c4b9c402025e41c4b5c4024a82871009c4011c4a41c4a4712b1c4a91c4adc401025e01c4a9c4014a82470f8970ce5e3385c339c4017108071005c4001c4981c49871281c49d1c49dc4004a8201c4a1c400025dc70f8570cd5e3345c335c4007107c71001c3ff1c48c1c48c71251c4911c491c3ff4a81c1c495c3ff025d870ffdc3fe1c4801c48071221c4851c489c3fe025d470f7d70cb5e32c5c32dc3fe710741c485c3fe4a81870ff9c3fd1c4741c474711f1c4791c47dc3fd025d01c31dc3c05e32c70f01c3bf1c30c1c30c70c51c3111c311c3bf5e3285a3a5c3bf70f781c315c3bf5c32870efdc3be1c3001c30070c21c3051c309c3be5c3241c21400005a3a25a3a1c3be70f741c305c3be5e32470ef9c3bd1c2f41c2f470bf1c2f91c2f9c3bd5e3201c479c3fd4a81470f7970ca5e3285c329c3fd7107070ff5c3fc1c4681c468711c1c46d1c46dc3fc4a81070f7570c95e3245c325c3fc7106c1c471c3fc025cc70ff1c3fb1c45c1c45c71191c4611c465c3fb025c81c2fdc3bd5c320)
  (.lf 0))) (.nd (.nd (.lf
  0x74b29d2c922f1c22f1c8bc922f2122f21d2c94af8c22dc5d28c5eaa474a31d28b22db422db48b6f22db922dbdd28b5caa022bc0000022c6a22c688aed22bb022bb08aed58b8d58b8c8aed5aafc5aafdd28b74aa874aa972a85eaa05caa1d2c974ba074ba00d524af8c4af8e0802820848208532e34e38c4e38e087e82274821fa087d3889438894e227388993889e087d4b3083889a087d4fb88385da08024cb8c8200a0801385c4385c4e173385c9385ca08014e3886878d4ae258b886869562e202d4422f25d2c90354874b25d2c822f1022f108bc622f1522f15d2c84af8822db9d28b5eaa074a2dd28a22da822da88b6c22dad22db1d28a5ca9c22bb48aeb22ba822ba88aeb58b8958b888aeb5aaf85aaf9d28a74aa474aa572a75ea9c5ca9dd2c874b9c74b9c0d514af884af8a0801820808208132e24e3884e38a087d82270821f6087c3888838888e2243888d38892087c4b3043888e087c4fb84385ce08014cb88820060800385b8385b8e170385bd385be08004e384687894ae158b8422f19d2c80354474b21d2c722f0422f048bc322f0922f09d2c74af8422dadd28a5ea9c74a29d28922d9c22d9c8b6922da122da5d2895ca9822bac8b1922b9c)
  (.lf 0)) (.nd (.lf
  0x2fad4beb72fad92faddf00d4bb202fad9f00d4d3207c035f00c2fac82fac8beb42facd2fad1f00c4bb1c2facdf00c4d31c49f1df00c7c0ac7c031f00b2fabc2fabcbeb12fac12fac1f00b4d3182fac5f00b4bb1849f19f00b7c0a87c02df00a2fab02fab0beae2fab52fab5f00a4d3142fab9f00a4bb1449f15f00a7c0a47c029f0092faa42faa4beab2faa92faa9f0094d3102faadf0094bb107c025f0082fa982fa98bea82fa9d2faa1f0084bb0c49f0df0087c09c2fa9df0084d30c7c021f0072fa8c2fa8cbea52fa912fa95f0074bb087bced286f4ea3c4ea3d27c249f002fa91f0074d30849f09f0077c0987c01df0062fa802fa80bea22fa857bce9286e4ea384ea3927c149efc49f05f0067c0942fa89f0064bb042fa85f0064d3047c019f0052fa742fa74be9f2fa797bcdd286b4ea2c4ea2d27be49ef07bce5286d4ea344ea3527c049ef849ef9f0037c0887c0892ebe4d2f87c0d12ed04d3404bb41f0537c1c87c14df0522fc902fc90bf262fc952fc99f0524a73c7c0cd2ecf4d33c4bb3df0527c1c42fc95f0525033c7c149f0512fc847bccd28674ea1c4ea1d27ba49ee07bcd528694ea244ea2527bc49ee849ee9efff7c0787c0792eba4d2e8)
  (.lf 0)))

def shaGateTree262 : BTree :=
  .nd (.nd (.nd (.lf
  0x3d2840f7d03de03d2880f7e03de43d28c0f7f03de83d2900f6003dec3d2940f6103df03d2980f6203df43d29c0f6303df83d2a00f6403dfc3d2a40f6503d803d2a80f6603d843d2ac0f6703d883d2b00f6803d8c3d2b40f6903d903d2b80f6a03d9440d3c0f8003d8040d400f8103d8440d440f8203d8840d480f8303d8c40d4c0f8403d9040d500f8503d9440d540f8603d9840d580f8703d9c40d5c0f8803da040d600f8903da440d640f8a03da840d680f8b03dac40d6c0f8c03db040d700f8d03db440d740f8e03db840d780f8f03dbc40d7c0f9003dc040d800f9103dc440d840f9203dc840d880f9303dcc40d8c0f9403dd040d900f9503dd440d940f9603dd840d980f9703ddc40d9c0f9803de040da00f9903de440da40f9a03de840da80f9b03dec40dac0f9c03df040db00f9d03df440db40f9e03df840db80f9f03dfc614580fa040dbc6145c0fa140dc0614600fa240dc4614640fa340dc8614680fa440dcc6146c0fa540dd0614700fa640dd4614740fa740dd8614780fa840ddc6147c0fa940de0614800faa40de4614840fab40de8614880fac40dec6148c0fad40df0614900fae40df4614940faf40df8614980fb040dfc6149c0fb140e00)
  (.lf 0)) (.nd (.lf
  0x457b407be01df801df99c7d67270671f59c7c0c2880c28830a40c28d71a5151615658467275499058640025fd9c406717c6717d619001ffc5864077841de401de1077791dde067271498f5863c71a2d51585656056560077d41ed856584076641efc565b0077141f2841efc077d01dc841f28076801df4455b0079d01df4545b807bd456b0456b115cc457b1457b007bd01df401df59c7c6726c6726d498e58638671019c3f0c12c0c12c304d0c1310c1359c3f5863c0c1319c3f01ff8025f99c3f67178670fd9c3e0c1200c120304a0c1250c1299c3e58638025f59c3e6717467179618f01ff81dde077795863d5863c77795a5c81dde477771ddd867175618e01ff41ddd87777586390c28d9c7c586385863877775a5c45a5c5c7c471f8c1de4000005a5ce5a5cdc7c671f9471f9571555e5545c555c8047208c72011c8031e1081e10878441e10d1e10dc8034aa3c1e111c803027f85a5c9c7c571f9071f9171545e55071f19c7c51dfa01dfa077ea1dfa51dfa9c7c55c5505c551c803720887200dc8021e0fc1e0fc78411e1011e101c8024aa3871f8d71535e54c1e105c802027f41dfa5c7c55e55071f15c7c41df941df9477e71df991df9dc7c45c54c)
  (.lf 0))) (.nd (.nd (.lf
  0x248b4922f248b9248b9d6945ec6424748000075a0675a05d680247342473491cf2473924739d6805acac58d51d680248582485800005acae5acadd69475acc75acd73195ec645ec65d71075cbc75c41d70f24b7824b7892e024b7d24b81d70f60c6024b7dd70f62c60248bdd6945cc6475a51d693248a8248a8922c248ad248add6935ec602473c000075a0275a016b2924730247316b2958d4d58d4d6b295aca85aca9d69375ac875ac973185ec605ec61d70f75cb875c3dd70e24b6c24b6c92dd24b7124b75d70e60c5c24b71d70e62c5c248b1d6935cc6075a4dd6922489c2489c9229248a1248a1d6925ec5c58d4800005aca65aca5d69275ac475ac573175ec5c5ec5dd70e75cb4248a5d6925cc5c58d4573165ec5875a4973165ec595ec59831662c5875c39831662c5962c580d793ca3c75cb5831762c5c62c5c0d7a3ca4075cb9831862c6062c600d7b3ca4475cbd831962c6462c640d7c3ca4875cc1831a62c6862c680d7d3ca4c75cc5831b62c6c62c6c0d7e3ca5075cc9831c62c7062c700d7f3ca5475ccd831d62c7462c740d603ca5875cd1831e62c7862c780d613ca5c75cd5831f62c7c62c7c0d623ca6075cd9832062c8062c800d633ca64)
  (.lf 0)) (.nd (.lf
  0x5bd8db9096e4a06e425b90817710177105dc61771517719b908018305bd89b9086e49c17715b9084a2746e421b907177046e49c060c4a2744a275f5187d4dc317e9f5194d6786e4a0060d4a2784a279f5197d4e07d465f518317d8317d8c5f8317dd317e1f5184be74317ddf5184d6747d461f517317cc6e3a16f615dd84177045dc31770917709b9074a27017599b8c85bd80317ccc5f5317d1317d5f5174be70317d1f5174d6705bd85b9076e4986e498060b4a2704a271f5177d4d87d45df516317c0317c0c5f2317c5317c5f5164d66c1770db9070182c6e41db906176f8176f85dc0176fd176fdb9064a26c5bd81b9066e494317c9f5164be6c6e494060a4a26c4a26df5167d4d47d459f515317b4317b4c5ef317b90961194e7011286539d94e609600096002582096050960994e657e680977d952551e6c654959524097680976825dc0976d0976d952457e681741db8b21740c43ee003e900f2453de8040943fe043fe11018440e1440e0040900f2400f2595246550c6550d479a57e6857e69b8b2174f4174f4000059e3a1740c5d051741117411b8b259e3859e39b8c76e3987d12529474ed9c4ed9d289a4a26017595b8c85dd806e321b8c717584)
  (.lf 0)))

def shaGateTree263 : BTree :=
  .nd (.nd (.nd (.lf
  0x3a0020c900051839ffe0c905165c39ea20c534e6608314e0c5239e9039e90e7a639e9539e9a0c524ce5c4b25e0c52831c4831c533974e65c4ce5e0c90832bc832420c8f39fec39fece7fd39ff139ff60c8f0051439ff20c8f5165839e960c524e65c8314a0c5139e8439e84e7a339e8939e8e0c514ce584b25a0c51831c0831c133964e6584ce5a0c8f832b88323e0c8e39fe039fe0e7fa39fe539fea0c8e0051039fe60c8e5165439e8a0c514e658831460c5039e7839e78e7a039e7d39e820c504ce544b2560c50831bc831bd33954e6544ce560c8e832b48323a0c8d39fd439fd4e7f739fd939fde0c8d0050c39fda0c8d5165039e7e0c504e654831420c4f39e6c39e6ce79d39e7139e760c4f4ce504b2520c4f831b8831b933944e6504ce520c8d832b0832360c8c39fc839fc8e7f439fcd39fd20c8c0050839fce0c8c5164c39e720c4f4e6508313e0c4e39e6039e60e79a39e6539e6a0c4e4ce4c4b24e0c4e831b4831b533934e64c4ce4e0c8c832ac832320c8b39fbc39fbce7f139fc139fc60c8b0050439fc20c8b5164839e660c4e4e64c8313a0c4d39e5439e54e79739e5939e5e0c4d4ce484b24a0c4d831b0831b133924e6484ce4a0c8b832a8)
  (.lf 0)) (.nd (.lf
  0x7ea4d2b8550a1450a152b68052387ea512b8650a1850a192b690523c7ea552b8750a1c50a1d2b6a052407ea592b8850a2050a212b6b052447ea5d2b8950a2450a252b6c052487ea612b8a50a2850a292b6d0524c7ea652b8b50a2c50a2d2b6e052507ea692b8c50a3050a312b6f052547ea6d2b8d50a3450a352b7005258051e92b634ad60051ed2b644ad64051f12b654ad68051f52b664ad6c051f92b674ad70051fd2b684ad74052012b694ad78052052b6a4ad7c052092b6b4ad800520d2b6c4ad84052112b6d4ad88052152b6e4ad8c052192b6f4ad900521d2b704ad94052212b514ad98052252b524ad9c052292b534ada00522d2b544ada4052312b554ada8052352b564adac052392b574adb00523d2b584adb4052412b594adb8052452b5a4adbc052492b5b4adc00524d2b5c4ad44052512b5d4ad48052552b5e4ad4c052592b5f4ad507ea712b8e50a3850a392b604ad547ea752b8f50a3c50a3d2b614ad587ea792b9050a4050a412b624ad5c5223dbf846fe8c52241bf856fe906fe15bf841a4c41a4c469331a4c91a4c9bf845623c1a4cdbf845423c6fe11bf831a4b81a4b869301a4bd1a4bdbf83562381a4c1bf835423852239bf836fe88)
  (.lf 0))) (.nd (.nd (.lf
  0x20b2dcde6032d05c829cde67381473799cde520b1820b1882c820b1d20b1dcde54ad1020b21cde5032cc5c825cde57381073795cde420b0c20b0c82c520b1120b15cde4032c820b11cde44ad0c5c821cde47380c73791cde320b0020b0082c220b0520b09cde3032c45c7f5cdd9737e020b05cde34ad085c81dcde3738087378dcde220af420af482bf20af920afdcde2032c05c819cde27380420af9cde24ad0473789cde120ae820ae882bc20aed20aedcde14ad0020af1cde1032bc5c815cde17380073785cde020adc20adc82b920ae120ae5cde0032b85c811cde0737fc20ae1cde04acfc73781cddf20ad020ad082b620ad520ad5cddf4acf820ad9cddf032b45c80dcddf737f87377dcdde20ac420ac482b320ac920acdcdde032b05c809cdde737f420ac9cdde4acf473779cddd20ab820ab882b020abd20abdcddd4acf020ac1cddd032ac5c805cddd737f073775cddc20aac20aac82ad20ab120ab5cddc032a85c801cddc737ec20ab1cddc4acec73771cddb20aa020aa082aa20aa520aa5cddb4ace820aa9cddb032a45c7fdcddb737e87376dcdda20a9420a9482a720a9920a9dcdda032a05c7f9cdda737e420a99cdda4ace473769cdd920a88)
  (.lf 0)) (.nd (.lf
  0x14d0db3555fa6859b35b2d96cbe06cbe16e9a5da6814a39b2d95da685da69b3556cdd014d09b35561a686cd55b35414cf814cf8534014cfd14cfdb35461a6414a3db2d95ba686cb65b2d814a2814a28528c14a2d14a2db2d85da645da65b3546cdcc14d01b3545fa646cd51b35314cec137b04dee137b5137b5b02949e34137b9b029013f05b949b0296c1206c0a5b028137a4137a44deb137a9137a9b02849e30137adb028013ec5b945b0286c11c6c0a1b02713798137984de81379d1379db02749e2c137a1b027013e85b941b0276c1186c09db0261378c1378c4de5137915b93db0266c11413795b026013e413791b02649e286c099b02513780137804de2137855b939b0256c11013785b02549e2413789b025013e06c095b024137745b935b0246c10c137744ddf1377913779b02449e201377db024013dc6c091b02313768137684ddc1376d1376db02349e1c5b931b0236c10813771b023013d86c08db0221375c1375c4dd91376113761b02249e1812efdaf1849d506bc61af1712eec12eec4bbd12ef153acc0342436c4436c50dd1437c55b861af176bcd85b91db01e6c0f45b92db0226c10413765b022013d46c089b021137505b929b0216c100)
  (.lf 0)))

def shaGateTree264 : BTree :=
  .nd (.nd (.nd (.lf
  0x538e9ecc17b3807b305ecc02e6d42e6d4b9b72e6d92e6ddecc0558e42e6d9ecc0578e4538e5ecc07b37c7b301ecbf2e6c82e6c8b9b42e6cd2e6d1ecbf558e02e6cdecbf578e0538e1ecbf7b3787b2fdecbe2e6bc2e6bcb9b12e6c12e6c5ecbe558dc2e6c1ecbe578dc538ddecbe7b3747b2f9ecbd2e6b02e6b0b9ae2e6b52e6b9ecbd558d82e6b5ecbd578d8538d9ecbd7b3707b2f5ecbc2e6a42e6a4b9ab2e6a92e6adecbc558d42e6a9ecbc578d4538d5ecbc7b36c7b2f1ecbb2e6982e698b9a82e69d2e6a1ecbb558d02e69decbb578d0538d1ecbb7b3687b2edecba2e68c2e68cb9a52e6912e695ecba558cc2e691ecba578cc538cdecba7b3647b2e9ecb92e6802e680b9a22e6852e689ecb9558c82e685ecb9578c8538c9ecb97b360538c55631578c47b2e55631578c5558c402a0494c47b3615632578c8558c802a1494c87b3655633578cc558cc02a2494cc7b3695634578d0558d002a3494d07b36d5635578d4558d402a4494d47b3715636578d8558d802a5494d87b3755637578dc558dc02a6494dc7b3795638578e0558e002a7494e07b37d5639578e4558e402a8494e47b381563a578e8558e802a9494e87b385563b578ec558ec02aa494ec)
  (.lf
  0x63cb52db2009845398d2de343284432850cc143385433852de34b88c6be057e2561894618952d993b6784b6ca10e7844184909e10e800c08844195e5200c04843a210e74908c4908d2425490914909610e7579485794800005993a59939aed86bbdc07d7c1f6107d8107d85909b57a2c4909210e700c048439d5e5100c014b6c55e5100c00579456e165d8586bdfd7e236188c6188d2d973b67063fe52e2400b4c5f8b92d693d61c3d61d2da93d69d5f8c12d6b3d6243d6252dab3d6a56bbdd6e175d85c6bb65aed812d7812d784b6012d7d12d81aed85b85c1305daf555f8606bd55af5413048130484c141304d13051af545f85c12d7daed85d85c5d85daf546bdcc6bb616e165d8591304daf546185c6bd517e16618595d8597e1661858618592daa3b63c63c212dab009683b6792dab4b6986bdcd7e176185c6185d2dab3b6404b6ad909b642e807d81909b00ce86426d909a07d706be017e2461890618912d983b67407d701f5e07d755f8bd2d6a3d6203d6212daa3d6a107d75909a00ce43b6752daa4b69407d79909a57a2863c1d2daa009644b6a9909a642e464269909907d6407d641f5b07d693b6712da94b690618d52da93b6b863c192da900960))
  (.nd (.lf
  0x67aed622002a3c42144080f0201045cf8082f0203c54800084f45df845df9179e45ef945ef8084f0203c20295cc9d5e79873275cc9c202842028480a3202892028dcc9c5c7940ce999e9d02a4067a759e9c0ce880ce8833a40ce8d0203d9eda67be467be54a20588800ce919e9c588800d0059edb5288467b6d9eda0cff00cff033fe0cff50cff59eda58880200ec00002018a201888038200dc200dc8038588815888080385a7f05a7f1cc9c732ec732ed71e55e7945c795ccda733e473369ccd9203e03c4bc0a0b028183c4c00a0c0281c3c4c40a0d028203c4c80a0e028243c5380a0a028143f2700a2d028343f2740a2e028386070c0a4d3f2f0607100a4e3f2f43f2f00a0d3f3713f2f40a0e3f3750ce8d9e9c02a3c028359e9a67ae467a719e9b0ce7c0ce7c33a10ce810ce859e9b5887c0ce819e9b02a38028399e9b67ae867a6d9e9a0ce700ce70339e0ce750ce799e9a588780ce759e9a02a3467a699e990ce6467ae9621f02a3867ae5621e02a343f26c0a2c02830607080a4c3f2ec3f2ec0a0c3f36d028319e9967ae067ae1621d02a304213c080d0200842140080e0200c421b8080c0200445cec082c0203045cf0082d0203445cf4082e02038)
  (.lf 0))) (.nd (.nd (.lf
  0x54fd00c43475c8475c91d92476c9476c80c430300c0300da68e69ab40fc65a68e5905069a39a68d0fc540fc543f170fc590fc59a68d5904c474c40c220300854fcc0c42475c4475c51d91476c5476c40c420300803009a68d69ab00fc5da68d5304c69a35a68c0fc480fc483f140fc4d0fc51a68c53048474c00c210300454fc80c41475c0475c11d90476c1476c00c410300403005a68c69aac69b214c2f590bc69b194c2d590b469b114c2b590ac69b094c29590a469b014c275909c69af94c255909469af14c235908c69ae94c215908469ae14c1f5907c69ad94c1d5907469ad14c1b5906c69acd4c1a5906869ac94c195906469ac54c185906069ac14c175905c69abd4c165905869ab94c155905469ab54c145905069ab14c135904c69aad4c1259048474bc0c200300054fc40c40475bc475bd1d8f476bd476bc0c4003000030014c11590440fc4da68c5904869a314c1159045699b1a66b0fc3c0fc3c3f110fc410fc45a66b590bc0fc41a66b04178764240e1e4b2bc03879a66b69a28699ada66a0fc300fc303f0e0fc350fc39a66a590b80fc35a66a04174764200e1d4b2b803875a66a69a24699a9a6690fc240fc243f0b0fc290fc2da669590b4)
  (.lf 0)) (.nd (.lf
  0x19999bdcf5c0441985000005a0ea5a0e9bdcf6f7b86f73dbdce199840a4e1976301ae865d8d97620a4d00a4d029360a4d56f29550275609c0a4d99762581286f2995028560a019429bd395ff5c5df597fd661f586f4e57fd661f5961f5806393bd3c6f5957fe461f9061f9006273bd743bd740639018d0197d465f3197c8197c865f3581295ffbc06793e4203e42006393e4a13e3a00659018e4018e5976265e0465e05604a01ae452051bc736f2486f24950145605018ed9bc74540546f1d1bc7318ec418ec463b318ec918ec9bc7356050560500479419c86f26d501d56074560740462419ec560a0046d41a18419ec0479011b841a180464011e4446a00499011e4540a804b9447a0447a11208448a1448a004b9011e4011e597a065efc65efd484a581280a64d97a15212c65e8597a00a6380a63829900a63d0a63d97a0581285812865f35a0e05a0e1bdcd6f7b0199846663199891998dbdce5c04019989bdce5e0406f739bdcd199781997866601997d1997dbdcd5e03c0a4d5976201ae46f58d7fe261f8861f8806253bd6c6f5917fe361f8c61f8c06263bd7061fd006373bdb461fd406383bdb83bd6c0637018c83bd700638018cc19981bdcd5c03c)
  (.lf 0)))

def shaGateTree265 : BTree :=
  .nd (.nd (.nd (.lf
  0x29c09e2415738053381e2417898078905e24029bf829bf8a70029bfd29c01e2405537c29bfde2405737c5337de2407897c78901e23f29bec29beca6fd29bf129bf5e23f5537829bf1e23f5737853379e23f78978788fde23e29be029be0a6fa29be529be9e23e5537429be5e23e5737453375e23e78974788f9e23d29bd429bd4a6f729bd929bdde23d5537029bd9e23d5737053371e23d78970788f5e23c29bc829bc8a6f429bcd29bd1e23c5536c29bcde23c5736c5336de23c7896c788f1e23b29bbc29bbca6f129bc129bc5e23b5536829bc1e23b5736853369e23b78968788ede23a29bb029bb0a6ee29bb529bb9e23a5536429bb5e23a5736453365e23a78964788e9e23929ba429ba4a6eb29ba929bade2395536029ba9e2395736053361e23978960788e5e23829b9829b98a6e829b9d29ba1e2385535c29b9de2385735c5335de2387895c788e1e23729b8c29b8ca6e529b9129b95e2375535829b91e2375735853359e23778958788dde23629b8029b80a6e229b8529b89e2365535429b85e2365735453355e23678954788d9e23529b7429b74a6df29b7929b7de2355535029b79e2355735053351e23578950788d5e23429b6829b68a6dc29b6d)
  (.lf 0)) (.nd (.lf
  0x1c90c72331c8c866ba1612d01e7066c99492d584b41c8c87233584b5584b472335a4441c8cc72421c8bc1c8bc72311c8c11c8c400001c90a1c8c072425a4401c908722e1c8b41c8b4722e584ad584ac722e5a43c1c8b8722c1c8ac1c8ac722c584a966c8d492a584a866b95612a01e64584a8722c5a4385a439c4bc7136c1caa9c4c15e3d05a44dc4c17138071305c4c01ca981ca9872a81ca9d1ca9dc4c05e3cc1c94000005a44a5a449c4c07137c1caa1c4c05c3cc71301c4bf1ca8c1ca8c72a51ca911ca91c4bf5e3c85a445c4bf713781ca95c4bf5c3c8712fdc4be1ca801ca8072a21ca851ca89c4be5c3c41c93c00005a4425a441c4be713741ca85c4be5e3c4712f9c4bd1ca741ca74729f1ca791ca79c4bd5e3c01ca7dc4bd5c3c05a43dc4bd71370712f5c4bc1ca681ca68729c1ca6d1ca6dc4bc5e3bc1ca71c4bc5c3bc712f1c4bb1ca5c1ca5c72991ca611ca61c4bb5e3b81ca65c4bb5c3b81c8b0722a1c8a41c8a4722a584a566c894929584a466b91612901e60584a4722a5a4341c8a872281c89c1c89c7228584a166c854928584a066c8149275849c66b8d612801e5c584a072285a43066b89612701e581c8a072261c8941c89472265849d)
  (.lf 0))) (.nd (.nd (.lf
  0x235d1d3ca4b00423475d38d5eb1c74e35d38c23464234648d1b234692346dd38c5cb1823310000074de674de5d378232fc232fc8cc12330123301d3785ab6858c05d3782339c2339c00005ab6a5ab69d38c74eac74ead72c65eb185cb19d3ca74fa474fa40d704b0044b00608ba823648236533014e4044e406093682554824da093538cb438cb4e32f38cb938cbe09354b38038cba09354fc00389fa08ba4cc04822ea08b9389e4389e4e27b389e9389ea08b94e4000e249a20102dc068805a2000e2380e23838900e23d0e241a20058c00033bda2006887c6887d630002dbc235d5d3ca035c074f29d3c9235c0235c08d72235c5235c5d3c94b00023469d38c5eb1874e31d38b23458234588d182345d23461d38b5cb1423304000074de274de08cbe232f4232f48cbe58c0158c008cbe5ab645ab65d38b74ea874ea972c55eb145cb15d3c974fa074fa00d6f4b0004b00208b9823608236133004e4004e402093582550824d6093438ca838ca8e32c38cad38cb209344b37c38cae09344fbfc389ee08b94cc00822e608b8389d8389d8e278389dd389de08b84e3fc0e23da20002dbc68801a1ff0e22c0e22c388d0e2310e235a1ff58bfc033b9a1ff68878)
  (.lf 0)) (.nd (.lf
  0x4d369f1357c5507c4d5f1343012830128c04c3012d3012df1344eb645bbd5b52c6d52c6d4b1b52b15af415af456bf15af915af9b52b4a0bc5bbd1b52b6d52815afdb52b016786d4adb52a15ae84d365f1347c54c7c54d28b94eb6415ae856bc15aed15af1b52a016745bbcdb52a6d52415aedb52a4a0b86d4a9b52915adc15adc56b915ae115ae1b5294a0b45bbc9b5296d52015ae5b529016706d4a5b52815ad015ad056b615ad515ad9b5280166c5bbc5b5286d51c15ad5b5284a0b06d4a1b52715ac415ac456b315ac915ac9b5274a0ac15acdb527016685bbc1b5276d5186d49db52615ab815ab856b015abd5bbbdb5266d51430131f1344a2e47c4d1f1333011c3011cc049301214d35df1327c5447c54528b74eb5c4d361f1337c54830121f1334eb6030125f1334a2e07c4cdf1323011030110c0463011530115f1324eb5c4eb5d2821060f84eb652823061007c56928c04eb804eb81282a0611c060f9282a4a0a006101282c4a0a86d51405994a0a815abdb5264a0a84a0a9f23d7c9707c55128ba4eb684eb692824061047c55528bb4eb6c4eb6d2825061087c55928bc4eb704eb7128260610c7c55d28bd4eb744eb752827061107c56128be4eb78)
  (.lf 0)))

def shaGateTree266 : BTree :=
  .nd (.nd (.nd (.lf
  0x488f8118f0453c488fc11900454048900119104544489041192045484890811930454c4890c11940455048910119504554489141196045584891811970455c4891c1198045604892011990456448924119a0456848928119b0456c4892c119c0457048930119d0457448934119e0457848938119f0457c5d3d5e4c87939c7939c0f9f0037c0457dac7a6b2646b2654db0596c003e7dac3c6b16c6b16d65b00477c596c1e8795b5d45b5d5e8987a2dc7a2dd75755f5d45f5d5e9147a4cc7a451e9132cc882cc88b3242cc8d2cc91e913615d02cc8de913635d07a261e8972c9b82c9b8b2702c9bd2c9bde8975f5d07a1e5e8782c8142c814b2072c8192c819e8785b5d079321e4c72af242af24abcb2af292af2de4c703e785d3d1e4c779398793980f9e003786b1e9ac7911f6411f6447db11f6911f69ac79596bc04579ac796b2606b2614daf596bc6b0f1ac3b11dfc11dfc478111e0111e05ac3b596bc03e79ac3b6b1686b16965af04778596bde8782c8582c85800005b5d25b5d1e8977a2d87a2d975745f5d05f5d1e9137a4c87a44de9122cc7c2cc7cb3212cc812cc85e912615cc2cc81e912635cc2c9c1e8975d5d07a25de8962c9ac2c9acb26d2c9b1)
  (.lf 0)) (.nd (.lf
  0x3eee009893ef613eee4098a3ef653eee8098b3ef693eeec098c3ef6d3eef4098e3ef753eef8098f3ef793eefc09903ef7d3ef0009913ef81026459cae673340c3659cae02044672b99cad0c3540c35430d70c3590c35d9cad58684026419cad673300c3599cad02040672b59cac0c3480263d9cac6732c0c34830d40c34d0c34d9cac0203c0c3519cac58680672b19cab0c33c0c33c30d10c3410c3459cab5867c0c3419cab02038026399cab67328672ad9caa0c3300c33030ce0c3350c3399caa586780c3359caa02034672a99ca90c3240c32430cb0c3290c3299ca9020300c32d9ca958674026319ca967320672a59ca80c3180c31830c80c31d0262d9ca86731c0c3219ca8586700c31d9ca80202c672a19ca70c30c0c30c30c50c3110c3119ca702028026299ca7673180c3159ca75866c6729d9ca60c3000c30030c20c3050c3099ca658668026259ca6673140c3059ca602024672999ca50c2f40c2f430bf0c2f90c2f99ca5020200c2fd9ca558664026219ca567310672959ca40c2e83ee5809a70261c604f409c73eed83eed809873ef590c2e830bc0c2ed0c2f19ca4586600c2ed9ca40201c0261d9ca46730c672919ca30c2dc0c2dc30b90c2e1)
  (.lf 0))) (.nd (.nd (.lf
  0x5ecddd806760945ecd9833662cd876019833662cd962cd80d993cabc76095833762cdc62cdc0d9a3cac076099833862ce062ce00d9b3cac47609d833962ce462ce40d9c3cac8760a1833a62ce862ce80d9d3cacc760a5833b62cec62cec0d9e3cad0760a9833c62cf062cf00d9f3cad4760ad833d62cf462cf40d803cad8760b1833e62cf862cf80d813cadc760b5833f62cfc62cfc0d823cae0760b9834062d0062d000d833cae4760bd834162d0462d040d843cae8760c1834262d0862d080d853caec760c5834362d0c62d0c0d863caf0760c9834462d1062d100d873caf4760cd834562d1462d140d883caf8760d1834662d1862d180d893cafc760d5834762d1c62d1c0d8a3cb00760d9834862d2062d200d8b3cb04760dd834962d2462d240d8c3cb08760e1834a62d2862d280d8d3cb0c760e5834b62d2c62d2c0d8e3cb10760e9834c62d3062d300d8f3cb14760ed834d62d3462d340d903cb18760f1834e62d3862d380d913cb1c760f5834f62d3c62d3c0d923cb20760f9835062d4062d400d933cb24760fd835162d4462d440d943cb2876101835262d4862d480d953cb2c76105835362d4c62d4c0d963cb3076109835462d5062d500d973cb34)
  (.lf 0)) (.nd (.lf
  0x17e445f9317e4917e49ba014a2f817e4dba01018b45be0dba016e8806e805ba0017e3817e385f9017e3d17e3dba004a2f417e41ba00018b05be09ba006e87c6e801b9ff17e2c17e2c5f8d17e3117e35b9ff018ac17e31b9ff4a2f05be05b9ff6e8786e7fdb9fe17e2017e205f8a17e2517e25b9fe4a2ec6e77d6f805de005be01b9fe6e87417e29b9fe018a86e7f9b9fd17e1417e145f8717e1917e1db9fd018a4098b5955f57edc3df5405c6016985fd7005e63dfd43dfd405a63e05544054040600f9853e5c0426441544415510754425544254042600f9800f99959d656f0656f147b757edc01699955f655f8655f95fb70119809a29959e51ee065679959d09a1409a14268709a1909a19959d57edc17b04000017bee17bec5ebe17af417af45ebe57edd57edc5ebe59eac17c99b9bd5ddf46e6f5b9bc17c8817c885f2417c8d17c91b9bc5bdf059eadb9bc6e76c6e76d6f7c5ddf05bdf1b9fa6e86417e19b9fd4a2e86e7756f7e5ddf85bdf9b9fc6e86c6e7796f7f5ddfc5bdfdb9fd6e8706e7f5b9fc17e0817e085f8417e0d17e11b9fc018a017e0db9fc4a2e46e7f1b9fb17dfc17dfc5f8117e0117e01b9fb4a2e017e05b9fb0189c6e7edb9fa17df0)
  (.lf 0)))

def shaGateTree267 : BTree :=
  .nd (.nd (.nd (.lf
  0x4d07a0f7f83e7883dfe0f7e3b1203b120ec4a3b1253b12a0f7e007303b1260f7e518743afca0f414e87883d060f403afb83afb8ebf03afbd3afc20f404d07427595dcb903a34772e5dcb827580275809d622758527585dcb84b4745cf89dcb87735c7735c0e8c4b4744b4760f4083d7c83d7d341d4e8744d0760f7e83e7483dfa0f7d3b1143b114ec473b1193b11e0f7d0072c3b11a0f7d518703afbe0f404e87483d020f3f3afac3afacebed3afb13afb60f3f4d07027589dcb803a30772e1dcb727574275749d5f2757927579dcb74b4705cf85dcb777358773580e8b4b4704b4720f3f83d7883d79341c4e8704d0720f7d83e7083df60f7c3b1083b108ec443b10d3b1120f7c007283b10e0f7c5186c3afb20f3f4e87083cfe0f3e3afa03afa0ebea3afa53afaa0f3e4d06c2757ddcb703a2c772dddcb627568275689d5c2756d2756ddcb64b46c5cf81dcb677354773540e8a4b46c4b46e0f3e83d7483d75341b4e86c4d06e0f7c83e6c83df20f7b3b0fc3b0fcec413b1013b1060f7b007243b1020f7b518683afa60f3e4e86c83cfa0f3d3af943af94ebe73af993af9e0f3d4d06827571dcb603a28772d9dcb52755c2755c9d592756127561dcb54b468)
  (.lf 0)) (.nd (.lf
  0x7ec4d30a94daa44c2a5fb327ed4433b99fb324aea47ecc9fb3133b8433b84cee333b897ec4930a84daa04c2a1fb317ed4033b8dfb314aea033b89fb3150aa07ecc5fb3033b7833b78cee033b7d33b81fb304ae9c33b7dfb3050a9c7ec4530a74da9c4c29dfb307ed3c7ecc1fb2f33b6c33b6ccedd33b7133b75fb2f4ae9833b71fb2f50a984c299fb2f7ed387ecbdfb2e33b604c295fb2e7ed3433b60ceda33b6533b69fb2e4ae9433b65fb2e50a947ecb9fb2d33b5433b54ced733b5933b5dfb2d4ae904c291fb2d7ed3033b59fb2d50a907ecb5fb2c33b4833b48ced433b4d33b4dfb2c50a8c7ec2d30a14da8433b51fb2c4ae8c4c28dfb2c7ed2c7ecb1fb2b33b3c33b3cced133b4133b45fb2b4ae887ec3130a24da8833b41fb2b50a884c289fb2b7ed287ecadfb2a33b3033b30cece33b3533b39fb2a4ae844c285fb2a7ed2433b35fb2a50a847eca9fb2933b247ec2930a04da8033b24cecb33b294c281fb297ed2033b29fb2950a8033b2dfb294ae807eca5fb2833b1833b18cec833b1d33b1dfb2850a7c7ec25309f4da7c4c27dfb287ed1c33b21fb284ae7c7eca1fb2733b0c33b0ccec533b1133b15fb274ae7833b11fb2750a787ec15309b4da6c)
  (.lf 0))) (.nd (.nd (.lf
  0xd7e5a043529d44614c0a8402190549540aa44624c4624d18b34634d4634c0aa40219002191a043681880d7e1a043589d46810da0420d7d00d7d035f60d7d50d7d5a042589d0461480a830218c549500aa3462484624918b246349463480aa30218c0218da042681840d7d9a042529d068109a0410d7c40d7c435f30d7c90d7cda041529cc461440a82021885494c0aa2462444624518b146345463440aa20218802189a041681800d7c9a041589cc68105a0400d7b80d7b835f00d7bd0d7bda040589c86818d4a76589d8681894a75589d4681854a74589d0681814a73589cc461400a8102184549480aa1462404624118b046341463400aa10218402185a0406817c6817d4a72589c84613c0a8002180549440aa04623c4623d18af4633d4633c0aa002180021814a71589c40d7c1a040529c8681014a71589c50d69da00802b9c68021a0070d68c0d68c35a50d6910d695a007589dc0d691a00702b9802999a007680986801da0060d6800d68035a20d6850d689a006589d80d685a00602b9402995a0066809468019a0050d6740d674359f0d6790d67da005589d40d679a00502b9002991a0056809068015a0040d6680d668359c0d66d0d671a004589d0)
  (.lf 0)) (.nd (.lf
  0x61b5405183b9383b8f005180144c6c4f0051849ea43da9c0538014605fb3805583db1c3db1c05183db9d01461930564c9008b79930500f6064c15930408b6808b6822dc08b6d08b6d930400f5c08b71930457ca06d1f97ec261b0861b0805053b8ec61b5005173b9343b8ec0517014486c4ec051749ea03da9805370145c5fb3405573db183db1805173db990145d930464c8c64c11930308b5c6d1ed7ebf61afc61afc05023b8e061b4405143b9283b8e005140143c6c4e0051449e943da8c0534014505fb2805543db0c3db0c05143db8d01451930164c8008b5c22d908b6108b65930357c9c6d1f17ec061b0061b0005033b8e46d1f57ec161b0461b0405043b8e861b4805153b92c61b4c05163b9303b8e40515014403b8e80516014446c4e8051649e9c3da940536014585fb3005563db143db1405163db9501459930364c8808b61930300f5864c0d930208b5008b5022d608b556c4e4051549e983da900535014545fb2c05553db103db1005153db9101455930264c8408b59930257c9808b55930200f5464c09930108b4408b4422d308b4908b49930100f5008b4d930157c9464c05930008b3808b3822d008b3d08b41930057c906d1e97ebe61af8)
  (.lf 0)))

def shaGateTree268 : BTree :=
  .nd (.nd (.nd (.lf
  0x7aa65ea982d8002d800b6022d8052d809ea98616c82d805ea98636c85f6c9ea987aadc7aa61ea972d7f42d7f4b5ff2d7f92d7fdea97616c42d7f9ea97636c45f6c5ea977aad87aa5dea962d7e82d7e8b5fc2d7ed2d7f1ea96616c02d7edea96636c05f6c1ea967aad47aa59ea952d7dc2d7dcb5f92d7e12d7e5ea95616bc2d7e1ea95636bc5f6bdea957aad07aa55ea942d7d02d7d0b5f62d7d52d7d9ea94616b82d7d5ea94636b85f6b9ea947aacc7aa51ea932d7c42d7c4b5f32d7c92d7cdea93616b42d7c9ea93636b45f6b5ea937aac87aa4dea922d7b82d7b8b5f02d7bd2d7c1ea92616b02d7bdea92636b05f6b1ea927aac47aa49ea912d7ac2d7acb5ed2d7b12d7b5ea91616ac2d7b1ea91636ac5f6adea917aac07aa45ea902d7a02d7a0b5ea2d7a52d7a9ea90616a82d7a5ea90636a85f6a9ea907aabc7aa41ea8f2d7942d794b5e72d7992d79dea8f616a42d799ea8f636a45f6a5ea8f7aab87aa3dea8e2d7882d788b5e42d78d2d791ea8e616a02d78dea8e636a05f6a1ea8e7aab47aa39ea8d2d77c2d77cb5e12d7812d785ea8d6169c2d781ea8d6369c5f69dea8d7aab07aa35ea8c2d7702d770b5de2d7752d779ea8c616982d775ea8c63698)
  (.lf 0)) (.nd (.lf
  0x45c04081201f4845c08081301f4c45c0c081401f5045c10081501f5445c14081601f5845c18081701f5c45c1c081801f6045c20081901f6445c24081a01f6845c28081b01f6c45c2c081c01f7045c30081d01f7445c34081e01f7845c38081f01f7c01f7d9df267844677c99df10cb040cb0432c30cb090cb0d9df1527bc0cb099df1587bc01f799df167840677c59df00caf80caf832c00cafd0cb019df0527b80cafd9df0587b801f759df06783c677c19def0caec0caec32bd0caf10caf59def527b40caf19def587b401f719def67838677bd9dee0cae00cae032ba0cae50cae99dee527b00cae59dee587b001f6d9dee67834677b99ded0cad40cad432b70cad90cadd9ded527ac0cad99ded587ac01f699ded67830677b59dec0cac80cac832b40cacd0cad19dec527a80cacd9dec587a801f659dec6782c677b19deb0cabc0cabc32b10cac10cac59deb527a40cac19deb587a401f619deb67828677ad9dea0cab00cab032ae0cab50cab99dea527a00cab59dea587a001f5d9dea67824677a99de90caa40caa432ab0caa90caad9de95279c0caa99de95879c01f599de967820677a59de80ca980ca9832a80ca9d0caa19de8527980ca9d9de858798)
  (.lf 0))) (.nd (.nd (.lf
  0x54f1c0c164731454f200c174731854f240c184731c54f280c19473204730d1ce34740d473111ce447411473151ce547415473191ce6474194731d1ce74741d473211ce8474214740c0c1402f50474100c1502f54474140c1602f58474180c1702f5c4741c0c1802f60474200c1902f6402f65a5ac6972c696b1a5ab0f7bc0f7bc3df10f7c10f7c1a5ab58fa40f7c5a5ab52fa402f61a5ab69728696ada5aa0f7b002f5da5aa697240f7b03dee0f7b50f7b5a5aa58fa00f7b9a5aa52fa0696a9a5a90f7a40f7a43deb0f7a90f7a9a5a958f9c0f7ada5a952f9c02f59a5a969720696a5a5a80f7980f7983de80f79d0f79da5a858f980f7a1a5a852f9802f55a5a86971c696a1a5a70f78c0f78c3de50f7910f795a5a752f940f791a5a758f9402f51a5a7697186969da5a60f7800f7803de20f7850f785a5a658f904283c0bcd02f08471f00bed02f3454ef80c0d472f0472f11cdc473f1473f00c0d02f3402f35a5a0696fc428540bd302f20472080bf302f4c54f100c1347308473091ce247409474080c1302f4c02f4da5a669714428400bce02f0c428440bcf02f10428480bd002f144284c0bd102f18428500bd202f1c428b40bcb02f00428b80bcc02f04)
  (.lf 0)) (.nd (.lf
  0x9e9427a709e9909e9d965d57ff457ff4628518a5018950000018a1618a1462511894018940625157ff13bc3c05eb017983e168060b017ac5fe84062b3e1e83e1e805eb3e269017ad965c659ec659ed5ffc012ac0a005969b51ff465a6d969a09ff009ff027fe09ff509ff5969a57ff009e99965d012b065975965c09e885a009bbd56efd06ef55bbd418bd018bd062f618bd518bd5bbd45df5018bd9bbd45bf5059ff9bbd16efc05a005bbd46efcc18a7000005a0026ef51bbd318bc418bc462f318bc918bcdbbd35bf4c5a001bbd36efc818bc9bbd35df4c6ef4dbbd218bb818bb862f018bbd18bbdbbd25df4818bc1bbd25bf4859ffdbbd26efc46ef49bbd118bac18bac62ed18bb118bb1bbd15df4418bb5bbd15bf446ef45bbd018ba018ba062ea18ba518ba9bbd05bf4018a64000059fee18ba5bbd05df4018a6c000059ff659ff5bbd06efbc6ef41bbcf18b9418b9462e718b9918b9dbbcf5bf3c18b99bbcf5df3c18a68000059ff259fedbbce6efb459ff1bbcf6efb86ef3dbbce18b8818b8862e418b8d18b8dbbce5df3818b91bbce5bf386ef39bbcd18b7c59fddbbca6efa418b7c62e118b8118b81bbcd5df3418b85bbcd5bf3459fe9bbcd6efb0)
  (.lf 0)))

def shaGateTree269 : BTree :=
  .nd (.nd (.nd (.lf
  0x551d4108447bcc551d8108547bd0551dc108647bd4551e0108747bd8551e4108847bdc551e8108947be0551ec108a47be4551f0108b47be8551f4108c47bec551f8108d47bf0551fc108e47bf455200108f47bf855204109047bfc55208109147c0047bbd1f0f47cbd47bc11f1047cc147bc51f1147cc547bc91f1247cc947bcd1f1347ccd47bd11f1447cd147bd51f1547cd547bd91f1647cd947bdd1f1747cdd47be11f1847ce147be51f1947ce547be91f1a47ce947bed1f1b47ced47bf11f1c47cf147bf51f1d47cf547bf91f1e47cf947bfd1f1f47cfd47c011f2047d0147cbc10800410047cc010810410447cc410820410847cc810830410c47ccc10840411047cd010850411447cd410860411847cd810870411c47cdc10880412047ce010890412447ce4108a0412847ce8108b0412c47cec108c0413047cf0108d0413447cf4108e0413847cf8108f0413c47cfc10900414047d0010910414404145a88c6a2ac6a231a88b1083c1083c42111084110845a88b5328410841a88b5928404141a88b6a2a86a22da88a1083010830420e1083510839a88a5328010835a88a592800413da88a6a2a46a229a8891082410824420b108291082da8895327c)
  (.lf 0)) (.nd (.lf
  0x5c2b1c30770c981bd95c307025581bd91c3074a79c70c1dc3061bd801bd806f621bd8570cbc095f4a7c03e83c08e0023003e84008e1023043e84408e202308601d809003e8bc601dc09013e8c0601e009023e8c43e8bc08c03e93d3e8c008c13e9413e8c408c23e9451bd89c306025541bd85c3064a79870b9d70ab5e2ac5c2adc30670c9470c19c3051bd741bd746f5f1bd791bd7dc305025501bd79c3054a79470b9970aa5e2a85c2a9c30570c9070c15c3041bd681bd686f5c1bd6d1bd6dc3044a79070b9570a95e2a45c2a5c30470c8c1bd71c3040254c70c11c3031bd5c1bd5c6f591bd611bd65c303025481bd61c3034a78c70b9170a85e2a05c2a1c30370c8870c0dc3021bd501bd506f561bd5570b8d70a75e29c5c29dc30270c841bd59c302025441bd55c3024a78870c09c3011bd441bd446f531bd491bd4dc301025401bd49c3014a78470b8970a65e2985c299c30170c8070c05c3001bd381bd386f501bd3d70b8570a55e2945c295c30070c7c1bd41c3000253c1bd3dc3004a78070c01c2ff1bd2c1bd2c6f4d1bd311bd35c2ff025381bd31c2ff4a77c70b8170a45e2905c291c2ff70c7870bfdc2fe1bd201bd206f4a1bd2570b7d70a35e28c)
  (.lf 0))) (.nd (.nd (.lf
  0x22649d1955ca285aa85d195746d0746d1728a5ea285ca29d1d3747c8747c80d344af144af16074a81da481da532c54e3144e31607c681f9481f1a07c53847438474e11f384793847e07c54b2903847a07c54fb10381ba074a4cb1481d2a0749381a4381a4e06b381a9381aa07494e3102247c891d2247022470891d58b11685a54ac458b10684ad62c402ccc58b10891d5aa80227b1d1d3034d07474dd1d22279c2279c89e9227a1227a1d1d24af1022645d1955ea2874655d1942263422634898f226392263dd1945ca245aa81d194746cc746cd72895ea245ca25d1d2747c4747c40d334af104af12074981da081da132c44e3104e31207c581f9081f1607c43846838468e11c3846d3847207c44b28c3846e07c44fb0c381ae07494cb1081d2607483819838198e0683819d3819e07484e30c685a14ac358b0c684a962c302cc8227a5d1d2034cc74749d1d1227902279089e62279522795d1d14af0c22639d1945ea2474651d1932262822628898c2262d22631d1935ca2022474891b2246822468891b58b0d58b0c891b5aa7c5aa7dd193746c8746c972885ea205ca21d1d1747c0747c00d324af0c4af0e074881d9c81d9d32c34e30c4e30e07c481f8c)
  (.lf 0)) (.nd (.lf
  0x166c8000059d6e167d1b6d45bcac59d6db6d46dbcc6db51b6d3167bc167bc59f1167c159d69b6d36dbc8167c1b6d35dca8167c5b6d35bca86db4db6d2167b0167b059ee167b5167b5b6d25dca4166c4000059d6659d65b6d26dbc4167b9b6d25bca46db49b6d1167a4167a459eb167a9166c0000059d62167adb6d15bca0167a9b6d15dca059d61b6d16dbc06db45b6d0167981679859e81679d1679db6d05dc9c59d59b6cf6dbb8166bc000059d5e59d5db6d06dbbc167a1b6d05bc9c6db41b6cf1678c1678c59e51679116791b6cf5dc9816795b6cf5bc986db3db6ce167801678059e21678516789b6ce5bc9459d55b6ce6dbb416785b6ce5dc946db39b6cd167741677459df1677916779b6cd5dc901677db6cd5bc90166b8000059d5259d51b6cd6dbb06db35b6cc167681676859dc1676d166b4000059d4e59d4db6cc6dbac1676db6cc5dc8c16771b6cc5bc8c6db31b6cb1675c1675c59d91676159d49b6cb6dba816765b6cb5bc8816761b6cb5dc886db2db6ca167501675059d61675516759b6ca5bc8416755b6ca5dc84166b0000059d4659d45b6ca6dba46db29b6c916744166ac000059d4259d41b6c96dba01674459d31674916749b6c95dc80)
  (.lf 0)))

def shaGateTree270 : BTree :=
  .nd (.nd (.nd (.lf
  0x5f409e5eb79828797ade5ea2b6b02b6b0adae2b6b52b6b9e5ea614042b6b5e5ea634042b3f5e56f5d408795bde56e2b3e02b3e0acfa2b3e52b3e5e56e5f4042b250acc32b2402b240ac922b2452b244acc35b40c29915e1c2001b078709e1c12990429904a643299092990de1c103cac5d205e1c178780787800f2b001ac11625aaf3534f46abcdaaf2116101161045861161511615aaf2594f0043adaaf26ac446ac454d3c594f0114b9aab5045b06aad5aab4114a8114a8452c114ad114b1aab4594f003cadaab46ab4c6ab4d653c045ac594f0acc32b3402b34000005b40e5b40de56e796347963575015f4045f405e5ea79824797a9e5e92b6a42b6a4adab2b6a92b6ade5e9614002b6a9e5e9634002b3e9e56e5d404795b9e56d2b3d42b3d4acf72b3d92b3d9e56d5f4002b24800002b30e2b30cac8f2b2382b238ac8f594ed5d201e1c07877c7877c0f2a001a829909e1c1001ac78705e1c0298f8298f8a640298fd29901e1c003ca803ca9aab36ab486ab49653b045a811619aaf2534f06abc9aaf1116041160445831160911609aaf1594ec043a9aaf16ac406ac414d3b594ec114adaab4045ac6aad1aab31149c1149c4529114a1114a5aab3594ec)
  (.lf 0)) (.nd (.lf
  0x1ce1073861ce151ce15c56a564f81ce19c56a544f8524f5c56971620524f9c56a71624715a9c5691ce041ce0473831ce091ce09c569564f41ce0dc569544f4715a5c5681cdf81cdf873801cdfd1cdfdc568564f01ce01c568544f0524f1c5687161c715a1c5671cdec1cdec737d1cdf11cdf1c567564ec524edc567716181cdf5c567544ec7159dc5661cde01cde0737a1cde5524e9c5667161471615513a564e81cde5c566564e8564e8075f41e607163951435650c5650c074841e8471665514e5653856538075341eb041e84075f01d5041eb0074a01d7c45438077f01d7c54540079f4553845539156e4563945638079f01d7c66f8d617001f7c01d7d9c0267084670854970585c0585c1c6af1d7341d73400005a55266f89616f01f7871abc75c11d7001d70075c1585bd71669514f5653c5453c079e455341cde9c566544e871599c5651cdd41cdd473771cdd91cdd9c565564e4524e5c56571610716115139564e4564e4075e41e5c7163551425650856508074741e8071661514d5653456534075241eac41e80075e01d4c41eac074901d7845535156d4563545634079e01d7845434077e01d7801d799c016708067081496f585bc670099c010bfc4)
  (.lf 0))) (.nd (.nd (.lf
  0x3925a0a2d4e50068c5d634002ebc243b5d5d5036c075755d5d4243a0243a090ea243a5243a5d5d44b10024249d5975ec187565dd596242382423890902423d24241d5965cc14240cc9031240c0240c0903158d0158d0090315ac605ac61d596756d4756d573055ec145cc15d5d4757cc757cc0daf4b1004b1020a2d829308293133404e5004e5020aa982b2082aa60aa83951839518e5483951d395220aa84b47c3951e0aa84fcfc3925e0a2d4cd00828b60a2c3924839248e4943924d3924e0a2c4e4fc68c59633f02eb8243a9d5d4036bc75751d5d3243942439490e72439924399d5d34b0fc2423dd5965ec1475659d5952422c2422c908d2423124235d5955cc10240c5d57f240b4240b4902f240b9240b9d57f5ac5c58cfdd57f2416c2416c00005ac5e5ac5dd595756d0756d173045ec105cc11d5d3757c8757c80dae4b0fc4b0fe0a2c8292c8292d333f4e4fc4e4fe0aa882b1c82aa20aa73950c3950ce54539511395160aa74b478395120aa74fcf8392520a2c4ccfc828b20a2b3923c3923ce49139241392420a2b4e4f868c55633e02eb42439dd5d3036b87574dd5d2243882438890e42438d2438dd5d24b0f824231d5955ec1075655d59424220)
  (.lf 0)) (.nd (.lf
  0x3dd3c0580015805fc5805a03ddbc3ddbc05603de3d015815f71010800944d94a151dcc6528594a0094380943825100943d0943d94a057dc80944194a051dc865281477157dc557dc4000059d9a16e7db7be5dcf46def9b7bd16e6c16e6c5b9d16e7116e71b7bd5dcf016e75b7bd5bcf016df8000059db259db1b7bd6df706def5b7bc16e6016e605b9a16e6516e69b7bc5bcec59dadb7bc6df6c16fd45bf716fd916fddb7fb0179816fd9b7fb4a1dc6df716f3c5dcf05bcf1b7fb6e0686dfedb7fa16fc816fc85bf416fcd16fd1b7fa0179416fcdb7fa4a1d86df6d6f3b5dcec5bcedb7fa6e0646dfe9b7f916fbc16fbc5bf116fc116fc5b7f90179059da9b7bb6df6816e65b7bc5dcec6def1b7bb16e5416e545b9716e596df696f3a5dce816e5db7bb5bce85bce9b7f96e06016fc1b7f94a1d46dfe5b7f816fb016e59b7bb5dce86deedb7ba16e4816df4000059da659da5b7ba6df6416e485b9416e4d16e51b7ba5bce46df656f395dce45bce5b7f86e05c16fb05bee16fb516fb5b7f84a1d016fb9b7f80178c6dfe1b7f716fa416fa45beb16fa97ce4529294ed244ed25287c4a1e87ce49292a4ed284ed29287d4a1ec7ce4d292b4ed2c4ed2d287e4a1f0)
  (.lf 0)))

def shaGateTree271 : BTree :=
  .nd (.nd (.nd (.lf
  0x59fc002a000fc05a00002b0008005a04002c0008405a08002d0008805a0c002e0008c81bd8005d512b8512b8002f0009081bdc005e512bc512bc00300009481be0005f512c0512c00031000984cb42079381ec881e4e07923839038390e0e6383953839a0792001f83839607925133c4cb3e079281ec481e4a07913838438384e0e3383893838e0791001f43838a0791513384cb3a079181ec081e4607903837838378e0e03837d383820790001f03837e0790513344cb36079081ebc81e42078f3836c3836ce0dd3837138376078f001ec38372078f513304cb32078f81eb881e3e078e3836038360e0da383653836a078e001e838366078e5132c4cb2e078e81eb481e3a078d3835438354e0d7383593835e078d001e43835a078d513284cb2a078d81eb081e36078c3834838348e0d43834d38352078c001e03834e078c513244cb26078c81eac81e32078b3833c3833ce0d13834138346078b001dc38342078b513204cb22078b81ea881e2e078a3833038330e0ce383353833a078a001d838336078a5131c4cb1e078a81ea481e2a07893832438324e0cb383293832e0789001d43832a0789513184cb1a078981ea081e2607883831838318e0c83831d)
  (.lf 0)) (.nd (.lf
  0x6f9f9be7d19d3819d38675019d3d19d3dbe7d5618052181be7d6fa7019d41be7d541806f9f5be7c19d2c19d2c674d19d3119d31be7c5617c52179be7b6fa685217dbe7c6fa6c19d35be7c5417c6f9f1be7b19d2019d20674a19d2519d25be7b5617819d29be7b541786f9edbe7a19d1419d14674719d1919d1dbe7a5417419d19be7a561746f9e9be7919d0819d08674419d0d19d0dbe795617052171be796fa6019d11be79541706f9e5be7819cfc19cfc674119d011a2a868ac1a2ad1a2adbf37620941a2b1bf37600945e095bf376fd586fcddbf361a29c1a29c68a91a2a11a2a1bf36620901a2a5bf36600905e091bf366fd546fcd9bf351a2901a29068a61a2956faa9506e561b852169be776fa586fa59505a561686fab15070561c019d01be785616c5216dbe786fa5c19d05be785416c6f9e1be7719cf019cf0673e19cf519cf5be77561685616804bf41ae06fa7d50635618c5618c04a841b04561b804b341b3041b0404bf012d041b3004aa012fc449b8069f012fc541c006bf44ab844ab912ce44bb944bb806bf012fc012fd989e662f4662f54890582401a299bf356008c5e08dbf356fd501a295bf356208c6fcd5bf341a2841a28468a31a289)
  (.lf 0))) (.nd (.nd (.lf
  0x210c9ce9e5c8a073a79ce9d210b4210b4842f210b9210bdce9d5c89c210b9ce9d5e89c5a8f9ce9d73af073a75ce9c210a8210a8842c210ad210b1ce9c5c898210adce9c5e89873a71ce9b2109c2109c8429210a1210a5ce9b5c8945a8f1ce9b73ae8210a1ce9b5e89473a6dce9a210902109084262109521095ce9a5e89021099ce9a5c8905a8edce9a73ae473a69ce99210842108484232108921089ce995e88c2108dce995c88c20fdc00005a8ea5a8e9ce9973ae073a65ce98210782107884202107d21081ce985c8882107dce985e8885a8e5ce9873adc73a61ce972106c2106c841d210715a8e1ce9773ad821071ce975e88421075ce975c88473a5dce962106021060841a2106521069ce965c88021065ce965e8805a8ddce9673ad45a8d9ce9573ad073a59ce95210542105484172105921059ce955e87c2105dce955c87c73a55ce94210482104884142104d21051ce945c8782104dce945e87820fd400005a8d65a8d5ce9473acc73a51ce932103c2103c84112104121041ce935e8745a8d1ce9373ac821045ce935c87473a4dce922103021030840e2103521039ce925c87021035ce925e87020fd000005a8ce5a8cdce9273ac473a49ce9121024)
  (.lf 0)) (.nd (.lf
  0x83a591be57ae08489d8f5163dc063dc12dd700a180758d8f514b75c4b75d91bd647704345803074b760083a991be51ae0435590d76436594365803274b76063dc52dd800a1c4b76191be64774646f991bd083940822c208d082310839420e7083990839991bd57adc14215b1c559ad057ae5b1c5143186c715b1c4142041420450831420914209b1c459acc6477546b857ae057ae1b1c4143141420c00006c7126c711b1c3141f8141f85080141fd141fdb1c359ac86477146b757adc08235917f57adc57addb1c31431014310000059aca59ac9b1da6c7e46c7e56e7c5d9f014354000059b2e59b2db1f36c8486c7cdb1f2144b4144b4512f144b959b29b1f26c844144bdb1f25ba50144b9b1f25da506c7c9b1f1144a814350000059b2259b21b1f06c83c144a8512c144ad144b1b1f15ba4c59b25b1f16c840144adb1f15da4c6c7c5b1f01449c1449c5129144a1144a1b1f05da48144a5b1f05ba486c7c1b1ef144906c8496e955da545da55b26f6ca386c9bdb26e147841478451e31478914789b26e61a506c8456e945da505da51b26e6ca341478db26e5fa506c9b9b26d147781477851e01477d1477db26d61a4c6c8416e935da4c5da4db26d6ca30)
  (.lf 0)))

def shaGateTree272 : BTree :=
  .nd (.nd (.nd (.lf
  0x2e97cba612e9812e981ed1b5f80c2e855ecfc2e8442e844ba132e8492e849ecfc5b80c598edecfc7b4247b42400005b80e5b80ded1b7b4e87b4e976035f80c5f80ded977b6d87b65ded962ec402ec40bb122ec452ec49ed96618082ec45ed96638082e985ed1b5d80c7b46ded1a2e9702e970ba5e2e9752e975ed1a5f8082e84c00007b3f27b3f0ba102e83c2e83cba10598e9598e8ba105b8085b809ed1a7b4e47b4e576025f8085f809ed967b6d47b659ed952ec342ec34bb0f2ec392ec3ded95618042ec39ed95638042e979ed1a5d8087b469ed192e9642e964ba5b2e9692e969ed195f8042e841ecfb2e8302e830ba0e2e8352e835ecfb5b804598e5ecfb7b4207b42000005b8065b805ed197b4e07b4e176015f8045f805ed957b6d07b655ed942ec282ec28bb0c2ec2d2ec31ed94618002ec2ded94638002e96ded195d8047b465ed182e9582e958ba582e95d2e95ded185f8002e83800007b3ee7b3edecfa2e8242e824ba0b2e8292e829ecfa5b800598e1ecfa7b41c7b41c00005b8025b801ed187b4dc7b4dd76005f8005f801ed947b6cc7b651ed932ec1c2ec1cbb092ec212ec25ed93617fc2ec21ed93637fc2e961ed185d8007b461ed172e94c)
  (.lf
  0x6454d9152081900819020660819508195915257aa0433192de84b820131c5af93539cc6be4daf92131b0131b04c6e131b5131b5af92559c86437d4672579c8519c9af926bec46bec54e72559c863efd2e0800adc53a20031743418434190d26435194351803174b820559c92e0841340413912df34b8204b8219152645c408199915251aa064549915108184081842063081890818d915151a9c077bd8fa000adc63e818f9f077ac077ac1ded077b1413612e074b7f0131b9af92539c86be494e71559c5559c52e074133c433152de74b81c53a1c031643414434150d25435154351403164b81c8495d8f9f63ef863ef92e0700ad8077b58f9f4b81c08189915157a9c4b81d9151645c0645459150081780817820600817d55a112dfa41388413892df14b818077b18f9f00ad863e7d8f9e077a0077a01dea077a5433112de64b8180817d915057a984135d2e064b7ec55a412e06413b808181915051a98077a98f9e4b8184351003154b818849598f9e63ef463ef52e0600ad44b8199150645bc64541914f0816c0816c205d08171077a58f9e00ad463e798f9d07794077941de7077990779d8f9d4b81408171914f57a94849558f9d63ef063ef12e0500ad0))
  (.nd (.lf
  0x4e0a20427811188109e042636f8036f80dbe236f8536f8a04264b01c36f8604264f89c4e09e0426811148109a042536f7436f74dbdf36f7936f7e04254b01836f7a04254f8984e09a04258111081096042436f6836f68dbdc36f6d36f7204244b01436f6e04244f8944e09604248110c81092042336f5c36f5cdbd936f6136f6604234b01036f6204234f8904e0920423811088108e042236f5036f50dbd636f5536f5a04224b00c36f5604224f88c4e08e0422811048108a042136f4436f44dbd336f4936f4e04214b00836f4a04214f8884e08a04218110081086042036f3836f38dbd036f3d36f4204204b00436f3e04204f8844e0860420810fc81082041f36f2c36f2cdbcd36f3136f36041f4b00036f32041f4f8804e082041f810f88107e041e36f2036f20dbca36f2536f2a041e4affc36f26041e4f87c4e07e041e810f48107a041d36f1436f14dbc736f1936f1e041d4aff836f1a041d4f8784e07a041d810f081076041c36f0836f08dbc436f0d36f12041c4aff436f0e041c4f8744e076041c810ec81072041b36efc36efcdbc136f0136f06041b4aff036f02041b4f8704e072041b810e88106e041a36ef036ef0dbbe36ef536efa041a4afec)
  (.lf 0))) (.nd (.nd (.lf
  0x770c5541157045570440c36429bc77141541257048570480c37429c07714554135704c5704c0c38429c477149541457050570500c39429c87714d541557054570540c3a429cc77151541657058570580c3b429d07715554175705c5705c0c3c429d477159541857060570600c3d429d87715d541957064570640c3e429dc77161541a57068570680c3f429e077165541b5706c5706c0c20429e477169541c57070570700c21429e87716d541d57074570740c22429ec77171541e57078570780c23429f077175541f5707c5707c0c24429f477179542057080570800c25429f87717d542157084570840c26429fc77181542257088570880c2742a007718554235708c5708c0c2842a0477189542457090570900c2942a087718d542557094570940c2a42a0c77191542657098570980c2b42a107719554275709c5709c0c2c42a14771995428570a0570a00c2d42a187719d5429570a4570a40c2e42a1c771a1542a570a8570a80c2f42a20771a5542b570ac570ac0c3042a24771a9542c570b0570b00c3142a28771ad542d570b4570b40c3242a2c771b1542e570b8570b80c3342a30771b5542f570bc570bc0c3442a34771b95430570c0570c00c3542a38)
  (.lf 0)) (.nd (.lf
  0x327e9f7ce4a7a4327e5f7ce4f0247df39f7cd327d4327d4c9f7327d9327d9f7cd4f0204d821f7cd7dfb0327ddf7cd4a7a07df35f7cc327c8327c8c9f4327cd327cdf7cc4f01c327d1f7cc4a79c7df31f7cb327bc327bcc9f1327c1327c1f7cb4f0184d819f7cb7dfa8327c5f7cb4a7987df2df7ca327b04d811f7c97dfa0327b0c9ee327b5327b9f7ca4a794327b5f7ca4f0147df29f7c9327a4327a4c9eb327a9327a9f7c94f010327adf7c94a7907df25f7c83279832798c9e83279d327a1f7c84a78c4d809f7c77df983279df7c84f00c4d80df7c87df9c7df21f7c73278c3278cc9e53279132795f7c74a78832791f7c74f0087df1df7c63278032780c9e23278532789f7c64a7844d805f7c67df9432785f7c64f0047df19f7c53277432774c9df3277932779f7c54f0003277df7c54a7804d801f7c57df907df15f7c43276832768c9dc3276d4d7fdf7c47df8c4d7f1f7c17df8032771f7c44a77c3276df7c44effc7df11f7c33275c3275cc9d93276132761f7c34eff84d7f9f7c37df8832765f7c34a7787df0df7c23275032750c9d63275532759f7c24a7744d7f5f7c27df8432755f7c24eff47df09f7c13274432744c9d3327493274df7c14a770)
  (.lf 0)))

def shaGateTree273 : BTree :=
  .nd (.nd (.nd (.lf
  0x593e8a9155b3105b311e37178e4078e4174bf5f2fc5f2fde3ed7903078fb5e3ec2a8a82a8a8aa2c2a8ad2a8b1e3ec612f82a8ade3ec632f82a5ede3715d2fc78dc5e3702a5d82a5d8a9782a5dd2a5dde3705f2f82a454a94b2a4442a444a9132a4492a448a94b5b30c28a9ddfbc000a477ef1dfbb28a8c28a8ca2a528a9128a95dfbb03ba05d0f9dfbb77f6877f680ee8000a011061a9f8533e86a7e1a9f71104c1104c44151105111051a9f7593e4042a1a9f76a8586a8594cf9593e410ef5a9ba044a46a6e9a9b910ee410ee443bb10ee910eeda9b9593e403ba1a9b96a7606a76164f9044a0593e4a94b2a5642a56400005b30e5b30de37078e3c78e3d74be5f2f85f2f9e3ec7902c78fb1e3eb2a89c2a89caa292a8a12a8a5e3eb612f42a8a1e3eb632f42a5e1e3705d2f878dc1e36f2a5cc2a5cca9752a5d12a5d1e36f5f2f42a44c00002a52e2a52ca94a2a4382a438a9102a43d2a43ca94a5b30828a91dfbb000a077eeddfba28a8028a80a2a228a8528a89dfba03b9c5d0f5dfba77f6477f640ee70009c11055a9f7533e46a7dda9f6110401104044121104511045a9f6593e00429da9f66a8546a8554cf8593e010ee9a9b9044a06a6e5a9b810ed8)
  (.lf 0)) (.nd (.lf
  0x543d2c074aff0054412c084aff4054452c094aff8054492c0a4affc0544d2c0b4b000054512c0c4b004054552c0d4b008054592c0e4b00c0545d2c0f4b010054612c104b014054652bf14b018054692bf24b01c0546d2bf34b020054712bf44b024054752bf54b028054792bf64b02c0547d2bf74b030054812bf84b034054852bf94b038054892bfa4b03c0548d2bfb4b040054912bfc4afc4054952bfd4afc8054992bfe4afcc0549d2bff4afd07f8f92c2e50cb850cb92c004afd47f8fd2c2f50cbc50cbd2c014afd87f9012c3050cc050cc12c024afdc524c1c4847128c71211c4831c7bc1c7bc71f11c7c11c7c1c483564bc1c7c5c483544bc524bdc483712887120dc4821c7b01c7b071ee1c7b51c7b5c482564b81c7b9c482544b8524b9c4827128471209c4811c7a41c7a471eb1c7a9524b5c481712801c7adc481544b41c7a9c481564b471205c4801c7981c79871e81c79d1c7a1c480544b01c79dc480564b0524b1c4807127c71201c47f1c78c1c78c71e51c7911c791c47f564ac1c795c47f544ac524adc47f71278711fdc47e1c7801c78071e21c785524a9c47e712741c785c47e564a81c789c47e544a8711f9c47d1c7741c77471df1c779)
  (.lf 0))) (.nd (.nd (.lf
  0x54c380b5d46a3046a311aac46b3146b300b5d02c7402c75a2c868b9c469340b3e02c78469380b3f02c7c74dc1530f56c3c54c3c0b5e46a3474dc5531056c4054c400b5f46a3846a351aad46b3546a391aae46b3946b340b5e02c7846b380b5f02c7c02c7da2ca68ba468b29a2c90e72402c79a2c968ba00e72439cb0e7290e729a2c958cbc0e72da2c952cbc68b25a2c80e7180e71839c80e71d0e721a2c852cb80e71da2c858cb868b21a2c70e70c0e70c39c50e7110e711a2c758cb474d6152f756bdc56bdc0b1c4255474d85530056c0056c000b054257874db1530b56c2c56c2c0b10425a4425780b1c02c44425a40b0702c704692c0b3c02c7054c340b5c46a2c46a2d1aab46b2d46b2c0b5c02c700e715a2c752cb402c71a2c768b9868b1da2c60e7000e70039c20e7050e709a2c652cb00e705a2c658cb068b19a2c50e6f40e6f439bf0e6f90e6f9a2c558cac23159d33854bd874ce1d33723144231448c532314923149d33756bd452bd5d33774d5874d5952f556bd456bd40b1a4254c74d7d52fe56bf856bf80b034257074da9530956c2456c240b0e4259c425700b1a02c3c4259c0b0502c68469240b3a02c6854c2c0b5a46a2446a251aa946b25)
  (.lf 0)) (.nd (.lf
  0x4a115f2f27cc4430bfcc30130c0130c05f2fb4bd386d90005bc4a1344a135f2fa7cc6430c01f2fb4d5384a139f2fb7cc687cbedf2fa30bf030bf0c2fe30bf530bf9f2fa4bd3430bf5f2fa4d5347cbe9f2f930be430be4c2fb30be94a131f2f97cc6030bedf2f94bd3030be9f2f94d5307cbe5f2f830bd830bd8c2f830bdd30be1f2f84bd2c6d8f805ba4a12c30bddf2f84d52c4a12df2f87cc5c7cbe1f2f730bcc30bccc2f530bd130bd1f2f74d528161c9b619016d06d865b618161b4161b4586f161b930bd5f2f74bd286d8e805b64a11c4a11df2f47cc4c6d8f005b84a1244a129f2f77cc587cbddf2f630bc030bc0c2f230bc530bc5f2f64d5244a125f2f67cc5430bc9f2f64bd247cbd9f2f530bb430bb4c2ef30bb930bb9f2f54d52030bbdf2f54bd204a121f2f57cc507cbd5f2f430ba830ba8c2ec30bad30bb1f2f44bd1c30badf2f44d51c7cbd1f2f330b9c30b9cc2e930ba130ba5f2f34bd184a119f2f37cc4830ba1f2f34d5187cbcdf2f230b9030b90c2e630b9530b95f2f24d514161b9b6184a11030b99f2f24bd147cbc9f2f130b8430b84c2e330b8930b89f2f14d5104a111f2f17cc4030b8df2f14bd107cbc5f2f030b7830b78c2e030b7d)
  (.lf 0)))

def shaGateTree274 : BTree :=
  .nd (.nd (.nd (.lf
  0x596496d565b55c5b55de87a7a2647a26575575f55c5f55de8f67a4542c865e87a5d55c2adcde4aa003045d3580f8000300792a80f800030111e11ac5c53648045014d91596446b1714d915964511ca5ac1e0470403e016591047006b0796591047015964400005b55a5b55975565f5587a1e975565f5595f5598556635587a3d9855663559635580fb93d33c7a45585576355c6355c0fba3d3407a459855863560635600fbb3d3447a45d855963564635640fbc3d3487a461855a63568635680fbd3d34c7a465855b6356c6356c0fbe3d3507a469855c63570635700fbf3d3547a46d855d63574635740fa03d3587a471855e63578635780fa13d35c7a475855f6357c6357c0fa23d3607a479856063580635800fa33d3647a47d856163584635840fa43d3687a481856263588635880fa53d36c7a48585636358c6358c0fa63d3707a489856463590635900fa73d3747a48d856563594635940fa83d3787a491856663598635980fa93d37c7a49585676359c6359c0faa3d3807a4998568635a0635a00fab3d3847a49d8569635a4635a40fac3d3887a4a1856a635a8635a80fad3d38c7a4a5856b635ac635ac0fae3d3907a4a9856c635b0635b00faf3d394)
  (.lf 0)) (.nd (.lf
  0x1e64dc8af5c5981e649c8af5e5985a611c8af72338722bdc8ae1e6381e63879901e63d5a60dc8ae723341e641c8ae5c5941e63dc8ae5e594722b9c8ad1e62c1e62c798d1e6311e631c8ad5e5905a609c8ad723301e635c8ad5c590722b5c8ac1e6201e620798a1e6251e629c8ac5c58c1e625c8ac5e58c5a605c8ac7232c722b1c8ab1e6141e61479871e6191e61dc8ab5c5881e619c8ab5e588456d407a601e18545dc07c6457d4457d51615458d5458d407c601e1801e199ce1674006740149975865c673096197020181e51c79071e4181e41879075865d5865c79075a5e81e56800005a5fe5a5fdc8aa723245a601c8ab72328722adc8aa1e6081e60879841e60d1e611c8aa5c5845a5e9c8a5723105a5f9c8a9723201e60dc8aa5e584722a9c8a91e5fc1e5fc79811e6011e605c8a95c5801e601c8a95e580722a5c8a81e5f01e5f0797e1e5f51e5f5c8a85e57c1e56400005a5f65a5f5c8a87231c1e5f9c8a85c57c722a1c8a71e5e41e5e4797b1e5e91e5edc8a75c5785a5f1c8a7723181e5e9c8a75e5787229dc8a61e5d81e5d879781e5dd1e5e1c8a65c5741e5ddc8a65e57472299c8a51e5cc1e5cc79751e5d11e5d5c8a55c57072311715c5e570)
  (.lf 0))) (.nd (.nd (.lf
  0x257d5d8a75edbc25655d88b256442564495932564925649d88b5adf858ea9d88b256a4256a400005adfa5adf9d8a77631876319736f5edbc5edbdd923765087648dd92225a9425a9496a725a9925a9dd92260db825a99d92262db8257d9d8a75cdbc7629dd8a6257c4257c495f3257c9257c9d8a65edb82564c00007622e7622c95902563c2563c959058ea558ea495905adf45adf5d8a67631476315736e5edb85edb9d9227650476489d92125a8825a8896a425a8d25a91d92160db425a8dd92162db4257cdd8a65cdb876299d8a5257b8257b895f0257bd257bdd8a55edb425640958e2563425634958e58ea158ea0958e5adf05adf1d8a57631076311736d5edb45edb5d9217650076485d92025a7c25a7c96a125a8125a85d92060db025a81d92062db0257c1d8a55cdb476295d8a4257ac257ac95ed257b1257b1d8a45edb025639d88a2562825628958c2562d2562dd88a5adec58e9dd88a256a0256a000005adee5adedd8a47630c7630d736c5edb05edb1d920764fc76481d91f25a7025a70969e25a7525a79d91f60dac25a75d91f62dac257b5d8a45cdb076291d8a3257a0257a095ea257a5257a5d8a35edac2563000007622a76229d8892561c)
  (.lf 0)) (.nd (.lf
  0x5de19ba426e98417fd05ff617fd517fd9ba425fe1817fd5ba4261e186e909ba4117fc417fc45ff317fc917fc9ba4161e1417fcdba415fe145de15ba416e9806e905ba4017fb817fb85ff017fbd17fc1ba405fe1017fbdba4061e106e901ba3f17fac17fac5fed17fb117fb1ba3f61e0c17fb5ba3f5fe0c5de0dba3f6e9786e8fdba3e17fa017fa05fea17fa517fa5ba3e61e085de09ba3e6e97417fa9ba3e5fe086e8f9ba3d17f9417f945fe717f9917f9dba3d5fe0417f99ba3d61e045de05ba3d6e9706e8f5ba3c17f8817f885fe417f8d17f91ba3c5fe0017f8dba3c61e005de01ba3c6e96c6e8f1ba3b17f7c17f7c5fe117f8117f85ba3b5fdfc17f81ba3b61dfc5ddfdba3b6e9686e8edba3a17f7017f705fde17f7517f79ba3a5fdf817f75ba3a61df85ddf9ba3a6e9646e8e9ba3917f6417f645fdb17f6917f69ba3961df45ddf5ba396e96017f6dba395fdf46e8e5ba3817f5817f585fd817f5d17f5dba3861df05ddf1ba386e95c6e95d7f7c61df061df005df3bbd461e2805cd3bc0c6e9a97f8f61e3c61e3c05d23bc203bc0c05df017683bc2005c40177c3e0b805ff0177c6e9c17f9561e545fe54061f3e1383e13805df3e1b90177d95f46584c)
  (.lf 0)))

def shaGateTree275 : BTree :=
  .nd (.nd (.nd (.lf
  0x277e49dfb277e9277eddd2b550d0277e9dd2b570d0530d1dd2b77528774addd2a277d8277d89df8277dd277e1dd2a550cc277dddd2a570cc530cddd2a77524774a9dd29277cc277cc9df5277d1277d5dd29550c8277d1dd29570c8530c9dd2977520530c55431570c4774a55431570c5570c40c5642a3c775215432570c8570c80c5742a40775255433570cc570cc0c5842a44775295434570d0570d00c5942a487752d5435570d4570d40c5a42a4c775315436570d8570d80c5b42a50775355437570dc570dc0c5c42a54775395438570e0570e00c5d42a587753d5439570e4570e40c5e42a5c77541543a570e8570e80c5f42a6077545543b570ec570ec0c4042a6477549543c570f0570f00c4142a687754d543d570f4570f40c4242a6c77551543e570f8570f80c4342a7077555543f570fc570fc0c4442a7477559544057100571000c4542a787755d544157104571040c4642a7c77561544257108571080c4742a807756554435710c5710c0c4842a8477569544457110571100c4942a887756d544557114571140c4a42a8c77571544657118571180c4b42a907757554475711c5711c0c4c42a9477579544857120571200c4d42a987757d544957124)
  (.lf 0)) (.nd (.lf
  0x5e179c13a70564704e9c1391b0181b0186c081b01d1b01dc139621741b021c139601745e175c13970560704e5c1381b00c1b00c6c051b0111b011c13862170705ad8070621c05e171c1387055c1b015c13860170704e1c1371b0001b0006c021b0051b005c1376216c1b009c1376016c5e16dc13770558704ddc1361aff41aff46bff1aff91aff9c136621681affdc136601685e169c13670554704d9c1351afe81afe86bfc1afed5e165c135705501aff1c135601641afedc13562164704d5c1341afdc1afdc6bf91afe11afe5c134601601afe1c134621605e161c1347054c704d1c1331afd01afd06bf61afd51afd5c1336215c1afd9c1336015c5e15dc13370548704cd8056621595e1598056621586215808b93bf3c7054980576215c6215c08ba3bf407054d8058621606216008bb3bf44705518059621646216408bc3bf4870555805a621686216808bd3bf4c70559805b6216c6216c08be3bf507055d805c621706217008bf3bf5470569805f6217c6217c08a23bf607056d8060621806218008a33bf64705718061621846218408a43bf68705758062621886218808a53bf6c7057980636218c6218c08a63bf707057d8064621906219008a73bf74)
  (.lf 0))) (.nd (.nd (.lf
  0x52a21cf5d73df021534854f215392153dcf5d54a2021539cf5d56a2073d75cf5c2152821528854c2152d2152dcf5c56a1c52a1dcf5c73dec21531cf5c54a1c73d71cf5b2151c2151c85492152121525cf5b54a1821521cf5b56a1852a19cf5b73de873d6dcf5a215102151085462151521519cf5a54a1452a15cf5a73de421515cf5a56a1473d69cf59215042150485432150921509cf5956a1052a11cf5973de02150dcf5954a1073d65cf58214f8214f88540214fd214fdcf5856a0c21501cf5854a0c52a0dcf5873ddc73d61cf57214ec529f5cf5273dc4214ec853d214f1214f1cf5756a0852a09cf5773dd8214f5cf5754a0873d5dcf56214e0214e0853a214e5214e5cf5656a0452a05cf5673dd4214e9cf5654a0473d59cf55214d4214d48537214d9214ddcf5554a00214d9cf5556a0052a01cf5573dd0529fdcf5473dcc73d55cf54214c8214c88534214cd214d1cf54549fc214cdcf54569fc73d51cf53214bc214bc8531214c1214c5cf53549f8214c1cf53569f8529f9cf5373dc873d4dcf52214b0214b0852e214b5214b9cf52549f4214b5cf52569f473d49cf51214a4529e1cf4d73db0214a4852b214a9214adcf51549f0529f1cf5173dc0)
  (.lf 0)) (.nd (.lf
  0x64c995f2b00f6857cac55dd59c841577455db157681576855db57ca957ca855db59c801576c55d9157601576055d957ca557ca455d959c7c59c7db4e76d41815820000059c8a15971b4ea5bbc459c89b4ea6d4246d3a9b4e91595c1595c56591596115961b4e95dbc06d4196eee5dbb815965b4e95bbc059c81b4e86d41c59c85b4e96d4206d3a5b4e8159501595056561595515955b4e85dbbc15959b4e85bbbc6d3a1b4e7159441594456531594915949b4e75dbb85dbb9b5636d6086d6097eee61bb86d41d6eef5dbbc64c895f2700f581576455f5157541575455d7157591575855f559c7864c8d5f2800f5c57ca055f51581c1575c0000157d6157d455d41574c1574c55d457c9d57c9c55d459c743b8bc050b014186c4bc050b49e703da68052b0142c5fb04054b3dae83dae8050b3db690142d92f864c5c1575055f4157401574055d215745157480000157d264c855f2600f5457c9855f41581864c815f2500f501574455f459c70157d055cf157381573855cf57c9557c9455cf59c6c1573c55cd157301573055cd57c9164c7d5f2400f4c57c9055cd59c681573455f3157241572455cb157291572855f359c6464c795f2300f4857c8c55f315814)
  (.lf 0)))

def shaGateTree276 : BTree :=
  .nd (.nd (.nd (.lf
  0x2df19eb896372c2dc59eb0e5d7307ac39eb0d2dc442dc44b7132dc492dc49eb0d5f72c2da6800002daee2daecb6972da582da58b697598195d52de7c479f8c79f8c0ff5004d42c3c1e7c5004d879f15e7c42c3b02c3b0b0ee2c3b52c3b9e7c403fd403fd5ada66b7146b715660600b541277dade55381c6b795ade4127681276849dc1276d1276dade459818046d5ade46b80c6b80d4e065981812611ada700b586b69dada6126001260049821260512609ada65981859818b6975b72c5b72deb0d7acb07acb175cb5f72c5f72deb897aea07ae25eb882df082df08b7c42df0d2df11eb88617282df0deb88637282dc4deb0d5d72c7ac35eb0c2dc382dc38b7102dc3d2dc3deb0c5f7282da5cb6952da502da50b695598155d529e7c379f8879f880ff4004d02c3b5e7c4004d479f11e7c32c3a42c3a4b0eb2c3a92c3ade7c303fd003fd1ada56b7106b711660500b5012771ade4538186b791ade31275c1275c49d91276112761ade359814046d1ade36b8086b8094e055981412605ada600b546b699ada5125f4125f4497f125f9125fdada55981459814b6955b7285b729eb0c7acac7acad75ca5f7285f729eb887ae9c7ae21eb872defc2defcb7c12df01)
  (.lf 0)) (.nd (.lf
  0x808f6023c3648836488d9243648d36492023c4c7b44abb6023c8096c8096d31ed4dfb44c7b6027a80a64809ea0279365e4365e4d97b365e9365ee02794b3b0365ea027950fb03648e023c4dfb4808f2023b3647c3647cd9213648136486023b4c7b04abb2023b809688096931ec4dfb04c7b2027980a60809e60278365d8365d8d978365dd365e202784b3ac365de027850fac36482023b4dfb0808ee023a3647036470d91e364753647a023a4c7ac72c500a5a4abac4abae023a809648096531eb4dfac4c7ae027880a5c809e20277365cc365ccd975365d1365d602774b3a8365d2027750fa836476023a4dfac808ea02393646436464d91b364693646e02394c7a872c4c0a594aba84abaa0239809608096131ea4dfa84c7aa027780a58809de0276365c0365c0d972365c5365ca02764b3a4365c6027650fa43646a02394dfa8808e602383645836458d9183645d3646202384c7a472c480a584aba44aba602388095c8095d31e94dfa44c7a6027680a54809da0275365b4365b4d96f365b9365be02754b3a0365ba027550fa03645e02384dfa4808e202373644c3644cd915364513645602374c7a072c440a574aba04aba20237809588095931e84dfa0)
  (.lf 0))) (.nd (.nd (.lf
  0x267f5dafe62e6826535da835ce6c76a0dda822652026520994a2652526525da825ee68263bc98ed263b0263b098ed58f5558f5498ed5ae9c5ae9dda8276a8476a85739a5ee685ee69dafe76c7476bf9dafd267e4267e499fb267e9267eddafd60e64267e9dafd62e6426529da825ce6876a09da81265142651499472651926519da815ee64263b56ba5263a8263a963d3263ad263ad6ba55ae9858f516ba5264d4264d400005ae9a5ae99da8176a8076a8173995ee645ee65dafd76c7076bf5dafc267d8267d899f8267dd267e1dafc60e60267dddafc62e602651dda815ce6476a05da80265082650899442650d2650dda805ee6058f4c00005ae965ae95da8076a7c76a7d73985ee605ee61dafc76c6c76bf1dafb267cc267cc99f5267d1267d5dafb60e5c267d1dafb62e5c26511da805ce6076a01da7f264fc264fc99412650126501da7f5ee5c58f49da7f76a7876a7973975ee5c5ee5ddafb76c6826505da7f5ce5c58f4573965ee58769fd73965ee595ee59839662e5876bed839662e5962e580df93cc3c76c69839762e5c62e5c0dfa3cc4076c6d839862e6062e600dfb3cc4476c71839962e6462e640dfc3cc4876c75839a62e6862e680dfd3cc4c)
  (.lf 0)) (.nd (.lf
  0x7ddf5f77c3258832588c9643258d3258df77c507d409fb1969451fd84434c04440109053f5404644444c4444d11334454d4454c04640109001091969365ac865a51969309f9c09f9c27e909fa109fa5969351fd409fa1969357fd465a4d969209f904434404420108853f4c046244444444451131445454454404620108801089969165ac009f9027e609f9509f99969251fd009f95969257fd04434804430108c53f50046344448444491132445494454804630108c0108d969265ac465a49969109f8409f8427e309f8909f89969157fcc09f8d969151fcc65a45969009f784434004410108453f48046144440444411130445414454004610108401085969065abc65abd47f257fc80638528f34a3c40638928f44a3c80638d28f54a3cc3e14c0604017905fe6806243e1cc3e1cc05e43e24d09e4596560129465959965509e3409e34278f09e3909e3d965557fd4017919655659d009e3996550129065955965409e2809e28278c09e2d09e2d96540128c3e14806030178c5fe6406233e1c83e1c805e33e24909e31965457fd00178d9654659cc65951965309e1c09e1c278909e2109e25965357fcc3e1440602017885fe6006223e1c43e1c405e23e245)
  (.lf 0)))

def shaGateTree277 : BTree :=
  .nd (.nd (.nd (.lf
  0x28d68a35c28d6d28d6de0385726853269e0387815c7815d549a5726857268107f42be07818154a35728c5728c106842c04781ad54ae572b8572b8107342c3042c04107f041d042c30106a041fc47cb8109f041fc781b554b0572c0552c010bf47db847db91f8e47eb947eb810bf041fc041fda9166a4d46a459a91510bb410bb442ef10bb910bb9a9155933c28d71e03855268780e1e03728d5c28d5ca35928d6128d61e0375726453265e037781587815954995726457264107e42bdc7817d54a25728857288106742c00781a954ad572b4572b4107242c2c42c00107e041cc42c2c1069041f847cb4109e041f8781b154af572bc552bc10be47db447db51f8d47eb547eb410be041f8041f9a9156a4d010bbda9155333c6a455a91410ba810ba842ec10bad10bb1a9145333828d65e03755264780dde03628d5028d50a35628d5528d55e0365726053261e036781547815554985726057260107d42bd87817954a15728457284106642bfc781a554ac572b0572b0107142c2842bfc107d041c842c281068041f447cb0109d041f4552b810bd47db047db11f8c47eb147eb010bd041f4041f5a9146a4cc10bada914593386a451a91310b9c10b9c42e910ba1)
  (.lf 0)) (.nd (.lf
  0x1b86dc27b5435c709edc27a1b8581b8586e181b85d52359c27a70a641b861c27a543581b85dc27a56358709e9c2791b84c1b84c6e151b8511b851c2795635452355c27970a6070a6150d5563545635406fa41ccc70a8550de563785637806e341cf070ab150e9563a4563a406ee41d1c41cf006fa01bbc41d1c06e501be870ab950eb563ac44fa4071a01be8543ac073a450a4450a51449451a5451a4073a01be801be99a8966aa070ac550ee563b870acd50f0563c070a6d50d85636070a7550da563685636806ff41ce070a9950e35638c5638c06e841d04563b806f341d3041d0406ff01bd041d3006ea01bfc44fb8071f01bfc543c0073f450b8450b9144e451b9451b8073f01bfc01bfd9a8e66ab466a399a8d0b75470a7150d9563645636406fe41cdc70a9550e2563885638806e741d0070ac150ed563b4563b406f241d2c41d0006fe01bcc41d2c06e901bf80b7542dd70b7590b75d9a8d5243c0b7599a8d5843c44fb4071e01bf870ac950ef563bc543bc073e450b4450b5144d451b5451b4073e01bf801bf99a8d66ab066a359a8c0b7480b7482dd40b74d0b7519a8c5243870a6950d75635c5636006fd41cd870a9150e1563845638406e641cfc)
  (.lf 0))) (.nd (.nd (.lf
  0x222d488b7222d9222ddd14e54af0222d9d14e56af052af1d14e745b474539d14d222c8222c888b4222cd222d1d14d54aec222cdd14d56aec52aedd14d745b074535d14c222bc222bc88b1222c1222c5d14c54ae8222c1d14c56ae852ae9d14c745ac74531d14b222b0222b088ae222b5222b9d14b54ae4222b5d14b56ae452ae5d14b745a87452dd14a222a4222a488ab222a9222add14a54ae0222a9d14a56ae052ae1d14a745a474529d149222982229888a82229d222a1d14954adc2229dd14956adc52addd149745a074525d1482228c2228c88a52229122295d14854ad822291d14856ad852ad9d1487459c74521d147222802228088a22228522289d14754ad422285d14756ad452ad5d147745987451dd1462227422274889f222792227dd14654ad022279d14656ad052ad1d1467459474519d1452226822268889c2226d22271d14554acc2226dd14556acc52acdd1457459074515d1442225c2225c88992226122265d14454ac822261d14456ac852ac9d1447458c52ac552b156ac47451152b156ac556ac40ad64243c745b952bd56af456af40ac24246c745dd52c656b1856b180acb424904243c0acd02b08424900ac202b5c465c40ae202b08)
  (.lf 0)) (.nd (.lf
  0x2f16dee844d1cc7ba11ee832f15c2f15cbc592f1612f165ee834b9c82f161ee834d1c849dc9ee837ba887ba0d2e714d1c549dc52e714d1c44b9c52971501c47ba892e724d1c84b9c9eec17bb802f2c9eec1501c87bb052971501c5501c5295404aa87bb812972501c8501c9295504aac7bb852973501cc501cd295604ab07bb892974501d0501d1295704ab47bb8d2975501d4501d5295804ab87bb912976501d8501d9295904abc7bb952977501dc501dd295a04ac07bb992978501e0501e1295b04ac47bb9d2979501e4501e5295c04ac87bba1297a501e8501e9295d04acc7bba5297b501ec501ed295e04ad07bba9297c501f0501f1295f04ad47bbad297d501f4501f5296004ad87bbb1297e501f8501f9296104adc7bbb5297f501fc501fd296204ae07bbb929805020050201296304ae47bbbd29815020450205296404ae87bbc129825020850209296504aec7bbc529835020c5020d296604af07bbc929845021050211296704af47bbcd29855021450215296804af87bbd129865021850219296904afc7bbd529875021c5021d296a04b007bbd929885022050221296b04b047bbdd29895022450225296c04b087bbe1298a5022850229296d04b0c)
  (.lf 0)))

def shaGateTree278 : BTree :=
  .nd (.nd (.nd (.lf
  0x78b2de2ca2a1102a110a8462a1152a119e2ca03d7003d71ab416ad806ad81656d04670119c1ab80535b86ae01ab7f119ac119ac466d119b1119b1ab7f595b404471ab7f6ae786ae794d6d595b411855ab42046746ad09ab4111844118444613118491184dab41595b4595b4ae875b4d05b4d1e68879a9c79a9d75325f4c85f4c9e70479c8c79c11e7032be802be80afa22be852be89e703614c42be85e703634c42bbc5e6885d4c879a21e6872bbb02bbb0aeee2bbb52bbb5e6875f4c42ba1de66a2ba0c2ba0cae852ba112ba11e66a5b4cc2a115e2ca0027078b29e2c92a1042a104a8432a1092a10de2c903d6c5d2c5e2c978ba078ba00f5b0026c119b5ab7f535b46adfdab7e119a0119a0466a119a5119a5ab7e595b00446dab7e6ae746ae754d6c595b011849ab41046706ad05ab40118381183846101183d11841ab40595b003d6dab406ad7c6ad7d656c0466c595b1e66a2ba6c2ba6c00005b4ce5b4cde68779a9879a9975315f4c45f4c5e70379c8879c0de7022be742be74af9f2be792be7de702614c02be79e702634c02bbb9e6875d4c479a1de6862bba42bba4aeeb2bba92bba9e6865f4c02ba140000799aa799a8ae822ba042ba04ae82595ad)
  (.lf 0)) (.nd (.lf
  0x71c5c09cb4a97071c6c09cf4a98071c5809ca4a96c5c45809c04a94471c3c09c34a95071c3409c14a94871c7409d14a98871c7009d04a98471c8009d44a99471c5009c84a96471c4c09c74a96071c4409c54a95871bb809c04a94571c7809d24a98c71c7c09d34a99071c3809c24a94c4a9c1ff577fdd87fdd931704ddc04c5c1ff957fed07fe55ff943552835528d54c3552d35531ff944b1bc3552dff9450dbc7fd5dff56353c0353c0d4f2353c5353c9ff564c5bc4a9bdff567fdd47fdd5316f4ddbc4c5bdff947fecc7fe51ff933551c3551cd5493552135525ff934b1b835521ff9350db8353c5ff564ddbc7fd59ff55353b4353b4d4ef353b9353bdff554c5b84a9b9ff557fdd07fdd1316e4ddb84c5b9ff937fec87fe4dff923551035510d5463551535519ff924b1b435515ff9250db4353b9ff554ddb87fd55ff54353a8353a8d4ec353ad353b1ff544c5b44a9b5ff547fdcc7fdcd316d4ddb44c5b5ff927fec47fe49ff913550435504d543355093550dff914b1b035509ff9150db0353adff544ddb47fd51ff533539c3539cd4e9353a1353a5ff534c5b04a9b1ff537fdc87fdc9316c4ddb04c5b1ff917fec07fe45ff90354f8354f8d540354fd)
  (.lf 0))) (.nd (.nd (.lf
  0x755a1533e56cf856cf80b4342670755cd534956d2456d240b4e4269c426700b5a02d3c4269c0b4502d6846c240b7a02d6854d2c0b9a46d2446d251b6946e2546e240b9a02d6802d69a3bd68f700ec99a3bd58dac0ec9da3bd52dac68ef5a3bc0ec880ec883b240ec8d0ec8da3bc58da80ec91a3bc52da823ee5d53d56cc852cc5533156cc4754f5533156cc556cc40b564263c56cc80b574264075575533356ccc56ccc0b584264475579533456cd056cd00b594264875595533b56cec56cec0b40426647559d533d56cf456cf40b424266c755b9534456d1056d100b4942688755c1534656d1856d180b4b42690755c5534756d1c56d1c0b4c42694755c9534856d2056d200b4d4269856d3c0b54426b4426580b5402d244265c0b5502d28426600b5602d2c426640b5702d30426680b5802d344266c0b5902d38426880b4002d54426900b4202d5c426940b4302d60426980b4402d6446c100b7502d5446c140b7602d5846c180b7702d5c46c1c0b7802d6046c200b7902d6454d180b9546d1054d1c0b9646d1454d200b9746d1854d240b9846d1c54d280b9946d2046d111b6446e1146d151b6546e1546d191b6646e1946d1d1b6746e1d46d211b6846e21)
  (.lf 0)) (.nd (.lf
  0x17659b8d85bdc016b49b77e53dd86ddf9b77d16b3416b345acf16b3951dd5b77d6de706de714f7555dd416b39b77d55dd455dd403da4174c6de954f7e55df855df803c3417706dec14f8955e2455e2403ce4179c4177003da00f3c4179c03c500f6843f2403fa00f6853e2c041a440244402510294412544124041a00f6800f699535655506555147ab57eac096dd94f80116c174cc00006e2f26e2f1b8bb174b8174b85d30174bd174bdb8bb59e7c3dea405ba016686e1b17f5061d405fd4005da3df243df24059a3dfa50166994f765458654595fab0116809839953557eac653e194f7096cc096cc25b5096d1096d594f757eac57eadb8bb1751817518000059e7e59e7db8d86e3dc6e3dd6f705ddc05bdc1b9166e4d4177b85df0177bd177bdb9164a2ac177c1b916018686e459b915177ac177ac5ded177b1177b5b9150186416b3db77d53dd46ddf5b77c16b2851dd1b77c6de6c16b285acc16b2d16b2db77c55dd016b31b77c53dd06ddf1b77b16b1c16b1c5ac916b2116b21b77b55dcc096d194f701168653dd94f6096c017109b8345fcdc6e0d17f3661cd95dcd97f3661cd861cd805993babc6e1817f4461d1061d1005873baf43baf4059901650)
  (.lf 0)))

def shaGateTree279 : BTree :=
  .nd (.nd (.nd (.lf
  0x394320a74003e03942e0a74515244cd260a7482a4c829d20a733941c3941ce50939421394260a73003dc394220a73515204cd220a7382a48829ce0a723941039410e506394153941a0a72003d8394160a725151c4cd1e0a7282a44829ca0a713940439404e503394093940e0a71003d43940a0a71515184cd1a0a7182a40829c60a70393f8393f8e500393fd394020a70003d0393fe0a70515144cd160a7082a3c829c20a6f393ec393ece4fd393f1393f60a6f003cc393f20a6f515104cd120a6f82a38829be0a6e393e0393e0e4fa393e5393ea0a6e003c8393e60a6e5150c4cd0e0a6e82a34829ba0a6d393d4393d4e4f7393d9393de0a6d003c4393da0a6d515084cd0a0a6d82a30829b60a6c393c8393c8e4f4393cd393d20a6c003c0393ce0a6c515044cd060a6c82a2c829b20a6b393bc393bce4f1393c1393c60a6b003bc393c20a6b515004cd020a6b82a28829ae0a6a393b0393b0e4ee393b5393ba0a6a003b8393b60a6a514fc4ccfe0a6a82a24829aa0a69393a4393a4e4eb393a9393ae0a69003b4393aa0a69514f84ccfa0a6982a20829a60a683939839398e4e83939d393a20a68003b03939e0a68514f44ccf60a6882a1c829a20a673938c)
  (.lf 0)) (.nd (.lf
  0x5414806a144a4044a4112b044b4144b4006a1012840128598806627c6627d4872581c80aacd9881521cc3e5400881019846005c08a13e5c03e5c006613e6410198598426618466185607201b846620598800aab80aab82ab00aabd0aabd9880581c8581c9685b5a1701a60400005a1a21a5fc00005a1961a60000005a19e1a60800005a1b24d941f9497e5a07e525f9483309833098cc283309d330a1f9484a8bc3309df9484f13c4d93df9487e59c7e521f9473308c3308ccc253309133091f9474f1384d921f9417e5804d939f9477e59833095f9474a8b87e51df9463308033080cc223308533085f9464f1344d935f9467e59433089f9464a8b47e519f9453307433074cc1f3307933079f9454f1304d931f9457e5903307df9454a8b07e515f9443306833068cc1c3306d33071f9444a8ac3306df9444f12c4d92df9447e58c7e511f9433305c3305ccc193306133061f9434f12833065f9434a8a84d929f9437e5887e50df9423305033050cc163305533059f9424a8a433055f9424f1244d925f9427e5847e509f9413304433044cc13330493304df9414a8a033049f9414f1207e505f9403303833038cc103303d33041f9404a89c3303df9404f11c)
  (.lf 0))) (.nd (.nd (.lf
  0x362fcd8c1363013630601fb4aea83630201fb4f7283604201804c72c80602017f3602c3602cd80d3603136032017f4df284ab2a017f806788067931ca4df284df2a01fb80868807ee01fa362f0362f0d8be362f5362fa01fa4aea4362f601fa4f72436036017f4c728805fe017e3602036020d80a3602536026017e4df244ab26017e806748067531c94df244df2601fa80864807ea01f9362e4362e4d8bb362e9362ee01f94aea0362ea01f94f7203602a017e4c724805fa017d3601436014d807360193601a017d4df204ab22017d806708067131c84df204df2201f980860807e601f8362d8362d8d8b8362dd362e201f84ae9c362de01f84f71c3601e017d4c720805f6017c3600836008d8043600d3600e017c4df1c4ab1e017c8066c8066d31c74df1c4df1e01f88085c807e201f7362cc362ccd8b5362d1362d601f74ae98362d201f74f71836012017c4c71c805f2017b35ffc35ffcd8013600136002017b4df184ab1a017b806688066931c64df184df1a01f780858807de01f6362c0362c0d8b2362c5362ca01f64ae94362c601f64f71436006017b4c718805ee017a35ff035ff0d7fe35ff535ff6017a4df144ab16017a806648066531c54df14)
  (.lf 0)) (.nd (.lf
  0x3d88004f1013443d88804f30134c5fa2405133d9083d90804d33d9890859821680859d6bd1c04d349d9061a4004d33b824085a1920857b900859d920800e4c0134d92086489c6482192070858c5fa2005123d9043d90404d23d9853d88404f201348013499207648980858c21650859108595920757b8c08591920700e486481d920608580085802162085853b7d404d1013300134592066489408585920600e4408589920657b886bd1004d049d846481992050857408574215f0857908579920500e406bd0c04cf49d805fa14050f3d8f80857d920557b845fa1805103d8fc3d8fc04d03d97d3d87804ef0133c3b7d004d00132c3d87c04f001340013419205648906481592040856808568215c0856d0856d920400e3c08571920457b803b7cc04cf013283d8f804cf3d9790133d92046488c6481192030855c0855c21590856108561920300e3808565920357b7c6480d9202085500855021560855508559920257b7808555920200e34648099201085440854421530854908549920100e300854d920157b746bcfc04cb49d703d86c04ec013305fa08050c3d8ec3d8ec04cc3d96d6bd0004cc49d743b7c004cc0131c0133192016488064805920008538)
  (.lf 0)))

def shaGateTree280 : BTree :=
  .nd (.nd (.nd (.lf
  0x129b1ae54538686b951ae531299c1299c4a69129a1129a1ae535986404721ae536b9c86b9c94e195986412845ae1600aa46b859ae1512834128344a0f128391283dae155986459864b84d5b7785b779ec067b0947b09575de5f7785f779ec827b2847b209ec812e5602e560b95a2e5652e569ec81617742e565ec81637742e2a5ec065d7787b019ec052e2902e290b8a62e2952e295ec055f7742e135ebf22e1242e124b84b2e1292e129ebf25b7742ca1de8bf005207a2fde8be2ca0c2ca0cb2852ca112ca15e8be0401c5d575e8be7a3747a37410070051c129a5ae53538646b94dae5212990129904a661299512995ae52598600471dae526b9c46b9c54e185986012839ae1500aa06b855ae1412828128284a0c1282d12831ae14598600401dae146b8cc6b8cd661800a9c59861ebf22e2182e21800005b7765b775ec057b0907b09175dd5f7745f775ec817b2807b205ec802e5542e554b9572e5592e55dec80617702e559ec80637702e299ec055d7747b015ec042e2842e284b8a32e2892e289ec045f7702e12c00007afca7afc8b8482e11c2e11cb8485985d5d571e8bd7a3707a3701006005182ca11e8be0051c7a2f9e8bd2ca002ca00b2822ca05)
  (.lf
  0x5195dae8f6bab812af1ae8f5595c6ba3dae8e12ae012ae04aba12ae512ae5ae8e5595812ae9ae8e539586ba39ae8d12ad412ad44ab712ad964121904707b0c640a12e3500b904b8d590476419807b0c1ec507b1107b1190475795407b159047519546411d904607b0007b001ec207b0507b099046519506419546545795051951ae8c6baac12ad9ae8d559546419946555795451955ae8d6bab012addae8d539546ba35ae8c12ac812ac84ab412acd12acdae8c559506baad4e5455950559512e2a412c86bb054e6a559a86bafd4e68559a0849f58fe364008079658fe34b8b463f8d8fe207950079501e5607955079558fe200b6c079598fe24b8b0849f18fe26400463f898fe107944079441e53079490794d8fe14b8ac849ed8fe164000079498fe100b6863f858fe007938539a92dea432a0432a10cc8433a1433a12dea4b8a8559a12e1e41318413192e154b8a8079381e500793d079418fe04b8a84b8a990d8643dc6bb1d4e70559c0539c12df0432b8432b90cce433b9433b92df04b8c06bb154e6e559b8539b92dee432b0432b10ccc433b16bb114e6d559b46bb194e6f559bc539bd2def432b46bae94e635598c6babd4e5855960559612e2e412d8))
  (.nd (.lf
  0x679c949f5587d40cb3d9e15587d4587d47e941fa981fa9800005a752678d561f602194679cd49f6587d8587d87e951fa9c1fa9c00005a7561faa000005a75a5a759cb9b72ee81fb29cb9c5c6f472e71cb9b1fb141fb147ec71fb191fb1dcb9b5c6f01fb19cb9b5e6f072e6dcb9a1fb081fb087ec41fb0d1fb0dcb9a5e6ec5a755cb9a72ee41f94c00001fa561fa547e941f9381f9387e501f93d1f93c7e945a7501fb11cb9a5c6ec72e69cb991fafc1fafc7ec11fb011fb01cb995e6e85a751cb9972ee072ee171ba5e6e85e6e9cc15730d0730d181ba626e872ee971bc5e6f05e6f1cc17730d81fdedcc17606f07305dcc161fdd81fdd87f781fddd1fde1cc16606ec72ee571bb5e6ec5e6edcc16730d41fdddcc16626ec73059cc151fdcc1fdcc7f751fdd11fdd1cc15626e8626e80a1d3c4cc730d581bb626ec626ec0a1e3c4d0730d981bc626f0626f00a1f3c4d47310981c862720627200a0b3c5047310d81c962724627240a0c3c5087311181ca62728627280a0d3c50c7311d81cd62734627340a103c5187312181ce62738627380a113c51c7312581cf6273c6273c0a123c5203c5040a1d028603c5080a1e028643c50c0a1f028683c5180a0202874)
  (.lf 0))) (.nd (.nd (.lf
  0x5000d2d4d06f4083ca0009350010500112d4e06f4483ca4009450014500152d4f06f4883ca8009550018500192d5006f4c06ef92d444b50806efd2d454b50c06f012d464b51006f052d474b51406f092d484b51806f0d2d494b51c06f112d4a4b52006f152d4b4b52406f192d4c4b52806f1d2d4d4b52c06f212d4e4b53006f252d4f4b53406f292d504b53806f2d2d314b53c06f312d324b54006f352d334b4c406f392d344b4c806f3d2d354b4cc06f412d364b4d006f452d374b4d406f492d384b4d806f4d2d394b4dc83cac00965001c5001d2d3a4b4e083cb0009750020500212d3b4b4e483cb4009850024500252d3c4b4e883cb8009950028500292d3d4b4ec83cbc009a5002c5002d2d3e4b4f083cc0009b50030500312d3f4b4f483cc4009c50034500352d404b4f883cc8009d50038500392d414b4fc83ccc009e5003c5003d2d424b50083cd0009f50040500412d434b5045ef55dc11770c077045dc1027060270609c1a2706527069dc1060f5027065dc1062f505ef51dc10770bc77041dc0f27054270549c17270592705ddc0f60f4c27059dc0f62f4c5ef4ddc0f770b87703ddc0e27048270489c142704d27051dc0e60f482704ddc0e62f48)
  (.lf 0)) (.nd (.lf
  0x191a9bcc45df786f311bcc3191981919864681919d1919dbcc35df745a01dbcc36f388191a1bcc35bf746f30dbcc21918c1918c64651919132881f7fb4d8606f3896fdd5df745bf75bd016f4806f48008874a46019195bcc25bf706f3856fdc5df705bf71bd006f47c6f47c08864a45c19315bd02022206f409bd01193001930064c21930519305bd014a4604a461f7fb7e0687dfedf7fa3287032870ca1e3287532879f7fa4c05c32875f7fa4d85c19309bd010221c6f405bd00192f4192f464bf192f9192f9bd004a45c4a45df7fa7e0647dfe9f7f93286432864ca1b3286932869f7f94d858192fdbd00022186f401bcff192e8192e864bc192ed192edbcff4a458444d004650111453fd80485445d0445d11194446d1446d004850111401115971065cbc0a28d97115205c65c4597100a2780a27828a00a27d0a27d9710580580a28197105205865c41970f0a26c19191bcc25df706f309bcc1191801918064621918565bc5601601a1465cbd48165805819024640719018190186407580595805864075a0145a015bcc16f38019189bcc15bf6c6f3816fdb5df6c5bf6dbcff6f478192f1bcff022146f3fdbcfe192dc192dc64b9192e1192e1bcfe4a454)
  (.lf 0)))

def shaGateTree281 : BTree :=
  .nd (.nd (.nd (.lf
  0x5b2cde28778a9878a9974ad5f2b45f2b5e30378c8878c0de3022a2302a230a88e2a2352a239e302612b02a235e302632b029f75e2875d2b478a1de28629f6029f60a7da29f6529f65e2865f2b029da0a76629d9429d94a7665939d5d0b1ded177bc077bc00ed60005828401ded20005c77b49ded1283f0283f0a0fe283f5283f9ded103b5803b59a94b6a5a86a5a964e70445810e39a98a533a06a629a98910e2410e24438b10e2910e29a9895939c04259a9896a6a06a6a14ce75939c10ccda94c0445c6a531a94b10cbc10cbc433110cc110cc5a94b5939c5939ca7665b2c85b2c9e28678a9478a9574ac5f2b05f2b1e30278c8478c09e3012a2242a224a88b2a2292a22de301612ac2a229e301632ac29f69e2865d2b078a19e28529f5429f54a7d729f5929f59e2855f2ac29d98a76429d8c29d8ca764593995d0added077bbc77bbc0ed500054283f5ded10005877b45ded0283e4283e4a0fb283e9283edded003b5403b55a94a6a5a46a5a564e60445410e2da9895339c6a625a98810e1810e18438810e1d10e1da9885939804255a9886a69c6a69d4ce65939810cc1a94b044586a52da94a10cb010cb0432e10cb510cb9a94a5939859398a7645b2c4)
  (.lf 0)) (.nd (.lf
  0x7f3d52abb4f36c4f36d2a25066887f3d92abc4f3704f3712a260668c7f3dd2abd4f3744f3752a27066907f3e12abe4f3784f3792a28066947f3e52abf4f37c4f37d2a29066987f3e92ac04f3804f3812a2a0669c7f3ed2ac14f3844f3852a2b066a07f3f12ac24f3884f3892a2c066a47f3f52ac34f38c4f38d2a2d066a87f3f92ac44f3904f3912a2e066ac7f3fd2ac54f3944f3952a2f066b07f4012ac64f3984f3992a30066b4066612a244a888066652a254a88c066692a264a8900666d2a274a894066712a284a898066752a294a89c066792a2a4a8a00667d2a2b4a8a4066812a2c4a8a8066852a2d4a8ac066892a2e4a8b00668d2a2f4a8b4066912a304a8b8066952a114a8bc066992a124a8c00669d2a134a844066a12a144a848066a52a154a84c066a92a164a850066ad2a174a854066b12a184a858066b52a194a85c7f4052ac74f39c4f39d2a1a4a8607f4092ac84f3a04f3a12a1b4a8647f40d2ac94f3a44f3a52a1c4a8687f4112aca4f3a84f3a92a1d4a86c7f4152acb4f3ac4f3ad2a1e4a8707f4192acc4f3b04f3b12a1f4a8747f41d2acd4f3b44f3b52a204a8787f4212ace4f3b84f3b92a214a87c7f4252acf4f3bc4f3bd2a224a880)
  (.lf 0))) (.nd (.nd (.lf
  0x22addd25756bb452bb5d257749d87495dd25622acc22acc8ab522ad122ad5d25654bb022ad1d25656bb052bb1d256749d474959d25522ac022ac08ab222ac522ac9d25554bac22ac5d25556bac52badd255749d074955d25422ab422ab48aaf22ab922abdd25454ba822ab9d25456ba852ba9d254749cc74951d25322aa822aa88aac22aad22ab1d25354ba422aadd25356ba452ba5d253749c87494dd25222a9c22a9c8aa922aa122aa5d25254ba022aa1d25256ba052ba1d252749c474949d25122a9022a908aa622a9522a99d25154b9c22a95d25156b9c52b9dd251749c074945d25022a8422a848aa322a8922a8dd25054b9822a89d25056b9852b99d250749bc74941d24f22a7822a788aa022a7d22a81d24f54b9422a7dd24f56b9452b95d24f749b87493dd24e22a6c22a6c8a9d22a7122a75d24e54b9022a71d24e56b9052b91d24e749b474939d24d22a6022a608a9a22a6522a69d24d54b8c22a65d24d56b8c52b8dd24d749b074935d24c22a5422a548a9722a5922a5dd24c54b8822a59d24c56b8852b89d24c749ac74931d24b22a4822a488a9422a4d22a51d24b54b8422a4dd24b56b8452b85d24b749a87492dd24a22a3c22a3c8a9122a41)
  (.lf 0)) (.nd (.lf
  0x7c47529e1503845038529c404c447c47929e2503885038929c504c487c47d29e35038c5038d29c604c4c7c48129e4503905039129c704c507c48529e5503945039529c804c547c48929e6503985039929c904c587c48d29e75039c5039d29ca04c5c7c49129e8503a0503a129cb04c607c49529e9503a4503a529cc04c647c49929ea503a8503a929cd04c687c49d29eb503ac503ad29ce04c6c7c4a129ec503b0503b129cf04c707c4a529ed503b4503b529d004c7404c0529c34a6e004c0929c44a6e404c0d29c54a6e804c1129c64a6ec04c1529c74a6f004c1929c84a6f404c1d29c94a6f804c2129ca4a6fc04c2529cb4a70004c2929cc4a70404c2d29cd4a70804c3129ce4a70c04c3529cf4a71004c3929d04a71404c3d29b14a71804c4129b24a71c04c4529b34a72004c4929b44a72404c4d29b54a72804c5129b64a72c04c5529b74a73004c5929b84a73404c5d29b94a73804c6129ba4a73c04c6529bb4a74004c6929bc4a6c404c6d29bd4a6c804c7129be4a6cc04c7529bf4a6d07c4a929ee503b8503b929c04a6d47c4ad29ef503bc503bd29c14a6d87c4b129f0503c0503c129c24a6dc5bb25b4286d11c6d11c05734a0104d325f08a7c2a4)
  (.lf 0)))

def shaGateTree282 : BTree :=
  .nd (.nd (.nd (.lf
  0x3dbdabb06af3c6af3d6580046bc59601e7682c1302c13000005b5165b515e78079e7c79e7d75455f5145f515e7fc7a06c79ff1e7fb2c4c42c4c4b1332c4c92c4cde7fb615102c4c9e7fb635102c209e7805d51479e01e77f2c1f42c1f4b07f2c1f92c1f9e77f5f5102c088000079da279da0b01f2c0782c078b01f595fd5d311e3b478f4c78f4c0f6e002b82a799e3b5002bc78ed5e3b42a7882a788a9e42a78d2a791e3b403db803db9abaf6af386af39657f046b811be9abee536006afb9abed11bd411bd446f711bd911bd9abed595fc044b9abed6b0306b0314d7f595fc11a7dabb0046bc6aec1abaf11a6c11a6c469d11a7111a75abaf595fc595fcb01f5b5105b511e77f79e7879e7975445f5105f511e7fb7a06879fede7fa2c4b82c4b8b1302c4bd2c4c1e7fa6150c2c4bde7fa6350c2c1fde77f5d51079dfde77e2c1e82c1e8b07c2c1ed2c1ede77e5f50c2c07cb01d2c0702c070b01d595f95d30de3b378f4878f480f6d002b42a78de3b4002b878ed1e3b32a77c2a77ca9e12a7812a785e3b303db403db5abae6af346af35657e046b411bddabed535fc6afb5abec11bc811bc846f411bcd11bcdabec595f8044b5abec6b02c6b02d4d7e595f8)
  (.lf 0)) (.nd (.lf
  0x1de7dc7ac5c4ec3c2a40965025800c17d9c65525dc671959c640c1680c168305c0c16d0c16d9c64585d83ed500985025946046c09a53edd03edd009653ee510c0119c2701f986709d9c260c0000c00030020c00545550078501d945455807a5456504565115b4457514575007a501d9401d959c646720c6720d4976585d80c0099c26585d8025959c26671141dd04777b1dcf467115617601f94585d8777b1de1c1dcf4773f1dcf91dcf8777b5a5641de1c00005a5665a565c7ac71f2c71f2d713b5e4ec5c4edc7ea720247206c09f74aa201de79c7ac5e4ec71eb1c7ab1de681de68779c1de6d1de6dc7ab5e4e81dcfc00001ddee0c1719c64525d83ed4c0984025906046809a43edcc3edcc09643ee4d671919c630c15c0c15c30590c1610c1619c63585d44554c078401d905455407a44564c4564d15b34574d4574c07a401d9001d919c6367208672094975585d40c0059c2601f94670999c250bff40bff42fff0bff90bffd9c25585d41ddec773c1dcec025919c256711067111617501f901dcec773c585d5585d4773c5a5605a561c7ab71f281de71c7ab5c4e871eadc7aa1de5c1de5c77991de611de65c7aa5c4e43ed4809830258c6046409a33edc8)
  (.lf 0))) (.nd (.nd (.lf
  0x2526c949d2527125271d7e24b23025115d7a55ed4875e95d7a425104251049443251092510dd7a45cd4424f3c000024f8624f8493e024f2824f2893cc24f2d24f2c93e05ad8458e3093e024fc024fc000005ad865ad85d7a475f0c75f0d73515ed445cd45d7e276004760040dfb4b2304b2320bad82f3082f31338c4e6304e6320c2983120830a60c2839e1839e18e78839e1d39e220c280006839e1e0c284fe2c39b5e0bad4ce3082eb60bac39b4839b48e6d439b4d39b4e0bac4e62c69069638b02fe825275d7e2037ec75f89d7e12526025260949a2526525265d7e14b22c25109d7a45ed4475e91d7a3250f8250f89440250fd25101d7a35cd4024f30000024f8224f8093df24f1c24f1c93c924f2124f2093df5ad8058e2c93df24fbc24fbc00005ad825ad81d7a375f0875f0973505ed405cd41d7e176000760000dfa4b22c4b22e0bac82f2c82f2d338b4e62c4e62e0c288311c830a20c2739e0c39e0ce78539e1139e160c270006439e120c274fe2839b520bac4ce2c82eb20bab39b3c39b3ce6d139b4139b420bab4e62869065638a02fe425269d7e1037e875f85d7e0252542525494972525925259d7e04b228250fdd7a35ed4075e8dd7a2250ec)
  (.lf 0)) (.nd (.lf
  0x995d956d57f14655b5956c099480994826540994d09951956c57f103df8805d3016cc5fda405f33e0083e00805b33e0890994d956c011cc016cd956c6562c655b1956b0993c6e5817f5d61d7461d7405a03bb583bb5805b2016b40993c26510994109941956b011c83df8405d2016c85fda005f23e0043e00405b23e085016c9956b6562809945956b57f0c655ad956a0993009930264e0993509939956a57f083bb5405b1016b03df8005d1016c45fd9c05f13e0003e00005b13e081016c5956a6562409935956a011c4655a995690992409924264b099290992d956957f043bb3c05ab016983bb5005b0016ac3df6805cb016ac5fd8405eb3dfe83dfe805ab3e069016ad95646560c3bb4005ac0169c3df6c05cc016b05fd8805ec3dfec3dfec05ac3e06d016b19565656103bb4805ae016a43df7405ce016b85fd9005ee3dff43dff405ae3e075016b99567656183bb4c05af016a8099299569011c03df7c05d0016c05fd9805f03dffc3dffc05b03e07d016c1956965620655a59568099180991826480991d09921956857f003df7805cf016bc5fd9405ef3dff83dff805af3e0790991d9568011bc016bd95686561c655a195670990c3bb4405ad016a0)
  (.lf 0)))

def shaGateTree283 : BTree :=
  .nd (.nd (.nd (.lf
  0x3a8860e06517643a72a0dc94e768837260dc83a7183a718e9c83a71d3a7220dc84cf64266cddac50392476b15dac4266b8266b899b0266bd266bddac44b3645ce79dac476b8c76b8c0e484b3644b3660dc88379c8379d33d94e7644cf660e06838948381a0e053a8743a874ea1f3a8793a87e0e050061c3a87a0e05517603a71e0dc84e764837220dc73a70c3a70ce9c53a7113a7160dc74cf60266c1dac40392076b11dac3266ac266ac99ad266b1266b1dac34b3605ce75dac376b8876b880e474b3604b3620dc7837988379933d84e7604cf620e0583890838160e043a8683a868ea1c3a86d3a8720e04006183a86e0e045175c3a7120dc74e7608371e0dc63a7003a700e9c23a7053a70a0dc64cf5c266b5dac30391c76b0ddac2266a0266a099aa266a5266a5dac24b35c5ce71dac276b8476b840e464b35c4b35e0dc6837948379533d74e75c4cf5e0e048388c838120e033a85c3a85cea193a8613a8660e03006143a8620e03517583a7060dc64e75c8371a0dc53a6f43a6f4e9bf3a6f93a6fe0dc54cf58266a9dac20391876b09dac1266942669499a72669926699dac14b3585ce6ddac176b8076b800e454b3584b35a0dc5837908379133d64e758)
  (.lf 0)) (.nd (.lf
  0x33451f9f74f1907e7ddf9f63344033440cd123344533449f9f64a90c33445f9f64f18c4d98df9f67e8547e7d9f9f53343433434cd0f334393343df9f54a90833439f9f54f1884d989f9f57e8507e7d5f9f43342833428cd0c3342d33431f9f44a9044d981f9f37e8484d985f9f47e84c3342df9f44f1847e7d1f9f33341c3341ccd093342133425f9f34a90033421f9f34f1807e7cdf9f23341033410cd063341533419f9f24a8fc33415f9f24f17c4d97df9f27e8447e7c9f9f13340433404cd03334093340df9f14a8f833409f9f14f1784d979f9f17e8407e7c5f9f0333f8333f8cd00333fd4d975f9f07e83c333fdf9f04f17433401f9f04a8f47e7c1f9ef333ec333ecccfd333f1333f1f9ef4f1704d971f9ef7e838333f5f9ef4a8f07e7bdf9ee333e0333e0ccfa333e5333e9f9ee4a8ec4d96df9ee7e834333e5f9ee4f16c7e7b9f9ed333d4333d4ccf7333d9333d9f9ed4f168333ddf9ed4a8e84d969f9ed7e8307e7b5f9ec333c8333c8ccf4333cd333d1f9ec4a8e44d965f9ec7e82c333cdf9ec4f1647e7b1f9eb333bc333bcccf1333c1333c1f9eb4f160333c5f9eb4a8e04d961f9eb7e8287e7adf9ea333b0333b0ccee333b5333b9f9ea4a8dc)
  (.lf 0))) (.nd (.nd (.lf
  0x73cdd822662898628980a693c67c73ce182276289c6289c0a6a3c68073ce58228628a0628a00a6b3c68473ce98229628a4628a40a6c3c68873ced822a628a8628a80a6d3c68c73cf1822b628ac628ac0a6e3c69073cf5822c628b0628b00a6f3c69473cf9822d628b4628b40a703c69873cfd822e628b8628b80a713c69c73d01822f628bc628bc0a723c6a073d058230628c0628c00a733c6a473d098231628c4628c40a743c6a873d0d8232628c8628c80a753c6ac73d118233628cc628cc0a763c6b073d158234628d0628d00a773c6b473d198235628d4628d40a783c6b83c63c0a6b029983c6400a6c0299c3c6440a6d029a03c6480a6e029a43c64c0a6f029a83c6500a70029ac3c6540a71029b03c6580a72029b43c65c0a73029b83c6600a74029bc3c6640a75029c03c6680a76029c43c66c0a77029c83c6700a78029cc3c6740a79029d03c6780a7a029d43c67c0a7b029d83c6800a7c029dc3c6840a7d029e03c6880a7e029e43c68c0a7f029e83c6900a60029ec3c6940a61029f03c6980a62029f43c69c0a63029f83c6a00a64029fc3c6a40a65029803c6a80a66029843c6ac0a67029883c6b00a680298c3c6b40a69029903c6b80a6a02994)
  (.lf 0)) (.nd (.lf
  0xcc192bf64b7864b79470157c0464b0192bf089ac089ac226d089b1089b592bf51c0451c05b39f6cef814efc53c114f0114f05b39f53c0414f01b39f55c046ce7db39e14ef014ef053be14ef553b7c036e43874438750e3d4397553b78036d438704376c034c00cb043770034d00cb443774034e00cb843778034f00cbc53b74036c4386c4386d0e3b4396d4396c036c00cb041538032c00c8400cb192bb64b68414c0032e00c8c43974036e00cb800cb992bd64b7053b80036f43878438790e3e4397943978036f00cbc414c4032f00c90438710e3c4397143970036d00cb4089b192bf57c0464afd92be089a0089a0226a089a5089a592be57c00089a992be51c00414bc032d00c8800cb592bc64b6c00cbd92be64b7464af992bd08994089942267089990899992bd57bfc0899d92bd51bfc64af592bc089880898822640898d0898d92bc57bf80899192bc51bf864af192bb0897c0897c2261089810898192bb57bf40898592bb51bf464aed92ba0897043764034a00ca843768034b00cac43964036a00ca800ca992b964b6008970225e089750897992ba51bf053b70036b43868438690e3a4396943968036b00cac00cad92ba64b640897592ba57bf0)
  (.lf 0)))

def shaGateTree284 : BTree :=
  .nd (.nd (.nd (.lf
  0x430b4118b04600430b8118c04604489bc11a004600489c011a104604489c411a204608489c811a30460c489cc11a404610489d011a504614489d411a604618489d811a70461c489dc11a804620489e011a904624489e411aa04628489e811ab0462c489ec11ac04630489f011ad04634489f411ae04638489f811af0463c489fc11b00464048a0011b10464448a0411b20464848a0811b30464c48a0c11b40465048a1011b50465448a1411b60465848a1811b70465c48a1c11b80466048a2011b90466448a2411ba0466848a2811bb0466c48a2c11bc0467048a3011bd0467448a3411be0467848a3811bf0467c556c411c048abc556c811c148ac0556cc11c248ac4556d011c348ac8556d411c448acc556d811c548ad0556dc11c648ad4556e011c748ad8556e411c848adc556e811c948ae0556ec11ca48ae4556f011cb48ae8556f411cc48aec556f811cd48af0556fc11ce48af45570011cf48af85570411d048afc5570811d148b005570c11d248b045571011d348b085571411d448b0c5571811d548b105571c11d648b145572011d748b185572411d848b1c5572811d948b205572c11da48b245573011db48b285573411dc48b2c5573811dd48b30)
  (.lf 0)) (.nd (.lf
  0x35df2012f4f6604de62012f80538804be012e35de035de0d77a35de535dea012e4addc35de6012e4f65c4de5e012e80534804ba012d35dd435dd4d77735dd935dde012d4add835dda012d4f6584de5a012d80530804b6012c35dc835dc8d77435dcd35dd2012c4add435dce012c4f6544de56012c8052c804b2012b35dbc35dbcd77135dc135dc6012b4add035dc2012b4f6504de52012b80528804ae012a35db035db0d76e35db535dba012a4adcc35db6012a4f64c4de4e012a80524804aa012935da435da4d76b35da935dae01294adc835daa01294f6484de4a0129805204de452b714f644804a52b714f6454f6452adb06870805212b724f6484f6492adc06874805252b734f64c4f64d2add06878805292b744f6504f6512ade0687c8052d2b754f6544f6552adf06880805312b764f6584f6592ae006884805352b774f65c4f65d2ae106888805392b784f6604f6612ae20688c8053d2b794f6644f6652ae306890805412b7a4f6684f6692ae406894805452b7b4f66c4f66d2ae506898805492b7c4f6704f6712ae60689c8054d2b7d4f6744f6752ae7068a0805512b7e4f6784f6792ae8068a4805552b7f4f67c4f67d2ae9068a8805592b804f680)
  (.lf 0))) (.nd (.nd (.lf
  0x3a2ea0d0e4cee48343a0d0d3a2d43a2d4e8b73a2d93a2da0d0d4e6e0360ce01ac50ee4806b201ab360bc360bcd831360c1360c601ab4b2e04c6e201ab80728807292cb850ee00f435a51f52ee46947da51e0f4200f4203d0a0f4250f425a51e58ee002e9da51e694f4694f54bb858ee025fcdd9cc038a076731d9cb25fb825fb897f025fbd25fbdd9cb4b2e025e61d98e5edf876639d98d25e5025e50979625e5525e59d98d5cdf425c9c972525c9025c90972558ee158ee097255ae305ae31d98d766b0766b1737d5edf45cdf5d9cb767a8767a80e274b2e04b2e20d0d834b0834b133b84e6e04e6e20d89836a0836260d883a5983a598e9683a59d3a5a20d88001183a59e0d884fedc3a2de0d0d4cee0834360d0c3a2c83a2c8e8b43a2cd3a2ce0d0c4e6dc360c201ab50ee0806ae01aa360b0360b0d82e360b5360ba01aa4b2dc4c6de01aa80724807252cb750edc0f429a51e52ee069479a51d0f4140f4143d070f4190f419a51d58edc02e99a51d694f0694f14bb758edc25fc1d9cb0389c7672dd9ca25fac25fac97ed25fb125fb1d9ca4b2dc25e55d98d5edf476635d98c25e4425e44979325e4925e4dd98c5cdf025c94976325c8425c84972325c89)
  (.lf 0)) (.nd (.lf
  0x4bf49f6bf7db787dafd2ad150745507452ab404fa47db792ad250748507492ab504fa87db7d2ad35074c5074d2ab604fac7db812ad450750507512ab704fb07db852ad550754507552ab804fb47db892ad650758507592ab904fb87db8d2ad75075c5075d2aba04fbc7db912ad850760507612abb04fc07db952ad950764507652abc04fc47db992ada50768507692abd04fc87db9d2adb5076c5076d2abe04fcc7dba12adc50770507712abf04fd07dba52add50774507752ac004fd47dba92ade50778507792ac104fd87dbad2adf5077c5077d2ac204fdc7dbb12ae050780507812ac304fe07dbb52ae150784507852ac404fe47dbb92ae250788507892ac504fe87dbbd2ae35078c5078d2ac604fec7dbc12ae450790507912ac704ff07dbc52ae550794507952ac804ff47dbc92ae650798507992ac904ff87dbcd2ae75079c5079d2aca04ffc7dbd12ae8507a0507a12acb050007dbd52ae9507a4507a52acc050047dbd92aea507a8507a92acd050087dbdd2aeb507ac507ad2ace0500c7dbe12aec507b0507b12acf050107dbe52aed507b4507b52ad00501404fa52ac34aae004fa92ac44aae404fad2ac54aae804fb12ac64aaec04fb52ac74aaf0)
  (.lf 0)))

def shaGateTree285 : BTree :=
  .nd (.nd (.nd (.lf
  0x5b16ddf9177ec077ec174525f1485f149e00d780b078035e00c28cd828cd8a33828cdd28ce1e00c6114428cdde00c6314428a1ddf915d14877e45df9028a0828a08a28428a0d28a0ddf905f1442884000002888a28888a2212882c2882ca20d2883128830a2215b1686a0e54c8c5923059230a221288c4288c400005b16a5b169df9077ebc77ebd74515f1445f145e00c780ac78031e00b28ccc28ccca33528cd128cd5e00b6114028cd1e00b6314028a11df905d14477e41df8f289fc289fca28128a0128a01df8f5f1402883400002888628884a20a2882428824a20a5922d6a0e14c8b5922c5922ca20a5b1645b165df8f77eb877eb974505f1405f141e00b780a87802de00a28cc028cc0a33228cc528cc9e00a6113c28cc5e00a6313c28a05df8f5d14077e3ddf8e289f0289f0a27e289f5289f5df8e5f13c28828a2202881828818a2082881d2881ca2205b16059228a220288c0288c000005b1625b161df8e77eb477eb5744f5f13c5f13de00a780a478029e00928cb428cb4a32f28cb928cbde0096113828cb9e00963138289f9df8e5d13c77e39df8d289e4289e4a27b289e9289e9df8d5f1382882000002888228880a21f2880c2880ca20528811)
  (.lf 0)) (.nd (.lf
  0x705f9c17d1b1c81b1c86c741b1cd1b1cdc17d562f81b1d1c17d542f8522f9c17d70670705f5c17c1b1bc1b1bc6c711b1c11b1c5c17c542f4522f5c17c7066c1b1c1c17c562f4705f1c17b1b1b01b1b06c6e1b1b51b1b5c17b562f01b1b9c17b542f0522f1c17b70668705edc17a1b1a41b1a46c6b1b1a91b1adc17a542ec522edc17a706641b1a9c17a562ec705e9c1791b1981b1986c681b19d1b19dc179562e8522e9c179706607066150ba562e8562e806df41c607068550c35630c5630c06c841c84706b150ce563385633806d341cb041c8406df01b5041cb006ca01b7c706b950d05634044e3806ff01b7c54340071f44f3844f3913ee4503945038071f01b7c01b7d9a12668c4668499a110b4840b4842d230b4890b48d9a11523bc3e8b008fd023743e8b408fe023783e8b808ff0237c6024c091d3e93060250091e3e93460254091f3e9383e93008dd3e9b13e93408de3e9b53e93808df3e9b90237599d2667c40237d99d4667cc6675199d30b31c0b31c2cc90b3210b32199d301d780b32599d3583bc0237999d3667c86674d99d20b3100b3102cc60b3150b31999d2583b80b31599d201d746674999d10b3040b3042cc30b3090b30999d101d70)
  (.lf 0))) (.nd (.nd (.lf
  0x74179d05d21be421be486fb21be921bedd05d54a8c52a8dd05d741f021be9d05d56a8c74175d05c21bd821bd886f821bdd21bddd05c56a8852a81d05a741e452a89d05c741ec21be1d05c54a8874171d05b21bcc21bcc86f521bd121bd5d05b54a8452a85d05b741e821bd1d05b56a847416dd05a21bc021bc086f221bc521bc9d05a54a8021bc5d05a56a8074169d05921bb452a59d050741bc21bb486ef21bb921bbdd05954a7c52a7dd059741e021bb9d05956a7c74165d05821ba821ba886ec21bad21bb1d05854a7821badd05856a7852a79d058741dc74161d05721b9c21b9c86e921ba121ba5d05754a7421ba1d05756a7452a75d057741d87415dd05621b9021b9086e621b9521b99d05654a7021b95d05656a7052a71d056741d474159d05521b8421b8486e321b8921b8dd05554a6c21b89d05556a6c52a6dd055741d074155d05421b7852a65d053741c852a69d054741cc21b7886e021b7d21b7dd05456a6821b81d05454a6874151d05321b6c21b6c86dd21b7121b71d05356a6421b75d05354a647414dd05221b6021b6086da21b6521b69d05254a6021b65d05256a6052a61d052741c474149d05121b5421b5486d721b5921b5dd05154a5c)
  (.lf 0)) (.nd (.lf
  0x61c2c054e3ba103b9fc055b015583ba1005400156c3dca8057b0156c5fc44059b3dd283dd28055b3dda96cd34055b49fb00156d94006507c55d28038f416a0416a0038600e6c43d290f6a43e2943e2803db00e6c41674039b00e4043c2803bb00e6c00e6d943e6517409149940101070650059400091380913824500913d09141940057db06507d5f6c0106c65175476c57db057db059a0166cc1668059861661416614598657dad14cb5b32e49fb06ccb9b32d14ca414ca4532b14ca914cadb32d015685bac1b32d6cd306cd30055a49fac144d1b21449ecc6c851b213144c0144c05132144c5144c9b213014845b9ddb2136c8c86c8c8052149ec83db400541014845fb5c05613dbc03dbc005213dc4101485936a64e2464e255f3200f8408d41936b00f8864dad936a08d3008d30234e08d3508d39936a57cc843a40038100d8408ead93a951ccc64ea593a808e9808e9823a808e9d08e9d93a857cc853c4803a143b4043b410ef043c4143c4003a100d8400d8593a864f1c64f1d473257cc857cc8000059c9e59c9db5c86d79c6d79d6ef75dbdc15f89b5c95bbe06d725b5c815f7415f7457df15f7915f79b5c85dbdc5dbddb6446d98c6d98d7ef761bdc)
  (.lf 0)))

def shaGateTree286 : BTree :=
  .nd (.nd (.nd (.lf
  0x40c140f3640c9540c180f3740c9940c1c0f3840c9d40c200f3940ca140c240f3a40ca540c280f3b40ca940c2c0f3c40cad40c300f3d40cb140c340f3e40cb540c380f3f40cb9534c1e4417918079105e4402ab182ab18aac82ab1d2ab21e440554bc2ab1de440574bc534bde4407917c79101e43f2ab0c2ab0caac52ab112ab15e43f554b82ab11e43f574b8534b9e43f79178790fde43e2ab002ab00aac22ab052ab09e43e554b42ab05e43e574b4534b5e43e79174790f9e43d2aaf42aaf4aabf2aaf92aafde43d554b02aaf9e43d574b0534b1e43d79170790f5e43c2aae82aae8aabc2aaed2aaf1e43c554ac2aaede43c574ac534ade43c7916c790f1e43b2aadc2aadcaab92aae12aae5e43b554a82aae1e43b574a8534a9e43b79168790ede43a2aad02aad0aab62aad52aad9e43a554a42aad5e43a574a4534a5e43a79164790e9e4392aac42aac4aab32aac92aacde439554a02aac9e439574a0534a1e43979160790e5e4382aab82aab8aab02aabd2aac1e4385549c2aabde4385749c5349de4387915c790e1e4372aaac2aaacaaad2aab12aab5e437554982aab1e4375749853499e43779158790dde4362aaa02aaa0aaaa2aaa52aaa9e43655494)
  (.lf 0)) (.nd (.lf
  0x34ed1fe8c4c4fc4a8fdfe8c7faac7faad313f4dcfc4c4fdfeca7fba47fb29fec93502435024d40b350293502dfec94b0f835029fec950cf834ecdfe8c4dcfc7fa31fe8b34ebc34ebcd3b134ec134ec5fe8b4c4f84a8f9fe8b7faa87faa9313e4dcf84c4f9fec97fba07fb25fec83501835018d4083501d35021fec84b0f43501dfec850cf434ec1fe8b4dcf87fa2dfe8a34eb034eb0d3ae34eb534eb9fe8a4c4f44a8f5fe8a7faa47faa5313d4dcf44c4f5fec87fb9c7fb21fec73500c3500cd4053501135015fec74b0f035011fec750cf034eb5fe8a4dcf47fa29fe8934ea434ea4d3ab34ea934eadfe894c4f04a8f1fe897faa07faa1313c4dcf04c4f1fec77fb987fb1dfec63500035000d4023500535009fec64b0ec35005fec650cec34ea9fe894dcf07fa25fe8834e9834e98d3a834e9d34ea1fe884c4ec4a8edfe887fa9c7fa9d313b4dcec4c4edfec67fb947fb19fec534ff434ff4d3ff34ff934ffdfec54b0e834ff9fec550ce834e9dfe884dcec7fa21fe8734e8c34e8cd3a534e9134e95fe874c4e84a8e9fe877fa987fa99313a4dce84c4e9fec57fb907fb15fec434fe834fe8d3fc34fed34ff1fec44b0e434fedfec450ce434e91fe874dce8)
  (.lf 0))) (.nd (.nd (.lf
  0x56cb00b3142628751c5532d56cb456cb40b324262c425f00b3a02cbc425f40b3b02cc0425f80b3c02cc4425fc0b3d02cc8426040b3f02cd04261c0b2502ce8426200b2602cec426240b2702cf0426280b2802cf44262c0b2902cf8426300b2a02cfc46aa80b5b02cec46aac0b5c02cf046ab00b5d02cf446ab40b5e02cf846ab80b5f02cfc54cb00b7b46ba854cb40b7c46bac54cb80b7d46bb0751cd532f56cbc54cbc0b7e46bb4751d1533056cc054cc00b7f46bb846ba91b0a46ca946bad1b0b46cad46bb11b0c46cb146bb51b0d46cb546bb91b0e46cb946ca80b7b02cec46cac0b7c02cf046cb00b7d02cf446cb40b7e02cf846cb80b7f02cfc02cfda34668d9468d19a3450e9f40e9f43a7f0e9f90e9f9a34558d3c02cf9a34568d900e9fda34552d3c68d15a3440e9e80e9e83a7c0e9ed0e9f1a34452d380e9eda34458d3802cf5a34468d8c68d11a3430e9dc0e9dc3a790e9e10e9e1a34358d340e9e5a34352d3402cf1a34368d8868d0da3420e9d00e9d03a760e9d50e9d5a34258d300e9d9a34252d3002ceda34268d8468d09a3410e9c40e9c43a730e9c90e9c9a34158d2c46aa40b5a02ce854cac0b7a46ba446ba51b0946ca546ca40b7a02ce8)
  (.lf 0)) (.nd (.lf
  0x43d9003d500ed453d9803f543e9043e910fc443f9143f9003f500ed400ed594b46534c09528254c0952d0953194b451e180952d94b457e18652d194b30951c0951c2549095210952194b357e140952594b351e14652cd94b209510416d403b300ea043d8803d300ecc53d9003f343e8843e890fc243f8943f8803f300ecc00ecd94b265344095102546095150951594b257e100951994b251e10652c994b109504095042543095090950d94b151e0c416d003b200e9c0950994b157e0c43d8403d200ec853d8c03f243e8443e850fc143f8543f8403f200ec800ec994b165340652c594b0094f8094f82540094fd094fd94b057e080950194b051e08652c194af094ec094ec253d094f1094f194af57e04416c803b000e94094f594af51e0443d7c03d000ec053d8403f043e7c43e7d0fbf43f7d43f7c03f000ec000ec194af65338652bd94ae094e0094e0253a094e543d5003c500e9453d5803e543e5043e510fb443f5143f5003e500e9400e9594a46530c6530d477657dd8094e594ae57e00416c003ae00e8c43d7403ce00eb853d7c03ee43e7443e750fbd43f7543f7403ee00eb800eb994ad65330416c403af00e9043d7803cf00ebc53d8003ef43e78)
  (.lf 0)))

def shaGateTree287 : BTree :=
  .nd (.nd (.nd (.lf
  0x5b009dd76776547765573f75efdc5cfddddb47774c7774c0ea14b4c84b4ca0fef840388403934324e8c84d0ca102d841303b3720fef4e8c8398ba0b554fd48395ee0ad94cd484b14533514e54482b6533514e5454e5452d314fd4482d552d314fd453715a048d510c84c8c52d31510c4812352d31510c569c214c31590c50fdb5a6ca0418469b296431041810388164310418027c05ddb403a8427a99dd765efdc590c400005b0065b00573f65efd8775d973f65efd95cfd80ea04b4c4776d00ea04b4c54b4c534314e8c483fbd34314e8c54d0c401e0518c4840b401e0518c5518c401c3048008413001e1518c8518c801c4048048413401e2518cc518cc01c5048088413801e3518d0518d001c60480c8413c01e4518d4518d401c7048108414001e5518d8518d801c8048148414401e6518dc518dc01c9048188414801e7518e0518e001ca0481c8414c01e8518e4518e401cb048208415001e9518e8518e801cc048248415401ea518ec518ec01cd048288415801eb518f0518f001ce0482c8415c01ec518f4518f401cf048308416001ed518f8518f801d0048348416401ee518fc518fc01d1048388416801ef519005190001d20483c8416c01f051904)
  (.lf 0)) (.nd (.lf
  0x65fbd605c01b2c660b5485c5817019e38678c19e2c19e2c678c5817158170678c5a11819e30678a19e2465fb9605b01b28660b1485b5816c19e24678a5816d5816c678a5a11419e28678819e1c19e1c678858169660ad485a581683e4600669019245fffc08893e4e03e4e006493e5610192597ce65fb465fb5605a01b245816867885a11019e20678619e143be3006480190c3e45c0668019205fff808883e4dc3e4dc06483e55d19e14678658165660a94859581640a6e597ce01b2465f3997cd0a6d40a6d429b70a6d90a6dd97cd581640192197cd65fb065fb1605901b205816467865a10c19e18678419e0c19e0c6784581613be280646019043be2c0647019085a135bebe6fb741a00dbebf5e0a46fafdbebe19ffc19ffc68011a0011a005bebe5c0a01a001bebe5e0a06faf9bebd19ff019ff067fe19ff519ff5bebd5e09c19ff9bebd5c09c19f1c00005a1325a131bebd6fb706faf5bebc19fe419fe467fb19fe919fedbebc5c09819fe9bebc5e0985a12dbebc6fb6c6faf1bebb19fd819fd867f819fdd19fe1bebb5c09419fddbebb5e09419f1800005a12a5a129bebb6fb686faedbeba19fcc19fcc67f519fd119fd5beba5c09019fd1beba5e090)
  (.lf 0))) (.nd (.nd (.lf
  0x738c981f9627e4627e40a5c3c5c8738cd81fa627e8627e80a5d3c5cc738d181fb627ec627ec0a5e3c5d0738d581fc627f0627f00a5f3c5d4738d981fd627f4627f40a403c5d8738dd81fe627f8627f80a413c5dc738e181ff627fc627fc0a423c5e0738e5820062800628000a433c5e4738e9820162804628040a443c5e8738ed820262808628080a453c5ec738f182036280c6280c0a463c5f0738f5820462810628100a473c5f4738f9820562814628140a483c5f8738fd820662818628180a493c5fc7390182076281c6281c0a4a3c60073905820862820628200a4b3c60473909820962824628240a4c3c6087390d820a62828628280a4d3c60c73911820b6282c6282c0a4e3c61073915820c62830628300a4f3c61473919820d62834628340a503c6187391d820e62838628380a513c61c73921820f6283c6283c0a523c62073925821062840628400a533c62473929821162844628440a543c6287392d821262848628480a553c62c7393182136284c6284c0a563c63073935821462850628500a573c63473939821562854628540a583c6383c5bc0a4b029183c5c00a4c0291c3c5c40a4d029203c5c80a4e029243c5cc0a4f029283c5d00a500292c)
  (.lf 0)) (.nd (.lf
  0x6c5d17e68619a0619a12d5c3b7843b7852d6e4b5a413f244fcb13f2913f29b147619680834020d2083453d7b004dd4b5b85f9cc04fd3d83008345919600df43d8312d6e3d8b1619692d6e3b74c4b5b99196646d408349919657b38646599195083340833420cf0833908339919500df013f2db1475f9686c51db14613f1813f184fc813f1d13f1db1466196459a41b0ca6c3a413c5db0cb5b9686c32db0ca13c4813c484f1413c4d6c3a56e595d96413c4db0ca5d9645d965b1466c5946c5957e59619646c5e17e6c619b0619b12d603b7943b7952d524b5b43d7ac04dc4b5b45f9c804fc3d82c6c5cd7e676199c6199d2d5b3b7803b7812d6d4b5a0619652d6d3b74863a392d6d008703d82d2d6d3d8ad4b5b59195646d00833d919557b34646559194083280832820cc0832d13abc000013bc613bc44eac13aac13aac4eac57a4d64571469357a4c644795e9300d0857a4c4eac59a3c59a3db0c96c3a06c3a16e585d96013c51b0ca5b9646c329b0c913c3c13c3c4f1113c4113c41b0c95d9605d961b1456c5906c5917e58619606c5f17e70619c05f9c004fa3d8243d8252d6b3d8a563a352d6c0086c13f21b1465f9646c5f57e71619c46c519b14513f0c)
  (.lf 0)))

def shaGateTree288 : BTree :=
  .nd (.nd (.nd (.lf
  0x845ba116d493d4493d524f7493d9493de116d009ac493da116d0062c5d686116d84630845b6116c493c8493c924f4493cd493d2116c009a8493ce116c006285d682116c8462c845b2116b493bc493bd24f1493c1493c6116b009a4493c2116b006245d67e116b84628845ae116a493b0493b124ee493b5493ba116a009a0493b6116a006205d67a116a84624845aa1169493a4493a524eb493a9493ae11690099c493aa11690061c5d676116984620845a61168493984939924e84939d493a21168009984939e1168006185d67211688461c845a211674938c4938d24e54939149396116700994493921167006145d66e1167846188459e1166493804938124e2493854938a116600990493861166006105d66a1166846148459a1165493744937524df493794937e11650098c4937a11650060c5d666116584610845961164493684936924dc4936d493721164009884936e1164006085d66211648460c8459211634935c4935d24d94936149366116300984493621163006045d65e11638460884680027f0067c8467c027e0067884678027d0067484674027c0067084670027b0066c8466c027a0066884668027900664846640278006608466002770065c)
  (.lf
  0x63b458ed007278072781ca00727d07c61908300c886420d908207c5007c501f1607c555f85d2d523d5c03d5c12d923d641072818ed04b64807c599082579c84b649908264284642855e7200c84579c9666d134ac134ac0000599ba133204cca13325133244d16599bc1332800001345a13459666d13318133195e711331d1331d666d599b8599b9afd06bfbc6bff96e465d9185d919b05b6c1e86c0216e505d9406c0316e545d9505d951b0696c2206c0356e555d9545d955b06a6c2246c1a9b06913930139304e4e1393513935b0696195013939b0695f9506c1a5b06813924139244e4b139296c02d6e535d94c5d94db0686c21c6c0296e525d94813929b0686194c1392db0685f94c6c1a1b06713918139184e481391d5d949b0676c2181391db0676194813921b0675f9486c19db0661390c1390c4e451391113915b0665f9446c0256e515d9445d945b0666c21413911b066619446c199b06513900139004e421390513909b0655f94013905b065619406c01d6e4f5d93c5d93db0646c20c5d941b0656c2106c195b064138f4138f44e3f138f9138f9b0646193c138fdb0645f93c6c191b063138e8138e84e3c138ed138f1b0635f9386c0196e4e5d938))
  (.nd (.lf
  0x568440836421bc731bd521256848568480837421c05684c0838421c45686c0820421e4731e5521c56870568700821421e85689008294220856894082a4220c56898082b422105689c082c42214568bc083442234568c0083542238421bc082d02088421c0082e0208c421c4082f02090421c8083002094421cc083102098421d008320209c421d40833020a0421d80834020a4421dc0835020a8421e00836020ac421e40837020b0421e80838020b4422080820020d44220c0821020d8422100822020dc422140823020e045e70084d020b445e74084e020b845e78084f020bc45e7c0850020c045e800851020c445e840852020c845e880853020cc45e8c0854020d045e900855020d445e940856020d845e980857020dc45e9c0858020e054878086d45f705487c086e45f7454880086f45f7854884087045f7c54888087145f805488c087245f8454890087345f8854894087445f8c54898087545f905489c087645f94548a0087745f98548a4087845f9c45f7117fc4607145f7517fd4607545f7917fe4607945f7d17ff4607d45f8118004608145f8518014608545f8918024608945f8d18034608d45f9118044609145f9518054609545f99180646099)
  (.lf 0))) (.nd (.nd (.lf
  0x403cc0e244044d403d00e2540451403d40e2640455403d80e2740459403dc0e284045d403e00e2940461403e40e2a40465403e80e2b40469403ec0e2c4046d403f00e2d40471403f40e2e40475403f80e2f40479403fc0e304047d404000e3140481404040e3240485404080e33404894040c0e344048d404100e3540491404140e3640495038d9a6df69bf869b7da6de0fea00fea03faa0fea50fea9a6de591180fea5a6de041d4038d5a6de69bf469b79a6dd0fe940fe943fa70fe990fe9da6dd591140fe99a6dd041d0038d1a6dd69bf069b75a6dc0fe880fe883fa40fe8d0fe91a6dc591100fe8da6dc041cc038cda6dc69bec69b71a6db0fe7c0fe7c3fa10fe810fe85a6db5910c0fe81a6db041c8038c9a6db69be869b6da6da0fe700fe703f9e0fe750fe79a6da591080fe75a6da041c4038c5a6da69be469b69a6d90fe640fe643f9b0fe690fe6da6d9591040fe69a6d9041c0038c1a6d969be069b65a6d80fe580fe583f980fe5d0fe61a6d8591000fe5da6d8041bc038bda6d869bdc69b61a6d70fe4c0fe4c3f950fe510fe55a6d7590fc0fe51a6d7041b8038b9a6d769bd869b5da6d60fe400fe403f920fe450fe49a6d6590f80fe45a6d6041b4)
  (.lf 0)) (.nd (.lf
  0x4a4e1f8b57e3507e35130384d8e04c0e1f8f37e4487e3cdf8f232e1032e10cb8632e1532e19f8f24acdc32e15f8f2508dc32cb9f8b54d8e07e2d5f8b432ca832ca8cb2c32cad32cb1f8b44c0dc32cadf8b44d8dc6f85c08a64a4dc4a4ddf8b47e34c7e34d30374d8dc4c0ddf8f27e4447e3c9f8f132e0432e04cb8332e0932e0df8f14acd832e09f8f1508d86f85408a44a4d47e2d1f8b332c9c32c9ccb2932ca132ca5f8b34c0d84a4d9f8b37e3487e34930364d8d84c0d9f8f17e4407e3c5f8f032df8199d1bdf44a4cc32ca1f8b34d8d87e2cdf8b232c90199d5bdf4022886f7d1bdf3199c0199c06672199c5199c9bdf3022844a4d5f8b27e34432c90cb2632c9532c95f8b24d8d432c99f8b24c0d47e2c9f8b132c8432c84cb2332c8932c8df8b14c0d06f85008a34a4d04a4d1f8b17e34032c89f8b14d8d07e2c5f8b032c7832c78cb2032c7d32c81f8b04c0cc32c7df8b04d8cc6f84c08a24a4cc4a4cdf8b07e33c7e2c1f8af32c6c32c6ccb1d32c7132c75f8af4c0c832c71f8af4d8c8199c5bdf34a4c86f7cc08a04a4c54a4c530314d8c44a4c9f8af7e3387e2bd30314d8c54c0c52b31508c47e34530354d8d44c0d5f8f07e43c32df8cb8032dfd)
  (.lf 0)))

def shaGateTree289 : BTree :=
  .nd (.nd (.nd (.lf
  0x2a3b0a8ee2a3b52a3b9e342554242a3b5e3425742453425e34278d8478d09e3412a3a42a3a4a8eb2a3a92a3ade341554202a3a9e3415742053421e34178d8078d05e3402a3982a398a8e82a39d2a3a1e3405541c2a39de3405741c5341de34078d7c78d01e33f2a38c2a38ca8e52a3912a395e33f554182a391e33f5741853419e33f78d7878cfde33e2a3802a380a8e22a3852a389e33e554142a385e33e5741453415e33e78d7478cf9e33d2a3742a374a8df2a3792a37de33d554102a379e33d5741053411e33d78d7078cf5e33c2a3682a368a8dc2a36d2a371e33c5540c2a36de33c5740c5340de33c78d6c78cf1e33b2a35c2a35ca8d92a3612a365e33b554082a361e33b5740853409e33b78d6878cede33a2a3502a350a8d62a3552a359e33a554042a355e33a5740453405e33a78d6478ce9e3392a3442a344a8d32a3492a34de339554002a349e3395740053401e33978d6078ce5e3382a3382a338a8d02a33d2a341e338553fc2a33de338573fc533fde33878d5c78ce1e3372a32c2a32ca8cd2a3312a335e337553f82a331e337573f8533f9e33778d5878cdde3362a3202a320a8ca2a3252a329e336553f42a325e336573f4533f5e33678d54)
  (.lf 0)) (.nd (.lf
  0x5e3bdc5387155c714e1c5371cd2c1cd2c734d1cd311cd35c537603b81cd31c537623b85e3b9c53771558714ddc5361cd201cd20734a1cd251cd29c536603b41cd25c536623b45e3b5c53671554714d9c5351cd141cd1473471cd191cd1dc535603b01cd19c535623b05e3b1c53571550714d5c5341cd081cd0873441cd0d1cd11c534603ac1cd0dc534623ac5e3adc5347154c714d1c5331ccfc1ccfc73411cd011cd05c533603a81cd01c533623a85e3a9c53371548714cdc5321ccf01ccf0733e1ccf51ccf9c532603a41ccf5c532623a45e3a5c53271544714c9c5311cce41cce4733b1cce91ccedc531603a01cce9c531623a05e3a1c53171540714c5c5301ccd81ccd873381ccdd1cce1c5306039c1ccddc5306239c5e39dc5307153c714c1c52f1cccc1cccc73351ccd11ccd5c52f603981ccd1c52f623985e399c52f71538714bdc52e1ccc01ccc073321ccc51ccc9c52e603941ccc5c52e623945e395c52e71534714b9c52d1ccb41ccb4732f1ccb91ccbdc52d603901ccb9c52d623905e391c52d71530714b5c52c1cca81cca8732c1ccad1ccb1c52c6038c1ccadc52c6238c5e38dc52c7152c714b1c52b1cc9c1cc9c73291cca11cca5c52b60388)
  (.lf 0))) (.nd (.nd (.lf
  0xe591a28702e6803469a28768a9868a1da2860e5800e58039620e5850e589a28658ca803409a26f68a3868a39631302e0803401631102e0068aad633002e7c58cc1d48223aa423aa400005ac265ac25d4a1753007530172f55ebd45cbd5d4df753f8753f80d9f4b0c04b0c20983826888268933304e4c04e4c209ff82878827fe09fe391a0391a0e46a391a5391aa09fe4b43c391a609fe4fcbc8260e098238ed038ed0e3b638ed538ed609824e4bc68aa9632f02e787537dd4de23d6c23d6c8f5d23d7123d71d4de4b0bc75285d4a023c0423c048f0323c0923c0dd4a05cbd0752088e9b23a6823a688e9b58cbd58cbc8e9b5ac205ac21d4a0752fc752fd72f45ebd05cbd1d4de753f4753f40d9e4b0bc4b0be09828268482685332f4e4bc4e4be09fe82874827fa09fd3919439194e467391993919e09fd4b4383919a09fd4fcb838eda09824ccbc8260a098138ec438ec4e3b338ec938eca09814e4b868aa5632e02e7423d75d4de0367875379d4dd23d6023d608f5a23d6523d65d4dd4b0b823c09d4a05ebd075281d49f23bf823bf88f0023bfd23c01d49f5cbcc23a6dd48123a5c23a5c8e9923a6123a61d4815ac1c58cb9d48123aa023aa000005ac1e)
  (.lf 0)) (.nd (.lf
  0x505112a2704dac7cd3d2a4550514505152a2804db07cd412a4650518505192a2904db47cd452a475051c5051d2a2a04db87cd492a4850520505212a2b04dbc7cd4d2a4950524505252a2c04dc07cd512a4a50528505292a2d04dc47cd552a4b5052c5052d2a2e04dc87cd592a4c50530505312a2f04dcc7cd5d2a4d50534505352a3004dd004d612a234a86004d652a244a86404d692a254a86804d6d2a264a86c04d712a274a87004d752a284a87404d792a294a87804d7d2a2a4a87c04d812a2b4a88004d852a2c4a88404d892a2d4a88804d8d2a2e4a88c04d912a2f4a89004d952a304a89404d992a114a89804d9d2a124a89c04da12a134a8a004da52a144a8a404da92a154a8a804dad2a164a8ac04db12a174a8b004db52a184a8b404db92a194a8b804dbd2a1a4a8bc04dc12a1b4a8c004dc52a1c4a84404dc92a1d4a84804dcd2a1e4a84c04dd12a1f4a8507cd612a4e50538505392a204a8547cd652a4f5053c5053d2a214a8587cd692a5050540505412a224a85c6dbf56f355dcd45bcd5b71c6dcec6dc71b71b1699c1699c5a69169a1169a5b71b01778169a1b71b4a1bc6dbf16f345dcd05bcd1b71b6dce86dc6db71a16990169905a6616995)
  (.lf 0)))

def shaGateTree290 : BTree :=
  .nd (.nd (.nd (.lf
  0x5569c11b648994556a011b748998556a411b84899c556a811b9489a0556ac11ba489a4556b011bb489a8556b411bc489ac556b811bd489b0556bc11be489b4556c011bf489b84893d226f48a3d48941227048a4148945227148a4548949227248a494894d227348a4d48951227448a5148955227548a5548959227648a594895d227748a5d48961227848a6148965227948a6548969227a48a694896d227b48a6d48971227c48a7148975227d48a7548979227e48a794897d227f48a7d48981228048a8148985228148a8548989228248a894898d228348a8d48991228448a9148995228548a9548999228648a994899d228748a9d489a1228848aa1489a5228948aa5489a9228a48aa9489ad228b48aad489b1228c48ab1489b5228d48ab5489b9228e48ab948a3c11a00458048a4011a10458448a4411a20458848a4811a30458c48a4c11a40459048a5011a50459448a5411a60459848a5811a70459c48a5c11a8045a048a6011a9045a448a6411aa045a848a6811ab045ac48a6c11ac045b048a7011ad045b448a7411ae045b848a7811af045bc48a7c11b0045c048a8011b1045c448a8411b2045c848a8811b3045cc48a8c11b4045d048a9011b5045d4)
  (.lf 0)) (.nd (.lf
  0x35be600c34c6a04aaa200c3803888038931a84dea04c6a201018048080406010035d3835d38d75035d3d35d4201004b29c35d3e010050e9c35be200c34dea08030e00c235bd035bd0d6f635bd535bda00c24c69c4aa9e00c2803848038531a74de9c4c69e01008047c8040200ff35d2c35d2cd74d35d3135d3600ff4b29835d3200ff50e9835bd600c24de9c8030a00c135bc435bc4d6f335bc935bce00c14c6984aa9a00c1803808038131a64de984c69a00ff80478803fe00fe35d2035d20d74a35d2535d2a00fe4b29435d2600fe50e9435bca00c14de988030600c035bb835bb8d6f035bbd35bc200c04c6944aa9600c08037c8037d31a54de944c69600fe80474803fa00fd35d1435d14d74735d1935d1e00fd4b29035d1a00fd50e9035bbe00c04de948030200bf35bac35bacd6ed35bb135bb600bf4c6904aa9200bf803788037931a44de904c69200fd80470803f600fc35d0835d08d74435d0d35d1200fc4b28c35d0e00fc50e8c35bb200bf4de90802fe00be35ba035ba0d6ea35ba535baa00be4c68c4aa8e00be803748037531a34de8c4c68e00fc8046c803f200fb35cfc35cfcd74135d0135d0600fb4b28835d0200fb50e8835ba600be4de8c)
  (.lf 0))) (.nd (.nd (.lf
  0x400200db9400a1400240dba400a5400280dbb400a94002c0dbc400ad400300dbd400b1400340dbe400b5400380dbf400b9036fda4f86945c693e1a4f70f3cc0f3cc3cf50f3d10f3d5a4f758f3c0f3d1a4f7030f8036f9a4f769458036e5a4f269444693dda4f60f3c00f3c03cf20f3c50f3c5a4f6030f40f3c9a4f658f38036f5a4f669454693d9a4f50f3b40f3b43cef0f3b90f3b9a4f5030f00f3bda4f558f34036f1a4f569450693d5a4f40f3a80f3a83cec0f3ad0f3b1a4f458f300f3ada4f4030ec036eda4f46944c693d1a4f30f39c0f39c3ce90f3a10f3a5a4f358f2c036e9a4f3694480f3a1a4f3030e8693cda4f20f3900f3903ce60f3950f399a4f258f280f395a4f2030e4693c9a4f10f3840f3843ce30f3890f389a4f1030e0036e1a4f1694400f38da4f158f24693c5a4f00f3780f3783ce00f37d0f381a4f058f200f37da4f0030dc036dda4f06943c693c1a4ef0f36c0f36c3cdd0f3710f375a4ef58f1c0f371a4ef030d8036d9a4ef69438693bda4ee0f3600f3603cda0f3650f365a4ee030d4036d5a4ee694340f369a4ee58f18693b9a4ed0f3540f3543cd70f3590f359a4ed030d0036d1a4ed694300f35da4ed58f14693b5a4ec0f348)
  (.lf 0)) (.nd (.lf
  0x53f200457443184431910e6444194441804570105c0105d962a6592409db9962a51fa0658a9962909da409da4276b09da96e6ad4fc555f1451ec54fb155ec417965b97953ec86e5e54fb155ec555ec404164183c55f14040a4188c4186004160102c4188c0401010584421404360105853f1c0456443144431510e544415444140456010580105996296592009dad962951f9c09da9962957f9c658a5962809d986e9657f7e61df86e9757f8261e0861e0805c53bbec6e9797f8361e0c61e0c05c63bbf061e5005d73bc3461e5405d83bc383bbec05d7017483bbf005d80174c3e09805f70175c5fe3406173e1183e11805d73e1990175d95ec6582c6582d5fe80125c6592547e857fa03e09c05f8017605fe3806183e11c3e11c05d83e19d09c6595ee01264657b995ed09c5409c54271709c5909c5d95ed57fa409c5995ed012600176195ed65830657b595ec09c4809c48271409c4d09c5195ec57fa057fa1baba183406e96d7f8061e0061e0005c33bbe46e9717f8161e0461e0405c43bbe861e4805d53bc2c61e4c05d63bc303bbe405d5017403bbe805d6017443e09005f5017545fe2c06153e1103e11005d53e1910175595ea65824658255fe601254)
  (.lf 0)))

def shaGateTree291 : BTree :=
  .nd (.nd (.nd (.lf
  0x100c84034100cd0391da74c69dac100d1a74c59160100cda74c0421c69d31a74b100bc100bc4031100c103919a74b69da8100c5a74b5915c100c1a74b0421869d2da74a100b0100b0402e100b5100b9a74a59158100b5a74a0421469d29a749100a403911a74969da0100a4402b100a9100a9a74904210100ada7495915469d25a748100981009840281009d1009da7480420c100a1a7485915069dc9645f0423869dbd645c0422c69db9645b0422869dc1645d0423069dc5645e0423469efd4c6e591b869f014c6f591bc69f054c70591c069e994c555915469db5645a042240390da74869d9c69d21a7471008c1008c40251009110091a7470420810095a7475914c69dd164610424069da964570421869dad64580421c69db164590422069e954c545915069dcd64600423c69eed4c6a591a869ef14c6b591ac69ef54c6c591b069ea14c575915c03909a74769d9869d1da746100801008040221008510089a7465914869dd564620424469d9d64540420c69da164550421069da564560421469e9d4c565915869ef94c6d591b469df164690426069ead4c5a5916869ded64680425c69ed14c635918c69e01646d0427069eb14c5b5916c69ea94c5959164)
  (.lf 0)) (.nd (.lf
  0x1b5406d521b5451b549c1d85c24c1b545c1d85e24c5a2d9c1d8707dc70761c1d71b5341b5346d4f1b5391b53dc1d75c2481b539c1d75e2481b3e400005a2d65a2d5c1d7707d87075dc1d61b5281b5286d4c1b52d1b531c1d65c2441b52dc1d65e2445a2d1c1d6707d470759c1d51b51c1b51c6d491b5211b521c1d55e2405a2cdc1d5707d01b525c1d55c24070755c1d41b5101b5106d461b5151b515c1d45e23c5a2c9c1d4707cc1b519c1d45c23c70751c1d31b5041b5046d431b5091b50dc1d35c2381b3e000005a2c65a2c5c1d3707c81b509c1d35e2387074dc1d21b4f81b4f86d401b4fd1b4fdc1d25e2341b501c1d25c23470749c1d11b4ec1b4ec6d3d1b4f11b4f1c1d15e2301b3740000706de706dc6cda1b3641b3646cda5831d665b960c701cd85831c6cda5a2bc5a2bdc1d1707c01b4f5c1d15c23070745c1d01b4e01b3686cd81b35c1b35c6cd858319666ad48c658318665b560c601cd4583186cd85a2b81b361c1b61b3501b3506cd61b3551b355c1b65a2b4666a948c558314665b160c501cd058315c1b61b3d81b3580000706da706d86cd31b3481b3486cd358311666a548c458310665ad60c401ccc583106cd35a2b01b4e06d3a1b4e5)
  (.lf 0))) (.nd (.nd (.lf
  0xd9fda09002c4c68241a08f0d9ec0d9ec367d0d9f10d9f5a08f58a8c03249a08f682b8423500a9202a1c463040ab202a4854a0c0ad24640446405192146505465040ad202a4802a49a0cd683b0683b14aa358a8c0db69a0ce52a9068339a0cd0db540db5436d70db590db59a0cd58a8c682b962a302c4858a8c877121e0421d2c000021dc621dc4877021d1821d18874821d1d21d1c87705a9f84234c0a9102a18463000ab102a4454a080ad14640046401192046501465000ad102a4402a45a0cc683ac683ad4aa258a883f6800cb1032446091c0cd13f7003f7000c913f7810d9f1a08f02c486823da08e0d9e00d9e0367a0d9e50d9e9a08e58a8803245a08e682b40db5da0cd52a8c68335a0cc0db480db4836d40db4d0db4da0cc58a88682b562a202c4458a88877021e0021e0000005a9fa5a9f9d09a742e4742e572675e99c423440a8f02a10462f80aaf02a3c54a000acf463f8463f9191e464f9464f80acf02a3c02a3da0ca683a4683a54aa058a803f6780caf0323c3f67c0cb003240609140ccf3f6f8609180cd03f6fc3f6f80c8f3f7793f6fc0c903f77d0d9e5a08e02c4468239a08d0d9d40d9d436770d9d90d9dda08d58a840d9d9a08d02c40)
  (.lf 0)) (.nd (.lf
  0x64bc592f008a7808a7822a008a7d08a8192f057c5013dc1b10949e546c425b10813db013db04f6e13db51569c55eb1568c1568c55a51569113db9b1080140c5b965b1086c49c6c49c050349e503da4805230140c5fae405433dac83dac805033db490140d92f064c3c64c3d5f1400f0c57c5055eb157f41569055eb59c28157f4000059c2a59c29b4d26d3c41585db4d35bb686d34db4d21584815b21b54e5fb646d3c56ed95db641584856141584d1584db4d25db645db65b54e6d5b46d539b54d15b0c15b0c56c515b115b961b1076c49813db5b10849e506c421b10713da413da44f6b13da913dadb107014083da440522014085fae005423dac43dac405023db456c498050249e4c0140992ef64c38156940000157ae157ac55ea156801568055a21568508a7d92f000f0c64c395f1300f0864bc192ef08a6c08a6c229d08a7108a7592ef57c4c57c4c55ea157f0157f0000059c2615851b4d25bb641568455ea59c2459c25b4d16d3c06d349b4d11583c1583c56111584115841b4d15db6015845b4d15bb606d345b4d01583015830560e158356d5f97eea61ba86d5c17edc61b705ba55b2316c9406c940053f49f406d6257ef561bd461b70053f3b954)
  (.lf 0)))

def shaGateTree292 : BTree :=
  .nd (.nd (.nd (.lf
  0x2d9c0b6b25b6f02c30de7b60049c79ed9e7b52c2fc2c2fcb0c12c3012c305e7b503f985d4f1e7b579f5079f500fe600498126c9add6537e06b759add5126b4126b449af126b9126b9add5597dc04699add56b7d06b7d14df7597dc1255dad9800b1c6b661ad971254c1254c49551255112555ad97597dc03f99ad976b6d86b6d965f700b18597dcb6b22db142db1400005b6f25b6f1eafe7ac747ac7575bc5f6f05f6f1eb7a7ae647ade9eb792de542de54b7972de592de5deb79616ec2de59eb79636ec2db99eafe5d6f07abf9eafd2db842db84b6e32db892db89eafd5f6ec2d9c400002daca2dac8b66e2d9b42d9b4b66e597d95d4ede7b479f4c79f4c0fe5004942c301e7b50049879ed5e7b42c2f02c2f0b0be2c2f52c2f9e7b403f9403f95ad966b6d46b6d565f600b14126bdadd5537dc6b755add4126a8126a849ac126ad126adadd4597d804695add46b7cc6b7cd4df6597d812551ad9700b186b65dad96125401254049521254512549ad96597d8597d8b66e5b6ec5b6edeafd7ac707ac7175bb5f6ec5f6edeb797ae607ade5eb782de482de48b7942de4d2de51eb78616e82de4deb78636e82db8deafd5d6ec7abf5eafc2db782db78b6e02db7d)
  (.lf 0)) (.nd (.lf
  0x4df6e02a680b1480a9a02a53667436674d99f366793667e02a54aee83667a02a54f7684df6a02a580b1080a9602a43666836668d99c3666d3667202a44aee43666e02a44f7644df6602a480b0c80a9202a33665c3665cd999366613666602a34aee03666202a34f7604df6202a380b0880a8e02a23665036650d996366553665a02a24aedc3665602a24f75c4df5e02a280b0480a8a02a13664436644d993366493664e02a14aed83664a02a14f7584df5a02a180b0080a8602a03663836638d9903663d3664202a04aed43663e02a04f7544df5602a080afc80a82029f3662c3662cd98d3663136636029f4aed036632029f4f7504df52029f80af880a7e029e3662036620d98a366253662a029e4aecc36626029e4f74c4df4e029e80af480a7a029d3661436614d987366193661e029d4aec83661a029d4f7484df4a029d80af04df452bb14f74480a752bb14f7454f7452b1b0692080af12bb24f7484f7492b1c0692480af52bb34f74c4f74d2b1d0692880af92bb44f7504f7512b1e0692c80afd2bb54f7544f7552b1f0693080b012bb64f7584f7592b200693480b052bb74f75c4f75d2b210693880b092bb84f7604f7612b220693c80b0d2bb94f764)
  (.lf 0))) (.nd (.nd (.lf
  0x769c953e456f9056f900be942908769cd53e556f9456f940bea4290c769d153e656f9856f980beb42910769d553e756f9c56f9c0bec42914769d953e856fa056fa00bed4291856fbc0bf44293456fc00bf542938428c00bee02f8c428c40bef02f90428c80bf002f94428cc0bf102f98428d00bf202f9c428d40bf302fa0428d80bf402fa4428dc0bf502fa8428e00bf602fac428e40bf702fb0428e80bf802fb4428ec0bf902fb8429080be002fd44290c0be102fd8429100be202fdc429140be302fe0429180be402fe4473740c0e02fb8473780c0f02fbc4737c0c1002fc0473800c1102fc4473840c1202fc8473880c1302fcc4738c0c1402fd0473900c1502fd4473940c1602fd8473980c1702fdc4739c0c1802fe0473a00c1902fe454f7c0c2e4747454f800c2f4747854f840c304747c54f880c314748054f8c0c324748454f900c334748854f940c344748c54f980c354749054f9c0c364749454fa00c374749854fa40c384749c54fa80c39474a0474751d3d47575474791d3e475794747d1d3f4757d474811d4047581474851d4147585474891d42475894748d1d434758d474911d4447591474951d4547595474991d46475994749d1d474759d)
  (.lf 0)) (.nd (.lf
  0x188c5bb935603052031bb936eec86ee4dbb92188b4188b4622f188b9188b9bb925602c188bdbb925402c5202dbb926eec46ee49bb91188a852029bb916eec0188a8622c188ad188adbb9156028188b1bb91540286ee45bb901889c1889c6229188a1188a1bb905602452021bb8f6eeb8188a5bb905402452025bb906eebc6ee41bb8f188901889062261889518895bb8f5602018899bb8f540206ee3dbb8e18884188846223188891888dbb8e5401c52015bb8c6eeac18889bb8e5601c5201dbb8e6eeb46ee39bb8d188781887862201887d1887dbb8d5601818881bb8d5401852019bb8d6eeb06ee35bb8c1886c1886c621d1887118871bb8c5601418875bb8c540146ee31bb8b1886018860621a1886518865bb8b5601052005bb886ee9c18869bb8b5401052011bb8b6eea86ee2dbb8a188545200dbb8a6eea41885462171885918859bb8a5600c1885dbb8a5400c6ee29bb89188481884862141884d18851bb895400852009bb896eea01884dbb89560086ee25bb881883c1883c62111884118841bb885600418845bb88540046ee21bb871883018830620e1883518839bb875400018835bb875600052001bb876ee986ee1dbb861882418824620b18829)
  (.lf 0)))

def shaGateTree293 : BTree :=
  .nd (.nd (.nd (.lf
  0x6a4d54cd0593406a4d14ccf5933c6a4cd4cce593386a4c94ccd593346a4c54ccc593306a4c14ccb5932c6a4bd4cca593286a4b94cc9593246a4b54cc8593206a4b14cc75931c6a4ad4cc6593186a4a94cc5593146a4a54cc4593106a4a14cc35930c6a49d4cc2593086a4994cc1593046a4954cc0593006a4914cbf592fc6a48d4cbe592f86a4894cbd592f46a4854cbc592f06a4814cbb592ec6a47d4cba592e86a4794cb9592e46a4754cb8592e06a4714cb7592dc6a46d4cb6592d86a4694cb5592d46a4654cb4592d06a4614cb3592cc6a45d4cb2592c847c3c1080041805524410a047d3c47d3d1f6f47e3d47e3c10a004180041814cb1592c46a3e14cb1592c503afda8d86a3dc6a361a8d710a4c10a4c429510a5110a55a8d75933c10a51a8d7043f803ae1a8d16a3c06a3c164c9043e003ad9a8cf6a3b86a3b964c7043d803ad1a8cd6a3b06a3b164c5043d003ac9a8cb6a3a86a3a964c3043c803ac1a8c96a3a06a3a164c1043c003ab9a8c76a3986a39964bf043b803ab1a8c56a3906a39164bd043b003aa9a8c36a3886a38964bb043a803aa1a8c16a3806a38164b9043a003a99a8bf6a3786a37964b70439803a91a8bd6a3706a37164b504390)
  (.lf 0)) (.nd (.lf
  0x6226c08fe3c05070d51809c622706227008ff3c05470d7980a6622986229808e93c07c70d7d80a76229c6229c08ea3c08070d8180a8622a0622a008eb3c08470d8580a9622a4622a408ec3c08870d8980aa622a8622a808ed3c08c70d8d80ab622ac622ac08ee3c09070d9180ac622b0622b008ef3c09470d9580ad622b4622b408f03c09870d9980ae622b8622b808f13c09c70d9d80af622bc622bc08f23c0a03c07c08fb023d83c08008fc023dc3c08408fd023e03c08808fe023e43c08c08ff023e83c09008e0023ec3c09408e1023f03c09808e2023f43c09c08e3023f83c0a008e4023fc3e9b8091f023fc70db580b5622d4602d4093f3ea383ea3808ff3eab9023fd9a50669bc669419a4f0b5ec0b5ec2d7d0b5f10b5f19a4f01df870da980b2622c8669bd611001dfc58440707c1c2241c1f0707b1c1b81c1b870701c1bd1c1c000001c1ee0b5f59a4f5843c3e9b4091e023f870db180b4622d0602d0093e3ea343ea3408fe3eab5023f99a4f669b86693d9a4e0b5e00b5e02d7a0b5e50b5e59a4e01df43e9b0091d023f470dad80b3622cc602cc093d3ea303ea3008fd3eab10b5e99a4e58438023f59a4e669b4669399a4d0b5d40b5d42d770b5d9)
  (.lf 0))) (.nd (.nd (.lf
  0x6873da1ce0e1600e160385a0e1650e169a1ce52bb00e165a1ce58bb002b6da1ce687b468739a1cd0e1540e15438570e1590e15da1cd52bac0e159a1cd58bac68735a1cc0e1480e14838540e14d02b65a1cc687ac0e151a1cc52ba80e14da1cc58ba868731a1cb0e13c0e13c38510e1410e145a1cb52ba40e141a1cb58ba402b61a1cb687a86872da1ca0e1300e130384e0e1350e139a1ca52ba00e135a1ca58ba002b5da1ca687a468729a1c90e1240e124384b0e1290e129a1c958b9c0e12da1c952b9c02b59a1c9687a068725a1c80e1180e11838480e11d0e11da1c858b9802b55a1c86879c0e121a1c852b9868721a1c70e10c0e10c38450e1110e115a1c752b940e111a1c758b9402b51a1c7687986871da1c60e10002b4da1c6687940e10038420e1050e109a1c652b900e105a1c658b9068719a1c50e0f40e0f4383f0e0f90e0fda1c552b8c02b49a1c5687900e0f9a1c558b8c68715a1c40e0e80e0e8383c0e0ed0e0f1a1c452b880e0eda1c458b8802b45a1c46878c68711a1c30e0dc0e0dc38390e0e10e0e1a1c358b840e0e5a1c352b8402b41a1c3687886870da1c20e0d00e0d038360e0d50e0d9a1c252b800e0d5a1c258b8002b3da1c268784)
  (.lf 0)) (.nd (.lf
  0x7bdc12ea64d2984ba99ef8f7beb82f801ef904a69c4ba9def907bebc7be41ef8f2f7ec2f7ecbdfd2f7f12f7f5ef8f4a6982f7f1ef8f502987be3def8e2f7e02f7e0bdfa2f7e52f7e9ef8e4a6942f7e5ef8e502944ba95ef8e7beb47be39ef8d2f7d42f7d4bdf72f7d92f7ddef8d4a6902f7d9ef8d502907be35ef8c2f7c82f7c8bdf42f7cd2f7d1ef8c4a68c7bdb52ea34d28c4ba8def8c7beac2f7cdef8c5028c7be31ef8b2f7bc2f7bcbdf12f7c12f7c5ef8b4a6887bdb12ea24d2884ba89ef8b7bea82f7c1ef8b502887be2def8a2f7b02f7b0bdee2f7b52f7b5ef8a502847bdad2ea14d2844ba85ef8a7bea42f7b9ef8a4a6847be29ef892f7a42f7a4bdeb2f7a92f7adef894a6807bda92ea04d2802f7a9ef89502804ba81ef897bea07be25ef882f7982f798bde82f79d2f79def885027c7bda52e9f4d27c4ba7def887be9c2f7a1ef884a67c7be21ef872f78c2f78cbde52f7912f795ef874a6787bda12e9e4d2784ba79ef877be982f791ef87502787be1def862f7802f780bde22f7852f785ef86502747bd9d2e9d4d2744ba75ef867be942f789ef864a6747be19ef852f7742f774bddf2f7792f77def854a6707bd992e9c4d2704ba71ef857be90)
  (.lf 0)))

def shaGateTree294 : BTree :=
  .nd (.nd (.nd (.lf
  0x117a1ab33046386accdab32117901179045e61179511799ab325957859578ae625b4945b495e67979a6079a6175235f48c5f48de6f579c5079bd5e6f42bdcc2bdccaf752bdd12bdd5e6f4614882bdd1e6f4634882bb11e6795d48c799e5e6782bafc2bafcaec12bb012bb01e6785f4882b989e6632b9782b978ae602b97d2b97de6635b4902a061e2bb0023478aede2ba2a0502a050a8162a0552a059e2ba03d305d289e2ba78b6478b640f4c0023011901ab70535786adc1ab6f118ec118ec463d118f1118f1ab6f5957404431ab6f6ae386ae394d5d5957411795ab32046346acc9ab31117841178445e3117891178dab315957403d31ab316ad406ad41655d0463059575e6632ba502ba5000005b4925b491e67879a5c79a5d75225f4885f489e6f479c4c79bd1e6f32bdc02bdc0af722bdc52bdc9e6f3614842bdc5e6f3634842bb05e6785d488799e1e6772baf02baf0aebe2baf52baf5e6775f4842b98000007998e7998de6622b96c2b96cae5d2b9712b971e6625b48c2a055e2ba0023078ae9e2b92a0442a044a8132a0492a04de2b903d2c5d285e2b978b6078b600f4b0022c118f5ab6f535746adbdab6e118e0118e0463a118e5118e5ab6e59570)
  (.lf 0)) (.nd (.lf
  0x1d54875541d54d1d551c6765458852589c67671a541d54dc67656588719d9c6751d53c1d53c75511d5411d545c675545841d541c6755658452585c67571a50719d5c6741d5301d530754e1d53552581c67471a4c1d539c674545801d535c67456580719d1c6731d5241d524754b1d5291d52dc6735457c4dd41ff197fce07fc65ff183525835258d4983525d35261ff184acbc3525dff184f53c4dd3dff187fcdc7fc61ff173524c3524cd4953525135255ff174acb835251ff174f5384dd39ff177fcd87fc5dff163524035240d4923524535249ff164acb435245ff164f5344dd35ff167fcd47fc59ff153523435234d48f352393523dff154acb035239ff154f5304dd31ff157fcd07fc55ff143522835228d48c3522d35231ff144acac3522dff144f52c4dd2dff147fccc7fc51ff133521c3521cd4893522135225ff134aca835221ff134f5284dd29ff137fcc87fc4dff123521035210d4863521535219ff124aca435215ff124f5244dd25ff127fcc47fc49ff113520435204d483352093520dff114aca035209ff114f5204dd21ff117fcc07fc45ff10351f8351f8d480351fd35201ff104ac9c351fdff104f51c4dd1dff107fcbc7fc41ff0f351ec)
  (.lf 0))) (.nd (.nd (.lf
  0x46cc91b5246dc946ccd1b5346dcd46cd11b5446dd146dbc0b8002d0046dc40b8202d0846dc80b8302d0c46dcc0b8402d1046dd00b8502d1403505a36668e1468e15635202f0468f754b6c58db002d15a3a868f1c68ea1a3a70eb8c0eb8c3ae50eb910eb91a3a758d5402d11a3a768f180eb95a3a752d5468e9da3a60eb800eb803ae20eb850eb89a3a652d5068f4d4b6258d8868f414b5f58d7c68f3d4b5e58d7868f454b6058d8068f494b6158d8468e89636f02f7868e7d636c02f6c68e79636b02f6868e81636d02f7068e85636e02f740eb85a3a658d5068f394b5d58d7402d0da3a668f1468f554b6458d9068f2d4b5a58d6868f314b5b58d6c68f354b5c58d7068e75636a02f6468e69636702f5868e6d636802f5c68e71636902f6068f514b6358d8c68e8d637002f7c68e99a3a50eb740eb743adf0eb790eb79a3a558d4c0eb7da3a552d4c68f594b6558d9468f214b5758d5c68f254b5858d6068f294b5958d6468e5d636402f4c68e61636502f5068e65636602f5403501635102f0068d99635102f0168e39635b02f2868e35635a02f2402d09a3a568f1068e95a3a40eb680eb683adc0eb6d0eb6da3a458d4868f1d4b5658d580eb71a3a452d48)
  (.lf 0)) (.nd (.lf
  0x312ecc4bd312f1312f5f42f4a530312f1f42f4edb04d5b1f42f7d1387d0bdf42e312e0312e0c4ba312e5312e9f42e4a52c312e5f42e4edac4d5adf42e7d1347d0b9f42d312d4312d4c4b7312d9312ddf42d4a528312d9f42d4eda84d5a9f42d7d1307d0b5f42c312c8312c8c4b4312cd312cdf42c4eda44d5a5f42c7d12c312d1f42c4a5247d0b1f42b312bc312bcc4b1312c1312c5f42b4a5204d5a1f42b7d128312c1f42b4eda07d0adf42a312b0312b0c4ae312b5312b5f42a4ed9c312b9f42a4a51c4d59df42a7d1247d0a9f429312a4312a4c4ab312a9312adf4294a5184d599f4297d120312a9f4294ed987d0a5f4283129831298c4a83129d3129df4284ed944d591f4277d1184d595f4287d11c312a1f4284a5147d0a1f4273128c3128cc4a53129131291f4274ed9031295f4274a5107d09df4263128031280c4a23128531289f4264a50c31285f4264ed8c4d58df4267d1147d099f4253127431274c49f3127931279f4254ed884d589f4257d1103127df4254a5087d095f4243126831268c49c3126d3126df4244ed8431271f4244a5044d585f4247d10c7d091f4233125c3125cc4993126131265f4234a5004d581f4237d10831261f4234ed80)
  (.lf 0)))

def shaGateTree295 : BTree :=
  .nd (.nd (.nd (.lf
  0x4ce160be48300c82f920be339c5c39c5ce71939c6139c660be3004cc39c620be3516104ce120be38300882f8e0be239c5039c50e71639c5539c5a0be2004c839c560be25160c4ce0e0be28300482f8a0be139c4439c44e71339c4939c4e0be1004c439c4a0be1516084ce0a0be18300082f860be039c3839c38e71039c3d39c420be0004c039c3e0be0516044ce060be082ffc82f820bdf39c2c39c2ce70d39c3139c360bdf004bc39c320bdf516004ce020bdf82ff882f7e0bde39c2039c20e70a39c2539c2a0bde004b839c260bde515fc4cdfe0bde82ff482f7a0bdd39c1439c14e70739c1939c1e0bdd004b439c1a0bdd515f84cdfa0bdd82ff082f760bdc39c0839c08e70439c0d39c120bdc004b039c0e0bdc515f44cdf60bdc82fec82f720bdb39bfc39bfce70139c0139c060bdb004ac39c020bdb515f04cdf20bdb82fe882f6e0bda39bf039bf0e6fe39bf539bfa0bda004a839bf60bda515ec4cdee0bda82fe482f6a0bd939be439be4e6fb39be939bee0bd9004a439bea0bd9515e84cdea0bd982fe082f660bd839bd839bd8e6f839bdd39be20bd8004a039bde0bd8515e44cde60bd882fdc82f620bd739bcc39bcce6f539bd139bd60bd70049c)
  (.lf 0)) (.nd (.lf
  0x1a86dc0034a6104a611fa357e9507e95130844da104c211fa737ea487e9cdfa723371033710cdc63371533715fa7250a0c7e5a12a304f1404f14129834a604335b9fa354da107e8d5fa34335a85a1b5bfc46ff8c1a705bfc55e1246ff15bfc41a6f41a6f469bf1a6f96ff8d70485e12033719fa724ae0c1a6fdbfc45c1205c121c002700847008408f24a60c1a871c003023cc7000dc0021a85c1a85c6a191a8611a861c0024a60c4a60dfa347e94c335a8cd6c335ad335b1fa344c20c7e94d30834da0c4c20dfa727ea447e9c9fa713370433704cdc3337093370dfa714ae08064e529734a5c4064e929744a5c8064ed29754a5cc064f129764a5d0064f529774a5d4064f929784a5d8064fd29794a5dc7e57d2a274f11c4f11d297a4a5e07e5812a284f1204f121297b4a5e47e5852a294f1244f125297c4a5e87e5892a2a4f1284f129297d4a5ec7e58d2a2b4f12c4f12d297e4a5f07e5912a2c4f1304f131297f4a5f47e5952a2d4f1344f13529804a5f87e5992a2e4f1384f13929814a5fc7e59d2a2f4f13c4f13d29824a600335adfa344da0c7e8d1fa333359c3359ccd69335a1335a5fa334c2081a6f9bfc45e1205a1b1bfc36ff886ff8970475e11c)
  (.lf 0))) (.nd (.nd (.lf
  0x730400a7e4ac3c730380a7c4ac34730100a724ac0c7300c0a714ac08730000a6e4abfc7301c0a754ac18730180a744ac1472ff00a6a4abec72fd80a644abd472fd40a634abd072fe40a674abe072ff40a6b4abf05c6ddcbd472fcc72fcc0a614abc85c6e1cbd572fd0730280a784ac2472f55cbd41fc401fc407f121fc451fc45cbd44abc81fc49cbd40298472ffc0a6d4abf8730300a7a4ac2c7302c0a794ac28730240a774ac20730200a764ac1c72fdc0a654abd872ff80a6c4abf4730080a704ac04730040a6f4ac0072fec0a694abe872f500a604abc572fd00a624abcc72fe00a664abdc730140a734ac1072fe80a684abe45c6d80a604abc44ac4202f980c6080c6132104e0404e042037580e5080dd6037436ba836ba8daec36bad36bb203744afbc36bae03744f83c80be602f8368d8368d8da38368dd368de02f84e03c4ac3e02f880c5c80c5d320f4e03c4e03e037480e4c80dd2037336b9c36b9cdae936ba136ba603734afb836ba203734f838368e202f84c83c80be202f7368cc368ccda35368d1368d202f74e0384ac3a02f780c5880c59320e4e0384e03a037380e4880dce037236b9036b90dae636b9536b9a03724afb436b9603724f834)
  (.lf 0)) (.nd (.lf
  0x6499546e457b9057b90526059b7014981b2d01497014970525e149751497800006cb4214975b2d059b6c6cb41b2cf1496414964525b1496914969b2cf59b686498d46e257b88648955ee200e4457b89b2cf149f41496c00006cb3e6cb3db2ce149581495852581495d1495db2ce59b64648915ee100e4057b85b2ce149f01496000006cb3a6cb3852551495014950525557b8157b80525559b6014e18538814e1d14b5db2f15bac86cbc5b2f014b4859b85b2ed6cc3014a04000059b8e59b8db2ef6cc3814b4852d414b4d14b51b2f05bac414a08000059b9259b91b2f06cc3c14b4db2f05dac46cbc1b2ef14b3c14b3c52d114b4114b45b2ef5bac014b41b2ef5dac06cbbdb2ee14b3014b3052ce14b3514b35b2ee5dabc14b39b2ee5babc59b89b2ee6cc346cbb9b2ed14b2414b2452cb14b2914a00000059b8214b29b2ed5dab814b2db2ed5bab86cbb5b2ec14b1814b1852c814b1d14b21b2ec5bab459b81b2ec6cc2c14b1db2ec5dab46cbb1b2eb14b0c14b0c52c514b1114e1db36c61ac46cc3d6eb15dac45dac5b36c6ce2c14e21b36c5fac46cdb1b36b14e0c6cc396eb05dac05dac1b36b6ce2814e0c538514e1114e15b36b5fac014e11b36b61ac0)
  (.lf 0)))

def shaGateTree296 : BTree :=
  .nd (.nd (.nd (.lf
  0x7af515614578505785011f9431c87af555615578545785411fa431cc7af595616578585785811fb431d07af5d56175785c5785c11fc431d47af615618578605786011fd431d87af655619578645786411fe431dc7af69561a578685786811ff431e07af6d561b5786c5786c11e0431e47af71561c578705787011e1431e87af75561d578745787411e2431ec7af79561e578785787811e3431f07af7d561f5787c5787c11e4431f47af815620578805788011e5431f87af855621578845788411e6431fc7af895622578885788811e7432007af8d56235788c5788c11e8432047af915624578905789011e9432087af955625578945789411ea4320c7af995626578985789811eb432107af9d56275789c5789c11ec432147afa15628578a0578a011ed432187afa55629578a4578a411ee4321c7afa9562a578a8578a811ef432207afad562b578ac578ac11f0432247afb1562c578b0578b011f1432287afb5562d578b4578b411f24322c7afb9562e578b8578b811f3432307afbd562f578bc578bc11f4432347afc15630578c0578c011f543238431bc11ed04788431c011ee0478c431c411ef04790431c811f004794431cc11f104798431d011f20479c)
  (.lf
  0x799590074b8cc4b8cd9045641906419146535794c5599d2e1d41314413152e144b8a4539a52de94329c4329d0cc74339d4339d2de94b8a463f818fdf0792c0792c1e4d07931079358fdf4b8a45194dae8b6baa86baa94e535594c63ff92e2900b60412e92e294b8785594d2e29412c44b8a590d7643d807ed190d757a246435d90d607ec007ec01fb207ec5848118f1063cbc12dc9aede5b8746bb79aedd12db412db44b6f12db90742d8f140099c63c518f130741c0741c1d09074218481d8f1363cc863cc92db700998074258f134b6dc4b6de10ec8442c12c5000006bb2e6bb2daeca12c3c490da10ed00c1c843b610ec490c8490c92434490cd12c3c4b1112c4112c41aeca5994c490d210ec5795c8442d5e5700c185795daeca12d4012d4000005994e5994daedd6bbf06bbf16e1c5d87012db9aedd5d8705d871af596bde06be457e35618d4848018eee63c3463c352db00097c6be197e2a618a813099af5a5f8746bd69af5913084130844c231308913089af59618705f8d52d703d6386be2d7e2f618bc618a92d9e3b68c3b68d2db04b6ac618bd2da33b6a03b6a12d954b6c03d6392db03d6b96bde17e1c61870618712db03b6544b6c190a0642fc))
  (.nd (.lf
  0xd0859ee6588b067c154a2c588b0588b08068201d43f2a40a3a02868607400a5a3f3243f3240a1a3f3a5028699ea767b1867b19622b02a683f2a00a39028646073c0a593f3203f3200a193f3a1028659ea667b1467b15622a02a643f29c0a3802860607380a583f31c3f31c0a183f39d028619ea567b1067b11622902a603f2980a370285c607340a573f3183f3180a173f3990285d9ea467b0c67b0d622802a5c3f2940a3602858607300a563f3143f3140a163f395028599ea367b0867b09622702a583f2900a35028546072c0a553f3103f3100a153f391028559ea267b0467b05622602a543f28c0a3402850607280a543f30c3f30c0a143f38d028519ea167b0067b01622502a503f2880a330284c607240a533f3083f3080a133f3890284d9ea067afc67afd622402a4c3f2840a3202848607200a523f3043f3040a123f385028499e9f67af867af9622302a483f2800a31028446071c0a513f3003f3000a113f381028459e9e67af467af5622202a443f27c0a3002840607180a503f2fc3f2fc0a103f37d028419e9d67af067af1622102a401f801cb5c547d872d71cb5b1f7ec1f7ec7dfd1f7f11f7f5cb5b547d4527d5cb5b72de81f7f1cb5b567d4)
  (.lf 0))) (.nd (.nd (.lf
  0x25865d8d34b2605cd75d8d3763c87634dd8d225854258549617258592585dd8d2038185cd71d8d2763c4763c40e064b25c03819a653699c8699c9641704118764280e1f4b2c00387da66c69a2c69a2d64300417c53041db5776dd876d5ddb5626a9026a909aa626a9526a99db565503c26a95db565703c5303ddb5676dd476d59db5526a8426a849aa326a8926a8ddb555503826a89db555703853039db5576dd076d55db5426a7826a789aa026a7d26a81db545503426a7ddb545703453035db5476dcc76d51db5326a6c26a6c9a9d26a7126a75db535503026a71db535703053031db5376dc876d4ddb5226a6026a609a9a26a6526a69db525502c26a65db525702c5302ddb5276dc476d49db5126a5426a549a9726a5926a5ddb515502826a59db515702853029db5176dc076d45db5026a4826a489a9426a4d26a51db505502426a4ddb505702453025db5076dbc76d41db4f26a3c26a3c9a9126a4126a45db4f5502026a41db4f5702053021db4f76db876d3ddb4e26a3026a309a8e26a3526a39db4e5501c26a35db4e5701c5301ddb4e76db476d39db4d26a2426a249a8b26a2926a2ddb4d5501826a29db4d5701853019db4d76db076d35db4c26a18)
  (.lf 0)) (.nd (.lf
  0x18fe463fb18fe9520a5bc886f29c18fe9bc8b560b018fedbc8b540b0520b1bc8b6f2a86f22dbc8a18fd818fd863f818fdd18fddbc8a560ac18fe1bc8a540ac520adbc8a6f2a46f229bc8918fcc18fcc63f518fd118fd1bc89560a818fd5bc89540a8520a9bc896f2a06f225bc8818fc018fc063f218fc518fc5bc88560a418fc9bc88540a46f221bc8718fb418fb463ef18fb918fb9bc87560a018fbdbc87540a0520a1bc876f2986f21dbc8618fa852099bc856f2905209dbc866f29418fa863ec18fad18fadbc865609c18fb1bc865409c6f219bc8518f9c18f9c63e918fa118fa1bc855609818fa5bc855409852095bc846f28c6f215bc8418f9018f9063e618f9518f95bc845609418f99bc84540946f211bc8318f8418f8463e318f8952085bc806f27c18f89bc835609018f8dbc835409052091bc836f2886f20dbc8218f7818f7863e018f7d18f81bc825408c5208dbc826f28418f7dbc825608c6f209bc8118f6c18f6c63dd18f7118f75bc815408818f71bc81560886f205bc8018f6018f6063da18f6518f69bc805408418f65bc80560846f201bc7f18f5418f5463d718f5918f59bc7f5608052081bc7f6f2785207dbc7e6f27418f5dbc7f54080)
  (.lf 0)))

def shaGateTree297 : BTree :=
  .nd (.nd (.nd (.lf
  0x29eaca7ad29eb129eb1e2775f27429d0c000029df629df4a77c29cf829cf8a74029cfd29cfca77c5b28c2834ddec30002077b0ddec22833c2833ca0d12834128345dec203b1c5d075dec277b8477b840ec70001c10d85a97b533646a5eda97a10d7010d70435e10d7510d75a97a593600421da97a6a6646a6654cd85936010c19a93d044206a4f5a93c10c0810c08430410c0d10c11a93c5936003b1da93c6a56c6a56d64d80441c59360a77c29e3029e3000005b28e5b28de27778a5878a59749d5f2745f275e2f378c4878bcde2f22a1702a170a85e2a1752a179e2f2612702a175e2f26327029eb5e2775d274789dde27629ea029ea0a7aa29ea529ea5e2765f27029d00000029df229df0a77b29cec29ceca73d29cf129cf0a77b5b28828341dec20001c77b09dec12833028330a0ce2833528339dec103b185d071dec177b8077b800ec60001810d79a97a533606a5e9a97910d6410d64435b10d6910d69a9795935c04219a9796a6606a6614cd75935c10c0da93c0441c6a4f1a93b10bfc10bfc430110c0110c05a93b5935c03b19a93b6a5686a56964d7044185935ca77b29e2c29e2c00005b28a5b289e27678a5478a55749c5f2705f271e2f278c44)
  (.lf 0)) (.nd (.lf
  0xb7bd9ab55846466ad59ab40b7a80b7a82dec0b7ad0b7b19ab4584600b7ad9ab401e1c66ad19ab30b79c0b79c2de90b7a10b7a59ab35845c0b7a19ab301e18024199ab366b4866acd9ab20b7900b7902de60b7950b7999ab2584580b7959ab201e14024159ab266b4466ac99ab10b7840b7842de30b7890b78d9ab1584543ea4c092402410602e809443eacc3eacc09043eb4d0b7899ab101e10024119ab166b4066ac59ab00b77866b75612201e4466b4d611801e1c66b55611a01e2452441c38c70eac70e31c38b1c0bc1c0bc70311c0c11c0c5c38b5443c1c0c1c38b5643c5243dc38b70ea870e2dc38a1c0b01c0b0702e1c0b51c0b9c38a544381c0b5c38a5643852439c38a70ea470e29c3891c0a41c0a4702b1c0a91c0adc389544341c0a9c3895643452435c38970ea070e25c3881c0981c09870281c09d1c0a1c388544301c09dc3885643052431c38870e9c70e21c3871c08c1c08c70251c0911c095c3875442c1c091c3875642c5242dc38770e9870e1dc3861c0801c08070221c0851c089c386544281c085c3865642852429c38670e9470e19c3851c0741c074701f1c0791c07dc385544241c079c3855642452425c38570e9070e15c3841c068)
  (.lf 0))) (.nd (.nd (.lf
  0x2b85a2306893c689b54b1058c40689b14b0f58c3c689ad4b0e58c38689a94b0d58c34689a54b0c58c30689a14b0b58c2c6899d4b0a58c28689994b0958c24689954b0858c20689914b0758c1c6898d4b0658c18689894b0558c14689854b0458c10689814b0358c0c6897d4b0258c08689794b0158c04689754b0058c00689714aff58bfc6896d4afe58bf8689694afd58bf4689654afc58bf0689614afb58bec6895d4afa58be8689594af958be4689554af858be0689514af758bdc6894d4af658bd8689494af558bd4689454af458bd0689414af358bcc6893d4af258bc802b814af158bc4688c14af158bc5033fda210688bc68841a20f0e2ec0e2ec38bd0e2f10e2f5a20f58c3c0e2f1a20f02df8033f9a20f688b86883da20e0e2e00e2e038ba0e2e50e2e9a20e58c380e2e5a20e02df4033f5a20e688b468839a20d0e2d40e2d438b70e2d90e2dda20d58c340e2d9a20d02df0033f1a20d688b068835a20c0e2c80e2c838b40e2cd0e2d1a20c58c300e2cda20c02dec033eda20c688ac68831a20b0e2bc0e2bc38b10e2c10e2c5a20b58c2c0e2c1a20b02de8033e9a20b688a86882da20a0e2b00e2b038ae0e2b50e2b9a20a58c280e2b5a20a02de4)
  (.lf 0)) (.nd (.lf
  0x302d8c0b8302dd302e1f1784bbfc302ddf1784d3fc7c5e1f177302cc302ccc0b5302d1302d1f1774d3f8302d5f1774bbf87c5ddf176302c06d0f0056849fe449fe5f1727c64449ff5f1767c6546d0f4056949fe849fe9f1737c648302c0c0b2302c5302c9f1764bbf4302c5f1764d3f47c5d9f175302b4302b4c0af302b9302b9f1754d3f06d0fc056b49ff049ff1f1757c650302bdf1754bbf07c5d5f174302a8302a8c0ac302ad6d0f8056a49fec302adf1744d3ec49fedf1747c64c302b1f1744bbec7c5d1f1733029c3029cc0a9302a1302a5f1734bbe8302a1f1734d3e87c5cdf1723029030290c0a63029530299f1724bbe430295f1724d3e47c5c9f1713028430284c0a3302891529db41d015a06d075b41c152885baf1b41b6d0e81528854a41528d1528db41c49fe05bae9b4196d0e06d0e0056449fd47c6992f0e4d4387c6a12f104d4404bc41f1c77c7987c71df1c63050030500c142305057c69d2f0f4d43c4bc3df1c67c79430505f1c65043c30509f1c64a83c7c719f1c5304f4304f4c13f304f9304fdf1c54a838304f9f1c5504384bc39f1c57c7907c715f1c4304e8304e8c13c304ed304edf1c4504347c68d2f0b4d42c7c6912f0c4d430)
  (.lf 0)))

def shaGateTree298 : BTree :=
  .nd (.nd (.nd (.lf
  0x635240f8c3d3087a081854a63528635280f8d3d30c7a085854b6352c6352c0f8e3d3107a089854c63530635300f8f3d3147a08d854d63534635340f903d3187a091854e63538635380f913d31c7a095854f6353c6353c0f923d3207a099855063540635400f933d3247a09d855163544635440f943d3287a0a1855263548635480f953d32c7a0a585536354c6354c0f963d3307a0a9855463550635500f973d3347a0ad855563554635540f983d3383d2bc0f8b03e183d2c00f8c03e1c3d2c40f8d03e203d2c80f8e03e243d2cc0f8f03e283d2d00f9003e2c3d2d40f9103e303d2d80f9203e343d2dc0f9303e383d2e00f9403e3c3d2e40f9503e403d2e80f9603e443d2ec0f9703e483d2f00f9803e4c3d2f40f9903e503d2f80f9a03e543d2fc0f9b03e583d3000f9c03e5c3d3040f9d03e603d3080f9e03e643d30c0f9f03e683d3100f8003e6c3d3140f8103e703d3180f8203e743d31c0f8303e783d3200f8403e7c3d3240f8503e003d3280f8603e043d32c0f8703e083d3300f8803e0c3d3340f8903e103d3380f8a03e1440e3c0fa003e0040e400fa103e0440e440fa203e0840e480fa303e0c40e4c0fa403e1040e500fa503e1440e540fa603e18)
  (.lf 0)) (.nd (.lf
  0x800d200333581c3581cd609358213582600334b1d035822003350dd0356c5fff64ddd47ffd9fff5356b4356b4d5af356b9356bdfff54c5d04a9d1fff5800508005131744ddd04c5d2003380148800ce00323581035810d606358153581a00324b1cc35816003250dcc356b9fff54ddd07ffd5fff4356a8356a8d5ac356ad356b1fff44c5cc4a9cdfff48004c8004d31734ddcc4c5ce003280144800ca00313580435804d603358093580e00314b1c83580a003150dc8356adfff44ddcc7ffd1fff33569c3569cd5a9356a1356a5fff34c5c84a9c9fff3800488004931724ddc84c5ca003180140356a1fff34ddc84a9c531714ddc47ffcd31714ddc54c5c52c7150dc4800c52c7150dc550dc52c5405588801412c7250dc850dc92c550558c801452c7350dcc50dcd2c5605590801492c7450dd050dd12c57055948014d2c7550dd450dd52c5805598801512c7650dd850dd92c590559c801552c7750ddc50ddd2c5a055a0801592c7850de050de12c5b055a48015d2c7950de450de52c5c055a8801612c7a50de850de92c5d055ac801652c7b50dec50ded2c5e055b0801692c7c50df050df12c5f055b48016d2c7d50df450df52c60055b8801712c7e50df8)
  (.lf 0))) (.nd (.nd (.lf
  0x39d4ce75539d5139d560c170002439d520c174fde839a920b9c4cdec82e720b9b39a7c39a7ce6a139a8139a820b9b4e5e86911d4b7a58de8251a9d7d1037a875f45d7d0251942519494672519925199d7d04b1e82503dd7935ed0075e4dd7922502c2502c940d2503125035d7925ccfc24e8893a024e7c24e7c93a058de958de893a05ad3c5ad3dd79275ec475ec5733f5ecfc5ccfdd7d075fbc75fbc0de94b1e84b1ea0b9b82ee882ee9337a4e5e84e5ea0c17830d88305e0c1639d4039d40e75239d4539d4a0c160002039d460c164fde439a860b9b4cde882e6e0b9a39a7039a70e69e39a7539a760b9a4e5e4691194b7958de42519dd7d0037a475f41d7cf251882518894642518d2518dd7cf4b1e425031d7925ecfc75e49d7912502025020940a2502525029d7915ccf824e8093d824e7024e70939e24e7524e7493d85ad3858de493d824fa024fa000005ad3a5ad39d79175ec075ec1733e5ecf85ccf9d7cf75fb875fb80de84b1e44b1e60b9a82ee482ee533794e5e44e5e60c16830d48305a0c1539d3439d34e74f39d3939d3e0c150001c39d3a0c154fde039a7a0b9a4cde482e6a0b9939a6439a64e69b39a6939a6a0b994e5e0691154b7858de0)
  (.lf 0)) (.nd (.lf
  0x6573947c957f24656415fc9011e057f245f0117c3c17c045ee617b946573547c857f2017b945ee657f216563d5fc8011dc57f205ee659ef017b985ee417b8c17b8c5ee457f1d57f1c5ee459eec417c003ee00f8c44074040e00fb853e7c042e4417444175107d4427544274042e00fb800fb995a56571009add95ad51f1c656b595ac09ac809ac826b409acd09ad195ac51f1809acd95ac57f1817b905ee217b8417b845ee257f1953e980435441904419110844429144290043500fd46e28d4fa455e9055e9003e94180855ec003f541838417dc03f500fa84180803e000fd444090041500fd400fd595ac6572c6572d47c657f18656355fc6011d457f185ee259ee8656b195ab09abc09abc26b109ac155ebc03f441834417d803f400fa44408c041400fd053e9404344418c4418d10834428d4428c043400fd000fd195ab6572809ac595ab51f1409ac195ab57f14656ad95aa09ab009ab026ae09ab509ab595aa57f1017b885f0017b7817b785ee017b7d6572947c557f14656315fc5011d057f145f0017c3817b7c5f0059ee417b80000017c0217c005eff17b6c17b6c5edd17b7117b705eff59ee06562d5fc4011cc417d403f300fa044088041300fcc)
  (.lf 0)))

def shaGateTree299 : BTree :=
  .nd (.nd (.nd (.lf
  0x3aaae0e544ffa44e7a60e54839cc839520e533aa9c3aa9ceaa93aaa13aaa60e53001dc3aaa20e534ffa04e7a20e53839c88394e0e523aa903aa90eaa63aa953aa9a0e52001d83aa960e524ff9c4e79e0e52839c48394a0e513aa843aa84eaa33aa893aa8e0e51001d43aa8a0e514ff984e79a0e51839c0839460e503aa783aa78eaa03aa7d3aa820e50001d03aa7e0e504ff944e7960e50839bc839420e4f3aa6c3aa6cea9d3aa713aa760e4f001cc3aa720e4f4ff904e7920e4f839b88393e0e4e3aa603aa60ea9a3aa653aa6a0e4e001c83aa660e4e4ff8c4e78e0e4e839b48393a0e4d3aa543aa54ea973aa593aa5e0e4d001c43aa5a0e4d4ff884e78a0e4d839b0839360e4c3aa483aa48ea943aa4d3aa520e4c001c03aa4e0e4c4ff844e7860e4c839ac839320e4b3aa3c3aa3cea913aa413aa460e4b001bc3aa420e4b4ff804e7820e4b839a88392e0e4a3aa303aa30ea8e3aa353aa3a0e4a001b83aa360e4a4ff7c4e77e0e4a839a48392a0e493aa243aa24ea8b3aa293aa2e0e49001b43aa2a0e494ff784e77a0e49839a0839260e483aa183aa18ea883aa1d3aa220e48001b03aa1e0e484ff744e7760e488399c839220e473aa0c3aa0cea853aa11)
  (.lf 0)) (.nd (.lf
  0xaca198c8582700ac9d98c801c2c6632198c70ac8c0ac8c2b250ac913bf38088a0221466495489c582703e66408aa022286010008ca3e6e43e6e4088a3e76566491489b5826c1ac1c6b051ac101ac106b05582716639d609c01c2c582706b055a2101ac15c0ad1ac041ac046b031ac091ac0c0000702b60ac9598c75826c0222998c76639866399609b01c285826dc0ad1acd81ac09c0ad5a20c702b5c0ac1abf80ac9198c701c283bf340889022103e66008a902224600fc08c93e6e03e6e008893e7616648d489a582686631d98c60ac800ac802b220ac850222598c66639466395609a01c240ac8998c65826858269c0ac1acd41acd400005a20a1abf86b001abfd1abfdc0ac5a2085a209c0bf703787e8652a474f19c4f19d299a4a6607e86d2a494f1a44f1a5299c4a6681af25c1040244070411c1031af101af106bc61af151af15c1034a6807039170655e1945c195c103704881af19c1030243c7040dc1021af041af046bc31af091af09c1024a67c7038d70645e1907038970635e18c1af0dc102024385c191c1027048470409c1011aef85c18dc101704801aef86bc01aefd1af01c101024341aefdc1014a67870405c1001aeec1aeec6bbd1aef1)
  (.lf 0))) (.nd (.nd (.lf
  0x29d5a016680d468059a0150d7340d73435cf0d7390d73da01558a140d739a01502bd0029d1a015680d068055a0140d7280d72835cc0d72d0d731a01458a100d72da01402bcc029cda014680cc68051a0130d71c0d71c35c90d7210d725a01358a0c0d721a01302bc8029c9a013680c86804da0120d7100d71035c60d7150d719a01258a080d715a01202bc4029c5a012680c468049a0110d7040d70435c30d7090d70da01158a04029c1a011680c02166c000073e3a21669cf8e5a99073e39cf8d21658680d9628702bd80d8c9a05652a2068159a0550d8b40d8b4362f0d8b90d8b9a05558a1c021d9a055681d0681d14a8758a1c58a1dcf8d216d02165885982165d2165dcf8d5a98c21660000073e3673e3485952165021650859558a190d8bda05552a1c68155a0540d8a80d8a8362c0d8ad0d8ada05458a18680d5628602bd458a1885955a9882165485932164821648859358a15021d1a053681c8681c94a8558a14680d1628502bd00d8b1a05452a1868151a0530d89c0d89c36290d8a10d8a1a05358a1458a1485935a9842164dcf8c2163c2163c859121641680cd628402bcc0d8a5a05352a146814da0520d8900d89036260d8950d895a05258a10)
  (.lf 0)) (.nd (.lf
  0x6d0456ed15db445db45b46e6d2346d1b9b46d154d4154d45537154d9154ddb46d5fb406d0416ed05db405db41b46d6d230154d9b46d61b406d1b5b46c154c8154c85534154cd154cdb46c61b3c6d03d6ecf5db3c154d1b46c5fb3c5db3db46c6d22c6d1b1b46b154bc154bc5531154c1154c5b46b5fb386d0396ece5db385db39b46b6d228154c1b46b61b386d1adb46a154b0154b0552e154b5154b5b46a61b346d0356ecd5db34151e0547a151e5151e5b3ee5db34154b9b46a5fb345db35b46a6d2246d1a9b469154a4154a4552b154a9154a9b46961b30150c8000059bf6151e9b3ee5bb346cfb9b3ed151d4151d45477151d9154adb4695fb30151d9b3ed5db3059bf5b3ed6d0306d0316ecc5db305db31b4696d2206d1a5b468154981549855281549d5b8e1b00f6c0b86c0b804e249dcc5b8e9b0116c0c06c0c004e449dd4151ddb3ed5bb306cfb5b3ec151c8151c85474151cd151cdb3ec5db2c150c4000059bea59bf1b3ec6d02c151d1b3ec5bb2c6cfb1b3eb151bc151bc5471151c1151c5b3eb5bb28151c1b3eb5db286cfadb3ea151b0151b0546e151b559be9b3ea6d024151b9b3ea5bb24151b5b3ea5db246cfa9b3e9151a4151a4546b151a9)
  (.lf 0)))

def shaGateTree300 : BTree :=
  .nd (.nd (.nd (.lf
  0x1247dad655378c6b595ad641246812468491c1246d1246dad645978804645ad646b60c6b60d4de25978812311ad2700bc86b49dad26123001230048c21230512309ad265978859788b5795b69c5b69e113584550844d61134492a8492a924ac492ad492b211345d698492ae11345f6982d5e5ea732d5d42d5d4b5772d5d92d5d9ea735b6982bca5e6bb0044479aede6ba2bc942bc94af272bc992bc9de6ba03f405d499e6ba79b6479b640fd00044012471ad64537886b591ad631245c1245c49191246112461ad635978404641ad636b6086b6094de15978412305ad2600bc46b499ad25122f4122f448bf122f9122fdad255978403f41ad256b5106b51165e100bc059785ea732d6942d69400005b69a5b69a11348454c844d211334929c4929d24a9492a1492a611335d694492a211335f6942d5dc00007a9ce7a9cdea722d5c82d5c8b5742d5cd2d5cdea725b6942bc99e6ba0044079ae9e6b92bc882bc88af242bc8d2bc91e6b903f3c5d495e6b979b6079b600fcf0043c12465ad63537846b58dad62124501245049161245512455ad62597800463dad626b6046b6054de059780122f9ad2500bc06b495ad24122e8122e848bc122ed122f1ad2459780)
  (.lf 0)) (.nd (.lf
  0x3efc409a23f0454584407c201e885464c07e24594445945167145a4545a4407e201e8801e899d59675e00c6f99d5a526d0675699d590c6e40c6e431bb0c6e90c6ed9d59526cc0c6e99d59586cc675659d580c6d80c6d831b80c6dd0c6dd9d58586c84584007c101e845464807e14594045941167045a4145a4007e101e840c58d9d1c0208c01e859d58675dc675dd49b2586c8674719d1b0c57c0c57c31610c5810c5819d1b02088026899d1b674e80c5859d1b586cc6746d9d1a0c5700c570315e0c5750c5799d1a586c8026859d1a674e4674e561b202084586c9c9a6727147271571775e5dc1ec85c9a75e5e0675e149b3586cc674e961b302088586cc00005a6525a651c9a7727187269dc9a61ec741ec747b1f1ec791ec79c9a65e5dc5e5ddca2272904729058177625dc7274971845e61072735717f5e5fc5e5fdca2a729247278571935e64c7278d71955e6545e655ca407297c72901ca3f1f0a01f0a07c2a1f0a51f0a9ca3f606507278971945e6505e651ca3f729781f0a5ca3f62650728fdca3e1f0941f0947c271f0991f099ca3e6264c5e64dca3e729741f09dca3e6064c728f9ca3d1f0881f0887c241f08d1f08dca3d626487278171925e648)
  (.lf 0))) (.nd (.nd (.lf
  0x26105da0660de826101da0662de85ede9da067689476819da05260f0260f0983e260f5260f9da0560de4260f5da0562de45ede5da057689076815da04260e4260e4983b260e9260edda0460de0260e9da0462de05ede1da047688c76811da03260d8260d89838260dd260e1da0360ddc260ddda0362ddc5edddda03768885edd9837662dd87680d837662dd962dd80dd93cbbc76889837762ddc62ddc0dda3cbc07688d837862de062de00ddb3cbc476891837962de462de40ddc3cbc876895837a62de862de80ddd3cbcc76899837b62dec62dec0dde3cbd07689d837c62df062df00ddf3cbd4768a1837d62df462df40dc03cbd8768a5837e62df862df80dc13cbdc768a9837f62dfc62dfc0dc23cbe0768ad838062e0062e000dc33cbe4768b1838162e0462e040dc43cbe8768b5838262e0862e080dc53cbec768b9838362e0c62e0c0dc63cbf0768bd838462e1062e100dc73cbf4768c1838562e1462e140dc83cbf8768c5838662e1862e180dc93cbfc768c9838762e1c62e1c0dca3cc00768cd838862e2062e200dcb3cc04768d1838962e2462e240dcc3cc08768d5838a62e2862e280dcd3cc0c768d9838b62e2c62e2c0dce3cc10768dd838c62e30)
  (.lf 0)) (.nd (.lf
  0x1865061961865518655bb3f61e6c18659bb3f5fe6c5de6dbb3f6ed786ecfdbb3e18644186446193186495de65bb3d6ed705de69bb3e6ed741864dbb3e5fe6818649bb3e61e686ecf9bb3d186381863861901863d1863dbb3d61e646ed717f9961e6461e6405fc3bc486ed757f9a61e6861e6805fd3bc4c6ed797f9b61e6c61e6c05fe3bc506ed7d7f9c61e7061e7005ff3bc546eda97fa761e9c61e9c05ea3bc806edad7fa861ea061ea005eb3bc846edb17fa961ea461ea405ec3bc886edb57faa61ea861ea805ed3bc8c6edbd7fac61eb061eb005ef3bc946edc17fad61eb461eb405f03bc986edc57fae61eb861eb805f13bc9c6edc97faf61ebc61ebc05f23bca03bc8005fc017dc3bc8405fd017e03bc8805fe017e43bc8c05ff017e83bc9405e1017f03bc9805e2017f43bc9c05e3017f83bca005e4017fc6edd57fb261ec86eddd7fb461ed06ede17fb561ed46edd97fb361ecc3e1ac061c017f03e1b0061d017f43e1b4061e017f83e1b8061f017fc5fec8063c3e22c5fecc063d3e2305fed0063e3e2345fed4063f3e2383e22c05fc3e2ad3e23005fd3e2b13e23405fe3e2b53e23805ff3e2b9017fd967065a3c659c1966f09f6c09f6c27dd09f71)
  (.lf 0)))

def shaGateTree301 : BTree :=
  .nd (.nd (.nd (.lf
  0x3ceec0e9703a483cef00e9803a4c3cef40e9903a503cef80e9a03a543cefc0e9b03a583cf000e9c03a5c3cf040e9d03a603cf080e9e03a643cf0c0e9f03a683cf100e8003a6c3cf140e8103a703cf180e8203a743cf1c0e8303a783cf200e8403a7c3cf240e8503a003cf280e8603a043cf2c0e8703a083cf300e8803a0c3cf340e8903a103cf380e8a03a144063c0ea003a00406400ea103a04406440ea203a08406480ea303a0c4064c0ea403a10406500ea503a14406540ea603a18406580ea703a1c4065c0ea803a20406600ea903a24406640eaa03a28406680eab03a2c4066c0eac03a30406700ead03a34406740eae03a38406780eaf03a3c4067c0eb003a40406800eb103a44406840eb203a48406880eb303a4c4068c0eb403a50406900eb503a54406940eb603a58406980eb703a5c4069c0eb803a60406a00eb903a64406a40eba03a68406a80ebb03a6c406ac0ebc03a70406b00ebd03a74406b40ebe03a78406b80ebf03a7c610d80ec0406bc610dc0ec1406c0610e00ec2406c4610e40ec3406c8610e80ec4406cc610ec0ec5406d0610f00ec6406d4610f40ec7406d8610f80ec8406dc610fc0ec9406e0611000eca406e4611040ecb406e8)
  (.lf 0)) (.nd (.lf
  0x234599c6667946679560e201d44583886e8a5a3281ba286e881ba1c41c4006ce01b0c44df406ee01b38542fc070e44ef444ef513dd44ff544ff4070e01b3801b399a01668800b3f19a045238841c4406cf01b1041c4806d001b14668119a030b3dc0b3dc2cf90b3e10b3e59a035238444df806ef01b3c54300070f44ef844ef913de44ff944ff8070f01b3c01b3d9a026688444dfc06f001b4054304071044efc44efd13df44ffd44ffc071001b400b3e19a035838401b419a03668886680d9a020b3d00b3d02cf60b3d50b3d99a02523800b3d59a0258380668099a010b3c40b3c42cf30b3c90b3cd9a015237c0b3c99a015837c668059a000b3b80b3b82cf00b3bd0b3c19a005237841c3c06cd01b0841cb806cc01b040b3bd9a005837844df006ed01b34542f8070d44ef044ef113dc44ff144ff0070d01b3401b359a006687c6680199ff0b3ac0b3ac2ced0b3b10b3b599ff5237444dec06ec01b30542f4070c44eec44eed13db44fed44fec070c01b300b3b199ff5837401b3199ff66878667fd99fe0b3a00b3a02cea0b3a50b3a599fe583703e86808eb0232c3e86c08ec023303e87008ed023343e87408ee023383e87808ef0233c3e87c08f002340)
  (.lf 0))) (.nd (.nd (.lf
  0x68431a10b0dcbc0dcbc37310dcc10dcc1a10b02cc80dcc5a10b58b0c032c9a10b684a86842da10a0dcb03f7800cd1032c46099c0cf13f8003f8000cb13f881032c5a10a684a40dcb0372e0dcb50dcb9a10a58b080dcb5a10a02cc468429a1090dca40dca4372b0dca90dca9a10902cc00dcada10958b043f77c0cd0032c0609980cf03f7fc3f7fc0cb03f87d032c1a109684a03f7780ccf032bc609940cef3f7f83f7f80caf3f879032bda1086849c3f7680ccb032ac3f76c0ccc032b03f7700ccd032b43f7740cce032b8609840ceb3f7e8609880cec3f7ec6098c0ced3f7f0609900cee3f7f43f7e80cab3f8693f7ec0cac3f86d3f7f00cad3f8713f7f40cae3f87568425a1080dc980dc9837280dc9d0dc9da10802cbc0dca1a10858b0068421a1070dc8c032b9a107684980dc8c37250dc910dc91a10702cb80dc95a10758afc6841da1060dc800dc8037220dc850dc85a10602cb40dc89a10658af8032b5a1066849468419a1050dc740dc74371f0dc790dc79a10502cb00dc7da10558af4032b1a1056849068415a1040dc680dc68371c0dc6d0dc71a10458af00dc6da10402cac032ada1046848c68411a1030dc5c0dc5c37190dc610dc61a10302ca8)
  (.lf 0)) (.nd (.lf
  0x9215943257d80090b993f50104064fd593f4090a8090a8242c090ad090b193f457d8053d0003cf43cf843cf90f5e43df941644038f00e1014c31b32349f845ba95b3226cd046cc8db32214c203b9cc054f015283dc78056f0153c5fc14058f3dcf83dcf8054f3dd796cd04054f49f8014c20530a14c2514c29b3220153c0153d93f46504c6504d5f600103c43bf803af00e3c43df803cf00e3c00e3d94326514465145476057d8057d80596c59d54165b0599b165a0165a0596a165a5165a4599b59d5014c25b32249f806cc89b32114c1414c14530714c1914c1db321015385ba91b3216cd006cd00054e49f7c3b9c8054e0152409219943251d8053cfc03ce43cf443cf50f5d43df543df403ce00e38650c994310920443bf403ae00e3841640038e00e0c00e39943165140090ad93f40103c64fd193f30909c0909c2429090a1090a593f357d7c3dc74056e015385fc10058e3dcf43dcf4054e3dd750153993f365048650495f5f0103865141475f57d7c0920424830920909209943157d7c57d7c599b166b8165a800001666e1666c599a165941659459671659916598599a59d4c53cf803cd43cf043cf10f5c43df143bf003ad00e344163c038d00e08)
  (.lf 0)))

def shaGateTree302 : BTree :=
  .nd (.nd (.nd (.lf
  0x116e5ab03535346ac0dab02116d0116d045b6116d5116d5ab0259530043edab026ac846ac854d4c5953011579aac5045f06ab15aac41156811568455c1156d11571aac45953003cedaac46ab8c6ab8d654c045ec59530acc92b3582b35800005b44e5b44de57e796747967575115f4445f445e5fa79864797e9e5f92b7642b764addb2b7692b76de5f9614402b769e5f9634402b4a9e57e5d444795f9e57d2b4942b494ad272b4992b499e57d5f4402b2e000002b3262b324acb52b2d02b2d0acb55952d5d241e1d0787bc787bc0f3a001e8299c9e1d1001ec78745e1d0299b8299b8a670299bd299c1e1d003ce803ce9aac36ab886ab89654b045e8116d9ab02535306ac09ab01116c4116c445b3116c9116c9ab015952c043e9ab016ac806ac814d4b5952c1156daac4045ec6ab11aac31155c1155c45591156111565aac35952c5952cacb55b4485b449e57d796707967175105f4405f441e5f979860797e5e5f82b7582b758add82b75d2b761e5f86143c2b75de5f86343c2b49de57d5d440795f5e57c2b4882b488ad242b48d2b48de57c5f43c2b2d4acb32b2c82b2c8acb3595295d23de1cf787b8787b80f39001e4299bde1d0001e878741e1cf299ac)
  (.lf 0)) (.nd (.lf
  0x1d44075121d4451d449c6406043c1d445c6406243c71901c63f1d4341d434750f1d4391d43dc63f604385e439c63f719781d439c63f62438718fdc63e1d4281d428750c1d42d1d431c63e604345e431c63d719705e435c63e719741d42dc63e62434718f9c63d1d41c1d41c75091d4211d425c63d604301d421c63d62430718f5c63c1d4101d41075061d4151d415c63c6242c1d419c63c6042c718f1c63b1d4041d40475031d4091d40dc63b604281d409c63b624285e429c63b71968718edc63a1d3f81d3f875001d3fd1d3fdc63a624245e425c63a719641d401c63a60424718e9c6391d3ec1d3ec74fd1d3f11d3f1c639624205e419c637719585e41dc6387195c5e421c639719601d3f5c63960420718e5c6381d3e01d3e074fa1d3e51d3e5c6386241c1d3e9c6386041c718e1c6371d3d41d3d474f71d3d91d3d9c637624181d3ddc63760418718ddc6361d3c81d3c874f41d3cd1d3cdc636624145e415c636719541d3d1c63660414718d9c6351d3bc5e405c632719445e411c635719501d3bc74f11d3c11d3c1c635624101d3c5c63560410718d5c6341d3b01d3b074ee1d3b51d3b5c6346240c1d3b9c6346040c5e40dc6347194c718d1c6331d3a4)
  (.lf 0))) (.nd (.nd (.lf
  0x68bc5a2f00e7780e77839e00e77d0e77da2f002e9c0e781a2f058ce00348da2ec68c2c68bc1a2ef0e76c0e76c39dd0e7710e771a2ef02e980e775a2ef58cdc68bbda2ee0e7600e76039da0e7650e769a2ee58cd80e765a2ee02e9468bb9a2ed0e7540e75439d70e7590e759a2ed02e900e75da2ed58cd468bb5a2ec0e7480e74839d40e74d0e74da2ec02e8c0e751a2ec58cd068bb1a2eb0e73c0e73c39d10e7410e741a2eb02e880e745a2eb58ccc68bada2ea0e7300e73039ce0e7350e739a2ea58cc803481633102e8068c29633302e880e735a2ea02e8403485a2ea68c2468ba9633102e8168c25633202e8468d494b3d58cf446a4c0b4402c9054c540b6446b4c46b4d1af346c4d46c4c0b6402c9002c91a32b68d2868d754b4858d200e8c5a32b52cd446a3c0b4002c8046a400b4102c8446a440b4202c8846a480b4302c8c54c440b6046b3c54c480b6146b4054c4c0b6246b4454c500b6346b4846b3d1aef46c3d46b411af046c4146b451af146c4546b491af246c4946c3c0b6002c8046c400b6102c8446c440b6202c8846c480b6302c8c68c2d633402e8c68d514b3f58cfc68c9d635002efc68d614b4358d0c68d554b4058d0068d954b5058d40)
  (.lf 0)) (.nd (.lf
  0x6dfb96f4e5dd386dfb56f4d5dd346dfb16f4c5dd30170bdb80e4a2286dfbd6f4f5dd3c5bd3db80e6e0b46e039b80d170ac170ac5c2d170b15bd39b80d6e0b0170b1b80d4a224170b5b80d017e06e035b80c170a0170a05c2a170a5170a9b80c017dc5bd35b80c6e0ac170a5b80c4a2206e031b80b17094170945c271709917099b80b4a21c1709db80b017d85bd31b80b6e0a86e02db80a17088170885c241708d17091b80a017d46dfa96f4a5dd286dfad6f4b5dd2c5bd2db80a6e0a41708db80a4a2186e029b8091707c1707c5c211708117085b809017d05bd29b8096e0a017081b8094a2146e025b80817070170705c1e1707517079b808017cc17075b8084a2106dfa56f495dd245bd25b8086e09c6e021b80717064170645c1b170691706db807017c86df9d6f475dd1c6dfa16f485dd205bd21b8076e09817069b8074a20c6e01db80617058170585c181705d1705db8064a2085bd1db8066e09417061b806017c46e019b8051704c1704c5c151705117051b8054a2046df996f465dd185bd19b8056e09017055b805017c06e015b80417040170405c12170456df956f455dd145bd15b8046e08c17049b804017bc17045b8044a2006e011b80317034)
  (.lf 0)))

def shaGateTree303 : BTree :=
  .nd (.nd (.nd (.lf
  0x511352d30058b0058412d234b460058452d244b464058492d254b4680584d2d264b46c058512d274b470058552d284b474058592d294b4780585d2d2a4b47c058612d2b4b480058652d2c4b484058692d2d4b4880586d2d2e4b48c058712d2f4b490058752d304b494058792d114b4980587d2d124b49c058812d134b4a0058852d144b4a4058892d154b4a80588d2d164b4ac058912d174b4b0058952d184b4b4058992d194b4b80589d2d1a4b4bc058a12d1b4b4c0058a52d1c4b444058a92d1d4b448058ad2d1e4b44c058b12d1f4b450511392d204b4545113d2d214b458511412d224b45c4ca42061f818f88187e061e37b2037b20deca37b2537b2a061e000f837b26061e5123c4ca3e061e818f48187a061d37b1437b14dec737b1937b1e061d000f437b1a061d512384ca3a061d818f081876061c37b0837b08dec437b0d37b12061c000f037b0e061c512344ca36061c818ec81872061b37afc37afcdec137b0137b06061b000ec37b02061b512304ca32061b818e88186e061a37af037af0debe37af537afa061a000e837af6061a5122c4ca2e061a818e48186a061937ae437ae4debb37ae937aee0619000e437aea0619512284ca2a0619818e0)
  (.lf 0)) (.nd (.lf
  0x4c1bdf9c47e78c7e711f9c33335c3335cccd93336133361f9c3509b833365f9c34adb84c1b9f9c37e7887e70df9c23335033350ccd63335533359f9c24adb44c1b5f9c27e78433355f9c2509b47e709f9c13334433344ccd3333493334df9c14adb033349f9c1509b04c1b1f9c17e7807e705f9c03333833338ccd03333d33341f9c04adac3333df9c0509ac4c1adf9c07e77c7e701f9bf3332c3332ccccd3333133335f9bf4ada833331f9bf509a84c1a9f9bf7e7787e6fdf9be3332033320ccca3332533329f9be4ada433325f9be509a44c1a5f9be7e7747e6f9f9bd3331433314ccc7333193331df9bd4ada033319f9bd509a04c1a1f9bd7e7707e6f5f9bc3330833308ccc43330d33311f9bc4ad9c3330df9bc5099c4c19df9bc7e76c4c195f9ba7e7647e6f1f9bb332fc332fcccc13330133305f9bb4ad984c199f9bb7e76833301f9bb509987e6edf9ba332f0332f0ccbe332f5332f9f9ba4ad944c191f9b97e760332f5f9ba509947e6e9f9b9332e4332e4ccbb332e94c18df9b87e75c332edf9b94ad90332e9f9b9509907e6e5f9b8332d8332d8ccb8332dd332e1f9b84ad8c332ddf9b85098c7e6e1f9b7332cc332ccccb5332d1332d5f9b74ad88)
  (.lf 0))) (.nd (.nd (.lf
  0xd59c35690d5a10d5a19fd3589840d5a59fd35298467f4d9fd20d5900d59035660d5950d5959fd2589800213d9fd267fc40d5999fd25298067f499fd10d5840d58435630d5890d58d9fd15297c0d5899fd15897c021399fd167fc067f459fd00d5780d57835600d57d0d57d9fd0589780d5819fd052978021359fd067fbc67f419fcf0d56c0d56c355d0d5710d5719fcf589740d5759fcf52974021319fcf67fb867f3d9fce0d5600d560355a0d5650d5659fce589700d5699fce529700212d9fce67fb467f399fcd0d5540d55435570d559021299fcd67fb00d5599fcd5896c0d55d9fcd5296c67f359fcc0d548021259fcc67fac0d54835540d54d0d54d9fcc589680d5519fcc5296867f319fcb0d53c0d53c35510d5410d5459fcb52964021219fcb67fa80d5419fcb589640210d9fc667f9467f954a5458950029659f9e67ef40297d9fa467f0c67e919fa30d4dc0d4dc35390d4e10d4e19fa302b780d4e59fa3589bc029799fa367f0867e8d9fa20d4d00d4d035360d4d50d4d59fa202b740d4d99fa2589b8029759fa267f0467e899fa10d4c40d4c435330d4c90d4cd9fa1589b40d4c99fa102b70029719fa167f0067e859fa00d4b80d4b835300d4bd)
  (.lf 0)) (.nd (.lf
  0x55ac12de6414384369003354b79863dfd2de600a54414092dd14b7984b79991cc647ac0845191cc51b186473191cb0843c0843c2111084410844591cb51b140844191cb57b146472d91ca0843008430210e084350843991ca51b10846a58e5b639e853a5c032643554435550d75436554365403264b75c076318f5f00a50848d18f5e63df463d7d8f5e07620076201d8a07625076298f5e4b790076258f5e00a4c63d798f5d07614076141d8707619076198f5d00a48848cd8f5d63df00761d8f5d4b78c63d758f5c07608076081d840760d0760d8f5c00a44848bd8f5963de0076118f5c4b788848b58f5763dd8848c98f5c63dec63d718f5b075fc075fc1d8107601076058f5b4b784848c58f5b63de8076018f5b00a4063d6d8f5a075f0075f01d7e075f5075f58f5a00a3c075f98f5a4b780848c18f5a63de463d698f59075e4075e41d7b075e9075e98f5900a38075ed8f594b77c63d658f58075d8848b98f5863ddc075d81d78075dd075dd8f5800a34075e18f584b77863d618f57075cc075cc1d75075d1075d58f574b774075d18f5700a3063d5d8f56075c0075c01d72075c5075c58f5600a2c3d78004d14b5885f99c04f13d8003d8012d623d881)
  (.lf 0)))

def shaGateTree304 : BTree :=
  .nd (.nd (.nd (.lf
  0x2d1e8b47c2d1ed2d1f1e9c3040d05d629e9c37a7887a7881034005d0040d2107e84274841fa107d48e9448e9523a748e9948e9e107d5990448e9a107d00a4c2d1ede9c3005d07a70de9c22d1dc2d1dcb4792d1e12d1e5e9c2040cc5d625e9c27a7847a7841033005cc040ce107d84270841f6107c48e8848e8923a448e8d48e92107c5990048e8e107c00a482d1e1e9c2005cc7a709e9c12d1d02d1d0b4762d1d52d1d9e9c1040c85d621e9c17a7807a7801032005c8040ca107c8426c841f2107b48e7c48e7d23a148e8148e86107b598fc48e82107b00a442d1d5e9c1005c87a705e9c02d1c42d1c4b4732d1c92d1cde9c0040c45d61de9c07a77c7a77c1031005c4040c6107b84268841ee107a48e7048e71239e48e7548e7a107a598f848e76107a00a402d1c9e9c0005c47a701e9bf2d1b82d1b8b4702d1bd2d1c1e9bf040c05d619e9bf7a7787a7781030005c0040c2107a84264841ea107948e6448e65239b48e6948e6e1079598f448e6a107900a3c2d1bde9bf005c07a6fde9be2d1ac2d1acb46d2d1b12d1b5e9be040bc5d615e9be7a7747a774102f005bc040be107984260841e6107848e5848e59239848e5d48e621078598f048e5e107800a38)
  (.lf
  0x51a31afac6bf2c6beb1afab132dc132dc4cb9132e1132e5afab53a2c132e1afab55a2c51a2dafab6bf286beadafaa132d0132d04cb6132d5132d5afaa55a28132d9afaa53a2851a29afaa6bf246bea9afa9132c4132c44cb3132c9132c9afa955a24132cdafa953a246bea5afa8132b8132b84cb0132bd132c1afa853a20132bdafa855a2051a1dafa76bf1851a21afa86bf1c6bea1afa7132ac132ac4cad132b1132b1afa755a1c132b5afa753a1c6be9dafa6132a0132a04caa132a5132a5afa655a1851a19afa66bf14132a9afa653a186be99afa513294132944ca71329913299afa555a1451a15afa56bf101329dafa553a146be95afa413288132884ca41328d13291afa453a1007e5190cc519f851a11afa46bf0c1328dafa455a106be91afa31327c1327c4ca11328113285afa353a0c51a0dafa36bf0813281afa355a0c6be8dafa213270539752ddd4326c4326d0cbb4336d4336d2ddd4b874132704c9e1327513275afa255a0851a05afa16bf0051a09afa26bf0413279afa253a086be89afa113264132644c9b1326913269afa155a041326dafa153a046be85afa013258132584c981325d1325dafa055a0013261afa053a0051a01afa06befc))
  (.nd (.lf
  0x7340c0c994aca8734000c964ac9c733fc0c954ac98734040c974aca0734080c984aca4201edcc8f5e7607323dcc8e201dc201dc8079201e1201e5cc8e5c75c201e1cc8e5e75c0cf5d9ecd5284c67b359ecc0cf480cf4833d40cf4d0cf4d9ecc58848020059ecc67bac67bad4a125884858849cc8e732b4732b571d75e75c0cf519ecc52848020014a115884467b314a11588455884571d65e758733f80c944ac94734140c9b4acb0733ec0c914ac88733f00c924ac8c733f40c934ac907323971d65e759734100c9a4acac733d00c8a4ac6c20349cccc4ac485c75dcccc733ac733b00c824ac4c733ac0c814ac485c7580c804ac44733300c804ac454acc203b380f4880f4932304e0c04c8c203f18104080fc603f036e7836e78dba036e7d36e8203f04b4bc36e7e03f0510bc80ece03b236d1036d10db4636d1536d1a03b24c8bc4acbe03b280f4480f45322f4e0bc4c8be03f08103c80fc203ef36e6c36e6cdb9d36e7136e7603ef4b4b836e7203ef510b836d1603b24e0bc80eca03b136d0436d04db4336d0936d0e03b14c8b84acba03b180f4080f41322e4e0b84c8ba03ef8103880fbe03ee36e6036e60db9a36e6536e6a03ee4b4b436e6603ee510b4)
  (.lf 0))) (.nd (.nd (.lf
  0x5afcddc807727c7727d73e85efa05efa1dcfc7746c773f1dcfb27724277249dcb277292772ddcfb60f9c27729dcfb62f9c27469dc805cfa077201dc7f27454274549d172745927459dc7f5ef9c2727400002731a273189cc527260272609c9a27265272649cc55afc8590889cc5273602736000005afca5afc9dc7f772787727973e75ef9c5ef9ddcfb77468773eddcfa27718277189dc82771d27721dcfa60f982771ddcfa62f982745ddc7f5cf9c771fddc7e27448274489d142744d2744ddc7e5ef9827268000027316273149c9727258272589c9759085590849c975afc45afc5dc7e772747727573e65ef985ef99dcfa77464773e9dcf92770c2770c9dc52771127715dcf960f9427711dcf962f9427451dc7e5cf98771f9dc7d2743c2743c9d112744127441dc7d5ef942725c9c9527250272509c9559081590809c955afc05afc1dc7d772707727173e55ef945ef95dcf977460773e5dcf827700277009dc22770527709dcf860f9027705dcf862f9027445dc7d5cf94771f5dc7c27430274309d0e2743527435dc7c5ef90272549cc427244272449c9327249272489cc45afbc5907c9cc42735c2735c00005afbe5afbddc7c7726c7726d73e45ef90)
  (.lf 0)) (.nd (.lf
  0x1973865cf580ed0a42d975401aac65d5197530a41c0a41c29090a4210a4259753580ec3e364064a018a85ff80066a3e3e43e3e4062a3e465018a9975365dc865dc9603b01aa844664048a011a85406c04aa447644476511f9448654486404aa011a80a5999792520f065e4997910a5840a58429630a5890a5899791580ec011a9979165ec065ec1483b580ec580ec65cf5a0a45a0a5bdbe6f7746f77570005e0001983800005a0b65a0b5bdc26f7841983c00005a0ba5a0b9bdc36f78819909bdc35c0146f70dbdc2198f4198f4663f198f9198f9bdc25e010198fdbdc25c0106f709bdc1198e8198e8663c198ed198f1bdc15c00c198edbdc15e00c5a0b1bdc16f7806f705bdc0198dc198dc6639198e1198e5bdc05c0085a0adbdc06f77c198e1bdc05e0086f701bdbf198d0198d06636198d5198d9bdbf5c004198d5bdbf5e0045a0a9bdbf6f7786f6fdbdbe198c4198c46633198c9198cdbdbe5c0005c001bdfc6f86c0a421975301aa865d4d97520a4100a41029060a4150a4199752580e83bdb40629018900a415975201aa43e3600649018a45ff7c06693e3e03e3e006293e461018a5975265dc465d4997510a4040a40429030a4090a40d9751580e4)
  (.lf 0)))

def shaGateTree305 : BTree :=
  .nd (.nd (.nd (.lf
  0x77fa80ef8000e028b5ddfcc000e477f31dfcb28b4c28b4ca2d528b5128b55dfcb03be003be1a9c96a7a06a7a16509044e011121aa08534286a821aa071110c1110c44451111111111aa0759424042e1aa076a8986a8994d095942410fb5a9ca044e46a729a9c910fa410fa443eb10fa910fada9c95942459424a9385b34c5b34de38078e7c78e7d74ce5f3385f339e3fc7906c78ff1e3fb2a95c2a95caa592a9612a965e3fb613342a961e3fb633342a6a1e3805d33878e01e37f2a68c2a68ca9a52a6912a691e37f5f3342a4e0a9362a4d42a4d4a936594215d135dfca77fa477fa40ef7000dc28b51dfcb000e077f2ddfca28b4028b40a2d228b4528b49dfca03bdc03bdda9c86a79c6a79d6508044dc11115aa07534246a81daa06111001110044421110511105aa0659420042ddaa066a8946a8954d085942010fa9a9c9044e06a725a9c810f9810f9843e810f9d10fa1a9c85942059420a9365b3485b349e37f78e7878e7974cd5f3345f335e3fb7906878fede3fa2a9502a950aa562a9552a959e3fa613302a955e3fa633302a695e37f5d33478dfde37e2a6802a680a9a22a6852a685e37e5f3302a4d8a9342a4cc2a4cca9345941d5d131dfc977fa0)
  (.lf 0)) (.nd (.lf
  0x1cacdc4e44a85071391c4e31cabc7145c09974a8a07146009984a8a47146409994a8a871430098c4a8740b8e99aee5245066bb99aed0b8d40b8d42e370b8d93ea44092202408602e009423eac43eac409023eb450b77d9ab001e0c66ac19aaf0b76c0b76c2ddd0b7710b7759aaf5844c024099aaf66b380b8d99aed5844c66b39611301e081c7e000001c8e61c8e471f51c7d01c7d071f55844d5844c71f55a3dc1c965c4a65e36471299c4a51c9541c95472571c9591c95dc4a55c3601c959c4a55e3605a3ddc4a57131071295c4a41c9481c94872541c94d7131170d85e3601c7d568f51c7c81c7c961111c7cd1c7cd68f55a3d80b8dd9aed5244c66bb59aec0b8c80b8c82e340b8cd0b8cd9aec58448450c0072101c04543c80741451c0451c11490452c1452c0074101c0401c059aec66c2c66c2d4912584483ea40092102404602dc09413eac03eac009013eb41024059aae66b340b7719aaf01e0866b35611201e0466abd9aae0b7600b7602dda0b7650b7699aae584485844968f51c9141c94dc4a45e35c1c951c4a45c35c1c91400005a3da5a3d9c4a47130c7129170d65e3593ea3c092002400602d809403eabc3eabc09003eb3d02401611101e00)
  (.lf 0))) (.nd (.nd (.lf
  0x687c962f102d8123521d3bb03584233b5d37d5eadc58bc572b65ead874df572b65ead95cad80d604afc474eec0d604afc54afc532f14e3c4822ad32f14e3c54e3c52cd14fbc48249d2cd14fbc54fbc52c3b06c38825192cd24fbc84fbc92c3c06c3c8251d2cd34fbcc4fbcd2c3d06c40825212cd44fbd04fbd12c3e06c44825252cd54fbd44fbd52c3f06c48825292cd64fbd84fbd92c4006c4c8252d2cd74fbdc4fbdd2c4106c50825312cd84fbe04fbe12c4206c54825352cd94fbe44fbe52c4306c58825392cda4fbe84fbe92c4406c5c8253d2cdb4fbec4fbed2c4506c60825412cdc4fbf04fbf12c4606c64825452cdd4fbf44fbf52c4706c68825492cde4fbf84fbf92c4806c6c8254d2cdf4fbfc4fbfd2c4906c70825512ce04fc004fc012c4a06c74825552ce14fc044fc052c4b06c78825592ce24fc084fc092c4c06c7c8255d2ce34fc0c4fc0d2c4d06c80825612ce44fc104fc112c4e06c84825652ce54fc144fc152c4f06c88825692ce64fc184fc192c5006c8c06c392c444b10806c3d2c454b10c06c412c464b11006c452c474b11406c492c484b11806c4d2c494b11c06c512c4a4b12006c552c4b4b12406c592c4c4b12806c5d2c4d4b12c)
  (.lf 0)) (.nd (.lf
  0x159e5b5144a060306d9f22d4d4687c8b5f22c306c8306c8c1b4306cd306d1f22c4bc64306cdf22c4d4646d4d005884a0644a065f22c7c92c7c8b1f22b306bc5bb75b5146d4cc6d4cc05874a0604a061f22b7c928306bcc1b1306c1306c5f22b4bc60306c1f22b4d4607c8adf22a306b0306b0c1ae306b530835f26a504647c92d2f194d4644bc65f26a7ca247c9a9f2693082430824c20b30829159e9b5140161c6d451b513159d4159d45677159d9159d9b5134a05c30829f269504607c9292f184d4604bc61f2697ca203082df2694a8607c9a5f2683081830818c2083081d4a05df22a7c9247c9252f174d45c306b9f22a4bc5c4bc5df2687ca1c30821f2684a85c3081df2685045c7c9a1f2673080c3080cc20530811306b5f22a4d45c0612928164a0507c8a9f229306a4306a4c1ab306a9159ddb513016186d44db512159c8159c85674159cd5bb6db5126d4c46d4c405854a058159cdb5124a0584a059f2297c920306adf2294bc58306a9f2294d4587c8a5f2283069830698c1a83069d306a1f2284bc545bb69b5116d4c0159d1b512016146d449b511159bc159bc5671159c1159c1b5114a054159c5b511016106d445b510159b0159b0566e159b5)
  (.lf 0)))

def shaGateTree306 : BTree :=
  .nd (.nd (.nd (.lf
  0x11ed1ac6c536886b1b1ac6b11ebc11ebc47b111ec111ec1ac6b5968404541ac6b6b2286b2294da15968411d65ac2e047446b0b9ac2d11d5411d54475711d5911d5dac2d5968403e41ac2d6b1306b13165a10474059685e8702c8382c83800005b59a5b599e8897a2a07a2a175665f5985f599e9057a4907a415e9042cbd42cbd4b2f72cbd92cbdde904615942cbd9e904635942c919e8895d5987a225e8882c9042c904b2432c9092c909e8885f5942c78c00007a1c27a1c0b1e02c77c2c77cb1e0596815d395e4b87935c7935c0f8f0033c2ae81e4b900340792e5e4b82ae702ae70ab9e2ae752ae79e4b803e3c03e3dac2c6b12c6b12d65a00473c11ec5ac6b536846b1adac6a11eb011eb047ae11eb511eb5ac6a596800453dac6a6b2246b2254da05968011d59ac2d047406b0b5ac2c11d4811d48475411d4d11d51ac2c5968059680b1e05b5945b595e8887a29c7a29d75655f5945f595e9047a48c7a411e9032cbc82cbc8b2f42cbcd2cbd1e903615902cbcde903635902c90de8885d5947a221e8872c8f82c8f8b2402c8fd2c8fde8875f5902c780b1de2c7742c774b1de5967d5d391e4b779358793580f8e003382ae75e4b80033c792e1e4b72ae64)
  (.lf 0)) (.nd (.lf
  0x1e7d9cfa67464673e99cf90c5640c564315b0c56901e799cf9674600c5699cf9586bc0c56d9cf9526bc673e59cf80c5580c55831580c55d0c5619cf8526b871e89518b5662c71e6151815660471e5d51805660071e395177565dc71e3d5178565e0565e0079d41f5856604078641f7c56630079141fa841f7c079d01e4841fa8078801e744573007bd01e745463807dd4583045831162c459314593007dd01e740c55d9cf8586b801e759cf86745c673e19cf70c54c565dc079c41f5456600078541f785662c079041fa441f78079c01e4441fa4078701e704572c07bc01e705463407dc4582c4582d162b4592d4592c07dc01e7001e719cf7674580c54c31550c5510c5519cf7586b40c5559cf7526b4673dd9cf60c5400c54031520c5450c5499cf6526b00c5459cf6586b0673d99cf50c5340c534314f0c53971e7d51885662071e51517d565f471e2d5174565d0565d0079941f48565f4078241f6c56620078d41f9841f6c079901e3841f98078401e644572007b901e645462807d945820458211628459214592007d901e6401e659cf46744c6744d49aa586a871e7951875661c71e8151895662471e4d517c565f071e295173565cc565cc079841f44)
  (.lf 0))) (.nd (.nd (.lf
  0x692c5a4b00f1f80f1f83c800f1fd0f201a4b052e980f1fda4b058e9875df5538456e1056e100b894278856e400b95427b84275c0b9502e28427880b8002e5446f100bb502e5454e180bd547010470111c2447111471100bd502e5402e55a4b06933c692c1a4af0f1ec0f1ec3c7d0f1f10f1f5a4af52e940f1f1a4af58e9456e3c0b94427b4427580b9402e2446f0c0bb402e5054e140bd44700c4700d1c234710d4710c0bd402e5002e51a4af69338692bda4ae0f1e00f1e03c7a0f1e50f1e9a4ae52e900f1e5a4ae58e90427540b9302e2046f080bb302e4c54e100bd347008470091c2247109471080bd302e4c02e4da4ae69334692b9a4ad0f1d40f1d43c770f1d90f1dda4ad52e8c0f1d9a4ad58e8c427500b9202e1c46f040bb202e4854e0c0bd247004470051c2147105471040bd202e4802e49a4ad69330692b5a4ac0f1c80f1c83c740f1cd0f1d1a4ac52e880f1cda4ac58e884274c0b9102e1846f000bb102e4454e080bd147000470011c2047101471000bd102e4402e45a4ac6932c692b1a4ab0f1bc0f1bc3c710f1c10f1c5a4ab52e840f1c1a4ab58e84427480b9002e1446efc0bb002e4054e040bd046ffc46ffd1c1f470fd470fc0bd002e40)
  (.lf 0)) (.nd (.lf
  0x31c21f5d34d6f831c25f5d34bef87d74df5d231c1031c10c70631c1531c19f5d24bef431c15f5d24d6f46e87c062c4a2f44a2f5f5d27d7c47d749f5d131c046e878062b4a2f04a2f1f5d17d7c031c04c70331c0931c0df5d14bef031c09f5d14d6f07d745f5d031bf831bf8c70031bfd31c01f5d04beec6e874062a4a2ec4a2edf5d07d7bc7d7bd2fbb4d6ec4beedf60e7d8b47d7d12fc04d7007d7f92fca4d7284bf29f61d7d8f07d8012fcc4d7307d8092fce4d73831e44c79331e4931e49f6215073831e4df6214ab384bf39f6217d9007d885f62031e3831e38c79031e3d31e41f6204ab347d8052fcd4d7344bf35f6207d8fc7d7fd2fcb4d72c31e3df620507347d881f61f31e2c31e2cc78d31e3131e35f61f4ab304bf31f61f7d8f831e31f61f507307d87df61e31e2031e20c78a31e2531e29f61e4ab2c31e25f61e5072c4bf2df61e7d8f47d879f61d31e147d7e92fc64d7184bf19f6197d8e07d7ed2fc74d71c31e14c78731e1931e1df61d4ab2831e19f61d507287d875f61c31e0831e08c78431e0d31e11f61c4ab247d7f52fc94d7244bf25f61c7d8ec31e0df61c507247d871f61b31dfc31dfcc78131e0131e05f61b4ab2031e01f61b50720)
  (.lf 0)))

def shaGateTree307 : BTree :=
  .nd (.nd (.nd (.lf
  0x6f7c001e0007006f80001f0007406f8400000007806f8800010007c06f8c00020000006f9000030000406f9400040000806f9800050000c06f9c00060001006fa000070001406fa400080001883f9400b65009c5009c00090001c83f9800b7500a0500a0000a0002083f9c00b8500a4500a4000b0002483fa000b9500a8500a8000c0002883fa400ba500ac500ac000d0002c83fa800bb500b0500b0000e0003083fac00bc500b4500b4000f0003483fb000bd500b8500b800100003883fb400be500bc500bc00110003c83fb800bf500c0500c00012000405f055de10778bc77841de0f27ec027ec09fb227ec527ec9de0f6105027ec5de0f630505f051de0f778b87783dde0e27eb427eb49faf27eb927ebdde0e6104c27eb9de0e6304c5f04dde0e778b477839de0d27ea827ea89fac27ead27eb1de0d6104827eadde0d630485f049de0d778b077835de0c27e9c27e9c9fa927ea127ea5de0c6104427ea1de0c630445f045de0c778ac77831de0b27e9027e909fa627e9527e99de0b6104027e95de0b630405f041de0b778a87782dde0a27e8427e849fa327e8927e8dde0a6103c27e89de0a6303c5f03dde0a778a477829de0927e7827e789fa027e7d)
  (.lf 0)) (.nd (.lf
  0x52271c07770258701ddc0761aacc1aacc6ab51aad11aad5c0765426c5226dc076702541aad1c0765626c701d9c0751aac01aac06ab21aac552269c075702501aac5c075562681aac9c07554268701d5c0741aab41aab46aaf1aab91aab9c0745626452265c0747024c1aabdc07454264701d1c0731aaa81aaa86aac1aaad1aab1c073542601aaadc0735626052261c07370248701cdc0721aa9c1aa9c6aa91aaa11aaa5c0725425c1aaa1c0725625c5225dc07270244701c9c0711aa901aa906aa61aa951aa95c0715625852259c071702401aa99c07154258701c5c0701aa841aa846aa31aa8970251509a5626852255c0707023c1aa89c070562541aa8dc07054254701c1c06f1aa781aa786aa01aa7d1aa81c06f542501aa7dc06f5625052251c06f70238701bdc06e1aa6c1aa6c6a9d1aa711aa71c06e5624c1aa75c06e5424c5224dc06e70234701b9c06d1aa601aa606a9a1aa657024550975625c702495098562607024d5099562645626406be41bdc7027150a2562885628806a741c007029d50ad562b4562b406b241c2c41c0006be01acc41c2c06a901af844cb406de01af8702a550af562bc542bc06fe44db444db5138d44eb544eb406fe01af8)
  (.lf 0))) (.nd (.nd (.lf
  0x378ce05cc4e1ec73fe00cea4adec4adee05cc817ac817ad327b4e1ec4e1ee06488199c81922064737b8c37b8cdee537b9137b9606474b16837b9206474f9e8378d205cc4c9ec8173205cb378bc378bcde31378c1378c205cb4e1e873fdc0ce94ade84adea05cb817a8817a9327a4e1e84e1ea0647819988191e064637b8037b80dee237b8537b8a06464b16437b8606464f9e4378c605cb4c9e88172e05ca378b0378b0de2e378b5378b605ca4e1e473fd80ce84ade44ade605ca817a4817a532794e1e44e1e60646819948191a064537b7437b74dedf37b7937b7e06454b16037b7a06454f9e0378ba05ca4c9e48172a05c9378a4378a4de2b378a9378aa05c94e1e073fd40ce74ade04ade205c9817a0817a132784e1e04e1e206458199081916064437b6837b68dedc37b6d37b7206444b15c37b6e06444f9dc378ae05c94c9e08172605c83789837898de283789d3789e05c84e1dc73ed9723c5e8f05c8f1cfd573fd073fd00ce64addc4adde05c88179c8179d32774e1dc4e1de06448198c81912064337b5c37b5cded937b6137b6606434b15837b6206434f9d8378a205c84c9dc8172205c73788c3788cde25378913789205c74e1d873f55cfd421878)
  (.lf 0)) (.nd (.lf
  0x51c91b4a46d30c6d291b4a3155dc155dc5579155e1155e5b4a353c8c64d5d471e57c7864d71472357c8c51c8db4a36d308155e1b4a355c8c6d28db4a2155d0155d05576155d5155d5b4a255c8864d6d472257c8851c89b4a26d304155d9b4a253c886d289b4a1155c4155c45573155c9155cdb4a153c8464d69472157c8451c85b4a16d300155c9b4a155c846d285b4a0155b8155b85570155bd64d65472057c8051c81b4a06d2fc155bdb4a055c80155c1b4a053c806d281b49f155ac155ac556d155b1155b5b49f53c7c155b1b49f55c7c64d61471f57c7c51c7db49f6d2f86d27db49e155a0155a0556a155a5155a5b49e55c7851c79b49e6d2f4155a9b49e53c786d279b49d15594155945567155991559db49d53c7415599b49d55c7464d59471d57c7451c75b49d6d2f06d275b49c155881558855641558d1558db49c55c7064d55471c57c7051c71b49c6d2ec15591b49c53c706d271b49b1557c1557c55611558153be40388439dc439dd0e9743add43adc038800d20438dc036800d2000d21933364d4864d49471957c6408c1c230908c216d3314f2d55cb455cb403724162c15581b49b55c6c64d4d471a57c6815585b49b53c6c64d51471b57c6c)
  (.lf 0)))

def shaGateTree308 : BTree :=
  .nd (.nd (.nd (.lf
  0x5777811a3430f07a96155df5777c5777c11a4430f47a96555e0577805778011a5430f87a96955e1577845778411a6430fc7a96d55e2577885778811a7431007a97155e35778c5778c11a8431047a97555e4577905779011a9431087a97955e5577945779411aa4310c7a97d55e6577985779811ab431107a98155e75779c5779c11ac431147a98555e8577a0577a011ad431187a98955e9577a4577a411ae4311c7a98d55ea577a8577a811af431207a99155eb577ac577ac11b0431247a99555ec577b0577b011b1431287a99955ed577b4577b411b24312c7a99d55ee577b8577b811b3431307a9a155ef577bc577bc11b4431347a9a555f0577c0577c011b543138430bc11ad04688430c011ae0468c430c411af04690430c811b004694430cc11b104698430d011b20469c430d411b3046a0430d811b4046a4430dc11b5046a8430e011b6046ac430e411b7046b0430e811b8046b4430ec11b9046b8430f011ba046bc430f411bb046c0430f811bc046c4430fc11bd046c84310011be046cc4310411bf046d04310811a0046d44310c11a1046d84311011a2046dc4311411a3046e04311811a4046e44311c11a5046e84312011a6046ec4312411a7046f0)
  (.lf 0)) (.nd (.lf
  0x587707ccf1f3701f2707c9e1f2751f27800001f33e1f2747ccf5a6f41f33c7cce1f2643f05c09e8027203f06009e9027243f06409ea02728605f80a083f0dc605fc0a093f0e0606000a0a3f0e43f0dc09c83f15d3f0e009c93f1613f0e409ca3f1651f2647c9b1f2691f26c00001f33a459dc07e801f20546e4080845adc45add16d745bdd45bdc080801f2001f219ddb677e8677e949d9587640c8bd9da00212c676819d9f0c8ac0c8ac322d0c8b10c8b59d9f5876c0c8b19d9f02128027299d9f676f86767d9d9e0c8a00c8a0322a0c8a50c8a99d9e58768027219d9d676f0676f161d9021200c8a59d9e02124027259d9e676f4676799d9d0c8940c89432270c8990c89d9d9d58764587647ccd1f3681f36800005a6ea1f37000005a6f65a6f5caa872b1c1f40dcaa85e68472aa1caa71f3fc1f3fc7d011f4011f401caa75e6801f405caa75c680676f961db021285876c7cce1f36c1f2687cce5a6f01f3387c981f25c1f25c7c9858769677ed49da58768676f561da02124587687c985a6ec1f36c00005a6f25a6f1caa772b1872a9dcaa61f3f01f3f07cfe1f3f51f3f5caa65e67c1f3f9caa65c67c5a6edcaa672b1472a99caa51f3e41f2607ccd1f250)
  (.lf 0))) (.nd (.nd (.lf
  0x6962963e7031586962d63e80315c69655a5940f6a80f6a83dac0f6ad0f6b1a59452f48696d14bd358f4c0f6ada59458f48696ed4bda58f6802f05a594696cc696514bd158f4502f014bd158f44696cd4bd258f486961d63e40314c24a45d6d54b15c75b55d6d424a3424a34928f24a3924a3dd6d4037145cc6dd6d475bcc75bcc0dc54b15803715a55a695e469569a5590f5640f5643d5b0f5690f569a559031100f56da55958f546963963eb031686961163e1031406961563e2031446961963e303148696e94bd958f646963563ea031646973d4bee58fb8697414bef58fbc697454bf058fc0696f14bdb58f6c24a39d6d44b15875b51d6d324a2824a28928c24a2d24a31d6d3037105cc69d6d375bc875bc80dc44b15403711a559695e069565a5580f5580f5583d580f55d0f561a55858f506963d63ec0316c6960563de031346960963df031386960d63e00313c0f55da5580310c24a2dd6d34b15475b4dd6d224a1c24a1c928924a2124a25d6d20370c5cc65d6d275bc475bc40dc34b1500370da558695dc69561a5570f54c0f54c3d550f551695e563d60311424a21d6d24b15075b49d6d124a1024a10928624a1524a19d6d1037085cc61d6d175bc0)
  (.lf 0)) (.nd (.lf
  0x4eee52903063687d9c129a04ef004ef01290a063847d9c529a14ef044ef05290b063887d9c929a24ef084ef09290c0638c0635929084a4180635d29094a41c06361290a4a42006365290b4a42406369290c4a4287dde130104d8407dddd300f4d83c7ddd9300e4d8387ddd5300d4d8346f0b8067b4a4304a431f7557ddd07ddd1300c4d8306f0b4067a4a42c4a42df7547ddcc7ddcd300b4d82c6f0b006794a4284a429f7537ddc87ddc9300a4d8286f0ac06784a4244a425f7527ddc47ddc530094d8246f0a806774a4204a421f7517ddc07ddc130084d8204c041f7977ded87de5df796326c0326c0c9b2326c5326c9f7964ac3c4c03df7967ded4326c5f7965083c7de59f795326b4326b4c9af326b932539f7554d8307dd55f7543252832528c94c3252d3252df7544d82c32531f7544c02c7dd51f7533251c3251cc9493252132521f7534d82832525f7534c0287dd4df7523251032510c94632515326b9f795508384c039f7957ded0326bdf7954ac387de55f794326a8326a8c9ac326ad326b1f7944ac3432519f7524c02432515f7524d8247dd49f7513250432504c943325093250df7514c0204c031f7937dec8326adf794508344c035f7947decc)
  (.lf 0)))

def shaGateTree309 : BTree :=
  .nd (.nd (.nd (.lf
  0x29105e0815d1a878205e080290f0290f0a43e290f5290f5e0805f1a428f38000028fc628fc4a3f028f2428f24a3cb28f2928f28a3f05b1c459290a3f0290042900400005b1c65b1c5e0807827c7827d74695f1a45f1a5e0fc7846c783f1e0fb293b4293b4a4ef293b9293bde0fb611a0293b9e0fb631a0290f9e0805d1a478201e07f290e4290e4a43b290e9290e9e07f5f1a028f2c000028fc228fc0a3ef28f1828f18a3c828f1d28f1ca3ef5b1c05928ca3ef290002900000005b1c25b1c1e07f782787827974685f1a05f1a1e0fb78468783ede0fa293a8293a8a4ec293ad293b1e0fa6119c293ade0fa6319c290ede07f5d1a0781fde07e290d8290d8a438290dd290dde07e5f19c28f20000028fbe28fbca3ee28f0c28f0ca3c528f1128f10a3ee5b1bc59288a3ee28ffc28ffc00005b1be5b1bde07e782747827574675f19c5f19de0fa78464783e9e0f92939c2939ca4e9293a1293a5e0f961198293a1e0f963198290e1e07e5d19c781f9e07d290cc290cca435290d1290d1e07d5f19828f14000028fba28fb8a3c228f0428f04a3c2592856a1b164a10434059284a3c25b1b85b1b9e07d782707827174665f1985f199e0f978460783e5e0f829390)
  (.lf 0)) (.nd (.lf
  0x34321fc9350b58341c5fc564db5c7f159fc55341b4341b4d06f341b9341bdfc554c3584a759fc557f1d07f1d130d64db584c359fc937f2c87f24dfc923431034310d0c63431534319fc924af5434315fc9250b54341b9fc554db587f155fc54341a8341a8d06c341ad341b1fc544c3544a755fc547f1cc7f1cd30d54db544c355fc927f2c47f249fc913430434304d0c3343093430dfc914af5034309fc9150b50341adfc544db547f151fc533419c3419cd069341a1341a5fc534c3504a751fc537f1c87f1c930d44db504c351fc917f2c07f245fc90342f8342f8d0c0342fd34301fc904af4c342fdfc9050b4c341a1fc534db507f14dfc523419034190d0663419534199fc524c34c4a74dfc527f1c47f1c530d34db4c4c34dfc907f2bc7f241fc8f342ec342ecd0bd342f1342f5fc8f4af48342f1fc8f50b4834195fc524db4c7f149fc513418434184d063341893418dfc514c3484a749fc517f1c07f1c130d24db484c349fc8f7f2b834189fc514db484a74530d14db447f14530d14db454c3452bd150b447f23d2bd150b4550b452bb4053447f2b92bd250b4850b492bb5053487f2bd2bd350b4c50b4d2bb60534c7f2c12bd450b5050b512bb705350)
  (.lf 0))) (.nd (.nd (.lf
  0x383ae07b44facc380ee07394cad081ce60738380d8380d8e038380dd380de07384e2cc0dd79a13a52ad0684e9a1390dd640dd64375b0dd690dd69a13958acc02a89a13968560685614ab358acc226e5d1c20348c74709d1c1226d0226d089b6226d5226d5d1c14aecc22579d1845e9e474611d1832256822568895c2256d22571d1835c9e0223d888f4223cc223cc88f458acd58acc88f45aa3c5aa3dd183746887468972785e9e05c9e1d1c174780747800d224aecc4aece073881d5c81d5d32b34e2cc4e2ce07b481f4c81ed207b33839c3839ce0e9383a1383a607b34b248383a207b34fac8380e207384cacc81ce20737380cc380cce035380d1380d207374e2c803285a0fa684640dd6da13952acc684e5a1380dd580dd5837580dd5d0dd5da13858ac802a85a1386855c6855d4ab258ac86846562b202c84226d9d1c10348874705d1c0226c4226c489b3226c9226c9d1c04aec82256dd1835e9e07460dd1822255c2255c89592256122565d1825c9dc223d16a8d223c4223c562b1223c9223c96a8d5aa3858ac96a8d225202252000005aa3a5aa39d182746847468572775e9dc5c9ddd1c07477c7477c0d214aec84aeca073781d5881d5932b24e2c8)
  (.lf 0)) (.nd (.lf
  0x2ef28bbcc2ef2d2ef2dee145017c2ef31ee144a57c7b7d12e5e4d1784b979ee137b8c87b7d52e5f4d17c4b97dee147b8cc7b851ee132ef1c2ef1cbbc92ef212ef21ee13501782ef25ee134a5787b84dee122ef102ef10bbc62ef152ef15ee12501747b7cd2e5d4d1744b975ee127b8c42ef19ee124a5747b849ee112ef047b7c92e5c4d1704b971ee117b8c02ef04bbc32ef092ef09ee11501702ef0dee114a5707b845ee102eef82eef8bbc02eefd2ef01ee104a56c7b7c52e5b4d16c4b96dee107b8bc2eefdee105016c7b841ee0f2eeec2eeecbbbd2eef12eef1ee0f501687b7c12e5a4d1684b969ee0f7b8b82eef5ee0f4a5687b83dee0e2eee02eee0bbba2eee52eee9ee0e4a5642eee5ee0e501647b7bd2e594d1644b965ee0e7b8b47b839ee0d2eed42eed4bbb72eed97b7b92e584d1604b961ee0d7b8b02eeddee0d4a5602eed9ee0d501607b835ee0c2eec82eec8bbb42eecd7b7b52e574d15c4b95dee0c7b8ac2eed1ee0c4a55c2eecdee0c5015c7b831ee0b2eebc2eebcbbb12eec12eec1ee0b501582ed41edcb4d1507b72dedca2ed302ed30bb4e2ed352ed39edca4b94c49d4dedca7b7a42ed35edca4d14c7b729edc92ed2449d49edc97b7a0)
  (.lf 0)))

def shaGateTree310 : BTree :=
  .nd (.nd (.nd (.lf
  0x614140f8f40cf8614180f9040cfc6141c0f9140d00614200f9240d04614240f9340d08614280f9440d0c6142c0f9540d10614300f9640d14614340f9740d18614380f9840d1c6143c0f9940d20614400f9a40d24614440f9b40d28614480f9c40d2c6144c0f9d40d30614500f9e40d34614540f9f40d3840cbc0f4040d3d40cc00f4140d4140cc40f4240d4540cc80f4340d4940ccc0f4440d4d40cd00f4540d5140cd40f4640d5540cd80f4740d5940cdc0f4840d5d40ce00f4940d6140ce40f4a40d6540ce80f4b40d6940cec0f4c40d6d40cf00f4d40d7140cf40f4e40d7540cf80f4f40d7940cfc0f5040d7d40d000f5140d8140d040f5240d8540d080f5340d8940d0c0f5440d8d40d100f5540d9140d140f5640d9540d180f5740d9940d1c0f5840d9d40d200f5940da140d240f5a40da540d280f5b40da940d2c0f5c40dad40d300f5d40db140d340f5e40db540d380f5f40db953541e5447958c79511e5432b1f42b1f4ac7f2b1f92b1fde5435553c2b1f9e5435753c5353de543795887950de5422b1e82b1e8ac7c2b1ed2b1f1e542555382b1ede5425753853539e5427958479509e5412b1dc2b1dcac792b1e12b1e5e541555342b1e1e54157534)
  (.lf 0)) (.nd (.lf
  0xbf219bf358584453fc077001d40545040790454fc454fd155f455fd455fc079001d4001d419bf36704866f51616101f401d678759f585856704949615858458584759f5a5141d67c759d1d6701d670759d585815a515c6bf71b781d815c6c25e4a471b09c6c11d8041d80476031d8091d80dc6c15c4a01d809c6c15e4a05a51dc6c171b8071b05c6c01d7f81d7f876001d7fd1d801c6c05c49c1d7fdc6c05e49c1d71c00005a51a5a519c6c071b7c71b01c6bf1d7ec1d7ec75fd1d7f11d7f5c6bf5c4981d7f1c6bf5e49871afdc6be1d7e054500078f454f8454f9155e455f9455f8078f01d3c41e44074f01d10453f8076f01d3c01d3d9bf2670446704549605858066f4d616001f3c0bf259bf35258466fcd9bf20bf100bf102fc60bf150bf159bf25858058580759d5a51066f49615f01f381d674759b1d6681d668759b5857d453f4076e01d3841e40074e01d0c544fc078e454f4454f5155d455f5455f4078e01d3801d399bf16704067041495f5857c0bf199bf25258066fc99bf10bf040bf042fc30bf090bf099bf15857c5857c759b5a50c5a50dc6bd71b701d66dc6a81d65c1d65c75991d6611d661c6a85a50841e3c074d01d0866f45615e01f34)
  (.lf 0))) (.nd (.nd (.lf
  0x82b492d2a4fd284fd292c7d4b1ec82b4d2d2b4fd2c4fd2d2c7e4b1f082b512d2c4fd304fd312c7f4b1f482b552d2d4fd344fd352c804b1f882b592d2e4fd384fd392c814b1fc82b5d2d2f4fd3c4fd3d2c824b20082b612d304fd404fd412c834b2045ec55d6227590475889d621245bc245bc9171245c1245c5d62160c50245c1d62162c505ec51d6217590075885d620245b0245b0916e245b5245b9d62060c4c245b5d62062c4c5ec4dd620758fc75881d61f245a4245a4916b245a9245add61f60c48245a9d61f62c485ec49d61f758f87587dd61e245982459891682459d245a1d61e60c442459dd61e62c445ec45d61e758f475879d61d2458c2458c91652459124595d61d60c4024591d61d62c405ec41d61d758f075875d61c245802458091622458524589d61c60c3c24585d61c62c3c5ec3dd61c758ec75871d61b2457424574915f245792457dd61b60c3824579d61b62c385ec39d61b758e87586dd61a2456824568915c2456d24571d61a60c342456dd61a62c345ec35d61a758e475869d6192455c2455c91592456124565d61960c3024561d61962c305ec31d619758e075865d618245502455091562455524559d61860c2c24555d61862c2c)
  (.lf 0)) (.nd (.lf
  0x16c485b1416c4d51e31b7946decc16c51b79453e3016c4db79455e306de51b79316c3c16c3c5b1116c4116c41b79355e2c16c45b79353e2c51e2db7936dec851e25b7916dec06de4db79216c3016c305b0e16c3516c35b79255e2816c39b79253e2851e29b7926dec46de49b79116c2416c245b0b16c2916c2db79153e2416c29b79155e246de45b79016c1816c185b0816c1d16c1db79055e2051e21b7906debc16c21b79053e206de41b78f16c0c16c0c5b0516c115dd55b8526e1c46e149b8511725c1725c5c991726117265b8515fd5017261b85161d505dd51b8516e1c06e145b85017250172505c961725517259b8505fd4c5dd4db8506e1bc17255b85061d4c6e141b84f172445dd49b84f6e1b8172445c931724917249b84f61d481724db84f5fd486e13db84e17238172385c901723d5dd45b84e6e1b41723db84e61d4417241b84e5fd446e139b84d1722c1722c5c8d1723117231b84d61d4017235b84d5fd405dd41b84d6e1b06e135b84c17220172205c8a1722517229b84c5fd3c17225b84c61d3c5dd3db84c6e1ac6e131b84b17214172145c87172195dd39b84b6e1a817219b84b61d381721db84b5fd386e12db84a17208172085c841720d)
  (.lf 0)))

def shaGateTree311 : BTree :=
  .nd (.nd (.nd (.lf
  0x82416090438be838be8e2fc38bed38bf20904002f038bee0904514344cc3609048248c82412090338bdc38bdce2f938be138be60903002ec38be20903514304cc320903824888240e090238bd038bd0e2f638bd538bda0902002e838bd609025142c4cc2e0902824848240a090138bc438bc4e2f338bc938bce0901002e438bca0901514284cc2a09018248082406090038bb838bb8e2f038bbd38bc20900002e038bbe0900514244cc2609008247c8240208ff38bac38bace2ed38bb138bb608ff002dc38bb208ff514204cc2208ff82478823fe08fe38ba038ba0e2ea38ba538baa08fe002d838ba608fe5141c4cc1e08fe82474823fa08fd38b9438b94e2e738b9938b9e08fd002d438b9a08fd514184cc1a08fd82470823f608fc38b8838b88e2e438b8d38b9208fc002d038b8e08fc514144cc1608fc8246c823f208fb38b7c38b7ce2e138b8138b8608fb002cc38b8208fb514104cc1208fb82468823ee08fa38b7038b70e2de38b7538b7a08fa002c838b7608fa5140c4cc0e08fa82464823ea08f938b6438b64e2db38b6938b6e08f9002c438b6a08f9514084cc0a08f982460823e608f838b5838b58e2d838b5d38b6208f8002c038b5e08f851404)
  (.lf 0)) (.nd (.lf
  0x1a59869675821d5821c69675a1c41a59c69651a5900aa51985701bd86615d98560aa400aa402a920aa450aa499856582186fd458020620806208006633be64620c806753beac3be640675019c06fa815064561903e5900895019d4600ac08b53e6103e61006753e691019d59856661d4661d5608601bd40abbd98955221c6625598940aba80aba82aec0abad5619004a941b08561c004b541b3841adc04b5012a841b0804a0012d4449900695012d45419806b544a9044a9112c444b9144b9006b5012d4012d59894662cc662cd4886582180abad9894582181a5906965582195821869655a1c01a59469631a5881a5886963582150aa45985601bd46615998550aa340aa342a8f0aa39561bc04b441b3441ad804b4012a44498c0694012d05419406b444a8c44a8d12c344b8d44b8c06b4012d0012d19893662c8662c94885582140abb19894522186625198930ab9c0aa3d985558214600a808b43e60c3e60c06743e68d6fd41801f6207c6207c06623be60620c406743bea83be600674019bc3e58c0894019d0019d19855661d00ab9c2ae90aba10aba1989358214661d1608501bd05821469635a1bc6fd39801d620746207406603be586fd3d801e62078)
  (.lf 0))) (.nd (.nd (.lf
  0x3764cdd95376513765605570004437652055751188374f6051a4e18c8146a0519374e4374e4dd3b374e9374ee05194c98835a3e00804f60c80202007f35a2c35a2cd68d35a3135a36007f4ad884de0a007f80278802792b624f6084ad8a0519814e0814e132624e1884c98a0557815d88155e05563764037640dd92376453764a05560004037646055651184374ea05194e188814660518374d8374d8dd38374dd374e205184c98435a32007f4f608801fe007e35a2035a20d68a35a2535a2a007e4ad844de06007e80274802752b614f6044ad860518814dc814dd32614e1844c9860556815d48155a05553763437634dd8f376393763e05550003c3763a055551180374de05184e184814620517374cc374ccdd35374d1374d605174c98035a26007e4f604801fa007d35a1435a14d68735a1935a1e007d4ad804de02007d80270802712b604f60073be00ccf4ad804ad820517814d8814d932604e1804c9820555815d08155605543762837628dd8c3762d376320554000383762e05545117c374d205174e1808145e0516374c0374c0dd32374c5374ca05164c97c35a1a007d4f600801f6007c35a0835a08d68435a0d35a12007c4ad7c4ddfe007c8026c)
  (.lf 0)) (.nd (.lf
  0x51b21b1986c6dc6c661b1971416414164505b141691416db19753b1c14169b19755b1c6c65db1961415851b19b1966c6d451b15b1956c6d01415850581415d1415db19655b1814161b19653b186c659b1951414c1414c50551415114155b19553b1414151b19555b146c655b194141401414050521414514145b19455b1014149b19453b1051b11b1946c6cc6c651b1931413414134504f1413951b0db1936c6c81413db19353b0c14139b19355b0c6c64db1921412814128504c1412d1412db19255b0814131b19253b0851b09b1926c6c46c649b1911411c51b01b1906c6bc1411c50491412114125b19153b0414121b19155b0451b05b1916c6c06c645b190141101411050461411514115b19055b0014119b19053b006c641b18f141041410450431410914109b18f55afc1410db18f53afc51afdb18f6c6b86c63db18e140f8140f85040140fd14101b18e53af851af9b18e6c6b4140fdb18e55af86c639b18d140ec140ec503d140f1140f5b18d53af4140f1b18d55af451af5b18d6c6b06c635b18c140e0140e0503a140e5140e5b18c55af0140e9b18c53af051af1b18c6c6ac6c631b18b140d451aedb18b6c6a8140d45037140d9140d9b18b55aec)
  (.lf 0)))

def shaGateTree312 : BTree :=
  .nd (.nd (.nd (.lf
  0x2e1d400007afea7afe8b8722e1c42e1c4b872598a15d5b5e8ce7a3b47a3b410170055c2cadde8cf005607a33de8ce2cacc2caccb2b52cad12cad5e8ce0405c0405dae246b90c6b90d662800adc12a65ae63538a46b98dae6212a5012a504a9612a5512a55ae62598a00475dae626ba046ba054e28598a0128f9ae2500ae06b895ae24128e8128e84a3c128ed128f1ae24598a0598a0b8725b7b45b7b5ec157b0d07b0d175ed5f7b45f7b5ec917b2c07b245ec902e6142e614b9872e6192e61dec90617b02e619ec90637b02e359ec155d7b47b055ec142e3442e344b8d32e3492e349ec145f7b02e1c8b8702e1bc2e1bcb8705989d5d5b1e8cd7a3b07a3b01016005582cad1e8ce0055c7a339e8cd2cac02cac0b2b22cac52cac9e8cd0405804059ae236b9086b909662700ad812a59ae62538a06b989ae6112a4412a444a9312a4912a49ae615989c04759ae616ba006ba014e275989c128edae2400adc6b891ae23128dc128dc4a39128e1128e5ae235989c5989cb8705b7b05b7b1ec147b0cc7b0cd75ec5f7b05f7b1ec907b2bc7b241ec8f2e6082e608b9842e60d2e611ec8f617ac2e60dec8f637ac2e34dec145d7b07b051ec132e3382e338b8d02e33d)
  (.lf
  0x6baa1aea712c0c12c0c4b0512c1112c11aea7559bc519bdaea76bb1812c15aea7539bc6ba9daea612c0012c004b0212c0512c05aea6559b812c09aea6539b86ba99aea512bf412bf44aff12bf912bf9aea5559b4641f9466d579b4519b5aea56bb1012bfdaea5539b46ba95aea412be812be84afc12bed12bedaea4559b0641f5466c579b0519b1aea46bb0c12bf1aea4539b06ba91aea312bdc12bdc4af912be112be1aea3559ac641ed466a579a8519a9aea26bb0412be5aea3539ac641f1466b579ac519adaea36bb086ba8daea212bd012bd04af612bd512bd5aea2559a812bd9aea2539a86ba89aea112bc412bc44af312bc9641e94669579a412bcdaea1539a4519a5aea16bb0012bc9aea1559a46ba85aea012bb812bb84af012bbd12bc1aea0539a0641dd46665799851999ae9e6baf412bbdaea0559a0641e146675799c5199dae9f6baf8641e54668579a0519a1aea06bafc6ba81ae9f12bac12bac4aed12bb112bb5ae9f5399c12bb1ae9f5599c6ba7dae9e12ba012ba04aea12ba512ba9ae9e5399812ba5ae9e559986ba79ae9d12b9412b944ae712b9912b99ae9d5599412b9dae9d539946ba75ae9c12b8812b884ae412b8d12b8dae9c55990))
  (.nd (.lf
  0x45b84081201fc85478c083245c8445c85174145d8545d84083201fc801fc99e6167a00027c99e2367908679096203021c867a014a035880c0cbed9e24021cc678919e230cbdc0cbdc32f90cbe10cbe59e235880c5880c7e9d1fabc1f9e87e9e1f9d81f9d87e781f9dd1f9e000001fa7a1f9dc7e9e5a78c1fa787e9d1f9cc1f9cc7e751f9d11fac000005a78e1fabc00005a78a1fbd1cbaa5c72c72ea9cba91fbbc1fbbc7ef11fbc11fbc1cba95e7281fbc5cba95c72872ea5cba81fbb01fbb07eee1fbb55a78dcba872f1c72f1d71c95e7241fbb5cba85e7245e725cc247310c3f1800a11027c46069c0a313f2003f20009f13f2815e729cc25731101fe91cc256272873095cc241fe801fe807fa21fe851fe85cc24627241fe89cc246072473091cc231fe741fe747f9f1fe791fe7dcc23607201fe79cc23627201fbb9cba85c72472ea1cba71fba41fba47eeb1fba91fba9cba75e7201f9d07e9d5a7885a789cba772f1872f1971c85e7205e721cc23731087308dcc221fe681fe687f9c1fe6d1fe71cc226071c0cd4d9e615280c679859e600cd380cd3833500cd3d0cd3d9e6058808420cc07f101f9845b80081101fc454788083145c8045c81174045d81)
  (.lf 0))) (.nd (.nd (.lf
  0x26b0c9ac458ff958ff89ac45af3c5af3ddb8376e8876e8973c35ef0c5cf0ddbc176f8076f800e6d4b3f84b3fa0e8783a9883a9933fe4e7f84e7fa0f0383c8883c0e0f023ae503ae50eb963ae553ae5a0f02002303ae560f024fff43ab960e874cff883a1e0e863ab803ab80eae23ab853ab860e864e7f43697a032550ff880c9603243696836968da5c3696d3697203244b3f44c7f6032480d0c80d0d2cfd50ff4698e94bfd58ff4697f163fd031b026e35dbc1039b476f05dbc026e2026e209b8a26e2526e25dbc04b3f426cc9db835ef0c76e0ddb8226cb826cb89b3026cbd26cc1db825cf0826b109af426b0026b009ac226b0526b049af45af3858ff49af426c1026c1000005af3a5af39db8276e8476e8573c25ef085cf09dbc076f7c76f7c0e6c4b3f44b3f60e8683a9483a9533fd4e7f44e7f60f0283c8483c0a0f013ae443ae44eb933ae493ae4e0f010022c3ae4a0f014fff03ab8a0e864cff483a1a0e853ab743ab74eadf3ab793ab7a0e854e7f03696e032450ff480c9203233695c3695cda59369613696603234b3f04c7f2032380d0880d092cfc50ff0698e54bfc58ff0697ed63fc031ac26e29dbc0039b076f01dbbf26e1426e149b8726e19)
  (.lf 0)) (.nd (.lf
  0x1905400006f2c20182d96d865bdc65bdd601c01a2c19051bcb05a02c65cd5481c5807058071bcb0191206f2c1bcaf190401904064121904519045bcaf5a0280a2c997165207065c5997150a2b40a2b428af0a2b93bd38060a018143e264062a018285ff00064a3e2e43e2e4060a3e3650a15d96d801a2c65b6196d70a14c0a14c28550a1510a15196d701a280182996d765bd80a15596d75806c65b5d96d60a1403bd340609018103e24c0624018105fee806443e2cc3e2cc06043e34d0181196d165bc07dc9129ba4ef684ef692924063c47dc9929bc4ef704ef712926063cc7dcb529c34ef8c4ef8d292d063e8063c5292d4a4ac063cd292f4a4b46f4d4089c4a4b44a4b5f8107e0bc7e0bd302d4d8b4444e4046a0112853fec048a445e4445e51199446e5446e4048a011280a2bd97155206c0a2b997155806c01129971565cd065c5597140a2a80a2a828ac0a2ad444dc046801120444e004690112453fe40488445dc53fe80489445e0445dd1197446dd445e11198446e1446dc048801120446e004890112401125971465ccc0a2ad9714580680a2b197145206865c5197130a29c0a29c28a90a2a10a2a597135206401121971365cc80a2a1971358064)
  (.lf 0)))

def shaGateTree313 : BTree :=
  .nd (.nd (.nd (.lf
  0x532d5e12b78528784ade12a2946829468a51c2946d29471e12a552d02946de12a572d0532d1e12a78524784a9e1292945c2945ca5192946129465e129552cc29461e129572cc532cde12978520784a5e1282945029450a5162945529459e128552c829455e128572c8532c9e1287851c532c554b1572c4784a154b1572c5572c4109642c3c7851d54b2572c8572c8109742c407852154b3572cc572cc109842c447852554b4572d0572d0109942c487852954b5572d4572d4109a42c4c7852d54b6572d8572d8109b42c507853154b7572dc572dc109c42c547853554b8572e0572e0109d42c587853954b9572e4572e4109e42c5c7853d54ba572e8572e8109f42c607854154bb572ec572ec108042c647854554bc572f0572f0108142c687854954bd572f4572f4108242c6c7854d54be572f8572f8108342c707855154bf572fc572fc108442c747855554c05730057300108542c787855954c15730457304108642c7c7855d54c25730857308108742c807856154c35730c5730c108842c847856554c45731057310108942c887856954c55731457314108a42c8c7856d54c65731857318108b42c907857154c75731c5731c108c42c947857554c857320)
  (.lf 0)) (.nd (.lf
  0x4c421fd5f7f5f87f57dfd5e3482034820d20a3482534829fd5e4b01c34825fd5e50c1c346c9fd214dc207f485fd20346b8346b8d1b0346bd346c1fd204c41c4a81dfd207f4fc7f4fd31074dc1c4c41dfd5e7f5f47f579fd5d3481434814d207348193481dfd5d4b01834819fd5d50c18346bdfd204dc1c7f481fd1f346ac346acd1ad346b1346b5fd1f4c4184a819fd1f7f4f87f4f931064dc184c419fd5d7f5f07f575fd5c3480834808d2043480d34811fd5c4b0143480dfd5c50c14346b1fd1f4dc187f47dfd1e346a0346a0d1aa346a5346a9fd1e4c4144a815fd1e7f4f47f4f531054dc144c415fd5c7f5ec7f571fd5b347fc347fcd2013480134805fd5b4b01034801fd5b50c10346a5fd1e4dc147f479fd1d3469434694d1a7346993469dfd1d4c4104a811fd1d7f4f07f4f131044dc104c411fd5b7f5e87f56dfd5a347f0347f0d1fe347f5347f9fd5a4b00c347f5fd5a50c0c34699fd1d4dc107f475fd1c3468834688d1a43468d34691fd1c4c40c4a80dfd1c7f4ec7f4ed31034dc0c4c40dfd5a7f5e47f569fd59347e4347e4d1fb347e9347edfd594b008347e9fd5950c083468dfd1c4dc0c7f471fd1b3467c3467cd1a13468134685fd1b4c408)
  (.lf 0))) (.nd (.nd (.lf
  0x58b4c8b0f22c9422c9400005aabe5aabdd27b74a6874a6972985ea605ca61d2b974b6074b600d424af4c4af4e07f2820448204532d34e34c4e34e086e82234821ba086d387d4387d4e1f7387d9387de086d4b2c8387da086d4fb483851a07f24cb4c81fca07f13850438504e143385093850a07f14e3480ded1a17702d08685dda1760dec00dec037b20dec50dec9a17658b4803305a176686546865562d202d040e03da1b552b4c686d5a1b40e0280e028380c0e02d02b05a1b46874c6874d4ad258b480e02da1b458b4822e65d2b90350874ae5d2b822e5022e508b9622e5522e55d2b84af4822cf9d27b5ea60749edd27a22ce822ce88b3c22ced22cf1d27a5ca5c22b0c000022c3e22c3d6aad22afc22afd62d122b0122b016aad5aab858b496aad22c9022c9000005aaba5aab9d27a74a6474a6572975ea5c5ca5dd2b874b5c74b5c0d414af484af4a07f1820408204132d24e3484e34a086d822303850e07f14cb480dec5a17602d040330162d102d00685d962d102d010e031a1b452b48686d14ad158b4522e59d2b80350422cedd27a5ea5c58b4400005aab65aab572965ea58749e972965ea595ca580d404af4474ae00d404af454af4532d14e344)
  (.lf 0)) (.nd (.lf
  0x7bf11efc32f8dc2f8dcbe392f8e14d271efc37bf882f8e5efc34a1f02f8e1efc34ea707bf0defc22f8d02f8d0be362f8d52f8d9efc24a1ec4d26defc27bf842f8d5efc24ea6c7bf09efc12f8c42f8c4be332f8c92f8cdefc14a1e82f8c9efc14ea687bf05efc02f8b82f8b8be302f8bd2f8c1efc04a1e44d265efc07bf7c2f8bdefc04ea647bf01efbf2f8ac2f8acbe2d2f8b12f8b5efbf4a1e04d25defbe7bf744d261efbf7bf782f8b1efbf4ea607befdefbe2f8a02f8a0be2a2f8a52f8a9efbe4a1dc2f8a5efbe4ea5c7bef9efbd2f8942f894be272f8992f899efbd4ea584d259efbd7bf702f89defbd4a1d87bef5efbc2f8882f888be242f88d2f891efbc4a1d42f88defbc4ea544d255efbc7bf6c7bef1efbb2f87c2f87cbe212f8812f885efbb4a1d02f881efbb4ea504d251efbb7bf687beedefba2f8702f870be1e2f8752f875efba4ea4c2f879efba4a1cc4d24defba7bf647bee9efb92f8642f864be1b2f8697bf7128764ea587bf7d28794ea647bf6928744ea504ea5127de0603c7bf6d28754ea544ea5527df060404ea5927e0060447bf7528774ea5c4ea5d27e1060487bf7928784ea604ea6127e20604c4ea6527e3060507bf81287a4ea68)
  (.lf 0)))

def shaGateTree314 : BTree :=
  .nd (.nd (.nd (.lf
  0x6af79658f046f86aff9abfd11c9411c94472711c9911c99abfd5963c044f9abfd6b0706b0714d8f5963c6af01abbf11b2c11b2c46cd11b3111b35abbf5963c5963cb0485b5505b551e78f79eb879eb975545f5505f551e80b7a0a87a02de80a2c5782c578b1602c57d2c581e80a6154c2c57de80a6354c2c2bde78f5d55079e3de78e2c2a82c2a8b0ac2c2ad2c2ade78e5f54c2c120b0462c1142c114b046596395d34de3c378f8878f880f7d002f42a84de3c4002f878f11e3c32a83c2a83caa112a8412a845e3c303df403df5abbe6af746af75658e046f411c9dabfd5363c6aff5abfc11c8811c88472411c8d11c8dabfc59638044f5abfc6b06c6b06d4d8e5963811b31abbf046f86aefdabbe11b2011b2046ca11b2511b29abbe5963859638b0465b54c5b54de78e79eb479eb575535f54c5f54de80a7a0a47a029e8092c56c2c56cb15d2c5712c575e809615482c571e809635482c2b1e78e5d54c79e39e78d2c29c2c29cb0a92c2a12c2a1e78d5f5482c119e7702c1082c108b0442c10d2c10de7705b5482a841e3c3002f478f0de3c22a8302a830aa0e2a8352a839e3c203df05d349e3c278f8478f840f7c002f011c91abfc536386aff1abfb11c7c)
  (.lf 0)) (.nd (.lf
  0x25cd9c346714c6714d618401fcc1dd9077621dd841dd8477625861567151618501fd05861477625a5a01dd8877601dd7c1dd7c7760586115861077605a59c5a59dc7ba71f641df2dc7bb5e5281df31c7bb5c5285a5a1c7bb71f6871eedc7ba1df1c1df1c77c91df211df21c7ba5e5241df25c7ba5c52471ee9c7b91df1071d45811d624746247409603c2583c2580972025b471f6d714b5e52c71f71714c5e53071f69714a5e5285c52dc7fa720641e0adc7fb4aa1c5c531c7fb7206871fedc7fa1e09c1e09c78291e0a11e0a1c7fa4aa181e0a5c7fa027d471fe9c7f91e0901e09078261e0951e095c7f94aa141e099c7f9027d05c529c7f97206071fe5c7f81e0840c2199c7252610671c99c710c2040c20430830c20941ed0077201d9c45584079201dc85458c07b2456844568515c1457854578407b201dc801dc99c71672403ed840992025c8604a009b23ee043ee0409723ee856724149835860c1dd80775e1dd741dd74775e5860d0c0ad9c3401fcc670d19c330c09c0c09c30290c0a10c0a59c335860c0c2099c715860c025c99c336714867149618301fc85860c775e5a59871f6571495e5245a599c7b971f6071f6171485e5201df1077c61df15)
  (.lf 0))) (.nd (.nd (.lf
  0x52d45535156d4475909535156d4556d440b76426bc75985535256d4856d480b77426c075989535356d4c56d4c0b78426c47598d535456d5056d500b79426c875991535556d5456d540b7a426cc75995535656d5856d580b7b426d075999535756d5c56d5c0b7c426d47599d535856d6056d600b7d426d8759a1535956d6456d640b7e426dc759a5535a56d6856d680b7f426e0759a9535b56d6c56d6c0b60426e4759ad535c56d7056d700b61426e8759b1535d56d7456d740b62426ec759b5535e56d7856d780b63426f0759b9535f56d7c56d7c0b64426f4759bd536056d8056d800b65426f8759c1536156d8456d840b66426fc759c5536256d8856d880b6742700759c9536356d8c56d8c0b6842704759cd536456d9056d900b6942708759d1536556d9456d940b6a4270c759d5536656d9856d980b6b42710759d9536756d9c56d9c0b6c42714759dd536856da056da00b6d42718759e1536956da456da40b6e4271c759e5536a56da856da80b6f42720759e9536b56dac56dac0b7042724759ed536c56db056db00b7142728759f1536d56db456db40b724272c759f5536e56db856db80b7342730759f9536f56dbc56dbc0b7442734759fd537056dc0)
  (.lf 0)) (.nd (.lf
  0x3194cc6553195131955f5574aa787d4e12f9e4d6784be79f5577d5d831951f557506787d55df556319407d4c92f984d66031940c6523194531945f5565067431949f5564aa747d4dd2f9d4d6744be75f5567d5d47d559f5553193431934c64f3193931939f555506707d4d92f9c4d6704be71f5557d5d03193df5554aa707d555f5543192831928c64c3192d31931f5544aa6c7d4b92f944d6507d4d52f9b4d66c3192df5545066c4be6df5547d5cc7d551f5533191c3191cc6493192131921f553506687d4d12f9a4d6684be69f5537d5c831925f5534aa687d54df5523191031910c6463191531919f5524aa647d4cd2f994d66431915f552506644be65f5527d5c47d549f5513190431904c6433190931909f551506604be61f5517d5c03190df5514aa607d545f550318f8318f8c640318fd31901f5504aa5c318fdf5505065c4be5df5507d5bc7d541f54f318ec318ecc63d318f1318f1f54f506584be59f54f7d5b8318f5f54f4aa587d53df54e318e0318e0c63a318e5318e9f54e4aa547d4bd2f954d6544be55f54e7d5b4318e5f54e506547d539f54d318d4318d4c637318d9318ddf54d4aa50318d9f54d506504be51f54d7d5b07d535f54c318c8)
  (.lf 0)))

def shaGateTree315 : BTree :=
  .nd (.nd (.nd (.lf
  0x8334a0cd13a1843a184e8633a1893a18e0cd1000a43a18a0cd14fe684e66a0cd1833c0833460cd03a1783a178e8603a17d3a1820cd0000a03a17e0cd04fe644e6660cd0833bc833420ccf3a16c3a16ce85d3a1713a1760ccf0009c3a1720ccf4fe604e6620ccf833b88333e0cce3a1603a160e85a3a1653a16a0cce000983a1660cce4fe5c4e65e0cce833b48333a0ccd3a1543a154e8573a1593a15e0ccd000943a15a0ccd4fe584e65a0ccd833b0833360ccc3a1483a148e8543a14d3a1520ccc000903a14e0ccc4fe544e6560ccc833ac833320ccb3a13c3a13ce8513a1413a1460ccb0008c3a1420ccb4fe504e6520ccb833a88332e0cca3a1303a130e84e3a1353a13a0cca000883a1360cca4fe4c4e64e0cca833a48332a0cc93a1243a124e84b3a1293a12e0cc9000843a12a0cc94fe484e64a0cc9833a04e64400204fe448332400204fe454fe452cdb06df0833a000214fe484fe492cdc06df4833a400224fe4c4fe4d2cdd06df8833a800234fe504fe512cde06dfc833ac00244fe544fe552cdf06e00833b000254fe584fe592ce006e04833b400264fe5c4fe5d2ce106e08833b800274fe604fe612ce206e0c833bc00284fe644fe652ce306e10)
  (.lf 0)) (.nd (.lf
  0x1aa59c04c621501aa5dc04c6015070131c04b1aa481aa486a941aa4d5e14dc04b701a81aa51c04b6014c1aa4dc04b6214c7012dc04a1aa3c1aa3c6a911aa411aa45c04a601481aa41c04a621485e149c04a701a470129c0491aa301aa306a8e1aa351aa39c049601441aa35c049621445e145c049701a070125c0481aa241aa246a8b1aa291aa2dc048601401aa29c0486214070121c0471aa185e13dc047701981aa186a881aa1d1aa21c0476013c1aa1dc0476213c7011dc0461aa0c1aa0c6a851aa111aa11c046621381aa15c046601385e139c0467019470119c0451aa001aa006a821aa051aa09c045601345e135c045701901aa05c0456213470115c0441a9f45e131c0447018c1a9f46a7f1a9f91a9fdc044601301a9f9c0446213070111c0431a9e81a9e86a7c1a9ed5e12dc043701881a9f1c0436012c1a9edc0436212c7010dc0421a9dc1a9dc6a791a9e11a9e5c042601281a9e1c042621285e129c0427018470109c0411a9d01a9d06a761a9d51a9d9c041601241a9d5c041621245e125c0417018070105c0401a9c45e121c0407017c1a9c46a731a9c91a9cdc040601201a9c9c0406212070101c03f1a9b85e0fdc037701585e11dc03f70178)
  (.lf 0))) (.nd (.nd (.lf
  0x6a312b864ae1006a352b874ae1406a392b884ae1806a3d2b894ae1c06a412b8a4ae2006a452b8b4ae2406a492b8c4ae2806a4d2b8d4ae2c06a512b8e4ae3006a552b8f4ae3406a592b904ae3806a5d2b714ae3c06a612b724ae4006a652b734adc406a692b744adc806a6d2b754adcc06a712b764add006a752b774add406a792b784add806a7d2b794addc813fd2c274f91c4f91d2b7a4ade0814012c284f9204f9212b7b4ade4814052c294f9244f9252b7c4ade8814092c2a4f9284f9292b7d4adec8140d2c2b4f92c4f92d2b7e4adf0814112c2c4f9304f9312b7f4adf4814152c2d4f9344f9352b804adf8814192c2e4f9384f9392b814adfc8141d2c2f4f93c4f93d2b824ae00814212c304f9404f9412b834ae044e1c205a3817088168e05a23785037850de16378553785a05a24b13c3785605a24f9bc4e1be05a2817048168a05a13784437844de13378493784e05a14b1383784a05a14f9b84e1ba05a1817008168605a03783837838de103783d3784205a04b1343783e05a04f9b44e1b605a0816fc81682059f3782c3782cde0d3783137836059f4b13037832059f4f9b04e1b2059f816f88167e059e3782037820de0a378253782a059e4b12c)
  (.lf 0)) (.nd (.lf
  0x5b99db1166c4d413e5db11649e886c459b11513e4c13e4c4f9513e5113e51b11549e845b995b1146c4cc13e55b115014405b999b1156c4d06c455b11413e4013e404f9213e4513e49b1140143c13e45b11449e806c451b11313e3413e344f8f13e3913e3db113014385b991b1136c4c813e39b11349e7c6c44db11213e2813e284f8c13e2d13e2db11249e785b98db1126c4c413e31b112014346c449b11113e1c13e1c4f8913e2113e25b1110143013e21b11149e745b989b1116c4c06c445b11013e1013e104f8613e1513e19b1100142c13e15b11049e705b985b1106c4bc6c441b10f13e0413e044f8313e0913e0db10f014285b981b10f6c4b813e09b10f49e6c6c43db10e13df813df84f8013dfd13e01b10e0142413dfdb10e49e685b97db10e6c4b46c439b10d13dec13dec4f7d13df151bbdb2ac6cb2c51bc1b2ad6cb306cab5b2ac148ec148ec523d148f16cb2d4eef55bbc148f1b2ac55bbc55bbc03344153441534032b00c8051b85b29e6caf4148f5b2ac53bbc6cab1b2ab148e0148e0523a148e5148e5b2ab55bb8148e9b2ab53bb851bb9b2ab6cb286caadb2aa148d4148d45237148d9148d9b2aa55bb4148ddb2aa53bb451bb5b2aa6cb24)
  (.lf 0)))

def shaGateTree316 : BTree :=
  .nd (.nd (.nd (.lf
  0x2cfade9735f5e02ce1400002cf262cf24b3822ce042ce04b382596cd5d3e1e5a379708797080fa2003882b4ede5a40038c79691e5a32b4dc2b4dcad392b4e12b4e5e5a303e8803e89ac9b6b2e86b2e965b304788120f9acda536d06b369acd9120e4120e4483b120e9120e9acd9596cc04589acd96b3e06b3e14db3596cc11f8dac9c0478c6b271ac9b11f7c11f7c47e111f8111f85ac9b596cc596ccb3825b5e05b5e1e9737a6487a64975785f5e05f5e1e9ef7a8387a7bde9ee2d26c2d26cb49d2d2712d275e9ee615dc2d271e9ee635dc2cfb1e9735d5e07a5cde9722cf9c2cf9cb3e92cfa12cfa1e9725f5dc2ce096d762cdfc2cdfd65b12ce012ce016d765b5dc2b4e1e5a3003887968de5a22b4d02b4d0ad362b4d52b4d9e5a203e845d3dde5a279704797040fa100384120edacd9536cc6b365acd8120d8120d84838120dd120ddacd8596c804585acd86b3dc6b3dd4db2596c811f81ac9b047886b26dac9a11f7011f7047de11f7511f79ac9a596c803e85ac9a6b2e46b2e565b204784596c96d762cf602cf6000005b5de5b5dde9727a6447a64575775f5dc5f5dde9ee7a8342cfa5e9725d5dc2b4d5e5a2003845d3d80fa000380796880fa000381)
  (.lf 0)) (.nd (.lf
  0x45a9c07f801ee001ee19d6f676380c7f59d6f52724675bd9d6e0c7e052649c86272204722055192566485664807b741fc072229519b5666c5666c07a041fe47225551a6566985669807ab4201041fe407b701eb04201007a201edc4589807d701edc546a007f74599845999168645a9945a9807f701edc01edd9d6e676340c7e031fa0c7e50c7e99d6e527200c7e59d6e58720675b99d6d0c7d40c7d431f70c7d90c7dd9d6d5271c1e285c8625464852645519156644721895191566455664407b641fbc7224d51a4566905669007a9420087225151a5566945669407aa4200c566bc07b442034566c007b54203841fd407b301ea041fd807b401ea441fdc07b501ea841fe007b601eac4200807a001ed44200c07a101ed86765549d05874052741c9787265c725e1c9771eb241eb247acb1eb291eb2dc9775473c6765149cf5873c5273dc977726581eb29c9775673c725ddc9761eb181eb187ac81eb1d1eb1dc976567386764d49ce5873852739c976726541eb21c97654738725d9c9751eb0c1eb0c7ac51eb111eb11c975567341eb15c975547346764949cd5873452735c97572650725d5c9741eb001eb007ac21eb051eb09c974547306764549cc58730)
  (.lf 0))) (.nd (.nd (.lf
  0x3a64a0d96001503a6460d964ff143a3860d1b4cf188346e0d1a3a3703a370e8de3a3753a3760d1a4e7143616a01b950f18806e601b83615836158d8583615d3616201b84b3144c71601b88075c8075d2cc550f140f4d1a52c52f1802ed1a52b69528694b1a52b0f4bc0f4bc3d310f4c10f4c1a52b58f14695294bc558f1426069d9d9038d476765d9d8260542605498172605926059d9d84b31425efdd99b5ee2c7666dd99a25eec25eec97bd25ef125ef5d99a5ce2825d1c000025da625da4974425d0c25d0c974458f1558f1497445ae645ae65d99a766e4766e5738a5ee285ce29d9d8767dc767dc0e344b3144b3160d1a834e4834e533c54e7144e7160d96836d48365a0d953a6343a634e98f3a6393a63e0d950014c3a63a0d954ff103a37a0d1a4cf148346a0d193a3643a364e8db3a3693a36a0d194e7103615e01b850f14806e201b73614c3614cd855361513615601b74b3104c71201b780758807592cc450f100f4c5a52b52f14694ada52a0f4b00f4b03d2e0f4b50f4b5a52a58f1002ecda52a69524695254bc458f102605dd9d8038d076761d9d7260482604898142604d2604dd9d74b31025ef1d99a5ee2876669d99925ee025ee097ba25ee5)
  (.lf 0)) (.nd (.lf
  0x9b9d95dd57f6457f64608d59f34183a9bac65de7859f35bac66eb94183adbac65be786eb19bac5183981839860e81839d1839dbac55de743bc2c05c70170818235bab21822409d05961b51f646586d961a09cf009cf0273e09cf5441d804270101c53ee00447442d8442d910d6443d9443d804470101c0101d961a658e43e05805e70171c5fdf406073e0d83e0d805c73e15918224608b1822918229bab259f3009b9995dd01220658e547d857f600171d95dc657ec6577595dc09b8809b8826e409b8d09b9195dc57f60657ed5fd80121c09cf5961a57f6057f61bab21832018320000059f3259f31bac56eb90183a1bac55be746eb15bac41838c1838c60e5183917dae52feb4d7ac7dadd2fe94d7a44bfa5f6d67dbd47dab52fdf4d77c4bf7df6cc7dbac7daf92ff04d7c04bfc1f6dd7dbf07db75f6dc3228832288c8a43228d7dae12fea4d7a87daf52fef4d7bc4bfbdf6dc7dbec3228df6dc507bc32291f6dc4abbc7db71f6db3227c3227cc8a13228132285f6db4abb87dae92fec4d7b04bfb1f6d97dbe07daf12fee4d7b832281f6db507b84bfb9f6db7dbe87db6df6da3227032270c89e3227532279f6da4abb432275f6da507b47daed2fed4d7b4)
  (.lf 0)))

def shaGateTree317 : BTree :=
  .nd (.nd (.nd (.lf
  0x479901055031d4479941056031d8479981057031dc4799c1058031e0479a01059031e4479a4105a031e8479a8105b031ec479ac105c031f0479b0105d031f4479b4105e031f8479b8105f031fc55144106047a3c55148106147a405514c106247a4455150106347a4855154106447a4c55158106547a505515c106647a5455160106747a5855164106847a5c55168106947a605516c106a47a6455170106b47a6855174106c47a6c55178106d47a705517c106e47a7455180106f47a7855184107047a7c55188107147a805518c107247a8455190107347a8855194107447a8c55198107547a905519c107647a94551a0107747a98551a4107847a9c551a8107947aa0551ac107a47aa4551b0107b47aa8551b4107c47aac551b8107d47ab0551bc107e47ab4551c0107f47ab847a3d1eaf47b3d47a411eb047b4147a451eb147b4547a491eb247b4947a4d1eb347b4d47a511eb447b5147a551eb547b5547a591eb647b5947a5d1eb747b5d47a611eb847b6147a651eb947b6547a691eba47b6947a6d1ebb47b6d47a711ebc47b7147a751ebd47b7547a791ebe47b7947a7d1ebf47b7d47a811ec047b8147a851ec147b8547a891ec247b8947a8d1ec347b8d)
  (.lf 0)) (.nd (.lf
  0x4da91fb6b7ee287edadfb6a33cb033cb0cf2e33cb533cb9fb6a4aa0c33cb5fb6a4f28c4da8dfb6a7ee247eda9fb6933ca433ca4cf2b33ca933cadfb694aa0833ca9fb694f2884da89fb697ee207eda5fb6833c9833c98cf2833c9d33ca1fb684aa0433c9dfb684f2844da85fb687ee1c7eda1fb6733c8c33c8ccf2533c9133c95fb674aa0033c91fb674f2804da81fb677ee187ed9dfb6633c8033c80cf2233c8533c89fb664a9fc33c85fb664f27c4da7dfb667ee147ed99fb6533c7433c74cf1f33c7933c7dfb654a9f833c79fb654f2784da79fb657ee107ed95fb6433c6833c68cf1c33c6d33c71fb644a9f433c6dfb644f2744da75fb647ee0c7ed91fb6333c5c33c5ccf1933c6133c65fb634a9f033c61fb634f2704da71fb637ee087ed8dfb6233c5033c50cf1633c5533c59fb624a9ec33c55fb624f26c4da6dfb627ee047ed89fb6133c4433c44cf1333c4933c4dfb614a9e833c49fb614f2684da69fb617ee007ed85fb6033c3833c38cf1033c3d33c41fb604a9e433c3dfb604f2644da65fb607edfc7ed81fb5f33c2c33c2ccf0d33c3133c35fb5f4a9e033c31fb5f4f2604da61fb5f7edf87ed7dfb5e33c2033c20cf0a33c2533c29fb5e4a9dc)
  (.lf 0))) (.nd (.nd (.lf
  0x81c0e070237fd037fd0dff637fd537fda07024b1ec37fd607024fa6c37d1606874ca7081a1e068637d0037d00df4237d0537d0606864e26c4ae6e068681a9481a95329b4e26c4e26e070281c8481c0a070137fc437fc4dff337fc937fce07014b1e837fca07014fa6837d0a06864ca6c81a1a068537cf437cf4df3f37cf937cfa06854e2684ae6a068581a9081a91329a4e2684e26a070181c8081c06070037fb837fb8dff037fbd37fc207004b1e437fbe07004fa6437cfe06854ca6881a16068437ce837ce8df3c37ced37cee06844e2644ae66068481a8c81a8d32994e2644e266070081c7c81c0206ff37fac37facdfed37fb137fb606ff4b1e037fb206ff4fa6037cf206844ca6481a12068337cdc37cdcdf3937ce137ce206834e2604ae62068381a8881a8932984e2604e26206ff81c7881bfe06fe37fa037fa0dfea37fa537faa06fe4b1dc37fa606fe4fa5c37ce606834ca6081a0e068237cd037cd0df3637cd537cd606824e25c743b00d064ae5c4ae5e068281a8481a8532974e25c4e25e06fe81c7481bfa06fd37f9437f94dfe737f9937f9e06fd4b1d837f9a06fd4fa5837cda06824ca5c81a0a068137cc437cc4df3337cc937cca06814e258)
  (.lf 0)) (.nd (.lf
  0x6d7f56f0d5dc345dc35b65a6d9e46d969b659163401634058d21634516349b6595fc3016345b65961c306d7f16f0c5dc305dc31b6596d9e06d965b658163341633458cf163391633db6585fc2c16339b65861c2c6d7ed6f0b5dc2c5dc2db6586d9dc6d961b657163281632858cc1632d16331b6575fc281632db65761c286d7e96f0a5dc285dc29b6576d9d86d95db6561631c1631c58c91632116325b6565fc2416321b65661c245dc25b6566d9d46d959b655163101631058c61631516319b6555fc2016315b65561c206d7e16f085dc205dc21b6556d9d06d955b654163041630458c3163091630db6545fc1c16309b65461c1c6d7dd6f075dc1c5dc1db6546d9cc6d951b653162f8162f858c0162fd16301b6535fc18162fdb65361c185dc19b6536d9c86d94db652162ec162ec58bd162f1162f5b6525fc14162f1b65261c146d7d56f055dc145dc15b6526d9c46d949b651162e0162e058ba162e5162e9b6515fc10162e5b65161c106d7d16f045dc105dc11b6516d9c06d945b650162d4162d458b7162d9162ddb6505fc0c162d9b65061c0c6d7cd6f035dc0c5dc0db6506d9bc6d941b64f162c8162c858b4162cd162d1b64f5fc08162cdb64f61c08)
  (.lf 0)))

def shaGateTree318 : BTree :=
  .nd (.nd (.nd (.lf
  0x5d181e0b578350783500f0a00128291fde0b60012c782d9e0b5291ec291eca47d291f1291f5e0b503c2803c29aa376a9586a959651b0452811349aa76534706a9d9aa75113341133444cf1133911339aa755946c04329aa756aa506aa514d1b5946c111ddaa380452c6a8e1aa37111cc111cc4475111d1111d5aa375946c5946caadd5b3945b395e475792507925174e05f3805f381e4f179440793c5e4f02af902af90abe62af952af99e4f06137c2af95e4f06337c2acd5e4755d380791d5e4742acc02acc0ab322acc52acc5e4745f37c2ab75e4622ab642ab64aadb2ab692ab69e4625b390291f1e0b500128782d5e0b4291e0291e0a47a291e5291e9e0b403c245d17de0b47834c7834c0f09001241133daa755346c6a9d5aa74113281132844cc1132d1132daa745946804325aa746aa4c6aa4d4d1a59468111d1aa37045286a8ddaa36111c0111c04472111c5111c9aa365946803c25aa366a9546a955651a0452459469e4622ac3c2ac3c00005b3925b391e4747924c7924d74df5f37c5f37de4f07943c793c1e4ef2af842af84abe32af892af8de4ef613782af89e4ef633782acc9e4745d37c791d1e4732acb42acb4ab2f2acb92acb9e4735f378)
  (.lf 0)) (.nd (.lf
  0x348c5fd8b4ab58348c1fd8b4f3d84dbd9fd8b7f6a87f62dfd8a348b0348b0d22e348b5348b9fd8a4ab54348b5fd8a4f3d44dbd5fd8a7f6a47f629fd89348a4348a4d22b348a9348adfd894ab50348a9fd894f3d04dbd1fd897f6a07f625fd883489834898d2283489d348a1fd884ab4c3489dfd884f3cc4dbcdfd887f69c7f621fd873488c3488cd2253489134895fd874ab4834891fd874f3c84dbc9fd877f6984dbc52ad14f3c47f61d2ad14f3c54f3c52a3b066b87f6992ad24f3c84f3c92a3c066bc7f69d2ad34f3cc4f3cd2a3d066c07f6a12ad44f3d04f3d12a3e066c47f6a52ad54f3d44f3d52a3f066c87f6a92ad64f3d84f3d92a40066cc7f6ad2ad74f3dc4f3dd2a41066d07f6b12ad84f3e04f3e12a42066d47f6b52ad94f3e44f3e52a43066d87f6b92ada4f3e84f3e92a44066dc7f6bd2adb4f3ec4f3ed2a45066e07f6c12adc4f3f04f3f12a46066e47f6c52add4f3f44f3f52a47066e87f6c92ade4f3f84f3f92a48066ec7f6cd2adf4f3fc4f3fd2a49066f07f6d12ae04f4004f4012a4a066f47f6d52ae14f4044f4052a4b066f87f6d92ae24f4084f4092a4c066fc7f6dd2ae34f40c4f40d2a4d067007f6e12ae44f4104f4112a4e06704)
  (.lf 0))) (.nd (.nd (.lf
  0x828352cff4fc7c4fc7d2c6906cc8828392d004fc804fc812c6a06ccc8283d2d014fc844fc852c6b06cd0828412d024fc884fc892c6c06cd4828452d034fc8c4fc8d2c6d06cd8828492d044fc904fc912c6e06cdc8284d2d054fc944fc952c6f06ce0828512d064fc984fc992c7006ce406c912c644b18806c952c654b18c06c992c664b19006c9d2c674b19406ca12c684b19806ca52c694b19c06ca92c6a4b1a006cad2c6b4b1a406cb12c6c4b1a806cb52c6d4b1ac06cb92c6e4b1b006cbd2c6f4b1b406cc12c704b1b806cc52c514b1bc06cc92c524b1c006ccd2c534b14406cd12c544b14806cd52c554b14c06cd92c564b15006cdd2c574b15406ce12c584b15806ce52c594b15c828552d074fc9c4fc9d2c5a4b160828592d084fca04fca12c5b4b1648285d2d094fca44fca52c5c4b168828612d0a4fca84fca92c5d4b16c828652d0b4fcac4fcad2c5e4b170828692d0c4fcb04fcb12c5f4b1748286d2d0d4fcb44fcb52c604b178828712d0e4fcb84fcb92c614b17c828752d0f4fcbc4fcbd2c624b180828792d104fcc04fcc12c634b1845ebd5d51d754f075475d51c23ed423ed48fb723ed923eddd51c60bd023ed9d51c62bd05ebd1d51c754ec)
  (.lf 0)) (.nd (.lf
  0x16a61b74b61c986dd2db74a16a5016a505a9616a5516a59b74a5fc9416a55b74a61c946dd29b74916a4416a445a9316a4916a49b74961c905dc91b7496dda05dc89b7476dd9816a4db7495fc906dd25b74816a3816a385a9016a3d5dc8db7486dd9c16a41b7485fc8c16a3db74861c8c6dd21b74716a2c16a2c5a8d16a3116a31b74761c8816a35b7475fc886dd1db74616a2016a205a8a16a2516a25b74661c8416a29b7465fc845dc85b7466dd946dd19b74516a1416a145a8716a1916a19b74561c805dc81b7456dd9016a1db7455fc806dd15b74416a085dc7db7446dd8c16a085a8416a0d16a0db74461c7c16a11b7445fc7c6dd11b743169fc169fc5a8116a0116a01b74361c785dc79b7436dd8816a05b7435fc786dd0db742169f0169f05a7e169f5169f9b7425fc74169f5b74261c745dc75b7426dd846dd09b741169e4169e45a7b169e95dc71b7416dd80169e9b74161c70169edb7415fc706dd05b740169d8169d85a78169dd169e1b7405fc6c169ddb74061c6c5dc6db7406dd7c6dd01b73f169cc169cc5a75169d1169d1b73f61c685dc69b73f6dd786dd797f1a61c6861c68057d3ba4c6ddb17f2861ca061ca0056b3ba846ddc57f2d61cb4)
  (.lf 0)))

def shaGateTree319 : BTree :=
  .nd (.nd (.nd (.lf
  0x3b3f60ffa4e8f483fea0ff93b3e43b3e4ecfb3b3e93b3ee0ff94d0f03993e0b604fd7482d820b5f3992c3992ce64d39931399360b5f4b4f0396720ae44cd7482b920ae33965c3965ce59939661396620ae34e5704b1720ae382c0882c09335c4e5704e5720b5f82df882df92d3c4fd70371de0498510f4812620497371cc371ccdc75371d1371d604974b4f04c8f20497812d8812d92d3c510f069cc54c3c590f069bcd643c041ac27c89ddbf03ab0776fdddbe27c7427c749f1f27c7927c79ddbe4b4f027b1ddd815f00877605dd8027b0c27b0c9ec527b1127b15dd805d0042799ddd6a2798c2798c9e652799127991dd6a5b030590f1dd6a27a6427a6400005b0325b031dd807767c7767d74015f0045d005ddbe77774777740eab4b4f04b4f20ff98406084061343c4e8f04d0f2103784158840de10363b5403b540ed523b5453b54a1036007a83b5461036518ec3b3ea0ff94e8f083fe60ff83b3d83b3d8ecf83b3dd3b3e20ff84d0ec399320b5f4fd7082d7e0b5e3992039920e64a399253992a0b5e4b4ec396660ae34cd7082b8e0ae23965039650e59639655396560ae24e56c4b16e0ae282c0482c05335b4e56c4e56e0b5e82df482df52d3b4fd6c)
  (.lf 0)) (.nd (.lf
  0x7e229f88932c2432c24cb0b32c2932c29f8894f0a832c2df8894a8284d8a9f8897e2a07e225f88832c1832c18cb0832c1d32c1df8884f0a44d8a5f8887e29c32c21f8884a8247e221f88732c0c4d89df8867e29432c0ccb0532c1132c11f8874f0a032c15f8874a8204d8a1f8877e2987e21df88632c0032c00cb0232c0532c09f8864a81c32c05f8864f09c7e219f88532bf432bf4caff32bf932bfdf8854a8184d899f8857e29032bf9f8854f0987e215f88432be832be8cafc32bed32bf1f8844a81432bedf8844f0944d895f8847e28c7e211f88332bdc32bdccaf932be132be5f8834a81032be1f8834f0904d891f8837e2887e20df88232bd032bd0caf632bd532bd9f8824a80c32bd5f8824f08c4d88df8827e2847e209f88132bc432bc4caf332bc932bcdf8814a80832bc9f8814f0884d889f8817e2807e205f88032bb832bb8caf032bbd32bbdf8804f08432bc1f8804a8044d885f8807e27c7e201f87f32bac32baccaed32bb132bb1f87f4f0804d881f87f7e27832bb5f87f4a8007e1fdf87e32ba032ba0caea32ba532ba9f87e4a7fc32ba5f87e4f07c4d87df87e7e2747e1f9f87d32b9432b94cae732b9932b9df87d4a7f832b99f87d4f078)
  (.lf 0))) (.nd (.nd (.lf
  0x209d1cda95c82c736a5cda8209bc209bc8271209c12084000007363a73639cd8d2082c2082c820d2083120831cd8d5a88467cf1624502ad058915cd8d208bc208bc00005a8865a885cda87371c7371d720a5e828209c1cda85e8285e829ce247390c73891ce2320c8020c80832220c8520c89ce236082420c85ce2362824209c5cda85c8282083400007363673634820a2082420824820a5891167ced624402acc58910820a5a8805a881cda7737187371972095e824736a1cda7209b0209b0826e209b5209b5cda75e8245e825ce23739087388dce2220c7420c74831f20c7920c7dce226082020c79ce2262820209b9cda75c8247369dcda6209a4209a4826b209a9209a9cda65e82020829cd8c2081867ce9624302ac85890dcd8c208b82081882082081d2081dcd8c5a87c208b800005a87e5a87dcda6737147371572085e8205e821ce227390473889ce2120c6820c68831c20c6d20c71ce216081c20c6dce216281c209adcda65c82073699cda5209982099882682099d2099dcda55e81c2082000007363273631cd8b2080c2080c82052081120811cd8b5a87867ce5624202ac458909cd8b208b4208b400005a87a5a879cda5737107371172075e81c)
  (.lf 0)) (.nd (.lf
  0x59a75b0d76c3d86c3d96e665d9985d999b1536c5c86c54db15213fa813fa84fec13fad13fadb1526199459a71b0d66c3d46c3d56e655d9946c35db0d613cd813cd84f3813cdd13cddb0d65d9945d995b1526c5c413fb1b1525f9946c549b15113f9c13f9c4fe913fa113fa1b1516199063a7d8e9e071a0071a01c6a071a5071a98e9e4b5f813ce1b0d65b9946c359b0d513ccc13ccc4f3513cd113cd5b0d55b990847398e9e63af463af52d7e008b43b6c52d7e4b5e45f90c04cd3d6f03d6f12d7e3d7713d6712d5e4b5f84b5f9910a644a413b30000013be213be04ef713b1c13b1c4ec913b2113b204ef759a6807fc1910b00d386442d910a07fb007fb01fee07fb5644a55e9e00d3407fb9910a57a786459d469e57a7857a784ef713c1413c14000059a6a59a69b0d46c3cc13cd1b0d55d9906c3cd6e635d98c6c355b0d413cc013cc04f3213cc513cc5b0d45d98c5d98db1506c5bc5d991b1516c5c013fa5b1515f9906c545b15013f9013f904fe613f9513f99b1505f98c13f95b1506198c6c541b14f13f8413f844fe313f8913f8db14f5f98813cc9b0d45b98c847358e9d63af063af12d7d008b0071a58e9e008b463a798e9d07194071941c6707199)
  (.lf 0)))

def shaGateTree320 : BTree :=
  .nd (.nd (.nd (.lf
  0x7b5e4020e007b87b5e0020d007b47b5dc020c007b07b5d8020b007ac7b5d4020a007a87b5d00209007a47b5cc0208007a07b5c802070079c7b5c40206007987b5c00205007947b5bc0204007907b5b802030078c7b5b40202007887b5b00201007845d7d80200007807b5340200007815d7d5ec5b7b1e87b16dec5a2e50c2e50cb9452e5112e515ec5a008f82e511ec5a007785d7d1ec5a7b1e47b169ec592e5002e500b9422e5052e509ec59008f42e505ec59007745d7cdec597b1e07b165ec582e4f42e4f4b93f2e4f92e4fdec58008f02e4f9ec58007705d7c9ec587b1dc7b161ec572e4e82e4e8b93c2e4ed2e4f1ec57008ec2e4edec570076c5d7c5ec577b1d87b15dec562e4dc2e4dcb9392e4e12e4e5ec56008e82e4e1ec56007685d7c1ec567b1d47b159ec552e4d02e4d0b9362e4d52e4d9ec55008e42e4d5ec55007645d7bdec557b1d07b155ec542e4c42e4c4b9332e4c92e4cdec54008e02e4c9ec54007605d7b9ec547b1cc7b151ec532e4b82e4b8b9302e4bd2e4c1ec53008dc2e4bdec530075c5d7b5ec537b1c87b14dec522e4ac2e4acb92d2e4b12e4b5ec52008d82e4b1ec52007585d7b1ec527b1c47b149ec512e4a02e4a0b92a2e4a5)
  (.lf
  0x6bfc56e395d8e45d8e5b04e6c1b46c139b04d137e0137e04dfa137e5137e5b04d618e0137e9b04d5f8e06c135b04c137d4137d44df7137d96c1f57e4961924619252d7d3b708137d9b04c618dc13519afd15b8e06bf45afd013504135044d431350913509afd05d8dc6bfbd6e375d8dc5d8ddb04c6c1ac6c1ad7e37618dc618dd2d8b3b6c06c1c17e3c618f0618f12d903b6d46c1f97e4a61928619292d7e3b70c3b70d2d904b62c3b7212d754b640847818eb063b3c63b3d2d90008fc6c2257e55619545f95404df3d7383d7392d903d7b93d6b92d704b6404b641911c644ec64471911b0807c0807c20210808108085911b57abc6c1b97e3a618e86c2057e4d61934619352d813b7183b7192d734b6386c21d7e536194c5f94c04dd3d7303d7312d8e3d7b163ac18eaf0726c0726c1c9d07271072718eaf008f88477d8eaf63b383d6b12d6e4b638072758eaf4b63c6c1f17e4861920619212d7c3b70463abd8eae07260618e92d8e3b6cc072601c9a07265072698eae4b6383b7052d8e4b6244b639911a644e46c2097e4e61938619392d823b71c3b71d2d744b63c6c2217e54619505f95004de3d73463b392d8f008f86c1bd7e3b618ec3d6b52d6f4b63c))
  (.nd (.lf
  0x5e779cd11734c073445cd10204f4204f4813f204f9204fdcd10607745e775cd10734bc204f9cd106277473441cd0f204e8204e8813c204ed204edcd0f6277067df94a495892452925cd5f735f820731cd5f549247357dcd5e2071c2071c81c92072167df14a475891c5291dcd5d735f020721cd5e5692020725cd5e5492067df54a485892052921cd5e735f473579cd5d2071067de54a445891052911cd5a735e467ded4a465891852919cd5c735ec2071081c62071520719cd5d5491c20715cd5d5691c73575cd5c207042070481c32070920709cd5c569182070dcd5c5491873571cd5b206f8206f881c0206fd206fdcd5b5691420701cd5b5491467de94a455891452915cd5b735e87356dcd5a206ec206ec81bd206f1206f1cd5a56910206f5cd5a5491073569cd59206e067dd94a415890452905cd57735d8206e081ba206e567de14a435890c5290dcd59735e0206e5cd595690c206e9cd595490c73565cd58206d4206d481b7206d9206d9cd5856908206ddcd585490867ddd4a425890852909cd58735dc73561cd57206c8206c881b4206cd206d1cd5754904206cdcd57569047355dcd56206bc206bc81b1206c1206c1cd56569005c655ca0272884)
  (.lf 0))) (.nd (.nd (.lf
  0x27be1dd915d04827a480000775ce775cc9e8f27a3827a389e8f59135591349e8f5b0745b075dd91776c0776c174125f0485d049ddcf777b8777b80ebc4b5344b536100a840a4840a5344d4e9344d13610488419c8412210473b60c3b60ced853b6113b6161047007ec3b6121047519303b4b6100a4e9348402a10093b4a43b4a4ed2b3b4a93b4ae10094d130399fe0b704fdb482dc20b6f399ec399ece67d399f1399f60b6f4b530397320af44cdb482bd20af33971c3971ce5c939721397220af34e5b04b1b20af382c4882c49336c4e5b04e5b20b6f82e3882e392d4c4fdb03729e04a851134812a204a73728c3728cdca5372913729604a74b5304c93204a781318813192d4c5113069d054c4c5913069c0d644c041ec27d49ddcf03af07773dddce27d3427d349f4f27d3927d39ddce4b53027bdddd915f04877645dd9027bcc27bcc9ef527bd127bd5dd905d04427a3c9e8d27a3027a309e8d59131591309e8d5b0705b071dd90776bc776bd74115f0445d045ddce777b4777b40ebb4b5304b5321009840a0840a1344c4e9304d1321047841988411e10463b6003b600ed823b6053b60a1046007e83b60610465192c3b4aa10094e9308402610083b498)
  (.lf 0)) (.nd (.lf
  0x52101bd856f69019635bd855610019639bd85541006f615bd841962419624658b1962919629bd84560fc1962dbd84540fc6f611bd83196181961865881961d19621bd83540f81961dbd83560f8520f9bd836f688520f5bd826f6846f60dbd821960c1960c65851961119615bd82540f419611bd82560f46f609bd81196001960065821960519605bd81560f0520f1bd816f68019609bd81540f06f605bd80195f4195f4657f195f9195fdbd80540ec195f9bd80560ec520edbd806f67c6f601bd7f195e8195e8657c195ed195f1bd7f540e8520e9bd7f6f678195edbd7f560e86f5fdbd7e195dc6f69d50435610c6f6d15050561406f679503a560e8560e8049f41a605610c048841a846f6c9504e5613856138049341ab041a84049f0125041ab0048a0127c4483804bf0127c54140069f4493844939126e44a3944a38069f0127c0127d982266104661054870581c0195dc6579195e16f6cd504f5613c520e5bd7e6f674195e1bd7e560e46f6755039560e4560e4049e41a5c6f69950425610856108048741a806f6c5504d5613456134049241aac41a80049e0124c41aac0489012784483404be012785413c069e4493444935126d44a3544a34069e01278)
  (.lf 0)))

def shaGateTree321 : BTree :=
  .nd (.nd (.nd (.lf
  0x553e41108481dc553e81109481e0553ec110a481e4553f0110b481e8553f4110c481ec553f8110d481f0553fc110e481f455400110f481f8554041110481fc554081111482005540c111248204554101113482085541411144820c554181115482105541c111648214554201117482185542411184821c554281119482205542c111a4822455430111b4822855434111c4822c55438111d482305543c111e4823455440111f48238481bd208f482bd481c12090482c1481c52091482c5481c92092482c9481cd2093482cd481d12094482d1481d52095482d5481d92096482d9481dd2097482dd481e12098482e1481e52099482e5481e9209a482e9481ed209b482ed481f1209c482f1481f5209d482f5481f9209e482f9481fd209f482fd4820120a0483014820520a1483054820920a2483094820d20a34830d4821120a4483114821520a5483154821920a6483194821d20a74831d4822120a8483214822520a9483254822920aa483294822d20ab4832d4823120ac483314823520ad483354823920ae48339482bc110004300482c0110104304482c4110204308482c811030430c482cc110404310482d0110504314482d4110604318482d811070431c)
  (.lf 0)) (.nd (.lf
  0xbb499b4101ee03eb980957024dc603b409773ec183ec1809373ec99024dd9b4066d7c3eb9c0958024e0603b809783ec1c3ec1c09383ec9d0bb4d9b4158524024e19b4166d8066d059b400bb380bb382ed00bb3d0bb3d9b4001edc0bb419b405852066d019b3f0bb2c0bb2c2ecd0bb310bb359b3f5851c3eb880953024cc3eb8c0954024d03eb900955024d43eb940956024d8603a409733ec08603a809743ec0c603ac09753ec10603b009763ec143ec0809333ec893ec0c09343ec8d3ec1009353ec913ec1409363ec950bb319b3f01ed8024d99b3f66d7866cfd9b3e0bb200bb202eca0bb250bb299b3e585180bb259b3e01ed4024d59b3e66d7466cf99b3d0bb140bb142ec70bb190bb199b3d01ed0024d19b3d66d700bb1d9b3d5851466cf59b3c0bb080bb082ec40bb0d0bb0d9b3c01ecc024cd9b3c66d6c0bb119b3c5851066cf19b3b0bafc0bafc2ec10bb010bb019b3b01ec87151580dd623746237409203c1583c140092c0249c3c144092d024a03c148092e024a43c14c092f024a83c1500930024ac3c1540931024b03c1580932024b43eb840952024c8603a009723ec043ec0409323ec85024c99b3b66d680bb059b3b5850c66ced9b3a0baf0)
  (.lf 0))) (.nd (.nd (.lf
  0xe56da28402e5c68a11a2830e55c0e55c39590e5610e565a28358c9c03459a28368a8868a89632702e5823d21d4d70365c7535dd4d623d0c23d0c8f4523d1123d11d4d64b09c23bb5d4995ebb475265d49823ba423ba48eeb23ba923badd4985cbb023a2c8e8923a2023a208e8958c9d58c9c8e895ac005ac01d498752dc752dd72ec5ebb05cbb1d4d6753d4753d40d964b09c4b09e097a826648266533274e49c4e49e09f682854827da09f53913439134e44f391393913e09f54b4183913a09f54fc9838e7a097a4cc9c825ea097938e6438e64e39b38e6938e6a09794e4980e561a28302e5868a0da2820e5500e55039560e5550e559a28258c9803455a28268a8468a85632602e5423d15d4d60365875359d4d523d0023d008f4223d0523d05d4d54b09823ba9d4985ebb075261d49723b9823b988ee823b9d23ba1d4975cbac23a25d47f23a1423a148e8723a1923a19d47f5abfc58c99d47f23a9823a9800005abfe5abfdd497752d8752d972eb5ebac5cbadd4d5753d0753d00d954b0984b09a0979826608266133264e4984e49a09f582850827d609f43912839128e44c3912d3913209f44b4143912e09f44fc9438e6e09794cc98825e6097838e58)
  (.lf 0)) (.nd (.lf
  0x309d9f2ad4ec784d475f2ac7cb2c309ddf2ad4a3f84d479f2ad7cb307cab5f2ac309c8309c8c274309cd309d1f2ac4a3f4309cdf2ac4ec747cab1f2ab309bc309bcc271309c1309c1f2ab4ec704d471f2ab7cb28309c5f2ab4a3f07caadf2aa309b0309b0c26e309b5309b5f2aa4ec6c7cb2528fb4ec6c4ec6d2865061b87cb2928fc4ec704ec712866061bc7cb2d28fd4ec744ec752867061c07cb3128fe4ec784ec792868061c47cb3528ff4ec7c4ec7d2869061c87cb4929044ec904ec91286e061dc7cb4d29054ec944ec95286f061e07cb5129064ec984ec992870061e4061b9286e4a1b0061bd286f4a1b4061c128704a1b8061c528514a1bc061c928524a1c06dce405dd4a1b86dcec05df4a1c04a1c1f3b77cf587cf592f704d5c06dce805de4a1bc4a1bdf3b67cf547cf552f6f4d5bc4a1b9f3b57cf507cf512f6e4d5b84bdc1f3f57d0507cfd5f3f4311a8311a8c46c311ad311adf3f4505bc7ceddf3b63104031040c4123104531049f3b64bdbc311b1f3f44a9bc4bdbdf3f47d04c7cfd1f3f33119c3119cc469311a1311a5f3f34a9b8311a1f3f3505b831045f3b64d5bc7ced9f3b53103431034c40f310393103df3b54bdb84bdb9f3f37d048)
  (.lf 0)))

def shaGateTree322 : BTree :=
  .nd (.nd (.nd (.lf
  0x2d0c1e98a5f63c2cef4b3bb2cee82cee8b3bb597295d43de5ba79764797640fb9003e42b601e5bb003e8796ede5ba2b5f02b5f0ad7e2b5f52b5f9e5ba03ee403ee5acb26b3446b34565ca047e41220dacf15372c6b3c5acf0121f8121f84880121fd121fdacf059728045e5acf06b43c6b43d4dca59728120a1acb3047e86b2cdacb2120901209048261209512099acb25972859728b3bb5b63c5b63de98a7a6a47a6a5758f5f63c5f63dea067a8947a819ea052d3802d380b4e22d3852d389ea05616382d385ea05636382d0c5e98a5d63c7a629e9892d0b02d0b0b42e2d0b52d0b5e9895f6382ceecb3d32cedc2cedcb3b92cee12cee0b3d35b6382b5f5e5ba003e4796e9e5b92b5e42b5e4ad7b2b5e92b5ede5b903ee05d439e5b979760797600fb8003e012201acf0537286b3c1acef121ec121ec487d121f1121f1acef59724045e1acef6b4386b4394dc95972412095acb2047e46b2c9acb112084120844823120891208dacb15972403ee1acb16b3406b34165c9047e059724b3d32cf8c2cf8c00005b63a5b639e9897a6a07a6a1758e5f6385f639ea057a8907a815ea042d3742d374b4df2d3792d37dea04616342d379ea04636342d0b9e9895d638)
  (.lf 0)) (.nd (.lf
  0x50e4d2c7605604804312c9450e5050e512c7705608804352c9550e5450e552c780560c804392c9650e5850e592c79056108043d2c9750e5c50e5d2c7a05614804412c9850e6050e612c7b05618804452c9950e6450e652c7c0561c804492c9a50e6850e692c7d056208044d2c9b50e6c50e6d2c7e05624804512c9c50e7050e712c7f05628804552c9d50e7450e752c800562c804592c9e50e7850e792c81056308045d2c9f50e7c50e7d2c8205634804612ca050e8050e812c8305638804652ca150e8450e852c840563c804692ca250e8850e892c85056408046d2ca350e8c50e8d2c8605644804712ca450e9050e912c8705648804752ca550e9450e952c880564c804792ca650e9850e992c89056508047d2ca750e9c50e9d2c8a05654804812ca850ea050ea12c8b05658804852ca950ea450ea52c8c0565c804892caa50ea850ea92c8d056608048d2cab50eac50ead2c8e05664804912cac50eb050eb12c8f05668804952cad50eb450eb52c900566c055fd2c834b1e0056012c844b1e4056052c854b1e8056092c864b1ec0560d2c874b1f0056112c884b1f4056152c894b1f8056192c8a4b1fc0561d2c8b4b200056212c8c4b204056252c8d4b208)
  (.lf 0))) (.nd (.nd (.lf
  0x2553c95512554125545d85e54eb025541d85e56eb052eb1d85e761f476179d85d2553025530954e2553525539d85d54eac25535d85d56eac52eadd85d761f076175d85c2552425524954b255292552dd85c54ea825529d85c56ea852ea9d85c761ec76171d85b255182551895482551d25521d85b54ea42551dd85b56ea452ea5d85b761e87616dd85a2550c2550c95452551125515d85a54ea025511d85a56ea052ea1d85a761e476169d859255002550095422550525509d85954e9c25505d85956e9c52e9dd859761e076165d858254f4254f4953f254f9254fdd85854e98254f9d85856e9852e99d858761dc76161d857254e8254e8953c254ed254f1d85754e94254edd85756e9452e95d857761d87615dd856254dc254dc9539254e1254e5d85654e90254e1d85656e9052e91d856761d476159d855254d0254d09536254d5254d9d85554e8c254d5d85556e8c52e8dd855761d076155d854254c4254c49533254c9254cdd85454e88254c9d85456e8852e89d854761cc76151d853254b8254b89530254bd254c1d85354e84254bdd85356e8452e85d853761c87614dd852254ac254ac952d254b1254b5d85254e80254b1d85256e8052e81d852761c4)
  (.lf 0)) (.nd (.lf
  0x6ecc806574a3a06ebdd6fb05dec05bec1bb166ecd46ecd4065a4a3ac6ebd56fae5deb85beb9bb146eccc6eccc06584a3a41829060a2182841828460a257f855fe1806103e0fc3e0fc05d03e17d3bbd005d00172c3e07c05f0017400174195e565810658115fe1012406590947e157f8409c0595e6012446579995e509bf409bf426ff09bf909bfd95e557f8457f8460a259f5418289bab7182781827860a01827d1827dbab759f503bbcc05cf017286590547e057f803e07805ef0173c5fe14060f3e0f83e0f805cf3e1790173d95e46580c6580d5fe00123c09bf995e5012406579595e409be809be826fc09bed09bf195e457f8057f81bab71833418334000059f5259f51bacd6ebb01845dbad55deb46eb55bad41844c1844c61151845159f6dbad46ebcc18455bad45beb018451bad45deb06eb51bad3184401844061121844518445bad35deac1833c000059f6a59f69bad36ebc818449bad35beac6eb4dbad21843418434610f1843918338000059f6659f65bad26ebc41843dbad25bea818439bad25dea86eb49bad11842818428610c1842d18431bad15bea459f61bad16ebc01842dbad15dea46eb45bad01841c1841c61091842118421bad05dea0)
  (.lf 0)))

def shaGateTree323 : BTree :=
  .nd (.nd (.nd (.lf
  0x5f0a9df0d77cb077c35df0c2853428534a14f285392853ddf0c610a428539df0c630a469ed54c645919028279de915d0a877a45de902826428264a09b2826928269de905f0a4280ec0000779e6779e5de78280d8280d8a038280dd280ddde785b0c859191de78281742817400005b0ca5b0c9de9077abc77abd74295f0a45f0a5df0c77cac77c31df0b2852828528a14c2852d28531df0b610a02852ddf0b630a02826dde905d0a477a41de8f2825828258a0982825d2825dde8f5f0a0280e00000779e2779e0a035280d0280d0a0355918d5918ca0355b0c45b0c5de8f77ab877ab974285f0a05f0a1df0b77ca877c2ddf0a2851c2851ca1492852128525df0a6109c28521df0a6309c28261de8f5d0a077a3dde8e2824c2824ca0952825128251de8e5f09c280d5de77280c4280c4a033280c9280c9de775b0c059189de77281702817000005b0c25b0c1de8e77ab477ab574275f09c5f09ddf0a77ca477c29df092851028510a1462851528519df096109828515df096309828255de8e5d09c77a39de8d2824028240a0922824528245de8d5f098280cc0000779de779ddde76280b8280b8a030280bd280bdde765b0bc59185de762816c2816c00005b0be)
  (.lf 0)) (.nd (.lf
  0x70829c2091b60c1b60c6d851b6111b611c2094a704707a970865e2181b615c209024c05c219c209708a070825c2081b6001b6006d821b6051b609c208024bc707a570855e2145c215c2087089c1b605c2084a70070821c2071b5f41b5f46d7f1b5f91b5f9c2074a6fc707a170845e2105c211c207708981b5fdc207024b87081dc2061b5e81b5e86d7c1b5ed1b5f1c206024b47079d70835e20c5c20dc206708941b5edc2064a6f870819c2051b5dc1b5dc6d791b5e11b5e1c2054a6f47079970825e2085c209c205708901b5e5c205024b070815c2041b5d01b5d06d761b5d51b5d9c204024ac7079570815e2045c205c2047088c1b5d5c2044a6f070811c2031b5c41b5c46d731b5c91b5c9c2034a6ec6668148bb582ec1b2fc0000706c6706c46cbc1b2ec1b2ec6cbc582ed6658960bb01ca8582ec6cbc5a28c5a28dc1c5707907079170805e2001b465c1c55c2001b5cdc203024a85c201c203708887080dc2021b5b81b5b86d701b5bd1b5c1c202024a41b461c1c55e20070715c1c41b4501b4506d161b4556658560ba01ca41b2f06cba1b2e46667d48ba582e81b2e46cba582e9582e86cba5a2885a289c1c47078c7078d707f5e1fc1b459c1c45c1fc)
  (.lf 0))) (.nd (.nd (.lf
  0x5c9a5d0da743e422064881b220692206dd0da0344c22069d0da4ae9074369d0d9220582205888182205d22061d0d9034482205dd0d94ae8c7426dd09a21ee421ee487bb21ee921ee9d09a5e99c21eedd09a5c99c74269d09921ed821ed887b821edd21ee1d0995c99821eddd0995e99874265d09821ecc21ecc87b521ed121ed5d0985c9945c995d0d6743d45c9a1d0d9743e074365d0d82204c2204c88152205122055d0d8034445c99dd0d8743dc22051d0d84ae8874361d0d7220402204088122204522049d0d70344022045d0d74ae845c999d0d7743d87435dd0d62203422034880f2203922039d0d64ae802203dd0d60343c74359d0d52202822028880c2202d2202dd0d54ae7c21ed1d0985e99474261d09721ec021ec087b221ec521ec9d0975c9905c991d0d5743d022031d0d50343874355d0d42201c3c6c40c8d032200db2da0c952a7c4233c0a8d02a08462f00aad02a34549f80acd463f0463f1191c464f1464f00acd02a3402a35a0c86839c6839d4a9e58a783f6700cad032346090c0ccd3f6f03f6f00c8d3f7710d9c1a08b02c386822da08a0d9b00d9b0366e0d9b50d9b9a08a58a7803235a08a682a468325a0c80db180db1836c80db1d)
  (.lf 0)) (.nd (.lf
  0x14ed938464e8c64e8d5f4c00fec57d3057b359d0415ecc57c815ebc15ebc57b115ec108e6d938400fec64e11938308e5c08e5c239908e6108e65938357d2c6d6117ef061bc06d5e57ee561b946d5ad7ed761b5c61b5c053a3b94061b9405283b9783b978053a014d43dba4055a014e85fbc0057a3dc243dc24053a3dca56c92c053a49f2c014e9938364e8864e895f4b00fe864f81474b57d2c57d2c57c815f6415ec4000015f2215ec057c859d0015f2057ae15eb415eb457ae57d2908e61938300fe864e0d938208e5008e50239608e5508e59938257d2864f7d474a57d2857d2857ae59cfc15eb857ac15eac145e5b22b49f286c8adb22a145d4145d45177145d9145ddb22a014e06d5dd7ee361b8c08e55938200fe45ba39b22a6c9246c924053849f2464e09938108e4408e44239308e4908e49938100fe061b8c05263b97061bd405383b9b83b9700538014cc3db9c0558014e05fbb805783dc1c3dc1c05383dc9d014e1938164e8008e4d938157d2464e05938008e3808e38239008e3d6d5d57ee161b84145d9b22a49f246c8a9b229145c8145c85174145cd145cdb22949f206d5d97ee261b8861b8805253b96c61bd005373b9b43b96c0537014c8)
  (.lf 0)))

def shaGateTree324 : BTree :=
  .nd (.nd (.nd (.lf
  0x6373810113d51c7aeb185cf6373c6373c10123d5207aeb585d0637406374010133d5247aeb985d1637446374410143d5287aebd85d2637486374810153d52c7aec185d36374c6374c10163d5307aec585d4637506375010173d5347aec985d5637546375410183d5383d4bc100b040183d4c0100c0401c3d4c4100d040203d4c8100e040243d4cc100f040283d4d010100402c3d4d41011040303d4d81012040343d4dc1013040383d4e010140403c3d4e41015040403d4e81016040443d4ec1017040483d4f010180404c3d4f41019040503d4f8101a040543d4fc101b040583d500101c0405c3d504101d040603d508101e040643d50c101f040683d51010000406c3d5141001040703d5181002040743d51c1003040783d52010040407c3d5241005040003d5281006040043d52c1007040083d53010080400c3d5341009040103d538100a040144123c10200400041240102104004412441022040084124810230400c4124c10240401041250102504014412541026040184125810270401c4125c1028040204126010290402441264102a0402841268102b0402c4126c102c0403041270102d0403441274102e0403841278102f0403c4127c103004040)
  (.lf 0)) (.nd (.lf
  0x72c81cb1f1f69c1f69c7da91f6a11f6a1cb1f626706267009ff3c45472d3181aa626a8626a809ed3c48c72d4581af626bc626bc09f23c4a03c48c09ff027e83c4a009e4027fc527c1ca7e72a74729f9ca7d1f208527bdca7d72a701f2087c841f20d1f20dca7d567bc1f211ca7d547bc729f5ca7c1f1fc1f1fc7c811f2011f205ca7c547b8527b9ca7c72a6c1f201ca7c567b8729f1ca7b1f1f01f1f07c7e1f1f51f1f9ca7b547b41f1f5ca7b567b4527b5ca7b72a68729edca7a1f1e41f1e47c7b1f1e91f1edca7a547b01f1e9ca7a567b0527b1ca7a72a64729e9ca791f1d81f1d87c781f1dd1f1e1ca79547ac527adca7972a601f1ddca79567ac729e5ca781f1cc1f1cc7c751f1d11f1d5ca78547a8527a9ca7872a5c1f1d1ca78567a8729e1ca771f1c01f1c07c721f1c51f1c9ca77547a41f1c5ca77567a4527a1ca7672a54527a5ca7772a58729ddca761f1b41f1b47c6f1f1b91f1b9ca76567a01f1bdca76547a0729d9ca751f1a81f1a87c6c1f1ad1f1adca755679c1f1b1ca755479c5279dca7572a50729d5ca741f19c1f19c7c691f1a11f1a1ca74567981f1a5ca745479852795ca7372a4852799ca7472a4c729d1ca731f1901f1907c661f195)
  (.lf 0))) (.nd (.nd (.lf
  0x37dda5e86981c0f9183e480f91d0f921a5e8590200f91da5e8031dc697a1a5e70f90c0f90c3e450f9110f911a5e7031d80f915a5e75901c037d9a5e7698186979da5e60f9000f9003e420f9050f905a5e6031d40f909a5e659018037d5a5e66981469799a5e50f8f4037d1a5e5698100f8f43e3f0f8f90f8f9a5e5031d00f8fda5e55901469795a5e40f8e80f8e83e3c0f8ed0f8eda5e4031cc0f8f1a5e459010037cda5e46980c69791a5e30f8dc0f8dc3e390f8e10f8e1a5e3031c80f8e5a5e35900c037c9a5e3698086978da5e20f8d00f8d03e360f8d50f8d9a5e2590080f8d5a5e2031c4037c5a5e26980469789a5e10f8c40f8c43e330f8c90f8c9a5e1031c0037a9a5db697e8037c1a5e1698000f8cda5e15900469785a5e00f8b80f8b83e300f8bd0f8c1a5e0590000378da5d4697cc037b9a5df697f80f8bda5e0031bc037bda5e0697fc69781a5df0f8ac0f8ac3e2d0f8b10f8b5a5df58ffc0f8b1a5df031b86977da5de0f8a00f8a03e2a0f8a50f8a5a5de031b4037b5a5de697f40f8a9a5de58ff869779a5dd0f8940f8943e270f8990f89da5dd58ff40f899a5dd031b0037b1a5dd697f069775a5dc0f8880f8883e240f88d0f88da5dc031ac)
  (.lf 0)) (.nd (.lf
  0x5df0dbc3f6f1786f0fdbc3e18dc818dc8637418dcd18dcdbc3e61f0818dd1bc3e5ff085df09bc3e6f1746f0f9bc3d18dbc5df05bc3d6f17018dbc637118dc118dc1bc3d61f0418dc5bc3d5ff046f0f5bc3c18db018db0636e18db518db9bc3c5ff005df01bc3c6f16c18db5bc3c61f006f0f1bc3b18da418da4636b18da918da9bc3b61efc5defdbc3b6f16818dadbc3b5fefc5def9bc3a6f1646f0edbc3a18d9818d98636818d9d18da1bc3a5fef818d9dbc3a61ef86f0e9bc3918d8c18d8c636518d9118d95bc395fef465d1d482e580b85dee9bc366f1545def5bc396f16018d91bc3961ef46f0e5bc3818d8018d80636218d8518d85bc3861ef018d89bc385fef06f1557fba61ee85def1bc386f15c6f0e1bc3718d7418d74635f18d7918d79bc3761eec18d7dbc375feec5deedbc376f1586f0ddbc3618d6818d68635c18d6d18d6dbc3661ee861ee8061d3bccc6f18d7fc861f2061f20060b3bd046f1a17fcd61f3461f3406103bd183bd04061d018603bd180602018743e2b0063d018746f1b97fd361f4c5ff4c065d3e3303e330061d3e3b10187596ea65c246f1597fbb61eec61eec061e3bcd06f15d7fbc61ef061ef0061f3bcd46f1917fc961f24)
  (.lf 0)))

def shaGateTree325 : BTree :=
  .nd (.nd (.nd (.lf
  0x5f231e20a788a478829e20929ae429ae4a6bb29ae929aede2096122c29ae9e2096322c29829e18e5d23078639e18d2981429814a6072981929819e18d5f22c29685e1722967429674a59f2967929679e1725b244109f1a8cf043d86a33da8ce109e0109e0427a109e5109e9a8ce5931803ad5a8ce6a3b46a3b564c6043d459319e1722970c2970c00005b2465b245e18d786b0786b1748b5f22c5f22de209788a078825e20829ad829ad8a6b829add29ae1e2086122829adde208632282981de18d5d22c78635e18c2980829808a6042980d2980de18c5f2282967c0000785ca785c9e1712966829668a59c2966d2966de1715b240109e5a8ce043d46a339a8cd109d4109d44277109d9109dda8cd5931459315e171297082970800005b2425b241e18c786ac786ad748a5f2285f229e2087889c78821e20729acc29acca6b529ad129ad5e2076122429ad1e2076322429811e18c5d22878631e18b297fc297fca6012980129801e18b5f224296700000785c6785c5e1702965c2965ca5992966129661e1705b23c109d9a8cd043d06a335a8cc109c8109c84274109cd109d1a8cc5931003acda8cc6a3ac6a3ad64c4043cc59311e170297042970400005b23e)
  (.lf 0)) (.nd (.lf
  0x23c99a436698866989610301dc80b56d9a4401dcc669119a430b55c0b55c2d590b5610b5659a435840c66a8149035840c5840c70545a39c1c15070771c1401c14070521c1451c14470775a3983c05408f1023b00b5619a4301dc86690d9a420b5500b5502d560b5550b5599a42584083e9800911023c46029c09313ea003ea0008f13ea81023c59a426698466985610201dc466a7d4902584085840870771c2101c14800001c1de1c1dc70761c1341c134704f1c1391c13870765a3943c05008f0023ac0b5559a4201dc4669099a410b5440b5442d530b5490b54d9a41584043e97c0910023c06029809303e9fc3e9fc08f03ea7d023c19a416698066981610101dc05840470761c20c1c13c00001c1da1c1d870751c1281c128704c1c12d1c12c70755a3903c04c08ef023a80b5499a4101dc0669059a400b5380b5382d500b53d0b5419a40584003e978090f023bc60294092f3e9f83e9f808ef3ea7966a75490058400023bd9a406697c6697d610001dbc5840070751c2081c13000001c1d61c1d470491c1201c1207049583fd60290092e3e9f43e9f408ee3ea753c04808ee023a43e974090e023b8023b99a3f669786697960ff01db80b53d9a4001dbc)
  (.lf 0))) (.nd (.nd (.lf
  0x5cac5d2d274bc474bc40d5b4afb04afb2080b820a8820a932ec4e3b04e3b20887822988221e08863890038900e242389053890a08864b32c3890608864fbac38646080b4cbb08202e080a3863038630e18e3863538636080a4e3ac686b962eb02d68687b14aeb58bac22f91d2d20356c74b49d2d122f7c22f7c8be122f8122f81d2d14afac22e25d2945eac474a51d29322e1422e148b8722e1922e1dd2935cac022c18000022c8222c808b1f22c0422c048b0322c0922c088b1f5ab1c58bac8b1f22cd422cd400005ab1e5ab1dd29374ac874ac972b05eac05cac1d2d174bc074bc00d5a4afac4afae080a820a4820a532eb4e3ac4e3ae0886822948221a0885388f4388f4e23f388f9388fe08854b328388fa08854fba83863a080a4cbac8202a08093862438624e18b386293862a08094e3a8687ad4aea58ba8686b562ea02d6422f85d2d10356874b45d2d022f7022f708bde22f7522f75d2d04afa822e19d2935eac074a4dd29222e0822e088b8422e0d22e11d2925cabc22c0c000022c7e22c7c8b1e22bf822bf88b0022bfd22bfc8b1e5ab1858ba88b1e22cd022cd000005ab1a5ab19d29274ac474ac572af5eabc5cabdd2d074bbc74bbc0d594afa8)
  (.lf 0)) (.nd (.lf
  0x7bedd29af502bc502bd29814a5d87bee129b0502c0502c129824a5dc4d1f5ef0a7bca44d23def1c7bcec4d241ef1d7bcf07bc75ef1c2f5882f588bd642f58d2f591ef1c4a1bc2f58def1c4ea3c7bc71ef1b2f57c2f57cbd612f5812f581ef1b4ea382f585ef1b4a1b84d239ef1b7bce87bc6def1a2f5702f570bd5e2f5752f579ef1a4a1b44d235ef1a7bce42f575ef1a4ea347bc69ef192f5642f564bd5b2f5692f569ef194ea302f56def194a1b04d231ef197bce07bc65ef182f5582f558bd582f55d4d22def187bcdc2f55def184ea2c2f561ef184a1ac7bc61ef172f54c2f54cbd552f5512f551ef174ea282f555ef174a1a84d229ef177bcd87bc5def162f5402f540bd522f5452f545ef164ea242f549ef164a1a44d225ef167bcd47bc59ef152f5342f534bd4f2f5392f53def154a1a02f539ef154ea204d221ef157bcd07bc55ef142f5282f528bd4c2f52d2f531ef144a19c2f52def144ea1c4d21def147bccc7bc51ef132f51c2f51cbd492f5212f525ef134a1982f521ef134ea184d219ef137bcc87bc4def122f5102f510bd462f5152f519ef124a1944d215ef127bcc42f515ef124ea147bc49ef112f5042f504bd432f5092f509ef114ea10)
  (.lf 0)))

def shaGateTree326 : BTree :=
  .nd (.nd (.nd (.lf
  0x2baade6715f46c2b93c00007997a79978ae4c2b92c2b92cae4c595595d26de2b378b4878b480f45002142a00de2b40021878ad1e2b329ffc29ffca8012a0012a005e2b303d1403d15ab2a6ad246ad25655604614118adab695355c6ada5ab68118981189846281189d1189dab685955804415ab686ae1c6ae1d4d565955811741ab2b046186acadab2a117301173045ce1173511739ab2a5955859558ae4c5b4745b475e67179a4079a41751b5f46c5f46de6ed79c3079bb5e6ec2bd6c2bd6caf5d2bd712bd75e6ec614682bd71e6ec634682bab1e6715d46c799c5e6702ba9c2ba9caea92baa12baa1e6705f4682b931e65d2b9202b920ae4a2b9252b925e65d5b4702a001e2b30021478acde2b229ff029ff0a7fe29ff529ff9e2b203d105d269e2b278b4478b440f4400210118a1ab68535586ada1ab671188c1188c46251189111891ab675955404411ab676ae186ae194d555955411735ab2a046146aca9ab29117241172445cb117291172dab295955403d11ab296ad206ad2165550461059555e65d2ba382ba3800005b4725b471e67079a3c79a3d751a5f4685f469e6ec79c2c79bb1e6eb2bd602bd60af5a2bd652bd69e6eb614642bd65e6eb63464)
  (.lf 0)) (.nd (.lf
  0x1d529c6735657c719cdc6721d5181d51875481d51d1d521c672545781d51dc6725657852579c67271a44719c9c6711d50c1d50c75451d5111d515c6715457452575c67171a401d511c67156574719c5c6701d5001d50075421d5051d505c6705657052571c67071a3c1d509c67054570719c1c66f1d4f41d4f4753f1d4f91d4f9c66f5656c1d4fdc66f5456c52565c66d71a3052569c66e71a345256dc66f71a38719bdc66e1d4e81d4e8753c1d4ed1d4f1c66e545681d4edc66e56568719b9c66d1d4dc1d4dc75391d4e11d4e1c66d565641d4e5c66d54564719b5c66c1d4d01d4d075361d4d51d4d5c66c565601d4d9c66c5456052561c66c71a2c719b1c66b1d4c41d4c475331d4c91d4cdc66b5455c1d4c9c66b5655c5255dc66b71a28719adc66a1d4b81d4b875301d4bd1d4bdc66a565581d4c1c66a5455852559c66a71a24719a9c6691d4ac1d4ac752d1d4b11d4b1c6695655452555c66971a201d4b5c66954554719a5c6681d4a01d4a0752a1d4a51d4a5c6685655071a7d516c565b05e4d5c74a71da471d29c7491db641db6476db1db691db69c749624d01db6dc749604d05e4d1c74971da071d25c7481db581db5876d81db5d1db61c748604cc)
  (.lf 0))) (.nd (.nd (.lf
  0x58d95d688248782487800005acf25acf1d6a575b1075b11732a5eca85eca9d72175d0075c85d72024c4424c44931324c4924c4dd72060ca424c49d72062ca424989d6a55cca875a95d6a42497424974925f2497924979d6a45eca4247e4000075a2275a21d687247d0247d091f6247d5247d5d6875acec58d91d687248742487400005acee5acedd6a475b0c75b0d73295eca45eca5d72075cfc75c81d71f24c3824c38931024c3d24c41d71f60ca024c3dd71f62ca02497dd6a45cca475a91d6a32496824968925c2496d2496dd6a35eca0247d8000075a1e75a1c91f3247c8247c891f358d8d58d8c91f35ace85ace9d6a375b0875b0973285eca05eca1d71f75cf875c7dd71e24c2c24c2c930d24c3124c35d71e60c9c24c31d71e62c9c24971d6a35cca075a8dd6a22495c2495c92592496124961d6a25ec9c247cc91f1247c0247c091f158d8958d8891f15ace45ace5d6a275b0475b0573275ec9c5ec9dd71e75cf475c79d71d24c2024c20930a24c2524c29d71d60c9824c25d71d62c9824965d6a25cc9c75a89d6a1249502495092562495524955d6a15ec98247c5d686247b4247b491ef247b9247b9d6865ace058d85d686248702487000005ace2)
  (.lf 0)) (.nd (.lf
  0x311ddf4184ed544d555f4187d0dc7d061f417311cc311ccc475311d1311d5f4174a4d04d54df4167d0d44d551f4177d0d8311d1f4174ed507d05df416311c0311c0c472311c5311c9f4164a4cc311c5f4164ed4c7d059f415311b4311b4c46f311b9311b9f4154ed484d54529314ed44311bdf4154a4c84d549f4157d0d07d05529314ed454ed45289b062407d0d129324ed484ed49289c062447d0d529334ed4c4ed4d289d062487d0d929344ed504ed51289e0624c7d0dd29354ed544ed55289f062507d0e129364ed584ed5928a0062544ed5d28a1062587d0e929384ed604ed6128a20625c7d0ed29394ed644ed6528a3062607d0f1293a4ed684ed6928a4062647d0f5293b4ed6c4ed6d28a5062687d0f9293c4ed704ed7128a60626c7d0fd293d4ed744ed7528a7062707d101293e4ed784ed7928a8062747d105293f4ed7c4ed7d28a9062787d10929404ed804ed8128aa0627c7d10d29414ed844ed8528ab062807d11129424ed884ed8928ac062847d11529434ed8c4ed8d28ad062887d11929444ed904ed9128ae0628c7d11d29454ed944ed9528af062907d12129464ed984ed9928b0062940624128a44a2880624528a54a28c0624928a64a290)
  (.lf 0)))

def shaGateTree327 : BTree :=
  .nd (.nd (.nd (.lf
  0x4cebe0ca88331c832a20ca73a10c3a10ce8453a1113a1160ca7005743a1120ca7516b839fb60c6a4e6bc831aa0c6939fa439fa4e7eb39fa939fae0c694ceb84b2ba0c69832208322133ae4e6b84ceba0ca7833188329e0ca63a1003a100e8423a1053a10a0ca6005703a1060ca6516b439faa0c694e6b8831a60c6839f9839f98e7e839f9d39fa20c684ceb44b2b60c688321c8321d33ad4e6b44ceb60ca6833148329a0ca53a0f43a0f4e83f3a0f93a0fe0ca50056c3a0fa0ca5516b039f9e0c684e6b4831a20c6739f8c39f8ce7e539f9139f960c674ceb04b2b20c67832188321933ac4e6b04ceb20ca583310832960ca43a0e83a0e8e83c3a0ed3a0f20ca4005683a0ee0ca4516ac39f920c674e6b08319e0c6639f8039f80e7e239f8539f8a0c664ceac4b2ae0c66832148321533ab4e6ac4ceae0ca48330c832920ca33a0dc3a0dce8393a0e13a0e60ca3005643a0e20ca3516a839f860c664e6ac8319a0c6539f7439f74e7df39f7939f7e0c654cea84b2aa0c65832108321133aa4e6a84ceaa0ca3833088328e0ca23a0d03a0d0e8363a0d53a0da0ca2005603a0d60ca2516a439f7a0c654e6a8831960c6439f6839f68e7dc39f6d39f720c644cea4)
  (.lf 0)) (.nd (.lf
  0x1a7d5bff6023981a7d1bff64a5dc6ffd9bff51a7c01a7c069f21a7c51a7c5bff54a5d81a7c9bff5023941a669bfb85e0f06fee1bfb71a6581a65869981a65d1a661bfb75c0ec5a181bfb76ff581a65dbfb75e0ec6feddbfb61a64c1a64c69951a6511a651bfb65e0e85a17dbfb66ff541a655bfb65c0e86fed9bfb51a6401a64069921a6451a649bfb55c0e45a179bfb56ff506ff5170395e0e45c0e5bff3700481a645bfb55e0e46fed5bfb41a6341a5f000005a1765a175bfb46ff4c6ff4d70385e0e01a634698f1a6391a63dbfb45c0e05c0e1bff2700447004408e24a5cc33529fa294d9e07e8a5fa28335187005408e64a5dc4a5ddfa287e91c6ff55703a5e0e833518cd483351d3351dfa284d9dc33521fa284c1dc7e8a1fa273350c3350ccd453351133515fa274c1d86ff59703b5e0ec5c0edbff5700507005008e54a5d84a5d9fa277e91833511fa274d9d87e89dfa263350033500cd423350533509fa264c1d433505fa264d9d46ffd5bff41a7b45c0e9bff47004c1a7b469ef1a7b97004c08e44a5d41a7b9bff44a5d44a5d5fa267e9147e899fa25334f4334f4cd3f334f91a7bdbff4023906ffd1bff31a7a81a7a869ec1a7ad7004808e34a5d0)
  (.lf 0))) (.nd (.nd (.lf
  0x80c1131fc4dff04dff2036180e0080d86036036ab836ab8dab036abd36ac203604af6c36abe03604f7ec367fe02e54c7f080b9602e4367e8367e8d9fc367ed367ee02e44dfec4abee02e480c0c80c0d31fb4dfec4dfee036080dfc80d82035f36aac36aacdaad36ab136ab6035f4af6836ab2035f4f7e8367f202e44c7ec80b9202e3367dc367dcd9f9367e1367e202e34dfe84abea02e380c0880c0931fa4dfe84dfea035f80df880d7e035e36aa036aa0daaa36aa536aaa035e4af6436aa6035e4f7e4367e602e34c7e880b8e02e2367d0367d0d9f6367d5367d602e24dfe44abe602e280c0480c0531f94dfe44dfe6035e80df480d7a035d36a9436a94daa736a9936a9e035d4af6036a9a035d4f7e0367da02e24c7e480b8a02e1367c4367c4d9f3367c9367ca02e14dfe04abe202e180c0080c0131f84dfe04dfe2035d80df080d76035c36a8836a88daa436a8d36a92035c4af5c36a8e035c4f7dc367ce02e14c7e080b8602e0367b8367b8d9f0367bd367be02e04dfdc4abde02e080bfc80bfd31f74dfdc4dfde035c80dec80d72035b36a7c36a7cdaa136a8136a86035b4af5836a82035b4f7d8367c202e04c7dc80b8202df367ac367acd9ed367b1)
  (.lf 0)) (.nd (.lf
  0x53af0034b436e8436e90dda437e9437e8034b00c2c414b4030b00c0000c2d923e649746497546dc57b70435d4032600c18435e0032900c24435e4032a00c28437e4034a00c2800c29923d649706497146db57b6c6487d5edc00e2c086b5923f51b74648fd923e086a0086a021aa086a5086a5923e57b70086a9923e51b70648f9923d086940869421a70869908699923d57b6c0869d923d51b6c648f5923c0868853ae80349436e00868821a40868d0868d923c57b6808691923c51b68436e10dd8437e1437e0034900c2400c25923c6496c648f1923b0867c0867c21a108681648715ed900e2008681923b57b646496946d957b64648795edb00e281493c524d1493014930524d57b7157b70524d59b5014934524b1492814928524b57b6d57b6c524b59b4c1492db2cd1491c1491c5249149211492400006cb36648755eda00e246496d46da57b6857b69b2cd149ec14921b2cd59b486cb3452461491414914524657b6557b64524659b4408685923b51b64648ed923a0867008670219e0867508675923a57b6008679923a51b60648e992390866408664219b0866908669923957b5c437d4034600c1800c199239649606486d5ed800e1c648695ed700e18)
  (.lf 0)))

def shaGateTree328 : BTree :=
  .nd (.nd (.nd (.lf
  0x4903610bf539204903210bf59914047de10bf84378842fe10be4902049021240a490254902a10be5391c4902610be59910047da10be84374842fa10bd49014490152407490194901e10bd539184901a10bd5990c047d610bd84370842f610bc490084900924044900d4901210bc539144900e10bc59908047d210bc8436c842f210bb48ffc48ffd2401490014900610bb539104900210bb59904047ce10bb84368842ee10ba48ff048ff123fe48ff548ffa10ba5390c48ff610ba59900047ca10ba84364842ea10b948fe448fe523fb48fe948fee10b95390848fea10b9598fc047c610b984360842e610b848fd848fd923f848fdd48fe210b85390448fde10b8598f8047c210b88435c842e210b748fcc48fcd23f548fd148fd610b75390048fd210b7598f4047be10b784358842de10b648fc048fc123f248fc548fca10b6538fc48fc610b6598f0047ba10b684354842da10b548fb448fb523ef48fb948fbe10b5538f848fba10b5598ec047b610b584350842d610b448fa848fa923ec48fad48fb210b4538f448fae10b4598e8047b210b48434c842d210b348f9c48f9d23e948fa148fa610b3538f048fa210b3598e4047ae10b384348842ce10b248f90)
  (.lf
  0x3b6892daf4b6a86be297e2e618b86bddd7e1b6186c6186d2daf3b6503d6352daf3d6b5618b92da23b69c3b69d2d944b6bc63c312daf0097807db1909f00cf84b6bd909f642f86427d909e07da007da01f6a07da507da9909e57a3863c292dad0097063c2d2dae0097407da5909e00cf46be257e2d618b4618b52da13b6983b6992d934b6b86bdd97e1a618686be117e28618a0618a12d9c3b684618692dae3b64c6be3d7e33618cc5f8cd2d6e3d6303d6312dae3d6b13b6852dae4b6a44b6b9909e642f464279909d07d9407d941f6707d9959941aeda6bbe4643e9468d57a346be217e2c618b0618b12da03b6946be397e32618c85f8c92d6d3d62c3d62d2dad3d6ad12da5aedb5b8686bb6daeda12d906bbe56e195d86412d904b6612d9512d95aeda5d8645d865af566bdd46bdd57e196186413065af5661864618652dad3b6483b6952d924b6b46189d2d9b3b6803b6812dad4b6a04b6b5909d642f0642f15e8d00cf007d9d909d57a3457a344d28134f8643f1468f57a3c642f95e8f00cf8134a84d1513450134504d1557a3d57a3c4d1559a2c134544d2913444134444d1313449134484d2959a28643ed468e57a38642f55e8e00cf457a384d29134fc))
  (.nd (.lf
  0x54810085345e0845e0917a245f0945f0808530204c0d0359edf5289467b7d9ede0d0200d020340a0d0250d0259ede588900204d9ede67bf467bf54a24588900cec99ea102a5067a859ea00ceb80ceb833b00cebd0cec19ea058890588908064201c42010c000020192201908040200fc200fc80405888d5a831ccac7332c732b1ccab203382033880d02033d201d000005a81e5a81dcca77331820341ccab5c7d05a82dccab733282033dccab5e7d0732adccaa2032c2032c80cd2033120331ccaa5e7cc201d800005a82a5a829ccaa7332420335ccaa5c7cc732a9cca9203202032080ca2032520329cca95c7c8201d400005a82220325cca95e7c85a825cca973320732a5cca8203142031480c7203192031dcca85c7c420319cca85e7c45a821cca87331c732a1cca7203082030880c42030d2030dcca75e7c020311cca75c7c07329dcca6202fc202fc80c12030120305cca65c7bc0cebd9ea002a4c67a819e9f0ceac0ceac33ad0ceb10ceb59e9f5888c4215008120201c45d040832020485480c085245e0445e0517a145f0545f04085202048020499edd67bf067bf14a235888c0d0299ede5289067b799edd0d0140d01434070d0190d0199edd5888c)
  (.lf 0))) (.nd (.nd (.lf
  0x429ac0c0903078429b00c0a0307c429b40c0b03000429b80c0c03004474e00c290302454fe80c49475e0475e11d98476e1476e00c490302403025a69469acc474e40c2a03028474e80c2b0302c474ec0c2c03030474f00c2d03034474f40c2e03038474f80c2f0303c474fc0c3003040475000c3103044475040c3203048475080c330304c4750c0c3403050475100c3503054475140c3603058475180c370305c4751c0c3803060475200c3903064475240c3a03068475280c3b0306c4752c0c3c03070475300c3d03074475340c3e03078475380c3f0307c54fec0c4a475e454ff00c4b475e854ff40c4c475ec54ff80c4d475f054ffc0c4e475f4550000c4f475f8550040c50475fc550080c51476005500c0c5247604550100c5347608550140c544760c550180c55476105501c0c5647614550200c5747618550240c584761c550280c59476205502c0c5a47624550300c5b47628550340c5c4762c550380c5d476305503c0c5e47634550400c5f47638475e51d99476e5475e91d9a476e9475ed1d9b476ed475f11d9c476f1475f51d9d476f5475f91d9e476f9475fd1d9f476fd476011da047701476051da147705476091da2477094760d1da34770d)
  (.lf 0)) (.nd (.lf
  0x65d9997650a4f40a4f4293f0a4f96f2b95030560c018f39bc7c5407452069bc796f26018f35bc7c5607452075bc7c6f26c6f1f1bc7b18f2418f2463cb18f2918f29bc7b5607052071bc7b6f26818f2dbc7b540706f1edbc7a18f1818f1863c818f1d18f21bc7a5406c18f1dbc7a5606c5206dbc7a6f2646f1e9bc7918f0c18f0c63c518f1118f11bc79560686f261501a5606856068047f419e06f28550235608c5608c046841a046f2b1502e560b8560b8047341a3041a04047f011d041a30046a011fc446b8049f011fc540c004bf447b8447b9120e448b9448b804bf011fc011fd97a665f1465e1d605001afc65f1548505814058140660a5a0f81982865ff197f8197f865ff5813d52065bc786f25c18f15bc79540685a0f9bdd36f7c86f74dbdd2199b46f2b5502f560bc65e19604f01af86f2815022560886f1e5bc7818f0018f0063c218f0518f05bc78560646f25d50195606456064047e419dc56088046741a006f2ad502d560b4560b4047241a2c41a00047e011cc41a2c0469011f8446b4049e011f8540bc04be447b4447b5120d448b5448b404be011f8011f997a565f1065f11484f5813c65e9997a50a6740a674299f0a6790a67997a55813c)
  (.lf 0)))

def shaGateTree329 : BTree :=
  .nd (.nd (.nd (.lf
  0x632740ee03d05878c4d849e63278632780ee13d05c78c51849f6327c6327c0ee23d06078c5584a063280632800ee33d06478c5984a163284632840ee43d06878c5d84a263288632880ee53d06c78c6184a36328c6328c0ee63d07078c6584a463290632900ee73d07478c6984a563294632940ee83d07878c6d84a663298632980ee93d07c78c7184a76329c6329c0eea3d08078c7584a8632a0632a00eeb3d08478c7984a9632a4632a40eec3d08878c7d84aa632a8632a80eed3d08c78c8184ab632ac632ac0eee3d09078c8584ac632b0632b00eef3d09478c8984ad632b4632b40ef03d09878c8d84ae632b8632b80ef13d09c78c9184af632bc632bc0ef23d0a078c9584b0632c0632c00ef33d0a478c9984b1632c4632c40ef43d0a878c9d84b2632c8632c80ef53d0ac78ca184b3632cc632cc0ef63d0b078ca584b4632d0632d00ef73d0b478ca984b5632d4632d40ef83d0b83d03c0eeb03b983d0400eec03b9c3d0440eed03ba03d0480eee03ba43d04c0eef03ba83d0500ef003bac3d0540ef103bb03d0580ef203bb43d05c0ef303bb83d0600ef403bbc3d0640ef503bc03d0680ef603bc43d06c0ef703bc83d0700ef803bcc3d0740ef903bd0)
  (.lf 0)) (.nd (.lf
  0x41d6c071901c3841d98070401c6445120073901c64544280759452204522114a84532145320075901c6401c659b0466c8c70e4150f5563d4563d4071a41d4c70e6550fe563f8563f8070341d7056424070e41d9c41d70071a01c3c41d9c070501c6845124073a01c685442c075a452244522514a94532545324075a01c6801c699b0566c9070e4550f6563d8563d8071b41d5070e6950ff563fc563fc070441d7456428070f41da041d74071b01c4041da0070601c6c45128073b01c6c54430075b452284522914aa4532945328075b01c6c01c6d9b0666c9466c199b050b9f40b9f42e7f0b9f90b9f99b05584ac0b9fd9b05524ac66c159b040b9e80b9e82e7c0b9ed0b9f19b04524a870e3550f2563c8563c8071741d4070e3950f3563cc563cc071841d4470e5950fb563ec563ec070041d6470e5d50fc563f0563f0070141d6870e8551065641856418070b41d9070e8951075641c5641c070c41d9441d64071701c3041d68071801c3441d90070201c5c41d94070301c604511c073801c605442407584521c4521d14a74531d4531c075801c6001c619b0366c880b9ed9b04584a866c119b030b9dc0b9dc2e790b9e10b9e59b03524a40b9e19b03584a4)
  (.lf 0))) (.nd (.nd (.lf
  0x2362c8d8d2363123631d3d24b024234d5d3955eb3c74e55d394234c4234c48d33234c9234cdd3945cb38233508cd223344233448cd258c2558c248cd25ab885ab89d39474ecc74ecd72ce5eb385cb39d3d274fc474fc40d784b0244b02608c2823848238533094e4244e426093e82574824fa093d38d1438d14e34738d1938d1e093d4b3a038d1a093d4fc2038a5a08c24cc248230a08c138a4438a44e29338a4938a4a08c14e4206889d630802ddc68825a2080e2980e29838a80e29d0e2a1a20858c2023635d3d2035e074f49d3d123620236208d8a2362523625d3d14b020234c9d3945eb3874e51d393234b8234b88d30234bd234c1d3935cb34233488cd02333c2333c8cd058c2158c208cd05ab845ab85d39374ec874ec972cd5eb345cb35d3d174fc074fc00d774b0204b02208c1823808238133084e4204e422093d82570824f6093c38d0838d08e34438d0d38d12093c4b39c38d0e093c4fc1c38a4e08c14cc208230608c038a3838a38e29038a3d38a3e08c04e41c033d9a207688980e29da20802ddc68821a2070e28c0e28c38a50e2910e295a20758c1c68899630702dd823629d3d1035dc74f45d3d023614236148d872361923619d3d04b01c)
  (.lf 0)) (.nd (.lf
  0x15261b4180158c1525db41849fd05bae5b4186d0dc6d061b4171524c1524c54951525115251b41749fcc5bae1b4176d0d8060c527f349fc4060c927f449fc86d0d8056249fcc49fcdf16c7c62c30259f16d4d3d06d0dc056349fd049fd1f16d7c6303025df16d4bbd07c5b5f16c3024830248c0943024d303c1f1ab503d07c6312ef44d3d04bbd1f1ab7c7287c6adf1aa303b0303b0c0ee303b5303b9f1aa4a7cc30251f16c4bbcc7c62d2ef34d3cc4bbcdf1aa7c724303b5f1aa503cc7c6a9f1a9303a415255b417015886d05db416152401524054921524515245b41649fc85baddb4166d0d43024df16c4d3cc7c5b1f16b3023c3023cc0913024130245f16b4bbc86d0d4056149fc849fc9f16b7c6287c6292ef24d3c8303a4c0eb303a94bbc9f1a97c720303adf1a94a7c8303a9f1a9503c87c6a529f1503c515249b416015846d058056049fc55bad8056049fc449fc52ef14d3c430241f16b4d3c87c5ad2ef14d3c54bbc529f1503c4503c529d404c787c72129f2503c8503c929d504c7c7c72529f3503cc503cd29d604c807c72929f4503d0503d129d704c847c72d29f5503d4503d529d804c887c73129f6503d8503d929d904c8c7c73529f7503dc)
  (.lf 0)))

def shaGateTree330 : BTree :=
  .nd (.nd (.nd (.lf
  0x2bf25e730555ec2bf21e730575ec535ede73079d3c79cc1e72f2bf102bf10afc62bf152bf19e72f555e82bf15e72f575e8535e9e72f79d3879cbde72e2bf042bf04afc32bf092bf0de72e555e42bf09e72e575e4535e5e72e79d3479cb9e72d2bef82bef8afc02befd2bf01e72d555e02befde72d575e0535e1e72d79d3079cb5e72c2beec2beecafbd2bef12bef5e72c555dc2bef1e72c575dc535dde72c79d2c79cb1e72b2bee02bee0afba2bee52bee9e72b555d82bee5e72b575d8535d9e72b79d2879cade72a2bed42bed4afb72bed92bedde72a555d42bed9e72a575d4535d5e72a79d2479ca9e7292bec82bec8afb42becd2bed1e729555d02becde729575d0535d1e72979d2079ca5e7282bebc2bebcafb12bec12bec5e728555cc2bec1e728575cc535cde72879d1c79ca1e7272beb02beb0afae2beb52beb9e727555c82beb5e727575c8535c9e72779d18535c55571575c479c9d5571575c5575c4115642f3c79d195572575c8575c8115742f4079d1d5573575cc575cc115842f4479d215574575d0575d0115942f4879d255575575d4575d4115a42f4c79d295576575d8575d8115b42f5079d2d5577575dc575dc115c42f5479d315578575e0)
  (.lf 0)) (.nd (.lf
  0x720a5c8281e1441e14478531e1491e149c828624ec1e14dc828604ec5e4edc8287211c720a1c8271e1381e13878501e13d1e141c827604e81e13dc827624e85e4e9c827721187209dc8261e12c1e12c784d1e1315e4e5c826721141e131c826624e41e135c826604e472099c8251e1201e120784a1e1251e129c825604e0721458145625147213d81436250c5e4e1c825721101e125c825624e072095c8241e1141e11478471e1195e4ddc8247210c1e11dc824604dc1e119c824624dc720918136624d95e4d98136624d8624d809993c2bc7210d8137624dc624dc099a3c2c0721118138624e0624e0099b3c2c4721158139624e4624e4099c3c2c872119813a624e8624e8099d3c2cc7211d813b624ec624ec099e3c2d072121813c624f0624f0099f3c2d472125813d624f4624f409803c2d872129813e624f8624f809813c2dc7212d813f624fc624fc09823c2e0721318140625006250009833c2e4721358141625046250409843c2e8721398142625086250809853c2ec6250c09863c2f0721418144625106251009873c2f46251409883c2f8721498146625186251809893c2fc7214d81476251c6251c098a3c3007215181486252062520098b3c304)
  (.lf 0))) (.nd (.nd (.lf
  0x5ccddd7c875f9c75f9c0de14b1c84b1ca0b9382ec882ec933724e5c84e5ca0c0f830b839a260b934cdc80ecd5a3e202f8468f89637102f8103581637102f800ee41a42052dc8690814b7158dc52513dd7c80378424fd1d78a5ecdc58dc573365ecd875e2973365ecd95ccd80de04b1c475f200de04b1c54b1c533714e5c482e4d33714e5c54e5c400004fdc48303c00004fdc54fdc52cbb06d98830b800014fdc84fdc92cbc06d9c830bc00024fdcc4fdcd2cbd06da0830c000034fdd04fdd12cbe06da4830c400044fdd44fdd52cbf06da8830c800054fdd84fdd92cc006dac830cc00064fddc4fddd2cc106db0830d000074fde04fde12cc206db4830d400084fde44fde52cc306db8830d800094fde84fde92cc406dbc830dc000a4fdec4fded2cc506dc0830e0000b4fdf04fdf12cc606dc4830e4000c4fdf44fdf52cc706dc8830e8000d4fdf84fdf92cc806dcc830ec000e4fdfc4fdfd2cc906dd0830f0000f4fe004fe012cca06dd4830f400104fe044fe052ccb06dd8830f800114fe084fe092ccc06ddc830fc00124fe0c4fe0d2ccd06de08310000134fe104fe112cce06de48310400144fe144fe152ccf06de88310800154fe184fe192cd006dec)
  (.lf 0)) (.nd (.lf
  0x17d305f4e17d3517d35b9ca5de2817c38000059ee659ee5b9ca6e7a417d39b9ca5be286e729b9c917d2417d245f4b17d2917d2db9c95be2417d29b9c95de2417c34000059ee259ee1b9c96e7a06e725b9c817d1817d185f4817d1d17d1db9c85de2017d21b9c85be2017c30000059ede59eddb9c86e79c6e721b9c717d0c17d0c5f4517d1159ed9b9c76e79817d11b9c75de1c17d15b9c75be1c6e71db9c617d0017d005f4217d0517d09b9c65be1817d05b9c65de1859ecdb9c46e78c59ed5b9c66e7946e719b9c517cf417cf45f3f17cf917cf9b9c55de1459ed1b9c56e79017cfdb9c55be146e715b9c417ce817ce85f3c17ced17cf1b9c45be1017cedb9c45de106e711b9c317cdc17cdc5f3917ce117ce1b9c35de0c17ce5b9c35be0c59ec9b9c36e7886e70db9c217cd017cd05f3617cd517cd5b9c25de0817cd9b9c25be0859ec5b9c26e7846e709b9c117cc417c2c000059ec259ec1b9c16e78017cc45f3317cc917ccdb9c15be0417cc9b9c15de046e705b9c017cb817cb85f3017cbd17cbdb9c05de0017c28000059ebe59ebdb9c06e77c17cc1b9c05be006e701b9bf17cac17cac5f2d17cb117cb5b9bf5bdfc59eb9b9bf6e77817cb1b9bf5ddfc)
  (.lf 0)))

def shaGateTree331 : BTree :=
  .nd (.nd (.nd (.lf
  0x83dbd342d4e8b44d0b60f8e83eb483e3a0f8d3b1d43b1d4ec773b1d93b1de0f8d0076c3b1da0f8d518b03b07e0f504e8b483d420f4f3b06c3b06cec1d3b0713b0760f4f4d0b027649dcc803a7077321dcc727634276349d8f2763927639dcc74b4b05cfc5dcc777398773980e9b4b4b04b4b20f4f83db883db9342c4e8b04d0b20f8d83eb083e360f8c3b1c83b1c8ec743b1cd3b1d20f8c007683b1ce0f8c518ac3b0720f4f4e8b083d3e0f4e3b0603b060ec1a3b0653b06a0f4e4d0ac2763ddcc703a6c7731ddcc627628276289d8c2762d2762ddcc64b4ac5cfc1dcc677394773940e9a4b4ac4b4ae0f4e83db483db5342b4e8ac4d0ae0f8c83eac83e320f8b3b1bc3b1bcec713b1c13b1c60f8b007643b1c20f8b518a83b0660f4e4e8ac83d3a0f4d3b0543b054ec173b0593b05e0f4d4d0a827631dcc603a6877319dcc52761c2761c9d892762127621dcc54b4a85cfbddcc577390773900e994b4a84b4aa0f4d83db083db1342a4e8a84d0aa0f8b83ea883e2e0f8a3b1b03b1b0ec6e3b1b53b1ba0f8a007603b1b60f8a518a43b05a0f4d4e8a883d360f4c3b0483b048ec143b04d3b0520f4c4d0a427625dcc503a6477315dcc427610276109d8627615)
  (.lf 0)) (.nd (.lf
  0x1a0d98fe664740ada598fe582500220d98c06637c6637d609401c0c664754894582501abd1687b1abc81abc9687b5825158251687b5a1f00653d29934a6440654129944a6480654529954a64c0654929964a6500654d29974a6540655129984a6580655529994a65c7e8692a484f1a04f1a1299b4a6647e8712a4a4f1a84f1a9299d4a66c7e8752a4b4f1ac4f1ad299e4a6707e8792a4c4f1b04f1b1299f4a6747e87d2a4d4f1b44f1b529a04a67870488090f4a6804a681faeb7ec28339c5faeb4c2807ebadfaea339b070484090e4a67c4a67dfaea7ec24339b0ce6e339b5339b9faea4c27c339b5faea4da7c7eba9fae9339a4339a4ce6b339a9339a9fae94da78339adfae94c2787047c090c4a6744a675fae87ec1c70480090d4a6784a679fae97ec207eba5fae83399833998ce683399d3399dfae84da74339a1fae84c2747eba1fae73398c3398cce653399133995fae74c27033991fae74da7070478090b4a6704a671fae77ec187eb9dfae63398033980ce623398533989fae64c26c33985fae64da6c70474090a4a66c4a66dfae67ec147eb99fae53397433974ce5f3397933979fae54da683397dfae54c2687eb95fae4339681aed1c0fd02424)
  (.lf 0))) (.nd (.nd (.lf
  0x6803da00e0d6e00d6e035ba0d6e50d6e9a00e589f8029b5a00e680b421614000073e2a73e29cf89216002160085822160521605cf895a968680b5627e02bb40d85da04d529fc68135a04c0d8480d84836140d84d0d84da04c589f8589f9cf89216c0216c000005a96a5a969cf9e73ef473e79cf9d217644616c0a8c021b0549740aac4626c4626d18bb4636d4636c0aac021b02176485db217690d6e5a00e02bb468039a00d0d6d40d6d435b70d6d90d6dda00d589f4029b1a00d680b021608000073e2673e24857f215f8215f8857f589f5021b1a04b681a8681a94a7d589f4680b1627d02bb00d851a04c529f868131a04b0d83c0d83c36110d8410d841a04b589f4589f4857f5a9645a965cf9d73ef02176dcf9d5c90821769cf9d5e90873e75cf9c217582175885d82175d3f5640c8a029a83f5680c8b029ac608800caa3f5e4608840cab3f5e83f5e40a6a3f6653f5e80a6b3f66942334086b02180461680a8b021ac549700aab462684626918ba46369463680aab021ac021ada04a681a4681a54a7c589f0461640a8a021a85496c0aaa462644626518b946365463640aaa021a80d6d9a00d02bb068035a00c0d6c80d6c835b40d6cd0d6d1a00c589f0)
  (.lf 0)) (.nd (.lf
  0x6cf79b3dd15114151145447151191511db3dd5baf015119b3dd5daf059bb5b3dd6cff06cf75b3dc151081510854441510d15111b3dc5baec1510db3dc5daec6cf71b3db150fc150fc54411510115105b3db5bae8150b0000059bae59badb3db6cfe815101b3db5dae86cf6db3da150f0150f0543e150f56cff96ebe5daf86cff56ebd5daf45daf9b45b6d1e815401b45b61af86d16db45a153f0153f054fe153f5153f5b45a61af4153f9b45a5faf45daf5b45a6d1e46d169b459153e45fa6405233d9c83d9c804e33da496c0bc04e349dd03d94805030138c0138d927464a4c64a4d5ef400e8c087b9927500e90649d59274087a8087a821ec087ad087b1927457bd014fb166e957bd157bd166e959ba859ba9b3da6cfe4150f5b3da5dae46cfed6ebb5daec6cfe56eb95dae46cfe96eba5dae85dae9b4576d1d85daedb4586d1dc153e454fb153e9153edb4595faf0153e9b45961af06cff16ebc5daf05daf1b4596d1e06d165b458153d8153d854f8153dd153ddb45861aec153e1b4585faec6d161b457153cc153cc54f5153d1153d5b4575fae8153d1b45761ae86d15db456153c0153c054f2153c55dae5b4566d1d4153c5b45661ae46d1d57eb961ae4)
  (.lf 0)))

def shaGateTree332 : BTree :=
  .nd (.nd (.nd (.lf
  0x6b5e94dd959764122a5ad1e00ba46b479ad1d122941229448a7122991229dad1d5976403f21ad1d6b4f06b4f165d900ba059765ea6d2d67c2d67c00005b67a5b67a112c8452c844b2112b4923c4923d24914924149246112b5d67449242112b5f6742d58400007a9b67a9b5ea6c2d5702d570b55e2d5752d575ea6c5b6742bc39e6b20042079ac9e6b12bc282bc28af0c2bc2d2bc31e6b103f1c5d475e6b179b4079b400fc70041c12405ad5b537646b56dad5a123f0123f048fe123f5123f5ad5a597600461dad5a6b5e46b5e54dd85976012299ad1d00ba06b475ad1c122881228848a41228d12291ad1c5976003f1dad1c6b4ec6b4ed65d800b9c59761ea6c2d6782d67800005b6765b676112b84528844ae112a4923049231248e492354923a112a5d67049236112a5f6702d57800007a9b27a9b0b55b2d5682d568b55b5975d5d471e6b079b3c79b3c0fc6004182bc2de6b10041c79ac5e6b02bc1c2bc1caf092bc212bc25e6b003f1803f19ad1b6b4e86b4e965d700b98123f9ad5a537606b569ad59123e4123e448fb123e9123e9ad595975c04619ad596b5e06b5e14dd75975c1228dad1c00b9c6b471ad1b1227c1227c48a11228112285ad1b5975c)
  (.lf 0)) (.nd (.lf
  0x6260409c43c3e8729318182626086260809c53c3ec7293581836260c6260c09c63c3f0729398184626106261009c73c3f47293d8185626146261409c83c3f8729418186626186261809c93c3fc7294581876261c6261c09ca3c400729498188626206262009cb3c4047294d8189626246262409cc3c40872951818a626286262809cd3c40c72955818b6262c6262c09ce3c41072959818c626306263009cf3c4147295d818d626346263409d03c41872961818e626386263809d13c41c72965818f6263c6263c09d23c420729698190626406264009d33c4247296d8191626446264409d43c428729718192626486264809d53c42c7297581936264c6264c09d63c430729798194626506265009d73c4347297d8195626546265409d83c4383c3bc09cb027183c3c009cc0271c3c3c409cd027203c3c809ce027243c3cc09cf027283c3d009d00272c3c3d409d1027303c3d809d2027343c3dc09d3027383c3e009d40273c3c3e409d5027403c3e809d6027443c3ec09d7027483c3f009d80274c3c3f409d9027503c3f809da027543c3fc09db027583c40009dc0275c3c40409dd027603c40809de027643c40c09df027683c41009c00276c3c41409c102770)
  (.lf 0))) (.nd (.nd (.lf
  0x52f1dd95e765f476579d95d25bd825bd896f825bdd25be1d95d54f1825bddd95d56f1852f19d95d765f076575d95c25bcc25bcc96f525bd125bd5d95c54f1425bd1d95c56f1452f15d95c765ec76571d95b25bc025bc096f225bc525bc9d95b54f1025bc5d95b56f1052f11d95b765e87656dd95a25bb425bb496ef25bb925bbdd95a54f0c25bb9d95a56f0c52f0dd95a765e476569d95925ba825ba896ec25bad25bb1d95954f0825badd95956f0852f09d959765e076565d95825b9c25b9c96e925ba125ba5d95854f0425ba1d95856f0452f05d958765dc76561d95725b9025b9096e625b9525b99d95754f0025b95d95756f0052f01d957765d87655dd95625b8425b8496e325b8925b8dd95654efc25b89d95656efc52efdd956765d476559d95525b7825b7896e025b7d25b81d95554ef825b7dd95556ef852ef9d955765d076555d95425b6c25b6c96dd25b7125b75d95454ef425b71d95456ef452ef5d954765cc76551d95325b6025b6096da25b6525b69d95354ef025b65d95356ef052ef1d953765c87654dd95225b5425b5496d725b5925b5dd95254eec25b59d95256eec52eedd952765c476549d95125b4825b4896d425b4d25b51d95154ee8)
  (.lf 0)) (.nd (.lf
  0x65a39600f012f865a35600e012f465a3d6010012fc58040628e5a00818a386280189fc189fc62805803d5803c62805a00465a31600d012f018a00628d189f0189f0627e189f5189f8000018a3658038628d18a70189f4628d5a00018a34627b189e8189e8627b5803558034627b59ffc189ec6279189e065a2d600c012ec189e062795803158030627959ff8189e4628c189d4189d46277189d9189d8628c59ff465b21480b5802c65a29600b012e85802c628c18a6c189dc000018a3218a30628b189c8189c86274189cd189d0000018a2e65a25600a012e465b1d480a5802858028628b18a68189cc628b59ff018a2c628a189bc189bc6271189c1189c4000018a2a55fbc043441934418d80434010a44438c0454010d053f9404744448c4448d11434458d4458c0474010d0010d196a365b0865b0948055801409eed9664012cc55f9004294190855fc0043541938418dc0435010a8419080420010d4443900455010d453f9804754449044491114444591445900475010d4010d596a465b0c0a07196a45201865a9196a30a05c0a05c28190a0610a06196a3580143e1840612017c85fea006323e2043e20405f23e285017c9966365a0865a096003012c8)
  (.lf 0)))

def shaGateTree333 : BTree :=
  .nd (.nd (.nd (.lf
  0x531d1df3a77d6477ce9df39285d0285d0a176285d5285d9df39551cc285d5df39571cc531cddf3977d6077ce5df38285c4285c4a173285c9285cddf38551c8285c9df38571c8531c9df3877d5c531c55471571c477ce15471571c5571c4105642b3c77d5d5472571c8571c8105742b4077d615473571cc571cc105842b4477d655474571d0571d0105942b4877d695475571d4571d4105a42b4c77d6d5476571d8571d8105b42b5077d715477571dc571dc105c42b5477d755478571e0571e0105d42b5877d795479571e4571e4105e42b5c77d7d547a571e8571e8105f42b6077d81547b571ec571ec104042b6477d85547c571f0571f0104142b6877d89547d571f4571f4104242b6c77d8d547e571f8571f8104342b7077d91547f571fc571fc104442b7477d9554805720057200104542b7877d9954815720457204104642b7c77d9d54825720857208104742b8077da154835720c5720c104842b8477da554845721057210104942b8877da954855721457214104a42b8c77dad54865721857218104b42b9077db154875721c5721c104c42b9477db554885722057220104d42b9877db954895722457224104e42b9c77dbd548a5722857228104f42ba0)
  (.lf 0)) (.nd (.lf
  0x1bb1800005a34a5a349c2cc70bac70b31c2cb1bc3c1bc3c6f111bc411bc45c2cb5c2b81bc41c2cb5e2b81bb1400005a3465a345c2cb70ba870b2dc2ca1bc301bc306f0e1bc351bc39c2ca5c2b45a341c2ca70ba41bc35c2ca5e2b470b29c2c91bc241bc246f0b1bc291bc2dc2c95c2b01bc29c2c95e2b01bb1000005a33e5a33dc2c970ba070b25c2c81bc181bc186f081bc1d6686948d9583640b22599be01d24666f999bd0b2140b2142c870b2190b21d99bd583640232199bd667706677160d901d20583646eaf1baf81b9d800001babe1babc6eae1b9c41b9c46e731b9c91b9cc00001baba6686548d8583606686148d75835c0b21999bd01d20666f599bc0b2080b2082c840b20d0b21199bc583600b20d99bc01d1c0231d99bc6676c666f199bb0b1fc0b1fc2c810b2010b20599bb5835c0231999bb667686676d60d801d1c6676960d701d18583606eae1baf41b9c86eae5a3001bab86e701b9bc1b9bc6e705835d5835c6e705a2fc1b9c06ead1b9b01b9b06e6e1b9b50b34c2cd50b35144dcc06e401b10542d4070444ecc44ecd13d344fcd44fcc070401b100b35599f7523540b35199f75835401b1199f766858667dd99f60b3400b3402cd20b345)
  (.lf 0))) (.nd (.nd (.lf
  0x81dc932ce4e3384e33a07cf81fb881f3e07ce384e0384e0e13a384e5384ea07ce4b2b4384e607ce4fb34226b1d19e5ea4c74679d19d226a0226a089aa226a5224d88934224cc224cc893458b35684d162cd02cf058b3489345aaa45aaa5d19d746f0226a9d19d5ca48746f172925ea485ca49d1db747e8747e80d3c4af343822607534cb3881d4e07523821038210e086382153821607524e3342281dd1dc034f474771d1db22808228088a042280d2280dd1db4af344af36075281dc481dc532cd4e3344e33607ce81fb481f3a07cd384d4384d4e137384d9384de07cd4b2b0384da07cd4fb30226a5d19d5ea4874675d19c226942269489a7226992269dd19c5ca44224d08932224c4224c4893258b31685c54acc58b30684cd62cc02cec58b3089325aaa05aaa1d19c746ec3821a07524cb3481d4a07513820438204e083382093820a07514e330746ed72915ea4422811d1db034f07476dd1da227fc227fc8a012280122801d1da4af305ca45d1da747e4747e40d3b4af304af32075181dc081dc132cc4e3304e33207cd81fb081f3607cc384c8384c8e134384cd384d207cc4b2ac384ce07cc4fb2c22699d19c5ea4474671d19b226882268889a42268d)
  (.lf 0)) (.nd (.lf
  0x14ba852ec14bad3dc500565015145fbec05853dcd03dcd005453dd5114bb1b318015140151593ea65024650255f56010146511d475657d586ccec054949f680919d942857d580907193ef0102864fbd93ee0906009060241a090650906993ee57d680906593ee010243dc600569015245fbfc05893dce03dce005493dd610152593ee6503464fb993ed09054090542417090590905d93ed57d640905993ed010203dc5c0568015205fbf805883dcdc3dcdc05483dd5d0152193ed6503064fb593ec090480904824140904d0905193ec57d600904d93ec0101c3dc5805670151c5fbf405873dcd83dcd805473dd596cce4054749f600151d93ec6502c64fb193eb0903c0903c2411090410904593eb57d5c0904193eb010183dc540566015185fbf005863dcd43dcd405463dd550151993eb6502864fad93ea0903009030240e090350903993ea57d5857d5859931669816698000059d2e65129475957d646512d475a57d681657c00001666216578599859d401666059971656816568595c1656d1656c599759d3c650355f5a0102457d685997166a81657000001665e1665c59961655c1655c59591656116560599659d38650315f590102057d645996166a4)
  (.lf 0)))

def shaGateTree334 : BTree :=
  .nd (.nd (.nd (.lf
  0x29964a65b299692996de1c903ccc03ccdaabc6ab6c6ab6d6544045cc11685aafb535146abedaafa1167011670459e1167511675aafa59510043cdaafa6ac646ac654d445951011519aabd045d06aaf5aabc115081150845441150d11511aabc5951059510aca75b42c5b42de576796547965575095f4245f425e5f279844797c9e5f12b7042b704adc32b7092b70de5f1614202b709e5f1634202b449e5765d424795d9e5752b4342b434ad0f2b4392b439e5755f4202b29cacc82b28c2b28caca52b2912b290acc85b42829969e1c9001cc78725e1c82995829958a6582995d29961e1c803cc85d221e1c87879c7879c0f32001c811679aafa535106abe9aaf91166411664459b1166911669aaf95950c043c9aaf96ac606ac614d435950c1150daabc045cc6aaf1aabb114fc114fc45411150111505aabb5950c03cc9aabb6ab686ab696543045c85950cacc82b3542b35400005b42a5b429e575796507965175085f4205f421e5f179840797c5e5f02b6f82b6f8adc02b6fd2b701e5f06141c2b6fde5f06341c2b43de5755d420795d5e5742b4282b428ad0c2b42d2b42de5745f41c2b29400002b3222b320acc72b2802b280aca22b2852b284acc75b424)
  (.lf 0)) (.nd (.lf
  0xbe2c2f8d0be310be359bbf585ac0be319bbf01f68025699bbf66f7866efd9bbe0be200be202f8a0be250be299bbe585a80be259bbe01f64025659bbe66f7466ef99bbd0be140be142f870be190be1d9bbd585a40be199bbd01f60025619bbd66f7066ef59bbc0be080be082f840be0d0be119bbc585a00be0d9bbc01f5c0255d9bbc66f6c66ef19bbb0bdfc0bdfc2f810be010be059bbb5859c0be019bbb01f58025599bbb66f6866eed9bba0bdf00bdf02f7e0bdf50bdf99bba585980bdf59bba01f54025559bba66f6466ee99bb90bde40bde42f7b0bde90bded9bb9585940bde99bb901f50025519bb966f6066ee59bb80bdd80bdd82f780bddd0bde19bb8585907193580fd623f4623f409403c1d83c1d80952025343ec840972025486042009923ed043ed0409523ed85025499bb766f580bddd9bb801f4c7193980fe623f8623f809413c1dc6244009533c2243c1dc0953025383ec8809730254c6042409933ed083ed0809533ed890254d9bb866f5c66ee19bb70bdcc0bdcc2f750bdd10bdd59bb75858c0bdd19bb701f4866edd9bb60bdc00bdc02f720bdc50bdc59bb601f443c1c8094e025243c1cc094f025283c1d009500252c3c1d4095102530)
  (.lf 0))) (.nd (.nd (.lf
  0x2440c91052441124411d5dd4b124242b5d5a05ec3c75681d59f242a4242a490ab242a9242add59f5cc382412890482411c2411c904858d2558d2490485ac845ac85d59f756f8756f9730e5ec385cc39d5dd757f0757f00db84b1244b1260a36829548295533494e5244e5260ab282b4482aca0ab13958439584e563395893958e0ab14b4a03958a0ab14fd20392ca0a364cd24828da0a35392b4392b4e4af392b9392ba0a354e52068c7d634802edc24415d5dd036e075775d5dc244002440091022440524405d5dc4b120242a9d59f5ec387567dd59e242982429890a82429d242a1d59e5cc342412090462411424114904658d2158d2090465ac805ac81d59e756f4756f5730d5ec345cc35d5dc757ec757ec0db74b1204b1220a35829508295133484e5204e5220ab182b4082ac60ab03957839578e5603957d395820ab04b49c3957e0ab04fd1c392be0a354cd20828d60a34392a8392a8e4ac392ad392ae0a344e51c68c79634702ed824409d5dc036dc75771d5db243f4243f490ff243f9243f9d5db4b11c2429dd59e5ec3475679d59d2428c2428c90a52429124295d59d5cc302411890442410c2410c904458d1d58d1c90445ac7c5ac7dd59d756f0)
  (.lf 0)) (.nd (.lf
  0x7d2bdf4ae315e030e09f3664a4747cd99f36530df430df4c37f30df930dfdf3654a4704d4f1f3657ce1030df9f3654ecf07cd95f36430de830de8c37c30ded30df1f3644a46c30dedf3644ecec4d4edf3647ce0c7cd91f36330ddc4d4e9f3637ce0830ddcc37930de130de5f3634a46830de1f3634ece87cd8df36230dd030dd0c37630dd530dd9f3624a46430dd5f3624ece44d4e5f3627ce047cd89f36130dc430dc4c37330dc94d4ddf3607cdfc4d4e1f3617ce0030dcdf3614a46030dc9f3614ece07cd85f36030db830db8c37030dbd30dbdf3604ecdc4d4d1f35d7cdf030dc1f3604a45c7cd81f35f30dac30dacc36d30db130db1f35f4ecd830db5f35f4a4584d4d9f35f7cdf87cd7df35e30da030da0c36a30da530da5f35e4ecd430da9f35e4a4544d4d5f35e7cdf47cd79f35d30d9430d94c36730d9930d99f35d4ecd030d9df35d4a4507cd75f35c30d8830d88c36430d8d30d91f35c4a44c4d4cdf35c7cdec30d8df35c4eccc7cd71f35b30d7c30d7cc36130d817ce0d291b4ecec4eced2885062107ce11291c4ecf04ecf12886062147ce19291e4ecf84ecf928880621c7ce3129244ed104ed11288e062347ce3529254ed144ed15288f06238)
  (.lf 0)))

def shaGateTree335 : BTree :=
  .nd (.nd (.nd (.lf
  0x595c001f0005005960000000054059640001000580596800020005c0596c00030006005970000400064059740005000680597800060006c0597c000700070059800008000740598400090007805988000a0007c0598c000b0000005990000c0000405994000d0000805998000e0000c818f0003d5123851238000f00010818f4003e5123c5123c001000014818f8003f51240512400011000184cac206d981be081b6606d837f5837f58dfd837f5d37f6206d80017837f5e06d8512bc4cabe06d881bdc81b6206d737f4c37f4cdfd537f5137f5606d70017437f5206d7512b84caba06d781bd881b5e06d637f4037f40dfd237f4537f4a06d60017037f4606d6512b44cab606d681bd481b5a06d537f3437f34dfcf37f3937f3e06d50016c37f3a06d5512b04cab206d581bd081b5606d437f2837f28dfcc37f2d37f3206d40016837f2e06d4512ac4caae06d481bcc81b5206d337f1c37f1cdfc937f2137f2606d30016437f2206d3512a84caaa06d381bc881b4e06d237f1037f10dfc637f1537f1a06d20016037f1606d2512a44caa606d281bc481b4a06d137f0437f04dfc337f0937f0e06d10015c37f0a06d1512a04caa206d181bc081b4606d037ef8)
  (.lf 0)) (.nd (.lf
  0x5814570165e0585c05808c04a5441a0a1beeb023046fbac08c04a5454a54530514d94433211f9a750948330a9f9694d9487e5a530514d9454c1452b51509447e69d2b5150945509452b34051747e7192b5250948509492b35051787e71d2b535094c5094d2b360517c7e7212b5450950509512b37051807e7252b5550954509552b38051847e7292b5650958509592b39051887e72d2b575095c5095d2b3a0518c7e7312b5850960509612b3b051907e7352b5950964509652b3c051947e7392b5a50968509692b3d051987e73d2b5b5096c5096d2b3e0519c7e7412b5c50970509712b3f051a07e7452b5d50974509752b40051a47e7492b5e50978509792b41051a87e74d2b5f5097c5097d2b42051ac7e7512b6050980509812b43051b07e7552b6150984509852b44051b47e7592b6250988509892b45051b87e75d2b635098c5098d2b46051bc7e7612b6450990509912b47051c07e7652b6550994509952b48051c47e7692b6650998509992b49051c87e76d2b675099c5099d2b4a051cc7e7712b68509a0509a12b4b051d07e7752b69509a4509a52b4c051d47e7792b6a509a8509a92b4d051d87e77d2b6b509ac509ad2b4e051dc7e7812b6c509b0)
  (.lf 0))) (.nd (.nd (.lf
  0x589a083d45a91020f5083d220f4420f4483d25899d67fe14a675899c67ee9626702b585899c83d25a90c20f4883ed20f3820f3883d020f3d20f40000020fb620f3c83ed5a90867ee5626602b5467fdd4a66589985899883ed20fe820fb483cd20f3020f3083cd5899567fd94a655899467ee1626502b505899483cd5a90420f3483ec20f2420f2483cb20f2920f2c000020fb220f2883ec5a90067edd626402b4c67fd54a64589905899083ec20fe420fb083c820f1c20f1c83c85898d67fd14a635898c67ed9626302b485898c83c85a8fc20f2083c620f1420f1483c65898967fcd4a625898867ed5626202b445898883c65a8f820f1883eb20f0820f0883c420f0d20f0c83eb5a8f467ed1626102b4067fc94a61589845898483eb20fe020f10000020fae20fac83c120f0020f0083c15898167fc54a605898067ecd626002b3c5898083c15a8f020f0483bf20ef820ef883bf5897d67fc14a5f5897c67ec9625f02b385897c83bf5a8ec20efc83ea20eec20eec83bd20ef120ef4000020faa20ef083ea5a8e867ec5625e02b3467fbd4a5e589785897883ea20fdc20fa883ba20ee420ee483ba5897567fb94a5d5897467ec1625d02b305897483ba5a8e4)
  (.lf 0)) (.nd (.lf
  0x63d498f5107584075841d630758953a70032b43568083e191c357af463dd92ddd00a30083e591c351af453a74032c4356c4356d0d7b4366d414392ddd4b7484346c030c4b7744366c032c4b7744b77591c3647886470d91c2083d0083d020f6083d5083d991c251af043468030b4b770435690d7a4366963dd52ddc00a2c43668032b4b7704b77191c264784083d591c257af06470991c1083c4083c420f3083c9647c946cd57b3457b35b1d314350647d546d057b40646dd5ed000dfc57b41b1d414354647d146cf57b3c6c75050c0142fc142fc50c057b3d646d95ecf00df857b3c50c059b281430050be142f4142f450be57b39647cd46ce57b38646d55ece00df457b3850be59b24142f9b1d3142e8142e850bc142ed142edb1d359b20142f000006c74e6c74c50b9142e008271918457af03d76804cb4b5705f98404eb3d7e83d7e92d5c3d869639f52d5c0082c3b73d2d5c4b55c4b57191846468c6468d5ebc00dac6478546bc57af057af1b1c814324646a15ec100dc06479946c157b04646a55ec200dc4646cd5ecc00dec647c546cc57b30142e050b957b3157b3050b959b1c142e450b7142d86479d46c257b0857b09b1cd14338646b15ec500dd0)
  (.lf 0)))

def shaGateTree336 : BTree :=
  .nd (.nd (.nd (.lf
  0x2ed21eda8618502ed1deda8638507b4b5ed2c2ea482ea48ba942ea4d2ea4ded2c5f8507b409ed012e8e02e8e0ba3a2e8e52e8e5ed015b85059931ed017b4387b43800005b8525b851ed2c7b52c7b52d76145f8505f851eda87b71c7b6a1eda72ed0c2ed0cbb452ed112ed15eda76184c2ed11eda76384c2ea51ed2c5d8507b4b1ed2b2ea3c2ea3cba912ea412ea41ed2b5f84c2e8e800007b4067b404ba372e8d82e8d8ba375992d5992cba375b84c5b84ded2b7b5287b52976135f84c5f84deda77b7187b69deda62ed002ed00bb422ed052ed09eda6618482ed05eda6638482ea45ed2b5d84c7b4aded2a2ea302ea30ba8e2ea352ea35ed2a5f8482e8dcba352e8d02e8d0ba355992959928ba355b8485b849ed2a7b5247b52576125f8485f849eda67b7147b699eda52ecf42ecf4bb3f2ecf92ecfdeda5618442ecf9eda5638442ea39ed2a5d8487b4a9ed292ea242ea24ba8b2ea292ea29ed295f8442e8d4ba332e8c82e8c8ba335992559924ba335b8445b845ed297b5207b52176115f8445f845eda57b7107b695eda42ece82ece8bb3c2eced2ecf1eda4618402ecededa4638402ea2ded295d8447b4a5ed282ea182ea18ba882ea1d2ea1ded285f840)
  (.lf
  0x77fd8fa54b834849758fa563f1063e958fa4077e8077e81dfc077ed077f18fa44b830849718fa463f0c077ed8fa400aec63e918fa3077dc4334d2dd54b85463fa92e1500b100784d8fcc00b1463f318fcb0783c0783c1e1107841078458fcb4b8544b85590c364388643894675579d407ded90c4579d86431190c307ddc07ddc1f7907de107de590c3519d4519d5af956bed08496d8fa363f0863f092e0b00ae86bef54e7e559f86bed14e75559d4131d9af95559d4559d52e0b4134c077dc1df9077e1077e58fa34b82c4139d2df64b82c559f92df441370413712e0b4b800433252deb4b82c4b82d9155645d007de190c3579d46430d90c207dd007dd01f7607dd507dd990c2519d0078418fcb00b1063f2d8fca07830849918fca63fa463fa52e1400b0c078301e0e07835539512dd443248432490cb243349433492dd44b850078398fca4b8504b85190c264384643854674579d0519d1af946becc6becd4e74559d0131ddaf95539d46be55af94131c8131c84c74131cd131cdaf94559d0559d12e0a41348413492e014b7d86bf0d4e8455a1053a10031343408434090d22435094350803134b810559fd2df5413746bf154e8655a1853a18031543410))
  (.nd (.lf
  0x36c3e03a04e07480e82039f36c2c36c2cdb0d36c3136c36039f4c870733d40c8b4ac704ac72039f80ef880ef9321c4e0704c87203dd80ff080f7603dc36d8836d88db6436d8d36d9203dc4b46c36d8e03dc5106c36c32039f4e07080e7e039e36c2036c20db0a36c2536c2a039e4c86c4ac6e039e80ef480ef5321b4e06c4c86e03dc80fec80f7203db36d7c36d7cdb6136d8136d8603db4b46836d8203db5106836c26039e4e06c80e7a039d36c1436c14db0736c1936c1e039d4c8684ac6a039d80ef080ef1321a4e0684c86a03db80fe880f6e03da36d7036d70db5e36d7536d7a03da4b46436d7603da5106436c1a039d4e06880e76039c36c0836c08db0436c0d36c12039c4c864733c80c884ac644ac66039c80eec80eed32194e0644c86603da80fe480f6a03d936d6436d64db5b36d6936d6e03d94b46036d6a03d95106036c0e039c4e06480e72039b36bfc36bfcdb0136c0136c06039b4c8604ac62039b80ee880ee932184e0604c86203d980fe080f6603d836d5836d58db5836d5d36d6203d84b45c36d5e03d85105c36c02039b4e06080e6e039a36bf036bf0dafe36bf536bfa039a4c85c4ac5e039a80ee480ee532174e05c4c85e03d880fdc)
  (.lf 0))) (.nd (.nd (.lf
  0x5904800005af8a5af89dc6f772387723973d75ef5c5ef5ddceb774282739ddc6f5cf5c5904573d65ef58771bd73d65ef595ef5983d662f58773ad83d662f5962f580e393cd3c7742983d762f5c62f5c0e3a3cd407742d83d862f6062f600e3b3cd447743183d962f6462f640e3c3cd487743583da62f6862f680e3d3cd4c7743983db62f6c62f6c0e3e3cd507743d83dc62f7062f700e3f3cd547744183dd62f7462f740e203cd587744583de62f7862f780e213cd5c7744983df62f7c62f7c0e223cd607744d83e062f8062f800e233cd647745183e162f8462f840e243cd687745583e262f8862f880e253cd6c7745983e362f8c62f8c0e263cd707745d83e462f9062f900e273cd747746183e562f9462f940e283cd787746583e662f9862f980e293cd7c7746983e762f9c62f9c0e2a3cd807746d83e862fa062fa00e2b3cd847747183e962fa462fa40e2c3cd887747583ea62fa862fa80e2d3cd8c7747983eb62fac62fac0e2e3cd907747d83ec62fb062fb00e2f3cd947748183ed62fb462fb40e303cd987748583ee62fb862fb80e313cd9c7748983ef62fbc62fbc0e323cda07748d83f062fc062fc00e333cda47749183f162fc462fc40e343cda8)
  (.lf 0)) (.nd (.lf
  0xa565978e580e0580e065c85a0983e3540646018985ff7006663e3d43e3d406263e4550a3ec28fd0a3f101899974f65db865db9603701a980a3f5974f580dc1972065c6197141971465c6580dd0a569978e520e065e39978d0a5540a55429570a5590a559978d580dc446540486011985405c04a6447544475511f5448554485404a60119801199978d65eb065eb14837580dc580dc65c65a0945a095bdba6f764198b86630198bd198c1bdbd5bffc6f7716fff5dffc5bffdbdfb6f868198bdbdbd5dffc6f6f5bdbc198ac1983400005a09e5a09dbdbc6f76c6f76d6ffe5dff8198ac662d198b1198b5bdbc5bff85bff9bdfa6f86419a25bdfb4a4e86f7edbdfa19a1419a14668719a1919a1dbdfa022a019a19bdfa4a4e46f7e9bdf919a0819a08668419a0d19a11bdf90229c198b1bdbc5dff86f6f1bdbb198a0198a0662a198a55a099bdbb6f768198a5bdbb5dff4198a9bdbb5bff46f6edbdba198941989466271989919899bdba5dff01989dbdba5bff06f6e9bdb9198881988866241988d3e3500645018945ff6c06653e3d03e3d006253e4511971865c41970c1970c65c4580d90a3f1974f01a9865d3d974e0a3e00a3e028fa0a3e50a3e9974e580d8)
  (.lf 0)))

def shaGateTree337 : BTree :=
  .nd (.nd (.nd (.lf
  0x78de5e3782a6382a638a9902a63d2a63de3785f3182a4a0a94e2a4902a490a9262a4952a494a94e5b32c28afddfc4000c477f11dfc328aec28aeca2bd28af128af5dfc303bc05d119dfc377f8877f880ef0000c0110c1aa00534086a801a9ff110ac110ac442d110b1110b1a9ff59404042c1a9ff6a8786a8794d015940410f55a9c2044c46a709a9c110f4410f4443d310f4910f4da9c15940403bc1a9c16a7806a7816501044c059404a94e2a5702a57000005b32e5b32de37878e5c78e5d74c65f3185f319e3f47904c78fd1e3f32a8fc2a8fcaa412a9012a905e3f3613142a901e3f3633142a641e3785d31878de1e3772a62c2a62ca98d2a6312a631e3775f3142a49800002a53a2a538a94d2a4842a484a9232a4892a488a94d5b32828af1dfc3000c077f0ddfc228ae028ae0a2ba28ae528ae9dfc203bbc5d115dfc277f8477f840eef000bc110b5a9ff534046a7fda9fe110a0110a0442a110a5110a5a9fe59400042bda9fe6a8746a8754d005940010f49a9c1044c06a705a9c010f3810f3843d010f3d10f41a9c05940003bbda9c06a77c6a77d6500044bc59400a94d2a56c2a56c00005b32a5b329e37778e5878e5974c55f3145f315e3f379048)
  (.lf 0)) (.nd (.lf
  0x4a88dfdd67f7d47f7d531234dc8c4c48dfe147f8cc7f851fe1334c1c34c1cd30934c2134c25fe134b08834c21fe1350c8834ac5fdd64dc8c7f759fdd534ab434ab4d2af34ab934abdfdd54c4884a889fdd57f7d07f7d131224dc884c489fe137f8c87f84dfe1234c1034c10d30634c1534c19fe124b08434c15fe1250c8434ab9fdd54dc887f755fdd434aa834aa8d2ac34aad34ab1fdd44c4844a885fdd47f7cc7f7cd31214dc844c485fe127f8c47f849fe1134c0434c04d30334c0934c0dfe114b08034c09fe1150c8034aadfdd44dc847f751fdd334a9c34a9cd2a934aa134aa5fdd34c4804a881fdd37f7c87f7c931204dc804c481fe117f8c07f845fe1034bf834bf8d30034bfd34c01fe104b07c34bfdfe1050c7c34aa1fdd34dc807f74dfdd234a9034a90d2a634a9534a99fdd24c47c4a87dfdd27f7c47f7c5311f4dc7c4c47dfe107f8bc7f841fe0f34bec34becd2fd34bf134bf5fe0f4b07834bf1fe0f50c7834a95fdd24dc7c7f749fdd134a8434a84d2a334a8934a8dfdd14c4784a879fdd17f7c07f7c1311e4dc784c479fe0f7f8b87f83dfe0e34be034be0d2fa34be534be9fe0e4b07434be5fe0e50c7434a89fdd14dc787f745fdd034a78)
  (.lf 0))) (.nd (.nd (.lf
  0x7506d82ba62ae862ae80d1d3c8cc7507182bb62aec62aec0d1e3c8d07507582bc62af062af00d1f3c8d47507982bd62af462af40d003c8d87507d82be62af862af80d013c8dc7508182bf62afc62afc0d023c8e07508582c062b0062b000d033c8e47508982c162b0462b040d043c8e87508d82c262b0862b080d053c8ec7509182c362b0c62b0c0d063c8f07509582c462b1062b100d073c8f47509982c562b1462b140d083c8f87509d82c662b1862b180d093c8fc750a182c762b1c62b1c0d0a3c900750a582c862b2062b200d0b3c904750a982c962b2462b240d0c3c908750ad82ca62b2862b280d0d3c90c750b182cb62b2c62b2c0d0e3c910750b582cc62b3062b300d0f3c914750b982cd62b3462b340d103c918750bd82ce62b3862b380d113c91c750c182cf62b3c62b3c0d123c920750c582d062b4062b400d133c924750c982d162b4462b440d143c928750cd82d262b4862b480d153c92c750d182d362b4c62b4c0d163c930750d582d462b5062b500d173c934750d982d562b5462b540d183c9383c8bc0d0b034183c8c00d0c0341c3c8c40d0d034203c8c80d0e034243c8cc0d0f034283c8d00d100342c3c8d40d11034303c8d80d1203434)
  (.lf 0)) (.nd (.lf
  0x3062cc18d3063130631f1ff4ec2830635f1ff4a3a87c7fdf1fe3062030620c18a3062530625f1fe4ec244d425f1fe7c87430629f1fe4a3a47c7f9f1fd3061430614c187306193061df1fd4a3a030619f1fd4ec204d421f1fd7c8707c7f5f1fc3060830608c1843060d30611f1fc4a39c3060df1fc4ec1c4d41df1fc7c86c7c7f1f1fb305fc305fcc1813060130601f1fb4ec184d419f1fb7c86830605f1fb4a3987c7edf1fa305f0305f0c17e305f5305f9f1fa4a3944d415f1fa7c864305f5f1fa4ec147c7e9f1f9305e4305e4c17b305e9305e9f1f94ec10305edf1f94a3907c7e5f1f8305d8305d8c178305dd5bc25b6186d8dc5bc45b6206d8fc5bc55b6246d90c6d891b623162381623858901623d5bc51b6236d9081623db6234a13c16241b623016f86d88db6221622c1622c588d1623116231b6224a13816235b622016f45bc49b6216d9005bc4db6226d9046d889b6211622016220588a1622516225b6214a13416229b621016f06d885b620162141621458871621916219b6204a1301621db620016ec6d881b61f162081620858841620d1620db61f4a12c5bc41b61f6d8f816211b61f016e86d87db61e161fc161fc58811620116201b61e4a128)
  (.lf 0)))

def shaGateTree338 : BTree :=
  .nd (.nd (.nd (.lf
  0x2ae2de4b200324792c9e4b12ae1c2ae1cab892ae212ae25e4b103e205d379e4b179340793400f880032011e71ac64536686b191ac6311e5c11e5c479911e6111e61ac635966404521ac636b2086b2094d995966411d05ac26047246b099ac2511cf411cf4473f11cf911cfdac255966403e21ac256b1106b11165990472059665e86e2c8302c83000005b57a5b579e8817a2807a281755e5f5785f579e8fd7a4707a3f5e8fc2cb742cb74b2df2cb792cb7de8fc615742cb79e8fc635742c8b9e8815d5787a205e8802c8a42c8a4b22b2c8a92c8a9e8805f5742c74400007a1ba7a1b9e86d2c7302c730b1ce2c7352c735e86d5b5742ae21e4b100320792c5e4b02ae102ae10ab862ae152ae19e4b003e1c5d375e4b07933c7933c0f870031c11e65ac63536646b18dac6211e5011e50479611e5511e55ac62596600451dac626b2046b2054d985966011cf9ac25047206b095ac2411ce811ce8473c11ced11cf1ac245966003e1dac246b10c6b10d65980471c59661e86d2c82c2c82c00005b5765b575e8807a27c7a27d755d5f5745f575e8fc7a46c7a3f1e8fb2cb682cb68b2dc2cb6d2cb71e8fb615702cb6de8fb635702c8ade8805d5747a201e87f2c898)
  (.lf 0)) (.nd (.lf
  0x6734561a6020546743d49a65869858698794c1e5741e4a8794c5a6241e53079281e49c1e49c7928586955461407d44580c41f58079401e244580d16234590d4590c07d401e505663c079441fb44570c07b401e5001e519cef674380c5019cf052698673c19cef0c4ec0c4ec313d0c4f16734161a5020500c4f19cef586946743949a5586945869479285a62041f50079201e1c41f54079301e200c4f59cef526944570407b201e484570807b301e4c5460c07d2458045461007d34580845805162145905458091622459094590407d201e484590807d301e4c01e499ced67430673bd9cee0c4e00c4e0313a0c4e50c4e99cee526900c4e59cee5869001e4d9cee67434673b99ced0c4d40c4d431370c4d90c4dd9ced5268c0c4d99ced5868c673b59cec0c4c80c4c831340c4cd6743549a4586906733561a2020440c4cd9cec5868841f4c079101e184570007b101e445460807d145800458011620459014590007d101e4401e459cec6742c6742d49a25868858688794a1e56c6733961a3020486743149a35868c1e4a0794b1e4906733d61a40204c58690794b1e5701e49079261e4951e494794b5a61c1e49800001e52e1e52c79231e4881e48879235868d)
  (.lf 0))) (.nd (.nd (.lf
  0x54de40bc846fdc54de80bc946fe054dec0bca46fe454df00bcb46fe854df40bcc46fec54df80bcd46ff054dfc0bce46ff446fbd1c0f470bd46fc11c10470c146fc51c11470c546fc91c12470c946fcd1c13470cd46fd11c14470d146fd51c15470d546fd91c16470d946fdd1c17470dd46fe11c18470e146fe51c19470e546fe91c1a470e946fed1c1b470ed46ff11c1c470f146ff51c1d470f5470bc0bc002e00470c00bc102e04470c40bc202e08470c80bc302e0c470cc0bc402e10470d00bc502e14470d40bc602e18470d80bc702e1c470dc0bc802e20470e00bc902e24470e40bca02e28470e80bcb02e2c470ec0bcc02e30470f00bcd02e34470f40bce02e3803605a45e691f46926d63b00307c6926963af030786926563ae030746926163ad030706925d63ac0306c6925963ab030686925563aa030646925163a9030606924d63a80305c6924963a7030586924563a6030546924163a5030506923d63a40304c6923963a3030486923563a2030446923163a1030406922d63a00303c69229639f0303869225639e0303469221639d030306921d639c0302c69219639b0302869215639a03024692116399030206920d63980301c69209639703018)
  (.lf 0)) (.nd (.lf
  0x17db9b9f54a2c84a2c9f5c77d7986e85406224a2cc4a2cdf5c87d79c7d79d2fb34d6cc09875955a0118431ba9f5c94d6d07d725f5c831b9831b98c6e831b9d31ba1f5c84becc4becdf6067d89431d05f606506cc7d819f60531cf431cf4c73f31cf931cfdf6054aac831cf9f605506c831b9df5c84d6cc7d721f5c731b8c31b8cc6e531b9131b95f5c74bec831b91f5c74d6c87d7992fb24d6c84bec9f6057d8907d8152ab1506c53df3c05c0016805fd5805e03dfbc3dfbc05a03e03d016815fb1011807d71d2fb14d6c517dbdb9f5018846e7d406204a2c5099e1959851ec84403c040000f8053e4404204413c4413d106f4423d4423c042000f806566147b157ec5655695fb10118100f8147b157ec457ec4000059e9659e956f765ddd817c51b9b75dddc6e6dd6f765ddd95bdd806204a2c44a2c52fb14d6c44bec52ab1506c4506c52a9404f307d8912ab2506c8506c92a9504f347d8952ab3506cc506cd2a9604f387d8992ab4506d0506d12a9704f3c7d89d2ab5506d4506d52a9804f407d8a12ab6506d8506d92a9904f447d8a52ab7506dc506dd2a9a04f487d8a92ab8506e0506e12a9b04f4c7d8ad2ab9506e4506e52a9c04f507d8b12aba506e8)
  (.lf 0)))

def shaGateTree339 : BTree :=
  .nd (.nd (.nd (.lf
  0x3cde00e540393c3cde40e55039403cde80e56039443cdec0e57039483cdf00e580394c3cdf40e59039503cdf80e5a039543cdfc0e5b039583ce000e5c0395c3ce040e5d039603ce080e5e039643ce0c0e5f039683ce100e400396c3ce140e41039703ce180e42039743ce1c0e43039783ce200e440397c3ce240e45039003ce280e46039043ce2c0e47039083ce300e480390c3ce340e49039103ce380e4a039144043c0e6003900404400e6103904404440e6203908404480e630390c4044c0e6403910404500e6503914404540e6603918404580e670391c4045c0e6803920404600e6903924404640e6a03928404680e6b0392c4046c0e6c03930404700e6d03934404740e6e03938404780e6f0393c4047c0e7003940404800e7103944404840e7203948404880e730394c4048c0e7403950404900e7503954404940e7603958404980e770395c4049c0e7803960404a00e7903964404a40e7a03968404a80e7b0396c404ac0e7c03970404b00e7d03974404b40e7e03978404b80e7f0397c60fd80e80404bc60fdc0e81404c060fe00e82404c460fe40e83404c860fe80e84404cc60fec0e85404d060ff00e86404d460ff40e87404d860ff80e88404dc)
  (.lf 0)) (.nd (.lf
  0xb12999895830c41bd006b201a9c44c8406d201ac85428c06f244d8444d85138144e8544e8406f201ac801ac99989666a06662599880b1180b1182c480b11d0b12199885230841bcc06b101a9844c8006d101ac45428806f144d8044d81138044e8144e8006f101ac40b11d99885830801ac599886669c6662199870b10c0b10c2c450b1110b11199875830441bc806b001a9444c7c06d001ac05428406f044d7c44d7d137f44e7d44e7c06f001ac001ac19987666980b1159987523046661d99860b1000b1002c420b1050b10999865230041bbc06ad01a8841bc006ae01a8c41bc406af01a9041c3806ac01a8444c7406ce01ab85427c06ee44d7444d75137d44e7544e7406ee01ab801ab999856669044c7806cf01abc5428006ef44d7844d79137e44e7944e7806ef01abc0b10599865830001abd9986666946661999850b0f40b0f42c3f0b0f90b0f99985582fc0b0fd9985522fc6661599840b0e80b0e82c3c0b0ed0b0ed9984582f80b0f19984522f844c6c06cc01ab044c7006cd01ab45427406ec44d6c5427806ed44d7044d6d137b44e6d44d71137c44e7144e6c06ec01ab044e7006ed01ab401ab599846668c6661199830b0dc0b0dc2c390b0e1)
  (.lf 0))) (.nd (.nd (.lf
  0x21aedd028629445e941d027741185e945d0287411c740a1d02721adc21adc86b921ae121ae1d0276294021ae5d027609407409dd02621ad021ad086b621ad521ad5d0266293c5e93dd0267411421ad9d0266093c74099d02521ac421ac486b321ac921acdd0256093821ac9d025629385e939d0257411074095d02421ab821ab886b021abd21ac1d0246093421abdd024629345e935d0247410c74091d02321aac21aac86ad21ab121ab1d0236293021ab5d023609307408dd02221aa021aa086aa21aa521aa9d0226092c5e929d0217410021aa5d0226292c5e92dd0227410474089d02121a9421a9486a721a9921a9dd0216092821a99d0216292874085d02021a8821a8886a421a8d21a91d020609245e925d020740fc21a8dd0206292474081d01f21a7c21a7c86a121a8121a85d01f6092021a81d01f629205e921d01f740f87407dd01e21a7021a70869e21a7521a79d01e6091c21a75d01e6291c5e91dd01e740f474079d01d21a6421a64869b21a6921a6dd01d6091821a69d01d629185e919d01d740f074075d01c21a5821a58869821a5d21a61d01c6091421a5dd01c629145e915d01c740ec74071d01b21a4c21a4c869521a5121a55d01b60910)
  (.lf 0)) (.nd (.lf
  0x64d35471457c5051c51b4946d2cc6d2cd4f1455c5055c500379415c843ca003b900de46d2f14f1d55c7455c740362415ec415ec037900db800de593c064f7c6d3194f2755c9c55c9c036c416146d2ed4f1c55c7055c700361415e8415e8037800db408fbd93c057d2808fc193c051d2864f0193bf08fac08fac23ed08fb108fb593bf51d2408be5932e57c5064cb9932d08bd408bd422f708bd9438c4036200d0853bcc0382439c4439c50e9143ac543ac4038200d0800d09932d64d3015531b49453c506d251b4931551c1551c55491552115521b49355c4c64d31471357c4c08bdd932d51c4c51c4db4936d2c86d2c94f1355c4c55c4c0378415c408fb193bf57d2441614036300de043a9c039800de000de193bf64f7864efd93be08fa008fa023ea08fa508fa993be51d2043a6c038c00db008bd9932d57c4c64cb5932c08bc808bc822f408bcd15525b49353c4c6d3154f2655c9855c98036b4161041610036200ddc6d2e94f1b55c6c55c6c0360415e4415e4037700db0438c0036100d0453bc80381439c0439c10e9043ac143ac0038100d0400d05932c64d2c53ca003b743b9843b990f0643c996d24db4921551043a98039700ddc64d2d471257c48)
  (.lf 0)))

def shaGateTree340 : BTree :=
  .nd (.nd (.nd (.lf
  0x127cdadec59838046f5adec6b82c6b82d4e0e5983812671adaf00b786b6bdadae1266012660499a1266512669adae5983803ff5adae6b7346b735660e00b7459838b6c02db4c2db4c00005b74e5b74deb157acd07acd175d35f74c5f74deb917aec07ae45eb902df682df68b7dc2df6d2df71eb90617482df6deb90637482dcadeb155d74c7ac55eb142dc982dc98b7282dc9d2dc9deb145f7482dab400002db022db00b6bf2daa02daa0b6aa2daa52daa4b6bf5b7482c415e7cc004f479f31e7cb2c4042c404b1032c4092c40de7cb03ff05d549e7cb79fa879fa80ffc004f0127d1adec538386b7b1adeb127bc127bc49f1127c1127c1adeb59834046f1adeb6b8286b8294e0d5983412665adae00b746b6b9adad12654126544997126591265dadad5983403ff1adad6b7306b731660d00b7059834b6bf2db482db4800005b74a5b749eb147accc7accd75d25f7485f749eb907aebc7ae41eb8f2df5c2df5cb7d92df612df65eb8f617442df61eb8f637442dca1eb145d7487ac51eb132dc8c2dc8cb7252dc912dc91eb135f7442daa800002dafe2dafcb6a72da982da98b6a7598315d545e7ca79fa479fa40ffb004ec2c409e7cb004f079f2de7ca2c3f8)
  (.lf 0)) (.nd (.lf
  0x1f5cdcaed029481f5c9caed4ab8c72bb5caec1f5b81f5b87d701f5bd1f5c1caec029441f5bdcaec4ab8872bb1caeb1f5ac1f5ac7d6d1f5b13f04809e30270c605e40a033f0c83f0c809c33f149459c807e301f0c546d0080345ac845ac916d245bc945bc8080301f0c01f0d9dd6677d40c9d59dd7527546775d9dd60c9c00c9c032720c9c50c9c59dd6587500c8699d9902110676659d980c8580c85832180c85d0c8619d9858750677d549d4587500270d9d98676dc676dd61d40210c1f2247c8a58751587507c8a5a6d41f5b5caeb029401f5b1caeb4ab8472b3171a65e6985c699caeb72c2872badcaea1f5a01f5a07d6a1f5a51f5a5caea4ab8072b1971a05e6805c681cae572c101f5a9caea0293c72b2d71a55e6945c695caea72c2472ba9cae91f5941f5947d671f5991f59dcae90293872b2971a45e6905c691cae972c201f599cae94ab7c72b2571a35e68c72b2171a25e68872ba5cae81f5881f5887d641f58d1f591cae8029341f58dcae84ab785c68dcae872c1c72ba1cae71f57c1f57c7d611f5811f585cae7029301f581cae74ab745c689cae772c1872b9dcae61f5701f5707d5e1f5751f579cae60292c72b1d71a15e6845c685cae672c14)
  (.lf 0))) (.nd (.nd (.lf
  0x265ec997d265f1265f1da935eeac2646099162645426454991658f9958f9899165aee05aee1da9376ac876ac973ab5eeac5eeaddb0f76cb876c3ddb0e268b0268b09a2e268b5268b9db0e60ea8268b5db0e62ea8265f5da935ceac76a4dda92265e0265e0997a265e5265e5da925eea82645899142644c2644c991458f9558f9499145aedc5aeddda9276ac476ac573aa5eea85eea9db0e76cb476c39db0d268a4268a49a2b268a9268addb0d60ea4268a9db0d62ea4265e9da925cea876a49da91265d4265d49977265d9265d9da915eea426450993126440264409912264452644499315aed858f909931264f0264f000005aeda5aed9da9176ac076ac173a95eea45eea5db0d76cb076c35db0c26898268989a282689d268a1db0c60ea02689ddb0c62ea0265ddda915cea476a45da90265c8265c89974265cd265cdda905eea0264480000264c6264c499302643426434990f264392643899305aed458f8c9930264ec264ec00005aed65aed5da9076abc76abd73a85eea05eea1db0c76cac76c31db0b2688c2688c9a252689126895db0b60e9c26891db0b62e9c265d1da905cea076a41da8f265bc265bc9971265c1265c1da8f5ee9c2643c0000264c2)
  (.lf 0)) (.nd (.lf
  0x3249df7484d7fc7dd21f7473248c3248cc9253249132495f7474bff86ef896fc35df0c5bf0dbc016f0806f080066d4a3f818c81bc02019b86f009bc0118c6c18c6c631d18c7118c71bc014a3f84a3f9f7477dd987dd992ffe4d7f84bff9f7857de90325fdf7854abf87de15f784325e8325e8c97c325ed325f1f7844abf47d9e929aa4ef284ef2928fd4a3ec18c75bc01019b46f005bc0018c606ef856fc25df085bf09bc006f07c6f07c066c4a3f418c60631a18c6518c65bc004a3f44a3f5f7467dd947dd952ffd4d7f432491f7474d7f87dd1df7463248032480c9223248532489f7464bff44bff5f7847de8c325edf784507f47de11f783325dc325dcc979325e1325e1f783507f07d9e529a94ef244ef2528fc4a3e832485f7464d7f47dd19f745324746f078066b4a3f018c69bc00019b06f001bbff18c5418c54631718c5918c59bbff4a3f04a3f1f7457dd907dd912ffc4d7f032474c91f324793247df7454bff04bff1f7837de88325e5f7834abf07de0df782325d0325d0c976325d5325d9f7824abec325d5f782507ec7d9e129a84ef204ef2128fb4a3e432479f7454d7f07dd15f7443246818c5dbbff019ac6effdbbfe18c4818c48631418c4d)
  (.lf 0)))

def shaGateTree341 : BTree :=
  .nd (.nd (.nd (.lf
  0x5b189e0717824078241745a5f1685f169e0ed78430783b5e0ec2930029300a4c22930529309e0ec6116429305e0ec6316429045e0715d168781c5e0702903029030a40e2903529035e0705f16428e8c000028f9a28f98a3e528e7828e78a3a028e7d28e7ca3e55b18459250a3e528fd828fd800005b1865b185e0707823c7823d74595f1645f165e0ec7842c783b1e0eb292f4292f4a4bf292f9292fde0eb61160292f9e0eb6316029039e0705d164781c1e06f2902429024a40b2902929029e06f5f16028e80000028f9628f956c5f28e7028e71649228e7528e756c5f5b1805924d6c5f28fd428fd400005b1825b181e06f782387823974585f1605f161e0eb78428783ade0ea292e8292e8a4bc292ed292f1e0ea6115c292ede0ea6315c2902de06f5d160781bde06e2901829018a4082901d2901de06e5f15c5924800005b17e5b17de06e782347823574575f15c5f15de0ea7842429021e06e5d15c5924574565f158781b974565f1595f159845663158783a9845663159631580eb93cf3c7842584576315c6315c0eba3cf4078429845863160631600ebb3cf447842d845963164631640ebc3cf4878431845a63168631680ebd3cf4c78435845b6316c)
  (.lf 0)) (.nd (.lf
  0x3407cd0213408134085fc1b4aa6834081fc1b4f2e84dae9fc1b7f0e87f06dfc1a3407034070d01e3407534079fc1a4aa6434075fc1a4f2e44dae5fc1a7f0e47f069fc193406434064d01b340693406dfc194aa6034069fc194f2e04dae1fc197f0e07f065fc183405834058d0183405d34061fc184aa5c3405dfc184f2dc4daddfc187f0dc7f061fc173404c3404cd0153405134055fc174aa5834051fc174f2d84dad9fc177f0d87f05dfc163404034040d0123404534049fc164aa5434045fc164f2d44dad5fc167f0d47f059fc153403434034d00f340393403dfc154aa5034039fc154f2d04dad1fc157f0d07f055fc143402834028d00c3402d34031fc144aa4c3402dfc144f2cc4dacdfc147f0cc7f051fc133401c3401cd0093402134025fc134aa4834021fc134f2c84dac9fc137f0c84dac52a914f2c47f04d2a914f2c54f2c529fb066087f0c92a924f2c84f2c929fc0660c7f0cd2a934f2cc4f2cd29fd066107f0d12a944f2d04f2d129fe066147f0d52a954f2d44f2d529ff066187f0d92a964f2d84f2d92a000661c7f0dd2a974f2dc4f2dd2a01066207f0e12a984f2e04f2e12a02066247f0e52a994f2e44f2e52a03066287f0e92a9a4f2e8)
  (.lf 0))) (.nd (.nd (.lf
  0x228c1d20a62a0c5ea0dd20a748a474829d209228b0228b08a2e228b5228b9d20960a08228b5d20962a085ea09d209748a074825d208228a4228a48a2b228a9228add20860a04228a9d20862a045ea05d2087489c74821d20722898228988a282289d228a1d20760a002289dd20762a005ea01d207748987481dd2062288c2288c8a252289122895d206609fc22891d206629fc5e9fdd2067489474819d20522880228808a222288522889d205609f822885d205629f85e9f9d2057489074815d20422874228748a1f228792287dd204609f422879d204629f45e9f5d2047488c74811d20322868228688a1c2286d22871d203609f02286dd203629f05e9f1d203748887480dd2022285c2285c8a192286122865d202609ec22861d202629ec5e9edd2027488474809d20122850228508a162285522859d201609e822855d201629e85e9e9d2017488074805d20022844228448a13228492284dd200609e422849d200629e45e9e5d2007487c74801d1ff22838228388a102283d22841d1ff609e02283dd1ff629e05e9e1d1ff74878747fdd1fe2282c2282c8a0d2283122835d1fe609dc22831d1fe629dc5e9ddd1fe748745e9d98276629d8747f98276629d9)
  (.lf 0)) (.nd (.lf
  0x49e1dee987badc7ba61ee972f24c2f24cbc952f2517bae52e894d2247baed2e8b4d22c49e0dee947bacc7bacd2e834d20c2f251ee974d21849e19ee977bad82f255ee974ba187ba5dee962f2402f240bc922f2452f249ee964ba1449e15ee967bad42f245ee964d2147ba59ee952f2344ba31eedb7bbe82f3fcbd012f4012f405eedb4a6302f401eedb502307bb6deeda2f3f02f3f0bcfe2f3f52f3f5eeda5022c7bae92e8a4d2284ba29eed97bbe02f3f9eeda4a62c4ba2deeda7bbe47bb69eed92f3e42f3e4bcfb2f3e92f3e9eed9502282f3edeed94a6287bb65eed82f3d82f3d8bcf82f3dd2f3ddeed8502242f3e1eed84a6244ba25eed87bbdc7bb61eed72f3cc2f3ccbcf52f3d17bae12e884d2207badd2e874d21c4ba21eed77bbd82f3d1eed7502202f3d5eed74a6207bb5deed62f3c04ba1deed67bbd42f3c0bcf22f3c52f3c5eed65021c2f3c9eed64a61c7bb59eed52f3b42f3b4bcef2f3b97bad92e864d2184ba19eed57bbd02f3bdeed54a6182f3b9eed5502187bb55eed42f3a82f3a8bcec2f3ad2f3adeed4502147bad52e854d2144ba15eed47bbcc2f3b1eed44a6147bb51eed32f39c7bad12e844d2102f234bc8f2f2392f23dee954ba10)
  (.lf 0)))

def shaGateTree342 : BTree :=
  .nd (.nd (.nd (.lf
  0x57530111142ea879581554d5753457534111242eac79585554e5753857538111342eb079589554f5753c5753c111442eb47958d55505754057540111542eb842e3c110d0440842e40110e0440c42e44110f0441042e4811100441442e4c11110441842e5011120441c42e5411130442042e5811140442442e5c11150442842e6011160442c42e6411170443042e6811180443442e6c11190443842e70111a0443c42e74111b0444042e78111c0444442e7c111d0444842e80111e0444c42e84111f0445042e8811000445442e8c11010445842e9011020445c42e9411030446042e9811040446442e9c11050446842ea011060446c42ea411070447042ea811080447442eac11090447842eb0110a0447c42eb4110b0440042eb8110c04404483bc112004400483c0112104404483c4112204408483c811230440c483cc112404410483d0112504414483d4112604418483d811270441c483dc112804420483e0112904424483e4112a04428483e8112b0442c483ec112c04430483f0112d04434483f4112e04438483f8112f0443c483fc11300444048400113104444484041132044484840811330444c4840c1134044504841011350445448414113604458)
  (.lf 0)) (.nd (.lf
  0x66fad9bea0beb00beb02fae0beb50beb59bea5856001d1d9bea670246702549585856058561c6a51d70c1d70c00005a4f21d625c6a55a4f05a4f1c6b671b5471ad9c6b51d7741d77475df1d7791d77dc6b55c470453d4076601d18544dc0786454d4454d51555455d5455d4078601d1866f29615701f1871a9475871d6181d61875875855d0bd459bab5855c0beb99bea5256066fa99be90bea40bea42fab0bea90bea99be95855c01d199be9670206702149575855c5855c75875a4ec5a4edc6b571b5071b51711c5e4705c471c6f371c4871c4809c64a95c3ec50096502514603ec09853ecd03ecd009453ed51025159baa66f241d779c6b55e47071ad5c6b41d7681d76875dc1d76d1d771c6b45c46c1d76dc6b45e46c453d0076501d14544d80785454d0454d11554455d1455d0078501d1466f25615601f141d61c75851d6101d61075855855966ead9baa0bd300bd302f4e0bd350bd399baa585580bead9be95255c66fa59be80be980be982fa80be9d0be9d9be85855801d159be86701c6701d4956585585855875855a4e85a4e9c6b471b4c71ad1c6b31d75c0bd359baa01f1466ea99ba90bd240bd242f4b0bd290bd2d9ba9585540bd299ba901f10)
  (.lf 0))) (.nd (.nd (.lf
  0x3ca240d45035003ca280d46035043ca2c0d47035083ca300d480350c3ca340d49035103ca380d4a0351452d41d55b755e87556dd55a2403c2403c90112404124045d55a54d3c24041d55a56d3c52d3dd55a755e475569d5592403024030900e2403524039d55954d3824035d55956d3852d39d559755e075565d5582402424024900b240292402dd55854d3424029d55856d3452d35d558755dc75561d557240182401890082401d24021d55754d302401dd55756d3052d31d557755d87555dd5562400c2400c90052401124015d55654d2c24011d55656d2c52d2dd556755d475559d555240002400090022400524009d55554d2824005d55556d2852d29d555755d075555d55423ff423ff48fff23ff923ffdd55454d2423ff9d55456d2452d25d554755cc75551d55323fe823fe88ffc23fed23ff1d55354d2023fedd55356d2052d21d553755c87554dd55223fdc23fdc8ff923fe123fe5d55254d1c23fe1d55256d1c52d1dd552755c475549d55123fd023fd08ff623fd523fd9d55154d1823fd5d55156d1852d19d551755c075545d55023fc423fc48ff323fc923fcdd55054d1423fc9d55056d1452d15d550755bc75541d54f23fb823fb88ff023fbd)
  (.lf 0)) (.nd (.lf
  0x6de09b78116b6451de5b7816de8016b645adb16b6916b6db78153de416b69b78155de46de05b78016b5816b585ad816b5d16b5db78055de016b61b78053de06de01b77f16b4c16b4c5ad516b5116b51b77f55ddc6ded14f8d55e346de814f7955de455de403de4175c6dea54f8255e0855e0803c74178055e3403d2417ac4178003de00f4c417ac03c900f7843f3403fe00f786ded94f8f55e3c53e3c041e4403444035102d4413544134041e00f7800f79953965560654e995390986409864261b098690986d953951ebc09869953957ebc654e59538098580985826180985d0985d953857eb86dea14f8155e046decd4f8c55e306dec54f8a55e2816b55b77f53ddc09861953851eb86de7d4f7855de055de003dd4175855e0403c64177c55e3003d1417a84177c03dd00f48417a803c800f7443f3003fd00f7453e38041d4403044031102c4413144130041d00f7400f7595386555c654e195370984c6de994f7f55dfc6dec94f8b55e2c6de9d4f8055e000984c26150985151dddb77f6de786de794f7755ddc55ddc03dc4175455e0003c54177855e2c03d0417a44177803dc00f44417a403c700f7043f2c03fc00f7053e34041c4402c4402d102b4412d)
  (.lf 0)))

def shaGateTree343 : BTree :=
  .nd (.nd (.nd (.lf
  0x39008e4043900d3901209bc003683900e09bc514ac4ccae09bc8276c826f209bb38ffc38ffce401390013900609bb003643900209bb514a84ccaa09bb82768826ee09ba38ff038ff0e3fe38ff538ffa09ba0036038ff609ba514a44cca609ba82764826ea09b938fe438fe4e3fb38fe938fee09b90035c38fea09b9514a04cca209b982760826e609b838fd838fd8e3f838fdd38fe209b80035838fde09b85149c4cc9e09b88275c826e209b738fcc38fcce3f538fd138fd609b70035438fd209b7514984cc9a09b782758826de09b638fc038fc0e3f238fc538fca09b60035038fc609b6514944cc9609b682754826da09b538fb438fb4e3ef38fb938fbe09b50034c38fba09b5514904cc9209b582750826d609b438fa838fa8e3ec38fad38fb209b40034838fae09b45148c4cc8e09b48274c826d209b338f9c38f9ce3e938fa138fa609b30034438fa209b3514884cc8a09b382748826ce09b238f9038f90e3e638f9538f9a09b20034038f9609b2514844cc8609b282744826ca09b138f8438f84e3e338f8938f8e09b10033c38f8a09b1514804cc8209b182740826c609b038f7838f78e3e038f7d38f8209b00033838f7e09b05147c4cc7e09b08273c)
  (.lf 0)) (.nd (.lf
  0x44b6c06ac012b0012b1988b662a8662a9487d581f40ab51988c521f866231988b0ab3c0ab3c2ad10ab410ab41988b581f4019b1984d661b0661b1607d01bb0581f5bfa91a6001a539bfa95a19c1a53c00006fea66fea4694c1a52c1a52c694c581f10a9d9984d01bb066135984c0a9c80a9c82a740a9cd0a9d1984c581f03be3c066b0199841b3404ab0128044968068b012ac5417006ab44a6844a6912ba44b6944b6806ab012ac012ad988a662a4662a5487c581f03e568088b019ac6008408ab3e5e83e5e8066b3e669019ad984c661ac661ad607c01bac0ab45988b521f46622d988a0ab300ab302ace0ab350ab35988a581f0581f0694c5a1981a531bfa81a5201a520694a1a5251a525bfa85a1941a52800006fea23beb40669019903beb8066a019940ab39988a521f06622998890ab240ab242acb0ab2944964068a012a85416c06aa44a6444a6512b944b6544b6406aa012a8012a99889662a0449600689012a45416806a944a6044a6112b844b6144b6006a9012a4012a598886629c6629d487a581e83e5600889019a46007c08a93e5e03e5e006693e661019a5984a661a4661a5607a01ba43e564088a019a86008008aa3e5e43e5e4066a3e665)
  (.lf 0))) (.nd (.nd (.lf
  0x3599600724f5d4801ca00713598435984d663359893598e00714ad504ddd2007180240802412b544f5d04ad52050b814a8814a932544e1504c9520549815a08152605483759837598dd683759d375a20548000083759e05485114c37442050b4e1508142e050a3743037430dd0e374353743a050a4c94c3598a00714f5d0801c600703597835978d6603597d3598200704ad4c4ddce00708023c8023d2b534f5cc4ad4e050a814a4814a532534e14c4c94e05488159c8152205473758c3758cdd6537591375960547000043759205475114837436050a4e14c8142a05093742437424dd0b374293742e05094c9483597e00704f5cc801c2006f3596c3596cd65d3597135976006f4ad484ddca006f80238802392b524f5c873ba80cc14ad484ad4a0509814a0814a132524e1484c94a0547815983742a05094e14835972006f4f5c84ddc52b514f5c4801bd2b514f5c54ad4532514e1448142532514e1454c9440000511448151c000051145511452d34058b481598000151148511492d35058b88159c00025114c5114d2d36058bc815a0000351150511512d37058c0815a4000451154511552d38058c4815a8000551158511592d39058c8815ac00065115c)
  (.lf 0)) (.nd (.lf
  0x6bd4404dd49db8619e804dd3b7cc61a2004cb3b80461a3404d03b8183b80404dd013603b81804c2013743d93004dd3d9b1013759212648c4648499211086040860421830860908609921100e700860d921157bb4648459210085f8085f82180085fd8488d8f4d63db0075658f4e00a0c63d398f4d07554075541d57075590755d8f4d4b74c075598f4d00a0863d358f4c07548075481d540754d0754d8f4c00a0453a4403204353c4353d0d6f4363d4363c03204b744848852dd100a00848898f4c63dac075518f4c4b7484343c03004b74463d312dd100a014b74546b157ac406fc58e560080c639598e5506fb406fb41bef06fb906fb98e550080806fbd8e554b54c8468d8e55639d0639558e5406fa806fa81bec06fad141dc00006c70253a4c03224354414379b1d75b9e46c75db1d6143641436450db1436914369b1d65d9e04344403024b74c435450d714364563db12dd300a084364403224b74c4b74d91b9647606476146b357acc5f96004e23d7c43d7c52d533d845639d12d53008083d74404c24b54c4b54d917b64668646695eb300d880820d917c00d8c645f1917b081fc081fc2081082010837991ba51ad0646e991b9083640836420db08369)
  (.lf 0)))

def shaGateTree344 : BTree :=
  .nd (.nd (.nd (.lf
  0x4041ae1d6b8f06b8f1662100ac059885ebf52e2242e22400005b79a5b799ec0e7b0b47b0b575e65f7985f799ec8a7b2a47b229ec892e5c02e5c0b9722e5c52e5c9ec89617942e5c5ec89637942e305ec0e5d7987b039ec0d2e2f02e2f0b8be2e2f52e2f5ec0d5f7942e18000007afd67afd4b85d2e1702e170b85d598815d595e8c67a3947a394100f0053c2ca7de8c7005407a31de8c62ca6c2ca6cb29d2ca712ca75e8c60403c0403dae1c6b8ec6b8ed662000abc12a05ae5b538846b96dae5a129f0129f04a7e129f5129f5ae5a598800473dae5a6b9e46b9e54e205988012899ae1d00ac06b875ae1c12888128884a241288d12891ae1c5988059880b85d5b7945b795ec0d7b0b07b0b175e55f7945f795ec897b2a07b225ec882e5b42e5b4b96f2e5b92e5bdec88617902e5b9ec88637902e2f9ec0d5d7947b035ec0c2e2e42e2e4b8bb2e2e92e2e9ec0c5f7902e175ebf42e1642e164b85b2e1692e169ebf45b7902ca71e8c60053c7a319e8c52ca602ca60b29a2ca652ca69e8c5040385d591e8c57a3907a390100e00538129f9ae5a538806b969ae59129e4129e44a7b129e9129e9ae595987c04739ae596b9e06b9e14e1f5987c1288dae1c00abc)
  (.lf
  0x4918610fb5799812d284b4812d1c12d1c4b48579b5844855e6d00c70579b44b48599a412d204b4612d1412d144b46579b1844815e6c00c6c579b04b46599a012d19aed512d0812d084b4412d0d12d0daed55999c8447d5e6b00c6812d1000006bb56579adaed512d6c6bb55aed412cfc844795e6a00c64579a9aed412d6812cfc4b4112d0112d0400006bb5212d01aed4599986bb504b3e12cf412cf44b3e579a5844755e6900c60579a44b3e5999412cf84b3c12cec12cec4b3c579a1844715e6800c5c579a04b3c5999063d052dc6009d44b71a10fb844684918210fb00c54843ee10fa4917049171245e491754917610fa00c5063cfd2dc4009cc4b71210f984460844615e6400c4c4917a10fa5799463d012dc5009d04b71610fa84464843ea10f94916449165245b491694916a10f900c4c4916e10f957990843e610f84915863cf52dc2009c44b70a10f78445812cf1aed312ce012ce04b3a12ce58446d5e6700c585799daed312d6412ce5aed35998c12ce800006bb4e6bb4daed212cd412cd44b3712cd94915924584915d4916210f85798c12cdc00006bb4a844595e6200c4463cf92dc3009c84b70e10f88445c4915e10f800c48843e210f74914c))
  (.nd (.lf
  0x678f161fd021b0679e949fd587f4587f47e665a7705a771cba172f001fb5c7ed91fb611fb65cba15c7081fb61cba15e70872e85cba01fb501fb507ed61fb551fb59cba05c7041f9987e9a1f9881f9887e641f98d1f99000001fa6a3f1680a0b027ac606840a2b3f1e83f1e809eb3f2690cd059e5b527f46796d9e5a0ccf00ccf0333e0ccf50ccf59e5a587f04213407eb01f8045b68080b01fac54770082b45c6845c69173a45d6945d68082b01fac01fad9e5a679e40cb999e1d021b0678759e1c0cb880cb8832e40cb8d0cb919e1c587f0027ad9e1c678ec1f98c7e9a5a76c678ed61fc021ac679e549fc587f0587f07e9a1fab01fa687e991f97c1f97c7e611f9811f9807e995a7683f1600a09027a43f1640a0a027a86067c0a293f1e0606800a2a3f1e43f1e009e93f2613f1e409ea3f2650ccf99e5a527f00cb8d9e1c021ac678719e1b0cb7c0cb7c32e10cb810cb819e1b021a8027a99e1b678e80cb859e1b587ec6786d9e1a0cb700cb7032de0cb750cb799e1a587e8027a59e1a678e445b60080901fa445b64080a01fa854768082945c605476c082a45c6445c61173845d6145c65173945d6545d60082901fa445d64082a01fa8678e561fa021a4)
  (.lf 0))) (.nd (.nd (.lf
  0x76e6d73bc5eef05cef1dbba76f6476f640e664b3dc4b3de0e8083a7c83a7d33f74e7dc4e7de0efc83c6c83bf20efb3adfc3adfceb813ae013ae060efb002143ae020efb4ffd83ab420e804cfdc83a020e7f3ab2c3ab2ceacd3ab313ab320e7f4e7d836926031e50fdc80c7a031d3691436914da47369193691e031d4b3d84c7da031d80cf080cf12cf650fd802f95a614698cc698cd4bf658fd80f9ada61458fd826de1dbba0399876ee9dbb926dcc26dcc9b7526dd126dd1dbb94b3d826c75db7c5eef076df1db7b26c6426c649b1b26c6926c6ddb7b5ceec26ac4000026bbe26bbc9aae26ab426ab49aae58fd958fd89aae5af1c5af1ddb7b76e6876e6973bb5eeec5ceeddbb976f6076f600e654b3d84b3da0e7f83a7883a7933f64e7d84e7da0efb83c6883bee0efa3adf03adf0eb7e3adf53adfa0efa002103adf60efa4ffd43ab360e7f4cfd8839fe0e7e3ab203ab20eaca3ab253ab260e7e4e7d43691a031d50fd880c76031c3690836908da443690d36912031c4b3d44c7d6031c80cec80ced2cf550fd402f91a613698c8698c94bf558fd469851a6130f99c0f99c3e690f9a10f9a1a61358fd426dd5dbb90399476ee5dbb826dc026dc09b7226dc5)
  (.lf 0)) (.nd (.lf
  0x4a4bdf8127e0c47e049f8113298432984ca63329893298df8114c0b86f4d8089d4a4b832989f8114d8b84a4b9f8117e0c07e045f8103297832978ca603297d32981f8104c0b43297df8104d8b47e041f80f3296c3296cca5d3297132975f80f4c0b032971f80f4d8b06f4d0089b4a4b04a4b1f80f7e0b87e03df80e3296032960ca5a3296532965f80e4d8ac32969f80e4c0ac6f4cc089a4a4ac4a4adf80e7e0b47e039f80d3295432954ca57329596f4c808994a4a84a4a9f80d7e0b03295df80d4c0a832959f80d4d8a87e035f80c3294832948ca543294d32951f80c4c0a43294df80c4d8a46f4c408984a4a44a4a5f80c7e0ac7e031f80b3293c3293cca513294132945f80b4c0a032941f80b4d8a06f4c008974a4a04a4a1f80b7e0a87e02df80a3293032930ca4e329356f4b808954a4986f4b408944a49432939f80a4c09c6f4bc08964a49c32935f80a4d89c4a49df80a7e0a47e029f8093292432924ca4b329293292df8094c09832929f8094d8984a499f8097e0a07e025f8083291832918ca483291d32921f8084c0943291df8084d8944a495f8087e09c7e021f8073290c3290cca453291132911f8074d8906f4b008934a4904a491f8077e098)
  (.lf 0)))

def shaGateTree345 : BTree :=
  .nd (.nd (.nd (.lf
  0x29fc0a7f229fc529fc5e28e5f2d029e24a78829de029de0a77a29de529de4a7885b2e877b69ded92845028450a1162845528459ded903b785d0d1ded977be077be00ede000786a649a99110e8410e8443a310e8910e89a991593bc04279a9916a6c06a6c14cef593bc6a551a95310d1c10d1c434910d2110d25a953593bc03b79a9536a5c86a5c964ef04478593bca78829e6029e6000005b2ea5b2e9e28e78ab478ab574b45f2d05f2d1e30a78ca478c29e3092a2842a284a8a32a2892a28de309612cc2a289e309632cc29fc9e28e5d2d078a39e28d29fb429fb4a7ef29fb929fb9e28d5f2cc29de8000029e2229e20a77729dd829dd8a777593b95d0cdded877bdc77bdc0edd0007428455ded90007877b65ded82844428444a113284492844dded803b7403b75a9526a5c46a5c564ee0447410e8da991533bc6a645a99010e7810e7843a010e7d10e7da990593b804275a9906a6bc6a6bd4cee593b810d21a953044786a54da95210d1010d10434610d1510d19a952593b8593b8a7775b2e45b2e5e28d78ab078ab174b35f2cc5f2cde30978ca078c25e3082a2782a278a8a02a27d2a281e308612c82a27de308632c829fbde28d5d2cc78a35e28c29fa8)
  (.lf 0)) (.nd (.lf
  0x50bd52bd8053c87f5b12bf650bd850bd92bd9053cc7f5b52bf750bdc50bdd2bda053d07f5b92bf850be050be12bdb053d47f5bd2bf950be450be52bdc053d87f5c12bfa50be850be92bdd053dc7f5c52bfb50bec50bed2bde053e07f5c92bfc50bf050bf12bdf053e47f5cd2bfd50bf450bf52be0053e87f5d12bfe50bf850bf92be1053ec7f5d52bff50bfc50bfd2be2053f07f5d92c0050c0050c012be3053f47f5dd2c0150c0450c052be4053f87f5e12c0250c0850c092be5053fc7f5e52c0350c0c50c0d2be6054007f5e92c0450c1050c112be7054047f5ed2c0550c1450c152be8054087f5f12c0650c1850c192be90540c7f5f52c0750c1c50c1d2bea054107f5f92c0850c2050c212beb054147f5fd2c0950c2450c252bec054187f6012c0a50c2850c292bed0541c7f6052c0b50c2c50c2d2bee054207f6092c0c50c3050c312bef054247f60d2c0d50c3450c352bf005428053b92be34af60053bd2be44af64053c12be54af68053c52be64af6c053c92be74af70053cd2be84af74053d12be94af78053d52bea4af7c053d92beb4af80053dd2bec4af84053e12bed4af88053e52bee4af8c053e92bef4af90053ed2bf04af94053f12bd14af98)
  (.lf 0))) (.nd (.nd (.lf
  0x23029d2ff62a805ea81d2ff74c7874bfdd2fe23018230188c082301d23021d2fe60a7c2301dd2fe62a7c5ea7dd2fe74c7474bf9d2fd2300c2300c8c052301123015d2fd60a7823011d2fd62a785ea79d2fd74c7074bf5d2fc23000230008c022300523009d2fc60a7423005d2fc62a745ea75d2fc74c6c74bf1d2fb22ff422ff48bff22ff922ffdd2fb60a7022ff9d2fb62a705ea71d2fb74c6874bedd2fa22fe822fe88bfc22fed22ff1d2fa60a6c22fedd2fa62a6c5ea6dd2fa74c6474be9d2f922fdc22fdc8bf922fe122fe5d2f960a6822fe1d2f962a685ea69d2f974c6074be5d2f822fd022fd08bf622fd522fd9d2f860a6422fd5d2f862a645ea65d2f874c5c74be1d2f722fc422fc48bf322fc922fcdd2f760a6022fc9d2f762a605ea61d2f774c5874bddd2f622fb822fb88bf022fbd22fc1d2f660a5c22fbdd2f662a5c5ea5dd2f674c545ea59829662a5874bd9829662a5962a580cf93c83c74c55829762a5c62a5c0cfa3c84074c59829862a6062a600cfb3c84474c5d829962a6462a640cfc3c84874c61829a62a6862a680cfd3c84c74c65829b62a6c62a6c0cfe3c85074c69829c62a7062a700cff3c85474c6d829d62a7462a740ce03c858)
  (.lf 0)) (.nd (.lf
  0x30049f101503907c405f1003003830038c0103003d30041f1004a78c3003df1005038c7c3852ee34d38c4bb8df1007c47c7c401f0ff3002c3002cc00d3003130031f0ff503887bfd5288f4eabc4eabd27e249f802fec4bfb32fec930035f0ff4a78849f89f0c17c3807c3812ee24d3882fecdf0c14bb884bb89f0ff7c4787c3fdf0fe3002030020c00a3002530029f0fe4a7847bfd1288e4eab84eab927e149f7c2fec9f0c14d3887c305f0c02feb82feb8bfb02febd2fec1f0c04bb8449f85f0c07c37c2febdf0c04d3847c301f0bf2feac2feacbfad2feb12feb5f0bf4bb807bfc9288c4eab04eab127df49f7449f7df0be7c3747c3752edf4d37c7bfcd288d4eab44eab527e049f7830025f0fe503847c37d2ee14d3844bb85f0fe7c4747c3f9f0fd3001430014c0073001930019f0fd5038049f81f0bf7c3782feb1f0bf4d3807c2fdf0be2fea02fea0bfaa2fea52fea9f0be4bb7c7c3792ee04d3804bb81f0fd7c4703001df0fd4a7807c3f5f0fc3000830008c0043000d3000df0fc5037c4bb7df0fc7c46c30011f0fc4a77c7c3f1f0fb2fffc2fffcc0013000130005f0fb4a7782fea5f0be4d37c7bfc5288b4eaac4eaad27de49f7030001f0fb50378)
  (.lf 0)))

def shaGateTree346 : BTree :=
  .nd (.nd (.nd (.lf
  0x78ef5e3bc2a7e82a7e8a9fc2a7ed2a7f1e3bc03dd803dd9abb76af586af596587046d811c49abf6536206afd9abf511c3411c34470f11c3911c39abf55961c044d9abf56b0506b0514d875961c11addabb8046dc6aee1abb711acc11acc46b511ad111ad5abb75961c5961cb0365b5305b531e78779e9879e99754c5f5305f531e8037a0887a00de8022c5182c518b1482c51d2c521e8026152c2c51de8026352c2c25de7875d53079e1de7862c2482c248b0942c24d2c24de7865f52c2c0d9e76e2c0c82c0c8b0342c0cd2c0cde76e5b52c2a7ede3bc002d878ef1e3bb2a7dc2a7dca9f92a7e12a7e5e3bb03dd45d32de3bb78f6878f680f75002d411c3dabf55361c6afd5abf411c2811c28470c11c2d11c2dabf459618044d5abf46b04c6b04d4d865961811ad1abb7046d86aeddabb611ac011ac046b211ac511ac9abb65961803dd5abb66af546af556586046d459619e76e2c1482c14800005b52e5b52de78679e9479e95754b5f52c5f52de8027a0847a009e8012c50c2c50cb1452c5112c515e801615282c511e801635282c251e7865d52c79e19e7852c23c2c23cb0912c2412c241e7855f5282c0d0000079dba79db9e76d2c0bc2c0bcb0312c0c1)
  (.lf 0)) (.nd (.lf
  0xc05430170c05967229497d585f40c05d9c2d585f4025b19c2d671301dd44774f1dd381dd38774f585f567131617d01fb0585f4774f5a58071f5971465e51871f5171445e51071f5571455e51471f4d71435e50c5a581c7b371f4871f4971425e5085c519c7f57205071fd5c7f41e0545c515c7f47204c1e05478171e0591e059c7f44aa001e05dc7f4027bc71fd1c7f31e0481e04878141e04d1e04dc7f34a9fc1e051c7f3027b81dec877b41decd1ded1c7b35c5085c511c7f37204871fcdc7f21e03c1e03c78111e0411e041c7f24a9f81e045c7f2027b45c50dc7f27204471fc9c7f11e0301e030780e1e0351e039c7f1027b01e035c7f14a9f45c509c7f17204071fc5c7f01e0241e024780b1e0291e029c7f04a9f01decdc7b35e50871ecdc7b21debc1debc77b11dec11dec5c7b25c5043c23c096b025980c1c59c6b525f4671ad9c6a0c1b00c1b0306e0c1b50c1b59c6a585f041f34076b01d8045568078b01dac5457007ab456684566915ba457694576807ab01dac01dad9c6a672243ed68098b025ac6048409ab3ede83ede8096b3ee6967225497c585f00c0599c2d01fb01dd3c777d1dd2c1dd2c774d1dd31670b59c2c0c048025ad9c2c6712c)
  (.lf 0))) (.nd (.nd (.lf
  0x2dbda42e69134690b9a42d0eed40eed43bb70eed90eedda42d52dfc0eed9a42d58dfc02db9a42d69130690b5a42c0eec80eec83bb40eecd0eed1a42c52df80eecda42c58df802db5a42c6912c690b1a42b0eebc0eebc3bb10eec10eec5a42b52df40eec1a42b58df402db1a42b69128690ada42a0eeb00eeb03bae0eeb50eeb9a42a52df069029637b02fa8427340b6b02d8046d580b8702d9c54d600ba746e5846e591bb646f5946f580ba702d9c02d9da4266911446d5c0b8802da046d600b8902da446d640b8a02da846d680b8b02dac54d640ba846e5c54d680ba946e6054d6c0baa46e6454d700bab46e6846e5d1bb746f5d46e611bb846f6146e651bb946f6546e691bba46f6946f5c0ba802da046f600ba902da446f640baa02da846f680bab02dac0eeb5a42a58df002dada42a69124690a9a4290eea40eea43bab0eea90eea9a42958dec02da9a429691200eeada42952dec690a5a4280ee980ee983ba80ee9d0eea1a42852de80ee9da42858de802da5a4286911c690a1a4270ee8c0ee8c3ba50ee910ee91a42758de40ee95a42752de402da1a427691186909da4260ee800ee803ba20ee850ee89a42652de00ee85a42658de069099a4250ee74)
  (.lf 0)) (.nd (.lf
  0x5dda1b94c6e5ac6e531b94b178b4178b45e2f178b9178bdb94b5fd9c178b9b94b61d9c5dd9db94b6e5a85dd99b94a6e5a46e52db94a178a8178a85e2c178ad178adb94a61d98178b1b94a5fd986e529b9491789c1789c5e29178a1178a1b94961d94178a5b9495fd945dd95b9496e5a06e525b94817890178905e26178955dd91b9486e59c17899b9485fd9017895b94861d906e521b94717884178845e23178891788db9475fd8c17889b94761d8c5dd8db9476e5986e51db94617878178785e201787d17881b9465fd885dd89b9466e5941787db94661d886e519b9451786c1786c5e1d1787117875b9455fd8417871b94561d845dd85b9456e5906e515b94417860178605e1a1786517865b94461d8017869b9445fd805dd81b9446e58c6e511b94317854178545e17178591785db9435fd7c17859b94361d7c5dd7db9436e5886e50db94217848178485e141784d1784db94261d7817851b9425fd786e509b9411783c1783c5e111784117841b94161d745dd69b93e6e57417845b9415fd745dd75b9416e5806e505b94017830178305e0e1783517839b9405fd705dd71b9406e57c17835b94061d706e501b93f178245dd6db93f6e578178245e0b17829)
  (.lf 0)))

def shaGateTree347 : BTree :=
  .nd (.nd (.nd (.lf
  0x3a93e0e150065c3a93a0e15517a03a7de0dd84e7a4837620dd73a7cc3a7cce9f53a7d13a7d60dd74cfa026781dad40396076b51dad32676c2676c99dd2677126771dad34b3a05ceb5dad376bc876bc80e574b3a04b3a20dd7837d8837d933e84e7a04cfa20e15838d0838560e143a9283a928ea4c3a92d3a9320e14006583a92e0e145179c3a7d20dd74e7a08375e0dd63a7c03a7c0e9f23a7c53a7ca0dd64cf9c26775dad30395c76b4ddad2267602676099da2676526765dad24b39c5ceb1dad276bc476bc40e564b39c4b39e0dd6837d4837d533e74e79c4cf9e0e14838cc838520e133a91c3a91cea493a9213a9260e13006543a9220e13517983a7c60dd64e79c8375a0dd53a7b43a7b4e9ef3a7b93a7be0dd54cf9826769dad20395876b49dad1267542675499d72675926759dad14b3985ceaddad176bc076bc00e554b3984b39a0dd5837d0837d133e64e7984cf9a0e13838c88384e0e123a9103a910ea463a9153a91a0e12006503a9160e12517943a7ba0dd54e798837560dd43a7a83a7a8e9ec3a7ad3a7b20dd44cf942675ddad10395476b45dad0267482674899d42674d2674ddad04b3945cea9dad076bbc76bbc0e544b3944b3960dd4837cc)
  (.lf 0)) (.nd (.lf
  0x3bf1008800226c3e6a808bb0226c701a18051621446014408db3e7283e728089b3e7a90226d98d8663dc663dd60ac01c6c3e6a408ba022687019d8050621406014008da3e7243e724089a3e7a50226998d7663d8663d960ab01c680ad6998d901c706636598d80ad580ad582b580ad5d0ad5d98d801c6c0ad6198d8582b06636198d70ad4c0ad4c2b550ad510ad5598d7582ac5a259c0d3703c85a261c0d5703d070355c0d41ae5c1ae5c6b991ae611ae65c0d45c1d01ae61c0d45e1d05a25dc0d4703cc70351c0d31ae501ae506b961ae551ae55c0d35e1cc1ae59c0d35c1cc7034dc0d21ae441ae446b931ae491ae49c0d25e1c81acb80000702d2702d06b2b1aca81aca86b2b582b1664d548ac582b0582b06b2b5a2501acadc0b31ac9c1ac9c6b291aca11aca1c0b35a24c1ae4dc0d25c1c870349c0d11ae381ae386b901ae3d1ae41c0d15c1c41ae3dc0d15e1c4664d148ab582ac582adc0b31acf01acf000005a24e5a251c0d1703c070345c0d01ae2c1ae2c6b8d1ae311ae31c0d05e1c05a24dc0d0703bc1ae35c0d05c1c070341c0cf1ae201ae206b8a1ae257016980436210c6210c08863bef06215408983bf383bef008980224c0ad5198d701c68)
  (.lf 0))) (.nd (.nd (.lf
  0x6ad12b984ae5806ad52b994ae5c816e52c474f99c4f99d2b9a4ae60816e92c484f9a04f9a12b9b4ae64816ed2c494f9a44f9a52b9c4ae68816f12c4a4f9a84f9a92b9d4ae6c816f52c4b4f9ac4f9ad2b9e4ae70816f92c4c4f9b04f9b12b9f4ae74816fd2c4d4f9b44f9b52ba04ae78817012c4e4f9b84f9b92ba14ae7c817052c4f4f9bc4f9bd2ba24ae80817092c504f9c04f9c12ba34ae84529c1ce6d73a30739b5ce6c20e6c20e6c839d20e7120e71ce6c569bc529bdce6c73a2c20e75ce6c549bc739b1ce6b20e6020e60839a20e6520e69ce6b549b820e65ce6b569b8529b9ce6b73a28739adce6a20e5420e54839720e5920e5dce6a549b420e59ce6a569b4529b5ce6a73a24739a9ce6920e4820e48839420e4d20e51ce69549b020e4dce69569b0529b1ce6973a20739a5ce6820e3c20e3c839120e4120e45ce68549ac20e41ce68569ac529adce6873a1c739a1ce6720e3020e30838e20e3520e39ce67549a820e35ce67569a8529a9ce6773a187399dce6620e2420e24838b20e2920e29ce66569a4529a5ce6673a1420e2dce66549a473999ce6520e1820e18838820e1d20e21ce65549a0529a1ce6573a1020e1dce65569a073995ce6420e0c)
  (.lf 0)) (.nd (.lf
  0x8a4592cb51c3400cf192cb64ba864b2d92ca08a3008a30228e08a3553bb0037b438a8438a90e4a439a9439a8037b00cec147c051f2147c5147c5b29355b5851b59b2936cac86cac94ed655b5855b58033b414d008a3592ca57c3008a3992ca51c3000ced92ca64ba464b2992c908a2453bac037a438a4438a50e49439a5439a4037a00ce86cac54ed555b54147c9b29353b586ca4db292147b4147b451ef147b9147b9b29255b5455b54033a414cc00ce992c964ba008a24228b08a2908a2d92c951c2c08a2992c957c2c64b2592c808a1808a18228808a1d08a1d92c857c284379c035800ce0437a0035900ce464bb5471057c4051c41b3ae6cf346ceb9b3ad14fa414fa453eb14fa914fa9b3ad55c3c64bb1470f57c3c14fadb3ad53c3c51c3db3ad6cf306ceb5b3ac14f9864bad470e57c3851c39b3ac6cf2c14f9853e814f9d14f9db3ac55c3814fa1b3ac53c386ceb1b3ab14f8c14f8c53e514f9114f95b3ab53c3464ba9470d57c3451c35b3ab6cf2814f91b3ab55c346ceadb3aa14f8014f8053e214f8514f89b3aa53c3014f85b3aa55c3064ba5470c57c3051c31b3aa6cf246cea9b3a914f7414f7453df14f7914f7db3a953c2c64ba1470b57c2c)
  (.lf 0)))

def shaGateTree348 : BTree :=
  .nd (.nd (.nd (.lf
  0x411140fd641195411180fd7411994111c0fd84119d411200fd9411a1411240fda411a5411280fdb411a94112c0fdc411ad411300fdd411b1411340fde411b5411380fdf411b953741e9527a5c47a549e9512cdf02cdf0b37e2cdf52cdf9e9515573c2cdf5e9515773c5373de9517a5c07a545e9502cde42cde4b37b2cde92cdede950557382cde9e9505773853739e9507a5bc7a541e94f2cdd82cdd8b3782cddd2cde1e94f557342cddde94f5773453735e94f7a5b87a53de94e2cdcc2cdccb3752cdd12cdd5e94e557302cdd1e94e5773053731e94e7a5b47a539e94d2cdc02cdc0b3722cdc52cdc9e94d5572c2cdc5e94d5772c5372de94d7a5b07a535e94c2cdb42cdb4b36f2cdb92cdbde94c557282cdb9e94c5772853729e94c7a5ac7a531e94b2cda82cda8b36c2cdad2cdb1e94b557242cdade94b5772453725e94b7a5a87a52de94a2cd9c2cd9cb3692cda12cda5e94a557202cda1e94a5772053721e94a7a5a47a529e9492cd902cd90b3662cd952cd99e9495571c2cd95e9495771c5371de9497a5a07a525e9482cd842cd84b3632cd892cd8de948557182cd89e9485771853719e9487a59c7a521e9472cd782cd78b3602cd7d2cd81e94755714)
  (.lf 0)) (.nd (.lf
  0xc75c31d90c7610c7619d63586f40c7659d63526f46758d9d620c7500c75031d60c7554586807cb01eac5467007eb4596845969167a45a6945a6807eb01eac01ead9d6267604526f5c9657261072595c9641ea401ea407a921ea451ea45c964566f06760549bc586f00c7599d62526f0526f1c9647260c1ea49c964546f072591c9631ea344586407ca01ea85466c07ea4596445965167945a6545a6407ea01ea81ea347a8f1ea391ea3dc963546ec0c7559d62586f0675899d610c7440c74431d30c7490c74d9d61526ec01ea99d61676006760149bb586ec526edc963726081ea39c963566ec7258dc9621ea281ea287a8c1ea2d1ea31c962546e80c7499d61586ec675859d600c7380c73831d00c73d0c7419d60526e84586007c901ea45466807e94596045961167845a6145a6007e901ea401ea59d60675fc0c73d9d60586e8675819d5f0c72c0c72c31cd0c7310c7319d5f586e44585407c601e984585807c701e9c4585c07c801ea05465c07e6459545466007e7459585466407e84595c45955167545a5545959167645a594595d167745a5d45a5407e601e9845a5807e701e9c45a5c07e801ea00c7359d5f526e401ea19d5f675f86757d9d5e0c720)
  (.lf 0))) (.nd (.nd (.lf
  0x26011d9d24b2fc25eb5d9955ee1476655d99425ea425ea497ab25ea925eadd9945ce1025ce0973625cd425cd4973658efd58efc97365ae4c5ae4dd994766cc766cd73845ee105ce11d9d2767c4767c40e2e4b2fc4b2fe0d14834cc834cd33bf4e6fc4e6fe0d90836bc836420d8f3a5ec3a5ece97d3a5f13a5f60d8f001343a5f20d8f4fef83a3320d144cefc834520d133a31c3a31ce8c93a3213a3220d134e6f83611601b250efc806ca01b13610436104d843361093610e01b14b2f84c6fa01b180740807412cbe50ef80f47da52552efc69495a5240f4680f4683d1c0f46d0f46da52458ef802eb5a5246950c6950d4bbe58ef826015d9d2038b876749d9d1260002600098022600526005d9d14b2f825ea9d9945ee1076651d99325e9825e9897a825e9d25ea1d9935ce0c25cd8976625cc825cc8973425ccd25ccc97665ae4858ef8976625de025de000005ae4a5ae49d993766c8766c973835ee0c5ce0dd9d1767c0767c00e2d4b2f84b2fa0d13834c8834c933be4e6f84e6fa0d8f836b88363e0d8e3a5e03a5e0e97a3a5e53a5ea0d8e001303a5e60d8e4fef43a3260d134cef88344e0d123a3103a310e8c63a3153a3160d124e6f43610a01b150ef8)
  (.lf 0)) (.nd (.lf
  0x9b6995d9012106576595d809b580170d95d8657dc657dd5fd40120c658d547d457f5009b5826d809b5d09b6195d857f5057f50608059f2059f2dbac46eb8c18391bac45de706eb11bac3183801838060e21838518385bac35de6c18318000059f2659f25bac26eb846eb856f9a5de6818389bac35be6c1831c000059f2a59f29bac36eb886eb0dbac2183741837460df1837918379bac25de686eb916f9d5de741837dbac25be686eb09bac1183681836860dc1836d18371bac15be646eb896f9b5de6c59f21bac16eb8018521bb05019246ec15bb041850c1850c61451851118515bb040192018511bb044a3646eb956f9e5de785be79bb046ec8c6ec11bb03185001850061421850518509bb030191c18505bb034a3605be75bb036ec886ec0dbb02184f4184f4613f184f9184fdbb0201918184f9bb024a35c6eb8d6f9c5de705be71bb026ec846ec09bb01184e8184e8613c184ed184f1bb0101914184edbb014a3585be6dbb016ec806ec05bb00184dc184dc6139184e1184e5bb0001910184e1bb004a3545be69bb006ec7c6ec01baff184d0184d06136184d5184d9baff0190c184d5baff4a3506eb816f995de645be65baff6ec786ebfdbafe184c4)
  (.lf 0)))

def shaGateTree349 : BTree :=
  .nd (.nd (.nd (.lf
  0x6a09d4c7a591e8039fda7e069ffc69f81a7df104ac104ac412d104b1104b1a7df042f8104b5a7df5923c039f9a7df69ff869f7da7de104a0104a0412a104a5104a9a7de59238039f5a7de69ff4104a5a7de042f469f79a7dd10494104944127104991049da7dd5923410499a7dd042f0039f1a7dd69ff069f75a7dc10488039eda7dc69fec1048841241048d10491a7dc592301048da7dc042ec69f71a7db1047c1047c41211048110485a7db5922c039e9a7db69fe810481a7db042e8039d1a7d569fd069f6da7da1047010470411e1047510479a7da5922810475a7da042e4039e5a7da69fe469f69a7d91046410464411b1046910469a7d9042e01046da7d959224039e1a7d969fe069f65a7d810458039dda7d869fdc1045841181045d10461a7d8592201045da7d8042dc69f61a7d71044c1044c41151045110455a7d75921c10451a7d7042d8039d9a7d769fd869f5da7d6104401044041121044510445a7d6042d410449a7d659218039d5a7d669fd469f59a7d51043410434410f104391043da7d55921410439a7d5042d069f55a7d41042810428410c1042d1042da7d4042cc10431a7d459210039b5a7ce69fb4039cda7d469fcc69f51a7d31041c)
  (.lf 0)) (.nd (.lf
  0x1b7686ddc1b76d1b76dc246622141b771c246602145e215c2467099470919c2451b75c1b75c6dd91b7611b765c245602101b761c245622105e211c2457099070915c2441b7501b7506dd61b7551b759c2446020c1b755c2446220c70911c2431b7441b7446dd31b7491b749c243622081b74dc243602085e209c243709887090dc2421b7381b7386dd01b73d1b741c242602041b73dc242622045e205c242709845e201c2417098070909c2411b72c1b72c6dcd1b7311b731c241622001b735c2416020070905c2401b7201b7206dca1b7251b729c240601fc5e1f9c23f709785e1fdc2407097c1b725c240621fc70901c23f1b7141b7146dc71b7191b719c23f621f81b71dc23f601f8708fdc23e1b7081b7086dc41b70d1b711c23e601f41b70dc23e621f45e1f5c23e70974708f9c23d1b6fc1b6fc6dc11b7011b701c23d621f05e1f1c23d70970709cd80936224c1b705c23d601f0708f5c23c1b6f01b6f06dbe1b6f51b6f9c23c601ec1b6f5c23c621ec5e1edc23c7096c708f1c23b1b6e41b6e46dbb1b6e91b6edc23b601e81b6e9c23b621e85e1e9c23b70968708edc23a1b6d81b6d86db81b6dd5e1e5c23a709641b6ddc23a621e41b6e1c23a601e4)
  (.lf 0))) (.nd (.nd (.lf
  0x5e9a9d119744e0221e1d119609a8221ddd119629a874465d118221cc221cc8875221d1221d5d118609a4221d1d118629a45e9a5d118744dc74461d117221c0221c08872221c55e9a1d117744d8221c9d117609a0221c5d117629a07445dd116221b45e99dd116744d45e985d110744bc221b4886f221b9221b9d1166299c221bdd1166099c74459d115221a8221a8886c221ad221b1d11560998221add115629985e999d115744d074455d1142219c2219c8869221a1221a1d114629945e995d114744cc221a5d1146099474451d11322190221908866221955e991d113744c822199d1136099022195d113629907444dd11222184221848863221892218dd1126098c22189d1126298c5e98dd112744c474449d111221782217888602217d22181d111609882217dd111629885e989d111744c074445d1102216c2216c885d2217122175d1106098422171d1106298474441d10f2216022160885a2216522169d10f609805e981d10f744b822165d10f629807443dd10e221545e97dd10e744b42215488572215922159d10e6297c2215dd10e6097c74439d10d221482214888542214d2214dd10d629785e979d10d744b022151d10d6097874435d10c2213c)
  (.lf 0)) (.nd (.lf
  0x57dbc59a2166d41668859a11663016630598e166351663459a159d8c5b9e9b2166c8d408d65936e00f9464db9936d08d5415fadb5cc5bbec6d731b5cb15f98144f5b21749ed86c85db216144e4144e4513b144e9144edb2160149053c5403a443b4c43b4d0ef343c4d43c4c03a400d9043a4c038400d9000d9193ab64f286c8d4052449ed464f29473557cd408d54235708d5908d5d936d57cd43db4c0544014905fb6805643dbcc3dbcc05243dc4d01491936d64e3008ed193ac51cd864eb193ab08ebc08ebc23b108ec108ec193ab57cd464e315f3500f9015df4000015efa15ef8577a15de415de4577a57cd557cd4577a59ca815cc5b59153ce46d645b59015cb015cb0572e15cb515cb5b59055ce051ce1b5906d6bc6d6bd4f3855ce055ce0039d416586d6e14f4155d0455d0403864167c4167c039d00e48091619403010786500d9402091500915024560915509159940257db81627db6485fbec6d921b6471626816268589c1626d1626db64761be815f9857e815f9d15f9db5cb5dbe859ca9b5cb6d7a86d7a96efa5dbe85dbe9b6476d9986d9fd7f1361c4c6d9e57f0d61c346d70d4f4c55d3014cd9b33149fbc6ccc5b33014cc814cc8533414ccd)
  (.lf 0)))

def shaGateTree350 : BTree :=
  .nd (.nd (.nd (.lf
  0x2ac81e46e5d364791b9e46d2ac6c2ac6cab1d2ac712ac71e46d5f3602ab34aacb2ab282ab28aacb5944d5d161e0ad78330783300f02001082919de0ae0010c782b9e0ad2918c2918ca4652919129195e0ad03c0803c09aa2f6a9386a939651304508112e9aa6e534506a9b9aa6d112d4112d444b7112d9112d9aa6d5944c04309aa6d6aa306aa314d135944c1117daa300450c6a8c1aa2f1116c1116c445d1117111175aa2f5944c5944caacb5b3745b375e46d792307923174d85f3605f361e4e979420793a5e4e82af302af30abce2af352af39e4e86135c2af35e4e86335c2ac75e46d5d360791b5e46c2ac602ac60ab1a2ac652ac65e46c5f35c2ab2d6cdb2ab242ab256cdb594495d15de0ac7832c7832c0f010010429191e0ad00108782b5e0ac2918029180a4622918529189e0ac03c0403c05aa2e6a9346a935651204504112ddaa6d5344c6a9b5aa6c112c8112c844b4112cd112cdaa6c5944804305aa6c6aa2c6aa2d4d125944811171aa2f045086a8bdaa2e1116011160445a1116511169aa2e59448594496cdb5b3705b371e46c7922c7922d74d75f35c5f35de4e87941c2ac69e46c5d35c29185e0ac001045d1580f0000100782b00f0000101)
  (.lf 0)) (.nd (.lf
  0x7187409b54a9187184409a94a8e87188409b94a9287186409b14a9087189c09bf4a9407189409bd4a9380bba19b68524c83eb3c0940024806035809603ebbc3ebbc09203ec3d0ba359b2a01e8466ca9613101e814523c074001c805444407604533c4533d14ef4543d4543c076001c8002481613101e8001c814931584c466da14931584c5584c400005a4565a45570f65e3d81d1edc5ee4a8d81d1f1c5ee02694717b9c5ed1d1dc1d1dc74791d1e11d1e1c5ed4a8d47173570f95e3e45c3e5c5ec7182c7173970fa5e3e85c3e9c5ed718301d1e5c5ed02690717b5c5ec1d1d01d1d074761d1d51d1d5c5ec4a8d01d1d9c5ec0268c717b1c5eb1d1c41d1c474731d1c91d1cdc5eb026881d1c9c5eb4a8cc7173170f85e3e05c3e1c5eb71828717adc5ea1d1b81d1b874701d1bd1d1bdc5ea4a8c87189809be4a93c7189009bc4a9347188809ba4a92c7188009b84a9247187809b64a91c7187009b44a9147186809b24a90c7186009b04a9047185809ae4a8fc7185009ac4a8f47184809aa4a8ec7184009a84a8e47183809a64a8dc7183009a44a8d47182809a24a8cc1d055c5ac5e3dc716b170f65e3d95c3d809a04a8c41d1c1c5ea026847188c09bb4a930)
  (.lf 0))) (.nd (.nd (.lf
  0x754d182ed62bb462bb40d303c998754d582ee62bb862bb80d313c99c754d982ef62bbc62bbc0d323c9a0754dd82f062bc062bc00d333c9a4754e182f162bc462bc40d343c9a8754e582f262bc862bc80d353c9ac754e982f362bcc62bcc0d363c9b0754ed82f462bd062bd00d373c9b4754f182f562bd462bd40d383c9b83c93c0d2b034983c9400d2c0349c3c9440d2d034a03c9480d2e034a43c94c0d2f034a83c9500d30034ac3c9540d31034b03c9580d32034b43c95c0d33034b83c9600d34034bc3c9640d35034c03c9680d36034c43c96c0d37034c83c9700d38034cc3c9740d39034d03c9780d3a034d43c97c0d3b034d83c9800d3c034dc3c9840d3d034e03c9880d3e034e43c98c0d3f034e83c9900d20034ec3c9940d21034f03c9980d22034f43c99c0d23034f83c9a00d24034fc3c9a40d25034803c9a80d26034843c9ac0d27034883c9b00d280348c3c9b40d29034903c9b80d2a0349452cc1d455751d075155d45423944239448e53239492394dd45454cbc23949d45456cbc52cbdd454751cc75151d45323938239388e502393d23941d45354cb82393dd45356cb852cb9d453751c87514dd4522392c2392c8e4d2393123935d45254cb4)
  (.lf 0)) (.nd (.lf
  0x939c24e9093a1093a19473010c86dac54f6255d886dabd4f6055d806da914f5555d546daed4f6c55db055d5403ba416cc55d8003a5416f855db003b141728416cc03b100e98416f803bc00ec443d8003d100ec453d8803f143e8043e810fc043f8143f8003f100ec400ec594b06533c6dd857f1d61c7461c7405603ba583ba580572015b43dd840592015c85fca005b23de043de0405723de85015c9947365248093a5947357e0c651cd9472093903ba4c056f015a83dd78058f015bc5fc9405af3ddf83ddf8056f3de79015bd94706523c3ba540571015b03dd800591015c45fc9c05b13de003de0005713de81015c59472652443ba500570015ac3dd7c0590015c05fc9805b03ddfc3ddfc05703de7d015c19471652400939024e60939509399947257e08093959472010c4651c99471093840938424e309389093899471010c00938d947157e04651c59470093780937824e00937d09381947057e000937d9470010bc651c1946f0936c0936c24dd0937109371946f010b83ba40056c0159c3ba44056d015a03ba48056e015a409375946f57dfc3dd6c058c015b03dd70058d015b43dd74058e015b85fc8805ac3ddec5fc8c05ad3ddf05fc9005ae3ddf4)
  (.lf 0)))

def shaGateTree351 : BTree :=
  .nd (.nd (.nd (.lf
  0x4c8de0492812c4812c52d37510dc69bb964370419827c4dddba03a9c776e9ddb927c3827c389f1027c3d27c3dddb94b4dc27ae1dd7c5eff4775f1dd7b27ad027ad09eb627ad527ad9dd7b5cff02796c0000775a2775a1dd6727958279589e582795d2795ddd675b01c590dddd6727a5827a5800005b01e5b01ddd7b776687766973fc5eff05cff1ddb977760777600ea64b4dc4b4de0ff48404c8404d34374e8dc4d0de103284144840ca10313b5043b504ed433b5093b50e1031007943b50a1031518d83b3ae0ff44e8dc83fd20ff33b39c3b39cece93b3a13b3a60ff34d0d8398f60b5a4fd5c82d6a0b59398e4398e4e63b398e9398ee0b594b4d83962a0ade4cd5c82b7a0add3961439614e587396193961a0add4e5584b15a0add82bf082bf133564e5584e55a0b5982de082de12d364fd58371960492510dc8124a04913718437184dc63371893718e04914b4d84c8da0491812c0812c12d36510d869cad4c36590d869bb564360419427c41ddb903a98776e5ddb827c2c27c2c9f0d27c3127c31ddb84b4d827ad5dd7b5eff0775eddd7a27ac427ac49eb327ac927acddd7a5cfec2796000007759e7759c9e5527950279509e55590d9590d89e555b018)
  (.lf 0)) (.nd (.lf
  0xa81d9808581586602198070a80c0a80c2a050a8110a815980752154447cc04a401210540d40684448cc448cd1253449cd449cc068401210012119807660980a8119807581546601d98060a8000a8002a020a8050a8099806521500a805980658150447c804a30120c540d00683448c8448c91252449c9449c806830120c0120d9806660946601998050a7f40a7f429ff0a7f90a7fd98055214c0a7f998055814c447c404a201208540cc0682448c4448c51251449c5449c4068201208012099805660906601598040a7e80a7e829fc0a7ed0a7f19804521480a7ed980458148447c004a101204540c80681448c0448c11250449c1449c00681012040120598046608c660c9486158184660cd486258188660c1485f5817c4d84529f14f0444d849f8717e24032b09f8714f0487e1c529f14f0454f045295b064507e24129f24f0484f049295c064547e24529f34f04c4f04d295d064587e24929f44f0504f051295e0645c7e24d29f54f0544f055295f064607e25129f64f0584f0592960064647e25529f74f05c4f05d2961064687e25929f84f0604f06129620646c7e25d29f94f0644f0652963064707e26129fa4f0684f0692964064747e26529fb4f06c)
  (.lf 0))) (.nd (.nd (.lf
  0x7366dcd9a209142091482472091920919cd9a5e7f045e540846020985485c086645f5445f5517f54605546054086602098207b400007361e7361c81ea207a4207a481ea588dd020999f4d67db067db14a37588dc728200a264aadc028999f0f67cb867cb9623702a980d2699f4e528e067d399f4d0d2540d25434970d2590d2599f4d588dc0d0fd9f1002a9c67c419f0f0d0ec0d0ec343d0d0f10d0f59f0f588dc588dc81ea5a84c5a84dcd9a736e42091dcd9a5c7f073669cd99209082090882442090d20911cd995c7ec45e5008450209454858086545f5045f5117f446051460500865020942090dcd995e7ec207a881e82079c2079c81e8588d90d0f19f0f02a9867c3d9f0e0d0e00d0e0343a0d0e50d0e99f0e588d87281c0a254aad80d25d9f4d528dc028959f0e67cb467cb5623602a9467d359f4c0d2480d24834940d24d0d24d9f4c588d8020959f4c67dac67dad4a36588d8588d881e85a8485a849cd99736e073665cd98208fc45e4c08440209054854086445f4c45f4d17f34604d4604c086402090207a081e6207942079481e6588d50d0e59f0e02a9467c399f0d0d0d40d0d434370d0d90d0dd9f0d588d4728180a244aad4028919f0d67cb0)
  (.lf 0)) (.nd (.lf
  0x13f59b14b619786c52db14a13f4813f484fd413f4d13f4db14a6197413f51b14a5f97413c8db0cf5b9786c33db0ce13c7813c784f2013c7d13c7db0ce5d9746c3b56e5d5d9745d975b14a6c5a46c529b14913f3c13f3c4fd113f416c5d97e6a619a80715d8e980089c13c81b0ce5b9746c339b0cd13c6c13c6c4f1d13c715f8f004c63d6d48471d8e9763ad863ad92d770089863a618e970714c0714c1c5507151071558e974b5dc3d6d52d773d7553b7292d774b5c84b5dd91036448813ae8000013bd213bd04ef313ad413ad44eb713ad964581469757a5c07f6d910400d1c64411910307f5c07f5c1fd907f61644895e9700d1807f65910357a5c57a5c4ef313c04619a92d5e3b78c13c04000059a4e13ad84ef359a4c3d7b804df4b5c063a452d700087c6c5ed7e6f619bc59a4db0cd6c3b013c71b0cd5d9706c3b16e5c5d9705d971b1496c5a06c5a17e5c6197013f41b14961970619712d703b754619bd2d633b7a03b78d2d704b5ac3b7a12d554b5c04b5c19198646dc6466191970834c0834c20d50835108351919700df813c75b0cd5b9706c335b0cc13c6013c604f1a13c6513c69b0cc5b96c539d00303433c8071518e970089863a5d8e9607140)
  (.lf 0)))

def shaGateTree352 : BTree :=
  .nd (.nd (.nd (.lf
  0x499c4026049a45499c8026149a49499cc026249a4d499d0026349a51499d4026449a55499d8026549a59499dc026649a5d499e0026749a61499e4026849a65499e8026949a69499ec026a49a6d499f0026b49a71499f4026c49a75499f8026d49a79499fc026e49a7d49a00026f49a8149a04027049a8549a08027149a8949a0c027249a8d49a10027349a9149a14027449a9549a18027549a9949a1c027649a9d49a20027749aa149a24027849aa549a28027949aa949a2c027a49aad49a30027b49ab149a34027c49ab549a38027d49ab949a3c027e49abd49a40027f49ac149a4402200090049a4802210090449a4c02220090849a5002230090c49a5402240091049a5802250091449a5c02260091849a6002270091c49a6402280092049a6802290092449a6c022a0092849a70022b0092c49a74022c0093049a78022d0093449a7c022e0093849a80022f0093c49a8402300094049a8802310094449a8c02320094849a9002330094c49a9402340095049a9802350095449a9c02360095849aa002370095c49aa402380096049aa802390096449aac023a0096849ab0023b0096c49ab4023c0097049ab8023d0097449abc023e0097849ac0023f0097c)
  (.lf
  0x4b7ed914564590645159144080e8080e8203c080ed080ed914457a68539e80309433e0433e10d18434e1432e12dda4b7e863ec52dfa00aa4434e003094b7e84b7e991446458c080f1914451a68645119143080dc539e40308433dc433dd0d17434dd434dc03084b7e4080dc2039080e1432d92dd84b7e0433d90d16434d9434d803074b7e063ebd2df800a9c4b7e191426458463ec12df900aa0432dd2dd94b7e44b7e5914364588080e1914357a64080e5914351a646450d9142080d0080d02036080d5080d9914251a60080d5914257a60645099141080c4080c42033080c9080c9914157a5c539dc0306433d4433d50d15434d5434d403064b7dc080cd914151a5c432d52dd74b7dc63eb92df700a984b7dd914164580645059140080b86457d469657a58080b82030080bd080c1914051a5851a59b08e6c2b46c2b54e9655a5807ce5908e00cb464239908d07cd407cd41f3707cd907cdd908d579f4847b18eda63be4847b58edb63be80730d8edc0093463b718edb072fc072fc1cc107301073018edb00930073058edb4b67463b6d8eda072f0072f01cbe072f5072f98eda4b670072f58eda0092c63b698ed9072e4072e41cbb072e9072ed8ed94b66c))
  (.nd (.lf
  0x1ffe87ffc1ffed1fff1cc625489052891cc62732041ffedcc625689073189cc611ffdc1ffdc7ff91ffe11ffe5cc615488c1ffe1cc615688c5288dcc617320073185cc601ffd01ffd07ff61ffd552889cc60731fc1ffd5cc60568881ffd9cc605488873181cc5f1ffc41ffc47ff31ffc91ffcdcc5f548841ffc9cc5f568847317dcc5e1ffb81ffb87ff01ffbd1ffbdcc5e568801ffc1cc5e5488052881cc5e731f473179cc5d1ffac1ffac7fed1ffb11ffb5cc5d5487c1ffb1cc5d5687c5287dcc5d731f073175cc5c1ffa01ffa07fea1ffa51ffa9cc5c548781ffa5cc5c5687852879cc5c731ec73171cc5b1ff941ff947fe71ff991ff9dcc5b5487452871cc5a731e41ff99cc5b5687452875cc5b731e87316dcc5a1ff881ff887fe41ff8d1ff91cc5a548701ff8dcc5a5687073169cc591ff7c1ff7c7fe11ff811ff81cc595686c5286dcc59731e01ff85cc595486c73165cc581ff701ff707fde1ff751ff79cc585486852869cc58731dc1ff75cc585686873161cc571ff641ff647fdb1ff691ff69cc575686452865cc57731d81ff6dcc57548647315dcc561ff581ff587fd81ff5d1ff61cc565486052861cc56731d41ff5dcc565686073159cc551ff4c)
  (.lf 0))) (.nd (.nd (.lf
  0x69c6da71a0fff00fff03ffe0fff50fff5a71a591100fff9a71a53110030cda71a69ce469c69a7190ffe40ffe43ffb0ffe90ffeda7195310c030bda71669cd4030c1a71769cd80ffe9a7195910c030c9a71969ce069c65a7180ffd80ffd83ff80ffdd030c5a71869cdc0ffe1a718531080ffdda7185910869c61a7170ffcc0ffcc3ff50ffd10ffd5a717531040ffd1a7175910469c5da7160ffc00ffc03ff20ffc50ffc5a716591000ffc9a7165310069c59a7150ffb40ffb43fef0ffb9030b9a71569cd00ffbda715530fc0ffb9a715590fc69c55a7140ffa80ffa83fec0ffad0ffb1a714530f80ffada714590f8030b5a71469ccc69c51a7130ff9c0ff9c3fe90ffa10ffa5a713530f4030a1a70f69cb80ffa1a713590f4030b1a71369cc869c4da7120ff900ff903fe60ff950ff95a712590f00ff99a712530f0030ada71269cc469c49a7110ff840ff843fe30ff890ff8da711530ec030a9a71169cc00ff89a711590ec69c45a7100ff780ff783fe00ff7d0ff7da710590e80ff81a710530e8030a5a71069cbc69c41a70f0ff6c0ff6c3fdd0ff710ff71a70f590e40ff75a70f530e469c3da70e0ff600ff603fda0ff650ff65a70e590e00ff69a70e530e0)
  (.lf 0)) (.nd (.lf
  0x32dadf8c94c1307e325f8c832d9832d98cb6832d9d32da1f8c84c12c32d9df8c84d92c6f8ac08ba4a52c4a52df8c87e39c7e321f8c732d8c32d8ccb6532d9132d95f8c74c1286f8a808b94a5284a529f8c77e3987e3a9304e4d9384c139f9097e4a032f29f909509387e425f90832f1832f18cbc832f1d32f1df908509347e3a5304d4d9344c135f9087e49c32f21f9084ad347e421f90732f0c32f0ccbc532f1132f15f9074ad3032f11f907509307e3a1304c4d9304c131f9077e4987e41df90632f0032f00cbc232f0532f09f9064ad2c7e399304a4d9284c129f9057e49032f05f9065092c7e39d304b4d92c4c12df9067e4947e419f90532ef432ef4cbbf32ef932ef9f9055092832efdf9054ad287e415f90432ee832ee8cbbc32eed32ef1f9044ad246f8a408b84a52432d91f8c74d9287e31df8c632d8032d80cb6232d8532d89f8c64c1244a525f8c67e3947e39530494d9244c125f9047e48c32eedf904509247e411f90332edc32edccbb932ee132ee5f9034ad2032ee1f9035092032d85f8c64d9247e319f8c532d7432d74cb5f32d7932d79f8c54d92032d7df8c54c1206f8a008b74a5204a521f8c57e3907e315f8c432d687e39130484d920)
  (.lf 0)))

def shaGateTree353 : BTree :=
  .nd (.nd (.nd (.lf
  0x28a41dfb403b845d0dddfb477f4c77f4c0ee1000841100da9f1533cc6a7c5a9f010ff810ff8440010ffd10ffda9f0593c804285a9f06a83c6a83d4cf2593c810ea1a9b3044886a6cda9b210e9010e9043a610e9510e99a9b2593c803b85a9b26a7446a74564f204484593c800005b2f25b2f1e36978e2078e2174b75f2dc5f2dde3e5790102a58de3695d2dc28a3ddfb4000845d0d80ee00008077ed00ee00008111001a9f0533c8042814cf1593c46a7c14cf1593c510e95a9b20448403b8164f1044806a6c964f104481593c574b65f2d878da574b65f2d95f2d984b6632d878f9584b6632d9632d80f193d0bc7901184b7632dc632dc0f1a3d0c07901584b8632e0632e00f1b3d0c47901984b9632e4632e40f1c3d0c87901d84ba632e8632e80f1d3d0cc7902184bb632ec632ec0f1e3d0d07902584bc632f0632f00f1f3d0d47902984bd632f4632f40f003d0d87902d84be632f8632f80f013d0dc7903184bf632fc632fc0f023d0e07903584c063300633000f033d0e47903984c163304633040f043d0e87903d84c263308633080f053d0ec7904184c36330c6330c0f063d0f07904584c463310633100f073d0f47904984c563314633140f083d0f8)
  (.lf 0)) (.nd (.lf
  0x1c68dc469544541c689c46956454711a5c4681c6781c67871a01c67d1c681c468544501c67dc46856450711a1c4671c66c1c66c719d1c6711c671c4675644c5644c073841dc47121d51145645056450073941dc856454073a41dcc56470072141de871241511d5647456474072241dec71245511e5647856478072341df07126951275649c5649c072c41e147126d5128564a0564a0072d41e18712715129564a4564a4072e41e1c41de8073801cb441dec073901cb841df0073a01cbc41e14072301ce041e18072401ce441e1c072501ce80bcc99b815852c452a0075901ce4544a80779453a0453a11508454a1454a0077901ce401ce59b8066e7c452a4075a01ce8544ac077a453a4453a51509454a5454a4077a01ce801ce99b8166e8066e059b800bcb80bcb82f300bcbd0bcbd9b80585280bcc19b805252866e019b7f0bcac0bcac2f2d0bcb10bcb19b7f585240bcb59b7f525244529c075801ce0544a407784539c4539d15074549d4549c077801ce001ce19b7f66e7866dfd9b7e0bca01c675c4675444c7119dc4661c6601c660719a1c6651c669c466544480bca02f2a0bca50bca59b7e5852052449c46671214712155112564481c665c46656448)
  (.lf 0))) (.nd (.nd (.lf
  0xe64039920e6450e649a2b652c700e645a2b658c70425b40b0b02c00468e80b2b02c2c54bf00b4b469e8469e91a9a46ae946ae80b4b02c2c02c2da2b668b5468ad9a2b50e6340e634398f0e6390e63da2b552c6c0e639a2b558c6c468e40b2a02c2854bec0b4a469e4469e51a9946ae546ae40b4a02c2802c29a2b568b5068ad5a2b40e6280e628398c0e62d0e631a2b452c680e62da2b458c68468e00b2902c2454be80b49469e0469e11a9846ae146ae00b4902c2402c25a2b468b4c68ad1a2b30e61c0e61c39890e6210e625a2b352c640e621a2b358c643fa3c0d20034003fa400d21034043fa440d22034083fa480d230340c3fa4c0d24034103fa500d25034143fa540d26034183fa580d270341c3fa5c0d28034203fa600d29034243fa640d2a034283fa680d2b0342c3fa6c0d2c034303fa700d2d034343fa740d2e034383fa780d2f0343c3fa7c0d30034403fa800d31034443fa840d32034483fa880d330344c3fa8c0d34034503fa900d35034543fa940d36034583fa980d370345c3fa9c0d38034603faa00d39034643faa40d3a034683faa80d3b0346c3faac0d3c034703fab00d3d034743fab40d3e034783fab80d3f0347c60ad80d403fabc)
  (.lf 0)) (.nd (.lf
  0x4bd3df33a7cd6430d79f33a4a93c30d75f33a5053c7cce9f33930d6430d64c35b30d6930d6df3394a93830d69f339505387cc652f4d4d5347cc692f4e4d5384bd39f3397cd607cce5f33830d5830d58c35830d5d30d61f3384a93430d5df338505344bd35f3387cd5c7cce1f33730d4c30d4cc35530d517cc612f4c4d5304bd31f3377cd5830d51f3375053030d55f3374a9307ccddf33630d4030d40c35230d4530d49f3364a92c7cc592f4a4d5284bd29f3357cd5030d45f3365052c7cc5d2f4b4d52c4bd2df3367cd547ccd9f33530d3430d34c34f30d3930d3df3354a92830d39f335505287ccd5f33430d2830d28c34c30d2d30d2df3345052430d31f3344a9247cc552f494d5247cc512f484d5204bd25f3347cd4c7ccd1f33330d1c30d1cc34930d2130d21f333505204bd21f3337cd4830d25f3334a9207cccdf33230d1030d10c34630d157cc4d2f474d51c4bd1df3327cd4430d19f3324a91c30d15f3325051c7ccc9f33130d0430d04c34330d0930d0df3314a91830d09f331505187cc492f464d5184bd19f3317cd407ccc5f33030cf830cf8c34030cfd7cc452f454d5147cc412f444d5104bd15f3307cd3c30cfdf3305051430d01f3304a914)
  (.lf 0)))

def shaGateTree354 : BTree :=
  .nd (.nd (.nd (.lf
  0x7a105e8402c6802c680b1a22c6852c689e840556982c685e8405769853699e8407a17c7a101e83f2c6742c674b19f2c6792c67de83f556942c679e83f5769453695e83f7a1787a0fde83e2c6682c668b19c2c66d2c671e83e556902c66de83e5769053691e83e7a1747a0f9e83d2c65c2c65cb1992c6612c665e83d5568c2c661e83d5768c5368de83d7a1707a0f5e83c2c6502c650b1962c6552c659e83c556882c655e83c5768853689e83c7a16c7a0f1e83b2c6442c644b1932c6492c64de83b556842c649e83b5768453685e83b7a1687a0ede83a2c6382c638b1902c63d2c641e83a556802c63de83a5768053681e83a7a1647a0e9e8392c62c2c62cb18d2c6312c635e8395567c2c631e8395767c5367de8397a1607a0e5e8382c6202c620b18a2c6252c629e838556782c625e8385767853679e8387a15c7a0e1e8372c6142c614b1872c6192c61de837556742c619e8375767453675e8377a1587a0dde8362c6082c608b1842c60d2c611e836556702c60de8365767053671e8367a1547a0d9e8352c5fc2c5fcb1812c6012c605e8355566c2c601e8355766c5366de8357a1507a0d5e8342c5f02c5f0b17e2c5f52c5f9e834556682c5f5e83457668)
  (.lf 0)) (.nd (.lf
  0x1e51879451e4000c4419ce052658673819cdf0c42c0c42c310d0c4310c4319cdf58654673016195020105865479451e5581e40079021e4051e40479455a5e01e55800005a5e25a5e1c8a37230872309715a5e5681e5bdc8a35c5685c569c8e1724001e71c79c91e7211e725c8e1028101e721c8e14aa5472385c8e01e7101e71079c61e7151e715c8e04aa507246c0a1f4aac0724680a1e4aabc3ee4809a30260c604e409c33eec83eec809833ef491e719c8e00280c0c2c99ca102010672859ca00c2b80c2b830b00c2bd0c2c19ca0586501e5b9c8a35e5687228dc8a21e5a81e5a8796c1e5ad456c807a301e0c545d007c3457c8457c91612458c9458c807c301e0c01e0d9cde673f4673f54994586501e40800001e5161e51479441e3f41e3f478ff1e3f91e3f879445a5dc0c4359cdf526546737d9cde0c4200c420310a0c4250c4259cde586500260d9ca0672fc672fd61940200c5865079441e5541e55400005a5de5a5ddc8a2723047230571595e5641e5b1c8a25c5645c565c8e0723fc72381c8df1e7041e70479c31e7091e709c8df4aa4c3ee4409a202608604e009c23eec43eec409823ef451e70dc8df028080c2bd9ca00200c456c407a201e08)
  (.lf 0))) (.nd (.nd (.lf
  0x25719d8975cd7c7625dd896257042570495c32570925709d8965ed78255b0956a255a4255a4956a58e6558e64956a5adb45adb5d896762d4762d5735e5ed785ed79d912764c476449d911259c8259c89674259cd259d1d91160d74259cdd91162d742570dd8965cd7876259d895256f8256f895c0256fd256fdd8955ed74255a9d884255982559895682559d2559dd8845adb058e61d884256882568800005adb25adb1d895762d0762d1735d5ed745ed75d911764c076445d910259bc259bc9671259c1259c5d91060d70259c1d91062d7025701d8955cd7476255d894256ec256ec95bd256f1256f1d8945ed70255a00000762127621095652559025590956558e5d58e5c95655adac5adadd894762cc762cd735c5ed705ed71d910764bc76441d90f259b0259b0966e259b5259b9d90f60d6c259b5d90f62d6c256f5d8945cd7076251d893256e0256e095ba256e5256e5d8935ed6c25595d883255842558495632558925589d8835ada858e59d883256842568400005adaa5ada9d893762c8762c9735b5ed6c5ed6dd90f764b87643dd90e259a4259a4966b259a9259add90e60d68259a9d90e62d68256e9d8935cd6c7624dd892256d4256d495b7256d9)
  (.lf 0)) (.nd (.lf
  0x6e9817f8561e1461e1405c83bbf83bbf805da017543e0a405fa017686e9ad7f9061e405fe40061a3e1243e12405da3e1a50176995ef65838658395feb012686e9557f7a61de861de805dd3bbcc6e98d7f8861e2061e2005cb3bc046e9a17f8d61e3461e3405d03bc183bc0405dd017603bc1805c2017746e9b97f9361e4c3e0b005fd017745fe4c061d3e1303e13005dd3e1b10177595f265844658455fee012746e69d4fc155f0409e0d963151fbc658c5963009df809df8278009dfd09dfd963057fb86e6794fb855ee055ee0041d4185855f0404064187c6e6c94fcc55f3055f300411418a84187c041d01048418a804080107444230043d0107453f38045d443304433110ec4443144430045d010740107596306593c6593d47ee57fb809ca195f301278657cd95f209c9009c90272609c9509c9995f257fb857fb9babd1834c1834c000059f8a18311babd183001830060c21830518305babd59f8859f89badb6ebe8184a9badb5becc6eb6dbada1849417f25ba335fddc6e8cd7f7661dd95ddd97f7661dd861dd805d93bbbc6e94d7f7861de061de005db3bbc461e1005c73bbf46e9857f8661e1861e1805c93bbfc6e9997f8b61e2c61e2c05ce3bc10)
  (.lf 0)))

def shaGateTree355 : BTree :=
  .nd (.nd (.nd (.lf
  0x69e7da79e103201032040ca1032510325a79e591b010329a79e531b003165a79c69eec0316da79e69ef469e79a79d1031403169a79d69ef01031440c7103191031da79d531ac10319a79d591ac69e75a79c103081030840c41030d10311a79c531a81030da79c591a869e71a79b102fc102fc40c11030110301a79b591a410305a79b531a403161a79b69ee869e6da79a102f0102f040be102f5102f9a79a531a0102f5a79a591a069e69a799102e4102e440bb102e9102e9a7995919c102eda7995319c03141a79369ec803159a79969ee069e65a798102d8102d840b8102dd102dda79859198102e1a7985319803155a79869edc69e61a797102cc102cc40b5102d1102d1a79759194102d5a797531940314da79669ed403151a79769ed869e5da796102c0102c040b2102c5102c9a79653190102c5a7965919069e59a795102b4102b440af102b9102b9a7955918c03149a79569ed0102bda7955318c69e55a794102a8102a840ac102ad102ada79459188102b1a7945318803145a79469ecc69e51a7931029c1029c40a9102a1102a5a79353184102a1a7935918469e4da792102901029040a61029510295a7925918010299a7925318003125a78c69eac)
  (.lf 0)) (.nd (.lf
  0xaf9d994801cbc6652199470af8c0af8c2be50af913e77008cd022b43e77408ce022b86018c08ed3e7f06019008ee3e7f43e7f008ad3e8713e7f408ae3e8750af959947582fc022b99947665980af91994701cb86651d99460af800af802be20af850af85994601cb40af899946582f8022b59946665946651999450af740af742bdf0af793bf3c08ab022983bf4008ac0229c3bfac08a7022883bfb008a80228c3bfb408a9022903bfb808aa022943e76c08cc022b06018808ec3e7ec3e7ec08ac3e86d022b19945665900af7d9945582f40af79994501cb06651599440af680af682bdc0af6d0af719944582f00af6d994401cac3e76008c9022a43e76408ca022a83e76808cb022ac6017c08e93e7e06018008ea3e7e46018408eb3e7e83e7e008a93e8613e7e408aa3e8653e7e808ab3e869022a5994266584022a9994366588022ad99446658c6651199430af5c0af5c2bd90af610af659943582ec0af61994301ca86650d99420af500af502bd60af550af599942582e80af55994201ca46650999410af440af442bd30af490af4d9941582e43e75c08c8022a06017808e83e7dc3e7dc08a83e85d0af49994101ca0022a19941665806650599400af38)
  (.lf 0))) (.nd (.nd (.lf
  0x3f6a40cba03268609400cda3f7243f7240c9a3f7a503269a097682d821465cf4b549d873d2dcf4a214502145085162145521455cf4a569d4529d5cf4a73da473da55275569d4569d40a9a4234c73dc9527e569f8569f80a834237056a240a8e4239c423700a9a02a3c4239c0a8502a68463240aba02a6854a2c0ada4642446425192946525465240ada02a6821d7c000021dd602a69a0d5683d0683d14aab58aac682d962ab02c6858aac877521e1421dd4875c21d6c21d6c875c58aa90dbbda0d552aac68355a0d40dba80dba836ec0dbad0dbada0d458aa8529d1cf4973da073da15274569d021459cf4a549d473d29cf49214442144485132144921449cf49569d0569d00a994234873dc5527d569f4569f40a824236c73df1528856a2056a200a8d423984236c0a9902a38423980a8402a64463200ab902a6454a280ad94642046421192846521465200ad902a6402a65a0d4683cc683cd4aaa58aa80da51a09702c686825da0960da400da4036920da450da49a09658aa83f6a00cb9032646093c0cd93f7203f7200c993f7a103265a096682d4682d562aa02c6458aa8875c5aa185aa19d0a27430474305726f5e9bc21d70877421d6021d60875a21d65)
  (.lf 0)) (.nd (.lf
  0x6d569b55915b9c15808000059c5259c51b4dc6d3ec59c4db4db6d3e86d3e96ee25db88158e1b4de5bb946d379b4dd158cc158cc5635158d11580c000059c5659c55b4dd6d3f06d3f16ee45db90158d1b4dd5db9015b9c56e915ba115ba1b55961b9015ba5b5595fb905db91b5596d5e06d565b55815b9015b9056e615b9508add92f800f2c64be192f708acc08acc22b508ad108ad192f700f283b938050a014146c4b8050a49e6c3da64052a014285fb00054a3dae43dae4050a3db650142992f764c5808ad592f757c6c64bdd92f608ac064c595f1b00f2857c6c55b759c44156dc55ef156cc156cc55b5156d1158d5b4dd5bb906d375b4dc158c0158c05632158c5158c5b4dc5db8c158c9b4dc5bb8c6d371b4db158b4158b4562f158b9158bdb4db5bb88158b9b4db5db886d36db4da158a8158a8562c158ad158adb4da5db8459c49b4da6d3e4158b1b4da5bb846d369b4d91589c1589c5629158a1158a1b4d95db8059c45b4d96d3e06d3ed6ee35db8c6d3e16ee05db805db81b5556d5d015b99b5585fb8c5db8db5586d5dc15b95b55861b8c6d561b55715b8415b8456e315b8915b8db5575fb8815b89b55761b885db89b5576d5d86d3e56ee15db84)
  (.lf 0)))

def shaGateTree356 : BTree :=
  .nd (.nd (.nd (.lf
  0x5b711eb067ac947ac9575c45f7105f711eb827ae847ae09eb812deb42deb4b7af2deb92debdeb816170c2deb9eb816370c2dbf9eb065d7107ac19eb052dbe42dbe4b6fb2dbe92dbe9eb055f70c2da2000002dae62dae4b6b82da0c2da0cb6852da112da10b6b85b70c2c361e7bd004b879ef5e7bc2c3502c350b0d62c3552c359e7bc03fb45d50de7bc79f6c79f6c0fed004b41271daddd537fc6b775addc127081270849c41270d1270daddc597f8046b5addc6b7ec6b7ed4dfe597f8125b1ad9f00b386b67dad9e125a0125a0496a125a5125a9ad9e597f803fb5ad9e6b6f46b6f565fe00b34597f8b6b82db2c2db2c00005b70e5b70deb057ac907ac9175c35f70c5f70deb817ae807ae05eb802dea82dea8b7ac2dead2deb1eb80617082deadeb80637082dbedeb055d70c7ac15eb042dbd82dbd8b6f82dbdd2dbddeb045f7082da1400002dae22dae0b6b72da002da00b6822da052da04b6b75b7082c355e7bc004b479ef1e7bb2c3442c344b0d32c3492c34de7bb03fb05d509e7bb79f6879f680fec004b012711addc537f86b771addb126fc126fc49c11270112701addb597f4046b1addb6b7e86b7e94dfd597f4125a5ad9e00b346b679ad9d12594)
  (.lf 0)) (.nd (.lf
  0x364dcd939364e1364e602634b358364e2026350f583638602264df5c8089a02253637436374d8df363793637e02254c7584ab5a0225809108091131d64df584c75a026380a088098e0262364d0364d0d936364d5364da02624b354364d6026250f543637a02254df588089602243636836368d8dc3636d3637202244c7544ab5602248090c8090d31d54df544c756026280a048098a0261364c4364c4d933364c9364ce02614b350364ca026150f503636e02244df548089202233635c3635cd8d9363613636602234c7504ab520223809088090931d44df504c752026180a00809860260364b8364b8d930364bd364c202604b34c364be026050f4c3636202234df508088e02223635036350d8d6363553635a02224c74c4ab4e0222809048090531d34df4c4c74e0260809fc80982025f364ac364acd92d364b1364b6025f4b348364b2025f50f483635602224df4c8088a02213634436344d8d3363493634e02214c7484ab4a0221809008090131d24df484c74a025f809f83634a02214df484ab4531d14df448088531d14df454c7452cd150f448097d2cd150f4550f452cb4056e4809f92cd250f4850f492cb5056e8809fd2cd350f4c50f4d2cb6056ec)
  (.lf 0))) (.nd (.nd (.lf
  0x52fb9da5d769f076975da5c263842638498e3263892638dda5c54fb426389da5c56fb452fb5da5c769ec76971da5b263782637898e02637d26381da5b54fb02637dda5b56fb052fb1da5b769e87696dda5a2636c2636c98dd2637126375da5a54fac26371da5a56fac52fadda5a769e476969da59263602636098da2636526369da5954fa826365da5956fa852fa9da59769e076965da58263542635498d7263592635dda5854fa426359da5856fa452fa5da58769dc76961da57263482634898d42634d26351da5754fa02634dda5756fa052fa1da57769d87695dda562633c2633c98d12634126345da5654f9c26341da5656f9c52f9dda56769d476959da55263302633098ce2633526339da5554f9826335da5556f9852f99da55769d076955da54263242632498cb263292632dda5454f9426329da5456f9452f95da54769cc76951da53263182631898c82631d26321da5354f902631dda5356f9052f91da53769c87694dda522630c2630c98c52631126315da5254f8c26311da5256f8c52f8dda52769c476949da51263002630098c22630526309da5154f8826305da5156f8852f89da51769c076945da50262f4262f498bf262f9262fdda5054f84)
  (.lf 0)) (.nd (.lf
  0x5082d2aee050807dec92b0c50830508312aef050847decd2b0d50834508352af005088050192ae34ab600501d2ae44ab64050212ae54ab68050252ae64ab6c050292ae74ab700502d2ae84ab74050312ae94ab78050352aea4ab7c050392aeb4ab800503d2aec4ab84050412aed4ab88050452aee4ab8c050492aef4ab900504d2af04ab94050512ad14ab98050552ad24ab9c050592ad34aba00505d2ad44aba4050612ad54aba8050652ad64abac050692ad74abb00506d2ad84abb4050712ad94abb8050752ada4abbc050792adb4abc00507d2adc4ab44050812add4ab48050852ade4ab4c050892adf4ab507ded12b0e50838508392ae04ab547ded52b0f5083c5083d2ae14ab587ded92b1050840508412ae24ab5c4d7b9f7197dce04d7c1f71b7dce87dc6df71a323f0323f0c8fe323f5323f5f71a4efbc323f9f71a4a73c4d7bdf71a7dce47dc69f719323e4323e4c8fb323e9323edf7194a738323e9f7194efb87dc65f718323d8323d8c8f8323dd4d7b5f7187dcdc323e1f7184a734323ddf7184efb47dc61f717323cc323ccc8f5323d1323d5f7174a7304d7b1f7177dcd8323d1f7174efb07dc5df716323c0323c0c8f2323c5323c9f7164a72c)
  (.lf 0)))

def shaGateTree357 : BTree :=
  .nd (.nd (.nd (.lf
  0x6a425a90810b1810b1842c810b1d10b21a9085330810b1da9085930842bcc10710419847c801091041c45528810b147d8047d811f8047e8147e8010b1041c4041c5a9086a49c6a421a90710b0c10b0c42c510b1110b15a9075330410b11a9075930442bc810700419447c7c1090041c05528410b047d7c47d7d1f7f47e7d47e7c10b0041c0041c1a9076a4986a41da90610b0010b0042c210b0510b09a9065330010b05a9065930042bc4106f0419047c78108f041bc5528010af47d7847d791f7e47e7947e7810af041bc041bda9066a4946a419a90510af410af442bf10af910afda905532fc10af9a905592fc42bc0106e0418c47c74108e041b85527c10ae47d7447d751f7d47e7547e7410ae041b8041b9a9056a4906a415a90410ae810ae842bc10aed10af1a904532f810aeda904592f842bbc106d0418847c70108d041b45527810ad47d7047d711f7c47e7147e7010ad041b4041b5a9046a48c6a411a90310adc10adc42b910ae110ae5a903532f410ae1a903592f44073c0ec003a80407400ec103a84407440ec203a88407480ec303a8c4074c0ec403a90407500ec503a94407540ec603a98407580ec703a9c4075c0ec803aa0407600ec903aa4)
  (.lf 0)) (.nd (.lf
  0xb6ac2dad0b6b10b6b19a7f5840444f7c071001bc05438407304507c4507d143f4517d4517c073001bc001bc19a7f66a780b6b59a7f52404669fd9a7e0b6a00b6a02daa0b6a50b6a99a7e5240044f78070f01bbc54380072f4507845079143e4517945178072f01bbc01bbd9a7e66a740b6a59a7e58400669f99a7d0b69441cc006ee01b8c44f74070e01bb85437c072e4507445075143d4517545174072e01bb80b6942da70b6990b69d9a7d523fc0b6999a7d583fc01bb99a7d66a70669f59a7c0b6880b6882da40b68d0b6919a7c523f841cbc06ed01b8844f70070d01bb454378072d4507045071143c4517145170072d01bb40b68d9a7c583f801bb59a7c66a6c669f19a7b0b67c41d3806ec01b8444f6c070c01bb054374072c4506c4506d143b4516d4516c072c01bb00b67c2da10b6810b6859a7b523f401bb19a7b66a680b6819a7b583f4669ed9a7a0b6700b6702d9e0b6750b6759a7a583f00b6799a7a523f041d3406eb01b8044f68070b01bac54370072b4506845069143a4516945168072b01bac01bad9a7a66a64669e99a790b6640b6642d9b0b6690b6699a79583ec0b66d9a79523ec44f60070901ba45436807294506045061143845161)
  (.lf 0))) (.nd (.nd (.lf
  0x609fc0d093f8e060a000d0a3f8e460a040d0b3f8e83f8d40cc63f9553f8d80cc73f9593f8dc0cc83f95d3f8e00cc93f9613f8e40cca3f9653f8e80ccb3f9690df3da18002d2c0332da1806867c68601a17f0df2c03329a17f686780df2c37cd0df310df35a17f58b6c0df31a17f02d28685fda17e0df2003325a17e686740df2037ca0df250df25a17e02d240df29a17e58b68685f9a17d0df140df1437c70df190df19a17d02d200df1da17d58b6403321a17d68670685f5a17c0df080df0837c40df0d0df0da17c02d1c0df11a17c58b600331da17c6866c685f1a17b0defc0defc37c10df010df05a17b58b5c0df01a17b02d1803319a17b68668685eda17a0def00def037be0def50def9a17a58b580def5a17a02d14685e9a1790dee40dee437bb0dee90dee9a17902d106869162e102d406869962e302d483f83c0ce0033003f8400ce1033043f8440ce2033083f8480ce30330c3f84c0ce403310609d80d003f8bc609dc0d013f8c0609e00d023f8c4609e40d033f8c8609e80d043f8cc3f8bc0cc03f93d3f8c00cc13f9413f8c40cc23f9453f8c80cc33f9493f8cc0cc43f94d7458d52b256ac856ac80ad74244056acc0ad8424447459552b456ad0)
  (.lf 0)) (.nd (.lf
  0x2f6f0bdbe2f6f52f6f9ef5a4babc2f6f5ef5a4d2bc49ebdef5a7bde47bd69ef592f6e42f6e4bdbb2f6e92f6e9ef594d2b87b9b5283b4e96c4e96d27a505fa87b9d928444e9904e99127ae05fcc05fa927ae49eb02f6edef594bab849eb9ef597bde07bd65ef582f6d82f6d8bdb82f6dd2f6e1ef584bab42f6ddef584d2b47bd61ef572f6cc2f6ccbdb52f6d12f6d1ef574d2b07b9ad28394e9644e96527a305fa04e98927ac05fc405fa127ac49ea82f6d5ef574bab049eb1ef577bdd87bd5def562f6c02f6c0bdb22f6c52f6c9ef564baac2f6c5ef564d2ac7bd59ef552f6b42f045ee4b4a0e07b92dee4a2f0302f030bc0e2f0352f035ee4a4e95c4d15dee4a7b9a42f039ee4a4a0dc7b929ee492f0242f024bc0b2f0292f02dee494a0d84d159ee497b9a02f029ee494e9587b925ee482f0182f018bc082f01d2f01dee484e9544d155ee487b99c7b99d28354e9544e955279f05f907b9a128364e9584e95927a005f947b9a528374e95c4e95d27a105f987b9c928404e9804e98127aa05fbc05f9127a849e9805f9527a949e9c05f9927aa49ea02f6b4bdaf2f6b92f6bdef554baa82f6b9ef554d2a849ea9ef557bdd07bd55ef542f6a82f6a8bdac2f6ad)
  (.lf 0)))

def shaGateTree358 : BTree :=
  .nd (.nd (.nd (.lf
  0x2bb71e6815d4ac79a05e6802bb5c2bb5caed92bb612bb61e6805f4a82b9d9e6672b9c82b9c8ae742b9cd2b9cde6675b4b02a0c1e2c30025478b0de2c22a0b02a0b0a82e2a0b52a0b9e2c203d505d2a9e2c278b8478b840f540025011961ab78535986ade1ab771194c1194c46551195111951ab775959404451ab776ae586ae594d6559594117f5ab3a046546ace9ab39117e4117e445fb117e9117edab395959403d51ab396ad606ad6165650465059595e6672ba602ba6000005b4b25b4b1e68079a7c79a7d752a5f4a85f4a9e6fc79c6c79bf1e6fb2be202be20af8a2be252be29e6fb614a42be25e6fb634a42bb65e6805d4a879a01e67f2bb502bb50aed62bb552bb55e67f5f4a42b9d000007999e7999de6662b9bc2b9bcae712b9c12b9c1e6665b4ac2a0b5e2c20025078b09e2c12a0a42a0a4a82b2a0a92a0ade2c103d4c5d2a5e2c178b8078b800f530024c11955ab77535946adddab76119401194046521194511945ab76595900444dab766ae546ae554d6459590117e9ab39046506ace5ab38117d8117d845f8117dd117e1ab385959003d4dab386ad5c6ad5d65640464c59591e6662ba5c2ba5c00005b4ae5b4ade67f79a7879a7975295f4a4)
  (.lf 0)) (.nd (.lf
  0x352cdff414c5684a969ff417fd807fd81315a4dd684c569ff7f7fe787fdfdff7e3542035420d50a3542535429ff7e4b16435425ff7e50d64352c9ff414dd687fd05ff40352b8352b8d4b0352bd352c1ff404c5644a965ff407fd7c7fd7d31594dd644c565ff7e7fe747fdf9ff7d3541435414d507354193541dff7d4b16035419ff7d50d60352bdff404dd647fd01ff3f352ac352acd4ad352b1352b5ff3f4c5604a961ff3f7fd787fd7931584dd604c561ff7d7fe707fdf5ff7c3540835408d5043540d35411ff7c4b15c3540dff7c50d5c352b1ff3f4dd607fcfdff3e352a0352a0d4aa352a5352a9ff3e4c55c4a95dff3e7fd747fd7531574dd5c4c55dff7c7fe6c7fdf1ff7b353fc353fcd5013540135405ff7b4b15835401ff7b50d58352a5ff3e4dd5c7fcf9ff3d3529435294d4a7352993529dff3d4c5584a959ff3d7fd707fd7131564dd584c559ff7b7fe687fdedff7a353f0353f0d4fe353f5353f9ff7a4b154353f5ff7a50d5435299ff3d4dd587fcf5ff3c3528835288d4a43528d35291ff3c4c5544a955ff3c7fd6c7fd6d31554dd544c555ff7a7fe647fde9ff79353e4353e4d4fb353e9353edff794b150353e9ff7950d503528dff3c4dd54)
  (.lf 0))) (.nd (.nd (.lf
  0xeaf5a37a02f5468de9a3790eae40eae43abb0eae90eae9a37902f500eaeda37958d9403551a37968e6068de5a3780ead80ead83ab80eadd0eadda37802f4c0eae1a37858d900354da37868e5c68de1a3770eacc0eacc3ab50ead10ead1a37702f480ead5a37758d8c03549a37768e5868ddda3760eac00eac03ab20eac50eac9a37658d880eac5a37602f4403545a37668e5468dd9a3750eab40eab43aaf0eab90eabda37558d843fc680d6b0352c3fc6c0d6c035303fc700d6d035343fc740d6e035383fc780d6f0353c3fc7c0d700354060c040d8b3fce860c080d8c3fcec60c0c0d8d3fcf060c100d8e3fcf460c140d8f3fcf860c180d903fcfc3fce80d4b3fd693fcec0d4c3fd6d3fcf00d4d3fd713fcf40d4e3fd753fcf80d4f3fd793fcfc0d503fd7d03541a37568e500eab9a37502f4068dd5a3740eaa80eaa83aac0eaad0eaada37402f3c0eab1a37458d800353da37468e4c68dd1a3730ea9c03539a37368e480ea9c3aa90eaa10eaa1a37302f380eaa5a37358d7c68dcda3720ea900ea903aa60ea950ea95a37202f340ea99a37258d7803535a37268e4468dc9a3710ea840ea843aa30ea890ea89a37102f300ea8da37158d7403531a37168e40)
  (.lf 0)) (.nd (.lf
  0x5fd3005d63df143df1405963df950165994f365448654495fa7011586554147a757e9c096a594f357e9c57e9db8b81750c174a000006e2e66e2e5b8b81748c1748c5d251749117491b8b859e6c1749400006e2e26e2e05d2217484174845d2257e99097fd953057e986dead4f8455e1055e1003c94178855e4003d5417b84175c03d500f284178803c000f5443f1003f500f5453e180415440104401110244411144110041500f5400f5595306553c654c1952f097ec6e1717f4061d0061d0005833bae461d4805953bb2c3bae4059501640097ec25fd097f1097f1952f57e94096a194f301158653cd94f2096900969025a6096950969594f2011540969994f257e983de9005b5016545fd2c05d53df103df1005953df910165594f265444654455fa6011546553d47a657e9857e985d2259e6817489b8b717478174785d201747d1747db8b759e64653c994f1096840968425a3096890968d94f157e946553947a557e9457e95b8b71750817508000059e6659e65b8d26e3c44175403d300f2043f0803f300f4c53e100413440084400910224410944108041300f4c00f4d952e655346553547a457e9059e69b8d36e3c8097f5952f51e94654bd952e097e0)
  (.lf 0)))

def shaGateTree359 : BTree :=
  .nd (.nd (.nd (.lf
  0x3984e0b2c5159c4cd9e0b2c82d2c82cb20b2b3983c3983ce61139841398460b2b00454398420b2b515984cd9a0b2b82d2882cae0b2a3983039830e60e398353983a0b2a00450398360b2a515944cd960b2a82d2482caa0b293982439824e60b398293982e0b290044c3982a0b29515904cd920b2982d2082ca60b283981839818e6083981d398220b28004483981e0b285158c4cd8e0b2882d1c82ca20b273980c3980ce60539811398160b2700444398120b27515884cd8a0b2782d1882c9e0b263980039800e602398053980a0b2600440398060b26515844cd860b2682d1482c9a0b25397f4397f4e5ff397f9397fe0b250043c397fa0b25515804cd820b2582d1082c960b24397e8397e8e5fc397ed397f20b2400438397ee0b245157c4cd7e0b2482d0c82c920b23397dc397dce5f9397e1397e60b2300434397e20b23515784cd7a0b2382d0882c8e0b22397d0397d0e5f6397d5397da0b2200430397d60b22515744cd760b2282d0482c8a0b21397c4397c4e5f3397c9397ce0b210042c397ca0b21515704cd720b2182d0082c860b20397b8397b8e5f0397bd397c20b2000428397be0b205156c4cd6e0b2082cfc82c820b1f397ac397ace5ed397b1)
  (.lf 0)) (.nd (.lf
  0x1a8cdc00b4a6305c145c00b700a8700a808fb4a6304a631fa3d7e9707e971308c4da3033614cd87336193361dfa3d4c2304c231fa7b7ea6833785fa7b4ae307e9edfa7a3377033770cdde3377533779fa7a4ae2c32f99f9324a8647e4c9f93132f8432f84cbe332f8932f89f9314f0e04d8e1f9317e5407e5412a184f0e04f0e12982064c47e5652a214f1044f105298b064e8064c5298b4a6241a765bfcd5e1446ff35bfcc1a7541a75469d71a7591a75dbfcc5c1401a61400005a1d65a1d5bfcc6ffac6ffad70505e14033619fa3d4da307e8f5fa3c3360833608cd843360d1a8d1c00b023ec7002dc00a1a8bc1a8bc6a311a8c15c141c00a700a41a8c1c00a4a62c700a408fa4a62c4a62dfa3c7e96c33611fa3c4c22c7e96d308b4da2c4c22dfa7a7ea6433775fa7a50a2c7e9e9fa793376433764cddb3376933769fa7950a2832f8df9314a8607e4c5f93032f7832f78cbe032f7d32f7df9304f0dc4d8ddf9307e53c7e53d2a174f0dc4f0dd2981064c07e5612a204f1004f101298a064e4064c1298a4a6201a759bfcc5e1406ff31bfcb1a7485a1d1bfcb6ffa86ffa9704f5e13c3360dfa3c4da2c7e8f1fa3b335fc335fccd813360133605fa3b4c228)
  (.lf 0))) (.nd (.nd (.lf
  0x35f2e01694c6d0805a6016835f1835f18d7c835f1d35f1e01684decc4aace01688061c8061d31b34decc4dece01e48080c8079201e3361dc361dcd879361e1361e601e34ae48361e201e34f6c835f2201684c6cc805a2016735f0c35f0cd7c535f1135f1201674dec84aaca0167806188061931b24dec84deca01e38080835f1601674c6c84aac531b14dec48059d31b14dec54dec52b914f6c48078d2b914f6c54f6c52afb068c8808092b924f6c84f6c92afc068cc8080d2b934f6cc4f6cd2afd068d0808112b944f6d04f6d12afe068d4808152b954f6d44f6d52aff068d8808192b964f6d84f6d92b00068dc8081d2b974f6dc4f6dd2b01068e0808212b984f6e04f6e12b02068e4808252b994f6e44f6e52b03068e8808292b9a4f6e84f6e92b04068ec8082d2b9b4f6ec4f6ed2b05068f0808312b9c4f6f04f6f12b06068f4808352b9d4f6f44f6f52b07068f8808392b9e4f6f84f6f92b08068fc8083d2b9f4f6fc4f6fd2b0906900808412ba04f7004f7012b0a06904808452ba14f7044f7052b0b06908808492ba24f7084f7092b0c0690c8084d2ba34f70c4f70d2b0d06910808512ba44f7104f7112b0e06914808552ba54f7144f7152b0f06918)
  (.lf 0)) (.nd (.lf
  0x6c6954eb655ad855ad8031b414506c6e54eca55b2855b28030f414a0414a0030600c6c00c6d924e649b46c6e14ec955b2455b24030e4149c4149c030500c6843624033a00c686c6b54ebe55af855af803034147041470031a00c3c43824035a00c686c6914eb555ad455ad4031a4144c00c69924d649b008765924e57bb064939924d087540875421d70875908759924d57bac0875d924d51bac64935924c0874853b2403584371c4371d0de74381d53b28035943720437210de84382143820035900c640874821d40874d08751924c51ba843620033900c640874d924c57ba86c6b14ebd55af455af403024146c6c6dd4ec855b2055b20030d4149841498030400c644146c031900c3800c65924c649ac64931924b0873c0873c21d10874108745924b51ba44361c033800c606c6d94ec755b1c55b1c030c414946c6ad4ebc55af055af003014146841494030300c604381c035800c6014089b18453ad06c611b1831407414074501f1407951acdb1836c6886c6894eb355acc14079b18355acc55acc03184144441468031800c3400c61924b649a808741924b57ba46492d924a087300873021ce0873508739924a51ba06c6a94ebb55aec55aec030041464)
  (.lf 0)))

def shaGateTree360 : BTree :=
  .nd (.nd (.nd (.lf
  0x7affd75d65f7595f75985d6637587b1ed85d6637596375810393d53c7b26985d76375c6375c103a3d5407b26d85d86376063760103b3d5447b27185d96376463764103c3d5487b27585da6376863768103d3d54c7b27985db6376c6376c103e3d5507b27d85dc6377063770103f3d5547b28185dd637746377410203d5587b28585de637786377810213d55c7b28985df6377c6377c10223d5607b28d85e0637806378010233d5647b29185e1637846378410243d5687b29585e2637886378810253d56c7b29985e36378c6378c10263d5707b29d85e4637906379010273d5747b2a185e5637946379410283d5787b2a585e6637986379810293d57c7b2a985e76379c6379c102a3d5807b2ad85e8637a0637a0102b3d5847b2b185e9637a4637a4102c3d5887b2b585ea637a8637a8102d3d58c7b2b985eb637ac637ac102e3d5907b2bd85ec637b0637b0102f3d5947b2c185ed637b4637b410303d5987b2c585ee637b8637b810313d59c7b2c985ef637bc637bc10323d5a07b2cd85f0637c0637c010333d5a47b2d185f1637c4637c410343d5a87b2d585f2637c8637c810353d5ac7b2d985f3637cc637cc10363d5b07b2dd85f4637d0637d010373d5b4)
  (.lf
  0x63ce92dbf009b84b6fe10f48444c4914610f600c40843da10f54913463ced2dc0009bc4b70210f58445049135244f491394913e10f5579804913a10f500c3c843d610f44912849129244c4912d4913210f45797c8444d5e5f00c385797daecf12d544912e10f400c38843d210f34911c4911d2449491214912610f3579784912210f300c34843ce10f249110491112446491154911a10f257974844515e6000c3c579804b285997012ca1aecf12c9012c904b2612c9512c9800006bb3e12c95aecf5996c6bb3daece12c84074758f1a009b463c698f1907464848358f1963ce063ce12dbd009b0074641d1b074690746d8f194b6f44b6f610f284444844455e5d00c3057975aecd12d4c12d4c00005996612c844b2312c8912c89aece5996857979aece12d5012c8c00006bb3a6bb39aecd12c7812c784b2012c7d12c7daecd5996459965aee36bc08074698f19009b063c658f18074588482d8f1763cd8074581d180745d0745d8f18009ac848318f1863cdc074618f184b6f063c618f170744c0744c1d1507451074558f174b6ec074518f17009a863c5d8f160744063cdd2dbc009ac848298f1663cd463cd52dba009a412c8000006bb366bb35aecc12c6c))
  (.nd (.lf
  0xcf419eab02a7867aad9eaa0cf300cf3033ce0cf350d0ad9ee9528bc2017880692016820168805c2016d2016c80695a82867ba59ee80d0980d09834280d09d0d09d9ee8588b8020759ee867c1c67c1d4a2e588b80cf399eaa588b8588b88069201d8201700000201a6201a48059201601f94000001fa521fa5169d21f9301f93161f31f9351f93569d25a74c3f1480a030278c606640a233f1c83f1c809e33f2490cb399e1502190678559e140cb280cb2832cc0cb2d0cb319e14587d00278d9e14678cc45b48080301f8c54750082345c4845c49173245d4945d48082301f8c678cd61f40218c0cca59e53527d46794d9e520cc9001f8d9e52679c40cc9033260cc950cc959e52587d0679c549f4587d0587d169d21fa941fa9400005a74e5a74dcb9872edc1fb05cb995c6e872e65cb981faf01faf07ebe1faf51fdd5cc15606e873055cc141fdc01fdc07f721fdc572edd71b95e6e41faf5cb985e6e45e6e5cc14730cc1fdc5cc14626e4730cd81b9626e4626e40a1c3c4c87310581c76271c6271c0a0a3c5007311981cc62730627300a0f3c5143c5000a1c0285c3c5140a01028707313181d2627483f2ac0a3c02870607480a5c3f32c3f32c0a1c3f3ad)
  (.lf 0))) (.nd (.nd (.lf
  0x62f440e143cd28770b583d262f4862f480e153cd2c770b983d362f4c62f4c0e163cd30770bd83d462f5062f500e173cd34770c183d562f5462f540e183cd383ccbc0e0b038183ccc00e0c0381c3ccc40e0d038203ccc80e0e038243cccc0e0f038283ccd00e100382c3ccd40e11038303ccd80e12038343ccdc0e13038383cce00e140383c3cce40e15038403cce80e16038443ccec0e17038483ccf00e180384c3ccf40e19038503ccf80e1a038543ccfc0e1b038583cd000e1c0385c3cd040e1d038603cd080e1e038643cd0c0e1f038683cd100e000386c3cd140e01038703cd180e02038743cd1c0e03038783cd200e040387c3cd240e05038003cd280e06038043cd2c0e07038083cd300e080380c3cd340e09038103cd380e0a038144023c0e2003800402400e2103804402440e2203808402480e230380c4024c0e2403810402500e2503814402540e2603818402580e270381c4025c0e2803820402600e2903824402640e2a03828402680e2b0382c4026c0e2c03830402700e2d03834402740e2e03838402780e2f0383c4027c0e3003840402800e3103844402840e3203848402880e330384c4028c0e3403850402900e3503854402940e3603858)
  (.lf 0)) (.nd (.lf
  0x4c069f83b7e16832a01f83b5086832a05f83b4ac687e0edf83a329f0329f0ca7e329f5329f9f83a4ac64329f5f83a508647e0e9f839329e4329e4ca7b329e9329edf8394ac607e06930184d8604c061f8397e160329e9f839508607e0e5f838329d8329d8ca78329dd329ddf8385085c4c05df8387e15c329e1f8384ac5c7e0e1f837329cc329ccca75329d1329d1f837508587e05d30154d854329d5f8374ac587e06130164d8584c059f8377e1587e0ddf836329c0329c0ca72329c5329c5f83650854329c9f8364ac544c055f8367e1547e0d9f835329b4329b4ca6f329b932855f7f74c0504c051f8357e150329bdf8354ac50329b9f835508507e0d5f834329a8329a8ca6c329ad0a0fd96d001a0c65b4196cf0a0ec444c404620110853fcc0482445c4445c51191446c5446c404820110801109970d65cb065cb148135804c063dd29134a4440a0ec283d0a0f10a269970e5205065c39970d0a2543e2440622018085fee006423e2c43e2c406023e3450a0f596cf5804c0180996cf65bb865bb9601301a080a25428970a2590a259970d5804c5804dbcbe6f3746f3756fd85df601916dbcbf5df646f2fdbcbe1915c1915c64591916119165bcbe5bf60)
  (.lf 0)))

def shaGateTree361 : BTree :=
  .nd (.nd (.nd (.lf
  0x6a6854ce05938010c79a945044406a515a94410c6810c68431c10c6d10c71a9445938059380a7565b2ac5b2ade27f78a7878a7974a55f2945f295e2fb78c6878bede2fa2a1d02a1d0a8762a1d52a1d9e2fa612902a1d5e2fa6329029f15e27f5d294789fde27e29f0029f00a7c229f0529f05e27e5f29029d58a78229d4829d48a75429d4d29d4ca7825b2a8283a1deca0003c77b29dec92839028390a0e62839528399dec903b385d091dec977ba077ba00ece0003810dd9a982533806a609a98110dc410dc4437310dc910dc9a9815937c04239a9816a6806a6814cdf5937c10c6da9440443c6a511a94310c5c10c5c431910c6110c65a9435937c03b39a9436a5886a58964df044385937ca78229e4829e4800005b2aa5b2a9e27e78a7478a7574a45f2905f291e2fa78c6478be9e2f92a1c42a1c4a8732a1c92a1cde2f96128c2a1c9e2f96328c29f09e27e5d290789f9e27d29ef429ef4a7bf29ef929ef9e27d5f28c29d50000029e0a29e08a78129d3c29d3ca75129d4129d40a7815b2a428395dec90003877b25dec82838428384a0e3283892838ddec803b345d08ddec877b9c77b9c0ecd0003410dcda9815337c6a605a98010db810db8437010dbd)
  (.lf 0)) (.nd (.lf
  0x622e8091d3c0cc6231409083c0f87115980c6623186231809093c0fc7115d80c76231c6231c090a3c1007116180c86232062320090b3c1047116d80cb6232c6232c090e3c1107117180cc6233062330090f3c1147117580cd623346233409103c1183c0f8091a024543c0fc091b024583c100091c0245c3c104091d024603c11009000246c3c1140901024703c1180902024743eab0093d024747118d80d36234c6034c095d3eb303eb30091d3ebb1024759aca66ba40b8b59aca01e740b8b99aca584b866b299ac90b8a40b8a42e2b0b8a93eaac093c024707118980d26234860348095c3eb2c3eb2c091c3ebad024719ac966ba00b8ad9ac9584b40b8a99ac901e7066b259ac80b8980b8982e280b89d0b8a19ac8584b03eaa4093a024683eaa8093b0246c7118180d06234060340095a3eb247118580d16234460344095b3eb283eb24091a3eba53eb28091b3eba90b89d9ac801e6c0246d9ac866b9c66b219ac70b88c0b88c2e250b8910b8959ac7584ac024699ac766b980b8919ac701e6866b1d9ac60b8800b8802e220b8850b8859ac601e647114d80c36230c1c501c428602dc710a180b6622d95e2d980b6622d8622d809193c0bc6230c09063c0f0)
  (.lf 0))) (.nd (.nd (.lf
  0xe44da24c58c3868931a24b0e43c0e43c39110e4410e441a24b58c34467ac0b1c02bf054bb40b3c468ac468ad1a4b469ad469ac0b3c02bf002bf1a24b689a80e445a24b52c346892da24a0e4300e430390e0e4350e439a24a52c30467a80b1b02bec54bb00b3b468a8468a91a4a469a9469a80b3b02bec02beda24a689a40e435a24a58c3068929a2490e4240e424390b0e4290e429a24958c2c467a40b1a02be854bac0b3a468a4468a51a49469a5469a40b3a02be802be9a249689a00e42da24952c2c68925a2480e4180e41839080e41d0e421a24852c28467a00b1902be454ba80b39468a0468a11a48469a1469a00b3902be402be5a2486899c0e41da24858c2868921a2470e40c0e40c39050e4110e411a24758c244679c0b1802be054ba40b384689c4689d1a474699d4699c0b3802be002be1a247689980e415a24752c246891da2460e4000e40039020e4050e409a24652c20467980b1702bdc54ba00b3746898468991a4646999469980b3702bdc02bdda246689940e405a24658c2068919a2450e3f40e3f438ff0e3f90e3f9a24558c1c467940b1602bd854b9c0b3646894468951a4546995469940b3602bd802bd9a245689900e3fda24552c1c)
  (.lf 0)) (.nd (.lf
  0x2fd44bf532fd492fd4df0814a2802fd49f0814eb004d301f0817c2807c205f0802fd382fd38bf502fd3d2fd41f0804a27c2fd3df0804eafc4d2fdf0807c27c7c201f07f2fd2c2fd2cbf4d2fd312fd35f07f4a2782fd31f07f4eaf87c1fdf07e2fd202fd20bf4a2fd252fd29f07e4a2742fd25f07e4eaf44d2f5f07e7c2747c1f9f07d2fd142fd14bf472fd192fd19f07d4eaf04d2f1f07d7c2702fd1df07d4a2707c1f5f07c2fd082fd08bf442fd0d4d2edf07c7c26c2fd0df07c4eaec2fd11f07c4a26c7c1f1f07b2fcfc2fcfcbf412fd012fd05f07b4a2684d2e9f07b7c2682fd01f07b4eae87c1edf07a2fcf02fcf0bf3e2fcf52fcf9f07a4a2642fcf5f07a4eae44d2e5f07a7c2647c1e9f0792fce44d2e1f0797c2602fce4bf3b2fce92fcedf0794a2602fce9f0794eae07c1e5f0782fcd82fcd8bf382fcdd2fce1f0784a25c7c2b128ac4eb302fcddf0784eadc4d2ddf0787c25c7c1e1f0772fccc2fcccbf352fcd12fcd1f0774ead82fcd5f0774a2584d2d9f0777c2587c1ddf0762fcc02fcc0bf322fcc52fcc9f0764a2546d13c057b4a0307c26528994eae44eae52803060a87c26d289b4eaec4eaed2805060b07c28928a24eb084eb09280c060cc)
  (.lf 0)))

def shaGateTree362 : BTree :=
  .nd (.nd (.nd (.lf
  0x449dabe66b0146b0154d78595e011a29aba9046a06aea5aba811a1811a18468811a1d11a21aba8595e003d9daba86af1c6af1d65780469c595e1e7662c1282c12800005b4f65b4f5e77879e5c79e5d753d5f4f45f4f5e7f47a04c79fd1e7f32c4642c464b11b2c4692c46de7f3614f02c469e7f3634f02c1a9e7785d4f479de1e7772c1942c194b0672c1992c199e7775f4f02c040000079d9a79d98b00d2c0302c030b00d595dd5d2f1e3ac78f2c78f2c0f66002982a739e3ad0029c78eb5e3ac2a7282a728a9cc2a72d2a731e3ac03d9803d99aba76af186af1965770469811b89abe6535e06af99abe511b7411b7446df11b7911b79abe5595dc04499abe56b0106b0114d77595dc11a1daba80469c6aea1aba711a0c11a0c468511a1111a15aba7595dc595dcb00d5b4f05b4f1e77779e5879e59753c5f4f05f4f1e7f37a04879fcde7f22c4582c458b1182c45d2c461e7f2614ec2c45de7f2634ec2c19de7775d4f079ddde7762c1882c188b0642c18d2c18de7765f4ec2c035e7652c0242c024b00b2c0292c029e7655b4ec2a72de3ac0029878eb1e3ab2a71c2a71ca9c92a7212a725e3ab03d945d2ede3ab78f2878f280f650029411b7dabe5535dc)
  (.lf 0)) (.nd (.lf
  0x4aa32000d800b0800b1318c4de304c632004b801a88012e004a3593035930d64e359353593a004a4b22c35936004a50e2c357da000d4de3080036000c357c8357c8d5f4357cd357d2000c4c62c4aa2e000c800ac800ad318b4de2c4c62e004a801a48012a00493592435924d64b359293592e00494b2283592a004950e28357ce000c4de2c80032000b357bc357bcd5f1357c1357c6000b4c6284aa2a000b800a8800a9318a4de284c62a0049801a08012600483591835918d6483591d3592200484b2243591e004850e24357c2000b4de288002e000a357b0357b0d5ee357b5357ba000a4c6244aa26000a800a4800a531894de244c62600488019c8012200473590c3590cd645359113591600474b22035912004750e20357b6000a4de248002a0009357a4357a4d5eb357a9357ae00094c6204aa220009800a0800a131884de204c6220047801988011e00463590035900d642359053590a00464b21c35906004650e1c357aa00094de208002600083579835798d5e83579d357a200084c61c4aa1e00088009c8009d31874de1c4c61e0046801948011a0045358f4358f4d63f358f9358fe00454b218358fa004550e183579e00084de1c8002200073578c)
  (.lf 0))) (.nd (.nd (.lf
  0x82e960ba439ae839ae8e6bc39aed39aee0ba44e60c691414b8358e0c69049638302fc825215d7da037cc75f69d7d9252002520094822520525205d7d94b20c250a9d79c5ed2475e71d79b250982509894282509d250a1d79b5cd2024edc93b524ed024ed093b558e0d58e0c93b55ad605ad61d79b75ee875ee973485ed205cd21d7d975fe075fe00df24b20c4b20e0ba482f0c82f0d33834e60c4e60e0c20830fc830820c1f39dac39dace76d39db139db60c1f0004439db20c1f4fe0839af20ba44ce0c82e920ba339adc39adce6b939ae139ae20ba34e6086913d4b8258e0869045638202fc425209d7d9037c875f65d7d8251f4251f4947f251f9251f9d7d84b2082509dd79b5ed2075e6dd79a2508c2508c94252509125095d79a5cd1c24ed493b324ec824ec893b358e0958e0893b35ad5c5ad5dd79a75ee475ee573475ed1c5cd1dd7d875fdc75fdc0df14b2084b20a0ba382f0882f0933824e6084e60a0c1f830f88307e0c1e39da039da0e76a39da539daa0c1e0004039da60c1e4fe0439ae60ba34ce0882e8e0ba239ad039ad0e6b639ad539ad60ba24e604691394b8158e0469041638102fc0251fdd7d8037c475f61d7d7251e8251e8947c251ed)
  (.lf 0)) (.nd (.lf
  0x442b4043e00ff800ff995b5657506e2b54fae55eb86e2bd4fb055ec055e6803ff417e06e2894fa355e8c55e8c03e84180455eb803f3418304180403ff00fd04183003ea00ffc440b8041f00ffc53ec0043f441b8441b9108e442b9442b8043f00ffc00ffd95b665754656d995b509b3409b3426cf09b3909b3995b557f3c09b3d95b551f3c656d595b409b2809b2826cc09b2d172c5b87953e646e1e5b878172b051e61b8786e25c172b05cae172b5172b5b87855e606e25d4f9855e6055e6003fd417d86e2814fa155e8455e8403e6417fc6e2ad4fac55eb055eb003f141828417fc03fd00fc84182803e800ff4440b0041d00ff453eb8043d441b0441b1108c442b1442b0043d00ff400ff595b46574c6574d47ce57f3809b2d95b457f38656555fce011f457f385f0417c486575547d057f406565d5fd0011fc57f405f0559f1017c145ef817bdc6575147cf57f3c656595fcf011f817bdc5ef857f3d57f3c5ef859f0c17be05f0417bd017bd05ef617bd517bd8000017c1217bd45f0459f0817c105f0317bc417bc45ef317bc917c48000059f0a59f09b9d36e7c809b3195b451f38656d195b309b1c09b1c26c909b2109b2195b357f346e2a94fab55eac)
  (.lf 0)))

def shaGateTree363 : BTree :=
  .nd (.nd (.nd (.lf
  0x3ad9a0ed2006e83ad960ed25182c4d02e0ed283bc483b4a0ed13ad843ad84eb633ad893ad8e0ed1006e43ad8a0ed1518284d02a0ed183bc083b460ed03ad783ad78eb603ad7d3ad820ed0006e03ad7e0ed0518244d0260ed083bbc83b420ecf3ad6c3ad6ceb5d3ad713ad760ecf006dc3ad720ecf518204d0220ecf83bb883b3e0ece3ad603ad60eb5a3ad653ad6a0ece006d83ad660ece5181c4d01e0ece83bb483b3a0ecd3ad543ad54eb573ad593ad5e0ecd006d43ad5a0ecd518184d01a0ecd83bb083b360ecc3ad483ad48eb543ad4d3ad520ecc006d03ad4e0ecc518144d0160ecc83bac83b320ecb3ad3c3ad3ceb513ad413ad460ecb006cc3ad420ecb518104d0120ecb83ba883b2e0eca3ad303ad30eb4e3ad353ad3a0eca006c83ad360eca5180c4d00e0eca83ba483b2a0ec93ad243ad24eb4b3ad293ad2e0ec9006c43ad2a0ec9518084d00a0ec983ba083b260ec83ad183ad18eb483ad1d3ad220ec8006c03ad1e0ec8518044d0060ec883b9c83b220ec73ad0c3ad0ceb453ad113ad160ec7006bc3ad120ec7518004d0020ec783b9883b1e0ec63ad003ad00eb423ad053ad0a0ec6006b83ad060ec6517fc4cffe0ec683b9483b1a0ec53acf4)
  (.lf 0)) (.nd (.lf
  0x1ac546b171ac591ac5c0000702be1ac59c0af5a230702bc6b141ac4c663b960a301c481ac4c6b145828d5828c6b145a22c1ac506b121ac441ac446b12582890224598ce663b4663b560a201c440ace02b3a0ace50ace998ce58288582886b125a2285a229c0c770398664a948a158284704b8091b4a6b04a6b1faf77ec58704bc091c4a6b44a6b5faf87ec5c704c8091f4a6c04a6c1fafb7ec687ebedfafa33a70704c4091e4a6bc4a6bdfafa7ec6433a70ce9e33a7533a75fafa4dabc33a79fafa4c2bc7ebe9faf933a6433a64ce9b33a69704c0091d4a6b84a6b9faf97ec6033a69faf94dab833a6dfaf94c2b87ebe5faf833a5833a58ce9833a5d33a61faf84c2b433a5dfaf84dab47ebe1faf733a4c33a4cce9533a5133a55faf74c2b033a51faf74dab07ebddfaf633a4033a40ce9233a4533a49faf64c2ac3bed008900222c33a45faf64daac704b4091a4a6ac4a6adfaf67ec547ebd9faf533a3433a34ce8f33a3933a39faf54daa8704b009194a6a84a6a9faf57ec5033a3dfaf54c2a87ebd5faf433a2833a28ce8c33a2d33a2dfaf44daa44a6a5faf47ec4c33a31faf44c2a47ebd1faf333a1c33a1cce8933a2133a21faf34daa033a25faf34c2a0)
  (.lf 0))) (.nd (.nd (.lf
  0x569480877422c05694c0878422c4569500879422c856954087a422cc56958087b422d05695c087c422d456960087d422d85696c0860422e4569700861422e8569740862422ec569780863422f05697c0864422f4569800865422f8569840866422fc56998086b423105699c086c42314569a0086d42318569a4086e4231c569a8086f42320569ac087042324569b0087142328422e40877021b0422e80878021b4422ec0879021b8422f0087a021bc422f4087b021c0422f8087c021c4422fc087d021c8423100862021dc423140863021e0423180864021e44231c0865021e8423200866021ec423240867021f0423280868021f4461980a97021dc549a00ab7462984629918c646399463980ab7021dc021dda056681d4681d54a8858a200d7b1a01f02bf86807da01e0d7a00d7a035ea0d7a50d7a9a01e58a380d7a5a01e02bf4029f5a01e680f468079a01d0d7940d79435e70d7990d79da01d58a340d799a01d02bf0029f1a01d680f068075a01c0d7880d78835e40d78d0d791a01c58a300d78da01c02bec029eda01c680ec68071a01b0d77c0d77c35e10d7810d785a01b58a2c0d781a01b02be8029e9a01b680e84619c0a98021e0461a00a99021e4)
  (.lf 0)) (.nd (.lf
  0x15074541e57c2564aa15f0900ee057c24541e59bfc15079b3d51506815068541c1506d1507000006cf561506db3d559bf864a9d5f0800edc57c21b3d5150cc6cf55b3d41505c1505c54191506115061b3d459bf464a915f0500ed064a995f0700ed857c1db3d4150c81506400006cf526cf5054161505415054541657c1957c18541659bf01505854141504c1504c541457c1557c14541459bec59bedb3eb6d02813701b01a49df86c069b019136f0136f04dbe136f5136f9b019013b05fa88052c3d9ec0881d927d57bf45b909b0196c0e06c0e004ec49df43b84004ec0139c3d96c050c013b03d9ec04ec3da6d013b1927d64a70649f5927c088080880822040880d136f5b01949df45b905b0186c0dc5fa84052b3d9e83b83c04eb013983d9e804eb3da696c065b018136e4136e44dbb136e9136edb018013ac6c0dc04eb49df03d968050b013ac013ad927c64a6c0880d927c00eac08811927c57bf0649f1927b087fc087fc22010880108805927b57bec64a795eff00eb8136e9b01849df06c061b017136d8136d84db8136dd136ddb01749dec5b901b0176c0d8136e1b017013a86c05db016136cc136cc4db5136d15b8fdb0166c0d4136d1b01649de8)
  (.lf 0)))

def shaGateTree364 : BTree :=
  .nd (.nd (.nd (.lf
  0x79b8c0fda004682bd1de6c50046c79b15e6c42bd0c2bd0caf452bd112bd15e6c403f6803f69ad2f6b5386b53965eb00be8124e9ad6e537b06b5b9ad6d124d4124d44937124d9124d9ad6d597ac04669ad6d6b6306b6314deb597ac1237dad3000bec6b4c1ad2f1236c1236c48dd1237112375ad2f597ac597acb5905b6c05b6c2113e84574844fa113d493144931524c7493194931e113d5d6bc4931a113d5f6bc2d640b58e2d6342d634b58e597a95d4bde6c379b8879b880fd9004642bd11e6c40046879b11e6c32bd002bd00af422bd052bd09e6c303f6403f65ad2e6b5346b53565ea00be4124ddad6d537ac6b5b5ad6c124c8124c84934124cd124cdad6c597a804665ad6c6b62c6b62d4dea597a812371ad2f00be86b4bdad2e123601236048da1236512369ad2e597a8597a8b58e5b6bc5b6be113d84570844f6113c493084930924c44930d49312113c5d6b84930e113c5f6b82d639ea782d6282d628b58c2d62d2d62dea785b6b82bd05e6c30046479b0de6c22bcf42bcf4af3f2bcf92bcfde6c203f605d4b9e6c279b8479b840fd800460124d1ad6c537a86b5b1ad6b124bc124bc4931124c1124c1ad6b597a404661ad6b6b6286b6294de9597a4)
  (.lf 0)) (.nd (.lf
  0x1ed707b5e1ed751ed75c9bb5e6306753961c7020d85871c7afb5a6a05a6a1c9bb727681ed79c9bb5c630726edc9ba1ed641ed647b5b1ed691ed69c9ba5e62c1ebec7af91ebe01ebe07af9587196753561c6020d4587187af95a69c5a69dc9ba727641ed6dc9ba5c62c726e9c9b91ed581ed587b581ed5d1ed61c9b95c6281ebe47af71ebd81ebd87af7587156753161c5020d0587147af75a6985a699c9b9727601ed5dc9b95e628726e5c9b81ed4c1ed4c7b551ed511ed51c9b85e6241ebddc9a01ebcc1ebcc7af51ebd16752d61c4020cc58711c9a01ec601ec6000005a6961ebd1c9a05a6941ed55c9b85c6245a695c9b87275c726e1c9b71ed401ed407b521ed451ed49c9b75c6206752961c3020c81ebd4000072682726807af21ebc41ebc47af25870d5870c7af25a6905a691c9b7727581ed45c9b75e620726ddc9b61ed341ed347b4f1ed391ed39c9b65e61c1ebc9c99f1ebb81ebb87af01ebbd6752561c2020c458709c99f1ec5c1ec5c00005a68e1ebbdc99f5a68c5a68dc9b6727541ed3dc9b65c61c726d9c9b51ed281ed287b4c1ed2d1ed31c9b55c6181ebc000007267e7267c7aed1ebb01ebb07aed587056752161c1020c0587047aed5a688)
  (.lf 0))) (.nd (.nd (.lf
  0x76719d9c525f7025f7097de25f7525f75d9c54b2c825e19d9885ede076621d98725e0825e08978425e0d25e11d9875cddc25c60000025d8225d816b8525c5025c5163b125c5525c556b855ae1858ec96b8525dc425dc400005ae1a5ae19d987766987669973775eddc5cdddd9c576790767900e214b2c84b2ca0d07834988349933b24e6c84e6ca0d83836883a2960d074cec83607a01a550ec84c6c52cb150ec4806952cb150ec50f3e1a51852ec8694614bb158ec502e814bb158ec425f79d9c50388425e0dd9875eddc58ec400005ae165ae1573765edd87661d73765edd95cdd80e204b2c4767140e204b2c54b2c533b14e6c48341d33b14e6c54e6c400404fec48360c00404fec54fec52cfb06e488368800414fec84fec92cfc06e4c8368c00424fecc4fecd2cfd06e508369000434fed04fed12cfe06e548369400444fed44fed52cff06e588369800454fed84fed92d0006e5c8369c00464fedc4fedd2d0106e60836a000474fee04fee12d0206e64836a400484fee44fee52d0306e68836a800494fee84fee92d0406e6c836ac004a4feec4feed2d0506e70836b0004b4fef04fef12d0606e74836b4004c4fef44fef52d0706e78836b8004d4fef8)
  (.lf 0)) (.nd (.lf
  0x55f4c0438418c46ea694fdc55f7055f700421418e855f9c042c41914418e80438010b4419140423010e04439c0458010e053fa404784449c4449d11474459d4459c0478010e0010e196a765b186ea614fda55f686eab94ff055fc06ea854fe355f8c55f68043f418e055f8c04284190455fb804334193041904043f010d041930042a010fc443b8045f010fc53fc0047f444b8444b9114e445b9445b8047f010fc010fd96ae65b3465ab996ad0a0d40a0d428370a0d96eaad4fed55fb46eab54fef55fbc6ea814fe255f886ea5d4fd955f6455f64043e418dc55f8804274190055fb404324192c41900043e010cc4192c0429010f8443b4045e010f853fbc047e444b4444b5114d445b5445b4047e010f8010f996ad65b300a0dd96ad5203c0a0d996ad5803c65ab596ac0a0c80a0c828340a0cd0a0cd96ac580380a0d196ac5203865ab196ab0a0bc0a0bc28310a0c10a0c596ab520340a0c196ab580346eaa54feb55fac6ea554fd755f5c55f5c043c418d46ea794fe055f8055f800425418f855fac043041924418f8043c010c4419240427010f0443ac045c010f053fb4047c444ac444ad114b445ad445ac047c010f0010f196ab65b2865aad96aa0a0b0)
  (.lf 0)))

def shaGateTree365 : BTree :=
  .nd (.nd (.nd (.lf
  0x77ff5dffc28c1828c18a30828c1d28c21dffc6110428c1ddffc631042895ddf815d10877e05df802894828948a2542894d2894ddf805f1042879ca1e52879028790a1e5591f169fad647c042ac591f0a1e55b1285b129df8077e7c77e7d74415f1045f105dffc7806c77ff1dffb28c0c28c0ca30528c1128c15dffb6110028c11dffb6310028951df805d10477e01df7f2893c2893ca2512894128941df7f5f10028794a2192878428784a1e32878928788a2195b12469fa9647b042a8591eca219288a4288a400005b1265b125df7f77e7877e7974405f1005f101dffb7806877feddffa28c0028c00a30228c0528c09dffa610fc28c05dffa630fc28945df7f5d10077dfddf7e2893028930a24e2893528935df7e5f0fc2878c00002886628864a2182877828778a1e02877d2877ca2185b12069fa5647a042a4591e8a218288a0288a000005b1225b121df7e77e7477e75743f5f0fc5f0fddffa7806477fe9dff928bf428bf4a2ff28bf928bfddff9610f828bf9dff9630f828939df7e5d0fc77df9df7d2892428924a24b2892928929df7d5f0f82878000002886228860a1dd2877028770a1dd591e569fa16479042a0591e4a1dd5b11c5b11ddf7d77e70)
  (.lf 0)) (.nd (.lf
  0x1b155c173562d0522d1c173706487064950b4562d0562d006d941c487066d50bd562f4562f406c241c6c7069950c8563205632006cd41c9841c6c06d901b3841c9806c401b640b45d9a0d523ac668359a0c0b4480b4482d140b44d0b44d9a0c583a80b2f199cf01d6844e2006f901b6454328071944f2044f2113e84502145020071901b6401b659a0c668ac668ad48ea583a86673d99ce0b2e00b2e02cba0b2e50b2e999ce583a80236599ce667b4667b560ea01d64583a86eb71bb181ba7c6eb75a3481ba8000001bade1badc6eb61ba6c3e89c08f8023606023809183e91c3e91c08d83e99d1b159c173542d0705cdc1721b1441b1446c531b1491b149c172562cc522cdc172706447064550b3562cc562cc06d841c447066950bc562f0562f006c141c687069550c75631c5631c06cc41c9441c6806d801b3441c9406c301b600b4519a0c523a80b2e599ce01d646673999cd0b2d40b2d42cb70b2d90b2dd99cd583a40236199cd667b044e1c06f801b6054324071844f1c44f1d13e74501d4501c071801b60668319a0b0b43c0b43c2d110b4410b4419a0b583a401b619a0b668a8667b160e901d60668a948e9583a4583a46eb61bb143e88408f202348)
  (.lf 0))) (.nd (.nd (.lf
  0x2ad9a14d685b068535a14c0de48741f552a456a9056a900aa94240856ac00ab542438423dc0ab502aa8424080aa002ad4464900ad502ad454a980af54659046591198446691466900af502ad402ad5a14c685ac0de4837940de4d0de51a14c52b180de4da14c58b1868531a14b0de3c0de3c37910de410de41a14b58b1456abc0ab442434423d80ab402aa44648c0ad402ad054a940af44658c4658d19834668d4668c0af402ad002ad1a14b685a80de45a14b52b146852da14a0de300de30378e0de350de35a14a58b10423c40aaf02a90423c80ab002a94423cc0ab102a98423d00ab202a9c423d40ab302aa0464780acf02abc4647c0ad002ac0464800ad102ac4464840ad202ac8464880ad302acc54a800aef4657854a840af04657c54a880af14658054a8c0af24658454a900af34658846579197e466794657d197f4667d465811980466814658519814668546589198246689466780aef02abc4667c0af002ac0466800af102ac4466840af202ac8466880af302acc02acda14a685a40de39a14a52b1068529a1490de2402ac9a149685a00de24378b0de290de29a14958b0c0de2da14952b0c68525a1480de180de1837880de1d0de1da14858b08)
  (.lf 0)) (.nd (.lf
  0x43c1803b700e5c41690038200e5c43e1803d700e5c41664039700e3000e5d943a6516465165476857da057da0598059d7416600597e165f4165f4597e57d9d15c71b58a53cc86d6294f3155cc551cc54f3155cc455cc403964163c53d1c03d643d1443d150f6543e1543c1403b600e586d6f14f4555d1455d14038a4168c43e1403d600e5841660039600e2c4168c038100e5800e5994396516065161476757d9c5bab1b3296cd2014c85b32a49fa06cca9b32914c7409279943a51da0650e994390926409264249b092696cd20055649f9c0910d93fc0105c6d9b57f0161c0461c0405443b9e861c4c05563ba303b9e805560154409269943957d9c64ff193fb090fc14c74531f14c7914c7db32901558090fc2441091010910593fb57d9c3dc940576015585fc3005963dd143dd1405563dd950155993fb65068650695f670105857d9c597e59d70165f8599f165e8165e8597c165ed165ec599f59d6c5baadb3286cd1c14c79b32949f9c6cca5b32814c6814c68531c14c6d14c71b328015546d9b17f0061c0061c0005433b9e461c4805553ba2c3b9e40555015403dc900575015545fc2c05953dd103dd1005553dd916cd1c055549f980155593fa65064)
  (.lf 0)))

def shaGateTree366 : BTree :=
  .nd (.nd (.nd (.lf
  0x42e3410eb0438042e3810ec043844823c11000438048240110104384482441102043884824811030438c4824c11040439048250110504394482541106043984825811070439c4825c1108043a0482601109043a448264110a043a848268110b043ac4826c110c043b048270110d043b448274110e043b848278110f043bc4827c1110043c0482801111043c4482841112043c8482881113043cc4828c1114043d0482901115043d4482941116043d8482981117043dc4829c1118043e0482a01119043e4482a4111a043e8482a8111b043ec482ac111c043f0482b0111d043f4482b4111e043f8482b8111f043fc5544411204833c554481121483405544c112248344554501123483485545411244834c554581125483505545c112648354554601127483585546411284835c554681129483605546c112a4836455470112b4836855474112c4836c55478112d483705547c112e4837455480112f483785548411304837c554881131483805548c113248384554901133483885549411344838c554981135483905549c113648394554a0113748398554a411384839c554a81139483a0554ac113a483a4554b0113b483a8554b4113c483ac554b8113d483b0)
  (.lf 0)) (.nd (.lf
  0x34e08d38434e0d34e11fe5c4ac3434e0dfe5c4f4b44dcb5fe5c7f9ec7f971fe5b34dfc34dfcd38134e0134e05fe5b4ac3034e01fe5b4f4b04dcb1fe5b7f9e87f96dfe5a34df034df0d37e34df534df9fe5a4ac2c34df5fe5a4f4ac4dcadfe5a7f9e47f969fe5934de434de4d37b34de934dedfe594ac2834de9fe594f4a84dca9fe597f9e07f965fe5834dd834dd8d37834ddd34de1fe584ac2434dddfe584f4a44dca5fe587f9dc7f961fe5734dcc34dccd37534dd134dd5fe574ac2034dd1fe574f4a04dca1fe577f9d87f95dfe5634dc034dc0d37234dc534dc9fe564ac1c34dc5fe564f49c4dc9dfe567f9d47f959fe5534db434db4d36f34db934dbdfe554ac1834db9fe554f4984dc99fe557f9d07f955fe5434da834da8d36c34dad34db1fe544ac1434dadfe544f4944dc95fe547f9cc7f951fe5334d9c34d9cd36934da134da5fe534ac1034da1fe534f4904dc91fe537f9c87f94dfe5234d9034d90d36634d9534d99fe524ac0c34d95fe524f48c4dc8dfe527f9c47f949fe5134d8434d84d36334d8934d8dfe514ac0834d89fe514f4884dc89fe517f9c07f945fe5034d7834d78d36034d7d34d81fe504ac0434d7dfe504f4844dc85fe507f9bc)
  (.lf 0))) (.nd (.nd (.lf
  0xe8743a1f0e8790e87da30558d340e879a30502ef068c15a3040e8680e8683a1c0e86d0e871a30458d300e86da30402eec034eda30468c8c68c11a3030e85c0e85c3a190e861034e9a30368c880e865a30358d2c0e861a30302ee868c0da3020e8500e8503a160e8550e859a30258d280e855a30202ee4034e5a30268c8468c09a3010e8440e8443a130e8490e84da30158d240e849a30102ee0034e1a30168c8068c05a3000e8380e8383a100e83d0e83da30002edc0e841a30058d20034dda30068c7c68c01a2ff0e82c0e82c3a0d0e8310e831a2ff02ed80e835a2ff58d1c68bfda2fe0e8200e8203a0a0e8250e829a2fe58d183fb800d51034c43fb840d52034c83fb880d53034cc3fb8c0d54034d03fb900d55034d460b9c0d713fc0060ba00d723fc0460ba40d733fc0860ba80d743fc0c60bac0d753fc103fc000d313fc813fc040d323fc853fc080d333fc893fc0c0d343fc8d3fc100d353fc910e825a2fe02ed4034d5a2fe68c7468bf9a2fd0e8140e8143a070e8190e81da2fd58d140e819a2fd02ed0034d1a2fd68c7068bf5a2fc0e8080e8083a040e80d0e811a2fc58d10034cda2fc68c6c0e80da2fc02ecc68bf1a2fb0e7fc0e7fc3a010e801)
  (.lf 0)) (.nd (.lf
  0x6525d5f88010dc57e205b7416e1816d58000016dd216d545b7459df416dd05b5316d4816d485b5357e1d65349478557e1465341478357e0c65351478757e1c6523d5f80010bc652515f85010d057e145b7316e14652595f87010d857e1c5b5359df016d4c5b5116d4016d405b5157e19652555f86010d457e185b5159dec16d445b7316d3416d345b4f16d3916d3c000016dce16d385b7359de816dcc5b7216d2816d285b4c16d2d16d2c5b7259de4652495f83010c857e0c5b7116e0c6524d5f84010cc16d30000016dca57e105b7216e1016dc85b7116d1c16d1c5b4916d2116d205b7159de016d24000016dc616dc45b4616d1416d145b4657e096533d478257e08652455f82010c457e085b4659ddc65339478157e0416d185b4416d0c16d0c5b4457e05652415f81010c057e045b4459dd816d105b7016d0016d005b4216d0516d08000016dc216d045b7059dd465335478057e0057e005b7016e0816dc05b6f16cf416cf45b3f16cf916cf85b6f59dd0652295f7b010a8652395f7f010b816cfc000016dbe65331477f57dfc57dfc5b6f16e0416dbc5b3c16cec652355f7e010b46532d477e57df816cec5b3c57df957df85b3c59dcc16cf05b3a16ce4)
  (.lf 0)))

def shaGateTree367 : BTree :=
  .nd (.nd (.nd (.lf
  0x48f0123e048f5048f58e19500d4048f98e19003104e8d58e19638e0638658e18048e4048e4123b048e9048e98e18500d0048ed8e180030c4e8d18e18638dc638618e17048d8048d81238048dd048dd8e17500cc048e18e17003084e8cd8e17638d86385d8e16048cc048cc1235048d1048d18e16500c8048d58e16003044e8c98e16638d44e8c400c0500c46385800c0500c5500c4002a04874638d400c1500c8500c8002b04878638d800c2500cc500cc002c0487c638dc00c3500d0500d0002d04880638e000c4500d4500d4002e04884638e400c5500d8500d8002f04888638e800c6500dc500dc00300488c638ec00c7500e0500e0003104890638f000c8500e4500e4003204894638f400c9500e8500e8003304898638f800ca500ec500ec00340489c638fc00cb500f0500f00035048a06390000cc500f4500f40036048a46390400cd500f8500f80037048a86390800ce500fc500fc0038048ac6390c00cf50100501000039048b06391000d05010450104003a048b46391400d15010850108003b048b86391800d25010c5010c003c048bc6391c00d35011050110003d048c06392000d45011450114003e048c46392400d55011850118003f048c8)
  (.lf 0)) (.nd (.lf
  0x6fc0dbf021a1ac1a1ac686d1a1b11a1b1bf024a5a41a1b5bf02023606fc09bf011a1a01a1a0686a1a1a51a1a9bf010235c1a1a5bf014a5a05c0b5bf016fc806fc05bf001a1945c0b1bf006fc7c1a19468671a1991a19dbf00023581a199bf004a59c6fc01beff1a1881a18868641a18d1a18dbeff4a5981a191beff023546fb7d702a5e0a85c0adbeff6fc786fbfdbefe1a17c1a17c68611a1811a181befe4a5945c0a9befe6fc741a185befe023506fbf9befd1a1701a170685e1a1751a179befd0234c1a175befd4a5906fbf5befc1a1641a164685b1a1691a16dbefc023481a169befc4a58c5c0a1befc6fc6c6fbf1befb1a1581a15868581a15d1a15dbefb4a5881a161befb023446fbedbefa1a14c1a14c68551a1511a151befa4a5846fc8c08da4a5ac6fb5970215e0845c085bef56fc506fc5008cb4a5706fb6970255e0945c095bef96fc606fc6008cf4a5801a155befa023405c099befa6fc646fbe9bef91a1401a14068521a1451a145bef94a5804a581f9777e6584a591f97b7e6686fc6408d04a5846fc7408d44a5947e61df9863320033200cc823320533205f9864d9bc33209f9864c1bc6fc8808d94a5a86fc9c08de4a5bc4a5bdf9867e694)
  (.lf 0))) (.nd (.nd (.lf
  0x735d1523f568fc568fc084442274735d552405690056900084542278735d95241569045690408464227c735dd52425690856908084742280735e152435690c5690c084842284735e552445691056910084942288735e952455691456914084a4228c735ed52465691856918084b422905691c084c42294735f552485692056920084d42298735f952495692456924084e4229c735fd524a5692856928084f422a073601524b5692c5692c0850422a473605524c56930569300851422a873609524d56934569340852422ac7360d524e56938569380853422b073611524f5693c5693c0854422b473615525056940569400855422b84223c084d0210842240084e0210c42244084f02110422480850021144224c0851021184225008520211c42254085302120422580854021244225c0855021284226008560212c42264085702130422680858021344226c08590213842270085a0213c42274085b0214042278085c021444227c085d0214842280085e0214c42284085f02150422880840021544228c0841021584229008420215c42294084302160422980844021644229c084502168422a008460216c422a4084702170422a8084802174422ac084902178)
  (.lf 0)) (.nd (.lf
  0x51a79b0966c2d4139d1b09655a78139d5b09653a786c259b095139c0139c04e72139c56c2fd4ea855aa051a75b0956c2d06c2d14e9d55a746c3054eaa55aa853aa80339435a0435a10d88436a1436a003394b7a8139c9b09553a74139c5b09555a746c255b094139b4139b44e6f139b9139bdb09453a70139b9b09455a7051a71b0946c2cc6c251b093139a8139a84e6c139ad139b1b09353a6c51a6db0936c2c8139adb09355a6c6c24db0921399c51a69b0926c2c41399c4e69139a1139a5b09253a68139a1b09255a686c249b09113990139904e661399513999b09153a6451a61b0906c2bc13995b09155a6451a65b0916c2c06c245b09013984139844e63139891398db09053a6013989b09055a606c241b08f13978139784e601397d13981b08f53a5c1397db08f55a5c51a5db08f6c2b86c23db08e1396c1396c4e5d1397113971b08e55a5813975b08e53a586c239b08d13960139604e5a1396513969b08d53a5451a55b08d6c2b013965b08d55a546c235b08c1395455aa12dde41418414192dd54b7a8139544e571395913959b08c55a5063e0d2dea00a6451a51b08c6c2ac6c2ad4e9455a5055a512dea413c855a752dd3413ec413ed2dea4b77c)
  (.lf 0)))

def shaGateTree368 : BTree :=
  .nd (.nd (.nd (.lf
  0x5791c02ec4999c5792002ed499a05792402ee499a45792802ef499a85792c02f0499ac5793002f1499b05793402f2499b45793802f3499b85793c02f4499bc5794002f5499c04994402ed00b884994802ee00b8c4994c02ef00b904995002f000b944995402f100b984995802f200b9c4995c02f300ba04996002f400ba44996402f500ba84996802f600bac4996c02f700bb04997002f800bb44997402f900bb84997802fa00bbc4997c02fb00bc04998002fc00bc44998402fd00bc84998802fe00bcc4998c02ff00bd04999002e000bd44999402e100bd84999802e200bdc4999c02e300be0499a002e400be4499a402e500be8499a802e600bec499ac02e700bf0499b002e800bf4499b402e900bf8499b802ea00bfc499bc02eb00b80499c002ec00b8461758024049ac46175c024149ac861760024249acc61764024349ad061768024449ad46176c024549ad861770024649adc61774024749ae061778024849ae46177c024949ae861780024a49aec61784024b49af061788024c49af46178c024d49af861790024e49afc61794024f49b0061798025049b046179c025149b08617a0025249b0c617a4025349b10617a8025449b14617ac025549b18)
  (.lf
  0x133a84cec133ad133b000001347a5397d2ddf43274432750cbd4337513641afea5d944134f4000059a2259a21afea6c0246bfa9afe913630136304d8e1363513639afe95b940134f0000059a1e59a1dafe96c02013635afe95d9406bfa5afe813624136244d8b1362913629afe85d93c0731d8edd4b67c847bd8edd63bf063b758edc07308134d8000059a0259a01afe26c00463f5d8fd6078c0412bd2e1e4b84c078c01e32078c5078c98fd64b880849c18fd663fd4078c58fd600b3c63f598fd5078b4078b41e2f078b9078b98fd500b38078bd8fd54b87c539792dde43270432710cbc43371433712dde4b878849bd8fd563fd063f558fd4078a8849b98fd463fcc078a81e2c078ad078b18fd44b87863fcd2e1e00b344b87990cc643ac643ad467e579f807e7590cf51a046433d90ce07e6007e601f9a07e6507e6590ce57a00412c52e204b85463fd52e2000b3c07e6990ce51a00539812de043278432790cbe43379433792de04b8804b88190ce643b46433990cd07e5407e541f9707e5907e5990cd579fc412c12e1f4b85007e5d90cd519fc63fd12e1f00b38433752ddf4b87c4b87d90cd643b06433590cc07e4807e481f9407e4d07e4d90cc579f8))
  (.nd (.lf
  0x200a40000201820cfb19ed452868020219ed367bc867bc94a195886467b519ed30cf9c0cf9c33e90cfa10cfa19ed358864588648060201b4200a080605a7d420180802620094200948026588610cfa59ed35286445cd808270201c547e0084745dd845dd9179645ed945ed808470201c67b4d9ed20cf900cf9033e60cf950cf959ed2588600201d9ed267bc467bc54a18588605886080265a7d02024dcc975e7807325dcc962023c2023c8091202415a7d9cc96732d420245cc965c77c20241cc965e77c73259cc952023020230808e2023520239cc955c77820235cc955e778201b400005a7d65a7d5cc95732d073255cc942022420224808b202292022dcc945c7745a7d1cc94732cc732cd71dd5e7745c775ccd2733c43c5240a05028003c5280a06028040ce2d9e9402a1c67a519e930ce1c0ce1c33890ce210ce219e9302a183f2540a2602818606f00a463f2d43f2d40a063f355028199e9367ac80ce259e935885c67a4d9e920ce100ce1033860ce150ce199e92588583f2500a2502814606ec0a453f2d03f2d00a053f351028159e9267ac467ac9621702a1867ac5621602a1445cd008250201445cd4082602018547d8084545dd0547dc084645dd4)
  (.lf 0))) (.nd (.nd (.lf
  0x699fd64240414c69a15642a0416469a1d642c0416c699e9641f04138699ed64200413c699f164210414069ad54c1c5907069add4c1e5907869ae54c205908069aed4c225908869af54c245909069afd4c265909869b054c28590a069b0d4c2a590a869b154c2c590b069b1d4c2e590b869b254c30590c069a25642e0417425829d8ce4b24c76339d8cd258182581896082581d25821d8cd038045cd5dd8cd763b0763b00e014b24803805a64e699b4699b56412041042581dd8cd4b2485cd580e004b244763340e004b24503801641104100699bd64140410c699b96413041086993964110410169a21642d0417069a29642f04178699c1641504110699dd641c0412c699e1641d04130699e5641e04134699d9641b04128699d5641a04124590c09cd1273902739000005b0025b001dc8d772b0772b173f55efd45efd5dd09774a077425dd08277c0277c09df2277c5277c9dd0860fd0277c5dd0862fd077235dc8c274f0274f09d3e274f5274f5dc8c5efd0273449cd0272f4272f49cbf272f9272f89cd05affc590bc9cd02738c2738c00005affe5affddc8c772ac772ad73f45efd05efd1dd087749c77421dd07277b4277b49def277b9277bddd0760fcc)
  (.lf 0)) (.nd (.lf
  0x19945bdc85c0285a0cdbdc86f79c19941bdc85e0286f721bdc71993019930664e199356f57d7fde61f7861f7806213bd5c61fc006333bda43bd5c0633018b81979865e41978c1978c65e4581110a605979b5211465e6d979a0a5f00a5f0297e0a5f50a5f5979a581103e3880653018cc5ffa406733e4083e40806333e489018cd975c65dec65ded604401acc419d40473011a0446880493011cc5409004b344788447891202448894488804b3011cc011cd979a65ee465ee54844581100a499975d01ad065d75975c0a4880a48829240a48d0a491975c581105811065e45a0c85a0c9bdc76f79819939bdc75c02419935bdc75e0246f71dbdc61992419924664b199291992dbdc65c0206f5797fdd61f7461f7406203bd583bd500630018ac3bd540631018b03bd580632018b43e37c0650018c05ff9806703e3fc3e3fc06303e47d018c1975965de0197906604197801978065e2197851978466045a0c43e3840652018c85ffa006723e4043e40406323e485018c9975b65de80a48d975c01acc65d71975b0a47c0a47c29210a481419d004720119c446840492011c85408c04b244784447851201448854488404b2011c8011c9979965ee065ee148435810c)
  (.lf 0)))

def shaGateTree369 : BTree :=
  .nd (.nd (.nd (.lf
  0x480992046481994809d20474819d480a12048481a1480a52049481a5480a9204a481a9480ad204b481ad480b1204c481b1480b5204d481b5480b9204e481b94813c10e0042804814010e1042844814410e2042884814810e30428c4814c10e4042904815010e5042944815410e6042984815810e70429c4815c10e8042a04816010e9042a44816410ea042a84816810eb042ac4816c10ec042b04817010ed042b44817410ee042b84817810ef042bc4817c10f0042c04818010f1042c44818410f2042c84818810f3042cc4818c10f4042d04819010f5042d44819410f6042d84819810f7042dc4819c10f8042e0481a010f9042e4481a410fa042e8481a810fb042ec481ac10fc042f0481b010fd042f4481b410fe042f8481b810ff042fc5d155dfd277fc477fc40eff000fc042fdaa0e6a8b46a8b54d105944003bfda9d06a7bc6a7bd6510044fc59440a9535b3685b369e38778e9878e9974d55f3545f355e403790887900de4022a9b02a9b0aa6e2a9b52a9b9e402613502a9b5e4026335078e1de3862a6e02a6e0a9ba2a6e52a6e5e3865f3502a54ca9462a5142a514a9465943d5d151dfd177fc077fc00efe000f877f49dfd128b9428b94a2e728b99)
  (.lf 0)) (.nd (.lf
  0x5a3f1c4aa71324712a9c4a91c9841c98472631c9891c98dc4a95c3700b9199af25246066b49611701e18450d4072601c18543dc0746451d4451d51495452d5452d4074601c1801c199af166c4066bc99af10b9040b9042e430b9090b9099af15845c66c4149175845c5845c723a1c91c1c91c00005a3ee1c804723a1c7f41c7f471ff1c7f91c7f8723a5a3ec5a3edc4a9713201c989c4a95e370712a5c4a81c9781c97872601c97d1c981c4a85c36c0b90d9af15245c66bc59af00b8f80b8f82e400b8fd66b45611601e141c97dc4a85e36c450d0072501c14543d80745451d0451d11494452d1452d0074501c1401c159af066c3c0b8fd9af05845866c3d4916584581c7fc00001c8ea1c8e871fc1c7ec1c7ec71fc584595845871fc5a3e85a3e9c4a87131c712a1c4a71c96c7138570f55e3d4450cc072401c10543d40744451cc451cd1493452cd452cc074401c1001c119aef66c3866c394915584540b9019af05245866bc19aef0b8ec0b8ec2e3d0b8f10b8f19aef584541c7f071fa1c7e41c7e471fa5845566b41611501e105845471fa5a3e45a3e5c4a7713187131970da5e3681c96c725d1c9711c971c4a75e3687137d70f35e3cc3ea4809230240c)
  (.lf 0))) (.nd (.nd (.lf
  0x822ce08b23899038990e266389953899608b24e3e40e1f5a1fa02da4687e9a1f90e1e40e1e4387b0e1e90e1eda1f958be4033a1a1f9688606886162f902da023581d3c3035a474f0dd3c22356c2356c8d5d2357123571d3c24afe423415d3855eafc74e15d38423404234048d03234092340dd3845caf8232c0000074dd674dd5d374232ac232ac8cad232b1232b1d3745ab4858be5d3742338c2338c00005ab4a5ab49d38474e8c74e8d72be5eaf85caf9d3c274f8474f840d684afe44afe608b2823448234532f94e3e44e3e6092e82534824ba092d38c5438c54e31738c5938c5e092d4b36038c5a092d4fbe03899a08b24cbe4822ca08b13898438984e263389893898a08b14e3e00e1e9a1f902da0687e5a1f80e1d80e1d838780e1dd0e1e1a1f858be00339da1f86885c6885d62f802d9c23575d3c2035a074f09d3c123560235608d5a2356523565d3c14afe023409d3845eaf874e11d383233f8233f88d00233fd23401d3835caf4232b4000074dd274dd1d373232a0232a08caa232a5232a5d3735ab4458be1d373233882338800005ab465ab45d38374e8874e8972bd5eaf45caf5d3c174f8074f800d674afe04afe208b1823408234132f84e3e0)
  (.lf 0)) (.nd (.lf
  0x4eb4d281d060e8060e128244a088060e528254a08c060e928264a0906d50005944a0944a095f2387c95c30769f2394d4983076df2394bc986d50405954a0984a099f2397c9607c8e5f2383075830758c1d83075d30761f2384bc943075df2384d4947c8e1f2373074c3074cc1d53075130751f2374d4906d4fc05934a0904a091f2377c95830755f2374bc907c8ddf2363074030740c1d23074530749f2364bc8c15a79b5200164c6d481b51f15a6415a64569b15a6915a6db51f0164815a69b51f4a08c5bba1b51f6d4f86d47db51e15a5815a58569815a5d15a61b51e0164415a5db51e4a0885bb9db51e6d4f46d479b51d15a4c15a4c569515a5115a55b51d016405bb99b51d6d4f015a51b51d4a0846d475b51c15a407c5a928d04ebc05bb95b51c6d4ec7c59928cc4ebb04ebb1281f4a0747c59d28cd4ebb44ebb528204a0787c5a128ce4ebb84ebb928214a07c7c5a528cf4ebbc4ebbd28224a0804ebc128234a0845bb91b51b6d4e86d4e8058e4a07c6d4f805924a08c4a08df2367c95430745f2364d48c7c8d9f2353073430734c1cf307393073df2354bc8830739f2354d4886d4f405914a0884a089f2357c9507c8d5f2343072830728c1cc3072d)
  (.lf 0)))

def shaGateTree370 : BTree :=
  .nd (.nd (.nd (.lf
  0x7a2c1756e5f5b85f5b9e90d7a4b07a435e90c2cc342cc34b30f2cc392cc3de90c615b42cc39e90c635b42c979e8915d5b87a245e8902c9642c964b25b2c9692c969e8905f5b42c7e000007a1d67a1d5e8742c7cc2c7ccb1f52c7d12c7d1e8745b5b42aee1e4c10036079305e4c02aed02aed0abb62aed52aed9e4c003e5c5d3b5e4c07937c7937c0f970035c11f25ac73536a46b1cdac7211f1011f1047c611f1511f15ac72596a00455dac726b2446b2454da8596a011db9ac35047606b0d5ac3411da811da8476c11dad11db1ac34596a003e5dac346b14c6b14d65a80475c596a1e8742c8482c84800005b5b65b5b5e8907a2bc7a2bd756d5f5b45f5b5e90c7a4ac7a431e90b2cc282cc28b30c2cc2d2cc31e90b615b02cc2de90b635b02c96de8905d5b47a241e88f2c9582c958b2582c95d2c95de88f5f5b02c7d400007a1d27a1d1e8732c7c02c7c0b1f22c7c52c7c5e8735b5b02aed5e4c00035c79301e4bf2aec42aec4abb32aec92aecde4bf03e585d3b1e4bf79378793780f960035811f19ac72536a06b1c9ac7111f0411f0447c311f0911f09ac715969c04559ac716b2406b2414da75969c11dadac340475c6b0d1ac3311d9c11d9c476911da1)
  (.lf 0)) (.nd (.lf
  0x4f5712aa6067ec7ff7d2b3d4f5744f5752aa7067f07ff812b3e4f5784f5792aa8067f47ff852b3f4f57c4f57d2aa9067f87ff892b404f5804f5812aaa067fc7ff8d2b414f5844f5852aab068007ff912b424f5884f5892aac068047ff952b434f58c4f58d2aad068087ff992b444f5904f5912aae0680c7ff9d2b454f5944f5952aaf068107ffa12b464f5984f5992ab006814067c12aa44aa88067c52aa54aa8c067c92aa64aa90067cd2aa74aa94067d12aa84aa98067d52aa94aa9c067d92aaa4aaa0067dd2aab4aaa4067e12aac4aaa8067e52aad4aaac067e92aae4aab0067ed2aaf4aab4067f12ab04aab8067f52a914aabc067f92a924aac0067fd2a934aa44068012a944aa48068052a954aa4c068092a964aa500680d2a974aa54068112a984aa58068152a994aa5c7ffa52b474f59c4f59d2a9a4aa607ffa92b484f5a04f5a12a9b4aa647ffad2b494f5a44f5a52a9c4aa687ffb12b4a4f5a84f5a92a9d4aa6c7ffb52b4b4f5ac4f5ad2a9e4aa707ffb92b4c4f5b04f5b12a9f4aa747ffbd2b4d4f5b44f5b52aa04aa787ffc12b4e4f5b84f5b92aa14aa7c7ffc52b4f4f5bc4f5bd2aa24aa807ffc92b504f5c04f5c12aa34aa846732d61a00203c)
  (.lf 0))) (.nd (.nd (.lf
  0x24da0936a24da524da9d75d54e0c24da5d75d56e0c52e0dd75d75df075d75d75c24d9424d94936724d9924d9dd75c54e0824d99d75c56e0852e09d75c75dec75d71d75b24d8824d88936424d8d24d91d75b54e0424d8dd75b56e0452e05d75b75de875d6dd75a24d7c24d7c936124d8124d85d75a54e0024d81d75a56e0052e01d75a75de475d69d75924d7024d70935e24d7524d79d75954dfc24d75d75956dfc52dfdd75975de075d65d75824d6424d64935b24d6924d6dd75854df824d69d75856df852df9d75875ddc75d61d75724d5824d58935824d5d24d61d75754df424d5dd75756df452df5d75775dd875d5dd75624d4c24d4c935524d5124d55d75654df024d51d75656df052df1d75675dd475d59d75524d4024d40935224d4524d49d75554dec24d45d75556dec52dedd75575dd075d55d75424d3424d34934f24d3924d39d75456de852de9d75475dcc75dcd537a56de856de80b9f4276075df1538356e0c56e0c0b884278475e1d538e56e3856e380b93427b0427840b9f02e50427b00b8a02e7c46f380bbf02e7c75e25539056e4054e400bdf47038470391c2e47139471380bdf02e7c02e7da4ba69364692e9a4b90f2640f2643c9b0f269)
  (.lf 0)) (.nd (.lf
  0x7d369f4d93166431664c59b3166931669f4d94edf03166df4d94a5704d5f1f4d97d3e07d365f4d83165831658c5983165d3165df4d84edec31661f4d84a56c4d5edf4d87d3dc7d361f4d73164c3164cc5953165131655f4d74a56831651f4d74ede84d5e9f4d77d3d87d35df4d63164031640c5923164531645f4d64ede431649f4d64a5644d5e5f4d67d3d47d359f4d53163431634c58f316393163df4d54a5604d5e1f4d57d3d031639f4d54ede07d355f4d43162831628c58c3162d3162df4d44eddc4d5ddf4d47d3cc31631f4d44a55c7d351f4d33161c3161cc5893162131621f4d34edd84d5d9f4d37d3c831625f4d34a5587d34df4d23161031610c5863161531615f4d24edd44d5d5f4d27d3c431619f4d24a5547d349f4d13160431604c583316094d5d1f4d17d3c07d3e1295c4edf04edf128c6062c47d3e5295d4edf44edf528c7062c87d3e9295e4edf84edf928c8062cc7d3ed295f4edfc4edfd28c9062d07d40529654ee144ee1528cf062e87d40929664ee184ee1928d0062ec062c528cf4a334062c928d04a338062cd28b14a33c062d128b24a3406e8c8063f4a3404a341f5e57d8107d8112fd04d7404bf41f6237d9087d88df62231e50)
  (.lf 0)))

def shaGateTree371 : BTree :=
  .nd (.nd (.nd (.lf
  0x83e9c01d65189c5189c01b905f6483ea001d7518a0518a001ba05f6883ea401d8518a4518a401bb05f6c83ea801d9518a8518a801bc05f7083eac01da518ac518ac01bd05f7483eb001db518b0518b001be05f7883eb401dc518b4518b401bf05f7c05f0c01b20069c05f1001b3006a005f1401b4006a405f1801b5006a805f1c01b6006ac05f2001b7006b005f2401b8006b405f2801b9006b805f2c01ba006bc05f3001bb006c005f3401bc006c405f3801bd006c805f3c01be006cc05f4001bf006d005f4401a0006d405f4801a1006d805f4c01a2006dc05f5001a3006e005f5401a4006e405f5801a5006e805f5c01a6006ec05f6001a7006f005f6401a8006f405f6801a9006f805f6c01aa006fc05f7001ab0068005f7401ac0068405f7801ad0068805f7c01ae0068c83eb801dd518b8518b801af0069083ebc01de518bc518bc01b00069483ec001df518c0518c001b1006984e8c20fcf83fb883f3e0fce3b3603b360ecda3b3653b36a0fce002f83b3660fce500bc4e8be0fce83fb483f3a0fcd3b3543b354ecd73b3593b35e0fcd002f43b35a0fcd500b84e8ba0fcd83fb083f360fcc3b3483b348ecd43b34d3b3520fcc002f03b34e0fcc500b4)
  (.lf 0)) (.nd (.lf
  0x4da01faad7eb307eb312a604f2004d9f9faab7eb287eb292a5e4f1f84d9f1faa97eb207eb212a5c4f1f04d9e9faa77eb187eb192a5a4f1e84d9e1faa57eb107eb112a584f1e04d9d9faa37eb087eb092a564f1d84d9d1faa17eb007eb012a544f1d04d9c9fa9f7eaf87eaf92a524f1c84da41fabd7eb707eaf5fabc3390833908ce443390d3390dfabc4f23c33911fabc4a9bc4da39fabb7eb684da3dfabc7eb6c7eaf1fabb338fc338fcce413390133901fabb4f23833905fabb4a9b87eaedfaba338f0338f0ce3e338f5338f5faba4f234338f9faba4a9b44da35faba7eb647eae9fab9338e4338e4ce3b338e9338e9fab94f230338edfab94a9b04da31fab97eb607eae5fab8338d8338d8ce38338dd338e1fab84a9ac4da2dfab87eb5c338ddfab84f22c7eae1fab7338cc338ccce35338d1338d1fab74f228338d5fab74a9a84da29fab77eb587eaddfab6338c0338c0ce32338c5338c5fab64f2244da25fab67eb54338c9fab64a9a47ead9fab5338b4338b4ce2f338b9338bdfab54a9a0338b9fab54f2207ead5fab4338a8338a8ce2c338ad4da1dfab47eb4c338b1fab44a99c338adfab44f21c7ead1fab33389c3389cce29338a1338a5fab34a998)
  (.lf 0))) (.nd (.nd (.lf
  0x589c400005a9362159d6a4d21594215956a4d589c968085627202b84589c96a4d5a9385a93572365e8d8740340cff4ae404ae4205e1818008180132904e2404e242065d819f081976065c37c8837c88df2437c8d37c92065c4b1bc37c8e065c4fa3c8178605e0379b8379b8de70379bd379be05e04e23c740300cfe4ae3c4ae3e05e0817fc817fd328f4e23c4e23e065c819ec81972065b37c7c37c7cdf2137c8137c86065b4b1b837c82065b4fa38379c205e04ca3c8178205df379ac379acde6d379b1379b205df4e2387402c0cfd4ae384ae3a05df817f8817f9328e4e2384e23a065b819e88196e065a37c7037c70df1e37c7537c7a065a4b1b437c76065a4fa34379b605df4ca388177e05de379a0379a0de6a379a5379a605de4e234740280cfc4ae344ae3605de817f4817f5328d4e2344e236065a819e48196a065937c6437c64df1b37c6937c6e06594b1b037c6a06594fa30379aa05de4ca348177a05dd3799437994de67379993799a05dd4e230740240cfb4ae304ae3205dd817f0817f1328c4e2304e2320659819e081966065837c5837c58df1837c5d37c6206584b1ac37c5e06584fa2c3799e05dd4ca308177605dc3798837988de643798d)
  (.lf 0)) (.nd (.lf
  0x64d11934308cdc08cdc233908ce108ce1934357ca408ce5934351ca464d0d934208cd008cd0233608cd508cd9934251ca008cd5934257ca064d09934108cc408cc4233308cc908ccd934151c9c14e51b39053bc853c18039543a1043a110ea443b1143b10039500d546cf094f0555c1455c14034a4158c08cc9934157c9c6ce414ef155bc551bc54ef155bc455bc403564153c6cf054f0455c1055c1003494158841588034000d544155c035500d2843910037500d5455c400355415b800d55934064d7c53c1c039643a1443a150ea543b1543b14039600d584158c034100d5841560035600d2c00d59934164d8064d05934008cb808cb8233008cbd08cc1934051c9808cbd934057c9864d01933f08cac08cac232d08cb108cb1933f57c94438fc037000d4053c14039443a0c43a0d0ea343b0d43b0c039400d5055c3c0354415b44390c037400d5041558035400d2400d51933f64d7808cb5933f51c9464cfd933e08ca008ca0232a08ca553c10039343a0843a090ea243b0943b08039300d4c41554035300d2043908037300d4c00d4d933e64d7408ca9933e51c9008ca5933e57c9064cf9933d08c9408c94232708c9953c0c039243a0443a050ea143b05)
  (.lf 0)))

def shaGateTree372 : BTree :=
  .nd (.nd (.nd (.lf
  0x41188101303fcc4118c101403fd041190101503fd441194101603fd841198101703fdc4119c101803fe0411a0101903fe4411a4101a03fe8411a8101b03fec411ac101c03ff0411b0101d03ff4411b4101e03ff8411b8101f03ffc616581020411bc6165c1021411c0616601022411c4616641023411c8616681024411cc6166c1025411d0616701026411d4616741027411d8616781028411dc6167c1029411e061680102a411e461684102b411e861688102c411ec6168c102d411f061690102e411f461694102f411f8616981030411fc6169c103141200616a0103241204616a4103341208616a810344120c616ac103541210616b0103641214616b4103741218616b810384121c616bc103941220616c0103a41224616c4103b41228616c8103c4122c616cc103d41230616d0103e41234616d4103f41238411bc0fe04123d411c00fe141241411c40fe241245411c80fe341249411cc0fe44124d411d00fe541251411d40fe641255411d80fe741259411dc0fe84125d411e00fe941261411e40fea41265411e80feb41269411ec0fec4126d411f00fed41271411f40fee41275411f80fef41279411fc0ff04127d412000ff141281412040ff241285)
  (.lf 0)) (.nd (.lf
  0x1f2f47cbf1f2f91f2f87cd45a72c1f2fc00001f3526782d49ea587a86773561ea02164587a87cd41f3841f3507cd31f2e81f2e87cbc1f2ed1f2ec7cd35a7286782949e9587a46773161e902160587a47cd31f3801f2f000001f34e1f34c7cb91f2e01f2e07cb9587a1587a07cb95a7246772961e7021586782149e75879c1f2e47cb71f2d81f2d87cb75879d5879c7cb75a7206772561e6021546781d49e658798587987cd21f37c1f2dc7cd21f2cc1f2cc7cb51f2d11f2d07cd25a71c1f2d400001f34a1f3487cd11f2c01f2c07cb21f2c51f2c47cd15a7185a745cabc72b6c72af1cabb1f4ec1f4ec7d3d1f4f11f4f5cabb5c6d01f38c00005a7421f4f1cabb5e6d05a741cabb72b6872aedcaba1f4e01f4e07d3a1f4e51f4e9caba5c6cc5a73dcaba72b641f4e5caba5e6cc72ae9cab91f4d41f4d47d371f4d91f38800005a73a5a739cab972b601f4d9cab95e6c81f4ddcab95c6c872ae5cab81f4c81f4c87d341f4cd1f4cdcab85e6c45a735cab872b5c5a731cab772b581f4d1cab85c6c472ae1cab71f4bc1f4bc7d311f4c11f4c1cab75e6c01f4c5cab75c6c072addcab61f4b01f4b07d2e1f4b51f4b9cab65c6bc1f4b5cab65e6bc1f38400005a72e)
  (.lf 0))) (.nd (.nd (.lf
  0x24adc92b924ae124ae5d6e20374c24ae1d6e24b1905cca5d6e275c0475b89d6e124ad024ad092b624ad524ad9d6e10374824ad5d6e14b18c5cca1d6e175c0075b85d6e024ac424ac492b324ac924acdd6e00374424ac9d6e04b1885cc9dd6e075bfc75b81d6df24ab824ab892b024abd24ac1d6df037405cc99d6df75bf875bf80dd04b18403741a5656961075c100dd64b19c03759a56b69628471bc0be002f00471c00be102f04471c40be202f08471c80be302f0c471cc0be402f10471d00be502f1454ec40c00472bc54ec80c01472c054ecc0c02472c454ed00c03472c854ed40c04472cc54ed80c05472d0472bd1ccf473bd472c11cd0473c1472c51cd1473c5472c91cd2473c9472cd1cd3473cd472d11cd4473d1473bc0c0002f00473c00c0102f04473c40c0202f08473c80c0302f0c473cc0c0402f10473d00c0502f1402f15a598696dc02f11a597696d80f6dda59858f5869661a5970f6cc0f6cc3db50f6d10f6d1a59758f540f6d5a59752f546965da5960f6c002f0da596696d40f6c03db20f6c50f6c5a59658f500f6c9a59652f5069659a5950f6b40f6b43daf0f6b90f6bda59552f4c02f09a595696d00f6b9a59558f4c696e54bd858f60)
  (.lf 0)) (.nd (.lf
  0x31f8df65c4ef2c4d72df65c7d9ec7d971f65b31f7c31f7cc7e131f8131f81f65b4ef284d71df6587d9dc4d729f65b7d9e84d721f6597d9e031f85f65b4a6a87d96df65a31f7031f70c7de31f7531f75f65a4ef2431f79f65a4a6a44d725f65a7d9e47d969f65931f6431f64c7db31f6931f69f6594ef2031f6df6594a6a07d965f65831f5831f58c7d831f5d31f61f6584a69c31f5df6584ef1c7d961f65731f4c31f4cc7d531f5131f55f6574a69831f51f6574ef184d719f6577d9d87d95df65631f4031f40c7d231f456efcd6fd45df505bf51bc126f0c46efd16fd55df545bf55bc136f0c86f04dbc1218d3818d38635018d3d18d3dbc124a43c18d41bc12019f86f049bc1118d2c18d2c634d18d3118d35bc11019f418d31bc114a4386efc96fd35df4c5bf4dbc116f0c06f045bc1018d2018d20634a18d2518d25bc104a4346efc56fd25df485bf49bc106f0bc18d29bc10019f06f041bc0f18d1418d14634718d1918d1dbc0f019ec6efc16fd15df4418d19bc0f4a4305bf45bc0f6f0b86f03dbc0e18d0818d08634418d0d18d0dbc0e4a42c6efb16fcd5df345bf35bc0b6f0a86efa16fc95df246efbd6fd05df405bf41bc0e6f0b418d11bc0e019e8)
  (.lf 0)))

def shaGateTree373 : BTree :=
  .nd (.nd (.nd (.lf
  0x6a129a849106a4106a441ab106a9106ada84959274106a9a8490433003a31a8496a1a06a125a848106981069841a81069d1069da8480432c106a1a8485927003a2da8486a19c6a121a8471068c03a29a8476a1981068c41a51069110695a8475926c10691a847043286a11da846106801068041a21068510689a8465926810685a8460432403a25a8466a1946a119a8451067410674419f1067910679a845043201067da8455926403a21a8456a1906a115a8441066810668419c1066d10671a844592601066da8440431c6a111a8431065c1065c41991066110661a8430431810665a8435925c6a1e164ad043706a1d564aa043646a1d164a9043606a1d964ab043686a1dd64ac0436c03a19a8436a1886a1cd64a80435c6a10da842106501065041961065510655a8420431410659a842592586a1e964af043786a1c164a5043506a1c564a6043546a1c964a7043586a1e564ae0437403a15a8426a1846a109a841106441064441931064910649a841043101064da841592546a1ed64b00437c6a1b564a2043446a1b964a3043486a1bd64a40434c6a18564960431403a11a8416a1806a105a8401063803a0da8406a17c1063841901063d10641a84059250)
  (.lf 0)) (.nd (.lf
  0x7f2adfcaa3443034430d10e3443534439fcaa4afb434435fcaa50bb4342d9fc6d4dbb87f1b5fc6c342c8342c8d0b4342cd342d1fc6c4c3b44a7b5fc6c7f22c7f22d30ed4dbb44c3b5fcaa7f3247f2a9fca93442434424d10b344293442dfca94afb034429fca950bb0342cdfc6c4dbb47f1b1fc6b342bc342bcd0b1342c1342c5fc6b4c3b04a7b1fc6b7f2287f22930ec4dbb04c3b1fca97f3207f2a5fca83441834418d1083441d34421fca84afac3441dfca850bac342c1fc6b4dbb07f1adfc6a342b0342b0d0ae342b5342b9fc6a4c3ac4a7adfc6a7f2247f22530eb4dbac4c3adfca87f31c7f2a1fca73440c3440cd1053441134415fca74afa834411fca750ba8342b5fc6a4dbac7f1a9fc69342a4342a4d0ab342a9342adfc694c3a84a7a9fc697f2207f22130ea4dba84c3a9fca77f3187f29dfca63440034400d1023440534409fca64afa434405fca650ba4342a9fc694dba87f1a5fc683429834298d0a83429d342a1fc684c3a44a7a5fc687f21c7f21d30e94dba44c3a5fca67f3147f299fca5343f4343f4d0ff343f9343fdfca54afa0343f9fca550ba03429dfc684dba47f1a1fc673428c3428cd0a53429134295fc674c3a04a7a1fc677f218)
  (.lf 0))) (.nd (.nd (.lf
  0x747a40d2b4aef04aef2074181d8081d8132bc4e2f04e2f207bd81f7081ef607bc3840838408e1043840d3841207bc4b26c3840e07bc4faec3814e07414caf081d0607403813838138e0503813d3813e07404e2ec685814abb58aec22745d1ca034ac74729d1c9227302273089ce2273522735d1c94aeec225d9d18c5ea0474631d18b225c8225c88974225cd225d1d18b5ca002243400002250222500890a2242422424890a58aed58aec890a5aa5c5aa5dd18b746a8746a972805ea005ca01d1c9747a0747a00d2a4aeec4aeee074081d7c81d7d32bb4e2ec4e2ee07bc81f6c81ef207bb383fc383fce101384013840607bb4b2683840207bb4fae83814207404caec81d02073f3812c3812ce04d3813138132073f4e2e86857d4aba58ae822739d1c9034a874725d1c8227242272489cb2272922729d1c84aee8225cdd18b5ea007462dd18a225bc225bc8971225c1225c5d18a5c9fc22428893f224182241889082241d2241c893f5aa5858ae8893f225382253800005aa5a5aa59d18a746a4746a5727f5e9fc5c9fdd1c87479c7479c0d294aee84aeea073f81d7881d7932ba4e2e84e2ea07bb81f6881eee07ba383f0383f0e0fe383f5383fa07ba4b264)
  (.lf 0)) (.nd (.lf
  0x163c1b68353d4c163bdb68355d4c51d4db6836da886da0db682163ac163ac58ed163b1163b5b68253d4809171942451d4851d49b6826da846daf94f6f55dbc6daf14f6d55db46dae94f6b55dac6dae14f6955da46dad94f6755d9c6dad14f6555d946dac94f6355d8c49dc1ede77b8187b79dede62ee802ee80bba22ee852ee89ede64b9bc2ee85ede64d1bc49dbdede67b8147b799ede52ee742ee74bb9f2ee792ee7dede54b9b849db9ede57b8102ee79ede54d1b87b795ede42ee682ee68bb9c2ee6d2ee71ede44b9b449d7dedd67b7d42ee6dede44d1b449db5ede47b80c7b791ede32ee5c2ee5cbb992ee612ee61ede34d1b02ee65ede34b9b049db1ede37b8087b78dede22ee502ee50bb962ee552ee59ede24b9ac2ee55ede24d1ac49dadede27b8047b789ede12ee442ee44bb932ee492ee4dede14b9a82ee49ede14d1a849da9ede17b8007b785ede02ee382ee38bb902ee3d2ee41ede04b9a42ee3dede04d1a449da5ede07b7fc7b781eddf2ee2c2ee2cbb8d2ee312ee35eddf4b9a02ee31eddf4d1a049da1eddf7b7f87b77dedde2ee202ee20bb8a2ee252ee29edde4b99c2ee25edde4d19c49d9dedde7b7f47b779eddd2ee142ee14bb872ee19)
  (.lf 0)))

def shaGateTree374 : BTree :=
  .nd (.nd (.nd (.lf
  0x6ac294d35594d411465aaae045946aab9aaad11454114544517114591145daaad594d403c91aaad6ab306ab31653504590594d56cfb2b3342b33400005b3f25b3f1e567796187961974fa5f3e85f3e9e5e3798087978de5e22b6502b650ad962b6552b659e5e2613e42b655e5e2633e42b395e5675d3e87959de5662b3802b380ace22b3852b385e5665f3e4298b5e1ba00190786e9e1b9298a4298a4a62b298a9298ade1b903c8c5d1e5e1b978760787600f230018c115c5aaeb534d46abadaaea115b0115b0456e115b5115b5aaea594d00438daaea6ac246ac254d34594d011459aaad045906aab5aaac114481144845141144d11451aaac594d003c8daaac6ab2c6ab2d65340458c594d000005b3ee5b3ede566796147961574f95f3e45f3e5e5e27980479789e5e12b6442b644ad932b6492b64de5e1613e02b649e5e1633e02b389e5665d3e479599e5652b3742b374acdf2b3792b379e5655f3e0298a9e1b90018c786e5e1b82989829898a6282989d298a1e1b803c885d1e1e1b87875c7875c0f2200188115b9aaea534d06aba9aae9115a4115a4456b115a9115a9aae9594cc04389aae96ac206ac214d33594cc1144daaac0458c6aab1aaab1143c)
  (.lf 0)) (.nd (.lf
  0x71581c55f1cd8c1cd8c73651cd911cd91c55f564cc524cdc55f715f8715f95133564cc564cc075841e447161d513c564f0564f0074141e687164951475651c5651c074c41e9441e68075801d3441e94074301d600bf919bfc525a866ff19bfb0bf7c0bf7c2fe10bf814541c077801d605452407984551c4551d15674561d4561c079801d6001d619bfb67068670694969585a40bf819bfb585a41d6d8000071ab671ab475b31d6c81d6c875b3585a5585a475b35a5341d875c6ca5e4c471b29c6c91d8641d864761b1d8691d86dc6c95c4c01d869c6c95e4c071b25c6c81d8581d85876181d85d1d861c6c85c4bc1d85dc6c85e4bc71b21c6c71d84c5a535c6c771b9871b99712e5e4b81d84c76151d8511d855c6c75c4b85c4b9c70571c901cd95c55f544cc7157dc55e1cd801cd8073621cd85524c9c55e715f4715f55132564c81cd85c55e564c8564c8075741e4071619513b564ec564ec074041e647164551465651856518074b41e9041e64075701d3041e90074201d5c0bf859bfb525a466fed9bfa0bf700bf702fde0bf750bf759bfa585a045418077701d5c545200797455184551915664561945618079701d5c01d5d9bfa67064670654968585a0)
  (.lf 0))) (.nd (.nd (.lf
  0x24349d5cc0369c75731d5cb243342433490cf2433924339d5cb4b0dc241ddd58e5ebf475639d58d241cc241cc9075241d1241d5d58d5cbf024079d57c2406824068901c2406d2406dd57c5ac3c58cddd57c241602416000005ac3e5ac3dd58d756b0756b172fc5ebf05cbf1d5cb757a8757a80da64b0dc4b0de0a248290c8290d33374e4dc4e4de0aa082afc82a820a9f394ac394ace52d394b1394b60a9f4b458394b20a9f4fcd8391f20a244ccdc828920a23391dc391dce479391e1391e20a234e4d868d2d4b3658cd82433dd5cb036987572dd5ca243282432890cc2432d2432dd5ca4b0d8241d1d58d5ebf075635d58c241c0241c09072241c5241c9d58c5cbec240700000755f2755f090192406024060901958cd958cd890195ac385ac39d58c756ac756ad72fb5ebec5cbedd5ca757a4757a40da54b0d84b0da0a23829088290933364e4d84e4da0a9f82af882a7e0a9e394a0394a0e52a394a5394aa0a9e4b454394a60a9e4fcd4391e60a234ccd88288e0a22391d0391d0e476391d5391d60a224e4d468d294b3558cd424331d5ca0369475729d5c92431c2431c90c92432124321d5c94b0d4241c5d58c5ebec75631d58b241b4241b4906f241b9)
  (.lf 0)) (.nd (.lf
  0x7d171f45b3137c3137cc4e131381314edf4994a9e86e07405e94a1e831385f45b4bde84a1e9f45b7d1e87d1e92f7a4d5e84bde9f4997d2e07d265f498314d8314d8c538314dd314e1f4984a9e40623d28794a1dc6e07005e84a1e44a1e5f45a7d1e47d1e52f794d5e431381f45b4d5e87d16df45a3137031370c4de3137531379f45a4bde44bde5f4987d2dc314ddf498505e47d261f497314cc314ccc535314d1314d1f497505e00623928784a1d8314d5f4974a9e031375f45a4d5e46e06c05e74a1e04a1e1f4597d1e07d1e12f784d5e07d169f4593136431364c4db313693136df4594bde04bde1f4977d2d87d25df496314c0314c0c532314c5314c9f4964a9dc0623528774a1d46e06805e64a1dc4a1ddf4587d1dc7d1dd2f774d5dc31369f4594d5e07d165f4583135831358c4d83135d31361f4584bddc4bdddf4967d2d4314c5f496505dc7d259f495314b4314b4c52f314b9314b9f495505d83135df4584d5dc7d161f4573134c0623128764a1d03134cc4d53135131355f4574bdd86e06405e54a1d84a1d9f4577d1d87d1d92f764d5d84bdd9f4957d2d0314bdf4954a9d87d255f494314a8314a8c52c314ad314b1f4944a9d40622d28754a1cc)
  (.lf 0)))

def shaGateTree375 : BTree :=
  .nd (.nd (.nd (.lf
  0x4cbc2084d821b082136084c387c8387c8e1f4387cd387d2084c00278387ce084c513bc4cbbe084c821ac82132084b387bc387bce1f1387c1387c6084b00274387c2084b513b84cbba084b821a88212e084a387b0387b0e1ee387b5387ba084a00270387b6084a513b44cbb6084a821a48212a0849387a4387a4e1eb387a9387ae08490026c387aa0849513b04cbb20849821a08212608483879838798e1e83879d387a20848002683879e0848513ac4cbae08488219c8212208473878c3878ce1e53879138796084700264387920847513a84cbaa0847821988211e08463878038780e1e2387853878a084600260387860846513a44cba60846821948211a08453877438774e1df387793877e08450025c3877a0845513a04cba20845821908211608443876838768e1dc3876d387720844002583876e08445139c4cb9e08448218c8211208433875c3875ce1d93876138766084300254387620843513984cb9a0843821888210e08423875038750e1d6387553875a084200250387560842513944cb960842821848210a08413874438744e1d3387493874e08410024c3874a0841513904cb920841821808210608403873838738e1d03873d38742084000248)
  (.lf 0)) (.nd (.lf
  0x3be7c067b019d83be80067c019dc3be900660019ec3be940661019f00ac1d989d5223c661f5608e01bf466275989c0ac080ac082b040ac0d6fa515058561600ac0d989c582385616004bd41ad86fa755061561845618404a641afc561b004b141b2841afc04bd012c841b2804a8012f4449b0069d012f4541b806bd44ab044ab112cc44bb144bb006bd012f4012f5989c662ec662ed488e5823858239bfb01a61c3e5a8089b019ec6fd898031620c4600c408bb3e6283e628067b3e6a9019ed985c661ec0ac11989c5223866271989b0abfc0abfc2b010ac010ac05989b52234661ed608c01bec3e5ac089c019f06fd8d8032620c8600c808bc3e62c3e62c067c3e6ad019f1985d661f0661f1608d01bf00ac01989b582346626d989a0abf01a5e000006fec26fec1bfaf1a5cc0abf02afe0abf50abf5989a582300aa99985d01bf066175985c0aa880aa882aa40aa8d0aa91985c582301a5cc69751a5d11a5d1bfaf5a1dc58235bfaf1a6181a5d400006febe6febc69721a5c41a5c46972582315823069725a1d81a5c9bfae1a5b819cc9be73541586f9cdbe7219cb419cb4672f19cb919cb9be72561545214dbe706fa3c52151be716fa4019cbdbe7254154)
  (.lf 0))) (.nd (.nd (.lf
  0x21171cecc0330873bbc0cc64ad5c73c100cdb4adb073bb00cc34ad5073ab572185e8605c861cecc73bac73bac0cc24ad4c2116dcecc4ad4c73b31cecb2115c2115c84592116121165cecb033045a8b572165e8585c8580cc04ad4473c180cdd4adb873c200cdf4adc021161cecb4ad485c85dcecb73ba873b2c0cc04ad4573c040cd84ada473bf80cd54ad9873bf40cd44ad9473bfc0cd64ad9c73c000cd74ada073bf00cd34ad9073c0c0cda4adac73be40cd04ad8473be80cd14ad8873bec0cd24ad8c73c080cd94ada84de42008d802b0802b12b704f6404adc20527815188151932704e1c04c9c2056581610815960564376e8376e8ddbc376ed376f2056400078376ee0564511bc8149e05263758037580dd62375853758a05264c9bc80236008c35ac835ac8d6b435acd35ad2008c4adbc4de3e008c802ac802ad2b6f4f63c73c1c0cde4adbc4adbe05268151481515326f4e1bc4c9be05648160c815920563376dc376dcddb9376e1376e6056300074376e20563511b83758605264e1bc8149a05253757437574dd5f375793757e05254c9b835ace008c4f63c80232008b35abc35abcd6b135ac135ac6008b4adb84de3a008b802a8802a92b6e4f638)
  (.lf 0)) (.nd (.lf
  0x146a051aa146a5146a5b25b61a04143e5b1e05ba086c781b1df143d0143d050f6143d5143d9b1df5ba0414324000059ade143d5b1df5da0459addb1df6c7f86c77db1de143c4143c450f3143c9143cdb1de5ba006c7f96e815da0414320000059ada59ad9b1de6c7f46c7f56e805da00146a9b25b5fa045da05b25b6c9e86c96db25a146941469451a71469914699b25a61a00143c9b1de5da005da01b25a6c9e41469db25a5fa006c969b259146881468851a41468d1468db259619fc6c779b1dd143b8143b850f0143bd143bdb1dd5d9fc1431c000059ad659ad5b1dd6c7f06c7f16e7f5d9fc5d9fdb2596c9e014691b2595f9fc6c965b2581467c1467c51a11468106fe98e5900818639658e5806fd806fd81bf806fdd08231917f00d98645fd917e0822008220208a08225846998e58639dc5f96c04e53d7d03d7d12d563d85108225917e00d94639dd2d56008143d75004c54b55808229917e57ad83b7a52d564b54406fe18e584b5584b559917e64674645f9917d082140821420870821914314000059ace59acdb1db6c7e8143c1b1dd5b9fc6c775b1dc143ac143ac50ed143b1143b1b1dc5d9f8143b5b1dc5b9f814318000059ad259ad1b1dc6c7ec)
  (.lf 0)))

def shaGateTree376 : BTree :=
  .nd (.nd (.nd (.lf
  0x49c28101949ca949c2c101a49cad49c30101b49cb149c34101c49cb549c38101d49cb949c3c101e49cbd49c40101f49cc15d5d5e8d67a3d47a3d4101f0057c0477dae6a6ba246ba254e30598c00407dae2c6b92c6b92d663000afc598c1ebfe5b7d45b7d5ec1d7b0f07b0f175f55f7d45f7d5ec997b2e07b265ec982e6742e674b99f2e6792e67dec98617d02e679ec98637d07b075ec1c2e3a42e3a4b8eb2e3a92e3a9ec1c5f7d07aff9ebfd2e2082e208b8842e20d2e20debfd5b7d07a359e8d52cb202cb20b2ca2cb252cb29e8d5040785d5d1e8d57a3d07a3d0101e005786b9a9ae6912aa412aa44aab12aa912aa9ae69598bc04779ae696ba206ba214e2f598bc6b8b1ae2b1293c1293c4a511294112945ae2b598bc04079ae2b6b9286b929662f00af8598bdebfd2e2442e24400005b7d25b7d1ec1c7b0ec7b0ed75f45f7d05f7d1ec987b2dc7b261ec972e6682e668b99c2e66d2e671ec97617cc2e66dec97637cc2e3adec1c5d7d07b071ec1b2e3982e398b8e82e39d2e39dec1b5f7cc2e21000007aff67aff5ebfc2e1fc2e1fcb8812e2012e201ebfc5b7cc2cb25e8d5005787a355e8d42cb142cb14b2c72cb192cb1de8d4040745d5cde8d47a3cc)
  (.lf
  0x74f41d3f074f9074f98f25009e0074fd8f254b72463c958f24074e8074e81d3c074ed074ed8f24009dc848558f2163d00848598f2263d048485d8f2363d08074f18f244b720848618f2463d0c63c918f23074dc074dc1d39074e1074e18f23009d8074e58f234b71c63c8d8f22074d0074d01d36074d5074d98f224b718074d58f22009d463c898f21074c4074c41d33074c9074c98f21009d0074cd8f214b71463c858f20074b8074b81d30074bd074bd8f20009cc074c18f204b710848518f2063cfc63c818f1f074ac074ac1d2d074b1848498f1e63cf48484d8f1f63cf8848458f1d63cf0074b18f1f009c8074b58f1f4b70c63c7d8f1e074a0074a01d2a074a5074a58f1e009c4074a98f1e4b70863c798f1d07494074941d2707499074998f1d009c00749d8f1d4b70463c758f1c0748884a7d90236410884a8190246410c64091902307adc07adc1eb907ae107ae590234b93c641092e4f00bf84b93d9061642006410d2e5000bfc4b94190626420464189906107c4407c441f1307c4907c4d9061519bc07c499061579bc64185906007c3807c381f1007c3d07c3d9060579b807c419060519b807ae1902300bf86408d902207ad007ad01eb607ad5))
  (.nd (.lf
  0xcc359e2a021e4678a99e290cc240cc24330b0cc290cc2d9e2958824588247ea01fac81fa807e811fa001fa007e8158821606b40a373f2183f21809f73f2993f1980a17027dc027dd9e286791c6791d6208021dc72a4d51e6567985679807eb4211072a2151db5676c5676c07e0420e4420e407f701fb04211007e201fdc45b98081701fdc547a0083745c9845c99174645d9945d98083701fdc1f0c1ca615474c72985ca601f0ac1f0ac7c2d1f0b11f0b1ca605674852749ca60729fc729fd51d2567485674807f7420c001fdd9e6667a1467a154a08588200cc299e29021e0678a59e280cc180cc1833080cc1d0cd959e67528246799d9e660cd800cd8033620cd850cc219e28588200cd859e6658820588207e815a79c1facc00005a7aa3f1940a16027d8606b00a363f2143f21409f63f2950cd899e6652820679999e650cd740cd74335f0cd790cd799e655881c1f0b5ca60547487298151d1567455274551d1567445674407f6420bc72a4951e5567945679407ea4210c420e007f601fac4210c07e101fd845b94081601fd85479c083645c9445c95174545d9545d94083601fd801fd99e6567a101fc047f031fc091fc0dcbaf5c7401fc09cbaf5e740)
  (.lf 0))) (.nd (.nd (.lf
  0x80d2d2d0551014698116405031d0699094c055901426e95dbc9039d476f25dbc826e8026e809ba226e8526e85dbc84b41426d29db8b5ef2c76e2ddb8a26d1826d189b4826d1d26d21db8a5cf2826b589ad426b4c26b4c9ad459015590149ad45af585af59db8a76ea476ea573ca5ef285cf29dbc876f9c76f9c0e744b4144b4160e8e83ab483ab534054e8144e8160f0a83ca483c2a0f093aea43aea4ebab3aea93aeae0f090024c3aeaa0f09500103abea0e8e4d01483a3a0e8d3abd43abd4eaf73abd93abda0e8d4e810369ce032c5101480cb2032b369bc369bcda71369c1369c6032b4b4104c812032b80d2880d292d04510106980d6404031cc699054c045901026e89dbc8039d076f21dbc726e7426e749b9f26e7926e79dbc74b41026d1ddb8a5ef2876e29db8926d0c26d0c9b4526d1126d15db895cf2426b509ad226b4426b449ad259011590109ad25af545af55db8976ea076ea173c95ef245cf25dbc776f9876f980e734b4104b4120e8d83ab083ab134044e8104e8120f0983ca083c260f083ae983ae98eba83ae9d3aea20f08002483ae9e0f085000c3abde0e8d4d01083a360e8c3abc83abc8eaf43abcd3abce0e8c4e80c369c2032b51010)
  (.lf 0)) (.nd (.lf
  0x6f44dbd12193cc193cc64f5193d1193d1bd124a4a46f3cd6fee5dfb85bfb9bd126f4c4193d5bd12022606f449bd11193c0193c064f2193c5193c9bd110225c6f3c96fed5dfb45bfb5bd116f4c0193c5bd114a4a06f445bd10193b4193b464ef193b9193b9bd104a49c19239bcd05dfa81913800005a0525a051bcd06f3bc6f341bccf1922819228648c1922d5a04dbccf6f3b819231bccf5bfa41922dbccf5dfa46f33dbcce1921c1921c6489192216f3c16feb5dfac5bfadbd0f6f4b86f3c56fec5dfb05bfb1bd106f4bc193bdbd10022586f441bd0f193a8193a864ec193ad193adbd0f4a4986f3bd6fea5dfa8193b1bd0f022546f43dbd0e1939c1939c64e9193a1193a5bd0e022505bfa9bd0e6f4b4193a1bd0e4a4946f439bd0d193901939064e61939519399bd0d0224c6f3b96fe95dfa419395bd0d4a4905bfa5bd0d6f4b06f435bd0c193841938464e31938919389bd0c4a48c0a1bd96e001a4c65b8196df0a1ac0a1ac286d0a1b10a1b596df5808c0a319971d5808c3e2840632018485ff2006523e3043e30406123e3850184996df65bf8190a9bcb5190981909864281909d1909dbcb55a0484195004520111c445040472011485400c049244604)
  (.lf 0)))

def shaGateTree377 : BTree :=
  .nd (.nd (.nd (.lf
  0x3cfd80ed203b343cfdc0ed303b383cfe00ed403b3c3cfe40ed503b403cfe80ed603b443cfec0ed703b483cff00ed803b4c3cff40ed903b503cff80eda03b543cffc0edb03b583d0000edc03b5c3d0040edd03b603d0080ede03b643d00c0edf03b683d0100ec003b6c3d0140ec103b703d0180ec203b743d01c0ec303b783d0200ec403b7c3d0240ec503b003d0280ec603b043d02c0ec703b083d0300ec803b0c3d0340ec903b103d0380eca03b144083c0ee003b00408400ee103b04408440ee203b08408480ee303b0c4084c0ee403b10408500ee503b14408540ee603b18408580ee703b1c4085c0ee803b20408600ee903b24408640eea03b28408680eeb03b2c4086c0eec03b30408700eed03b34408740eee03b38408780eef03b3c4087c0ef003b40408800ef103b44408840ef203b48408880ef303b4c4088c0ef403b50408900ef503b54408940ef603b58408980ef703b5c4089c0ef803b60408a00ef903b64408a40efa03b68408a80efb03b6c408ac0efc03b70408b00efd03b74408b40efe03b78408b80eff03b7c611d80f00408bc611dc0f01408c0611e00f02408c4611e40f03408c8611e80f04408cc611ec0f05408d0611f00f06408d4)
  (.lf 0)) (.nd (.lf
  0xb6219a73583d4023919a35669506695160f501d900b4c59a3601d94668d99a350b4b40b4b42d2f0b4b90b4bd9a35583d4583d400005a3661c269c3b15e2f070ec5c3b01c2581c25870981c25d1c261c3b05c2ec5a369c3b070f3c70f3d70bb5e2ec5c2edc3ee710341c3c9c3ee025941c3c5c3ee4a7d870fb9c3ed1c3b41c3b470ef1c3b91c3bdc3ed025901c3b9c3ed4a7d41c25dc3b05e2ec70ec1c3af1c24c1c24c70951c2515a365c3af70f3870f3970ba5e2e81c255c3af5c2e85c2e9c3ed7103070fb5c3ec1c3a81c3a870ec1c3ad1c3adc3ec4a7d07106809724a80c7106009704a80471058096e4a7fc71050096c4a7f471048096a4a7ec7104009684a7e47103809664a7dc7103009644a7d444f48070301b8c543500723450484504914324514945148072301b8c01b8d9a7266a4466a4548f4583d03e9440902023883e94809030238c6026009223e9c46026409233e9c83e9c408e23ea453e9c808e33ea4944f44070201b885434c0722450444504514314514545144072201b8801b899a7166a4066a4148f3583cc0b6259a73523d4669cd9a720b6100b6102d860b6150b6159a72583d00b6199a72523d0669c99a710b6040b6042d830b609)
  (.lf 0))) (.nd (.nd (.lf
  0x4e36e087682254821da08753883438834e20f388393883e08754b2e83883a08754fb683857a07fa4cb6c81fea07f93856438564e15b385693856a07f94e3686876d4ada58b6822ec5d2c10352874b05d2c022eb022eb08bae22eb522eb5d2c04af6822d59d2835ea8074a0dd28222d4822d488b5422d4d22d51d2825ca7c22b60000022c5222c508b1322b4c22b4c8ad522b5122b508b135aad858b688b1322ca422ca400005aada5aad9d28274a8474a85729f5ea7c5ca7dd2c074b7c74b7c0d494af684af6a07f9820608206132da4e3684e36a087582250821d608743882838828e20c3882d3883208744b2e43882e08744fb643856e07f94cb6881fe607f83855838558e1583855d3855e07f84e364687694ad958b6422eb9d2c00352474b01d2bf22ea422ea48bab22ea922ea9d2bf4af6422d4dd2825ea7c74a09d28122d3c22d3c8b5122d4122d45d2815ca7822b54000022c4e22c4c8b1222b4022b408ad222b4522b448b125aad458b648b1222ca022ca000005aad65aad5d28174a8074a81729e5ea785ca79d2bf74b7874b780d484af644af6607f88205c8205d32d94e3644e36608748224c821d208733881c3881ce209388213882608734b2e0)
  (.lf 0)) (.nd (.lf
  0x4bae9f03d7c1707c0f5f03c2fb882fb88bee42fb8d2fb91f03c4a6e47c0752eb94d2e44bae5f03c7c16c2fb8df03c502e47c0f1f03b2fb7c2fb7cbee12fb812fb81f03b502e02fb85f03b4a6e07c0712eb84d2e04bae1f03b7c1687c0edf03a2fb7049ed5effa7c0647c0652eb54d2d47c0692eb64d2d82f9f0be7e2f9f52f9f9effa4bad42f9f5effa4d2d47bfe9eff92f9e42f9e4be7b2f9e92fb70bede2fb752fb79f03a4a6dc2fb75f03a502dc7c0e9f0392fb642fb64bedb2fb692fb69f039502d84bad9f0397c1602fb6df0394a6d87c0e5f0382fb582fb58bed82fb5d2fb61f0384a6d42fb5df038502d44bad5f0387c15c7c0e1f0372fb4c2fb4cbed52fb512fb55f0374a6d02f9edeff94bad04bad1f0377c1582fb51f037502d07c0ddf0362fb402fb40bed22fb452fb45f036502cc2f9e9eff94d2d07bfe5eff82f9d82f9d8be782f9dd2f9e1eff84bacc7c05d2eb34d2cc2fb49f0364a6cc4bacdf0367c1547c0d9f0352fb342fb34becf2fb392fb39f035502c82f9ddeff84d2cc49ec9eff77c05849ec52eb14d2c47bfe1eff72f9cc2f9ccbe752f9d12f9d1eff74d2c82f9d5eff74bac87bfdd2eb14d2c54bac529b1502c47c0592eb24d2c8)
  (.lf 0)))

def shaGateTree378 : BTree :=
  .nd (.nd (.nd (.lf
  0x7987de61e2b7a02b7a0adea2b7a52b7a9e61e555482b7a5e61e5754853549e61e798f4535455551575447987955515754557544113642ebc798f555525754857548113742ec0798f955535754c5754c113842ec4798fd55545755057550113942ec87990155555755457554113a42ecc7990555565755857558113b42ed07990955575755c5755c113c42ed47990d55585756057560113d42ed87991155595756457564113e42edc79915555a5756857568113f42ee079919555b5756c5756c112042ee47991d555c5757057570112142ee879921555d5757457574112242eec79925555e5757857578112342ef079929555f5757c5757c112442ef47992d55605758057580112542ef87993155615758457584112642efc7993555625758857588112742f007993955635758c5758c112842f047993d55645759057590112942f087994155655759457594112a42f0c7994555665759857598112b42f107994955675759c5759c112c42f147994d5568575a0575a0112d42f18799515569575a4575a4112e42f1c79955556a575a8575a8112f42f2079959556b575ac575ac113042f247995d556c575b0575b0113142f2879961556d575b4575b4113242f2c)
  (.lf 0)) (.nd (.lf
  0x71a6951675659c5659c076c41f1441ee8077801db441f14076301de04559c079801de0545a407b84569c4569d15c74579d4579c07b801de001de19c77672583ed9c0998025e0604b809b83ee1c3ee1c09783ee9d5a5c1c7c371f881df91c7c35c54871f0dc7c21df7c5a5bdc7c271f841df7c77e11df811df81c7c25e5441df85c7c25c54471f09c7c11df701df7077de1df751df75c7c15e5401df79c7c15c5405a5b9c7c171f8071f05c7c01df641df6477db1df691df69c7c05e53c1df6dc7c05c53c71f01c7bf1df581df5877d81df5d1df61c7bf5c538672594989586240c0f59c3a01fe4670e99c390c0e40c0e4303b0c0e90c0ed9c3958624025e19c396716067161618901fe00c2519c77586245862477831de3c1de3c00005a5b21ddbc77831ddac1ddac776d1ddb11ddb077835a5b05a5b1c7bf71f7871f79714e5e53871f8571515e54471f8171505e54071f8971525e54871f7d714f5e53c1e0f5c8014aa345c549c8017208072005c8001e0e45c545c8007207c1e0e4783b1e0e91e0e9c8004aa301e0edc800027ec72001c7ff1e0d81e0d878381e0dd1e0e1c7ff027e85c541c7ff720781e0ddc7ff4aa2c71ffdc7fe1e0cc1e0cc78351e0d1)
  (.lf 0))) (.nd (.nd (.lf
  0x35d1a3f56905068fd5a3f40eda80eda83b6c0edad0edb1a3f458e100edada3f402fcc035cda3f46904c68fd1a3f30ed9c0ed9c3b690eda10eda1a3f302fc80eda5a3f358e0c035c9a3f36904868fcda3f20ed900ed903b660ed950ed95a3f202fc4035c5a3f2690440ed99a3f258e0868fc9a3f10ed840ed843b630ed890ed89a3f102fc0035c1a3f1690400ed8da3f158e0468fc5a3f00ed780ed783b600ed7d0ed81a3f058e000ed7da3f002fbc035bda3f06903c68fc1a3ef0ed6c0ed6c3b5d0ed710ed75a3ef58dfc035b9a3ef690380ed71a3ef02fb868fbda3ee0ed600ed603b5a0ed650ed69a3ee58df80ed65a3ee02fb4035b5a3ee6903468fb9a3ed0ed540ed543b570ed590ed59a3ed02fb00ed5da3ed58df4035b1a3ed6903068fb5a3ec0ed48035ada3ec6902c0ed483b540ed4d0ed51a3ec58df00ed4da3ec02fac68fb1a3eb0ed3c0ed3c3b510ed413fd4c0d840359060c680da43fdcc3fdcc0d643fe4d03591a3e5690103fd500d85035943fd540d86035983fd580d870359c3fd5c0d88035a03fd600d89035a43fd640d8a035a860c6c0da53fdd060c700da63fdd460c740da73fdd860c780da83fddc60c7c0da93fde060c800daa3fde4)
  (.lf 0)) (.nd (.lf
  0x5bd6db9016e4806e48006054a258176d1b902018186e409b901176bc176bc5db1176c1176c1b9014a2584a259f5117d4c07d445f5103177831778c5e03177d3177df5104d65409741952051e5865481951f0972c0972c25cd0973117559b8c35dd6c6e30db8c217548175485d541754d1754db8c25dd68173ec5cf9173e043ecc03e400f1053dd4040443fcc43fcd1013440cd440cc040400f1000f11951f654f8654f9479557e54654015f950111009731951f57e54173e05cf957e5557e545cf959e2459e25b8c26e38417551b8c25bd686e309b8c11753c1753c5d511754117545b8c15bd640628528954a24c6e3856f5a5dd685bd69b9006e47c6e47c06044a254176c5b901018146e405b900176b0176b05dae176b5176b5b9004a2544a255f5107d4bc31781f5104be547d441f50f3176c3176cc5dd3177131775f50f4be500628128944a24809735951f51e54653fd5f940110c31771f50f4d650176b9b900018106e401b8ff176a4176a45dab176a9176a9b8ff4a25043ec803e300f0c53dd0040343fc843fc91012440c9440c8040300f0c00f0d951e654f46547d951e097200972025ca0972509725951e57e50654f5479457e5057e51b8b0174ec)
  (.lf 0)))

def shaGateTree379 : BTree :=
  .nd (.nd (.nd (.lf
  0x4cef60d50835bc835420d4f3a46c3a46ce91d3a4713a4760d4f005ac3a4720d4f516f04cef20d4f835b88353e0d4e3a4603a460e91a3a4653a46a0d4e005a83a4660d4e516ec4ceee0d4e835b48353a0d4d3a4543a454e9173a4593a45e0d4d005a43a45a0d4d516e84ceea0d4d835b0835360d4c3a4483a448e9143a44d3a4520d4c005a03a44e0d4c516e44cee60d4c835ac835320d4b3a43c3a43ce9113a4413a4460d4b0059c3a4420d4b516e04cee20d4b835a88352e0d4a3a4303a430e90e3a4353a43a0d4a005983a4360d4a516dc4cede0d4a835a48352a0d493a4243a424e90b3a4293a42e0d49005943a42a0d49516d84ceda0d49835a0835260d483a4183a418e9083a41d3a4220d48005903a41e0d48516d44ced60d488359c835220d473a40c3a40ce9053a4113a4160d470058c3a4120d47516d04ced20d47835988351e0d463a4003a400e9023a4053a40a0d46005883a4060d46516cc4cece0d46835948351a0d453a3f43a3f4e8ff3a3f93a3fe0d45005843a3fa0d45516c84ceca0d45835904cec40160516c4835140160516c5516c4014305db0835900161516c8516c8014405db4835940162516cc516cc014505db8835980163516d0)
  (.lf 0)) (.nd (.lf
  0x5422406d844c1c44c1d132744d1d44d1c06d801a6001a619913664c86fe81508c562306fe7d508b5622c6fe555081562046fe515080562006fe4d507f561fc6fe315078561e06fe2d5077561dc6fe295076561d8561e0069d41b5856204068641b7c56230069141ba841b7c069d01a4841ba8068801a7444b3006bd01a745423806dd44c3044c31132c44d3144d3006dd01a740aee19918522b801a759918664dc0aedd9918582b86646199170aecc0aecc2bb50aed10aed59917522b4561dc069c41b5456200068541b785622c069041ba441b78069c01a4441ba4068701a7044b2c06bc01a705423406dc44c2c44c2d132b44d2d44d2c06dc01a7001a719917664d80aed19917582b4561d8069b41b50561fc068441b7456228068f41ba041b74069b01a4041ba0068601a6c44b2806bb01a6c5423006db44c2844c29132a44d296645d99160aec00aec02bb20aec544d2806db01a6c0aec99916522b00aec59916582b001a6d9916664d46645999150aeb40aeb42baf0aeb90aebd9915522ac1a37dbf68541cc6fda1bf671a3681a36868dc1a36d1a371bf67541c81a36dbf67561c8521c9bf676fe186fe695086562186fe655085562146fe61508456210)
  (.lf 0))) (.nd (.nd (.lf
  0x8120132444e1104e11204dd813f08137604dc3738837388dce43738d3739204dc4b08c3738e04dc4f90c370ce04614c910811860460370b8370b8dc30370bd370be04604e10c7380c0cb24ad0c4ad0e0460811fc811fd32434e10c4e10e04dc813ec8137204db3737c3737cdce1373813738604db4b0883738204db4f908370c204604c90c81182045f370ac370acdc2d370b1370b2045f4e1084ad0a045f811f8811f932424e1084e10a04db813e88136e04da3737037370dcde373753737a04da4b0843737604da4f904370b6045f4c9088117e045e370a0370a0dc2a370a5370a6045e4e1044ad06045e811f4811f532414e1044e10604da813e48136a04d93736437364dcdb373693736e04d94b0803736a04d94f900370aa045e4c9048117a045d3709437094dc27370993709a045d4e1004ad02045d811f0811f132404e1004e10204d9813e08136604d83735837358dcd83735d3736204d84b07c3735e04d84f8fc3709e045d4c90081176045c3708837088dc243708d3708e045c4e0fc4acfe045c811ec811ed323f4e0fc4e0fe04d8813dc8136204d73734c3734cdcd5373513735604d74b0783735204d74f8f837092045c4c8fc81172045b3707c)
  (.lf 0)) (.nd (.lf
  0x88bc2231088c1088c1928b00ee80863d923551b4c648d592340862814a25b2d75ba606cb5db2d614a1014a10528614a1514a19b2d65ba5c5f9dc05013d8c0435c0032100c0400c0592346494c3d8c004c13d9413d84004e1013040130591f664854648555ed200e046494d46d257b4808628218c0862d0862d923457b4857b49b2d66cbd414a15b2d65da5c6cb596e965da59435bc032000c0000c0146d157b4414cf5b3535fa606cd4db35214ce014ce0533a14ce514ce5b35261a5c6cdfd7ea561a946cbd56e975da5c5da5db3526cdc46cdc57e9761a5c088c5928b57c2c5fac0053a3da246c11804fa49e2c61a5c04fa3b84061a9404e83b8783b87804fa013d43da2404fa3daa53d9a4051a013e8013e9928b64aa864a2d928a088b0088b0222e088b53d83c04e0013005f9d805003d8bc3d8bc04c03d93d08631923451b48648d146d157b45084c591f600e04647d95ed100e015b85804c049d446bc5804c049d45013015ed100e0057b456e965da585da597e9661a5814ce9b3525fa5c6cd497e9661a595fabc05393da203d9a00519013e46c11404f949e2861a5804f93b83c6cdf97ea461a9061a9004e73b8743b87404f9013d03da2004f93daa1)
  (.lf 0)))

def shaGateTree380 : BTree :=
  .nd (.nd (.nd (.lf
  0x12159ace2536f06b389ace1121441214448531214912149ace1596ec045a9ace16b4006b4014dbb596ec11fedaca4047ac6b291aca311fdc11fdc47f911fe111fe5aca3596ec596ecb3965b6005b601e97b7a6687a66975805f6005f601e9f77a8587a7dde9f62d2cc2d2ccb4b52d2d12d2d5e9f6615fc2d2d1e9f6635fc2d011e97b5d6007a5ede97a2cffc2cffcb4012d0012d001e97a5f5fc2ce58b3cc2ce482ce48b3942ce4d2ce4cb3cc5b5fc2b541e5ab003a8796ade5aa2b5302b530ad4e2b5352b539e5aa03ea45d3fde5aa79724797240fa9003a41214dace1536ec6b385ace0121381213848501213d1213dace0596e8045a5ace06b3fc6b3fd4dba596e811fe1aca3047a86b28daca211fd011fd047f611fd511fd9aca2596e803ea5aca26b3046b30565ba047a4596e8b3cc2cf702cf7000005b5fe5b5fde97a7a6647a665757f5f5fc5f5fde9f67a8547a7d9e9f52d2c02d2c0b4b22d2c52d2c9e9f5615f82d2c5e9f5635f82d005e97a5d5fc7a5e9e9792cff02cff0b3fe2cff52cff5e9795f5f82ce5000002cf322cf30b3912ce402ce40b391596e55d3f9e5a979720797200fa8003a02b535e5aa003a4796a9e5a92b5242b524ad4b2b529)
  (.lf 0)) (.nd (.lf
  0x1e3adc87b566ac526adc87b72268721edc87a1e39c1e39c78e91e3a11e3a1c87a566a81e3a5c87a546a8526a9c87a72264721e9c8791e3901e39078e61e3951e395c879566a4526a5c879722601e399c879546a4721e5c8781e384526a1c8787225c1e38478e31e3891e389c878566a01e38dc878546a0721e1c8771e3781e37878e01e37d1e37dc8775669c1e381c8775469c5269dc87772258721ddc8761e36c1e36c78dd1e3711e371c876566981e375c8765469852699c87672254721d9c8751e36052695c875722501e36078da1e3651e365c875566941e369c87554694721d5c8741e3541e35478d71e3591e359c8745669052691c8747224c1e35dc87454690721d1c8731e3481e34878d41e34d1e34dc8735668c1e351c8735468c5268dc87372248721cdc8721e33c52689c872722441e33c78d11e3411e341c872566881e345c87254688721c9c8711e3301e33078ce1e3351e335c871566841e339c8715468452685c87172240721c5c8701e3241e32478cb1e3291e329c870566801e32dc8705468052681c8707223c721c1c86f1e3181e31878c81e31d1e321c86f5467c1e31dc86f5667c5267dc86f72238721bdc86e1e30c1e30c78c51e311)
  (.lf 0))) (.nd (.nd (.lf
  0x25d58975825d5d25d5c976e5ae8058f30976e25e0025e0000005ae825ae81d9a1767007670173915ee445ce45d9df767f8767f80e3b4b3304b3320d21835008350133cc4e7304e7320d9d836f0836760d9c3a6883a688e9a43a68d3a6920d9c001683a68e0d9c4ff2c3a3ce0d214cf30834860d203a3b83a3b8e8f03a3bd3a3be0d204e72c361b201bf50f30806fe01be361a0361a0d86a361a5361aa01be4b32c4c72e01be80774807752ccb50f2c0f519a53252f3002ee9a53169540695414bcb58f2c694c9a5310f5040f5043d430f5090f509a53158f2c260b1d9df038ec7677dd9de2609c2609c9829260a1260a1d9de4b32c25f45d9a15ee4476685d9a025f3425f3497cf25f3925f3dd9a05ce4025d60000025dba25db8976d25d4c25d4c975525d5125d50976d5ae7c58f2c976d25dfc25dfc00005ae7e5ae7dd9a0766fc766fd73905ee405ce41d9de767f4767f40e3a4b32c4b32e0d20834fc834fd33cb4e72c4e72e0d9c836ec836720d9b3a67c3a67ce9a13a6813a6860d9b001643a6820d9b4ff283a3c20d204cf2c834820d1f3a3ac3a3ace8ed3a3b13a3b20d1f4e728361a601be50f2c806fa01bd3619436194d867361993619e01bd4b328)
  (.lf 0)) (.nd (.lf
  0x4ee5128de062fc7d6ad29754ee544ee5528df063007d6b129764ee584ee5928e0063047d6b529774ee5c4ee5d28e1063087d6b929784ee604ee6128e20630c7d6bd29794ee644ee6528e3063107d6c1297a4ee684ee6928e4063147d6c5297b4ee6c4ee6d28e5063187d6c9297c4ee704ee7128e60631c7d6cd297d4ee744ee7528e7063207d6d1297e4ee784ee7928e8063247d6d5297f4ee7c4ee7d28e9063287d6d929804ee804ee8128ea0632c7d6dd29814ee844ee8528eb063307d6e129824ee884ee8928ec063347d6e529834ee8c4ee8d28ed063387d6e929844ee904ee9128ee0633c7d6ed29854ee944ee9528ef063407d6f129864ee984ee9928f006344062f128e44a388062f528e54a38c062f928e64a390062fd28e74a3940630128e84a3980630528e94a39c0630928ea4a3a00630d28eb4a3a40631128ec4a3a80631528ed4a3ac0631928ee4a3b00631d28ef4a3b40632128f04a3b80632528d14a3bc0632928d24a3c07d6f529874ee9c4ee9d28da4a3607d6f929884eea04eea128db4a3647d701298a4eea84eea928dd4a36c7d709298c4eeb04eeb128df4a3747d70d298d4eeb44eeb528e04a3787d711298e4eeb84eeb928e14a37c)
  (.lf 0)))

def shaGateTree381 : BTree :=
  .nd (.nd (.nd (.lf
  0x28019de4b551b428015de4b571b4531b5de4b779a87792dde4a2800428004a003280092800dde4a551b028009de4a571b0531b1de4a779a477929de4927ff827ff8a00027ffd28001de49551ac27ffdde49571ac531adde49779a077925de4827fec27fec9ffd27ff127ff5de48551a827ff1de48571a8531a9de487799c77921de4727fe027fe09ffa27fe527fe9de47551a427fe5de47571a4531a5de47779987791dde4627fd427fd49ff727fd927fddde46551a027fd9de46571a0531a1de467799477919de4527fc827fc89ff427fcd27fd1de455519c27fcdde455719c5319dde457799077915de4427fbc27fbc9ff127fc127fc5de445519827fc1de445719853199de447798c77911de4327fb027fb09fee27fb527fb9de435519427fb5de435719453195de43779887790dde4227fa427fa49feb27fa927fadde425519027fa9de425719053191de427798477909de4127f9827f989fe827f9d27fa1de415518c27f9dde415718c5318dde417798077905de4027f8c27f8c9fe527f9127f95de405518827f91de405718853189de407797c77901de3f27f8027f809fe227f8527f89de3f5518427f85de3f5718453185de3f77978778fdde3e27f74)
  (.lf 0)) (.nd (.lf
  0x7ef79fbdd33f1433f14cfc733f1933f1dfbdd4aee833f19fbdd50ae833dbdfba04daec7ee81fb9f33dac33daccf6d33db133db5fb9f4c2e84a6e9fb9f7eef87eef930ba4dae84c2e9fbdd7eff07ef75fbdc33f0833f08cfc433f0d33f11fbdc4aee433f0dfbdc50ae433db1fb9f4dae87ee7dfb9e33da033da0cf6a33da533da9fb9e4c2e44a6e5fb9e7eef47eef530b94dae44c2e5fbdc7efec7ef71fbdb33efc33efccfc133f0133f05fbdb4aee033f01fbdb50ae033da5fb9e4dae47ee79fb9d33d9433d94cf6733d9933d9dfb9d4c2e04a6e1fb9d7eef07eef130b84dae04c2e1fbdb7efe87ef6dfbda33ef033ef0cfbe33ef533ef9fbda4aedc33ef5fbda50adc33d99fb9d4dae07ee75fb9c33d8833d88cf6433d8d33d91fb9c4c2dc4a6ddfb9c7eeec7eeed30b74dadc4c2ddfbda7efe47ef69fbd933ee433ee4cfbb33ee933eedfbd94aed833ee9fbd950ad833d8dfb9c4dadc7ee71fb9b33d7c33d7ccf6133d8133d85fb9b4c2d84a6d9fb9b7eee87eee930b64dad84c2d9fbd97efe07ef65fbd833ed833ed8cfb833edd33ee1fbd84aed433eddfbd850ad433d81fb9b4dad87ee6dfb9a33d7033d70cf5e33d7533d79fb9a4c2d44a6d5fb9a7eee4)
  (.lf 0))) (.nd (.nd (.lf
  0x21e29d08a5e95c7422972565e959743b40d074ae600da91a0bc52a48682f14a9158a453f63c0ca003200608d80cc03f6bc3f6bc0c803f73d743a40d034ae50462bc0aa002a00549c40ac0463bc463bd190f464bd464bc0ac002a0002a014a9158a440d925a07e02c04681f9629102c0103201629102c0058a4400005a9b65a9b572565e9585c9580d004ae44743200d004ae457439c0d014ae48743a00d024ae4c743b80d084ae64743c00d0a4ae6c743c80d0c4ae74743d00d0e4ae7c743d80d104ae84743e00d124ae8c743e80d144ae94743f00d164ae9c743f80d184aea4744000d1a4aeac744080d1c4aeb44aec2069b81ae881ae932b04e2c04e2c2071781cd881c5e0716380c0380c0e032380c5380ca07164b23c380c607164fabc81a6e069a37df037df0df7e37df537df6069a4e2bc4aebe069a81ae481ae532af4e2bc4e2be071681cd481c5a0715380b4380b4e02f380b9380be07154b238380ba07154fab837dfa069a4cabc81a6a069937de437de4df7b37de937dea06994e2b84aeba069981ae081ae132ae4e2b84e2ba071581cd081c560714380a8380a8e02c380ad380b207144b234380ae07144fab437dee06994cab881a66069837dd8)
  (.lf 0)) (.nd (.lf
  0x6d685b5a015d7015d70575e15d7515d75b5a055d2015d79b5a053d2051d21b5a06d6fc6d681b59f15d6415d64575b15d6915d69b59f55d1c15d6db59f53d1c6d67db59e15d5815d58575815d5d15d61b59e53d1815d5db59e55d1851d19b59e6d6f46d679b59d15d4c15d4c575515d5151d15b59d6d6f015d55b59d53d1415d51b59d55d146d675b59c15d4015d40575215d4515d49b59c53d1015d45b59c55d1051d11b59c6d6ec6d671b59b15d3451d0db59b6d6e815d34574f15d3915d3db59b53d0c15d39b59b55d0c6d66db59a15d2815d28574c15d2d15d31b59a53d0859cf9b5df6d7f815f6c000059d0e59d15b5e66d8146d799b5e5160d0160d05836160d5160d9b5e55bc5015f70000059d1259d11b5e56d810160d5b5e55dc506d795b5e4160c4160c45833160c9160cdb5e45bc4c160c9b5e45dc4c59d0db5e46d80c6d791b5e3160b8160b85830160bd160c1b5e35bc48160bdb5e35dc4815f68000059d0a59d09b5e36d8086d78db5e2160ac160ac582d160b1160b5b5e25bc44160b1b5e25dc4459d05b5e26d8046d789b5e1160a0160a0582a160a5160a9b5e15bc40160a5b5e15dc4015f64000059d0259d01b5e16d8006d785b5e016094)
  (.lf 0)))

def shaGateTree382 : BTree :=
  .nd (.nd (.nd (.lf
  0x6a901aa3f1122c1122c448d1123111235aa3f5948c5948caaf25b3b45b3b5e47d792707927174e85f3a05f3a1e4f979460793e5e4f82aff02aff0abfe2aff52aff9e4f86139c2aff5e4f86339c2ad35e47d5d3a0791f5e47c2ad202ad20ab4a2ad252ad25e47c5f39c2abc9e4672abb82abb8aaf02abbd2abbde4675b3b029251e0bd00148782f5e0bc2924029240a4922924529249e0bc03c445d19de0bc7836c7836c0f11001441139daa7d5348c6a9f5aa7c113881138844e41138d1138daa7c5948804345aa7c6aa6c6aa6d4d225948811231aa3f045486a8fdaa3e1122011220448a1122511229aa3e5948803c45aa3e6a9746a97565220454459489e4672ac502ac5000005b3b25b3b1e47c7926c7926d74e75f39c5f39de4f87945c793e1e4f72afe42afe4abfb2afe92afede4f7613982afe9e4f7633982ad29e47c5d39c791f1e47b2ad142ad14ab472ad192ad19e47b5f3982abc000007919e7919de4662abac2abacaaed2abb12abb1e4665b3ac29245e0bc00144782f1e0bb2923429234a48f292392923de0bb03c405d199e0bb78368783680f100014011391aa7c534886a9f1aa7b1137c1137c44e11138111381aa7b5948404341aa7b6aa68)
  (.lf 0)) (.nd (.lf
  0x1d29074a61d2951d299c5fc026cc1d295c5fc4a910717f1c5fb1d2841d28474a31d2891d289c5fb4a90c7177171085e4205c421c5fb718681d28dc5fb026c8717edc5fa1d2781d27874a01d27d1d27dc5fa4a9085c41dc5fa718641d281c5fa026c4717e9c5f91d26c7175d71035e40c7176171045e4105c419c5f9718601d26c749d1d2711d271c5f94a9041d275c5f9026c0717e5c5f81d2601d260749a1d2651d269c5f8026bc7176571055e4145c40dc5f6718545c411c5f7718585c415c5f87185c1d265c5f84a900717e1c5f71d2541d25474971d2591d25dc5f7026b81d259c5f74a8fc717ddc5f61d2481d24874941d24d1d24dc5f64a8f81d251c5f6026b4717d9c5f51d23c1d23c74911d2411d241c5f54a8f41d245c5f5026b07175971025e4087175171005e4005c409c5f571850717d5c5f41d2301d230748e1d2355c405c5f47184c1d239c5f4026ac1d235c5f44a8f0717d1c5f31d2241d224748b1d2291d22dc5f3026a85c401c5f3718481d229c5f34a8ec717cdc5f21d2181d21874881d21d5a475c5b3717481d221c5f2026a41d0adc5b35c3f87174970fe5e3f85c3f9c5f1718401d21dc5f24a8e87174d70ff5e3fc5c3fdc5f271844)
  (.lf 0))) (.nd (.nd (.lf
  0x75229d48923af023af08ebe23af523af9d4895cb74239988e642398c2398c8e6458c6158c608e645abc45abc5d489752a0752a172dd5eb745cb75d4c775398753980d874b0604b062096b826288262933184e4604e46209e7828188279e09e63908039080e422390853908a09e64b3dc3908609e64fc5c38dc6096b4cc60825ae096a38db038db0e36e38db538db6096a4e45c0e4ada27402e1c689d1a2730e49c0e49c39290e4a10e4a5a27358c5c03419a27368a4868a49631702e1823c61d4c70361c7531dd4c623c4c23c4c8f1523c5123c51d4c64b05c23af5d4895eb7475225d48823ae423ae48ebb23ae923aedd4885cb7023991d47823980239808e622398523985d4785abc058c5dd47823a7c23a7c00005abc25abc1d4887529c7529d72dc5eb705cb71d4c675394753940d864b05c4b05e096a826248262533174e45c4e45e09e6828148279a09e53907439074e41f390793907e09e54b3d83907a09e54fc5838dba096a4cc5c825aa096938da438da4e36b38da938daa09694e4580e4a1a27302e18689cda2720e4900e49039260e4950e499a27258c5803415a27268a4468a45631602e1423c55d4c60361875319d4c523c4023c408f1223c45)
  (.lf 0)) (.nd (.lf
  0x7cf71f3db3107c3107cc4213108131085f3db4a95831081f3db505587cef12f564d5584bd59f3db7cfe87cf6df3da3107031070c41e3107531075f3da505547ceed2f554d55430f11f39c4bd544bd55f3da7cfe431079f3da4a9547cf69f3d93106431064c41b3106931069f3d950550061cd28534a144061d128544a14865091475157d451686db7010171030f0df39c4d5547ce71f39b30efc6dc05b70016858168585a181685d1685db7004a1505bc65b7006dc7c30efcc3c130f0130f05f39b4bd506dc7c05c34a1504a151f39b7cee830f01f39b4d5507ce6df39a30ef07cee92f544d5504bd51f3d97cfe03106df3d94a9507cf65f3d83105831058c4183105d31061f3d84a94c3105df3d85054c16861b7000170c6dc01b6ff1684c1684c5a151685116851b6ff4a14c6dc7805c24a14c4a14df39a7cee430ef0c3be30ef57cee52f534d54c30ef9f39a4bd4c4bd4df3d87cfdc7cf61f3d73104c3104cc4153105131051f3d7505485bc5db6fe6dc746dc7405c14a14816855b6ff017086dbfdb6fe16840168405a121684516845b6fe4a1484a149f3997cee03dc3c0560015005fbd805803dcbc3dcbc05403dd3d015015f510100043bbc03a000e00)
  (.lf 0)))

def shaGateTree383 : BTree :=
  .nd (.nd (.nd (.lf
  0x7761ddd8627b5427b549ed727b5927b5ddd865d01c279dddd6e279cc279cc9e75279d1279d1dd6e5b04859109dd6e27a7427a7400005b04a5b049dd86776947769574075f01c5d01dddc47778c7778c0eb14b5084b50a0fff840788407934424e9084d10a103d84170840f6103c3b5883b588ed643b58d3b592103c007c03b58e103c519043b4320fff4e90883ffe0ffe3b4203b420ed0a3b4253b42a0ffe4d1043997a0b654fd8882d960b643996839968e65c3996d399720b644b504396ae0ae94cd8882ba60ae83969839698e5a83969d3969e0ae84e5844b1860ae882c1c82c1d33614e5844e5860b6482e0c82e0d2d414fd843721a049d5110881276049c3720837208dc843720d37212049c4b5044c906049c812ec812ed2d415110469be16441041c027cc5ddc403ac477711ddc327cb027cb09f2e27cb527cb5ddc34b50427b59dd865f01c77619dd8527b4827b489ed427b4d27b51dd855d018279d40000775ba775b9dd6d279c0279c09e72279c5279c5dd6d5b04459105dd6d27a7027a7000005b0465b045dd85776907769174065f0185d019ddc377788777880eb04b5044b5060ffe840748407534414e9044d106103c8416c840f2103b3b57c)
  (.lf 0)) (.nd (.lf
  0x44919126644a1944a1806970125c0125d981a660e4660e54868581a06f95d7ffe61ff861ff806413bddc6f9617fff61ffc61ffc06423bde06f9658000620006200006433bde46f9698001620046200406443bde86f96d8002620086200806453bdec6204006533be246204406543be286204806553be2c6204c06563be306205006573be343bddc0653019383bde006540193c3bde40655019403bde80656019443bdec0657019480a94d9821521bc6608598200a9380a9382a500a93d0a93d9820581b866005606e01b74581b867b75a16019edc67c119ecc19ecc67b519ed119ed4000019f060a9419820521b866081981f0a92c0a92c2a4d0a9310a931981f581b466001606d01b70581b467c119f2c19ed067c15a15c19f0467b219ec40a935981f521b46607d981e0a9200a9202a4a0a9250a925981e581b065ffd606c01b6c19ec467b2581b1581b067b25a15819ec867b019ebc19ebc67b0581ad0a929981e521b066079981d0a9140a9142a470a9190a919981d581ac65ff9606b01b68581ac67b05a1540a91d981d521ac66075981c0a9080a9082a440a90d0a911981c521a80a90d981c581a866071981b0a8fc0a8fc2a410a9010a905981b521a4)
  (.lf 0))) (.nd (.nd (.lf
  0x528f1cd52735c420691cd52568f073549cd51206803c5a40a25028803c5a80a26028843c5ac0a27028883c5b00a280288c3c5b40a29028903c5b80a2a028941ee59c9ee4aaf0727b9c9ed1ee481ee487b941ee4d1ee51c9ed028a85c601c9ed728301ee4dc9ed4aaec727b5c9ec1ee3c1ee3c7b911ee411ee41c9ec4aae85c5fdc9ec7282c1ee45c9ec028a4727b1c9eb1ee301ee307b8e1ee351ee39c9eb028a05c5f9c9eb728281ee35c9eb4aae4727adc9ea1ee241ee247b8b1ee291ee29c9ea4aae05c5f5c9ea728241ee2dc9ea0289c727a9c9e91ee181ee187b881ee1d1ee21c9e9028981ee1dc9e94aadc5c5f1c9e972820727a5c9e81ee0c1ee0c7b851ee111ee11c9e84aad85c5edc9e87281c1ee15c9e802894727a1c9e71ee001ee007b821ee051ee09c9e7028905c5e9c9e7728181ee05c9e74aad47279dc9e61edf41edf47b7f1edf91edfdc9e60288c1edf9c9e64aad05c5e5c9e67281472799c9e51ede81ede87b7c1eded1edf1c9e5028881ededc9e54aacc5c5e1c9e57281072795c9e41eddc1eddc7b791ede11ede5c9e4028841ede1c9e44aac85c5ddc9e47280c67d1d625002afc58941cd945a8b05a8b1cdb3737487374972155e854)
  (.lf 0)) (.nd (.lf
  0x846d18e6663a14070898e664b590639998e6507074846cd8e6563a10070741c1f070790707d8e654b58c070798e6500848639958e6407068070681c1c0706d070718e644b588846c98e6463a0c0706d8e6400844639918e630705c0705c1c1907061070658e634b584846c58e6363a08070618e63008406398d8e6207050070501c1607055070558e620083c070598e624b580846c18e6263a04639898e6107044070441c1307049070498e61008380704d8e614b57c846bd8e6163a00639858e6007038070381c100703d070418e604b5780703d8e6000834846b98e60639fc639818e5f0702c0702c1c0d07031070318e5f00830846b58e5f639f8070358e5f4b5746397d8e5e07020070201c0a07025846b18e5e639f4070298e5e4b570070258e5e0082c639798e5d07014070141c0707019846ad8e5d639f00701d8e5d4b56c070198e5d00828639758e5c07008070081c040700d0700d8e5c00824070118e5c4b568846a98e5c639ec639718e5b06ffc06ffc1c0107001070058e5b4b56451ac1b0a86c31c6c2a1b0a713a9813a984ea813a9d13aa1b0a753abc13a9db0a755abc51abdb0a76c3186c29db0a613a8c13a8c4ea513a9113a95b0a653ab8)
  (.lf 0)))

def shaGateTree384 : BTree :=
  .nd (.nd (.nd (.lf
  0x2e404b9032e4092e40dec44008a02e409ec44007205d779ec447b18c7b111ec432e3f82e3f8b9002e3fd2e401ec430089c2e3fdec430071c5d775ec437b1887b10dec422e3ec2e3ecb8fd2e3f12e3f5ec42008982e3f1ec42007185d771ec427b1847b109ec412e3e02e3e0b8fa2e3e52e3e9ec41008942e3e5ec41007145d76dec417b1807b105ec402e3d42e3d4b8f72e3d92e3ddec40008902e3d9ec40007105d769ec407b17c7b101ec3f2e3c82e3c8b8f42e3cd2e3d1ec3f0088c2e3cdec3f0070c5d765ec3f7b1787b0fdec3e2e3bc2e3bcb8f12e3c12e3c5ec3e008882e3c1ec3e007085d761ec3e7b1747b0f9ec3d2e3b02e3b0b8ee2e3b52e3b9ec3d008842e3b5ec3d007045d75dec3d7b1707b1e8023f0077c7b1e4023e007787b1e0023d007747b1dc023c007707b1d8023b0076c7b1d4023a007687b1d00239007647b1cc0238007607b1c802370075c7b1c40236007587b1c00235007547b1bc0234007507b1b802330074c7b1b40232007487b1b00231007447b1ac0230007407b1a8022f0073c7b1a4022e007387b1a0022d007347b19c022c007307b198022b0072c7b194022a007287b1900229007247b18c0228007207b18802270071c)
  (.lf
  0x6c1e57e4561914619152d793b6f863ab18eab0723c0723c1c9107241072458eab4b62c08051911700d683b6f92d8b4b61863b292d8b008e84b62d9117644d86445d911608040847852d9100900072418eab008e863aad8eaa07230072301c8e07235072398eaa4b6283d6912d664b618847698eaa63b24072358eaa008e463aa98ea907224072241c8b072290722d8ea94b624072298ea9008e0847658ea963b2063aa58ea807218072181c880721d0721d8ea8008dc072218ea84b620847618ea863b1c63aa18ea70720c0720c1c85072110804020120804508049911657aa80727d8ed0009045f8592d513d5bc3d5bd2d913d63d63b412d91009014b6455e7100c8007c55908200c84642095e7100c81579c40000599b61350dafd05b8dc599b56e365d8d86bf416e365d8d95d8d97e36618d8137ddb04c5f8dc6c1317e36618d9618d92d8a3b6bc6c1e17e4461910619112d783b6f43b6f52d8a4b6143d6a12d6a4b62808045911600d6463b252d8a008e45f93c04d93d7203d7212d8a3d7a14b6299116644d4644599115080346c1d57e4161904619052d753b6e83b6e92d874b6086c1dd7e436190c6190d2d773b6f03b6f12d894b6108475d8ea763b18))
  (.nd (.lf
  0x1eeadc9f54ab0c727d5c9f41ee9c1ee9c7ba91eea11eea1c9f44ab085c61dc9f47284c1eea5c9f4028c4727d1c9f31ee901ee907ba61ee951ee99c9f3028c05c619c9f3728481ee95c9f34ab04727cdc9f21ee841ee847ba31ee891ee89c9f24ab005e769cd0d734b05e771cd0f734b8204f1cd0f607707343dcd0e204dc204dc8139204e1204e1cd0e6276c204e5cd0e6076c5e76dcd0e734b473439cd0d204d0204d08136204d5204d5cd0d62768204d9cd0d6076873435cd0c204c4204c48133204c9204c9cd0c62764204cdcd0c607645e765cd0c734ac73431cd0b204b8204b88130204bd204bdcd0b62760204c1cd0b607605e761cd0b734a87342dcd0a204ac204ac812d204b1204b1cd0a6275c204b5cd0a6075c5e75981d6627585e75dcd0a734a47342981d662759627580a393c53c734a581d76275c6275c0a3a3c540734a981d862760627600a3b3c544734ad81d962764627640a3c3c548734b181da62768627680a3d3c54c734b581db6276c6276c0a3e3c550734b981dc62770627700a3f3c554734bd81dd62774627740a203c558734c181de62778627780a213c55c734c581df6277c6277c0a223c560734c981e062780627800a233c564)
  (.lf 0))) (.nd (.nd (.lf
  0x3727e04a54b5284c92a04a581310813112d4a5112869cfd4c4a5912869c05644a041e427d31ddcd03ae877735ddcc27d1c27d1c9f4927d2127d21ddcc4b52827bc5dd8f5f0407763ddd8e27bb427bb49eef27bb927bbddd8e5d03c27a2c0000775ca775c89e8827a1c27a1c9e8859129591289e885b0685b069dd8e776b4776b5740f5f03c5d03dddcc777ac777ac0eb94b5284b52a10078409884099344a4e9284d12a1045841908411610443b5e83b5e8ed7c3b5ed3b5f21044007e03b5ee1044519243b49210074e9288401e10063b4803b480ed223b4853b48a10064d124399da0b6d4fda882db60b6c399c8399c8e674399cd399d20b6c4b5243970e0af14cda882bc60af0396f8396f8e5c0396fd396fe0af04e5a44b1a60af082c3c82c3d33694e5a44e5a60b6c82e2c82e2d2d494fda43727a04a5511288129604a43726837268dc9c3726d3727204a44b5244c92604a48130c8130d2d495112469c016449041e027d25ddcc03ae477731ddcb27d1027d109f4627d1527d15ddcb4b52427bb9dd8e5f03c77639dd8d27ba827ba89eec27bad27bb1dd8d5d03827a209e8627a1427a149e8659125591249e865b0645b065dd8d776b0776b1740e5f038)
  (.lf 0)) (.nd (.lf
  0x6f90dbe4219bf419bf466ff19bf919bfdbe426002019bf9be42620205e021be426f9846f909be4119be819be866fc19bed19bf1be416001c19bedbe416201c5e01dbe416f9806f905be4019bdc19bdc66f919be119be5be406001819be1be40620185e019be406f97c6f901be3f19bd019bd066f619bd519bd9be3f6001419bd5be3f620145e015be3f6f9786f8fdbe3e19bc419bc466f319bc919bcdbe3e6001019bc9be3e620106f8f9be3d19bb819bb866f019bbd19bbdbe3d6200c19bc1be3d6000c5e005be3b6f9685e00dbe3d6f9706f8f5be3c19bac19bac66ed19bb119bb5be3c6000819bb1be3c620085e009be3c6f96c6f8f1be3b19ba019ba066ea19ba519ba9be3b6000419ba5be3b620046f8edbe3a19b9419b9466e719b995dff9be386f95c19b9dbe3a6000019b99be3a620005e001be3a6f9646f8e9be3919b8819b8866e419b8d5dffdbe396f96019b8dbe3961ffc19b91be395fffc6f8e5be3819b7c19b7c66e119b8119b85be385fff819b81be3861ff86f8e1be3719b7019b7066de19b7519b75be3761ff419b79be375fff45dff1be366f9545dff5be376f9586f8ddbe3619b6419b6466db19b6919b69be3661ff06f9557ffc61ff0)
  (.lf 0)))

def shaGateTree385 : BTree :=
  .nd (.nd (.nd (.lf
  0x2b089e504613cc2b085e504633cc2adc5e4895d3d079225e4882adb02adb0ab6e2adb52adb5e4885f3cc2ac34ab0b2ac282ac28ab0b594b95d1cde0c87839c7839c0f1d00174292e1e0c90017878325e0c8292d0292d0a4b6292d5292d9e0c803c7403c75aa4a6a9a46a9a5652e045741142daa89534bc6aa25aa88114181141845081141d1141daa88594b804375aa886aa9c6aa9d4d2e594b8112c1aa4b045786a92daa4a112b0112b044ae112b5112b9aa4a594b8594b8ab0b5b3e05b3e1e4887929c7929d74f35f3cc5f3cde5047948c79411e5032b0742b074ac1f2b0792b07de503613c82b079e503633c82adb9e4885d3cc79221e4872ada42ada4ab6b2ada92ada9e4875f3c82ac2de46a2ac1c2ac1cab092ac212ac21e46a5b3dc292d5e0c80017478321e0c7292c4292c4a4b3292c9292cde0c703c705d1c9e0c778398783980f1c0017011421aa88534b86aa21aa871140c1140c45051141111411aa87594b404371aa876aa986aa994d2d594b4112b5aa4a045746a929aa49112a4112a444ab112a9112adaa49594b403c71aa496a9a06a9a1652d04570594b5e46a2ac5c2ac5c00005b3de5b3dde487792987929974f25f3c85f3c9e50379488)
  (.lf 0)) (.nd (.lf
  0x66e91494f5853c5853c74035a4cc66d95614e01ef466e8d494e5853858539c5aa1d04866e85494c5853066e89494d585341d00dc5aa1cffc1cffc74011d0011d001c5aa5a4c81d0040000716aa716a873fe1cff41cff473fe5853566d91614d01ef05853473fe5a4c41cff873fc1cfec66d8d614c01eec1cfec73fc585315853073fc5a4c01cff073fa1cfe466d79614701ed866e7149475851c66e7d494a5852866d85614a01ee458529c5a91d0441cfe473fa5852d66d89614b01ee866e81494b5852c5852c73fa5a4bc1cfe9c5a91cfd81cfd873f81cfdd1cfddc5a95a4b81cfe00000716a6716a473f51cfd01cfd073f55852566d81614901ee066e794949585245852473f55a4b41cfd5c5a81cfc41cfc473f31cfc91cfc9c5a85a4b066e7549485852066d7d614801edc58521c5a81d0401cfcc0000716a2716a073f01cfbc1cfbc73f05851d5851c73f05a4ac66e6d49465851866d75614601ed458519c5a71d03c1d03c00005a4aa66e6549445851058511c5a51d0341d03400005a4a21d1b1c5c95e4505a4cdc5c9717a071725c5c81d1a01d1a0746a1d1a51d1a9c5c85c44c1d04800005a4ca5a4c9c5c87179c1d1a5c5c85e44c71721c5c71d194)
  (.lf 0))) (.nd (.nd (.lf
  0x3911a09f24b40c3911609f24fc8c38e5609774cc90825de097638e4038e40e39238e4538e4609764e48c0e53da28002e4c68a01a27f0e52c0e52c394d0e5310e535a27f58c8c03449a27f68a7868a79632302e4823cf1d4d30364c7534dd4d223cdc23cdc8f3923ce123ce1d4d24b08c23b85d4955eba475255d49423b7423b748edf23b7923b7dd4945cba023a048e7f239f8239f88e7f58c8d58c8c8e7f5abf05abf1d494752cc752cd72e85eba05cba1d4d2753c4753c40d924b08c4b08e0976826548265533234e48c4e48e09f282844827ca09f13910439104e443391093910e09f14b4083910a09f14fc8838e4a09764cc8c825da097538e3438e34e38f38e3938e3a09754e4880e531a27f02e48689fda27e0e5200e520394a0e5250e529a27e58c8803445a27e68a7468a75632202e4423ce5d4d20364875349d4d123cd023cd08f3623cd523cd5d4d14b08823b79d4945eba075251d49323b6823b688edc23b6d23b71d4935cb9c239fc8e7d239f0239f08e7d58c8958c888e7d5abec5abedd493752c8752c972e75eb9c5cb9dd4d1753c0753c00d914b0884b08a0975826508265133224e4884e48a09f182840827c609f0390f8390f8e440390fd)
  (.lf 0)) (.nd (.lf
  0x7cb0d28f54ec544ec55285f061a07cb1128f64ec584ec592860061a47cb1528f74ec5c4ec5d2861061a87cb1928f84ec604ec612862061ac7cb1d28f94ec644ec652863061b07cb3929004ec804ec81286a061cc7cb3d29014ec844ec85286b061d07cb4129024ec884ec89286c061d40619928664a1900619d28674a194061a128684a198061a528694a19c061a9286a4a1a0061ad286b4a1a4061b1286c4a1a86dcd805da4a1ac4a1adf3b27cf446dcdc05db4a1b04a1b1f3b37cf483102df3b44d5b47ced1f3b33101c3101cc4093102131025f3b34bdb031021f3b34d5b07cecdf3b23101031010c4063101531015f3b24d5ac31019f3b24bdac7cec9f3b13100431004c4033100931009f3b14d5a86dcd405d94a1a83100df3b14bda84a1a9f3b17cf407cec5f3b030ff830ff8c40030ffd31001f3b04bda430ffdf3b04d5a46dcd005d84a1a44a1a5f3b07cf3c7cec1f3af30fec6dccc05d74a1a04a1a1f3af7cf3830fecc3fd30ff130ff5f3af4bda030ff1f3af4d5a07cebdf3ae30fe030fe0c3fa30fe530fe9f3ae4bd9c30fe5f3ae4d59c6dcc805d64a19c4a19df3ae7cf347ceb9f3ad30fd46dcc405d54a1984a199f3ad7cf3030fd4c3f730fd9)
  (.lf 0)))

def shaGateTree386 : BTree :=
  .nd (.nd (.nd (.lf
  0x2d365ea026162c2d361ea026362c2d0a1e9875d6307a61de9862d08c2d08cb4252d0912d091e9865f62c2ced000002cf4a2cf48b3b12cec02cec0b3b1597195d42de5b679754797540fb5003d42b5d1e5b7003d8796dde5b62b5c02b5c0ad722b5c52b5c9e5b603ed403ed5acae6b3346b33565c6047d4121ddaced5371c6b3b5acec121c8121c84874121cd121cdacec59718045d5acec6b42c6b42d4dc65971812071acaf047d86b2bdacae1206012060481a1206512069acae5971859718b3b15b62c5b62de9867a6947a695758b5f62c5f62dea027a8847a809ea012d3502d350b4d62d3552d359ea01616282d355ea01636282d095e9865d62c7a619e9852d0802d080b4222d0852d085e9855f6282cec4b3d12ceb42ceb4b3af2ceb92ceb8b3d15b6282b5c5e5b6003d4796d9e5b52b5b42b5b4ad6f2b5b92b5bde5b503ed05d429e5b579750797500fb4003d0121d1acec537186b3b1aceb121bc121bc4871121c1121c1aceb59714045d1aceb6b4286b4294dc55971412065acae047d46b2b9acad12054120544817120591205dacad5971403ed1acad6b3306b33165c5047d059714b3d12cf842cf8400005b62a5b629e9857a6907a691758a5f628)
  (.lf 0)) (.nd (.lf
  0x1e9687a5c1e96d1e96dc932625b41e971c932605b4724c9c9311e95c1e95c7a591e9611e965c931605b05e591c929725205e5b1c931725401e961c931625b0724c5c9301e9505e5adc9307253c1e9507a561e9551e959c930605ac1e955c930625ac724c1c92f1e9441e9447a531e9491e94dc92f605a85e5a9c92f725381e949c92f625a8724bdc92e1e9381e9387a501e93d1e941c92e605a41e93dc92e625a4724b9c92d1e92c1e92c7a4d1e9311e935c92d605a01e931c92d625a05e5a1c92d72530724b5c92c1e9201e9207a4a1e9251e929c92c6059c1e925c92c6259c5e59dc92c7252c724b1c92b1e9141e9147a471e9191e91dc92b605981e919c92b625985e599c92b72528724adc92a1e9081e9087a441e90d1e911c92a605941e90dc92a625945e595c92a72524724a9c9291e8fc1e8fc7a411e9011e905c929605901e901c92962590724a5c9281e8f01e8f07a3e1e8f51e8f5c9286258c1e8f9c9286058c5e58dc9287251c724a1c9271e8e41e8e47a3b1e8e91e8e9c927625885e589c927725181e8edc927605887249dc9261e8d81e8d87a381e8dd1e8ddc926625845e585c926725141e8e1c9266058472499c9251e8cc1e8cc7a351e8d1)
  (.lf 0))) (.nd (.nd (.lf
  0x52e4dd8457619076115d84425404254049503254092540dd84454e4825409d84456e4852e49d8447618c52e45539156e4476111539156e4556e440bb6427bc7618d539256e4856e480bb7427c076191539356e4c56e4c0bb8427c476195539456e5056e500bb9427c876199539556e5456e540bba427cc7619d539656e5856e580bbb427d0761a1539756e5c56e5c0bbc427d4761a5539856e6056e600bbd427d8761a9539956e6456e640bbe427dc761ad539a56e6856e680bbf427e0761b1539b56e6c56e6c0ba0427e4761b5539c56e7056e700ba1427e8761b9539d56e7456e740ba2427ec761bd539e56e7856e780ba3427f0761c1539f56e7c56e7c0ba4427f4761c553a056e8056e800ba5427f8761c953a156e8456e840ba6427fc761cd53a256e8856e880ba742800761d153a356e8c56e8c0ba842804761d553a456e9056e900ba942808761d953a556e9456e940baa4280c761dd53a656e9856e980bab42810761e153a756e9c56e9c0bac42814761e553a856ea056ea00bad42818761e953a956ea456ea40bae4281c761ed53aa56ea856ea80baf42820761f153ab56eac56eac0bb042824761f553ac56eb056eb00bb142828761f953ad56eb4)
  (.lf 0)) (.nd (.lf
  0x173595e265804658055fde0123409be195e3012386578d95e209bd009bd026f609bd509bd995e257f7857f79bab61833018330000059f4a59f49bacb6eba86eba96fa35de8c183e9bacb5be8c5be8dbb096eca06eca0064d4a37809bd595e2012346578995e109bc409bc426f309bc93bbc005cc0171c3e06c05ec017305fe08060c3e0ec3e0ec05cc3e16d09bcd95e157f740173195e16580009bc995e1012306578595e009bb809bb826f009bbd09bc195e057f701826c00006eada6ead9bab5182581825860981825d1825dbab559f4409d41962051f7865881961f09d2c09d2c274d09d3109d31961f57f74418b8040c01004441ec042c0103053ef4044c442ec442ed10db443ed443ec044c0103001031961f658f8658f947dd57f74658015fdd0123057f75bab51832c1826000006ead66ead5bab41824c1824c60951825118251bab459f403bbbc05cb017183e06805eb0172c5fe04060b3e0e83e0e805cb3e1690172d95e0657fc3bc3805ca0171409bbd95e00122c6578195df09bac09bac26ed09bb109bb595df57f6c183e5bacb5de8c6eb2dbaca183d4183d460f7183d9183ddbaca5be88183d9baca5de881832c000059f4659f45baca6eba4)
  (.lf 0)))

def shaGateTree387 : BTree :=
  .nd (.nd (.nd (.lf
  0x28088a0242808d2808dde725b0ac59175de722815c2815c00005b0ae5b0adde8977aa077aa174225f0885f089df0577c9077c15df04284d4284d4a137284d9284dddf0461084284d9df046308428219de895d08877a25de882820428204a0832820928209de885f084280900000779ca779c8a0212808028080a0215917159170a0215b0a85b0a9de8877a9c77a9d74215f0845f085df0477c8c77c11df03284c8284c8a134284cd284d1df0361080284cddf03630802820dde885d08477a21de87281f8281f8a080281fd281fdde875f08028084a01f2807828078a01f5916d5916ca01f5b0a45b0a5de8777a9877a9974205f0805f081df0377c8877c0ddf02284bc284bca131284c1284c5df026107c284c1df026307c28201de875d08077a1dde86281ec281eca07d281f1281f1de865f07c2807ca01d2807028070a01d5916959168a01d5b0a05b0a1de8677a9477a95741f5f07c5f07ddf0277c8477c09df01284b0284b0a12e284b5284b9df0161078284b5df0163078281f5de865d07c77a19de85281e0281e0a07a281e5281e5de855f07828075de712806428064a01b2806928069de715b09c59165de71281582815800005b09e5b09dde8577a90)
  (.lf 0)) (.nd (.lf
  0x1b429c1c05c1ec5c1edc1fe70874707f9c1fd1b57c1b57c6d611b5811b585c1fd024901b581c1fd4a6d41b425c1c05e1ec70701c1bf1b4141b4146d071b4191b41dc1bf5c1e86666948b5582d46657160b501c901b2c9c1b01b2b81b2b86cb01b2bd1b2bdc1b05a274582d5c1b01b3c01b3c000005a2765a275c1bf7077870779707a5e1e85c1e9c1fd70870707f5c1fc1b5701b5706d5e1b5751b579c1fc0248c1b575c1fc4a6d01b419c1bf5e1e8706fdc1be1b40844c4806c301a8c5425006e344d4844d49137244e4944e4806e301a8c01a8d997a666646666548b4582d06656d60b401c8c0b0702c1e0b0750b075997a582d0582d1c1af1b3bc1b3bc00005a2721b2c00000706c2706c1c1af1b2ac1b2ac6cad1b2b11b2b1c1af5a2705a271c1be707747077570795e1e41b4086d041b40d1b411c1be5c1e45c1e5c1fc7086c707f1c1fb1b5641b5646d5b1b5691b56dc1fb024881b569c1fb4a6cc1b40dc1be5e1e4706f9c1bd1b3fc1b3fc6d011b40144c4406c201a885424c06e244d4444d45137144e4544e4406e201a8801a899979666600b079997a522d0665e999790b0640b0642c1b0b0696666148b3582cc0b0699979582cc1b2b40000706be)
  (.lf 0))) (.nd (.nd (.lf
  0x609040ccb3f6e83f6e80c8b3f7690d9a9a08902c3068225a0880d9980d99836680d99d0d9a1a08858a700322da0886829c0db15a0c752a746831da0c60db000db0036c20db050db05a0c658a706829d629c02c2c21cec000021db621db4873821cdc21cdc873858a7158a7087385a9e05a9e1d094742cc742cd72615e98421eadd0955e98874255d09421e9c21e9c87a921ea121ea5d0945c9845c985d0d2743c42200dd0d20342c74349d0d121ff821ff8880021ffd22001d0d1034283c7380c8a0321421ea1d0945e9843f6640caa03228609000cca3f6e43f6e40c8a3f7650d99da08802c2c68221a0870d98c0d98c36650d9910d995a08758a6c03229a08768298462e40aaa02a28549ec0aca463e4463e51919464e5464e40aca02a2821ce0873621cd421cd4873658a6d68299629b02c280db09a0c652a7002a29a0c568390683914a9b58a6c68319a0c50daf40daf436bf0daf90daf9a0c558a6c58a6c87365a9dc5a9ddd093742c8742c972605e98074251d09321e9021e9087a621e9521e99d0935c9805c981d0d1743c021ffdd0d14ae6c74345d0d021fec21fec87fd21ff121ff1d0d04ae683c7340c8903210462e00aa902a24549e80ac9463e0)
  (.lf 0)) (.nd (.lf
  0x61b8005233b96461bc805353b9ac3b9640535014c03db900555014d45fbac05753dc103dc1005353dc91014d5937e64e7464df9937d08e1408e14238708e1908e1d937d57d1408e19937d00fd064df5937c08e085ba1db2236c90814589b223014c46c88db2221457414574515f145791457db222014c05ba19b2226c90414579b22249f046c889b2211456814568515c1456d1456db22149f006d5c97ede61b785ba11b2206c8fc6c8fc052e49efc5ba15b2216c90061b7805213b95c3b948052e014a43b95c0533014b814571b221014bc6c885b2201455c1455c51591456114565b220014b83db74054e014b85fb90056e3dbf43dbf4052e3dc75014b9937764e586c910053349f1061bc005333b9a43db880553014cc5fba405733dc083dc0805333dc89014cd937c64e6c08e08238408e0d08e0d937c00fcc08e11937c57d106c90c053249f0c6c904053049f046d5c57edd61b7464df1937b08dfc08dfc238108e0108e01937b00fc861b7405203b9583b9500530014ac3b9540531014b03b9580532014b408e05937b57d0c6c908053149f083db840552014c85fba005723dc043dc0405323dc85014c9937b64e6864ded937a08df008df0237e08df5)
  (.lf 0)))

def shaGateTree388 : BTree :=
  .nd (.nd (.nd (.lf
  0x2d919eacf5781853819eacf7abb87ab3deace2d9082d908b6442d90d2d911eace558142d90deace5781453815eace7abb47ab39eacd2d8fc2d8fcb6412d9012d905eacd558102d901eacd5781053811eacd7abb07ab35eacc2d8f02d8f0b63e2d8f52d8f9eacc5580c2d8f5eacc5780c5380deacc7abac7ab31eacb2d8e42d8e4b63b2d8e92d8edeacb558082d8e9eacb5780853809eacb7aba87ab2deaca2d8d82d8d8b6382d8dd2d8e1eaca558042d8ddeaca5780453805eaca7aba47ab29eac92d8cc2d8ccb6352d8d12d8d5eac9558002d8d1eac95780053801eac97aba07ab25eac82d8c02d8c0b6322d8c52d8c9eac8557fc2d8c5eac8577fc537fdeac87ab9c7ab21eac72d8b42d8b4b62f2d8b92d8bdeac7557f82d8b9eac7577f8537f9eac77ab987ab1deac62d8a82d8a8b62c2d8ad2d8b1eac6557f42d8adeac6577f4537f5eac67ab947ab19eac52d89c2d89cb6292d8a12d8a5eac5557f02d8a1eac5577f0537f1eac57ab907ab15eac42d8902d890b6262d8952d899eac4557ec2d895eac4577ec537edeac47ab8c7ab11eac32d8842d884b6232d8892d88deac3557e82d889eac3577e8537e9eac37ab887ab0deac22d8782d878b6202d87d)
  (.lf 0)) (.nd (.lf
  0x45bb8081f01ffc72a7551f0567c0547c0083f45cb845cb9174e45db945db8083f01ffc01ffd9e6e67a343f1b80a1f027fc72d5d81b5626d4606d40a3f3f2383f23809ff3f2b9027fd9e306793c6793d6210021fc67a354a1058840588407ea45a7bc5a7bdcbb472f4c72f4d71d55e7545e755cc307313c5e66dcb1e72cf45e665cb1c72cec1f6a5cb1f6067072c7dcb1e1f6901f6907da61f6951f695cb1e6266c5e669cb1d72cf01f699cb1e6066c72c79cb1d1f6841f6847da31f6891f689cb1d626681f68dcb1d6066872c75cb1c1f6781f6787da01f67d1f67dcb1c626641f681cb1c6066472c71cb1b1f66c1f66c7d9d1f6711f671cb1b626601f675cb1b606605e661cb1b72ce872c6dcb1a1f6601f6607d9a1f6651f665cb1a6265c1f669cb1a6065c5e65dcb1a72ce45e65981966265872c698196626596265809f93c43c72ce581976265c6265c09fa3c44072ce98198626606266009fb3c44472ced8199626646266409fc3c44872cf1819a626686266809fd3c44c72cf5819b6266c6266c09fe3c45072d0d81a1626846268409e43c46872d1181a2626886268809e53c46c72d1581a36268c6268c09e63c47072d1981a4626906269009e73c474)
  (.lf 0))) (.nd (.nd (.lf
  0x475400c2102f84475440c2202f88475480c2302f8c4754c0c2402f90475500c2502f94697d163f5031906991d4c0a59028697d563f603194697d963f703198697cd63f40318c4c842033780d5880d592d10510406983d6410031fc699354c1059040590409afd5af845af85db9576ed076ed173d55ef545cf55dbd376fc876fc80e7f4b4404b4420e9983ae083ae134104e8404e8420f1583cd083c560f143af283af28ebcc3af2d3af320f14002783af2e0f145003c83a660e983ac583ac58eb183ac5d3ac5e0e984e83c80cde033636a4036a40da9236a4536a4a03364b43c4c83e033680d5480d552d0f5103c69839640f031f8699314c0f5903c76f4ddbd226ef826ef89bc026efd26efddbd24b43c76e55db9426d9026d909b6626d9526d99db945cf5026bf49aee26bb426bb49aee5903d5903c9aee5af805af81db9476ecc76ecd73d45ef505cf51dbd276fc476fc40e7e4b43c4b43e0e9883adc83add340f4e83c4e83e0f1483ccc83c520f133af1c3af1cebc93af213af260f13002743af220f13500383ac620e984d03c83a620e973ac4c3ac4ceb153ac513ac520e974e83836a4603365103c80cda033536a3436a34da8f36a3936a3e03354b438)
  (.lf 0)) (.nd (.lf
  0x55fcc0458419446ee894ffc55ff055ff00441419686eeb550075601c5601c044c4199441968045801134419940443011604451c0478011605402404984461c4461d11a74471d4471c04980116001161972365d0865c8d97220a35018d71bc365fee86f0d9bc3518d5c18d5c635918d6118d65bc355fee418d61bc3561ee45dee5bc356f1506f0d5bc3418d5018d50635618d5518d55bc3461ee05dee1bc346f14c5deddbc336f14818d59bc345fee06f0d1bc3318d446f1497fb761edc18d44635318d4918d49bc3361edc61edc061a3bcc06f1817fc561f1461f1406083bcf83bcf8061a018543e2a4063a018685ff40065a3e3243e324061a3e3a50186996e765c1861f5406183bd383e29c0638018605ff3806583e31c3e31c06183e39d0186196e565c106f1717fc161f0418d4dbc335fedc6f0cd7fb661ed95ded97fb661ed861ed806193bcbc6f14d7fb861ee061ee0061b3bcc46f1517fb961ee461ee4061c3bcc86f16d7fc061f0061f0006033bce461f0406043bce86f1757fc261f0861f0806053bcec6f17d7fc461f1061f1006073bcf46f1857fc661f1861f1806093bcfc6f1897fc761f1c61f1c060a3bd006f1997fcb61f2c61f2c060e3bd10)
  (.lf 0)))

def shaGateTree389 : BTree :=
  .nd (.nd (.nd (.lf
  0x7869d74865f2185f219e2047888c78811e20329a9c29a9ca6a929aa129aa5e2036121429aa1e20363214297e1e1885d21878621e187297cc297cca5f5297d1297d1e1875f21429640a58e2963429634a58e5930103abda8c86a39c6a39d64c0043bc109a9a8c9043c06a325a8c8109981099842681099d109a1a8c85930059300a58e5b22c5b22de187786987869974855f2145f215e203788887880de20229a9029a90a6a629a9529a99e2026121029a95e20263210297d5e1875d2147861de186297c0297c0a5f2297c5297c5e1865f21029639e16d2962829628a58c2962d2962de16d5b2281099da8c8043bc6a321a8c71098c1098c42651099110995a8c7592fc592fde16d296f8296f800005b22a5b229e186786947869574845f2105f211e2027888478809e20129a8429a84a6a329a8929a8de2016120c29a89e2016320c297c9e1865d21078619e185297b4297b4a5ef297b9297b9e1855f20c296300000785b6785b4a5892962029620a589592f903ab5a8c66a3946a39564be043b410991a8c7043b86a31da8c6109801098042621098510989a8c6592f8592f8a5895b2245b225e185786907869174835f20c5f20de2017888078805e20029a78)
  (.lf 0)) (.nd (.lf
  0x1c0f0703e1c0f51c0f470735a3783c0b408e90239066a5d48fa583e83e9600909023a46027c09293e9e03e9e008e93ea610b5019a3b01da8668ed9a3a0b4f00b4f02d3e0b4f50b4f99a3a583e8023a59a3a669646696560fa01da4583e870731c2001c0f800001c1ce1c1cc70721c0e41c0e4703b1c0e91c0e870725a3743c0b008e80238c3e95c0908023a06027809283e9dc3e9dc08e83ea5d66a5948f9583e40b4f59a3a01da4668e99a390b4e40b4e42d3b0b4e90b4ed9a39583e4023a19a39669606696160f901da0583e470721c1fc1c0ec00001c1ca1c1c870381c0dc1c0dc7038583e10b4e99a3901da0668e59a380b4d80b4d82d380b4dd0b4e19a38583e03e95809070239c6027409273e9d83c0ac08e7023883e9d808e73ea590239d9a386695c6695d60f801d9c66a5548f8583e0583e070385a3701c22400005a3d25a3d1c3ca70fa470f29c3c91c3841c38470e31c3891c389c3c95e3501c22000005a3ce5a3cdc3c970fa01c38dc3c95c35070f25c3c81c3781c37870e01c37d1c381c3c85c34c5a3c9c3c870f9c70fa570d55e3545c355c4087109c71021c4071c4ec1c4ec713d1c4f11c4f1c4074a83c1c4f5c407025f870fa170d45e350)
  (.lf 0))) (.nd (.nd (.lf
  0x388d0e236388d5388da08824b31c388d608824fb9c3861608074cba08201e08063860038600e182386053860608064e39c687a14ae758b9c686a962e702d5822f61d2ce0355c74b39d2cd22f4c22f4c8bd522f5122f51d2cd4af9c22df5d2905eab474a41d28f22de422de48b7b22de922dedd28f5cab022be88b1c22bd822bd88af822bdd22bdc8b1c5ab0c58b9c8b1c22cc822cc800005ab0e5ab0dd28f74ab874ab972ac5eab05cab1d2cd74bb074bb00d564af9c4af9e0806820948209532e74e39c4e39e0882822848220a0881388c4388c4e233388c9388ce08814b318388ca08814fb983860a08064cb9c8201a0805385f4385f4e17f385f9385fa08054e3986879d4ae658b98686a562e602d5422f55d2cd0355874b35d2cc22f4022f408bd222f4522f45d2cc4af9822de9d28f5eab074a3dd28e22dd822dd88b7822ddd22de1d28e5caac22be0000022c7222c708af522bd022bd08af558b9958b988af55ab085ab09d28e74ab474ab572ab5eaac5caadd2cc74bac74bac0d554af984af9a0805820908209132e64e3984e39a088182280822060880388b8388b8e230388bd388c208804b314388be08804fb94385fe08054cb98820160804385e8)
  (.lf 0)) (.nd (.lf
  0x2fb2df0144d33c2fb31f0144bb3c7c051f0132fb1c2fb1cbec92fb212fb21f0134d3384d1e9ef077bc982f49def084e9ec4d1edef087bc9c7bc21ef072f48c2f48cbd252f4912f491ef074e9e87bc99285a4e9e84e9e927c405ffc7bc9d285b4e9ec4e9ed27c5060007bcbd28634ea0c4ea0d27cd060207bcc128644ea104ea1127ce0602405ffd27cd49f2c0600127ce49f302fb25f0134bb3849f39f0137c0c87c04df0122fb102fb10bec62fb152fb15f0124d33449f35f0127c0c42fb19f0124bb347c049f0112fb042f495ef074a1687bc1def062f4802f480bd222f4854d1e5ef067bc947bc9528594e9e42f485ef064e9e44e9e527c305ff87bcb928624ea084ea0927cc0601c05ff927cc49f282fb04bec32fb092fb0df0114bb3049f31f0117c0c02fb09f0114d3307c045f0102faf82faf8bec02fafd2fb01f0104bb2c4d1d1ef017bc804d1ddef047bc8c2f489ef064a1647bc19ef052f4742f474bd1f2f4794d1e1ef057bc902f479ef054e9e02f47def054a1607bc15ef042f4682f468bd1c2f46d2f46def044e9dc2f471ef044a15c7bc11ef032f45c2f45cbd192f4612f465ef034a1584d1d9ef037bc882f461ef034e9d87bc0def022f450)
  (.lf 0)))

def shaGateTree390 : BTree :=
  .nd (.nd (.nd (.lf
  0x2bd48af542bd4d2bd51e6e96145c2bd4de6e96345c2ba8de66e5d460799b9e66d2ba782ba78aea02ba7d2ba7de66d5f45c2b914000079972799716d182b9082b9096d18595495d25de2af78b3878b380f410020429fdde2b00020878ac1e2af29fcc29fcca7f529fd129fd5e2af03d0403d05ab266ad146ad156552046041187dab655354c6ad95ab641186811868461c1186d1186dab645954804405ab646ae0c6ae0d4d525954811711ab27046086ac9dab26117001170045c21170511709ab2659548595496d185b4645b465e66d79a3079a3175175f45c5f45de6e979c202ba81e66d5d45c29fd1e2af002045d2580f400020078abc0f400020111871ab6453548044014d51595446ad914d515954511705ab260460403d016551046006ac996551046015954400005b4625b46175165f458799b575165f4595f45985166345879ba5851663459634580f793d23c79c2185176345c6345c0f7a3d24079c25851863460634600f7b3d24479c29851963464634640f7c3d24879c2d851a63468634680f7d3d24c79c31851b6346c6346c0f7e3d25079c35851c63470634700f7f3d25479c39851d63474634740f603d25879c3d851e63478634780f613d25c)
  (.lf 0)) (.nd (.lf
  0x1dabc76b11dac11dac5c73b604985e499c73b71d681dac1c73b6249871cedc73a1dab01dab076ae1dab51dab9c73a604945e495c73a71d641dab5c73a6249471ce9c7391daa41daa476ab1daa91daadc739604901daa9c739624905e491c73971d6071ce5c7381da981da9876a81da9d1daa1c7386048c1da9dc7386248c5e48dc73871d5c71ce1c7371da8c1da8c76a51da911da95c737604881da91c737624885e489c73771d5871cddc7361da801da8076a21da851da89c736604845e479c73371d481da85c736624845e485c73671d5471cd9c7351da741da74769f1da791da7dc735604801da79c735624805e481c73571d5071cd5c7341da681da68769c1da6d1da71c7346047c1da6dc7346247c5e47dc73471d4c71cd1c7331da5c1da5c76991da611da65c733604781da61c7336247871ccdc7321da501da5076961da551da55c732624741da59c7326047471cc9c7311da445e471c73171d401da4476931da491da4dc731604701da49c7316247071cc5c7301da381da3876901da3d1da41c7306046c1da3dc7306246c5e46dc73071d3c71cc1c72f1da2c1da2c768d1da315e469c72f71d3871d39811a624681da31c72f6246862468097d3c24c)
  (.lf 0))) (.nd (.nd (.lf
  0x24be492fb24be924bedd71860c8424be9d71862c8424929d69d5cc8875a75d69c249142491492472491924919d69c5ec8424795d684247842478491e32478924789d6845accc58d71d684248682486800005acce5accdd69c75aec75aed73215ec845ec85d71875cdc75c61d71724bd824bd892f824bdd24be1d71760c8024bddd71762c802491dd69c5cc8475a71d69b249082490892442490d2490dd69b5ec802478c000075a1275a1091e02477c2477c91e058d6d58d6c91e05acc85acc9d69b75ae875ae973205ec805ec81d71775cd875c5dd71624bcc24bcc92f524bd124bd5d71660c7c24bd1d71662c7c24911d69b5cc8075a6dd69a248fc248fc92412490124901d69a5ec7c2478091de247742477491de58d6958d6891de5acc45acc5d69a75ae475ae5731f5ec7c5ec7dd71675cd475c59d71524bc024bc092f224bc524bc9d71560c7824bc5d71562c7824905d69a5cc7c75a69d699248f0248f0923e248f5248f5d6995ec782477891dc2476c2476c91dc58d6558d6491dc5acc05acc1d69975ae075ae1731e5ec785ec79d71575cd075c55d71424bb424bb492ef24bb924bbdd71460c7424bb9d71462c74248f9d6995cc7875a65d698248e4)
  (.lf 0)) (.nd (.lf
  0x31874c61f318793187df5254bea831879f5254d6a84a2a9f5257d5107d495f524318686e4cc06184a2a44a2a5f5247d50c31868c61c3186d31871f5244bea43186df5244d6a47d491f5233185c3185cc6193186131865f5234bea01778db9124a29c6e3cd6f6c5ddb05bdb1b9126e4c46e449b9111777c1777c5de11778117781b9114a29817785b911018546e3c96f6b5ddac5bdadb9116e4c06e445b91017770177705dde1777517779b910018506e3c56f6a5dda85bda9b9106e4bc17775b9104a2946e441b90f177646e3c16f695dda4177645ddb177691776db90f0184c5bda5b90f6e4b817769b90f4a2906e43db90e17758177585dd81775d17761b90e018486e4c806174a2a04a2a1f5237d5086e4c006154a2984a299f5217d50031861f5234d6a07d48df5223185031850c6163185531859f5224be9c31855f5224d69c6e4bc06144a2944a295f5207d4fc6e4c406164a29c4a29df5227d5047d489f5213184431844c6133184931849f5214d6983184df5214be987d485f5203183831838c6103183d31841f5204be943183df5204d6947d481f51f3182c3182cc60d3183131835f51f4be906e4b806134a2904a291f51f7d4f831831f51f4d690)
  (.lf 0)))

def shaGateTree391 : BTree :=
  .nd (.nd (.nd (.lf
  0x39f20e7ca39f2539f2a0c5e4ce8c4b28e0c5e831f4831f533a34e68c4ce8e0c9c832ec832720c9b3a07c3a07ce8213a0813a0860c9b005443a0820c9b5168839f260c5e4e68c8317a0c5d39f1439f14e7c739f1939f1e0c5d4ce884b28a0c5d831f0831f133a24e6884ce8a0c9b832e88326e0c9a3a0703a070e81e3a0753a07a0c9a005403a0760c9a5168439f1a0c5d4e688831760c5c39f0839f08e7c439f0d39f120c5c4ce844b2860c5c831ec831ed33a14e6844ce860c9a832e48326a0c993a0643a064e81b3a0693a06e0c990053c3a06a0c995168039f0e0c5c4e684831720c5b39efc39efce7c139f0139f060c5b4ce804b2820c5b831e8831e933a04e6804ce820c99832e0832660c983a0583a058e8183a05d3a0620c98005383a05e0c985167c39f020c5b4e6808316e0c5a39ef039ef0e7be39ef539efa0c5a4ce7c4b27e0c5a831e4831e5339f4e67c4ce7e0c98832dc832620c973a04c3a04ce8153a0513a0560c97005343a0520c975167839ef60c5a4e67c8316a0c5939ee439ee4e7bb39ee939eee0c594ce784b27a0c59831e0831e1339e4e6784ce7a0c97832d88325e0c963a0403a040e8123a0453a04a0c96005303a0460c9651674)
  (.lf 0)) (.nd (.lf
  0x336d4cdb7336d9336d9fa6d509f84c1f9fa6d7ea30336ddfa6d4adf87e9b5fa6c336c8336c8cdb4336cd336d1fa6c4adf44c1f1fa6b7ea28336cdfa6c509f44c1f5fa6c7ea2c7e9b1fa6b336bc336bccdb1336c1336c1fa6b509f0336c5fa6b4adf07e9adfa6a336b0336b0cdae336b57e92d307b4d9ec336b9fa6a4adec4c1edfa6a7ea24336b5fa6a509ec7e9a9fa69336a4336a4cdab336a9336adfa694ade87e929307a4d9e8336a9fa69509e84c1e9fa697ea207e9a5fa683369833698cda83369d3369dfa68509e44c1e5fa687ea1c336a1fa684ade47e9a1fa673368c3368ccda5336917e91d30774d9dc7e91930764d9d833691fa67509e04c1e1fa677ea1833695fa674ade07e99dfa663368033680cda23368533685fa66509dc4c1ddfa667ea1433689fa664addc7e999fa653367433674cd9f336793367dfa654add84c1d9fa657ea1033679fa65509d87e995fa643366833668cd9c3366d3366dfa64509d47e91530754d9d44c1d5fa647ea0c33671fa644add47e991fa633365c3365ccd993366133665fa634add07e91130744d9d04c1d1fa637ea0833661fa63509d07e98dfa623365033650cd963365533655fa62509cc33659fa624adcc)
  (.lf 0))) (.nd (.nd (.lf
  0x80ded2bd74f7dc4f7dd2b410699080df12bd84f7e04f7e12b420699480df52bd94f7e44f7e52b430699880df92bda4f7e84f7e92b440699c80dfd2bdb4f7ec4f7ed2b45069a080e012bdc4f7f04f7f12b46069a480e052bdd4f7f44f7f52b47069a880e092bde4f7f84f7f92b48069ac80e0d2bdf4f7fc4f7fd2b49069b080e112be04f8004f8012b4a069b480e152be14f8044f8052b4b069b880e192be24f8084f8092b4c069bc80e1d2be34f80c4f80d2b4d069c080e212be44f8104f8112b4e069c480e252be54f8144f8152b4f069c880e292be64f8184f8192b50069cc069792b444ad080697d2b454ad0c069812b464ad10069852b474ad14069892b484ad180698d2b494ad1c069912b4a4ad20069952b4b4ad24069992b4c4ad280699d2b4d4ad2c069a12b4e4ad30069a52b4f4ad34069a92b504ad38069ad2b314ad3c069b12b324ad40069b52b334acc4069b92b344acc8069bd2b354accc069c12b364acd0069c52b374acd4069c92b384acd8069cd2b394acdc80e2d2be74f81c4f81d2b3a4ace080e312be84f8204f8212b3b4ace480e352be94f8244f8252b3c4ace880e392bea4f8284f8292b3d4acec80e3d2beb4f82c4f82d2b3e4acf0)
  (.lf 0)) (.nd (.lf
  0x647e591f8084d8084d82138084dd53ad40344436cc436cd0dd3437cd53ad00343436c8436c90dd2437c9437c8034300c0c53ad80345436d0436d10dd4437d1437d0034500c14435d0032500c145b865af186bcdc6bcdc04c349d505f9e405033d8c83d8c804c33d94908661923851b5812f09af1949d546bc65af1812ef812ef84bc012efd12f01af180130c435c8032300c0c3d84804e30130c00c1592386495c648e192370864c0864c21950865108651923757b54437cc034400c10435cc032400c1000c1192376495800c0d923664954084e191f857b50648655ed600e140130d91f86485c08655923751b54648dd9236086400864021920864508645923657b506495546d457b506485d5ed400e0c57b50000059b32149085240148fc148fc524057b596495d46d657b5857b58524059b381490166cc148f8148f966cc57b556495946d557b54648615ed500e1057b5566cc59b3459b31b2d86cbdc6cbdd6e995da6459b4db2df6cbf814a81b2df5da8014a85b2df5ba806cb7db2de14a7014a70529e14a7514a75b2de5da7c14a79b2de5ba7c149ec000059b4a59b49b2de6cbf46cb79b2dd14a6414a64529b14a6914a69b2dd5da7814a6db2dd5ba78)
  (.lf 0)))

def shaGateTree392 : BTree :=
  .nd (.nd (.nd (.lf
  0x8435d4e41598f8843594e40598f4843554e3f598f0843514e3e598ec8434d4e3d598e8843494e3c598e4843454e3b598e0843414e3a598dc8433d4e39598d8843394e38598d4843354e37598d0843314e36598cc8432d4e35598c8843294e34598c4843254e335b7e0843214e325b7dc047814e315b7d8842a54e315b7d953941ecd77b3d87b35decd62e7dc2e7dcb9f92e7e12e7e5ecd65593c2e7e1ecd65793c5393decd67b3d47b359ecd52e7d02e7d0b9f62e7d52e7d9ecd5559382e7d5ecd55793853939ecd57b3d07b355ecd42e7c42e7c4b9f32e7c92e7cdecd4559342e7c9ecd45793453935ecd47b3cc7b351ecd32e7b82e7b8b9f02e7bd2e7c1ecd3559302e7bdecd35793053931ecd37b3c87b34decd22e7ac2e7acb9ed2e7b12e7b5ecd25592c2e7b1ecd25792c5392decd27b3c47b349ecd12e7a02e7a0b9ea2e7a52e7a9ecd1559282e7a5ecd15792853929ecd17b3c07b345ecd02e7942e794b9e72e7992e79decd0559242e799ecd05792453925ecd07b3bc7b341eccf2e7882e788b9e42e78d2e791eccf559202e78deccf5792053921eccf7b3b87b33decce2e77c2e77cb9e12e7812e785ecce5591c2e781ecce5791c5391decce7b3b4)
  (.lf
  0x78f01e3e078f5078f98fda4b890078f58fda00b4c849d18fda63fe463f698fd9078e4078e41e3b078e9078e98fd900b48078ed8fd94b88c849cd8fd963fe063f658fd8078d8078d81e38078dd078e18fd84b888078dd8fd800b44849c98fd863fdc63f618fd7078cc078cc1e35078d1078d18fd700b406baf54e6655998539a12de843298432990cc643399559992e1c4131063fed2e2600b5412ac5ae8b5394c6ba2dae8a12ab012ab04aae12ab512ab9ae8a5394812ab5ae8a559486ba294e51559456baf14e655599484a052e3100b8007985900600b84640192e3100b814b8c54651579445399d2de743294432950cc543395433952de74b89c519454e5155944559452e27412bc412e12e274b870559952e1b4130c4130d2e124b89c63ff12e2700b584b89d90d5643d0539992de643290559912e1a41308432910cc443391433912de64b898559c12e2641338413092e114b898412dd2e264b86c4b89990d4643cc6bac94e5b5596c5596d2e11412e4412e52e284b874413112e134b8a0559492e28412c0433992de84b8a007ec590d657a2063ff52e2800b5c4b8a190d6643d46435990d507eb407eb41faf07eb907eb990d557a1c07ebd90d551a1c))
  (.nd (.lf
  0xcffc34010d0010d0019edb588840cea59e9e02a4467a799e9d0ce940ce9433a70ce990ce9d9e9d58884588848062201bc201c400005a8025a801cca0732fc201c000005a7fa202b9cca05e7a473281cc9f202a8202a880ac202ad202b1cc9f5c7a05a7fdcc9f732f8202adcc9f5e7a07327dcc9e2029c2029c80a9202a1202a5cc9e5c79c202a1cc9e5e79c5a7f9cc9e732f473279cc9d20290200e880625a7f4201bc00005a7f65a7f5cc9d732f02029080a620295732f171e65e79820299cc9d5c7985c799ccdb733e87330171ea5e7a87332d71f55e7d45c7d5ccea73424733a9cce9204a07332971f45e7d0204a0812a204a5204a5cce94acbc204a9cce9032785c7d1cce973420733a5cce820494204948127204997332171f25e7c85c7c9cce7734187332571f35e7cc20499cce84acb85c7cdcce87341c2049dcce803274733a1cce7204882048881242048d2048dcce74acb420491cce7032707339dcce62047c2047c81212048120481cce64acb07331d71f15e7c45c7c5cce67341420485cce60326c73399cce52047020470811e2047520475cce54acac7331971f05e7c05c7c1cce57341020479cce50326873395cce42046420464811b20469)
  (.lf 0))) (.nd (.nd (.lf
  0x69a91a6a30fd5c0fd5c3f590fd610fd65a6a3530a40fd61a6a3590a403061a6a369b0869a8da6a20fd500fd503f560fd550fd59a6a2530a00fd55a6a2590a00305da6a269b0469a89a6a10fd440fd443f530fd490fd4da6a15309c0fd49a6a15909c03059a6a169b0069a85a6a00fd380fd383f500fd3d0fd41a6a0530980fd3da6a05909803055a6a069afc69a81a69f0fd2c0fd2c3f4d0fd310fd35a69f530940fd31a69f5909403051a69f69af869a7da69e0fd200fd203f4a0fd250fd29a69e530900fd25a69e590900304da69e69af469a79a69d0fd140fd143f470fd190fd1da69d5308c0fd19a69d5908c03049a69d69af069a75a69c0fd080fd083f440fd0d0fd11a69c530880fd0da69c5908803045a69c69aec69a71a69b0fcfc0fcfc3f410fd010fd05a69b530840fd01a69b5908403041a69b69ae869a6da69a0fcf00fcf03f3e0fcf50fcf9a69a530800fcf5a69a590800303da69a69ae469a69a6990fce40fce43f3b0fce90fceda6995307c0fce9a6995907c03039a69969ae069a65a6980fcd80fcd83f380fcdd0fce1a698530780fcdda6985907803035a69869adc69a61a6970fccc0fccc3f350fcd10fcd5a697530740fcd1a69759074)
  (.lf 0)) (.nd (.lf
  0x446ac049c011f0540b404bc447ac447ad120b448ad448ac04bc011f0011f197a365f0865f09484d581343e3ac065c018f06f5cd7ff261fc85ffc8067c3e42c3e42c063c3e4ad0a4fd9765581340a67197a45213865e9197a30a65c0a65c29990a6610a66197a358134018f1976565e1065e11604d01af0581346609198541999c6669199a1197f46609197e4197e465fb197e9197e866095a0ec1985400005a0ee5a0edbdd06f7bc199a5bdd05c048199a1bdd05e0486f741bdcf199901999066661999519995bdcf5e04418ef1bc765405c6f1d9bc7518edc18edc63b918ee118ee5bc755405818ee1bc755605852055bc746f24c6f24d50155605452059bc756f2506f1d5bc7418ed018ed063b618ed518ed5bc745605456054047a419cc6f271501e56078560780463419f06f29d5029560a4560a4046e41a1c419f0047a011bc41a1c0465011e8446a4049a011e8540ac04ba447a4447a51209448a5448a404ba011e8011e997a165f0065f01484b5812c19441bd3b5ff646f4edbd3a1942c1942c650d194315df61bd3a6f56419431bd3a61f606f5657fd861f6061f60063b3bd446f59d7fe661f9861f9806293bd7c6f5b17feb61fac61fac062e3bd90)
  (.lf 0)))

def shaGateTree393 : BTree :=
  .nd (.nd (.nd (.lf
  0x612940f2f409f8612980f30409fc6129c0f3140a00612a00f3240a04612a40f3340a08612a80f3440a0c612ac0f3540a10612b00f3640a14612b40f3740a18612b80f3840a1c612bc0f3940a20612c00f3a40a24612c40f3b40a28612c80f3c40a2c612cc0f3d40a30612d00f3e40a34612d40f3f40a38409bc0ee040a3d409c00ee140a41409c40ee240a45409c80ee340a49409cc0ee440a4d409d00ee540a51409d40ee640a55409d80ee740a59409dc0ee840a5d409e00ee940a61409e40eea40a65409e80eeb40a69409ec0eec40a6d409f00eed40a71409f40eee40a75409f80eef40a79409fc0ef040a7d40a000ef140a8140a040ef240a8540a080ef340a8940a0c0ef440a8d40a100ef540a9140a140ef640a9540a180ef740a9940a1c0ef840a9d40a200ef940aa140a240efa40aa540a280efb40aa940a2c0efc40aad40a300efd40ab140a340efe40ab540a380eff40ab9533c1e251789c078945e25029cb829cb8a73029cbd29cc1e250553bc29cbde250573bc533bde250789bc78941e24f29cac29caca72d29cb129cb5e24f553b829cb1e24f573b8533b9e24f789b87893de24e29ca029ca0a72a29ca529ca9e24e553b429ca5e24e573b4)
  (.lf 0)) (.nd (.lf
  0x41d48071001c1441d4c071101c1841d50071201c1c45104073201c485440c0752452044520514a14530545304075201c4801c499afd66c7066bf59afc0b9880b9882e640b98d0b98d9afc5848845100073101c44544080751452004520114a04530145300075101c440b9919afc5248801c459afc66c6c66bf19afb0b97c450fc073001c40544040750451fc451fd149f452fd452fc075001c400b97c2e610b9810b9819afb5848401c419afb66c680b9859afb5248466bed9afa0b97041d44070f01c10450f8072f01c3c54400074f451f8451f9149e452f9452f8074f01c3c01c3d9afa66c640b9702e5e0b9750b9759afa584800b9799afa5248066be99af90b9640b9642e5b0b9690b9699af95847c0b96d9af95247c41d3c070d01c08450f0072d01c34543f8074d451f0451f1149c452f1452f0074d01c3401c359af866c5c41d40070e01c0c450f4072e01c38543fc074e451f4451f5149d452f5452f4074e01c3801c399af966c6066be59af80b9580b9582e580b95d0b9619af8524780b95d9af85847866be19af70b94c41db8070c01c04450ec072c01c30543f4074c451ec451ed149b452ed452ec074c01c3001c319af766c580b94c2e550b951)
  (.lf 0))) (.nd (.nd (.lf
  0x234a5d3915eb2c74e45d39023494234948d27234992349dd3905cb28233308cca23324233248cca58c1558c148cca5ab785ab79d39074ebc74ebd72ca5eb285cb29d3ce74fb474fb40d744b0144b01608be823748237533054e4144e416093a82564824ea093938ce438ce4e33b38ce938cee09394b39038cea09394fc1038a2a08be4cc14822fa08bd38a1438a14e28738a1938a1a08bd4e4100e279a20502dd068815a2040e2680e268389c0e26d0e271a20458c10033cda2046888c6888d630402dcc23605d3ce035d074f39d3cd235f0235f08d7e235f5235f5d3cd4b01023499d3905eb2874e41d38f23488234888d242348d23491d38f5cb24233288cc82331c2331c8cc858c1158c108cc85ab745ab75d38f74eb874eb972c95eb245cb25d3cd74fb074fb00d734b0104b01208bd823708237133044e4104e412093982560824e6093838cd838cd8e33838cdd38ce209384b38c38cde09384fc0c38a1e08bd4cc10822f608bc38a0838a08e28438a0d38a0e08bc4e40c0e26da20402dcc68811a2030e25c0e25c38990e261033c9a2036888868889630302dc80e265a20358c0c235f9d3cd035cc74f35d3cc235e4235e48d7b235e9235e9d3cc4b00c)
  (.lf 0)) (.nd (.lf
  0x4cc529d64a7ac04cc929d74a7b004ccd29d84a7b404cd129d94a7b804cd529da4a7bc04cd929db4a7c004cdd29dc4a74404ce129dd4a74804ce529de4a74c04ce929df4a7507c7912a0e504385043929e04a7547c7952a0f5043c5043d29e14a7587c7992a10504405044129e24a75c4d3c1f14b7c5a84d39df1427c5847c52df14a3023030230c08e3023530239f14a4a33c4d3bdf14a7c5a430235f14a4ebbc7c529f1493022430224c08b3022930229f1494ebb83022df1494a3384d3b1f1477c5984d3b9f1497c5a07c525f1483021830218c0883021d3021df1484ebb430221f1484a3344d3b5f1487c59c7c521f1473020c3020cc0853021130211f1474ebb030215f1474a3307c51df1463020030200c082302054d3adf1467c59430209f1464a32c30205f1464ebac7c519f145301f4301f4c07f301f94d3a1f1437c588301f9f1454eba8301fdf1454a3284d3a9f1457c5907c515f144301e8301e8c07c301ed301f1f1444a324301edf1444eba44d3a5f1447c58c7c511f143301dc301dcc079301e1301e5f1434a320301e1f1434eba07c50df142301d0301d0c076301d5301d5f1424eb9c301d9f1424a31c7c509f141301c4301c4c073301c9)
  (.lf 0)))

def shaGateTree394 : BTree :=
  .nd (.nd (.nd (.lf
  0x42f78115c0454442f7c115d0454842f80115e0454c42f84115f0455042f8811400455442f8c11410455842f9011420455c42f9411430456042f9811440456442f9c11450456842fa011460456c42fa411470457042fa811480457442fac11490457842fb0114a0457c42fb4114b0450042fb8114c04504486bc116004500486c0116104504486c4116204508486c811630450c486cc116404510486d0116504514486d4116604518486d811670451c486dc116804520486e0116904524486e4116a04528486e8116b0452c486ec116c04530486f0116d04534486f4116e04538486f8116f0453c486fc11700454048700117104544487041172045484870811730454c4870c11740455048710117504554487141176045584871811770455c4871c1178045604872011790456448724117a0456848728117b0456c4872c117c0457048730117d0457448734117e0457848738117f0457c555c41180487bc555c81181487c0555cc1182487c4555d01183487c8555d41184487cc555d81185487d0555dc1186487d4555e01187487d8555e41188487dc555e81189487e0555ec118a487e4555f0118b487e8555f4118c487ec555f8118d487f0555fc118e487f4)
  (.lf 0)) (.nd (.lf
  0x3eeb809bf0267c6053c09d93ef206054009da3ef246054409db3ef286054809dc3ef2c6054c09dd3ef306055009de3ef346055409df3ef383ef2009993efa13ef24099a3efa53ef28099b3efa93ef2c099c3efad3ef30099d3efb13ef34099e3efb53ef38099f3efb90267d9cbc6736c672f19cbb0c3fc0c3fc31010c4010c4019cbb020780c4059cbb586bc026799cbb67368672ed9cba0c3f00c3f030fe0c3f50c3f59cba020740c3f99cba586b8026759cba67364672e99cb90c3e40c3e430fb0c3e9026719cb9673600c3ed9cb9586b40c3e99cb902070672e59cb80c3d80c3d830f80c3dd0c3e19cb8586b00c3dd9cb80206c0266d9cb86735c672e19cb70c3cc0c3cc30f50c3d10c3d59cb7586ac026699cb7673580c3d19cb702068672dd9cb60c3c00c3c030f20c3c50c3c59cb602064026659cb6673540c3c99cb6586a8672d99cb50c3b40c3b430ef0c3b93ee9809b70265c3ee9c09b8026606053409d73ef186053809d83ef1c3ef1809973ef993ef1c09983ef9d026619cb5673500c3bd9cb5586a40c3b99cb502060672d59cb40c3a80c3a830ec0c3ad0c3b19cb4586a00c3ad9cb40205c0265d9cb46734c672d19cb30c39c3ee7009ad02634)
  (.lf 0))) (.nd (.nd (.lf
  0x253c894f4253cd253d1d81f60d40253cdd81f62d405ed41d81f760f87607dd81e253bc253bc94f1253c1253c5d81e60d3c253c1d81e62d3c5ed3dd81e760f476079d81d253b0253b094ee253b5253b9d81d60d38253b5d81d62d385ed39d81d760f076075d81c253a4253a494eb253a9253add81c60d34253a9d81c62d345ed35d81c760ec76071d81b253982539894e82539d253a1d81b60d302539dd81b62d305ed31d81b760e87606dd81a2538c2538c94e52539125395d81a60d2c25391d81a62d2c5ed2dd81a760e476069d819253802538094e22538525389d81960d2825385d81962d285ed29d819760e076065d818253742537494df253792537dd81860d2425379d81862d245ed25d818760dc76061d817253682536894dc2536d25371d81760d202536dd81762d205ed21d817760d87605dd8162535c2535c94d92536125365d81660d1c25361d81662d1c5ed1dd816760d476059d815253502535094d62535525359d81560d1825355d81562d185ed19d815760d076055d814253442534494d3253492534dd81460d1425349d81462d145ed15d814760cc76051d813253382533894d02533d25341d81360d102533dd81362d105ed11d813760c8)
  (.lf 0)) (.nd (.lf
  0x7d3a5f4e83171831718c5c83171d4d62df4e87d41c31721f4e84a5ac3171df4e84ee2c7d3a1f4e73170c3170cc5c53171131715f4e74a5a831711f4e74ee287d39df4e63170031700c5c23170531709f4e64a5a44d625f4e67d41431705f4e64ee247d399f4e5316f4316f4c5bf316f9316f9f4e54ee204d621f4e57d410316fdf4e54a5a07d395f4e4316e8316e8c5bc316ed316f1f4e44a59c6e7a96f8b5de2c5be2dba096e8a06e7cd6f945de506e7d16f955de545be55ba136e8c86e84dba1217f1017f105fc617f1517f15ba124a33c17f19ba12018f85be51ba126e8c46e849ba1117f0417f045fc317f096e7c96f935de4c17f0dba11018f417f09ba114a3385be4dba116e8c06e845ba1017ef86e7c16f915de445be45ba0f6e8b86e7bd6f905de4017ef85fc017efd17efdba104a33417f01ba10018f06e841ba0f17eec17eec5fbd17ef117ef1ba0f4a33017ef5ba0f018ec6e83dba0e17ee017ee05fba17ee517ee9ba0e018e85be41ba0e6e8b417ee5ba0e4a32c6e839ba0d17ed417ed45fb717ed917eddba0d018e46e7b96f8f5de3c17ed9ba0d4a3285be3dba0d6e8b06e835ba0c17ec817ec85fb417ecd17ecdba0c4a3246e7b56f8e5de38)
  (.lf 0)))

def shaGateTree395 : BTree :=
  .nd (.nd (.nd (.lf
  0x3b0220f484d094275f5dcc103a5477305dcc0275e0275e09d7a275e5275e5dcc04b4945cfa9dcc07737c7737c0e944b4944b4960f4883d9c83d9d34254e8944d0960f8683e9483e1a0f853b1743b174ec5f3b1793b17e0f850074c3b17a0f85518903b01e0f484e89483d220f473b00c3b00cec053b0113b0160f474d090275e9dcc003a5077301dcbf275d4275d49d77275d9275d9dcbf4b4905cfa5dcbf77378773780e934b4904b4920f4783d9883d9934244e8904d0920f8583e9083e160f843b1683b168ec5c3b16d3b1720f84007483b16e0f845188c3b0120f474e89083d1e0f463b0003b000ec023b0053b00a0f464d08c275dddcbf03a4c772fddcbe275c8275c89d74275cd275cddcbe4b48c5cfa1dcbe77374773740e924b48c4b48e0f4683d9483d9534234e88c4d08e0f8483e8c83e120f833b15c3b15cec593b1613b1660f83007443b1620f83518883b0060f464e88c83d1a0f453aff43aff4ebff3aff93affe0f454d088275d1dcbe03a48772f9dcbd275bc275bc9d71275c1275c1dcbd4b4885cf9ddcbd77370773700e914b4884b48a0f4583d9083d9134224e8884d08a0f8383e8883e0e0f823b1503b150ec563b1553b15a0f8200740)
  (.lf 0)) (.nd (.lf
  0x4a655fae07ebfc3393dfae04da547eb81fadf3392c3392cce4d3393133935fadf4c25033931fadf4da507eb7dfade3392033920ce4a3392533925fade4da4c0ac3d98c001c0c0ada998fe52250663f998fd0ad943e64008a1022043e64408a202208600dc08c13e6c0600e008c23e6c43e6c008813e7413e6c408823e7450ad942b670ad990ad9998fd5824c0ad9d98fd5224c44ac006a101a0444ac406a201a08541c806c144bc0541cc06c244bc444bc1131044cc144bc5131144cc544cc006c101a0444cc406c201a080220998bf663786630198bf0ac2c0ac2c2b0d0ac310ac3598bf5824c0ac3198bf01c08662fd98be0ac200ac202b0a0ac2566379609301c080220598be6637466375609201c041ae89c0f70240c703ddc0f61ae741ae746b9f1ae791ae7dc0f60240801a0998fd664706647148935824c5824c00005a1ee01a0598fc6646c663f598fc0ad880ad882b640ad8d0ac2998be582481ad1dc0b95e164702e5c0b81ad0c1ad0c6b451ad111ad15c0b85c1601ad11c0b85e1605a1edc0b87035c702e1c0b71ad000ad8d98fc582486646d48925824858249c0b7703581ad006b421ad057035970575e15c1ad09c0b75c15c5c15dc0f570450)
  (.lf 0))) (.nd (.nd (.lf
  0x68121a0470d80c0d80c36050d8110d811a047589e4681994a79589e4589e5cf87216b8215d08576215d5215d8000073e1e215d5cf875a95473e1c8573215c8215c88573589e13f5580c870299c608740ca73f5d83f5d80a673f65921761cf9c5c9040d815a047529e46811da0460d8000d80036020d8050d805a046589e0461580a870219c549600aa7462584625918b646359463580aa70219c0219da04668194681954a78589e02175dcf9c5e9045a961cf9c73eec73e71cf9b2174c2174c85d52175121755cf9b5c9005a95dcf9b73ee821751cf9b5e90073e6dcf9a217402174085d22174521745cf9a5e8fc21749cf9a5c8fc216bc00005a95a216b800005a9565a959cf9a73ee473e69cf99217345a955cf9973ee02173485cf2173921739cf995e8f82173dcf995c8f873e65cf98217282172885cc2172d2172dcf985e8f40d6a9a00902ba068025a0080d6980d69835a80d69d0d6a1a008589e00299da0086809c6809d627802b9c589e085735a95021731cf985c8f45a951cf9873edc73e61cf972171c73f3172525e9483f53c0c80029803f5400c81029843f5440c82029883f5480c830298c3f54c0c84029903f5500c85029943f5540c8602998)
  (.lf 0)) (.nd (.lf
  0x61b3805113b91c3b908051e014643b91c0503014786c508051e49ebc6d2417ed461b505fb50055e3db343db34051e3dbb501479930b64ca808bc5930b57cbc64c2d930a08bb008bb022ee08bb508bb9930a57cb86d1d97eba61ae86d2257ecd61b346d23d7ed361b4c61ae8051d3b8cc6d2117ec861b2061b20050b3b90461b3405103b9185fb4c055d3db303db30051d3dbb13b904051d014603b91805020147408bb5930a00f746c504051d49eb801475930a64ca464c29930908ba408ba422eb08ba908ba9930900f7008bad930957cb464c25930808b9808b9822e808b9d08b9d930800f6c6d2097ec661b18153c9b4565fae46d159b455153b46d21d7ecb61b2c3daa8053b0146c153b454ef153b96d2357ed161b445fb44055b3db283db28051b3dba9153b9b45561ae061ae0051b3b8c461b1805093b8fc61b2c050e3b9103b8fc051b014583b91005000146c6c4fc051b49eb00146d930864c9c08ba1930857cb064c21930708b8c153bdb4555fae0150edb3d95bae06cf65b3d8150d8150d85438150dd150ddb3d85dadc5b8ddb00e6c0b4087a1927300e886c0b404e149dc83d9400501013845fa5c05213d9c03d9c004e13da4101385927264a44)
  (.lf 0)))

def shaGateTree396 : BTree :=
  .nd (.nd (.nd (.lf
  0x79b300fc30040c2bc09e6ae0041079ab9e6ad2bbf82bbf8af002bbfd2bc01e6ad03f0c03f0dad186b4dc6b4dd65d400b8c123d5ad57537546b55dad56123c0123c048f2123c5123c5ad56597500460dad566b5d46b5d54dd45975012269ad1900b906b465ad18122581225848981225d12261ad185975059750b5545b6645b6661127845188449e112649200492012482492054920a11265d6604920611265f6602d551ea6a2d5402d540b5522d5452d545ea6a5b6602bbfde6ad0040c79ab5e6ac2bbec2bbecaefd2bbf12bbf5e6ac03f085d461e6ac79b2c79b2c0fc200408123c9ad56537506b559ad55123b4123b448ef123b9123b9ad555974c04609ad556b5d06b5d14dd35974c1225dad1800b8c6b461ad171224c1224c48951225112255ad175974c03f09ad176b4d86b4d965d300b885974dea6a2d6702d67000005b6625b6621126845148449a1125491f4491f5247f491f9491fe11255d65c491fa11255f65c2d54800007a9aa7a9a96d962d53c2d53d6d96597495d45de6ab79b2879b280fc1004042bbf1e6ac0040879ab1e6ab2bbe02bbe0aefa2bbe52bbe9e6ab03f0403f05ad166b4d46b4d565d200b84123bdad555374c6b555ad54123a8)
  (.lf 0)) (.nd (.lf
  0x7261d51c0567005670007c5420787262551c2567085670807c7420807262951c35670c5670c07c8420847263151c5567145671407ca4208c7263551c6567185671807cb420907263951c75671c5671c07cc420947263d51c8567205672007cd420987264151c9567245672407ce4209c7264951cb5672c5672c07d0420a47264d51cc567305673007d1420a87265551ce567385673807d3420b07265951cf5673c5673c07d4420b47265d51d0567405674007d5420b84203c07cd01f084204007ce01f0c4204407cf01f104204807d001f144205007d201f1c4205407d301f204205c07d501f284206007d601f2c4206407d701f304206807d801f344206c07d901f384207007da01f3c4207407db01f404207807dc01f444207c07dd01f484208007de01f4c4208407df01f504208807c001f544208c07c101f584209007c201f5c4209407c301f604209807c401f644209c07c501f68420a407c701f70420a807c801f74420b007ca01f7c420b407cb01f00420b807cc01f04459e407ea01f28459e807eb01f2c459ec07ec01f30459f007ed01f34459f407ee01f38459f807ef01f3c459fc07f001f4045a0007f101f4445a0407f201f4845a0807f301f4c)
  (.lf 0))) (.nd (.nd (.lf
  0x472340bfe02f78472380bff02f7c54f300c1b4732854f340c1c4732c54f380c1d473307661553cf56f3c54f3c0c1e473347661953d056f4054f400c1f47338473291cea474294732d1ceb4742d473311cec47431473351ced47435473391cee47439474280c1b02f6c4742c0c1c02f70474300c1d02f74474340c1e02f78474380c1f02f7c02f7da5b269744696c9a5b10f80402f79a5b1697400f8043e030f8090f80da5b152fbc0f809a5b158fbc696c5a5b00f7f80f7f83e000f7fd0f801a5b052fb802f75a5b06973c0f7fda5b058fb8696c1a5af0f7ec0f7ec3dfd0f7f10f7f5a5af52fb40f7f1a5af58fb402f71a5af69738696bda5ae0f7e00f7e03dfa0f7e50f7e5a5ae58fb00f7e9a5ae52fb002f6da5ae69734696b9a5ad0f7d425b21d94d54ed876535d94c25b0c25b0c96c525b1125b11d94c56ed452ed5d94c765ac765ad53b556ed456ed40bda4284c765d153be56ef856ef80bc342870765fd53c956f2456f240bce4289c428700bda02f3c4289c0bc502f68472240bfa02f6854f2c0c1a47324473251ce947425474240c1a02f6802f69a5ad697300f7d43df70f7d90f7dda5ad52fac0f7d9a5ad58fac696b5a5ac0f7c80f7c83df40f7cd)
  (.lf 0)) (.nd (.lf
  0x3e20005f13e2813bc5405f1017b03e1800611017c4017c5966265a0465a056002012c458008626059fd03bc5005f0017ac3e17c0610017c05fe9806303e1fc3e1fc05f03e27d017c1966165a0065a016001012c018980625e1897418974625e5800509ed59662012c465989966109ec409ec427b309ec909ecd9661580040a04196a05200865a81969f0a02c0a02c280d0a0310a031969f58004418c80430010944437c0450010c053f8404704447c4447d113f4457d4457c0470010c0010c1969f65af865af948015800458004625e59fcc18978625c1896c1896c625c5800109ec99661012c065985966009eb809eb827b009ebd09ec19660580000a035969f5200465a7d969e0a0200a020280a0a0250a025969e580003bc4c05ef017a8418c4042f0109044378044f010bc53f80046f4447844479113e4457944578046f010bc010bd969e65af43e178060f017bc5fe94062f3e1f83e1f805ef3e279017bd9660659fc659fd6000012bc65af548005800058000625c59fc80a029969e5200065a79969d0a0140a01428070a0190a01d969d51ffc0a019969d57ffc418c0042e0108c44374044e010b853f7c046e4447444475113d4457544574046e010b8)
  (.lf 0)))

def shaGateTree397 : BTree :=
  .nd (.nd (.nd (.lf
  0x47d30109d0417404175a8986a2dc108dda898592b86a261a897108cc108cc4235108d1108d1a897592b447b2c107c0417055234109c47c2c47c2d1f2b47d2d47d2c109c0417004171a8976a2d8108d5a897532b46a25da896108c0108c04232108c5108c9a896532b047b28107b0416c55230109b47c2847c291f2a47d2947d28109b0416c0416da8966a2d4108c5a896592b06a259a895108b4108b4422f108b9108b9a895592ac47b24107a041685522c109a47c2447c251f2947d2547d24109a0416804169a8956a2d0108bda895532ac6a255a894108a8108a8422c108ad108b1a894532a847b2010790416455228109947c2047c211f2847d2147d2010990416404165a8946a2cc108ada894592a86a251a8931089c1089c4229108a1108a1a893592a447b1c10780416055224109847c1c47c1d1f2747d1d47d1c10980416004161a8936a2c8108a5a893532a46a24da892108901089042261089510899a892532a010895a892592a047b1810770415c55220109747c1847c191f2647d1947d1810970415c0415da8926a2c46a249a89110884108844223108891088da8915329c10889a8915929c47b141076041585521c109647c1447c151f2547d15)
  (.lf 0)) (.nd (.lf
  0x1bbac6eed1bbb11bbb5c2bf5c2881bbb1c2bf5e2886685548d4583506685948d5583541bafc00005a3165a315c2bf70b7870afdc2be1bba01bba06eea1bba51bba9c2be5c2841bba5c2be5e2845a311c2be70b7470af9c2bd1bb941bb946ee71bb991bb9dc2bd5c2801bb99c2bd5e2805a30dc2bd70b7070af5c2bc1bb881bb886ee41bb8d1bb91c2bc5c27c1bb8dc2bc5e27c5a309c2bc70b6c70af1c2bb1bb7c1bb7c6ee11bb811bb85c2bb5c2781bb81c2bb5e2781baf800005a3065a305c2bb70b6870aedc2ba1bb701bb706ede1bb751bb79c2ba5c2741bb75c2ba5e2745a301c2ba70b6470ae9c2b91bb641bb646edb1bb691bb6dc2b95c2701bb69c2b95e2705a2fdc2b970b6070ae5c2b81bb581bb586ed81bb5d1bb61c2b85c26c1bb5dc2b85e26c1b9b46ead5a2f85a2f9c2b870b5c70ae1c2b71bb4c1bb4c6ed51bb511bb55c2b75c2681bb51c2b75e2680b1f599ba01d14666e999b90b1e40b1e42c7b0b1e90b1ed99b9583540231199b9667606676160d501d101b9b800001bab61bab46e6b1b9a81b9a86e6b58355583546e6b5a2f45a2f5c2b770b5870addc2b61bb401bb406ed21bb451bb49c2b65c2640b1e999b901d10666e599b80b1d8)
  (.lf 0))) (.nd (.nd (.lf
  0x227d889f8227dd227ddd1d74af2422510892a224a4224a4892a58b2558b24892a5aa9422681d19a5ea3c74669d1992267022670899e2267522679d1995ca385aa95d199746e0746e1728e5ea385ca39d1d7747d8747d80d384af244af26074e81db481db532c94e3244e32607ca81fa481f2a07c9384a4384a4e12b384a9384ae07c94b2a0384aa07c94fb20684bd62c802cdc58b208943225482254800005aa92381ea074e4cb2481d3a074d381d4381d4e077381d9381da074d4e320227e1d1d7034e07475dd1d6227cc227cc89f5227d1227d1d1d64af20224a88943224982249889282249d2249c89435aa905aa91d198746dc746dd728d5ea3422675d1995ea3874665d1982266422664899b226692266dd1985ca345ca35d1d6747d4747d40d374af204af22074d81db081db132c84e3204e32207c981fa081f2607c83849838498e1283849d384a207c84b29c3849e07c84fb1c224a000002250e2250c89422248c2248c8925224912249089425aa8c684b962c702cd8685b14ac758b1c58b1c8942225442254400005aa8e381de074d4cb2081d36074c381c8381c8e074381cd381ce074c4e31c227d5d1d6034dc74759d1d5227c0227c089f2227c5)
  (.lf 0)) (.nd (.lf
  0x5fbe405833dcc83dcc805433dd4914ba1b31749f546cc5db31614b905ba65b3166ccd414b9052e614b9514b99b3160150c6ccd4054349f503dc4805630150c0150d93e86501c6501d5f540100c65115475457d500902193e857d5057d50594a59d2459d25b6c26db846db856f195dc6409189942651d506509994250917409174245f091790917d942551d4c43bc403a200e0853ccc03c243cc443cc50f5143dc543dc403c200e0809179942557d4c00e099425651106509594240916809168245c0916d43bc003a100e0453cc803c143cc043cc10f5043dc143dc003c100e0400e0594246510c14b95b31649f506cc59b31514b8414b8452e314b8914b89b31549f4c5ba61b3156ccd014b8db315015086cc55b31414b7814b7852e014b7d14b81b314015045ba5db3146cccc3dc400561015045fbdc05813dcc03dcc005413dd416cccc054149f480150593e665014650155f52010040901d93e80100c64fa193e70900c0900c2405090110901193e7010086ccd0054249f4c6510d475257d483dc440562015085fbe005823dcc43dcc405423dd450901593e757d4c0150993e76501864f9d93e609000090002402090050900993e657d480916d942457d48)
  (.lf 0)))

def shaGateTree398 : BTree :=
  .nd (.nd (.nd (.lf
  0x2b410ad062b4152b415e5725f4142b27c00002b31a2b318acc52b2682b268ac9c2b26d2b26cacc55b41c29945e1c6001c078719e1c52993429934a64f299392993de1c503cbc5d215e1c578790787900f2f001bc11655aaf7535046abddaaf6116401164045921164511645aaf659500043bdaaf66ac546ac554d4059500114e9aab9045c06aae5aab8114d8114d84538114dd114e1aab85950003cbdaab86ab5c6ab5d6540045bc59500acc52b3482b34800005b41e5b41de572796447964575055f4145f415e5ee79834797b9e5ed2b6d42b6d4adb72b6d92b6dde5ed614102b6d9e5ed634102b419e5725d414795c9e5712b4042b404ad032b4092b409e5715f4102b27000002b3162b314ac992b2602b260ac99594fd5d211e1c47878c7878c0f2e001b829939e1c5001bc78715e1c42992829928a64c2992d29931e1c403cb803cb9aab76ab586ab59653f045b811649aaf6535006abd9aaf51163411634458f1163911639aaf5594fc043b9aaf56ac506ac514d3f594fc114ddaab8045bc6aae1aab7114cc114cc4535114d1114d5aab7594fc594fcac995b4185b419e571796407964175045f4105f411e5ed79830797b5e5ec2b6c82b6c8adb42b6cd)
  (.lf 0)) (.nd (.lf
  0x25199bab66f283ec68096b0252c60404098b3ece83ece8094b3ed690bd7d9bb001f2c0bd819bb0585700252d9bb066f3c66ec19baf0bd6c0bd6c2f5d0bd713ec5c096802520603f809883ecdc3ecdc09483ed5d025219bad66f303ec64096a0252860400098a3ece43ece4094a3ed650bd759baf5856c0bd719baf01f28025299baf66f3866ebd9bae0bd600bd602f5a0bd650bd699bae585683ec60096902524603fc09893ece03ece009493ed61025259bae66f340bd659bae01f2466eb99bad0bd540bd542f570bd590bd5d9bad585640bd599bad01f2066eb59bac0bd480bd482f540bd4d0bd519bac585600bd4d9bac01f1c66eb19bab0bd3c0bd3c2f510bd410bd419bab01f1866f71616901f6066f75616a01f645252dc5777165852541c57c7166c715f1c57b1cedc1cedc73b91cee11cee1c57b5653c1cee5c57b5453c5253dc57b71668715edc57a1ced01ced073b61ced552539c57a716641ced5c57a565381ced9c57a54538715e9c5791cec41cec473b31cec91cecdc5795453452535c579716601cec9c57956534715e5c5781ceb81ceb873b01cebd1cebdc578565301cec1c5785453052531c5787165c715e1c5771ceac1ceac73ad1ceb1)
  (.lf 0))) (.nd (.nd (.lf
  0x4b1160a32829448294533454e5144e5160aae82b3482aba0aad3955439554e557395593955e0aad4b4903955a0aad4fd103929a0a324cd14828ca0a313928439284e4a3392893928a0a314e51068c6d634402ecc243e5d5d9036d075765d5d8243d0243d090f6243d5243d5d5d84b11024279d59b5ec287566dd59a2426824268909c2426d24271d59a5cc24240fc00007560e7560dd582240e8240e8903c240ed240edd5825ac7058d11d582241782417800005ac725ac71d59a756e4756e573095ec245cc25d5d8757dc757dc0db34b1104b1120a31829408294133444e5104e5120aad82b3082ab60aac3954839548e5543954d395520aac4b48c3954e0aac4fd0c3928e0a314cd10828c60a303927839278e4a03927d3927e0a304e50c68c69634302ec8243d9d5d8036cc75761d5d7243c4243c490f3243c9243c9d5d74b10c2426dd59a5ec2475669d5992425c2425c90992426124265d5995cc20240f000007560a75609d581240dc240dc9039240e1240e1d5815ac6c58d0dd581241742417400005ac6e5ac6dd599756e0756e173085ec205cc21d5d7757d8757d80db24b10c4b10e0a308293c8293d33434e50c4e50e0aac82b2c82ab20aab3953c)
  (.lf 0)) (.nd (.lf
  0x4a215f4667d2146e0b805fa4a22c6e0b005f84a2244a231f46d7d23031465f46e4d6346e0c005fc4a2344a235f46e7d2347d1b9f46d3145431454c5173145931459f46d4d6304a22df46c7d22c6e0b405f94a2283145df46d4be307d1b5f46c3144831448c5143144d3144df46c4d62c31451f46c4be2c7d1b1f46b3143c3143cc5113144131441f46b4d62831445f46b4be284a229f46b7d2287d1adf46a3143031430c50e3143531435f46a4d62431439f46a4be244a225f46a7d2247d1a9f4693142431424c50b3142931429f4694d6203142df4694be204a221f4697d2207d1a5f4683141831418c5083141d31421f4684be1c4a21df4687d21c3141df4684d61c7d1a1f4673140c3140cc5053141131411f4674d6186e0a405f54a2184a219f4677d21831415f4674be187d19df4663140031400c5023140531405f4664d61431409f4664be147d199f465313f4313f4c4ff313f9313fdf4654be106e09c05f34a2104a211f4657d2107d2112f844d6104be11f4a37d308094442513094490944994a157dcc313f9f4654d6107d195f464313e8313e8c4fc313ed3dd4c0584015905fc6805a43ddcc3ddcc05643de4d01591946565210652115f7501090)
  (.lf 0)))

def shaGateTree399 : BTree :=
  .nd (.nd (.nd (.lf
  0x81b1206c337e5c37e5cdf9937e6137e6606c30012437e6206c3512684ca6a06c381b8881b0e06c237e5037e50df9637e5537e5a06c20012037e5606c2512644ca6606c281b8481b0a06c137e4437e44df9337e4937e4e06c10011c37e4a06c1512604ca6206c181b8081b0606c037e3837e38df9037e3d37e4206c00011837e3e06c05125c4ca5e06c081b7c81b0206bf37e2c37e2cdf8d37e3137e3606bf0011437e3206bf512584ca5a06bf81b7881afe06be37e2037e20df8a37e2537e2a06be0011037e2606be512544ca5606be81b7481afa06bd37e1437e14df8737e1937e1e06bd0010c37e1a06bd512504ca5206bd81b7081af606bc37e0837e08df8437e0d37e1206bc0010837e0e06bc5124c4ca4e06bc81b6c81af206bb37dfc37dfcdf8137e0137e0606bb0010437e0206bb512484ca4a06bb81b684ca4400405124481aec0040512455124400230599c81b68004151248512480024059a081b6c00425124c5124c0025059a481b70004351250512500026059a881b74004451254512540027059ac81b78004551258512580028059b081b7c00465125c5125c0029059b481b8000475126051260002a059b881b8400485126451264002b059bc)
  (.lf 0)) (.nd (.lf
  0x5e0c1bf426fd846fd09bf411a3201a32068ca1a3251a325bf41620bc1a329bf41600bc5e0bdbf416fd806fd05bf401a3141a31468c71a3191a319bf40620b81a31dbf40600b85e0b9bf406fd7c6fd01bf3f1a3081a30868c41a30d1a311bf3f600b41a30dbf3f620b46fcfdbf3e1a2fc1a2fc68c11a3011a301bf3e620b01a305bf3e600b05e0b1bf3e6fd746fcf9bf3d1a2f01a2f068be1a2f51a2f5bf3d620ac1a2f9bf3d600ac5e0adbf3d6fd706fcf5bf3c1a2e41a2e468bb1a2e91a2e9bf3c620a81a2edbf3c600a85e0a9bf3c6fd6c6fcf1bf3b1a2d81a2d868b81a2dd1a2ddbf3b620a41a2e1bf3b600a45e0a5bf3b6fd686fcedbf3a1a2cc1a2cc68b51a2d11a2d1bf3a620a01a2d5bf3a600a05e0a1bf3a6fd646fce9bf391a2c01a2c068b21a2c51a2c9bf396009c1a2c5bf396209c5e09dbf396fd606fce5bf381a2b41a2b468af1a2b91a2b9bf38620981a2bdbf38600985e099bf386fd5c6fce1bf371a2a852189be7f6fa78521b9be8b6faa8521c1be8d6fab06fa35be8c19dec19dec677d19df1521bdbe8c6faac19df1be8c561bc19df5be8c541bc6fa31be8b19de019de0677a19de519de5be8b561b819de9be8b541b86fa2dbe8a19dd4)
  (.lf 0))) (.nd (.nd (.lf
  0x67e219f870d38c0d38c34e50d3910d3959f875894c029099f8767e9867e99625302b085894c83e520fc820e9083e520e8020e8083a220e8520e88000020f9620e8483e55a8bc20f956a2d20e7820e79625120e7d20fec00005a91e20fe000005a8f620fd800005a8e220fc800005a8be20fcc00005a8ca3f43c0a60029003f4400a6102904607d80c803f4bc607dc0c813f4c03f4bc0a403f53d3f4c00a413f54145fbc08600210045fc0086102104548c40a80460bc548c80a81460c0460bd184f461bd460c11850461c1461bc0a8002100461c00a81021040d4fd9fc55294c67f159fc40d4e80d4e8353c0d4ed0d4ed9fc4589480d4f19fc452948021014a5158944021059fc467f8c67f114a51589450d3919f8702b0867e1d9f860d3800d38034e20d3850d3899f86589480d3859f8602b0402901625102b00029059f8667e9467e19625102b015894400005a8b65a8c9ce9173ac073ac1721b5e86c5a8c1ce8f73ab873ab972195e86467f8d4a525894867e95625202b04589496a2d20fc420fc400005a8ba20e7d6a2d5a8b85a8b9ce8d73ab073ab172175e85c5a91dcea673b145a92dceaa73b245a931ceab73b2873aadceaa2115021150845621155)
  (.lf 0)) (.nd (.lf
  0x646915ebd00db03d76404ca4b56c639f12d5b008285f98004ea3d7e43d7e52d5b3d8653b7b92d5b4b5584b56d918364688646895ebb00da86479146bf57afc57afdb1cb143306479546c057b006469d5ec000dbc57b01b1cc1433414269b1cc59aec6c731b1cb142581425850981425d1425db1cb59ae81426000006c72e6c72db1ca1424c1424c5095142511425400006c72a646955ebe00db46478d46be57af857af9b1ca1432c14251b1ca59ae46c729b1c914240142405092142451424800006c7260826d918400dac6461191830825c0825c20990826108265918357aec6478946bd57af414245b1c959ae057af5b1c9143286c725b1c81423414234508f142391423c00006c72214239b1c859adc6c721b1c71422814228508c1422d63dd12ddb00a28435650d794366543664032a4b76c43464030a4b76c4b76d91c1647801423000006c71e1422db1c759ad86478146bb57aec083c991c157aec57aedb1c7143206c71db1c61421c1421c5089142218469d8e59639e05f97004e63d7d43d7d52d573d8553d75404c64b55c639e12d57008183b7a92d574b5484b55d917f64678639ed2d5a0082463dcd2dda00a244346003094b7683d76004c94b568)
  (.lf 0)))

def shaGateTree400 : BTree :=
  .nd (.nd (.nd (.lf
  0x59910ba275b8305b831ed247b50c7b50d760c5f8305f831eda07b6fc7b681ed9f2ecac2ecacbb2d2ecb12ecb5ed9f6182c2ecb1ed9f6382c2e9f1ed245d8307b491ed232e9dc2e9dcba792e9e12e9e1ed235f82c2e89cba252e8902e890ba255990d5990cba255b82c5b82ded237b5087b509760b5f82c5f82ded9f7b6f87b67ded9e2eca02eca0bb2a2eca52eca9ed9e618282eca5ed9e638282e9e5ed235d82c7b48ded222e9d02e9d0ba762e9d52e9d5ed225f8282e894ba232e8882e888ba235990959908ba235b8285b829ed227b5047b505760a5f8285f829ed9e7b6f47b679ed9d2ec942ec94bb272ec992ec9ded9d618242ec99ed9d638242e9d9ed225d8287b489ed212e9c42e9c4ba732e9c92e9c9ed215f8242e88decfe2e87c2e87cba212e8812e881ecfe5b82459905ecfe7b42c7b42c00005b8265b825ed217b5007b50176095f8245f825ed9d7b6f07b675ed9c2ec882ec88bb242ec8d2ec91ed9c618202ec8ded9c638202e9cded215d8247b485ed202e9b82e9b8ba702e9bd2e9bded205f8202e88400007b3fa7b3f8ba1e2e8742e874ba1e5990159900ba1e5b8205b821ed207b4fc7b4fd76085f8205f821ed9c7b6ec7b671ed9b2ec7c)
  (.lf
  0x7db81f7007dbd07dc190c0519c807dbd90c0579c8643014671579c5519c54e71559c46bee54e7a559e86bf354e8e55a3855a392e04413b06bf114e8555a1455a152dfb4138c4138d2df24b81c6bf314e8d55a3455a352e03413ac413ad2dfa4b83c63f012e0900ae063f052e0a00ae46bf2d4e8c55a3053a30031b43428434290d2a43529131d1af94539d06be51af93131bc131bc4c71131c1131c1af93559cc643814673579cc519cdaf936bec86bec94e73559cc559cd2e09413446bee94e7b559ec559ed2df141364413652e084b7f46beed4e7c559f0559f12df2413686bf094e8355a0c63f1d2e1000afc433392df04b84055a0d2df9413846bf3d4e9055a4053a40031f43438434390d2e4353943538031f4b840413852e104b814559e92e1041360413b12dfb4b8404b841915a645e4645699159081e4081e4207b081e9081ed915951abc6bf014e8155a0453a34031c4342c63f112e0d00af06bf394e8f55a3c55a052df74137c081e9915957abc63f192e0f00af855a092df841380413812e0f4b81053a3c031e43434434350d2d4353543534031e4b83c433352def4b83c4b83d9159645e0645659158081d8081d82078081dd081e1915851ab8))
  (.nd (.lf
  0x5104d2cf6057d480fd12d1451050510512cf7057d880fd52d1551054510552cf8057dc80fd92d1651058510592cf9057e080fdd2d175105c5105d2cfa057e480fe12d1851060510612cfb057e880fe52d1951064510652cfc057ec80fe92d1a51068510692cfd057f080fed2d1b5106c5106d2cfe057f480ff12d1c51070510712cff057f880ff52d1d51074510752d00057fc80ff92d1e51078510792d010580080ffd2d1f5107c5107d2d0205804810012d2051080510812d0305808810052d2151084510852d040580c810092d2251088510892d05058108100d2d235108c5108d2d0605814810112d2451090510912d0705818810152d2551094510952d080581c810192d2651098510992d09058208101d2d275109c5109d2d0a05824810212d28510a0510a12d0b05828810252d29510a4510a52d0c0582c810292d2a510a8510a92d0d058308102d2d2b510ac510ad2d0e05834810312d2c510b0510b12d0f05838810352d2d510b4510b52d100583c057cd2d034b3e0057d12d044b3e4057d52d054b3e8057d92d064b3ec057dd2d074b3f0057e12d084b3f4057e52d094b3f8057e92d0a4b3fc057ed2d0b4b400057f12d0c4b404057f52d0d4b408)
  (.lf 0))) (.nd (.nd (.lf
  0x2719ddc4a570ac530addc4a771a477129dc492718c2718c9c652719127195dc49550a827191dc49570a8530a9dc49771a077125dc4827180271809c622718527189dc48550a427185dc48570a4530a5dc487719c77121dc4727174271749c5f271792717ddc47550a027179dc47570a0530a1dc47771987711ddc4627168271689c5c2716d27171dc465509c2716ddc465709c5309ddc467719477119dc452715c2715c9c592716127165dc455509827161dc455709853099dc457719077115dc4427150271509c562715527159dc445509427155dc445709453095dc447718c77111dc4327144271449c53271492714ddc435509027149dc435709053091dc43771887710ddc4227138271389c502713d27141dc425508c2713ddc425708c5308ddc427718477109dc412712c2712c9c4d2713127135dc415508827131dc415708853089dc417718077105dc4027120271209c4a2712527129dc405508427125dc405708453085dc407717c77101dc3f27114271149c47271192711ddc3f5508027119dc3f5708053081dc3f77178770fddc3e27108271089c442710d27111dc3e5507c2710ddc3e5707c5307ddc3e77174770f9dc3d270fc270fc9c4127101)
  (.lf 0)) (.nd (.lf
  0x5bfe9bdf66f8546f7d9bdf5199d8199d86678199dd199e1bdf50228c6f88408b04a5046f8c008bf4a5400a3d9974d01a9065d35974c0a3c80a3c828f40a3cd0a3cd974c01a8c0a545978b520d465e2d978a0a5300a530294e0a5350a535978a580d00a3d1974c580d04464804830118c5405004a3447484474911f2448494484804a30118c0118d978a65ea43e34806430188c5ff6406633e3c83e3c806233e449197080000198021980065bf196f8196f865bf580d10188d974c65dac65dad603401a8c65ea54834580d0580d065bf5a0885a089bdb76f7580a539978a520d065e2997890a5240a524294b0a529446440482011885404c04a2447444474511f1448454484404a20118801189978965ea00a5299789580cc0a52d9789520cc65e2597880a518446400481011845404804a1447404474111f0448414484004a10118401185978865e9c3e3400641018845ff5c06613e3c03e3c006213e44101885974a65da465da5603201a8419881bdb85dfe86f6e1bdb71987019870661e1987519879bdb75bfe419875bdb75dfe46f6ddbdb61986419864661b1986919869bdb65dfe065d31974b0a3bc0a3bc28f10a3c10a3c1974b01a883e344064201888)
  (.lf 0)))

def shaGateTree401 : BTree :=
  .nd (.nd (.nd (.lf
  0x5f30de3f17904078fc5e3f02a8d82a8d8aa382a8dd2a8e1e3f0613082a8dde3f0633082a61de3755d30c78dd5e3742a6082a608a9842a60d2a60de3745f3082a478a91c2a46c2a46ca91c593f55d109dfbf77f7877f780eec000b028acddfc0000b477f01dfbf28abc28abca2b128ac128ac5dfbf03bb003bb1a9bd6a7706a77164fd044b011091a9fc533f86a7f1a9fb1107c1107c44211108111081a9fb593f4042b1a9fb6a8686a8694cfd593f410f25a9be044b46a6f9a9bd10f1410f1443c710f1910f1da9bd593f4593f4a91c5b31c5b31de37478e4c78e4d74c25f3085f309e3f07903c78fc1e3ef2a8cc2a8ccaa352a8d12a8d5e3ef613042a8d1e3ef633042a611e3745d30878dd1e3732a5fc2a5fca9812a6012a601e3735f3042a470a91a2a4642a464a91a593f15d105dfbe77f7477f740eeb000ac28ac1dfbf000b077efddfbe28ab028ab0a2ae28ab528ab9dfbe03bac03bada9bc6a76c6a76d64fc044ac11085a9fb533f46a7eda9fa1107011070441e1107511075a9fa593f0042ada9fa6a8646a8654cfc593f010f19a9bd044b06a6f5a9bc10f0810f0843c410f0d10f11a9bc593f0593f0a91a5b3185b319e37378e4878e4974c15f304)
  (.lf 0)) (.nd (.lf
  0x34a41fdcb4dc607f72dfdca34a3034a30d28e34a3534a39fdca4c45c4a85dfdca7f7a47f7a531174dc5c4c45dfe087f89c7f821fe0734b8c34b8cd2e534b9134b95fe074b05834b91fe0750c5834a35fdca4dc5c7f729fdc934a2434a24d28b34a2934a2dfdc94c4584a859fdc97f7a07f7a131164dc584c459fe077f8987f81dfe0634b8034b80d2e234b8534b89fe064b05434b85fe0650c5434a29fdc94dc587f725fdc834a1834a18d28834a1d34a21fdc84c4544a855fdc87f79c7f79d31154dc544c455fe067f8947f819fe0534b7434b74d2df34b7934b7dfe054b05034b79fe0550c5034a1dfdc84dc547f721fdc734a0c34a0cd28534a1134a15fdc74c4504a851fdc77f7987f79931144dc504c451fe057f8907f815fe0434b6834b68d2dc34b6d34b71fe044b04c34b6dfe0450c4c34a11fdc74dc507f71dfdc634a0034a00d28234a0534a09fdc64c44c4a84dfdc67f7947f79531134dc4c4c44dfe047f88c7f811fe0334b5c34b5cd2d934b6134b65fe034b04834b61fe0350c4834a05fdc64dc4c7f719fdc5349f4349f4d27f349f9349fdfdc54c4484a849fdc57f7907f79131124dc484c449fe037f888349f9fdc54dc484a84531114dc44)
  (.lf 0))) (.nd (.nd (.lf
  0x52c21d34a74da474d29d3492321c2321c8c892322123225d34954c1c23221d34956c1c52c1dd34974da074d25d34823210232108c862321523219d34854c1823215d34856c1852c19d34874d9c74d21d34723204232048c83232092320dd34754c1423209d34756c1452c15d34774d9874d1dd346231f8231f88c80231fd23201d34654c10231fdd34656c1052c11d34674d9474d19d345231ec231ec8c7d231f1231f5d34554c0c231f1d34556c0c52c0dd34574d9074d15d344231e0231e08c7a231e5231e9d34454c08231e5d34456c0852c09d34474d8c74d11d343231d4231d48c77231d9231ddd34354c04231d9d34356c0452c05d34374d8874d0dd342231c8231c88c74231cd231d1d34254c00231cdd34256c0052c01d34274d8474d09d341231bc231bc8c71231c1231c5d34154bfc231c1d34156bfc52bfdd34174d8074d05d340231b0231b08c6e231b5231b9d34054bf8231b5d34056bf852bf9d34074d7c74d01d33f231a4231a48c6b231a9231add33f54bf4231a9d33f56bf452bf5d33f74d7874cfdd33e23198231988c682319d231a1d33e54bf02319dd33e56bf052bf1d33e74d7474cf9d33d2318c2318c8c652319123195d33d54bec)
  (.lf 0)) (.nd (.lf
  0x30578c1603057d3057df1f04ebec4d3edf1f07c83c30581f1f04a36c7c7c1f1ef3056c3056cc15d3057130571f1ef4ebe84d3e5f1ee7c83430575f1ef4a3684d3e9f1ef7c8387c7bdf1ee3056030560c15a3056530565f1ee4ebe430569f1ee4a3647c7b9f1ed3055430554c157305594d3e1f1ed7c83030559f1ed4ebe03055df1ed4a3607c7b5f1ec3054830548c1543054d4d3cdf1e87c81c7c85928e24ec086d90c05bf4a1407c84128dc4ebf04ebf12846061647c84528dd4ebf44ebf52847061687c84928de4ebf84ebf928480616c7c84d28df4ebfc4ebfd2849061707c86528e54ec144ec15284f061887c86928e64ec184ec1928500618c06165284f4a1340616928504a1380616d28314a13c0617128324a1406d90805be4a13c4a141f2fd7cc707cbf5f2fc30c0830c08c30430c0d30c0df2fc4d53c30c11f2fc4bd3c4a13df2fc7cc6c7cbf1f2fb30bfc3054df1ec4ebdc4d3ddf1ec7c82c30551f1ec4a35c7c7b1f1eb3053c3053cc1513054130545f1eb4a3584d3d9f1eb7c82830541f1eb4ebd87c7adf1ea3053030530c14e3053530535f1ea4ebd430539f1ea4a3544d3d1f1e97c8204d3d5f1ea7c8247c7a9f1e93052430524c14b30529)
  (.lf 0)))

def shaGateTree402 : BTree :=
  .nd (.nd (.nd (.lf
  0x7a3e9e8f92cb502cb50b2d62cb552cb59e8f9615682cb55e8f9635682c895e87e5d56c7a1f9e87d2c8802c880b2222c8852c885e87d5f5682c72000007a1ae7a1ade86a2c70c2c70cb1c52c7112c711e86a5b5682adfde4ae00314792b9e4ad2adec2adecab7d2adf12adf5e4ad03e105d369e4ad79330793300f840031011e41ac60536586b181ac5f11e2c11e2c478d11e3111e31ac5f5965404511ac5f6b1f86b1f94d955965411cd5ac22047146b089ac2111cc411cc4473311cc911ccdac215965403e11ac216b1006b10165950471059655e86a2c8202c82000005b56a5b569e87d7a2707a271755a5f5685f569e8f97a4607a3e5e8f82cb442cb44b2d32cb492cb4de8f8615642cb49e8f8635642c889e87d5d5687a1f5e87c2c8742c874b21f2c8792c879e87c5f5642c71400007a1aa7a1a8b1c22c7042c704b1c2596515d365e4ac7932c7932c0f830030c2adf1e4ad00310792b5e4ac2ade02ade0ab7a2ade52ade9e4ac03e0c03e0dac206b0fc6b0fd65940470c11e35ac5f536546b17dac5e11e2011e20478a11e2511e25ac5e596500450dac5e6b1f46b1f54d945965011cc9ac21047106b085ac2011cb811cb8473011cbd11cc1ac2059650)
  (.lf 0)) (.nd (.lf
  0x545f807cd457f0457ed161b458ed457f1161c458f1458ec07cc01e30458f007cd01e3401e319ce76741801e359ce86741c673a19ce70c48c0c48c31250c4910c4919ce7586740c4959ce7526746739d9ce60c4800c48031220c4850c4899ce65267041fb4078b01e00456e807ab01e2c545f007cb457e8457e9161a458e9458e807cb01e2c01e2d9ce6674140c4859ce658670673999ce50c4740c474311f0c4790c47d9ce55266c456e007a901e24456e407aa01e28545e807c9457e0545ec07ca457e4457e11618458e1457e51619458e5458e007c901e24458e407ca01e2801e299ce5674100c4799ce55866c673959ce40c4680c468311c0c46d0c46d9ce45866801e259ce46740c0c4719ce452668673919ce30c45c456dc07a801e20545e407c8457dc457dd1617458dd458dc07c801e2001e219ce3674080c45c31190c4610c4659ce3526640c4619ce3586646738d9ce20c4500c45031160c4550c4599ce2526600c4559ce258660456d807a701e1c545e007c7457d8457d91616458d9458d807c701e1c01e1d9ce267404673899ce10c4440c44431130c4490c4499ce15865c6740d499a586686731d619c0202c67321619d0203067319619b02028)
  (.lf 0))) (.nd (.nd (.lf
  0xf1143c470f1190f119a49d58e4c0f11da49d52e4c02e09a49d692f069275a49c0f1080f1083c440f10d0f10da49c58e480f111a49c52e4802e05a49c692ec6935d4bae58eb8693594bad58eb4693614baf58ebc693654bb058ec0693554bac58eb0693494ba958ea4693454ba858ea06934d4baa58ea8693514bab58eac693414ba758e9c693354ba458e90693314ba358e8c693394ba558e946933d4ba658e986932d4ba258e88693214b9f58e7c6931d4b9e58e78693254ba058e80693294ba158e84693194b9d58e746930d4b9a58e68693094b9958e64693114b9b58e6c693154b9c58e70693054b9858e60692f94b9558e54692f54b9458e50692fd4b9658e58693014b9758e5c692f14b9358e4c692714b9158e4502e014b9158e44692ed4b9258e4858ec1d88e5ae105ae11d8ad763307633173755edd45edd5d92976520764a5d92825adc25adc96b925ae125ae5d92860dd025ae1d92862dd0762b5d8ac2580c2580c96052581125811d8ac5edd076239d88d2567425674959f2567925679d88d5ae0c58ebdd88d256ac256ac00005ae0e5ae0dd8ac7632c7632d73745edd05edd1d9287651c764a1d92725ad025ad096b625ad525ad9d92760dcc)
  (.lf 0)) (.nd (.lf
  0x4f952a9c4aa4404f992a9d4aa4804f9d2a9e4aa4c04fa12a9f4aa507d9012ace50738507392aa04aa547d9052acf5073c5073d2aa14aa587d9092ad050740507412aa24aa5c5de51ba506e9bc5de3dba4b6e9a851f41b9976e6d851f3db9966e6d46e65db99617ab817ab85eb017abd17ac1b99653f3c17abdb99655f3c6e659b99517aac17aac5ead17ab15de29ba466e9946e9957f8a61e2851f39b9956e6d017ab5b99553f3817ab1b99555f386e655b99417aa017aa05eaa17aa551f35b9946e6cc17aa5b99455f3417aa9b99453f346e651b99317a9417a945ea717a9917a9db99353f3051f31b9936e6c817a99b99355f306e64db99217a8817a885ea417a8d17a8db99255f2c51f2db9926e6c417a91b99253f2c6e649b99117a7c17a7c5ea117a8117a85b99153f2851f29b9916e6c017a81b99155f286e645b99017a7017a705e9e17a7551f21b98f6e6b817a79b99053f2417a75b99055f2451f25b9906e6bc6e641b98f17a6417a645e9b17a6917a6db98f53f2017a69b98f55f206e63db98e17a5817a585e9817a5d17a5db98e55f1c5de55ba516e9c06e945ba50180781807860201807d18081ba505fe501807dba5061e506e941ba4f1806c)
  (.lf 0)))

def shaGateTree403 : BTree :=
  .nd (.nd (.nd (.lf
  0x27921dd455713853139dd457759077515dd4427910279109e462791527919dd445513427915dd445713453135dd447758c77511dd4327904279049e43279092790ddd435513027909dd435713053131dd43775887750ddd42278f8278f89e40278fd27901dd425512c278fddd425712c5312ddd427758477509dd41278ec278ec9e3d278f1278f5dd4155128278f1dd415712853129dd417758077505dd40278e0278e09e3a278e5278e9dd4055124278e5dd405712453125dd407757c77501dd3f278d4278d49e37278d9278dddd3f55120278d9dd3f5712053121dd3f77578774fddd3e278c8278c89e34278cd278d1dd3e5511c278cddd3e5711c5311ddd3e77574774f9dd3d278bc278bc9e31278c1278c5dd3d55118278c1dd3d5711853119dd3d77570774f5dd3c278b0278b09e2e278b5278b9dd3c55114278b5dd3c5711453115dd3c7756c774f1dd3b278a4278a49e2b278a9278addd3b55110278a9dd3b5711053111dd3b77568774eddd3a27898278989e282789d278a1dd3a5510c2789ddd3a5710c5310ddd3a77564774e9dd392788c2788c9e252789127895dd395510827891dd395710853109dd3977560774e5dd3827880278809e2227885)
  (.lf 0)) (.nd (.lf
  0xb091997c522d80b08d997c582d801a95997c6666c665f1997b0b07c0b07c2c210b0810b085997b522d40b081997b582d444c4c06c401a905425406e444d4c44d4d137344e4d44e4c06e401a9001a91997b66668665ed997a0b0705e1d5c151705c070545c1501b12c1b12c6c4d1b1311b135c150601d01b131c150621d05e1d1c150705bc70541c14f1b1201b1206c4a1b1251b129c14f601cc1b125c14f621cc5e1cdc14f705b87053dc14e1b1141b1146c471b1191b11dc14e601c81b119c14e621c85e1c9c14e705b470539c14d1b1081b1086c441b10d1b111c14d601c41b10dc14d621c45e1c5c14d705b070535c14c1b0fc1b0fc6c411b1011b105c14c601c01b101c14c621c05e1c1c14c705ac70531c14b1b0f01b0f06c3e1b0f51b0f9c14b601bc1b0f5c14b621bc5e1bdc14b705a87052dc14a1b0e41b0e46c3b1b0e91b0edc14a601b81b0e9c14a621b85e1b9c14a705a470529c1491b0d81b0d86c381b0dd1b0e1c149601b41b0ddc149621b45e1b5c149705a070525c1481b0cc1b0cc6c351b0d11b0d5c148601b01b0d1c148621b05e1b1c1487059c70521c1471b0c01b0c06c321b0c51b0c9c147601ac1b0c5c147621ac5e1adc14770598)
  (.lf 0))) (.nd (.nd (.lf
  0x219b9d00e608dc5e8ddd00e740b45e8d98236628d8219b5d00e628dc740398236628d9628d80c993c6bc740b58237628dc628dc0c9a3c6c0740b98238628e0628e00c9b3c6c4740bd8239628e4628e40c9c3c6c8740c1823a628e8628e80c9d3c6cc740c5823b628ec628ec0c9e3c6d0740c9823c628f0628f00c9f3c6d4740cd823d628f4628f40c803c6d8740d1823e628f8628f80c813c6dc740d5823f628fc628fc0c823c6e0740d9824062900629000c833c6e4740dd824162904629040c843c6e8740e1824262908629080c853c6ec740e582436290c6290c0c863c6f0740e9824462910629100c873c6f4740ed824562914629140c883c6f8740f1824662918629180c893c6fc740f582476291c6291c0c8a3c700740f9824862920629200c8b3c704740fd824962924629240c8c3c70874101824a62928629280c8d3c70c74105824b6292c6292c0c8e3c71074109824c62930629300c8f3c7147410d824d62934629340c903c71874111824e62938629380c913c71c74115824f6293c6293c0c923c72074119825062940629400c933c7247411d825162944629440c943c72874121825262948629480c953c72c7412582536294c6294c0c963c730)
  (.lf 0)) (.nd (.lf
  0x8f7593ba57d1043c8803b300dcc08f7993ba51d1000dcd93ba64f6464ee993b908f6408f6423db08f6908f6993b957d0c53c8c03b243b8443b850f0143c8543c8403b200dc843a84039200dc808f6d93b951d0c415d0037200d9c00dc993b964f6064ee593b808f58415c8037000d9453c8803b143b8053c8403b043b7c43b7d0eff43c7d43c7c03b000dc0415cc037100d9843b810f0043c8143a80039100dc408f5823d808f5d08f6193b851d0808f5d93b857d0843c8003b100dc400dc593b864f5c64ee193b708f4c43a7c039000dc000dc193b764f5808f4c23d508f5108f5593b751d0408f5193b757d0464edd93b608f40415c4036f00d9053c8003af43b7843b790efe43c7943a78038f00dbc43c7803af00dbc00dbd93b664f5408f4023d208f4508f4593b657d0008f4993b651d0064ed993b508f3408f3423cf08f39415c0036e00d8c53c7403ac43b6c53c7c03ae43b7443b750efd43c7543a74038e00db843c7403ae00db800db993b564f5008f3993b557cfc08f3d93b551cfc64ed593b408f2808f2823cc08f2d08f3193b451cf853c7803ad43b7043b710efc43c7141638036c00d8443b6d0efb43c6d43c6c03ac00db000db193b364f48)
  (.lf 0)))

def shaGateTree404 : BTree :=
  .nd (.nd (.nd (.lf
  0x79f9c0ff9004e42c3f1e7c9004e879f25e7c82c3e02c3e0b0fa2c3e52c3e9e7c803fe403fe5adaa6b7246b725660a00b64127adade95382c6b7a5ade8127981279849e81279d1279dade859828046e5ade86b81c6b81d4e0a5982812641adab00b686b6adadaa1263012630498e1263512639adaa5982859828b6a25b73c5b73deb117acc07acc175cf5f73c5f73deb8d7aeb07ae35eb8c2df382df38b7d02df3d2df41eb8c617382df3deb8c637382dc7deb115d73c7ac45eb102dc682dc68b71c2dc6d2dc6deb105f7382da88b6bd2da782da78b6a02da7d2da7cb6bd5b7382c3e5e7c8004e479f21e7c72c3d42c3d4b0f72c3d92c3dde7c703fe05d539e7c779f9879f980ff8004e0127a1ade8538286b7a1ade71278c1278c49e51279112791ade759824046e1ade76b8186b8194e095982412635adaa00b646b6a9ada91262412624498b126291262dada95982403fe1ada96b7206b721660900b6059824b6bd2db402db4000005b73a5b739eb107acbc7acbd75ce5f7385f739eb8c7aeac7ae31eb8b2df2c2df2cb7cd2df312df35eb8b617342df31eb8b637342dc71eb105d7387ac41eb0f2dc5c2dc5cb7192dc612dc61eb0f5f7342da8000002daf6)
  (.lf 0)) (.nd (.lf
  0x459c407e201f08546cc080245ac445ac516d145bc50c9c99dd652750677599dd50c9b40c9b4326f0c9b945bc4080201f081f3adcaa05e6640c85d9d980210c01f099dd5677d0677d149d35874c676619d970c84c0c84c32150c8510c8559d975874c027099d97676d8676d961d3021080c9b99dd55874c5874c7c885a6d072a81ca9f1f39c1f39c7ce91f3a11f3a5ca9f5c6605a6d1ca9f72af81f3a1ca9f5e66072a7dca9e1f3901f3907ce61f395459c007e101f04546c8080145ac045ac116d045bc145bc0080101f041f395ca9e5e65c1f22169b21f2140c9bd9dd55274c677559dd40c9a80c9a8326c0c9ad01f059dd4677cc677cd49d2587480c9ad9dd4587480c8519d97021086765d9d960c8400c84032120c8450c8499d9658748027059d96676d4676d561d2021045874969b21f3601f21561d11f2191f21969b25a6cc1f36000005a6ce5a6cdca9e72af41f399ca9e5c65c72a7971965e6593f03c09e002700605d80a003f0bc3f0bc09c03f13d0c8459d96021046765961d102101459bc07e001f00546c4080045abc45abd16cf45bbd45bbc080001f000c9b19dd4527486775149d15874501f0149d1587440270161d1021005874400005a6ca)
  (.lf 0))) (.nd (.nd (.lf
  0x5aec1da8b76aa876aa973a35ee8c5ee8ddb0776c9876c1ddb0626850268509a162685526859db0660e8826855db0662e8826595da8b5ce8c76a2dda8a265802658099622658526585da8a5ee882640c0000264ba264b89900263fc263fc990058f7558f7499005aebc5aebdda8a76aa476aa573a25ee885ee89db0676c9476c19db0526844268449a13268492684ddb0560e8426849db0562e8426589da8a5ce8876a29da892657426574995f2657926579da895ee842640098fe263f4263f498fe58f7158f7098fe5aeb85aeb9da8976aa076aa173a15ee845ee85db0576c9076c15db0426838268389a102683d26841db0460e802683ddb0462e802657dda895ce8476a25da882656826568995c2656d2656dda885ee80263f898fc263ec263ec98fc58f6d58f6c98fc5aeb45aeb5da8876a9c76a9d73a05ee805ee81db0476c8c76c11db032682c2682c9a0d2683126835db0360e7c26831db0362e7c26571da885ce8076a21da872655c2655c99592656126561da875ee7c263f098fa263e4263e498fa58f6958f6898fa5aeb05aeb1da8776a9876a99739f5ee7c5ee7ddb0376c8876c0ddb0226820268209a0a2682526829db0260e7826825db0262e78)
  (.lf 0)) (.nd (.lf
  0x18ad1bbbe5bef818930000018a0e18a0c62821891c1891c624918921659e15ff9012a065ad947f957fe457fe4628218a4418a44000059fae18920628259fac59fadbbbe6ef746ef756fbe5def85bef9bbfc6f06c6f06c06684a3e418c45bbfd019a46eff5bbfc18c3018c30630e18c3518c35bbfc4a3e44a3e5f7427dd847dd852ff94d7e432450c9163245532459f7424bfe44bfe5f7807de7c7de01f77f325ac325acc96d325b1325b5f77f4abe0325b1f77f507e00639928f84a3d832455f7424d7e47dd09f7413244432444c913324493244df7414bfe018924000018a0a18a0862461891418914624657fe165ad547f857fe0659dd5ff80129c57fe0624659fa818acdbbbe5def859fa9bbbd6ef706ef716fbd5def46eef9bbbd18abc18abc62b118ac118ac5bbbd5bef45bef5bbfb6f0686f06806674a3e018c39bbfc019a06eff1bbfb18c2418c24630b18c2918c29bbfb4a3e04a3e1f7417dd807dd812ff84d7e04bfe1f77f7de787ddfdf77e325a0325a0c96a325a5325a9f77e4abdc325a5f77e507dc0639528f74a3d432449f7414d7e07dd05f7403243818c2dbbfb0199c189186281189081890862441890d1890c628159fa418a40000059fa6)
  (.lf 0)))

def shaGateTree405 : BTree :=
  .nd (.nd (.nd (.lf
  0x3cf680eb603ac43cf6c0eb703ac83cf700eb803acc3cf740eb903ad03cf780eba03ad43cf7c0ebb03ad83cf800ebc03adc3cf840ebd03ae03cf880ebe03ae43cf8c0ebf03ae83cf900ea003aec3cf940ea103af03cf980ea203af43cf9c0ea303af83cfa00ea403afc3cfa40ea503a803cfa80ea603a843cfac0ea703a883cfb00ea803a8c3cfb40ea903a903cfb80eaa03a94532c1e04e781b478139e04d28e6428e64a39b28e6928e6de04d552bc28e69e04d572bc532bde04d781b078135e04c28e5828e58a39828e5d28e61e04c552b828e5de04c572b8532b9e04c781ac78131e04b28e4c28e4ca39528e5128e55e04b552b428e51e04b572b4532b5e04b781a87812de04a28e4028e40a39228e4528e49e04a552b028e45e04a572b0532b1e04a781a478129e04928e3428e34a38f28e3928e3de049552ac28e39e049572ac532ade049781a078125e04828e2828e28a38c28e2d28e31e048552a828e2de048572a8532a9e0487819c78121e04728e1c28e1ca38928e2128e25e047552a428e21e047572a4532a5e047781987811de04628e1028e10a38628e1528e19e046552a028e15e046572a0532a1e0467819478119e04528e0428e04a38328e09)
  (.lf 0)) (.nd (.lf
  0x4f33d2a024a8007f1412ab04f3404f3412a034a8045237dc28370a88523b5c29170ac0523b9c29270ac4523c1c29470acc70a51c2931b9841b9846e631b9891b989c293563bc1b98dc293543bc523bdc29370ac870a4dc2921b9781b9786e601b97d1b97dc292563b81b981c292543b870a49c2911b96c1b96c6e5d1b9711b975c291543b41b971c291563b4523adc28f70ab870a45c2901b9601b9606e5a1b9651b969c290543b0523b1c29070abc1b965c290563b070a41c28f1b9541b9546e571b9591b95dc28f543ac1b959c28f563ac70a3dc28e1b9481b9486e541b94d1b94dc28e563a81b951c28e543a8523a9c28e70ab470a39c28d1b93c1b93c6e511b9411b945c28d543a4523a5c28d70ab01b941c28d563a470a35c28c1b9301b9306e4e1b9351b939c28c543a0523a1c28c70aac1b935c28c563a070a31c28b1b9241b9246e4b1b9291b92dc28b5439c1b929c28b5639c5239dc28b70aa870a2dc28a1b9181b9186e481b91d1b91dc28a5639852399c28a70aa41b921c28a5439870a29c2891b90c1b90c6e451b9111b911c289563941b915c2895439452395c28970aa070a25c2881b9001b9006e421b9051b905c288563901b909c28854390)
  (.lf 0))) (.nd (.nd (.lf
  0x3c7c00ccc0331c3c7c40ccd033203c7c80cce033243c7cc0ccf033283c7d00cd00332c3c7d40cd1033303c7d80cd2033343c7dc0cd3033383c7e00cd40333c3c7e40cd5033403c7e80cd6033443c7ec0cd7033483c7f00cd80334c3c7f40cd9033503c7f80cda033543c7fc0cdb033583c8000cdc0335c3c8040cdd033603c8080cde033643c80c0cdf033683c8100cc00336c3c8140cc1033703c8180cc2033743c81c0cc3033783c8200cc40337c3c8240cc5033003c8280cc6033043c82c0cc7033083c8300cc80330c3c8340cc9033103c8380cca0331452b41d1627460474589d161223b8223b888f0223bd223c1d16154b3c223bdd16156b3c52b3dd1617460074585d160223ac223ac88ed223b1223b5d16054b38223b1d16056b3852b39d160745fc74581d15f223a0223a088ea223a5223a9d15f54b34223a5d15f56b3452b35d15f745f87457dd15e223942239488e7223992239dd15e54b3022399d15e56b3052b31d15e745f474579d15d223882238888e42238d22391d15d54b2c2238dd15d56b2c52b2dd15d745f074575d15c2237c2237c88e12238122385d15c54b2822381d15c56b2852b29d15c745ec74571d15b223702237088de22375)
  (.lf 0)) (.nd (.lf
  0x2f1ecbc7d2f1f12f1f1ee8f4d1f849df9ee8f7bab82f1f5ee8f4b9f87ba3dee8e2f1e02f1e0bc7a2f1e52f1e9ee8e4b9f449df5ee8e7bab47bab52e7d4d1f44b9f5eecc7bbac49de5ee8a7baa47baa52e794d1e449dd1ee857ba907ba912e744d1d02f1e5ee8e4d1f47ba39ee8d2f1d42f1d4bc772f1d92f1ddee8d4b9f02f1d9ee8d4d1f049df1ee8d7bab07ba35ee8c2f1c82f1c8bc742f1cd2f1d1ee8c4b9ec2f1cdee8c4d1ec7ba31ee8b2f1bc2f1bcbc712f1c12f1c5ee8b4b9e82f1c1ee8b4d1e849de9ee8b7baa87ba2dee8a2f1b02f1b0bc6e2f1b52f1b9ee8a4b9e42f1b5ee8a4d1e47ba29ee892f1a42f1a4bc6b2f1a92f1adee894b9e02f1a9ee894d1e049de1ee897baa07ba25ee882f1982f198bc682f19d2f19dee884d1dc7bab92e7e4d1f84b9f9eecd7bbb049dddee887ba9c2f1a1ee884b9dc7ba21ee872f18c2f18cbc652f19149dd9ee877ba987ba992e764d1d82f195ee874b9d84b9d9eec57bb907baa12e784d1e07baa92e7a4d1e87bab12e7c4d1f04b9f1eecb7bba82f35deecd4a5f87bb35eecc2f3482f348bcd42f34d2f34deecc501f42f351eecc4a5f47bb31eecb2f33c2f33cbcd12f3412f345eecb4a5f02f341eecb501f0)
  (.lf 0)))

def shaGateTree406 : BTree :=
  .nd (.nd (.nd (.lf
  0x485192166486194851d21674861d485212168486214852521694862548529216a486294852d216b4862d48531216c4863148535216d4863548539216e48639485bc114004400485c0114104404485c4114204408485c811430440c485cc114404410485d0114504414485d4114604418485d811470441c485dc114804420485e0114904424485e4114a04428485e8114b0442c485ec114c04430485f0114d04434485f4114e04438485f8114f0443c485fc11500444048600115104444486041152044484860811530444c4860c11540445048610115504454486141156044584861811570445c4861c1158044604862011590446448624115a0446848628115b0446c4862c115c0447048630115d0447448634115e0447848638115f0447c5d2d5e2cd78bb078bb00f5f0027c0447dab826ae846ae854d70595c003d7dab446ad8c6ad8d65700467c595c1e66c2ba742ba7400005b4de5b4dde68b79aa879aa975355f4d45f4d5e70779c9879c1de7062bea42bea4afab2bea92beade706614d02bea9e706634d079a2de68a2bbd42bbd4aef72bbd92bbd9e68a5f4d0799b0ae8c2ba2c2ba2cae8c595bd5d2d1e2cc78bac78bac0f5e0027878b35e2cc2a128)
  (.lf 0)) (.nd (.lf
  0x1d75c75d91d7611d765c6b35c4681d761c6b35e4685a4e5c6b371b4871acdc6b21d7501d75075d61d7551d759c6b25c4641d755c6b25e4645a4e1c6b271b4471ac9c6b11d7441d74475d31d7491d749c6b15e4601d74dc6b15c46071ac5c6b01d7381d73875d01d73d71b5d711f5e47c5c47dc6f671c5471c5409c94a9681d915c6f70272871b6171205e4805c481c6f771c5871bddc6f61d9001d90076421d9051d909c6f6027241d905c6f64a96871bd9c6f51d8f471b59711e5e4785c479c6f571c501d8f4763f1d8f91d8fdc6f5027201d8f9c6f54a96471bd5c6f41d8e81d8e8763c1d8ed3ec3c0960025003ec40096102504603d809803ecbc603dc09813ecc03ecbc09403ed3d3ecc009413ed4171b49711a5e4685c469c6f171c4071c4009c44a9540bd119ba701f081d5fc000071a9271a9169351d5f01d5f1693558549544c80781454c0454c11550455c1455c0078101d04453c0076101d0401d059be46700c6700d495258548025059ba666f1466f15615201f0466e9d9ba60bd000bd002f420bd050bd099ba6585480be7d9be55254c66f959be40be680be682f9c0be6d0be6d9be4585485854969355a4d85a4d9c6b071b3c71b3d71175e45c)
  (.lf 0))) (.nd (.nd (.lf
  0x23f3dd54454ce423f39d54456ce452ce5d5447558c75511d54323f2823f288fcc23f2d23f31d54354ce023f2dd54356ce052ce1d543755887550dd54223f1c23f1c8fc923f2123f25d54254cdc23f21d54256cdc52cddd5427558475509d54123f1023f108fc623f1523f19d54154cd823f15d54156cd852cd9d5417558075505d54023f0423f048fc323f0923f0dd54054cd423f09d54056cd452cd5d5407557c75501d53f23ef823ef88fc023efd23f01d53f54cd023efdd53f56cd052cd1d53f75578754fdd53e23eec23eec8fbd23ef123ef5d53e54ccc23ef1d53e56ccc52ccdd53e75574754f9d53d23ee023ee08fba23ee523ee9d53d54cc852cc9d53d7557075571533256cc854cc80b8146cc046cc11b5046dc146dc00b8102d0402d05a3a468f0c75581533656cd856cd80b5b4265075585533756cdc56cdc0b5c4265475589533856ce056ce00b5d426587558d533956ce456ce40b5e4265c75591533a56ce856ce80b5f42660755a5533f56cfc56cfc0b4442674755a9534056d0056d000b4542678755ad534156d0456d040b464267c755b1534256d0856d080b4742680755b5534356d0c56d0c0b4842684755d1534a56d2856d280b4f426a0)
  (.lf 0)) (.nd (.lf
  0x96f994fa57eb86e1bd7f5361d4c3deb005bd016745fd4c05dd3df303df30059d3dfb10167594fa65464096f594fa01174653e994f9096e4096e425bb096e91712db8375fce86e0ddb83617118171185c481711d1711db83661ce45dce5b8366e15417121b8365fce46e0d9b8351710c1710c5c451711117115b8355fce05dce1b8356e15017111b83561ce06e0d5b83417100171005c42171056e2f9b8bd174e0174e05d3a174e56e375b8dc17680654695faf01178174e5b8bd59e8c6556147af57ebc57ebdb8bd1752017520000059e8e59e8db8dc6e3ec176805da21768517689b8dc5bdd017685b8dc5ddd06e371b8db17674176745d9f176791767db8db5bdcc17679b8db5ddcc174e800006e2f66e2f45d37174d86555d47ae57eb8654655fae01174174d85d3757eb957eb85d3759e8859e89b8db6e3e86e36db8da17668176685d9c1766d177f1b91a018786e1517f3861ce061ce0059b3bac46e1557f3961ce461ce4059c3bac86e3ed6f745ddd05bdd1b91a6e4e46e469b919177dc177dc5df9177e1177e5b919018746e3e96f735ddcc177e1b9194a2b85bdcdb9196e4e06e465b918177d0177d05df6177d5177d9b918018706e1897f4661d18)
  (.lf 0)))

def shaGateTree407 : BTree :=
  .nd (.nd (.nd (.lf
  0x4cc4a09a3827084cc4400c0514448268c00c0514455144400a305b6c8270800c1514485144800a405b708270c00c25144c5144c00a505b748271000c3514505145000a605b788271400c4514545145400a705b7c8271800c5514585145800a805b808271c00c65145c5145c00a905b848272000c7514605146000aa05b888272400c8514645146400ab05b8c8272800c9514685146800ac05b908272c00ca5146c5146c00ad05b948273000cb514705147000ae05b988273400cc514745147400af05b9c8273800cd514785147800b005ba08273c00ce5147c5147c00b105ba48274000cf514805148000b205ba88274400d0514845148400b305bac8274800d1514885148800b405bb08274c00d25148c5148c00b505bb48275000d3514905149000b605bb88275400d4514945149400b705bbc8275800d5514985149800b805bc08275c00d65149c5149c00b905bc48276000d7514a0514a000ba05bc88276400d8514a4514a400bb05bcc8276800d9514a8514a800bc05bd08276c00da514ac514ac00bd05bd48277000db514b0514b000be05bd88277400dc514b4514b400bf05bdc05b6c00b20029c05b7000b3002a005b7400b4002a405b7800b5002a8)
  (.lf 0)) (.nd (.lf
  0x44b5806a70129c0ab059886581e00129d988666294662954878581e0581e1bfa61a5f41a50800006fe9a6fe98693f1a4f81a4f8693f581dd6007008a63e5d43e5d406663e6553bea80666019843e5540886019980199998476619866199607701b980ab099886521e06621998850aaf40aaf42abf0aaf9449540686012985415c06a644a5444a5512b544b5544b5406a601298012999885662900aaf99885581dc0a99d984801b9c6612198470a98c0a98c2a650a9910a9959847581dc662914877581dc581dc693f5a1840aafd9885521dc6621598840aae80aae82abc0aaed0aaed9884581d84494c0684012905415406a444a4c44a4d12b344b4d44b4c06a40129001291988366288662894875581d43bea40665019800a991984701b986611d98460a9800a9802a620a9850a985984601b943e5500885019946006c08a53e5d03e5d006653e651019959846661940a9899846581d86611998450a9740a9742a5f0a9790a97d9845581d43e54c0884019906006808a43e5cc3e5cc06643e64d0199198456619066195607601b94449500685012945415806a544a5044a5112b444b5144b5006a5012940aaf19884521d80129598846628c6621198830aadc)
  (.lf 0))) (.nd (.nd (.lf
  0x59012d364b52c059052d374b530059092d384b5340590d2d394b538059112d3a4b53c059152d3b4b540059192d3c4b4c40591d2d3d4b4c8059212d3e4b4cc059252d3f4b4d081608001d511b8511b92d404b4d48160c001e511bc511bd2d414b4d881610001f511c0511c12d424b4dc4f5c52abb068184f5c92abc0681c4f5cd2abd068204f5d12abe068244f5d52abf068284f5d92ac00682c4f5dd2ac1068304f5e12ac2068344f5e52ac3068384f5e92ac40683c4f5ed2ac5068404f5f12ac6068444f5f52ac7068484f5f92ac80684c4f5fd2ac9068504f6012aca068544f6052acb068584f6092acc0685c4f60d2acd068604f6112ace068644f6152acf068684f6192ad00686c068192ac44ab080681d2ac54ab0c068212ac64ab10068252ac74ab14068292ac84ab180682d2ac94ab1c068312aca4ab20068352acb4ab24068392acc4ab280683d2acd4ab2c068412ace4ab30068452acf4ab34068492ad04ab380684d2ab14ab3c068512ab24ab40068552ab34aac4068592ab44aac80685d2ab54aacc068612ab64aad0068652ab74aad4068692ab84aad80686d2ab94aadc4f61d2aba4aae04f6212abb4aae44f6252abc4aae84f6292abd4aaec)
  (.lf 0)) (.nd (.lf
  0x81f9917a57ac857ac8000059ab6085f1920f00e681436db1d65b9e06c759b1d51435859ab5b1d56c7d01435850d81435d6c7d16e775d9dc1435db1d55d9dc5d9ddb2516c9c06c9c17e77619dc6bd3804da49dac5fa40051a3d9241462db251619dc3d8a404fa01368619dc04da3b7c06c9f97e8561a1461a1404c83b7f83b7f804da013543d92404da3d9a501369920f648b86483d920e085e0085e0217a085e5085e5920e00e640836191b851ac86c9457e76619d9081f5917a00d84645e95eb100d81646e146b157ac557ac56e765d9d83d92004d93d9a13d8a004f90136414361b1d55b9dc6c7556e765d9d95d9d97e76619d8619d804d93b7bc61a1004c73b7f43b7f404d90135001365920e648b4085e9920e57ba864839920d085d4085d42177085d9085dd920d57ba4085d9920d00e606bd3004d849da46c9f17e8361a0c5fa3805183d91c3d89c04f80136061a0c04c63b7f061a5404d83b8383b7f004d80134c3d91c04d83d99d01361920d648b06c9ed7e8261a083d89804f70135c5fa3405173d9183d91804d73d9996bd2c04d749da061a0804c53b7ec61a5004d73b8343b7ec04d7013480135d920c648ac64835920c085c8085c82174085cd)
  (.lf 0)))

def shaGateTree408 : BTree :=
  .nd (.nd (.nd (.lf
  0x129d1ae575987404731ae576b9d86b9d94e1d5987412875ae1a00ab46b869ae1912864128644a1b128691286dae195987459874b8565b7885b789ec0a7b0a47b0a575e25f7885f789ec867b2947b219ec852e5902e590b9662e5952e599ec85617842e595ec85637842e2d5ec0a5d7887b029ec092e2c02e2c0b8b22e2c52e2c5ec095f7842e158b8542e14c2e14cb854598715d585e8c27a3847a384100b0052c2ca4de8c3005307a30de8c22ca3c2ca3cb2912ca412ca45e8c20402c0402dae186b8dc6b8dd661c00aac129d5ae57538746b95dae56129c0129c04a72129c5129c5ae56598700472dae566b9d46b9d54e1c5987012869ae1900ab06b865ae1812858128584a181285d12861ae185987059870b8545b7845b785ec097b0a07b0a175e15f7845f785ec857b2907b215ec842e5842e584b9632e5892e58dec84617802e589ec84637802e2c9ec095d7847b025ec082e2b42e2b4b8af2e2b92e2b9ec085f7802e151ebf32e1402e140b8522e1452e145ebf35b7802ca41e8c20052c7a309e8c12ca302ca30b28e2ca352ca39e8c1040285d581e8c17a3807a380100a00528129c9ae56538706b959ae55129b4129b44a6f129b9129b9ae555986c)
  (.lf
  0x12eadaef15b8c06bbc5aef012e9812e984ba812e9d12e9daef05d8bc59995aeef6bc3812d6800005999a59999aef06bc3c12ea1aef05b8bc6bbc1aeef12e8c12e8c4ba512e9112e95aeef5b8b812d6000005998a59989aeec6bc2c12e91aeef5d8b86bbbdaeee12e805998daeed6bc3012e804ba212e8512e85aeee5d8b412e89aeee5b8b459991aeee6bc346bbb9aeed12e7412e744b9f12e7912e7daeed5b8b012e79aeed5d8b06bbb5aeec12e6812e684b9c12e6d12e71aeec5b8ac12e6daeec5d8ac6bbb1aeeb12e5c12e5c4b9912e6112e65aeeb5b8a812d5c00005998659985aeeb6bc2812e61aeeb5d8a86bbadaeea12e5012e504b9612e5512e55aeea5d8a459981aeea6bc2412e59aeea5b8a46bba9aee912e4412e444b9312e4912e49aee95d8a012e4daee95b8a06bba5aee812e3812e384b9012e3d12e41aee85b89c12e3daee85d89c6bba1aee712e2c12e2c4b8d12e3112e35aee75b89812e31aee75d8986bb9daee612e2012e204b8a12e2512e25aee65d894849fd8fe56401084a1d900b640a8640a92e3700b98079d9900d00ba064035900c079c8079c81e74079cd079cd900c00b9c079d1900c4b8e084a21900c640ac640ad2e3800b9c))
  (.nd (.lf
  0x45d5c082801fa0027a19e19678e0678e161f9021a00cce19e58527e8679619e570cccc01fa19e57679d80cccc33350ccd10ccd19e57587e4679d949f9587e40cb6432db0cb690cb6d9e19587e4587e47e981faa81f9787e981f9681f9687e5c1f96d1fe05cc19606f81faa800005a7621f96c7e985a7605a761cb9d72ef072ef171be5e6f81fb41cb9e5c6fc72e79cb9d1fb2c1fb2c7ecd1fb311fb31cb9d5e6f85e6f9cc19730e073065cc181fdf01fdf07f7e1fdf51fdf5cc18626f43c4ac09e7027881fb35cb9d5c6f872e75cb9c1fb201fb207eca1fb251fb25cb9c5e6f43f1580a070279c606740a273f1d83f1d809e73f2590cb699e19021a0678659e180cb580cb5832d80cb5d0cb619e18587e00279d9e18678dc45b58080701f9c54760082745c5845c59173645d5945d58082701f9c678dd61f80219c0ccd59e57527e46795d9e560ccc001f9d9e56679d40ccc033320ccc50ccc59e56587e0679d549f8587e0587e07e971faa41faa400005a75e1f97000001fa621fa607e971f95c1f95c7e591f9611f9607e975a75c5a75dcb9c72eec72eed71bd5e6f41fdf9cc18606f45e6f5cc18730dc73061cc171fde41fde47f7b1fde93c4a409e502780)
  (.lf 0))) (.nd (.nd (.lf
  0x368fa031a4b3cc4c7ce031a80ce480ce52cf350fcc0f999a61252fd069849a6110f9840f9843e630f9890f989a61158fcc02f89a611698c0698c14bf358fcc03789a5d3697c8697c963f30318826dbddbb70398c76edddbb626da826da89b6c26dad26daddbb64b3cc26c51db795eee476de5db7826c4026c409b1226c4526c49db785cee026aa96bc326a9c26a9d63f226aa126aa16bc35af1058fcd6bc326bf826bf800005af125af11db7876e5c76e5d73b85eee05cee1dbb676f5476f540e624b3cc4b3ce0e7c83a6c83a6d33f34e7cc4e7ce0ef883c5c83be20ef73adcc3adcceb753add13add60ef7002043add20ef74ffc83ab120e7c4cfcc839f20e7b3aafc3aafceac13ab013ab020e7b4e7c8368f6031a50fcc80c6a0319368e4368e4da3b368e9368ee03194b3c84c7ca031980ce080ce12cf250fc80f98da61152fcc02f85a610698bc69845a6100f9780f9783e600f97d698bd4bf258fc80f97da61058fc86974da5d20f8100f8103e060f8150f819a5d258fc803785a5d2697c4697c563f20318426db1dbb60398876ed9dbb526d9c26d9c9b6926da126da1dbb54b3c826c45db785eee076de1db7726c3426c349b0f26c3926c3ddb775cedc)
  (.lf 0)) (.nd (.lf
  0x5a019bcc26f38419381bd0b022446f3ad6fe65df985bf99bd0a6f4a46f4a408904a4846f42dbd0a1936c1936c64dd1937119371bd0a4a4844a485f8047e08c328edf8044d8847e011f803328dc328dcca39328e119375bd0a022406f3a96fe55df946f429bd09193605bf95bd096f4a0328e5f8034c080328e1f8034d8806f4a0088f4a4801936064da1936519365bd094a4804a481f8037e0887e00df802328d0328d0ca36328d519369bd090223c6f425bd08193541935464d7193591935dbd080223819359bd084a47c6f3a56fe45df905bf91bd086f49c6f421bd07193481934864d41934d1934dbd074a4786f49c088e4a47c4a47df8027e084328d9f8024c07c328d5f8024d87c7e009f801328c4328c4ca33328c9328c9f8014d878328cdf8014c0786f3a16fe35df8c5bf8dbd076f4986f498088d4a4784a479f8017e0807e005f800328b8191cdbcc75df841912000005a02e5a02dbcc76f398191d1bcc75bf846f31dbcc6191bc191bc6471191c11911c00005a02a5a029bcc66f39419351bd07022346f41dbd061933c1933c64d1193416f39d6fe25df885bf89bd066f49419345bd060223019341bd064a4746f419bd05193301933064ce19335)
  (.lf 0)))

def shaGateTree409 : BTree :=
  .nd (.nd (.nd (.lf
  0x2a265e306632c029fa5e28b5d2c478a2de28a29f9029f90a7e629f9529f95e28a5f2c029dc8a78629db829db8a77029dbd29dbca7865b2d828431ded60006c77b59ded52842028420a10a2842528429ded503b685d0c1ded577bd077bd00eda0006810e69a98e533b06a639a98d10e5410e54439710e5910e59a98d593ac04269a98d6a6b06a6b14ceb593ac10cfda9500446c6a541a94f10cec10cec433d10cf110cf5a94f593ac03b69a94f6a5b86a5b964eb04468593aca78629e5829e5800005b2da5b2d9e28a78aa478aa574b05f2c05f2c1e30678c9478c19e3052a2542a254a8972a2592a25de305612bc2a259e305632bc29f99e28a5d2c078a29e28929f8429f84a7e329f8929f89e2895f2bc29dc0000029e1a29e18a76d29db029db0a76d593a95d0bdded477bcc77bcc0ed90006428425ded50006877b55ded42841428414a107284192841dded403b6403b65a94e6a5b46a5b564ea0446410e5da98d533ac6a635a98c10e4810e48439410e4d10e4da98c593a804265a98c6a6ac6a6ad4cea593a810cf1a94f044686a53da94e10ce010ce0433a10ce510ce9a94e593a8593a8a76d5b2d45b2d5e28978aa078aa174af5f2bc5f2bde30578c90)
  (.lf 0)) (.nd (.lf
  0x34555fce24f39c4db9dfce27f4047f389fce13454434544d153345493454dfce14ab1834549fce14f3984db99fce17f4007f385fce03453834538d1503453d34541fce04ab143453dfce04f3944db95fce07f3fc7f381fcdf3452c3452cd14d3453134535fcdf4ab1034531fcdf4f3904db91fcdf7f3f87f37dfcde3452034520d14a3452534529fcde4ab0c34525fcde4f38c4db8dfcde7f3f47f379fcdd3451434514d147345193451dfcdd4ab0834519fcdd4f3884db89fcdd7f3f07f375fcdc3450834508d1443450d34511fcdc4ab043450dfcdc4f3844db85fcdc7f3ec7f371fcdb344fc344fcd1413450134505fcdb4ab0034501fcdb4f3804db81fcdb7f3e87f36dfcda344f0344f0d13e344f5344f9fcda4aafc344f5fcda4f37c4db7dfcda7f3e47f369fcd9344e4344e4d13b344e9344edfcd94aaf8344e9fcd94f3784db79fcd97f3e07f365fcd8344d8344d8d138344dd344e1fcd84aaf4344ddfcd84f3744db75fcd87f3dc7f361fcd7344cc344ccd135344d1344d5fcd74aaf0344d1fcd74f3704db71fcd77f3d87f35dfcd6344c0344c0d132344c5344c9fcd64aaec344c5fcd64f36c4db6dfcd67f3d47f359fcd5344b4344b4d12f344b9)
  (.lf 0))) (.nd (.nd (.lf
  0x3c87c0cfb033d83c8800cfc033dc3c8840cfd033e03c8880cfe033e43c88c0cff033e83c8900ce0033ec3c8940ce1033f03c8980ce2033f43c89c0ce3033f83c8a00ce4033fc3c8a40ce5033803c8a80ce6033843c8ac0ce7033883c8b00ce80338c3c8b40ce9033903c8b80cea033943f9800d11033c460a9c0d313fa003fa000cf13fa81033c5a202688843f9980d17033dc60ab40d373fa183fa180cf73fa99033dda2086889c3f93c0d00033803f9400d01033843f9440d02033883f9480d030338c3f94c0d04033903f9500d05033943f9540d06033983f9580d070339c3f95c0d08033a03f9600d09033a43f9640d0a033a83f9680d0b033ac3f96c0d0c033b03f9700d0d033b43f9740d0e033b83f9780d0f033bc3f97c0d10033c03f9840d12033c83f9880d13033cc3f98c0d14033d03f9900d15033d43f9940d16033d83f99c0d18033e03f9a00d19033e43f9a40d1a033e83f9a80d1b033ec3f9ac0d1c033f03f9b00d1d033f43f9b40d1e033f83f9b80d1f033fc60a580d203f9bc60a5c0d213f9c060a600d223f9c460a640d233f9c860a680d243f9cc60a6c0d253f9d060a700d263f9d460a740d273f9d860a780d283f9dc60a7c0d293f9e0)
  (.lf 0)) (.nd (.lf
  0x7c3ddf0f62ffc02ffc0bff22ffc52fe61f0b84bb6449f65f0b87c35c7c35d2ed94d3644bb65f0f67c4542ffc9f0f64a7642ffc5f0f6503647c3d9f0f52ffb42ffb4bfef2ffb92ffb9f0f5503607c2e1f0b72fe4c2fe4cbf952fe512fe55f0b74bb6049f61f0b77c3587c3592ed84d3604bb61f0f57c4502ffbdf0f54a7607c3d5f0f42ffa82ffa8bfec2ffad2ffadf0f45035c0607927d649f5049f59f0b57c3500607d27d749f542fe51f0b74d3607c2ddf0b62fe402fe40bf922fe452fe49f0b64bb5c49f5df0b67c3542fe45f0b64d35c7c2d9f0b52fe342fe34bf8f2fe392fe3df0b54bb582fe39f0b54d3587c2d5f0b42fe282fe28bf8c2fe2d2fe2df0b44d3545ba58054049f440606d27d349f440607127d449f480607527d549f4c14b7db31449f486cc50054049f452fe31f0b44bb5449f55f0b47c34c7c2d1f0b32fe1c2fe1cbf892fe212fe21f0b34d35049f51f0b37c3482fe25f0b34bb507c2cdf0b22fe102fe10bf862fe152fe19f0b24bb4c2fe15f0b24d34c49f4df0b27c3447c2c9f0b12fe042fe04bf832fe092fe0df0b14bb482fe09f0b14d34849f49f0b17c3407c2c52ed14d34549f452ed14d3444bb4529d1503442ffb1f0f44a75c)
  (.lf 0)))

def shaGateTree410 : BTree :=
  .nd (.nd (.nd (.lf
  0x79e11e7832c2242c224b08b2c2292c229e7835f5202c0b8000079db279db1e76b2c0a42c0a4b02b2c0a92c0a9e76b5b5202a7c9e3b9002cc78ee5e3b82a7b82a7b8a9f02a7bd2a7c1e3b803dc85d321e3b878f5c78f5c0f72002c811c19abf2536106afc9abf111c0411c04470311c0911c09abf15960c044c9abf16b0406b0414d835960c11aadabb4046cc6aed1abb311a9c11a9c46a911aa111aa5abb35960c03dc9abb36af486af496583046c85960de76b2c13c2c13c00005b5225b521e78379e8879e8975485f5205f521e7ff7a07879ffde7fe2c4e82c4e8b13c2c4ed2c4f1e7fe6151c2c4ede7fe6351c2c22de7835d52079e0de7822c2182c218b0882c21d2c21de7825f51c2c0ac000079dae79dade76a2c0982c098b0282c09d2c09de76a5b51c2a7bde3b8002c878ee1e3b72a7ac2a7aca9ed2a7b12a7b5e3b703dc45d31de3b778f5878f580f71002c411c0dabf15360c6afc5abf011bf811bf8470011bfd11bfdabf059608044c5abf06b03c6b03d4d825960811aa1abb3046c86aecdabb211a9011a9046a611a9511a99abb25960803dc5abb26af446af456582046c459609e76a2c1382c13800005b51e5b51de78279e8479e8575475f51c)
  (.lf 0)) (.nd (.lf
  0x1dd2877481dd1c1dd1c7748585e9025a59c2a6712467125617a01fa40c0399c2a585e8585e877485a5745a575c7b071f3c71ec1c7af1de981de9877a81de9d1dea1c7af5c4f81de9dc7af5e4f83c2b009680258c0c0359c2a01fa4670a99c290c0240c024300b0c0290c1a19c68525e8671a19c670c18c0c18c30650c1910c1919c67585e44555c078801da05456407a84565c4565d15b74575d4575c07a801da001da19c67672183ed5c0988025a06047809a83eddc3eddc09683ee5d0c02d9c29585e4025a19c2967120672194979585e467121617901fa0585e4777c1de201de2000005a5721dd20777c1dd101dd1077461dd151dd14777c5a5705a571c7af71f3871ebdc7ae1de8c1de8c77a51de911de95c7ae5c4f41de91c7ae5e4f43c2ac0967025880c1959c67525e46719d9c660c1800c18030620c1850c1859c66585e045558078701d9c5456007a7456584565915b6457594575807a701d9c01d9d9c66672143ed5809870259c6047409a73edd83edd809673ee590c0299c2901fa0670a59c280c0180259d9c286711c672154978585e00c01830080c01d1dd1800001ddf21ddf077431dd081dd087743585e10c0219c28585e06711d617801f9c)
  (.lf 0))) (.nd (.nd (.lf
  0xee503b960ee550ee59a42252dd00ee55a42258dd002d8da4226910469089a4210ee440ee443b930ee490ee49a42158dcc0ee4da42152dcc02d89a4216910069085a4200ee3846d3c0b8002d8046d400b8102d8454d440ba046e3c54d480ba146e4046e3d1baf46f3d46e411bb046f4146f3c0ba002d8046f400ba102d84691694b8d58e34691514b8758e1c02d814b7158dc4691654b8c58e30691714b8f58e3c6907d639002ffc691754b9058e4058e4093e35ad945ad95d7a875f1c75f1d73555ed545cd55d7e676014760140dff4b2404b2420bb182f4082f4133904e6404e6420c2d83130830b60c2c39e4839e48e79439e4d39e520c2c0007839e4e0c2c4fe3c82ec60bb039b7839b78e6e039b7d39b7e0bb04e63c69079638f02ff875f99d7e5252902529094a62529525295d7e54b23c75ea1d7a72512825128944c2512d25131d7a75cd5024f8c93e224f4824f4893d424f4d24f4c93e25ad9058e3c93e224fc824fc800005ad925ad91d7a775f1875f1973545ed505cd51d7e576010760100dfe4b23c4b23e0bb082f3c82f3d338f4e63c4e63e0c2c8312c830b20c2b39e3c39e3ce79139e4139e460c2b0007439e420c2b4fe3839b820bb04ce3c)
  (.lf 0)) (.nd (.lf
  0x61d7005bf3bb546e5ad7f6861da061da005ab3bb846e5b17f6961da461da405ac3bb886e5c17f6d61db461db405b03bb9861db805b13bb9c6e5c97f6f61dbc61dbc05b23bba03bb8405bd016e03bb8805be016e43bb9805a2016f43bb9c05a3016f83bba005a4016fc3dfb805df016fc6e5e17f7561dd45fdd405ff3e0383e03805bf3e0b9016fd95786565c655e19577099cc099cc2675099d1099d19577011f8099d5957757f3c3dfb405de016f86e5dd7f7461dd05fdd005fe3e0343e03405be3e0b5016f9957765658655dd9576099c0099c02672099c5099c59576011f4099c9957657f383dfb005dd016f45fdcc05fd3e0303e03005bd3e0b1016f5957665654655d99575099b4099b4266f099b9099bd957557f34099b99575011f0655d59574099a8099a8266c099ad099ad9574011ec099b1957457f30177fdb93b5fd5c5dd597f5661d586e4ed7f5661d5961d5805b93bb3c6e56d7f5861d6061d6005bb3bb446e5957f6261d8861d8805a53bb6c6e5997f6361d8c61d8c05a63bb706e59d7f6461d9061d9005a73bb746e5b97f6b61dac61dac05ae3bb9061dd005b73bbb461dd405b83bbb83bb6c05b7016c83bb7005b8016cc3bb7405b9016d0)
  (.lf 0)))

def shaGateTree411 : BTree :=
  .nd (.nd (.nd (.lf
  0x2671ddacc4b3845ce99dacc76bac76bac0e504b3844b3860dd0837bc837bd33e14e7844cf860e0e838b48383a0e0d3a8d43a8d4ea373a8d93a8de0e0d0063c3a8da0e0d517803a77e0dd04e784837420dcf3a76c3a76ce9dd3a7713a7760dcf4cf8026721dacc0394076b31dacb2670c2670c99c52671126711dacb4b3805ce95dacb76ba876ba80e4f4b3804b3820dcf837b8837b933e04e7804cf820e0d838b0838360e0c3a8c83a8c8ea343a8cd3a8d20e0c006383a8ce0e0c5177c3a7720dcf4e7808373e0dce3a7603a760e9da3a7653a76a0dce4cf7c26715dacb0393c76b2ddaca267002670099c22670526705daca4b37c5ce91daca76ba476ba40e4e4b37c4b37e0dce837b4837b533df4e77c4cf7e0e0c838ac838320e0b3a8bc3a8bcea313a8c13a8c60e0b006343a8c20e0b517783a7660dce4e77c8373a0dcd3a7543a754e9d73a7593a75e0dcd4cf7826709daca0393876b29dac9266f4266f499bf266f9266f9dac94b3785ce8ddac976ba076ba00e4d4b3784b37a0dcd837b0837b133de4e7784cf7a0e0b838a88382e0e0a3a8b03a8b0ea2e3a8b53a8ba0e0a006303a8b60e0a517743a75a0dcd4e778837360dcc3a7483a748e9d43a74d)
  (.lf 0)) (.nd (.lf
  0x663c960a701c58664c148a75829c0ad2d98d401c5c6635198d30ad1c0ad1c2b490ad210ad2598d35829c5829c6b1e5a23c7015d8040621006210008833bee46214808953bf2c3bee40895022403e69008b5022546012c08d53e7103e71008953e7910225598d2663c4663c560a601c540ad2198d301c586634d98d20ad100ad102b460ad15664bd48a6582980ad1998d2582981ac786b1c1ac6c1ac6c6b1c58299582986b1c5a2385a239c0cb703a81ae19c0ce5e1b870339c0cd1ae081ae086b841ae0d1ae11c0cd5c1b41ae0dc0cd5e1b41ace800005a2425a241c0cd703b070335c0cc1adfc1adfc6b811ae011ae05c0cc5c1b01ae01c0cc5e1b05a23dc0cc703ac70331c0cb1adf01adf06b7e1adf51adf9c0cb5c1ac1adf5c0cb5e1ac7032dc0ca1ade41ade46b7b1ade90ad1598d201c546634998d10ad0470159803f620fc620fc08823bee06214408943bf283bee008940223c0ad042b430ad093e68c08b4022506012808d43e70c3e70c08943e78d0ad0d98d1582941ade9c0ca5e1a81adedc0ca5c1a8664b948a5582940225198d1663c0663c160a501c5058295c0b01ace41ace400005a2361ac71c0b01ac601ac606b1a1ac651ac65c0b05a234)
  (.lf 0))) (.nd (.nd (.lf
  0x73c71cf1b2139c2139c84e9213a1213a1cf1b628a45e8a5cf1b73ce8213a5cf1b608a473c6dcf1a213902139084e62139521395cf1a628a05e895cf1773cd85e8a1cf1a73ce421399cf1a608a073c69cf19213842138484e32138921389cf196289c2138dcf196089c5e89dcf1973ce073c65cf18213782137884e02137d2137dcf186289821381cf18608985e899cf1873cdc73c61cf172136c2136c84dd2137121375cf176089421371cf176289473c5dcf16213602136084da2136521369cf166089021365cf16628905e891cf1673cd473c59cf15213542135484d7213592135dcf156088c21359cf156288c5e88dcf1573cd073c55cf14213482134884d42134d2134dcf14628885e889cf1473ccc21351cf146088873c51cf132133c2133c84d12134121341cf136288421345cf13608845e885cf1373cc873c4dcf12213302133084ce2133521335cf126288021339cf12608805e881cf1273cc473c49cf11213242132484cb213295e87dcf1173cc02132dcf116087c21329cf116287c73c45cf10213182131884c82131d2131dcf10628785e875cf0f73cb821321cf10608785e879cf1073cbc73c41cf0f2130c2130c84c52131121311cf0f62874)
  (.lf 0)) (.nd (.lf
  0x14795b28f55b486ca3d4ed155b456cb054ee555b9455b94032a4150c51b454ed155b4455b440336414bc4150c032100cd843994037600cd800cd992c564b9064b91470757c1c6cab94ed255b4843790035500cd443798035700cdc414dc033500ca86cb094ee655b986cb014ee455b9055b9003294150841508032000cd455bc003354153853b98037543890438910e444399143990037500cd400cd592c464b8c64b8d470657c1808a1192c757c2464b1d92c608a0008a00228208a0508a0992c651c2055b98032b4151055b6c0320414e453ba0037743898438990e464399943998037700cdc414e4033700cb041510032200cdc55b480337414c000cdd92c664b9408a0592c657c2064b1992c5089f4089f4227f089f9089f992c557c1c089fd92c551c1c64b1592c4089e8089e8227c089ed089f192c451c1851c19b3a46cf0c43788035300ccc4378c035400cd0089ed92c457c1864b1192c3089dc089dc2279089e1089e192c357c1453b90037343888438890e424398943988037300ccc414d4033300ca000ccd92c264b8464b85470457c10089e592c351c1453b9403744388c4388d0e434398d4398c037400cd000cd192c364b8864b0d92c2089d0)
  (.lf 0)))

def shaGateTree412 : BTree :=
  .nd (.nd (.nd (.lf
  0x2cce5e93a556e02cce1e93a576e0536e1e93a7a5647a4e9e9392ccd02ccd0b3362ccd52ccd9e939556dc2ccd5e939576dc536dde9397a5607a4e5e9382ccc42ccc4b3332ccc92cccde938556d82ccc9e938576d8536d9e9387a55c7a4e1e9372ccb82ccb8b3302ccbd2ccc1e937556d42ccbde937576d4536d5e9377a5587a4dde9362ccac2ccacb32d2ccb12ccb5e936556d02ccb1e936576d0536d1e9367a5547a4d9e9352cca02cca0b32a2cca52cca9e935556cc2cca5e935576cc536cde9357a5507a4d5e9342cc942cc94b3272cc992cc9de934556c82cc99e934576c8536c9e9347a54c536c555b1576c47a4d155b1576c5576c411964303c7a54d55b2576c8576c81197430407a55155b3576cc576cc1198430447a55555b4576d0576d01199430487a55955b5576d4576d4119a4304c7a55d55b6576d8576d8119b430507a56155b7576dc576dc119c430547a56555b8576e0576e0119d430587a56955b9576e4576e4119e4305c7a56d55ba576e8576e8119f430607a57155bb576ec576ec1180430647a57555bc576f0576f01181430687a57955bd576f4576f411824306c7a57d55be576f8576f81183430707a58155bf576fc576fc118443074)
  (.lf 0)) (.nd (.lf
  0x5672807cf420a04204c07d101f18420a007c601f6c459d407e601f18546dc080645ad445ad516d545bd545bd4080601f1801f199dd9677e0677e149d75875c4dec20147805988051e014635f0035f00d7c235f0535f0a01464ae3c35f0601464f6bc4debe0146805948051a014535ef435ef4d7bf35ef935efe01454ae3835efa01454f6b84deba01458059080516014435ee835ee8d7bc35eed35ef201444ae3435eee01444f6b44deb601448058c80512014335edc35edcd7b935ee135ee601434ae3035ee201434f6b04deb20143805888050e014235ed035ed0d7b635ed535eda01424ae2c35ed601424f6ac4deae0142805848050a014135ec435ec4d7b335ec935ece01414ae2835eca01414f6a84deaa01418058080506014035eb835eb8d7b035ebd35ec201404ae2435ebe01404f6a44dea601408057c80502013f35eac35eacd7ad35eb135eb6013f4ae2035eb2013f4f6a04dea2013f80578804fe013e35ea035ea0d7aa35ea535eaa013e4ae1c35ea6013e4f69c4de9e013e80574804fa013d35e9435e94d7a735e9935e9e013d4ae1835e9a013d4f6984de9a013d80570804f6013c35e8835e88d7a435e8d35e92013c4ae1435e8e013c4f694)
  (.lf 0))) (.nd (.nd (.lf
  0x766c173815ee045ce05d9cf767b8767b80e2b4b2f04b2f20d11834c0834c133bc4e6f04e6f20d8d836b0836360d8c3a5c83a5c8e9743a5cd3a5d20d8c001283a5ce0d8c4feec3a30e0d114cef0834460d103a2f83a2f8e8c03a2fd3a2fe0d104e6ec360f201af50ef0806be01ae360e0360e0d83a360e5360ea01ae4b2ec4c6ee01ae80734807352cbb50eec0f459a52252ef069489a5210f4440f4443d130f4490f449a52158eec02ea9a52169500695014bbb58eec25ff1d9cf038ac7673dd9ce25fdc25fdc97f925fe125fe1d9ce4b2ec25e85d9915ee0476645d99025e7425e74979f25e7925e7dd9905ce0025cbc000025d9625d94976425ca825ca8972c25cad25cac97645ae3c58eec976425dd825dd800005ae3e5ae3dd990766bc766bd73805ee005ce01d9ce767b4767b40e2a4b2ec4b2ee0d10834bc834bd33bb4e6ec4e6ee0d8c836ac836320d8b3a5bc3a5bce9713a5c13a5c60d8b001243a5c20d8b4fee83a3020d104ceec834420d0f3a2ec3a2ece8bd3a2f13a2f20d0f4e6e8360e601ae50eec806ba01ad360d4360d4d837360d9360de01ad4b2e84c6ea01ad80730807312cba50ee80f44da52152eec69485a5200f43802ea5a520694fc)
  (.lf 0)) (.nd (.lf
  0x657d55fd20120457f4967c559f1859f19babf6eb7818359babf5be5c6eafd6f965de5909b4595d6012043e03c05e0017005fdd806003e0bc3e0bc05c03e13d017015fd10120009cb1961451f48441bc04200100053ec40440442bc442bd10cf443bd443bc0440010000100147d157f446585147d157f45657595fd10120157f44000059f1659f156f965de585be5806404a3446ec7806434a3500632d28d34a3440633128d44a3480633528d54a34c0633928d64a3500633d28d74a3540634128d84a3580634528d94a35c6ec8c06484a3644a365f6887da9c32021f6884bf647da21f6873200c3200cc8053201132015f6874bf6032011f6874d7606ec8006454a3584a359f6857da906ec8806474a3604a361f6877da987da1df6863200032000c8023200532005f6864d75c4a35df6867da9432009f6864bf5c7da19f68531ff431ff4c7ff31ff931ffdf6854bf5831ff9f6854d7587da15f68431fe831fe8c7fc31fed31fedf6844d7546ec7c06444a3544a355f6847da8c31ff1f6844bf547da11f68331fdc31fdcc7f931fe131fe5f6834bf5032191f6c7507687daa12fda4d7684bf69f6c77db987db1df6c63218032180c8623218532189f6c64ab64)
  (.lf 0)))

def shaGateTree413 : BTree :=
  .nd (.nd (.nd (.lf
  0x1038040e21038510385a7c60429410389a7c6591d869fe5648a042e469fd96487042d869fd56486042d469fdd6488042dc69fe16489042e06a08d4c76591d803189a8016a0806a005a800104b8104b84130104bd104bda800591c8104c1a800531c86a0a94c7d591f46a0814c73591cc6a0854c74591d06a0894c75591d469fd16485042d003995a7c669f9469f19a7c5103741037440df1037910379a7c5042901037da7c5591d469fed648c042ec69fc56482042c469fc96483042c869fcd6484042cc6a0a54c7c591f069fe9648b042e803185a8006a07c6a0ad4c7e591f86a0014c71591c5031814c71591c46a07d4c72591c803991a7c569f9069ff1648d042f069fb9647f042b869fbd6480042bc69fc16481042c06a0d54c88592206a0cd4c86592186a0d94c895922403989a7c369f8869f15a7c4103681036840dc1036d10371a7c4591d01036da7c40428c0398da7c469f8c69f11a7c31035c69f9d64780429c69ff9648f042f81035c40d91036110361a7c30428810365a7c3591cc69f0da7c2103501035040d61035510359a7c2591c803985a7c269f8410355a7c20428469f09647104281039816471042806a0b14c7f591fc69f91647504290)
  (.lf 0)) (.nd (.lf
  0x6223c08d23c0206224008d33c024709c58091622446224408d43c0286224808d53c02c6224c08d63c030709d18094622506225008d73c034709d58095622546225408d83c0383bfbc08cb023183bfc008cc0231c3bfc408cd023203bfc808ce023243bfcc08cf023283bfd008d00232c3bfd408d1023303bfd808d2023343bfdc08d3023383bfe008d40233c3bfe408d5023403bfe808d6023443bfec08d7023483bff008d80234c3bff408d9023503bff808da023543bffc08db023583c00008dc0235c3c00408dd023603c00808de023643c00c08df023683c01008c00236c3c01408c1023703c01808c2023743c01c08c3023783c02008c40237c3c02408c5023003c02808c6023043c02c08c7023083c03008c80230c3c03408c9023103c03808ca0231452305c1807067c5231dc1867069452341c18f706b87063dc18e1b2945233dc18e706b41b2946ca71b2991b299c18e5633c1b29dc18e5433c70639c18d1b2881b2886ca41b28d1b291c18d5433852339c18d706b01b28dc18d5633870635c18c1b27c1b27c6ca11b2811b281c18c5633452335c18c706ac1b285c18c5433470631c18b1b2701b2706c9e1b2751b279c18b543305232dc18a706a4)
  (.lf 0))) (.nd (.nd (.lf
  0x629900ca73c774744cd826562994629940ca83c778744d1826662998629980ca93c77c744d582676299c6299c0caa3c780744d98268629a0629a00cab3c784744dd8269629a4629a40cac3c788744e1826a629a8629a80cad3c78c744e5826b629ac629ac0cae3c790744e9826c629b0629b00caf3c794744ed826d629b4629b40cb03c798744f1826e629b8629b80cb13c79c744f5826f629bc629bc0cb23c7a0744f98270629c0629c00cb33c7a4744fd8271629c4629c40cb43c7a8745018272629c8629c80cb53c7ac745058273629cc629cc0cb63c7b0745098274629d0629d00cb73c7b47450d8275629d4629d40cb83c7b83c73c0cab032983c7400cac0329c3c7440cad032a03c7480cae032a43c74c0caf032a83c7500cb0032ac3c7540cb1032b03c7580cb2032b43c75c0cb3032b83c7600cb4032bc3c7640cb5032c03c7680cb6032c43c76c0cb7032c83c7700cb8032cc3c7740cb9032d03c7780cba032d43c77c0cbb032d83c7800cbc032dc3c7840cbd032e03c7880cbe032e43c78c0cbf032e83c7900ca0032ec3c7940ca1032f03c7980ca2032f43c79c0ca3032f83c7a00ca4032fc3c7a40ca5032803c7a80ca6032843c7ac0ca703288)
  (.lf 0)) (.nd (.lf
  0x64ead93aa08eb008eb023ae08eb508eb593aa57cd015fa1b5cb5bbe86d72db5ca15f8c15f8c57e515f9143a48038300d8c15de857bd15dd815dd8577815ddd15ddc57bd59ca415f91b5ca5dbe453c5003a343b4843b490ef243c495b9e5b2156c8d06c8d0052349ed03db4805430148c5fb6405633dbc83dbc805233dc490148d936c64e2c64e2d5f3400f8c43c4803a300d8c00d8d93aa64f2464f25473457cd057cd057bd15f3815f38000059ca659ca5b5ca6d7a46d7a56ef95dbe45dbe5b6466d9946d9f97f1261c486d9e17f0c61c3014ccdb33049fb86ccc1b32f14cbc14cbc533114cc114cc5b32f015706d9957ef961be461be4055c3b9c86d9cd7f0761c1c61c1c054a3ba0061c30054f3ba143ba00055c0155c3ba140541015703dcac057c015705fc48059c3dd2c3dd2c055c3ddad5bac9b32f6cd386cd38055c49fb4015719401650800915594020107465101943f092ac092ac24ad092b1092b1943f57db4650815f6d0107065009940109144091442453091490914d940157db457db4598b59d881662c59a01661c1661c5989166211662059a059d8415de0000015ef615ef5672715dd05b9e1b2146c8cc6c8cc052249ecc144ddb21549ed0)
  (.lf 0)))

def shaGateTree414 : BTree :=
  .nd (.nd (.nd (.lf
  0x7948584f1633c4633c40f343d1a87948984f2633c8633c80f353d1ac7948d84f3633cc633cc0f363d1b07949184f4633d0633d00f373d1b47949584f5633d4633d40f383d1b83d13c0f2b03c983d1400f2c03c9c3d1440f2d03ca03d1480f2e03ca43d14c0f2f03ca83d1500f3003cac3d1540f3103cb03d1580f3203cb43d15c0f3303cb83d1600f3403cbc3d1640f3503cc03d1680f3603cc43d16c0f3703cc83d1700f3803ccc3d1740f3903cd03d1780f3a03cd43d17c0f3b03cd83d1800f3c03cdc3d1840f3d03ce03d1880f3e03ce43d18c0f3f03ce83d1900f2003cec3d1940f2103cf03d1980f2203cf43d19c0f2303cf83d1a00f2403cfc3d1a40f2503c803d1a80f2603c843d1ac0f2703c883d1b00f2803c8c3d1b40f2903c903d1b80f2a03c9440b3c0f4003c8040b400f4103c8440b440f4203c8840b480f4303c8c40b4c0f4403c9040b500f4503c9440b540f4603c9840b580f4703c9c40b5c0f4803ca040b600f4903ca440b640f4a03ca840b680f4b03cac40b6c0f4c03cb040b700f4d03cb440b740f4e03cb840b780f4f03cbc40b7c0f5003cc040b800f5103cc440b840f5203cc840b880f5303ccc40b8c0f5403cd040b900f5503cd4)
  (.lf 0)) (.nd (.lf
  0x7fb59fed5350b4350b4d42f350b9350bdfed54b128350b9fed550d2834f5dfe984dd2c7fa61fe9734f4c34f4cd3d534f5134f55fe974c5284a929fe977fad87fad9314a4dd284c529fed57fbd07fb55fed4350a8350a8d42c350ad350b1fed44b124350adfed450d2434f51fe974dd287fa5dfe9634f4034f40d3d234f4534f49fe964c5244a925fe967fad47fad531494dd244c525fed47fbcc7fb51fed33509c3509cd429350a1350a5fed34b120350a1fed350d2034f45fe964dd247fa59fe9534f3434f34d3cf34f3934f3dfe954c5204a921fe957fad07fad131484dd204c521fed37fbc87fb4dfed23509035090d4263509535099fed24b11c35095fed250d1c34f39fe954dd207fa55fe9434f2834f28d3cc34f2d34f31fe944c51c4a91dfe947facc7facd31474dd1c4c51dfed27fbc47fb49fed13508435084d423350893508dfed14b11835089fed150d1834f2dfe944dd1c7fa51fe9334f1c34f1cd3c934f2134f25fe934c5184a919fe937fac87fac931464dd184c519fed17fbc07fb45fed03507835078d4203507d35081fed04b1143507dfed050d1434f21fe934dd187fa4dfe9234f1034f10d3c634f1534f19fe924c5144a915fe927fac4)
  (.lf 0))) (.nd (.nd (.lf
  0x23899d44554c8023895d44556c8052c81d4457519075115d44423884238848e23238892388dd44454c7c23889d44456c7c52c7dd4447518c75111d44323878238788e202387d23881d44354c782387dd44356c7852c79d443751887510dd4422386c2386c8e1d2387123875d44254c7423871d44256c7452c75d4427518475109d44123860238608e1a2386523869d44154c7023865d44156c7052c71d4417518075105d44023854238548e17238592385dd44054c6c23859d44056c6c52c6dd4407517c75101d43f23848238488e142384d23851d43f54c682384dd43f56c6852c69d43f75178750fdd43e2383c2383c8e112384123845d43e54c6423841d43e56c6452c65d43e75174750f9d43d23830238308e0e2383523839d43d54c6023835d43d56c6052c61d43d75170750f5d43c23824238248e0b2382923829d43c56c5c52c5dd43c7516c7516d531756c5c56c5c0b3c425d475199532256c8856c880b2742600751c9532e56cb856cb80b3342630425d40b3302ca0426000b3e02ccc46a880b5302ccc751a1532456c9054c900b7346b8846b891b0246c8946c880b7302ccc02ccda33a68d642382dd43c54c5c750f1d43b23818238188e082381d)
  (.lf 0)) (.nd (.lf
  0x53dbc03fe43eb443eb50fcd43fb543fb403fe00ef800ef994bd6537055d6803bf416e06daf54f6e55db855db803b3417304173003aa00efc6dafd4f7055dc043db803df00efc53dc003ff43eb843eb90fce43fb943fb803ff00efc00efd94be65374652f994bd09594095942567095990959994bd57e3c0959d94bd51e3c652f594bc095880958825640958d0959194bc51e3855d8403a6416fc416fc03bd00ec84172803a800ef443db003dd00ef453db803fd43eb043eb10fcc43fb143fb003fd00ef400ef594bc6536c0958d94bc57e38652f194bb0957c0957c2561095810958194bb57e3455d5c03bc416d455dac03b0417244172403a700ef00958594bb51e3443dac03dc00ef053db403fc43eac43ead0fcb43fad43fac03fc00ef000ef194bb65368652ed94ba0957009570255e095750957594ba57e3055d5803bb416d055d7c03a4416f46dae54f6a55da855da803af41720416f403bb00ec04172003a600eec43da803db00eec53db003fb43ea843ea90fca43fa943fa803fb00eec00eed94ba653640957994ba51e30652e994b90956409564255b095690956994b957e2c0956d94b951e2c55d7803a3416f055da403ae4171c416f003ba00ebc)
  (.lf 0)))

def shaGateTree415 : BTree :=
  .nd (.nd (.nd (.lf
  0x396120adc4cd5482b720adb395fc395fce58139601396020adb4e5504b1520adb82be882be933544e5504e5520b5782dd882dd92d344fd503717e0490510d481242048f3716c3716cdc5d3717137176048f4b4d04c8d2048f812b8812b92d34510d069ca54c34590d069bad64340418c27c29ddb703a90776ddddb627c1427c149f0727c1927c19ddb64b4d027abddd795efe8775e5dd7827aac27aac9ead27ab127ab5dd785cfe42794c9e5127940279409e51590d1590d09e515b0105b011dd787765c7765d73f95efe45cfe5ddb677754777540ea34b4d04b4d20ff1840408404134344e8d04d0d2102f84138840be102e3b4e03b4e0ed3a3b4e53b4ea102e007883b4e6102e518cc3b38a0ff14e8d083fc60ff03b3783b378ece03b37d3b3820ff04d0cc398d20b574fd5082d5e0b56398c0398c0e632398c5398ca0b564b4cc396060adb4cd5082b6e0ada395f0395f0e57e395f5395f60ada4e54c4b14e0ada82be482be533534e54c4e54e0b5682dd482dd52d334fd4c37172048f510d08123e048e3716037160dc5a371653716a048e4b4cc4c8ce048e812b4812b52d33510cc69b31a6cb0fdbc0fdbc3f710fdc10fdc5a6cb590cc03889a6cb69ba8)
  (.lf 0)) (.nd (.lf
  0x4f0c129634a5846f9597ffd61ff461ff406403bdd83bdd80652019343e4840672019486002008923e5043e50406523e5850194997d765fd83bdcc064f019283bdd006500192c3bdd40651019303e478066f0193c3e47c0670019403e48006710194460014088f3e4f86001808903e4fc6001c08913e5003e4f8064f3e5793e4fc06503e57d3e50006513e58119e80000019efa0a75d97d801b4c65f6197d70a74c0a74c29d50a751660d148635818c0a75597d75818c65fd9606301b4819ef8679d19e7019e70679d5818d5818c679d5a13419e7467bd19e6419e64679b19e6919e6c000019ef6660c54860581800194597d665fd465fd5606201b440194197d565fd065fd1606101b400193d97d465fcc65fcd606001b3c19e6867bd5a1300a75197d701b4865f5d97d60a7400a74029d20a7450a74997d6581885818867bd19f1c19ef4679819e5c19e5c6798581850a74597d601b4465f5997d50a7340a73429cf0a7390a73d97d5581845818467985a12c19e6067bc19e5019e50679619e5519e5467bc5a1280a73997d501b4065f5597d40a7280a72829cc0a72d0a73197d4581805818067bc19f1819e58000019ef219ef0679319e4819e4867935817d)
  (.lf 0))) (.nd (.nd (.lf
  0x3f3440a42028883f3480a430288c607600a623f3c4607640a633f3c83f3c40a223f4453f3c80a233f44920905cd985c7e845e4808430208c54850086345f4845f4917f2460494604808630208c2079881e42078c2078c81e4588d10d2459f4b528d467d2d9f4a0d2300d230348e0d2350d2359f4a588d0728140a234aad00d0d99f0d02a9067c359f0c0d0c80d0c834340d0cd0288d9f0c67cac0d0d19f0c588d067cad623402a8c0208d9f4a67da467da54a34588d0588d081e45a8405a841cd97736d845e440842020885484c086245f4445f4517f1460454604408620208873661cd97208f0208f0823e208f5208f9cd975c7e4208f5cd975e7e47365dcd96208e4208e4823b208e9208e9cd965e7e020791cd86207800d0cd9f0c02a8c67c319f0b0d0bc0d0bc34310d0c10d0c59f0b588cc728100a224aacc028899f0b67ca867ca9623302a88020899f4967da067da14a33588cc0d2399f4a528d067d299f490d2240d224348b0d2290d2299f49588cc588cdcd86208a02078081e22078520785cd865a83c208a000005a83e5a83dcd96736d4736d571f85e7e05e7e1ce12738c420bc9ce13607e4736d971f95e7e45e7e5ce13738c87384dce1220bb4)
  (.lf 0)) (.nd (.lf
  0x71318e944b5d05f8e404c33d6c83d6c92d743d749847118e9463acc3d6492d544b5d063acd2d740088c4b5d191006447c6447d5e9400d0c57a504ef113bfc13bfc000059a4263a212d67008580712d8e940088c63a518e930711c0711c1c4907121071258e934b5cc8470d8e9363ac8071218e930088863a4d8e9207110071101c4607115071158e92008846c5d57e69619a407f3d910000d0c6440190ff07f2c07f2c1fcd07f3163ac92d7300888619a52d5d3b7883b7892d6f4b5a8644855e9600d1413f45b1495f9706c525b14813f3013f304fce13f356c6017e74619d013adc000013bce13bcc4ef213ac813ac84eb413acd13acc4ef259a4863a412d6f008786c5e97e6e619b8619b92d623b79c3b79d2d544b5bc57a584ef213c0013c00000059a4a59a49b0cc6c3ac6c3ad6e5b5d96c13c65b0cc5d96c5d96db1486c59c5f9d004fe3d8346c59d7e5b6196c3d8352d6f3d8b53d7b404de4b5bc13f35b1486196c6196d2d6f3b7504b5bd9197646d8076cd8f8c00a8c63e318f8b076bc076bc1db1076c1080a9913e51a50644f9913d080940809420270809908099913d57a4c0809d913d51a4c8490d8f8b63ea863ea92df300a88432c52dd34b7cc)
  (.lf 0)))

def shaGateTree416 : BTree :=
  .nd (.nd (.nd (.lf
  0x49cc4026b0099849cc8026c0099c49ccc026d009a049cd0026e009a449cd4026f009a849cd80270009ac49cdc0271009b049ce00272009b449ce40273009b849ce80274009bc49cec0275009c049cf00276009c449cf40277009c849cf80278009cc49cfc0279009d049d00027a009d449d04027b009d849d08027c009dc49d0c027d009e049d10027e009e449d14027f009e849d180260009ec49d1c0261009f049d200262009f449d240263009f849d280264009fc49d2c02650098049d3002660098449d3402670098849d3802680098c49d3c02690099049d40026a009945d6d6118184680846061180494b8494b92530494bd494c21180009f8494be1180006785d6d211808467c84602117f494ac494ad252d494b1494b6117f009f4494b2117f006745d6ce117f84678845fe117e494a0494a1252a494a5494aa117e009f0494a6117e006705d6ca117e84674845fa117d49494494952527494994949e117d009ec4949a117d0066c5d6c6117d84670845f6117c494884948925244948d49492117c009e84948e117c006685d6c2117c8466c845f2117b4947c4947d25214948149486117b009e449482117b006645d6be117b84668845ee117a49470)
  (.lf
  0x7ca41f2b07ca907cad9089579e407ca9908900ca064225908807c9807c981f2807c9d07ca19088579e0847998ed463bcc63bcd2d9600914072b18ed44b6585f86d2d563d5d03d5d12d963d6513b6a52d964b6444b65990866429463bd12d97009185f8752d583d5d863bd52d980091c3d5d92d983d6593b6ad2d984b64c4b66190886429c07c9d908800c9c64221908707c8c07c8c1f2507c9107c959087579dc07c91908700c983b6a92d974b6485f8712d573d5d43d5d52d973d6554b65d9087642986421d908607c8007c801f2207c8507c85908600c9407c899086579d864219908507c7407c741f1f07c791339c000013476072ad8ed40091463b518ed30729c0729c1ca9072a1134744ce41338c1338c4ce4579f5579f44ce4599e4642ad5e7c00cac133904ce213384133844ce2579f1579f04ce2599e0133884ce01337c1337c4ce0579ed642a95e7b00ca8579ec4ce0599dc133804d1c13370133704cde1337513378000013472642a55e7a00ca4579e84d1c134c8133744d1c599d8134704d1b13364133644cdb13369133684d1b599d4642a15e7900ca01336c00001346e579e44d1b134c41346c4d1a13358133584cd81335d1336000001346a))
  (.nd (.lf
  0xd3719f64529380d36d9f645893867d919f630d35c0d35c34d90d3610d3659f635293452935cd637360867e114a4f5893c5293dcd657361067e154a505894052941cd667361473599cd65207702077081de2077520775cd655693c20779cd655493c73595cd64207642076481db207692076dcd645493820769cd645693867e0d4a4e5893852939cd647360c73591cd63207582075881d82075d2075dcd635693420761cd63549347358dcd622074c2074c81d52075120755cd62549301ff55cc555485c73155cc541ff401ff407fd21ff451ff49cc545485852859cc54731cc1ff45cc545685873151cc531ff341ff347fcf1ff391ff39cc535685452855cc53731c81ff3dcc53548547314dcc521ff281ff287fcc1ff2d52851cc52731c47321d522a568a8732195229568a4732155228568a0731f1521f5687c731e9521d56874731c952155685420751cd6256930731c55214568501ff2dcc5256850568500839421c856854083a421cc731cd52165685856858083b421d0568740822421ec731ed521e56878568780823421f05687c0824421f4568a0082d42218568a4082e4221c568a8082f42220421ec0839020b8421f0083a020bc421f4083b020c0)
  (.lf 0))) (.nd (.nd (.lf
  0x69ca14c33590cc4763c0c4003080550440c604773c4773d1def4783d4783c0c6003080030814c31590c4403b80e5f038fc60fd40e7f40438404380e3f404b9038fda6e869c1c69ba1a6e70ff0c0ff0c3fc50ff110ff11a6e7041f8403b40e5e038f860fd00e7e40434404340e3e404b5038f9a6e769c180ff15a6e75913c69b9da6e60ff000ff003fc20ff050ff09a6e659138403b00e5d038f460fcc0e7d40430404300e3d404b1038f5a6e669c140ff05a6e6041f469b99a6e50fef40fef43fbf0fef90fef9a6e5041f0403ac0e5c038f060fc80e7c4042c4042c0e3c404ad038f1a6e569c100fefda6e55913469b95a6e40fee80fee83fbc0feed0fef1a6e4591300feeda6e4041ec403a80e5b038ec60fc40e7b40428404280e3b404a9038eda6e469c0c69b91a6e30fedc0fedc3fb90fee10fee5a6e35912c0fee1a6e3041e8403a40e5a038e860fc00e7a40424404240e3a404a5038e9a6e369c0869b8da6e20fed00fed03fb60fed50fed9a6e2591280fed5a6e2041e4403a00e59038e460fbc0e7940420404200e39404a1038e5a6e269c0469b89a6e10fec40fec43fb30fec90fecda6e1591240fec9a6e1041e04039c0e58038e060fb80e784041c)
  (.lf 0)) (.nd (.lf
  0x6f88808b14a5084a509f8bf7e3787e2fdf8be32d2032d20cb4a32d2532d29f8be4c10432d25f8be4d9044a505f8be7e3747e2f9f8bd32d1432d14cb4732d1932d1df8bd4c1006f87408ac4a4f46f88008af4a5004a501f8bd7e37032d19f8bd4d9007e2f5f8bc32d0832d08cb4432d0d32d11f8bc4c0fc32d0df8bc4d8fc6f87c08ae4a4fc4a4fdf8bc7e36c7e2f1f8bb32cfc32cfccb4132d0132d05f8bb4c0f832d01f8bb4d8f84a4f9f8bb7e3687e2edf8ba32cf032cf0cb3e32cf532cf9f8ba4c0f432cf5f8ba4d8f44a4f5f8ba7e3647e2e9f8b932ce432ce4cb3b32ce932cedf8b94c0f032ce9f8b94d8f06f87008ab4a4f04a4f1f8b97e3607e2e5f8b832cd86f86c08aa4a4ec4a4edf8b87e35c32cd8cb3832cdd32ce1f8b84c0ec32cddf8b84d8ec7e2e1f8b732ccc32ccccb3532cd132cd5f8b74c0e86f86808a94a4e84a4e9f8b77e3587e359303a4d8e84c0e9f8f57e4506f85808a54a4d86f7556ff85dfe05bfe1bdf46f84c32cd1f8b74d8e87e369303e4d8f84c0f9f8f97e4607e37d30434d90c4c10df8fe7e47432ea9f8fe4ad0c7e3f9f8fd32e9432e94cba732e997e37930424d9084c109f8fd7e47032e99f8fd5090832e9df8fd4ad08)
  (.lf 0)))

def shaGateTree417 : BTree :=
  .nd (.nd (.nd (.lf
  0x40a3c0f2003c0040a400f2103c0440a440f2203c0840a480f2303c0c40a4c0f2403c1040a500f2503c1440a540f2603c1840a580f2703c1c40a5c0f2803c2040a600f2903c2440a640f2a03c2840a680f2b03c2c40a6c0f2c03c3040a700f2d03c3440a740f2e03c3840a780f2f03c3c40a7c0f3003c4040a800f3103c4440a840f3203c4840a880f3303c4c40a8c0f3403c5040a900f3503c5440a940f3603c5840a980f3703c5c40a9c0f3803c6040aa00f3903c6440aa40f3a03c6840aa80f3b03c6c40aac0f3c03c7040ab00f3d03c7440ab40f3e03c7840ab80f3f03c7c612d80f4040abc612dc0f4140ac0612e00f4240ac4612e40f4340ac8612e80f4440acc612ec0f4540ad0612f00f4640ad4612f40f4740ad8612f80f4840adc612fc0f4940ae0613000f4a40ae4613040f4b40ae8613080f4c40aec6130c0f4d40af0613100f4e40af4613140f4f40af8613180f5040afc6131c0f5140b00613200f5240b04613240f5340b08613280f5440b0c6132c0f5540b10613300f5640b14613340f5740b18613380f5840b1c6133c0f5940b20613400f5a40b24613440f5b40b28613480f5c40b2c6134c0f5d40b30613500f5e40b34613540f5f40b38)
  (.lf 0)) (.nd (.lf
  0xbc799b7a5251001ccd9b7a66e6466de99b790bc640bc642f1b0bc6945280075101cc445284075201cc8544880771453805448c077245384453811500454814538515014548545480077101cc445484077201cc801cc59b7866e5c01cc99b7966e600bc699b795850c0bc6d9b795250c66de59b780bc580bc582f180bc5d0bc619b78525080bc5d9b785850866de19b770bc4c0bc4c2f150bc510bc519b775850441dc8073001c944527c075001cc05448407704537c4537d14ff4547d4547c077001cc001cc19b7766e580bc559b775250466ddd9b760bc400bc402f120bc450bc459b765850041dc0072e01c8c45274074e01cb85447c076e453744537514fd4547545474076e01cb801cb99b7566e5041dc4072f01c9045278074f01cbc54480076f453784537914fe4547945478076f01cbc0bc499b765250001cbd9b7666e5466dd99b750bc3441dbc072d01c8841e34072b01c8041e38072c01c840bc342f0f0bc390bc399b75584fc0bc3d9b75524fc66dd59b740bc280bc282f0c0bc2d4526c074c01cb045270074d01cb454474076c4536c54478076d453704536d14fb4546d4537114fc454714546c076c01cb045470076d01cb401cb59b7466e4c)
  (.lf 0))) (.nd (.nd (.lf
  0x54be40b48469dc469dd1a9746add46adc0b4802c2002c21a2b368b4868acda2b20e6100e61039860e6150e619a2b252c600e615a2b258c60468d80b2702c1c54be00b47469d8469d91a9646ad946ad80b4702c1c02c1da2b268b4468ac9a2b10e6040e60439830e6090e60da2b152c5c0e609a2b158c5c468d40b2602c1854bdc0b46469d4469d51a9546ad546ad40b4602c1802c19a2b168b4068ac5a2b00e5f80e5f839800e5fd0e601a2b052c580e5fda2b058c58468d00b2502c1454bd80b45469d0469d11a9446ad146ad00b4502c1402c15a2b068b3c68ac1a2af0e5ec0e5ec397d0e5f10e5f5a2af52c540e5f1a2af58c54468cc0b2402c1054bd40b44469cc469cd1a9346acd46acc0b4402c1002c11a2af68b3868abda2ae0e5e00e5e0397a0e5e50e5e9a2ae52c500e5e5a2ae58c50468c80b2302c0c54bd00b43469c8469c91a9246ac946ac80b4302c0c02c0da2ae68b3468ab9a2ad0e5d40e5d439770e5d90e5dda2ad52c4c0e5d9a2ad58c4c468c40b2202c0854bcc0b42469c4469c51a9146ac546ac40b4202c0802c09a2ad68b3068ab5a2ac0e5c80e5c839740e5cd0e5d1a2ac52c480e5cda2ac58c48468c00b2102c0454bc80b41469c0)
  (.lf 0)) (.nd (.lf
  0x30c79f325504e87cc192f3a4d4e84bce9f3257cd107cc95f32430c6830c68c31c30c6d30c71f3244a8e430c6df324504e47cc91f32330c5c30c5cc31930c6130c61f323504e07cc112f384d4e04bce1f3237cd0830c65f3234a8e07cc0d2f374d4dc7cc8df32230c5030c50c31630c5530c55f322504dc4bcddf3227cd0430c59f3224a8dc7cc89f32130c445bbe5b6086d89c16109b609016906d825b608160f4160f4583f160f9160f9b6084a0d0160fdb6080168c6d821b607160e8160e8583c160ed160f1b607016885bbe1b6076d898160edb6074a0cc6d81db606160dc160dc5839160e1160e1b6064a0c85bbddb6066d8946d89405a14a0c80617928344a0c84a0c9f2df7cbf87cbf92f324d4c87cc092f364d4d84bcd9f3217cd0030c44c31330c4930c4df3214a8d830c49f321504d87cc85f32030c3830c38c31030c3d30c3df320504d430ad5f2e24d4d47cb89f2e130ac430ac4c2b330ac930acdf2e14bcd06d89c05a34a0d0160e5b606016846d81805a04a0c50617528334a0c44a0d1f2e17cc0030ac9f2e14d4d07cb85f2e030ab830ab8c2b030abd30abdf2e04d4cc6d89805a24a0cc4a0cdf2e07cbfc7cbfd2f334d4cc7cc012f344d4d0)
  (.lf 0)))

def shaGateTree418 : BTree :=
  .nd (.nd (.nd (.lf
  0x7a155559c5767057670116142fe87a159559d5767457674116242fec7a15d559e5767857678116342ff07a161559f5767c5767c116442ff47a16555a05768057680116542ff87a16955a15768457684116642ffc7a16d55a257688576881167430007a17155a35768c5768c1168430047a17555a457690576901169430087a17955a55769457694116a4300c7a17d55a65769857698116b430107a18155a75769c5769c116c430147a18555a8576a0576a0116d430187a18955a9576a4576a4116e4301c7a18d55aa576a8576a8116f430207a19155ab576ac576ac1170430247a19555ac576b0576b01171430287a19955ad576b4576b411724302c7a19d55ae576b8576b81173430307a1a155af576bc576bc1174430347a1a555b0576c0576c011754303842fbc116d0458842fc0116e0458c42fc4116f0459042fc811700459442fcc11710459842fd011720459c42fd41173045a042fd81174045a442fdc1175045a842fe01176045ac42fe41177045b042fe81178045b442fec1179045b842ff0117a045bc42ff4117b045c042ff8117c045c442ffc117d045c843000117e045cc43004117f045d0430081160045d44300c1161045d8430101162045dc)
  (.lf 0)) (.nd (.lf
  0x724380a124aa8c724300a104aa847242c0a0f4aa80724200a0c4aa74724000a044aa54724600a1c4aab4724280a0e4aa7c1e6fdc8de4aa487240c0a074aa60456bc07a001e00545c407c0457bc457bd160f458bd458bc07c001e0001e01499158644026016191020005864400005a5d25a5d171565e558724540a194aaa81e5a1c8a15e56072285c8a01e5901e59079661e5951e599c8a05c55c5c55dc8de723f4723f40a014aa481e595c8a05e55c7228171565e5595c5580a004aa44723f80a024aa4c7245c0a1b4aab0724640a1d4aab87243c0a134aa90724480a164aa9c724240a0d4aa78724500a184aaa4724440a154aa981e701c8de02804723780a004aa45724400a144aa947241c0a0b4aa70724180a0a4aa6c7244c0a174aaa0723fc0a034aa504aac200cb803a8803a931b04dec04c6c20109804a080426010835d9835d98d76835d9d35da201084b2bc35d9e010850ebc8032e00ca35c3035c30d70e35c3535c3a00ca4c6bc4aabe00ca803a4803a531af4debc4c6be01088049c80422010735d8c35d8cd76535d9135d9601074b2b835d92010750eb835c3600ca4debc8032a00c935c2435c24d70b35c2935c2e00c94c6b84aaba00c9803a0)
  (.lf 0))) (.nd (.nd (.lf
  0x62d680dbd3cb4c764b9835b62d6c62d6c0dbe3cb50764bd835c62d7062d700dbf3cb54764c1835d62d7462d740da03cb58764c5835e62d7862d780da13cb5c764c9835f62d7c62d7c0da23cb60764cd836062d8062d800da33cb64764d1836162d8462d840da43cb68764d5836262d8862d880da53cb6c764d9836362d8c62d8c0da63cb70764dd836462d9062d900da73cb74764e1836562d9462d940da83cb78764e5836662d9862d980da93cb7c764e9836762d9c62d9c0daa3cb80764ed836862da062da00dab3cb84764f1836962da462da40dac3cb88764f5836a62da862da80dad3cb8c764f9836b62dac62dac0dae3cb90764fd836c62db062db00daf3cb9476501836d62db462db40db03cb9876505836e62db862db80db13cb9c76509836f62dbc62dbc0db23cba07650d837062dc062dc00db33cba476511837162dc462dc40db43cba876515837262dc862dc80db53cbac76519837362dcc62dcc0db63cbb07651d837462dd062dd00db73cbb476521837562dd462dd40db83cbb83cb3c0dab036983cb400dac0369c3cb440dad036a03cb480dae036a43cb4c0daf036a83cb500db0036ac3cb540db1036b03cb580db2036b43cb5c0db3036b8)
  (.lf 0)) (.nd (.lf
  0x57fb060bc59f806e5f5b97c17980179805e621798517985b97c55ed417989b97c53ed46e5f1b97b17974179745e5f1797917979b97b55ed06e68d4fbd55ef46e66d4fb555ed43e0a005f9017645fe3c06193e1203e12005d93e1a10176595ee65834658355fea01264182f1babb182e0182e060ba182e555ed4041a4184c6e6914fbe55ef855ef80403418706e6bd4fc955f2455f24040e4189c41870041a0103c4189c04050106844224043a0106853f2c045a443244432510e94442544424045a0106801069962d659306593147eb57fac51ed1b97b6e6686e6694fb455ed055ed004194184855ef404024186c6e6b94fc855f2055f20040d418984186c041901038418980404010644422004390106453f280459443204432110e8444214442004590106401065962c6592c6592d47ea57fa809de9962e51fb0658b9962d09dd409dd4277709dd909dd9962d57fac09c7d95f00126c657c195ef09c6c09c6c271d09c7109c7595ef57fac182e800006eaee182e5babb59f7c57fadbabb183446eaec60b7182d8182d860b757fa909ddd962d51fac658b5962c09dc809dc8277409dcd09dcd962c57fa809c7195ef01268657bd95ee09c6009c60271a09c65)
  (.lf 0)))

def shaGateTree419 : BTree :=
  .nd (.nd (.nd (.lf
  0x101f9a7855914c69e15a784101e8101e8407c101ed101eda78459148101f1a7845314869e914c535914c03105a78469e8c69e114c51591450397da76469e0c031014c515914469e8d4c525914803965a75e69df469d91a763101dc101dc4079101e1101e5a763591bc101e1a7630427803979a76369e0869d8da762101d0101d04076101d5101d5a76204274101d9a762591b803971a76169e0003975a76269e0469d89a761101c4101c44073101c9101c9a76104270101cda761591b469d85a760101b8101b84070101bd101c1a760591b00396da76069dfc101bda7600426c69d81a75f101ac101ac406d101b1101b5a75f591ac03969a75f69df8101b1a75f0426869d7da75e101a0101a0406a101a5101a5a75e04264101a9a75e591a869d79a75d101941019440671019910199a75d042601019da75d591a403961a75d69df069d75a75c101881018840641018d1018da75c0425c10191a75c591a00395da75c69dec69d71a75b1017c1017c40611018110185a75b5919c0394da75869ddc10181a75b0425803959a75b69de869d6da75a1017003955a75a69de410170405e1017510179a75a5919810175a75a0425469d69a7591016410164405b10169)
  (.lf 0)) (.nd (.lf
  0x4f1e529c3065784f1e929c40657c7eb1d2a5b4f1ec4f1ed29c5065804f1f129c6065847eb252a5d4f1f44f1f529c7065884f1f929c80658c7eb2d2a5f4f1fc4f1fd29c9065904f20129ca065947eb352a614f2044f20529cb065984f20929cc0659c7eb3d2a634f20c4f20d29cd065a04f21129ce065a47eb452a654f2144f21529cf065a84f21929d0065ac0655929c44a7080655d29c54a70c0656129c64a7100656529c74a7140656929c84a7180656d29c94a71c0657129ca4a7200657529cb4a7240657929cc4a7280657d29cd4a72c0658129ce4a7300658529cf4a7340658929d04a7380658d29b14a73c0659129b24a7400659529b34a6c40659929b44a6c80659d29b54a6cc065a129b64a6d0065a529b74a6d4065a929b84a6d8065ad29b94a6dc7eb4d2a674f21c4f21d29ba4a6e04f22129bb4a6e47eb552a694f2244f22529bc4a6e87eb592a6a4f2284f22929bd4a6ec7eb5d2a6b4f22c4f22d29be4a6f07eb612a6c4f2304f23129bf4a6f47eb652a6d4f2344f23529c04a6f87eb692a6e4f2384f23929c14a6fc7eb6d2a6f4f23c4f23d29c24a7007eb712a704f2404f24129c34a704665dd60d001cfc666d548d05834058341c1bb1b3ec)
  (.lf 0))) (.nd (.nd (.lf
  0x325da094682cc0dba5a0d352aa46834da0d20db900db9036e60db950db95a0d258aa0682cd62a802c5c58aa0877321e0c21e0c00005aa125aa11d0a0742fc742fd726d5e9b421d5c000021dce21dcc875421d4c21d4c875458a9d609300cd63f7143f7140c963f7953f6940cb60325803259a093682c8682c962a702c580da2da09402c5c68251a0930da1c0da1c36890da210da25a09358a9c529c55271569c421435cf47549c873d1d5271569c5569c40a964233c73de5528556a1456a140a8a4238c423600a9602a2c4238c0a8102a58463140ab602a5854a1c0ad64641446415192546515465140ad602a580db99a0d252aa002a59a0d1683c0683c14aa758a9c68349a0d10db840db8436e30db890db89a0d158a9c58a9c87545aa0c21d50877221d4021d40875221d4521d4487725aa0873de1528456a1056a100a894238856a400a95423b84235c0a9502a28423880a8002a54463100ab502a5454a180ad54641046411192446511465100ad502a5402a55a0d0683bc683bd4aa658a980da21a09302c586824da0920da100da1036860da150da19a09258a983f6900cb5032546092c0cd53f7103f7100c953f79103255a092682c40db8da0d152a9c)
  (.lf 0)) (.nd (.lf
  0x3da5c0528014205faf805483dadc3dadc05083db5d6c4b0050849e640142192f564c5064c515f1900f2057c6455ee15800156c455ee59c3c157b855af156b83b92c0507014086c4ac050749e603da5805270141c5faf405473dad83dad805073db590141d92f464c4c08ab992f500f2064bd592f408aa808aa822ac08aad08ab192f457c6064c4d5f1800f1c156b855af57c6157c6055af59c38156bc55ed156ac156ac55ad156b1156b40000157b615899b4d85bb7c6d361b4d7158841588456231588915889b4d75db7815800000059c3e59c3db4d76d3d86d3d96ede5db785db79b5536d5c815b59b55361b786d54db55215b4815b4856d415b4d15b51b5525fb7413dc5b109014106c4a8050649e5c08aad92f400f1c64bd192f308a9c08a9c22a908aa13b9280506014043da540526014185faf005463dad43dad405063db550141992f364c4864c495f1700f1808aa592f357c5c57c5c55ed157fc156b055ed59c343b9240505014003da500525014145faec05453dad03dad005053db516c4a4050549e580141592f264c4464c455f1600f1408aa192f300f1864bcd92f208a9008a9022a608a9508a9992f257c5857c5855ec157f8157b455ec156a0)
  (.lf 0)))

def shaGateTree420 : BTree :=
  .nd (.nd (.nd (.lf
  0x6b769add9126e4126e449bb126e9126e9add9597ec046a9add96b7e06b7e14dfb597ec1258dad9c00b2c6b671ad9b1257c1257c49611258112585ad9b597ec597ecb67c5b7005b701eb027ac847ac8575c05f7005f701eb7e7ae747adf9eb7d2de842de84b7a32de892de8deb7d616fc2de89eb7d636fc2dbc9eb025d7007ac09eb012dbb42dbb4b6ef2dbb92dbb9eb015f6fc2d9f0b6b52d9e02d9e0b67a2d9e52d9e4b6b55b6fc2c331e7b9004a879ee5e7b82c3202c320b0ca2c3252c329e7b803fa45d4fde7b879f5c79f5c0fe9004a4126edadd9537ec6b765add8126d8126d849b8126dd126ddadd8597e8046a5add86b7dc6b7dd4dfa597e812581ad9b00b286b66dad9a1257012570495e1257512579ad9a597e803fa5ad9a6b6e46b6e565fa00b24597e8b6b52db202db2000005b6fe5b6fdeb017ac807ac8175bf5f6fc5f6fdeb7d7ae707adf5eb7c2de782de78b7a02de7d2de81eb7c616f82de7deb7c636f82dbbdeb015d6fc7ac05eb002dba82dba8b6ec2dbad2dbadeb005f6f82d9e800002dad62dad4b6b42d9d42d9d4b6772d9d92d9d8b6b45b6f82c325e7b8004a479ee1e7b72c3142c314b0c72c3192c31de7b703fa05d4f9e7b779f58)
  (.lf 0)) (.nd (.lf
  0x57152ccf4b310057192cd04b3140571d2cb14b318057212cb24b31c057252cb34b320057292cb44b3240572d2cb54b328057312cb64b32c057352cb74b330057392cb84b3340573d2cb94b338057412cba4b33c057452cbb4b340057492cbc4b2c40574d2cbd4b2c8057512cbe4b2cc057552cbf4b2d080a692cee50fb850fb92cc04b2d480a6d2cef50fbc50fbd2cc14b2d880a712cf050fc050fc12cc24b2dc4dfc202bb80b6880aee02ba3677036770d9de367753677a02ba4af3c3677602ba4f7bc4dfbe02ba80b6480aea02b93676436764d9db367693676e02b94af383676a02b94f7b84dfba02b980b6080ae602b83675836758d9d83675d3676202b84af343675e02b84f7b44dfb602b880b5c80ae202b73674c3674cd9d5367513675602b74af303675202b74f7b04dfb202b780b5880ade02b63674036740d9d2367453674a02b64af2c3674602b64f7ac4dfae02b680b5480ada02b53673436734d9cf367393673e02b54af283673a02b54f7a84dfaa02b580b5080ad602b43672836728d9cc3672d3673202b44af243672e02b44f7a44dfa602b480b4c80ad202b33671c3671cd9c9367213672602b34af203672202b34f7a04dfa202b380b48)
  (.lf 0))) (.nd (.nd (.lf
  0x769a153da56f6856f680bff428e0769b553df56f7c56f7c0be4428f4769b953e056f8056f800be5428f8769bd53e156f8456f840be6428fc769c153e256f8856f880be742900769c553e356f8c56f8c0be842904769e153ea56fa856fa80bef42920769e553eb56fac56fac0bf042924769e953ec56fb056fb00bf142928769ed53ed56fb456fb40bf24292c769f153ee56fb856fb80bf342930428f40bfb02fc0428f80bfc02fc4428fc0bfd02fc8429000bfe02fcc429040bff02fd0429200be602fec429240be702ff0429280be802ff44292c0be902ff8429300bea02ffc473a80c1b02fec473ac0c1c02ff0473b00c1d02ff4473b40c1e02ff8473b80c1f02ffc54fb00c3b474a854fb40c3c474ac54fb80c3d474b0769f553ef56fbc54fbc0c3e474b4769f953f056fc054fc00c3f474b8474a91d4a475a9474ad1d4b475ad474b11d4c475b1474b51d4d475b5474b91d4e475b9475a80c3b02fec475ac0c3c02ff0475b00c3d02ff4475b40c3e02ff8475b80c3f02ffc02ffda62e69934698b9a62d0fad40fad43eb70fad902ff9a62d699300fadda62d5303c0fad9a62d5903c698b5a62c0fac80fac83eb40facd0fad1a62c530380facda62c59038)
  (.lf 0)) (.nd (.lf
  0x32329f7094ef783232df7094a6f84d779f7097dca07dc25f7083231832318c8c83231d32321f7084a6f44d775f7087dc9c3231df7084ef747dc21f7073230c3230cc8c53231132311f7074ef7032315f7074a6f04d771f7077dc987dc1df7063230032300c8c23230532305f7064ef6c4d76df7067dc9432309f7064a6ec7dc19f705322f4322f4c8bf322f9322fdf7054a6e8322f9f7054ef684d761f7037dc884d769f7057dc907dc15f704322e8322e8c8bc322ed322edf7044ef64322f1f7044a6e44d765f7047dc8c7dc11f703322dc322dcc8b9322e1322e5f7034a6e0322e1f7034ef607dc0df702322d0322d0c8b6322d55df4dbc4f6f1b85df55bc516f1c06f145bc5018ea018ea063aa18ea518ea9bc505ff5018ea5bc5061f505df51bc506f1bc6f141bc4f18e9418e9463a718e9918e99bc4f61f4c18e9dbc4f5ff4c6f13dbc4e18e8818e8863a418e8d18e91bc4e5ff485df49bc4e6f1b418e8dbc4e61f486f139bc4d18e7c18e7c63a118e8118e85bc4d5ff4418e81bc4d61f445df45bc4d6f1b06f135bc4c18e7018e70639e18e7518e75bc4c61f4018e79bc4c5ff405df41bc4c6f1ac6f131bc4b18e645df3dbc4b6f1a818e64639b18e69)
  (.lf 0)))

def shaGateTree421 : BTree :=
  .nd (.nd (.nd (.lf
  0x407e40eaa40865407e80eab40869407ec0eac4086d407f00ead40871407f40eae40875407f80eaf40879407fc0eb04087d408000eb140881408040eb240885408080eb3408894080c0eb44088d408100eb540891408140eb640895408180eb7408994081c0eb84089d408200eb9408a1408240eba408a5408280ebb408a94082c0ebc408ad408300ebd408b1408340ebe408b5408380ebf408b942c38106c0418447c6c108c041b05527410ac47d6c47d6d1f7b47e6d47e6c10ac041b0041b1a9036a4886a40da90210ad010ad042b610ad510ad9a902532f010ad5a902592f042c34106b0418047c68108b041ac5527010ab47d6847d691f7a47e6947e6810ab041ac041ada9026a4846a409a90110ac410ac442b310ac910acda901532ec10ac9a901592ec47c64108a041a85526c10aa47d6447d651f7947e6547e6410aa041a8041a9a9016a4806a405a90010ab810ab842b010abd10ac1a900532e810abda900592e847c601089041a45526810a947d6047d611f7847e6147e6010a9041a4041a5a9006a47c6a401a8ff10aac10aac42ad10ab110ab5a8ff532e410ab1a8ff592e447c5c1088041a05526410a847d5c47d5d1f7747e5d47e5c10a8041a0)
  (.lf 0)) (.nd (.lf
  0x5e2c1c34970da01bf29c349622c070d25c3481bf181bf186fc81bf1d1bf21c348602bc1bf1dc348622bc5e2bdc34870d9c70d21c3471bf0c1bf0c6fc51bf115e2b9c34770d981bf15c347602b81bf11c347622b870d1dc3461bf001bf006fc21bf051bf09c346602b41bf05c346622b45e2b5c34670d9470d19c3451bef41bef46fbf1bef91bef9c345622b05e2b1c34570d901befdc345602b070d15c3441bee81bee86fbc1beed1bef1c344602ac5e2adc34470d8c1beedc344622ac70d11c3431bedc1bedc6fb91bee11bee5c343602a85e2a9c34370d881bee1c343622a870d0dc3421bed01bed06fb61bed51bed9c342602a45e2a5c34270d841bed5c342622a470d09c3411bec41bec46fb31bec91becdc341602a01bec9c341622a05e29dc34070d7c5e2a1c34170d8070d05c3401beb81beb86fb01bebd1bec1c3406029c1bebdc3406229c70d01c33f1beac1beac6fad1beb11beb5c33f602981beb1c33f622985e299c33f70d7870cfdc33e1bea01bea06faa1bea55e295c33e70d741bea9c33e602941bea5c33e6229470cf9c33d1be941be946fa71be995e281c33970d605e261c33170d4070d418098622605e291c33d70d701be9dc33d60290)
  (.lf 0))) (.nd (.nd (.lf
  0x424840adf02b504248c0ac102b58424940ac302b60424980ac402b644249c0ac502b68424a00ac602b6c424a40ac702b70424a80ac802b74424ac0ac902b78424b00aca02b7c424b80acc02b04465d80ae702b1c465dc0ae802b20465e00ae902b24465e40aea02b28465e80aeb02b2c465ec0aec02b30465f00aed02b34465f40aee02b38465f80aef02b3c465fc0af002b40466000af102b44466040af202b48466080af302b4c4660c0af402b50466100af502b54466140af602b58466180af702b5c4661c0af802b60466200af902b64466240afa02b68466280afb02b6c4662c0afc02b70466300afd02b74466340afe02b78466380aff02b7c54ae00b07466d854ae40b08466dc54ae80b09466e054aec0b0a466e454af00b0b466e854af40b0c466ec54af80b0d466f054afc0b0e466f454b000b0f466f854b040b10466fc54b080b114670054b0c0b124670454b100b134670854b140b144670c54b180b154671054b1c0b164671454b200b174671854b240b184671c54b280b194672054b2c0b1a4672454b300b1b4672854b340b1c4672c54b380b1d4673054b3c0b1e4673454b400b1f46738466d919d6467d9466dd19d7467dd466e119d8467e1)
  (.lf 0)) (.nd (.lf
  0x7bd39ef4d2f6542f654bd972f6592f65def4d4ba887ba01284e4e9b84e9b927a149e7c7ba05284f4e9bc4e9bd27a249e802f659ef4d4d28849e89ef4d7bdb07bd35ef4c2f6482f648bd942f64d2f651ef4c4ba842f64def4c4d28449e85ef4c7bdac7bd31ef4b2f63c2f63cbd912f6412f645ef4b4ba807b9fd284d4e9b44e9b527a049e782f641ef4b4d28049e81ef4b7bda87bd2def4a2f6302f630bd8e2f6357b9f9284c4e9b04e9b1279f49e742f635ef4a4d27c49e7def4a7bda42f639ef4a4ba7c7bd29ef492f62405fd5279949e5c7b9e528474e99c4e99d279a49e607b9e928484e9a04e9a1279b49e647b9ed28494e9a44e9a5279c49e687b9f1284a4e9a84e9a9279d49e6c7b9f5284b4e9ac4e9ad279e49e7049e79ef497bda02f624bd8b2f6292f62def494ba782f629ef494d2787bd25ef482f61849e75ef487bd9c2f618bd882f61d2f621ef484ba742f61def484d2747bd21ef472f60c2f60cbd852f6112f611ef474d27049e71ef477bd982f615ef474ba707bd1def462f6002f600bd822f60549e6def467bd942f609ef464ba6c2f605ef464d26c7bd19ef452f5f42f5f4bd7f2f5f92f5f9ef454d26849e69ef457bd902f5fdef454ba68)
  (.lf 0)))

def shaGateTree422 : BTree :=
  .nd (.nd (.nd (.lf
  0x117c9ab365958859588ae6b5b4a45b4a5e67d79a7079a7175275f49c5f49de6f979c6079be5e6f82bdfc2bdfcaf812be012be05e6f8614982be01e6f8634982bb41e67d5d49c799f5e67c2bb2c2bb2caecd2bb312bb31e67c5f4982b9acae692b9a02b9a0ae69595855d299e2be78b7478b740f50002402a091e2bf0024478afde2be2a0802a080a8222a0852a089e2be03d4003d41ab356ad506ad5165610464011931ab74535886add1ab731191c1191c46491192111921ab735958404441ab736ae486ae494d6159584117c5ab36046446acd9ab35117b4117b445ef117b9117bdab355958459584ae695b4a05b4a1e67c79a6c79a6d75265f4985f499e6f879c5c79be1e6f72bdf02bdf0af7e2bdf52bdf9e6f7614942bdf5e6f7634942bb35e67c5d498799f1e67b2bb202bb20aeca2bb252bb25e67b5f4942b9a4ae672b9982b998ae67595815d295e2bd78b7078b700f4f0023c2a085e2be0024078af9e2bd2a0742a074a81f2a0792a07de2bd03d3c03d3dab346ad4c6ad4d65600463c11925ab73535846adcdab72119101191046461191511915ab72595800443dab726ae446ae454d6059580117b9ab35046406acd5ab34117a8117a845ec117ad)
  (.lf 0)) (.nd (.lf
  0x7fe952c6150d8450d852c44055547fe992c6250d8850d892c45055587fe9d2c6350d8c50d8d2c460555c7fea12c6450d9050d912c47055607fea52c6550d9450d952c48055647fea92c6650d9850d992c49055687fead2c6750d9c50d9d2c4a0556c7feb12c6850da050da12c4b055707feb52c6950da450da52c4c055747feb92c6a50da850da92c4d055787febd2c6b50dac50dad2c4e0557c7fec12c6c50db050db12c4f055807fec52c6d50db450db52c5005584055152c434b0e0055192c444b0e40551d2c454b0e8055212c464b0ec055252c474b0f0055292c484b0f40552d2c494b0f8055312c4a4b0fc055352c4b4b100055392c4c4b1040553d2c4d4b108055412c4e4b10c055452c4f4b110055492c504b1140554d2c314b118055512c324b11c055552c334b120055592c344b1240555d2c354b128055612c364b12c055652c374b130055692c384b1340556d2c394b138055712c3a4b13c055752c3b4b140055792c3c4b0c40557d2c3d4b0c8055812c3e4b0cc055852c3f4b0d07fec92c6e50db850db92c404b0d47fecd2c6f50dbc50dbd2c414b0d87fed12c7050dc050dc12c424b0dc52595c67971a60525c1c68471a8c71a11c6831d5e4)
  (.lf 0))) (.nd (.nd (.lf
  0xea243a8b0ea290ea2da36958d540ea29a36902f1003511a36968e2068da5a3680ea180ea183a880ea1d0ea21a36858d500ea1da36802f0c68da1a3670ea0c0ea0c3a850ea110ea11a36702f083fc3c0d60035003fc400d61035043fc440d620350860bd80d803fcbc60bdc0d813fcc060be00d823fcc43fcbc0d403fd3d3fcc00d413fd413fcc40d423fd454263c0b4d02d0846bf00b6d02d3454cf80b8d46cf046cf11b5c46df146df00b8d02d3402d35a3b068f3c0ebfda3b058d780ec01a3b052d7868ec1a3af0ebec0ebec3afd0ebf10ebf1a3af58d740ebf5a3af52d74426b40b4b02d0046bd80b6702d1c46bdc0b6802d2046be00b6902d2446be40b6a02d2846be80b6b02d2c46bec0b6c02d3054ce00b8746cd854ce40b8846cdc54ce80b8946ce054cec0b8a46ce454cf00b8b46ce854cf40b8c46cec46cd91b5646dd946cdd1b5746ddd46ce11b5846de146ce51b5946de546ce91b5a46de946ced1b5b46ded46dd80b8702d1c46ddc0b8802d2046de00b8902d2446de40b8a02d2846de80b8b02d2c46dec0b8c02d3002d31a3af68f3868ebda3ae0ebe002d2da3ae68f340ebe03afa0ebe50ebe5a3ae58d700ebe9a3ae52d7068eb9a3ad0ebd4)
  (.lf 0)) (.nd (.lf
  0x97d425f7097d9097d9952d57e8c0967d94f00114c653c194ef0966c0966c259d096710967594ef57e8c57e8c5d1a59e5c175f5b8d05dda059e5db8d06e3bc6e341b8cf175e4175e45d7b175e9175e9b8cf5dd9c3bad40591016300967194ef01148653bd94ee096603de8005b1016445fd1c05d13df003df0005913df8109660259a096650966594ee011440164594ee654340966994ee57e88653b994ed096543bad005900162c3de7c05b0016405fd1805d03defc3defc05903df7d0164194ed65430654315fa1011403bacc058f01628097dd952d51e8c654b5952c097c8097c825f4097cd096542597096590965994ed011400965d94ed57e84653b594ec096480964825940964d0965194ec57e804174c03d100f18097d1952c51e8843f0003f100f4453e080411440004400110204410144100041100f44097cd952c57e8800f45952c6552c654b1952b097bc097bc25f1097c1097c5952b51e84097c1952b57e844174803d000f1443efc03f000f4053e04041043ffc43ffd101f440fd440fc041000f4000f41952b65528654ad952a097b0097b025ee097b5097b5952a57e806552947a157e84654355fa2011446552d47a257e88174685d181745c)
  (.lf 0)))

def shaGateTree423 : BTree :=
  .nd (.nd (.nd (.lf
  0x82cfc010a5156c5156c00ed05c7c82d00010b515705157000ee05c8082d04010c515745157400ef05c8482d08010d515785157800f005c8882d0c010e5157c5157c00f105c8c82d10010f515805158000f205c9082d140110515845158400f305c9482d180111515885158800f405c9882d1c01125158c5158c00f505c9c82d200113515905159000f605ca082d240114515945159400f705ca482d280115515985159800f805ca882d2c01165159c5159c00f905cac82d300117515a0515a000fa05cb082d340118515a4515a400fb05cb482d380119515a8515a800fc05cb882d3c011a515ac515ac00fd05cbc82d40011b515b0515b000fe05cc082d44011c515b4515b400ff05cc405c5400f20039c05c5800f3003a005c5c00f4003a405c6000f5003a805c6400f6003ac05c6800f7003b005c6c00f8003b405c7000f9003b805c7400fa003bc05c7800fb003c005c7c00fc003c405c8000fd003c805c8400fe003cc05c8800ff003d005c8c00e0003d405c9000e1003d805c9400e2003dc05c9800e3003e005c9c00e4003e405ca000e5003e805ca400e6003ec05ca800e7003f005cac00e8003f405cb000e9003f805cb400ea003fc05cb800eb00380)
  (.lf 0)) (.nd (.lf
  0x1a741bfca5e1386ff29bfc91a7301a73069ce1a7351a739bfc95c1345c135c007700987009808f74a6201a89dc0074a6204a621fa397e9607e96130884da204c221fa777ea587e9ddfa763374033740cdd23374533749fa764ae1c33745fa7650a1c1a8a1c007023dc7001dc0061a88c32f69f92e4a8547e4b9f92d32f5432f54cbd732f5932f59f92d4f0d04d8d1f92d7e5307e5312a144f0d04f0d1297e064b4064b529874a614335e9fa394da207e8e5fa38335d81a735bfc95e1345a1c5bfc86ff9c6ff9d704c5e1306ff25bfc81a7241a72469cb1a7291a72dbfc85c1305c131c00670094335d8cd78335dd1a88c6a251a8911a891c0064a61c7009408f64a61c4a61dfa387e95c7e95d30874da1c335e1fa384c21c4c21dfa767ea547e9d9fa753373433734cdcf337393373dfa754ae1833739fa7550a1832f5df92d4a8507e4b5f92c32f4832f48cbd432f4d32f4df92c4f0cc4d8cdf92c7e52c7e52d2a134f0cc4f0cd297d064b0064b129864a610335ddfa384da1c7e8e1fa37335cc335cccd75335d1335d5fa374c2181a895c006023d870019c0051a8801a8806a221a8851a885c0054a6185a1c1bfc76ff986ff99704b5e12c1a729bfc85e130)
  (.lf 0))) (.nd (.nd (.lf
  0x1fd7dcbee4ac3072fb9cbed1fd6c1fd6c7f5d1fd711fd71cbed4ac2c5c741cbed730301fd75cbed029e872fb5cbec1fd601fd607f5a1fd651fd69cbec029e45c73dcbec7302c1fd65cbec4ac2872fb1cbeb1fd541fd547f571fd591fd5dcbeb029e01fd59cbeb4ac245c739cbeb7302872fadcbea1fd481fd487f541fd4d1fd51cbea029dc1fd4dcbea4ac205c735cbea7302472fa9cbe91fd3c1fd3c7f511fd411fd45cbe9029d81fd41cbe94ac1c5c731cbe97302072fa5cbe81fd301fd307f4e1fd351fd39cbe8029d41fd35cbe84ac185c72dcbe87301c72fa1cbe71fd241fd247f4b1fd291fd2dcbe7029d01fd29cbe74ac145c729cbe77301872f9dcbe61fd181fd187f481fd1d1fd21cbe6029cc1fd1dcbe64ac105c725cbe67301472f99cbe51fd0c1fd0c7f451fd111fd15cbe5029c81fd11cbe54ac0c5c721cbe57301072f95cbe41fd001fd007f421fd051fd05cbe44ac085c71dcbe47300c1fd09cbe4029c472f91cbe31fcf41fcf47f3f1fcf91fcfdcbe3029c05c719cbe3730081fcf9cbe34ac0472f8dcbe21fce81fce87f3c1fced1fcedcbe24ac005c711cbe1730001fcf1cbe2029bc5c715cbe27300472f89cbe11fcdc1fcdc7f391fce1)
  (.lf 0)) (.nd (.lf
  0x43804035200c4841450031200c1c53b10035343708437090de24380943808035300c4c00c4d92466499408705924657b90649199245086f4086f421bf086f9086f9924557b8c43604033200c48086fd924551b8c00c49924564990649159244086e8086e821bc086ed086f1924451b8843600033100c444144c031100c1853b08035143700437010de04380143800035100c4400c4592446498c086ed924457b88649119243086dc086dc21b9086e114a0c000059ba259ba1b2f46cc4c6cc4d6eb55dad45dad5b3706ce3c6cdc1b36f14e3c14e3c539114e4114e41b36f61ad06cbd1b2f314b6c14b6c52dd14b7114b71b2f35dad059b9db2f36cc486cc496eb45dad05dad1b36f6ce3814e45b36f5fad06cdbdb36e14e3014e30538e14e3514e39b36e5facc59b99b2f26cc446cc456eb35dacc14b75b2f35bad06cbcdb2f214b6014b6052da14b6514e35b36e61acc14b65b2f25dacc5dacdb36e6ce346cdb9b36d14e2414e24538b14e2914b69b2f25bacc6cbc9b2f114b5414b5452d714b596cc416eb25dac814b59b2f15dac814e2db36d5fac85dac9b36d6ce3014e29b36d61ac86cdb5b36c14e18086e1924357b84086e5924351b846490d9242086d0)
  (.lf 0)))

def shaGateTree424 : BTree :=
  .nd (.nd (.nd (.lf
  0x538a9ebcb7afa87af2debca2e0a02e0a0b82a2e0a52e0a9ebca558a42e0a5ebca578a4538a5ebca7afa47af29ebc92e0942e094b8272e0992e09debc9558a02e099ebc9578a0538a1ebc97afa07af25ebc82e0882e088b8242e08d2e091ebc85589c2e08debc85789c5389debc87af9c7af21ebc72e07c2e07cb8212e0812e085ebc7558982e081ebc75789853899ebc77af987af1debc62e0702e070b81e2e0752e079ebc6558942e075ebc65789453895ebc67af947af19ebc52e0642e064b81b2e0692e06debc5558902e069ebc55789053891ebc57af907af15ebc42e0582e058b8182e05d2e061ebc45588c2e05debc45788c5388debc47af8c7af11ebc32e04c2e04cb8152e0512e055ebc3558882e051ebc35788853889ebc37af887af0debc22e0402e040b8122e0452e049ebc2558842e045ebc25788453885ebc27af847af09ebc12e0342e034b80f2e0392e03debc1558802e039ebc15788053881ebc17af807af05ebc02e0282e028b80c2e02d2e031ebc05587c2e02debc05787c5387debc07af7c7af01ebbf2e01c2e01cb8092e0212e025ebbf558782e021ebbf5787853879ebbf7af787aefdebbe2e0102e010b8062e0152e019ebbe55874)
  (.lf
  0x12de1aee05b87c6bb81aedf12dcc12dcc4b7512dd112dd1aedf5d8786bc0d6e235d88c5d88daf606bdfc6bc156e255d8945d895af626be046bc116e245d8901310daf646189c13111af645f89c6bc1d6e275d89c5d89daf646be0c6bd91af63130fc130fc4c411310113101af63618986bc196e265d8985d899af636be0813105af635f8986bd8daf62130f0130f04c3e130f5130f5af6261894130f9af625f8946bd89af61130e4130e44c3b130e9130edaf615f8905d891af616be00130e9af61618906bd85af60130d8130d84c38130dd130ddaf606188c130e1af605f88c6bd81af5f130cc130cc4c35130d16bc096e225d8885d889af5f6bdf8130d5af5f5f888130d1af5f618886bd7daf5e130c0130c04c32130c5130c5af5e61884130c9af5e5f8846bc056e215d8845d885af5e6bdf46bd79af5d130b4130b44c2f130b9130bdaf5d5f8806bc016e205d8805d881af5d6bdf0130b9af5d618806bd75af5c130a8074458f16009a463c598f1507434848258f1563cd063cd12db9009a0490f210ef00c24843be10ee490e012c604b1612c5412c544b1657965490e1243a490e5490ea10ee57964074341d0f074390743d8f154b6e44b6e610ee84434))
  (.nd (.lf
  0x278161f1021806784961f1021810cc999e52527d0679499e510cc840cc8433230cc890cc8d9e51527cc01f899e51679c00cc899e51587cc679459e500cc780cc7833200cc7d0cc819e50527c801f859e50679bc0cc7d9e50587c86794149f1587c501f8149f1587c4587c571b65e6d8678c961f302188679c149f3587cc587cc00005a74a72e61cb971fae41fae47ebb1fae91fae9cb975e6e05a749cb9772ed81faedcb975c6e072e5dcb961fad81fad87eb81fadd1faddcb965e6dc678c561f2021841fae1cb965c6dc679bd49f2587c8587c9cb9672ed472e5971b65e6d95e6d981b6626d872ed971b85e6e01fdc9cc14606e473051cc131fdb41fdb47f6f1fdb91fdbdcc13606e05e6e1cc13730c81fdb9cc13626e07304dcc121fda81fda87f6c1fdad1fdb1cc12606dc72ed571b75e6dc5e6ddcc12730c41fdadcc12626dc7304981b6626d9626d80a193c4bc730c581b7626dc626dc0a1a3c4c0730c981b8626e0626e00a1b3c4c4730dd81bd626f4626f40a003c4d8730e181be626f8626f80a013c4dc730e581bf626fc626fc0a023c4e0730e981c062700627000a033c4e4730ed81c162704627040a043c4e8730f181c262708627080a053c4ec)
  (.lf 0))) (.nd (.nd (.lf
  0x403180e17403994031c0e184039d403200e19403a1403240e1a403a5403280e1b403a94032c0e1c403ad403300e1d403b1403340e1e403b5403380e1f403b95cdd5d8eb76428763add8ea2597425974965f259792597dd8ea0387825979d8ea4b2bc5cdd1d8ea76424763a9d8e92596825968965c2596d25971d8e9038742596dd8e94b2b85cdcdd8e976420763a5d8e82595c2595c96592596125965d8e80387025961d8e84b2b45cdc9d8e87641c763a1d8e7259502595096562595525959d8e70386c25955d8e74b2b05cdc5d8e7764187639dd8e625944259449653259492594dd8e60386825949d8e64b2ac5cdc1d8e67641476399d8e5259382593896502593d25941d8e5038642593dd8e54b2a85cdbdd8e57641076395d8e42592c2592c964d2593125935d8e40386025931d8e44b2a45cdb9d8e47640c76391d8e32592025920964a2592525929d8e30385c25925d8e34b2a05cdb5d8e3764087638dd8e225914259149647259192591dd8e20385825919d8e24b29c5cdb1d8e27640476389d8e1259082590896442590d25911d8e1038542590dd8e14b2985cdadd8e17640076385d8e0258fc258fc96412590125905d8e00385025901d8e04b294)
  (.lf 0)) (.nd (.lf
  0x6f46808814a4484c04df8347e14c329b1f8344ac4c329adf8345084c7e0d1f8333299c3299cca69329a1329a1f833508484a449f7f57e05032834ca0f328393283df7f54c04832839f7f54d8487dfd530114d8454c0452b1150844329a5f8334ac487e05130124d8484c049f8337e1487e0cd2b1150845508452af40508c7e1492b1250848508492af5050907e14d2b135084c5084d2af6050947e1512b1450850508512af7050987e1552b1550854508552af80509c7e1592b1650858508592af9050a07e15d2b175085c5085d2afa050a47e1612b1850860508612afb050a87e1652b1950864508652afc050ac7e1692b1a50868508692afd050b07e16d2b1b5086c5086d2afe050b47e1712b1c50870508712aff050b87e1752b1d50874508752b00050bc7e1792b1e50878508792b01050c07e17d2b1f5087c5087d2b02050c47e1812b2050880508812b03050c87e1852b2150884508852b04050cc7e1892b2250888508892b05050d07e18d2b235088c5088d2b06050d47e1912b2450890508912b07050d87e1952b2550894508952b08050dc7e1992b2650898508992b09050e07e19d2b275089c5089d2b0a050e47e1a12b28508a0508a12b0b050e8)
  (.lf 0)))

def shaGateTree425 : BTree :=
  .nd (.nd (.nd (.lf
  0x28375dec603b2c5d085dec677b9477b940ecb0002c10db5a97f533746a5fda97e10da010da0436a10da510da5a97e593700422da97e6a6746a6754cdc5937010c49a941044306a505a94010c3810c38431010c3d10c41a9405937003b2da9406a57c6a57d64dc0442c59370a77f29e3c29e3c00005b29e5b29de27b78a6878a6974a15f2845f285e2f778c5878bdde2f62a1a02a1a0a86a2a1a52a1a9e2f6612802a1a5e2f66328029ee5e27b5d284789ede27a29ed029ed0a7b629ed529ed5e27a5f28029d2c000029dfe29dfca77e29d1829d18a74829d1d29d1ca77e5b29828371dec60002c77b19dec52836028360a0da2836528369dec503b285d081dec577b9077b900eca0002810da9a97e533706a5f9a97d10d9410d94436710d9910d99a97d5936c04229a97d6a6706a6714cdb5936c10c3da9400442c6a501a93f10c2c10c2c430d10c3110c35a93f5936c03b29a93f6a5786a57964db044285936ca77e29e3829e3800005b29a5b299e27a78a6478a6574a05f2805f281e2f678c5478bd9e2f52a1942a194a8672a1992a19de2f56127c2a199e2f56327c29ed9e27a5d280789e9e27929ec429ec4a7b329ec929ec9e2795f27c29d20000029dfa)
  (.lf 0)) (.nd (.lf
  0x6033009563eb143eb1409163eb95024599ac366b883ea8c0934024503ea900935024546032809543eb0c6032c09553eb103eb0c09143eb8d3eb1009153eb910b8619ac301e5866b0d9ac20b8500b8502e160b8550b8599ac2584980b8559ac201e54024559ac266b8466b099ac10b8440b8442e130b8490b84d9ac158494024519ac166b800b8499ac101e5066b059ac00b8380b8382e100b83d0b8419ac0584900b83d9ac001e4c66b019abf0b82c0b82c2e0d0b8310b8319abf01e487113580bd622f4622f409003c0d83c0d80912024343ea840932024486032009523eb043eb0409123eb85024499abf66b780b8359abf5848c66afd9abe0b8200b8202e0a0b8250b8299abe584880b8259abe01e4466af99abd0b8140b8142e070b8190b8199abd01e403c0bc090b024183c0c4090d024203c0c8090e024243c0cc090f024283c0d009100242c3ea7c0930024406031809503eafc3eafc09103eb7d024419abd66b703ea78092f0243c60314094f3eaf83eaf8090f3eb790b81d9abd5848466af59abc0b8080b8082e040b80d0b80d9abc01e3c0b8119abc584800243d9abc66b6c66af19abb0b7fc0b7fc2e010b8010b8059abb5847c3ea68092b0242c)
  (.lf 0))) (.nd (.nd (.lf
  0xe39438e70e3990e39da23d52bfc0e399a23d58bfc467740b0e02bb854b7c0b2e46874468751a3d46975469740b2e02bb802bb9a23d68970688f5a23c0e3880e38838e40e38d0e391a23c52bf80e38da23c58bf8467700b0d02bb454b780b2d46870468711a3c46971469700b2d02bb402bb5a23c6896c4673c0b0002b80467400b0102b84467440b0202b88467480b0302b8c4674c0b0402b90467500b0502b94467540b0602b98467580b0702b9c4675c0b0802ba0467600b0902ba4467640b0a02ba8467680b0b02bac4676c0b0c02bb054b440b204683c54b480b214684054b4c0b224684454b500b234684854b540b244684c54b580b254685054b5c0b264685454b600b274685854b640b284685c54b680b294686054b6c0b2a4686454b700b2b4686854b740b2c4686c4683d1a2f4693d468411a3046941468451a3146945468491a32469494684d1a334694d468511a3446951468551a3546955468591a36469594685d1a374695d468611a3846961468651a3946965468691a3a469694686d1a3b4696d4693c0b2002b80469400b2102b84469440b2202b88469480b2302b8c4694c0b2402b90469500b2502b94469540b2602b98469580b2702b9c)
  (.lf 0)) (.nd (.lf
  0x6d13405794a0287c25d28974eadc4eadd2801060a07c28128a04eb004eb01280a060c4060a1280a4a0204a029f1837c6887c60df1823035030350c0d63035530359f1824bc2430355f1824d4247c25928964ead84ead928000609c0609d28094a01c6d13005784a0244a025f1827c6847c609f1813034430344c0d3303493034df1814bc2030349f1814d4206d12c05774a0204d2d5f0767c2547c25528954ead42fcc5f0764ead44ead527ff060980609928084a0184a021f1817c6807c605f1803033830338c0d03033d30341f1804bc1c3033df1804d41c4d2d1f0757c2507c25128944ead07c1d9f0752fcb42fcb4bf2f2fcb92fcb9f0754ead04ead127fe060940609528074a0146d12805764a01c4a01df1807c67c7c601f17f3032c3032cc0cd3033130335f17f4bc1830331f17f4d4184d2cdf0747c24c6d12405754a0187c24d28934eacc2fcbdf0754a2507c1d5f0742fca82fca8bf2c2fcad2fcadf0744eacc4eacd27fd060900609128064a0104a019f17f7c6787c5fdf17e3032030320c0ca3032530325f17e4d4144d2c9f0737c2487c24928924eac82fcb1f0744a24c7c1d1f0732fc9c2fc9cbf292fca12fca1f0734eac84eac927fc0608c)
  (.lf 0)))

def shaGateTree426 : BTree :=
  .nd (.nd (.nd (.lf
  0x2a70de3a903d8c03d8daba46af0c6af0d65740468c11b65abe3535d46af8dabe211b5011b5046d611b5511b55abe2595d00448dabe26b0046b0054d74595d0119f9aba5046906ae95aba4119e8119e8467c119ed119f1aba4595d0595d16d385b4e45b4e5e77479e4c79e4d75395f4e45f4e5e7f07a03c79fc1e7ef2c4342c434b10f2c4392c43de7ef614e02c439e7ef634e02c179e7745d4e479dd1e7732c1642c164b05b2c1692c169e7735f4e02a709e3a90028c78ea5e3a82a6f82a6f8a9c02a6fd2a701e3a803d885d2e1e3a878f1c78f1c0f620028811b59abe2535d06af89abe111b4411b4446d311b4911b49abe1595cc04489abe16b0006b0014d73595cc119edaba40468c6ae91aba3119dc119dc4679119e1119e5aba3595cc03d89aba36af086af09657304688595cc00005b4e25b4e1e77379e4879e4975385f4e05f4e1e7ef7a03879fbde7ee2c4282c428b10c2c42d2c431e7ee614dc2c42de7ee634dc2c16de7735d4e079dcde7722c1582c158b0582c15d2c15de7725f4dc2a6fde3a80028878ea1e3a72a6ec2a6eca9bd2a6f12a6f5e3a703d845d2dde3a778f1878f180f610028411b4dabe1535cc6af85abe011b3811b3846d011b3d)
  (.lf 0)) (.nd (.lf
  0x3575600024de048000a00013574435744d5d3357493574e00014c6004aa020001800808008131804de004c602003f80178800fe003e358a0358a0d62a358a5358aa003e4b1fc358a6003e50dfc3574a00014de008000600003573835738d5d03573d3574200004c5fc4a9fe00008007c8007d317f4ddfc4c5fe003e80174800fa003d3589435894d627358993589e003d4b1f83589a003d50df83573e00004ddfc80001ffff3572c3572cd5cd3573135735ffff4c5f84a9f9ffff8007880079317e4ddf84c5fa003d80170800f6003c3588835888d6243588d35892003c4b1f43588e003c50df435731ffff4ddf87fffdfffe3572035720d5ca3572535729fffe4c5f44a9f5fffe8007480075317d4ddf44c5f6003c8016c800f2003b3587c3587cd6213588135886003b4b1f035882003b50df035725fffe4ddf47fff9fffd3571435714d5c7357193571dfffd4c5f04a9f1fffd8007080071317c4ddf04c5f2003b80168800ee003a3587035870d61e358753587a003a4b1ec35876003a50dec35719fffd4ddf07fff5fffc3570835708d5c43570d35711fffc4c5ec4a9edfffc8006c8006d317b4ddec4c5ee003a80164800ea00393586435864d61b35869)
  (.lf 0))) (.nd (.nd (.lf
  0x24f6c93ac24eac24eac93ac58dfd58dfc93ac5ad505ad51d79775ed875ed973445ed105cd11d7d575fd075fd00dee4b1fc4b1fe0ba082efc82efd337f4e5fc4e5fe0c1c830ec830720c1b39d7c39d7ce76139d8139d860c1b0003439d820c1b4fdf839ac20ba04cdfc82e820b9f39aac39aace6ad39ab139ab20b9f4e5f86912d4b7e58df869035637e02fb4251d9d7d5037b875f55d7d4251c4251c49473251c9251c9d7d44b1f82506dd7975ed1075e5dd7962505c2505c94192506125065d7965cd0c24eb093da24ea024ea093aa24ea524ea493da5ad4c58df893da24fa824fa800005ad4e5ad4dd79675ed475ed573435ed0c5cd0dd7d475fcc75fcc0ded4b1f84b1fa0b9f82ef882ef9337e4e5f84e5fa0c1b830e88306e0c1a39d7039d70e75e39d7539d7a0c1a0003039d760c1a4fdf439ab60b9f4cdf882e7e0b9e39aa039aa0e6aa39aa539aa60b9e4e5f4691294b7d58df469031637d02fb0251cdd7d4037b475f51d7d3251b8251b89470251bd251bdd7d34b1f425061d7965ed0c75e59d795250502505094162505525059d7955cd0824ea8000024f6a24f6893a724e9824e9893a758df558df493a75ad485ad49d79575ed075ed173425ed08)
  (.lf 0)) (.nd (.lf
  0x656195fbf011b86561d5fc0011bc6e2954fa655e9809b0d95b151f2c6e29d4fa855ea009b0995b157f2c6e2754f9e55e78172a1b87653e586e1d9b8751728c51e55b8756e2501728c5ca51729117291b87555e546e2514f9555e5455e5403fa417cc55e7803e3417f06e2a14fa955ea455ea403ee4181c417f003fa00fbc4181c03e500fe8440a4041a00fe853eac043a441a4441a51089442a5442a4043a00fe800fe995b165740656c595b009af809af826c009afd09b0195b051f2817295b87553e546e1d5b8741728051e51b8746e24c172805ca21728517285b87455e5009afd95b057f286e24d4f9455e5055e5003f9417c86e2714f9d55e7455e7403e2417ec55ea003ed41818417ec03f900fb84181803e400fe4440a0041900fe453ea80439441a0441a11088442a1442a0043900fe400fe595b06573c656c195af09aec17289b87453e506e1d1b8731727451e4db8736e248172745c9f1727917279b87355e4c6e2494f9355e4c55e4c03f8417c46e26d4f9c55e7055e7003e1417e86e2994fa755e9c55e9c03ec41814417e803f800fb44181403e300fe04409c041800fe053ea404384419c4419d10874429d4429c043800fe000fe195af65738)
  (.lf 0)))

def shaGateTree427 : BTree :=
  .nd (.nd (.nd (.lf
  0x4cfc401a0517c483ae401a0517c5517c4018305e9883b6001a1517c8517c8018405e9c83b6401a2517cc517cc018505ea083b6801a3517d0517d0018605ea483b6c01a4517d4517d4018705ea883b7001a5517d8517d8018805eac83b7401a6517dc517dc018905eb083b7801a7517e0517e0018a05eb483b7c01a8517e4517e4018b05eb883b8001a9517e8517e8018c05ebc83b8401aa517ec517ec018d05ec083b8801ab517f0517f0018e05ec483b8c01ac517f4517f4018f05ec883b9001ad517f8517f8019005ecc83b9401ae517fc517fc019105ed083b9801af5180051800019205ed483b9c01b05180451804019305ed883ba001b15180851808019405edc83ba401b25180c5180c019505ee083ba801b35181051810019605ee483bac01b45181451814019705ee883bb001b55181851818019805eec83bb401b65181c5181c019905ef083bb801b75182051820019a05ef483bbc01b85182451824019b05ef883bc001b95182851828019c05efc83bc401ba5182c5182c019d05f0083bc801bb5183051830019e05f0483bcc01bc5183451834019f05f0805e9801920061c05e9c01930062005ea001940062405ea401950062805ea801960062c)
  (.lf 0)) (.nd (.lf
  0x224198cd663b0663b160a101c401af3dc1060244870419c1051af281af286bcc1af2d1af2dc1054a6881af31c1050244470415c1041af1c1af1c6bc91af211af21c1044a6841adc5c0c75e19c7031dc0c61adb41adb46b6f1adb91ac49c0ae1ac381ac386b101ac3d1ac3dc0ae5a2240ace598ce01c446633998cd0acd40acd42b370acd90acdd98cd5828458285c0ae1acdc1acdc00005a2265a225c0c6703941adbdc0c65c1987039570665e1985c199c1047048c7048c09104a6844a685faec7ec2c339d9faed4da887049009114a6884a689faed7ec30339ddfaed4c2887ebb5faec339c8339c8ce74339cd339d1faec4c284339cdfaec4da847ebb1faeb339bc339bcce71339c1339c1faeb4da803bec4088d022203bec8088e022243becc088f022283e67408ae022383e67808af0223c6011008ce3e6f46011408cf3e6f83e6f4088e3e7753e6f8088f3e7790223998cb663a8663a9609f01c380223d98cc663ac663ad60a001c3c0acd998cd01c406633598cc0acc80acc82b340accd0acd198cc582800accd98cc01c3c6633198cb0acbc0acbc2b310acc10acc598cb5827c664a1489f5827c664a548a0582801ac400000702ba702b86b0d1ac30)
  (.lf 0))) (.nd (.nd (.lf
  0xd8d5a05752a240d8d1a05758a24021e1a057681d86815da0560d8c00d8c036320d8c50d8c5a05658a20680dd628802bdc58a21cf8e216d4681ed4a8e58a38681e54a8c58a30680f5628e02bf4216ac85a9216a0216a085a958a3958a3885a95a9a8216a485a7216982169885a758a35680f1628d02bf0681e94a8d58a3458a3485a75a9a4681e14a8b58a2c680e9628b02be858a2dcf90216dc680ed628c02bec2169c85a5216902169085a558a3158a3085a55a9a021695cf90216842168485a32168921689cf905a99c2168c000073e4273e41cf8f216782167885a02167d21680000073e3e73a0552655699473a0152645699020d19ce4f549487393d5251569453f57c0c90029c03f5800c91029c43f5840c92029c83f5880c93029cc3f58c0c94029d03f5900c95029d43f5940c96029d8608980cb03f5fc6089c0cb13f600608a00cb23f604608a40cb33f608608a80cb43f60c608ac0cb53f610608b00cb63f6143f5fc0a703f67d3f6000a713f6813f6040a723f6853f6080a733f6893f60c0a743f68d3f6100a753f6913f6140a763f69552945525156944569440876422bc5699008694230856994086a4230c569bc087442334569c0087542338)
  (.lf 0)) (.nd (.lf
  0x14ff800006cf3e087e421fb087e95b8f9b0156c0d06c0d004e849de464a655efa00ea4087ed927957be414ff5b3cf59bc864a6d5efc00eac57bf1b3cf150b46cf3c53fb14fe814fe853fb57bed64a695efb00ea857bec53fb59bc414fec53f914fe014fe053f957be957be853f959bc014fe453f714fd814fd853f757be5136c9b015013a03b8b004e80138c5fa7805283d9dc3d9dc04e83da5d3d95c0508013a0013a1927964a6064a615ef900ea057be453f759bbc14fdc53f514fd06c055b014136b4136b44daf136b93d95805070139c5fa7405273d9d83d9d804e73da593b8ac04e701388136bdb0140139c0139d927864a5c64a5d5ef800e9c087e9927900ea0649e59278087d8087d821f8087dd087e1927857be014fd053f557be157be053f559bb814fd453f314fc814fc853f357bdd087dd927800e9c649e19277087cc087cc21f5087d1087d5927757bdc5b8f1b0136c0c85fa7005263d9d43d9d404e63da55136b9b01449de06c0c804e649ddc6c051b013136a83d954050601398136a84dac136ad3b8a804e601384136b1b0130139801399927764a5864a595ef700e9857bdc53f359bb414fcc53f114fc014fc053f157bd9150d4000059c1a)
  (.lf 0)))

def shaGateTree428 : BTree :=
  .nd (.nd (.nd (.lf
  0x5b6b2113a84564844ea1139492e4492e524bb492e9492ee11395d6ac492ea11395f6ac2d619ea762d6082d608b5842d60d2d60dea765b6ac2bce1e6c00045879b01e6bf2bcd02bcd0af362bcd52bcd9e6bf03f545d4ade6bf79b7879b780fd500454124adad695379c6b5a5ad68124981249849281249d1249dad685979804655ad686b61c6b61d4de65979812341ad2b00bd86b4adad2a123301233048ce1233512339ad2a5979803f55ad2a6b5246b52565e600bd459799ea762d6a02d6a000005b6ae5b6ae113984560844e61138492d8492d924b8492dd492e211385d6a8492de11385f6a82d61000007a9da7a9d9ea752d5fc2d5fcb5812d6012d601ea755b6a82bcd5e6bf0045479afde6be2bcc42bcc4af332bcc92bccde6be03f505d4a9e6be79b7479b740fd400450124a1ad68537986b5a1ad671248c1248c49251249112491ad675979404651ad676b6186b6194de55979412335ad2a00bd46b4a9ad29123241232448cb123291232dad295979403f51ad296b5206b52165e500bd059795ea752d69c2d69c00005b6aa5b6aa11388455c844e21137492cc492cd24b5492d1492d611375d6a4492d211375f6a42d60400007a9d67a9d4b57e2d5f4)
  (.lf 0)) (.nd (.lf
  0x1ece5c9af5e600726bdc9ae1ecd41ecd47b371ecd91ecd9c9ae5e5fc6750561ba020a4586e9c99b1ec4c1ec4c00005a66e1eb79c99b1eb681eb687adc1eb6d1eb6dc99b5a66c5a66dc9ae727341ecddc9ae5c5fc726b9c9ad1ecc81ecc87b341eccd1ecd1c9ad5c5f81eccdc9ad5e5f81eb7000007266e7266dc99a1eb5c1eb5c7ad91eb611eb61c99a5a6686750161b9020a0586e5c99a1ec481ec4800005a66a5a669c9ad72730726b5c9ac1ecbc1ecbc7b311ecc11ecc5c9ac5c5f41ecc1c9ac5e5f4674fd61b80209c1eb6400007266a726687ad61eb541eb547ad6586e1586e07ad65a6645a665c9ac7272c726b1c9ab1ecb01ecb07b2e1ecb51ecb9c9ab5c5f01ecb5c9ab5e5f03ef5409c6026986057009e63efd43efd409a63f055026999d1f674f81eb59c9991eb481eb487ad41eb4d1eb4dc9995a660674f961b702098586ddc9991ec441ec4400005a6625a661c9ab72728726adc9aa1eca41eca47b2b1eca91eca9c9aa5e5ec1eb500000726663ef5009c5026946056c09e53efd03efd009a53f051726647ad11eb401eb407ad1586d9026959d1e674f4674f561b6020940c5b19d1f020986747d9d1e0c5a00c5a0316a0c5a50c5a99d1e586d8)
  (.lf 0))) (.nd (.nd (.lf
  0x5ee51da20768fc76881da1f2622826228988c2622d26231da1f60e4c2622dda1f62e4c5ee4dda1f768f87687dda1e2621c2621c98892622126225da1e60e4826221da1e62e485ee49da1e768f476879da1d262102621098862621526219da1d60e4426215da1d62e445ee45da1d768f076875da1c26204262049883262092620dda1c60e4026209da1c62e405ee41da1c768ec76871da1b261f8261f89880261fd26201da1b60e3c261fdda1b62e3c5ee3dda1b768e87686dda1a261ec261ec987d261f1261f5da1a60e38261f1da1a62e385ee39da1a768e476869da19261e0261e0987a261e5261e9da1960e34261e5da1962e345ee35da19768e076865da18261d4261d49877261d9261ddda1860e30261d9da1862e305ee31da18768dc76861da17261c8261c89874261cd261d1da1760e2c261cdda1762e2c5ee2dda17768d87685dda16261bc261bc9871261c1261c5da1660e28261c1da1662e285ee29da16768d476859da15261b0261b0986e261b5261b9da1560e24261b5da1562e245ee25da15768d076855da14261a4261a4986b261a9261adda1460e20261a9da1462e205ee21da14768cc76851da13261982619898682619d261a1da1360e1c)
  (.lf 0)) (.nd (.lf
  0x65b2d480e580385ded5bb596ede06ed65bb581877c1877c61e11878118785bb585fed05ded1bb586eddc18781bb5861ed06ed61bb57187701877061de1877518779bb575fecc18775bb5761ecc5decdbb576edd86ed5dbb56187641876461db1876918769bb5661ec85dec9bb566edd41876dbb565fec86ed59bb55187581875861d81875d1875dbb5561ec45dec1bb546edcc5dec5bb556edd018761bb555fec46ed55bb541874c1874c61d51875118755bb545fec018751bb5461ec06ed51bb53187401874061d21874518749bb535febc5debdbb536edc818745bb5361ebc6ed4dbb52187341873461cf1873918739bb5261eb81873dbb525feb85deb9bb526edc46ed49bb51187281872861cc1872d1872dbb5161eb418731bb515feb45deb5bb516edc06ed45bb501871c1871c61c91872118721bb5061eb018725bb505feb05deb1bb506edbc6ed41bb4f187101871061c61871518719bb4f5feac5deadbb4f6edb818715bb4f61eac6ed3dbb4e187041870461c3187095dea9bb4e6edb418709bb4e61ea81870dbb4e5fea86ed39bb4d186f8186f861c0186fd186fdbb4d61ea45de91bb486ed9c5dea5bb4d6edb018701bb4d5fea46ed35bb4c186ec)
  (.lf 0)))

def shaGateTree429 : BTree :=
  .nd (.nd (.nd (.lf
  0x77fd5dff428bb828bb8a2f028bbd28bc1dff4610e428bbddff4630e4288fddf795d0e877de5df78288e8288e8a23c288ed288eddf785f0e42874ca1d12874028740a1d1591d1591d0a1d15b1085b109df7877e5c77e5d74395f0e45f0e5dff47804c77fd1dff328bac28baca2ed28bb128bb5dff3610e028bb1dff3630e0288f1df785d0e477de1df77288dc288dca239288e1288e1df775f0e028744a2152873428734a1cf2873928738a2155b104591cca215288942889400005b1065b105df7777e5877e5974385f0e05f0e1dff37804877fcddff228ba028ba0a2ea28ba528ba9dff2610dc28ba5dff2630dc288e5df775d0e077ddddf76288d0288d0a236288d5288d5df765f0dc2873c000028856288556c3f2872c2872d647128731287316c3f5b100591c96c3f288902889000005b1025b101df7677e5477e5574375f0dc5f0dddff278044288d9df765d0dc591c400005b0fe5b0fd74365f0d877dd974365f0d95f0d98436630d877fc98436630d9630d80e993cebc780458437630dc630dc0e9a3cec0780498438630e0630e00e9b3cec47804d8439630e4630e40e9c3cec878051843a630e8630e80e9d3cecc78055843b630ec630ec0e9e3ced0)
  (.lf 0)) (.nd (.lf
  0xb4399a0a523a0668299a090b4240b4242d0b0b4290b4299a095839c01b599a09668a00b42d9a095239c668259a080b4180b4182d080b41d0b41d9a08583987068950c4563105631006c941c885634006d541cb841c5c06d501b2841c8806c001b5444e1006f501b5454318071544f1044f1113e44501145010071501b5401b559a086689c0b4219a0852398668219a070b40c0b40c2d050b4110b4159a07523945633c06d441cb441c5006d201b1c41c5406d301b2041c5806d401b2444e0c06f401b5054314071444f0c44f0d13e34500d4500c071401b5001b519a07668980b4119a07583946681d9a060b4000b4002d020b4050b4099a06523900b4059a065839044e0806f301b4c54310071344f0844f0913e24500945008071301b4c01b4d9a0666894668199a050b3f40b3f42cff0b3f96689548e4583900b2cd99cc01d5c6673199cb0b2bc0b2bc2cb10b2c10b2c599cb5839c0b2c199cb01d580235999cb667a86672d99ca0b2b00b2b02cae0b2b50b2b999ca583980b2b599ca01d540235599ca667a46672999c90b2a40b2a42cab0b2a90b2ad99c9583940b2a999c901d500235199c9667a06672599c80b2980b2982ca80b29d0b2a199c858390)
  (.lf 0))) (.nd (.nd (.lf
  0x68509a1410ddc40ddc437730ddc90ddcda14152aec0ddc9a14158aec02aa9a1416858068505a1400ddb80ddb837700ddbd0ddc1a14052ae802aa5a1406857c0ddbda14058ae868501a13f0ddac0ddac376d0ddb10ddb5a13f52ae40ddb1a13f58ae402aa1a13f68578684fda13e0dda00dda0376a0dda50dda5a13e58ae0464580ac702a9c54a600ae74655846559197646659466580ae702a9c02a9da13e685743f7b80cdf032fc609d40cff3f8383f8380cbf3f8b9032fda118684dc68461a1170dd4c0dd4c37550dd510dd55a11758b3c685d14acf58b3c685c94acd58b340dd51a11702cf83f7b00cdd032f43f7b40cde032f8609cc0cfd3f830609d00cfe3f8343f8300cbd3f8b13f8340cbe3f8b5032f9a117684d86845da1160dd400dd4037520dd450dd45a11602cf4032f5a116684d40dd49a11658b3868459a1150dd340dd34374f0dd390dd39a11502cf03f79c0cd8032e03f7a00cd9032e43f7a40cda032e83f7a80cdb032ec3f7ac0cdc032f0609b80cf83f81c609bc0cf93f820609c00cfa3f824609c40cfb3f828609c80cfc3f82c3f81c0cb83f89d3f8200cb93f8a13f8240cba3f8a53f8280cbb3f8a93f82c0cbc3f8ad032f1a115684d0)
  (.lf 0)) (.nd (.lf
  0x14c59b3260154c61bf805413b9dc61c4005533ba243b9dc0553015386cd14055349f903dc8805730154c5fc2405933dd083dd0805533dd890154d93f86505c6505d5f640104c090e993f90105053d1003d343d0843d090f6243e0943e0803d300e4c09255943751d94650dd9436092400924024920924509245943657d9064fe593f8090d8090d82438090dd090e193f857d9043c0803b300e4c41654039300e2000e4d94366515465155476457d9057d90599e166c4165dc00001667a16678599d165c8165c85974165cd165cc599d59d6014c55b32649f906cc99b32514c4414c44531314c4914c4db325015485baa1b3256cd106d9a57efd61bf461bf405403b9d83b9d80552015343dc840572015485fc2005923dd043dd0405523dd856cd10055249f8c0154993f765058650595f630104809249943651d90650d994350923409234248f0923909239943557d8c53d0c03d243d0443d050f6143e0543c0403b200e4843e0403d200e4841650039200e1c00e49943565150090dd93f80104c64fe193f7090cc090cc2435090d1090d593f757d8c65151476357d8c57d8c599d166c0165d000001667616674599c165bc165bc5971165c1165c0599c59d5c)
  (.lf 0)))

def shaGateTree430 : BTree :=
  .nd (.nd (.nd (.lf
  0x484b4113e043f8484b8113f043fc5d255e1d5787d0787d00f3f001fc043fdab066ac946ac954d505954003cfdaac86ab9c6ab9d6550045fc59540accc2b3642b36400005b45e5b45de582796847968575155f4545f455e5fe79874797f9e5fd2b7942b794ade72b7992b79de5fd614502b799e5fd6345079609e5812b4c42b4c4ad332b4c92b4c9e5815f4502b330accb2b2f82b2f8acc02b2fd2b2fcaccb5b45878755e1d4299e8299e8a67c299ed299f1e1d403cf85d251e1d4787cc787cc0f3e001f86ac19ab05116f4116f445bf116f9116f9ab055953c043f9ab056ac906ac914d4f5953c6ab21aac71158c1158c45651159111595aac75953c03cf9aac76ab986ab99654f045f85953caccb2b3602b36000005b45a5b459e581796807968175145f4505f451e5fd79870797f5e5fc2b7882b788ade42b78d2b791e5fc6144c2b78de5fc6344c2b4cde5815d45079605e5802b4b82b4b8ad302b4bd2b4bde5805f44c2b30000002b32e2b32cacbd2b2f02b2f0acbd595395d24de1d3787c8787c80f3d001f4299ede1d4001f878751e1d3299dc299dca679299e1299e5e1d303cf403cf5aac66ab946ab95654e045f4116fdab055353c6ac15ab04116e8)
  (.lf 0)) (.nd (.lf
  0x4dc51fe437f9887f90dfe4234cd034cd0d33634cd534cd9fe424abcc34cd5fe424f44c4dc4dfe427f9847f909fe4134cc434cc4d33334cc934ccdfe414abc834cc9fe414f4484dc49fe417f9804dc452af14f4447f9052af14f4454f4452a5b067107f9812af24f4484f4492a5c067147f9852af34f44c4f44d2a5d067187f9892af44f4504f4512a5e0671c7f98d2af54f4544f4552a5f067207f9912af64f4584f4592a60067247f9952af74f45c4f45d2a61067287f9992af84f4604f4612a620672c7f99d2af94f4644f4652a63067307f9a12afa4f4684f4692a64067347f9a52afb4f46c4f46d2a65067387f9a92afc4f4704f4712a660673c7f9ad2afd4f4744f4752a67067407f9b12afe4f4784f4792a68067447f9b52aff4f47c4f47d2a69067487f9b92b004f4804f4812a6a0674c7f9bd2b014f4844f4852a6b067507f9c12b024f4884f4892a6c067547f9c52b034f48c4f48d2a6d067587f9c92b044f4904f4912a6e0675c7f9cd2b054f4944f4952a6f067607f9d12b064f4984f4992a7006764067112a644a988067152a654a98c067192a664a9900671d2a674a994067212a684a998067252a694a99c067292a6a4a9a00672d2a6b4a9a4)
  (.lf 0))) (.nd (.nd (.lf
  0x68bcda2f20e7900e79039e60e7950e795a2f202ea43fb600d49034a460b7c0d693fbe03fbe00d293fc61034a5a2f268c440e799a2f258ce868bc9a2f10e7840e78439e30e7890e78da2f158ce468c45633a02ea43fb540d460349860b700d663fbd43fbd40d263fc5503499a2ef68c3868c39633702e983fb500d450349460b6c0d653fbd03fbd00d253fc5103495a2ee68c3468c35633602e943fb5c0d48034a060b780d683fbdc3fbdc0d283fc5d034a1a2f168c4068c41633902ea03fb580d470349c60b740d673fbd83fbd80d273fc590349da2f068c3c68c3d633802e9c3fb440d420348860b600d623fbc43fbc40d223fc4503489a2eb68c283fb4c0d440349060b680d643fbcc3fbcc0d243fc4d03491a2ed68c3068c31633502e900e789a2f102ea03fb3c0d40034803fb400d41034843fb480d430348c60b580d603fbbc60b5c0d613fbc060b640d633fbc83fbbc0d203fc3d3fbc00d213fc413fbc80d233fc49426380b2c02c8446a6c0b4c02cb054c740b6c46b6c46b6d1afb46c6d46c6c0b6c02cb002cb1a33368d480e925a33352cf468ccda3320e9100e9103a460e9150e919a33252cf068d5d4b4258d08426340b2b02c8046a680b4b02cac)
  (.lf 0)) (.nd (.lf
  0x16f6db7d25dd446df49b7d116f5c16f5c5bd916f6116f61b7d15dd4016e18000059df659e01b7d16dfc016e1c000059dfa16f65b7d15bd406df45b7d016f5016f505bd616f5516f59b7d05bd3c59df9b7cf6dfb816f55b7d05dd3c16e20000059dfe59dfdb7d06dfbc6df41b7cf16f4416f445bd316f4916f4db7cf5bd3816f49b7cf5dd386df3db7ce16f3816f385bd016f3d16f41b7ce5bd3416f3db7ce5dd3459df5b7ce6dfb46df39b7cd16f2c16f2c5bcd16f3116f35b7cd5bd3016f31b7cd5dd3059df1b7cd6dfb06df35b7cc16f2016f205bca16f2516f25b7cc5dd2c16f29b7cc5bd2c16e14000059dea59de9b7cb6dfa859dedb7cc6dfac6df31b7cb16f1416f145bc716f1916f19b7cb5dd2816f1db7cb5bd286df2db7ca16f0816f085bc416f0d16f0db7ca5dd2416e10000059de659de5b7ca6dfa416f11b7ca5bd246df29b7c916efc16efc5bc116f0116f01b7c95dd2016f05b7c95bd2059dd9b7c76df9816e0c000059de259de1b7c96dfa06df25b7c816ef016ef05bbe16ef516ef5b7c85dd1c16ef9b7c85bd1c16e08000059dd659dddb7c86df9c6df21b7c716ee416ee45bbb16ee916ee9b7c75dd1816eedb7c75bd186df1db7c616ed8)
  (.lf 0)))

def shaGateTree431 : BTree :=
  .nd (.nd (.nd (.lf
  0x50f1d2caa056c850f212cab056cc50f252cac056d050f292cad056d450f2d2cae056d850f312caf056dc50f352cb0056e0056712ca34b260056752ca44b264056792ca54b2680567d2ca64b26c056812ca74b270056852ca84b274056892ca94b2780568d2caa4b27c056912cab4b280056952cac4b284056992cad4b2880569d2cae4b28c056a12caf4b290056a52cb04b294056a92c914b298056ad2c924b29c056b12c934b2a0056b52c944b2a4056b92c954b2a8056bd2c964b2ac056c12c974b2b0056c52c984b2b4056c92c994b2b8056cd2c9a4b2bc056d12c9b4b2c0056d52c9c4b244056d92c9d4b248056dd2c9e4b24c056e12c9f4b25050f392ca04b25450f3d2ca14b25850f412ca24b25c50fc52cd40575850fc92cd50575c50fcd2cd60576050fd12cd70576450fd52cd80576850fd92cd90576c50fdd2cda0577050fe12cdb0577450fe52cdc0577850fe92cdd0577c50fed2cde0578050ff12cdf0578450ff52ce00578850ff92ce10578c50ffd2ce205790510012ce305794510052ce405798510092ce50579c5100d2ce6057a0510112ce7057a4510152ce8057a8510192ce9057ac5101d2cea057b0510212ceb057b4510252cec057b8)
  (.lf 0)) (.nd (.lf
  0x6fc6c08d24a58c4a58df97a7e66433179f97a4c18c7e5e9f979331644a585f9787e65c4a589f9797e66033164cc5b3316933169f9794d9883316df9794c1887e5e5f9783315833158cc583315d33161f9784c1843315df9784d9847e5e1f9773314c3314ccc553315133155f9774c18033151f9774d9807e5ddf976331406fb5570205e0805c081bef46fc4c6fc4c08ca4a56c6fb51701f5e07c5c07dbef36fc486fc4808c94a56833140cc523314533145f9764d97c6fb6570245e0905c091bef86fc5c6fc5c08ce4a57c1a149bef90233c6fbe5bef81a1341a134684f1a1391a139bef84a57c4a57df9767e65433149f9764c17c7e5d9f9753313433134cc4f331393313df9754c1781a13dbef8023386fbe1bef71a1281a128684c1a12d1a12dbef74a5786fb6170235e08c5c08dbef76fc586fc5808cd4a5784a579f9757e65033139f9754d9787e5d5f9743312833128cc4c3312d33131f9744c1741a131bef7023346fbddbef61a11c1a11c68491a1216fb5d70225e0885c089bef66fc546fc5408cc4a5741a121bef64a5744a575f9747e64c3312df9744d9747e5d1f9733311c3311ccc493312133125f9734c17033121f9734d9701a125bef602330)
  (.lf 0))) (.nd (.nd (.lf
  0x460d51855461d5460d91856461d9460dd1857461dd460e11858461e1460e51859461e5460e9185a461e9460ed185b461ed460f1185c461f1460f5185d461f5460f9185e461f9460fd185f461fd4610118604620146105186146205461091862462094610d18634620d4611118644621146115186546215461191866462194611d18674621d461211868462214612518694622546129186a462294612d186b4622d46131186c4623146135186d4623546139186e46239461c80a830210c461cc0a8402110461d00a8502114461d40a8602118461d80a870211c461dc0a8802120461e00a8902124461e40a8a02128461e80a8b0212c461ec0a8c02130461f00a8d02134461f40a8e02138461f80a8f0213c461fc0a9002140462000a9102144462040a9202148462080a930214c4620c0a9402150462100a9502154462140a9602158462180a970215c4621c0a9802160462200a9902164462240a9a02168462280a9b0216c4622c0a9c02170462300a9d02174462340a9e02178462380a9f0217c0217d9fe26800467f899fe10d6440d64435930d6490d64d9fe1529bc0d6499fe1589bc021799fe16800067f859fe00d638021759fe067ffc0d63835900d63d)
  (.lf 0)) (.nd (.lf
  0x434b0031d4b7b84b7b991d4647cc6475191d30849c0849c2129084a1084a191d357b3455a7d2dd5413f4413f52dec4b7846c2f54ea655a9853a98033543590435910d8443691434a4031a4b7ac6c2b14e9555a5455a552deb413cc6c2d54e9e55a786c3094eab55aac53aac033a435a4435a50d89436a563e112deb00a686c3014ea955aa455aa52ddf4141c4141d2dd64b7ac55a792dd4413f0413f12deb4b780436a4033a4b7ac4b7ad91d1647c0084a591d351b341395db08c53a506c231b08b13948139484e541394d51a4db08b6c2a813951b08b53a4c1394db08b55a4c6c22db08a1393c1393c4e511394113945b08a53a4813941b08a55a4851a49b08a6c2a46c2294e9155a456c2dd4ea055a8055a812dd6413f86c2b94e9755a5c55a5d2ded413d463e152dec00a6c413f92ded4b78853ab4033c435ac435ad0d8b436ad63e192ded00a7055aad2de141424434ac031c4b7b4414252dd84b7b4436ac033c4b7b44b7b591d3647c86474d91d208490084902126084950849591d257b300849991d251b3053ab0033b435a8435a90d8a436a9436a8033b4b7b055aa92de041420414212dd74b7b0434a8031b4b7b055a592dec413d04b7b191d2647c4)
  (.lf 0)))

def shaGateTree432 : BTree :=
  .nd (.nd (.nd (.lf
  0x49c9c0276040d849ca00277040dc49ca40278040e049ca80279040e449cac027a040e849cb0027b040ec49cb4027c040f049cb8027d040f449cbc027e040f849cc0027f040fc5d655e9ce7a7b47a7b4103f005fc040fe1089842a084226108848f1848f1923c848f1d48f2210885993048f1e108800a787a739e9cd2d2602d260b49a2d2652d269e9cd040f85d651e9cd7a7b07a7b0103e005f8040fa10888429c84222108748f0c48f0d23c548f1148f1610875992c48f12108700a742d265e9cd005f87a735e9cc2d2542d254b4972d2592d25de9cc040f45d64de9cc7a7ac7a7ac103d005f4040f61087842988421e108648f0048f0123c248f0548f0a10865992848f06108600a702d259e9cc005f47a731e9cb2d2482d248b4942d24d2d251e9cb040f05d649e9cb7a7a87a7a8103c005f0040f21086842948421a108548ef448ef523bf48ef948efe10855992448efa108500a6c2d24de9cb005f07a72de9ca2d23c2d23cb4912d2412d245e9ca040ec5d645e9ca7a7a47a7a4103b005ec040ee10858429084216108448ee848ee923bc48eed48ef210845992048eee108400a682d241e9ca005ec7a729e9c92d2302d230b48e2d2352d239e9c9040e8)
  (.lf
  0x3d5f52d9f3d6753b6492d9f4b6684b67d908f642b807cf5908f579fc6423d908e07ce0599f9afe06bffc847b98edc63bec63bed2d9e00934642bd5e8000cbc57a004d1e134d0133ac4d1e599f0134784ce9133a0133a04ce9579fd642b95e7f00cb8643b1467f579fc579fc4ce9599ec134d00000599f2599f1afde6bff4135c9afe05d91c6bf81afdf135b8135b84d70135bd135c1afdf5b918135bdafdf5d9186bf7dafde135ac135ac4d6d135b1135b1afde5d914135b5afde5b9146bf79afdd135a0135a04d6a135a5135a9afdd5b910599edafdd6bff0135a5afdd5d9106bf75afdc13594133a44d1d13394133944ce7133993b6452d9e4b6643d5f12d9e3d6714b679908e642b4642b55e7e00cb407ce01f3a07ce507ce9908e579f8579f84d1d134cc134cc0000599ea133984d1d599e8599e9afdc6bfec6bfed6e435d90c135944d67135991359dafdc5b90c5b90db01a6c0e4849018f6a63e2463da98f69076a4848fd8f6963e20076a41dab076a9076a98f6900a78076ad8f694b7bc63da58f6807698076981da80769d0769d8f6800a74076a18f684b7b8848f98f6863e1c63da18f670768c0768c1da507691076958f674b7b4076918f6700a70))
  (.nd (.lf
  0x73349ccd1203802038080e22038520389ccd10321845ccc082402010547d4084445dcc45dcd179345ecd45ecc084402010732c971dc5e7705c771ccd1733c020385ccd14ac5c73345ccd0203742037480df2037920379ccd04ac582037dccd0032142008800002017e2017d69f0200782007962142007d2007d69f05a7c40cf819ed05285867b419ecf0cf6c0cf6c33dd0cf710cf719ecf58854020119ecf67bb867bb94a15588545885569f0201ac201ac00005a7c65a7c5cc91732c0732c171da5e768732c571db5e76c20215cc925c76c5c76dccd0733bc73341cccf203682036880dc2036d2036dcccf4ac5420371cccf0321020211cc925e76c73249cc91202002020080822020520209cc915c7685c769cccf733b87333dccce2035c20205cc915e76873245cc90201f445cc808230200c547d0084345dc845dc9179245ec945ec808430200c201f4807f201f90200d9ece67bb467bb54a14588500cf759ecf5285467b3d9ece0cf600cf6033da0cf650cf659ece588505885000005a7c25a7c1cc90732bc732bd71d95e764201fdcc905c7645c765ccce733b42035c80d92036120365ccce0320c20361ccce4ac5073339cccd203502035080d620355)
  (.lf 0))) (.nd (.nd (.lf
  0x2778ddd0360fbc27789dd0362fbc274c9dc885cfc077221dc87274b4274b49d2f274b9274b9dc875efbc272d0000027336273349ccc272bc272bc9cb1272c1272c09ccc5afe8590a89ccc2737c2737c00005afea5afe9dc87772987729973ef5efbc5efbddd03774887740ddd0227778277789de02777d27781dd0260fb82777ddd0262fb8274bddc875cfbc7721ddc86274a8274a89d2c274ad274addc865efb8272c4000027332273309ccb272b0272b09cae272b5272b49ccb5afe4590a49ccb273782737800005afe65afe5dc86772947729573ee5efb85efb9dd027748477409dd012776c2776c9ddd2777127775dd0160fb427771dd0162fb4274b1dc865cfb877219dc852749c2749c9d29274a1274a1dc855efb4272b800002732e2732c9cca272a4272a49cab272a9272a89cca5afe0590a09cca273742737400005afe25afe1dc85772907729173ed5efb45efb5dd017748077405dd0027760277609dda2776527769dd0060fb027765dd0062fb0274a5dc855cfb477215dc8427490274909d262749527495dc845efb0272ac00002732a273289ca82729c2729c9ca85909d5909c9ca85afdc5afdddc847728c7728d73ec5efb05efb1dd007747c)
  (.lf 0)) (.nd (.lf
  0x1990066421990519905bdc35e0143bd4c062f018a83e378064f018bc5ff94066f3e3f83e3f8062f3e4790a469975901ac065d6597580a4580a45829180a45d0a45d975801abc0a461975858100018bd975865ddc65d6197570a44c65ddd604001abc0a44c29150a4513bd44062d018a03bd48062e018a43e374064e018b85ff90066e3e3f43e3f4062e3e4750a451975701ab8018b9975765dd80a4559757580fc65d5d97560a4400a44029120a4450a4499756580f83e370064d018b45ff8c066d3e3f03e3f0062d3e4710a445975601ab4018b5975665dd465d5997550a4340a434290f0a4393bd3c062b018983bd40062c0189c3bdb8062a01894419c4046f0119044678048f011bc5408004af447784477911fe448794487804af011bc011bd979665ed465ed54840581000a439975501ab0197746603197641976465db197691976866035a0b80a5d597975210465e5d97960a5c00a5c029720a5c50a5c59796581005810066031983c1976c00001980e1980c6602197581975865d81975d1975c66025a0b4419c0046e0118c44674048e011b85407c04ae447744477511fd448754487404ae011b865dd9603f01ab80a5c997965210065e5997950a5b4)
  (.lf 0)))

def shaGateTree433 : BTree :=
  .nd (.nd (.nd (.lf
  0x28b7ca2e128b8128b85dfcf03bf003bf1a9cd6a7b06a7b1650d044f011151aa0c534386a831aa0b1113c1113c44511114111141aa0b59434042f1aa0b6a8a86a8a94d0d5943410fe5a9ce044f46a739a9cd10fd410fd443f710fd910fdda9cd5943459434a9415b35c5b35de38478e8c78e8d74d25f3485f349e4007907c79001e3ff2a98c2a98caa652a9912a995e3ff613442a991e3ff633442a6d1e3845d34878e11e3832a6bc2a6bca9b12a6c12a6c1e3835f3442a504a93f2a4f82a4f8a93f594315d145dfce77fb477fb40efb000ec28b81dfcf000f077f3ddfce28b7028b70a2de28b7528b79dfce03bec03beda9cc6a7ac6a7ad650c044ec11145aa0b534346a82daa0a1113011130444e1113511135aa0a59430042edaa0a6a8a46a8a54d0c5943010fd9a9cd044f06a735a9cc10fc810fc843f410fcd10fd1a9cc5943059430a93f5b3585b359e38378e8878e8974d15f3445f345e3ff7907878ffde3fe2a9802a980aa622a9852a989e3fe613402a985e3fe633402a6c5e3835d34478e0de3822a6b02a6b0a9ae2a6b52a6b5e3825f3402a4fca9512a4ec2a4eca93d2a4f12a4f0a9515b35428b75dfce000ec77f39dfcd28b6428b64a2db28b69)
  (.lf 0)) (.nd (.lf
  0x1cbc1c4f80265c7136570ed5e3b45c3b5c4f87145c713e1c4f71cbac1cbac72ed1cbb11cbb5c4f7026581cbb1c4f74a89c7136170ec5e3b05c3b1c4f771458713ddc4f61cba07135d70eb5e3ac1cba072ea1cba51cba5c4f64a8985c3adc4f6714541cba9c4f602654713d9c4f51cb941cb9472e71cb991cb9dc4f5026501cb99c4f54a8947135970ea5e3a85c3a9c4f571450713d5c4f41cb881cb8872e41cb8d1cb91c4f40264c1cb8dc4f44a8907135570e95e3a45c3a5c4f47144c713d1c4f31cb7c1cb7c72e11cb811cb85c4f3026481cb81c4f34a88c7135170e85e3a05c3a1c4f371448713cdc4f21cb701cb7072de1cb751cb79c4f2026441cb75c4f24a8887134d70e75e39c5c39dc4f271444713c9c4f11cb641cb6472db1cb691cb6dc4f1026401cb69c4f14a8847134970e65e3985c399c4f171440713c5c4f01cb581cb5872d81cb5d1cb61c4f00263c1cb5dc4f04a8807134570e55e3945c395c4f07143c713c1c4ef1cb4c1cb4c72d51cb511cb55c4ef026381cb51c4ef4a87c7134170e45e3905c391c4ef71438713bdc4ee1cb401cb4072d21cb451cb45c4ee4a8787132d70df5e37c5c37dc4ea714247133d70e35e38c5c38dc4ee71434)
  (.lf 0))) (.nd (.nd (.lf
  0x5caedd3bf74f7874f780d654afd84afda08af823388233932f64e3d84e3da092b82528824ae092a38c3038c30e30e38c3538c3a092a4b35438c36092a4fbd43897608af4cbd8822be08ae3896038960e25a389653896608ae4e3d403391a1f5688506885162f502d900e1c5a1f602d94687d9a1f50e1b40e1b4386f0e1b90e1bda1f558bd423551d3bf0359474efdd3be2353c2353c8d512354123541d3be4afd4233e5d3815eaec74e05d380233d4233d48cf7233d9233ddd3805cae8232916acd23288232896acd58bd558bd56acd5ab385ab39d38074e7c74e7d72ba5eae85cae9d3be74f7474f740d644afd44afd608ae823348233532f54e3d44e3d6092a82524824aa092938c2438c24e30b38c2938c2e09294b35038c2a09294fbd03896a08ae4cbd4822ba08ad3895438954e257389593895a08ad4e3d00338da1f46884c6884d62f402d8c0e1b9a1f502d90687d5a1f40e1a80e1a8386c0e1ad0e1b1a1f458bd023545d3be0359074ef9d3bd23530235308d4e2353523535d3bd4afd0233d9d3805eae874e01d37f233c8233c88cf4233cd233d1d37f5cae458bd000005ab365ab35d37f74e7874e7972b95eae45cae5d3bd74f7074f700d634afd0)
  (.lf 0)) (.nd (.lf
  0x4bc8df2747ca4c7c9d1f2733089c3089cc229308a1308a1f27350488308a5f2734a8887c9512f224d4884bc89f2737ca487c9cdf2723089030890c2263089530899f2724a88415a3db51b016385bb8db51a6d4e46d4e4058d4a0786d46db51a15a2815a28568c15a2d15a2db51a4a0784a079f2317c94030895f272504847c94d2f214d4844bc85f2727ca447c9c9f2713088430884c223308893088df2714a8807c9492f204d4804bc81f2717ca4030889f271504807c9c5f2703087830878c2203087d7c9452f1f4d47c30881f2704a87c4bc7df2707ca3c3087df2705047c7c9c1f26f3086c3086cc21d3087130875f26f4a8783070df2314bc787c9412f1e4d4784bc79f26f7ca3830871f26f504787c9bdf26e3086030860c21a308657c59128ca4eba84eba9281d4a06c5bb89b5196d4e06d4e0058c4a07415a31b51a016346d469b51915a1c15a1c568915a2115a21b5194a0744a075f2307c93c7c8c5f230306f8306f8c1c0306fd7c93d2f1d4d47430701f2304bc744bc75f26e7ca3430865f26e5047430869f26e4a8747c9b9f26d3085430854c217308593085df26d4a87015a25b519016306d465b51815a1015a10568615a1515a15b5184a070)
  (.lf 0)))

def shaGateTree434 : BTree :=
  .nd (.nd (.nd (.lf
  0x11ef1ac6f5969404551ac6f6b2386b2394da55969411d95ac32047546b0c9ac3111d8411d84476311d8911d8dac315969403e51ac316b1406b14165a50475059695e8712c83c2c83c00005b5aa5b5a9e88d7a2b07a2b1756a5f5a85f5a9e9097a4a07a425e9082cc042cc04b3032cc092cc0de908615a42cc09e908635a42c949e88d5d5a87a235e88c2c9342c934b24f2c9392c939e88c5f5a42c7b000007a1c67a1c4b1e92c7a02c7a0b1e9596915d3a5e4bc7936c7936c0f930034c2aeb1e4bd00350792f5e4bc2aea02aea0abaa2aea52aea9e4bc03e4c03e4dac306b13c6b13d65a40474c11ef5ac6f536946b1bdac6e11ee011ee047ba11ee511ee5ac6e596900454dac6e6b2346b2354da45969011d89ac31047506b0c5ac3011d7811d78476011d7d11d81ac305969059690b1e95b5a45b5a5e88c7a2ac7a2ad75695f5a45f5a5e9087a49c7a421e9072cbf82cbf8b3002cbfd2cc01e907615a02cbfde907635a02c93de88c5d5a47a231e88b2c9282c928b24c2c92d2c92de88b5f5a02c7a4b1e72c7982c798b1e75968d5d3a1e4bb79368793680f92003482aea5e4bc0034c792f1e4bb2ae942ae94aba72ae992ae9de4bb03e4803e49ac2f6b138)
  (.lf 0)) (.nd (.lf
  0x1dc41c77b5660c5260dc77b71e6871dedc77a1dc301dc30770e1dc351dc39c77a546081dc35c77a5660852609c77a71e6471de9c7791dc241dc24770b1dc291dc29c7795660452605c77971e601dc2dc7795460471de5c7781dc181dc1877081dc1d1dc1dc7785660052601c77871e5c1dc21c7785460071de1c7771dc0c1dc0c77051dc111dc15c777545fc525fdc77771e581dc11c777565fc71dddc7761dc001dc0077021dc051dc05c776565f8525f9c77671e541dc09c776545f871dd9c7751dbf41dbf476ff1dbf91dbfdc775545f4525f5c77571e501dbf9c775565f471dd5c7741dbe81dbe876fc1dbed1dbf1c774545f0525f1c77471e4c1dbedc774565f071dd1c7731dbdc1dbdc76f91dbe11dbe5c773545ec525edc77371e481dbe1c773565ec71dcdc7721dbd01dbd076f61dbd5525e1c77071e3c1dbd9c772545e8525e9c77271e441dbd5c772565e871dc9c7711dbc41dbc476f31dbc91dbcdc771545e4525e5c77171e401dbc9c771565e471dc5c7701dbb81dbb876f01dbbd1dbc1c770545e01dbbdc770565e071dc1c76f1dbac525ddc76f71e381dbac76ed1dbb11dbb1c76f565dc1dbb5c76f545dc71dbdc76e1dba01dba076ea1dba5)
  (.lf 0))) (.nd (.nd (.lf
  0x2e71a4b769358692dda4b60f2400f2403c920f2450f249a4b652eb00f245a4b658eb024d19d75154ddc75d45d75024d0424d04934324d0924d09d75056dd852dd9d75075dbc75dbd537656dd856dd80b9b4275075de1537f56dfc56dfc0b844277475e0d538a56e2856e280b8f427a0427740b9b02e40427a00b8602e6c46f280bbb02e6c54e300bdb47028470291c2a47129471280bdb02e6c02e6da4b669354692d9a4b50f2340f2343c8f0f2390f23da4b552eac0f239a4b558eac24d0dd75054dd875d41d74f24cf824cf8934024cfd24cfdd74f56dd452dd5d74f75db875db9537556dd456dd40b9a4274c75ddd537e56df856df80b834277075e09538956e2456e240b8e4279c427700b9a02e3c4279c0b8502e6846f240bba02e6854e2c0bda47024470251c2947125471240bda02e6802e69a4b569350692d5a4b40f2280f2283c8c0f22d0f231a4b452ea80f22da4b458ea824d01d74f54dd475d3dd74e24cec24cec933d24cf124cf1d74e56dd052dd1d74e75db475db5537456dd056dd00b994274875dd9537d56df456df40b824276c75e05538856e2056e200b8d427984276c0b9902e38427980b8402e6446f200bb902e6454e280bd947020)
  (.lf 0)) (.nd (.lf
  0x62b928cc4a328062bd28cd4a32c062c128ce4a330062d528b34a2c4062dd28b54a2cc062e528b74a2d4062e928b84a2d8062ed28b94a2dc7d40d29674ee1c4ee1d28ba4a2e07d41129684ee204ee2128bb4a2e47d41529694ee244ee2528bc4a2e87d419296a4ee284ee2928bd4a2ec7d41d296b4ee2c4ee2d28be4a2f07d421296c4ee304ee3128bf4a2f47d425296d4ee344ee3528c04a2f87d429296e4ee384ee3928c14a2fc7d42d296f4ee3c4ee3d28c24a3007d43129704ee404ee4128c34a3044a2e1f5cd7d7b07d7b12fb84d6e06e89806334a3104a311f5d97d7e07d7e12fc44d7106e880062d4a2f84a2f9f5d37d7c87d7c92fbe4d6f831ce1f5e34d7386e8c0063d4a3384a339f5e37d8087d78df5e231cd031cd0c73631cd531cd9f5e24bf3431cd5f5e24d7344a335f5e27d8047d789f5e131cc431cc4c73331cc931ccdf5e14bf306e8b8063b4a3304a331f5e17d80031cc9f5e14d7307d785f5e031cb86e89c06344a3144a315f5da7d7e46e89406324a30c31cb8c73031cbd31cbdf5e04d72c6e8b4063a4a32c4a32df5e07d7fc31cc1f5e04bf2c7d781f5df31cac31cacc72d31cb131cb5f5df4bf2831cb1f5df4d7286e8b006394a328)
  (.lf 0)))

def shaGateTree435 : BTree :=
  .nd (.nd (.nd (.lf
  0x3b2b20fbf500804e8820fbf83f7883efe0fbe3b2a03b2a0ecaa3b2a53b2aa0fbe002b83b2a60fbe5007c4e87e0fbe83f7483efa0fbd3b2943b294eca73b2993b29e0fbd002b43b29a0fbd500784e87a0fbd83f7083ef60fbc3b2883b288eca43b28d3b2920fbc002b03b28e0fbc500744e8760fbc83f6c83ef20fbb3b27c3b27ceca13b2813b2860fbb002ac3b2820fbb500704e8720fbb83f6883eee0fba3b2703b270ec9e3b2753b27a0fba002a83b2760fba5006c4e86e0fba83f6483eea0fb93b2643b264ec9b3b2693b26e0fb9002a43b26a0fb9500684e86a0fb983f6083ee60fb83b2583b258ec983b25d3b2620fb8002a03b25e0fb8500644e8660fb883f5c83ee20fb73b24c3b24cec953b2513b2560fb70029c3b2520fb7500604e8620fb783f5883ede0fb63b2403b240ec923b2453b24a0fb6002983b2460fb65005c4e85e0fb683f5483eda0fb53b2343b234ec8f3b2393b23e0fb5002943b23a0fb5500584e85a0fb583f5083ed60fb43b2283b228ec8c3b22d3b2320fb4002903b22e0fb4500544e8560fb483f4c83ed20fb33b21c3b21cec893b2213b2260fb30028c3b2220fb3500504e8520fb383f4883ece0fb23b2103b210ec863b215)
  (.lf 0)) (.nd (.lf
  0x7ea95faa4337e8337e8cdfc337ed337edfaa44f1dc4d9ddfaa47eb0c337f1faa44a95c7ea91faa3337dc337dccdf9337e1337e5faa34a958337e1faa34f1d87ea8dfaa2337d0337d0cdf6337d5337d9faa24a9544d9cdfaa07eafc4d9d5faa27eb04337d5faa24f1d47ea89faa1337c4337c4cdf3337c9337cdfaa14a950337c9faa14f1d07ea85faa0337b8337b8cdf0337bd337c1faa04a94c337bdfaa04f1cc7ea81fa9f337ac337accded337b1337b5fa9f4a948337b1fa9f4f1c87ea7d2a514f1c5522c1c08b702a87022dc08a1abbc1abbc6af11abc11abc5c08a542bc1abc1c08a562bc522bdc08a702a470229c0891abb01abb06aee1abb5522b9c089702a01abb9c089542b81abb5c089562b870225c0881aba41aba46aeb1aba91aba9c088562b4522b5c0887029c1abadc088542b470221c0871ab981ab986ae81ab9d1aba1c087542b01ab9dc087562b0522b1c087702987021dc0861ab8c1ab8c6ae51ab911ab95c086542ac1ab91c086562ac522adc0867029470219c0851ab80522a9c085702901ab806ae21ab851ab85c085562a81ab89c085542a870215c0841ab741ab746adf1ab79522a5c0847028c1ab7dc084542a41ab79c084562a4)
  (.lf 0))) (.nd (.nd (.lf
  0x4e21a0653819c88194e065237c1037c10df0637c1537c1a06524b19437c1606524fa143795605d74ca188175e05d63794037940de52379453794605d64e214740080cf44ae144ae1605d6817d4817d532854e2144e2160652819c48194a065137c0437c04df0337c0937c0e06514b19037c0a06514fa103794a05d64ca148175a05d53793437934de4f379393793a05d54e210740040cf34ae104ae1205d5817d0817d132844e2104e2120651819c081946065037bf837bf8df0037bfd37c0206504b18c37bfe06504fa0c3793e05d54ca108175605d43792837928de4c3792d3792e05d44e20c740000cf24ae0c4ae0e05d4817cc817cd32834e20c4e20e0650819bc81942064f37bec37becdefd37bf137bf6064f4b18837bf2064f4fa083793205d44ca0c8175205d33791c3791cde49379213792205d34e20873ffc0cf14ae084ae0a05d3817c8817c932824e2084e20a064f819b88193e064e37be037be0defa37be537bea064e4b18437be6064e4fa043792605d34ca088174e05d23791037910de46379153791605d24e20473ff80cf04ae044ae0605d2817c4817c532814e2044e206064e819b48193a064d37bd437bd4def737bd937bde064d4b180)
  (.lf 0)) (.nd (.lf
  0x8c40231208c4508c45933657c706c4c4050d49e786c4cc050f49e803b8cc050f014283da78052f0143c5fb14054f3daf83daf8050f3db790143d92fc64c6c08b1192fc57c8064bf192fb08afc08afc22c108b0108b0192fb00f3808b0592fb57c7c3b8c8050e014246c4c8050e49e7c3da74052e014385fb10054e3daf43daf4050e3db750143992fb64c6864bed92fa08af008af022be08af508af592fa00f343b8c4050d014203da70052d014345fb0c054d3daf03daf0050d3db710143592fa64c6408af992fa57c7864be992f908ae408ae422bb08ae964d79472557c9451c95b4a56d310415b4034b00d0064d85472857ca051ca1b4a86d31c64da5473057cc064d99472d57cb464d8d472a57ca851cc1b4b06d33c6d2c1b4af1566c1566c559d1567115675b4af53cbc15671b4af55cbc64da1472f57cbc51cbdb4af6d3386d2bdb4ae1566015660559a1566515669b4ae53cb815665b4ae55cb864d9d472e57cb851cb9b4ae6d3346d2b9b4ad15654156545597156591565db4ad53cb415659b4ad55cb451cb5b4ad6d3306d2b5b4ac156481564855941564d15651b4ac53cb01564db4ac55cb064d95472c57cb051cb1b4ac6d32c6d2b1b4ab1563c)
  (.lf 0)))

def shaGateTree436 : BTree :=
  .nd (.nd (.nd (.lf
  0x7a901ea3f2d4b82d4b8b5302d4bd2d4c1ea3f557942d4bdea3f5779453795ea3f7a9787a8fdea3e2d4ac2d4acb52d2d4b12d4b5ea3e557902d4b1ea3e5779053791ea3e7a9747a8f9ea3d2d4a02d4a0b52a2d4a52d4a9ea3d5578c2d4a5ea3d5778c5378dea3d7a9707a8f5ea3c2d4942d494b5272d4992d49dea3c557882d499ea3c5778853789ea3c7a96c7a8f1ea3b2d4882d488b5242d48d2d491ea3b557842d48dea3b5778453785ea3b7a9687a8edea3a2d47c2d47cb5212d4812d485ea3a557802d481ea3a5778053781ea3a7a9647a8e9ea392d4702d470b51e2d4752d479ea395577c2d475ea395777c5377dea397a9607a8e5ea382d4642d464b51b2d4692d46dea38557782d469ea385777853779ea387a95c7a8e1ea372d4582d458b5182d45d2d461ea37557742d45dea375777453775ea377a9587a8ddea362d44c2d44cb5152d4512d455ea36557702d451ea365777053771ea367a9547a8d9ea352d4402d440b5122d4452d449ea355576c2d445ea355776c5376dea357a9507a8d5ea342d4342d434b50f2d4392d43dea34557682d439ea345776853769ea347a94c7a8d1ea332d4282d428b50c2d42d2d431ea33557642d42dea3357764)
  (.lf 0)) (.nd (.lf
  0x587907cd01f3741f2b87cd05a7141f2bc00001f3421f3407cac1f2ac1f2ac7cac5878d027499da7677186771961e3021486781149e35878c5878c7cac5a7106780949e1587846780549e0587801f2b07caa1f2a40c9119da7021486769d9da60c9000c90032420c9050c9099da658788027459da6677146771561e2021446780d49e2587881f2a47caa58789587887caa5a70c1f2a87ca81f29c1f29c7ca8587850c9059da602144676999da50c8f40c8f4323f0c8f90c8fd9da558784027419da5677106771161e102140587847ca85a7080273d9da46770c6770d61e00213c0c8f99da502140676959da40c8e80c8e8323c0c8ed0c8f19da4587801f2a07ca61f2941f2947ca658781587807ca65a7041f2987ca41f28c6780149df5877c0c8ed9da40213c676919da30c8dc0c8dc32390c8e1027399da3677086770961df021380c8e59da35877c1f28c7ca45877d5877c7ca45a7005a701caab72b281f37400005a7165a715cab072b3c1f46dcab05e6a472ac1caaf1f45c1f45c7d191f4611f461caaf5e6a01f465caaf5c6a05a711caaf72b3872abdcaae1f4501f4507d161f4551f459caae5c69c5a70dcaae72b341f455caae5e69c72ab9caad1f444)
  (.lf 0))) (.nd (.nd (.lf
  0x24aac92ad24ab124ab5d6de0373c24ab1d6de4b1805cc95d6de75bf475b79d6dd24aa024aa092aa24aa524aa9d6dd0373824aa5d6dd4b17c5cc91d6dd75bf075b75d6dc24a9424a9492a724a9924a9dd6dc037345cc8dd6dc75bec75bec0dcd4b17803735a562696040f611a5670314875c000dd24b18c03749a567696186959da5660f6000f6003d820f6050f605a566031440f609a56658f8875bfc0dd14b18803745a5666961469599a5650f5f40f5f43d7f0f5f90f5f9a565031400f5fda56558f8469595a5640f5e80f5e83d7c0f5ed0f5f1a56458f800f5eda5640313c75bf00dce4b17c03739a5636960875bf40dcf4b1800373da5646960c69591a5630f5dc0f5dc3d790f5e10f5e5a56358f7c0f5e1a563031386958da5620f5d00f5d03d760f5d50f5d5a562031340f5d9a56258f7869589a5610f5c40f5c43d730f5c90f5c9a561031300f5cda56158f7424a99d6dc4b17875b71d6db24a8824a8892a424a8d24a91d6db037305cc89d6db75be875be80dcc4b17403731a5616960069585a5600f5b80f5b83d700f5bd0f5bda5600312c0f5c1a56058f7024a8dd6db4b17475b6dd6da24a7c24a7c92a124a8124a85d6da0372c5cc85d6da75be4)
  (.lf 0)) (.nd (.lf
  0x31f31f6544a68c31f2df6544ef0c4d70df6547d9cc7d951f65331f1c31f1cc7c931f2131f25f6534a68831f21f6534ef084d709f6537d9c87d94df65231f1031f10c7c631f1531f19f6524a68431f15f6524ef044d705f6527d9c47d949f65131f0431f04c7c331f0931f0df6514a68031f09f6514ef004d701f6517d9c07d945f65031ef831ef8c7c031efd31efdf6504eefc4d6fdf6507d9bc31f01f6504a67c7d941f64f31eec31eecc7bd31ef131ef5f64f4a6784d6f9f64f7d9b831ef1f64f4eef87d93df64e31ee031ee0c7ba31ee531ee5f64e4eef431ee9f64e4a6744d6f5f64e7d9b47d939f64d31ed431ed4c7b731ed931eddf64d4a6704d6f1f64d7d9b031ed9f64d4eef07d935f64c31ec831ec8c7b431ecd31ecdf64c4eeec4d6edf64c7d9ac31ed1f64c4a66c7d931f64b31ebc31ebcc7b131ec131ec1f64b4eee84eee929040636c7d9ad299b4eeec4eeed2905063707d9b1299c4eef04eef12906063747d9b5299d4eef44eef52907063787d9b9299e4eef84eef929080637c7d9bd299f4eefc4eefd2909063807d9cd29a34ef0c4ef0d290d063907d9d129a44ef104ef11290e063947d9d529a54ef144ef15290f063987d9d929a64ef18)
  (.lf 0)))

def shaGateTree437 : BTree :=
  .nd (.nd (.nd (.lf
  0x592b4a3e05b1e85b1e9e089782a0782a174725f1c85f1c9e1057849078415e1042942029420a50a2942529429e104611c429425e104631c429165e0895d1c878225e0882915029150a4562915529155e0885f1c428f80a3de28f7428f74a3de592b1592b0a3de5b1e45b1e5e0887829c7829d74715f1c45f1c5e1047848c78411e1032941429414a507294192941de103611c029419e103631c029159e0885d1c478221e0872914429144a4532914929149e0875f1c028f78a3dc28f6c28f6ca3dc592ad592aca3dc5b1e05b1e1e087782987829974705f1c05f1c1e103784887840de1022940829408a5042940d29411e102611bc2940de102631bc2914de0875d1c07821de0862913829138a4502913d2913de0865f1bc28f70a3da28f6428f64a3da592a9592a8a3da5b1dc5b1dde0867829478295746f5f1bc5f1bde1027848478409e101293fc293fca5012940129405e101611b829401e101631b829141e0865d1bc78219e0852912c2912ca44d2913129131e0855f1b828f68a3d828f5c28f5ca3d8592a5592a4a3d85b1d85b1d9e0857829078291746e5f1b85f1b9e1017848078405e100293f0293f0a4fe293f5293f9e100611b4293f5e100631b4)
  (.lf 0)) (.nd (.lf
  0x3424dfc614c3884a789fc617f2007f20130e24db884c389fc9f7f2f87f27dfc9e343a0343a0d0ea343a5343a9fc9e4af84343a5fc9e50b8434249fc614db887f185fc603423834238d0903423d34241fc604c3844a785fc607f1fc7f1fd30e14db844c385fc9e7f2f47f279fc9d3439434394d0e7343993439dfc9d4af8034399fc9d50b803423dfc604db847f181fc5f3422c3422cd08d3423134235fc5f4c3804a781fc5f7f1f87f1f930e04db804c381fc9d7f2f07f275fc9c3438834388d0e43438d34391fc9c4af7c3438dfc9c50b7c34231fc5f4db807f17dfc5e3422034220d08a3422534229fc5e4c37c4a77dfc5e7f1f47f1f530df4db7c4c37dfc9c7f2ec7f271fc9b3437c3437cd0e13438134385fc9b4af7834381fc9b50b7834225fc5e4db7c7f179fc5d3421434214d087342193421dfc5d4c3784a779fc5d7f1f07f1f130de4db784c379fc9b7f2e87f26dfc9a3437034370d0de3437534379fc9a4af7434375fc9a50b7434219fc5d4db787f175fc5c3420834208d0843420d34211fc5c4c3744a775fc5c7f1ec7f1ed30dd4db744c375fc9a7f2e47f269fc993436434364d0db343693436dfc994af7034369fc9950b703420dfc5c4db74)
  (.lf 0))) (.nd (.nd (.lf
  0x38108e0443810d3810e073c4e2dc685714ab758adc22715d1c60349c74719d1c5227002270089c22270522705d1c54aedc225a9d1885e9f474621d187225982259889682259d225a1d1875c9f0224080000224f6224f4893c223f4223f488ff223f9223f8893c5aa4c58adc893c2252c2252c00005aa4e5aa4dd1877469874699727c5e9f05c9f1d1c574790747900d264aedc4aede073c81d6c81d6d32b74e2dc4e2de07b881f5c81ee207b7383cc383cce0f5383d1383d607b74b258383d207b74fad838112073c4cadc81cf2073b380fc380fce0413810138102073b4e2d802a95a13c6856c6856d4ab658ad86847562b602c940dd8da13c58ad822709d1c50349874715d1c4226f4226f489bf226f9226f9d1c44aed82259dd1875e9f07461dd1862258c2258c89652259122595d1865c9ec223fc0000224f2224f0893b223e8223e888fc223ed223ec893b5aa4858ad8893b225282252800005aa4a5aa49d1867469474695727b5e9ec5c9edd1c47478c7478c0d254aed84aeda073b81d6881d6932b64e2d84e2da07b781f5881ede07b6383c0383c0e0f2383c5383ca07b64b254383c607b64fad438106073b4cad881cee073a380f0380f0e03e380f5)
  (.lf 0)) (.nd (.lf
  0x2ed7dedd04d1642ed81edd04b96449d65edd07b7bc7b741edcf2ed6c2ed6cbb5d2ed712ed71edcf4d1602ed75edcf4b96049d61edcf7b7b87b73dedce2ed602ed60bb5a2ed6549d5dedce7b7b42ed69edce4b95c2ed65edce4d15c7b739edcd2ed542ed54bb572ed592ed5dedcd4b95849d59edcd7b7b02ed59edcd4d1587b735edcc2ed482ed48bb542ed4d49d51edcb7b7a849d55edcc7b7ac2ed4dedcc4d1542ed51edcc4b9547b731edcb2ed3c2ed3cbb512ed412ed45edcb4b9507b7a92e544d1504b951ee097b8a07b8192e704d1c04b9c1ee257b9107b8152e6f4d1bc7b895ee242efe82efe8bbfc2efed2efedee24501bc2eff1ee244a5bc4b9bdee247b90c7b891ee232efdc2efdcbbf92efe12efe5ee234a5b87b8112e6e4d1b84b9b9ee237b9082efe1ee23501b87b88dee222efd02efd0bbf62efd52efd5ee22501b47b80d2e6d4d1b44b9b5ee227b9042efd9ee224a5b47b889ee212efc42efc4bbf32efc92efc9ee21501b07b8092e6c4d1b04b9b1ee217b9002efcdee214a5b07b885ee202efb82efb8bbf02efbd2efc1ee204a5ac7b8052e6b4d1ac2efbdee20501ac4b9adee207b8fc7b881ee1f2efac7b8012e6a4d1a84b9a9ee1f7b8f8)
  (.lf 0)))

def shaGateTree438 : BTree :=
  .nd (.nd (.nd (.lf
  0x633f40f403d1d87981984fe633f8633f80f413d1dc7981d84ff633fc633fc0f423d1e079821850063400634000f433d1e479825850163404634040f443d1e879829850263408634080f453d1ec7982d85036340c6340c0f463d1f079831850463410634100f473d1f479835850563414634140f483d1f879839850663418634180f493d1fc7983d85076341c6341c0f4a3d20079841850863420634200f4b3d20479845850963424634240f4c3d20879849850a63428634280f4d3d20c7984d850b6342c6342c0f4e3d21079851850c63430634300f4f3d21479855850d63434634340f503d21879859850e63438634380f513d21c7985d850f6343c6343c0f523d22079861851063440634400f533d22479865851163444634440f543d22879869851263448634480f553d22c7986d85136344c6344c0f563d23079871851463450634500f573d23479875851563454634540f583d2383d1bc0f4b03d183d1c00f4c03d1c3d1c40f4d03d203d1c80f4e03d243d1cc0f4f03d283d1d00f5003d2c3d1d40f5103d303d1d80f5203d343d1dc0f5303d383d1e00f5403d3c3d1e40f5503d403d1e80f5603d443d1ec0f5703d483d1f00f5803d4c3d1f40f5903d50)
  (.lf 0)) (.nd (.lf
  0x41e88074001d540bf6d9bf95259c66fe59bf80bf580bf582fd80bf5d0bf5d9bf85859845410077501d54545180795455104551115644561145610079501d540bf619bf85259801d559bf86705c66fe19bf70bf4c0bf4c2fd50bf510bf559bf7525944540c077401d505451407944550c4550d15634560d4560c079401d5001d519bf7670580bf519bf75859466fdd9bf60bf400bf402fd20bf450bf459bf65859045408077301d4c545100793455084550915624560945608079301d4c01d4d9bf6670546705549645859066f5d616401f4c1d6adc6ab5a52866f65616601f546705d49665859858599c6ab1d7241d6b0000071aae71aadc6aa1d69c1d69c75a91d6a16705949655859466f61616501f5058595c6aa1d7201d6a1c6aa5a5241d6a4000071aaa71aa875a61d6941d69475a6585915859075a65a5201d72800005a52e1d845c6c65e4b471b19c6c51d8341d834760f1d8391d83dc6c55c4b05a52dc6c571b901d839c6c55e4b071b15c6c41d8281d828760c1d82d1d72400005a52a5a529c6c471b8c71b8d712b5e4ac1d831c6c45c4ac1d82dc6c45e4ac1d72000005a52671b11c6c31d81c1d81c76091d8211d825c6c35c4a85a525c6c371b88)
  (.lf 0))) (.nd (.nd (.lf
  0x75629d5892419c2419c9069241a1241a5d5895cbe0240516b0a24048240496b0a58ccd58ccd6b0a5ac2c5ac2dd589756a0756a172f85ebe05cbe1d5c775798757980da24b0cc4b0ce0a20828fc828fd33334e4cc4e4ce0a9c82aec82a720a9b3947c3947ce52139481394860a9b4b448394820a9b4fcc8391c20a204cccc828820a1f391ac391ace46d391b1391b20a1f4e4c80e8ada32952ccc68ca5a3280e8980e8983a280e89d0e89da32858cc802c85a32868d1c68d1d4b3258cc82430dd5c7036887571dd5c6242f8242f890c0242fd242fdd5c64b0c8241a1d5895ebe075625d588241902419090662419524199d5885cbdc58cc800005ac2a5ac29d5887569c7569d72f75ebdc5cbddd5c675794757940da14b0c84b0ca0a1f828f8828f933324e4c84e4ca0a9b82ae8391b60a1f4ccc80e8a1a32852cc802c814b3158cc468ca14b3158cc524301d5c60368424195d5885ebdc58cc572f65ebd87562172f65ebd95cbd80da04b0c4757180da04b0c54b0c533314e4c48287d33314e4c54e4c52d114fcc482a6d2d114fcc54fcc52c7b06ce882ae92d124fcc84fcc92c7c06cec82aed2d134fccc4fccd2c7d06cf082af12d144fcd04fcd12c7e06cf4)
  (.lf 0)) (.nd (.lf
  0x16e39b7b85bcdc5bcddb7f66e0546e05405e14a1c816f9db7f64a1c84a1c9f4537d1c831325f4534bdc87d1c92f724d5c84bdc9f4917d2c031321f4534d5c87d14d2f714d5c516fa1b7f6017846dfd805e04a1c559d996f365dcd816e35b7b85dcdc6dee16f365dcd95bcd805e04a1c44a1c52f714d5c44bdc52a71505c47d2452a71505c5505c52a5404e487d2c12a72505c8505c92a5504e4c7d2c52a73505cc505cd2a5604e507d2c92a74505d0505d12a5704e547d2cd2a75505d4505d52a5804e587d2d12a76505d8505d92a5904e5c7d2d52a77505dc505dd2a5a04e607d2d92a78505e0505e12a5b04e647d2dd2a79505e4505e52a5c04e687d2e12a7a505e8505e92a5d04e6c7d2e52a7b505ec505ed2a5e04e707d2e92a7c505f0505f12a5f04e747d2ed2a7d505f4505f52a6004e787d2f12a7e505f8505f92a6104e7c7d2f52a7f505fc505fd2a6204e807d2f92a8050600506012a6304e847d2fd2a8150604506052a6404e887d3012a8250608506092a6504e8c7d3052a835060c5060d2a6604e907d3092a8450610506112a6704e947d30d2a8550614506152a6804e987d3112a8650618506192a6904e9c7d3152a875061c5061d2a6a04ea0)
  (.lf 0)))

def shaGateTree439 : BTree :=
  .nd (.nd (.nd (.lf
  0x386a6083300214386a20833513584cb5a083382148820ce08323869038690e1a6386953869a083200210386960832513544cb56083282144820ca08313868438684e1a3386893868e08310020c3868a0831513504cb52083182140820c608303867838678e1a03867d386820830002083867e08305134c4cb4e08308213c820c2082f3866c3866ce19d3867138676082f0020438672082f513484cb4a082f821384cb44008051344820bc00805134551344006305a848213800815134851348006405a888213c00825134c5134c006505a8c8214000835135051350006605a908214400845135451354006705a948214800855135851358006805a988214c00865135c5135c006905a9c8215000875136051360006a05aa08215400885136451364006b05aa48215800895136851368006c05aa88215c008a5136c5136c006d05aac82160008b5137051370006e05ab082164008c5137451374006f05ab482168008d5137851378007005ab88216c008e5137c5137c007105abc82170008f5138051380007205ac08217400905138451384007305ac48217800915138851388007405ac88217c00925138c5138c007505acc8218000935139051390007605ad0)
  (.lf 0)) (.nd (.lf
  0xaa642a9b0aa696fa955069561a46fa69505e561786fa455055561545615404ba41acc5617804a341af0561a404ae41b1c41af004ba012bc41b1c04a5012e8449a4069a012e8541ac06ba44aa444aa512c944ba544ba406ba012e8012e99899662e06fd5180236208c6208c06663be70620d406783beb83be700678019cc3e59c0898019e0600b808b83e61c3e61c06783e69d019e19859661e0661e1608901be06fd498021620846208406643be68620cc06763beb03be680676019c43e5940896019d8600b008b63e6143e61406763e695019d99857661d8661d9608701bd86fd4d8022620886208806653be6c620d006773beb43be6c0677019c86fa61505c56170661e9608b01be8662e1488b5822c0abf9989a522306626998990abe40abe42afb0abe90abe998995822c5822dbfae1a614661e5608a01be46fa65505d561740abed98995222c6626598980abd80abd82af80abdd6fa415054561505615004b941ac85617404a241aec6fa915068561a0561a004ad41b1841aec04b9012b841b1804a4012e4449a00699012e4541a806b944aa044aa112c844ba144ba006b9012e4012e59898662dc662dd488a582280abdd9898582281a5b869701a5bd)
  (.lf 0))) (.nd (.nd (.lf
  0x80222008735a8c35a8cd6a535a9135a9600874ada84de2a008780298802992b6a4f6284adaa05218150081501326a4e1a84c9aa055f815f88157e055e376a0376a0ddaa376a5376aa055e00060376a6055e511a43754a05214e1a88148605203753837538dd503753d3754205204c9a435a9200874f6288021e008635a8035a80d6a235a8535a8a00864ada44de26008680294802952b694f6244ada60520814fc814fd32694e1a44c9a6055e815f48157a055d3769437694dda7376993769e055d0005c3769a055d511a03753e05204e1a481482051f3752c3752cdd4d3753137536051f4c9a035a8600864f6248021a008535a7435a74d69f35a7935a7e00854ada04de22008580290802912b684f6204ada2051f814f8814f932684e1a04c9a2055d815f081576055c3768837688dda43768d37692055c000583768e055c5119c37532051f4e1a08147e051e3752037520dd4a375253752a051e4c99c35a7a00854f62080216008435a6835a68d69c35a6d35a7200844ad9c4de1e00848028c8028d2b674f61c4ad9e051e814f4814f532674e19c4c99e055c815ec81572055b3767c3767cdda13768137686055b0005437682055b5119837526051e4e19c)
  (.lf 0)) (.nd (.lf
  0x141e5b1c159ac059ac1b1d86c7dc1430c000059ac659ac5b1d96c7e01438db1d95d9ec6c765b1d81437c1437c50e1143816c7dd6e7a5d9e814381b1d85d9e85d9e9b2546c9cc6c7ed6e7e5d9f86c7e96e7d5d9f45d9f5b2576c9d814681b258619f85d9f9b2586c9dc14685b2585f9f86c961b2571467014670519e1467514675b257619f414679b2575f9f46c95db2561466414664519b146691466db2565f9f05d9f1b2566c9d414669b256619f06c959b255146581465851981465d1465db255619ec846918e56639d43d74804c34b55006fd18e57008106395d8e5606fc006fc01bf206fc506fc98e564b5505f96404e33d7c8639d52d540080c3d7c92d543d8494b551917c6466c6466d5eb400d8c53a50032343548435490d724364914661b2555f9ec848918f4e63db463db52dd400a0c075718f4f00a1063d3d8f4e07560075601d5a0756508219917d00d90645f5917c082080820820840820d14385b1d85b9e80838591bb51ad4646ed91ba083700837020de083750837591ba57ad04344803034b750075698f4e4b7504364803234b7504b75191ba647646c761b1d7143701437050de14375141e800006c70608211917c57ad06476546b457ad0)
  (.lf 0)))

def shaGateTree440 : BTree :=
  .nd (.nd (.nd (.lf
  0x5d5c5e8d27a3c47a3c4101b0056c2cb0de8d3005707a34de8d22cafc2cafcb2c12cb012cb05e8d20406c0406dae286b91c6b91d662c00aec12a95ae67538b46b99dae6612a8012a804aa212a8512a85ae66598b00476dae666ba146ba154e2c598b012929ae2900af06b8a5ae2812918129184a481291d12921ae28598b0598b0b87b5b7c45b7c5ec197b0e07b0e175f15f7c45f7c5ec957b2d07b255ec942e6442e644b9932e6492e64dec94617c02e649ec94637c02e389ec195d7c47b065ec182e3742e374b8df2e3792e379ec185f7c02e1ecb8792e1e02e1e0b879598ad5d5c1e8d17a3c07a3c0101a005682cb01e8d20056c7a349e8d12caf02caf0b2be2caf52caf9e8d10406804069ae276b9186b919662b00ae812a89ae66538b06b999ae6512a7412a744a9f12a7912a79ae65598ac04769ae656ba106ba114e2b598ac1291dae2800aec6b8a1ae271290c1290c4a451291112915ae27598ac598acb8795b7c05b7c1ec187b0dc7b0dd75f05f7c05f7c1ec947b2cc7b251ec932e6382e638b9902e63d2e641ec93617bc2e63dec93637bc2e37dec185d7c07b061ec172e3682e368b8dc2e36d2e36dec175f7bc2e1e4b8772e1d82e1d8b877598a9)
  (.lf
  0x64171905b07bfc07bfc1f0107c0107c01905b579a407c05905b519a46416d905a07bf007bf01efe07bf507bf9905a519a007bf5905a579a064169905907be407be41efb07be907bed90595199c07a8d901c00bdc64071901b07a7c07a7c1ea107a8107a85901b4b91c84a5d901b640e8640e92e4700bd84b91d9059641e007be990595799c64165905807bd807bd81ef807bdd07a81901b00bd86406d901a07a7007a701e9e07a7507a79901a4b9184b9199058641dc07a75901a00bd464069901907a6407a641e9b07a6907a6d90194b91484a559019640e0640e12e4500bd04b9159057641d807bdd90585799807be190585199864161905707bcc07bcc1ef507bd107bd5905751994641d946655799451995ae9d6baf007a69901900bd064065901807a5807a581e9807a5d07a6190184b91084a519018640dc07a5d901800bcc64061901707a4c07a4c1e9507a5107a51901700bc884a499016640d484a419014640cc07a5590174b90c84a4d9017640d86405d901607a4007a401e9207a4507a4990164b90807a45901600bc464059901507a3407a341e8f07a3984a459015640d007a3d90154b90407a39901500bc064055901407a2807a281e8c07a2d))
  (.nd (.lf
  0x1feb9cc28607341feb5cc286273472f2d71cd5e7345e735cc287311c730a1cc271fea41fea47fab1fea91feadcc27607301fea9cc276273072f2971cc5e7305e731cc27731187309dcc261fe981fe987fa81fe9d72cfd819d626746267409e03c45872d01819e626786267809e13c45c72d05819f6267c6267c09e23c46072d0981a0626806268009e33c464626c009f33c4a4626c409f43c4a8626c809f53c4ac3c44809ee027a43c44c09ef027a83c45009f0027ac3c45409f1027b03c45809f2027b43c45c09f3027b83c46009f4027bc3c46409f5027c01fe9dcc266272c3f1900a15027d4606ac0a353f2103f21009f53f2910cd7d9e655281c679959e640cd680cd68335c0cd6d0cd6d9e645881872a4551e4567905679007e942108567c007f542138420dc07f501fa84210807e001fd445b90081501fd454798083545c9045c91174445d9145d90083501fd401fd59e6467a0c027d59e2667914679156206021d467a0d4a06588180cc119e27021d86789d9e260cc000cc0033020cc050cc099e2658818588187e9f1fac41fac400005a7961f9fc7e9f1f9ec1f9ec7e7d1f9f11f9f07e9f5a7945a795cbaa72f2472f2571cb5e72c1fbddcbab5c730)
  (.lf 0))) (.nd (.nd (.lf
  0x83a2e0e8a3abb03abb0eaee3abb53abb60e8a4e804369aa03295100880ca603283699836998da683699d369a203284b4044c806032880d1c80d1d2d0151004698016401031c0698f94c015900426e65dbc5039c476f15dbc426e5026e509b9626e5526e55dbc44b40426cf9db875ef1c76e1ddb8626ce826ce89b3c26ced26cf1db865cf1826b389af626b2826b289acc26b2d26b2c9af65af48590049af626c1826c1800005af4a5af49db8676e9476e9573c65ef185cf19dbc476f8c76f8c0e704b4044b4060e8a83aa483aa534014e8044e8060f0683c9483c1a0f053ae743ae74eb9f3ae793ae7e0f050023c3ae7a0f05500003abba0e8a4d00483a2a0e893aba43aba4eaeb3aba93abaa0e894e8003699e03285100480ca203273698c3698cda65369913699603274b4004c802032780d1880d192d0051000697fd6400031bc698f54c005900026e59dbc4039c076f11dbc326e4426e449b9326e4926e49dbc34b40026ceddb865ef1876e19db8526cdc26cdc9b3926ce126ce5db855cf1426b30000026bda26bd89af526b1c26b1c9ac926b2126b209af55af44590009af526c1426c1400005af465af45db8576e9076e9173c55ef145cf15dbc376f88)
  (.lf 0)) (.nd (.lf
  0x41944044f0111041948045001114444f8046f0113c54000048f445f8445f9119e446f9446f8048f0113c0113d971a65ce4444fc047001140540040490445fc445fd119f446fd446fc04900114001141971b65ce865c6d971a0a2f00a2f028be0a2f50a2f5971a5808065ce548205808065ced48225808858089bcb419130190a000006f2d66f2d5bcb41908c1908c6425190911909400006f2d219091bcb45a0446f2d1bcb319080190806422190851908800006f2ce65ce948215808419085bcb35a04058085bcb31912c6f2cc641f1907819078641f5808158080641f5a03c1907dbcb21906c0a2f9971a5208065c6997190a2e40a2e428bb0a2e90a2e997195807c419b8044c01104444ec046c0113053ff4048c445ec445ed119b446ed446ec048c0113001131971765cd841940044e0110c0a2ed97195207c444f4046e0113853ffc048e445f4445f5119d446f5446f4048e0113801139971965ce065c6597180a2d80a2d828b80a2dd4193c044d01108444f0046d0113453ff8048d445f0445f1119c446f1446f0048d0113401135971865cdc0a2e19718520780a2dd97185807865c6197170a2cc0a2cc28b50a2d10a2d19717580740a2d5971752074)
  (.lf 0)))

def shaGateTree441 : BTree :=
  .nd (.nd (.nd (.lf
  0x295a0a56a295a5295a9e14455338295a5e1445733853339e1447858c78511e1432959429594a567295992959de1435533429599e1435733453335e143785887850de1422958829588a5642958d29591e142553302958de1425733053331e1427858478509e1412957c2957ca5612958129585e1415532c29581e1415732c5332de1417858078505e1402957029570a55e2957529579e1405532829575e1405732853329e1407857c78501e13f2956429564a55b295692956de13f5532429569e13f5732453325e13f78578784fde13e2955829558a5582955d29561e13e553202955de13e5732053321e13e78574784f9e13d2954c2954ca5552955129555e13d5531c29551e13d5731c5331de13d78570784f5e13c2954029540a5522954529549e13c5531829545e13c5731853319e13c7856c784f1e13b2953429534a54f295392953de13b5531429539e13b5731453315e13b78568784ede13a2952829528a54c2952d29531e13a553102952de13a5731053311e13a78564784e9e1392951c2951ca5492952129525e1395530c29521e1395730c5330de13978560784e5e1382951029510a5462951529519e1385530829515e1385730853309e1387855c)
  (.lf 0)) (.nd (.lf
  0x70eb170b65e2d9583c570b65e2d85c2d809604a7c471094097d4a83871098097e4a83c70f3570b95e2e45c2e5c3ec7102c1c3b1c3ec0258c70fb1c3eb1c39c1c39c70e91c3a11c3a5c3eb025881c3a1c3eb4a7cc70fadc3ea1c39070f2d70b75e2dc5c2ddc3ea710241c39070e61c3951c395c3ea4a7c81c399c3ea0258470fa809604a7c57102409614a7c87102c09634a7d07103409654a7d87103c09674a7e07104409694a7e87104c096b4a7f071054096d4a7f87105c096f4a8007106409714a8087107009744a8147106c09734a8107107809764a81c7107409754a8187109c097f4a84071088097a4a82c7108409794a8287108c097b4a83071090097c4a8347108009784a8247107c09774a8204a841fd297f5207f52131104dc404c441fd677f6187f59dfd663488034880d2223488534889fd664b03c34885fd6650c3c7f4a5fd283471834718d1c83471d34721fd284c43c4a83dfd287f51c7f51d310f4dc3c4c43dfd667f6147f599fd653487434874d21f348793487dfd654b03834879fd6550c383471dfd284dc3c7f4a1fd273470c3470cd1c53471134715fd274c4384a839fd277f5187f519310e4dc384c439fd657f6107f595fd6434868)
  (.lf 0))) (.nd (.nd (.lf
  0x3880a08714fb583854a07f64cb5c81fda07f53853438534e14f385393853a07f54e3580e06da1b952b5c686e5a1b80e0580e05838180e05d0e05da1b858b5802b15a1b86875c6866562d602d146875d4ad658b5822e95d2bd0351874af5d2bc22e8022e808ba222e8522e85d2bc4af5822d29d27f5ea70749fdd27e22d1822d188b4822d1d22d21d27e5ca6c22b30000022c4222c408ac922b2022b208ac958b5958b588ac95aac85aac9d27e74a7474a75729b5ea6c5ca6dd2bc74b6c74b6c0d454af584af5a07f5820508205132d64e3584e35a087182240821c60870387f8387f8e200387fd3880208704b2d4387fe08704fb543853e07f54cb5881fd607f43852838528e14c3852d3852e07f44e3540e061a1b852b58686e1a1b70e04c0e04c38150e0510e051a1b758b5402b11a1b7687586866162d502d10687594ad558b5422e89d2bc0351474af1d2bb22e7422e748b9f22e7922e79d2bb4af5422d1dd27e5ea6c749f9d27d22d0c22d0c8b4522d1122d15d27d5ca6822b248ac722b1822b188ac758b5558b548ac75aac45aac5d27d74a7074a71729a5ea685ca69d2bb74b6874b680d444af544af5607f48204c8204d32d54e3544e35608708223c)
  (.lf 0)) (.nd (.lf
  0x4ba129a74a67004ba529a84a67404ba929a94a67804bad29aa4a67c04bb129ab4a68004bb529ac4a68404bb929ad4a68804bbd29ae4a68c04bc129af4a69004bc529b04a69404bc929914a69804bcd29924a69c04bd129934a6a004bd529944a6a404bd929954a6a804bdd29964a6ac04be129974a6b004be529984a6b404be929994a6b804bed299a4a6bc04bf1299b4a6c004bf5299c4a64404bf9299d4a64804bfd299e4a64c04c01299f4a6507c1c129ce503385033929a04a6547c1c529cf5033c5033d29a14a6587c1c929d0503405034129a24a65c4d2c1efd77bfd87bf5defd62f9c02f9c0be722f9c54d2bdefd67bfd42f9c9efd64a23c2f9c5efd64eabc7bf59efd52f9b44d2b9efd57bfd02f9b4be6f2f9b92f9bdefd54a2382f9b9efd54eab87bf55efd42f9a82f9a8be6c2f9ad2f9b1efd44a2344d2b5efd47bfcc2f9adefd44eab47bf51efd32f99c2f99cbe692f9a12f9a1efd34eab02f9a5efd34a2304d2b1efd37bfc87bf4defd22f9902f990be662f9952f999efd24a22c2f995efd24eaac4d2adefd27bfc47bf49efd12f9842f984be632f9892f989efd14eaa84d2a9efd17bfc02f98defd14a2287bf45efd02f9782f978be602f97d)
  (.lf 0)))

def shaGateTree442 : BTree :=
  .nd (.nd (.nd (.lf
  0x485a4115a044e8485a8115b044ec485ac115c044f0485b0115d044f4485b4115e044f8485b8115f044fc5554411604863c555481161486405554c116248644555501163486485555411644864c555581165486505555c116648654555601167486585556411684865c555681169486605556c116a4866455570116b4866855574116c4866c55578116d486705557c116e4867455580116f486785558411704867c555881171486805558c117248684555901173486885559411744868c555981175486905559c117648694555a0117748698555a411784869c555a81179486a0555ac117a486a4555b0117b486a8555b4117c486ac555b8117d486b0555bc117e486b4555c0117f486b84863d21af4873d4864121b0487414864521b1487454864921b2487494864d21b34874d4865121b4487514865521b5487554865921b6487594865d21b74875d4866121b8487614866521b9487654866921ba487694866d21bb4876d4867121bc487714867521bd487754867921be487794867d21bf4877d4868121c0487814868521c1487854868921c2487894868d21c34878d4869121c4487914869521c5487954869921c6487994869d21c74879d486a121c8487a1)
  (.lf 0)) (.nd (.lf
  0x1df51c7be5e53471ef9c7bd1df401df4077d21df451df45c7bd5e53071d49811e624786247809613c25c71d4d811f6247c6247c09623c26071d518120624806248009633c26471d558121624846248409643c268624c009733c2a4624c409743c2a8624c809753c2ac624cc09763c2b03c25c0973025b83c2600974025bc3c2640975025c03c2680976025c43ed940996025d8604b009b63ee143ee1409763ee950c0dd9c3801fdc025d99c3767158670e19c370c0cc0c0cc30350c0d10c0d59c375861c0c0d19c3701fd8670dd9c360c0c00c0c030320c0c50c0c99c36586181dda800001de0a1de0877811dd941dd9477671dd991dd9c00001de063ed900995025d4604ac09b53ee103ee1009753ee91025d59c366715471a5d51645659056590076941f08565c0077541f3841edc077501da841f08076001dd445590079501dd45459807b5456904569115c4457914579007b501dd401dd59c746724c0c2499c7652620671d99c750c2340c234308f0c2390c23d9c755261c1d491c66654548719995151565455254551515654456544077641ebc71a6151655659456594076a41f0c41ee0077601dac41f0c076101dd845594079601dd85459c07b645694)
  (.lf 0))) (.nd (.nd (.lf
  0x246fdd65b54dac246f9d65b56dac52dadd65b759e87596dd65a246e8246e891bc246ed246f1d65a54da8246edd65a56da852da9d65a759e475969d659246dc246dc91b9246e1246e5d65954da4246e1d65956da452da5d659759e075965d658246d0246d091b6246d5246d9d65854da0246d5d65856da052da1d658759dc75961d657246c4246c491b3246c9246cdd65754d9c246c9d65756d9c52d9dd657759d87595dd656246b8246b891b0246bd246c1d65654d98246bdd65656d9852d99d656759d475959d655246ac246ac91ad246b1246b5d65554d94246b1d65556d9452d95d655759d075955d654246a0246a091aa246a5246a9d65454d90246a5d65456d9052d91d654759cc75951d653246942469491a7246992469dd65354d8c24699d65356d8c52d8dd653759c87594dd652246882468891a42468d24691d65254d882468dd65256d8852d89d652759c475949d6512467c2467c91a12468124685d65154d8424681d65156d8452d85d651759c075945d6502467024670919e2467524679d65054d8024675d65056d8052d81d650759bc75941d64f2466424664919b246692466dd64f54d7c24669d64f56d7c52d7dd64f759b87593dd64e24658)
  (.lf 0)) (.nd (.lf
  0x176a1b8fe018086e3f9b8fd1768c1768c5da51769117691b8fd4a2480971d951d51e4c65475951c097080970825c40970d0970d951c57e48095a994de57e48654ed479257e4857e48000059e1a59e19b8bf6e3781752db8bf5bd5c6e3796f575dd5c5bd5db8fd6e4706e47006014a2484a249f50d7d4b07d4b12f924d64831754c5d7317593175df50d4be484be49f54b7d5a87d5052fa74d69c7d5292fb04d6c04bec1f5697d6207d5a5f56831a1831a18c68831a1d31a21f5684aabc7d5252faf4d6bc4bebdf5687d61c31a1df568506bc7d5a1f56731a0c31a0cc68531a1131a11f567506b87d5192fac4d6b07d51d2fad4d6b47d4f92fa44d6907d4e92fa04d6807d4f52fa34d68c7d4c12f964d6587d4c52f974d65c7d5012fa64d6984beb5f5667d61431a15f5674aab87d5212fae4d6b84beb9f5677d6187d59df56631a0031a00c68231a0531a05f566506b431a09f5664aab47d599f565319f47d5112faa4d6a8319f4c67f319f97d5152fab4d6ac4beadf5647d60c319fdf5654aab04beb1f5657d610319f9f565506b07d595f564319e8319e8c67c319ed319f1f5644aaac319edf564506ac7d591f563319dc319dcc679319e1319e1f563506a8)
  (.lf 0)))

def shaGateTree443 : BTree :=
  .nd (.nd (.nd (.lf
  0x5de4015f0055005de801400055405dec01410055805df001420055c05df401430056005df801440056405dfc01450056805e0001460056c05e0401470057005e0801480057405e0c01490057805e10014a0057c05e14014b0050005e18014c0050405e1c014d0050805e20014e0050c83600017d5173851738014f0051083604017e5173c5173c01500051483608017f51740517400151005184e6c20ce7834188339e0ce63a2803a280e8a23a2853a28a0ce6000f83a2860ce64febc4e6be0ce6834148339a0ce53a2743a274e89f3a2793a27e0ce5000f43a27a0ce54feb84e6ba0ce583410833960ce43a2683a268e89c3a26d3a2720ce4000f03a26e0ce44feb44e6b60ce48340c833920ce33a25c3a25ce8993a2613a2660ce3000ec3a2620ce34feb04e6b20ce3834088338e0ce23a2503a250e8963a2553a25a0ce2000e83a2560ce24feac4e6ae0ce2834048338a0ce13a2443a244e8933a2493a24e0ce1000e43a24a0ce14fea84e6aa0ce183400833860ce03a2383a238e8903a23d3a2420ce0000e03a23e0ce04fea44e6a60ce0833fc833820cdf3a22c3a22ce88d3a2313a2360cdf000dc3a2320cdf4fea04e6a20cdf833f88337e0cde3a220)
  (.lf 0)) (.nd (.lf
  0x44d1006d501a5444d1406d601a580ae8d99115229c01a599911664c06644599100ae780ae782ba00ae7d0ae819910522980ae7d99105829801a559910664bc66441990f0ae6c0ae6c2b9d0ae710ae71990f582940ae75990f522946643d990e0ae600ae602b9a0ae650ae65990e5829044b0806b301a4c5421006d344c0844c09132244d0944d0806d301a4c0ae69990e5229001a4d990e664b466439990d0ae5441b50069201a1c44b0406b201a485420c06d244c0444c05132144d0544d0406d201a4801a49990d664b00ae542b970ae590ae5d990d5228c0ae59990d5828c66435990c0ae480ae482b940ae4d0ae4d990c5828841b4c069101a1844b0006b101a445420806d144c0044c01132044d0144d0006d101a4401a45990c664ac0ae51990c5228866431990b0ae3c0ae3c2b910ae410ae41990b582840ae45990b5228441b48069001a1444afc06b001a405420406d044bfc44bfd131f44cfd44cfc06d001a4001a41990b664a86642d990a0ae3041b40068e01a0c41b44068f01a1044af406ae01a3844af806af01a3c541fc06ce44bf45420006cf44bf844bf5131d44cf544bf9131e44cf944cf406ce01a3844cf806cf01a3c01a3d990a664a4)
  (.lf 0))) (.nd (.nd (.lf
  0x37304dcc3373093730e04d14b0603730a04d14f8e03704a04564c8e48115a04553703437034dc0f370393703a04554e0e04ace20455811d0811d132384e0e04e0e204d1813c08134604d0372f8372f8dcc0372fd3730204d04b05c372fe04d04f8dc3703e04554c8e08115604543702837028dc0c3702d3702e04544e0dc4acde0454811cc811cd32374e0dc4e0de04d0813bc8134204cf372ec372ecdcbd372f1372f604cf4b058372f204cf4f8d83703204544c8dc8115204533701c3701cdc09370213702204534e0d84acda0453811c8811c932364e0d84e0da04cf813b88133e04ce372e0372e0dcba372e5372ea04ce4b054372e604ce4f8d43702604534c8d88114e04523701037010dc06370153701604524e0d44acd60452811c4811c532354e0d44e0d604ce813b48133a04cd372d4372d4dcb7372d9372de04cd4b050372da04cd4f8d03701a04524c8d48114a04513700437004dc03370093700a04514e0d04acd20451811c0811c132344e0d04e0d204cd813b08133604cc372c8372c8dcb4372cd372d204cc4b04c372ce04cc4f8cc3700e04514c8d081146045036ff836ff8dc0036ffd36ffe04504e0cc737cc0ca24accc4acce0450811bc)
  (.lf 0)) (.nd (.lf
  0x8868221c0886d08871928457c100886d928400ecc64a1192830885c0885c2219088615fa9805303d9fc5faa005323da043da0404f23da856c0f804f249e0c3d9840512013c8013c9928364a8808861928300ec808865928357c0c64a0d928208850088502216088555fa9c05313da003da0004f13da813b85404f1013b03d9800511013c46c0f404f149e08013c5928264a8408859928257c0808855928200ec464a099281088440884422130884908849928100ec06c0f004f049e043b85004f0013ac3d97c0510013c03d9fc04f03da7d013c1928164a800884d928157c0464a059280088380883822100883d08841928057c005fa94052f3d9f86c0ec04ef49e003b84c04ef013a83d978050f013bc3d9f804ef3da79013bd928064a7c0883d928000ebc64a01927f0882c0882c220d0883108831927f00eb85fa90052e3d9f46c0e804ee49dfc3b84804ee013a43d974050e013b83d9f404ee3da75013b9927f64a7808835927f57bfc649fd927e0882008820220a0882508825927e00eb408829927e57bf8649f9927d088140881422070881908819927d00eb05b9d5b1246c50c6c491b12313ef413ef44fbf13ef913ef9b12349ebc5b9d1b1236c508)
  (.lf 0)))

def shaGateTree444 : BTree :=
  .nd (.nd (.nd (.lf
  0x5d3f1e5a779718797180fa60039812129acde536e06b379acdd121141211448471211912119acdd596dc04599acdd6b3f06b3f14db7596dc11fbdaca00479c6b281ac9f11fac11fac47ed11fb111fb5ac9f596dc03e99ac9f6b2f86b2f965b704798596dcb3cb2cf6c2cf6c00005b5f25b5f1e9777a6587a659757c5f5f05f5f1e9f37a8487a7cde9f22d29c2d29cb4a92d2a12d2a5e9f2615ec2d2a1e9f2635ec2cfe1e9775d5f07a5dde9762cfcc2cfccb3f52cfd12cfd1e9765f5ec2ce3400002cf2e2cf2cb38a2ce242ce24b38a596d95d3ede5a679714797140fa5003942b511e5a7003987969de5a62b5002b500ad422b5052b509e5a603e9403e95ac9e6b2f46b2f565b6047941211dacdd536dc6b375acdc121081210848441210d1210dacdc596d804595acdc6b3ec6b3ed4db6596d811fb1ac9f047986b27dac9e11fa011fa047ea11fa511fa9ac9e596d8596d8b38a5b5ec5b5ede9767a6547a655757b5f5ec5f5ede9f27a8447a7c9e9f12d2902d290b4a62d2952d299e9f1615e82d295e9f1635e82cfd5e9765d5ec7a5d9e9752cfc02cfc0b3f22cfc52cfc5e9755f5e82ce28b3ca2ce182ce18b3882ce1d2ce1cb3ca5b5e82b505e5a600394)
  (.lf 0)) (.nd (.lf
  0x5666407be41fdc72225519a566685666807bf41fe07224551a2566885668807a7420007224951a35668c5668c07a8420047227151ad566b4566b407b24202c7227551ae566b8566b807b3420304200007be01ecc4200407bf01ed04202c07a901ef84203007aa01efc458b407de01ef8458b807df01efc7227951af566bc546bc07fe459b47227d51b0566c0546c007ff459b8459b5168d45ab5459b9168e45ab945ab407fe01ef845ab807ff01efc01efd9d7667654675d99d750c8340c834320f0c8390c8399d755873c0c83d9d755273c01ef99d7567650675d59d740c8280c828320c0c82d7221d5198566605666007bd41fd87224151a1566845668407a641ffc7226d51ac566b0566b007b14202841ffc07bd01ec84202807a801ef4458b007dd01ef4546b807fd459b0459b1168c45ab145ab007fd01ef40c82d9d745873801ef59d746764c0c8319d7452738675d19d730c81c0c81c32090c8210c8259d73527345665007b941fc85665407ba41fcc722155196566585665807bb41fd07221951975665c5665c07bc41fd472231519d566745667407a241fec72235519e566785667807a341ff072239519f5667c5667c07a441ff47223d51a056680)
  (.lf 0))) (.nd (.nd (.lf
  0x4b3260d1e834f4834f533c94e7244e7260d9a836e48366a0d993a6643a664e99b3a6693a66e0d990015c3a66a0d994ff203a3aa0d1e4cf248347a0d1d3a3943a394e8e73a3993a39a0d1d4e7203618e01bc50f24806f201bb3617c3617cd861361813618601bb4b3204c72201bb80768807692cc850f200f4f5a52f52f24694bda52e0f4e002edda52e695340f4e03d3a0f4e50f4e5a52e58f20695354bc858f202608dd9dc038e076771d9db260782607898202607d2607dd9db4b32025f21d99e5ee3876679d99d25f1025f1097c625f1525f19d99d5ce3425d40000025db225db0976b25d2c25d2c974d25d3125d30976b5ae7058f20976b25df425df400005ae725ae71d99d766f0766f1738d5ee345ce35d9db767e8767e80e374b3204b3220d1d834f0834f133c84e7204e7220d99836e0836660d983a6583a658e9983a65d3a6620d98001583a65e0d984ff1c3a39e0d1d4cf20834760d1c3a3883a388e8e43a38d3a38e0d1c4e71c3618201bb50f20806ee01ba3617036170d85e361753617a01ba4b31c4c71e01ba80764807652cc750f1c0f4e9a52e52f20694b9a52d0f4d40f4d43d370f4d902ed9a52d695300f4d9a52d58f1c695314bc758f1c)
  (.lf 0)) (.nd (.lf
  0x4a391f6937dac86ecbc06544a3944a395f6947dacc320b1f6944bf94320adf6944d7947da51f6933209c3209cc829320a1320a5f6934bf90320a1f6934d7907da4df6923209032090c8263209532099f6924bf8c32095f6924d78c6ecb406524a38c4a38df6927dac47da49f6913208432084c823320893208df6914bf884a385f6907dabc32089f6914d7884a389f6917dac07da45f6903207832078c8203207d3207df6904d78432081f6904bf847da41f68f3206c3206cc81d3207132075f68f4bf8032071f68f4d7806eca8064f4a3804a381f68f7dab87da3df68e3206032060c81a3206532069f68e4bf7c32065f68e4d77c4a37df68e7dab47da39f68d3205432054c817320593205df68d4bf784a379f68d7dab032059f68d4d7787da35f68c3204832048c8143204d32051f68c4bf743204df68c4d7746ec9c064c4a3744a375f68c7daac7da31f68b3203c3203cc8113204132041f68b4d77032045f68b4bf707da2df68a3203032030c80e3203532039f68a4bf6c1824800006eace6eacc608f1823818238608f57f6909d1d961d51f6c65875961c09d0809d08274409d0d09d0d961c57f683bc3405c901710441e004290102453ee80449442e0)
  (.lf 0)))

def shaGateTree445 : BTree :=
  .nd (.nd (.nd (.lf
  0x778c9de3127ed827ed89fb827edd27ee1de315514c27eddde315714c5314dde3177940778c5de3027ecc27ecc9fb527ed127ed5de305514827ed1de305714853149de307793c53145545157144778c1545157145571440c7642abc7793d545257148571480c7742ac07794154535714c5714c0c7842ac477945545457150571500c7942ac877949545557154571540c7a42acc7794d545657158571580c7b42ad07795154575715c5715c0c7c42ad477955545857160571600c7d42ad877959545957164571640c7e42adc7795d545a57168571680c7f42ae077961545b5716c5716c0c6042ae477965545c57170571700c6142ae877969545d57174571740c6242aec7796d545e57178571780c6342af077971545f5717c5717c0c6442af477975546057180571800c6542af877979546157184571840c6642afc7797d546257188571880c6742b007798154635718c5718c0c6842b0477985546457190571900c6942b0877989546557194571940c6a42b0c7798d546657198571980c6b42b107799154675719c5719c0c6c42b14779955468571a0571a00c6d42b18779995469571a4571a40c6e42b1c7799d546a571a8571a80c6f42b20779a1546b571ac)
  (.lf 0)) (.nd (.lf
  0x50af52ba0053007f0012bbe50af850af92ba1053047f0052bbf50afc50afd2ba2053087f0092bc050b0050b012ba30530c7f00d2bc150b0450b052ba4053107f0112bc250b0850b092ba5053147f0152bc350b0c50b0d2ba6053187f0192bc450b1050b112ba70531c7f01d2bc550b1450b152ba8053207f0212bc650b1850b192ba9053247f0252bc750b1c50b1d2baa053287f0292bc850b2050b212bab0532c7f02d2bc950b2450b252bac053307f0312bca50b2850b292bad053347f0352bcb50b2c50b2d2bae053387f0392bcc50b3050b312baf0533c7f03d2bcd50b3450b352bb005340052d12ba34ae60052d52ba44ae64052d92ba54ae68052dd2ba64ae6c052e12ba74ae70052e52ba84ae74052e92ba94ae78052ed2baa4ae7c052f12bab4ae80052f52bac4ae84052f92bad4ae88052fd2bae4ae8c053012baf4ae90053052bb04ae94053092b914ae980530d2b924ae9c053112b934aea0053152b944aea4053192b954aea80531d2b964aeac053212b974aeb0053252b984aeb4053292b994aeb80532d2b9a4aebc053312b9b4aec0053352b9c4ae44053392b9d4ae480533d2b9e4ae4c053412b9f4ae507f0412bce50b3850b392ba04ae54)
  (.lf 0))) (.nd (.nd (.lf
  0x37da606934caa081a4e069237d9037d90df6637d9537d9606924e29c4ae9e069281ac481ac532a74e29c4e29e070e81cb481c3a070d3805438054e017380593805e070d4b2183805a070d4fa9837d9a06924ca9c81a4a069137d8437d84df6337d8937d8a06914e2984ae9a069181ac081ac132a64e2984e29a070d81cb081c36070c3804838048e0143804d38052070c4b2143804e070c4fa9437d8e06914ca9881a46069037d7837d78df6037d7d37d7e06904e2944ae96069081abc81abd32a54e2944e296070c81cac81c32070b3803c3803ce0113804138046070b4b21038042070b4fa9037d8206904ca9481a42068f37d6c37d6cdf5d37d7137d72068f4e2904ae92068f81ab881ab932a44e2904e292070b81ca881c2e070a3803038030e00e380353803a070a4b20c38036070a4fa8c37d76068f4ca9081a3e068e37d6037d60df5a37d6537d66068e4e28c4ae8e068e81ab481ab532a34e28c4e28e070a81ca481c2a07093802438024e00b380293802e07094b2083802a07094fa8837d6a068e4ca8c81a3a068d37d5437d54df5737d5937d5a068d4e2884ae8a068d81ab081ab132a24e2884e28a070981ca081c2607083801838018e0083801d)
  (.lf 0)) (.nd (.lf
  0x6d755b5d4160041600458031600916009b5d45dc0c1600db5d45bc0c59ccdb5d46d7cc6d751b5d315ff815ff8580015ffd16001b5d35bc0859cc9b5d36d7c815ffdb5d35dc086d74db5d215fec15fec57fd15ff115ff5b5d25bc0415ff1b5d25dc046d749b5d115fe015f44000059cb659cb5b5ce6d7b459cc1b5d16d7c015fe057fa15fe515f48000059cbe59cbdb5d06d7bc15fe9b5d15bc0015fe5b5d15dc006d745b5d015fd415fd457f715fd915fddb5d05bbfc15fd9b5d05dbfc6d741b5cf15fc815fc857f415fcd15fcdb5cf5dbf859cb9b5cf6d7b815fd1b5cf5bbf86d73db5ce15fbc15fbc57f115fc115fc1b5ce5dbf415fc5b5ce5bbf46d739b5cd15fb015fb057ee15fb515fb5b5cd5dbf06d7e56f095dc2415d2db59a55d0851d09b59a6d6e46d669b59915d1c6d7f96f0e5dc3815d1c574915d2115d25b59953d0415d21b59955d0451d05b5996d6e06d665b59815d1015d10574615d1515d19b59853d0015d15b59855d0051d01b5986d6dc6d661b59715d0415d04574315d0915d09b59755cfc15d0db59753cfc51cfdb5976d6d86d65db59615cf815cf8574015cfd15cfdb59655cf815d01b59653cf851cf9b5966d6d46d659b59515cec)
  (.lf 0)))

def shaGateTree446 : BTree :=
  .nd (.nd (.nd (.lf
  0x1136444db1136911369aa795947c04339aa796aa606aa614d1f5947c1120daa3c0453c6a8f1aa3b111fc111fc44811120111205aa3b5947c03c39aa3b6a9686a969651f045385947de4652ac482ac4800005b3a65b3a5e479792607926174e45f3905f391e4f579450793d5e4f42afc02afc0abf22afc52afc9e4f46138c2afc5e4f46338c2ad05e4795d390791e5e4782acf02acf0ab3e2acf52acf5e4785f38c2aba000007919679194aae52ab902ab90aae5594795d18de0b87835c7835c0f0d0013429221e0b900138782e5e0b82921029210a4862921529219e0b803c3403c35aa3a6a9646a965651e045341136daa795347c6a9e5aa78113581135844d81135d1135daa785947804335aa786aa5c6aa5d4d1e5947811201aa3b045386a8edaa3a111f0111f0447e111f5111f9aa3a5947859478aae55b3a05b3a1e4787925c7925d74e35f38c5f38de4f47944c793d1e4f32afb42afb4abef2afb92afbde4f3613882afb9e4f3633882acf9e4785d38c791e1e4772ace42ace4ab3b2ace92ace9e4775f3882ab95e4642ab842ab84aae32ab892ab89e4645b39c29215e0b800134782e1e0b72920429204a483292092920de0b703c305d189e0b778358)
  (.lf 0)) (.nd (.lf
  0x4dc41fda57f7107f695fda4349e8349e8d27c349ed349f1fda44abbc349edfda44f43c4dc3dfda47f70c7f691fda3349dc349dcd279349e1349e5fda34abb8349e1fda34f4384dc39fda37f7087f68dfda2349d0349d0d276349d5349d9fda24abb4349d5fda24f4344dc35fda27f7047f689fda1349c4349c4d273349c9349cdfda14abb0349c9fda14f4304dc31fda17f7007f685fda0349b8349b8d270349bd349c1fda04abac349bdfda04f42c4dc2dfda07f6fc7f681fd9f349ac349acd26d349b1349b5fd9f4aba8349b1fd9f4f4284dc29fd9f7f6f87f67dfd9e349a0349a0d26a349a5349a9fd9e4aba4349a5fd9e4f4244dc25fd9e7f6f47f679fd9d3499434994d267349993499dfd9d4aba034999fd9d4f4204dc21fd9d7f6f07f675fd9c3498834988d2643498d34991fd9c4ab9c3498dfd9c4f41c4dc1dfd9c7f6ec7f671fd9b3497c3497cd2613498134985fd9b4ab9834981fd9b4f4184dc19fd9b7f6e87f66dfd9a3497034970d25e3497534979fd9a4ab9434975fd9a4f4144dc15fd9a7f6e47f669fd993496434964d25b349693496dfd994ab9034969fd994f4104dc11fd997f6e07f665fd983495834958d2583495d34961fd984ab8c)
  (.lf 0))) (.nd (.nd (.lf
  0x68a3d631402e0c23c3dd4c40361075311d4c323c2823c288f0c23c2d23c2dd4c34b05023ad1d4865eb6875219d48523ac023ac08eb223ac523ac9d4855cb6423971d47623960239608e5a2396523965d4765abb458c51d47623a7423a7400005abb65abb5d485752907529172d95eb645cb65d4c375388753880d834b0504b0520967826188261933144e4504e45209e3828088278e09e23905039050e416390553905a09e24b3cc3905609e24fc4c38d9609674cc508259e096638d8038d80e36238d8538d8609664e44c0e47da27002e0c689c1a26f0e46c0e46c391d0e4710e475a26f58c4c23c31d4c30360c7530dd4c223c1c23c1c8f0923c2123c21d4c24b04c23ac5d4855eb6475215d48423ab423ab48eaf23ab923abdd4845cb60239680000751da751d9d47523954239548e572395923959d4755abb058c4dd47523a7023a7000005abb25abb1d4847528c7528d72d85eb605cb61d4c275384753840d824b04c4b04e0966826148261533134e44c4e44e09e2828048278a09e13904439044e413390493904e09e14b3c83904a09e14fc4838d8a09664cc4c8259a096538d7438d74e35f38d7938d7a09654e4480e471a26f02e08689bda26e0e460)
  (.lf 0)) (.nd (.lf
  0x7d0292a6650598505992a4904e287d02d2a675059c5059d2a4a04e2c7d0312a68505a0505a12a4b04e307d0352a69505a4505a52a4c04e347d0392a6a505a8505a92a4d04e387d03d2a6b505ac505ad2a4e04e3c7d0412a6c505b0505b12a4f04e407d0452a6d505b4505b52a5004e4404dd52a434a8e004dd92a444a8e404ddd2a454a8e804de12a464a8ec04de52a474a8f004de92a484a8f404ded2a494a8f804df12a4a4a8fc04df52a4b4a90004df92a4c4a90404dfd2a4d4a90804e012a4e4a90c04e052a4f4a91004e092a504a91404e0d2a314a91804e112a324a91c04e152a334a92004e192a344a92404e1d2a354a92804e212a364a92c04e252a374a93004e292a384a93404e2d2a394a93804e312a3a4a93c04e352a3b4a94004e392a3c4a8c404e3d2a3d4a8c804e412a3e4a8cc04e452a3f4a8d07d0492a6e505b8505b92a404a8d47d04d2a6f505bc505bd2a414a8d87d0512a70505c0505c12a424a8dc5dcbdb7546ddcc6ddcd7f2f61cbc5dcd5b75a6dde46dd69b75916b0416b045ac316b0916b09b75961cd05dccdb7586dddc16b0db7595fcd05dcd1b7596dde06dd65b75816af816af85ac016afd16b01b7585fccc16afdb75861ccc)
  (.lf 0)))

def shaGateTree447 : BTree :=
  .nd (.nd (.nd (.lf
  0x4e57e0b6282e0482e052d3f4fd7c37202049b511008126e049a371f0371f0dc7e371f5371fa049a4b4fc4c8fe049a812e4812e52d3f510fc69bd9643f041b827cadddc203abc77709ddc127c9827c989f2827c9d27c9dddc14b4fc27b41dd845f01477611dd8327b3027b309ece27b3527b39dd835d010279bddd6c279ac279ac9e6d279b1279b1dd6c5b03c590fddd6c27a6c27a6c00005b03e5b03ddd83776887768974045f0105d011ddc177780777800eae4b4fc4b4fe0ffc8406c8406d343f4e8fc4d0fe103a84164840ea10393b5643b564ed5b3b5693b56e1039007b43b56a1039518f83b40e0ffc4e8fc83ff20ffb3b3fc3b3fced013b4013b4060ffb4d0f8399560b624fd7c82d8a0b613994439944e653399493994e0b614b4f83968a0ae64cd7c82b9a0ae53967439674e59f396793967a0ae54e5784b17a0ae582c1082c11335e4e5784e57a0b6182e0082e012d3e4fd78371f6049a510fc8126a0499371e4371e4dc7b371e9371ee04994b4f84c8fa0499812e0812e12d3e510f869ccd4c3e590f869bd5643e041b427ca1ddc103ab877705ddc027c8c27c8c9f2527c9127c91ddc04b4f827b35dd835f0107760ddd8227b2427b249ecb27b29)
  (.lf 0)) (.nd (.lf
  0xa75829d80a75d0a76197d8581905819067be19f2019f2000005a13a19ec067ae19eb419eb467ae581a965ff5606a01b64581a867ae5a15019eb867ac19eac19eac67ac581a565ff1606901b60581a467ac5a14c19eb067aa19ea419ea467aa581a165fed606801b5c581a067aa5a14819ea867c019e9819e9867a819e9d19e9c67c05a14465fe9606701b585819c67c019f2819ea0000019f0219f0067bf19e8c19e8c67a519e9119e94000019efe65fe5606601b545819867bf19f2465fe1606501b5019e9067bf5a14019efc67a219e8419e8467a2581955819467a25a13c19e8867be19e7819e7867a019e7d19e7c67be5a1385a139bebf6fb786fb7970295e0a45a169becb6fba86fb2dbeca1a08c1a08c68251a0915a165beca6fba41a095beca5c0d01a091beca5e0d06fb29bec91a0801a08068221a0851a089bec95c0cc1a085bec95e0cc5a161bec96fba019f2c00005a15e5a15dbec86fb9c6fb25bec81a0741a074681f1a0791a07dbec85c0c81a079bec85e0c86fb21bec71a0681a068681c1a06d1a071bec75c0c41a06dbec75e0c45a159bec76fb986fb1dbec61a05c1a05c68191a0611a065bec65c0c01a061bec65e0c05a155bec66fb94)
  (.lf 0))) (.nd (.nd (.lf
  0x5893482225a8a45a8a5cdb07373c7373d72125e84820a21cdb05e8485e849ce2c7392c738b1ce2b20ce020ce0833a20ce520ce9ce2b6084420ce5ce2b6284420a25cdb05c848736c1cdaf20a1020a10828620a1520a15cdaf5e8442088882202087c2087c82205893167d0d624c02aec5893082205a8a05a8a1cdaf737387373972115e8445e845ce2b73928738adce2a20cd420cd4833720cd920cddce2a6084020cd9ce2a6284020881cd922087020870821e2087520875cd925a89c67d09624b02ae85892dcd92208d0208d000005a89e5a89dcdae737347373572105e84020a19cdaf5c844736bdcdae20a0420a04828320a0920a09cdae5e8405e841ce2a73924738a9ce2920cc820cc8833420ccd20cd1ce296083c20ccdce296283c20a0dcdae5c840736b9cdad209f8209f88280209fd209fdcdad5e83c2087800007364a73649cd912086420864821b2086920869cd915a89867d05624a02ae458929cd91208cc208cc00005a89a5a899cdad7373073731720f5e83c5e83dce2973920738a5ce2820cbc20cbc833120cc120cc5ce286083820cc1ce286283820a01cdad5c83c2086c00007364673645cd90208582085882182085d2085dcd905a894)
  (.lf 0)) (.nd (.lf
  0x5d9d1b1616c60014061b161619d06c585b16014050140505016140556c4096e725d9c814059b1605f9cc6c40d6e735d9cc5d9c9b15f6c5f85d9cdb1606c5fc14055b160619cc6c581b15f140441404450131404914049b15f619c81404db15f5f9c86c57db15e140381403850101403d14041b15e5f9c41403db15e619c46c4056e715d9c45d9c5b15e6c5f46c579b15d1402c1402c500d1403114031b15d619c014035b15d5f9c06c4016e705d9c05d9c1b15d6c5f06c575b15c1402014020500a1402514025b15c619bc6c3fd6e6f5d9bc5d9bdb15c6c5ec14029b15c5f9bc6c571b15b140141401450071401959a95b0df6c3f81401db15b5f9b814019b15b619b86c3f96e6e5d9b813d49b0df5d9b85d9b9b15b6c5e86c56db15a140081400850041400d59a91b0de6c3f46c3f56e6d5d9b41400db15a619b414011b15a5f9b46c37db0de13d3813d384f5013d3d13d3db0de5d9b45d9b5b15a6c5e46c569b15913ffc13ffc50011400114001b159619b0071b18e9f008b813c20000059a8e59a7db0d96c3e013d41b0de5b9b46c379b0dd13d2c13d2c4f4d13d3159a8db0dd6c3f013d31b0dd5d9b013d35b0dd5b9b06c375b0dc13d2013d204f4a13d25)
  (.lf 0)))

def shaGateTree448 : BTree :=
  .nd (.nd (.nd (.lf
  0x5d835ed637b6087b58ded622eb502eb50bad62eb552eb59ed62008582eb55ed62007d85d831ed627b6047b589ed612eb442eb44bad32eb492eb4ded61008542eb49ed61007d45d82ded617b6007b585ed602eb382eb38bad02eb3d2eb41ed60008502eb3ded60007d05d829ed607b5fc7b581ed5f2eb2c2eb2cbacd2eb312eb35ed5f0084c2eb31ed5f007cc5d825ed5f7b5f87b57ded5e2eb202eb20baca2eb252eb29ed5e008482eb25ed5e007c85d821ed5e7b5f47b579ed5d2eb142eb14bac72eb192eb1ded5d008442eb19ed5d007c45d81ded5d7b5f07b575ed5c2eb082eb08bac42eb0d2eb11ed5c008402eb0ded5c007c05d819ed5c7b5ec7b571ed5b2eafc2eafcbac12eb012eb05ed5b0083c2eb01ed5b007bc5d815ed5b7b5e87b56ded5a2eaf02eaf0babe2eaf52eaf9ed5a008382eaf5ed5a007b85d811ed5a7b5e47b569ed592eae42eae4babb2eae92eaeded59008342eae9ed59007b45d80ded597b5e07b565ed582ead82ead8bab82eadd2eae1ed58008302eadded58007b05d809ed587b5dc7b561ed572eacc2eaccbab52ead12ead5ed570082c2ead1ed57007ac5d805ed577b5d87b55ded562eac02eac0bab22eac52eac9ed5600828)
  (.lf
  0x1355dafd75d8f813561afd75b8f8134c40000599d6599d5afd76bfd86bf5dafd61354c1354c4d551355113555afd65b8f413551afd65d8f46bf59afd513540135404d521354513545afd55d8f0599cdafd56bfd06bfd16e3c5d8f05d8f1b0516c1c06bffd6e475d91c6c0016e485d920138a5b05d61920138a9b05d5f9205d921b05d6c1f06c175b05c13894138944e271389913899b05c6191c5d91db05c6c1ec1389db05c5f91c6c171b05b13888138884e241388d6bff56e455d9145d915b05a6c1e41388db05b6191813891b05b5f9186c16db05a1387c1387c4e211388113885b05a5f91413881b05a619146c169b05913870138704e1e1387513879b0595f9106bff16e445d9105d911b0596c1e013875b059619106c165b05813864138644e1b1386913869b0586190c5d90db0586c1dc1386db0585f90c6c161b05713858138584e181385d1385db0576190813861b0575f9086bfe96e425d9085d909b0576c1d86c15db0561384c1384c4e151385113851b056619046bfd96e3e5d8f85d8f9b0536c1c86bfe56e415d9045d905b0566c1d413855b0565f9046c159b05513840138404e121384513849b0555f9006bfe16e405d90013845b05561900))
  (.nd (.lf
  0x67d599f550d2b4020b99f5567dd00d2b434af0d2b90d2b99f55588fc0d2bd9f55528fc67d559f540d2a80d2a834ac0d2ad0d2b19f54528f8020b59f5467dcc67dcd4a3e588f8528f9cd54735cc2072881cc2072d2072dcd5f569245e79dcd1a734e45e7a5cd1c734ec5e7b9cd21735005e7d1cd27735185e7c1cd23735085e7d5cd287351c734a1cd27206082060881842060d20611cd27607d02060dcd27627d07349dcd26205fc205fc81812060120601cd26627cc5e7cdcd267351420605cd26607cc73499cd25205f0205f0817e205f5205f5cd25627c8205f9cd25607c85e7c9cd257351073495cd24205e4205e4817b205e9205e9cd24627c4205edcd24607c45e7c5cd247350c73491cd23205d8205d88178205dd205ddcd23627c0205e1cd23607c07348dcd22205cc205cc8175205d1205d5cd22607bc205d1cd22627bc5e7bdcd227350473489cd21205c0205c08172205c5205c5cd21627b8205c9cd21607b873485cd20205b4205b4816f205b9205b9cd20627b45e7b5cd20734fc205bdcd20607b473481cd1f205a8205a8816c205ad205b1cd1f607b05e7b1cd1f734f8205adcd1f627b07347dcd1e2059c2059c8169205a1205a5cd1e607ac)
  (.lf 0))) (.nd (.nd (.lf
  0x777c40ebf4b5404b542100d840b0840b134504e9404d142104b841a88412e104a3b6303b630ed8e3b6353b63a104a007f83b636104a5193c84036100c3b4c83b4c8ed343b4cd3b4d2100c4d13c82dce0b7239a1039a10e68639a1539a1a0b724b53c82bde0af63974039740e5d239745397460af64e5bc4b1be0af682c5482c55336f4e5bc4e5be0b7282e4482e452d4f4fdbc812ae04aa372b0372b0dcae372b5372ba04aa4b53c4c93e04aa81324813252d4f5113c69c19644f041f877749ddd127d5827d589f5827d5d27d5dddd14b53c77651dd9327bf027bf09efe27bf527bf9dd935d050775d5dd7427a4c27a4c9e9527a5127a51dd745b07c5913ddd7427a8c27a8c00005b07e5b07ddd93776c8776c974145f0505d051ddd1777c0777c00ebe4b53c4b53e100c840ac840ad344f4e93c4d13e104a841a48412a10493b6243b624ed8b3b6293b62e1049007f43b62a1049519383b4ce100c4e93c84032100b3b4bc3b4bced313b4c13b4c6100b4d13839a160b724fdbc82dca0b7139a0439a04e68339a0939a0e0b714b5383974a0af64cdbc82bda0af53973439734e5cf397393973a0af54e5b84b1ba0af582c5082c51336e4e5b84e5ba0b7182e40)
  (.lf 0)) (.nd (.lf
  0x7e4852b475091c5091d2b2a051587e4892b4850920509212b2b0515c7e48d2b4950924509252b2c051607e4912b4a50928509292b2d051647e4952b4b5092c5092d2b2e051687e4992b4c50930509312b2f0516c7e49d2b4d50934509352b3005170051012b234ac60051052b244ac64051092b254ac680510d2b264ac6c051112b274ac70051152b284ac74051192b294ac780511d2b2a4ac7c051212b2b4ac80051252b2c4ac84051292b2d4ac880512d2b2e4ac8c051312b2f4ac90051352b304ac94051392b114ac980513d2b124ac9c051412b134aca0051452b144aca4051492b154aca80514d2b164acac051512b174acb0051552b184acb4051592b194acb80515d2b1a4acbc051612b1b4acc0051652b1c4ac44051692b1d4ac480516d2b1e4ac4c051712b1f4ac507e4a12b4e50938509392b204ac547e4a52b4f5093c5093d2b214ac587e4a92b5050940509412b224ac5c5210dbd886f69c52141bd956f6d06f655bd94196e4196e465bb196e9196edbd945413c196e9bd945613c5213dbd946f6cc6f651bd93196d8196d865b8196dd196e1bd9354138196ddbd935613852139bd936f6c86f64dbd92196cc196cc65b5196d1196d5bd9254134)
  (.lf 0)))

def shaGateTree449 : BTree :=
  .nd (.nd (.nd (.lf
  0x78d3554f5573d4573d410da42d4c78d3954f6573d8573d810db42d5078d3d54f7573dc573dc10dc42d5478d4154f8573e0573e010dd42d5878d4554f9573e4573e410de42d5c78d4954fa573e8573e810df42d6078d4d54fb573ec573ec10c042d6478d5154fc573f0573f010c142d6878d5554fd573f4573f410c242d6c78d5954fe573f8573f810c342d7078d5d54ff573fc573fc10c442d7478d615500574005740010c542d7878d655501574045740410c642d7c78d695502574085740810c742d8078d6d55035740c5740c10c842d8478d715504574105741010c942d8878d755505574145741410ca42d8c78d795506574185741810cb42d9078d7d55075741c5741c10cc42d9478d815508574205742010cd42d9878d855509574245742410ce42d9c78d89550a574285742810cf42da078d8d550b5742c5742c10d042da478d91550c574305743010d142da878d95550d574345743410d242dac78d99550e574385743810d342db078d9d550f5743c5743c10d442db478da15510574405744010d542db842d3c10cd0430842d4010ce0430c42d4410cf0431042d4810d00431442d4c10d10431842d5010d20431c42d5410d30432042d5810d404324)
  (.lf 0)) (.nd (.lf
  0x7150d80db6236c6236c093e3c1507151180dc6237062370093f3c1547153580e5623946239409283c1787153980e6623986239809293c17c7153d80e76239c6239c092a3c1807154180e8623a0623a0092b3c1847154580e9623a4623a4092c3c1887154980ea623a8623a8092d3c18c7154d80eb623ac623ac092e3c1907155180ec623b0623b0092f3c1947155580ed623b4623b409303c1987155980ee623b8623b809313c19c7155d80ef623bc623bc09323c1a03c178093a024d43c17c093b024d83c180093c024dc3c184093d024e03c188093e024e43c18c093f024e83c1900920024ec3c1940921024f03c1980922024f43c19c0923024f83c1a00924024fc3ebb0095d024f47156d80f3623cc603cc097d3ec303ec30093d3ecb1024f59b4666d943ebb8095f024fc7157580f5623d4603d4097f3ec383ec38093f3ecb9024fd9b4866d9c66d219b470bb8c0bb8c2ee50bb913ebb4095e024f87157180f4623d0603d0097e3ec343ec34093e3ecb5024f99b4766d980bb919b4701ef80bb959b475853c66d1d9b460bb800bb802ee20bb850bb859b4601ef40bb899b46585383eba8095b024ec3ebac095c024f07156580f1623c4603c4097b3ec28)
  (.lf 0))) (.nd (.nd (.lf
  0x827ee09fa3917039170e45e391753917a09fa4b42c3917609fa4fcac38eb6097f4ccb0825fe097e38ea038ea0e3aa38ea538ea6097e4e4ac68a99632b02e6823d51d4db0366c7536dd4da23d3c23d3c8f5123d4123d41d4da4b0ac23be5d49d5ebc475275d49c23bd423bd48ef723bd923bddd49c5cbc023a50000075202752008e9123a4023a408e9158cad58cac8e915ac105ac11d49c752ec752ed72f05ebc05cbc1d4da753e4753e40d9a4b0ac4b0ae097e8267482675332b4e4ac4e4ae09fa82864827ea09f93916439164e45b391693916e09f94b4283916a09f94fca838eaa097e4ccac825fa097d38e9438e94e3a738e9938e9a097d4e4a803465a28668a9468a95632a02e6423d45d4da0366875369d4d923d3023d308f4e23d3523d35d4d94b0a823bd9d49c5ebc075271d49b23bc823bc88ef423bcd23bd1d49b5cbbc23a448e8f23a3823a388e8f58ca958ca88e8f5ac0c5ac0dd49b752e8752e972ef5ebbc5cbbdd4d9753e0753e00d994b0a84b0aa097d8267082671332a4e4a84e4aa09f982860827e609f83915839158e4583915d3916209f84b4243915e09f84fca438e9e097d4cca8825f6097c38e8838e88e3a438e8d38e8e097c4e4a4)
  (.lf 0)) (.nd (.lf
  0x6dc41b70f1690c6dbc16f285dca01690c5a451691116915b70f0174816911b70f4a18c5bca1b70f6dcb86dc3db70e16900169005a42169056dbbd6f275dc9c5bc9db70e6dcb46dbb56f255dc945bc95b70c6dcac16909b70e0174416905b70e4a1886dc39b70d168f46dbb96f265dc985bc99b70d6dcb0168f45a3f168f9168fdb70d01740168f9b70d4a1846dc35b70c168e8168e85a3c168ed168edb70c4a180168f1b70c0173c6dc31b70b168dc168dc5a39168e16dbb16f245dc90168e5b70b01738168e1b70b4a17c5bc91b70b6dca86dc2db70a168d0168d05a36168d5168d5b70a4a1786dbad6f235dc8c5bc8db70a6dca4168d9b70a017346dc29b709168c4168c45a33168c9168c9b7094a1744d4c1f2bf7cb787cafdf2be30aa030aa0c2aa30aa530aa5f2be4ecbc30aa9f2be4a43c4d4bdf2be7cb747caf9f2bd30a9430a94c2a730a9930a9df2bd4a4384d46df2aa7cb244d47df2ae7cb344d4b9f2bd7cb7030a99f2bd4ecb87caf5f2bc30a8830a88c2a430a8d30a8df2bc4ecb430a91f2bc4a4344d4b5f2bc7cb6c7caf1f2bb30a7c30a7cc2a130a8130a81f2bb4ecb030a85f2bb4a4304d4b1f2bb7cb687caedf2ba30a7030a70c29e30a75)
  (.lf 0)))

def shaGateTree450 : BTree :=
  .nd (.nd (.nd (.lf
  0x797740fbd003f41223dacf55373c6b3d5acf41222812228488c1222d1222dacf459738045f5acf46b44c6b44d4dce59738120d1acb7047f86b2ddacb6120c0120c04832120c5120c9acb65973803ef5acb66b3546b35565ce047f459738b3d62cf982cf9800005b64e5b64de98e7a6b47a6b575935f64c5f64dea0a7a8a47a829ea092d3b02d3b0b4ee2d3b52d3b9ea09616482d3b5ea09636482d0f5e98e5d64c7a639e98d2d0e02d0e0b43a2d0e52d0e5e98d5f6482cf1800002cf5a2cf58b3d52cf042cf04b3c32cf092cf08b3d55b6482b625e5be003f4796f9e5bd2b6142b614ad872b6192b61de5bd03ef05d449e5bd79770797700fbc003f012231acf4537386b3d1acf31221c1221c48891222112221acf359734045f1acf36b4486b4494dcd59734120c5acb6047f46b2d9acb5120b4120b4482f120b9120bdacb55973403ef1acb56b3506b35165cd047f059734b3d52cf942cf9400005b64a5b649e98d7a6b07a6b175925f6485f649ea097a8a07a825ea082d3a42d3a4b4eb2d3a92d3adea08616442d3a9ea08636442d0e9e98d5d6487a635e98c2d0d42d0d4b4372d0d92d0d9e98c5f6442cf0c00002cf562cf54b3d42cef82cef8b3c02cefd)
  (.lf 0)) (.nd (.lf
  0x35cba00f550e7035b5e00b84de74802e200b735b4c35b4cd6d535b5135b5600b74c6704aa7200b78035880359319c4de704c67200f580450803d600f435ca835ca8d72c35cad35cb200f44b26c35cae00f450e6c35b5200b74de70802de00b635b4035b40d6d235b4535b4a00b64c66c4aa6e00b68035480355319b4de6c4c66e00f48044c803d200f335c9c35c9cd72935ca135ca600f34b26835ca200f350e6835b4600b64de6c802da00b535b3435b34d6cf35b3935b3e00b54c6684aa6a00b58035080351319a4de684c66a00f380448803ce00f235c9035c90d72635c9535c9a00f24b26435c9600f250e6435b3a00b54de68802d600b435b2835b28d6cc35b2d35b3200b44c6644aa6600b48034c8034d31994de644c66600f280444803ca00f135c8435c84d72335c8935c8e00f14b26035c8a00f150e6035b2e00b44de64802d200b335b1c35b1cd6c935b2135b2600b34c6604aa6200b3803488034931984de604c66200f180440803c600f035c7835c78d72035c7d35c8200f04b25c35c7e00f050e5c35b2200b34de60802ce00b235b1035b10d6c635b1535b1a00b24c65c4aa5e00b2803448034531974de5c4c65e00f08043c803c200ef35c6c)
  (.lf 0))) (.nd (.nd (.lf
  0x3ffe40daa40065036a9a4e3694080f2e5a4e358eec6938da4e20f2d00f2d03cb60f2d50f2d9a4e258ee83ff600dc9036a460d7c0de93ffe03ffe00da940061036a5a4e2694040f2d5a4e2030a469389a4e10f2c40f2c43cb30f2c90f2c9a4e1030a03ff5c0dc8036a060d780de83ffdc3ffdc0da84005d036a1a4e1694000f2cda4e158ee469385a4e00f2b80f2b83cb00f2bd0f2c1a4e058ee03ff580dc70369c60d740de73ffd83ffd80da7400590369da4e0693fc0f2bda4e00309c69381a4df0f2ac0f2ac3cad0f2b10f2b1a4df030983ff540dc60369860d700de63ffd43ffd40da64005503699a4df693f80f2b5a4df58edc6937da4de0f2a00f2a03caa0f2a50f2a9a4de58ed83ff500dc50369460d6c0de53ffd03ffd00da54005103695a4de693f40f2a5a4de0309469379a4dd0f2940f2943ca70f2990f299a4dd030903ff4c0dc40369060d680de43ffcc3ffcc0da44004d03691a4dd693f00f29da4dd58ed469375a4dc0f2880f2883ca40f28d0f291a4dc58ed03ff480dc30368c60d640de33ffc83ffc80da3400490368da4dc693ec0f28da4dc0308c69371a4db0f27c0f27c3ca10f2810f285a4db58ecc0f281a4db030883ff440dc203688)
  (.lf 0)) (.nd (.lf
  0x3e10c05d43e18d09c3595ea01254657a995e909c2409c24270b09c2909c2d95e957f940175195e965820182ac00006eae2658215fe50125057f95bab818338182a9bab859f646eae060a81829c1829c60a857f9161df805c13bbdc61e4005d33bc243bbdc05d3017383e08805f30174c5fe2406133e1083e10805d33e1890174d95e86581c6581d5fe40124c418540413010204420804330104c53f100453443084430910e2444094440804530104c0104d9626659146591547e457f9009d95962751f9409c2995e901250657a595e809c1809c18270809c1d09c2195e857f906589d962609d8009d80276209d8509d85962657f9057f9060a859f60182a060a6182941829460a657f8d5fe2006123e1043e10405d23e1856e9617f7d61df461df405c03bbd83bbd805d2017343e08405f2017480174995e765818658195fe30124809d89962651f904185004120101c4420404320104853f0c0452443044430510e14440544404045201048010499625659106591147e357f8c09c1d95e80124c657a195e709c0c09c0c270509c1109c1595e757f8c65899962509d7409d74275f09d7909d79962557f8c57f8c60a659f5c1829860a41828c1828c60a457f89)
  (.lf 0)))

def shaGateTree451 : BTree :=
  .nd (.nd (.nd (.lf
  0x591b4a04d5b0ec5b0edde9977ae077ae174325f0c85f0c9df1577cd077c55df142859428594a167285992859ddf14610c428599df14630c4282d9de995d0c877a65de98282c4282c4a0b3282c9282c9de985f0c428134a04b2812828128a04b591b1591b0a04b5b0e85b0e9de9877adc77add74315f0c45f0c5df1477ccc77c51df132858828588a1642858d28591df13610c02858ddf13630c0282cdde985d0c477a61de97282b8282b8a0b0282bd282bdde975f0c02812ca0492812028120a049591ad591aca0495b0e45b0e5de9777ad877ad974305f0c05f0c1df1377cc877c4ddf122857c2857ca1612858128585df12610bc28581df12630bc282c1de975d0c077a5dde96282ac282aca0ad282b1282b1de965f0bc28124a0472811828118a047591a9591a8a0475b0e05b0e1de9677ad477ad5742f5f0bc5f0bddf1277cc477c49df112857028570a15e2857528579df11610b828575df11630b869ee94c69591a4282b5de965d0bc77a59de95282a0282a0a0aa282a5282a5de955f0b82811dde7b2810c2810ca0452811128111de7b5b0dc591a5de7b281802818000005b0de5b0ddde9577ad077ad1742e5f0b85f0b9df1177cc077c45df1028564)
  (.lf 0)) (.nd (.lf
  0x6668d48be582f86669148bf582fc1b3280000706d2706d1c1b31b3141b3146cc71b3191b319c1b35a29c6659960bf01cb8582fdc1b31b3cc1b3cc00005a29e5a29dc1c9707a070725c1c81b4801b4806d221b4851b489c1c85c20c1b485c1c85e20c1b31c0000706ce706cdc1b21b3081b3086cc41b30d1b30dc1b25a2986659560be01cb4582f9c1b21b3c81b3c800005a29a5a299c1c87079c70721c1c71b4741b4746d1f1b4791b3100000706ca706c86cc11b3001b3006cc1582f56659160bd01cb0582f46cc15a2945a295c1c7707981b479c1c75e2081b47dc1c75c2087071dc1c61b4681b4686d1c1b46d6668548bc582f01b305c1b11b2f41b2f46cbf1b2f91b2f9c1b15a2906658d60bc01cac582f1c1b11b3c41b3c400005a2925a291c1c6707941b471c1c65c2041b46dc1c65e20470719c1c51b45c1b45c6d191b4616656960b301c88707d570915e244707dd70935e24c1b6b9c2174a73c707bd708b5e22c5c22dc20e708b4707e170945e2505c251c217708d87085dc2161b6a81b6a86dac1b6ad1b6adc2164a7381b6b1c216024f45c24dc216708d470859c2151b69c1b69c6da91b6a11b6a5c215024f0707d170905e2405c245c214708cc)
  (.lf 0))) (.nd (.nd (.lf
  0x21f49d0a25e9bc74289d0a121f3821f3887d021f3d21f3dd0a15e9b821f41d0a15c9b821e1000005aa165aa15d0a17430074285d0a021f2c21f2c87cd21f3121f31d0a05e9b421f35d0a05c9b474281d09f21f2021f2087ca21f2521f25d09f5e9b00db39a0ca52a8068329a0c90db2421d08000021dba21db8873f21cf821cf8873f58a7d0db2436cb0db290db29a0c958a7c3f6740cae03238609100cce3f6f43f6f40c8e3f7750d9cda08c02c3c68231a08b0d9bc0d9bc36710d9c10d9c5a08b58a7c03239a08b682a8423400a8e02a0c462f40aae02a38549fc0ace463f4463f5191d464f5464f40ace02a3802a39a0c9683a0683a14a9f58a7c682a9629f02c3858a7c873f5a9ec5a9edd097742d8742d972645e99021f29d09f5c9b05aa0dd09f742f87427dd09e21f1421dfc00005a9f65a9f5d099742e0742e172665e9987430972705e9c07431172725e9c821f1487c721f1921f19d09e5e9ac21f1dd09e5c9ac74279d09d21f0821f0887c421f0d21e0400005a9fe5a9fdd09b742e8742e972685e9a021f0dd09d5e9a821f11d09d5c9a85aa05d09d742f0742f1726a5e9a874275d09c21efc21efc87c121f0121f01d09c5e9a421f05d09c5c9a4)
  (.lf 0)) (.nd (.lf
  0x5fadc05413dac03dac005013db410140592ee64c34156880000157aa157a9670715678156795f111567d1567d670759c2008a6992ee57c4864c355f1200f0457c496707157ec64bb95f1100f015b958050049e4413d9db10649e486c418050049e453da3c0520014005fad805403dabc3dabc05003db3d014015f1100f0057c44000059c1e59c1d6ed65db586d5e17ee461b9015835b4d05db5c15839b4d05bb5c157ec000059c2259c21b4d06d3bc6d3416ed65db595db597ed661b586d3bd6ed75db5c5ba41b22c6c92c15b0056c215b0515b09b54c5fb5c5db5db54c6d5ac145f1b22c49f2c6c8b1b22b145e0145e0517a145e5145e9b22b014e415b05b54c61b5c6d5317ed661b5961b5805393b93c61b9005273b9746d5f57ee961ba461ba4052c3b9883b9740539014d03b988053e014e43dba00559014e45fbbc05793dc203dc2005393dca15ba3db22b6c9286c928053949f28014e5938264e8464e855f4a00fe46d5bd7edb61b6c61b6c053e3b95061bb805313b99c3b99c0523014f86d6217ef461bd03dbb4055e014f85fbd0057e3dc343dc34053e3dcb56c93c053e49f3c014f9938764e9864e995f4f00ff86d6017eec61bb06d5b57ed961b64)
  (.lf 0)))

def shaGateTree452 : BTree :=
  .nd (.nd (.nd (.lf
  0x7abedeafa2db602db60b6da2db652db65eafa5f6e02d9a800002dac62dac4b6b02d9942d994b6672d9992d998b6b05b6e02c2dde7b20048c79ec9e7b12c2cc2c2ccb0b52c2d12c2d5e7b103f885d4e1e7b179f4079f400fe20048812699add2537d06b749add1126841268449a31268912689add1597cc04689add16b7c06b7c14df3597cc1252dad9400b0c6b651ad931251c1251c49491252112525ad93597cc03f89ad936b6c86b6c965f300b08597ccb6b02db0c2db0c00005b6e25b6e1eafa7ac647ac6575b85f6e05f6e1eb767ae547add9eb752de242de24b78b2de292de2deb75616dc2de29eb75636dc2db69eafa5d6e07abe9eaf92db542db54b6d72db592db59eaf95f6dc2d99c00002dac22dac16db62d98c2d98d65f12d9912d9916db65b6dc2c2d1e7b10048879ec5e7b02c2c02c2c0b0b22c2c52c2c9e7b003f845d4dde7b079f3c79f3c0fe1004841268dadd1537cc6b745add0126781267849a01267d1267dadd0597c804685add06b7bc6b7bd4df2597c812521ad9300b086b64dad92125101251049461251512519ad92597c803f85ad926b6c46b6c565f200b04597c96db62db082db0800005b6de5b6ddeaf97ac607ac6175b75f6dc)
  (.lf 0)) (.nd (.lf
  0x4f7b92b214ac7c80b652bcf4f7bc4f7bd2b224ac8080b692bd04f7c04f7c12b234ac845e6d5cb3872d5c72ce1cb371f7bc1f7bc7df11f7c11f7c5cb37606d01f7c1cb37626d05e6d1cb3772d5872cddcb361f7b01f7b07dee1f7b51f7b9cb36606cc1f7b5cb36626cc5e6cdcb3672d5472cd9cb351f7a41f7a47deb1f7a91f7adcb35606c81f7a9cb35626c85e6c9cb3572d5072cd5cb341f7985e6c5cb3472d4c1f7987de81f79d1f7a1cb34606c41f79dcb34626c472cd1cb331f78c1f78c7de51f7911f795cb33606c05e6c1cb3372d481f791cb33626c072ccdcb321f7801f7807de21f7851f789cb32606bc5e6bdcb3272d441f785cb32626bc72cc9cb311f7741f7747ddf1f7791f77dcb31606b85e6b9cb3172d401f779cb31626b872cc5cb301f7681f7687ddc1f76d1f771cb30606b45e6b5cb3072d3c1f76dcb30626b472cc1cb2f1f75c1f75c7dd91f7611f765cb2f606b05e6b1cb2f72d381f761cb2f626b072cbdcb2e1f7501f7507dd61f7551f759cb2e606ac1f755cb2e626ac5e6adcb2e72d3472cb9cb2d1f7441f7447dd31f7491f74dcb2d606a81f749cb2d626a85e6a9cb2d72d3072cb5cb2c1f7381f7387dd01f73d1f741cb2c606a4)
  (.lf 0))) (.nd (.nd (.lf
  0xfa203e8a0fa250fa29a61e530000fa25a61e5900002fbda61e698f469879a61d0fa140fa143e870fa190fa19a61d58ffc0fa1da61d52ffc02fb9a61d698f069875a61c0fa08428bc0bed02f88473700c0d02fb454f780c2d47470474711d3c47571475700c2d02fb402fb5a61c698ec0fa083e840fa0d0fa11a61c52ff80fa0da61c58ff869871a61b0f9fc0f9fc3e810fa010fa05a61b52ff40fa01a61b58ff4429340beb02f80429380bec02f84473580c0702f9c4735c0c0802fa0473600c0902fa4473640c0a02fa8473680c0b02fac4736c0c0c02fb054f600c274745854f640c284745c54f680c294746054f6c0c2a4746454f700c2b4746854f740c2c4746c474591d36475594745d1d374755d474611d3847561474651d3947565474691d3a475694746d1d3b4756d475580c2702f9c4755c0c2802fa0475600c2902fa4475640c2a02fa8475680c2b02fac4756c0c2c02fb002fb1a61b698e86986da61a0f9f00f9f03e7e0f9f50f9f5a61a58ff00f9f9a61a52ff002fada61a698e469869a6190f9e402fa9a619698e00f9e43e7b0f9e90f9e9a61958fec0f9eda61952fec69865a6180f9d80f9d83e780f9dd0f9dda61858fe80f9e1a61852fe8)
  (.lf 0)) (.nd (.lf
  0x65ca597280a3980a39828e80a39d187e5bb8053fe46ee01bb7f187d0187d061f6187d5187d5bb7f55fe06eec9500c5603051fe1bb7f6ee786ee794ff855fe055fe0045d419586ee9d5001560045600404464197c560300451419a84197c045d01148419a80448011740a3a19728520b844530047d0117454038049d446304463111ac4473144730049d0117401175972865d1c0a39d9728580b865ca197270a38c0a38c28e50a3910a3919727580b4187d9bb7f53fe06edfdbb7e187c4187c461f3187c951fddbb7e6ee746ee995000560000a3959727520b46ee754ff755fdc187c9bb7e55fdc55fdc045c41954560000445419786eec5500b5602c5602c0450419a441978045c01144419a40447011704452c047c0117054034049c4462c4462d11ab4472d4472c049c0117001171972765d1865c9d97260a380187cdbb7e53fdc6edf9bb7d187b8187b861f0187bd187c1bb7d53fd8187bdbb7d55fd851fd9bb7d6ee706edf5bb7c187ac187ac61ed187b1187b5bb7c53fd4187b1bb7c55fd451fd5bb7c6ee6c6edf1bb7b187a0187a061ea187a5187a5bb7b55fd051fd1bb7b6ee686eec1500a560286eeb95008560200a38028e20a3850a3899726520b0)
  (.lf 0)))

def shaGateTree453 : BTree :=
  .nd (.nd (.nd (.lf
  0x6a3d164cd043f059335e175297182971800005b2625b261e194786cc786cd74925f2485f249e210788bc78841e20f29b2c29b2ca6cd29b3129b35e20f6124429b31e20f6324429871e1945d24878651e1932985c2985ca6192986129861e1935f244296c00000785d6785d4a5ad296b0296b0a5ad5933103aeda8d46a3cc6a3cd64cc043ec10a39a8d5043f06a355a8d410a2810a28428c10a2d10a31a8d45933059330a5ad5b25c5b25de193786c8786c974915f2445f245e20f788b87883de20e29b2029b20a6ca29b2529b29e20e6124029b25e20e6324029865e1935d2447864de1922985029850a6162985529855e1925f240296b4a5ab296a8296a8a5ab5932d03ae9a8d36a3c86a3c964cb043e810a2da8d4043ec6a351a8d310a1c10a1c428910a2110a25a8d35932c5932ca5ab5b2585b259e192786c4786c574905f2405f241e20e788b478839e20d29b1429b14a6c729b1929b1de20d6123c29b19e20d6323c29859e1925d24078649e1912984429844a6132984929849e1915f23c296ade1742969c2969ca5a9296a1296a1e1745b25410a21a8d3043e86a34da8d210a1010a10428610a1510a19a8d25932803ae5a8d26a3c46a3c564ca043e4)
  (.lf 0)) (.nd (.lf
  0x6229008e73c0743c07408f9023d01c19400001c1ea0b5c19a4b01de86692d9a4a0b5b03e9a00919023e4602bc09393ea203ea2008f93eaa1023e59a4a669a40b5b02d6e0b5b50b5b99a4a58428669a5610a01de466a9d490a5842858428707a1c21c1c1e870621c1841c18470625842566a9949095842470d6d80a36228c6228c08e63c070622d408f83c0b83c07008f8023cc0b5b59a4a01de4669299a490b5a40b5a42d6b0b5a90b5ad9a49584243e99c0918023e0602b809383ea1c3ea1c08f83ea9d023e19a49669a0669a1610901de05842470625a3b41c18870601c17c1c17c70605842166a9549085842070d6980a2622886228808e53c06c622d008f73c0b43c06c08f7023c80b5a99a4901de0669259a480b5983e9980917023dc602b409373ea183ea1808f73ea99023dd9a486699c6699d610801ddc0b5982d680b59d0b5a19a48584205842070605a3b01c18070791c1701c170705e1c1751c17470795a3ac70d6580a1622846228408e43c068622cc08f63c0b03c06808f6023c40b59d9a4801ddc669219a470b58c0b58c2d650b5910b5959a475841c3e9940916023d8602b009363ea143ea1408f63ea95023d99a476699866999610701dd8)
  (.lf 0))) (.nd (.nd (.lf
  0x467c80b0302b0c467cc0b0402b10467d00b0502b14467d40b0602b186867162d902d20686cd62f002d7c687c54af058bc058bc08b2322ce422ce400005ab325ab31d29874adc74add72b55ead45cad5d2d674bd474bd40d5f4afc04afc2080f820b8820b932f04e3c04e3c2088b822a88222e088a3893038930e24e389353893a088a4b33c38936088a4fbbc8203e080e3866038660e19a3866538666080e4e3bc686c962ef02d78687c14aef58bbc74b59d2d522fac22fac8bed22fb122fb1d2d54afbc74a61d29722e4422e448b9322e4922e4dd2975cad022c8c8b0e22c3422c348b0e58bbd58bbc8b0e5ab2c5ab2dd29774ad874ad972b45ead05cad1d2d574bd074bd00d5e4afbc4afbe080e820b4820b532ef4e3bc4e3be088a822a48222a08893892438924e24b389293892e08894b3383892a08894fbb83866a080e4cbbc8203a080d3865438654e197386593865a080d4e3b8686c562ee02d74687bd4aee58bb822fb5d2d50357874b55d2d422fa022fa08bea22fa522fa5d2d44afb822e49d2975ead074a5dd29622e3822e388b9022e3d22e41d2965cacc22c388b2222c2822c288b0c22c2d22c2c8b225ab2858bb88b2222ce022ce000005ab2a)
  (.lf 0)) (.nd (.lf
  0x4ba55ef7e7be747bd852e974d25c4ba5def807be7c2f741ef804a65c7be01ef7f2f72c2f72cbdcd2f7312f731ef7f502582f735ef7f4a6587bd812e964d2584ba59ef7f7be787bdfdef7e2f7202f720bdca2f7252f729ef7e4a6542f725ef7e502547bdf9ef7d2f7142f714bdc72f7192f719ef7d502502f71def7d4a6507bd792e944d2504ba51ef7d7be707bdf5ef7c2f7082f708bdc42f70d2f711ef7c4a64c2f70def7c5024c7bdf1ef7b2f6fc2f6fcbdc12f7012f701ef7b502482f705ef7b4a64849e49ef3d7bd707bd712e924d2482f5a5ef3e4d24c7bcf9ef3d2f5942f594bd672f5992f59def3d4ba484ba49ef7b7be6849e452e914d2442f599ef3d4d2487bcf52e914d2454ba452991502447bded29915024550245297404b1c7be6929925024850249297504b207be6d29935024c5024d297604b247be7129945025050251297704b287be7529955025450255297804b2c7be7929965025850259297904b307be7d29975025c5025d297a04b347be8129985026050261297b04b387be8529995026450265297c04b3c7be89299a5026850269297d04b407be8d299b5026c5026d297e04b447be91299c5027050271297f04b487be95299d50274)
  (.lf 0)))

def shaGateTree454 : BTree :=
  .nd (.nd (.nd (.lf
  0x5d27de2b778b5878b580f4900224118ddab6d5356c6adb5ab6c118c8118c84634118cd118cdab6c5956804425ab6c6ae2c6ae2d4d5a5956811771ab2f046286acbdab2e117601176045da1176511769ab2e5956803d25ab2e6ad346ad35655a0462459569e6602ba442ba4400005b4865b485e67579a5079a51751f5f47c5f47de6f179c4079bc5e6f02bd9c2bd9caf692bda12bda5e6f0614782bda1e6f0634782bae1e6755d47c799d5e6742bacc2baccaeb52bad12bad1e6745f4782b95c00007998279980ae542b94c2b94cae54595655d279e2b678b5478b540f48002202a031e2b70022478adde2b62a0202a020a80a2a0252a029e2b603d2003d21ab2d6ad306ad31655904620118d1ab6c535686adb1ab6b118bc118bc4631118c1118c1ab6b5956404421ab6b6ae286ae294d595956411765ab2e046246acb9ab2d117541175445d7117591175dab2d5956459564ae545b4805b481e67479a4c79a4d751e5f4785f479e6f079c3c79bc1e6ef2bd902bd90af662bd952bd99e6ef614742bd95e6ef634742bad5e6745d478799d1e6732bac02bac0aeb22bac52bac5e6735f4742b951e65f2b9402b940ae522b9452b945e65f5b47c2a025e2b600220)
  (.lf 0)) (.nd (.lf
  0x7fc0dff023515035150d4563515535159ff024ac6435155ff024f4e44dce5ff027fc847fc09ff013514435144d453351493514dff014ac6035149ff014f4e04dce1ff017fc807fc05ff003513835138d4503513d35141ff004ac5c3513dff004f4dc4dcddff007fc7c7fc01feff3512c3512cd44d3513135135feff4ac5835131feff4f4d84dcd9feff7fc787fbfdfefe3512035120d44a3512535129fefe4ac5435125fefe4f4d44dcd5fefe7fc747fbf9fefd3511435114d447351193511dfefd4ac5035119fefd4f4d04dcd1fefd7fc707fbf5fefc3510835108d4443510d35111fefc4ac4c3510dfefc4f4cc4dccdfefc7fc6c7fbf1fefb350fc350fcd4413510135105fefb4ac4835101fefb4f4c84dcc9fefb7fc684dcc52b114f4c47fbed2b114f4c54f4c52a7b067687fc692b124f4c84f4c92a7c0676c7fc6d2b134f4cc4f4cd2a7d067707fc712b144f4d04f4d12a7e067747fc752b154f4d44f4d52a7f067787fc792b164f4d84f4d92a800677c7fc7d2b174f4dc4f4dd2a81067807fc812b184f4e04f4e12a82067847fc852b194f4e44f4e52a83067887fc892b1a4f4e84f4e92a840678c7fc8d2b1b4f4ec4f4ed2a85067907fc912b1c4f4f0)
  (.lf 0))) (.nd (.nd (.lf
  0x5ad11d6ad75b3075b3173325ecc85ecc9d72975d2075ca5d72824ca424ca4932b24ca924cadd72860cc424ca9d72862cc4249e9d6ad5ccc875ab5d6ac249d4249d49277249d9249d9d6ac5ecc42483c000075a3a75a38920c2482c2482c920c58db158db0920c5ad0c5ad0dd6ac75b2c75b2d73315ecc45ecc5d72875d1c75ca1d72724c9824c98932824c9d24ca1d72760cc024c9dd72762cc0249ddd6ac5ccc475ab1d6ab249c8249c89274249cd249cdd6ab5ecc024831d68d2482024820920a2482524825d68d5ad0858dadd68d2488c2488c00005ad0a5ad09d6ab75b2875b2973305ecc05ecc1d72775d1875c9dd72624c8c24c8c932524c9124c95d72660cbc24c91d72662cbc249d1d6ab5ccc075aadd6aa249bc249bc9271249c1249c1d6aa5ecbc24828000075a3675a35d68c248142481492072481924819d68c5ad0458da9d68c248882488800005ad065ad05d6aa75b2475b25732f5ecbc5ecbdd72675d1475c99d72524c8024c80932224c8524c89d72560cb824c85d72562cb8249c5d6aa5ccbc75aa9d6a9249b0249b0926e249b5249b5d6a95ecb82481c000075a3275a3092042480c2480c920458da558da492045ad005ad01d6a975b20)
  (.lf 0)) (.nd (.lf
  0x3de6805ab0162c5fd0405cb3dee83dee8058b3df690162d94e86541c6541d5f9c0112c65515479c57e7009785952657e700962194e857e7057e71b8b3174f8654255f9e011341745000006e2d66e2d45d1117440174405d1157e7d654295f9f0113865521479f57e7c57e7c5d1159e4c17445b8b417434174345d0f174391743c00006e2d217439b8b459e486551d479e57e7857e79b8b4174fc6e2d05d0c1742c1742c5d0c57e7565519479d57e74654215f9d0113057e745d0c59e4417431b8b317420174fc000059e4a174f8000059e42174205d0a1742517425b8b359e4059e4db8cc6e3ac175c5b8cc5dd906e331b8cb175b4175b45d6f175b9175bdb8cb5bd8c59e49b8cb6e3a8175b9b8cb5dd8c6e32db8ca175a8175a85d6c175ad175adb8ca5dd88175b1b8ca5bd8859e45b8ca6e3a46e329b8c91759c1759c5d69175a1175a1b8c95dd8459e41b8c96e3a0175a5b8c95bd846e325b8c817590175905d66175950961d94e80112c653a194e70960c0960c2585096110961594e757e6c3bb38058a016143de6405aa016285fd0005ca3dee43dee4058a3df650162994e765418654195f9b0112809789952651e70654999525097740977425df09779)
  (.lf 0)))

def shaGateTree455 : BTree :=
  .nd (.nd (.nd (.lf
  0x51600011205d0482ffc01305160451604011305d088300001315160851608011405d0c8300401325160c5160c011505d108300801335161051610011605d148300c01345161451614011705d188301001355161851618011805d1c8301401365161c5161c011905d208301801375162051620011a05d248301c01385162451624011b05d288302001395162851628011c05d2c83024013a5162c5162c011d05d3083028013b5163051630011e05d348302c013c5163451634011f05d3805cc801120041c05ccc01130042005cd001140042405cd401150042805cd801160042c05cdc01170043005ce001180043405ce401190043805ce8011a0043c05cec011b0044005cf0011c0044405cf4011d0044805cf8011e0044c05cfc011f0045005d0001000045405d0401010045805d0801020045c05d0c01030046005d1001040046405d1401050046805d1801060046c05d1c01070047005d2001080047405d2401090047805d28010a0047c05d2c010b0040005d30010c0040405d34010d0040805d38010e0040c83030013d5163851638010f0041083034013e5163c5163c01100041483038013f51640516400111004184fd452c9b06d404fd492c9c06d44)
  (.lf 0)) (.nd (.lf
  0x33575fa2f4c1f833571fa2f4d9f81a835bffe023b86fff9bffd1a8201a8206a0a1a8251a825bffd4a5f85a1a1bfbf6ff781a6c9bfc05e1106ff01bfbf1a6b81a6b869b01a6bd6ff7970435e10c1a6c1bfbf5c10c5c10dbffd700707007008ed4a5f84a5f9fa2f7e9387e8bdfa2e3356033560cd5a3356533569fa2e4c1f433565fa2e4d9f41a829bffd023b41a6bdbfbf5e10c6fefdbfbe1a6ac1a6ac69ad1a6b15a19dbfbe6ff746ff7570425e1081a6b5bfbe5c1085c109bffc7006c7006c08ec4a5f46fff5bffc1a8141a8146a071a8191a819bffc4a5f44a5f5fa2e7e9347e8b9fa2d3355433554cd57335593355dfa2d4c1f033559fa2d4d9f01a6b1bfbe5e1085a199bfbd6ff706ff7170415e1046fef9bfbd1a6a01a6a069aa1a6a51a6a9bfbd5c1045c105bffb700681a81dbffc023b06fff1bffb1a8081a8086a041a80d1a80dbffb4a5f07006808eb4a5f04a5f1fa2d7e9307e8b5fa2c3354833548cd543354d3354dfa2c4d9ec1a6a5bfbd5e1046fef5bfbc1a6945a195bfbc6ff6c6ff6d70405e1001a811bffb023ac6ffedbffa1a7fc1a69469a71a6991a69dbfbc5c1005c101bffa700641a7fc6a011a8011a801bffa4a5ec7006408ea4a5ec)
  (.lf 0))) (.nd (.nd (.lf
  0x36b52036c4af9c36b4e036c4f81c3688e02f14c82080bc602f03687836878da203687d3687e02f04e01c4ac1e02f080c3c80c3d32074e01c4e01e036c80e2c80db2036b36b3c36b3cdad136b4136b46036b4af9836b42036b4f8183688202f04c81c80bc202ef3686c3686cda1d368713687202ef4e0184ac1a02ef80c3880c3932064e0184e01a036b80e2880dae036a36b3036b30dace36b3536b3a036a4af9436b36036a4f8143687602ef4c81880bbe02ee3686036860da1a368653686602ee4e0144ac1602ee80c3480c3532054e0144e016036a80e2480daa036936b2436b24dacb36b2936b2e03694af9036b2a03694f8103686a02ee4c81480bba02ed3685436854da17368593685a02ed4e0104ac1202ed80c3080c3132044e0104e012036980e2080da6036836b1836b18dac836b1d36b2203684af8c36b1e03684f80c3685e02ed4c81080bb602ec3684836848da143684d3684e02ec4e00c4ac0e02ec80c2c80c2d32034e00c4e00e036880e1c80da2036736b0c36b0cdac536b1136b1603674af8836b1203674f8083685202ec4c80c80bb202eb3683c3683cda11368413684202eb4e0084ac0a02eb80c2880c2932024e0084e00a036780e18)
  (.lf 0)) (.nd (.lf
  0x59b69b2e66cc146cb99b2e514ac414ac452b314ac914acdb2e55ba9814ac9b2e55da98149f0000059b6659b65b2e56cc106cb95b2e414ab814ab852b014abd14abdb2e45da9459b61b2e46cc0c6cc0d6ea55da945da95b3606cdfc648895edf00e386cc216eaa5daa85daa9b3656ce1014dc9b36561aa814dcdb3655faa86cd95b36414db814db8537014dbd14dbdb36461aa46cc1d6ea95daa45daa5b3646ce0c14dc1b3645faa46cd91b36314dac14dac536d14db114db5b3635faa014db1b36361aa06cc196ea85daa05daa1b3636ce086cd8db36214da06cc156ea75da9c5da9db3626ce0414da0536a14da514da9b3625fa9c14da5b36261a9c6cd89b36114d9414d94536714d9914d9db3615fa9814d99b36161a986cc116ea65da985da99b3616ce006cd85b36014d8814d88536414d8d14d91b3605fa9414d8db36061a946cd81b35f14d7c14d7c536114d81086d9924251b80649099241086c4086c421b3086c9086c9924157b7c14d85b35f5fa90435f4032e00c3841440030e00c0c437f4034e00c3800c399241649806498146df57b7c1495452531494814948525357b7d57b7c525359b5c59b5db2e36cc086cc096ea45da9014ac1b2e45ba94)
  (.lf 0)))

def shaGateTree456 : BTree :=
  .nd (.nd (.nd (.lf
  0x4965d25b74975d4966125b8497614966525b9497654966925ba497694966d25bb4976d4967125bc497714967525bd497754967925be497794967d25bf4977d4968125c0497814968525c1497854968925c2497894968d25c34978d4969125c4497914969525c5497954969925c6497994969d25c74979d496a125c8497a1496a525c9497a5496a925ca497a9496ad25cb497ad496b125cc497b1496b525cd497b5496b925ce497b9496bd25cf497bd496c125d0497c14974402c0047804974802c1047844974c02c2047884975002c30478c4975402c4047904975802c5047944975c02c6047984976002c70479c4976402c8047a04976802c9047a44976c02ca047a84977002cb047ac4977402cc047b04977802cd047b44977c02ce047b84978002cf047bc4978402d0047c04978802d1047c44978c02d2047c84979002d3047cc4979402d4047d04979802d5047d44979c02d6047d8497a002d7047dc497a402d8047e0497a802d9047e4497ac02da047e8497b002db047ec497b402dc047f0497b802dd047f4497bc02de047f8497c002df047fc4984402e0047804984802e1047844984c02e2047884985002e30478c4985402e4047904985802e504794)
  (.lf
  0x73898ee64b6a0073858ee60095c63b998ee507374073741cdf073790737d8ee54b69c847dd8ee563c10073798ee50095863b958ee407368073681cdc0736d073718ee44b698847d98ee463c0c0736d8ee40095463b918ee30735c0735c1cd907361073658ee34b694847d18ee263c04073618ee300950847d58ee363c0863b8d8ee207350073501cd607355073598ee24b690073558ee20094c63b898ee107344847cd8ee163c00073441cd307349073498ee1009480734d8ee14b68c63b858ee007338847c98ee063bfc073381cd00733d073418ee04b6880733d8ee00094463b818edf0732c847c58edf63bf80732c1ccd07331073318edf00940073358edf4b68463b7d8ede07320073201cca07325073298ede4b680073258ede0093c847c18ede63bf463b798edd07314073141cc707319073198edd00938490ce10ec00c18843b210eb490bc490bd2431490c163cc52db6009944b6da10eb84428844295e5600c14490c610eb5795857959aec912d3c12c4400006bb2a6bb29aec912c3012c304b0e12c3512c3800006bb2612c35aec9599486bb25aec812c2412c244b0b12c2912c29aec859944490c210eb00c14843ae10ea490b0490b1242e490b5))
  (.nd (.lf
  0x1f7e9cb5a547d072d69cb591f7d41f7d47df71f7d91f7d9cb59567cc0cefd9ea5588a4527cdcb5972de045d1c08380206072e3152075681c5681c080c421944219408030206054824085845e1c45e1d17a745f1d45f1c08580206072e0551fc567f072de151f3567cc567cc081842144567f008014216842168081802034020619ee367c0867c094a29588a40d0719ee4528a867b919ee30d05c0d05c34190d0610d0619ee3588a4588a4804e5a8141f7ddcb59547cc72d65cb581f7c8527c9cb5872ddc72e2d52065681872e2952055681472e0151fb567ec72ddd51f2567c8527c551f1567c41f7c87df41f7cd1f7d1cb58547c81f7cdcb58567c872d6151f1567c5567c408164213c567c8081742140567ec08004216472e255204568105681008094218856814080a4218c56818080b421905683c0814421b4568400815421b8421580814020244215c0815020284216008160202c42164081702030421880800020544218c0801020584219008020205c45d0c08340205045d1008350205445d1408360205845d1808370205c54814085445e0c54818085545e105481c085645e1454820085745e1845e0d17a345f0d45e1117a445f1145e1517a545f15)
  (.lf 0))) (.nd (.nd (.lf
  0x76d01db3f2697c2697c9a612698126985db3f54fe026981db3f56fe052fe1db3f76d7876cfddb3e26970269709a5e2697526979db3e54fdc26975db3e56fdc52fdddb3e76d7476cf9db3d26964269649a5b269692696ddb3d54fd826969db3d56fd852fd9db3d76d7076cf5db3c26958269589a582695d26961db3c54fd42695ddb3c56fd452fd5db3c76d6c76cf1db3b2694c2694c9a552695126955db3b54fd026951db3b56fd052fd1db3b76d6876ceddb3a26940269409a522694526949db3a54fcc26945db3a56fcc52fcddb3a76d6476ce9db3926934269349a4f269392693ddb3954fc826939db3956fc852fc9db3976d6052fc553f156fc476ce553f156fc556fc40c164293c76d6153f256fc856fc80c174294076d6553f356fcc56fcc0c184294476d6953f456fd056fd00c194294876d6d53f556fd456fd40c1a4294c76d7153f656fd856fd80c1b4295076d7553f756fdc56fdc0c1c4295476d7953f856fe056fe00c1d4295876d7d53f956fe456fe40c1e4295c76d8153fa56fe856fe80c1f4296076d8553fb56fec56fec0c004296476d8953fc56ff056ff00c014296876d8d53fd56ff456ff40c024296c76d9153fe56ff856ff80c0342970)
  (.lf 0)) (.nd (.lf
  0x5dfadbd4d6f5b06f535bd4c19504195046543195091950dbd4c5ffa819509bd4c61fa85dfa9bd4c6f5ac6f531bd4b194f8194f86540194fd19501bd4b5ffa4194fdbd4b61fa46f52dbd4a194ec194ec653d194f1194f1bd4a61fa0194f5bd4a5ffa06f529bd49194e0194e0653a194e5194e9bd495ff9c194e5bd4961f9c5df9dbd496f5a06f525bd48194d4194d46537194d9194ddbd485ff98194d9bd4861f985df99bd486f59c6f521bd47194c8194c86534194cd194cdbd4761f94194d1bd475ff946f51dbd46194bc194bc6531194c1194c5bd465ff90194c1bd4661f906f519bd45194b0194b0652e194b5194b9bd455ff8c194b5bd4561f8c5df8dbd456f5906f515bd44194a4194a4652b194a9194adbd445ff885df79bd406f57c194a9bd4461f885df89bd446f58c6f511bd43194981949865281949d194a1bd435ff841949dbd4361f845df85bd436f5886f50dbd421948c1948c65251949119495bd425ff8019491bd4261f805df81bd426f5846f509bd41194801948065221948519489bd415ff7c19485bd4161f7c5df7dbd416f5806f505bd401947419474651f1947919479bd4061f781947dbd405ff786f501bd3f1946819468651c1946d)
  (.lf 0)))

def shaGateTree457 : BTree :=
  .nd (.nd (.nd (.lf
  0x5f269e2f078c3c78bc1e2ef2a14c2a14ca8552a1512a155e2ef612642a151e2ef6326429e91e2745d268789d1e27329e7c29e7ca7a129e8129e81e2735f26429ce0a73629cd429cd4a736593515d065debe77b7477b740ec30000c2831ddebf0001077afddebe2830c2830ca0c52831128315debe03b0c03b0da9386a55c6a55d64d40440c10d55a977533546a5dda97610d4010d40435210d4510d45a976593500420da9766a6546a6554cd45935010be9a939044106a4e5a93810bd810bd842f810bdd10be1a9385935059350a7365b27c5b27de27378a4878a4974995f2645f265e2ef78c3878bbde2ee2a1402a140a8522a1452a149e2ee612602a145e2ee6326029e85e2735d264789cde27229e7029e70a79e29e7529e75e2725f26029cd8a73429ccc29ccca7345934d5d061debd77b7077b700ec20000828311debe0000c77af9debd2830028300a0c22830528309debd03b0803b09a9376a5586a55964d30440810d49a976533506a5d9a97510d3410d34434f10d3910d39a9755934c04209a9756a6506a6514cd35934c10bdda9380440c6a4e1a93710bcc10bcc42f510bd110bd5a9375934c5934ca7345b2785b279e27278a4478a4574985f260)
  (.lf 0)) (.nd (.lf
  0x70de1c3771bfcc1bfcc6ff51bfd11bfd1c377563ec1bfd5c377543ec523edc37770e5870dddc3761bfc01bfc06ff21bfc5523e9c37670e541bfc9c376543e81bfc5c376563e870dd9c3751bfb41bfb46fef1bfb91bfb9c375563e41bfbdc375543e4523e5c37570e5070dd5c3741bfa81bfa86fec1bfad70ea9510f5643c70ea5510e5643870ead51105644070ea1510d5643470e7951035640c70e5150f9563e4563e4071e41d5c70e5550fa563e8563e8071f41d6070e7551025640856408070741d805640c070841d8456434071241dac56438071341db041d80071e01c4c41d84071f01c5041dac070901c7841db0070a01c7c45138073f01c7c54440075f452384523914ae4533945338075f01c7c01c7d9b0a66ca466c299b090ba240ba242e8b0ba290ba2d9b09524bc0ba299b09584bc45134073e01c785443c075e452344523514ad4533545334075e01c7801c799b0966ca066c259b080ba18523e1c37470e4c1bfadc374563e070e4d50f8563e0563e0071d41d5870e7151015640456404070641d7c70e9d510c5643056430071141da841d7c071d01c4841da8070801c740ba182e880ba1d0ba219b08524b845130073d01c7454438075d45230)
  (.lf 0))) (.nd (.nd (.lf
  0x74fd80d7d4b0384b03a08c78239882399330e4e4384e43a0943825888250e094238d5038d50e35638d5538d5a09424b3b438d5609424fc3438a9608c74cc388231e08c638a8038a80e2a238a8538a8608c64e434688b1630d02df023671d3d7035f474f5dd3d62365c2365c8d992366123661d3d64b03423505d3995eb4c74e65d398234f4234f48d3f234f9234fdd3985cb4823378000074dee74dedd37a23364233648cdb2336923369d37a5ab9858c35d37a233a4233a400005ab9a5ab99d39874edc74edd72d25eb485cb49d3d674fd474fd40d7c4b0344b03608c68239482395330d4e4344e4360942825848250a094138d4438d44e35338d4938d4e09414b3b038d4a09414fc3038a8a08c64cc348231a08c538a7438a74e29f38a7938a7a08c54e430688ad630c02dec23665d3d6035f074f59d3d523650236508d962365523655d3d54b030234f9d3985eb4874e61d397234e8234e88d3c234ed234f1d3975cb442336c000074dea74de88cd82335c2335c8cd858c3158c308cd85ab945ab95d39774ed874ed972d15eb445cb45d3d574fd074fd00d7b4b0304b03208c58239082391330c4e4304e43209418258082506094038d3838d38e35038d3d)
  (.lf 0)) (.nd (.lf
  0x3046df1b94a8087c6692f024d4084bc09f1b97c7607c6e5f1b83045830458c1183045d3045df1b85040430461f1b84a8047c6652f014d4044bc05f1b87c75c7c6e1f1b73044c3044cc115304517c65d2eff4d3fc7c6612f004d4007c6592efe4d3f830451f1b7504004bc01f1b77c75830455f1b74a8007c6ddf1b63044030440c1123044530449f1b64a7fc30445f1b6503fc4bbfdf1b67c7547c6d9f1b53043430434c10f3043930439f1b5503f83043df1b54a7f84bbf9f1b57c7507c6d5f1b43042830428c10c3042d30431f1b44a7f47c6552efd4d3f44bbf5f1b47c74c3042df1b4503f47c6d1f1b33041c7c6512efc4d3f04bbf1f1b37c7483041cc1093042130421f1b3503f030425f1b34a7f07c6cdf1b23041030410c106304155baf5b41c6d0ec060d927f849fd83028df1714bbe06d0ec056749fe049fe1f1717c64030289f1714d3e07c5c5f1703027830278c0a03027d30281f1704bbdc3027df1704d3dc15291b41c0159c6d071b41b1527c1527c54a11528115281b41b49fdc15285b41b015986d06db41a1527015270549e1527515279b41a0159415275b41a49fd85baedb41a6d0e46d069b4191526415264549b1526915269b41949fd4)
  (.lf 0)))

def shaGateTree458 : BTree :=
  .nd (.nd (.nd (.lf
  0x40ed80f8740f5940edc0f8840f5d40ee00f8940f6140ee40f8a40f6540ee80f8b40f6940eec0f8c40f6d40ef00f8d40f7140ef40f8e40f7540ef80f8f40f7940efc0f9040f7d40f000f9140f8140f040f9240f8540f080f9340f8940f0c0f9440f8d40f100f9540f9140f140f9640f9540f180f9740f9940f1c0f9840f9d40f200f9940fa140f240f9a40fa540f280f9b40fa940f2c0f9c40fad40f300f9d40fb140f340f9e40fb540f380f9f40fb953641e74579d9079d15e7442c00c2c00cb0052c0112c015e7445563c2c011e7445763c5363de74479d8c79d11e7432c0002c000b0022c0052c009e743556382c005e7435763853639e74379d8879d0de7422bff42bff4afff2bff92bffde742556342bff9e7425763453635e74279d8479d09e7412bfe82bfe8affc2bfed2bff1e741556302bfede7415763053631e74179d8079d05e7402bfdc2bfdcaff92bfe12bfe5e7405562c2bfe1e7405762c5362de74079d7c79d01e73f2bfd02bfd0aff62bfd52bfd9e73f556282bfd5e73f5762853629e73f79d7879cfde73e2bfc42bfc4aff32bfc92bfcde73e556242bfc9e73e5762453625e73e79d7479cf9e73d2bfb82bfb8aff02bfbd2bfc1e73d55620)
  (.lf 0)) (.nd (.lf
  0x801b92c9050e4050e412c624b15c5e555c8427218472109c8411e2701e270789e1e2751e275c841625505e551c841721801e279c8416055072105c8401e2641e264789b1e2691e26dc8406054c1e269c8406254c5e54dc8407217c72101c83f1e2581e25878981e25d1e261c83f605485e549c83f721781e25dc83f62548720fdc83e1e24c1e24c78951e2511e251c83e625441e255c83e605445e545c83e72174720f9c83d1e2401e24078921e2451e245c83d625401e249c83d605405e535c83a721645e541c83d72170720f5c83c1e2345e53dc83c7216c1e234788f1e2391e239c83c6253c1e23dc83c6053c720f1c83b1e2281e228788c1e22d1e231c83b605385e539c83b721681e22dc83b62538720edc83a1e21c1e21c78891e2211e225c83a605341e221c83a62534720e9c8391e2101e21078861e2151e215c839625305e531c839721601e219c83960530720e5c8381e2045e52dc8387215c5e525c836721545e529c837721581e20478831e2091e20dc8386052c1e209c8386252c720e1c8371e1f81e1f878801e1fd1e1fdc837625281e201c83760528720ddc8361e1ec1e1ec787d1e1f11e1f1c836625241e1f5c83660524720d9c8351e1e0)
  (.lf 0))) (.nd (.nd (.lf
  0x2500dd78f5ecf075e3dd78e24ffc24ffc94012500125005d78e5ccec24e60000024f5a24f58939524e5024e50939558dd958dd893955ad2c5ad2dd78e75eb475eb5733b5ecec5ccedd7cc75fac75fac0de54b1d84b1da0b9782ed882ed933764e5d84e5da0c13830c88304e0c1239d1039d10e74639d1539d1a0c120001039d160c124fdd439a560b974cdd882e5e0b9639a4039a40e69239a4539a460b964e5d4691094b7558dd42516dd7cc0379475f31d7cb251582515894582515d2515dd7cb4b1d425001d78e5ecec75e39d78d24ff024ff093fe24ff524ff9d78d5cce824e5493d524e4424e44939324e4924e4893d55ad2858dd493d524f9424f9400005ad2a5ad29d78d75eb075eb1733a5ece85cce9d7cb75fa875fa80de44b1d44b1d60b9682ed482ed533754e5d44e5d60c12830c48304a0c1139d0439d04e74339d0939d0e0c110000c39d0a0c114fdd039a4a0b964cdd482e5a0b9539a3439a34e68f39a3939a3a0b954e5d06900d637402f8c691054b7458dd025161d7cb0379075f2dd7ca2514c2514c94552515125151d7ca4b1d024ff5d78d5ece875e35d78c24fe424fe493fb24fe924fedd78c5cce424e4c000024f5624f556b4824e3c)
  (.lf 0)) (.nd (.lf
  0x17b5c5ed517b506571947c157f04656215fc1011c017b505ed557f0557f045ed559ed417b545ed317b4817b485ed357f016571547c057f0057f005ed359ed017b4c5ed117b4017b405ed157efd57efc5ed159ecc656115fbd011b009a7d95a551efc6569595a409a6809a68269c09a6d09a6d95a457ef8417bc03ed00f8809a7195a451ef844070040d00fb453e78042d4417044171107c4427144270042d00fb400fb595a46570c6569195a309a5c09a5c269909a6109a6595a351ef44183803ec00f844406c040c00fb053e74042c4416c4416d107b4426d4426c042c00fb000fb195a36570809a6195a357ef46568d95a209a5009a50269609a5509a5595a257ef0656095fbb011a86570d47be57ef86570947bd57ef444064040a00fa853e6c042a441644416510794426544264042a00fa800fa995a1657006570147bb57eec4183403eb00f8009a5995a251ef044068040b00fac53e70042b4416844169107a4426944268042b00fac00fad95a2657046568995a109a4409a44269309a4909a4995a157eec57eec5efc17c286560d5fbc011ac656155fbe011b417b445ecf17b3817b385ecf57ef957ef85ecf59ec817b3c5ecd17b3017b305ecd57ef5)
  (.lf 0)))

def shaGateTree459 : BTree :=
  .nd (.nd (.nd (.lf
  0x8398000654ff584ff592d2006eb48398400664ff5c4ff5d2d2106eb88398800674ff604ff612d2206ebc8398c00684ff644ff652d2306ec08399000694ff684ff692d2406ec483994006a4ff6c4ff6d2d2506ec883998006b4ff704ff712d2606ecc8399c006c4ff744ff752d2706ed0839a0006d4ff784ff792d2806ed4839a4006e4ff7c4ff7d2d2906ed8839a8006f4ff804ff812d2a06edc839ac00704ff844ff852d2b06ee0839b000714ff884ff892d2c06ee4839b400724ff8c4ff8d2d2d06ee8839b800734ff904ff912d2e06eec839bc00744ff944ff952d2f06ef0839c000754ff984ff992d3006ef406ea12d244b48806ea52d254b48c06ea92d264b49006ead2d274b49406eb12d284b49806eb52d294b49c06eb92d2a4b4a006ebd2d2b4b4a406ec12d2c4b4a806ec52d2d4b4ac06ec92d2e4b4b006ecd2d2f4b4b406ed12d304b4b806ed52d114b4bc06ed92d124b4c006edd2d134b44406ee12d144b44806ee52d154b44c06ee92d164b45006eed2d174b45406ef12d184b45806ef52d194b45c839c400764ff9c4ff9d2d1a4b460839c800774ffa04ffa12d1b4b464839cc00784ffa44ffa52d1c4b468839d000794ffa84ffa92d1d4b46c)
  (.lf 0)) (.nd (.lf
  0x3e65408a602218600f008c63e6d43e6d408863e7550221998c3663880ac6198c301c186630d98c20ac503e65008a502214600ec08c53e6d03e6d008853e7510ac502b160ac550ac5598c201c140ac5998c2582580221598c2663846630998c10ac440ac442b130ac4944ad406a601a1844ad806a701a1c44adc06a801a20541dc06c644bd4541e006c744bd8541e406c844bdc44bd5131544cd544bd9131644cd944bdd131744cdd44cd406c601a1844cd806c701a1c44cdc06c801a2001a219903664880ade19903582646640d99020add00add02b760add50add99902522600add599025826001a1d9902664846640999010adc40adc42b730adc90adcd99015225c0adc999015825c01a199901664806640599000adb80adb82b700adbd0adbd9900582580adc19900522586640198ff0adac0adac2b6d0adb13e64c08a402210600e808c43e6cc3e6cc08843e74d0221198c16638044acc06a401a10541d406c444bcc44bcd131344ccd44ccc06c401a100adb198ff5825466381609501c1001a1198ff66478664794895582540ac4d98c15825466385609601c1458259c0ab1acd066485489858260664894899582646648148975825c1ac000000702b2)
  (.lf 0))) (.nd (.nd (.lf
  0x5a9a9cfae73f3473eb9cfad218245a9a5cfad73f3021824860b218292182dcfad5c94821829cfad5e94873eb5cfac218182181886082181d21821cfac5c9445a9a1cfac73f2c2181dcfac5e94473eb1cfab2180c5a99dcfab73f282180c86052181121815cfab5c94021811cfab5e94073eadcfaa218002180086022180521809cfaa5c93c5a999cfaa73f2421805cfaa5e93c73ea9cfa9217f4217f485ff217f9217f9cfa95e9385a995cfa973f20217fdcfa95c93873ea5cfa8217e8217e885fc217ed216d400005a9925a991cfa873f1c217edcfa85e934217f1cfa85c93473ea1cfa7217dc5a98dcfa773f18217dc85f9217e1217e5cfa75c930217e1cfa75e93073e9dcfa6217d0217d085f6217d5217d9cfa65c92c217d5cfa65e92c5a989cfa673f1473e99cfa5217c4217c485f3217c9217cdcfa55c9285a985cfa573f10217c9cfa55e92873e95cfa4217b8217b885f0217bd217c1cfa45c9245a981cfa473f0c217bdcfa45e92473e91cfa3217ac217ac85ed217b1217b1cfa35e920217b5cfa35c9205a97dcfa373f0873e8dcfa2217a0217a085ea217a5217a5cfa25e91c217a9cfa25c91c461780a8f021bc549800aaf462784627918be46379)
  (.lf 0)) (.nd (.lf
  0x1389927364a4859bc5b3e16d0006d0016ec05db00154a1b4685fb2c1549db46861b2c6d02d6ecb5db2c5db2db4686d21c6d1a1b4671548c1548c55251549115495b4675fb286d0296eca5db285db29b4676d21815491b46761b286d19db466154801548055221548515485b46661b246d0256ec95db245db25b4666d21415489b4665fb246d199b4651547415474551f154791547db4655fb206d0216ec85db205db21b4656d21015479b46561b206d195b4641546815468551c1546d15471b4645fb1c1546db46461b1c6d01d6ec75db1c5db1db4646d20c6d191b4631545c1545c55191546115465b4635fb1815461b46361b186d0196ec65db185db19b4636d2086d18db462154501545055161545515459b4625fb1415455b46261b146d0156ec55db145db15b4626d2046d189b46115444154445513154491544db4615fb1015449b46161b106d0116ec45db105db11b4616d2006d185b460154381543855101543d15441b4605fb0c1543db46061b0c6d00d6ec35db0c5db0db4606d1fc6d181b45f1542c1542c550d1543115435b45f5fb0815431b45f61b086d0096ec25db085db09b45f6d1f86d17db45e1542015420550a1542515429b45e5fb04)
  (.lf 0)))

def shaGateTree460 : BTree :=
  .nd (.nd (.nd (.lf
  0x4927e11305f6882d5b9ea702d5a82d5a8b56c2d5ad2d5adea705b6882bc75e6b70043479adde6b62bc642bc64af1b2bc692bc6de6b603f305d489e6b679b5479b540fcc0043012441ad60537786b581ad5f1242c1242c490d1243112431ad5f5977404631ad5f6b5f86b5f94ddd59774122d5ad2200bb46b489ad21122c4122c448b3122c9122cdad215977403f31ad216b5006b50165dd00bb059775ea702d6882d68800005b68a5b68a11308453c844c2112f4926c4926d249d4927149276112f5d68449272112f5f6842d5b000007a9c27a9c1ea6f2d59c2d59cb5692d5a12d5a1ea6f5b6842bc69e6b60043079ad9e6b52bc582bc58af182bc5d2bc61e6b503f2c5d485e6b579b5079b500fcb0042c12435ad5f537746b57dad5e1242012420490a1242512425ad5e597700462dad5e6b5f46b5f54ddc59770122c9ad2100bb06b485ad20122b8122b848b0122bd122c1ad205977003f2dad206b4fc6b4fd65dc00bac59771ea6f2d6842d68400005b6865b686112f84538844be112e4926049261249a492654926a112e5d68049266112e5f6802d5a400007a9be7a9bcb5662d5942d594b5665976d5d481e6b479b4c79b4c0fca004282bc5de6b50042c)
  (.lf 0)) (.nd (.lf
  0x728cdca321f0041f0047c031f0091f00dca326061c1f009ca326261c728c9ca311eff81eff87c001effd1f001ca31606181effdca31626187275171865e6185e619ca3172940728c5ca301efec1efec7bfd1eff11eff1ca30626147274d71855e6145e615ca307293c1eff5ca3060614728c1ca2f1efe01efe07bfa1efe51efe9ca2f606105e611ca2f729381efe5ca2f62610728bdca2e1efd41efd47bf71efd91efddca2e6060c1efd9ca2e6260c7274571835e60c5e60dca2e72934728b9ca2d1efc81efc87bf41efcd1efcdca2d626087273971805e6007274171825e6085e609ca2d729301efd1ca2d60608728b5ca2c1efbc1efbc7bf11efc11efc1ca2c626041efc5ca2c606047273d71815e6045e605ca2c7292c728b1ca2b1efb05e601ca2b729281efb07bee1efb51efb5ca2b626001efb9ca2b60600728adca2a1efa41efa47beb1efa91efa9ca2a625fc1efadca2a605fc728a9ca291ef981ef987be81ef9d1efa1ca29605f87272d717d5e5f472731717e5e5f85e5f9ca29729201ef9dca29625f8728a5ca281ef8c1ef8c7be51ef911ef91ca28625f45e5f5ca287291c1ef95ca28605f4728a1ca271ef801ef807be21ef851ef85ca27625f0)
  (.lf 0))) (.nd (.nd (.lf
  0x400700ded03734400740dee03738400780def0373c4007c0df003740400800df103744400840df203748400880df30374c4008c0df403750400900df503754400940df603758400980df70375c4009c0df803760400a00df903764400a40dfa03768400a80dfb0376c400ac0dfc03770400b00dfd03774400b40dfe03778400b80dff0377c60dd80e00400bc60ddc0e01400c060de00e02400c460de40e03400c860de80e04400cc60dec0e05400d060df00e06400d460df40e07400d860df80e08400dc60dfc0e09400e060e000e0a400e460e040e0b400e860e080e0c400ec60e0c0e0d400f060e100e0e400f460e140e0f400f860e180e10400fc60e1c0e114010060e200e124010460e240e134010860e280e144010c60e2c0e154011060e300e164011460e340e174011860e380e184011c60e3c0e194012060e400e1a4012460e440e1b4012860e480e1c4012c60e4c0e1d4013060e500e1e4013460e540e1f40138400bc0dc04013d400c00dc140141400c40dc240145400c80dc340149400cc0dc44014d400d00dc540151400d40dc640155400d80dc740159400dc0dc84015d400e00dc940161400e40dca40165400e80dcb40169400ec0dcc4016d)
  (.lf 0)) (.nd (.lf
  0x3bc6c05f7017c83bc7005f8017cc3bc7405f9017d03bc7805fa017d46edcd7fb061ec03e1a4061a017e85fec0063a3e2243e22405fa3e2a5017e9966b65a28659ad966a09f3009f3027ce09f3509f35966a012e43e1a00619017e45febc06393e2203e22005f93e2a1017e5966a65a2409f39966a58028659a9966909f2409f2427cb09f293e1940616017d83e1980617017dc3e19c0618017e05feb006363e2145feb406373e2185feb806383e21c3e21405f63e2953e21805f73e2993e21c05f83e29d017e1966965a2009f299669012e009f2d966958024659a5966809f1809f1827c809f1d09f2196685802009f1d9668012dc017dd966865a1c659a1966709f0c017d9966765a1809f0c27c509f1109f119667012d809f1596675801c6599d966609f0051f49ba716ea406ea414fd255f4818099ba7253f4c6e9c9ba71180841808460231808918089ba7155f486ea914fe655f9855f480437418c06ea654fdb55f6c55f6c0420418e455f98042b41910418e40437010b0419100422010dc443980457010dc53fa004774449844499114644599445980477010dc010dd96a665b1465b29480d580340a08996a65202065a9996a50a0740a074281f0a079)
  (.lf 0)))

def shaGateTree461 : BTree :=
  .nd (.nd (.nd (.lf
  0x28708a1c42870d28711df53552342870ddf535723453235df5377dc877d4ddf52286fc286fca1c12870128705df525523028701df525723053231df5277dc477d49df51286f0286f0a1be286f5286f9df515522c286f5df515722c5322ddf5177dc077d45df50286e4286e4a1bb286e9286eddf5055228286e9df505722853229df5077dbc77d41df4f286d8286d8a1b8286dd286e1df4f55224286dddf4f5722453225df4f77db877d3ddf4e286cc286cca1b5286d1286d5df4e55220286d1df4e5722053221df4e77db477d39df4d286c0286c0a1b2286c5286c9df4d5521c286c5df4d5721c5321ddf4d77db077d35df4c286b4286b4a1af286b9286bddf4c55218286b9df4c5721853219df4c77dac77d31df4b286a8286a8a1ac286ad286b1df4b55214286addf4b5721453215df4b77da877d2ddf4a2869c2869ca1a9286a1286a5df4a55210286a1df4a5721053211df4a77da477d29df492869028690a1a62869528699df495520c28695df495720c5320ddf4977da077d25df482868428684a1a3286892868ddf485520828689df485720853209df4877d9c77d21df472867828678a1a02867d28681df47552042867ddf475720453205df4777d98)
  (.lf 0)) (.nd (.lf
  0x1ba1000001bac61ba0c6eb15a31c1bac46e811ba001ba006e81583796687d48de583786678560de01d34583786e815a3181ba046eb01b9f41b9f46e7f1b9f91b9f86eb05a3141b9fc00001bac26687948dd583746678160dd01d30583746eb01bafc1bac06e7c1b9ec1b9ec6e7c58371583706e7c5a3101b9f06e7a1b9e41b9e46e7a5836d0b23d99c001d2c6670199bf0b22c0b22c2c8d0b2313e86408ea023280b23599bf5836c60200090a3e8e43e8e408ca3e9650232999bf667780b3a999fe52370667f999fd0b3940b3942ce70b3996677960db01d280b39999fd5836c44de406ea01b28542ec070a44ee444ee513d944fe544fe4070a01b2801b2999fd668706687148db5836c5836c6e7a5a30c3e86008e902324601fc09093e8e03e8e008c93e9610b39d99fd5236c667f599fc0b3880b3882ce40b38d0b38d99fc5836844de006e901b24542e8070944ee044ee113d844fe144fe0070901b2401b2599fc6686c6686d48da583680b23199bf01d28666fd99be0b2200b2202c8a0b2250b22999be583680232599be667746677560da01d241b9e86e781b9dc1b9dc6e7858369583686e785a3081b9e06eaf1b9d01b9d06e761b9d51b9d46eaf5a304)
  (.lf 0))) (.nd (.nd (.lf
  0xdc05a0fb58acc6848562ba02ca46848962bb02ca86848d62bc02cac6848162b902ca06846d62b402c8c3f7440cc203288609600ce23f7c43f7c40ca23f84503289a0fb684686846962b302c886847162b502c900dda9a13e52ae0684f9a13d0dd94464540ac602a9854a5c0ae64655446555197546655466540ae602a980dd9437670dd990dd9da13d52adc0dd99a13d58adc02a99a13d68570684f5a13c0dd880dd8837640dd8d3f73c0cc0032803f7400cc103284609580ce03f7bc6095c0ce13f7c03f7bc0ca03f83d3f7c00ca13f841685c14acb58b2c685b54ac858b200dc01a0fb02c88683eda0fa0dbf00dbf036fe0dbf50dbf9a0fa58ac8685b94ac958b244643c0ac002a80464400ac102a84464440ac202a88464480ac302a8c4644c0ac402a90464500ac502a9454a440ae04653c54a480ae14654054a4c0ae24654454a500ae34654854a540ae44654c54a580ae5465504653d196f4663d4654119704664146545197146645465491972466494654d19734664d465511974466514663c0ae002a80466400ae102a84466440ae202a88466480ae302a8c4664c0ae402a90466500ae502a946847962b702c98685bd4aca58b280dbf5a0fa02c84)
  (.lf 0)) (.nd (.lf
  0x53cf003cb43ce843ce90f5a43de943de803cb00e2c00e2d942e6513465135475c57d70091f5942f51d74650bd942e091e014c01b31f49f743b9bc054b015186cc7db31e14bf014bf052fe14bf55ba85b31e6ccf4091e0247a091e5091e5942e57d703dc68056b0152c5fc04058b3dce83dce8054b3dd696ccf4054b49f7014bf9b31e0152c0152d93f06503c6503d5f5c0102c57d705999166b0165880000166661666459981657416574595f165795ba81b31d6ccf06ccf0054a49f6c14bf5b31e49f706cc79b31d14be414be452fb14be914bedb31d015283ba38054a015143dc64056a015285fc00058a3dce43dce4054a3dd650152993ef65038650395f5b01028091e9942e51d70650b9942d091d4091d42477091d9091d9942d57d6c43be403aa00e2853cec03ca43ce443ce50f5943de543de403ca00e2800e29942d651300907d93f00102c64fc193ef0906c0906c241d090710907593ef57d6c65131475b57d6c57d6c5998166ac14be9b31d49f6c6cc75b31c14bd814bd852f814bdd14be1b31c015245ba7db31c6ccec14bddb31c49f686cc71b31b14bcc14bcc52f514bd114bd5b31b015205ba79b31b6cce814bd1b31b49f646cc6db31a14bc0)
  (.lf 0)))

def shaGateTree462 : BTree :=
  .nd (.nd (.nd (.lf
  0x29994a667299992999de1cd03cdc03cddaac06ab7c6ab7d6548045dc116b5aaff535246abfdaafe116a0116a045aa116a5116a5aafe59520043ddaafe6ac746ac754d485952011549aac1045e06ab05aac0115381153845501153d11541aac05952059520acaf5b43c5b43de57a7966479665750d5f4345f435e5f679854797d9e5f52b7342b734adcf2b7392b73de5f5614302b739e5f5634302b479e57a5d434795e9e5792b4642b464ad1b2b4692b469e5795f4302b2bcacad2b2b02b2b0acad5951d5d231e1cc787ac787ac0f36001d829999e1cd001dc78735e1cc2998829988a6642998d29991e1cc03cd803cd9aabf6ab786ab796547045d8116a9aafe535206abf9aafd116941169445a71169911699aafd5951c043d9aafd6ac706ac714d475951c1153daac0045dc6ab01aabf1152c1152c454d1153111535aabf5951c5951cacad5b4385b439e5797966079661750c5f4305f431e5f579850797d5e5f42b7282b728adcc2b72d2b731e5f46142c2b72de5f46342c2b46de5795d430795e5e5782b4582b458ad182b45d2b45de5785f42c2b2b4acab2b2a82b2a8acab595195d22de1cb787a8787a80f35001d42998de1cc001d878731e1cb2997c)
  (.lf 0)) (.nd (.lf
  0x623e0095b3c1c47192580f9623e4623e4095c3c1c87192980fa623e8623e8095d3c1cc7192d80fb623ec623ec095e3c1d07193180fc623f0623f0095f3c1d47193d80ff623fc623fc09423c1e0719418100624006240009433c1e4719458101624046240409443c1e8719498102624086240809453c1ec7194d81036240c6240c09463c1f0719518104624106241009473c1f4719558105624146241409483c1f8719598106624186241809493c1fc7195d81076241c6241c094a3c2007196181086242062420094b3c2047196581096242462424094c3c20871969810a6242862428094d3c20c6242c094e3c21071971810c6243062430094f3c21471975810d624346243409503c21871979810e624386243809513c21c7197d810f6243c6243c09523c220719858111624446244409543c228719898112624486244809553c22c7198d81136244c6244c09563c230719918114624506245009573c234719958115624546245409583c2383c1e009540253c3c1e40955025403c1e80956025443c1ec0957025483c1f009580254c3c1f40959025503c1f8095a025543c1fc095b025583c200095c0255c3c204095d025603c208095e025643c20c095f02568)
  (.lf 0))) (.nd (.nd (.lf
  0x395ca0ab64b4b4395c60ab64fd34393060a3b4cd38828ee0a3a392f0392f0e4be392f5392f60a3a4e53468c91634d02ef068d894b4d58d3424451d5e2036f475789d5e12443c2443c91112444124441d5e14b134242e5d5a45ec4c75691d5a3242d4242d490b7242d9242ddd5a35cc4824151d586241402414090522414524145d5865ac9458d35d586241882418800005ac965ac95d5a3757087570973125ec485cc49d5e175800758000dbc4b1344b1360a3a8296482965334d4e5344e5360ab682b5482ada0ab5395b4395b4e56f395b9395be0ab54b4b0395ba0ab54fd30392fa0a3a4cd34828ea0a39392e4392e4e4bb392e9392ea0a394e53068c8d634c02eec68d854b4c58d3024445d5e1036f075785d5e02443024430910e2443524435d5e04b130242d9d5a35ec487568dd5a2242c8242c890b4242cd242d1d5a25cc442414800007561a75619d5852413424134904f2413924139d5855ac9058d31d585241842418400005ac925ac91d5a2757047570573115ec445cc45d5e0757fc757fc0dbb4b1304b1320a398296082961334c4e5304e5320ab582b5082ad60ab4395a8395a8e56c395ad395b20ab44b4ac395ae0ab44fd2c392ee0a394cd30)
  (.lf 0)) (.nd (.lf
  0x6dff1b7fb16fd46e0cc05ff4a2400947194a451dd86529194a30945c0945c2519094610946194a357dd443d4c03c400e9053d5403e443e4c43e4d0fb343f4d43f4c03e400e9000e9194a3653080946594a351dd46528d94a209450094502516094550945594a257dd00945994a251dd043d4803c300e8c53d5003e343e4843e490fb243f4943f4803e300e8c00e8d94a2653046528994a1094444d541f3797ce607cde5f37830ed830ed8c3b830edd30eddf3784ed3c30ee1f3784a4bc4d53df3787ce5c7cde1f37730ecc30eccc3b530ed130ed1f3774ed3830ed5f3774a4b84d539f3777ce587cdddf37630ec030ec0c3b230ec530ec5f3764ed3430ec9f3764a4b44d535f3767ce547cdd9f37530eb430eb4c3af30eb930eb9f3754ed3030ebdf3754a4b04d531f3757ce507cdd5f37430ea830ea8c3ac30ead30eadf3744ed2c30eb1f3744a4ac4d52df3747ce4c7cdd1f37330e9c30e9cc3a930ea130ea1f3734ed2830ea5f3734a4a84d529f3737ce487cdcdf37230e9030e90c3a630e9530e95f3724ed2430e99f3724a4a44d525f3727ce447cdc9f37130e8430e84c3a330e8930e89f3714ed2030e8df3714a4a04d521f3717ce407cdc5f37030e78)
  (.lf 0)))

def shaGateTree463 : BTree :=
  .nd (.nd (.nd (.lf
  0x4c9f6060c818ac81832060b37a3c37a3cde9137a4137a46060b000ac37a42060b511f04c9f2060b818a88182e060a37a3037a30de8e37a3537a3a060a000a837a36060a511ec4c9ee060a818a48182a060937a2437a24de8b37a2937a2e0609000a437a2a0609511e84c9ea0609818a081826060837a1837a18de8837a1d37a220608000a037a1e0608511e44c9e606088189c81822060737a0c37a0cde8537a1137a1606070009c37a120607511e04c9e20607818988181e060637a0037a00de8237a0537a0a06060009837a060606511dc4c9de0606818948181a0605379f4379f4de7f379f9379fe060500094379fa0605511d84c9da060581890818160604379e8379e8de7c379ed379f2060400090379ee0604511d44c9d606048188c818120603379dc379dcde79379e1379e606030008c379e20603511d04c9d20603818888180e0602379d0379d0de76379d5379da060200088379d60602511cc4c9ce0602818848180a0601379c4379c4de73379c9379ce060100084379ca0601511c84c9ca0601818804c9c40020511c4818040020511c5511c4000305928818800021511c8511c800040592c818840022511cc511cc000505930818880023511d0)
  (.lf 0)) (.nd (.lf
  0x330e0cc3a330e56fb45701c5e0705c071bef06fc3c6fc3c08c64a55c1a0e9bef10231c6fbc5bef01a0d41a0d468371a0d91a0d9bef04a55c4a55df96e7e6347e63530574d95c330e9f96e4c15c4c15df9ac7e72c33248cc943324d33251f9ac4ad5c3324df9ac5095c7e6b1f9ab3323c3323ccc913324133241f9ab509581a0ddbef0023186fbc1beef1a0c81a0c868341a0cd1a0d1beef023141a0cdbeef4a5586fb3d701a5e0685c069beee6fc346fc3408c44a5546fb41701b5e06c5c06dbeef6fc386fbbdbeee1a0bc1a0bc68311a0c11a0c1beee4a5544a555f96c7e62c3e4400661019045ffdc08813e4c03e4c006413e5410a69197c701b0865f1d97c60a6800190597c665f9465f95605201b040a68029a20a6850a68997c6581486608d48525814858149bead6fb306fb3170175e05c330e5f96e4d95c7e5b9f96d330d4330d4cc37330d9330d9f96d4d958330ddf96d4c1586fc3808c54a5584a559f96d7e6307e5b5f96c330c8330c8cc34330cd330d1f96c4c154330cdf96c4d9547e5b1f96b330bc330bccc31330c1330c5f96b4c150330c1f96b4d9505c05dbeeb6fc286fc2808c14a5481a0c5beee023106fb3970195e0645c065beed6fc30)
  (.lf 0))) (.nd (.nd (.lf
  0xd41c35090d4210d4259f935897c0d4219f9302b38029399f9367ec867e4d9f920d4100d41035060d4150d4199f92589780d4159f9202b34029359f9267ec467e499f910d4040d40435030d4090d40d9f91589740d4099f9102b3067e459f900d3f80d3f835000d3fd0d3fd9f9002b2c0292d9f9067ebc0d4019f905897067e419f8f0d3ec0d3ec34fd0d3f10d3f59f8f5896c029159f8a67ea40d3f19f8f02b28029299f8f67eb867e3d9f8e0d3e00d3e034fa0d3e50d3e59f8e02b240d3e99f8e58968029259f8e67eb467e399f8d0d3d40d3d434f70d3d90d3d99f8d02b200d3dd9f8d58964029219f8d67eb067e359f8c0d3c80d3c834f40d3cd0d3d19f8c589600d3cd9f8c02b1c0291d9f8c67eac67e319f8b0d3bc0d3bc34f10d3c1029199f8b67ea80d3c19f8b02b180d3c59f8b5895c67e2d9f8a0d3b00d3b034ee0d3b50d3b59f8a02b140d3b99f8a5895867e299f890d3a40d3a434eb0d3a90d3a99f8902b100d3ad9f895895467f2d9fca0d5300d530354e0d5350d5399fca529600d5359fca58960029119f8967ea067e259f880d3980d39834e80d39d0d3a19f88589500211d9fca67fa467f299fc90d5240d524354b0d5290d5299fc95895c)
  (.lf 0)) (.nd (.lf
  0x82ad918957b04646259188082980829820a80829d646d15ecd00df053a8403304357c4357d0d7f4367d4347c03104b7845f98c04ed3d7f03d7f12d5e3d8713d77004cd4b578639fd2d5e008343b7452d5e4b5644b5799186646943b74d2d604b56c5f99404ef3d7f8082a1918857b000829d918800dbc3d77804cf4b5803d7f92d603d87963a052d600083c4b58191886469c6462191870828c63a012d5f008385f99004ee3d7f43d77404ce4b57c3b7492d5f4b5683d7f52d5f3d8754b57d9187646980828c20a50829108291918700db808295918757afc6461d9186082800828020a20828508285918600db408289918657af86461991850827408274209f0827908279918500db00827d918557af43d76c04cc4b5745f98804ec3d7ec3b7412d5d4b5603d7ed2d5d3d86d4b5759185646906461591840826808268209c0826d63de92de100a403d75c04c84b564414352ddc4b74453a90033343588435890d82436890843591ca57b104368803334b79063df52de400a4c4348803134b790413d52de44b7644b79191ca647a46472991c90842408424210b084290842d91c951b0c4348003114b78853a7c032e435744348403124b78c413d12de34b760)
  (.lf 0)))

def shaGateTree464 : BTree :=
  .nd (.nd (.nd (.lf
  0x48e1a1072598d848e16107200a202d169e9b8005a47a6e1e9b72d1582d158b4582d15d2d161e9b7040a05d5f9e9b77a7587a7581028005a0040a2107284244841ca107148e0448e05238348e0948e0e1071598d448e0a107100a1c2d15de9b7005a07a6dde9b62d14c2d14cb4552d1512d155e9b60409c5d5f5e9b67a7547a75410270059c0409e107184240841c6107048df848df9238048dfd48e021070598d048dfe107000a182d151e9b60059c7a6d9e9b52d1402d140b4522d1452d149e9b5040985d5f1e9b57a7507a7501026005980409a10708423c841c2106f48dec48ded237d48df148df6106f598cc48df2106f00a142d145e9b5005987a6d5e9b42d1342d134b44f2d1392d13de9b4040945d5ede9b47a74c7a74c10250059404096106f84238841be106e48de048de1237a48de548dea106e598c848de6106e00a102d139e9b4005947a6d1e9b32d1282d128b44c2d12d2d131e9b3040905d5e9e9b37a7487a74810240059004092106e84234841ba106d48dd448dd5237748dd948dde106d598c448dda106d00a0c2d12de9b3005907a6cde9b22d11c2d11cb4492d1212d125e9b20408c5d5e5e9b27a7447a74410230058c0408e106d84230)
  (.lf
  0x432650cb943365433652ddb4b86c4b86d90c9643a06432590c807e1863fbd2e1a00b244b86990c86439c6439d467a579e807e181f8807e1d07e2190c8519e8519e9af9a6bee4643a1467b579ec519edaf9b6bee80787d8fd000b2463f418fcf0786c849a58fcf63fb80786c1e1d07871078758fcf4b864078718fcf00b2063f3d8fce07860078601e1a07865078698fce4b860539652dd94325c07e1d90c8579e86432190c707e0c07e0c1f8507e1107e1190c7579e407e1590c7519e463fb92e1900b204325d0cb74335d4335d2dd94b8644b86590c7643986431d90c607e0007e001f8207e05849a18fce63fb463fb52e1800b1c07e0990c6519e0539612dd843258432590cb643359433592dd84b8604b86190c664394643954678579e0519e1af986bedc13231af9c539f0643a5467c579f0519f1af9c6beec6be71af9b1321c1321c4c891322113225af9b539ec13221af9b559ec6be6daf9a13210132104c861321513219af9a539e813215af9a559e86be69af9913204132044c83132091320daf99539e4643994679579e4519e5af996bee013209af99559e46be65af98131f8131f84c80131fd131fdaf98559e013201af98539e06be61af97131ec))
  (.nd (.lf
  0x36e2203e84b49c36e1e03e85109c36cc203ab4e0a080eae03aa36cb036cb0db2e36cb536cba03aa4c89c4ac9e03aa80f2480f2532274e09c4c89e03e88101c80fa203e736e0c36e0cdb8536e1136e1603e74b49836e1203e75109836cb603aa4e09c80eaa03a936ca436ca4db2b36ca936cae03a94c8984ac9a03a980f2080f2132264e0984c89a03e78101880f9e03e636e0036e00db8236e0536e0a03e64b49436e0603e65109436caa03a94e09880ea603a836c9836c98db2836c9d36ca203a84c8944ac9603a880f1c80f1d32254e0944c89603e68101480f9a03e536df436df4db7f36df936dfe03e54b49036dfa03e55109036c9e03a84e09480ea203a736c8c36c8cdb2536c9136c9603a74c8904ac9203a780f1880f1932244e0904c89203e58101080f9603e436de836de8db7c36ded36df203e44b48c36dee03e45108c36c9203a74e09080e9e03a636c8036c80db2236c8536c8a03a64c88c4ac8e03a680f1480f1532234e08c4c88e03e48100c80f9203e336ddc36ddcdb7936de136de603e34b48836de203e35108836c8603a64e08c80e9a03a536c7436c74db1f36c7936c7e03a54c8884ac8a03a580f1080f1132224e0884c88a03e381008)
  (.lf 0))) (.nd (.nd (.lf
  0x27409dc785cf80771e1dc77273f4273f49cff273f9273f9dc775ef7c2722800002730e2730c9cc227214272149c8727219272189cc25afa8590689cc2273542735400005afaa5afa9dc77772587725973df5ef7c5ef7ddcf377448773cddcf2276b8276b89db0276bd276c1dcf260f78276bddcf262f78273fddc775cf7c771dddc76273e8273e89cfc273ed273eddc765ef782721c00002730a273089cc127208272089c842720d2720c9cc15afa4590649cc1273502735000005afa65afa5dc76772547725573de5ef785ef79dcf277444773c9dcf1276ac276ac9dad276b1276b5dcf160f74276b1dcf162f74273f1dc765cf78771d9dc75273dc273dc9cf9273e1273e1dc755ef7427210000027306273049cc0271fc271fc9c8127201272009cc05afa0590609cc02734c2734c00005afa25afa1dc75772507725173dd5ef745ef75dcf177440773c5dcf0276a0276a09daa276a5276a9dcf060f70276a5dcf062f70273e5dc755cf74771d5dc74273d0273d09cf6273d5273d5dc745ef7027204000027302273009c7e271f4271f49c7e5905d5905c9c7e5af9c5af9ddc747724c7724d73dc5ef705ef71dcf07743c773c1dcef27694276949da727699)
  (.lf 0)) (.nd (.lf
  0x6f821be0719ab019ab066ae19ab519ab9be07022d419ab5be074a5186f81dbe0619aa419aa466ab19aa919aa9be064a51419aadbe06022d06f819be0519a9819a9866a819a9d6f79970095e0245c025be056f89019aa1be05022cc19a9dbe054a5106f815be0419a8c19a8c66a519a9119a91be044a50c6f79570085e0205c021be046f88c19a95be04022c86f811be0319a806f79170075e01c5c01dbe036f8886f78d70065e01819a8066a219a8519a89be03022c419a85be034a5086f80dbe0219a745c019be026f88419a74669f19a7919a79be024a50419a7dbe02022c06f809be0119a6819a68669c19a6d19a71be01022bc6f78970055e0145c015be016f88019a6dbe014a5006f805be0019a5c19a5c669919a6119a61be004a4fc19a65be00022b85c011be006f87c6f801bdff19a5019a50669619a5519a55bdff4a4f85c00dbdff6f87819a59bdff022b46f7fdbdfe19a445c009bdfe6f87419a44669319a4919a4dbdfe022b019a49bdfe4a4f46f7f9bdfd19a3819a38669019a3d19a3dbdfd4a4f019a41bdfd022ac5c005bdfd6f8706f7f5bdfc19a2c19a2c668d19a3119a31bdfc4a4ec19a35bdfc022a86f7f1bdfb19a203bdb006280188c)
  (.lf 0)))

def shaGateTree465 : BTree :=
  .nd (.nd (.nd (.lf
  0x2a540a94f2a4b42a4b4a92f2a4b92a4b8a94f5b33c28b2ddfc8000d477f21dfc728b1c28b1ca2c928b2128b25dfc703bd05d129dfc777f9877f980ef4000d0110f1aa04534186a811aa03110dc110dc4439110e1110e1aa0359414042d1aa036a8886a8894d055941410f85a9c6044d46a719a9c510f7410f7443df10f7910f7da9c55941403bd1a9c56a7906a7916505044d059414a94f2a5742a57400005b33e5b33de37c78e6c78e6d74ca5f3285f329e3f87905c78fe1e3f72a92c2a92caa4d2a9312a935e3f7613242a931e3f7633242a671e37c5d32878df1e37b2a65c2a65ca9992a6612a661e37b5f3242a4bc00002a53e2a53ca92c2a4ac2a4aca92c594115d125dfc677f9477f940ef3000cc28b21dfc7000d077f1ddfc628b1028b10a2c628b1528b19dfc603bcc03bcda9c46a78c6a78d6504044cc110e5aa03534146a80daa02110d0110d04436110d5110d5aa0259410042cdaa026a8846a8854d045941010f79a9c5044d06a715a9c410f6810f6843dc10f6d10f71a9c45941059410a92c5b3385b339e37b78e6878e6974c95f3245f325e3f77905878fdde3f62a9202a920aa4a2a9252a929e3f6613202a925e3f6633202a665e37b5d324)
  (.lf 0)) (.nd (.lf
  0x34cacd32d34cb134cb5fe1f4b0b834cb1fe1f50cb834b55fde24dcbc7f789fde134b4434b44d2d334b4934b4dfde14c4b84a8b9fde17f8007f801312e4dcb84c4b9fe1f7f8f87f87dfe1e34ca034ca0d32a34ca534ca9fe1e4b0b434ca5fe1e50cb434b49fde14dcb87f785fde034b3834b38d2d034b3d34b41fde04c4b44a8b5fde07f7fc7f7fd312d4dcb44c4b5fe1e7f8f47f879fe1d34c9434c94d32734c9934c9dfe1d4b0b034c99fe1d50cb034b3dfde04dcb47f781fddf34b2c34b2cd2cd34b3134b35fddf4c4b04a8b1fddf7f7f87f7f9312c4dcb04c4b1fe1d7f8f07f875fe1c34c8834c88d32434c8d34c91fe1c4b0ac34c8dfe1c50cac34b31fddf4dcb07f77dfdde34b2034b20d2ca34b2534b29fdde4c4ac4a8adfdde7f7f47f7f5312b4dcac4c4adfe1c7f8ec7f871fe1b34c7c34c7cd32134c8134c85fe1b4b0a834c81fe1b50ca834b25fdde4dcac7f779fddd34b1434b14d2c734b1934b1dfddd4c4a84a8a9fddd7f7f07f7f1312a4dca84c4a9fe1b7f8e87f86dfe1a34c7034c70d31e34c7534c79fe1a4b0a434c75fe1a50ca434b19fddd4dca87f775fddc34b0834b08d2c434b0d34b11fddc4c4a44a8a5fddc7f7ec7f7ed31294dca4)
  (.lf 0))) (.nd (.nd (.lf
  0x237948de7237992379dd41060b3823799d41062b385eb39d410750bc75041d40f23788237888de42378d23791d40f60b342378dd40f62b345eb35d40f750b87503dd40e2377c2377c8de12378123785d40e60b3023781d40e62b305eb31d40e750b475039d40d23770237708dde2377523779d40d60b2c23775d40d62b2c5eb2dd40d750b075035d40c23764237648ddb237692376dd40c60b2823769d40c62b285eb29d40c750ac75031d40b23758237588dd82375d23761d40b60b242375dd40b62b245eb25d40b750a87502dd40a2374c2374c8dd52375123755d40a60b2023751d40a62b205eb21d40a750a475029d40923740237408dd22374523749d40960b1c23745d40962b1c5eb1dd409750a075025d40823734237348dcf237392373dd40860b1823739d40862b185eb19d4087509c75021d40723728237288dcc2372d23731d40760b142372dd40762b145eb15d407750987501dd4062371c2371c8dc92372123725d40660b1023721d40662b105eb11d4067509475019d40523710237108dc62371523719d40560b0c23715d40562b0c5eb0dd4057509075015d40423704237048dc3237092370dd40460b0823709d40462b085eb09d4047508c)
  (.lf 0)) (.nd (.lf
  0x307f1f2644a84c7c991f263307dc307dcc1f9307e1307e5f2634a8484bc49f2637ca08307e1f263504487c98d2a11504455044529f404cec7ca092a12504485044929f504cf07ca0d2a135044c5044d29f604cf47ca112a14504505045129f704cf87ca152a15504545045529f804cfc7ca192a16504585045929f904d007ca1d2a175045c5045d29fa04d047ca212a18504605046129fb04d087ca252a19504645046529fc04d0c7ca292a1a504685046929fd04d107ca2d2a1b5046c5046d29fe04d147ca312a1c504705047129ff04d187ca352a1d50474504752a0004d1c7ca392a1e50478504792a0104d207ca3d2a1f5047c5047d2a0204d247ca412a2050480504812a0304d287ca452a2150484504852a0404d2c7ca492a2250488504892a0504d307ca4d2a235048c5048d2a0604d347ca512a2450490504912a0704d387ca552a2550494504952a0804d3c7ca592a2650498504992a0904d407ca5d2a275049c5049d2a0a04d447ca612a28504a0504a12a0b04d487ca652a29504a4504a52a0c04d4c7ca692a2a504a8504a92a0d04d507ca6d2a2b504ac504ad2a0e04d547ca712a2c504b0504b12a0f04d587ca752a2d504b4504b52a1004d5c)
  (.lf 0)))

def shaGateTree466 : BTree :=
  .nd (.nd (.nd (.lf
  0x2ae55e4b503e305d389e4b579350793500f8c0033011ea1ac68536786b1a1ac6711e8c11e8c47a511e9111e91ac675967404531ac676b2186b2194d9d5967411d35ac2a047346b0a9ac2911d2411d24474b11d2911d2dac295967403e31ac296b1206b121659d0473059675e86f2c8342c83400005b58a5b589e8857a2907a29175625f5885f589e9017a4807a405e9002cba42cba4b2eb2cba92cbade900615842cba9e900635842c8e9e8855d5887a215e8842c8d42c8d4b2372c8d92c8d9e8845f5842c76800007a1be7a1bcb1d72c7582c758b1d7596715d385e4b47934c7934c0f8b0032c2ae51e4b500330792d5e4b42ae402ae40ab922ae452ae49e4b403e2c03e2dac286b11c6b11d659c0472c11e95ac67536746b19dac6611e8011e8047a211e8511e85ac66596700452dac666b2146b2154d9c5967011d29ac29047306b0a5ac2811d1811d18474811d1d11d21ac285967059670b1d75b5845b585e8847a28c7a28d75615f5845f585e9007a47c7a401e8ff2cb982cb98b2e82cb9d2cba1e8ff615802cb9de8ff635802c8dde8845d5847a211e8832c8c82c8c8b2342c8cd2c8cde8835f5802c75cb1d52c7502c750b1d55966d5d381e4b379348)
  (.lf 0)) (.nd (.lf
  0x5869c794d1e5781e57800005a62a6736961af020786745149ab586ac6736161ad020706736561ae020746745949ad586b46746549b0586c06736d61b00207c586c079535a64c1e54c79521e5041e50479431e5091e50879525a6486745d49ae586b86746149af586bc586bc79521e58c1e50c00001e54a1e54879511e4f81e4f879401e4fd586b479501e5841e4fc79515a644586b879511e5881e50000001e5461e54479501e4ec1e4ec793d1e4f11e4f079505a6401e4f400001e5421e540793a1e4e41e4e4793a586b16745549ac586b06735d61ac0206c586b0793a5a63c1e4e8794f1e4d81e4d879381e4dd1e4e000001e53e6735961ab02068586ac794f1e5801e4dc794f5a6381e53c794e1e4cc1e4cc79351e4d11e4d0794e5a6346735561aa02064586a8794e1e57c1e4d400001e53a1e53879321e4c46744949a9586a46735161a9020601e4c47932586a5586a479325a6301e4c879301e4bc1e4bc7930586a16744549a8586a06734d61a80205c586a079305a62c1e4c0794d1e4b01e4b0792e1e4b51e4b4794d5a6285a629c8b57235072351716c5e5b05a64dc8be72374722f9c8bd1e6ec1e6ec79bd1e6f11e6f1c8bd5e5d01e58c00005a64a)
  (.lf 0))) (.nd (.nd (.lf
  0xf0a1a47303058691cda4720f0900f0903c260f0950f099a47258e9803655a472692440f095a47203054691c9a4710f0840f0843c230f0890f08da47158e9403651a471692400f089a47103050691c5a4700f0780f0783c200f07d0f081a47058e900364da4706923c0f07da4700304c691c1a46f0f06c0f06c3c1d0f0710f071a46f0304803649a46f692380f075a46f58e8c691bda46e0f0600f0603c1a0f0650f069a46e58e8803645a46e692340f065a46e03044691b9a46d0f0540f0543c170f0590f059a46d0304003641a46d692300f05da46d58e84691b5a46c0f0480f0483c140f04d0f051a46c58e800363da46c6922c0f04da46c0303c691b1a46b0f03c0f03c3c110f0410f041a46b0303803639a46b692280f045a46b58e7c691ada46a0f0300f0303c0e0f0350f039a46a58e7803635a46a692240f035a46a03034691a9a4690f0240f0243c0b0f0290f029a4690303003631a469692200f02da46958e74691a5a4680f0180f0183c080f01d0f021a46858e700362da4686921c0f01da4680302c691a1a4670f00c0f00c3c050f0110f011a4670302803629a467692180f015a46758e6c6919da4660f0000f0003c020f0050f009a46658e68)
  (.lf 0)) (.nd (.lf
  0x4beddf60a7d8a47d7cd2fbf4d6fc4befdf6127d8c431dbdf6154ab087d855f61431da831da8c76c31dad31dadf614507047d7d52fc14d7044bf05f6147d8cc31db1f6144ab047d851f61331d9c31d9cc76931da131da5f6134ab0031da1f613507004bf01f6137d8c87d84df61231d9031d90c76631d9531d99f6124aafc31d95f612506fc7d849f61131d8431d84c76331d8931d8df6114aaf87d7c12fbc4d6f04bef9f6117d8c031d89f611506f87d845f61031d7831d78c76031d7d31d81f6104aaf431d7df610506f47d7c52fbd4d6f44bef5f6107d8bc7d841f60f31d6c31d6cc75d31d7131d75f60f4aaf04bef1f60f7d8b831d71f60f506f07d83df60e31d6031d60c75a31d6531d69f60e4aaec31d65f60e506ec7d839f60d31d5431d54c75731d5931d59f60d506e86e85c06244a2d44a2d5f5ca7d7a47d7a52fb54d6d47d7a92fb64d6d87d7b92fba4d6e84bee9f60d7d8b031d5df60d4aae87d835f60c31d4831d48c75431d4d31d51f60c4aae47d7b52fb94d6e44bee5f60c7d8ac31d4df60c506e47d831f60b31d3c31d3cc75131d4131d45f60b4aae031d41f60b506e04bee1f60b7d8a87d82df60a31d3031d30c74e31d3531d35f60a506dc)
  (.lf 0)))

def shaGateTree467 : BTree :=
  .nd (.nd (.nd (.lf
  0x27ddc9f7927de127de5ddfc6100427de1ddfc630045f005ddfc7786c777f1ddfb27dd027dd09f7627dd527dd9ddfb6100027dd5ddfb630005f001ddfb77868777edddfa27dc427dc49f7327dc927dcdddfa60ffc27dc9ddfa62ffc5effdddfa77864777e9ddf927db827db89f7027dbd27dc1ddf960ff827dbdddf962ff85eff9ddf977860777e5ddf827dac27dac9f6d27db127db5ddf860ff427db1ddf862ff45eff5ddf87785c777e1ddf727da027da09f6a27da527da9ddf760ff027da5ddf762ff05eff1ddf777858777ddddf627d9427d949f6727d9927d9dddf660fec27d99ddf662fec5efedddf677854777d9ddf527d8827d889f6427d8d27d91ddf560fe827d8dddf562fe85efe9ddf577850777d5ddf427d7c27d7c9f6127d8127d85ddf460fe427d81ddf462fe45efe5ddf47784c777d1ddf327d7027d709f5e27d7527d79ddf360fe027d75ddf362fe05efe1ddf377848777cdddf227d6427d649f5b27d6927d6dddf260fdc27d69ddf262fdc5efddddf2778445efd983f662fd8777c983f662fd962fd80e593cdbc7784583f762fdc62fdc0e5a3cdc07784983f862fe062fe00e5b3cdc47784d83f962fe462fe40e5c3cdc87785183fa62fe8)
  (.lf 0)) (.nd (.lf
  0x562a806af41c207029550ab562ac562ac06b041c2441bf006ba01abc41bf406bb01ac041bf806bc01ac441c1c06a501ae841c2006a601aec41c2406a701af044ca806db01aec44cac06dc01af0542b006fb44da8542b406fc44dac44da9138a44ea944dad138b44ead44ea806fb01aec44eac06fc01af001aed9992666c40b1a199935833401af19993666c86664d99920b1900b1902c660b1950b1999992523300b1959992583306664999910b1840b1842c630b1890b18d99915232c44ca406da01ae8542ac06fa44da444da5138944ea544ea406fa01ae80b18999915832c01ae99991666c06664599900b1780b1782c600b17d0b17d9990583280b18199905232866641998f0b16c0b16c2c5d0b1710b171998f583240b175998f5232470259509c562707023550935624c5624c06b841bc45627006a141be87028550a75629c5629c06ac41c1441be806b801ab441c1406a301ae044c9c06d801ae0542a406f844d9c44d9d138744e9d44e9c06f801ae001ae1998f666b86663d998e0b16070255509b5626c52249c06d702301aa65c06d56248702315092562485624806b741bc05626c06a041be47028150a6562985629806ab41c1041be406b701ab0)
  (.lf 0))) (.nd (.nd (.lf
  0x3785cde19378613786205c34e1c85a939cf9273ec473ec572375e8dc5c8ddcfd073fbc73fbc0ce14adc82185dcfd10338873f45cfd0218482184886142184d2184dcfd04adc84adca05c3817888178932724e1c84e1ca063f819783786605c34c9c8216e5cf925e8dc73e4972365e8d95c8d80ce04adc421851cfd00338473f400ce04adc54adc532714e1c48170d32714e1c54e1c52c514f9c4818fd2c514f9c54f9c52bbb06ad8819792c524f9c84f9c92bbc06adc8197d2c534f9cc4f9cd2bbd06ae0819812c544f9d04f9d12bbe06ae4819852c554f9d44f9d52bbf06ae8819892c564f9d84f9d92bc006aec8198d2c574f9dc4f9dd2bc106af0819912c584f9e04f9e12bc206af4819952c594f9e44f9e52bc306af8819992c5a4f9e84f9e92bc406afc8199d2c5b4f9ec4f9ed2bc506b00819a12c5c4f9f04f9f12bc606b04819a52c5d4f9f44f9f52bc706b08819a92c5e4f9f84f9f92bc806b0c819ad2c5f4f9fc4f9fd2bc906b10819b12c604fa004fa012bca06b14819b52c614fa044fa052bcb06b18819b92c624fa084fa092bcc06b1c819bd2c634fa0c4fa0d2bcd06b20819c12c644fa104fa112bce06b24819c52c654fa144fa152bcf06b28)
  (.lf 0)) (.nd (.lf
  0x43ab8039f00dfc41630036a00dfc41604037f00dd043cb803bf00dfc00dfd93c664f9464f1993c508ff408ff423ff08ff908ffd93c551d3c6d2fd4f2055c8055c800365415f8415f8037c00dc46d32d4f2c55cb055cb003714162841628036800df455cac03704162441624036700df053cb803bd43bb043bb10f0c43cb143cb003bd00df453cb403bc43bac43bad0f0b43cad43cac03bc00df06d3014f2155c841556db49953c646d265b498155581555855581555d1555db49855c6064d45471857c6051c61b4986d2dc55c840366415fc43ab0039d00df4415fc037d00dc86d2dd4f1855c6055c60037d415d800df593c464f8c08ff993c557d3c64f1593c408fe808fe823fc08fed08fed93c457d3808ff193c451d3864f1193c308fdc08fdc23f908fe108fe593c351d3415561b49853c606d261b4971554c1554c55551555115551b49755c5c64d41471757c5c51c5db4976d2d86d2d94f1755c5c55c5c037c415d400df193c364f8808fe193c357d3464f0d93c208fd008fd023f608fd508fd593c257d306d2f94f1f55c7c55c7c0364415f453bd40384439cc439cd0e9343acd43acc038400d10438cc036400d1000d11932f64d3864d39471557c54)
  (.lf 0)))

def shaGateTree468 : BTree :=
  .nd (.nd (.nd (.lf
  0x557b011fb48ca8557b411fc48cac557b811fd48cb0557bc11fe48cb4557c011ff48cb848c3d232f48d3d48c41233048d4148c45233148d4548c49233248d4948c4d233348d4d48c51233448d5148c55233548d5548c59233648d5948c5d233748d5d48c61233848d6148c65233948d6548c69233a48d6948c6d233b48d6d48c71233c48d7148c75233d48d7548c79233e48d7948c7d233f48d7d48c81234048d8148c85234148d8548c89234248d8948c8d234348d8d48c91234448d9148c95234548d9548c99234648d9948c9d234748d9d48ca1234848da148ca5234948da548ca9234a48da948cad234b48dad48cb1234c48db148cb5234d48db548cb9234e48db948d3c11e00468048d4011e10468448d4411e20468848d4811e30468c48d4c11e40469048d5011e50469448d5411e60469848d5811e70469c48d5c11e8046a048d6011e9046a448d6411ea046a848d6811eb046ac48d6c11ec046b048d7011ed046b448d7411ee046b848d7811ef046bc48d7c11f0046c048d8011f1046c448d8411f2046c848d8811f3046cc48d8c11f4046d048d9011f5046d448d9411f6046d848d9811f7046dc48d9c11f8046e048da011f9046e448da411fa046e8)
  (.lf 0)) (.nd (.lf
  0x6766d9d9a0c8700c870321e0c875676e561d6021140c8799d9a587581f24c7c911f2401f2407c915875d676e961d7021185875c7c915a6e01f2447c8f1f2381f2387c8f58759587587c8f5a6dc1f3d1caa35e6705a6e1caa372b0872a8dcaa21f3c01f3c07cf21f3c51f3c9caa25c66c5a6ddcaa272b0472b05719b5e66c5c66dcae072bfc72b4d71ad5e6b45c6b5caf272c440c8759d9a021143f04c09e402710605e80a043f0cc3f0cc09c43f14d1f23c7ccc1f22c1f22c7c8d1f2311f23400001f332459cc07e401f10546d4080445acc45acd16d345bcd45bcc080401f1001f119dd7677d8027119d99676e0676699d990c8640c864321b0c8690c9e19dd8527580c86d9d9958754677d949d558754677619dd70c9cc0c9cc32750c9d10c9d19dd758754676e161d502110587547ccc1f3641f2307ccc5a6d81f3307c8a1f22472b11719e5e6785c679cae372c0872c080a484ab6472b3571a75e69c5c69dcaec72c2c72c2c0a514ab8872b5171ae5e6b85c6b9caf372c4872b6d71b55e6d472b6571b35e6cc5c6cdcaf872c5c72b5971b05e6c072b6171b25e6c872b5d71b15e6c472b6971b45e6d05c6d5cafa72c6472be9caf91f6541f6547d971f659)
  (.lf 0))) (.nd (.nd (.lf
  0x58fbc992a5af045af05da9c76aec76aed73b45eed05eed1db1876cdc76c61db172691c2691c9a492692126925db1760ecc26921db1762ecc26661da9c5ced076a71da9b2664c2664c99952665126651da9b5eecc264a89933264982649899282649d2649c99335af0058fb89933264f8264f800005af025af01da9b76ae876ae973b35eecc5eecddb1776cd876c5ddb1626910269109a462691526919db1660ec826915db1662ec826655da9b5cecc76a6dda9a266402664099922664526645da9a5eec8264a00000264ce264cc99252649026490992558fb558fb499255aefc5aefdda9a76ae476ae573b25eec85eec9db1676cd476c59db1526904269049a43269092690ddb1560ec426909db1562ec426649da9a5cec876a69da992663426634998f2663926639da995eec42649499232648826488992358fb158fb099235aef85aef9da9976ae076ae173b15eec45eec5db1576cd076c55db14268f8268f89a40268fd26901db1460ec0268fddb1462ec02663dda995cec476a65da982662826628998c2662d2662dda985eec02648c99322647c2647c9921264812648099325aef458fac9932264f4264f400005aef65aef5da9876adc76add73b05eec0)
  (.lf 0)) (.nd (.lf
  0x7de35f78c3264832648c9943264d32651f78c4ac1431e71f6444a64c7d911f64331e5c31e5cc79931e6131e61f6434eec84d6c9f6437d9887d98929924eec84eec928fc0634c0634d29054a40c6f09c06744a4144a415f74e7ddb47ddb530054d814324f1f74f4d8187dd3df74e324e0324e0c93a324e5324e9f74e4c0144c015f78c7deac3264df78c508147de31f78b3263c3263cc9913264132641f78b5081031e65f6434a6487d90d29914eec54d6c529914eec44eec528fb063480634929044a4086f09806734a4104a411f74d7ddb07ddb130044d810324e5f74e4d8147dd39f74d324d4324d4c937324d9324ddf74d4c0104c011f78b7dea832645f78b4ac107de2df78a3263032630c98e3263532639f78a4ac0c7da0129b04ef404ef4129034a4046f09406724a40c4a40df74c7ddac7ddad30034d80c324d9f74d4d8107dd35f74c324c8324c8c934324cd324d1f74c4c00c4c00df78a7dea432635f78a5080c7de29f7893262432624c98b3262932629f789508087d9fd29af4ef3c4ef3d29024a4006f09006714a4084a409f74b7dda87dda930024d808324cdf74c4d80c7dd31f74b324bc324bcc931324c1324c5f74b4c0084c009f7897dea0)
  (.lf 0)))

def shaGateTree469 : BTree :=
  .nd (.nd (.nd (.lf
  0x5b1a9e079782607826174625f1885f189e0f578450783d5e0f42936029360a4da2936529369e0f46118429365e0f463184290a5e0795d188781e5e0782909029090a4262909529095e0785f18428ee0000028fae28faca3b528ed028ed0a3b5592716a19d649c0432c59270a3b55b1a45b1a5e0787825c7825d74615f1845f185e0f47844c783d1e0f32935429354a4d7293592935de0f36118029359e0f36318029099e0785d184781e1e0772908429084a4232908929089e0775f18028ed4a3b328ec828ec8a3b35926d5926ca3b35b1a05b1a1e077782587825974605f1805f181e0f378448783cde0f22934829348a4d42934d29351e0f26117c2934de0f26317c2908de0775d180781dde0762907829078a4202907d2907de0765f17c28ecca3b128ec028ec0a3b15926959268a3b15b19c5b19de0767825478255745f5f17c5f17de0f278444783c9e0f12933c2933ca4d12934129345e0f16117829341e0f16317829081e0765d17c781d9e0752906c2906ca41d2907129071e0755f17828ec4a3ea28eb428eb4a3af28eb928eb8a3ea5b19859264a3ea28fec28fec00005b19a5b199e0757825078251745e5f1785f179e0f178440783c5e0f029330)
  (.lf 0)) (.nd (.lf
  0x537d2bb14af18053812bb24af1c053852bb34af20053892bb44af240538d2bb54af28053912bb64af2c053952bb74af30053992bb84af340539d2bb94af38053a12bba4af3c053a52bbb4af40053a92bbc4aec4053ad2bbd4aec8053b12bbe4aecc053b52bbf4aed07f3292bee50bb850bb92bc04aed47f32d2bef50bbc50bbd2bc14aed87f3312bf050bc050bc12bc24aedc4db41fc317f1407f0c5fc303417834178d0603417d34181fc304aabc3417dfc304f33c4db3dfc307f13c7f0c1fc2f3416c3416cd05d3417134175fc2f4aab834171fc2f4f3384db39fc2f7f1387f0bdfc2e3416034160d05a3416534169fc2e4aab434165fc2e4f3344db35fc2e7f1347f0b9fc2d3415434154d057341593415dfc2d4aab034159fc2d4f3304db31fc2d7f1307f0b5fc2c3414834148d0543414d34151fc2c4aaac3414dfc2c4f32c4db2dfc2c7f12c7f0b1fc2b3413c3413cd0513414134145fc2b4aaa834141fc2b4f3284db29fc2b7f1287f0adfc2a3413034130d04e3413534139fc2a4aaa434135fc2a4f3244db25fc2a7f1247f0a9fc293412434124d04b341293412dfc294aaa034129fc294f3204db21fc297f1207f0a5fc283411834118d0483411d)
  (.lf 0))) (.nd (.nd (.lf
  0x6b952c074b01406b992c084b01806b9d2c094b01c06ba12c0a4b02006ba52c0b4b02406ba92c0c4b02806bad2c0d4b02c06bb12c0e4b03006bb52c0f4b03406bb92c104b03806bbd2bf14b03c06bc12bf24b04006bc52bf34afc406bc92bf44afc806bcd2bf54afcc06bd12bf64afd006bd52bf74afd406bd92bf84afd806bdd2bf94afdc81f9d2ca74fb1c4fb1d2bfa4afe081fa12ca84fb204fb212bfb4afe481fa52ca94fb244fb252bfc4afe881fa92caa4fb284fb292bfd4afec81fad2cab4fb2c4fb2d2bfe4aff081fb12cac4fb304fb312bff4aff481fb52cad4fb344fb352c004aff881fb92cae4fb384fb392c014affc81fbd2caf4fb3c4fb3d2c024b00081fc12cb04fb404fb412c034b0045ea55d21c748ec74871d21b22988229888a642298d22991d21b60a502298dd21b62a505ea51d21b748e87486dd21a2297c2297c8a612298122985d21a60a4c22981d21a62a4c5ea4dd21a748e474869d21922970229708a5e2297522979d21960a4822975d21962a485ea49d219748e074865d21822964229648a5b229692296dd21860a4422969d21862a445ea45d218748dc74861d21722958229588a582295d22961d21760a402295dd21762a40)
  (.lf 0)) (.nd (.lf
  0x50185294404a747b8d929625018850189294504a787b8dd29635018c5018d294604a7c7b8e129645019050191294704a807b8e529655019450195294804a847b8e929665019850199294904a887b8ed29675019c5019d294a04a8c7b8f12968501a0501a1294b04a907b8f52969501a4501a5294c04a947b8f9296a501a8501a9294d04a987b8fd296b501ac501ad294e04a9c7b901296c501b0501b1294f04aa07b905296d501b4501b5295004aa404a3529434a4e004a3929444a4e404a3d29454a4e804a4129464a4ec04a4529474a4f004a4929484a4f404a4d29494a4f804a51294a4a4fc04a55294b4a50004a59294c4a50404a5d294d4a50804a61294e4a50c04a65294f4a51004a6929504a51404a6d29314a51804a7129324a51c04a7529334a52004a7929344a52404a7d29354a52804a8129364a52c04a8529374a53004a8929384a53404a8d29394a53804a91293a4a53c04a95293b4a54004a99293c4a4c404a9d293d4a4c804aa1293e4a4cc04aa5293f4a4d07b909296e501b8501b929404a4d47b90d296f501bc501bd29414a4d87b9112970501c0501c129424a4dc49e31ee9d7baf07baf12e8c4d23049e11ee957bad049e3deea07bafc)
  (.lf 0)))

def shaGateTree470 : BTree :=
  .nd (.nd (.nd (.lf
  0x2b145e5345750053501e5347954c794d1e5332b1342b134ac4f2b1392b13de533554fc2b139e533574fc534fde53379548794cde5322b1282b128ac4c2b12d2b131e532554f82b12de532574f8534f9e53279544794c9e5312b11c2b11cac492b1212b125e531554f42b121e531574f4534f5e53179540794c5e5302b1102b110ac462b1152b119e530554f02b115e530574f0534f1e5307953c794c1e52f2b1042b104ac432b1092b10de52f554ec2b109e52f574ec534ede52f79538794bde52e2b0f82b0f8ac402b0fd2b101e52e554e82b0fde52e574e8534e9e52e79534794b9e52d2b0ec2b0ecac3d2b0f12b0f5e52d554e42b0f1e52d574e4534e5e52d79530794b5e52c2b0e02b0e0ac3a2b0e52b0e9e52c554e02b0e5e52c574e0534e1e52c7952c794b1e52b2b0d42b0d4ac372b0d92b0dde52b554dc2b0d9e52b574dc534dde52b79528794ade52a2b0c82b0c8ac342b0cd2b0d1e52a554d82b0cde52a574d8534d9e52a79524794a9e5292b0bc2b0bcac312b0c12b0c5e529554d42b0c1e529574d4534d5e52979520794a5e5282b0b02b0b0ac2e2b0b52b0b9e528554d02b0b5e528574d0534d1e5287951c794a1e5272b0a42b0a4ac2b2b0a9)
  (.lf 0)) (.nd (.lf
  0x5c491c6fb71c6871bedc6fa1d9301d7d9c6bd5e49071af5c6bc1d7c81d71800005a50a5a509c6bc71b6c71b6d71235e48c1d7c875f41d7cd1d7d1c6bc5c48c5c48dc6fa71c641d7cdc6bc5e48c71af1c6bb1d7bc1d7bc75f11d7c11d7c1c6bb5e4881d7c5c6bb5c48871aedc6ba1d7b01d7b075ee1d7b51d659c6a71d6481d64875941d64d1d64dc6a75a50041eb4074b01d000bef59bef5257466fbd9bee0bee00bee02fba0bee50bee59bee58570453e8076b01d2c544f0078b454e8454e9155a455e9455e8078b01d2c01d2d9bee6703467035495c5857058571c6a71d7141d71400005a5025a501c6ba71b6471b6571215e4841d7b9c6ba5c4845c485c6f871c5c71b6971225e4881d930764e1d9351d939c6fa027341d935c6fa4a97871be9c6f91d9245c489c6f971c601d924764b1d9291d92dc6f9027301d929c6f94a97471be5c6f81d9181d91876481d91d1d91dc6f84a9701d921c6f80272c71be1c6f71d90c1d90c76451d9111d911c6f74a96c66f35615a01f241d650000071a9e71a9dc6a61d63c1d63c75911d6411d641c6a65a4fc0bee99bee5257066fb99bed0bed40bed42fb70bed90bed99bed5856c453e4076a01d28544ec078a454e4)
  (.lf 0))) (.nd (.nd (.lf
  0x244b9d60b62bf85ebf9d60b758a87582dd60a244a8244a8912c244ad244b1d60a60bf4244add60a62bf45ebf5d60a758a475829d6092449c2449c9129244a1244a5d60960bf0244a1d60962bf05ebf1d609758a075825d608244902449091262449524499d60860bec24495d60862bec5ebedd6087589c75821d60724484244849123244892448dd60760be824489d60762be85ebe9d607758987581dd606244782447891202447d24481d60660be42447dd60662be45ebe5d6067589475819d6052446c2446c911d2447124475d60560be024471d60562be05ebe1d6057589075815d6042446024460911a2446524469d60460bdc24465d60462bdc5ebddd6047588c5ebd982f662bd87581182f662bd962bd80d593c9bc7588d82f762bdc62bdc0d5a3c9c07589182f862be062be00d5b3c9c47589582f962be462be40d5c3c9c87589982fa62be862be80d5d3c9cc7589d82fb62bec62bec0d5e3c9d0758a182fc62bf062bf00d5f3c9d4758a582fd62bf462bf40d403c9d8758a982fe62bf862bf80d413c9dc758ad82ff62bfc62bfc0d423c9e0758b1830062c0062c000d433c9e4758b5830162c0462c040d443c9e8758b9830262c0862c080d453c9ec)
  (.lf 0)) (.nd (.lf
  0x1716c5c5d1717117175b83d5fd005dcf9b83b6e1685dcfdb83c6e16c5dd01b83d6e17017171b83d61d006e0f5b83c17160171605c5a1716517165b83c61cfc17169b83c5fcfc6e0f1b83b17154171545c571715917159b83b61cf81715db83b5fcf86e0edb83a17148171485c541714d17151b83a5fcf451e1db78f6deb816c15b78f53e1c16c11b78f55e1c6de3db78e16c0016c005b0216c0516c05b78e55e1816c09b78e53e1851e19b78e6deb46de39b78d16bf416bf45aff16bf916bfdb78d53e1416bf9b78d55e1451e15b78d6deb06de35b78c16be816be85afc16bed16bedb78c55e1016bf1b78c53e1051e11b78c6deac6de31b78b16bdc16bdc5af916be116be1b78b55e0c16be5b78b53e0c51e0db78b6dea86de2db78a16bd016bd05af616bd516bd5b78a55e0851e05b7896dea051e09b78a6dea416bd9b78a53e086de29b78916bc416bc45af316bc916bc9b78955e0416bcdb78953e046de25b78816bb816bb85af016bbd16bc1b78853e0016bbdb78855e0051e01b7886de9c6de21b78716bac16bac5aed16bb151df5b7856de9051df9b7866de9416bb1b78755dfc51dfdb7876de9816bb5b78753dfc6de1db78616ba016ba05aea16ba5)
  (.lf 0)))

def shaGateTree471 : BTree :=
  .nd (.nd (.nd (.lf
  0x38ac208eb513d04cbd208eb82428823ae08ea38ab038ab0e2ae38ab538aba08ea0028838ab608ea513cc4cbce08ea82424823aa08e938aa438aa4e2ab38aa938aae08e90028438aaa08e9513c84cbca08e9824204cbc400a0513c4823a400a0513c5513c4008305af88242000a1513c8513c8008405afc8242400a2513cc513cc008505b008242800a3513d0513d0008605b048242c00a4513d4513d4008705b088243000a5513d8513d8008805b0c8243400a6513dc513dc008905b108243800a7513e0513e0008a05b148243c00a8513e4513e4008b05b188244000a9513e8513e8008c05b1c8244400aa513ec513ec008d05b208244800ab513f0513f0008e05b248244c00ac513f4513f4008f05b288245000ad513f8513f8009005b2c8245400ae513fc513fc009105b308245800af5140051400009205b348245c00b05140451404009305b388246000b15140851408009405b3c8246400b25140c5140c009505b408246800b35141051410009605b448246c00b45141451414009705b488247000b55141851418009805b4c8247400b65141c5141c009905b508247800b75142051420009a05b548247c00b85142451424009b05b588248000b951428)
  (.lf 0)) (.nd (.lf
  0x661c5608201bc40aa21985301bc86614d98520aa100aa102a860aa150aa1998525820841acc04b101298449800691012c45418806b144a8044a8112c044b8144b8006b1012c4012c59890662bc0ab7d989058208662bd4882582081a56c00006feae1a569bfab5a1b058209bfab1a6086feac69581a55c1a55c6958582053be500670019ac0ab8198905220866241988f0ab6c0ab6c2add0ab713e57c0890019c06009808b03e5fc3e5fc06703e67d0ab71988f582040aa15985201bc46614998510aa0441ac804b001294019c19851661c00aa042a830aa090aa0d9851582044497c0690012c05418406b044a7c44a7d12bf44b7d44b7c06b0012c0012c1988f662b8661c1608101bc0662b94881582045820469585a1ac1a56069561a5541a5546956582010aa09985101bc06614598500a9f80a9f82a800a9fd0aa019850582000ab75988f522046623d988e0ab600ab602ada0ab6541ac404af0129044978068f012bc5418006af44a7844a7912be44b7944b7806af012bc012bd988e662b4662b54880582006009408af3e5f83e5f8066f3e6793be4c066f019a83e578088f019bc019bd9850661bc0ab65988e58200661bd608001bbc5820069565a1a8)
  (.lf 0))) (.nd (.nd (.lf
  0x8144e05123749037490dd26374953749a05124c96c359ea00794f5f0801e60078359d8359d8d678359dd359e200784ad6c4ddee00788025c8025d2b5b4f5ec73bcc0cca4ad6c4ad6e0512814c4814c5325b4e16c4c96e0550815bc81542054f375ec375ecdd7d375f1375f6054f00024375f2054f511683749605124e16c8144a05113748437484dd23374893748e05114c968359de00784f5ec801e20077359cc359ccd675359d1359d600774ad684ddea007780258802592b5a4f5e873bc80cc94ad684ad6a0511814c0814c1325a4e1684c96a054f815b88153e054e375e0375e0dd7a375e5375ea054e00020375e6054e511643748a05114e1688144605103747837478dd203747d3748205104c964359d200774f5e8801de0076359c0359c0d672359c5359ca00764ad644dde6007680254802552b594f5e473bc40cc84ad644ad660510814bc814bd32594e1644c966054e815b48153a054d375d4375d4dd77375d9375de054d0001c375da054d511603747e05104e16481442050f3746c3746cdd1d3747137476050f4c960359c600764f5e4801da0075359b4359b4d66f359b9359be00754ad604dde2007580250802512b584f5e073bc00cc74ad60)
  (.lf 0)) (.nd (.lf
  0x6bcb9af2d12ff412ff44bff12ff912ffdaf2d0136012ff9af2d49da45b8b9af2d6bd306bcb5af2c12fe812fe84bfc12fed12fedaf2c49da05b8b5af2c6bd2c12ff1af2c0135c6bcb1af2b12fdc12fdc4bf912fe112fe5af2b0135812fe1af2b49d9c5b8b1af2b6bd286bcadaf2a12fd012fd04bf612fd512fd9af2a013545b8adaf2a6bd2412fd5af2a49d986bca9af2912fc45b8a5af286bd1c12fc44bf312fc95b8a9af296bd2012fc9af2949d9412fcdaf29013506bca5af2812fb812fb84bf012fbd12fbdaf2849d9012fc1af280134c6bca1af2712fac12fac4bed12fb112fb5af270134812fb1af2749d8c5b8a1af276bd186bc9daf2612fa012fa04bea12fa512fa5af2649d8812fa9af26013445b89daf266bd146bc99af2512f9412f944be712f9912f9daf25013405b885af206bcfc5b899af256bd1012f99af2549d846bc95af2412f8812f884be412f8d12f91af240133c5b895af246bd0c12f8daf2449d806bc91af2312f7c12f7c4be112f8112f81af2349d7c5b889af216bd0012f85af23013385b891af236bd086bc8daf2212f7012f704bde12f7512f79af22013345b88daf226bd0412f75af2249d786bc89af2112f6412f644bdb12f69)
  (.lf 0)))

def shaGateTree472 : BTree :=
  .nd (.nd (.nd (.lf
  0x2e5f9ec8d617a42e5f5ec8d637a42e335ec125d7a87b049ec112e3202e320b8ca2e3252e325ec115f7a42e1ac00007afe27afe0b8682e19c2e19cb868598915d5a5e8ca7a3a47a3a410130054c2caade8cb005507a32de8ca2ca9c2ca9cb2a92caa12caa5e8ca0404c0404dae206b8fc6b8fd662400acc12a35ae5f538946b97dae5e12a2012a204a8a12a2512a25ae5e598900474dae5e6b9f46b9f54e2459890128c9ae2100ad06b885ae20128b8128b84a30128bd128c1ae205989059890b8685b7a45b7a5ec117b0c07b0c175e95f7a45f7a5ec8d7b2b07b235ec8c2e5e42e5e4b97b2e5e92e5edec8c617a02e5e9ec8c637a02e329ec115d7a47b045ec102e3142e314b8c72e3192e319ec105f7a02e1a1ebf72e1902e190b8662e1952e195ebf75b7a02caa1e8ca0054c7a329e8c92ca902ca90b2a62ca952ca99e8c9040485d5a1e8c97a3a07a3a010120054812a29ae5e538906b979ae5d12a1412a144a8712a1912a19ae5d5988c04749ae5d6b9f06b9f14e235988c128bdae2000acc6b881ae1f128ac128ac4a2d128b1128b5ae1f5988c04049ae1f6b8f86b8f9662300ac85988debf72e22c2e22c00005b7a25b7a1ec107b0bc7b0bd75e85f7a0)
  (.lf
  0x51971ae946bacc12b31ae945397012b2dae94559706ba51ae9312b1c12b1c4ac912b2107b65904e5797064139904d07b54079fd901000bac64041900f079ec079ec1e7d079f1079f5900f4b8ec84a2d900f640b807b541ed707b59640b92e3b00ba84b8ed904d641b0641b1465b5796c07b5d904d5196c5196dae936bac884a29900e640b4640b52e3a00ba412b21ae935596c12b25ae935396c6ba4dae9212b1012b104ac612b1512b19ae9253968079f1900f00ba86403d900e079e0079e01e7a079e5079e9900e4b8e84b8e9904c641ac07b59904d5796c64135904c07b4807b481ed407b4d07b51904c51968641ad465a5796851969ae926bac412b15ae92559686ba49ae9112b0412b044ac312b0907b4d904c5796864131904b07b3c07b3c1ed107b41079e5900e00ba464039900d079d412b0dae9153964079d41e77079d9079dd900d4b8e484a25900d640b0640b12e3900ba04b8e5904b641a8641a946595796407b45904b5196451965ae916bac012b09ae91559646ba45ae9012af812af84ac012afd12b01ae905396063d252dce009f463d2d2dd0009fc4b742110584490844915e7000c7c579c1aed712d746bb5daed612d2c12d2c4b4d12d31))
  (.nd (.lf
  0xcbb832f00cbbd606940a2f3f1f80cbc19e20588003f1f809ef3f2790cd359e5f528046797d9e5e0cd200cd20334a0cd25027bd9e20678fc0cd259e5e58800420c407ef01f9045b78080f01fbc54780082f45c7845c79173e45d7945d78082f01fbc01fbd9e5e679f4678fd6200021bc679f54a0058800588007e6e5a77c3f1740a0e027b8606900a2e3f1f43f1f409ee3f2750cd299e5e52800679799e5d0cd140cd1433470cd190cd199e5d587fc420c007ee01f8c45b74080e01fb85477c082e45c7445c75173d45d7545d74082e01fb801fb99e5d679f00cbbd9e20021bc678819e1f0cbac027b99e1f678f8678f961ff021b8679f149ff587fc0cbac32ed0cbb10cbb59e1f587fc587fc7e9c1fab81fb95cba55c71872e95cba41fb801fb807ee21fb851fb85cba45e7145a77dcba472f0c1fb89cba45c71472e91cba31fb741fb747edf1fb791fb79cba35e7101fab800005a77a1f9b87e9c1f9a81f9a87e6c1f9ad1f9ac7e9c5a7785a779cba372f0872f0d71c55e7145e715cc20730fc73081cc1f1fe441fe447f931fe491fe49cc1f627101fe4dcc1f6071072f0971c45e7105e711cc1f730f87307dcc1e1fe381fe387f901fe3d1fe41cc1e6070c)
  (.lf 0))) (.nd (.nd (.lf
  0x80c8a03213694436944da53369493694e03214b3e84c7ea032180d0080d012cfa50fe8698dd4bfa58fe8697e563fa031a426e11dbbe039a876ef9dbbd26dfc26dfc9b8126e0126e01dbbd4b3e826ca5db805ef0076e01db7f26c9426c949b2726c9926c9ddb7f5cefc26af0000026bca26bc89ab926ae026ae09ab958fe958fe89ab95af2c5af2ddb7f76e7876e7973bf5eefc5cefddbbd76f7076f700e694b3e84b3ea0e8383a8883a8933fa4e7e84e7ea0eff83c7883bfe0efe3ae203ae20eb8a3ae253ae2a0efe002203ae260efe4ffe43ab660e834cfe883a0e0e823ab503ab50ead63ab553ab560e824e7e43694a032150fe880c8603203693836938da503693d3694203204b3e44c7e6032080cfc80cfd2cf950fe4698d94bf958fe4697e163f9031a026e05dbbd039a476ef5dbbc26df026df09b7e26df526df5dbbc4b3e426c99db7f5eefc76dfddb7e26c8826c889b2426c8d26c91db7e5cef826ae49af126ad426ad49ab726ad926ad89af15af2858fe49af126c0426c0400005af2a5af29db7e76e7476e7573be5eef85cef9dbbc76f6c76f6c0e684b3e44b3e60e8283a8483a8533f94e7e44e7e60efe83c7483bfa0efd3ae143ae14eb873ae19)
  (.lf 0)) (.nd (.lf
  0x322c4c8b3322c9322cdf7014a6d8322c9f7014ef587dc05f700322b8322b8c8b0322bd322c1f7004a6d4322bdf7004ef544d755f7007dc7c7dc01f6ff322ac322acc8ad322b1322b1f6ff4ef50322b5f6ff4a6d07dbfdf6fe322a0322a0c8aa322a5322a5f6fe4ef4c322a9f6fe4a6cc4d74df6fe7dc747dbf9f6fd3229432294c8a7322993229df6fd4a6c832299f6fd4ef484d74529b14ef444d749f6fd7dc707dbf529b14ef454ef45291b063a07dc7129b24ef484ef49291c063a47dc7529b34ef4c4ef4d291d063a87dc7929b44ef504ef51291e063ac7dc7d29b54ef544ef55291f063b07dc8129b64ef584ef592920063b47dc8529b74ef5c4ef5d2921063b87dc8929b84ef604ef612922063bc7dc8d29b94ef644ef652923063c07dc9529bb4ef6c4ef6d2925063c87dc9d29bd4ef744ef752927063d07dca129be4ef784ef792928063d47dca529bf4ef7c4ef7d2929063d87dca929c04ef804ef81292a063dc7dcad29c14ef844ef85292b063e07dcb129c24ef884ef89292c063e47dcb929c44ef904ef91292e063ec7dcbd29c54ef944ef95292f063f07dcc129c64ef984ef992930063f4063a129244a488063a529254a48c063a929264a490)
  (.lf 0)))

def shaGateTree473 : BTree :=
  .nd (.nd (.nd (.lf
  0x47df810af0423c47dfc10b00424047e0010b10424447e0410b20424847e0810b30424c47e0c10b40425047e1010b50425447e1410b60425847e1810b70425c47e1c10b80426047e2010b90426447e2410ba0426847e2810bb0426c47e2c10bc0427047e3010bd0427447e3410be0427847e3810bf0427c552c410c047ebc552c810c147ec0552cc10c247ec4552d010c347ec8552d410c447ecc552d810c547ed0552dc10c647ed4552e010c747ed8552e410c847edc552e810c947ee0552ec10ca47ee4552f010cb47ee8552f410cc47eec552f810cd47ef0552fc10ce47ef45530010cf47ef85530410d047efc5530810d147f005530c10d247f045531010d347f085531410d447f0c5531810d547f105531c10d647f145532010d747f185532410d847f1c5532810d947f205532c10da47f245533010db47f285533410dc47f2c5533810dd47f305533c10de47f345534010df47f3847ebd1fcf47fbd47ec11fd047fc147ec51fd147fc547ec91fd247fc947ecd1fd347fcd47ed11fd447fd147ed51fd547fd547ed91fd647fd947edd1fd747fdd47ee11fd847fe147ee51fd947fe547ee91fda47fe947eed1fdb47fed47ef11fdc47ff147ef51fdd47ff5)
  (.lf 0)) (.nd (.lf
  0x34634d18f346393463dfd154c3f04a7f1fd157f4d07f4d130fc4dbf04c3f1fd537f5c87f54dfd523479034790d1e63479534799fd524afec34795fd5250bec34639fd154dbf07f455fd143462834628d18c3462d34631fd144c3ec4a7edfd147f4cc7f4cd30fb4dbec4c3edfd527f5c47f549fd513478434784d1e3347893478dfd514afe834789fd5150be83462dfd144dbec7f451fd133461c3461cd1893462134625fd134c3e84a7e9fd137f4c87f4c930fa4dbe84c3e9fd517f5c07f545fd503477834778d1e03477d34781fd504afe43477dfd5050be434621fd134dbe87f44dfd123461034610d1863461534619fd124c3e44a7e5fd127f4c47f4c530f94dbe44c3e5fd507f5bc7f541fd4f3476c3476cd1dd3477134775fd4f4afe034771fd4f50be034615fd124dbe47f449fd113460434604d183346093460dfd114c3e04a7e1fd117f4c07f4c130f84dbe04c3e1fd4f7f5b87f53dfd4e3476034760d1da3476534769fd4e4afdc34765fd4e50bdc34609fd114dbe07f445fd10345f8345f8d180345fd34601fd104c3dc4a7ddfd107f4bc7f4bd30f74dbdc4c3ddfd4e7f5b47f539fd4d3475434754d1d7347593475dfd4d4afd834759fd4d50bd8)
  (.lf 0))) (.nd (.nd (.lf
  0x6c292c164b05006c2d2c174b05406c312c184b05806c352c194b05c822852cc74fb9c4fb9d2c1a4b060822892cc84fba04fba12c1b4b0648228d2cc94fba44fba52c1c4b068822912cca4fba84fba92c1d4b06c822952ccb4fbac4fbad2c1e4b070822992ccc4fbb04fbb12c1f4b0748229d2ccd4fbb44fbb52c204b078822a12cce4fbb84fbb92c214b07c822a52ccf4fbbc4fbbd2c224b080822a92cd04fbc04fbc12c234b0845ead5d31474ccc74c51d31323114231148c47231192311dd31360ad023119d31362ad05ead1d31374cc874c4dd31223108231088c442310d23111d31260acc2310dd31262acc5eacdd31274cc474c49d311230fc230fc8c412310123105d31160ac823101d31162ac85eac9d31174cc074c45d310230f0230f08c3e230f5230f9d31060ac4230f5d31062ac45eac5d31074cbc74c41d30f230e4230e48c3b230e9230edd30f60ac0230e9d30f62ac05eac1d30f74cb874c3dd30e230d8230d88c38230dd230e1d30e60abc230ddd30e62abc5eabdd30e74cb474c39d30d230cc230cc8c35230d1230d5d30d60ab8230d1d30d62ab85eab9d30d74cb074c35d30c230c0230c08c32230c5230c9d30c60ab4230c5d30c62ab4)
  (.lf 0)) (.nd (.lf
  0x2ff24bfcb2ff292ff2df0c94bba82ff29f0c94d3a849fa9f0c97c3a07c325f0c82ff182ff18bfc82ff1d2ff1df0c84d3a42ff21f0c84bba449fa5f0c87c39c7c321f0c72ff0c2ff0cbfc52ff112ff15f0c74bba049fa1f0c77c3982ff11f0c74d3a07c31df0c62ff002ff00bfc22ff052ff05f0c64d39c49f9df0c67c3942ff09f0c64bb9c7c319f0c52fef44d24528714ea444d249efb97bf602f86defb94a1c82f869efb94ea487bee528714ea454ea4527db060307bf6128724ea484ea4927dc060347bf6528734ea4c4ea4d27dd060380603127e449f880603527e549f8c0603927e649f907bfd928904eac04eac127e349f842fef4bfbf2fef92fefdf0c54bb982fef9f0c54d39849f99f0c57c3907c315f0c42fee82fee8bfbc2feed49f95f0c47c38c2fef1f0c44bb942feedf0c44d3947c311f0c32fedc2fedcbfb92fee12fee5f0c34bb902fee1f0c34d39049f91f0c37c3887c30df0c22fed02fed0bfb62fed52fed9f0c24bb8c49f8df0c27c3842fed5f0c24d38c7c309f0c12fec47c3b92ef04d3c04bbc1f10d7c4b07c435f10c300c8300c8c034300cd300cdf10c503bc300d1f10c4a7bc7c3b52eef4d3bc4bbbdf10c7c4ac7c431f10b300bc)
  (.lf 0)))

def shaGateTree474 : BTree :=
  .nd (.nd (.nd (.lf
  0x3de9abbb6af686af69658b046e811c79abfa536306afe9abf911c6411c64471b11c6911c69abf95962c044e9abf96b0606b0614d8b5962c11b0dabbc046ec6aef1abbb11afc11afc46c111b0111b05abbb5962c5962cb03f5b5405b541e78b79ea879ea975505f5405f541e8077a0987a01de8062c5482c548b1542c54d2c551e8066153c2c54de8066353c2c28de78b5d54079e2de78a2c2782c278b0a02c27d2c27de78a5f53c2c0fde76f2c0ec2c0ecb03d2c0f12c0f1e76f5b53c2a81de3c0002e878f01e3bf2a80c2a80caa052a8112a815e3bf03de45d33de3bf78f7878f780f79002e411c6dabf95362c6afe5abf811c5811c58471811c5d11c5dabf859628044e5abf86b05c6b05d4d8a5962811b01abbb046e86aeedabba11af011af046be11af511af9abba5962803de5abba6af646af65658a046e459629e76f2c14c2c14c00005b53e5b53de78a79ea479ea5754f5f53c5f53de8067a0947a019e8052c53c2c53cb1512c5412c545e805615382c541e805635382c281e78a5d53c79e29e7892c26c2c26cb09d2c2712c271e7895f5382c0f4000079dbe79dbcb03a2c0e42c0e4b03a596255d339e3be78f7478f740f78002e02a811e3bf002e4)
  (.lf 0)) (.nd (.lf
  0x41ec4076f01d9045578078f01dbc5458007af456784567915be457794577807af01dbc0c1e99c6e5260001dbd9c6e67234671b99c6d0c1d40c1d430770c1d90c1dd9c6d525fc41ec0076e01d8c45574078e01db85457c07ae456744567515bd457754577407ae01db801db99c6d672300c1d99c6d585fc671b59c6c0c1c80c1c830740c1cd0c1cd9c6c585f841ebc076d01d8845570078d01db45457807ad456704567115bc457714577007ad01db401db59c6c6722c0c1d19c6c525f8671b19c6b0c1bc0c1bc30710c1c10c1c19c6b585f41e065c7f54aa041df09c7b85e51c71ee1c7b71def81def877c01defd1defdc7b75e5183c2500970025ac3ed7c0990025c06049809b03edfc3edfc09703ee7d0c0959c3201fc4670c99c310c0840c08430230c089025c19c3167140672394981586041dd7000001de021de0077591dd601dd6077595860567141618101fc00c08d9c31586045860477595a5905a591c7b771f581df01c7b75c51871eddc7b61deec1deec77bd1def11def5c7b65c5143c24c096f025a83ed78098f025bc6049409af3edf83edf8096f3ee79672354980586000c0899c3101fc01dd64777f1dd541dd5477571dd591dd58777f5a58c)
  (.lf 0))) (.nd (.nd (.lf
  0x54da40bb846e9c54da80bb946ea054dac0bba46ea454db00bbb46ea854db40bbc46eac54db80bbd46eb054dbc0bbe46eb454dc00bbf46eb846e6d1bbb46f6d46e711bbc46f7146e751bbd46f7546e791bbe46f7946e7d1bbf46f7d46e811bc046f8146e851bc146f8546e891bc246f8946e8d1bc346f8d46e911bc446f9146e951bc546f9546e991bc646f9946e9d1bc746f9d46ea11bc846fa146ea51bc946fa546ea91bca46fa946ead1bcb46fad46eb11bcc46fb146eb51bcd46fb546eb91bce46fb946f6c0bac02db046f700bad02db446f740bae02db846f780baf02dbc46f7c0bb002dc046f800bb102dc446f840bb202dc846f880bb302dcc46f8c0bb402dd046f900bb502dd446f940bb602dd846f980bb702ddc46f9c0bb802de046fa00bb902de446fa40bba02de846fa80bbb02dec46fac0bbc02df046fb00bbd02df446fb40bbe02df846fb80bbf02dfc02dfda43e69174690f9a43d0ef940ef943be70ef990ef9da43d52e3c0ef99a43d58e3c02df9a43d69170690f5a43c0ef880ef883be40ef8d0ef91a43c52e380ef8da43c58e3802df5a43c6916c690f1a43b0ef7c0ef7c3be10ef810ef85a43b52e340ef81a43b58e3402df1a43b69168)
  (.lf 0)) (.nd (.lf
  0x7d5e52aa150684506852a8404efc7d5e92aa250688506892a8504f007d5ed2aa35068c5068d2a8604f047d5f12aa450690506912a8704f087d5f52aa550694506952a8804f0c7d5f92aa650698506992a8904f107d5fd2aa75069c5069d2a8a04f147d6012aa8506a0506a12a8b04f187d6052aa9506a4506a52a8c04f1c7d6092aaa506a8506a92a8d04f207d60d2aab506ac506ad2a8e04f247d6112aac506b0506b12a8f04f287d6152aad506b4506b52a9004f2c04ebd2a834a9e004ec12a844a9e404ec52a854a9e804ec92a864a9ec04ecd2a874a9f004ed12a884a9f404ed52a894a9f804ed92a8a4a9fc04edd2a8b4aa0004ee12a8c4aa0404ee52a8d4aa0804ee92a8e4aa0c04eed2a8f4aa1004ef12a904aa1404ef52a714aa1804ef92a724aa1c04efd2a734aa2004f012a744aa2404f052a754aa2804f092a764aa2c04f0d2a774aa3004f112a784aa3404f152a794aa3804f192a7a4aa3c04f1d2a7b4aa4004f212a7c4a9c404f252a7d4a9c804f292a7e4a9cc04f2d2a7f4a9d07d6192aae506b8506b92a804a9d47d61d2aaf506bc506bd2a814a9d87d6212ab0506c0506c12a824a9dc5dd79b9426e5846e5857f5e61d785ddd5b9596e5e0)
  (.lf 0)))

def shaGateTree475 : BTree :=
  .nd (.nd (.nd (.lf
  0x83414003e4febc4febd2ce24b38083418003f4fec04fec12ce34b3845ced5dadb76be876be80e5f4b3c04b3c20ddf837f8837f933f04e7c04cfc20e1d838f0838760e1c3a9883a988ea643a98d3a9920e1c006783a98e0e1c517bc8377e0dde3a8203a820ea0a3a8253a82a0dde4cfbc76b6ddada267c0267c099f2267c5267c5dada4b3bc5ced1dada76be476be40e5e4b3bc4b3be0dde837f4837f533ef4e7bc4cfbe0e1c838ec838720e1b3a97c3a97cea613a9813a9860e1b006743a9820e1b517b83a8260dde4e7bc8377a0ddd3a8143a814ea073a8193a81e0ddd4cfb8267c9dada0397876b69dad9267b4267b499ef267b9267b9dad94b3b85cecddad976be076be00e5d4b3b84b3ba0ddd837f0837f133ee4e7b84cfba0e1b838e88386e0e1a3a9703a970ea5e3a9753a97a0e1a006703a9760e1a517b43a81a0ddd4e7b8837760ddc3a8083a808ea043a80d3a8120ddc4cfb4267bddad90397476b65dad8267a8267a899ec267ad267addad84b3b45cec9dad876bdc76bdc0e5c4b3b44b3b60ddc837ec837ed33ed4e7b44cfb60e1a838e48386a0e193a9643a964ea5b3a9693a96e0e190066c3a96a0e19517b03a80e0ddc4e7b4837720ddb3a7fc)
  (.lf 0)) (.nd (.lf
  0x700cdc0321a91c1a91c6a491a9211a921c032620e81a925c032600e85e0e9c03270144700c9c0311a9101a9106a461a9151a915c031620e41a919c031600e45e0e5c03170140700c5c0301a9041a9046a431a9091a90dc030600e01a909c030620e0700c1c02f1a8f81a8f86a401a8fd1a901c02f600dc1a8fdc02f620dc700bd8036620d95e0d98036620d8620d808993bebc7016d8044621106211008873bef47018180496212462124088c3bf083bef40899022503bf08089e022643e6a008b90226470199804f6213c6013c08d93e7203e72008993e7a10226598d6663d4701ad805462150701b180556215470149803b620ec620ec089e3bed07014d803c620f0620f0089f3bed470185804a6212862128088d3bf0c70195804e621386213808913bf1c6213c08923bf203bf0c089f022683bf1c0883022783bf2008840227c3e6b808bf0227c6015408df3e7383e738089f3e7b90227d98dc663ec3e6b408be022786015008de3e7343e734089e3e7b56637198db0ad7c0ad7c2b610ad810ad8598db582bc0ad8198db01c780227998db663e86636d98da0ad700ad702b5e0ad750ad7598da01c74663e960af01c78663ed60b001c7c664e148af582bc)
  (.lf 0))) (.nd (.nd (.lf
  0x3778e05914b0f83778a05914f9784e17a0591816c08164605903777837778dde03777d3778205904b0f43777e05904f9744e1760590816bc81642058f3776c3776cdddd3777137776058f4b0f037772058f4f9704e172058f816b88163e058e3776037760ddda377653776a058e4b0ec37766058e4f96c4e16e058e816b48163a058d3775437754ddd7377593775e058d4b0e83775a058d4f9684e16a058d816b081636058c3774837748ddd43774d37752058c4b0e43774e058c4f9644e166058c816ac81632058b3773c3773cddd13774137746058b4b0e037742058b4f9604e162058b816a88162e058a3773037730ddce377353773a058a4b0dc37736058a4f95c4e15e058a816a48162a05893772437724ddcb377293772e05894b0d83772a05894f9584e15a0589816a08162605883771837718ddc83771d3772205884b0d43771e05884f9544e15605888169c8162205873770c3770cddc5377113771605874b0d03771205874f9504e1520587816988161e05863770037700ddc2377053770a05864b0cc3770605864f94c4e14e0586816948161a0585376f4376f4ddbf376f9376fe05854b0c8376fa05854f9484e14a0585816904e1452c314f944)
  (.lf 0)) (.nd (.lf
  0x6ca75b29c1482c1482c520d1483114835b29c53b7c14831b29c55b7c51b7db29c6caec6ca71b29b1482014820520a1482514829b29b53b7814825b29b55b7851b79b29b6cae86ca6db29a148141481452071481914819b29a55b741481db29a53b7451b75b29a6cae46ca69b299148081480852041480d1480db29955b7051b71b2996cae014811b29953b706ca65b298147fc147fc52011480114805b29853b6c51b6db2986cadc6cadd4edb55b6c53b6c036a43864438650e39439656caed4edf55b7c55b7c0324414f4414f4033b00cc014801b29855b6c6ca61b297147f0147f051fe147f5147f5b29755b6851b69b2976cad8147f9b29753b686ca5db296147e4147e451fb147e9147edb29653b64147e9b29655b6451b61b2956cad051b65b2966cad46ca59b295147d8147d851f8147dd147ddb29555b606cad14ed855b6055b60033d414d8414d8033400ca46cb314ef055bc053bc0037f438b8438b90e4e439b9439b8037f00cfc6cb154ee955ba455ba4032e4151c4151c032500ce853bbc037e438b4437b0035d00cf4437b4035e00cf8437b8035f00cfc6cafd4ee355b8c6cad94eda55b686cb294eee55bb855bb803334153055b68033f414e0)
  (.lf 0)))

def shaGateTree476 : BTree :=
  .nd (.nd (.nd (.lf
  0x7a89d859163644636440fd43d4287a8a1859263648636480fd53d42c7a8a585936364c6364c0fd63d4307a8a9859463650636500fd73d4347a8ad859563654636540fd83d4383d3bc0fcb03f183d3c00fcc03f1c3d3c40fcd03f203d3c80fce03f243d3cc0fcf03f283d3d00fd003f2c3d3d40fd103f303d3d80fd203f343d3dc0fd303f383d3e00fd403f3c3d3e40fd503f403d3e80fd603f443d3ec0fd703f483d3f00fd803f4c3d3f40fd903f503d3f80fda03f543d3fc0fdb03f583d4000fdc03f5c3d4040fdd03f603d4080fde03f643d40c0fdf03f683d4100fc003f6c3d4140fc103f703d4180fc203f743d41c0fc303f783d4200fc403f7c3d4240fc503f003d4280fc603f043d42c0fc703f083d4300fc803f0c3d4340fc903f103d4380fca03f144103c0fe003f00410400fe103f04410440fe203f08410480fe303f0c4104c0fe403f10410500fe503f14410540fe603f18410580fe703f1c4105c0fe803f20410600fe903f24410640fea03f28410680feb03f2c4106c0fec03f30410700fed03f34410740fee03f38410780fef03f3c4107c0ff003f40410800ff103f44410840ff203f48410880ff303f4c4108c0ff403f50410900ff503f54)
  (.lf 0)) (.nd (.lf
  0x6763149c75871c5271dc96f72638725bdc96e1eab81eab87ab01eabd1eabdc96e567186762d49c65871852719c96e726341eac1c96e54718725b9c96d1eaac1eaac7aad1eab11eab5c96d547141eab1c96d567146762949c55871452715c96d72630725b5c96c1eaa01eaa07aaa1eaa51eaa9c96c547101eaa5c96c56710725b1c96b1ea941ea947aa71ea991ea99c96b5670c41fd007b201e9c4588407d201ec85468c07f24598445985168145a8545a8407f201ec801ec99d69676200c7b59d6a58710675a99d690c7a40c7a431eb0c7a90c7ad9d695270c6762149c35870c5270dc96b7262841fcc07b101e984588007d101ec45468807f14598045981168045a8145a8007f101ec401ec59d686761c6761d49c2587080c7a99d695870c675a59d680c7980c79831e80c79d0c7a19d685270852709c96a726241ea9dc96b5470c725adc96a1ea881ea887aa41ea8d1ea91c96a547081ea8dc96a56708725a9c9691ea7c1ea7c7aa11ea811ea85c969547041ea81c969567040c79d9d6858708675a19d670c78c0c78c31e50c7910c7919d675870441fc807b001e944587c07d001ec05468407f04597c4597d167f45a7d45a7c07f001ec00c7959d6752704)
  (.lf 0))) (.nd (.nd (.lf
  0x4c70a01b580750807512cc250f080f4ada52952f0c694a5a5280f49802ec5a5286951c0f4983d280f49d0f49da52858f086951d4bc258f0826045d9d6038c876759d9d52603026030980e2603526035d9d54b30825ed9d9985ee2076661d99725ec825ec897b425ecd25ed1d9975ce1c25cfc973d25cf025cf0973d58f0958f08973d5ae585ae59d997766d8766d973875ee1c5ce1dd9d5767d0767d00e314b3084b30a0d17834d8834d933c24e7084e70a0d93836c88364e0d923a6103a610e9863a6153a61a0d92001403a6160d924ff043a3560d174cf088345e0d163a3403a340e8d23a3453a3460d164e7043613a01b550f08806d601b43612836128d84c3612d3613201b44b3044c70601b48074c8074d2cc150f0402ec1a527695180f4a1a52852f08694a1a5270f48c695194bc158f040f48c3d250f4910f491a52758f0426039d9d5038c476755d9d42602426024980b2602926029d9d44b30425ecdd9975ee1c7665dd99625ebc25ebc97b125ec125ec5d9965ce1825cf4976725ce425ce4973b25ce925ce897675ae5458f04976725de425de400005ae565ae55d996766d4766d573865ee185ce19d9d4767cc767cc0e304b3044b3060d16834d4)
  (.lf 0)) (.nd (.lf
  0x7dabd2fe14d7844bf85f6ce7dbb4321e5f6ce507847dab92fe04d7807db39f6cd321d4321d4c877321d9321ddf6cd4ab80321d9f6cd507804bf81f6cd7dbb07db35f6cc321c8321c8c874321cd321d1f6cc4ab7c321cdf6cc5077c7db31f6cb321bc321bcc871321c17daa92fdc4d7704bf71f6c97dba0321c5f6cb4ab78321c1f6cb507787dab12fde4d7784bf79f6cb7dba87db2df6ca321b0321b0c86e321b5321b5f6ca507747daad2fdd4d7744bf75f6ca7dba4321b9f6ca4ab747db29f6c9321a4321a4c86b321a9321adf6c94ab70321a9f6c9507707db25f6c83219832198c8683219d321a1f6c84ab6c3219df6c85076c7daa52fdb4d76c4bf6df6c87db9c7db21f6c73218c3218cc8653219132195f6c74ab6818395bac45be701822c00006eaca6eac860881821c1821c608857f5d5fdf006063e0d43e0d405c63e1553bc2805c6017043e05405e6017180171995db657e8657e95fd701218441d404260101853edc0446442d4442d510d5443d5443d4044601018010199619658e009cf9961a51f6065869961909ce409ce4273b09ce909ce9961957f5c658e147d757f5c09b8d95dc0121c6577195db09b7c09b7c26e109b8109b8595db57f5c)
  (.lf 0)))

def shaGateTree477 : BTree :=
  .nd (.nd (.nd (.lf
  0x105f5a81a59230031eda81a6a0e46a069a819105e4105e4417b105e9105eda8195322c105e9a8195922c6a065a818105d8105d84178105dd105dda81859228105e1a81853228031e5a8186a0dc6a061a817105cc105cc4175105d1105d1a81759224105d5a817532246a05da816105c0105c04172105c5031dda8166a0d4105c9a81653220105c5a816592206a059a815105b4105b4416f105b9105bda8155321c105b9a8155921c031d9a8156a0d06a055a814105a8105a8416c105ad105b1a81453218031c5a8106a0bc105ada81459218031d5a8146a0cc6a051a8131059c1059c4169105a1105a1a81359214105a5a81353214031d1a8136a0c86a04da812105901059041661059510599a81253210031cda8126a0c410595a812592106a049a81110584105844163105891058da8115320c031c9a8116a0c010589a8115920c6a045a810105781057841601057d10581a810532081057da810592086a041a80f1056c1056c415d1057110571a80f59204031c1a80f6a0b810575a80f532046a03da80e1056010560415a1056510569a80e5320010565a80e59200031bda80e6a0b46a039a80d105541055441571055910559a80d591fc1055da80d531fc)
  (.lf 0)) (.nd (.lf
  0x7ee252a834f28c4f28d29ed065f87ee292a844f2904f29129ee065fc7ee2d2a854f2944f29529ef066007ee312a864f2984f29929f006604065b129e44a788065b529e54a78c065b929e64a790065bd29e74a794065c129e84a798065c529e94a79c065c929ea4a7a0065cd29eb4a7a4065d129ec4a7a8065d529ed4a7ac065d929ee4a7b0065dd29ef4a7b4065e129f04a7b8065e529d14a7bc065e929d24a7c0065ed29d34a744065f129d44a748065f529d54a74c065f929d64a750065fd29d74a7540660129d84a7580660529d94a75c7ee352a874f29c4f29d29da4a7607ee392a884f2a04f2a129db4a7647ee3d2a894f2a44f2a529dc4a7687ee412a8a4f2a84f2a929dd4a76c7ee452a8b4f2ac4f2ad29de4a7707ee492a8c4f2b04f2b129df4a7747ee4d2a8d4f2b44f2b529e04a7787ee512a8e4f2b84f2b929e14a77c7ee552a8f4f2bc4f2bd29e24a7807ee592a904f2c04f2c129e34a7845e255c256709d470959c2551b81c1b81c6e091b8211b825c255602505e249c253709c81b821c255622505e251c255709d070955c2541b8101b8106e061b8151b815c2546224c5e245c252709c45e24dc254709cc1b819c2546024c70951c2531b804)
  (.lf 0))) (.nd (.nd (.lf
  0x4fa592be006b4481c752c774fa5c4fa5d2be106b4881c792c784fa604fa612be206b4c81c7d2c794fa644fa652be306b5081c812c7a4fa684fa692be406b5481c852c7b4fa6c4fa6d2be506b5881c892c7c4fa704fa712be606b5c81c8d2c7d4fa744fa752be706b6081c912c7e4fa784fa792be806b6481c952c7f4fa7c4fa7d2be906b6881c992c804fa804fa812bea06b6c81c9d2c814fa844fa852beb06b7081ca12c824fa884fa892bec06b7481ca52c834fa8c4fa8d2bed06b7881ca92c844fa904fa912bee06b7c81cad2c854fa944fa952bef06b8081cb12c864fa984fa992bf006b8406b312be44af8806b352be54af8c06b392be64af9006b3d2be74af9406b412be84af9806b452be94af9c06b492bea4afa006b4d2beb4afa406b512bec4afa806b552bed4afac06b592bee4afb006b5d2bef4afb406b612bf04afb806b652bd14afbc06b692bd24afc006b6d2bd34af4406b712bd44af4806b752bd54af4c06b792bd64af5006b7d2bd74af5406b812bd84af5806b852bd94af5c81cb52c874fa9c4fa9d2bda4af6081cb92c884faa04faa12bdb4af6481cbd2c894faa44faa52bdc4af6881cc12c8a4faa84faa92bdd4af6c81cc52c8b4faac)
  (.lf 0)) (.nd (.lf
  0x51cedb5936d6c815ce0573a15ce515ce5b59455cf015ce9b59453cf051cf1b5946d6cc6d651b59315cd415cd4573715cd915cddb59353cec15cd9b59355cec6d64db59215cc815cc8573415ccd15ccdb59255ce86d71d4f5055d4051ce9b5926d6c46d6c54f3a55ce855ce8039f416605bad5b3326cd4453d4003df43d386d9a17efc61bf061bf0055f3b9d461c28054d3ba0c61c3c05523ba203ba0c055f015683ba2005440157c3dcb8057f0157c5fc54059f3dd383dd38055f3ddb96cd44055f49fc00157d94046508c6508d5f700107c43d390f6e43e3943c3803bf00e7c43e3803df00e7c00e7d94426518465185477057dc057dc059a359d941668c59a21663c1663c5991166411664059a259d906d7194f4f55d3c15cd1b59253ce86d649b59115cbc15cbc573115cc151ce5b5916d6c06d6e54f4255d086d6c14f3955ce455d0803874168015cc1b59155ce455ce4039e4165c6d7114f4d55d3455d340392416ac416ac038900e7841680039e00e4c53d3c03de43d3443d350f6d43e3543e3403de00e7843c3403be00e7800e7994416518008d71936f00f9864dbd936e08d6008d60235a08d6508edd93ad51cdc16289b6495fbf06d925b64816274)
  (.lf 0)))

def shaGateTree478 : BTree :=
  .nd (.nd (.nd (.lf
  0x2acb1e4725d374791c9e4712ac9c2ac9cab292aca12aca1e4715f3702ab54aad32ab482ab48aad35945d5d171e0b178340783400f0600118291cde0b20011c782c9e0b1291bc291bca471291c1291c5e0b103c1803c19aa336a9486a94965170451811319aa72534606a9c9aa71113041130444c31130911309aa715945c04319aa716aa406aa414d175945c111adaa340451c6a8d1aa331119c1119c4469111a1111a5aa335945c5945caad35b3845b385e471792407924174dc5f3705f371e4ed79430793b5e4ec2af602af60abda2af652af69e4ec6136c2af65e4ec6336c2aca5e4715d370791c5e4702ac902ac90ab262ac952ac95e4705f36c2ab4caad12ab402ab40aad1594595d16de0b07833c7833c0f0500114291c1e0b100118782c5e0b0291b0291b0a46e291b5291b9e0b003c1403c15aa326a9446a9456516045141130daa715345c6a9c5aa70112f8112f844c0112fd112fdaa705945804315aa706aa3c6aa3d4d1659458111a1aa33045186a8cdaa32111901119044661119511199aa325945859458aad15b3805b381e4707923c7923d74db5f36c5f36de4ec7942c793b1e4eb2af542af54abd72af592af5de4eb613682af59e4eb63368)
  (.lf 0)) (.nd (.lf
  0xbbc19b6b584d466dad9b6a0bbb045248074301c8c544500763453484534914f24544945448076301c8c0bbb02eee0bbb50bbb59b6a584d00bbb99b6a524d001c8d9b6a66e2466da99b690bba40bba42eeb0bba90bbad9b69524cc0ba719b2f01e9866cbd9b2e0ba603c1a40925024800bba99b69584cc45244074201c885444c0762453444534514f14544545444076201c8801c899b6966e2066e214933584cc66e254934584d00ba602e9a0ba650ba659b2e01e943eb500945024946036c09653ebd03ebd009253ec510ba699b2e584d8024959b2e66d3466cb99b2d0ba540ba542e970ba590ba599b2d01e903eb4c0944024906036809643ebcc3ebcc09243ec4d0ba5d9b2d584d4024919b2d66d3066cb59b2c0ba483eb4809430248c6036409633ebc83ebc809233ec490248d9b2c66d2c0ba482e940ba4d0ba519b2c584d00ba4d9b2c01e8c66cb19b2b0ba3c0ba3c2e910ba410ba459b2b584cc1cf15c59c1cf041cf0473c31cf091cf09c59c5a4683eb440942024886036009623ebc43ebc409223ec45024899b2b66d2866e294935584d466d35613601e9466e2d4936584d8584d9c59c1d0101cf0c0000716727167073c01cefc1cefc73c0584d5)
  (.lf 0))) (.nd (.nd (.lf
  0x5eb9dd50f754b87543dd50e23e2c23e2c8f8d23e3123e35d50e60b9823e31d50e62b985eb99d50e754b475439d50d23e2023e208f8a23e2523e29d50d60b9423e25d50d62b945eb95d50d754b075435d50c23e1423e148f8723e1923e1dd50c60b9023e19d50c62b905eb91d50c754ac75431d50b23e0823e088f8423e0d23e11d50b60b8c23e0dd50b62b8c5eb8dd50b754a87542dd50a23dfc23dfc8f8123e0123e05d50a60b8823e01d50a62b885eb89d50a754a475429d50923df023df08f7e23df523df9d50960b8423df5d50962b845eb85d509754a075425d50823de423de48f7b23de923dedd50860b8023de9d50862b805eb81d5087549c75421d50723dd823dd88f7823ddd23de1d50760b7c23dddd50762b7c5eb7dd507754987541dd50623dcc23dcc8f7523dd123dd5d50660b7823dd1d50662b785eb79d5067549475419d50523dc023dc08f7223dc523dc9d50560b7423dc5d50562b745eb75d5057549075415d50423db423db48f6f23db923dbdd50460b7023db9d50462b705eb71d5047548c75411d50323da823da88f6c23dad23db1d50360b6c23dadd50362b6c5eb6dd503754887540dd50223d9c23d9c8f6923da123da5d50260b68)
  (.lf 0)) (.nd (.lf
  0x9425947e010f409429947e57e38651f9947d09414094142507094190941d947d57e346dd757f1961c6461c64057c3ba486ddad7f2761c9c61c9c056a3ba806ddc17f2c61cb061cb0056f3ba943ba80057c015dc3ba940561015f06ddd97f3261cc83ddac059c015f05fcc805bc3de2c3de2c057c3dead015f1947d652706dd717f1861c6061c60057b3ba446dda97f2661c9861c9805693ba7c6ddbd7f2b61cac61cac056e3ba903ba7c057b015d83ba900560015ec09419947d010f03dda8059b015ec6ddd57f3161cc45fcc405bb3de283de28057b3dea9651f5947c094080940825040940d09411947c57e300940d947c010ec015ed947c6526c651f1947b093fc093fc25010940109401947b010e809405947b57e2c651ed947a093f0093f024fe093f5093f9947a57e28093f5947a010e4169b1b73c5fc5c6dcf17f1661c595dc597f1661c5861c5805793ba3c6dd9d7f2361c8c61c8c05663ba706dda17f2461c9061c9005673ba7461cd405783bab83ba700578015cc3ba740579015d03dd9c0598015e05fcb805b83de1c3de1c05783de9d015e19479652603dda00599015e45fcbc05b93de203de2005793dea1015e5947a65264651e99479093e4)
  (.lf 0)))

def shaGateTree479 : BTree :=
  .nd (.nd (.nd (.lf
  0x590e89e605b0285b029dd7e776747767573ff5effc5cffdddbc7776c7776c0ea94b4e84b4ea0ff78405884059343a4e8e84d0ea103584150840d610343b5283b528ed4c3b52d3b5321034007a03b52e1034518e43b3d20ff74e8e883fde0ff63b3c03b3c0ecf23b3c53b3ca0ff64d0e43991a0b5d4fd6882d760b5c3990839908e6443990d399120b5c4b4e43964e0ae14cd6882b860ae03963839638e5903963d3963e0ae04e5644b1660ae082bfc82bfd33594e5644e5660b5c82dec82ded2d394fd64371ba0495510e8812560494371a8371a8dc6c371ad371b204944b4e44c8e60494812cc812cd2d39510e469bc16439041a027c65ddbc03aa4776f1ddbb27c5027c509f1627c5527c55ddbb4b4e427af9dd7e5effc775f9dd7d27ae827ae89ebc27aed27af1dd7d5cff827981dd6927970279709e5e2797527975dd695b024590e5dd6927a6027a6000005b0265b025dd7d776707767173fe5eff85cff9ddbb77768777680ea84b4e44b4e60ff6840548405534394e8e44d0e610348414c840d210333b51c3b51ced493b5213b52610330079c3b5221033518e03b3c60ff64e8e483fda0ff53b3b43b3b4ecef3b3b93b3be0ff54d0e03990e0b5c4fd64)
  (.lf 0)) (.nd (.lf
  0xa8c99816521906605998150a8b40a8b42a2f0a8b90a8bd98155218c0a8b998155818c41a5004920121c4480404b2012485410c06924490444905126144a0544a04069201248012499815660d06605598140a8a80a8a82a2c0a8ad0a8b19814521880a8ad98145818841a4c0491012184480004b1012445410806914490044901126044a0144a00069101244012459814660cc6605198130a89c0a89c2a290a8a10a8a59813521840a8a1981358184447fc04b001240541040690448fc448fd125f449fd449fc069001240012419813660c86604d98120a8900a8902a260a8950a8999812521800a89598125818041a44048f01210447f804af0123c54100068f448f8448f9125e449f9449f8068f0123c0123d9812660c46604998110a8840a8842a230a8890a88d98115217c0a88998115817c41a40048e0120c447f404ae01238540fc068e448f4448f5125d449f5449f4068e01238012399811660c06604598100a8780a8782a200a87d0a8819810521780a87d98105817841a3c048d01208447f004ad01234540f8068d448f0448f1125c449f1449f0068d01234012359810660bc66041980f0a86c0a86c2a1d0a8710a875980f521740a871980f58174)
  (.lf 0))) (.nd (.nd (.lf
  0x5e80dce1d738f073875ce1c20c2c20c2c830d20c3120c35ce1c6080820c31ce1c62808728280a284aae4207ec81f9207e0207e081f9588f567cd1623d02ab0588f481f95a8645a865cda0736fc20971cda15c80c73685cda02095c2095c82592096120965cda05c80820961cda05e80873681cd9f209502095082562095520955cd9f5e80420959cd9f5c804207e5cd89207d4207d481f7207d9207d9cd895a8605a861cd9f736f87367dcd9e2094445e64084a020a85486c086a45f6445f6517f94606546064086a020a8207dc0000736267362481f4207cc207cc81f4588ed020a99f5167dc067dc14a3b588ec728300a2a4aaec0d12d9f1402aac67c519f130d11c0d11c34490d121028a99f1367cc80d1259f13588ec67cc9623b02aa867d499f510d2840d28434a30d2890d2899f51588ec588ec81f45a85c5a85dcd9e736f4209448253209492094dcd9e5c80020949cd9e5e80073679cd9d209382093882502093d2093dcd9d5e7fc20941cd9d5c7fc45e600849020a454868086945f6045f6117f846061460600869020a4207d1cd88207c0207c081f2207c5207c5cd885a8587282c0a294aae80d1219f1302aa867c4d9f120d1100d11034460d115)
  (.lf 0)) (.nd (.lf
  0x57a704ef613c1013b10000013bda13bd84ef513afc13afc4ec113b0113b004ef559a5c13c10000059a6259a5db0d16c3c06c3c16e605d98013cbdb0d35b9886c34db0d213ca813ca84f2c13cad13cb1b0d25b98413cadb0d25d98459a61b0d26c3c46c349b0d113c9c13c9c4f2913ca113ca1b0d15d9805d981b14d6c5b06c3c56e615d9845d985b14e6c5b46c539b14d13f6c13f6c4fdd13f7113f71b14d619806c5f97e72619c86c5b17e60619806c5c57e6561994619952d593b7783d79004d54b5986c5dd7e6b619ac5f9ac04f53d810619812d543b7643b7652d664b5843d8112d663d89163a1d2d6600854619c92d663b7ac3b7792d6b4b5984b599918e646b4646b55ec600dd4071818e9b008a863a6d8e9a07170071701c5e07175071758e9a008a4847298e9a63ae4071798e9a4b5e863a698e990716413b04000013bd613bd44ebe13af45f8f804c83d6dc3d6dd2d793d75d07f91910700d286441d910607f8007f801fe207f85847258e9963ae0071641c5b071690716d8e994b5e45f8fc04c93d6e03d6e12d7a3d76163ae52d7a008a43d6612d5a4b5e83b7352d7a4b5d44b5e991066449407f89910657a6807f85910600d2464419910507f74)
  (.lf 0)))

def shaGateTree480 : BTree :=
  .nd (.nd (.nd (.lf
  0x2e931ed145d7f07b451ed132e91c2e91cba492e9212e921ed135f7ec2e7fcb9fd2e7f02e7f0b9fd598cd598ccb9fd5b7ec5b7eded137b4c87b4c975fb5f7ec5f7eded8f7b6b87b63ded8e2ebe02ebe0bafa2ebe52ebe9ed8e617e82ebe5ed8e637e82e925ed135d7ec7b44ded122e9102e910ba462e9152e915ed125f7e82e7f56df92e7e82e7e966312e7ed2e7ed6df95b7e8598c96df97b40c7b40c00005b7ea5b7e9ed127b4c47b4c575fa5f7e85f7e9ed8e7b6b47b639ed8d2ebd42ebd4baf72ebd92ebdded8d617e42ebd9ed8d637e42e919ed125d7e87b449ed112e9042e904ba432e9092e909ed115f7e4598c400005b7e65b7e5ed117b4c07b4c175f95f7e45f7e5ed8d7b6b07b635ed8c2ebc82ebc8baf42ebcd2ebd1ed8c617e02ebcded8c637e02e90ded115d7e47b445ed102e8f82e8f8ba402e8fd2e8fded105f7e05b7e1ed107b4bc7b4bd75f85f7e05f7e1ed8c7b6ac7b631ed8b2ebbc2ebbcbaf12ebc12ebc5ed8b617dc2ebc1ed8b637dc2e901ed105d7e07b441ed0f2e8ec2e8ecba3d2e8f12e8f1ed0f5f7dc5b7dded0f7b4b87b4b975f75f7dc5f7dded8b7b6a82e8f5ed0f5d7dc5b7d975f65f7d87b43d75f65f7d95f7d985f6637d8)
  (.lf
  0x814820540814d0814d914c57a8808151914c51a8864531914b0813c0813c20510814108145914b51a8408141914b57a846452d914a0813008130204e0813508135914a57a8008139914a51a80413452e004b7d4849418f9863edc077581dd80775d077618f984b80053a00030f433f8433f90d1e434f9434f8030f4b80063edd2e0000abc432f92de04b8004b801914a645a46452991490812408124204b081290775d8f9800abc63e618f970774c0774c1dd507751077518f9700ab8077558f974b7fc63e5d8f9607740077401dd207745077498f964b7f8849398f9663ed4077458f9600ab463e598f9507734077341dcf077390773d8f954b7f4849358f9563ed0077398f9500ab063e558f9407728077281dcc0772d0772d8f9400aac849318f9463ecc077318f944b7f063e518f930771c0771c1dc907721077258f934b7ec8492d8f9363ec8077218f9300aa863e4d8f9207710077101dc607715077198f924b7e8077158f9200aa4849298f9263ec463e498f9107704077041dc307709849258f9163ec0077098f9100aa00770d8f914b7e463e458f90076f8076f81dc0076fd076fd8f9000a9c849218f9063ebc077018f904b7e063e418f8f076ec))
  (.nd (.lf
  0x810dd2bf94f8644f8652b63069f0810e12bfa4f8684f8692b64069f4810e52bfb4f86c4f86d2b65069f8810e92bfc4f8704f8712b66069fc810ed2bfd4f8744f8752b6706a00810f12bfe4f8784f8792b6806a04810f52bff4f87c4f87d2b6906a08810f92c004f8804f8812b6a06a0c810fd2c014f8844f8852b6b06a10811012c024f8884f8892b6c06a14811052c034f88c4f88d2b6d06a18811092c044f8904f8912b6e06a1c8110d2c054f8944f8952b6f06a20811112c064f8984f8992b7006a24069d12b644ad88069d52b654ad8c069d92b664ad90069dd2b674ad94069e12b684ad98069e52b694ad9c069e92b6a4ada0069ed2b6b4ada4069f12b6c4ada8069f52b6d4adac069f92b6e4adb0069fd2b6f4adb406a012b704adb806a052b514adbc06a092b524adc006a0d2b534ad4406a112b544ad4806a152b554ad4c06a192b564ad5006a1d2b574ad5406a212b584ad5806a252b594ad5c811152c074f89c4f89d2b5a4ad60811192c084f8a04f8a12b5b4ad648111d2c094f8a44f8a52b5c4ad68811212c0a4f8a84f8a92b5d4ad6c811252c0b4f8ac4f8ad2b5e4ad70811292c0c4f8b04f8b12b5f4ad748112d2c0d4f8b44f8b52b604ad78)
  (.lf 0))) (.nd (.nd (.lf
  0x550740c6c4776c550780c6d477705507c0c6e47774550800c6f47778550840c704777c550880c71477805508c0c7247784550900c7347788550940c744778c550980c75477905509c0c7647794550a00c7747798550a40c784779c550a80c79477a0550ac0c7a477a4550b00c7b477a8550b40c7c477ac550b80c7d477b0550bc0c7e477b4550c00c7f477b8477551df547855477591df6478594775d1df74785d477611df847861477651df947865477691dfa478694776d1dfb4786d477711dfc47871477751dfd47875477791dfe478794777d1dff4787d477811e0047881477851e0147885477891e02478894778d1e034788d477911e0447891477951e0547895477991e06478994779d1e074789d477a11e08478a1477a51e09478a5477a91e0a478a9477ad1e0b478ad477b11e0c478b1477b51e0d478b5477b91e0e478b9478540c6603098478580c670309c4785c0c68030a0478600c69030a4478640c6a030a8478680c6b030ac4786c0c6c030b0478700c6d030b4478740c6e030b8478780c6f030bc4787c0c70030c0478800c71030c4478840c72030c8478880c73030cc4788c0c74030d0478900c75030d4478940c76030d8478980c77030dc)
  (.lf 0)) (.nd (.lf
  0x7df6929d64efd84efd929400640c7df6d29d74efdc4efdd2941064107df7129d84efe04efe12942064147df7529d94efe44efe52943064187df7929da4efe84efe929440641c7df7d29db4efec4efed2945064207df8129dc4eff04eff12946064247df8529dd4eff44eff52947064287df8929de4eff84eff929480642c7df8d29df4effc4effd2949064307df9129e04f0004f001294a064347df9529e14f0044f005294b064387df9929e24f0084f009294c0643c7df9d29e34f00c4f00d294d064407dfa129e44f0104f011294e064447dfa529e54f0144f015294f064487dfa929e64f0184f01929500644c063f929444a508063fd29454a50c0640129464a5100640529474a5140640929484a5180640d29494a51c06411294a4a52006415294b4a52406419294c4a5280641d294d4a52c06421294e4a53006425294f4a5340642929504a5380642d29314a53c0643129324a5400643529334a4c40643929344a4c80643d29354a4cc0644129364a4d00644529374a4d40644929384a4d80644d29394a4dc7dfad29e74f01c4f01d293a4a4e07dfb129e84f0204f021293b4a4e47dfb529e94f0244f025293c4a4e87dfb929ea4f0284f029293d4a4ec)
  (.lf 0)))

def shaGateTree481 : BTree :=
  .nd (.nd (.nd (.lf
  0x6a84d4cf6593d810ed1a9b7044986a6dda9b610ec010ec043b210ec510ec9a9b6593d803b95a9b66a7546a75564f604494593d8a9492a55c2a55c00005b3025b301e36d78e3078e3174bb5f2ec5f2ede3e97902078fa5e3e82a8782a878aa202a87d2a881e3e8612e82a87de3e8632e82a5bde36d5d2ec78db5e36c2a5a82a5a8a96c2a5ad2a5ade36c5f2e82a42c00002a5262a524a9482a4182a418a9082a41d2a41ca9485b2fc28a6ddfb80009477ee1dfb728a5c28a5ca29928a6128a65dfb703b905d0e9dfb777f5877f580ee40009011031a9f4533d86a7d1a9f31101c1101c44091102111021a9f3593d404291a9f36a8486a8494cf5593d410ec5a9b6044946a6d9a9b510eb410eb443af10eb910ebda9b5593d403b91a9b56a7506a75164f504490593d4a9482a5582a55800005b2fe5b2fde36c78e2c78e2d74ba5f2e85f2e9e3e87901c78fa1e3e72a86c2a86caa1d2a8712a875e3e7612e42a871e3e7632e42a5b1e36c5d2e878db1e36b2a59c2a59ca9692a5a12a5a1e36b5f2e42a42000002a5222a520a9472a40c2a40ca9052a4112a410a9475b2f828a61dfb70009077edddfb628a5028a50a29628a5528a59dfb603b8c5d0e5dfb677f54)
  (.lf 0)) (.nd (.lf
  0x1c6e9c471564741c6edc47154474711c5c4701c6d852471c4707123c1c6d871b81c6dd1c6e1c470544701c6ddc47056470711c1c46f1c6cc1c6cc71b51c6d11c6d5c46f5446c5246dc46f712381c6d1c46f5646c711bdc46e1c6c01c6c071b21c6c51c6c9c46e544681c6c5c46e56468711b9c46d1c6b41c6b471af1c6b91c6b9c46d5646452465c46d712307123151195646456464073e41ddc7125551225648856488072741e00564b4073241e2c41e00073e01ccc41e2c072901cf8452b4075e01cf8544bc077e453b4453b5150d454b5454b4077e01cf801cf99b8566e901c6bdc46d54464711b5c46c1c6a81c6a871ac1c6ad1c6adc46c564607127d512c564b052455c469712207122151155645471285512e564b871235511a5646856468073f41de07125951235648c5648c072841e04564b8073341e3041e04073f01cd041e30072a01cfc452b8075f01cfc7128d5130564c0544c0077f453b8453b9150e454b9454b8077f01cfc01cfd9b8666e9466e199b850bcf40bcf42f3f0bcf90bcf99b855853c0bcfd9b855253c66e159b840bce80bce82f3c0bced0bcf19b845253852461c46c7122c7122d51185646056460073d41dd871251512156484)
  (.lf 0))) (.nd (.nd (.lf
  0x54c200b5746a1846a191aa646b1946b180b5702c5c02c5da2c268b840e6d5a2c258ca068b09a2c10e6c40e6c439b30e6c90e6c9a2c158c9c23129d33454bc852bc552f156bc474cd152f156bc556bc40b164253c74d99530556c1456c140b0a4258c425600b1602c2c4258c0b0102c58469140b3602c5854c1c0b5646a1446a151aa546b1546b140b5602c5802c59a2c168b800e6cda2c152c9c68b05a2c00e6b80e6b839b00e6bd0e6c1a2c052c9874d95530456c1056c100b094258856c400b15425b84255c0b1502c28425880b0002c54469100b3502c5454c180b5546a1046a111aa446b1146b100b5502c5402c55a2c068b7c0e6bda2c058c9868b01a2bf0e6ac0e6ac39ad0e6b10e6b1a2bf58c9456c3c0b14425b4425580b1402c244690c0b3402c5054c140b5446a0c46a0d1aa346b0d46b0c0b5402c5002c51a2bf68b780e6b5a2bf52c9468afda2be0e6a00e6a039aa0e6a50e6a9a2be52c90425540b1302c20469080b3302c4c54c100b5346a0846a091aa246b0946b080b5302c4c02c4da2be68b740e6a5a2be58c9068af9a2bd0e6940e69439a70e6990e699a2bd58c8c425500b1202c1c469040b3202c4854c0c0b5246a0446a051aa146b05)
  (.lf 0)) (.nd (.lf
  0x6d835b60c1612416124584b161295bbf5b60c6d8ac1612db60c0169c16129b60c4a0e06d831b60b161181611858481611d1611db60b4a0dc16121b60b016985bbf1b60b6d8a86d82db60a1610c1610c58451611116111b60a4a0d85bbedb60a6d8a416115b60a016946d829b609161001610058421610516105b6094a0d46d8c805ae4a0fc6d8d405b14a1086d8cc05af4a1006d8c405ad4a0f86d8bc05ab4a0f06d8b405a94a0e86d8ac05a74a0e00618928384a0d80618d28394a0dc7c86d28e74ec1c4ec1d283a4a0e07c87128e84ec204ec21283b4a0e47c87528e94ec244ec25283c4a0e87c87928ea4ec284ec29283d4a0ec7c87d28eb4ec2c4ec2d283e4a0f07c88128ec4ec304ec31283f4a0f47c88528ed4ec344ec3528404a0f87c88928ee4ec384ec3928414a0fc7c88d28ef4ec3c4ec3d28424a10030b71f2ef4d5084a109f2ef7cc387cbbdf2ee30b6030b60c2da30b6530b69f2ee4bd0430b65f2ee4d5044a105f2ee7cc347cbb9f2ed30b5430b54c2d730b594a0f9f2eb7cc2830b5df2ed4bd0030b59f2ed4d5004a101f2ed7cc307cbb5f2ec30b4830b48c2d430b4d30b51f2ec4bcfc6d8c005ac4a0f430b4df2ec4d4fc4a0fdf2ec7cc2c)
  (.lf 0)))

def shaGateTree482 : BTree :=
  .nd (.nd (.nd (.lf
  0x40f740fce03eb840f780fcf03ebc40f7c0fd003ec040f800fd103ec440f840fd203ec840f880fd303ecc40f8c0fd403ed040f900fd503ed440f940fd603ed840f980fd703edc40f9c0fd803ee040fa00fd903ee440fa40fda03ee840fa80fdb03eec40fac0fdc03ef040fb00fdd03ef440fb40fde03ef840fb80fdf03efc615580fe040fbc6155c0fe140fc0615600fe240fc4615640fe340fc8615680fe440fcc6156c0fe540fd0615700fe640fd4615740fe740fd8615780fe840fdc6157c0fe940fe0615800fea40fe4615840feb40fe8615880fec40fec6158c0fed40ff0615900fee40ff4615940fef40ff8615980ff040ffc6159c0ff141000615a00ff241004615a40ff341008615a80ff44100c615ac0ff541010615b00ff641014615b40ff741018615b80ff84101c615bc0ff941020615c00ffa41024615c40ffb41028615c80ffc4102c615cc0ffd41030615d00ffe41034615d40fff4103840fbc0fa04103d40fc00fa14104140fc40fa24104540fc80fa34104940fcc0fa44104d40fd00fa54105140fd40fa64105540fd80fa74105940fdc0fa84105d40fe00fa94106140fe40faa4106540fe80fab4106940fec0fac4106d40ff00fad41071)
  (.lf 0)) (.nd (.lf
  0x1e821c8f602864723d9c8f51e80c1e80c7a051e81172355716d5e5b45c5b5c8f47244c1e815c8f50286072359716e5e5b85c5b9c8f5724501e811c8f54aaa4723d5c8f41e8001e8007a021e8051e805c8f44aaa01e809c8f40285c723d1c8f31e7f41e7f479ff1e7f91e7f9c8f34aa9c1e7fdc8f3028585c5b1c8f372448723cdc8f21e7e81e7e879fc1e7ed1e7f1c8f2028547234d716b5e5ac5c5adc8f2724441e7edc8f24aa98723c9c8f11e7dc1e7dc79f91e7e11e7e5c8f1028501e7e1c8f14aa9472349716a5e5a85c5a9c8f172440723c5c8f01e7d01e7d079f61e7d51e7d9c8f00284c1e7d5c8f04aa907234571695e5a45c5a5c8f07243c723c1c8ef1e7c41e7c479f31e7c91e7cdc8ef028481e7c9c8ef4aa8c7234171685e5a05c5a1c8ef72438723bdc8ee1e7b81e7b879f01e7bd1e7c1c8ee028445c59dc8ee724341e7bdc8ee4aa88723b9c8ed1e7ac1e7ac79ed1e7b11e7b5c8ed028407233971665e5985c599c8ed724307233571655e5945c595c8ec7242c1e7b1c8ed4aa84723b5c8ec1e7a01e7a079ea1e7a51e7a9c8ec0283c1e7a5c8ec4aa80723b1c8eb1e7941e79479e71e7991e79dc8eb028381e799c8eb4aa7c7233171645e590)
  (.lf 0))) (.nd (.nd (.lf
  0x7621c957e255f4255f4957e58e8958e88957e5add85add9d89f762f8762f973675ed9c5ed9dd91b764e87646dd91a25a3425a34968f25a3925a3dd91a60d9825a39d91a62d9825779d89f5cd9c7627dd89e257642576495db2576925769d89e5ed98255f8957c255ec255ec957c58e8558e84957c5add45add5d89e762f4762f573665ed985ed99d91a764e476469d91925a2825a28968c25a2d25a31d91960d9425a2dd91962d942576dd89e5cd9876279d89d257582575895d82575d2575dd89d5ed94255f1d886255e0255e0957a255e5255e5d8865add058e81d886256902569000005add25add1d89d762f0762f173655ed945ed95d919764e076465d91825a1c25a1c968925a2125a25d91860d9025a21d91862d9025761d89d5cd9476275d89c2574c2574c95d52575125751d89c5ed90255e800007621a762189577255d8255d8957758e7d58e7c95775adcc5adcdd89c762ec762ed73645ed905ed91d918764dc76461d91725a1025a10968625a1525a19d91760d8c25a15d91762d8c25755d89c5cd9076271d89b257402574095d22574525745d89b5ed8c255dc9575255d0255d0957558e7958e7895755adc85adc9d89b762e8762e973635ed8c)
  (.lf 0)) (.nd (.lf
  0x51eedb9826e6846e609b981179bc179bc5e71179c16e6814fba55ee8179c1b98155ee855ee8041f4186055f0c0408418846e6d14fce55f3855f380413418b041884041f01050418b0040a0107c44238043f0107c6e6d94fd055f4053f40045f443384433910ee4443944438045f0107c0107d9632659446594547f057fc057fc1babe59f9059f91badd6ebf06eb75badc184ac184ac612d184b1184b5badc5bed06eaf860c41830c1830c60c457fbd5ddedba376e95817f61ba385fdf06e8e1ba3717f4c17f4c5fd517f5117f51ba3761dec6e9597f7b61dec61dec05de3bbd06e9917f8961e2461e2405cc3bc086e9a57f8e61e3861e3805d13bc1c3bc0805de017643bc1c05c3017786e9bd7f9461e503e0b405fe017785fe50061e3e1343e13405de3e1b50177995f365848658495fef012786e6cd4fcd55f3451ee5b9806e67c6e67d4fb955ee4658c9963109e046e6d54fcf55f3c179c5b98153ee86e605b980179b0179b05e6e179b5179b5b98055ee455ee4041e4185c6e6a14fc255f0855f0804074188055f340412418ac41880041e0104c418ac04090107844234043e0107853f3c045e443344433510ed4443544434045e0107801079963165940)
  (.lf 0)))

def shaGateTree483 : BTree :=
  .nd (.nd (.nd (.lf
  0x478000c7103144478040c7203148478080c730314c4780c0c7403150478100c7503154478140c7603158478180c770315c4781c0c7803160478200c7903164478240c7a03168478280c7b0316c4782c0c7c03170478300c7d03174478340c7e03178478380c7f0317c550c41040478bc550c81041478c0550cc1042478c4550d01043478c8550d41044478cc550d81045478d0550dc1046478d4550e01047478d8550e41048478dc550e81049478e0550ec104a478e4550f0104b478e8550f4104c478ec550f8104d478f0550fc104e478f455100104f478f8551041050478fc551081051479005510c105247904551101053479085511410544790c551181055479105511c105647914551201057479185512410584791c551281059479205512c105a4792455130105b4792855134105c4792c55138105d479305513c105e4793455140105f47938478bd1e4f479bd478c11e50479c1478c51e51479c5478c91e52479c9478cd1e53479cd478d11e54479d1478d51e55479d5478d91e56479d9478dd1e57479dd478e11e58479e1478e51e59479e5478e91e5a479e9478ed1e5b479ed478f11e5c479f1478f51e5d479f5478f91e5e479f9478fd1e5f479fd)
  (.lf 0)) (.nd (.lf
  0xb05599575833c6655d99560b0403e7ac08dc022f0601c808fc3e82c3e82c08bc3e8ad022f19955665d03e78c08d4022d03e79008d5022d43e79408d6022d83e79808d7022dc3e79c08d8022e03e7a008d9022e43e7a408da022e83e7a808db022ec601a808f43e80c601ac08f53e810601b008f63e814601b408f73e818601b808f83e81c601bc08f93e820601c008fa3e824601c408fb3e8283e80c08b43e88d3e81008b53e8913e81408b63e8953e81808b73e8993e81c08b83e89d3e82008b93e8a13e82408ba3e8a53e82808bb3e8a90b0402c120b0450b045995601cf40b0499956583386655999550b0340b0342c0f0b0390b039995501cf00b03d9955583346655599540b0280b0282c0c0b02d0b0319954583300b02d995401cec022ed9954665cc6655199530b01c0b01c2c090b0210b02599535832c022e99953665c80b021995301ce86654d99520b0100b0102c060b0150b015995201ce40b019995258328022e59952665c46654999510b0040b0042c030b0090b00d9951583240b009995101ce0022e19951665c06654599500aff80aff82c000affd0affd995001cdc022dd9950665bc0b00199505832066541994f0afec0afec2bfd0aff1)
  (.lf 0))) (.nd (.nd (.lf
  0x56a080a874238073e05528d56a3456a340a92423ac423800a9e02a4c423ac0a8902a78463340abe02a7873e0d528f56a3c54a3c0ade4643446435192d46535465340ade02a7868369a0d90dbe402a79a0d9683e00dbe436fb0dbe90dbe9a0d958abc683e14aaf58abc682e962af02c7858abc877721e1c21da4000021dde21ddc876621d9421d94876658ab96094c0cdd3f7303f7300c9d3f7b13f6b00cbd0327403275a09a682e4682e562ae02c7473e01528c56a3073db15278569e0569e00a9d4235873dd5528156a0456a040a864237c56a300a91423a84237c0a9d02a48423a80a8802a74463300abd02a7454a380add4643046431192c46531465300add02a7402a75a0d8683dc683dd4aae58ab80da81a09b02c786826da09a0da700dbeda0d952abc0da70369e0da750da79a09a58ab868365a0d80dbd80dbd836f80dbdd0dbdda0d858ab858ab887665aa285aa29d0a6743147431572735e9cc21d98877621d8821d88876421d8d21d8c87765aa240da75a09a02c7468269a0990da640da64369b0da690da6da09958ab43f6ac0cbc03270609480cdc3f72c3f72c0c9c3f7ad03271a099682e073dad5277569dc569dc0a9c4235473dd1528056a00)
  (.lf 0)) (.nd (.lf
  0x15c4db5675fbc815c49b56761bc86d4296ef25dbc85dbc9b5676d6186d59db56615c3815c38571015c3d15c3db56661bc459c61b4e06d3fc1581c000059c7a59c79b4e66d4146d4256ef15dbc45dbc5b5666d61415c41b5665fbc46d599b56515c2c15c2c570d15c3115c31b56561bc06d4216ef05dbc015c35b5655fbc05dbc1b5656d6106d595b56415c2015c20570a15c2515c29b5645fbbc15c25b56461bbc5dbbdb5646d60c6d591b56315c1415c14570715c1915c1db5635fbb815c19b56361bb81594db4e75bbb86d39db4e6159381593856501593d1593db4e65dbb46d4156eed5dbb45dbb5b5626d6046d58db56215c0815c08570415c0d15c11b5625fbb415c0db56261bb46d589b56115bfc15bfc570115c0115818000059c7259c71b4e46d40c6d40d6eeb5dbac15941b4e65bbb46d399b4e51592c1592c564d1593159c75b4e56d4106d4116eec5dbb015c01b56161bb015931b4e55dbb015c05b5615fbb05dbb1b5616d6006d585b56015bf015bf056fe15bf515bf5b56061bac15935b4e55bbb06d395b4e41592015920564a1592515925b4e45dbac5dbadb5606d5fc15bf9b5605fbac6d581b55f15be415be456fb15be915929b4e45bbac)
  (.lf 0)))

def shaGateTree484 : BTree :=
  .nd (.nd (.nd (.lf
  0x2deedeb856171c2dee9eb856371c2dc29eb0a5d7207ac29eb092dc142dc14b7072dc192dc19eb095f71c2da44b68f2da382da38b68f598095d51de7c079f7c79f7c0ff1004c42c391e7c1004c879f05e7c02c3802c380b0e22c3852c389e7c003fc403fc5ada26b7046b705660200b441274dade15380c6b785ade0127381273849d01273d1273dade059808046c5ade06b7fc6b7fd4e0259808125e1ada300b486b68dada2125d0125d04976125d5125d9ada25980859808b68f5b71c5b71deb097aca07aca175c75f71c5f71deb857ae907ae15eb842ded82ded8b7b82dedd2dee1eb84617182deddeb84637182dc1deb095d71c7ac25eb082dc082dc08b7042dc0d2dc0deb085f7182da3cb68d2da302da30b68d598055d519e7bf79f7879f780ff0004c02c385e7c0004c479f01e7bf2c3742c374b0df2c3792c37de7bf03fc003fc1ada16b7006b701660100b4012741ade0538086b781addf1272c1272c49cd1273112731addf59804046c1addf6b7f86b7f94e0159804125d5ada200b446b689ada1125c4125c44973125c9125cdada15980459804b68d5b7185b719eb087ac9c7ac9d75c65f7185f719eb847ae8c7ae11eb832decc2deccb7b52ded1)
  (.lf 0)) (.nd (.lf
  0x808ca02313640436404d903364093640e02314c7884ab8a0231809408094131e24df884c78a026f80a38809be026e3656036560d95a365653656a026e4b38436566026e50f843640a02314df88808c60230363f8363f8d900363fd3640202304c7844ab8602308093c8093d31e14df844c786026e80a34809ba026d3655436554d957365593655e026d4b3803655a026d50f80363fe02304df84808c2022f363ec363ecd8fd363f1363f6022f4c7804ab82022f809388093931e04df804c782026d80a30809b6026c3654836548d9543654d36552026c4b37c3654e026c50f7c363f2022f4df80808be022e363e0363e0d8fa363e5363ea022e4c77c4ab7e022e809348093531df4df7c4c77e026c80a2c809b2026b3653c3653cd9513654136546026b4b37836542026b50f78363e6022e4df7c808ba022d363d4363d4d8f7363d9363de022d4c7784ab7a022d809308093131de4df784c77a026b80a28809ae026a3653036530d94e365353653a026a4b37436536026a50f74363da022d4df78808b6022c363c8363c8d8f4363cd363d2022c4c7744ab76022c8092c8092d31dd4df744c776026a80a24809aa02693652436524d94b365293652e02694b370)
  (.lf 0))) (.nd (.nd (.lf
  0x3cc640df5037c03cc680df6037c43cc6c0df7037c83cc700df8037cc3cc740df9037d03cc780dfa037d43cc7c0dfb037d83cc800dfc037dc3cc840dfd037e03cc880dfe037e43cc8c0dff037e83cc900de0037ec3cc940de1037f03cc980de2037f43cc9c0de3037f83cca00de4037fc3cca40de5037803cca80de6037843ccac0de7037883ccb00de80378c3ccb40de9037903ccb80dea037944013c0e0003780401400e0103784401440e0203788401480e030378c4014c0e0403790401500e0503794401540e0603798401580e070379c4015c0e08037a0401600e09037a4401640e0a037a8401680e0b037ac4016c0e0c037b0401700e0d037b4401740e0e037b8401780e0f037bc4017c0e10037c0401800e11037c4401840e12037c8401880e13037cc4018c0e14037d0401900e15037d4401940e16037d8401980e17037dc4019c0e18037e0401a00e19037e4401a40e1a037e8401a80e1b037ec401ac0e1c037f0401b00e1d037f4401b40e1e037f8401b80e1f037fc60e580e20401bc60e5c0e21401c060e600e22401c460e640e23401c860e680e24401cc60e6c0e25401d060e700e26401d460e740e27401d860e780e28401dc60e7c0e29401e0)
  (.lf 0)) (.nd (.lf
  0x5bee1bbf66f05418bfdbbf70198c6efddbbf618be818be862fc18bed18bedbbf64a3cc6f05406624a3cc4a3cdf73c7dd6c32411f73c4bfcc7dcf1f73b323fc323fcc9013240132405f73b4bfc832401f73b4d7c818a85bbb85dee06eee1bbb718a7418bf1bbf6019886efd9bbf518bdc3e1400601017845fe5c06213e1c03e1c005e13e241017859652659c4659c55ff20128409f7827e009f7d09f7d969057fc857fc9bbb76ef5818a74629f18a7918a7dbbb75bedc6ef596fb75dedc5beddbbf56f0506f05006614a3c818bdc62f918be118be1bbf54a3c84a3c9f73b7dd687dd752ff54d7d47dd6d2ff34d7cc09f81969051fc818be5bbf5019846efd406604a3c53e13c0600017805fe5806203e1bc3e1bc05e03e23d18a79bbb75dedc4433c04400108053f4404604443c4443d112f4453d4453c0460010800108147f157fc46eedd6fb65ded909e15965201284659495ff101281017815ff10128065a4147f157fc557fc56fb65ded85bed806604a3c44a3c52ff14d7c47dced2ff14d7c57dd692ff24d7c87dd712ff44d7d04bfd5f77c7de6c32591f77c4abd47ddf1f77b3257c3257cc9613258132585f77b4abd032581f77b507d04bfd1f77b7de68)
  (.lf 0)))

def shaGateTree485 : BTree :=
  .nd (.nd (.nd (.lf
  0x6a445a91010b7810b7842e010b7d10b81a9105332828d35e03355254780cde03228d2028d20a34a28d2528d25e0325725053251e032781447814554945725057250107942bc878169549d5727457274106242bec7819554a8572a0572a0106d42c1842bec1079041b842c181064041e447ca01099041e4552a810b947da047da11f8847ea147ea010b9041e4041e5a9106a4bc10b7da910593286a441a90f10b6c10b6c42dd10b7110b71a90f5932428d29e03255250780c9e03128d1428d14a34728d1928d19e0315724c5324de031781407814154935724c5724c107842bc478165549c5727057270106142be87819154a75729c5729c106c42c1442be81078041b442c141063041e047c9c1098041e0552a410b847d9c47d9d1f8747e9d47e9c10b8041e0041e1a90f6a4b810b75a90f533246a43da90e10b6010b6042da10b6510b69a90e5332028d1de0315524c780c5e03028d0828d08a34428d0d28d0de0305724853249e0307813c7813d54925724857248107742bc078161549b5726c5726c106042be47818d54a65729857298106b42c1042be41077041b042c101062041dc47c981097041dc552a010b747d9847d991f8647e9947e9810b7041dc)
  (.lf 0)) (.nd (.lf
  0x70ab550ea563a8563a806ef41d2041cf406fb01bc041d2006e601bec44fa8071b01bec543b0073b450a8450a9144a451a9451a8073b01bec01bed9a8a66aa40b7399a8a5243066a299a890b7240b7242dcb0b7290b72d9a895242c0b7299a895842c66a259a880b7180b7182dc80b71d0b71d9a885842870a5d50d4563505635006f941cc870a8150dd563745637406e241cec563a006ed41d1841cec06f901bb841d1806e401be444fa0071901be4543a80739450a0450a11448451a1451a0073901be401be59a8866a9c0b7219a885242866a219a870b70c0b70c2dc50b7110b7119a875842470aa950e75639c70a5950d35634c5634c06f841cc470a7d50dc563705637006e141ce85639c06ec41d1441ce806f801bb441d1406e301be044f9c071801be0543a407384509c4509d14474519d4519c073801be001be19a8766a985634406f641cbc70aa150e5563945639406ea41d0c41ce006f601bac41d0c06e101bd80b7159a875242466a1d9a860b7000b7002dc20b7050b7099a86524200b7059a865842066a199a850b6f40b6f42dbf0b6f90b6fd9a855241c44f94071601bd85439c0736450944509514454519545194073601bd801bd99a8566a90)
  (.lf 0))) (.nd (.nd (.lf
  0xdff5a18f58bac0dff1a18f02d6803369a18f686b86863da18e0dfe00dfe037fa0dfe53f8880cf30334c3f88c0cf4033503f8900cf5033543f8940cf6033583f8980cf70335c3f89c0cf80336060a240d133f90860a280d143f90c60a2c0d153f91060a300d163f91460a340d173f91860a380d183f91c3f9080cd33f9893f90c0cd43f98d3f9100cd53f9913f9140cd63f9953f9180cd73f9993f91c0cd83f99d0335da18c686ac0dfe9a18e58ba80dfe5a18e02d6468639a18d0dfd40dfd437f70dfd90dfdda18d58ba40dfd9a18d02d6003361a18d686b068635a18c0dfc80dfc837f40dfcd0dfd1a18c58ba00dfcda18c02d5c68631a18b0dfbc0dfbc37f10dfc10dfc1a18b02d5803359a18b686a80dfc5a18b58b9c6862da18a0dfb00dfb037ee0dfb50dfb9a18a58b980dfb5a18a02d5403355a18a686a468629a1890dfa40dfa437eb0dfa90dfa9a18902d500dfada18958b9403351a189686a068625a1880df980df9837e80df9d0df9da18802d4c0dfa1a18858b900334da1886869c68621a1870df8c0df8c37e50df910df91a18702d483f8700ced033343f8740cee033383f8780cef0333c3f87c0cf0033403f8800cf1033443f8840cf203348)
  (.lf 0)) (.nd (.lf
  0x2f120bc4a2f1252f129ee5e4a12c4d1adee5e7b9f42f125ee5e4e9ac7b979ee5d2f1142f114bc472f1194d1a9ee5d7b9f02f119ee5d4e9a82f11dee5d4a1287b975ee5c2f1082f108bc442f10d2f111ee5c4a1242f10dee5c4e9a44d1a5ee5c7b9ec7b971ee5b2f0fc2f0fcbc412f1012f105ee5b4a1202f101ee5b4e9a04d1a1ee5b7b9e87b96dee5a2f0f02f0f0bc3e2f0f52f0f9ee5a4a11c4d19dee5a7b9e42f0f5ee5a4e99c7b969ee592f0e42f0e4bc3b2f0e92f0e9ee594e9982f0edee594a1184d199ee597b9e07b965ee582f0d82f0d8bc382f0dd2f0e1ee584a1144d195ee587b9dc2f0ddee584e9947b961ee572f0cc2f0ccbc352f0d12f0d1ee574e9902f0d5ee574a1104d191ee577b9d87b95dee562f0c02f0c0bc322f0c52f0c9ee564a10c2f0c5ee564e98c4d18dee567b9d47b959ee552f0b42f0b4bc2f2f0b92f0bdee554a1082f0b9ee554e9884d189ee557b9d07b955ee542f0a82f0a8bc2c2f0ad2f0adee544e9842f0b1ee544a1044d185ee547b9cc7b951ee532f09c2f09cbc292f0a12f0a5ee534a1004d179ee517b9c04d181ee537b9c82f0a1ee534e9807b94dee522f0902f090bc262f0952f099ee524a0fc4d17dee527b9c4)
  (.lf 0)))

def shaGateTree486 : BTree :=
  .nd (.nd (.nd (.lf
  0x2ba000000799a6799a5e6682b9ec2b9ecae7d2b9f12b9f1e6685b4c02a0f1e2c70026478b1de2c62a0e02a0e0a83a2a0e52a0e9e2c603d605d2b9e2c678b9478b940f580026011991ab7c535a86adf1ab7b1197c1197c46611198111981ab7b595a404461ab7b6ae686ae694d69595a411825ab3e046646acf9ab3d11814118144607118191181dab3d595a403d61ab3d6ad706ad71656904660595a5e6682ba642ba6400005b4c25b4c1e68479a8c79a8d752e5f4b85f4b9e70079c7c79c01e6ff2be502be50af962be552be59e6ff614b42be55e6ff634b42bb95e6845d4b879a11e6832bb802bb80aee22bb852bb85e6835f4b42b9f40000799a2799a0ae7a2b9e42b9e4ae7a595a15d2b5e2c578b9078b900f570025c2a0e5e2c60026078b19e2c52a0d42a0d4a8372a0d92a0dde2c503d5c03d5dab3c6ad6c6ad6d65680465c11985ab7b535a46adedab7a1197011970465e1197511975ab7a595a00445dab7a6ae646ae654d68595a011819ab3d046606acf5ab3c118081180846041180d11811ab3c595a0595a0ae7a5b4bc5b4bde68379a8879a89752d5f4b45f4b5e6ff79c7879bfde6fe2be442be44af932be492be4de6fe614b02be49e6fe634b0)
  (.lf 0)) (.nd (.lf
  0x7fe2dff8a354b0354b0d52e354b5354b9ff8a4b194354b5ff8a50d9435359ff4d4dd987fd35ff4c3534835348d4d43534d35351ff4c4c5944a995ff4c7fdac7fdad31654dd944c595ff8a7fea47fe29ff89354a4354a4d52b354a9354adff894b190354a9ff8950d903534dff4c4dd947fd31ff4b3533c3533cd4d13534135345ff4b4c5904a991ff4b7fda87fda931644dd904c591ff897fea07fe25ff883549835498d5283549d354a1ff884b18c3549dff8850d8c35341ff4b4dd907fd2dff4a3533035330d4ce3533535339ff4a4c58c4a98dff4a7fda47fda531634dd8c4c58dff887fe9c7fe21ff873548c3548cd5253549135495ff874b18835491ff8750d8835335ff4a4dd8c7fd29ff493532435324d4cb353293532dff494c5884a989ff497fda07fda131624dd884c589ff877fe987fe1dff863548035480d5223548535489ff864b18435485ff8650d8435329ff494dd887fd25ff483531835318d4c83531d35321ff484c5844a985ff487fd9c7fd9d31614dd844c585ff867fe947fe19ff853547435474d51f354793547dff854b18035479ff8550d803531dff484dd847fd21ff473530c3530cd4c53531135315ff474c5804a981ff477fd98)
  (.lf 0))) (.nd (.nd (.lf
  0x46d051b6146e0546df80b8f02d3c46dfc0b9002d4046e000b9102d4446e040b9202d480ec39a3b558d8c02d49a3b568f5068ed5a3b40ec280ec283b0c0ec2d0ec31a3b452d8802d45a3b468f4c0ec2da3b458d8868ed1a3b30ec1c0ec1c3b090ec210ec25a3b352d840ec21a3b358d8402d41a3b368f4868ecda3b20ec100ec103b060ec150ec15a3b258d800ec19a3b252d8002d3da3b268f4468ec9a3b10ec0446bf40b6e02d3854cfc0b8e46cf446cf51b5d46df546df40b8e02d3802d39a3b168f400ec043b030ec090ec0da3b152d7c0ec09a3b158d7c68ec5a3b00ebf80ebf83b000ebfd3fc9c0d780356060c380d983fd1c3fd1c0d583fd9d03561a37d68e703fc800d71035443fc840d72035483fc880d730354c3fc8c0d74035503fc900d75035543fc940d76035583fc980d770355c3fca00d79035643fca40d7a035683fca80d7b0356c3fcac0d7c035703fcb00d7d035743fcb40d7e035783fcb80d7f0357c60c1c0d913fd0060c200d923fd0460c240d933fd0860c280d943fd0c60c2c0d953fd1060c300d963fd1460c340d973fd1860c3c0d993fd2060c400d9a3fd2460c440d9b3fd2860c480d9c3fd2c60c4c0d9d3fd3060c500d9e3fd34)
  (.lf 0)) (.nd (.lf
  0x5fd3405d73df183df1805973df990165d94f46544c096a825ac096ad096b194f457ea06544d5fa80115c098102606098156de654f7255dc86ddedb77a16b1016b105ac616b1516b15b77a55dc855dc803d74174055dec03c0417646deb54f8655e1855e1803cb417904176403d700f304179003c200f5c43f1803f700f5c53e200417440184401910264411944118041700f5c00f5d9532655446554547a857ea009815953257ea057ea1b8b917510654515fa90116017655b8d85ddc06e361b8d717644176445d93176491764db8d75bdbc17649b8d75ddbc6554947a957ea4174c000006e2ee6e2edb8ba174ac174ac5d2d174b1174b1b8ba59e78177b1b9154a2a86554d47aa57ea8654555faa0116457ea9b8ba1751417514000059e7a59e79b8d76e3d86e3d96f6f5ddbc5bdbdb9156e4d06e455b914177a0177a05dea177a5174b400006e2ea6e2e85d2a174a4174a45d2a57ea557ea45d2a59e7459e75b8d66e3d46e3d56f6e5ddb86e35db8d617638176385d901763d17641b8d65bdb85bdb9b9146e4cc177a9b91401860177a5b9144a2a46e451b91317794177945de7177991779db9130185c17799b9134a2a0174a9b8b91749817510000059e72)
  (.lf 0)))

def shaGateTree487 : BTree :=
  .nd (.nd (.nd (.lf
  0x514d400c705bf082a0000e5514d8514d800c805bf482a0400e6514dc514dc00c905bf882a0800e7514e0514e000ca05bfc82a0c00e8514e4514e400cb05c0082a1000e9514e8514e800cc05c0482a1400ea514ec514ec00cd05c0882a1800eb514f0514f000ce05c0c82a1c00ec514f4514f400cf05c1082a2000ed514f8514f800d005c1482a2400ee514fc514fc00d105c1882a2800ef515005150000d205c1c82a2c00f0515045150400d305c2082a3000f1515085150800d405c2482a3400f25150c5150c00d505c2882a3800f3515105151000d605c2c82a3c00f4515145151400d705c3082a4000f5515185151800d805c3482a4400f65151c5151c00d905c3882a4800f7515205152000da05c3c82a4c00f8515245152400db05c4082a5000f9515285152800dc05c4482a5400fa5152c5152c00dd05c4882a5800fb515305153000de05c4c82a5c00fc515345153400df05c5005be000d20031c05be400d30032005be800d40032405bec00d50032805bf000d60032c05bf400d70033005bf800d80033405bfc00d90033805c0000da0033c05c0400db0034005c0800dc0034405c0c00dd0034805c1000de0034c05c1400df0035005c1800c000354)
  (.lf 0)) (.nd (.lf
  0x7e98130904da404c241fa7f7ea787e9fdfa7e337a0337a0cdea337a5337a9fa7e4ae3c1a62000005a1e65a1e5bfd06ffbc6ffbd70545e1506ff45bfd01a7841a78469e31a7891a78dbfd05c1505c151c00e700b44d8f1f9357e5507e5512a1c4f0f032fc9f9364a8747e4d9f93532fb432fb4cbef32fb932fb9f9354f0f04f0f12986064d47e5592a1e4f0f84f0f92988064dc7e5752a254f1144f115298f064f8064d5298f4a634064dd29714a63c7003dc00e1a8ec1a8ec6a3d1a8f11a8f1c00e4a63c700b408fe4a63c4a63dfa407e97c7e905fa403363833638cd903363d7e97d308f4da3c33641fa404c23c4c23dfa7e7ea74337a5fa7e50a3c7e9f9fa7d3379433794cde73379933799fa7d50a381a8f5c00e023f870039c00d1a8e01a8e06a3a1a8e51a8e5c00d4a6384d8edf9347e54c7e54d2a1b4f0ec32fbdf9354a8707e4d5f93432fa832fa8cbec32fad32fadf9344f0ec4f0ed2985064d07e5712a244f1104f111298e064f4064d1298e4a6301a61c00005a1e25a1e1bfcf6ffb86ffb970535e14c3363dfa404da3c7e901fa3f3362c3362ccd8d3363133635fa3f4c2381a789bfd05e1506ff41bfcf1a7781a77869e01a77d1a781bfcf5c14c)
  (.lf 0))) (.nd (.nd (.lf
  0x4aafe01748064c8064d31bf4defc4defe01f08083c807c201ef3626c3626cd89d362713627601ef4ae783627201ef4f6f835fb201744c6fc805d2017335f9c35f9cd7e935fa135fa201734def84aafa0173806488064931be4def84defa01ef80838807be01ee3626036260d89a362653626a01ee4ae743626601ee4f6f435fa601734c6f8805ce017235f9035f90d7e635f9535f9601724def44aaf60172806448064531bd4def44def601ee80834807ba01ed3625436254d897362593625e01ed4ae703625a01ed4f6f035f9a01724c6f4805ca017135f8435f84d7e335f8935f8a01714def04aaf20171806408064131bc4def04def201ed80830807b601ec3624836248d8943624d3625201ec4ae6c3624e01ec4f6ec35f8e01714c6f0805c6017035f7835f78d7e035f7d35f7e01704deec4aaee01708063c8063d31bb4deec4deee01ec8082c807b201eb3623c3623cd891362413624601eb4ae683624201eb4f6e835f8201704c6ec805c2016f35f6c35f6cd7dd35f7135f72016f4dee84aaea016f806388063931ba4dee84deea01eb80828807ae01ea3623036230d88e362353623a01ea4ae643623601ea4f6e435f76016f4c6e8805be016e35f60)
  (.lf 0)) (.nd (.lf
  0x6bce804c649d5c0850821440850d3b82804c6013040131991fb648683d85804e70131c5f9f405073d8d83b82c04c7013083d8d804c73d9596bcec04c749d600131d91fc6486c0851191fc57b600850d91fc00e1c647f191fb084fc084fc2141085010850191fb00e180850591fb57b5c647ed91fa084f0084f0213e084f5084f991fa57b586c6cd4ec455b1055b10030941488140adb18753adc6c61db186140981409850281409d6c6c14ec155b0453b040350436fc436fd0ddf437fd51ad1b1846c68c140a1b18653ad851ad9b1866c6941409db18655ad86c619b1851408c1408c50251409114091b18555ad414095b18553ad451ad5b1856c6906c615b184140801408050221408514085b18455ad06c68d4eb455ad055ad003194144841448031000c14437fc035000c406c6b94ebf55afc435fc033000c4055afc03044147441474031b00c4000c419243649886498946e157b846c6fd4ed055b4053b40035f43738437390dee4383943638033f00c7c6c6c94ec355b0c55b0c0308414846c6f54ece55b3855b380313414b0414b0030a00c7c6c6a54eba55ae855ae8031f4146041484031f00c5043838035f00c7c00c7d9252649c464949925108784)
  (.lf 0)))

def shaGateTree488 : BTree :=
  .nd (.nd (.nd (.lf
  0x5d569e8bb7a3687a36810040051012981ae50538586b941ae4f1296c1296c4a5d1297112971ae4f5985404711ae4f6b9b86b9b94e155985412815ae1200a946b849ae1112804128044a03128091280dae115985404011ae116b8c06b8c1661500a9059855ebf12e2142e21400005b76a5b769ec027b0847b08575da5f7685f769ec7e7b2747b1f9ec7d2e5302e530b94e2e5352e539ec7d617642e535ec7d637642e275ec025d7687b009ec012e2602e260b89a2e2652e265ec015f7642e11000007afc67afc4b8412e1002e100b841598515d565e8ba7a3647a36410030050c2c9ede8bb005107a2ede8ba2c9dc2c9dcb2792c9e12c9e5e8ba0400c0400dae106b8bc6b8bd661400a8c12975ae4f538546b93dae4e12960129604a5a1296512965ae4e598500470dae4e6b9b46b9b54e145985012809ae1100a906b845ae10127f8127f84a00127fd12801ae105985059850b8415b7645b765ec017b0807b08175d95f7645f765ec7d7b2707b1f5ec7c2e5242e524b94b2e5292e52dec7c617602e529ec7c637602e269ec015d7647b005ec002e2542e254b8972e2592e259ec005f7602e104b83f2e0f82e0f8b83f5984d5d561e8b97a3607a360100200508)
  (.lf
  0x559812e16412f8640092e2d00b70412f92e2d4b888433ad2ded4b8b44b8b590db643e807f0590db51a346436d90da07ef0539ad2deb432a4432a50cc9433a5433a52deb4b8ac6bab14e5555954559552e2b412cc559792e14412f0412f12e2b4b8804b8ad90d9643e007ef01fbe07ef507ef990da51a3007ef590da57a306436990d907ee407ee41fbb07ee907ee990d957a2c07eed90d951a2c6436590d807ed807ed81fb807edd07edd90d857a2807ee190d851a286436190d707ecc6bc516e345d8d06bc556e355d8d45d8d5af726be446bdc9af71131a4131a44c6b131a9131adaf715f8d05d8d1af716be40131a9af71618d06bdc5af7013198131984c681319d131a1af705f8cc6bc4d6e335d8cc5d8cdaf706be3c1319daf70618cc6bdc1af6f1318c1318c4c651319113195af6f5f8c813191af6f618c86bc416e305d8c06bc496e325d8c85d8c9af6f6be386bdbdaf6e131806bc456e315d8c4131804c621318513189af6e5f8c45d8c5af6e6be3413185af6e618c46bdb9af6d13174131744c5f131791317daf6d5f8c05d8c1af6d6be3013179af6d618c06bdb5af6c13168131684c5c1316d13171af6c5f8bc1316daf6c618bc6bc3d6e2f5d8bc))
  (.nd (.lf
  0x1f8c1cb6c548181f8bdcb6c5681852819cb6c72e2c72db1cb6b1f8ac1f8ac7e2d1f8b11f8b5cb6b548141f8b1cb6b5681452815cb6b72e2872dadcb6a1f8a01f8a07e2a1f8a51f8a9cb6a548101f8a5cb6a5681052811cb6a72e2472da9cb691f8941f8947e271f8991f89dcb695480c1f899cb695680c5280dcb6972e2072da5cb681f8881f8887e241f88d1f891cb68548081f88dcb685680852809cb6872e1c72da1cb671f87c1f87c7e211f8811f885cb67548041f881cb675680452805cb6772e1872d9dcb661f8701f8707e1e1f8751f879cb66548001f875cb665680052801cb6672e1472d99cb651f8641f8647e1b1f8691f86dcb65547fc1f869cb65567fc527fdcb6572e1072d95cb641f8581f8587e181f85d1f861cb64547f81f85dcb64567f8527f9cb6472e0c72d91cb631f84c1f84c7e151f8511f855cb63547f41f851cb63567f4527f5cb6372e0872d8dcb621f8401f8407e121f8451f849cb62547f01f845cb62567f0527f1cb6272e0472d89cb611f834527edcb6172e001f8347e0f1f8391f83dcb61547ec1f839cb61567ec72d85cb601f8281f8287e0c1f82d1f82dcb60567e81f831cb60547e8527e9cb6072dfc72d81cb5f1f81c)
  (.lf 0))) (.nd (.nd (.lf
  0x26fb1dc0162f145ef15dc017708077005dc0026fa026fa09bea26fa526fa9dc0060f1026fa5dc0062f105ef11dc007707c77001dbff26f9426f949be726f9926f9ddbff60f0c26f99dbff62f0c5ef0ddbff7707876ffddbfe26f8826f889be426f8d26f91dbfe60f0826f8ddbfe62f085ef09dbfe7707476ff9dbfd26f7c26f7c9be126f8126f85dbfd60f0426f81dbfd62f045ef05dbfd7707076ff5dbfc26f7026f709bde26f7526f79dbfc60f0026f75dbfc62f005ef01dbfc7706c76ff1dbfb26f6426f649bdb26f6926f6ddbfb60efc26f69dbfb62efc5eefddbfb7706876feddbfa26f5826f589bd826f5d26f61dbfa60ef826f5ddbfa62ef85eef9dbfa7706476fe9dbf926f4c26f4c9bd526f5126f55dbf960ef426f51dbf962ef45eef5dbf97706076fe5dbf826f4026f409bd226f4526f49dbf860ef026f45dbf862ef05eef1dbf87705c76fe1dbf726f3426f349bcf26f3926f3ddbf760eec26f39dbf762eec5eeeddbf77705876fdddbf626f2826f289bcc26f2d26f31dbf660ee826f2ddbf662ee85eee9dbf67705476fd9dbf526f1c26f1c9bc926f2126f25dbf560ee426f21dbf562ee45eee5dbf57705076fd5dbf426f1026f109bc626f15)
  (.lf 0)) (.nd (.lf
  0x32ac1f84b508a80a275970f5205465c3d970e0a2600a260289a0a2650a265970e580507e06530174d85c3e24806230180c5fee406433e2c83e2c806033e3497e0a530274d89c7e079301c4d8707e0b1302a4d8a84c0a9f84b7e1a87e12df84a32ab032ab0caae32ab532ab9f84a4aca432ab5f84a508a47e0ad30294d8a44c0a5f84a7e1a47e129f84932aa432aa4caab32aa932aadf8494aca0192e5bcfe022106f3f9bcfd192d0192d064b6192d5444c804630110c53fd00483445c8445c91192446c9446c804830110c0110d970e65cb465cb54814580500180d96d065bbc65bbd601401a0c5805000005a00e5a00dbcbf6f3786f3796fd95df6419179bcc05df686f301bcbf1916819168645c1916d19171bcbf5bf645bf65bcfd6f4706f47008834a450192d5bcfd4a4504a451f7f77e0587e05930144d8507e0a130264d8987e09530234d88c32aa9f849508a07e0a930284d8a04c0a1f8497e1a07e125f84832a9832a98caa832a9d32a9df8485089c32aa1f8484ac9c4c09df8487e19c7e121f84732a8c32a8ccaa532a9132a91f8475089832a95f8474ac984c099f8477e1987e11df84632a8032a80caa232a8532a89f8464ac947e09d30254d894)
  (.lf 0)))

def shaGateTree489 : BTree :=
  .nd (.nd (.nd (.lf
  0x59390a78429e5029e5000005b2be5b2bde28378a8878a8974a95f2a45f2a5e2ff78c7878bfde2fe2a2002a200a8822a2052a209e2fe612a02a205e2fe632a029f45e2835d2a478a0de28229f3029f30a7ce29f3529f35e2825f2a029d80000029e1229e10a78329d6c29d6ca75d29d7129d70a7835b2b8283d1dece0004c77b39decd283c0283c0a0f2283c5283c9decd03b485d0a1decd77bb077bb00ed20004810e09a986533906a619a98510df410df4437f10df910df9a9855938c04249a9856a6906a6914ce35938c10c9da9480444c6a521a94710c8c10c8c432510c9110c95a9475938c03b49a9476a5986a59964e3044485938ca78329e4c29e4c00005b2ba5b2b9e28278a8478a8574a85f2a05f2a1e2fe78c7478bf9e2fd2a1f42a1f4a87f2a1f92a1fde2fd6129c2a1f9e2fd6329c29f39e2825d2a078a09e28129f2429f24a7cb29f2929f29e2815f29c29d74000029e0e29e0ca75a29d6429d64a75a593895d09ddecc77bac77bac0ed100044283c5decd0004877b35decc283b4283b4a0ef283b9283bddecc03b4403b45a9466a5946a59564e20444410dfda9855338c6a615a98410de810de8437c10ded10deda9845938804245a9846a68c)
  (.lf 0)) (.nd (.lf
  0x5e319c43771158710e9c4391c5c41c5c471731c5c91c5cdc439603205e321c439711601c5c9c43962320710e5c4381c5b81c5b871701c5bd1c5c1c4386031c5e31dc4387115c1c5bdc4386231c710e1c4371c5ac1c5ac716d1c5b11c5b5c437603181c5b1c43762318710ddc4361c5a01c5a0716a1c5a51c5a9c436603141c5a5c43662314710d9c4351c5941c59471671c5991c599c435623101c59dc435603105e311c43571150710d5c4341c5881c58871641c58d1c591c4346030c1c58dc4346230c5e30dc4347114c710d1c4331c57c5e309c433711481c57c71611c5811c581c433623081c585c43360308710cdc4321c5701c570715e1c5751c575c432623041c579c432603045e305c43271144710c9c4311c5641c564715b1c5691c569c431623001c56dc431603005e301c43171140710c5c4301c5581c55871581c55d5e2fdc4307113c1c55dc430622fc1c561c430602fc710c1c42f1c54c1c54c71551c5511c555c42f602f85e2f9c42f711381c551c42f622f8710bdc42e1c5401c54071521c5451c545c42e622f45e2edc42c7112c7112d80bb622ec1c549c42e602f45e2f5c42e71134710b9c42d1c5341c534714f1c5395e2f1c42d71130)
  (.lf 0))) (.nd (.nd (.lf
  0x229a08a6a229a5229a9d23d54b4c229a5d23d56b4c52b4dd23d74970748f5d23c22994229948a67229992299dd23c54b4822999d23c56b4852b49d23c7496c52b4552d156b44748f152d156b4556b440af6424bc7496d52d256b4856b480af7424c07497152d356b4c56b4c0af8424c47497552d456b5056b500af9424c87497952d556b5456b540afa424cc7497d52d656b5856b580afb424d07498152d756b5c56b5c0afc424d47498552d856b6056b600afd424d87498952d956b6456b640afe424dc7498d52da56b6856b680aff424e07499152db56b6c56b6c0ae0424e47499552dc56b7056b700ae1424e87499952dd56b7456b740ae2424ec7499d52de56b7856b780ae3424f0749a152df56b7c56b7c0ae4424f4749a552e056b8056b800ae5424f8749a952e156b8456b840ae6424fc749ad52e256b8856b880ae742500749b152e356b8c56b8c0ae842504749b552e456b9056b900ae942508749b952e556b9456b940aea4250c749bd52e656b9856b980aeb42510749c152e756b9c56b9c0aec42514749c552e856ba056ba00aed42518749c952e956ba456ba40aee4251c749cd52ea56ba856ba80aef42520749d152eb56bac56bac0af042524)
  (.lf 0)) (.nd (.lf
  0x5bb21b4276d11815315b427015c815311b4274a00c6d09db426153001530054c21530515305b4264a0086d138057a4a02c5baf9b41d6d0f05bb09b4216d1005bb1db4266d11415309b426015c46d099b425152f4152f454bf152f9152f9b4254a004152fdb425015c06d095b424152e8152e854bc152ed152f1b424015bc5bb15b4246d10c152edb4244a0006d091b423152dc152dc54b9152e1152e1b42349ffc152e5b423015b85bb11b4236d1086d08db422152d0152d054b6152d5152d9b422015b45bb0db4226d104152d5b42249ff86d089b421152c4152c454b3152c9152cdb421015b0152c9b42149ff46d085b420152b8152b854b0152bd152bdb42049ff0152c1b420015ac5bb05b4206d0fc6d081b41f152ac152ac54ad152b1152b5b41f015a8152b1b41f49fec5bb01b41f6d0f86d07db41e152a0152a054aa152a5152a5b41e49fe8152a9b41e015a45bafdb41e6d0f46d079b41d152941529454a7152994d309f0837c2884d335f08e7c2b44d341f0917c2c07c245f0902fdf82fdf8bf802fdfd2fe01f0904a2bc4d339f08f7c2b84d33df0907c2bc2fdfdf0904eb3c7c241f08f2fdec2fdecbf7d2fdf12fdf5f08f4a2b82fdf1f08f4eb38)
  (.lf 0)))

def shaGateTree490 : BTree :=
  .nd (.nd (.nd (.lf
  0x11a59abad046b06aeb5abac11a4811a48469411a4d11a51abac595f0595f0b0195b5045b505e77c79e6c79e6d75415f5045f505e7f87a05c79fe1e7f72c4942c494b1272c4992c49de7f7615002c499e7f7635002c1d9e77c5d50479df1e77b2c1c42c1c4b0732c1c92c1c9e77b5f5002c064b0172c0582c058b017595ed5d301e3b078f3c78f3c0f6a002a82a769e3b1002ac78ec5e3b02a7582a758a9d82a75d2a761e3b003da803da9abab6af286af29657b046a811bb9abea535f06afa9abe911ba411ba446eb11ba911ba9abe9595ec044a9abe96b0206b0214d7b595ec11a4dabac046ac6aeb1abab11a3c11a3c469111a4111a45abab595ec595ecb0175b5005b501e77b79e6879e6975405f5005f501e7f77a05879fdde7f62c4882c488b1242c48d2c491e7f6614fc2c48de7f6634fc2c1cde77b5d50079dede77a2c1b82c1b8b0702c1bd2c1bde77a5f4fc2c05de7672c04c2c04cb0152c0512c051e7675b4fc2a75de3b0002a878ec1e3af2a74c2a74ca9d52a7512a755e3af03da45d2fde3af78f3878f380f69002a411badabe9535ec6afa5abe811b9811b9846e811b9d11b9dabe8595e8044a5abe86b01c6b01d4d7a595e811a41abab046a8)
  (.lf 0)) (.nd (.lf
  0x671859c600c1380c13830500c13d0c13d9c60585c845540078101d845454807a1456404564115b0457414574007a101d8401d859c60671fc671fd4972585c80bfe19c2301f886708d9c220bfd00bfd02ff60bfd50bfd99c22585c8025859c226710467105617201f84585c800005a5565a555c7a871f1c71f1d71375e4dc5c4ddc7e6720147201409e14a9c83ed3c0980025806045809a03edbc3edbc09603ee3d71f29713a5e4e85c4e9c7e9720201dfe5c7ea0279471fa9c7e91dfd01dfd077f61dfd51dfd9c7e9027901dfd5c7e94a9d471fa5c7e81dfc41dfc477f31dfc91dfc9c7e84a9d01dfcdc7e80278c71fa1c7e71dfb81dfb877f01dfbd1dfc1c7e7027881dfbdc7e74a9cc71f2171385e4e05c4e1c7e77201871f9dc7e61dfac1dfac77ed1dfb11dfb1c7e64a9c81dfb5c7e60278471f9809e04a9c50c1419c60525c84553c078001d805454407a04563c4563d15af4573d4573c07a001d8001d814971585c4671814971585c50bfd59c2201f841de49c7a85e4dc71ea171365e4d967089617101f8102581617101f80585c571365e4d85c4d809e04a9c47207409f94aa287204009ec4a9f47203409e94a9e87203009e84a9e47203809ea4a9ec)
  (.lf 0))) (.nd (.nd (.lf
  0x5cd35d7de75ff475ff40df74b2204b2220ba982f2082f2133884e6204e6220c2583110830960c2439de839de8e77c39ded39df20c240005839dee0c244fe1c39b2e0ba94ce2082ea60ba839b1839b18e6c839b1d39b1e0ba84e61c69059638702fd825245d7de037dc75f79d7dd2523025230948e2523525235d7dd4b21c250d9d7a05ed3475e81d79f250c8250c89434250cd250d1d79f5cd3024f08000024f7a24f7893bf24ef824ef893bf58e1d58e1c93bf5ad705ad71d79f75ef875ef9734c5ed305cd31d7dd75ff075ff00df64b21c4b21e0ba882f1c82f1d33874e61c4e61e0c248310c830920c2339ddc39ddce77939de139de60c230005439de20c234fe1839b220ba84ce1c82ea20ba739b0c39b0ce6c539b1139b120ba74e6186914d4b8658e1869055638602fd425239d7dd037d875f75d7dc2522425224948b2522925229d7dc4b218250cdd79f5ed3075e7dd79e250bc250bc9431250c1250c5d79e5cd2c24efc93dd24eec24eec93bd24ef124ef093dd5ad6c58e1893dd24fb424fb400005ad6e5ad6dd79e75ef475ef5734b5ed2c5cd2dd7dc75fec75fec0df54b2184b21a0ba782f1882f1933864e6184e61a0c23831088308e0c2239dd0)
  (.lf 0)) (.nd (.lf
  0x51e69b87a6e2646e2654f9a55e6851e65b8796e2606e2614f9955e6451eb5b88d6e2b06e2b14fad55eb451ec1b8906e2bc6e241b88f173c4173c45cf3173c9173cdb88f53ebc173c9b88f55ebc51ebdb88f6e2b86e23db88e173b8173b85cf0173bd173c1b88e53eb8173bdb88e55eb851eb9b88e6e2b46e239b88d173ac173ac5ced173b1173b5b88d53eb4173b1b88d55eb46e235b88c173a0173a05cea173a5173a9b88c53eb0173a5b88c55eb051eb1b88c6e2ac6e231b88b17394173945ce7173991739db88b53eac17399b88b55eac51eadb88b6e2a86e22db88a17388173885ce41738d17391b88a53ea81738db88a55ea851ea9b88a6e2a46e229b8891737c1737c5ce11738117385b88953ea417381b88955ea451ea5b8896e2a06e225b88817370173705cde1737517379b88853ea017375b88855ea051ea1b8886e29c6e221b88717364173645cdb173691736db88753e9c17369b88755e9c51e9db8876e2986e21db88617358173585cd81735d17361b88653e981735db88655e9851e99b8866e2946e219b8851734c1734c5cd51735117355b88553e9417351b88555e9451e95b8856e29051e89b8826e2846e2854fa255e886e215b88417340)
  (.lf 0)))

def shaGateTree491 : BTree :=
  .nd (.nd (.nd (.lf
  0x5ce5ddabd76b7076b700e414b3484b34a0dc1837808378133d24e7484cf4a0dff838783a6ca0dc14e7482666ddabd039045ce580e404b34476af40e404b3454b34533d14e7448370533d14e7454cf44018051744837fc01805174551744016305e248387801815174851748016405e288387c01825174c5174c016505e2c8388001835175051750016605e308388401845175451754016705e348388801855175851758016805e388388c01865175c5175c016905e3c8389001875176051760016a05e408389401885176451764016b05e448389801895176851768016c05e488389c018a5176c5176c016d05e4c838a0018b5177051770016e05e50838a4018c5177451774016f05e54838a8018d5177851778017005e58838ac018e5177c5177c017105e5c838b0018f5178051780017205e60838b401905178451784017305e64838b801915178851788017405e68838bc01925178c5178c017505e6c838c001935179051790017605e70838c401945179451794017705e74838c801955179851798017805e78838cc01965179c5179c017905e7c838d00197517a0517a0017a05e80838d40198517a4517a4017b05e84838d80199517a8517a8017c05e88)
  (.lf 0)) (.nd (.lf
  0x7e8552a434f18c4f18d29ad065487e8592a444f1904f19129ae0654c7e85d2a454f1944f19529af065507e8612a464f1984f19929b0065540650129a44a6880650529a54a68c0650929a64a6900650d29a74a6940651129a84a6980651529a94a69c0651929aa4a6a00651d29ab4a6a40652129ac4a6a80652529ad4a6ac0652929ae4a6b00652d29af4a6b40653129b04a6b80653529914a6bc0653929924a6c07e8812a4e4f1b84f1b929a14a67c7e8852a4f4f1bc4f1bd29a24a6807e8892a504f1c04f1c129a34a684703cd70745e1d0703c970735e1cc703d170755e1d45c1d5c113704c87044dc1121afc41afc46bf31afc95c1d1c112704c41afc9c1124a6bc1afcdc1120247870449c1111afb81afb86bf01afbd1afbdc1114a6b85c1cdc111704c01afc1c1110247470445c1101afac1afac6bed1afb11afb1c1104a6b4703c570725e1c85c1c9c110704bc1afb5c1100247070441c10f1afa01afa06bea1afa51afa5c10f4a6b01afa9c10f0246c703c170715e1c4703b9706f5e1bc703bd70705e1c05c1c5c10f704b87043dc10e1af941af946be71af991af99c10e4a6ac1af9dc10e024685c1bdc10d704b05c1c1c10e704b470439c10d1af88)
  (.lf 0))) (.nd (.nd (.lf
  0x3f5b80c9f029fc608d40cbf3f6383f6380a7f3f6b956968087f422e05698c086842304569b808734233042304087f021d042330086a021fc461b80a9f021fc549c00abf462b8462b918ce463b9463b80abf021fc021fda05e681f4681f54a9058a40029fda020680fc680fd629002bfc58a41cf915a9b073e4485ab216a8216a885ab58a3d68179a05d0d9140d91436470d91920d79ce57549687395dce5620d6420d64835b20d6952965ce56739d4739d552595696420d69ce5656964608d00cbe3f6343f6340a7e3f6b53f5b40c9e029f8029f9a01f680f8680f9628f02bf868081a01f0d7ac739f95262569885698808674230042300087e021cc0d7ac35ed0d7b10d7b5a01f58a3c0d919a05d58a3c73a2d526f569bc73a25526d569b4549bc0abe462b4462b518cd463b5463b40abe021f8461b40a9e021f8569b408724232c4232c0869021f856964087e422dc021f9a05d681f0681f14a8f58a3c58a3c85ab5a9ac20d6dce565496473959ce5520d5820d58835820d5d20d5dce555696020d61ce555496052961ce55739d073955ce5420d4c20d4c835520d5120d55ce545495c5295dce54739cc20d51ce545695c73951ce5320d4020d40835220d45)
  (.lf 0)) (.nd (.lf
  0x894c2255089510895592b751be451be5b3976ced86ce5db39614e9014e9053a614e9514e99b39653be00895192b757be464add92b608940089402252089450894992b651be043758034700c9c0894592b657be053b60036743858438590e364395943958036700c9c00c9d92b664b5464ad992b50893408934224f089390893d92b551bdc43744034200c884374c034400c9043750034500c9443754034600c9853b4c036243844438450e314394543944036200c8814e95b39655be064b5546f857be051be1b3966ced46ce59b39514e8414e8453a314e8914e8db39553bdc53b5c036643854438550e354395543954036600c9814e89b39555bdc00c9992b564b5064b5146f757bdc51bddb3956ced06ce55b39414e7814e7853a014e7d53b58036543850438510e344395143950036500c9400c9592b464b4c0893992b557bdc64ad592b40892808928224c0892d0893192b451bd864b4d46f657bd851bd9b3946cecc14e81b39453bd814e7db39455bd86ce51b39314e6c14e6c539d14e7114e75b39353bd414e71b39355bd40892d92b457bd864ad192b30891c0891c22490892153b5403644384c4384d0e334394d4394c036400c9000c9192b364b48)
  (.lf 0)))

def shaGateTree492 : BTree :=
  .nd (.nd (.nd (.lf
  0x48c3411de0467848c3811df0467c5d4d5e6c979ba079ba00fdf0047c0467dad726b6446b6454df0597c003f7dad346b54c6b54d65f000bfc597c1ea7c2d6b82d6b800005b6d65b6d61143845888450e1142493504935124d6493554935a11425d6d04935611425f6d07a9f1ea7b2d6642d664b59b2d6692d669ea7b5b6d079b25e6c82bd3c2bd3caf512bd412bd45e6c803f785d4d1e6c879b9c79b9c0fde004786b5c9ad71125041250449431250912509ad71597bc04679ad716b6406b6414def597bc6b4d1ad331239c1239c48e9123a1123a5ad33597bc03f79ad336b5486b54965ef00bf8597bdea7b2d6b42d6b400005b6d25b6d21142845848450a1141493444934524d3493494934e11415d6cc4934a11415f6cc2d66c00007a9ee7a9edea7a2d6582d658b5982d65d2d65dea7a5b6cc2bd41e6c80047879b21e6c72bd302bd30af4e2bd352bd39e6c703f745d4cde6c779b9879b980fdd004741250dad71537bc6b5c5ad70124f8124f84940124fd124fdad70597b804675ad706b63c6b63d4dee597b8123a1ad3300bf86b4cdad32123901239048e61239512399ad32597b803f75ad326b5446b54565ee00bf4597b9ea7a2d6b02d6b000005b6ce)
  (.lf 0)) (.nd (.lf
  0x3ef6009c9026a43ef6409ca026a83ef6809cb026ac6057409e73efd86057809e83efdc6057c09e93efe06058009ea3efe46058409eb3efe83efd809a73f0593efdc09a83f05d3efe009a93f0613efe409aa3f0653efe809ab3f069026ad9d246750c0c5f19d24586f0674919d230c5dc0c5dc31790c5e10c5e19d23020a80c5e59d23586ec026a99d23675086748d9d220c5d00c5d031760c5d5026a59d22675040c5d99d22586e80c5d59d22020a4674899d210c5c40c5c431730c5c90c5cd9d21586e40c5c99d21020a0026a19d2167500674859d200c5b80c5b831700c5bd0c5c19d20586e00269d9d20674fc0c5bd9d200209c674819d1f0c5ac0c5ac316d0c5b10c5b59d1f586dc6755d61d0020fc58741c9a55a6c45a6c5c9c47278c72711c9c31edd01edd07b761edd51edd9c9c35c65072695c9a41ec341ec347b0f1ec396755961cf020f85873dc9a41ec701ec7000005a6c21ec39c9a45a6c05a6c1c9c3727881edd5c9c35e6507270dc9c21edc41edc47b731edc91edcdc9c25c64c6754961cb020e85872dc9a21ec681ec6800005a6b26754d61cc020ec6755161cd020f01ec3c0000726926755561ce020f472691c9a31ec281ec287b0c1ec2d)
  (.lf 0))) (.nd (.nd (.lf
  0x8071d2cb550ed402e91a51b694e8694e94bb558ed40f411a51c52ed869471a51b0f3fc0f3fc3d010f4010f401a51b58ed425fa9d9c90389476725d9c825f9425f9497e725f9925f99d9c84b2d425e3dd98b5edec7662dd98a25e2c25e2c978d25e3125e35d98a5cde825c80000025d8a25d88971d25c7025c70971d58ed558ed4971d5ae245ae25d98a766a4766a5737a5ede85cde9d9c87679c7679c0e244b2d44b2d60d0a834a4834a533b54e6d44e6d60d86836948361a0d853a5743a574e95f3a5793a57e0d850010c3a57a0d854fed03a2ba0d0a4ced48342a0d093a2a43a2a4e8ab3a2a93a2aa0d094e6d03609e01a850ed4806a201a73608c3608cd825360913609601a74b2d04c6d201a780718807192cb450ed002e8da51a694e4694e54bb458ed00f405a51b52ed46946da51a0f3f00f3f03cfe0f3f50f3f5a51a58ed025f9dd9c80389076721d9c725f8825f8897e425f8d25f8dd9c74b2d025e31d98a5ede876629d98925e2025e20978a25e2525e29d9895cde425c74976125c6425c64971b25c6925c6897615ae2058ed0976125dcc25dcc00005ae225ae21d989766a0766a173795ede45cde5d9c776798767980e234b2d04b2d20d09834a0)
  (.lf 0)) (.nd (.lf
  0x1819dba8855fa451fa5ba886ea9c6ea21ba871818c1818c60651819118195ba8753fa018191ba8755fa051fa1ba876ea986ea1dba86181801818060621818518189ba8653f9c18185ba8655f9c51f9dba866ea946ea19ba851817418174605f181791817dba8553f9818179ba8555f9851f99ba856ea906ea15ba841816818168605c1816d18171ba8453f941816dba8455f9451f95ba846ea8c6ea11ba831815c1815c60591816118165ba8353f9018161ba8355f9051f91ba836ea886ea0dba82181501815060561815518159ba8253f8c18155ba8255f8c51f8dba826ea846ea09ba8118144181446053181491814dba8153f8818149ba8155f8851f89ba816ea806ea05ba80181381813860501813d18141ba8053f841813dba8055f8451f85ba806ea7c6ea01ba7f1812c1812c604d1813118135ba7f53f8018131ba7f55f8051f81ba7f6ea786e9fdba7e1812018120604a1812518129ba7e53f7c18125ba7e55f7c51f7dba7e6ea746e9f9ba7d18114181146047181191811dba7d53f7818119ba7d55f7851f79ba7d6ea706e9f5ba7c181081810860441810d18111ba7c53f741810dba7c55f7451f75ba7c6ea6c6e9f1ba7b180fc180fc604118101)
  (.lf 0)))

def shaGateTree493 : BTree :=
  .nd (.nd (.nd (.lf
  0x287e0a1fa287e5287e4a21c5b14c59214a21c288b0288b000005b14e5b14ddf8977ea077ea1744a5f1285f129e0057809078015e00428c7828c78a32028c7d28c81e0046112428c7de00463124289bddf895d12877e25df88289a8289a8a26c289ad289addf885f124287e800002887228870a21b287d4287d4a1f7287d9287d8a21b5b14859210a21b288ac288ac00005b14a5b149df8877e9c77e9d74495f1245f125e0047808c78011e00328c6c28c6ca31d28c7128c75e0036112028c71e00363120289b1df885d12477e21df872899c2899ca269289a1289a1df875f120287dc00002886e2886ca21a287c8287c8a1f4287cd287cca21a5b1445920ca21a288a8288a800005b1465b145df8777e9877e9974485f1205f121e003780887800de00228c6028c60a31a28c6528c69e0026111c28c65e0026311c289a5df875d12077e1ddf862899028990a2662899528995df865f11c287d000002886a28868a1f1287c0287c0a1f15920959208a1f15b1405b141df8677e9477e9574475f11c5f11de0027808478009e00128c5428c54a31728c5928c5de0016111828c59e0016311828999df865d11c77e19df852898428984a2632898928989df855f118)
  (.lf 0)) (.nd (.lf
  0x44f3113ec4503145030071d01b7401b759a10668bc668419a0f0b46c0b46c2d1d0b471668c148ef583bc668c548f0583c0667cd60f001d7c583c06eba1bb241bae86eb91baa8668bd48ee583b80b30d99d1583b40237199d1667c00b4719a0f583b4667c960ef01d78583bc6eb91bb201baa86eac1baad1baac6eb95a35c1bab000001bae61bae46ea91baa01baa06ea9583b9667c560ee01d74583b86ea95a358667c160ed01d701baa46ea71ba981ba986ea7583b5583b46ea75a3545a355c2cf70bb81bb2000005a35e5a35dc2d170bc01bb2400005a3625a361c2d270bc470b49c2d11bc841bc846f231bc891bc8dc2d15c2d01bc89c2d15e2d070b45c2d01bc781bc786f201bc7d1bc7dc2d05e2cc1bc81c2d05c2cc5a359c2d070bbc70b41c2cf1bc6c1bc6c6f1d1bc711bc75c2cf5c2c81bc71c2cf5e2c870b3dc2ce1bc601bc606f1a1bc651bc65c2ce5e2c40b4759a0f523b46683d9a0e0b4600b4602d1a0b4650b4659a0e583b01b17dc176542dc705d9c1751b1681b1686c5c1b16d1b16dc175562d8522d9c175706507065150b6562d8562d806db41c507067550bf562fc562fc06c441c74706a150ca563285632806cf41ca041c7406db01b40)
  (.lf 0))) (.nd (.nd (.lf
  0x54ab40afc465ac54ab80afd465b07422152af56abc54abc0afe465b47422552b056ac054ac00aff465b8465ad198b466ad465b1198c466b1465b5198d466b5465b9198e466b9466ac0afc02af0466b00afd02af4466b40afe02af8466b80aff02afc02afda156685d468559a1550deb40deb437af0deb90deb9a15558b3c0debda15552b3c02af9a155685d068555a1540dea80dea837ac0dead0deada15458b380deb1a15452b3802af5a154685cc68551a1530de9c0de9c37a90dea10dea5a15352b340dea1a15358b3402af1a153685c86854da1520de900de9037a60de950de99a15252b3052a45529156a4456a440ab6423bc56a480ab7423c0741b1529356a4c56a4c0ab8423c4741b5529456a5056a500ab9423c8741b9529556a5456a540aba423cc741bd529656a5856a580abb423d0741d1529b56a6c56a6c0aa0423e4741d5529c56a7056a700aa1423e8741d9529d56a7456a740aa2423ec741dd529e56a7856a780aa3423f0741e1529f56a7c56a7c0aa4423f4741f952a556a9456a940aaa4240c741fd52a656a9856a980aab424107420152a756a9c56a9c0aac424147420552a856aa056aa00aad424187420952a956aa456aa40aae4241c)
  (.lf 0)) (.nd (.lf
  0x64ea1473157cc564da95f3100f8100d81473157cc457cc56ef65dbd86d9117ef661bd96d7216ef65dbd95dbd97ef661bd861bd805593b9bc61c1005473b9f43b9f405590155014ca9b32d49fac6ccb5b32c14c9814c98532814c9d14ca1b32c015645babdb32c6cd2c3dca00579015645fc3c05993dd203dd2005593dda16cd2c055949fa80156593fe65074650755f6a0106415c95b58d53cd46d635b58c15c8015c80572215c8515c85b58c55cd051cd1b58c6d6ac6d6ad4f3455cd055cd003994164853d2803d943d2043d210f6843e2143e2003d900e646d6fd4f4855d206d6d14f3d55cf455cf403824166c55d20038d4169841698038400e640913193ff010684166c039900e3843c2003b900e6400e65943c6516c6516d476a57da864ffd93fe0912009120244a091250912993fe57da857da8598459d7c1661059821660416604598257da50912593fe0106464ff993fd09114091142447091190911d93fd57da46d9bd7f0361c0c6d6f94f4755d1c55d1c038c4169441694038300e6009291943c51da815c89b58c53cd06d631b58b15c7415c74571f15c7951ccdb58b6d6a86d6cd4f3c55cf06d6a94f3355ccc53d2403d843d1c15c79b58b55ccc)
  (.lf 0)))

def shaGateTree494 : BTree :=
  .nd (.nd (.nd (.lf
  0x2aa0de429554602aa09e4295746053461e42979120790a5e4282a9f82a9f8aa802a9fd2aa01e4285545c2a9fde4285745c5345de4287911c790a1e4272a9ec2a9ecaa7d2a9f12a9f5e427554582a9f1e4275745853459e427791187909de4262a9e02a9e0aa7a2a9e52a9e9e426554542a9e5e4265745453455e4267911479099e4252a9d42a9d4aa772a9d92a9dde425554502a9d9e4255745053451e4257911079095e4242a9c82a9c8aa742a9cd2a9d1e4245544c2a9cde4245744c5344de4247910c79091e4232a9bc2a9bcaa712a9c12a9c5e423554482a9c1e4235744853449e42379108534455511574447908d5511574455744410f642dbc791095512574485744810f742dc07910d55135744c5744c10f842dc4791115514574505745010f942dc8791155515574545745410fa42dcc791195516574585745810fb42dd07911d55175745c5745c10fc42dd4791215518574605746010fd42dd8791255519574645746410fe42ddc79129551a574685746810ff42de07912d551b5746c5746c10e042de479131551c574705747010e142de879135551d574745747410e242dec79139551e574785747810e342df07913d551f5747c5747c10e442df4)
  (.lf 0)) (.nd (.lf
  0x34fa5febe50ccc34e49fe814dcd07fa05fe8034e3834e38d39034e3d34e41fe804c4cc4a8cdfe807fa7c7fa7d31334dccc4c4cdfebe7fb747faf9febd34f9434f94d3e734f9934f9dfebd4b0c834f99febd50cc834e3dfe804dccc7fa01fe7f34e2c34e2cd38d34e3134e35fe7f4c4c84a8c9fe7f7fa787fa7931324dcc84c4c9febd7fb7034e31fe7f4dcc84a8c531314dcc47f9fd31314dcc54c4c52c3150cc47faf52c3150cc550cc52c14054a07fb712c3250cc850cc92c15054a47fb752c3350ccc50ccd2c16054a87fb792c3450cd050cd12c17054ac7fb7d2c3550cd450cd52c18054b07fb812c3650cd850cd92c19054b47fb852c3750cdc50cdd2c1a054b87fb892c3850ce050ce12c1b054bc7fb8d2c3950ce450ce52c1c054c07fb912c3a50ce850ce92c1d054c47fb952c3b50cec50ced2c1e054c87fb992c3c50cf050cf12c1f054cc7fb9d2c3d50cf450cf52c20054d07fba12c3e50cf850cf92c21054d47fba52c3f50cfc50cfd2c22054d87fba92c4050d0050d012c23054dc7fbad2c4150d0450d052c24054e07fbb12c4250d0850d092c25054e47fbb52c4350d0c50d0d2c26054e87fbb92c4450d1050d112c27054ec7fbbd2c4550d14)
  (.lf 0))) (.nd (.nd (.lf
  0x2ce1a33f68d7868cfda33e0e9a00e9a03a6a0e9a50e9a5a33e58d2002cdda33e68d740e9a9a33e52d2068cf9a33d0e9940e9943a670e9990e99da33d52d1c0e999a33d58d1c02cd9a33d68d7068cf5a33c0e9880e9883a640e98d0e98da33c58d180e991a33c52d1802cd5a33c68d6c68cf1a33b0e97c0e97c3a610e9810e981a33b58d140e985a33b52d1402cd1a33b68d6868ceda33a0e9700e9703a5e0e9750e975a33a58d100e979a33a52d1068ce9a3390e9640e9643a5b0e9690e969a33958d0c425d00b3202c9c46a840b5202cc854c8c0b7246b8446b851b0146c8546c840b7202cc802cc9a33968d60425c00b2e02c8c425c40b2f02c90425c80b3002c94425cc0b3102c980e96da33952d0c46a740b4e02cb846a780b4f02cbc46a7c0b5002cc046a800b5102cc454c7c0b6e46b7454c800b6f46b7854c840b7046b7c54c880b7146b8046b751afd46c7546b791afe46c7946b7d1aff46c7d46b811b0046c8146c740b6e02cb846c780b6f02cbc46c7c0b7002cc046c800b7102cc468ce5a3380e9580e9583a580e95d0e961a33852d080e95da33858d0802cc5a33868d5c68ce1a3370e94c0e94c3a550e9510e955a33752d0402cc1a33768d58)
  (.lf 0)) (.nd (.lf
  0xea194a7653186529d94a609480094802522094850948594a657de00948994a651de043d5803c700e9c53d6003e743e5843e590fb643f5943f5803e700e9c00e9d94a6653146529994a50947443d5403c600e9853d5c03e643e5443e550fb543f5543f5403e600e9800e9994a56531009474251f094790947d94a551ddc0947994a557ddc6529594a40946809468251c0946d0946d94a457dd83bab005680158c3dd5c0588015a05fc7805a83dddc3dddc05683de5d015a19469652203bab40569015903bab8056a015943dd64058a015a85fc8005aa3dde43dde4056a3de65015a9946b6522809345946b57dec651ad946a093300933024ce0933509339946a57de83dd600589015a45fc7c05a93dde03dde005693de61015a5946a6522409335946a010a4651a99469093240932424cb093290932d946957de4093299469010a0651a59468093180931824c80931d0931d94680109c3baa80566015843dd540586015985fc7005a63ddd43ddd405663de55015999467652183baac05670158809321946857de03dd5805870159c5fc7405a73ddd83ddd805673de590159d94686521c651a194670930c0930c24c50931109315946757ddc09311946701098)
  (.lf 0)))

def shaGateTree495 : BTree :=
  .nd (.nd (.nd (.lf
  0x4a318e33003784e93d8e3363948638cd8e3204a1c04a1c128904a2104a218e325013804a258e32003744e9398e3263944638c98e3104a1004a10128604a1504a158e315013404a198e31003704e9358e3163940638c58e3004a0404a04128304a0904a098e305013004a0d8e300036c4e9318e306393c638c18e2f049f8049f81280049fd049fd8e2f5012c04a018e2f003684e92d8e2f63938638bd8e2e049ec049ec127d049f1049f18e2e50128049f58e2e003644e9298e2e63934638b98e2d049e0049e0127a049e5049e58e2d50124049e98e2d003604e9258e2d63930638b58e2c049d4049d41277049d9049d98e2c50120049dd8e2c0035c4e9218e2c6392c638b18e2b049c8049c81274049cd049cd8e2b5011c049d18e2b003584e91d8e2b63928638ad8e2a049bc049bc1271049c1049c18e2a50118049c58e2a003544e9198e2a63924638a98e29049b0049b0126e049b5049b58e2950114049b98e29003504e9158e2963920638a58e28049a4049a4126b049a9049a98e2850110049ad8e280034c4e9118e286391c638a18e27049980499812680499d0499d8e275010c049a18e27003484e90d8e27639186389d8e260498c0498c126504991)
  (.lf 0)) (.nd (.lf
  0x19f1000005a10619e0467ba5a1045a105beb26fb4419f71beb25e0706fac9beb119f6019f6067da19f6519f65beb15e06c3be2406450190019e08000019eea19ee9683f19df819df9605519dfd3e4500665019145ffec08853e4d03e4d006453e5510a6c197cb01b1865f2d97ca0a6b00191597ca65fa465fa5605601b146609d4856581580a6b029ae0a6b50a6b997ca5815858159683f19f0c19dfd683f5a10019f0c00005a1025a101beb16fb4019f69beb15c06c6fac5beb019f543e44c0664019105ffe808843e4cc3e4cc06443e54d660994855581540a6b597ca01b1465f2997c90a6a40a6a429ab0a6a90a6ad97c9581540191197c965fa065fa1605501b105815400005a0fe5a0fdbeb06fb3c19f5467d719f5919f59beb05e06819f5dbeb05c0686fac1beaf19f4819f4867d419f4d19f4dbeaf5e0643e4440662019083e44806630190c5ffe008823e4c45ffe408833e4c83e4c406423e5453e4c806433e5490a6a997c901b1065f2597c80a6980a69829a80a69d0a69d97c801b0c0a6a197c8581500190d97c865f9c65f2197c70a68c0a68c29a50a6910a69597c75814c0190997c765f9865f99605301b086609148535814c5814dbeae6fb34)
  (.lf 0))) (.nd (.nd (.lf
  0x3f45c0a68029203f4600a69029243f4640a6a029283f4680a6b0292c3f46c0a6c029303f4700a6d029343f4740a6e029383f4780a6f0293c3f47c0a70029403f4800a71029443f4840a72029483f4880a730294c3f48c0a74029503f4900a75029543f4940a76029583f4980a770295c3f49c0a78029603f4a00a79029643f4a40a7a029683f4a80a7b0296c3f4ac0a7c029703f4b00a7d029743f4b40a7e029783f4b80a7f0297c607e40c833f4c8607e80c843f4cc607ec0c853f4d0607f00c863f4d4607f40c873f4d8607f80c883f4dc607fc0c893f4e0608000c8a3f4e4608040c8b3f4e8608080c8c3f4ec6080c0c8d3f4f0608100c8e3f4f4608140c8f3f4f8608180c903f4fc6081c0c913f500608200c923f504608240c933f508608280c943f50c6082c0c953f510608300c963f514608340c973f518608380c983f51c6083c0c993f520608400c9a3f524608440c9b3f528608480c9c3f52c6084c0c9d3f530608500c9e3f534608540c9f3f5383f4c80a433f5493f4cc0a443f54d3f4d00a453f5513f4d40a463f5553f4d80a473f5593f4dc0a483f55d3f4e00a493f5613f4e40a4a3f5653f4e80a4b3f5693f4ec0a4c3f56d3f4f00a4d3f571)
  (.lf 0)) (.nd (.lf
  0x13c39b0c85b95c5f9bc04f93d82008319919257b286c3216e565d9593d7a004d94b5a83d8212d6a3d8a15d9597e5661958619592d6a3b73c63a2d2d6a008644b5a99192646c408315919200de4646499191083040830420c30830963a292d69008606c5bd7e636198c6198d2d573b7705f9b804f83d81c3d79c04d84b5a43d81d2d693d89d619d52d693b7b83b7712d694b5904b5a59191646c00830d919157b2408309919100de0646459190082f8082f820c0082fd082fd919000ddc6c5b97e626198808301919057b2063a252d680085c619d12d683b7b4619892d563b76c5f9b404f73d8183d79804d74b5a03d8192d683d8993b76d2d684b58c4b5a19190646bc64641918f082ec082ec20bd082f1082f1918f00dd86c5b57e6161984619cd2d673b7b0082f5918f57b1c5f9b004f63d8143d8152d673d895619852d553b7683b7692d674b5883d79404d64b59c4b59d918f646b86463d918e082e0082e020ba082e5082e9918e57b18082e5918e00dd464639918d082d4082d420b7082d9082d9918d00dd063a192d65008506c5ad7e5f6197c6197d2d533b7603b7612d654b5805f9a804f43d80c3d80d2d653d88d082dd918d57b14619c52d653b7a8)
  (.lf 0)))

def shaGateTree496 : BTree :=
  .nd (.nd (.nd (.lf
  0x4951d25674961d495212568496214952525694962549529256a496294952d256b4962d49531256c4963149535256d4963549539256e496394953d256f4963d495412570496414954402a000b004954802a100b044954c02a200b084955002a300b0c4955402a400b104955802a500b144955c02a600b184956002a700b1c4956402a800b204956802a900b244956c02aa00b284957002ab00b2c4957402ac00b304957802ad00b344957c02ae00b384958002af00b3c4958402b000b404958802b100b444958c02b200b484959002b300b4c4959402b400b504959802b500b544959c02b600b58495a002b700b5c495a402b800b60495a802b900b64495ac02ba00b68495b002bb00b6c495b402bc00b70495b802bd00b74495bc02be00b78495c002bf00b7c495c402a000b80495c802a100b84495cc02a200b88495d002a300b8c495d402a400b90495d802a500b94495dc02a600b98495e002a700b9c495e402a800ba0495e802a900ba4495ec02aa00ba8495f002ab00bac495f402ac00bb0495f802ad00bb4495fc02ae00bb84960002af00bbc4960402b000bc04960802b100bc44960c02b200bc84961002b300bcc4961402b400bd04961802b500bd4)
  (.lf
  0x3b65d2da44b67c4b6919094642cc64251909307d1c07d1c1f4907d2107d25909357a0c63c012da3009484b68d9093642c8642c95e8300cc863fe12e2300b484b88d90d1643c0643c1468357a0c643c5468457a10642cd5e8400ccc57a104d20134d8642d15e8500cd0643c9468557a1457a144d21134dc134400000134a2134a04d271342c1342c4d0d13431134304d2759a20642d55e8600cd4643d1468757a1c643cd468657a1857a184d22134e0643e1468b57a2c1343400001349e642ed5e8c00cec643e5468c57a3057a304d27134f41349c4d2613420134204d0a13425134244d2659a1c642e95e8b00ce857a2c4d26134f01342800001349a134984d2513414134144d0713419642e55e8a00ce4134184d2559a1857a284d25134ec1341c000013496134944d041340c1340c4d0457a25643d5468857a20642dd5e8800cdc642e15e8900ce0643d9468957a2457a244d0459a1457a204d24134e8134104d2413400134004d0213405134044d2459a1013408000013492134904d23133f4133f44cff133f9642d95e8700cd8133f84d2359a0c57a1c4d23134e4133fc00001348e1348c4d22133e8133e84cfc133ed133f000001348a133ec4d2259a08))
  (.nd (.lf
  0x200bc802d200b00ce5d9e9802a2c67a619e970ce4c3f2640a2a02828607000a4a3f2e43f2e40a0a3f365028299e9767ad867ad9621b02a2820289cc9c5e79473271cc9b202782027880a02027d20281cc9b5c7905a7edcc9b732e8732e971e45e7905c791ccd9733e0203e080fa203e5203e9ccd903238203e5ccd94ac7c73365ccd8203d4203d480f7203d9203ddccd8032342027dcc9b5e7907326dcc9a2026c200b0802d5886d203d9ccd84ac780cfc99ed65287067b599ed50cfb445ce4082a02028547ec084a45de445de5179945ee545ee4084a020280cfb433ef0cfb90cfb99ed55886c020299ed567bd067bd14a1b5886c0ce4c33950ce510ce559e975886c5886c802d5a7dc201b800005a7ea5a7e9cc9a732e42026c809d2027120275cc9a5c78c20271cc9a5e78c73269cc9920260732e571e35e78c5c78dccd8733dc73361ccd7203c8203c880f4203cd203cdccd74ac74203d1ccd70323020260809a2026520269cc995c788732e171e25e7885c789ccd7733d87335dccd6203bc203bc80f1203c1203c1ccd64ac70203c5ccd60322c20265cc995e78873265cc9820254202548097202592025dcc985c78420259cc985e7845a7e1cc98732dc)
  (.lf 0))) (.nd (.nd (.lf
  0x3851a66169a0069985a6600fbb80fbb83ef00fbbd0fbc1a660590900fbbda6600414c763f80e134b2900384da660699fc69981a65f0fbac0fbac3eed0fbb10fbb5a65f5908c0fbb1a65f04148763f40e124b28c03849a65f699f86997da65e0fba00fba03eea0fba50fba9a65e590880fba5a65e04144763f00e114b28803845a65e699f469979a65d0fb940fb943ee70fb990fb9da65d590840fb99a65d04140763ec0e104b28403841a65d699f069975a65c0fb880fb883ee40fb8d0fb91a65c590800fb8da65c0413c763e80e0f4b2800383da65c699ec69971a65b0fb7c0fb7c3ee10fb810fb85a65b5907c0fb81a65b04138763e40e0e4b27c03839a65b699e86996da65a0fb700fb703ede0fb750fb79a65a590780fb75a65a04134763e00e0d4b27803835a65a699e469969a6590fb640fb643edb0fb690fb6da659590740fb69a65904130763dc0e0c4b27403831a659699e069965a6580fb580fb583ed80fb5d0fb61a658590700fb5da6580412c763d80e0b4b2700382da658699dc69961a6570fb4c0fb4c3ed50fb510fb55a6575906c0fb51a65704128763d40e0a4b26c03829a657699d86995da6560fb400fb403ed20fb450fb49a65659068)
  (.lf 0)) (.nd (.lf
  0x447991206448994489804b7011dc011dd979e65ef465ef5484858120018dd976065dfc65dfd604801adc0a635979f5212465e7d979e0a6200a620298a0a6250a625979e58120581206606198481984c00005a0de5a0ddbdcc6f7ac6f731bdcb199601984800005a0da5a0d9bdcb6f7a819960665a1996519969bdcb5c03419965bdcb5e0346f72dbdca19954199546657199596f5817fdf61f7c61f7c06223bd6061fc406343bda83bd600634018bc3e38c0654018d05ffa806743e40c3e40c06343e48d018d1975d65df06f5897fe161f8461f8406243bd6861fcc06363bdb03bd680636018c43e3940656018d85ffb006763e4143e41406363e495018d9975f65df865df9604701ad86f5857fe061f8061f8006233bd6461fc806353bdac3bd640635018c03e3900655018d45ffac06753e4103e41006353e491018d5975e65df4197b800001981a1981865eb197a8197a865eb5811d0a629979e5212065e79979d0a6140a61429870a6190a619979d5811c0a4bd976001adc65d81975f0a4ac0a4ac292d0a4b10a4b5975f5811c6f28d50255609418eb5bc71540486f1c550115604552045501156044560440476419bc56094046a41a0c419e00476011ac)
  (.lf 0)))

def shaGateTree497 : BTree :=
  .nd (.nd (.nd (.lf
  0x573b010b142d28789b554ed573b4573b410b242d2c789b954ee573b8573b810b342d30789bd54ef573bc573bc10b442d34789c154f0573c0573c010b542d3842cbc10ad0428842cc010ae0428c42cc410af0429042cc810b00429442ccc10b10429842cd010b20429c42cd410b3042a042cd810b4042a442cdc10b5042a842ce010b6042ac42ce410b7042b042ce810b8042b442cec10b9042b842cf010ba042bc42cf410bb042c042cf810bc042c442cfc10bd042c842d0010be042cc42d0410bf042d042d0810a0042d442d0c10a1042d842d1010a2042dc42d1410a3042e042d1810a4042e442d1c10a5042e842d2010a6042ec42d2410a7042f042d2810a8042f442d2c10a9042f842d3010aa042fc42d3410ab0428042d3810ac0428447f3c10c00428047f4010c10428447f4410c20428847f4810c30428c47f4c10c40429047f5010c50429447f5410c60429847f5810c70429c47f5c10c8042a047f6010c9042a447f6410ca042a847f6810cb042ac47f6c10cc042b047f7010cd042b447f7410ce042b847f7810cf042bc47f7c10d0042c047f8010d1042c447f8410d2042c847f8810d3042cc47f8c10d4042d047f9010d5042d447f9410d6042d8)
  (.lf 0)) (.nd (.lf
  0x1c85872175848566b71612101e4066c694921584845848472175a4145a415c4b3713485a41dc4b571350712d5c4b41ca081ca0872841ca0d1ca11c4b45c39c1c93000005a41a5a419c4b47134c1ca0dc4b45e39c712d1c4b31c9fc1c9fc72811ca0166b6d612001e3c66c654920584801c85c72151c8501c8507215584815848072155a4101ca05c4b35c3981ca01c4b35e39866c61491f5847c66b69611f01e381c854723e1c8441c84472131c8491c848723e5a40c712cdc4b21c9f05a411c4b2713441c9f0727e1c9f51c9f5c4b25e3941c9f9c4b25c394712c9c4b11c9e41c9e4727b1c9e91c9e9c4b15e3901c9edc4b15c3905847c723e1c92c1c92c00005a40e5a40dc4b171340712c5c4b01c9d866c5d491e5847866b65611e01e341c84c00001c8fa1c8f8723d1c8381c83872101c83d58478723d1c9281c83c723d5a4081c92800005a40a5a409c4b07133c1c9d872781c9dd1c9ddc4b05e38c1c9e1c4b05c38c712c1c4af1c9cc1c9cc72751c9d11c9d1c4af5e38866c4d491a5846858468723b1c92066c59491d5847466b61611d01e301c84000001c8f61c8f4720d1c8301c830720d5847558474720d5a4041c834720b1c82866b5d611c01e2c)
  (.lf 0))) (.nd (.nd (.lf
  0xe21da1fd58bf4033b1a1fd688706887162fd02db0235b1d3c7035b474f1dd3c62359c2359c8d69235a1235a1d3c64aff423445d3895eb0c74e25d38823434234348d0f234392343dd3885cb08232e8000074dde74ddc8cb7232d8232d88cb758bf558bf48cb75ab585ab59d38874e9c74e9d72c25eb085cb09d3c674f9474f940d6c4aff44aff608b6823548235532fd4e3f44e3f6093282544824ca093138c8438c84e32338c8938c8e09314b37038c8a09314fbf0389ca08b64cbf4822da08b5389b4389b4e26f389b9389ba08b54e3f00e219a1fd02db0687f5a1fc0e2080e20838840e20d0e211a1fc58bf0033ada1fc6886c6886d62fc02dac235a5d3c6035b074f19d3c523590235908d662359523595d3c54aff023439d3885eb0874e21d38723428234288d0c2342d23431d3875cb04232dc8cb5232d0232d08cb558bf158bf08cb55ab545ab55d38774e9874e9972c15eb045cb05d3c574f9074f900d6b4aff04aff208b5823508235132fc4e3f04e3f2093182540824c6093038c7838c78e32038c7d38c8209304b36c38c7e09304fbec389be08b54cbf0822d608b4389a8389a8e26c389ad389ae08b44e3ec0e20da1fc02dac687f1a1fb0e1fc)
  (.lf 0)) (.nd (.lf
  0x7c8fdf23e307a0307a0c1ea307a57c9812f2e4d4b84bcb9f27f7ca7830935f27f4a8b87c9fdf27e3092030920c24a3092530925f27e504b430929f27e4a8b47c9f9f27d3091430914c247309193091df27d4a8b07c9792f2c4d4b04bcb1f27d7ca7030919f27d504b07c9f5f27c3090830908c2443090d3090df27c504ac6d518059a4a0ac4a0adf23e7c974307a9f23e4bcac7c9752f2b4d4ac4bcadf27c7ca6c30911f27c4a8ac7c9f1f27b308fc308fcc2413090130901f27b504a8307a5f23e4d4ac7c8f9f23d3079430794c1e7307993079df23d4bca84bca9f27b7ca6830905f27b4a8a87c9edf27a308f0308f0c23e308f5308f5f27a504a430799f23d4d4a87c8f5f23c3078830788c1e43078d30119f1324a2dc7c4c9f131301044d359f1317c54030104c043301093010df1314a2d830109f1314eb587c4c5f130300f8300f8c040300fd300fdf1304eb5415ac1b526016646d499b52515aac15aac56ad15ab115ab1b5254a0a47c54128b64eb584eb592820060f4060f528294a09c5bbb9b5256d5106d51005984a0a44a0a5f23c7c96c30791f23c4bca43078df23c4d4a47c8f1f23b3077c3077cc1e1307814d351f12f7c53815ab5b52501660)
  (.lf 0)))

def shaGateTree498 : BTree :=
  .nd (.nd (.nd (.lf
  0x2c9a9e8955d5c87a255e8942c9942c994b2672c9992c999e8945f5c42c80800007a1de7a1dde8762c7f42c7f4b1ff2c7f92c7f9e8765b5c42af11e4c50037079315e4c42af002af00abc22af052af09e4c403e6c5d3c5e4c47938c7938c0f9b0036c11f55ac77536b46b1ddac7611f4011f4047d211f4511f45ac76596b00456dac766b2546b2554dac596b011de9ac39047706b0e5ac3811dd811dd8477811ddd11de1ac38596b003e6dac386b15c6b15d65ac0476c596b1e8762c8502c85000005b5c65b5c5e8947a2cc7a2cd75715f5c45f5c5e9107a4bc7a441e90f2cc582cc58b3182cc5d2cc61e90f615c02cc5de90f635c02c99de8945d5c47a251e8932c9882c988b2642c98d2c98de8935f5c02c7fc00007a1da7a1d8b1fc2c7ec2c7ecb1fc596ad5d3c1e4c379388793880f9a003682af05e4c40036c79311e4c32aef42aef4abbf2aef92aefde4c303e6803e69ac376b1586b15965ab0476811f49ac76536b06b1d9ac7511f3411f3447cf11f3911f39ac75596ac04569ac756b2506b2514dab596ac11dddac380476c6b0e1ac3711dcc11dcc477511dd111dd5ac37596ac596acb1fc5b5c05b5c1e8937a2c87a2c975705f5c05f5c1e90f7a4b8)
  (.lf 0)) (.nd (.lf
  0x35624d58b356293562dffc94ad1835629ffc94f5984dd99ffc97ffa07ff25ffc83561835618d5883561d35621ffc84ad143561dffc84f5944dd95ffc87ff9c7ff21ffc73560c3560cd5853561135615ffc74ad1035611ffc74f5904dd91ffc77ff987ff1dffc63560035600d5823560535609ffc64ad0c35605ffc64f58c4dd8dffc67ff947ff19ffc5355f4355f4d57f355f9355fdffc54ad08355f9ffc54f5884dd89ffc57ff907ff15ffc4355e8355e8d57c355ed355f1ffc44ad04355edffc44f5844dd85ffc47ff8c7ff11ffc3355dc355dcd579355e1355e5ffc34ad00355e1ffc34f5804dd81ffc37ff887ff0dffc2355d0355d0d576355d5355d9ffc24acfc355d5ffc24f57c4dd7dffc27ff847ff09ffc1355c4355c4d573355c9355cdffc14acf8355c9ffc14f5784dd79ffc17ff807ff05ffc0355b8355b8d570355bd355c1ffc04acf4355bdffc04f5744dd75ffc07ff7c7ff01ffbf355ac355acd56d355b1355b5ffbf4acf0355b1ffbf4f5704dd71ffbf7ff787fefdffbe355a0355a0d56a355a5355a9ffbe4acec355a5ffbe4f56c4dd6dffbe7ff747fef9ffbd3559435594d567355993559dffbd4ace835599ffbd4f5684dd69ffbd7ff70)
  (.lf 0))) (.nd (.nd (.lf
  0x3feb40dbe036783feb80dbf0367c60cd80dc03febc60cdc0dc13fec060ce00dc23fec460ce40dc33fec860ce80dc43fecc60cec0dc53fed060cf00dc63fed460cf40dc73fed860cf80dc83fedc60cfc0dc93fee060d000dca3fee460d040dcb3fee860d080dcc3feec60d0c0dcd3fef060d100dce3fef460d140dcf3fef860d180dd03fefc60d1c0dd13ff0060d200dd23ff0460d240dd33ff0860d280dd43ff0c60d2c0dd53ff1060d300dd63ff1460d340dd73ff1860d380dd83ff1c60d3c0dd93ff2060d400dda3ff2460d440ddb3ff2860d480ddc3ff2c60d4c0ddd3ff3060d500dde3ff3460d540ddf3ff383febc0d803ff3d3fec00d813ff413fec40d823ff453fec80d833ff493fecc0d843ff4d3fed00d853ff513fed40d863ff553fed80d873ff593fedc0d883ff5d3fee00d893ff613fee40d8a3ff653fee80d8b3ff693feec0d8c3ff6d3fef00d8d3ff713fef40d8e3ff753fef80d8f3ff793fefc0d903ff7d3ff000d913ff813ff040d923ff853ff080d933ff893ff0c0d943ff8d3ff100d953ff913ff140d963ff953ff180d973ff993ff1c0d983ff9d3ff200d993ffa13ff240d9a3ffa53ff280d9b3ffa93ff2c0d9c3ffad3ff300d9d3ffb1)
  (.lf 0)) (.nd (.lf
  0x17c7c5f2117c8117de9b9f94a2d84404c040400f9053e5404244414c4414d10734424d4424c042400f9000f91959b656e8656e947b557ed43df4805c30168c5fd6405e33dfc83dfc805a33e04917af85efa17ae844050040500f9453e580425441504415110744425144250042500f9400f95959c656ec656ed47b657ed8655f55fb60119409a1d959d51edc65675959c09a0809a08268409a0d09a0d959c57ed857ed85efa17c2017ae85ebc17aed17af0000017bea17aec5efa59ea817be85ef917adc17adc5eb917ae117ae4000017be609a11959c51ed865671959b099fc099fc268109a0109a01959b57ed4655f15fb50119057ed45ef917c1c17c20000059eaa59ea9b9bb6e76817c85b9bb5bdec17c81b9bb5ddec6e6edb9ba17c7017c705f1e17c7517c79b9ba5bde817c1c000059ea617c75b9ba5dde817ae05ef959ea459ea5b9ba6e7646e6e9b9b917c6417c645f1b17c6917c6db9b95bde409891955c57ed044048040300f8c53e500423441484414910724424944248042300f8c00f8d959a656e4656e547b457ed017be45eb617ad417ad45eb657ed10168d955c655ec655ed5fb40118c09a05959b51ed46566d959a099f0099f0267e099f5)
  (.lf 0)))

def shaGateTree499 : BTree :=
  .nd (.nd (.nd (.lf
  0x27541dcb203a18772c9dcb12752c2752c9d4d2753127531dcb14b4585cf6ddcb177340773400e854b4584b45a0f3983d6083d6134164e8584d05a0f7783e5883dde0f763b0c03b0c0ec323b0c53b0ca0f76007103b0c60f76518543af6a0f394e85883ce60f383af583af58ebd83af5d3af620f384d05427535dcb103a14772c5dcb027520275209d4a2752527525dcb04b4545cf69dcb07733c7733c0e844b4544b4560f3883d5c83d5d34154e8544d0560f7683e5483dda0f753b0b43b0b4ec2f3b0b93b0be0f750070c3b0ba0f75518503af5e0f384e85483ce20f373af4c3af4cebd53af513af560f374d05027529dcb003a10772c1dcaf27514275149d472751927519dcaf4b4505cf65dcaf77338773380e834b4504b4520f3783d5883d5934144e8504d0520f7583e5083dd60f743b0a83b0a8ec2c3b0ad3b0b20f74007083b0ae0f745184c3af520f374e85083cde0f363af403af40ebd23af453af4a0f364d04c2751ddcaf03a0c772bddcae27508275089d442750d2750ddcae4b44c5cf61dcae77334773340e824b44c4b44e0f3683d5483d5534134e84c4d04e0f7483e4c83dd20f733b09c3b09cec293b0a13b0a60f73007043b0a20f7351848)
  (.lf 0)) (.nd (.lf
  0x7ec71fb1b33a7c33a7ccea133a8133a85fb1b4ae4833a81fb1b50a483e63c08a002200600d808c03e6bc3e6bc08803e73d7ebf130924da484c249fb1b7ece80ac2598be01c04662f9609101c0144abc06a001a00541c406c044bbc44bbd130f44cbd44cbc06c001a0002201609101c000ad9198fc52248663f14891582451ae71c0f502404703d409004a64501a014891582441ad05c0b75e15c702dd70565e1595824570565e1585c15809004a6447ec6d2b9150a454a64530914da444c2452b9150a4450a452b740525c7ece92b9250a4850a492b75052607eced2b9350a4c50a4d2b76052647ecf12b9450a5050a512b77052687ecf52b9550a5450a552b780526c7ecf92b9650a5850a592b79052707ecfd2b9750a5c50a5d2b7a052747ed012b9850a6050a612b7b052787ed052b9950a6450a652b7c0527c7ed092b9a50a6850a692b7d052807ed0d2b9b50a6c50a6d2b7e052847ed112b9c50a7050a712b7f052887ed152b9d50a7450a752b800528c7ed192b9e50a7850a792b81052907ed1d2b9f50a7c50a7d2b82052947ed212ba050a8050a812b83052987ed252ba150a8450a852b840529c7ed292ba250a8850a892b85052a07ed2d2ba350a8c)
  (.lf 0))) (.nd (.nd (.lf
  0x5c941cfe97402073fa5cfe82196821968865c2196d21971cfe8033e42196dcfe84ae2873f25724f5e93c5c93dcfe87401c73fa1cfe72195c2195c86592196121965cfe7033e021961cfe74ae2473f21724e5e9385c939cfe77401873f9dcfe6219502195086562195521959cfe6033dc21955cfe64ae2073f1d724d5e9345c935cfe67401473f99cfe521944219448653219492194dcfe5033d821949cfe54ae1c73f19724c5e9305c931cfe57401073f95cfe4219382193886502193d21941cfe4033d42193dcfe44ae1873ec972385e8e073f15724b5e92c5c92dcfe47400c73f91cfe32192c2192c864d2193121935cfe3033d021931cfe34ae1473f11724a5e9285c929cfe37400873f8dcfe22192021920864a2192521929cfe2033cc21925cfe24ae1073f0d72495e9245c925cfe27400473f89cfe121914219148647219192191dcfe1033c821919cfe14ae0c73f0972485e9205c921cfe17400073f85cfe0219082190886442190d21911cfe0033c42190dcfe04ae0873f0572475e91c5c91dcfe073ffc73f81cfdf218fc218fc86412190121905cfdf033c021901cfdf4ae0473f0172465e9185c919cfdf73ff873f7dcfde218f0218f0863e218f5)
  (.lf 0)) (.nd (.lf
  0x55c340352415ac6cf314f0f55c3c53c3c039e43a3455c0803474158041580035e00d4c6ced94ef955be443a350ead43b3543b34039e00d7843934037e00d78415ac034900d7855be4035e4155c00d79934964da06cf254f0c55c3053c30039b43a286cf214f0b55c2c53c2c039a43a2443a250ea943b256cef14eff55bfc55bfc03444157441574035b00d406cf1d4f0a55c286cef54f0055c006ced54ef855be06cef94f0155c046cec94ef555bd46cecd4ef655bd86ced14ef755bdc55c0003454157841578035c00d446ceed4efe55bf855c0403464157c4157c035d00d484392c037c00d7008d2d934951cbc64d25934808d1808d18234808d1d43a290eaa43b2955c2c0350415a4415a4034700d7055be0035d4155853c34039c43a2c43a2d0eab43b2d43b2c039c00d7008d1d934857cb855bdc035c4155400d71934764d9843930037d00d7408d21934851cb853c38039d43a3043a310eac43b3143b30039d00d7455c300351415a8415a8034800d7400d75934864d9c64d21934708d0c08d0c234508d1108d15934751cb408d11934757cb464d1d934608d0008d00234208d0508d05934657cb043928037b00d6c43b28039b00d6c55c28034f415a0)
  (.lf 0)))

def shaGateTree500 : BTree :=
  .nd (.nd (.nd (.lf
  0x2d6d9ea7f636645f665ea7f7aa787a9fdea7e2d6c82d6c8b5b42d6cd2d6d1ea7e616602d6cdea7e636605f661ea7e7aa747a9f9ea7d2d6bc2d6bcb5b12d6c12d6c5ea7d6165c2d6c1ea7d6365c5f65dea7d7aa705f6598596636587a9f5859663659636580ff93d43c7aa7185976365c6365c0ffa3d4407aa75859863660636600ffb3d4447aa79859963664636640ffc3d4487aa7d859a63668636680ffd3d44c7aa81859b6366c6366c0ffe3d4507aa85859c63670636700fff3d4547aa89859d63674636740fe03d4587aa8d859e63678636780fe13d45c7aa91859f6367c6367c0fe23d4607aa9585a063680636800fe33d4647aa9985a163684636840fe43d4687aa9d85a263688636880fe53d46c7aaa185a36368c6368c0fe63d4707aaa585a463690636900fe73d4747aaa985a563694636940fe83d4787aaad85a663698636980fe93d47c7aab185a76369c6369c0fea3d4807aab585a8636a0636a00feb3d4847aab985a9636a4636a40fec3d4887aabd85aa636a8636a80fed3d48c7aac185ab636ac636ac0fee3d4907aac585ac636b0636b00fef3d4947aac985ad636b4636b40ff03d4987aacd85ae636b8636b80ff13d49c7aad185af636bc)
  (.lf 0)) (.nd (.lf
  0x606280a143f10c3f10c09d43f18d027519da9677206772161e5021503f0b409fe027783f0b809ff0277c606500a1e3f134606540a1f3f1383f13409de3f1b53f13809df3f1b90277d9db46774c676d19db30c99c0c99c32690c9a10c9a59db3587bc0c9a19db302178027799db367748676cd9db20c9903f09009f5027543f09409f6027583f09809f70275c3f09c09f8027603f0a009f9027643f0a409fa027683f0a809fb0276c3f0ac09fc027703f0b009fd027746064c0a1d3f1303f13009dd3f1b1027759db2677440c99032660c9950c9959db2021740c9999db2587b8676c99db10c984606300a163f114606340a173f118606380a183f11c6063c0a193f120606400a1a3f124606440a1b3f128606480a1c3f12c3f11409d63f1953f11809d73f1993f11c09d83f19d3f12009d93f1a13f12409da3f1a53f12809db3f1a93f12c09dc3f1ad0c98432630c9890c98d9db1587b4027599dab67728027719db1677400c9899db102170676c59db00c9780c97832600c97d0c97d9db00216c0c9819db0587b00276d9db06773c676c19daf0c96c0c96c325d0c9710c9759daf587ac0c9719daf02168027699daf67738676bd9dae0c9600c960325a0c965)
  (.lf 0))) (.nd (.nd (.lf
  0x54ee00c07472d854ee40c08472dc54ee80c09472e054eec0c0a472e454ef00c0b472e854ef40c0c472ec472d91cd6473d9472dd1cd7473dd472e11cd8473e1472e51cd9473e5472e91cda473e9472ed1cdb473ed473d80c0702f1c473dc0c0802f20473e00c0902f24473e40c0a02f28473e80c0b02f2c473ec0c0c02f3002f31a59f696f80f735a59f52f746967da59e0f7200f7203dca0f7250f729a59e52f700f725a59e58f7002f2da59e696f469679a59d0f71402f29a59d696f00f7143dc70f7190f719a59d58f6c0f71da59d52f6c69675a59c0f7080f7083dc40f70d0f711a59c52f6802f25a59c696ec0f70da59c58f6869671a59b0f6fc0f6fc3dc10f7010f705a59b52f640f701a59b58f6402f21a59b696e86966da59a0f6f00f6f03dbe0f6f50f6f5a59a58f600f6f9a59a52f6002f1da59a696e469669a5990f6e40f6e43dbb0f6e90f6e9a59958f5c0f6eda59952f5c69665a5980f6d80f6d83db80f6dd0f6e1a59852f585ccd5d6ee75c3475c340ddf4b1c00377da5746964c695d1a5730f69c0f69c3da90f6a10f6a1a573031780f6a5a57358fbc75bb9d6ed24b6024b6092da24b6524b69d6ed037785ccd1d6ed75c3075c300dde4b1bc)
  (.lf 0)) (.nd (.lf
  0x53f70046b4446844469113a4456944568046b010ac010ad969a65ae409e8827a409e8d09e91965c57ff065ae547fc57ff057ff0625159fb859fb9bbc16ef806ef816fc15df045bf05bbff6f07809ff9969a51ff04435404460109853f5c046644454444551135445554455404660109801099969565ad009e8d965c012ac65971965b09e7c09e7c27a109e8109e85965b57fec3bcb405e9017903bcb805ea017943e164060a017a85fe80062a3e1e43e1e405ea3e26509e81965b012a8017a9965b659e86596d965a09e7009e70279e09e753e1600609017a45fe7c06293e1e03e1e005e93e26109e75965a012a409e79965a57fe8017a5965a659e465969965909e6409e64279b09e693bcac05e7017883bcb005e80178c3e15c0608017a05fe7806283e1dc3e1dc05e83e25d09e699659012a009e6d965957fe4017a19659659e065965965809e5809e58279809e5d3e15806070179c5fe7406273e1d83e1d805e73e2590179d9658659dc09e61965857fe009e5d96580129c65961965709e4c44364044a010a853f6c046a444644446511394456544564046a010a8010a9969965ae065a69969909fe409fe427fb09fe909fed969951fec09fe9969957fec)
  (.lf 0)))

def shaGateTree501 : BTree :=
  .nd (.nd (.nd (.lf
  0x10791a87c532481078da87c5924804105a87c6a26c6a2e54cb0592c06a2e14caf592bc6a2dd4cae592b86a2d94cad592b46a2d54cac592b06a2d14cab592ac6a2cd4caa592a86a2c94ca9592a46a2c54ca8592a06a2c14ca75929c6a2bd4ca6592986a2b94ca5592946a2b54ca4592906a2b14ca35928c6a2ad4ca2592886a2a94ca1592846a2a54ca0592806a2a14c9f5927c6a29d4c9e592786a2994c9d592746a2954c9c592706a2914c9b5926c6a28d4c9a592686a2894c99592646a2854c98592606a2814c975925c6a27d4c96592586a2794c95592546a2754c94592506a2714c935924c6a26d4c9259248041014c91592446a1f14c915924503a7da85c6a1ec6a171a85b1077c1077c41e11078110785a85b592bc10781a85b0437803a79a85b6a1e86a16da85a107701077041de1077510779a85a592b810775a85a0437403a75a85a6a1e46a169a859107641076441db107691076da859592b410769a8590437003a6da8586a1dc03a71a8596a1e06a165a858107581075841d81075d10761a858592b01075da8580436c6a161a8571074c1074c41d51075110751a8570436803a69a8576a1d810755a857592ac6a15da856107401074041d210745)
  (.lf 0)) (.nd (.lf
  0xb34999f652350667d999f50b3340b3342ccf0b3390b33999f55834c44dc406e201b08542cc070244ec444ec513d144fc544fc4070201b0801b0999f5668506685148d35834c0b1dd99b801d0c666e199b70b1cc0b1cc2c750b1d10b1d599b75834c0230999b7667586675960d301d081b9a46e671b9981b9986e675834d5834c6e675a2ec1bb45c2b65e26470ad9c2b51bb341bb346ecf1bb391bb3dc2b55c2605a2edc2b570b5070b5170985e2605c261c2f370c481bca5c2f3025081bca1c2f34a74c70bcdc2f21bc9070c6009484a76444dc006e101b04542c8070144ec044ec113d044fc144fc0070101b0401b0599f46684c0b33d99f55234c667d599f40b3280b3282ccc0b32d0b32d99f4583486684d48d2583480b1d199b701d08666dd99b60b1c00b1c02c720b1c50b1c999b6583480230599b6667546675560d201d045834968b91baec1baec00005a2ea1b99d68b91b9901b99160d11b9950b1c599b601d04666d960d101d0144dbc06e001b00542c4070044ebc44ebd13cf44fbd44fbc070001b0001b0148d1583440b33199f452348667d148d1583450230160d101d005834400005a2e670c68094a4a76c70c78094e4a77c70c9009544a794)
  (.lf 0))) (.nd (.nd (.lf
  0x685954ac058b006849d62c002cbc22781d1cf034c07473dd1ce2276c2276c89dd2277122771d1ce4af0022615d1915ea1874645d19022604226048983226092260dd1905ca142245c89152245022450891558b0158b0089155aa705aa71d190746bc746bd72855ea145ca15d1ce747b4747b40d2f4af004af02074581d9081d9132c04e3004e30207c181f8081f0607c03843838438e1103843d3844207c04b27c3843e07c04fafc3817e07454cb0081d1607443816838168e05c3816d3816e07444e2fc685914abf58afc6849962bf02cb822775d1ce034bc74739d1cd227602276089da2276522765d1cd4aefc22609d1905ea1474641d18f225f8225f88980225fd22601d18f5ca102245489132244822448891358afd58afc89135aa6c5aa6dd18f746b8746b972845ea105ca11d1cd747b0747b00d2e4aefc4aefe074481d8c81d8d32bf4e2fc4e2fe07c081f7c81f0207bf3842c3842ce10d384313843607bf4b2783843207bf4faf83817207444cafc81d1207433815c3815ce059381613816207434e2f86858d4abe58af86849562be02cb422769d1cd034b874735d1cc227542275489d72275922759d1cc4aef8225fdd18f5ea107463dd18e225ec)
  (.lf 0)) (.nd (.lf
  0x164f5b69d55db451db5b69d6daf06da75b69c164e4164e4593b164e951db1b69c6daec164e9b69c55db0164edb69c53db06da71b69b164d8164d85938164dd164ddb69b55dac51dadb69b6dae8164e1b69b53dac6da6db69a164cc51da5b6996dae0164cc5935164d1164d1b69a55da8164d5b69a53da851da9b69a6dae46da69b699164c0164c05932164c5164c5b69955da4164c9b69953da46da65b698164b4164b4592f164b951da1b6986dadc164bdb69853da0164b9b69855da06da61b697164a8164a8592c164ad164b1b69753d9c51d9db6976dad8164adb69755d9c6da5db6961649c1649c5929164a1164a1b69655d9851d99b6966dad4164a5b69653d986da59b695164901649059261649516495b69555d9451d85b6916dac051d89b6926dac416499b69553d9451d95b6956dad06da55b694164841648459231648916489b69455d901648db69453d9051d91b6946dacc6da51b693164781647859201647d1647db69355d8c16481b69353d8c51d8db6936dac86da4db6921646c1646c591d1647116471b69255d8816475b69253d886da49b6911646016460591a1646516465b69155d8416469b69153d846da45b6901645416454591716459)
  (.lf 0)))

def shaGateTree502 : BTree :=
  .nd (.nd (.nd (.lf
  0x6aac9aab111484114844523114891148daab1594e4594e4ac8a5b4005b401e56b796287962974fe5f3f85f3f9e5e7798187979de5e62b6802b680ada22b6852b689e5e6613f42b685e5e6633f42b3c5e56b5d3f8795ade56a2b3b02b3b0acee2b3b52b3b5e56a5f3f42b228acc12b2182b218ac882b21d2b21cacc15b3fc298e5e1be001a0786f9e1bd298d4298d4a637298d9298dde1bd03c9c5d1f5e1bd78770787700f270019c115f5aaef534e46abbdaaee115e0115e0457a115e5115e5aaee594e00439daaee6ac346ac354d38594e011489aab1045a06aac5aab0114781147845201147d11481aab0594e003c9daab06ab3c6ab3d65380459c594e0acc12b3382b33800005b3fe5b3fde56a796247962574fd5f3f45f3f5e5e67981479799e5e52b6742b674ad9f2b6792b67de5e5613f02b679e5e5633f02b3b9e56a5d3f4795a9e5692b3a42b3a4aceb2b3a92b3a9e5695f3f02b22000002b3062b304ac852b2102b210ac85594dd5d1f1e1bc7876c7876c0f2600198298d9e1bd0019c786f5e1bc298c8298c8a634298cd298d1e1bc03c9803c99aaaf6ab386ab39653704598115e9aaee534e06abb9aaed115d4115d44577115d9115d9aaed594dc)
  (.lf 0)) (.nd (.lf
  0x5a549c6cc71bac1d891c6cc5c4cc71b31c6cb1d87c1d87c76211d8811d885c6cb5c4c81d6fdc6ae1d6ec1d6ec75bd1d6f11d6f1c6ae5a5445a545c6cb71ba81d881c6cb5e4c871b2dc6ca1d8701d870761e1d8751d6f4000071aba1cdc5c563544dc7158dc5621cdb01cdb0736e1cdb5524d9c56271604716055136564d81cdb5c562564d8564d8075b41e5071629513f564fc564fc074441e7471655514a5652856528074f41ea041e74075b01d4041ea0074601d6c0bfb59bff525b466ffd9bfe0bfa00bfa02fea0bfa50bfa59bfe585b045428077b01d6c54530079b4552845529156a4562945628079b01d6c71ab875ba1d6e41d6e475ba585b166f7d616c01f6c01d6d9bfe6707467075496c585b0585b075ba5a5405a541c6ca71ba471bad71335e4cc71bb571355e4d45c4d5c70c71cac71c31c70b1d9fc1d9fc76811da011da05c70b027781da01c70b4a9bc71bb171345e4d05c4d1c70b71ca871c2dc70a1d9f01d9f0767e1d9f51d9f9c70a027741d9f5c70a4a9b85c4cdc70a71ca471c29c7091d9e41d9e4767b1d9e91d9edc709027701d9e9c7094a9b471ba971325e4c85c4c9c70971ca071c25c7081d9d81d9d876781d9dd1d9e1c7080276c)
  (.lf 0))) (.nd (.nd (.lf
  0x5ac51d592756c4756c573015ec045cc05d5d0757bc757bc0dab4b0f04b0f20a298292082921333c4e4f04e4f20aa582b1082a960aa4394e8394e8e53c394ed394f20aa44b46c394ee0aa44fcec3922e0a294ccf0828a60a283921839218e4883921d3921e0a284e4ec68d414b3b58cec68c49633b02ea824379d5d0036ac75741d5cf243642436490db2436924369d5cf4b0ec2420dd5925ec0475649d591241fc241fc90812420124205d5915cc002409c90252409024090902558ced58cec90255ac4c5ac4dd591756c0756c173005ec005cc01d5cf757b8757b80daa4b0ec4b0ee0a288291c8291d333b4e4ec4e4ee0aa482b0c82a920aa3394dc394dce539394e1394e60aa34b468394e20aa34fce8392220a284ccec828a20a273920c3920ce48539211392120a274e4e868d3d4b3a58ce82436dd5cf036a87573dd5ce243582435890d82435d2435dd5ce4b0e824201d5915ec0075645d590241f0241f0907e241f5241f9d5905cbfc2409490232408824088902358ce958ce890235ac485ac49d590756bc756bd72ff5ebfc5cbfdd5ce757b4757b40da94b0e84b0ea0a278291882919333a4e4e84e4ea0aa382b0882a8e0aa2394d0394d0e536394d5)
  (.lf 0)) (.nd (.lf
  0x315e5f4ae5063c7d23d2f8f4d63c4be3df4ae7d334315e9f4ae4aa3c7d2b9f4ad315d4315d4c577315d9315d9f4ad50638315ddf4ad4aa387d2b5f4ac315c8315c8c574315cd315d1f4ac4aa34315cdf4ac506347d2352f8d4d6344be35f4ac7d32c7d2b1f4ab315bc315bcc571315c1315c5f4ab4aa30315c1f4ab506307d2adf4aa315b0315b0c56e315b5315b9f4aa4aa2c7d22d2f8b4d62c315b5f4aa5062c4be2df4aa7d3247d2a9f4a9315a4315a4c56b315a9315adf4a94aa28315a9f4a9506287d2292f8a4d6284be29f4a97d3207d2a5f4a83159831598c5683159d315a1f4a84aa247d2252f894d6244be25f4a87d31c3159df4a8506247d2a1f4a73158c3158cc565315917d2212f884d62031591f4a7506204be21f4a77d31831595f4a74aa207d29df4a63158031580c562315857d21d2f874d61c31585f4a65061c31589f4a64aa1c4be1df4a67d3147d299f4a53157431574c55f315793157df4a54aa187d2192f864d6184be19f4a57d31031579f4a5506187d295f4a43156831568c55c3156d31571f4a44aa147d2152f854d6144be15f4a47d30c3156df4a4506147d291f4a33155c3155cc5593156131565f4a34aa107d20d2f834d60c)
  (.lf 0)))

def shaGateTree503 : BTree :=
  .nd (.nd (.nd (.lf
  0x3827ce0a13828138286077b0019c38282077b512e04cae2077b81e6881dee077a3827038270e09e382753827a077a0019838276077a512dc4cade077a81e6481dea07793826438264e09b382693826e0779001943826a0779512d84cada077981e6081de607783825838258e0983825d382620778001903825e0778512d44cad6077881e5c81de207773824c3824ce095382513825607770018c382520777512d04cad2077781e5881dde07763824038240e092382453824a077600188382460776512cc4cace077681e5481dda07753823438234e08f382393823e0775001843823a0775512c84caca077581e504cac40060512c481dd40060512c5512c4004305a1081e500061512c8512c8004405a1481e540062512cc512cc004505a1881e580063512d0512d0004605a1c81e5c0064512d4512d4004705a2081e600065512d8512d8004805a2481e640066512dc512dc004905a2881e680067512e0512e0004a05a2c81e6c0068512e4512e4004b05a3081e700069512e8512e8004c05a3481e74006a512ec512ec004d05a3881e78006b512f0512f0004e05a3c81e7c006c512f4512f4004f05a4081e80006d512f8512f8005005a4481e84006e512fc)
  (.lf 0)) (.nd (.lf
  0x44ab512cd44bb544bb406be012f8012f9989d662f0662f1488f5823c1a245bf2e600706fcb9bf2d1a2301a230688e1a2351a235bf2d6206c5e06dbf2d6fd306fd31801b6206c6206c067e3be506fd698029620a4620a4066c3be886fd7d802e620b8620b806713be9c3be88067e019e43be9c0663019f866181985f0aaac0aaac2aad0aab10aab5985f5823c66279989d0ac140ac142b070ac193e5b4089e019f86fd958034620d0600d008be3e6343e634067e3e6b5019f9985f661f8661f9608f01bf80ac19989d5823c5823dbfb11a6201a5e4697b1a5e91a5e9bfb15a1e41a5ec00006fec66fec5bfb01a5d81a5d869781a5dd1a5ddbfb05a1e01a239bf2d6006c6fcb5bf2c1a2241a224688b1a2291a229bf2c620685e069bf2c6fd2c6fd2d801a6206862068067d3be4c6fd658028620a0620a0066b3be846fd79802d620b4620b406703be983be84067d019e03be980662019f43e5b0089d019f46fd918033620cc600cc08bd3e6303e630067d3e6b1019f5985e661f40aab1985f01bf86617d985e0aaa00aaa02aaa0aaa50aaa5985e01bf40aaa9985e5823866179985d0aa940aa942aa70aa990aa9d985d5823419cedbe76541646f9d9be7519cd8)
  (.lf 0))) (.nd (.nd (.lf
  0x5c8b9cee273c0421275cee24ada473b89cee12126421264849b2126921269cee14ada02126dcee10335c73b09722d5e8b45c8b5cee173c0073b85cee0212582125884982125d2125dcee04ad9c21261cee00335873b05722c5e8b05c8b1cee073bfc73b81cedf2124c2124c84952125121255cedf0335473af972295e8a45c8a5cedd73bf073af172275e89c21251cedf4ad9873b01722b5e8ac5c8adcedf73bf873b7dcede212402124084922124521245cede4ad9421249cede0335073afd722a5e8a85c8a9cede73bf473b79cedd2123421234848f2123921239cedd4ad902123dcedd0334c73b75cedc2122821228848c2122d21231cedc0334873af572285e8a05c8a1cedc73bec2122dcedc4ad8c73b71cedb2121c2121c84892122121221cedb4ad8821225cedb033445c89dcedb73be873b6dceda2121073aed72265e8985c899ceda73be42121084862121521215ceda4ad8421219ceda0334073b69ced9212042120484832120921209ced94ad8073ae972255e8942120dced90333c5c895ced973be073b65ced8211f8211f88480211fd211fdced84ad7c73ae572245e8905c891ced873bdc21201ced80333873b61ced7211ec211ec847d211f1)
  (.lf 0)) (.nd (.lf
  0x14424510b1442914429b1e65da201433c000059afa59af9b1e66c8146c8156e885da205da21b2626ca046c8316e8f5da3c5da3db2696ca206c8356e905da405da41b26a6ca2414759b26a61a401475db26a5fa406c9a9b269147481474851d41474d14751b2695fa3c6c82d6e8e5da385da39b2686ca1c1474db26961a3c6c9a5b2681473c1473c51d11474114745b2685fa3814741b26861a386c9a1b267147301473051ce1473514735b26761a346c8216e8b5da2c6c8296e8d5da345da35b2676ca1814739b2675fa346c99db266147241472451cb147296c8256e8c5da301472db2665fa305da31b2666ca1414729b26661a306c999b265147181471851c81471d14721b2655fa2c6c81d6e8a5da281471db26561a2c5da2db2656ca106c995b2641470c5da29b2646ca0c1470c51c51471114711b26461a2814715b2645fa286c991b263147001470051c21470514705b26361a246c8196e895da245da25b2636ca0814709b2635fa246c98db262146f4146f451bf146f9146f9b26261a20146fdb2625fa206c989b261146e8146e851bc146ed146f1b2615fa1c1432c000059ae659ae5b1e16c8001442db1e65ba206c799b1e5144181441851081441d)
  (.lf 0)))

def shaGateTree504 : BTree :=
  .nd (.nd (.nd (.lf
  0x5582802f9498285582c02fa4982c5583002fb498305583402fc498345583802fd498385583c02fe4983c5584002ff49840497c52611498c5497c92612498c9497cd2613498cd497d12614498d1497d52615498d5497d92616498d9497dd2617498dd497e12618498e1497e52619498e5497e9261a498e9497ed261b498ed497f1261c498f1497f5261d498f5497f9261e498f9497fd261f498fd4980126204990149805262149905498092622499094980d26234990d4981126244991149815262549915498192626499194981d26274991d498212628499214982526294992549829262a499294982d262b4992d49831262c4993149835262d4993549839262e499394983d262f4993d49841263049941498c402e004700498c802e104704498cc02e204708498d002e30470c498d402e404710498d802e504714498dc02e604718498e002e70471c498e402e804720498e802e904724498ec02ea04728498f002eb0472c498f402ec04730498f802ed04734498fc02ee047384990002ef0473c4990402f0047404990802f1047444990c02f2047484991002f30474c4991402f4047504991802f5047544991c02f6047584992002f70475c4992402f804760)
  (.lf 0)) (.nd (.lf
  0xcdb0336e0cdb50cdb59e6a5883072a0d51d6567585675807fb420d072a3151df5677c5677c07e4420f4567a807ef42120420f407fb01fc04212007e601fec45ba8081b01fec547b0083b45ca845ca9174a45da945da8083b01fec01fed9e6a67a24027ed9e2c6792c6792d620c021ec67a254a0c588300cc599e2d021f0678b59e2c0cc480cc4833140cc4d0cc519e2c58830588307ea21fad01fc25cbb15c74872ec5cbb01fc101fc107f061fc151fc19cbb05c7441fc15cbb05e7441fad000005a7ae1fa387ea21fa281fa287e8c1fa2d1fa2c7ea25a7ac5a7adcbb072f3c72ec1cbaf1fc041fa3000001fa8a1fa887ea11fa1c1fa1c7e891fa211fa207ea15a7a872a2951dd5677472a2d51de567783f1a00a19027e43f1a40a1a027e8606bc0a393f220606c00a3a3f2243f22009f93f2a13f22409fa3f2a50cdb99e6a52830679a99e690cda40cda4336b0cda90cdad9e695282c0cda99e695882c72a0951d5567545675407fa420cc5677807e3420f072a5951e9567a4567a407ee4211c420f007fa01fbc4211c07e501fe845ba4081a01fe8547ac083a45ca445ca5174945da545da4083a01fe801fe99e6967a20679a59e680cd980cd9833680cd9d)
  (.lf 0))) (.nd (.nd (.lf
  0x590249af926c2426c2400005af6a5af69db8e76eb476eb573ce5ef385cf39dbcc76fac76fac0e784b4244b4260e9283ac483ac534094e8244e8260f0e83cb483c3a0f0d3aed43aed4ebb73aed93aede0f0d0025c3aeda0f0d500203ac1a0e924d02483a4a0e913ac043ac04eb033ac093ac0a0e914e820369fe03305102480cc2032f369ec369ecda7d369f1369f6032f4b4204c822032f80d3880d392d08510206981d6408031dc26eb9dbcc039e076f31dbcb26ea426ea49bab26ea926ea9dbcb4b42026d4ddb8e5ef3876e39db8d26d3c26d3c9b5126d4126d45db8d5cf3426b7c000026be626be49af826b6826b689adc26b6d26b6c9af85af64590209af826c2026c2000005af665af65db8d76eb076eb173cd5ef345cf35dbcb76fa876fa80e774b4204b4220e9183ac083ac134084e8204e8220f0d83cb083c360f0c3aec83aec8ebb43aecd3aed20f0c002583aece0f0c5001c3ac0e0e914d02083a460e903abf83abf8eb003abfd3abfe0e904e81c369f2032f5102080cbe032e369e0369e0da7a369e5369ea032e4b41c4c81e032e80d3480d352d075101c698196407031d826eaddbcb039dc76f2ddbca26e9826e989ba826e9d26e9ddbca4b41c)
  (.lf 0)) (.nd (.lf
  0xa33828d00a33d0a3419720520983e28c0634018505ff2806543e30c3e30c06143e38d0185196e165c0065c01602501a500a33d97205809865c81971f0a32c0a32c28cd0a33158099bcb71913c190c000006f2de6f2ddbcb6190ac0a1cd96e158094190ac642d190b1190b1bcb65a0500a331971f5809458095bcb619138190b400006f2da6f2d8642a190a4190a4642a580910a1c996e101a500a335971f5209465c7d971e0a320419540453011204450804730114c540100493446084460911a2447094470804930114c0114d971e65cf40a32028ca0a3250a325971e5809065b8596e00a1b865cf54824580900a1b828700a1bd0a1c196e05809058090642a5a04c0a329971e5209065c79971d0a3140a31428c70a3191914800005a06e1929464a7192991929dbcd85bfc819299bcd85dfc81914c00005a0725a071bcd86f3dc6f361bcd7192881928864a41928d1928dbcd75dfc45a06dbcd76f3d819291bcd75bfc46f35dbcd61927c1927c64a11928119285bcd65bfc019281bcd65dfc01914400005a06a5a069bcd66f3d46f359bcd51927019270649e1927519275bcd55dfbc1914000005a0665a065bcd56f3d019279bcd55bfbc6f355bcd419264)
  (.lf 0)))

def shaGateTree505 : BTree :=
  .nd (.nd (.nd (.lf
  0x29a11e1f7631e429751e17c5d1e8785f1e17b2973c2973ca5d12974129741e17b5f1e4295c400007859a785996c7e295b8295b96c7e592d103a8da8bc6a36c6a36d64b40438c10919a8bd043906a2f5a8bc109081090842441090d10911a8bc592d0592d16c7e5b1fc5b1fde17b786687866974795f1e45f1e5e1f778858787dde1f629a0029a00a68229a0529a09e1f6611e029a05e1f6631e029745e17b5d1e4785ede17a2973029730a5ce2973529735e17a5f1e01090da8bc0438c6a2f1a8bb108fc108fc42411090110905a8bb592cc592cc00005b1fa5b1f9e17a786647866574785f1e05f1e1e1f678854787d9e1f5299f4299f4a67f299f9299fde1f5611dc299f9e1f5631dc29739e17a5d1e0785e9e1792972429724a5cb2972929729e1795f1dc10901a8bb043886a2eda8ba108f0108f0423e108f5108f9a8ba592c803a85a8ba6a3646a36564b204384592c9e179786607866174775f1dc5f1dde1f5788502972de1795d1dc108f5a8ba043846a2e964b104381592c574765f1d8785e574765f1d95f1d98476631d8787d58476631d9631d80ed93cfbc788518477631dc631dc0eda3cfc0788558478631e0631e00edb3cfc4788598479631e4)
  (.lf 0)) (.nd (.lf
  0x5a37dc3b570f5070f5170c05e30070ed9c3b51c2941c29470a71c2991c29dc3b55c3005c301c3f3710481c431c3f74a7fc70f6170c45e3105c311c3f77105870fddc3f61c4201c420710a1c42570f5d70c35e30c5c30dc3f6710541c429c3f6025b41c425c3f64a7f870fd9c3f51c4141c41471071c4191c41dc3f5025b01c419c3f54a7f470f5970c25e3085c309c3f57105070fd5c3f41c4081c40871041c40d1c40dc3f44a7f01c411c3f4025ac70f5570c15e3045c305c3f47104c70fd1c3f31c3fc1c3fc71011c4011c401c3f34a7ec1c405c3f3025a870fcdc3f21c3f01c3f070fe1c3f51c3f9c3f2025a43c0a408e5023803c0a808e6023841c0e070711c0d01c0d070361c0d51c0d470715a36c3e9540906023986027009263e9d43e9d408e63ea5566a5148f7583dc0b4dd9a3801d9c668e19a370b4cc0b4cc2d350b4d10b4d59a37583dc023999a37669586695960f701d98583dc70711c1f81c20000005a37a1c1fc00005a3761c1f800005a36e1c3f5c3f24a7e81c299c3b55e30070ed5c3b41c2885a379c3b470f4c1c28870a41c28d1c291c3b45c2fc1c28dc3b45e2fc70ed1c3b31c27c1c27c70a11c2815a375c3b370f481c285c3b35c2f8)
  (.lf 0))) (.nd (.nd (.lf
  0x74a9972a45ea905ca91d2c574b9074b900d4e4af7c4af7e07fe820748207532df4e37c4e37e087a82264821ea08793886438864e21b388693886e08794b2f83886a08794fb78385aa07fe4cb7c81ffa07fd3859438594e167385993859a07fd4e3786877d4ade58b786868562de02d3422ef5d2c50353874b15d2c422ee022ee08bba22ee522ee5d2c44af7822d89d2875ea9074a1dd28622d7822d788b6022d7d22d81d2865ca8c22b90000022c6222c608b1722b7c22b7c8ae122b8122b808b175aae858b788b1722cb422cb400005aaea5aae9d28674a9474a9572a35ea8c5ca8dd2c474b8c74b8c0d4d4af784af7a07fd820708207132de4e3784e37a087982260821e608783885838858e2183885d3886208784b2f43885e08784fb743859e07fd4cb7881ff607fc3858838588e1643858d3858e07fc4e374687794add58b7422ee9d2c40353474b11d2c322ed422ed48bb722ed922ed9d2c34af7422d7dd2865ea8c74a19d28522d6c22d6c8b5d22d7122d75d2855ca8822b84000022c5e22c5c8b1622b7022b708ade22b7522b748b165aae458b748b1622cb022cb000005aae65aae5d28574a9074a9172a25ea885ca89d2c374b8874b880d4c4af74)
  (.lf 0)) (.nd (.lf
  0x7bff1effb2f9fc2f9fcbe812fa012fa05effb4bad82fa01effb4d2d87bfedeffa2f9f07c0a52ec54d3144bb15f0487c19c7c06d2eb74d2dc4baddf03a7c1647c0c52ecd4d3344bb35f0507c1bc7c0c92ece4d3382fc8df0514a7382fc89f051503384bb39f0517c1c07c145f0502fc782fc78bf202fc7d2fc81f0504a7342fc7df050503347c141f04f2fc6c2fc6cbf1d2fc712fc75f04f4a7307c0c12ecc4d3304bb31f04f7c1b82fc71f04f503307c13df04e2fc607c0bd2ecb4d32c4bb2df04e7c1b42fc60bf1a2fc652fc69f04e4a72c2fc65f04e5032c7c139f04d2fc542fc54bf172fc592fc59f04d503287c0b92eca4d3282fc5df04d4a7284bb29f04d7c1b07c135f04c2fc482fc48bf142fc4d2fc4df04c503247c0a92ec64d3184bb19f0497c1a02fc51f04c4a7247c0b52ec94d3244bb25f04c7c1ac7c131f04b2fc3c2fc3cbf112fc412fc45f04b4a7207c0b12ec84d3204bb21f04b7c1a82fc41f04b503207c12df04a2fc302fc30bf0e2fc352fc35f04a5031c2fc39f04a4a71c7c0ad2ec74d31c4bb1df04a7c1a47c129f0492fc242fc24bf0b2fc292fc29f049503182fc2df0494a7187c125f0482fc182fc18bf082fc1d2fc21f0484a714)
  (.lf 0)))

def shaGateTree506 : BTree :=
  .nd (.nd (.nd (.lf
  0x2b8e1e638555b02b8dde638575b0535b1e6387995c798e1e6372b8cc2b8ccae352b8d12b8d5e637555ac2b8d1e637575ac535ade63779958798dde6362b8c02b8c0ae322b8c52b8c9e636555a82b8c5e636575a8535a9e63679954798d9e6352b8b42b8b4ae2f2b8b92b8bde635555a42b8b9e635575a4535a5e63579950798d5e6342b8a82b8a8ae2c2b8ad2b8b1e634555a02b8ade634575a0535a1e6347994c798d1e6332b89c2b89cae292b8a12b8a5e6335559c2b8a1e6335759c5359de63379948798cde6322b8902b890ae262b8952b899e632555982b895e6325759853599e63279944798c9e6312b8842b884ae232b8892b88de631555942b889e6315759453595e63179940798c5e6302b8782b878ae202b87d2b881e630555902b87de6305759053591e6307993c798c1e62f2b86c2b86cae1d2b8712b875e62f5558c2b871e62f5758c5358de62f79938798bde62e2b8602b860ae1a2b8652b869e62e555882b865e62e5758853589e62e79934798b9e62d2b8542b854ae172b8592b85de62d555842b859e62d5758453585e62d79930798b5e62c2b8482b848ae142b84d2b851e62c555802b84de62c5758053581e62c7992c798b1e62b2b83c)
  (.lf 0)) (.nd (.lf
  0x71a79516b565ac565ac077041f2441ef8077c01dc441f24076701df0455ac079c01df0545b407bc456ac456ad15cb457ad457ac07bc01df001df19c7b67268671ed9c7a0c2700c270309e0c2750c2799c7a526303eda00999025e43eda4099a025e83eda8099b025ec3edac099c025f0604bc09b93ee2071d918130624c0604c009ba3ee2471d958131624c4604c409bb3ee2871d998132624c8604c809bc3ee2c3ee2009793eea13ee24097a3eea53ee28097b3eea93ee2c097c3eead71a6d5168565a071a715169565a471a49515f5657c71a2551565655856558077b41ed05657c076441ef471a75516a565a8565a8076f41f2041ef4077b01dc041f20076601dec455a8079b01dec545b007bb456a8456a915ca457a9457a807bb01dec01ded9c7a672640c2759c7a5863071a2151555655456554077a41ecc71a45515e5657856578076341ef0565a4076e41f1c41ef0077a01dbc41f1c076501de8455a4079a01de8545ac07ba456a4456a515c9457a5457a407ba01de801de99c7967260671e99c790c2640c264309b0c2690c2699c795862c0c26d9c795262c671e59c780c2580c25830980c25d52551c66871a1c71a1d51545655056550077941ec8)
  (.lf 0))) (.nd (.nd (.lf
  0x3ca940d61035f03ca980d62035f43ca9c0d63035f83caa00d64035fc3caa40d65035803caa80d66035843caac0d67035883cab00d680358c3cab40d69035903cab80d6a035943fdb80d9f035fc60cd40dbf3fe383fe380d7f3feb9035fda4006907c69001a3ff0ee2c0ee2c3b8d0ee310ee35a3ff58e3c3fda00d99035e43fda40d9a035e83fda80d9b035ec3fdac0d9c035f03fdb00d9d035f43fdb40d9e035f860cbc0db93fe2060cc00dba3fe2460cc40dbb3fe2860cc80dbc3fe2c60ccc0dbd3fe3060cd00dbe3fe343fe200d793fea13fe240d7a3fea53fe280d7b3fea93fe2c0d7c3fead3fe300d7d3feb13fe340d7e3feb5035f9a3ff690780ee31a3ff02ff868ffda3fe0ee200ee203b8a0ee250ee25a3fe02ff40ee29a3fe58e38035f5a3fe6907468ff9a3fd0ee14035f1a3fd690700ee143b870ee190ee19a3fd02ff00ee1da3fd58e3468ff5a3fc0ee080ee083b840ee0d0ee0da3fc02fec0ee11a3fc58e30035eda3fc6906c68ff1a3fb0edfc0edfc3b810ee010ee01a3fb02fe80ee05a3fb58e2c035e9a3fb6906868feda3fa0edf00edf03b7e0edf50edf9a3fa58e280edf5a3fa02fe4035e5a3fa6906468fe9a3f90ede40ede43b7b0ede9)
  (.lf 0)) (.nd (.lf
  0x95c194e057e500160d94e0653fc6538194df095ac095ac256d095b109771952451e6843edc03e800f2053de4040843fdc43fdd1017440dd440dc040800f2000f219523655086549195230975c0975c25d90976109761952357e6409765952351e646548d9522097500975025d60975509759952251e6009755952257e6043ed803e700f1c53de0040743fd843fd91016440d9440d8040700f1c00f1d952265504654899521097440974425d30974917589b8c75dd7c6e31db8c617578175785d601757d1757db8c65dd780629128984a258654115f99011201741400006e2ca6e2c85d021740465509479957e64174045d0257e6557e645d0259e3459e35b8c66e39417581b8c65bd786e319b8c51756c1756c5d5d1757117575b8c55bd746540d5f980111c65505479857e60174085d00173fc173fc5d0057e6157e605d0059e3059e31b8c56e390176f5b905018246e415b904176e0176e05dba176e5176e9b90401820176e5b9044a2646e3956f5e5dd785bd79b9046e48c6e411b903176d4176d45db7176d9176d9b9034a2606e3916f5d5dd745bd75b9036e4886e48806074a2604a261f5137d4c80629528994a25c6e48c06084a2644a265f5147d4cc)
  (.lf 0)))

def shaGateTree507 : BTree :=
  .nd (.nd (.nd (.lf
  0x5d440134004a405d480135004a805d4c0136004ac05d500137004b005d540138004b405d580139004b805d5c013a004bc05d60013b004c005d64013c004c405d68013d004c805d6c013e004cc05d70013f004d005d740120004d405d780121004d805d7c0122004dc05d800123004e005d840124004e405d880125004e805d8c0126004ec05d900127004f005d940128004f405d980129004f805d9c012a004fc05da0012b0048005da4012c0048405da8012d0048805dac012e0048c83318015d516b8516b8012f004908331c015e516bc516bc01300049483320015f516c0516c00131004984cf420d63836088358e0d623a5503a550e9563a5553a55a0d62005f83a5560d625173c4cf3e0d62836048358a0d613a5443a544e9533a5493a54e0d61005f43a54a0d61517384cf3a0d6183600835860d603a5383a538e9503a53d3a5420d60005f03a53e0d60517344cf360d60835fc835820d5f3a52c3a52ce94d3a5313a5360d5f005ec3a5320d5f517304cf320d5f835f88357e0d5e3a5203a520e94a3a5253a52a0d5e005e83a5260d5e5172c4cf2e0d5e835f48357a0d5d3a5143a514e9473a5193a51e0d5d005e43a51a0d5d517284cf2a0d5d835f0)
  (.lf 0)) (.nd (.lf
  0x52205bf766fe546fdd9bf751a4101a41069061a4151a419bf75542001a415bf755620052201bf756fe506fdd5bf741a4041a40469031a4091a40dbf74541fc1a409bf74561fc521fdbf746fe4c6fdd1bf731a3f81a3f869001a3fd1a401bf73541f81a3fdbf73561f8521f9bf736fe486fdcdbf721a3ec1a3ec68fd1a3f11a3f5bf72541f41a3f1bf72561f4521f5bf726fe446fdc9bf711a3e01a3e068fa1a3e51a3e9bf71541f01a3e5bf71561f0521f1bf716fe406fdc5bf701a3d41a3d468f71a3d91a3ddbf70541ec1a3d9bf70561ec521edbf706fe3c6fdc1bf6f1a3c81a3c868f41a3cd1a3cdbf6f561e8521e9bf6f6fe386fe915090562406fe89508e562386fe5d50835620c6fe39507a561e8561e8069f41b605620c068841b8456238069341bb041b84069f01a5041bb0068a01a7c44b3806bf01a7c5424006df44c3844c39132e44d3944d3806df01a7c01a7d991a664e41a3d1bf6f541e86fdbdbf6e1a3bc1a3bc68f11a3c11a3c1bf6e561e4521e5bf6e6fe346fe8d508f5623c6fe85508d562346fe595082562086fe355079561e46646999190aee40aee42bbb0aee90aeed9919522bc0aee99919582bc561e4069e41b5c56208068741b80)
  (.lf 0))) (.nd (.nd (.lf
  0x37418dd083741d3742204e84b0bc3741e04e84f93c811b6046c3714837148dc543714d3714e046c4e13c4ad3e046c8122c8122d324f4e13c4e13e04e88141c813a204e73740c3740cdd05374113741604e74b0b83741204e74f93837152046c4c93c811b2046b3713c3713cdc513714137142046b4e1384ad3a046b8122881229324e4e1384e13a04e7814188139e04e63740037400dd02374053740a04e64b0b43740604e64f93437146046b4c938811ae046a3713037130dc4e3713537136046a4e1344ad36046a8122481225324d4e1344e13604e6814148139a04e5373f4373f4dcff373f9373fe04e54b0b0373fa04e54f9303713a046a4c934811aa04693712437124dc4b371293712a04694e1304ad3204698122081221324c4e1304e13204e5814108139604e4373e8373e8dcfc373ed373f204e44b0ac373ee04e44f92c3712e04694c930811a604683711837118dc483711d3711e04684e12c4ad2e04688121c8121d324b4e12c4e12e04e48140c8139204e3373dc373dcdcf9373e1373e604e34b0a8373e204e34f9283712204684c92c811a204673710c3710cdc45371113711204674e1284ad2a04678121881219324a4e1284e12a04e381408)
  (.lf 0)) (.nd (.lf
  0x13711b01b013b86c06db01a136fc136fc4dc11370113705b01a013b46c0e404ed49df861a6004fb3b84461a7404e03b85861aa804ed3b88c3b84404ed013a03b85804f2013b43d970050d013b43d9f004ed3da71013b5927e64a7464a755efe00eb45b85daf166bcd46bcd404c149d483d9900515013d46ce0d7ea961aa46cde17e9e61a786ce297eb061ac05faa405333da086c0fc04f349e103da0804f33da8961a7804e13b85c61a8c04e63b87061ac004f33b8a43b85c04f3013b83b87004f8013cc3d9880513013cc013cd928464a8c3d9a8051b013ec12ef1af1749d4c6bc5daf1612ee012ee04bba12ee5084d191f700e08647dd91f6084c0084c02132084c5084c991f657b4812ee5af1649d4853ac40340436bc436bd0dcf437bd437bc034000c0053ac80341436c0436c10dd0437c1437c0034100c046ce2d7eb161ac45fac4053b3da283d99c0518013e03d9ac051c013f012ee9af16013046ce3d7eb561ad45fad4053f3da386c12c04ff49e406ce257eaf61abc6cdd97e9c61a7061a7004ff3b85461abc04f23b8a03b88c04ff013e83b8a004e4013fc3d9b8051f013fc3da3804ff3dab9013fd929064abc64a41928f088ec088ec223d088f1)
  (.lf 0)))

def shaGateTree508 : BTree :=
  .nd (.nd (.nd (.lf
  0x45b9ace56b4106b4114dbf596fc1201daca8047bc6b2a1aca71200c1200c48051201112015aca7596fc03eb9aca76b3186b31965bf047b8596fcb3cd2cf742cf7400005b6125b611e97f7a6787a67975845f6105f611e9fb7a8687a7ede9fa2d2fc2d2fcb4c12d3012d305e9fa6160c2d301e9fa6360c2d041e97f5d6107a5fde97e2d02c2d02cb40d2d0312d031e97e5f60c2ce7c00002cf362cf34b39c2ce6c2ce6cb39c596f95d40de5ae79734797340fad003b42b571e5af003b8796bde5ae2b5602b560ad5a2b5652b569e5ae03eb403eb5aca66b3146b31565be047b41217dace5536fc6b395ace41216812168485c1216d1216dace4596f8045b5ace46b40c6b40d4dbe596f812011aca7047b86b29daca6120001200048021200512009aca6596f8596f8b39c5b60c5b60de97e7a6747a67575835f60c5f60de9fa7a8647a7e9e9f92d2f02d2f0b4be2d2f52d2f9e9f9616082d2f5e9f9636082d035e97e5d60c7a5f9e97d2d0202d020b40a2d0252d025e97d5f6082ce70b39a2ce642ce64b39a596f55d409e5ad79730797300fac003b02b565e5ae003b4796b9e5ad2b5542b554ad572b5592b55de5ad03eb003eb1aca56b3106b31165bd047b0)
  (.lf 0)) (.nd (.lf
  0x605ac09f53f010605b009f63f014605b409f73f018605b809f83f01c605c009fa3f024605c409fb3f0283eff409ae3f0753eff809af3f0793effc09b03f07d3f00009b13f0813f00409b23f0853f00809b33f0893f00c09b43f08d3f01009b53f0913f01409b63f0953f01809b73f0993f01c09b83f09d3f02409ba3f0a53f02809bb3f0a90c6b19d3458730026ed9d346754c674d19d330c69c0c69c31a90c6a10c6a19d33020e8026e99d33675480c6a59d335872c674cd9d320c6900c69031a60c6950c6999d32587280c6959d32020e4674c99d310c6840c68431a30c6890c6899d31020e00c68d9d3158724026e19d3167540674c59d300c6780c67831a00c67d026dd9d306753c0c6819d30587200c67d9d30020dc674c19d2f0c66c0c66c319d0c6710c6759d2f5871c0c6719d2f020d8026d99d2f67538674bd9d2e0c6600c660319a0c6650c6699d2e58718026d59d2e675340c6659d2e020d4674b99d2d0c6540c65431970c6590c65d9d2d587140c6599d2d020d0026d19d2d67530674b59d2c0c6480c64831940c64d0c6519d2c587100c64d9d2c020cc026cd9d2c6752c674b19d2b0c63c0c63c31910c6410c6459d2b5870c026c99d2b67528)
  (.lf 0))) (.nd (.nd (.lf
  0x695514bcf58f3c694d9a5350f5340f5343d4f0f5390f539a53558f3c7678dd9e2260cc260cc9835260d1260d1d9e24b33c76695d9a425f6425f6497db25f6925f6dd9a45ce5025dc0975f25d7825d78975f58f3d58f3c975f5ae8c5ae8dd9a47670c7670d73945ee505ce51d9e276804768040e3e4b33c4b33e0d248350c8350d33cf4e73c4e73e0da0836fc836820d9f3a6ac3a6ace9ad3a6b13a6b60d9f001743a6b20d9f4ff383a3f20d244cf3c834920d233a3dc3a3dce8f93a3e13a3e20d234e738361d601c250f3c8070a01c1361c4361c4d873361c9361ce01c14b3384c73a01c180780807812cce50f380f53da53552f3c694d5a5340f5280f5283d4c0f52d02ef5a5346954c6954d4bce58f380f52da53458f38260d5d9e2038f876789d9e1260c0260c09832260c5260c5d9e14b33825f69d9a45ee5076691d9a325f5825f5897d825f5d25f61d9a35ce4c25d7c976f25d6c25d6c975d25d7125d70976f5ae8858f38976f25e0425e0400005ae8a5ae89d9a3767087670973935ee4c5ce4dd9e176800768000e3d4b3384b33a0d23835088350933ce4e7384e73a0d9f836f88367e0d9e3a6a03a6a0e9aa3a6a53a6aa0d9e001703a6a60d9e4ff34)
  (.lf 0)) (.nd (.lf
  0x31a41f58b4ee5031a45f58b4a5d07d62df58a31a3031a30c68e31a3531a39f58a4a5cc4d64df58a7d6a431a35f58a4ee4c7d629f58931a2431a24c68b31a2931a29f5894ee484d649f5897d6a07d6a129724ee484ee4928dc062f47d6fd29894eea44eea528dc4a3687d705298b4eeac4eead28de4a3706ebe56fb25dec86ebc96fab5deac6ebe96fb35decc5becdbb196ece06ebf16fb55ded45bed5bb1b6ece86ec6dbb1a186141861461871861918619bb1a4a3bc1861dbb1a019786ebed6fb45ded05bed1bb1a6ece46ec69bb19186081860861841860d18611bb19019741860dbb194a3b86ec65bb18185fc185fc61811860118605bb18019705bec9bb186ecdc18601bb184a3b46ec61bb17185f0185f0617e185f5185f9bb170196c185f5bb174a3b06ec5dbb16185e4185e4617b185e9185edbb1601968185e9bb164a3ac6ec59bb15185d8185d86178185dd185e1bb1501964185ddbb154a3a86ec55bb14185cc185cc6175185d1185d5bb1401960185d1bb144a3a46ec51bb13185c0185c06172185c5185c9bb130195c185c5bb134a3a06ec4dbb12185b4185b4616f185b9185bdbb1201958185b9bb124a39c6ebcd6fac5deb05beb1bb126ecc4)
  (.lf 0)))

def shaGateTree509 : BTree :=
  .nd (.nd (.nd (.lf
  0x3ce700e78039cc3ce740e79039d03ce780e7a039d43ce7c0e7b039d83ce800e7c039dc3ce840e7d039e03ce880e7e039e43ce8c0e7f039e83ce900e60039ec3ce940e61039f03ce980e62039f43ce9c0e63039f83cea00e64039fc3cea40e65039803cea80e66039843ceac0e67039883ceb00e680398c3ceb40e69039903ceb80e6a039944053c0e8003980405400e8103984405440e8203988405480e830398c4054c0e8403990405500e8503994405540e8603998405580e870399c4055c0e88039a0405600e89039a4405640e8a039a8405680e8b039ac4056c0e8c039b0405700e8d039b4405740e8e039b8405780e8f039bc4057c0e90039c0405800e91039c4405840e92039c8405880e93039cc4058c0e94039d0405900e95039d4405940e96039d8405980e97039dc4059c0e98039e0405a00e99039e4405a40e9a039e8405a80e9b039ec405ac0e9c039f0405b00e9d039f4405b40e9e039f8405b80e9f039fc610580ea0405bc6105c0ea1405c0610600ea2405c4610640ea3405c8610680ea4405cc6106c0ea5405d0610700ea6405d4610740ea7405d8610780ea8405dc6107c0ea9405e0610800eaa405e4610840eab405e8610880eac405ec)
  (.lf 0)) (.nd (.lf
  0x33e4dfbac4db1c7eeb1fbab33e3c33e3ccf9133e4133e45fbab4c3184a719fbab7ef287ef2930c64db184c319fbe97f0207efa5fbe833f9833f98cfe833f9d33fa1fbe84af1433f9dfbe850b1433e41fbab4db187eeadfbaa33e3033e30cf8e33e3533e39fbaa4c3144a715fbaa7ef247ef2530c54db144c315fbe87f01c7efa1fbe733f8c33f8ccfe533f9133f95fbe74af1033f91fbe750b1033e35fbaa4db147eea9fba933e2433e24cf8b33e2933e2dfba94c3104a711fba97ef207ef2130c44db104c311fbe77f0187ef9dfbe633f8033f80cfe233f8533f89fbe64af0c33f85fbe650b0c33e29fba94db107eea5fba833e1833e18cf8833e1d33e21fba84c30c4a70dfba87ef1c7ef1d30c34db0c4c30dfbe67f0147ef99fbe533f7433f74cfdf33f7933f7dfbe54af0833f79fbe550b0833e1dfba84db0c7eea1fba733e0c33e0ccf8533e1133e15fba74c3084a709fba77ef187ef1930c24db084c309fbe57f0107ef95fbe433f6833f68cfdc33f6d33f71fbe44af0433f6dfbe450b0433e11fba74db087ee9dfba633e0033e00cf8233e0533e09fba64c3044a705fba67ef147ef1530c14db044c305fbe47f00c7ef91fbe333f5c33f5ccfd933f61)
  (.lf 0))) (.nd (.nd (.lf
  0x68281629502c1021ca8872821c9c21c9c872858a5558a5487285a9c45a9c5d08d742b0742b1725a5e96821e59d08e5e96c74239d08d21e4821e48879421e4d21e51d08d5c9685c969d0cb743a87432dd0ca21fa421fa487eb21fa921fadd0ca0340c21fa9d0ca4ae500dab5a0bf52a54682fda0be0daa0462c80aa302a0c549d00ac3463c8463c91912464c9464c80ac302a0c02a0da0be68374683754a9458a503f6480ca30320c608e40cc33f6c83f6c80c833f7490d949a08102c1068205a0800d9380d93836500d93d0d941a08058a500320da0806827c21ca0872621c9421c94872658a516827d629402c0c0daa036aa0daa50daa5a0be58a5058a5087265a9c05a9c1d08c742ac742ad72595e96421e4dd08d5e96874235d08c21e3c21e3c879121e4121e45d08c5c9645c965d0ca743a474329d0c921f9821f9887e821f9d21fa1d0c90340821f9dd0c94ae4c21e41d08c5e96474231d08b21e3021e30878e21e350daa9a0be52a50682f9a0bd0da940da9436a70da99462c40aa202a08549cc0ac2463c4463c51911464c5464c40ac202a0802a09a0bd683703f6440ca203208608e00cc23f6c43f6c40c823f7450d93da08002c0c68201a07f0d92c)
  (.lf 0)) (.nd (.lf
  0x8ef823c008efd08f0193b051ce808efd93b057ce843a60038900da453c6803a943b6043b610ef843c6143c6003a900da400da593b064f3c64ec193af08eec08eec23bd08ef108ef193af57ce453c6403a843b5c43b5d0ef743c5d43c5c03a800da043a5c038800da000da193af64f3808ef593af51ce464ebd93ae08ee043a58038700d9c53c6003a743b5843b590ef643c5943c5803a700d9c00d9d93ae64f3408dad937400fac64dd1937308d9c08d9c236908da16c8ec052a49eec3b9b8052a014943db64054a014a85fb80056a3dbe43dbe4052a3dc65014a9937364e4808da1937300fa808da5937357cec64dcd937208d9008d90236608d956c8e4052849ee46c8e8052949ee83b9b005280148c3db5c0548014a05fb7805683dbdc3dbdc05283dc5d014a1937164e403b9b40529014903db600549014a45fb7c05693dbe03dbe005293dc61014a5937264e4408d95937200fa408d99937257ce864dc9937108d8408d84236308d8908d8d937157ce408d89937100fa064dc5937008d7808d78236008d7d08d81937057ce008ee023ba08ee508ee593ae57ce03b9ac05270148814511b2190149c3db5805470149c5fb7405673dbd83dbd805273dc59)
  (.lf 0)))

def shaGateTree510 : BTree :=
  .nd (.nd (.nd (.lf
  0x6a911aa431125c1125c44991126111265aa435949c5949caafa5b3c45b3c5e481792807928174ec5f3b05f3b1e4fd79470793f5e4fc2b0202b020ac0a2b0252b029e4fc613ac2b025e4fc633ac2ad65e4815d3b079205e4802ad502ad50ab562ad552ad55e4805f3ac2abe8aaf82abdc2abdcaaf8594995d1ade0c07837c7837c0f150015429281e0c10015878305e0c02927029270a49e2927529279e0c003c5403c55aa426a9846a985652604554113cdaa815349c6aa05aa80113b8113b844f0113bd113bdaa805949804355aa806aa7c6aa7d4d265949811261aa43045586a90daa42112501125044961125511259aa425949859498aaf85b3c05b3c1e4807927c7927d74eb5f3ac5f3ade4fc7946c793f1e4fb2b0142b014ac072b0192b01de4fb613a82b019e4fb633a82ad59e4805d3ac79201e47f2ad442ad44ab532ad492ad49e47f5f3a82abe0aaf62abd42abd4aaf6594955d1a9e0bf78378783780f140015029275e0c00015478301e0bf2926429264a49b292692926de0bf03c5003c51aa416a9806a981652504550113c1aa80534986aa01aa7f113ac113ac44ed113b1113b1aa7f5949404351aa7f6aa786aa794d255949411255aa4204554)
  (.lf 0)) (.nd (.lf
  0x5a481c5b671754716d9c5b51d0bc1d0bc74311d0c11d0c5c5b55c40066e41493b584ec1cf4400007167a7167873ce1cf341cf3473ce584ed584ec73ce5a47c1d0c1c5b55e4005a47dc5b571750716d5c5b41d0b01cf3873cc1cf2c1cf2c73cc584e93eb600949024a46037c09693ebe03ebe009293ec61024a59b3266d440baa19b3301ea866ccd9b320ba900ba902ea60ba950ba999b32584e866d45613a01ea466e3d493a584e8584e873cc5a4781d0b0742e1d0b51d0b5c5b45e3fc1d0b9c5b45c3fc5a479c5b47174c716d1c5b31d0a41d0a4742b1d0a91d0a9c5b35e3f87175571015e4040ba959b3201ea466cc99b310ba840ba842ea30ba890ba8d9b31584e43eb5c0948024a06037809683ebdc3ebdc09283ec5d024a19b3166d4066d41613901ea04525c074801ca05446407684535c4535d14f74545d4545c076801ca001ca19b6f66e3866e394939584e41cf3073ca1cf241cf2473ca584e50bbf19b6f584e4584e473ca5a4741cf29c59d1cf181cf1873c81cf1d1cf1dc59d5a470717a571155e4545c455c6087189c71821c6071d3141d31474c71d319717a171145e4507179d71135e44c1d31dc607026f85c451c607718981d319c6074a93c)
  (.lf 0))) (.nd (.nd (.lf
  0x5abd5d48d752b0752b172e15eb845cb85d4cb753a8753a80d8b4b0704b072096f8263882639331c4e4704e47209eb82828827ae09ea390b0390b0e42e390b5390ba09ea4b3ec390b609ea4fc6c38df6096f4cc70825be096e38de038de0e37a38de538de6096e4e46c0e4dda27802e2c689e1a2770e4cc0e4cc39350e4d10e4d5a27758c6c03429a27768a5868a59631b02e2823c91d4cb0362c7532dd4ca23c7c23c7c8f2123c8123c81d4ca4b06c23b25d48d5eb8475235d48c23b1423b148ec723b1923b1dd48c5cb80239b9d47a239a8239a88e6c239ad239add47a5abd058c6dd47a23a8423a8400005abd25abd1d48c752ac752ad72e05eb805cb81d4ca753a4753a40d8a4b06c4b06e096e8263482635331b4e46c4e46e09ea82824827aa09e9390a4390a4e42b390a9390ae09e94b3e8390aa09e94fc6838dea096e4cc6c825ba096d38dd438dd4e37738dd938dda096d4e4680e4d1a27702e28689dda2760e4c00e4c039320e4c50e4c9a27658c6803425a27668a5468a55631a02e2423c85d4ca0362875329d4c923c7023c708f1e23c7523c75d4c94b06823b19d48c5eb8075231d48b23b0823b088ec423b0d23b11d48b5cb7c239b00000751ea)
  (.lf 0)) (.nd (.lf
  0x30f85f3a64d57c7ce99f3a530f7430f74c3df30f7930f7df3a54bd786dca405cd4a1784a179f3a57cf1030f79f3a54d5787ce95f3a430f686dca005cc4a1744a175f3a47cf0c6db956f1d5dc7430f68c3dc30f6d30f71f3a44bd7430f6df3a44d5747ce91f3a330f5c30f5cc3d930f616dc9405c94a1686dc9c05cb4a1704a171f3a37cf0830f65f3a34bd7030f61f3a34d5707ce8df3a230f5030f50c3d630f5530f59f3a24bd6c30f55f3a24d56c6dc9805ca4a16c4a16df3a27cf047ce89f3a130f4430f44c3d330f495bc75b7046dc8c6dc8c05c74a1604a169f3a17cf0030f4df3a14bd6830f49f3a14d5687ce85f3a030f3830f38c3d030f3d30f41f3a04bd6430f3df3a04d5646dc9005c84a1644a165f3a07cefc7ce81f39f30f2c30f2cc3cd30f3130f35f39f4bd6030f31f39f4d5604a161f39f7cef87ce7df39e30f20061dd28574a15416891b7040171c6dc11b7031687c1687c5a211688116881b7034a15c6db916f1c5dc705bc71b7036dc886dc8805c64a15c4a15df39e7cef4061d928564a15030f20c3ca30f2530f29f39e4bd5c5bc6db7026dc8430f25f39e4d55c7ce79f39d30f1430f14c3c730f1930f1df39d4bd5816885b70301718)
  (.lf 0)))

def shaGateTree511 : BTree :=
  .nd (.nd (.nd (.lf
  0x84102103f3b5ac3b5aced6d3b5b13b5b6103f007cc3b5b2103f519103b45610024e9148400a10013b4443b444ed133b4493b44e10014d1103999e0b684fd9482da20b673998c3998ce66539991399960b674b510396d20aec4cd9482bb20aeb396bc396bce5b1396c1396c20aeb4e5904b1920aeb82c2882c2933644e5904e5920b6782e1882e192d444fd903723e04a05111481282049f3722c3722cdc8d3723137236049f4b5104c912049f812f8812f92d445111069ce54c445911069bed6444041cc27ce9ddc703ad07771dddc627cd427cd49f3727cd927cd9ddc64b51027b7ddd895f02877625dd8827b6c27b6c9edd27b7127b75dd885d024279f40000775c2775c1dd6f279e0279e09e7a279e5279e5dd6f5b05059111dd6f27a7827a7800005b0525b051dd887769c7769d74095f0245d025ddc677794777940eb34b5104b5121001840808408134444e9104d112103f84178840fe103e3b5a03b5a0ed6a3b5a53b5aa103e007c83b5a6103e5190c3b44a10014e9108400610003b4383b438ed103b43d3b44210004d10c399920b674fd9082d9e0b663998039980e662399853998a0b664b50c396c60aeb4cd9082bae0aea396b0396b0e5ae396b5)
  (.lf 0)) (.nd (.lf
  0x41aa80488012744483004bd0127454138069d4493044931126c44a3144a30069d01274012759820660fc660fd486e581b86f6655035560d4560d4049a41a4c6f689503e560f8560f8048341a706f6b550495612456124048e41a9c41a70049a0123c41a9c0485012684482404ba012686f6bd504b5612c5412c069a4492444925126944a2544a24069a0126801269981d660f0660f1486b581ac520d1bd796f660195a5bd79560d06f6615034560d0560d0049941a48560f4048241a6c6f6b150485612056120048d41a9841a6c04990123841a980484012646f6b9504a561284482004b9012645412806994492044921126844a2144a2006990126401265981c660ec660ed486a581a86f6695036560d8560d8049b41a506f68d503f560fc560fc048441a7456128048f41aa041a74049b0124041aa004860126c4482804bb0126c54130069b4492844929126a44a2944a28069b0126c0126d981e660f4660f5486c581b06f66d5037560dc560dc049c41a5456100048541a785612c049041aa441a78049c0124441aa40487012704482c04bc0127054134069c4492c4492d126b44a2d44a2c069c0127001271981f660f8660f9486d581b46f5e5bd7819594)
  (.lf 0))) (.nd (.nd (.lf
  0xd1f4347f0d1f90d1f99f2502af00d1fd9f2558934728780a3c4ab34028f19f2567d1067c959f240d1e80d1e8347c0d1ed0d1f19f24589300d1ed9f2402aec728740a3b4ab30028e99f2367d08028ed9f2467d0c67c919f230d1dc0d1dc34790d1e10d1e19f2302ae80d1e59f235892c67c8d9f220d1d00d1d034760d1d50d1d59f2202ae4028e59f2267d040d1d99f225892867c899f210d1c4028e19f2167d000d1c434730d1c90d1c99f2102ae00d1cd9f215892467c859f200d1b80d1b834700d1bd0d1bd9f2002adc0d1c19f2058920028dd9f2067cfc67c819f1f0d1ac0d1ac346d0d1b10d1b19f1f02ad80d1b59f1f5891c028d99f1f67cf867c7d9f1e0d1a00d1a0346a0d1a50d1a99f1e589180d1a59f1e02ad47285c0a354ab18028d59f1e67cf467c799f1d0d1940d19434670d1990d19d9f1d589140d1999f1d02ad0728580a344ab14028d19f1d67cf067c759f1c0d1880d18834640d18d0d1919f1c589100d18d9f1c02acc028cd9f1c67cec67c719f1b0d17c028c99f1b67ce80d17c34610d1810d1819f1b02ac80d1859f1b5890c67c6d9f1a0d1700d170345e0d175028c59f1a67ce40d1799f1a589080d1759f1a02ac467c699f190d164)
  (.lf 0)) (.nd (.lf
  0x7fec1ffd07ff107ff5910f57a8c3b6d92d834b5f863b092d83008c83d6852d634b60c4b60d910f644b807ff1910f00d486443d910e07fe007fe01ffa07fe507fe5910e00d445f91c04d13d7003b6d52d824b5f43d7012d823d78107fe9910e57a8863b052d82008c44b609910e644b464439910d07fd407fd41ff707fd907fdd910d57a8407fd9910d00d403b6d12d814b5f03d67d2d614b6045f91804d03d6fc63b012d81008c03d6fd2d813d77d4b605910d644b064435910c07fc807fc81ff407fcd07fcd910c00d3c645a1469f57a7c07fd1910c57a8064431910b07fbc07fbc1ff107fc107fc5910b57a7c57a7c4ef813c1813c18000059a6e644bd5ea400d4c645b546a457a9013b64000013be6644c15ea500d50645b946a557a9457a944ef913c1c13b604ef959a8413be44ed613b5413b544ed657a9157a904ed659a8013b584ed413b4c13b4c4ed457a8d644b15ea100d40645a546a057a80644b55ea200d44645a946a157a84644b95ea300d48645b146a357a8c57a8c4ed459a7c13b504ed213b4413b444ed257a8957a884ed259a7813b484ed013b3c13b3c4ed057a8557a844ed059a7413b404ece13b3413b344ece57a8157a804ece59a70)
  (.lf 0)))

/-- Gate codes: 56 bits each, 64 per leaf. -/
def shaGateTree : BTree :=
  .nd (.nd (.nd (.nd (.nd (.nd (.nd (.nd (.nd (shaGateTree0) (shaGateTree1)) (.nd (shaGateTree2) (shaGateTree3))) (.nd (.nd (shaGateTree4) (shaGateTree5)) (.nd
  (shaGateTree6) (shaGateTree7)))) (.nd (.nd (.nd (shaGateTree8) (shaGateTree9)) (.nd (shaGateTree10) (shaGateTree11))) (.nd (.nd (shaGateTree12) (shaGateTree13))
  (.nd (shaGateTree14) (shaGateTree15))))) (.nd (.nd (.nd (.nd (shaGateTree16) (shaGateTree17)) (.nd (shaGateTree18) (shaGateTree19))) (.nd (.nd (shaGateTree20)
  (shaGateTree21)) (.nd (shaGateTree22) (shaGateTree23)))) (.nd (.nd (.nd (shaGateTree24) (shaGateTree25)) (.nd (shaGateTree26) (shaGateTree27))) (.nd (.nd
  (shaGateTree28) (shaGateTree29)) (.nd (shaGateTree30) (shaGateTree31)))))) (.nd (.nd (.nd (.nd (.nd (shaGateTree32) (shaGateTree33)) (.nd (shaGateTree34)
  (shaGateTree35))) (.nd (.nd (shaGateTree36) (shaGateTree37)) (.nd (shaGateTree38) (shaGateTree39)))) (.nd (.nd (.nd (shaGateTree40) (shaGateTree41)) (.nd
  (shaGateTree42) (shaGateTree43))) (.nd (.nd (shaGateTree44) (shaGateTree45)) (.nd (shaGateTree46) (shaGateTree47))))) (.nd (.nd (.nd (.nd (shaGateTree48)
  (shaGateTree49)) (.nd (shaGateTree50) (shaGateTree51))) (.nd (.nd (shaGateTree52) (shaGateTree53)) (.nd (shaGateTree54) (shaGateTree55)))) (.nd (.nd (.nd
  (shaGateTree56) (shaGateTree57)) (.nd (shaGateTree58) (shaGateTree59))) (.nd (.nd (shaGateTree60) (shaGateTree61)) (.nd (shaGateTree62) (shaGateTree63)))))))
  (.nd (.nd (.nd (.nd (.nd (.nd (shaGateTree64) (shaGateTree65)) (.nd (shaGateTree66) (shaGateTree67))) (.nd (.nd (shaGateTree68) (shaGateTree69)) (.nd
  (shaGateTree70) (shaGateTree71)))) (.nd (.nd (.nd (shaGateTree72) (shaGateTree73)) (.nd (shaGateTree74) (shaGateTree75))) (.nd (.nd (shaGateTree76)
  (shaGateTree77)) (.nd (shaGateTree78) (shaGateTree79))))) (.nd (.nd (.nd (.nd (shaGateTree80) (shaGateTree81)) (.nd (shaGateTree82) (shaGateTree83))) (.nd (.nd
  (shaGateTree84) (shaGateTree85)) (.nd (shaGateTree86) (shaGateTree87)))) (.nd (.nd (.nd (shaGateTree88) (shaGateTree89)) (.nd (shaGateTree90) (shaGateTree91)))
  (.nd (.nd (shaGateTree92) (shaGateTree93)) (.nd (shaGateTree94) (shaGateTree95)))))) (.nd (.nd (.nd (.nd (.nd (shaGateTree96) (shaGateTree97)) (.nd
  (shaGateTree98) (shaGateTree99))) (.nd (.nd (shaGateTree100) (shaGateTree101)) (.nd (shaGateTree102) (shaGateTree103)))) (.nd (.nd (.nd (shaGateTree104)
  (shaGateTree105)) (.nd (shaGateTree106) (shaGateTree107))) (.nd (.nd (shaGateTree108) (shaGateTree109)) (.nd (shaGateTree110) (shaGateTree111))))) (.nd (.nd
  (.nd (.nd (shaGateTree112) (shaGateTree113)) (.nd (shaGateTree114) (shaGateTree115))) (.nd (.nd (shaGateTree116) (shaGateTree117)) (.nd (shaGateTree118)
  (shaGateTree119)))) (.nd (.nd (.nd (shaGateTree120) (shaGateTree121)) (.nd (shaGateTree122) (shaGateTree123))) (.nd (.nd (shaGateTree124) (shaGateTree125)) (.nd
  (shaGateTree126) (shaGateTree127)))))))) (.nd (.nd (.nd (.nd (.nd (.nd (.nd (shaGateTree128) (shaGateTree129)) (.nd (shaGateTree130) (shaGateTree131))) (.nd
  (.nd (shaGateTree132) (shaGateTree133)) (.nd (shaGateTree134) (shaGateTree135)))) (.nd (.nd (.nd (shaGateTree136) (shaGateTree137)) (.nd (shaGateTree138)
  (shaGateTree139))) (.nd (.nd (shaGateTree140) (shaGateTree141)) (.nd (shaGateTree142) (shaGateTree143))))) (.nd (.nd (.nd (.nd (shaGateTree144)
  (shaGateTree145)) (.nd (shaGateTree146) (shaGateTree147))) (.nd (.nd (shaGateTree148) (shaGateTree149)) (.nd (shaGateTree150) (shaGateTree151)))) (.nd (.nd (.nd
  (shaGateTree152) (shaGateTree153)) (.nd (shaGateTree154) (shaGateTree155))) (.nd (.nd (shaGateTree156) (shaGateTree157)) (.nd (shaGateTree158)
  (shaGateTree159)))))) (.nd (.nd (.nd (.nd (.nd (shaGateTree160) (shaGateTree161)) (.nd (shaGateTree162) (shaGateTree163))) (.nd (.nd (shaGateTree164)
  (shaGateTree165)) (.nd (shaGateTree166) (shaGateTree167)))) (.nd (.nd (.nd (shaGateTree168) (shaGateTree169)) (.nd (shaGateTree170) (shaGateTree171))) (.nd (.nd
  (shaGateTree172) (shaGateTree173)) (.nd (shaGateTree174) (shaGateTree175))))) (.nd (.nd (.nd (.nd (shaGateTree176) (shaGateTree177)) (.nd (shaGateTree178)
  (shaGateTree179))) (.nd (.nd (shaGateTree180) (shaGateTree181)) (.nd (shaGateTree182) (shaGateTree183)))) (.nd (.nd (.nd (shaGateTree184) (shaGateTree185)) (.nd
  (shaGateTree186) (shaGateTree187))) (.nd (.nd (shaGateTree188) (shaGateTree189)) (.nd (shaGateTree190) (shaGateTree191))))))) (.nd (.nd (.nd (.nd (.nd (.nd
  (shaGateTree192) (shaGateTree193)) (.nd (shaGateTree194) (shaGateTree195))) (.nd (.nd (shaGateTree196) (shaGateTree197)) (.nd (shaGateTree198)
  (shaGateTree199)))) (.nd (.nd (.nd (shaGateTree200) (shaGateTree201)) (.nd (shaGateTree202) (shaGateTree203))) (.nd (.nd (shaGateTree204) (shaGateTree205)) (.nd
  (shaGateTree206) (shaGateTree207))))) (.nd (.nd (.nd (.nd (shaGateTree208) (shaGateTree209)) (.nd (shaGateTree210) (shaGateTree211))) (.nd (.nd (shaGateTree212)
  (shaGateTree213)) (.nd (shaGateTree214) (shaGateTree215)))) (.nd (.nd (.nd (shaGateTree216) (shaGateTree217)) (.nd (shaGateTree218) (shaGateTree219))) (.nd (.nd
  (shaGateTree220) (shaGateTree221)) (.nd (shaGateTree222) (shaGateTree223)))))) (.nd (.nd (.nd (.nd (.nd (shaGateTree224) (shaGateTree225)) (.nd (shaGateTree226)
  (shaGateTree227))) (.nd (.nd (shaGateTree228) (shaGateTree229)) (.nd (shaGateTree230) (shaGateTree231)))) (.nd (.nd (.nd (shaGateTree232) (shaGateTree233)) (.nd
  (shaGateTree234) (shaGateTree235))) (.nd (.nd (shaGateTree236) (shaGateTree237)) (.nd (shaGateTree238) (shaGateTree239))))) (.nd (.nd (.nd (.nd (shaGateTree240)
  (shaGateTree241)) (.nd (shaGateTree242) (shaGateTree243))) (.nd (.nd (shaGateTree244) (shaGateTree245)) (.nd (shaGateTree246) (shaGateTree247)))) (.nd (.nd (.nd
  (shaGateTree248) (shaGateTree249)) (.nd (shaGateTree250) (shaGateTree251))) (.nd (.nd (shaGateTree252) (shaGateTree253)) (.nd (shaGateTree254)
  (shaGateTree255))))))))) (.nd (.nd (.nd (.nd (.nd (.nd (.nd (.nd (shaGateTree256) (shaGateTree257)) (.nd (shaGateTree258) (shaGateTree259))) (.nd (.nd
  (shaGateTree260) (shaGateTree261)) (.nd (shaGateTree262) (shaGateTree263)))) (.nd (.nd (.nd (shaGateTree264) (shaGateTree265)) (.nd (shaGateTree266)
  (shaGateTree267))) (.nd (.nd (shaGateTree268) (shaGateTree269)) (.nd (shaGateTree270) (shaGateTree271))))) (.nd (.nd (.nd (.nd (shaGateTree272)
  (shaGateTree273)) (.nd (shaGateTree274) (shaGateTree275))) (.nd (.nd (shaGateTree276) (shaGateTree277)) (.nd (shaGateTree278) (shaGateTree279)))) (.nd (.nd (.nd
  (shaGateTree280) (shaGateTree281)) (.nd (shaGateTree282) (shaGateTree283))) (.nd (.nd (shaGateTree284) (shaGateTree285)) (.nd (shaGateTree286)
  (shaGateTree287)))))) (.nd (.nd (.nd (.nd (.nd (shaGateTree288) (shaGateTree289)) (.nd (shaGateTree290) (shaGateTree291))) (.nd (.nd (shaGateTree292)
  (shaGateTree293)) (.nd (shaGateTree294) (shaGateTree295)))) (.nd (.nd (.nd (shaGateTree296) (shaGateTree297)) (.nd (shaGateTree298) (shaGateTree299))) (.nd (.nd
  (shaGateTree300) (shaGateTree301)) (.nd (shaGateTree302) (shaGateTree303))))) (.nd (.nd (.nd (.nd (shaGateTree304) (shaGateTree305)) (.nd (shaGateTree306)
  (shaGateTree307))) (.nd (.nd (shaGateTree308) (shaGateTree309)) (.nd (shaGateTree310) (shaGateTree311)))) (.nd (.nd (.nd (shaGateTree312) (shaGateTree313)) (.nd
  (shaGateTree314) (shaGateTree315))) (.nd (.nd (shaGateTree316) (shaGateTree317)) (.nd (shaGateTree318) (shaGateTree319))))))) (.nd (.nd (.nd (.nd (.nd (.nd
  (shaGateTree320) (shaGateTree321)) (.nd (shaGateTree322) (shaGateTree323))) (.nd (.nd (shaGateTree324) (shaGateTree325)) (.nd (shaGateTree326)
  (shaGateTree327)))) (.nd (.nd (.nd (shaGateTree328) (shaGateTree329)) (.nd (shaGateTree330) (shaGateTree331))) (.nd (.nd (shaGateTree332) (shaGateTree333)) (.nd
  (shaGateTree334) (shaGateTree335))))) (.nd (.nd (.nd (.nd (shaGateTree336) (shaGateTree337)) (.nd (shaGateTree338) (shaGateTree339))) (.nd (.nd (shaGateTree340)
  (shaGateTree341)) (.nd (shaGateTree342) (shaGateTree343)))) (.nd (.nd (.nd (shaGateTree344) (shaGateTree345)) (.nd (shaGateTree346) (shaGateTree347))) (.nd (.nd
  (shaGateTree348) (shaGateTree349)) (.nd (shaGateTree350) (shaGateTree351)))))) (.nd (.nd (.nd (.nd (.nd (shaGateTree352) (shaGateTree353)) (.nd (shaGateTree354)
  (shaGateTree355))) (.nd (.nd (shaGateTree356) (shaGateTree357)) (.nd (shaGateTree358) (shaGateTree359)))) (.nd (.nd (.nd (shaGateTree360) (shaGateTree361)) (.nd
  (shaGateTree362) (shaGateTree363))) (.nd (.nd (shaGateTree364) (shaGateTree365)) (.nd (shaGateTree366) (shaGateTree367))))) (.nd (.nd (.nd (.nd (shaGateTree368)
  (shaGateTree369)) (.nd (shaGateTree370) (shaGateTree371))) (.nd (.nd (shaGateTree372) (shaGateTree373)) (.nd (shaGateTree374) (shaGateTree375)))) (.nd (.nd (.nd
  (shaGateTree376) (shaGateTree377)) (.nd (shaGateTree378) (shaGateTree379))) (.nd (.nd (shaGateTree380) (shaGateTree381)) (.nd (shaGateTree382)
  (shaGateTree383)))))))) (.nd (.nd (.nd (.nd (.nd (.nd (.nd (shaGateTree384) (shaGateTree385)) (.nd (shaGateTree386) (shaGateTree387))) (.nd (.nd
  (shaGateTree388) (shaGateTree389)) (.nd (shaGateTree390) (shaGateTree391)))) (.nd (.nd (.nd (shaGateTree392) (shaGateTree393)) (.nd (shaGateTree394)
  (shaGateTree395))) (.nd (.nd (shaGateTree396) (shaGateTree397)) (.nd (shaGateTree398) (shaGateTree399))))) (.nd (.nd (.nd (.nd (shaGateTree400)
  (shaGateTree401)) (.nd (shaGateTree402) (shaGateTree403))) (.nd (.nd (shaGateTree404) (shaGateTree405)) (.nd (shaGateTree406) (shaGateTree407)))) (.nd (.nd (.nd
  (shaGateTree408) (shaGateTree409)) (.nd (shaGateTree410) (shaGateTree411))) (.nd (.nd (shaGateTree412) (shaGateTree413)) (.nd (shaGateTree414)
  (shaGateTree415)))))) (.nd (.nd (.nd (.nd (.nd (shaGateTree416) (shaGateTree417)) (.nd (shaGateTree418) (shaGateTree419))) (.nd (.nd (shaGateTree420)
  (shaGateTree421)) (.nd (shaGateTree422) (shaGateTree423)))) (.nd (.nd (.nd (shaGateTree424) (shaGateTree425)) (.nd (shaGateTree426) (shaGateTree427))) (.nd (.nd
  (shaGateTree428) (shaGateTree429)) (.nd (shaGateTree430) (shaGateTree431))))) (.nd (.nd (.nd (.nd (shaGateTree432) (shaGateTree433)) (.nd (shaGateTree434)
  (shaGateTree435))) (.nd (.nd (shaGateTree436) (shaGateTree437)) (.nd (shaGateTree438) (shaGateTree439)))) (.nd (.nd (.nd (shaGateTree440) (shaGateTree441)) (.nd
  (shaGateTree442) (shaGateTree443))) (.nd (.nd (shaGateTree444) (shaGateTree445)) (.nd (shaGateTree446) (shaGateTree447))))))) (.nd (.nd (.nd (.nd (.nd (.nd
  (shaGateTree448) (shaGateTree449)) (.nd (shaGateTree450) (shaGateTree451))) (.nd (.nd (shaGateTree452) (shaGateTree453)) (.nd (shaGateTree454)
  (shaGateTree455)))) (.nd (.nd (.nd (shaGateTree456) (shaGateTree457)) (.nd (shaGateTree458) (shaGateTree459))) (.nd (.nd (shaGateTree460) (shaGateTree461)) (.nd
  (shaGateTree462) (shaGateTree463))))) (.nd (.nd (.nd (.nd (shaGateTree464) (shaGateTree465)) (.nd (shaGateTree466) (shaGateTree467))) (.nd (.nd (shaGateTree468)
  (shaGateTree469)) (.nd (shaGateTree470) (shaGateTree471)))) (.nd (.nd (.nd (shaGateTree472) (shaGateTree473)) (.nd (shaGateTree474) (shaGateTree475))) (.nd (.nd
  (shaGateTree476) (shaGateTree477)) (.nd (shaGateTree478) (shaGateTree479)))))) (.nd (.nd (.nd (.nd (.nd (shaGateTree480) (shaGateTree481)) (.nd (shaGateTree482)
  (shaGateTree483))) (.nd (.nd (shaGateTree484) (shaGateTree485)) (.nd (shaGateTree486) (shaGateTree487)))) (.nd (.nd (.nd (shaGateTree488) (shaGateTree489)) (.nd
  (shaGateTree490) (shaGateTree491))) (.nd (.nd (shaGateTree492) (shaGateTree493)) (.nd (shaGateTree494) (shaGateTree495))))) (.nd (.nd (.nd (.nd (shaGateTree496)
  (shaGateTree497)) (.nd (shaGateTree498) (shaGateTree499))) (.nd (.nd (shaGateTree500) (shaGateTree501)) (.nd (shaGateTree502) (shaGateTree503)))) (.nd (.nd (.nd
  (shaGateTree504) (shaGateTree505)) (.nd (shaGateTree506) (shaGateTree507))) (.nd (.nd (shaGateTree508) (shaGateTree509)) (.nd (shaGateTree510)
  (shaGateTree511)))))))))

def shaWireTree0 : BTree :=
  .nd (.nd (.nd (.lf
  0x7f0000000007d0000000007b00000000079000000000770000000007500000000073000000000710000000006f0000000006d0000000006b00000000069000000000670000000006500000000063000000000610000000005f0000000005d0000000005b00000000059000000000570000000005500000000053000000000510000000004f0000000004d0000000004b00000000049000000000470000000004500000000043000000000410000000003f0000000003d0000000003b00000000039000000000370000000003500000000033000000000310000000002f0000000002d0000000002b00000000029000000000270000000002500000000023000000000210000000001f0000000001d0000000001b00000000019000000000170000000001500000000013000000000110000000000f0000000000d0000000000b0000000000900000000007000000000050000000000300000000001)
  (.lf
  0x4abe0985dd04abb4985bd04ab889859d04ab5c9857d04ab309855d04ab049853d04aad89851d04aaac984fd04aa80984dd04aa54984bd04aa289849d04a9fc9847d04a9d09845d04a9a49843d04a9689841104aea4983ecc4ae7c983ccc4ae50983acc4ae249838cc4adf89836cc4adcc9834cc4ada09832cc4ad749830cc4ad48982ecc4ad1c982ccc4acf0982acc4acc49828cc4ac989826cc4ac6c9824cc4ac409822cc4ac149820cc4abe8981ecc4abbc981ccc4ab90981acc4ab649818cc4ab389816cc4ab0c9814cc4aae09812cc4aab49810cc4aa88980ecc4aa5c980ccc4aa30980acc4aa049808cc4a9d89806cc4a9ac9804cc4a9809802cc4ae8c983dd04ae60983bd04ae349839d04ae089837d04addc9835d04adb09833d04ad849831d04ad58982fd04ad2c982dd04ad00982bd04acd49829d04aca89827d04ac7c9825d04ac509823d04ac249821d04abf8981fd04abcc981dd04aba0981bd0))
  (.nd (.lf
  0x266f0522050266f4521e50266f8521c50266fc521a502670052185026704521650267085214502670c5212502671052105026714520e5026718520c502671c520a502672052085026724520650267285204502672c52025026730520050267b4563e78267b8563c78267bc563a78267c0563878267c4563678267c8563478267cc563278267d0563078267d4562e78267d8562c78267dc562a78267e0562878267e4562678267e8562478267ec562278267f0562078267f4561e78267f8561c78267fc561a782680056187826804561678268085614782680c5612782681056107826814560e7826818560c782681c560a782682056087826824560678268285604782682c56027826830560078289e4563e50289e8563c50289ec563a50289f0563850289f4563650289f8563450289fc56325028a0056305028a04562e5028a08562c5028a0c562a5028a1056285028a1456265028a1856245028a1c562250)
  (.lf 0))) (.nd (.nd (.lf
  0x425bc8724a04247087221e424588722b442474872214421ac87201e423a48720b442424872014420d8871d40421a4871ea0420b4871bf4420bc871ca04208c871a1e420ac871ab4420b0871a1442034871740420648718a041ffc871540420048716a041e4887134041fa08714a041e048711f441e448712a041dfc87101e41ddc8710b441e0087101441cec870d4041dd4870ea041cc8870bf441ce8870ca041bc4870a1e41cc0870ab441cc4870a1441bb88708b441bbc87081440ed487fc7840ed087fcb440ed887fc3040ebc87fa7840ec087fab440ec487fa3040ea487f87840eac87f8b440eb087f83040e9087f67840e9887f6b440e9c87f63040e8087f47840e8487f4b440e8887f43040e6887f27840e7087f2b440e7487f23040e5c87f07840e5887f0b440e6087f03040e4087ee7840e4887eeb440e4c87ee3040e3487ec7840e3087ecb440e3887ec3040e1887ea7840e2087eab440e2487ea30)
  (.lf 0)) (.nd (.lf
  0x5a994ba13b05a848ba11b05a818ba0fb05a7f8ba0db05a7e0ba0bb05a744ba09b05a614ba07b05a3c0ba05b05a3c4ba03b059fe8ba01b05e054be3fb05df9cbe3db05df30be3bb05dd70be39b05dd98be37b05dc30be35b05dc14be33b05dbb0be31b05da50be2fb05db8cbe2db05d9c8be2bb05d938be29b05d8ccbe27b05d8b8be25b05d808be23b05d7a0be21b05d71cbe1fb05d6a8be1db05d68cbe1bb05d614be19b05d590be17b05d504be15b05d518be13b05d490be11b05d418be0fb05d3dcbe0db05d348be0bb05d328be09b05d28cbe07b05d26cbe05b05d1e0be03b05c484be01b0602d8c23fb060284c23db0600bcc23bb0600c4c239b0600ccc237b0600d4c235b0600dcc233b060030c231b05fcd8c22fb05fcdcc22db05fce0c22bb05fce4c229b05fce8c227b05f3e8c225b05f3bcc223b05f3c0c221b05f3c4c21fb05f2d8c21db05f2dcc21bb05f284c219b05f288c217b05f28cc215b0)
  (.lf 0)))

def shaWireTree1 : BTree :=
  .nd (.nd (.nd (.lf
  0x18a484d96b418a4c4d963018a344d947818a384d94b418a3c4d943018a204d927818a244d92b418a284d923018a104d907818a084d90b418a144d9030189f44d8e78189f04d8eb4189fc4d8e30189e04d8c78189dc4d8cb4189e84d8c30189d04d8a78189cc4d8ab4189d44d8a30189b84d8878189bc4d88b4189c04d8830189a84d8678189ac4d86b4189b04d86301896c4d8478189704d84b4189744d8430189344d82781814c4d82b4189384d823020ec4517c7820ec8517cb420ed0517c3020eb8517a7820eb4517ab420ebc517a3020ea451787820ea05178b420ea851783020e8c51767820e945176b420e9851763020e8051747820e785174b420e8451743020e6451727820e685172b420e6c51723020e4851707820e4c5170b420e5051703020e3c516e7820e38516eb420e40516e3020e24516c7820e2c516cb420e30516c3020e14516a7820e18516ab420e1c516a3020e0451687820e085168b4)
  (.lf 0)) (.nd (.lf
  0x1ed380044fd1ed400044fb1ed480044f91ed500044f71ed580044f51ed600044f31ed680044f11ed700044ef1ed780044ed1ed800044eb1ed880044e91ed900044e71ed980044e51eda00044e31eda80044e1199840044df1998c0044dd199940044db1999c0044d9199a40044d7199ac0044d5199b40044d3199bc0044d1199c40044cf199cc0044cd19a2c0044cb19a340044c919a3c0044c719a440044c519a4c0044c319a540044c119a5c0044bf19a640044bd19a6c0044bb19a740044b919a7c0044b719a840044b519a8c0044b319a940044b119a9c0044af19aa40044ad19aac0044ab19ab40044a919abc0044a719ac40044a519acc0044a319ad40044a12313c00449f2314400449d2314c00449b231540044992315c004497231640044952316c004493231740044912317c00448f2318400448d231e400448b231ec004489231f4004487231fc004485232040044832320c0044812321400447f)
  (.lf 0))) (.nd (.nd (.lf
  0x71f40ec887871f44ec883071eb0ec86b471ec8ec867871eccec863071e30ec84b471ea4ec847871ea8ec843071e18ec82b471e20ec827871e24ec82307370cec7cb473710ec7c7873714ec7c30736f8ec7ab4736ecec7a78736fcec7a30736d8ec78b4736d4ec7878736dcec7830736b4ec76b4736b8ec7678736bcec7630736a8ec74b4736a4ec7478736acec743073694ec72b473698ec72787369cec723073678ec70b473680ec707873684ec703073654ec6eb473650ec6e7873658ec6e3073644ec6cb473640ec6c7873648ec6c3073634ec6ab47362cec6a7873638ec6a3073620ec68b473618ec687873624ec683073608ec66b4735fcec66787360cec6630735f0ec64b4735ecec6478735f4ec6430735c8ec62b4735d8ec6278735dcec6230735acec60b473564ec6078735b0ec603073530ec5eb473550ec5e7873554ec5e307351cec5cb473524ec5c7873528ec5c3073510ec5ab473500ec5a78)
  (.lf 0)) (.nd (.lf
  0x5b8f0baa1d05b8d4ba9fd05b8c0ba9dd05b8b0ba9bd05b898ba99d05b884ba97d05b870ba95d05b860ba93d05b850ba91d05b838ba8fd05b824ba8dd05b814ba8bd05b7fcba89d05b7e8ba87d05b7d4ba85d05b7c4ba83d05b7b4ba81105d004ba7ecc5cf8cba7ccc5cef8ba7acc5ce80ba78cc5cdf4ba76cc5cd68ba74cc5cce0ba72cc5cc70ba70cc5cbe8ba6ecc5cb6cba6ccc5caecba6acc5ca7cba68cc5ca04ba66cc5c9b0ba64cc5c8ecba62cc5c8a8ba60cc5c864ba5ecc5c814ba5ccc5c7c8ba5acc5c790ba58cc5c740ba56cc5c700ba54cc5c6bcba52cc5c674ba50cc5c634ba4ecc5c574ba4ccc5c548ba4acc5c520ba48cc5c500ba46cc5c580ba44cc5c2d0ba42cc5cf98ba7dd05cf5cba7bd05ce8cba79d05ce4cba77d05cd78ba75d05ccf8ba73d05cc80ba71d05cc04ba6fd05cbc0ba6dd05cb14ba6bd05ca78ba69d05ca28ba67d05c9a8ba65d05c8e4ba63d05c8a0ba61d05c85cba5fd0)
  (.lf 0)))

def shaWireTree2 : BTree :=
  .nd (.nd (.nd (.lf
  0x80e1105547880e190554b480e1d05543080dd505527880df10552b480df505523080d9905507880d9d0550b480dc105503080d8d054e7880d89054eb480d91054e3080d6d054c7880d7d054cb480d81054c3080d51054a787f451054ab480d55054a307f4410548787f4450548b47f4490548307f31d0546787f4290546b47f42d0546307f30d0544787f3110544b47f3150544307f02d0542787f26d0542b47f2910542308057505bc78804ed05bcb48057905bc30804dd05ba78804e105bab4804e505ba308045105b878804d105b8b4804d505b8308044505b6788041905b6b48044905b6308040505b478803e905b4b48040905b4308038105b2788033105b2b48038505b230802c505b078802b505b0b4802c905b0308029505ae788029105aeb48029905ae308028505ac788028105acb48028905ac308027505aa788003505aab48027905aa308002905a8788002505a8b48002d05a8308000905a678)
  (.lf 0)) (.nd (.lf
  0x1065c2fa078106602f9e78106642f9c78106682f9a781066c2f9878106702f9678106742f9478106782f92781067c2f9078106802f8e78106842f8c78106882f8a781068c2f8878106902f8678106942f8478106982f82781069c2f807811ddc2fbe3011de02fbc3011de42fba3011de82fb83011dec2fb63011df02fb43011df42fb23011df82fb03011dfc2fae3011e002fac3011e042faa3011e082fa83011e0c2fa63011e102fa43011e142fa23011e182fa03011e1c2f9e3011e202f9c3011e242f9a3011e282f983011e2c2f963011e302f943011e342f923011e382f903011e3c2f8e3011e402f8c3011e442f8a3011e482f883011e4c2f863011e502f843011e542f823011e582f80301363c33beb41364033bcb41364433bab41364833b8b41364c33b6b41365033b4b41365433b2b41365833b0b41365c33aeb41366033acb41366433aab41366833a8b41366c33a6b41367033a4b41367433a2b4)
  (.lf 0))) (.nd (.nd (.lf
  0x186543f2b401868c3f2ca0186183f29f4186503f2aa0185d43f281e186103f28b4186143f2814185903f261e185c83f26b4185cc3f2614185543f23f4185883f24a0185143f221e1854c3f22b4185503f2214184d03f201e185083f20b41850c3f20141848c3f1e1e184c43f1eb4184c83f1e14184483f1c1e184803f1cb4184843f1c14184043f1a1e1843c3f1ab4184403f1a14183c03f181e183f83f18b4183fc3f1814183843f1540183b83f16a01834c3f1340183803f14a0183143f11f4183483f12a0182d43f101e1830c3f10b4183103f1014182983f0df4182cc3f0ea0182583f0c1e182903f0cb4182943f0c14182143f0a1e1824c3f0ab4182503f0a14181d03f081e182083f08b41820c3f0814181c83f06a017e243ffc7817e203ffcb417e283ffc3017e103ffa7817e0c3ffab417e143ffa3017dfc3ff87817df83ff8b417e003ff83017de83ff67817de43ff6b417dec3ff63017dd43ff478)
  (.lf 0)) (.nd (.lf
  0x3afc089becc3af8089bccc3abd489bacc3abbc89b8cc3aba489b6cc3abac89b4cc3aad489b2cc3aac089b0cc3abe489aecc3a98c89accc3a94889aacc3a93089a8cc3a91089a6cc3a8e089a4cc3a88c89a2cc3a8b889a0cc3a688899ecc3a63c899ccc3a5dc899acc3a57c8998cc3a4cc8996cc3a4bc8994cc3a4488992cc3a4048990cc3a330898ecc3a0e8898ccc3a0d4898acc3a0bc8988cc3a0ac8986cc3a0988984cc39df08982cc3af7c89bdd03ad5489bbd03ad4089b9d03ad2c89b7d03ad1889b5d03aca489b3d03ac9089b1d03ac7c89afd03aa2089add03aa0c89abd03a9f889a9d03a9e489a7d03a9d089a5d03a9bc89a3d03a9a889a1d03a698899fd03a654899dd03a5fc899bd03a5a08999d03a5088997d03a4f48995d03a45c8993d03a4148991d03a340898fd03a144898dd03a130898bd03a11c8989d03a1088987d03a0908985d039e188983d039e008981103e6b48d7ecc3e69c8d7ccc)
  (.lf 0)))

def shaWireTree3 : BTree :=
  .nd (.nd (.nd (.lf
  0x66f00cfd63066ee0cfd47866ee8cfd4b466eeccfd43066ed4cfd27866ecccfd2b466ed8cfd23066eb4cfd07866ec0cfd0b466ec4cfd03066e6ccfce7866ea8cfceb466eaccfce3066e58cfcc7866e50cfccb466e5ccfcc3066e44cfca7866e3ccfcab466e48cfca3066e30cfc87866e28cfc8b466e34cfc83066e18cfc67866e1ccfc6b466e20cfc6306674ccfc47866e08cfc4b466e0ccfc430666f0cfc27866740cfc2b466744cfc23069308d2bc7869304d2bcb46930cd2bc30692f0d2ba78692f8d2bab4692fcd2ba30692e0d2b878692d8d2b8b4692e8d2b830692c8d2b678692c4d2b6b4692ccd2b630692b8d2b478692b4d2b4b4692bcd2b430692a4d2b278692a0d2b2b4692a8d2b23069290d2b07869294d2b0b469298d2b0306927cd2ae7869278d2aeb469284d2ae306926cd2ac7869268d2acb469270d2ac306924cd2aa7869254d2aab46925cd2aa3069240d2a8786923cd2a8b469244d2a830)
  (.lf 0)) (.nd (.lf
  0x61aecc31d4a61aacc31ab461a5cc318b461a04c316b4619acc314b4616b0c312b461634c3114a615f8c30eb4615a8c30cb4614ccc30ab461420c3094a61388c306b4612ccc3054a612bcc302aa60e98c2c0cc6448cc73eb464480c73cb464460c73ab4640e0c7394a640c4c7374a640acc7354a64094c7334a6407cc730b464070c72eb464014c72cb463fd4c72b4a63fb8c7294a63f6cc726b463ce8c7254a63bb8c7234a63b8cc7214a63b80c71eb463a88c71d4a63a48c71b4a63a24c718b4639e8c7174a63654c7154a63644c712b463634c710b463624c70eb463400c70cb463120c70ab4630ccc708b462f78c706aa62d14c6c52c62c7cc6c32c62c28c6c0cc665f0cb3eb4665e4cb3cb4665d0cb3b4a665c0cb38b4665b0cb36b466598cb354a6657ccb334a664accb314a664a0cb2eb46648ccb2d4a66470cb2ab466464cb28b4664c4cb274a66448cb24b4663e8cb22b466388cb20b466328cb1eb4)
  (.lf 0))) (.nd (.nd (.lf
  0x35b84700a3035a7c7008b435afc70087835b00700830359f87006b435a7070067835a74700630359787004b4359ec700478359f0700430358f87002b43596c7002783597070023037d6074bcb437d5c74bc7837d6474bc3037d3874bab437d3474ba7837d3c74ba3037d0c74b8b437d0874b87837d1074b83037ce074b6b437cdc74b67837ce474b63037cb474b4b437cb074b47837cb874b43037c8874b2b437c8474b27837c8c74b23037c5c74b0b437c5874b07837c6074b03037c3074aeb437c2c74ae7837c3474ae3037c0474acb437c0074ac7837c0874ac3037bd874aab437bd474aa7837bdc74aa3037bac74a8b437ba874a87837bb074a83037b8074a6b437b7c74a67837b8474a63037b5474a4b437b5074a47837b5874a43037b2874a2b437b2474a27837b2c74a23037afc74a0b437af874a07837b0074a03037ad0749eb437acc749e7837ad4749e3037aa4749cb437aa0749c7837aa8749c30)
  (.lf 0)) (.nd (.lf
  0x1527837dfd01526437ddd01525037dbd01523c37d9d01522837d7d01521437d5d01520037d3d0151a837d1d01514c37cfd0150f437cdd01509c37cbd01504437c9d014fec37c7d014f9437c5d014f3c37c3d014ee037c11016a343abecc16a3c3abccc16a443abacc16a4c3ab8cc16a543ab6cc16a5c3ab4cc16a643ab2cc16a6c3ab0cc16a743aaecc16a7c3aaccc16a843aaacc16a8c3aa8cc16a943aa6cc16a9c3aa4cc16aa43aa2cc16aac3aa0cc16ab43a9ecc16abc3a9ccc16ac43a9acc16acc3a98cc16ad43a96cc16adc3a94cc16ae43a92cc16aec3a90cc16af43a8ecc16afc3a8ccc16b043a8acc16b0c3a88cc16b143a86cc16b1c3a84cc16b243a82cc172a83abdd0172703abbd0172343ab9d0171f03ab7d0171a83ab5d0171683ab3d0171283ab1d0170e43aafd0170a03aadd01705c3aabd0170203aa9d016fe03aa7d016f9c3aa5d016f583aa3d016f1c3aa1d016ee43a9fd016eac3a9dd0)
  (.lf 0)))

def shaWireTree4 : BTree :=
  .nd (.nd (.nd (.lf
  0x1bcc11bf2c01ba411bd2c01b7811bb2c01b4c11b92c01b2011b72c01af411b52c01ac811b32c01a9c11b12c01a7011af2c01a4411ad2c01a1811ab2c019ec11a92c019c011a72c0199411a52c0196811a32c0193c11a12c01910119f2c018e4119d2c018b8119b2c0188c11992c0186011972c0183411952c0180811932c017dc11912c017b0118f2c01784118d2c01758118b2c0172c11892c0170011872c016d411852c016a811832c0161c1180cc03dd015bf2c03d5c15bd2c03cd015bb2c03c4415b92c03be415b72c03b6415b52c03ae415b32c03a3815b12c039d815af2c0395815ad2c038ac15ab2c0382015a92c037c015a72c0371415a52c0368815a32c035fc15a12c0359c159f2c034f0159d2c03490159b2c0341015992c0339015972c032e415952c0328415932c0320415912c03158158f2c030f8158d2c03078158b2c02fcc15892c02f6c15872c02eec15852c02e6c15832c02e0c1580cc)
  (.lf
  0x1ff384065d01fe804063d01fdc04061d01fd00405fd01fc44405dd01fb88405bd01fac44059d01fa0c4057d01f94c4055d01f8944053d01f7dc4051d01f720404fd01f65c404dd01f59c404bd01f4e04049d01f42c4047d01f3744045d01f2b04043d01f180404110207f4403ecc20750403ccc2068c403acc205d44038cc2051c4036cc204604034cc203a44032cc202f04030cc20230402ecc20178402ccc200c0402acc200044028cc1ff404026cc1fe884024cc1fdc84022cc1fd084020cc1fc4c401ecc1fb90401ccc1facc401acc1fa144018cc1f9544016cc1f89c4014cc1f7e44012cc1f7284010cc1f664400ecc1f5a4400ccc1f4e8400acc1f4344008cc1f37c4006cc1f2b84004cc1f1e84002cc207dc403dd020734403bd0206704039d0205b84037d0205004035d0204444033d0203884031d0202d4402fd020214402dd02015c402bd0200a44029d01ffe84027d01ff244025d01fe6c4023d0))
  (.nd (.lf
  0x6cb20dba0b46cac8db9eb46ca4cdb9cb46c8d0db9ab46c878db98b46c8acdb96b46c6e8db94b46c12cdb92b46bfdcdb90b46bfa8db8eb46bec0db8cb46be30db8ab46bda8db88b46bd18db86b46bca0db84b46bc04db82b46b8b4db80b46add4dbbe786ae08dbbc786ad74dbba786acc8dbb8786ac1cdbb6786abb0dbb4786ab5cdbb2786ab10dbb0786aab0dbae786aa70dbac786a97cdbaa786a958dba8786a900dba6786a8d0dba4786a870dba2786a84cdba0786a81cdb9e786a9ccdb9c786a7b0db9a786a78cdb98786a73cdb96786a75cdb94786a6b4db92786a4d8db90786a4f0db8e786a190db8c7869fccdb8a7869ff4db887869f30db867869e9cdb84786962cdb82786957cdb80786d648dbbe306d5a0dbbc306d544dbba306d500dbb8306d4b4dbb6306d1bcdbb4306d058dbb2306d014dbb0306cfb0dbae306ce58dbac306cda4dbaa306ce98dba8306cd18dba6306cc28dba4306cb50dba230)
  (.lf 0))) (.nd (.nd (.lf
  0x2e3ac63281e2e4186328b42e41c6328142e33463261e2e3a06326b42e3a46326142e2bc63241e2e3286324b42e32c6324142e24463221e2e2b06322b42e2b46322142e1d4631f402e23c6320a02e168631df42e1d0631ea02e0f4631c1e2e160631cb42e164631c142e0846319f42e0ec631aa02e00c63181e2e07c6318b42e0806318142df986315402e0046316a02df2c6313402df946314a02dec06311f42df286312a02de4c63101e2deb86310b42debc6310142dddc630df42de44630ea02dd68630c1e2ddd4630cb42ddd8630c142dcf86309f42dd60630aa02dc7463081e2dcf06308b42dcf46308142dbf06305402dc6c6306a02dbec6304a02d5d863fc782d5d463fcb42d5dc63fc302d5c463fa782d5c063fab42d5c863fa302d5b063f8782d5ac63f8b42d5b463f8302d59c63f6782d59863f6b42d5a063f6302d58863f4782d58463f4b42d58c63f4302d57463f2782d57063f2b42d57863f230)
  (.lf 0)) (.nd (.lf
  0x83c380076cc83c1c0074cc83c900072cc83c0c0070cc83c40006ecc83bbc006ccc83c68006acc83b800068cc83ac40066cc83a840064cc83a8c0062cc83a940060cc83a9c005ecc83a3c005ccc83a24005acc8384c0058cc838280056cc837c80054cc837b00052cc8373c0050cc83300004ecc8331c004ccc83210004acc831d80048cc832340046cc82a040044cc824880042cc83d44007dd083d04007bd083cdc0079d083cc80077d083cb40075d083c9c0073d083c600071d083c50006fd083bcc006dd083ba4006bd083b900069d083b580067d083b440065d083b280063d083b180061d083b04005fd083af4005dd083ae0005bd083acc0059d0838240057d0837dc0055d0837940053d0837500051d083314004fd0832d8004dd083268004bd0832540049d0832440047d082a180045d0824a00043d082380004110830e0047ecc830d4047ccc830a8047acc82ff80478cc8303c0476cc8300c0474cc)
  (.lf 0)))

def shaWireTree5 : BTree :=
  .nd (.nd (.nd (.lf
  0x7d938f3dab47d944f3da307d92cf3d8787d928f3d8b47d930f3d8307d914f3d6787d918f3d6b47d91cf3d6307d8fcf3d4787d900f3d4b47d904f3d4307d8e8f3d2787d8ecf3d2b47d8f0f3d2307d8d8f3d0787d8dcf3d0b47d8e0f3d0307d8c8f3ce787d8c4f3ceb47d8ccf3ce307cfa8f3cc787d8b8f3ccb47d8bcf3cc307cf8cf3ca787cf84f3cab47cfa0f3ca307cf74f3c8787cf78f3c8b47cf7cf3c8307cd38f3c6787cf64f3c6b47cf68f3c6307ccfcf3c4787cd24f3c4b47cd30f3c4307cc84f3c2787cce0f3c2b47ccf4f3c2307fc04f6bc787fbf8f6bcb47fc08f6bc307fbe8f6ba787fbd8f6bab47fbf0f6ba307fbc8f6b8787fbccf6b8b47fbd0f6b8307fbbcf6b6787fbb8f6b6b47fbc0f6b6307fba0f6b4787fba4f6b4b47fba8f6b4307fb80f6b2787fb8cf6b2b47fb90f6b2307fb70f6b0787fb6cf6b0b47fb78f6b0307fb48f6ae787fb4cf6aeb47fb58f6ae307fad8f6ac787fb2cf6acb4)
  (.lf 0)) (.nd (.lf
  0x5f744c39dd05f71cc39bd05f6f4c399d05f6ccc397d05f6a8c395d05f684c393d05f660c391d05f63cc38fd05f618c38dd05f80cc38bd05f5e8c389d05f5c0c387d05f59cc385d05f578c383d05e610c381d062588c7bfd06251cc7bdd0624f0c7bbd0623f8c7b9d062264c7b7d06233cc7b5d062168c7b3d062090c7b1d062000c7afd061ef4c7add061eacc7abd061e70c7a9d061da4c7a7d061d10c7a5d061ca8c7a3d061c78c7a1d061b64c79fd061b14c79dd061adcc79bd061a9cc799d061a28c797d0619d0c795d0616dcc793d06165cc791d061624c78fd0615bcc78dd0614f8c78bd061444c789d0613bcc787d061370c785d061350c783d060eb0c781d064868cbbfd064818cbbdd0647b8cbbbd06475ccbb9d0646d8cbb7d064670cbb5d064674cbb3d0643dccbb1d064104cbafd064030cbadd064174cbabd064150cba9d063f94cba7d063d00cba5d063c1ccba3d063bdccba1d063bf0cb9fd0)
  (.lf 0))) (.nd (.nd (.lf
  0x556c0b0a6b4556bcb0a678556c4b0a630556acb0a4b4556a8b0a478556b0b0a43055698b0a2b455694b0a2785569cb0a23055684b0a0b455680b0a07855688b0a03055670b09eb45566cb09e7855674b09e305565cb09cb455658b09c7855660b09c3055648b09ab455644b09a785564cb09a3055634b098b455630b0987855638b0983055620b096b45561cb0967855624b096305560cb094b455608b0947855610b09430555f8b092b4555f4b09278555fcb09230555e4b090b4555e0b09078555e8b09030555d0b08eb4555ccb08e78555d4b08e30555bcb08cb4555b8b08c78555c0b08c30555a8b08ab4555a4b08a78555acb08a3055594b088b455590b0887855598b0883055580b086b45557cb0867855584b086305556cb084b455568b0847855570b0843055558b082b455554b082785555cb082305818cb07cb458188b07c7858190b07c3058164b07ab458160b07a7858168b07a3058138b078b4)
  (.lf 0)) (.nd (.lf
  0x393547aa6cc3935c7aa4cc393647aa2cc3936c7aa0cc393747a9ecc3937c7a9ccc393847a9acc3938c7a98cc393947a96cc3939c7a94cc393a47a92cc393ac7a90cc393b47a8ecc393bc7a8ccc393c47a8acc393cc7a88cc393d47a86cc393dc7a84cc393e47a82cc396447abdd0396307abbd03961c7ab9d0396087ab7d0395f07ab5d0395e07ab3d0395cc7ab1d0395b87aafd0395a47aadd0395947aabd03957c7aa9d03956c7aa7d0395587aa5d0395447aa3d0395307aa1d03951c7a9fd0395087a9dd0394f47a9bd0394e07a99d0394cc7a97d0394b87a95d0394a47a93d0394907a91d03947c7a8fd0394687a8dd0394547a8bd0394407a89d03942c7a87d0394187a85d0394047a83d0393ec7a811039de47a7ecc39db87a7ccc39d887a7acc39d587a78cc39d287a76cc39cf87a74cc39cc87a72cc39c987a70cc39c687a6ecc39c387a6ccc39c087a6acc39bd87a68cc39ba87a66cc39b787a64cc)
  (.lf 0)))

def shaWireTree6 : BTree :=
  .nd (.nd (.nd (.lf
  0x4be94a9b4304be7ca9b2784bd7ca9b2b44be80a9b2304bd70a9b0784bc58a9b0b44bd74a9b0304bc4ca9ae784bba0a9aeb44bc50a9ae304bb90a9ac784bb8ca9acb44bb94a9ac304bb80a9aa784ba40a9aab44bb84a9aa304ba30a9a8784ba34a9a8b44ba38a9a8304ba00a9a6784b92ca9a6b44ba04a9a6304b920a9a4784b884a9a4b44b924a9a4304b874a9a2784b760a9a2b44b87ca9a2304b73ca9a0784b70ca9a0b44b758a9a0304b6f4a99e784b6c8a99eb44b6f8a99e304b6bca99c784b670a99cb44b6c0a99c304b658a99a784b604a99ab44b668a99a304b5f4a998784b510a998b44b5fca998304b4f8a996784b480a996b44b4fca996304b46ca994784b43ca994b44b470a994304b3eca992784b3cca992b44b434a992304b390a990784b324a990b44b3c4a990304b304a98e784b2b4a98eb44b314a98e304b2a8a98c784b1d8a98cb44b2aca98c304b1b4a98a784b13ca98ab44b1d0a98a30)
  (.lf 0)) (.nd (.lf
  0x60ac4c05d2c60b24c05b2c60a90c0592c60a78c0572c60a60c0552c60b3cc0532c60a24c0512c609f4c04f2c609c0c04d2c60994c04b2c60904c0492c608e4c0472c608ccc0452c608b4c0432c6090cc040cc63084c47f2c63070c47d2c63048c47b2c63050c4792c63058c4772c63014c4752c62fccc4732c62fb4c4712c62f38c46f2c62f24c46d2c62f10c46b2c62efcc4692c62ef4c4672c62ed0c4652c62eb8c4632c62ea0c4612c62e94c45f2c62e70c45d2c62e5cc45b2c62e40c4592c62e30c4572c62e14c4552c62dfcc4532c62e04c4512c62dd0c44f2c62dbcc44d2c62d9cc44b2c62d88c4492c62d78c4472c62bf8c4452c62bc0c4432c62bccc440cc65980c87f2c65970c87d2c65930c87b2c65900c8792c65908c8772c658dcc8752c658d4c8732c658b4c8712c658a0c86f2c65854c86d2c65804c86b2c657b4c8692c65770c8672c65738c8652c65700c8632c656b8c8612c65668c85f2c)
  (.lf 0))) (.nd (.nd (.lf
  0xb79c1b33f40b8181b34a00b7141b321e0b7941b32b40b7981b32140b6901b2f400b70c1b30a00b6101b2d400b68c1b2ea00b5901b2bf40b60c1b2ca00b5081b2a1e0b5881b2ab40b58c1b2a140b47c1b281e0b4fc1b28b40b5001b28140b3f01b261e0b4701b26b40b4741b26140b3641b241e0b3e41b24b40b3e81b24140b2d81b221e0b3581b22b40b35c1b22140b24c1b201e0b2cc1b20b40b2d01b20140b1c01b1e1e0b2401b1eb40b2441b1e140b13c1b1b400b1b81b1ca00b0bc1b19400b1381b1aa00b03c1b17400b0b81b18a00afbc1b15400b0381b16a00af3c1b13f40afb81b14a00aeb41b121e0af341b12b40af381b12140ae301b0ff40aeac1b10a00ada81b0e1e0ae281b0eb40ae2c1b0e140ad241b0bf40ada01b0ca00ac9c1b0a1e0ad1c1b0ab40ad201b0a140ac181b07400ac941b08a00ac141b06a00a78c1bfc780a7881bfcb40a7901bfc300a7781bfa780a7741bfab40a77c1bfa30)
  (.lf 0)) (.nd (.lf
  0x7bfa8fa66cc7bbdcfa64cc7bbb0fa62cc7bb94fa60cc7bb6cfa5ecc7bb44fa5ccc7bfecfa5acc7ad84fa58cc7ad48fa56cc7ace8fa54cc7acc8fa52cc7abf0fa50cc7ac14fa4ecc7ab2cfa4ccc7a69cfa4acc7a948fa48cc7a588fa46cc7a950fa44cc7a310fa42cc7c4d4fa7dd07c4c0fa7bd07c4acfa79d07c1acfa77d07c198fa75d07c184fa73d07c170fa71d07c15cfa6fd07c148fa6dd07c134fa6bd07c104fa69d07c0f0fa67d07c0dcfa65d07c0c8fa63d07c0b8fa61d07c0a4fa5fd07c008fa5dd07bff8fa5bd07ad9cfa59d07ad54fa57d07ad20fa55d07ad0cfa53d07acf8fa51d07ab90fa4fd07ab28fa4dd07a844fa4bd07a830fa49d07a820fa47d07a80cfa45d07a430fa43d07a26cfa411080998fafecc809a0fafccc80978fafacc80970faf8cc80944faf6cc809a4faf4cc80928faf2cc80900faf0cc808e4faeecc808d4faeccc808b8faeacc8089cfae8cc808a4fae6cc807c0fae4cc)
  (.lf 0)))

def shaWireTree7 : BTree :=
  .nd (.nd (.nd (.lf
  0x54434ab14a0543c4ab121e543f8ab12b4543fcab121454384ab101e543b8ab10b4543bcab101453f6cab0df45437cab0ea053e64ab0c1e53f64ab0cb453f68ab0c1453e58ab0ab453e5cab0a1452984abfc7852980abfcb452988abfc3052970abfa785296cabfab452974abfa305295cabf87852958abf8b452960abf83052948abf67852944abf6b45294cabf63052934abf47852930abf4b452938abf43052920abf2785291cabf2b452924abf2305290cabf07852908abf0b452910abf030528f8abee78528f4abeeb4528fcabee30528e4abec78528e0abecb4528e8abec30528d0abea78528ccabeab4528d4abea30528bcabe878528b8abe8b4528c0abe830528a8abe678528a4abe6b4528acabe63052894abe47852890abe4b452898abe43052880abe2785287cabe2b452884abe2305286cabe07852868abe0b452870abe03052858abde7852854abdeb45285cabde3052844abdc7852840abdcb4)
  (.lf 0)) (.nd (.lf
  0x5c6c0ba532c5c678ba512c5c638ba4f2c5c60cba4d2c5c54cba4b2c5c528ba492c5c5a4ba472c5c584ba452c5c2d4ba432c5c2a8ba40cc5eea8be7f2c5ee60be7d2c5ee4cbe7b2c5ee38be792c5ee24be772c5ee84be752c5ee04be732c5ee88be712c5eddcbe6f2c5edd4be6d2c5edb0be6b2c5eda0be692c5fa70be672c5ed78be652c5ee90be632c5ed38be612c5ed44be5f2c5eb90be5d2c5eb50be5b2c5eb24be592c5ed50be572c5ebb0be552c5eba4be532c5eabcbe512c5ea54be4f2c5e7f4be4d2c5e790be4b2c5e79cbe492c5e700be472c5e6c0be452c5e710be432c5e5f8be40cc618f8c27f2c618e4c27d2c618c0c27b2c618d4c2792c61878c2772c61860c2752c6184cc2732c61828c2712c61830c26f2c61800c26d2c61880c26b2c61888c2692c617d0c2672c617b4c2652c617a4c2632c6178cc2612c6176cc25f2c61754c25d2c61744c25b2c61738c2592c61718c2572c61934c2552c)
  (.lf 0))) (.nd (.nd (.lf
  0x52dc0001e8152dc4001e7f52cec001e7d52cf0001e7b52c68001e7952c9c001e7752c04001e7552c08001e7352c38001e7152b88001e6f52ca0001e6d52b44001e6b52b48001e6952b4c001e6752b50001e6552c84001e6352b54001e6154428001e5f543f4001e5d543b4001e5b54360001e5953f70001e5753f74001e555497c001e5354980001e5154984001e4f54988001e4d5498c001e4b54990001e4954994001e4754998001e455499c001e43549a0001e4154850001e3f547f8001e3d547ac001e3b54768001e3954724001e37546cc001e3554694001e3354650001e3154604001e2f545d0001e2d54590001e2b54554001e2954510001e27544d8001e25544a0001e235446c001e2157358001e1f5735c001e1d57360001e1b57364001e1957368001e175736c001e1557370001e1357374001e1157378001e0f5737c001e0d57380001e0b57384001e0957388001e075738c001e0557390001e03)
  (.lf 0)) (.nd (.lf
  0x73e24f055d073e0cf053d073df8f051d073de0f04fd073dc8f04dd073d98f04bd073d84f049d073d70f047d073d58f045d073d30f043d073cf4f0411074138f03ecc74124f03ccc73fd0f03acc73fd8f038cc73fa4f036cc73f94f034cc73f74f032cc73f50f030cc73f3cf02ecc73f20f02ccc73f5cf02acc73fe8f028cc73ee0f026cc73eccf024cc73efcf022cc73ea4f020cc73e8cf01ecc73e70f01ccc7413cf01acc73e48f018cc73e30f016cc73e14f014cc74100f012cc73decf010cc73dd0f00ecc73fe0f00ccc73dbcf00acc73dc0f008cc740e4f006cc73d3cf004cc73d00f002cc74404f03dd0743f4f03bd0743a0f039d07438cf037d074350f035d074228f033d074218f031d074204f02fd0741f0f02dd0741dcf02bd0741c8f029d0741b4f027d0741a4f025d074190f023d074174f021d074158f01fd0740c8f01dd0740acf01bd07409cf019d07407cf017d07406cf015d074048f013d0)
  (.lf 0)))

def shaWireTree8 : BTree :=
  .nd (.nd (.nd (.lf
  0x40c20917f2c40c18917d2c40c14917b2c40c2891792c40ab091772c40a8891752c40a6491732c408b091712c4089c916f2c40894916d2c408c8916b2c4086491692c4085091672c4083c91652c4082891632c4081491612c40800915f2c407f8915d2c407dc915b2c3fec891592c3fe7091572c3f77c91552c3f6e091532c3f6a891512c3f628914f2c3f5d4914d2c3f540914b2c3f4e891492c3f39c91472c3f34091452c3f29091432c3f2449140cc42e3c957f2c42e28957d2c42dd4957b2c42c9095792c42a0c95772c4288095752c4282c95732c427b495712c426d4956f2c426cc956d2c42654956b2c4264895692c425e095672c4251495652c4245095632c4240c95612c421c8955f2c420d4955d2c420a8955b2c4207895592c4200c95572c41f7895552c41e2095532c41df495512c41db0954f2c41cdc954d2c41cb4954b2c41ba495492c41b3c95472c41aa495452c419c495432c419b09540cc)
  (.lf
  0x1dce06c61d01dccc6c5fd01dcb86c5dd01dca46c5bd01dc906c59d01dc7c6c57d01dc686c55d01dc546c53d01dc406c51d01dc2c6c4fd01dc186c4dd01dc046c4bd01dbf06c49d01dbdc6c47d01dbc86c45d01dbb46c43d01db9c6c4110347c46c3ecc347606c3ccc346e86c3acc3466c6c38cc345f06c36cc345746c34cc344f86c32cc3447c6c30cc344086c2ecc343906c2ccc3431c6c2acc342a46c28cc3422c6c26cc341bc6c24cc3414c6c22cc340d86c20cc340646c1ecc33fec6c1ccc33f706c1acc33ef86c18cc33e7c6c16cc33e006c14cc33d886c12cc33d106c10cc33c946c0ecc33c106c0ccc33b886c0acc33b046c08cc33a786c06cc339e06c04cc3393c6c02cc347ac6c3dd0347446c3bd0346cc6c39d0346506c37d0345d46c35d0345586c33d0344dc6c31d0344606c2fd0343ec6c2dd0343746c2bd0343006c29d0342886c27d0342106c25d0341a06c23d0341306c21d0340bc6c1fd0))
  (.nd (.lf
  0x4413c003001440f8002fff43fe0002ffd43f20002ffb43ee0002ff943e28002ff743dbc002ff543d24002ff343b54002ff143aa0002fef43a54002fed43a00002feb4390c002fe943880002fe7437d8002fe543798002fe3436c8002fe146328002fdf4632c002fdd46330002fdb464bc002fd946334002fd746338002fd5473f4002fd34633c002fd146340002fcf46344002fcd46348002fcb4634c002fc946350002fc746354002fc546358002fc34635c002fc146360002fbf46364002fbd46368002fbb4636c002fb946370002fb746374002fb546378002fb34637c002fb1464c0002faf46380002fad46384002fab473f8002fa946388002fa74638c002fa546390002fa346394002fa147624002f9f47608002f9d47bc4002f9b47bc8002f9947b5c002f9747abc002f9547ac0002f9347ac4002f9147ac8002f8f47a0c002f8d479cc002f8b47960002f8947964002f8747bcc002f8547bd0002f83)
  (.lf 0))) (.nd (.nd (.lf
  0x3747c768278374747682b437480768230386dc767cb4386d0767c78386e0767c30386c4767ab4386c0767a78386c8767a30386ac7678b4386b0767878386b47678303869c7676b438690767678386a0767630386807674b43868476747838688767430386707672b43866c76727838674767230386587670b4386547670783865c76703038644766eb438648766e783864c766e3038630766cb438634766c7838638766c303861c766ab438620766a7838624766a303860c7668b43860476687838610766830385f47666b4385f0766678385f8766630385e47664b4385e0766478385e8766430385a07662b438598766278385a47662303858c7660b4385887660783859076603038574765eb438578765e783857c765e3038550765cb438568765c783856c765c30384c4765ab4384c8765a78384cc765a30384b87658b438430765878384bc765830383a07656b43842476567838428765630383947654b4)
  (.lf 0)) (.nd (.lf
  0x5b3440065735ae880065715ae4c00656f5b76800656d5b77000656b5b6d40065695b68c0065675b6200065655b6280065635b7ac0065615dbbc00655f5db7400655d5db9800655b5d9d80065595d9280065575d8f80065555e0680065535dfc40065515df4400654f5de0000654d5de0800654b5e0700065495dfcc0065475df4c0065455de100065435de180065415dc4c00653f5dc5400653d5dbc000653b5db780065395db9c0065375d9dc0065355d92c0065335d8fc0065315d90400652f5e07800652d5dfd400652b5df540065295de200065275de280065255dc5c0065235dc640065216003c00651f5fdb400651d5fdb800651b5fdbc0065195fdc00065175fdc4006515602ec006513602980065116011800650f6012000650d6012800650b602f4006509602a00065076013000650560134006503601380065016013c0064ff601440064fd600400064fb5fdc80064f95fdd00064f75fdd80064f5)
  (.lf 0)))

def shaWireTree9 : BTree :=
  .nd (.nd (.nd (.lf
  0x7ae0214830079cc21467807a502146b407a5421463007950214478079c02144b4079c4214430078fc214278079442142b4079482142300885021bc78087e021bcb40885421bc30087d421ba780875421bab4087d821ba300874821b878086c821b8b40874c21b830086bc21b6780863821b6b4086c021b6300862c21b478085b821b4b40863021b430085ac21b2780853c21b2b4085b021b2300853021b078084ac21b0b40853421b030084a021ae780843021aeb4084a421ae300842421ac78083a021acb40842821ac300839421aa780832421aab40839821aa300831821a8780829421a8b40831c21a8300828821a6780821821a6b40828c21a6300820c21a4780818c21a4b40821021a4300818021a278080fc21a2b40818421a230080f021a0780808021a0b4080f421a03008074219e7807ff4219eb408078219e3007fe8219c7807f64219cb407fec219c3007f58219a7807ee4219ab407f5c219a30)
  (.lf 0)) (.nd (.lf
  0x60624c3dd2c605d0c3db2c605ccc3d92c605acc3d72c60594c3d52c60584c3d32c60534c3d12c6023cc3cf2c60228c3cd2c6020cc3cb2c60218c3c92c5ffa4c3c72c5fef4c3c52c5fe60c3c32c5fe4cc3c0cc62a3cc7ff2c62a40c7fd2c62a18c7fb2c62a08c7f92c629ecc7f72c629d8c7f52c629c4c7f32c629f8c7f12c629a0c7ef2c62994c7ed2c62998c7eb2c62974c7e92c6294cc7e72c6293cc7e52c62a48c7e32c62958c7e12c62908c7df2c62904c7dd2c62a44c7db2c625e4c7d92c625d4c7d72c625bcc7d52c625ecc7d32c62564c7d12c624b8c7cf2c62430c7cd2c6236cc7cb2c62374c7c92c6219cc7c72c620bcc7c52c62028c7c32c61f0cc7c0cc64a48cbff2c64a38cbfd2c64a2ccbfb2c64a10cbf92c649f8cbf72c649e4cbf52c649dccbf32c649b8cbf12c649c0cbef2c64990cbed2c6497ccbeb2c64998cbe92c64954cbe72c6494ccbe52c64930cbe32c6495ccbe12c64908cbdf2c)
  (.lf 0))) (.nd (.nd (.lf
  0x67c90cc363067c74cc34b467c78cc347867c7ccc343067c64cc32b467c60cc327867c68cc323067c4ccc30b467c48cc307867c54cc303067c3ccc2eb467c38cc2e7867c40cc2e3067c24cc2cb467c28cc2c7867c2ccc2c3067c18cc2ab467c14cc2a7867c1ccc2a3067bf0cc28b467beccc287867c04cc283067be0cc26b467bdccc267867be4cc263067bd0cc24b467bcccc247867bd4cc243067bb8cc22b467bb0cc227867bbccc223067b9ccc20b467ba0cc207867ba4cc203067b90cc1eb467b8ccc1e7867b94cc1e3067b78cc1cb467b74cc1c7867b7ccc1c3067b64cc1ab467b5ccc1a7867b68cc1a3067b50cc18b467b4ccc187867b54cc183067b34cc16b467b38cc167867b3ccc163067b28cc14b467aa4cc147867b2ccc143067a70cc12b467a6ccc127867a74cc123067380cc10b467a60cc107867a64cc103067374cc0eb467370cc0e7867378cc0e306734ccc0cb467354cc0c7867358cc0c30)
  (.lf 0)) (.nd (.lf
  0x4a7b49ab7d04a7a09ab5d04a7889ab3d04a7749ab1d04a7609aafd04a7509aadd04a73c9aabd04a7209aa9d04a7109aa7d04a7009aa5d04a6ec9aa3d04a6d89aa1d04a6c49a9fd04a6b09a9dd04a69c9a9bd04a6889a99d04a6749a97d04a6609a95d04a64c9a93d04a6389a91d04a6249a8fd04a6109a8dd04a5fc9a8bd04a5e89a89d04a5d49a87d04a5c09a85d04a5a49a83d04a5909a81104aec89a7ecc4aec09a7ccc4aecc9a7acc4aedc9a78cc4aed89a76cc4aeb49a74cc4af109a72cc4aeb89a70cc4b1889a6ecc4aed49a6ccc4b2109a6acc4aed09a68cc4b20c9a66cc4aeb09a64cc4aeac9a62cc4aec49a60cc4aebc9a5ecc4aef49a5ccc4aee49a5acc4af0c9a58cc4aefc9a56cc4af009a54cc4af089a52cc4af049a50cc4aef89a4ecc4aee89a4ccc4aeec9a4acc4aef09a48cc4b0109a46cc4aee09a44cc4afb09a42cc4c1489a7dd04c1209a7bd04c0f89a79d04bd2c9a77d04bd189a75d0)
  (.lf 0)))

def shaWireTree10 : BTree :=
  .nd (.nd (.nd (.lf
  0x62d64d586b463430d5863062d28d5847862cc8d584b462d40d5843062c98d5827862c30d582b462c9cd5823066d5cd97c7866d58d97cb466d98d97c3066d48d97a7866d4cd97ab466d50d97a3066d3cd9787866d38d978b466d40d9783066cf4d9767866cf8d976b466cfcd9763066cb4d9747866c80d974b466cb8d9743066c44d9727866c3cd972b466c48d9723066c30d9707866c2cd970b466c34d9703066708d96e7866c20d96eb466c24d96e30666fcd96c78666f8d96cb466700d96c3066520d96a78666b8d96ab4666bcd96a30664fcd9687866514d968b466518d96830664ecd96678664f0d966b4664f4d9663066434d96478664e0d964b4664e4d96430663b4d9627866404d962b466408d962306636cd96078663a8d960b4663acd9603066324d95e7866360d95eb466364d95e3066318d95c7866314d95cb46631cd95c30662d4d95a78662d8d95ab4662dcd95a30661ccd95878662b0d958b4)
  (.lf 0)) (.nd (.lf
  0x70f00e01d2c70f24e01b2c70edce0192c70ecce0172c70eb8e0152c70ea0e0132c70e88e0112c70e74e00f2c70e48e00d2c70e2ce00b2c70e1ce0092c70b20e0072c70b08e0052c70b68e0032c70ab4e000cc720b4e43f2c720a0e43d2c72088e43b2c72074e4392c72008e4372c71fb0e4352c72124e4332c71f18e4312c71e90e42f2c71eb4e42d2c71dd8e42b2c71de8e4292c71db4e4272c71d24e4252c71d08e4232c71cf4e4212c71cd0e41f2c71cb0e41d2c71bbce41b2c71b38e4192c71ac4e4172c71aace4152c71a48e4132c719e0e4112c719d0e40f2c7197ce40d2c71934e40b2c718b8e4092c718bce4072c71894e4052c7186ce4032c7185ce400cc72ccce83f2c72c98e83d2c72c78e83b2c72c4ce8392c72cf4e8372c72c10e8352c72be4e8332c72bc0e8312c72b94e82f2c72b60e82d2c72b28e82b2c72af0e8292c72ac4e8272c72aace8252c72a94e8232c72a74e8212c72a14e81f2c)
  (.lf 0))) (.nd (.nd (.lf
  0xd0782e74780d0ec2e74300d06c2e72b40cfec2e72780d0702e72300cfe02e70b40cf5c2e70780cfe42e70300cf502e6eb40cedc2e6e780cf542e6e300ced02e6cb40ce5c2e6c780ced42e6c300ce502e6ab40cde02e6a780ce542e6a300cdd42e68b40cd542e68780cdd82e68300cd482e66b40ccc82e66780cd4c2e66300ccbc2e64b40cc382e64780ccc02e64300cc2c2e62b40cbb82e62780cc302e62300cbac2e60b40cb382e60780cbb02e60300cb2c2e5eb40cabc2e5e780cb302e5e300cab02e5cb40ca2c2e5c780cab42e5c300ca202e5ab40c9b02e5a780ca242e5a300c9a42e58b40c9242e58780c9a82e58300c9182e56b40c8982e56780c91c2e56300c88c2e54b40c80c2e54780c8902e54300c8002e52b40c77c2e52780c8042e52300c7702e50b40c7002e50780c7742e50300c6f42e4eb40c6742e4e780c6f82e4e300c6682e4cb40c5e42e4c780c66c2e4c300c5d82e4ab40c5682e4a78)
  (.lf 0)) (.nd (.lf
  0x15ce44583d015cc8458110172c0497ecc17284497ccc17248497acc172084978cc171c04976cc1717c4974cc172dc4972cc173544970cc1735c496ecc172f8496ccc17358496acc172fc4968cc172e44966cc172cc4964cc172d04962cc172d44960cc172c8495ecc17304495ccc17380495acc173c44958cc1738c4956cc1760c4954cc175fc4952cc176004950cc17608494ecc17604494ccc173dc494acc173b84948cc173bc4946cc173c04944cc173744942cc1784c497dd017838497bd0178244979d0178104977d0177f44975d0177e44973d0177d04971d0177c0496fd0177ac496dd017798496bd0177804969d01776c4967d0177584965d0177444963d0177344961d017720495fd01770c495dd0176f8495bd0176e44959d0176cc4957d0176bc4955d0176a84953d0176944951d017680494fd017664494dd017650494bd0176404949d0176304947d01761c4945d0173d44943d01737c494110)
  (.lf 0)))

def shaWireTree11 : BTree :=
  .nd (.nd (.nd (.lf
  0x5ead4be52785ead8be52305e824be50b45eac4be50785eac8be50305e7ecbe4eb45e818be4e785e81cbe4e305e7b4be4cb45e7e0be4c785e7e4be4c305e7a8be4ab45e7a4be4a785e7acbe4a305e708be48b45e784be48785e788be48305e6d8be46b45e6f0be46785e6f4be46305e6ccbe44b45e6c8be44785e6d0be44305e5f4be42b45e6b4be42785e6b8be42305fb58befcb45fb54befc785fb60befc305fb48befab45fb44befa785fb4cbefa305fb2cbef8b45fb28bef8785fb30bef8305fb1cbef6b45fb18bef6785fb20bef6305fb08bef4b45fb04bef4785fb0cbef4305faf4bef2b45faf0bef2785faf8bef2305fae0bef0b45fadcbef0785fae4bef0305faccbeeeb45fac4beee785fad0beee305faa8beecb45faa4beec785fab0beec305fa98beeab45fa90beea785fa9cbeea305fa84bee8b45fa80bee8785fa88bee8305fa74bee6b45f164bee6785fa78bee6305f158bee4b45f154bee478)
  (.lf 0)) (.nd (.lf
  0x5ef64bec92c6255cc2ff2c6248cc2fd2c62470c2fb2c623a0c2f92c621f4c2f72c62200c2f52c62140c2f32c61fccc2f12c61fc0c2ef2c61e28c2ed2c61e0cc2eb2c61df8c2e92c61d7cc2e72c61c28c2e52c61c18c2e32c61c34c2e12c61994c2df2c6199cc2dd2c6196cc2db2c6195cc2d92c61944c2d72c619a8c2d52c616acc2d32c61584c2d12c61544c2cf2c615a4c2cd2c614c8c2cb2c61418c2c92c61384c2c72c612a8c2c52c612b0c2c32c641d8c6ff2c641c4c6fd2c641b4c6fb2c63f48c6f92c63f38c6f72c63f1cc6f52c63f08c6f32c63efcc6f12c63ee4c6ef2c63ec8c6ed2c63eb0c6eb2c63db8c6e92c63dacc6e72c63ce0c6e52c634f4c6e32c63494c6e12c63480c6df2c63474c6dd2c63450c6db2c63444c6d92c63338c6d72c63324c6d52c6327cc6d32c63244c6d12c631ecc6cf2c633fcc6cd2c6311cc6cb2c630bcc6c92c62f74c6c72c661b4caff2c6619ccafd2c66188cafb2c)
  (.lf 0))) (.nd (.nd (.lf
  0x1c5985476b41c5945476781c59c5476301c56c5474b41c5685474781c5705474301c5405472b41c53c5472781c5445472301c5145470b41c5105470781c5185470301c4e8546eb41c4e4546e781c4ec546e301c4bc546cb41c4b8546c781c4c0546c301c490546ab41c48c546a781c494546a301c4645468b41c4605468781c4685468301c4385466b41c4345466781c43c5466301c40c5464b41c4085464781c4105464301c3e05462b41c3dc5462781c3e45462301c3b45460b41c3b05460781c3b85460301c388545eb41c384545e781c38c545e301c35c545cb41c358545c781c360545c301c330545ab41c32c545a781c334545a301c3045458b41c3005458781c3085458301c2d85456b41c2d45456781c2dc5456301c2ac5454b41c2a85454781c2b05454301c2805452b41c27c5452781c2845452301c2545450b41c2505450781c2585450301c228544eb41c224544e781c22c544e301c1fc544cb4)
  (.lf 0)) (.nd (.lf
  0x8dd417e7d008dc017e5d008dac17e3d008d9817e1d008d8417dfd008d7017ddd008d5c17dbd008d4817d9d008d3417d7d008d2017d5d008d0c17d3d008cf817d1d008ce417cfd008cd017cdd008cbc17cbd008ca817c9d008c9417c7d008c8017c5d008c6c17c3d008c5417c1100a9a01abecc0a9a81abccc0a9b01abacc0a9b81ab8cc0a9c01ab6cc0a9c81ab4cc0a9d01ab2cc0a9d81ab0cc0a9e01aaecc0a9e81aaccc0a9f01aaacc0a9f81aa8cc0aa001aa6cc0aa081aa4cc0aa101aa2cc0aa181aa0cc0aa201a9ecc0aa281a9ccc0aa301a9acc0aa381a98cc0aa401a96cc0aa481a94cc0aa501a92cc0aa581a90cc0aa601a8ecc0aa681a8ccc0aa701a8acc0aa781a88cc0aa801a86cc0aa881a84cc0aa901a82cc0ba381abdd00b9c81abbd00b9481ab9d00b8c01ab7d00b83c1ab5d00b7bc1ab3d00b7341ab1d00b6b01aafd00b6301aadd00b5b01aabd00b5281aa9d00b49c1aa7d00b4101aa5d0)
  (.lf 0)))

def shaWireTree12 : BTree :=
  .nd (.nd (.nd (.lf
  0x720440011cb721340011c971f240011c771e980011c571ebc0011c371df00011c171df40011bf71df80011bd72a580011bb727540011b9726f40011b7726f80011b5726fc0011b3725dc0011b1725e00011af72cd00011ad72c9c0011ab72cd40011a972ca00011a772cf80011a572c500011a372cfc0011a172c1400119f72be800119d72bc800119b72b9800119972b6800119772b2c00119572afc00119372ad00011917343800118f7343c00118d733a000118b733a80011897335c00118773360001185733640011837386c0011817387000117f7387400117d7387800117b7387c0011797388000117773884001175738880011737388c0011717389000116f7389400116d7389800116b7377c00116973780001167737840011657405c001163740dc0011617406000115f740ec00115d740f800115b740f0001159740fc0011577441000115574414001153744180011517441c00114f743ac00114d)
  (.lf 0)) (.nd (.lf
  0x3ebd483a0303ebd8839e303ebdc839c303ebe0839a303ebe48398303ebe88396303ebec8394303ebf08392303ebf48390303ebf8838e303ebfc838c303ec00838a303ec048388303ec088386303e4208384303e38c8382303e39083803040c2c87beb440c3087bcb440c3487bab440c3887b8b440ac487b6b440ac887b4b440acc87b2b4408cc87b0b4408d087aeb4408d487acb4408d887aab4408dc87a8b4408e087a6b4408e487a4b4408e887a2b4408ec87a0b4408f0879eb4408f4879cb4408f8879ab4400648798b4400688796b43f78c8794b43f71c8792b43f6b88790b43f64c878eb43f5e4878cb43f57c878ab43f5208788b43f3d48786b43f3808784b43f2b08782b43f2b48780b43ec8087be783ec8487bc783ec8887ba783ec8c87b8783ec9087b6783ec9487b4783ec9887b2783ec9c87b0783eca087ae783eca487ac783eca887aa783ecac87a8783ecb087a6783ecb487a4783ecb887a278)
  (.lf 0))) (.nd (.nd (.lf
  0x26a00528830269e8528678269e45286b4269ec528630269d4528478269d05284b4269d8528430269c0528278269bc5282b4269c452823027f5c527cb427fe4527c7827fe8527c3027ebc527ab427f50527a7827f54527a3027e205278b427eb052787827eb452783027d805276b427e1452767827e1852763027cdc5274b427d7452747827d7852743027c405272b427cd052727827cd452723027ba05270b427c3452707827c3852703027afc526eb427b94526e7827b98526e3027a58526cb427af0526c7827af4526c30279b4526ab427a4c526a7827a50526a30279185268b4279a8526878279ac526830278785266b42790c52667827910526630277dc5264b42786c52647827870526430277445262b4277d0526278277d4526230276a45260b4277385260782773c52603027608525eb427698525e782769c525e3027570525cb4275fc525c7827600525c30274d0525ab427564525a7827568525a30)
  (.lf 0)) (.nd (.lf
  0x5ffe4cd7acc5ff04cd78cc5ff34cd76cc5ffa8cd74cc5ff68cd72cc5fec0cd70cc5fdf0cd6ecc5fe24cd6ccc5fe90cd6acc5fe6ccd68cc5fc58cd66cc5f39ccd64cc5f564cd62cc5f568cd60cc5f378cd5ecc5f560cd5ccc5f220cd5acc5f208cd58cc5f1f8cd56cc5f1e0cd54cc5f1cccd52cc5f198cd50cc5f054cd4ecc5f004cd4ccc5efb4cd4acc5ef84cd48cc5eef4cd46cc5ef04cd44cc5e758cd42cc60274cd7dd05fd98cd7bd05fd74cd79d05fd54cd77d05fd30cd75d05fd18cd73d05fd08cd71d05fcbccd6fd05fcaccd6dd05fc9ccd6bd05fc8ccd69d05fc7ccd67d05f7f8cd65d05f7d0cd63d05f7a8cd61d05f784cd5fd05f75ccd5dd05f734cd5bd05f70ccd59d05f6e4cd57d05f6bccd55d05f698cd53d05f674cd51d05f650cd4fd05f62ccd4dd05f608cd4bd05f5f8cd49d05f5d4cd47d05f5b0cd45d05f58ccd43d05e604cd4110602cccdbecc60278cdbccc5fd8ccdbacc5fd68cdb8cc)
  (.lf 0)))

def shaWireTree13 : BTree :=
  .nd (.nd (.nd (.lf
  0x70b98e246b470b9ce2467870ba0e2463070b8ce244b470b84e2447870b90e2443070b2ce242b470b78e2427870b7ce2423077d68e2fcb477d5ce2fc7877d6ce2fc3077d50e2fab477d4ce2fa7877d54e2fa3077d3ce2f8b477d38e2f87877d40e2f83077d24e2f6b477d20e2f67877d28e2f63077d10e2f4b477d0ce2f47877d14e2f43077cf8e2f2b477cf4e2f27877cfce2f23077ce4e2f0b477ce0e2f07877ce8e2f03077cd4e2eeb477cc4e2ee7877cd8e2ee3077cb4e2ecb477cb8e2ec7877cbce2ec3077ca8e2eab477ca0e2ea7877cace2ea3077c8ce2e8b477c94e2e87877c98e2e83077c7ce2e6b477c80e2e67877c84e2e63077c5ce2e4b477c68e2e47877c6ce2e43077c44e2e2b477c50e2e27877c54e2e23077c2ce2e0b477c38e2e07877c3ce2e03077c10e2deb477c20e2de7877c24e2de3077c00e2dcb477c04e2dc7877c08e2dc3077bf0e2dab477bf4e2da7877bf8e2da3077be0e2d8b4)
  (.lf 0)) (.nd (.lf
  0x5ff580054fd5ffd40054fb5ff940054f95fee80054f75fe140054f56056c0054f3605280054f1600100054ef5ff2c0054ed5ff600054eb5ffdc0054e95ff980054e75feec0054e55fe180054e35fe480054e161ebc0054df61e640054dd625980054db6252c0054d9624e00054d7624080054d5622740054d36234c0054d1621780054cf620a80054cd620100054cb61f040054c961ec00054c7625a00054c5625340054c3624d80054c1624100054bf6227c0054bd623540054bb6217c0054b9620ac0054b7620140054b5625a80054b3625380054b1624b00054af624180054ad622840054ab6235c0054a9621840054a7620b40054a56201c0054a361f080054a16418400549f6416000549d6487800549b6482c005499647cc0054976476c005495646e80054936469c005491646a400548f643ec00548d6411400548b64040005489641880054876487c00548564834005483647d00054816477400547f)
  (.lf 0))) (.nd (.nd (.lf
  0x27464905878274f8905830274589056b4273c49056782745c905630273b89054b427320905478273bc905430273149052b42728490527827318905230272789050b4271ec9050782727c905030271e0904eb427154904e78271e4904e3027148904cb4270b4904c782714c904c30270a8904ab427010904a78270ac904a30270049048b426f749048782700890483026f689046b426ed490467826f6c90463026ec89044b426e3090447826ecc90443026e249042b426da890427826e289042303d2a0903cb43d2c0903c783d2c4903c303d274903ab43d294903a783d298903a303d2489038b43d2689038783d26c9038303d21c9036b43d23c9036783d2409036303d1f09034b43d2109034783d2149034303d1c49032b43d1e49032783d1e89032303d1989030b43d1b89030783d1bc9030303d16c902eb43d18c902e783d190902e303d140902cb43d160902c783d164902c303d114902ab43d134902a78)
  (.lf 0)) (.nd (.lf
  0x2a11c5ab6cc2a1245ab4cc2a12c5ab2cc2a1345ab0cc2a13c5aaecc2a1445aaccc2a14c5aaacc2a1545aa8cc2a15c5aa6cc2a1645aa4cc2a16c5aa2cc2a1745aa0cc2a17c5a9ecc2a1845a9ccc2a18c5a9acc2a1945a98cc2a19c5a96cc2a1a45a94cc2a1ac5a92cc2a1b45a90cc2a1bc5a8ecc2a1c45a8ccc2a1cc5a8acc2a1d45a88cc2a1dc5a86cc2a1e45a84cc2a1ec5a82cc2a4505abdd02a43c5abbd02a4285ab9d02a4145ab7d02a4005ab5d02a3ec5ab3d02a3d85ab1d02a3c45aafd02a3b05aadd02a39c5aabd02a3885aa9d02a3745aa7d02a3605aa5d02a34c5aa3d02a3385aa1d02a3245a9fd02a3105a9dd02a2fc5a9bd02a2e85a99d02a2d45a97d02a2c05a95d02a2ac5a93d02a2985a91d02a2845a8fd02a2705a8dd02a25c5a8bd02a2485a89d02a2345a87d02a2205a85d02a20c5a83d02a1f45a81102b3885a7ecc2b3205a7ccc2b2ac5a7acc2b2385a78cc2b1c05a76cc2b1485a74cc)
  (.lf 0)))

def shaWireTree14 : BTree :=
  .nd (.nd (.nd (.lf
  0x349447d64783493c7d64b4349487d6430349307d62783492c7d62b4349347d6230349187d60783491c7d60b4349207d6030349087d5e78349047d5eb43490c7d5e30348f07d5c78348f47d5cb4348f87d5c30348dc7d5a78348e07d5ab4348e47d5a30348c47d5878348c87d58b4348cc7d5830348b47d5678348b87d56b4348bc7d5630348a07d5478348a47d54b4348a87d5430348907d52783488c7d52b4348947d52303487c7d5078348787d50b4348807d5030348687d4e78348647d4eb43486c7d4e3033be87d4c7833c607d4cb4348587d4c3033b607d4a7833bdc7d4ab433be07d4a3033adc7d487833b547d48b433b587d483033a3c7d467833ac87d46b433acc7d4630339a07d447833a2c7d44b433a307d4430339247d42783398c7d42b4339987d4230350447dbc78350487dbcb43504c7dbc30350307dba78350347dbab4350387dba30350207db878350247db8b4350287db8303500c7db678)
  (.lf 0)) (.nd (.lf
  0x3bd18809d2c3bcec809b2c3bcbc80992c3bc8c80972c3bc5c80952c3bc3080932c3bc0480912c3bbd8808f2c3bbac808d2c3bb80808b2c3bb5480892c3bb2880872c3baf880852c3bacc80832c3bab88080cc4129c84bf2c4128884bd2c4127484bb2c4126084b92c4124c84b72c4123884b52c4122484b32c4121084b12c411fc84af2c411e884ad2c411d484ab2c411c084a92c411ac84a72c4119884a52c4118484a32c4117084a12c4115c849f2c41148849d2c41134849b2c4112084992c4110c84972c410f884952c410e484932c410d084912c410bc848f2c410a8848d2c41094848b2c4108084892c4106c84872c4105884852c4104484832c410408480cc3c96488bf2c3c93c88bd2c3c91088bb2c3c8e488b92c3c8b888b72c3c88c88b52c3c86088b32c3c83488b12c3c80888af2c3c7dc88ad2c3c7b088ab2c3c78488a92c3c75888a72c3c72c88a52c3c70088a32c3c6d488a12c3c6a8889f2c)
  (.lf 0))) (.nd (.nd (.lf
  0x2e8c07034002f080704a002e880702a002c6807fc7802c6407fcb402c6c07fc3002c5407fa7802c5007fab402c5807fa3002c4007f87802c3c07f8b402c4407f83002c2c07f67802c2807f6b402c3007f63002c1807f47802c1407f4b402c1c07f43002c0407f27802c0007f2b402c0807f23002bf007f07802bec07f0b402bf407f03002bdc07ee7802bd807eeb402be007ee3002bc807ec7802bc407ecb402bcc07ec3002bb407ea7802bb007eab402bb807ea3002ba007e87802b9c07e8b402ba407e83002b8c07e67802b8807e6b402b9007e63002b7807e47802b7407e4b402b7c07e43002b6407e27802b6007e2b402b6807e23002b5007e07802b4c07e0b402b5407e03002b3c07de7802b3807deb402b4007de3002b2807dc7802b2407dcb402b2c07dc3002b1407da7802b1007dab402b1807da3002b0007d87802afc07d8b402b0407d83002aec07d67802ae807d6b402af007d63002ad807d478)
  (.lf 0)) (.nd (.lf
  0x6d814da97d06d800da95d06d7e4da93d06d7d4da91d06d7c4da8fd06d6a4da8dd06d480da8bd06d46cda89d06d3d4da87d06d3c0da85d06d3acda83d06d114da81106e7f8da7ecc6e4d8da7ccc6e4f0da7acc6e3e8da78cc6e404da76cc6e3f8da74cc6e3d0da72cc6e3f4da70cc6e408da6ecc6e40cda6ccc6e35cda6acc6e400da68cc6e334da66cc6e0d0da64cc6e0d4da62cc6e0b4da60cc6e088da5ecc6e084da5ccc6e06cda5acc6e040da58cc6e024da56cc6de28da54cc6ddf0da52cc6ddccda50cc6dd90da4ecc6dd64da4ccc6dd20da4acc6dcfcda48cc6dcc8da46cc6dc70da44cc6dbf4da42cc6ea78da7dd06ea58da7bd06ea48da79d06ea30da77d06ea20da75d06ea08da73d06e9e4da71d06e9d0da6fd06e9bcda6dd06e9a8da6bd06e98cda69d06e978da67d06e960da65d06e944da63d06e930da61d06e918da5fd06e900da5dd06e8f0da5bd06e8d0da59d06e8b8da57d06e8a0da55d0)
  (.lf 0)))

def shaWireTree15 : BTree :=
  .nd (.nd (.nd (.lf
  0x4c11c9a7a304c0f09a78b44bd349a78784c0f49a78304bd1c9a76b44bd209a76784bd249a76304bd109a74b44bd089a74784bd149a74304bcfc9a72b44bcf89a72784bd009a72304bce89a70b44bce49a70784bcec9a70304bc149a6eb44bc109a6e784bc189a6e304bc009a6cb44b9989a6c784bc049a6c304b9849a6ab44b9889a6a784b98c9a6a304b9749a68b44b9789a68784b97c9a68304b8f49a66b44b8f89a66784b8fc9a66304b8e09a64b44b8dc9a64784b8e49a64304b8449a62b44b84c9a62784b8509a62304b8389a60b44b7849a60784b83c9a60304b5b09a5eb44b5b49a5e784b5b89a5e304b5a09a5cb44b5a49a5c784b5a89a5c304b5849a5ab44b5889a5a784b58c9a5a304b5749a58b44b5709a58784b5789a58304b4e09a56b44b5609a56784b5649a56304b4cc9a54b44b27c9a54784b4d09a54304b2689a52b44b2649a52784b2709a52304b2589a50b44b2549a50784b25c9a5030)
  (.lf 0)) (.nd (.lf
  0x5b904ba932c5b83cba912c5b82cba8f2c5b840ba8d2c5b804ba8b2c5b7ecba892c5b7d8ba872c5b808ba852c5b8dcba832c5b7b0ba80cc5e460bebf2c5e44cbebd2c5e438bebb2c5e430beb92c5e418beb72c5e3fcbeb52c5e3e8beb32c5e3d4beb12c5e464beaf2c5e3b0bead2c5e39cbeab2c5e388bea92c5e374bea72c5e360bea52c5e34cbea32c5e338bea12c5e188be9f2c5e174be9d2c5e10cbe9b2c5e0f8be992c5e0e0be972c5e0ccbe952c5e0bcbe932c5e0a8be912c5e094be8f2c5e080be8d2c5dfdcbe8b2c5df5cbe892c5de40be872c5de30be852c5dc6cbe832c5dc74be80cc604f4c2bf2c604e0c2bd2c604ccc2bb2c604b8c2b92c604a8c2b72c60490c2b52c60480c2b32c6046cc2b12c60454c2af2c60444c2ad2c6042cc2ab2c6041cc2a92c60408c2a72c603ecc2a52c603d8c2a32c603c4c2a12c603b0c29f2c60420c29d2c60388c29b2c60374c2992c6038cc2972c6034cc2952c)
  (.lf 0))) (.nd (.nd (.lf
  0x685d4d220506858cd21e50684a8d21c5068400d21a50683b0d2185068334d216506826cd2145067ae4d2125067a3cd21050679acd20e5067748d20c50676d4d20a5067670d2085067600d20650674f0d2045067410d20250673dcd2005069110d63e7868f60d63c7868db4d63a7868e2cd6387868c1cd6367868df0d6347868bd4d6327868964d630786897cd62e78688d0d62c7868910d62a7868804d62878687c0d6267868750d62478686d0d62278685ccd6207868594d61e78684a0d61c7868408d61a78683b8d618786833cd6167868274d6147867aecd6127867a48d61078679b4d60e7867740d60c78676dcd60a7867678d6087867608d60678674f8d6047867418d60278673e4d600786b3b4d63e506b390d63c506b370d63a506b41cd638506b2ecd636506b480d634506b2d0d632506b294d630506b298d62e506b44cd62c506b224d62a506b204d628506b1e4d626506b1b8d624506b194d62250)
  (.lf 0)) (.nd (.lf
  0x62e54c459d062e3cc457d062e28c455d062e10c453d062df0c451d062de0c44fd062dc8c44dd062db4c44bd062d98c449d062d84c447d062d6cc445d062becc443d062bbcc4411063428c43ecc63074c43ccc6304cc43acc63964c438cc6305cc436cc63018c434cc62fd0c432cc62fb8c430cc62f3cc42ecc62fd8c42ccc62f48c42acc62f00c428cc62ef8c426cc62f44c424cc63000c422cc62ea4c420cc62e98c41ecc62e78c41ccc62e60c41acc62e44c418cc62fd4c416cc62e1cc414cc62e00c412cc62e08c410cc62dd4c40ecc62fe8c40ccc62da0c40acc62da8c408cc62f4cc406cc62ce0c404cc62bc4c402cc63610c43dd0635f8c43bd0635e0c439d0635d0c437d0635b8c435d0635a0c433d063588c431d063570c42fd063558c42dd063538c42bd063524c429d063510c427d0634e8c425d0634ccc423d0634b8c421d0633d4c41fd0633a4c41dd063364c41bd063344c419d0632b4c417d0)
  (.lf 0)))

def shaWireTree16 : BTree :=
  .nd (.nd (.nd (.lf
  0x66da0d97f2c66d60d97d2c66e70d97b2c66d04d9792c66cc0d9772c66c84d9752c66c40d9732c66dd4d9712c66710d96f2c666c4d96d2c66524d96b2c66550d9692c66654d9672c66c08d9652c66410d9632c66390d9612c66344d95f2c662fcd95d2c662e0d95b2c662b4d9592c65ff0d9572c65f10d9552c65ee0d9532c65eb8d9512c65e9cd94f2c65fbcd94d2c6529cd94b2c651dcd9492c65194d9472c651b4d9452c6516cd9432c64f48d940cc68fbcdd7f2c68f00dd7d2c68d60dd7b2c68cacdd792c68c24dd772c68b8cdd752c68b54dd732c68a44dd712c689f0dd6f2c689b0dd6d2c688d8dd6b2c6880cdd692c68798dd672c6872cdd652c686d8dd632c68680dd612c68650dd5f2c68480dd5d2c68410dd5b2c68360dd592c682d0dd572c6827cdd552c67af4dd532c67a04dd512c679b8dd4f2c67724dd4d2c676acdd4b2c67650dd492c6760cdd472c674b8dd452c6741cdd432c673c0dd40cc)
  (.lf
  0x40fbc84a0cc40fc4849ecc40fcc849ccc40fd4849acc40fdc8498cc40fe48496cc40fec8494cc40ff48492cc40ffc8490cc41004848ecc4100c848ccc41014848acc4101c8488cc410248486cc4102c8484cc410348482cc4129884bdd04128484bbd04127084b9d04125c84b7d04124884b5d04123484b3d04122084b1d04120c84afd0411f884add0411e484abd0411d084a9d0411bc84a7d0411a884a5d04119484a3d04118084a1d04116c849fd041158849dd041144849bd0411308499d04111c8497d0411088495d0410f48493d0410e08491d0410cc848fd0410b8848dd0410a4848bd0410908489d04107c8487d0410688485d0410548483d04103c848110412a4847ecc412ac847ccc412b4847acc413308478cc413388476cc413408474cc413488472cc413508470cc41358846ecc41360846ccc41368846acc413708468cc413788466cc413808464cc413888462cc413908460cc41398845ecc))
  (.nd (.lf
  0x761412205007618121e500761c121c5007620121a5007624121850076281216500762c121450076301212500763412105007638120e500763c120c5007640120a5007644120850076481206500764c1204500765012025007654120050076d8163e78076dc163c78076e0163a78076e4163878076e8163678076ec163478076f0163278076f4163078076f8162e78076fc162c7807700162a7807704162878077081626780770c162478077101622780771416207807718161e780771c161c7807720161a7807724161878077281616780772c161478077301612780773416107807738160e780773c160c7807740160a7807744160878077481606780774c160478077501602780775416007808eb8163e5008ebc163c5008ec0163a5008ec416385008ec816365008ecc16345008ed016325008ed416305008ed8162e5008edc162c5008ee0162a5008ee416285008ee816265008eec16245008ef0162250)
  (.lf 0))) (.nd (.nd (.lf
  0x3e2747eee303e25c7eecb43e2587eec783e2647eec303e24c7eeab43e2487eea783e2507eea303e2347ee8b43e22c7ee8783e2387ee8303e21c7ee6b43e2187ee6783e2207ee6303e1fc7ee4b43e2007ee4783e20c7ee4303e1f07ee2b43e1ec7ee2783e1f47ee2303e1dc7ee0b43e1d87ee0783e1e07ee0303e1cc7edeb43e1c47ede783e1d07ede303e1b47edcb43e1b87edc783e1bc7edc303e1a07edab43e1a47eda783e1a87eda303e18c7ed8b43e1887ed8783e1907ed8303e1707ed6b43e1747ed6783e17c7ed6303e1647ed4b43e1607ed4783e1687ed4303e1487ed2b43e14c7ed2783e1507ed2303e13c7ed0b43e1387ed0783e1407ed0303e11c7eceb43e1247ece783e1287ece303e1107eccb43e10c7ecc783e1147ecc303e0f47ecab43e0f87eca783e0fc7eca303e0e87ec8b43e0e47ec8783e0ec7ec8303e0d47ec6b43e0d07ec6783e0d87ec6303e0bc7ec4b43e0c47ec4783e0c87ec430)
  (.lf 0)) (.nd (.lf
  0x169083a13b01690c3a11b0169103a0fb0169143a0db0169183a0bb01691c3a09b0169203a07b0169243a05b0169283a03b01692c3a01b017eb43e3fb017eb83e3db017ebc3e3bb017ec03e39b017ec43e37b017ec83e35b017ecc3e33b017ed03e31b017ed43e2fb017ed83e2db017edc3e2bb017ee03e29b017ee43e27b017ee83e25b017eec3e23b017ef03e21b017ef43e1fb017ef83e1db017efc3e1bb017f003e19b017f043e17b017f083e15b017f0c3e13b017f103e11b017f143e0fb017f183e0db017f1c3e0bb017f203e09b017f243e07b017f283e05b017f2c3e03b017f303e01b0194a4423fb0194a8423db0194ac423bb0194b04239b0194b44237b0194b84235b0194bc4233b0194c04231b0194c4422fb0194c8422db0194cc422bb0194d04229b0194d44227b0194d84225b0194dc4223b0194e04221b0194e4421fb0194e8421db0194ec421bb0194f04219b0194f44217b0194f84215b0)
  (.lf 0)))

def shaWireTree17 : BTree :=
  .nd (.nd (.nd (.lf
  0x11864396c78118d4396cb4118d8396c30117d8396a7811858396ab41185c396a3011748396878117cc3968b4117d0396830116c83966781173c3966b41174039663011648396478116bc3964b4116c0396430115cc3962781163c3962b41164039623011540396078115c03960b4115c4396030114b0395e7811534395eb411538395e3011430395c78114a4395cb4114a8395c30113b0395a7811424395ab411428395a3011330395878113a43958b4113a8395830112b4395678113243956b41132839563011224395478112a83954b4112ac395430111a8395278112183952b41121c3952301111c3950781119c3950b4111a03950301108c394e7811110394eb411114394e3011010394c7811080394cb411084394c3010f84394a7811004394ab411008394a3010ef839487810f783948b410f7c39483010e6c39467810eec3946b410ef039463010df039447810e603944b410e6439443010da0394278)
  (.lf 0)) (.nd (.lf
  0x1ea34004cfd1ea38004cfb1ea3c004cf91ea40004cf71ea44004cf51ea48004cf31ea4c004cf11ea50004cef1ea54004ced1ea58004ceb1ea5c004ce91ea60004ce71ea64004ce51ea68004ce31ea6c004ce1412a0004cdf412a8004cdd412b0004cdb4132c004cd941334004cd74133c004cd541344004cd34134c004cd141354004ccf4135c004ccd41364004ccb4136c004cc941374004cc74137c004cc541384004cc34138c004cc141394004cbf4139c004cbd413a4004cbb413ac004cb9413b4004cb7413bc004cb5413c4004cb3413cc004cb1413d4004caf413dc004cad413e4004cab413ec004ca9413f4004ca7413fc004ca541404004ca34140c004ca11ea70004c9f1ea74004c9d1ea78004c9b1eaf0004c991eaf4004c971eaf8004c951eafc004c931eb00004c911eb04004c8f1eb08004c8d1eb0c004c8b1eb10004c891eb14004c871eb18004c851eb1c004c831eb20004c811eb24004c7f)
  (.lf 0))) (.nd (.nd (.lf
  0x700e4dc5eb4700e0dc5e78700e8dc5e30700d0dc5cb4700d4dc5c78700d8dc5c30700a8dc5ab46fec0dc5a78700acdc5a306feb4dc58b46fea8dc58786feb8dc58306fe9cdc56b46fe90dc56786fea0dc56306fe84dc54b46fe80dc54786fe88dc54306fe6cdc52b46fe68dc52786fe70dc52306fe5cdc50b46fe58dc50786fe60dc50306fe28dc4eb46fe34dc4e786fe38dc4e306fe1cdc4cb46fe18dc4c786fe20dc4c306fdf4dc4ab46fdf0dc4a786fdf8dc4a306fdccdc48b46fddcdc48786fde0dc48306fd74dc46b46fdc0dc46786fdc4dc46306fd68dc44b46fd64dc44786fd6cdc44306fca8dc42b46fd30dc42786fd34dc42307052cdc3cb470510dc3c7870530dc3c3070504dc3ab4704c4dc3a7870508dc3a30704b4dc38b470390dc3878704bcdc383070384dc36b470380dc367870388dc363070370dc34b470374dc347870378dc34307035cdc32b470364dc327870368dc32307034cdc30b4)
  (.lf 0)) (.nd (.lf
  0x53064aaafd053050aaadd05303caaabd053028aaa9d05300caaa7d052ff8aaa5d052fe4aaa3d052fd0aaa1d052fc0aa9fd052fb0aa9dd052f9caa9bd052f88aa99d052f74aa97d052f60aa95d052f4caa93d052f38aa91d052f24aa8fd052f08aa8dd052ef4aa8bd052e68aa89d052e54aa87d052e3caa85d052e20aa83d052d0caa811053b7caa7ecc53becaa7ccc53bf0aa7acc53b6caa78cc53b70aa76cc53b78aa74cc53b74aa72cc53b68aa70cc53b64aa6ecc53b84aa6ccc53b80aa6acc53b8caa68cc53b88aa66cc53d80aa64cc53b90aa62cc53d7caa60cc53b94aa5ecc53d78aa5ccc53b98aa5acc53d74aa58cc53b9caa56cc53d70aa54cc53ba0aa52cc53d6caa50cc53ba4aa4ecc53d68aa4ccc53ba8aa4acc53d64aa48cc53bacaa46cc53c98aa44cc53bb0aa42cc54310aa7dd0542f8aa7bd0542e0aa79d0542b4aa77d054200aa75d0541e8aa73d0541d0aa71d0541b8aa6fd0541a0aa6dd0)
  (.lf 0)))

def shaWireTree18 : BTree :=
  .nd (.nd (.nd (.lf
  0x76d60edac3076cc0edaa7876c9cedaab476cc4edaa3076c90eda87876bd4eda8b476c94eda83076baceda67876b24eda6b476bb0eda63076b18eda47876aa4eda4b476b1ceda43076a98eda27876a44eda2b476a9ceda23076a18eda078769f8eda0b476a1ceda030769eced9e7876950ed9eb4769f0ed9e3076944ed9c78768b4ed9cb476948ed9c30768a8ed9a7876864ed9ab4768aced9a3076828ed98787680ced98b47682ced983076800ed967876744ed96b476804ed963076738ed9478765d4ed94b47673ced9430765c8ed9278765c4ed92b4765cced9230765a8ed9078765a4ed90b4765aced903076588ed8e7876584ed8eb47658ced8e3076564ed8c7876560ed8cb476568ed8c3076544ed8a7876460ed8ab476548ed8a3076454ed887876450ed88b476458ed8830763cced867876338ed86b476448ed863076314ed84787632ced84b476330ed843076304ed82786fceced82b476308ed8230)
  (.lf 0)) (.nd (.lf
  0x82cb90d94b482cc10d943082c990d927882b210d92b482cad0d923082b0d0d907882a9d0d90b482b110d903082a790d8e78829790d8eb482a7d0d8e30829650d8c78827490d8cb4829710d8c30827310d8a78827090d8ab4827410d8a30826fd0d8878826e90d88b4827010d8830826d10d8678826950d86b4826d50d8630826890d8478821e10d84b48268d0d8430821d10d8278821bd0d82b4821d50d823002688117c7802684117cb40268c117c3002674117a7802670117ab402678117a30026601178780265c1178b4026641178300264c117678026481176b40265011763002638117478026341174b40263c11743002624117278026201172b402628117230026101170780260c1170b402614117030025fc116e78025f8116eb402600116e30025e8116c78025e4116cb4025ec116c30025d4116a78025d0116ab4025d8116a30025c0116878025bc1168b4025c4116830025ac116678025a81166b4)
  (.lf 0))) (.nd (.nd (.lf
  0x15a3436e830159b836e6b4159f036e678159f436e6301597436e4b4159ac36e478159b036e4301593036e2b41596836e2781596c36e230158f036e0b41592436e0781592836e030158ac36deb4158e436de78158e836de301586c36dcb4158a036dc78158a436dc301582836dab41586036da781586436da30157e036d8b41581c36d8781582036d830157a036d6b4157d436d678157d836d6301576836d4b41579436d4781579836d4301573036d2b41575c36d2781576036d230156f036d0b41572436d0781572836d030156ac36ceb4156e436ce78156e836ce301566836ccb4156a036cc78156a436cc301562436cab41565c36ca781566036ca30155e036c8b41561836c8781561c36c8301559c36c6b4155d436c678155d836c6301555836c4b41559036c4781559436c4301553836c2b41554c36c2781555036c23015ca0373eaa15adc372eaa15a98372caa15a1c3728aa159d83726aa159943724aa)
  (.lf 0)) (.nd (.lf
  0x2a6286942cc2b738697dd02b724697bd02b7106979d02b6fc6977d02b6e86975d02b6d46973d02b6c06971d02b6ac696fd02b698696dd02b684696bd02b6706969d02b65c6967d02b6486965d02b6346963d02b6206961d02b60c695fd02b5f8695dd02b5e4695bd02b5d06959d02b5bc6957d02b54c6955d02b5386953d02b5246951d02b510694fd02b500694dd02b470694bd02b4146949d02b4006947d02b3ec6945d02b3d86943d02a5d46941102b3a069becc2b35c69bccc2b2f069bacc2b27c69b8cc2b20869b6cc2b19069b4cc2b11869b2cc2b0a869b0cc2b03c69aecc2afc869accc2af5469aacc2aedc69a8cc2ae6069a6cc2adec69a4cc2ad7c69a2cc2ad0c69a0cc2ac9c699ecc2ac24699ccc2abb0699acc2ab386998cc2aac46996cc2b5b06994cc2b4ac6992cc2b4986990cc2b49c698ecc2b4a0698ccc2b494698acc2b4606988cc2a72c6986cc2a6b06984cc2a6406982cc2bfc469bdd0)
  (.lf 0)))

def shaWireTree19 : BTree :=
  .nd (.nd (.nd (.lf
  0x640ccc7361e640d4c736b4640d8c73614640b4c7341e640b8c734b4640bcc7341464090c7321e640a0c732b4640a4c7321464078c72f4064088c730a064058c72d4064074c72ea064010c72bf464018c72ca063fd0c72a1e64008c72ab46400cc72a1463fb4c7281e63fc0c728b463fc4c7281463d14c725f463facc726a063bb4c7241e63d0cc724b463d10c7241463ba8c7221e63ba4c722b463bacc7221463b98c7201e63b90c720b463b9cc7201463b7cc71df463b84c71ea063a84c71c1e63a90c71cb463a94c71c1463a40c71a1e63a44c71ab463a7cc71a1463a20c717f463a38c718a0639fcc7161e639f0c716b463a1cc7161463668c7141e639dcc714b4639e0c714146363cc711406364cc712a063630c70f4063638c710a063620c70d406362cc70ea063128c70b406361cc70ca0630d4c7094063124c70aa0630d0c708a062a30c7fc7862a2cc7fcb462a34c7fc3062a20c7fa7862a1cc7fab4)
  (.lf 0)) (.nd (.lf
  0x1fbac431d4a1fae8431b4a1fa2c4318b41f97043174a1f8b44314b41f7fc4312b41f74443114a1f680430f4a1f5c0430d4a1f500430ab41f44c4308b41f3944306b41f2d04304b41f2004302b41f1a04300aa21d58473f4a21d1c473d4a21cd8473b4a21c984738b421c5c47374a21c1847354a21bd447334a21b9047314a21b4c472f4a21b0c472cb421ad0472b4a21a8c47294a21a4847274a21a0447254a219c047234a219804720b421948471eb42190c471d4a218cc471ab4218944718b42185c4716b42182047154a217dc47134a2179847114a21754470f4a21714470cb4216dc470ab4216a44708b42166c4706b42163047054a215fc4702aa215e846c0cc243c44b3eb42434c4b3cb4242c44b3ab42423c4b38b4241b04b374a2411c4b354a2408c4b334a23ffc4b314a23f6c4b2f4a23edc4b2d4a23e504b2ab423dc84b28b423d404b26b423cb84b24b423c304b22b423ba44b214a23b104b1f4a)
  (.lf 0))) (.nd (.nd (.lf
  0x302f864a0783030064a03030274649eb430270649e7830278649e30301e8649cb4301e4649c78301ec649c303015c649ab430158649a7830160649a30300d86498b4300d4649878300dc649830300586496b4300546496783005c6496302ffd86494b42ffd46494782ffdc6494302ff506492b42ff4c6492782ff546492302fec46490b42fec06490782fec86490302fe40648eb42fe3c648e782fe44648e302fdc0648cb42fdbc648c782fdc4648c302fd38648ab42fd34648a782fd3c648a302fcac6488b42fca86488782fcb06488302fc286486b42fc246486782fc2c6486302fba06484b42fb9c6484782fba46484302fb1c6482b42fb186482782fb206482301d648647cb41d644647c781d64c647c301d634647ab41d630647a781d638647a301d6206478b41d61c6478781d6246478301d60c6476b41d6086476781d6106476301d5f86474b41d5f46474781d5fc6474301d5e46472b41d5e0647278)
  (.lf 0)) (.nd (.lf
  0xf1a827f9d00f19427f7d00f18027f5d00f16c27f3d00f15827f1d00f14427efd00f13027edd00f11c27ebd00f10827e9d00f0f427e7d00f0e027e5d00f0cc27e3d00f0b827e1d00f0a427dfd00f09027ddd00f07c27dbd00f06827d9d00f05427d7d00f04027d5d00f02c27d3d00f01827d1d00f00427cfd00eff027cdd00efdc27cbd00efc827c9d00efb427c7d00efa027c5d00ef8c27c3d00ef7427c11010c842abecc10c8c2abccc10c942abacc10c9c2ab8cc10ca42ab6cc10cac2ab4cc10cb42ab2cc10cbc2ab0cc10cc42aaecc10ccc2aaccc10cd42aaacc10cdc2aa8cc10ce42aa6cc10cec2aa4cc10cf42aa2cc10cfc2aa0cc10d042a9ecc10d0c2a9ccc10d142a9acc10d1c2a98cc10d242a96cc10d2c2a94cc10d342a92cc10d3c2a90cc10d442a8ecc10d4c2a8ccc10d542a8acc10d5c2a88cc10d642a86cc10d6c2a84cc10d742a82cc11d302abdd011cc02abbd011c382ab9d011bb42ab7d0)
  (.lf 0)))

def shaWireTree20 : BTree :=
  .nd (.nd (.nd (.lf
  0x62a640009cb62a680009c962a6c0009c762a700009c562a740009c362a780009c162a7c0009bf62a800009bd62a840009bb62a880009b962a8c0009b762a900009b562a940009b362a980009b162a9c0009af62aa00009ad62aa40009ab62aa80009a962aac0009a762ab00009a562ab40009a362ab80009a162abc00099f62ac000099d62ac400099b62ac800099962acc00099762ad000099562ad400099364d7800099164d7c00098f64d8000098d64d8400098b64d8800098964d8c00098764d9000098564d9400098364d9800098164d9c00097f64da000097d64da400097b64da800097964dac00097764db000097564db400097364db800097164dbc00096f64dc000096d64dc400096b64dc800096964dcc00096764dd000096564dd400096364dd800096164ddc00095f64de000095d64de400095b64de8000959670a0000957670a4000955670a8000953670ac000951670b000094f670b400094d)
  (.lf 0)) (.nd (.lf
  0x523b4afa0785238caf9e7852340af9c7852358af9a7852314af9878522ccaf9678522acaf9478522f8af927851ed0af907851e20af8e7851de4af8c7851d84af8a7851d4caf887851cd4af867852278af847851960af8278518f4af80785516cafbe3055124afbc30550e4afba30550b0afb83054fe4afb630551a8afb43054f94afb23054f50afb03055014afae3054f08afac3054ed8afaa3054ea4afa83054e78afa63054e38afa43054e18afa23054decafa03054dc8af9e3054da8af9c3054d78af9a3054d58af983054d24af963054cecaf943054d00af923054cc8af903054c98af8e3054e54af8c3053e4caf8a3053e74af883053d58af863053d28af843053c64af823053c28af80305716cb3beb45701cb3bcb456ff8b3bab457078b3b8b456ee4b3b6b456e70b3b4b456db4b3b2b456d20b3b0b456c80b3aeb456c00b3acb456bb8b3aab456b84b3a8b456b5cb3a6b456a7cb3a4b456a18b3a2b4)
  (.lf 0))) (.nd (.nd (.lf
  0x2b1045af4782b1745af4302b0f85af2b42b0945af2782b0fc5af2302b0885af0b42b0285af0782b08c5af0302b01c5aeeb42afb45aee782b0205aee302afa85aecb42af405aec782afac5aec302af345aeab42aec85aea782af385aea302aebc5ae8b42ae4c5ae8782aec05ae8302ae405ae6b42add85ae6782ae445ae6302adcc5ae4b42ad685ae4782add05ae4302ad5c5ae2b42acf85ae2782ad605ae2302acec5ae0b42ac885ae0782acf05ae0302ac7c5adeb42ac105ade782ac805ade302ac045adcb42ab9c5adc782ac085adc302ab905adab42ab245ada782ab945ada302ab185ad8b42aab05ad8782ab1c5ad8302aaa45ad6b42aa3c5ad6782aaa85ad6302aa305ad4b42a9cc5ad4782aa345ad4302a9c05ad2b42a9605ad2782a9c45ad2302a9545ad0b42a8ec5ad0782a9585ad0302a8e05aceb42a8745ace782a8e45ace302a8685accb42a7fc5acc782a86c5acc302a7f05acab42a78c5aca78)
  (.lf 0)) (.nd (.lf
  0x77268ed77d0770c0ed75d077048ed73d076eaced71d076e20ed6fd076d90ed6dd076cb8ed6bd076c88ed69d076bc0ed67d076b48ed65d076abced63d076a60ed61d076a04ed5fd076960ed5dd0768e8ed5bd07688ced59d0767e4ed57d076764ed55d0766dced53d0766b8ed51d0766a8ed4fd076684ed4dd07663ced4bd076474ed49d07640ced47d0763b8ed45d076394ed43d06fdb4ed411077788edbecc77614edbccc7749cedbacc77330edb8cc771b0edb6cc770c8edb4cc76facedb2cc76ea4edb0cc76e54edaecc76d48edaccc76cfcedaacc76c28eda8cc76bd8eda6cc76b50eda4cc76ad0eda2cc76a20eda0cc769b0ed9ecc76930ed9ccc768b8ed9acc76830ed98cc767aced96cc7676ced94cc7651ced92cc76504ed90cc764e0ed8ecc764eced8ccc765e4ed8acc7647ced88cc763d4ed86cc762f0ed84cc7633ced82cc77608edbdd077544edbbd07732cedb9d0771bcedb7d077068edb5d0)
  (.lf 0)))

def shaWireTree21 : BTree :=
  .nd (.nd (.nd (.lf
  0x7a5d4eac8307a470eac6b47a55ceac6787a5bceac6307a328eac4b47a444eac4787a468eac4307a278eac2b47a31ceac2787a320eac2307ab00eb3eaa7aa98eb34aa7aa50eb2eaa7a980eb2caa7a934eb26aa7a8a8eb1caa7a890eb1aaa7a86ceb18aa7a874eb16aa7a5cceb08aa7ae54eb3b407ae60eb3ca07ae44eb39407ae50eb3aa07ae38eb37407ae40eb38a07ae28eb35f47ae34eb36a07ae14eb341e7ae20eb34b47ae24eb34147ae00eb31407ae0ceb32a07adf0eb2ff47adfceb30a07ade8eb2e1e7ade4eb2eb47adeceb2e147adc0eb2c1e7add0eb2cb47add4eb2c147adb0eb29407adb8eb2aa07ac9ceb27f47adaceb28a07ac94eb261e7ac90eb26b47ac98eb26147ac78eb23407ac84eb24a07ac68eb21407ac74eb22a07ac5ceb1f407ac64eb20a07ac4ceb1df47ac58eb1ea07ac44eb1c1e7ac40eb1cb47ac48eb1c147ac28eb1a1e7ac30eb1ab47ac34eb1a147ac1ceb181e7ac0ceb18b4)
  (.lf 0)) (.nd (.lf
  0x18f88439dd018f8c439bd018f904399d018f944397d018f984395d018f9c4393d018fa04391d018fa4438fd018fa8438dd018fac438bd018fb04389d018fb44387d018fb84385d018fbc4383d018fc04381d020fb047bfd020fb447bdd020fb847bbd020fbc47b9d020fc047b7d020fc447b5d020fc847b3d020fcc47b1d020fd047afd020fd447add020fd847abd020fdc47a9d020fe047a7d020fe447a5d020fe847a3d020fec47a1d020ff0479fd020ff4479dd020ff8479bd020ffc4799d0210004797d0210044795d0210084793d02100c4791d021010478fd021014478dd020cd4478bd020cb84789d020c8c4787d020c684785d020c444783d020bf44781d02252c4bbfd0225304bbdd0225344bbbd0225384bb9d02253c4bb7d0225404bb5d0225444bb3d0225484bb1d02254c4bafd0225504badd0225544babd0225584ba9d02255c4ba7d0225604ba5d0225644ba3d0225684ba1d02256c4b9fd0)
  (.lf 0))) (.nd (.nd (.lf
  0x4c76ca082304f4cca07cb44f4c8a07c784f4d0a07c304f4a4a07ab44f4a0a07a784f4a8a07a304f478a078b44f474a078784f47ca078304f44ca076b44f448a076784f450a076304f420a074b44f41ca074784f424a074304f3f4a072b44f3f0a072784f3f8a072304f3c8a070b44f3c4a070784f3cca070304f39ca06eb44f398a06e784f3a0a06e304f370a06cb44f36ca06c784f374a06c304f344a06ab44f340a06a784f348a06a304f318a068b44f314a068784f31ca068304f2eca066b44f2e8a066784f2f0a066304f2c0a064b44f2bca064784f2c4a064304f294a062b44f290a062784f298a062304f268a060b44f264a060784f26ca060304f23ca05eb44f238a05e784f240a05e304f210a05cb44f20ca05c784f214a05c304f1e4a05ab44f1e0a05a784f1e8a05a304f1b8a058b44f1b4a058784f1bca058304f18ca056b44f188a056784f190a056304f160a054b44f15ca054784f164a05430)
  (.lf 0)) (.nd (.lf
  0x2f37867d1d02f36467cfd02f35067cdd02f30467cbd02f2f067c9d02f2dc67c7d02f2c867c5d02f2b467c3d02f29c67c110315246abecc3152c6abccc315346abacc3153c6ab8cc315446ab6cc3154c6ab4cc315546ab2cc3155c6ab0cc315646aaecc3156c6aaccc315746aaacc3157c6aa8cc315846aa6cc3158c6aa4cc315946aa2cc3159c6aa0cc315a46a9ecc315ac6a9ccc315b46a9acc315bc6a98cc315c46a96cc315cc6a94cc315d46a92cc315dc6a90cc315e46a8ecc315ec6a8ccc315f46a8acc315fc6a88cc316046a86cc3160c6a84cc316146a82cc318786abdd0318646abbd0318506ab9d03183c6ab7d0318286ab5d0318146ab3d0318006ab1d0317ec6aafd0317d86aadd0317c46aabd0317b06aa9d03179c6aa7d0317886aa5d0317746aa3d0317606aa1d03174c6a9fd0317386a9dd0317246a9bd0317106a99d0316fc6a97d0316e86a95d0316d46a93d0316c06a91d0316ac6a8fd0)
  (.lf 0)))

def shaWireTree22 : BTree :=
  .nd (.nd (.nd (.lf
  0x3f5b0918eb43f614918e303f5a4918c783f56c918cb43f5a8918c303f560918a783f514918ab43f564918a303f5089188783f3b49188b43f50c9188303f3a49186783f35c9186b43f3ac9186303f3509184783f2849184b43f3549184303f26c9182783f2389182b43f27091823042df0957c7842e0c957cb442e20957c3042ca0957a7842dd8957ab442ddc957a3042a0895787842c949578b442c989578304288c957678429fc9576b442a009576304283c957478428789574b442884957430427ac957278428309572b442834957230426e8957078427a09570b4427a4957030426d8956e78426dc956eb4426e0956e30426c0956c78426c4956cb4426c8956c30426b4956a7842658956ab4426b8956a30425f0956878426289568b44262c9568304250c956678425e49566b4425e895663042454956478425009564b44250495643042404956278424409562b442444956230421bc956078423f89560b4)
  (.lf 0)) (.nd (.lf
  0x1fb8c405d2c1fac8405b2c1fa1040592c1f95040572c1f89840552c1f7e040532c1f72440512c1f660404f2c1f5a0404d2c1f4e4404b2c1f43040492c1f37840472c1f2b440452c1f1e440432c1f1844040cc1a6bc447f2c1a680447d2c1a63c447b2c1a5f844792c1a5b444772c1a57044752c1a52c44732c1a4e844712c1a4a4446f2c1a460446d2c1a41c446b2c1a3d844692c1a39444672c1a35044652c1a30c44632c1a2c844612c1a284445f2c1a240445d2c1a1fc445b2c1a1b844592c1a17444572c1a13044552c1a0ec44532c1a0a844512c1a064444f2c1a020444d2c19fdc444b2c19f9844492c19f5444472c19f1044452c19ecc44432c19eb04440cc1ae58487f2c1ae44487d2c1ae30487b2c1ae1c48792c1ae0848772c1adf448752c1ade048732c1adcc48712c1adb8486f2c1ada4486d2c1ad90486b2c1ad7c48692c1ad6848672c1ad5448652c1ad4048632c1ad2c48612c1ad18485f2c)
  (.lf 0))) (.nd (.nd (.lf
  0x889412fc780889812fc30087a412fab40882012fa780882412fa300871812f8b40879812f8780879c12f8300868c12f6b40870c12f6780871012f6300860812f4b40868012f4780868412f4300858812f2b4085fc12f2780860012f2300850012f0b40857c12f0780858012f0300847c12eeb4084f412ee78084f812ee30083f412ecb40847012ec780847412ec300837012eab4083e812ea78083ec12ea30082e812e8b40836412e8780836812e8300826412e6b4082dc12e678082e012e630081dc12e4b40825812e4780825c12e4300815012e2b4081d012e278081d412e230080cc12e0b40814412e0780814812e0300804412deb4080c012de78080c412de3007fb812dcb40803812dc780803c12dc3007f3412dab407fac12da7807fb012da3007eb412d8b407f2812d87807f2c12d83007e3412d6b407ea812d67807eac12d63007db412d4b407e2812d47807e2c12d43007d2c12d2b407da812d278)
  (.lf 0)) (.nd (.lf
  0x729b0ea56cc7299cea54cc729d0ea52cc729dcea50cc7274cea4ecc726a4ea4ccc72660ea4acc7294cea48cc725ccea46cc725d8ea44cc72568ea42cc730f0ea7dd0730dcea7bd0730c8ea79d0730b4ea77d0730a0ea75d073088ea73d073078ea71d073058ea6fd073048ea6dd073038ea6bd073028ea69d073014ea67d073004ea65d072ff0ea63d072fd0ea61d072fc0ea5fd072facea5dd072f98ea5bd072f84ea59d072f74ea57d072f60ea55d072f4cea53d072f38ea51d072960ea4fd07272cea4dd07271cea4bd072708ea49d072604ea47d0725f0ea45d072588ea43d072544ea41107aa64eafecc7aa48eafccc7aa34eafacc7aa18eaf8cc7a9fceaf6cc7a9e8eaf4cc7a9d0eaf2cc7a9b8eaf0cc7a9a0eaeecc7a964eaeccc7a7e8eaeacc7a7d4eae8cc7a7bceae6cc7a7a4eae4cc7a788eae2cc7a770eae0cc7a758eadecc7a740eadccc7a728eadacc7a710ead8cc7a6fcead6cc7a7f4ead4cc)
  (.lf 0)))

def shaWireTree23 : BTree :=
  .nd (.nd (.nd (.lf
  0x50068a2de7850070a2de3050058a2dcb450054a2dc785005ca2dc3050040a2dab45003ca2da7850044a2da3050024a2d8b450028a2d8785002ca2d83050018a2d6b450014a2d6785001ca2d6304fff0a2d4b44ffd8a2d4784fff4a2d4304ff90a2d2b44ff94a2d2784ff98a2d2304fd14a2d0b44ff80a2d0784ff84a2d0304fccca2ceb44fc48a2ce784fcd0a2ce304fc3ca2ccb44f6bca2cc784fc40a2cc304f6b0a2cab44f6aca2ca784f6b4a2ca304f698a2c8b44f694a2c8784f69ca2c8304f684a2c6b44f680a2c6784f688a2c6304f670a2c4b44f66ca2c4784f674a2c4304f65ca2c2b44f510a2c2784f660a2c23050424a33eaa5030ca33aaa502b8a332aa50288a32eaa50330a32aaa50224a328aa50324a326aa501d0a324aa50094a322aa5007ca320aa50098a31eaa50050a31caa50038a31aaa50000a316aa4fc88a30eaa4f6a8a30aaa503e0a33bf450404a33ca0503d4a33a1e503d8a33ab4)
  (.lf 0)) (.nd (.lf
  0x112443a532c111b03a512c111243a4f2c110ac3a4d2c110183a4b2c10f8c3a492c10f003a472c10e743a452c10df83a432c10da83a40cc136383e7f2c135dc3e7d2c1356c3e7b2c134d83e792c134603e772c133cc3e752c133543e732c132c03e712c132483e6f2c131c83e6d2c131483e6b2c130c83e692c130343e672c12fa83e652c12f303e632c12eb03e612c12e303e5f2c12d9c3e5d2c12d103e5b2c12c843e592c12bf83e572c12b6c3e552c12af43e532c12a603e512c129d43e4f2c129483e4d2c128d03e4b2c128503e492c127d03e472c127503e452c126bc3e432c126683e40cc20800427f2c2075c427d2c20698427b2c205e042792c2052842772c2046c42752c203b042732c202fc42712c2023c426f2c20184426d2c200cc426b2c2001042692c1ff4c42672c1fe9442652c1fdd442632c1fd1442612c1fc58425f2c1fb9c425d2c1fad8425b2c1fa2042592c1f96042572c1f8a842552c)
  (.lf 0))) (.nd (.nd (.lf
  0x10c3c00268110c4000267f10c4400267d10c4800267b10c4c00267910c5000267710c5400267510c5800267310c5c00267110c6000266f10c6400266d10c6800266b10c6c00266910c7000266710c7400266510c7800266310c7c002661124bc00265f124c000265d124c400265b124c8002659124cc002657124d0002655124d4002653124d8002651124dc00264f124e000264d124e400264b124e8002649124ec002647124f0002645124f4002643124f8002641124fc00263f1250000263d1250400263b125080026391250c0026371251000263512514002633125180026311251c00262f1252000262d1252400262b125280026291252c00262712530002625125340026231253800262113d9c00261f13da000261d13da400261b13da800261913dac00261713db000261513db400261313db800261113dbc00260f13dc000260d13dc400260b13dc800260913dcc00260713dd000260513dd4002603)
  (.lf 0)) (.nd (.lf
  0x6c558dc98cc6c560dc96cc6c568dc94cc6c570dc92cc6c578dc90cc6c580dc8ecc6c8ecdc8ccc6c58cdc8acc6c594dc88cc6c59cdc86cc6c5a4dc84cc6c5acdc82cc6ca3cdcbdd06ca28dcbbd06ca14dcb9d06ca00dcb7d06c9ecdcb5d06c9d8dcb3d06c9c4dcb1d06c9b0dcafd06c99cdcadd06c988dcabd06c974dca9d06c95cdca7d06c94cdca5d06c938dca3d06c924dca1d06c910dc9fd06c8fcdc9dd06c6b4dc9bd06c6a4dc99d06c690dc97d06c67cdc95d06c668dc93d06c654dc91d06c640dc8fd06c62cdc8dd06c61cdc8bd06c608dc89d06c5f4dc87d06c5dcdc85d06c5ccdc83d06c5b4dc81106fb38dc7ecc6fb40dc7ccc6fb48dc7acc6fbc4dc78cc6fbccdc76cc6fbd4dc74cc6fbdcdc72cc6fbe4dc70cc6fbecdc6ecc6fbf4dc6ccc6fbfcdc6acc6fc04dc68cc6fc0cdc66cc6fc14dc64cc6fc1cdc62cc6fc24dc60cc6fc2cdc5ecc6fc34dc5ccc6fc3cdc5acc6fc44dc58cc6fc4cdc56cc)
  (.lf 0)))

def shaWireTree24 : BTree :=
  .nd (.nd (.nd (.lf
  0x20ed8517f2c20ecc517d2c20eb0517b2c20edc51792c20e9051772c20e7451752c20e5851732c20e6051712c20e5c516f2c20e28516d2c20e7c516b2c20e0051692c20dec51672c20dd051652c20dc451632c20dd851612c20ddc515f2c20d90515d2c20d74515b2c20d5c51592c20d4851572c20d3851552c20d2051532c20d6451512c20cfc514f2c20cf0514d2c20cc8514b2c20cac51492c20c8051472c20c5c51452c20c3851432c20be85140cc22478557f2c22464557d2c22450557b2c2243c55792c2242855772c2241455752c2240055732c223ec55712c223d8556f2c223c4556d2c223b0556b2c2239c55692c2238855672c2237455652c2236055632c2234c55612c22338555f2c22324555d2c22310555b2c222fc55592c222e855572c222d455552c225dc55532c222a455512c22280554f2c2225c554d2c22238554b2c2221455492c221f055472c221cc55452c221a855432c221445540cc)
  (.lf
  0x2a51c58a4cc2a52458a2cc2a52c58a0cc2a534589ecc2a53c589ccc2a544589acc2a54c5898cc2a5545896cc2a55c5894cc2a5645892cc2a56c5890cc2a574588ecc2a57c588ccc2a584588acc2a58c5888cc2a5945886cc2a59c5884cc2a5a45882cc2b37858bdd02b31058bbd02b29c58b9d02b22858b7d02b1b058b5d02b13858b3d02b0c858b1d02b05c58afd02afe858add02af7858abd02af0058a9d02ae8458a7d02ae1058a5d02ada058a3d02ad3058a1d02acc0589fd02ac48589dd02abd4589bd02ab5c5899d02aae85897d02aa705895d02aa005893d02a9945891d02a920588fd02a8a8588dd02a830588bd02a7c05889d02a74c5887d02a6d05885d02a6685883d02a5ac5881101c70c587ecc1c714587ccc1c71c587acc1c7985878cc1c7a05876cc1c7a85874cc1c7b05872cc1c7b85870cc1c7c0586ecc1c7c8586ccc1c7d0586acc1c7d85868cc1c7e05866cc1c7e85864cc1c7f05862cc))
  (.nd (.lf
  0x59280038010592c0037ff059300037fd059340037fb059380037f90593c0037f7059400037f5059440037f3059480037f10594c0037ef059500037ed059540037eb059580037e90595c0037e7059600037e5059640037e3059680037e1071f80037df071fc0037dd072000037db072040037d9072080037d70720c0037d5072100037d3072140037d1072180037cf0721c0037cd072200037cb072240037c9072280037c70722c0037c5072300037c3072340037c1072380037bf0723c0037bd072400037bb072440037b9072480037b70724c0037b5072500037b3072540037b1072580037af0725c0037ad072600037ab072640037a9072680037a70726c0037a5072700037a3072740037a108ad800379f08adc00379d08ae000379b08ae400379908ae800379708aec00379508af000379308af400379108af800378f08afc00378d08b0000378b08b0400378908b0800378708b0c00378508b10003783)
  (.lf 0))) (.nd (.nd (.lf
  0x3376c6eb830337546eb678337506eb6b4337586eb630337406eb4783373c6eb4b4337446eb4303372c6eb278337286eb2b4337306eb230337186eb078337146eb0b43371c6eb030337046eae78337006eaeb4337086eae30336f06eac78336ec6eacb4336f46eac30336dc6eaa78336d86eaab4336e06eaa30336c86ea878336c46ea8b4336cc6ea830336b46ea678336b06ea6b4336b86ea630336a06ea4783369c6ea4b4336a46ea4303368c6ea278336886ea2b4336906ea230336786ea078336746ea0b43367c6ea030336646e9e78336606e9eb4336686e9e30336506e9c783364c6e9cb4336546e9c303363c6e9a78336386e9ab4336406e9a30336286e9878336246e98b43362c6e9830336146e9678336106e96b4336186e9630336006e9478335fc6e94b4336046e9430335ec6e9278335e86e92b4335f06e9230335d86e9078335d46e90b4335dc6e9030335c46e8e78335c06e8eb4335c86e8e30)
  (.lf 0)) (.nd (.lf
  0x16ae0006d7316ae8006d7116af0006d6f16af8006d6d16b00006d6b16b08006d6916b10006d6716b18006d6516b20006d6316b28006d6118034006d5f1803c006d5d18044006d5b1804c006d5918054006d571805c006d5518064006d531806c006d5118074006d4f1807c006d4d18084006d4b1808c006d4918094006d471809c006d45180a4006d43180ac006d41180b4006d3f180bc006d3d180c4006d3b180cc006d39180d4006d37180dc006d35180e4006d33180ec006d31180f4006d2f180fc006d2d18104006d2b1810c006d2918114006d271811c006d2518124006d231812c006d2119624006d1f1962c006d1d19634006d1b1963c006d1919644006d171964c006d1519654006d131965c006d1119664006d0f1966c006d0d19674006d0b1967c006d0919684006d071968c006d0519694006d031969c006d01196a4006cff196ac006cfd196b4006cfb196bc006cf9196c4006cf7196cc006cf5)
  (.lf 0)))

def shaWireTree25 : BTree :=
  .nd (.nd (.nd (.lf
  0x82bc4fea03082ba4fe9e7882ba8fe9eb482bacfe9e3082b98fe9c7882b90fe9cb482b9cfe9c3082b80fe9a7882b84fe9ab482b88fe9a3082b6cfe987882b68fe98b482b78fe983082b58fe967882b5cfe96b482b60fe963082b44fe947882b38fe94b482b48fe943082ae0fe927882ae8fe92b482aecfe923082ad4fe907882ac4fe90b482ad8fe903082934fe8e7882ab8fe8eb482abcfe8e3082654fe8c7882928fe8cb48292cfe8c308263cfe8a7882640fe8ab482644fe8a3082620fe887882630fe88b482634fe883082228fe86788254cfe86b482614fe863082180fe84788221cfe84b482220fe843082174fe827882164fe82b482178fe82307d868fe7cb47d86cfe7c787d870fe7c307d854fe7ab47d858fe7a787d85cfe7a307d840fe78b47d83cfe78787d844fe78307d830fe76b47d82cfe76787d834fe76307d818fe74b47d814fe74787d820fe74307d800fe72b47d804fe72787d808fe7230)
  (.lf 0)) (.nd (.lf
  0x192cc43dd2c192b843db2c192a443d92c1929043d72c1927c43d52c1926843d32c1925443d12c1924043cf2c1922c43cd2c1921843cb2c1920443c92c191f043c72c191dc43c52c191c843c32c191c443c0cc2145c47ff2c2144847fd2c2143447fb2c2142047f92c2140c47f72c213f847f52c213e447f32c213d047f12c213bc47ef2c213a847ed2c2139447eb2c2138047e92c2136c47e72c2135847e52c2134447e32c2133047e12c2131c47df2c2130847dd2c212f447db2c212e047d92c212cc47d72c212b847d52c212a447d32c2129047d12c2127c47cf2c2126847cd2c2125447cb2c2124047c92c2122c47c72c2121847c52c2120447c32c2120047c0cc229cc4bff2c229b84bfd2c229a44bfb2c229904bf92c2297c4bf72c229684bf52c229544bf32c229404bf12c2292c4bef2c229184bed2c229044beb2c228f04be92c228dc4be72c228c84be52c228b44be32c228a04be12c2288c4bdf2c)
  (.lf 0))) (.nd (.nd (.lf
  0x5ea78bc10785ea80bc10305ea6cbc0eb45e804bc0e785ea70bc0e305e7d4bc0cb45e74cbc0c785e7fcbc0c305e73cbc0ab45e740bc0a785e744bc0a305e728bc08b45e724bc08785e72cbc08305e718bc06b45e714bc06785e71cbc06305e6dcbc04b45e6e0bc04785e6e4bc04305e698bc02b45e5e4bc02785e69cbc02305d1a4c0bcb45d1a0c0bc785d1a8c0bc305d184c0bab45d190c0ba785d194c0ba305d170c0b8b45d178c0b8785d17cc0b8305d15cc0b6b45d164c0b6785d168c0b6305d150c0b4b45d14cc0b4785d154c0b4305d138c0b2b45d13cc0b2785d140c0b2305d128c0b0b45d124c0b0785d12cc0b0305d114c0aeb45d110c0ae785d118c0ae305d104c0acb45d100c0ac785d108c0ac305d0f0c0aab45d0ecc0aa785d0f4c0aa305d0dcc0a8b45d0d8c0a8785d0e0c0a8305d0c8c0a6b45d0c4c0a6785d0ccc0a6305d0acc0a4b45d0b0c0a4785d0b8c0a4305d09cc0a2b45d0a0c0a278)
  (.lf 0)) (.nd (.lf
  0x42aec8a9ecc42af48a9ccc42afc8a9acc42b048a98cc42b0c8a96cc42b148a94cc42b1c8a92cc42b248a90cc42b2c8a8ecc431448a8ccc4314c8a8acc431848a88cc42d2c8a86cc42b348a84cc42b3c8a82cc441d48abdd0441b48abbd043c748ab9d043c588ab7d043c448ab5d043c2c8ab3d043c148ab1d043c048aafd043bec8aadd043bd48aabd043ae88aa9d0439688aa7d0439588aa5d0439288aa3d0438a88aa1d0438208a9fd0437208a9dd0437088a9bd04365c8a99d0434a48a97d0434808a95d0434388a93d0434288a91d04339c8a8fd0433088a8dd0431748a8bd04315c8a89d042d448a87d042b708a85d042b5c8a83d042b448a81103ca048a7ecc3c9fc8a7ccc3ca088a7acc3c9f88a78cc3ca008a76cc3c9a88a74cc3c9a48a72cc3c9c08a70cc3c9a08a6ecc3c99c8a6ccc3c9e88a6acc3c9e48a68cc3c9788a66cc3c9f48a64cc3c9f08a62cc3c9908a60cc3c98c8a5ecc3c9ec8a5ccc)
  (.lf 0)))

def shaWireTree26 : BTree :=
  .nd (.nd (.nd (.lf
  0x5953cc15c7859540c15cb459544c15c305952cc15a7859530c15ab459534c15a30594f8c15878594fcc158b459500c15830594b8c15678594e8c156b4594ecc15630594acc1547859498c154b4594b0c1543059474c1527859488c152b45948cc1523059468c1507859460c150b45946cc1503059454c14e7859428c14eb459458c14e305941cc14c7859408c14cb459420c14c30593fcc14a78593f8c14ab459400c14a30593e8c14878593e4c148b4593ecc1483058314c1467858374c146b458378c1463058288c1447858304c144b45830cc144305823cc142785827cc142b458280c1423058ffcc1bc7859000c1bcb459004c1bc3058f7cc1ba7858f80c1bab458f84c1ba3058f6cc1b87858f70c1b8b458f74c1b83058f60c1b67858f5cc1b6b458f64c1b63058f4cc1b47858f44c1b4b458f50c1b43058f34c1b27858f38c1b2b458f3cc1b23058f24c1b07858f20c1b0b458f28c1b03058f08c1ae78)
  (.lf 0)) (.nd (.lf
  0x2e144601d2c2e0d4601b2c2e06060192c2dfec60172c2df7c60152c2df1060132c2de9c60112c2de2c600f2c2ddb8600d2c2dd48600b2c2dcd460092c2dc5460072c2dbd460052c2db5c60032c2db286000cc309c0643f2c30960643d2c308ec643b2c3087c64392c3080864372c3079864352c3072864332c306a864312c30628642f2c305a8642d2c30520642b2c3049464292c3041064272c3039064252c3031064232c3028864212c301fc641f2c30170641d2c300ec641b2c3006c64192c2ffec64172c2ff6464152c2fed864132c2fe5464112c2fdd4640f2c2fd4c640d2c2fcc0640b2c2fc3c64092c2fbb464072c2fb3064052c2faac64032c2fa786400cc328cc683f2c3286c683d2c327f8683b2c3278068392c3271068372c326a468352c3263868332c325c868312c32550682f2c324d0682d2c32450682b2c323d068292c3235068272c322d068252c3224c68232c321c068212c3213c681f2c)
  (.lf 0))) (.nd (.nd (.lf
  0xd78423d2b40d78c23d2300d77423d0780d77023d0b40d77823d0300d76023ce780d75c23ceb40d76423ce300d74c23cc780d74823ccb40d75023cc300d73823ca780d73423cab40d73c23ca300d72423c8780d72023c8b40d72823c8300d71023c6780d70c23c6b40d71423c6300d6fc23c4780d6f823c4b40d70023c4300d6e823c2780d6e423c2b40d6ec23c2301046c26bc781046826bcb41047026bc30103fc26ba78103f826bab41040026ba301037c26b8781037826b8b41038026b830102f426b678102f026b6b4102f826b6301027026b4781026c26b4b41027426b430101f026b278101ec26b2b4101f426b2301016826b0781016426b0b41016c26b030100e426ae78100e026aeb4100e826ae301005c26ac781005826acb41006026ac300ffd826aa780ffd426aab40ffdc26aa300ff5826a8780ff5426a8b40ff5c26a8300fed826a6780fed426a6b40fedc26a6300fe5826a4780fe5426a4b4)
  (.lf 0)) (.nd (.lf
  0x93282586cc092a82584cc092282582cc0a14025bdd00a0b025bbd00a03425b9d009fa825b7d009f1825b5d009e9825b3d009e1c25b1d009d9025afd009d0425add009c7825abd009bec25a9d009b5c25a7d009adc25a5d009a5c25a3d0099e025a1d009950259fd0098d0259dd009850259bd0097d42599d0097442597d0096c42595d0096442593d0095c82591d00953c258fd0094b0258dd009424258bd0093982589d0093082587d0092882585d0092082583d0091c82581100ba58297ecc0b9e8297ccc0b96c297acc0b8f02978cc0b8602976cc0b7e02974cc0b7642972cc0b6d42970cc0b654296ecc0b5d4296ccc0b558296acc0b4cc2968cc0b4402966cc0b3b42964cc0b3282962cc0b29c2960cc0b210295ecc0b180295ccc0b100295acc0b0802958cc0b0002956cc0af802954cc0af042952cc0ae742950cc0adf8294ecc0ad68294ccc0acec294acc0ac5c2948cc0abdc2946cc0ab6c2944cc)
  (.lf 0)))

def shaWireTree27 : BTree :=
  .nd (.nd (.nd (.lf
  0x59370b6b43059358b6b27859354b6b2b45935cb6b23059344b6b07859340b6b0b459348b6b03059330b6ae785932cb6aeb459334b6ae305931cb6ac7859318b6acb459320b6ac3059308b6aa7859304b6aab45930cb6aa30592f4b6a878592f0b6a8b4592f8b6a830592e0b6a678592dcb6a6b4592e4b6a630592ccb6a478592c8b6a4b4592d0b6a430592b8b6a278592b4b6a2b4592bcb6a230592a4b6a078592a0b6a0b4592a8b6a03059290b69e785928cb69eb459294b69e305927cb69c7859278b69cb459280b69c3059268b69a7859264b69ab45926cb69a3059254b6987859250b698b459258b6983059240b696785923cb696b459244b696305922cb6947859228b694b459230b6943059218b6927859214b692b45921cb6923059204b6907859200b690b459208b69030591ecb68e78591f0b68eb4591f4b68e30591d0b68c78591dcb68cb4591e0b68c30591c0b68a78591c4b68ab4591c8b68a30)
  (.lf 0)) (.nd (.lf
  0x16b383ac0cc188ac3eff2c1886c3efd2c188303efb2c187f83ef92c187c03ef72c187883ef52c187503ef32c1870c3ef12c186c43eef2c186843eed2c186483eeb2c186043ee92c185bc3ee72c185803ee52c185403ee32c184fc3ee12c184b83edf2c184743edd2c184303edb2c183ec3ed92c183b03ed72c183783ed52c183403ed32c183003ed12c182c43ecf2c182843ecd2c182403ecb2c181fc3ec92c181c03ec72c1818c3ec52c2080842ff2c2076442fd2c206a042fb2c205e842f92c2053042f72c2047442f52c203b842f32c2030442f12c2024442ef2c2018c42ed2c200d442eb2c2001842e92c1ff5442e72c1fe9c42e52c1fddc42e32c1fd1c42e12c1fc6042df2c1fba442dd2c1fae042db2c1fa2842d92c1f96842d72c1f8b042d52c1f7f842d32c1f73c42d12c1f67842cf2c1f5b842cd2c1f4fc42cb2c1f44842c92c1f39042c72c1f2cc42c52c1f1fc42c32c1f19c42c0cc21d5046ff2c)
  (.lf 0))) (.nd (.nd (.lf
  0x1a1284452301a0e04450b41a0dc4450781a0e44450301a09c444eb41a098444e781a0a0444e301a058444cb41a054444c781a05c444c301a014444ab41a010444a781a018444a3019fd04448b419fcc44487819fd444483019f8c4446b419f8844467819f9044463019f484444b419f4444447819f4c44443019f044442b419f0044427819f084442301a6a0443cb41a66c443c781a6a4443c301a660443ab41a628443a781a664443a301a61c4438b41a5e44438781a6204438301a5d84436b41a5a04436781a5dc4436301a5944434b41a55c4434781a5984434301a5504432b41a5184432781a5544432301a50c4430b41a4d44430781a5104430301a4c8442eb41a490442e781a4cc442e301a484442cb41a44c442c781a488442c301a440442ab41a408442a781a444442a301a3fc4428b41a3c44428781a4004428301a3b84426b41a3804426781a3bc4426301a3744424b41a33c4424781a378442430)
  (.lf 0)) (.nd (.lf
  0x3880645d0003740643d0002e006411003dc006fecc03d4806fccc03cbc06facc03c3006f8cc03bac06f6cc03b2c06f4cc03aac06f2cc03a2406f0cc039a006eecc0392006eccc0389806eacc0380c06e8cc0378806e6cc0370006e4cc0367406e2cc035e806e0cc0356406decc034dc06dccc0345806dacc033d806d8cc0335806d6cc032d006d4cc0324c06d2cc031cc06d0cc0314406cecc030c006cccc0304006cacc02fb806c8cc02f3406c6cc02eb406c4cc02e3406c2cc03da806fdd003d2c06fbd003ca006f9d003c1406f7d003b9006f5d003b1006f3d003a9006f1d003a0806efd00398406edd00390406ebd00387c06e9d0037f006e7d00376c06e5d0036e406e3d00365806e1d0035cc06dfd00354806ddd0034c006dbd00343c06d9d0033bc06d7d00333c06d5d0032b406d3d00323006d1d0031b006cfd00312806cdd0030a406cbd00302406c9d002f9c06c7d002f1806c5d002e9806c3d0)
  (.lf 0)))

def shaWireTree28 : BTree :=
  .nd (.nd (.nd (.lf
  0x7fec01c7ab47fec81c7a307feb01c78787feac1c78b47feb41c78307fe981c76787fea01c76b47fea41c76307fe841c74787fe8c1c74b47fe901c74307fe701c72787fe741c72b47fe781c72307fe641c70787fe601c70b47fe681c70307fe501c6e787fe481c6eb47fe541c6e307fe381c6c787fe3c1c6cb47fe401c6c307fe241c6a787fe281c6ab47fe2c1c6a307fe101c68787fe141c68b47fe181c68307fdf81c66787fe001c66b47fe041c66307fde81c64787fde41c64b47fdec1c64307fdd81c62787fdd01c62b47fddc1c62307fdc41c60787fdbc1c60b47fdc81c60307fdac1c5e787fdb01c5eb47fdb41c5e307fd981c5c787fd9c1c5cb47fda01c5c307fd881c5a787fd841c5ab47fd8c1c5a307fd6c1c58787fd741c58b47fd781c58307fd5c1c56787fd581c56b47fd641c56307fd481c54787fd441c54b47fd501c54307fd341c52787fd381c52b47fd3c1c52307fd241c50787e8781c50b4)
  (.lf 0)) (.nd (.lf
  0x299005ba0b4298d85b9eb42956c5b9cb4295705b9ab4295745b98b4295785b96b42957c5b94b4295805b92b4295845b90b4295885b8eb42958c5b8cb4295905b8ab4295945b88b4295985b86b42959c5b84b4295a05b82b4295a45b80b4281e45bbe78281e85bbc78281ec5bba78281f05bb878281f45bb678281f85bb478281fc5bb278282005bb078282045bae78282085bac782820c5baa78282105ba878282145ba678282185ba4782821c5ba278282205ba078282245b9e78282285b9c782822c5b9a78282305b9878282345b9678282385b94782823c5b9278282405b9078282445b8e78282485b8c782824c5b8a78282505b8878282545b8678282585b84782825c5b8278282605b807829d105bbe3029cb45bbc3029c5c5bba3029c045bb83029bac5bb63029b545bb43029afc5bb23029aa45bb03029a4c5bae3029a085bac30299d05baa30299a45ba8302997c5ba630299545ba4302992c5ba230)
  (.lf 0))) (.nd (.nd (.lf
  0x2130047da30212e847d878212e447d8b4212ec47d830212d447d678212d047d6b4212d847d630212c047d478212bc47d4b4212c447d430212ac47d278212a847d2b4212b047d2302129847d0782129447d0b42129c47d0302128447ce782128047ceb42128847ce302127047cc782126c47ccb42127447cc302125c47ca782125847cab42126047ca302124847c8782124447c8b42124c47c8302123447c6782123047c6b42123847c6302122047c4782121c47c4b42122447c4302120c47c2782120847c2b42121047c2302312c4abc78231284abcb4231304abc30231184aba78231144abab42311c4aba30231044ab878231004ab8b4231084ab830230f04ab678230ec4ab6b4230f44ab630230dc4ab478230d84ab4b4230e04ab430230c84ab278230c44ab2b4230cc4ab230230b44ab078230b04ab0b4230b84ab030230a04aae782309c4aaeb4230a44aae302308c4aac78230884aacb4230904aac30)
  (.lf 0)) (.nd (.lf
  0x4c18ca9bbd04bec0a9b9d04beaca9b7d04be98a9b5d04be84a9b3d04bd78a9b1d04bc54a9afd04bb98a9add04bb88a9abd04ba3ca9a9d04ba08a9a7d04b928a9a5d04b880a9a3d04b75ca9a1d04b6fca99fd04b6c4a99dd04b66ca99bd04b600a999d04b504a997d04b47ca995d04b438a993d04b3c8a991d04b320a98fd04b2b0a98dd04b1d4a98bd04b138a989d04b0cca987d04b048a985d04afd4a983d04af20a981104e168ad7ecc4e104ad7ccc4e004ad7acc4e020ad78cc4df64ad76cc4de84ad74cc4de10ad72cc4ddacad70cc4dd00ad6ecc4dca4ad6ccc4db7cad6acc4db68ad68cc4db8cad66cc4da6cad64cc4da1cad62cc4d9dcad60cc4d96cad5ecc4d92cad5ccc4d8d8ad5acc4d8acad58cc4d784ad56cc4d6f0ad54cc4d6c4ad52cc4d68cad50cc4d5ecad4ecc4d598ad4ccc4d520ad4acc4d42cad48cc4d41cad46cc4d440ad44cc4d330ad42cc4e100ad7dd04e060ad7bd04e03cad79d0)
  (.lf 0)))

def shaWireTree29 : BTree :=
  .nd (.nd (.nd (.lf
  0x6ea5cda7cb46ea60da7c786ea64da7c306ea4cda7ab46ea50da7a786ea54da7a306ea40da78b46ea34da78786ea44da78306ea28da76b46ea24da76786ea2cda76306ea14da74b46ea18da74786ea1cda74306ea00da72b46e9f0da72786ea04da72306e9d4da70b46e9d8da70786e9e0da70306e9c8da6eb46e9c0da6e786e9ccda6e306e9b0da6cb46e9b4da6c786e9b8da6c306e9a0da6ab46e990da6a786e9a4da6a306e984da68b46e97cda68786e988da68306e970da66b46e96cda66786e974da66306e958da64b46e948da64786e95cda64306e934da62b46e93cda62786e940da62306e91cda60b46e928da60786e92cda60306e908da5eb46e904da5e786e914da5e306e8f8da5cb46e8f4da5c786e8fcda5c306e8d4da5ab46e8e8da5a786e8ecda5a306e8c8da58b46e8bcda58786e8ccda58306e8a4da56b46e8a8da56786e8b4da56306e898da54b46e888da54786e89cda54306e828da52b4)
  (.lf 0)) (.nd (.lf
  0x1914c005cfd19154005cfb1915c005cf919164005cf71916c005cf519174005cf31917c005cf119184005cef1918c005ced19194005ceb1919c005ce9191a4005ce7191ac005ce5191b4005ce3191bc005ce121100005cdf21108005cdd21110005cdb21118005cd921120005cd721128005cd521130005cd321138005cd121140005ccf21148005ccd21150005ccb21158005cc921160005cc721168005cc521170005cc321178005cc121180005cbf21188005cbd21190005cbb21198005cb9211a0005cb7211a8005cb5211b0005cb3211b8005cb1211c0005caf211c8005cad211d0005cab211d8005ca9211e0005ca7211e8005ca5211f0005ca3211f8005ca122670005c9f22678005c9d22680005c9b22688005c9922690005c9722698005c95226a0005c93226a8005c91226b0005c8f226b8005c8d226c0005c8b226c8005c89226d0005c87226d8005c85226e0005c83226e8005c81226f0005c7f)
  (.lf 0))) (.nd (.nd (.lf
  0x3be94802eb43beb4802e783beb8802e303be68802cb43be88802c783be8c802c303be3c802ab43be5c802a783be60802a303be108028b43be308028783be348028303bde48026b43be048026783be088026303bdb48024b43bdd88024783bddc8024303bd888022b43bda88022783bdac8022303bd5c8020b43bd7c8020783bd808020303bd30801eb43bd50801e783bd54801e303bd04801cb43bd24801c783bd28801c303bcd8801ab43bcf8801a783bcfc801a303bca88018b43bccc8018783bcd08018303bc788016b43bc9c8016783bca08016303bc488014b43bc6c8014783bc708014303bc1c8012b43bc3c8012783bc408012303bbf08010b43bc108010783bc148010303bbc4800eb43bbe4800e783bbe8800e303bb98800cb43bbb8800c783bbbc800c303bb6c800ab43bb8c800a783bb90800a303bb408008b43bb608008783bb648008303bb148006b43bb348006783bb388006303bae48004b4)
  (.lf 0)) (.nd (.lf
  0x2131847ddd02130447dbd0212f047d9d0212dc47d7d0212c847d5d0212b447d3d0212a047d1d02128c47cfd02127847cdd02126447cbd02125047c9d02123c47c7d02122847c5d02121447c3d0211fc47c11022de04abecc22de84abccc22df04abacc22df84ab8cc22e004ab6cc22e084ab4cc22e104ab2cc22e184ab0cc22e204aaecc22e284aaccc22e304aaacc22e384aa8cc22e404aa6cc22e484aa4cc22e504aa2cc22e584aa0cc22e604a9ecc22e684a9ccc22e704a9acc22e784a98cc22e804a96cc22e884a94cc22e904a92cc22e984a90cc22ea04a8ecc22ea84a8ccc22eb04a8acc22eb84a88cc22ec04a86cc22ec84a84cc22ed04a82cc231344abdd0231204abbd02310c4ab9d0230f84ab7d0230e44ab5d0230d04ab3d0230bc4ab1d0230a84aafd0230944aadd0230804aabd02306c4aa9d0230584aa7d0230444aa5d0230304aa3d02301c4aa1d0230084a9fd022ff44a9dd022fe04a9bd0)
  (.lf 0)))

def shaWireTree30 : BTree :=
  .nd (.nd (.nd (.lf
  0x298a865bc302989065ba782988865bab42989465ba302987c65b8782987465b8b42988065b8302986865b6782986065b6b42986c65b6302985465b4782984c65b4b42985865b4302984065b2782983865b2b42984465b2302982c65b0782982465b0b42983065b0302981865ae782981065aeb42981c65ae302980465ac78297fc65acb42980865ac30297f065aa78297e865aab4297f465aa30297dc65a878297d465a8b4297e065a830297c865a678297c065a6b4297cc65a630297ac65a478297b465a4b4297b865a430297a065a2782979865a2b4297a465a2302978465a0782978c65a0b42979065a03029778659e7829770659eb42977c659e302975c659c7829764659cb429768659c3029750659a7829748659ab429754659a30297346598782973c6598b42974065983029728659678297206596b42972c6596302970c659478297146594b42971865943029700659278296f86592b429704659230)
  (.lf 0)) (.nd (.lf
  0x5d028003cfd5cfac003cfb5d030003cf95cfb4003cf75cf38003cf55cec0003cf35ce30003cf15cdb4003cef5cd2c003ced5cc94003ceb5cc28003ce95cba4003ce75cb30003ce55cab4003ce35ca44003ce15f3fc003cdf5f404003cdd5f40c003cdb5f414003cd95f41c003cd75f424003cd55f42c003cd35f434003cd15f43c003ccf5f444003ccd5f4a4003ccb5f4ac003cc95f4b4003cc75f4bc003cc55f4c4003cc35f4cc003cc15f4d4003cbf5f4dc003cbd5f4e4003cbb5f4ec003cb95f4f4003cb75f4fc003cb55f504003cb35f50c003cb15f514003caf5f51c003cad5f524003cab5f52c003ca95f534003ca75f53c003ca55f544003ca35f54c003ca160ed0003c9f60ed8003c9d60ee0003c9b60ee8003c9960ef0003c9760ef8003c9560f00003c9360f08003c9160f10003c8f60f18003c8d60f78003c8b60f80003c8960f88003c8760f90003c8560f98003c8360fa0003c8160fa8003c7f)
  (.lf 0))) (.nd (.nd (.lf
  0x74fc0fcae3074fa8fcacb474fa0fcac7874facfcac3074f90fcaab474f94fcaa7874f98fcaa3074f80fca8b474f78fca87874f84fca83074f68fca6b474f6cfca67874f70fca63074f58fca4b474f54fca47874f5cfca43074f44fca2b474f40fca27874f48fca23074f2cfca0b474f30fca07874f34fca03074f1cfc9eb474f10fc9e7874f20fc9e3074f04fc9cb474efcfc9c7874f08fc9c3074ef0fc9ab474eecfc9a7874ef4fc9a3074ed8fc98b474ee0fc987874ee4fc983074eccfc96b474ec4fc967874ed0fc963074eb4fc94b474eb8fc947874ebcfc943074ea8fc92b474ea0fc927874eacfc923074e88fc90b474e8cfc907874e98fc903074d7cfc8eb474e7cfc8e7874e80fc8e3074d68fc8cb474d70fc8c7874d74fc8c3074d5cfc8ab474d54fc8a7874d60fc8a3074cccfc88b474d48fc887874d4cfc883074cc0fc86b474cbcfc867874cc4fc863074c68fc84b474cb0fc847874cb4fc8430)
  (.lf 0)) (.nd (.lf
  0x645f8ca99d0645e4ca97d0645d0ca95d0645bcca93d0645a4ca91d064594ca8fd064578ca8dd064560ca8bd06454cca89d0643c4ca87d0643b0ca85d064398ca83d06434cca811065adcca7ecc65ac8ca7ccc65ae0ca7acc65a98ca78cc659bcca76cc659b0ca74cc659a4ca72cc65998ca70cc6598cca6ecc65870ca6ccc65820ca6acc657d0ca68cc6578cca66cc65754ca64cc6571cca62cc656dcca60cc65684ca5ecc65634ca5ccc655e4ca5acc6559cca58cc65554ca56cc654c0ca54cc65444ca52cc653ccca50cc6534cca4ecc652e0ca4ccc65220ca4acc65098ca48cc65038ca46cc64fe8ca44cc64f8cca42cc65d78ca7dd065d68ca7bd065d50ca79d065d38ca77d065d20ca75d065cfcca73d065ce4ca71d065cccca6fd065cb4ca6dd065ca4ca6bd065c8cca69d065c74ca67d065c58ca65d065c48ca63d065c30ca61d065698ca5fd065648ca5dd0655dcca5bd0655a8ca59d06554cca57d0)
  (.lf 0)))

def shaWireTree31 : BTree :=
  .nd (.nd (.nd (.lf
  0x441988fce784419c8fceb4441a08fce30440508fcc784410c8fccb4441108fcc30440408fca78440448fcab4440488fca30440308fc8784402c8fc8b4440348fc83043e508fc6784401c8fc6b4440208fc63043da48fc47843e448fc4b443e488fc43043d3c8fc27843d988fc2b443d9c8fc2304693092bc784692492bcb44693492bc304691092ba784691892bab44691c92ba30468f892b8784690492b8b44690892b830468e092b678468e492b6b4468f092b630468d092b478468d492b4b4468d892b430468a892b278468b492b2b4468b892b2304689c92b0784689892b0b4468a092b0304688492ae784687892aeb44688892ae304686892ac784686c92acb44687092ac304685c92aa784685092aab44686092aa304683892a8784684492a8b44684892a8304681892a6784682c92a6b44683092a6304680c92a4784680092a4b44681092a430467f492a278467f092a2b4467f892a230467e492a078)
  (.lf 0)) (.nd (.lf
  0x16d383a932c16cf83a912c16cb83a8f2c16c7c3a8d2c16c3c3a8b2c16c003a892c16bc83a872c16b883a852c16b443a832c16b303a80cc188a43ebf2c188643ebd2c188283ebb2c187f03eb92c187b83eb72c187803eb52c187483eb32c187043eb12c186bc3eaf2c1867c3ead2c186403eab2c185fc3ea92c185b43ea72c185783ea52c185383ea32c184f43ea12c184b03e9f2c1846c3e9d2c184283e9b2c183e43e992c183a83e972c183703e952c183383e932c182f83e912c182bc3e8f2c1827c3e8d2c182383e8b2c181f43e892c181b83e872c181843e852c181503e832c181343e80cc1998042bf2c1996c42bd2c1995842bb2c1994442b92c1993042b72c1991c42b52c1990842b32c198f442b12c198e042af2c198cc42ad2c198b842ab2c198a442a92c1989042a72c1987c42a52c1986842a32c1985442a12c19840429f2c1982c429d2c19818429b2c1980442992c197f042972c197dc42952c)
  (.lf 0))) (.nd (.nd (.lf
  0x45c1c92205045c20921e5045c24921c5045ab4921a5045a6c92185045a20921650459c8921450459cc921250459d0921050458d8920e5045854920c5045858920a504579c920850455d4920650454089204504540c9202504532c92005045fe8963e7845fec963c7845f98963a7845f9c96387845fa096367845fa496347845fa896327845fac96307845fb0962e7845fb4962c7845fb8962a784600096287845c7c96267845c3c96247845c4096227845c4496207845c48961e7845c4c961c7845abc961a7845a7496187845a28961678459e0961478459e4961278459e8961078458e0960e7845864960c7845868960a78457a4960878455dc960678454189604784541c960278453349600784809c963e50480a0963c50480a4963a50480a896385047fb496365047fb89634504821096325047fbc96305047fc0962e5047fc4962c5047fc8962a5047fcc96285047fd096265047fd496245047fd8962250)
  (.lf 0)) (.nd (.lf
  0x554d8b09ccc554e0b09acc554e8b098cc554f0b096cc554f8b094cc55500b092cc55508b090cc55510b08ecc55518b08ccc55520b08acc55528b088cc55530b086cc55538b084cc55540b082cc557a4b0bdd055790b0bbd05577cb0b9d055768b0b7d055754b0b5d055740b0b3d05572cb0b1d055718b0afd055704b0add0556f0b0abd0556dcb0a9d0556c8b0a7d0556b4b0a5d0556a0b0a3d05568cb0a1d055678b09fd055664b09dd055650b09bd05563cb099d055628b097d055614b095d055600b093d0555ecb091d0555d8b08fd0555c4b08dd0555b0b08bd05559cb089d055588b087d055574b085d055560b083d055548b0811057af4b07ecc57afcb07ccc57b04b07acc57b80b078cc57b88b076cc57b90b074cc57b98b072cc57ba0b070cc57ba8b06ecc57bb0b06ccc57bb8b06acc57bc0b068cc57bc8b066cc57bd0b064cc57bd8b062cc57be0b060cc57be8b05ecc57bf0b05ccc57bf8b05acc)
  (.lf 0)))

def shaWireTree32 : BTree :=
  .nd (.nd (.nd (.lf
  0x47f0000000047d0000000047b00000000479000000004770000000047500000000473000000004710000000046f0000000046d0000000046b00000000469000000004670000000046500000000463000000004610000000045f0000000045d0000000045b00000000459000000004570000000045500000000453000000004510000000044f0000000044d0000000044b00000000449000000004470000000044500000000443000000004410000000043f0000000043d0000000043b00000000439000000004370000000043500000000433000000004310000000042f0000000042d0000000042b00000000429000000004270000000042500000000423000000004210000000041f0000000041d0000000041b00000000419000000004170000000041500000000413000000004110000000040f0000000040d0000000040b0000000040900000000407000000004050000000040300000000401)
  (.lf
  0x452548c3dd0452288c3bd0451fc8c39d0451d08c37d0451a48c35d0451748c33d0451448c31d0451148c2fd0450e48c2dd0450b48c2bd0450848c29d0450588c27d04502c8c25d044ffc8c23d044fd08c21d044fa48c1fd044f788c1dd044f4c8c1bd044f208c19d044ef48c17d044ec88c15d044e9c8c13d044e708c11d044e448c0fd044e188c0dd044dec8c0bd044dc08c09d044d948c07d044d688c05d044d3c8c03d044d1c8c01103cc5490becc3cc5c90bccc3cc6490bacc3cc6c90b8cc3cc7490b6cc3cc7c90b4cc3cc8490b2cc3cc8c90b0cc3cc9490aecc3cc9c90accc3ccfc90aacc3cd0490a8cc3cd0c90a6cc3cd1490a4cc3cd1c90a2cc3cd2490a0cc3cd2c909ecc3cd34909ccc3cd3c909acc3cd449098cc3cd4c9096cc3cd549094cc3cd5c9092cc3cd649090cc3cd6c908ecc3cd74908ccc3cd7c908acc3cd849088cc3cd8c9086cc3cd949084cc3cd9c9082cc3d2d890bdd03d2b090bbd0))
  (.nd (.lf
  0x13c5832205013c5c321e5013c60321c5013c64321a5013c6832185013c6c32165013c7032145013c7432125013c7832105013c7c320e5013c80320c5013c84320a5013c8832085013c8c32065013c9032045013c9432025013c9832005013d1c363e7813d20363c7813d24363a7813d2836387813d2c36367813d3036347813d3436327813d3836307813d3c362e7813d40362c7813d44362a7813d4836287813d4c36267813d5036247813d5436227813d5836207813d5c361e7813d60361c7813d64361a7813d6836187813d6c36167813d7036147813d7436127813d7836107813d7c360e7813d80360c7813d84360a7813d8836087813d8c36067813d9036047813d9436027813d9836007814ba8363e5014bac363c5014bb0363a5014bb436385014bb836365014bbc36345014bc036325014bc436305014bc8362e5014bcc362c5014bd0362a5014bd436285014bd836265014bdc36245014be0362250)
  (.lf 0))) (.nd (.nd (.lf
  0x3f4d882c8303f37482c6b43f37082c6783f37882c6303f2ac82c4b43f36482c4783f36882c4303f24c82c2b43f2a082c2783f2a482c2303fc38833aaa3fb888334aa3fb308332aa3faf48330aa3faac832eaa3fa24832aaa3f9d88328aa3f9508324aa3f9088322aa3f8c08320aa3fe5c8316aa3f6d48312aa3f604830eaa3f31c8304aa3fc4c833bf43fc98833ca03fc0c833a1e3fc44833ab43fc48833a143fbc88337403fc008338a03fb9c8335f43fbc48336a03fb4883341e3fb948334b43fb988334143fb0c83321e3fb3c8332b43fb408332143fac483301e3fb008330b43fb048330143fa74832e1e3fab0832eb43fab4832e143fa38832bf43fa6c832ca03f9f0832a1e3fa30832ab43fa34832a143f9b083281e3f9e48328b43f9e88328143f9648325f43f9a88326a03f92083241e3f9548324b43f9588324143f8d883221e3f9148322b43f9188322143f89c83201e3f8cc8320b43f8d0832014)
  (.lf 0)) (.nd (.lf
  0x382e87a13b0382787a11b0381d07a0fb03815c7a0db0380b47a0bb0380407a09b037f9c7a07b037f0c7a05b037e7c7a03b037de47a01b03aff87e3fb03af907e3db03ae247e3bb03ae287e39b03ae2c7e37b03ae307e35b03ae347e33b03ae387e31b03ae3c7e2fb03ab347e2db03ab387e2bb03ab3c7e29b03ab407e27b03ab447e25b03ab487e23b03ab4c7e21b03a8587e1fb03a85c7e1db03a8607e1bb03a8647e19b03a5447e17b03a5487e15b03a4847e13b03a4887e11b03a3d07e0fb03a2e47e0db03a2e87e0bb03a2ec7e09b03a2f07e07b03a2f47e05b03a2f87e03b03a2fc7e01b03ef2c823fb03ef30823db03ef34823bb03ef388239b03ef3c8237b03ef408235b03ef448233b03ef488231b03ef4c822fb03ef50822db03ef54822bb03ef588229b03ef5c8227b03ef608225b03ef648223b03ef688221b03ef6c821fb03ef70821db03ef74821bb03ef788219b03ef7c8217b03ef808215b0)
  (.lf 0)))

def shaWireTree33 : BTree :=
  .nd (.nd (.nd (.lf
  0x13f8c41843013f4841827813f2c4182b413f4c41823016418457c7816430457cb416434457c301640c457a78163f4457ab416410457a30163d0457878163e84578b4163ec457830163c4457678163ac4576b4163c845763016388457478163a04574b4163a44574301637c457278163644572b41638045723016340457078163584570b41635c45703016334456e7816330456eb416338456e3016310456c781630c456cb416314456c30162ec456a78162e8456ab4162f0456a30162c8456878162c44568b4162cc456830162a4456678162a04566b4162a8456630162804564781627c4564b4162844564301625c456278162584562b41626045623016128456078161244560b41612c45603016114455e7816110455eb416118455e3016100455c78160fc455cb416104455c30160ec455a78160e8455ab4160f0455a30160d8455878160d44558b4160dc455830160c4455678160c04556b4160c8455630)
  (.lf 0)) (.nd (.lf
  0x608380048fd608400048fb608480048f9608500048f7608580048f5608600048f3608680048f1608700048ef608780048ed608800048eb608880048e9608900048e7608980048e5608a00048e3608a80048e162a4c0048df62a540048dd62a5c0048db62ad80048d962ae00048d762ae80048d562af00048d362af80048d162b000048cf62b080048cd62b100048cb62b180048c962b200048c762b280048c562b300048c362b380048c162b400048bf62b480048bd62b500048bb62b580048b962b600048b762b680048b562b700048b362b780048b162b800048af62b880048ad62b900048ab62b980048a962ba00048a762ba80048a562bb00048a362bb80048a164d6000489f64d6800489d64d7000489b64dec00489964df400489764dfc00489564e0400489364e0c00489164e1400488f64e1c00488d64e2400488b64e2c00488964e3400488764e3c00488564e4400488364e4c00488164e5400487f)
  (.lf 0))) (.nd (.nd (.lf
  0x71f98e4723071c94e470b471f70e4707871f74e4703071c7ce46eb471c88e46e7871c8ce46e3071c70e46cb471c6ce46c7871c74e46c3071c48e46ab471c44e46a7871c4ce46a3071c38e468b471c34e4687871c3ce4683071c18e466b471c14e4667871c24e4663071c04e464b471c08e4647871c0ce4643071bece462b471bf0e4627871bf4e4623071bd8e460b471bb8e4607871bdce4603071ba4e45eb471b98e45e7871ba8e45e3071b88e45cb471b80e45c7871b90e45c3071b74e45ab471b64e45a7871b78e45a3071b1ce458b471b20e4587871b5ce4583071b10e456b471a98e4567871b14e4563071a84e454b471a7ce4547871a90e4543071a40e452b471a3ce4527871a74e4523071a2ce450b4719b8e4507871a30e4503071988e44eb471994e44e78719a8e44e307196ce44cb471968e44c7871980e44c3071848e44ab47184ce44a7871960e44a3071834e448b47182ce4487871840e44830)
  (.lf 0)) (.nd (.lf
  0x57564b28fd057550b28dd057538b28bd057524b289d057510b287d0574fcb285d0574e8b283d0574c8b2811058268b27ecc58264b27ccc58260b27acc5825cb278cc58258b276cc58254b274cc58238b272cc58234b270cc58230b26ecc5822cb26ccc58228b26acc58224b268cc58220b266cc5821cb264cc58218b262cc58214b260cc58210b25ecc5820cb25ccc58208b25acc58204b258cc58200b256cc581fcb254cc581f8b252cc581f4b250cc581f0b24ecc581ecb24ccc581e8b24acc581e4b248cc581e0b246cc581dcb244cc581d8b242cc58aecb27dd058724b27bd058710b279d0586f0b277d0586e0b275d0586ccb273d0586b0b271d058694b26fd058684b26dd05866cb26bd05865cb269d058640b267d05862cb265d058614b263d0585fcb261d0585e4b25fd0585ccb25dd0585b4b25bd05859cb259d058584b257d05856cb255d058534b253d0584f4b251d0584b4b24fd058474b24dd0)
  (.lf 0)))

def shaWireTree34 : BTree :=
  .nd (.nd (.nd (.lf
  0x7a41cf942b47a420f942307bec4f9bc787bec8f9bcb47bf00f9bc307be80f9ba787be7cf9bab47bebcf9ba307be70f9b8787be34f9b8b47be74f9b8307be04f9b6787be28f9b6b47be2cf9b6307bd80f9b4787bdf8f9b4b47bdfcf9b4307bcf8f9b2787bcfcf9b2b47bd58f9b2307bcacf9b0787bcb0f9b0b47bcecf9b0307bca0f9ae787bc9cf9aeb47bca4f9ae307bc28f9ac787bc90f9acb47bc94f9ac307bc1cf9aa787bc14f9aab47bc20f9aa307bc08f9a8787bc04f9a8b47bc0cf9a8307bbf8f9a6787bbf4f9a6b47bbfcf9a6307bbccf9a4787bbd0f9a4b47bbecf9a4307bba8f9a2787bba4f9a2b47bbc4f9a2307bb80f9a0787bb98f9a0b47bb9cf9a0307bb74f99e787bb58f99eb47bb78f99e307bb30f99c787bb4cf99cb47bb50f99c307bb20f99a787bb24f99ab47bb28f99a307ad8cf998787bb14f998b47bb18f998307ad38f996787ad3cf996b47ad6cf996307ad2cf994787acecf994b4)
  (.lf 0)) (.nd (.lf
  0xa1f81ba0b40a1fc1b9eb40a2001b9cb40a2041b9ab40a2081b98b40a20c1b96b40a2101b94b40a2141b92b40a2181b90b40a21c1b8eb40a2201b8cb40a2241b8ab40a2281b88b40a22c1b86b40a2301b84b40a2341b82b40a2381b80b408a581bbe7808a5c1bbc7808a601bba7808a641bb87808a681bb67808a6c1bb47808a701bb27808a741bb07808a781bae7808a7c1bac7808a801baa7808a841ba87808a881ba67808a8c1ba47808a901ba27808a941ba07808a981b9e7808a9c1b9c7808aa01b9a7808aa41b987808aa81b967808aac1b947808ab01b927808ab41b907808ab81b8e7808abc1b8c7808ac01b8a7808ac41b887808ac81b867808acc1b847808ad01b827808ad41b80780a23c1bbe300a2401bbc300a2441bba300a2481bb8300a24c1bb6300a2501bb4300a2541bb2300a2581bb0300a25c1bae300a2601bac300a2641baa300a2681ba8300a26c1ba6300a2701ba4300a2741ba230)
  (.lf 0))) (.nd (.nd (.lf
  0x16bec3ac8b416c1c3ac87816c203ac83016bb43ac6b416be03ac67816be43ac63016b743ac4b416ba83ac47816bac3ac43016b403ac2b416b683ac27816b6c3ac230172b83b3eaa172003b38aa171b83b36aa171383b32aa170f43b30aa170b03b2eaa1706c3b2caa16ff03b28aa16fac3b26aa16f683b24aa16d8c3b14aa16d443b12aa16cc43b0eaa16c483b0aaa16b943b04aa16b503b02aa1728c3b3d40171cc3b37f4171843b3540171043b31f4170c03b2ff41707c3b2df4170383b2b4016fbc3b27f416f783b25f416f343b234016d583b13f416d103b114016c903b0d4016c143b094016b603b03f4172503b3b40172883b3ca0172143b39f41724c3b3aa0171d03b381e1720c3b38b4172103b3814171883b361e171c43b36b4171c83b3614171483b33f4171803b34a0171083b321e171403b32b4171443b3214170c43b301e170fc3b30b4171003b3014170803b2e1e170b83b2eb4170bc3b2e14)
  (.lf 0)) (.nd (.lf
  0x32c24795fd032c00795dd032bdc795bd032ae87959d032ad47957d032ac07955d032aac7953d032a987951d032a84794fd032a70794dd032a5c794bd032a487949d032a347947d032a207945d032a0c7943d032978794110328e879becc328a479bccc3284079bacc327cc79b8cc3275479b6cc326e479b4cc3267879b2cc3260879b0cc3259c79aecc3251079accc3249079aacc3241079a8cc3239079a6cc3231479a4cc322a479a2cc3220c79a0cc32180799ecc320fc799ccc3207c799acc31ff47998cc31f707996cc31ef07994cc31e687992cc31ddc7990cc31d50798ecc31cd0798ccc31c48798acc31bc47988cc31b447986cc31ac07984cc31a487982cc3297079bdd03295c79bbd03294879b9d03293479b7d03292079b5d03290c79b3d0328f879b1d03259879afd03251c79add0324a079abd03242079a9d0323a079a7d03232079a5d03229c79a3d03221879a1d032190799fd03210c799dd0)
  (.lf 0)))

def shaWireTree35 : BTree :=
  .nd (.nd (.nd (.lf
  0x6507ccb07f4650d0cb08a065068cb06b465078cb061464a34cbfc7864a3ccbfcb464a40cbfc3064a20cbfa7864a24cbfab464a28cbfa3064a0ccbf87864a14cbf8b464a18cbf83064a00cbf678649fccbf6b464a04cbf630649e8cbf478649eccbf4b4649f0cbf430649d0cbf278649d4cbf2b4649d8cbf230649bccbf078649c4cbf0b4649c8cbf030649a8cbee78649accbeeb4649b0cbee306499ccbec7864994cbecb4649a0cbec3064980cbea7864984cbeab464988cbea306496ccbe87864970cbe8b464974cbe83064958cbe67864960cbe6b464964cbe63064940cbe47864944cbe4b464948cbe43064934cbe2786492ccbe2b464938cbe2306491ccbe07864920cbe0b464924cbe03064910cbde786490ccbdeb464914cbde30648f8cbdc78648f4cbdcb464900cbdc30648e0cbda78648e8cbdab4648eccbda30648d4cbd878648cccbd8b4648d8cbd830648b8cbd678648c0cbd6b4648c4cbd630)
  (.lf 0)) (.nd (.lf
  0x3f854831cb43f810831ab43f7d88318b43fe6083174a3f74c8314b43f6d883134a3f6788310b43f608830f4a3f5a0830cb43f538830ab43f4e08308b43f3948306b43f32883054a3f25c8302b43f2288300aa42e34873eb442e08873cb442dc8873b4a42c848738b4429f487374a4286487354a4281487334a4279c8730b442694872eb442674872cb44264c872ab44262487294a425c887274a424fc8724b44242c87234a423e487214a421a0871eb4420b8871cb442090871b4a420608718b4420008716b441f688714b441e088712b441de087114a41da8870eb441ccc870cb441ca4870b4a41b9c87094a41b248706aa41a9c86c52c419bc86c32c419a886c0cc443c88b3eb4441f08b3d4a440b48b3ab4440688b38b443fa88b374a43ea88b354a43e7c8b32b443dec8b314a43d608b2eb443c988b2cb443b1c8b2b4a43a7c8b28b443a208b274a439cc8b254a438cc8b22b4438448b20b4437b88b1eb4)
  (.lf 0))) (.nd (.nd (.lf
  0x345646cb2b4345606cb278345686cb230344e86cb0b4344e46cb078344ec6cb0303446c6caeb4344686cae78344706cae30343f86cacb4343f46cac78343fc6cac30343806caab43437c6caa78343846caa303430c6ca8b4343086ca878343106ca830342946ca6b4342906ca678342986ca6303421c6ca4b4342186ca478342206ca430341ac6ca2b4341a86ca278341b06ca2303413c6ca0b4341386ca078341406ca030340c86c9eb4340c46c9e78340cc6c9e30340546c9cb4340506c9c78340586c9c3033fdc6c9ab433fd86c9a7833fe06c9a3033f606c98b433f5c6c987833f646c983033ee86c96b433ee46c967833eec6c963033e6c6c94b433e686c947833e706c943033df06c92b433dec6c927833df46c923033d786c90b433d746c907833d7c6c903033d006c8eb433cfc6c8e7833d046c8e3033c846c8cb433c806c8c7833c886c8c3033c006c8ab433bfc6c8a7833c046c8a3033b786c88b4)
  (.lf 0)) (.nd (.lf
  0x121cc2fd9d0121b82fd7d0121a42fd5d0121902fd3d01217c2fd1d0121682fcfd0121542fcdd0121402fcbd01212c2fc9d0121182fc7d0121042fc5d0120f02fc3d0120d82fc11013e2032becc13e2832bccc13e3032bacc13e3832b8cc13e4032b6cc13e4832b4cc13e5032b2cc13e5832b0cc13e6032aecc13e6832accc13e7032aacc13e7832a8cc13e8032a6cc13e8832a4cc13e9032a2cc13e9832a0cc13ea0329ecc13ea8329ccc13eb0329acc13eb83298cc13ec03296cc13ec83294cc13ed03292cc13ed83290cc13ee0328ecc13ee8328ccc13ef0328acc13ef83288cc13f003286cc13f083284cc13f103282cc148dc32bdd01489832bbd01484032b9d0147e432b7d01479032b5d01474032b3d0146e832b1d01469c32afd01464432add0145f832abd0145a032a9d01454c32a7d0144f032a5d01449c32a3d01444032a1d0143f4329fd0143a4329dd014354329bd0143003299d0142b03297d0)
  (.lf 0)))

def shaWireTree36 : BTree :=
  .nd (.nd (.nd (.lf
  0x1ee10408a301edf44088b41edf84088781edfc4088301ede04086b41ede44086781ede84086301edcc4084b41edd04084781edd44084301edb84082b41edbc4082781edc04082301eca80006651ecac0006631ecb00006611ecb400065f1ecb800065d1ecbc00065b1ecc00006591ecc40006571ecc80006551eccc0006531ecd00006511ecd400064f1ecd800064d1ecdc00064b1ece00006491ece40006471ece80006451ecec0006431ecf00006411ecf400063f1ecf800063d1ecfc00063b1f0280006391f02c0006371f0300006351f0340006331f0380006311f03c00062f1f04000062d1f04400062b1f0480006291f04c0006271f0500006251f0540006231f0580006211f05c00061f1f06000061d1f06400061b1f0680006191f06c0006171f0700006151f0740006131f0780006111f07c00060f1f08000060d1f08400060b1f0880006091f08c0006071f0900006051f0940006031f098000601)
  (.lf
  0x81b300c7d2c81b100c7b2c81afc0c792c81ae80c772c81ae00c752c81acc0c732c81ab40c712c81a9c0c6f2c81a840c6d2c81a700c6b2c7ecd00c692c7e9b40c672c7e9940c652c7e9740c632c7e9640c612c7e94c0c5f2c7e9800c5d2c7e9340c5b2c7e9780c592c7e8540c572c7e8400c552c7e8440c532c7e6140c512c7e6040c4f2c7e1f80c4d2c81a600c4b2c7dcbc0c492c7db540c472c7d5c40c452c7d5900c432c7d5940c40cc83e80107f2c83e70107d2c83e54107b2c83e4c10792c83e6010772c83e2010752c83e1410732c83e1810712c83dd4106f2c83ddc106d2c83de0106b2c83de410692c83d9010672c83d8010652c83d8410632c83d7c10612c82e38105f2c82e20105d2c82e48105b2c82d8010592c82d2c10572c82d3810552c82d0c10532c82b2810512c82aa0104f2c82990104d2c828c0104b2c828ac10492c829ac10472c826a410452c8228410432c822a01040cc82940147f2c))
  (.nd (.lf
  0x5f790c3a0305f768c39e305f740c39c305f718c39a305f6f0c398305f6c8c396305f6a4c394305f680c392305f65cc390305f638c38e305f614c38c305f808c38a305f5e4c388305f5bcc386305f598c384305f574c382305e60cc3803062580c7beb462514c7bcb4624e8c7bab4623f0c7b8b46225cc7b6b462334c7b4b462160c7b2b462088c7b0b461ff8c7aeb461eecc7acb461ea4c7aab461e68c7a8b461d9cc7a6b461d08c7a4b461ca0c7a2b461c70c7a0b461b5cc79eb461b0cc79cb461ad4c79ab461a94c798b461a20c796b4619c8c794b4616d4c792b461654c790b46161cc78eb4615b4c78cb4614f0c78ab46143cc788b4613b4c786b461368c784b461348c782b460ea8c780b460554c7be786050cc7bc785fff8c7ba785ff18c7b8785ff48c7b6785ffc0c7b4785ff7cc7b2785fed4c7b0785fe04c7ae785fe38c7ac785fea4c7aa785fe84c7a8785fc6cc7a6785f7e4c7a4785f7bcc7a278)
  (.lf 0))) (.nd (.nd (.lf
  0x2c36c5ed2302c3045ed0b42c3305ed0782c3345ed0302c2c45eceb42c2f85ece782c2fc5ece302c2805eccb42c2b85ecc782c2bc5ecc302c2445ecab42c2745eca782c2785eca302c2045ec8b42c2385ec8782c23c5ec8302c1c05ec6b42c1f85ec6782c1fc5ec6302c1845ec4b42c1b45ec4782c1b85ec4302c1645ec2b42c1785ec2782c17c5ec2302c8885f3caa2c8445f3aaa2c8005f38aa2c7845f34aa2c7405f32aa2c6c45f2eaa2c6805f2caa2c63c5f2aaa2c5f85f28aa2c5b45f26aa2c5005f20aa2c4bc5f1eaa2c3d05f16aa2c2e45f0eaa2c2a05f0caa2c2245f08aa2c1e05f06aa2c8585f3c1e2c8905f3cb42c8945f3c142c8145f3a1e2c84c5f3ab42c8505f3a142c7d05f381e2c8085f38b42c80c5f38142c7945f35f42c7c85f36a02c7545f341e2c78c5f34b42c7905f34142c7105f321e2c7485f32b42c74c5f32142c6d45f2ff42c7085f30a02c6945f2e1e2c6cc5f2eb42c6d05f2e14)
  (.lf 0)) (.nd (.lf
  0x7c5c4fd57d07c5b4fd55d07c5a4fd53d07c584fd51d07c528fd4fd07c518fd4dd07c468fd4bd07c3a0fd49d07c374fd47d07c06cfd45d07bdf0fd43d07bd44fd41107cef0fdbecc7ce50fdbccc7ce3cfdbacc7cec8fdb8cc7cac4fdb6cc7caa0fdb4cc7ca90fdb2cc7cad0fdb0cc7ca5cfdaecc7ca38fdaccc7ca68fdaacc7ca10fda8cc7ca1cfda6cc7cad4fda4cc7c9d4fda2cc7c9bcfda0cc7cad8fd9ecc7c7c8fd9ccc7c6bcfd9acc7c610fd98cc7c5ccfd96cc7c570fd94cc7c548fd92cc7c57cfd90cc7c504fd8ecc7c500fd8ccc7c380fd8acc7c340fd88cc7c364fd86cc7c074fd84cc7bdc4fd82cc7d638fdbdd07d60cfdbbd07d5dcfdb9d07d5ccfdb7d07d450fdb5d07d3a8fdb3d07d35cfdb1d07d304fdafd07d2f4fdadd07d250fdabd07d23cfda9d07d20cfda7d07d1d4fda5d07d1b4fda3d07d198fda1d07d168fd9fd07d14cfd9dd07d13cfd9bd07d12cfd99d07d100fd97d07d0dcfd95d0)
  (.lf 0)))

def shaWireTree37 : BTree :=
  .nd (.nd (.nd (.lf
  0x7c358ef0aa07c348ef08a07b928effc787b938effcb47b940effc307b918effa787b91ceffab47b920effa307b904eff8787b908eff8b47b90ceff8307b8f4eff6787b8eceff6b47b8f8eff6307b8d0eff4787b8d4eff4b47b8d8eff4307b8c4eff2787b8c0eff2b47b8c8eff2307b8b4eff0787b8b0eff0b47b8b8eff0307b8a0efee787b89cefeeb47b8a4efee307b884efec787b890efecb47b894efec307b878efea787b874efeab47b87cefea307b864efe8787b85cefe8b47b868efe8307b850efe6787b84cefe6b47b854efe6307b83cefe4787b838efe4b47b840efe4307b82cefe2787b820efe2b47b830efe2307b814efe0787b810efe0b47b818efe0307b800efde787b804efdeb47b808efde307b7f4efdc787b7f0efdcb47b7f8efdc307b7e0efda787b7dcefdab47b7e4efda307b7c8efd8787b7ccefd8b47b7d0efd8307b7b0efd6787b7b8efd6b47b7bcefd6307b7a4efd4787b784efd4b4)
  (.lf 0)) (.nd (.lf
  0x3ec50839dd03ec54839bd03ec588399d03ec5c8397d03ec608395d03ec648393d03ec688391d03ec6c838fd03ec70838dd03ec74838bd03ec788389d03ec7c8387d03e4248385d03e3948383d03e3988381d040c4c87bfd040c5087bdd040c5487bbd040c5887b9d040adc87b7d040ae087b5d040ae487b3d04092c87b1d04093087afd04093487add04093887abd04093c87a9d04094087a7d04094487a5d04094887a3d04094c87a1d040950879fd040954879dd040958879bd0400748799d0400788797d03f7948795d03f7248793d03f6c08791d03f654878fd03f5ec878dd03f584878bd03f5288789d03f3dc8787d03f3888785d03f2c08783d03f2c48781d042e608bbfd042e648bbdd042e688bbbd042cbc8bb9d042a308bb7d0428a08bb5d0428a48bb3d0427d48bb1d04270c8bafd0427108badd0427148babd0427188ba9d0425fc8ba7d0425208ba5d0424648ba3d0424188ba1d0421f08b9fd0)
  (.lf 0))) (.nd (.nd (.lf
  0x4fa5ca894784fa64a894304fa4ca892b44fa48a892784fa50a892304fa38a890b44fa34a890784fa3ca890304fa24a88eb44fa20a88e784fa28a88e304fa10a88cb44fa0ca88c784fa14a88c304f9fca88ab44f9f8a88a784fa00a88a304f9e8a888b44f9e4a888784f9eca888304f9d4a886b44f9d0a886784f9d8a886304f9c0a884b44f9bca884784f9c4a884304f9aca882b44f9a8a882784f9b0a8823053b4ca87cb453b48a87c7853b50a87c3053b24a87ab453b20a87a7853b28a87a3053af8a878b453af4a8787853afca8783053acca876b453ac8a8767853ad0a8763053aa0a874b453a9ca8747853aa4a8743053a74a872b453a70a8727853a78a8723053a48a870b453a44a8707853a4ca8703053a1ca86eb453a18a86e7853a20a86e30539f0a86cb4539eca86c78539f4a86c30539c4a86ab4539c0a86a78539c8a86a3053998a868b453994a868785399ca868305396ca866b453968a86678)
  (.lf 0)) (.nd (.lf
  0x330146fc7d0330006fc5d032fec6fc3d032fd46fc1103540872becc3541072bccc3541872bacc3542072b8cc3542872b6cc3543072b4cc3543872b2cc3544072b0cc3544872aecc3545072accc3545872aacc3546072a8cc3546872a6cc3547072a4cc3547872a2cc3548072a0cc35488729ecc35490729ccc35498729acc354a07298cc354a87296cc354b07294cc354b87292cc354c07290cc354c8728ecc354d0728ccc354d8728acc354e07288cc354e87286cc354f07284cc354f87282cc3575c72bdd03574872bbd03573472b9d03572072b7d03570c72b5d0356f872b3d0356e472b1d0356d072afd0356bc72add0356a872abd03569472a9d03568072a7d03566c72a5d03565872a3d03564472a1d035630729fd03561c729dd035608729bd0355f47299d0355e07297d0355cc7295d0355b87293d0355a47291d035590728fd03557c728dd035568728bd0355547289d0355407287d03552c7285d0)
  (.lf 0)))

def shaWireTree38 : BTree :=
  .nd (.nd (.nd (.lf
  0x45b949da07845b7c9da0b445b989da03045b709d9e7845b589d9eb445b749d9e3045b449d9c7845aac9d9cb445b509d9c3045aa09d9a7845a689d9ab445aa49d9a3045a589d987845a149d98b445a609d983045a049d9678459a49d96b445a0c9d9630459989d9478459949d94b44599c9d9430459849d9278459789d92b4459889d9230459689d9078458b49d90b44596c9d9030458a89d8e78458389d8eb4458ac9d8e304582c9d8c78458249d8cb4458309d8c30457f09d8a78457a89d8ab4457f89d8a30457689d8878455ac9d88b4457709d8830455a09d8678453dc9d86b4455a49d8630453c89d8478453689d84b4453cc9d84304535c9d8278453289d82b4453609d823047b88a17c7847b8ca17cb447b90a17c3047b40a17a7847b48a17ab447b7ca17a3047b34a1787847a74a178b447b38a1783047a64a1767847a68a176b447a6ca1763047a50a1747847a54a174b447a58a1743047a38a17278)
  (.lf 0)) (.nd (.lf
  0x1fbe4805d2c1fb28805b2c1fa6480592c1f9ac80572c1f8ec80552c1f83480532c1f77c80512c1f6c0804f2c1f5fc804d2c1f53c804b2c1f48080492c1f3cc80472c1f31480452c1f25080432c1f1c08040cc41964847f2c4193c847d2c41910847b2c418e484792c418b884772c4188c84752c4186084732c4183484712c41808846f2c417dc846d2c417b0846b2c4178484692c4175884672c4172c84652c4170084632c416d084612c416a0845f2c41670845d2c41640845b2c4161084592c415e084572c415b484552c4158884532c4155884512c4152c844f2c41500844d2c414d4844b2c414a884492c4147c84472c4145084452c4142484432c414148440cc243d4887f2c2437c887d2c242fc887b2c2427488792c241ec88772c2415c88752c240c888732c2403888712c23fa8886f2c23f18886d2c23e88886b2c23e0088692c23d7888672c23cf088652c23c6888632c23be088612c23b50885f2c)
  (.lf 0))) (.nd (.nd (.lf
  0x991816dc780991c16dc300982416dab40989816da780989c16da300979c16d8b40981816d8780981c16d8300971816d6b40979016d6780979416d6300969816d4b40970c16d4780971016d4300961816d2b40968c16d2780969016d2300959016d0b40960c16d0780961016d0300950416ceb40958416ce780958816ce300947816ccb4094f816cc78094fc16cc30093ec16cab40946c16ca780947016ca300936016c8b4093e016c878093e416c830092dc16c6b40935416c6780935816c6300925c16c4b4092d016c478092d416c430091ec16c2b40925016c2780925416c2300a128173caa0a01c1738aa09f901736aa09e041730aa09d78172eaa09cec172caa09c60172aaa09bd41728aa099c81720aa097bc1718aa095b01710aa09524170eaa09498170caa0940c170aaa093801708aa0a0f8173c1e0a16c173cb40a170173c140a0741739f40a0f0173aa009fec17381e0a06c1738b40a070173814)
  (.lf 0)) (.nd (.lf
  0x7839cf25ccc78144f25acc780e0f258cc7809cf256cc77f94f254cc77f68f252cc77f6cf250cc78074f24ecc7786cf24ccc776c4f24acc775b4f248cc773c4f246cc77304f244cc77170f242cc788bcf27dd0788acf27bd078898f279d078884f277d078870f275d078778f273d078570f271d078518f26fd0784bcf26dd078490f26bd07847cf269d078444f267d078430f265d07841cf263d0783c4f261d0783b0f25fd078384f25dd078180f25bd07816cf259d078158f257d078064f255d078054f253d078040f251d078030f24fd077850f24dd0776bcf24bd0775d4f249d077418f247d0772fcf245d077180f243d077010f241107e130f2fecc7e11cf2fccc7e104f2facc7e0e8f2f8cc7e0c8f2f6cc7dfdcf2f4cc7dfe4f2f2cc7dfc0f2f0cc7df94f2eecc7df80f2eccc7df98f2eacc7df64f2e8cc7df38f2e6cc7dfecf2e4cc7de88f2e2cc7de6cf2e0cc7de58f2decc7de44f2dccc7de8cf2dacc)
  (.lf 0)))

def shaWireTree39 : BTree :=
  .nd (.nd (.nd (.lf
  0x52000a7214051f54a71bf451f10a7194051ed8a713f451eb4a7114051d64a70b40519aca705405222ca73bf452234a73ca05220ca73a1e52224a73ab452228a73a14521e8a737f4521f0a738a0521e0a7361e521dca736b4521e4a73614521cca73340521d4a734a052134a73140521c8a732a052120a72f4052130a730a052104a72d405211ca72ea0520b8a72b4052100a72ca05208ca729f4520b4a72aa05206ca7281e52080a728b452084a7281452028a7261e52054a726b452058a7261452018a723f452020a724a05200ca7221e52008a722b452010a7221451fbca71f4051ffca720a051fa0a71df451fb8a71ea051f58a71c1e51f98a71cb451f9ca71c1451f14a71a1e51f48a71ab451f50a71a1451f04a7174051f0ca718a051eeca715f451ef4a716a051ee4a7141e51ee0a714b451ee8a7141451ebca7121e51eb8a712b451ed4a7121451ea0a70f4051eb0a710a051db8a70df451e78a70ea0)
  (.lf 0)) (.nd (.lf
  0x39e607a532c39e487a512c39e307a4f2c399347a4d2c398f87a4b2c398b47a492c398747a472c398307a452c397ec7a432c397bc7a40cc3e0a07e7f2c3e08c7e7d2c3e0707e7b2c3e0647e792c3e0407e772c3e02c7e752c3e0147e732c3dffc7e712c3dfe07e6f2c3dfc87e6d2c3dfa47e6b2c3df8c7e692c3dfb47e672c3df687e652c3df507e632c3df447e612c3df207e5f2c3df0c7e5d2c3def07e5b2c3ded87e592c3debc7e572c3dea87e552c3de947e532c3de807e512c3de687e4f2c3de487e4d2c3de307e4b2c3de1c7e492c3de107e472c3dde87e452c3ddbc7e432c3ddcc7e40cc3c2c8827f2c3c2cc827d2c3c2ac827b2c3c29882792c3c2d482772c3c2d082752c3c28082732c3c24882712c3c230826f2c3c224826d2c3c244826b2c3c1f882692c3c1e482672c3c1d082652c3c1b882632c3c1a882612c3c190825f2c3c180825d2c3c168825b2c3c15882592c3c14082572c3c13082552c)
  (.lf 0))) (.nd (.nd (.lf
  0x314dc002281314e000227f314e400227d314e800227b314ec002279314f0002277314f4002275314f8002273314fc0022713150000226f3150400226d3150800226b3150c0022693151000226731514002265315180022633151c002261333c000225f333c400225d333c800225b333cc002259333d0002257333d4002255333d8002253333dc002251333e000224f333e400224d333e800224b333ec002249333f0002247333f4002245333f8002243333fc0022413340000223f3340400223d3340800223b3340c0022393341000223733414002235334180022333341c0022313342000222f3342400222d3342800222b3342c0022293343000222733434002225334380022233343c0022213538400221f3538800221d3538c00221b3539000221935394002217353980022153539c002213353a0002211353a400220f353a800220d353ac00220b353b0002209353b4002207353b8002205353bc002203)
  (.lf 0)) (.nd (.lf
  0x71ffce435d071f8ce433d071f68e431d071f0ce42fd071e84e42dd071e74e42bd071dd4e429d071dc4e427d071dace425d071d1ce423d071d04e421d071cece41fd071ccce41dd071ca8e41bd071b34e419d071adce417d071aa4e415d071a60e413d0719f4e411d0719dce40fd0719c0e40dd071954e40bd071928e409d0718ace407d07189ce405d071888e403d071864e401107120ce8becc70f50e8bccc70f58e8bacc70f60e8b8cc70f68e8b6cc70f70e8b4cc70f78e8b2cc70f80e8b0cc70f88e8aecc70f90e8accc71374e8aacc7137ce8a8cc71240e8a6cc71248e8a4cc713a4e8a2cc71254e8a0cc7125ce89ecc71384e89ccc7138ce89acc71394e898cc7139ce896cc71264e894cc7126ce892cc71274e890cc7127ce88ecc71284e88ccc712cce88acc71290e888cc71298e886cc712a0e884cc712a8e882cc71668e8bdd071654e8bbd071640e8b9d07162ce8b7d071618e8b5d071604e8b3d0)
  (.lf 0)))

def shaWireTree40 : BTree :=
  .nd (.nd (.nd (.lf
  0x4002c91bf2c4001891bd2c4000491bb2c3ffec91b92c3ffd091b72c3ffd491b52c3ffb091b32c3ffa491b12c3ff8491af2c3ff7091ad2c3ff5891ab2c3ff4091a92c3ff2c91a72c3ff2491a52c3ff0c91a32c3fee091a12c3fec4919f2c3feac919d2c3fe9c919b2c3fe9891992c3fed091972c3f76491952c3f6f891932c3f69c91912c3f624918f2c3f5c8918d2c3f554918b2c3f50091892c3f3a891872c3f34891852c3f26891832c3f22c9180cc42e4495bf2c430d095bd2c42e0495bb2c42cfc95b92c42a2095b72c429e495b52c429d095b32c429bc95b12c429a895af2c4299495ad2c4298095ab2c4296c95a92c4295895a72c4294495a52c4293095a32c4291c95a12c42200959f2c42148959d2c4215c959b2c4211c95992c4203c95972c41fe495952c41e9895932c41e7895912c41e58958f2c41d38958d2c41d18958b2c41c4495892c41c2495872c41adc95852c41a5c95832c41a489580cc)
  (.lf
  0x2dbd06004cc2db586002cc2e8c8603dd02e860603bd02e7f06039d02e7786037d02e6fc6035d02e6886033d02e6186031d02e5a8602fd02e53c602dd02e4d0602bd02e4586029d02e3dc6027d02e3646025d02e2ec6023d02e2746021d02e204601fd02e198601dd02e124601bd02e0b46019d02e0406017d02dfcc6015d02df5c6013d02def06011d02de7c600fd02de0c600dd02dd98600bd02dd286009d02dcb46007d02dc346005d02dbb46003d02db246001102f91c64becc2f92464bccc2f92c64bacc2f93464b8cc2f93c64b6cc2f94464b4cc2f94c64b2cc2f95464b0cc2f95c64aecc2f96464accc2f9c464aacc2f9cc64a8cc2f9d464a6cc2f9dc64a4cc2f9e464a2cc2f9ec64a0cc2f9f4649ecc2f9fc649ccc2fa04649acc2fa0c6498cc2fa146496cc2fa1c6494cc2fa246492cc2fa2c6490cc2fa34648ecc2fa3c648ccc2fa44648acc2fa4c6488cc2fa546486cc2fa5c6484cc2fa646482cc))
  (.nd (.lf
  0x24b9c00340124ba00033ff24ba40033fd24a980033fb249a00033f9249a40033f7249a80033f5249ac0033f3249b00033f1249b40033ef249b80033ed249bc0033eb249c00033e9249c40033e7249c80033e5249cc0033e3247d40033e1261000033df261040033dd2640c0033db264100033d9264140033d7264180033d52641c0033d3263280033d1262200033cf262240033cd262280033cb2622c0033c9262300033c7264200033c5264240033c3264280033c12642c0033bf264300033bd2632c0033bb262340033b9262380033b72623c0033b5262400033b3262440033b1262480033af261300033ad261080033ab2610c0033a9261100033a7261140033a5261180033a3261480033a12826400339f2826800339d2826c00339b2827000339928274003397282780033952827c003393282800033912828400338f2828800338d2828c00338b2829000338928294003387282980033852829c003383)
  (.lf 0))) (.nd (.nd (.lf
  0x3566072a4b43566872a4303565072a2783564c72a2b43565472a2303563c72a0783563872a0b43564072a03035628729e7835624729eb43562c729e3035614729c7835610729cb435618729c3035600729a78355fc729ab435604729a30355ec729878355e87298b4355f0729830355d8729678355d47296b4355dc729630355c4729478355c07294b4355c8729430355b0729278355ac7292b4355b47292303559c729078355987290b4355a072903035588728e7835584728eb43558c728e3035574728c7835570728cb435578728c3035560728a783555c728ab435564728a303554c728878355487288b43555072883035538728678355347286b43553c72863035524728478355207284b435528728430355107282783550c7282b43551472823036610727cb436678727c783667c727c30365a4727ab436604727a7836608727a303653c7278b4365987278783659c727830364c87276b436530727678)
  (.lf 0)) (.nd (.lf
  0x393a0006973393a8006971393b000696f393b800696d393c000696b393c8006969393d0006967393d8006965393e0006963393e80069613b18000695f3b18800695d3b19000695b3b1980069593b1a00069573b1a80069553b1b00069533b1b80069513b1c000694f3b1c800694d3b1d000694b3b1d80069493b1e00069473b1e80069453b1f00069433b1f80069413b20000693f3b20800693d3b21000693b3b2180069393b2200069373b2280069353b2300069333b2380069313b24000692f3b24800692d3b25000692b3b2580069293b2600069273b2680069253b2700069233b2780069213f11800691f3f12000691d3f12800691b3f1300069193f1380069173f1400069153f1480069133f1500069113f15800690f3f16000690d3f16800690b3f1700069093f1780069073f1800069053f1880069033f1900069013f1980068ff3f1a00068fd3f1a80068fb3f1b00068f93f1b80068f73f1c00068f5)
  (.lf 0)))

def shaWireTree41 : BTree :=
  .nd (.nd (.nd (.lf
  0x3a3c15b078039b815b0b403a4015b030039ac15ae780393815aeb4039b015ae300392c15ac78038bc15acb40393015ac30038b015aa780383015aab4038b415aa300382415a878037a015a8b40382815a8300379415a6780372415a6b40379815a6300371815a4780369815a4b40371c15a4300368c15a2780360c15a2b40369015a2300360015a0780357c15a0b40360415a03003570159e7803500159eb403574159e30034f4159c7803470159cb4034f8159c3003464159a78033f0159ab403468159a30033e4159878033701598b4033e815983003364159678032f41596b403368159630032e8159478032641594b4032ec15943003258159278031e41592b40325c159230031d8159078031681590b4031dc1590300315c158e78030d8158eb403160158e30030cc158c7803058158cb4030d0158c300304c158a7802fdc158ab403050158a3002fd015887802f4c1588b402fd415883002f40158678)
  (.lf 0)) (.nd (.lf
  0x3fe3883dd2c407d483db2c3fe1083d92c3fdfc83d72c3f09483d52c3f07483d32c3f05c83d12c3f07883cf2c3f03883cd2c3f02483cb2c3eeb483c92c3eea083c72c3ee8883c52c3ee7483c32c3ee7083c0cc40ee087ff2c40ecc87fd2c40eb887fb2c40ea887f92c40e9487f72c40e7c87f52c40e6c87f32c40e5487f12c40e4487ef2c40e2c87ed2c40e1c87eb2c40e0487e92c40df487e72c40ddc87e52c40dd087e32c40ee487e12c40da487df2c40d9087dd2c40d7c87db2c40d6487d92c40d6c87d72c40d4487d52c40d3087d32c40d1c87d12c40d0887cf2c40cd087cd2c40b8087cb2c40b6c87c92c40b5c87c72c40a3887c52c40a2087c32c40a0487c0cc430f48bff2c430a88bfd2c430948bfb2c430808bf92c4306c8bf72c430588bf52c430448bf32c430308bf12c4301c8bef2c430088bed2c42ff48beb2c42fe08be92c42fcc8be72c42fb88be52c42fa48be32c42f908be12c42f7c8bdf2c)
  (.lf 0))) (.nd (.nd (.lf
  0x634c4c422b4634c0c42278634c8c42230634b0c420b4633d8c42078634b4c42030633bcc41eb4633b8c41e78633d0c41e306336cc41cb463368c41c78633a0c41c3063358c41ab46335cc41a7863360c41a30632bcc418b4632b8c41878632c0c41830632a8c416b4632acc41678632b0c4163063294c414b463298c414786329cc4143063230c412b463254c4127863258c4123063224c410b463220c4107863228c4103063200c40eb4631dcc40e7863204c40e30631a0c40cb46319cc40c78631a4c40c30630a4c40ab46317cc40a7863180c40a3063098c408b463094c408786309cc4083062d7cc406b462c14c4067863088c4063062c04c404b462c08c4047862c0cc4043062bd8c402b462bd4c4027862bdcc4023061278c8bcb461274c8bc786127cc8bc3061268c8bab461258c8ba786126cc8ba3061248c8b8b46124cc8b87861250c8b83061234c8b6b461238c8b6786123cc8b63061224c8b4b4)
  (.lf 0)) (.nd (.lf
  0x4692092bbd04690c92b9d0468f492b7d0468dc92b5d0468bc92b3d0468a492b1d04688c92afd04687492add04686492abd04684c92a9d04683492a7d04681492a5d0467fc92a3d0467ec92a1d0467d4929fd0467bc929dd0467a8929bd0467909299d0467749297d04675c9295d0467489293d0467389291d04671c928fd046708928dd0466ec928bd0466dc9289d0466c89287d0466b89285d0466a09283d046690928110401ac927ecc401a8927ccc401a4927acc3fff09278cc3ffd89276cc401a09274cc400389272cc400849270cc40034926ecc4019c926ccc3ff5c926acc3ff449268cc400889266cc400489264cc4004c9262cc400589260cc40044925ecc40054925ccc4003c925acc400409258cc400509256cc3f7749254cc3f70c9252cc3f7e89250cc3f63c924ecc3f5cc924ccc3f55c924acc3f5049248cc3f3b89246cc3f34c9244cc3f2889242cc404fc927dd0404e8927bd0404d49279d0)
  (.lf 0)))

def shaWireTree42 : BTree :=
  .nd (.nd (.nd (.lf
  0x5fd04cd70305fcb4cd6e785fcb0cd6eb45fcb8cd6e305fca4cd6c785fca0cd6cb45fca8cd6c305fc94cd6a785fc90cd6ab45fc98cd6a305fc84cd68785fc80cd68b45fc88cd68305f7fccd66785fc74cd66b45fc78cd66305f7f0cd64785f7eccd64b45f7f4cd64305f7c8cd62785f7c4cd62b45f7cccd62305f7a0cd60785f79ccd60b45f7a4cd60305f77ccd5e785f778cd5eb45f780cd5e305f754cd5c785f750cd5cb45f758cd5c305f72ccd5a785f728cd5ab45f730cd5a305f704cd58785f700cd58b45f708cd58305f6dccd56785f6d8cd56b45f6e0cd56305f6b4cd54785f6b0cd54b45f6b8cd54305f690cd52785f68ccd52b45f694cd52305f66ccd50785f668cd50b45f670cd50305f648cd4e785f644cd4eb45f64ccd4e305f624cd4c785f620cd4cb45f628cd4c305f600cd4a785f5fccd4ab45f604cd4a305f5f0cd48785f5d8cd48b45f5f4cd48305f5cccd46785f5c8cd46b45f5d0cd4630)
  (.lf 0)) (.nd (.lf
  0x4f1f8a01d2c4f1cca01b2c4f1a0a0192c4f174a0172c4f148a0152c4f11ca0132c4f0f0a0112c4f0c4a00f2c4f098a00d2c4f06ca00b2c4f040a0092c4f014a0072c4efe8a0052c4efbca0032c4efaca000cc51834a43f2c5180ca43d2c517e0a43b2c517b4a4392c51788a4372c5175ca4352c51730a4332c51704a4312c516d8a42f2c516aca42d2c51680a42b2c51654a4292c51628a4272c515fca4252c515d0a4232c515a4a4212c51578a41f2c5154ca41d2c51520a41b2c514f4a4192c514c8a4172c5149ca4152c51470a4132c51444a4112c51418a40f2c513eca40d2c513c0a40b2c51394a4092c51368a4072c5133ca4052c51310a4032c51300a400cc53b60a83f2c53b38a83d2c53b0ca83b2c53ae0a8392c53ab4a8372c53a88a8352c53a5ca8332c53a30a8312c53a04a82f2c539d8a82d2c539aca82b2c53980a8292c53954a8272c53928a8252c538fca8232c538d0a8212c538a4a81f2c)
  (.lf 0))) (.nd (.nd (.lf
  0x115842a9e30114f42a9c78114f02a9cb4114f82a9c30114702a9a781146c2a9ab4114742a9a30113f02a9878113ec2a98b4113f42a9830113702a96781136c2a96b4113742a9630112f02a9478112ec2a94b4112f42a9430112682a9278112642a92b41126c2a9230111e42a9078111e02a90b4111e82a90301115c2a8e78111582a8eb4111602a8e30110d02a8c78110cc2a8cb4110d42a8c301104c2a8a78110482a8ab4110502a8a3010fc42a887810fc02a88b410fc82a883010f382a867810f342a86b410f3c2a863010eac2a847810ea82a84b410eb02a843010e202a827810e1c2a82b410e242a82300ba042a7cb40b9982a7c780ba082a7c300b98c2a7ab40b91c2a7a780b9902a7a300b9102a78b40b88c2a78780b9142a78300b8802a76b40b80c2a76780b8842a76300b8002a74b40b7902a74780b8042a74300b7842a72b40b7002a72780b7882a72300b6f42a70b40b6802a70780b6f82a7030)
  (.lf 0)) (.nd (.lf
  0xfd8035a3d00fcf435a1d00fc64359fd00fbe8359dd00fb58359bd00fadc3599d00fa503597d00f9c03595d00f9443593d00f8b83591d00f828358fd00f7a8358dd00f728358bd00f6a83589d00f6283587d00f5a83585d00f5283583d00f4e835811011d4c397ecc11ce0397ccc11c68397acc11bd83978cc11b583976cc11adc3974cc11a4c3972cc119cc3970cc1194c396ecc118cc396ccc11850396acc117c43968cc117343966cc116b43964cc116343962cc115b83960cc1152c395ecc1149c395ccc1141c395acc1139c3958cc1131c3956cc112a03954cc112103952cc111943950cc11108394ecc11078394ccc10ffc394acc10f703948cc10ee43946cc10e583944cc10ddc3942cc11cf0397dd011c78397bd011be83979d011b683977d011aec3975d011a5c3973d0119dc3971d01195c396fd0118dc396dd011860396bd0117d43969d0117443967d0116c43965d0116443963d0115c83961d0)
  (.lf 0)))

def shaWireTree43 : BTree :=
  .nd (.nd (.nd (.lf
  0x5b7b8ba82b45b7c0ba82305cf60ba7cb45cf90ba7c785cf94ba7c305ce90ba7ab45cf54ba7a785cf58ba7a305ce50ba78b45ce84ba78785ce88ba78305cd7cba76b45cdfcba76785ce00ba76305ccfcba74b45cd6cba74785cd74ba74305cc84ba72b45ccf0ba72785ccf4ba72305cc08ba70b45cc78ba70785cc7cba70305cbc4ba6eb45cbe4ba6e785cc00ba6e305cb18ba6cb45cb70ba6c785cb74ba6c305caa4ba6ab45cb0cba6a785cb10ba6a305ca2cba68b45ca70ba68785ca74ba68305c9acba66b45c9fcba66785ca00ba66305c8e8ba64b45c9a0ba64785c9a4ba64305c8a4ba62b45c8dcba62785c8e0ba62305c860ba60b45c898ba60785c89cba60305c838ba5eb45c854ba5e785c858ba5e305c7f4ba5cb45c80cba5c785c810ba5c305c7b0ba5ab45c7e8ba5a785c7ecba5a305c750ba58b45c784ba58785c788ba58305c71cba56b45c744ba56785c748ba56305c6d4ba54b45c704ba5478)
  (.lf 0)) (.nd (.lf
  0x3e2047ee52c3e1e87ee32c3e2087ee12c3e1c87edf2c3e1b07edd2c3e1987edb2c3e1847ed92c3e1787ed72c3e15c7ed52c3e1587ed32c3e1307ed12c3e1207ecf2c3e1047ecd2c3e33c7ecb2c3e0e07ec92c3e3347ec72c3e0c07ec52c3e3187ec32c3ddd07ec0cc3fd0482ff2c3fc8c82fd2c3fc3482fb2c3fbf882f92c3fbb882f72c3fb8482f52c3fb2c82f32c3faf082f12c3faa882ef2c3fa6082ed2c3fa2082eb2c3f9d482e92c3f99c82e72c3f94c82e52c3f90482e32c3f8bc82e12c3f88882df2c3f85082dd2c3f80c82db2c3f7d482d92c3f7a082d72c3f74882d52c3f6d082d32c3f67482d12c3f60082cf2c3f59c82cd2c3f53482cb2c3f4dc82c92c3f39082c72c3f31882c52c3f25882c32c3f22482c0cc425b886ff2c425a086fd2c4258886fb2c4256c86f92c4255886f72c425a886f52c424ec86f32c424f086f12c424cc86ef2c424b886ed2c4249c86eb2c4248886e92c423dc86e72c)
  (.lf 0))) (.nd (.nd (.lf
  0x1b4a44c64781b4ac4c64301b4644c62b41b4604c62781b4684c62301b4204c60b41b41c4c60781b4244c60301b3dc4c5eb41b3d84c5e781b3e04c5e301b3984c5cb41b3944c5c781b39c4c5c301b3544c5ab41b3504c5a781b3584c5a301b3104c58b41b30c4c58781b3144c58301b2cc4c56b41b2c84c56781b2d04c56301b2884c54b41b2844c54781b28c4c54301b2444c52b41b2404c52781b2484c52301b2004c50b41b1fc4c50781b2044c50301b1bc4c4eb41b1b84c4e781b1c04c4e301b1784c4cb41b1744c4c781b17c4c4c301b1344c4ab41b1304c4a781b1384c4a301b0f04c48b41b0ec4c48781b0f44c48301b0ac4c46b41b0a84c46781b0b04c46301b0684c44b41b0644c44781b06c4c44301b0244c42b41b0204c42781b0284c42301b7c04c3cb41b78c4c3c781b7c44c3c301b7804c3ab41b7484c3a781b7844c3a301b73c4c38b41b7044c38781b7404c38301b6f84c36b41b6c04c3678)
  (.lf 0)) (.nd (.lf
  0x5be80fe7d005bd40fe5d005bc00fe3d005bac0fe1d005b980fdfd005b840fddd005b700fdbd005b5c0fd9d005b480fd7d005b340fd5d005b200fd3d005b0c0fd1d005af80fcfd005ae40fcdd005ad00fcbd005abc0fc9d005aa80fc7d005a940fc5d005a800fc3d005a680fc110077dc12becc077e412bccc077ec12bacc077f412b8cc077fc12b6cc0780412b4cc0780c12b2cc0781412b0cc0781c12aecc0782412accc0782c12aacc0783412a8cc0783c12a6cc0784412a4cc0784c12a2cc0785412a0cc0785c129ecc07864129ccc0786c129acc078741298cc0787c1296cc078841294cc0788c1292cc078941290cc0789c128ecc078a4128ccc078ac128acc078b41288cc078bc1286cc078c41284cc078cc1282cc088ac12bdd00883c12bbd0087b412b9d00872812b7d00869c12b5d00861812b3d00859812b1d00851012afd00848c12add00840412abd00838012a9d0082f812a7d00827412a5d0)
  (.lf 0)))

def shaWireTree44 : BTree :=
  .nd (.nd (.nd (.lf
  0x3ccc00015cb3ccc40015c93ccc80015c73cccc0015c53ccd00015c33ccd40015c13ccd80015bf3ccdc0015bd3cce00015bb3cce40015b93cce80015b73ccec0015b53ccf00015b33ccf40015b1470740015af470780015ad4707c0015ab470800015a9470840015a7470880015a54708c0015a3470900015a14709400159f4709800159d4709c00159b470a0001599470a4001597470a8001595470ac001593470b0001591470b400158f470b800158d470bc00158b470c0001589470c4001587470c80015853d3100015833d3140015813d31800157f3d31c00157d3d32000157b3d3240015793d3280015773d32c0015753d3300015733d3340015713d33800156f3d33c00156d3d34000156b3d3440015693d3480015673d34c0015653d3500015633d3540015613d35800155f3d35c00155d3d36000155b3d36400155949d5400155749d5800155549d5c00155349d6000155149d6400154f49d6800154d)
  (.lf 0)) (.nd (.lf
  0x30eb86fa07830e906f9e7830e686f9c7830e3c6f9a7830e146f987830dec6f967830dc86f947830da46f927830c006f907830bdc6f8e7830bb86f8c7830b946f8a7830b706f887830b4c6f867830b286f847830b046f827830a746f807832e4c6fbe3032e2c6fbc3032e086fba3032de46fb83032dc06fb63032d9c6fb43032d786fb23032d546fb03032d306fae3032d0c6fac3032ce86faa3032cc46fa83032ca06fa63032c786fa43032c546fa23032c306fa03032c0c6f9e3032be86f9c3032bc46f9a3032b206f983032b246f963032b286f943032b2c6f923032b306f903032b346f8e3032b386f8c3032b3c6f8a3032b406f883032b446f863032b486f843032b4c6f823032b506f803034a4473beb434a4873bcb434a4c73bab434a5073b8b434a5473b6b434a5873b4b434a5c73b2b434a6073b0b434a6473aeb434a6873acb434a6c73aab434a7073a8b434a7473a6b434a7873a4b434a7c73a2b4)
  (.lf 0))) (.nd (.nd (.lf
  0x2572c4eb4b4257344eb430256f04eb278256ec4eb2b4256f44eb230256b44eb078256b04eb0b4256b84eb0302567c4eae78256784eaeb4256804eae30256444eac78256404eacb4256484eac302560c4eaa78256084eaab4256104eaa30255d44ea878255d04ea8b4255d84ea8302559c4ea678255984ea6b4255a04ea6302555c4ea478255584ea4b4255604ea430255184ea278255144ea2b42551c4ea230254dc4ea078254d84ea0b4254e04ea030254a44e9e78254a04e9eb4254a84e9e30254644e9c78254604e9cb4254684e9c30254284e9a78254244e9ab42542c4e9a30253e84e9878253e44e98b4253ec4e9830253ac4e9678253a84e96b4253b04e9630253744e9478253704e94b4253784e94302533c4e9278253384e92b4253404e9230253044e9078253004e90b4253084e9030252c44e8e78252c04e8eb4252c84e8e30252804e8c782527c4e8cb4252844e8c302523c4e8a78252384e8ab4)
  (.lf 0)) (.nd (.lf
  0x544c0b99bd054488b999d054454b997d054410b995d0543dcb993d05439cb991d054374b98fd053f4cb98dd053e2cb98bd053decb989d053ce8b987d053cd8b985d053c84b983d053c70b9811056fe4bd7ecc56fe8bd7ccc56fd4bd7acc57070bd78cc56edcbd76cc56e68bd74cc56dacbd72cc56d08bd70cc56c40bd6ecc56ae4bd6ccc56af0bd6acc56ae8bd68cc56b4cbd66cc56a70bd64cc56a10bd62cc56828bd60cc56810bd5ecc56830bd5ccc567ecbd5acc567d0bd58cc568b4bd56cc56768bd54cc56730bd52cc565a8bd50cc56578bd4ecc56574bd4ccc564ccbd4acc563ecbd48cc563f0bd46cc55fd8bd44cc55f60bd42cc57164bd7dd057014bd7bd056ff0bd79d056f38bd77d056e54bd75d056dd0bd73d056d1cbd71d056c70bd6fd056bf8bd6dd056be4bd6bd056bacbd69d056b78bd67d056b54bd65d056a30bd63d0569c8bd61d056990bd5fd056980bd5dd056970bd5bd056944bd59d0)
  (.lf 0)))

def shaWireTree45 : BTree :=
  .nd (.nd (.nd (.lf
  0x707b4de60b4707b0de6078707b8de6030707a0de5eb4707a4de5e78707a8de5e3070790de5cb47078cde5c7870798de5c3070770de5ab47077cde5a7870780de5a3070074de58b470764de587870768de583070058de56b470054de56787005cde563070044de54b470048de54787004cde543070028de52b470024de52787002cde523070018de50b470010de50787001cde50306ff40de4eb470000de4e7870004de4e306ff00de4cb46ff34de4c786ff38de4c306fe4cde4ab46fef0de4a786fef4de4a306fdb0de48b46fe0cde48786fe10de48306fd60de46b46fd9cde46786fda0de46306fd24de44b46fd54de44786fd58de44306fcc0de42b46fd18de42786fd1cde4230762b8defcb4762b4defc78762bcdefc3076298defab47629cdefa78762a8defa3076288def8b47628cdef87876290def8307627cdef6b476278def67876280def63076264def4b47625cdef47876268def4307624cdef2b4)
  (.lf 0)) (.nd (.lf
  0x3edf80058fd3ee000058fb3ee080058f93ee100058f73ee180058f53ee200058f33ee280058f13ee300058ef3ee380058ed3ee3c0058eb3ee440058e93ee4c0058e73ee540058e53ee5c0058e33ee640058e1409cc0058df409d00058dd40c8c0058db40c900058d940c940058d740c980058d540b0c0058d340b100058d140b140058cf409d40058cd409d80058cb409dc0058c9409e00058c740c9c0058c540ca00058c340ca80058c140cac0058bf40b180058bd40b1c0058bb40b240058b9409e40058b7409ec0058b540cb40058b340cbc0058b140cc00058af40cc80058ad40b280058ab40b300058a940b340058a7409f00058a5409f40058a3409fc0058a14274800589f4274c00589d42e9000589b42e9400589942e9c00589742ccc00589542a40005893428c0005891428c400588f427dc00588d4275000588b427540058894275800588742ea400588542eac00588342eb400588142cd400587f)
  (.lf 0))) (.nd (.nd (.lf
  0x23498884630233fc8844b42336088447823400884430233548842b4232d8884278233588842303c928883cb43c948883c783c94c883c303c8fc883ab43c91c883a783c920883a303c8d08838b43c8f08838783c8f48838303c8a48836b43c8c48836783c8c88836303c8788834b43c8988834783c89c8834303c84c8832b43c86c8832783c8708832303c8208830b43c8408830783c8448830303c7f4882eb43c814882e783c818882e303c7c8882cb43c7e8882c783c7ec882c303c79c882ab43c7bc882a783c7c0882a303c7708828b43c7908828783c7948828303c7448826b43c7648826783c7688826303c7188824b43c7388824783c73c8824303c6ec8822b43c70c8822783c7108822303c6c08820b43c6e08820783c6e48820303c694881eb43c6b4881e783c6b8881e303c668881cb43c688881c783c68c881c303c63c881ab43c65c881a783c660881a303c6108818b43c6308818783c634881830)
  (.lf 0)) (.nd (.lf
  0x268c052bccc268c852bacc268d052b8cc268d852b6cc268e052b4cc268e852b2cc268f052b0cc268f852aecc2690052accc2690852aacc2691052a8cc2691852a6cc2692052a4cc2692852a2cc2693052a0cc26938529ecc26940529ccc26948529acc269505298cc269585296cc269605294cc269685292cc269705290cc26978528ecc26980528ccc26988528acc269905288cc269985286cc269a05284cc269a85282cc26c0c52bdd026bf852bbd026be452b9d026bd052b7d026bbc52b5d026ba852b3d026b9452b1d026b8052afd026b6c52add026b5852abd026b4452a9d026b3052a7d026b1c52a5d026b0852a3d026af452a1d026ae0529fd026acc529dd026ab8529bd026aa45299d026a905297d026a7c5295d026a685293d026a545291d026a40528fd026a2c528dd026a18528bd026a045289d0269f05287d0269dc5285d0269c85283d0269b052811028040527ecc27fbc527ccc27f1c527acc)
  (.lf 0)))

def shaWireTree46 : BTree :=
  .nd (.nd (.nd (.lf
  0x2ea687152b42ea6c7152302ea507150782ea547150b42ea587150302ea3c714e782ea40714eb42ea44714e302ea2c714c782ea28714cb42ea30714c302ea18714a782ea1c714ab42ea20714a302e9587148782ea087148b42ea0c7148302dc287146782dc987146b42dca07146302dba87144782dc1c7144b42dc207144302db4c7142782db9c7142b42dba07142302ee1c71bc782ee1871bcb42ee2071bc302ee0871ba782ee0471bab42ee0c71ba302edf871b8782edf471b8b42edfc71b8302ede871b6782ede471b6b42edec71b6302edd071b4782edcc71b4b42edd871b4302edc071b2782edbc71b2b42edc471b2302edac71b0782eda871b0b42edb071b0302ed9471ae782ed9871aeb42ed9c71ae302ed8071ac782ed8471acb42ed8871ac302ed7471aa782ed3471aab42ed7871aa302ed2471a8782ed2071a8b42ed2871a8302ed1071a6782ed0871a6b42ed1471a6302ecfc71a4782ecf871a4b4)
  (.lf 0)) (.nd (.lf
  0x1eeb8409d2c1eea4409b2c1ee9040992c1ee7c40972c1ee6840952c1ee5440932c1ee4040912c1ee2c408f2c1ee18408d2c1ee04408b2c1edf040892c1eddc40872c1edc840852c1edb440832c1edb04080cc19d3844bf2c19d2444bd2c19d1044bb2c19cfc44b92c19ce844b72c19cd444b52c19cc044b32c19cac44b12c19c9844af2c19c8444ad2c19c7044ab2c19c5c44a92c19c4844a72c19c3444a52c19c2044a32c19c0c44a12c19bf8449f2c19be4449d2c19bd0449b2c19bbc44992c19ba844972c19b9444952c19b8044932c19b6c44912c19b58448f2c19b44448d2c19b30448b2c19b1c44892c19b0844872c19af444852c19ae044832c19adc4480cc243a848bf2c2433048bd2c242a848bb2c2422048b92c2419048b72c240fc48b52c2406c48b32c23fdc48b12c23f4c48af2c23ebc48ad2c23e3448ab2c23dac48a92c23d2448a72c23c9c48a52c23c1448a32c23b8448a12c23af0489f2c)
  (.lf 0))) (.nd (.nd (.lf
  0xf4802c47800f4c02c43000f0c02c2b400f1c02c27800f2002c230015a8033c1e015e0033cb4015e4033c140156c033940015a0033aa001534033740015680338a0014fc033540015300336a0014c40333f4014f80334a00148403321e014bc0332b4014c003321401448032ff40147c0330a001408032e1e01440032eb401444032e14013cc032b4001400032ca001394032940013c8032aa00135c0327f4013900328a00131c03261e013540326b401358032614012e00323f4013140324a0012a003221e012d80322b4012dc03221401264031f40012980320a00122c031d4001260031ea0011f4031bf401228031ca0011b4031a1e011ec031ab4011f0031a14011780317f4011ac0318a00113803161e011700316b401174031614010f403141e0112c0314b401130031414010b003121e010e80312b4010ec0312140106c03101e010a40310b4010a803101401028030e1e01060030eb401064030e14)
  (.lf 0)) (.nd (.lf
  0x691b4d299d0691a0d297d06918cd295d069178d293d069164d291d069150d28fd06913cd28dd068f90d28bd068e88d289d068e74d287d068e60d285d068e10d283d068d24d2811069d10d27ecc69cfcd27ccc69b68d27acc6ac64d278cc69b40d276cc69b1cd274cc69b00d272cc69aecd270cc69ad8d26ecc69ab8d26ccc69aa0d26acc69b30d268cc69b84d266cc69b28d264cc69a7cd262cc69a30d260cc69a38d25ecc69a40d25ccc69b78d25acc699e4d258cc699d8d256cc699b8d254cc6985cd252cc69874d250cc6a458d24ecc69830d24ccc6983cd24acc69750d248cc69ed4d246cc695f4d244cc69600d242cc6a390d27dd06a37cd27bd06a364d279d06a348d277d06a338d275d06a324d273d06a30cd271d06a2f4d26fd06a2dcd26dd06a2c0d26bd06a2b0d269d06a29cd267d06a284d265d06a260d263d06a248d261d06a224d25fd06a214d25dd06a200d25bd06a1ecd259d06a1d8d257d0)
  (.lf 0)))

def shaWireTree47 : BTree :=
  .nd (.nd (.nd (.lf
  0x4834c969c3048334969a7848338969ab44833c969a304831c969878483249698b44832896983048308969678483109696b448314969630482fc969478482f89694b448300969430482e4969278482e09692b4482ec969230482d0969078482cc9690b4482d4969030482b4968e78482c0968eb4482c4968e30482a8968c78482a4968cb4482ac968c3048298968a7848290968ab44829c968a3048284968878482809688b448288968830482709686784826c9686b4482749686304825c968478482589684b448260968430482449682784823c9682b44824896823049078967cb449074967c784907c967c3049060967ab44905c967a7849064967a304903c9678b4490489678784904c967830490309676b44902c96767849034967630490209674b44901c9674784902496743048ffc9672b4490089672784900c96723048fe89670b448fdc96707848ff496703048fcc966eb448fd0966e7848fd4966e30)
  (.lf 0)) (.nd (.lf
  0x394947a932c394847a912c3946c7a8f2c394587a8d2c394447a8b2c394307a892c394207a872c3940c7a852c393f87a832c393f47a80cc3b4dc7ebf2c3b4cc7ebd2c3b4b87ebb2c3b4a07eb92c3b4907eb72c3b4787eb52c3b4687eb32c3b44c7eb12c3b4387eaf2c3b4247ead2c3b4507eab2c3b4007ea92c3b3f07ea72c3b3d87ea52c3b3c07ea32c3b3ac7ea12c3b3dc7e9f2c3b3887e9d2c3b3747e9b2c3b3647e992c3b34c7e972c3b3387e952c3b32c7e932c3b30c7e912c3b3147e8f2c3b2e87e8d2c3b2d87e8b2c3b2c07e892c3b2ac7e872c3b2947e852c3b29c7e832c3b27c7e80cc3fcfc82bf2c3fc7882bd2c3fc2c82bb2c3fbec82b92c3fbb082b72c3fb6c82b52c3fb2482b32c3fadc82b12c3fa9482af2c3fa5482ad2c3fa1082ab2c3f9c882a92c3f98882a72c3f94482a52c3f8fc82a32c3f8b482a12c3f874829f2c3f838829d2c3f7fc829b2c3f4cc82992c3f4ac82972c3f49482952c)
  (.lf 0))) (.nd (.nd (.lf
  0x568d0b22050568d4b21e50568d8b21c50568dcb21a50568e0b21850568e4b2165056798b2145056758b2125056620b2105056624b20e5056628b20c505662cb20a5056630b2085056634b20650561c4b20450561c8b20250561ccb2005057150b63e7857154b63c7857158b63a78570f8b63878570fcb6367856e64b6347856e14b6327856d84b6307856cecb62e7856cf0b62c7856cf4b62a7856cf8b6287856cfcb6267856d00b6247856a44b6227856900b6207856904b61e7856908b61c785690cb61a7856910b6187856914b61678567a4b6147856760b6127856650b6107856654b60e7856658b60c785665cb60a7856660b6087856664b60678561dcb60478561e0b60278561e4b6007859014b63e5059018b63c5059030b63a5058fecb6385058f88b6365058f8cb6345058f90b6325058f94b6305058f98b62e5058f9cb62c5058fa0b62a5058fa4b6285058ea4b6265058e40b6245058e44b62250)
  (.lf 0)) (.nd (.lf
  0x5ce70b839d05ce14b837d05cd84b835d05cd08b833d05cc60b831d05cc1cb82fd05cb98b82dd05cb24b82bd05caa8b829d05ca38b827d05c9d4b825d05c914b823d05c8d0b821d05c88cb81fd05c848b81dd05c804b81bd05c7c0b819d05c77cb817d05c738b815d05c6f4b813d05c6b0b811d05c668b80fd05c578b80dd05c55cb80bd05c53cb809d05c514b807d05c4ecb805d05c4c8b803d05c2b4b801105af90bcbecc5af98bcbccc5afa0bcbacc5a5a0bcb8cc5a5a8bcb6cc5a5b0bcb4cc5a5b8bcb2cc5a958bcb0cc5a5c0bcaecc5a960bcaccc5afe4bcaacc5afecbca8cc5aff4bca6cc5affcbca4cc5b004bca2cc5b00cbca0cc5b014bc9ecc5b01cbc9ccc5b024bc9acc5b02cbc98cc5b034bc96cc5b03cbc94cc5b044bc92cc5b04cbc90cc5b054bc8ecc5b05cbc8ccc5b064bc8acc5b06cbc88cc5b074bc86cc5b07cbc84cc5b084bc82cc5b2e8bcbdd05b2d4bcbbd05b2bcbcb9d05b2acbcb7d0)
  (.lf 0)))

def shaWireTree48 : BTree :=
  .nd (.nd (.nd (.lf
  0x62634d1bf2c62638d1bd2c62604d1bb2c623c0d1b92c622e4d1b72c62234d1b52c621a4d1b32c620d4d1b12c61fecd1af2c61f6cd1ad2c61f48d1ab2c61f8cd1a92c61db4d1a72c61d28d1a52c61cc8d1a32c61d44d1a12c61bd0d19f2c61ba8d19d2c61b84d19b2c61a74d1992c61a34d1972c619dcd1952c6190cd1932c616ecd1912c61688d18f2c615e4d18d2c614e4d18b2c61450d1892c61394d1872c612f4d1852c61334d1832c60ea0d180cc644a8d5bf2c644b0d5bd2c64514d5bb2c642a8d5b92c64284d5b72c6436cd5b52c64268d5b32c64358d5b12c64200d5af2c64204d5ad2c64208d5ab2c63fe8d5a92c64424d5a72c63d18d5a52c63c88d5a32c63ca0d5a12c63c70d59f2c63ad4d59d2c63a5cd59b2c63a54d5992c639f8d5972c639acd5952c638c8d5932c63880d5912c63890d58f2c63840d58d2c6382cd58b2c63990d5892c62f80d5872c62d24d5852c62cc0d5832c62c34d580cc)
  (.lf
  0x397a47881101e5ac787ecc1e5b4787ccc1e5bc787acc1e6387878cc1e6407876cc1e6487874cc1e6507872cc1e6587870cc1e660786ecc1e668786ccc1e670786acc1e6787868cc1e6807866cc1e6887864cc1e6907862cc1e6987860cc1e6a0785ecc1e6a8785ccc1e6b0785acc1e6b87858cc1e6c07856cc1e6c87854cc1e6d07852cc1e6d87850cc1e6e0784ecc1e6e8784ccc1e6f0784acc1e6f87848cc1e7007846cc1e7087844cc1e7107842cc1e974787dd01e960787bd01e94c7879d01e9387877d01e9247875d01e9107873d01e8fc7871d01e8e8786fd01e8d4786dd01e8c0786bd01e8ac7869d01e8987867d01e8847865d01e8707863d01e85c7861d01e848785fd01e834785dd01e820785bd01e80c7859d01e7f87857d01e7e47855d01e7d07853d01e7bc7851d01e7a8784fd01e794784dd01e780784bd01e76c7849d01e7587847d01e7447845d01e7307843d01e71878411039ddc783ecc))
  (.nd (.lf
  0x66e88002c0166d1c002bff66cd8002bfd66c9c002bfb66c64002bf966dec002bf766728002bf5666dc002bf36653c002bf166564002bef66668002bed66c1c002beb66418002be9663a4002be766358002be566310002be3662f4002be168374002bdf682e4002bdd68fd4002bdb68f14002bd968d74002bd768cc0002bd568c38002bd368ba0002bd168b68002bcf68a5c002bcd68a04002bcb689c4002bc9688ec002bc768fd8002bc568f18002bc368d78002bc168cc4002bbf68c3c002bbd68ba4002bbb68b6c002bb968a60002bb768a08002bb5689c8002bb3688f0002bb168820002baf687ac002bad68740002bab686ec002ba96869c002ba768664002ba568494002ba368424002ba16a790002b9f6a744002b9d6add8002b9b6ae10002b996ad78002b976accc002b956ac20002b936abb4002b916ab60002b8f6ab14002b8d6aab4002b8b6aa74002b896a980002b876addc002b856ae14002b83)
  (.lf 0))) (.nd (.nd (.lf
  0x39f187a603039efc7a5eb439ef87a5e7839f007a5e3039ee47a5cb439ee07a5c7839ee87a5c3039ecc7a5ab439ec87a5a7839ed07a5a3039eb47a58b439eb07a587839eb87a583039e9c7a56b439e987a567839ea07a563039e847a54b439e807a547839e887a543039e6c7a52b439e687a527839e707a523039e547a50b439e507a507839e587a503039e3c7a4eb439e387a4e7839e407a4e3039e247a4cb439e207a4c7839e287a4c30398c07a4ab4398f47a4a78398fc7a4a303987c7a48b4398b07a4878398b87a4830398387a46b43986c7a4678398707a4630397e47a44b4398287a44783982c7a4430397b87a42b4397d87a4278397dc7a42303a8107afcb43a8187afc783a81c7afc303a8047afab43a8007afa783a8087afa303a7ec7af8b43a7e87af8783a7f07af8303a7dc7af6b43a7d47af6783a7e07af6303a7c47af4b43a7c07af4783a7c87af4303a7b47af2b43a7ac7af2783a7b87af230)
  (.lf 0)) (.nd (.lf
  0x80138006173800940061718005400616f805ac00616d804f800616b805300061698047000616780420006165805b4006163803440061618210400615f8209800615d8206800615b82038006159822a8006157822b000615582914006153825e8006151825b800614f8257800614d8224800614b8291c00614982600006147825a80061458254000614382298006141821e800613f8213400613d821a800613b8209c0061398207000613782048006135820200061338200000613182a5400612f8290400612d825f000612b825a40061298254800612782210006125821480061238215800612100e00023fb000e08023db000e10023bb000e180239b000e200237b000e280235b000e300233b000e380231b000e40022fb000e48022db000e50022bb000e580229b000e600227b000e680225b000e700223b000e780221b000e80021fb000e88021db000e90021bb000e980219b000ea00217b000ea80215b0)
  (.lf 0)))

def shaWireTree49 : BTree :=
  .nd (.nd (.nd (.lf
  0xca082d5ab40ca0c2d5a300c90c2d58780c98c2d58b40c9902d58300c8802d56780c9002d56b40c9042d56300c7f42d54780c8742d54b40c8782d54300c7642d52780c7e82d52b40c7ec2d52300c6e82d50780c7582d50b40c75c2d50300c65c2d4e780c6dc2d4eb40c6e02d4e300c5cc2d4c780c6502d4cb40c6542d4c300c5502d4a780c5c02d4ab40c5c42d4a300c4c02d48780c5442d48b40c5482d48300c4442d46780c4b42d46b40c4b82d46300c3b42d44780c4382d44b40c43c2d44300c36c2d42780c3a82d42b40c3ac2d42300d2d02dbc780d2602dbcb40d2d42dbc300d2542dba780d1d02dbab40d2582dba300d1c42db8780d1542db8b40d1c82db8300d1482db6780d0c42db6b40d14c2db6300d0b82db4780d0482db4b40d0bc2db4300d03c2db2780cfbc2db2b40d0402db2300cfb02db0780cf2c2db0b40cfb42db0300cf202dae780ceac2daeb40cf242dae300cea02dac780ce2c2dacb4)
  (.lf 0)) (.nd (.lf
  0x1f10c0050fd1f1140050fb1f11c0050f91f1240050f71f12c0050f51f1340050f31f13c0050f11f1440050ef1f14c0050ed1f1540050eb1f15c0050e91f1640050e71f16c0050e51f1740050e31f17c0050e119d3c0050df19d440050dd19d4c0050db19dc80050d919dd00050d719dd80050d519de00050d319de80050d119df00050cf19df80050cd19e000050cb19e080050c919e100050c719e180050c519e200050c319e280050c119e300050bf19e380050bd19e400050bb19e480050b919e500050b719e580050b519e600050b319e680050b119e700050af19e780050ad19e800050ab19e880050a919e900050a719e980050a519ea00050a319ea80050a11aa8800509f1aa9000509d1aa9800509b1ab140050991ab1c0050971ab240050951ab2c0050931ab340050911ab3c00508f1ab4400508d1ab4c00508b1ab540050891ab5c0050871ab640050851ab6c0050831ab740050811ab7c00507f)
  (.lf 0))) (.nd (.nd (.lf
  0x6b948d44c786b950d44c306b930d44ab46b938d44a786b93cd44a306b924d448b46b918d448786b928d448306b90cd446b46b908d446786b910d446306b8f4d444b46b8f8d444786b8fcd444306b880d442b46b8e0d442786b8e4d442306c474d43cb46c470d43c786c478d43c306c458d43ab46c45cd43a786c460d43a306c438d438b46c43cd438786c448d438306c42cd436b46c420d436786c430d436306c410d434b46c414d434786c418d434306c3f8d432b46c3f4d432786c3fcd432306c3dcd430b46c3d8d430786c3e0d430306c3ccd42eb46c358d42e786c3d0d42e306c34cd42cb46c348d42c786c350d42c306c328d42ab46c32cd42a786c330d42a306c31cd428b46c318d428786c320d428306c30cd426b46c300d426786c310d426306c2c8d424b46c2f4d424786c2f8d424306c2bcd422b46c2b8d422786c2c0d422306c2a8d420b46c2acd420786c2b0d420306c258d41eb46c27cd41e78)
  (.lf 0)) (.nd (.lf
  0x4e9dca2afd04e9c4a2add04e9b4a2abd04e9a4a2a9d04e990a2a7d04e97ca2a5d04e960a2a3d04e950a2a1d04e940a29fd04e92ca29dd04e914a29bd04e900a299d04e8eca297d04e8dca295d04e8c4a293d04e8b4a291d04e8a0a28fd04e88ca28dd04e878a28bd04e864a289d04e850a287d04e83ca285d04e828a283d04e814a281104f5eca27ecc4f54ca27ccc4f5e8a27acc4f548a278cc4f500a276cc4f544a274cc4f5f4a272cc4f540a270cc4f4f8a26ecc4f53ca26ccc4f5fca26acc4f538a268cc4f4fca266cc4f534a264cc4f5f0a262cc4f530a260cc4f4f0a25ecc4f52ca25ccc4f600a25acc4f528a258cc4f4e8a256cc4f524a254cc4f5f8a252cc4f520a250cc4f4f4a24ecc4f51ca24ccc4f604a24acc4f518a248cc4f4e4a246cc4f514a244cc4f610a242cc4ff18a27dd04fefca27bd04fee8a279d04fec8a277d04feaca275d04fe98a273d04fe80a271d04fe5ca26fd04fe44a26dd0)
  (.lf 0)))

def shaWireTree50 : BTree :=
  .nd (.nd (.nd (.lf
  0x6b0c4e198786b0c0e198b46b0c8e198306b0b0e196786b0b4e196b46b0b8e196306b0a4e194786b090e194b46b0a8e194306b074e192786b06ce192b46b088e192306b048e190786b04ce190b46b064e190306b028e18e786b024e18eb46b03ce18e306a1a0e18c786b018e18cb46b01ce18c306a034e18a786a030e18ab46a038e18a306a024e188786a010e188b46a028e1883069f34e1867869e84e186b46a008e1863069e60e1847869698e184b469e7ce184306968ce18278695e8e182b469690e182306d58ce57c786d588e57cb46d590e57c306d568e57a786d57ce57ab46d580e57a306d4f4e578786d4f0e578b46d528e578306d4a8e576786d4a4e576b46d4e8e576306d498e574786d180e574b46d49ce574306d04ce572786d07ce572b46d080e572306d008e570786d040e570b46d044e570306ce8ce56e786cfa0e56eb46cfe4e56e306ce80e56c786ce4ce56cb46ce84e56c306ce40e56a78)
  (.lf 0)) (.nd (.lf
  0x3f280b9cb403f2c0b9ab403f300b98b403f340b96b403f380b94b403f3c0b92b403f400b90b403f440b8eb403f480b8cb403f4c0b8ab403f500b88b403f540b86b403f580b84b403f5c0b82b403f600b80b4026980bbe780269c0bbc78026a00bba78026a40bb878026a80bb678026ac0bb478026b00bb278026b40bb078026b80bae78026bc0bac78026c00baa78026c40ba878026c80ba678026cc0ba478026d00ba278026d40ba078026d80b9e78026dc0b9c78026e00b9a78026e40b9878026e80b9678026ec0b9478026f00b9278026f40b9078026f80b8e78026fc0b8c78027000b8a78027040b8878027080b86780270c0b8478027100b8278027140b807803f640bbe3003f680bbc3003f6c0bba3003f700bb83003f740bb63003f780bb43003f7c0bb23003f800bb03003f840bae3003f880bac3003f8c0baa3003f900ba83003f940ba63003f980ba43003f9c0ba23003fa00ba03003fa40b9e30)
  (.lf 0))) (.nd (.nd (.lf
  0xe0c03254780e1343254300e0b43252b40e0303252780e0b83252300e0243250b40dfb43250780e0283250300dfa8324eb40df24324e780dfac324e300df18324cb40dea4324c780df1c324c300de98324ab40de28324a780de9c324a300de1c3248b40ddac3248780de203248300dda03246b40dd343246780dda43246300dd283244b40dcc03244780dd2c3244300dcb43242b40dc683242780dcb83242301488832fcb4148c432fc78148c832fc301483032fab41487c32fa781488032fa30147d432f8b41482432f8781482832f8301478032f6b4147c832f678147cc32f6301473032f4b41477432f4781477832f430146d832f2b41472432f2781472832f2301468c32f0b4146cc32f078146d032f0301463432eeb41468032ee781468432ee30145e832ecb41462832ec781462c32ec301459032eab4145dc32ea78145e032ea301453c32e8b41458432e8781458832e830144e032e6b41453032e678)
  (.lf 0)) (.nd (.lf
  0x23c5c5962cc23bd45960cc23b44595ecc23ab0595ccc23a28595acc239a05958cc239105956cc2387c5954cc237e85952cc2375c5950cc236cc594ecc2363c594ccc235a8594acc235185948cc234785946cc233dc5944cc233385942cc24b20597dd024b0c597bd024af85979d024ae45977d024ad05975d0248c45973d0248b05971d0248a0596fd02488c596dd024878596bd0248645969d0248505967d02483c5965d0248285963d0248145961d024800595fd0247ec595dd0247d8595bd0247b05959d0247345957d0247205955d02470c5953d0246f85951d0246e4594fd0246d0594dd0246ac594bd0235145949d0234845947d0233ec5945d0233405943d0232c8594110243cc59becc2437459bccc242f459bacc2426c59b8cc241e459b6cc2415459b4cc240c059b2cc2403059b0cc23fa059aecc23f1059accc23e8059aacc23df859a8cc23d7059a6cc23ce859a4cc23c6059a2cc23bd859a0cc)
  (.lf 0)))

def shaWireTree51 : BTree :=
  .nd (.nd (.nd (.lf
  0x61980c2dcb461984c2dc7861988c2dc3061974c2dab461970c2da7861978c2da3061960c2d8b461958c2d87861964c2d8306194cc2d6b461948c2d67861950c2d63061938c2d4b4616a8c2d4786193cc2d4306159cc2d2b461590c2d278615a0c2d23061578c2d0b461550c2d0786157cc2d0306153cc2ceb461540c2ce7861548c2ce306152cc2ccb461530c2cc7861534c2cc30614c0c2cab461410c2ca7861524c2ca3061400c2c8b46132cc2c87861404c2c83061320c2c6b46131cc2c67861324c2c630612b4c2c4b461310c2c47861314c2c4306129cc2c2b460eccc2c278612a0c2c230623a4c338aa621f8c336aa61fd0c330aa61fc4c32eaa61e10c32aaa61c2cc324aa61998c31eaa619a0c31caa61588c310aa6141cc308aa612b8c304aa6256cc33d406221cc337f46220cc3354062064c32ff461f40c32d4061e78c3294061cdcc3234061b28c31df461ae4c31b406162cc30f406139cc30740)
  (.lf 0)) (.nd (.lf
  0x12d403234a012940320b40125c031eb401224031cb4011e8031b4a011a80318b40116c03174a0112803154a010e403134a010a003114a0105c030f4a0101c030cb400fe4030ab400fa803094a00f740306aa03dc8073eb403d54073d4a03cc8073b4a03c3c07394a03bb40736b403b340734b403ab40732b403a3007314a039a8072eb403928072cb4038a4072b4a0381807294a037900726b40370c07254a0368007234a035f407214a0356c071eb4034e8071d4a03460071ab4033e00718b4033600716b4032dc07154a032540712b4031d40710b403150070f4a030c8070cb403048070ab402fc407094a02f3c0706b402ebc0704b402e3c0702b402e040700aa056d00b3f4a0565c0b3cb4055d80b3b4a0554c0b394a054c40b36b4054400b354a053b80b32b4053340b314a052a80b2f4a0521c0b2d4a051940b2ab4051140b28b4050940b26b4050140b24b404f940b22b404f140b20b404e900b1f4a)
  (.lf 0))) (.nd (.nd (.lf
  0x1f6f85c8e301f6305c8cb41f57c5c8c781f6345c8c301f5705c8ab41f4c05c8a781f5745c8a301f4b45c88b41f40c5c88781f4b85c88301f4005c86b41f3545c86781f4045c86301f3485c84b41f2905c84781f34c5c84301f2845c82b41f1dc5c82781f2885c82301cea05c7cb41ce9c5c7c781cea45c7c301ce8c5c7ab41ce885c7a781ce905c7a301ce785c78b41ce745c78781ce7c5c78301ce645c76b41ce605c76781ce685c76301ce505c74b41ce4c5c74781ce545c74301ce3c5c72b41ce385c72781ce405c72301ce285c70b41ce245c70781ce2c5c70301ce145c6eb41ce105c6e781ce185c6e301ce005c6cb41cdfc5c6c781ce045c6c301cdec5c6ab41cde85c6a781cdf05c6a301cdd85c68b41cdd45c68781cddc5c68301cdc45c66b41cdc05c66781cdc85c66301cdb05c64b41cdac5c64781cdb45c64301cd9c5c62b41cd985c62781cda05c62301cd885c60b41cd845c60781cd8c5c6030)
  (.lf 0)) (.nd (.lf
  0xbdcc1fc6cc0bdd41fc4cc0bddc1fc2cc0c0401ffdd00c02c1ffbd00c0181ff9d00c0041ff7d00bff01ff5d00bfdc1ff3d00bfc81ff1d00bfb41fefd00bfa01fedd00bf8c1febd00bf781fe9d00bf641fe7d00bf501fe5d00bf3c1fe3d00bf281fe1d00bf141fdfd00bf001fddd00beec1fdbd00bed81fd9d00bec41fd7d00beb01fd5d00be9c1fd3d00be881fd1d00be741fcfd00be601fcdd00be4c1fcbd00be381fc9d00be241fc7d00be101fc5d00bdfc1fc3d00bde41fc1100db4022becc0db4822bccc0db5022bacc0db5822b8cc0db6022b6cc0db6822b4cc0db7022b2cc0db7822b0cc0db8022aecc0db8822accc0db9022aacc0db9822a8cc0dba022a6cc0dba822a4cc0dbb022a2cc0dbb822a0cc0dbc0229ecc0dbc8229ccc0dbd0229acc0dbd82298cc0dbe02296cc0dbe82294cc0dbf02292cc0dbf82290cc0dc00228ecc0dc08228ccc0dc10228acc0dc182288cc0dc202286cc0dc282284cc)
  (.lf 0)))

def shaWireTree52 : BTree :=
  .nd (.nd (.nd (.lf
  0x3d400000dcb3d404000dc93d408000dc73d40c000dc53d410000dc33d414000dc13d418000dbf3d41c000dbd3d420000dbb3d424000db93d428000db73d42c000db53d430000db33d434000db13d438000daf3d43c000dad3d440000dab3d444000da93d448000da71e988000da51e98c000da31e990000da11e994000d9f1e998000d9d1e99c000d9b1e9a0000d991e9a4000d971e9a8000d951e9ac000d931e9b0000d911e9b4000d8f1e9b8000d8d1e9bc000d8b1e9c0000d891e9c4000d871e9c8000d851e9cc000d831e9d0000d811e9d4000d7f1e9d8000d7d1e9dc000d7b1e9e0000d791e9e4000d771e9e8000d751e9ec000d731e9f0000d711e9f4000d6f1e9f8000d6d412b8000d6b412bc000d69412c0000d67412c4000d65412c8000d63412cc000d61412d0000d5f412d4000d5d412d8000d5b412dc000d59412e0000d57412e4000d55412e8000d53412ec000d51412f0000d4f412f4000d4d)
  (.lf 0)) (.nd (.lf
  0x494509ba0b4494549b9eb4494849b9cb4493ec9b9ab4493f09b98b4493b49b96b4493809b94b4493849b92b4493509b90b4493209b8eb4491989b8cb4490e89b8ab448e0c9b88b448d6c9b86b448cf49b84b448c689b82b448bcc9b80b447bbc9bbe7847bc09bbc7847b589bba7847aac9bb87847ab09bb67847ab49bb47847ab89bb27847a089bb078479c89bae78478909bac78478949baa78478989ba8784789c9ba678477a49ba478477749ba278477109ba078476b89b9e78476bc9b9c78476d89b9a78476209b9878475e89b9678475b09b94784755c9b9278475309b9078475349b8e78475389b8c78474989b8a78474649b887846a6c9b8678469f89b8478469c49b8278466809b807849a089bbe3049a0c9bbc30499a89bba30499789bb83049a6c9bb630498b89bb430499209bb230498bc9bb030498509bae30498209bac304961c9baa30495dc9ba8304958c9ba630495909ba430495389ba230)
  (.lf 0))) (.nd (.nd (.lf
  0x22b0856683022af05666b422aec56667822af456663022adc5664b422ad856647822ae056643022ac85662b422ac456627822acc56623022ab45660b422ab056607822ab856603022aa0565eb422a9c565e7822aa4565e3022a8c565cb422a88565c7822a90565c3022a78565ab422a74565a7822a7c565a3022a645658b422a6056587822a6856583022a505656b422a4c56567822a5456563022a3c5654b422a3856547822a4056543022a285652b422a2456527822a2c56523022a145650b422a1056507822a1856503022a00564eb4229fc564e7822a04564e30229ec564cb4220c0564c78229f0564c30220b4564ab421ea0564a78220b8564a3021e945648b421e7456487821e9856483021e685646b421e4856467821e6c56463021e3c5644b421db456447821e4056443021da85642b421d9456427821dac564230292f856fcb42932c56fc782933056fc30292bc56fab4292ec56fa78292f056fa30)
  (.lf 0)) (.nd (.lf
  0x6840cdd5acc6835cdd58cc682ccdd56cc68278dd54cc67af0dd52cc67a00dd50cc6799cdd4ecc67710dd4ccc676a4dd4acc6764cdd48cc675ecdd46cc674b4dd44cc6740cdd42cc68f40dd7dd068d98dd7bd068ca0dd79d068c08dd77d068b48dd75d068b14dd73d068a7cdd71d068a40dd6fd0689e8dd6dd0689a4dd6bd068840dd69d06877cdd67d068714dd65d0686f4dd63d068694dd61d068670dd5fd068648dd5dd068448dd5bd068380dd59d0682ecdd57d068298dd55d067b14dd53d067a20dd51d0679d0dd4fd06771cdd4dd0676c4dd4bd067684dd49d067628dd47d0674d4dd45d067438dd43d0673bcdd4110690fcddbecc68f50ddbccc68da4ddbacc68e1cddb8cc68c0cddb6cc68ddcddb4cc68bc4ddb2cc68888ddb0cc6896cddaecc68864ddaccc68900ddaacc687e0dda8cc687b0dda6cc68748dda4cc686b0dda2cc685c4dda0cc68584dd9ecc68498dd9ccc683f8dd9acc68358dd98cc)
  (.lf 0)))

def shaWireTree53 : BTree :=
  .nd (.nd (.nd (.lf
  0x78ed0e6e43078e4ce6e2b478eb4e6e27878eb8e6e23078e40e6e0b478e34e6e07878e44e6e03078de8e6deb478e20e6de7878e2ce6de3078d74e6dcb478dd0e6dc7878de0e6dc3078d64e6dab478d68e6da7878d6ce6da3078d58e6d8b478d54e6d87878d5ce6d83078d40e6d6b478d48e6d67878d4ce6d63078ccce6d4b478d34e6d47878d38e6d43078b98e6d2b478cc0e6d27878cc4e6d23078ab0e6d0b478b8ce6d07878b90e6d03078aa4e6ceb478aa0e6ce7878aa8e6ce3078a94e6ccb478a90e6cc7878a98e6cc3078a28e6cab478a7ce6ca7878a80e6ca30789ace6c8b478a1ce6c87878a20e6c83078938e6c6b478998e6c6787899ce6c63078920e6c4b478924e6c47878928e6c430787a4e6c2b4787a8e6c27878918e6c2307929ce73caa79238e73aaa7921ce738aa791d8e736aa78fdce72eaa78f5ce72aaa78ec8e724aa78e3ce720aa78ddce71caa78df8e71aaa78c90e712aa78b88e710aa)
  (.lf 0)) (.nd (.lf
  0x20e0039dd0020e8039bd0020f00399d0020f80397d0021000395d0021080393d0021100391d002118038fd002120038dd002128038bd0021300389d0021380387d0021400385d0021480383d0021500381d00281807bfd00281c07bdd00282007bbd00282407b9d00282807b7d00282c07b5d00283007b3d00283407b1d00283807afd00283c07add00284007abd00284407a9d00284807a7d00284c07a5d00285007a3d00285407a1d002858079fd00285c079dd002860079bd0028640799d0028680797d00286c0795d0028700793d0028740791d002878078fd00287c078dd002880078bd0028840789d0028880787d00288c0785d0028900783d0028940781d003fe40bbfd003fe80bbdd003fec0bbbd003ff00bb9d003ff40bb7d003ff80bb5d003ffc0bb3d0040000bb1d0040040bafd0040080badd00400c0babd0040100ba9d0040140ba7d0040180ba5d00401c0ba3d0040200ba1d0040240b9fd0)
  (.lf 0))) (.nd (.nd (.lf
  0x4ad0c986ab44ad08986a784ad10986a304ace09868b44acdc9868784ace49868304acb49866b44acb09866784acb89866304ac889864b44ac849864784ac8c9864304ac5c9862b44ac589862784ac609862304ac309860b44ac2c9860784ac349860304ac04985eb44ac00985e784ac08985e304abd8985cb44abd4985c784abdc985c304abac985ab44aba8985a784abb0985a304ab809858b44ab7c9858784ab849858304ab549856b44ab509856784ab589856304ab289854b44ab249854784ab2c9854304aafc9852b44aaf89852784ab009852304aad09850b44aacc9850784aad49850304aaa4984eb44aaa0984e784aaa8984e304aa78984cb44aa74984c784aa7c984c304aa4c984ab44aa48984a784aa50984a304aa209848b44aa1c9848784aa249848304a9f49846b44a9f09846784a9f89846304a9c89844b44a9c49844784a9cc9844304a99c9842b44a9989842784a9a09842304ae84983cb4)
  (.lf 0)) (.nd (.lf
  0x2d67c62bacc2d68462b8cc2d68c62b6cc2d69462b4cc2d69c62b2cc2d6a462b0cc2d6ac62aecc2d6b462accc2d6bc62aacc2d6c462a8cc2d6cc62a6cc2d6d462a4cc2d6dc62a2cc2d6e462a0cc2d6ec629ecc2d6f4629ccc2d6fc629acc2d7046298cc2d70c6296cc2d7146294cc2d71c6292cc2d7246290cc2d72c628ecc2d734628ccc2d73c628acc2d7446288cc2d74c6286cc2d7546284cc2d75c6282cc2d9c062bdd02d9ac62bbd02d99862b9d02d98462b7d02d97062b5d02d95c62b3d02d94862b1d02d93462afd02d92062add02d90c62abd02d8f862a9d02d8e462a7d02d8d062a5d02d8bc62a3d02d8a862a1d02d894629fd02d880629dd02d86c629bd02d8586299d02d8446297d02d8306295d02d81c6293d02d8086291d02d7f4628fd02d7e0628dd02d7cc628bd02d7b86289d02d7a46287d02d7906285d02d77c6283d02d7646281102e8e8627ecc2e884627ccc2e814627acc2e79c6278cc)
  (.lf 0)))

def shaWireTree54 : BTree :=
  .nd (.nd (.nd (.lf
  0x3ac508978303ac388976783ac348976b43ac3c8976303ac248974783ac208974b43ac288974303ac108972783ac0c8972b43ac148972303abfc8970783abf88970b43ac008970303a988896e783abe8896eb43abec896e303a958896c783a97c896cb43a980896c303a92c896a783a94c896ab43a950896a303a90c8968783a9208968b43a9248968303a8dc8966783a9008966b43a9048966303a8b48964783a8d08964b43a8d48964303a8a88962783a8a48962b43a8ac8962303a6848960783a8988960b43a89c8960303a638895e783a678895eb43a67c895e303a5d8895c783a62c895cb43a630895c303a578895a783a5cc895ab43a5d0895a303a4dc8958783a56c8958b43a5708958303a4b88956783a4d08956b43a4d48956303a4448954783a4ac8954b43a4b08954303a4008952783a4388952b43a43c8952303a3c48950783a3f48950b43a3f88950303a250894e783a3b8894eb43a3bc894e30)
  (.lf 0)) (.nd (.lf
  0x5d05cc09d2c5d040c09b2c5d04cc0992c5cfccc0972c5cf50c0952c5cec8c0932c5ce38c0912c5cdbcc08f2c5cd34c08d2c5cca8c08b2c5cc38c0892c5cbacc0872c5cb38c0852c5cabcc0832c5ca4cc080cc5fa64c4bf2c5fa4cc4bd2c5fa50c4bb2c5fa28c4b92c5fa14c4b72c5fa00c4b52c5f9ecc4b32c5f9dcc4b12c5f9c0c4af2c5f9d0c4ad2c5f9a0c4ab2c5f988c4a92c5f974c4a72c5f960c4a52c5f94cc4a32c5f938c4a12c5f928c49f2c5f910c49d2c5f8fcc49b2c5f8e8c4992c5f8d4c4972c5f8c0c4952c5f8acc4932c5f898c4912c5f884c48f2c5f870c48d2c5f85cc48b2c5f84cc4892c5f834c4872c5fa68c4852c5f558c4832c5f55cc480cc61284c8bf2c61288c8bd2c6125cc8bb2c61244c8b92c61260c8b72c6121cc8b52c61208c8b32c61228c8b12c611e8c8af2c61264c8ad2c611c4c8ab2c6128cc8a92c611b8c8a72c61184c8a52c6118cc8a32c61164c8a12c6114cc89f2c)
  (.lf 0))) (.nd (.nd (.lf
  0x43dc0be630043c40be478043c00be4b4043c80be430043b00be278043ac0be2b4043b40be2300439c0be078043980be0b4043a00be030043880bde78043840bdeb40438c0bde30043740bdc78043700bdcb4043780bdc30043600bda780435c0bdab4043640bda300434c0bd878043480bd8b4043500bd830043380bd678043340bd6b40433c0bd630043240bd478043200bd4b4043280bd430043100bd2780430c0bd2b4043140bd230042fc0bd078042f80bd0b4043000bd030042e80bce78042e40bceb4042ec0bce30042d40bcc78042d00bccb4042d80bcc30042c00bca78042bc0bcab4042c40bca30042ac0bc878042a80bc8b4042b00bc830042980bc678042940bc6b40429c0bc630042840bc478042800bc4b4042880bc430042700bc2780426c0bc2b4042740bc2300621c0ebc78062180ebcb4062200ebc30062080eba78062040ebab40620c0eba30061f40eb878061f00eb8b4061f80eb830)
  (.lf 0)) (.nd (.lf
  0x712c4e276cc711b0e274cc712c0e272cc71180e270cc712bce26ecc71188e26ccc712b8e26acc71200e268cc712b4e266cc710e0e264cc70fb0e262cc710c8e260cc70face25ecc70fb4e25ccc70fa8e25acc70f08e258cc70fa4e256cc70ebce254cc70fa0e252cc70e8ce250cc70f9ce24ecc70e4ce24ccc70e5ce24acc70e34e248cc70b30e246cc70b0ce244cc70b70e242cc71568e27dd071554e27bd07153ce279d07152ce277d07151ce275d071508e273d0714f4e271d0714e0e26fd0714c4e26dd0714b4e26bd0714a4e269d071194e267d0710f4e265d0710c0e263d0710ace261d07109ce25fd071084e25dd071070e25bd07105ce259d071048e257d071034e255d071020e253d07100ce251d070ffce24fd070fe8e24dd070fd4e24bd070fc0e249d070ba4e247d070b94e245d070b80e243d070b28e2411077ab4e2fecc77ac0e2fccc77a88e2facc77a70e2f8cc77a58e2f6cc77a40e2f4cc)
  (.lf 0)))

def shaWireTree55 : BTree :=
  .nd (.nd (.nd (.lf
  0x4d3889e50b44d3849e50784d38c9e50304d2f49e4eb44d2f09e4e784d37c9e4e304d2e49e4cb44d2e09e4c784d2e89e4c304d2d49e4ab44d2d09e4a784d2d89e4a304d2bc9e48b44d2b89e48784d2c09e48304d2ac9e46b44d2a89e46784d2b09e46304d2949e44b44d2909e44784d2989e44304d27c9e42b44d2789e42784d2809e42304e0e09efcb44e0dc9efc784e0e89efc304dff89efab44e0d09efa784e0d49efa304dfec9ef8b44dfd89ef8784dff09ef8304def89ef6b44dd949ef6784dfd09ef6304dd889ef4b44dd849ef4784dd8c9ef4304dd789ef2b44dd749ef2784dd7c9ef2304dd609ef0b44dc3c9ef0784dd649ef0304dc2c9eeeb44db449eee784dc349eee304db389eecb44db309eec784db3c9eec304db189eeab44db149eea784db289eea304db049ee8b44dae89ee8784db089ee8304dadc9ee6b44d9c89ee6784dae09ee6304d9bc9ee4b44d9b89ee4784d9c09ee4304d9a89ee2b4)
  (.lf 0)) (.nd (.lf
  0x806e8fa932c80720fa912c80694fa8f2c807c8fa8d2c8069cfa8b2c80650fa892c805f8fa872c80604fa852c805bcfa832c80350fa80cc82f88febf2c82f78febd2c82f60febb2c82f40feb92c82f2cfeb72c82f18feb52c82efcfeb32c82ee4feb12c82eccfeaf2c82eb4fead2c82ea8feab2c82e80fea92c82e70fea72c82e54fea52c82bccfea32c82bb8fea12c82be0fe9f2c82b94fe9d2c82be8fe9b2c82b70fe992c82b50fe972c82b3cfe952c82ae4fe932c82ac8fe912c82a5cfe8f2c82948fe8d2c82648fe8b2c8261cfe892c82554fe872c82234fe852c8216cfe832c8215cfe80cc0089c027f2c00888027d2c00874027b2c0086002792c0084c02772c0083802752c0082402732c0081002712c007fc026f2c007e8026d2c007d4026b2c007c002692c007ac02672c0079802652c0078402632c0077002612c0075c025f2c00748025d2c00734025b2c0072002592c0070c02572c006f802552c)
  (.lf 0))) (.nd (.nd (.lf
  0x7d17cf220507d154f21e507d2b4f21c507d2c0f21a507d110f218507d0ecf216507d0b4f214507d08cf212507d050f210507cfe0f20e507d004f20c507c444f20a507c408f208507c3c4f206507c07cf204507bdd0f202507bd4cf200507d660f63e787d67cf63c787d6c4f63a787d688f638787d480f636787d3c4f634787d380f632787d340f630787d324f62e787d290f62c787d2e8f62a787d214f628787d1f8f626787d1c8f624787d1fcf622787d170f620787d178f61e787d2dcf61c787d2e4f61a787d118f618787d0f4f616787d0c4f614787d080f612787d06cf610787cfecf60e787d00cf60c787c450f60a787c40cf608787c3a8f606787c088f604787bdccf602787bd54f600787f65cf63e507f33cf63c507f1d8f63a507f164f638507f0d4f636507f110f634507efe8f632507efb4f630507ef74f62e507ef4cf62c507f77cf62a507ef08f628507e8d0f626507e8c4f624507e900f62250)
  (.lf 0)) (.nd (.lf
  0x69468d078cc69470d076cc69478d074cc69480d072cc69488d070cc69490d06ecc69498d06ccc694a0d06acc694a8d068cc694b0d066cc694b8d064cc694c0d062cc694c8d060cc694d0d05ecc694d8d05ccc694e0d05acc694e8d058cc694f0d056cc694f8d054cc69500d052cc69508d050cc69510d04ecc69518d04ccc69520d04acc69528d048cc69530d046cc69538d044cc69540d042cc69d00d07dd069cd4d07bd069984d079d069968d077d069954d075d069940d073d069924d071d06990cd06fd0698f4d06dd0698e0d06bd0698d0d069d0698b0d067d06989cd065d069884d063d0697ecd061d0697d4d05fd0697c0d05dd0697b0d05bd069798d059d069780d057d06976cd055d06975cd053d069734d051d06971cd04fd069708d04dd0696f8d04bd0696c8d049d0696b4d047d0696a4d045d0695ccd043d0695a0d0411069d08d03ecc69cf4d03ccc69998d03acc69978d038cc6999cd036cc)
  (.lf 0)))

def shaWireTree56 : BTree :=
  .nd (.nd (.nd (.lf
  0x20bd851bf2c20bbc51bd2c20b9c51bb2c20b7c51b92c20b5851b72c20b3851b52c20b1851b32c20af851b12c20ad851af2c209b051ad2c2099c51ab2c2098851a92c2097451a72c2096051a52c2094c51a32c2093851a12c20924519f2c20910519d2c208fc519b2c208e851992c208d451972c208c051952c208ac51932c2089851912c20884518f2c20870518d2c2085c518b2c2084851892c2083451872c1f30051852c1f23051832c1f1ac5180cc229d455bf2c2212455bd2c2210c55bb2c220f455b92c220dc55b72c2208c55b52c2207455b32c2205c55b12c2204455af2c2202c55ad2c2201455ab2c21ffc55a92c21fe455a72c21fcc55a52c21fb455a32c21f9c55a12c21f84559f2c21f6c559d2c21f54559b2c21f3c55992c21f2455972c21f0c55952c21ef455932c220c855912c220d4558f2c229e0558d2c220a8558b2c21e8855892c21e5c55872c21e3055852c21d9c55832c21d885580cc)
  (.lf
  0x1a8504c85d01a83c4c83d01a8244c81101ae604c7ecc1ae684c7ccc1ae704c7acc1aeec4c78cc1aef44c76cc1aefc4c74cc1af044c72cc1af0c4c70cc1af144c6ecc1af1c4c6ccc1af244c6acc1af2c4c68cc1af344c66cc1af3c4c64cc1af444c62cc1af4c4c60cc1af544c5ecc1af5c4c5ccc1af644c5acc1af6c4c58cc1af744c56cc1af7c4c54cc1af844c52cc1af8c4c50cc1af944c4ecc1af9c4c4ccc1afa44c4acc1afac4c48cc1afb44c46cc1afbc4c44cc1afc44c42cc1b7d84c7dd01b79c4c7bd01b7584c79d01b7144c77d01b6d04c75d01b68c4c73d01b6484c71d01b6044c6fd01b5c04c6dd01b57c4c6bd01b5384c69d01b4f44c67d01b4b04c65d01b46c4c63d01b4284c61d01b3e44c5fd01b3a04c5dd01b35c4c5bd01b3184c59d01b2d44c57d01b2904c55d01b24c4c53d01b2084c51d01b1c44c4fd01b1804c4dd01b13c4c4bd01b0f84c49d01b0b44c47d01b0704c45d01b02c4c43d0))
  (.nd (.lf
  0x79d58efa07879c80ef9e7879c6cef9c7879c34ef9a7879c14ef987879aa0ef967879a68ef947879a7cef927879924ef907879890ef8e787985cef8c7879840ef8a7879708ef887879628ef8678795a4ef847879524ef827879498ef80787b734efbe307b6d0efbc307b688efba307b618efb8307b5e8efb6307b5b8efb4307b4e4efb2307b468efb0307b380efae307b408efac307b3acefaa307b30cefa8307b328efa6307b2b0efa4307b23cefa2307b208efa0307b190ef9e307b1ccef9c307b184ef9a307b1b0ef98307b10cef96307b794ef94307b040ef92307b010ef90307afc8ef8e307af78ef8c307af54ef8a307af08ef88307aeecef86307af9cef84307a4c8ef82307a284ef80307cf08f3beb47ced8f3bcb47ceccf3bab47d8a0f3b8b47ce00f3b6b47cdc8f3b4b47cd90f3b2b47cd3cf3b0b47ccc4f3aeb47cc68f3acb47cc38f3aab47cc54f3a8b47cbecf3a6b47cbfcf3a4b47cbacf3a2b4)
  (.lf 0))) (.nd (.nd (.lf
  0x2f4b467f0302f49c67ee782f49867eeb42f4a067ee302f48867ec782f48467ecb42f48c67ec302f47467ea782f47067eab42f47867ea302f46067e8782f45c67e8b42f46467e8302f44c67e6782f44867e6b42f45067e6302f43867e4782f43467e4b42f43c67e4302f42467e2782f42067e2b42f42867e2302f41067e0782f40c67e0b42f41467e0302f3fc67de782f3f867deb42f40067de302f3e867dc782f3e467dcb42f3ec67dc302f3d467da782f3d067dab42f3d867da302f3c067d8782f3bc67d8b42f3c467d8302f3ac67d6782f3a867d6b42f3b067d6302f39867d4782f39467d4b42f39c67d4302f38467d2782f38067d2b42f38867d2302f37067d0782f36c67d0b42f37467d0302f35c67ce782f35867ceb42f36067ce302f30867cc782f34867ccb42f34c67cc302f2fc67ca782f2f867cab42f30067ca302f2e867c8782f2e467c8b42f2ec67c8302f2d467c6782f2d067c6b42f2d867c630)
  (.lf 0)) (.nd (.lf
  0x1ed544096cc1ed5c4094cc1ed644092cc1ed6c4090cc1ed74408ecc1ed7c408ccc1ed84408acc1ed8c4088cc1ed944086cc1ed9c4084cc1eda44082cc1f00840bdd01eff440bbd01efe040b9d01efcc40b7d01efb840b5d01efa440b3d01ef9040b1d01ef7c40afd01ef6840add01ef5440abd01ef4040a9d01ef2c40a7d01ef1840a5d01ef0440a3d01eef040a1d01eedc409fd01eec8409dd01eeb4409bd01eea04099d01ee8c4097d01ee784095d01ee644093d01ee504091d01ee3c408fd01ee28408dd01ee14408bd01ee004089d01edec4087d01edd84085d01edc44083d01edac40811000c0000711f00c0400711d00c0800711b00c0c00711900c1000711700c1400711500c1800711300c1c00711100c2000710f00c2400710d00c2800710b00c2c00710900c3000710700c3400710500c3800710300c3c00710100c400070ff00c440070fd00c480070fb00c4c0070f900c500070f700c540070f5)
  (.lf 0)))

def shaWireTree57 : BTree :=
  .nd (.nd (.nd (.lf
  0x80910fab27880914fab2b480918fab23080904fab078808fcfab0b480908fab030808ecfaae78808e8faaeb4808f0faae30808c8faac78808ccfaacb4808d8faac30808b0faaa78808bcfaaab4808c0faaa3080894faa87880890faa8b4808a8faa83080880faa67880884faa6b480888faa630807b8faa478807bcfaa4b480878faa430807a0faa278807a8faa2b4807acfaa23080788faa0788078cfaa0b480798faa0308077cfa9e7880778fa9eb480780fa9e308076cfa9c7880760fa9cb480770fa9c308074cfa9a7880754fa9ab480758fa9a308073cfa987880740fa98b480744fa983080714fa967880728fa96b48072cfa963080708fa947880700fa94b48070cfa9430806e4fa9278806f0fa92b4806f4fa9230806d8fa9078806d4fa90b4806dcfa9030806c8fa8e7880690fa8eb4806ccfa8e3080680fa8c7880684fa8cb480688fa8c3080674fa8a7880670fa8ab480678fa8a3080648fa8878)
  (.lf 0)) (.nd (.lf
  0x226003dd2c0224c03db2c0223803d92c0222403d72c0221003d52c021fc03d32c021e803d12c021d403cf2c021c003cd2c021ac03cb2c0219803c92c0218403c72c0217003c52c0215c03c32c0215803c0cc02c7407ff2c02c6007fd2c02c4c07fb2c02c3807f92c02c2407f72c02c1007f52c02bfc07f32c02be807f12c02bd407ef2c02bc007ed2c02bac07eb2c02b9807e92c02b8407e72c02b7007e52c02b5c07e32c02b4807e12c02b3407df2c02b2007dd2c02b0c07db2c02af807d92c02ae407d72c02ad007d52c02abc07d32c02aa807d12c02a9407cf2c02a8007cd2c02a6c07cb2c02a5807c92c02a4407c72c02a3007c52c02a1c07c32c02a1807c0cc044c00bff2c044ac0bfd2c044980bfb2c044840bf92c044700bf72c0445c0bf52c044480bf32c044340bf12c044200bef2c0440c0bed2c043f80beb2c043e40be92c043d00be72c043bc0be52c043a80be32c043940be12c043800bdf2c)
  (.lf 0))) (.nd (.nd (.lf
  0x59d9cb8ba3059d84b8b8b459d88b8b87859d8cb8b83059d70b8b6b459d74b8b67859d78b8b63059d60b8b4b459d58b8b47859d64b8b43059d48b8b2b459d4cb8b27859d50b8b23059d30b8b0b459d38b8b07859d3cb8b03059d24b8aeb459d20b8ae7859d28b8ae3059d10b8acb459d0cb8ac7859d18b8ac3059d00b8aab459cfcb8aa7859d04b8aa3059ce8b8a8b459cecb8a87859cf0b8a83059cd8b8a6b459cdcb8a67859ce0b8a63059cc8b8a4b459cccb8a47859cd0b8a43059cb4b8a2b459cb8b8a27859cbcb8a23059ca4b8a0b459ca8b8a07859cacb8a03059c94b89eb459c90b89e7859c98b89e3059c84b89cb459c80b89c7859c88b89c3059c70b89ab459c6cb89a7859c74b89a3059c60b898b459c5cb8987859c64b8983059c48b896b459c4cb8967859c50b8963059c38b894b459c3cb8947859c40b8943059c28b892b459c24b8927859c2cb8923059c14b890b459c18b8907859c1cb89030)
  (.lf 0)) (.nd (.lf
  0x3f19482a0cc3f19c829ecc3f1a4829ccc3f1ac829acc3f1b48298cc3f1bc8296cc3f1c48294cc3f1cc8292cc3f1d48290cc3f1dc828ecc3f1e4828ccc3f1ec828acc3f1f48288cc3f1fc8286cc3f2048284cc3f20c8282cc3fcf882bdd03fc6c82bbd03fc2882b9d03fbe882b7d03fbac82b5d03fb6882b3d03fb2082b1d03fad882afd03fa9082add03fa5082abd03fa0c82a9d03f9c482a7d03f98482a5d03f94082a3d03f8f882a1d03f8b0829fd03f870829dd03f834829bd03f7f88299d03f4c88297d03f4a88295d03f4908293d03f4788291d03f454828fd03f440828dd03f42c828bd03f4188289d03f4088287d03f3008285d03f2f08283d03f2148281103c078827ecc3c074827ccc3c070827acc3c06c8278cc3c0688276cc3c0648274cc3c0608272cc3c0348270cc3c028826ecc3c01c826ccc3c010826acc3c05c8268cc3c0548266cc3bdd48264cc3c0588262cc3c0388260cc3c02c825ecc)
  (.lf 0)))

def shaWireTree58 : BTree :=
  .nd (.nd (.nd (.lf
  0x51d70b54ab451d90b54a3051ce4b5487851d28b548b451d2cb54830519e4b5467851cd8b546b451cdcb5463051970b54478519b8b544b4519dcb54430518fcb5427851964b542b451968b5423052e90b5bc7852e7cb5bcb452e94b5bc3052d90b5ba7852d94b5bab452e70b5ba3052d70b5b87852d6cb5b8b452d88b5b83052d60b5b67852d3cb5b6b452d64b5b63052d2cb5b47852d24b5b4b452d30b5b43052cccb5b27852d18b5b2b452d1cb5b23052cbcb5b07852cc0b5b0b452cc4b5b03052cacb5ae7852c54b5aeb452cb0b5ae3052c48b5ac7852bd8b5acb452c4cb5ac3052bccb5aa7852bc8b5aab452bd0b5aa3052bb8b5a87852bb0b5a8b452bbcb5a83052ba4b5a67852ba0b5a6b452ba8b5a63052b74b5a47852b94b5a4b452b98b5a43052b68b5a27852b64b5a2b452b6cb5a23052b24b5a07852b58b5a0b452b5cb5a03052b14b59e7852b18b59eb452b1cb59e3052b04b59c7852adcb59cb4)
  (.lf 0)) (.nd (.lf
  0x83a350d5d2c83a210d5b2c838490d592c838190d572c837c50d552c837890d532c837390d512c832fd0d4f2c832cd0d4d2c8320d0d4b2c831d50d492c832310d472c829f90d452c824850d432c8237d0d40cc830ad097f2c830bd097d2c83071097b2c82fed09792c8303509772c82fc509752c8313509732c829bd09712c82311096f2c82355096d2c82335096b2c8225909692c820e509672c81fd909652c81ea909632c81e2d09612c81d2d095f2c81d0d095d2c81d5d095b2c818a109592c8181509572c817f509552c817e909532c8178509512c81761094f2c816c1094d2c8164d094b2c815c509492c8154109472c8140509452c814b509432c8143d0940cc81351057f2c8130d057d2c812dd057b2c812ad05792c8128905772c8157905752c8123d05732c8120105712c811b9056f2c81169056d2c81125056b2c810e105692c8103105672c8100505652c8104905632c8106d05612c80fad055f2c)
  (.lf 0))) (.nd (.nd (.lf
  0xc03c1ffc300c0241ffa780c0201ffab40c0281ffa300c0101ff8780c00c1ff8b40c0141ff8300bffc1ff6780bff81ff6b40c0001ff6300bfe81ff4780bfe41ff4b40bfec1ff4300bfd41ff2780bfd01ff2b40bfd81ff2300bfc01ff0780bfbc1ff0b40bfc41ff0300bfac1fee780bfa81feeb40bfb01fee300bf981fec780bf941fecb40bf9c1fec300bf841fea780bf801feab40bf881fea300bf701fe8780bf6c1fe8b40bf741fe8300bf5c1fe6780bf581fe6b40bf601fe6300bf481fe4780bf441fe4b40bf4c1fe4300bf341fe2780bf301fe2b40bf381fe2300bf201fe0780bf1c1fe0b40bf241fe0300bf0c1fde780bf081fdeb40bf101fde300bef81fdc780bef41fdcb40befc1fdc300bee41fda780bee01fdab40bee81fda300bed01fd8780becc1fd8b40bed41fd8300bebc1fd6780beb81fd6b40bec01fd6300bea81fd4780bea41fd4b40beac1fd4300be941fd2780be901fd2b40be981fd230)
  (.lf 0)) (.nd (.lf
  0x37bc15a6cc0371015a4cc0368415a2cc035f815a0cc03598159ecc034ec159ccc0348c159acc0340c1598cc0338c1596cc032e01594cc032801592cc032001590cc03154158ecc030f4158ccc03074158acc02fc81588cc02f681586cc02ee81584cc02e681582cc03d6815bdd003cdc15bbd003c5015b9d003bc015b7d003b4015b5d003ac015b3d003a4415b1d0039b415afd00393415add0038b815abd00382c15a9d00379c15a7d00372015a5d00369415a3d00360815a1d003578159fd0034fc159dd00346c159bd0033ec1599d00336c1597d0032f01595d0032601593d0031e01591d003164158fd0030d4158dd003054158bd002fd81589d002f481587d002ec81585d002e481583d002e08158110056dc197ecc0566c197ccc055f4197acc055681978cc054d81976cc0545c1974cc053cc1972cc053501970cc052c4196ecc05238196ccc051a8196acc051281968cc050a81966cc050281964cc)
  (.lf 0)))

def shaWireTree59 : BTree :=
  .nd (.nd (.nd (.lf
  0x552ecafe478552e4afe4b4552f4afe430552d4afe278552d8afe2b4552dcafe230552c0afe078552c4afe0b4552c8afe030552b4afde78552acafdeb4552b8afde305529cafdc78552a0afdcb4552a4afdc305528cafda7855290afdab455294afda305527cafd87855274afd8b455280afd83055264afd67855268afd6b45526cafd6305524cafd47855254afd4b455258afd43055238afd2785523cafd2b455240afd2305522cafd07855228afd0b455230afd03055210afce7855218afceb45521cafce30551fcafcc7855204afccb455208afcc30551ecafca78551e8afcab4551f4afca3055088afc878551dcafc8b4551e0afc8305507cafc67855074afc6b455080afc63055060afc4785505cafc4b45506cafc43055048afc2785504cafc2b455050afc23057728b2bc7857720b2bcb45772cb2bc3057704b2ba7857710b2bab457714b2ba30576f4b2b878576f8b2b8b4576fcb2b830576e4b2b678)
  (.lf 0)) (.nd (.lf
  0x7ad04fa532c7abf4fa512c7ac18fa4f2c7ab3cfa4d2c7a840fa4b2c7a94cfa492c7a810fa472c7a954fa452c7a318fa432c7a264fa40cc7d878fe7f2c7d864fe7d2c7d850fe7b2c7d848fe792c7d828fe772c7d810fe752c7d81cfe732c7d7ecfe712c7d7dcfe6f2c7d7c4fe6d2c7d7b4fe6b2c7d7a0fe692c7d7a8fe672c7d774fe652c7d760fe632c7d74cfe612c7d738fe5f2c7d71cfe5d2c7d70cfe5b2c7d724fe592c7d750fe572c7d0d0fe552c7d0c8fe532c7d068fe512c7d024fe4f2c7d000fe4d2c7c474fe4b2c7c440fe492c7c3d0fe472c7c114fe452c7bfc4fe432c7bd38fe40cc0161002ff2c015d402fd2c0159802fb2c0156002f92c0152802f72c014f002f52c014b002f32c0147402f12c0143402ef2c013f802ed2c013c002eb2c0138802e92c0134802e72c0130c02e52c012cc02e32c0129002e12c0125802df2c0122002dd2c011e002db2c011a402d92c0116402d72c0112002d52c)
  (.lf 0))) (.nd (.nd (.lf
  0x7a344001a817a2b0001a7f7a230001a7d7a1f8001a7b7a1c0001a797a15c001a777a160001a757a198001a737a0ec001a717a0c8001a6f7a090001a6d7a070001a6b79bec001a6979bc4001a6779ba0001a6579084001a6379160001a617ace4001a5f7acc4001a5d7abb0001a5b7ab7c001a597ab1c001a577a68c001a557bf14001a537bed8001a517be90001a4f7be44001a4d7be10001a4b7bf18001a497bee0001a477be94001a457be48001a437be14001a417bd6c001a3f7bd04001a3d7bf90001a3b7bcd0001a397bc34001a377bc38001a357bc6c001a337bf94001a317bfd8001a2f7bbb8001a2d7bb90001a2b7bb68001a297bb40001a277bfdc001a257ad80001a237ad5c001a217d0bc001a1f7d084001a1d7d048001a1b7cfe4001a197cff4001a177c438001a157d640001a137d618001a117d5e8001a0f7d68c001a0d7d460001a0b7d644001a097d61c001a077d5ec001a057d690001a03)
  (.lf 0)) (.nd (.lf
  0x757b0fc74cc757b8fc72cc757c0fc70cc757c8fc6ecc757d0fc6ccc757d8fc6acc757e0fc68cc757e8fc66cc757f0fc64cc757f8fc62cc75800fc60cc75808fc5ecc75810fc5ccc75818fc5acc75820fc58cc75828fc56cc75830fc54cc75838fc52cc75840fc50cc75848fc4ecc75850fc4ccc75858fc4acc75860fc48cc75868fc46cc75870fc44cc75878fc42cc75b7cfc7dd075b68fc7bd075b50fc79d075b38fc77d075b20fc75d075b08fc73d075af0fc71d075accfc6fd075ab8fc6dd075aa0fc6bd075a90fc69d075a78fc67d075a60fc65d075a40fc63d075a28fc61d075a10fc5fd075a00fc5dd0759e0fc5bd0759d0fc59d0759b8fc57d0759a0fc55d075988fc53d075970fc51d075958fc4fd075940fc4dd075928fc4bd0758e0fc49d0758c8fc47d0758a8fc45d075898fc43d075888fc411075b88fc3ecc75b80fc3ccc75b5cfc3acc75b44fc38cc75b2cfc36cc75b14fc34cc75b04fc32cc)
  (.lf 0)))

def shaWireTree60 : BTree :=
  .nd (.nd (.nd (.lf
  0x82410046830823f8046678823f40466b4823fc046630823e0046478823e40464b4823e8046430823d0046278823cc0462b4823d404623081e3c046078823bc0460b4823c004603081d9c045e7881d94045eb481da0045e3081d84045c7881d88045cb481d8c045c3081d64045a78818ec045ab481d68045a30818b8045878818740458b4818e404583081868045678818640456b48186c04563081854045478818580454b48185c04543081800045278817cc0452b481848045230817bc045078817b80450b4817c0045030817ac044e78816e0044eb4817b0044e30816c8044c788166c044cb4816cc044c3081654044a78815d4044ab481664044a30815c8044878815640448b4815cc04483081544044678814e00446b481554044630814d4044478814cc0444b4814d8044430814b8044278814540442b4814c404423081698087c7881694087cb48169c087c308160c087a7881688087ab48168c087a30)
  (.lf 0)) (.nd (.lf
  0x18f0043a03018f04439e3018f08439c3018f0c439a3018f1043983018f1443963018f1843943018f1c43923018f2043903018f24438e3018f28438c3018f2c438a3018f3043883018f3443863018f3843843018f3c43823018f4043803020ee047beb420ee447bcb420ee847bab420eec47b8b420ef047b6b420ef447b4b420ef847b2b420efc47b0b420f0047aeb420f0447acb420f0847aab420f0c47a8b420f1047a6b420f1447a4b420f1847a2b420f1c47a0b420f20479eb420f24479cb420f28479ab420f2c4798b420f304796b420f344794b420f384792b420f3c4790b420f40478eb420f44478cb420ccc478ab420cb04788b420c844786b420c604784b420c3c4782b420bec4780b418fc447be7818fc847bc7818fcc47ba7818fd047b87818fd447b67818fd847b47818fdc47b27818fe047b07818fe447ae7818fe847ac7818fec47aa7818ff047a87818ff447a67818ff847a47818ffc47a278)
  (.lf 0))) (.nd (.nd (.lf
  0x193c043f4b4193c843f430193b043f278193ac43f2b4193b443f2301939c43f0781939843f0b4193a043f0301938843ee781938443eeb41938c43ee301937443ec781937043ecb41937843ec301936043ea781935c43eab41936443ea301934c43e8781934843e8b41935043e8301933843e6781933443e6b41933c43e6301932443e4781932043e4b41932843e4301931043e2781930c43e2b41931443e230192fc43e078192f843e0b41930043e030192e843de78192e443deb4192ec43de30192d443dc78192d043dcb4192d843dc30192c043da78192bc43dab4192c443da30192ac43d878192a843d8b4192b043d8301929843d6781929443d6b41929c43d6301928443d4781928043d4b41928843d4301927043d2781926c43d2b41927443d2301925c43d0781925843d0b41926043d0301924843ce781924443ceb41924c43ce301923443cc781923043ccb41923843cc301922043ca781921c43cab4)
  (.lf 0)) (.nd (.lf
  0x437c0999ecc43774999ccc4369c999acc435fc9998cc4357c9996cc434d49994cc435009992cc433f49990cc4334c998ecc432c0998ccc431ec998acc432289988cc42d7c9986cc42bbc9984cc42b909982cc441fc99bdd0440c099bbd04407899b9d043fb499b7d043eb499b5d043e9499b3d043df899b1d043d7c99afd043ca499add043b2899abd043acc99a9d043a2c99a7d0439d899a5d0438e499a3d04386499a1d043804999fd04377c999dd0436ac999bd04360c9999d0435909997d0435449995d0435309993d04340c9991d04336c998fd0432d8998dd043268998bd0432549989d042d9c9987d042c549985d042c409983d042bf899811045e789d7ecc45e489d7ccc45e509d7acc45e609d78cc45e649d76cc45e109d74cc45df09d72cc45dd89d70cc45e849d6ecc45db89d6ccc45da49d6acc45ea09d68cc45c009d66cc45be09d64cc45bb49d62cc45bd89d60cc45bd49d5ecc45b5c9d5ccc)
  (.lf 0)))

def shaWireTree61 : BTree :=
  .nd (.nd (.nd (.lf
  0x6b66cd6ae306b654d6ac786b650d6acb46b658d6ac306b640d6aa786b63cd6aab46b644d6aa306b62cd6a8786b628d6a8b46b630d6a8306b618d6a6786b614d6a6b46b61cd6a6306b604d6a4786b600d6a4b46b608d6a4306b5f0d6a2786b5ecd6a2b46b5f4d6a2306b5d4d6a0786b5d8d6a0b46b5dcd6a0306b5c4d69e786b5c8d69eb46b5ccd69e306b5b0d69c786b5acd69cb46b5b8d69c306b5a0d69a786b59cd69ab46b5a4d69a306b58cd698786b584d698b46b590d698306b578d696786b574d696b46b57cd696306b560d694786b564d694b46b568d694306b550d692786b54cd692b46b554d692306b538d690786b53cd690b46b540d690306b524d68e786b52cd68eb46b530d68e306b514d68c786b50cd68cb46b518d68c306b4f8d68a786b4fcd68ab46b500d68a306b4ecd688786b4e8d688b46b4f0d688306b4d8d686786b4d4d686b46b4e0d686306b4c8d684786b4c4d684b46b4ccd68430)
  (.lf 0)) (.nd (.lf
  0x1e1c0060fd01e200060fb01e240060f901e280060f701e2c0060f501e300060f301e340060f101e380060ef01e3c0060ed01e400060eb01e440060e901e480060e701e4c0060e501e500060e301e540060e1029180060df029200060dd029280060db029300060d9029380060d7029400060d5029480060d3029500060d1029580060cf029600060cd029680060cb029700060c9029780060c7029800060c5029880060c3029900060c1029980060bf029a00060bd029a80060bb029b00060b9029b80060b7029c00060b5029c80060b3029d00060b1029d80060af029e00060ad029e80060ab029f00060a9029f80060a702a000060a502a080060a302a100060a10416400609f0416c00609d0417400609b0417c006099041840060970418c006095041940060930419c006091041a400608f041ac00608d041b400608b041bc006089041c4006087041cc006085041d4006083041dc006081041e400607f)
  (.lf 0))) (.nd (.nd (.lf
  0x39abc781c7839ac0781c3039a68781ab439a8c781a7839a90781a3039a387818b439a5c78187839a6078183039a087816b439a2c78167839a30781630399d87814b4399fc78147839a00781430399a87812b4399cc781278399d0781230399787810b43999c781078399a078103039948780eb43996c780e7839970780e3039910780cb43993c780c7839940780c30398d0780ab439904780a7839908780a303988c7808b4398c4780878398c8780830398487806b43988078067839884780630398047804b43983c78047839840780430397c87802b4397f8780278397fc7802303b9507cbcb43b94c7cbc783b9547cbc303b93c7cbab43b9387cba783b9407cba303b9287cb8b43b9247cb8783b92c7cb8303b9147cb6b43b9107cb6783b9187cb6303b9007cb4b43b8fc7cb4783b9047cb4303b8ec7cb2b43b8e87cb2783b8f07cb2303b8d87cb0b43b8d47cb0783b8dc7cb0303b8c47caeb43b8c07cae78)
  (.lf 0)) (.nd (.lf
  0x17d003fdfd017cec3fddd017cd83fdbd017cc43fd9d017cb03fd7d017c9c3fd5d017c883fd3d017c743fd1d017c603fcfd017c4c3fcdd017c383fcbd017c243fc9d017c103fc7d017bfc3fc5d017be83fc3d017bd03fc1101962842becc1963042bccc1963842bacc1964042b8cc1964842b6cc1965042b4cc1965842b2cc1966042b0cc1966842aecc1967042accc1967842aacc1968042a8cc1968842a6cc1969042a4cc1969842a2cc196a042a0cc196a8429ecc196b0429ccc196b8429acc196c04298cc196c84296cc196d04294cc196d84292cc196e04290cc196e8428ecc196f0428ccc196f8428acc197004288cc197084286cc197104284cc197184282cc1997c42bdd01996842bbd01995442b9d01994042b7d01992c42b5d01991842b3d01990442b1d0198f042afd0198dc42add0198c842abd0198b442a9d0198a042a7d01988c42a5d01987842a3d01986442a1d019850429fd01983c429dd0)
  (.lf 0)))

def shaWireTree62 : BTree :=
  .nd (.nd (.nd (.lf
  0x245b459a878245b859a8b4245bc59a830245a459a678245a859a6b4245ac59a6302459059a4782459459a4b42459859a4302458059a2782457c59a2b42458459a2302456059a0782456c59a0b42457059a03024554599e7824548599eb424558599e3024538599c7824534599cb42453c599c3024520599a7824528599ab42452c599a3024514599878245105998b424518599830244fc599678245005996b424504599630244e8599478244ec5994b4244f0599430244d8599278244dc5992b4244e0599230244c0599078244b85990b4244c4599030244a8598e78244ac598eb4244b0598e302449c598c7824494598cb4244a0598c3024488598a7824484598ab42448c598a3024470598878244745988b4244785988302445c598678244605986b4244645986302444c598478244505984b42445459843023328598278232c05982b42332c598230263a05d7c782639c5d7cb4263a45d7c30263905d7a78)
  (.lf 0)) (.nd (.lf
  0x3ba400040fd3ba480040fb3ba500040f93ba580040f73ba600040f53ba680040f33ba700040f13ba780040ef3ba800040ed3ba880040eb3ba900040e93ba980040e73baa00040e53baa80040e33bab00040e140ee80040df40ef00040dd40ef80040db40f000040d940f080040d740f100040d540f180040d340f200040d140f280040cf40f300040cd40f900040cb40f980040c940fa00040c740fa80040c540fb00040c340fb80040c140fc00040bf40fc80040bd40fd00040bb40fd80040b940fe00040b740fe80040b540ff00040b340ff80040b1410000040af410080040ad410100040ab410180040a9410200040a7410280040a5410300040a3410380040a13c2d800409f3c2e000409d3c2e800409b3c2f00040993c2f80040973c3000040953c3080040933c3100040913c31800408f3c32000408d3c38000408b3c3880040893c3900040873c3980040853c3a00040833c3a80040813c3b000407f)
  (.lf 0))) (.nd (.nd (.lf
  0x73a1cf49ab473a18f49a7873a20f49a3073a0cf498b473a04f4987873a10f49830739f0f496b4739ecf49678739f8f49630739e0f494b4739d8f49478739e4f49430739ccf492b4739c8f49278739d0f49230739bcf490b4739b4f49078739c0f49030739a8f48eb47399cf48e78739acf48e3073990f48cb47398cf48c7873994f48c3073978f48ab473980f48a7873984f48a307396cf488b473968f4887873970f4883073958f486b473954f486787395cf4863073940f484b473944f4847873948f48430737a4f482b4737a0f4827873934f4823074ac8f47cb474abcf47c7874accf47c3074ab0f47ab474aacf47a7874ab4f47a3074a94f478b474a98f4787874a9cf4783074a84f476b474a80f4767874a88f4763074a54f474b474a6cf4747874a70f4743074a48f472b474a44f4727874a4cf4723074a2cf470b474a38f4707874a3cf4703074a1cf46eb474a18f46e7874a24f46e30749f4f46cb4)
  (.lf 0)) (.nd (.lf
  0x603acc29dd06039cc29bd060384c299d060370c297d060360c295d060348c293d060334c291d060324c28fd06030cc28dd0602b8c28bd0601dcc289d0601c4c287d0601b4c285d0601a0c283d060168c28110613e8c27ecc60e78c27ccc60e44c27acc60e2cc278cc61290c276cc60de8c274cc60dd4c272cc60d54c270cc60d0cc26ecc60cecc26ccc60e08c26acc60c94c268cc60c58c266cc60c20c264cc60bfcc262cc613ecc260cc60bd0c25ecc60bb4c25ccc60e48c25acc60bd4c258cc60b74c256cc60b68c254cc60b48c252cc60a30c250cc60a00c24ecc609ccc24ccc60b38c24acc609acc248cc60954c246cc60938c244cc61294c242cc618f4c27dd0618dcc27bd0618bcc279d0618acc277d061870c275d06185cc273d061844c271d061824c26fd061814c26dd0617fcc26bd0617ecc269d0617dcc267d0617c4c265d0617acc263d061790c261d06177cc25fd061764c25dd061750c25bd0)
  (.lf 0)))

def shaWireTree63 : BTree :=
  .nd (.nd (.nd (.lf
  0x430608bf4784305c8bf4b4430648bf4304304c8bf278430488bf2b4430508bf230430388bf078430348bf0b44303c8bf030430248bee78430208beeb4430288bee30430108bec784300c8becb4430148bec3042ffc8bea7842ff88beab4430008bea3042fe88be87842fe48be8b442fec8be83042fd48be67842fd08be6b442fd88be63042fc08be47842fbc8be4b442fc48be43042fac8be27842fa88be2b442fb08be23042f988be07842f948be0b442f9c8be03042f848bde7842f808bdeb442f888bde3042f708bdc7842f6c8bdcb442f748bdc3042f5c8bda7842f588bdab442f608bda3042f488bd87842f448bd8b442f4c8bd83042f348bd67842f308bd6b442f388bd63042f1c8bd47842f188bd4b442f208bd43042f088bd27842f0c8bd2b442f108bd23042ef48bd07842ef08bd0b442efc8bd03042cf48bce7842ee48bceb442ee88bce3042a5c8bcc7842ce88bccb442cec8bcc30429148bca78)
  (.lf 0)) (.nd (.lf
  0x7f720fa13b07f740fa11b07f68cfa0fb07f5b4fa0db07f4f0fa0bb07f49cfa09b07f3f8fa07b07f2d0fa05b07f28cfa03b07f060fa01b082924fe3fb082898fe3db08259cfe3bb082570fe39b082230fe37b082198fe35b08212cfe33b0821a0fe31b0820c0fe2fb0820c4fe2db0820bcfe2bb0822c0fe29b082274fe27b0820b4fe25b081e90fe23b081ec4fe21b081c30fe1fb081c00fe1db081cecfe1bb080c98fe19b080c74fe17b080c48fe15b080c1cfe13b080c28fe11b080bc4fe0fb080b98fe0db080bd8fe0bb080a90fe09b080ab8fe07b080a1cfe05b0809e8fe03b080378fe01b00160802bf2c015cc02bd2c0159002bb2c0155802b92c0152002b72c014e802b52c014a802b32c0146c02b12c0142c02af2c013f002ad2c013b802ab2c0138002a92c0134002a72c0130402a52c012c402a32c0128802a12c01250029f2c01218029d2c011d8029b2c0119c02992c0115c02972c0111802952c)
  (.lf 0))) (.nd (.nd (.lf
  0x34ed872205034edc721e5034ee0721c5034ee4721a5034e5072185034ddc72165034de072145034de472125034de872105034dec720e5034df0720c5034e28720a5034d1072085034d1472065034d1872045034d1c72025034d207200503508c763e7835090763c7835094763a78350987638783509c763678350a0763478350b076327834fd476307834fd8762e7834fdc762c7834fe0762a7834fe476287834fe876267834f0076247834f0476227834f0876207834f0c761e7834f10761c7834f14761a7834e5876187834e0c76167834e1076147834e1476127834e1876107834e1c760e7834e20760c7834e30760a7834d3876087834d3c76067834d4076047834d4476027834d4876007836b98763e5036b64763c5036b68763a5036b0476385036b0876365036b0c76345036b1076325036b1476305036a94762e5036a44762c5036a48762a5036a4c76285036a5076265036a54762450369dc762250)
  (.lf 0)) (.nd (.lf
  0x51190a47ccc51198a47acc51214a478cc5121ca476cc51224a474cc5122ca472cc51234a470cc5123ca46ecc51244a46ccc5124ca46acc51254a468cc5125ca466cc51264a464cc5126ca462cc51274a460cc5127ca45ecc51284a45ccc5128ca45acc51294a458cc5129ca456cc512a4a454cc512aca452cc512b4a450cc512bca44ecc512c4a44ccc512cca44acc512d4a448cc512dca446cc512e4a444cc512eca442cc51828a47dd051800a47bd0517d4a479d0517a8a477d05177ca475d051750a473d051724a471d0516f8a46fd0516cca46dd0516a0a46bd051674a469d051648a467d05161ca465d0515f0a463d0515c4a461d051598a45fd05156ca45dd051540a45bd051514a459d0514e8a457d0514bca455d051490a453d051464a451d051438a44fd05140ca44dd0513e0a44bd0513b4a449d051388a447d05135ca445d051330a443d0512f4a4411051830a43ecc51808a43ccc517dca43acc)
  (.lf 0)))

def shaWireTree64 : BTree :=
  .nd (.nd (.nd (.lf
  0x27f0000000027d0000000027b00000000279000000002770000000027500000000273000000002710000000026f0000000026d0000000026b00000000269000000002670000000026500000000263000000002610000000025f0000000025d0000000025b00000000259000000002570000000025500000000253000000002510000000024f0000000024d0000000024b00000000249000000002470000000024500000000243000000002410000000023f0000000023d0000000023b00000000239000000002370000000023500000000233000000002310000000022f0000000022d0000000022b00000000229000000002270000000022500000000223000000002210000000021f0000000021d0000000021b00000000219000000002170000000021500000000213000000002110000000020f0000000020d0000000020b0000000020900000000207000000002050000000020300000000201)
  (.lf
  0x4733494add04732094abd04730c94a9d0472f894a7d0472e494a5d0472d094a3d0472bc94a1d0472a8949fd047294949dd047280949bd04726c9499d0472589497d0472449495d0472309493d04721c9491d047208948fd0471f4948dd0471e0948bd0471cc9489d0471b89487d0471a49485d0471909483d047178948110484a4947ecc484ac947ccc484b4947acc485309478cc485389476cc485409474cc485489472cc485509470cc48558946ecc48560946ccc48568946acc485709468cc485789466cc485809464cc485889462cc485909460cc48598945ecc485a0945ccc485a8945acc485b09458cc485b89456cc485c09454cc485c89452cc485d09450cc485d8944ecc485e0944ccc485e8944acc485f09448cc485f89446cc486009444cc486089442cc48b48947dd048b20947bd048af49479d048ac89477d048a9c9475d048a709473d048a449471d048a18946fd0489ec946dd0489c0946bd0))
  (.nd (.lf
  0x1946042205019464421e5019468421c501946c421a501947042185019474421650194784214501947c4212501948042105019484420e5019488420c501948c420a501949042085019494420650194984204501949c420250194a042005019524463e7819528463c781952c463a781953046387819534463678195384634781953c4632781954046307819544462e7819548462c781954c462a781955046287819554462678195584624781955c4622781956046207819564461e7819568461c781956c461a781957046187819574461678195784614781957c4612781958046107819584460e7819588460c781958c460a781959046087819594460678195984604781959c460278195a046007820bdc463e5020bc0463c5020ba0463a5020b8046385020b5c46365020b3c46345020b1c46325020afc46305020adc462e50209b4462c50209b8462a50209bc462850209c0462650209c4462450209c8462250)
  (.lf 0))) (.nd (.nd (.lf
  0x405f0868e78405e8868eb4405f4868e30403bc868c78405dc868cb4405e0868c30403ac868a78403b0868ab4403b4868a30403988688784039c8688b4403a0868830403888686784038c8686b44039086863040374868478403788684b44037c86843040360868278403648682b4403688682304236c867cb442370867c7842374867c3042348867ab442350867a7842360867a30423388678b44233c86787842340867830423208676b44232c86767842330867630423088674b44231486747842318867430422fc8672b4422f886727842300867230422e08670b4422dc867078422e4867030422c4866eb4422c8866e78422d0866e304229c866cb442298866c78422b8866c3042288866ab44228c866a7842290866a30422748668b44227c86687842280866830422648666b4422688666784226c866630422508664b442254866478422588664304223c8662b44224086627842244866230422248660b4)
  (.lf 0)) (.nd (.lf
  0x4a2209a13b04a2249a11b04a11c9a0fb04a0e89a0db04a0ec9a0bb048e209a09b048da09a07b048d109a05b048c849a03b048c1c9a01b04c23c9e3fb04c2449e3db04c24c9e3bb04bfa49e39b04bfac9e37b04bfb49e35b04bfbc9e33b04bdd49e31b04bcc49e2fb04bba89e2db04bb689e2bb04ba4c9e29b04ba509e27b04b9409e25b04b8909e23b04b7689e21b04b7189e1fb04b6b49e1db04b6609e1bb04b60c9e19b04b51c9e17b04b4889e15b04b4089e13b04b3989e11b04b32c9e0fb04b2bc9e0db04b1e09e0bb04b1689e09b04b1009e07b04b08c9e05b04b0089e03b04afa89e01b04e688a23fb04e68ca23db04e690a23bb04e694a239b04e698a237b04e69ca235b04e6a4a233b04e6a8a231b04e6aca22fb04e6b0a22db04e6b4a22bb04e6b8a229b04e534a227b04e558a225b04e4f8a223b04e4d8a221b04e4c0a21fb04e4c4a21db04e450a21bb04e454a219b04e3f4a217b04e3c4a215b0)
  (.lf 0)))

def shaWireTree65 : BTree :=
  .nd (.nd (.nd (.lf
  0x17658494c7817654494cb41765c494c3017648494a7817644494ab41764c494a3017638494878176344948b41763c49483017620494678176244946b41762849463017610494478176144944b417618494430173c8494278173cc4942b4173d0494230175e849bc78175ec49bcb4175f049bc30175d849ba78175d049bab4175dc49ba30175c449b878175c049b8b4175c849b830175ac49b678175a849b6b4175b049b6301759c49b4781759449b4b4175a049b4301758449b2781758049b2b41758849b2301756c49b0781757049b0b41757449b0301755849ae781755449aeb41755c49ae301754849ac781754449acb41754c49ac301753049aa781753449aab41753849aa301752049a8781751c49a8b41752449a8301750c49a6781751049a6b41751449a630174f449a478174f849a4b4174fc49a430174e049a278174e449a2b4174e849a230174c849a078174c449a0b4174cc49a030174b4499e78)
  (.lf 0)) (.nd (.lf
  0x70a240046fd70a2c0046fb70a340046f970a3c0046f770a440046f570a4c0046f370a540046f170a5c0046ef70a640046ed70a6c0046eb70a740046e970a7c0046e770a840046e570a8c0046e370a940046e1716740046df7167c0046dd716840046db717000046d9717080046d7717100046d5717180046d3717200046d1717280046cf717300046cd717380046cb717400046c9717480046c7717500046c5717580046c3717600046c1717680046bf717700046bd717780046bb717800046b9717880046b7717900046b5717980046b3717a00046b1717a80046af717b00046ad717b80046ab717c00046a9717c80046a7717d00046a5717d80046a3717e00046a1723c000469f723c800469d723d000469b7244c004699724540046977245c004695724640046937246c0046917247400468f7247c00468d7248400468b7248c004689724940046877249c004685724a4004683724ac004681724b400467f)
  (.lf 0))) (.nd (.nd (.lf
  0x7291ce87ab472918e87a7872920e87a30728f4e878b472908e878787290ce87830728e4e876b4728e0e87678728e8e87630728d0e874b4728d4e87478728d8e87430728c0e872b4728b4e87278728c4e87230728a8e870b4728a4e87078728ace8703072884e86eb472888e86e7872894e86e3072864e86cb47285ce86c7872868e86c3072850e86ab47284ce86a7872854e86a307283ce868b472840e8687872844e8683072830e866b472828e8667872834e8663072810e864b472814e8647872818e86430727fce862b472800e8627872804e86230727e4e860b4727e8e86078727ece86030727bce85eb4727c4e85e78727d4e85e30727b0e85cb4727ace85c78727b4e85c3072798e85ab47279ce85a78727a0e85a3072788e858b47277ce858787278ce8583072764e856b472768e856787276ce85630726ece854b4726f0e854787275ce85430726d4e852b4726d8e85278726dce85230726bce850b4)
  (.lf 0)) (.nd (.lf
  0x5925cb699d059248b697d059234b695d059220b693d05920cb691d0591f8b68fd0591e4b68dd0591ccb68bd0591b8b689d0591a4b687d059190b685d05917cb683d059168b681105adacb67ecc5ada0b67ccc5ad84b67acc5adb4b678cc5adbcb676cc5ad40b674cc5ad2cb672cc5b474b670cc5acfcb66ecc5ace4b66ccc5acccb66acc5acb0b668cc5ac68b666cc5ac34b664cc5ab88b662cc5ab94b660cc5a598b65ecc5a588b65ccc5a55cb65acc5a564b658cc5a534b656cc5a51cb654cc5a8c4b652cc5a4e8b650cc5a4c0b64ecc5a490b64ccc5a464b64acc5a400b648cc5a408b646cc5a2b4b644cc5a2fcb642cc5af78b67dd05af64b67bd05af50b679d05af38b677d05af18b675d05af00b673d05aef0b671d05aed4b66fd05aec0b66dd05aeacb66bd05ae98b669d05ac94b667d05ac74b665d05abf0b663d05abe0b661d05a94cb65fd05a934b65dd05a918b65bd05a904b659d05a8acb657d0)
  (.lf 0)))

def shaWireTree66 : BTree :=
  .nd (.nd (.nd (.lf
  0x7cfc8fd8c307cfb4fd8a787c430fd8ab47cfb8fd8a307c400fd88787c424fd88b47c428fd88307c384fd86787c064fd86b47c3f8fd86307c058fd84787bf74fd84b47c05cfd84307bf68fd82787bd40fd82b47bf6cfd82307ec51017c787ec2d017cb47ec6d017c307ec19017a787ec21017ab47ec25017a307eb990178787ebed0178b47ebf10178307eb210176787eb250176b47eb290176307eaf50174787eaf10174b47eaf90174307eae10172787ead90172b47eae90172307ea910170787ea810170b47ea950170307ea6d016e787ea51016eb47ea71016e307ea29016c787ea35016cb47ea39016c307e9e9016a787ea11016ab47ea15016a307e9dd0168787e9d90168b47e9e10168307e9cd0166787e7310166b47e9d10166307e7110164787e6e90164b47e7150164307e6c90162787e6c50162b47e6e10162307e6b50160787e6b10160b47e6b90160307e699015e787e67d015eb47e69d015e30)
  (.lf 0)) (.nd (.lf
  0xd41823a0300d41c239e300d420239c300d424239a300d4282398300d42c2396300d4302394300d4342392300d4382390300d43c238e300d440238c300d444238a300d4482388300d44c2386300d4502384300d4542382300d4582380300ebf827beb40ebfc27bcb40ec0027bab40ec0427b8b40ec0827b6b40ec0c27b4b40ec1027b2b40ec1427b0b40ec1827aeb40ec1c27acb40ec2027aab40ec2427a8b40ec2827a6b40ec2c27a4b40ec3027a2b40ec3427a0b40ec38279eb40ec3c279cb40ec40279ab40ec442798b40ec482796b40ec4c2794b40ec502792b40ec542790b40ec58278eb40ec5c278cb40ec60278ab40ec642788b40ec682786b40ec6c2784b40ec702782b40ec742780b40d4dc27be780d4e027bc780d4e427ba780d4e827b8780d4ec27b6780d4f027b4780d4f427b2780d4f827b0780d4fc27ae780d50027ac780d50427aa780d50827a8780d50c27a6780d51027a4780d51427a278)
  (.lf 0))) (.nd (.nd (.lf
  0x184a03e9cb4184a83e9c30184603e9a781845c3e9ab4184643e9a301841c3e9878184183e98b4184203e9830183d83e9678183d43e96b4183dc3e96301839c3e9478183983e94b4183a03e9430183643e9278183603e92b4183683e92301832c3e9078183283e90b4183303e9030182ec3e8e78182e83e8eb4182f03e8e30182b03e8c78182ac3e8cb4182b43e8c30182703e8a781826c3e8ab4182743e8a301822c3e8878182283e88b4182303e8830181e83e8678181e43e86b4181ec3e8630181ac3e8478181a83e84b4181b03e8430181783e8278181743e82b41817c3e8230135e03e7cb4135643e7c78135e43e7c30135583e7ab4134e83e7a781355c3e7a30134dc3e78b4134583e7878134e03e78301344c3e76b4133dc3e7678134503e7630133d03e74b41334c3e7478133d43e7430133403e72b4132d03e7278133443e7230132c43e70b4132403e7078132c83e7030132343e6eb4131c03e6e78)
  (.lf 0)) (.nd (.lf
  0x36bc0814fd0367c8814dd0367a4814bd035af48149d035a688147d0359e48145d0359608143d0358e4814110366fc81becc366a081bccc3664081bacc365d081b8cc3655c81b6cc364dc81b4cc3649481b2cc3640881b0cc363ac81aecc3632881accc362b081aacc3623481a8cc361b081a6cc3614881a4cc360d881a2cc3606881a0cc35ff8819ecc35f88819ccc35f18819acc3681c8198cc367f08196cc367f48194cc367f88192cc367ec8190cc35c6c818ecc36708818ccc35b74818acc367d08188cc367e88186cc367d48184cc3594c8182cc36b9081bdd036b5c81bbd036b4881b9d036af881b7d036ae481b5d036ad081b3d036abc81b1d036aa881afd036a8881add036a3481abd036a2481a9d036a1081a7d0369fc81a5d0369e881a3d0369c881a1d036968819fd036958819dd036944819bd0369308199d03691c8197d0369088195d0368e88193d03688c8191d036878818fd036864818dd0)
  (.lf 0)))

def shaWireTree67 : BTree :=
  .nd (.nd (.nd (.lf
  0x67550ce4cb46754cce4c7867554ce4c3067538ce4ab467534ce4a786753cce4a3067524ce48b467520ce487867528ce483067510ce46b46750cce467867514ce46306747cce44b467478ce447867480ce44306746cce42b467468ce427867470ce423068fa4cefcb468edccefc7868fa8cefc3068d30cefab468ed0cefa7868ed4cefa3068ae4cef8b468ae8cef87868cf0cef83068ad8cef6b468ad4cef67868adccef63068abccef4b468ab8cef47868ac0cef43068aa8cef2b468aaccef27868ab0cef23068624cef0b46861ccef07868aa0cef03068604ceeeb468564ceee7868608ceee3068554ceecb468550ceec786855cceec3068538ceeab468544ceea7868548ceea3068524cee8b468520cee87868530cee83068514cee6b46850ccee67868518cee630684fccee4b468500cee47868504cee430684e8cee2b4684eccee278684f0cee230684d4cee0b4684dccee078684e0cee030684c4cedeb4)
  (.lf 0)) (.nd (.lf
  0x500f0a31d4a500e0a31b4a500c0a318b450004a3174a4ffdca314b44ff9ca312b44ff30a310b44fc8ca30f4a4fc1ca30cb44f70ca30b4a4f6f8a308b44f6e4a306b44f6d8a304b44f620a302b44f5b0a300aa52258a73f4a52230a73cb452200a73b4a521eca738b452210a7374a521d0a734b4521bca732b452124a730b45210ca72eb4520fca72cb4520b0a72ab452088a7294a5204ca7274a5201ca724b452004a7234a51ff0a720b451fb4a71eb451f70a71d4a51f4ca71b4a51f08a718b451ef0a716b451edca7154a51f20a7134a51ea4a710b451e00a70eb451dc0a70d4a51d5ca70ab451d18a708b451cbca7074a519a4a704b451924a7034a518d8a700aa54950ab3f4a548a8ab3d4a5489cab3ab45488cab38b454880ab36b454820ab34b4547c8ab334a54784ab30b454740ab2eb4546f8ab2d4a546b0ab2ab45466cab28b454624ab274a545e0ab24b4545a4ab234a54568ab214a54528ab1f4a)
  (.lf 0))) (.nd (.nd (.lf
  0x366c470bc78366cc70bc303666070bab43665c70ba783666470ba30365ec70b8b4365e870b878365f070b8303658070b6b43657c70b6783658470b6303651070b4b43650c70b4783651470b4303649c70b2b43649870b278364a070b2303642470b0b43642070b0783642870b030363b470aeb4363b070ae78363b870ae303634070acb43633c70ac783634470ac30362c470aab4362c070aa78362c870aa303624870a8b43624470a8783624c70a830361d470a6b4361d070a678361d870a6303616470a4b43616070a4783616870a430360f470a2b4360f070a278360f870a2303608470a0b43608070a0783608870a03036014709eb436010709e7836018709e3035fa4709cb435fa0709c7835fa8709c3035f34709ab435f30709a7835f38709a3035ec47098b435ec070987835ec870983035e587096b435e5470967835e5c70963035de47094b435de070947835de870943035d747092b435d70709278)
  (.lf 0)) (.nd (.lf
  0x13b8833efd013b7433edd013b6033ebd013b4c33e9d013b3833e7d013b2433e5d013b1033e3d013afc33e1d013ae833dfd013ad433ddd013ac033dbd013aac33d9d013a9833d7d013a8433d5d013a7033d3d013a5c33d1d013a4833cfd013a3433cdd013a2033cbd013a0c33c9d0139f833c7d0139e433c5d0139d033c3d0139b833c1101543036becc1543836bccc1544036bacc1544836b8cc1545036b6cc1545836b4cc1546036b2cc1546836b0cc1547036aecc1547836accc1548036aacc1548836a8cc1549036a6cc1549836a4cc154a036a2cc154a836a0cc154b0369ecc154b8369ccc154c0369acc154c83698cc154d03696cc154d83694cc154e03692cc154e83690cc154f0368ecc154f8368ccc15500368acc155083688cc155103686cc155183684cc155203682cc15c9036bdd015c5c36bbd015c2436b9d015bec36b7d015bb436b5d015b7c36b3d015b4436b1d015b0c36afd015acc36add0)
  (.lf 0)))

def shaWireTree68 : BTree :=
  .nd (.nd (.nd (.lf
  0xba5c297f2c0b9ec297d2c0b970297b2c0b8f429792c0b86429772c0b7e429752c0b76829732c0b6d829712c0b658296f2c0b5d8296d2c0b55c296b2c0b4d029692c0b44429672c0b3b829652c0b32c29632c0b2a029612c0b214295f2c0b184295d2c0b104295b2c0b08429592c0b00429572c0af8429552c0af0829532c0ae7829512c0adfc294f2c0ad6c294d2c0acf0294b2c0ac6029492c0abe029472c0ab7029452c0aaf829432c0aab82940cc0d3502d7f2c0d2e02d7d2c0d2682d7b2c0d1d82d792c0d15c2d772c0d0cc2d752c0d0502d732c0cfc42d712c0cf342d6f2c0ceb42d6d2c0ce342d6b2c0cdb82d692c0cd2c2d672c0cca02d652c0cc102d632c0cb902d612c0cb102d5f2c0ca942d5d2c0ca042d5b2c0c9882d592c0c8fc2d572c0c8702d552c0c7e42d532c0c7542d512c0c6d82d4f2c0c64c2d4d2c0c5bc2d4b2c0c5402d492c0c4b02d472c0c4342d452c0c3a42d432c0c3682d40cc)
  (.lf
  0x6e1c0ef5d006db00ef3d006d480ef1d006cd80eefd006c640eedd006bf80eebd006b880ee9d006b140ee7d006aa80ee5d006a380ee3d0069cc0ee1d00695c0edfd0068e80eddd0068740edbd0068080ed9d0067980ed7d0067240ed5d0066b80ed3d0066480ed1d0065d40ecfd0065600ecdd0064f40ecbd0064840ec9d0064180ec7d0063b00ec5d0063400ec3d00622c0ec1108370d0dbecc836cd0dbccc836d10dbacc835f10db8cc835e10db6cc835cd0db4cc835bd0db2cc835a10db0cc835910daecc835350daccc834f50daacc834d90da8cc835690da6cc834bd0da4cc835110da2cc834790da0cc82da50d9ecc82dcd0d9ccc82e0d0d9acc82d6d0d98cc82ce10d96cc82c950d94cc82c9d0d92cc82afd0d90cc82a850d8ecc829610d8ccc827350d8acc826f10d88cc826d90d86cc826990d84cc821dd0d82cc836f90dbdd0836e10dbbd0836ad0db9d08368d0db7d08367d0db5d0836590db3d0))
  (.nd (.lf
  0x63be0cfa07863bf4cf9e7863b48cf9c7863b28cf9a7863b64cf987863ac8cf967863960cf947863938cf92786393ccf9078638f0cf8e7863418cf8c7863168cf8a78630f0cf887862f98cf867862d5ccf847862cb4cf827862c50cf807866da8cfbe3066d68cfbc3066e78cfba3066d0ccfb83066cc8cfb63066c8ccfb43066c54cfb23066ddccfb03066718cfae30666cccfac306652ccfaa3066558cfa8306665ccfa63066c10cfa4306641ccfa23066398cfa0306634ccf9e3066304cf9c30662e8cf9a30662bccf983065ff8cf963065f18cf943065ee8cf923065ed4cf903065ea4cf8e3065fc4cf8c30652a4cf8a30651e4cf88306519ccf8630651bccf843065174cf823064f50cf803068fc0d3beb468f04d3bcb468d64d3bab468cb0d3b8b468c28d3b6b468b90d3b4b468b58d3b2b468a4cd3b0b4689f4d3aeb4689b4d3acb4688dcd3aab468810d3a8b46879cd3a6b468730d3a4b4686dcd3a2b4)
  (.lf 0))) (.nd (.nd (.lf
  0x2d87c629c302d864629a782d860629ab42d868629a302d8506298782d84c6298b42d8546298302d83c6296782d8386296b42d8406296302d8286294782d8246294b42d82c6294302d8146292782d8106292b42d8186292302d8006290782d7fc6290b42d8046290302d7ec628e782d7e8628eb42d7f0628e302d7d8628c782d7d4628cb42d7dc628c302d7c4628a782d7c0628ab42d7c8628a302d7b06288782d7ac6288b42d7b46288302d79c6286782d7986286b42d7a06286302d7886284782d7846284b42d78c6284302d7746282782d7706282b42d7786282302e84c627cb42e8ac627c782e8b0627c302e7dc627ab42e840627a782e844627a302e7646278b42e7d06278782e7d46278302e6e86276b42e7586276782e75c6276302e6746274b42e6dc6274782e6e06274302e6046272b42e6686272782e66c6272302e5986270b42e5f86270782e5fc6270302e52c626eb42e58c626e782e590626e30)
  (.lf 0)) (.nd (.lf
  0x7f4310547d07f3190545d07f2e90543d07f0290541108023d05becc8024d05bccc8024905bacc8020905b8cc8025d05b6cc8026505b4cc8025505b2cc8025105b0cc8020d05aecc8016905accc8017505aacc7ff6105a8cc7ff6d05a6cc7ff2d05a4cc7ff3505a2cc7ff3d05a0cc800a1059ecc8005d059ccc7f969059acc7f8d10598cc7f8550596cc7f81d0594cc7f6d90592cc7f6e50590cc7f675058ecc7f575058ccc7f391058acc7f23d0588cc7f3e10586cc7f1410584cc7f2710582cc8057d05bdd0804e905bbd0804d905b9d08044d05b7d08040d05b5d0803d905b3d08031d05b1d08029d05afd08028d05add08027d05abd08003105a9d08002105a7d08000105a5d07ffe105a3d07ffbd05a1d07ff95059fd07ff81059dd07f971059bd07f8f50599d07f84d0597d07f83d0595d07f7350593d07f7010591d07f69d058fd07f57d058dd07f4d5058bd07f4c50589d07f48d0587d07f3a50585d0)
  (.lf 0)))

def shaWireTree69 : BTree :=
  .nd (.nd (.nd (.lf
  0x7784cf24c30776b4f24ab4775d8f24a78776b8f24a30775ccf248b477428f24878775d0f2483077410f246b477300f2467877414f24630772f4f244b477184f24478772f8f2443077178f242b477038f242787717cf242307e168f2fcb47e164f2fc787e170f2fc307e150f2fab47e148f2fa787e154f2fa307e138f2f8b47e13cf2f8787e140f2f8307e0b4f2f6b47e0ccf2f6787e0d4f2f6307e0a0f2f4b47e0a4f2f4787e0acf2f4307e094f2f2b47e08cf2f2787e098f2f2307e080f2f0b47e07cf2f0787e084f2f0307e06cf2eeb47e068f2ee787e070f2ee307e054f2ecb47e050f2ec787e058f2ec307e040f2eab47e03cf2ea787e044f2ea307e028f2e8b47e024f2e8787e02cf2e8307e010f2e6b47e00cf2e6787e014f2e6307df08f2e4b47dff8f2e4787dffcf2e4307def8f2e2b47defcf2e2787df00f2e2307dee4f2e0b47dee0f2e0787dee8f2e0307deccf2deb47ded0f2de787ded4f2de30)
  (.lf 0)) (.nd (.lf
  0x4d93ca39dd04d8e8a39bd04d8c4a399d04d794a397d04d700a395d04d6d8a393d04d6a8a391d04d610a38fd04d5c8a38dd04d558a38bd04d49ca389d04d4a0a387d04d4a4a385d04d344a383d04d22ca381d050f38a7bfd050f8ca7bdd050ee8a7bbd050e90a7b9d050e2ca7b7d050d68a7b5d050d7ca7b3d050d34a7b1d050cdca7afd050c9ca7add050c6ca7abd050c40a7a9d050c08a7a7d050be0a7a5d050be4a7a3d050b98a7a1d050b58a79fd050b70a79dd050b14a79bd050b18a799d050acca797d050aaca795d05019ca793d04ff50a791d04fca4a78fd050a88a78dd04f830a78bd04f80ca789d04f7f0a787d04f7b4a785d04f654a783d04f5c8a781d05276cabbfd052748abbdd052700abbbd0526a8abb9d052590abb7d0525c0abb5d0525f0abb3d052520abb1d0524ecabafd0524acabadd052470ababd052430aba9d05244caba7d0523ecaba5d0523ccaba3d0523b0aba1d052388ab9fd0)
  (.lf 0))) (.nd (.nd (.lf
  0x53378ac9e3053360ac9cb45335cac9c7853364ac9c305334cac9ab453348ac9a7853350ac9a3053338ac98b453334ac98785333cac983053324ac96b453320ac967853328ac963053310ac94b45330cac947853314ac9430532fcac92b4532f8ac927853300ac9230532e8ac90b4532e4ac9078532ecac9030532d4ac8eb4532d0ac8e78532d8ac8e30532c0ac8cb4532bcac8c78532c4ac8c30532acac8ab4532a8ac8a78532b0ac8a3053298ac88b453294ac88785329cac883053284ac86b453280ac867853288ac863053270ac84b45326cac847853274ac84305325cac82b453258ac827853260ac823055e48ac7cb455e44ac7c7855e4cac7c3055e20ac7ab455e1cac7a7855e24ac7a3055df4ac78b455df0ac787855df8ac783055dc8ac76b455dc4ac767855dccac763055d9cac74b455d98ac747855da0ac743055d70ac72b455d6cac727855d74ac723055d44ac70b455d40ac707855d48ac7030)
  (.lf 0)) (.nd (.lf
  0x3739876b6cc373a076b4cc373a876b2cc373b076b0cc373b876aecc373c076accc373c876aacc373d076a8cc373d876a6cc373e076a4cc373e876a2cc373f076a0cc373f8769ecc37400769ccc37408769acc374107698cc374187696cc374207694cc374287692cc374307690cc37438768ecc37440768ccc37448768acc374507688cc374587686cc374607684cc374687682cc376cc76bdd0376b876bbd0376a076b9d03769076b7d03767c76b5d03766876b3d03765476b1d03764076afd03762876add03761876abd03760476a9d0375f076a7d0375dc76a5d0375c876a3d0375b076a1d03759c769fd037588769dd037574769bd0375607699d03754c7697d03753c7695d0375287693d0375147691d037500768fd0374ec768dd0374d8768bd0374c47689d0374b07687d03749c7685d0374847683d03747076811037e30767ecc37e2c767ccc37e28767acc37d787678cc37e247676cc37d7c7674cc)
  (.lf 0)))

def shaWireTree70 : BTree :=
  .nd (.nd (.nd (.lf
  0x49600a56ab449628a56a30495a4a56878495b8a568b4495c0a5683049574a5667849570a566b449578a5663049560a564784955ca564b449564a564304949ca5627849548a562b449554a5623049448a5607849470a560b449474a5603049438a55e784943ca55eb449440a55e3049428a55c7849424a55cb44942ca55c3049414a55a7849418a55ab44941ca55a30493d4a55878493d8a558b4493dca55830493c8a55678493aca556b4493cca55630493a0a5547849378a554b4493a4a5543049364a552784936ca552b449370a5523049344a5507849340a550b449348a5503049334a54e7849330a54eb449338a54e30490dca54c7849310a54cb449314a54c3048df8a54a78490d0a54ab4490d4a54a3048d50a5487848deca548b448df0a5483048cf0a5467848d44a546b448d48a5463048c7ca5447848ce4a544b448ce8a5443048c08a5427848c60a542b448c64a542304a3b0a5bc784a3b4a5bcb4)
  (.lf 0)) (.nd (.lf
  0x4f1f0a05d2c4f1c4a05b2c4f198a0592c4f16ca0572c4f140a0552c4f114a0532c4f0e8a0512c4f0bca04f2c4f090a04d2c4f064a04b2c4f038a0492c4f00ca0472c4efe0a0452c4efb4a0432c4efa4a040cc5182ca47f2c51804a47d2c517d8a47b2c517aca4792c51780a4772c51754a4752c51728a4732c516fca4712c516d0a46f2c516a4a46d2c51678a46b2c5164ca4692c51620a4672c515f4a4652c515c8a4632c5159ca4612c51570a45f2c51544a45d2c51518a45b2c514eca4592c514c0a4572c51494a4552c51468a4532c5143ca4512c51410a44f2c513e4a44d2c513b8a44b2c5138ca4492c51360a4472c51334a4452c51308a4432c512f8a440cc53b58a87f2c53b30a87d2c53b04a87b2c53ad8a8792c53aaca8772c53a80a8752c53a54a8732c53a28a8712c539fca86f2c539d0a86d2c539a4a86b2c53978a8692c5394ca8672c53920a8652c538f4a8632c538c8a8612c5389ca85f2c)
  (.lf 0))) (.nd (.nd (.lf
  0xb4081aa4780b4041aa4b40b40c1aa4300b37c1aa2780b3781aa2b40b3801aa2300b2f01aa0780b2ec1aa0b40b2f41aa0300b2641a9e780b2601a9eb40b2681a9e300b1d81a9c780b1d41a9cb40b1dc1a9c300b1541a9a780b1501a9ab40b1581a9a300b0d41a98780b0d01a98b40b0d81a98300b0541a96780b0501a96b40b0581a96300afd41a94780afd01a94b40afd81a94300af541a92780af501a92b40af581a92300aecc1a90780aec81a90b40aed01a90300ae481a8e780ae441a8eb40ae4c1a8e300adc01a8c780adbc1a8cb40adc41a8c300ad3c1a8a780ad381a8ab40ad401a8a300acb41a88780acb01a88b40acb81a88300ac301a86780ac2c1a86b40ac341a86300abb01a84780abac1a84b40abb41a84300ab381a82780ab341a82b40ab3c1a8230056881a7cb4056201a7c780568c1a7c30056141a7ab4055941a7a78056181a7a30055881a78b4055041a78780558c1a7830054f81a76b4)
  (.lf 0)) (.nd (.lf
  0x7a33cf676cc7a2acf674cc7a228f672cc7a1f4f670cc7a1bcf66ecc7a158f66ccc7a138f66acc7a194f668cc7a0f8f666cc7a0c4f664cc7a094f662cc7a0d4f660cc79bf0f65ecc79bc0f65ccc79bf4f65acc79080f658cc7915cf656cc78da0f654cc78cacf652cc78bf0f650cc78bd4f64ecc78b64f64ccc78b20f64acc78ad0f648cc789d4f646cc78968f644cc78814f642cc7bb0cf67dd07baf8f67bd07bae4f679d07bad0f677d07bab8f675d07baa8f673d07ba94f671d07ba80f66fd07ba68f66dd07ba58f66bd07ba44f669d07ba30f667d07ba1cf665d07ba08f663d07b9f4f661d07b9dcf65fd07b9ccf65dd07b9b8f65bd07b9a4f659d07b990f657d07b97cf655d07b968f653d07b954f651d078c64f64fd078c50f64dd078c3cf64bd078c28f649d0789ecf647d078980f645d07880cf643d0787c8f641107fc14f6fecc7fc00f6fccc7fbe4f6facc7fbecf6f8cc7fbb4f6f6cc7fb9cf6f4cc)
  (.lf 0)))

def shaWireTree71 : BTree :=
  .nd (.nd (.nd (.lf
  0x52e18aa82b452e1caa823054304aa7cb454308aa7c785430caa7c30542ecaa7ab4542f0aa7a78542f4aa7a30542b8aa78b4542bcaa7878542dcaa7830542acaa76b45420caa7678542b0aa7630541f8aa74b4541f4aa7478541fcaa7430541d8aa72b4541d4aa7278541e4aa7230541c8aa70b4541c4aa7078541ccaa7030541acaa6eb4541b0aa6e78541b4aa6e3054194aa6cb454198aa6c785419caa6c3054188aa6ab45417caa6a785418caa6a3054170aa68b454130aa687854174aa683054110aa66b45411caa667854120aa663054104aa64b4540fcaa647854108aa6430540e4aa62b4540dcaa6278540e8aa623054074aa60b4540b8aa6078540bcaa603054064aa5eb454068aa5e785406caa5e3054058aa5cb453fe4aa5c785405caa5c3053fc8aa5ab453fc4aa5a7853fd4aa5a3053fb8aa58b453fb4aa587853fbcaa583053f9caa56b453fa0aa567853fa4aa563053f84aa54b453f88aa5478)
  (.lf 0)) (.nd (.lf
  0x4b26c9a532c4b2509a512c4b2349a4f2c4b22c9a4d2c4b18c9a4b2c4af9c9a492c4b0149a472c4af609a452c4afb49a432c4af149a40cc4df509e7f2c4df389e7d2c4df249e7b2c4df0c9e792c4def09e772c4dc789e752c4dc609e732c4dd5c9e712c4dc289e6f2c4dad49e6d2c4dac09e6b2c4daf89e692c4da989e672c4d8549e652c4d8389e632c4d8249e612c4d8109e5f2c4d7fc9e5d2c4d7d89e5b2c4d7549e592c4d76c9e572c4d3ac9e552c4d3bc9e532c4d3909e512c4d2f89e4f2c4d5889e4d2c4d2c89e4b2c4d35c9e492c4d2a09e472c4d2889e452c4d2709e432c4d1f09e40cc4ff1ca27f2c4ff04a27d2c4fef0a27b2c4fed0a2792c4feb0a2772c4fea0a2752c4fe88a2732c4fe60a2712c4fe4ca26f2c4fe2ca26d2c4fe64a26b2c4fe08a2692c4fe34a2672c4fde0a2652c4fdcca2632c4fdb8a2612c4fd90a25f2c4fd94a25d2c4fd98a25b2c4fd50a2592c4fd44a2572c4fd2ca2552c)
  (.lf 0))) (.nd (.nd (.lf
  0x42a8800208142a8c00207f42a9000207d42a9400207b42a9800207942a9c00207742aa000207542aa400207342aa800207142aac00206f42ab000206d42ab400206b422100020694218000206742184002065421880020634218c002061436e800205f436ec00205d436f000205b43390002059432fc00205743300002055445d8002053442700020514427400204f4427800204d4427c00204b445dc0020494428000204744284002045442880020434428c0020414429000203f4429400203d4429800203b4429c002039442a000203743b8400203543b8800203343b8c00203143b9000202f43b9400202d43b9800202b43b9c00202943ba0002027436f4002025436f8002023436fc002021464dc00201f464e000201d464e400201b464e8002019464ec002017464f0002015464f4002013464f8002011464fc00200f4650000200d4650400200b465080020094650c0020074651000200546514002003)
  (.lf 0)) (.nd (.lf
  0x722c8eca5d0722b4eca3d0722a0eca1d07228cec9fd072278ec9dd072264ec9bd072250ec99d07223cec97d072220ec95d07220cec93d0721f8ec91d07216cec8fd072150ec8dd071f5cec8bd071f48ec89d071ed0ec87d071eacec85d071e28ec83d071e10ec811073110ec7ecc73118ec7ccc73120ec7acc7319cec78cc731a4ec76cc731acec74cc731b4ec72cc731bcec70cc731c4ec6ecc731ccec6ccc731d4ec6acc731dcec68cc731e4ec66cc731ecec64cc731f4ec62cc731fcec60cc73204ec5ecc7320cec5ccc73214ec5acc7321cec58cc73224ec56cc7322cec54cc73234ec52cc7323cec50cc73244ec4ecc7324cec4ccc73254ec4acc7325cec48cc73264ec46cc7326cec44cc73274ec42cc73718ec7dd073700ec7bd0736e0ec79d0736d0ec77d0736b0ec75d0736a0ec73d073688ec71d073670ec6fd07364cec6dd07363cec6bd073628ec69d073610ec67d0735f8ec65d0735e0ec63d0)
  (.lf 0)))

def shaWireTree72 : BTree :=
  .nd (.nd (.nd (.lf
  0x50744b1bf2c50728b1bd2c50758b1bb2c506dcb1b92c506ccb1b72c506a8b1b52c5060cb1b32c505d8b1b12c505ecb1af2c50584b1ad2c50570b1ab2c50560b1a92c5054cb1a72c50508b1a52c504d4b1a32c504e8b1a12c50490b19f2c50478b19d2c50468b19b2c50444b1992c5016cb1972c500a8b1952c4ffb8b1932c4ff5cb1912c4fcbcb18f2c4fc28b18d2c4f784b18b2c4f764b1892c4f750b1872c4f71cb1852c4f6c0b1832c4f5bcb180cc52e9cb5bf2c52e78b5bd2c52d98b5bb2c52d74b5b92c52d38b5b72c52d28b5b52c52cd0b5b32c52cb8b5b12c52c58b5af2c52bf4b5ad2c52bc4b5ab2c52bb4b5a92c52c28b5a72c52b78b5a52c52c8cb5a32c52b34b5a12c52b10b59f2c52ad8b59d2c52ac4b59b2c52c74b5992c52aa4b5972c52a80b5952c52a14b5932c52a00b5912c52a48b58f2c529d8b58d2c529c4b58b2c529a4b5892c51cf4b5872c519bcb5852c5193cb5832c51900b580cc)
  (.lf
  0x3262c68b1d0325bc68afd03254468add0324c468abd03244468a9d0323c468a7d03234468a5d0322c468a3d03224068a1d0321b4689fd032130689dd0320b0689bd0320286899d031fa46897d031f246895d031e9c6893d031e106891d031d84688fd031cf8688dd031c6c688bd031be86889d031b686887d031af06885d031a7c6883d0319d46881101d65c687ecc1d664687ccc1d66c687acc1d6e86878cc1d6f06876cc1d6f86874cc1d7006872cc1d7086870cc1d710686ecc1d718686ccc1d720686acc1d7286868cc1d7306866cc1d7386864cc1d7406862cc1d7486860cc1d750685ecc1d758685ccc1d760685acc1d7686858cc1d7706856cc1d7786854cc1d7806852cc1d7886850cc1d790684ecc1d798684ccc1d7a0684acc1d7a86848cc1d7b06846cc1d7b86844cc1d7c06842cc1da24687dd01da10687bd01d9fc6879d01d9e86877d01d9d46875d01d9c06873d01d9ac6871d01d998686fd0))
  (.nd (.lf
  0x32e9400320132e980031ff32e9c0031fd32ea00031fb32ea40031f932ea80031f732eac0031f532eb00031f332eb40031f132eb80031ef32ebc0031ed32ec00031eb32ec40031e932ec80031e732ecc0031e532ed00031e332ed40031e134bd40031df350c80031dd34bd80031db34bdc0031d934be00031d734be40031d534be80031d334bec0031d134bf00031cf34bf40031cd351040031cb34bf80031c9350cc0031c734bfc0031c534c000031c334c040031c134c080031bf34c0c0031bd34c100031bb34c140031b934c180031b734c1c0031b534c200031b334c240031b134c280031af34c2c0031ad34c300031ab34c340031a934c380031a734c3c0031a534c400031a3351080031a136c9000319f36c9400319d3701000319b37014003199370180031973701c00319536ec800319336ecc00319136ed000318f36ed400318d36ed800318b36edc00318936de40031873702000318537024003183)
  (.lf 0))) (.nd (.nd (.lf
  0x35cc07311f435c44730ff435bcc730df435b48730bf435abc7309f435a3073074036648733c1e36698733cb4366b0733c14365d873394036638733aa036568733740365d47338a0364e87335f4365647336a03648873341e364e07334b4364e47334143640c73321e364787332b43647c73321436380732ff4363f07330a036338732e1e36378732eb43637c732e14362bc732c1e3632c732cb436330732c1436240732a1e36290732ab4362b4732a14361bc732740362387328a036124732540361b87326a0360b4732340361207324a036044732140360b07322a035fd4731f40360407320a035f64731d4035fd0731ea035ef4731b4035f60731ca035e8873194035ef0731aa035e1c7317f435e847318a035da873161e35e147316b435e1873161435d387313f435da07314a035cc473121e35d307312b435d3473121435c4873101e35cb87310b435cbc73101435bd0730e1e35c3c730eb435c40730e14)
  (.lf 0)) (.nd (.lf
  0x4a5400067734a5480067714a55000676f4a55800676d4a56000676b4a5680067694a5700067674a5780067654a5800067634a5880067614c04000675f4bcd000675d4bbc000675b4bbc40067594bbc80067574bbcc0067554c2c00067534c2c80067514c2d000674f4c04400674d4c04c00674b4c2d80067494c2e00067474c2e80067454c0540067434c05c0067414c06400673f4c06c00673d4c07400673b4bcd40067394bbd00067374bbd80067354bbe00067334bbe80067314b9b000672f4c2f000672d4c2f800672b4c3000067294c07c0067274c0840067254c08c0067234c0940067214e73000671f4e73800671d4e74000671b4e7480067194e7500067174e5400067154e7580067134e7600067114e76800670f4e77000670d4e77800670b4e77c0067094e7840067074e78c0067054e7940067034e79c0067014e7a40066ff4e7ac0066fd4e7b40066fb4e7bc0066f94e7c40066f74e7cc0066f5)
  (.lf 0)))

def shaWireTree73 : BTree :=
  .nd (.nd (.nd (.lf
  0x6f281d7ab406f2c1d7a3006e581d787806eb01d78b406eb41d783006de01d767806e4c1d76b406e501d763006d781d747806dd41d74b406dd81d743006d141d727806d6c1d72b406d701d723006ca01d707806d081d70b406d0c1d703006c281d6e7806c941d6eb406c981d6e3006bc41d6c7806c1c1d6cb406c201d6c3006b501d6a7806bb81d6ab406bbc1d6a3006ad81d687806b441d68b406b481d683006a741d667806acc1d66b406ad01d6630069fc1d647806a681d64b406a6c1d6430069981d6278069f01d62b4069f41d6230069241d60780698c1d60b4069901d6030068b01d5e78069181d5eb40691c1d5e30068381d5c78068a41d5cb4068a81d5c30067d41d5a780682c1d5ab4068301d5a30067601d5878067c81d58b4067cc1d5830066e81d5678067541d56b4067581d5630066841d5478066dc1d54b4066e01d5430066101d5278066781d52b40667c1d52300659c1d5078066041d50b4)
  (.lf 0)) (.nd (.lf
  0x4e204a3dd2c4e1eca3db2c4e1f0a3d92c4e1c8a3d72c4e1b8a3d52c4e1a8a3d32c4e138a3d12c4e0bca3cf2c4e0a8a3cd2c4dfbca3cb2c4dee4a3c92c4de64a3c72c4ddf0a3c52c4dd4ca3c32c4dce0a3c0cc51180a7ff2c5116ca7fd2c51158a7fb2c5114ca7f92c51130a7f72c5111ca7f52c51110a7f32c510f8a7f12c510e0a7ef2c510d0a7ed2c510b8a7eb2c510a4a7e92c51094a7e72c51078a7e52c51068a7e32c51054a7e12c51090a7df2c5102ca7dd2c51014a7db2c5101ca7d92c50ff0a7d72c50fd4a7d52c51004a7d32c50fb0a7d12c50f0ca7cf2c50eb8a7cd2c50e5ca7cb2c50f68a7c92c50e0ca7c72c50ed0a7c52c50d08a7c32c50cb8a7c0cc52990abff2c5297cabfd2c52968abfb2c52954abf92c52940abf72c5292cabf52c52918abf32c52904abf12c528f0abef2c528dcabed2c528c8abeb2c528b4abe92c528a0abe72c5288cabe52c52878abe32c52864abe12c52850abdf2c)
  (.lf 0))) (.nd (.nd (.lf
  0x65814c82c786585cc82c3065808c82ab4657c4c82a786580cc82a30657b8c828b465780c82878657bcc8283065774c826b465748c8267865778c826306573cc824b465710c8247865740c8243065704c822b4656c8c8227865708c82230656bcc820b46567cc82078656c0c820306566cc81eb465628c81e7865670c81e306561cc81cb4655fcc81c7865620c81c30655f0c81ab465588c81a78655f4c81a306557cc818b46555cc8187865580c8183065534c816b465510c8167865538c81630654b0c814b465490c81478654b4c8143065484c812b465410c8127865488c81230653acc810b465390c81078653b0c8103065384c80eb465318c80e7865388c80e30652c4c80cb465290c80c78652c8c80c3065284c80ab4650e8c80a7865288c80a30650a0c808b4650dcc80878650e0c8083065084c806b465030c8067865088c8063064fe0c804b465024c8047865028c8043064fd4c802b464fd0c80278)
  (.lf 0)) (.nd (.lf
  0x481e8968acc481f09688cc481f89686cc482009684cc482089682cc4849896bdd04848496bbd04847096b9d04845c96b7d04844896b5d04843496b3d04842096b1d04840096afd0483f096add0483d896abd0483c496a9d0483b096a7d0483a096a5d04838c96a3d04837896a1d048364969fd048350969dd048340969bd04832c9699d0483189697d0483049695d0482f09693d0482dc9691d0482c8968fd0482b0968dd0482a0968bd04828c9689d0482789687d0482649685d0482509683d04823896811048dac967ecc48da8967ccc48b88967acc48be89678cc48b8c9676cc48c249674cc48bb89672cc48b789670cc48b5c966ecc48b80966ccc48b74966acc48b689668cc48b849666cc48bfc9664cc48c009662cc48bf89660cc48bf4965ecc48be4965ccc48b7c965acc48bf09658cc48b649656cc48b609654cc48c8c9652cc48c909650cc48bdc964ecc490f8964ccc486e0964acc48bec9648cc)
  (.lf 0)))

def shaWireTree74 : BTree :=
  .nd (.nd (.nd (.lf
  0x623d4d1b878622e0d1b8b4625f8d1b830622d0d1b678622d4d1b6b4622d8d1b6306229cd1b478621ecd1b4b4622a0d1b430621dcd1b27862124d1b2b4621e4d1b23062098d1b07862058d1b0b46209cd1b03062040d1ae7861f28d1aeb462050d1ae3061f1cd1ac7861ed0d1acb461f20d1ac3061e80d1aa7861e50d1aab461ec8d1aa3061e40d1a87861d90d1a8b461e48d1a83061d84d1a67861d24d1a6b461d88d1a63061cfcd1a47861cc0d1a4b461d1cd1a43061cb4d1a27861c48d1a2b461cb8d1a23061c3cd1a07861be4d1a0b461c40d1a03061bd4d19e7861bd8d19eb461bdcd19e3061ba4d19c7861bacd19cb461bc4d19c3061b98d19a7861b88d19ab461b9cd19a3061a78d1987861b50d198b461b7cd1983061a48d19678619f8d196b461a4cd19630619ecd1947861930d194b4619f0d1943061924d192786191cd192b461928d1923061900d19078616f0d190b461904d1903061680d18e78)
  (.lf 0)) (.nd (.lf
  0x60bb0c01d2c60b9cc01b2c60b88c0192c60b70c0172c60b64c0152c60b44c0132c60a2cc0112c609fcc00f2c609c8c00d2c6099cc00b2c60970c0092c60950c0072c60934c0052c60914c0032c60918c000cc63614c43f2c635fcc43d2c635e4c43b2c63968c4392c635bcc4372c635a4c4352c63594c4332c63574c4312c6355cc42f2c6353cc42d2c63528c42b2c63514c4292c63500c4272c634f0c4252c634bcc4232c633dcc4212c633a8c41f2c63370c41d2c63348c41b2c632c4c4192c632a4c4172c632d0c4152c6325cc4132c6320cc4112c631acc40f2c63188c40d2c630a8c40b2c63090c4092c62f50c4072c62ce4c4052c62be0c4032c62c18c400cc65ad8c83f2c65ac4c83d2c65ab0c83b2c65a94c8392c659b8c8372c659acc8352c659a0c8332c65994c8312c65988c82f2c6586cc82d2c6581cc82b2c657ccc8292c65788c8272c65750c8252c65718c8232c656d0c8212c65680c81f2c)
  (.lf 0))) (.nd (.nd (.lf
  0x11b142b35f411b902b36a011a8c2b341e11b0c2b34b411b102b341411a082b314011a842b32a0119882b2f4011a042b30a0119082b2d40119842b2ea0118882b2bf4119042b2ca0118002b2a1e118802b2ab4118842b2a14117742b281e117f42b28b4117f82b2814116f02b25401176c2b26a0116702b2340116ec2b24a0115f02b21f41166c2b22a0115682b201e115e82b20b4115ec2b2014114dc2b1e1e1155c2b1eb4115602b1e14114582b1b40114d42b1ca0113d82b1940114542b1aa0113582b1740113d42b18a0112d82b15f4113542b16a0112502b141e112d02b14b4112d42b1414111cc2b11f4112482b12a0111442b101e111c42b10b4111c82b1014110b82b0e1e111382b0eb41113c2b0e14110342b0bf4110b02b0ca010fac2b0a1e1102c2b0ab4110302b0a1410f202b081e10fa02b08b410fa42b081410e942b061e10f142b06b410f182b061410e882b04b410e8c2b041410a702bfc78)
  (.lf 0)) (.nd (.lf
  0x12ab83d93d012a3c3d91d0129b03d8fd0129243d8dd0128943d8bd0128143d89d0127943d87d0127143d85d0126983d83d01264c3d8110149fc417ecc149f8417ccc149f4417acc149f04178cc149ec4176cc149e84174cc149e44172cc149e04170cc149dc416ecc149d8416ccc149d4416acc149d04168cc149cc4166cc149c84164cc149c44162cc149c04160cc149bc415ecc149b8415ccc149b4415acc149b04158cc149ac4156cc149a84154cc149a44152cc149a04150cc1499c414ecc14998414ccc14994414acc149904148cc1498c4146cc149884144cc149844142cc151b8417dd01515c417bd0151044179d0150ac4177d0150544175d014ffc4173d014fa44171d014f4c416fd014ef4416dd014eb0416bd014e784169d014e4c4167d014e244165d014dfc4163d014dd44161d014dac415fd014d84415dd014d5c415bd014d344159d014b8c4157d014b644155d014b404153d014b1c4151d0)
  (.lf 0)))

def shaWireTree75 : BTree :=
  .nd (.nd (.nd (.lf
  0x5d2fcbb0b405d3e0bb0ca05d2e0bb09405d2f8bb0aa05d2d4bb07405d2dcbb08a05d228bb05f45d2d0bb06a05d21cbb041e5d220bb04b45d224bb04145d214bb02a05c114bbfc785c118bbfcb45c11cbbfc305c104bbfa785c108bbfab45c10cbbfa305c0f4bbf8785c0ecbbf8b45c0f8bbf8305c0dcbbf6785c0e0bbf6b45c0e4bbf6305c0ccbbf4785c0c4bbf4b45c0d0bbf4305c0b4bbf2785c0b8bbf2b45c0bcbbf2305c0a4bbf0785c09cbbf0b45c0a8bbf0305c08cbbee785c090bbeeb45c094bbee305c07cbbec785c074bbecb45c080bbec305c060bbea785c068bbeab45c06cbbea305c054bbe8785c04cbbe8b45c058bbe8305c038bbe6785c040bbe6b45c044bbe6305c02cbbe4785c024bbe4b45c030bbe4305c010bbe2785c018bbe2b45c01cbbe2305c004bbe0785c000bbe0b45c008bbe0305bff0bbde785bfecbbdeb45bff4bbde305bfdcbbdc785bfd8bbdcb45bfe0bbdc305bfc8bbda78)
  (.lf 0)) (.nd (.lf
  0x4d6549ed52c4d6409ed32c4d62c9ed12c4d5dc9ecf2c4d5909ecd2c4d5189ecb2c4d3f09ec92c4d3dc9ec72c4d4009ec52c4d3049ec32c4d2109ec0cc50420a2ff2c5031ca2fd2c50308a2fb2c502f4a2f92c502e0a2f72c502cca2f52c502b4a2f32c5029ca2f12c50284a2ef2c50270a2ed2c50250a2eb2c50220a2e92c501fca2e72c501cca2e52c50090a2e32c50078a2e12c50064a2df2c5004ca2dd2c50034a2db2c500a0a2d92c4fffca2d72c4ffd4a2d52c4ff8ca2d32c4fd1ca2d12c4fc84a2cf2c4fc18a2cd2c4f6a4a2cb2c4f690a2c92c4f67ca2c72c4f668a2c52c4f61ca2c32c4f5aca2c0cc52250a6ff2c521b0a6fd2c5219ca6fb2c52188a6f92c52170a6f72c52158a6f52c521b8a6f32c520f4a6f12c520f0a6ef2c520f8a6ed2c520aca6eb2c52078a6e92c52044a6e72c51fe8a6e52c51fd4a6e32c51feca6e12c51f90a6df2c51f68a6dd2c51f40a6db2c51e8ca6d92c51e74a6d72c)
  (.lf 0))) (.nd (.nd (.lf
  0x1bee4506e301becc506cb41bec8506c781bed0506c301beb8506ab41beb4506a781bebc506a301bea45068b41bea05068781bea85068301be905066b41be8c5066781be945066301be7c5064b41be785064781be805064301be685062b41be645062781be6c5062301be545060b41be505060781be585060301be40505eb41be3c505e781be44505e301be2c505cb41be28505c781be30505c301be18505ab41be14505a781be1c505a301be045058b41be005058781be085058301bdf05056b41bdec5056781bdf45056301bddc5054b41bdd85054781bde05054301bdc85052b41bdc45052781bdcc5052301bdb45050b41bdb05050781bdb85050301bda0504eb41bd9c504e781bda4504e301bd8c504cb41bd88504c781bd90504c301bd78504ab41bd74504a781bd7c504a301bd645048b41bd605048781bd685048301bd505046b41bd4c5046781bd545046301bd3c5044b41bd385044781bd40504430)
  (.lf 0)) (.nd (.lf
  0x745413d7d00744013d5d00742c13d3d00741813d1d00740413cfd0073f013cdd0073dc13cbd0073c813c9d0073b413c7d0073a013c5d00738c13c3d00737413c110090bc16becc090c416bccc090cc16bacc090d416b8cc090dc16b6cc090e416b4cc090ec16b2cc090f416b0cc090fc16aecc0910416accc0910c16aacc0911416a8cc0911c16a6cc0912416a4cc0912c16a2cc0913416a0cc0913c169ecc09144169ccc0914c169acc091541698cc0915c1696cc091641694cc0916c1692cc091741690cc0917c168ecc09184168ccc0918c168acc091941688cc0919c1686cc091a41684cc091ac1682cc0a19016bdd00a11816bbd00a09416b9d00a00c16b7d009f8016b5d009efc16b3d009e7c16b1d009df416afd009d6816add009cdc16abd009c5016a9d009bc416a7d009b4016a5d009ac016a3d009a4016a1d0099b8169fd009934169dd0098b4169bd0098341699d0097ac1697d0097281695d0)
  (.lf 0)))

def shaWireTree76 : BTree :=
  .nd (.nd (.nd (.lf
  0x5c9640013cb5c9680013c95c96c0013c75c9700013c55c9740013c35c9780013c15c97c0013bf5d0180013bd5cf9c0013bb5d01c0013b95cfa00013b75cf2c0013b55ceb40013b35ce240013b15cda80013af5cd200013ad5cc900013ab5cc240013a95cba00013a75cb2c0013a55cab00013a35ca400013a15f44c00139f5f45000139d5f45400139b5f4580013995f45c0013975f4600013955f4640013935f4680013915f46c00138f5f47000138d5f47400138b5f4780013895f47c0013875f4800013855f4840013835f4880013815f48c00137f5f49000137d5f49400137b5f4980013795f49c0013775f4a000137560f2000137360f2400137160f2800136f60f2c00136d60f3000136b60f3400136960f3800136760f3c00136560f4000136360f4400136160f4800135f60f4c00135d60f5000135b60f5400135960f5800135760f5c00135560f6000135360f6400135160f6800134f60f6c00134d)
  (.lf 0)) (.nd (.lf
  0x388d87ba0b4389347b9eb4387787b9cb4385307b9ab4384707b98b43840c7b96b43835c7b94b4382f87b92b4382507b90b4381e07b8eb4381307b8cb4380c47b8ab4380107b88b437fac7b86b437f187b84b437e8c7b82b437dcc7b80b4370007bbe78370047bbc78370087bba783700c7bb87836ec47bb67836e947bb47836e987bb27836e9c7bb07836ea07bae7836ea47bac7836de07baa7836dac7ba87836d647ba67836d687ba47836d6c7ba27836d707ba07836d747b9e7836cc47b9c7836c787b9a7836c7c7b987836c807b967836c847b947836c887b927836c8c7b907836bb47b8e78367c47b8c78367547b8a78367587b88783675c7b8678367607b8478367647b8278367687b8078390647bbe3038fdc7bbc3038f707bba3038ee07bb83038e687bb63038db47bb43038d447bb23038c9c7bb03038c287bae3038b7c7bac3038b307baa3038a8c7ba83038a4c7ba630389dc7ba430389987ba230)
  (.lf 0))) (.nd (.nd (.lf
  0x251484ec230257bc4f3aaa257084f34aa255744f26aa255304f24aa2547c4f1eaa254004f1aaa252dc4f10aa252984f0eaa252544f0caa251a04f06aa258044f3d40257884f3940256d44f3340255404f25f4254fc4f2340254484f1d40253cc4f1940252a84f0ff4252644f0df4252204f0b40257cc4f3bf4258004f3ca02578c4f3a1e257c44f3ab4257c84f3a14257504f3740257844f38a0257184f35f42574c4f36a0256d84f341e257104f34b4257144f34142569c4f3140256d04f32a0256644f2f40256984f30a02562c4f2d40256604f2ea0255f44f2b40256284f2ca0255bc4f2940255f04f2aa0255844f27f4255b84f28a0255444f261e2557c4f26b4255804f2614255004f241e255384f24b42553c4f2414254c44f2140254f84f22a02548c4f1ff4254c04f20a02544c4f1e1e254844f1eb4254884f1e14254104f1bf4254444f1ca0253d04f1a1e254084f1ab42540c4f1a14253944f1740)
  (.lf 0)) (.nd (.lf
  0x58cb8c18bd058c8cc189d058c78c187d058c48c185d058c38c183d0581bcc181105b6fcc57ecc5b700c57ccc5b6a4c57acc5b64cc578cc5b564c576cc5b53cc574cc5b4d8c572cc5b4a4c570cc5b43cc56ecc5b3f8c56ccc5b3b0c56acc5b31cc568cc5ae60c566cc5ae0cc564cc5ae08c562cc5adc0c560cc5ab08c55ecc5ab0cc55ccc5aac0c55acc5aaa8c558cc5a9e8c556cc5a9d8c554cc5a98cc552cc5a708c550cc5a70cc54ecc5a704c54ccc5a860c54acc5a71cc548cc5a5ecc546cc5a34cc544cc5a314c542cc5bf14c57dd05bedcc57bd05bd9cc579d05bd44c577d05bd2cc575d05bcb8c573d05bca8c571d05bc98c56fd05bc10c56dd05bbecc56bd05bbd8c569d05bbc8c567d05bba4c565d05bb7cc563d05bb54c561d05bb2cc55fd05baf0c55dd05badcc55bd05ba98c559d05ba74c557d05ba64c555d05ba40c553d05ba1cc551d05a788c54fd05a774c54dd05a760c54bd05a750c549d0)
  (.lf 0)))

def shaWireTree77 : BTree :=
  .nd (.nd (.nd (.lf
  0x76018dffa3076000dff87875ffcdff8b476004dff83075fe4dff67875fe8dff6b475ff0dff63075fd0dff47875fd8dff4b475fdcdff43075fbcdff27875fc0dff2b475fc4dff23075fa8dff07875facdff0b475fb0dff03075f98dfee7875f94dfeeb475fa0dfee3075f88dfec7875f80dfecb475f8cdfec3075f6cdfea7875f74dfeab475f78dfea3075f54dfe87875f60dfe8b475f64dfe83075f40dfe67875f44dfe6b475f48dfe63075f2cdfe47875f30dfe4b475f34dfe43075f18dfe27875f1cdfe2b475f20dfe23075f08dfe07875f0cdfe0b475f10dfe03075ef8dfde7875efcdfdeb475f00dfde3075ee8dfdc7875eecdfdcb475ef0dfdc3075ed8dfda7875ed0dfdab475edcdfda3075ec0dfd87875ec4dfd8b475ec8dfd83075eb0dfd67875ea8dfd6b475eb4dfd63075e98dfd47875e9cdfd4b475ea0dfd43075e88dfd27875e80dfd2b475e8cdfd23075e6cdfd07875e74dfd0b475e78dfd030)
  (.lf 0)) (.nd (.lf
  0x4dfa80056fd4dec40056fb4de540056f94dde00056f74dd380056f54e19c0056f34e1300056f14e0980056ef4e0a00056ed4dfb00056eb4decc0056e94de5c0056e74dde80056e54dd400056e34dcd80056e150c7c0056df50c4c0056dd50f4c0056db50f9c0056d950ef80056d750ea00056d550e3c0056d350da00056d150da80056cf50db00056cd50cec0056cb50cac0056c950c800056c750f500056c550fa00056c350efc0056c150ea80056bf50e440056bd50db80056bb50dc00056b950dc80056b750cf40056b550f580056b350fa80056b150f040056af50eb00056ad50e4c0056ab50dcc0056a950dd00056a750dd80056a550cfc0056a350cb40056a15248000569f5243c00569d5278400569b5278800569952718005697526b8005695525a0005693525d00056915260000568f5253800568d5254000568b524c4005689524840056875278c0056855279000568352720005681526bc00567f)
  (.lf 0))) (.nd (.nd (.lf
  0x44e508c4eb444e4c8c4e7844e548c4e3044e248c4cb444e208c4c7844e288c4c3044df88c4ab444df48c4a7844dfc8c4a3044dcc8c48b444dc88c487844dd08c483044da08c46b444d9c8c467844da48c463044d748c44b444d708c447844d788c443044d488c42b444d448c427844d4c8c42304524c8c3cb44522c8c3c78452508c3c30452208c3ab4452008c3a78452248c3a30451f48c38b4451d48c3878451f88c3830451c88c36b4451a88c3678451cc8c36304519c8c34b4451788c3478451a08c34304516c8c32b4451488c3278451708c32304513c8c30b4451188c3078451408c30304510c8c2eb4450e88c2e78451108c2e30450dc8c2cb4450b88c2c78450e08c2c30450ac8c2ab4450888c2a78450b08c2a304507c8c28b44505c8c2878450808c2830450508c26b4450308c2678450548c2630450248c24b4450008c2478450288c243044ff48c22b444fd48c227844ff88c223044fc88c20b4)
  (.lf 0)) (.nd (.lf
  0x28b7056accc28b7856aacc28b8056a8cc28b8856a6cc28b9056a4cc28b9856a2cc28ba056a0cc28ba8569ecc28bb0569ccc28bb8569acc28bc05698cc28bc85696cc28bd05694cc28bd85692cc28be05690cc28be8568ecc28bf0568ccc28bf8568acc28c005688cc28c085686cc28c105684cc28c185682cc2934456bdd02930856bbd0292cc56b9d02929456b7d02925456b5d02921856b3d0291d856b1d02919c56afd02916456add02912456abd0290e056a9d02909c56a7d02906056a5d02902056a3d028fe456a1d028fac569fd028f6c569dd028f30569bd028ef85699d028ec05697d028e885695d028e485693d028e0c5691d028dd4568fd028d94568dd028d58568bd028d185689d028cdc5687d028c9c5685d028c605683d028c20568110229d8567ecc22128567ccc22110567acc220f85678cc220e05676cc220905674cc220785672cc220605670cc22048566ecc22030566ccc22018566acc)
  (.lf 0)))

def shaWireTree78 : BTree :=
  .nd (.nd (.nd (.lf
  0x301c8759c3030138759a78300c0759ab43013c759a30300b4759878300407598b4300b8759830300347596782ffc07596b4300387596302ffb47594782ff387594b42ffb87594302ff2c7592782feac7592b42ff307592302fea07590782fe287590b42fea47590302fe1c758e782fda8758eb42fe20758e302fd9c758c782fd20758cb42fda0758c302fd14758a782fc94758ab42fd18758a302fc887588782fc107588b42fc8c7588302fc047586782fb887586b42fc087586302fb7c7584782fb047584b42fb807584302faf87582782fa9c7582b42fafc75823032e20797c7832e38797cb432e3c797c3032e14797a7832dfc797ab432e18797a3032dd879787832df07978b432df479783032dcc79767832db47976b432dd079763032d9079747832da87974b432dac79743032d8479727832d6c7972b432d8879723032d4879707832d607970b432d6479703032d3c796e7832d24796eb432d40796e30)
  (.lf 0)) (.nd (.lf
  0x2e13c609d2c2e0cc609b2c2e05860992c2dfe460972c2df7460952c2df0860932c2de9460912c2de24608f2c2ddb0608d2c2dd40608b2c2dccc60892c2dc4c60872c2dbcc60852c2db5460832c2db206080cc309b864bf2c3095864bd2c308e464bb2c3087464b92c3080064b72c3079064b52c3072064b32c306a064b12c3062064af2c305a064ad2c3051864ab2c3048c64a92c3040864a72c3038864a52c3030864a32c3028064a12c301f4649f2c30168649d2c300e4649b2c3006464992c2ffe464972c2ff5c64952c2fed064932c2fe4c64912c2fdcc648f2c2fd44648d2c2fcb8648b2c2fc3464892c2fbac64872c2fb2864852c2faa464832c2fa706480cc328c468bf2c3286468bd2c327f068bb2c3277868b92c3270868b72c3269c68b52c3263068b32c325c068b12c3254868af2c324c868ad2c3244868ab2c323c868a92c3234868a72c322c868a52c3224468a32c321b868a12c32134689f2c)
  (.lf 0))) (.nd (.nd (.lf
  0x5880678b4005840678780058c067830005740676b40057006767800578067630005600674b40055c067478005640674300054c0672b40054806727800550067230005380670b4005340670780053c06703000524066eb400520066e7800528066e3000510066cb40050c066c7800514066c30004fc066ab4004f8066a7800500066a30004e80668b4004e4066878004ec066830004d40666b4004d0066678004d8066630004c00664b4004bc066478004c4066430004ac0662b4004a8066278004b0066230004980660b4004940660780049c06603000484065eb400480065e7800488065e3000470065cb40046c065c7800474065c300045c065ab400458065a7800460065a30004480658b4004440658780044c065830004340656b40043006567800438065630004200654b40041c065478004240654300040c0652b40040806527800410065230003f80650b4003f4065078003fc065030003e4064eb4)
  (.lf 0)) (.nd (.lf
  0x6b4f4d689d06b4e4d687d06b4d0d685d06b4bcd683d06b340d681106c484d67ecc6c46cd67ccc6c454d67acc6c444d678cc6c428d676cc6c40cd674cc6c400d672cc6c3e8d670cc6c368d66ecc6c33cd66ccc6c360d66acc6c344d668cc6c308d666cc6c2ecd664cc6c2dcd662cc6c28cd660cc6c260d65ecc6c22cd65ccc6c1d4d65acc6c1e0d658cc6c198d656cc6c16cd654cc6c0dcd652cc6bf04d650cc6bf10d64ecc6be6cd64ccc6bdf8d64acc6bd6cd648cc6bce0d646cc6bc4cd644cc6bbc0d642cc6d610d67dd06d324d67bd06d30cd679d06d248d677d06d228d675d06d150d673d06cf4cd671d06cf14d66fd06ced8d66dd06c3bcd66bd06c3a4d669d06c38cd667d06c374d665d06c2d8d663d06c2a0d661d06c270d65fd06c238d65dd06c214d65bd06c1f8d659d06c1e4d657d06c180d655d06c0ecd653d06bf3cd651d06bf24d64fd06be7cd64dd06bdf0d64bd06bd64d649d06bd30d647d0)
  (.lf 0)))

def shaWireTree79 : BTree :=
  .nd (.nd (.nd (.lf
  0x497ac973ab4497b4973a144979497381e497989738b44979c9738144977c9735f44978c9736a04977497341e497689734b4497789734144975097321e4975c9732b44976097321449738972f40497409730a049724972df449734972ea049610972c1e4971c972cb449720972c1449604972a1e495f0972ab449608972a144951c9727f4495e89728a04950897261e4950c9726b449510972614494f49723f4495009724a0492dc97221e494ec9722b4494f0972214492cc971f40492d49720a0492c0971d40492c8971ea0492b4971b40492bc971ca0492a0971940492b0971aa0492949717f44929c9718a04928497161e492889716b44928c971614492749713f44927c9714a04926c97121e4925c9712b44927097121449248970ff4492549710a049228970e1e49240970eb449244970e14490c4970bf449184970ca049094970a1e490bc970ab4490c0970a1448d6097081e48ddc9708b448de0970814)
  (.lf 0)) (.nd (.lf
  0x4a6409a932c4a62c9a912c4a6209a8f2c4a6009a8d2c4a5ec9a8b2c4a5d89a892c4a5cc9a872c4a5ac9a852c4a59c9a832c4a58c9a80cc4c5209ebf2c4c50c9ebd2c4c4f49ebb2c4c4fc9eb92c4c4d09eb72c4c4c09eb52c4c4a89eb32c4c4989eb12c4c4809eaf2c4c46c9ead2c4c4589eab2c4c4449ea92c4c42c9ea72c4c41c9ea52c4c4049ea32c4c3f49ea12c4c3e09e9f2c4c3c89e9d2c4c3b49e9b2c4c3a09e992c4c3889e972c4c3749e952c4c3609e932c4c3909e912c4c4349e8f2c4c3389e8d2c4c3189e8b2c4c30c9e892c4c0c49e872c4c0b09e852c4c0dc9e832c4c0a49e80cc4ea6ca2bf2c4ea58a2bd2c4ea44a2bb2c4ea30a2b92c4ea34a2b72c4ea0ca2b52c4ea00a2b32c4e9e4a2b12c4e9cca2af2c4e9d0a2ad2c4ea74a2ab2c4e994a2a92c4e984a2a72c4e968a2a52c4e96ca2a32c4e970a2a12c4e934a29f2c4e924a29d2c4e904a29b2c4e8f8a2992c4e928a2972c4e8c8a2952c)
  (.lf 0))) (.nd (.nd (.lf
  0x5f3b4c220505f3b8c21e505f2d0c21c505f2d4c21a505f278c218505f27cc216505f280c214505f1c0c212505f1a0c210505f068c20e505f02cc20c505efc8c20a505ef88c208505ef34c206505ef38c204505e774c202505e688c20050602e0c63e786028cc63c78600e0c63a78600e4c63878600e8c63678600ecc63478600f0c6327860034c630785fcecc62e785fcf0c62c785fcf4c62a785fcf8c628785fcfcc626785f3ecc624785f3c8c622785f3ccc620785f3d0c61e785f2e0c61c785f2e4c61a785f290c618785f294c616785f298c614785f1c8c612785f1a8c610785f070c60e785f034c60c785efd0c60a785ef90c608785ef44c606785ef48c604785e77cc602785e690c600786263cc63e5062640c63c5062608c63a50623d8c63850622e8c636506228cc63450621acc63250620dcc6305062044c62e5061f70c62c5061f4cc62a5061f90c6285061db8c6265061d2cc6245061cd0c62250)
  (.lf 0)) (.nd (.lf
  0x5d0e4c0a9d05d0d0c0a7d05d0bcc0a5d05d0a8c0a3d05d094c0a1d05d080c09fd05d06cc09dd05d058c09bd05d03cc099d05cfc0c097d05cf44c095d05ced4c093d05ce44c091d05cdc8c08fd05cd40c08dd05cca4c08bd05cc3cc089d05cbb8c087d05cb44c085d05cac8c083d05ca48c0811060740c07ecc60748c07ccc60750c07acc607ccc078cc607d4c076cc607dcc074cc607e4c072cc607ecc070cc607f4c06ecc607fcc06ccc60804c06acc6080cc068cc60814c066cc6081cc064cc60824c062cc6082cc060cc60834c05ecc6083cc05ccc60844c05acc6084cc058cc60854c056cc6085cc054cc60864c052cc6086cc050cc60874c04ecc6087cc04ccc60884c04acc6088cc048cc60894c046cc6089cc044cc608a4c042cc60e84c07dd060e58c07bd060dc0c079d060da8c077d060d90c075d060d70c073d060d60c071d060d30c06fd060cf8c06dd060cd0c06bd060ca4c069d060c74c067d0)
  (.lf 0)))

def shaWireTree80 : BTree :=
  .nd (.nd (.nd (.lf
  0x788dcf1bf2c7870cf1bd2c78830f1bb2c786d0f1b92c785fcf1b72c785b0f1b52c78738f1b32c78530f1b12c784e4f1af2c784a0f1ad2c783e4f1ab2c7844cf1a92c78354f1a72c78308f1a52c782e8f1a32c782d0f1a12c782a4f19f2c7836cf19d2c78134f19b2c780c8f1992c7808cf1972c77f80f1952c77f40f1932c77f54f1912c77efcf18f2c77834f18d2c776a4f18b2c77598f1892c773b4f1872c772e4f1852c77160f1832c7700cf180cc7a480f5bf2c7a3e0f5bd2c7a398f5bb2c7a4d0f5b92c7a338f5b72c7a2a0f5b52c7a214f5b32c7a1e4f5b12c7a1acf5af2c7a148f5ad2c7a128f5ab2c7a184f5a92c7a0dcf5a72c7a0b4f5a52c7a080f5a32c7a05cf5a12c79bdcf59f2c79bb0f59d2c79b90f59b2c79070f5992c7914cf5972c78d90f5952c78c9cf5932c78becf5912c78bc4f58f2c78b44f58d2c78b1cf58b2c78accf5892c789c4f5872c78964f5852c787f4f5832c787b8f580cc)
  (.lf
  0x3dba07c30cc3db5c7c2ecc3db187c2ccc3dad47c2acc3da907c28cc3da4c7c26cc3da087c24cc3d9c47c22cc3d9807c20cc3d9387c1ecc3d8f07c1ccc3d8a87c1acc3d8607c18cc3d8187c16cc3d7d07c14cc3d7887c12cc3d7407c10cc3d6f87c0ecc3d6b47c0ccc3d66c7c0acc3d6247c08cc3d5e07c06cc3d59c7c04cc3d5547c02cc3dd647c3dd03dd207c3bd03dcdc7c39d03dc947c37d03dc507c35d03dc0c7c33d03dbc87c31d03db847c2fd03db407c2dd03dafc7c2bd03dab87c29d03da747c27d03da307c25d03d9ec7c23d03d9a87c21d03d9647c1fd03d91c7c1dd03d8d47c1bd03d88c7c19d03d8447c17d03d7fc7c15d03d7b47c13d03d76c7c11d03d7247c0fd03d6dc7c0dd03d6987c0bd03d6507c09d03d6087c07d03d5c47c05d03d5807c03d03d5387c01103b96480becc3b96c80bccc3b97480bacc3b97c80b8cc3b98480b6cc3b98c80b4cc3b99480b2cc3b99c80b0cc3b9a480aecc))
  (.nd (.lf
  0x7b680002a017b6000029ff7b7880029fd7b6640029fb7b4b40029f97b44c0029f77b3780029f57b4000029f37b3c80029f17b7400029ef7b3200029ed7b2980029eb7b2440029e97b2000029e77b1880029e57b1a00029e37b1680029e17c6300029df7c5f00029dd7cf180029db7cebc0029d97ce9c0029d77d8800029d57cdec0029d37cddc0029d17cd6c0029cf7cd400029cd7ccd40029cb7cc880029c97cc2c0029c77cf0c0029c57ceb00029c37ce800029c17d8840029bf7cf440029bd7cdcc0029bb7cd680029b97cd1c0029b77ccd00029b57cc6c0029b37cc300029b17cc480029af7cc200029ad7cbf80029ab7cbb80029a97cf580029a77cae80029a57c7240029a37c6cc0029a17e5dc00299f7e73c00299d7ec8400299b7ec3c0029997eca00029977eb380029957eb0c0029937ebac0029917ed2000298f7eab000298d7ea4400298b7ea9c0029897e9f00029877ecb80029857ec34002983)
  (.lf 0))) (.nd (.nd (.lf
  0x391947be4b4391987be430391747be2783917c7be2b4391807be230391607be078391687be0b43916c7be030391547bde78391507bdeb4391587bde303913c7bdc78391387bdcb4391407bdc303912c7bda78391287bdab4391307bda30391187bd878391147bd8b43911c7bd830391047bd678390fc7bd6b4391087bd630390e87bd478390f07bd4b4390f47bd430390dc7bd278390d87bd2b4390e07bd230390c07bd078390c87bd0b4390cc7bd030390b07bce78390b47bceb4390b87bce30390a47bcc783909c7bccb4390a87bcc3038dec7bca7838e947bcab438e987bca3038d787bc87838de07bc8b438de47bc83038cd07bc67838d6c7bc6b438d707bc63038c647bc47838cc47bc4b438cc87bc43038ba07bc27838c547bc2b438c5c7bc2303b4d07ebc783b4c87ebcb43b4d47ebc303b4bc7eba783b4b47ebab43b4c07eba303b4a87eb8783b4a47eb8b43b4ac7eb8303b4947eb6783b48c7eb6b4)
  (.lf 0)) (.nd (.lf
  0xa8741a13b00a8781a11b00a87c1a0fb00a8801a0db00a8841a0bb00a8881a09b00a88c1a07b00a8901a05b00a8941a03b00a8981a01b00c0c81e3fb00c0cc1e3db00c0d01e3bb00c0d41e39b00c0d81e37b00c0dc1e35b00c0e01e33b00c0e41e31b00c0e81e2fb00c0ec1e2db00c0f01e2bb00c0f41e29b00c0f81e27b00c0fc1e25b00c1001e23b00c1041e21b00c1081e1fb00c10c1e1db00c1101e1bb00c1141e19b00c1181e17b00c11c1e15b00c1201e13b00c1241e11b00c1281e0fb00c12c1e0db00c1301e0bb00c1341e09b00c1381e07b00c13c1e05b00c1401e03b00c1441e01b00d9bc223fb00d9c0223db00d9c4223bb00d9c82239b00d9cc2237b00d9d02235b00d9d42233b00d9d82231b00d9dc222fb00d9e0222db00d9e4222bb00d9e82229b00d9ec2227b00d9f02225b00d9f42223b00d9f82221b00d9fc221fb00da00221db00da04221bb00da082219b00da0c2217b00da102215b0)
  (.lf 0)))

def shaWireTree81 : BTree :=
  .nd (.nd (.nd (.lf
  0xe55031a4300e4c031a2780e44031a2b40e4c431a2300e43431a0780e3b431a0b40e43831a0300e3a8319e780e324319eb40e3ac319e300e318319c780e2a8319cb40e31c319c300e29c319a780e218319ab40e2a0319a300e20c3198780e19c3198b40e2103198300e1903196780e10c3196b40e1943196300e1003194780e0903194b40e1043194300e0843192780e0003192b40e0883192300dff43190780df843190b40dff83190300df78318e780def4318eb40df7c318e300dee8318c780de74318cb40deec318c300de68318a780ddf8318ab40de6c318a300ddec3188780dd7c3188b40ddf03188300dd703186780dd043186b40dd743186300dcf83184780dc903184b40dcfc3184300dc843182780dc503182b40dc88318230103bc357c781042c357cb410430357c3010340357a78103b0357ab4103b4357a30102b0357878103343578b41033835783010230357678102a43576b4102a8357630)
  (.lf 0)) (.nd (.lf
  0x1cfac004efd1cfb4004efb1cfbc004ef91cfc4004ef71cfcc004ef51cfd4004ef31cfdc004ef11cfe4004eef1cfec004eed1cff4004eeb1cffc004ee91d004004ee71d00c004ee51d014004ee31d01c004ee11d284004edf1d28c004edd1d294004edb1d310004ed91d318004ed71d320004ed51d328004ed31d330004ed11d338004ecf1d340004ecd1d348004ecb1d350004ec91d358004ec71d360004ec51d368004ec31d370004ec11d378004ebf1d380004ebd1d388004ebb1d390004eb91d398004eb71d3a0004eb51d3a8004eb31d3b0004eb11d3b8004eaf1d3c0004ead1d3c8004eab1d3d0004ea91d3d8004ea71d3e0004ea51d3e8004ea31d3f0004ea11d658004e9f1d660004e9d1d668004e9b1d6e4004e991d6ec004e971d6f4004e951d6fc004e931d704004e911d70c004e8f1d714004e8d1d71c004e8b1d724004e891d72c004e871d734004e851d73c004e831d744004e811d74c004e7f)
  (.lf 0))) (.nd (.nd (.lf
  0x6de50d856306de34d854b46de18d854786de38d854306ddf4d852b46de0cd852786de10d852306ddd4d850b46ddacd850786ddd8d850306dd98d84eb46dda0d84e786dda4d84e306dd6cd84cb46dd44d84c786dd70d84c306dd10d84ab46dd38d84a786dd3cd84a306dd04d848b46dcdcd848786dd08d848306dca8d846b46dcd0d846786dcd4d846306dc9cd844b46dc50d844786dca0d844306dc44d842b46dc40d842786dc48d842306e4dcd83cb46e4e0d83c786e4e4d83c306e4c4d83ab46e4c8d83a786e4ccd83a306e4b8d838b46e3ecd838786e4bcd838306e3ccd836b46e3d8d836786e3dcd836306e3bcd834b46e3c0d834786e3c4d834306e3acd832b46e3b0d832786e3b4d832306e398d830b46e39cd830786e3a0d830306e384d82eb46e388d82e786e38cd82e306e374d82cb46e36cd82c786e378d82c306e354d82ab46e360d82a786e364d82a306e344d828b46e348d828786e34cd82830)
  (.lf 0)) (.nd (.lf
  0x5081ca682cc50a70a6bdd050a5ca6bbd050a48a6b9d050a34a6b7d050a20a6b5d050a0ca6b3d0509f8a6b1d0509e4a6afd0509d0a6add0509bca6abd0509a8a6a9d050994a6a7d050980a6a5d05096ca6a3d050958a6a1d050944a69fd050930a69dd05091ca69bd050908a699d0508f4a697d0508e0a695d0508cca693d0508b8a691d0508a4a68fd050890a68dd05087ca68bd050868a689d050854a687d050840a685d05082ca683d050690a68110518b0a67ecc518aca67ccc5187ca67acc51880a678cc51884a676cc51850a674cc519eca672cc519f0a670cc519f4a66ecc51840a66ccc51844a66acc5183ca668cc51858a666cc5185ca664cc518d0a662cc51854a660cc518cca65ecc51838a65ccc51860a65acc519e8a658cc51848a656cc51878a654cc51864a652cc518a0a650cc51890a64ecc51894a64ccc5189ca64acc51898a648cc51888a646cc5186ca644cc51870a642cc51cb0a67dd0)
  (.lf 0)))

def shaWireTree82 : BTree :=
  .nd (.nd (.nd (.lf
  0x6f174e962b46f178e962306f15ce960786f164e960b46f168e960306f0f0e95e786f124e95eb46f140e95e306f0e0e95c786f0e4e95cb46f0e8e95c306f0bce95a786f0b8e95ab46f0c0e95a306f0ace958786f0a8e958b46f0b0e958306f084e956786f068e956b46f088e956306f058e954786f05ce954b46f060e954306f038e952786f020e952b46f03ce952306f014e950786f010e950b46f018e950306efece94e786eff0e94eb46eff4e94e306efb8e94c786efb4e94cb46efbce94c306e7f4e94a786efa8e94ab46eface94a306e7d0e948786e7e8e948b46e7ece948306e7c0e946786e7c4e946b46e7c8e946306e1ece944786e320e944b46e324e944306e1dce942786e1e0e942b46e1e4e942306f83ce9bc786f838e9bcb46f8a4e9bc306f7f8e9ba786f7fce9bab46f800e9ba306f7ece9b8786f794e9b8b46f7f0e9b8306f778e9b6786f774e9b6b46f77ce9b6306f760e9b4786f764e9b4b4)
  (.lf 0)) (.nd (.lf
  0x201c039c3002020039a3002024039830020280396300202c039430020300392300203403903002038038e300203c038c3002040038a3002044038830020480386300204c038430020500382300205403803000b700e7cb400b6c0e7c7800b740e7c3000b5c0e7ab400b580e7a7800b600e7a3000b480e78b400b440e787800b4c0e783000b340e76b400b300e767800b380e763000b200e74b400b1c0e747800b240e743000b0c0e72b400b080e727800b100e723000af80e70b400af40e707800afc0e703000ae40e6eb400ae00e6e7800ae80e6e3000ad00e6cb400acc0e6c7800ad40e6c3000abc0e6ab400ab80e6a7800ac00e6a3000aa80e68b400aa40e687800aac0e683000a940e66b400a900e667800a980e663000a800e64b400a7c0e647800a840e643000a6c0e62b400a680e627800a700e623000a580e60b400a540e607800a5c0e603000a440e5eb400a400e5e7800a480e5e3000a300e5cb4)
  (.lf 0))) (.nd (.nd (.lf
  0x13adc33deb413ae433de3013acc33dc7813ac833dcb413ad033dc3013ab833da7813ab433dab413abc33da3013aa433d87813aa033d8b413aa833d83013a9033d67813a8c33d6b413a9433d63013a7c33d47813a7833d4b413a8033d43013a6833d27813a6433d2b413a6c33d23013a5433d07813a5033d0b413a5833d03013a4033ce7813a3c33ceb413a4433ce3013a2c33cc7813a2833ccb413a3033cc3013a1833ca7813a1433cab413a1c33ca3013a0433c87813a0033c8b413a0833c830139f033c678139ec33c6b4139f433c630139dc33c478139d833c4b4139e033c430139c833c278139c433c2b4139cc33c23015c8836bc7815c8436bcb415c8c36bc3015c5436ba7815c5036bab415c5836ba3015c1c36b87815c1836b8b415c2036b83015be436b67815be036b6b415be836b63015bac36b47815ba836b4b415bb036b43015b7436b27815b7036b2b415b7836b23015b3c36b07815b3836b0b4)
  (.lf 0)) (.nd (.lf
  0x272f46152cc272586150cc271c0614ecc27128614ccc27094614acc26ff46148cc26f586146cc26eb06144cc26e046142cc27ff8617dd027f70617bd027ed06179d027e306177d027d8c6175d027ce86173d027c4c6171d027bb4616fd027b10616dd027a6c616bd0279c46169d02792c6167d02788c6165d0277f06163d0277546161d0276b8615fd02761c615dd027584615bd0274dc6159d0274406157d0273a86155d0273046153d0272686151d0271d0614fd027138614dd027090614bd026fec6149d026f506147d026eb86145d026e146143d026d98614110286d061becc286cc61bccc286c861bacc286c461b8cc286c061b6cc286bc61b4cc286b861b2cc286b461b0cc286b061aecc286ac61accc286a861aacc286a461a8cc286a061a6cc2869c61a4cc2869861a2cc2869461a0cc28690619ecc2868c619ccc28688619acc286846198cc286806196cc2867c6194cc2866c6192cc286686190cc)
  (.lf 0)))

def shaWireTree83 : BTree :=
  .nd (.nd (.nd (.lf
  0x627d8c6a6b4627e0c6a630627c8c6a478627ccc6a4b4627d0c6a430627bcc6a278627b8c6a2b4627c0c6a230627a8c6a078627a4c6a0b4627acc6a03062790c69e7862794c69eb462798c69e3062784c69c7862780c69cb462788c69c3062774c69a7862770c69ab462778c69a3062760c6987862758c698b462764c6983062748c6967862744c696b46274cc6963062734c6947862730c694b462738c6943062720c692786271cc692b462724c6923062708c690786270cc690b462710c69030626f0c68e78626f4c68eb462700c68e30626e4c68c78626dcc68cb4626e8c68c30626ccc68a78626d0c68ab4626d4c68a3062464c68878626c0c688b4626c4c6883062328c6867862458c686b46245cc68630622c8c6847862318c684b462320c68430621d4c68278622bcc682b4622c0c6823063e7cc67cb463e78c67c7863e80c67c3063e64c67ab463e60c67a7863e68c67a3063e4cc678b463e48c67878)
  (.lf 0)) (.nd (.lf
  0xe314231cb40e290231b4a0e2082318b40e18423174a0e0fc2314b40e07823134a0dff02310b40df6c230f4a0dee4230cb40de64230ab40dde023094a0dd642306aa0dcec22c52c0dc7822c32c0dc4422c0cc10484273eb410414273cb410394273ab41031027394a102882736b4102082734b41018427334a100fc2730b410078272f4a0fff0272cb40ff70272ab40fef02728b40fe702726b40fdf02724b40fd6c27234a0fce027214a0fc58271eb40fbd4271d4a0fb4c271ab40fac827194a0fa3c27174a0f9b42714b40f93027134a0f8a427114a0f81c270eb40f79c270cb40f71c270ab40f69c2708b40f61c2706b40f59c2704b40f51c2702b40f4e42700aa11d402b3eb411cd02b3cb411c4c2b3b4a11bc42b38b411b442b36b411ac02b354a11a382b32b4119b82b30b4119382b2eb4118b82b2cb4118342b2b4a117a82b294a117202b26b4116a02b24b4116202b22b41159c2b214a115102b1f4a)
  (.lf 0))) (.nd (.nd (.lf
  0x2e04c6096b42e0486096782e0506096302dfd86094b42dfd46094782dfdc6094302df686092b42df646092782df6c6092302defc6090b42def86090782df006090302de88608eb42de84608e782de8c608e302de18608cb42de14608c782de1c608c302dda4608ab42dda0608a782dda8608a302dd346088b42dd306088782dd386088302dcc06086b42dcbc6086782dcc46086302dc406084b42dc3c6084782dc446084302dbc06082b42dbbc6082782dbc46082301d274607cb41d270607c781d278607c301d260607ab41d25c607a781d264607a301d24c6078b41d2486078781d2506078301d2386076b41d2346076781d23c6076301d2246074b41d2206074781d2286074301d2106072b41d20c6072781d2146072301d1fc6070b41d1f86070781d2006070301d1e8606eb41d1e4606e781d1ec606e301d1d4606cb41d1d0606c781d1d8606c301d1c0606ab41d1bc606a781d1c4606a301d1ac6068b4)
  (.lf 0)) (.nd (.lf
  0xd8d023f3d00d8bc23f1d00d8a823efd00d89423edd00d88023ebd00d86c23e9d00d85823e7d00d84423e5d00d83023e3d00d81c23e1d00d80823dfd00d7f423ddd00d7e023dbd00d7cc23d9d00d7b823d7d00d7a423d5d00d79023d3d00d77c23d1d00d76823cfd00d75423cdd00d74023cbd00d72c23c9d00d71823c7d00d70423c5d00d6f023c3d00d6d823c1100f3dc26becc0f3e426bccc0f3ec26bacc0f3f426b8cc0f3fc26b6cc0f40426b4cc0f40c26b2cc0f41426b0cc0f41c26aecc0f42426accc0f42c26aacc0f43426a8cc0f43c26a6cc0f44426a4cc0f44c26a2cc0f45426a0cc0f45c269ecc0f464269ccc0f46c269acc0f4742698cc0f47c2696cc0f4842694cc0f48c2692cc0f4942690cc0f49c268ecc0f4a4268ccc0f4ac268acc0f4b42688cc0f4bc2686cc0f4c42684cc0f4cc2682cc1047426bdd01040426bbd01038426b9d0102fc26b7d01027826b5d0101f826b3d01017026b1d0)
  (.lf 0)))

def shaWireTree84 : BTree :=
  .nd (.nd (.nd (.lf
  0x4ee5c000bcb4ee60000bc94ee64000bc74ee68000bc54ee6c000bc34ee70000bc14ee74000bbf4ee78000bbd4ee7c000bbb4ee80000bb94ee84000bb74ee88000bb54ee8c000bb34ee90000bb14ee94000baf4ee98000bad4ee9c000bab4eea0000ba94eea4000ba74eea8000ba54eeac000ba34eeb0000ba14eeb4000b9f4eeb8000b9d5119c000b9b511a0000b99511a4000b97511a8000b95511ac000b93511b0000b91511b4000b8f511b8000b8d511bc000b8b511c0000b89511c4000b87511c8000b85511cc000b83511d0000b81511d4000b7f511d8000b7d511dc000b7b511e0000b79511e4000b77511e8000b75511ec000b73511f0000b71511f4000b6f511f8000b6d511fc000b6b51200000b6951204000b6751208000b655120c000b63534c8000b61534cc000b5f534d0000b5d534d4000b5b534d8000b59534dc000b57534e0000b55534e4000b53534e8000b51534ec000b4f534f0000b4d)
  (.lf 0)) (.nd (.lf
  0x4d9f0a3a0304d980a39e304d938a39c304d8e4a39a304d8c0a398304d790a396304d6fca394304d6d4a392304d6a4a390304d60ca38e304d5c4a38c304d554a38a304d490a388304d494a386304d498a384304d340a382304d228a3803050f30a7beb450f84a7bcb450ee0a7bab450e88a7b8b450e24a7b6b450d60a7b4b450d74a7b2b450d2ca7b0b450cd4a7aeb450c94a7acb450c64a7aab450c38a7a8b450c00a7a6b450bd0a7a4b450bd4a7a2b450b90a7a0b450b50a79eb450b68a79cb450b04a79ab450b08a798b450ac4a796b450aa4a794b450194a792b44ff48a790b44fc9ca78eb450a80a78cb44f828a78ab44f804a788b44f7e8a786b44f7aca784b44f64ca782b44f5c0a780b44e180a7be784e10ca7bc784e05ca7ba784e034a7b8784df84a7b6784dea4a7b4784de30a7b2784ddc0a7b0784dd14a7ae784dcb8a7ac784dbe8a7aa784dbc4a7a8784dba0a7a6784da80a7a4784da30a7a278)
  (.lf 0))) (.nd (.nd (.lf
  0x2858057ea782857c57eab42858457ea302856c57e8782856857e8b42857057e8302855857e6782855457e6b42855c57e6302854457e4782854057e4b42854857e4302853057e2782852c57e2b42853457e2302851c57e0782851857e0b42852057e0302850857de782850457deb42850c57de30284f457dc78284f057dcb4284f857dc30284e057da78284dc57dab4284e457da30284cc57d878284c857d8b4284d057d830284b857d678284b457d6b4284bc57d630284a457d478284a057d4b4284a857d4302849057d2782848c57d2b42849457d2302847c57d0782847857d0b42848057d0302846857ce782846457ceb42846c57ce302845457cc782845057ccb42845857cc302844057ca782843c57cab42844457ca302842c57c8782842857c8b42843057c8302841857c6782841457c6b42841c57c6302840457c4782840057c4b42840857c430283f057c278283ec57c2b4283f457c2302a4485abc78)
  (.lf 0)) (.nd (.lf
  0x6be28e54acc6bda0e548cc6bd04e546cc6bc88e544cc6bbd8e542cc6d594e57dd06d584e57bd06d538e579d06d4ece577d06d4a0e575d06d084e573d06d048e571d06d004e56fd06ce88e56dd06ce48e56bd06cd98e569d06cd00e567d06cc00e565d06cb80e563d06cb40e561d06cb18e55fd06ca6ce55dd06ca44e55bd06c898e559d06c870e557d06c704e555d06c148e553d06bfd4e551d06bfc4e54fd06bfa0e54dd06be48e54bd06bdd0e549d06bd10e547d06bc94e545d06bbe8e543d06b8a8e541106d624e5becc6d398e5bccc6d358e5bacc6d2b8e5b8cc6d27ce5b6cc6d184e5b4cc6cf64e5b2cc6cf98e5b0cc6cfe8e5aecc6cdf0e5accc6cd58e5aacc6ce20e5a8cc6cc8ce5a6cc6cc08e5a4cc6cb08e5a2cc6cb8ce5a0cc6cabce59ecc6c7c8e59ccc6c7d8e59acc6c798e598cc6c7ece596cc6c70ce594cc6ceb0e592cc6bf84e590cc6bf58e58ecc6beb8e58ccc6be4ce58acc6bd9ce588cc)
  (.lf 0)))

def shaWireTree85 : BTree :=
  .nd (.nd (.nd (.lf
  0x7aa28eabab47aa38eaba307aa1ceab8787aa10eab8b47aa20eab8307aa00eab6787aa04eab6b47aa08eab6307a9eceab4787a9e0eab4b47a9f0eab4307a9cceab2787a9d4eab2b47a9d8eab2307a9bceab0787a9b0eab0b47a9c0eab0307a994eaae787a9a4eaaeb47a9a8eaae307a970eaac787a984eaacb47a988eaac307a7f0eaaa787a7eceaaab47a958eaaa307a7d8eaa8787a7cceaa8b47a7dceaa8307a7b4eaa6787a7c0eaa6b47a7c4eaa6307a7a8eaa4787a79ceaa4b47a7aceaa4307a790eaa2787a78ceaa2b47a794eaa2307a778eaa0787a774eaa0b47a77ceaa0307a760ea9e787a75cea9eb47a764ea9e307a748ea9c787a744ea9cb47a74cea9c307a730ea9a787a72cea9ab47a734ea9a307a718ea98787a714ea98b47a71cea98307a700ea96787a6f4ea96b47a704ea96307a6dcea94787a6e8ea94b47a6ecea94307a6acea92787a6ccea92b47a6d0ea92307a6a0ea90787a5acea90b4)
  (.lf 0)) (.nd (.lf
  0xd4a0239dd00d4a4239bd00d4a82399d00d4ac2397d00d4b02395d00d4b42393d00d4b82391d00d4bc238fd00d4c0238dd00d4c4238bd00d4c82389d00d4cc2387d00d4d02385d00d4d42383d00d4d82381d00ecf827bfd00ecfc27bdd00ed0027bbd00ed0427b9d00ed0827b7d00ed0c27b5d00ed1027b3d00ed1427b1d00ed1827afd00ed1c27add00ed2027abd00ed2427a9d00ed2827a7d00ed2c27a5d00ed3027a3d00ed3427a1d00ed38279fd00ed3c279dd00ed40279bd00ed442799d00ed482797d00ed4c2795d00ed502793d00ed542791d00ed58278fd00ed5c278dd00ed60278bd00ed642789d00ed682787d00ed6c2785d00ed702783d00ed742781d0105a02bbfd0105a42bbdd0105a82bbbd0105ac2bb9d0105b02bb7d0105b42bb5d0105b82bb3d0105bc2bb1d0105c02bafd0105c42badd0105c82babd0105cc2ba9d0105d02ba7d0105d42ba5d0105d82ba3d0105dc2ba1d0105e02b9fd0)
  (.lf 0))) (.nd (.nd (.lf
  0x4d0f89c74784d1009c74304d0d09c72b44d0cc9c72784d0d49c72304d0a49c70b44d0a09c70784d0a89c70304d0789c6eb44d0749c6e784d07c9c6e304d04c9c6cb44d0489c6c784d0509c6c304d0209c6ab44d01c9c6a784d0249c6a304cff49c68b44cff09c68784cff89c68304cfc89c66b44cfc49c66784cfcc9c66304cf9c9c64b44cf989c64784cfa09c64304cf709c62b44cf6c9c62784cf749c62304cf449c60b44cf409c60784cf489c60304cf189c5eb44cf149c5e784cf1c9c5e304ceec9c5cb44cee89c5c784cef09c5c304cec09c5ab44cebc9c5a784cec49c5a304ce949c58b44ce909c58784ce989c58304ce689c56b44ce649c56784ce6c9c56304ce3c9c54b44ce389c54784ce409c54304ce109c52b44ce0c9c52784ce149c52304cde49c50b44cde09c50784cde89c50304cdb89c4eb44cdb49c4e784cdbc9c4e304cd8c9c4cb44cd889c4c784cd909c4c304cd609c4ab44cd5c9c4a78)
  (.lf 0)) (.nd (.lf
  0x2d38c63c5d02d37863c3d02d1b063c1102f5bc66becc2f5c466bccc2f5cc66bacc2f5d466b8cc2f5dc66b6cc2f5e466b4cc2f5ec66b2cc2f5f466b0cc2f5fc66aecc2f60466accc2f60c66aacc2f61466a8cc2f61c66a6cc2f62466a4cc2f62c66a2cc2f63466a0cc2f63c669ecc2f644669ccc2f64c669acc2f6546698cc2f65c6696cc2f6646694cc2f66c6692cc2f6746690cc2f67c668ecc2f684668ccc2f68c668acc2f6946688cc2f69c6686cc2f6a46684cc2f6ac6682cc2f91066bdd02f8fc66bbd02f8e866b9d02f8d466b7d02f8c066b5d02f8ac66b3d02f89866b1d02f88466afd02f87066add02f85c66abd02f84866a9d02f83466a7d02f82066a5d02f80c66a3d02f7f866a1d02f7e4669fd02f7d0669dd02f7bc669bd02f7a86699d02f7946697d02f7806695d02f76c6693d02f7586691d02f744668fd02f730668dd02f71c668bd02f7086689d02f6f46687d02f6e06685d02f6cc6683d0)
  (.lf 0)))

def shaWireTree86 : BTree :=
  .nd (.nd (.nd (.lf
  0x3e3808d44783e4008d44b43e4088d44303e3708d42783e3748d42b43e3788d42303e9348dbc783e9388dbcb43e93c8dbc303e9208dba783e9248dbab43e9288dba303e9108db8783e90c8db8b43e9148db8303e8fc8db6783e8f88db6b43e9008db6303e8e48db4783e8e88db4b43e8ec8db4303e8d48db2783e8d08db2b43e8d88db2303e8c08db0783e8c48db0b43e8c88db0303e8ac8dae783e8b08daeb43e8b48dae303e8988dac783e89c8dacb43e8a08dac303e8888daa783e8848daab43e88c8daa303e8708da8783e86c8da8b43e8748da8303e8588da6783e8608da6b43e8648da6303e8448da4783e8488da4b43e84c8da4303e8348da2783e8388da2b43e83c8da2303e8208da0783e8248da0b43e8288da0303e80c8d9e783e8088d9eb43e8108d9e303e7f88d9c783e7f48d9cb43e7fc8d9c303e7e48d9a783e7e08d9ab43e7e88d9a303e7d08d98783e7cc8d98b43e7d48d98303e7b88d9678)
  (.lf 0)) (.nd (.lf
  0x6e650e09d2c6e638e09b2c6e640e0992c6e5e8e0972c6e5d0e0952c6e5c8e0932c6e5a8e0912c6e598e08f2c6e59ce08d2c6e568e08b2c6e554e0892c6e580e0872c6e534e0852c6e4ace0832c6e4a4e080cc70760e4bf2c7074ce4bd2c70734e4bb2c7071ce4b92c70708e4b72c706f4e4b52c706e0e4b32c706c8e4b12c706d0e4af2c706ace4ad2c70690e4ab2c70678e4a92c70668e4a72c706b0e4a52c70640e4a32c70648e4a12c70620e49f2c70738e49d2c705f0e49b2c705f8e4992c705d0e4972c7073ce4952c704e0e4932c70494e4912c7046ce48f2c70458e48d2c7044ce48b2c704f0e4892c70424e4872c70410e4852c70280e4832c70274e480cc7166ce8bf2c71660e8bd2c71648e8bb2c71634e8b92c7161ce8b72c7160ce8b52c71600e8b32c715e4e8b12c715cce8af2c715b8e8ad2c715a8e8ab2c71594e8a92c71670e8a72c71494e8a52c71498e8a32c71468e8a12c71458e89f2c)
  (.lf 0))) (.nd (.nd (.lf
  0x5c580ff27805c540ff2b405c5c0ff23005c440ff07805c400ff0b405c480ff03005c300fee7805c2c0feeb405c340fee3005c1c0fec7805c180fecb405c200fec3005c080fea7805c040feab405c0c0fea3005bf40fe87805bf00fe8b405bf80fe83005be00fe67805bdc0fe6b405be40fe63005bcc0fe47805bc80fe4b405bd00fe43005bb80fe27805bb40fe2b405bbc0fe23005ba40fe07805ba00fe0b405ba80fe03005b900fde7805b8c0fdeb405b940fde3005b7c0fdc7805b780fdcb405b800fdc3005b680fda7805b640fdab405b6c0fda3005b540fd87805b500fd8b405b580fd83005b400fd67805b3c0fd6b405b440fd63005b2c0fd47805b280fd4b405b300fd43005b180fd27805b140fd2b405b1c0fd23005b040fd07805b000fd0b405b080fd03005af00fce7805aec0fceb405af40fce3005adc0fcc7805ad80fccb405ae00fcc3005ac80fca7805ac40fcab405acc0fca3005ab40fc878)
  (.lf 0)) (.nd (.lf
  0x71db8e666cc71d28e664cc71d0ce662cc71cf8e660cc71cd4e65ecc71d2ce65ccc71bcce65acc71b4ce658cc71ac8e656cc71ab0e654cc71a4ce652cc719e4e650cc719d4e64ecc7222ce64ccc7193ce64acc718c4e648cc718c0e646cc718b4e644cc71870e642cc721e8e67dd0721d4e67bd0721b8e679d0721a4e677d072190e675d07217ce673d071f38e671d071efce66fd071ee8e66dd071e68e66bd071e54e669d071e40e667d071d9ce665d071d88e663d071d74e661d071d60e65fd071cc0e65dd071bc8e65bd071b44e659d071b08e657d071ac0e655d071a6ce653d071a18e651d071a04e64fd0719a0e64dd071948e64bd071914e649d071904e647d0718f0e645d0718dce643d071874e641107903ce6fecc79024e6fccc79010e6facc78ff4e6f8cc78fd4e6f6cc78fbce6f4cc7918ce6f2cc791c0e6f0cc78f7ce6eecc78f40e6eccc78f54e6eacc78ea4e6e8cc78eb0e6e6cc78ea8e6e4cc)
  (.lf 0)))

def shaWireTree87 : BTree :=
  .nd (.nd (.nd (.lf
  0x4c5b09fd4784c5b49fd4b44c5b89fd4304c5989fd2784c5949fd2b44c59c9fd2304c5849fd0784c5889fd0b44c58c9fd0304c5749fce784c5789fceb44c57c9fce304c5649fcc784c5609fccb44c5689fcc304c54c9fca784c5509fcab44c5549fca304c5349fc8784c53c9fc8b44c5409fc8304be209fc6784c5289fc6b44c52c9fc6304bca49fc4784be149fc4b44be189fc4304bb249fc2784bc909fc2b44bc9c9fc2304ea5ca2bc784ea60a2bcb44ea64a2bc304ea4ca2ba784ea48a2bab44ea50a2ba304ea2ca2b8784ea38a2b8b44ea3ca2b8304ea1ca2b6784ea20a2b6b44ea24a2b6304ea10a2b4784ea08a2b4b44ea14a2b4304e9f8a2b2784e9f4a2b2b44e9fca2b2304e9e8a2b0784e9e0a2b0b44e9eca2b0304e9d4a2ae784e9c8a2aeb44e9d8a2ae304e9bca2ac784e9b8a2acb44e9c0a2ac304e9a8a2aa784e9aca2aab44e9b0a2aa304e99ca2a8784e998a2a8b44e9a0a2a8304e980a2a678)
  (.lf 0)) (.nd (.lf
  0x4b8c1a532c04b001a512c04a741a4f2c049e81a4d2c049701a4b2c048f01a492c0485c1a472c047d01a452c047441a432c046f01a40cc06ff41e7f2c06fa81e7d2c06f3c1e7b2c06edc1e792c06e601e772c06e001e752c06d981e732c06d1c1e712c06ca81e6f2c06c481e6d2c06bcc1e6b2c06b581e692c06af81e672c06a7c1e652c06a1c1e632c069a01e612c0692c1e5f2c068b81e5d2c068581e5b2c067dc1e592c067681e572c067081e552c0668c1e532c066181e512c065a41e4f2c065441e4d2c064c81e4b2c064681e492c064001e472c063841e452c063241e432c062541e40cc088d4227f2c08888227d2c08800227b2c0877422792c086e822772c0867022752c085f022732c0855c22712c084e4226f2c08450226d2c083d8226b2c0834422692c082cc22672c0823822652c081ac22632c0813422612c080a0225f2c08014225d2c07f9c225b2c07f1c22592c07e9c22572c07e1c22552c)
  (.lf 0))) (.nd (.nd (.lf
  0x45800028810458400287f0458800287d0458c00287b0459000287904594002877045980028750459c002873045a0002871045a400286f045a800286d045ac00286b045b0002869045b4002867045b8002865045bc002863045c000286105e4c00285f05e5000285d05e5400285b05e5800285905e5c00285705e6000285505e6400285305e6800285105e6c00284f05e7000284d05e7400284b05e7800284905e7c00284705e8000284505e8400284305e8800284105e8c00283f05e9000283d05e9400283b05e9800283905e9c00283705ea000283505ea400283305ea800283105eac00282f05eb000282d05eb400282b05eb800282905ebc00282705ec000282505ec400282305ec80028210775800281f0775c00281d0776000281b07764002819077680028170776c00281507770002813077740028110777800280f0777c00280d0778000280b07784002809077880028070778c00280507790002803)
  (.lf 0)) (.nd (.lf
  0x6bab4d428cc6bb70d426cc6bb68d424cc6ba50d422cc6ba3cd420cc6bb6cd41ecc6ba14d41ccc6b9f4d41acc6b9d4d418cc6b9c0d416cc6b9a4d414cc6b98cd412cc6b974d410cc6b9e4d40ecc6bb60d40ccc6bb64d40acc6b920d408cc6b9a8d406cc6b8f0d404cc6bbb8d402cc6c47cd43dd06c464d43bd06c44cd439d06c434d437d06c41cd435d06c404d433d06c3ecd431d06c3d4d42fd06c354d42dd06c334d42bd06c324d429d06c314d427d06c2fcd425d06c2c4d423d06c2b4d421d06c284d41fd06c254d41dd06c224d41bd06c1ccd419d06c1bcd417d06c190d415d06c164d413d06c0ccd411d06bef0d40fd06bee0d40dd06be64d40bd06bde0d409d06bd50d407d06bcd8d405d06bc34d403d06b888d4011069b94d8becc69b9cd8bccc69ba4d8bacc69bacd8b8cc69bb4d8b6cc69bbcd8b4cc69bc4d8b2cc69bccd8b0cc69bd4d8aecc69bdcd8accc69d28d8aacc69d30d8a8cc69c24d8a6cc)
  (.lf 0)))

def shaWireTree88 : BTree :=
  .nd (.nd (.nd (.lf
  0x2ee2871bf2c2ee1471bd2c2ee2c71bb2c2ee3071b92c2ede071b72c2edd471b52c2edb871b32c2eda471b12c2ed9071af2c2eea071ad2c2ed3071ab2c2ed1c71a92c2ed0c71a72c2ecf471a52c2ece071a32c2eccc71a12c2ec64719f2c2ec58719d2c2ec48719b2c2ec2871992c2ec1471972c2ec0071952c2ebe471932c2eb9871912c2eb84718f2c2ebc0718d2c2ebac718b2c2eb6071892c2e9ec71872c2eb7071852c2e98071832c2e98c7180cc30a5c75bf2c30a4875bd2c30a3475bb2c30a2075b92c30a0c75b72c309f875b52c3076c75b32c306ec75b12c3066c75af2c305ec75ad2c3056c75ab2c304e475a92c3045875a72c303d475a52c3035475a32c302d475a12c3024c759f2c301c0759d2c30134759b2c300b075992c3003075972c2ffb075952c2ff2875932c2fe9c75912c2fe18758f2c2fd98758d2c2fd10758b2c2fc8475892c2fc0075872c309e875852c2faf475832c309e07580cc)
  (.lf
  0x27d345034cc27c985032cc27bf85030cc27b54502ecc27ab0502ccc27a0c502acc279705028cc278d05026cc278345024cc2779c5022cc276fc5020cc27660501ecc275c8501ccc27528501acc2748c5018cc273ec5016cc273485014cc272ac5012cc272145010cc2717c500ecc270dc500ccc27038500acc26f9c5008cc26efc5006cc26e585004cc26db45002cc28020503dd027f98503bd027ef85039d027e5c5037d027dbc5035d027d185033d027c7c5031d027bdc502fd027b38502dd027a94502bd0279f05029d0279545027d0278b45025d0278185023d0277805021d0276e0501fd027644501dd0275ac501bd02750c5019d0274705017d0273d05015d02732c5013d0272905011d0271f8500fd027160500dd0270c0500bd02701c5009d026f805007d026ee05005d026e3c5003d026d705001101b7f454becc1b7fc54bccc1b80454bacc1b80c54b8cc1b81454b6cc1b81c54b4cc1b82454b2cc))
  (.nd (.lf
  0x81078fba0b480fb8fb9eb480eacfb9cb480e84fb9ab480e58fb98b480e30fb96b480e08fb94b480ddcfb92b480dc4fb90b480db4fb8eb480d70fb8cb480ed8fb8ab47f478fb88b47f40cfb86b47f2f4fb84b47f298fb82b47f03cfb80b47ec7cfbbe787ec60fbbc787ebfcfbba787eb3cfbb8787eb08fbb6787ebd4fbb4787ecfcfbb2787ea7cfbb0787ea4cfbae787ea2cfbac787ea04fbaa787ece0fba8787e724fba6787e704fba4787e70cfba2787e7e4fba0787e68cfb9e787e664fb9c787e63cfb9a787e5d8fb98787e5c0fb96787e34cfb94787e304fb92787e224fb90787e1e8fb8e787e228fb8c787dc4cfb8a787dc68fb88787db20fb86787d544fb84787d424fb82787d588fb807881364fbbe3081318fbbc30812f0fbba30812b8fbb830813b4fbb63081624fbb4308124cfbb23081208fbb030811c8fbae3081180fbac30814fcfbaa30810f0fba83081510fba6308101cfba43081060fba230)
  (.lf 0))) (.nd (.nd (.lf
  0x327ac6af8b4327406af878327b06af830327346af6b4326d06af678327386af630326c46af4b4326646af478326c86af430326586af2b4325f46af2783265c6af230325e86af0b43257c6af078325ec6af030325706aeeb4324fc6aee78325746aee30324f06aecb43247c6aec78324f46aec30324706aeab4323fc6aea78324746aea30323f06ae8b43237c6ae878323f46ae830323706ae6b4322fc6ae678323746ae630322f06ae4b4322806ae478322f46ae430322746ae2b4321f86ae278322786ae230321ec6ae0b43216c6ae078321f06ae030321606adeb4320e86ade78321646ade30320dc6adcb4320686adc78320e06adc303205c6adab431fe06ada78320606ada3031fd46ad8b431f5c6ad87831fd86ad83031f506ad6b431edc6ad67831f546ad63031ed06ad4b431e546ad47831ed46ad43031e486ad2b431dc86ad27831e4c6ad23031dbc6ad0b431d3c6ad07831dc06ad03031d306aceb4)
  (.lf 0)) (.nd (.lf
  0xaa4c006f730aa54006f710aa5c006f6f0aa64006f6d0aa6c006f6b0aa74006f690aa7c006f670aa84006f650aa8c006f630aa94006f610c248006f5f0c250006f5d0c258006f5b0c260006f590c268006f570c270006f550c278006f530c280006f510c288006f4f0c290006f4d0c298006f4b0c2a0006f490c2a8006f470c2b0006f450c2b8006f430c2c0006f410c2c8006f3f0c2d0006f3d0c2d8006f3b0c2e0006f390c2e8006f370c2f0006f350c2f8006f330c300006f310c308006f2f0c310006f2d0c318006f2b0c320006f290c328006f270c330006f250c338006f230c340006f210db3c006f1f0db44006f1d0db4c006f1b0db54006f190db5c006f170db64006f150db6c006f130db74006f110db7c006f0f0db84006f0d0db8c006f0b0db94006f090db9c006f070dba4006f050dbac006f030dbb4006f010dbbc006eff0dbc4006efd0dbcc006efb0dbd4006ef90dbdc006ef70dbe4006ef5)
  (.lf 0)))

def shaWireTree89 : BTree :=
  .nd (.nd (.nd (.lf
  0x824d4fb3aaa824f0fb38aa81de8fb36aa81dd4fb34aa81ce8fb32aa81cb4fb2eaa81ca4fb2caa81c94fb2aaa81c9cfb28aa81db0fb26aa81cf8fb20aa81bbcfb1eaa81b54fb1aaa80818fb12aa807f4fb10aa8086cfb0eaa80860fb0caa806acfb0aaa806bcfb08aa80614fb04aa809ccfb02aa82520fb3d40824f8fb39f481fb4fb37f481f84fb35f481f6cfb33f481f54fb314081f24fb2df481f0cfb2bf481efcfb29f481eecfb27f481edcfb254081e00fb1ff481bd0fb1d4080b64fb194080b20fb11f480b08fb0ff480af0fb0df480ad4fb0bf480ac0fb09f480a54fb0740809bcfb03f482514fb3bf48251cfb3ca0824fcfb3a1e8250cfb3ab482510fb3a1481fb8fb381e824c0fb38b4824f4fb381481f94fb361e81facfb36b481fb0fb361481f70fb341e81f7cfb34b481f80fb341481f58fb321e81f60fb32b481f68fb321481f34fb2ff481f50fb30a081f28fb2e1e81f2cfb2eb481f30fb2e14)
  (.lf 0)) (.nd (.lf
  0xd7e423dd2c0d7d023db2c0d7bc23d92c0d7a823d72c0d79423d52c0d78023d32c0d76c23d12c0d75823cf2c0d74423cd2c0d73023cb2c0d71c23c92c0d70823c72c0d6f423c52c0d6e023c32c0d6dc23c0cc0f1d427ff2c0f1c027fd2c0f1ac27fb2c0f19827f92c0f18427f72c0f17027f52c0f15c27f32c0f14827f12c0f13427ef2c0f12027ed2c0f10c27eb2c0f0f827e92c0f0e427e72c0f0d027e52c0f0bc27e32c0f0a827e12c0f09427df2c0f08027dd2c0f06c27db2c0f05827d92c0f04427d72c0f03027d52c0f01c27d32c0f00827d12c0eff427cf2c0efe027cd2c0efcc27cb2c0efb827c92c0efa427c72c0ef9027c52c0ef7c27c32c0ef7827c0cc10a7c2bff2c10a682bfd2c10a542bfb2c10a402bf92c10a2c2bf72c10a182bf52c10a042bf32c109f02bf12c109dc2bef2c109c82bed2c109b42beb2c109a02be92c1098c2be72c109782be52c109642be32c109502be12c1093c2bdf2c)
  (.lf 0))) (.nd (.nd (.lf
  0x5c4f4b806b45c4f0b806785c510b806305c4d0b804b45c4ccb804785c4e8b804305c2c4b802b45c4c0b802785c4c4b802305b2e0bcbcb45b2dcbcbc785b2e4bcbc305b2ccbcbab45b2c4bcba785b2d0bcba305b2b4bcb8b45b2b0bcb8785b2b8bcb8305b2a4bcb6b45b2a0bcb6785b2a8bcb6305b28cbcb4b45b288bcb4785b290bcb4305b274bcb2b45b270bcb2785b278bcb2305b264bcb0b45b258bcb0785b268bcb0305b24cbcaeb45b248bcae785b250bcae305b238bcacb45b234bcac785b23cbcac305b228bcaab45b21cbcaa785b22cbcaa305b210bca8b45b20cbca8785b214bca8305b200bca6b45b1fcbca6785b204bca6305b1f0bca4b45b1ecbca4785b1f4bca4305b1dcbca2b45b1d8bca2785b1e0bca2305b1c8bca0b45b1bcbca0785b1ccbca0305b1b0bc9eb45b1acbc9e785b1b4bc9e305b1a0bc9cb45b19cbc9c785b1a4bc9c305b18cbc9ab45b188bc9a785b190bc9a305b170bc98b4)
  (.lf 0)) (.nd (.lf
  0x4029c86aecc402a486accc402ac86aacc402b486a8cc402bc86a6cc402c486a4cc402cc86a2cc402d486a0cc402dc869ecc402e4869ccc402ec869acc402f48698cc402fc8696cc403048694cc4030c8692cc403148690cc4031c868ecc40324868ccc4032c868acc403348688cc4033c8686cc403448684cc4034c8682cc407b086bdd0407a086bbd04078c86b9d04077886b7d04076486b5d04075486b3d04074086b1d04073086afd04071c86add04070886abd0406f486a9d0406e086a7d0406d086a5d0406bc86a3d0406a886a1d040694869fd040680869dd04066c869bd04065c8699d0406488697d0406348695d0406208693d04060c8691d0405f8868fd0405e4868dd0403b8868bd0403a48689d0403948687d0403808685d04036c8683d04035486811041a04867ecc41a08867ccc41a0c867acc41a348678cc419a08676cc4198c8674cc419fc8672cc419ec8670cc419f0866ecc419f8866ccc)
  (.lf 0)))

def shaWireTree90 : BTree :=
  .nd (.nd (.nd (.lf
  0x5440cb99430543d4b99278543a0b992b4543d8b9923054394b9907854378b990b454398b990305436cb98e7853f50b98eb454370b98e3053f44b98c7853e30b98cb453f48b98c3053e24b98a7853df0b98ab453e28b98a3053de4b9887853cecb988b453de8b9883053ce0b9867853cdcb986b453ce4b9863053cd0b9847853c88b984b453cd4b9843053c7cb9827853c78b982b453c80b982305715cbd7c785706cbd7cb457160bd7c305700cbd7a7857008bd7ab457010bd7a3056f3cbd787856fc8bd78b456fecbd783056e58bd767856f30bd76b456f34bd763056dd4bd747856e4cbd74b456e50bd743056d44bd727856dc8bd72b456dccbd723056c74bd707856d14bd70b456d18bd703056bfcbd6e7856c3cbd6eb456c6cbd6e3056be8bd6c7856bf0bd6cb456bf4bd6c3056bb0bd6a7856bdcbd6ab456be0bd6a3056ba4bd687856b7cbd68b456ba8bd683056b70bd667856b6cbd66b456b74bd6630)
  (.lf 0)) (.nd (.lf
  0x1fb94401d2c1fad0401b2c1fa1840192c1f95840172c1f8a040152c1f7e840132c1f72c40112c1f668400f2c1f5a8400d2c1f4ec400b2c1f43840092c1f38040072c1f2bc40052c1f1ec40032c1f18c4000cc1a6c4443f2c1a688443d2c1a644443b2c1a60044392c1a5bc44372c1a57844352c1a53444332c1a4f044312c1a4ac442f2c1a468442d2c1a424442b2c1a3e044292c1a39c44272c1a35844252c1a31444232c1a2d044212c1a28c441f2c1a248441d2c1a204441b2c1a1c044192c1a17c44172c1a13844152c1a0f444132c1a0b044112c1a06c440f2c1a028440d2c19fe4440b2c19fa044092c19f5c44072c19f1844052c19ed444032c19eb84400cc243b0483f2c24338483d2c242b0483b2c2422848392c2419848372c2410448352c2407448332c23fe448312c23f54482f2c23ec4482d2c23e3c482b2c23db448292c23d2c48272c23ca448252c23c1c48232c23b8c48212c23af8481f2c)
  (.lf 0))) (.nd (.nd (.lf
  0x7af42248b407a7422487807af822483007a682246b4079e422467807a6c224630079d82244b407968224478079dc2244300795c2242b407908224278079602242300eb4022fcb40ebb022fc780ebb422fc300eabc22fab40eb3422fa780eb3822fa300ea3422f8b40eab022f8780eab422f8300e9a822f6b40ea2822f6780ea2c22f6300e92422f4b40e99c22f4780e9a022f4300e8a422f2b40e91822f2780e91c22f2300e82422f0b40e89822f0780e89c22f0300e7a422eeb40e81822ee780e81c22ee300e72422ecb40e79822ec780e79c22ec300e6a422eab40e71822ea780e71c22ea300e62422e8b40e69822e8780e69c22e8300e5a422e6b40e61822e6780e61c22e6300e51c22e4b40e59822e4780e59c22e4300e49022e2b40e51022e2780e51422e2300e40422e0b40e48422e0780e48822e0300e37822deb40e3f822de780e3fc22de300e2f422dcb40e36c22dc780e37022dc300e26c22dab4)
  (.lf 0)) (.nd (.lf
  0x67341d96cc066ec1d94cc066581d92cc065e41d90cc065701d8ecc065281d8ccc064941d8acc0644c1d88cc063e41d86cc063501d84cc063081d82cc06f8c1dbdd006f181dbbd006ea01db9d006e3c1db7d006dc41db5d006d5c1db3d006cf81db1d006c841dafd006c0c1dadd006ba81dabd006b341da9d006abc1da7d006a581da5d0069e01da3d00697c1da1d0069081d9fd0068941d9dd00681c1d9bd0067b81d99d0067441d97d0066cc1d95d0066681d93d0065f41d91d0065801d8fd0065081d8dd0064a41d8bd00642c1d89d0063c41d87d0063601d85d0062e81d83d0062381d8110088c8217ecc0885c217ccc087e4217acc087582178cc086cc2176cc0863c2174cc085bc2172cc085402170cc084b0216ecc08434216ccc083a4216acc083282168cc082982166cc0821c2164cc081902162cc081002160cc08084215ecc07ff8215ccc07f68215acc07ee82158cc07e682156cc07de82154cc)
  (.lf 0)))

def shaWireTree91 : BTree :=
  .nd (.nd (.nd (.lf
  0x58978b2ee785897cb2ee305894cb2ecb458968b2ec785896cb2ec30588f8b2eab4588fcb2ea7858900b2ea30588e4b2e8b4588e8b2e878588ecb2e830588d0b2e6b4588c8b2e678588d4b2e630588a8b2e4b4588a0b2e478588acb2e43058840b2e2b45884cb2e27858898b2e2305882cb2e0b458834b2e07858838b2e03058820b2deb45881cb2de7858824b2de3058808b2dcb458804b2dc785880cb2dc30587ccb2dab4587c8b2da78587d0b2da3058780b2d8b458784b2d878587a0b2d83058754b2d6b458750b2d67858778b2d63058540b2d4b458528b2d47858748b2d43058500b2d2b4584e8b2d27858520b2d230584c0b2d0b4584a8b2d078584c4b2d0305849cb2ceb458468b2ce78584a0b2ce305845cb2ccb45840cb2cc7858460b2cc30583fcb2cab4583e4b2ca7858404b2ca30583d8b2c8b45839cb2c878583dcb2c8305834cb2c6b458334b2c67858350b2c630582e8b2c4b4582d0b2c478)
  (.lf 0)) (.nd (.lf
  0xaee01ad32c0ae5c1ad12c0add41acf2c0ad501acd2c0acc81acb2c0ac441ac92c0abc41ac72c0ab4c1ac52c0d3381eff2c0d2c81efd2c0d2401efb2c0d1bc1ef92c0d1341ef72c0d0b01ef52c0d0281ef32c0cf9c1ef12c0cf181eef2c0ce981eed2c0ce181eeb2c0cd901ee92c0cd041ee72c0cc781ee52c0cbf41ee32c0cb741ee12c0caf41edf2c0ca6c1edd2c0c9e81edb2c0c9601ed92c0c8d41ed72c0c8481ed52c0c7bc1ed32c0c7381ed12c0c6b01ecf2c0c6241ecd2c0c5a01ecb2c0c5181ec92c0c4941ec72c0c40c1ec52c0c3881ec32c0c3501ec0cc0ebd422ff2c0eb5c22fd2c0ead822fb2c0ea5022f92c0e9c422f72c0e94022f52c0e8c022f32c0e84022f12c0e7c022ef2c0e74022ed2c0e6c022eb2c0e64022e92c0e5c022e72c0e53822e52c0e4ac22e32c0e42022e12c0e39422df2c0e31022dd2c0e28822db2c0e20422d92c0e17c22d72c0e0f822d52c0e07022d32c0dfec22d12c)
  (.lf 0))) (.nd (.nd (.lf
  0x1f4d44048781f4dc4048301f4244046b41f4204046781f4284046301f36c4044b41f3684044781f3704044301f2a84042b41f2a44042781f2ac404230207d4403cb420738403c78207d8403c302072c403ab420674403a7820730403a30206684038b4205bc4038782066c403830205b04036b420504403678205b4403630204f84034b420448403478204fc4034302043c4032b42038c40327820440403230203804030b4202d840307820384403030202cc402eb420218402e78202d0402e302020c402cb420160402c7820210402c3020154402ab4200a8402a7820158402a302009c4028b41ffec402878200a04028301ffe04026b41ff284026781ffe44026301ff1c4024b41fe704024781ff204024301fe644022b41fdb04022781fe684022301fda44020b41fcf04020781fda84020301fce4401eb41fc34401e781fce8401e301fc28401cb41fb78401c781fc2c401c301fb6c401ab41fab4401a78)
  (.lf 0)) (.nd (.lf
  0x130802e4cc012c802e2cc0128c02e0cc0125402decc0121c02dccc011dc02dacc011a002d8cc0116002d6cc0111c02d4cc010d802d2cc0109402d0cc0105002cecc0101402cccc00fdc02cacc00f9c02c8cc00f6c02c6cc00f4002c4cc00f1402c2cc015f402fdd0015b402fbd00157802f9d00154002f7d00150802f5d0014d002f3d00149002f1d00145402efd00141402edd0013d802ebd0013a002e9d00136802e7d00132802e5d0012ec02e3d0012ac02e1d00127002dfd00123802ddd00120002dbd0011c002d9d00118402d7d00114402d5d00110002d3d0010bc02d1d00107802cfd00103402cdd000ff802cbd000fc002c9d000f8002c7d000f5002c5d000f2402c3d000f0402c110015d8033caa014b40332aa01438032eaa0134c0326aa012d00322aa011e4031aaa011680316aa011240314aa010e00312aa0109c0310aa01058030eaa00fa40308aa015e8033df4015a4033b4001480033140)
  (.lf 0)))

def shaWireTree92 : BTree :=
  .nd (.nd (.nd (.lf
  0x83df410707883df81070b483dfc10703083dd8106e7883de8106eb483dec106e3083dc4106c7883dc8106cb483dcc106c3083db8106a7883db4106ab483dbc106a3083da410687883da81068b483dac10683083d9410667883d981066b483d9c10663083d7410647883d781064b483d8810643083d6410627883d681062b483d6c10623083d5410607883d581060b483d5c10603082e3c105e7882e40105eb482e44105e3082e24105c7882e2c105cb482e30105c3082e14105a7882d88105ab482e18105a3082d7410587882d401058b482d7810583082d2810567882d301056b482d3410563082d1c10547882d181054b482d2010543082ca410527882b301052b482ca810523082b0410507882aa41050b482b0810503082a90104e788299c104eb482a94104e3082988104c78828d4104cb482994104c30828c8104a78828c4104ab4828cc104a30828b4104878828b01048b4828b8104830828a0104678)
  (.lf 0)) (.nd (.lf
  0x225c04fa078225c44f9e78225c84f9c78225cc4f9a78225d04f9878225d44f9678225d84f9478225ec4f9278222b44f9078222904f8e782226c4f8c78222484f8a78222244f8878222004f8678221dc4f8478221b84f8278221544f807824b3c4fbe3024b404fbc3024b444fba3024b484fb83024b4c4fb63024a884fb430248fc4fb230249004fb030249044fae30249084fac302490c4faa30249104fa830249144fa630249184fa4302491c4fa230249204fa030249244f9e30249284f9c30247c84f9a30247544f9830247584f96302475c4f9430247604f9230247644f9030247684f8e30246bc4f8c30244044f8a30244084f88302440c4f8630244104f8430244144f8230244184f8030263b453beb4263b853bcb4263bc53bab4263c053b8b4263c453b6b42631853b4b4261c053b2b4261c453b0b4261c853aeb4261cc53acb4261d053aab4261d453a8b42612053a6b42609c53a4b4260a053a2b4)
  (.lf 0))) (.nd (.nd (.lf
  0x19ee446423021cf846fcb421d2c46fc7821d3046fc3021cb446fab421cec46fa7821cf046fa3021c7846f8b421ca846f87821cac46f83021c3846f6b421c6c46f67821c7046f63021bf446f4b421c2c46f47821c3046f43021bb046f2b421be846f27821bec46f23021b6c46f0b421ba446f07821ba846f03021b2846eeb421b6046ee7821b6446ee3021aec46ecb421b1c46ec7821b2046ec3021aac46eab421ae046ea7821ae446ea3021a6846e8b421aa046e87821aa446e83021a2446e6b421a5c46e67821a6046e630219e046e4b421a1846e47821a1c46e4302199c46e2b4219d446e278219d846e2302196046e0b42199046e0782199446e0302192846deb42195446de782195846de30218e846dcb42191c46dc782192046dc30218ac46dab4218dc46da78218e046da302187446d8b4218a046d878218a446d8302183c46d6b42186846d6782186c46d630217fc46d4b42183046d4782183446d430)
  (.lf 0)) (.nd (.lf
  0x46b8ca18ecc46b48a18ccc46b10a18acc46ab0a188cc46a3ca186cc46970a184cc46984a182cc48094a1bdd048080a1bbd04806ca1b9d048058a1b7d047fa8a1b5d047f94a1b3d047f84a1b1d047f70a1afd047f5ca1add047f48a1abd047f34a1a9d047f20a1a7d047f0ca1a5d047ef8a1a3d047ee4a1a1d047ed0a19fd047ebca19dd047ea8a19bd047e7ca199d047e68a197d046fc0a195d046faca193d046f98a191d046f84a18fd046f70a18dd046b08a18bd046abca189d046a78a187d0469a8a185d046994a183d046660a18110497e0a57ecc497c4a57ccc497c8a57acc497e4a578cc49788a576cc497f0a574cc49914a572cc49748a570cc49730a56ecc49804a56ccc495f8a56acc495b4a568cc49550a566cc49520a564cc4952ca562cc492f4a560cc492e0a55ecc492e4a55ccc492aca55acc492a4a558cc492eca556cc492f0a554cc4930ca552cc49260a550cc4923ca54ecc49190a54ccc)
  (.lf 0)))

def shaWireTree93 : BTree :=
  .nd (.nd (.nd (.lf
  0x6c78cd71aaa6c788d716aa6c11cd712aa6be98d70caa6bcfcd706aa6d364d73c1e6d394d73cb46d3a0d73c146d2b0d739406d354d73aa06d268d737f46d2acd738a06d1a8d7361e6d260d736b46d264d736146cf7cd7341e6d19cd734b46d1a0d734146cf44d7321e6cf70d732b46cf74d732146cf04d72ff46cf3cd730a06cde0d72e1e6ceecd72eb46cef0d72e146cdd0d72c1e6cdd4d72cb46cdd8d72c146cd4cd729f46cdc8d72aa06ccacd7281e6cd44d728b46cd48d728146cc40d7261e6cca0d726b46cca4d726146cb00d723406cc38d724a06cae4d721406cafcd722a06cab0d71ff46cae0d720a06c7d4d71e1e6caa8d71eb46caacd71e146c7bcd71bf46c7ccd71ca06c7b4d71a1e6c7b0d71ab46c7b8d71a146c790d717f46c7a0d718a06c6fcd7161e6c780d716b46c784d716146c13cd713f46c6f4d714a06bf80d7121e6c114d712b46c118d712146bf50d70f406bf74d710a06beb4d70df4)
  (.lf 0)) (.nd (.lf
  0xd664005efd0d66c005efb0d674005ef90d67c005ef70d684005ef50d68c005ef30d694005ef10d69c005eef0d6a4005eed0d6ac005eeb0d6b4005ee90d6bc005ee70d6c4005ee50d6cc005ee30d6d4005ee10ee78005edf0ee80005edd0ee88005edb0ee90005ed90ee98005ed70eea0005ed50eea8005ed30eeb0005ed10eeb8005ecf0eec0005ecd0eec8005ecb0eed0005ec90eed8005ec70eee0005ec50eee8005ec30eef0005ec10eef8005ebf0ef00005ebd0ef08005ebb0ef10005eb90ef18005eb70ef20005eb50ef28005eb30ef30005eb10ef38005eaf0ef40005ead0ef48005eab0ef50005ea90ef58005ea70ef60005ea50ef68005ea30ef70005ea110720005e9f10728005e9d10730005e9b10738005e9910740005e9710748005e9510750005e9310758005e9110760005e8f10768005e8d10770005e8b10778005e8910780005e8710788005e8510790005e8310798005e81107a0005e7f)
  (.lf 0))) (.nd (.nd (.lf
  0x3da707c26303da287c24b43d9f07c24783da2c7c24303d9e47c22b43d9ac7c22783d9e87c22303d9a07c20b43d9687c20783d9a47c20303d95c7c1eb43d9207c1e783d9607c1e303d9147c1cb43d8d87c1c783d9187c1c303d8cc7c1ab43d8907c1a783d8d07c1a303d8847c18b43d8487c18783d8887c18303d83c7c16b43d8007c16783d8407c16303d7f47c14b43d7b87c14783d7f87c14303d7ac7c12b43d7707c12783d7b07c12303d7647c10b43d7287c10783d7687c10303d71c7c0eb43d6e07c0e783d7207c0e303d6d47c0cb43d69c7c0c783d6d87c0c303d6907c0ab43d6547c0a783d6947c0a303d6487c08b43d60c7c08783d64c7c08303d6007c06b43d5c87c06783d6047c06303d5bc7c04b43d5847c04783d5c07c04303d5787c02b43d54c7c02783d57c7c02303bff880bcb43bff480bc783bffc80bc303bfd080bab43bfcc80ba783bfd480ba303bfa480b8b43bfa080b8783bfa880b830)
  (.lf 0)) (.nd (.lf
  0x1937c43edd01936843ebd01935443e9d01934043e7d01932c43e5d01931843e3d01930443e1d0192f043dfd0192dc43ddd0192c843dbd0192b443d9d0192a043d7d01928c43d5d01927843d3d01926443d1d01925043cfd01923c43cdd01922843cbd01921443c9d01920043c7d0191ec43c5d0191d843c3d0191c043c110214e446becc214ec46bccc214f446bacc214fc46b8cc2150446b6cc2150c46b4cc2151446b2cc2151c46b0cc2152446aecc2152c46accc2153446aacc2153c46a8cc2154446a6cc2154c46a4cc2155446a2cc2155c46a0cc21564469ecc2156c469ccc21574469acc2157c4698cc215844696cc2158c4694cc215944692cc2159c4690cc215a4468ecc215ac468ccc215b4468acc215bc4688cc215c44686cc215cc4684cc215d44682cc21d4446bdd021d0846bbd021cc446b9d021c8846b7d021c4846b5d021c0446b3d021bc046b1d021b7c46afd021b3846add021afc46abd0)
  (.lf 0)))

def shaWireTree94 : BTree :=
  .nd (.nd (.nd (.lf
  0x27ce06172b427ce461723027bb861707827c446170b427c4861703027b14616e7827ba8616eb427bac616e3027a70616c7827b04616cb427b0c616c30279cc616a7827a64616ab427a68616a3027930616878279bc6168b4279c061683027890616678279246166b427928616630277f4616478278846164b42788861643027758616278277e46162b4277e8616230276bc616078277486160b42774c61603027620615e78276b0615eb4276b4615e3027588615c7827614615cb427618615c30274e8615a782757c615ab427580615a3027444615878274d46158b4274d8615830273ac615678274386156b42743c61563027308615478273a06154b4273a46154302726c615278272f86152b4272fc615230271d46150782725c6150b4272606150302713c614e78271c8614eb4271cc614e302709c614c7827130614cb427134614c3026ff0614a7827088614ab42708c614a3026f5461487826fe46148b4)
  (.lf 0)) (.nd (.lf
  0x4c6e4003efd4c6ec003efb4c6f4003ef94c6fc003ef74c704003ef54c70c003ef34c714003ef14c71c003eef4c724003eed4c72c003eeb4c734003ee94c73c003ee74c744003ee54c74c003ee34c754003ee14ea78003edf4ea80003edd4ea88003edb4ea90003ed94ea98003ed74eaa0003ed54eaa8003ed34eab0003ed14eab8003ecf4eac0003ecd4eb20003ecb4eb28003ec94eb30003ec74eb38003ec54eb40003ec34eb48003ec14eb50003ebf4eb58003ebd4eb60003ebb4eb68003eb94eb70003eb74eb78003eb54eb80003eb34eb88003eb14eb90003eaf4eb98003ead4eba0003eab4eba8003ea94ebb0003ea74ebb8003ea54ebc0003ea34ebc8003ea14f848003e9f4f850003e9d4f858003e9b4f860003e994f868003e974f870003e954f878003e934f880003e914f888003e8f4f890003e8d4f8f0003e8b4f8f8003e894f900003e874f908003e854f910003e834f918003e814f920003e7f)
  (.lf 0))) (.nd (.nd (.lf
  0x744e4f8a478744ecf8a430744d8f8a2b4744d4f8a278744dcf8a230744b8f8a0b4744c0f8a078744c8f8a030744a8f89eb4744acf89e78744b0f89e3074494f89cb474498f89c787449cf89c3074480f89ab474484f89a7874488f89a3074470f898b474474f8987874478f8983074464f896b474460f8967874468f8963074450f894b4743e4f8947874454f8943074388f892b4743d4f89278743d8f892307433cf890b474374f8907874380f8903074328f88eb47432cf88e7874334f88e3074318f88cb47431cf88c7874320f88c307430cf88ab474304f88a7874310f88a30742f4f888b4742f8f88878742fcf88830742e0f886b4742e4f88678742e8f88630742ccf884b4742d4f88478742d8f88430742c0f882b4742bcf88278742c4f88230756d4f87cb4756d0f87c78756d8f87c3075644f87ab4756c4f87a78756c8f87a3075630f878b475638f878787563cf87830755b4f876b4755b0f87678)
  (.lf 0)) (.nd (.lf
  0x626ecc68dd0626d8c68bd0626c8c689d062460c687d062324c685d0622c4c683d0621ccc6811063618c67ecc63600c67ccc635ecc67acc6396cc678cc635c0c676cc635a8c674cc63598c672cc63578c670cc63560c66ecc63544c66ccc63550c66acc6354cc668cc63504c666cc634fcc664cc634d4c662cc633ecc660cc633b4c65ecc63374c65ccc6334cc65acc632c8c658cc632ccc656cc632e8c654cc63270c652cc63234c650cc631d0c64ecc631c0c64ccc630b0c64acc630acc648cc62f58c646cc62cf8c644cc62bfcc642cc63e84c67dd063e6cc67bd063e54c679d063e3cc677d063e24c675d063e0cc673d063dfcc671d063de4c66fd063dccc66dd063d84c66bd063d70c669d063d5cc667d063d44c665d063cccc663d0633e8c661d0633c4c65fd063398c65dd063380c65bd06331cc659d063304c657d0632dcc655d063268c653d063218c651d0631b8c64fd063194c64dd063174c64bd0)
  (.lf 0)))

def shaWireTree95 : BTree :=
  .nd (.nd (.nd (.lf
  0x452b08e4278452b48e423045d748efcb445d6c8efc7845d788efc3045d5c8efab445d548efa7845d608efa3045d3c8ef8b445d408ef87845d4c8ef83045d248ef6b445d308ef67845d348ef63045d148ef4b445d188ef47845d1c8ef43045d088ef2b445d048ef27845d0c8ef23045ce48ef0b445cf08ef07845cf48ef03045cd88eeeb445cd48eee7845cdc8eee3045cc48eecb445cbc8eec7845cc88eec3045ca48eeab445cb08eea7845cb48eea3045c988ee8b445c948ee87845c9c8ee83045c808ee6b445b2c8ee67845c848ee63045b1c8ee4b445b208ee47845b248ee43045b0c8ee2b445b048ee27845b108ee23045af88ee0b445af48ee07845afc8ee03045ae48edeb445ae08ede7845ae88ede3045ad08edcb445acc8edc7845ad48edc3045ac08edab445a848eda7845ac48eda3045a788ed8b445a3c8ed87845a7c8ed83045a2c8ed6b4459548ed67845a308ed630459448ed4b4459488ed478)
  (.lf 0)) (.nd (.lf
  0xaed81a932c0ae541a912c0adcc1a8f2c0ad481a8d2c0acc01a8b2c0ac3c1a892c0abbc1a872c0ab441a852c0aad01a832c0aa9c1a80cc0d3301ebf2c0d2c01ebd2c0d2381ebb2c0d1b41eb92c0d12c1eb72c0d0a81eb52c0d0201eb32c0cf941eb12c0cf101eaf2c0ce901ead2c0ce101eab2c0cd881ea92c0ccfc1ea72c0cc701ea52c0cbec1ea32c0cb6c1ea12c0caec1e9f2c0ca641e9d2c0c9e01e9b2c0c9581e992c0c8cc1e972c0c8401e952c0c7b41e932c0c7301e912c0c6a81e8f2c0c61c1e8d2c0c5981e8b2c0c5101e892c0c48c1e872c0c4041e852c0c3801e832c0c3481e80cc0ebcc22bf2c0eb5422bd2c0ead022bb2c0ea4822b92c0e9bc22b72c0e93822b52c0e8b822b32c0e83822b12c0e7b822af2c0e73822ad2c0e6b822ab2c0e63822a92c0e5b822a72c0e53022a52c0e4a422a32c0e41822a12c0e38c229f2c0e308229d2c0e280229b2c0e1fc22992c0e17422972c0e0f022952c)
  (.lf 0))) (.nd (.nd (.lf
  0x3eef48220503eef8821e503eefc821c503ef00821a503ef048218503ef088216503ef0c8214503ef108212503ef148210503ef18820e503ef1c820c503ef20820a503ef248208503ef288206503e42c8204503e3a48202503e3a88200503efa0863e783efa4863c783efa8863a783efac8638783efb08636783efb48634783efb88632783efbc8630783efc0862e783efc4862c783efc8862a783efcc8628783efd08626783efd48624783efd88622783efdc8620783efe0861e783efe4861c783efe8861a783efec8618783eff08616783eff48614783eff88612783effc8610783f000860e783f004860c783f008860a783f00c8608783f0108606783e4348604783e3b48602783e3b8860078400a0863e50400a4863c50400a8863a50400ac863850400b0863650400b4863450400b8863250400bc863050400c0862e50400c4862c50400c8862a50400cc862850400d0862650400d4862450400d8862250)
  (.lf 0)) (.nd (.lf
  0x539d4a82ccc539a8a82acc5397ca828cc53950a826cc53924a824cc538f8a822cc538cca820cc538a0a81ecc53874a81ccc53848a81acc5381ca818cc537f0a816cc537c4a814cc53798a812cc5376ca810cc53740a80ecc53714a80ccc536e8a80acc536bca808cc53690a806cc53664a804cc53638a802cc53b44a83dd053b18a83bd053aeca839d053ac0a837d053a94a835d053a68a833d053a3ca831d053a10a82fd0539e4a82dd0539b8a82bd05398ca829d053960a827d053934a825d053908a823d0538dca821d0538b0a81fd053884a81dd053858a81bd05382ca819d053800a817d0537d4a815d0537a8a813d05377ca811d053750a80fd053724a80dd0536f8a80bd0536cca809d0536a0a807d053674a805d053648a803d053628a80110530fcacbecc53104acbccc5310cacbacc53114acb8cc5311cacb6cc53124acb4cc5312cacb2cc53134acb0cc5313cacaecc53144acaccc531a4acaacc)
  (.lf 0)))

def shaWireTree96 : BTree :=
  .nd (.nd (.nd (.lf
  0x7b6f0f97f2c7b6bcf97d2c7b67cf97b2c7b5f8f9792c7b5c4f9772c7b598f9752c7b4a8f9732c7b448f9712c7b36cf96f2c7b3dcf96d2c7b3a4f96b2c7b304f9692c7b31cf9672c7b294f9652c7b234f9632c7b1fcf9612c7b160f95f2c7b198f95d2c7b164f95b2c7b1a4f9592c7b104f9572c7b11cf9552c7b034f9532c7b008f9512c7afc0f94f2c7af6cf94d2c7af4cf94b2c7af00f9492c7aec4f9472c7aea0f9452c7a4bcf9432c7a27cf940cc7cf04fd7f2c7ceacfd7d2c7ce7cfd7b2c7d87cfd792c7cde8fd772c7cdbcfd752c7cd64fd732c7cd18fd712c7ccc0fd6f2c7cc64fd6d2c7cc28fd6b2c7cc44fd692c7cbe8fd672c7cbccfd652c7cba8fd632c7cf40fd612c7cae0fd5f2c7c71cfd5d2c7c6b4fd5b2c7c624fd592c7c5ecfd572c7c5d4fd552c7c588fd532c7c650fd512c7c668fd4f2c7c508fd4d2c7c3a4fd4b2c7c38cfd492c7c388fd472c7c08cfd452c7bdd4fd432c7bda4fd40cc)
  (.lf
  0x237608850cc236d0884ecc23640884ccc235b0884acc235208848cc2348c8846cc233f48844cc2334c8842cc24388887dd024308887bd0242808879d0241f88877d0241688875d0240d48873d0240448871d023fb4886fd023f24886dd023e94886bd023e0c8869d023d848867d023cfc8865d023c748863d023bec8861d023b5c885fd023ac8885dd023a3c885bd0239b48859d0239248857d0238908855d0237fc8853d0237708851d0236e0884fd023650884dd0235c0884bd0235308849d02349c8847d0234048845d02335c8843d0232d08841103c968883ecc3c940883ccc3c914883acc3c8e88838cc3c8bc8836cc3c8908834cc3c8648832cc3c8388830cc3c80c882ecc3c7e0882ccc3c7b4882acc3c7888828cc3c75c8826cc3c7308824cc3c7048822cc3c6d88820cc3c6ac881ecc3c680881ccc3c654881acc3c6288818cc3c5fc8816cc3c5d08814cc3c5a48812cc3c5788810cc3c54c880ecc))
  (.nd (.lf
  0xd9782220500d97c221e500d980221c500d984221a500d9882218500d98c2216500d9902214500d9942212500d9982210500d99c220e500d9a0220c500d9a4220a500d9a82208500d9ac2206500d9b02204500d9b42202500d9b82200500da3c263e780da40263c780da44263a780da482638780da4c2636780da502634780da542632780da582630780da5c262e780da60262c780da64262a780da682628780da6c2626780da702624780da742622780da782620780da7c261e780da80261c780da84261a780da882618780da8c2616780da902614780da942612780da982610780da9c260e780daa0260c780daa4260a780daa82608780daac2606780dab02604780dab42602780dab82600780f1d8263e500f1dc263c500f1e0263a500f1e42638500f1e82636500f1ec2634500f1f02632500f1f42630500f1f8262e500f1fc262c500f200262a500f2042628500f2082626500f20c2624500f210262250)
  (.lf 0))) (.nd (.nd (.lf
  0x3fc6082bab43fc6882ba303fc2082b8783fc1c82b8b43fc2482b8303fbe082b6783fbdc82b6b43fbe482b6303fba482b4783fba082b4b43fba882b4303fb6082b2783fb5c82b2b43fb6482b2303fb1882b0783fb1482b0b43fb1c82b0303fad082ae783facc82aeb43fad482ae303fa8882ac783fa8482acb43fa8c82ac303fa4882aa783fa4482aab43fa4c82aa303fa0482a8783fa0082a8b43fa0882a8303f9bc82a6783f9b882a6b43f9c082a6303f97c82a4783f97882a4b43f98082a4303f93882a2783f93482a2b43f93c82a2303f8f082a0783f8ec82a0b43f8f482a0303f8a8829e783f8a4829eb43f8ac829e303f868829c783f864829cb43f86c829c303f82c829a783f828829ab43f830829a303f7f08298783f7ec8298b43f7f48298303f4bc8296783f4c08296b43f4c48296303f49c8294783f4a08294b43f4a48294303f4848292783f4888292b43f48c8292303f46c8290783f4708290b4)
  (.lf 0)) (.nd (.lf
  0x29fd05a13b029fd45a11b029fd85a0fb029fdc5a0db029fe05a0bb029fe45a09b029fe85a07b029fec5a05b029ff05a03b029ff45a01b02bfd05e3fb02bf8c5e3db02bf905e3bb02bf945e39b02bf985e37b02bf9c5e35b02bfa05e33b02be905e31b02be945e2fb02be985e2db02be9c5e2bb02bea05e29b02bea45e27b02bea85e25b02beac5e23b02beb05e21b02beb45e1fb02beb85e1db02bebc5e1bb02bec05e19b02bec45e17b02bd005e15b02bd045e13b02bd085e11b02bd0c5e0fb02bd105e0db02bd145e0bb02bd385e09b02b4dc5e07b02b4e05e05b02b4e45e03b02b4e85e01b02cefc623fb02cf00623db02cf04623bb02cf086239b02cf0c6237b02cf106235b02cf146233b02cf746231b02cf18622fb02cf1c622db02cf20622bb02cf246229b02cf286227b02cf2c6225b02cf306223b02cd706221b02cd74621fb02cd78621db02cd7c621bb02cd806219b02cd846217b02ccac6215b0)
  (.lf 0)))

def shaWireTree97 : BTree :=
  .nd (.nd (.nd (.lf
  0x133ac3db6b4134203db630133a03db4781331c3db4b4133a43db430133103db278132a03db2b4133143db230132943db078132103db0b4132983db030132043dae78131903daeb4132083dae30131843dac78131103dacb4131883dac30131043daa78130903daab4131083daa30130843da878130143da8b4130883da830130083da67812f883da6b41300c3da63012f7c3da47812ef83da4b412f803da43012eec3da27812e783da2b412ef03da23012e6c3da07812df83da0b412e703da03012dec3d9e7812d7c3d9eb412df03d9e3012d703d9c7812cf03d9cb412d743d9c3012ce43d9a7812c643d9ab412ce83d9a3012c583d987812bd83d98b412c5c3d983012bcc3d967812b4c3d96b412bd03d963012b403d947812abc3d94b412b443d943012ab03d927812a403d92b412ab43d923012a343d9078129b43d90b412a383d9030129a83d8e78129283d8eb4129ac3d8e301291c3d8c78128983d8cb4)
  (.lf 0)) (.nd (.lf
  0x4ef2c004afd4ef34004afb4ef3c004af94ef44004af74ef4c004af54ef54004af34ef5c004af14ef64004aef4ef6c004aed4ef74004aeb4ef7c004ae94ef84004ae74ef8c004ae54ef94004ae34ef9c004ae151184004adf5118c004add51194004adb51210004ad951218004ad751220004ad551228004ad351230004ad151238004acf51240004acd51248004acb51250004ac951258004ac751260004ac551268004ac351270004ac151278004abf51280004abd51288004abb51290004ab951298004ab7512a0004ab5512a8004ab3512b0004ab1512b8004aaf512c0004aad512c8004aab512d0004aa9512d8004aa7512e0004aa5512e8004aa3512f0004aa1534b0004a9f534b8004a9d534c0004a9b5353c004a9953544004a975354c004a9553554004a935355c004a9153564004a8f5356c004a8d53574004a8b5357c004a8953584004a875358c004a8553594004a835359c004a81535a4004a7f)
  (.lf 0))) (.nd (.nd (.lf
  0x70d04e0687870d14e0683070cf0e066b470cf4e0667870cf8e0663070ce0e064b470cd0e0647870ce4e0643070cc0e062b470cbce0627870cc4e0623070ca4e060b470cb0e0607870cb4e0603070c8ce05eb470c90e05e7870c9ce05e3070c6ce05cb470c70e05c7870c7ce05c3070c50e05ab470c54e05a7870c60e05a3070c40e058b470c44e0587870c48e0583070c30e056b470c2ce0567870c34e0563070c20e054b470c0ce0547870c24e0543070c00e052b470bfce0527870c04e0523070be8e050b470be4e0507870bece0503070bcce04eb470bd8e04e7870bdce04e3070bb4e04cb470bbce04c7870bc0e04c3070b54e04ab470b50e04a7870b58e04a3070af8e048b470b44e0487870b48e0483070aece046b470ae8e0467870af0e0463070adce044b470ad8e0447870ae0e0443070ac4e042b470aa0e0427870ac8e0423071348e03cb47134ce03c7871350e03c30711f4e03ab4711e8e03a78)
  (.lf 0)) (.nd (.lf
  0x54b2cae9fd054b18ae9dd054af8ae9bd054ae0ae99d054accae97d054abcae95d054aacae93d054a98ae91d054a84ae8fd054a70ae8dd054a5cae8bd054a48ae89d054a34ae87d054a20ae85d054870ae83d054808ae8110561e8ae7ecc55e6cae7ccc55e98ae7acc55eacae78cc55e60ae76cc55e68ae74cc55e80ae72cc55e90ae70cc55e8cae6ecc55e84ae6ccc55e94ae6acc55f00ae68cc55eb8ae66cc55e7cae64cc55e74ae62cc55e88ae60cc55e78ae5ecc55f04ae5ccc55ebcae5acc55efcae58cc56000ae56cc55f08ae54cc55ef8ae52cc55f88ae50cc55e70ae4ecc55e64ae4ccc55eb4ae4acc55ef4ae48cc562d4ae46cc55eb0ae44cc55ec0ae42cc562c0ae7dd0562a8ae7bd056298ae79d056280ae77d056268ae75d056250ae73d056238ae71d056220ae6fd056208ae6dd0561f0ae6bd0561b0ae69d056198ae67d056180ae65d056168ae63d056150ae61d056138ae5fd056120ae5dd0)
  (.lf 0)))

def shaWireTree98 : BTree :=
  .nd (.nd (.nd (.lf
  0x79ee4f5747879e10f574b479ee8f5743079e04f5727879e00f572b479e08f5723079df0f5707879df4f570b479df8f5703079de4f56e7879de0f56eb479de8f56e3079dd4f56c7879db8f56cb479dd8f56c3079d6cf56a7879d68f56ab479d70f56a3079d38f5687879d5cf568b479d60f5683079d14f5667879d10f566b479d30f5663079ce8f5647879cecf564b479d08f5643079cdcf5627879cc8f562b479ce0f5623079ca0f5607879cb8f560b479cbcf5603079c94f55e7879c8cf55eb479c98f55e3079c54f55c7879c70f55cb479c74f55c3079c48f55a7879c38f55ab479c4cf55a3079c04f5587879c20f558b479c24f5583079a94f5567879bf8f556b479bfcf5563079a5cf5547879a6cf554b479a8cf5543079a4cf5527879a50f552b479a54f55230798ccf55078798a0f550b479918f5503079878f54e787987cf54eb479888f54e3079868f54c7879864f54cb47986cf54c3079844f54a78)
  (.lf 0)) (.nd (.lf
  0x40a00fa078040a40f9e78040a80f9c78040ac0f9a78040b00f9878040b40f9678040b80f9478040bc0f9278040c00f9078040c40f8e78040c80f8c78040cc0f8a78040d00f8878040d40f8678040d80f8478040dc0f8278040e00f80780576c0fbe30057700fbc30057740fba30057780fb8300577c0fb630057800fb430057840fb230057880fb0300578c0fae30057900fac30057940faa30057980fa8300579c0fa630057a00fa430057a40fa230057a80fa030057ac0f9e30057b00f9c30057b40f9a30057b80f9830057bc0f9630057c00f9430057c40f9230057c80f9030057cc0f8e30057d00f8c30057d40f8a30057d80f8830057dc0f8630057e00f8430057e40f8230057e80f803006ff813beb406ffc13bcb40700013bab40700413b8b40700813b6b40700c13b4b40701013b2b40701413b0b40701813aeb40701c13acb40702013aab40702413a8b40702813a6b40702c13a4b40703013a2b4)
  (.lf 0))) (.nd (.nd (.lf
  0x172a43abc30172683aba78172643abab41726c3aba301722c3ab878172283ab8b4172303ab830171e83ab678171e43ab6b4171ec3ab630171a03ab4781719c3ab4b4171a43ab430171603ab2781715c3ab2b4171643ab230171203ab0781711c3ab0b4171243ab030170dc3aae78170d83aaeb4170e03aae30170983aac78170943aacb41709c3aac30170543aaa78170503aaab4170583aaa30170183aa878170143aa8b41701c3aa83016fd83aa67816fd43aa6b416fdc3aa63016f943aa47816f903aa4b416f983aa43016f503aa27816f4c3aa2b416f543aa23016f143aa07816f103aa0b416f183aa03016edc3a9e7816ed83a9eb416ee03a9e3016ea43a9c7816ea03a9cb416ea83a9c3016e6c3a9a7816e683a9ab416e703a9a3016e303a987816e2c3a98b416e343a983016df43a967816df03a96b416df83a963016db83a947816db43a94b416dbc3a943016d743a927816d703a92b416d783a9230)
  (.lf 0)) (.nd (.lf
  0x2eff8716fd02efe4716dd02efd0716bd02efbc7169d02efa87167d02ef987165d02ef207163d02ef0c7161d02eef8715fd02eee4715dd02eed0715bd02eec07159d02eb147157d02ea807155d02ea707153d02ea5c7151d02ea48714fd02ea34714dd02ea24714bd02ea107149d02dca47147d02dc247145d02dba47143d02db447141102e90c71becc2e8b871bccc2e85471bacc2e7e471b8cc2e76c71b6cc2e6f071b4cc2e67c71b2cc2e60c71b0cc2e59c71aecc2e53071accc2e4c471aacc2e44c71a8cc2e3d071a6cc2e35871a4cc2e2e071a2cc2e26871a0cc2e1f8719ecc2e18c719ccc2e118719acc2e0a87198cc2e0307196cc2dfbc7194cc2ebd07192cc2eb947190cc2eb80718ecc2ebbc718ccc2eba8718acc2eb5c7188cc2e9147186cc2e9887184cc2e9787182cc2ee2471bdd02ee1071bbd02ee0071b9d02edf071b7d02eddc71b5d02edc871b3d02edb471b1d02eda071afd02ed8c71add0)
  (.lf 0)))

def shaWireTree99 : BTree :=
  .nd (.nd (.nd (.lf
  0x65cf0ca723065cd8ca70b465cdcca707865ce0ca703065cb8ca6eb465cc4ca6e7865cc8ca6e3065ca8ca6cb465cacca6c7865cb0ca6c3065c9cca6ab465c90ca6a7865ca0ca6a3065c80ca68b465c84ca687865c88ca683065c5cca66b465c60ca667865c70ca663065c50ca64b465c4cca647865c54ca643065c40ca62b465c3cca627865c44ca62306569cca60b4656d4ca6078656d8ca60306564cca5eb465690ca5e7865694ca5e30655e0ca5cb465640ca5c7865644ca5c30655acca5ab4655d4ca5a78655d8ca5a3065550ca58b465594ca587865598ca583065508ca56b465544ca567865548ca563065440ca54b4654fcca547865500ca5430653c8ca52b465434ca527865438ca523065348ca50b4653bcca5078653c0ca503065310ca4eb46533cca4e7865340ca4e306521cca4cb4652d4ca4c78652d8ca4c30650acca4ab465210ca4a7865214ca4a3065058ca48b465094ca4878650a4ca4830)
  (.lf 0)) (.nd (.lf
  0x2e15c631d4a2e0e8631ab42e07863194a2e0006316b42df906314b42df246312b42deb463114a2de40630eb42ddd0630d4a2dd5c630ab42dcec63094a2dc686306b42dbe86304b42db706302aa2db3862c0cc309d8673f4a30974673cb430904673b4a308906738b43082067374a307ac6734b43073c6732b4306bc6730b43063c672eb4305bc672cb430538672b4a304ac67294a304246726b4303a46724b4303246722b4302a067214a30214671f4a30188671d4a30100671ab4300806718b4300006716b42ff7c67154a2fef067134a2fe686710b42fde8670eb42fd64670d4a2fcd8670b4a2fc506708b42fbcc67074a2fb4867054a2fac06702b42fa8c6700aa328e46b3f4a328806b3cb4328106b3b4a327986b394a327246b36b4326b86b34b43264c6b32b4325dc6b30b4325646b2eb4324e46b2cb4324646b2ab4323e46b28b4323646b26b4322e46b24b4322646b234a321d86b214a321506b1eb4)
  (.lf 0))) (.nd (.nd (.lf
  0x324c068aa303243c68a8b43243868a8783244068a830323bc68a6b4323b868a678323c068a6303233c68a4b43233868a4783234068a430322bc68a2b4322b868a278322c068a2303223868a0b43223468a0783223c68a030321ac689eb4321a8689e78321b0689e3032128689cb432124689c783212c689c30320a8689ab4320a4689a78320ac689a30320206898b43201c6898783202468983031f9c6896b431f9868967831fa068963031f1c6894b431f1868947831f2068943031e946892b431e9068927831e9868923031e086890b431e0468907831e0c68903031d7c688eb431d78688e7831d80688e3031cf0688cb431cec688c7831cf4688c3031c64688ab431c60688a7831c68688a3031be06888b431bdc68887831be468883031b606886b431b5c68867831b6468863031ae86884b431ae468847831aec68843031a746882b431a7068827831a786882301da1c687cb41da18687c781da20687c30)
  (.lf 0)) (.nd (.lf
  0x109b02be9d01099c2be7d0109882be5d0109742be3d0109602be1d01094c2bdfd0109382bddd0109242bdbd0109102bd9d0108fc2bd7d0108e82bd5d0108d42bd3d0108c02bd1d0108ac2bcfd0108982bcdd0108842bcbd0108702bc9d01085c2bc7d0108482bc5d0108342bc3d01081c2bc110125402ebecc125482ebccc125502ebacc125582eb8cc125602eb6cc125682eb4cc125702eb2cc125782eb0cc125802eaecc125882eaccc125902eaacc125982ea8cc125a02ea6cc125a82ea4cc125b02ea2cc125b82ea0cc125c02e9ecc125c82e9ccc125d02e9acc125d82e98cc125e02e96cc125e82e94cc125f02e92cc125f82e90cc126002e8ecc126082e8ccc126102e8acc126182e88cc126202e86cc126282e84cc126302e82cc136102ebdd0135982ebbd0135142eb9d01348c2eb7d0134082eb5d0133802eb3d0132fc2eb1d0132742eafd0131f02eadd0131702eabd0130f02ea9d0130702ea7d0)
  (.lf 0)))

def shaWireTree100 : BTree :=
  .nd (.nd (.nd (.lf
  0x716ec0007cb716f00007c9716f40007c7716f80007c5716fc0007c3723d80007c1723dc0007bf723e00007bd723e40007bb723e80007b9723ec0007b7723f00007b5723f40007b3723f80007b1723fc0007af724000007ad724040007ab724080007a97240c0007a7724100007a5724140007a3724180007a17241c00079f7242000079d7242400079b724280007997242c0007977243000079572434000793724380007917243c00078f7244000078d7244400078b7244800078973124000787731280007857312c000783731300007817313400077f7313800077d7313c00077b7314000077973144000777731480007757314c000773731500007717315400076f7315800076d7315c00076b7316000076973164000767731680007657316c000763731700007617317400075f7317800075d7317c00075b7318000075973184000757731880007557318c000753731900007517319400074f73b9c00074d)
  (.lf 0)) (.nd (.lf
  0x5bb34bba0b45bb04bb9eb45bb08bb9cb45baa8bb9ab45ba80bb98b45bac4bb96b45ba4cbb94b45ba24bb92b45a794bb90b45a798bb8eb45a79cbb8cb45a868bb8ab45a72cbb88b45a600bb86b45a38cbb84b45a390bb82b459fc4bb80b4598dcbbbe7859910bbbc7859894bbba78597d4bbb878597d8bbb67859790bbb47859848bbb27859738bbb078596f8bbae785968cbbac7859690bbaa7859644bba87859624bba678595f4bba478595d0bba278595a8bba07859560bb9e7859574bb9c7859524bb9a7859528bb9878594ccbb9678594a8bb9478594e4bb927859484bb90785943cbb8e7859450bb8c7859418bb8a78593e0bb887858394bb867858328bb8478582b0bb8278581d0bb80785bf44bbbe305bee8bbbc305bdb0bbba305bd74bbb8305bd48bbb6305bcc8bbb4305be44bbb2305bdf8bbb0305bc6cbbae305bc00bbac305bc04bbaa305bc1cbba8305bbb4bba6305bb94bba4305bb64bba230)
  (.lf 0))) (.nd (.nd (.lf
  0x29b845bc8b429b885bc83029ae05bc67829b2c5bc6b429b305bc63029a885bc47829ad45bc4b429ad85bc43029a305bc27829a7c5bc2b429a805bc2302c8ac5ebc782c8a85ebcb42c8b05ebc302c8705eba782c86c5ebab42c8745eba302c82c5eb8782c8285eb8b42c8305eb8302c7e85eb6782c7e45eb6b42c7ec5eb6302c7ac5eb4782c7a85eb4b42c7b05eb4302c76c5eb2782c7685eb2b42c7705eb2302c7285eb0782c7245eb0b42c72c5eb0302c6ec5eae782c6e85eaeb42c6f05eae302c6ac5eac782c6a85eacb42c6b05eac302c6685eaa782c6645eaab42c66c5eaa302c6245ea8782c6205ea8b42c6285ea8302c5e05ea6782c5dc5ea6b42c5e45ea6302c59c5ea4782c5985ea4b42c5a05ea4302c5605ea2782c55c5ea2b42c5645ea2302c5285ea0782c5245ea0b42c52c5ea0302c4e85e9e782c4e45e9eb42c4ec5e9e302c4a45e9c782c4a05e9cb42c4a85e9c302c4685e9a782c4645e9ab4)
  (.lf 0)) (.nd (.lf
  0x79d34f567d079d0cf565d079ce4f563d079cc0f561d079c9cf55fd079c78f55dd079c50f55bd079c28f559d079c00f557d079a90f555d079a58f553d079a48f551d07988cf54fd079870f54dd079850f54bd079830f549d079630f547d0795acf545d079548f543d079478f54110792c4f5becc792ccf5bccc79274f5bacc7925cf5b8cc7928cf5b6cc791fcf5b4cc79208f5b2cc79200f5b0cc79178f5aecc79188f5accc7913cf5aacc79134f5a8cc79118f5a6cc79104f5a4cc790f4f5a2cc790d8f5a0cc790dcf59ecc790acf59ccc790b0f59acc7906cf598cc7904cf596cc78d84f594cc78c98f592cc78be8f590cc78bb0f58ecc78b40f58ccc78b18f58acc78ac4f588cc789c0f586cc78950f584cc787dcf582cc7a47cf5bdd07a3d8f5bbd07a394f5b9d07a384f5b7d07a330f5b5d07a29cf5b3d07a210f5b1d07a1dcf5afd07a1a8f5add07a140f5abd07a11cf5a9d07a10cf5a7d07a0d8f5a5d0)
  (.lf 0)))

def shaWireTree101 : BTree :=
  .nd (.nd (.nd (.lf
  0x7c1dcee86b47c1e0ee86307bda0ee84787c09cee84b47c0a0ee84307bd24ee82787bd94ee82b47bd98ee823077654ee7cb477508ee7c7877658ee7c30774fcee7ab477384ee7a7877500ee7a3077378ee78b477228ee78787737cee78307721cee76b47719cee767877220ee763077190ee74b476fd4ee747877194ee743076fc8ee72b476eccee727876fccee723076ec0ee70b476e8cee707876ec4ee703076e80ee6eb476d9cee6e7876e84ee6e3076d64ee6cb476d30ee6c7876d68ee6c3076d24ee6ab476c5cee6a7876d28ee6a3076c50ee68b476c0cee687876c54ee683076bfcee66b476b84ee667876c04ee663076b78ee64b476af4ee647876b7cee643076ae8ee62b476a54ee627876aecee623076a48ee60b4769dcee607876a4cee6030769b8ee5eb47698cee5e78769bcee5e3076980ee5cb4768dcee5c7876984ee5c30768c0ee5ab476858ee5a78768d0ee5a307684cee58b4767e0ee5878)
  (.lf 0)) (.nd (.lf
  0x2cf9c639dd02cba4639bd02cb4c6399d02cb506397d02cb546395d02cb586393d02cb5c6391d02cb60638fd02caa4638dd02ca08638bd02ca0c6389d02ca106387d02ca146385d02d3646383d02ca186381d02f19867bfd02f1a067bdd02f1a867bbd02f1ac67b9d02f1b067b7d02f10867b5d02f0c867b3d02f02c67b1d02f03067afd02f03467add02f03867abd02f03c67a9d02f31867a7d02ef8467a5d02ef4467a3d02ef4867a1d02ef4c679fd02ef50679dd02f274679bd02eb286799d02eafc6797d02eac06795d02eac46793d02eac86791d02eacc678fd02ead0678dd02ead4678bd02e96c6789d02e9386787d02e93c6785d02e9406783d02e9446781d0311d86bbfd0311e06bbdd0311fc6bbbd03116c6bb9d03126c6bb7d0311046bb5d0310ac6bb3d0310546bb1d030ffc6bafd030fb86badd030f806babd030f546ba9d030f2c6ba7d030f046ba5d030edc6ba3d030eb46ba1d030e8c6b9fd0)
  (.lf 0))) (.nd (.nd (.lf
  0x4ec2ca48ab44ec28a48a784ec30a48a304ec18a488b44ec14a488784ec1ca488304ec04a486b44ec00a486784ec08a486304ebf0a484b44ebeca484784ebf4a484304ebdca482b44ebd8a482784ebe0a4823051820a47cb45181ca47c7851824a47c30517f8a47ab4517f4a47a78517fca47a30517cca478b4517c8a47878517d0a47830517a0a476b45179ca47678517a4a4763051774a474b451770a4747851778a4743051748a472b451744a472785174ca472305171ca470b451718a4707851720a47030516f0a46eb4516eca46e78516f4a46e30516c4a46cb4516c0a46c78516c8a46c3051698a46ab451694a46a785169ca46a305166ca468b451668a4687851670a4683051640a466b45163ca4667851644a4663051614a464b451610a4647851618a46430515e8a462b4515e4a46278515eca46230515bca460b4515b8a46078515c0a4603051590a45eb45158ca45e7851594a45e3051564a45cb4)
  (.lf 0)) (.nd (.lf
  0x3131c6bd7d0313086bd5d0312f46bd3d0312e06bd1d0312cc6bcfd0312b86bcdd0312a46bcbd0311386bc9d0310e06bc7d0310886bc5d0310306bc3d030fd46bc110334446ebecc3344c6ebccc334546ebacc3345c6eb8cc334646eb6cc3346c6eb4cc334746eb2cc3347c6eb0cc334846eaecc3348c6eaccc334946eaacc3349c6ea8cc334a46ea6cc334ac6ea4cc334b46ea2cc334bc6ea0cc334c46e9ecc334cc6e9ccc334d46e9acc334dc6e98cc334e46e96cc334ec6e94cc334f46e92cc334fc6e90cc335046e8ecc3350c6e8ccc335146e8acc3351c6e88cc335246e86cc3352c6e84cc335346e82cc337986ebdd0337846ebbd0337706eb9d03375c6eb7d0337486eb5d0337346eb3d0337206eb1d03370c6eafd0336f86eadd0336e46eabd0336d06ea9d0336bc6ea7d0336a86ea5d0336946ea3d0336806ea1d03366c6e9fd0336586e9dd0336446e9bd0336306e99d03361c6e97d0336086e95d0)
  (.lf 0)))

def shaWireTree102 : BTree :=
  .nd (.nd (.nd (.lf
  0x436389958304354c995678435b09956b4435b4995630434f4995478434ec9954b4434f8995430433f0995278434dc9952b4434e099523043348995078433e09950b4433e4995030432bc994e7843338994eb44333c994e3043224994c78432ac994cb4432b0994c3043218994a7843210994ab44321c994a3042d78994878432009948b44320499483042bf499467842d689946b442d6c99463042be899447842be09944b442bec99443042bd499427842bcc9942b442bd8994230441f499bc78440c499bcb4441f899bc30440b899ba784407c99bab4440bc99ba304407099b87843fb899b8b44407499b83043fac99b67843eb899b6b443fb099b63043eac99b47843e9899b4b443eb099b43043e8c99b27843dfc99b2b443e9099b23043df099b07843d8099b0b443df499b03043d6899ae7843ca899aeb443d7899ae3043c9c99ac7843b2c99acb443ca099ac3043b2099aa7843ad099aab443b2499aa30)
  (.lf 0)) (.nd (.lf
  0x1d12c605d2c1d118605b2c1d10460592c1d0f060572c1d0dc60552c1d0c860532c1d0b460512c1d0a0604f2c1d08c604d2c1d078604b2c1d06460492c1d05060472c1d03c60452c1d02860432c1d0246040cc1d654647f2c1d640647d2c1d62c647b2c1d61864792c1d60464772c1d5f064752c1d5dc64732c1d5c864712c1d5b4646f2c1d5a0646d2c1d58c646b2c1d57864692c1d56464672c1d55064652c1d53c64632c1d52864612c1d514645f2c1d500645d2c1d4ec645b2c1d4d864592c1d4c464572c1d4b064552c1d49c64532c1d48864512c1d474644f2c1d460644d2c1d44c644b2c1d43864492c1d42464472c1d41064452c1d3fc64432c1d3f86440cc1da28687f2c1da14687d2c1da00687b2c1d9ec68792c1d9d868772c1d9c468752c1d9b068732c1d99c68712c1d988686f2c1d974686d2c1d960686b2c1d94c68692c1d93868672c1d92468652c1d91068632c1d8fc68612c1d8e8685f2c)
  (.lf 0))) (.nd (.nd (.lf
  0x742413d2780742013d2b40742813d2300741013d0780740c13d0b40741413d030073fc13ce78073f813ceb40740013ce30073e813cc78073e413ccb4073ec13cc30073d413ca78073d013cab4073d813ca30073c013c878073bc13c8b4073c413c830073ac13c678073a813c6b4073b013c6300739813c4780739413c4b40739c13c4300738413c2780738013c2b40738813c2300a18816bc780a18416bcb40a18c16bc300a11016ba780a10c16bab40a11416ba300a08c16b8780a08816b8b40a09016b8300a00416b6780a00016b6b40a00816b63009f7816b47809f7416b4b409f7c16b43009ef416b27809ef016b2b409ef816b23009e7416b07809e7016b0b409e7816b03009dec16ae7809de816aeb409df016ae3009d6016ac7809d5c16acb409d6416ac3009cd416aa7809cd016aab409cd816aa3009c4816a87809c4416a8b409c4c16a83009bbc16a67809bb816a6b409bc016a63009b3816a478)
  (.lf 0)) (.nd (.lf
  0x768f0ee5acc76838ee58cc767b8ee56cc76794ee54cc765dcee52cc7665cee50cc76574ee4ecc76654ee4ccc76600ee4acc764a0ee48cc763e0ee46cc76328ee44cc76344ee42cc7765cee7dd077504ee7bd077380ee79d077224ee77d077198ee75d076fd0ee73d076ec8ee71d076e88ee6fd076d98ee6dd076d2cee6bd076c58ee69d076c08ee67d076b80ee65d076af0ee63d076a50ee61d0769d4ee5fd076988ee5dd0768d8ee5bd076854ee59d0767d8ee57d07678cee55d076728ee53d076714ee51d076700ee4fd07662cee4dd076608ee4bd076498ee49d0763f0ee47d076374ee45d076360ee43d073354ee41107cb90eefecc7cb6ceefccc7cb50eefacc7cb20eef8cc7c920eef6cc7c910eef4cc7c8e8eef2cc7c8f0eef0cc7c8b4eeeecc7c8b8eeeccc7c880eeeacc7c7c4eee8cc7c7a8eee6cc7c78ceee4cc7c780eee2cc7c75ceee0cc7c7d0eedecc7c704eedccc7c69ceedacc7c2d0eed8cc)
  (.lf 0)))

def shaWireTree103 : BTree :=
  .nd (.nd (.nd (.lf
  0x509a4a6a8305098ca6a67850988a6a6b450990a6a63050978a6a47850974a6a4b45097ca6a43050964a6a27850960a6a2b450968a6a23050950a6a0785094ca6a0b450954a6a0305093ca69e7850938a69eb450940a69e3050928a69c7850924a69cb45092ca69c3050914a69a7850910a69ab450918a69a3050900a69878508fca698b450904a69830508eca69678508e8a696b4508f0a69630508d8a69478508d4a694b4508dca69430508c4a69278508c0a692b4508c8a69230508b0a69078508aca690b4508b4a690305089ca68e7850898a68eb4508a0a68e3050888a68c7850884a68cb45088ca68c3050874a68a7850870a68ab450878a68a3050860a688785085ca688b450864a688305084ca6867850848a686b450850a6863050838a6847850834a684b45083ca6843050694a6827850824a682b450828a6823051ca0a67cb451c9ca67c7851caca67c3051c90a67ab451c8ca67a7851c94a67a30)
  (.lf 0)) (.nd (.lf
  0x2a9a85a532c2a9345a512c2a8bc5a4f2c2a8445a4d2c2a7d45a4b2c2a7605a492c2a6e45a472c2a67c5a452c2a5fc5a432c2a5c05a40cc25f2c5e7f2c25f045e7d2c25edc5e7b2c25ea45e792c25e905e772c25e7c5e752c25e685e732c25e545e712c25e405e6f2c25e2c5e6d2c25e185e6b2c25e045e692c25df05e672c25ddc5e652c25dc85e632c25db85e612c25bf05e5f2c25bdc5e5d2c25bcc5e5b2c25b2c5e592c25b005e572c25ad45e552c25ac05e532c25aac5e512c25a9c5e4f2c25a305e4d2c259b85e4b2c259645e492c259285e472c259005e452c258b85e432c258b45e40cc2e8ec627f2c2e888627d2c2e818627b2c2e7a062792c2e72462772c2e6b062752c2e64062732c2e5d062712c2e564626f2c2e4f8626d2c2e480626b2c2e40462692c2e38c62672c2e31462652c2e29c62632c2e22c62612c2e1c0625f2c2e14c625d2c2e0dc625b2c2e06862592c2dff462572c2df8462552c)
  (.lf 0))) (.nd (.nd (.lf
  0x22d9800248122d9c00247f22da000247d22da400247b22da800247922dac00247722db000247522db400247322db800247122dbc00246f22dc000246d22dc400246b22dc800246922dcc00246722dd000246522dd400246322dd800246124fa800245f24fac00245d24fb000245b24fb400245924fb800245724fbc00245524fc000245324fc400245124fc800244f24fcc00244d24fd000244b24fd400244924fd800244724fdc00244524fe000244324fe400244124fe800243f24fec00243d24ff000243b24ff400243924ff800243724ffc00243525000002433250040024312500800242f2500c00242d2501000242b25014002429250180024272501c00242525020002423250240024212683400241f2683800241d2683c00241b2684000241926844002417268480024152684c002413268500024112685400240f2685800240d2685c00240b2686000240926864002407268680024052686c002403)
  (.lf 0)) (.nd (.lf
  0x70a78e048cc70a80e046cc70a88e044cc70a90e042cc70e08e07dd070df0e07bd070dd4e079d070dc0e077d070da8e075d070d88e073d070d78e071d070d5ce06fd070d48e06dd070d30e06bd070d18e069d070cfce067d070ce8e065d070cc8e063d070cb8e061d070ca0e05fd070c84e05dd070c68e05bd070c4ce059d070c38e057d070c28e055d070c08e053d070bf0e051d070be0e04fd070bc4e04dd070bb0e04bd070b4ce049d070af4e047d070ae4e045d070acce043d070a98e0411070e10e03ecc70e00e03ccc70ddce03acc70de0e038cc70db8e036cc70d90e034cc70d9ce032cc70d68e030cc70d64e02ecc70d40e02ccc70d20e02acc70d10e028cc70d0ce026cc70cd4e024cc70cdce022cc70cace020cc70c94e01ecc70c78e01ccc70c5ce01acc70c80e018cc70c98e016cc70c14e014cc70bf8e012cc70c1ce010cc70bd4e00ecc70bc8e00ccc70b60e00acc70e18e008cc70b00e006cc)
  (.lf 0)))

def shaWireTree104 : BTree :=
  .nd (.nd (.nd (.lf
  0x2f16c717f2c2f15c717d2c2f144717b2c2f13071792c2f11c71772c2f0fc71752c2f0bc71732c2effc71712c2efec716f2c2efd4716d2c2efc0716b2c2efac71692c2f30c71672c2ef7871652c2ef1071632c2ef0071612c2eee8715f2c2eed4715d2c2f268715b2c2eb1c71592c2eaf071572c2ea8471552c2ea6071532c2ea4c71512c2ea38714f2c2ea8c714d2c2ea14714b2c2e96071492c2dca871472c2dc1871452c2db9871432c2db487140cc311c4757f2c311bc757d2c311f0757b2c3115c75792c3126075772c310f875752c310a075732c3104875712c30ff0756f2c30fac756d2c30f74756b2c30f4875692c30f2075672c30ef875652c30ed075632c30ea875612c30e80755f2c30e58755d2c30e2c755b2c30e0475592c30ddc75572c30db875552c30d9475532c30bf075512c30bcc754f2c30ba8754d2c30b84754b2c30b6075492c30b3c75472c30b1875452c30af475432c30a647540cc)
  (.lf
  0x1cbfc5c54cc1cc045c52cc1cc0c5c50cc1cc145c4ecc1cc1c5c4ccc1cc245c4acc1cc2c5c48cc1cc345c46cc1cc3c5c44cc1cc445c42cc1cea85c7dd01ce945c7bd01ce805c79d01ce6c5c77d01ce585c75d01ce445c73d01ce305c71d01ce1c5c6fd01ce085c6dd01cdf45c6bd01cde05c69d01cdcc5c67d01cdb85c65d01cda45c63d01cd905c61d01cd7c5c5fd01cd685c5dd01cd545c5bd01cd405c59d01cd2c5c57d01cd185c55d01cd045c53d01ccf05c51d01ccdc5c4fd01ccc85c4dd01ccb45c4bd01cca05c49d01cc8c5c47d01cc785c45d01cc645c43d01cc4c5c41102082c5c3ecc207b45c3ccc207045c3acc206405c38cc205885c36cc204d05c34cc204145c32cc203585c30cc202a45c2ecc201e45c2ccc2012c5c2acc200745c28cc1ffb85c26cc1fef45c24cc1fe3c5c22cc1fd7c5c20cc1fcbc5c1ecc1fc005c1ccc1fb445c1acc1fa805c18cc1f9c85c16cc1f9085c14cc1f8505c12cc))
  (.nd (.lf
  0x11f9800360111f9c0035ff11fa00035fd11fa40035fb11fa80035f911fac0035f711fb00035f511fb40035f311fb80035f111fbc0035ef11fc00035ed11fc40035eb11fc80035e911fcc0035e711fd00035e511fd40035e311fd80035e11383c0035df138400035dd138440035db138480035d91384c0035d7138500035d5138540035d3138580035d11385c0035cf138600035cd138640035cb138680035c91386c0035c7138700035c5138740035c3138780035c11387c0035bf138800035bd138840035bb138880035b91388c0035b7138900035b5138940035b3138980035b11389c0035af138a00035ad138a40035ab138a80035a9138ac0035a7138b00035a5138b40035a3138b80035a114ba400359f14b7c00359d151d400359b1517c00359915120003597150c8003595150700035931501800359114fc000358f14f6800358d14f1000358b14ecc00358914e94003587151d800358515180003583)
  (.lf 0))) (.nd (.nd (.lf
  0x33a0c6ec4b4339786ec47833a106ec4303396c6ec2b4339186ec278339706ec230347dc6f3eaa347006f3aaa346846f38aa346086f36aa3458c6f34aa345106f32aa344946f30aa343a86f2caa342bc6f28aa342446f26aa340f06f20aa340046f1caa33f886f1aaa33f106f18aa33e946f16aa33e186f14aa33da06f12aa33d286f10aa33cac6f0eaa33c286f0caa339f86f04aa339546f02aa347806f3d40346946f39f4346186f37f43459c6f35f4345206f33f4344a46f31f4344286f2f403433c6f2b40342546f27f4341dc6f2540340846f1f4033f986f1bf433f206f19f433ea46f17f433e286f15f433db06f13f433d386f11f433cbc6f0ff433c386f0df433ba86f0b40339646f03f4347106f3bf43477c6f3ca0346986f3a1e347086f3ab43470c6f3a143461c6f381e3468c6f38b4346906f3814345a06f361e346106f36b4346146f3614345246f341e345946f34b4345986f3414344a86f321e)
  (.lf 0)) (.nd (.lf
  0x2a1a8006b732a1b0006b712a1b8006b6f2a1c0006b6d2a1c8006b6b2a1d0006b692a1d8006b672a1e0006b652a1e8006b632a1f0006b612c058006b5f2c060006b5d2c068006b5b2c070006b592c078006b572c080006b552c088006b532c090006b512c098006b4f2c0a0006b4d2c0a8006b4b2c0b0006b492c0b8006b472c0c0006b452c0c8006b432c0d0006b412c0d8006b3f2c0e0006b3d2c0e8006b3b2c0f0006b392c0f8006b372c100006b352c108006b332c110006b312c118006b2f2c120006b2d2c128006b2b2c130006b292c138006b272c140006b252c148006b232c150006b212d668006b1f2d670006b1d2d678006b1b2d680006b192d688006b172d690006b152d698006b132d6a0006b112d6a8006b0f2d6b0006b0d2d6b8006b0b2d6c0006b092d6c8006b072d6d0006b052d6d8006b032d6e0006b012d6e8006aff2d6f0006afd2d6f8006afb2d700006af92d708006af72d710006af5)
  (.lf 0)))

def shaWireTree105 : BTree :=
  .nd (.nd (.nd (.lf
  0x835b4ff321483598ff2f40835a4ff30a08353cff2df483594ff2ea083528ff2c1e8352cff2cb483538ff2c1483514ff2a1e834ecff2ab483520ff2a14834dcff281e834e0ff28b4834e4ff2814834c4ff2540834ccff26a0834b4ff2340834c0ff24a083494ff21f4834b0ff22a082e08ff201e83468ff20b483490ff201482d9cff1df482e00ff1ea082d94ff1c1e82d90ff1cb482d98ff1c1482d54ff1a1e82d5cff1ab482d60ff1a1482d04ff181e82d48ff18b482d4cff181482ce4ff161e82cdcff16b482ce8ff161482c8cff134082cd0ff14a082b18ff114082c88ff12a082af4ff0ff482b14ff10a082980ff0e1e82a68ff0eb482a6cff0e1482728ff0c1e82968ff0cb48296cff0c148271cff0a1e82718ff0ab482720ff0a14826ccff081e8270cff08b482710ff0814826bcff0540826c4ff06a0826b8ff04a0839ecfffc78839f4fffcb4839f8fffc30839dcfffa78839e0fffab4839e4fffa30)
  (.lf 0)) (.nd (.lf
  0x2d49063dd2c2d47c63db2c2d46863d92c2d45863d72c2d41c63d52c2d40863d32c2d3f463d12c2d3e063cf2c2d3cc63cd2c2d3b863cb2c2d3a463c92c2d39063c72c2d37c63c52c2d36c63c32c2d1b463c0cc2f53467ff2c2f52067fd2c2f50c67fb2c2f4f867f92c2f4e467f72c2f4d067f52c2f4bc67f32c2f4a867f12c2f49467ef2c2f48067ed2c2f46c67eb2c2f45867e92c2f44467e72c2f43067e52c2f41c67e32c2f40867e12c2f3f467df2c2f3e067dd2c2f3cc67db2c2f3b867d92c2f3a467d72c2f39067d52c2f37c67d32c2f36867d12c2f35467cf2c2f34467cd2c2f2f467cb2c2f2e067c92c2f2cc67c72c2f2b867c52c2f2a467c32c2f2a067c0cc3149c6bff2c314886bfd2c314746bfb2c314606bf92c3144c6bf72c314386bf52c314246bf32c314106bf12c313fc6bef2c313e86bed2c313d46beb2c313c06be92c313ac6be72c313986be52c313846be32c313706be12c3135c6bdf2c)
  (.lf 0))) (.nd (.nd (.lf
  0x60ba8c01a3060b90c018b460b8cc0187860b94c0183060b7cc016b460b78c0167860b80c0163060b5cc014b460b58c0147860b60c0143060b4cc012b460b2cc0127860b50c0123060a34c010b460a14c0107860a38c0103060a08c00eb4609e0c00e7860a0cc00e30609d4c00cb4609d0c00c78609d8c00c30609a0c00ab460988c00a78609a4c00a3060964c008b460968c008786096cc0083060958c006b46094cc006786095cc0063060940c004b46093cc0047860944c0043060928c002b460924c002786092cc002305fa58c4bcb45fa54c4bc785fa5cc4bc305fa40c4bab45fa3cc4ba785fa44c4ba305fa2cc4b8b45fa30c4b8785fa34c4b8305fa18c4b6b45fa1cc4b6785fa20c4b6305fa08c4b4b45fa04c4b4785fa0cc4b4305f9f0c4b2b45f9f4c4b2785f9f8c4b2305f9d8c4b0b45f9e0c4b0785f9e4c4b0305f9c4c4aeb45f9c8c4ae785f9ccc4ae305f9b4c4acb45f9b0c4ac785f9b8c4ac30)
  (.lf 0)) (.nd (.lf
  0x43bcc8e8ecc446008e8ccc443248e8acc4432c8e88cc443348e86cc4433c8e84cc443448e82cc447e48ebdd0447d08ebbd0447bc8eb9d0447a88eb7d0447948eb5d0447808eb3d04476c8eb1d0447588eafd0447448eadd0447308eabd04471c8ea9d0447088ea7d0446f08ea5d0446dc8ea3d0446c88ea1d0446b88e9fd0446a48e9dd0446908e9bd04467c8e99d0446688e97d0446548e95d0446408e93d04462c8e91d0446188e8fd0445fc8e8dd0443ac8e8bd0443988e89d0443888e87d0443788e85d0443648e83d04434c8e8110452a48e7ecc452908e7ccc452848e7acc452888e78cc4528c8e76cc451988e74cc451688e72cc451388e70cc451088e6ecc450d88e6ccc450a88e6acc452f88e68cc452ec8e66cc450208e64cc457308e62cc452788e60cc452c48e5ecc452c88e5ccc452cc8e5acc452dc8e58cc452e08e56cc452e88e54cc452d08e52cc4573c8e50cc452748e4ecc452d88e4ccc)
  (.lf 0)))

def shaWireTree106 : BTree :=
  .nd (.nd (.nd (.lf
  0x5ae44c5a6b45ae68c5a6305ae2cc5a4785ae28c5a4b45ae3cc5a4305adccc5a2785abbcc5a2b45add0c5a2305abb0c5a0785ab2cc5a0b45abb4c5a0305ab20c59e785ab1cc59eb45ab24c59e305ab10c59c785aae0c59cb45ab14c59c305aad4c59a785aaa4c59ab45aad8c59a305aa38c598785aa08c598b45aa3cc598305a9fcc596785a9f8c596b45aa00c596305a9b8c594785a9a0c594b45a9f0c594305a978c592785a840c592b45a984c592305a82cc590785a834c590b45a838c590305a80cc58e785a820c58eb45a824c58e305a800c58c785a7ecc58cb45a804c58c305a7d0c58a785a7d4c58ab45a7d8c58a305a718c588785a634c588b45a7c4c588305a628c586785a3d8c586b45a62cc586305a37cc584785a378c584b45a380c584305a338c5827859fd8c582b45a370c582305ddecc97c785df8cc97cb45dfa8c97c305dd8cc97a785ddd8c97ab45dde0c97a305dd80c978785dd60c978b4)
  (.lf 0)) (.nd (.lf
  0x3bd20801d2c3bcf4801b2c3bcc480192c3bc9480172c3bc6480152c3bc3880132c3bc0c80112c3bbe0800f2c3bbb4800d2c3bb88800b2c3bb5c80092c3bb3080072c3bb0080052c3bad480032c3bac08000cc4196c843f2c41944843d2c41918843b2c418ec84392c418c084372c4189484352c4186884332c4183c84312c41810842f2c417e4842d2c417b8842b2c4178c84292c4176084272c4173484252c4170884232c416d884212c416a8841f2c41678841d2c41648841b2c4161884192c415e884172c415bc84152c4159084132c4156084112c41534840f2c41508840d2c414dc840b2c414b084092c4148484072c4145884052c4142c84032c4141c8400cc3c96c883f2c3c944883d2c3c918883b2c3c8ec88392c3c8c088372c3c89488352c3c86888332c3c83c88312c3c810882f2c3c7e4882d2c3c7b8882b2c3c78c88292c3c76088272c3c73488252c3c70888232c3c6dc88212c3c6b0881f2c)
  (.lf 0))) (.nd (.nd (.lf
  0xfc3026dc300fb2c26dab40fba426da780fba826da300faa426d8b40fb2026d8780fb2426d8300fa1826d6b40fa9826d6780fa9c26d6300f99426d4b40fa0c26d4780fa1026d4300f90c26d2b40f98826d2780f98c26d2300f88026d0b40f90026d0780f90426d0300f7fc26ceb40f87426ce780f87826ce300f77c26ccb40f7f026cc780f7f426cc300f6fc26cab40f77026ca780f77426ca300f67c26c8b40f6f026c8780f6f426c8300f5fc26c6b40f67026c6780f67426c6300f57c26c4b40f5f026c4780f5f426c4300f50c26c2b40f57026c2780f57426c2301030c2738aa101802732aa10074272eaa0fd682722aa0fcdc2720aa0fbd0271caa0fac42718aa0fa382716aa0f92c2712aa0f8a02710aa103e4273b4010454273ca0103642739f4103e0273aa0102dc27381e1035c2738b41036027381410258273540102d42736a0101d82733f4102542734a01015027321e101d02732b4101d4273214)
  (.lf 0)) (.nd (.lf
  0xd0442db3d00cfb82db1d00cf282dafd00cea82dadd00ce282dabd00cdac2da9d00cd202da7d00cc942da5d00cc042da3d00cb842da1d00cb042d9fd00ca882d9dd00c9f82d9bd00c97c2d99d00c8f02d97d00c8642d95d00c7d82d93d00c7482d91d00c6cc2d8fd00c6402d8dd00c5b02d8bd00c5342d89d00c4a42d87d00c4282d85d00c3982d83d00c3582d81100ebe8317ecc0eb7c317ccc0eaf0317acc0ea743178cc0e9e83176cc0e9583174cc0e8d83172cc0e8583170cc0e7d8316ecc0e758316ccc0e6d8316acc0e6583168cc0e5d83166cc0e55c3164cc0e4d03162cc0e4443160cc0e3b8315ecc0e328315ccc0e2ac315acc0e21c3158cc0e1a03156cc0e1103154cc0e0943152cc0e0043150cc0df88314ecc0def8314ccc0de78314acc0ddfc3148cc0dd803146cc0dd083144cc0dc943142cc0eb8c317dd00eb00317bd00ea843179d00e9f83177d00e9683175d00e8e83173d00e8683171d0)
  (.lf 0)))

def shaWireTree107 : BTree :=
  .nd (.nd (.nd (.lf
  0x5b634b73eaa5b630b73caa5b63cb738aa5b534b734aa5b498b732aa5b384b72eaa5b30cb728aa5ac84b726aa5aba8b720aa5a8f8b714aa5a970b712aa5a69cb70aaa5b6ecb73c1e5b6e8b73cb45b6f0b73c145b650b739f45b69cb73aa05b570b7381e5b640b738b45b644b738145b55cb735f45b568b736a05b4ecb7341e5b554b734b45b558b734145b4e0b7321e5b4dcb732b45b4e4b732145b434b72ff45b4ccb730a05b428b72e1e5b42cb72eb45b430b72e145b3a8b72b405b420b72ca05b308b729f45b3a4b72aa05ae04b7281e5b300b728b45b304b728145adf8b7261e5adf4b726b45adfcb726145ade0b723405ade8b724a05abc8b721f45addcb722a05ab04b7201e5abc0b720b45abc4b720145aaf4b71d405aafcb71ea05aae8b71b405aaf0b71ca05aab4b719405aae4b71aa05a9d4b717405aab0b718a05a9c4b715f45a9d0b716a05a9bcb7141e5a9a8b714b45a9c0b714145a700b7121e)
  (.lf 0)) (.nd (.lf
  0x2c6c05eef2c2c67c5eed2c2c6385eeb2c2c5f45ee92c2c5b05ee72c2c5745ee52c2c53c5ee32c2c4fc5ee12c2c4b85edf2c2c47c5edd2c2c4445edb2c2c40c5ed92c2c3cc5ed72c2c3905ed52c2c3585ed32c2c3205ed12c2c2e05ecf2c2c29c5ecd2c2c2605ecb2c2c2205ec92c2c1dc5ec72c2c1a05ec52c2c1705ec32c2e8f462ff2c2e89062fd2c2e82062fb2c2e7a862f92c2e72c62f72c2e6b862f52c2e64862f32c2e5d862f12c2e56c62ef2c2e50062ed2c2e48862eb2c2e40c62e92c2e39462e72c2e31c62e52c2e2a462e32c2e23462e12c2e1c862df2c2e15462dd2c2e0e462db2c2e07062d92c2dffc62d72c2df8c62d52c2df2062d32c2deac62d12c2de3c62cf2c2ddc862cd2c2dd5862cb2c2dce462c92c2dc6462c72c2dbe462c52c2db6c62c32c309d066ff2c3097066fd2c308fc66fb2c3088c66f92c3081866f72c307a866f52c3073866f32c306b866f12c3063866ef2c305b866ed2c)
  (.lf 0))) (.nd (.nd (.lf
  0x1acf8485ab41acf4485a781acfc485a301ace44858b41ace04858781ace84858301acd04856b41accc4856781acd44856301acbc4854b41acb84854781acc04854301aca84852b41aca44852781acac4852301ac944850b41ac904850781ac984850301ac80484eb41ac7c484e781ac84484e301ac6c484cb41ac68484c781ac70484c301ac58484ab41ac54484a781ac5c484a301ac444848b41ac404848781ac484848301ac304846b41ac2c4846781ac344846301ac1c4844b41ac184844781ac204844301ac084842b41ac044842781ac0c4842302431c483cb42438c483c7824390483c3024294483ab424310483a7824314483a302420c4838b4242884838782428c4838302417c4836b42420048367824204483630240e84834b42417048347824174483430240584832b4240dc483278240e048323023fc84830b42404c4830782405048303023f38482eb423fbc482e7823fc0482e3023ea8482cb4)
  (.lf 0)) (.nd (.lf
  0x1200a51d00010c0a4fd0000f80a4dd0000e40a4bd0000d00a49d0000bc0a47d0000a80a45d0000940a43d0000000a4110056c40afecc056540afccc055cc0afacc055400af8cc054bc0af6cc054340af4cc053b00af2cc053280af0cc0529c0aeecc052100aeccc0518c0aeacc0510c0ae8cc0508c0ae6cc0500c0ae4cc04f8c0ae2cc04f0c0ae0cc04e840adecc04df80adccc04d6c0adacc04ce00ad8cc04c540ad6cc04bd00ad4cc04b480ad2cc04abc0ad0cc04a300acecc049a40acccc049200acacc048a00ac8cc048180ac6cc0478c0ac4cc047000ac2cc056ac0afdd0056380afbd0055b00af9d0055240af7d0054a00af5d0054180af3d0053940af1d00530c0aefd0052800aedd0051f40aebd0051700ae9d0050f00ae7d0050700ae5d004ff00ae3d004f700ae1d004ef00adfd004e680addd004ddc0adbd004d500ad9d004cc40ad7d004c380ad5d004bb40ad3d004b2c0ad1d004aa00acfd0)
  (.lf 0)))

def shaWireTree108 : BTree :=
  .nd (.nd (.nd (.lf
  0x2da580017cb2da5c0017c92da600017c72da640017c52da680017c32da6c0017c12f9680017bf2f96c0017bd2f9700017bb2f9740017b92f9780017b72f97c0017b52f9800017b32f9840017b12f9880017af2f98c0017ad2f9900017ab2f9940017a92f9980017a72f99c0017a52f9a00017a32f9a40017a12f9a800179f2f9ac00179d2f9b000179b2f9b40017992f9b80017972f9bc001795318d0001793318d4001791318d800178f318dc00178d318e000178b318e4001789318e8001787318ec001785318f0001783318f4001781318f800177f318fc00177d3190000177b31904001779319080017773190c00177531910001773319140017713191800176f3191c00176d3192000176b31924001769337f0001767337f4001765337f8001763337fc0017613380000175f3380400175d3380800175b3380c0017593381000175733814001755338180017533381c0017513382000174f3382400174d)
  (.lf 0)) (.nd (.lf
  0x2d00463a0302d008639e302cf98639c302cba0639a302cb346398302cb386396302cb3c6394302cb406392302cb446390302cb48638e302caa0638c302c9f4638a302c9f86388302c9fc6386302ca006384302d3606382302ca046380302f17067beb42f17467bcb42f17867bab42f17c67b8b42f18067b6b42f10067b4b42f0c067b2b42f00467b0b42f00867aeb42f00c67acb42f01067aab42f01467a8b42f31067a6b42ef7c67a4b42ef2467a2b42ef2867a0b42ef2c679eb42ef30679cb42f26c679ab42eb206798b42eaf46796b42ea906794b42ea946792b42ea986790b42ea9c678eb42eaa0678cb42eaa4678ab42e9646788b42e9186786b42e91c6784b42e9206782b42e9246780b42d29467be782d29867bc782d29c67ba782d2a067b8782d2b467b6782d1e467b4782d12867b2782d12c67b0782d13067ae782d13467ac782d13867aa782d08867a8782d05c67a6782d01c67a4782d02067a278)
  (.lf 0))) (.nd (.nd (.lf
  0x23c3c4ae2b423bc04ae27823c404ae23023bb44ae0b423b304ae07823bb84ae03023b244adeb423a9c4ade7823b284ade3023a904adcb423a104adc7823a944adc3023a044adab4239884ada7823a084ada302397c4ad8b4238f84ad878239804ad830238ec4ad6b4238644ad678238f04ad630238584ad4b4237d04ad4782385c4ad430237c44ad2b4237444ad278237c84ad230237384ad0b4236b84ad0782373c4ad030236ac4aceb4236284ace78236b04ace302361c4accb4235904acc78236204acc30235844acab4234f84aca78235884aca30234ec4ac8b4234604ac878234f04ac830234544ac6b4233c04ac678234584ac630233b44ac4b42330c4ac478233b84ac430233004ac2b4232b04ac278233044ac230241ac4b36aa241184b34aa240884b32aa23ff84b30aa23f684b2eaa23ed84b2caa23ba04b20aa23b0c4b1eaa239684b18aa238d44b16aa238404b14aa237244b10aa236944b0eaa)
  (.lf 0)) (.nd (.lf
  0x50580b1abd05056cb1a9d050558b1a7d050544b1a5d050500b1a3d0504d0b1a1d05049cb19fd050488b19dd050474b19bd050460b199d050440b197d050168b195d04ffb0b193d04ff74b191d04fcb0b18fd04fc34b18dd04f7c4b18bd04f780b189d04f760b187d04f740b185d04f648b183d04f5d0b1811052260b57ecc5223cb57ccc52204b57acc521f4b578cc52214b576cc5221cb574cc521c4b572cc5212cb570cc52118b56ecc52114b56ccc520bcb56acc520ccb568cc52050b566cc5202cb564cc52014b562cc51ff4b560cc51fc0b55ecc51fa8b55ccc51f60b55acc51f1cb558cc51ef8b556cc51efcb554cc51f24b552cc51ea8b550cc51e0cb54ecc51dc4b54ccc51d6cb54acc51d38b548cc51cc0b546cc52264b544cc5194cb542cc5275cb57dd052738b57bd0526ecb579d052694b577d052580b575d052570b573d05250cb571d0524fcb56fd0524d8b56dd052498b56bd052460b569d0)
  (.lf 0)))

def shaWireTree109 : BTree :=
  .nd (.nd (.nd (.lf
  0x6ed20db1c1e6ed2cdb1cb46ed30db1c146ed00db19406ed08db1aa06ececdb17f46ecf4db18a06ece4db161e6ecd4db16b46ece8db16146ecbcdb13f46ecccdb14a06eca8db121e6ecacdb12b46ecb8db12146ec90db0f406eca0db10a06ec84db0df46ec8cdb0ea06ec7cdb0c1e6ec6cdb0cb46ec80db0c146ec5cdb09406ec64db0aa06e2e0db07f46e2f8db08a06e2acdb061e6e2a8db06b46e2b0db06146e258db041e6e29cdb04b46e2a0db04146dc30db02b46e250db02146da28dbfc786da24dbfcb46da34dbfc306da18dbfa786da14dbfab46da1cdbfa306da08dbf8786da04dbf8b46da0cdbf8306d9f4dbf6786d9f0dbf6b46d9fcdbf6306d9e0dbf4786d9e4dbf4b46d9e8dbf4306d9c8dbf2786d9ccdbf2b46d9d0dbf2306d9b8dbf0786d9b4dbf0b46d9bcdbf0306d9a0dbee786d9a8dbeeb46d9acdbee306d7b4dbec786d7b0dbecb46d998dbec306d7a0dbea786d7a4dbeab46d7a8dbea30)
  (.lf 0)) (.nd (.lf
  0x2d328005afd2d1f8005afb2d188005af92d450005af72d190005af52d330005af32d338005af12d340005aef2d348005aed2d350005aeb2d200005ae92d198005ae72d1a0005ae52d1a8005ae32d1ac005ae12f074005adf2f078005add2f32c005adb2f1f4005ad92f1fc005ad72f204005ad52f20c005ad32f214005ad12f288005acf2f07c005acd2f084005acb2f08c005ac92f094005ac72f21c005ac52f334005ac32f224005ac12f22c005abf2f234005abd2f23c005abb2f0d8005ab92f290005ab72f098005ab52f240005ab32f248005ab12f250005aaf2f33c005aad2f258005aab2f260005aa92f0e0005aa72f0a0005aa52f0a8005aa32f298005aa130f90005a9f30f60005a9d3121c005a9b31224005a993122c005a973117c005a9531280005a9331114005a91310bc005a8f31064005a8d3100c005a8b30fc8005a8930f94005a8731230005a8531238005a8331240005a8131184005a7f)
  (.lf 0))) (.nd (.nd (.lf
  0x418d0843878418f4843830418c48436b4418a4843678418c8843630418988434b4418788434784189c8434304186c8432b44184c84327841870843230418408430b4418208430784184484303041814842eb4417f4842e7841818842e30417e8842cb4417c8842c78417ec842c30417bc842ab44179c842a78417c0842a30417908428b44177084287841794842830417648426b44174484267841768842630417388424b4417188424784173c8424304170c8422b4416ec84227841710842230416e08420b4416bc842078416e4842030416b0841eb44168c841e78416b4841e3041680841cb44165c841c7841684841c3041650841ab44162c841a7841654841a30416208418b4415fc84187841624841830415f08416b4415cc841678415f4841630415c08414b4415a0841478415c4841430415948412b44157484127841598841230415688410b4415448410784156c84103041538840eb441518840e78)
  (.lf 0)) (.nd (.lf
  0x227e84bcdd0227d44bcbd0227c04bc9d0227ac4bc7d0227984bc5d0227844bc3d02276c4bc1102502c4ebecc250344ebccc2503c4ebacc250444eb8cc2504c4eb6cc250544eb4cc2505c4eb2cc250644eb0cc2506c4eaecc250744eaccc2507c4eaacc250844ea8cc2508c4ea6cc250944ea4cc2509c4ea2cc250a44ea0cc250ac4e9ecc250b44e9ccc250bc4e9acc250c44e98cc250cc4e96cc250d44e94cc250dc4e92cc250e44e90cc250ec4e8ecc250f44e8ccc250fc4e8acc251044e88cc2510c4e86cc251144e84cc2511c4e82cc258204ebdd0257ec4ebbd0257ac4eb9d0257704eb7d0257384eb5d0256f84eb3d0256bc4eb1d0256844eafd02564c4eadd0256144eabd0255dc4ea9d0255a44ea7d0255644ea5d0255204ea3d0254e44ea1d0254ac4e9fd02546c4e9dd0254304e9bd0253f04e99d0253b44e97d02537c4e95d0253444e93d02530c4e91d0252cc4e8fd0252884e8dd0252444e8bd0)
  (.lf 0)))

def shaWireTree110 : BTree :=
  .nd (.nd (.nd (.lf
  0x2bc6c6988782bc686988b42bc706988302b4b86986782bc5c6986b42bc606986302b4a46984782b4a86984b42b4b06984302a6386982782a5e46982b42a63c6982302d24c6d7c782d2506d7cb42d2546d7c302d2386d7a782d23c6d7ab42d2406d7a302d2286d78782d2246d78b42d22c6d78302d2146d76782d2106d76b42d2186d76302d1cc6d74782d1d06d74b42d2086d74302d1bc6d72782d1c06d72b42d1c46d72302d0d86d70782d0d46d70b42d0e06d70302d0c86d6e782d0c46d6eb42d0cc6d6e302d0b46d6c782d0b06d6cb42d0b86d6c302d09c6d6a782d0a06d6ab42d0a46d6a302d08c6d68782d0786d68b42d0906d68302d0686d66782d0646d66b42d06c6d66302d0406d64782cfe86d64b42d0446d64302cfd86d62782cfd06d62b42cfdc6d62302cfc46d60782cfc06d60b42cfc86d60302cfac6d5e782cfb06d5eb42cfb46d5e302cf886d5c782cf846d5cb42cf8c6d5c302cb906d5a78)
  (.lf 0)) (.nd (.lf
  0x6e61c003afd6e510003afb6e624003af96e518003af76e520003af56e458003af36e460003af16e468003aef6e470003aed6e478003aeb6e480003ae96e488003ae76e490003ae56e498003ae36e4a0003ae170228003adf70230003add70238003adb70240003ad970248003ad770078003ad570080003ad370088003ad170090003acf70098003acd70580003acb70588003ac970590003ac7704cc003ac5703c0003ac3703c8003ac1703d0003abf70598003abd705a0003abb705a8003ab9705b0003ab7705b8003ab5704d4003ab3703d8003ab1703e0003aaf703e8003aad703f0003aab703f8003aa970400003aa770408003aa570258003aa370260003aa171208003a9f70f4c003a9d70f54003a9b70f5c003a9970f64003a9770f6c003a9570f74003a9370f7c003a9170f84003a8f70f8c003a8d71370003a8b71378003a897123c003a8771244003a857124c003a8371250003a8171258003a7f)
  (.lf 0))) (.nd (.nd (.lf
  0x154c02b6780154802b6b40155002b6300151402b4780151002b4b40151802b430014dc02b278014d802b2b4014e002b2300149c02b0780149802b0b4014a002b0300146002ae780145c02aeb40146402ae300142002ac780141c02acb40142402ac30013e402aa78013e002aab4013e802aa30013ac02a878013a802a8b4013b002a8300137402a6780137002a6b40137802a6300133402a4780133002a4b40133802a430012f802a278012f402a2b4012fc02a230012b802a078012b402a0b4012bc02a0300127c029e7801278029eb401280029e3001244029c7801240029cb401248029c300120c029a7801208029ab401210029a30011cc029878011c80298b4011d0029830011900296780118c0296b401194029630011500294780114c0294b4011540294300110c029278011080292b401110029230010c8029078010c40290b4010cc02903001084028e7801080028eb401088028e3001040028c78)
  (.lf 0)) (.nd (.lf
  0x669ecce89d0669d4ce87d0668c0ce85d066854ce83d066844ce811067cdcce7ecc67ce4ce7ccc67cb4ce7acc67c9cce78cc68628ce76cc685f0ce74cc68634ce72cc685e4ce70cc685fcce6ecc67cecce6ccc67c10ce6acc67bf8ce68cc67c00ce66cc67bc8ce64cc6823cce62cc68230ce60cc67b88ce5ecc68450ce5ccc683ccce5acc67b48ce58cc67e20ce56cc68244ce54cc67aa8ce52cc67388ce50cc67364ce4ecc67464ce4ccc6736cce4acc6732cce48cc673a8ce46cc672b8ce44cc6729cce42cc67fa0ce7dd067f88ce7bd067f78ce79d067f64ce77d067f54ce75d067f44ce73d067f34ce71d067f24ce6fd067f14ce6dd067efcce6bd067ee4ce69d067eccce67d067eb8ce65d067ea0ce63d067e90ce61d067e80ce5fd067e68ce5dd067e58ce5bd067e48ce59d067e34ce57d067a9cce55d067a8cce53d067584ce51d06756cce4fd067558ce4dd067540ce4bd06752cce49d067518ce47d0)
  (.lf 0)))

def shaWireTree111 : BTree :=
  .nd (.nd (.nd (.lf
  0x46c4892d87846c7092d83046c2492d6b446c3c92d67846c4092d63046c1492d4b446bfc92d47846c1892d43046bd092d2b446bf092d27846bf492d23046bc492d0b446bc092d07846bc892d03046b9492ceb446b9092ce7846b9892ce3046b6c92ccb446b6892cc7846b7092cc3046ae892cab446b3092ca7846b3492ca3046adc92c8b446ad892c87846ae092c83046a2092c6b446a8c92c67846a9092c63046a1492c4b44697892c47846a1892c4304666c92c2b44695c92c2784696092c23046f3c933caa46e9c933aaa46f189334aa46ea49330aa46d809326aa46d2c9322aa46cb0931caa46c80931aaa46c509318aa46be49312aa46ba49310aa46b40930caa46aa89308aa46f0c933c1e46f38933cb446f48933c1446ef8933a1e46efc933ab446f00933a1446ee493374046eec9338a046ed89335f446ee09336a046ec893341e46ec49334b446ed493341446eb09331f446ebc9332a046e2093301e)
  (.lf 0)) (.nd (.lf
  0x2a29c5a932c2a2885a912c2a2745a8f2c2a2605a8d2c2a24c5a8b2c2a2385a892c2a2245a872c2a2105a852c2a1fc5a832c2a1f85a80cc2c8b85ebf2c2c87c5ebd2c2c8385ebb2c2c7f45eb92c2c7b85eb72c2c7785eb52c2c7345eb32c2c6f85eb12c2c6b85eaf2c2c6745ead2c2c6305eab2c2c5ec5ea92c2c5a85ea72c2c56c5ea52c2c5345ea32c2c4f45ea12c2c4b05e9f2c2c4745e9d2c2c43c5e9b2c2c4045e992c2c3c45e972c2c3885e952c2c3505e932c2c3185e912c2c2d85e8f2c2c2945e8d2c2c2585e8b2c2c2185e892c2c1d45e872c2c1985e852c2c1685e832c2c1585e80cc2d9c462bf2c2d9b062bd2c2d99c62bb2c2d98862b92c2d97462b72c2d96062b52c2d94c62b32c2d93862b12c2d92462af2c2d91062ad2c2d8fc62ab2c2d8e862a92c2d8d462a72c2d8c062a52c2d8ac62a32c2d89862a12c2d884629f2c2d870629d2c2d85c629b2c2d84862992c2d83462972c2d82062952c)
  (.lf 0))) (.nd (.nd (.lf
  0x4e4d4a220504e4b8a21e504e4bca21c504e448a21a504e44ca218504e3f0a216504e3c0a214504e39ca212504e3d0a210504e46ca20e504e400a20c504d578a20a504d4f4a208504d4e0a206504d4b8a204504d364a202504d368a200504e6bca63e784e6c0a63c784e6c4a63a784e6c8a638784e6cca636784e6d0a634784e6d4a632784e6d8a630784e6dca62e784e6e0a62c784e6e4a62a784e6e8a628784e538a626784e55ca624784e4fca622784e4dca620784e4c8a61e784e4cca61c784e458a61a784e45ca618784e3f8a616784e3c8a614784e3a4a612784e3d8a610784e474a60e784e408a60c784d580a60a784d4fca608784d4e8a606784d4c0a604784d374a602784d378a6007850748a63e505072ca63c505075ca63a50506f0a63850506f4a63650506aca6345050610a63250505e0a63050505f0a62e505058ca62c5050590a62a5050594a6285050598a626505050ca62450504dca62250)
  (.lf 0)) (.nd (.lf
  0x59f60b44ccc59f68b44acc59f70b448cc59f78b446cc59f80b444cc59f88b442cc5a290b47dd05a27cb47bd05a25cb479d05a248b477d05a238b475d05a220b473d05a208b471d05a1f0b46fd05a1d8b46dd05a1c0b46bd05a1acb469d05a198b467d05a184b465d05a16cb463d05a154b461d05a140b45fd05a128b45dd05a110b45bd05a0f4b459d05a0dcb457d05a0c0b455d05a0b0b453d05a09cb451d05a084b44fd05a06cb44dd05a054b44bd05a040b449d05a02cb447d05a014b445d059ffcb443d059f98b441105a298b43ecc5a2d8b43ccc5a268b43acc5a2dcb438cc5a270b436cc5a234b434cc5a210b432cc5a1fcb430cc5a1e8b42ecc5a1c8b42ccc5a2d4b42acc5a2c8b428cc5a2ccb426cc5a2d0b424cc5a160b422cc5a178b420cc5a13cb41ecc5a11cb41ccc5a0fcb41acc5a0f0b418cc5a0c8b416cc5a100b414cc5a2bcb412cc5a08cb410cc5a2c4b40ecc5a2c0b40ccc5a074b40acc)
  (.lf 0)))

def shaWireTree112 : BTree :=
  .nd (.nd (.nd (.lf
  0x50f2cb17f2c50f80b17d2c50edcb17b2c50e84b1792c50e1cb1772c50d5cb1752c50d70b1732c50d28b1712c50cccb16f2c50c8cb16d2c50c60b16b2c50c34b1692c50bf8b1672c50bc8b1652c50bccb1632c50b8cb1612c50b48b15f2c50b64b15d2c50b00b15b2c50ae4b1592c50ac0b1572c50a9cb1552c50190b1532c4ff44b1512c4fc98b14f2c50a7cb14d2c4f820b14b2c4f800b1492c4f7d8b1472c4f7a8b1452c4f638b1432c4f5b8b140cc52760b57f2c5273cb57d2c526f0b57b2c5269cb5792c52584b5772c525b4b5752c525e4b5732c52514b5712c524e0b56f2c5249cb56d2c52464b56b2c52420b5692c52440b5672c523e0b5652c523bcb5632c5239cb5612c5237cb55f2c52330b55d2c52348b55b2c52304b5592c522bcb5572c5229cb5552c522e8b5532c51ec0b5512c51e10b54f2c51dd4b54d2c51d74b54b2c51d3cb5492c51cc4b5472c52268b5452c51950b5432c518e4b540cc)
  (.lf
  0x35cf47011d035c7c700fd035c00700dd035b88700bd035b047009d035a787007d0359f47005d0359747003d0358c0700110376d874becc376e074bccc376e874bacc376f074b8cc376f874b6cc3770074b4cc3770874b2cc3771074b0cc3771874aecc3772074accc3778074aacc3778874a8cc3779074a6cc3779874a4cc377a074a2cc377a874a0cc377b0749ecc377b8749ccc377c0749acc377c87498cc377d07496cc377d87494cc377e07492cc377e87490cc377f0748ecc377f8748ccc37800748acc378087488cc378107486cc378187484cc378207482cc37d6874bdd037d4074bbd037d1474b9d037ce874b7d037cbc74b5d037c9074b3d037c6474b1d037c3874afd037c0c74add037be074abd037bb474a9d037b8874a7d037b5c74a5d037b3074a3d037b0474a1d037ad8749fd037aac749dd037a80749bd037a547499d037a287497d0379fc7495d0379d07493d0379a47491d037978748fd0))
  (.nd (.lf
  0x550f4002e01550c0002dff54ff4002dfd551bc002dfb54fa4002df954f60002df755028002df554f38002df354ee8002df154eb0002def54e88002ded54e44002deb54e60002de954e04002de754e08002de554db4002de354d84002de156960002ddf568cc002ddd57180002ddb57030002dd957034002dd75708c002dd556efc002dd356e80002dd156dd8002dcf56d48002dcd56c48002dcb56c10002dc956bc8002dc757184002dc557038002dc35703c002dc157090002dbf56f00002dbd56e84002dbb56ddc002db956d4c002db756c4c002db556c14002db356bcc002db156b94002daf56b98002dad56b9c002dab56a38002da9569cc002da7569d0002da5569ec002da356964002da159578002d9f594d0002d9d598e0002d9b59914002d9959898002d97597dc002d95597e0002d93597e4002d915984c002d8f5973c002d8d596fc002d8b59694002d8959698002d87598e4002d8559918002d83)
  (.lf 0))) (.nd (.nd (.lf
  0x384f8771b40387b4771ca03846c7719f4384f4771aa0383cc77181e384647718b43846877181438358771540383c47716a0382b8771340383547714a0382287711f4382b47712a0381a077101e382207710b43822477101438110770df438198770ea038084770c1e38104770cb438108770c1437ff87709403807c770aa037f8077074037ff47708a037ef07705f437f7c7706a037e7077041e37ed87704b437edc77041437e647702b437e68770214372e477fc78372dc77fcb4372e877fc30372d077fa78372c877fab4372d477fa30372b477f878372bc77f8b4372c077f830372a877f678372a477f6b4372ac77f6303729077f4783728c77f4b43729477f4303727c77f2783728077f2b43728477f2303726c77f0783726477f0b43727077f0303725877ee783725077eeb43725c77ee303724477ec783724077ecb43724877ec303722877ea783722c77eab43723077ea303721c77e8783721877e8b4)
  (.lf 0)) (.nd (.lf
  0x6ce3c0063736ccbc0063716cc4800636f6d69000636d6d45800636b6d4600063696d3300063676d3380063656d2180063636d10c0063616f72c00635f6f6b800635d6f6d800635b6f6700063596f6740063576f6240063556f8c40063536f8200063516f8fc00634f6f7d400634d6f7a000634b6f8c80063496f8240063476f9040063456f7dc0063436f7a80063416f85800633f6f73000633d6f73800633b6f6bc0063396f6dc0063376f6780063356f6800063336f6280063316f5b800632f6f8d000632d6f82c00632b6f90c0063296f7e40063276f7b00063256f85c0063236f74000632176edc00631f76e6c00631d76d7800631b76d1800631976c4400631776bf4006315777a800631377630006311774b800630f7736400630d771fc00630b777ac00630977634006307774bc0063057736800630377200006301770e40062ff76fdc0062fd76ee00062fb76e700062f976d7c0062f776d1c0062f5)
  (.lf 0)))

def shaWireTree113 : BTree :=
  .nd (.nd (.nd (.lf
  0x95c0259078095402590b4095c425903009534258e78094b4258eb409538258e30094a8258c7809428258cb4094ac258c300941c258a780939c258ab409420258a30093902588780930c2588b409394258830093002586780928c2586b409304258630092802584780920c2584b40928425843009200258278091d02582b4092042582300b980297c780b9f0297cb40b9f4297c300b904297a780b974297ab40b978297a300b8742978780b8f82978b40b8fc2978300b7f42976780b8682976b40b86c2976300b7782974780b7e82974b40b7ec2974300b6e82972780b76c2972b40b7702972300b6682970780b6dc2970b40b6e02970300b5e8296e780b65c296eb40b660296e300b56c296c780b5dc296cb40b5e0296c300b4e0296a780b560296ab40b564296a300b4542968780b4d42968b40b4d82968300b3c82966780b4482966b40b44c2966300b33c2964780b3bc2964b40b3c02964300b2b0296278)
  (.lf 0)) (.nd (.lf
  0x77b18e3dd2c77b04e3db2c7807ce3d92c777ece3d72c777fce3d52c777c8e3d32c77750e3d12c77560e3cf2c7744ce3cd2c7727ce3cb2c7709ce3c92c76f98e3c72c76f10e3c52c76e40e3c32c76dd0e3c0cc79b60e7ff2c79b48e7fd2c79b30e7fb2c79b1ce7f92c79b04e7f72c79eb8e7f52c79ae0e7f32c79ac8e7f12c79b70e7ef2c79a38e7ed2c79a20e7eb2c79b7ce7e92c799fce7e72c799e4e7e52c799cce7e32c799b4e7e12c799a0e7df2c79980e7dd2c79970e7db2c79954e7d92c79940e7d72c798fce7d52c798ece7d32c798c8e7d12c7978ce7cf2c7973ce7cd2c796e4e7cb2c796d4e7c92c795f8e7c72c79578e7c52c794f8e7c32c79474e7c0cc7b570ebff2c7b558ebfd2c7b54cebfb2c7b52cebf92c7b510ebf72c7b4fcebf52c7b49cebf32c7b434ebf12c7b2dcebef2c7b2d0ebed2c7b348ebeb2c7b284ebe92c7b2f4ebe72c7b28cebe52c7b21cebe32c7b1e8ebe12c7b0d0ebdf2c)
  (.lf 0))) (.nd (.nd (.lf
  0x695c4d042b4695c0d04278695c8d0423069ce4d03cb469cb0d03c7869ce8d03c3069ca4d03ab469b6cd03a7869ca8d03a3069b58d038b469b54d0387869b5cd0383069b44d036b469b38d0367869b48d0363069b14d034b469b20d0347869b24d0343069b08d032b469b04d0327869b0cd0323069af0d030b469ae8d0307869af4d0303069ad0d02eb469accd02e7869adcd02e3069abcd02cb469ac0d02c7869ac4d02c3069aa8d02ab469aa4d02a7869aacd02a3069a90d028b469a8cd0287869a94d0283069a78d026b469a80d0267869a84d0263069a6cd024b469a68d0247869a70d0243069a58d022b469a54d0227869a5cd0223069a34d020b469a44d0207869a48d0203069a20d01eb469a1cd01e7869a24d01e3069a0cd01cb469a08d01c7869a10d01c30699f8d01ab4699fcd01a7869a00d01a30699ecd018b4699e8d01878699f0d01830699ccd016b4699c8d01678699d0d01630699bcd014b4)
  (.lf 0)) (.nd (.lf
  0x4c4409ea7d04c4289ea5d04c4149ea3d04c4009ea1d04c3ec9e9fd04c3d89e9dd04c3c49e9bd04c3b09e99d04c39c9e97d04c3849e95d04c3709e93d04c35c9e91d04c34c9e8fd04c33c9e8dd04c3289e8bd04c3149e89d04c0d49e87d04c0c09e85d04c0ac9e83d04c0989e81104d26c9e7ecc4d2689e7ccc4d2649e7acc4d2609e78cc4d25c9e76cc4d2589e74cc4d2549e72cc4d2509e70cc4d24c9e6ecc4d2489e6ccc4d20c9e6acc4d1dc9e68cc4d1c49e66cc4d1c89e64cc4d1e49e62cc4d1e09e60cc4d1f89e5ecc4d2089e5ccc4d2049e5acc4d2009e58cc4d1fc9e56cc4d1f49e54cc4d3b89e52cc4d1d89e50cc4d1d49e4ecc4d5849e4ccc4d1d09e4acc4d3589e48cc4d1ec9e46cc4d1c09e44cc4d1e89e42cc4df4c9e7dd04df349e7bd04df209e79d04df089e77d04deec9e75d04dc6c9e73d04dc589e71d04dc489e6fd04dc209e6dd04dad09e6bd04dabc9e69d04daac9e67d04da949e65d0)
  (.lf 0)))

def shaWireTree114 : BTree :=
  .nd (.nd (.nd (.lf
  0x67a1cdd503067720dd4e7867984dd4eb4679ccdd4e30676c8dd4c7867714dd4cb467718dd4c3067688dd4a78676a0dd4ab4676c0dd4a306762cdd48786767cdd48b467680dd4830674d8dd467867620dd46b467624dd46306743cdd4478674ccdd44b4674d0dd4430673d4dd427867430dd42b467434dd423068eecddbc7868d58ddbcb468ef0ddbc3068d4cddba7868c94ddbab468d50ddba3068c88ddb87868c70ddb8b468c8cddb83068c64ddb67868b3cddb6b468c68ddb63068b30ddb47868b08ddb4b468b34ddb43068afcddb27868958ddb2b468b00ddb2306894cddb07868948ddb0b468950ddb03068938ddae78688c4ddaeb46893cddae30688b8ddac78688b4ddacb4688bcddac30688a4ddaa78687f8ddaab4688a8ddaa30687ecdda8786878cdda8b4687f0dda83068780dda67868724dda6b468784dda63068718dda478686c4dda4b46871cdda430686b8dda278685bcdda2b4686bcdda230)
  (.lf 0)) (.nd (.lf
  0xbc40038fd00bc80038fb00bcc0038f900bd00038f700bd40038f500bd80038f300bdc0038f100be00038ef00be40038ed00be80038eb00bec0038e900bf00038e700bf40038e500bf80038e300bfc0038e101bd80a3e7801bdc0a3c7801be00a3a7801be40a387801be80a367801bec0a347801bf00a327801bf40a307801bf80a2e7801bfc0a2c7801c000a2a7801c040a287801c080a267801c0c0a247801c100a227801c140a207801c180a1e7801c1c0a1c7801c200a1a7801c240a187801c280a167801c2c0a147801c300a127801c340a107801c380a0e7801c3c0a0c7801c400a0a7801c440a087801c480a067801c4c0a047801c500a027801c540a007803de40a3e5003de80a3c5003dec0a3a5003df00a385003df40a365003df80a345003dfc0a325003e000a305003e040a2e5003e080a2c5003e0c0a2a5003e100a285003e140a265003e180a245003e1c0a225003e200a205003e240a1e50)
  (.lf 0))) (.nd (.nd (.lf
  0x129e82f0eb4129ec2f0e14128dc2f0c1e1295c2f0cb4129602f0c14128582f0940128d42f0aa0127d82f0740128542f08a0127582f0540127d42f06a0126d82f03f4127542f04a0126d02f02b4126d42f02141232c2ffc78123282ffcb4123302ffc30123182ffa78123142ffab41231c2ffa30123042ff878123002ff8b4123082ff830122f02ff678122ec2ff6b4122f42ff630122dc2ff478122d82ff4b4122e02ff430122c82ff278122c42ff2b4122cc2ff230122b42ff078122b02ff0b4122b82ff030122a02fee781229c2feeb4122a42fee301228c2fec78122882fecb4122902fec30122782fea78122742feab41227c2fea30122642fe878122602fe8b4122682fe830122502fe6781224c2fe6b4122542fe6301223c2fe478122382fe4b4122402fe430122282fe278122242fe2b41222c2fe230122142fe078122102fe0b4122182fe030122002fde78121fc2fdeb4122042fde30121ec2fdc78)
  (.lf 0)) (.nd (.lf
  0x203f05172cc20c285170cc20280516ecc20c24516ccc20108516acc20c205168cc1ff945166cc20c1c5164cc1fe185162cc20c185160cc1fc98515ecc20c14515ccc1fb20515acc20c105158cc1f9a45156cc20c0c5154cc1f82c5152cc20c085150cc1f6b8514ecc20c04514ccc1f534514acc20c005148cc1f3c45146cc20bfc5144cc1f2485142cc20ed4517dd020ec0517bd020eac5179d020e9c5177d020e885175d020e705173d020e545171d020e44516fd020e34516dd020e20516bd020e105169d020dfc5167d020de85165d020dcc5163d020db85161d020da8515fd020d98515dd020d84515bd020d705159d020d585157d020d445155d020d305153d020d1c5151d020d0c514fd020cf8514dd020ce4514bd020cc05149d020c9c5147d020c785145d020c545143d01f1b85141102081451becc2079451bccc206dc51bacc2061c51b8cc2056051b6cc204ac51b4cc203ec51b2cc2033451b0cc)
  (.lf 0)))

def shaWireTree115 : BTree :=
  .nd (.nd (.nd (.lf
  0x5e198bfd4305e03cbfd2785e144bfd2b45e148bfd2305df04bfd0785e020bfd0b45e034bfd0305def8bfce785def4bfceb45defcbfce305de9cbfcc785dee4bfccb45dee8bfcc305dd18bfca785de90bfcab45de94bfca305dd00bfc8785dd0cbfc8b45dd10bfc8305dcecbfc6785dcf0bfc6b45dcf4bfc6305dce0bfc4785dcdcbfc4b45dce4bfc4305dcd0bfc2785dcc8bfc2b45dcd4bfc230604e8c2bc78604e4c2bcb4604ecc2bc30604d4c2ba78604d0c2bab4604d8c2ba30604c0c2b878604bcc2b8b4604c4c2b830604acc2b678604a4c2b6b4604b0c2b63060498c2b47860494c2b4b46049cc2b43060484c2b2786047cc2b2b460488c2b23060470c2b07860468c2b0b460474c2b0306045cc2ae7860458c2aeb460460c2ae3060440c2ac7860448c2acb46044cc2ac3060434c2aa7860430c2aab460438c2aa3060414c2a87860418c2a8b460424c2a83060404c2a67860400c2a6b46040cc2a630)
  (.lf 0)) (.nd (.lf
  0x77cf0e2f32c77d7ce2f12c77ccce2ef2c77cc8e2ed2c77ca4e2eb2c77c90e2e92c77c74e2e72c77c60e2e52c77c48e2e32c77c30e2e12c77c18e2df2c77c14e2dd2c77bece2db2c77bdce2d92c78080e2d72c77bb8e2d52c77bace2d32c77b84e2d12c77bbce2cf2c77814e2cd2c77674e2cb2c77520e2c92c77398e2c72c77294e2c52c7711ce2c32c792bce6ff2c79298e6fd2c79234e6fb2c79218e6f92c791d0e6f72c791b4e6f52c791b8e6f32c791dce6f12c78fd8e6ef2c78f44e6ed2c78f58e6eb2c78ef0e6e92c78edce6e72c78ec4e6e52c78fe0e6e32c78e38e6e12c78e1ce6df2c78dd8e6dd2c78df4e6db2c78df0e6d92c78d44e6d72c78d30e6d52c78c8ce6d32c78b84e6d12c78ab8e6cf2c78a88e6cd2c78a74e6cb2c78a18e6c92c789b0e6c72c78930e6c52c7879ce6c32c787b0e6c0cc7aafceaff2c7aaeceafd2c7aad8eafb2c7aabceaf92c7aaa8eaf72c7aa94eaf52c7aac4eaf32c)
  (.lf 0))) (.nd (.nd (.lf
  0x2a6c45884782a6cc5884302a6605882b42a65c5882782a6645882301cacc587cb41cac8587c781cad0587c301cab8587ab41cab4587a781cabc587a301caa45878b41caa05878781caa85878301ca905876b41ca8c5876781ca945876301ca7c5874b41ca785874781ca805874301ca685872b41ca645872781ca6c5872301ca545870b41ca505870781ca585870301ca40586eb41ca3c586e781ca44586e301ca2c586cb41ca28586c781ca30586c301ca18586ab41ca14586a781ca1c586a301ca045868b41ca005868781ca085868301c9f05866b41c9ec5866781c9f45866301c9dc5864b41c9d85864781c9e05864301c9c85862b41c9c45862781c9cc5862301c9b45860b41c9b05860781c9b85860301c9a0585eb41c99c585e781c9a4585e301c98c585cb41c988585c781c990585c301c978585ab41c974585a781c97c585a301c9645858b41c9605858781c9685858301c9505856b41c94c585678)
  (.lf 0)) (.nd (.lf
  0xa71c1bf1d00a7081befd00a6f41bedd00a6e01bebd00a6cc1be9d00a6b81be7d00a6a41be5d00a6901be3d00a67c1be1d00a6681bdfd00a6541bddd00a6401bdbd00a62c1bd9d00a6181bd7d00a6041bd5d00a5f01bd3d00a5dc1bd1d00a5c81bcfd00a5b41bcdd00a5a01bcbd00a58c1bc9d00a5781bc7d00a5641bc5d00a5501bc3d00a5381bc1100c24c1ebecc0c2541ebccc0c25c1ebacc0c2641eb8cc0c26c1eb6cc0c2741eb4cc0c27c1eb2cc0c2841eb0cc0c28c1eaecc0c2941eaccc0c29c1eaacc0c2a41ea8cc0c2ac1ea6cc0c2b41ea4cc0c2bc1ea2cc0c2c41ea0cc0c2cc1e9ecc0c2d41e9ccc0c2dc1e9acc0c2e41e98cc0c2ec1e96cc0c2f41e94cc0c2fc1e92cc0c3041e90cc0c30c1e8ecc0c3141e8ccc0c31c1e8acc0c3241e88cc0c32c1e86cc0c3341e84cc0c33c1e82cc0d32c1ebdd00d2bc1ebbd00d2341eb9d00d1b01eb7d00d1281eb5d00d0a41eb3d00d01c1eb1d00cf901eafd0)
  (.lf 0)))

def shaWireTree116 : BTree :=
  .nd (.nd (.nd (.lf
  0x1c75c000fcb1c760000fc91c764000fc71c768000fc51c76c000fc31c770000fc11c774000fbf1c778000fbd1c77c000fbb1c780000fb91c784000fb71c788000fb51c78c000fb31c790000fb11caf4000faf1caf8000fad1cafc000fab1cb00000fa91cb04000fa71cb08000fa51cb0c000fa31cb10000fa11cb14000f9f1cb18000f9d1cb1c000f9b1cb20000f991cb24000f971cb28000f951cb2c000f931cb30000f911cb34000f8f1cb38000f8d1cb3c000f8b1cb40000f891cb44000f871cb48000f851cb4c000f831cb50000f811cb54000f7f1cb58000f7d1cb5c000f7b1cb60000f791cb64000f771cec8000f751cecc000f731ced0000f711ced4000f6f1ced8000f6d1cedc000f6b1cee0000f691cee4000f671cee8000f651ceec000f631cef0000f611cef4000f5f1cef8000f5d1cefc000f5b1cf00000f591cf04000f571cf08000f551cf0c000f531cf10000f511cf14000f4f1cf18000f4d)
  (.lf 0)) (.nd (.lf
  0x4241c8fa078421f48f9e78421008f9c78421048f9a78421088f98784202c8f967841f908f947841e3c8f927841e408f907841dcc8f8e7841d088f8c7841d0c8f8a7841bf08f887841b508f867841ad48f847841a2c8f827841a308f8078443f08fbe30442148fbc304412c8fba30440e88fb83043fd08fb63043f108fb43043ed08fb23043e188fb03043dac8fae3043d148fac3043b448faa3043a948fa83043a488fa630439f48fa430439008fa230438748fa030437cc8f9e304378c8f9c30436bc8f9a30436248f9830435a08f96304350c8f9430435108f9230434008f9030433548f8e30432cc8f8c30432348f8a30432388f883042d848f863042c0c8f843042c108f823042c148f8030461c893beb4461cc93bcb4461d093bab4461d493b8b4461d893b6b4461dc93b4b4461e093b2b4461e493b0b4461e893aeb4461ec93acb4461f093aab4461f493a8b4461f893a6b4461fc93a4b44620093a2b4)
  (.lf 0))) (.nd (.nd (.lf
  0x277bc532340278505324a0277245321f4277b85322a02768453201e2771c5320b427720532014275e8531d402767c531ea027550531bf4275e4531ca0274b0531a1e27548531ab42754c531a14274145317f4274a85318a02737453161e2740c5316b427410531614272d053141e273685314b42736c53141427234531140272c85312a02719c530f40272305310a027104530df427198530ea027064530c1e270fc530cb427100530c1426fc0530a1e27058530ab42705c530a1426f245307f426fb85308a026e8453061e26f1c5306b426f2053061426de053041e26e785304b426e7c53041426dd45302b426dd8530214266a453fc78266a053fcb4266a853fc302669053fa782668c53fab42669453fa302667c53f8782667853f8b42668053f8302666853f6782666453f6b42666c53f6302665453f4782665053f4b42665853f4302664053f2782663c53f2b42664453f2302662c53f0782662853f0b4)
  (.lf 0)) (.nd (.lf
  0x64164d56acc64140d568cc63f78d566cc63cf0d564cc63bbcd562cc63b94d560cc63bc0d55ecc63a8cd55ccc63a4cd55acc63a34d558cc639ecd556cc63660d554cc63648d552cc63640d550cc63628d54ecc63404d54ccc6312cd54acc630d8d548cc62f84d546cc62d48d544cc62ca0d542cc64858d57dd0647fcd57bd0647a4d579d06474cd577d0646c8d575d064658d573d064644d571d0643ccd56fd064054d56dd064000d56bd063fdcd569d063fa0d567d063f64d565d063c64d563d063c0cd561d063bccd55fd063b74d55dd063b34d55bd063b0cd559d063afcd557d0639d4d555d063944d553d063910d551d0638fcd54fd0638d8d54dd063150d54bd063140d549d062ff4d547d062d38d545d062cccd543d062c38d5411064494d5becc644acd5bccc64464d5bacc640e4d5b8cc640d0d5b6cc640b0d5b4cc64098d5b2cc64084d5b0cc6412cd5aecc64194d5accc64198d5aacc63fe4d5a8cc)
  (.lf 0)))

def shaWireTree117 : BTree :=
  .nd (.nd (.nd (.lf
  0x77b0ce3dab477b10e3da3077abce3d87877af8e3d8b477afce3d830777f0e3d678777f4e3d6b4777f8e3d630777e0e3d478777dce3d4b4777e4e3d4307775ce3d278777d0e3d2b4777d4e3d23077570e3d07877740e3d0b477754e3d03077458e3ce7877564e3ceb477568e3ce307728ce3cc7877444e3ccb477450e3cc30770a8e3ca7877280e3cab477284e3ca3076fa8e3c8787708ce3c8b4770a0e3c83076f1ce3c67876f9ce3c6b476fa0e3c63076e50e3c47876f00e3c4b476f14e3c43076dd8e3c27876e44e3c2b476e48e3c2307902ce6bc7879028e6bcb479030e6bc3079014e6ba7879008e6bab479018e6ba3078ffce6b87878ff8e6b8b479000e6b83078fcce6b67878fe4e6b6b478fe8e6b63078fb8e6b47878fc0e6b4b478fc4e6b43078fa8e6b27878fa4e6b2b478face6b23078f94e6b07878f90e6b0b478f98e6b03078f6ce6ae7878f68e6aeb478f70e6ae3078f34e6ac7878f3ce6acb4)
  (.lf 0)) (.nd (.lf
  0x7726c0052fd770840052fb76f780052f976eec0052f776e080052f5777c00052f37773c0052f1775580052ef774400052ed772740052eb770880052e976f900052e776ef40052e576e380052e376dcc0052e1794bc0052df794180052dd798140052db799100052d9797cc0052d7797c40052d5796b40052d37966c0052d1796380052cf795d40052cd795380052cb794a40052c9794c00052c7798000052c5798d80052c3797880052c1797d80052bf797180052bd796c00052bb795e40052b9795cc0052b77952c0052b57981c0052b3798bc0052b1797780052af797340052ad796940052ab796cc0052a9795f00052a7795700052a5794e80052a3794700052a179d9400529f79d4800529d7a01c00529b79ffc00529979f3000529779f6800529579f0000529379ed000529179e1c00528f79e9800528d79e7800528b79dbc00528979da40052877a04000528579ff000528379f8400528179f9000527f)
  (.lf 0))) (.nd (.nd (.lf
  0x4890c946230488dc9460b4488d8946078488e0946030488b0945eb4488ac945e78488b4945e3048884945cb448880945c7848888945c3048858945ab448854945a784885c945a304882c9458b44882894587848830945830488009456b4487fc94567848804945630487d49454b4487d0945478487d8945430487a89452b4487a4945278487ac9452304877c9450b4487789450784878094503048750944eb44874c944e7848754944e3048724944cb448720944c7848728944c30486f8944ab4486f4944a78486fc944a30486c89448b4486c4944878486cc9448304869c9446b448698944678486a0944630486709444b44866c94447848674944430486449442b4486409442784864894423048b30943cb448b10943c7848b34943c3048b04943ab448ae4943a7848b08943a3048ad89438b448ab894387848adc94383048aac9436b448a8c94367848ab094363048a809434b448a6094347848a84943430)
  (.lf 0)) (.nd (.lf
  0x2c0bc5ea6cc2c0c45ea4cc2c0cc5ea2cc2c0d45ea0cc2c0dc5e9ecc2c0e45e9ccc2c0ec5e9acc2c0f45e98cc2c0fc5e96cc2c1045e94cc2c10c5e92cc2c1145e90cc2c11c5e8ecc2c1245e8ccc2c12c5e8acc2c1345e88cc2c13c5e86cc2c1445e84cc2c14c5e82cc2c8b45ebdd02c8785ebbd02c8345eb9d02c7f05eb7d02c7b45eb5d02c7745eb3d02c7305eb1d02c6f45eafd02c6b45eadd02c6705eabd02c62c5ea9d02c5e85ea7d02c5a45ea5d02c5685ea3d02c5305ea1d02c4f05e9fd02c4ac5e9dd02c4705e9bd02c4385e99d02c4005e97d02c3c05e95d02c3845e93d02c34c5e91d02c3145e8fd02c2d45e8dd02c2905e8bd02c2545e89d02c2145e87d02c1d05e85d02c1945e83d02c1545e811025f285e7ecc25f005e7ccc25ed85e7acc25cec5e78cc25cd85e76cc25cc45e74cc25ca05e72cc25c805e70cc25c685e6ecc25dac5e6ccc25c405e6acc25c885e68cc25c1c5e66cc25bbc5e64cc)
  (.lf 0)))

def shaWireTree118 : BTree :=
  .nd (.nd (.nd (.lf
  0x36a8c81aeb436aa481ae3036a3881ac7836a8081acb436a8481ac3036a2c81aa7836a2881aab436a3081aa3036a1881a87836a1c81a8b436a2081a83036a0481a67836a0881a6b436a0c81a630369f081a478369f481a4b4369f881a430369d081a278369cc81a2b4369d481a230369bc81a078369c081a0b4369c481a0303695c819e7836960819eb436964819e3036948819c783694c819cb436950819c3036938819a783693c819ab436940819a3036924819878369288198b43692c81983036914819678369108196b436918819630368ec819478369008194b436904819430368e0819278368948192b4368e48192303687c819078368848190b4368888190303686c818e7836868818eb436874818e303685c818c7836858818cb436860818c3036848818a7836840818ab43684c818a3036834818878368308188b43683881883036808818678368208186b436824818630367fc8184783677c8184b4)
  (.lf 0)) (.nd (.lf
  0x4c864a09d2c4c850a09b2c4c83ca0992c4c828a0972c4c814a0952c4c800a0932c4c7eca0912c4c7d8a08f2c4c7c4a08d2c4c7b0a08b2c4c79ca0892c4c788a0872c4c774a0852c4c760a0832c4c75ca080cc4ee2ca4bf2c4ee18a4bd2c4ee04a4bb2c4edf0a4b92c4eddca4b72c4edc8a4b52c4edb4a4b32c4eda0a4b12c4ed8ca4af2c4ed78a4ad2c4ed64a4ab2c4ed50a4a92c4ed3ca4a72c4ed28a4a52c4ed14a4a32c4ed00a4a12c4ececa49f2c4ecd8a49d2c4ecc4a49b2c4ecb0a4992c4ec9ca4972c4ec88a4952c4ec74a4932c4ec60a4912c4ec4ca48f2c4ec38a48d2c4ec24a48b2c4ec10a4892c4ebfca4872c4ebe8a4852c4ebd4a4832c4ebd0a480cc4fbfca8bf2c4fbe8a8bd2c4fbd4a8bb2c4fbc0a8b92c4fbaca8b72c4fb98a8b52c4fb84a8b32c4fb70a8b12c4fb5ca8af2c4fb48a8ad2c4fb34a8ab2c4fb20a8a92c4fb0ca8a72c4faf8a8a52c4fae4a8a32c4fad0a8a12c4fabca89f2c)
  (.lf 0))) (.nd (.nd (.lf
  0xec0a4c78000f40a4c30000dc0a4ab4000d80a4a78000e00a4a30000c80a48b4000c40a4878000cc0a4830000b40a46b4000b00a4678000b80a4630000a00a44b40009c0a4478000a40a44300008c0a42b4000880a4278000900a42300563c0afcb4056a40afc78056a80afc30055b40afab4056300afa78056340afa30055280af8b4055a80af878055ac0af830054a40af6b40551c0af678055200af6300541c0af4b4054980af4780549c0af430053980af2b4054100af278054140af230053100af0b40538c0af078053900af030052840aeeb4053040aee78053080aee30051f80aecb4052780aec780527c0aec30051740aeab4051ec0aea78051f00aea30050f40ae8b4051680ae8780516c0ae830050740ae6b4050e80ae678050ec0ae63004ff40ae4b4050680ae4780506c0ae43004f740ae2b404fe80ae27804fec0ae23004ef40ae0b404f680ae07804f6c0ae03004e6c0adeb404ee80ade78)
  (.lf 0)) (.nd (.lf
  0x6f89cde87d06f888de85d06f870de83d06f748de811070564de7ecc70558de7ccc70568de7acc704b8de78cc70398de76cc703a0de74cc70360de72cc70344de70cc70338de6ecc70314de6ccc70308de6acc701dcde68cc701a8de66cc70174de64cc70148de62cc70224de60cc70220de5ecc7021cde5ccc6ffecde5acc6ffdcde58cc6ffb8de56cc6ff98de54cc6ffbcde52cc6ff64de50cc6ff84de4ecc6ff28de4ccc6fefcde4acc6fe14de48cc6fd8cde46cc6fd50de44cc6fd28de42cc7091cde7dd070904de7bd0708ecde79d0708ccde77d0708bcde75d0708a4de73d07088cde71d070874de6fd07085cde6dd070844de6bd07082cde69d070810de67d0707fcde65d0707e4de63d0707c4de61d0707acde5fd07079cde5dd070784de5bd07076cde59d070060de57d070050de55d070030de53d070020de51d070008de4fd06ff3cde4dd06fef8de4bd06fe48de49d06fda4de47d06fd5cde45d0)
  (.lf 0)))

def shaWireTree119 : BTree :=
  .nd (.nd (.nd (.lf
  0x4b1749b0a1e4b19c9b0ab44b1a09b0a144b0b09b07f44b1209b08a04b05c9b061e4b0a89b06b44b0ac9b06144b0509b04b44b0549b041449cf09bfc7849ce89bfcb449cf49bfc3049cd89bfa7849cdc9bfab449ce09bfa3049cc89bf87849cc09bf8b449ccc9bf83049cb09bf67849cb49bf6b449cb89bf63049ca09bf47849c989bf4b449ca49bf43049c849bf27849c8c9bf2b449c909bf23049c789bf07849c709bf0b449c7c9bf03049c5c9bee7849c649beeb449c689bee3049c509bec7849c4c9becb449c549bec3049c3c9bea7849c389beab449c409bea3049c289be87849c249be8b449c2c9be83049c149be67849c109be6b449c189be63049c009be47849bfc9be4b449c049be43049bec9be27849be89be2b449bf09be23049bd09be07849bd89be0b449bdc9be03049bbc9bde7849bc49bdeb449bc89bde3049bb09bdc7849ba89bdcb449bb49bdc3049b949bda7849b9c9bdab449ba09bda30)
  (.lf 0)) (.nd (.lf
  0x6d7f0da932c6d7f4da912c6d6a8da8f2c6d698da8d2c6d478da8b2c6d48cda892c6d3c8da872c6d3b4da852c6d220da832c6d110da80cc6fb28debf2c6fb10debd2c6fb18debb2c6faecdeb92c6fad8deb72c6fadcdeb52c6fb30deb32c6faa4deb12c6fa90deaf2c6fa78dead2c6fa68deab2c6fa54dea92c6fa3cdea72c6fa2cdea52c6fa14dea32c6fa00dea12c6fa18de9f2c6f9dcde9d2c6f9c8de9b2c6f9d8de992c6f99cde972c6f98cde952c6f980de932c6f964de912c6f94cde8f2c6f940de8d2c6f924de8b2c6f914de892c6f894de872c6f878de852c6f864de832c6f744de80cc77ab0e2bf2c77a9ce2bd2c77a84e2bb2c77a6ce2b92c77a54e2b72c77a3ce2b52c77a24e2b32c77a10e2b12c779f8e2af2c779e0e2ad2c779c8e2ab2c779b0e2a92c7799ce2a72c77984e2a52c7796ce2a32c77958e2a12c77940e29f2c77928e29d2c77910e29b2c778f8e2992c778e0e2972c778c8e2952c)
  (.lf 0))) (.nd (.nd (.lf
  0x76a28e22050769c4e21e5076938e21c50768c4e21a5076840e21850767bce2165076774e21450765b8e2125076598e2105076578e20e5076554e20c50765f0e20a5076484e20850763f8e2065076318e2045076348e202506fd08e200507779ce63e7877624e63c78774ace63a7877358e63878771f0e63678770d0e6347876fc0e6327876ebce6307876e64e62e7876d58e62c7876d10e62a7876c38e6287876be8e6267876b64e6247876ae0e6227876a30e62078769cce61e7876940e61c78768cce61a7876848e61878767c4e616787677ce61478765c0e61278765a0e6107876580e60e787655ce60c78765f8e60a787648ce60878763dce6067876320e6047876350e602786fd10e60078788e0e63e5078714e63c5078838e63a50786d4e6385078600e63650785b8e6345078744e6325078534e63050784e8e62e50784a4e62c50783e8e62a5078450e6285078358e626507830ce62450782f0e62250)
  (.lf 0)) (.nd (.lf
  0x650e4c809d06508cc807d06502cc805d064fdcc803d064f24c8011063674ccbecc6367cccbccc63684ccbacc6368cccb8cc63694ccb6cc6369cccb4cc636a4ccb2cc636acccb0cc636b4ccaecc636bcccaccc63710ccaacc63718cca8cc63720cca6cc6397ccca4cc63728cca2cc63730cca0cc63738cc9ecc63740cc9ccc63748cc9acc63750cc98cc63984cc96cc63758cc94cc6398ccc92cc63760cc90cc63768cc8ecc63770cc8ccc63778cc8acc63780cc88cc63788cc86cc63790cc84cc63798cc82cc64d54ccbdd064d40ccbbd064d30ccb9d064d1cccb7d064d08ccb5d064cf4ccb3d064ce0ccb1d064cc8ccafd064cb8ccadd064ca4ccabd064c90cca9d064c7ccca7d064c64cca5d064c54cca3d064c40cca1d064c28cc9fd064c14cc9dd064c04cc9bd064bf0cc99d064bdccc97d064bc8cc95d064bb4cc93d064b9ccc91d064b88cc8fd064b78cc8dd063800cc8bd0637f0cc89d0637dccc87d0)
  (.lf 0)))

def shaWireTree120 : BTree :=
  .nd (.nd (.nd (.lf
  0xebe431bf2c0eb6c31bd2c0eb0c31bb2c0ea6031b92c0e9d431b72c0e97431b52c0e8f431b32c0e87431b12c0e7f431af2c0e77431ad2c0e6f431ab2c0e67431a92c0e5f431a72c0e54831a52c0e4bc31a32c0e43031a12c0e3a4319f2c0e344319d2c0e298319b2c0e23831992c0e18c31972c0e12c31952c0e08031932c0e02031912c0df74318f2c0df14318d2c0de94318b2c0dde831892c0dd6c31872c0dcf431852c0dc8031832c0dc4c3180cc1048c35bf2c1043c35bd2c103c435bb2c1031835b92c102b835b72c1023835b52c1018c35b32c1012c35b12c1008035af2c1002035ad2c0ffa035ab2c0ff2035a92c0fea035a72c0fe2035a52c0fd7435a32c0fce835a12c0fc88359f2c0fbdc359d2c0fb7c359b2c0fad035992c0fa4435972c0f9e435952c0f93835932c0f8ac35912c0f84c358f2c0f7cc358d2c0f74c358b2c0f6cc35892c0f64c35872c0f5cc35852c0f54c35832c0f4ec3580cc)
  (.lf
  0x1a15c4415d01a1184413d01a0d44411d01a090440fd01a04c440dd01a008440bd019fc44409d019f804407d019f3c4405d019ef84403d019eb44401102314048becc2314848bccc2315048bacc2315848b8cc2316048b6cc2316848b4cc2317048b2cc2317848b0cc2318048aecc2318848accc231e848aacc231f048a8cc231f848a6cc2320048a4cc2320848a2cc2321048a0cc23218489ecc23220489ccc23228489acc232304898cc232384896cc232404894cc232484892cc232504890cc23258488ecc23260488ccc23268488acc232704888cc232784886cc232804884cc232884882cc243a448bdd02432c48bbd0242a448b9d02421c48b7d02418c48b5d0240f848b3d02406848b1d023fd848afd023f4848add023eb848abd023e3048a9d023da848a7d023d2048a5d023c9848a3d023c1048a1d023b80489fd023aec489dd023a60489bd0239d84899d0239484897d0238b44895d0238204893d0))
  (.nd (.lf
  0x76a7ce3a030769e4e39e3076968e39c3076908e39a3076874e39830767f8e3963076750e39430766c8e39230766ece3903076694e38e307664ce38c3076668e38a307643ce38830764ace38630763a4e3843076384e382306fcf8e38030797f0e7beb4798ace7bcb4797b4e7bab4797a8e7b8b479690e7b6b479670e7b4b4795ece7b2b479648e7b0b4794e4e7aeb479468e7acb479448e7aab4794a8e7a8b4793f8e7a6b4793d8e7a4b479394e7a2b4793b0e7a0b479360e79eb479330e79cb4792f4e79ab479304e798b478194e796b47801ce794b477fe4e792b477fc8e790b477fa8e78eb477ad0e78cb4776d4e78ab4775c0e788b4773ace786b4772c8e784b47712ce782b477000e780b477780e7be787771ce7bc78774ece7ba787745ce7b878771c8e7b67877070e7b47876f64e7b27876ef8e7b07876dfce7ae7876dc0e7ac7876ce0e7aa7876c6ce7a87876ba8e7a67876b34e7a47876aace7a278)
  (.lf 0))) (.nd (.nd (.lf
  0x304506668b4304d0666878304d4666830303cc6666b430444666678304486666303034c6664b4303c0666478303c4666430302cc6662b43034066627830344666230302446660b4302c0666078302c4666030301b8665eb430238665e783023c665e303012c665cb4301ac665c78301b0665c30300a8665ab430120665a7830124665a30300286658b43009c665878300a06658302ffa86656b43001c665678300206656302ff206654b42ff9c6654782ffa06654302fe946652b42ff146652782ff186652302fe106650b42fe886650782fe8c6650302fd90664eb42fe04664e782fe08664e302fd08664cb42fd84664c782fd88664c302fc7c664ab42fcfc664a782fd00664a302fbf86648b42fc706648782fc746648302fb786646b42fbec6646782fbf06646302faec6644b42fb6c6644782fb706644302fa946642b42fae06642782fae46642303098066fcb43092066fc783098466fc303091466fab4)
  (.lf 0)) (.nd (.lf
  0x835701066cc8350c1064cc835441062cc8348c1060cc82dec105ecc82dfc105ccc82e28105acc82d7c1058cc82d101056cc82ccc1054cc82d081052cc82b241050cc82a8c104ecc8298c104ccc8273c104acc826f81048cc826e01046cc826a01044cc821fc1042cc83e7c107dd083e68107bd083e501079d083e3c1077d083e2c1075d083e101073d083e001071d083df0106fd083dd0106dd083dc0106bd083db01069d083da01067d083d8c1065d083d701063d083d601061d083d50105fd082e34105dd082e1c105bd082d841059d082d3c1057d082d241055d082d141053d082b2c1051d082a98104fd082998104dd0828d0104bd0828bc1049d0828a81047d0826b01045d0822901043d08227c1041108293c147ecc825e0147ccc825c4147acc825c81478cc822781476cc821541474cc821181472cc821001470cc82090146ecc82074146ccc82040146acc820181468cc822b81466cc81fe81464cc)
  (.lf 0)))

def shaWireTree121 : BTree :=
  .nd (.nd (.nd (.lf
  0x7fa60f6e4307fa1cf6e2b47fa2cf6e2787fa30f6e2307fa10f6e0b47fa04f6e0787fa14f6e0307f9b0f6deb47f9d4f6de787f9d8f6de307f9a4f6dcb47f950f6dc787f9a8f6dc307f914f6dab47f940f6da787f944f6da307f7dcf6d8b47f8b0f6d8787f8b4f6d8307f7d0f6d6b47f7ccf6d6787f7d4f6d6307f64cf6d4b47f7bcf6d4787f7c0f6d4307f640f6d2b47f63cf6d2787f644f6d2307f5e8f6d0b47f62cf6d0787f630f6d0307f5c0f6ceb47f5dcf6ce787f5e0f6ce307f518f6ccb47f54cf6cc787f5b8f6cc307f50cf6cab47f34cf6ca787f510f6ca307f1a8f6c8b47f21cf6c8787f220f6c8307f130f6c6b47f198f6c6787f1a0f6c6307f0b0f6c4b47f124f6c4787f128f6c4307effcf6c2b47f084f6c2787f0a8f6c2307fca4f73eaa7fca8f73aaa7fc40f734aa7fb24f72caa7fab0f728aa7ff70f71caa7f958f71aaa7f7e8f716aa7f810f714aa7f66cf70eaa7f564f70caa7f358f70aaa)
  (.lf 0)) (.nd (.lf
  0x7696ce39dd07690ce39bd07687ce399d0767fce397d076754e395d0766cce393d0766f0e391d076698e38fd076674e38dd07666ce38bd076440e389d0764b0e387d0763a8e385d076388e383d06fcfce381d07980ce7bfd0798b4e7bdd0797bce7bbd0797b0e7b9d07969ce7b7d079680e7b5d079620e7b3d079650e7b1d079510e7afd079484e7add079454e7abd0794b0e7a9d079408e7a7d0793e0e7a5d0793bce7a3d0793b8e7a1d07936ce79fd07933ce79dd079314e79bd079340e799d0781a0e797d078024e795d077fece793d077fd0e791d077fb0e78fd077ad8e78dd0776dce78bd0775c8e789d0773d0e787d0772d0e785d077134e783d077008e781d07a034ebbfd079ff4ebbdd079f3cebbbd079f5cebb9d079fc8ebb7d079fc0ebb5d079e6cebb3d079ea4ebb1d079e50ebafd079d8cebadd079dccebabd079d54eba9d079d2ceba7d079d04eba5d079cd4eba3d079cb4eba1d079c90eb9fd0)
  (.lf 0))) (.nd (.nd (.lf
  0x57a64b4b07857a6cb4b03057a54b4aeb457a50b4ae7857a58b4ae3057a40b4acb457a3cb4ac7857a44b4ac3057a2cb4aab457a28b4aa7857a30b4aa3057a18b4a8b457a14b4a87857a1cb4a83057a04b4a6b457a00b4a67857a08b4a630579f0b4a4b4579ecb4a478579f4b4a430579dcb4a2b4579d8b4a278579e0b4a230579c8b4a0b4579c4b4a078579ccb4a030579b4b49eb4579b0b49e78579b8b49e30579a0b49cb45799cb49c78579a4b49c305798cb49ab457988b49a7857990b49a3057978b498b457974b498785797cb4983057964b496b457960b4967857968b4963057950b494b45794cb4947857954b494305793cb492b457938b4927857940b4923057928b490b457924b490785792cb4903057914b48eb457910b48e7857918b48e3057900b48cb4578fcb48c7857904b48c30578ecb48ab4578e8b48a78578f0b48a30578d8b488b4578d4b48878578dcb48830578c4b486b4578c0b48678)
  (.lf 0)) (.nd (.lf
  0x3b1bc7eb0cc3b1c47eaecc3b1cc7eaccc3b1d47eaacc3b1dc7ea8cc3b1e47ea6cc3b1ec7ea4cc3b1f47ea2cc3b1fc7ea0cc3b2047e9ecc3b20c7e9ccc3b2147e9acc3b21c7e98cc3b2247e96cc3b22c7e94cc3b2347e92cc3b23c7e90cc3b2447e8ecc3b24c7e8ccc3b2547e8acc3b25c7e88cc3b2647e86cc3b26c7e84cc3b2747e82cc3b4d87ebdd03b4c47ebbd03b4b07eb9d03b49c7eb7d03b4887eb5d03b4747eb3d03b4607eb1d03b4487eafd03b4347eadd03b4207eabd03b4107ea9d03b3fc7ea7d03b3e87ea5d03b3d07ea3d03b3bc7ea1d03b3a87e9fd03b3987e9dd03b3847e9bd03b3707e99d03b35c7e97d03b3487e95d03b3347e93d03b3207e91d03b3087e8fd03b2f87e8dd03b2e47e8bd03b2d07e89d03b2bc7e87d03b2a87e85d03b2907e83d03b2807e81103ddc47e7ecc3dd447e7ccc3ddc87e7acc3dcb87e78cc3ddf47e76cc3dd9c7e74cc3dd8c7e72cc3ddb47e70cc3dda47e6ecc)
  (.lf 0)))

def shaWireTree122 : BTree :=
  .nd (.nd (.nd (.lf
  0x50f1cb17c7850f20b17cb450f24b17c3050f10b17a7850ed8b17ab450f14b17a3050e78b1787850e74b178b450e7cb1783050e68b1767850e20b176b450e6cb1763050e10b1747850d84b174b450e14b1743050d4cb1727850d50b172b450d54b1723050d3cb1707850d40b170b450d44b1703050cd0b16e7850d0cb16eb450d10b16e3050c90b16c7850cc0b16cb450cc4b16c3050c58b16a7850c54b16ab450c5cb16a3050c2cb1687850c28b168b450c30b1683050bfcb1667850c1cb166b450c20b1663050bc0b1647850bc4b164b450bf0b1643050bb4b1627850bb0b162b450bb8b1623050b88b1607850ba4b160b450ba8b1603050b4cb15e7850b7cb15eb450b80b15e3050b2cb15c7850b30b15cb450b34b15c3050afcb15a7850af8b15ab450b24b15a3050ae8b1587850aecb158b450af0b1583050ad8b1567850ad4b156b450adcb1563050ab4b1547850aa0b154b450ab8b1543050a90b15278)
  (.lf 0)) (.nd (.lf
  0x70c74e05d2c70c58e05b2c70c3ce0592c70c64e0572c70c10e0552c70bf4e0532c70c18e0512c70bd0e04f2c70bb8e04d2c70b5ce04b2c70e14e0492c70afce0472c70ad0e0452c70a9ce0432c70aa4e040cc72034e47f2c7201ce47d2c71ff0e47b2c7203ce4792c71fc8e4772c71fa4e4752c71f80e4732c71c98e4712c71c80e46f2c71c64e46d2c71c50e46b2c71c2ce4692c71c1ce4672c71bfce4652c71be4e4632c71bb0e4612c71b9ce45f2c71b84e45d2c71b68e45b2c71b24e4592c71a9ce4572c71a80e4552c71a38e4532c719b0e4512c7198ce44f2c71970e44d2c71850e44b2c71830e4492c7180ce4472c71818e4452c717ece4432c71858e440cc72940e87f2c72930e87d2c72914e87b2c728f0e8792c728fce8772c728cce8752c728b8e8732c7289ce8712c7288ce86f2c72860e86d2c7286ce86b2c72874e8692c72824e8672c7280ce8652c727f4e8632c727dce8612c727c0e85f2c)
  (.lf 0))) (.nd (.nd (.lf
  0x6d201e70b406cb81e707806d241e703006cac1e6eb406c401e6e7806cb01e6e3006c341e6cb406bdc1e6c7806c381e6c3006bd01e6ab406b681e6a7806bd41e6a3006b5c1e68b406af01e687806b601e683006ae41e66b406a8c1e667806ae81e663006a801e64b406a141e647806a841e643006a081e62b4069b01e627806a0c1e6230069a41e60b40693c1e6078069a81e6030069301e5eb4068c81e5e78069341e5e30068bc1e5cb4068501e5c78068c01e5c30068441e5ab4067ec1e5a78068481e5a30067e01e58b4067781e5878067e41e58300676c1e56b4067001e5678067701e5630066f41e54b40669c1e5478066f81e5430066901e52b4066281e5278066941e52300661c1e50b4065b41e5078066201e5030065a81e4eb40653c1e4e78065ac1e4e30065301e4cb4064d81e4c78065341e4c30064cc1e4ab4064601e4a78064d01e4a30064541e48b4063f81e4878064581e4830063ec1e46b4)
  (.lf 0)) (.nd (.lf
  0x7d11cfe56cc7d0ccfe54cc7d088fe52cc7d064fe50cc7cfdcfe4ecc7cffcfe4ccc7c470fe4acc7c420fe48cc7c3ccfe46cc7c098fe44cc7bfc0fe42cc7d874fe7dd07d860fe7bd07d84cfe79d07d838fe77d07d824fe75d07d80cfe73d07d7fcfe71d07d7e8fe6fd07d7d4fe6dd07d7c0fe6bd07d7acfe69d07d794fe67d07d784fe65d07d770fe63d07d75cfe61d07d744fe5fd07d730fe5dd07d718fe5bd07d704fe59d07d6f4fe57d07d6e4fe55d07d09cfe53d07d05cfe51d07d02cfe4fd07d018fe4dd07c458fe4bd07c41cfe49d07c3b8fe47d07c124fe45d07bf7cfe43d07bd34fe411082f8cfefecc82f90fefccc82f64fefacc82f44fef8cc82f38fef6cc82f48fef4cc82f00fef2cc82ee8fef0cc82ed0feeecc82eb8feeccc82eacfeeacc82e84fee8cc82e90fee6cc82e58fee4cc82bd0fee2cc82bbcfee0cc82be4fedecc82bdcfedccc82becfedacc82b74fed8cc82b54fed6cc82b40fed4cc)
  (.lf 0)))

def shaWireTree123 : BTree :=
  .nd (.nd (.nd (.lf
  0x560bcae543056098ae52b456094ae5278560a4ae523056088ae50b456084ae50785608cae503056068ae4eb456064ae4e7856074ae4e3056058ae4cb456054ae4c785605cae4c3056040ae4ab456038ae4a7856044ae4a305601cae48b456020ae48785602cae483056010ae46b45600cae467856014ae463055f94ae44b455f90ae447856004ae443055ec8ae42b455eccae427855ef0ae423056f74aefcb456f70aefc7856f78aefc3056f60aefab456f64aefa7856f68aefa3056f50aef8b456f4caef87856f54aef83056ef4aef6b456f40aef67856f44aef63056614aef4b456610aef47856eb4aef43056600aef2b456604aef27856608aef230565ecaef0b4565e8aef078565f0aef030565d4aeeeb4565ccaeee78565d8aeee30565c0aeecb4565bcaeec78565c4aeec30564e0aeeab4564e4aeea78565acaeea30564a4aee8b4564a0aee878564d0aee83056490aee6b456484aee67856494aee630)
  (.lf 0)) (.nd (.lf
  0x6e82cda532c6e814da512c6e834da4f2c6e194da4d2c6e17cda4b2c6e154da492c6e12cda472c6dc7cda452c6dbf8da432c6dbc0da40cc70920de7f2c70908de7d2c708f4de7b2c708d0de792c708e4de772c708a8de752c70890de732c70880de712c70860de6f2c70850de6d2c70830de6b2c70818de692c70804de672c707e8de652c707d8de632c707bcde612c707d0de5f2c70788de5d2c70774de5b2c70064de592c70068de572c70034de552c7003cde532c7000cde512c6ff88de4f2c6ff2cde4d2c6ff14de4b2c6fe50de492c6fd98de472c6fed8de452c6fd2cde432c6fcb8de40cc7156ce27f2c71560e27d2c71540e27b2c71544e2792c71570e2772c71510e2752c714f8e2732c714f0e2712c714c8e26f2c714d4e26d2c714d8e26b2c71204e2692c71574e2672c710e8e2652c710b0e2632c710cce2612c71088e25f2c7107ce25d2c71060e25b2c7104ce2592c7103ce2572c71028e2552c)
  (.lf 0))) (.nd (.nd (.lf
  0x642d4001c816437c001c7f642d8001c7d64434001c7b642dc001c79642e0001c77642e4001c7564060001c7364438001c7163e98001c6f63c98001c6d63cb0001c6b63c80001c6963ae4001c6763a98001c6563a9c001c6363aa0001c6165fa4001c5f65fa8001c5d65f60001c5b65f64001c5965e84001c5765280001c556694c001c5366950001c5166954001c4f66958001c4d66894001c4b6695c001c4966960001c4766964001c4566968001c4366898001c41667f0001c3f667f4001c3d667f8001c3b667fc001c3966800001c3766644001c3566684001c33666a4001c3166610001c2f663f8001c2d663e4001c2b6635c001c29662a8001c27662ac001c2566220001c23661e4001c216832c001c1f67b08001c1d67a44001c1b679dc001c1967744001c17676ec001c1569114001c1368f68001c1168dbc001c0f68e34001c0d68cf4001c0b69118001c0968f6c001c0768dc0001c0568e38001c03)
  (.lf 0)) (.nd (.lf
  0x74810f405d074780f403d074768f4011074240f8becc74184f8bccc7416cf8bacc74148f8b8cc740bcf8b6cc74150f8b4cc74098f8b2cc7410cf8b0cc74058f8aecc74114f8accc7444cf8aacc74428f8a8cc743b8f8a6cc743c0f8a4cc7436cf8a2cc74268f8a0cc74270f89ecc74430f89ccc74438f89acc74440f898cc74448f896cc743c8f894cc743d0f892cc74378f890cc74278f88ecc74280f88ccc74288f88acc74290f888cc74298f886cc742a0f884cc742a8f882cc745e0f8bdd0745d0f8bbd0745bcf8b9d0745a8f8b7d074594f8b5d074580f8b3d07456cf8b1d074558f8afd074544f8add074530f8abd07451cf8a9d074508f8a7d0744f4f8a5d0744e0f8a3d0744ccf8a1d0744b4f89fd0744a0f89dd074490f89bd07447cf899d07446cf897d074458f895d0743dcf893d074384f891d074338f88fd074324f88dd074314f88bd074300f889d0742ecf887d0742dcf885d0742c8f883d0)
  (.lf 0)))

def shaWireTree124 : BTree :=
  .nd (.nd (.nd (.lf
  0x81c1d099eb481c21099e3081bf1099c7881c09099cb481c0d099c3081b5d099a7880d45099ab481b61099a3080d3909987880c850998b480d3d09983080c6109967880c650996b480c6909963080c4509947880c550994b480c5909943080c1909927880c210992b480c2d09923080bf909907880bf50990b480bfd09903080be9098e7880bb1098eb480bed098e3080ba5098c7880ba1098cb480ba9098c3080b81098a7880b85098ab480b89098a3080a8109887880a7d0988b480b7909883080a7109867880a410986b480a7509863080a35098478809f50984b480a39098430809dd098278803690982b4809ed09823083d210d7c7883d1d0d7cb483d250d7c3083d0d0d7a7883d110d7ab483d150d7a3083c850d787883c890d78b483ce90d783083c350d767883c710d76b483c750d763083c250d747883c210d74b483c290d743083c050d727883c010d72b483c110d723083bf10d707883bf50d70b4)
  (.lf 0)) (.nd (.lf
  0x1613c3ba0b4161403b9eb4161443b9cb4161483b9ab41614c3b98b4161503b96b4161543b94b4161583b92b41615c3b90b4161603b8eb4161643b8cb4161683b8ab41616c3b88b4161703b86b4161743b84b4161783b82b41617c3b80b4151d03bbe78151783bbc781511c3bba78150c43bb8781506c3bb678150143bb47814fbc3bb27814f643bb07814f0c3bae7814ec83bac7814e903baa7814e643ba87814e3c3ba67814e103ba47814de83ba27814dc03ba07814d983b9e7814d703b9c7814d483b9a7814ba03b987814b783b967814b543b947814b303b927814b0c3b907814ae83b8e7814ac43b8c7814aa03b8a7814a7c3b887814a583b867814a343b847814a103b8278149803b8078164443bbe30164243bbc30164003bba30163dc3bb830163b83bb630163943bb430163703bb2301634c3bb030163243bae30163003bac30162dc3baa30162b83ba830162943ba630162703ba430161803ba230)
  (.lf 0))) (.nd (.nd (.lf
  0x201b0426c78201b4426c302004c426ab4200f4426a78200f8426a301ff8c4268b420040426878200444268301fecc4266b41ff804266781ff844266301fe104264b41fec04264781fec44264301fd544262b41fe044262781fe084262301fc904260b41fd484260781fd4c4260301fbd8425eb41fc84425e781fc88425e301fb18425cb41fbcc425c781fbd0425c301fa58425ab41fb0c425a781fb10425a301f99c4258b41fa4c4258781fa504258301f8e04256b41f9904256781f9944256301f8244254b41f8d44254781f8d84254301f7704252b41f8184252781f81c4252301f6b04250b41f7644250781f7684250301f5f0424eb41f6a4424e781f6a8424e301f52c424cb41f5e4424c781f5e8424c301f474424ab41f520424a781f524424a301f3bc4248b41f4684248781f46c4248301f2f84246b41f3b04246781f3b44246301f2284244b41f2ec4244781f2f04244301f1a84242b41f21c424278)
  (.lf 0)) (.nd (.lf
  0x3fabc91aecc3fa6891accc3fa2c91aacc3f9e091a8cc3f9a491a6cc3f96091a4cc3f91091a2cc3f8c891a0cc3f890919ecc3f858919ccc3f814919acc3f7dc9198cc3fecc9196cc3f75c9194cc3f6f49192cc3f6989190cc3f620918ecc3f5c4918ccc3f550918acc3f4fc9188cc3f3a09186cc3f3449184cc3f2649182cc4002891bdd04001491bbd04000091b9d03ffe891b7d03ffcc91b5d03ffbc91b3d03ffa891b1d03ff9491afd03ff8091add03ff6c91abd03ff5491a9d03ff3c91a7d03ff2891a5d03ff1491a3d03ff0091a1d03fedc919fd03febc919dd03fea8919bd03fe909199d03fe809197d03f76c9195d03f7049193d03f6949191d03f618918fd03f5ac918dd03f568918bd03f5109189d03f3b09187d03f3589185d03f2749183d03f23491811042e38957ecc42e10957ccc42dd0957acc42c8c9578cc429f89576cc428749574cc428289572cc427b09570cc42698956ecc42678956ccc)
  (.lf 0)))

def shaWireTree125 : BTree :=
  .nd (.nd (.nd (.lf
  0x6a57cd2deb46a584d2de786a588d2de306a570d2dcb46a56cd2dc786a574d2dc306a55cd2dab46a560d2da786a564d2da306a548d2d8b46a54cd2d8786a550d2d8306a530d2d6b46a52cd2d6786a534d2d6306a514d2d4b46a520d2d4786a524d2d4306a508d2d2b46a500d2d2786a50cd2d2306a4f4d2d0b46a4a4d2d0786a4f8d2d0306a464d2ceb46a150d2ce786a468d2ce306a144d2ccb46a004d2cc786a148d2cc3069f64d2cab469f60d2ca7869ffcd2ca3069f54d2c8b469f4cd2c87869f58d2c83069f38d2c6b469670d2c67869f3cd2c63069660d2c4b469664d2c47869668d2c43069654d2c2b469558d2c27869658d2c2306ad18d33aaa6ac84d338aa6a698d336aa6a650d330aa6a5f4d328aa6a5d8d326aa6a5c0d324aa6a53cd316aa6a51cd314aa6a47cd30eaa69f6cd30aaa69f50d308aa69610d302aa6ad44d33d406ad20d339f46aa50d337f46aa34d335406a9f0d32f406a914d327f4)
  (.lf 0)) (.nd (.lf
  0x78104e31cb4780f0e31ab4780c0e318b478084e316b477ed8e314b477ec4e3134a77eace310b477ef0e30f4a77820e30d4a7767ce30b4a77574e308b4773a0e3074a772a4e3054a77120e302aa76ff0e2c0cc792c0e73eb4792c8e73d4a7926ce73b4a79254e7394a79288e7374a791f8e734b4791ece732b4791e0e730b479174e72f4a79164e72cb479138e72b4a79124e728b479114e726b479100e7254a790ece722b4790d4e7214a790c4e71eb4790a8e71d4a79094e71b4a79068e718b479048e716b478d80e714b478c94e7134a78be4e7114a78ba8e70eb478b38e70d4a78b04e70b4a78abce708b4789bce7074a78940e7054a787d8e7034a787b4e700aa7ae68eb3f4a7ae58eb3cb47ae48eb3ab47ae3ceb38b47ae2ceb36b47ae18eb354a7ae04eb32b47adf4eb30b47addceb2f4a7adc4eb2d4a7adb4eb2ab47ada8eb28b47ac8ceb274a7ac7ceb24b47ac6ceb22b47ac60eb20b47ac50eb1eb4)
  (.lf 0))) (.nd (.nd (.lf
  0x379947412b4379b4741278379b8741230379687410b4379887410783798c7410303793c740eb43795c740e7837960740e303790c740cb437930740c7837934740c30378dc740ab437900740a7837904740a30378ac7408b4378d0740878378d4740830378807406b4378a0740678378a4740630378547404b43787474047837878740430378387402b4378487402783784c74023039dcc78bcb439dc878bc7839dd078bc3039da078bab439d9c78ba7839da478ba3039d7078b8b439d6c78b87839d7478b83039d4078b6b439d3c78b67839d4478b63039d1078b4b439d0c78b47839d1478b43039ce078b2b439cdc78b27839ce478b23039cb078b0b439cac78b07839cb478b03039c8078aeb439c7c78ae7839c8478ae3039c5078acb439c4c78ac7839c5478ac3039c2078aab439c1c78aa7839c2478aa3039bf078a8b439bec78a87839bf478a83039bc078a6b439bbc78a67839bc478a63039b9078a4b4)
  (.lf 0)) (.nd (.lf
  0x1665c3bcfd0166483bcdd0166343bcbd0166203bc9d01660c3bc7d0165f83bc5d0165e43bc3d0165cc3bc110180383ebecc180403ebccc180483ebacc180503eb8cc180583eb6cc180603eb4cc180683eb2cc180703eb0cc180783eaecc180803eaccc180883eaacc180903ea8cc180983ea6cc180a03ea4cc180a83ea2cc180b03ea0cc180b83e9ecc180c03e9ccc180c83e9acc180d03e98cc180d83e96cc180e03e94cc180e83e92cc180f03e90cc180f83e8ecc181003e8ccc181083e8acc181103e88cc181183e86cc181203e84cc181283e82cc188a03ebdd0188603ebbd0188243eb9d0187ec3eb7d0187b43eb5d01877c3eb3d0187443eb1d0187003eafd0186b83eadd0186783eabd01863c3ea9d0185f83ea7d0185b03ea5d0185743ea3d0185343ea1d0184f03e9fd0184ac3e9dd0184683e9bd0184243e99d0183e03e97d0183a43e95d01836c3e93d0183343e91d0182f43e8fd0182b83e8dd0)
  (.lf 0)))

def shaWireTree126 : BTree :=
  .nd (.nd (.nd (.lf
  0x2235855603022340555e782233c555eb422344555e302232c555c7822328555cb422330555c3022318555a7822314555ab42231c555a3022304555878223005558b422308555830222f0555678222ec5556b4222f4555630222dc555478222d85554b4222e0555430222c8555278222c45552b4222cc555230222a0555078222b85550b4222bc55503022294554e782227c554eb422298554e3022258554c7822270554cb422274554c302224c554a7822234554ab422250554a3022210554878222285548b42222c55483022204554678221ec5546b422208554630221c8554478221e05544b4221e4554430221bc554278221405542b4221c05542302213055bc782212c55bcb42213455bc302211855ba782211455bab42211c55ba302210055b878220fc55b8b42210455b830220e855b678220e455b6b4220ec55b6302209855b4782209455b4b42209c55b4302208055b2782207c55b2b42208455b230)
  (.lf 0)) (.nd (.lf
  0x2daa80042fd2dab00042fb2dab80042f92dac00042f72dac80042f52dad00042f32dad80042f12dae00042ef2dae80042ed2daf00042eb2daf80042e92db000042e72db080042e52db100042e32db180042e12f9180042df2f9200042dd2f9280042db2f9300042d92f9380042d72f9400042d52f9480042d32f9500042d12f9580042cf2f9600042cd2f9c00042cb2f9c80042c92f9d00042c72f9d80042c52f9e00042c32f9e80042c12f9f00042bf2f9f80042bd2fa000042bb2fa080042b92fa100042b72fa180042b52fa200042b32fa280042b12fa300042af2fa380042ad2fa400042ab2fa480042a92fa500042a72fa580042a52fa600042a32fa680042a13188000429f3188800429d3189000429b31898004299318a0004297318a8004295318b0004293318b8004291318c000428f318c800428d3192800428b31930004289319380042873194000428531948004283319500042813195800427f)
  (.lf 0))) (.nd (.nd (.lf
  0x72d88f0923072d70f090b472d6cf0907872d74f0903072d58f08eb472d54f08e7872d5cf08e3072d48f08cb472d40f08c7872d4cf08c3072d2cf08ab472d30f08a7872d34f08a3072d1cf088b472ba0f0887872d20f0883072b40f086b472b70f0867872b74f0863072b10f084b472b34f0847872b38f0843072ae0f082b472b04f0827872b08f0823074128f07cb47411cf07c787412cf07c3073fccf07ab473fc8f07a78740e0f07a3073fb8f078b473fb4f0787873fbcf0783073fa8f076b473f9cf0767873facf0763073f88f074b473f84f0747873f8cf0743073f70f072b473f78f0727873f7cf0723073f54f070b473f60f0707873f64f0703073f40f06eb473f34f06e7873f44f06e3073f24f06cb473f28f06c7873f2cf06c3073f0cf06ab473f10f06a7873f14f06a3073f00f068b473ef4f0687873f04f0683073ee4f066b473ee8f0667873eecf0663073ec4f064b473ed0f0647873ed4f06430)
  (.lf 0)) (.nd (.lf
  0x5e3c0beadd05e3acbeabd05e398bea9d05e384bea7d05e370bea5d05e35cbea3d05e348bea1d05e334be9fd05e184be9dd05e170be9bd05e104be99d05e0f0be97d05e0dcbe95d05e0c8be93d05e0b4be91d05e0a0be8fd05e08cbe8dd05dfe8be8bd05df68be89d05de50be87d05de3cbe85d05dc80be83d05dc68be81105eea4be7ecc5ed04be7ccc5ecf0be7acc5ecd8be78cc5ecbcbe76cc5ed58be74cc5ed08be72cc5ec88be70cc5ec68be6ecc5ec4cbe6ccc5ec34be6acc5ed1cbe68cc5fa6cbe66cc5ebfcbe64cc5ee8cbe62cc5ed20be60cc5ed40be5ecc5eb8cbe5ccc5eb4cbe5acc5eb20be58cc5ed4cbe56cc5ebacbe54cc5eba0be52cc5eab8be50cc5ea50be4ecc5e7f0be4ccc5e738be4acc5e798be48cc5e6fcbe46cc5e6a8be44cc5e70cbe42cc5ee70be7dd05ee5cbe7bd05ee48be79d05ee34be77d05ee20be75d05ee10be73d05edfcbe71d05edecbe6fd05edd8be6dd05edc4be6bd0)
  (.lf 0)))

def shaWireTree127 : BTree :=
  .nd (.nd (.nd (.lf
  0x3cb288a60b43cb208a60783cb2c8a60303cb0c8a5eb43cb148a5e783cb188a5e303caf88a5cb43cafc8a5c783cb008a5c303cae88a5ab43caec8a5a783caf08a5a303cad48a58b43cad88a58783cadc8a58303cac48a56b43cabc8a56783cac88a56303cab08a54b43caac8a54783cab48a54303ca988a52b43ca948a52783ca9c8a52303ca848a50b43ca808a50783ca8c8a50303ca6c8a4eb43ca748a4e783ca788a4e303ca588a4cb43ca608a4c783ca648a4c303ca4c8a4ab43ca448a4a783ca508a4a303ca308a48b43ca388a48783ca3c8a48303ca1c8a46b43ca208a46783ca248a46303ca0c8a44b43ca108a44783ca148a44303c9b08a42b43c9b48a42783c9b88a4230440b08afcb4441bc8afc78441c08afc30440a08afab44409c8afa78440a48afa3043fa48af8b4440908af878440948af83043f988af6b443f948af67843f9c8af63043d048af4b443d008af47843d088af43043cf08af2b4)
  (.lf 0)) (.nd (.lf
  0x6cebcda13b06c0a4da11b06c068da0fb06c06cda0db06c080da0bb06c028da09b06c004da07b06bcc4da05b06bc20da03b06b8d8da01b06f8b4de3fb06f810de3db06f8e8de3bb06f7c0de39b06f788de37b06f848de35b06f70cde33b06f71cde31b06f6acde2fb06f6ccde2db06f660de2bb06f64cde29b06f618de27b06f5acde25b06f57cde23b06f568de21b06f590de1fb06f500de1db06f504de1bb06f508de19b06f4b0de17b06ef84de15b06ef64de13b06ef9cde11b06ef18de0fb06ef30de0db06eef0de0bb06e30cde09b06e2c8de07b06e28cde05b06e234de03b06e1f8de01b077798e23fb077620e23db0774a8e23bb077354e239b0771ece237b0770d8e235b076fbce233b076eb8e231b076e60e22fb076d54e22db076d0ce22bb076c34e229b076be4e227b076b60e225b076adce223b076a2ce221b0769c8e21fb07693ce21db0768c8e21bb076844e219b0767c0e217b076778e215b0)
  (.lf 0))) (.nd (.nd (.lf
  0x2cd586220502cd5c621e502cd60621c502cd64621a502cd686218502cd6c6216502cca86214502cc586212502ccd46210502ccbc620e502cc5c620c502cc60620a502cc646208502cc686206502cbb06204502cbb46202502cbb86200502cf34663e782cf38663c782cf3c663a782cf406638782cf446636782cf486634782cf4c6632782cf786630782cf50662e782cf54662c782cf58662a782cf5c6628782cf606626782cf646624782cf686622782cd886620782cd8c661e782cd90661c782cd94661a782cd986618782cd9c6616782ccb06614782cc806612782ccdc6610782ccc4660e782cc84660c782cc88660a782cc8c6608782cc906606782cbc86604782cbcc6602782cbd06600782ee34663e502ee38663c502ee3c663a502ee406638502ee446636502ee486634502ee4c6632502ee506630502ee54662e502eea4662c502ed38662a502ed3c6628502ed406626502ed446624502ed48662250)
  (.lf 0)) (.nd (.lf
  0x4cd809c0dd04cd549c0bd04cd289c09d04ccfc9c07d04ccd09c05d04cca49c03d04cc849c01104c608a0becc4c610a0bccc4c618a0bacc4c620a0b8cc4c628a0b6cc4c630a0b4cc4c638a0b2cc4c640a0b0cc4c648a0aecc4c650a0accc4c6b0a0aacc4c6b8a0a8cc4c6c0a0a6cc4c6c8a0a4cc4c6d0a0a2cc4c6d8a0a0cc4c6e0a09ecc4c6e8a09ccc4c6f0a09acc4c6f8a098cc4c700a096cc4c708a094cc4c710a092cc4c718a090cc4c720a08ecc4c728a08ccc4c730a08acc4c738a088cc4c740a086cc4c748a084cc4c750a082cc4c9b4a0bdd04c9a0a0bbd04c98ca0b9d04c978a0b7d04c964a0b5d04c950a0b3d04c93ca0b1d04c928a0afd04c914a0add04c900a0abd04c8eca0a9d04c8d8a0a7d04c8c4a0a5d04c8b0a0a3d04c89ca0a1d04c888a09fd04c874a09dd04c860a09bd04c84ca099d04c838a097d04c824a095d04c810a093d04c7fca091d04c7e8a08fd04c7d4a08dd04c7c0a08bd0)
  (.lf 0)))

def shaWireTree128 : BTree :=
  .nd (.nd (.nd (.lf
  0x17f0000000017d0000000017b00000000179000000001770000000017500000000173000000001710000000016f0000000016d0000000016b00000000169000000001670000000016500000000163000000001610000000015f0000000015d0000000015b00000000159000000001570000000015500000000153000000001510000000014f0000000014d0000000014b00000000149000000001470000000014500000000143000000001410000000013f0000000013d0000000013b00000000139000000001370000000013500000000133000000001310000000012f0000000012d0000000012b00000000129000000001270000000012500000000123000000001210000000011f0000000011d0000000011b00000000119000000001170000000011500000000113000000001110000000010f0000000010d0000000010b0000000010900000000107000000001050000000010300000000101)
  (.lf
  0x489289425d0488fc9423d0488d09421d0488a4941fd048878941dd04884c941bd0488209419d0487f49417d0487c89415d04879c9413d0487709411d048744940fd048718940dd0486ec940bd0486bc9409d0486909407d0486649405d0486389403d0486189401103dd8498becc3dd4898bccc3dd0098bacc3dcbc98b8cc3dc7498b6cc3dc3098b4cc3dbec98b2cc3dba898b0cc3db6498aecc3db2098accc3dadc98aacc3da9898a8cc3da5498a6cc3da1098a4cc3d9cc98a2cc3d98898a0cc3d944989ecc3d8fc989ccc3d8b4989acc3d86c9898cc3d8249896cc3d7dc9894cc3d7949892cc3d74c9890cc3d704988ecc3d6bc988ccc3d678988acc3d6309888cc3d5e89886cc3d5a49884cc3d5609882cc3dd5898bdd03dd1098bbd03dccc98b9d03dc8498b7d03dc4098b5d03dbfc98b3d03dbb898b1d03db7498afd03db3098add03daec98abd03daa898a9d03da6498a7d03da2098a5d03d9dc98a3d0))
  (.nd (.lf
  0x22c184a205022c1c4a1e5022c204a1c5022c244a1a5022c284a185022c2c4a165022c304a145022c344a125022c384a105022c3c4a0e5022c404a0c5022c444a0a5022c484a085022c4c4a065022c504a045022c544a025022c584a005022cdc4e3e7822ce04e3c7822ce44e3a7822ce84e387822cec4e367822cf04e347822cf44e327822cf84e307822cfc4e2e7822d004e2c7822d044e2a7822d084e287822d0c4e267822d104e247822d144e227822d184e207822d1c4e1e7822d204e1c7822d244e1a7822d284e187822d2c4e167822d304e147822d344e127822d384e107822d3c4e0e7822d404e0c7822d444e0a7822d484e087822d4c4e067822d504e047822d544e027822d584e007824e284e3e5024e2c4e3c5024e304e3a5024e344e385024e384e365024e3c4e345024e404e325024e444e305024e484e2e5024e4c4e2c5024e504e2a5024e544e285024e584e265024e5c4e245024e604e2250)
  (.lf 0))) (.nd (.nd (.lf
  0x4254086f230424dc86f0b4424e086f078424e486f030424c886eeb4424d086ee78424d486ee30424bc86ecb4424b486ec78424c086ec30424a886eab4424a486ea78424ac86ea304248c86e8b44249086e8784249486e8304247c86e6b4423d486e6784248086e630423c886e4b4423c086e478423cc86e430423b486e2b4423b086e278423b886e2304239086e0b4421e486e0784239886e030421d886deb441fdc86de78421dc86de3041fd086dcb441fa886dc7841fd486dc3041f5886dab441f5486da7841f5c86da3041f3086d8b441f1486d87841f3486d83041f0886d6b441f0486d67841f0c86d63041ef486d4b441da486d47841ef886d43041d9486d2b441d9086d27841d9c86d23041d8486d0b441d8086d07841d8886d03041d6c86ceb441c9886ce7841d7086ce3041c8c86ccb441c8486cc7841c9086cc3041b8886cab441b7086ca7841c7c86ca3041b6486c8b441b5886c87841b6886c830)
  (.lf 0)) (.nd (.lf
  0x52a28aa13b052a2caa11b052a50aa0fb052a30aa0db052a34aa0bb0529b0aa09b051cfcaa07b0519d4aa05b051944aa03b051908aa01b054970ae3fb054934ae3db054914ae3bb0548f4ae39b0548d8ae37b054834ae35b0547e4ae33b054794ae31b054758ae2fb05470cae2db0546c4ae2bb05467cae29b054638ae27b054614ae25b0545b8ae23b054578ae21b05453cae1fb054518ae1db0544e0ae1bb0544a8ae19b054460ae17b054430ae15b0543e8ae13b0543acae11b054364ae0fb053f5cae0db053e38ae0bb053e0cae09b053d3cae07b053d40ae05b053c90ae03b053c38ae01b057144b23fb057148b23db05714cb23bb0570f0b239b0570f4b237b056e60b235b056e10b233b056d80b231b056cd4b22fb056cd8b22db056cdcb22bb056ce0b229b056ce4b227b056ce8b225b056a40b223b0568e8b221b0568ecb21fb0568f0b21db0568f4b21bb0568f8b219b0568fcb217b05679cb215b0)
  (.lf 0)))

def shaWireTree129 : BTree :=
  .nd (.nd (.nd (.lf
  0x18dbc4d703018da44d6e7818da04d6eb418da84d6e3018d904d6c7818d944d6cb418d984d6c3018d784d6a7818d7c4d6ab418d804d6a3018d644d687818d684d68b418d6c4d683018d504d667818d4c4d66b418d544d663018d384d647818d404d64b418d444d643018d284d627818d2c4d62b418d304d623018d184d607818d144d60b418d1c4d603018d044d5e7818d084d5eb418d0c4d5e3018cec4d5c7818cf04d5cb418cf44d5c3018cd84d5a7818cdc4d5ab418ce04d5a3018cc44d587818cc04d58b418cc84d583018cb04d567818cb44d56b418cb84d563018ca04d547818c984d54b418ca44d543018c8c4d527818c884d52b418c904d523018c784d507818c7c4d50b418c804d503018c604d4e7818c644d4eb418c684d4e3018c4c4d4c7818c504d4cb418c544d4c3018c384d4a7818c344d4ab418c3c4d4a3018c244d487818c284d48b418c2c4d483018c104d467818c144d46b418c184d4630)
  (.lf 0)) (.nd (.lf
  0x73c800045fd73c880045fb73c900045f973c980045f773ca00045f573ca80045f373cb00045f173cb80045ef73cc00045ed73cc80045eb73cd00045e973cd80045e773ce00045e573ce80045e373cf00045e1745f00045df745f80045dd746000045db7467c0045d9746840045d77468c0045d5746940045d37469c0045d1746a40045cf746ac0045cd746b40045cb746bc0045c9746c40045c7746cc0045c5746d40045c3746dc0045c1746e40045bf746ec0045bd746f40045bb746fc0045b9747040045b77470c0045b5747140045b37471c0045b1747240045af7472c0045ad747340045ab7473c0045a9747440045a77474c0045a5747540045a37475c0045a17505c00459f7506400459d7506c00459b750e8004599750f0004597750f800459575100004593751080045917511000458f7511800458d7512000458b75128004589751300045877513800458575140004583751480045817515000457f)
  (.lf 0))) (.nd (.nd (.lf
  0x72a90e8223072a6ce820b472a68e8207872a70e8203072a20e81eb472a18e81e7872a24e81e30729f8e81cb4729f4e81c78729fce81c30729e4e81ab4729e8e81a78729ece81a30729c4e818b4729c0e81878729c8e81830729a8e816b4729b4e81678729b8e8163072990e814b472998e81478729a0e8143072984e812b472980e8127872988e8123072974e810b472970e8107872978e8103072750e80eb472744e80e7872968e80e3072738e80cb472734e80c787273ce80c3072694e80ab472644e80a7872698e80a3072638e808b472614e808787263ce80830725c4e806b4725d0e806787260ce80630725a0e804b472578e80478725bce804307256ce802b472538e8027872570e80230723acecbcb4723a4ecbc78723b0ecbc3072394ecbab472398ecba787239cecba307237cecb8b472380ecb87872384ecb83072368ecb6b47236cecb67872370ecb63072358ecb4b472354ecb47872360ecb430)
  (.lf 0)) (.nd (.lf
  0x5a6a8b6d1d05a68cb6cfd05a678b6cdd05a664b6cbd05a654b6c9d05a644b6c7d05a330b6c5d05a31cb6c3d059fa4b6c1105b6f4b73df45b6e0b73b405b56cb737405b4e8b733f45b4d0b731405b424b72d405ae00b727f45adf0b725405ab00b71f405a9a4b713f45a6fcb711405a6bcb70940598d8b7fecc5990cb7fccc598ecb7facc59920b7f8cc598a4b7f6cc597f8b7f4cc59844b7f2cc59804b7f0cc59858b7eecc59748b7eccc59708b7eacc596b4b7e8cc596bcb7e6cc598f4b7e4cc59928b7e2cc598acb7e0cc5980cb7decc59814b7dccc59830b7dacc59860b7d8cc59758b7d6cc59720b7d4cc59978b7d2cc59930b7d0cc59934b7cecc59938b7cccc59824b7cacc5982cb7c8cc59868b7c6cc59754b7c4cc59714b7c2cc59b88b7fdd059b74b7fbd059b60b7f9d059b4cb7f7d059b38b7f5d059b24b7f3d059b10b7f1d059afcb7efd059ae8b7edd059ad4b7ebd059ac0b7e9d059aacb7e7d0)
  (.lf 0)))

def shaWireTree130 : BTree :=
  .nd (.nd (.nd (.lf
  0x7ef9501aeb47ef9901ae307ef5501ac787ef6101acb47ef6501ac307ef3101aa787ef2d01aab47ef3501aa307ef0501a8787ef2101a8b47ef2501a8307e8bd01a6787e8c101a6b47eef101a6307e8a101a4787e8a901a4b47e8b101a4307e88901a2787e88d01a2b47e89101a2307e7fd01a0787e80901a0b47e88101a0307e7c1019e787e7bd019eb47e7f5019e307e785019c787e789019cb47e78d019c307e775019a787e779019ab47e77d019a307e7650198787e7690198b47e76d0198307e5510196787e38d0196b47e7490196307e3810194787e2d90194b47e3850194307e2cd0192787e2990192b47e2d10192307e2890190787e28d0190b47e2910190307e251018e787e24d018eb47e26d018e307e191018c787dd5d018cb47e1cd018c307dd39018a787dd45018ab47dd55018a307dc390188787db410188b47dd250188307db050186787d5150186b47db390186307d4f10184787d4b90184b4)
  (.lf 0)) (.nd (.lf
  0x104dc2ba0b4104e02b9eb4104e42b9cb4104e82b9ab4104ec2b98b4104f02b96b4104f42b94b4104f82b92b4104fc2b90b4105002b8eb4105042b8cb4105082b8ab41050c2b88b4105102b86b4105142b84b4105182b82b41051c2b80b40ed782bbe780ed7c2bbc780ed802bba780ed842bb8780ed882bb6780ed8c2bb4780ed902bb2780ed942bb0780ed982bae780ed9c2bac780eda02baa780eda42ba8780eda82ba6780edac2ba4780edb02ba2780edb42ba0780edb82b9e780edbc2b9c780edc02b9a780edc42b98780edc82b96780edcc2b94780edd02b92780edd42b90780edd82b8e780eddc2b8c780ede02b8a780ede42b88780ede82b86780edec2b84780edf02b82780edf42b8078105202bbe30105242bbc30105282bba301052c2bb830105302bb630105342bb430105382bb2301053c2bb030105402bae30105442bac30105482baa301054c2ba830105502ba630105542ba430105582ba230)
  (.lf 0))) (.nd (.nd (.lf
  0x126c03e42b41266c3e4278126c43e4230188503efcb4188843efc78188883efc30188143efab4188443efa78188483efa30187dc3ef8b4188083ef8781880c3ef830187a43ef6b4187d03ef678187d43ef6301876c3ef4b4187983ef4781879c3ef430187303ef2b4187603ef278187643ef230186ec3ef0b4187243ef078187283ef030186a43eeeb4186e03eee78186e43eee30186643eecb4186983eec781869c3eec30186283eeab4186583eea781865c3eea30185e43ee8b41861c3ee878186203ee830185a03ee6b4185d83ee678185dc3ee630185643ee4b4185943ee478185983ee430185243ee2b4185583ee2781855c3ee230184e03ee0b4185183ee0781851c3ee0301849c3edeb4184d43ede78184d83ede30184583edcb4184903edc78184943edc30184143edab41844c3eda78184503eda30183d03ed8b4184083ed8781840c3ed830183943ed6b4183c43ed678183c83ed6301835c3ed4b4)
  (.lf 0)) (.nd (.lf
  0x37fbc8547d037f2c8545d037ea48543d037dec8541103904485becc38fc085bccc38f9c85bacc38ec085b8cc38e3885b6cc38da085b4cc38d1485b2cc38c7c85b0cc38be885aecc38bb885accc38afc85aacc38ac085a8cc38a6085a6cc389bc85a4cc3895885a2cc3888c85a0cc388c0859ecc3876c859ccc384f0859acc3844c8598cc383d08596cc383508594cc382c88592cc382448590cc381ac858ecc38118858ccc38094858acc37ffc8588cc37f788586cc37ee48584cc37e508582cc3902485bdd038f5c85bbd038f2485b9d038e5485b7d038e0885b5d038d3085b3d038cf485b1d038c1485afd038bb085add038b1c85abd038aa885a9d038a3885a7d0389f885a5d03897885a3d03890c85a1d0388f8859fd038798859dd038514859bd0384908599d0383f08597d0383788595d0382dc8593d03826c8591d0381c4858fd038150858dd0380a8858bd0380348589d037f908587d037f008585d0)
  (.lf 0)))

def shaWireTree131 : BTree :=
  .nd (.nd (.nd (.lf
  0x68c80cf381e68c7ccf38b468ce0cf381468bc0cf35f468c74cf36a068b2ccf341e68b28cf34b468bbccf341468890cf314068b1ccf32a068880cf2ff46888ccf30a068874cf2e1e68878cf2eb46887ccf2e146885ccf2bf46886ccf2ca068854cf2a1e68850cf2ab468858cf2a14687e4cf281e687d8cf28b468848cf28146876ccf2540687d0cf26a068704cf234068768cf24a0685e0cf214068700cf22a0685a8cf1ff4685dccf20a0684b8cf1e1e685a0cf1eb4685a4cf1e1468430cf1bf4684b0cf1ca068394cf1a1e68428cf1ab46842ccf1a1468350cf181e68388cf18b46838ccf1814682accf161e68344cf16b468348cf161467b24cf141e682a0cf14b4682a4cf141467a50cf114067b1ccf12a0679d8cf0ff467a4ccf10a067758cf0e1e679a4cf0eb4679a8cf0e14676f8cf0bf467750cf0ca067698cf0a1e676f0cf0ab4676f4cf0a1467638cf081e6768ccf08b467690cf0814674fccf05f4)
  (.lf 0)) (.nd (.lf
  0x587e0b31d4a587b0b31b4a5878cb318b458760b3174a5854cb314b45850cb312b4584d4b310b458488b30eb458448b30cb458414b30ab4583c0b3094a58370b3074a582f4b304b458278b302b4581b0b300aa5b6f8b73f4a5b6e4b73d4a5b698b73ab45b648b7394a5b560b736b45b538b7354a5b4d4b7334a5b4a0b730b45b438b72f4a5b3e4b72cb45b3a0b72ab45b310b7294a5ae54b7274a5ade4b724b45adc8b722b45abacb7214a5aaf8b71eb45aaecb71cb45aab8b71ab45aa30b718b45a9c8b716b45a9acb7154a5a974b7134a5a6f0b710b45a6e0b70eb45a6d0b70cb45a710b70b4a5a6b4b708b45a5e0b706b45a348b704aa5a310b6c32c59fa0b6c0cc5e044bb3f4a5df88bb3d4a5dda4bb3b4a5dd30bb394a5dd20bb36b45db50bb354a5daecbb32b45da9cbb30b45da04bb2eb45d9f8bb2cb45d97cbb2ab45d90cbb28b45d848bb274a5d82cbb254a5d7c0bb234a5d760bb20b45d700bb1eb4)
  (.lf 0))) (.nd (.nd (.lf
  0x1e0c07062b41e0bc7062781e0c47062301e0ac7060b41e0a87060781e0b07060301e098705eb41e094705e781e09c705e301e084705cb41e080705c781e088705c301e070705ab41e06c705a781e074705a301e05c7058b41e0587058781e0607058301e0487056b41e0447056781e04c7056301e0347054b41e0307054781e0387054301e0207052b41e01c7052781e0247052301e00c7050b41e0087050781e0107050301dff8704eb41dff4704e781dffc704e301dfe4704cb41dfe0704c781dfe8704c301dfd0704ab41dfcc704a781dfd4704a301dfbc7048b41dfb87048781dfc07048301dfa87046b41dfa47046781dfac7046301df947044b41df907044781df987044301df807042b41df7c7042781df8470423036658703cb4366b8703c78366bc703c30365b4703ab43664c703a7836650703a30365507038b4365a8703878365ac703830364f87036b43654470367836548703630364847034b4)
  (.lf 0)) (.nd (.lf
  0xfeac3667d00fe2c3665d00fdb03663d00fd243661d00fc94365fd00fc18365dd00fb88365bd00fb0c3659d00fa803657d00f9f03655d00f9743653d00f8e83651d00f858364fd00f7d8364dd00f758364bd00f6d83649d00f6583647d00f5d83645d00f5583643d00f50036411015c9836fecc15c6436fccc15c2c36facc15bf436f8cc15bbc36f6cc15b8436f4cc15b4c36f2cc15b1436f0cc15ad436eecc15a9036eccc15a5436eacc15a1436e8cc159d036e6cc1598c36e4cc1594836e2cc1590836e0cc158c436decc1588436dccc1584036dacc157f836d8cc157b836d6cc1578036d4cc1574836d2cc1570836d0cc156c436cecc1568036cccc1563c36cacc155f836c8cc155b436c6cc1557036c4cc1554036c2cc15c8036fdd015c4836fbd015c1036f9d015bd836f7d015ba036f5d015b6836f3d015b3036f1d015af836efd015ab836edd015a7436ebd015a3836e9d0159f836e7d0159b436e5d0)
  (.lf 0)))

def shaWireTree132 : BTree :=
  .nd (.nd (.nd (.lf
  0x11d50397f2c11ce4397d2c11c6c397b2c11bdc39792c11b5c39772c11ae039752c11a5039732c119d039712c11950396f2c118d0396d2c11854396b2c117c839692c1173839672c116b839652c1163839632c115bc39612c11530395f2c114a0395d2c11420395b2c113a039592c1132039572c112a439552c1121439532c1119839512c1110c394f2c1107c394d2c11000394b2c10f7439492c10ee839472c10e5c39452c10de039432c10d9c3940cc136303d7f2c135c83d7d2c1353c3d7b2c134c03d792c134303d772c133b43d752c133243d732c132a83d712c132183d6f2c131983d6d2c131183d6b2c130983d692c1301c3d672c12f903d652c12f003d632c12e803d612c12e003d5f2c12d843d5d2c12cf83d5b2c12c6c3d592c12be03d572c12b543d552c12ac43d532c12a483d512c129bc3d4f2c129303d4d2c128a03d4b2c128203d492c127a03d472c127203d452c126a43d432c1265c3d40cc)
  (.lf
  0x25f0116dd0025dc116bd0025c81169d0025b41167d0025a01165d00258c1163d0025781161d002564115fd002550115dd00253c115bd0025281159d0025141157d0025001155d0024ec1153d0024d81151d0024c4114fd0024b0114dd00249c114bd0024881149d0024741147d0024601145d00244c1143d0023b8114110016a411becc016a011bccc0169c11bacc0169811b8cc0169411b6cc0169011b4cc0168c11b2cc0168811b0cc0168411aecc0168011accc0167c11aacc0167811a8cc0167411a6cc0167011a4cc0166c11a2cc0166811a0cc01664119ecc01660119ccc0165c119acc016581198cc016541196cc016501194cc0164c1192cc016481190cc01644118ecc01640118ccc0163c118acc016381188cc016341186cc016301184cc0162c1182cc01bc811bdd001ba011bbd001b7411b9d001b4811b7d001b1c11b5d001af011b3d001ac411b1d001a9811afd001a6c11add001a4011abd0))
  (.nd (.lf
  0x68688d3a03068658d39e3068488d39c3068418d39a3068368d39830682d8d3963068284d3943067afcd3923067a0cd39030679c0d38e306772cd38c30676b4d38a3067658d3883067614d38630674c0d3843067424d38230673c8d380306adc8d7beb46adfcd7bcb46ad68d7bab46acbcd7b8b46ac10d7b6b46aba4d7b4b46ab50d7b2b46ab04d7b0b46aaa4d7aeb46aa64d7acb46a994d7aab46a94cd7a8b46a8f4d7a6b46a8c4d7a4b46a874d7a2b46a840d7a0b46a810d79eb46a9c0d79cb46a7a4d79ab46a780d798b46a730d796b46a750d794b46a6a8d792b46a4ccd790b46a4e4d78eb46a184d78cb469fc0d78ab469fe8d788b469f24d786b469e90d784b469620d782b469570d780b468fd0d7be7868f10d7bc7868d70d7ba7868cbcd7b87868c34d7b67868b9cd7b47868b64d7b27868a58d7b07868a00d7ae78689c0d7ac78688e8d7aa786881cd7a878687a8d7a6786873cd7a478686e8d7a278)
  (.lf 0))) (.nd (.nd (.lf
  0x2db846242782db886242302e8a062fcb42e83c62fc782e8a462fc302e83062fab42e7cc62fa782e83462fa302e7c062f8b42e75462f8782e7c462f8302e74862f6b42e6d862f6782e74c62f6302e6cc62f4b42e66462f4782e6d062f4302e65862f2b42e5f462f2782e65c62f2302e5e862f0b42e58862f0782e5ec62f0302e57c62eeb42e51c62ee782e58062ee302e51062ecb42e4ac62ec782e51462ec302e4a062eab42e43462ea782e4a462ea302e42862e8b42e3bc62e8782e42c62e8302e3b062e6b42e34462e6782e3b462e6302e33862e4b42e2cc62e4782e33c62e4302e2c062e2b42e25462e2782e2c462e2302e24862e0b42e1e462e0782e24c62e0302e1d862deb42e17862de782e1dc62de302e16c62dcb42e10462dc782e17062dc302e0f862dab42e09462da782e0fc62da302e08862d8b42e01c62d8782e08c62d8302e01062d6b42dfa862d6782e01462d6302df9c62d4b42df3c62d478)
  (.lf 0)) (.nd (.lf
  0x828fd09becc8252509bccc8250509bacc8253509b8cc81f9109b6cc81f7909b4cc81f6509b2cc81f4509b0cc81f4909aecc81f1d09accc81fa909aacc81fc509a8cc81fcd09a6cc81fe109a4cc81e6d09a2cc81e1d09a0cc81bdd099ecc81bc9099ccc81b65099acc80c890998cc80b590996cc80b410994cc80b2d0992cc80b150990cc80afd098ecc80ae1098ccc80add098acc80a6d0988cc80a690986cc80a110984cc809d50982cc8261109bdd0825d509bbd08258d09b9d0822cd09b7d08220509b5d08213d09b3d08211109b1d0820f109afd08208509add08205d09abd08203109a9d08201109a7d081ff509a5d081e7909a3d081e5109a1d081c25099fd081c11099dd081bed099bd080d410999d080c810997d080c5d0995d080c310993d080c0d0991d080bf1098fd080bad098dd080b8d098bd080b7d0989d080a790987d080a3d0985d0809f10983d08036509811083a050d7ecc83a110d7ccc)
  (.lf 0)))

def shaWireTree133 : BTree :=
  .nd (.nd (.nd (.lf
  0x7e584f33ca07e564f339f47e574f33aa07e558f3381e7e55cf338b47e560f338147e50cf335407e514f336a07e4d8f333407e4f8f334a07e4ccf331407e4d4f332a07e4c0f32ff47e4c8f330a07e4a0f32e1e7e4b8f32eb47e4bcf32e147e480f32bf47e498f32ca07e474f32a1e7e478f32ab47e47cf32a147e460f3281e7e464f328b47e468f328147e444f3261e7e448f326b47e458f326147e430f3241e7e434f324b47e438f324147e420f3221e7e424f322b47e428f322147e40cf31ff47e418f320a07e404f31e1e7e3c8f31eb47e408f31e147e3b8f31c1e7e3bcf31cb47e3c0f31c147e3acf31a1e7e39cf31ab47e3b0f31a147e390f3181e7e378f318b47e394f318147e368f3161e7e364f316b47e36cf316147e344f3141e7e340f314b47e35cf314147e2acf3121e7e2b4f312b47e32cf312147e2a0f3101e7e1c0f310b47e2a4f310147e1a4f30e1e7e1b0f30eb47e1b4f30e147dc24f30c1e)
  (.lf 0)) (.nd (.lf
  0x569e4b39dd056954b39bd056934b399d0568c4b397d056778b395d056740b393d0566e4b391d0566b4b38fd0566b8b38dd0566bcb38bd05651cb389d0564f4b387d055fe8b385d055f80b383d055f28b381d0598d4b7bfd059908b7bdd059890b7bbd0597ccb7b9d0597d0b7b7d05978cb7b5d059840b7b3d059734b7b1d0596f4b7afd059684b7add059688b7abd059640b7a9d059620b7a7d0595f0b7a5d0595ccb7a3d0595a4b7a1d05955cb79fd059570b79dd05951cb79bd059520b799d0594c8b797d0594a4b795d0594e0b793d059480b791d059438b78fd05944cb78dd059414b78bd0593dcb789d058390b787d058324b785d0582acb783d0581ccb781d05bf48bbbfd05beecbbbdd05bdb4bbbbd05bd78bbb9d05bd4cbbb7d05bcccbbb5d05be48bbb3d05bdfcbbb1d05bc70bbafd05bc20bbadd05bc24bbabd05bc28bba9d05bbb8bba7d05bb98bba5d05bb68bba3d05bb3cbba1d05bb14bb9fd0)
  (.lf 0))) (.nd (.nd (.lf
  0x55978ac447855980ac443055950ac42b45594cac427855954ac423055e38ac3cb455e18ac3c7855e3cac3c3055e0cac3ab455decac3a7855e10ac3a3055de0ac38b455dc0ac387855de4ac383055db4ac36b455d94ac367855db8ac363055d88ac34b455d68ac347855d8cac343055d5cac32b455d3cac327855d60ac323055d30ac30b455d10ac307855d34ac303055d04ac2eb455ce4ac2e7855d08ac2e3055cd8ac2cb455cb8ac2c7855cdcac2c3055cacac2ab455c8cac2a7855cb0ac2a3055c80ac28b455c60ac287855c84ac283055c54ac26b455c34ac267855c58ac263055c28ac24b455c08ac247855c2cac243055bfcac22b455bdcac227855c00ac223055bd0ac20b455bb0ac207855bd4ac203055ba4ac1eb455b84ac1e7855ba8ac1e3055b78ac1cb455b58ac1c7855b7cac1c3055b4cac1ab455b2cac1a7855b50ac1a3055b20ac18b455b00ac187855b24ac183055af4ac16b455ad4ac1678)
  (.lf 0)) (.nd (.lf
  0x38bd876eecc386fc76eccc38ae076eacc3871076e8cc38a1876e6cc3872076e4cc3894876e2cc3874876e0cc3887476decc3876076dccc384e476dacc3843876d8cc383b876d6cc3832c76d4cc382a876d2cc3821876d0cc3818c76cecc380fc76cccc3807076cacc37fe876c8cc37f6476c6cc37ec876c4cc37e4076c2cc3887076fdd03885876fbd03884476f9d03883076f7d03882076f5d03880876f3d0387f876f1d0387e076efd0387d076edd03875476ebd03873076e9d03870c76e7d0386f876e5d0385dc76e3d0385cc76e1d0385bc76dfd03856076ddd0384dc76dbd0384ac76d9d0383b076d7d03832876d5d0382a076d3d03821076d1d03818476cfd0380f476cdd03806876cbd037fe076c9d037f5c76c7d037f3876c5d037eac76c3d037df876c11036fec77fecc36ff477fccc3703477facc3703c77f8cc3704477f6cc3704c77f4cc36efc77f2cc36f0477f0cc36f0c77eecc36f1477eccc)
  (.lf 0)))

def shaWireTree134 : BTree :=
  .nd (.nd (.nd (.lf
  0x4a12ca590784a130a590b44a134a590304a110a58e784a10ca58eb44a114a58e304a0f8a58c784a0fca58cb44a100a58c304a0d0a58a784a0cca58ab44a0d4a58a304a0bca5887848d94a588b44a0c0a5883048d88a5867848d04a586b448d8ca5863048ccca5847848c4ca584b448cd4a5843048c40a5827848c14a582b448c44a582304c260a97c784c22ca97cb44c264a97c304c020a97a784c164a97ab44c1f0a97a304c00ca978784c010a978b44c018a978304bfd0a976784bf54a976b44bfd4a976304bf14a974784bf18a974b44bf1ca974304be2ca972784be50a972b44bf0ca972304bcb4a970784bd64a970b44be24a970304bb34a96e784bca8a96eb44bcaca96e304bb28a96c784baf0a96cb44bb2ca96c304ba94a96a784bae4a96ab44bae8a96a304ba88a968784ba68a968b44ba8ca968304b968a966784ba5ca966b44ba60a966304b8a4a964784b91ca964b44b960a964304b834a96278)
  (.lf 0)) (.nd (.lf
  0x57eb0b05d2c57e84b05b2c57e58b0592c57e2cb0572c57e00b0552c57dd4b0532c57da8b0512c57d7cb04f2c57d50b04d2c57d24b04b2c57cf8b0492c57cccb0472c57ca0b0452c57c74b0432c57c64b040cc5a294b47f2c5a288b47d2c5a264b47b2c5a24cb4792c5a26cb4772c5a230b4752c5a20cb4732c5a1f8b4712c5a1e4b46f2c5a1c4b46d2c5a1b0b46b2c5a1a8b4692c5a18cb4672c5a170b4652c5a158b4632c5a148b4612c5a134b45f2c5a118b45d2c5a0f8b45b2c5a0ecb4592c5a0c4b4572c5a0ccb4552c5a0a8b4532c5a088b4512c5a070b44f2c5a058b44d2c5a044b44b2c5a034b4492c5a024b4472c5a000b4452c59fdcb4432c59f90b440cc5cff8b87f2c5cf74b87d2c5ceecb87b2c5ce64b8792c5cde0b8772c5cd58b8752c5ccd4b8732c5cc54b8712c5cbd8b86f2c5cb5cb86d2c5cae0b86b2c5ca64b8692c5c9f0b8672c5c98cb8652c5c44cb8632c5c438b8612c5c418b85f2c)
  (.lf 0))) (.nd (.nd (.lf
  0x49f01a4c300495c1a4ab4048e81a4a78049601a4a30048dc1a48b40486c1a4878048e01a4830048601a46b4047e01a4678048641a4630047d41a44b4047541a4478047d81a4430047481a42b4046f41a42780474c1a42300b9b81afcb40ba201afc780ba241afc300b9381afab40b9ac1afa780b9b01afa300b8b01af8b40b92c1af8780b9301af8300b82c1af6b40b8a41af6780b8a81af6300b7ac1af4b40b8201af4780b8241af4300b7241af2b40b7a01af2780b7a41af2300b6a01af0b40b7181af0780b71c1af0300b6201aeeb40b6941aee780b6981aee300b5a01aecb40b6141aec780b6181aec300b5181aeab40b5941aea780b5981aea300b48c1ae8b40b50c1ae8780b5101ae8300b4001ae6b40b4801ae6780b4841ae6300b3741ae4b40b3f41ae4780b3f81ae4300b2e81ae2b40b3681ae2780b36c1ae2300b25c1ae0b40b2dc1ae0780b2e01ae0300b1d01adeb40b2501ade780b2541ade30)
  (.lf 0)) (.nd (.lf
  0x7ede8f7eecc7eab8f7eccc7ebe0f7eacc7ececf7e8cc7ea0cf7e6cc7ecdcf7e4cc7ec68f7e2cc7ec08f7e0cc7eb64f7decc7ecf0f7dccc7ebc8f7dacc7ede0f7d8cc7ecf4f7d6cc7ea5cf7d4cc7ecacf7d2cc7ec58f7d0cc7ecc8f7cecc7eb5cf7cccc80d48f7cacc7ebd0f7c8cc7ed0cf7c6cc7eac0f7c4cc7eac8f7c2cc7fd1cf7fdd07fd08f7fbd07fcf4f7f9d07fcdcf7f7d07fcccf7f5d07fcb8f7f3d07eee0f7f1d07eeccf7efd07eeb8f7edd07eea4f7ebd07ee90f7e9d07ee78f7e7d07ee64f7e5d07ee50f7e3d07ee40f7e1d07ee2cf7dfd07ee18f7ddd07ee04f7dbd07edf0f7d9d07edc4f7d7d07edb0f7d5d07ed9cf7d3d07ed88f7d1d07ed70f7cfd07ed60f7cdd07ed4cf7cbd07ed3cf7c9d07ed28f7c7d07eb90f7c5d07eb7cf7c3d07eb68f7c11080590fabecc80510fabccc80560fabacc804c8fab8cc80438fab6cc804ccfab4cc806c4fab2cc8051cfab0cc8056cfaaecc80494faaccc)
  (.lf 0)))

def shaWireTree135 : BTree :=
  .nd (.nd (.nd (.lf
  0x54100aae4b454134aae47854138aae430540d0aae2b4540b0aae278540d4aae230540a0aae0b454090aae078540a4aae03054080aadeb454050aade7854088aade3054044aadcb45403caadc7854048aadc305402caadab454030aada7854034aada3054018aad8b45401caad87854020aad83054008aad6b454000aad6785400caad63053fecaad4b453f24aad47853ff0aad43053f14aad2b453f10aad27853f18aad23053f00aad0b453efcaad07853f08aad03053ee8aaceb453ef0aace7853ef4aace3053ed8aaccb453ddcaacc7853ee0aacc3053dd0aacab453da8aaca7853dd4aaca3053d94aac8b453cc8aac87853da0aac83053cb4aac6b453cb8aac67853cbcaac63053ca8aac4b453c14aac47853cacaac43053c04aac2b453c08aac27853c0caac23054348ab3eaa54334ab3caa5426cab32aa54230ab2caa54148ab26aa540e0ab22aa540b4ab20aa54094ab1eaa54054ab16aa53f34ab12aa)
  (.lf 0)) (.nd (.lf
  0x53ec0aa532c53ec8aa512c53e98aa4f2c53ed0aa4d2c53dc4aa4b2c53d90aa492c53be4aa472c53c9caa452c53bc4aa432c53bf4aa40cc562c4ae7f2c562b8ae7d2c562ccae7b2c56288ae792c56270ae772c56254ae752c56240ae732c56224ae712c5620cae6f2c561fcae6d2c561b4ae6b2c5619cae692c56188ae672c5616cae652c5615cae632c5613cae612c5612cae5f2c5610cae5d2c560fcae5b2c560dcae592c560ccae572c560acae552c5609cae532c5607cae512c5606cae4f2c5604cae4d2c56034ae4b2c56024ae492c562d8ae472c55f98ae452c55ed0ae432c55e9cae40cc58af0b27f2c58728b27d2c58714b27b2c586f8b2792c58700b2772c586d0b2752c586b8b2732c586a0b2712c586a4b26f2c58670b26d2c58730b26b2c58644b2692c58634b2672c5861cb2652c58604b2632c585e8b2612c585d4b25f2c585bcb25d2c585a4b25b2c5858cb2592c58574b2572c58538b2552c)
  (.lf 0))) (.nd (.nd (.lf
  0x4a454001f814a458001f7f4a45c001f7d4a460001f7b4a464001f794a468001f774a46c001f754a470001f734a474001f714a478001f6f4a47c001f6d4a480001f6b4a484001f694a488001f674a48c001f654a490001f634a494001f614b4b8001f5f4b440001f5d4b3d0001f5b4b358001f594b2e8001f574b1f8001f554c2a8001f534c2ac001f514c2b0001f4f4c024001f4d4c028001f4b4c2b4001f494c2b8001f474c2bc001f454c02c001f434c030001f414c034001f3f4c038001f3d4c03c001f3b4bccc001f394bbb0001f374bbb4001f354bbb8001f334bbbc001f314b9ac001f2f4b8c0001f2d4b770001f2b4b720001f294b6cc001f274b674001f254b62c001f234b54c001f214e40c001f1f4e410001f1d4e414001f1b4e478001f194e418001f174e41c001f154e6ec001f134e6f0001f114e6f4001f0f4e6f8001f0d4e6fc001f0b4e700001f094e704001f074e708001f054e70c001f03)
  (.lf 0)) (.nd (.lf
  0x73544ec1dd0734f4ec1bd0734c4ec19d07349cec17d073488ec15d073458ec13d073448ec11d0733d0ec0fd073398ec0dd073384ec0bd073374ec09d073348ec07d073334ec05d073320ec03d07330cec011072accf0becc72aa0f0bccc72a80f0bacc72a2cf0b8cc72d44f0b6cc72a38f0b4cc72a40f0b2cc730fcf0b0cc72a4cf0aecc72a54f0accc72cdcf0aacc72ca8f0a8cc72c80f0a6cc72c58f0a4cc72d04f0a2cc72c1cf0a0cc72bf0f09ecc72cf0f09ccc72cb0f09acc72ce8f098cc72cb8f096cc72d0cf094cc72c60f092cc72d14f090cc72c24f08ecc72bf8f08ccc72bd0f08acc72ba4f088cc72b7cf086cc72b44f084cc72b14f082cc72f24f0bdd072f0cf0bbd072efcf0b9d072eecf0b7d072ed4f0b5d072ec0f0b3d072eb0f0b1d072ea0f0afd072e8cf0add072e78f0abd072e64f0a9d072e50f0a7d072e3cf0a5d072e28f0a3d072e18f0a1d072e00f09fd072decf09dd072dd8f09bd0)
  (.lf 0)))

def shaWireTree136 : BTree :=
  .nd (.nd (.nd (.lf
  0x59010c1bf2c59008c1bd2c5902cc1bb2c58fe8c1b92c58f58c1b72c58f48c1b52c58f30c1b32c58f1cc1b12c58f0cc1af2c58efcc1ad2c58eecc1ab2c58eccc1a92c58ea0c1a72c58e38c1a52c58e24c1a32c58e14c1a12c58e00c19f2c58dd4c19d2c58dbcc19b2c58d8cc1992c58d44c1972c58d48c1952c58d4cc1932c58d04c1912c58ce4c18f2c58cbcc18d2c58c94c18b2c58c7cc1892c58c50c1872c58c60c1852c58290c1832c581d4c180cc5b738c5bf2c5b718c5bd2c5b6acc5bb2c5b664c5b92c5b5e8c5b72c5b5d0c5b52c5b780c5b32c5b4b0c5b12c5b454c5af2c5b400c5ad2c5b3c4c5ab2c5b318c5a92c5ae64c5a72c5ae24c5a52c5add8c5a32c5abfcc5a12c5ab34c59f2c5ab3cc59d2c5aac4c59b2c5aa94c5992c5aa0cc5972c5a9b4c5952c5a980c5932c5a830c5912c5a810c58f2c5a7f0c58d2c5a7ccc58b2c5a73cc5892c5a5f4c5872c5a388c5852c5a368c5832c59fc0c580cc)
  (.lf
  0x324306829d0323b06827d0323306825d0322b06823d03222c6821d0321a0681fd03211c681dd03209c681bd0320146819d031f906817d031f106815d031e886813d031dfc6811d031d70680fd031ce4680dd031c58680bd031bd46809d031b546807d031adc6805d031a686803d0319dc680110337a46cbecc337ac6cbccc337b46cbacc337bc6cb8cc337c46cb6cc337cc6cb4cc337d46cb2cc337dc6cb0cc337e46caecc337ec6caccc3384c6caacc338546ca8cc3385c6ca6cc338646ca4cc3386c6ca2cc338746ca0cc3387c6c9ecc338846c9ccc3388c6c9acc338946c98cc3389c6c96cc338a46c94cc338ac6c92cc338b46c90cc338bc6c8ecc338c46c8ccc338cc6c8acc338d46c88cc338dc6c86cc338e46c84cc338ec6c82cc347bc6cbdd0347586cbbd0346e06cb9d0346646cb7d0345e86cb5d03456c6cb3d0344f06cb1d0344746cafd0344006cadd0343886cabd0343146ca9d03429c6ca7d0))
  (.nd (.lf
  0x3ad900031013ad940030ff3ad980030fd3ad9c0030fb3ada00030f93ada40030f73ada80030f53aae40030f33aae80030f13aaec0030ef3aaf00030ed3aaf40030eb3aaf80030e93aafc0030e73a83c0030e53a8400030e33a8440030e13ecf40030df3ecf80030dd3ecfc0030db3ed000030d93ed040030d73ed080030d53ed0c0030d33ed100030d13ed140030cf3ed180030cd3ed1c0030cb3ed200030c93ed240030c73ed280030c53ed2c0030c33ed300030c13ed340030bf3ed380030bd3ed3c0030bb3ed400030b93ed440030b73ed480030b53ed4c0030b33ed500030b13ed540030af3ed580030ad3ed5c0030ab3ed600030a93ed640030a73ed680030a53ed6c0030a33ed700030a14008c00309f4009000309d40c6c00309b40c7000309940c7400309740c7800309540af400309340af800309140afc00308f4098c00308d4099000308b409940030894099800308740c7c00308540c80003083)
  (.lf 0))) (.nd (.nd (.lf
  0x3523073dcb43523873dc303522073da783521c73dab43522473da303520c73d8783520873d8b43521073d830351f873d678351f473d6b4351fc73d630351e473d478351e073d4b4351e873d430351d073d278351cc73d2b4351d473d230351bc73d078351b873d0b4351c073d030351a873ce78351a473ceb4351ac73ce303519473cc783519073ccb43519873cc303518073ca783517c73cab43518473ca303516c73c8783516873c8b43517073c8303515873c6783515473c6b43515c73c6303514473c4783514073c4b43514873c4303513073c2783512c73c2b43513473c230376bc76bc78376c476bcb4376c876bc30376b076ba78376a876bab4376b476ba303769876b8783769476b8b43769c76b8303768876b6783768476b6b43768c76b6303766c76b4783767476b4b43767876b4303766076b2783765c76b2b43766476b2303764876b0783764476b0b43765076b0303763876ae783762c76aeb4)
  (.lf 0)) (.nd (.lf
  0x52c2000667352c4000667152b8c00666f52ee000666d52ee800666b52dfc00666952e0400666752e0c00666552e1400666352d04006661547b000665f5476c00665d5472800665b546d00066595469800665754654006655549a4006653549ac006651549b400664f549bc00664d549c400664b549cc006649549d4006647549dc006645549e4006643549ec0066415485400663f547fc00663d547b400663b547700066395472c006637546d40066355469c006633546580066315460800662f549f400662d549fc00662b54a0400662954a0c00662754a140066255485c00662354804006621573d800661f573e000661d573e800661b573ec006619573f0006617573f8006615573fc006613574040066115740c00660f5741400660d5741c00660b574240066095742c006607574340066055743c006603574440066015744c0065ff574540065fd5745c0065fb574640065f95746c0065f7574740065f5)
  (.lf 0)))

def shaWireTree137 : BTree :=
  .nd (.nd (.nd (.lf
  0x69741da0780690c1da0b4069781da030069001d9e78068981d9eb4069041d9e300688c1d9c78068201d9cb4068901d9c30068141d9a78067bc1d9ab4068181d9a30067b01d9878067481d98b4067b41d98300673c1d9678066d01d96b4067401d9630066c41d94780666c1d94b4066c81d9430066601d9278065f81d92b4066641d9230065ec1d9078065841d90b4065f01d9030065781d8e780650c1d8eb40657c1d8e30065001d8c78064a81d8cb4065041d8c300649c1d8a78064301d8ab4064a01d8a30064241d8878063c81d88b4064281d8830063bc1d8678063641d86b4063c01d8630063581d8478062ec1d84b40635c1d8430062e01d8278062401d82b4062e41d8230087f8217c7808864217cb408868217c300876c217a78087ec217ab4087f0217a30086e0217878087602178b40876421783008650217678086d42176b4086d8217630085d0217478086442174b40864821743008554217278)
  (.lf 0)) (.nd (.lf
  0x57204b3dd2c571ecb3db2c571dcb3d92c571c4b3d72c571b4b3d52c571a0b3d32c570d4b3d12c570bcb3cf2c570b0b3cd2c56f1cb3cb2c56ea4b3c92c56df8b3c72c56d68b3c52c56c78b3c32c56c28b3c0cc59b8cb7ff2c59b78b7fd2c59b6cb7fb2c59b54b7f92c59b3cb7f72c59b28b7f52c59b20b7f32c59b08b7f12c59aecb7ef2c59ad8b7ed2c59accb7eb2c59abcb7e92c59a94b7e72c59a98b7e52c59aa0b7e32c59a68b7e12c59a4cb7df2c59a38b7dd2c59a30b7db2c59a14b7d92c599fcb7d72c599ecb7d52c599dcb7d32c599c4b7d12c599acb7cf2c59998b7cd2c59988b7cb2c59974b7c92c59958b7c72c59944b7c52c5971cb7c32c596ccb7c0cc5c124bbff2c5c128bbfd2c5c100bbfb2c5c0f0bbf92c5c0d8bbf72c5c0c8bbf52c5c0b0bbf32c5c0a0bbf12c5c088bbef2c5c078bbed2c5c064bbeb2c5c050bbe92c5c03cbbe72c5c028bbe52c5c014bbe32c5bffcbbe12c5bfe8bbdf2c)
  (.lf 0))) (.nd (.nd (.lf
  0x64baccc92b464ba8cc927864bb0cc923064b90cc90b464b94cc907864b98cc903064b80cc8eb464b7ccc8e7864b84cc8e3063814cc8cb463810cc8c7864b74cc8c30637f8cc8ab4637f4cc8a78637fccc8a30637e8cc88b4637e4cc8878637eccc8830637d0cc86b4637d4cc8678637d8cc8630637c0cc84b4637c4cc8478637c8cc8430637b0cc82b4637accc8278637b4cc823067934cc7cb467938cc7c7867948cc7c3067928cc7ab467918cc7a786792ccc7a3067908cc78b467904cc78786790ccc7830678f0cc76b4678eccc7678678f4cc7630678e0cc74b4678dccc7478678e4cc7430678cccc72b4678c8cc7278678d0cc7230678b8cc70b4678b4cc7078678bccc7030678a8cc6eb46789ccc6e78678accc6e3067884cc6cb467888cc6c786788ccc6c3067878cc6ab467874cc6a786787ccc6a3067858cc68b46785ccc687867860cc683067844cc66b46783ccc667867848cc66306782ccc64b4)
  (.lf 0)) (.nd (.lf
  0x48c0c96c2cc4970c96fdd0496f496fbd0496dc96f9d0496c496f7d0496b096f5d04969896f3d04968096f1d04966c96efd04965896edd04964896ebd0494cc96e9d0494b896e7d0494a096e5d04921496e3d04920496e1d0491f096dfd0491dc96ddd0491c896dbd0491b496d9d04917096d7d04915896d5d04914896d3d04913096d1d04911c96cfd04910c96cdd0490ac96cbd04909c96c9d048d8096c7d048cb096c5d048bb096c3d048b9896c11047bb097fecc47bb897fccc47bd897facc47be097f8cc47b6897f6cc47ae097f4cc47ae897f2cc47af097f0cc47af897eecc47a1897eccc479d897eacc4798497e8cc4798c97e6cc47be897e4cc47bf097e2cc47b7097e0cc47b0097decc47b0897dccc47b1097dacc47b1897d8cc47a2097d6cc479e097d4cc47bf897d2cc47c0097d0cc47b7897cecc47b2097cccc47b2897cacc47c0497c8cc47c0897c6cc47a2897c4cc479e897c2cc47e5897fdd0)
  (.lf 0)))

def shaWireTree138 : BTree :=
  .nd (.nd (.nd (.lf
  0x63c08d5603063b78d55e7863bc4d55eb463bc8d55e3063b4cd55c7863b6cd55cb463b70d55c3063b14d55a7863b10d55ab463b30d55a3063b00d5587863b04d558b463b08d55830639d8d5567863af4d556b463af8d5563063950d554786394cd554b4639d0d5543063914d5527863918d552b463940d5523063908d5507863900d550b46390cd55030638dcd54e78638f4d54eb4638f8d54e3063154d54c786341cd54cb463420d54c3063144d54a7863148d54ab46314cd54a3062ff8d54878630f4d548b4630f8d5483062d3cd5467862fecd546b462ff0d5463062cd0d5447862d18d544b462d1cd5443062c40d5427862cb8d542b462cbcd542306449cd5bc786447cd5bcb4644a0d5bc3064468d5ba78642b8d5bab464474d5ba30642acd5b878642a4d5b8b4642b0d5b83064280d5b67864288d5b6b46429cd5b63064264d5b47864260d5b4b464278d5b43064254d5b27864250d5b2b464258d5b230)
  (.lf 0)) (.nd (.lf
  0x69a3cd01d2c69b74d01b2c699e0d0192c699d4d0172c699b4d0152c69858d0132c69870d0112c69b8cd00f2c69818d00d2c69834d00b2c6974cd0092c69eb8d0072c695f0d0052c695f8d0032c6954cd000cc6c480d43f2c6c468d43d2c6c450d43b2c6c440d4392c6c424d4372c6c408d4352c6c3f0d4332c6c3e4d4312c6c364d42f2c6c338d42d2c6c35cd42b2c6c340d4292c6c304d4272c6c2e8d4252c6c2ccd4232c6c288d4212c6c25cd41f2c6c228d41d2c6c1d0d41b2c6c1dcd4192c6c194d4172c6c168d4152c6c0d8d4132c6bf00d4112c6bf0cd40f2c6be68d40d2c6bde4d40b2c6bd58d4092c6bcdcd4072c6bc48d4052c6bbbcd4032c6b88cd400cc6e608d83f2c6e4d4d83d2c6e4ecd83b2c6e3e4d8392c6e3f0d8372c6e3d4d8352c6e3a8d8332c6e394d8312c6e380d82f2c6e370d82d2c6e358d82b2c6e3fcd8292c6e330d8272c6e0c4d8252c6e0acd8232c6e098d8212c6e07cd81f2c)
  (.lf 0))) (.nd (.nd (.lf
  0x108d02bd230108b82bd078108b42bd0b4108bc2bd030108a42bce78108a02bceb4108a82bce30108902bcc781088c2bccb4108942bcc301087c2bca78108782bcab4108802bca30108682bc878108642bc8b41086c2bc830108542bc678108502bc6b4108582bc630108402bc4781083c2bc4b4108442bc4301082c2bc278108282bc2b4108302bc230136082ebc78136042ebcb41360c2ebc30135902eba781358c2ebab4135942eba301350c2eb878135082eb8b4135102eb830134842eb678134802eb6b4134882eb630134002eb478133fc2eb4b4134042eb430133782eb278133742eb2b41337c2eb230132f42eb078132f02eb0b4132f82eb0301326c2eae78132682eaeb4132702eae30131e82eac78131e42eacb4131ec2eac30131682eaa78131642eaab41316c2eaa30130e82ea878130e42ea8b4130ec2ea830130682ea678130642ea6b41306c2ea63012fe02ea47812fdc2ea4b412fe42ea430)
  (.lf 0)) (.nd (.lf
  0x14084418bd0140284189d013fd04187d013f904185d013f504183d013f2841811015ff0457ecc15fec457ccc15fe8457acc15fe44578cc15fe04576cc15fdc4574cc15fd84572cc15fd44570cc15fd0456ecc15fcc456ccc15fc8456acc15fc44568cc15fc04566cc15fbc4564cc15fb84562cc15fb44560cc15fb0455ecc15fac455ccc15fa8455acc15fa44558cc15fa04556cc15f9c4554cc15f984552cc15f944550cc15f90454ecc15f8c454ccc15f88454acc15f844548cc15f804546cc15f7c4544cc15f784542cc16438457dd016414457bd0163f04579d0163cc4577d0163a84575d0163844573d0163604571d01633c456fd016318456dd0162f4456bd0162d04569d0162ac4567d0162884565d0162644563d0161304561d01611c455fd016108455dd0160f4455bd0160e04559d0160cc4557d0160b84555d0160a44553d0160904551d01607c454fd016068454dd016054454bd0160404549d0)
  (.lf 0)))

def shaWireTree139 : BTree :=
  .nd (.nd (.nd (.lf
  0x5e3bcbeac305e3a0beaa785e3a4beaab45e3a8beaa305e38cbea8785e390bea8b45e394bea8305e378bea6785e37cbea6b45e380bea6305e364bea4785e368bea4b45e36cbea4305e354bea2785e350bea2b45e358bea2305e33cbea0785e340bea0b45e344bea0305e18cbe9e785e190be9eb45e194be9e305e178be9c785e17cbe9cb45e180be9c305e110be9a785e108be9ab45e16cbe9a305e0f4be98785e0fcbe98b45e100be98305e0e4be96785e0e8be96b45e0ecbe96305e0d0be94785e0d4be94b45e0d8be94305e0b8be92785e0c0be92b45e0c4be92305e0a4be90785e0acbe90b45e0b0be90305e090be8e785e098be8eb45e09cbe8e305dfecbe8c785e084be8cb45e088be8c305df6cbe8a785dfe0be8ab45dfe4be8a305de54be88785df60be88b45df64be88305de44be86785de48be86b45de4cbe86305dc84be84785de34be84b45de38be84305dc70be82785dc78be82b45dc7cbe8230)
  (.lf 0)) (.nd (.lf
  0x56368aecd2c56350aecb2c56314aec92c562e0aec72c55fa0aec52c55ed8aec32c55ea4aec0cc58af8b2ff2c58a04b2fd2c589f0b2fb2c589d8b2f92c589c4b2f72c589b4b2f52c589a0b2f32c58988b2f12c58a1cb2ef2c58950b2ed2c588f4b2eb2c588dcb2e92c588ccb2e72c588a4b2e52c58844b2e32c58830b2e12c58814b2df2c587d8b2dd2c587a8b2db2c58788b2d92c58758b2d72c58548b2d52c58508b2d32c584d0b2d12c58484b2cf2c58444b2cd2c58410b2cb2c583b8b2c92c58358b2c72c582f0b2c52c58274b2c32c581acb2c0cc5b5a4b6ff2c5b590b6fd2c5b5a8b6fb2c5b638b6f92c5b530b6f72c5b520b6f52c5b494b6f32c5b49cb6f12c5b380b6ef2c5b36cb6ed2c5b39cb6eb2c5b2fcb6e92c5ac80b6e72c5ac50b6e52c5adc4b6e32c5aba4b6e12c5aa78b6df2c5aa64b6dd2c5aa5cb6db2c5aa2cb6d92c5a8ecb6d72c5a8d8b6d52c5a964b6d32c5a694b6d12c5a67cb6cf2c)
  (.lf 0))) (.nd (.nd (.lf
  0x273c8501478273cc501430272945012b42732450127827328501230271fc5010b4272885010782728c50103027164500eb4271f0500e78271f4500e30270c4500cb427158500c782715c500c3027020500ab4270b8500a78270bc500a3026f845008b4270145008782701850083026ee45006b426f7850067826f7c50063026e405004b426ed850047826edc50043026dac5002b426e3450027826e385002301bb9854bcb41bb9454bc781bb9c54bc301bb8454bab41bb8054ba781bb8854ba301bb7054b8b41bb6c54b8781bb7454b8301bb5c54b6b41bb5854b6781bb6054b6301bb4854b4b41bb4454b4781bb4c54b4301bb3454b2b41bb3054b2781bb3854b2301bb2054b0b41bb1c54b0781bb2454b0301bb0c54aeb41bb0854ae781bb1054ae301baf854acb41baf454ac781bafc54ac301bae454aab41bae054aa781bae854aa301bad054a8b41bacc54a8781bad454a8301babc54a6b41bab854a678)
  (.lf 0)) (.nd (.lf
  0x3194164fd003104164dd003084164bd0030081649d002f781647d002ef81645d002e781643d002e201641100a19816fecc0a12016fccc0a09c16facc0a01416f8cc09f8816f6cc09f0416f4cc09e8416f2cc09dfc16f0cc09d7016eecc09ce416eccc09c5816eacc09bcc16e8cc09b4816e6cc09ac816e4cc09a4816e2cc099c016e0cc0993c16decc098bc16dccc0983c16dacc097b416d8cc0973016d6cc096b016d4cc0963016d2cc095a816d0cc0951c16cecc0949016cccc0940416cacc0937816c8cc092f416c6cc0927416c4cc091f416c2cc0a18016fdd00a10416fbd00a08016f9d009ff816f7d009f6c16f5d009ee816f3d009e6816f1d009de016efd009d5416edd009cc816ebd009c3c16e9d009bb016e7d009b2c16e5d009aac16e3d009a2c16e1d0099a416dfd00992016ddd0098a016dbd00982016d9d00979816d7d00971416d5d00969416d3d00961416d1d00958c16cfd00950016cdd0)
  (.lf 0)))

def shaWireTree140 : BTree :=
  .nd (.nd (.nd (.lf
  0x67d5c0012cb67d600012c967d640012c767d680012c569be00012c369be40012c169be80012bf6a0540012bd69bec0012bb6a0580012b969bf00012b769d140012b569d180012b369d1c0012b169d200012af69bf40012ad69bf80012ab69bfc0012a969c000012a769c040012a569c080012a369c0c0012a169c1000129f69c1400129d69c1800129b69c1c0012996bf080012976bf880012956bed40012936be580012916bd7800128f6bd4400128d6bc6800128b6c4d00012896c4d40012876c4d80012856c4dc0012836c4e00012816c4e400127f6c4e800127d6c4ec00127b6c4f00012796c4f40012776c4f80012756c4fc0012736c5000012716c50400126f6c50800126d6ddd000126b6dd9c0012696dd680012676dd2c0012656dd000012636dccc0012616dc7800125f6e60c00125d6e4f400125b6e6100012596e4f80012576e4fc0012556e4100012536e4140012516e41800124f6e41c00124d)
  (.lf 0)) (.nd (.lf
  0x388e47fa078389407f9e78387847f9c783853c7f9a783847c7f9878384187f9678383687f9478383047f92783825c7f9078381ec7f8e783813c7f8c78380d07f8a783801c7f887837fb87f867837f247f847837e987f827837dd87f80783afd47fbe303af547fbc303acc07fba303acc47fb8303acc87fb6303accc7fb4303acd07fb2303acd47fb0303ad687fae303aa387fac303aaa47faa303aa3c7fa8303aa8c7fa6303aa407fa4303aa747fa2303aa447fa0303a7007f9e303a6d07f9c303a6e87f9a303a5b07f98303a52c7f96303a5147f94303a4707f92303a4247f90303a3ac7f8e303a2387f8c303a2147f8a303a1f07f88303a1cc7f86303a1a87f84303a1747f82303a15c7f80303eb2483beb43eb2883bcb43eb2c83bab43eb3083b8b43eb3483b6b43eb3883b4b43eb3c83b2b43eb4083b0b43eb4483aeb43eb4883acb43eb4c83aab43eb5083a8b43eb5483a6b43eb5883a4b43eb5c83a2b4)
  (.lf 0))) (.nd (.nd (.lf
  0x24d004fe07824cfc4fe0b424d044fe03024cec4fde7824ce84fdeb424cf04fde3024cd84fdc7824cd44fdcb424cdc4fdc3024cc44fda7824cc04fdab424cc84fda3024cb04fd87824cac4fd8b424cb44fd83024c9c4fd67824c984fd6b424ca04fd63024c884fd47824c844fd4b424c8c4fd43024c744fd27824c704fd2b424c784fd23024c604fd07824c5c4fd0b424c644fd03024c4c4fce7824c484fceb424c504fce3024c384fcc7824c344fccb424c3c4fcc3024ac44fca7824c244fcab424c284fca3024a784fc87824ab84fc8b424abc4fc83024a6c4fc67824a684fc6b424a704fc63024a584fc47824a544fc4b424a5c4fc43024a444fc27824a404fc2b424a484fc23026c0452bc7826c0052bcb426c0852bc3026bf052ba7826bec52bab426bf452ba3026bdc52b87826bd852b8b426be052b83026bc852b67826bc452b6b426bcc52b63026bb452b47826bb052b4b426bb852b43026ba052b278)
  (.lf 0)) (.nd (.lf
  0x5a374c583d059fd4c581105e114c97ecc5dff0c97ccc5dda8c97acc5dea8c978cc5de58c976cc5db64c974cc5db08c972cc5dab4c970cc5da1cc96ecc5dc90c96ccc5d988c96acc5d948c968cc5d870c966cc5d850c964cc5d7ccc962cc5d764c960cc5d720c95ecc5d660c95ccc5d664c95acc5d5f4c958cc5d598c956cc5d4c4c954cc5d520c952cc5d470c950cc5d3f0c94ecc5d390c94ccc5d2f4c94acc5d364c948cc5d230c946cc5d2a4c944cc5d1ecc942cc5dfacc97dd05dde4c97bd05dd88c979d05dd5cc977d05db5cc975d05db40c973d05daacc971d05da94c96fd05da18c96dd05d9b4c96bd05d940c969d05d8d8c967d05d86cc965d05d814c963d05d7acc961d05d740c95fd05d6f4c95dd05d6d0c95bd05d5ecc959d05d57cc957d05d550c955d05d4d4c953d05d49cc951d05d428c94fd05d3c0c94dd05d384c94bd05d300c949d05d2c8c947d05d248c945d05d1d0c943d05c460c94110)
  (.lf 0)))

def shaWireTree141 : BTree :=
  .nd (.nd (.nd (.lf
  0x7795ce2a0b477964e2a0307794ce29e7877948e29eb477950e29e3077934e29c7877930e29cb477938e29c307791ce29a7877918e29ab477920e29a3077904e2987877900e298b477908e29830778ece29678778e8e296b4778f0e29630778d4e29478778d0e294b4778d8e29430778bce29278778b8e292b4778c0e29230778a4e29078778a0e290b4778a8e290307788ce28e7877888e28eb477890e28e3077704e28c7877874e28cb477878e28c3077538e28a78776f8e28ab4776fce28a307740ce288787752ce288b477530e288307725ce2867877400e286b477404e28630770fce2847877250e284b477254e2843077030e28278770f0e282b4770f4e2823071558e27cb47155ce27c7871564e27c3071548e27ab47154ce27a7871550e27a3071530e278b471534e2787871538e2783071520e276b471524e2767871528e276307150ce274b471514e2747871518e27430714fce272b471500e27278)
  (.lf 0)) (.nd (.lf
  0x56f0c0055fd56e900055fb56de80055f956d580055f756c5c0055f5571980055f35705c0055f1570640055ef570a40055ed56f140055eb56e980055e956df00055e756d600055e556c640055e356c200055e1596a80055df596ac0055dd598e80055db5991c0055d9598a00055d7597f40055d5597fc0055d3598000055d1598540055cf597440055cd597040055cb596b00055c9596b80055c7598f00055c5599240055c3598a80055c1598080055bf598100055bd598180055bb5985c0055b95974c0055b75970c0055b5598f80055b35992c0055b1598b00055af5981c0055ad598200055ab598280055a9598640055a7597500055a5597100055a3596c00055a15bc5000559f5bc5400559d5bf5800559b5befc0055995bdc40055975bd880055955bd5c0055935bcdc0055915be5800558f5be0c00558d5bc8000558b5bc580055895bc5c0055875bf5c0055855bf000055835bdc80055815bd8c00557f)
  (.lf 0))) (.nd (.nd (.lf
  0x3d1fc90b2303d1cc90b0b43d1c890b0783d1d090b0303d1a090aeb43d19c90ae783d1a490ae303d17490acb43d17090ac783d17890ac303d14890aab43d14490aa783d14c90aa303d11c90a8b43d11890a8783d12090a8303d0f090a6b43d0ec90a6783d0f490a6303d0c490a4b43d0c090a4783d0c890a4303d09890a2b43d09490a2783d09c90a2303d06c90a0b43d06890a0783d07090a0303d040909eb43d03c909e783d044909e303d014909cb43d010909c783d018909c303cfe8909ab43cfe4909a783cfec909a303cfbc9098b43cfb89098783cfc09098303cf909096b43cf8c9096783cf949096303cf649094b43cf609094783cf689094303cf389092b43cf349092783cf3c9092303cf0c9090b43cf089090783cf109090303cee0908eb43cedc908e783cee4908e303ceb4908cb43ceb0908c783ceb8908c303ce88908ab43ce84908a783ce8c908a303ce5c9088b43ce589088783ce60908830)
  (.lf 0)) (.nd (.lf
  0x2902856e4cc28fec56e2cc28fb456e0cc28f7456decc28f3856dccc28f0056dacc28ec856d8cc28e9056d6cc28e5056d4cc28e1456d2cc28ddc56d0cc28d9c56cecc28d6056cccc28d2056cacc28ce456c8cc28ca456c6cc28c6856c4cc28c3856c2cc2933456fdd0292f456fbd0292b856f9d02928056f7d02924056f5d02920456f3d0291c456f1d02918856efd02915056edd02911056ebd0290cc56e9d02908856e7d02904c56e5d02900c56e3d028fd056e1d028f9856dfd028f5856ddd028f1c56dbd028ee456d9d028eac56d7d028e7456d5d028e3456d3d028df856d1d028dc056cfd028d8056cdd028d4456cbd028d0456c9d028cc856c7d028c8856c5d028c4c56c3d028c2856c11029328573df4292e4573b4029230573540291b457314029100572bf4290bc5729f42907857274028ffc57234028f48571d4028e2457134028d70570d4028cf457094028c78570540282e857fecc282f057fccc)
  (.lf 0)))

def shaWireTree142 : BTree :=
  .nd (.nd (.nd (.lf
  0x32a007942b432a087942303296879bc783296479bcb43296c79bc303295479ba783295079bab43295879ba303294079b8783293c79b8b43294479b8303292c79b6783292879b6b43293079b6303291879b4783291479b4b43291c79b4303290479b2783290079b2b43290879b230328f079b078328ec79b0b4328f479b0303259079ae783252079aeb43259479ae303251479ac78324a479acb43251879ac303249879aa783242479aab43249c79aa303241879a878323a479a8b43241c79a8303239879a6783232479a6b43239c79a6303231079a478322a079a4b43231c79a4303229479a2783221c79a2b43229879a2303221079a0783219479a0b43221479a03032188799e7832110799eb43218c799e3032104799c7832090799cb432108799c3032084799a7832008799ab432088799a3031ffc79987831f847998b43200079983031f7879967831f047996b431f7c79963031ef879947831e7c7994b4)
  (.lf 0)) (.nd (.lf
  0x35f40709d2c35ed0709b2c35e6470992c35df070972c35d8070952c35d0c70932c35c9470912c35c18708f2c35ba0708d2c35b1c708b2c35a9070892c35a0c70872c3598c70852c358fc70832c358bc7080cc37d6c74bf2c37d4474bd2c37d1874bb2c37cec74b92c37cc074b72c37c9474b52c37c6874b32c37c3c74b12c37c1074af2c37be474ad2c37bb874ab2c37b8c74a92c37b6074a72c37b3474a52c37b0874a32c37adc74a12c37ab0749f2c37a84749d2c37a58749b2c37a2c74992c37a0074972c379d474952c379a874932c3797c74912c37950748f2c37920748d2c378f0748b2c378c074892c3789474872c3786874852c3783c74832c3782c7480cc39dd878bf2c39dac78bd2c39d7c78bb2c39d4c78b92c39d1c78b72c39cec78b52c39cbc78b32c39c8c78b12c39c5c78af2c39c2c78ad2c39bfc78ab2c39bcc78a92c39b9c78a72c39b6c78a52c39b3c78a32c39b0c78a12c39adc789f2c)
  (.lf 0))) (.nd (.nd (.lf
  0x365406e0300354c06deb4035c406de78035c806de30034c406dcb40354006dc780354406dc300344006dab4034b806da78034bc06da30033c006d8b40343406d8780343806d8300334006d6b4033b406d678033b806d630032b806d4b40333406d4780333806d4300323406d2b4032ac06d278032b006d230031b406d0b40322806d0780322c06d0300312c06ceb4031a806ce78031ac06ce30030a806ccb40312006cc780312406cc300302806cab40309c06ca78030a006ca3002fa006c8b40301c06c8780302006c83002f1c06c6b402f9406c67802f9806c63002e9c06c4b402f1006c47802f1406c43002e2c06c2b402e9006c27802e9406c23003d50073caa03cc4073aaa03c380738aa03a2c0730aa038a0072aaa038140728aa037080724aa0367c0722aa035f00720aa034e4071caa032d80714aa0314c070eaa02fc00708aa03d20073c1e03d94073cb403d98073c1403c94073a1e03d14073ab4)
  (.lf 0)) (.nd (.lf
  0x6b8c4d6c1106d3a4d73df46d360d73b406d1a4d735f46cf78d733f46cf40d731406cddcd72df46cdccd72b406cca8d727f46cc3cd725406c7d0d71d406c7a4d719406c6f8d715406bf7cd711406be20d70b406bcb0d705406adf0d7fecc6ae0cd7fccc6adf4d7facc6afe8d7f8cc6ad84d7f6cc6ad00d7f4cc6ac2cd7f2cc6abc0d7f0cc6abecd7eecc6ab20d7eccc6abf4d7eacc6aa80d7e8cc6a990d7e6cc6ade8d7e4cc6af04d7e2cc6ad8cd7e0cc6acdcd7decc6ac34d7dccc6abe4d7dacc6ab70d7d8cc6ab28d7d6cc6aac4d7d4cc6aff8d7d2cc6aff0d7d0cc6ad94d7cecc6ace4d7cccc6ac3cd7cacc6abccd7c8cc6ab78d7c6cc6ab30d7c4cc6aadcd7c2cc6afe0d7fdd06afccd7fbd06afb8d7f9d06afa8d7f7d06af94d7f5d06af80d7f3d06af6cd7f1d06af58d7efd06af44d7edd06af30d7ebd06af1cd7e9d06af00d7e7d06aeecd7e5d06aed8d7e3d06aec8d7e1d06aeb4d7dfd06aea0d7ddd0)
  (.lf 0)))

def shaWireTree143 : BTree :=
  .nd (.nd (.nd (.lf
  0x47ccc97d67847cd097d6b447cd497d63047cbc97d47847cc097d4b447cc497d43047ca897d27847cac97d2b447cb097d23047c9897d07847c9497d0b447c9c97d03047c8097ce7847c8497ceb447c8897ce3047c6897cc7847c7097ccb447c7497cc3047c5497ca7847c5897cab447c5c97ca3047c4497c87847c4897c8b447c4c97c83047c3097c67847c3497c6b447c3897c63047c2097c47847c1897c4b447c2497c4304799c97c27847c0c97c2b447c1097c2304a7e09abc784a7e89abcb44a7ec9abc304a7d49aba784a7d09abab44a7d89aba304a7c09ab8784a7b89ab8b44a7c49ab8304a7a89ab6784a7ac9ab6b44a7b09ab6304a7949ab4784a7989ab4b44a79c9ab4304a7789ab2784a77c9ab2b44a7809ab2304a76c9ab0784a7649ab0b44a7709ab0304a7589aae784a7549aaeb44a75c9aae304a7409aac784a7489aacb44a74c9aac304a7289aaa784a7249aaab44a72c9aaa304a7149aa878)
  (.lf 0)) (.nd (.lf
  0x52f44aa932c52f2caa912c52f0caa8f2c52f00aa8d2c52f18aa8b2c52e58aa892c52e48aa872c52e24aa852c52e2caa832c52d08aa80cc54c58aebf2c54c5caebd2c54c38aebb2c54c28aeb92c54c10aeb72c54bfcaeb52c54be4aeb32c54bd8aeb12c54bbcaeaf2c54bacaead2c54b98aeab2c54b84aea92c54b70aea72c54b54aea52c54b58aea32c54b30aea12c54b24ae9f2c54b04ae9d2c54ae4ae9b2c54ad4ae992c54aecae972c54b10ae952c54a9cae932c54a8cae912c54a74ae8f2c54a64ae8d2c54a4cae8b2c54a3cae892c54a28ae872c54b0cae852c54864ae832c5480cae80cc57734b2bf2c5771cb2bd2c57708b2bb2c57724b2b92c5770cb2b72c576d0b2b52c576c8b2b32c576acb2b12c57690b2af2c5767cb2ad2c57668b2ab2c57650b2a92c5769cb2a72c5762cb2a52c57614b2a32c5765cb2a12c575f0b29f2c575dcb29d2c57620b29b2c575b8b2992c575a4b2972c575a0b2952c)
  (.lf 0))) (.nd (.nd (.lf
  0x63ca4ca205063c74ca1e5063ad8ca1c5063a60ca1a5063a64ca185063a00ca1650639c0ca1450638ccca125063884ca105063894ca0e5063860ca0c5063864ca0a5063994ca085062fdcca065062d2cca045062cd4ca025062c6cca0050644ccce3e78644d0ce3c7864524ce3a78642c4ce387864298ce367864378ce347864274ce327864364ce307864230ce2e7864234ce2c7864238ce2a7863ff4ce287864430ce267863d24ce247863c94ce227863cacce207863c7cce1e7863ae0ce1c7863a70ce1a7863a74ce187863a08ce1678639c8ce1478638d4ce12786388cce10786389cce0e7863870ce0c7863874ce0a786399cce087862fe4ce067862d34ce047862cdcce027862c74ce00786690cce3e5066910ce3c5066914ce3a5066918ce385066884ce3650667e0ce3450667c4ce325066790ce305066794ce2e5066798ce2c5066638ce2a5066678ce285066698ce265066508ce2450663fcce2250)
  (.lf 0)) (.nd (.lf
  0x60bf4c021d060be0c01fd060bc4c01dd060bacc01bd060b98c019d060b84c017d060b6cc015d060b54c013d060a3cc011d060a10c00fd0609dcc00dd0609a8c00bd060984c009d060960c007d060948c005d060930c003d060910c001105f400c4becc5f408c4bccc5f410c4bacc5f418c4b8cc5f420c4b6cc5f428c4b4cc5f430c4b2cc5f438c4b0cc5f440c4aecc5f448c4accc5f4a8c4aacc5f4b0c4a8cc5f4b8c4a6cc5f4c0c4a4cc5f4c8c4a2cc5f4d0c4a0cc5f4d8c49ecc5f4e0c49ccc5f4e8c49acc5f4f0c498cc5f4f8c496cc5f500c494cc5f508c492cc5f510c490cc5f518c48ecc5f520c48ccc5f528c48acc5f530c488cc5f538c486cc5f540c484cc5f548c482cc5fa60c4bdd05fa48c4bbd05fa38c4b9d05fa24c4b7d05fa10c4b5d05f9fcc4b3d05f9e8c4b1d05f9d4c4afd05f9bcc4add05f9acc4abd05f998c4a9d05f984c4a7d05f970c4a5d05f95cc4a3d05f948c4a1d05f934c49fd0)
  (.lf 0)))

def shaWireTree144 : BTree :=
  .nd (.nd (.nd (.lf
  0x5e118c97f2c5dff4c97d2c5ddacc97b2c5deacc9792c5de5cc9772c5dbc8c9752c5db0cc9732c5dab8c9712c5da58c96f2c5dc94c96d2c5d98cc96b2c5d94cc9692c5d888c9672c5d85cc9652c5d7d4c9632c5d76cc9612c5d724c95f2c5d6d4c95d2c5d668c95b2c5d5f8c9592c5d59cc9572c5d538c9552c5d524c9532c5d474c9512c5d3f4c94f2c5d3a8c94d2c5d304c94b2c5d368c9492c5d250c9472c5d2a8c9452c5d1f0c9432c5c46cc940cc60544cd7f2c604fccd7d2c5ffe8cd7b2c5ff08cd792c5ff38cd772c5ffaccd752c5ff6ccd732c5fec4cd712c5fdf4cd6f2c5fe28cd6d2c5fe94cd6b2c5fe70cd692c5fc5ccd672c5f7d4cd652c5f7accd632c5f788cd612c5f760cd5f2c5f738cd5d2c5f710cd5b2c5f6e8cd592c5f6c0cd572c5f69ccd552c5f678cd532c5f654cd512c5f630cd4f2c5f60ccd4d2c5f800cd4b2c5f5dccd492c5f5b4cd472c5f590cd452c5f56ccd432c5e600cd40cc)
  (.lf
  0x200548068cc1ff988066cc1fed48064cc1fe1c8062cc1fd5c8060cc1fc9c805ecc1fbe0805ccc1fb24805acc1fa608058cc1f9a88056cc1f8e88054cc1f8308052cc1f7788050cc1f6bc804ecc1f5f8804ccc1f538804acc1f47c8048cc1f3c88046cc1f3108044cc1f24c8042cc207a8807dd0206f4807bd0206308079d0205788077d0204c08075d0204048073d0203488071d020294806fd0201d4806dd02011c806bd0200648069d01ffa88067d01fee48065d01fe2c8063d01fd6c8061d01fcac805fd01fbf0805dd01fb34805bd01fa708059d01f9b88057d01f8f88055d01f8408053d01f7888051d01f6cc804fd01f608804dd01f548804bd01f48c8049d01f3d88047d01f3208045d01f25c8043d01f1bc8041103c008803ecc3bfe0803ccc3bfb4803acc3bf888038cc3bf5c8036cc3bf308034cc3bf048032cc3bed88030cc3beac802ecc3be80802ccc3be54802acc3be288028cc3bdfc8026cc))
  (.nd (.lf
  0x8307400290182ff40028ff830580028fd82fc80028fb832ac0028f9829c40028f7823280028f5823640028f3823380028f1822600028ef820e80028ed820c80028eb81eac0028e981e380028e781d440028e581d1c0028e381da40028e1044c40e3e78044c80e3c78044cc0e3a78044d00e3878044d40e3678044d80e3478044dc0e3278044e00e3078044e40e2e78044e80e2c78044ec0e2a78044f00e2878044f40e2678044f80e2478044fc0e2278045000e2078045040e1e78045080e1c780450c0e1a78045100e1878045140e1678045180e14780451c0e1278045200e1078045240e0e78045280e0c780452c0e0a78045300e0878045340e0678045380e04780453c0e0278045400e007805ccc0e3e5005cd00e3c5005cd40e3a5005cd80e385005cdc0e365005ce00e345005ce40e325005ce80e305005cec0e2e5005cf00e2c5005cf40e2a5005cf80e285005cfc0e265005d000e245005d040e2250)
  (.lf 0))) (.nd (.nd (.lf
  0x3b2dc7e8a783b2d47e8ab43b2e07e8a303b2c87e88783b2c47e88b43b2cc7e88303b2b47e86783b2b07e86b43b2b87e86303b2987e84783b2a07e84b43b2a47e84303b2847e82783b2887e82b43b28c7e82303e0887e7cb43e0847e7c783e0947e7c303e0787e7ab43e0747e7a783e07c7e7a303e05c7e78b43e0587e78783e0607e78303e0487e76b43e04c7e76783e0507e76303e0347e74b43e0287e74783e0387e74303e01c7e72b43e0107e72783e0207e72303e0047e70b43dff87e70783e0087e70303dfe87e6eb43dfec7e6e783dff07e6e303dfd07e6cb43dfd47e6c783dfd87e6c303dfbc7e6ab43dfac7e6a783dfc07e6a303df947e68b43df987e68783df9c7e68303df7c7e66b43df807e66783df847e66303df707e64b43df647e64783df747e64303df547e62b43df587e62783df5c7e62303df387e60b43df3c7e60783df407e60303df247e5eb43df2c7e5e783df307e5e303df087e5cb4)
  (.lf 0)) (.nd (.lf
  0x10b582a13b010b5c2a11b010b602a0fb010b642a0db010b682a0bb010b6c2a09b010b702a07b010b742a05b010b782a03b010b7c2a01b0123bc2e3fb0123c02e3db0123c42e3bb0123c82e39b0123cc2e37b0123d02e35b0123d42e33b0123d82e31b0123dc2e2fb0123e02e2db0123e42e2bb0123e82e29b0123ec2e27b0123f02e25b0123f42e23b0123f82e21b0123fc2e1fb0124002e1db0124042e1bb0124082e19b01240c2e17b0124102e15b0124142e13b0124182e11b01241c2e0fb0124202e0db0124242e0bb0124282e09b01242c2e07b0124302e05b0124342e03b0124382e01b013c9c323fb013ca0323db013ca4323bb013ca83239b013cac3237b013cb03235b013cb43233b013cb83231b013cbc322fb013cc0322db013cc4322bb013cc83229b013ccc3227b013cd03225b013cd43223b013cd83221b013cdc321fb013ce0321db013ce4321bb013ce83219b013cec3217b013cf03215b0)
  (.lf 0)))

def shaWireTree145 : BTree :=
  .nd (.nd (.nd (.lf
  0xf738354ab40f73c354a300f6443548780f6b83548b40f6bc3548300f5c43546780f6383546b40f63c3546300f5443544780f5b83544b40f5bc3544300f4fc3542780f5383542b40f53c3542301041835bc78103a435bcb41041c35bc301039835ba781032835bab41039c35ba301031c35b8781029835b8b41032035b8301028c35b6781021835b6b41029035b6301020c35b4781019c35b4b41021035b4301019035b2781010c35b2b41019435b2301010035b0781009035b0b41010435b0301008435ae781000035aeb41008835ae300fff435ac780ff8035acb40fff835ac300ff7435aa780ff0035aab40ff7835aa300fef435a8780fe8035a8b40fef835a8300fe7435a6780fe0035a6b40fe7835a6300fdf435a4780fd8435a4b40fdf835a4300fd7835a2780fcf835a2b40fd7c35a2300fcec35a0780fc6835a0b40fcf035a0300fc5c359e780fbec359eb40fc60359e300fbe0359c780fb5c359cb4)
  (.lf 0)) (.nd (.lf
  0x1defc004dfd1df04004dfb1df0c004df91df14004df71df1c004df51df24004df31df2c004df11df34004def1df3c004ded1df44004deb1df4c004de91df54004de71df5c004de51df64004de31df6c004de11e1d4004ddf1e1dc004ddd1e1e4004ddb1e260004dd91e268004dd71e270004dd51e278004dd31e280004dd11e288004dcf1e290004dcd1e298004dcb1e2a0004dc91e2a8004dc71e2b0004dc51e2b8004dc31e2c0004dc11e2c8004dbf1e2d0004dbd1e2d8004dbb1e2e0004db91e2e8004db71e2f0004db51e2f8004db31e300004db11e308004daf1e310004dad1e318004dab1e320004da91e328004da71e330004da51e338004da31e340004da11e5a8004d9f1e5b0004d9d1e5b8004d9b1e634004d991e63c004d971e644004d951e64c004d931e654004d911e65c004d8f1e664004d8d1e66c004d8b1e674004d891e67c004d871e684004d851e68c004d831e694004d811e69c004d7f)
  (.lf 0))) (.nd (.nd (.lf
  0x6ca08dcb8786ca10dcb8306c9f8dcb6b46c9f4dcb6786c9fcdcb6306c9e4dcb4b46c9e0dcb4786c9e8dcb4306c9d0dcb2b46c9ccdcb2786c9d4dcb2306c9b4dcb0b46c9bcdcb0786c9c0dcb0306c9a8dcaeb46c9a0dcae786c9acdcae306c990dcacb46c994dcac786c998dcac306c980dcaab46c978dcaa786c984dcaa306c960dca8b46c96cdca8786c970dca8306c950dca6b46c954dca6786c958dca6306c944dca4b46c940dca4786c948dca4306c928dca2b46c930dca2786c934dca2306c918dca0b46c91cdca0786c920dca0306c908dc9eb46c900dc9e786c90cdc9e306c8f4dc9cb46c6c0dc9c786c8f8dc9c306c6acdc9ab46c6a8dc9a786c6b0dc9a306c69cdc98b46c698dc98786c6a0dc98306c684dc96b46c680dc96786c688dc96306c674dc94b46c670dc94786c678dc94306c65cdc92b46c660dc92786c664dc92306c648dc90b46c64cdc90786c650dc90306c634dc8eb46c638dc8e78)
  (.lf 0)) (.nd (.lf
  0x52180a6f7d052168a6f5d052154a6f3d052144a6f1d0520eca6efd0520dca6edd0520c0a6ebd05209ca6e9d052074a6e7d052040a6e5d051fe4a6e3d051fcca6e1d051f94a6dfd051f80a6ddd051f64a6dbd051f30a6d9d051e84a6d7d051e6ca6d5d051e54a6d3d051e3ca6d1d051e28a6cfd051df8a6cdd051da4a6cbd051d54a6c9d051a64a6c7d05199ca6c5d051988a6c3d051910a6c11050f3ca7fecc51008a7fccc50f60a7facc51018a7f8cc50f6ca7f6cc50ea4a7f4cc50e40a7f2cc50da4a7f0cc50daca7eecc50db4a7eccc50cf0a7eacc50cb0a7e8cc50c84a7e6cc50f54a7e4cc50fa4a7e2cc50f00a7e0cc50eaca7decc50e48a7dccc50dbca7dacc50dc4a7d8cc50ed4a7d6cc50cf8a7d4cc50f5ca7d2cc50faca7d0cc50f08a7cecc50eb4a7cccc50e58a7cacc50f64a7c8cc50dd4a7c6cc50ecca7c4cc50d04a7c2cc5117ca7fdd051168a7fbd051154a7f9d051140a7f7d05112ca7f5d0)
  (.lf 0)))

def shaWireTree146 : BTree :=
  .nd (.nd (.nd (.lf
  0x6e2e8e988786e2d8e988b46e2f0e988306e2c0e986786e298e986b46e2d0e986306e260e984786e240e984b46e264e984306e220e982786e224e982b46e228e98230774d0ed7c787760ced7cb477644ed7c307741ced7a7877490ed7ab477494ed7a3077290ed787877334ed78b477338ed7830770c4ed767877260ed76b477264ed76307704ced7478770b8ed74b4770bced743076f20ed727877040ed72b477044ed723076e24ed707876e9ced70b476ea8ed703076d94ed6e7876e18ed6eb476e1ced6e3076cbced6c7876d70ed6cb476d8ced6c3076c8ced6a7876cb0ed6ab476cb4ed6a3076bc4ed687876c24ed68b476c3ced683076b4ced667876bb8ed66b476bbced663076acced647876b40ed64b476b44ed643076a64ed627876ab4ed62b476ab8ed623076a08ed607876a58ed60b476a5ced603076970ed5e78769fced5eb476a00ed5e30768eced5c7876924ed5cb476928ed5c3076890ed5a78)
  (.lf 0)) (.nd (.lf
  0x6cd40eee3006c5c0eecb406c580eec7806c600eec3006bf00eeab406bec0eea7806bf40eea3006b800ee8b406b7c0ee87806b840ee83006b0c0ee6b406b080ee67806b100ee63006aa00ee4b406a9c0ee47806aa40ee43006a300ee2b406a2c0ee27806a340ee230069c40ee0b4069c00ee078069c80ee030069540edeb4069500ede78069580ede30068e00edcb4068dc0edc78068e40edc300686c0edab4068680eda78068700eda30068000ed8b4067fc0ed878068040ed830067900ed6b40678c0ed678067940ed6300671c0ed4b4067180ed478067200ed430066b00ed2b4066ac0ed278066b40ed230066400ed0b40663c0ed078066440ed030065cc0eceb4065c80ece78065d00ece30065580eccb4065540ecc780655c0ecc30064ec0ecab4064e80eca78064f00eca300647c0ec8b4064780ec878064800ec830064100ec6b40640c0ec678064140ec630063a80ec4b4063a40ec478063ac0ec430)
  (.lf 0))) (.nd (.nd (.lf
  0x155a4368478155a03684b4155a8368430155603682781555c3682b41556436823010440367cb4103d4367c7810444367c30103c8367ab410358367a78103cc367a301034c3678b4102c836787810350367830102bc3676b410248367678102c03676301023c3674b4101cc36747810240367430101c03672b41013c367278101c4367230101303670b4100c036707810134367030100b4366eb410030366e78100b8366e3010024366cb40ffb0366c7810028366c300ffa4366ab40ff30366a780ffa8366a300ff243668b40feb03668780ff283668300fea43666b40fe303666780fea83666300fe243664b40fdb43664780fe283664300fda83662b40fd283662780fdac3662300fd1c3660b40fc983660780fd203660300fc8c365eb40fc1c365e780fc90365e300fc10365cb40fb8c365c780fc14365c300fb80365ab40fb10365a780fb84365a300fb043658b40fa843658780fb083658300fa783656b4)
  (.lf 0)) (.nd (.lf
  0x2936c654acc293746548cc293706546cc293646544cc293586542cc29d04657dd029ca8657bd029c506579d029bf86577d029ba06575d029b486573d029af06571d029a98656fd029a40656dd0299fc656bd0299c46569d0299986567d0299706565d0299486563d0299206561d0298f8655fd0298d0655dd0294dc655bd0294c86559d0294b46557d0294a06555d02948c6553d0294786551d029464654fd029450654dd02943c654bd0294286549d0294146547d0294006545d0293ec6543d0293606541102956465becc2956065bccc2955c65bacc2955865b8cc2955465b6cc2955065b4cc2954c65b2cc2954865b0cc2954465aecc2954065accc2953c65aacc2953865a8cc2953465a6cc2953065a4cc2952c65a2cc2952865a0cc29524659ecc29520659ccc2951c659acc295186598cc295146596cc295106594cc2950c6592cc295086590cc29504658ecc29500658ccc294fc658acc294f86588cc)
  (.lf 0)))

def shaWireTree147 : BTree :=
  .nd (.nd (.nd (.lf
  0x63178c64cb46318cc64c7863190c64c306310cc64ab46316cc64a7863170c64a3062fa4c648b463100c6487863104c6483062cf4c646b462f54c6467862f9cc6463062c68c644b462ce8c6447862cecc6443062c5cc642b462c24c6427862c60c64230641c8c6fcb4641ccc6fc78641d0c6fc30641b8c6fab4641b0c6fa78641bcc6fa3063f54c6f8b463f50c6f87863f58c6f83063f34c6f6b463f3cc6f67863f40c6f63063f28c6f4b463f24c6f47863f2cc6f43063f04c6f2b463f10c6f27863f14c6f23063ef4c6f0b463ef0c6f07863ef8c6f03063edcc6eeb463ed8c6ee7863ee0c6ee3063eccc6ecb463ec4c6ec7863ed0c6ec3063eb8c6eab463eb4c6ea7863ebcc6ea3063ea4c6e8b463dc0c6e87863ea8c6e83063da8c6e6b463da4c6e67863db0c6e63063cdcc6e4b463cc0c6e47863d9cc6e43063cb4c6e2b4634acc6e27863cb8c6e2306349cc6e0b4634a0c6e078634a4c6e03063484c6deb4)
  (.lf 0)) (.nd (.lf
  0x14368331d4a14310331ab4142c433194a1426833174a1421433154a141bc3312b41417033114a14118330eb4140cc330d4a14070330b4a1401c33094a13fc43306b413f843304aa13f3c32c32c13f2432c0cc15ca4373f4a15c6c373cb415c34373ab415bfc3738b415bc43736b415b8c3734b415b543732b415b1c3730b415ae0372f4a15a9c372d4a15a5c372ab415a2037294a159dc37274a1599837254a1595437234a159103720b4158d0371f4a1588c371cb41584c371b4a1580437194a157c03716b4157883714b4157503712b41571437114a156d0370f4a1568c370d4a15648370b4a1560437094a155c037074a1557c37054a155483702aa1553436c0cc172bc3b3f4a172803b3cb4172443b3ab4172043b394a171bc3b374a171783b34b41713c3b334a170f83b314a170b43b2f4a170703b2d4a170303b2ab416ff43b294a16fb03b274a16f6c3b254a16f2c3b22b416ef43b20b416ebc3b1eb4)
  (.lf 0))) (.nd (.nd (.lf
  0x2e85c603a302e77c6038b42e7e86038782e7ec6038302e7006036b42e7706036782e7746036302e68c6034b42e6f46034782e6f86034302e61c6032b42e6806032782e6846032302e5ac6030b42e6106030782e6146030302e540602eb42e5a0602e782e5a4602e302e4d4602cb42e534602c782e538602c302e45c602ab42e4c8602a782e4cc602a302e3e06028b42e4506028782e4546028302e3686026b42e3d46026782e3d86026302e2f06024b42e35c6024782e3606024302e2786022b42e2e46022782e2e86022302e2086020b42e26c6020782e2706020302e19c601eb42e1fc601e782e200601e302e128601cb42e190601c782e194601c302e0b8601ab42e11c601a782e120601a302e0446018b42e0ac6018782e0b06018302dfd06016b42e0386016782e03c6016302df606014b42dfc46014782dfc86014302def46012b42df546012782df586012302de806010b42dee86010782deec601030)
  (.lf 0)) (.nd (.lf
  0x9ca8266bd009c1c2669d009b8c2667d009b0c2665d009a8c2663d009a102661d009980265fd009900265dd009880265bd0098042659d0097742657d0096f42655d0096742653d0095f82651d00956c264fd0094e0264dd009454264bd0093c82649d0093382647d0092b82645d0092382643d0091e02641101047c26fecc1040c26fccc1038c26facc1030426f8cc1028026f6cc1020026f4cc1017826f2cc100f426f0cc1006c26eecc0ffe826eccc0ff6826eacc0fee826e8cc0fe6826e6cc0fde826e4cc0fd6026e2cc0fcd426e0cc0fc5026decc0fbc826dccc0fb4426dacc0fabc26d8cc0fa3026d6cc0f9ac26d4cc0f92426d2cc0f89826d0cc0f81426cecc0f79426cccc0f71426cacc0f69426c8cc0f61426c6cc0f59426c4cc0f51426c2cc1046426fdd0103f026fbd01037026f9d0102e826f7d01026426f5d0101e426f3d01015c26f1d0100d826efd01005026edd00ffcc26ebd00ff4c26e9d0)
  (.lf 0)))

def shaWireTree148 : BTree :=
  .nd (.nd (.nd (.lf
  0x57b4c000acb57b50000ac957b54000ac757b58000ac557b5c000ac357b60000ac157b64000abf57b68000abd57b6c000abb57b70000ab957b74000ab757b78000ab559e38000ab359e3c000ab159e40000aaf59e44000aad59e48000aab59e4c000aa959e50000aa759e54000aa559e58000aa359e5c000aa159e60000a9f59e64000a9d59e68000a9b59e6c000a9959e70000a9759e74000a9559e78000a9359e7c000a9159e80000a8f59e84000a8d59e88000a8b59e8c000a8959e90000a8759e94000a8559e98000a8359e9c000a8159ea0000a7f59ea4000a7d59ea8000a7b5c144000a795c148000a775c14c000a755c150000a735c154000a715c158000a6f5c15c000a6d5c160000a6b5c164000a695c168000a675c16c000a655c170000a635c174000a615c178000a5f5c17c000a5d5c180000a5b5c184000a595c188000a575c18c000a555c190000a535c194000a515c198000a4f5c19c000a4d)
  (.lf 0)) (.nd (.lf
  0x523a8aba0b452380ab9eb452334ab9cb45234cab9ab452308ab98b4522c0ab96b4522a0ab94b4522ecab92b451ec4ab90b451e14ab8eb451dd8ab8cb451d78ab8ab451d40ab88b451cc8ab86b45226cab84b451954ab82b4518e8ab80b450f40abbe7850f90abbc7850eecabba7850e94abb87850e30abb67850d6cabb47850d80abb27850d38abb07850ce0abae7850ca0abac7850c70abaa7850c44aba87850c0caba67850be8aba47850becaba27850b9caba07850b5cab9e7850b74ab9c7850b1cab9a7850b20ab987850ad0ab967850ab0ab9478501a0ab92784ff54ab90784fca8ab8e7850a8cab8c784f834ab8a784f810ab88784f7f4ab86784f7b8ab84784f658ab82784f5ccab807852768abbe3052744abbc30526fcabba30526a4abb8305258cabb630525bcabb430525ecabb2305251cabb030524e8abae30524a8abac305246cabaa305242caba83052448aba630523e8aba430523c8aba230)
  (.lf 0))) (.nd (.nd (.lf
  0x2a2a85a92302a2905a90782a28c5a90b42a2945a90302a27c5a8e782a2785a8eb42a2805a8e302a2685a8c782a2645a8cb42a26c5a8c302a2545a8a782a2505a8ab42a2585a8a302a2405a88782a23c5a88b42a2445a88302a22c5a86782a2285a86b42a2305a86302a2185a84782a2145a84b42a21c5a84302a2045a82782a2005a82b42a2085a82302b2e85a7cb42b3505a7c782b3545a7c302b2785a7ab42b2dc5a7a782b2e05a7a302b2045a78b42b26c5a78782b2705a78302b18c5a76b42b1f85a76782b1fc5a76302b1145a74b42b1805a74782b1845a74302b0a45a72b42b1085a72782b10c5a72302b0385a70b42b0985a70782b09c5a70302afc45a6eb42b02c5a6e782b0305a6e302af505a6cb42afb85a6c782afbc5a6c302aed85a6ab42af445a6a782af485a6a302ae5c5a68b42aecc5a68782aed05a68302ade85a66b42ae505a66782ae545a66302ad785a64b42addc5a64782ade05a6430)
  (.lf 0)) (.nd (.lf
  0x6dc2ce942cc6f3c4e97dd06f3b4e97bd06f384e979d06f354e977d06f318e975d06f2e4e973d06f2a8e971d06f298e96fd06f248e96dd06f214e96bd06f1dce969d06f1cce967d06f1a4e965d06f17ce963d06f16ce961d06f144e95fd06f0ece95dd06f0dce95bd06f0b4e959d06f08ce957d06f064e955d06f040e953d06f01ce951d06eff8e94fd06efd4e94dd06efb0e94bd06e7f0e949d06e7cce947d06e7a8e945d06e1e8e943d06e1d8e941106eec8e9becc6eeb8e9bccc6eecce9bacc6ee84e9b8cc6ee6ce9b6cc6ee54e9b4cc6ee3ce9b2cc6ee1ce9b0cc6edfce9aecc6edcce9accc6edbce9aacc6edd4e9a8cc6ed90e9a6cc6ed98e9a4cc6ed68e9a2cc6ed54e9a0cc6edd8e99ecc6ed24e99ccc6ed10e99acc6ecf8e998cc6ecdce996cc6ed28e994cc6ecc0e992cc6ec9ce990cc6eed4e98ecc6ec78e98ccc6eedce98acc6e300e988cc6e2b8e986cc6e268e984cc6dc28e982cc6f8a8e9bdd0)
  (.lf 0)))

def shaWireTree149 : BTree :=
  .nd (.nd (.nd (.lf
  0x72fc4ea60b472fc8ea607872fccea603072fb8ea5eb472fb0ea5e7872fbcea5e3072fa0ea5cb472fa4ea5c7872fa8ea5c3072f90ea5ab472f88ea5a7872f94ea5a3072f7cea58b472f78ea587872f80ea583072f68ea56b472f6cea567872f70ea563072f58ea54b472f54ea547872f5cea543072f40ea52b472f44ea527872f48ea523072964ea50b472a5cea507872f34ea503072730ea4eb472954ea4e7872958ea4e3072720ea4cb472724ea4c7872728ea4c3072714ea4ab472710ea4a7872718ea4a3072608ea48b472700ea487872704ea4830725fcea46b4725f8ea467872600ea46307258cea44b4725e8ea4478725ecea443072548ea42b472580ea427872584ea42307aaf0eafcb47aae8eafc787aaf4eafc307aad4eafab47aadceafa787aae0eafa307aac0eaf8b47aac8eaf8787aacceaf8307aab0eaf6b47aaaceaf6787aab4eaf6307aa90eaf4b47aa9ceaf4787aaa0eaf4307aa80eaf2b4)
  (.lf 0)) (.nd (.lf
  0x13780339dd013784339bd0137883399d01378c3397d0137903395d0137943393d0137983391d01379c338fd0137a0338dd0137a4338bd0137a83389d0137ac3387d0137b03385d0137b43383d0137b83381d0151c837bfd01517037bdd01511837bbd0150c037b9d01506837b7d01501037b5d014fb837b3d014f6037b1d014f0837afd014ec437add014e8c37abd014e6037a9d014e3837a7d014e0c37a5d014de437a3d014dbc37a1d014d94379fd014d6c379dd014d44379bd014b9c3799d014b743797d014b503795d014b2c3793d014b083791d014ae4378fd014ac0378dd014a9c378bd014a783789d014a543787d014a303785d014a0c3783d01497c3781d0164483bbfd0164283bbdd0164043bbbd0163e03bb9d0163bc3bb7d0163983bb5d0163743bb3d0163503bb1d0163283bafd0163043badd0162e03babd0162bc3ba9d0162983ba7d0162743ba5d0161c83ba3d0161cc3ba1d0161d03b9fd0)
  (.lf 0))) (.nd (.nd (.lf
  0x4ceac9c1ab44ce8c9c1a784ceb09c1a304ce809c18b44ce609c18784ce849c18304ce549c16b44ce349c16784ce589c16304ce289c14b44ce089c14784ce2c9c14304cdfc9c12b44cddc9c12784ce009c12304cdd09c10b44cdb09c10784cdd49c10304cda49c0eb44cd849c0e784cda89c0e304cd789c0cb44cd589c0c784cd7c9c0c304cd4c9c0ab44cd2c9c0a784cd509c0a304cd209c08b44cd009c08784cd249c08304ccf49c06b44ccd49c06784ccf89c06304ccc89c04b44cca89c04784cccc9c04304cc9c9c02b44cc8c9c02784cca09c02304c9aca0bcb44c9a8a0bc784c9b0a0bc304c998a0bab44c994a0ba784c99ca0ba304c984a0b8b44c980a0b8784c988a0b8304c970a0b6b44c96ca0b6784c974a0b6304c95ca0b4b44c958a0b4784c960a0b4304c948a0b2b44c944a0b2784c94ca0b2304c934a0b0b44c930a0b0784c938a0b0304c920a0aeb44c91ca0ae784c924a0ae304c90ca0acb4)
  (.lf 0)) (.nd (.lf
  0x3096c66fccc308f866facc3088866f8cc3081466f6cc307a466f4cc3073466f2cc306b466f0cc3063466eecc305b466eccc3052c66eacc304a066e8cc3041c66e6cc3039c66e4cc3031c66e2cc3029466e0cc3020866decc3017c66dccc300f866dacc3007866d8cc2fff866d6cc2ff7066d4cc2fee466d2cc2fe6066d0cc2fde066cecc2fd5866cccc2fccc66cacc2fc4866c8cc2fbc066c6cc2fb3c66c4cc2fab866c2cc3098866fdd03091c66fbd0308a866f9d03083866f7d0307c466f5d03075066f3d0306d066f1d03065066efd0305d066edd03055066ebd0304c866e9d03043c66e7d0303b866e5d03033866e3d0302b866e1d03023066dfd0301a466ddd03011866dbd03009466d9d03001466d7d02ff9466d5d02ff0c66d3d02fe8066d1d02fdfc66cfd02fd7c66cdd02fcf466cbd02fc6866c9d02fbe466c7d02fb6466c5d02fad866c3d02fa8466c1103097c673d4030898673940307b4673540)
  (.lf 0)))

def shaWireTree150 : BTree :=
  .nd (.nd (.nd (.lf
  0x4087091683040854916678408589166b44085c91663040840916478408449164b440848916430408309162784082c9162b440834916230408189160784081c9160b44082091603040804915e7840808915eb44080c915e30407ec915c78407f0915cb4407f4915c30407e0915a7840030915ab4407e4915a303fee49158783fee89158b43feec9158303fe009156783fe749156b43fe789156303f6f09154783f7509154b43f7549154303f6889152783f6e49152b43f6e89152303f6389150783f67c9150b43f6809150303f5c0914e783f62c914eb43f630914e303f558914c783f5b4914cb43f5b8914c303f4f8914a783f544914ab43f548914a303f3c89148783f4ec9148b43f4f09148303f3389146783f3bc9146b43f3c09146303f2809144783f32c9144b43f3309144303f2409142783f2609142b43f2789142304001c91bc784002091bcb44002491bc304000891ba784000c91bab44001091ba30)
  (.lf 0)) (.nd (.lf
  0x72ddcf09d2c72e08f09b2c72db8f0992c72da8f0972c72d98f0952c72d80f0932c72d68f0912c72d60f08f2c72d3cf08d2c72d28f08b2c72ba8f0892c72b80f0872c72b4cf0852c72b18f0832c72adcf080cc73b80f4bf2c73b74f4bd2c73b64f4bb2c73b48f4b92c73b30f4b72c73b1cf4b52c73b0cf4b32c73af8f4b12c73adcf4af2c73accf4ad2c73ab4f4ab2c73aacf4a92c73a8cf4a72c73a7cf4a52c73a60f4a32c73a68f4a12c73a38f49f2c73a40f49d2c73ae4f49b2c73a00f4992c739f4f4972c739dcf4952c73a08f4932c739b8f4912c739a0f48f2c739a4f48d2c7397cf48b2c73964f4892c73950f4872c7393cf4852c737a8f4832c737acf480cc745e4f8bf2c745e8f8bd2c745c0f8bb2c745b0f8b92c74598f8b72c7458cf8b52c74570f8b32c7455cf8b12c74548f8af2c74534f8ad2c74520f8ab2c74510f8a92c744f8f8a72c744f0f8a52c744d0f8a32c744bcf8a12c744a4f89f2c)
  (.lf 0))) (.nd (.nd (.lf
  0x7fc4129a3007f3c12987807f381298b407f4012983007ebc12967807eb81296b407ec012963007e3c12947807e381294b407e4012943007dbc12927807db81292b407dc012923007d3412907807d301290b407d3812903007cb0128e7807cac128eb407cb4128e3007c30128c7807c2c128cb407c34128c3007ba8128a7807ba4128ab407bac128a3007b2412887807b201288b407b2812883007a9c12867807a981286b407aa012863007a1012847807a0c1284b407a141284300798c128278079881282b40799012823001bb0127cb401b90127c7801bb4127c3001b84127ab401b64127a7801b88127a3001b581278b401b3812787801b5c12783001b2c1276b401b0c12767801b3012763001b001274b401ae012747801b0412743001ad41272b401ab412727801ad812723001aa81270b401a8812707801aac12703001a7c126eb401a5c126e7801a80126e3001a50126cb401a30126c7801a54126c30)
  (.lf 0)) (.nd (.lf
  0x797dce7decc7971ce7dccc796c4e7dacc795e8e7d8cc795d0e7d6cc79530e7d4cc79820e7d2cc798c4e7d0cc7977ce7cecc79738e7cccc796ace7cacc796d0e7c8cc795f4e7c6cc79574e7c4cc794ece7c2cc79b5ce7fdd079b44e7fbd079b2ce7f9d079b18e7f7d079b00e7f5d079af0e7f3d079adce7f1d079ac4e7efd079ab4e7edd079a34e7ebd079a1ce7e9d079a0ce7e7d0799f8e7e5d0799dce7e3d0799c4e7e1d0799ace7dfd079994e7ddd07997ce7dbd079968e7d9d079950e7d7d079938e7d5d0798f8e7d3d0798e4e7d1d07979ce7cfd07974ce7cdd0796f8e7cbd0796e0e7c9d079614e7c7d07958ce7c5d079508e7c3d079488e7c1107a490eabecc7a3eceabccc7a3c4eabacc7a4f8eab8cc7a360eab6cc7a2e4eab4cc7a4a0eab2cc7a410eab0cc7a3c8eaaecc7a668eaaccc7a36ceaaacc7a4b4eaa8cc7a408eaa6cc7a3bceaa4cc7a4eceaa2cc7a378eaa0cc7a2b8ea9ecc7a23cea9ccc)
  (.lf 0)))

def shaWireTree151 : BTree :=
  .nd (.nd (.nd (.lf
  0x4fee4a278304febca276b44fec0a276784fec4a276304fea4a274b44fe9ca274784fea8a274304fe84a272b44fe90a272784fe94a272304fe74a270b44fe78a270784fe7ca270304fe54a26eb44fe48a26e784fe58a26e304fe3ca26cb44fe28a26c784fe40a26c304fe18a26ab44fe1ca26a784fe20a26a304fe04a268b44fe0ca268784fe10a268304fdf8a266b44fdf4a266784fdfca266304fddca264b44fde8a264784fdeca264304fdc8a262b44fdd0a262784fdd4a262304fdaca260b44fdb0a260784fdb4a260304fda0a25eb44fd8ca25e784fda4a25e304fd80a25cb44fd7ca25c784fd84a25c304fd6ca25ab44fd70a25a784fd74a25a304fd5ca258b44fd60a258784fd64a258304fd40a256b44fd3ca256784fd48a256304fd30a254b44fd28a254784fd34a254304fd18a252b44fd08a252784fd20a252304fcf0a250b44fcf4a250784fcf8a250304fce4a24eb44fc78a24e784fce8a24e30)
  (.lf 0)) (.nd (.lf
  0xaf202a532c0aea82a512c0ae142a4f2c0ad9c2a4d2c0ad082a4b2c0ac902a492c0ac102a472c0ab882a452c0ab102a432c0aac42a40cc0d3582e7f2c0d3082e7d2c0d2802e7b2c0d2082e792c0d1742e772c0d0fc2e752c0d0682e732c0cfdc2e712c0cf642e6f2c0cee42e6d2c0ce642e6b2c0cdd02e692c0cd442e672c0ccb82e652c0cc402e632c0cbc02e612c0cb402e5f2c0caac2e5d2c0ca342e5b2c0c9a02e592c0c9142e572c0c8882e552c0c7fc2e532c0c7842e512c0c6f02e4f2c0c6642e4d2c0c5ec2e4b2c0c5582e492c0c4e02e472c0c44c2e452c0c3d42e432c0c3742e40cc0ebf4327f2c0eb94327d2c0eb24327b2c0ea9032792c0ea0432772c0e98c32752c0e90c32732c0e88c32712c0e80c326f2c0e78c326d2c0e70c326b2c0e68c32692c0e60c32672c0e57832652c0e4ec32632c0e46032612c0e3d4325f2c0e35c325d2c0e2c8325b2c0e25032592c0e1bc32572c0e14432552c)
  (.lf 0))) (.nd (.nd (.lf
  0xa9580027810a95c00277f0a96000277d0a96400277b0a9680027790a96c0027770a9700027750a9740027730a9780027710a97c00276f0a98000276d0a98400276b0a9880027690a98c0027670a9900027650a9940027630a9980027610c1c800275f0c1cc00275d0c1d000275b0c1d40027590c1d80027570c1dc0027550c1e00027530c1e40027510c1e800274f0c1ec00274d0c1f000274b0c1f40027490c1f80027470c1fc0027450c2000027430c2040027410c20800273f0c20c00273d0c21000273b0c2140027390c2180027370c21c0027350c2200027330c2240027310c22800272f0c22c00272d0c23000272b0c2340027290c2380027270c23c0027250c2400027230c2440027210dabc00271f0dac000271d0dac400271b0dac80027190dacc0027170dad00027150dad40027130dad80027110dadc00270f0dae000270d0dae400270b0dae80027090daec0027070daf00027050daf4002703)
  (.lf 0)) (.nd (.lf
  0x6db34d860cc6db3cd85ecc6db44d85ccc6db4cd85acc6db54d858cc6db5cd856cc6db64d854cc6db6cd852cc6db74d850cc6db7cd84ecc6db84d84ccc6db8cd84acc6db94d848cc6db9cd846cc6dba4d844cc6dbacd842cc6e5fcd87dd06dfecd87bd06dfdcd879d06dfc4d877d06dfb4d875d06df9cd873d06df84d871d06df6cd86fd06df54d86dd06df3cd86bd06df24d869d06df0cd867d06def0d865d06ded8d863d06dec4d861d06deb0d85fd06de98d85dd06de84d85bd06de6cd859d06de54d857d06de3cd855d06de14d853d06dddcd851d06dda8d84fd06dd74d84dd06dd40d84bd06dd0cd849d06dcd8d847d06dca4d845d06dc4cd843d06dbb4d841106e604d83ecc6dff8d83ccc6e008d83acc6dfccd838cc6e010d836cc6dfa8d834cc6df8cd832cc6df78d830cc6df64d82ecc6df4cd82ccc6df30d82acc6df18d828cc6e32cd826cc6df00d824cc6dee0d822cc6defcd820cc6dea4d81ecc)
  (.lf 0)))

def shaWireTree152 : BTree :=
  .nd (.nd (.nd (.lf
  0x36b9481bf2c36b6081bd2c36b5081bb2c36b0081b92c36aec81b72c36ad481b52c36ac081b32c36aac81b12c36a9081af2c36a3c81ad2c36a4081ab2c36a1481a92c36a0081a72c369ec81a52c369d881a32c369ac81a12c3699c819f2c36954819d2c36934819b2c3692081992c3690c81972c368f081952c3689081932c3688081912c36870818f2c36854818d2c36844818b2c3682c81892c3680c81872c367d881852c3596881832c358f08180cc3904885bf2c3900c85bd2c38fa085bb2c38f0c85b92c38e4085b72c38df085b52c38d1885b32c38cdc85b12c38bfc85af2c38bbc85ad2c38b0485ab2c38ac485a92c38a6485a72c389ec85a52c3896c85a32c388fc85a12c388ec859f2c3878c859d2c38508859b2c3848485992c383e485972c3836c85952c382d085932c3826085912c381b8858f2c38144858d2c3809c858b2c3802885892c37f8485872c37ef485852c37e5485832c37dbc8580cc)
  (.lf
  0x1c03c546ccc1c044546acc1c04c5468cc1c0545466cc1c05c5464cc1c0645462cc1c06c5460cc1c074545ecc1c07c545ccc1c084545acc1c08c5458cc1c0945456cc1c09c5454cc1c0a45452cc1c0ac5450cc1c0b4544ecc1c0bc544ccc1c0c4544acc1c0cc5448cc1c0d45446cc1c0dc5444cc1c0e45442cc1c620547dd01c5f8547bd01c5cc5479d01c5a05477d01c5745475d01c5485473d01c51c5471d01c4f0546fd01c4c4546dd01c498546bd01c46c5469d01c4405467d01c4145465d01c3e85463d01c3bc5461d01c390545fd01c364545dd01c338545bd01c30c5459d01c2e05457d01c2b45455d01c2885453d01c25c5451d01c230544fd01c204544dd01c1d8544bd01c1ac5449d01c1805447d01c1545445d01c1285443d01c0ec5441101c628543ecc1c600543ccc1c5d4543acc1c5a85438cc1c57c5436cc1c5505434cc1c5245432cc1c4f85430cc1c4cc542ecc1c4a0542ccc1c474542acc))
  (.nd (.lf
  0x81074ffa07880fb0ff9e7880ea8ff9c7880e80ff9a7880e54ff987880e3cff967880e04ff947880de4ff927880da4ff907880dbcff8e7880d68ff8c7880ed4ff8a787f43cff88787f424ff86787f300ff84787f2acff82787f048ff807883128ffbe30830f0ffbc3083118ffba3083010ffb83083050ffb63082fdcffb4308314cffb230829e4ffb030823b0ffae3082374ffac3082348ffaa308226cffa83082470ffa630821f4ffa43081eb8ffa23081eccffa03081d34ff9e3081df0ff9c3081d7cff9a308193cff983081820ff9630817fcff943081838ff92308178cff903081768ff8e30816d0ff8c308165cff8a3081618ff88308154cff863081420ff8430814e8ff823081448ff80300289800389f0289c00389d028a000389b028a4003899028a8003897028ac003895028b0003893028b4003891028b800388f028bc00388d028c000388b028c4003889028c8003887028cc003885028d0003883)
  (.lf 0))) (.nd (.nd (.lf
  0x321e06b2014320d86b1d40321546b1ea0320586b1bf4320d46b1ca031fd06b1a1e320506b1ab4320546b1a1431f4c6b174031fc86b18a031ecc6b15f431f486b16a031e446b141e31ec46b14b431ec86b141431db86b121e31e386b12b431e3c6b121431d2c6b101e31dac6b10b431db06b101431ca06b0e1e31d206b0eb431d246b0e1431c146b0c1e31c946b0cb431c986b0c1431b906b094031c0c6b0aa031b8c6b08a0314906bfc783148c6bfcb4314946bfc303147c6bfa78314786bfab4314806bfa30314686bf878314646bf8b43146c6bf830314546bf678314506bf6b4314586bf630314406bf4783143c6bf4b4314446bf4303142c6bf278314286bf2b4314306bf230314186bf078314146bf0b43141c6bf030314046bee78314006beeb4314086bee30313f06bec78313ec6becb4313f46bec30313dc6bea78313d86beab4313e06bea30313c86be878313c46be8b4313cc6be830313b46be678)
  (.lf 0)) (.nd (.lf
  0x10d30006e7310d38006e7110d40006e6f10d48006e6d10d50006e6b10d58006e6910d60006e6710d68006e6510d70006e6310d78006e611253c006e5f12544006e5d1254c006e5b12554006e591255c006e5712564006e551256c006e5312574006e511257c006e4f12584006e4d1258c006e4b12594006e491259c006e47125a4006e45125ac006e43125b4006e41125bc006e3f125c4006e3d125cc006e3b125d4006e39125dc006e37125e4006e35125ec006e33125f4006e31125fc006e2f12604006e2d1260c006e2b12614006e291261c006e2712624006e251262c006e2312634006e2113e1c006e1f13e24006e1d13e2c006e1b13e34006e1913e3c006e1713e44006e1513e4c006e1313e54006e1113e5c006e0f13e64006e0d13e6c006e0b13e74006e0913e7c006e0713e84006e0513e8c006e0313e94006e0113e9c006dff13ea4006dfd13eac006dfb13eb4006df913ebc006df713ec4006df5)
  (.lf 0)))

def shaWireTree153 : BTree :=
  .nd (.nd (.nd (.lf
  0x81a18fbf87881a14fbf8b481a1cfbf83081a04fbf67881a00fbf6b481a08fbf630819f0fbf478819ecfbf4b4819f4fbf430819d8fbf278819dcfbf2b4819e0fbf230819c4fbf078819c8fbf0b4819ccfbf030819b8fbee78819b4fbeeb4819bcfbee308199cfbec78819a0fbecb4819a4fbec3081988fbea7881990fbeab481994fbea3081974fbe8788197cfbe8b481980fbe83081968fbe6788195cfbe6b48196cfbe63081950fbe47881948fbe4b481954fbe43081924fbe27881930fbe2b481934fbe23081914fbe07881918fbe0b48191cfbe03081904fbde7881908fbdeb48190cfbde30818f4fbdc78818f0fbdcb4818f8fbdc30818d0fbda78818d4fbdab4818d8fbda30818b4fbd878818c4fbd8b4818c8fbd83081754fbd6788188cfbd6b481890fbd63081740fbd4788173cfbd4b481744fbd43081730fbd2788172cfbd2b481734fbd23081720fbd07881714fbd0b481724fbd03081704fbce78)
  (.lf 0)) (.nd (.lf
  0x13ac433dd2c13ab033db2c13a9c33d92c13a8833d72c13a7433d52c13a6033d32c13a4c33d12c13a3833cf2c13a2433cd2c13a1033cb2c139fc33c92c139e833c72c139d433c52c139c033c32c139bc33c0cc153a837ff2c1539437fd2c1538037fb2c1536c37f92c1535837f72c1534437f52c1533037f32c1531c37f12c1530837ef2c152f437ed2c152e037eb2c152cc37e92c152b837e72c152a437e52c1529037e32c1527c37e12c1526837df2c1525437dd2c1524037db2c1522c37d92c1521837d72c1520437d52c151f437d32c1519c37d12c1514037cf2c150e837cd2c1509037cb2c1503837c92c14fe037c72c14f8837c52c14f3037c32c14ee437c0cc1682c3bff2c168183bfd2c168043bfb2c167f03bf92c167dc3bf72c167c83bf52c167b43bf32c167a03bf12c1678c3bef2c167783bed2c167643beb2c167503be92c1673c3be72c167283be52c167143be32c167003be12c166ec3bdf2c)
  (.lf 0))) (.nd (.nd (.lf
  0x5e950bc6a305e938bc68b45e930bc68785e93cbc68305e920bc66b45e91cbc66785e928bc66305e910bc64b45e90cbc64785e914bc64305e900bc62b45e8f4bc62785e904bc62305e8e8bc60b45e8e4bc60785e8ecbc60305e8d4bc5eb45e8d8bc5e785e8dcbc5e305e8bcbc5cb45e8b8bc5c785e8c8bc5c305e8a4bc5ab45e8acbc5a785e8b0bc5a305e890bc58b45e894bc58785e89cbc58305e87cbc56b45e884bc56785e888bc56305e86cbc54b45e868bc54785e874bc54305e854bc52b45e85cbc52785e860bc52305e838bc50b45e844bc50785e848bc50305e82cbc4eb45e828bc4e785e830bc4e305e7c8bc4cb45e7c4bc4c785e7ccbc4c305e67cbc4ab45e7b8bc4a785e7bcbc4a305e670bc48b45e66cbc48785e674bc48305e658bc46b45e650bc46785e65cbc46305e63cbc44b45e638bc44785e640bc44305e624bc42b45e5e8bc42785e628bc42305ed0cbc3cb45ed10bc3c785ed14bc3c30)
  (.lf 0)) (.nd (.lf
  0x422b086e6cc422b486e4cc4223886e2cc4239486e0cc4219886decc41fc886dccc41f4c86dacc41f2c86d8cc41ee486d6cc41eec86d4cc41c7486d2cc41c1886d0cc41d6486cecc41be086cccc41b8c86cacc41b9086c8cc41b1c86c6cc41a9886c4cc419b886c2cc425b486fdd04259886fbd04258086f9d04256886f7d04255486f5d04254486f3d0424e886f1d0424d886efd0424c486edd0424b086ebd04249886e9d04248486e7d0423d086e5d0423bc86e3d0423a886e1d0421e086dfd041fd886ddd041fa486dbd041f5086d9d041f1086d7d041efc86d5d041da086d3d041d8c86d1d041d7486cfd041c9486cdd041c8086cbd041b6c86c9d041b5486c7d041ac486c5d0419e486c3d04199086c11040cf487fecc40cf087fccc40cec87facc40ce887f8cc40ce487f6cc40ce087f4cc40b5887f2cc40b5487f0cc40b5087eecc40a1c87eccc40a1887eacc40a1487e8cc40a1087e6cc40cdc87e4cc)
  (.lf 0)))

def shaWireTree154 : BTree :=
  .nd (.nd (.nd (.lf
  0x56e40bdb6b456ed0bdb63056e34bdb47856dc4bdb4b456e38bdb43056da0bdb27856d40bdb2b456da4bdb23056d34bdb07856ca4bdb0b456d38bdb03056c98bdae7856b48bdaeb456c9cbdae3056b3cbdac7856b38bdacb456b40bdac3056b28bdaa7856b24bdaab456b2cbdaa3056b14bda87856b10bda8b456b18bda83056b00bda67856a6cbda6b456b04bda63056a60bda47856a0cbda4b456a64bda43056a00bda278568b0bda2b456a04bda230568a4bda078568a0bda0b4568a8bda03056890bd9e785688cbd9eb456894bd9e305687cbd9c7856878bd9cb456880bd9c3056868bd9a7856864bd9ab45686cbd9a3056854bd987856850bd98b456858bd983056840bd9678567b0bd96b456844bd9630567a0bd94785672cbd94b4567a8bd943056720bd9278565a4bd92b456724bd923056598bd907856570bd90b45659cbd903056564bd8e7856560bd8eb456568bd8e3056550bd8c78564c8bd8cb4)
  (.lf 0)) (.nd (.lf
  0x275cc501d2c2752c501b2c2749050192c273f050172c2734c50152c272b050132c2721850112c27180500f2c270e0500d2c2703c500b2c26fa050092c26f0050072c26e5c50052c26db850032c26d745000cc1c62c543f2c1c604543d2c1c5d8543b2c1c5ac54392c1c58054372c1c55454352c1c52854332c1c4fc54312c1c4d0542f2c1c4a4542d2c1c478542b2c1c44c54292c1c42054272c1c3f454252c1c3c854232c1c39c54212c1c370541f2c1c344541d2c1c318541b2c1c2ec54192c1c2c054172c1c29454152c1c26854132c1c23c54112c1c210540f2c1c1e4540d2c1c1b8540b2c1c18c54092c1c16054072c1c13454052c1c10854032c1c0f85400cc2b384583f2c2b31c583d2c2b2a8583b2c2b23458392c2b1bc58372c2b14458352c2b0d458332c2b06858312c2aff4582f2c2af84582d2c2af0c582b2c2ae9058292c2ae1c58272c2adac58252c2ad3c58232c2accc58212c2ac54581f2c)
  (.lf 0))) (.nd (.nd (.lf
  0xeba4233cb40eba8233c140eaac2339f40eb28233aa00ea2423381e0eaa42338b40eaa82338140e99823361e0ea182336b40ea1c2336140e9142333400e9902334a00e8942331400e9102332a00e814232f400e8902330a00e794232d400e810232ea00e714232b400e790232ca00e6942329400e710232aa00e6142327400e6902328a00e5942325f40e6102326a00e50c23241e0e58c2324b40e5902324140e48023221e0e5002322b40e5042322140e3f423201e0e4742320b40e4782320140e368231e1e0e3e8231eb40e3ec231e140e2e4231bf40e360231ca00e25c231a1e0e2dc231ab40e2e0231a140e1d82317f40e2542318a00e15023161e0e1d02316b40e1d42316140e0cc2313f40e1482314a00e04423121e0e0c42312b40e0c82312140dfc0230ff40e03c2310a00df38230e1e0dfb8230eb40dfbc230e140deb4230b400df30230ca00de342309f40deb0230aa00de2c2308b40de30230814)
  (.lf 0)) (.nd (.lf
  0x7c74218ecc07bc8218ccc07b68218acc07abc2188cc07a302186cc079d02184cc079242182cc0885821bdd0087dc21bbd00875021b9d0086c421b7d00863421b5d0085b421b3d00853821b1d0084a821afd00842c21add00839c21abd00832021a9d00829021a7d00821421a5d00818821a3d0080f821a1d00807c219fd007ff0219dd007f60219bd007ee02199d007e602197d007de02195d007d642193d007cd42191d007c54218fd007bd8218dd007b48218bd007acc2189d007a402187d0079b02185d0079342183d0078e82181100a1ac257ecc0a144257ccc0a0b8257acc0a03c2578cc09fb02576cc09f202574cc09ea02572cc09e242570cc09d98256ecc09d0c256ccc09c80256acc09bf42568cc09b642566cc09ae42564cc09a642562cc099e82560cc09958255ecc098d8255ccc09858255acc097dc2558cc0974c2556cc096cc2554cc0964c2552cc095d02550cc09544254ecc094b8254ccc)
  (.lf 0)))

def shaWireTree155 : BTree :=
  .nd (.nd (.nd (.lf
  0x5855cb3161e58768b316b45876cb3161458518b3134058554b314a0584e0b3114058510b312a058490b30f40584dcb310a058450b30d405848cb30ea05841cb30b405844cb30ca0583ccb309f458418b30aa058368b3081e583c4b308b4583c8b3081458300b3061e5835cb306b458360b30614582a0b30340582f8b304a05829cb302a057338b3fc785733cb3fcb457340b3fc305732cb3fa7857324b3fab457330b3fa3057310b3f87857318b3f8b45731cb3f83057304b3f678572fcb3f6b457308b3f630572ecb3f478572e8b3f4b4572f0b3f430572d8b3f278572dcb3f2b4572e0b3f230572c8b3f078572c4b3f0b4572ccb3f030572b4b3ee78572b0b3eeb4572b8b3ee30572a0b3ec785729cb3ecb4572a4b3ec3057288b3ea785728cb3eab457290b3ea305727cb3e87857274b3e8b457280b3e83057260b3e67857268b3e6b45726cb3e63057254b3e4785724cb3e4b457258b3e4305723cb3e278)
  (.lf 0)) (.nd (.lf
  0x10f4c2ac92c10ec02ac72c10e342ac52c10dbc2ac32c1361c2eff2c135a42efd2c135202efb2c134982ef92c134142ef72c1338c2ef52c133082ef32c132802ef12c131fc2eef2c1317c2eed2c130fc2eeb2c1307c2ee92c12ff42ee72c12f682ee52c12ee42ee32c12e642ee12c12de42edf2c12d5c2edd2c12cd02edb2c12c442ed92c12bb82ed72c12b2c2ed52c12aa82ed32c12a202ed12c129942ecf2c129082ecd2c128842ecb2c128042ec92c127842ec72c127042ec52c1267c2ec32c126442ec0cc148e832ff2c148a432fd2c1484c32fb2c147f032f92c1479c32f72c1474c32f52c146f432f32c146a832f12c1465032ef2c1460432ed2c145ac32eb2c1455832e92c144fc32e72c144a832e52c1444c32e32c1440032e12c143b032df2c1436032dd2c1430c32db2c142bc32d92c1426032d72c1420c32d52c141b832d32c1416832d12c1411432cf2c140c432cd2c1406832cb2c1401432c92c)
  (.lf 0))) (.nd (.nd (.lf
  0x19c7844aab419c7444aa7819c7c44aa3019c6444a8b419c6044a87819c6844a83019c5044a6b419c4c44a67819c5444a63019c3c44a4b419c3844a47819c4044a43019c2844a2b419c2444a27819c2c44a23019c1444a0b419c1044a07819c1844a03019c00449eb419bfc449e7819c04449e3019bec449cb419be8449c7819bf0449c3019bd8449ab419bd4449a7819bdc449a3019bc44498b419bc044987819bc844983019bb04496b419bac44967819bb444963019b9c4494b419b9844947819ba044943019b884492b419b8444927819b8c44923019b744490b419b7044907819b7844903019b60448eb419b5c448e7819b64448e3019b4c448cb419b48448c7819b50448c3019b38448ab419b34448a7819b3c448a3019b244488b419b2044887819b2844883019b104486b419b0c44867819b1444863019afc4484b419af844847819b0044843019ae84482b419ae444827819aec4482301a6b0447cb4)
  (.lf 0)) (.nd (.lf
  0x21d003cdd0021bc03cbd0021a803c9d00219403c7d00218003c5d00216c03c3d00215403c11002cfc06becc02d0406bccc02d0c06bacc02d1406b8cc02d1c06b6cc02d2406b4cc02d2c06b2cc02d3406b0cc02d3c06aecc02d4406accc02d4c06aacc02d5406a8cc02d5c06a6cc02d6406a4cc02d6c06a2cc02d7406a0cc02d7c069ecc02d84069ccc02d8c069acc02d940698cc02d9c0696cc02da40694cc02dac0692cc02db40690cc02dbc068ecc02dc4068ccc02dcc068acc02dd40688cc02ddc0686cc02de40684cc02dec0682cc03db806bdd003d4006bbd003cb406b9d003c2806b7d003ba406b5d003b2406b3d003aa406b1d003a1c06afd00399806add00391806abd00389006a9d00380406a7d00378006a5d0036f806a3d00366c06a1d0035e0069fd00355c069dd0034d4069bd0034500699d0033d00697d0033500695d0032c80693d0032440691d0031c4068fd00313c068dd0030b8068bd0)
  (.lf 0)))

def shaWireTree156 : BTree :=
  .nd (.nd (.nd (.lf
  0x80d2414583080d1014567880d0c1456b480d1414563080d0014547880cf81454b480d0414543080cec14527880ce41452b480cf014523080cd814507880cd01450b480cdc14503080cc4144e7880cc0144eb480cc8144e3080ca8144c7880cac144cb480cb0144c3080bdc144a7880b70144ab480ca0144a3080aac14487880ab01448b480b6814483080aa014467880a441446b480aa414463080a2014447880a001444b480a24144430809e01442788037c1442b4809f814423080540187c788054c187cb480550187c3080528187a78804bc187ab48052c187a30804a8187878804b01878b4804b4187830804781876788049c1876b4804a0187630803ec187478803d01874b4803f0187430803c4187278803b81872b4803c8187230803ac187078803a81870b4803b018703080394186e7880398186eb48039c186e30802f0186c7880194186cb480388186c3080188186a7880130186ab48018c186a30)
  (.lf 0)) (.nd (.lf
  0x260b853a030260bc539e30260c0539c302613c539a3025fd053983025fd453963025fd853943025fdc53923025fe053903025fe4538e30260f4538c3025d60538a3025d6453883025d6853863025d6c53843025d7053823025d745380302806457beb42806857bcb42806c57bab42807057b8b42807457b6b42807857b4b42807c57b2b42808057b0b42808457aeb42808857acb42808c57aab42809057a8b42809457a6b42809857a4b42809c57a2b4280a057a0b4280a4579eb4280a8579cb4280ac579ab4280b05798b4280b45796b4280b85794b4280bc5792b4280c05790b4280c4578eb4280c8578cb4280cc578ab4280d05788b4280d45786b4280d85784b4280dc5782b4280e05780b4263f857be78263fc57bc782640057ba782640457b8782640857b6782632457b4782620857b2782620c57b0782621057ae782621457ac782621857aa782621c57a8782612c57a678260d857a478260dc57a278)
  (.lf 0))) (.nd (.nd (.lf
  0x21ce8473c1e21d20473cb421d24473c1421ca4473a1e21cdc473ab421ce0473a1421c684737f421c9c4738a021c2847361e21c604736b421c6447361421be447341e21c1c4734b421c2047341421ba047321e21bd84732b421bdc47321421b5c47301e21b944730b421b9847301421b18472e1e21b50472eb421b54472e1421adc472bf421b10472ca021a9c472a1e21ad4472ab421ad8472a1421a5847281e21a904728b421a9447281421a1447261e21a4c4726b421a50472614219d047241e21a084724b421a0c4724142198c47221e219c44722b4219c847221421950471f40219844720a021918471df42194c471ea0218d8471c1e21910471cb421914471c142189c471940218d0471aa021864471740218984718a02182c4715f4218604716a0217ec47141e218244714b421828471414217a847121e217e04712b4217e44712142176447101e2179c4710b4217a047101421720470e1e21758470eb4)
  (.lf 0)) (.nd (.lf
  0x48d3ca586cc48cc8a584cc48c38a582cc4a3bca5bdd04a3a8a5bbd04a394a5b9d04a380a5b7d04a36ca5b5d04a358a5b3d04a344a5b1d04a318a5afd04a304a5add04a2b8a5abd04a2a4a5a9d04a294a5a7d04a268a5a5d04a254a5a3d04a1d4a5a1d04a1c0a59fd04a1aca59dd04a198a59bd04a188a599d04a174a597d04a160a595d04a14ca593d04a138a591d04a124a58fd04a104a58dd04a0d8a58bd04a0c4a589d048d90a587d048cd8a585d048c48a583d048c10a581104c1e8a97ecc4c1d4a97ccc4c1a4a97acc4bed4a978cc4bed0a976cc4becca974cc4bec8a972cc4bd80a970cc4bc5ca96ecc4bae0a96ccc4badca96acc4ba28a968cc4ba0ca966cc4b938a964cc4b888a962cc4b750a960cc4b710a95ecc4b6a8a95ccc4b654a95acc4b5f8a958cc4b514a956cc4b478a954cc4b400a952cc4b388a950cc4b318a94ecc4b2a0a94ccc4b1b8a94acc4b140a948cc4b0d4a946cc4b060a944cc)
  (.lf 0)))

def shaWireTree157 : BTree :=
  .nd (.nd (.nd (.lf
  0x6ae7cd7dab46ae88d7da306ae70d7d8786ae68d7d8b46ae74d7d8306ae5cd7d6786ae54d7d6b46ae60d7d6306ae48d7d4786ae40d7d4b46ae4cd7d4306ae34d7d2786ae30d7d2b46ae38d7d2306ada8d7d0786ae24d7d0b46ae28d7d0306acfcd7ce786ad98d7ceb46ad9cd7ce306ac50d7cc786acecd7ccb46acf0d7cc306abe0d7ca786ac40d7cab46ac44d7ca306ab90d7c8786abd0d7c8b46abd4d7c8306ab44d7c6786ab80d7c6b46ab84d7c6306aad8d7c4786ab34d7c4b46ab38d7c4306aa90d7c2786aaccd7c2b46aad0d7c2306d988dabc786d984dabcb46d98cdabc306d974daba786d96cdabab46d978daba306d958dab8786d95cdab8b46d960dab8306d944dab6786d948dab6b46d950dab6306d934dab4786d938dab4b46d93cdab4306d924dab2786d920dab2b46d928dab2306d908dab0786d90cdab0b46d914dab0306d8f4daae786d8fcdaaeb46d900daae306d8e4daac786d8e0daacb4)
  (.lf 0)) (.nd (.lf
  0x13944005dfd1394c005dfb13954005df91395c005df713964005df51396c005df313974005df11397c005def13984005ded1398c005deb13994005de91399c005de7139a4005de5139ac005de3139b4005de114e9c005ddf14e6c005ddd151dc005ddb15184005dd915128005dd7150d0005dd515078005dd315020005dd114fc8005dcf14f70005dcd14f18005dcb14ed4005dc914ea0005dc7151e4005dc51518c005dc315130005dc1150d8005dbf15080005dbd15028005dbb14fd0005db914f78005db714f20005db5151ec005db315194005db115138005daf150e0005dad15088005dab15030005da914fd8005da714f80005da514f28005da314edc005da1164d0005d9f164d8005d9d164e0005d9b164e8005d99164f0005d97164f8005d9516500005d9316508005d9116510005d8f16518005d8d16520005d8b16528005d8916530005d8716538005d8516540005d8316548005d8116550005d7f)
  (.lf 0))) (.nd (.nd (.lf
  0x3bbc8808c783bbd0808c303bba0808ab43bb9c808a783bba4808a303bb748088b43bb708088783bb788088303bb488086b43bb448086783bb4c8086303bb1c8084b43bb188084783bb208084303baec8082b43bae88082783baf0808230207a0807cb4206f8807c78207a4807c30206ec807ab420634807a78206f0807a30206288078b42057c8078782062c807830205708076b4204c480767820574807630204b88074b420408807478204bc807430203fc8072b42034c80727820400807230203408070b420298807078203448070302028c806eb4201d8806e7820290806e30201cc806cb420120806c78201d0806c3020114806ab420068806a7820118806a302005c8068b41ffac806878200608068301ffa08066b41fee88066781ffa48066301fedc8064b41fe308064781fee08064301fe248062b41fd708062781fe288062301fd648060b41fcb08060781fd688060301fca4805eb41fbf4805e78)
  (.lf 0)) (.nd (.lf
  0x1a36c4665d01a3284663d01a2e44661d01a2a0465fd01a25c465dd01a218465bd01a1d44659d01a1904657d01a14c4655d01a1084653d01a0c44651d01a080464fd01a03c464dd019ff8464bd019fb44649d019f704647d019f2c4645d019ee84643d019ebc46411021d4c46fecc21d1046fccc21ccc46facc21c9046f8cc21c5046f6cc21c0c46f4cc21bc846f2cc21b8446f0cc21b4046eecc21b0446eccc21ac446eacc21a8046e8cc21a3c46e6cc219f846e4cc219b446e2cc2197846e0cc2194046decc2190046dccc218c446dacc2188c46d8cc2185446d6cc2181446d4cc217d046d2cc2178c46d0cc2174846cecc2170c46cccc216d446cacc2169c46c8cc2166446c6cc2162446c4cc215f446c2cc21d3446fdd021cf446fbd021cb046f9d021c7446f7d021c3446f5d021bf046f3d021bac46f1d021b6846efd021b2446edd021ae846ebd021aa846e9d021a6446e7d021a2046e5d0219dc46e3d0)
  (.lf 0)))

def shaWireTree158 : BTree :=
  .nd (.nd (.nd (.lf
  0x28834619878288486198b42884c61983028828619678288146196b42882c619630287f4619478288086194b42880c619430287e8619278287d46192b4287ec619230287b4619078287c86190b4287cc619030287a8618e7828794618eb4287ac618e3028774618c7828788618cb42878c618c3028768618a7828754618ab42876c618a3028734618878287486188b42874c61883028728618678287146186b42872c61863028708618478287046184b42870c618430286e8618278286e46182b4286ec61823029cfc657c7829cf8657cb429d00657c3029ca0657a7829c9c657ab429ca4657a3029c4865787829c446578b429c4c65783029bf065767829bec6576b429bf465763029b9865747829b946574b429b9c65743029b4065727829b3c6572b429b4465723029ae865707829ae46570b429aec65703029a90656e7829a8c656eb429a94656e3029a38656c7829a34656cb429a3c656c30299f4656a78)
  (.lf 0)) (.nd (.lf
  0x554d4003dfd554dc003dfb554e4003df9554ec003df7554f4003df5554fc003df355504003df15550c003def55514003ded5551c003deb55524003de95552c003de755534003de55553c003de355544003de157738003ddf57740003ddd57748003ddb57750003dd957758003dd757760003dd557768003dd357770003dd157778003dcf57780003dcd577e0003dcb577e8003dc9577f0003dc7577f8003dc557800003dc357808003dc157810003dbf57818003dbd57820003dbb57828003db957830003db757838003db557840003db357848003db157850003daf57858003dad57860003dab57868003da957870003da757878003da557880003da357888003da158b0c003d9f58b14003d9d58b1c003d9b58b24003d9958b2c003d9758b34003d9558b3c003d9358b44003d9158b4c003d8f58b50003d8d58bb0003d8b58bb4003d8958bbc003d8758bc0003d8558bc8003d8358bcc003d8158bd4003d7f)
  (.lf 0))) (.nd (.nd (.lf
  0x7528cf84ab475288f84a7875290f84a3075250f848b475254f8487875280f848307523cf846b475238f8467875240f8463075218f844b47521cf8447875220f8443075200f842b4751d0f8427875204f84230756ecf83cb4756b8f83c78756f0f83c30756a4f83ab4756a8f83a78756acf83a3075698f838b475694f838787569cf8383075684f836b475688f836787568cf8363075674f834b475678f834787567cf8343075664f832b475660f832787566cf8323075654f830b475628f8307875658f8303075610f82eb475618f82e787561cf82e3075600f82cb475604f82c7875608f82c30755d8f82ab4755e0f82a78755f4f82a30755ccf828b4755c4f82878755d0f8283075500f826b4754e0f8267875504f82630754d4f824b4754bcf82478754d8f82430754b0f822b475490f82278754b4f8223075484f820b47546cf8207875488f820307544cf81eb47543cf81e7875464f81e3075430f81cb4)
  (.lf 0)) (.nd (.lf
  0x62d08c6c5d062c90c6c3d062c78c6c11064488c73d40640dcc737f4640c0c735f4640a8c733f46408cc7314063fccc729f463fb0c7274063bb0c723f463ba0c721f463b88c71f4063a80c71bf463a3cc71940639e4c715f463650c71340625f4c7fecc62554c7fccc6259cc7facc62530c7f8cc624e4c7f6cc6240cc7f4cc62278c7f2cc62350c7f0cc621d8c7eecc621e0c7eccc62024c7eacc61f18c7e8cc61ec4c7e6cc625a4c7e4cc6254cc7e2cc624dcc7e0cc62414c7decc62280c7dccc62358c7dacc62180c7d8cc620b0c7d6cc62018c7d4cc625acc7d2cc6253cc7d0cc624b4c7cecc6241cc7cccc62288c7cacc62370c7c8cc62198c7c6cc620b8c7c4cc62020c7c2cc62a38c7fdd062a28c7fbd062a14c7f9d062a00c7f7d0629e8c7f5d0629d4c7f3d0629c0c7f1d0629b0c7efd06299cc7edd062984c7ebd062970c7e9d062960c7e7d062948c7e5d062934c7e3d062924c7e1d062914c7dfd0)
  (.lf 0)))

def shaWireTree159 : BTree :=
  .nd (.nd (.nd (.lf
  0x45df48f321e45df88f32b445dfc8f321445dcc8f301e45ddc8f30b445de08f301445db48f2d4045dc48f2ea045d9c8f2bf445db08f2ca045d908f2a1e45d948f2ab445d988f2a1445c108f281e45d848f28b445d888f281445bf48f261e45bf88f26b445c088f261445bd08f234045bec8f24a045ba88f214045bb08f22a045b6c8f1f4045ba48f20a045b608f1d4045b688f1ea045a948f1b4045b408f1ca045a4c8f194045a908f1aa045a1c8f17f445a488f18a0459f48f161e459f08f16b4459f88f1614459c08f141e459388f14b4459c48f1414459008f11f4459308f12a0458d48f101e458f88f10b4458fc8f1014457ec8f0d404589c8f0ea0457dc8f0b40457e88f0ca0457988f09f4457d88f0aa0457908f081e4574c8f08b4457948f0814454048f0540455908f06a0453848f03f4454008f04a0453488f02b44534c8f0214445c08ffc78445c48ffcb4445c88ffc30445b48ffa78445ac8ffab4)
  (.lf 0)) (.nd (.lf
  0x111f02a932c111682a912c110dc2a8f2c110582a8d2c10fd02a8b2c10f442a892c10eb82a872c10e2c2a852c10db42a832c10d802a80cc136142ebf2c1359c2ebd2c135182ebb2c134902eb92c1340c2eb72c133842eb52c133002eb32c132782eb12c131f42eaf2c131742ead2c130f42eab2c130742ea92c12fec2ea72c12f602ea52c12edc2ea32c12e5c2ea12c12ddc2e9f2c12d542e9d2c12cc82e9b2c12c3c2e992c12bb02e972c12b242e952c12aa02e932c12a182e912c1298c2e8f2c129002e8d2c1287c2e8b2c127fc2e892c1277c2e872c126fc2e852c126742e832c1263c2e80cc148e032bf2c1489c32bd2c1484432bb2c147e832b92c1479432b72c1474432b52c146ec32b32c146a032b12c1464832af2c145fc32ad2c145a432ab2c1455032a92c144f432a72c144a032a52c1444432a32c143f832a12c143a8329f2c14358329d2c14304329b2c142b432992c1425832972c1420432952c)
  (.lf 0))) (.nd (.nd (.lf
  0x429208a2050422048a1e50421648a1c50421688a1a50421208a1850420408a165041fe88a145041e9c8a125041e7c8a105041e5c8a0e5041d3c8a0c5041d1c8a0a5041c488a085041c288a065041ae08a045041a608a025041a4c8a0050430c48e3e78430e08e3c78430c88e3a7842d088e387842a748e3678429f08e3478429dc8e3278429c88e3078429b48e2e78429a08e2c784298c8e2a78429788e2878429648e2678429508e24784293c8e2278429288e20784220c8e1e78421748e1c78421788e1a78421288e1878420488e167841ff08e147841ea48e127841e848e107841e648e0e7841d448e0c7841d248e0a7841c508e087841c308e067841ae88e047841a688e027841a548e0078443d88e3e50442588e3c50441688e3a504416c8e38504400c8e365043f4c8e345043f508e325043e648e305043ddc8e2e5043d508e2c5043b748e2a5043ab88e285043a688e265043a148e2450439748e2250)
  (.lf 0)) (.nd (.lf
  0x5588cac64cc55894ac62cc5589cac60cc558a4ac5ecc558acac5ccc558b4ac5acc558bcac58cc558c4ac56cc558ccac54cc558d4ac52cc558dcac50cc558e4ac4ecc558ecac4ccc558f4ac4acc558fcac48cc55904ac46cc5590cac44cc55914ac42cc55e50ac7dd055e28ac7bd055dfcac79d055dd0ac77d055da4ac75d055d78ac73d055d4cac71d055d20ac6fd055cf4ac6dd055cc8ac6bd055c9cac69d055c70ac67d055c44ac65d055c18ac63d055becac61d055bc0ac5fd055b94ac5dd055b68ac5bd055b3cac59d055b10ac57d055ae4ac55d055ab8ac53d055a8cac51d055a60ac4fd055a34ac4dd055a08ac4bd0559dcac49d0559b0ac47d055984ac45d055958ac43d05591cac411055e58ac3ecc55e30ac3ccc55e04ac3acc55dd8ac38cc55dacac36cc55d80ac34cc55d54ac32cc55d28ac30cc55cfcac2ecc55cd0ac2ccc55ca4ac2acc55c78ac28cc55c4cac26cc55c20ac24cc55bf4ac22cc)
  (.lf 0)))

def shaWireTree160 : BTree :=
  .nd (.nd (.nd (.lf
  0x57f0000000057d0000000057b00000000579000000005770000000057500000000573000000005710000000056f0000000056d0000000056b00000000569000000005670000000056500000000563000000005610000000055f0000000055d0000000055b00000000559000000005570000000055500000000553000000005510000000054f0000000054d0000000054b00000000549000000005470000000054500000000543000000005410000000053f0000000053d0000000053b00000000539000000005370000000053500000000533000000005310000000052f0000000052d0000000052b00000000529000000005270000000052500000000523000000005210000000051f0000000051d0000000051b00000000519000000005170000000051500000000513000000005110000000050f0000000050d0000000050b0000000050900000000507000000005050000000050300000000501)
  (.lf
  0x449208c88cc449288c86cc449308c84cc449388c82cc44b9c8cbdd044b888cbbd044b748cb9d044b608cb7d044b4c8cb5d044b388cb3d044b248cb1d044b108cafd044afc8cadd044ae88cabd044ad48ca9d044ac08ca7d044aac8ca5d044a988ca3d044a848ca1d044a708c9fd044a5c8c9dd044a488c9bd044a348c99d044a208c97d044a0c8c95d0449f88c93d0449e48c91d0449d08c8fd0449bc8c8dd0449a88c8bd0449948c89d0449808c87d04496c8c85d0449588c83d0449408c811044ba88c7ecc44bb08c7ccc44bb88c7acc44c348c78cc44c3c8c76cc44c448c74cc44c4c8c72cc44c548c70cc44c5c8c6ecc44c648c6ccc44c6c8c6acc44c748c68cc44c7c8c66cc44c848c64cc44c8c8c62cc44c948c60cc44c9c8c5ecc44ca48c5ccc44cac8c5acc44cb48c58cc44cbc8c56cc44cc48c54cc44ccc8c52cc44cd48c50cc44cdc8c4ecc44ce48c4ccc44cec8c4acc44cf48c48cc44cfc8c46cc))
  (.nd (.lf
  0x10abc2a205010ac02a1e5010ac42a1c5010ac82a1a5010acc2a185010ad02a165010ad42a145010ad82a125010adc2a105010ae02a0e5010ae42a0c5010ae82a0a5010aec2a085010af02a065010af42a045010af82a025010afc2a005010b802e3e7810b842e3c7810b882e3a7810b8c2e387810b902e367810b942e347810b982e327810b9c2e307810ba02e2e7810ba42e2c7810ba82e2a7810bac2e287810bb02e267810bb42e247810bb82e227810bbc2e207810bc02e1e7810bc42e1c7810bc82e1a7810bcc2e187810bd02e167810bd42e147810bd82e127810bdc2e107810be02e0e7810be42e0c7810be82e0a7810bec2e087810bf02e067810bf42e047810bf82e027810bfc2e00781233c2e3e50123402e3c50123442e3a50123482e38501234c2e3650123502e3450123542e3250123582e30501235c2e2e50123602e2c50123642e2a50123682e28501236c2e2650123702e2450123742e2250)
  (.lf 0))) (.nd (.nd (.lf
  0x3c1ac8260b43c1a48260783c1b08260303c194825eb43c198825e783c19c825e303c184825cb43c17c825c783c188825c303c16c825ab43c170825a783c174825a303c15c8258b43c1548258783c1608258303c1448256b43c1488256783c14c8256303c1348254b43c12c8254783c1388254303c11c8252b43c1208252783c1248252303c10c8250b43c1048250783c1108250303c0f8824eb43c0f4824e783c0fc824e303c0e4824cb43c0e8824c783c0ec824c303c0d4824ab43c0d0824a783c0d8824a303c0c08248b43c0bc8248783c0c48248303c0ac8246b43c0a88246783c0b08246303c0988244b43c0948244783c09c8244303c0848242b43c0808242783c0888242303fc5c82fcb43fc7c82fc783fc8082fc303fc1882fab43fc5082fa783fc5482fa303fbd882f8b43fbf082f8783fc1082f8303fb7c82f6b43fbcc82f6783fbd082f6303fb5882f4b43fb7082f4783fb7482f4303fb1082f2b4)
  (.lf 0)) (.nd (.lf
  0x30cdc6a13b030ce06a11b030ce46a0fb030ce86a0db030cec6a0bb030cf06a09b030cf46a07b030cf86a05b030cfc6a03b030d006a01b0332b06e3fb0332b46e3db0332b86e3bb0332bc6e39b0332c06e37b0332c46e35b0332c86e33b0332cc6e31b0333a86e2fb0332d06e2db0332d46e2bb0332d86e29b0332dc6e27b0332e06e25b0333b86e23b0332e46e21b0332e86e1fb0332ec6e1db0332f06e1bb0332f46e19b0332f86e17b0332fc6e15b0333006e13b0333046e11b0333086e0fb03330c6e0db0333106e0bb0333146e09b0333186e07b03331c6e05b0333206e03b0333246e01b035074723fb035078723db03507c723bb0350807239b0350847237b0350887235b0350ac7233b034fbc7231b034fc0722fb034fc4722db034fc8722bb034fcc7229b034fd07227b034ee87225b034eec7223b034ef07221b034ef4721fb034ef8721db034efc721bb034e547219b034df47217b034df87215b0)
  (.lf 0)))

def shaWireTree161 : BTree :=
  .nd (.nd (.nd (.lf
  0x14d7c415c7814d78415cb414d80415c3014d54415a7814d50415ab414d58415a3014d2c41587814d284158b414d3041583014b8441567814b804156b414b8841563014b5c41547814b584154b414b6041543014b3841527814b344152b414b3c41523014b1441507814b104150b414b1841503014af0414e7814aec414eb414af4414e3014acc414c7814ac8414cb414ad0414c3014aa8414a7814aa4414ab414aac414a3014a8441487814a804148b414a8841483014a6041467814a5c4146b414a6441463014a3c41447814a384144b414a4041443014a1841427814a144142b414a1c4142301495c41bc781495841bcb41496041bc301486041ba781481041bab41486441ba301480441b878147b041b8b41480841b830147a441b6781476041b6b4147a841b6301475441b4781471441b4b41475841b4301470841b278146bc41b2b41470c41b230146b041b0781467041b0b4146b441b0301466441ae78)
  (.lf 0)) (.nd (.lf
  0x57bec0049fd57bf40049fb57bfc0049f957c040049f757c0c0049f557c140049f357c1c0049f157c240049ef57c2c0049ed57c340049eb57c3c0049e957c440049e757c4c0049e557c540049e357c5c0049e159e200049df59e280049dd59e300049db59eac0049d959eb40049d759ebc0049d559ec40049d359ecc0049d159ed40049cf59edc0049cd59ee40049cb59eec0049c959ef40049c759efc0049c559f040049c359f0c0049c159f140049bf59f1c0049bd59f240049bb59f2c0049b959f340049b759f3c0049b559f440049b359f4c0049b159f540049af59f5c0049ad59f640049ab59f6c0049a959f740049a759f7c0049a559f840049a359f8c0049a15c12c00499f5c13400499d5c13c00499b5c1b80049995c1c00049975c1c80049955c1d00049935c1d80049915c1e000498f5c1e800498d5c1f000498b5c1f80049895c2000049875c2080049855c2100049835c2180049815c22000497f)
  (.lf 0))) (.nd (.nd (.lf
  0x70e70e00eb470e78e00e7870e7ce00e3070e44e00cb470e64e00c7870e68e00c3070e30e00ab470e38e00a7870e3ce00a3070e20e008b470b40e0087870e24e0083070b34e006b470b1ce0067870b38e0063070ad4e004b470b10e0047870b14e0043070aace002b470ab0e0027870abce0023070750e4bcb470754e4bc7870758e4bc3070740e4bab470730e4ba7870744e4ba3070720e4b8b470724e4b87870728e4b8307070ce4b6b470710e4b67870714e4b630706f8e4b4b4706fce4b47870700e4b430706e4e4b2b4706e8e4b278706ece4b230706d4e4b0b4706cce4b078706d8e4b030706b8e4aeb4706bce4ae78706c0e4ae30706a4e4acb4706a0e4ac78706a8e4ac3070694e4aab47068ce4aa7870698e4aa3070680e4a8b47067ce4a87870684e4a83070664e4a6b47066ce4a67870670e4a63070658e4a4b470654e4a4787065ce4a4307063ce4a2b470644e4a2787064ce4a2307062ce4a0b4)
  (.lf 0)) (.nd (.lf
  0x563e0aed7d0563ccaed5d0563b8aed3d0563a4aed1d05638caecfd056378aecdd056364aecbd05634caec9d056310aec7d055facaec5d055ee4aec3d055ea0aec11055198affecc5512caffccc5519caffacc5514caff8cc550fcaff6cc551b4aff4cc54ffcaff2cc551c4aff0cc5501cafeecc54f78afeccc55030afeacc54f40afe8cc54ef4afe6cc55188afe4cc55154afe2cc55104afe0cc550ccafdecc55064afdccc551ccafdacc54fb0afd8cc54f6cafd6cc55038afd4cc55190afd2cc5515cafd0cc55194afcecc5510cafcccc55008afcacc551d4afc8cc54fb8afc6cc54f74afc4cc55040afc2cc553e0affdd0553ccaffbd0553bcaff9d0553a8aff7d055394aff5d055384aff3d055370aff1d05535cafefd055348afedd055334afebd055320afe9d05530cafe7d0552f8afe5d0552e0afe3d0552ccafe1d0552bcafdfd0552a8afddd055298afdbd055284afd9d055270afd7d05525cafd5d0)
  (.lf 0)))

def shaWireTree162 : BTree :=
  .nd (.nd (.nd (.lf
  0x79bd0f59c3079b8cf59a7879ba4f59ab479ba8f59a3079088f5987879064f598b479b84f5983079058f5967878db4f596b47905cf5963078d8cf5947878da8f594b478dacf5943078cb0f5927878c20f592b478cb4f5923078c14f5907878bc0f590b478c18f5903078bb4f58e7878b60f58eb478bb8f58e3078b3cf58c7878b14f58cb478b58f58c3078b08f58a7878adcf58ab478b0cf58a3078ac0f5887878a00f588b478ac8f58830789f4f5867878954f586b4789f8f5863078944f5847878828f584b478948f58430787e0f582787881cf582b478820f582307b6b4f97c787b6b8f97cb47b6e8f97c307b6a4f97a787b6a8f97ab47b6acf97a307b5fcf978787b670f978b47b674f978307b5c8f976787b5ccf976b47b5f0f976307b590f974787b58cf974b47b594f974307b4a0f972787b580f972b47b584f972307b438f970787b39cf970b47b43cf970307b390f96e787b368f96eb47b394f96e30)
  (.lf 0)) (.nd (.lf
  0x70b413a030070b8139e30070bc139c30070c0139a30070c4139830070c8139630070cc139430070d0139230070d4139030070d8138e30070dc138c30070e0138a30070e4138830070e8138630070ec138430070f0138230070f4138030088d817beb4088dc17bcb4088e017bab4088e417b8b4088e817b6b4088ec17b4b4088f017b2b4088f417b0b4088f817aeb4088fc17acb40890017aab40890417a8b40890817a6b40890c17a4b40891017a2b40891417a0b408918179eb40891c179cb408920179ab4089241798b4089281796b40892c1794b4089301792b4089341790b408938178eb40893c178cb408940178ab4089441788b4089481786b40894c1784b4089501782b4089541780b40717817be780717c17bc780718017ba780718417b8780718817b6780718c17b4780719017b2780719417b0780719817ae780719c17ac78071a017aa78071a417a878071a817a678071ac17a478071b017a278)
  (.lf 0))) (.nd (.nd (.lf
  0x115e43a6278116583a6230115d83a60b4115583a6078115dc3a60301154c3a5eb4114c83a5e78115503a5e30114bc3a5cb4114483a5c78114c03a5c301143c3a5ab4113c83a5a78114403a5a30113bc3a58b4113483a5878113c03a58301133c3a56b4112cc3a5678113403a5630112c03a54b41123c3a5478112c43a5430112303a52b4111c03a5278112343a5230111b43a50b4111343a5078111b83a5030111283a4eb4110a43a4e781112c3a4e30110983a4cb4110283a4c781109c3a4c301101c3a4ab410f9c3a4a78110203a4a3010f903a48b410f103a487810f943a483010f043a46b410e843a467810f083a463010e783a44b410e083a447810e7c3a443010dfc3a42b410dac3a427810e003a4230172603afcb4172903afc78172943afc30172243afab4172543afa78172583afa30171e03af8b4172183af8781721c3af830171983af6b4171d43af678171d83af630171583af4b41718c3af478)
  (.lf 0)) (.nd (.lf
  0x30f407567d030f187565d030ef07563d030ec87561d030ea0755fd030e78755dd030e50755bd030e287559d030e007557d030dd87555d030db47553d030d907551d030bec754fd030bc8754dd030ba4754bd030b807549d030b5c7547d030b387545d030b147543d030a60754110309dc75becc3099875bccc3093475bacc308c075b8cc3085075b6cc307dc75b4cc3076875b2cc306e875b0cc3066875aecc305e875accc3056875aacc304e075a8cc3045475a6cc303d075a4cc3035075a2cc302d075a0cc30248759ecc301bc759ccc30130759acc300ac7598cc3002c7596cc2ffac7594cc2ff247592cc2fe987590cc2fe14758ecc2fd94758ccc2fd0c758acc2fc807588cc2fbfc7586cc309e47584cc2faf07582cc30a5875bdd030a4475bbd030a3075b9d030a1c75b7d030a0875b5d0309f475b3d0306f875b1d03067875afd0305f875add03057875abd0304f075a9d03046475a7d0303e075a5d0)
  (.lf 0)))

def shaWireTree163 : BTree :=
  .nd (.nd (.nd (.lf
  0x66014cad87866024cad83066008cad6b4654f8cad6786600ccad630654eccad4b46545ccad478654f0cad4306544ccad2b465408cad27865450cad230653fccad0b465368cad07865400cad03065354caceb4652f4cace7865358cace30652e8caccb465238cacc78652eccacc3065228cacab4650d8caca7865230caca30650b0cac8b465080cac878650b4cac83065040cac6b46501ccac67865044cac63065008cac4b464fcccac47865014cac43064f98cac2b464f5ccac27864f9ccac23066198cb3aaa66148cb34aa66130cb32aa66150cb30aa660f0cb2caa660b4cb26aa6604ccb1caa66034cb1aaa6601ccb18aa654d0cb14aa65464cb12aa653e0cb10aa65300cb0caa65064cb06aa665eccb3d40665c8cb394066590cb33f466574cb31f4664a8cb2f4066480cb2b4066450cb254066254cb1bf46622ccb19f4661eccb174065474cb13f4653f4cb11f46537ccb0f4065264cb0b40665dccb3bf4)
  (.lf 0)) (.nd (.lf
  0x35f5c731cb435eec731ab435e807318b435e1073174a35d9c7314b435d2c73134a35cb473114a35c38730f4a35bc0730d4a35b3c730b4a35ab073094a35a287306b4359a87304b43591c73034a358d87300aa39040773f4a38fbc773d4a38f40773ab438ebc77394a38e347736b438d9c77354a38d107732b438c7877314a38be4772f4a38b5c772cb438aec772b4a38a7c7728b438a207726b4389b877254a3895477234a3888877214a388ac771f4a38768771cb4384ec771ab43844477194a383c07716b4383347714b4382b07712b43823077114a38194770eb438114770d4a38078770ab437ff07708b437f6c7706b437ee077054a37e4c77034a37db87700aa3afbc7b3eb43af347b3cb43abc87b3ab43abb47b38b43ab987b36b43aba87b354a3aad07b334a3aab87b30b43abe07b2f4a3a9707b2d4a3a9447b2ab43a91c7b28b43a8fc7b274a3a8cc7b24b43a8887b234a3a87c7b20b43a6707b1eb4)
  (.lf 0))) (.nd (.nd (.lf
  0x1d8606850781d8686850301d850684eb41d84c684e781d854684e301d83c684cb41d838684c781d840684c301d828684ab41d824684a781d82c684a301d8146848b41d8106848781d8186848301d8006846b41d7fc6846781d8046846301d7ec6844b41d7e86844781d7f06844301d7d86842b41d7d46842781d7dc68423032850683cb4328a8683c78328ac683c30327dc683ab432844683a7832848683a30327646838b4327d0683878327d4683830326f46836b4327586836783275c683630326886834b4326e8683478326ec6834303261c6832b43267c68327832680683230325ac6830b4326106830783261468303032534682eb4325a0682e78325a4682e30324b4682cb432528682c783252c682c3032434682ab4324a8682a78324ac682a30323b46828b4324286828783242c682830323346826b4323a8682678323ac682630322b46824b4323286824783232c682430322306822b4322a8682278)
  (.lf 0)) (.nd (.lf
  0xcbb42e61d00cb342e5fd00cab82e5dd00ca282e5bd00c9ac2e59d00c9202e57d00c8942e55d00c8082e53d00c7782e51d00c6fc2e4fd00c6702e4dd00c5e02e4bd00c5642e49d00c4d42e47d00c4582e45d00c3c82e43d00c3702e4110136182efecc135a02efccc1351c2efacc134942ef8cc134102ef6cc133882ef4cc133042ef2cc1327c2ef0cc131f82eeecc131782eeccc130f82eeacc130782ee8cc12ff02ee6cc12f642ee4cc12ee02ee2cc12e602ee0cc12de02edecc12d582edccc12ccc2edacc12c402ed8cc12bb42ed6cc12b282ed4cc12aa42ed2cc12a1c2ed0cc129902ececc129042ecccc128802ecacc128002ec8cc127802ec6cc127002ec4cc126782ec2cc136002efdd0135842efbd0135002ef9d0134782ef7d0133f42ef5d01336c2ef3d0132e82ef1d0132602eefd0131dc2eedd01315c2eebd0130dc2ee9d01305c2ee7d012fd42ee5d012f482ee3d012ec42ee1d012e442edfd0)
  (.lf 0)))

def shaWireTree164 : BTree :=
  .nd (.nd (.nd (.lf
  0x750900006cb750940006c9750980006c77509c0006c5750a00006c3750a40006c1750a80006bf750ac0006bd750b00006bb750b40006b9750b80006b7750bc0006b5750c00006b3750c40006b1750c80006af750cc0006ad750d00006ab750d40006a9750d80006a7750dc0006a5750e00006a3750e40006a17572800069f7572c00069d7573000069b75734000699757380006977573c00069575740000693757440006917574800068f7574c00068d7575000068b75754000689757580006877575c00068575760000683757640006817576800067f7576c00067d7577000067b75774000679757780006777577c00067575780000673757840006717578800066f7578c00066d7579000066b75794000669757980006671effc40bcb41f00040bc781f00440bc301efe840bab41efec40ba781eff040ba301efd440b8b41efd840b8781efdc40b8301efc040b6b41efc440b6781efc840b6301efac40b4b4)
  (.lf
  0x83d48007f2c83d4c007d2c83cf8007b2c83ccc00792c83cc400772c83ca000752c83ca800732c83ce400712c83c44006f2c83bc0006d2c83c6c006b2c83b8400692c83b4c00672c83b2c00652c83b3800632c83b1000612c83b34005f2c83ae4005d2c83ad0005b2c838b400592c8383000572c837d000552c837b400532c8374000512c83304004f2c83320004d2c8325c004b2c832b800492c8323800472c82a0800452c824a800432c823880040cc832a4047f2c))
  (.nd (.lf
  0x5bb40bfa0785bb1cbf9e785bb20bf9c785bab4bf9a785ba8cbf98785bad0bf96785ba58bf94785ba30bf92785a7b8bf90785a7bcbf8e785a7c0bf8c785a874bf8a785a738bf88785a60cbf86785a3a4bf84785a3a8bf827859fd0bf80785e120bfbe305dffcbfbc305ddb4bfba305deb4bfb8305de64bfb6305dbd0bfb4305db14bfb2305dadcbfb0305da60bfae305dc9cbfac305d994bfaa305d954bfa8305d890bfa6305d87cbfa4305d7dcbfa2305d774bfa0305d72cbf9e305d6e0bf9c305d670bf9a305d600bf98305d5a4bf96305d540bf94305d52cbf92305d47cbf90305d400bf8e305d3b0bf8c305d310bf8a305d370bf88305d258bf86305d2b0bf84305d1f8bf82305c474bf803060548c3beb460500c3bcb45ffecc3bab45ff0cc3b8b45ff3cc3b6b45ffb0c3b4b45ff70c3b2b45fec8c3b0b45fdf8c3aeb45fe2cc3acb45fe98c3aab45fe74c3a8b45fc60c3a6b45f7d8c3a4b45f7b0c3a2b4)
  (.lf 0))) (.nd (.nd (.lf
  0x25e205e6ab425e1c5e6a7825e245e6a3025e0c5e68b425e085e687825e105e683025df85e66b425df45e667825dfc5e663025de45e64b425de05e647825de85e643025dd05e62b425dcc5e627825dd45e623025dbc5e60b425c045e607825dc05e603025bf85e5eb425bf45e5e7825bfc5e5e3025be45e5cb425be05e5c7825be85e5c3025bd05e5ab425b3c5e5a7825bd45e5a3025b305e58b425b105e587825b345e583025b045e56b425ae85e567825b085e563025adc5e54b425ad85e547825ae05e543025ac85e52b425ac45e527825acc5e523025ab45e50b425ab05e507825ab85e503025aa05e4eb425a405e4e7825aa45e4e3025a345e4cb4259c85e4c7825a385e4c30259bc5e4ab4259745e4a78259c05e4a30259685e48b4259385e48782596c5e48302592c5e46b4259105e4678259305e4630259045e44b4258cc5e4478259085e4430258c05e42b4258bc5e4278258c45e42302c8685efcb4)
  (.lf 0)) (.nd (.lf
  0x7b178f95fd07b15cf95dd07b14cf95bd07b13cf959d07b12cf957d07b0fcf955d07b0ecf953d07b000f951d07afe0f94fd07afbcf94dd07af44f94bd07af14f949d07aed4f947d07aea4f945d07a424f943d07a250f941107ae6cf9becc7ae5cf9bccc7ae4cf9bacc7ae70f9b8cc7ae30f9b6cc7ae1cf9b4cc7ae08f9b2cc7adf8f9b0cc7ade0f9aecc7adc8f9accc7ae74f9aacc7adccf9a8cc7aca4f9a6cc7ac80f9a4cc7ac70f9a2cc7aca0f9a0cc7ac54f99ecc7ad28f99ccc7bfc8f99acc7ac10f998cc7abe0f996cc7abd0f994cc7abecf992cc7ab9cf990cc7ab70f98ecc7ab10f98ccc7a684f98acc7a63cf988cc7a57cf986cc7a454f984cc7a2fcf982cc7bf04f9bdd07bec0f9bbd07be78f9b9d07be30f9b7d07be00f9b5d07bd5cf9b3d07bcf0f9b1d07bca8f9afd07bc98f9add07bc24f9abd07bc10f9a9d07bc00f9a7d07bbf0f9a5d07bbc8f9a3d07bba0f9a1d07bb7cf99fd07bb54f99dd0)
  (.lf 0)))

def shaWireTree165 : BTree :=
  .nd (.nd (.nd (.lf
  0x7c848eee8b47c844eee8787c84ceee8307c834eee6b47c830eee6787c838eee6307c820eee4b47c81ceee4787c824eee4307c808eee2b47c804eee2787c80ceee2307c7f0eee0b47c7eceee0787c7f4eee0307c700eedeb47c7d8eede787c7dceede307c698eedcb47c6f0eedc787c6f4eedc307c4a8eedab47c68ceeda787c690eeda307c490eed8b47c494eed8787c498eed8307c484eed6b47c480eed6787c488eed6307c328eed4b47c32ceed4787c478eed4307c318eed2b47c31ceed2787c320eed2307c300eed0b47c304eed0787c308eed0307c2f0eeceb47c2e8eece787c2f4eece307c2dceeccb47c2bceecc787c2e0eecc307c2aceecab47c2b0eeca787c2b4eeca307c1d8eec8b47c1f0eec8787c2a0eec8307c044eec6b47c1cceec6787c1d0eec6307bdeceec4b47c038eec4787c03ceec4307bde0eec2b47bdb0eec2787bde4eec2307cb98ef3eaa7c984ef36aa7c994ef34aa7c94cef2eaa)
  (.lf 0)) (.nd (.lf
  0x34b50739dd034b54739bd034b587399d034b5c7397d034b607395d034b647393d034b687391d034b6c738fd034818738dd03481c738bd0348207389d0348247387d0350f87385d0348287383d0350c07381d036fe877bfd036ff077bdd036ff877bbd036ffc77b9d036ec077b7d036e8077b5d036e8477b3d036e8877b1d036e8c77afd036e9077add036ddc77abd036da877a9d036d5077a7d036d5477a5d036d5877a3d036d5c77a1d036d60779fd036cc0779dd036c60779bd036c647799d036c687797d036c6c7795d036c707793d036c747791d036bb0778fd0367c0778dd03673c778bd0367407789d0367447787d0367487785d03674c7783d0367507781d0390687bbfd038fe07bbdd038f747bbbd038ee47bb9d038e6c7bb7d038db87bb5d038d487bb3d038ca07bb1d038c2c7bafd038b807badd038b347babd038a907ba9d038a507ba7d0389e07ba5d03899c7ba3d0388e07ba1d03893c7b9fd0)
  (.lf 0))) (.nd (.nd (.lf
  0x516e0a42e30516b0a42cb451690a42c78516b4a42c3051684a42ab451664a42a7851688a42a3051658a428b451638a428785165ca428305162ca426b45160ca4267851630a4263051600a424b4515e0a4247851604a42430515d4a422b4515b4a42278515d8a42230515a8a420b451588a42078515aca420305157ca41eb45155ca41e7851580a41e3051550a41cb451530a41c7851554a41c3051524a41ab451504a41a7851528a41a30514f8a418b4514d8a41878514fca41830514cca416b4514aca41678514d0a41630514a0a414b451480a41478514a4a4143051474a412b451454a4127851478a4123051448a410b451428a410785144ca410305141ca40eb4513fca40e7851420a40e30513f0a40cb4513d0a40c78513f4a40c30513c4a40ab4513a4a40a78513c8a40a3051398a408b451378a408785139ca408305136ca406b45134ca4067851370a4063051340a404b451320a4047851344a40430)
  (.lf 0)) (.nd (.lf
  0x33cdc6e4fd033c586e4dd033bc86e4bd033b406e49d033ab46e47d033a246e45d0339846e43d0339046e4110347d46efecc347706efccc346f86efacc3467c6ef8cc346006ef6cc345846ef4cc345086ef2cc3448c6ef0cc344186eeecc343a06eeccc3432c6eeacc342b46ee8cc3423c6ee6cc341cc6ee4cc3415c6ee2cc340e86ee0cc340746edecc33ffc6edccc33f806edacc33f086ed8cc33e8c6ed6cc33e106ed4cc33d986ed2cc33d206ed0cc33ca46ececc33c206ecccc33b986ecacc33b146ec8cc33a886ec6cc339f06ec4cc3394c6ec2cc3478c6efdd03471c6efbd0346a46ef9d0346286ef7d0345ac6ef5d0345306ef3d0344b46ef1d0344386eefd0343c46eedd03434c6eebd0342d86ee9d0342646ee7d0341ec6ee5d0341786ee3d03410c6ee1d0340946edfd0340206eddd033fa86edbd033f306ed9d033eb46ed7d033e386ed5d033dc06ed3d033d486ed1d033ccc6ecfd033c486ecdd0)
  (.lf 0)))

def shaWireTree166 : BTree :=
  .nd (.nd (.nd (.lf
  0x461a09d7ab4461a89d7a30461909d78784618c9d78b4461949d78304617c9d7678461789d76b4461809d7630461689d7478461649d74b44616c9d7430461549d7278461509d72b4461589d7230461409d70784613c9d70b4461449d70304612c9d6e78461289d6eb4461309d6e30461189d6c78461149d6cb44611c9d6c30461049d6a78461009d6ab4461089d6a30460f09d6878460ec9d68b4460f49d6830460dc9d6678460d89d66b4460e09d6630460c89d6478460c49d64b4460cc9d6430460b49d6278460b09d62b4460b89d6230460a09d60784609c9d60b4460a49d60304608c9d5e78460889d5eb4460909d5e30460789d5c78460749d5cb44607c9d5c30460649d5a78460609d5ab4460689d5a30460509d58784604c9d58b4460549d58304603c9d5678460389d56b4460409d5630460289d5478460249d54b44602c9d5430460149d5278460109d52b4460189d5230458b89d5078460049d50b4)
  (.lf 0)) (.nd (.lf
  0x1e07c705d2c1e068705b2c1e05470592c1e04070572c1e02c70552c1e01870532c1e00470512c1dff0704f2c1dfdc704d2c1dfc8704b2c1dfb470492c1dfa070472c1df8c70452c1df7870432c1df747040cc1e5a4747f2c1e590747d2c1e57c747b2c1e56874792c1e55474772c1e54074752c1e52c74732c1e51874712c1e504746f2c1e4f0746d2c1e4dc746b2c1e4c874692c1e4b474672c1e4a074652c1e48c74632c1e47874612c1e464745f2c1e450745d2c1e43c745b2c1e42874592c1e41474572c1e40074552c1e3ec74532c1e3d874512c1e3c4744f2c1e3b0744d2c1e39c744b2c1e38874492c1e37474472c1e36074452c1e34c74432c1e3487440cc1e978787f2c1e964787d2c1e950787b2c1e93c78792c1e92878772c1e91478752c1e90078732c1e8ec78712c1e8d8786f2c1e8c4786d2c1e8b0786b2c1e89c78692c1e88878672c1e87478652c1e86078632c1e84c78612c1e838785f2c)
  (.lf 0))) (.nd (.nd (.lf
  0x3bec16763003b681674b403af416747803b6c16743003ae81672b403a7816727803aec16723003a6c1670b4039e816707803a70167030039dc166eb403968166e78039e0166e300395c166cb4038ec166c7803960166c30038e0166ab403860166a78038e4166a30038541668b4037d016687803858166830037c41666b403754166678037c8166630037481664b4036c81664780374c166430036bc1662b40363c166278036c0166230036301660b4035ac16607803634166030035a0165eb403530165e78035a4165e3003524165cb4034a0165c7803528165c3003494165ab403420165a7803498165a30034141658b4033a016587803418165830033941656b40332416567803398165630033181654b4032941654780331c165430032881652b4032141652780328c165230032081650b4031981650780320c1650300318c164eb403108164e7803190164e30030fc164cb403088164c7803100164c30)
  (.lf 0)) (.nd (.lf
  0x7b710efe4cc7b6dcefe2cc7b694efe0cc7b64cefdecc7b790efdccc7b66cefdacc7b4d4efd8cc7b460efd6cc7b79cefd4cc7b70cefd2cc7b6e4efd0cc7b748efcecc7b644efcccc7b5d4efcacc7b5b0efc8cc7b4bcefc6cc7b488efc4cc7b3d4efc2cc7b944effdd07b924effbd07b910eff9d07b8fceff7d07b8e8eff5d07b8cceff3d07b8bceff1d07b8a8efefd07b898efedd07b880efebd07b86cefe9d07b858efe7d07b844efe5d07b834efe3d07b81cefe1d07b80cefdfd07b7fcefddd07b7e8efdbd07b7d4efd9d07b7c0efd7d07b7acefd5d07b780efd3d07b76cefd1d07b754efcfd07b658efcdd07b604efcbd07b5a8efc9d07b4dcefc7d07b47cefc5d07b41cefc3d07b3f8efc1107d650f2becc7d678f2bccc7d6d4f2bacc7d6bcf2b8cc7d4c8f2b6cc7d48cf2b4cc7d6b8f2b2cc7d6ccf2b0cc7d6c8f2aecc7d6acf2accc7d46cf2aacc7d6c0f2a8cc7d6d8f2a6cc7d668f2a4cc7d69cf2a2cc)
  (.lf 0)))

def shaWireTree167 : BTree :=
  .nd (.nd (.nd (.lf
  0x51a80a64e7851a84a64e3051a3ca64cb451a38a64c7851a40a64c3051a2ca64ab451a28a64a7851a30a64a3051a14a648b451a10a6487851a18a6483051a00a646b4519fca6467851a04a64630518c4a644b4518bca64478518c8a644305188ca642b451868a64278518b4a6423052244a6fcb4521b4a6fc7852248a6fc3052198a6fab4521a4a6fa78521a8a6fa3052184a6f8b45218ca6f87852190a6f83052178a6f6b45216ca6f6785217ca6f6305215ca6f4b452160a6f47852164a6f43052148a6f2b45214ca6f27852150a6f23052138a6f0b45213ca6f07852140a6f030520e4a6eeb4520e0a6ee78520e8a6ee30520d0a6ecb4520d4a6ec78520d8a6ec30520a0a6eab4520a4a6ea78520a8a6ea3052090a6e8b452094a6e87852098a6e83052060a6e6b452064a6e67852068a6e63052034a6e4b452038a6e4785203ca6e43051fdca6e2b451fd0a6e27851fe0a6e23051fb0a6e0b451faca6e078)
  (.lf 0)) (.nd (.lf
  0x31e246a532c31d986a512c31d0c6a4f2c31c806a4d2c31bfc6a4b2c31b7c6a492c31b046a472c31a906a452c31a1c6a432c319e86a40cc347d06e7f2c3476c6e7d2c346f46e7b2c346786e792c345fc6e772c345806e752c345046e732c344886e712c344146e6f2c3439c6e6d2c343286e6b2c342b06e692c342386e672c341c86e652c341586e632c340e46e612c340706e5f2c33ff86e5d2c33f7c6e5b2c33f046e592c33e886e572c33e0c6e552c33d946e532c33d1c6e512c33ca06e4f2c33c1c6e4d2c33b946e4b2c33b106e492c33a846e472c339ec6e452c339486e432c339086e40cc366e4727f2c36688727d2c36618727b2c365bc72792c3652c72772c364b872752c3644072732c363d072712c3635c726f2c362e0726d2c36264726b2c361f072692c3618072672c3611072652c360a072632c3603072612c35fc0725f2c35f50725d2c35ee0725b2c35e7472592c35e0072572c35d9072552c)
  (.lf 0))) (.nd (.nd (.lf
  0x2a0b40023812a0b800237f2a0bc00237d2a0c000237b2a0c40023792a0c80023772a0cc0023752a0d00023732a0d40023712a0d800236f2a0dc00236d2a0e000236b2a0e40023692a0e80023672a0ec0023652a0f00023632a0f40023612bfd800235f2bfdc00235d2bfe000235b2bfe40023592bfe80023572bfec0023552bff00023532bff40023512bff800234f2bffc00234d2c00000234b2c0040023492c0080023472c00c0023452c0100023432c0140023412c01800233f2c01c00233d2c02000233b2c0240023392c0280023372c02c0023352c0300023332c0340023312c03800232f2c03c00232d2c04000232b2c0440023292c0480023272c04c0023252c0500023232c0540023212d5e800231f2d5ec00231d2d5f000231b2d5f40023192d5f80023172d5fc0023152d6000023132d6040023112d60800230f2d60c00230d2d61000230b2d6140023092d6180023072d61c0023052d620002303)
  (.lf 0)) (.nd (.lf
  0x7075ce4bdd070748e4bbd07072ce4b9d070718e4b7d070704e4b5d0706f0e4b3d0706dce4b1d0706c4e4afd0706b4e4add07069ce4abd070688e4a9d070674e4a7d070660e4a5d070650e4a3d070638e4a1d070628e49fd070614e49dd070604e49bd0705ece499d0705dce497d0705c8e495d0704e8e493d07048ce491d07047ce48fd070468e48dd070454e48bd070440e489d070430e487d07041ce485d070278e483d070264e4811071678e47ecc71680e47ccc71688e47acc71704e478cc7170ce476cc71714e474cc7171ce472cc71724e470cc7172ce46ecc71734e46ccc7173ce46acc71744e468cc7174ce466cc71754e464cc7175ce462cc71764e460cc7176ce45ecc71774e45ccc7177ce45acc71784e458cc7178ce456cc71794e454cc7179ce452cc717a4e450cc717ace44ecc717b4e44ccc717bce44acc717c4e448cc717cce446cc717d4e444cc717dce442cc72030e47dd072018e47bd0)
  (.lf 0)))

def shaWireTree168 : BTree :=
  .nd (.nd (.nd (.lf
  0x36fc4817f2c36fb0817d2c36f9c817b2c36f8881792c36eb481772c36e5481752c36e4c81732c36e2481712c36e10816f2c36dfc816d2c36dd0816b2c36d9c81692c36d2481672c36d1881652c36cf881632c36ce481612c36cd0815f2c36cac815d2c36c28815b2c36c1c81592c36c0881572c36bec81552c36bdc81532c36bc481512c36ba4814f2c367a8814d2c35b7c814b2c35ae881492c35a5c81472c359d881452c3595481432c358e88140cc3905c857f2c38fd0857d2c38f68857b2c38ed885792c38e6085772c38da885752c38d3c85732c38c9485712c38c20856f2c38b70856d2c38b28856b2c38a8485692c38a4485672c389d485652c3899085632c388bc85612c38930855f2c38774855d2c3852c855b2c3846085592c3840885572c3834885552c382f485532c3824c85512c381dc854f2c38128854d2c380c0854b2c3800485492c37fa885472c37f1485452c37e8885432c37dc88540cc)
  (.lf
  0x2daec608ccc2daf4608acc2dafc6088cc2db046086cc2db0c6084cc2db146082cc2e8d860bdd02e87460bbd02e80460b9d02e78c60b7d02e71060b5d02e69c60b3d02e62c60b1d02e5bc60afd02e55060add02e4e460abd02e46c60a9d02e3f060a7d02e37860a5d02e30060a3d02e28860a1d02e218609fd02e1ac609dd02e138609bd02e0c86099d02e0546097d02dfe06095d02df706093d02df046091d02de90608fd02de20608dd02ddac608bd02dd3c6089d02dcc86087d02dc486085d02dbc86083d02db1c6081101ceb4607ecc1cebc607ccc1cec4607acc1cf406078cc1cf486076cc1cf506074cc1cf586072cc1cf606070cc1cf68606ecc1cf70606ccc1cf78606acc1cf806068cc1cf886066cc1cf906064cc1cf986062cc1cfa06060cc1cfa8605ecc1cfb0605ccc1cfb8605acc1cfc06058cc1cfc86056cc1cfd06054cc1cfd86052cc1cfe06050cc1cfe8604ecc1cff0604ccc1cff8604acc))
  (.nd (.lf
  0x17a9000350117a940034ff17a980034fd17a9c0034fb17aa00034f917aa40034f717aa80034f517aac0034f317ab00034f117ab40034ef17ab80034ed17abc0034eb17ac00034e917ac40034e717ac80034e517acc0034e317ad00034e1190440034df190480034dd1904c0034db190500034d9190540034d7190580034d51905c0034d3190600034d1190640034cf190680034cd1906c0034cb190700034c9190740034c7190780034c51907c0034c3190800034c1190840034bf190880034bd1908c0034bb190900034b9190940034b7190980034b51909c0034b3190a00034b1190a40034af190a80034ad190ac0034ab190b00034a9190b40034a7190b80034a5190bc0034a3190c00034a12108000349f2108400349d2108800349b2108c0034992109000349721094003495210980034932109c003491210a000348f210a400348d210a800348b210ac003489210b0003487210b4003485210b8003483)
  (.lf 0))) (.nd (.nd (.lf
  0x339606f0214332286ffc78332246ffcb43322c6ffc30332146ffa78332106ffab4332186ffa30332006ff878331fc6ff8b4332046ff830331ec6ff678331e86ff6b4331f06ff630331d86ff478331d46ff4b4331dc6ff430331c46ff278331c06ff2b4331c86ff230331b06ff078331ac6ff0b4331b46ff0303319c6fee78331986feeb4331a06fee30331886fec78331846fecb43318c6fec30331746fea78331706feab4331786fea30331606fe8783315c6fe8b4331646fe8303314c6fe678331486fe6b4331506fe630331386fe478331346fe4b43313c6fe430331246fe278331206fe2b4331286fe230331106fe0783310c6fe0b4331146fe030330fc6fde78330f86fdeb4331006fde30330e86fdc78330e46fdcb4330ec6fdc30330d46fda78330d06fdab4330d86fda30330c06fd878330bc6fd8b4330c46fd830330ac6fd678330a86fd6b4330b06fd630330986fd478330946fd4b43309c6fd430)
  (.lf 0)) (.nd (.lf
  0x315d0006a73315d8006a71315e0006a6f315e8006a6d315f0006a6b315f8006a6931600006a6731608006a6531610006a6331618006a6133440006a5f33448006a5d33450006a5b33458006a5933460006a5733468006a5533470006a5333478006a5133480006a4f33488006a4d33490006a4b33498006a49334a0006a47334a8006a45334b0006a43334b8006a41334c0006a3f334c8006a3d334d0006a3b334d8006a39334e0006a37334e8006a35334f0006a33334f8006a3133500006a2f33508006a2d33510006a2b33518006a2933520006a2733528006a2533530006a2333538006a2135404006a1f3540c006a1d35414006a1b3541c006a1935424006a173542c006a1535434006a133543c006a1135444006a0f3544c006a0d35454006a0b3545c006a0935464006a073546c006a0535474006a033547c006a01354840069ff3548c0069fd354940069fb3549c0069f9354a40069f7354ac0069f5)
  (.lf 0)))

def shaWireTree169 : BTree :=
  .nd (.nd (.nd (.lf
  0x83228ffceb483720ffce3083218ffcc78831f8ffccb48321cffcc30831e8ffca78831ecffcab4831f0ffca30831a4ffc878831b0ffc8b4831e0ffc83082a4cffc67883198ffc6b48319cffc630823a4ffc47882a40ffc4b482a44ffc43082398ffc27882394ffc2b48239cffc23003cf8157c7803d74157cb403d78157c3003c6c157a7803cec157ab403cf0157a3003bdc15787803c601578b403c6415783003b5c15767803bd01576b403bd415763003adc15747803b501574b403b5415743003a6015727803ad01572b403ad4157230039d015707803a541570b403a5815703003950156e78039c4156eb4039c8156e30038d4156c7803944156cb403948156c3003848156a78038c8156ab4038cc156a30037b81568780383c1568b4038401568300373c156678037ac1566b4037b0156630036b0156478037301564b40373415643003624156278036a41562b4036a815623003594156078036181560b4)
  (.lf 0)) (.nd (.lf
  0x3522c73dd2c3521873db2c3520473d92c351f073d72c351dc73d52c351c873d32c351b473d12c351a073cf2c3518c73cd2c3517873cb2c3516473c92c3515073c72c3513c73c52c3512873c32c3512473c0cc372f077ff2c372e077fd2c372cc77fb2c372b877f92c372a077f72c3729877f52c3727877f32c3726877f12c3725477ef2c3723877ed2c3723c77eb2c3721477e92c3720477e72c371f077e52c371d877e32c371c477e12c371dc77df2c3719c77dd2c3718477db2c3717077d92c3715c77d72c3714877d52c3713c77d32c3714077d12c3710c77cf2c370f877cd2c371a877cb2c370d477c92c370c077c72c370ac77c52c3709877c32c36f7877c0cc392907bff2c3927c7bfd2c392687bfb2c392587bf92c392407bf72c392307bf52c392347bf32c392087bf12c391fc7bef2c391e07bed2c391c87beb2c391b87be92c391a47be72c3918c7be52c391787be32c391647be12c3914c7bdf2c)
  (.lf 0))) (.nd (.nd (.lf
  0x6306cc47c786307cc47c3063060c47ab463054c47a7863064c47a3063038c478b46303cc4787863040c478306302cc476b463028c4767863030c4763063010c474b46301cc4747863020c4743063004c472b462ffcc4727863008c4723062fc0c470b462fbcc4707862fc4c4703062fa8c46eb462f40c46e7862facc46e3062f28c46cb462f2cc46c7862f30c46c3062f14c46ab462f18c46a7862f1cc46a3062f04c468b462ef0c4687862f08c4683062ee4c466b462ee0c4667862ee8c4663062eccc464b462ed4c4647862ed8c4643062ebcc462b462ec0c4627862ec4c4623062ea8c460b462eacc4607862eb0c4603062e88c45eb462e8cc45e7862e90c45e3062e74c45cb462e7cc45c7862e80c45c3062e64c45ab462e58c45a7862e68c45a3062e4cc458b462e48c4587862e50c4583062e34c456b462e2cc4567862e38c4563062e18c454b462e20c4547862e24c4543062df4c452b462df8c45278)
  (.lf 0)) (.nd (.lf
  0x454388ec6cc452c08ec4cc452ac8ec2cc45d7c8efdd045d648efbd045d508ef9d045d388ef7d045d208ef5d045d108ef3d045cf88ef1d045ce08eefd045ccc8eedd045cb88eebd045ca08ee9d045c888ee7d045b288ee5d045b148ee3d045b008ee1d045aec8edfd045ad88eddd045ac88edbd045a808ed9d045a348ed7d0459508ed5d0459188ed3d0459048ed1d0458e48ecfd0458748ecdd0457c88ecbd0454688ec9d0454488ec7d0453b48ec5d0453a08ec3d0453388ec110443f88ffecc4421c8ffccc4440c8ffacc442308ff8cc441448ff6cc441008ff4cc440088ff2cc43f288ff0cc43ee88feecc43e308feccc43dcc8feacc43d2c8fe8cc43b608fe6cc444148fe4cc442388fe2cc4414c8fe0cc4418c8fdecc43fec8fdccc43f648fdacc43f688fd8cc440548fd6cc43dc48fd4cc444e48fd2cc442408fd0cc441548fcecc441148fcccc43ff48fcacc43f348fc8cc43ef48fc6cc43e3c8fc4cc)
  (.lf 0)))

def shaWireTree170 : BTree :=
  .nd (.nd (.nd (.lf
  0x5d388c94c785d3a4c94cb45d3bcc94c305d308c94a785d37cc94ab45d380c94a305d2ccc948785d2e8c948b45d2ecc948305d2c0c946785d2bcc946b45d2c4c946305d1e8c944785d240c944b45d244c944305c464c942785d1c8c942b45d1ccc942305dfb0c9bc785df24c9bcb45dfb4c9bc305df14c9ba785df18c9bab45df1cc9ba305df08c9b8785dd48c9b8b45df0cc9b8305dd3cc9b6785dc8cc9b6b45dd40c9b6305dc3cc9b4785dc24c9b4b45dc40c9b4305dc04c9b2785dc0cc9b2b45dc1cc9b2305daa4c9b0785da40c9b0b45dbfcc9b0305da34c9ae785da30c9aeb45da38c9ae305da24c9ac785d9f0c9acb45da28c9ac305d9e4c9aa785d970c9aab45d9e8c9aa305d93cc9a8785d8ecc9a8b45d968c9a8305d8b0c9a6785d8e0c9a6b45d8e4c9a6305d84cc9a4785d7f8c9a4b45d8a8c9a4305d7ecc9a2785d794c9a2b45d7f0c9a2305d780c9a0785d754c9a0b45d784c9a0305d748c99e78)
  (.lf 0)) (.nd (.lf
  0x3cffc901d2c3cfd0901b2c3cfa490192c3cf7890172c3cf4c90152c3cf2090132c3cef490112c3cec8900f2c3ce9c900d2c3ce70900b2c3ce4490092c3ce1890072c3cdec90052c3cdc090032c3cdb09000cc48b54943f2c48b2c943d2c48b00943b2c48ad494392c48aa894372c48a7c94352c48a5094332c48a2494312c489f8942f2c489cc942d2c489a0942b2c4897494292c4894894272c4891c94252c488f094232c488c494212c48898941f2c4886c941d2c48840941b2c4881494192c487e894172c487bc94152c4879094132c4876494112c48738940f2c4870c940d2c486dc940b2c486b094092c4868494072c4865894052c4862c94032c4861c9400cc4aea8983f2c4ae80983d2c4ae54983b2c4ae2898392c4adfc98372c4add098352c4ada498332c4ad7898312c4ad4c982f2c4ad20982d2c4acf4982b2c4acc898292c4ac9c98272c4ac7098252c4ac4498232c4ac1898212c4abec981f2c)
  (.lf 0))) (.nd (.nd (.lf
  0xf18c27f6780f18827f6b40f19027f6300f17827f4780f17427f4b40f17c27f4300f16427f2780f16027f2b40f16827f2300f15027f0780f14c27f0b40f15427f0300f13c27ee780f13827eeb40f14027ee300f12827ec780f12427ecb40f12c27ec300f11427ea780f11027eab40f11827ea300f10027e8780f0fc27e8b40f10427e8300f0ec27e6780f0e827e6b40f0f027e6300f0d827e4780f0d427e4b40f0dc27e4300f0c427e2780f0c027e2b40f0c827e2300f0b027e0780f0ac27e0b40f0b427e0300f09c27de780f09827deb40f0a027de300f08827dc780f08427dcb40f08c27dc300f07427da780f07027dab40f07827da300f06027d8780f05c27d8b40f06427d8300f04c27d6780f04827d6b40f05027d6300f03827d4780f03427d4b40f03c27d4300f02427d2780f02027d2b40f02827d2300f01027d0780f00c27d0b40f01427d0300effc27ce780eff827ceb40f00027ce300efe827cc78)
  (.lf 0)) (.nd (.lf
  0xe6d031abd00e65031a9d00e5d031a7d00e55431a5d00e4c831a3d00e43c31a1d00e3b0319fd00e320319dd00e2a4319bd00e2143199d00e1983197d00e1083195d00e08c3193d00dffc3191d00df80318fd00def0318dd00de70318bd00ddf43189d00dd783187d00dd003185d00dc8c3183d00dc4831811010490357ecc10424357ccc103a8357acc1032c3578cc1029c3576cc1021c3574cc101a03572cc101103570cc10094356ecc10004356ccc0ff84356acc0ff043568cc0fe843566cc0fe043564cc0fd883562cc0fcfc3560cc0fc6c355ecc0fbf0355ccc0fb60355acc0fae43558cc0fa583556cc0f9c83554cc0f94c3552cc0f8c03550cc0f830354ecc0f7b0354ccc0f730354acc0f6b03548cc0f6303546cc0f5b03544cc0f5303542cc10434357dd0103b8357bd01033c3579d0102ac3577d01022c3575d0101b03573d0101203571d0100a4356fd010014356dd00ff94356bd00ff143569d0)
  (.lf 0)))

def shaWireTree171 : BTree :=
  .nd (.nd (.nd (.lf
  0x59a44b7dc3059a28b7da7859a24b7dab459a2cb7da3059a10b7d87859a18b7d8b459a1cb7d83059a04b7d67859a00b7d6b459a08b7d630599f0b7d478599e8b7d4b4599f4b7d430599d4b7d278599d8b7d2b4599e0b7d230599c0b7d078599c8b7d0b4599ccb7d030599b4b7ce78599b0b7ceb4599b8b7ce30599a0b7cc785999cb7ccb4599a4b7cc3059984b7ca785998cb7cab459990b7ca305996cb7c87859970b7c8b45997cb7c83059960b7c6785995cb7c6b459964b7c63059948b7c4785994cb7c4b459950b7c430596c8b7c27859718b7c2b45993cb7c2305b9f8babc785b9fcbabcb45ba00babc305b9e8baba785b9e4babab45b9f0baba305b9d8bab8785b9d4bab8b45b9dcbab8305b9c4bab6785b9c0bab6b45b9c8bab6305b9b0bab4785b9acbab4b45b9b4bab4305b99cbab2785b998bab2b45b9a0bab2305b988bab0785b98cbab0b45b990bab0305b978baae785b970baaeb45b97cbaae30)
  (.lf 0)) (.nd (.lf
  0x341d06ee52c341606ee32c340ec6ee12c340786edf2c340006edd2c33f846edb2c33f0c6ed92c33e906ed72c33e146ed52c33d9c6ed32c33d246ed12c33ca86ecf2c33c246ecd2c33b9c6ecb2c33b186ec92c33a8c6ec72c339f46ec52c339506ec32c339106ec0cc366ec72ff2c3669072fd2c3663072fb2c365c872f92c3655472f72c364d072f52c3647472f32c363d872f12c3637472ef2c362f872ed2c3628c72eb2c361f872e92c3618872e72c3611872e52c360a872e32c3603872e12c35fc872df2c35f5872dd2c35ee872db2c35e7c72d92c35e0872d72c35d9872d52c35d2472d32c35cac72d12c35c3072cf2c35bb872cd2c35b3472cb2c35aa872c92c35a2472c72c359a472c52c3591472c32c358d472c0cc3903876ff2c3885c76fd2c38f3c76fb2c3883476f92c38e3076f72c3880c76f52c38d0c76f32c387e476f12c38bdc76ef2c3875876ed2c38ae476eb2c3871476e92c38a1c76e72c)
  (.lf 0))) (.nd (.nd (.lf
  0x233684802301aa784cbcb41aa744cbc781aa7c4cbc301aa644cbab41aa604cba781aa684cba301aa504cb8b41aa4c4cb8781aa544cb8301aa3c4cb6b41aa384cb6781aa404cb6301aa284cb4b41aa244cb4781aa2c4cb4301aa144cb2b41aa104cb2781aa184cb2301aa004cb0b41a9fc4cb0781aa044cb0301a9ec4caeb41a9e84cae781a9f04cae301a9d84cacb41a9d44cac781a9dc4cac301a9c44caab41a9c04caa781a9c84caa301a9b04ca8b41a9ac4ca8781a9b44ca8301a99c4ca6b41a9984ca6781a9a04ca6301a9884ca4b41a9844ca4781a98c4ca4301a9744ca2b41a9704ca2781a9784ca2301a9604ca0b41a95c4ca0781a9644ca0301a94c4c9eb41a9484c9e781a9504c9e301a9384c9cb41a9344c9c781a93c4c9c301a9244c9ab41a9204c9a781a9284c9a301a9104c98b41a90c4c98781a9144c98301a8fc4c96b41a8f84c96781a9004c96301a8e84c94b41a8e44c94781a8ec4c9430)
  (.lf 0)) (.nd (.lf
  0x42b40bc9d0042a00bc7d00428c0bc5d0042780bc3d0042600bc11005ed00ebecc05ed80ebccc05ee00ebacc05ee80eb8cc05ef00eb6cc05ef80eb4cc05f000eb2cc05f080eb0cc05f100eaecc05f180eaccc05f200eaacc05f280ea8cc05f300ea6cc05f380ea4cc05f400ea2cc05f480ea0cc05f500e9ecc05f580e9ccc05f600e9acc05f680e98cc05f700e96cc05f780e94cc05f800e92cc05f880e90cc05f900e8ecc05f980e8ccc05fa00e8acc05fa80e88cc05fb00e86cc05fb80e84cc05fc00e82cc062240ebdd0062100ebbd0061fc0eb9d0061e80eb7d0061d40eb5d0061c00eb3d0061ac0eb1d0061980eafd0061840eadd0061700eabd00615c0ea9d0061480ea7d0061340ea5d0061200ea3d00610c0ea1d0060f80e9fd0060e40e9dd0060d00e9bd0060bc0e99d0060a80e97d0060940e95d0060800e93d00606c0e91d0060580e8fd0060440e8dd0060300e8bd00601c0e89d0060080e87d0)
  (.lf 0)))

def shaWireTree172 : BTree :=
  .nd (.nd (.nd (.lf
  0x396d00016cb396d40016c9396d80016c7396dc0016c5396e00016c3396e40016c1396e80016bf396ec0016bd396f00016bb396f40016b93b5f80016b73b5fc0016b53b6000016b33b6040016b13b6080016af3b60c0016ad3b6100016ab3b6140016a93b6180016a73b61c0016a53b6200016a33b6240016a13b62800169f3b62c00169d3b63000169b3b6340016993b6380016973b63c0016953b6400016933b6440016913b64800168f3b64c00168d3b9b000168b3b9b40016893b9b80016873b9bc0016853b9c00016833b9c40016813b9c800167f3b9cc00167d3b9d000167b3b9d40016793b9d80016773b9dc0016753b9e00016733b9e40016713b9e800166f3b9ec00166d3b9f000166b3b9f40016693b9f80016673b9fc0016653ba000016633ba0400166140f3800165f40f3c00165d40f4000165b40f4400165940f4800165740f4c00165540f5000165340f5400165140f5800164f40f5c00164d)
  (.lf 0)) (.nd (.lf
  0x30eac6ba0b430e846b9eb430e5c6b9cb430e306b9ab430e086b98b430de06b96b430dbc6b94b430d986b92b430bf46b90b430bd06b8eb430bac6b8cb430b886b8ab430b646b88b430b406b86b430b1c6b84b430af86b82b430a686b80b42f1b46bbe782f1b86bbc782f1bc6bba782f1c06bb8782f1c46bb6782f10c6bb4782f0cc6bb2782f0406bb0782f0446bae782f0486bac782f04c6baa782f0506ba8782f3206ba6782ef886ba4782ef546ba2782ef586ba0782ef5c6b9e782ef606b9c782f27c6b9a782eb2c6b98782eb006b96782ead86b94782eadc6b92782eae06b90782eae46b8e782eae86b8c782eaec6b8a782e9706b88782e9486b86782e94c6b84782e9506b82782e9546b8078311d06bbe30311d46bbc30311f86bba30311686bb830312686bb630311006bb430310a86bb230310506bb03030ff86bae3030fb46bac3030f7c6baa3030f506ba83030f286ba63030f006ba43030ed86ba230)
  (.lf 0))) (.nd (.nd (.lf
  0x238544b161e238dc4b16b4238e04b1614237c04b141e238484b14b42384c4b1414237344b11f4237b84b12a0236a84b101e2372c4b10b4237304b1014236184b0e1e2369c4b0eb4236a04b0e14235804b0c1e2360c4b0cb4236104b0c14234e84b0940235784b0aa0234504b0740234e44b08a0233b04b05f42344c4b06a0233a84b04b4233ac4b0414229c04bfc78229bc4bfcb4229c44bfc30229ac4bfa78229a84bfab4229b04bfa30229984bf878229944bf8b42299c4bf830229844bf678229804bf6b4229884bf630229704bf4782296c4bf4b4229744bf4302295c4bf278229584bf2b4229604bf230229484bf078229444bf0b42294c4bf030229344bee78229304beeb4229384bee30229204bec782291c4becb4229244bec302290c4bea78229084beab4229104bea30228f84be878228f44be8b4228fc4be830228e44be678228e04be6b4228e84be630228d04be478228cc4be4b4228d44be430)
  (.lf 0)) (.nd (.lf
  0x52b70b5a3d052b60b5a1d052b20b59fd052b0cb59dd052ad4b59bd052ac0b599d052ab0b597d052a9cb595d052a74b593d052a0cb591d0529f8b58fd0529e8b58dd0529d4b58bd0529c0b589d0529a0b587d0519c8b585d051930b583d0518dcb5811054c68b97ecc54c64b97ccc548b4b97acc54890b978cc548b8b976cc54824b974cc547ccb972cc547bcb970cc54778b96ecc546fcb96ccc546b4b96acc546a4b968cc54628b966cc545e4b964cc545a8b962cc54c60b960cc54534b95ecc544fcb95ccc544c8b95acc54490b958cc54468b956cc54418b954cc543f0b952cc543a4b950cc54350b94ecc53f54b94ccc53e40b94acc53e68b948cc53d4cb946cc53d1cb944cc53c58b942cc55160b97dd055118b97bd0550d4b979d055098b977d054fd4b975d054fc4b973d054f84b971d054f2cb96fd054f1cb96dd054ef8b96bd054ec0b969d054e94b967d054e6cb965d054e2cb963d054e00b961d0)
  (.lf 0)))

def shaWireTree173 : BTree :=
  .nd (.nd (.nd (.lf
  0x6fb00debab46fb08deba306faf4deb8786faf0deb8b46faf8deb8306fad4deb6786fae0deb6b46fae4deb6306fac4deb4786fac8deb4b46faccdeb4306fab4deb2786fab8deb2b46fabcdeb2306faa8deb0786faa0deb0b46faacdeb0306fa94deae786fa8cdeaeb46fa98deae306fa80deac786fa7cdeacb46fa84deac306fa64deaa786fa6cdeaab46fa70deaa306fa58dea8786fa50dea8b46fa5cdea8306fa44dea6786fa40dea6b46fa48dea6306fa28dea4786fa30dea4b46fa34dea4306fa10dea2786fa1cdea2b46fa20dea2306fa04dea0786f9fcdea0b46fa08dea0306f9f0de9e786f9ecde9eb46f9f4de9e306f9d4de9c786f9e0de9cb46f9e4de9c306f9c4de9a786f9c0de9ab46f9ccde9a306f9b0de98786f9b4de98b46f9b8de98306f9a0de96786f9a4de96b46f9a8de96306f988de94786f990de94b46f994de94306f974de92786f978de92b46f97cde92306f960de90786f968de90b4)
  (.lf 0)) (.nd (.lf
  0x34cb40059fd34cbc0059fb351140059f934cc40059f7350e00059f534ccc0059f334cd40059f134cdc0059ef34ce40059ed34cec0059eb34cf40059e934cfc0059e734d040059e534d080059e33511c0059e136dec0059df36db40059dd370300059db370380059d9370400059d7370480059d536ef80059d336f000059d136f080059cf36f100059cd36f180059cb36f200059c936df00059c7370500059c5370580059c3370600059c1370680059bf36f280059bd36f300059bb36f380059b936f400059b736f480059b5370700059b3370780059b1370800059af370880059ad36f500059ab36f580059a936f600059a736f680059a536f700059a336f740059a138b4400599f38a9c00599d3907c00599b38ff400599938f8400599738ef400599538e7c00599338dc800599138d5800598f38cb000598d38c3c00598b38b9000598938b480059873908400598538ffc00598338f8800598138efc00597f)
  (.lf 0))) (.nd (.nd (.lf
  0x3c6c8889eb43c6c4889e783c6cc889e303c69c889cb43c698889c783c6a0889c303c670889ab43c66c889a783c674889a303c6448898b43c6408898783c6488898303c6188896b43c6148896783c61c8896303c5ec8894b43c5e88894783c5f08894303c5c08892b43c5bc8892783c5c48892303c5948890b43c5908890783c5988890303c568888eb43c564888e783c56c888e303c53c888cb43c538888c783c540888c303c510888ab43c50c888a783c514888a303c4e48888b43c4e08888783c4e88888303c4b88886b43c4b48886783c4bc8886303c48c8884b43c4888884783c4908884303c4608882b43c45c8882783c46488823024380887cb42430c887c7824384887c3024300887ab424284887a7824304887a30242788878b4241fc8878782427c887830241f08876b42416c887678241f4887630241608874b4240d888747824164887430240cc8872b424048887278240d08872302403c8870b4)
  (.lf 0)) (.nd (.lf
  0x1b04c4e45d01b0084e43d01afdc4e4110258284efecc257f44efccc257b44efacc257784ef8cc257404ef6cc257004ef4cc256c44ef2cc2568c4ef0cc256544eeecc2561c4eeccc255e44eeacc255ac4ee8cc2556c4ee6cc255284ee4cc254ec4ee2cc254b44ee0cc254744edecc254384edccc253f84edacc253bc4ed8cc253844ed6cc2534c4ed4cc253144ed2cc252d44ed0cc252904ececc2524c4ecccc252104ecacc251d84ec8cc251984ec6cc251684ec4cc2513c4ec2cc258104efdd0257d84efbd0257984ef9d02575c4ef7d0257244ef5d0256e44ef3d0256a84ef1d0256704eefd0256384eedd0256004eebd0255c84ee9d0255904ee7d0255504ee5d02550c4ee3d0254d04ee1d0254984edfd0254584eddd02541c4edbd0253dc4ed9d0253a04ed7d0253684ed5d0253304ed3d0252f84ed1d0252b84ecfd0252744ecdd0252304ecbd0251f44ec9d0251bc4ec7d02517c4ec5d02514c4ec3d0)
  (.lf 0)))

def shaWireTree174 : BTree :=
  .nd (.nd (.nd (.lf
  0x2ce1c6dac302ce006daa782cdfc6daab42ce046daa302cdec6da8782cdf06da8b42cdf46da8302cdd86da6782cddc6da6b42cde06da6302cdc46da4782cdc86da4b42cdcc6da4302cdb46da2782cdb06da2b42cdb86da2302cda06da0782cd506da0b42cda46da0302cd406d9e782cd446d9eb42cd486d9e302cd286d9c782cd2c6d9cb42cd306d9c302cd186d9a782cd1c6d9ab42cd206d9a302cd046d98782cd086d98b42cd0c6d98302ccf46d96782ccf06d96b42ccf86d96302cca06d94782cce06d94b42cce46d94302cc506d92782cc946d92b42cc986d92302cc446d90782cc406d90b42cc486d90302cc306d8e782cc2c6d8eb42cc346d8e302cc206d8c782cc1c6d8cb42cc246d8c302cc0c6d8a782cc046d8ab42cc106d8a302cbf86d88782cbf46d88b42cbfc6d88302cbe46d86782cbe06d86b42cbe86d86302ca646d84782cbd46d84b42cbd86d84302ca586d82782ca506d82b42ca5c6d8230)
  (.lf 0)) (.nd (.lf
  0x72ce00039fd72cac0039fb72ce40039f972cb40039f772d080039f572c5c0039f372d100039f172c200039ef72bf40039ed72bcc0039eb72b9c0039e972b6c0039e772b300039e572b000039e372ad40039e1737740039df735d00039dd735a40039db735680039d9735780039d7735040039d5734d80039d3734a40039d1734780039cf734640039cd7389c0039cb738a40039c9738ac0039c7738b40039c5738bc0039c3738c40039c1738cc0039bf738d40039bd738dc0039bb738e40039b9738ec0039b7738f40039b5738fc0039b3739040039b1739080039af739100039ad739180039ab7391c0039a9739240039a7737880039a5737900039a3737980039a17423c00399f7418000399d7416800399b74144003999740b80039977414c00399574094003993741080039917405400398f7411000398d7442000398b74424003989743b4003987743bc00398574368003983742640039817426c00397f)
  (.lf 0))) (.nd (.nd (.lf
  0x768025e3000750025cb40074c025c7800754025c300073c025ab400738025a7800740025a30007280258b4007240258780072c025830007140256b40071002567800718025630007000254b4006fc02547800704025430006ec0252b4006e8025278006f0025230006d80250b4006d4025078006dc025030006c4024eb4006c0024e78006c8024e30006b0024cb4006ac024c78006b4024c300069c024ab400698024a78006a0024a30006880248b4006840248780068c024830006740246b40067002467800678024630006600244b40065c024478006640244300064c0242b40064802427800650024230015b802fcb4015ec02fc78015f002fc300157c02fab4015ac02fa78015b002fa300154402f8b40157002f8780157402f8300150c02f6b40153802f6780153c02f630014d402f4b40150002f4780150402f4300149402f2b4014c802f278014cc02f2300145802f0b40148802f0780148c02f030)
  (.lf 0)) (.nd (.lf
  0x673eccec11068fa0cf3d4068ce4cf39f468c78cf374068b20cf334068870cf2d406884ccf29f4687d4cf2740684b4cf1d4068390cf19f46834ccf17f4682a8cf15f467b20cf134067754cf0d4067694cf09f467634cf074067440cf034066dcccffecc66d90cffccc66ea0cffacc66d94cff8cc66ea4cff6cc66d34cff4cc66ceccff2cc66e00cff0cc66c7ccfeecc66e04cfeccc6673ccfeacc666e4cfe8cc6666ccfe6cc66dc8cfe4cc66d8ccfe2cc66e9ccfe0cc66d28cfdecc66ce4cfdccc66cb0cfdacc66c70cfd8cc66df8cfd6cc66734cfd4cc66dd0cfd2cc66d88cfd0cc66e98cfcecc66d30cfcccc66cf0cfcacc66caccfc8cc66c78cfc6cc66e64cfc4cc66750cfc2cc67080cffdd06706ccffbd067058cff9d067044cff7d067030cff5d06701ccff3d067008cff1d066ff4cfefd066fe0cfedd066fcccfebd066fb8cfe9d066fa4cfe7d066f90cfe5d066f7ccfe3d066f68cfe1d066f54cfdfd0)
  (.lf 0)))

def shaWireTree175 : BTree :=
  .nd (.nd (.nd (.lf
  0x478e093f478478ec93f4b4478f093f430478d493f278478d093f2b4478d893f230478bc93f078478b893f0b4478c093f030478a493ee78478a093eeb4478a893ee304780493ec784780093ecb44780893ec30477e093ea78477ec93eab4477f093ea30477d493e878477d093e8b4477d893e830477bc93e678477b893e6b4477c093e6304774893e478477ac93e4b4477b093e4304773c93e2784773893e2b44774093e2304772c93e0784772893e0b44773093e0304765c93de784766093deb44766493de304765093dc784764c93dcb44765493dc304763c93da784763893dab44764093da304762893d8784762c93d8b44763093d830475b893d678475c893d6b4475cc93d6304759c93d4784757c93d4b4475a093d4304757093d278474d093d2b44757493d230474bc93d078474b093d0b4474c093d0304745093ce78474a493ceb4474a893ce304743c93cc784743893ccb44744093cc304742c93ca78)
  (.lf 0)) (.nd (.lf
  0x316c46a932c316b06a912c3169c6a8f2c316886a8d2c316746a8b2c316606a892c3164c6a872c316386a852c316246a832c316206a80cc3379c6ebf2c337886ebd2c337746ebb2c337606eb92c3374c6eb72c337386eb52c337246eb32c337106eb12c336fc6eaf2c336e86ead2c336d46eab2c336c06ea92c336ac6ea72c336986ea52c336846ea32c336706ea12c3365c6e9f2c336486e9d2c336346e9b2c336206e992c3360c6e972c335f86e952c335e46e932c335d06e912c335bc6e8f2c335a86e8d2c335946e8b2c335806e892c3356c6e872c335586e852c335446e832c335406e80cc3576072bf2c3574c72bd2c3573872bb2c3572472b92c3571072b72c356fc72b52c356e872b32c356d472b12c356c072af2c356ac72ad2c3569872ab2c3568472a92c3567072a72c3565c72a52c3564872a32c3563472a12c35620729f2c3560c729d2c355f8729b2c355e472992c355d072972c355bc72952c)
  (.lf 0))) (.nd (.nd (.lf
  0x52b38aa205052b28aa1e5052ae0aa1c5052ae4aa1a5052c78aa185052ae8aa165052a84aa145052a18aa125052a1caa105052a4caa0e5052a20aa0c5052a24aa0a50529acaa085051cf8aa0650519d0aa045051940aa025051904aa005052eacae3e7852e8cae3c7852da8ae3a7852d84ae387852d58ae367852d5cae347852ce4ae327852ce8ae307852c64ae2e7852c00ae2c7852becae2a7852bf0ae287852c34ae267852b84ae247852c98ae227852b40ae207852b30ae1e7852af8ae1c7852afcae1a7852c80ae187852b00ae167852a8cae147852a38ae127852a3cae107852a54ae0e7852a40ae0c7852a44ae0a78529b4ae087851d00ae0678519d8ae047851948ae02785190cae00785496cae3e5054930ae3c5054910ae3a50548f0ae3850548d4ae365054830ae3450547e0ae325054790ae305054754ae2e5054708ae2c50546c0ae2a5054678ae285054634ae265054610ae2450545b4ae2250)
  (.lf 0)) (.nd (.lf
  0x58c24b884cc59dc0b882cc59db8b8bdd059da0b8bbd059d90b8b9d059d7cb8b7d059d68b8b5d059d54b8b3d059d40b8b1d059d2cb8afd059d1cb8add059d08b8abd059cf8b8a9d059ce4b8a7d059cd4b8a5d059cc0b8a3d059cb0b8a1d059c9cb89fd059c8cb89dd059c78b89bd059c68b899d059c54b897d059c44b895d059c30b893d059c20b891d059c0cb88fd059bfcb88dd059be8b88bd059bd8b889d059bc0b887d059bb0b885d059ba0b883d059b90b881105c130b87ecc5c138b87ccc5c140b87acc5c1bcb878cc5c1c4b876cc5c1ccb874cc5c1d4b872cc5c1dcb870cc5c1e4b86ecc5c1ecb86ccc5c1f4b86acc5c1fcb868cc5c204b866cc5c20cb864cc5c214b862cc5c21cb860cc5c224b85ecc5c22cb85ccc5c234b85acc5c23cb858cc5c244b856cc5c24cb854cc5c254b852cc5c25cb850cc5c264b84ecc5c26cb84ccc5c274b84acc5c27cb848cc5c284b846cc5c28cb844cc5c294b842cc)
  (.lf 0)))

def shaWireTree176 : BTree :=
  .nd (.nd (.nd (.lf
  0x598c8c17f2c598fcc17d2c59884c17b2c597b0c1792c597b8c1772c5977cc1752c59834c1732c59728c1712c596e8c16f2c59668c16d2c5966cc16b2c59634c1692c59610c1672c595e4c1652c595bcc1632c59598c1612c5954cc15f2c59564c15d2c59508c15b2c594f4c1592c594bcc1572c59494c1552c594d4c1532c59464c1512c5942cc14f2c59440c14d2c593f4c14b2c593d0c1492c58384c1472c58318c1452c58298c1432c581b8c140cc5bf3cc57f2c5bee0c57d2c5bda4c57b2c5bd6cc5792c5bd30c5772c5bcc0c5752c5be3cc5732c5bdf0c5712c5bc64c56f2c5bbf0c56d2c5bbdcc56b2c5bc14c5692c5bba8c5672c5bb8cc5652c5bb5cc5632c5bb30c5612c5bb00c55f2c5bae0c55d2c5baa4c55b2c5ba7cc5592c5bac0c5572c5ba48c5552c5ba20c5532c5a790c5512c5a778c54f2c5a764c54d2c5a864c54b2c5a720c5492c5a5fcc5472c5a350c5452c5a344c5432c59facc540cc)
  (.lf
  0x1e3987449d01e3847447d01e3707445d01e35c7443d01e34474411037d70743ecc37d48743ccc37d1c743acc37cf07438cc37cc47436cc37c987434cc37c6c7432cc37c407430cc37c14742ecc37be8742ccc37bbc742acc37b907428cc37b647426cc37b387424cc37b0c7422cc37ae07420cc37ab4741ecc37a88741ccc37a5c741acc37a307418cc37a047416cc379d87414cc379ac7412cc379807410cc37954740ecc37924740ccc378f4740acc378c47408cc378987406cc3786c7404cc378407402cc37d58743dd037d2c743bd037d007439d037cd47437d037ca87435d037c7c7433d037c507431d037c24742fd037bf8742dd037bcc742bd037ba07429d037b747427d037b487425d037b1c7423d037af07421d037ac4741fd037a98741dd037a6c741bd037a407419d037a147417d0379e87415d0379bc7413d0379907411d037964740fd037938740dd037908740bd0378d87409d0378a87407d0))
  (.nd (.lf
  0x5ddc4002d015dec4002cff5de74002cfd5dbe0002cfb5db24002cf95dac4002cf75da70002cf55dcac002cf35d9a4002cf15d960002cef5d89c002ced5d8a0002ceb5d7e8002ce95d78c002ce75d738002ce55d6f8002ce35d67c002ce15f6fc002cdf5f6d4002cdd60558002cdb60510002cd95fffc002cd75ff1c002cd55ff4c002cd35ffc4002cd15ff84002ccf5fed8002ccd5fe08002ccb5fe3c002cc95feac002cc76055c002cc560514002cc360000002cc15ff20002cbf5ff50002cbd5ffc8002cbb5ff88002cb95fedc002cb75fe0c002cb55fe40002cb35feb0002cb15fe88002caf5fc70002cad5f7e8002cab5f7c0002ca95f814002ca75f774002ca55f74c002ca35f724002ca161aa0002c9f61a38002c9d62590002c9b62524002c99624d0002c9762400002c956226c002c9362344002c9162170002c8f620a0002c8d62008002c8b61efc002c8961eb4002c8762594002c8562528002c83)
  (.lf 0))) (.nd (.nd (.lf
  0x396147ab878396107ab8b4396187ab830396007ab678395fc7ab6b4396047ab630395e47ab478395e87ab4b4395ec7ab430395d07ab278395d87ab2b4395dc7ab230395c47ab078395c07ab0b4395c87ab030395b07aae78395ac7aaeb4395b47aae30395987aac783959c7aacb4395a07aac303958c7aaa78395847aaab4395907aaa30395747aa878395707aa8b4395787aa830395647aa6783955c7aa6b4395687aa630395507aa4783954c7aa4b4395547aa4303953c7aa278395387aa2b4395407aa230395287aa078395247aa0b43952c7aa030395147a9e78395107a9eb4395187a9e30395007a9c78394fc7a9cb4395047a9c30394ec7a9a78394e87a9ab4394f07a9a30394d47a9878394d87a98b4394dc7a9830394c07a9678394bc7a96b4394c87a9630394ac7a9478394a87a94b4394b47a94303949c7a9278394987a92b4394a07a9230394807a9078394887a90b43948c7a9030394747a8e78)
  (.lf 0)) (.nd (.lf
  0x7a1a00062737a0f40062717a0cc00626f7a4a800626d7a40400626b7a3c00062697a4fc0062677a3500062657a2bc0062637a2380062617bcb800625f7bcd400625d7bc3c00625b7bc400062597bc700062577bf980062557bf1c0062537bee40062517be9800624f7be4c00624d7be1800624b7bfe00062497bee80062477be9c0062457be500062437be1c0062417bd7000623f7bd0800623d7bf9c00623b7bcd80062397bc440062377bc480062357bc740062337bfa00062317bfe400622f7bf2000622d7beec00622b7bea00062297be540062277bfe80062257bd740062237bd100062217d33800621f7d31000621d7d26800621b7d2580062197d21c0062177d1e40062157d6540062137d6200062117d5f000620f7d69400620d7d46800620b7d6580062097d6240062077d5f40062057d6980062037d4700062017d3b80061ff7d36c0061fd7d33c0061fb7d3140061f97d26c0061f77d25c0061f5)
  (.lf 0)))

def shaWireTree177 : BTree :=
  .nd (.nd (.nd (.lf
  0xb7d429b4300b75429b2780b6d029b2b40b75829b2300b6c429b0780b65029b0b40b6c829b0300b64429ae780b5d029aeb40b64829ae300b5c429ac780b55429acb40b5c829ac300b54829aa780b4c829aab40b54c29aa300b4bc29a8780b43c29a8b40b4c029a8300b43029a6780b3b029a6b40b43429a6300b3a429a4780b32429a4b40b3a829a4300b31829a2780b29829a2b40b31c29a2300b28c29a0780b20c29a0b40b29029a0300b200299e780b17c299eb40b204299e300b170299c780b0fc299cb40b174299c300b0f0299a780b07c299ab40b0f4299a300b0702998780affc2998b40b0742998300aff02996780af7c2996b40aff42996300af702994780af002994b40af742994300aef42992780ae702992b40aef82992300ae642990780adf42990b40ae682990300ade8298e780ad64298eb40adec298e300ad58298c780ace8298cb40ad5c298c300acdc298a780ac58298ab40ace0298a30)
  (.lf 0)) (.nd (.lf
  0x7d94cf3dd2c7d93cf3db2c7d924f3d92c7d910f3d72c7d908f3d52c7d8f4f3d32c7d8d4f3d12c7daa4f3cf2c7d89cf3cd2c7cf88f3cb2c7cf70f3c92c7cf90f3c72c7cd2cf3c52c7cce8f3c32c7cc78f3c0cc7fd20f7ff2c7fd0cf7fd2c7fcf8f7fb2c7fce8f7f92c7fce0f7f72c7fcbcf7f52c7eeecf7f32c7eed4f7f12c7eebcf7ef2c7eeb4f7ed2c7ee94f7eb2c7ee7cf7e92c7ee68f7e72c7ee54f7e52c7ee8cf7e32c7ee34f7e12c7ee1cf7df2c7ee14f7dd2c7edfcf7db2c7ede4f7d92c7edb4f7d72c7eda4f7d52c7ed98f7d32c7ed74f7d12c7ed7cf7cf2c7ed50f7cd2c80d4cf7cb2c7ed30f7c92c7ed10f7c72c7eb88f7c52c7eb6cf7c32c7ea24f7c0cc81a4cfbff2c81a3cfbfd2c81a24fbfb2c81a10fbf92c819fcfbf72c819e8fbf52c819d4fbf32c81a50fbf12c819acfbef2c819b0fbed2c8198cfbeb2c81978fbe92c81960fbe72c8194cfbe52c81928fbe32c8192cfbe12c81900fbdf2c)
  (.lf 0))) (.nd (.nd (.lf
  0x68138d4a6306811cd4a4b468124d4a47868128d4a43068108d4a2b468110d4a27868114d4a230680f8d4a0b4680fcd4a07868100d4a030680e8d49eb4680e4d49e78680ecd49e30680d4d49cb4680d8d49c78680dcd49c30680c4d49ab4680c8d49a78680ccd49a30680b0d498b4680acd49878680b8d498306809cd496b4680a0d49678680a4d4963068084d494b46808cd4947868090d4943068074d492b468070d4927868078d4923068064d490b468060d4907868068d4903068050d48eb468048d48e7868054d48e306803cd48cb468038d48c7868040d48c3068024d48ab468028d48a786802cd48a3068014d488b468010d4887868018d4883067ff8d486b467ffcd4867868000d4863067fecd484b467fe4d4847867ff0d4843067e14d482b467fd8d4827867fdcd482306bb94d47cb46bb88d47c786bb98d47c306bb54d47ab46bb7cd47a786bb80d47a306bb3cd478b46bb40d478786bb44d47830)
  (.lf 0)) (.nd (.lf
  0x4d9889edfd04d8749eddd04d7f09edbd04d7d09ed9d04d7c09ed7d04d6649ed5d04d64c9ed3d04d6389ed1d04d6249ecfd04d5d89ecdd04d56c9ecbd04d5149ec9d04d3ec9ec7d04d3d89ec5d04d3c89ec3d04d2409ec1104e1589f3d404df749f37404dda09f31404dc8c9f2bf44db709f29f44db549f27404da109f21404d8cc9f19404d7209f15f44d6e09f13404d5b89f0d404d34c9f03404c2a09ffecc4c2289ffccc4c2949ffacc4c2a49ff8cc4c5249ff6cc4bffc9ff4cc4bf789ff2cc4bf8c9ff0cc4bf909feecc4bdfc9feccc4bc809feacc4bb149fe8cc4bb5c9fe6cc4c29c9fe4cc4c2249fe2cc4c1ec9fe0cc4c0149fdecc4bf889fdccc4bf489fdacc4befc9fd8cc4be049fd6cc4bc889fd4cc4c2989fd2cc4c2209fd0cc4c1d09fcecc4c0089fcccc4bf849fcacc4bf509fc8cc4bf049fc6cc4be0c9fc4cc4bc949fc2cc4cb009ffdd04caec9ffbd04cad89ff9d04cac49ff7d04cab09ff5d0)
  (.lf 0)))

def shaWireTree178 : BTree :=
  .nd (.nd (.nd (.lf
  0x6ab7ce172b46ab98e172306aaf8e170786aaf4e170b46aafce170306aae4e16e786aae8e16eb46aaece16e306a9b8e16c786aa94e16cb46aa98e16c306a9ace16a786a9a8e16ab46a9b0e16a306a944e168786a940e168b46a964e168306a8b8e166786a934e166b46a938e166306a894e164786a8a8e164b46a8b0e164306a85ce162786a888e162b46a88ce162306a834e160786a838e160b46a854e160306a820e15e786a828e15eb46a82ce15e306a7c8e15c786a800e15cb46a804e15c306a7b4e15a786a7bce15ab46a7c0e15a306a794e158786a778e158b46a798e158306a740e156786a76ce156b46a770e156306a6c8e154786a720e154b46a724e154306a4c4e152786a6bce152b46a6c0e152306a4b4e150786a4b8e150b46a4bce150306a170e14e786a4a8e14eb46a4ace14e3069fb0e14c786a164e14cb46a168e14c3069f84e14a7869fa4e14ab469fa8e14a3069f08e1487869f78e148b4)
  (.lf 0)) (.nd (.lf
  0x1c9c061c5001ca0061a5001ca406185001ca806165001cac06145001cb006125001cb406105001cb8060e5001cbc060c5001cc0060a5001cc406085001cc806065001ccc06045001cd006025001cd406005000d00023e7800d04023c7800d08023a7800d0c02387800d1002367800d1402347800d1802327800d1c02307800d20022e7800d24022c7800d28022a7800d2c02287800d3002267800d3402247800d3802227800d3c02207800d40021e7800d44021c7800d48021a7800d4c02187800d5002167800d5402147800d5802127800d5c02107800d60020e7800d64020c7800d68020a7800d6c02087800d7002067800d7402047800d7802027800d7c02007800d80023e5000d84023c5000d88023a5000d8c02385000d9002365000d9402345000d9802325000d9c02305000da0022e5000da4022c5000da8022a5000dac02285000db002265000db402245000db802225000dbc02205000dc0021e50)
  (.lf 0))) (.nd (.nd (.lf
  0x1469832ae301463c32ac781463832acb41464032ac30145f032aa78145ec32aab4145f432aa301459832a8781459432a8b41459c32a8301454432a6781454032a6b41454832a630144e832a478144e432a4b4144ec32a4301449432a2781449032a2b41449832a2301443832a0781443432a0b41443c32a030143ec329e78143e8329eb4143f0329e301439c329c7814398329cb4143a0329c301434c329a7814348329ab414350329a30142f8329878142f43298b4142fc329830142a8329678142a43296b4142ac3296301424c329478142483294b414250329430141f8329278141f43292b4141fc329230141a4329078141a03290b4141a832903014154328e7814150328eb414158328e3014100328c78140fc328cb414104328c30140b0328a78140ac328ab4140b4328a3014054328878140503288b4140583288301400032867813ffc3286b41400432863013fac32847813fa83284b413fb0328430)
  (.lf 0)) (.nd (.lf
  0x21dd0556acc221905568cc21dd45566cc2218c5564cc21dd85562cc221885560cc21ddc555ecc22184555ccc21de0555acc221805558cc21de45556cc2217c5554cc221785552cc221745550cc22170554ecc2216c554ccc22168554acc221645548cc221605546cc2215c5544cc221585542cc22474557dd022460557bd02244c5579d0224385577d0224245575d0224105573d0223fc5571d0223e8556fd0223d4556dd0223c0556bd0223ac5569d0223985567d0223845565d0223705563d02235c5561d022348555fd022334555dd022320555bd02230c5559d0222f85557d0222e45555d0222d05553d0222c05551d02229c554fd022278554dd022254554bd0222305549d02220c5547d0221e85545d0221c45543d02213c554110229d055becc21d7455bccc21db855bacc21d7855b8cc21df455b6cc21e0855b4cc21df855b2cc21e1c55b0cc21e0c55aecc21e1055accc21e1855aacc21e1455a8cc)
  (.lf 0)))

def shaWireTree179 : BTree :=
  .nd (.nd (.nd (.lf
  0x61874c27678618a8c2763061864c274b461868c274786186cc2743061854c272b461848c2727861858c2723061838c270b46183cc2707861840c2703061818c26eb46181cc26e7861820c26e306180cc26cb461808c26c7861810c26c30617f4c26ab4617f0c26a78617f8c26a30617e0c268b4617e4c26878617e8c26830617ccc266b4617c8c26678617d8c26630617b0c264b4617bcc26478617c0c2643061798c262b461794c262786179cc2623061780c260b461784c2607861788c2603061774c25eb461768c25e7861778c25e3061758c25cb46175cc25c7861760c25c3061740c25ab461748c25a786174cc25a3061730c258b46172cc2587861734c258306171cc256b461720c2567861724c2563061708c254b46170cc2547861710c254306169cc252b461570c25278616a0c2523061564c250b461560c2507861568c2503061554c24eb4614acc24e7861558c24e30614a0c24cb46149cc24c78)
  (.lf 0)) (.nd (.lf
  0x7e004f2e72c7dff0f2e52c7def0f2e32c7dedcf2e12c7dec4f2df2c7deb0f2dd2c7df0cf2db2c7de14f2d92c7dddcf2d72c7ddc4f2d52c7dd80f2d32c7dd00f2d12c7dd1cf2cf2c7e184f2cd2c7dbf0f2cb2c7dbf8f2c92c7dae8f2c72c7d4e8f2c52c7d3e8f2c32c7fca0f6ff2c7fc90f6fd2c7fc7cf6fb2c7fc68f6f92c7fc54f6f72c7fc3cf6f52c7fc28f6f32c7fb74f6f12c7fb54f6ef2c7fb10f6ed2c7faf4f6eb2c7faacf6e92c7fa88f6e72c7fb20f6e52c7fa40f6e32c7f9fcf6e12c7f9e4f6df2c7fef0f6dd2c7f954f6db2c7f8bcf6d92c7f7c8f6d72c7f7e4f6d52c7f650f6d32c7f658f6d12c7f668f6cf2c7f550f6cd2c7f354f6cb2c7f228f6c92c7f1acf6c72c7f138f6c52c7f098f6c32c7f018f6c0cc828ecfaff2c824e8fafd2c824d0fafb2c824bcfaf92c81de4faf72c81dd0faf52c81ce4faf32c81cc4faf12c81cb0faef2c81ca0faed2c81c90faeb2c81c98fae92c81dacfae72c)
  (.lf 0))) (.nd (.nd (.lf
  0x2ae005826b42ae685826782ae6c5826302ad905824b42adf45824782adf85824302ad205822b42ad845822782ad885822302acb05820b42ad145820782ad185820302ac38581eb42aca4581e782aca8581e302abc4581cb42ac2c581c782ac30581c302ab4c581ab42abb8581a782abbc581a302aad85818b42ab405818782ab445818302aa605816b42aacc5816782aad05816302a9f05814b42aa545814782aa585814302a9845812b42a9e45812782a9e85812302a9105810b42a9785810782a97c5810302a898580eb42a904580e782a908580e302a820580cb42a88c580c782a890580c302a7b0580ab42a814580a782a818580a302a73c5808b42a7a45808782a7a85808302a6c05806b42a7305806782a7345806302a6585804b42a6b45804782a6b85804302a5e85802b42a64c5802782a650580230207c85cbcb4207285cbc78207cc5cbc302071c5cbab4206645cba78207205cba30206585cb8b4)
  (.lf 0)) (.nd (.lf
  0x6b641e69d006aec1e67d006a881e65d006a101e63d0069ac1e61d0069381e5fd0068c41e5dd00684c1e5bd0067e81e59d0067741e57d0066fc1e55d0066981e53d0066241e51d0065b01e4fd0065381e4dd0064d41e4bd00645c1e49d0063f41e47d0063901e45d0063181e43d0062501e41100d3341efecc0d2c41efccc0d23c1efacc0d1b81ef8cc0d1301ef6cc0d0ac1ef4cc0d0241ef2cc0cf981ef0cc0cf141eeecc0ce941eeccc0ce141eeacc0cd8c1ee8cc0cd001ee6cc0cc741ee4cc0cbf01ee2cc0cb701ee0cc0caf01edecc0ca681edccc0c9e41edacc0c95c1ed8cc0c8d01ed6cc0c8441ed4cc0c7b81ed2cc0c7341ed0cc0c6ac1ececc0c6201ecccc0c59c1ecacc0c5141ec8cc0c4901ec6cc0c4081ec4cc0c3841ec2cc0d31c1efdd00d2a81efbd00d2201ef9d00d19c1ef7d00d1141ef5d00d0901ef3d00d0081ef1d00cf7c1eefd00cef81eedd00ce781eebd00cdf81ee9d00cd701ee7d0)
  (.lf 0)))

def shaWireTree180 : BTree :=
  .nd (.nd (.nd (.lf
  0x1d6dc000ecb1d6e0000ec91da44000ec71da48000ec51da4c000ec31da50000ec11da54000ebf1da58000ebd1da5c000ebb1da60000eb91da64000eb71da68000eb51da6c000eb31da70000eb11da74000eaf1da78000ead1da7c000eab1da80000ea91da84000ea71da88000ea51da8c000ea31da90000ea11da94000e9f1da98000e9d1da9c000e9b1daa0000e991daa4000e971daa8000e951daac000e931dab0000e911dab4000e8f1de18000e8d1de1c000e8b1de20000e891de24000e871de28000e851de2c000e831de30000e811de34000e7f1de38000e7d1de3c000e7b1de40000e791de44000e771de48000e751de4c000e731de50000e711de54000e6f1de58000e6d1de5c000e6b1de60000e691de64000e671de68000e651de6c000e631de70000e611de74000e5f1de78000e5d1de7c000e5b1de80000e591de84000e571de88000e551e1ec000e531e1f0000e511e1f4000e4f1e1f8000e4d)
  (.lf 0)) (.nd (.lf
  0x4625c93a03046260939e3046264939c3046268939a304626c9398304627093963046274939430464ac939230459b4939030458c8938e30473e8938c3045848938a3045784938830455c8938630453f4938430453909382304531893803047b9c97beb447ba097bcb447b4c97bab447a7c97b8b447a8097b6b447a8497b4b447a8897b2b4479fc97b0b4479bc97aeb44786097acb44786497aab44786897a8b44786c97a6b44779897a4b44776897a2b44770497a0b4476a0979eb4476a4979cb4476cc979ab4476149798b4475dc9796b4475a49794b4475509792b44750c9790b447510978eb447514978cb44748c978ab4474589788b446a609786b4469ec9784b4469b89782b4466749780b4462d097be78462d497bc78462d897ba78462dc97b878462e097b678462e497b478462e897b278462ec97b078462f097ae78462f497ac78462f897aa78462fc97a8784630097a6784630497a4784630897a278)
  (.lf 0))) (.nd (.nd (.lf
  0x262d453c478262d053c4b4262d853c430262c053c278262bc53c2b4262c453c2302933c56bc782933856bcb42934056bc302930056ba78292fc56bab42930456ba30292c456b878292c056b8b4292c856b8302928c56b6782928856b6b42929056b6302924c56b4782924856b4b42925056b4302921056b2782920c56b2b42921456b230291d056b078291cc56b0b4291d456b0302919456ae782919056aeb42919856ae302915c56ac782915856acb42916056ac302911c56aa782911856aab42912056aa30290d856a878290d456a8b4290dc56a8302909456a6782909056a6b42909856a6302905856a4782905456a4b42905c56a4302901856a2782901456a2b42901c56a23028fdc56a07828fd856a0b428fe056a03028fa4569e7828fa0569eb428fa8569e3028f64569c7828f60569cb428f68569c3028f28569a7828f24569ab428f2c569a3028ef056987828eec5698b428ef456983028eb8569678)
  (.lf 0)) (.nd (.lf
  0x6640cd962cc6638cd960cc6632cd95ecc6626cd95ccc66244d95acc66208d958cc65fe4d956cc654e8d954cc65480d952cc653e8d950cc65374d94ecc65e64d94ccc65298d94acc650c8d948cc65074d946cc65010d944cc65168d942cc66d9cd97dd066d54d97bd066d44d979d066d00d977d066cbcd975d066c4cd973d066c38d971d066c28d96fd066704d96dd0666c0d96bd06651cd969d0664f8d967d0664e8d965d066430d963d0663b0d961d066368d95fd066320d95dd0662f8d95bd0662d0d959d0661c8d957d065f0cd955d065efcd953d065ec8d951d065eb4d94fd065e90d94dd065258d94bd0651d8d949d0651c8d947d065190d945d065180d943d064f34d94110665f4d9becc665fcd9bccc665f8d9bacc665e0d9b8cc665b8d9b6cc6659cd9b4cc66584d9b2cc664b4d9b0cc664c0d9aecc66494d9accc66478d9aacc66670d9a8cc664c8d9a6cc66500d9a4cc663ecd9a2cc663d0d9a0cc)
  (.lf 0)))

def shaWireTree181 : BTree :=
  .nd (.nd (.nd (.lf
  0x721d8e67cb4721e0e67c78721e4e67c30721c4e67ab4721bce67a78721c8e67a30721a8e678b4721b0e67878721b4e678307219ce676b472194e67678721a0e6763072184e674b472188e674787218ce6743071f3ce672b472128e6727872178e6723071f00e670b471f30e6707871f34e6703071ef4e66eb471eece66e7871ef8e66e3071e6ce66cb471ee0e66c7871ee4e66c3071e60e66ab471e5ce66a7871e64e66a3071e4ce668b471e48e6687871e50e6683071da0e666b471e38e6667871e3ce6663071d94e664b471d90e6647871d98e6643071d80e662b471d7ce6627871d84e6623071d6ce660b471d64e6607871d70e6603071cc4e65eb471cd8e65e7871cdce65e3071bd4e65cb471cb8e65c7871cbce65c3071b48e65ab471bc0e65a7871bc4e65a3071b0ce658b471b3ce6587871b40e6583071ae4e656b471b00e6567871b04e6563071a70e654b471ab8e6547871abce6543071a1ce652b4)
  (.lf 0)) (.nd (.lf
  0x7cf480051fd7cdd00051fb7cd780051f97cd440051f77cd000051f57cf100051f37ceb40051f17ce880051ef7d8940051ed7cdf80051eb7cdc00051e97cf5c0051e77cd200051e57ccd80051e37cc700051e17e9fc0051df7ecd40051dd7ec880051db7ec400051d97eca40051d77eb400051d57eb100051d37ebb00051d17ed240051cf7eab40051cd7ea480051cb7eaa00051c97ea000051c77ecbc0051c57ec640051c37ec040051c17eb600051bf7ebe80051bd7eba80051bb7ed040051b97ea880051b77ea580051b57ec800051b37ec4c0051b17ecc40051af7eb580051ad7eb040051ab7ebcc0051a97ed080051a77eabc0051a57eac40051a37ea200051a18113c00519f810fc00519d813e000519b813cc005199812e4005197812c000519581298005193816800051918124400518f8121800518d8122c00518b813d80051898115c0051878137000518581324005183813300051818149400517f)
  (.lf 0))) (.nd (.nd (.lf
  0x48694940878486b8940830486889406b4486689406784868c9406304865c9404b44863c94047848660940430486309402b448620940278486349402303dd5098bcb43dd1498bc783dd5498bc303dd0898bab43dcd098ba783dd0c98ba303dcc498b8b43dc8898b8783dcc898b8303dc7c98b6b43dc4498b6783dc8098b6303dc3898b4b43dc0098b4783dc3c98b4303dbf498b2b43dbbc98b2783dbf898b2303dbb098b0b43db7898b0783dbb498b0303db6c98aeb43db3498ae783db7098ae303db2898acb43daf098ac783db2c98ac303dae498aab43daac98aa783dae898aa303daa098a8b43da6898a8783daa498a8303da5c98a6b43da2498a6783da6098a6303da1898a4b43d9e098a4783da1c98a4303d9d498a2b43d99c98a2783d9d898a2303d99098a0b43d95898a0783d99498a0303d94c989eb43d910989e783d950989e303d904989cb43d8c8989c783d908989c303d8bc989ab43d880989a78)
  (.lf 0)) (.nd (.lf
  0x2c4b45edecc2c4785edccc2c4405edacc2c4085ed8cc2c3c85ed6cc2c38c5ed4cc2c3545ed2cc2c31c5ed0cc2c2dc5ececc2c2985ecccc2c25c5ecacc2c21c5ec8cc2c1d85ec6cc2c19c5ec4cc2c16c5ec2cc2c8a45efdd02c8645efbd02c8205ef9d02c7dc5ef7d02c7a05ef5d02c7605ef3d02c71c5ef1d02c6e05eefd02c6a05eedd02c65c5eebd02c6185ee9d02c5d45ee7d02c5905ee5d02c5545ee3d02c51c5ee1d02c4dc5edfd02c4985eddd02c45c5edbd02c4245ed9d02c3ec5ed7d02c3ac5ed5d02c3705ed3d02c3385ed1d02c3005ecfd02c2c05ecdd02c27c5ecbd02c2405ec9d02c2005ec7d02c1bc5ec5d02c1805ec3d02c15c5ec1102c8985f3df42c8545f3bf42c8105f39f42c7cc5f37402c7505f33f42c70c5f31402c6905f2df42c64c5f2bf42c6085f29f42c5c45f27f42c5805f25402c4cc5f1ff42c4885f1d402c39c5f15402c2b05f0df42c26c5f0b402c1f05f07f42c1ac5f0540)
  (.lf 0)))

def shaWireTree182 : BTree :=
  .nd (.nd (.nd (.lf
  0x382cc855478383388554b43833c85543038240855278382bc8552b4382c0855230381b4855078382348550b43823885503038140854e78381a4854eb4381a8854e3038098854c783811c854cb438120854c3038024854a7838088854ab43808c854a3037fc0854878380088548b43800c85483037f3085467837f708546b437f7485463037ea885447837ee88544b437f2885443037df085427837e9c8542b437ea08542303901c85bc7838f6085bcb43902085bc3038f5085ba7838f2885bab438f5485ba3038f1c85b87838e5885b8b438f2085b83038e3c85b67838e0c85b6b438e5085b63038e0085b47838d3485b4b438e0485b43038d2885b27838cf885b2b438d2c85b23038cec85b07838c1885b0b438cf085b03038c0c85ae7838bb485aeb438c1085ae3038ba885ac7838b2085acb438bac85ac3038b1485aa7838aac85aab438b1885aa3038aa085a87838a3c85a8b438aa485a83038a3085a678)
  (.lf 0)) (.nd (.lf
  0x55654b09d2c55640b09b2c5562cb0992c55618b0972c55604b0952c555f0b0932c555dcb0912c555c8b08f2c555b4b08d2c555a0b08b2c5558cb0892c55578b0872c55564b0852c55550b0832c5554cb080cc57aecb4bf2c57ad8b4bd2c57ac4b4bb2c57ab0b4b92c57a9cb4b72c57a88b4b52c57a74b4b32c57a60b4b12c57a4cb4af2c57a38b4ad2c57a24b4ab2c57a10b4a92c579fcb4a72c579e8b4a52c579d4b4a32c579c0b4a12c579acb49f2c57998b49d2c57984b49b2c57970b4992c5795cb4972c57948b4952c57934b4932c57920b4912c5790cb48f2c578f8b48d2c578e4b48b2c578d0b4892c578bcb4872c578a8b4852c57894b4832c57890b480cc59dbcb8bf2c59da4b8bd2c59da8b8bb2c59d80b8b92c59d6cb8b72c59d5cb8b52c59d44b8b32c59d34b8b12c59e1cb8af2c59d14b8ad2c59e14b8ab2c59cf4b8a92c59e0cb8a72c59cc4b8a52c59e04b8a32c59ca0b8a12c59dfcb89f2c)
  (.lf 0))) (.nd (.nd (.lf
  0x55140b3740054080b3340052fc0b2ff4052700b2df4051e40b2b4004e580b1df404dcc0b1bf404d400b19f404cb40b17f404c280b154004b1c0b11f404a900b0ff404a040b0df4049780b0b40047ec0b05f4047600b03f40562c0b3bf40569c0b3ca0055a40b3a1e056240b3ab4056280b3a14055180b381e055980b38b40559c0b3814054940b35f4055100b36a00540c0b341e0548c0b34b4054900b3414053880b31f4054040b32a0053000b301e053800b30b4053840b3014052740b2e1e052f40b2eb4052f80b2e14051e80b2c1e052680b2cb40526c0b2c14051640b2940051e00b2aa0050e40b2740051600b28a0050640b2540050e00b26a004fe40b2340050600b24a004f640b214004fe00b22a004ee40b1ff404f600b20a004e5c0b1e1e04edc0b1eb404ee00b1e1404dd00b1c1e04e500b1cb404e540b1c1404d440b1a1e04dc40b1ab404dc80b1a1404cb80b181e04d380b18b404d3c0b1814)
  (.lf 0)) (.nd (.lf
  0x6f3dcdffecc75ddcdffccc6f3e8dffacc75dd8dff8cc6f5e8dff6cc75dd4dff4cc6f340dff2cc75dd0dff0cc6f2ccdfeecc75dccdfeccc6f270dfeacc75dc8dfe8cc6f210dfe6cc75dc4dfe4cc6f5f4dfe2cc6f438dfe0cc6f5f0dfdecc6f434dfdccc6f430dfdacc6f42cdfd8cc6f468dfd6cc6f28cdfd4cc6f428dfd2cc6f424dfd0cc6f494dfcecc6f420dfcccc6f41cdfcacc6f5ecdfc8cc6f418dfc6cc6f464dfc4cc6f288dfc2cc76030dffdd07601cdffbd076008dff9d075ff4dff7d075fe0dff5d075fccdff3d075fb4dff1d075fa4dfefd075f90dfedd075f7cdfebd075f68dfe9d075f4cdfe7d075f38dfe5d075f24dfe3d075f14dfe1d075f04dfdfd075ef4dfddd075ee0dfdbd075eccdfd9d075eb8dfd7d075ea4dfd5d075e90dfd3d075e7cdfd1d075e68dfcfd075e54dfcdd075e40dfcbd075e2cdfc9d075e18dfc7d075e04dfc5d075df0dfc3d06f27cdfc11077808e2becc77668e2bccc)
  (.lf 0)))

def shaWireTree183 : BTree :=
  .nd (.nd (.nd (.lf
  0x4c4609eaab44c4649eaa304c4489ea8784c44c9ea8b44c4509ea8304c4389ea6784c4309ea6b44c43c9ea6304c4209ea4784c4189ea4b44c4249ea4304c4089ea2784c40c9ea2b44c4109ea2304c3f89ea0784c3f09ea0b44c3fc9ea0304c3e49e9e784c3dc9e9eb44c3e89e9e304c3d09e9c784c3cc9e9cb44c3d49e9c304c3bc9e9a784c3b89e9ab44c3c09e9a304c3a89e98784c3a49e98b44c3ac9e98304c3949e96784c38c9e96b44c3989e96304c37c9e94784c3789e94b44c3809e94304c3689e92784c3649e92b44c36c9e92304c3549e90784c3509e90b44c3589e90304c3409e8e784c3449e8eb44c3489e8e304c3309e8c784c32c9e8cb44c3349e8c304c3209e8a784c31c9e8ab44c3249e8a304c0d89e88784c3049e88b44c3109e88304c0cc9e86784c0c89e86b44c0d09e86304c0b89e84784c0b49e84b44c0bc9e84304c0a09e82784c09c9e82b44c0a89e82304df449e7cb44df409e7c78)
  (.lf 0)) (.nd (.lf
  0x7a6b0ea932c7a5b0ea912c7a598ea8f2c7a534ea8d2c7a548ea8b2c7a54cea892c7a508ea872c7a43cea852c7a2d0ea832c7a240ea80cc7cb8ceebf2c7cb68eebd2c7cb38eebb2c7cb14eeb92c7c91ceeb72c7c90ceeb52c7c8e4eeb32c7c8eceeb12c7c8b0eeaf2c7c894eead2c7c868eeab2c7c7c0eea92c7c7a4eea72c7c788eea52c7c77ceea32c7c758eea12c7c7ccee9f2c7c6ecee9d2c7c684ee9b2c7c2ccee992c7c294ee972c7c280ee952c7c260ee932c7c24cee912c7c230ee8f2c7c220ee8d2c7c20cee8b2c7c1ecee892c7c1c8ee872c7c034ee852c7bd88ee832c7bd28ee80cc7e12cf2bf2c7e118f2bd2c7e100f2bb2c7e0e4f2b92c7e0c4f2b72c7dfd8f2b52c7dfe0f2b32c7dfbcf2b12c7df90f2af2c7df78f2ad2c7df5cf2ab2c7df54f2a92c7df34f2a72c7dfe8f2a52c7de84f2a32c7de68f2a12c7de50f29f2c7de38f29d2c7de24f29b2c7de0cf2992c7ddb8f2972c7dda4f2952c)
  (.lf 0))) (.nd (.nd (.lf
  0x7a060ea205079be0ea1e5079bb4ea1c5079b94ea1a5079074ea185079150ea165078d94ea145078ca0ea125078bf4ea105078bc8ea0e5078b48ea0c5078b24ea0a5078ae0ea0850789c8ea06507896cea0450787f8ea0250787bcea00507a4b0ee3e787a414ee3c787a418ee3a787a4d8ee38787a368ee36787a2a4ee34787a220ee32787a1f0ee30787a1b8ee2e787a154ee2c787a134ee2a787a190ee28787a0e8ee26787a0c0ee24787a08cee22787a068ee207879be8ee1e7879bbcee1c7879b9cee1a787907cee187879158ee167878d9cee147878ca8ee127878bfcee107878bd0ee0e7878b50ee0c7878b2cee0a7878ae8ee0878789d0ee067878974ee047878800ee0278787c4ee00787bf0cee3e507bed0ee3c507be88ee3a507be3cee38507be0cee36507bd68ee34507bd00ee32507bcc0ee30507bce0ee2e507bc50ee2c507bc88ee2a507bc80ee28507bfa4ee26507bbe0ee24507bbbcee2250)
  (.lf 0)) (.nd (.lf
  0x671f8cc411067954cc3ecc67940cc3ccc6791ccc3acc67900cc38cc67924cc36cc67968cc34cc67944cc32cc67964cc30cc678a4cc2ecc67894cc2ccc67870cc2acc67854cc28cc67864cc26cc67834cc24cc67818cc22cc677fccc20cc677f0cc1ecc6795ccc1ccc677b0cc1acc6779ccc18cc677c0cc16cc67770cc14cc67310cc12cc672f8cc10cc672e4cc0ecc67280cc0ccc6727ccc0acc67284cc08cc67238cc06cc67234cc04cc6728ccc02cc67cd4cc3dd067cc4cc3bd067caccc39d067c94cc37d067c80cc35d067c6ccc33d067c58cc31d067c44cc2fd067c30cc2dd067c20cc2bd067c08cc29d067be8cc27d067bd8cc25d067bc0cc23d067ba8cc21d067b98cc1fd067b80cc1dd067b6ccc1bd067b58cc19d067b40cc17d067b30cc15d067a78cc13d067a68cc11d06737ccc0fd06735ccc0dd067348cc0bd067338cc09d067320cc07d0672c4cc05d0672accc03d067290cc01106575cd0becc)
  (.lf 0)))

def shaWireTree184 : BTree :=
  .nd (.nd (.nd (.lf
  0x1496841bf2c148b441bd2c1485c41bb2c1480041b92c147b841b72c1476841b52c1470441b32c1495441b12c1466041af2c1494c41ad2c145bc41ab2c1494441a92c1450c41a72c1493c41a52c1445c41a32c1493441a12c143cc419f2c1492c419d2c14328419b2c1492441992c1427041972c1491c41952c141d441932c1491441912c14130418f2c1490c418d2c14078418b2c1490441892c13fdc41872c148fc41852c13f4441832c148f44180cc15f6c45bf2c15f5845bd2c15f4445bb2c15f2c45b92c15f3045b72c15f0c45b52c15ef045b32c15edc45b12c15ed045af2c15eb445ad2c15ef445ab2c15e9445a92c15e7c45a72c15e6845a52c15e5445a32c15e4445a12c15e2c459f2c15e24459d2c15e08459b2c15dec45992c15dd845972c15dd045952c15db045932c15d9c45912c15e00458f2c15d64458d2c15d38458b2c15d1045892c15d0845872c15cf445852c15cd445832c15cac4580cc)
  (.lf
  0x1ac74484dd01ac60484bd01ac4c4849d01ac384847d01ac244845d01ac104843d01abf8484110243ac483ecc24334483ccc242ac483acc242244838cc241944836cc241004834cc240704832cc23fe04830cc23f50482ecc23ec0482ccc23e38482acc23db04828cc23d284826cc23ca04824cc23c184822cc23b884820cc23af4481ecc23a68481ccc239e0481acc239504818cc238bc4816cc238284814cc2379c4812cc2370c4810cc2367c480ecc235ec480ccc2355c480acc234c84808cc234304806cc233884804cc232e44802cc24394483dd024318483bd0242904839d0242084837d0241784835d0240e44833d0240544831d023fc4482fd023f34482dd023ea4482bd023e1c4829d023d944827d023d0c4825d023c844823d023bfc4821d023b6c481fd023ad8481dd023a4c481bd0239c44819d0239344817d0238a04815d02380c4813d0237804811d0236f0480fd023660480dd0235d0480bd0))
  (.nd (.lf
  0x79ca8eba0b479c84eb9eb479c5ceb9cb479c3ceb9ab479c10eb98b479a9ceb96b479a64eb94b479a80eb92b479928eb90b479894eb8eb479858eb8cb479838eb8ab47970ceb88b479604eb86b479598eb84b479518eb82b479494eb80b4797fcebbe78798d0ebbc7879784ebba7879824ebb878796a4ebb67879678ebb47879624ebb27879564ebb07879504ebae78794a0ebac787944cebaa7879424eba87879400eba678793d4eba478793a4eba27879388eba07879364eb9e7879334eb9c78792f8eb9a7879550eb98787819ceb967878028eb947877ff0eb927877fc4eb907877fb4eb8e7877adceb8c78776e0eb8a78775bceb8878773e4eb8678772c4eb847877148eb827877024eb80787a030ebbe3079fe4ebbc3079f38ebba3079f58ebb83079f6cebb63079fbcebb43079e68ebb23079ea0ebb03079e48ebae3079d88ebac3079dc8ebaa3079d50eba83079d28eba63079d00eba43079cd0eba230)
  (.lf 0))) (.nd (.nd (.lf
  0x2fe7c66d0302fdf466ceb42fd8066ce782fdf866ce302fd7466ccb42fcf866cc782fd7866cc302fcec66cab42fc6c66ca782fcf066ca302fc6066c8b42fbe866c8782fc6466c8302fbdc66c6b42fb6866c6782fbe066c6302fb5c66c4b42fadc66c4782fb6066c4302fad066c2b42fa9066c2782fad466c230309d4673eaa30900673aaa3081c6736aa30534672aaa304a86728aa3029c6720aa30210671eaa30184671caa2ff786714aa2feec6712aa2fd60670caa2fcd4670aaa2fbc86706aa2fb446704aa30910673bf430978673ca03089c673a1e30908673ab43090c673a143082c6737f4308946738a0307b867361e308246736b43082867361430744673340307b06734a0306c4673140307406732a030644672f40306c06730a0305c4672d4030640672ea030544672bf4305c0672ca0304bc672a1e3053c672ab430540672a143043067281e304b06728b4304b4672814303ac672540304286726a0)
  (.lf 0)) (.nd (.lf
  0x80124185ecc80070185ccc7f99c185acc7f90c1858cc7f8601856cc7f8241854cc7f7181852cc7f6f01850cc7f6bc184ecc7f5ac184ccc7f4e4184acc7f4b81848cc7f3e81846cc7f39c1844cc7f2e01842cc80554187dd080534187bd0804b81879d0804a41877d0803f41875d0803cc1873d0803b41871d0803a0186fd08038c186dd080190186bd08011c1869d08010c1867d0800f81865d0800e81863d0800d41861d0800b8185fd080080185dd07f9bc185bd07f9041859d07f88c1857d07f8781855d07f7601853d07f74c1851d07f6ac184fd07f5a8184dd07f500184bd07f4ac1849d07f4141847d07f3cc1845d07f3b81843d07f0581841107f5581c7ecc7f36c1c7ccc7f20c1c7acc7f1681c78cc7f10c1c76cc7f0741c74cc7efdc1c72cc7efc81c70cc7ef881c6ecc7f3d41c6ccc7f7781c6acc7ef1c1c68cc7e8d41c66cc7e8b41c64cc7e8fc1c62cc7e8041c60cc7e7b01c5ecc7e7a41c5ccc)
  (.lf 0)))

def shaWireTree185 : BTree :=
  .nd (.nd (.nd (.lf
  0x7f7f0f714147f6ccf711407f6d4f712a07f680f70ff47f6c8f710a07f590f70e1e7f678f70eb47f67cf70e147f37cf70c1e7f560f70cb47f588f70c147f24cf70a1e7f370f70ab47f374f70a147f234f707f47f244f708a07f150f7061e7f22cf706b47f230f706147f0a4f703f47f148f704a07f09cf702b47f0a0f702147fd14f7fc787fd10f7fcb47fd18f7fc307fd00f7fa787fcfcf7fab47fd04f7fa307fcecf7f8787fce4f7f8b47fcf0f7f8307fcd4f7f6787fcd0f7f6b47fcd8f7f6307fcc4f7f4787fcc0f7f4b47fcc8f7f4307eee8f7f2787eee4f7f2b47fcb4f7f2307eed8f7f0787eed0f7f0b47eedcf7f0307eec0f7ee787eec4f7eeb47eec8f7ee307eea8f7ec787eeacf7ecb47eeb0f7ec307ee98f7ea787ee9cf7eab47eea0f7ea307ee84f7e8787ee80f7e8b47ee88f7e8307ee6cf7e6787ee70f7e6b47ee74f7e6307ee5cf7e4787ee58f7e4b47ee60f7e4307ee44f7e2787ee48f7e2b4)
  (.lf 0)) (.nd (.lf
  0x7c85cf39dd07c6c4f39bd07c648f399d07c5fcf397d07c63cf395d07c5a0f393d07c660f391d07c678f38fd07c644f38dd07c3e0f38bd07c3f4f389d07c3ecf387d07c11cf385d07bf54f383d07bf60f381d07ec98f7bfd07ec48f7bdd07ec14f7bbd07eb4cf7b9d07eb1cf7b7d07ebc0f7b5d07edd8f7b3d07eaacf7b1d07ead4f7afd07ea68f7add07ebdcf7abd07ece8f7a9d07e738f7a7d07e6f8f7a5d07e6d8f7a3d07e7ecf7a1d07e694f79fd07e708f79dd07e634f79bd07e5e4f799d07e5f4f797d07e410f795d07e2fcf793d07e220f791d07e234f78fd07e9c4f78dd07dc90f78bd07dc88f789d07db60f787d07d558f785d07d430f783d07d5a0f781d081368fbbfd08131cfbbdd0812f8fbbbd08133cfbb9d0813b8fbb7d081628fbb5d081250fbb3d081210fbb1d0811ccfbafd081184fbadd081500fbabd0810f4fba9d081514fba7d081020fba5d081064fba3d081080fba1d080fc0fb9fd0)
  (.lf 0))) (.nd (.nd (.lf
  0x5a0d4b456b45a0d0b456785a0d8b456305a0b8b454b45a0b4b454785a0bcb454305a0a4b452b45a0a0b452785a0acb452305a094b450b45a090b450785a098b450305a07cb44eb45a078b44e785a080b44e305a064b44cb45a060b44c785a068b44c305a048b44ab45a04cb44a785a050b44a305a038b448b45a030b448785a03cb448305a018b446b45a01cb446785a020b446305a00cb444b45a008b444785a010b4443059ff4b442b459ff0b4427859ff8b442305ad90b43cb45ad94b43c785ad98b43c305ad78b43ab45ad7cb43a785ad88b43a305ad6cb438b45ad68b438785ad70b438305ad5cb436b45ad58b436785ad60b436305ad4cb434b45ad44b434785ad50b434305ad24b432b45ad30b432785ad34b432305ad10b430b45ad18b430785ad1cb430305ad00b42eb45ad04b42e785ad08b42e305ace8b42cb45acecb42c785acf0b42c305acd0b42ab45acd4b42a785acd8b42a305acbcb428b4)
  (.lf 0)) (.nd (.lf
  0x3df907ee8cc3dfb87ee6cc3df6c7ee4cc3dfb07ee2cc3df487ee0cc3df287edecc3df107edccc3def47edacc3dee07ed8cc3dec07ed6cc3dedc7ed4cc3de987ed2cc3de847ed0cc3de6c7ececc3de4c7ecccc3e3387ecacc3de347ec8cc3e3307ec6cc3ddec7ec4cc3e3147ec2cc3e3047efdd03e2f47efbd03e2e07ef9d03e2c87ef7d03e2b47ef5d03e2a47ef3d03e28c7ef1d03e2787eefd03e2687eedd03e2547eebd03e23c7ee9d03e2247ee7d03e2107ee5d03e1f87ee3d03e1e47ee1d03e1d47edfd03e1c07eddd03e1ac7edbd03e1947ed9d03e1807ed7d03e16c7ed5d03e1547ed3d03e1447ed1d03e12c7ecfd03e1187ecdd03e1007ecbd03e0f07ec9d03e0dc7ec7d03e0cc7ec5d03e0b87ec3d03e0a87ec1103b0107ffecc3af607ffccc3b00c7ffacc3af5c7ff8cc3aea47ff6cc3aea07ff4cc3ae9c7ff2cc3ae987ff0cc3ae947feecc3ae907feccc3ae8c7feacc3ab787fe8cc3ab747fe6cc)
  (.lf 0)))

def shaWireTree186 : BTree :=
  .nd (.nd (.nd (.lf
  0x50540b1a430504f8b1a278504d8b1a2b4504fcb1a230504a0b1a078504a4b1a0b4504a8b1a03050494b19e785048cb19eb450498b19e305047cb19c7850480b19cb450484b19c3050464b19a785046cb19ab450470b19a3050448b198785044cb198b450450b1983050438b196785017cb196b45043cb1963050160b194784ffb4b194b450164b194304ffa8b192784ff78b192b44ffacb192304ff6cb190784fcb4b190b44ff70b190304fc94b18e784fc38b18eb44fcacb18e304fc20b18c784f7c8b18cb44fc30b18c304f788b18a784f798b18ab44f79cb18a304f768b188784f778b188b44f77cb188304f748b186784f744b186b44f74cb186304f738b184784f6d0b184b44f73cb184304f63cb182784f5d4b182b44f640b1823052754b57c7852750b57cb452758b57c3052708b57a78526f4b57ab45270cb57a3052698b57878526e4b578b4526e8b578305268cb5767852688b576b452690b57630)
  (.lf 0)) (.nd (.lf
  0x73e6cf05d2c73e5cf05b2c73e44f0592c73e2cf0572c73e10f0552c73dfcf0532c73de8f0512c73dccf04f2c73fdcf04d2c73d8cf04b2c73d74f0492c73d60f0472c73d34f0452c73cfcf0432c73d04f040cc74ad4f47f2c74ac0f47d2c74aa4f47b2c74a90f4792c74a78f4772c74a58f4752c74a60f4732c74a30f4712c74a20f46f2c749f0f46d2c749f8f46b2c749ccf4692c74a00f4672c749a8f4652c74990f4632c74978f4612c7495cf45f2c74948f45d2c74930f45b2c74918f4592c74900f4572c748e8f4552c748d0f4532c748b8f4512c74894f44f2c747f4f44d2c747d8f44b2c747fcf4492c747b0f4472c74804f4452c74774f4432c74764f440cc756e0f87f2c756e8f87d2c75648f87b2c75634f8792c755bcf8772c75594f8752c7559cf8732c75570f8712c7555cf86f2c7554cf86d2c75530f86b2c75514f8692c754fcf8672c754d0f8652c754a4f8632c75474f8612c75448f85f2c)
  (.lf 0))) (.nd (.nd (.lf
  0xc9c41ed8300c8b81ed6b40c9381ed6780c93c1ed6300c82c1ed4b40c8ac1ed4780c8b01ed4300c7a01ed2b40c8201ed2780c8241ed2300c71c1ed0b40c7941ed0780c7981ed0300c6941eceb40c7101ece780c7141ece300c6081eccb40c6881ecc780c68c1ecc300c5841ecab40c5fc1eca780c6001eca300c4fc1ec8b40c5781ec8780c57c1ec8300c4781ec6b40c4f01ec6780c4f41ec6300c3f01ec4b40c46c1ec4780c4701ec4300c37c1ec2b40c3e41ec2780c3e81ec2300d33c1f3eaa0d2441f3aaa0d1381f36aa0d02c1f32aa0cfa01f30aa0cd941f28aa0cd081f26aa0cc7c1f24aa0ca701f1caa0c9641f18aa0c8d81f16aa0c84c1f14aa0c7c01f12aa0c6b41f0eaa0c6281f0caa0c51c1f08aa0c4101f04aa0d29c1f3bf40d30c1f3ca00d2141f3a1e0d2941f3ab40d2981f3a140d1901f37f40d20c1f38a00d1081f361e0d1881f36b40d18c1f36140d0841f33f40d1001f34a00cffc1f321e)
  (.lf 0)) (.nd (.lf
  0x83188ffeecc82a0cffeccc823b8ffeacc8238cffe8cc82478ffe6cc83108ffe4cc830d0ffe2cc83088ffe0cc83064ffdecc83060ffdccc83068ffdacc832b4ffd8cc82a14ffd6cc82330ffd4cc830f8ffd2cc830dcffd0cc83104ffcecc83030ffcccc83044ffcacc82fd4ffc8cc83194ffc6cc829ccffc4cc82458ffc2cc839fcfffdd0839e8fffbd0839d8fff9d0839c0fff7d0839a8fff5d083988fff3d083978fff1d083960ffefd083938ffedd083928ffebd083918ffe9d083908ffe7d0838ecffe5d0838d4ffe3d0838c0ffe1d083898ffdfd083888ffddd083868ffdbd083858ffd9d083834ffd7d0837f0ffd5d0837a4ffd3d083768ffd1d083724ffcfd083220ffcdd0831f4ffcbd0831e4ffc9d0831a0ffc7d082a48ffc5d0823a0ffc3d082390ffc11003dd4157ecc03d6c157ccc03ce4157acc03c581578cc03bc81576cc03b481574cc03ac81572cc03a4c1570cc039bc156ecc0393c156ccc)
  (.lf 0)))

def shaWireTree187 : BTree :=
  .nd (.nd (.nd (.lf
  0x563e8af18aa56394af10aa564a8af0eaa564acaf0aaa55f40af02aa56fd8af3df456fb0af3b4056e1caf33f456d88af31f456cacaf2f4056ac8af2bf456ab0af294056a94af25f456a4caf2340567f4af1b40567c4af174056584af0ff456538af0d4056320af094056fb4af3c1e56fb8af3cb456fbcaf3c1456f9caf394056facaf3aa056ef8af374056f98af38a056e48af35f456ec8af36a056e20af341e56e24af34b456e44af341456d8caf321e56d90af32b456e18af321456cb0af301e56cb4af30b456cb8af301456ad8af2df456ca8af2ea056ad0af2c1e56accaf2cb456ad4af2c1456ac0af2a1e56ab4af2ab456ac4af2a1456aa4af27f456aacaf28a056a98af261e56a9caf26b456aa0af261456a50af241e56a8caf24b456a90af2414569f0af214056a48af22a056818af1f4056820af20a056804af1df456814af1ea0567fcaf1c1e567f8af1cb456800af1c14567e0af19f4567f0af1aa0)
  (.lf 0)) (.nd (.lf
  0x72f3cea532c72fe0ea512c72758ea4f2c7295cea4d2c7270cea4b2c72950ea492c725f4ea472c725e4ea452c7257cea432c72540ea40cc777bcee7f2c77650ee7d2c774f8ee7b2c7734cee792c77218ee772c7718cee752c76fc4ee732c76ed4ee712c76e7cee6f2c76da0ee6d2c76d34ee6b2c76c84ee692c76c10ee672c76b74ee652c76afcee632c76a38ee612c769d8ee5f2c7697cee5d2c768f4ee5b2c7683cee592c767d0ee572c76798ee552c7671cee532c76708ee512c76630ee4f2c76658ee4d2c76604ee4b2c764a4ee492c763ecee472c76368ee452c76354ee432c73368ee40cc7890cf27f2c788c0f27d2c788a0f27b2c7888cf2792c78874f2772c7878cf2752c78740f2732c7855cf2712c784f8f26f2c784c0f26d2c78484f26b2c78470f2692c7843cf2672c78420f2652c783ccf2632c783b8f2612c78398f25f2c783a0f25d2c78174f25b2c78168f2592c780a4f2572c7806cf2552c)
  (.lf 0))) (.nd (.nd (.lf
  0x6d2e0001b816d20c001b7f6d100001b7d6d0c0001b7b6d094001b796ce10001b776cd88001b756ce34001b736ccb4001b716cc44001b6f6cbcc001b6d6cba0001b6b6cb88001b696cecc001b676c89c001b656c8a0001b636c8a4001b616ef8c001b5f6ef90001b5d6efa4001b5b6ef24001b596ef38001b576eef8001b556f8bc001b536f818001b516f8f4001b4f6f7cc001b4d6f798001b4b6f8c0001b496f81c001b476f8f8001b456f7d0001b436f79c001b416f854001b3f6f724001b3d6f728001b3b6f6b4001b396f6d4001b376f668001b356f66c001b336f620001b316f5b4001b2f6f584001b2d6f570001b2b6f598001b296f51c001b276f520001b256f524001b236f4b8001b2176780001b1f76614001b1d76618001b1b7661c001b1976620001b1776624001b15777a0001b1377628001b11774b0001b0f7735c001b0d771f4001b0b777a4001b097762c001b07774b4001b0577360001b03)
  (.lf 0)) (.nd (.lf
  0x756fcf83ccc7564cf83acc75650f838cc75708f836cc755ecf834cc755a0f832cc755f0f830cc75564f82ecc75560f82ccc75534f82acc75518f828cc75508f826cc755e4f824cc754a8f822cc75478f820cc75454f81ecc75424f81ccc75358f81acc753dcf818cc75328f816cc75408f814cc7532cf812cc753d0f810cc75330f80ecc752a0f80ccc7533cf80acc75258f808cc753c8f806cc75210f804cc751d8f802cc756f4f83dd0756b0f83bd0756a0f839d075690f837d075680f835d075670f833d07565cf831d075620f82fd07560cf82dd0755f8f82bd0755d4f829d0755c0f827d0754dcf825d0754b8f823d07548cf821d075468f81fd075438f81dd075400f81bd0753ecf819d0753c0f817d0753acf815d07539cf813d075388f811d075378f80fd075364f80dd075348f80bd075274f809d075264f807d07522cf805d0751f8f803d0751e4f8011074c30fcbecc74be8fcbccc74bf0fcbacc)
  (.lf 0)))

def shaWireTree188 : BTree :=
  .nd (.nd (.nd (.lf
  0x82a310d4478826850d44b482a350d4430824810d42788248d0d42b4824910d423083d3c007c7883d08007cb483d40007c3083cfc007a7883ce0007ab483d00007a3083cd400787883cd00078b483cd800783083cb800767883cbc0076b483cc000763083cac00747883ca40074b483cb000743083c9400727883c640072b483c9800723083c5800707883c540070b483c5c00703083c48006e7883bd0006eb483c4c006e3083bc4006c7883ba8006cb483bc8006c3083b9c006a7883b94006ab483ba0006a3083b8800687883b5c0068b483b8c00683083b5000667883b480066b483b5400663083b3000647883b3c0064b483b4000643083b2000627883b1c0062b483b2400623083b0c00607883b080060b483b1400603083af8005e7883afc005eb483b00005e3083ae8005c7883aec005cb483af0005c3083ad4005a7883ad8005ab483adc005a30838b00058788382c0058b483ac80058308381c005678)
  (.lf 0)) (.nd (.lf
  0x162143fa078162183f9e781621c3f9c78162203f9a78162243f9878162283f96781622c3f9478162303f9278162343f9078162383f8e781623c3f8c78162403f8a78162443f8878162483f86781624c3f8478162503f8278162543f8078178d43fbe30178d83fbc30178dc3fba30178e03fb830178e43fb630178e83fb430178ec3fb230178f03fb030178f43fae30178f83fac30178fc3faa30179003fa830179043fa630179083fa4301790c3fa230179103fa030179143f9e30179183f9c301791c3f9a30179203f9830179243f9630179283f94301792c3f9230179303f9030179343f8e30179383f8c301793c3f8a30179403f8830179443f8630179483f84301794c3f8230179503f803018e4443beb418e4843bcb418e4c43bab418e5043b8b418e5443b6b418e5843b4b418e5c43b2b418e6043b0b418e6443aeb418e6843acb418e6c43aab418e7043a8b418e7443a6b418e7843a4b418e7c43a2b4)
  (.lf 0))) (.nd (.nd (.lf
  0x1f80842d2b41f76042d2781f80c42d2301f75442d0b41f6a042d0781f75842d0301f69442ceb41f5e042ce781f69842ce301f5d442ccb41f51c42cc781f5d842cc301f51042cab41f46442ca781f51442ca301f45842c8b41f3ac42c8781f45c42c8301f3a042c6b41f2e842c6781f3a442c6301f2dc42c4b41f21842c4781f2e042c4301f20c42c2b41f1a442c2781f21042c2302080c433eaa20768433caa206a4433aaa204784334aa20248432eaa2001c4328aa1ff584326aa1fde04322aa1fd204320aa1fba8431caa1fae4431aaa1f96c4316aa1f7404310aa1f67c430eaa1f5bc430caa206b8433c1e20770433cb420774433c14205f8433a1e206ac433ab4206b0433a142053c433740205f04338a0204884335f4205384336a0203c843341e204804334b42048443341420310433140203c04332a020258432ff42030c4330a02019c432e1e20250432eb420254432e14200e0432b4020194432ca0)
  (.lf 0)) (.nd (.lf
  0x4295495a6cc4294095a4cc4292c95a2cc4291895a0cc421fc959ecc42130959ccc4212c959acc421189598cc420389596cc41fe09594cc41e549592cc41e509590cc41e4c958ecc41d14958ccc41d10958acc41c209588cc41c1c9586cc41ad89584cc41a589582cc42e1c95bdd042df895bbd042cac95b9d042a1895b7d04287095b5d04282095b3d04280495b1d0426a495afd04268495add04266495abd04263c95a9d0425d495a7d04253495a5d04243895a3d0423f095a1d0421d0959fd042158959dd042144959bd0421349599d0420549597d041ff49595d041eb09593d041e909591d041e70958fd041d50958dd041d30958bd041c5c9589d041c3c9587d041aec9585d041a749583d041a40958110443cc997ecc44200997ccc440c8997acc4406c9978cc43fbc9976cc43ebc9974cc43e809972cc43e009970cc43d84996ecc43cac996ccc43b30996acc43a809968cc43a349966cc439e09964cc)
  (.lf 0)))

def shaWireTree189 : BTree :=
  .nd (.nd (.nd (.lf
  0x6a474d30e1469fd0d30bf46a158d30ca069f98d30a1e69f94d30ab469f9cd30a1469f88d3081e69f48d308b469f8cd3081469ea4d3054069f14d306a069e58d303f469ea0d304a069688d302b469e54d30214693bcd3fc78693b8d3fcb4693c0d3fc30693a0d3fa786939cd3fab4693b0d3fa3069388d3f8786938cd3f8b469394d3f8306937cd3f67869374d3f6b469380d3f63069360d3f47869368d3f4b46936cd3f43069354d3f2786934cd3f2b469358d3f2306933cd3f07869338d3f0b469344d3f03069328d3ee7869324d3eeb46932cd3ee30690f4d3ec7869318d3ecb46931cd3ec30690e0d3ea78690e4d3eab4690e8d3ea30690d4d3e878690ccd3e8b4690d8d3e830690bcd3e678690c0d3e6b4690c4d3e630690a4d3e478690acd3e4b4690b0d3e43069098d3e27869094d3e2b46909cd3e2306907cd3e07869084d3e0b469088d3e0306906cd3de7869070d3deb469074d3de306905cd3dc78)
  (.lf 0)) (.nd (.lf
  0x7e3d8f31d4a7e3a0f31b4a7e374f3194a7e52cf3174a7e334f3154a7e2b0f3134a7e1bcf3114a7e1a8f30f4a7e18cf30d4a7dc0cf30b4a7dc2cf3094a7dafcf3074a7d4ecf304b47d3f8f302aa7d388f2c0cc80238f73f4a8022cf73cb480240f73b4a80200f738b4801f0f736b4801d8f7354a801c8f732b4801b8f730b4801acf72eb480160f72d4a80154f72ab47ff58f7294a7ff48f726b47ff24f724b47ff18f722b47ff0cf720b47ff00f71eb47ff74f71d4a7f95cf71b4a7f8c0f718b47f7fcf7174a7f814f7154a7f6d0f712b47f6c4f710b47f670f70f4a7f56cf70d4a7f35cf70b4a7f238f708b47f3dcf7074a7f13cf704b47f268f7034a7f01cf700aa828f4fb3f4a82518fb3cb482500fb3b4a8252cfb394a81f88fb374a81f74fb354a81f5cfb334a81f3cfb30b481f38fb2f4a81f14fb2d4a81f9cfb2b4a81fbcfb294a81fc8fb274a81ed4fb24b481e60fb22b481e04fb214a81bd8fb1f4a)
  (.lf 0))) (.nd (.nd (.lf
  0x1e9347876301e91c7874b41e9187874781e9207874301e9087872b41e9047872781e90c7872301e8f47870b41e8f07870781e8f87870301e8e0786eb41e8dc786e781e8e4786e301e8cc786cb41e8c8786c781e8d0786c301e8b8786ab41e8b4786a781e8bc786a301e8a47868b41e8a07868781e8a87868301e8907866b41e88c7866781e8947866301e87c7864b41e8787864781e8807864301e8687862b41e8647862781e86c7862301e8547860b41e8507860781e8587860301e840785eb41e83c785e781e844785e301e82c785cb41e828785c781e830785c301e818785ab41e814785a781e81c785a301e8047858b41e8007858781e8087858301e7f07856b41e7ec7856781e7f47856301e7dc7854b41e7d87854781e7e07854301e7c87852b41e7c47852781e7cc7852301e7b47850b41e7b07850781e7b87850301e7a0784eb41e79c784e781e7a4784e301e78c784cb41e788784c781e790784c30)
  (.lf 0)) (.nd (.lf
  0x127c43e47d0127443e45d0126c83e43d0126643e4110188a83efecc188683efccc1882c3efacc187f43ef8cc187bc3ef6cc187843ef4cc1874c3ef2cc187083ef0cc186c03eeecc186803eeccc186443eeacc186003ee8cc185b83ee6cc1857c3ee4cc1853c3ee2cc184f83ee0cc184b43edecc184703edccc1842c3edacc183e83ed8cc183ac3ed6cc183743ed4cc1833c3ed2cc182fc3ed0cc182c03ececc182803ecccc1823c3ecacc181f83ec8cc181bc3ec6cc181883ec4cc181543ec2cc1888c3efdd01884c3efbd0188103ef9d0187d83ef7d0187a03ef5d0187683ef3d01872c3ef1d0186e83eefd0186a03eedd0186603eebd0186243ee9d0185e03ee7d01859c3ee5d0185603ee3d0185203ee1d0184dc3edfd0184983eddd0184543edbd0184103ed9d0183cc3ed7d0183903ed5d0183583ed3d0183203ed1d0182e03ecfd0182a43ecdd0182643ecbd0182203ec9d0181dc3ec7d01819c3ec5d0)
  (.lf 0)))

def shaWireTree190 : BTree :=
  .nd (.nd (.nd (.lf
  0x21e785586b421e8055863021e5055847821e4c5584b421e5455843021e2455827821e205582b421e2855823024b14597c7824b10597cb424b1c597c3024b04597a7824b00597ab424b08597a3024af059787824aec5978b424af459783024ad859767824adc5976b424ae059763024ac859747824a7c5974b424acc597430248b4597278248bc5972b4248c0597230248a4597078248a85970b4248ac59703024890596e7824898596eb42489c596e3024884596c7824880596cb424888596c302486c596a7824870596ab424874596a30248585968782485c5968b42486059683024840596678248485966b42484c5966302482c596478248345964b4248385964302481c596278248185962b4248205962302480c596078248045960b424810596030247f8595e78247f4595eb4247fc595e30247e0595c78247e4595cb4247e8595c30247b8595a78247b4595ab4247bc595a30247a8595878247a45958b4)
  (.lf 0)) (.nd (.lf
  0x358440041fd3584c0041fb358540041f93585c0041f7358640041f53586c0041f3358740041f13587c0041ef358840041ed3588c0041eb358940041e93589c0041e7358a40041e5358ac0041e3358b40041e1376d40041df376dc0041dd376e40041db376ec0041d9376f40041d7376fc0041d5377040041d33770c0041d1377140041cf3771c0041cd3777c0041cb377840041c93778c0041c7377940041c53779c0041c3377a40041c1377ac0041bf377b40041bd377bc0041bb377c40041b9377cc0041b7377d40041b5377dc0041b3377e40041b1377ec0041af377f40041ad377fc0041ab378040041a93780c0041a7378140041a53781c0041a3378240041a13965000419f3965800419d3966000419b39668004199396700041973967800419539680004193396880041913969000418f3969800418d396f800418b39700004189397080041873971000418539718004183397200041813972800417f)
  (.lf 0))) (.nd (.nd (.lf
  0x7422cf034787434cf0343074220f032b47421cf0327874224f0323074208f030b47420cf0307874214f03030741f8f02eb4741f4f02e78741fcf02e30741e8f02cb4741e4f02c78741ecf02c30741d0f02ab4741d4f02a78741d8f02a30741bcf028b4741c0f02878741c4f02830741a8f026b4741acf02678741b0f026307419cf024b474194f02478741a0f0243074188f022b47417cf022787418cf0223074160f020b47415cf0207874170f02030740d4f01eb4740d0f01e7874154f01e30740c0f01cb4740b0f01c78740c4f01c30740a0f01ab4740a4f01a78740a8f01a3074080f018b474084f018787408cf0183074074f016b474070f0167874078f0163074064f014b474050f0147874068f0143074040f012b47403cf0127874044f0123074030f010b474028f0107874034f0103074018f00eb47401cf00e7874020f00e3074008f00cb474004f00c787400cf00c3073ff4f00ab473ff0f00a78)
  (.lf 0)) (.nd (.lf
  0x5f160bee5d05f150bee3d05f138bee1d05f124bedfd05f10cbeddd05f0f8bedbd05f0e0bed9d05f0ccbed7d05f0b8bed5d05f0a0bed3d05f090bed1d05f07cbecfd05f03cbecdd05efecbecbd05ef94bec9d05ef54bec7d05eeecbec5d05eedcbec3d05e654bec1105e15cbffecc5e030bffccc5e168bffacc5e024bff8cc5dea4bff6cc5deccbff4cc5de7cbff2cc5dbf8bff0cc5db2cbfeecc5dcccbfeccc5da88bfeacc5dcc0bfe8cc5d9d0bfe6cc5e13cbfe4cc5e018bfe2cc5ddd0bfe0cc5ded4bfdecc5de84bfdccc5dbf4bfdacc5db48bfd8cc5db6cbfd6cc5da7cbfd4cc5e160bfd2cc5e028bfd0cc5dddcbfcecc5dedcbfcccc5de8cbfcacc5dbf0bfc8cc5db38bfc6cc5dad4bfc4cc5da84bfc2cc5e324bffdd05e310bffbd05e300bff9d05e2ecbff7d05e2ccbff5d05e2b8bff3d05e2a4bff1d05e290bfefd05e280bfedd05e268bfebd05e258bfe9d05e244bfe7d05e230bfe5d05e220bfe3d0)
  (.lf 0)))

def shaWireTree191 : BTree :=
  .nd (.nd (.nd (.lf
  0x431988ac83042c808ac6b442d388ac67842d4c8ac63042ba08ac4b442ba88ac47842bac8ac43042b8c8ac2b442b948ac27842b988ac230441ec8b3caa43f908b36aa43d5c8b34aa43cd88b30aa43b188b2aaa439b08b26aa439ac8b24aa4373c8b1caa436848b1aaa434988b16aa4346c8b14aa433c08b10aa4332c8b0eaa431dc8b0caa431e08b0aaa431f08b08aa42d5c8b06aa441e88b3df4440d88b3b4043f748b35f443ea08b334043de88b2f4043ad88b2940439b88b25f4438f08b23404368c8b1bf4436188b1940435708b15f4434c48b1340433248b0ff4432f08b0df4432908b0bf4431ac8b09f442db88b07f4440dc8b3c1e441e08b3cb4441e48b3c14440848b3940440d48b3aa043f8c8b37f4440808b38a043f788b361e43f848b36b443f888b361443ea48b341e43f6c8b34b443f708b341443e788b31f443e9c8b32a043e708b301e43e048b30b443e748b301443cbc8b2d4043de48b2ea0)
  (.lf 0)) (.nd (.lf
  0x78ca4ea13b078bf8ea11b078bccea0fb078b4cea0db078b28ea0bb078ae4ea09b0789ccea07b078970ea05b0787fcea03b0787c0ea01b07bf30ee3fb07bed4ee3db07be8cee3bb07be40ee39b07bf44ee37b07bd7cee35b07bd1cee33b07bcc4ee31b07bce8ee2fb07bc54ee2db07bc8cee2bb07bc84ee29b07bfacee27b07bbe4ee25b07bbc0ee23b07bbe8ee21b07bb70ee1fb07bb48ee1db07c014ee1bb07ad90ee19b07ad60ee17b07acdcee15b07acc0ee13b07abacee11b07ab84ee0fb07ab38ee0db07a698ee0bb07a658ee09b07a590ee07b07a850ee05b07a308ee03b07a25cee01b07d64cf23fb07d674f23db07d6d0f23bb07d6a8f239b07d4c4f237b07d3ccf235b07d490f233b07d344f231b07d320f22fb07d28cf22db07d27cf22bb07d230f229b07d1f4f227b07d1d0f225b07d204f223b07d180f221b07d188f21fb07d2b8f21db07d2d0f21bb07d114f219b07d0f0f217b07d0c0f215b0)
  (.lf 0))) (.nd (.nd (.lf
  0x30c406a205030c446a1e5030c486a1c5030c4c6a1a5030c506a185030c546a165030c586a145030c5c6a125030c606a105030c646a0e5030c686a0c5030c6c6a0a5030c706a085030c746a065030c786a045030c7c6a025030c806a005030d046e3e7830d086e3c7830d0c6e3a7830d106e387830d146e367830d186e347830d1c6e327830d206e307830d246e2e7830d286e2c7830d2c6e2a7830d306e287830d346e267830d386e247830d3c6e227830d406e207830d446e1e7830d486e1c7830d4c6e1a7830d506e187830d546e167830d586e147830d5c6e127830d606e107830d646e0e7830d686e0c7830d6c6e0a7830d706e087830d746e067830d786e047830d7c6e027830d806e0078332386e3e503323c6e3c50332406e3a50332446e3850332486e36503324c6e3450332506e3250332546e3050333a46e2e50332586e2c503325c6e2a50332606e2850332646e2650332686e2450333b46e2250)
  (.lf 0)) (.nd (.lf
  0x4f008a045d04efdca043d04efa0a041104f4dca03ecc4f4b4a03ccc4f488a03acc4f45ca038cc4f430a036cc4f404a034cc4f3d8a032cc4f3aca030cc4f380a02ecc4f354a02ccc4f328a02acc4f2fca028cc4f2d0a026cc4f2a4a024cc4f278a022cc4f24ca020cc4f220a01ecc4f1f4a01ccc4f1c8a01acc4f19ca018cc4f170a016cc4f144a014cc4f118a012cc4f0eca010cc4f0c0a00ecc4f094a00ccc4f068a00acc4f03ca008cc4f010a006cc4efe4a004cc4efb8a002cc4f4c4a03dd04f498a03bd04f46ca039d04f440a037d04f414a035d04f3e8a033d04f3bca031d04f390a02fd04f364a02dd04f338a02bd04f30ca029d04f2e0a027d04f2b4a025d04f288a023d04f25ca021d04f230a01fd04f204a01dd04f1d8a01bd04f1aca019d04f180a017d04f154a015d04f128a013d04f0fca011d04f0d0a00fd04f0a4a00dd04f078a00bd04f04ca009d04f020a007d04eff4a005d04efc8a003d0)
  (.lf 0)))

def shaWireTree192 : BTree :=
  .nd (.nd (.nd (.lf
  0x37f0000000037d0000000037b00000000379000000003770000000037500000000373000000003710000000036f0000000036d0000000036b00000000369000000003670000000036500000000363000000003610000000035f0000000035d0000000035b00000000359000000003570000000035500000000353000000003510000000034f0000000034d0000000034b00000000349000000003470000000034500000000343000000003410000000033f0000000033d0000000033b00000000339000000003370000000033500000000333000000003310000000032f0000000032d0000000032b00000000329000000003270000000032500000000323000000003210000000031f0000000031d0000000031b00000000319000000003170000000031500000000313000000003110000000030f0000000030d0000000030b0000000030900000000307000000003050000000030300000000301)
  (.lf
  0x27dac9075d027d089073d027c6c9071d027bcc906fd027b28906dd027a84906bd0279e09069d0279449067d0278a49065d0278089063d0277709061d0276d0905fd027634905dd02759c905bd0274fc9059d0274609057d0273c09055d02731c9053d0272809051d0271e8904fd027150904dd0270b0904bd02700c9049d026f709047d026ed09045d026e2c9043d026da09041103d2e0903ecc3d2b8903ccc3d28c903acc3d2609038cc3d2349036cc3d2089034cc3d1dc9032cc3d1b09030cc3d184902ecc3d158902ccc3d12c902acc3d1009028cc3d0d49026cc3d0a89024cc3d07c9022cc3d0509020cc3d024901ecc3cff8901ccc3cfcc901acc3cfa09018cc3cf749016cc3cf489014cc3cf1c9012cc3cef09010cc3cec4900ecc3ce98900ccc3ce6c900acc3ce409008cc3ce149006cc3cde89004cc3cdbc9002cc3d2c8903dd03d29c903bd03d2709039d03d2449037d03d2189035d03d1ec9033d0))
  (.nd (.lf
  0x1686c3a2050168703a1e50168743a1c50168783a1a501687c3a1850168803a1650168843a1450168883a12501688c3a1050168903a0e50168943a0c50168983a0a501689c3a0850168a03a0650168a43a0450168a83a0250168ac3a0050169303e3e78169343e3c78169383e3a781693c3e3878169403e3678169443e3478169483e32781694c3e3078169503e2e78169543e2c78169583e2a781695c3e2878169603e2678169643e2478169683e22781696c3e2078169703e1e78169743e1c78169783e1a781697c3e1878169803e1678169843e1478169883e12781698c3e1078169903e0e78169943e0c78169983e0a781699c3e0878169a03e0678169a43e0478169a83e0278169ac3e007817e343e3e5017e383e3c5017e3c3e3a5017e403e385017e443e365017e483e345017e4c3e325017e503e305017e543e2e5017e583e2c5017e5c3e2a5017e603e285017e643e265017e683e245017e6c3e2250)
  (.lf 0))) (.nd (.nd (.lf
  0x4057483e8b44057883e8304055883e6784055c83e6b44056083e6304053883e4784053c83e4b44054883e4304052883e2784052c83e2b44053083e2304051483e0784051083e0b44051883e0303fe5883de784050483deb44050883de303fe4083dc783fe4483dcb43fe4883dc303fe2883da783fe2c83dab43fe3083da303fe1883d8783fe1c83d8b43fe2083d8303fe0483d6783fdf883d6b43fe0883d6303f08c83d4783f08883d4b43f09083d4303f07c83d2783f07083d2b43f08083d2303f06083d0783f06483d0b43f06883d0303f04c83ce783f05083ceb43f05483ce303f03c83cc783f04083ccb43f04483cc303f02c83ca783f02883cab43f03083ca303eeb083c8783f01883c8b43f01c83c8303ee9c83c6783eea483c6b43eea883c6303ee9083c4783ee8c83c4b43ee9483c4303ee6c83c2783ee7c83c2b43ee8083c230407a886bc78407a486bcb4407ac86bc304079086ba784079886bab4)
  (.lf 0)) (.nd (.lf
  0x41ea08a13b041e808a11b041e608a0fb041d408a0db041d208a0bb041c4c8a09b041c2c8a07b041ae48a05b041a648a03b041a508a01b0443dc8e3fb04425c8e3db0441708e3bb0441748e39b0440108e37b043f548e35b043f588e33b043e688e31b043de08e2fb043d548e2db043b788e2bb043abc8e29b043a6c8e27b043a188e25b0439788e23b0438988e21b0437f88e1fb0437b08e1db0436e08e1bb0436488e19b0435c48e17b0435588e15b04355c8e13b0434188e11b0433788e0fb0432e48e0db0432788e0bb04327c8e09b042da88e07b042c688e05b042c6c8e03b042c708e01b045fe0923fb045fe4923db045f94923bb045f609239b045f649237b045f689235b045f6c9233b045f709231b045f74922fb045f78922db045eb4922bb045ffc9229b045c789227b045c289225b045c2c9223b045c309221b045c34921fb045c38921db045ab8921bb045a709219b045a249217b0459d49215b0)
  (.lf 0)))

def shaWireTree193 : BTree :=
  .nd (.nd (.nd (.lf
  0x15e8045a6b415e8845a63015e6c45a47815e7045a4b415e7445a43015e5845a27815e5c45a2b415e6045a23015e4045a07815e4845a0b415e4c45a03015e34459e7815e30459eb415e38459e3015e1c459c7815e18459cb415e20459c3015e0c459a7815e04459ab415e10459a3015df445987815df04598b415df845983015ddc45967815de04596b415de445963015dc845947815dc44594b415dcc45943015db845927815db44592b415dbc45923015da045907815da44590b415da845903015d90458e7815d8c458eb415d94458e3015d7c458c7815d80458cb415d84458c3015d50458a7815d54458ab415d58458a3015d2845887815d2c4588b415d3045883015d0045867815cfc4586b415d0445863015ce845847815cec4584b415cf045843015ccc45827815cd84582b415ce04582301783c497c7817840497cb417844497c301782c497a7817830497ab417834497a30178184978781781c4978b4)
  (.lf 0)) (.nd (.lf
  0x694d40047fd694dc0047fb694e40047f9694ec0047f7694f40047f5694fc0047f3695040047f16950c0047ef695140047ed6951c0047eb695240047e96952c0047e7695340047e56953c0047e3695440047e16b70c0047df6b7140047dd6b71c0047db6b7980047d96b7a00047d76b7a80047d56b7b00047d36b7b80047d16b7c00047cf6b7c80047cd6b7d00047cb6b7d80047c96b7e00047c76b7e80047c56b7f00047c36b7f80047c16b8000047bf6b8080047bd6b8100047bb6b8180047b96b8200047b76b8280047b56b8300047b36b8380047b16b8400047af6b8480047ad6b8500047ab6b8580047a96b8600047a76b8680047a56b8700047a36b8780047a16da4400479f6da4c00479d6da5400479b6dad00047996dad80047976dae00047956dae80047936daf00047916daf800478f6db0000478d6db0800478b6db100047896db180047876db200047856db280047836db300047816db3800477f)
  (.lf 0))) (.nd (.nd (.lf
  0x71ae0e4187871b30e4183071ad4e416b471ad0e4167871ad8e4163071a88e414b471a64e4147871a8ce4143071a58e412b4719f8e4127871a5ce41230719ece410b4719e8e41078719f0e41030719c8e40eb4719c4e40e78719cce40e3071974e40cb47195ce40c78719bce40c3071930e40ab47192ce40a7871950e40a3071920e408b4718b0e4087871924e40830718a0e406b4718a4e40678718a8e4063071890e404b47188ce4047871898e4043071868e402b471880e4027871884e4023071658e8bcb47165ce8bc7871664e8bc307164ce8bab471644e8ba7871650e8ba3071630e8b8b471638e8b8787163ce8b83071624e8b6b471620e8b67871628e8b63071608e8b4b471610e8b47871614e8b430715f4e8b2b4715f8e8b278715fce8b230715e0e8b0b4715e8e8b078715ece8b030715d4e8aeb4715d0e8ae78715d8e8ae30715c0e8acb4715bce8ac78715c4e8ac30715a4e8aab4715ace8aa78)
  (.lf 0)) (.nd (.lf
  0x58398b2c7d058330b2c5d0582ccb2c3d05824cb2c11058adcb33df458ac0b33b4058a90b3374058a2cb32ff458960b32d4058914b3274058874b32140587f0b31df4587c0b31bf458798b3194058558b3154058364b307f4582fcb305405717cb3fecc5702cb3fccc5718cb3facc57088b3f8cc57048b3f6cc57098b3f4cc56f08b3f2cc56e8cb3f0cc56de4b3eecc56d54b3eccc56c54b3eacc56c1cb3e8cc56bd8b3e6cc57194b3e4cc57050b3e2cc57058b3e0cc570a0b3decc56f10b3dccc56e94b3dacc56decb3d8cc56d5cb3d6cc56c60b3d4cc5719cb3d2cc57060b3d0cc57068b3cecc570acb3cccc56f18b3cacc56ea0b3c8cc56df4b3c6cc56d64b3c4cc56c68b3c2cc57348b3fdd057334b3fbd057320b3f9d05730cb3f7d0572f4b3f5d0572e4b3f3d0572d0b3f1d0572bcb3efd0572a8b3edd057298b3ebd057284b3e9d057270b3e7d05725cb3e5d057244b3e3d057234b3e1d057224b3dfd0)
  (.lf 0)))

def shaWireTree194 : BTree :=
  .nd (.nd (.nd (.lf
  0x7cbd0fd64787cbd8fd64b47cbdcfd64307cbc0fd62787cba4fd62b47cbc4fd62307cb04fd60787cb08fd60b47cb9cfd60307c73cfd5e787caf4fd5eb47cafcfd5e307c6dcfd5c787c730fd5cb47c734fd5c307c620fd5a787c6d0fd5ab47c6d4fd5a307c5c8fd58787c60cfd58b47c618fd58307c5b8fd56787c5bcfd56b47c5c0fd56307c5a8fd54787c5acfd54b47c5b0fd54307c594fd52787c598fd52b47c59cfd52307c52cfd50787c578fd50b47c580fd50307c51cfd4e787c520fd4eb47c524fd4e307c46cfd4c787c510fd4cb47c514fd4c307c3c0fd4a787c460fd4ab47c464fd4a307c378fd48787c398fd48b47c39cfd48307c070fd46787c36cfd46b47c370fd46307bdf4fd44787c050fd44b47c068fd44307bd48fd42787bdb8fd42b47bdbcfd42307d614fdbc787d630fdbcb47d634fdbc307d600fdba787d604fdbab47d608fdba307d5d0fdb8787d5d4fdb8b47d5d8fdb8307d47cfdb678)
  (.lf 0)) (.nd (.lf
  0xa3781fa0780a37c1f9e780a3801f9c780a3841f9a780a3881f98780a38c1f96780a3901f94780a3941f92780a3981f90780a39c1f8e780a3a01f8c780a3a41f8a780a3a81f88780a3ac1f86780a3b01f84780a3b41f82780a3b81f80780bae81fbe300baec1fbc300baf01fba300baf41fb8300baf81fb6300bafc1fb4300bb001fb2300bb041fb0300bb081fae300bb0c1fac300bb101faa300bb141fa8300bb181fa6300bb1c1fa4300bb201fa2300bb241fa0300bb281f9e300bb2c1f9c300bb301f9a300bb341f98300bb381f96300bb3c1f94300bb401f92300bb441f90300bb481f8e300bb4c1f8c300bb501f8a300bb541f88300bb581f86300bb5c1f84300bb601f82300bb641f80300d35c23beb40d36023bcb40d36423bab40d36823b8b40d36c23b6b40d37023b4b40d37423b2b40d37823b0b40d37c23aeb40d38023acb40d38423aab40d38823a8b40d38c23a6b40d39023a4b40d39423a2b4)
  (.lf 0))) (.nd (.nd (.lf
  0x167e83bf630167d03bf478167cc3bf4b4167d43bf430167bc3bf278167b83bf2b4167c03bf230167a83bf078167a43bf0b4167ac3bf030167943bee78167903beeb4167983bee30167803bec781677c3becb4167843bec301676c3bea78167683beab4167703bea30167583be878167543be8b41675c3be830167443be678167403be6b4167483be630167303be4781672c3be4b4167343be4301671c3be278167183be2b4167203be230167083be078167043be0b41670c3be030166f43bde78166f03bdeb4166f83bde30166e03bdc78166dc3bdcb4166e43bdc30166cc3bda78166c83bdab4166d03bda30166b83bd878166b43bd8b4166bc3bd830166a43bd678166a03bd6b4166a83bd630166903bd4781668c3bd4b4166943bd4301667c3bd278166783bd2b4166803bd230166683bd078166643bd0b41666c3bd030166543bce78166503bceb4166583bce30166403bcc781663c3bccb4166443bcc30)
  (.lf 0)) (.nd (.lf
  0x348c07d57d0348ac7d55d0348987d53d0348847d51d0348707d4fd03485c7d4dd033be47d4bd033b5c7d49d033ad07d47d033a347d45d03399c7d43d0339207d4110347e87dbecc347a07dbccc347387dbacc346c07db8cc346447db6cc345c87db4cc345487db2cc344cc7db0cc344507daecc343dc7daccc343647daacc342f07da8cc34e347da6cc34d4c7da4cc341907da2cc34d507da0cc340ac7d9ecc340387d9ccc33fc07d9acc348447d98cc33ecc7d96cc33e507d94cc348407d92cc347ec7d90cc33ce87d8ecc33c687d8ccc33bd47d8acc33b4c7d88cc33ad47d86cc33a447d84cc339a47d82cc350507dbdd0350407dbbd03502c7db9d0350187db7d0350047db5d034ff07db3d034f947db1d034f807dafd034f707dadd034f5c7dabd034f487da9d034f347da7d034f207da5d034ec47da3d034eb07da1d034e9c7d9fd034e887d9dd034e747d9bd034e607d99d034e407d97d034dd07d95d0)
  (.lf 0)))

def shaWireTree195 : BTree :=
  .nd (.nd (.nd (.lf
  0x66b10cea6b466b14cea63066af8cea47866af4cea4b466afccea43066ae0cea27866adccea2b466ae4cea23066acccea07866ac8cea0b466ad0cea03066ab8ce9e7866ab4ce9eb466abcce9e3066aa4ce9c7866aa8ce9cb466aacce9c3066a94ce9a7866a98ce9ab466a9cce9a3066a80ce987866a84ce98b466a88ce983066a6cce967866a70ce96b466a74ce963066a58ce947866a54ce94b466a60ce943066a44ce927866a48ce92b466a4cce923066a30ce907866a2cce90b466a38ce903066a1cce8e7866a20ce8eb466a24ce8e3066a08ce8c7866a04ce8cb466a10ce8c30669f4ce8a78669f8ce8ab4669fcce8a30669dcce8878669d8ce88b4669e8ce8830668c4ce8678669ccce86b4669d0ce863066858ce8478668b8ce84b4668bcce84306684cce827866848ce82b466850ce823067f94ce7cb467f98ce7c7867f9cce7c3067f80ce7ab467f7cce7a7867f84ce7a3067f70ce78b467f68ce7878)
  (.lf 0)) (.nd (.lf
  0x46cb8931d4a46c94931b4a46c5493194a46c289316b446c049314b446be893134a46ba893114a46b7c930eb446b44930d4a46afc930ab446aac93094a46a349306b44696c9304aa4698092c32c4665492c0cc497d8973eb4497c0973d4a497a8973b4a497b097394a497809736b44976c97354a4975497334a4973c9730b449728972eb4497fc972d4a495f4972b4a495b09728b44951497274a494fc9724b44952897234a492d09720b4492c4971eb4492b8971cb4492a8971ab4492989718b44929097174a492789714b44926497134a4924c9710b449234970f4a49180970cb4490c8970b4a48de497094a48d3897074a48cb89704b448c3497034a48bc09700aa4c1dc9b3f4a4c1749b3cb44c1609b3ab44be649b38b44be589b36b44be449b34b44be349b32b44bd609b314a4bc449b2f4a4bad49b2d4a4bab09b2ab44b9e89b28b44b9dc9b26b44b9109b24b44b86c9b234a4b7389b20b44b6e89b1f4a)
  (.lf 0))) (.nd (.nd (.lf
  0x1dca06c5a301dc886c58b41dc846c58781dc8c6c58301dc746c56b41dc706c56781dc786c56301dc606c54b41dc5c6c54781dc646c54301dc4c6c52b41dc486c52781dc506c52301dc386c50b41dc346c50781dc3c6c50301dc246c4eb41dc206c4e781dc286c4e301dc106c4cb41dc0c6c4c781dc146c4c301dbfc6c4ab41dbf86c4a781dc006c4a301dbe86c48b41dbe46c48781dbec6c48301dbd46c46b41dbd06c46781dbd86c46301dbc06c44b41dbbc6c44781dbc46c44301dbac6c42b41dba86c42781dbb06c4230347486c3cb4347a46c3c78347a86c3c30346d06c3ab43473c6c3a78347406c3a30346546c38b4346c46c3878346c86c3830345d86c36b4346486c36783464c6c36303455c6c34b4345cc6c3478345d06c3430344e06c32b4345506c3278345546c3230344646c30b4344d46c3078344d86c3030343f06c2eb4344586c2e783445c6c2e30343786c2cb4343e46c2c78343e86c2c30)
  (.lf 0)) (.nd (.lf
  0xe02c3251d00dfb0324fd00df20324dd00dea0324bd00de243249d00dda83247d00dd303245d00dcbc3243d00dc60324110148e432fecc148a032fccc1484832facc147ec32f8cc1479832f6cc1474832f4cc146f032f2cc146a432f0cc1464c32eecc1460032eccc145a832eacc1455432e8cc144f832e6cc144a432e4cc1444832e2cc143fc32e0cc143ac32decc1435c32dccc1430832dacc142b832d8cc1425c32d6cc1420832d4cc141b432d2cc1416432d0cc1411032cecc140c032cccc1406432cacc1401032c8cc13fbc32c6cc13f7c32c4cc13f3832c2cc148cc32fdd01488432fbd01482c32f9d0147d032f7d01477c32f5d01472c32f3d0146d432f1d01468832efd01463032edd0145e432ebd01458c32e9d01453832e7d0144dc32e5d01448832e3d01442c32e1d0143e032dfd01439032ddd01434032dbd0142ec32d9d01429c32d7d01424032d5d0141ec32d3d01419832d1d01414832cfd0)
  (.lf 0)))

def shaWireTree196 : BTree :=
  .nd (.nd (.nd (.lf
  0x56e0197f2c05670197d2c055f8197b2c0556c19792c054dc19772c0546019752c053d019732c0535419712c052c8196f2c0523c196d2c051ac196b2c0512c19692c050ac19672c0502c19652c04fac19632c04f2c19612c04eb0195f2c04e24195d2c04d98195b2c04d0c19592c04c8019572c04bf019552c04b7419532c04ae819512c04a5c194f2c049d0194d2c04940194b2c048c019492c0484419472c047b819452c0472c19432c046e41940cc06fec1d7f2c06f941d7d2c06f241d7b2c06eac1d792c06e481d772c06dd01d752c06d681d732c06d041d712c06c901d6f2c06c181d6d2c06bb41d6b2c06b401d692c06ac81d672c06a641d652c069ec1d632c069881d612c069141d5f2c068a01d5d2c068281d5b2c067c41d592c067501d572c066d81d552c066741d532c066001d512c0658c1d4f2c065141d4d2c064b01d4b2c064381d492c063d01d472c0636c1d452c062f41d432c062481d40cc)
  (.lf
  0x7fed41c7d2c7febc1c7b2c7fee81c792c7fe9c1c772c7fe881c752c7fe801c732c7fe5c1c712c7fe4c1c6f2c7fe341c6d2c7fe201c6b2c7fe0c1c692c7fdfc1c672c7fdf01c652c7fdd41c632c7fdc01c612c7fda81c5f2c7fd941c5d2c7fd801c5b2c7fd701c592c7fd601c572c7fd4c1c552c7fd301c532c7e9c81c512c7e86c1c4f2c7e3281c4d2c7dd501c4b2c7dcc01c492c7db8c1c472c7d5681c452c7d4a81c432c7d4cc1c40cc009200e7ecc0091c0e7ccc009180e7acc009140e78cc009100e76cc0090c0e74cc009080e72cc009040e70cc009000e6ecc008fc0e6ccc008f80e6acc008f40e68cc008f00e66cc008ec0e64cc008e80e62cc008e40e60cc008e00e5ecc008dc0e5ccc008d80e5acc008d40e58cc008d00e56cc008cc0e54cc008c80e52cc008c40e50cc008c00e4ecc008bc0e4ccc008b80e4acc008b40e48cc008b00e46cc008ac0e44cc008a80e42cc00b780e7dd000b640e7bd0))
  (.nd (.lf
  0x63bd4cba0b463be8cb9eb463b3ccb9cb463b1ccb9ab463b58cb98b463abccb96b463954cb94b463920cb92b463924cb90b4638e4cb8eb46340ccb8cb46315ccb8ab4630e4cb88b462f8ccb86b462d50cb84b462ca8cb82b462c44cb80b46258ccbbe7862520cbbc78624cccbba78623fccbb87862268cbb67862340cbb4786216ccbb27862094cbb07862004cbae7861ef8cbac7861eb0cbaa7861e5ccba87861da8cba67861d14cba47861caccba27861c68cba07861b68cb9e7861b18cb9c7861acccb9a7861a90cb987861a2ccb9678619d4cb9478616d0cb927861660cb907861618cb8e78615c0cb8c78614fccb8a7861448cb8878613c0cb867861374cb847861354cb827860eb4cb807864864cbbe3064814cbbc30647b4cbba3064758cbb830646d4cbb63064668cbb4306466ccbb230643d8cbb03064100cbae306402ccbac3064170cbaa306414ccba83063f90cba63063cfccba43063c18cba230)
  (.lf 0))) (.nd (.nd (.lf
  0x2bbfc5ff4782bbf85ff4b42bc005ff4302bbe85ff2782bbe45ff2b42bbec5ff2302bbd45ff0782bbd05ff0b42bbd85ff0302bbc05fee782bbbc5feeb42bbc45fee302bbac5fec782bba85fecb42bbb05fec302bb985fea782bb945feab42bb9c5fea302bb845fe8782bb805fe8b42bb885fe8302bb705fe6782bb6c5fe6b42bb745fe6302bb5c5fe4782bb585fe4b42bb605fe4302bb485fe2782bb445fe2b42bb4c5fe2302bb345fe0782bb305fe0b42bb385fe0302bb205fde782bb1c5fdeb42bb245fde302bb0c5fdc782bb085fdcb42bb105fdc302baf85fda782baf45fdab42bafc5fda302bae45fd8782bae05fd8b42bae85fd8302bad05fd6782bacc5fd6b42bad45fd6302babc5fd4782bab85fd4b42bac05fd4302baa85fd2782baa45fd2b42baac5fd2302ba945fd0782ba905fd0b42ba985fd0302ba805fce782ba7c5fceb42ba845fce302ba6c5fcc782ba685fccb42ba705fcc302ba585fca78)
  (.lf 0)) (.nd (.lf
  0x7e205014fd07e1d1014dd07dc79014bd07dc410149d07db2d0147d07d5050145d07d43d0143d07d38d0141107e59501becc7e58101bccc7e56d01bacc7e7f101b8cc7e51d01b6cc7e4e501b4cc7e4dd01b2cc7e4f101b0cc7e4a901aecc7e49501accc7f76901aacc7e50101a8cc7e45501a6cc7e4fd01a4cc7e52101a2cc7e52901a0cc7e3d1019ecc7e401019ccc7e3a9019acc7e3fd0198cc7e5350196cc7e3e10194cc7e2b90192cc7e2310190cc7e20d018ecc7e22d018ccc7dc21018acc7dca50188cc7db650186cc7d5190184cc7d4010182cc7f52501bdd07f25101bbd07f1c901b9d07f15901b7d07f0c501b5d07f06901b3d07efd101b1d07ef9d01afd07ef6901add07ef3901abd07ef2901a9d07eef501a7d07e8b901a5d07e89501a3d07e88501a1d07e7f9019fd07e7a9019dd07e781019bd07e7710199d07e74d0197d07e3890195d07e2d50193d07e2950191d07e271018fd07e249018dd0)
  (.lf 0)))

def shaWireTree197 : BTree :=
  .nd (.nd (.nd (.lf
  0x7df20f2a4787df24f2a4b47df28f2a4307df14f2a2787de80f2a2b47df18f2a2307de70f2a0787de74f2a0b47de78f2a0307de5cf29e787de54f29eb47de60f29e307de40f29c787de3cf29cb47de48f29c307de28f29a787de2cf29ab47de30f29a307de04f298787de08f298b47de1cf298307ddbcf296787ddf8f296b47ddfcf296307dda0f294787ddacf294b47ddb0f294307dd74f292787dd94f292b47dd98f292307dbc0f290787dbc8f290b47dd6cf290307dbb0f28e787dbb4f28eb47dbb8f28e307dba4f28c787db9cf28cb47dba8f28c307db58f28a787db90f28ab47db94f28a307dac4f288787dac8f288b47daccf288307dab4f286787dab8f286b47dabcf286307daa8f284787d4dcf284b47daacf284307d4d0f282787d3c8f282b47d4d4f28230788b0f27cb4788b4f27c78788b8f27c307889cf27ab4788a4f27a78788a8f27a3078888f278b478890f2787878894f2783078878f276b4)
  (.lf 0)) (.nd (.lf
  0x462bc939dd0462c0939bd0462c49399d0462c89397d0462cc9395d0464b09393d0459b89391d0458cc938fd0473ec938dd04584c938bd0457889389d0455cc9387d0453f89385d0453949383d04531c9381d047bac97bfd047bb497bdd047b5497bbd047a9c97b9d047aa097b7d047aa497b5d047aa897b3d047a0497b1d0479c497afd04788097add04788497abd04788897a9d04788c97a7d0477a097a5d04777097a3d04770c97a1d0476b0979fd0476b4979dd0476d4979bd04761c9799d0475e49797d0475ac9795d0475589793d0475249791d047528978fd04752c978dd047494978bd0474609789d046a689787d0469f49785d0469c09783d04667c9781d049a109bbfd049a189bbdd0499ac9bbbd04997c9bb9d049a709bb7d0498c09bb5d0499249bb3d0498c49bb1d0498549bafd0498249badd0496209babd0495e49ba9d0495949ba7d0495989ba5d04953c9ba3d0494609ba1d0494649b9fd0)
  (.lf 0))) (.nd (.nd (.lf
  0x53ab8a836b453a98a8367853abca8363053a8ca834b453a6ca8347853a90a8343053a60a832b453a40a8327853a64a8323053a34a830b453a14a8307853a38a8303053a08a82eb4539e8a82e7853a0ca82e30539dca82cb4539bca82c78539e0a82c30539b0a82ab453990a82a78539b4a82a3053984a828b453964a8287853988a8283053958a826b453938a826785395ca826305392ca824b45390ca8247853930a8243053900a822b4538e0a8227853904a82230538d4a820b4538b4a82078538d8a82030538a8a81eb453888a81e78538aca81e305387ca81cb45385ca81c7853880a81c3053850a81ab453830a81a7853854a81a3053824a818b453804a8187853828a81830537f8a816b4537d8a81678537fca81630537cca814b4537aca81478537d0a81430537a0a812b453780a81278537a4a8123053774a810b453754a8107853778a8103053748a80eb453728a80e785374ca80e305371ca80cb4)
  (.lf 0)) (.nd (.lf
  0x366e872fecc3668c72fccc3661c72facc365c072f8cc3654072f6cc364cc72f4cc3647072f2cc363d472f0cc3637072eecc362f472eccc3628872eacc361f472e8cc3618472e6cc3611472e4cc360a472e2cc3603472e0cc35fc472decc35f5472dccc35ee472dacc35e7872d8cc35e0472d6cc35d9472d4cc35d2072d2cc35ca872d0cc35c2c72cecc35bb472cccc35b3072cacc35aa472c8cc35a2072c6cc359a072c4cc3591072c2cc366ac72fdd03662872fbd0365e072f9d03657472f7d03650472f5d03644c72f3d0363e472f1d03636872efd0362ec72edd03627072ebd03620472e9d03619472e7d03613072e5d0360c072e3d03605072e1d035fe072dfd035f7072ddd035f0072dbd035e9472d9d035e2872d7d035db472d5d035d4472d3d035cd072d1d035c5472cfd035bdc72cdd035b5872cbd035acc72c9d035a4072c7d0359bc72c5d03593472c3d0358d072c11034c4873fecc350d473fccc)
  (.lf 0)))

def shaWireTree198 : BTree :=
  .nd (.nd (.nd (.lf
  0x4746ca14830469e4a1467846a50a146b446a58a14630469d8a14478469d4a144b4469dca1443046668a14278469c8a142b4469cca1423048088a1bc7848084a1bcb448090a1bc3048078a1ba7848074a1bab44807ca1ba3048064a1b8784805ca1b8b448068a1b83047fb0a1b67848050a1b6b448054a1b63047f98a1b47847fa0a1b4b447fa4a1b43047f8ca1b27847f88a1b2b447f90a1b23047f78a1b07847f7ca1b0b447f80a1b03047f64a1ae7847f60a1aeb447f6ca1ae3047f54a1ac7847f50a1acb447f58a1ac3047f40a1aa7847f38a1aab447f44a1aa3047f2ca1a87847f28a1a8b447f30a1a83047f18a1a67847f14a1a6b447f1ca1a63047f04a1a47847efca1a4b447f08a1a43047ef0a1a27847eeca1a2b447ef4a1a23047ed8a1a07847ed4a1a0b447ee0a1a03047ec8a19e7847ec4a19eb447ecca19e3047eb4a19c7847eaca19cb447eb8a19c3047e80a19a7847ea0a19ab447ea4a19a30)
  (.lf 0)) (.nd (.lf
  0x27628905d2c27590905b2c274f090592c2745490572c273b490552c2731090532c2727490512c271dc904f2c27144904d2c270a4904b2c2700090492c26f6490472c26ec490452c26e2090432c26da49040cc48b4c947f2c48b24947d2c48af8947b2c48acc94792c48aa094772c48a7494752c48a4894732c48a1c94712c489f0946f2c489c4946d2c48998946b2c4896c94692c4894094672c4891494652c488e894632c488bc94612c48890945f2c48864945d2c48838945b2c4880c94592c487e094572c487b494552c4878894532c4875c94512c48730944f2c48704944d2c486d4944b2c486a894492c4867c94472c4865094452c4862494432c486149440cc4aea0987f2c4ae78987d2c4ae4c987b2c4ae2098792c4adf498772c4adc898752c4ad9c98732c4ad7098712c4ad44986f2c4ad18986d2c4acec986b2c4acc098692c4ac9498672c4ac6898652c4ac3c98632c4ac1098612c4abe4985f2c)
  (.lf 0))) (.nd (.nd (.lf
  0x92c81704a0092481702a008ea817fc7808ea417fcb408eac17fc3008e9417fa7808e9017fab408e9817fa3008e8017f87808e7c17f8b408e8417f83008e6c17f67808e6817f6b408e7017f63008e5817f47808e5417f4b408e5c17f43008e4417f27808e4017f2b408e4817f23008e3017f07808e2c17f0b408e3417f03008e1c17ee7808e1817eeb408e2017ee3008e0817ec7808e0417ecb408e0c17ec3008df417ea7808df017eab408df817ea3008de017e87808ddc17e8b408de417e83008dcc17e67808dc817e6b408dd017e63008db817e47808db417e4b408dbc17e43008da417e27808da017e2b408da817e23008d9017e07808d8c17e0b408d9417e03008d7c17de7808d7817deb408d8017de3008d6817dc7808d6417dcb408d6c17dc3008d5417da7808d5017dab408d5817da3008d4017d87808d3c17d8b408d4417d83008d2c17d67808d2817d6b408d3017d63008d1817d47808d1417d4b4)
  (.lf 0)) (.nd (.lf
  0x7cf38f3fecc7cee4f3fccc7cf20f3facc7d8b4f3f8cc7cea4f3f6cc7d890f3f4cc7cdf4f3f2cc7cde4f3f0cc7cd74f3eecc7cd50f3eccc7ccf0f3eacc7ccacf3e8cc7cfb0f3e6cc7cf28f3e4cc7cef8f3e2cc7cf9cf3e0cc7d8a8f3decc7cf50f3dccc7cdd4f3dacc7cd7cf3d8cc7cd48f3d6cc7cd04f3d4cc7cf14f3d2cc7ceb8f3d0cc7ce8cf3cecc7d898f3cccc7cdfcf3cacc7cdc4f3c8cc7cf60f3c6cc7cd28f3c4cc7ccdcf3c2cc7da98f3fdd07da84f3fbd07da74f3f9d07da60f3f7d07da4cf3f5d07da38f3f3d07da24f3f1d07da10f3efd07d9f8f3edd07d9e8f3ebd07d9d0f3e9d07d9c0f3e7d07d9acf3e5d07d998f3e3d07d984f3e1d07d96cf3dfd07d95cf3ddd07d948f3dbd07d934f3d9d07d920f3d7d07d90cf3d5d07d8f8f3d3d07d8e4f3d1d07d8d0f3cfd07d8c0f3cdd07cfa4f3cbd07cf80f3c9d07cf6cf3c7d07cd34f3c5d07ccf8f3c3d07cc74f3c1107f664f6becc7f380f6bccc)
  (.lf 0)))

def shaWireTree199 : BTree :=
  .nd (.nd (.nd (.lf
  0x51038a7dc3051020a7da7851010a7dab451024a7da3050ff8a7d87850ffca7d8b451000a7d83050fe8a7d67850fe4a7d6b450feca7d63050fd8a7d47850fd0a7d4b450fdca7d43050fc4a7d27850fc0a7d2b450fc8a7d23050f7ca7d07850fb4a7d0b450fb8a7d03050ec8a7ce7850f70a7ceb450f74a7ce3050e64a7cc7850ebca7ccb450ec0a7cc3050e08a7ca7850e50a7cab450e54a7ca3050dfca7c87850df8a7c8b450e00a7c83050deca7c67850de8a7c6b450df0a7c63050d20a7c47850ddca7c4b450de0a7c43050d14a7c27850d00a7c2b450d18a7c230530e8aabc78530e4aabcb4530ecaabc30530ccaaba78530d4aabab4530d8aaba30530c0aab878530bcaab8b4530c4aab830530a8aab678530acaab6b4530b0aab6305308caab47853098aab4b45309caab4305307caab27853080aab2b453084aab23053070aab0785306caab0b453074aab03053054aaae785305caaaeb453060aaae30)
  (.lf 0)) (.nd (.lf
  0x3caa08a532c3ca888a512c3ca708a4f2c3ca5c8a4d2c3ca488a4b2c3ca2c8a492c3ca348a472c3c9c48a452c3c9cc8a432c3c9708a40cc457088e7f2c456f48e7d2c4571c8e7b2c456d48e792c456b88e772c456a08e752c456bc8e732c457288e712c457ac8e6f2c456548e6d2c456448e6b2c456248e692c456108e672c456008e652c457348e632c4557c8e612c4555c8e5f2c455488e5d2c455288e5b2c455148e592c455008e572c455688e552c454d48e532c457408e512c454ac8e4f2c454948e4d2c457b48e4b2c454588e492c454348e472c452bc8e452c452a88e432c452948e40cc40500927f2c404f0927d2c404dc927b2c404c892792c404b492772c404a092752c4048c92732c4047892712c40460926f2c4044c926d2c40438926b2c4042492692c4041092672c4040092652c403ec92632c403d892612c401ec925f2c401d4925d2c401c4925b2c4009c92592c401b092572c3fdc892552c)
  (.lf 0))) (.nd (.nd (.lf
  0x392b8002181392bc00217f392c000217d392c400217b392c8002179392cc002177392d0002175392d4002173392d8002171392dc00216f392e000216d392e400216b392e8002169392ec00216738548002165384b4002163384200021613b10000215f3b10400215d3b10800215b3b10c0021593b1100021573b1140021553b1180021533b11c0021513b12000214f3b12400214d3b12800214b3b12c0021493b1300021473b1340021453b1380021433b13c0021413b14000213f3b14400213d3b14800213b3b14c0021393b1500021373b1540021353b1580021333b15c0021313b16000212f3b16400212d3b16800212b3b16c0021293b1700021273b1740021253b1780021233b17c0021213f09800211f3f09c00211d3f0a000211b3f0a40021193f0a80021173f0ac0021153f0b00021133f0b40021113f0b800210f3f0bc00210d3f0c000210b3f0c40021093f0c80021073f0cc0021053f0d0002103)
  (.lf 0)) (.nd (.lf
  0x72880e86dd072858e86bd072848e869d072838e867d072820e865d072808e863d0727f0e861d0727d8e85fd0727b8e85dd0727a4e85bd072790e859d072778e857d072760e855d0726e0e853d0726c8e851d0726b0e84fd072684e84dd07266ce84bd07264ce849d072620e847d0725ace845d072590e843d07254ce8411072944e83ecc72934e83ccc72948e83acc728f8e838cc72900e836cc72904e834cc728bce832cc728a0e830cc72890e82ecc7287ce82ccc72870e82acc72878e828cc7282ce826cc7281ce824cc727f8e822cc727e0e820cc727cce81ecc727d0e81ccc727c8e81acc72784e818cc72774e816cc726e8e814cc726d0e812cc726b8e810cc72690e80ecc72678e80ccc72658e80acc72628e808cc725b4e806cc7259ce804cc72560e802cc72cc8e83dd072c90e83bd072c70e839d072c44e837d072c34e835d072c0ce833d072be0e831d072bbce82fd072b90e82dd072b5ce82bd0)
  (.lf 0)))

def shaWireTree200 : BTree :=
  .nd (.nd (.nd (.lf
  0x48098a1bf2c4808ca1bd2c48070a1bb2c48060a1b92c47faca1b72c47f9ca1b52c4820ca1b32c47f74a1b12c47f68a1af2c47f4ca1ad2c47f3ca1ab2c47f24a1a92c47f10a1a72c47f00a1a52c47ee8a1a32c47edca1a12c47ec0a19f2c47eb0a19d2c47e84a19b2c47e6ca1992c46fc8a1972c46fb0a1952c46fa4a1932c46f88a1912c46f78a18f2c46b58a18d2c46b14a18b2c46ac4a1892c46a40a1872c4699ca1852c46988a1832c4665ca180cc4a3c0a5bf2c4a3aca5bd2c4a398a5bb2c4a38ca5b92c4a370a5b72c4a360a5b52c4a34ca5b32c4a324a5b12c4a308a5af2c4a2c8a5ad2c4a2aca5ab2c4a2e4a5a92c4a26ca5a72c4a25ca5a52c4a1dca5a32c4a1c8a5a12c4a1bca59f2c4a19ca59d2c4a2f4a59b2c4a178a5992c4a16ca5972c4a154a5952c4a140a5932c4a128a5912c4a108a58f2c4a0dca58d2c4a0c8a58b2c48e08a5892c48d40a5872c48cd0a5852c48c3ca5832c48bc4a580cc)
  (.lf
  0x1d6286479d01d6146477d01d6006475d01d5ec6473d01d5d86471d01d5c4646fd01d5b0646dd01d59c646bd01d5886469d01d5746467d01d5606465d01d54c6463d01d5386461d01d524645fd01d510645dd01d4fc645bd01d4e86459d01d4d46457d01d4c06455d01d4ac6453d01d4986451d01d484644fd01d470644dd01d45c644bd01d4486449d01d4346447d01d4206445d01d40c6443d01d3f4644110309bc643ecc3095c643ccc308e8643acc308786438cc308046436cc307946434cc307246432cc306a46430cc30624642ecc305a4642ccc3051c642acc304906428cc3040c6426cc3038c6424cc3030c6422cc302846420cc301f8641ecc3016c641ccc300e8641acc300686418cc2ffe86416cc2ff606414cc2fed46412cc2fe506410cc2fdd0640ecc2fd48640ccc2fcbc640acc2fc386408cc2fbb06406cc2fb2c6404cc2faa86402cc309a4643dd030940643bd0308cc6439d03085c6437d0))
  (.nd (.lf
  0x2b8b80033012b8bc0032ff2b8c00032fd2b8c40032fb2b8c80032f92b8cc0032f72b8d00032f52b8d40032f32b8d80032f12b8dc0032ef2b8e00032ed2b8e40032eb2b8e80032e92b8ec0032e72b8f00032e52b8f40032e32b8f80032e12d4380032df2cb7c0032dd2d2b80032db2d2bc0032d92d2c00032d72d2c40032d52d2c80032d32d1e80032d12d13c0032cf2d1400032cd2d1440032cb2d43c0032c92d1480032c72d2cc0032c52d2d00032c32d2d40032c12d2d80032bf2d2dc0032bd2d1ec0032bb2d14c0032b92d1500032b72d1540032b52d1580032b32d15c0032b12d1600032af2d0600032ad2d02c0032ab2d0300032a92d0340032a72d0380032a52d03c0032a32cbac0032a12eb3000329f2eb0400329d2f1c800329b2f1cc0032992f1d00032972f1d40032952f1d80032932f1dc0032912f0d000328f2f05400328d2f05800328b2f05c0032892f0600032872f1e00032852f324003283)
  (.lf 0))) (.nd (.nd (.lf
  0x35ae0724ab435b60724a7835b64724a3035a547248b435ad472487835ad8724830359d07246b435a4872467835a4c724630359487244b4359c4724478359c8724430358e07242b43593c72427835940724230366a472fcb43662c72fc78366a872fc303662072fab4365e472fa783662472fa30365c472f8b43657872f878365dc72f8303656c72f6b43650872f6783657072f630364fc72f4b43645072f4783650072f4303644472f2b4363e872f2783644872f230363dc72f0b43636c72f078363e072f0303636072eeb4362f072ee783636472ee30362e472ecb43627472ec78362e872ec303626872eab43620872ea783626c72ea30361fc72e8b43619872e8783620072e8303618c72e6b43613472e6783619072e6303612872e4b4360c472e4783612c72e430360b872e2b43605472e278360bc72e2303604872e0b435fe472e0783604c72e03035fd872deb435f7472de7835fdc72de3035f6872dcb4)
  (.lf 0)) (.nd (.lf
  0x42b1800687342b2000687142b2800686f4314000686d4314800686b4315000686942d2800686742b3000686542b3800686342b40006861442a400685f442a800685d442b000685b43ba400685943ba800685743bac006855445e0006853442b8006851442c000684f442c800684d442d000684b445e8006849442d8006847442e0006845442e8006843442f0006841442f800683f4430000683d4430800683b443100068394431800683743bb000683543bb800683343bc000683143bc800682f445f000682d4432000682b44328006829443300068274433800682544340006823443480068214655c00681f4656400681d4656c00681b465740068194657c006817465840068154658c006813465940068114659c00680f465a400680d465ac00680b465b4006809465bc006807465c4006805465cc006803465d4006801465dc0067ff465e40067fd465ec0067fb465f40067f9465fc0067f7466040067f5)
  (.lf 0)))

def shaWireTree201 : BTree :=
  .nd (.nd (.nd (.lf
  0x4d1419583004c0019567804c841956b404c8819563004b8419547804bf41954b404bf819543004af819527804b781952b404b7c19523004a6c19507804aec1950b404af0195030049e0194e7804a60194eb404a64194e3004950194c78049d4194cb4049d8194c30048d0194a7804944194ab404948194a3004854194878048c41948b4048c8194830047c8194678048481946b40484c1946300473c194478047bc1944b4047c0194430046e8194278047301942b4047341942300566019bc78055f019bcb40566419bc30055e419ba780556419bab4055e819ba300555819b878054d419b8b40555c19b830054c819b6780545819b6b4054cc19b6300544c19b478053c819b4b40545019b430053bc19b2780534c19b2b4053c019b2300534019b078052c019b0b40534419b030052b419ae780523419aeb4052b819ae300522819ac78051a419acb40522c19ac300519819aa780512419aab40519c19aa30)
  (.lf 0)) (.nd (.lf
  0x4764893dd2c4767893db2c475d493d92c475bc93d72c4758093d52c474c893d32c474b493d12c4744893cf2c474d893cd2c4742093cb2c4741893c92c464a093c72c4646c93c52c4645893c32c4649093c0cc47e5c97ff2c47e5497fd2c47e3c97fb2c47e2097f92c47e0c97f72c47df897f52c47de497f32c47dd497f12c47dc897ef2c47da897ed2c47d9497eb2c47d8c97e92c47d7097e72c47d5897e52c47d5097e32c47d3097e12c47d1c97df2c47d0897dd2c47cf497db2c47ce497d92c47cd897d72c47cb897d52c47ca497d32c47c9097d12c47c7c97cf2c47c6c97cd2c47c6097cb2c47c4097c92c47c2c97c72c47c1c97c52c479ec97c32c4799897c0cc49cfc9bff2c49cec9bfd2c49cd49bfb2c49cc49bf92c49cac9bf72c49c9c9bf52c49c889bf32c49c749bf12c49c609bef2c49c489bed2c49c349beb2c49c209be92c49c0c9be72c49bf89be52c49be49be32c49bd49be12c49bc09bdf2c)
  (.lf 0))) (.nd (.nd (.lf
  0x61090c88a306106cc888b461068c888786107cc8883061058c886b46105cc8867861060c8863061048c884b461040c884786104cc884306102cc882b461034c8827861038c8823065974c87cb46596cc87c7865978c87c306592cc87ab465934c87a7865964c87a3065920c878b465904c8787865924c87830658f0c876b4658f4c87678658f8c87630658e4c874b4658e0c87478658e8c87430658ccc872b4658c8c87278658d0c87230658b8c870b4658bcc87078658c0c87030658a8c86eb4658a4c86e78658acc86e3065894c86cb465850c86c7865898c86c3065800c86ab465844c86a7865848c86a30657f4c868b4657b0c86878657f8c868306576cc866b4657a4c86678657a8c8663065760c864b465734c8647865764c86430656fcc862b465728c862786572cc86230656f0c860b4656b4c86078656f4c8603065664c85eb4656a8c85e78656acc85e3065658c85cb465614c85c786565cc85c30)
  (.lf 0)) (.nd (.lf
  0x46e5492f3d046e4092f1d046e3092efd046e0092edd046de492ebd046dc092e9d046d9c92e7d046d7092e5d046d4892e3d046d1c92e1d046cf492dfd046cd092ddd046ca492dbd046c7492d9d046c4492d7d046c1c92d5d046bf892d3d046bcc92d1d046b9c92cfd046b7492cdd046b3892cbd046ae492c9d046a9492c7d046a1c92c5d04696492c3d04665092c11046f4c933df446f04933bf446ef093394046ec093334046e1c932f4046d5c93254046d0c93214046c8c931bf446c649319f446c3093174046bb89311f446b84930f4046b1c930b4046a489307404639c93fecc463a493fccc463ac93facc464c893f8cc463b493f6cc463bc93f4cc474a093f2cc463c493f0cc463cc93eecc463d493eccc463dc93eacc463e493e8cc464d093e6cc463ec93e4cc463f493e2cc4749c93e0cc463fc93decc4640493dccc4640c93dacc4641493d8cc4641c93d6cc4642493d4cc464b493d2cc4643093d0cc)
  (.lf 0)))

def shaWireTree202 : BTree :=
  .nd (.nd (.nd (.lf
  0x5f264cd96b45f268cd96305f250cd94785f248cd94b45f254cd94305f23ccd92785f194cd92b45f240cd92305f188cd90785f064cd90b45f18ccd90305f04ccd8e785f01ccd8eb45f050cd8e305f010cd8c785efc4cd8cb45f014cd8c305efaccd8a785ef80cd8ab45efb0cd8a305ef74cd88785ef30cd88b45ef78cd88305ef20cd86785ef24cd86b45ef28cd86305ef10cd84785e770cd84b45ef14cd84305e75ccd82785e620cd82b45e760cd8230624a4d17c7862500d17cb462504d17c30623d0d17a7862498d17ab46249cd17a3062258d17878623c4d178b4623c8d178306224cd1767862248d176b462250d1763062154d1747862238d174b46223cd174306207cd1727862148d172b46214cd1723061fe4d1707862070d170b462074d1703061f38d16e7861fd8d16eb461fdcd16e3061e90d16c7861f2cd16cb461f30d16c3061e3cd16a7861e84d16ab461e88d16a3061dd0d1687861e30d168b4)
  (.lf 0)) (.nd (.lf
  0x57eb8b01d2c57e8cb01b2c57e60b0192c57e34b0172c57e08b0152c57ddcb0132c57db0b0112c57d84b00f2c57d58b00d2c57d2cb00b2c57d00b0092c57cd4b0072c57ca8b0052c57c7cb0032c57c6cb000cc5ada8b43f2c5ad9cb43d2c5ad80b43b2c5adb0b4392c5adb8b4372c5ad3cb4352c5ad28b4332c5ad14b4312c5acf8b42f2c5ace0b42d2c5acc8b42b2c5acacb4292c5ac64b4272c5ac2cb4252c5ab84b4232c5ab90b4212c5a594b41f2c5a584b41d2c5a558b41b2c5a560b4192c5a530b4172c5a518b4152c5a878b4132c5a4e4b4112c5a4acb40f2c5a478b40d2c5a450b40b2c5a3fcb4092c5a404b4072c5a2b0b4052c5a2e0b4032c59f94b400cc5d000b83f2c5cf88b83d2c5cef4b83b2c5ce7cb8392c5cdf0b8372c5cd64b8352c5ccdcb8332c5cc6cb8312c5cbe0b82f2c5cb68b82d2c5cae8b82b2c5ca6cb8292c5c9f8b8272c5c99cb8252c5c8d8b8232c5c894b8212c5c850b81f2c)
  (.lf 0))) (.nd (.nd (.lf
  0xab202a44780ab902a44300ab142a42b40aac82a42780ab182a423011cb02afcb411d182afc7811d1c2afc3011c282afab411ca42afa7811ca82afa3011ba42af8b411c1c2af87811c202af83011b242af6b411b982af67811b9c2af63011a9c2af4b411b182af47811b1c2af43011a182af2b411a902af27811a942af230119982af0b411a0c2af07811a102af030119182aeeb41198c2aee78119902aee30118982aecb41190c2aec78119102aec30118102aeab41188c2aea78118902aea30117842ae8b4118042ae878118082ae830117002ae6b4117782ae6781177c2ae630116802ae4b4116f42ae478116f82ae430116002ae2b4116742ae278116782ae230115782ae0b4115f42ae078115f82ae030114ec2adeb41156c2ade78115702ade30114682adcb4114e02adc78114e42adc30113e82adab41145c2ada78114602ada30113682ad8b4113dc2ad878113e02ad830112e82ad6b41135c2ad678)
  (.lf 0)) (.nd (.lf
  0x11414399bd0113943999d0113143997d0112983995d0112083993d01118c3991d011100398fd011070398dd010ff4398bd010f683989d010edc3987d010e503985d010dd43983d010d8c3981101362c3d7ecc135c43d7ccc135383d7acc134bc3d78cc1342c3d76cc133b03d74cc133203d72cc132a43d70cc132143d6ecc131943d6ccc131143d6acc130943d68cc130183d66cc12f8c3d64cc12efc3d62cc12e7c3d60cc12dfc3d5ecc12d803d5ccc12cf43d5acc12c683d58cc12bdc3d56cc12b503d54cc12ac03d52cc12a443d50cc129b83d4ecc1292c3d4ccc1289c3d4acc1281c3d48cc1279c3d46cc1271c3d44cc126a03d42cc135d43d7dd0135483d7bd0134cc3d79d01343c3d77d0133c03d75d0133303d73d0132b43d71d0132243d6fd0131a43d6dd0131243d6bd0130a43d69d0130283d67d012f9c3d65d012f0c3d63d012e8c3d61d012e0c3d5fd012d903d5dd012d043d5bd012c783d59d0)
  (.lf 0)))

def shaWireTree203 : BTree :=
  .nd (.nd (.nd (.lf
  0x5c9b8bae4b45c908bae4785c9c4bae4305c8f4bae2b45c8bcbae2785c8f8bae2305c8b0bae0b45c880bae0785c8b4bae0305c86cbadeb45c828bade785c878bade305c81cbadcb45c7e0badc785c820badc305c7d0badab45c7acbada785c7d8bada305c798bad8b45c76cbad8785c7a4bad8305c758bad6b45c72cbad6785c75cbad6305c710bad4b45c6e8bad4785c714bad4305c6dcbad2b45c6a4bad2785c6e0bad2305c688bad0b45c65cbad0785c68cbad0305c650baceb45c624bace785c654bace305c610baccb45c5e4bacc785c614bacc305c5d8bacab45c5d0baca785c5dcbaca305c5bcbac8b45c5c4bac8785c5c8bac8305c5b0bac6b45c5a0bac6785c5b4bac6305c588bac4b45c4a8bac4785c58cbac4305c49cbac2b45c498bac2785c4a0bac2305d014bb3eaa5cfe8bb3caa5cf28bb3aaa5ceb0bb38aa5cd94bb34aa5ca24bb26aa5d238bb24aa5d1b4bb22aa5d1c0bb1aaa5d1b8bb18aa)
  (.lf 0)) (.nd (.lf
  0x45a888edb2c45a388ed92c459588ed72c4591c8ed52c459088ed32c458f48ed12c458848ecf2c457cc8ecd2c457bc8ecb2c4546c8ec92c4543c8ec72c453a88ec52c453408ec32c452fc8ec0cc46f5c92ff2c46f3492fd2c46e9892fb2c46e8492f92c46e6c92f72c46e5892f52c46e4892f32c46ea092f12c46e0492ef2c46dec92ed2c46dc892eb2c46da492e92c46d7492e72c46d5092e52c46d2492e32c46cfc92e12c46cd892df2c46cac92dd2c46c7c92db2c46c4c92d92c46c2092d72c46c0092d52c46bd492d32c46ba092d12c46b7892cf2c46b3c92cd2c46af892cb2c46a9892c92c46a3092c72c4696892c52c4971096ff2c496fc96fd2c496e096fb2c496c896f92c496b496f72c496a496f52c4968496f32c4967096f12c4965c96ef2c4971896ed2c494d096eb2c494c096e92c494a896e72c4922496e52c494e896e32c491f496e12c491e896df2c491d096dd2c491b896db2c4917496d92c)
  (.lf 0))) (.nd (.nd (.lf
  0x1b1204c0ab41b0e84c0a781b1244c0a301b0dc4c08b41b0a44c08781b0e04c08301b0984c06b41b0604c06781b09c4c06301b0544c04b41b01c4c04781b0584c04301b0104c02b41afe84c02781b0144c02302802850bcb42802450bc782802c50bc3027fa450bab427fa050ba7827fa850ba3027f0450b8b427f0050b87827f0850b83027e6850b6b427e6450b67827e6c50b63027dc850b4b427dc450b47827dcc50b43027d2450b2b427d2050b27827d2850b23027c8850b0b427c8450b07827c8c50b03027be850aeb427be450ae7827bec50ae3027b4450acb427b4050ac7827b4850ac3027aa050aab427a9c50aa7827aa450aa30279fc50a8b4279f850a87827a0050a8302796050a6b42795c50a6782796450a630278c050a4b4278bc50a478278c450a4302782450a2b42782050a2782782850a2302778c50a0b42778850a0782779050a030276ec509eb4276e8509e78276f0509e3027650509cb4)
  (.lf 0)) (.nd (.lf
  0x1924125fd0018f8125dd0018cc125bd0018a01259d0018741257d0018481255d00181c1253d0017f01251d0017c4124fd001798124dd00176c124bd0017401249d0017141247d0016e81245d0016bc1243d001620124110088b412fecc0884412fccc087bc12facc0873012f8cc086a412f6cc0862012f4cc085a012f2cc0851812f0cc0849412eecc0840c12eccc0838812eacc0830012e8cc0827c12e6cc081f412e4cc0816812e2cc080e412e0cc0805c12decc07fd012dccc07f4c12dacc07ecc12d8cc07e4c12d6cc07dcc12d4cc07d4412d2cc07cc012d0cc07c4012cecc07bb812cccc07b3412cacc07aac12c8cc07a2012c6cc0799c12c4cc0791412c2cc0889c12fdd00882812fbd0087a012f9d00871412f7d00868812f5d00860412f3d00858412f1d0084fc12efd00847812edd0083f012ebd00836c12e9d0082e412e7d00826012e5d0081d812e3d00814c12e1d0080c812dfd00804012ddd0)
  (.lf 0)))

def shaWireTree204 : BTree :=
  .nd (.nd (.nd (.lf
  0x4f8a80014cb4f8ac0014c94f8b00014c74f8b40014c54f8b80014c34f8bc0014c14f8c00014bf4f8c40014bd4f8c80014bb4f8cc0014b94f8d00014b74f8d40014b54f8d80014b34f8dc0014b14f8e00014af4f8e40014ad4f8e80014ab4f8ec0014a9531480014a75314c0014a5531500014a3531540014a15315800149f5315c00149d5316000149b53164001499531680014975316c00149553170001493531740014915317800148f5317c00148d5318000148b53184001489531880014875318c00148553190001483531940014815319800147f5319c00147d5544400147b554480014795544c0014775545000147555454001473554580014715545c00146f5546000146d5546400146b554680014695546c0014675547000146555474001463554780014615547c00145f5548000145d5548400145b554880014595548c0014575549000145555494001453554980014515778800144f5778c00144d)
  (.lf 0)) (.nd (.lf
  0x34ae473a03034ae8739e3034aec739c3034af0739a3034af473983034af873963034afc73943034b0073923034b0473903034b08738e3034804738c3034808738a303480c73883034810738630350f473843034814738230350bc73803036fc877beb436fcc77bcb436fd077bab436fd477b8b436eb877b6b436e5877b4b436e5c77b2b436e6077b0b436e6477aeb436e6877acb436dd477aab436da077a8b436d2877a6b436d2c77a4b436d3077a2b436d3477a0b436d38779eb436cb8779cb436c30779ab436c347798b436c387796b436c3c7794b436c407792b436c447790b436ba8778eb4367b8778cb43670c778ab4367107788b4367147786b4367187784b43671c7782b4367207780b434b7077be7834b7477bc7834b7877ba7834b7c77b87834b8077b67834b8477b47834b8877b27834b8c77b07834b9077ae7834b9477ac7834b9877aa7834b9c77a87834ba077a67834ba477a47834ba877a278)
  (.lf 0))) (.nd (.nd (.lf
  0x1b2f84e5ab41b3304e5a781b3344e5a301b2b44e58b41b2ec4e58781b2f04e58301b2704e56b41b2a84e56781b2ac4e56301b22c4e54b41b2644e54781b2684e54301b1e84e52b41b2204e52781b2244e52301b1a44e50b41b1dc4e50781b1e04e50301b1604e4eb41b1984e4e781b19c4e4e301b11c4e4cb41b1544e4c781b1584e4c301b0d84e4ab41b1104e4a781b1144e4a301b0944e48b41b0cc4e48781b0d04e48301b0504e46b41b0884e46781b08c4e46301b00c4e44b41b0444e44781b0484e44301afe44e42b41b0004e42781b0044e4230257dc4efcb4258084efc782580c4efc302579c4efab4257d04efa78257d44efa30257604ef8b4257904ef878257944ef830257284ef6b4257544ef678257584ef630256e84ef4b42571c4ef478257204ef430256ac4ef2b4256dc4ef278256e04ef230256744ef0b4256a04ef078256a44ef0302563c4eeeb4256684eee782566c4eee30256044eecb4)
  (.lf 0)) (.nd (.lf
  0x56728bd93d0565a0bd91d05656cbd8fd056558bd8dd0564c4bd8bd056338bd89d056300bd87d055fd0bd85d055f58bd83d055f30bd811058b04c17ecc58accc17ccc58ab8c17acc58aa0c178cc58a88c176cc58a74c174cc58a64c172cc58a50c170cc58a3cc16ecc58ae0c16ccc5893cc16acc58924c168cc5890cc166cc588b8c164cc58880c162cc58888c160cc58864c15ecc587f8c15ccc587fcc15acc58800c158cc58774c156cc58560c154cc58514c152cc584d8c150cc58494c14ecc58458c14ccc58420c14acc583d4c148cc58380c146cc58308c144cc58294c142cc598c4c17dd0598b4c17bd059874c179d0597acc177d05979cc175d059778c173d059768c171d059724c16fd0596d8c16dd059664c16bd059654c169d059630c167d059608c165d0595e0c163d0595b8c161d059590c15fd059548c15dd059538c15bd059504c159d0594f0c157d0594b4c155d059490c153d059470c151d0)
  (.lf 0)))

def shaWireTree205 : BTree :=
  .nd (.nd (.nd (.lf
  0x7607cdec83076068dec6b476060dec6787606cdec63076054dec4b476050dec47876058dec43076044dec2b476040dec27876048dec230762c8df3caa762a4df3aaa76274df36aa761fcdf2aaa761d0df26aa761bcdf24aa7619cdf22aa7615cdf1caa7614cdf1aaa76118df16aa7610cdf14aa760ecdf12aa760d0df10aa760bcdf0eaa76098df0caa7653cdf0aaa760a4df08aa762d8df02aa7776cdf3df4775f8df3bf477488df3940771a4df354076ca4df294076b90df25f476b08df23f476a88df214076918df1bf476898df1940767a0df15f476528df13f476510df11f4764f8df0ff4764d8df0df4764c4df0bf476424df09f476414df074077640df3c1e77764df3cb477768df3c14774ccdf3a1e775f0df3ab4775f4df3a147731cdf37f477484df38a077214df361e77314df36b477318df361477054df3340771a0df34a076f48df314077050df32a076e94df2f4076f44df30a076de0df2d40)
  (.lf 0)) (.nd (.lf
  0x464000057fd464080057fb464100057f9464180057f7464200057f5464280057f34642c0057f1464d40057ef464340057ed464380057eb474040057e94643c0057e7464400057e5464480057e3464500057e1479780057df4797c0057dd47bd40057db47bdc0057d947b640057d747adc0057d547ae40057d347aec0057d147af40057cf47a140057cd479d40057cb479800057c9479880057c747be40057c547bec0057c347b6c0057c147afc0057bf47b040057bd47b0c0057bb47b140057b947a1c0057b7479dc0057b547bf40057b347bfc0057b147b740057af47b1c0057ad47b240057ab47b2c0057a947b300057a747a240057a5479e40057a3479900057a14963c00579f495d400579d49a3400579b49a38005799499bc0057974998c00579549a80005793498e40057914993400578f498e800578d4986400578b498380057894964000578749a3c00578549a40005783499c00057814999000577f)
  (.lf 0))) (.nd (.nd (.lf
  0x44ac88ca87844ad08ca83044ab88ca6b444ab48ca67844abc8ca63044aa48ca4b444aa08ca47844aa88ca43044a908ca2b444a8c8ca27844a948ca23044a7c8ca0b444a788ca07844a808ca03044a688c9eb444a648c9e7844a6c8c9e3044a548c9cb444a508c9c7844a588c9c3044a408c9ab444a3c8c9a7844a448c9a3044a2c8c98b444a288c987844a308c983044a188c96b444a148c967844a1c8c963044a048c94b444a008c947844a088c9430449f08c92b4449ec8c9278449f48c9230449dc8c90b4449d88c9078449e08c9030449c88c8eb4449c48c8e78449cc8c8e30449b48c8cb4449b08c8c78449b88c8c30449a08c8ab44499c8c8a78449a48c8a304498c8c88b4449888c8878449908c8830449788c86b4449748c86784497c8c8630449648c84b4449608c8478449688c8430449508c82b44494c8c8278449548c82304525c8c7cb4452588c7c78452608c7c30452348c7ab4452308c7a78)
  (.lf 0)) (.nd (.lf
  0x27d4452f4cc27ca852f2cc27c0852f0cc27b6452eecc27ac052eccc27a1c52eacc2798052e8cc278e052e6cc2784452e4cc277ac52e2cc2770c52e0cc2767052decc275d852dccc2753852dacc2749c52d8cc273fc52d6cc2735852d4cc272bc52d2cc2722452d0cc2718c52cecc270ec52cccc2704852cacc26fac52c8cc26f0c52c6cc26e6852c4cc26dc452c2cc27fe052fdd027f4852fbd027ea852f9d027e0c52f7d027d6c52f5d027cc852f3d027c2c52f1d027b8c52efd027ae852edd027a4452ebd0279a052e9d02790452e7d02786452e5d0277c852e3d02773052e1d02769052dfd0275f452ddd02755c52dbd0274bc52d9d02742052d7d02738052d5d0272dc52d3d02724052d1d0271a852cfd02711052cdd02707052cbd026fcc52c9d026f3052c7d026e9052c5d026dec52c3d026d8052c110263e053fecc263e853fccc2643853facc2644053f8cc2644853f6cc2645053f4cc2645853f2cc)
  (.lf 0)))

def shaWireTree206 : BTree :=
  .nd (.nd (.nd (.lf
  0x310f4757478311407574b431144757430310e87572783109c7572b4310ec75723031044757078310907570b43109475703031038756e7830fec756eb43103c756e3030fa8756c7830fe0756cb430fe4756c3030f9c756a7830f70756ab430fa0756a3030f4475687830f647568b430f6875683030f3875667830f1c7566b430f3c75663030ef475647830f107564b430f1475643030ee875627830ecc7562b430eec75623030ea475607830ec07560b430ec475603030e98755e7830e7c755eb430e9c755e3030e54755c7830e70755cb430e74755c3030e48755a7830e44755ab430e4c755a3030e2075587830e1c7558b430e2475583030df875567830df47556b430dfc75563030dd075547830dcc7554b430dd475543030dac75527830da87552b430db075523030d8875507830d847550b430d8c75503030be4754e7830be0754eb430be8754e3030bc0754c7830bbc754cb430bc4754c3030b9c754a78)
  (.lf 0)) (.nd (.lf
  0x275c4509d2c27524509b2c2748850992c273e850972c2734450952c272a850932c2721050912c27178508f2c270d8508d2c27034508b2c26f9850892c26ef850872c26e5450852c26db050832c26d6c5080cc1bba454bf2c1bb9054bd2c1bb7c54bb2c1bb6854b92c1bb5454b72c1bb4054b52c1bb2c54b32c1bb1854b12c1bb0454af2c1baf054ad2c1badc54ab2c1bac854a92c1bab454a72c1baa054a52c1ba8c54a32c1ba7854a12c1ba64549f2c1ba50549d2c1ba3c549b2c1ba2854992c1ba1454972c1ba0054952c1b9ec54932c1b9d854912c1b9c4548f2c1b9b0548d2c1b99c548b2c1b98854892c1b97454872c1b96054852c1b94c54832c1b9485480cc2b37c58bf2c2b31458bd2c2b2a058bb2c2b22c58b92c2b1b458b72c2b13c58b52c2b0cc58b32c2b06058b12c2afec58af2c2af7c58ad2c2af0458ab2c2ae8858a92c2ae1458a72c2ada458a52c2ad3458a32c2acc458a12c2ac4c589f2c)
  (.lf 0))) (.nd (.nd (.lf
  0x222803d6b40223003d6300221803d4780221403d4b40221c03d4300220403d2780220003d2b40220803d230021f003d078021ec03d0b4021f403d030021dc03ce78021d803ceb4021e003ce30021c803cc78021c403ccb4021cc03cc30021b403ca78021b003cab4021b803ca30021a003c8780219c03c8b4021a403c8300218c03c6780218803c6b40219003c6300217803c4780217403c4b40217c03c4300216403c2780216003c2b40216803c23003db006bc7803dac06bcb403db406bc3003d3806ba7803d3406bab403d3c06ba3003cac06b87803ca806b8b403cb006b83003c2006b67803c1c06b6b403c2406b63003b9c06b47803b9806b4b403ba006b43003b1c06b27803b1806b2b403b2006b23003a9c06b07803a9806b0b403aa006b03003a1406ae7803a1006aeb403a1806ae300399006ac780398c06acb40399406ac300391006aa780390c06aab40391406aa300388806a8780388406a8b4)
  (.lf 0)) (.nd (.lf
  0x6a4fcd2d1d06a488d2cfd06a14cd2cdd06a000d2cbd069f5cd2c9d069f40d2c7d06966cd2c5d06965cd2c3d069554d2c11068fccd3fecc68f3cd3fccc68fe0d3facc68f4cd3f8cc68d80d3f6cc68cccd3f4cc68c44d3f2cc68bacd3f0cc68b74d3eecc68a88d3eccc68a10d3eacc689e0d3e8cc688fcd3e6cc69058d3e4cc68f24d3e2cc68da0d3e0cc68cd4d3decc68c60d3dccc68bb4d3dacc68bdcd3d8cc68a6cd3d6cc68a34d3d4cc68ff0d3d2cc68f44d3d0cc68d8cd3cecc68cdcd3cccc68c50d3cacc68bd8d3c8cc68b80d3c6cc68a84d3c4cc68a2cd3c2cc693c4d3fdd0693b4d3fbd069398d3f9d069384d3f7d069370d3f5d06935cd3f3d069348d3f1d069330d3efd069320d3edd0690ecd3ebd0690dcd3e9d0690c8d3e7d0690b4d3e5d0690a0d3e3d06908cd3e1d069078d3dfd069064d3ddd069044d3dbd069030d3d9d069020d3d7d06900cd3d5d068ff8d3d3d068f34d3d1d068ec8d3cfd0)
  (.lf 0)))

def shaWireTree207 : BTree :=
  .nd (.nd (.nd (.lf
  0x48be096427848c94964230496f896fcb44970496fc784970896fc30496ec96fab4496e896fa78496f096fa30496d496f8b4496d096f878496d896f830496bc96f6b4496b896f678496c096f630496a096f4b44969c96f478496ac96f4304969096f2b44968c96f2784969496f2304967896f0b44967496f0784967c96f0304966496eeb44966096ee784966896ee304965096ecb44964c96ec784965496ec30494d896eab4494dc96ea78494e096ea30494bc96e8b4494c496e878494c896e830494b096e6b4494a496e678494b496e6304921896e4b44921c96e4784922096e4304920896e2b44920c96e2784921096e230491fc96e0b4491f896e0784920096e030491e496deb4491e096de78491ec96de30491cc96dcb4491d496dc78491d896dc30491c096dab4491bc96da78491c496da30491ac96d8b4491a896d878491b096d8304916896d6b44915c96d6784916c96d6304915096d4b44914c96d478)
  (.lf 0)) (.nd (.lf
  0x4343c8a932c433a08a912c4330c8a8f2c4317c8a8d2c431648a8b2c431888a892c42d348a872c42b648a852c42b4c8a832c42b7c8a80cc447e88ebf2c447d48ebd2c447c08ebb2c447ac8eb92c447a48eb72c447888eb52c447748eb32c447608eb12c4474c8eaf2c447388ead2c447208eab2c4470c8ea92c446f48ea72c446e48ea52c446cc8ea32c446fc8ea12c446ac8e9f2c446948e9d2c446848e9b2c4466c8e992c4465c8e972c446488e952c446308e932c4461c8e912c4460c8e8f2c446048e8d2c443b88e8b2c443a08e892c443b48e872c443688e852c443548e832c443508e80cc4693c92bf2c4692892bd2c4691492bb2c468fc92b92c468e892b72c468c092b52c468ac92b32c4689092b12c4687c92af2c468c892ad2c4685492ab2c4683c92a92c4681c92a72c4680492a52c4682492a32c467d892a12c467c4929f2c467b0929d2c46794929b2c4677c92992c4676092972c4675892952c)
  (.lf 0))) (.nd (.nd (.lf
  0x5ac18ba20505ab40ba1e505ab44ba1c505aac8ba1a505aa98ba18505aa10ba16505a9dcba14505a990ba12505a844ba10505a814ba0e505a7f4ba0c505a7dcba0a505a740ba08505a610ba06505a3b8ba04505a3bcba025059fe4ba00505b744be3e785b734be3c785b6b8be3a785b674be38785b5f8be36785b5e0be34785b790be32785b4c8be30785b460be2e785b408be2c785b3d0be2a785b334be28785ae7cbe26785ae38be24785ae18be22785ac20be20785ab50be1e785ab54be1c785aad0be1a785aaa0be18785aa18be16785a9e4be14785a998be12785a84cbe10785a81cbe0e785a7fcbe0c785a7e4be0a785a748be08785a618be06785a3c8be04785a3ccbe027859fecbe00785e050be3e505df98be3c505df2cbe3a505dd6cbe38505dd94be36505dc2cbe34505dc10be32505dbacbe30505da4cbe2e505db88be2c505d9c4be2a505d934be28505d8c8be26505d8b4be24505d804be2250)
  (.lf 0)) (.nd (.lf
  0x5e994bc71d05e980bc6fd05e96cbc6dd05e954bc6bd05e940bc69d05e92cbc67d05e918bc65d05e908bc63d05e8f0bc61d05e8e0bc5fd05e8ccbc5dd05e8b4bc5bd05e8a0bc59d05e88cbc57d05e878bc55d05e864bc53d05e84cbc51d05e834bc4fd05e808bc4dd05e7c0bc4bd05e678bc49d05e660bc47d05e644bc45d05e62cbc43d05e5d8bc41105ee9cbc3ecc5ea0cbc3ccc5ea10bc3acc5ea4cbc38cc5ea68bc36cc5ea64bc34cc5ea60bc32cc5ea5cbc30cc5ea24bc2ecc5ea18bc2ccc5ea1cbc2acc5ea20bc28cc5ea14bc26cc5ea04bc24cc5ea48bc22cc5ea08bc20cc5ea44bc1ecc5e8c4bc1ccc5ea40bc1acc5ea3cbc18cc5ea38bc16cc5ea34bc14cc5e858bc12cc5e840bc10cc5e810bc0ecc5e7d8bc0ccc5e684bc0acc5e668bc08cc5e64cbc06cc5e634bc04cc5e6acbc02cc5ed18bc3dd05ecfcbc3bd05ece4bc39d05ecccbc37d05ecb4bc35d05eca0bc33d05ec8cbc31d05ec74bc2fd0)
  (.lf 0)))

def shaWireTree208 : BTree :=
  .nd (.nd (.nd (.lf
  0x6b3b0e1bf2c6b38ce1bd2c6b36ce1bb2c6b418e1b92c6b2e8e1b72c6b47ce1b52c6b2cce1b32c6b290e1b12c6b278e1af2c6b448e1ad2c6b220e1ab2c6b200e1a92c6b1dce1a72c6b1b4e1a52c6b190e1a32c6b128e1a12c6b108e19f2c6b140e19d2c6b0d0e19b2c6b154e1992c6b168e1972c6b094e1952c6b070e1932c6b044e1912c6b02ce18f2c6a178e18d2c6a040e18b2c6a014e1892c69f10e1872c69e78e1852c6b004e1832c69590e180cc6d628e5bf2c6d418e5bd2c6d3e8e5bb2c6d2bce5b92c6d280e5b72c6d188e5b52c6d0e4e5b32c6d0ace5b12c6cff4e5af2c6cdf4e5ad2c6cd5ce5ab2c6ce24e5a92c6cc90e5a72c6cc0ce5a52c6cbace5a32c6cb90e5a12c6cae8e59f2c6c84ce59d2c6c82ce59b2c6c814e5992c6c7f0e5972c6c710e5952c6ceb4e5932c6c09ce5912c6c058e58f2c6c05ce58d2c6c078e58b2c6c01ce5892c6bff8e5872c6bcbce5852c6bc18e5832c6b8d0e580cc)
  (.lf
  0x3b5c47cb8cc3b5cc7cb6cc3b5d47cb4cc3b5dc7cb2cc3b5e47cb0cc3b5ec7caecc3b5f47caccc3b6547caacc3b65c7ca8cc3b6647ca6cc3b66c7ca4cc3b6747ca2cc3b67c7ca0cc3b6847c9ecc3b68c7c9ccc3b6947c9acc3b69c7c98cc3b6a47c96cc3b6ac7c94cc3b6b47c92cc3b6bc7c90cc3b6c47c8ecc3b6cc7c8ccc3b6d47c8acc3b6dc7c88cc3b6e47c86cc3b6ec7c84cc3b6f47c82cc3b9587cbdd03b9447cbbd03b9307cb9d03b91c7cb7d03b9087cb5d03b8f47cb3d03b8e07cb1d03b8cc7cafd03b8b87cadd03b8a47cabd03b8907ca9d03b87c7ca7d03b8687ca5d03b8547ca3d03b8407ca1d03b82c7c9fd03b8187c9dd03b8047c9bd03b7f07c99d03b7dc7c97d03b7c87c95d03b7b47c93d03b7a07c91d03b78c7c8fd03b7787c8dd03b7647c8bd03b7507c89d03b73c7c87d03b7287c85d03b7147c83d03b6fc7c81103d3c47c7ecc3d3cc7c7ccc3d3d47c7acc3d4507c78cc3d4587c76cc))
  (.nd (.lf
  0x6f3a4002b016f5d4002aff6f338002afd6f300002afb6f2c4002af96f454002af76f268002af56f230002af36f204002af16f484002aef6f1c8002aed6f198002aeb6f5d8002ae96f160002ae76f108002ae56f120002ae36f0d8002ae176880002adf76810002add77ae0002adb77730002ad9774e4002ad777478002ad5771d8002ad3770ac002ad176f70002acf76f24002acd76df8002acb76dac002ac976cf0002ac777aec002ac57772c002ac37754c002ac177460002abf771cc002abd77080002abb76f68002ab976ee8002ab776df0002ab576db0002ab376cd8002ab176c68002aaf76ba4002aad76b2c002aab76ab0002aa976a70002aa7769e0002aa576958002aa376900002aa17930c002a9f78190002a9d797f8002a9b798d4002a99797c8002a97797c0002a95796b0002a9379668002a9179634002a8f79568002a8d79534002a8b7946c002a8979444002a87797f4002a85798a8002a83)
  (.lf 0))) (.nd (.nd (.lf
  0x3a0307ac6783a03c7ac6303a0247ac4b43a0207ac4783a0287ac4303a0107ac2b4397c47ac2783a0147ac2303a8347b34aa3a8287b32aa3a78c7b2eaa3a82c7b2caa3a8307b26aa3a6c87b22aa3a61c7b1caa3a5c47b1aaa3a3707b12aa3a36c7b10aa3a0807b0caa3a0487b08aa3abd07b3b403afb47b3ca03abc47b39403abcc7b3aa03aba07b37403abc07b38a03ab947b35f43ab9c7b36a03ab887b341e3ab8c7b34b43ab907b34143ab7c7b321e3aacc7b32b43ab807b32143aab47b2ff43aac47b30a03a9987b2e1e3a9947b2eb43aab07b2e143a9647b2c1e3a9687b2cb43a96c7b2c143a9407b29403a95c7b2aa03a9187b27f43a93c7b28a03a8f87b261e3a8f47b26b43a9147b26143a8c87b23f43a8ec7b24a03a8c07b221e3a8bc7b22b43a8c47b22143a8787b1f403a8807b20a03a6447b1df43a6747b1ea03a5ec7b1c1e3a6187b1cb43a6407b1c143a5907b1a1e3a5e07b1ab43a5e47b1a14)
  (.lf 0)) (.nd (.lf
  0x3ebc0a13b003ec00a11b003ec40a0fb003ec80a0db003ecc0a0bb003ed00a09b003ed40a07b003ed80a05b003edc0a03b003ee00a01b005d4c0e3fb005d500e3db005d540e3bb005d580e39b005d5c0e37b005d600e35b005d640e33b005d680e31b005d6c0e2fb005d700e2db005d740e2bb005d780e29b005d7c0e27b005d800e25b005d840e23b005d880e21b005d8c0e1fb005d900e1db005d940e1bb005d980e19b005d9c0e17b005da00e15b005da40e13b005da80e11b005dac0e0fb005db00e0db005db40e0bb005db80e09b005dbc0e07b005dc00e05b005dc40e03b005dc80e01b007658123fb00765c123db007660123bb0076641239b0076681237b00766c1235b0076701233b0076741231b007678122fb00767c122db007680122bb0076841229b0076881227b00768c1225b0076901223b0076941221b007698121fb00769c121db0076a0121bb0076a41219b0076a81217b0076ac1215b0)
  (.lf 0)))

def shaWireTree209 : BTree :=
  .nd (.nd (.nd (.lf
  0xeb04317c780eb84317cb40eb88317c300ea88317a780eaf8317ab40eafc317a300e9fc3178780ea7c3178b40ea803178300e96c3176780e9f03176b40e9f43176300e8ec3174780e9603174b40e9643174300e86c3172780e8e03172b40e8e43172300e7ec3170780e8603170b40e8643170300e76c316e780e7e0316eb40e7e4316e300e6ec316c780e760316cb40e764316c300e66c316a780e6e0316ab40e6e4316a300e5ec3168780e6603168b40e6643168300e5703166780e5e03166b40e5e43166300e4e43164780e5643164b40e5683164300e4583162780e4d83162b40e4dc3162300e3cc3160780e44c3160b40e4503160300e33c315e780e3c0315eb40e3c4315e300e2c0315c780e330315cb40e334315c300e230315a780e2b4315ab40e2b8315a300e1b43158780e2243158b40e2283158300e1243156780e1a83156b40e1ac3156300e0a83154780e1183154b40e11c3154300e018315278)
  (.lf 0)) (.nd (.lf
  0x1bca4004ffd1bcac004ffb1bcb4004ff91bcbc004ff71bcc4004ff51bccc004ff31bcd4004ff11bcdc004fef1bce4004fed1bcec004feb1bcf4004fe91bcfc004fe71bd04004fe51bd0c004fe31bd14004fe11bf7c004fdf1bf84004fdd1bf8c004fdb1c008004fd91c010004fd71c018004fd51c020004fd31c028004fd11c030004fcf1c038004fcd1c040004fcb1c048004fc91c050004fc71c058004fc51c060004fc31c068004fc11c070004fbf1c078004fbd1c080004fbb1c088004fb91c090004fb71c098004fb51c0a0004fb31c0a8004fb11c0b0004faf1c0b8004fad1c0c0004fab1c0c8004fa91c0d0004fa71c0d8004fa51c0e0004fa31c0e8004fa11c708004f9f1c710004f9d1c718004f9b1c794004f991c79c004f971c7a4004f951c7ac004f931c7b4004f911c7bc004f8f1c7c4004f8d1c7cc004f8b1c7d4004f891c7dc004f871c7e4004f851c7ec004f831c7f4004f811c7fc004f7f)
  (.lf 0))) (.nd (.nd (.lf
  0x6a3b4d8aeb46a3bcd8ae786a3c0d8ae306a3a8d8acb46a0dcd8ac786a3acd8ac306a0ccd8aab46a0d0d8aa786a0d4d8aa306a0b0d8a8b46a0bcd8a8786a0c0d8a8306a0a4d8a6b46a09cd8a6786a0a8d8a6306a08cd8a4b46a090d8a4786a094d8a4306a078d8a2b46a080d8a2786a084d8a23069e50d8a0b46a06cd8a0786a070d8a03069e3cd89eb469e44d89e7869e48d89e3069e2cd89cb469e30d89c7869e34d89c3069e1cd89ab469e18d89a7869e20d89a3069e04d898b469e08d8987869e0cd8983069df0d896b469df4d8967869df8d8963069ddcd894b469de0d8947869de4d8943069dccd892b469dc8d8927869dd0d8923069db4d890b469db8d8907869dbcd8903069da4d88eb469d9cd88e7869da8d88e3069d88d88cb469d90d88c7869d94d88c3069d74d88ab469d7cd88a7869d80d88a3069d60d888b469d68d8887869d6cd8883069cd0d886b469cccd8867869d58d8863069cc0d884b4)
  (.lf 0)) (.nd (.lf
  0x5021ca2e7d0501f8a2e5d0501c8a2e3d05008ca2e1d050074a2dfd050060a2ddd050048a2dbd050030a2d9d050020a2d7d04fff8a2d5d04ffd0a2d3d04ff88a2d1d04fcd4a2cfd04fc44a2cdd04f6b8a2cbd04f6a0a2c9d04f68ca2c7d04f678a2c5d04f664a2c3d04f50ca2c11050408a33d40503d0a3394050378a3314050348a32d4050230a329f450208a327f4501e0a325f450150a323f450138a321f45011ca31ff450104a31df4500eca31bf4500d0a319404ffe4a315404fc58a30d404f704a309404e2e8a3fecc4e150a3fccc4e190a3facc4e124a3f8cc4e07ca3f6cc4e084a3f4cc4dfa4a3f2cc4dec0a3f0cc4de50a3eecc4dddca3eccc4dd34a3eacc4dcd4a3e8cc4dc18a3e6cc4e198a3e4cc4e12ca3e2cc4e08ca3e0cc4e094a3decc4dfaca3dccc4dec8a3dacc4de58a3d8cc4dde4a3d6cc4dd3ca3d4cc4e1a4a3d2cc4e134a3d0cc4e09ca3cecc4e0a4a3cccc4dfb8a3cacc4ded0a3c8cc)
  (.lf 0)))

def shaWireTree210 : BTree :=
  .nd (.nd (.nd (.lf
  0x6d410e5bc306d3fce5ba786d3e4e5bab46d400e5ba306d2b4e5b8786d284e5b8b46d3dce5b8306d270e5b6786d1ace5b6b46d274e5b6306d174e5b4786d120e5b4b46d178e5b4306d0f8e5b2786d0e8e5b2b46d0fce5b2306d0d8e5b0786d0b0e5b0b46d0dce5b0306cfece5ae786ce0ce5aeb46cff0e5ae306cde8e5ac786cd7ce5acb46ce04e5ac306cd6ce5aa786cd70e5aab46cd74e5aa306cd38e5a8786ccb0e5a8b46cd3ce5a8306cc80e5a6786cbf4e5a6b46cc84e5a6306cbe8e5a4786cbc8e5a4b46cbece5a4306cba8e5a2786cbb0e5a2b46cbb4e5a2306cb70e5a0786cb74e5a0b46cb78e5a0306cb64e59e786c868e59eb46cb68e59e306c848e59c786c85ce59cb46c860e59c306c830e59a786c828e59ab46c840e59a306c808e598786c80ce598b46c810e598306c7e0e596786c730e596b46c800e596306c724e594786c15ce594b46c728e594306c150e592786c0b8e592b46c154e59230)
  (.lf 0)) (.nd (.lf
  0x1e9c079c7801ea0079a7801ea407987801ea807967801eac07947801eb007927801eb407907801eb8078e7801ebc078c7801ec0078a7801ec407887801ec807867801ecc07847801ed007827801ed40780780279807be300279c07bc30027a007ba30027a407b830027a807b630027ac07b430027b007b230027b407b030027b807ae30027bc07ac30027c007aa30027c407a830027c807a630027cc07a430027d007a230027d407a030027d8079e30027dc079c30027e0079a30027e4079830027e8079630027ec079430027f0079230027f4079030027f8078e30027fc078c3002800078a3002804078830028080786300280c078430028100782300281407803001ed803beb401edc03bcb401ee003bab401ee403b8b401ee803b6b401eec03b4b401ef003b2b401ef403b0b401ef803aeb401efc03acb401f0003aab401f0403a8b401f0803a6b401f0c03a4b401f1003a2b401f1403a0b401f18039eb4)
  (.lf 0))) (.nd (.nd (.lf
  0x144503322aa14364331caa142c03318aa142643316aa142103314aa1416c3310aa140c8330caa1406c330aaa140183308aa14878333c1e148b8333cb4148bc333c1414820333a1e1486c333ab414870333a14147c433381e148143338b41481833381414770333540147bc3336a0147203333f41476c3334a0146c833321e147183332b41471c3332141467c332ff4146c03330a014624332e1e14674332eb414678332e14145d8332bf41461c332ca014580332a1e145d0332ab4145d4332a141452c33281e145743328b414578332814144d033261e145203326b4145243326141447c33241e144c43324b4144c83324141442033221e144703322b414474332214143d4331f40144183320a014384331df4143d0331ea014334331c1e1437c331cb414380331c14142e03319f41432c331aa01429033181e142d83318b4142dc3318141423433161e142843316b414288331614141e033141e142283314b4)
  (.lf 0)) (.nd (.lf
  0x258905d5acc258f05d58cc258d45d56cc259785d54cc259e05d52cc2598c5d50cc25d005d4ecc25cf05d4ccc25cf45d4acc25cfc5d48cc25cf85d46cc259e85d44cc259d05d42cc263ac5d7dd0263985d7bd0263845d79d0263705d77d02635c5d75d0263045d73d0261b85d71d0261a45d6fd0261905d6dd02617c5d6bd0261685d69d0261545d67d0260905d65d02607c5d63d02606c5d61d0260585d5fd0260445d5dd0260305d5bd0260205d59d025fac5d57d025f985d55d025f845d53d025f705d51d025f5c5d4fd025f485d4dd025f385d4bd025d385d49d025d285d47d025d145d45d0259f45d43d0259d85d41102589c5dbecc258d85dbccc258a85dbacc258985db8cc2594c5db6cc2599c5db4cc259885db2cc25a085db0cc259f85daecc259fc5daccc25a045daacc25a005da8cc259cc5da6cc259905da4cc259945da2cc259985da0cc259405d9ecc259445d9ccc259485d9acc2584c5d98cc)
  (.lf 0)))

def shaWireTree211 : BTree :=
  .nd (.nd (.nd (.lf
  0x612e0c305f461398c306a0612d8c304b4612dcc3041460728c3fc7860724c3fcb46072cc3fc3060714c3fa7860710c3fab460718c3fa3060700c3f878606fcc3f8b460704c3f830606ecc3f678606e8c3f6b4606f0c3f630606d8c3f478606d4c3f4b4606dcc3f430606c4c3f278606c0c3f2b4606c8c3f230606b0c3f078606acc3f0b4606b4c3f0306069cc3ee7860698c3eeb4606a0c3ee3060688c3ec7860684c3ecb46068cc3ec3060674c3ea7860670c3eab460678c3ea3060660c3e87860658c3e8b460664c3e8306064cc3e67860648c3e6b460650c3e63060638c3e47860634c3e4b46063cc3e43060628c3e27860620c3e2b46062cc3e23060608c3e0786060cc3e0b460610c3e030605f4c3de78605f8c3deb460600c3de30605e4c3dc78605e8c3dcb4605ecc3dc30605d8c3da78605d4c3dab4605dcc3da30605c0c3d878605bcc3d8b4605c4c3d830605a8c3d678605b0c3d6b4605b4c3d630)
  (.lf 0)) (.nd (.lf
  0x7fdc131d4a07f54131ab407ed41318b407e541316b407dd41314b407d5013134a07cc81310b407c48130eb407bc4130d4a07b3c130ab407ab813094a07a2c13074a079a41304b40792013034a078e41300aa0a1a0173eb40a12c173d4a0a0a4173ab40a02017394a09f9417374a09f0c1734b409e8c1732b409e0817314a09d7c172f4a09cf0172d4a09c64172b4a09bd817294a09b501726b409ad01724b409a501722b4099cc17214a09944171eb4098c4171cb409844171ab4097c017194a097381716b4096b81714b4096381712b4095b417114a09528170f4a0949c170d4a09410170b4a0938417094a092fc1706b40927c1704b4091fc1702b4091c41700aa0ba4c1b3f4a0b9d81b3cb40b9581b3ab40b8d41b394a0b84c1b36b40b7cc1b34b40b7481b334a0b6c01b30b40b6401b2eb40b5c01b2cb40b53c1b2b4a0b4b01b294a0b4241b274a0b3981b254a0b30c1b234a0b2801b214a0b1f41b1f4a)
  (.lf 0))) (.nd (.nd (.lf
  0x203605c3078203645c3030201f85c2eb4202ac5c2e78202b05c2e30201405c2cb4201ec5c2c78201f05c2c30200885c2ab4201345c2a78201385c2a301ffcc5c28b42007c5c2878200805c28301ff085c26b41ffc05c26781ffc45c26301fe505c24b41fefc5c24781ff005c24301fd905c22b41fe445c22781fe485c22301fcd05c20b41fd845c20781fd885c20301fc145c1eb41fcc45c1e781fcc85c1e301fb585c1cb41fc085c1c781fc0c5c1c301fa945c1ab41fb4c5c1a781fb505c1a301f9dc5c18b41fa885c18781fa8c5c18301f91c5c16b41f9d05c16781f9d45c16301f8645c14b41f9105c14781f9145c14301f7ac5c12b41f8585c12781f85c5c12301f6f05c10b41f7a05c10781f7a45c10301f62c5c0eb41f6e45c0e781f6e85c0e301f56c5c0cb41f6205c0c781f6245c0c301f4b05c0ab41f5605c0a781f5645c0a301f3fc5c08b41f4a45c08781f4a85c08301f3445c06b41f3f05c0678)
  (.lf 0)) (.nd (.lf
  0x880c227bd0087802279d0086f42277d0086642275d0085e42273d0085682271d0084d8226fd00845c226dd0083cc226bd0083502269d0082c02267d0082442265d0081b82263d0081282261d0080ac225fd008020225dd007f90225bd007f102259d007e902257d007e102255d007d942253d007d042251d007c84224fd007c08224dd007b78224bd007afc2249d007a702247d0079e02245d0079642243d0079002241100ebd022fecc0eb5822fccc0ead422facc0ea4c22f8cc0e9c022f6cc0e93c22f4cc0e8bc22f2cc0e83c22f0cc0e7bc22eecc0e73c22eccc0e6bc22eacc0e63c22e8cc0e5bc22e6cc0e53422e4cc0e4a822e2cc0e41c22e0cc0e39022decc0e30c22dccc0e28422dacc0e20022d8cc0e17822d6cc0e0f422d4cc0e06c22d2cc0dfe822d0cc0df6022cecc0dedc22cccc0de5c22cacc0ddd422c8cc0dd5c22c6cc0dce822c4cc0dc7422c2cc0ebb822fdd00eb3c22fbd00eab822f9d0)
  (.lf 0)))

def shaWireTree212 : BTree :=
  .nd (.nd (.nd (.lf
  0x44c14000ccb44c18000cc944c1c000cc744c20000cc544c24000cc344c28000cc144c2c000cbf1eb70000cbd1eb74000cbb1eb78000cb91eb7c000cb71eb80000cb51eb84000cb31eb88000cb11eb8c000caf1eb90000cad1eb94000cab1eb98000ca91eb9c000ca71eba0000ca51eba4000ca31eba8000ca11ebac000c9f1ebb0000c9d1ebb4000c9b1ebb8000c991ebbc000c971ebc0000c951ebc4000c931ebc8000c911ebcc000c8f1ebd0000c8d1ebd4000c8b1ebd8000c891ebdc000c871ebe0000c85484b8000c83484bc000c81484c0000c7f484c4000c7d484c8000c7b484cc000c79484d0000c77484d4000c75484d8000c73484dc000c71484e0000c6f484e4000c6d484e8000c6b484ec000c69484f0000c67484f4000c65484f8000c63484fc000c6148500000c5f48504000c5d48508000c5b4850c000c5948510000c5748514000c5548518000c534851c000c5148520000c4f48524000c4d)
  (.lf 0)) (.nd (.lf
  0x494689fa0784946c9f9e78494909f9c78494049f9a78494089f9878493c09f9678493989f94784939c9f92784935c9f90784932c9f8e78491a49f8c78490f49f8a7848e189f887848d789f867848d009f847848c749f827848bd89f80784c2749fbe304c2009fbc304c1b09fba304bfe49fb8304bf609fb6304bf2c9fb4304bee09fb2304bde49fb0304bc689fae304bafc9fac304bb409faa304ba749fa8304ba189fa6304b9509fa4304b8b09fa2304b8149fa0304b7f09f9e304b7c89f9c304b7a09f9a304b61c9f98304b52c9f96304b4989f94304b4189f92304b3a89f90304b33c9f8e304b2cc9f8c304b1c49f8a304b14c9f88304b0e09f86304b06c9f84304afe89f82304af3c9f80304e174a3beb44e110a3bcb44e050a3bab44e028a3b8b44df78a3b6b44de98a3b4b44de24a3b2b44ddb4a3b0b44dd08a3aeb44dcaca3acb44dbdca3aab44dbb8a3a8b44db94a3a6b44da74a3a4b44da24a3a2b4)
  (.lf 0))) (.nd (.nd (.lf
  0x28db856ce7828dbc56ce3028d4856ccb428d7856cc7828d7c56cc3028d0856cab428d3c56ca7828d4056ca3028ccc56c8b428cfc56c87828d0056c83028c8c56c6b428cc056c67828cc456c63028c5056c4b428c8056c47828c8456c43028c3056c2b428c4456c27828c4856c23029318573caa292645736aa291e85732aa29134572caa290f0572aaa290ac5728aa290305724aa28f7c571eaa28e585714aa28da4570eaa28d28570aaa28cac5706aa292e8573c1e29320573cb429324573c14292ac573940292e0573aa0292745737f4292a85738a02923457361e2926c5736b429270573614291f85733f42922c5734a0291b857321e291f05732b4291f45732142917c572f40291b05730a029144572df429178572ea029104572c1e2913c572cb429140572c14290c0572a1e290f8572ab4290fc572a142907c57281e290b45728b4290b8572814290405725f4290745726a02900057241e290385724b4)
  (.lf 0)) (.nd (.lf
  0x6a6a0e152cc6a494e150cc6a4dce14ecc6a17ce14ccc69fb8e14acc69fe0e148cc69f1ce146cc69e88e144cc69618e142cc6adc0e17dd06adb0e17bd06ad0ce179d06ac5ce177d06ac04e175d06ab9ce173d06ab48e171d06aaf0e16fd06aa9ce16dd06a9b4e16bd06a968e169d06a93ce167d06a8b4e165d06a890e163d06a858e161d06a830e15fd06a808e15dd06a7c4e15bd06a79ce159d06a774e157d06a728e155d06a6c4e153d06a4c0e151d06a4b0e14fd06a16ce14dd069face14bd069f80e149d069f04e147d069e6ce145d069638e143d06956ce141106ad4ce1becc6ad3ce1bccc6ad58e1bacc6ace8e1b8cc6aa40e1b6cc6aa28e1b4cc6aa18e1b2cc6a9f8e1b0cc6a9e4e1aecc6aa58e1accc6a970e1aacc6a924e1a8cc6a908e1a6cc6a8ace1a4cc6a884e1a2cc6a7f4e1a0cc6abf8e19ecc6abfce19ccc6a714e19acc6a7cce198cc6a718e196cc6a768e194cc6a6b8e192cc6a498e190cc)
  (.lf 0)))

def shaWireTree213 : BTree :=
  .nd (.nd (.nd (.lf
  0x790bce71c1479098e71a1e7909ce71ab4790a0e71a1479054e717407908ce718a079044e7154079050e716a078d7ce713f479040e714a078c10e7121e78cbce712b478d78e7121478c04e7101e78be0e710b478c08e7101478ba4e70df478bace70ea078b9ce70c1e78b34e70cb478ba0e70c1478af8e70a1e78af4e70ab478afce70a14789e4e707f478aece708a078960e7061e789b8e706b4789e0e70614787f0e7041e78934e704b478958e70414787e4e702b4787e8e7021479b54e7fc7879b50e7fcb479b58e7fc3079b3ce7fa7879b38e7fab479b40e7fa3079b24e7f87879b20e7f8b479b28e7f83079b10e7f67879b0ce7f6b479b14e7f63079af8e7f47879af4e7f4b479afce7f43079ae8e7f27879ae4e7f2b479aece7f23079ad4e7f07879ad0e7f0b479ad8e7f03079abce7ee7879ab8e7eeb479ac0e7ee3079a40e7ec7879aace7ecb479ab0e7ec3079a2ce7ea7879a28e7eab479a30e7ea30)
  (.lf 0)) (.nd (.lf
  0x713c139dd007140139bd0071441399d0071481397d00714c1395d0071501393d0071541391d007158138fd00715c138dd007160138bd0071641389d0071681387d00716c1385d0071701383d0071741381d0089d817bfd0089dc17bdd0089e017bbd0089e417b9d0089e817b7d0089ec17b5d0089f017b3d0089f417b1d0089f817afd0089fc17add008a0017abd008a0417a9d008a0817a7d008a0c17a5d008a1017a3d008a1417a1d008a18179fd008a1c179dd008a20179bd008a241799d008a281797d008a2c1795d008a301793d008a341791d008a38178fd008a3c178dd008a40178bd008a441789d008a481787d008a4c1785d008a501783d008a541781d00a2bc1bbfd00a2c01bbdd00a2c41bbbd00a2c81bb9d00a2cc1bb7d00a2d01bb5d00a2d41bb3d00a2d81bb1d00a2dc1bafd00a2e01badd00a2e41babd00a2e81ba9d00a2ec1ba7d00a2f01ba5d00a2f41ba3d00a2f81ba1d00a2fc1b9fd0)
  (.lf 0))) (.nd (.nd (.lf
  0x4aaec9812304aabc9810b44aa9c9810784aac09810304aa90980eb44aa70980e784aa94980e304aa64980cb44aa44980c784aa68980c304aa38980ab44aa18980a784aa3c980a304aa0c9808b44a9ec9808784aa109808304a9e09806b44a9c09806784a9e49806304a9b49804b44a9949804784a9b89804304a9889802b44a9789802784a98c9802304a0ac9cbcb44a0a89cbc784a0b09cbc304a0989cbab44a0949cba784a09c9cba304a0849cb8b44a0809cb8784a0889cb8304a0709cb6b44a06c9cb6784a0749cb6304a05c9cb4b44a0589cb4784a0609cb4304a0489cb2b44a0449cb2784a04c9cb2304a0349cb0b44a0309cb0784a0389cb0304a0209caeb44a01c9cae784a0249cae304a00c9cacb44a0089cac784a0109cac3049ff89caab449ff49caa7849ffc9caa3049fe49ca8b449fe09ca87849fe89ca83049fd09ca6b449fcc9ca67849fd49ca63049fbc9ca4b449fb89ca47849fc09ca430)
  (.lf 0)) (.nd (.lf
  0x2e64462f2cc2e5d462f0cc2e56862eecc2e4fc62eccc2e48462eacc2e40862e8cc2e39062e6cc2e31862e4cc2e2a062e2cc2e23062e0cc2e1c462decc2e15062dccc2e0e062dacc2e06c62d8cc2dff862d6cc2df8862d4cc2df1c62d2cc2dea862d0cc2de3862cecc2ddc462cccc2dd5462cacc2dce062c8cc2dc6062c6cc2dbe062c4cc2db6862c2cc2e8a862fdd02e83862fbd02e7c862f9d02e75062f7d02e6d462f5d02e66062f3d02e5f062f1d02e58462efd02e51862edd02e4a862ebd02e43062e9d02e3b862e7d02e34062e5d02e2c862e3d02e25062e1d02e1e062dfd02e17462ddd02e10062dbd02e09062d9d02e01862d7d02dfa462d5d02df3862d3d02decc62d1d02de5862cfd02dde862cdd02dd7462cbd02dd0462c9d02dc8062c7d02dbfc62c5d02db7c62c3d02db3462c1102e89c633d402e7406337f42e6c46335402e4206329f42e3a86327f42e3306325f42e2b86323f42e240632140)
  (.lf 0)))

def shaWireTree214 : BTree :=
  .nd (.nd (.nd (.lf
  0x3a658899eb43a694899e303a64c899c783a600899cb43a650899c303a5f4899a783a5a4899ab43a5f8899a303a5988998783a50c8998b43a59c8998303a5008996783a4fc8996b43a5048996303a4ec8994783a4608994b43a4f08994303a4548992783a4188992b43a4588992303a40c8990783a3448990b43a4108990303a338898e783a148898eb43a33c898e303a13c898c783a138898cb43a140898c303a128898a783a124898ab43a12c898a303a1148988783a1108988b43a1188988303a1008986783a0948986b43a1048986303a08889847839e1c8984b43a08c89843039e1089827839e0c8982b439e148982303eb148d7c783eb108d7cb43eb188d7c303eaf88d7a783eafc8d7ab43eb008d7a303eae88d78783eaec8d78b43eaf08d78303ead48d76783ead88d76b43eadc8d76303eac48d74783eac08d74b43eac88d74303eab08d72783eaac8d72b43eab48d72303ea988d70783ea9c8d70b4)
  (.lf 0)) (.nd (.lf
  0x65ba8d09d2c65b94d09b2c65b7cd0992c65b6cd0972c65b58d0952c65c2cd0932c65a70d0912c65a5cd08f2c65a4cd08d2c65a38d08b2c65a24d0892c65890d0872c65840d0852c657e0d0832c65798d080cc68228d4bf2c6821cd4bd2c68200d4bb2c681f0d4b92c681dcd4b72c681c8d4b52c681b0d4b32c6819cd4b12c68194d4af2c68178d4ad2c68154d4ab2c68140d4a92c68160d4a72c68120d4a52c6810cd4a32c680f4d4a12c68164d49f2c6815cd49d2c680c0d49b2c680b4d4992c68098d4972c68088d4952c6807cd4932c6805cd4912c6804cd48f2c68034d48d2c68020d48b2c6800cd4892c68004d4872c67fe8d4852c67fd4d4832c67e18d480cc6a444d8bf2c6a448d8bd2c6a44cd8bb2c6a414d8b92c6a454d8b72c6a3f4d8b52c6a450d8b32c6a3ccd8b12c6a3b8d8af2c6a0e0d8ad2c6a0c8d8ab2c6a0b4d8a92c6a0a0d8a72c6a0b8d8a52c6a07cd8a32c6a0e4d8a12c69e40d89f2c)
  (.lf 0))) (.nd (.nd (.lf
  0x60380e8cb4060400e8c30060280e8a78060240e8ab40602c0e8a30060140e8878060100e88b4060180e8830060000e867805ffc0e86b4060040e863005fec0e847805fe80e84b405ff00e843005fd80e827805fd40e82b405fdc0e823006fd80f3eaa06f740f3caa06f000f3aaa06e240f36aa06ce00f30aa06c6c0f2eaa06b900f2aaa06b1c0f28aa06a400f24aa069640f20aa068f00f1eaa0687c0f1caa067a00f18aa0672c0f16aa066500f12aa065dc0f10aa065680f0eaa0648c0f0aaa063480f04aa06f5c0f3c1e06fb80f3cb406fbc0f3c1406ee80f3a1e06f500f3ab406f540f3a1406e7c0f37f406ee00f38a006e0c0f361e06e740f36b406e780f361406da00f334006e040f34a006d380f31f406d9c0f32a006cc80f301e06d300f30b406d340f301406c540f2e1e06cbc0f2eb406cc00f2e1406be80f2bf406c4c0f2ca006b780f2a1e06be00f2ab406be40f2a1406b040f281e06b6c0f28b4)
  (.lf 0)) (.nd (.lf
  0x76f80e3eecc76f2ce3eccc76e34e3eacc76dbce3e8cc76cf8e3e6cc77af4e3e4cc7774ce3e2cc77554e3e0cc77474e3decc77270e3dccc77094e3dacc76f7ce3d8cc76f0ce3d6cc76e30e3d4cc777c4e3d2cc77748e3d0cc7755ce3cecc77448e3cccc77278e3cacc77090e3c8cc76f94e3c6cc76f08e3c4cc76e3ce3c2cc77e8ce3fdd077e78e3fbd077e64e3f9d077e50e3f7d077e3ce3f5d077e28e3f3d077e14e3f1d077dfce3efd077de8e3edd077dd8e3ebd077dc4e3e9d077db0e3e7d077d9ce3e5d077d88e3e3d077b54e3e1d077b3ce3dfd077b28e3ddd077b14e3dbd077b00e3d9d077ab8e3d7d0777e8e3d5d0777d8e3d3d077758e3d1d07756ce3cfd077454e3cdd077288e3cbd0770a4e3c9d076fa4e3c7d076f18e3c5d076e4ce3c3d076dd4e3c11078904e6becc78720e6bccc78860e6bacc786e0e6b8cc78608e6b6cc785d8e6b4cc788f8e6b2cc79190e6b0cc78850e6aecc78704e6accc)
  (.lf 0)))

def shaWireTree215 : BTree :=
  .nd (.nd (.nd (.lf
  0x4dfe89f39f44e00c9f3aa04dfcc9f381e4dfe09f38b44dfe49f38144de909f35404df709f36a04de209f33f44de8c9f34a04dda49f321e4de189f32b44de1c9f32144dcf89f2f404dd9c9f30a04dcec9f2df44dcf49f2ea04dc949f2c1e4dc909f2cb44dce89f2c144db749f2a1e4db849f2ab44dc889f2a144db589f281e4db5c9f28b44db6c9f28144da609f25404db509f26a04da509f23f44da5c9f24a04da149f221e4da489f22b44da4c9f22144d9d49f1f404d9e09f20a04d94c9f1d404d9d09f1ea04d9109f1bf44d9489f1ca04d8d09f1a1e4d9089f1ab44d90c9f1a144d7b89f17f44d8c89f18a04d7249f161e4d7b09f16b44d7b49f16144d6e49f141e4d7189f14b44d71c9f14144d6989f11404d6dc9f12a04d6749f0ff44d6949f10a04d66c9f0e1e4d5e09f0eb44d6709f0e144d5489f0b404d5b49f0ca04d4349f09404d5449f0aa04d4249f07404d4309f08a04d4109f05f44d4209f06a0)
  (.lf 0)) (.nd (.lf
  0x1240a532c001100a512c000fc0a4f2c000e80a4d2c000d40a4b2c000c00a492c000ac0a472c000980a452c000840a432c000040a40cc00b7c0e7f2c00b680e7d2c00b540e7b2c00b400e792c00b2c0e772c00b180e752c00b040e732c00af00e712c00adc0e6f2c00ac80e6d2c00ab40e6b2c00aa00e692c00a8c0e672c00a780e652c00a640e632c00a500e612c00a3c0e5f2c00a280e5d2c00a140e5b2c00a000e592c009ec0e572c009d80e552c009c40e532c009b00e512c0099c0e4f2c009880e4d2c009740e4b2c009600e492c0094c0e472c009380e452c009240e432c008a40e40cc01bd4127f2c01bac127d2c01b80127b2c01b5412792c01b2812772c01afc12752c01ad012732c01aa412712c01a78126f2c01a4c126d2c01a20126b2c019f412692c019c812672c0199c12652c0197012632c0194412612c01918125f2c018ec125d2c018c0125b2c0189412592c0186812572c0183c12552c)
  (.lf 0))) (.nd (.nd (.lf
  0x7ff9cfa2050800b0fa1e5080064fa1c507f990fa1a507f8dcfa18507f864fa16507fcacfa14507f71cfa12507f73cfa10507f688fa0e507f59cfa0c507f4e0fa0a507f494fa08507f3f4fa06507f2c8fa04507f288fa02507f05cfa005080584fe3e7880500fe3c7880544fe3a788046cfe387880414fe367880400fe347880334fe327880864fe3078802a4fe2e78802ecfe2c78803c0fe2a7880048fe287880144fe26787ffecfe247880148fe22787ffa8fe2078800c4fe1e7880068fe1c787f98cfe1a787f8d8fe18787f85cfe16787f830fe14787f714fe12787f6f8fe10787f6b4fe0e787f654fe0c787f4f8fe0a787f4b4fe08787f3ecfe06787f2ccfe04787f284fe02787f050fe00788290cfe3e50825ecfe3c5082598fe3a508256cfe38508222cfe365082194fe345082128fe32508219cfe3050820b8fe2e5082078fe2c5082044fe2a50822bcfe2850820ccfe2650820b0fe245081e8cfe2250)
  (.lf 0)) (.nd (.lf
  0x67fc8d4b0cc67d24d4aecc67d2cd4accc67d70d4aacc67d78d4a8cc67d80d4a6cc67d88d4a4cc67d90d4a2cc67d98d4a0cc67da0d49ecc67da8d49ccc67db0d49acc67db8d498cc67dc0d496cc67dc8d494cc67dd0d492cc67dd8d490cc67de0d48ecc67de8d48ccc67df0d48acc67df8d488cc67e00d486cc67e08d484cc67fd0d482cc68224d4bdd068210d4bbd0681fcd4b9d0681e8d4b7d0681d4d4b5d0681c0d4b3d0681acd4b1d068198d4afd068184d4add068170d4abd068150d4a9d06813cd4a7d06812cd4a5d068118d4a3d068104d4a1d0680f0d49fd0680e0d49dd0680d0d49bd0680bcd499d0680a8d497d068094d495d068080d493d06806cd491d068058d48fd068044d48dd068030d48bd06801cd489d068008d487d067ff4d485d067fe0d483d067e10d481106b710d47ecc6b718d47ccc6b720d47acc6b79cd478cc6b7a4d476cc6b7acd474cc6b7b4d472cc6b7bcd470cc6b7c4d46ecc)
  (.lf 0)))

def shaWireTree216 : BTree :=
  .nd (.nd (.nd (.lf
  0x289e061bf2c289cc61bd2c289b461bb2c289a061b92c2898c61b72c2897c61b52c289c861b32c2895861b12c2894061af2c2892c61ad2c2891c61ab2c2890861a92c288fc61a72c288d861a52c288dc61a32c288c061a12c2889c619f2c28878619d2c28858619b2c2883861992c2881861972c287f861952c287d861932c287b861912c28798618f2c28778618d2c28758618b2c2873861892c2871861872c286f461852c286d461832c286486180cc298b065bf2c298a065bd2c2988c65bb2c2987865b92c2986465b72c2985065b52c2983c65b32c2982865b12c2981465af2c2980065ad2c297ec65ab2c297d865a92c297c465a72c297b065a52c2979c65a32c2978865a12c29774659f2c29760659d2c2974c659b2c2973865992c2972465972c2971065952c296fc65932c296e865912c296d0658f2c296bc658d2c296a8658b2c2969465892c2968065872c2966c65852c2956865832c294e86580cc)
  (.lf
  0x26c2050bccc26c2850bacc26c3050b8cc26c3850b6cc26c4050b4cc26c4850b2cc26c5050b0cc26c5850aecc26c6050accc26cc050aacc26cc850a8cc26cd050a6cc26cd850a4cc26ce050a2cc26ce850a0cc26cf0509ecc26cf8509ccc26d00509acc26d085098cc26d105096cc26d185094cc26d205092cc26d285090cc26d30508ecc26d38508ccc26d40508acc26d485088cc26d505086cc26d585084cc26d605082cc2803050bdd027fac50bbd027f0c50b9d027e7050b7d027dd050b5d027d2c50b3d027c9050b1d027bf050afd027b4c50add027aa850abd027a0450a9d02796850a7d0278c850a5d02782c50a3d02779450a1d0276f4509fd027658509dd0275c0509bd0275205099d0274845097d0273e45095d0273405093d0272a45091d02720c508fd027174508dd0270d4508bd0270305089d026f945087d026ef45085d026e505083d026d685081101bbac507ecc1bbb4507ccc1bbbc507acc))
  (.nd (.lf
  0x7cf94f3a0307caecf39e307c858f39c307c6c0f39a307c634f398307c5f8f396307c638f394307c590f392307c65cf390307c674f38e307c640f38c307c3dcf38a307c3f0f388307c3e8f386307c118f384307bf50f382307bf5cf380307ec8cf7beb47ec38f7bcb47ec0cf7bab47eb34f7b8b47eb14f7b6b47eba0f7b4b47edd0f7b2b47eaa4f7b0b47eaccf7aeb47ea60f7acb47e9f8f7aab47ecb4f7a8b47e72cf7a6b47e6f0f7a4b47e6d0f7a2b47e6a8f7a0b47e680f79eb47e668f79cb47e62cf79ab47e5d4f798b47e5b4f796b47e350f794b47e2f4f792b47e218f790b47e1dcf78eb47e9bcf78cb47dc50f78ab47dc80f788b47db18f786b47d538f784b47d428f782b47d598f780b47cf2cf7be787cec0f7bc787ce84f7ba787d888f7b8787ce24f7b6787cdd8f7b4787cd84f7b2787cd54f7b0787ccccf7ae787cc80f7ac787cc34f7aa787cc4cf7a8787cc24f7a6787cbd4f7a4787cbbcf7a278)
  (.lf 0))) (.nd (.nd (.lf
  0x316f06a96b4316f86a9630316e06a9478316dc6a94b4316e46a9430316cc6a9278316c86a92b4316d06a9230316b86a9078316b46a90b4316bc6a9030316a46a8e78316a06a8eb4316a86a8e30316906a8c783168c6a8cb4316946a8c303167c6a8a78316786a8ab4316806a8a30316686a8878316646a88b43166c6a8830316546a8678316506a86b4316586a8630316406a84783163c6a84b4316446a84303162c6a8278316286a82b4316306a82303283c6a7cb4328986a7c783289c6a7c30327c86a7ab4328306a7a78328346a7a30327506a78b4327bc6a7878327c06a7830326e06a76b4327446a7678327486a7630326746a74b4326d46a7478326d86a7430326046a72b4326686a72783266c6a72303258c6a70b4325f86a7078325fc6a70303250c6a6eb4325806a6e78325846a6e303248c6a6cb4325006a6c78325046a6c303240c6a6ab4324806a6a78324846a6a303238c6a68b4324006a6878)
  (.lf 0)) (.nd (.lf
  0x46740070730467c0070710468400706f0468c00706d0469400706b0469c007069046a4007067046ac007065046b4007063046bc00706105ecc00705f05ed400705d05edc00705b05ee400705905eec00705705ef400705505efc00705305f0400705105f0c00704f05f1400704d05f1c00704b05f2400704905f2c00704705f3400704505f3c00704305f4400704105f4c00703f05f5400703d05f5c00703b05f6400703905f6c00703705f7400703505f7c00703305f8400703105f8c00702f05f9400702d05f9c00702b05fa400702905fac00702705fb400702505fbc00702305fc4007021077d800701f077e000701d077e800701b077f0007019077f80070170780000701507808007013078100070110781800700f0782000700d0782800700b078300070090783800700707840007005078480070030785000700107858006fff07860006ffd07868006ffb07870006ff907878006ff707880006ff5)
  (.lf 0)))

def shaWireTree217 : BTree :=
  .nd (.nd (.nd (.lf
  0x7bff4fa5a307ad94fa58b47ad68fa58787ad98fa58307ad4cfa56b47ad24fa56787ad50fa56307ad10fa54b47ad18fa54787ad1cfa54307acfcfa52b47ad00fa52787ad08fa52307abb4fa50b47acf0fa50787acf4fa50307ab78fa4eb47ab30fa4e787ab8cfa4e307ab18fa4cb47a848fa4c787ab20fa4c307a834fa4ab47a838fa4a787a83cfa4a307a828fa48b47a824fa48787a82cfa48307a818fa46b47a814fa46787a81cfa46307a800fa44b47a434fa44787a804fa44307a428fa42b47a270fa42787a42cfa4230828e0fafcb4824ecfafc78828e4fafc30824dcfafab4824d8fafa78824e0fafa30824b8faf8b4824c4faf878824c8faf83082468faf6b481decfaf678824b0faf63081dd8faf4b481dccfaf47881ddcfaf43081cd8faf2b481dc0faf27881dc4faf23081cc8faf0b481cccfaf07881cd0faf03081cb8faeeb481cacfaee7881cbcfaee3081c84faecb481c88faec7881c8cfaec30)
  (.lf 0)) (.nd (.lf
  0x748013dd2c0746c13db2c0745813d92c0744413d72c0743013d52c0741c13d32c0740813d12c073f413cf2c073e013cd2c073cc13cb2c073b813c92c073a413c72c0739013c52c0737c13c32c0737813c0cc08eb417ff2c08ea017fd2c08e8c17fb2c08e7817f92c08e6417f72c08e5017f52c08e3c17f32c08e2817f12c08e1417ef2c08e0017ed2c08dec17eb2c08dd817e92c08dc417e72c08db017e52c08d9c17e32c08d8817e12c08d7417df2c08d6017dd2c08d4c17db2c08d3817d92c08d2417d72c08d1017d52c08cfc17d32c08ce817d12c08cd417cf2c08cc017cd2c08cac17cb2c08c9817c92c08c8417c72c08c7017c52c08c5c17c32c08c5817c0cc0a7981bff2c0a7841bfd2c0a7701bfb2c0a75c1bf92c0a7481bf72c0a7341bf52c0a7201bf32c0a70c1bf12c0a6f81bef2c0a6e41bed2c0a6d01beb2c0a6bc1be92c0a6a81be72c0a6941be52c0a6801be32c0a66c1be12c0a6581bdf2c)
  (.lf 0))) (.nd (.nd (.lf
  0x5c440b860785c444b860305c428b85eb45c424b85e785c42cb85e305c404b85cb45c40cb85c785c410b85c305c3f0b85ab45c3f8b85a785c3fcb85a305c3e4b858b45c3dcb858785c3e8b858305c3c8b856b45c3ccb856785c3d0b856305c3b8b854b45c3b0b854785c3c0b854305c3a4b852b45c39cb852785c3a8b852305c384b850b45c38cb850785c390b850305c368b84eb45c370b84e785c37cb84e305c354b84cb45c35cb84c785c360b84c305c348b84ab45c340b84a785c34cb84a305c328b848b45c334b848785c338b848305c31cb846b45c310b846785c320b846305c300b844b45c304b844785c308b844305c2ecb842b45c2bcb842785c2f0b842305cf78b83cb45cf1cb83c785cf80b83c305cf10b83ab45ce74b83a785cf14b83a305ce68b838b45ce18b838785ce6cb838305cde4b836b45cd88b836785cde8b836305cd60b834b45cd0cb834785cd80b834305cd00b832b45cc64b83278)
  (.lf 0)) (.nd (.lf
  0x3f4d082d8cc3f4b082d6cc3f49882d4cc3f48082d2cc3f46882d0cc3f46482cecc3f46082cccc3f45c82cacc3f4b882c8cc3f30882c6cc3f31482c4cc3f25482c2cc3fc8482fdd03fc5882fbd03fc1482f9d03fbd482f7d03fb7882f5d03fb5482f3d03faec82f1d03faa082efd03fa7c82edd03fa3c82ebd03f9f882e9d03f99482e7d03f97082e5d03f92c82e3d03f8e482e1d03f88482dfd03f84882ddd03f82082dbd03f7cc82d9d03f7bc82d7d03f79c82d5d03f73882d3d03f6cc82d1d03f66882cfd03f5fc82cdd03f59482cbd03f53082c9d03f37c82c7d03f36c82c5d03f2a882c3d03f22082c1103fc9c833d403fc088339403fb448333f43fb088331f43fac0832ff43fa70832d403f9ec8329f43f9ac8327403f91c8323f43f8d48321f43f898831f403f7848315403f6b08311403f5dc830d403f2988303403ed7883fecc3ed8083fccc3ed8883facc3ed9083f8cc3ed9883f6cc3eda083f4cc)
  (.lf 0)))

def shaWireTree218 : BTree :=
  .nd (.nd (.nd (.lf
  0x54f14b96c7854efcb96cb454f18b96c3054ec8b96a7854ec4b96ab454eccb96a3054eb8b9687854e98b968b454ebcb9683054e84b9667854e8cb966b454e90b9663054e64b9647854e48b964b454e68b9643054e0cb9627854e24b962b454e28b9623054de0b9607854df8b960b454dfcb9603054dd4b95e7854dbcb95eb454dd8b95e3054d9cb95c7854d98b95cb454da0b95c3054d88b95a7854d70b95ab454d8cb95a3054d4cb9587854d44b958b454d50b9583054d34b9567854d38b956b454d3cb9563054d0cb9547854d10b954b454d14b9543054cd4b9527854cd8b952b454cdcb9523054cb8b9507854cb4b950b454cbcb9503054c90b94e7854ca4b94eb454ca8b94e3054c80b94c7854c7cb94cb454c84b94c3054c6cb94a7854c70b94ab454c74b94a3053d18b9487853dfcb948b453e00b9483053d08b9467853d0cb946b453d10b9463053c54b9447853cccb944b453d00b9443053c44b94278)
  (.lf 0)) (.nd (.lf
  0x82df90d9d2c82e110d9b2c82d710d992c82cfd0d972c82cb50d952c82ca10d932c82b010d912c82a890d8f2c829850d8d2c827390d8b2c826f50d892c826dd0d872c8269d0d852c821e50d832c821b50d80cc8290109bf2c825d909bd2c8259109bb2c8253909b92c8220d09b72c8214509b52c8211509b32c820fd09b12c8208d09af2c8206509ad2c8203509ab2c8201509a92c81ff909a72c81fe509a52c81e7d09a32c81e2109a12c81c19099f2c81bf5099d2c81b69099b2c80c8d09992c80c6d09972c80c3509952c80c1109932c80c0109912c80bb5098f2c80b91098d2c80bcd098b2c80a8509892c80a9509872c80a1509852c809d909832c8036d0980cc8058105bf2c804f105bd2c8052105bb2c8045505b92c8041105b72c803dd05b52c8032105b32c802b105b12c802a105af2c802e505ad2c8017905ab2c8003905a92c8000d05a72c7ffe905a52c7ffc105a32c7ff9905a12c800a5059f2c)
  (.lf 0))) (.nd (.nd (.lf
  0xe52022a2b40e52822a2300e49822a0780e49422a0b40e49c22a0300e40c229e780e408229eb40e410229e300e380229c780e37c229cb40e384229c300e2fc229a780e2f8229ab40e300229a300e2742298780e2702298b40e2782298300e1f02296780e1ec2296b40e1f42296300e1682294780e1642294b40e16c2294300e0e42292780e0e02292b40e0e82292300e05c2290780e0582290b40e0602290300dfd8228e780dfd4228eb40dfdc228e300df50228c780df4c228cb40df54228c300decc228a780dec8228ab40ded0228a300de4c2288780de482288b40de502288300ddc42286780ddc02286b40ddc82286300dd4c2284780dd482284b40dd502284300dcd82282780dcd42282b40dcdc22823008878227cb408810227c780887c227c3008804227ab408784227a7808808227a30087782278b4086f82278780877c227830086ec2276b408668227678086f02276300865c2274b4085e8227478)
  (.lf 0)) (.nd (.lf
  0x4e94199ecc04e08199ccc04d7c199acc04cf01998cc04c641996cc04c041994cc04b581992cc04acc1990cc04a40198ecc049b4198ccc04954198acc048d41988cc048281986cc0479c1984cc047101982cc0566819bdd0055ec19bbd00556019b9d0054d019b7d00545419b5d0053c419b3d00534819b1d0052bc19afd00523019add0051a019abd00512019a9d0050a019a7d00502019a5d004fa019a3d004f2019a1d004ea4199fd004e18199dd004d8c199bd004d001999d004c741997d004be41995d004b681993d004adc1991d004a50198fd0049c4198dd004934198bd0048b41989d0048381987d0047ac1985d0047201983d0046d419811006fe81d7ecc06f901d7ccc06f201d7acc06ea81d78cc06e441d76cc06dcc1d74cc06d641d72cc06d001d70cc06c8c1d6ecc06c141d6ccc06bb01d6acc06b3c1d68cc06ac41d66cc06a601d64cc069e81d62cc069841d60cc069101d5ecc0689c1d5ccc)
  (.lf 0)))

def shaWireTree219 : BTree :=
  .nd (.nd (.nd (.lf
  0x5754cb28c3057530b28a785752cb28ab457534b28a305751cb2887857518b288b457520b2883057500b2867857504b286b45750cb28630574f0b28478574f4b284b4574f8b28430574e0b28278574d4b282b4574e4b2823058ae4b27cb458738b27c7858ae8b27c3058718b27ab45871cb27a7858720b27a3058708b278b4586f4b278785870cb27830586e4b276b4586e8b27678586ecb27630586d4b274b4586d8b27478586dcb27430586b4b272b4586c4b27278586c8b2723058698b270b45869cb27078586acb270305868cb26eb458688b26e7858690b26e305867cb26cb458678b26c7858680b26c3058664b26ab458660b26a7858668b26a3058650b268b458654b2687858658b2683058630b266b458638b266785863cb2663058618b264b458624b2647858628b264305860cb262b458600b2627858610b26230585ecb260b4585f4b26078585f8b26030585dcb25eb4585d0b25e78585e0b25e30)
  (.lf 0)) (.nd (.lf
  0x4b4c0ad32c04ac00ad12c04a340acf2c049a80acd2c049240acb2c048a40ac92c0481c0ac72c047900ac52c047040ac32c046cc0ac0cc06fd40eff2c06f700efd2c06efc0efb2c06e900ef92c06e200ef72c06db40ef52c06d4c0ef32c06cdc0ef12c06c680eef2c06bfc0eed2c06b8c0eeb2c06b180ee92c06aac0ee72c06a3c0ee52c069d00ee32c069600ee12c068ec0edf2c068780edd2c0680c0edb2c0679c0ed92c067280ed72c066bc0ed52c0664c0ed32c065d80ed12c065640ecf2c064f80ecd2c064880ecb2c0641c0ec92c063b40ec72c063440ec52c062d80ec32c062300ec0cc088b812ff2c0884812fd2c087c012fb2c0873412f92c086a812f72c0862412f52c085a412f32c0851c12f12c0849812ef2c0841012ed2c0838c12eb2c0830412e92c0828012e72c081f812e52c0816c12e32c080e812e12c0806012df2c07fd412dd2c07f5012db2c07ed012d92c07e5012d72c07dd012d52c)
  (.lf 0))) (.nd (.nd (.lf
  0x8041c001981803e400197f8033800197d8030400197b802a8001979803100019778026800197580134001973800900019717fff400196f7ffd000196d7ffac00196b800a80019698006c0019677f9980019657f8e40019637f89400196180c3c00195f80c4c00195d80c5000195b80bb800195980b9c00195780bd000195582910001953825e4001951825b400194f8254400194d8224400194b82918001949825fc001947825940019458253c001943822180019418215000193f8212000193d8210800193b820940019398206c0019378203c0019358201c00193381ffc00193182a5000192f81e8000192d81e2400192b81cfc00192981bf800192781b7000192580c9000192380c78001921207e4407cb4207e0407c78207e8407c3020740407ab42073c407a7820744407a302067c4078b42067840787820680407830205c44076b4205c0407678205c84076302050c4074b42050840747820510407430)
  (.lf 0)) (.nd (.lf
  0xe4c02accc00e5402aacc00e5c02a8cc00e6402a6cc00e6c02a4cc00e7402a2cc00e7c02a0cc00e84029ecc00e8c029ccc00e94029acc00e9c0298cc00ea40296cc00eac0294cc00eb40292cc00ebc0290cc00ec4028ecc00ecc028ccc00ed4028acc00edc0288cc00ee40286cc00eec0284cc00ef40282cc0160402bdd0015c802bbd00158c02b9d00155402b7d00151c02b5d0014e402b3d0014a402b1d00146802afd00142802add0013ec02abd0013b402a9d00137c02a7d00133c02a5d00130002a3d0012c002a1d001284029fd00124c029dd001214029bd0011d40299d0011980297d0011580295d0011140293d0010d00291d00108c028fd001048028dd00100c028bd000fd40289d000f940287d000f640285d000f380283d000efc02811000640027ecc0063c027ccc00638027acc006340278cc006300276cc0062c0274cc006280272cc006240270cc00620026ecc0061c026ccc00618026acc)
  (.lf 0)))

def shaWireTree220 : BTree :=
  .nd (.nd (.nd (.lf
  0x80f0c084eb480f10084e3080ee4084c7880ee0084cb480efc084c3080ecc084a787f474084ab480ed0084a307f4640848787f4680848b47f46c0848307f4100846787f3280846b47f4580846307f2f00844787f2dc0844b47f3200844307f2b00842787f0640842b47f2d408423081b240c7c7881b280c7cb481b2c0c7c3081b140c7a7881b180c7ab481b1c0c7a3081b040c787881b000c78b481b080c783081af00c767881aec0c76b481af40c763081ad40c747881ad80c74b481adc0c743081ac00c727881ac40c72b481ac80c723081aac0c707881ab00c70b481ab80c703081a980c6e7881aa00c6eb481aa40c6e3081a880c6c7881a8c0c6cb481a900c6c3081a740c6a7881a780c6ab481a7c0c6a3081a640c68787e9b80c68b481a680c68307e9a80c66787e9a40c66b47e9ac0c66307e9900c64787e9980c64b47e99c0c64307e97c0c62787e9840c62b47e9880c62307e9680c60787e9600c60b4)
  (.lf 0)) (.nd (.lf
  0x224b84ba0b4224bc4b9eb4224c04b9cb4224c44b9ab4224c84b98b4224cc4b96b4224d04b94b4225e04b92b4222a84b90b4222844b8eb4222604b8cb42223c4b8ab4222184b88b4221f44b86b4221d04b84b4221ac4b82b4221484b80b4210184bbe782101c4bbc78210204bba78210244bb878210284bb6782102c4bb478210304bb278210344bb078210384bae782103c4bac78210404baa78210444ba878210484ba6782104c4ba478210504ba278210544ba078210584b9e782105c4b9c78210604b9a78210644b9878210684b96782106c4b9478210704b9278210744b9078210784b8e782107c4b8c7820cd84b8a7820cbc4b887820c904b867820c6c4b847820c484b827820bf84b8078224d44bbe30224d84bbc30224dc4bba30224e04bb830224e44bb630224e84bb430224ec4bb230224f04bb030224f44bae30224f84bac30224fc4baa30225004ba830225044ba630225084ba4302250c4ba230)
  (.lf 0))) (.nd (.nd (.lf
  0x218f0469a78218ec469ab4218f4469a30218b4469878218b04698b4218b84698302187c469678218784696b42188046963021844469478218404694b42184846943021804469278218004692b421808469230217c0469078217bc4690b4217c44690302177c468e7821778468eb421780468e3021738468c7821734468cb42173c468c30216fc468a78216f8468ab421700468a30216c4468878216c04688b4216c84688302168c468678216884686b42169046863021654468478216504684b42165846843021614468278216104682b4216184682301a65c467cb41a694467c781a698467c301a618467ab41a650467a781a654467a301a5d44678b41a60c4678781a6104678301a5904676b41a5c84676781a5cc4676301a54c4674b41a5844674781a5884674301a5084672b41a5404672781a5444672301a4c44670b41a4fc4670781a5004670301a480466eb41a4b8466e781a4bc466e301a43c466cb4)
  (.lf 0)) (.nd (.lf
  0x45a009d96cc459409d94cc459289d92cc4597c9d90cc458989d8ecc457e49d8ccc457f49d8acc457549d88cc455949d86cc453c09d84cc453549d82cc45fd09dbdd045fbc9dbbd045f7c9db9d045f2c9db7d045f189db5d045f049db3d045ef09db1d045edc9dafd045ec89dadd045eb89dabd045e989da9d045c6c9da7d045c589da5d045bc89da3d045b9c9da1d045b789d9fd045b549d9dd045aa89d9bd045a649d99d045a109d97d0459a09d95d04598c9d93d0459709d91d0458b09d8fd0458349d8dd0457fc9d8bd0457749d89d0455a89d87d0453d09d85d0453649d83d0453249d81104795ca17ecc47948a17ccc47930a17acc47914a178cc47900a176cc478e8a174cc478cca172cc478b4a170cc47814a16ecc477fca16ccc477e8a16acc477cca168cc4781ca166cc47780a164cc47760a162cc476eca160cc47670a15ecc47674a15ccc476c4a15acc4760ca158cc475c4a156cc47584a154cc)
  (.lf 0)))

def shaWireTree221 : BTree :=
  .nd (.nd (.nd (.lf
  0x6c178d654786c17cd654306bf40d652b46c0e4d652786c0e8d652306bf34d650b46bf30d650786bf38d650306be80d64eb46bf1cd64e786bf20d64e306bdf4d64cb46be74d64c786be78d64c306bd68d64ab46bde8d64a786bdecd64a306bd34d648b46bd5cd648786bd60d648306bc64d646b46bd28d646786bd2cd646306bbfcd644b46bc58d644786bc5cd644306b898d642b46bbf0d642786bbf4d642306d37cd6fcb46d378d6fc786d380d6fc306d36cd6fab46d368d6fa786d370d6fa306d2a0d6f8b46d29cd6f8786d344d6f8306d234d6f6b46d208d6f6786d238d6f6306d1fcd6f4b46cf94d6f4786d200d6f4306cf88d6f2b46cf84d6f2786cf8cd6f2306cf24d6f0b46cefcd6f0786cf28d6f0306cee4d6eeb46ccf4d6ee786cef4d6ee306cce8d6ecb46cce4d6ec786ccecd6ec306ccd0d6eab46ccccd6ea786ccd4d6ea306ccc0d6e8b46cc6cd6e8786ccc4d6e8306cc60d6e6b46cc5cd6e678)
  (.lf 0)) (.nd (.lf
  0x7300005ffd07308005ffb07310005ff907318005ff707320005ff507328005ff307330005ff107338005fef07340005fed07348005feb07350005fe907358005fe707360005fe507368005fe307370005fe108b58005fdf08b60005fdd08b68005fdb08b70005fd908b78005fd708b80005fd508b88005fd308b90005fd108b98005fcf08ba0005fcd08ba8005fcb08bb0005fc908bb8005fc708bc0005fc508bc8005fc308bd0005fc108bd8005fbf08be0005fbd08be8005fbb08bf0005fb908bf8005fb708c00005fb508c08005fb308c10005fb108c18005faf08c20005fad08c28005fab08c30005fa908c38005fa708c40005fa508c48005fa308c50005fa10a43c005f9f0a444005f9d0a44c005f9b0a454005f990a45c005f970a464005f950a46c005f930a474005f910a47c005f8f0a484005f8d0a48c005f8b0a494005f890a49c005f870a4a4005f850a4ac005f830a4b4005f810a4bc005f7f)
  (.lf 0))) (.nd (.nd (.lf
  0x3b70c7c82b43b7087c82783b7107c82303dd6c7c7cb43dd687c7c783dd707c7c303dd2c7c7ab43dd287c7a783dd307c7a303dce87c78b43dce47c78783dcec7c78303dca07c76b43dc9c7c76783dca47c76303dc5c7c74b43dc587c74783dc607c74303dc187c72b43dc147c72783dc1c7c72303dbd47c70b43dbd07c70783dbd87c70303db907c6eb43db8c7c6e783db947c6e303db4c7c6cb43db487c6c783db507c6c303db087c6ab43db047c6a783db0c7c6a303dac47c68b43dac07c68783dac87c68303da807c66b43da7c7c66783da847c66303da3c7c64b43da387c64783da407c64303d9f87c62b43d9f47c62783d9fc7c62303d9b47c60b43d9b07c60783d9b87c60303d9707c5eb43d96c7c5e783d9747c5e303d9287c5cb43d9247c5c783d92c7c5c303d8e07c5ab43d8dc7c5a783d8e47c5a303d8987c58b43d8947c58783d89c7c58303d8507c56b43d84c7c56783d8547c56303d8087c54b4)
  (.lf 0)) (.nd (.lf
  0x1f9984257d01f8dc4255d01f8204253d01f76c4251d01f6ac424fd01f5ec424dd01f528424bd01f4704249d01f3b84247d01f2f44245d01f2244243d01f1904241102080442fecc2076042fccc2069c42facc205e442f8cc2052c42f6cc2047042f4cc203b442f2cc2030042f0cc2024042eecc2018842eccc200d042eacc2001442e8cc1ff5042e6cc1fe9842e4cc1fdd842e2cc1fd1842e0cc1fc5c42decc1fba042dccc1fadc42dacc1fa2442d8cc1f96442d6cc1f8ac42d4cc1f7f442d2cc1f73842d0cc1f67442cecc1f5b442cccc1f4f842cacc1f44442c8cc1f38c42c6cc1f2c842c4cc1f1f842c2cc2078442fdd0206c442fbd02060442f9d02054842f7d02049442f5d0203d442f3d02031c42f1d02026442efd0201a842edd0200ec42ebd02003842e9d01ff7842e7d01feb842e5d01fdfc42e3d01fd4042e1d01fc7c42dfd01fbc442ddd01fb0442dbd01fa4442d9d01f98842d7d01f8cc42d5d0)
  (.lf 0)))

def shaWireTree222 : BTree :=
  .nd (.nd (.nd (.lf
  0x25f6c5d503025f505d4e7825f545d4eb425f585d4e3025f3c5d4c7825f405d4cb425f445d4c3025f305d4a7825d3c5d4ab425f345d4a3025d2c5d487825d305d48b425d345d483025d185d467825d1c5d46b425d205d463025d0c5d447825d045d44b425d105d4430259ec5d4278259e45d42b4259f05d423025f145dbc7825f185dbcb425f1c5dbc3025ecc5dba7825ec85dbab425ed05dba3025ce45db87825ebc5db8b425ec05db83025cd05db67825ccc5db6b425cdc5db63025cb45db47825cb85db4b425cbc5db43025ca45db27825ca85db2b425cac5db23025c8c5db07825c905db0b425c945db03025c705dae7825c6c5daeb425c745dae3025c545dac7825c585dacb425c5c5dac3025c485daa7825c445daab425c4c5daa3025c305da87825c2c5da8b425c345da83025c145da67825c205da6b425c245da63025c085da47825bc05da4b425c0c5da43025ba85da27825bac5da2b425bb05da230)
  (.lf 0)) (.nd (.lf
  0x3cd30003ffd3cd38003ffb3cd40003ff93cd48003ff73cd50003ff53cd58003ff33cd60003ff13cd68003fef3cd70003fed3cd78003feb3cd80003fe93cd88003fe73cd90003fe53cd98003fe33cda0003fe147024003fdf4702c003fdd47034003fdb4703c003fd947044003fd74704c003fd547054003fd34705c003fd147064003fcf4706c003fcd470cc003fcb470d4003fc9470dc003fc7470e4003fc5470ec003fc3470f4003fc1470fc003fbf47104003fbd4710c003fbb47114003fb94711c003fb747124003fb54712c003fb347134003fb14713c003faf47144003fad4714c003fab47154003fa94715c003fa747164003fa54716c003fa347174003fa13d2e8003f9f3d2ec003f9d3d2f0003f9b3d2f4003f993d2f8003f973d2fc003f953d300003f933d304003f913d308003f8f3d30c003f8d3d368003f8b3d36c003f893d370003f873d374003f853d378003f833d37c003f813d380003f7f)
  (.lf 0))) (.nd (.nd (.lf
  0x74798f4423074df8f43cb474df4f43c7874dfcf43c3074dccf43ab474de4f43a7874de8f43a3074dbcf438b474db8f4387874dc0f4383074d98f436b474dacf4367874db0f4363074d88f434b474d84f4347874d8cf4343074d10f432b474d0cf4327874d14f4323074cf8f430b474cfcf4307874d00f4303074ce8f42eb474ce0f42e7874cecf42e3074c8cf42cb474c94f42c7874cd8f42c3074c7cf42ab474c78f42a7874c80f42a3074c6cf428b474c28f4287874c70f4283074c14f426b474c1cf4267874c20f4263074c04f424b474c08f4247874c0cf4243074bf4f422b474be0f4227874bf8f4223074bd0f420b474bccf4207874bd4f4203074bbcf41eb474bb0f41e7874bc0f41e3074b90f41cb474b98f41c7874ba4f41c3074b54f41ab474b50f41a7874b58f41a3074b40f418b474b3cf4187874b44f4183074b28f416b474b30f4167874b34f4163074b18f414b474b14f4147874b20f41430)
  (.lf 0)) (.nd (.lf
  0x61940c2d5d0616a4c2d3d06158cc2d1d06154cc2cfd061538c2cdd061528c2cbd06140cc2c9d061328c2c7d061318c2c5d0612a4c2c3d060ec8c2c11060574c3fecc60538c3fccc60564c3facc6051cc3f8cc60018c3f6cc5ffbcc3f4cc5ff80c3f2cc5ffd0c3f0cc5ff90c3eecc5fee4c3eccc5fea8c3eacc5fe80c3e8cc5febcc3e6cc60578c3e4cc60524c3e2cc6000cc3e0cc601e8c3decc5ff5cc3dccc5ffd8c3dacc601ecc3d8cc601e4c3d6cc5fe20c3d4cc60570c3d2cc6052cc3d0cc60014c3cecc5ff30c3cccc5ff64c3cacc5ffe0c3c8cc5ff9cc3c6cc5fef0c3c4cc5fe1cc3c2cc60730c3fdd06071cc3fbd060708c3f9d0606f4c3f7d0606e0c3f5d0606ccc3f3d0606b8c3f1d0606a4c3efd060690c3edd06067cc3ebd060668c3e9d060654c3e7d060640c3e5d060630c3e3d060614c3e1d060604c3dfd0605f0c3ddd0605e0c3dbd0605c8c3d9d0605b8c3d7d0605a4c3d5d060590c3d3d0)
  (.lf 0)))

def shaWireTree223 : BTree :=
  .nd (.nd (.nd (.lf
  0x446a08e9c30446808e9a78446888e9ab44468c8e9a30446748e9878446708e98b4446788e9830446588e9678446608e96b4446648e96304464c8e9478446448e94b4446508e9430446348e9278446388e92b44463c8e9230446248e9078446208e90b4446288e9030446108e8e78446088e8eb4446148e8e30443b08e8c78445f48e8cb4445f88e8c304439c8e8a78443a48e8ab4443a88e8a304438c8e8878443908e88b4443948e88304437c8e8678443808e86b4443848e86304436c8e8478443708e84b4443748e8430443588e82784435c8e82b4443608e8230456fc8e7cb4456f88e7c78457008e7c30456e48e7ab4456e88e7a78456ec8e7a30456d08e78b4456d88e7878456dc8e7830456c48e76b4456b48e7678456c88e7630456a48e74b4456a88e7478456ac8e7430456908e72b4456948e7278456988e7230456808e70b4456848e7078456888e7030456748e6eb4456708e6e78456788e6e30)
  (.lf 0)) (.nd (.lf
  0x4b440a932c04ab80a912c04a2c0a8f2c049a00a8d2c0491c0a8b2c0489c0a892c048140a872c047880a852c046fc0a832c046c40a80cc062280ebf2c062140ebd2c062000ebb2c061ec0eb92c061d80eb72c061c40eb52c061b00eb32c0619c0eb12c061880eaf2c061740ead2c061600eab2c0614c0ea92c061380ea72c061240ea52c061100ea32c060fc0ea12c060e80e9f2c060d40e9d2c060c00e9b2c060ac0e992c060980e972c060840e952c060700e932c0605c0e912c060480e8f2c060340e8d2c060200e8b2c0600c0e892c05ff80e872c05fe40e852c05fd00e832c05fcc0e80cc088b012bf2c0884012bd2c087b812bb2c0872c12b92c086a012b72c0861c12b52c0859c12b32c0851412b12c0849012af2c0840812ad2c0838412ab2c082fc12a92c0827812a72c081f012a52c0816412a32c080e012a12c08058129f2c07fcc129d2c07f48129b2c07ec812992c07e4812972c07dc812952c)
  (.lf 0))) (.nd (.nd (.lf
  0x389147a2050389187a1e50387a07a1c503851c7a1a50384987a1850383f87a1650383807a1450382e47a1250382747a1050381cc7a0e50381587a0c50380b07a0a503803c7a085037f987a065037f087a045037e787a025037de07a0050390547e3e78390187e3c7838fa47e3a7838f187e387838e4c7e367838dfc7e347838d247e327838ce87e307838c087e2e7838bc07e2c7838b107e2a7838ac87e287838a687e267838a087e2478389887e2278389247e2078389287e1e78387a87e1c78385247e1a78384a07e1878384007e1678383887e1478382ec7e12783827c7e1078381d47e0e78381607e0c78380b87e0a78380447e087837fa07e067837f107e047837e807e027837de87e00783aff47e3e503af8c7e3c503ae087e3a503ae0c7e38503ae107e36503ae147e34503ae187e32503ae1c7e30503ae207e2e503ab187e2c503ab1c7e2a503ab207e28503ab247e26503ab287e24503ab2c7e2250)
  (.lf 0)) (.nd (.lf
  0x4f874a8b4cc4f87ca8b2cc4f884a8b0cc4f88ca8aecc4f894a8accc4f8f4a8aacc4f8fca8a8cc4f904a8a6cc4f90ca8a4cc4f914a8a2cc4f91ca8a0cc4f924a89ecc4f92ca89ccc4f934a89acc4f93ca898cc4f944a896cc4f94ca894cc4f954a892cc4f95ca890cc4f964a88ecc4f96ca88ccc4f974a88acc4f97ca888cc4f984a886cc4f98ca884cc4f994a882cc4fbf8a8bdd04fbe4a8bbd04fbd0a8b9d04fbbca8b7d04fba8a8b5d04fb94a8b3d04fb80a8b1d04fb6ca8afd04fb58a8add04fb44a8abd04fb30a8a9d04fb1ca8a7d04fb08a8a5d04faf4a8a3d04fae0a8a1d04facca89fd04fab8a89dd04faa4a89bd04fa90a899d04fa7ca897d04fa68a895d04fa54a893d04fa40a891d04fa2ca88fd04fa18a88dd04fa04a88bd04f9f0a889d04f9dca887d04f9c8a885d04f9b4a883d04f99ca88110534b4a87ecc534bca87ccc534c4a87acc53540a878cc53548a876cc53550a874cc53558a872cc)
  (.lf 0)))

def shaWireTree224 : BTree :=
  .nd (.nd (.nd (.lf
  0x6f3c8e97f2c6f3f0e97d2c6f38ce97b2c6f358e9792c6f320e9772c6f2e8e9752c6f2ace9732c6f43ce9712c6f250e96f2c6f218e96d2c6f1ece96b2c6f46ce9692c6f1b4e9672c6f180e9652c6f5c0e9632c6f148e9612c6f0f4e95f2c6f10ce95d2c6f0c4e95b2c6f090e9592c6f06ce9572c6f044e9552c6f024e9532c6effce9512c6efd8e94f2c6efc0e94d2c6f12ce94b2c6e7d4e9492c6e7ace9472c6e274e9452c6e200e9432c6e214e940cc77778ed7f2c77718ed7d2c774dced7b2c7743ced792c771c4ed772c7706ced752c76f60ed732c76ee4ed712c76deced6f2c76da8ed6d2c76cd4ed6b2c76c64ed692c76ba0ed672c76b28ed652c76aa8ed632c76a6ced612c769a4ed5f2c76954ed5d2c768f8ed5b2c7686ced592c767f0ed572c76748ed552c766bced532c766e4ed512c7668ced4f2c76640ed4d2c76660ed4b2c76434ed492c76408ed472c76398ed452c7637ced432c6fcf0ed40cc)
  (.lf
  0x416148418cc415e48416cc415b88414cc4158c8412cc4155c8410cc41530840ecc41504840ccc414d8840acc414ac8408cc414808406cc414548404cc414288402cc41950843dd041924843bd0418f88439d0418cc8437d0418a08435d0418748433d0418488431d04181c842fd0417f0842dd0417c4842bd0417988429d04176c8427d0417408425d0417148423d0416e88421d0416b8841fd041688841dd041658841bd0416288419d0415f88417d0415c88415d04159c8413d0415708411d041540840fd041514840dd0414e8840bd0414bc8409d0414908407d0414648405d0414388403d0414188401103c2dc88becc3c2e488bccc3c2ec88bacc3c2f488b8cc3c2fc88b6cc3c30488b4cc3c30c88b2cc3c31488b0cc3c31c88aecc3c32488accc3c38488aacc3c38c88a8cc3c39488a6cc3c39c88a4cc3c3a488a2cc3c3ac88a0cc3c3b4889ecc3c3bc889ccc3c3c4889acc3c3cc8898cc3c3d48896cc))
  (.nd (.lf
  0xa7d81a20500a7dc1a1e500a7e01a1c500a7e41a1a500a7e81a18500a7ec1a16500a7f01a14500a7f41a12500a7f81a10500a7fc1a0e500a8001a0c500a8041a0a500a8081a08500a80c1a06500a8101a04500a8141a02500a8181a00500a89c1e3e780a8a01e3c780a8a41e3a780a8a81e38780a8ac1e36780a8b01e34780a8b41e32780a8b81e30780a8bc1e2e780a8c01e2c780a8c41e2a780a8c81e28780a8cc1e26780a8d01e24780a8d41e22780a8d81e20780a8dc1e1e780a8e01e1c780a8e41e1a780a8e81e18780a8ec1e16780a8f01e14780a8f41e12780a8f81e10780a8fc1e0e780a9001e0c780a9041e0a780a9081e08780a90c1e06780a9101e04780a9141e02780a9181e00780c0481e3e500c04c1e3c500c0501e3a500c0541e38500c0581e36500c05c1e34500c0601e32500c0641e30500c0681e2e500c06c1e2c500c0701e2a500c0741e28500c0781e26500c07c1e24500c0801e2250)
  (.lf 0))) (.nd (.nd (.lf
  0x3e52c7f1bf43e53c7f1ca03e5247f1a1e3e5207f1ab43e5287f1a143e4fc7f17f43e50c7f18a03e4f07f161e3e4f47f16b43e4f87f16143e4cc7f13403e4d47f14a03e4b87f11f43e4c87f12a03e4b07f101e3e4a07f10b43e4b47f10143e4887f0df43e4987f0ea03e4807f0c1e3e47c7f0cb43e4847f0c143e4647f0a1e3e4607f0ab43e4687f0a143e4407f07403e44c7f08a03e3e47f05f43e43c7f06a03e3dc7f041e3e3d87f04b43e3e07f04143e31c7f02b43e3d07f02143b5907ffc783b5987ffcb43b59c7ffc303b5847ffa783b5807ffab43b5887ffa303b5707ff8783b56c7ff8b43b5747ff8303b55c7ff6783b5587ff6b43b5607ff6303b5487ff4783b5447ff4b43b54c7ff4303b5347ff2783b5307ff2b43b5387ff2303b5187ff0783b5207ff0b43b5247ff0303b50c7fee783b5047feeb43b5107fee303b4f07fec783b4f87fecb43b4fc7fec303b4e47fea783b0f87feab43b4e87fea30)
  (.lf 0)) (.nd (.lf
  0x22cb44a13b022cb84a11b022cbc4a0fb022cc04a0db022cc44a0bb022cc84a09b022ccc4a07b022cd04a05b022cd44a03b022cd84a01b024ea84e3fb024eac4e3db024eb04e3bb024eb44e39b024eb84e37b024ebc4e35b024ec04e33b024ec44e31b024ec84e2fb024ecc4e2db024ed04e2bb024ed44e29b024ed84e27b024edc4e25b024ee04e23b024ee44e21b024ee84e1fb024eec4e1db024ef04e1bb024ef44e19b024ef84e17b024efc4e15b024f004e13b024f044e11b024f084e0fb024f0c4e0db024f104e0bb024f144e09b024f184e07b024f1c4e05b024f204e03b024f244e01b026734523fb026738523db02673c523bb0267405239b0267445237b0267485235b02674c5233b0267505231b026754522fb026758522db02675c522bb0267605229b0267645227b0267685225b02676c5223b0267705221b026774521fb026778521db02677c521bb0267805219b0267845217b0267885215b0)
  (.lf 0)))

def shaWireTree225 : BTree :=
  .nd (.nd (.nd (.lf
  0x1129439943011200399278111903992b41120439923011184399078111043990b411188399030110f8398e7811074398eb4110fc398e3011068398c7810ff8398cb41106c398c3010fec398a7810f6c398ab410ff0398a3010f6039887810ee03988b410f6439883010ed439867810e543986b410ed839863010e4839847810dd83984b410e4c39843010dcc39827810d943982b410dd03982301354c3d7c78135cc3d7cb4135d03d7c30134d03d7a78135403d7ab4135443d7a30134403d7878134c43d78b4134c83d7830133c43d7678134343d76b4134383d7630133343d7478133b83d74b4133bc3d7430132b83d7278133283d72b41332c3d7230132283d7078132ac3d70b4132b03d7030131a83d6e781321c3d6eb4132203d6e30131283d6c781319c3d6cb4131a03d6c30130a83d6a781311c3d6ab4131203d6a301302c3d68781309c3d68b4130a03d683012fa03d6678130203d66b4130243d6630)
  (.lf 0)) (.nd (.lf
  0x1ec1c004bfd1ec20004bfb1ec24004bf91ec28004bf71ec2c004bf51ec30004bf31ec34004bf11ec38004bef1ec3c004bed1ec40004beb1ec44004be91ec48004be71ec4c004be51ec50004be31ec54004be1484a0004bdf484a8004bdd484b0004bdb4852c004bd948534004bd74853c004bd548544004bd34854c004bd148554004bcf4855c004bcd48564004bcb4856c004bc948574004bc74857c004bc548584004bc34858c004bc148594004bbf4859c004bbd485a4004bbb485ac004bb9485b4004bb7485bc004bb5485c4004bb3485cc004bb1485d4004baf485dc004bad485e4004bab485ec004ba9485f4004ba7485fc004ba548604004ba34860c004ba14a7f8004b9f4a800004b9d4a808004b9b4a884004b994a88c004b974a894004b954a89c004b934a8a4004b914a8ac004b8f4a8b4004b8d4a8bc004b8b4a8c4004b894a8cc004b874a8d4004b854a8dc004b834a8e4004b814a8ec004b7f)
  (.lf 0))) (.nd (.nd (.lf
  0x6fd94dc06306fd40dc04b46fcdcdc04786fd48dc04306fcd0dc02b46fcc4dc02786fcd4dc02306e794e0bcb46e798e0bc786e79ce0bc306e780e0bab46e784e0ba786e788e0ba306e76ce0b8b46e770e0b8786e774e0b8306e758e0b6b46e75ce0b6786e760e0b6306e744e0b4b46e748e0b4786e74ce0b4306e730e0b2b46e734e0b2786e738e0b2306e71ce0b0b46e720e0b0786e724e0b0306e708e0aeb46e70ce0ae786e710e0ae306e6f4e0acb46e6f8e0ac786e6fce0ac306e6e0e0aab46e6e4e0aa786e6e8e0aa306e6cce0a8b46e6d0e0a8786e6d4e0a8306e6b8e0a6b46e6bce0a6786e6c0e0a6306e6a8e0a4b46e6a4e0a4786e6ace0a4306e68ce0a2b46e694e0a2786e698e0a2306e680e0a0b46e678e0a0786e684e0a0306e66ce09eb46e664e09e786e670e09e306e654e09cb46e658e09c786e65ce09c306e634e09ab46e644e09a786e648e09a306e5f8e098b46e628e098786e62ce09830)
  (.lf 0)) (.nd (.lf
  0x54154aae7d05413caae5d0540d8aae3d0540acaae1d05408caadfd05404caaddd054038aadbd054024aad9d054010aad7d053ff4aad5d053f20aad3d053f0caad1d053ef8aacfd053ee4aacdd053dd8aacbd053da4aac9d053cc0aac7d053cb0aac5d053c10aac3d053bfcaac110527b0abfecc527b8abfccc527b4abfacc527acabf8cc5271cabf6cc526ccabf4cc5261cabf2cc52618abf0cc52604abeecc5253cabeccc52544abeacc524c8abe8cc52488abe6cc527a8abe4cc52794abe2cc52724abe0cc526c0abdecc525a8abdccc525d8abdacc5260cabd8cc5254cabd6cc52554abd4cc5279cabd2cc527a4abd0cc5272cabcecc526c8abcccc525b0abcacc525e0abc8cc52614abc6cc5255cabc4cc52564abc2cc5298cabfdd052978abfbd052964abf9d052950abf7d05293cabf5d052928abf3d052914abf1d052900abefd0528ecabedd0528d8abebd0528c4abe9d0528b0abe7d05289cabe5d0)
  (.lf 0)))

def shaWireTree226 : BTree :=
  .nd (.nd (.nd (.lf
  0x77ff4f152b477ffcf1523077fbcf1507877fd4f150b477fd8f1503077868f14e7877f14f14eb477f18f14e3077708f14c7877828f14cb477848f14c3077594f14a7877688f14ab47768cf14a3077420f1487877588f148b47758cf14830772dcf14678773f4f146b4773f8f1463077144f14478772a8f144b4772d4f1443077020f1427877138f142b47713cf14230786bcf1bc7878694f1bcb4786c0f1bc3078688f1ba787866cf1bab47868cf1ba3078660f1b87878638f1b8b478664f1b8307862cf1b678785e8f1b6b478630f1b630785dcf1b47878590f1b4b4785e0f1b43078584f1b27878560f1b2b478588f1b2307852cf1b0787854cf1b0b478550f1b030784dcf1ae78784e0f1aeb478524f1ae307849cf1ac78784d0f1acb4784d4f1ac3078400f1aa7878404f1aab478408f1aa30783d8f1a878783d4f1a8b4783dcf1a83078348f1a6787834cf1a6b478350f1a6307831cf1a47878330f1a4b4)
  (.lf 0)) (.nd (.lf
  0x1b4011b67801b3c11b6b401b4411b63001b1411b47801b1011b4b401b1811b43001ae811b27801ae411b2b401aec11b23001abc11b07801ab811b0b401ac011b03001a9011ae7801a8c11aeb401a9411ae3001a6411ac7801a6011acb401a6811ac3001a3811aa7801a3411aab401a3c11aa3001a0c11a87801a0811a8b401a1011a830019e011a678019dc11a6b4019e411a630019b411a478019b011a4b4019b811a4300198811a2780198411a2b40198c11a2300195c11a0780195811a0b40196011a03001930119e780192c119eb401934119e3001904119c7801900119cb401908119c30018d8119a78018d4119ab4018dc119a30018ac119878018a81198b4018b0119830018801196780187c1196b40188411963001854119478018501194b40185811943001828119278018241192b40182c119230017fc119078017f81190b401800119030017d0118e78017cc118eb4017d4118e30017a4118c78)
  (.lf 0))) (.nd (.nd (.lf
  0x158d8371eb4158dc371e141585c371bf415894371ca015818371a1e15854371ab415858371a14157d037181e1580c3718b41581037181415790371540157c83716a0157583713401578c3714a0157203711f4157543712a0156e037101e157183710b41571c3710141569c370e1e156d4370eb4156d8370e1415658370c1e15690370cb415694370c1415614370a1e1564c370ab415650370a14155d037081e156083708b41560c3708141558c37061e155c43706b4155c8370614155803704b4155843704141539c37fc781539837fcb4153a037fc301538837fa781538437fab41538c37fa301537437f8781537037f8b41537837f8301536037f6781535c37f6b41536437f6301534c37f4781534837f4b41535037f4301533837f2781533437f2b41533c37f2301532437f0781532037f0b41532837f0301531037ee781530c37eeb41531437ee30152fc37ec78152f837ecb41530037ec30152e837ea78)
  (.lf 0)) (.nd (.lf
  0x2d21c6d77d02d20c6d75d02d1c86d73d02d0e46d71d02d0d06d6fd02d0bc6d6dd02d0a86d6bd02d0946d69d02d0706d67d02d0486d65d02cfe06d63d02cfcc6d61d02cfb86d5fd02cfa46d5dd02cf806d5bd02cb8c6d59d02cb146d57d02cb006d55d02caec6d53d02cad86d51d02cac46d4fd02cab06d4dd02ca8c6d4bd02c9cc6d49d02c9b86d47d02c9506d45d02c9106d43d02c8d06d41102c9546dbecc2c9986dbccc2c9886dbacc2c98c6db8cc2c9946db6cc2c9906db4cc2c9686db2cc2c95c6db0cc2c9606daecc2c9646daccc2c9286daacc2c92c6da8cc2c9306da6cc2c8ec6da4cc2c8e06da2cc2c8e46da0cc2c8e86d9ecc2c8dc6d9ccc2c8d46d9acc2ca306d98cc2ccc86d96cc2c91c6d94cc2c9186d92cc2cccc6d90cc2ccb46d8ecc2ca546d8ccc2ca446d8acc2ca486d88cc2ca4c6d86cc2ca406d84cc2c9d86d82cc2ceb86dbdd02cea86dbbd02ce8c6db9d02ce7c6db7d02ce686db5d0)
  (.lf 0)))

def shaWireTree227 : BTree :=
  .nd (.nd (.nd (.lf
  0x6242cc7ce78624bcc7ceb4624c0c7ce3062388c7cc7862420c7ccb462424c7cc306237cc7ca7862378c7cab462380c7ca3062194c7c87862360c7c8b462364c7c830620ccc7c67862188c7c6b46218cc7c63062038c7c478620c0c7c4b4620c4c7c43061f14c7c2786202cc7c2b462030c7c23064b60cabc7864b5ccabcb464b64cabc3064b48caba7864b4ccabab464b50caba3064b3ccab87864b34cab8b464b40cab83064b28cab67864b24cab6b464b2ccab63064b10cab47864b14cab4b464b18cab43064af8cab27864afccab2b464b00cab23064ae0cab07864ae4cab0b464ae8cab03064ad4caae7864ad0caaeb464ad8caae3064ac0caac7864abccaacb464ac4caac3064ab0caaa7864aa8caaab464ab4caaa3064a94caa87864a9ccaa8b464aa0caa83064a7ccaa67864a80caa6b464a84caa63064a68caa47864a6ccaa4b464a70caa43064a5ccaa27864a58caa2b464a60caa23064a4ccaa078)
  (.lf 0)) (.nd (.lf
  0x275e0531cb427544531b4a274a45318b42740853174a2736453154a272c45312b42722c5310b427194530eb4270f8530d4a27054530b4a26fb45308b426f1853074a26e7453054a26dd053034a26d885300aa29354573eb42931c573d4a292dc573ab4292a45738b42926857374a292285734b4291ec57334a291ac5730b429174572eb429138572d4a290f4572b4a290b057294a290705726b42903457254a28ff45722b428fbc5720b428f80571f4a28f40571cb428f08571ab428ed05718b428e985716b428e5c57154a28e1c5712b428de45710b428da8570f4a28d68570cb428d2c570b4a28cec5708b428cb057074a28c705704b428c405702aa28c2c56c0cc2b3985b3eb42b3345b3d4a2b2bc5b3ab42b24c5b394a2b1d45b374a2b15c5b354a2b0e85b32b42b07c5b30b42b00c5b2f4a2af985b2cb42af245b2b4a2aea85b294a2ae305b26b42adc05b24b42ad505b22b42ace05b20b42ac6c5b1f4a)
  (.lf 0))) (.nd (.nd (.lf
  0x1d42c6446b41d4286446781d4306446301d4186444b41d4146444781d41c6444301d4046442b41d4006442781d40864423030944643cb43099c643c78309a0643c30308d0643ab430938643a783093c643a30308606438b4308c4643878308c8643830307ec6436b430854643678308586436303077c6434b4307e0643478307e46434303070c6432b430770643278307746432303068c6430b430700643078307046430303060c642eb430680642e7830684642e303058c642cb430600642c7830604642c3030504642ab430580642a7830584642a30304786428b4304f8642878304fc642830303f46426b43046c64267830470642630303746424b4303e8642478303ec642430302f46422b4303686422783036c6422303026c6420b4302e8642078302ec642030301e0641eb430260641e7830264641e3030154641cb4301d4641c78301d8641c30300d0641ab430148641a783014c641a30300506418b4)
  (.lf 0)) (.nd (.lf
  0xb6fc2a71d00b67c2a6fd00b5fc2a6dd00b5802a6bd00b4f42a69d00b4682a67d00b3dc2a65d00b3502a63d00b2c42a61d00b2382a5fd00b1a82a5dd00b1282a5bd00b0a82a59d00b0282a57d00afa82a55d00af2c2a53d00ae9c2a51d00ae202a4fd00ad902a4dd00ad142a4bd00ac842a49d00ac042a47d00ab942a45d00ab1c2a43d00aac02a411011d382afecc11cc82afccc11c402afacc11bbc2af8cc11b3c2af6cc11ab42af4cc11a302af2cc119b02af0cc119302aeecc118b02aeccc118282aeacc1179c2ae8cc117182ae6cc116982ae4cc116182ae2cc115902ae0cc115042adecc114802adccc114002adacc113802ad8cc113002ad6cc112782ad4cc111f42ad2cc1116c2ad0cc110e02acecc1105c2acccc10fd42acacc10f482ac8cc10ebc2ac6cc10e302ac4cc10db82ac2cc11d202afdd011cac2afbd011c242af9d011ba02af7d011b202af5d011a982af3d011a142af1d0119942aefd0)
  (.lf 0)))

def shaWireTree228 : BTree :=
  .nd (.nd (.nd (.lf
  0x6b7540008cb6b7580008c96b75c0008c76b7600008c56b7640008c36b7680008c16b76c0008bf6b7700008bd6b7740008bb6b7780008b96b77c0008b76b7800008b56b7840008b36b7880008b16b78c0008af6b7900008ad6b7940008ab6da5c0008a96da600008a76da640008a56da680008a36da6c0008a16da7000089f6da7400089d6da7800089b6da7c0008996da800008976da840008956da880008936da8c0008916da9000088f6da9400088d6da9800088b6da9c0008896daa00008876daa40008856daa80008836daac0008816dab000087f6dab400087d6dab800087b6dabc0008796dac00008776dac40008756dac80008736dacc0008716fb4c00086f6fb5000086d6fb5400086b6fb580008696fb5c0008676fb600008656fb640008636fb680008616fb6c00085f6fb7000085d6fb7400085b6fb780008596fb7c0008576fb800008556fb840008536fb880008516fb8c00084f6fb9000084d)
  (.lf 0)) (.nd (.lf
  0x569a0b3a030569b4b39e30569e0b39c3056950b39a3056930b39830568c0b3963056774b394305673cb39230566e0b39030566a8b38e30566acb38c30566b0b38a3056518b38830564f0b3863055fe4b3843055f7cb3823055f24b38030598ccb7beb459900b7bcb459888b7bab4597bcb7b8b4597c0b7b6b459784b7b4b459838b7b2b45972cb7b0b4596ecb7aeb459674b7acb459678b7aab459638b7a8b459618b7a6b4595e8b7a4b4595c4b7a2b45959cb7a0b459554b79eb459568b79cb45950cb79ab459510b798b4594c0b796b45949cb794b4594d8b792b459478b790b459430b78eb459444b78cb45940cb78ab4593d4b788b458388b786b45831cb784b4582a4b782b4581c4b780b457178b7be7857028b7bc7857004b7ba7857084b7b87856ef0b7b67856e7cb7b47856dc0b7b27856d2cb7b07856c58b7ae7856c0cb7ac7856bc4b7aa7856b90b7a87856b68b7a67856a88b7a47856a24b7a278)
  (.lf 0))) (.nd (.nd (.lf
  0x2af305b2bf42af9c5b2ca02aeb85b2a1e2af285b2ab42af2c5b2a142ae3c5b281e2aeac5b28b42aeb05b28142adc85b25402ae345b26a02ad585b23402adc45b24a02ace85b21402ad545b22a02ac785b1ff42ace45b20a02ac005b1e1e2ac705b1eb42ac745b1e142ab8c5b1bf42abf85b1ca02ab145b1a1e2ab845b1ab42ab885b1a142aaa05b17f42ab0c5b18a02aa2c5b161e2aa985b16b42aa9c5b16142a9bc5b13402aa245b14a02a9505b11f42a9b85b12a02a8dc5b101e2a9485b10b42a94c5b10142a8645b0e1e2a8d05b0eb42a8d45b0e142a7ec5b0c1e2a8585b0cb42a85c5b0c142a77c5b09f42a7e45b0aa02a7045b081e2a7745b08b42a7785b08142a6f85b06b42a6fc5b061429ee85bfc7829ee45bfcb429eec5bfc3029ed45bfa7829ed05bfab429ed85bfa3029ec05bf87829ebc5bf8b429ec45bf83029eac5bf67829ea85bf6b429eb05bf63029e985bf47829e945bf4b429e9c5bf430)
  (.lf 0)) (.nd (.lf
  0x7955cf16fd0794d8f16dd07945cf16bd079430f169d079410f167d0793ecf165d0793c4f163d07938cf161d079374f15fd07934cf15dd079320f15bd0792e8f159d0792d8f157d078010f155d078000f153d077fdcf151d077fb8f14fd077864f14dd077698f14bd077590f149d0773fcf147d0772d8f145d077140f143d076ffcf14110788d8f1becc78708f1bccc7882cf1bacc786ccf1b8cc785f8f1b6cc785acf1b4cc78734f1b2cc78280f1b0cc78260f1aecc7824cf1accc78234f1aacc78220f1a8cc7820cf1a6cc781ecf1a4cc781d4f1a2cc781bcf1a0cc7811cf19ecc7814cf19ccc780f4f19acc780c4f198cc78088f196cc77edcf194cc77eecf192cc77eb0f190cc77ef8f18ecc77824f18ccc77680f18acc77584f188cc773b0f186cc772e0f184cc7715cf182cc786c8f1bdd078690f1bbd078668f1b9d078634f1b7d0785e4f1b5d07858cf1b3d078554f1b1d078528f1afd0784d8f1add0)
  (.lf 0)))

def shaWireTree229 : BTree :=
  .nd (.nd (.nd (.lf
  0x7b1e4ebe0307b0ccebde787b0d8ebdeb47b1d4ebde307b0bcebdc787b0c0ebdcb47b0c4ebdc307b09cebda787b0a8ebdab47b0acebda307b090ebd8787b08cebd8b47b094ebd8307b078ebd6787b074ebd6b47b07cebd6307b054ebd4787b060ebd4b47b064ebd4307b038ebd2787b048ebd2b47b04cebd2307b018ebd0787b01cebd0b47b020ebd0307afe8ebce787af94ebceb47afecebce307af80ebcc787af70ebccb47af84ebcc307af30ebca787af2cebcab47af5cebca307af20ebc8787af1cebc8b47af24ebc8307aedcebc6787aeb8ebc6b47aee0ebc63079e60ebc4787aeacebc4b47aeb0ebc43079dd0ebc27879e38ebc2b479e3cebc2307cb64eebc787cb80eebcb47cb84eebc307cb58eeba787cb40eebab47cb5ceeba307cb18eeb8787cb10eeb8b47cb30eeb8307c918eeb6787c924eeb6b47c9a4eeb6307c904eeb4787c900eeb4b47c908eeb4307c8e0eeb2787c8f4eeb2b47c8f8eeb230)
  (.lf 0)) (.nd (.lf
  0x260d4539dd026140539bd025fe85399d025fec5397d025ff05395d025ff45393d025ff85391d025ffc538fd0260f8538dd025d78538bd025d7c5389d025d805387d025d845385d025d885383d025d8c5381d02816457bfd02816857bdd02816c57bbd02817057b9d02817457b7d02817857b5d02817c57b3d02818057b1d02818457afd02818857add02818c57abd02819057a9d02819457a7d02819857a5d02819c57a3d0281a057a1d0281a4579fd0281a8579dd0281ac579bd0281b05799d0281b45797d0281b85795d0281bc5793d0281c05791d0281c4578fd0281c8578dd0281cc578bd0281d05789d0281d45787d0281d85785d0281dc5783d0281e05781d029d145bbfd029cb85bbdd029c605bbbd029c085bb9d029bb05bb7d029b585bb5d029b005bb3d029aa85bb1d029a505bafd029a0c5badd0299d45babd0299a85ba9d0299805ba7d0299585ba5d0299305ba3d0299085ba1d0298e05b9fd0)
  (.lf 0))) (.nd (.nd (.lf
  0x4f28ca024784f2b0a024304f280a022b44f260a022784f284a022304f254a020b44f234a020784f258a020304f228a01eb44f208a01e784f22ca01e304f1fca01cb44f1dca01c784f200a01c304f1d0a01ab44f1b0a01a784f1d4a01a304f1a4a018b44f184a018784f1a8a018304f178a016b44f158a016784f17ca016304f14ca014b44f12ca014784f150a014304f120a012b44f100a012784f124a012304f0f4a010b44f0d4a010784f0f8a010304f0c8a00eb44f0a8a00e784f0cca00e304f09ca00cb44f07ca00c784f0a0a00c304f070a00ab44f050a00a784f074a00a304f044a008b44f024a008784f048a008304f018a006b44eff8a006784f01ca006304efeca004b44efcca004784eff0a004304efc0a002b44efb0a002784efc4a002304ee20a4bcb44ee1ca4bc784ee24a4bc304ee0ca4bab44ee08a4ba784ee10a4ba304edf8a4b8b44edf4a4b8784edfca4b8304ede4a4b6b44ede0a4b678)
  (.lf 0)) (.nd (.lf
  0x31bac6a49d031b2c6a47d031ab46a45d031a406a43d0319e46a4110328d86afecc328786afccc328046afacc3278c6af8cc3271c6af6cc326b06af4cc326446af2cc325d46af0cc3255c6aeecc324dc6aeccc3245c6aeacc323dc6ae8cc3235c6ae6cc322dc6ae4cc322586ae2cc321cc6ae0cc321486adecc320c86adccc320406adacc31fbc6ad8cc31f3c6ad6cc31eb46ad4cc31e286ad2cc31d9c6ad0cc31d106acecc31c846acccc31c006acacc31b806ac8cc31b086ac6cc31a946ac4cc31a206ac2cc328946afdd0328286afbd0327b46af9d03273c6af7d0326cc6af5d0326606af3d0325f06af1d0325786aefd0324f86aedd0324786aebd0323f86ae9d0323786ae7d0322f86ae5d03227c6ae3d0321f46ae1d0321686adfd0320e46addd0320646adbd031fdc6ad9d031f586ad7d031ed86ad5d031e506ad3d031dc46ad1d031d386acfd031cac6acdd031c206acbd031b9c6ac9d031b1c6ac7d0)
  (.lf 0)))

def shaWireTree230 : BTree :=
  .nd (.nd (.nd (.lf
  0x427ec95b078426a895b0b44280095b0304269c95ae784268895aeb4426a095ae304267c95ac784266895acb44268095ac304265c95aa784264095aab44266095aa304263495a878425d895a8b44263895a830425cc95a6784253895a6b4425d095a6304252c95a4784243c95a4b44253095a4304243095a278423f495a2b44243495a230423e895a078421d495a0b4423ec95a030421c0959e7842160959eb4421cc959e3042150959c784214c959cb442154959c304213c959a7842138959ab442140959a3042070959878420589598b4420749598304204c95967841ff89596b44205095963041f6c95947841eb49594b441f7095943041ea895927841e949592b441eac95923041e7495907841e889590b441e8c95903041e68958e7841d54958eb441e6c958e3041d34958c7841d48958cb441d4c958c3041d28958a7841c60958ab441d2c958a3041c4095887841c549588b441c5895883041c34958678)
  (.lf 0)) (.nd (.lf
  0x1be24505d2c1be10505b2c1bdfc50592c1bde850572c1bdd450552c1bdc050532c1bdac50512c1bd98504f2c1bd84504d2c1bd70504b2c1bd5c50492c1bd4850472c1bd3450452c1bd2050432c1bd1c5040cc1c624547f2c1c5fc547d2c1c5d0547b2c1c5a454792c1c57854772c1c54c54752c1c52054732c1c4f454712c1c4c8546f2c1c49c546d2c1c470546b2c1c44454692c1c41854672c1c3ec54652c1c3c054632c1c39454612c1c368545f2c1c33c545d2c1c310545b2c1c2e454592c1c2b854572c1c28c54552c1c26054532c1c23454512c1c208544f2c1c1dc544d2c1c1b0544b2c1c18454492c1c15854472c1c12c54452c1c10054432c1c0f05440cc1cad8587f2c1cac4587d2c1cab0587b2c1ca9c58792c1ca8858772c1ca7458752c1ca6058732c1ca4c58712c1ca38586f2c1ca24586d2c1ca10586b2c1c9fc58692c1c9e858672c1c9d458652c1c9c058632c1c9ac58612c1c998585f2c)
  (.lf 0))) (.nd (.nd (.lf
  0x86fc1336b408700133614085f8133340086741334a0085781331f4085f41332a0084f013301e085701330b4085741330140846c132df4084e8132ea0083e4132c1e08464132cb408468132c14083601329f4083dc132aa0082d813281e083581328b40835c132814082541325f4082d01326a0081cc13241e0824c1324b4082501324140814013221e081c01322b4081c4132214080bc131ff4081381320a008034131e1e080b4131eb4080b8131e1407fa8131c1e08028131cb40802c131c1407f2413194007fa0131aa007ea413174007f201318a007e2413154007ea01316a007da41313f407e201314a007d1c13121e07d9c1312b407da013121407c98130f4007d141310a007c18130df407c94130ea007b90130c1e07c10130cb407c14130c1407b0c1309f407b88130aa007a8413081e07b041308b407b08130814079f813061e07a781306b407a7c130614079741303f4079f01304a00796c1302b4)
  (.lf 0)) (.nd (.lf
  0x7a000ebe2cc79fa0ebe0cc79fa8ebdecc79fb8ebdccc79f88ebdacc79e28ebd8cc79eacebd6cc7ae80ebd4cc7a024ebd2cc79fe8ebd0cc79fa4ebcecc79f94ebcccc79f98ebcacc79f9cebc8cc79e80ebc6cc7ae8cebc4cc79e70ebc2cc7b56cebfdd07b554ebfbd07b53cebf9d07b524ebf7d07b50cebf5d07b4f4ebf3d07b494ebf1d07b42cebefd07b2d8ebedd07b2c4ebebd07b280ebe9d07b270ebe7d07b260ebe5d07b250ebe3d07b214ebe1d07b1d8ebdfd07b0c8ebddd07b0b0ebdbd07b098ebd9d07b080ebd7d07b068ebd5d07b050ebd3d07b024ebd1d07aff0ebcfd07af88ebcdd07af60ebcbd07af28ebc9d07aee4ebc7d07aeb4ebc5d079e5cebc3d079db4ebc1107bf34eebecc7bef0eebccc7beb4eebacc7be5ceeb8cc7bf48eeb6cc7bfb0eeb4cc7bf28eeb2cc7bef8eeb0cc7beb0eeaecc7be58eeaccc7be6ceeaacc7c020eea8cc7bfb8eea6cc7bea8eea4cc7be68eea2cc7be20eea0cc)
  (.lf 0)))

def shaWireTree231 : BTree :=
  .nd (.nd (.nd (.lf
  0x4f700a308a04f6e0a305404f6e8a306a04f6d4a303404f6dca304a04f624a302a04e348a3fc784e34ca3fcb44e350a3fc304e330a3fa784e334a3fab44e33ca3fa304e324a3f8784e31ca3f8b44e328a3f8304e30ca3f6784e310a3f6b44e314a3f6304e2fca3f4784e2f8a3f4b44e300a3f4304e2e4a3f2784e2eca3f2b44e2f0a3f2304e2d0a3f0784e2d4a3f0b44e2d8a3f0304e2bca3ee784e2c0a3eeb44e2c4a3ee304e2a8a3ec784e2aca3ecb44e2b0a3ec304e294a3ea784e298a3eab44e29ca3ea304e27ca3e8784e280a3e8b44e284a3e8304e268a3e6784e26ca3e6b44e270a3e6304e258a3e4784e250a3e4b44e25ca3e4304e240a3e2784e244a3e2b44e248a3e2304e22ca3e0784e230a3e0b44e234a3e0304e21ca3de784e220a3deb44e224a3de304e208a3dc784e20ca3dcb44e210a3dc304e1f4a3da784e1f8a3dab44e1fca3da304e1dca3d8784e1e0a3d8b44e1e4a3d8304e1cca3d678)
  (.lf 0)) (.nd (.lf
  0x237a84a532c237184a512c236884a4f2c235f84a4d2c235684a4b2c234d44a492c2343c4a472c233944a452c232f04a432c232a44a40cc1b7ec4e7f2c1b7b04e7d2c1b76c4e7b2c1b7284e792c1b6e44e772c1b6a04e752c1b65c4e732c1b6184e712c1b5d44e6f2c1b5904e6d2c1b54c4e6b2c1b5084e692c1b4c44e672c1b4804e652c1b43c4e632c1b3f84e612c1b3b44e5f2c1b3704e5d2c1b32c4e5b2c1b2e84e592c1b2a44e572c1b2604e552c1b21c4e532c1b1d84e512c1b1944e4f2c1b1504e4d2c1b10c4e4b2c1b0c84e492c1b0844e472c1b0404e452c1affc4e432c1afe04e40cc28044527f2c27fc0527d2c27f20527b2c27e8452792c27de452772c27d4052752c27ca452732c27c0452712c27b60526f2c27abc526d2c27a18526b2c2797c52692c278dc52672c2784052652c277a852632c2770852612c2766c525f2c275d4525d2c27534525b2c2749852592c273f852572c2735452552c)
  (.lf 0))) (.nd (.nd (.lf
  0x169ec002581169f000257f169f400257d169f800257b169fc00257916a0000257716a0400257516a0800257316a0c00257116a1000256f16a1400256d16a1800256b16a1c00256916a2000256716a2400256516a2800256316a2c00256117fb400255f17fb800255d17fbc00255b17fc000255917fc400255717fc800255517fcc00255317fd000255117fd400254f17fd800254d17fdc00254b17fe000254917fe400254717fe800254517fec00254317ff000254117ff400253f17ff800253d17ffc00253b1800000253918004002537180080025351800c002533180100025311801400252f1801800252d1801c00252b1802000252918024002527180280025251802c00252318030002521195a400251f195a800251d195ac00251b195b0002519195b4002517195b8002515195bc002513195c0002511195c400250f195c800250d195cc00250b195d0002509195d4002507195d8002505195dc002503)
  (.lf 0)) (.nd (.lf
  0x6fe44dc10cc6fe30dc0ecc6fe04dc0ccc6fdecdc0acc6fdd8dc08cc6fd7cdc06cc6fd44dc04cc6fcccdc02cc70534dc3dd07050cdc3bd0704c0dc39d07038cdc37d07037cdc35d07036cdc33d070354dc31d07033cdc2fd070324dc2dd07030cdc2bd0702f4dc29d0701b0dc27d070180dc25d070154dc23d070120dc21d0700fcdc1fd0700c8dc1dd06fff8dc1bd06ffe0dc19d06ffc4dc17d06ffa8dc15d06ff90dc13d06ff74dc11d06ff5cdc0fd06ff48dc0dd06ff0cdc0bd06fee4dc09d06fda8dc07d06fd80dc05d06fcd8dc03d06fcb0dc01106e0dce0becc6e0e4e0bccc6e0ece0bacc6e0f4e0b8cc6e0fce0b6cc6e104e0b4cc6e10ce0b2cc6e114e0b0cc6de30e0aecc6de08e0accc6e618e0aacc6e504e0a8cc6e50ce0a6cc6e43ce0a4cc6e444e0a2cc6e44ce0a0cc6e454e09ecc6e620e09ccc6e514e09acc6e63ce098cc6e51ce096cc6e524e094cc6e45ce092cc6e464e090cc6e46ce08ecc)
  (.lf 0)))

def shaWireTree232 : BTree :=
  .nd (.nd (.nd (.lf
  0x28058617f2c28000617d2c27f68617b2c27ec461792c27e3461772c27d9461752c27cf461732c27c5861712c27bb0616f2c27b08616d2c27a60616b2c279c861692c2792061672c2788061652c277ec61632c2775c61612c276ac615f2c27610615d2c27578615b2c274e461592c2744c61572c2739c61552c2730061532c2726461512c271c4614f2c2712c614d2c27098614b2c26ff861492c26f5c61472c26eb461452c26e1061432c26d946140cc29d08657f2c29cac657d2c29c54657b2c29bfc65792c29ba465772c29b4c65752c29af465732c29a9c65712c29a44656f2c29a00656d2c299c8656b2c2999c65692c2997465672c2994c65652c2992465632c298fc65612c298d4655f2c294e0655d2c294cc655b2c294b865592c294a465572c2949065552c2947c65532c2946865512c29454654f2c29440654d2c2942c654b2c2941865492c2940465472c293f065452c293dc65432c2935c6540cc)
  (.lf
  0x2abdc581ccc2ab64581acc2aaf05818cc2aa785816cc2aa085814cc2a99c5812cc2a9285810cc2a8b0580ecc2a838580ccc2a7c8580acc2a7545808cc2a6d85806cc2a6705804cc2a5f05802cc2b368583dd02b2fc583bd02b2885839d02b2145837d02b19c5835d02b1245833d02b0b45831d02b048582fd02afd4582dd02af64582bd02aeec5829d02ae705827d02adfc5825d02ad8c5823d02ad1c5821d02acac581fd02ac34581dd02abc0581bd02ab485819d02aad45817d02aa5c5815d02a9ec5813d02a9805811d02a90c580fd02a894580dd02a81c580bd02a7ac5809d02a7385807d02a6bc5805d02a6545803d02a5b4580110208245cbecc207ac5cbccc206fc5cbacc206385cb8cc205805cb6cc204c85cb4cc2040c5cb2cc203505cb0cc2029c5caecc201dc5caccc201245caacc2006c5ca8cc1ffb05ca6cc1feec5ca4cc1fe345ca2cc1fd745ca0cc1fcb45c9ecc1fbf85c9ccc1fb3c5c9acc))
  (.nd (.lf
  0xbca40037010bca80036ff0bcac0036fd0bcb00036fb0bcb40036f90bcb80036f70bcbc0036f50bcc00036f30bcc40036f10bcc80036ef0bccc0036ed0bcd00036eb0bcd40036e90bcd80036e70bcdc0036e50bce00036e30bce40036e10d55c0036df0d5600036dd0d5640036db0d5680036d90d56c0036d70d5700036d50d5740036d30d5780036d10d57c0036cf0d5800036cd0d5840036cb0d5880036c90d58c0036c70d5900036c50d5940036c30d5980036c10d59c0036bf0d5a00036bd0d5a40036bb0d5a80036b90d5ac0036b70d5b00036b50d5b40036b30d5b80036b10d5bc0036af0d5c00036ad0d5c40036ab0d5c80036a90d5cc0036a70d5d00036a50d5d40036a30d5d80036a10edf800369f0edfc00369d0ee0000369b0ee040036990ee080036970ee0c0036950ee100036930ee140036910ee1800368f0ee1c00368d0ee2000368b0ee240036890ee280036870ee2c0036850ee30003683)
  (.lf 0))) (.nd (.nd (.lf
  0x3409c6e5e78340a06e5e3033fbc6e5cb4340286e5c783402c6e5c3033f446e5ab433fb06e5a7833fb46e5a3033ec86e58b433f386e587833f3c6e583033e4c6e56b433ebc6e567833ec06e563033dd46e54b433e406e547833e446e543033d5c6e52b433dc86e527833dcc6e523033ce06e50b433d506e507833d546e503033c5c6e4eb433cd46e4e7833cd86e4e3033bcc6e4cb433c506e4c7833c546e4c3033b446e4ab433bc06e4a7833bc46e4a3033ab86e48b433b386e487833b3c6e483033a286e46b433aac6e467833ab06e4630339886e44b433a1c6e447833a206e44303391c6e42b43397c6e4278339806e4230347846efcb4347206efc78347886efc30347146efab4346a86efa78347186efa303469c6ef8b43462c6ef878346a06ef830346206ef6b4345b06ef678346246ef630345a46ef4b4345346ef478345a86ef430345286ef2b4344b86ef2783452c6ef230344ac6ef0b43443c6ef078)
  (.lf 0)) (.nd (.lf
  0x22e8c006c7322e94006c7122e9c006c6f22ea4006c6d22eac006c6b22eb4006c6922ebc006c6722ec4006c6522ecc006c6322ed4006c6125028006c5f25030006c5d25038006c5b25040006c5925048006c5725050006c5525058006c5325060006c5125068006c4f25070006c4d25078006c4b25080006c4925088006c4725090006c4525098006c43250a0006c41250a8006c3f250b0006c3d250b8006c3b250c0006c39250c8006c37250d0006c35250d8006c33250e0006c31250e8006c2f250f0006c2d250f8006c2b25100006c2925108006c2725110006c2525118006c2325120006c21268b4006c1f268bc006c1d268c4006c1b268cc006c19268d4006c17268dc006c15268e4006c13268ec006c11268f4006c0f268fc006c0d26904006c0b2690c006c0926914006c072691c006c0526924006c032692c006c0126934006bff2693c006bfd26944006bfb2694c006bf926954006bf72695c006bf5)
  (.lf 0)))

def shaWireTree233 : BTree :=
  .nd (.nd (.nd (.lf
  0x7c128fe46787c3b4fe46307c084fe44b47bf80fe44787c120fe44307bf38fe42b47bf64fe42787bf78fe423083444fefcb483450fefc7883454fefc3083434fefab483438fefa788343cfefa3083424fef8b483428fef8788342cfef83083410fef6b483414fef67883418fef630833fcfef4b483400fef47883408fef430833e0fef2b4833f0fef278833f4fef230833d4fef0b4833c8fef078833d8fef030833b4feeeb4833b8feee78833bcfeee30833a4feecb4833a0feec78833a8feec3083394feeab483390feea7883398feea3083384fee8b483378fee87883388fee83083364fee6b48336cfee67883370fee63083354fee4b483358fee4788335cfee43083348fee2b483344fee2788334cfee23083338fee0b483334fee0788333cfee03082c78fedeb483328fede788332cfede3082c64fedcb482c68fedc7882c6cfedc3082c48fedab482c50feda7882c54feda3082c38fed8b482c3cfed878)
  (.lf 0)) (.nd (.lf
  0x2655c53dd2c2654853db2c2653453d92c2652053d72c2650c53d52c264f853d32c264e453d12c264d053cf2c264bc53cd2c264ac53cb2c2634853c92c262e053c72c262cc53c52c262b853c32c262b453c0cc2864057ff2c2862c57fd2c2861857fb2c2860457f92c285f057f72c285dc57f52c285c857f32c285b457f12c285a057ef2c2858c57ed2c2857857eb2c2856457e92c2855057e72c2853c57e52c2852857e32c2851457e12c2850057df2c284ec57dd2c284d857db2c284c457d92c284b057d72c2849c57d52c2848857d32c2847457d12c2846057cf2c2844c57cd2c2843857cb2c2842457c92c2841057c72c283fc57c52c283e857c32c283e457c0cc29ef45bff2c29ee05bfd2c29ecc5bfb2c29eb85bf92c29ea45bf72c29e905bf52c29e7c5bf32c29e685bf12c29e545bef2c29e405bed2c29e2c5beb2c29e185be92c29e045be72c29df05be52c29ddc5be32c29dc85be12c29db45bdf2c)
  (.lf 0))) (.nd (.nd (.lf
  0x60d64c072b460d68c0727860d6cc0723060d58c070b460d34c0707860d5cc0703060d28c06eb460d24c06e7860d2cc06e3060cf0c06cb460ce0c06c7860cf4c06c3060cc8c06ab460cc4c06a7860cccc06a3060c7cc068b460c78c0687860c80c0683060c6cc066b460c4cc0667860c70c0663060b18c064b460c2cc0647860c30c0643060b00c062b460b04c0627860b10c0623060aecc060b460ae8c0607860af8c0603060adcc05eb460ad8c05e7860ae0c05e3060ab8c05cb460abcc05c7860ac0c05c3060aacc05ab460aa8c05a7860ab0c05a3060a9cc058b460a98c0587860aa0c0583060a84c056b460a80c0567860a88c0563060a6cc054b460a68c0547860a70c0543060a54c052b460a50c0527860a58c0523060a44c050b460a40c0507860a48c0503060a18c04eb460a04c04e7860a1cc04e30609e8c04cb4609e4c04c78609ecc04c30609b4c04ab4609b0c04a78609b8c04a30608fcc048b4)
  (.lf 0)) (.nd (.lf
  0x434908ad6cc434488ad4cc434608ad2cc433b48ad0cc433148acecc431808acccc431688acacc4318c8ac8cc42d3c8ac6cc42b788ac4cc42b508ac2cc441c48afdd0440a88afbd0440988af9d043fa08af7d043f7c8af5d043cf88af3d043ce48af1d043ccc8aefd043c908aedd043afc8aebd0439a48ae9d0439948ae7d0439448ae5d0438c48ae3d0438388ae1d04375c8adfd0437488addd0436708adbd0436548ad9d0435e08ad7d0434748ad5d0434548ad3d0433ac8ad1d0433888acfd0431d08acdd0431c08acbd04319c8ac9d042d508ac7d042bb08ac5d042b9c8ac3d042b808ac11042ed88bfecc42ee08bfccc42edc8bfacc42e988bf8cc42ea08bf6cc42cd08bf4cc42a448bf2cc428f88bf0cc428f48beecc427e08beccc4278c8beacc427888be8cc4275c8be6cc42ea88be4cc42eb08be2cc42eb88be0cc42ce08bdecc42a688bdccc428f08bdacc428ec8bd8cc427c88bd6cc427848bd4cc)
  (.lf 0)))

def shaWireTree234 : BTree :=
  .nd (.nd (.nd (.lf
  0x58c44c18430582b4c18278581c0c182b458c34c182305bf0cc57c785bf08c57cb45bf10c57c305bda8c57a785bda0c57ab45bed8c57a305bd94c578785bd68c578b45bd98c578305bd38c576785bd34c576b45bd40c576305bd24c574785bcbcc574b45bd28c574305bcacc572785bcb0c572b45bcb4c572305bca0c570785bc9cc570b45bca4c570305bc90c56e785bc8cc56eb45bc94c56e305bbf4c56c785bc08c56cb45bc0cc56c305bbe4c56a785bbe0c56ab45bbe8c56a305bbccc568785bbd0c568b45bbd4c568305bbacc566785bbc0c566b45bbc4c566305bb84c564785bb80c564b45bb88c564305bb58c562785bb74c562b45bb78c562305bb48c560785bb4cc560b45bb50c560305baf8c55e785baf4c55eb45bafcc55e305bae4c55c785bae8c55cb45baecc55c305ba9cc55a785baa0c55ab45bad8c55a305ba78c558785ba90c558b45ba94c558305ba6cc556785ba68c556b45ba70c55630)
  (.lf 0)) (.nd (.lf
  0x35f48701d2c35ed8701b2c35e6c70192c35df870172c35d8870152c35d1470132c35c9c70112c35c20700f2c35ba8700d2c35b24700b2c35a9870092c35a1470072c3599470052c3590470032c358c47000cc37d74743f2c37d4c743d2c37d20743b2c37cf474392c37cc874372c37c9c74352c37c7074332c37c4474312c37c18742f2c37bec742d2c37bc0742b2c37b9474292c37b6874272c37b3c74252c37b1074232c37ae474212c37ab8741f2c37a8c741d2c37a60741b2c37a3474192c37a0874172c379dc74152c379b074132c3798474112c37958740f2c37928740d2c378f8740b2c378c874092c3789c74072c3787074052c3784474032c378347400cc39de0783f2c39db4783d2c39d84783b2c39d5478392c39d2478372c39cf478352c39cc478332c39c9478312c39c64782f2c39c34782d2c39c04782b2c39bd478292c39ba478272c39b7478252c39b4478232c39b1478212c39ae4781f2c)
  (.lf 0))) (.nd (.nd (.lf
  0x9f402674b409ecc26747809f4426743009ec02672b409e5026727809ec426723009e442670b409dc426707809e4826703009db8266eb409d38266e7809dbc266e3009d2c266cb409cac266c7809d30266c3009ca0266ab409c20266a7809ca4266a3009c142668b409b9026687809c1826683009b842666b409b1026667809b8826663009b042664b409a9026647809b0826643009a842662b409a1426627809a8826623009a082660b40998426607809a0c26603009978265eb409904265e780997c265e30098f8265cb409884265c78098fc265c3009878265ab409808265a780987c265a30097fc2658b409778265878098002658300976c2656b4096f826567809770265630096ec2654b409678265478096f02654300966c2652b4095fc26527809670265230095f02650b409570265078095f426503009564264eb4094e4264e7809568264e30094d8264cb409458264c78094dc264c300944c264ab4)
  (.lf 0)) (.nd (.lf
  0xb96429bbd00b8e829b9d00b85829b7d00b7d829b5d00b75c29b3d00b6cc29b1d00b64c29afd00b5cc29add00b55029abd00b4c429a9d00b43829a7d00b3ac29a5d00b32029a3d00b29429a1d00b208299fd00b178299dd00b0f8299bd00b0782999d00aff82997d00af782995d00aefc2993d00ae6c2991d00adf0298fd00ad60298dd00ace4298bd00ac542989d00abd42987d00ab642985d00aaec2983d00aaa82981100d34c2d7ecc0d2dc2d7ccc0d2642d7acc0d1d42d78cc0d1582d76cc0d0c82d74cc0d04c2d72cc0cfc02d70cc0cf302d6ecc0ceb02d6ccc0ce302d6acc0cdb42d68cc0cd282d66cc0cc9c2d64cc0cc0c2d62cc0cb8c2d60cc0cb0c2d5ecc0ca902d5ccc0ca002d5acc0c9842d58cc0c8f82d56cc0c86c2d54cc0c7e02d52cc0c7502d50cc0c6d42d4ecc0c6482d4ccc0c5b82d4acc0c53c2d48cc0c4ac2d46cc0c4302d44cc0c3a02d42cc0d2ec2d7dd00d2742d7bd00d1e42d79d0)
  (.lf 0)))

def shaWireTree235 : BTree :=
  .nd (.nd (.nd (.lf
  0x5a908b65a785a910b65a305a8b0b658b45a8fcb658785a900b658305a8a0b656b45a8a4b656785a8a8b656305a88cb654b45a890b654785a894b654305a500b652b45a87cb652785a880b652305a4bcb650b45a4f4b650785a4f8b650305a488b64eb45a4b0b64e785a4b4b64e305a460b64cb45a47cb64c785a480b64c305a438b64ab45a454b64a785a458b64a305a424b648b45a428b648785a430b648305a360b646b45a40cb646785a410b646305a354b644b45a2f8b644785a358b6443059fb4b642b45a2e4b642785a2e8b642305b598b6fcb45b594b6fc785b59cb6fc305b580b6fab45b584b6fa785b588b6fa305b550b6f8b45b574b6f8785b578b6f8305b544b6f6b45b540b6f6785b548b6f6305b51cb6f4b45b524b6f4785b528b6f4305b48cb6f2b45b490b6f2785b514b6f2305b47cb6f0b45b398b6f0785b484b6f0305b38cb6eeb45b388b6ee785b390b6ee305b374b6ecb45b370b6ec78)
  (.lf 0)) (.nd (.lf
  0x2577c4ef92c257444ef72c257044ef52c256c84ef32c256904ef12c256584eef2c256204eed2c255e84eeb2c255b04ee92c255704ee72c2552c4ee52c254f04ee32c254b84ee12c254784edf2c2543c4edd2c253fc4edb2c253c04ed92c253884ed72c253504ed52c253184ed32c252d84ed12c252944ecf2c252504ecd2c252144ecb2c251dc4ec92c2519c4ec72c2516c4ec52c2804c52ff2c27fc852fd2c27f2852fb2c27e8c52f92c27dec52f72c27d4852f52c27cac52f32c27c0c52f12c27b6852ef2c27ac452ed2c27a2052eb2c2798452e92c278e452e72c2784852e52c277b052e32c2771052e12c2767452df2c275dc52dd2c2753c52db2c274a052d92c2740052d72c2735c52d52c272c052d32c2722852d12c2719052cf2c270f052cd2c2704c52cb2c26fb052c92c26f1052c72c26e6c52c52c26dc852c32c26d8452c0cc2935056ff2c2931456fd2c292d856fb2c292a056f92c2926056f72c)
  (.lf 0))) (.nd (.nd (.lf
  0x2418048b4782418848b430240f048b2b4240ec48b278240f448b2302406048b0b42405c48b0782406448b03023fd048aeb423fcc48ae7823fd448ae3023f4048acb423f3c48ac7823f4448ac3023eb048aab423eac48aa7823eb448aa3023e2848a8b423e2448a87823e2c48a83023da048a6b423d9c48a67823da448a63023d1848a4b423d1448a47823d1c48a43023c9048a2b423c8c48a27823c9448a23023c0848a0b423c0448a07823c0c48a03023b78489eb423b74489e7823b7c489e3023ae4489cb423ae0489c7823ae8489c3023a58489ab423a54489a7823a5c489a30239d04898b4239cc489878239d4489830239404896b42393c48967823944489630238ac4894b4238a8489478238b0489430238184892b4238144892782381c4892302378c4890b42378848907823790489030236fc488eb4236f8488e7823700488e302366c488cb423668488c7823670488c30235dc488ab4235d8488a78)
  (.lf 0)) (.nd (.lf
  0x2b0807d9d002af407d7d002ae007d5d002acc07d3d002ab807d1d002aa407cfd002a9007cdd002a7c07cbd002a6807c9d002a5407c7d002a4007c5d002a2c07c3d002a1407c110045c80abecc045d00abccc045d80abacc045e00ab8cc045e80ab6cc045f00ab4cc045f80ab2cc046000ab0cc046080aaecc046100aaccc046180aaacc046200aa8cc046280aa6cc046300aa4cc046380aa2cc046400aa0cc046480a9ecc046500a9ccc046580a9acc046600a98cc046680a96cc046700a94cc046780a92cc046800a90cc046880a8ecc046900a8ccc046980a8acc046a00a88cc046a80a86cc046b00a84cc046b80a82cc056bc0abdd00564c0abbd0055c40ab9d0055380ab7d0054b40ab5d00542c0ab3d0053a80ab1d0053200aafd0052940aadd0052080aabd0051840aa9d0051040aa7d0050840aa5d0050040aa3d004f840aa1d004f040a9fd004e7c0a9dd004df00a9bd004d640a99d004cd80a97d0)
  (.lf 0)))

def shaWireTree236 : BTree :=
  .nd (.nd (.nd (.lf
  0x231dc0018cb231e00018c91a7200018c71a7240018c51a7280018c31a72c0018c11a7300018bf1a7340018bd1a7380018bb1a73c0018b91a7400018b71a7440018b51a7480018b31a74c0018b11a7500018af1a7540018ad1a7580018ab1a75c0018a91a7600018a71a7640018a51a7680018a31a76c0018a11a77000189f1a77400189d26c6400189b26c6800189926c6c00189726c7000189526c7400189326c7800189126c7c00188f26c8000188d26c8400188b26c8800188926c8c00188726c9000188526c9400188326c9800188126c9c00187f26ca000187d26ca400187b26ca800187926cac00187726cb000187526cb400187326cb80018711b84000186f1b84400186d1b84800186b1b84c0018691b8500018671b8540018651b8580018631b85c0018611b86000185f1b86400185d1b86800185b1b86c0018591b8700018571b8740018551b8780018531b87c0018511b88000184f1b88400184d)
  (.lf 0)) (.nd (.lf
  0x2990c5fa078298e45f9e78296205f9c78296245f9a78296285f98782962c5f9678296305f9478296345f9278296385f90782963c5f8e78296405f8c78296445f8a78296485f88782964c5f8678296505f8478296545f8278296585f80782b7905fbe302b7945fbc302b7985fba302b79c5fb8302b7a05fb6302b7a45fb4302b7a85fb2302b7ac5fb0302b7b05fae302b7b45fac302b7b85faa302b7bc5fa8302b7c05fa6302b7c45fa4302b7c85fa2302b7cc5fa0302b7d05f9e302b7d45f9c302b7d85f9a302b7dc5f98302b5685f96302b56c5f94302b5705f92302b5745f90302b5a05f8e302b4805f8c302b4305f8a302b4345f88302b4385f86302b43c5f84302b3c05f82302b3c45f80302d26063beb42d26463bcb42d26863bab42d26c63b8b42d2a863b6b42d1d863b4b42d0ec63b2b42d0f063b0b42d0f463aeb42d0f863acb42d0fc63aab42d07c63a8b42d05063a6b42cfec63a4b42cff063a2b4)
  (.lf 0))) (.nd (.nd (.lf
  0x243644a7c78243684a7c30242644a7ab4242e04a7a78242e44a7a30241dc4a78b4242584a78782425c4a78302414c4a76b4241d04a7678241d44a7630240bc4a74b4241404a7478241444a74302402c4a72b4240b04a7278240b44a723023f9c4a70b4240204a7078240244a703023f0c4a6eb423f904a6e7823f944a6e3023e7c4a6cb423f004a6c7823f044a6c3023df04a6ab423e704a6a7823e744a6a3023d684a68b423de44a687823de84a683023ce04a66b423d5c4a667823d604a663023c584a64b423cd44a647823cd84a643023bd04a62b423c4c4a627823c504a623023b404a60b423bc44a607823bc84a603023aac4a5eb423b344a5e7823b384a5e3023a204a5cb423aa04a5c7823aa44a5c30239984a5ab423a144a5a7823a184a5a30239084a58b42398c4a5878239904a5830238744a56b4238fc4a5678239004a5630237e04a54b4238684a54782386c4a5430237544a52b4237d44a5278)
  (.lf 0)) (.nd (.lf
  0x4e5ecadb3d04e5d8adb1d04e5c4adafd04e5b0adadd04e59cadabd04e588ada9d04e574ada7d04e528ada5d04e518ada3d04e4e8ada1d04e4b0ad9fd04e49cad9dd04e488ad9bd04e43cad99d04e428ad97d04e3e0ad95d04e3b0ad93d04e390ad91d04e380ad8fd04e370ad8dd04d540ad8bd04d50cad89d04d4ecad87d04d4ccad85d04d324ad83d04d238ad81105042cb17ecc503fcb17ccc503f0b17acc503e4b178cc503e8b176cc50390b174cc503a4b172cc5036cb170cc50358b16ecc503a8b16ccc5033cb16acc5023cb168cc5032cb166cc501e8b164cc50144b162cc5012cb160cc50110b15ecc501bcb15ccc500e8b15acc500c4b158cc5000cb156cc4ffecb154cc4ffa0b152cc4ff40b150cc4fc90b14ecc50a78b14ccc4f710b14acc4f718b148cc4f7a0b146cc4f7a4b144cc4f634b142cc50f28b17dd050f18b17bd050e80b179d050e70b177d050e18b175d050d58b173d050d48b171d0)
  (.lf 0)))

def shaWireTree237 : BTree :=
  .nd (.nd (.nd (.lf
  0x6eb40dae4306eb1cdae2b46eb20dae2786eb24dae2306eb04dae0b46eb08dae0786eb0cdae0306eaf4dadeb46eaf8dade786eafcdade306ead4dadcb46eae0dadc786eae8dadc306eac0dadab46eac4dada786eac8dada306eaacdad8b46eab4dad8786eab8dad8306eaa0dad6b46e8b0dad6786eaa4dad6306e890dad4b46e878dad4786e894dad4306e860dad2b46e864dad2786e868dad2306e844dad0b46e848dad0786e850dad0306e838daceb46e1d0dace786e83cdace306e1c0daccb46e1c4dacc786e1c8dacc306e1acdacab46e168daca786e1b0daca306e158dac8b46e148dac8786e160dac8306e134dac6b46dc8cdac6786e138dac6306dc80dac4b46dc08dac4786dc84dac4306dbfcdac2b46dbc8dac2786dc00dac2306ec48db3caa6ec18db38aa6ec04db36aa6ebc8db32aa6ebe4db30aa6ebecdb2eaa6eb78db28aa6eb50db26aa6eb30db24aa6eb18db1eaa6eadcdb1caa6eae4db16aa)
  (.lf 0)) (.nd (.lf
  0x2647c005bfd26338005bfb2627c005bf926284005bf72628c005bf526484005bf32648c005bf126494005bef2649c005bed264a4005beb26340005be926294005be72629c005be5262a4005be3262ac005be1282e4005bdf282ec005bdd282f4005bdb282fc005bd928304005bd72830c005bd528314005bd32831c005bd128324005bcf2832c005bcd28334005bcb2833c005bc928344005bc72834c005bc528354005bc32835c005bc128364005bbf2836c005bbd28374005bbb2837c005bb928384005bb72838c005bb528394005bb32839c005bb1283a4005baf283ac005bad283b4005bab283bc005ba9283c4005ba7283cc005ba5283d4005ba3283dc005ba1299e4005b9f299b4005b9d29d28005b9b29ccc005b9929c70005b9729c18005b9529bc0005b9329b68005b9129b10005b8f29ab8005b8d29a60005b8b29a1c005b89299e8005b8729d30005b8529cd4005b8329c78005b8129c20005b7f)
  (.lf 0))) (.nd (.nd (.lf
  0x41118849630411008494b4410fc84947841104849430410ec8492b4410e8849278410f0849230410d88490b4410d4849078410dc849030410c4848eb4410c0848e78410c8848e30410b0848cb4410ac848c78410b4848c304109c848ab441098848a78410a0848a30410888488b4410848488784108c848830410748486b44107084867841078848630410608484b44105c848478410648484304104c8482b4410488482784105084823041958847cb441954847c784195c847c3041930847ab44192c847a7841934847a30419048478b44190084787841908847830418d88476b4418d4847678418dc847630418ac8474b4418a8847478418b0847430418808472b44187c84727841884847230418548470b4418508470784185884703041828846eb441824846e784182c846e30417fc846cb4417f8846c7841800846c30417d0846ab4417cc846a78417d4846a30417a48468b4417a0846878417a8846830)
  (.lf 0)) (.nd (.lf
  0x238704a55d0237dc4a53d0237504a51d0236c44a4fd0236344a4dd02359c4a4bd0235044a49d02346c4a47d0233cc4a45d0233184a43d0232a04a4110243bc4afecc243444afccc242bc4afacc242344af8cc241a44af6cc241104af4cc240804af2cc23ff04af0cc23f604aeecc23ed04aeccc23e484aeacc23dc04ae8cc23d384ae6cc23cb04ae4cc23c284ae2cc23b984ae0cc23b044adecc23a784adccc239f04adacc239604ad8cc238cc4ad6cc238384ad4cc237ac4ad2cc2371c4ad0cc2368c4acecc235fc4acccc2356c4acacc234d84ac8cc234404ac6cc233984ac4cc232f44ac2cc243604afdd0242d84afbd0242504af9d0241c84af7d0241384af5d0240a84af3d0240184af1d023f884aefd023ef84aedd023e684aebd023ddc4ae9d023d544ae7d023ccc4ae5d023c444ae3d023bbc4ae1d023b2c4adfd023a984addd023a0c4adbd0239844ad9d0238f44ad7d0238604ad5d0237cc4ad3d0)
  (.lf 0)))

def shaWireTree238 : BTree :=
  .nd (.nd (.nd (.lf
  0x2b6286962b42b6306962302b6186960782b6146960b42b61c6960302b604695e782b600695eb42b608695e302b5f0695c782b5ec695cb42b5f4695c302b5dc695a782b5d8695ab42b5e0695a302b5c86958782b5c46958b42b5cc6958302b5b46956782b5546956b42b5b86956302b53c6954782b5446954b42b5486954302b5306952782b52c6952b42b5346952302b5186950782b51c6950b42b5206950302b508694e782b504694eb42b50c694e302b478694c782b48c694cb42b490694c302b468694a782b41c694ab42b46c694a302b40c6948782b4046948b42b4106948302b3f86946782b3f46946b42b3fc6946302b3e06944782b3e46944b42b3e86944302a5d86942782a62c6942b42a6306942302bfbc69bc782bf6c69bcb42bfc069bc302bf5c69ba782bf6069bab42bf6469ba302bf4469b8782bf4869b8b42bf4c69b8302bf3469b6782bf3869b6b42bf3c69b6302bf2069b4782bf2469b4b4)
  (.lf 0)) (.nd (.lf
  0x65b1c003bfd65b24003bfb65b2c003bf965b34003bf765b3c003bf565b44003bf3659fc003bf165a04003bef65a0c003bed65a14003beb65a1c003be965878003be765828003be5657d8003be365794003be167cf0003bdf67cf8003bdd67d00003bdb67d08003bd967d10003bd767fbc003bd567d18003bd367fc4003bd167d20003bcf67d28003bcd67d6c003bcb67d74003bc967d7c003bc767d84003bc567d8c003bc367d94003bc167d9c003bbf67da4003bbd67dac003bbb67db4003bb967dbc003bb767dc4003bb567dcc003bb367dd4003bb167ddc003baf67de4003bad67dec003bab67df4003ba967dfc003ba767e04003ba567fcc003ba367e0c003ba169b90003b9f69b98003b9d69ba0003b9b69ba8003b9969bb0003b9769bb8003b9569bc0003b9369bc8003b9169bd0003b8f69bd8003b8d69d24003b8b69d2c003b8969c20003b876a05c003b8569c28003b836a064003b8169c30003b7f)
  (.lf 0))) (.nd (.nd (.lf
  0x7598cfc54787599cfc543075974fc52b475980fc527875984fc523075968fc50b475964fc50787596cfc503075948fc4eb475944fc4e7875954fc4e3075930fc4cb47592cfc4c787593cfc4c30758ecfc4ab475920fc4a7875924fc4a30758d0fc48b4758ccfc4878758dcfc4830758acfc46b4758c0fc4678758c4fc46307589cfc44b4758a0fc4478758a4fc443075890fc42b47588cfc427875894fc423075db4fc3cb475db0fc3c7875db8fc3c3075da0fc3ab475d98fc3a7875da4fc3a3075d8cfc38b475d84fc387875d90fc383075d70fc36b475d74fc367875d78fc363075d60fc34b475d5cfc347875d64fc343075d4cfc32b475d48fc327875d50fc323075d38fc30b475d34fc307875d3cfc303075d24fc2eb475d20fc2e7875d28fc2e3075d10fc2cb475d0cfc2c7875d14fc2c3075cfcfc2ab475cf8fc2a7875d00fc2a3075ce8fc28b475ce4fc287875cecfc283075cd4fc26b475cccfc2678)
  (.lf 0)) (.nd (.lf
  0x65404cad1d06535ccacfd0652f0cacdd065234cacbd0650b8cac9d065048cac7d065018cac5d064fc8cac3d064f44cac11064894cbfecc6481ccbfccc64890cbfacc64830cbf8cc647e4cbf6cc64770cbf4cc6470ccbf2cc646a0cbf0cc64708cbeecc643f0cbeccc64190cbeacc64154cbe8cc6418ccbe6cc64880cbe4cc64844cbe2cc647d4cbe0cc64788cbdecc646f8cbdccc646accbdacc646b4cbd8cc643f8cbd6cc6411ccbd4cc64888cbd2cc64840cbd0cc647dccbcecc64780cbcccc646f4cbcacc646bccbc8cc646c4cbc6cc64400cbc4cc64124cbc2cc64a44cbfdd064a30cbfbd064a1ccbf9d064a08cbf7d0649f4cbf5d0649e0cbf3d0649cccbf1d0649b4cbefd0649a4cbedd06498ccbebd064978cbe9d064968cbe7d064950cbe5d06493ccbe3d064928cbe1d064918cbdfd064904cbddd0648f0cbdbd0648dccbd9d0648c8cbd7d0648b4cbd5d0648a0cbd3d064850cbd1d0647f0cbcfd0)
  (.lf 0)))

def shaWireTree239 : BTree :=
  .nd (.nd (.nd (.lf
  0x404949272304047c9270b4404749270784048092703040468926eb440464926e784046c926e3040454926cb440450926c7840458926c3040440926ab44043c926a7840444926a304042c9268b44042892687840430926830404189266b4404149266784041c926630404049264b4403fc92647840408926430403e89262b4403f0926278403f4926230403dc9260b4403d4926078403e0926030401e8925eb4403c8925e78403cc925e30401dc925cb4401d8925c78401e0925c30401c0925ab4401c8925a78401cc925a30401b49258b440098925878401b89258304005c9256b43fdd8925678400609256303fdcc9254b43fdc49254783fdd09254303fdb09252b43fdb89252783fdbc9252303fda49250b43fd9c9250783fda89250303fd88924eb43fd90924e783fd94924e303fd7c924cb43fd78924c783fd80924c303fd60924ab43fd68924a783fd6c924a303fd549248b43fd4c9248783fd58924830)
  (.lf 0)) (.nd (.lf
  0x22f804a932c22f6c4a912c22f584a8f2c22f444a8d2c22f304a8b2c22f1c4a892c22f084a872c22ef44a852c22ee04a832c22edc4a80cc258244ebf2c257f04ebd2c257b04ebb2c257744eb92c2573c4eb72c256fc4eb52c256c04eb32c256884eb12c256504eaf2c256184ead2c255e04eab2c255a84ea92c255684ea72c255244ea52c254e84ea32c254b04ea12c254704e9f2c254344e9d2c253f44e9b2c253b84e992c253804e972c253484e952c253104e932c252d04e912c2528c4e8f2c252484e8d2c2520c4e8b2c251d44e892c251944e872c251644e852c251384e832c251284e80cc26c1052bf2c26bfc52bd2c26be852bb2c26bd452b92c26bc052b72c26bac52b52c26b9852b32c26b8452b12c26b7052af2c26b5c52ad2c26b4852ab2c26b3452a92c26b2052a72c26b0c52a52c26af852a32c26ae452a12c26ad0529f2c26abc529d2c26aa8529b2c26a9452992c26a8052972c26a6c52952c)
  (.lf 0))) (.nd (.nd (.lf
  0x4a1e49a20504a1e89a1e504a1ec9a1c504a2f89a1a504a1f09a18504a1f49a16504a1f89a14504a1fc9a12504a2009a10504a1189a0e504a0e09a0c504a0e49a0a5048e1c9a085048d9c9a065048d0c9a045048c809a025048c189a00504a3fc9e3e784a4009e3c784a4049e3a784a4089e38784a40c9e36784a4109e34784a4149e32784a3389e30784a33c9e2e784a2dc9e2c784a2e09e2a784a2f09e28784a2849e26784a2889e24784a2289e22784a22c9e20784a2309e1e784a2349e1c784a3009e1a784a2389e18784a23c9e16784a2409e14784a2449e12784a2489e10784a1209e0e784a0f09e0c784a0f49e0a7848e249e087848da49e067848d149e047848c889e027848c209e00784c2309e3e504c2349e3c504c2389e3a504bf949e38504bf989e36504bf9c9e34504bfa09e32504bdd09e30504bcc09e2e504bba49e2c504bb649e2a504ba449e28504ba489e26504b93c9e24504b88c9e2250)
  (.lf 0)) (.nd (.lf
  0x57e04b014cc57dd8b012cc57dacb010cc57d80b00ecc57d54b00ccc57d28b00acc57cfcb008cc57cd0b006cc57ca4b004cc57c78b002cc58184b03dd058158b03bd05812cb039d058100b037d0580d4b035d0580a8b033d05807cb031d058050b02fd058024b02dd057ff8b02bd057fccb029d057fa0b027d057f74b025d057f48b023d057f1cb021d057ef0b01fd057ec4b01dd057e98b01bd057e6cb019d057e40b017d057e14b015d057de8b013d057dbcb011d057d90b00fd057d64b00dd057d38b00bd057d0cb009d057ce0b007d057cb4b005d057c88b003d057c68b001105773cb4becc57744b4bccc5774cb4bacc57754b4b8cc5775cb4b6cc57764b4b4cc5776cb4b2cc57774b4b0cc5777cb4aecc57784b4accc577e4b4aacc577ecb4a8cc577f4b4a6cc577fcb4a4cc57804b4a2cc5780cb4a0cc57814b49ecc5781cb49ccc57824b49acc5782cb498cc57834b496cc5783cb494cc57844b492cc)
  (.lf 0)))

def shaWireTree240 : BTree :=
  .nd (.nd (.nd (.lf
  0x47b98a17f2c47b84a17d2c47b44a17b2c47a78a1792c47a60a1772c47a4ca1752c47a40a1732c479f8a1712c479b8a16f2c47858a16d2c4784ca16b2c4782ca1692c47830a1672c47794a1652c47764a1632c476fca1612c4769ca15f2c4768ca15d2c476c8a15b2c47610a1592c475d8a1572c47588a1552c4754ca1532c47504a1512c474f4a14f2c474e0a14d2c47488a14b2c47454a1492c46a54a1472c469e8a1452c469b0a1432c46670a140cc499fca57f2c499f0a57d2c4999ca57b2c49970a5792c49a64a5772c498a8a5752c49918a5732c49894a5712c49848a56f2c49808a56d2c49614a56b2c495cca5692c4956ca5672c49580a5652c49530a5632c4944ca5612c49434a55f2c49480a55d2c493e4a55b2c493e8a5592c493b0a5572c4937ca5552c49368a5532c4934ca5512c4931ca54f2c49194a54d2c490e4a54b2c48e04a5492c48d68a5472c48ce0a5452c48c5ca5432c48bc8a540cc)
  (.lf
  0x35ecc7099d035e607097d035dec7095d035d7c7093d035d087091d035c90708fd035c14708dd035b9c708bd035b187089d035a8c7087d035a087085d0359887083d0358b87081101de04707ecc1de0c707ccc1de14707acc1de907078cc1de987076cc1dea07074cc1dea87072cc1deb07070cc1deb8706ecc1dec0706ccc1dec8706acc1ded07068cc1ded87066cc1dee07064cc1dee87062cc1def07060cc1def8705ecc1df00705ccc1df08705acc1df107058cc1df187056cc1df207054cc1df287052cc1df307050cc1df38704ecc1df40704ccc1df48704acc1df507048cc1df587046cc1df607044cc1df687042cc1e1cc707dd01e1b8707bd01e1a47079d01e1907077d01e17c7075d01e1687073d01e1547071d01e140706fd01e12c706dd01e118706bd01e1047069d01e0f07067d01e0dc7065d01e0c87063d01e0b47061d01e0a0705fd01e08c705dd01e078705bd01e0647059d01e0507057d0))
  (.nd (.lf
  0x4c1c0002f014bff4002eff4bf70002efd4bf3c002efb4bef0002ef94bdf4002ef74bc78002ef54bb0c002ef34bb50002ef14ba80002eef4ba24002eed4b95c002eeb4b8bc002ee94b820002ee74b7fc002ee54b7d4002ee34b7ac002ee14d8b8002edf4d7ac002edd4e184002edb4e118002ed94e068002ed74e06c002ed54df98002ed34deb4002ed14de44002ecf4ddd0002ecd4dd28002ecb4dcc8002ec94dbfc002ec74e188002ec54e11c002ec34e070002ec14e074002ebf4df9c002ebd4deb8002ebb4de48002eb94ddd4002eb74dd2c002eb54dccc002eb34dc00002eb14dc04002eaf4dc08002ead4da90002eab4da44002ea94da0c002ea74d978002ea54d940002ea34d904002ea150b38002e9f50b3c002e9d50f44002e9b50f94002e9950ef0002e9750e98002e9550e34002e9350d88002e9150d8c002e8f50d90002e8d50ce4002e8b50ca4002e8950c74002e8750f48002e8550f98002e83)
  (.lf 0))) (.nd (.nd (.lf
  0x3870876e630386ec76e4b4386f076e478386f476e430385d076e2b4385d476e278385d876e230385c476e0b4385c076e078385c876e030385b476deb43856476de78385b876de303855876dcb4384e076dc783855c76dc30384d476dab4384b076da78384d876da30384a476d8b4383b476d878384a876d830383a876d6b43838c76d678383ac76d6303832076d4b4382a476d4783832476d4303829876d2b43821476d2783829c76d2303820876d0b43818876d0783820c76d0303817c76ceb4380f876ce783818076ce30380ec76ccb43806c76cc78380f076cc303806076cab437fe476ca783806476ca3037fd876c8b437f6076c87837fdc76c83037f5476c6b437f3c76c67837f5876c63037ecc76c4b437eb076c47837f3476c43037e3876c2b437dfc76c27837e3c76c2303903c773eaa38860773caa388487738aa388107734aa387e87730aa38be0772eaa38ae8772aaa387287724aa389507722aa)
  (.lf 0)) (.nd (.lf
  0x640680064736444c00647163e9c00646f6450400646d6450c00646b64540006469643340064676433c00646564388006463643440064616680400645f6680800645d6680c00645b6664800645966688006457666a80064556696c006453669740064516697c00644f6698400644d6689c00644b6698c006449669940064476699c006445669a4006443668a40064416681000643f6681800643d6682000643b66828006439668300064376664c0064356668c006433666ac0064316661400642f669ac00642d669b400642b669bc006429669c4006427668ac00642566838006423668400064216898800641f6898c00641d6891c00641b689200064196882c006417687c80064156911c00641368f7000641168dc400640f68e3c00640d68d0000640b6912400640968f7800640768dcc00640568e4400640368d0800640168df80063ff68d100063fd689900063fb689980063f9689240063f76892c0063f5)
  (.lf 0)))

def shaWireTree241 : BTree :=
  .nd (.nd (.nd (.lf
  0x9c88256ab409c8c256a3009b7825687809bfc2568b409c0025683009af825667809b6c2566b409b7025663009a7825647809aec2564b409af0256430099fc25627809a6c2562b409a702562300996c256078099f02560b4099f4256030098ec255e7809960255eb409964255e300986c255c78098e0255cb4098e4255c30097f0255a7809860255ab409864255a3009760255878097e42558b4097e8255830096e0255678097542556b40975825563009660255478096d42554b4096d8255430095e4255278096542552b40965825523009558255078095d82550b4095dc255030094cc254e780954c254eb409550254e3009440254c78094c0254cb4094c4254c30093b4254a7809434254ab409438254a3009324254878093a82548b4093ac254830092a4254678093182546b40931c25463009224254478092982544b40929c254430091dc254278092182542b40921c2542300a13825bc780a0b425bcb4)
  (.lf 0)) (.nd (.lf
  0x6904cd3dd2c69038d3db2c69054d3d92c6901cd3d72c68ffcd3d52c69050d3d32c68f48d3d12c68eb4d3cf2c68ec0d3cd2c68c54d3cb2c68cecd3c92c68b84d3c72c68a8cd3c52c68a30d3c32c689dcd3c0cc6afe4d7ff2c6afd0d7fd2c6afbcd7fb2c6afecd7f92c6af98d7f72c6af84d7f52c6af70d7f32c6af5cd7f12c6af48d7ef2c6af34d7ed2c6af20d7eb2c6af0cd7e92c6aef4d7e72c6aee0d7e52c6af08d7e32c6aebcd7e12c6aea8d7df2c6ae94d7dd2c6ae80d7db2c6ae6cd7d92c6ae58d7d72c6ae44d7d52c6affcd7d32c6aff4d7d12c6ada0d7cf2c6acf4d7cd2c6ac48d7cb2c6abd8d7c92c6ab88d7c72c6ab3cd7c52c6aae0d7c32c6aa88d7c0cc6da3cdbff2c6da2cdbfd2c6da40dbfb2c6da30dbf92c6d9f8dbf72c6d9dcdbf52c6d9c4dbf32c6d9d8dbf12c6d9a4dbef2c6d7b8dbed2c6d79cdbeb2c6d788dbe92c6d774dbe72c6d760dbe52c6d74cdbe32c6d750dbe12c6d724dbdf2c)
  (.lf 0))) (.nd (.nd (.lf
  0x65bacd09c7865bb0d09c3065b98d09ab465b90d09a7865b9cd09a3065b80d098b465b84d0987865b88d0983065b70d096b465b68d0967865b74d0963065b54d094b465b5cd0947865b60d0943065a84d092b465b48d0927865b4cd0923065a78d090b465a74d0907865a7cd0903065a64d08eb465a60d08e7865a68d08e3065a50d08cb465a48d08c7865a54d08c3065a34d08ab465a3cd08a7865a40d08a3065888d088b465a28d0887865a2cd0883065838d086b46587cd0867865880d08630657f0d084b46582cd0847865830d08430657a0d082b4657e4d08278657e8d0823069cd8d07cb469cdcd07c7869cecd07c306998cd07ab469990d07a7869994d07a306997cd078b46996cd0787869980d0783069960d076b469958d0767869964d076306994cd074b469948d0747869950d074306992cd072b469928d0727869930d072306991cd070b469910d0707869920d0703069904d06eb469900d06e78)
  (.lf 0)) (.nd (.lf
  0x4bc249aefd04bbf89aedd04bac09aebd04ba9c9ae9d04b9c89ae7d04b9b89ae5d04b8cc9ae3d04b77c9ae1d04b72c9adfd04b6d89addd04b6809adbd04b6309ad9d04b5589ad7d04b4c49ad5d04b4509ad3d04b3e09ad1d04b3689acfd04b2f49acdd04b2049acbd04b1809ac9d04b1109ac7d04b09c9ac5d04b0249ac3d04af249ac11049a149bfecc49a9c9bfccc49a609bfacc49a5c9bf8cc49a989bf6cc499d89bf4cc49a949bf2cc4990c9bf0cc499489beecc499109beccc498789beacc498449be8cc496449be6cc49a549be4cc49a589be2cc499d49be0cc499d09bdecc49a909bdccc498f09bdacc499449bd8cc499089bd6cc4986c9bd4cc49a489bd2cc49a509bd0cc499c89bcecc499cc9bcccc49a8c9bcacc498fc9bc8cc499409bc6cc499049bc4cc498749bc2cc49cf89bfdd049ce49bfbd049cd09bf9d049cbc9bf7d049ca89bf5d049c949bf3d049c809bf1d049c6c9befd049c589bedd0)
  (.lf 0)))

def shaWireTree242 : BTree :=
  .nd (.nd (.nd (.lf
  0x6660cd9a8786661cd9a8b466620d9a83066600d9a67866548d9a6b466604d9a630664d4d9a4786643cd9a4b4664d8d9a43066428d9a278663c4d9a2b46642cd9a230663b8d9a0786637cd9a0b4663bcd9a03066370d99e7866268d99eb466374d99e306625cd99c7866240d99cb466260d99c3066234d99a7866204d99ab466238d99a30661f8d99878661bcd998b4661fcd9983065fe8d9967865fb8d996b465fecd9963065facd9947865f94d994b465fb0d9943065f74d9927865f78d992b465f88d9923065f4cd9907865f50d990b465f68d9903065f2cd98e7865f28d98eb465f40d98e3065e6cd98c786527cd98cb465e70d98c306525cd98a786514cd98ab465260d98a3065140d9887865138d988b465144d988306511cd986786512cd986b465130d986306510cd98478650f8d984b465110d98430650ecd9827864f40d982b4650f0d9823068d9cdd7c7868ee8dd7cb468ef8dd7c3068ca4dd7a78)
  (.lf 0)) (.nd (.lf
  0x740b4f01d2c74140f01b2c74088f0192c74090f0172c7404cf0152c74104f0132c7402cf0112c74014f00f2c74000f00d2c740d8f00b2c73dc4f0092c740e8f0072c740f4f0052c73d20f0032c73d1cf000cc74e04f43f2c74df0f43d2c74dc8f43b2c74e3cf4392c74d94f4372c74e54f4352c74d08f4332c74cf4f4312c74ce4f42f2c74c88f42d2c74c90f42b2c74c48f4292c74c18f4272c74c00f4252c74bdcf4232c74bc8f4212c74bacf41f2c74b94f41d2c74b5cf41b2c74b48f4192c74b2cf4172c74b1cf4152c74b04f4132c74af4f4112c748a0f40f2c74858f40d2c74844f40b2c74828f4092c74814f4072c74838f4052c7478cf4032c74770f400cc756f8f83f2c75700f83d2c756c0f83b2c756b4f8392c7570cf8372c756bcf8352c75668f8332c75624f8312c75614f82f2c755fcf82d2c755dcf82b2c755c8f8292c75704f8272c755e8f8252c754acf8232c75480f8212c75458f81f2c)
  (.lf 0))) (.nd (.nd (.lf
  0x12cb42edab412d342eda7812d382eda3012c282ed8b412ca82ed87812cac2ed83012b9c2ed6b412c1c2ed67812c202ed63012b102ed4b412b902ed47812b942ed43012a8c2ed2b412b042ed27812b082ed23012a042ed0b412a802ed07812a842ed030129782eceb4129f82ece78129fc2ece30128ec2eccb41296c2ecc78129702ecc30128682ecab4128e02eca78128e42eca30127e82ec8b41285c2ec878128602ec830127682ec6b4127dc2ec678127e02ec630126e82ec4b41275c2ec478127602ec430126702ec2b4126dc2ec278126e02ec230135a82f3caa1349c2f38aa133902f34aa132842f30aa12ff82f26aa12f6c2f24aa12d602f1caa12cd42f1aaa12c482f18aa12bbc2f16aa12b302f14aa12a242f10aa129982f0eaa1290c2f0caa126802f02aa135f42f3df4135742f3b40134682f37401335c2f3340132502f2f4012fc42f25f412f382f234012d2c2f1bf412ca02f19f412c142f17f4)
  (.lf 0)) (.nd (.lf
  0x189904d7acc1891c4d78cc189484d76cc1894c4d74cc189504d72cc187344d70cc186f04d6ecc186a84d6ccc186684d6acc1862c4d68cc185e84d66cc1890c4d64cc188c84d62cc188c44d60cc188cc4d5ecc188c04d5ccc188d44d5acc188ec4d58cc188fc4d56cc189044d54cc189144d52cc189004d50cc188f44d4ecc189444d4ccc189204d4acc189844d48cc189584d46cc18be84d44cc18bd44d42cc18e3c4d7dd018e284d7bd018e104d79d018dfc4d77d018de44d75d018dd04d73d018dc04d71d018dac4d6fd018d9c4d6dd018d844d6bd018d704d69d018d584d67d018d484d65d018d344d63d018d204d61d018d104d5fd018cf84d5dd018ce44d5bd018ccc4d59d018cbc4d57d018ca84d55d018c944d53d018c844d51d018c6c4d4fd018c584d4dd018c444d4bd018c304d49d018c1c4d47d018c084d45d018bf84d43d018be04d4110188b84dbecc188904dbccc188e84dbacc189084db8cc)
  (.lf 0)))

def shaWireTree243 : BTree :=
  .nd (.nd (.nd (.lf
  0x5fb88bf29405f390bf25405f344bf21405f304bf1d405f210bf19405efd8bf0bf460254bf3b4060264bf3ca05fd84bf39f460250bf3aa05fd7cbf381e5fd60bf38b45fd80bf38145fd3cbf35405fd44bf36a05fbecbf33405fd38bf34a05fbdcbf31405fbe8bf32a05fbccbf2f405fbd8bf30a05fbbcbf2df45fbc8bf2ea05fba8bf2c1e5fbb4bf2cb45fbb8bf2c145fb9cbf2a1e5fb8cbf2ab45fba0bf2a145fb7cbf27f45fb84bf28a05f3acbf261e5fb74bf26b45fb78bf26145f384bf23f45f38cbf24a05f37cbf221e5f35cbf22b45f380bf22145f328bf1ff45f340bf20a05f308bf1e1e5f320bf1eb45f324bf1e145f22cbf1bf45f300bf1ca05f214bf1a1e5f218bf1ab45f228bf1a145f1f4bf17405f204bf18a05f1e8bf15405f1f0bf16a05f1d4bf13405f1dcbf14a05f1b0bf11405f1d0bf12a05f178bf0f405f19cbf10a05f024bf0df45f174bf0ea05efdcbf0c1e5eff8bf0cb45f020bf0c14)
  (.lf 0)) (.nd (.lf
  0x6a668d2f52c6a66cd2f32c6a64cd2f12c6a630d2ef2c6a61cd2ed2c6a604d2eb2c6a5f0d2e92c6a5d4d2e72c6a5bcd2e52c6a5b0d2e32c6a590d2e12c6a580d2df2c6a594d2dd2c6a558d2db2c6a544d2d92c6a538d2d72c6a518d2d52c6a504d2d32c6a48cd2d12c6a46cd2cf2c6a140d2cd2c69f68d2cb2c69f44d2c92c69ef4d2c72c69674d2c52c6960cd2c32c6955cd2c0cc6d61cd6ff2c6d384d6fd2c6d34cd6fb2c6d2a4d6f92c6d258d6f72c6d168d6f52c6cf58d6f32c6cf34d6f12c6cee8d6ef2c6ccdcd6ed2c6cd08d6eb2c6cd28d6e92c6cc70d6e72c6cbdcd6e52c6ca9cd6e32c6ca94d6e12c6caa4d6df2c6c77cd6dd2c6c768d6db2c6c750d6d92c6c740d6d72c6c6d0d6d52c6c110d6d32c6bf6cd6d12c6bf44d6cf2c6be8cd6cd2c6be14d6cb2c6bd8cd6c92c6bcecd6c72c6bc7cd6c52c6bbd0d6c32c6ec58daff2c6ec44dafd2c6ec34dafb2c6ec14daf92c6ec00daf72c6ebe8daf52c)
  (.lf 0))) (.nd (.nd (.lf
  0x1c378541e301c348541cb41c328541c781c34c541c301c31c541ab41c2fc541a781c320541a301c2f05418b41c2d05418781c2f45418301c2c45416b41c2a45416781c2c85416301c2985414b41c2785414781c29c5414301c26c5412b41c24c5412781c2705412301c2405410b41c2205410781c2445410301c214540eb41c1f4540e781c218540e301c1e8540cb41c1c8540c781c1ec540c301c1bc540ab41c19c540a781c1c0540a301c1905408b41c1705408781c1945408301c1645406b41c1445406781c1685406301c1385404b41c1185404781c13c5404301c10c5402b41c0fc5402781c1105402302b37058bcb42b36c58bc782b37458bc302b30858bab42b30458ba782b30c58ba302b29458b8b42b29058b8782b29858b8302b22058b6b42b21c58b6782b22458b6302b1a858b4b42b1a458b4782b1ac58b4302b13058b2b42b12c58b2782b13458b2302b0c058b0b42b0bc58b0782b0c458b030)
  (.lf 0)) (.nd (.lf
  0x4ed41a5fd004e481a5dd004dbc1a5bd004d301a59d004ca41a57d004c141a55d004b981a53d004b0c1a51d004a801a4fd0049f41a4dd0049641a4bd0048e41a49d0048681a47d0047dc1a45d0047501a43d0046ec1a41100ba401afecc0b9d01afccc0b9501afacc0b8c81af8cc0b8441af6cc0b7c41af4cc0b73c1af2cc0b6b81af0cc0b6381aeecc0b5b81aeccc0b5301aeacc0b4a41ae8cc0b4181ae6cc0b38c1ae4cc0b3001ae2cc0b2741ae0cc0b1e81adecc0b1641adccc0b0e41adacc0b0641ad8cc0afe41ad6cc0af641ad4cc0aedc1ad2cc0ae581ad0cc0add01acecc0ad4c1acccc0acc41acacc0ac401ac8cc0abc01ac6cc0ab481ac4cc0aad41ac2cc0ba281afdd00b9b41afbd00b9341af9d00b8ac1af7d00b8281af5d00b7a81af3d00b7201af1d00b69c1aefd00b61c1aedd00b59c1aebd00b5141ae9d00b4881ae7d00b3fc1ae5d00b3701ae3d00b2e41ae1d00b2581adfd00b1cc1addd0)
  (.lf 0)))

def shaWireTree244 : BTree :=
  .nd (.nd (.nd (.lf
  0x1aaac0010cb1aab00010c91aab40010c71aab80010c51aabc0010c31aac00010c11aac40010bf1aac80010bd1aacc0010bb1aad00010b91aad40010b71aad80010b51aadc0010b31aae00010b11aae40010af1aae80010ad1aaec0010ab1aaf00010a91aaf40010a71aaf80010a51aafc0010a31ab000010a11ab0400109f1ab0800109d1ab0c00109b1ab100010991ae740010971ae780010951ae7c0010931ae800010911ae8400108f1ae8800108d1ae8c00108b1ae900010891ae940010871ae980010851ae9c0010831aea00010811aea400107f1aea800107d1aeac00107b1aeb00010791aeb40010771aeb80010751aebc0010731aec00010711aec400106f1aec800106d1aecc00106b1aed00010691aed40010671aed80010651aedc0010631aee00010611aee400105f1bbc000105d1bbc400105b1bbc80010591bbcc0010571bbd00010551bbd40010531bbd80010511bbdc00104f1bbe000104d)
  (.lf 0)) (.nd (.lf
  0x424108ba0b4421e88b9eb4420dc8b9cb4420e08b9ab4420e48b98b4420208b96b441f848b94b441e248b92b441e288b90b441dc08b8eb441cf08b8cb441cf48b8ab441be48b88b441b448b86b441ac88b84b441a148b82b441a188b80b440c5c8bbe7840c608bbc7840c648bba7840c688bb87840ae88bb67840aec8bb47840af08bb2784095c8bb078409608bae78409648bac78409688baa784096c8ba878409708ba678409748ba478409788ba2784097c8ba078409808b9e78409848b9c78409888b9a784007c8b9878400808b96783f7988b94783f7288b92783f6c48b90783f6588b8e783f5f08b8c783f5888b8a783f52c8b88783f3e08b86783f38c8b84783f2c88b82783f2cc8b807842e548bbe3042e588bbc3042e5c8bba3042cb88bb83042a2c8bb630428988bb4304289c8bb230427d08bb030426fc8bae30427008bac30427048baa30427088ba830425f88ba6304251c8ba430424608ba230)
  (.lf 0))) (.nd (.nd (.lf
  0x279a452ea7827a4052ea302799852e8b42790852e8782799c52e830278fc52e6b42786852e6782790052e6302785c52e4b4277cc52e4782786052e430277c052e2b42773452e278277c452e2302772852e0b42769452e0782772c52e0302768852deb4275f852de782768c52de30275ec52dcb42756052dc78275f052dc302755452dab4274c052da782755852da30274b452d8b42742452d878274b852d8302741852d6b42738452d6782741c52d6302737852d4b4272e052d4782737c52d430272d452d2b42724452d278272d852d2302723852d0b4271ac52d0782723c52d030271a052ceb42711452ce78271a452ce302710852ccb42707452cc782710c52cc302706852cab426fd052ca782706c52ca3026fc452c8b426f3452c87826fc852c83026f2852c6b426e9452c67826f2c52c63026e8852c4b426df052c47826e8c52c43026de452c2b426d8c52c27826de852c23027f2c533aaa27df05336aa)
  (.lf 0)) (.nd (.lf
  0x62158d172cc62080d170cc61ff0d16ecc61ee4d16ccc61e9cd16acc61e54d168cc61d94d166cc61d00d164cc61c98d162cc61c60d160cc61b54d15ecc61af0d15ccc61ac4d15acc61a88d158cc61a08d156cc619b0d154cc616c8d152cc6164cd150cc61610d14ecc615acd14ccc614e8d14acc61434d148cc6138cd146cc612d0d144cc612c0d142cc62508d17dd0624a0d17bd0623ccd179d062254d177d062240d175d062150d173d062078d171d061fe0d16fd061f34d16dd061e8cd16bd061e38d169d061dccd167d061cf0d165d061c90d163d061c54d161d061b3cd15fd061b00d15dd061ab8d15bd061a68d159d061a18d157d0619c0d155d0616bcd153d061640d151d061604d14fd0615ccd14dd0614d8d14bd06142cd149d0613d0d147d06137cd145d061358d143d061074d1411062578d1becc62550d1bccc62494d1bacc623bcd1b8cc6222cd1b6cc62230d1b4cc621a0d1b2cc620d0d1b0cc)
  (.lf 0)))

def shaWireTree245 : BTree :=
  .nd (.nd (.nd (.lf
  0x776f0e30bf47757ce309407730ce305f4786a0e33c1e786a8e33cb4786ace33c1478678e33a1e7867ce33ab478698e33a1478654e3381e78650e338b478670e33814785f0e335f478648e336a0785a0e3341e7859ce334b4785ece3341478578e3314078594e332a078270e32ff47827ce330a078268e32e1e78258e32eb47826ce32e1478240e32b4078250e32ca07822ce329407823ce32aa078218e327f478228e328a078200e3261e78204e326b478214e32614781f4e3241e781e4e324b4781f8e32414781c8e3221e781cce322b4781dce32214781ace3201e781b0e320b4781c0e3201478110e31e1e78114e31eb478124e31e1478100e31b4078108e31ca0780ece31940780fce31aa0780bce31740780e8e318a077ee8e31540780b8e316a077ed4e313f477ee4e314a077ec0e3121e77ecce312b477ed0e3121477ea8e30ff477eb8e310a077e9ce30e1e77ea0e30eb477ea4e30e14776f4e30c1e)
  (.lf 0)) (.nd (.lf
  0x68c480053fd68bb00053fb68b780053f968a680053f768a140053f568fe80053f368f280053f168d880053ef68cd80053ed68c4c0053eb68bb80053e968b7c0053e768a700053e568a180053e3689d00053e16a9880053df6a9600053dd6ade00053db6ae180053d96ad800053d76acd40053d56ac280053d36abbc0053d16ab680053cf6ab1c0053cd6aabc0053cb6aa7c0053c96a98c0053c76ade40053c56ae1c0053c36ad880053c16acd80053bf6ac300053bd6abc40053bb6ab6c0053b96ab240053b76aac00053b56adec0053b36ae200053b16ad900053af6ace00053ad6ac380053ab6abc80053a96ab740053a76ab2c0053a56aac80053a36aa840053a16cdb800539f6cea800539d6d66000539b6d5b80053996d5580053976d5140053956d4c80053936d1d00053916d06c00538f6d02800538d6cfc400538b6ce6c0053896cdbc0053876d6640053856d5bc0053836d55c0053816d51800537f)
  (.lf 0))) (.nd (.nd (.lf
  0x473b894bab4473b494ba78473bc94ba30473a494b8b4473a094b878473a894b8304739094b6b44738c94b6784739494b6304737c94b4b44737894b4784738094b4304736894b2b44736494b2784736c94b2304735494b0b44735094b0784735894b0304734094aeb44733c94ae784734494ae304732c94acb44732894ac784733094ac304731894aab44731494aa784731c94aa304730494a8b44730094a8784730894a830472f094a6b4472ec94a678472f494a630472dc94a4b4472d894a478472e094a430472c894a2b4472c494a278472cc94a230472b494a0b4472b094a078472b894a030472a0949eb44729c949e78472a4949e304728c949cb447288949c7847290949c3047278949ab447274949a784727c949a30472649498b44726094987847268949830472509496b44724c949678472549496304723c9494b44723894947847240949430472289492b4472249492784722c949230472149490b4)
  (.lf 0)) (.nd (.lf
  0x2b0005aeecc2af905aeccc2af185aeacc2ae9c5ae8cc2ae285ae6cc2adb85ae4cc2ad485ae2cc2acd85ae0cc2ac605adecc2abec5adccc2ab745adacc2ab005ad8cc2aa885ad6cc2aa185ad4cc2a9ac5ad2cc2a9385ad0cc2a8c05acecc2a8485acccc2a7d85acacc2a7645ac8cc2a6e85ac6cc2a6805ac4cc2a6005ac2cc2b34c5afdd02b2d45afbd02b2645af9d02b1f05af7d02b1785af5d02b1005af3d02b0905af1d02b0245aefd02afb05aedd02af3c5aebd02aec45ae9d02ae485ae7d02add45ae5d02ad645ae3d02acf45ae1d02ac845adfd02ac0c5addd02ab985adbd02ab205ad9d02aaac5ad7d02aa385ad5d02a9c85ad3d02a95c5ad1d02a8e85acfd02a8705acdd02a7f85acbd02a7885ac9d02a7105ac7d02a6945ac5d02a6105ac3d02a5c45ac11029d185bfecc29cbc5bfccc29d2c5bfacc29cd05bf8cc29c745bf6cc29c1c5bf4cc29bc45bf2cc29b6c5bf0cc29b145beecc29abc5beccc)
  (.lf 0)))

def shaWireTree246 : BTree :=
  .nd (.nd (.nd (.lf
  0x34d7c7d8c3034d647d8a7834d607d8ab434d687d8a30348547d887834d547d88b434d587d883033abc7d867833a507d86b4348487d863033a387d8478339b87d84b433a407d8430339ac7d8278339307d82b4339b07d823036fb4817c7836fb8817cb436fbc817c3036fa0817a7836fa4817ab436fa8817a3036f9081787836f8c8178b436f9481783036f7c81767836eb08176b436f8081763036e5081747836e488174b436ea881743036e3c81727836e388172b436e4081723036e2881707836e2c8170b436e3081703036e14816e7836e18816eb436e1c816e3036e00816c7836e04816cb436e08816c3036dc8816a7836dc4816ab436dcc816a3036d9881687836db88168b436dbc81683036d2081667836d8c8166b436d9081663036d0c81647836d108164b436d1481643036cfc81627836d008162b436d0481623036ce881607836cec8160b436cf081603036cd8815e7836cd4815eb436cdc815e30)
  (.lf 0)) (.nd (.lf
  0x3cff4909d2c3cfc8909b2c3cf9c90992c3cf7090972c3cf4490952c3cf1890932c3ceec90912c3cec0908f2c3ce94908d2c3ce68908b2c3ce3c90892c3ce1090872c3cde490852c3cdb890832c3cda89080cc473d894bf2c473c494bd2c473b094bb2c4739c94b92c4738894b72c4737494b52c4736094b32c4734c94b12c4733894af2c4732494ad2c4731094ab2c472fc94a92c472e894a72c472d494a52c472c094a32c472ac94a12c47298949f2c47284949d2c47270949b2c4725c94992c4724894972c4723494952c4722094932c4720c94912c471f8948f2c471e4948d2c471d0948b2c471bc94892c471a894872c4719494852c4718094832c4717c9480cc3dd8898bf2c3dd4c98bd2c3dd0498bb2c3dcc098b92c3dc7898b72c3dc3498b52c3dbf098b32c3dbac98b12c3db6898af2c3db2498ad2c3dae098ab2c3da9c98a92c3da5898a72c3da1498a52c3d9d098a32c3d98c98a12c3d948989f2c)
  (.lf 0))) (.nd (.nd (.lf
  0x51000aa6300507c0aa478050780aa4b4050800aa43004ffc0aa27804ff80aa2b4050000aa23004f7c0aa07804f780aa0b404f800aa03004efc0a9e7804ef80a9eb404f000a9e3004e740a9c7804e700a9cb404e780a9c3004de80a9a7804de40a9ab404dec0a9a3004d5c0a987804d580a98b404d600a983004cd00a967804ccc0a96b404cd40a963004c440a947804c400a94b404c480a943004bc00a927804bbc0a92b404bc40a923004b380a907804b340a90b404b3c0a903004aac0a8e7804aa80a8eb404ab00a8e3004a200a8c7804a1c0a8cb404a240a8c30049940a8a78049900a8ab4049980a8a30049100a88780490c0a88b4049140a8830048900a86780488c0a86b4048940a8630048080a8478048040a84b40480c0a84300477c0a8278047780a82b4047800a8230002d00a7cb4002cc0a7c78002d40a7c30002bc0a7ab4002b80a7a78002c00a7a30002a80a78b4002a40a7878002ac0a7830)
  (.lf 0)) (.nd (.lf
  0x6e840dacfd06e1ccdacdd06e1b4dacbd06e164dac9d06e144dac7d06dc88dac5d06dc04dac3d06dbc4dac1106d654dbfecc6d5a8dbfccc6d6b0dbfacc6d5ccdbf8cc6d574dbf6cc6d530dbf4cc6d570dbf2cc6d1d4dbf0cc6d08cdbeecc6d038dbeccc6cfc8dbeacc6ceacdbe8cc6cdc0dbe6cc6d668dbe4cc6d5c0dbe2cc6d578dbe0cc6d52cdbdecc6d534dbdccc6d1dcdbdacc6d074dbd8cc6d0d4dbd6cc6d0a4dbd4cc6d670dbd2cc6d5c8dbd0cc6d564dbcecc6d520dbcccc6d4dcdbcacc6d1e8dbc8cc6d0d0dbc6cc6d034dbc4cc6cfe0dbc2cc6da38dbfdd06da20dbfbd06da10dbf9d06da00dbf7d06d9ecdbf5d06d9d4dbf3d06d9c0dbf1d06d9b0dbefd06d99cdbedd06d7acdbebd06d798dbe9d06d784dbe7d06d770dbe5d06d75cdbe3d06d744dbe1d06d734dbdfd06d720dbddd06d704dbdbd06d6f4dbd9d06d6e4dbd7d06d6d0dbd5d06d6bcdbd3d06d5fcdbd1d06d5e8dbcfd06d5d8dbcdd0)
  (.lf 0)))

def shaWireTree247 : BTree :=
  .nd (.nd (.nd (.lf
  0x4b7749ae0784b7789ae0304b7249adeb44b6dc9ade784b7289ade304b6849adcb44b6d09adc784b6d49adc304b6789adab44b6349ada784b67c9ada304b5989ad8b44b55c9ad8784b59c9ad8304b5509ad6b44b4c89ad6784b5549ad6304b4549ad4b44b4bc9ad4784b4c09ad4304b4489ad2b44b4449ad2784b44c9ad2304b3d89ad0b44b3d49ad0784b3dc9ad0304b3609aceb44b35c9ace784b3649ace304b2ec9accb44b2089acc784b2f09acc304b1fc9acab44b1849aca784b2009aca304b1149ac8b44b1789ac8784b17c9ac8304b1089ac6b44b0a09ac6784b10c9ac6304b0289ac4b44b0949ac4784b0989ac4304b01c9ac2b44af289ac2784b0209ac2304c1589b3eaa4bd5c9b30aa4bc409b2eaa4bad09b2caa4b8689b22aa4b6e49b1eaa4b69c9b1caa4b4ec9b16aa4b37c9b10aa4b1989b0aaa4b0b49b06aa4b0309b04aa4c1d89b3d404bc389b2ff44bb789b2df44babc9b2b404b7489b2140)
  (.lf 0)) (.nd (.lf
  0x645b0ca932c645a8ca912c64580ca8f2c64564ca8d2c64550ca8b2c64584ca892c643b4ca872c643a4ca852c643a0ca832c64348ca80cc66bf8cebf2c66be8cebd2c66bd0cebb2c66bc0ceb92c66ba8ceb72c66bacceb52c66b84ceb32c66b6cceb12c66b58ceaf2c66b44cead2c66b34ceab2c66b24cea92c66b08cea72c66af0cea52c66ad8cea32c66ac4cea12c66ae8ce9f2c66b0cce9d2c66a90ce9b2c66a7cce992c66a68ce972c66a5cce952c66a40ce932c66a34ce912c66a18ce8f2c66a0cce8d2c669f0ce8b2c669e0ce892c669e4ce872c668b4ce852c6685cce832c66860ce80cc69314d2bf2c693d4d2bd2c692f4d2bb2c692d4d2b92c692dcd2b72c692b0d2b52c693d0d2b32c6928cd2b12c69280d2af2c69264d2ad2c69250d2ab2c693acd2a92c69228d2a72c69258d2a52c69204d2a32c691fcd2a12c691dcd29f2c692e4d29d2c691b8d29b2c691a8d2992c69190d2972c6917cd2952c)
  (.lf 0))) (.nd (.nd (.lf
  0x6cb94da20506caecda1e506c850da1c506c834da1a506c818da18506c7f4da16506c714da14506ceb8da12506c0a0da10506c060da0e506c064da0c506c07cda0a506c024da08506c000da06506bcc0da04506bc1cda02506b8d4da00506d638de3e786d428de3c786d3f4de3a786d2d0de38786d294de36786d198de34786d0f4de32786d0bcde30786d000de2e786ce00de2c786cd68de2a786ce30de28786cc9cde26786cc18de24786cbc0de22786cb9cde20786caf4de1e786c858de1c786c83cde1a786c820de18786c7fcde16786c71cde14786cec4de12786c0a8de10786c070de0e786c074de0c786c084de0a786c02cde08786c008de06786bcc8de04786bc24de02786b8dcde00786f8b0de3e506f80cde3c506f8e4de3a506f7bcde38506f784de36506f844de34506f708de32506f718de30506f6a8de2e506f6c8de2c506f65cde2a506f648de28506f614de26506f5a8de24506f578de2250)
  (.lf 0)) (.nd (.lf
  0x610d0c891d0610b8c88fd0610a4c88dd061094c88bd061080c889d061064c887d061050c885d06103cc883d061028c8811064d64c87ecc64d6cc87ccc64d74c87acc64df0c878cc64df8c876cc64e00c874cc64e08c872cc64e10c870cc64e18c86ecc64e20c86ccc64e28c86acc64e30c868cc64e38c866cc64e40c864cc64e48c862cc64e50c860cc64e58c85ecc64e60c85ccc64e68c85acc64e70c858cc64e78c856cc64e80c854cc64e88c852cc64e90c850cc64e98c84ecc64ea0c84ccc64ea8c84acc64eb0c848cc64eb8c846cc64ec0c844cc64ec8c842cc6597cc87dd065968c87bd065928c879d0658fcc877d0658ecc875d0658d8c873d0658c4c871d0658b0c86fd06589cc86dd06584cc86bd0657fcc869d0657acc867d065768c865d065730c863d0656f8c861d0656b0c85fd065660c85dd065610c85bd0655c0c859d065570c857d065528c855d0654a8c853d065424c851d0653a4c84fd0)
  (.lf 0)))

def shaWireTree248 : BTree :=
  .nd (.nd (.nd (.lf
  0x88c421bf2c0887421bd2c087d021bb2c0874421b92c086b821b72c0865821b52c085d821b32c0852c21b12c084cc21af2c0842021ad2c083c021ab2c0831421a92c082b421a72c0820821a52c0817c21a32c0811c21a12c08070219f2c07fe4219d2c07f84219b2c07f0421992c07e8421972c07e0421952c07d5821932c07cf821912c07c78218f2c07bcc218d2c07b6c218b2c07ac021892c07a3421872c079d421852c0792821832c078ec2180cc0a1a825bf2c0a13425bd2c0a0d425bb2c0a02825b92c09f9c25b72c09f3c25b52c09ebc25b32c09e1025b12c09d8425af2c09cf825ad2c09c6c25ab2c09be025a92c09b8025a72c09b0025a52c09a8025a32c099d425a12c09974259f2c098f4259d2c09874259b2c097c825992c0976825972c096e825952c0966825932c095bc25912c09530258f2c094a4258d2c09418258b2c0938c25892c0932c25872c092ac25852c0922c25832c091cc2580cc)
  (.lf
  0x19bf4449dd019be0449bd019bcc4499d019bb84497d019ba44495d019b904493d019b7c4491d019b68448fd019b54448dd019b40448bd019b2c4489d019b184487d019b044485d019af04483d019ad844811019d40447ecc19d48447ccc19d50447acc19dcc4478cc19dd44476cc19ddc4474cc19de44472cc19dec4470cc19df4446ecc19dfc446ccc19e04446acc19e0c4468cc19e144466cc19e1c4464cc19e244462cc19e2c4460cc19e34445ecc19e3c445ccc19e44445acc19e4c4458cc19e544456cc19e5c4454cc19e644452cc19e6c4450cc19e74444ecc19e7c444ccc19e84444acc19e8c4448cc19e944446cc19e9c4444cc19ea44442cc1a6b8447dd01a67c447bd01a6384479d01a5f44477d01a5b04475d01a56c4473d01a5284471d01a4e4446fd01a4a0446dd01a45c446bd01a4184469d01a3d44467d01a3904465d01a34c4463d01a3084461d01a2c4445fd01a280445dd01a23c445bd0))
  (.nd (.lf
  0x6cb2cdfa0786cad4df9e786ca58df9c786c8dcdf9a786c884df98786c8b8df96786c6e4df94786c138df92786bfe8df90786bfb4df8e786beccdf8c786be3cdf8a786bdb4df88786bd24df86786bcacdf84786bc10df82786b8c0df80786f3d0dfbe306f3f8dfbc306f394dfba306f360dfb8306f328dfb6306f2f0dfb4306f2b4dfb2306f444dfb0306f258dfae306f220dfac306f1f4dfaa306f474dfa8306f1bcdfa6306f188dfa4306f5c8dfa2306f150dfa0306f0fcdf9e306f114df9c306f0ccdf9a306f098df98306f074df96306f04cdf94306f02cdf92306f004df90306efe0df8e306efc8df8c306f134df8a306e7dcdf88306e7b4df86306e27cdf84306e208df82306e248df80307777ce3beb477720e3bcb4774e0e3bab477464e3b8b4771d0e3b6b477074e3b4b476f84e3b2b476ef0e3b0b476df4e3aeb476db4e3acb476ce4e3aab476c74e3a8b476bc8e3a6b476b30e3a4b476ac0e3a2b4)
  (.lf 0))) (.nd (.nd (.lf
  0x2d39463c6b42d39c63c6302d38463c4782d38063c4b42d38863c4302d37063c2782d1b863c2b42d37463c2302f90866bc782f90466bcb42f90c66bc302f8f466ba782f8f066bab42f8f866ba302f8e066b8782f8dc66b8b42f8e466b8302f8cc66b6782f8c866b6b42f8d066b6302f8b866b4782f8b466b4b42f8bc66b4302f8a466b2782f8a066b2b42f8a866b2302f89066b0782f88c66b0b42f89466b0302f87c66ae782f87866aeb42f88066ae302f86866ac782f86466acb42f86c66ac302f85466aa782f85066aab42f85866aa302f84066a8782f83c66a8b42f84466a8302f82c66a6782f82866a6b42f83066a6302f81866a4782f81466a4b42f81c66a4302f80466a2782f80066a2b42f80866a2302f7f066a0782f7ec66a0b42f7f466a0302f7dc669e782f7d8669eb42f7e0669e302f7c8669c782f7c4669cb42f7cc669c302f7b4669a782f7b0669ab42f7b8669a302f7a06698782f79c6698b4)
  (.lf 0)) (.nd (.lf
  0x811d0086ecc81174086ccc81128086acc811000868cc8105c0866cc810d00864cc810580862cc810840860cc80fb4085ecc80ea4085ccc80e88085acc80e500858cc80e340856cc80e000854cc80de00852cc80da80850cc80db0084ecc80d64084ccc80eec084acc7f4380848cc7f41c0846cc7f3040844cc7f29c0842cc816a4087dd081690087bd0816080879d0815f40877d0815e00875d0814880873d0814740871d081460086fd0811a0086dd081150086bd0811140869d0810c80867d0810b40865d0810a40863d08108c0861d081040085fd080f9c085dd080f8c085bd080f780859d080f640857d080f500855d080f3c0853d080f280851d080f14084fd080f00084dd080edc084bd07f4700849d07f45c0847d07f3240845d07f2d80843d07f0340841107ec780c7ecc7ec540c7ccc7ec1c0c7acc7eb440c78cc7eb540c76cc7ebb80c74cc7ed140c72cc7ea8c0c70cc7eae40c6ecc7eadc0c6ccc)
  (.lf 0)))

def shaWireTree249 : BTree :=
  .nd (.nd (.nd (.lf
  0x7bafcf67cb47bb04f67c787bb08f67c307baf0f67ab47bae8f67a787baf4f67a307bad8f678b47badcf678787bae0f678307babcf676b47bac0f676787bac4f676307baacf674b47bab0f674787bab4f674307baa0f672b47ba98f672787baa4f672307ba88f670b47ba84f670787ba90f670307ba78f66eb47ba70f66e787ba7cf66e307ba60f66cb47ba5cf66c787ba64f66c307ba4cf66ab47ba50f66a787ba54f66a307ba34f668b47ba38f668787ba40f668307ba28f666b47ba20f666787ba2cf666307ba0cf664b47ba14f664787ba18f664307ba00f662b47b9f8f662787ba04f662307b9e4f660b47b9ecf660787b9f0f660307b9d4f65eb47b9d0f65e787b9d8f65e307b9c4f65cb47b9bcf65c787b9c8f65c307b9a8f65ab47b9b0f65a787b9b4f65a307b99cf658b47b998f658787b9a0f658307b988f656b47b984f656787b98cf656307b974f654b47b96cf654787b978f654307b960f652b4)
  (.lf 0)) (.nd (.lf
  0x6848cd39dd06841cd39bd06836cd399d0682dcd397d068288d395d067b00d393d067a10d391d0679c4d38fd067730d38dd0676b8d38bd06765cd389d067618d387d0674c4d385d067428d383d0673ccd381d06add0d7bfd06ae04d7bdd06ad70d7bbd06acc4d7b9d06ac18d7b7d06abacd7b5d06ab58d7b3d06ab0cd7b1d06aaacd7afd06aa6cd7add06a99cd7abd06a954d7a9d06a8fcd7a7d06a8ccd7a5d06a87cd7a3d06a848d7a1d06a818d79fd06a9c8d79dd06a7acd79bd06a788d799d06a738d797d06a758d795d06a6b0d793d06a4d4d791d06a4ecd78fd06a18cd78dd069fc8d78bd069ff0d789d069f2cd787d069e98d785d069628d783d069578d781d06d64cdbbfd06d5a4dbbdd06d548dbbbd06d504dbb9d06d4b8dbb7d06d1c0dbb5d06d05cdbb3d06d018dbb1d06cfb4dbafd06ce5cdbadd06cda8dbabd06ce9cdba9d06cd1cdba7d06cc2cdba5d06cb54dba3d06cb28dba1d06cad0db9fd0)
  (.lf 0))) (.nd (.nd (.lf
  0x57da0b04e3057d70b04cb457d6cb04c7857d74b04c3057d44b04ab457d40b04a7857d48b04a3057d18b048b457d14b0487857d1cb0483057cecb046b457ce8b0467857cf0b0463057cc0b044b457cbcb0447857cc4b0443057c94b042b457c90b0427857c98b042305817cb03cb45815cb03c7858180b03c3058150b03ab458130b03a7858154b03a3058124b038b458104b0387858128b03830580f8b036b4580d8b03678580fcb03630580ccb034b4580acb03478580d0b03430580a0b032b458080b03278580a4b0323058074b030b458054b0307858078b0303058048b02eb458028b02e785804cb02e305801cb02cb457ffcb02c7858020b02c3057ff0b02ab457fd0b02a7857ff4b02a3057fc4b028b457fa4b0287857fc8b0283057f98b026b457f78b0267857f9cb0263057f6cb024b457f4cb0247857f70b0243057f40b022b457f20b0227857f44b0223057f14b020b457ef4b0207857f18b02030)
  (.lf 0)) (.nd (.lf
  0x39ef47adecc39edc7adccc39ec47adacc39eac7ad8cc39e947ad6cc39e7c7ad4cc39e647ad2cc39e4c7ad0cc39e347acecc399387acccc3a0047acacc3a0087ac8cc3a00c7ac6cc39f887ac4cc397f07ac2cc3a8207afdd03a80c7afbd03a7f87af9d03a7e47af7d03a7d07af5d03a7bc7af3d03a7a87af1d03a7947aefd03a77c7aedd03a7687aebd03a7547ae9d03a7407ae7d03a72c7ae5d03a7187ae3d03a6c07ae1d03a6ac7adfd03a6687addd03a6107adbd03a5bc7ad9d03a5587ad7d03a3947ad5d03a3807ad3d03a3647ad1d03a3507acfd03a3207acdd03a06c7acbd03a0587ac9d03a0407ac7d03a02c7ac5d03a0187ac3d0397c07ac1103afb87b3d403ab847b33f43aac87b31403a9907b2df43a9607b2b403a8f07b25403a8847b21403a5e87b1bf43a58c7b19403a4307b11f43a3dc7b0f403a0dc7b0b403a0b47b0740390707bfecc38fe47bfccc390807bfacc38ff87bf8cc38f987bf6cc)
  (.lf 0)))

def shaWireTree250 : BTree :=
  .nd (.nd (.nd (.lf
  0x4d8f0ad5ab44d8f4ad5a304d7a8ad58784d898ad58b44d89cad58304d714ad56784d79cad56b44d7a0ad56304d6c0ad54784d708ad54b44d70cad54304d688ad52784d6b4ad52b44d6b8ad52304d600ad50784d67cad50b44d680ad50304d5acad4e784d5f4ad4eb44d5f8ad4e304d534ad4c784d5a0ad4cb44d5a4ad4c304d47cad4a784d528ad4ab44d52cad4a304d470ad48784d46cad48b44d474ad48304d45cad46784d458ad46b44d460ad46304d318ad44784d448ad44b44d44cad44304d220ad42784d30cad42b44d310ad42304e648adbc784e644adbcb44e64cadbc304e634adba784e630adbab44e638adba304e620adb8784e61cadb8b44e624adb8304e60cadb6784e608adb6b44e610adb6304e5f8adb4784e5f4adb4b44e5fcadb4304e5e4adb2784e5e0adb2b44e5e8adb2304e5d0adb0784e5ccadb0b44e5d4adb0304e5bcadae784e5b8adaeb44e5c0adae304e5a8adac784e5a4adacb4)
  (.lf 0)) (.nd (.lf
  0x697f4d05d2c697a0d05b2c69784d0592c69774d0572c699acd0552c6973cd0532c69724d0512c6970cd04f2c697fcd04d2c696ccd04b2c696b8d0492c696d4d0472c695d4d0452c695a4d0432c69548d040cc6bba0d47f2c6bb8cd47d2c6bb4cd47b2c6bb58d4792c6bb20d4772c6bb28d4752c6bafcd4732c6bae0d4712c6bac8d46f2c6baacd46d2c6ba98d46b2c6bab0d4692c6ba74d4672c6ba64d4652c6ba4cd4632c6ba38d4612c6ba20d45f2c6ba10d45d2c6b9f0d45b2c6b9d0d4592c6b9bcd4572c6b99cd4552c6b988d4532c6b96cd4512c6b95cd44f2c6b944d44d2c6b934d44b2c6b91cd4492c6b904d4472c6b8ecd4452c6bbacd4432c6b884d440cc6e600d87f2c6dff4d87d2c6e004d87b2c6dfc8d8792c6e00cd8772c6dfa0d8752c6df88d8732c6df74d8712c6df5cd86f2c6df40d86d2c6df2cd86b2c6df14d8692c6e328d8672c6dedcd8652c6dec8d8632c6deb4d8612c6dea0d85f2c)
  (.lf 0))) (.nd (.nd (.lf
  0xa5bc1bceb40a5c41bce300a5ac1bcc780a5a81bccb40a5b01bcc300a5981bca780a5941bcab40a59c1bca300a5841bc8780a5801bc8b40a5881bc8300a5701bc6780a56c1bc6b40a5741bc6300a55c1bc4780a5581bc4b40a5601bc4300a5481bc2780a5441bc2b40a54c1bc2300d3241ebc780d3201ebcb40d3281ebc300d2b41eba780d2b01ebab40d2b81eba300d22c1eb8780d2281eb8b40d2301eb8300d1a81eb6780d1a41eb6b40d1ac1eb6300d1201eb4780d11c1eb4b40d1241eb4300d09c1eb2780d0981eb2b40d0a01eb2300d0141eb0780d0101eb0b40d0181eb0300cf881eae780cf841eaeb40cf8c1eae300cf041eac780cf001eacb40cf081eac300ce841eaa780ce801eaab40ce881eaa300ce041ea8780ce001ea8b40ce081ea8300cd7c1ea6780cd781ea6b40cd801ea6300ccf01ea4780ccec1ea4b40ccf41ea4300cc641ea2780cc601ea2b40cc681ea2300cbe01ea0780cbdc1ea0b4)
  (.lf 0)) (.nd (.lf
  0x81498fbdecc81a54fbdccc815a0fbdacc81274fbd8cc81384fbd6cc81390fbd4cc813e8fbd2cc814a0fbd0cc814f4fbcecc81434fbcccc814b0fbcacc8159cfbc8cc81534fbc6cc81398fbc4cc811d4fbc2cc81a48fbfdd081a34fbfbd081a20fbf9d081a0cfbf7d0819f8fbf5d0819e4fbf3d0819d0fbf1d0819c0fbefd0819a8fbedd081998fbebd081984fbe9d081970fbe7d081958fbe5d081944fbe3d081920fbe1d081910fbdfd0818fcfbddd0818dcfbdbd0818ccfbd9d081894fbd7d081748fbd5d081738fbd3d081728fbd1d081710fbcfd081700fbcdd0816b0fbcbd081634fbc9d08152cfbc7d0813acfbc5d0811e8fbc3d081190fbc11082944febecc8289cfebccc825a0febacc82574feb8cc822acfeb6cc822b4feb4cc82920feb2cc825f8feb0cc825bcfeaecc8257cfeaccc8224cfeaacc82938fea8cc82604fea6cc825acfea4cc828dcfea2cc8229cfea0cc821ecfe9ecc82138fe9ccc)
  (.lf 0)))

def shaWireTree251 : BTree :=
  .nd (.nd (.nd (.lf
  0x54ba8aeac7854bb0aeacb454bb4aeac3054b9caeaa7854b94aeaab454ba0aeaa3054b88aea87854b80aea8b454b8caea83054b74aea67854b6caea6b454b78aea63054b60aea47854b5caea4b454b64aea43054b48aea27854b44aea2b454b4caea23054b38aea07854b34aea0b454b3caea03054b20ae9e7854b1cae9eb454b28ae9e3054b00ae9c7854afcae9cb454b14ae9c3054af0ae9a7854ae8ae9ab454af4ae9a3054ad8ae987854ad0ae98b454adcae983054ac4ae967854ac0ae96b454ac8ae963054ab0ae947854ab4ae94b454ab8ae943054aa0ae927854aa4ae92b454aa8ae923054a90ae907854a88ae90b454a94ae903054a7cae8e7854a78ae8eb454a80ae8e3054a60ae8c7854a68ae8cb454a6cae8c3054a50ae8a7854a54ae8ab454a58ae8a3054a38ae887854a40ae88b454a44ae883054a24ae867854a2cae86b454a30ae863054874ae847854a18ae84b454a1cae843054810ae8278)
  (.lf 0)) (.nd (.lf
  0x65448ca532c653d0ca512c65350ca4f2c652e4ca4d2c65224ca4b2c6509cca492c6503cca472c64ffcca452c64f90ca432c64f2cca40cc67fa4ce7f2c67f8cce7d2c67facce7b2c67f6cce792c6862cce772c685f4ce752c68638ce732c685e8ce712c68600ce6f2c67f00ce6d2c67ee8ce6b2c67ed0ce692c67ebcce672c67ea4ce652c68240ce632c68234ce612c67e6cce5f2c68454ce5d2c683d0ce5b2c67e38ce592c67e24ce572c68248ce552c67aacce532c67570ce512c6755cce4f2c67544ce4d2c67530ce4b2c6751cce492c67504ce472c67484ce452c672a0ce432c673acce40cc6a394d27f2c6a380d27d2c6a368d27b2c6ac68d2792c6a35cd2772c6a32cd2752c6a310d2732c6a2f8d2712c6a2e0d26f2c6a2c4d26d2c6a3a0d26b2c6a2a4d2692c6a288d2672c6a264d2652c6a24cd2632c6a228d2612c6a270d25f2c6a208d25d2c6a1f0d25b2c6a1dcd2592c6a1c8d2572c6a1b4d2552c)
  (.lf 0))) (.nd (.nd (.lf
  0x5b600001d815b604001d7f5b798001d7d5b504001d7b5b464001d795b40c001d775b3d4001d755b33c001d735ae80001d715ae48001d6f5ae1c001d6d5ad48001d6b5ab58001d695ab5c001d675ab60001d655aaac001d635aa1c001d615d558001d5f5d55c001d5d5d498001d5b5d420001d595d3d4001d575d360001d555e060001d535dfbc001d515df3c001d4f5ddf0001d4d5ddf4001d4b5e064001d495dfc0001d475df40001d455ddf8001d435ddfc001d415dc44001d3f5dc48001d3d5dbb8001d3b5db70001d395db94001d375d9d4001d355d924001d335d8f0001d315d8f4001d2f5d81c001d2d5d7b4001d2b5d714001d295d6b0001d275d6b4001d255d62c001d235d5b4001d215f29c001d1f5f238001d1d5f1ac001d1b5f16c001d195f170001d175efe0001d15602e4001d1360290001d11600f8001d0f600fc001d0d60100001d0b602e8001d0960294001d0760104001d0560108001d03)
  (.lf 0)) (.nd (.lf
  0x73998f48dd073988f48bd073974f489d073960f487d07394cf485d073938f483d07379cf48110745f4f47ecc745fcf47ccc74604f47acc74680f478cc74688f476cc74690f474cc74698f472cc746a0f470cc746a8f46ecc746b0f46ccc746b8f46acc746c0f468cc746c8f466cc746d0f464cc746d8f462cc746e0f460cc746e8f45ecc746f0f45ccc746f8f45acc74700f458cc74708f456cc74710f454cc74718f452cc74720f450cc74728f44ecc74730f44ccc74738f44acc74740f448cc74748f446cc74750f444cc74758f442cc74ad0f47dd074ab8f47bd074aa0f479d074a8cf477d074a74f475d074a50f473d074a40f471d074a28f46fd074a14f46dd0749ecf46bd0749dcf469d0749c8f467d0749b8f465d0749a0f463d074988f461d074970f45fd074958f45dd074940f45bd074928f459d074910f457d0748f8f455d0748e0f453d0748c8f451d0748b0f44fd07488cf44dd0747ecf44bd0)
  (.lf 0)))

def shaWireTree252 : BTree :=
  .nd (.nd (.nd (.lf
  0x8302909783082fbd09767882fb90976b482fc109763082fa909747882fad0974b482fb109743082f9909727882f9d0972b482fa109723082a29097078829b90970b482a2d09703082465096e7882319096eb4829b1096e3082301096c7882305096cb482309096c30822f1096a78822f5096ab4822f9096a30822e5096878822550968b4822e9096830820dd096678820e10966b4820ed09663081ea1096478820d10964b4820d509643081e1509627881e950962b481e9909623081d5509607881e090960b481e0d09603081d3d095e7881d49095eb481d4d095e3081d19095c7881d21095cb481d25095c3081965095a7881d01095ab481d05095a30818a9095878818890958b4818ad0958308187d095678818310956b48188109563081805095478818090954b48180d095430817dd095278817a50952b4817e109523081795095078817990950b48179d09503081771094e78816ed094eb48177d094e30)
  (.lf 0)) (.nd (.lf
  0x136f833a030136fc339e3013700339c3013704339a30137083398301370c3396301371033943013714339230137183390301371c338e3013720338c3013724338a30137283388301372c338630137303384301373433823013738338030151c037beb41516837bcb41511037bab4150b837b8b41506037b6b41500837b4b414fb037b2b414f5837b0b414f0037aeb414ebc37acb414e8437aab414e5837a8b414e3037a6b414e0437a4b414ddc37a2b414db437a0b414d8c379eb414d64379cb414d3c379ab414b943798b414b6c3796b414b483794b414b243792b414b003790b414adc378eb414ab8378cb414a94378ab414a703788b414a4c3786b414a283784b414a043782b4149743780b4137bc37be78137c037bc78137c437ba78137c837b878137cc37b678137d037b478137d437b278137d837b078137dc37ae78137e037ac78137e437aa78137e837a878137ec37a678137f037a478137f437a278)
  (.lf 0))) (.nd (.nd (.lf
  0x17c343fca3017c1c3fc87817c183fc8b417c203fc83017c083fc67817c043fc6b417c0c3fc63017bf43fc47817bf03fc4b417bf83fc43017be03fc27817bdc3fc2b417be43fc2301997442bc781997042bcb41997842bc301996042ba781995c42bab41996442ba301994c42b8781994842b8b41995042b8301993842b6781993442b6b41993c42b6301992442b4781992042b4b41992842b4301991042b2781990c42b2b41991442b230198fc42b078198f842b0b41990042b030198e842ae78198e442aeb4198ec42ae30198d442ac78198d042acb4198d842ac30198c042aa78198bc42aab4198c442aa30198ac42a878198a842a8b4198b042a8301989842a6781989442a6b41989c42a6301988442a4781988042a4b41988842a4301987042a2781986c42a2b41987442a2301985c42a0781985842a0b41986042a03019848429e7819844429eb41984c429e3019834429c7819830429cb419838429c30)
  (.lf 0)) (.nd (.lf
  0x3e65c8db6cc3e63c8db4cc3e62c8db2cc3e6188db0cc3e6048daecc3e5ec8daccc3e5d48daacc3e5bc8da8cc3e5a48da6cc3e58c8da4cc3e5788da2cc3e5648da0cc3e5488d9ecc3e5348d9ccc3e51c8d9acc3e5048d98cc3e4ec8d96cc3e4dc8d94cc3e4c08d92cc3e4ac8d90cc3e4948d8ecc3e4788d8ccc3e4588d8acc3e6b88d88cc3e6e08d86cc3e3ec8d84cc3e3288d82cc3e9408dbdd03e92c8dbbd03e9188db9d03e9048db7d03e8f08db5d03e8dc8db3d03e8cc8db1d03e8b88dafd03e8a48dadd03e8908dabd03e8788da9d03e8688da7d03e8548da5d03e8408da3d03e82c8da1d03e8148d9fd03e8008d9dd03e7ec8d9bd03e7d88d99d03e7c88d97d03e7b48d95d03e79c8d93d03e7888d91d03e7748d8fd03e7608d8dd03e74c8d8bd03e73c8d89d03e7188d87d03e3fc8d85d03e35c8d83d03e3448d811040bdc917ecc40be4917ccc40bb4917acc40c249178cc40aac9176cc40a849174cc)
  (.lf 0)))

def shaWireTree253 : BTree :=
  .nd (.nd (.nd (.lf
  0x6a350d278786a354d278306a33cd276b46a340d276786a344d276306a330d274b46a328d274786a334d274306a31cd272b46a314d272786a320d272306a2fcd270b46a304d270786a308d270306a2e8d26eb46a2e4d26e786a2f0d26e306a2c8d26cb46a2ccd26c786a2d0d26c306a2b4d26ab46a2b8d26a786a2bcd26a306a2a8d268b46a2a0d268786a2acd268306a294d266b46a28cd266786a298d266306a268d264b46a27cd264786a280d264306a254d262b46a250d262786a25cd262306a22cd260b46a230d260786a234d260306a218d25eb46a21cd25e786a220d25e306a20cd25cb46a204d25c786a210d25c306a1f4d25ab46a1f8d25a786a1fcd25a306a1e0d258b46a1e4d258786a1e8d258306a1d0d256b46a1ccd256786a1d4d256306a1b0d254b46a1bcd254786a1c0d254306a1a4d252b46a134d252786a1a8d252306a118d250b46a114d250786a11cd250306a104d24eb46a108d24e78)
  (.lf 0)) (.nd (.lf
  0x6a7d0d31cb46a708d31ab46a6fcd318b46a6e4d3174a6a71cd3154a6a69cd312b46a490d310b46a480d30f4a6a154d30cb469fa0d30b4a69f70d3094a69ef8d306b469e5cd304b469614d3034a69560d300aa6d620d73eb46d38cd73d4a6d350d73ab46d2a8d738b46d26cd7374a6d170d7354a6cf60d7334a6cf38d730b46cf9cd72f4a6cde4d72d4a6cd50d72ab46cd30d7294a6cc78d7274a6cbe4d724b46caf8d722b46cadcd720b46cab8d71f4a6c7c0d71cb46c7a8d71b4a6c794d718b46c7dcd7174a6c6d4d714b46c120d7134a6bf70d710b46bf48d70eb46beacd70d4a6be18d70ab46bd90d708b46bd00d7074a6bc80d704b46bbd4d702aa6b8a0d6c0cc6eec0db3eb46eeb4db3d4a6ee94db3ab46ee7cdb394a6ee68db374a6ee4cdb34b46ee34db334a6ee18db314a6edf8db2f4a6edc8db2cb46edb8db2ab46edd0db294a6ed88db274a6ed94db254a6ed64db22b46ed50db20b46ed38db1f4a)
  (.lf 0))) (.nd (.nd (.lf
  0x1e4f4746c781e4fc746c301e4e4746ab41e4e0746a781e4e8746a301e4d07468b41e4cc7468781e4d47468301e4bc7466b41e4b87466781e4c07466301e4a87464b41e4a47464781e4ac7464301e4947462b41e4907462781e4987462301e4807460b41e47c7460781e4847460301e46c745eb41e468745e781e470745e301e458745cb41e454745c781e45c745c301e444745ab41e440745a781e448745a301e4307458b41e42c7458781e4347458301e41c7456b41e4187456781e4207456301e4087454b41e4047454781e40c7454301e3f47452b41e3f07452781e3f87452301e3e07450b41e3dc7450781e3e47450301e3cc744eb41e3c8744e781e3d0744e301e3b8744cb41e3b4744c781e3bc744c301e3a4744ab41e3a0744a781e3a8744a301e3907448b41e38c7448781e3947448301e37c7446b41e3787446781e3807446301e3687444b41e3647444781e36c7444301e3547442b41e350744278)
  (.lf 0)) (.nd (.lf
  0x113443a57d0112c83a55d0112383a53d0111bc3a51d0111303a4fd0110a03a4dd0110243a4bd010f983a49d010f0c3a47d010e803a45d010e043a43d010da43a4110172b03afecc172783afccc1723c3afacc171f83af8cc171b03af6cc171703af4cc171303af2cc170ec3af0cc170a83aeecc170643aeccc170283aeacc16fe83ae8cc16fa43ae6cc16f603ae4cc16f243ae2cc16eec3ae0cc16eb43adecc16e7c3adccc16e403adacc16e043ad8cc16dc83ad6cc16d843ad4cc16d3c3ad2cc16cfc3ad0cc16cbc3acecc16c803acccc16c403acacc16c043ac8cc16bcc3ac6cc16b8c3ac4cc16b483ac2cc172983afdd01725c3afbd0172203af9d0171dc3af7d0171943af5d0171543af3d0171143af1d0170d03aefd01708c3aedd0170483aebd01700c3ae9d016fcc3ae7d016f883ae5d016f443ae3d016f083ae1d016ed03adfd016e983addd016e603adbd016e243ad9d016de83ad7d016dac3ad5d0)
  (.lf 0)))

def shaWireTree254 : BTree :=
  .nd (.nd (.nd (.lf
  0x20b7851b87820b8c51b8b420b9051b83020b6c51b67820b6851b6b420b7051b63020b4c51b47820b4851b4b420b5051b43020b2c51b27820b2851b2b420b3051b23020b0c51b07820b0851b0b420b1051b03020aec51ae7820ae851aeb420af051ae3020acc51ac7820ac851acb420ad051ac30209a451aa78209a051aab4209a851aa302099051a8782098c51a8b42099451a8302097c51a6782097851a6b42098051a6302096851a4782096451a4b42096c51a4302095451a2782095051a2b42095851a2302094051a0782093c51a0b42094451a0302092c519e7820928519eb420930519e3020918519c7820914519cb42091c519c3020904519a7820900519ab420908519a30208f0519878208ec5198b4208f4519830208dc519678208d85196b4208e0519630208c8519478208c45194b4208cc519430208b4519278208b05192b4208b8519230208a05190782089c5190b4208a45190302088c518e78)
  (.lf 0)) (.nd (.lf
  0x26cf40043fd26cfc0043fb26d040043f926d0c0043f726d140043f526d1c0043f326d240043f126d2c0043ef26d340043ed26d3c0043eb26d440043e926d4c0043e726d540043e526d5c0043e326d640043e11b7f00043df1b7f80043dd1b8000043db1b8080043d91b8100043d71b8180043d51b8200043d31b8280043d11b8300043cf1b8380043cd1b8980043cb1b8a00043c91b8a80043c71b8b00043c51b8b80043c31b8c00043c11b8c80043bf1b8d00043bd1b8d80043bb1b8e00043b91b8e80043b71b8f00043b51b8f80043b31b9000043b11b9080043af1b9100043ad1b9180043ab1b9200043a91b9280043a71b9300043a51b9380043a31b9400043a12a45800439f2a46000439d2a46800439b2a4700043992a4780043972a4800043952a4880043932a4900043912a49800438f2a4a000438d2a50000438b2a5080043892a5100043872a5180043852a5200043832a5280043812a53000437f)
  (.lf 0))) (.nd (.nd (.lf
  0x7376cec2ab473768ec2a7873770ec2a3073754ec28b473750ec28787375cec283073744ec26b473740ec267873748ec263073730ec24b473728ec247873734ec2430735bcec22b4735a0ec2278735ccec223073594ec20b47358cec207873598ec203073580ec1eb473548ec1e7873584ec1e307353cec1cb47350cec1c7873540ec1c30734ecec1ab4734c8ec1a78734f0ec1a30734bcec18b4734a0ec1878734c0ec183073490ec16b473494ec167873498ec163073480ec14b47345cec147873484ec14307344cec12b473450ec127873454ec1230733f4ec10b473440ec107873444ec1030733c8ec0eb47339cec0e78733ccec0e3073390ec0cb473388ec0c7873394ec0c307337cec0ab473378ec0a7873380ec0a3073350ec08b47336cec087873370ec083073338ec06b473340ec067873344ec06307332cec04b473328ec047873330ec043073318ec02b473314ec02787331cec023072f1cf0bcb4)
  (.lf 0)) (.nd (.lf
  0x5c7a8bad9d05c760bad7d05c728bad5d05c6e4bad3d05c6a0bad1d05c658bacfd05c620bacdd05c5e0bacbd05c5ccbac9d05c5b8bac7d05c59cbac5d05c4a4bac3d05c2acbac1105e040bb3df45df78bb3bf45dd54bb39f45dd28bb37405daf4bb33405d838bb25f45d824bb23f45d7bcbb21405d634bb19f45d5ccbb17405d4b8bb13405d448bb0ff45d3e4bb0d405d218bb03405bf70bbfecc5bf24bbfccc5bf6cbbfacc5bf20bbf8cc5bdecbbf6cc5bde8bbf4cc5be70bbf2cc5be24bbf0cc5be6cbbeecc5be20bbeccc5bd08bbeacc5bd04bbe8cc5bd00bbe6cc5bf68bbe4cc5bf1cbbe2cc5bde4bbe0cc5bde0bbdecc5bddcbbdccc5bcfcbbdacc5be68bbd8cc5be1cbbd6cc5bcf8bbd4cc5bf64bbd2cc5bf18bbd0cc5bdd8bbcecc5bdd4bbcccc5bdd0bbcacc5bcf4bbc8cc5be64bbc6cc5be18bbc4cc5bcf0bbc2cc5c120bbfdd05c110bbfbd05c0fcbbf9d05c0e8bbf7d05c0d4bbf5d05c0c0bbf3d0)
  (.lf 0)))

def shaWireTree255 : BTree :=
  .nd (.nd (.nd (.lf
  0x441ac8abab4441b08aba3043c6c8ab87843c5c8ab8b443c708ab83043c508ab67843c4c8ab6b443c548ab63043c348ab47843c388ab4b443c408ab43043c188ab27843c248ab2b443c288ab23043c0c8ab07843c088ab0b443c108ab03043bfc8aae7843bf88aaeb443c008aae3043be48aac7843be08aacb443be88aac3043aec8aaa7843b808aaab443bd08aaa3043ae08aa8784396c8aa8b443ae48aa8304395c8aa678439608aa6b4439648aa630439508aa4784394c8aa4b4439548aa430439208aa278438ac8aa2b4439248aa230438308aa078438a08aa0b4438a48aa030438188a9e78438148a9eb44381c8a9e30437148a9c78437188a9cb44371c8a9c30437008a9a78436608a9ab4437048a9a30434a88a9878434ac8a98b4434b08a98304349c8a9678434848a96b4434a08a9630434788a9478434408a94b44347c8a9430434308a92784342c8a92b4434348a9230433c48a9078434208a90b4)
  (.lf 0)) (.nd (.lf
  0x638d0ca13b063888ca11b063898ca0fb063868ca0db06386cca0bb063998ca09b062fe0ca07b062d30ca05b062cd8ca03b062c70ca01b06691cce3fb066920ce3db066924ce3bb066928ce39b066888ce37b0667e4ce35b0667c8ce33b06679cce31b0667a0ce2fb0667a4ce2db06663cce2bb06667cce29b06669cce27b06650cce25b066400ce23b0663dcce21b06633cce1fb066294ce1db066280ce1bb066218ce19b0661dcce17b065f9cce15b065f80ce13b065f58ce11b065f38ce0fb065e7cce0db065270ce0bb065154ce09b065124ce07b065104ce05b064fb8ce03b064f64ce01b069108d23fb068f5cd23db068db0d23bb068e28d239b068c18d237b068de8d235b068bd0d233b068960d231b068978d22fb0688ccd22db06890cd22bb068800d229b0687bcd227b068764d225b0686ccd223b0685d8d221b068590d21fb0684acd21db068404d21bb0683b4d219b068338d217b068270d215b0)
  (.lf 0))) (.nd (.nd (.lf
  0x29f345a205029f385a1e5029f3c5a1c5029f405a1a5029f445a185029f485a165029f4c5a145029f505a125029f545a105029f585a0e5029f5c5a0c5029f605a0a5029f645a085029f685a065029f6c5a045029f705a025029f745a005029ff85e3e7829ffc5e3c782a0005e3a782a0045e38782a0085e36782a00c5e34782a0105e32782a0145e30782a0185e2e782a01c5e2c782a0205e2a782a0245e28782a0285e26782a02c5e24782a0305e22782a0345e20782a0385e1e782a03c5e1c782a0405e1a782a0445e18782a0485e16782a04c5e14782a0505e12782a0545e10782a0585e0e782a05c5e0c782a0605e0a782a0645e08782a0685e06782a06c5e04782a0705e02782a0745e00782bfcc5e3e502bf745e3c502bf785e3a502bf7c5e38502bf805e36502bf845e34502bf885e32502be585e30502be5c5e2e502be605e2c502be645e2a502be685e28502be6c5e26502be705e24502be745e2250)
  (.lf 0)) (.nd (.lf
  0x49f249c95d049f109c93d049efc9c91d049ee89c8fd049ed49c8dd049ec09c8bd049eac9c89d049e989c87d049e849c85d049e709c83d049e589c81104cb109c7ecc4cb189c7ccc4cb209c7acc4cb9c9c78cc4cba49c76cc4cbac9c74cc4cbb49c72cc4cbbc9c70cc4cbc49c6ecc4cbcc9c6ccc4cbd49c6acc4cbdc9c68cc4cbe49c66cc4cbec9c64cc4cbf49c62cc4cbfc9c60cc4cc049c5ecc4cc0c9c5ccc4cc149c5acc4cc1c9c58cc4cc249c56cc4cc2c9c54cc4cc349c52cc4cc3c9c50cc4cc449c4ecc4cc4c9c4ccc4cc549c4acc4cc5c9c48cc4cc649c46cc4cc6c9c44cc4cc749c42cc4d1b09c7dd04d1889c7bd04d15c9c79d04d1309c77d04d1049c75d04d0d89c73d04d0ac9c71d04d0809c6fd04d0549c6dd04d0289c6bd04cffc9c69d04cfd09c67d04cfa49c65d04cf789c63d04cf4c9c61d04cf209c5fd04cef49c5dd04cec89c5bd04ce9c9c59d04ce709c57d04ce449c55d04ce189c53d0)
  (.lf 0)))

def shaWireTree256 : BTree :=
  .nd (.nd (.nd (.lf
  0xff000000000fd000000000fb000000000f9000000000f7000000000f5000000000f3000000000f1000000000ef000000000ed000000000eb000000000e9000000000e7000000000e5000000000e3000000000e1000000000df000000000dd000000000db000000000d9000000000d7000000000d5000000000d3000000000d1000000000cf000000000cd000000000cb000000000c9000000000c7000000000c5000000000c3000000000c1000000000bf000000000bd000000000bb000000000b9000000000b7000000000b5000000000b3000000000b1000000000af000000000ad000000000ab000000000a9000000000a7000000000a5000000000a3000000000a10000000009f0000000009d0000000009b00000000099000000000970000000009500000000093000000000910000000008f0000000008d0000000008b0000000008900000000087000000000850000000008300000000081)
  (.lf
  0x3d99898a1d03d954989fd03d90c989dd03d8c4989bd03d87c9899d03d8349897d03d7ec9895d03d7a49893d03d75c9891d03d714988fd03d6cc988dd03d688988bd03d6409889d03d5f89887d03d5b49885d03d5709883d03d5409881104a7fc987ecc4a804987ccc4a80c987acc4a8889878cc4a8909876cc4a8989874cc4a8a09872cc4a8a89870cc4a8b0986ecc4a8b8986ccc4a8c0986acc4a8c89868cc4a8d09866cc4a8d89864cc4a8e09862cc4a8e89860cc4a8f0985ecc4a8f8985ccc4a900985acc4a9089858cc4a9109856cc4a9189854cc4a9209852cc4a9289850cc4a930984ecc4a938984ccc4a940984acc4a9489848cc4a9509846cc4a9589844cc4a9609842cc4ae9c987dd04ae74987bd04ae489879d04ae1c9877d04adf09875d04adc49873d04ad989871d04ad6c986fd04ad40986dd04ad14986bd04ace89869d04acbc9867d04ac909865d04ac649863d04ac389861d04ac0c985fd0))
  (.nd (.lf
  0x24e644e205024e684e1e5024e6c4e1c5024e704e1a5024e744e185024e784e165024e7c4e145024e804e125024e844e105024e884e0e5024e8c4e0c5024e904e0a5024e944e085024e984e065024e9c4e045024ea04e025024ea44e005024f28523e7824f2c523c7824f30523a7824f3452387824f3852367824f3c52347824f4052327824f4452307824f48522e7824f4c522c7824f50522a7824f5452287824f5852267824f5c52247824f6052227824f6452207824f68521e7824f6c521c7824f70521a7824f7452187824f7852167824f7c52147824f8052127824f8452107824f88520e7824f8c520c7824f90520a7824f9452087824f9852067824f9c52047824fa052027824fa4520078266b4523e50266b8523c50266bc523a50266c0523850266c4523650266c8523450266cc523250266d0523050266d4522e50266d8522c50266dc522a50266e0522850266e4522650266e8522450266ec522250)
  (.lf 0))) (.nd (.nd (.lf
  0x41b1886c6b441af886c67841b4086c63041a9486c4b4419e886c47841ac086c430419dc86c2b4419d886c278419e086c2304258c873aaa425748736aa425ac8734aa424f88732aa424a08728aa423e08726aa423d88722aa423a08720aa41f64871aaa41d7c8710aa41ca0870aaa41b988708aa42e30873d4042dc08739404285c8735f44284c8733f442810873140426108727f4425c0872540424288721f4421a8871f404206887194041dd8870f4041bc08709f442dec873bf442e2c873ca042dc4873a1e42de4873ab442de8873a1442a808737f442c888738a04286087361e42a788736b442a7c8736144285487341e428508734b4428588734144284087321e428448732b442848873214426b0872f404280c8730a042690872d40426ac872ea042670872b404268c872ca0426208729f44266c872aa04261887281e426148728b44261c872814425c487261e426088726b44260c872614424788723f4)
  (.lf 0)) (.nd (.lf
  0x5675cb213b056638b211b05663cb20fb056640b20db056644b20bb056648b209b05664cb207b0561d0b205b0561d4b203b0561d8b201b05901cb63fb059020b63db059034b63bb058ff0b639b058fa8b637b058facb635b058fb0b633b058fb4b631b058fb8b62fb058fbcb62db058fc0b62bb058fc4b629b058ea8b627b058e50b625b058e54b623b058e58b621b058e5cb61fb058de4b61db058de8b61bb058d94b619b058d5cb617b058d60b615b058d64b613b058d10b611b058cf0b60fb058cc8b60db058ca0b60bb058ca4b609b058c58b607b058c68b605b0582bcb603b058244b601b05b740ba3fb05b730ba3db05b6b4ba3bb05b66cba39b05b5f0ba37b05b5d8ba35b05b788ba33b05b4c4ba31b05b45cba2fb05b41cba2db05b3ccba2bb05b330ba29b05ae78ba27b05ae34ba25b05ae14ba23b05ac1cba21b05ab48ba1fb05ab4cba1db05aaccba1bb05aa9cba19b05aa14ba17b05a9e0ba15b0)
  (.lf 0)))

def shaWireTree257 : BTree :=
  .nd (.nd (.nd (.lf
  0x18c004d447818bfc4d44b418c044d443018bec4d427818bf04d42b418bf44d423018bc44dbc7818bc04dbcb418bc84dbc3018bac4dba7818bb04dbab418bb44dba3018b944db87818b984db8b418b9c4db83018b884db67818b804db6b418b8c4db63018b744db47818b6c4db4b418b784db43018b5c4db27818b604db2b418b644db23018b4c4db07818b504db0b418b544db03018b384dae7818b3c4daeb418b404dae3018b284dac7818b204dacb418b2c4dac3018b0c4daa7818b084daab418b104daa3018af84da87818afc4da8b418b004da83018ae44da67818ae84da6b418aec4da63018ad04da47818ad44da4b418ad84da43018ac04da27818ac44da2b418ac84da23018aac4da07818ab04da0b418ab44da03018a9c4d9e7818a944d9eb418aa04d9e3018a804d9c7818a7c4d9cb418a884d9c3018a6c4d9a7818a684d9ab418a744d9a3018a5c4d987818a584d98b418a604d983018a444d9678)
  (.lf 0)) (.nd (.lf
  0x7515800457d7516000457b75168004579751700045777517800457575180004573751880045717519000456f7519800456d751a000456b751a8004569751b0004567751b8004565751c0004563751c80045617571000455f7571800455d7572000455b7579c004559757a4004557757ac004555757b4004553757bc004551757c400454f757cc00454d757d400454b757dc004549757e4004547757ec004545757f4004543757fc0045417580400453f7580c00453d7581400453b7581c004539758240045377582c004535758340045337583c0045317584400452f7584c00452d7585400452b7585c004529758640045277586c004525758740045237587c0045211ec5800451f1ec6000451d1ec6800451b1ec700045191ec780045171ec800045151ec880045131ec900045111ec9800450f1eca000450d1ed0000450b1ed080045091ed100045071ed180045051ed200045031ed280045011ed300044ff)
  (.lf 0))) (.nd (.nd (.lf
  0x72340ecb2b472344ecb2787234cecb23072330ecb0b47232cecb07872334ecb0307231cecaeb472318ecae7872320ecae3072308ecacb47230cecac7872310ecac30722fcecaab4722f4ecaa7872300ecaa30722e4eca8b4722e8eca878722ececa830722d4eca6b4722d0eca678722d8eca630722c0eca4b4722bceca478722c4eca430722a4eca2b4722a8eca278722b0eca23072298eca0b472294eca0787229ceca03072280ec9eb472284ec9e7872288ec9e3072270ec9cb472268ec9c7872274ec9c3072258ec9ab47225cec9a7872260ec9a3072248ec98b472240ec98787224cec983072234ec96b472228ec967872238ec963072214ec94b472218ec94787221cec943072204ec92b472200ec927872208ec923072170ec90b4721f0ec9078721f4ec903072154ec8eb472158ec8e7872168ec8e3071f60ec8cb472148ec8c787214cec8c3071f50ec8ab471f4cec8a7871f54ec8a3071ed4ec88b4)
  (.lf 0)) (.nd (.lf
  0x59a90b7e5d059a80b7e3d059a70b7e1d059a5cb7dfd059a48b7ddd059a34b7dbd059a20b7d9d059a0cb7d7d0599f8b7d5d0599e4b7d3d0599d0b7d1d0599bcb7cfd0599a8b7cdd059994b7cbd059980b7c9d059968b7c7d059954b7c5d059940b7c3d0596c4b7c1105b778babecc5b77cbabccc5b6dcbabacc5b670bab8cc5b5f4bab6cc5b5dcbab4cc5b78cbab2cc5b75cbab0cc5b6c8baaecc5b684baaccc5b60cbaaacc5b764baa8cc5b7a0baa6cc5b6d0baa4cc5b694baa2cc5b614baa0cc5b61cba9ecc5b7a8ba9ccc5b510ba9acc5b470ba98cc5b414ba96cc5b3e0ba94cc5b348ba92cc5ae8cba90cc5ae50ba8ecc5b76cba8ccc5b774ba8acc5b6d8ba88cc5b690ba86cc5b624ba84cc5b62cba82cc5ba0cbabdd05b9f4babbd05b9e0bab9d05b9ccbab7d05b9b8bab5d05b9a8bab3d05b994bab1d05b980baafd05b96cbaadd05b958baabd05b944baa9d05b930baa7d05b91cbaa5d05b908baa3d0)
  (.lf 0)))

def shaWireTree258 : BTree :=
  .nd (.nd (.nd (.lf
  0x7d50d0184307d3fd0182787d3950182b47d41901823081345057c788132d057cb481349057c3081301057a78812d9057ab481305057a30812c9057878812cd0578b4812d1057830812a1057678812850576b4812a5057630812790574788126d0574b48127d057430812610572788125d0572b48126505723081225057078812310570b481235057030811b5056e78811f5056eb4811f9056e30811a9056c788116d056cb4811ad056c3081139056a7881145056ab481161056a30810f9056878811090568b48111d056830810390566788102d0566b4810d905663081009056478810150564b48102505643080ff505627880ff90562b480ffd05623080fe905607880fe50560b480fed05603080fd5055e7880fd9055eb480fdd055e3080eb9055c7880e99055cb480fa5055c3080e8d055a7880e75055ab480e91055a3080e6905587880e5d0558b480e6d05583080e2905567880e250556b480e41055630)
  (.lf 0)) (.nd (.lf
  0x1055c2ba030105602b9e30105642b9c30105682b9a301056c2b9830105702b9630105742b9430105782b92301057c2b9030105802b8e30105842b8c30105882b8a301058c2b8830105902b8630105942b8430105982b82301059c2b803011d5c2fbeb411d602fbcb411d642fbab411d682fb8b411d6c2fb6b411d702fb4b411d742fb2b411d782fb0b411d7c2faeb411d802facb411d842faab411d882fa8b411d8c2fa6b411d902fa4b411d942fa2b411d982fa0b411d9c2f9eb411da02f9cb411da42f9ab411da82f98b411dac2f96b411db02f94b411db42f92b411db82f90b411dbc2f8eb411dc02f8cb411dc42f8ab411dc82f88b411dcc2f86b411dd02f84b411dd42f82b411dd82f80b4106202fbe78106242fbc78106282fba781062c2fb878106302fb678106342fb478106382fb2781063c2fb078106402fae78106442fac78106482faa781064c2fa878106502fa678106542fa478106582fa278)
  (.lf 0))) (.nd (.nd (.lf
  0x183883ed4781838c3ed430183243ed2b4183503ed278183543ed230182e43ed0b4183183ed0781831c3ed030182a83eceb4182d83ece78182dc3ece30182683eccb41829c3ecc78182a03ecc30182243ecab41825c3eca78182603eca30181e03ec8b4182183ec8781821c3ec830181a03ec6b4181d43ec678181d83ec630181683ec4b4181943ec478181983ec430181403ec2b41815c3ec278181603ec230188b03f3eaa188703f3caa187103f30aa186c83f2eaa186083f28aa185c03f26aa185443f22aa185003f20aa184bc3f1eaa184783f1caa184343f1aaa183f03f18aa183043f10aa182883f0caa182443f0aaa182003f08aa188403f3c1e188783f3cb41887c3f3c14188043f3940188383f3aa0187cc3f3740188003f38a0187943f3540187c83f36a01875c3f3340187903f34a0187203f31f4187583f32a0186dc3f301e187183f30b41871c3f3014186943f2e1e186d03f2eb4186d43f2e14)
  (.lf 0)) (.nd (.lf
  0x37e608583d037dc08581103afc8897ecc3af38897ccc3abdc897acc3abb88978cc3abd88976cc3abb08974cc3aad88972cc3aabc8970cc3ad5c896ecc3a974896ccc3aa98896acc3a9348968cc3aa808966cc3a8e48964cc3aa688962cc3a8908960cc3a6f4895ecc3a624895ccc3a6dc895acc3a5808958cc3a5208956cc3a4a48954cc3a4648952cc3a3f08950cc3a3a0894ecc3a0ec894ccc3a18c894acc3a1888948cc3a1848946cc3a1808944cc3a1688942cc3afb0897dd03ac68897bd03ac548979d03ac408977d03ac2c8975d03ac188973d03ac048971d03abf0896fd03a984896dd03a954896bd03a9288969d03a9088967d03a8d88965d03a8b08963d03a8a08961d03a680895fd03a634895dd03a5d4895bd03a5748959d03a4d88957d03a4b48955d03a4408953d03a3fc8951d03a3c0894fd03a24c894dd03a228894bd03a2048949d03a1e08947d03a1bc8945d03a1988943d03a14c894110)
  (.lf 0)))

def shaWireTree259 : BTree :=
  .nd (.nd (.nd (.lf
  0x67630cf06a067444cf041e674accf04b4674b0cf041467408cf02a067078cffc7867074cffcb46707ccffc306705ccffa7867064cffab467068cffa3067050cff8786704ccff8b467054cff8306703ccff67867038cff6b467040cff63067028cff47867024cff4b46702ccff43067014cff27867010cff2b467018cff23067000cff07866ffccff0b467004cff03066feccfee7866fe8cfeeb466ff0cfee3066fd8cfec7866fd4cfecb466fdccfec3066fc4cfea7866fc0cfeab466fc8cfea3066fb0cfe87866faccfe8b466fb4cfe83066f9ccfe67866f98cfe6b466fa0cfe63066f88cfe47866f84cfe4b466f8ccfe43066f74cfe27866f70cfe2b466f78cfe23066f60cfe07866f5ccfe0b466f64cfe03066f4ccfde7866f48cfdeb466f50cfde3066f38cfdc7866f34cfdcb466f3ccfdc3066f24cfda7866f20cfdab466f28cfda3066f10cfd87866f0ccfd8b466f14cfd83066efccfd67866ef4cfd6b4)
  (.lf 0)) (.nd (.lf
  0x5d64cbb1cb45d644bb1b4a5d5d8bb194a5d570bb16b45d4bcbb154a5d4b0bb12b45d44cbb114a5d3ecbb0f4a5d38cbb0cb45d2f0bb0ab45d2d8bb08b45d22cbb06b45d23cbb054a5d1c4bb02b45c45cbb00aa602c8bf3eb460258bf3cb45fd88bf3ab45fd64bf394a5fd40bf36b45fd20bf34b45fbe0bf32b45fbd0bf30b45fbc0bf2eb45fbacbf2d4a5fb94bf2b4a5fb80bf28b45fbf4bf274a5f388bf24b45f348bf234a5f32cbf20b45f30cbf1f4a5f230bf1cb45f21cbf1b4a5f200bf18b45f1ecbf16b45f1d8bf14b45f1b4bf12b45f17cbf10b45f048bf0eb45f000bf0d4a5efa8bf0b4a5ef68bf08aa5eef0bec72c5ef00bec52c5e754bec32c5e5fcbec0cc62570c33eb4624fcc33cb462490c33ab4623b8c3394a62224c3374a62204c334b462144c332b46206cc3314a61fd4c32f4a61ee0c32cb461e7cc32b4a61e2cc328b461d80c326b461ce4c3254a61c84c322b461c38c320b461b30c31f4a)
  (.lf 0))) (.nd (.nd (.lf
  0x364ec703478364f07034303641c7032b43646470327836468703230363a07030b4364107030783641470303036318702eb436394702e7836398702e30362a0702cb43630c702c7836310702c3036228702ab436294702a7836298702a30361cc7028b43621c702878362207028303615c7026b4361c0702678361c4702630360ec7024b436150702478361547024303607c7022b4360e0702278360e47022303600c7020b4360707020783607470203035f9c701eb436000701e7836004701e3035f2c701cb435f90701c7835f94701c3035ebc701ab435f20701a7835f24701a3035e507018b435eb070187835eb470183035ddc7016b435e4470167835e4870163035d6c7014b435dd070147835dd470143035cf87012b435d6070127835d6470123035c807010b435cec70107835cf070103035c04700eb435c74700e7835c78700e3035b8c700cb435bf8700c7835bfc700c3035b08700ab435b80700a78)
  (.lf 0)) (.nd (.lf
  0x1597036e3d01592c36e1d0158ec36dfd0158a836ddd01586836dbd01582436d9d0157dc36d7d01579c36d5d01576436d3d01572c36d1d0156ec36cfd0156a836cdd01566436cbd01562036c9d0155dc36c7d01559836c5d01555436c3d01553036c110151cc37fecc1517437fccc151e037facc1518837f8cc1512c37f6cc150d437f4cc1507c37f2cc1502437f0cc14fcc37eecc14f7437eccc14f1c37eacc14ed837e8cc14ea437e6cc151e837e4cc1519037e2cc1513437e0cc150dc37decc1508437dccc1502c37dacc14fd437d8cc14f7c37d6cc14f2437d4cc151f037d2cc1519837d0cc1513c37cecc150e437cccc1508c37cacc1503437c8cc14fdc37c6cc14f8437c4cc14f2c37c2cc153a437fdd01539037fbd01537c37f9d01536837f7d01535437f5d01534037f3d01532c37f1d01531837efd01530437edd0152f037ebd0152dc37e9d0152c837e7d0152b437e5d0152a037e3d01528c37e1d0)
  (.lf 0)))

def shaWireTree260 : BTree :=
  .nd (.nd (.nd (.lf
  0x151bc417f2c15164417d2c1510c417b2c150b441792c1505c41772c1500441752c14fac41732c14f5441712c14efc416f2c14eb8416d2c14e80416b2c14e5441692c14e2c41672c14e0041652c14dd841632c14db041612c14d88415f2c14d60415d2c14d38415b2c14b9041592c14b6841572c14b4441552c14b2041532c14afc41512c14ad8414f2c14ab4414d2c14a90414b2c14a6c41492c14a4841472c14a2441452c14a0041432c149704140cc1643c457f2c1641c457d2c163f8457b2c163d445792c163b045772c1638c45752c1636845732c1634445712c1631c456f2c162f8456d2c162d4456b2c162b045692c1628c45672c1626845652c1613445632c1612045612c1610c455f2c160f8455d2c160e4455b2c160d045592c160bc45572c160a845552c1609445532c1608045512c1606c454f2c16058454d2c16044454b2c1603045492c1601c45472c1600845452c15ff445432c15f744540cc)
  (.lf
  0x1a1411a9d0019e811a7d0019bc11a5d00199011a3d00196411a1d001938119fd00190c119dd0018e0119bd0018b41199d0018881197d00185c1195d0018301193d0018041191d0017d8118fd0017ac118dd001780118bd0017541189d0017281187d0016fc1185d0016d01183d0016181181101f014407ecc1f01c407ccc1f024407acc1f0a04078cc1f0a84076cc1f0b04074cc1f0b84072cc1f0c04070cc1f0c8406ecc1f0d0406ccc1f0d8406acc1f0e04068cc1f0e84066cc1f0f04064cc1f0f84062cc1f1004060cc1f108405ecc1f110405ccc1f118405acc1f1204058cc1f1284056cc1f1304054cc1f1384052cc1f1404050cc1f148404ecc1f150404ccc1f158404acc1f1604048cc1f1684046cc1f1704044cc1f1784042cc207ec407dd020748407bd0206844079d0205cc4077d0205144075d0204584073d02039c4071d0202e8406fd020228406dd020170406bd0200b84069d01fffc4067d0))
  (.nd (.lf
  0x68690d7a07868660d79e7868490d79c7868420d79a7868370d79878682e0d796786828cd7947867b04d7927867a14d79078679c8d78e7867734d78c78676bcd78a7867660d788786761cd78678674c8d784786742cd78278673d0d780786adccd7be306ae00d7bc306ad6cd7ba306acc0d7b8306ac14d7b6306aba8d7b4306ab54d7b2306ab08d7b0306aaa8d7ae306aa68d7ac306a998d7aa306a950d7a8306a8f8d7a6306a8c8d7a4306a878d7a2306a844d7a0306a814d79e306a9c4d79c306a7a8d79a306a784d798306a734d796306a754d794306a6acd792306a4d0d790306a4e8d78e306a188d78c3069fc4d78a3069fecd7883069f28d7863069e94d7843069624d7823069574d780306d644dbbeb46d59cdbbcb46d540dbbab46d4fcdbb8b46d4b0dbb6b46d1b8dbb4b46d054dbb2b46d010dbb0b46cfacdbaeb46ce54dbacb46cda0dbaab46ce94dba8b46cd14dba6b46cc24dba4b46cb4cdba2b4)
  (.lf 0))) (.nd (.nd (.lf
  0x2dfa062d4302df3062d2b42ded062d2782df3462d2302dec462d0b42de5c62d0782dec862d0302de5062ceb42ddec62ce782de5462ce302dde062ccb42dd7862cc782dde462cc302dd6c62cab42dd0862ca782dd7062ca302dcfc62c8b42dc8462c8782dd0062c8302dc7862c6b42dc0062c6782dc7c62c6302dbf462c4b42db8062c4782dbf862c4302db7462c2b42db3c62c2782db7862c2302e8f8633eaa2e7ac6338aa2e7306336aa2e48c632aaa2e4106328aa2e3986326aa2e3206324aa2e2a86322aa2e158631caa2e0746318aa2deb06310aa2ddcc630caa2dce86308aa2e82c633b402e898633ca02e7bc6339f42e828633aa02e74463381e2e7b46338b42e7b86338142e6c863361e2e7386336b42e73c6336142e6546333402e6c06334a02e5e46331402e6506332a02e578632f402e5e06330a02e50c632d402e574632ea02e49c632bf42e508632ca02e424632a1e2e494632ab42e498632a14)
  (.lf 0)) (.nd (.lf
  0x83a0d0d7acc839cd0d78cc839b50d76cc839910d74cc8399d0d72cc839710d70cc839410d6ecc839490d6ccc839550d6acc83b650d68cc838f90d66cc838e10d64cc838fd0d62cc838ad0d60cc838bd0d5ecc838710d5ccc838810d5acc838410d58cc838010d56cc837c10d54cc837750d52cc837350d50cc8322d0d4ecc832010d4ccc832090d4acc831ad0d48cc831b90d46cc829f50d44cc824610d42cc83d290d7dd083d190d7bd083ced0d79d083c790d77d083c2d0d75d083c150d73d083bfd0d71d083bed0d6fd083bdd0d6dd083bb10d6bd083b710d69d083ab90d67d083aa90d65d083a7d0d63d083a690d61d083a590d5fd083a490d5dd083a310d5bd083a190d59d0838110d57d0837e50d55d0837810d53d08375d0d51d0832f50d4fd0832e50d4dd0832c50d4bd0831dd0d49d0831c50d47d082a390d45d0824950d43d08247d0d411083d30007ecc83d38007ccc83cf4007acc83c800078cc)
  (.lf 0)))

def shaWireTree261 : BTree :=
  .nd (.nd (.nd (.lf
  0x7e198f30cb47e19cf30c147dc08f30a1e7dc14f30ab47dc18f30a147db08f3081e7dbfcf308b47dc00f308147d55cf3061e7daecf306b47daf0f306147d4f4f304a07da88f3fc787da90f3fcb47da94f3fc307da78f3fa787da7cf3fab47da80f3fa307da64f3f8787da68f3f8b47da6cf3f8307da54f3f6787da50f3f6b47da5cf3f6307da40f3f4787da44f3f4b47da48f3f4307da28f3f2787da30f3f2b47da34f3f2307da14f3f0787da1cf3f0b47da20f3f0307da08f3ee787da00f3eeb47da0cf3ee307d9f0f3ec787d9ecf3ecb47d9f4f3ec307d9d4f3ea787d9d8f3eab47d9dcf3ea307d9c8f3e8787d9c4f3e8b47d9ccf3e8307d9b4f3e6787d9b8f3e6b47d9bcf3e6307d9a0f3e4787d99cf3e4b47d9a8f3e4307d98cf3e2787d990f3e2b47d994f3e2307d978f3e0787d974f3e0b47d97cf3e0307d960f3de787d964f3deb47d968f3de307d950f3dc787d954f3dcb47d958f3dc307d940f3da78)
  (.lf 0)) (.nd (.lf
  0x5bb18bb9dd05bab0bb9bd05ba88bb99d05baccbb97d05ba54bb95d05ba2cbb93d05a7acbb91d05a7b0bb8fd05a7b4bb8dd05a870bb8bd05a734bb89d05a608bb87d05a39cbb85d05a3a0bb83d059fccbb81d05e124bfbfd05e000bfbdd05ddb8bfbbd05deb8bfb9d05de68bfb7d05dbd4bfb5d05db18bfb3d05dae0bfb1d05da64bfafd05dca0bfadd05d998bfabd05d958bfa9d05d894bfa7d05d880bfa5d05d7e0bfa3d05d778bfa1d05d730bf9fd05d6e4bf9dd05d674bf9bd05d604bf99d05d5a8bf97d05d544bf95d05d530bf93d05d480bf91d05d404bf8fd05d3b4bf8dd05d314bf8bd05d374bf89d05d25cbf87d05d2b4bf85d05d1fcbf83d05c478bf81d060550c3bfd060508c3bdd05fff4c3bbd05ff14c3b9d05ff44c3b7d05ffb8c3b5d05ff78c3b3d05fed0c3b1d05fe00c3afd05fe34c3add05fea0c3abd05fe7cc3a9d05fc68c3a7d05f7e0c3a5d05f7b8c3a3d05f794c3a1d05f76cc39fd0)
  (.lf 0))) (.nd (.nd (.lf
  0x55af8ac163055ac8ac14b455aa8ac147855accac143055a9cac12b455a7cac127855aa0ac123055a70ac10b455a50ac107855a74ac103055a44ac0eb455a24ac0e7855a48ac0e3055a18ac0cb4559f8ac0c7855a1cac0c30559ecac0ab4559ccac0a78559f0ac0a30559c0ac08b4559a0ac0878559c4ac083055994ac06b455974ac067855998ac063055968ac04b455948ac04785596cac04305593cac02b45592cac027855940ac02305579cb0bcb455798b0bc78557a0b0bc3055788b0bab455784b0ba785578cb0ba3055774b0b8b455770b0b87855778b0b83055760b0b6b45575cb0b67855764b0b6305574cb0b4b455748b0b47855750b0b43055738b0b2b455734b0b2785573cb0b23055724b0b0b455720b0b07855728b0b03055710b0aeb45570cb0ae7855714b0ae30556fcb0acb4556f8b0ac7855700b0ac30556e8b0aab4556e4b0aa78556ecb0aa30556d4b0a8b4556d0b0a878556d8b0a830)
  (.lf 0)) (.nd (.lf
  0x36f1c77eacc36f2477e8cc36df477e6cc3705477e4cc3705c77e2cc3706477e0cc3706c77decc36f2c77dccc36f3477dacc36f3c77d8cc36f4477d6cc36f4c77d4cc3707477d2cc3707c77d0cc3708477cecc3708c77cccc36f5477cacc36f5c77c8cc36f6477c6cc36f6c77c4cc3709077c2cc372ec77fdd0372d877fbd0372c477f9d0372b077f7d03729c77f5d03728877f3d03727477f1d03726077efd03724c77edd03723477ebd03722477e9d03721077e7d0371fc77e5d0371e877e3d0371d077e1d0371bc77dfd0371ac77ddd03719477dbd03718077d9d03716c77d7d03715877d5d03714477d3d03712c77d1d03711c77cfd03710877cdd0370f477cbd0370e477c9d0370d077c7d0370bc77c5d0370a877c3d03709477c110392f47abecc392fc7abccc393047abacc3930c7ab8cc393147ab6cc3931c7ab4cc393247ab2cc3932c7ab0cc393347aaecc3933c7aaccc393447aaacc3934c7aa8cc)
  (.lf 0)))

def shaWireTree262 : BTree :=
  .nd (.nd (.nd (.lf
  0x4b898a962b44b89ca962304b824a960784b828a960b44b82ca960304b7e8a95e784b800a95eb44b804a95e304b7d8a95c784b7bca95cb44b7dca95c304b794a95a784b7b0a95ab44b7b4a95a304b548a958784b788a958b44b78ca958304b4b0a956784b53ca956b44b540a956304b430a954784b4a4a954b44b4a8a954304b3c0a952784b424a952b44b428a952304b354a950784b3b4a950b44b3b8a950304b2e4a94e784b348a94eb44b34ca94e304b1f4a94c784b2d8a94cb44b2dca94c304b170a94a784b1e8a94ab44b1eca94a304b0f8a948784b158a948b44b15ca948304b084a946784b0eca946b44b0f0a946304b000a944784b078a944b44b07ca944304af48a942784aff4a942b44aff8a942304c198a9bc784c194a9bcb44c19ca9bc304c184a9ba784bec4a9bab44c188a9ba304beb8a9b8784beb4a9b8b44bebca9b8304bea4a9b6784bea0a9b6b44bea8a9b6304be90a9b4784be8ca9b4b4)
  (.lf 0)) (.nd (.lf
  0x5c408b85d2c5c3f4b85b2c5c3d8b8592c5c3e0b8572c5c3b4b8552c5c398b8532c5c388b8512c5c36cb84f2c5c358b84d2c5c344b84b2c5c32cb8492c5c314b8472c5c2f8b8452c5c2c0b8432c5c29cb840cc5ee98bc7f2c5e9fcbc7d2c5e9e8bc7b2c5e9d8bc792c5e9c0bc772c5e9acbc752c5e998bc732c5e984bc712c5e970bc6f2c5e95cbc6d2c5e948bc6b2c5e958bc692c5e934bc672c5e924bc652c5e8fcbc632c5e8f8bc612c5e8d0bc5f2c5e8c0bc5d2c5e8a8bc5b2c5e898bc592c5e880bc572c5e870bc552c5e850bc532c5e83cbc512c5e80cbc4f2c5e7d0bc4d2c5e680bc4b2c5e664bc492c5e648bc472c5e630bc452c5e694bc432c5e5dcbc40cc60e88c07f2c60e5cc07d2c60dc8c07b2c60db0c0792c60d94c0772c60d74c0752c60d80c0732c60d38c0712c60cfcc06f2c60cd4c06d2c60ca8c06b2c60c84c0692c60c38c0672c60b1cc0652c60b08c0632c60af0c0612c60ad0c05f2c)
  (.lf 0))) (.nd (.nd (.lf
  0xb14c1adcb40b1c41adc780b1c81adc300b0cc1adab40b1401ada780b1441ada300b04c1ad8b40b0c01ad8780b0c41ad8300afcc1ad6b40b0401ad6780b0441ad6300af4c1ad4b40afc01ad4780afc41ad4300aec41ad2b40af401ad2780af441ad2300ae401ad0b40aeb81ad0780aebc1ad0300adb81aceb40ae341ace780ae381ace300ad341accb40adac1acc780adb01acc300acac1acab40ad281aca780ad2c1aca300ac281ac8b40aca01ac8780aca41ac8300aba81ac6b40ac1c1ac6780ac201ac6300ab301ac4b40ab9c1ac4780aba01ac4300aacc1ac2b40ab241ac2780ab281ac2300ba481b3eaa0b8d01b38aa0b7441b32aa0b5381b2aaa0b4ac1b28aa0b4201b26aa0b3941b24aa0b3081b22aa0b27c1b20aa0b1f01b1eaa0aee41b12aa0add81b0eaa0accc1b0aaa0b9a81b3b400ba181b3ca00b9281b39f40b9a41b3aa00b8a01b381e0b9201b38b40b9241b38140b81c1b35400b8981b36a0)
  (.lf 0)) (.nd (.lf
  0x8042cfaaacc805a8faa8cc805dcfaa6cc8053cfaa4cc80468faa2cc80488faa0cc803fcfa9ecc80340fa9ccc8030cfa9acc802d8fa98cc80318fa96cc80270fa94cc8013cfa92cc80098fa90cc80058fa8ecc805b0fa8ccc80504fa8acc80570fa88cc80474fa86cc80498fa84cc805b8fa82cc80990fabdd080980fabbd080964fab9d080950fab7d080938fab5d08091cfab3d08090cfab1d0808f4faafd0808dcfaadd0808c4faabd0808acfaa9d08088cfaa7d08087cfaa5d0807b0faa3d08079cfaa1d080784fa9fd080774fa9dd08075cfa9bd080748fa99d080730fa97d080710fa95d0806f8fa93d0806e0fa91d0806d0fa8fd08068cfa8dd08067cfa8bd08066cfa89d080640fa87d0805f4fa85d0805e4fa83d080348fa81107bf2cfa7ecc7bef4fa7ccc7bea4fa7acc7be60fa78cc7be24fa76cc7bd78fa74cc7bd14fa72cc7bcbcfa70cc7bcdcfa6ecc7bc60fa6ccc7bc4cfa6acc7bc78fa68cc)
  (.lf 0)))

def shaWireTree263 : BTree :=
  .nd (.nd (.nd (.lf
  0x53f30ab10aa53f2cab0caa53e14ab0aaa5494cab3df4548a4ab3b40547c4ab3140546f0ab2b405461cab25405459cab21f454560ab1ff454520ab1d4054438ab1540543c0ab11f454380ab0f4053e60ab0bf454944ab3c1e548acab3cb454948ab3c1454898ab3940548a0ab3aa054888ab374054894ab38a05487cab354054884ab36a05481cab33f454878ab34a0547f4ab321e54814ab32b454818ab321454780ab2f40547c0ab30a05473cab2df45477cab2ea0546f4ab2c1e54734ab2cb454738ab2c14546acab2940546ecab2aa054668ab27f4546a8ab28a054620ab261e54660ab26b454664ab2614545dcab23f454618ab24a0545a0ab221e545d4ab22b4545d8ab221454564ab201e54594ab20b454598ab201454524ab1e1e54558ab1eb45455cab1e14544e8ab1b405451cab1ca0544b0ab1940544e4ab1aa054478ab17f4544acab18a05443cab161e54470ab16b454474ab161454400ab13f4)
  (.lf 0)) (.nd (.lf
  0x584fcb2532c584bcb2512c5847cb24f2c5843cb24d2c583f8b24b2c583b0b2492c58348b2472c582e4b2452c5826cb2432c581a8b240cc5af7cb67f2c5af70b67d2c5af58b67b2c5af40b6792c5af1cb6772c5af04b6752c5af08b6732c5b478b6712c5aec8b66f2c5aeb4b66d2c5ae9cb66b2c5acb4b6692c5ac78b6672c5ac38b6652c5ac00b6632c5ab98b6612c5a93cb65f2c5a91cb65d2c5a914b65b2c5a8b4b6592c5a89cb6572c5a888b6552c5a8c8b6532c5a4ecb6512c5a4c4b64f2c5a494b64d2c5a468b64b2c5a42cb6492c5a414b6472c5a2f0b6452c5a300b6432c59f9cb640cc5d008ba7f2c5cfd0ba7d2c5cefcba7b2c5ce94ba792c5cdf8ba772c5cd70ba752c5cce4ba732c5cc74ba712c5cbecba6f2c5cb7cba6d2c5caf0ba6b2c5ca80ba692c5ca08ba672c5c9b4ba652c5c8f0ba632c5c8acba612c5c868ba5f2c5c818ba5d2c5c7ccba5b2c5c794ba592c5c754ba572c5c70cba552c)
  (.lf 0))) (.nd (.nd (.lf
  0x4e710001f014e714001eff4e718001efd4e71c001efb4e720001ef94e724001ef74e728001ef54e72c001ef34e53c001ef14e560001eef4e500001eed4e504001eeb4e508001ee94e50c001ee74e460001ee54e47c001ee34e420001ee1501a4001edf501a8001edd501ac001edb501b0001ed9501b4001ed74f7c0001ed55076c001ed350770001ed150774001ecf50778001ecd5077c001ecb50780001ec950784001ec750788001ec55078c001ec350790001ec150794001ebf5061c001ebd50620001ebb50624001eb950628001eb75062c001eb550630001eb350634001eb150518001eaf5051c001ead50520001eab50524001ea950528001ea75052c001ea550530001ea3501b8001ea152a90001e9f52a58001e9d52a5c001e9b52a60001e9952a64001e9752a68001e9552eb0001e9352eb4001e9152dac001e8f52db0001e8d52db4001e8b52eb8001e8952ebc001e8752db8001e8552dbc001e83)
  (.lf 0)) (.nd (.lf
  0x72dc8f099d072db4f097d072da0f095d072d8cf093d072d78f091d072d64f08fd072d50f08dd072d38f08bd072d24f089d072b78f087d072b3cf085d072b0cf083d072ad8f0811073b88f07ecc73b90f07ccc73b98f07acc73c14f078cc73c1cf076cc73c24f074cc73c2cf072cc73c34f070cc73c3cf06ecc73c44f06ccc73c4cf06acc73c54f068cc73c5cf066cc73c64f064cc73c6cf062cc73c74f060cc73c7cf05ecc73c84f05ccc73c8cf05acc73c94f058cc73c9cf056cc73ca4f054cc73cacf052cc73cb4f050cc73cbcf04ecc73cc4f04ccc73cccf04acc73cd4f048cc73cdcf046cc73ce4f044cc73cecf042cc74130f07dd074118f07bd073fc0f079d073fb0f077d073f98f075d073f80f073d073f68f071d073f48f06fd073f30f06dd073f18f06bd073f08f069d073ef0f067d073ed8f065d073ec0f063d073eb0f061d073e98f05fd073e80f05dd073e68f05bd073e54f059d073e3cf057d0)
  (.lf 0)))

def shaWireTree264 : BTree :=
  .nd (.nd (.nd (.lf
  0x3afcc897f2c3af3c897d2c3ac58897b2c3ac4489792c3ac3089772c3ac1c89752c3ac0889732c3abf489712c3ad60896f2c3a978896d2c3aa9c896b2c3a93889692c3aa8489672c3a8e889652c3aa6c89632c3a89489612c3a6f8895f2c3a628895d2c3a6e0895b2c3a58489592c3a52489572c3a4a889552c3a46889532c3a41c89512c3a3a4894f2c3a230894d2c3a20c894b2c3a1e889492c3a1c489472c3a1a089452c3a16c89432c3a1548940cc3eb208d7f2c3eb0c8d7d2c3eb048d7b2c3eae48d792c3ead08d772c3eabc8d752c3eaa88d732c3ea948d712c3ea8c8d6f2c3ea748d6d2c3ea588d6b2c3ea448d692c3ea2c8d672c3ea188d652c3ea088d632c3ea488d612c3e9e48d5f2c3e9cc8d5d2c3e9b88d5b2c3e9a48d592c3e9908d572c3e9848d552c3e9748d532c3e9588d512c3e70c8d4f2c3e6f48d4d2c3e6dc8d4b2c3e6c88d492c3e9508d472c3e4188d452c3e3688d432c3e36c8d40cc)
  (.lf
  0x342246ca5d0341b46ca3d0341446ca1d0340d06c9fd03405c6c9dd033fe46c9bd033f686c99d033ef06c97d033e746c95d033df86c93d033d806c91d033d086c8fd033c8c6c8dd033c086c8bd033b806c89d033afc6c87d033a706c85d0339d86c83d0338f46c81101da306c7ecc1da386c7ccc1da406c7acc1dabc6c78cc1dac46c76cc1dacc6c74cc1dad46c72cc1dadc6c70cc1dae46c6ecc1daec6c6ccc1daf46c6acc1dafc6c68cc1db046c66cc1db0c6c64cc1db146c62cc1db1c6c60cc1db246c5ecc1db2c6c5ccc1db346c5acc1db3c6c58cc1db446c56cc1db4c6c54cc1db546c52cc1db5c6c50cc1db646c4ecc1db6c6c4ccc1db746c4acc1db7c6c48cc1db846c46cc1db8c6c44cc1db946c42cc1ddf86c7dd01dde46c7bd01ddd06c79d01ddbc6c77d01dda86c75d01dd946c73d01dd806c71d01dd6c6c6fd01dd586c6dd01dd446c6bd01dd306c69d01dd1c6c67d01dd086c65d01dcf46c63d0))
  (.nd (.lf
  0x40c8400308140c8800307f40b0000307d40b0400307b40b080030794099c003077409a0003075409a4003073409a8003071409ac00306f409b000306d409b400306b409b8003069409bc003067409c0003065409c4003063409c80030614210c00305f4203000305d42e7800305b42e7c00305942e8000305742cc400305542a38003053428b0003051428b400304f427d800304d4272c00304b427300030494273400304742e8400304542e8800304342e8c00304142cc800303f42a3c00303d428b800303b428bc003039427b8003037427380030354273c003033427400030314274400302f4260400302d4252800302b4246c00302942420003027421f800302542110003023421140030214363000301f435ac00301d4440000301b4422400301944138003017440f400301543fdc00301343f1c00301143edc00300f43e2400300d43db800300b43d2000300943b500030074440400300544228003003)
  (.lf 0))) (.nd (.nd (.lf
  0x3763c76ae303762076ac783761c76acb43762476ac303760c76aa783761076aab43761476aa30375f876a878375f476a8b43760076a830375e876a678375e476a6b4375ec76a630375d076a478375cc76a4b4375d876a430375b476a278375b876a2b4375bc76a230375a876a078375a476a0b4375ac76a0303758c769e7837594769eb437598769e303757c769c7837578769cb437584769c303756c769a7837568769ab437570769a3037558769878375547698b43755c76983037544769678375407696b437548769630375347694783752c7694b437538769430375187692783751c7692b437520769230375047690783750c7690b437510769030374f8768e78374f0768eb4374fc768e30374e4768c78374e0768cb4374e8768c30374d0768a78374cc768ab4374d4768a30374bc768878374b47688b4374c0768830374a8768678374a47686b4374ac768630374887684783748c7684b437498768430)
  (.lf 0)) (.nd (.lf
  0x5747c0065f3574840065f15748c0065ef574940065ed5749c0065eb574a40065e9574ac0065e7574b40065e5574bc0065e3574c40065e1590800065df590880065dd590900065db590980065d9590a00065d758eb40065d5590a80065d3590b00065d1590b80065cf590c00065cd590c80065cb590d00065c9590d80065c7590e00065c5590e80065c3590f00065c1590f80065bf591000065bd591080065bb591100065b9591180065b7591200065b5591280065b358eb80065b158e880065af591300065ad591380065ab591400065a9591480065a7591500065a5591580065a3591600065a15b50800659f5b46800659d5b40400659b5b3d80065995b3400065975ae840065955b7540065935b7580065915b6c400658f5b68000658d5b60800658b5b7600065895b79c0065875b6cc0065855b6880065835b6100065815b61800657f5b7a400657d5b50c00657b5b46c0065795b4100065775b3dc006575)
  (.lf 0)))

def shaWireTree265 : BTree :=
  .nd (.nd (.nd (.lf
  0x85c42172b4085c8217230084c4217078085482170b40854c21703008448216e78084b8216eb4084bc216e30083b8216c780843c216cb408440216c300833c216a78083ac216ab4083b0216a30082ac216878083302168b40833421683008230216678082a02166b4082a4216630081a4216478082242164b40822821643008114216278081982162b40819c21623008098216078081082160b40810c2160300800c215e780808c215eb408090215e3007f7c215c7808000215cb408004215c3007efc215a7807f70215ab407f74215a3007e7c21587807ef02158b407ef421583007dfc21567807e702156b407e7421563007d8021547807df02154b407df421543007cf021527807d742152b407d7821523007c7021507807ce42150b407ce821503007bf4214e7807c64214eb407c68214e3007b64214c7807be8214cb407bec214c3007ae8214a7807b58214ab407b5c214a3007a5c21487807adc2148b4)
  (.lf 0)) (.nd (.lf
  0x5bfd4bbdd2c5bfc0bbdb2c5bfacbbd92c5bf98bbd72c5bf84bbd52c5bf74bbd32c5bf28bbd12c5bec0bbcf2c5beacbbcd2c5be98bbcb2c5be84bbc92c5be74bbc72c5be28bbc52c5bd0cbbc32c5bcecbbc0cc5e328bfff2c5e31cbffd2c5e32cbffb2c5e2f0bff92c5e2d0bff72c5e2c0bff52c5e2acbff32c5e294bff12c5e2dcbfef2c5e26cbfed2c5e2d8bfeb2c5e250bfe92c5e240bfe72c5e278bfe52c5e330bfe32c5e200bfe12c5e1f0bfdf2c5e1d8bfdd2c5e1dcbfdb2c5e2e0bfd92c5e1a4bfd72c5e154bfd52c5e164bfd32c5e02cbfd12c5def0bfcf2c5dee0bfcd2c5dea0bfcb2c5dcfcbfc92c5dd04bfc72c5dd08bfc52c5dcc4bfc32c5dcbcbfc0cc60734c3ff2c60720c3fd2c6070cc3fb2c606f8c3f92c606e4c3f72c606d0c3f52c606bcc3f32c606a8c3f12c60694c3ef2c60680c3ed2c6066cc3eb2c6065cc3e92c60644c3e72c60738c3e52c6061cc3e32c60618c3e12c605fcc3df2c)
  (.lf 0))) (.nd (.nd (.lf
  0x67828cc647867830cc643067810cc62b46780ccc62786781ccc623067800cc60b4677f4cc607867804cc6030677e4cc5eb4677e0cc5e78677e8cc5e30677d0cc5cb4677cccc5c78677d4cc5c30677b8cc5ab4677b4cc5a78677c4cc5a3067794cc58b4677a0cc5878677a4cc583067788cc56b467784cc56786778ccc563067778cc54b467774cc54786777ccc543067760cc52b467314cc527867764cc523067300cc50b4672fccc507867304cc5030672dccc4eb4672e8cc4e78672eccc4e3067278cc4cb467274cc4c78672d4cc4c306725ccc4ab467260cc4a7867264cc4a3067250cc48b46724ccc487867254cc48306722ccc46b46723ccc467867240cc463067220cc44b46721ccc447867224cc443067200cc42b46720ccc427867210cc423067ccccc3cb467cc8cc3c7867cd0cc3c3067cbccc3ab467cb8cc3a7867cc0cc3a3067ca4cc38b467ca0cc387867ca8cc383067c88cc36b467c8ccc3678)
  (.lf 0)) (.nd (.lf
  0x47e4497fbd047e3097f9d047e1c97f7d047e0897f5d047df497f3d047de097f1d047dcc97efd047db897edd047da497ebd047d9097e9d047d7c97e7d047d6897e5d047d5497e3d047d4097e1d047d2c97dfd047d1897ddd047d0497dbd047cf097d9d047cdc97d7d047cc897d5d047cb497d3d047ca097d1d047c8c97cfd047c7897cdd047c6497cbd047c5097c9d047c3c97c7d047c2897c5d047c1497c3d04799497c1104a49c9abecc4a4a49abccc4a4ac9abacc4a4b49ab8cc4a4bc9ab6cc4a4c49ab4cc4a4cc9ab2cc4a4d49ab0cc4a4dc9aaecc4a4e49aaccc4a4ec9aaacc4a4f49aa8cc4a4fc9aa6cc4a5049aa4cc4a50c9aa2cc4a5149aa0cc4a5b49a9ecc4a5209a9ccc4a5b09a9acc4a52c9a98cc4a5349a96cc4a53c9a94cc4a5449a92cc4a54c9a90cc4a5549a8ecc4a55c9a8ccc4a5649a8acc4a56c9a88cc4a5749a86cc4a57c9a84cc4a5849a82cc4a7f09abdd04a7dc9abbd04a7c89ab9d0)
  (.lf 0)))

def shaWireTree266 : BTree :=
  .nd (.nd (.nd (.lf
  0x64244d5b07864240d5b0b464248d5b0306420cd5ae7864210d5aeb464214d5ae30641f0d5ac78641f4d5acb4641f8d5ac30641e0d5aa78641e4d5aab4641e8d5aa3063fc8d5a87863fa8d5a8b46405cd5a83063f70d5a67863d38d5a6b463f74d5a63063d2cd5a47863c5cd5a4b463d30d5a43063c4cd5a27863c50d5a2b463c54d5a23063c3cd5a07863c40d5a0b463c44d5a03063c2cd59e7863af0d59eb463c30d59e3063ab4d59c7863ab0d59cb463ae8d59c3063a78d59a7863aa4d59ab463aa8d59a3063a28d5987863a18d598b463a2cd5983063a0cd59678639bcd596b463a10d59630639a8d59478639b0d594b4639b4d59430638bcd59278638c0d592b4638c4d592306387cd59078638b0d590b4638b4d5903063858d58e7863854d58eb46385cd58e3063848d58c7863844d58cb46384cd58c3063830d58a7863834d58ab463838d58a306381cd5887863820d588b463824d588306342cd58678)
  (.lf 0)) (.nd (.lf
  0x6e080d81d2c6e050d81b2c6e03cd8192c6e020d8172c6de24d8152c6dde8d8132c6ddc8d8112c6dd8cd80f2c6dd60d80d2c6dd1cd80b2c6dcf8d8092c6dcc4d8072c6dc68d8052c6dbecd8032c6dbbcd800cc70560dc3f2c70554dc3d2c7054cdc3b2c704b0dc392c70394dc372c7039cdc352c70358dc332c70340dc312c70334dc2f2c70310dc2d2c70304dc2b2c701d0dc292c701a0dc272c70170dc252c70144dc232c70118dc212c70108dc1f2c700c4dc1d2c6ffe8dc1b2c6ffd8dc192c6ffb4dc172c6ff94dc152c6ff80dc132c6ff60dc112c6ff4cdc0f2c6ff24dc0d2c6fee8dc0b2c6fe08dc092c6fd88dc072c6fd4cdc052c6fd14dc032c6fcb4dc00cc71358e03f2c71344e03d2c711e4e03b2c711ece0392c711c8e0372c711a8e0352c7117ce0332c7116ce0312c71154e02f2c71184e02d2c71134e02b2c711fce0292c7110ce0272c710dce0252c70f44e0232c70f30e0212c70f18e01f2c)
  (.lf 0))) (.nd (.nd (.lf
  0x12f542ea27812f502ea2b412f582ea23012ed02ea07812ecc2ea0b412ed42ea03012e502e9e7812e4c2e9eb412e542e9e3012dd02e9c7812dcc2e9cb412dd42e9c3012d482e9a7812d442e9ab412d4c2e9a3012cbc2e987812cb82e98b412cc02e983012c302e967812c2c2e96b412c342e963012ba42e947812ba02e94b412ba82e943012b182e927812b142e92b412b1c2e923012a942e907812a902e90b412a982e903012a0c2e8e7812a082e8eb412a102e8e30129802e8c781297c2e8cb4129842e8c30128f42e8a78128f02e8ab4128f82e8a30128702e88781286c2e88b4128742e8830127f02e8678127ec2e86b4127f42e8630127702e84781276c2e84b4127742e8430126f02e8278126ec2e82b4126f42e82300d2f82e7cb40d2902e7c780d2fc2e7c300d2842e7ab40d2002e7a780d2882e7a300d1f42e78b40d1842e78780d1f82e78300d1782e76b40d0f42e76780d17c2e76300d0e82e74b4)
  (.lf 0)) (.nd (.lf
  0x1602c4547d0160184545d0160044543d015f7045411015d2445becc15d4c45bccc15d3c45bacc15d7845b8cc15d6845b6cc15d6c45b4cc15d7445b2cc15d7045b0cc15d6045aecc15d4045accc15d4445aacc15d4845a8cc15d1845a6cc15d1c45a4cc15d2045a2cc1591445a0cc158d4459ecc15890459ccc15850459acc158084598cc157c44596cc15cc44594cc15cc04592cc15ca84590cc15cb0458ecc15cb4458ccc15d14458acc15cdc4588cc15cbc4586cc15cb84584cc15cd04582cc15f6845bdd015f5445bbd015f4045b9d015f2845b7d015f1845b5d015f0445b3d015eec45b1d015ed845afd015ec445add015eb045abd015ea045a9d015e8c45a7d015e7845a5d015e6445a3d015e5045a1d015e3c459fd015e28459dd015e14459bd015dfc4599d015de84597d015dd44595d015dc04593d015dac4591d015d98458fd015d88458dd015d5c458bd015d344589d015d0c4587d015cf84585d0)
  (.lf 0)))

def shaWireTree267 : BTree :=
  .nd (.nd (.nd (.lf
  0x5ee68be7cb45ee64be7c785ee6cbe7c305ee54be7ab45ee50be7a785ee58be7a305ee40be78b45ee3cbe78785ee44be78305ee2cbe76b45ee28be76785ee30be76305ee14be74b45ee18be74785ee1cbe74305ee08be72b45ee00be72785ee0cbe72305edf0be70b45edf4be70785edf8be70305ede4be6eb45ede0be6e785ede8be6e305edccbe6cb45edc8be6c785edd0be6c305edb8be6ab45edbcbe6a785edc0be6a305ed9cbe68b45eda4be68785eda8be68305ed90be66b45ed8cbe66785ed94be66305ed80be64b45ed7cbe64785ed84be64305ed68be62b45ed6cbe62785ed70be62305ed3cbe60b45ed5cbe60785ed60be60305eb88be5eb45ed2cbe5e785ed30be5e305eb64be5cb45eb7cbe5c785eb80be5c305eb34be5ab45eb58be5a785eb5cbe5a305eb00be58b45eb1cbe58785eb2cbe58305eaf0be56b45eaf4be56785eaf8be56305eae4be54b45eae0be54785eae8be54305ead0be52b4)
  (.lf 0)) (.nd (.lf
  0x5a668b6cd2c5a698b6cb2c5a6b0b6c92c5a41cb6c72c5a320b6c52c5d010baff2c5cfe4bafd2c5cf24bafb2c5ceacbaf92c5ce20baf72c5cd90baf52c5cd14baf32c5cc8cbaf12c5cc10baef2c5cb90baed2c5cb08baeb2c5caa0bae92c5ca20bae72c5c9d0bae52c5c904bae32c5c8c4bae12c5c874badf2c5c830badd2c5c7e4badb2c5c7a0bad92c5c768bad72c5c724bad52c5c6d8bad32c5c698bad12c5c648bacf2c5c61cbacd2c5c5d4bacb2c5c5c0bac92c5c5acbac72c5c594bac52c5c494bac32c5c458bac0cc5fb68beff2c5fb5cbefd2c5fb40befb2c5fb38bef92c5fb14bef72c5fb00bef52c5faecbef32c5fad8bef12c5fac8beef2c5fab4beed2c5fa94beeb2c5fabcbee92c5fb70bee72c5f168bee52c5f13cbee32c5f128bee12c5f110bedf2c5f0fcbedd2c5f0e4bedb2c5f0d8bed92c5f0bcbed72c5f0a8bed52c5f0acbed32c5f084bed12c5f040becf2c5eff4becd2c5ef9cbecb2c)
  (.lf 0))) (.nd (.nd (.lf
  0x1bac054a6301baa854a4b41baa454a4781baac54a4301ba9454a2b41ba9054a2781ba9854a2301ba8054a0b41ba7c54a0781ba8454a0301ba6c549eb41ba68549e781ba70549e301ba58549cb41ba54549c781ba5c549c301ba44549ab41ba40549a781ba48549a301ba305498b41ba2c5498781ba345498301ba1c5496b41ba185496781ba205496301ba085494b41ba045494781ba0c5494301b9f45492b41b9f05492781b9f85492301b9e05490b41b9dc5490781b9e45490301b9cc548eb41b9c8548e781b9d0548e301b9b8548cb41b9b4548c781b9bc548c301b9a4548ab41b9a0548a781b9a8548a301b9905488b41b98c5488781b9945488301b97c5486b41b9785486781b9805486301b9685484b41b9645484781b96c5484301b9545482b41b9505482781b9585482301c618547cb41c614547c781c61c547c301c5f0547ab41c5ec547a781c5f4547a301c5c45478b41c5c05478781c5c8547830)
  (.lf 0)) (.nd (.lf
  0x947416cbd0093e816c9d00935c16c7d0092d816c5d00925816c3d0091bc16c1100a174173df40a0f4173b4009fe81737f409f5c17354009dd0172ff409d44172df409cb8172bf409c2c1729f409ba017274009994171f40097881717400957c170ff4094f0170df409464170bf4093d81709f40934c17074008b5c17fecc08b6417fccc08b6c17facc08b7417f8cc08b7c17f6cc08b8417f4cc08b8c17f2cc08b9417f0cc08b9c17eecc08ba417eccc08bac17eacc08bb417e8cc08bbc17e6cc08bc417e4cc08bcc17e2cc08bd417e0cc08bdc17decc08be417dccc08bec17dacc08bf417d8cc08bfc17d6cc08c0417d4cc08c0c17d2cc08c1417d0cc08c1c17cecc08c2417cccc08c2c17cacc08c3417c8cc08c3c17c6cc08c4417c4cc08c4c17c2cc08eb017fdd008e9c17fbd008e8817f9d008e7417f7d008e6017f5d008e4c17f3d008e3817f1d008e2417efd008e1017edd008dfc17ebd008de817e9d0)
  (.lf 0)))

def shaWireTree268 : BTree :=
  .nd (.nd (.nd (.lf
  0x6e42000124b6e4240012496e4280012476e42c0012456e4300012436e434001241700a000123f700a400123d6ff4400123b6ff200012396fecc0012376fdb80012356fdbc0012337056c0012317057000122f7057400122d7057800122b7057c001229704c8001227703a4001225703a8001223703ac001221703b000121f703b400121d703b800121b703bc001219702500012177025400121570f9400121370f9800121170e5000120f70e5400120d70e5800120b70b6c00120970b240012077136000120571364001203713680012017136c0011ff712100011fd712140011fb712180011f97121c0011f7712200011f5712240011f3712280011f17122c0011ef712300011ed712340011eb712380011e971a200011e771a240011e571a280011e3719580011e1718c80011df718cc0011dd718d00011db720bc0011d9720c00011d7720c40011d5720c80011d3720cc0011d1720d00011cf721300011cd)
  (.lf 0)) (.nd (.lf
  0x3eb6083a0b43eb64839eb43eb68839cb43eb6c839ab43eb708398b43eb748396b43eb788394b43eb7c8392b43eb808390b43eb84838eb43eb88838cb43eb8c838ab43eb908388b43eb948386b43e41c8384b43e3848382b43e3888380b43afdc83be783af4c83bc783acf083ba783acf483b8783acf883b6783acfc83b4783ad0083b2783ad0483b0783ad7083ae783aa5883ac783aaac83aa783aa5c83a8783aa9483a6783aa6083a4783aa7c83a2783aa6483a0783a708839e783a6d8839c783a6f0839a783a5b88398783a5348396783a51c8394783a4788392783a42c8390783a3b4838e783a240838c783a21c838a783a1f88388783a1d48386783a1b08384783a17c8382783a1648380783eb9883be303eb9c83bc303eba083ba303eba483b8303eba883b6303ebac83b4303ebb083b2303ebb483b0303ebb883ae303ebbc83ac303ebc083aa303ebc483a8303ebc883a6303ebcc83a4303ebd083a230)
  (.lf 0))) (.nd (.nd (.lf
  0x26b9c52b2b426ba452b23026b8c52b07826b8852b0b426b9052b03026b7852ae7826b7452aeb426b7c52ae3026b6452ac7826b6052acb426b6852ac3026b5052aa7826b4c52aab426b5452aa3026b3c52a87826b3852a8b426b4052a83026b2852a67826b2452a6b426b2c52a63026b1452a47826b1052a4b426b1852a43026b0052a27826afc52a2b426b0452a23026aec52a07826ae852a0b426af052a03026ad8529e7826ad4529eb426adc529e3026ac4529c7826ac0529cb426ac8529c3026ab0529a7826aac529ab426ab4529a3026a9c52987826a985298b426aa052983026a8852967826a845296b426a8c52963026a7452947826a705294b426a7852943026a6052927826a5c5292b426a6452923026a4c52907826a485290b426a5052903026a38528e7826a34528eb426a3c528e3026a24528c7826a20528cb426a28528c3026a10528a7826a0c528ab426a14528a30269fc528878269f85288b4)
  (.lf 0)) (.nd (.lf
  0x5e048c9becc5df90c9bccc5dde8c9bacc5dd64c9b8cc5dd7cc9b6cc5db68c9b4cc5db4cc9b2cc5dba4c9b0cc5da44c9aecc5db80c9accc5d9bcc9aacc5d910c9a8cc5d8c0c9a6cc5d854c9a4cc5d7fcc9a2cc5d768c9a0cc5d704c99ecc5d65cc99ccc5d680c99acc5d5dcc998cc5d584c996cc5d4c8c994cc5d50cc992cc5d458c990cc5d40cc98ecc5d3c8c98ccc5d31cc98acc5d2e4c988cc5d234c986cc5d24cc984cc5d1d4c982cc5dfb8c9bdd05df20c9bbd05df10c9b9d05dd44c9b7d05dc88c9b5d05dc20c9b3d05dc00c9b1d05da3cc9afd05da2cc9add05d9ecc9abd05d96cc9a9d05d8e8c9a7d05d8acc9a5d05d7f4c9a3d05d790c9a1d05d750c99fd05d6c0c99dd05d698c99bd05d624c999d05d5c0c997d05d4f8c995d05d4dcc993d05d468c991d05d438c98fd05d39cc98dd05d358c98bd05d338c989d05d29cc987d05d27cc985d05d20cc983d05c48cc9811060540cd7ecc604f8cd7ccc)
  (.lf 0)))

def shaWireTree269 : BTree :=
  .nd (.nd (.nd (.lf
  0x71504e27230714e4e270b4714e8e27078714ece27030714d0e26eb4714cce26e78714dce26e30714b8e26cb4714bce26c78714c0e26c30714a8e26ab4714ace26a78714b0e26a3071198e268b47149ce26878714a0e26830710f8e266b471120e2667871190e26630710c4e264b4710ece26478710f0e26430710b4e262b4710b8e26278710bce26230710a0e260b4710a4e26078710a8e260307108ce25eb471090e25e7871098e25e3071074e25cb471078e25c7871080e25c3071064e25ab471068e25a787106ce25a3071050e258b471054e2587871058e2583071040e256b471038e2567871044e2563071024e254b47102ce2547871030e2543071018e252b471014e252787101ce2523071004e250b471000e2507871008e2503070ff0e24eb470fece24e7870ff8e24e3070fdce24cb470fe0e24c7870fe4e24c3070fc4e24ab470fcce24a7870fd0e24a3070ba8e248b470fb8e2487870fbce24830)
  (.lf 0)) (.nd (.lf
  0x5bd6000557d5bce000557b5be5c0055795be100055775bc840055755bf600055735bf040055715bdcc00556f5bd9000556d5bd6400556b5bce40055695be600055675be140055655bc880055635bc600055615d9a800555f5d96400555d5e13400555b5e0100055595ddc80055575dec80055555de780055535dbe40055515db2800554f5dac800554d5da7400554b5dcb00055495d9ac0055475e1380055455e0140055435ddcc0055415ded000553f5de8000553d5dbe800553b5db300055395dacc0055375da780055355e1400055335e01c0055315ddd400552f5ded800552d5de8800552b5dbec0055295db340055275dad00055255da800055235dcb40055215feb400551f5fe8c00551d6056000551b60518005519600040055175ff240055155ff540055135ffcc0055115ff8c00550f5fee000550d5fe1000550b5fe440055095feb80055076056800550560520005503600080055015ff280054ff)
  (.lf 0))) (.nd (.nd (.lf
  0x3ce309086b43ce2c9086783ce349086303ce049084b43ce009084783ce089084303cdd89082b43cdd49082783cddc9082302800c907cb427f8c907c7828010907c3027f80907ab427eec907a7827f84907a3027ee09078b427e5090787827ee490783027e449076b427db090767827e4890763027da49074b427d0c90747827da890743027d009072b427c7090727827d0490723027c649070b427bd090707827c6890703027bc4906eb427b2c906e7827bc8906e3027b20906cb427a88906c7827b24906c3027a7c906ab4279e4906a7827a80906a30279d89068b427948906878279dc9068302793c9066b4278a8906678279409066302789c9064b42780c906478278a0906430278009062b42777490627827804906230277689060b4276d49060782776c906030276c8905eb427638905e78276cc905e302762c905cb4275a0905c7827630905c3027594905ab427500905a7827598905a30274f49058b4)
  (.lf 0)) (.nd (.lf
  0x282f857facc2830057f8cc2830857f6cc2831057f4cc2831857f2cc2832057f0cc2832857eecc2833057eccc2833857eacc2834057e8cc2834857e6cc2835057e4cc2835857e2cc2836057e0cc2836857decc2837057dccc2837857dacc2838057d8cc2838857d6cc2839057d4cc2839857d2cc283a057d0cc283a857cecc283b057cccc283b857cacc283c057c8cc283c857c6cc283d057c4cc283d857c2cc2863c57fdd02862857fbd02861457f9d02860057f7d0285ec57f5d0285d857f3d0285c457f1d0285b057efd02859c57edd02858857ebd02857457e9d02856057e7d02854c57e5d02853857e3d02852457e1d02851057dfd0284fc57ddd0284e857dbd0284d457d9d0284c057d7d0284ac57d5d02849857d3d02848457d1d02847057cfd02845c57cdd02844857cbd02843457c9d02842057c7d02840c57c5d0283f857c3d0283e057c1102a0fc5abecc2a1045abccc2a10c5abacc2a1145ab8cc)
  (.lf 0)))

def shaWireTree270 : BTree :=
  .nd (.nd (.nd (.lf
  0x31efc79943031e6c79927831df07992b431e7079923031de479907831d647990b431de879903031d58798e7831cd8798eb431d5c798e3031cc4798c7831c44798cb431cc8798c3031c38798a7831bc0798ab431c3c798a3031bb479887831b407988b431bb879883031b3479867831ad07986b431b3879863031abc79847831a5c7984b431ac879843031a5079827831a047982b431a5479823034a307d7c7834a347d7cb434a387d7c3034a207d7a7834a187d7ab434a247d7a3034a087d787834a047d78b434a0c7d7830349f47d7678349f07d76b4349f87d7630349e07d7478349dc7d74b4349e47d7430349cc7d7278349c87d72b4349d47d7230349bc7d7078349b87d70b4349c07d7030349a87d6e78349a47d6eb4349ac7d6e30349907d6c78349947d6cb4349987d6c30349787d6a78349807d6ab4349847d6a303496c7d6878349687d68b4349707d6830349547d6678349507d66b4349587d6630)
  (.lf 0)) (.nd (.lf
  0x39aac789d2c39a7c789b2c39a4c78992c39a1c78972c399ec78952c399bc78932c3998c78912c3995c788f2c39924788d2c398e4788b2c398a078892c3985c78872c3981878852c397cc78832c397a87880cc3b95c7cbf2c3b9487cbd2c3b9347cbb2c3b9207cb92c3b90c7cb72c3b8f87cb52c3b8e47cb32c3b8d07cb12c3b8bc7caf2c3b8a87cad2c3b8947cab2c3b8807ca92c3b86c7ca72c3b8587ca52c3b8447ca32c3b8307ca12c3b81c7c9f2c3b8087c9d2c3b7f47c9b2c3b7e07c992c3b7cc7c972c3b7b87c952c3b7a47c932c3b7907c912c3b77c7c8f2c3b7687c8d2c3b7547c8b2c3b7407c892c3b72c7c872c3b7187c852c3b7047c832c3b7007c80cc3c00480bf2c3bfdc80bd2c3bfb080bb2c3bf8480b92c3bf5880b72c3bf2c80b52c3bf0080b32c3bed480b12c3bea880af2c3be7c80ad2c3be5080ab2c3be2480a92c3bdf880a72c3bdc880a52c3bd9c80a32c3bd7080a12c3bd44809f2c)
  (.lf 0))) (.nd (.nd (.lf
  0x3d18073a1403c0807381e03c880738b403c8c07381403b8407354003c000736a003b0407334003b800734a003a840731f403b000732a0039fc07301e03a7c0730b403a8007301403978072d40039f4072ea0038f8072bf403974072ca003870072a1e038f0072ab4038f4072a14037e407281e038640728b403868072814037600725f4037dc0726a0036d807241e037580724b40375c0724140364c07221e036cc0722b4036d0072214035c007201e036400720b4036440720140353c071df4035b8071ea0034b4071c1e03534071cb403538071c1403430071940034ac071aa0033b00717400342c0718a0033300715f4033ac0716a0032a807141e033280714b40332c07141403224071140032a00712a0031a4070ff4032200710a00311c070e1e0319c070eb4031a0070e1403098070b4003114070ca0030180709f403094070aa002f9007081e030100708b40301407081402f0c07054002f880706a0)
  (.lf 0)) (.nd (.lf
  0x6ae8cd7dbd06ae78d7d9d06ae64d7d7d06ae50d7d5d06ae3cd7d3d06ae2cd7d1d06ada4d7cfd06acf8d7cdd06ac4cd7cbd06abdcd7c9d06ab8cd7c7d06ab40d7c5d06aad4d7c3d06aa8cd7c1106d634dabecc6d424dabccc6d3f8dabacc6d2ccdab8cc6d290dab6cc6d194dab4cc6d684dab2cc6d440dab0cc6d448daaecc6d2e8daaccc6d2f0daaacc6d68cdaa8cc6d494daa6cc6d454daa4cc6d2f8daa2cc6d300daa0cc6d214da9ecc6d108da9ccc6d0ccda9acc6d0a0da98cc6ce1cda96cc6cd94da94cc6cec0da92cc6ccf8da90cc6cc4cda8ecc6d694da8ccc6d45cda8acc6d488da88cc6d334da86cc6d33cda84cc6d21cda82cc6d990dabdd06d97cdabbd06d968dab9d06d954dab7d06d940dab5d06d92cdab3d06d918dab1d06d904daafd06d8ecdaadd06d8dcdaabd06d8c8daa9d06d8b4daa7d06d8a0daa5d06d88cdaa3d06d878daa1d06d864da9fd06d850da9dd06d83cda9bd06d828da99d0)
  (.lf 0)))

def shaWireTree271 : BTree :=
  .nd (.nd (.nd (.lf
  0x4a7189aa8b44a71c9aa8304a7049aa6784a7089aa6b44a70c9aa6304a6f49aa4784a6f89aa4b44a6fc9aa4304a6e09aa2784a6e49aa2b44a6e89aa2304a6d09aa0784a6c89aa0b44a6d49aa0304a6b89a9e784a6b49a9eb44a6bc9a9e304a6a09a9c784a6a89a9cb44a6ac9a9c304a68c9a9a784a6909a9ab44a6949a9a304a67c9a98784a6809a98b44a6849a98304a6689a96784a66c9a96b44a6709a96304a6589a94784a6549a94b44a65c9a94304a63c9a92784a6449a92b44a6489a92304a6289a90784a6309a90b44a6349a90304a6149a8e784a6189a8eb44a61c9a8e304a6049a8c784a6089a8cb44a60c9a8c304a5f09a8a784a5f49a8ab44a5f89a8a304a5e09a88784a5dc9a88b44a5e49a88304a5c49a86784a5c89a86b44a5d09a86304a5b89a84784a5a89a84b44a5bc9a84304a5989a82784a5949a82b44a5a09a82304c13c9a7cb44c1409a7c784c1449a7c304c1109a7ab44c1189a7a78)
  (.lf 0)) (.nd (.lf
  0x5757cb2932c57580b2912c57554b28f2c57544b28d2c57528b28b2c57514b2892c57508b2872c574ecb2852c574ccb2832c574d0b280cc593c8b6bf2c593b4b6bd2c593a0b6bb2c5938cb6b92c59378b6b72c59364b6b52c59350b6b32c5933cb6b12c59328b6af2c59314b6ad2c59300b6ab2c592ecb6a92c592d8b6a72c592c4b6a52c592b0b6a32c5929cb6a12c59288b69f2c59274b69d2c59260b69b2c5924cb6992c59238b6972c59224b6952c59210b6932c591fcb6912c591e8b68f2c591d4b68d2c591bcb68b2c591a8b6892c5919cb6872c59180b6852c5916cb6832c59164b680cc5ba10babf2c5ba08babd2c5b9ecbabb2c5b9d0bab92c5b9bcbab72c5ba04bab52c5b9a4bab32c5b984bab12c5b974baaf2c5b968baad2c5b950baab2c5b934baa92c5b920baa72c5b918baa52c5b900baa32c5b8d8baa12c5b8c8ba9f2c5b8e0ba9d2c5b8a0ba9b2c5b888ba992c5b874ba972c5b8a4ba952c)
  (.lf 0))) (.nd (.nd (.lf
  0x663d8ce205066338ce1e5066290ce1c506627cce1a5066214ce1850661d8ce165065f98ce145065f7cce125065f54ce105065f34ce0e5065e78ce0c506526cce0a5065150ce085065120ce065065100ce045064fb4ce025064f60ce00506692cd23e7866930d23c7866934d23a7866938d238786688cd23678667e8d23478667ccd23278667a8d23078667acd22e78667b0d22c7866640d22a7866680d22878666a0d2267866510d22478663f4d22278663e0d2207866340d21e7866298d21c7866284d21a786621cd21878661e0d2167865fa0d2147865f84d2127865f5cd2107865f3cd20e7865e80d20c7865274d20a7865158d2087865128d2067865108d2047864fbcd2027864f68d2007869104d23e5068f58d23c5068dacd23a5068e24d2385068c14d2365068de4d2345068bccd232506895cd2305068974d22e50688c8d22c5068908d22a50687fcd22850687b8d2265068760d22450686c8d22250)
  (.lf 0)) (.nd (.lf
  0x5f920c49dd05f90cc49bd05f8f8c499d05f8e4c497d05f8d0c495d05f8bcc493d05f8a8c491d05f894c48fd05f880c48dd05f86cc48bd05f858c489d05f844c487d05f830c485d05f820c483d05f550c4811062a50c47ecc62a58c47ccc62a60c47acc62adcc478cc62ae4c476cc62aecc474cc62af4c472cc62afcc470cc62b04c46ecc62b0cc46ccc62b14c46acc62b1cc468cc62b24c466cc62b2cc464cc62b34c462cc62b3cc460cc62b44c45ecc62b4cc45ccc62b54c45acc62b5cc458cc62b64c456cc62b6cc454cc62b74c452cc62b7cc450cc62b84c44ecc62b8cc44ccc62b94c44acc62b9cc448cc62ba4c446cc62bacc444cc62bb4c442cc63080c47dd063068c47bd063044c479d063034c477d063024c475d06300cc473d062fc8c471d062fb0c46fd062f34c46dd062f20c46bd062f0cc469d062eecc467d062edcc465d062ec8c463d062eb4c461d062e9cc45fd062e84c45dd062e6cc45bd0)
  (.lf 0)))

def shaWireTree272 : BTree :=
  .nd (.nd (.nd (.lf
  0x6257cd17f2c62510d17d2c624acd17b2c623ecd1792c62244d1772c62330d1752c6215cd1732c62084d1712c61ff4d16f2c61ee8d16d2c61ea0d16b2c61e58d1692c61d98d1672c61d04d1652c61c9cd1632c61c64d1612c61b58d15f2c61af4d15d2c61ac8d15b2c61a8cd1592c61a0cd1572c619b4d1552c616ccd1532c61650d1512c61614d14f2c615b0d14d2c614ecd14b2c61438d1492c613b0d1472c61364d1452c61344d1432c60ea4d140cc6485cd57f2c6480cd57d2c647acd57b2c64750d5792c646ccd5772c6465cd5752c6464cd5732c643d0d5712c640f8d56f2c64024d56d2c64168d56b2c64144d5692c63f88d5672c63cf4d5652c63c10d5632c63bd0d5612c63be4d55f2c63b38d55d2c63b18d55b2c63b54d5592c63ab8d5572c63948d5552c6391cd5532c63904d5512c638e0d54f2c63408d54d2c63158d54b2c630e0d5492c62f88d5472c62d4cd5452c62ca4d5432c62c3cd540cc)
  (.lf
  0x3bdcc8024cc3bda08022cc3bd748020cc3bd48801ecc3bd1c801ccc3bcf0801acc3bcc08018cc3bc908016cc3bc608014cc3bc348012cc3bc088010cc3bbdc800ecc3bbb0800ccc3bb84800acc3bb588008cc3bb2c8006cc3bafc8004cc3bad08002cc3bff0803dd03bfc4803bd03bf988039d03bf6c8037d03bf408035d03bf148033d03bee88031d03bebc802fd03be90802dd03be64802bd03be388029d03be0c8027d03bde08025d03bdb08023d03bd848021d03bd58801fd03bd2c801dd03bd00801bd03bcd48019d03bca48017d03bc748015d03bc448013d03bc188011d03bbec800fd03bbc0800dd03bb94800bd03bb688009d03bb3c8007d03bb108005d03bae08003d03babc80011040eec84becc40ef484bccc40efc84bacc40f0484b8cc40f0c84b6cc40f1484b4cc40f1c84b2cc40f2484b0cc40f2c84aecc40f3484accc40f9484aacc40f9c84a8cc40fa484a6cc40fac84a4cc40fb484a2cc))
  (.nd (.lf
  0x5d080e205005d0c0e1e5005d100e1c5005d140e1a5005d180e185005d1c0e165005d200e145005d240e125005d280e105005d2c0e0e5005d300e0c5005d340e0a5005d380e085005d3c0e065005d400e045005d440e025005d480e005005dcc123e7805dd0123c7805dd4123a7805dd812387805ddc12367805de012347805de412327805de812307805dec122e7805df0122c7805df4122a7805df812287805dfc12267805e0012247805e0412227805e0812207805e0c121e7805e10121c7805e14121a7805e1812187805e1c12167805e2012147805e2412127805e2812107805e2c120e7805e30120c7805e34120a7805e3812087805e3c12067805e4012047805e4412027805e48120078075d8123e50075dc123c50075e0123a50075e4123850075e8123650075ec123450075f0123250075f4123050075f8122e50075fc122c5007600122a5007604122850076081226500760c12245007610122250)
  (.lf 0))) (.nd (.nd (.lf
  0x3df147e5c783df187e5c303def87e5ab43defc7e5a783df007e5a303dee47e58b43ded47e58783dee87e58303dec47e56b43dec87e56783decc7e56303deac7e54b43deb07e54783deb47e54303de907e52b43de9c7e52783dea07e52303de787e50b43de7c7e50783de887e50303de647e4eb43de607e4e783de707e4e303de547e4cb43de507e4c783de587e4c303de387e4ab43de3c7e4a783de407e4a303de207e48b43de247e48783de287e48303de0c7e46b43de087e46783de147e46303ddfc7e44b43dde07e44783de007e44303ddd47e42b43ddc07e42783ddd87e42303e2fc7efcb43e2f87efc783e3007efc303e2ec7efab43e2e47efa783e2f07efa303e2d47ef8b43e2d87ef8783e2dc7ef8303e2bc7ef6b43e2c07ef6783e2c47ef6303e2ac7ef4b43e2a87ef4783e2b07ef4303e29c7ef2b43e2907ef2783e2a07ef2303e2807ef0b43e2847ef0783e2887ef0303e26c7eeeb43e2707eee78)
  (.lf 0)) (.nd (.lf
  0x13cf43213b013cf83211b013cfc320fb013d00320db013d04320bb013d083209b013d0c3207b013d103205b013d143203b013d183201b014c28363fb014c2c363db014c30363bb014c343639b014c383637b014c3c3635b014c403633b014c443631b014c48362fb014c4c362db014c50362bb014c543629b014c583627b014c5c3625b014c603623b014c643621b014c68361fb014c6c361db014c70361bb014c743619b014c783617b014c7c3615b014c803613b014c843611b014c88360fb014c8c360db014c90360bb014c943609b014c983607b014c9c3605b014ca03603b014ca43601b0168b03a3fb0168b43a3db0168b83a3bb0168bc3a39b0168c03a37b0168c43a35b0168c83a33b0168cc3a31b0168d03a2fb0168d43a2db0168d83a2bb0168dc3a29b0168e03a27b0168e43a25b0168e83a23b0168ec3a21b0168f03a1fb0168f43a1db0168f83a1bb0168fc3a19b0169003a17b0169043a15b0)
  (.lf 0)))

def shaWireTree273 : BTree :=
  .nd (.nd (.nd (.lf
  0xfbe4359c300fb50359a780fae0359ab40fb54359a300fad43598780fa543598b40fad83598300fa483596780f9c43596b40fa4c3596300f9b83594780f9483594b40f9bc3594300f93c3592780f8bc3592b40f9403592300f8b03590780f82c3590b40f8b43590300f820358e780f7ac358eb40f824358e300f7a0358c780f72c358cb40f7a4358c300f720358a780f6ac358ab40f724358a300f6a03588780f62c3588b40f6a43588300f6203586780f5ac3586b40f6243586300f5a03584780f52c3584b40f5a43584300f5203582780f4f03582b40f52435823011c7c397c7811ce8397cb411cec397c3011bec397a7811c70397ab411c74397a3011b6c39787811be03978b411be439783011af039767811b603976b411b6439763011a6039747811ae43974b411ae8397430119e039727811a543972b411a5839723011960397078119d43970b4119d8397030118e0396e7811954396eb411958396e30)
  (.lf 0)) (.nd (.lf
  0x1e6a4004d7d1e6ac004d7b1e6b4004d791e6bc004d771e6c4004d751e6cc004d731e6d4004d711e6dc004d6f1e6e4004d6d1e6ec004d6b1e6f4004d691e6fc004d671e704004d651e70c004d631e714004d613d3c0004d5f3d3c8004d5d3d3d0004d5b3d44c004d593d454004d573d45c004d553d464004d533d46c004d513d474004d4f3d47c004d4d3d484004d4b3d48c004d493d494004d473d49c004d453d4a4004d433d4ac004d413d4b4004d3f3d4bc004d3d3d4c4004d3b3d4cc004d393d4d4004d373d4dc004d353d4e4004d333d4ec004d313d4f4004d2f3d4fc004d2d3d504004d2b3d50c004d293d514004d273d51c004d253d524004d233d52c004d211e97c004d1f1e980004d1d1e984004d1b1e9fc004d191ea00004d171ea04004d151ea08004d131ea0c004d111ea10004d0f1ea14004d0d1ea18004d0b1ea1c004d091ea20004d071ea24004d051ea28004d031ea2c004d011ea30004cff)
  (.lf 0))) (.nd (.nd (.lf
  0x6c63cdc8e306c620dc8cb46c624dc8c786c628dc8c306c60cdc8ab46c614dc8a786c618dc8a306c600dc88b46c5fcdc88786c604dc88306c5ecdc86b46c5e0dc86786c5f0dc86306c5d4dc84b46c5d0dc84786c5d8dc84306c5bcdc82b46c5c4dc82786c5c8dc823070528dc7cb470538dc7c787053cdc7c3070518dc7ab470514dc7a787051cdc7a30704a4dc78b4704f4dc7878704f8dc7830702e8dc76b470498dc76787049cdc7630702d4dc74b4702d0dc7478702e0dc7430702c4dc72b4702c0dc7278702c8dc7230702a0dc70b4702acdc7078702b0dc703070294dc6eb470290dc6e7870298dc6e3070214dc6cb470210dc6c7870218dc6c30701f4dc6ab4701f0dc6a78701f8dc6a30701e0dc68b4701e4dc6878701e8dc6830701b8dc66b4701bcdc6678701c0dc66307018cdc64b470188dc647870190dc64307015cdc62b470138dc627870160dc62307012cdc60b470128dc607870130dc6030)
  (.lf 0)) (.nd (.lf
  0x51118a7f3d051104a7f1d0510f0a7efd0510dca7edd0510c8a7ebd0510b4a7e9d0510a0a7e7d051088a7e5d051074a7e3d051060a7e1d05104ca7dfd05103ca7ddd051028a7dbd05100ca7d9d050ff4a7d7d050fe0a7d5d050fcca7d3d050fbca7d1d050f78a7cfd050ec4a7cdd050e60a7cbd050e04a7c9d050df4a7c7d050de4a7c5d050d1ca7c3d050cbca7c11052ea8aabecc52e88aabccc52da4aabacc52d80aab8cc52d4caab6cc52d54aab4cc52ec4aab2cc52eccaab0cc52dccaaaecc52dd4aaaccc52ddcaaaacc52ed4aaa8cc52edcaaa6cc52de4aaa4cc52decaaa2cc52df4aaa0cc52e44aa9ecc52cfcaa9ccc52d14aa9acc52c88aa98cc52ca8aa96cc52c1caa94cc52c24aa92cc52c44aa90cc52b90aa8ecc52ee4aa8ccc52f14aa8acc52e00aa88cc52e08aa86cc52e10aa84cc52e28aa82cc530f0aabdd0530dcaabbd0530c8aab9d0530b4aab7d0530a0aab5d053088aab3d053078aab1d0)
  (.lf 0)))

def shaWireTree274 : BTree :=
  .nd (.nd (.nd (.lf
  0x768e0ed5ab4768e4ed5a30767e8ed587876884ed58b476888ed583076768ed5678767c8ed56b4767cced5630766e0ed54787675ced54b476760ed5430766d0ed5278766d4ed52b4766d8ed5230766b0ed5078766aced50b4766b4ed503076688ed4e78766a0ed4eb4766a4ed4e3076644ed4c787667ced4cb476680ed4c3076478ed4a78765d8ed4ab476638ed4a307646ced487876444ed48b476470ed4830763bced467876400ed46b476404ed4630763b0ed44787639ced44b4763b4ed443075de4ed427876300ed42b476390ed423077600edbc7877548edbcb477604edbc307753cedba7877340edbab477540edba3077324edb878771c0edb8b477328edb830771b4edb67877098edb6b4771b8edb63077060edb47876f6cedb4b477064edb43076f50edb27876f40edb2b476f54edb23076f34edb07876e14edb0b476f38edb03076e04edae7876d84edaeb476e0cedae3076d5cedac7876cccedacb4)
  (.lf 0)) (.nd (.lf
  0x63380ec2b4063340ec2780633c0ec230836e50dbc78836e90dbcb4836ed0dbc30836d90dba78836b10dbab4836dd0dba30836a50db878836910db8b4836a90db830836810db678836850db6b4836890db6308365d0db478836710db4b4836750db4308364d0db278836510db2b4836550db230836390db078836350db0b48363d0db030836210dae78836290daeb48362d0dae30836090dac78836150dacb4836190dac30835fd0daa78835810daab4836010daa30835650da878835750da8b4835790da8308354d0da678835510da6b4835550da630835190da478835050da4b48351d0da430834f90da278834850da2b4834fd0da230834750da07882df50da0b48347d0da03082de10d9e7882ddd0d9eb482de50d9e3082dd10d9c7882dc50d9cb482dd50d9c3082db90d9a7882db50d9ab482dbd0d9a3082da90d987882cf90d98b482dad0d983082ced0d967882cc90d96b482cf10d963082cbd0d9478)
  (.lf 0))) (.nd (.nd (.lf
  0xf9f43656780fa7c3656300f9e83654b40f9783654780f9ec3654300f96c3652b40f8ec3652780f9703652300f8e03650b40f85c3650780f8e43650300f850364eb40f7dc364e780f854364e300f7d0364cb40f75c364c780f7d4364c300f750364ab40f6dc364a780f754364a300f6d03648b40f65c3648780f6d43648300f6503646b40f5dc3646780f6543646300f5d03644b40f55c3644780f5d43644300f5503642b40f5083642780f55436423015c4c36fcb415c7836fc7815c7c36fc3015c1436fab415c4036fa7815c4436fa3015bdc36f8b415c0836f87815c0c36f83015ba436f6b415bd036f67815bd436f63015b6c36f4b415b9836f47815b9c36f43015b3436f2b415b6036f27815b6436f23015afc36f0b415b2836f07815b2c36f03015abc36eeb415af036ee7815af436ee3015a7836ecb415ab036ec7815ab436ec3015a3c36eab415a6c36ea7815a7036ea30159fc36e8b415a3036e878)
  (.lf 0)) (.nd (.lf
  0x294f46586cc294f06584cc294ec6582cc298ac65bdd02989865bbd02988465b9d02987065b7d02985c65b5d02984865b3d02983465b1d02982065afd02980c65add0297f865abd0297e465a9d0297d065a7d0297bc65a5d0297a865a3d02979465a1d029780659fd02976c659dd029758659bd0297446599d0297306597d02971c6595d0297086593d0296f46591d0296e0658fd0296cc658dd0296b8658bd0296a46589d0296906587d02967c6585d0296686583d0294e46581102b39c697ecc2b3a4697ccc2b2ec697acc2b3b46978cc2b3a86976cc2b4c46974cc2b4c86972cc2b4fc6970cc2b4c0696ecc2b3b0696ccc2af58696acc2aee06968cc2ae646966cc2adf06964cc2ad806962cc2ad106960cc2aca0695ecc2ac28695ccc2abb4695acc2ab3c6958cc2aac86956cc2aa506954cc2a9e06952cc2a9746950cc2a900694ecc2a888694ccc2a810694acc2a7a06948cc2a7286946cc2a6ac6944cc)
  (.lf 0)))

def shaWireTree275 : BTree :=
  .nd (.nd (.nd (.lf
  0x63488c6de786348cc6de306346cc6dcb463468c6dc7863470c6dc3063458c6dab46345cc6da7863460c6da306343cc6d8b463440c6d87863448c6d83063334c6d6b463340c6d67863434c6d630632f4c6d4b46328cc6d4786332cc6d43063280c6d2b463250c6d27863284c6d23063240c6d0b4631fcc6d07863248c6d030631e8c6ceb4631f0c6ce78631f4c6ce30631ccc6ccb46313cc6cc78631e0c6cc3063118c6cab4630dcc6ca7863134c6ca30630c0c6c8b462f6cc6c878630c4c6c83062f60c6c6b462d0cc6c67862f64c6c63062d00c6c4b462c94c6c47862d04c6c43062c88c6c2b462c84c6c27862c8cc6c23063f4cc738aa63f5cc736aa63f20c734aa63f0cc732aa63ee8c72aaa63dbcc728aa63ce4c724aa634f8c722aa63498c720aa63478c71caa63454c71aaa6333cc716aa63328c714aa64470c73b4064484c73ca06445cc739f46446cc73aa064454c7381e641a0c738b464458c73814)
  (.lf 0)) (.nd (.lf
  0x16e843b1cb416e483b1ab416e0c3b18b416dd03b16b416d903b154a16d483b134a16d043b10b416cc83b0f4a16c883b0cb416c4c3b0b4a16c0c3b08b416bd43b06b416b983b054a16b543b034a16b3c3b00aa188b43f3f4a188743f3d4a188343f3ab4187fc3f38b4187c43f36b41878c3f34b4187543f32b4187143f314a186cc3f2f4a186883f2cb41864c3f2ab41860c3f294a185c43f274a185843f24b4185483f234a185043f214a184c03f1f4a1847c3f1d4a184383f1b4a183f43f194a183b43f16b41837c3f14b4183443f12b4183083f114a182c83f0eb41828c3f0d4a182483f0b4a182043f094a181c43f06b4181903f04aa181583ec32c1813c3ec0cc20810433f4a2076c433d4a206a8433b4a205ec4338b4205344336b42047c43354a203bc4332b4203084330b42024c432f4a20190432cb4200d8432ab42002043294a1ff5c43274a1fea04324b41fde443234a1fd2443214a1fc64431eb4)
  (.lf 0))) (.nd (.nd (.lf
  0x2de10600eb42de74600e782de78600e302dd9c600cb42de04600c782de08600c302dd2c600ab42dd90600a782dd94600a302dcb86008b42dd206008782dd246008302dc386006b42dcac6006782dcb06006302dbb86004b42dc2c6004782dc306004302db506002b42dbac6002782dbb0600230309ac64bcb4309a864bc78309b064bc303094c64bab43094864ba783095064ba30308d864b8b4308d464b878308dc64b8303086864b6b43086464b6783086c64b630307f464b4b4307f064b478307f864b4303078464b2b43078064b2783078864b2303071464b0b43071064b0783071864b0303069464aeb43069064ae783069864ae303061464acb43061064ac783061864ac303059464aab43059064aa783059864aa303050c64a8b43050864a8783051064a8303048064a6b43047c64a6783048464a630303fc64a4b4303f864a4783040064a4303037c64a2b43037864a2783038064a230302fc64a0b4)
  (.lf 0)) (.nd (.lf
  0xfecc26e7d00fe4c26e5d00fdcc26e3d00fd4426e1d00fcb826dfd00fc3426ddd00fbac26dbd00fb2826d9d00faa026d7d00fa1426d5d00f99026d3d00f90826d1d00f87c26cfd00f7f826cdd00f77826cbd00f6f826c9d00f67826c7d00f5f826c5d00f57826c3d00f4dc26c11010458273d40102d82737401014c27314010040272d400fd342721f40fca8271f400fb9c271b400fa902717f40fa042715400f8f82711f40f86c270f400ee7c27fecc0ee8427fccc0ee8c27facc0ee9427f8cc0ee9c27f6cc0eea427f4cc0eeac27f2cc0eeb427f0cc0eebc27eecc0eec427eccc0eecc27eacc0eed427e8cc0eedc27e6cc0eee427e4cc0eeec27e2cc0eef427e0cc0eefc27decc0ef0427dccc0ef0c27dacc0ef1427d8cc0ef1c27d6cc0ef2427d4cc0ef2c27d2cc0ef3427d0cc0ef3c27cecc0ef4427cccc0ef4c27cacc0ef5427c8cc0ef5c27c6cc0ef6427c4cc0ef6c27c2cc0f1d027fdd00f1bc27fbd0)
  (.lf 0)))

def shaWireTree276 : BTree :=
  .nd (.nd (.nd (.lf
  0x5c1a0000a4b5c1a4000a495c1a8000a475c1ac000a455c1b0000a435c1b4000a415e480000a3f5e484000a3d5e488000a3b5e48c000a395e490000a375e494000a355e498000a335e49c000a315e4a0000a2f5e4a4000a2d5e4a8000a2b5e4ac000a295e4b0000a275e4b4000a255e4b8000a235e4bc000a215e4c0000a1f5e4c4000a1d5e4c8000a1b5e4cc000a195e4d0000a175e4d4000a155e4d8000a135e4dc000a115e4e0000a0f5e4e4000a0d5e4e8000a0b5e4ec000a095e4f0000a0760754000a0560758000a036075c000a01607600009ff607640009fd607680009fb6076c0009f9607700009f7607740009f5607780009f36077c0009f1607800009ef607840009ed607880009eb6078c0009e9607900009e7607940009e5607980009e36079c0009e1607a00009df607a40009dd607a80009db607ac0009d9607b00009d7607b40009d5607b80009d3607bc0009d1607c00009cf607c40009cd)
  (.lf 0)) (.nd (.lf
  0x523acaba03052384ab9e3052338ab9c3052350ab9a305230cab9830522c4ab9630522a4ab9430522f0ab923051ec8ab903051e18ab8e3051ddcab8c3051d7cab8a3051d44ab883051cccab863052270ab843051958ab8230518ecab803055168afbeb455120afbcb4550e0afbab4550acafb8b454fe0afb6b4551a4afb4b454f90afb2b454f4cafb0b455010afaeb454f04afacb454ed4afaab454ea0afa8b454e74afa6b454e34afa4b454e14afa2b454de8afa0b454dc4af9eb454da4af9cb454d74af9ab454d54af98b454d20af96b454ce8af94b454cfcaf92b454cc4af90b454c94af8eb454e50af8cb453e48af8ab453e70af88b453d54af86b453d24af84b453c60af82b453c24af80b452770afbe785274cafbc7852704afba78526acafb87852594afb678525c4afb478525f4afb27852524afb078524f0afae78524b0afac7852474afaa7852434afa87852450afa678523f0afa478523d0afa278)
  (.lf 0))) (.nd (.nd (.lf
  0x2ad085a62b42ad6c5a62782ad705a62302ac985a60b42acfc5a60782ad005a60302ac205a5eb42ac8c5a5e782ac905a5e302abac5a5cb42ac145a5c782ac185a5c302ab345a5ab42aba05a5a782aba45a5a302aac05a58b42ab285a58782ab2c5a58302aa4c5a56b42aab45a56782aab85a56302a9dc5a54b42aa405a54782aa445a54302a9705a52b42a9d05a52782a9d45a52302a8fc5a50b42a9645a50782a9685a50302a8845a4eb42a8f05a4e782a8f45a4e302a80c5a4cb42a8785a4c782a87c5a4c302a79c5a4ab42a8005a4a782a8045a4a302a7245a48b42a7905a48782a7945a48302a6a85a46b42a7185a46782a71c5a46302a6245a44b42a69c5a44782a6a05a44302a5d05a42b42a6185a42782a61c5a42302b3445afcb42b2d85afc782b3485afc302b2cc5afab42b2685afa782b2d05afa302b25c5af8b42b1f45af8782b2605af8302b1e85af6b42b17c5af6782b1ec5af6302b1705af4b4)
  (.lf 0)) (.nd (.lf
  0x6f804e9bbd06f7f4e9b9d06f780e9b7d06f76ce9b5d06f75ce9b3d06f700e9b1d06f6f0e9afd06f6a0e9add06f690e9abd06f644e9a9d06f630e9a7d06f600e9a5d06f59ce9a3d06f550e9a1d06f540e99fd06f530e99dd06f4e8e99bd06f4d8e999d06f4c4e997d06f4a0e995d06ef74e993d06ef54e991d06ef44e98fd06ef0ce98dd06eefce98bd06e2f4e989d06e2d4e987d06e294e985d06e23ce983d06e21ce9811077774ed7ecc77610ed7ccc774d8ed7acc77438ed78cc771aced76cc7705ced74cc76f5ced72cc76ea0ed70cc76de8ed6ecc76da4ed6ccc76cd0ed6acc76c60ed68cc76b9ced66cc76b14ed64cc76a94ed62cc76a68ed60cc769a0ed5ecc7692ced5ccc768a4ed5acc76868ed58cc767eced56cc76734ed54cc76534ed52cc76538ed50cc76678ed4ecc764e8ed4ccc765e0ed4acc76430ed48cc763d0ed46cc762eced44cc76324ed42cc77648ed7dd077498ed7bd07733ced79d0)
  (.lf 0)))

def shaWireTree277 : BTree :=
  .nd (.nd (.nd (.lf
  0x7aa84eaf2787aa88eaf2307aa70eaf0b47aa74eaf0787aa78eaf0307a97ceaeeb47a998eaee787a99ceaee307a944eaecb47a96ceaec787a974eaec307a92ceaeab47a938eaea787a93ceaea307a920eae8b47a91ceae8787a924eae8307a90ceae6b47a908eae6787a914eae6307a8f8eae4b47a8fceae4787a900eae4307a8e4eae2b47a8e0eae2787a8eceae2307a8d0eae0b47a8cceae0787a8d8eae0307a8b8eadeb47a8bceade787a8c0eade307a8a4eadcb47a8aceadc787a8b0eadc307a894eadab47a888eada787a898eada307a87cead8b47a878ead8787a880ead8307a85cead6b47a858ead6787a860ead6307a6c0ead4b47a6e0ead4787a6e4ead4307a628ead2b47a6b4ead2787a6b8ead2307a61cead0b47a618ead0787a620ead0307a608eaceb47a604eace787a60ceace307a5f4eaccb47a5f0eacc787a5f8eacc307a5e0eacab47a5dceaca787a5e4eaca307a5d0eac8b47a5c4eac878)
  (.lf 0)) (.nd (.lf
  0x161d43b9dd0161d83b9bd0161dc3b99d0161e03b97d0161e43b95d0161e83b93d0161ec3b91d0161f03b8fd0161f43b8dd0161f83b8bd0161fc3b89d0162003b87d0162043b85d0162083b83d01620c3b81d0179543fbfd0179583fbdd01795c3fbbd0179603fb9d0179643fb7d0179683fb5d01796c3fb3d0179703fb1d0179743fafd0179783fadd01797c3fabd0179803fa9d0179843fa7d0179883fa5d01798c3fa3d0179903fa1d0179943f9fd0179983f9dd01799c3f9bd0179a03f99d0179a43f97d0179a83f95d0179ac3f93d0179b03f91d0179b43f8fd0179b83f8dd0179bc3f8bd0179c03f89d0179c43f87d0179c83f85d0179cc3f83d0179d03f81d018f4443bfd018f4843bdd018f4c43bbd018f5043b9d018f5443b7d018f5843b5d018f5c43b3d018f6043b1d018f6443afd018f6843add018f6c43abd018f7043a9d018f7443a7d018f7843a5d018f7c43a3d018f8043a1d018f84439fd0)
  (.lf 0))) (.nd (.nd (.lf
  0x4c908a0ac784c910a0ac304c8f8a0aab44c8f4a0aa784c8fca0aa304c8e4a0a8b44c8e0a0a8784c8e8a0a8304c8d0a0a6b44c8cca0a6784c8d4a0a6304c8bca0a4b44c8b8a0a4784c8c0a0a4304c8a8a0a2b44c8a4a0a2784c8aca0a2304c894a0a0b44c890a0a0784c898a0a0304c880a09eb44c87ca09e784c884a09e304c86ca09cb44c868a09c784c870a09c304c858a09ab44c854a09a784c85ca09a304c844a098b44c840a098784c848a098304c830a096b44c82ca096784c834a096304c81ca094b44c818a094784c820a094304c808a092b44c804a092784c80ca092304c7f4a090b44c7f0a090784c7f8a090304c7e0a08eb44c7dca08e784c7e4a08e304c7cca08cb44c7c8a08c784c7d0a08c304c7b8a08ab44c7b4a08a784c7bca08a304c7a4a088b44c7a0a088784c7a8a088304c790a086b44c78ca086784c794a086304c77ca084b44c778a084784c780a084304c768a082b44c764a08278)
  (.lf 0)) (.nd (.lf
  0x304b86729f43042c67274030220671ff430194671df430108671b402fefc6713f42fe706711402fce4670bf42fc586709402fb546705f42fac86703402f19c67fecc2f1a467fccc2f33067facc2f1f867f8cc2f20067f6cc2f20867f4cc2f21067f2cc2f21867f0cc2f28c67eecc2f08067eccc2f08867eacc2f09067e8cc2f31c67e6cc2f22067e4cc2f33867e2cc2f22867e0cc2f23067decc2f23867dccc2f27867dacc2f0dc67d8cc2f29467d6cc2f09c67d4cc2f24467d2cc2f24c67d0cc2f25467cecc2f34067cccc2f25c67cacc2f26467c8cc2f0e467c6cc2f0a467c4cc2f0ac67c2cc2f53067fdd02f51c67fbd02f50867f9d02f4f467f7d02f4e067f5d02f4cc67f3d02f4b867f1d02f4a467efd02f49067edd02f47c67ebd02f46867e9d02f45467e7d02f44067e5d02f42c67e3d02f41867e1d02f40467dfd02f3f067ddd02f3dc67dbd02f3c867d9d02f3b467d7d02f3a067d5d02f38c67d3d0)
  (.lf 0)))

def shaWireTree278 : BTree :=
  .nd (.nd (.nd (.lf
  0x3fff491b8783fff891b8b43fffc91b8303ffe091b6783ffdc91b6b43ffe491b6303ffc091b4783ffc491b4b43ffc891b4303ffac91b2783ffb491b2b43ffb891b2303ff9891b0783ff9c91b0b43ffa091b0303ff8891ae783ff8c91aeb43ff9091ae303ff7491ac783ff7891acb43ff7c91ac303ff6491aa783ff6091aab43ff6891aa303ff4c91a8783ff4891a8b43ff5091a8303ff3491a6783ff3091a6b43ff3891a6303ff1891a4783ff1c91a4b43ff2091a4303ff0891a2783ff0491a2b43ff1091a2303fef891a0783fef491a0b43fefc91a0303fed4919e783fec0919eb43fed8919e303feb4919c783feb0919cb43feb8919c303fea0919a783fe94919ab43fea4919a303fe889198783fe849198b43fe8c9198303fe649196783f7709196b43fe689196303f7609194783f7089194b43f7689194303f6fc9192783f6a09192b43f7009192303f68c9190783f61c9190b43f6909190303f610918e78)
  (.lf 0)) (.nd (.lf
  0x744c4f89d2c7448cf89b2c745ecf8992c7445cf8972c743e0f8952c743e8f8932c7437cf8912c74330f88f2c74340f88d2c74308f88b2c742f0f8892c74344f8872c742d0f8852c742b8f8832c742b0f880cc75054fcbf2c7504cfcbd2c75030fcbb2c7501cfcb92c75004fcb72c74ff4fcb52c74fe4fcb32c74fc8fcb12c74fb4fcaf2c74fa4fcad2c74f8cfcab2c74f7cfca92c74f64fca72c74f50fca52c74f3cfca32c74f28fca12c74f14fc9f2c74f00fc9d2c74f18fc9b2c75058fc992c74ec8fc972c74edcfc952c74ea4fc932c74e90fc912c74e78fc8f2c74d6cfc8d2c74d58fc8b2c74d44fc892c74cd4fc872c74cacfc852c74c58fc832c74c44fc80cc207f0407f2c2074c407d2c20688407b2c205d040792c2051840772c2045c40752c203a040732c202ec40712c2022c406f2c20174406d2c200bc406b2c2000040692c1ff3c40672c1fe8440652c1fdc440632c1fd0440612c1fc48405f2c)
  (.lf 0))) (.nd (.nd (.lf
  0x1a24126ab401a04126a7801a28126a30019f81268b4019d8126878019fc126830019cc1266b4019ac126678019d0126630019a01264b401980126478019a4126430019741262b40195412627801978126230019481260b4019281260780194c1260300191c125eb4018fc125e7801920125e30018f0125cb4018d0125c78018f4125c30018c4125ab4018a4125a78018c8125a30018981258b4018781258780189c1258300186c1256b40184c12567801870125630018401254b40182012547801844125430018141252b4017f412527801818125230017e81250b4017c8125078017ec125030017bc124eb40179c124e78017c0124e3001790124cb401770124c7801794124c3001764124ab401744124a7801768124a30017381248b4017181248780173c1248300170c1246b4016ec12467801710124630016e01244b4016c0124478016e4124430016b41242b401628124278016b81242300882c12fcb4)
  (.lf 0)) (.nd (.lf
  0x7a204ea9acc7a1ccea98cc7a170ea96cc7a178ea94cc7a1a4ea92cc7a100ea90cc7a0d0ea8ecc7a4acea8ccc7a40cea8acc7a3ccea88cc7a500ea86cc7a438ea84cc7a2ccea82cc7aa5ceabdd07aa3ceabbd07aa24eab9d07aa0ceab7d07a9f4eab5d07a9dceab3d07a9c4eab1d07a9aceaafd07a98ceaadd07a95ceaabd07a7e0eaa9d07a7c8eaa7d07a7b0eaa5d07a798eaa3d07a780eaa1d07a768ea9fd07a750ea9dd07a738ea9bd07a720ea99d07a708ea97d07a6f0ea95d07a6d4ea93d07a6a8ea91d07a5a8ea8fd07a594ea8dd07a530ea8bd07a520ea89d07a510ea87d07a370ea85d07a2d8ea83d07a244ea811072cecea7ecc72cbcea7ccc72c84ea7acc72c64ea78cc72d18ea76cc72fe4ea74cc72bfcea72cc72bc4ea70cc72bacea6ecc72b64ea6ccc72b48ea6acc72af4ea68cc73104ea66cc72ab0ea64cc72a98ea62cc72a78ea60cc72a1cea5ecc72a04ea5ccc72a0cea5acc72a60ea58cc)
  (.lf 0)))

def shaWireTree279 : BTree :=
  .nd (.nd (.nd (.lf
  0x4fc0ca24cb44fc08a24c784fc70a24c304f5a4a24ab44f5a8a24a784fc00a24a304f584a248b44f598a248784f59ca248304f574a246b44f578a246784f57ca246304f568a244b44f564a244784f56ca244304f504a242b44f550a242784f554a2423050414a2fcb450320a2fc7850418a2fc3050310a2fab450304a2fa7850314a2fa30502f0a2f8b4502f8a2f878502fca2f830502e4a2f6b4502dca2f678502e8a2f630502c8a2f4b4502d0a2f478502d4a2f430502bca2f2b4502b0a2f278502c0a2f230502a4a2f0b4502a0a2f078502a8a2f03050290a2eeb45028ca2ee7850294a2ee3050278a2ecb450274a2ec785027ca2ec3050264a2eab450260a2ea7850268a2ea3050244a2e8b450240a2e87850248a2e83050214a2e6b450210a2e67850218a2e630501f0a2e4b4501eca2e478501f4a2e430501c0a2e2b45009ca2e278501c4a2e23050084a2e0b450080a2e07850088a2e0305006ca2deb4)
  (.lf 0)) (.nd (.lf
  0xe0b032532c0e03832512c0dfa4324f2c0df2c324d2c0deac324b2c0de1832492c0dd9c32472c0dd2432452c0dcb032432c0dc643240cc1049c367f2c10450367d2c103dc367b2c1034836792c102d036772c1025036752c101bc36732c1014436712c100b0366f2c10038366d2c0ffb8366b2c0ff3836692c0feb836672c0fe3836652c0fda436632c0fd1836612c0fca0365f2c0fc0c365d2c0fb94365b2c0fb0036592c0fa7436572c0f9fc36552c0f96836532c0f8dc36512c0f864364f2c0f7e4364d2c0f764364b2c0f6e436492c0f66436472c0f5e436452c0f56436432c0f5043640cc11d583a7f2c11d0c3a7d2c11c843a7b2c11c0c3a792c11b8c3a772c11af83a752c11a803a732c11a003a712c119803a6f2c119003a6d2c1186c3a6b2c117e03a692c117683a672c116e83a652c116683a632c115d43a612c115483a5f2c114d03a5d2c114503a5b2c113d03a592c113503a572c112bc3a552c)
  (.lf 0))) (.nd (.nd (.lf
  0xdaf80027010dafc0026ff0db000026fd0db040026fb0db080026f90db0c0026f70db100026f50db140026f30db180026f10db1c0026ef0db200026ed0db240026eb0db280026e90db2c0026e70db300026e50db340026e30db380026e10f3580026df0f35c0026dd0f3600026db0f3640026d90f3680026d70f36c0026d50f3700026d30f3740026d10f3780026cf0f37c0026cd0f3800026cb0f3840026c90f3880026c70f38c0026c50f3900026c30f3940026c10f3980026bf0f39c0026bd0f3a00026bb0f3a40026b90f3a80026b70f3ac0026b50f3b00026b30f3b40026b10f3b80026af0f3bc0026ad0f3c00026ab0f3c40026a90f3c80026a70f3cc0026a50f3d00026a30f3d40026a110c0000269f10c0400269d10c0800269b10c0c00269910c1000269710c1400269510c1800269310c1c00269110c2000268f10c2400268d10c2800268b10c2c00268910c3000268710c3400268510c38002683)
  (.lf 0)) (.nd (.lf
  0x6def8d81ccc6de74d81acc6de60d818cc6de48d816cc6de20d814cc6dde4d812cc6ddc4d810cc6dd88d80ecc6dd5cd80ccc6dd18d80acc6dcf4d808cc6dcc0d806cc6dc64d804cc6dbe4d802cc6e4e8d83dd06e4d0d83bd06e4c0d839d06e3e0d837d06e3c8d835d06e3b8d833d06e3a4d831d06e390d82fd06e37cd82dd06e368d82bd06e350d829d06e340d827d06e318d825d06e0c0d823d06e0a8d821d06e094d81fd06e074d81dd06e060d81bd06e04cd819d06e034d817d06e01cd815d06ddfcd813d06ddbcd811d06dd84d80fd06dd54d80dd06dd30d80bd06dcecd809d06dcb8d807d06dc60d805d06dc10d803d06dbd8d801106c48cdcbecc6c494dcbccc6c49cdcbacc6c4a4dcb8cc6c4acdcb6cc6c4b4dcb4cc6c4bcdcb2cc6c4c4dcb0cc6c4ccdcaecc6c10cdcaccc6c510dcaacc6c518dca8cc6c520dca6cc6c528dca4cc6c530dca2cc6c538dca0cc6c540dc9ecc6c548dc9ccc6c550dc9acc)
  (.lf 0)))

def shaWireTree280 : BTree :=
  .nd (.nd (.nd (.lf
  0x17850497f2c17848497d2c17828497b2c1781449792c177f849772c1780049752c177d449732c1780449712c177b8496f2c1779c496d2c17784496b2c1777049692c1776049672c1774c49652c1778c49632c1772849612c17710495f2c176fc495d2c176e8495b2c176d449592c176d849572c176b849552c1769c49532c1768449512c17668494f2c17660494d2c17670494b2c1766c49492c1762c49472c173d849452c1738449432c173784940cc18e404d7f2c18e384d7d2c18e1c4d7b2c18e004d792c18de84d772c18de04d752c18dec4d732c18db04d712c18e144d6f2c18d884d6d2c18d744d6b2c18d5c4d692c18d604d672c18d3c4d652c18d244d632c18d8c4d612c18cfc4d5f2c18ce84d5d2c18cd04d5b2c18cd44d592c18cac4d572c18c9c4d552c18d004d532c18c704d512c18c5c4d4f2c18c484d4d2c18c404d4b2c18c204d492c18c0c4d472c18c744d452c18be44d432c18bd84d40cc)
  (.lf
  0x1c4485428cc1c41c5426cc1c3f05424cc1c3c45422cc1c3985420cc1c36c541ecc1c340541ccc1c314541acc1c2e85418cc1c2bc5416cc1c2905414cc1c2645412cc1c2385410cc1c20c540ecc1c1e0540ccc1c1b4540acc1c1885408cc1c15c5406cc1c1305404cc1c1045402cc1c610543dd01c5e4543bd01c5b85439d01c58c5437d01c5605435d01c5345433d01c5085431d01c4dc542fd01c4b0542dd01c484542bd01c4585429d01c42c5427d01c4005425d01c3d45423d01c3a85421d01c37c541fd01c350541dd01c324541bd01c2f85419d01c2cc5417d01c2a05415d01c2745413d01c2485411d01c21c540fd01c1f0540dd01c1c4540bd01c1985409d01c16c5407d01c1405405d01c1145403d01c0f45401102a45c58becc2a46458bccc2a46c58bacc2a47458b8cc2a47c58b6cc2a48458b4cc2a48c58b2cc2a49458b0cc2a49c58aecc2a4a458accc2a50458aacc2a50c58a8cc2a51458a6cc))
  (.nd (.lf
  0x28d4003881028d800387f028dc00387d028e000387b028e4003879028e8003877028ec003875028f0003873028f4003871028f800386f028fc00386d0290000386b02904003869029080038670290c0038650291000386302914003861040e400385f040e800385d040ec00385b040f0003859040f4003857040f8003855040fc003853041000038510410400384f0410800384d0410c00384b0411000384904114003847041180038450411c003843041200038410412400383f0412800383d0412c00383b0413000383904134003837041380038350413c003833041400038310414400382f0414800382d0414c00382b0415000382904154003827041580038250415c00382304160003821058ec00381f058f000381d058f400381b058f8003819058fc0038170590000381505904003813059080038110590c00380f0591000380d0591400380b059180038090591c0038070592000380505924003803)
  (.lf 0))) (.nd (.nd (.lf
  0x313b06be6b4313b86be630313a06be4783139c6be4b4313a46be4303138c6be278313886be2b4313906be230313786be078313746be0b43137c6be030313646bde78313606bdeb4313686bde30313506bdc783134c6bdcb4313546bdc303133c6bda78313386bdab4313406bda30313286bd878313246bd8b43132c6bd830313146bd678313106bd6b4313186bd630313006bd478312fc6bd4b4313046bd430312ec6bd278312e86bd2b4312f06bd230312d86bd078312d46bd0b4312dc6bd030312c46bce78312c06bceb4312c86bce30312b06bcc78312ac6bccb4312b46bcc303113c6bca783129c6bcab4312a06bca30310e46bc878311306bc8b4311346bc8303108c6bc678310d86bc6b4310dc6bc630310346bc478310806bc4b4310846bc43030fdc6bc278310286bc2b43102c6bc230337906ebc783378c6ebcb4337946ebc303377c6eba78337786ebab4337806eba30337686eb878337646eb8b4)
  (.lf 0)) (.nd (.lf
  0x13ecc006df313ed4006df113edc006def13ee4006ded13eec006deb13ef4006de913efc006de713f04006de513f0c006de313f14006de11542c006ddf15434006ddd1543c006ddb15444006dd91544c006dd715454006dd51545c006dd315464006dd11546c006dcf15474006dcd1547c006dcb15484006dc91548c006dc715494006dc51549c006dc3154a4006dc1154ac006dbf154b4006dbd154bc006dbb154c4006db9154cc006db7154d4006db5154dc006db3154e4006db1154ec006daf154f4006dad154fc006dab15504006da91550c006da715514006da51551c006da315524006da116a30006d9f16a38006d9d16a40006d9b16a48006d9916a50006d9716a58006d9516a60006d9316a68006d9116a70006d8f16a78006d8d16a80006d8b16a88006d8916a90006d8716a98006d8516aa0006d8316aa8006d8116ab0006d7f16ab8006d7d16ac0006d7b16ac8006d7916ad0006d7716ad8006d75)
  (.lf 0)))

def shaWireTree281 : BTree :=
  .nd (.nd (.nd (.lf
  0x81708fbceb48170cfbce30816f0fbcc78816b4fbccb4816f4fbcc3081638fbca788163cfbcab4816acfbca3081530fbc87881598fbc8b481630fbc830813b0fbc67881524fbc6b481528fbc630811ecfbc478813a4fbc4b4813a8fbc43081194fbc278811e0fbc2b4811e4fbc23082f7cfebc7882f74febcb482f80febc3082f68feba7882f5cfebab482f6cfeba3082f50feb87882f4cfeb8b482f54feb83082f30feb67882f28feb6b482f34feb63082f1cfeb47882f14feb4b482f20feb43082f08feb27882f04feb2b482f0cfeb23082ef0feb07882eecfeb0b482ef4feb03082ed4feae7882ed8feaeb482edcfeae3082ec0feac7882ebcfeacb482ec4feac3082e9cfeaa7882ea0feaab482ea4feaa3082e88fea87882e8cfea8b482e94fea83082e6cfea67882e74fea6b482e78fea63082e60fea47882e5cfea4b482e64fea43082bd4fea27882bd8fea2b482e4cfea23082bb4fea07882bc0fea0b4)
  (.lf 0)) (.nd (.lf
  0x166d83bdd2c166c43bdb2c166b03bd92c1669c3bd72c166883bd52c166743bd32c166603bd12c1664c3bcf2c166383bcd2c166243bcb2c166103bc92c165fc3bc72c165e83bc52c165d43bc32c165d03bc0cc17e303fff2c17e1c3ffd2c17e083ffb2c17df43ff92c17de03ff72c17dcc3ff52c17db83ff32c17da43ff12c17d903fef2c17d7c3fed2c17d683feb2c17d543fe92c17d403fe72c17d2c3fe52c17d183fe32c17d043fe12c17cf03fdf2c17cdc3fdd2c17cc83fdb2c17cb43fd92c17ca03fd72c17c8c3fd52c17c783fd32c17c643fd12c17c503fcf2c17c3c3fcd2c17c283fcb2c17c143fc92c17c003fc72c17bec3fc52c17bd83fc32c17bd43fc0cc1942043ff2c1940c43fd2c193f843fb2c193e443f92c193d043f72c193bc43f52c193a843f32c1939443f12c1938043ef2c1936c43ed2c1935843eb2c1934443e92c1933043e72c1931c43e52c1930843e32c192f443e12c192e043df2c)
  (.lf 0))) (.nd (.nd (.lf
  0x5ece8bc3ab45ecf4bc3a785ecf8bc3a305ecdcbc38b45ecd0bc38785ece0bc38305ecc4bc36b45ecc0bc36785ecc8bc36305ecacbc34b45eca8bc34785ecb0bc34305ec90bc32b45ec98bc32785ec9cbc32305ec7cbc30b45ec78bc30785ec80bc30305ec6cbc2eb45ec60bc2e785ec70bc2e305ec54bc2cb45ec50bc2c785ec58bc2c305ec3cbc2ab45ec38bc2a785ec40bc2a305ec20bc28b45ec24bc28785ec28bc28305ec0cbc26b45ec10bc26785ec14bc26305ebf4bc24b45ec00bc24785ec04bc24305ebdcbc22b45ebe0bc22785ebe4bc22305ebd0bc20b45ebccbc20785ebd4bc20305ebc0bc1eb45ebbcbc1e785ebc4bc1e305eb74bc1cb45eb98bc1c785eb9cbc1c305eb68bc1ab45eb44bc1a785eb6cbc1a305eb38bc18b45eb14bc18785eb3cbc18305eb08bc16b45eb04bc16785eb0cbc16305eaa4bc14b45eaa0bc14785eaa8bc14305ea94bc12b45ea90bc12785ea98bc12305ea7cbc10b4)
  (.lf 0)) (.nd (.lf
  0x40ca487e2cc40cd887e0cc40cb087decc40b4c87dccc40b2087dacc40b4887d8cc409e887d6cc40a0c87d4cc40cb887d2cc40cd487d0cc40cc487cecc40ccc87cccc40b2c87cacc40b4487c8cc40b3c87c6cc40a0887c4cc409f887c2cc40edc87fdd040ec887fbd040eb487f9d040ea087f7d040e8c87f5d040e7887f3d040e6487f1d040e5087efd040e3c87edd040e2887ebd040e1487e9d040e0087e7d040dec87e5d040dd887e3d040dc487e1d040db487dfd040da087ddd040d8c87dbd040d7887d9d040d6087d7d040d5087d5d040d3c87d3d040d2887d1d040d1487cfd040d0087cdd040b8c87cbd040b7887c9d040b6487c7d040a4487c5d040a3087c3d040a0087c110430b88abecc430dc8abccc430c08abacc42d0c8ab8cc42acc8ab6cc42ad48ab4cc431148ab2cc4311c8ab0cc431248aaecc42d1c8aaccc42adc8aaacc4312c8aa8cc431348aa6cc4313c8aa4cc42d248aa2cc42ae48aa0cc)
  (.lf 0)))

def shaWireTree282 : BTree :=
  .nd (.nd (.nd (.lf
  0x56554bd8c30564bcbd8a785633cbd8ab4564c0bd8a3056330bd887856304bd88b456334bd8830562f8bd867855fd4bd86b4562fcbd863055fc8bd847855f5cbd84b455fccbd843055f50bd827855f34bd82b455f54bd8230598b8c17c78598bcc17cb4598c0c17c305987cc17a7859878c17ab459880c17a305986cc17878597b4c178b459870c17830597a4c17678597a0c176b4597a8c1763059794c1747859780c174b459798c174305976cc1727859770c172b459774c172305975cc1707859760c170b459764c17030596e0c16e78596dcc16eb4596e4c16e3059670c16c78596d0c16cb4596d4c16c305965cc16a7859658c16ab459660c16a3059648c168785964cc168b459650c168305960cc1667859614c166b45962cc1663059600c16478595fcc164b459604c16430595d8c16278595c0c162b4595dcc1623059594c16078595b0c160b4595b4c1603059588c15e7859550c15eb45958cc15e30)
  (.lf 0)) (.nd (.lf
  0x2abe0581d2c2ab68581b2c2aaf458192c2aa7c58172c2aa0c58152c2a9a058132c2a92c58112c2a8b4580f2c2a83c580d2c2a7cc580b2c2a75858092c2a6dc58072c2a67458052c2a5f458032c2a5b85800cc208305c3f2c207b85c3d2c207085c3b2c206445c392c2058c5c372c204d45c352c204185c332c2035c5c312c202a85c2f2c201e85c2d2c201305c2b2c200785c292c1ffbc5c272c1fef85c252c1fe405c232c1fd805c212c1fcc05c1f2c1fc045c1d2c1fb485c1b2c1fa845c192c1f9cc5c172c1f90c5c152c1f8545c132c1f79c5c112c1f6e05c0f2c1f61c5c0d2c1f55c5c0b2c1f4a05c092c1f3ec5c072c1f3345c052c1f2705c032c1f1d45c00cc2e8e4603f2c2e880603d2c2e810603b2c2e79860392c2e71c60372c2e6a860352c2e63860332c2e5c860312c2e55c602f2c2e4f0602d2c2e478602b2c2e3fc60292c2e38460272c2e30c60252c2e29460232c2e22460212c2e1b8601f2c)
  (.lf 0))) (.nd (.nd (.lf
  0xd92c23fc780d92823fcb40d93023fc300d91823fa780d91423fab40d91c23fa300d90423f8780d90023f8b40d90823f8300d8f023f6780d8ec23f6b40d8f423f6300d8dc23f4780d8d823f4b40d8e023f4300d8c823f2780d8c423f2b40d8cc23f2300d8b423f0780d8b023f0b40d8b823f0300d8a023ee780d89c23eeb40d8a423ee300d88c23ec780d88823ecb40d89023ec300d87823ea780d87423eab40d87c23ea300d86423e8780d86023e8b40d86823e8300d85023e6780d84c23e6b40d85423e6300d83c23e4780d83823e4b40d84023e4300d82823e2780d82423e2b40d82c23e2300d81423e0780d81023e0b40d81823e0300d80023de780d7fc23deb40d80423de300d7ec23dc780d7e823dcb40d7f023dc300d7d823da780d7d423dab40d7dc23da300d7c423d8780d7c023d8b40d7c823d8300d7b023d6780d7ac23d6b40d7b423d6300d79c23d4780d79823d4b40d7a023d4300d78823d278)
  (.lf 0)) (.nd (.lf
  0x942c254acc093a02548cc093102546cc092902544cc092102542cc0a154257dd00a0c8257bd00a04c2579d009fc02577d009f302575d009eb02573d009e342571d009da8256fd009d1c256dd009c90256bd009c042569d009b742567d009af42565d009a742563d0099f82561d009968255fd0098e8255dd009868255bd0097ec2559d00975c2557d0096dc2555d00965c2553d0095e02551d009554254fd0094c8254dd00943c254bd0093b02549d0093202547d0092a02545d0092202543d0091d42541100a1a425becc0a13025bccc0a0d025bacc0a02425b8cc09f9825b6cc09f3825b4cc09eb825b2cc09e0c25b0cc09d8025aecc09cf425accc09c6825aacc09bdc25a8cc09b7c25a6cc09afc25a4cc09a7c25a2cc099d025a0cc09970259ecc098f0259ccc09870259acc097c42598cc097642596cc096e42594cc096642592cc095b82590cc0952c258ecc094a0258ccc09414258acc093882588cc)
  (.lf 0)))

def shaWireTree283 : BTree :=
  .nd (.nd (.nd (.lf
  0x57238b3e2b457240b3e23057228b3e0785722cb3e0b457230b3e03057214b3de785721cb3deb457220b3de3057208b3dc7857200b3dcb45720cb3dc30571f0b3da78571f4b3dab4571f8b3da30571e0b3d878571d8b3d8b4571e4b3d830571c8b3d678571ccb3d6b4571d0b3d630571b8b3d478571b0b3d4b4571bcb3d430570e4b3d278571a4b3d2b4571a8b3d230570d8b3d078570d0b3d0b4570dcb3d030570c0b3ce78570c4b3ceb4570c8b3ce3056f2cb3cc78570a8b3ccb4570b4b3cc3056eb0b3ca7856f20b3cab456f24b3ca3056e08b3c87856e9cb3c8b456ea8b3c83056d78b3c67856dfcb3c6b456e00b3c63056c94b3c47856d6cb3c4b456d70b3c43056c2cb3c27856c7cb3c2b456c8cb3c230593bcb6bc78593b8b6bcb4593c0b6bc30593a8b6ba78593a4b6bab4593acb6ba3059394b6b87859390b6b8b459398b6b83059380b6b6785937cb6b6b459384b6b6305936cb6b47859368b6b4b4)
  (.lf 0)) (.nd (.lf
  0x13fc032c72c13f8032c52c15c9c36ff2c15c6836fd2c15c3036fb2c15bf836f92c15bc036f72c15b8836f52c15b5036f32c15b1836f12c15ad836ef2c15a9436ed2c15a5836eb2c15a1836e92c159d436e72c1599036e52c1594c36e32c1590c36e12c158c836df2c1588836dd2c1584436db2c157fc36d92c157bc36d72c1578436d52c1574c36d32c1570c36d12c156c836cf2c1568436cd2c1564036cb2c155fc36c92c155b836c72c1557436c52c1554436c32c172b43aff2c1727c3afd2c172403afb2c171fc3af92c171b43af72c171743af52c171343af32c170f03af12c170ac3aef2c170683aed2c1702c3aeb2c16fec3ae92c16fa83ae72c16f643ae52c16f283ae32c16ef03ae12c16eb83adf2c16e803add2c16e443adb2c16e083ad92c16dcc3ad72c16d883ad52c16d403ad32c16d003ad12c16cc03acf2c16c843acd2c16c443acb2c16c083ac92c16bd03ac72c16b903ac52c16b4c3ac32c)
  (.lf 0))) (.nd (.nd (.lf
  0x1a6ac447c781a6b4447c301a674447ab41a670447a781a678447a301a6304478b41a62c4478781a6344478301a5ec4476b41a5e84476781a5f04476301a5a84474b41a5a44474781a5ac4474301a5644472b41a5604472781a5684472301a5204470b41a51c4470781a5244470301a4dc446eb41a4d8446e781a4e0446e301a498446cb41a494446c781a49c446c301a454446ab41a450446a781a458446a301a4104468b41a40c4468781a4144468301a3cc4466b41a3c84466781a3d04466301a3884464b41a3844464781a38c4464301a3444462b41a3404462781a3484462301a3004460b41a2fc4460781a3044460301a2bc445eb41a2b8445e781a2c0445e301a278445cb41a274445c781a27c445c301a234445ab41a230445a781a238445a301a1f04458b41a1ec4458781a1f44458301a1ac4456b41a1a84456781a1b04456301a1684454b41a1644454781a16c4454301a1244452b41a120445278)
  (.lf 0)) (.nd (.lf
  0x30380689d002fb00687d002f2c0685d002eac0683d002df406811000360067ecc0035c067ccc00358067acc003540678cc003500676cc0034c0674cc003480672cc003440670cc00340066ecc0033c066ccc00338066acc003340668cc003300666cc0032c0664cc003280662cc003240660cc00320065ecc0031c065ccc00318065acc003140658cc003100656cc0030c0654cc003080652cc003040650cc00300064ecc002fc064ccc002f8064acc002f40648cc002f00646cc002ec0644cc002e80642cc005b8067dd0005a4067bd0005900679d00057c0677d0005680675d0005540673d0005400671d00052c066fd000518066dd000504066bd0004f00669d0004dc0667d0004c80665d0004b40663d0004a00661d00048c065fd000478065dd000464065bd0004500659d00043c0657d0004280655d0004140653d0004000651d0003ec064fd0003d8064dd0003c4064bd0003b00649d00039c0647d0)
  (.lf 0)))

def shaWireTree284 : BTree :=
  .nd (.nd (.nd (.lf
  0x80114186878801101868b480118186830800fc186678801041866b480108186630800ec186478800f01864b4800f4186430800d8186278800dc1862b4800e4186230800c0186078800bc1860b4800d0186030800ac185e7880084185eb4800b4185e3080078185c787fb28185cb48007c185c307f9b4185a787f908185ab47f9b8185a307f8fc1858787f8901858b47f9001858307f8841856787f8801856b47f8881856307f86c1854787f7641854b47f8701854307f7501852787f7581852b47f75c1852307f7241850787f6b01850b47f7281850307f6a4184e787f5c4184eb47f6a8184e307f5a0184c787f504184cb47f5a4184c307f4ec184a787f4b0184ab47f4fc184a307f4a41848787f4181848b47f4a81848307f3fc1846787f3d01846b47f4001846307f3c41844787f3bc1844b47f3c81844307f2801842787f3b01842b47f3b41842307fed81c7c787fed01c7cb47fedc1c7c307fec41c7a78)
  (.lf 0)) (.nd (.lf
  0x260e057a078260e4579e78260e8579c7826144579a782600057987826004579678260085794782600c5792782601057907826014578e78260fc578c7825d90578a7825d9457887825d9857867825d9c57847825da057827825da4578078280e457be30280e857bc30280ec57ba30280f057b830280f457b630280f857b430280fc57b2302810057b0302810457ae302810857ac302810c57aa302811057a8302811457a6302811857a4302811c57a2302812057a03028124579e3028128579c302812c579a302813057983028134579630281385794302813c5792302814057903028144578e3028148578c302814c578a302815057883028154578630281585784302815c5782302816057803029d0c5bbeb429cb05bbcb429c585bbab429c005bb8b429ba85bb6b429b505bb4b429af85bb2b429aa05bb0b429a485baeb429a045bacb4299cc5baab4299a05ba8b4299785ba6b4299505ba4b4299285ba2b4)
  (.lf 0))) (.nd (.nd (.lf
  0x2175c470e14216e4470b4021718470ca0216ac470940216e0470aa021674470740216a84708a02163c4705f4216704706a0216344704b4216384704142145047fc782144c47fcb42145447fc302143c47fa782143847fab42144047fa302142847f8782142447f8b42142c47f8302141447f6782141047f6b42141847f6302140047f478213fc47f4b42140447f430213ec47f278213e847f2b4213f047f230213d847f078213d447f0b4213dc47f030213c447ee78213c047eeb4213c847ee30213b047ec78213ac47ecb4213b447ec302139c47ea782139847eab4213a047ea302138847e8782138447e8b42138c47e8302137447e6782137047e6b42137847e6302136047e4782135c47e4b42136447e4302134c47e2782134847e2b42135047e2302133847e0782133447e0b42133c47e0302132447de782132047deb42132847de302131047dc782130c47dcb42131447dc30212fc47da78212f847dab4)
  (.lf 0)) (.nd (.lf
  0x4afdca942cc4c268a97dd04c1f4a97bd04c01ca979d04bfd8a977d04bf20a975d04bf10a973d04be28a971d04bcb0a96fd04bb30a96dd04baeca96bd04ba90a969d04ba64a967d04b964a965d04b8a0a963d04b830a961d04b808a95fd04b7e0a95dd04b7b8a95bd04b790a959d04b544a957d04b4aca955d04b42ca953d04b3bca951d04b350a94fd04b2e0a94dd04b1f0a94bd04b160a949d04b0f4a947d04b080a945d04affca943d04af30a941104c1e0a9becc4c17ca9bccc4c16ca9bacc4be68a9b8cc4be74a9b6cc4be4ca9b4cc4be38a9b2cc4bd68a9b0cc4bc48a9aecc4bad8a9accc4bab4a9aacc4b9eca9a8cc4b9f8a9a6cc4b914a9a4cc4b870a9a2cc4b740a9a0cc4b6eca99ecc4b6a4a99ccc4b640a99acc4b5e4a998cc4b4f4a996cc4b468a994cc4b3f0a992cc4b384a990cc4b300a98ecc4b294a98ccc4b1a8a98acc4b124a988cc4b0bca986cc4b038a984cc4afc4a982cc4c1a0a9bdd0)
  (.lf 0)))

def shaWireTree285 : BTree :=
  .nd (.nd (.nd (.lf
  0x6d8e8daac306d8d4daaa786d8d0daaab46d8d8daaa306d8bcdaa8786d8b8daa8b46d8c4daa8306d8acdaa6786d8a8daa6b46d8b0daa6306d894daa4786d898daa4b46d89cdaa4306d884daa2786d87cdaa2b46d888daa2306d86cdaa0786d870daa0b46d874daa0306d858da9e786d85cda9eb46d860da9e306d840da9c786d844da9cb46d84cda9c306d830da9a786d834da9ab46d838da9a306d81cda98786d820da98b46d824da98306d80cda96786d808da96b46d810da96306d7f8da94786d7e8da94b46d7fcda94306d7d8da92786d7dcda92b46d7e0da92306d7c8da90786d7ccda90b46d7d0da90306d7bcda8e786d6acda8eb46d7c0da8e306d484da8c786d69cda8cb46d6a0da8c306d470da8a786d474da8ab46d47cda8a306d3d8da88786d464da88b46d468da88306d3c4da86786d3ccda86b46d3d0da86306d3b8da84786d3b0da84b46d3bcda84306d118da82786d224da82b46d3a8da8230)
  (.lf 0)) (.nd (.lf
  0x16558005d7d16560005d7b16568005d7916570005d7716578005d7516580005d7316588005d7116590005d6f16598005d6d165a0005d6b165a8005d69165b0005d67165b8005d65165c0005d63165c8005d6117ad4005d5f17adc005d5d17ae4005d5b17aec005d5917af4005d5717afc005d5517b04005d5317b0c005d5117b14005d4f17b1c005d4d17b24005d4b17b2c005d4917b34005d4717b3c005d4517b44005d4317b4c005d4117b54005d3f17b5c005d3d17b64005d3b17b6c005d3917b74005d3717b7c005d3517b84005d3317b8c005d3117b94005d2f17b9c005d2d17ba4005d2b17bac005d2917bb4005d2717bbc005d2517bc4005d2317bcc005d21190c4005d1f190cc005d1d190d4005d1b190dc005d19190e4005d17190ec005d15190f4005d13190fc005d1119104005d0f1910c005d0d19114005d0b1911c005d0919124005d071912c005d0519134005d031913c005d0119144005cff)
  (.lf 0))) (.nd (.nd (.lf
  0x1fca8805e301fbe8805cb41fb38805c781fbec805c301fb2c805ab41fa74805a781fb30805a301fa688058b41f9bc8058781fa6c8058301f9b08056b41f8fc8056781f9b48056301f8f08054b41f8448054781f8f48054301f8388052b41f78c8052781f83c8052301f7808050b41f6d08050781f7848050301f6c4804eb41f60c804e781f6c8804e301f600804cb41f54c804c781f604804c301f540804ab41f490804a781f544804a301f4848048b41f3dc8048781f4888048301f3d08046b41f3248046781f3d48046301f3188044b41f2608044781f31c8044301f2548042b41f1c48042781f2588042303bfc8803cb43bfe8803c783bfec803c303bf9c803ab43bfbc803a783bfc0803a303bf708038b43bf908038783bf948038303bf448036b43bf648036783bf688036303bf188034b43bf388034783bf3c8034303beec8032b43bf0c8032783bf108032303bec08030b43bee08030783bee4803030)
  (.lf 0)) (.nd (.lf
  0x2199846e1d02195c46dfd02192446ddd0218e446dbd0218a846d9d02187046d7d02183846d5d0217f846d3d0217b446d1d02177046cfd02172c46cdd0216f046cbd0216b846c9d02168046c7d02164846c5d02160846c3d0215e446c1102110447fecc2110c47fccc2111447facc2111c47f8cc2112447f6cc2112c47f4cc2113447f2cc2113c47f0cc2114447eecc2114c47eccc2115447eacc2115c47e8cc2116447e6cc2116c47e4cc2117447e2cc2117c47e0cc2118447decc2118c47dccc2119447dacc2119c47d8cc211a447d6cc211ac47d4cc211b447d2cc211bc47d0cc211c447cecc211cc47cccc211d447cacc211dc47c8cc211e447c6cc211ec47c4cc211f447c2cc2145847fdd02144447fbd02143047f9d02141c47f7d02140847f5d0213f447f3d0213e047f1d0213cc47efd0213b847edd0213a447ebd02139047e9d02137c47e7d02136847e5d02135447e3d02134047e1d02132c47dfd0)
  (.lf 0)))

def shaWireTree286 : BTree :=
  .nd (.nd (.nd (.lf
  0x299f0656ab4299f8656a30299bc656878299b86568b4299c0656830299906566782998c6566b42999465663029968656478299646564b42996c656430299406562782993c6562b42994465623029918656078299146560b42991c656030298f0655e78298ec655eb4298f4655e30298c8655c78298c4655cb4298cc655c30294d0655a78294d4655ab4294d8655a30294bc655878294c06558b4294c4655830294a8655678294ac6556b4294b065563029494655478294986554b42949c65543029480655278294846552b4294886552302946c655078294706550b42947465503029458654e782945c654eb429460654e3029444654c7829448654cb42944c654c3029430654a7829434654ab429438654a302941c654878294206548b429424654830294086546782940c6546b429410654630293f4654478293f86544b4293fc654430293e0654278293e46542b4293e8654230298a465bc782989c65bcb4)
  (.lf 0)) (.nd (.lf
  0x58bd8003d7d58be0003d7b58be4003d7958bec003d7758bf0003d7558bf8003d7358bfc003d7158c04003d6f58c08003d6d58c10003d6b58c14003d6958c1c003d6758c20003d6558c28003d6358c2c003d615af8c003d5f5af94003d5d5af9c003d5b5a59c003d595a5a4003d575a5ac003d555a5b4003d535a954003d515a5bc003d4f5a95c003d4d5afe0003d4b5afe8003d495aff0003d475aff8003d455b000003d435b008003d415b010003d3f5b018003d3d5b020003d3b5b028003d395b030003d375b038003d355b040003d335b048003d315b050003d2f5b058003d2d5b060003d2b5b068003d295b070003d275b078003d255b080003d235b088003d215c9dc003d1f5c91c003d1d5c924003d1b5c92c003d195c934003d175c93c003d155c944003d135c94c003d115c954003d0f5c95c003d0d5d020003d0b5cfa4003d095cf30003d075ceb8003d055ce28003d035cdac003d015cd24003cff)
  (.lf 0))) (.nd (.nd (.lf
  0x75404f81c7875434f81c30753f0f81ab4753f8f81a78753fcf81a30753e4f818b4753c4f81878753e8f81830753b8f816b4753b4f81678753bcf81630753a4f814b4753a0f81478753a8f8143075394f812b475390f8127875398f8123075380f810b47537cf8107875384f8103075370f80eb47536cf80e7875374f80e307534cf80cb47535cf80c7875360f80c3075338f80ab475278f80a7875344f80a307526cf808b475268f8087875270f808307525cf806b475230f8067875260f8063075214f804b4751fcf8047875228f80430751f0f802b4751ecf80278751f4f8023075040fcbcb475044fcbc7875048fcbc3075034fcbab47502cfcba7875038fcba3075020fcb8b475018fcb87875024fcb83075008fcb6b47500cfcb67875010fcb63074ff8fcb4b474ff0fcb47874ffcfcb43074fdcfcb2b474fe0fcb27874fe8fcb23074fd0fcb0b474fccfcb07874fd4fcb03074fbcfcaeb474fb8fcae78)
  (.lf 0)) (.nd (.lf
  0x628fcc7ddd0628ecc7dbd0628dcc7d9d0625e0c7d7d0625ccc7d5d0625b8c7d3d062548c7d1d0624c4c7cfd062428c7cdd062384c7cbd062368c7c9d062190c7c7d0620c8c7c5d062034c7c3d061f10c7c110644c0cabecc644c8cabccc64520cabacc642f4cab8cc64294cab6cc64440cab4cc644e8cab2cc644f0cab0cc64534caaecc642fccaaccc64304caaacc644f8caa8cc64500caa6cc6453ccaa4cc6430ccaa2cc64314caa0cc64384ca9ecc6431cca9ccc64448ca9acc64324ca98cc64354ca96cc64330ca94cc6419cca92cc64450ca90cc63ea0ca8ecc64508ca8ccc64510ca8acc64568ca88cc64338ca86cc64340ca84cc64394ca82cc64b68cabdd064b54cabbd064b44cab9d064b30cab7d064b1ccab5d064b08cab3d064af4cab1d064adccaafd064ac8caadd064ab8caabd064aa4caa9d064a88caa7d064a74caa5d064a64caa3d064a54caa1d064630ca9fd064620ca9dd06460cca9bd0)
  (.lf 0)))

def shaWireTree287 : BTree :=
  .nd (.nd (.nd (.lf
  0x445b88ffa30445a08ff8784459c8ff8b4445a48ff8304458c8ff678445888ff6b4445908ff630445788ff478445708ff4b44457c8ff430445648ff2784455c8ff2b4445688ff230445508ff0784454c8ff0b4445548ff030445348fee78445388feeb44453c8fee30445248fec78445288fecb44452c8fec30445108fea78445148feab4445188fea30444f88fe878444fc8fe8b4445008fe830444e08fe678444ec8fe6b4444f08fe630444c88fe478444d08fe4b4444d48fe430444bc8fe278444b88fe2b4444c08fe230444a88fe0784449c8fe0b4444ac8fe0304448c8fde78444908fdeb4444948fde30444788fdc784447c8fdcb4444808fdc30444648fda78444688fdab44446c8fda30444588fd878444508fd8b44445c8fd830444448fd678444408fd6b4444488fd630444288fd478444308fd4b4444348fd430442548fd2784441c8fd2b4444208fd230441a88fd078442488fd0b44424c8fd030)
  (.lf 0)) (.nd (.lf
  0x141b032932c1416032912c1410c328f2c140bc328d2c14060328b2c1400c32892c13fb832872c13f7832852c13f3432832c13f1c3280cc15c9436bf2c15c6036bd2c15c2836bb2c15bf036b92c15bb836b72c15b8036b52c15b4836b32c15b1036b12c15ad036af2c15a8c36ad2c15a5036ab2c15a1036a92c159cc36a72c1598836a52c1594436a32c1590436a12c158c0369f2c15880369d2c1583c369b2c157f436992c157b436972c1577c36952c1574436932c1570436912c156c0368f2c1567c368d2c15638368b2c155f436892c155b036872c1556c36852c1553c36832c1552c3680cc172ac3abf2c172743abd2c172383abb2c171f43ab92c171ac3ab72c1716c3ab52c1712c3ab32c170e83ab12c170a43aaf2c170603aad2c170243aab2c16fe43aa92c16fa03aa72c16f5c3aa52c16f203aa32c16ee83aa12c16eb03a9f2c16e783a9d2c16e3c3a9b2c16e003a992c16dc43a972c16d803a952c)
  (.lf 0))) (.nd (.nd (.lf
  0x438948e2050437f08e1e50437ac8e1c50436dc8e1a50436448e1850435c08e1650435508e1450435548e1250434148e1050433748e0e50432e08e0c50432708e0a50432748e085042da48e065042c5c8e045042c608e025042c648e0050443e4923e7844260923c784417c923a78441809238784401892367843f5c92347843f6092327843e6c92307843dd8922e7843d58922c7843b7c922a7843ac092287843a7092267843a1c9224784397c9222784389c92207843800921e78437b4921c78436e4921a784364c921878435c892167843560921478435649212784341c9210784337c920e78432e8920c7843280920a784328492087842dac92067842c7492047842c7892027842c7c92007845fd8923e5045fdc923c5045f90923a5045f4492385045f4892365045f4c92345045f5092325045f5492305045f58922e5045f5c922c5045eb0922a5045ff892285045c7492265045c1492245045c18922250)
  (.lf 0)) (.nd (.lf
  0x55bc8ac20cc55b9cac1ecc55b70ac1ccc55b44ac1acc55b18ac18cc55aecac16cc55ac0ac14cc55a94ac12cc55a68ac10cc55a3cac0ecc55a10ac0ccc559e4ac0acc559b8ac08cc5598cac06cc55960ac04cc55934ac02cc55e40ac3dd055e14ac3bd055de8ac39d055dbcac37d055d90ac35d055d64ac33d055d38ac31d055d0cac2fd055ce0ac2dd055cb4ac2bd055c88ac29d055c5cac27d055c30ac25d055c04ac23d055bd8ac21d055bacac1fd055b80ac1dd055b54ac1bd055b28ac19d055afcac17d055ad0ac15d055aa4ac13d055a78ac11d055a4cac0fd055a20ac0dd0559f4ac0bd0559c8ac09d05599cac07d055970ac05d055944ac03d055924ac0110553f8b0becc55400b0bccc55408b0bacc55410b0b8cc55418b0b6cc55420b0b4cc55428b0b2cc55430b0b0cc55438b0aecc55440b0accc554a0b0aacc554a8b0a8cc554b0b0a6cc554b8b0a4cc554c0b0a2cc554c8b0a0cc554d0b09ecc)
  (.lf 0)))

def shaWireTree288 : BTree :=
  .nd (.nd (.nd (.lf
  0x4ff000000004fd000000004fb000000004f9000000004f7000000004f5000000004f3000000004f1000000004ef000000004ed000000004eb000000004e9000000004e7000000004e5000000004e3000000004e1000000004df000000004dd000000004db000000004d9000000004d7000000004d5000000004d3000000004d1000000004cf000000004cd000000004cb000000004c9000000004c7000000004c5000000004c3000000004c1000000004bf000000004bd000000004bb000000004b9000000004b7000000004b5000000004b3000000004b1000000004af000000004ad000000004ab000000004a9000000004a7000000004a5000000004a3000000004a10000000049f0000000049d0000000049b00000000499000000004970000000049500000000493000000004910000000048f0000000048d0000000048b0000000048900000000487000000004850000000048300000000481)
  (.lf
  0x44d048c44cc44d0c8c42cc452648c7dd04523c8c7bd0452108c79d0451e48c77d0451b88c75d0451888c73d0451588c71d0451288c6fd0450f88c6dd0450c88c6bd0450988c69d04506c8c67d0450408c65d0450108c63d044fe48c61d044fb88c5fd044f8c8c5dd044f608c5bd044f348c59d044f088c57d044edc8c55d044eb08c53d044e848c51d044e588c4fd044e2c8c4dd044e008c4bd044dd48c49d044da88c47d044d7c8c45d044d508c43d044d148c41104526c8c3ecc452448c3ccc452188c3acc451ec8c38cc451c08c36cc451908c34cc451608c32cc451308c30cc451008c2ecc450d08c2ccc450a08c2acc450748c28cc450488c26cc450188c24cc44fec8c22cc44fc08c20cc44f948c1ecc44f688c1ccc44f3c8c1acc44f108c18cc44ee48c16cc44eb88c14cc44e8c8c12cc44e608c10cc44e348c0ecc44e088c0ccc44ddc8c0acc44db08c08cc44d848c06cc44d588c04cc44d2c8c02cc))
  (.nd (.lf
  0x123782e20501237c2e1e50123802e1c50123842e1a50123882e18501238c2e1650123902e1450123942e1250123982e10501239c2e0e50123a02e0c50123a42e0a50123a82e0850123ac2e0650123b02e0450123b42e0250123b82e00501243c323e7812440323c7812444323a78124483238781244c3236781245032347812454323278124583230781245c322e7812460322c7812464322a78124683228781246c3226781247032247812474322278124783220781247c321e7812480321c7812484321a78124883218781248c3216781249032147812494321278124983210781249c320e78124a0320c78124a4320a78124a8320878124ac320678124b0320478124b4320278124b832007813c1c323e5013c20323c5013c24323a5013c2832385013c2c32365013c3032345013c3432325013c3832305013c3c322e5013c40322c5013c44322a5013c4832285013c4c32265013c5032245013c54322250)
  (.lf 0))) (.nd (.nd (.lf
  0x3fb4c82f2783fb5082f2303fac882f0b43fae082f0783fae882f0303fa8082eeb43fa9882ee783fa9c82ee303fa4082ecb43fa5882ec783fa7882ec303f9fc82eab43fa1482ea783fa1882ea303f9b482e8b43f9cc82e8783f9f482e8303f97482e6b43f98c82e6783f99082e6303f93082e4b43f96882e4783f96c82e4303f8e882e2b43f92482e2783f92882e2303f8a082e0b43f8dc82e0783f8e082e0303f84c82deb43f87882de783f88082de303f82482dcb43f84082dc783f84482dc303f7d082dab43f80482da783f80882da303f7c482d8b43f7c082d8783f7c882d8303f7b082d6b43f7b482d6783f7b882d6303f74082d4b43f73c82d4783f74482d4303f72c82d2b43f73082d2783f73482d2303f67082d0b43f66c82d0783f6c882d0303f66082ceb43f65c82ce783f66482ce303f59882ccb43f5f482cc783f5f882cc303f58c82cab43f57882ca783f59082ca303f3e482c8b43f4d482c878)
  (.lf 0)) (.nd (.lf
  0x34dfc7213b034e007211b034e04720fb034e08720db034e2c720bb034d247209b034d287207b034d2c7205b034d307203b034d347201b036b9c763fb036b6c763db036b70763bb036b187639b036b1c7637b036b207635b036b247633b036b287631b036a98762fb036a58762db036a5c762bb036a607629b036a647627b036a687625b0369e07623b0369b47621b0369a4761fb03697c761db036980761bb0369847619b0369887617b0368f87615b0368b07613b0368b47611b0368b8760fb0368bc760db0368c0760bb0368c47609b0368147607b0367e07605b0367907603b0367947601b0390507a3fb0390147a3db038fac7a3bb038f147a39b038e487a37b038df87a35b038d207a33b038ce47a31b038c047a2fb038bc87a2db038b0c7a2bb038ad07a29b038a707a27b038a047a25b0389847a23b03891c7a21b0389207a1fb0387a47a1db0385207a1bb03849c7a19b0383fc7a17b0383847a15b0)
  (.lf 0)))

def shaWireTree289 : BTree :=
  .nd (.nd (.nd (.lf
  0x1461841aeb41466841ae301460c41ac78145cc41acb41461041ac30145c041aa781457041aab4145c441aa301456441a8781451c41a8b41456841a8301451041a678144c041a6b41451441a630144b441a4781446c41a4b4144b841a4301446041a2781441441a2b41446441a2301440841a078143c441a0b41440c41a030143b8419e7814378419eb4143bc419e301436c419c7814320419cb414370419c3014314419a78142d4419ab414318419a30142c8419878142804198b4142cc41983014274419678142244196b41427841963014218419478141cc4194b41421c419430141c0419278141804192b4141c441923014174419078141284190b4141784190301411c418e78140dc418eb414120418e30140d0418c7814088418cb4140d4418c301407c418a781402c418ab414080418a301402041887813fd44188b41402441883013fc841867813f944186b413fcc41863013f8841847813f544184b4)
  (.lf 0)) (.nd (.lf
  0x5c22800497d5c23000497b5c2380049795c2400049775c2480049755c2500049735c2580049715c26000496f5c26800496d5c27000496b5c2780049695c2800049675c2880049655c2900049635c2980049615e46800495f5e47000495d5e47800495b5e4f40049595e4fc0049575e5040049555e50c0049535e5140049515e51c00494f5e52400494d5e52c00494b5e5340049495e53c0049475e5440049455e54c0049435e5540049415e55c00493f5e56400493d5e56c00493b5e5740049395e57c0049375e5840049355e58c0049335e5940049315e59c00492f5e5a400492d5e5ac00492b5e5b40049295e5bc0049275e5c40049255e5cc0049235e5d40049216073c00491f6074400491d6074c00491b607c8004919607d0004917607d8004915607e0004913607e8004911607f000490f607f800490d6080000490b6080800490960810004907608180049056082000490360828004901608300048ff)
  (.lf 0))) (.nd (.nd (.lf
  0x70630e4a07870634e4a03070618e49eb47061ce49e7870624e49e3070608e49cb47060ce49c7870610e49c30705f4e49ab4705fce49a7870600e49a30705e4e498b4705e0e49878705e8e49830705cce496b4705d4e49678705d8e49630704ece494b4705c0e49478705c4e4943070490e492b4704d8e49278704e4e4923070484e490b470480e4907870488e4903070474e48eb470470e48e7870478e48e3070460e48cb47045ce48c7870464e48c3070448e48ab470444e48a7870450e48a3070434e488b470438e488787043ce4883070428e486b470420e486787042ce486307027ce484b470414e4847870418e484307026ce482b470268e4827870270e4823072024e47cb472028e47c787202ce47c3071fece47ab472010e47a7872014e47a3071fdce478b471fe0e4787871fe4e4783071fd0e476b471fc4e4767871fd4e4763071fa0e474b471fb8e4747871fbce4743071f7ce472b471f94e47278)
  (.lf 0)) (.nd (.lf
  0x55244afd3d055234afd1d055220afcfd05520cafcdd0551f8afcbd0551e4afc9d055084afc7d055070afc5d055054afc3d055044afc110573dcb2becc573e4b2bccc57540b2bacc574d8b2b8cc573f4b2b6cc574dcb2b4cc57400b2b2cc57408b2b0cc57410b2aecc57418b2accc57420b2aacc57428b2a8cc57430b2a6cc57438b2a4cc57440b2a2cc57448b2a0cc57450b29ecc57458b29ccc57460b29acc57468b298cc57470b296cc57478b294cc57480b292cc57488b290cc57490b28ecc57498b28ccc574a0b28acc574a8b288cc574b0b286cc574b8b284cc574c0b282cc57730b2bdd057718b2bbd057700b2b9d0576f0b2b7d0576e0b2b5d0576ccb2b3d0576b8b2b1d0576a4b2afd05768cb2add057678b2abd057664b2a9d05764cb2a7d05763cb2a5d057628b2a3d057610b2a1d057600b29fd0575ecb29dd0575d8b29bd0575c8b299d0575b4b297d05759cb295d05758cb293d057574b291d0)
  (.lf 0)))

def shaWireTree290 : BTree :=
  .nd (.nd (.nd (.lf
  0x7b358f96c787b35cf96cb47b360f96c307b34cf96a787b33cf96ab47b350f96a307b314f968787b330f968b47b334f968307b2f8f966787b2a8f966b47b2fcf966307b29cf964787b22cf964b47b2a0f964307b220f962787b210f962b47b224f962307b1ecf960787b17cf960b47b1f0f960307b16cf95e787b170f95eb47b174f95e307b150f95c787b154f95cb47b158f95c307b140f95a787b144f95ab47b148f95a307b130f958787b134f958b47b138f958307b114f956787b100f956b47b118f956307b0f0f954787b0f4f954b47b0f8f954307b02cf952787b0e4f952b47b0e8f952307aff8f950787afe4f950b47affcf950307afd8f94e787afd0f94eb47afdcf94e307afb4f94c787af48f94cb47afb8f94c307af3cf94a787af18f94ab47af40f94a307aef8f948787aed8f948b47af10f948307aeccf946787aea8f946b47aed0f946307ae94f944787a450f944b47ae98f944307a268f94278)
  (.lf 0)) (.nd (.lf
  0x71b417a078071b8179e78071bc179c78071c0179a78071c4179878071c8179678071cc179478071d0179278071d4179078071d8178e78071dc178c78071e0178a78071e4178878071e8178678071ec178478071f0178278071f41780780895817be300895c17bc300896017ba300896417b8300896817b6300896c17b4300897017b2300897417b0300897817ae300897c17ac300898017aa300898417a8300898817a6300898c17a4300899017a2300899417a03008998179e300899c179c30089a0179a30089a4179830089a8179630089ac179430089b0179230089b4179030089b8178e30089bc178c30089c0178a30089c4178830089c8178630089cc178430089d0178230089d41780300a1bc1bbeb40a1c01bbcb40a1c41bbab40a1c81bb8b40a1cc1bb6b40a1d01bb4b40a1d41bb2b40a1d81bb0b40a1dc1baeb40a1e01bacb40a1e41baab40a1e81ba8b40a1ec1ba6b40a1f01ba4b40a1f41ba2b4)
  (.lf 0))) (.nd (.nd (.lf
  0x171903af430171183af2b41714c3af278171503af230170d43af0b41710c3af078171103af030170903aeeb4170c83aee78170cc3aee301704c3aecb4170843aec78170883aec30170103aeab4170403aea78170443aea3016fd03ae8b4170043ae878170083ae83016f8c3ae6b416fc43ae67816fc83ae63016f483ae4b416f803ae47816f843ae43016f0c3ae2b416f3c3ae27816f403ae23016ed43ae0b416f003ae07816f043ae03016e9c3adeb416ec83ade7816ecc3ade3016e643adcb416e903adc7816e943adc3016e283adab416e583ada7816e5c3ada3016dec3ad8b416e1c3ad87816e203ad83016db03ad6b416de03ad67816de43ad63016d6c3ad4b416da43ad47816da83ad43016d243ad2b416d603ad27816d643ad23016ce43ad0b416d183ad07816d1c3ad03016ca43aceb416cd83ace7816cdc3ace3016c683accb416c983acc7816c9c3acc3016c283acab416c5c3aca7816c603aca30)
  (.lf 0)) (.nd (.lf
  0x3036075a3d0302e075a1d030258759fd0301cc759dd030140759bd0300bc7599d03003c7597d02ffbc7595d02ff347593d02fea87591d02fe24758fd02fda4758dd02fd1c758bd02fc907589d02fc0c7587d02fb847585d02fb007583d02fa98758110329f8797ecc329f4797ccc329f0797acc329ec7978cc329e87976cc329e47974cc329e07972cc329dc7970cc329d8796ecc329d4796ccc329d0796acc329cc7968cc329c87966cc329c47964cc329c07962cc329bc7960cc329b8795ecc329b4795ccc329b0795acc329ac7958cc329a87956cc329a47954cc329a07952cc3299c7950cc32998794ecc32994794ccc32990794acc3298c7948cc329887946cc329847944cc329807942cc32e40797dd032e1c797bd032df87979d032dd47977d032db07975d032d8c7973d032d687971d032d44796fd032d20796dd032cfc796bd032cd87969d032cb47967d032c907965d032c6c7963d032c487961d0)
  (.lf 0)))

def shaWireTree291 : BTree :=
  .nd (.nd (.nd (.lf
  0x665e8cb3ca0665d4cb3a1e665cccb3ab4665d8cb3a14665bccb3740665c4cb38a0665accb35f4665b4cb36a066594cb341e665a4cb34b4665a8cb341466588cb321e66578cb32b46658ccb32146656ccb301e664bccb30b466570cb30146649ccb2df4664a4cb2ea066488cb2c1e66484cb2cb466498cb2c146646ccb294066474cb2aa066460cb27f466468cb28a066458cb261e66454cb26b46645ccb261466444cb23406644ccb24a0663cccb214066440cb22a066384cb1f40663c8cb20a0662a4cb1df466380cb1ea06629ccb1c1e66270cb1cb4662a0cb1c146624ccb1a1e66248cb1ab466250cb1a14661f0cb181e66224cb18b466228cb1814654e4cb15f4661e8cb16a065478cb141e654dccb14b4654e0cb1414653f8cb121e6546ccb12b465470cb121465380cb101e653dccb10b4653f0cb10146530ccb0df465378cb0ea065268cb0c1e65304cb0cb465308cb0c14650d4cb09406524ccb0aa0)
  (.lf 0)) (.nd (.lf
  0x3a6207b1d4a3a5c87b1b4a3a5687b18b43a4c87b16b43a4a07b14b43a4347b134a3a3ec7b114a3a32c7b0eb43a0e47b0d4a3a0d07b0ab43a0b87b094a3a0a87b06b43a0847b04b439dec7b02b439dfc7b00aa3e6ac7f3eb43e6987f3cb43e6847f3ab43e66c7f394a3e6547f36b43e6387f354a3e6247f32b43e6107f30b43e5fc7f2eb43e5e87f2cb43e5cc7f2b4a3e5b87f28b43e59c7f274a3e5887f24b43e5747f22b43e55c7f214a3e5447f1eb43e5307f1cb43e5147f1b4a3e5007f18b43e4e47f174a3e4d07f14b43e4bc7f12b43e4a47f114a3e48c7f0eb43e4707f0d4a3e4547f0b4a3e4447f08b43e4387f06b43e3e87f054a3e3247f034a3e3407f00aa3fd08833eb43fc90833cb43fc3c833b4a3fbfc8338b43fbbc8336b43fb8c83354a3fb3483334a3faf883314a3fab8832f4a3fa64832cb43fa28832b4a3f9dc83294a3f9a08326b43f95c83254a3f90c83234a3f8c483214a3f88c831eb4)
  (.lf 0))) (.nd (.nd (.lf
  0x322ac682230321a46820b4322246820783222868203032120681eb432198681e783219c681e30320a0681cb432114681c7832118681c3032018681ab432094681a7832098681a3031f946818b43200c6818783201068183031f146816b431f8868167831f8c68163031e8c6814b431f0868147831f0c68143031e006812b431e8068127831e8468123031d746810b431df468107831df868103031ce8680eb431d68680e7831d6c680e3031c5c680cb431cdc680c7831ce0680c3031bd8680ab431c50680a7831c54680a3031b586808b431bcc68087831bd068083031ae06806b431b4c68067831b5068063031a6c6804b431ad468047831ad868043031a086802b431a6068027831a64680230347b46cbcb4347b06cbc78347b86cbc30347506cbab43474c6cba78347546cba30346d86cb8b4346d46cb878346dc6cb8303465c6cb6b4346586cb678346606cb630345e06cb4b4345dc6cb478345e46cb430)
  (.lf 0)) (.nd (.lf
  0x12dc42eddd012d3c2edbd012cb02ed9d012c242ed7d012b982ed5d012b0c2ed3d012a882ed1d012a002ecfd0129742ecdd0128e82ecbd0128642ec9d0127e42ec7d0127642ec5d0126e42ec3d0126402ec11011fe02ffecc11fe82ffccc11ff02ffacc11ff82ff8cc120002ff6cc120082ff4cc120102ff2cc120182ff0cc120202feecc120282feccc120302feacc120382fe8cc120402fe6cc120482fe4cc120502fe2cc120582fe0cc120602fdecc120682fdccc120702fdacc120782fd8cc120802fd6cc120882fd4cc120902fd2cc120982fd0cc120a02fcecc120a82fcccc120b02fcacc120b82fc8cc120c02fc6cc120c82fc4cc120d02fc2cc123342ffdd0123202ffbd01230c2ff9d0122f82ff7d0122e42ff5d0122d02ff3d0122bc2ff1d0122a82fefd0122942fedd0122802febd01226c2fe9d0122582fe7d0122442fe5d0122302fe3d01221c2fe1d0122082fdfd0121f42fddd0121e02fdbd0)
  (.lf 0)))

def shaWireTree292 : BTree :=
  .nd (.nd (.nd (.lf
  0x1efb040b4781efb440b4301ef9840b2b41ef9c40b2781efa040b2301ef8440b0b41ef8840b0781ef8c40b0301ef7040aeb41ef7440ae781ef7840ae301ef5c40acb41ef6040ac781ef6440ac301ef4840aab41ef4c40aa781ef5040aa301ef3440a8b41ef3840a8781ef3c40a8301ef2040a6b41ef2440a6781ef2840a6301ef0c40a4b41ef1040a4781ef1440a4301eef840a2b41eefc40a2781ef0040a2301eee440a0b41eee840a0781eeec40a0301eed0409eb41eed4409e781eed8409e301eebc409cb41eec0409c781eec4409c301eea8409ab41eeac409a781eeb0409a301ee944098b41ee984098781ee9c4098301ee804096b41ee844096781ee884096301ee6c4094b41ee704094781ee744094301ee584092b41ee5c4092781ee604092301ee444090b41ee484090781ee4c4090301ee30408eb41ee34408e781ee38408e301ee1c408cb41ee20408c781ee24408c301ee08408ab41ee0c408a78)
  (.lf
  0x83324047d2c832a8047b2c8318404792c8316c04772c8315c04752c8327404732c82a2404712c82440046f2c82454046d2c8241c046b2c8240404692c823f004672c823dc04652c823c804632c81e3404612c81d98045f2c81d74045d2c81d6c045b2c818c004592c8187804572c8185004552c8182804532c817c404512c81778044f2c816fc044d2c81660044b2c8161404492c8155c04472c814d004452c814c004432c814400440cc816a8087f2c816a0087d2c81610087b2c815f808792c815e808772c815a808752c8147808732c8146408712c81228086f2c81178086d2c8112c086b2c8110408692c810b808672c810d408652c8109008632c810a008612c80fcc085f2c814f8085d2c80f80085b2c80f6c08592c80f5808572c80f4408552c80f2c08532c80f2008512c80f08084f2c80ee8084d2c80ef0084b2c7f46008492c7f42008472c7f30808452c7f2a808432c7f0380840cc81b380c7f2c))
  (.nd (.lf
  0x5f78cc3a0b45f764c39eb45f73cc39cb45f714c39ab45f6ecc398b45f6c4c396b45f6a0c394b45f67cc392b45f658c390b45f634c38eb45f610c38cb45f804c38ab45f5e0c388b45f5b8c386b45f594c384b45f570c382b45e608c380b45e128c3be785e004c3bc785ddbcc3ba785debcc3b8785de6cc3b6785dbd8c3b4785db1cc3b2785dabcc3b0785da68c3ae785dca4c3ac785d99cc3aa785d95cc3a8785d898c3a6785d884c3a4785d7e4c3a2785d77cc3a0785d734c39e785d6e8c39c785d678c39a785d608c398785d5acc396785d548c394785d534c392785d484c390785d408c38e785d3b8c38c785d318c38a785d378c388785d260c386785d2b8c384785d200c382785c47cc380786054cc3be3060504c3bc305fff0c3ba305ff10c3b8305ff40c3b6305ffb4c3b4305ff74c3b2305feccc3b0305fdfcc3ae305fe30c3ac305fe9cc3aa305fe78c3a8305fc64c3a6305f7dcc3a4305f7b4c3a230)
  (.lf 0))) (.nd (.nd (.lf
  0x2c89c5efc782c8a05efc302c8245efab42c85c5efa782c8605efa302c7e05ef8b42c8185ef8782c81c5ef8302c7a45ef6b42c7d45ef6782c7d85ef6302c7645ef4b42c7985ef4782c79c5ef4302c7205ef2b42c7585ef2782c75c5ef2302c6e45ef0b42c7145ef0782c7185ef0302c6a45eeeb42c6d85eee782c6dc5eee302c6605eecb42c6985eec782c69c5eec302c61c5eeab42c6545eea782c6585eea302c5d85ee8b42c6105ee8782c6145ee8302c5945ee6b42c5cc5ee6782c5d05ee6302c5585ee4b42c5885ee4782c58c5ee4302c5205ee2b42c54c5ee2782c5505ee2302c4e05ee0b42c5145ee0782c5185ee0302c49c5edeb42c4d45ede782c4d85ede302c4605edcb42c4905edc782c4945edc302c4285edab42c4545eda782c4585eda302c3f05ed8b42c41c5ed8782c4205ed8302c3b05ed6b42c3e45ed6782c3e85ed6302c3745ed4b42c3a45ed4782c3a85ed4302c33c5ed2b42c3685ed278)
  (.lf 0)) (.nd (.lf
  0x7bb2cf99bd07bb1cf999d07ad70f997d07ad34f995d07acd0f993d07aca8f991d07ab68f98fd07ab48f98dd07a67cf98bd07a660f989d07a574f987d07a460f985d07a2f8f983d07a290f981107ceecfd7ecc7ce54fd7ccc7ce5cfd7acc7ce60fd78cc7cac8fd76cc7caa4fd74cc7ca94fd72cc7caccfd70cc7ca58fd6ecc7ca60fd6ccc7ca64fd6acc7ca0cfd68cc7c9fcfd66cc7ca24fd64cc7c9d8fd62cc7cf3cfd60cc7cadcfd5ecc7c718fd5ccc7c6b0fd5acc7c614fd58cc7c5e8fd56cc7c5d0fd54cc7c544fd52cc7c574fd50cc7c664fd4ecc7c4e8fd4ccc7c354fd4acc7c344fd48cc7c368fd46cc7c054fd44cc7bdc0fd42cc7cf00fd7dd07ce90fd7bd07ce6cfd79d07ce1cfd77d07cdb4fd75d07cda4fd73d07cd60fd71d07cd10fd6fd07ccb8fd6dd07cc60fd6bd07cc18fd69d07cc08fd67d07cbe0fd65d07cbc8fd63d07cba0fd61d07cb00fd5fd07c738fd5dd07c6d8fd5bd07c61cfd59d0)
  (.lf 0)))

def shaWireTree293 : BTree :=
  .nd (.nd (.nd (.lf
  0x7c8c0ef2caa7c818ef24aa7c800ef22aa7c7e8ef20aa7c314ef12aa7ce44ef3b407ce4cef3ca07ce34ef39407ce40ef3aa07cabcef37f47ce30ef38a07cab0ef361e7cab4ef36b47cab8ef36147ca8cef341e7ca98ef34b47caa8ef34147ca7cef31407ca84ef32a07ca70ef2ff47ca78ef30a07ca4cef2e1e7ca50ef2eb47ca6cef2e147ca40ef2c1e7ca3cef2cb47ca44ef2c147ca18ef29407ca2cef2aa07ca04ef27407ca14ef28a07c9f4ef25f47ca00ef26a07c9ecef241e7c9e8ef24b47c9f0ef24147c9ccef221e7c9dcef22b47c9e0ef22147c9b4ef201e7c9c0ef20b47c9c4ef20147c714ef1d407c9acef1ea07c6acef1b407c710ef1ca07c608ef19407c6a8ef1aa07c56cef17407c604ef18a07c560ef15407c568ef16a07c554ef13f47c55cef14a07c54cef121e7c53cef12b47c550ef12147c4fcef0f407c534ef10a07c4f0ef0d407c4f8ef0ea07c35cef0b407c4ecef0ca07c34cef0940)
  (.lf 0)) (.nd (.lf
  0x387807b9dd0385387b9bd0384787b99d0384147b97d0383647b95d0383007b93d0382587b91d0381e87b8fd0381387b8dd0380cc7b8bd0380187b89d037fb47b87d037f207b85d037e947b83d037dd47b81d03afd87fbfd03af587fbdd03acd87fbbd03acdc7fb9d03ace07fb7d03ace47fb5d03ace87fb3d03acec7fb1d03ad6c7fafd03aa487fadd03aaa87fabd03aa4c7fa9d03aa907fa7d03aa507fa5d03aa787fa3d03aa547fa1d03a7047f9fd03a6d47f9dd03a6ec7f9bd03a5b47f99d03a5307f97d03a5187f95d03a4747f93d03a4287f91d03a3b07f8fd03a23c7f8dd03a2187f8bd03a1f47f89d03a1d07f87d03a1ac7f85d03a1787f83d03a1607f81d03ec0c83bfd03ec1083bdd03ec1483bbd03ec1883b9d03ec1c83b7d03ec2083b5d03ec2483b3d03ec2883b1d03ec2c83afd03ec3083add03ec3483abd03ec3883a9d03ec3c83a7d03ec4083a5d03ec4483a3d03ec4883a1d03ec4c839fd0)
  (.lf 0))) (.nd (.nd (.lf
  0x51314a402b451304a4027851318a402304fbf0a8bcb44fbeca8bc784fbf4a8bc304fbdca8bab44fbd8a8ba784fbe0a8ba304fbc8a8b8b44fbc4a8b8784fbcca8b8304fbb4a8b6b44fbb0a8b6784fbb8a8b6304fba0a8b4b44fb9ca8b4784fba4a8b4304fb8ca8b2b44fb88a8b2784fb90a8b2304fb78a8b0b44fb74a8b0784fb7ca8b0304fb64a8aeb44fb60a8ae784fb68a8ae304fb50a8acb44fb4ca8ac784fb54a8ac304fb3ca8aab44fb38a8aa784fb40a8aa304fb28a8a8b44fb24a8a8784fb2ca8a8304fb14a8a6b44fb10a8a6784fb18a8a6304fb00a8a4b44fafca8a4784fb04a8a4304faeca8a2b44fae8a8a2784faf0a8a2304fad8a8a0b44fad4a8a0784fadca8a0304fac4a89eb44fac0a89e784fac8a89e304fab0a89cb44faaca89c784fab4a89c304fa9ca89ab44fa98a89a784faa0a89a304fa88a898b44fa84a898784fa8ca898304fa74a896b44fa70a896784fa78a896304fa60a894b4)
  (.lf 0)) (.nd (.lf
  0x33bb86ecbd033b306ec9d033aa46ec7d033a146ec5d0339746ec3d03390c6ec11032edc6ffecc32ee46ffccc32eec6ffacc32ef46ff8cc32efc6ff6cc32f046ff4cc32f0c6ff2cc32f146ff0cc32f1c6feecc32f246feccc32f2c6feacc32f346fe8cc32f3c6fe6cc32f446fe4cc32f4c6fe2cc32f546fe0cc32f5c6fdecc32f646fdccc32f6c6fdacc32f746fd8cc32f7c6fd6cc32f846fd4cc32f8c6fd2cc32f946fd0cc32f9c6fcecc32fa46fcccc32fac6fcacc32fb46fc8cc32fbc6fc6cc32fc46fc4cc32fcc6fc2cc332306ffdd03321c6ffbd0332086ff9d0331f46ff7d0331e06ff5d0331cc6ff3d0331b86ff1d0331a46fefd0331906fedd03317c6febd0331686fe9d0331546fe7d0331406fe5d03312c6fe3d0331186fe1d0331046fdfd0330f06fddd0330dc6fdbd0330c86fd9d0330b46fd7d0330a06fd5d03308c6fd3d0330786fd1d0330646fcfd0330506fcdd03303c6fcbd0330286fc9d0)
  (.lf 0)))

def shaWireTree294 : BTree :=
  .nd (.nd (.nd (.lf
  0x460089d5030458209d4e784588c9d4eb4458909d4e30458109d4c78458149d4cb4458189d4c304576c9d4a78458009d4ab4458049d4a30455bc9d4878457589d48b44575c9d4830453f09d4678455b09d46b4455b49d4630453809d4478453bc9d44b4453e89d4430453109d42784536c9d42b4453789d423045fc89dbc7845fc49dbcb445fcc9dbc3045f809dba7845f849dbab445f889dba3045f3c9db87845f309db8b445f409db83045f209db67845f249db6b445f289db63045f109db47845f0c9db4b445f149db43045efc9db27845ef49db2b445f009db23045ee89db07845ee09db0b445eec9db03045ed49dae7845ed09daeb445ed89dae3045ebc9dac7845ec09dacb445ec49dac3045ea49daa7845ea89daab445eac9daa3045e909da87845c709da8b445e949da83045c649da67845c5c9da6b445c689da63045c509da47845bcc9da4b445c549da43045bc09da27845ba09da2b445bc49da230)
  (.lf 0)) (.nd (.lf
  0x1e824785d2c1e810785b2c1e7fc78592c1e7e878572c1e7d478552c1e7c078532c1e7ac78512c1e798784f2c1e784784d2c1e770784b2c1e75c78492c1e74878472c1e73478452c1e72078432c1e71c7840cc3dd787c7f2c3dd387c7d2c3dcf47c7b2c3dcac7c792c3dc687c772c3dc247c752c3dbe07c732c3db9c7c712c3db587c6f2c3db147c6d2c3dad07c6b2c3da8c7c692c3da487c672c3da047c652c3d9c07c632c3d97c7c612c3d9347c5f2c3d8ec7c5d2c3d8a47c5b2c3d85c7c592c3d8147c572c3d7cc7c552c3d7847c532c3d73c7c512c3d6f47c4f2c3d6b07c4d2c3d6687c4b2c3d6207c492c3d5dc7c472c3d5987c452c3d5507c432c3d5347c40cc20820807f2c2079c807d2c206e8807b2c2062480792c2056c80772c204b480752c203f880732c2033c80712c20288806f2c201c8806d2c20110806b2c2005880692c1ff9c80672c1fed880652c1fe2080632c1fd6080612c1fca0805f2c)
  (.lf 0))) (.nd (.nd (.lf
  0x307c164ab40300c164a7803080164a30030001648b402f7c1648780300416483002f701646b402efc16467802f7416463002ef01644b402e7c16447802ef416443002e701642b402e2816427802e741642300a10816fcb40a17816fc780a17c16fc300a08416fab40a0fc16fa780a10016fa3009ffc16f8b40a07816f8780a07c16f83009f7016f6b409ff016f67809ff416f63009eec16f4b409f6416f47809f6816f43009e6c16f2b409ee016f27809ee416f23009de416f0b409e6016f07809e6416f03009d5816eeb409dd816ee7809ddc16ee3009ccc16ecb409d4c16ec7809d5016ec3009c4016eab409cc016ea7809cc416ea3009bb416e8b409c3416e87809c3816e83009b3016e6b409ba816e67809bac16e63009ab016e4b409b2416e47809b2816e43009a3016e2b409aa416e27809aa816e230099a816e0b409a2416e07809a2816e0300992416deb40999c16de78099a016de30098a416dcb4)
  (.lf 0)) (.nd (.lf
  0x7d4bcf2a0cc7d3bcf29ecc7d484f29ccc7d348f29acc7d328f298cc7d270f296cc7d298f294cc7d2e0f292cc7d2b0f290cc7d2d8f28ecc7d6dcf28ccc7d62cf28acc7d66cf288cc7d6a4f286cc7d478f284cc7d3d4f282cc7e128f2bdd07e110f2bbd07e0f8f2b9d07e0e0f2b7d07e0bcf2b5d07dfccf2b3d07dfb4f2b1d07dfa4f2afd07df88f2add07df70f2abd07df58f2a9d07df44f2a7d07df2cf2a5d07df1cf2a3d07de7cf2a1d07de64f29fd07de4cf29dd07de34f29bd07de20f299d07de00f297d07ddb4f295d07dd9cf293d07dd70f291d07dbbcf28fd07dbacf28dd07db98f28bd07dad0f289d07dac0f287d07dab0f285d07d4d8f283d07d398f2811078908f27ecc78710f27ccc78834f27acc786e4f278cc78628f276cc785b4f274cc7873cf272cc78558f270cc784f4f26ecc784b8f26ccc7840cf26acc7846cf268cc78368f266cc78344f264cc78318f262cc78340f260cc782c0f25ecc)
  (.lf 0)))

def shaWireTree295 : BTree :=
  .nd (.nd (.nd (.lf
  0x51fc8a6e03051f84a6deb451f88a6de7851f8ca6de3051f74a6dcb451f78a6dc7851f7ca6dc3051f34a6dab451f38a6da7851f3ca6da3051e88a6d8b451f28a6d87851f2ca6d83051e70a6d6b451e7ca6d67851e80a6d63051e5ca6d4b451e64a6d47851e68a6d43051e40a6d2b451e44a6d27851e48a6d23051e30a6d0b451e34a6d07851e38a6d03051e04a6ceb451e08a6ce7851e24a6ce3051df0a6ccb451da8a6cc7851df4a6cc3051d9ca6cab451d88a6ca7851da0a6ca3051a68a6c8b451d08a6c87851d0ca6c83051a54a6c6b4519a0a6c67851a60a6c63051994a6c4b451990a6c47851998a6c4305191ca6c2b451920a6c27851984a6c23052254a73eaa521a0a73aaa52174a736aa5207ca728aa52048a726aa51fd8a722aa51f6ca71caa51f44a71aaa51e60a714aa51e50a712aa51dbca70caa51cb8a706aa51918a702aa52238a73d40521fca73940521d8a735405205ca727f452024a72540)
  (.lf 0)) (.nd (.lf
  0x35d1c72532c35ca472512c35c28724f2c35bb0724d2c35b2c724b2c35aa072492c35a1c72472c3599c72452c3590c72432c358cc7240cc386e8767f2c386d4767d2c386bc767b2c386a876792c3869476772c3867c76752c3866876732c3866076712c38640766f2c3862c766d2c38618766b2c3860876692c385fc76672c385ac76652c3859c76632c3858476612c385b0765f2c38554765d2c384d0765b2c3843476592c383a476572c3831c76552c3829476532c3820476512c38178764f2c380e8764d2c3805c764b2c37fd476492c37f5076472c37ec476452c37e3476432c37db07640cc3a2bc7a7f2c3a2a87a7d2c3a2907a7b2c3a27c7a792c3a2647a772c39ffc7a752c39fe47a732c39fcc7a712c39fb47a6f2c39f9c7a6d2c39f807a6b2c39f687a692c39f507a672c39f387a652c39f207a632c39f087a612c39ef07a5f2c39ed87a5d2c39ec07a5b2c39ea87a592c39e907a572c39e787a552c)
  (.lf 0))) (.nd (.nd (.lf
  0x2d6240023012d6280022ff2d62c0022fd2d6300022fb2d6340022f92d6380022f72d63c0022f52d6400022f32d6440022f12d6480022ef2d64c0022ed2d6500022eb2d6540022e92d6580022e72d65c0022e52d6600022e32d6640022e12f5380022df2f53c0022dd2f5400022db2f5440022d92f5480022d72f54c0022d52f5500022d32f5540022d12f5580022cf2f55c0022cd2f5600022cb2f5640022c92f5680022c72f56c0022c52f5700022c32f5740022c12f5780022bf2f57c0022bd2f5800022bb2f5840022b92f5880022b72f58c0022b52f5900022b32f5940022b12f5980022af2f59c0022ad2f5a00022ab2f5a40022a92f5a80022a72f5ac0022a52f5b00022a32f5b40022a1314a000229f314a400229d314a800229b314ac002299314b0002297314b4002295314b8002293314bc002291314c000228f314c400228d314c800228b314cc002289314d0002287314d4002285314d8002283)
  (.lf 0)) (.nd (.lf
  0x71fe8e479d071fd8e477d071fc0e475d071f9ce473d071f78e471d071c90e46fd071c78e46dd071c60e46bd071c40e469d071c28e467d071c10e465d071bf8e463d071be0e461d071bace45fd071b94e45dd071b7ce45bd071b60e459d071b18e457d071a94e455d071a78e453d071a34e451d0719ace44fd071984e44dd071964e44bd071844e449d071828e447d071808e445d0717f8e443d0717e4e4411072038e43ecc72020e43ccc71ff4e43acc72040e438cc71fcce436cc71fa8e434cc72060e432cc71c9ce430cc71c84e42ecc71c68e42ccc71c54e42acc71c30e428cc71c20e426cc71c00e424cc71be8e422cc71bb4e420cc71ba0e41ecc71b8ce41ccc71b6ce41acc71b2ce418cc71aa0e416cc71aa8e414cc71a44e412cc719b4e410cc71990e40ecc71978e40ccc71854e40acc71838e408cc71814e406cc7181ce404cc7183ce402cc720b0e43dd072098e43bd072080e439d072068e437d0)
  (.lf 0)))

def shaWireTree296 : BTree :=
  .nd (.nd (.nd (.lf
  0x3afc489bf2c3af8489bd2c3ad4489bb2c3ad3089b92c3ad1c89b72c3ad0889b52c3ac9489b32c3ac8089b12c3ac7089af2c3aa1089ad2c3a9fc89ab2c3a9e889a92c3a9d489a72c3a9c089a52c3a9ac89a32c3a99c89a12c3a68c899f2c3a648899d2c3a5f0899b2c3a59489992c3a4f889972c3a4e889952c3a45089932c3a40889912c3a334898f2c3a134898d2c3a120898b2c3a10c89892c3a0fc89872c3a09c89852c39e0889832c39e048980cc3e9448dbf2c3e9308dbd2c3e91c8dbb2c3e9088db92c3e8f48db72c3e8e08db52c3e9488db32c3e8bc8db12c3e8a88daf2c3e8948dad2c3e87c8dab2c3e8808da92c3e85c8da72c3e8508da52c3e8308da32c3e8188da12c3e8048d9f2c3e7f08d9d2c3e7dc8d9b2c3e81c8d992c3e7bc8d972c3e7a08d952c3e78c8d932c3e7788d912c3e7648d8f2c3e7588d8d2c3e7a88d8b2c3e71c8d892c3e6f88d872c3e3f08d852c3e3488d832c3e34c8d80cc)
  (.lf
  0x1d0006048cc1d0086046cc1d0106044cc1d0186042cc1d27c607dd01d268607bd01d2546079d01d2406077d01d22c6075d01d2186073d01d2046071d01d1f0606fd01d1dc606dd01d1c8606bd01d1b46069d01d1a06067d01d18c6065d01d1786063d01d1646061d01d150605fd01d13c605dd01d128605bd01d1146059d01d1006057d01d0ec6055d01d0d86053d01d0c46051d01d0b0604fd01d09c604dd01d088604bd01d0746049d01d0606047d01d04c6045d01d0386043d01d0206041102e8e0603ecc2e87c603ccc2e80c603acc2e7946038cc2e7186036cc2e6a46034cc2e6346032cc2e5c46030cc2e558602ecc2e4ec602ccc2e474602acc2e3f86028cc2e3806026cc2e3086024cc2e2906022cc2e2206020cc2e1b4601ecc2e140601ccc2e0d0601acc2e05c6018cc2dfe86016cc2df786014cc2df0c6012cc2de986010cc2de28600ecc2ddb4600ccc2dd44600acc2dcd06008cc2dc506006cc))
  (.nd (.lf
  0x210bc003481210c000347f210c400347d210c800347b210cc003479210d0003477210d4003475210d8003473210dc003471210e000346f210e400346d210e800346b210ec003469210f0003467210f4003465210f8003463210fc003461225f000345f225f400345d225f800345b225fc0034592260000345722604003455226080034532260c0034512261000344f2261400344d2261800344b2261c0034492262000344722624003445226280034432262c0034412263000343f2263400343d2263800343b2263c0034392264000343722644003435226480034332264c0034312265000342f2265400342d2265800342b2265c0034292266000342722664003425226680034232266c0034212479c00341f247a000341d24b8000341b24b8400341924b8800341724b8c00341524b9000341324a940034112498c00340f2499000340d2499400340b249980034092499c00340724b9400340524b98003403)
  (.lf 0))) (.nd (.nd (.lf
  0x330846fd278330806fd2b4330886fd230330706fd0783306c6fd0b4330746fd0303305c6fce78330586fceb4330606fce30330486fcc78330446fccb43304c6fcc30330346fca78330306fcab4330386fca30330206fc8783301c6fc8b4330246fc8303300c6fc678330086fc6b4330106fc63032ff86fc47832ff46fc4b432ffc6fc43032fe46fc27832fe06fc2b432fe86fc2303575472bc783575072bcb43575872bc303574072ba783573c72bab43574472ba303572c72b8783572872b8b43573072b8303571872b6783571472b6b43571c72b6303570472b4783570072b4b43570872b430356f072b278356ec72b2b4356f472b230356dc72b078356d872b0b4356e072b030356c872ae78356c472aeb4356cc72ae30356b472ac78356b072acb4356b872ac30356a072aa783569c72aab4356a472aa303568c72a8783568872a8b43569072a8303567872a6783567472a6b43567c72a6303566472a478)
  (.lf 0)) (.nd (.lf
  0x354b40069f3354bc0069f1354c40069ef354cc0069ed354d40069eb354dc0069e9354e40069e7354ec0069e5354f40069e3354fc0069e1373740069df3737c0069dd373840069db3738c0069d9373940069d73739c0069d5373a40069d3373ac0069d1373b40069cf373bc0069cd373c40069cb373cc0069c9373d40069c7373dc0069c5373e40069c3373ec0069c1373f40069bf373fc0069bd374040069bb3740c0069b9374140069b73741c0069b5374240069b33742c0069b1374340069af3743c0069ad374440069ab3744c0069a9374540069a73745c0069a5374640069a33746c0069a1392f000699f392f800699d3930000699b39308006999393100069973931800699539320006993393280069913933000698f3933800698d3934000698b39348006989393500069873935800698539360006983393680069813937000697f3937800697d3938000697b393880069793939000697739398006975)
  (.lf 0)))

def shaWireTree297 : BTree :=
  .nd (.nd (.nd (.lf
  0x361c15603003518155e7803588155eb40358c155e3003488155c780350c155cb403510155c3003408155a780347c155ab403480155a3003388155878033fc1558b4034001558300330c1556780337c1556b4033801556300327c155478033001554b403304155430031fc155278032701552b40327415523003180155078031f01550b4031f4155030030f0154e7803174154eb403178154e3003070154c78030e4154cb4030e8154c3002ff4154a7803064154ab403068154a3002f6415487802fe81548b402fec15483002ee415467802f581546b402f5c15463002e6415447802ed81544b402edc15443002e1c15427802e581542b402e5c15423003d6015bc7803ce015bcb403d6415bc3003cd415ba7803c5415bab403cd815ba3003c4815b87803bc415b8b403c4c15b83003bb815b67803b4415b6b403bbc15b63003b3815b47803ac415b4b403b3c15b43003ab815b27803a4815b2b403abc15b230)
  (.lf 0)) (.nd (.lf
  0x391487bdd2c391247bdb2c391847bd92c391007bd72c390ec7bd52c390d47bd32c390c47bd12c3910c7bcf2c390a07bcd2c38e907bcb2c38ddc7bc92c38d807bc72c38cd87bc52c38c587bc32c38ba47bc0cc3b5a47fff2c3b5947ffd2c3b57c7ffb2c3b5687ff92c3b5547ff72c3b5407ff52c3b52c7ff32c3b51c7ff12c3b5087fef2c3b4f47fed2c3b4e07feb2c3b0e87fe92c3b0d47fe72c3b0c47fe52c3b0a87fe32c3b0987fe12c3b0847fdf2c3b0fc7fdd2c3b0607fdb2c3b04c7fd92c3b0347fd72c3b0247fd52c3b0047fd32c3af9c7fd12c3af1c7fcf2c3af0c7fcd2c3aef87fcb2c3aee47fc92c3aed07fc72c3aebc7fc52c3aea87fc32c3ab147fc0cc40bd883ff2c40be083fd2c40bb083fb2c40be883f92c40aa883f72c40a8083f52c40a5083f32c405d483f12c405b083ef2c405c083ed2c4059c83eb2c4056883e92c405a483e72c4054083e52c4052083e32c4054c83e12c3fe5083df2c)
  (.lf 0))) (.nd (.nd (.lf
  0x62e0cc4523062de8c450b462de4c4507862decc4503062dd8c44eb462dccc44e7862ddcc44e3062db8c44cb462dc0c44c7862dc4c44c3062da4c44ab462dacc44a7862db0c44a3062d8cc448b462d90c4487862d94c4483062d74c446b462d70c4467862d80c4463062bf4c444b462bf0c4447862d68c4443062bc8c442b462be4c4427862be8c4423063608c43cb463604c43c786360cc43c30635f0c43ab4635e8c43a78635f4c43a30635d8c438b4635d4c43878635dcc43830635c8c436b4635c4c43678635ccc43630635acc434b4635b0c43478635b4c4343063590c432b46358cc432786359cc4323063580c430b46357cc4307863584c4303063568c42eb463564c42e786356cc42e3063548c42cb463540c42c7863554c42c3063530c42ab46352cc42a7863534c42a306351cc428b463518c4287863520c42830634ecc426b463508c426786350cc42630634d0c424b4634e0c42478634e4c42430)
  (.lf 0)) (.nd (.lf
  0x43d908fc2cc445d08ffdd0445bc8ffbd0445a88ff9d0445948ff7d0445808ff5d04456c8ff3d0445588ff1d0445408fefd0445308fedd04451c8febd0445048fe9d0444f48fe7d0444d88fe5d0444c48fe3d0444b08fe1d0444988fdfd0444848fddd0444708fdbd0444608fd9d04444c8fd7d0444388fd5d0444248fd3d0442508fd1d0441a48fcfd0441908fcdd04404c8fcbd0440388fc9d0440248fc7d043e4c8fc5d043da08fc3d043d388fc1104656092becc4656892bccc4657092bacc4657892b8cc4658092b6cc4658892b4cc4659092b2cc4659892b0cc465a092aecc465a892accc465b092aacc465b892a8cc465c092a6cc465c892a4cc465d092a2cc465d892a0cc465e0929ecc465e8929ccc465f0929acc465f89298cc466009296cc466089294cc466109292cc466189290cc46620928ecc46628928ccc46aec928acc466349288cc46a249286cc466409284cc469549282cc4693892bdd0)
  (.lf 0)))

def shaWireTree298 : BTree :=
  .nd (.nd (.nd (.lf
  0x5d6c4c99eb45d74cc99e305d6b8c99c785d69cc99cb45d6bcc99c305d658c99a785d628c99ab45d694c99a305d61cc998785d5c4c998b45d620c998305d5b8c996785d4fcc996b45d5bcc996305d4f0c994785d4e4c994b45d4f4c994305d4c0c992785d46cc992b45d4d8c992305d460c990785d43cc990b45d464c990305d430c98e785d3a0c98eb45d434c98e305d394c98c785d35cc98cb45d398c98c305d33cc98a785d350c98ab45d354c98a305d330c988785d2a0c988b45d334c988305d280c986785d294c986b45d298c986305d274c984785d210c984b45d278c984305d204c982785c490c982b45d208c982305fd9ccd7c786026ccd7cb460270cd7c305fd78cd7a785fd90cd7ab45fd94cd7a305fd58cd78785fd6ccd78b45fd70cd78305fd34cd76785fd4ccd76b45fd50cd76305fd1ccd74785fd28cd74b45fd2ccd74305fd10cd72785fd0ccd72b45fd14cd72305fd00cd70785fcc0cd70b4)
  (.lf 0)) (.nd (.lf
  0x4abc0981d2c4ab94981b2c4ab6898192c4ab3c98172c4ab1098152c4aae498132c4aab898112c4aa8c980f2c4aa60980d2c4aa34980b2c4aa0898092c4a9dc98072c4a9b098052c4a98498032c4a9749800cc4d1bc9c3f2c4d1949c3d2c4d1689c3b2c4d13c9c392c4d1109c372c4d0e49c352c4d0b89c332c4d08c9c312c4d0609c2f2c4d0349c2d2c4d0089c2b2c4cfdc9c292c4cfb09c272c4cf849c252c4cf589c232c4cf2c9c212c4cf009c1f2c4ced49c1d2c4cea89c1b2c4ce7c9c192c4ce509c172c4ce249c152c4cdf89c132c4cdcc9c112c4cda09c0f2c4cd749c0d2c4cd489c0b2c4cd1c9c092c4ccf09c072c4ccc49c052c4cc989c032c4cc889c00cc4f4e0a03f2c4f4b8a03d2c4f48ca03b2c4f460a0392c4f434a0372c4f408a0352c4f3dca0332c4f3b0a0312c4f384a02f2c4f358a02d2c4f32ca02b2c4f300a0292c4f2d4a0272c4f2a8a0252c4f27ca0232c4f250a0212c4f224a01f2c)
  (.lf 0))) (.nd (.nd (.lf
  0xefe427ccb40efec27cc300efd427ca780efd027cab40efd827ca300efc027c8780efbc27c8b40efc427c8300efac27c6780efa827c6b40efb027c6300ef9827c4780ef9427c4b40ef9c27c4300ef8427c2780ef8027c2b40ef8827c23011d282abc7811d242abcb411d2c2abc3011cb82aba7811cb42abab411cbc2aba3011c302ab87811c2c2ab8b411c342ab83011bac2ab67811ba82ab6b411bb02ab63011b2c2ab47811b282ab4b411b302ab43011aa42ab27811aa02ab2b411aa82ab23011a202ab07811a1c2ab0b411a242ab030119a02aae781199c2aaeb4119a42aae30119202aac781191c2aacb4119242aac30118a02aaa781189c2aaab4118a42aaa30118182aa878118142aa8b41181c2aa8301178c2aa678117882aa6b4117902aa630117082aa478117042aa4b41170c2aa430116882aa278116842aa2b41168c2aa230116082aa078116042aa0b41160c2aa030115802a9e781157c2a9eb4)
  (.lf 0)) (.nd (.lf
  0xfe943567d00fe143565d00fd983563d00fd0c3561d00fc7c355fd00fc00355dd00fb70355bd00faf43559d00fa683557d00f9d83555d00f95c3553d00f8d03551d00f840354fd00f7c0354dd00f740354bd00f6c03549d00f6403547d00f5c03545d00f5403543d00f4f43541101048835becc1043835bccc103c035bacc1031435b8cc102b435b6cc1023435b4cc1018835b2cc1012835b0cc1007c35aecc1001c35accc0ff9c35aacc0ff1c35a8cc0fe9c35a6cc0fe1c35a4cc0fd7035a2cc0fce435a0cc0fc84359ecc0fbd8359ccc0fb78359acc0facc3598cc0fa403596cc0f9e03594cc0f9343592cc0f8a83590cc0f848358ecc0f7c8358ccc0f748358acc0f6c83588cc0f6483586cc0f5c83584cc0f5483582cc1042035bdd0103a035bbd01032435b9d01029435b7d01021435b5d01019835b3d01010835b1d01008c35afd00fffc35add00ff7c35abd00fefc35a9d00fe7c35a7d00fdfc35a5d0)
  (.lf 0)))

def shaWireTree299 : BTree :=
  .nd (.nd (.nd (.lf
  0x5b960baac785b95cbaacb45b964baac305b94cbaaa785b948baaab45b954baaa305b93cbaa8785b938baa8b45b940baa8305b928baa6785b924baa6b45b92cbaa6305b910baa4785b90cbaa4b45b914baa4305b8f8baa2785b8f4baa2b45b8fcbaa2305b8e4baa0785b8e8baa0b45b8ecbaa0305b8c4ba9e785b8ccba9eb45b8d0ba9e305b8b8ba9c785b8b4ba9cb45b8bcba9c305b8a8ba9a785b89cba9ab45b8acba9a305b88cba98785b890ba98b45b894ba98305b878ba96785b87cba96b45b880ba96305b868ba94785b864ba94b45b86cba94305b858ba92785b854ba92b45b85cba92305b844ba90785b848ba90b45b84cba90305b828ba8e785b830ba8eb45b834ba8e305b81cba8c785b818ba8cb45b820ba8c305b80cba8a785b800ba8ab45b810ba8a305b7f0ba88785b7f4ba88b45b7f8ba88305b7dcba86785b7e0ba86b45b7e4ba86305b7ccba84785b7c8ba84b45b7d0ba84305b7bcba8278)
  (.lf 0)) (.nd (.lf
  0x3872476e52c3894c76e32c3874c76e12c3887876df2c3876476dd2c384e876db2c3843c76d92c383bc76d72c3833076d52c382ac76d32c3821c76d12c3819076cf2c3810076cd2c3807476cb2c37fec76c92c37f6876c72c37ed076c52c37e4476c32c37db476c0cc3a8247aff2c3a8147afd2c3a7fc7afb2c3a7f47af92c3a7d87af72c3a7cc7af52c3a7b07af32c3a79c7af12c3a7887aef2c3a7787aed2c3a7587aeb2c3a7487ae92c3a7347ae72c3a71c7ae52c3a6c47ae32c3a6b07ae12c3a66c7adf2c3a6147add2c3a5c07adb2c3a5647ad92c3a3987ad72c3a3887ad52c3a3687ad32c3a3607ad12c3a3247acf2c3a07c7acd2c3a0607acb2c3a0447ac92c3a0387ac72c3a01c7ac52c397f47ac32c39de87ac0cc3e3087eff2c3e30c7efd2c3e2e87efb2c3e2cc7ef92c3e2b87ef72c3e3107ef52c3e2947ef32c3e27c7ef12c3e2987eef2c3e2607eed2c3e2407eeb2c3e2287ee92c3e2147ee72c)
  (.lf 0))) (.nd (.nd (.lf
  0x1a8d44c92b41a8d04c92781a8d84c92301a8c04c90b41a8bc4c90781a8c44c90301a8ac4c8eb41a8a84c8e781a8b04c8e301a8984c8cb41a8944c8c781a89c4c8c301a8844c8ab41a8804c8a781a8884c8a301a8704c88b41a86c4c88781a8744c88301a85c4c86b41a8584c86781a8604c86301a8484c84b41a8444c84781a84c4c84301a8344c82b41a8304c82781a8384c82301b7d04c7cb41b7cc4c7c781b7d44c7c301b7944c7ab41b7904c7a781b7984c7a301b7504c78b41b74c4c78781b7544c78301b70c4c76b41b7084c76781b7104c76301b6c84c74b41b6c44c74781b6cc4c74301b6844c72b41b6804c72781b6884c72301b6404c70b41b63c4c70781b6444c70301b5fc4c6eb41b5f84c6e781b6004c6e301b5b84c6cb41b5b44c6c781b5bc4c6c301b5744c6ab41b5704c6a781b5784c6a301b5304c68b41b52c4c68781b5344c68301b4ec4c66b41b4e84c66781b4f04c66301b4a84c64b4)
  (.lf 0)) (.nd (.lf
  0x5ff40e85d005fe00e83d005fc80e811006fc00f3df406f580f3bf406ee40f394006e080f354006cc40f2ff406c500f2d4006b740f29f406b000f274006a240f2340069480f1ff4068d40f1df4068600f1b40067840f17f4067100f1540066340f11f4065c00f0ff40654c0f0d40064700f09400632c0f0340059700ffecc059780ffccc059800ffacc059880ff8cc059900ff6cc059980ff4cc059a00ff2cc059a80ff0cc059b00feecc059b80feccc059c00feacc059c80fe8cc059d00fe6cc059d80fe4cc059e00fe2cc059e80fe0cc059f00fdecc059f80fdccc05a000fdacc05a080fd8cc05a100fd6cc05a180fd4cc05a200fd2cc05a280fd0cc05a300fcecc05a380fcccc05a400fcacc05a480fc8cc05a500fc6cc05a580fc4cc05a600fc2cc05cc40ffdd005cb00ffbd005c9c0ff9d005c880ff7d005c740ff5d005c600ff3d005c4c0ff1d005c380fefd005c240fedd005c100febd005bfc0fe9d0)
  (.lf 0)))

def shaWireTree300 : BTree :=
  .nd (.nd (.nd (.lf
  0x40f6000164b40f6400164940f6800164740f6c00164540f7000164340f7400164140f7800163f40f7c00163d40f8000163b40f8400163940f8800163740f8c0016353c3280016333c32c0016313c33000162f3c33400162d3c33800162b3c33c0016293c3400016273c3440016253c3480016233c34c0016213c35000161f3c35400161d3c35800161b3c35c0016193c3600016173c3640016153c3680016133c36c0016113c37000160f3c37400160d3c37800160b3c37c0016094483c0016074484000160544844001603448480016014484c0015ff448500015fd448540015fb448580015f94485c0015f7448600015f5448640015f3448680015f14486c0015ef448700015ed448740015eb448780015e94487c0015e7448800015e5448840015e3448880015e14488c0015df448900015dd3cca00015db3cca40015d93cca80015d73ccac0015d53ccb00015d33ccb40015d13ccb80015cf3ccbc0015cd)
  (.lf 0)) (.nd (.lf
  0x30eb06ba03030e886b9e3030e606b9c3030e346b9a3030e0c6b983030de46b963030dc06b943030d9c6b923030bf86b903030bd46b8e3030bb06b8c3030b8c6b8a3030b686b883030b446b863030b206b843030afc6b823030a6c6b803032e486fbeb432e286fbcb432e046fbab432de06fb8b432dbc6fb6b432d986fb4b432d746fb2b432d506fb0b432d2c6faeb432d086facb432ce46faab432cc06fa8b432c9c6fa6b432c746fa4b432c506fa2b432c2c6fa0b432c086f9eb432be46f9cb432bc06f9ab432aec6f98b432af06f96b432af46f94b432af86f92b432afc6f90b432b006f8eb432b046f8cb432b086f8ab432b0c6f88b432b106f86b432b146f84b432b186f82b432b1c6f80b4311e86fbe78311ec6fbc78312006fba78311706fb878312746fb678311086fb478310b06fb278310586fb078310006fae7830fbc6fac7830f846faa7830f586fa87830f306fa67830f086fa47830ee06fa278)
  (.lf 0))) (.nd (.nd (.lf
  0x228bc4be278228b84be2b4228c04be230228a84be078228a44be0b4228ac4be030228944bde78228904bdeb4228984bde30228804bdc782287c4bdcb4228844bdc302286c4bda78228684bdab4228704bda30228584bd878228544bd8b42285c4bd830228444bd678228404bd6b4228484bd630228304bd4782282c4bd4b4228344bd4302281c4bd278228184bd2b4228204bd230228084bd078228044bd0b42280c4bd030227f44bce78227f04bceb4227f84bce30227e04bcc78227dc4bccb4227e44bcc30227cc4bca78227c84bcab4227d04bca30227b84bc878227b44bc8b4227bc4bc830227a44bc678227a04bc6b4227a84bc630227904bc4782278c4bc4b4227944bc4302277c4bc278227784bc2b4227804bc230258184ebc78258144ebcb42581c4ebc30257e44eba78257e04ebab4257e84eba30257a44eb878257a04eb8b4257a84eb830257684eb678257644eb6b42576c4eb630257304eb478)
  (.lf 0)) (.nd (.lf
  0x54ddcb95fd054db8b95dd054d90b95bd054d68b959d054d40b957d054d18b955d054ce0b953d054cc0b951d054cacb94fd054c88b94dd054c78b94bd053e04b949d053d14b947d053d04b945d053c50b943d053c40b9411054954b9becc548c8b9bccc548c4b9bacc548c0b9b8cc548bcb9b6cc54828b9b4cc547d0b9b2cc54788b9b0cc5474cb9aecc54700b9accc546b8b9aacc54670b9a8cc5462cb9a6cc545f8b9a4cc545acb9a2cc5456cb9a0cc5452cb99ecc54504b99ccc544ccb99acc54494b998cc54444b996cc5441cb994cc543ccb992cc5438cb990cc54354b98ecc53f3cb98ccc53e1cb98acc53df4b988cc53cf0b986cc53cf8b984cc53c18b982cc54964b9bdd054928b9bbd054904b9b9d0548e4b9b7d054844b9b5d0547ecb9b3d0547a4b9b1d054760b9afd05471cb9add0546e4b9abd05468cb9a9d054648b9a7d0545f0b9a5d0545c8b9a3d054588b9a1d05454cb99fd0544f8b99dd0)
  (.lf 0)))

def shaWireTree301 : BTree :=
  .nd (.nd (.nd (.lf
  0x6f96cde90306f954de8e786f950de8eb46f958de8e306f938de8c786f93cde8cb46f944de8c306f92cde8a786f928de8ab46f930de8a306f8a0de88786f918de88b46f91cde88306f890de86786f88cde86b46f898de86306f880de84786f874de84b46f884de84306f74cde82786f868de82b46f86cde823070914de7cb470910de7c7870918de7c30708f0de7ab4708fcde7a7870900de7a30708d8de78b4708dcde7878708e0de7830708c0de76b4708c4de7678708c8de7630708acde74b4708b4de7478708b8de743070898de72b47089cde7278708a0de72307087cde70b470878de707870888de70307086cde6eb470868de6e7870870de6e307084cde6cb470848de6c7870858de6c307083cde6ab470838de6a7870840de6a3070820de68b470814de687870824de683070800de66b470808de66787080cde6630707f0de64b4707ecde6478707f4de6430707ccde62b4707c8de6278707e0de6230)
  (.lf 0)) (.nd (.lf
  0x38e8000597d38dcc00597b38d6000597938cb800597738c440059753908c0059733900400597138f9000596f38f0400596d38e8800596b38dd400596938d6800596738cc000596538c4c00596338b980059613ab0000595f3ab0400595d3afe800595b3af480059593adac0059573adb00059553adb40059533adb80059513adbc00594f3adc000594d3adc400594b3ab080059493ab0c0059473afec0059453af740059433adc80059413adcc00593f3add000593d3add400593b3add80059393addc0059373ade00059353aff00059333af400059313ade400592f3ade800592d3adec00592b3adf00059293adf40059273adf80059253adfc0059233ab100059213ed7400591f3ed7c00591d3ed8400591b3ed8c0059193ed940059173ed9c0059153eda40059133edac0059113edb400590f3edbc00590d3edc000590b3edc80059093edd00059073edd80059053ede00059033ede80059013edf00058ff)
  (.lf 0))) (.nd (.nd (.lf
  0x23fb88870782404088703023fac886eb423f28886e7823fb0886e3023f1c886cb423e98886c7823f20886c3023e8c886ab423e10886a7823e90886a3023e048868b423d8888687823e0888683023d7c8866b423d0088667823d8088663023cf48864b423c7888647823cf888643023c6c8862b423bf088627823c7088623023be48860b423b6088607823be888603023b54885eb423acc885e7823b58885e3023ac0885cb423a40885c7823ac4885c3023a34885ab4239b8885a7823a38885a30239ac8858b423928885878239b08858302391c8856b42389488567823920885630238888854b4238008854782388c885430237f48852b423774885278237f8885230237688850b4236e48850782376c885030236d8884eb423654884e78236dc884e3023648884cb4235c4884c782364c884c30235b8884ab423534884a78235bc884a30235288848b4234a08848782352c884830234948846b423408884678)
  (.lf 0)) (.nd (.lf
  0x2512c4ec11024b544ffecc24b5c4ffccc24bac4ffacc24bb44ff8cc24bbc4ff6cc24bc44ff4cc24bcc4ff2cc24aa04ff0cc249dc4feecc249e44feccc249ec4feacc249f44fe8cc249fc4fe6cc24bd44fe4cc24bdc4fe2cc24be44fe0cc24bec4fdecc24bf44fdccc24aa84fdacc24a044fd8cc24a0c4fd6cc24a144fd4cc24bfc4fd2cc24c044fd0cc24c0c4fcecc24c144fcccc24c1c4fcacc24ab04fc8cc24a1c4fc6cc24a244fc4cc24a2c4fc2cc24e204ffdd024e0c4ffbd024df84ff9d024de44ff7d024dd04ff5d024dbc4ff3d024da84ff1d024d944fefd024d804fedd024d6c4febd024d584fe9d024d444fe7d024d304fe5d024d1c4fe3d024d084fe1d024cf44fdfd024ce04fddd024ccc4fdbd024cb84fd9d024ca44fd7d024c904fd5d024c7c4fd3d024c684fd1d024c544fcfd024c404fcdd024c2c4fcbd024ac04fc9d024a744fc7d024a604fc5d024a4c4fc3d024a344fc110268b852becc)
  (.lf 0)))

def shaWireTree302 : BTree :=
  .nd (.nd (.nd (.lf
  0x2f158717c782f160717cb42f164717c302f14c717a782f148717ab42f150717a302f1347178782f1387178b42f13c7178302f1207176782f1247176b42f1287176302f0f87174782f1107174b42f1147174302f0ec7172782f0e87172b42f0f07172302f0b07170782f0007170b42f0b47170302efe8716e782eff0716eb42eff4716e302efdc716c782efd8716cb42efe0716c302efc4716a782efc8716ab42efcc716a302efb07168782efb47168b42efb87168302ef9c7166782efa07166b42efa47166302ef647164782ef907164b42ef947164302ef187162782ef147162b42ef1c7162302ef047160782eefc7160b42ef087160302eef0715e782eeec715eb42eef4715e302eed8715c782eedc715cb42eee0715c302eec8715a782eec4715ab42eecc715a302eb187158782eeb87158b42eebc7158302eb0c7156782ea887156b42eb107156302ea787154782ea747154b42ea7c7154302ea64715278)
  (.lf 0)) (.nd (.lf
  0x7442c00397d7443400397b7443c00397974444003977743c4003975743cc003973743700039717427400396f7427c00396d7428400396b7428c003969742940039677429c003965742a4003963742ac00396174c2c00395f74be400395d74bec00395b74bb400395974b9c00395774b6000395574b6800395374b7000395174b7800394f74b8000394d74e1400394b74e1c00394974dd400394774e4400394574da000394374e6000394174d2400393f74e2400393d74e2c00393b74e3400393974e4c00393774ddc00393574e6800393374da400393174e7000392f74d2c00392d74d3400392b74d3c00392974ca000392774ca400392574c5000392374c380039211f00c40bf2c1eff840bd2c1efe440bb2c1efd040b92c1efbc40b72c1efa840b52c1ef9440b32c1ef8040b12c1ef6c40af2c1ef5840ad2c1ef4440ab2c1ef3040a92c1ef1c40a72c1ef0840a52c1eef440a32c1eee040a12c1eecc409f2c)
  (.lf 0))) (.nd (.nd (.lf
  0x141802eeb40144c02ee780145002ee30013dc02ecb40140c02ec780141002ec30013a402eab4013d002ea78013d402ea300136c02e8b40139802e8780139c02e8300132c02e6b40136002e6780136402e630012f002e4b40132002e4780132402e430012b002e2b4012e402e278012e802e2300127402e0b4012a402e078012a802e0300123c02deb40126802de780126c02de300120402dcb40123002dc780123402dc30011c402dab4011f802da78011fc02da300118802d8b4011b802d878011bc02d8300114802d6b40117c02d6780118002d6300110402d4b40113c02d4780114002d430010c002d2b4010f802d278010fc02d2300107c02d0b4010b402d078010b802d0300103802ceb40107002ce780107402ce3000ffc02ccb40102c02cc780103002cc3000fc402cab400ff002ca7800ff402ca3000f8402c8b400fb802c87800fbc02c83000f5402c6b400f7802c67800f7c02c63000f2802c4b4)
  (.lf 0)) (.nd (.lf
  0x66f40cfddd066f2ccfdbd066f18cfd9d066f04cfd7d066ef0cfd5d066edccfd3d066ec8cfd1d066eb0cfcfd066e60cfcdd066e4ccfcbd066e38cfc9d066e24cfc7d066e10cfc5d066748cfc3d0666eccfc1106910cd2becc68f64d2bccc68db8d2bacc68e30d2b8cc68e54d2b6cc68decd2b4cc69120d2b2cc68f74d2b0cc68dc8d2aecc68e40d2accc68d04d2aacc693a8d2a8cc68f7cd2a6cc68dd0d2a4cc68e48d2a2cc68d0cd2a0cc68dfcd29ecc68e90d29ccc68994d29acc6899cd298cc68928d296cc68930d294cc68834d292cc689a0d290cc6875cd28ecc6912cd28ccc68f84d28acc68dd8d288cc68e50d286cc68d18d284cc68e04d282cc69310d2bdd069300d2bbd0692ecd2b9d0692d0d2b7d0692c0d2b5d0692acd2b3d06929cd2b1d069288d2afd069274d2add069260d2abd069248d2a9d069238d2a7d069224d2a5d069214d2a3d069200d2a1d0691ecd29fd0691d8d29dd0691c8d29bd0)
  (.lf 0)))

def shaWireTree303 : BTree :=
  .nd (.nd (.nd (.lf
  0x4742893cab44743093ca304649493c8784740893c8b44740c93c8304648493c6784648093c6b44648893c6304647493c4784647093c4b44647893c4304646093c2784645c93c2b44646493c2304849096bc784848c96bcb44849496bc304847c96ba784847896bab44848096ba304846896b8784846496b8b44846c96b8304845496b6784845096b6b44845896b6304844096b4784843c96b4b44844496b4304842496b2784842c96b2b44843096b2304841896b0784840896b0b44841c96b030483f496ae78483f896aeb4483fc96ae30483e896ac78483dc96acb4483ec96ac30483cc96aa78483c896aab4483d096aa30483bc96a878483b496a8b4483c096a830483a896a678483a496a6b4483ac96a6304839896a4784839496a4b44839c96a4304838496a2784838096a2b44838896a2304837096a0784836c96a0b44837496a0304835c969e7848358969eb448360969e3048348969c7848344969cb4)
  (.lf 0)) (.nd (.lf
  0x355a872932c3559472912c35580728f2c3556c728d2c35558728b2c3554472892c3553072872c3551c72852c3550872832c355047280cc376d076bf2c376c076bd2c376a476bb2c376ac76b92c3768076b72c3767076b52c3765876b32c3764c76b12c3763076af2c3763476ad2c3760876ab2c375fc76a92c375e076a72c375d476a52c375c476a32c375a076a12c37590769f2c37580769d2c37564769b2c3755076992c375c076972c3753076952c3752476932c3750876912c374f4768f2c374dc768d2c374c8768b2c374b876892c374a076872c3749476852c3747876832c374907680cc396487abf2c396347abd2c396207abb2c3960c7ab92c395f47ab72c395f87ab52c395d47ab32c395bc7ab12c395a87aaf2c3964c7aad2c395807aab2c395887aa92c395607aa72c395487aa52c395347aa32c395207aa12c3950c7a9f2c394f87a9d2c394e47a9b2c394d07a992c394c47a972c394b07a952c)
  (.lf 0))) (.nd (.nd (.lf
  0x54574ae205054538ae1e5054514ae1c50544dcae1a50544a4ae18505445cae16505442cae1450543e4ae1250543a8ae10505435cae0e5053f58ae0c5053e34ae0a5053e08ae085053d34ae065053d38ae045053c8cae025053c34ae005054978b23e785493cb23c785491cb23a78548f8b23878548e0b2367854838b23478547e8b2327854798b230785475cb22e7854710b22c78546c8b22a7854680b228785463cb2267854600b22478545bcb222785457cb2207854540b21e785450cb21c78544d4b21a785449cb2187854464b2167854424b21478543ecb21278543b0b2107854368b20e7853f60b20c7853e3cb20a7853e10b2087853d44b2067853d48b2047853c94b2027853c3cb2007857138b23e505713cb23c5057140b23a50570e8b23850570ecb2365056e5cb2345056e0cb2325056d7cb2305056cbcb22e5056cc0b22c5056cc4b22a5056cc8b2285056cccb2265056cd0b2245056a3cb22250)
  (.lf 0)) (.nd (.lf
  0x5cff4b87dd05cf6cb87bd05cee4b879d05ce5cb877d05cdd8b875d05cd50b873d05ccccb871d05cc50b86fd05cbd4b86dd05cb58b86bd05cadcb869d05ca60b867d05c9ecb865d05c988b863d05c448b861d05c430b85fd05c414b85dd05c400b85bd05c3ecb859d05c3d4b857d05c3c4b855d05c3acb853d05c394b851d05c380b84fd05c364b84dd05c350b84bd05c33cb849d05c324b847d05c30cb845d05c2f4b843d05c2b8b841105cffcb83ecc5cf7cb83ccc5cef0b83acc5ce78b838cc5cdecb836cc5cd5cb834cc5ccd8b832cc5cc68b830cc5cbdcb82ecc5cb64b82ccc5cae4b82acc5ca68b828cc5c9f4b826cc5c990b824cc5c450b822cc5c43cb820cc5c41cb81ecc5c420b81ccc5c4bcb81acc5c4b8b818cc5c4b4b816cc5c3bcb814cc5c3a0b812cc5c4b0b810cc5c4acb80ecc5c378b80ccc5c374b80acc5c330b808cc5c318b806cc5c2fcb804cc5c2c8b802cc5cf84b83dd05cf18b83bd0)
  (.lf 0)))

def shaWireTree304 : BTree :=
  .nd (.nd (.nd (.lf
  0x5e04cc9bf2c5df94c9bd2c5df28c9bb2c5dd68c9b92c5dd90c9b72c5dc28c9b52c5dc08c9b32c5dba8c9b12c5da48c9af2c5db84c9ad2c5d9c0c9ab2c5d91cc9a92c5d8c4c9a72c5d858c9a52c5d800c9a32c5d788c9a12c5d70cc99f2c5d6a0c99d2c5d684c99b2c5d5e0c9992c5d588c9972c5d4e0c9952c5d510c9932c5d488c9912c5d410c98f2c5d3ccc98d2c5d340c98b2c5d320c9892c5d284c9872c5d264c9852c5d1d8c9832c5c468c980cc602d0cdbf2c6027ccdbd2c600a0cdbb2c60090cdb92c6007ccdb72c60060cdb52c60068cdb32c60028cdb12c5fc48cdaf2c5fc4ccdad2c5fc1ccdab2c5fc0ccda92c5fc54cda72c5f3e0cda52c5f374cda32c5f36ccda12c5f364cd9f2c5f2c8cd9d2c5f2b8cd9b2c5f274cd992c5f260cd972c5f24ccd952c5f1bccd932c5f184cd912c5f05ccd8f2c5f00ccd8d2c5efbccd8b2c5ef70cd892c5ef1ccd872c5ef0ccd852c5e768cd832c5e61ccd80cc)
  (.lf
  0x3787c7405d0378507403d0378307401103965478becc3965c78bccc3966478bacc3966c78b8cc3967478b6cc3967c78b4cc3968478b2cc3968c78b0cc3969478aecc3969c78accc396fc78aacc3970478a8cc3970c78a6cc3971478a4cc3971c78a2cc3972478a0cc3972c789ecc39734789ccc3973c789acc397447898cc3974c7896cc397547894cc3975c7892cc397647890cc3976c788ecc39774788ccc3977c788acc397847888cc3978c7886cc397947884cc3979c7882cc39dd478bdd039da878bbd039d7878b9d039d4878b7d039d1878b5d039ce878b3d039cb878b1d039c8878afd039c5878add039c2878abd039bf878a9d039bc878a7d039b9878a5d039b6878a3d039b3878a1d039b08789fd039ad8789dd039aa8789bd039a787899d039a487897d039a187895d0399e87893d0399b87891d039988788fd039958788dd039920788bd0398e07889d03989c7887d0398587885d0398147883d0))
  (.nd (.lf
  0x624d4002c8162404002c7f62270002c7d62348002c7b62174002c79620a4002c776200c002c7561f00002c7361eb8002c7161e60002c6f61dac002c6d61d18002c6b61cb0002c6961c6c002c6761b6c002c6561b1c002c6361ad0002c6163b68002c5f63acc002c5d64870002c5b64824002c59647c4002c5764764002c55646e0002c536468c002c5164690002c4f643e4002c4d6410c002c4b64038002c496417c002c4764874002c4564828002c43647c8002c4164768002c3f646e4002c3d64694002c3b64698002c39643e8002c3764110002c356403c002c3364180002c316415c002c2f63f9c002c2d63d08002c2b63c28002c2963bf8002c2763bfc002c2563b50002c2363b2c002c21662c8002c1f66004002c1d66db4002c1b66d74002c1966e84002c1766d18002c1566cd4002c1366c98002c1166c60002c0f66de8002c0d66724002c0b666d8002c0966538002c0766db8002c0566d78002c03)
  (.lf 0))) (.nd (.nd (.lf
  0x394707a8eb4394787a8e30394607a8c783945c7a8cb4394647a8c303944c7a8a78394487a8ab4394507a8a30394387a8878394347a88b43943c7a8830394247a86783941c7a86b4394287a8630394087a8478394107a84b4394147a8430393fc7a8278393f07a82b4394007a82303a2b07a7cb43a2ac7a7c783a2b47a7c303a29c7a7ab43a2987a7a783a2a07a7a303a2847a78b43a2807a78783a2887a78303a2707a76b43a26c7a76783a2747a76303a2587a74b43a2547a74783a25c7a743039ff07a72b439fec7a727839ff47a723039fd87a70b439fd47a707839fdc7a703039fc07a6eb439fbc7a6e7839fc47a6e3039fa87a6cb439fa47a6c7839fac7a6c3039f907a6ab439f8c7a6a7839f947a6a3039f747a68b439f707a687839f787a683039f5c7a66b439f587a667839f607a663039f447a64b439f407a647839f487a643039f2c7a62b439f287a627839f307a623039f147a60b439f107a6078)
  (.lf 0)) (.nd (.lf
  0x7d2200061f37d2a80061f17d2cc0061ef7d65c0061ed7d6280061eb7d5f80061e97d6a00061e77d4740061e57d3c00061e37d3700061e17efb00061df7ef840061dd7ef580061db7f7740061d97ef000061d77e8d80061d57f5340061d37f3640061d17f2040061cf7f1880061cd7f0d80061cb7f5680061c97f3980061c77f1f80061c57f1740061c37f0ec0061c17f7940061bf7f0100061bd7efc00061bb7ef800061b97ef480061b77f7840061b57ef140061b37e8e80061b17e8ac0061af7f5380061ad7f3300061ab7f1d40061a97f16c0061a77f0f40061a57f0700061a37efe00061a1802c000619f802ac00619d802f800619b801980061998003c00619780018006195806c0006193805180061918056800618f8049000618d8042800618b805a4006189805d8006187805380061858046400618380484006181803f800617f8033c00617d8030800617b802d4006179803140061778026c006175)
  (.lf 0)))

def shaWireTree305 : BTree :=
  .nd (.nd (.nd (.lf
  0xac4c2988780abd82988b40ac502988300abcc2986780ab682986b40abd02986300ab5c2984780aaf02984b40ab602984300aae42982780aab02982b40aae82982300d2782d7c780d2e42d7cb40d2e82d7c300d1e82d7a780d26c2d7ab40d2702d7a300d16c2d78780d1dc2d78b40d1e02d78300d0dc2d76780d1602d76b40d1642d76300d0602d74780d0d02d74b40d0d42d74300cfd42d72780d0542d72b40d0582d72300cf442d70780cfc82d70b40cfcc2d70300cec42d6e780cf382d6eb40cf3c2d6e300ce442d6c780ceb82d6cb40cebc2d6c300cdc82d6a780ce382d6ab40ce3c2d6a300cd3c2d68780cdbc2d68b40cdc02d68300ccb02d66780cd302d66b40cd342d66300cc202d64780cca42d64b40cca82d64300cba02d62780cc142d62b40cc182d62300cb202d60780cb942d60b40cb982d60300caa42d5e780cb142d5eb40cb182d5e300ca142d5c780ca982d5cb40ca9c2d5c300c9982d5a78)
  (.lf 0)) (.nd (.lf
  0x81a58fbdd2c818e0fbdb2c81898fbd92c8174cfbd72c817d0fbd52c817d8fbd32c81718fbd12c81758fbcf2c816b8fbcd2c81640fbcb2c815acfbc92c81538fbc72c8139cfbc52c811d8fbc32c813ecfbc0cc83a00ffff2c839f0fffd2c83a08fffb2c839c8fff92c839b0fff72c8398cfff52c83998fff32c83968fff12c8393cffef2c83944ffed2c83950ffeb2c83b60ffe92c838f4ffe72c838dcffe52c838c4ffe32c838a8ffe12c838b8ffdf2c8386cffdd2c8387cffdb2c8383cffd92c837fcffd72c837b8ffd52c83770ffd32c8372cffd12c83224ffcf2c831fcffcd2c83204ffcb2c831a8ffc92c831b4ffc72c829d0ffc52c8245cffc32c8236cffc0cc1f01000511f1f01800511d1f02000511b1f09c0051191f0a40051171f0ac0051151f0b40051131f0bc0051111f0c400510f1f0cc00510d1f0d400510b1f0dc0051091f0e40051071f0ec0051051f0f40051031f0fc0051011f1040050ff)
  (.lf 0))) (.nd (.nd (.lf
  0x6bb24d476b46bb1cd476786bb30d476306bb10d474b46bb0cd474786bb14d474306baf8d472b46bb00d472786bb04d472306bae8d470b46bae4d470786baecd470306bad0d46eb46bad4d46e786bad8d46e306babcd46cb46bab8d46c786bac0d46c306baa0d46ab46ba9cd46a786baa4d46a306ba88d468b46ba8cd468786ba90d468306ba7cd466b46ba78d466786ba80d466306ba60d464b46ba68d464786ba6cd464306ba48d462b46ba54d462786ba58d462306ba30d460b46ba34d460786ba40d460306ba24d45eb46ba1cd45e786ba28d45e306ba08d45cb46ba04d45c786ba0cd45c306b9f8d45ab46b9ecd45a786b9fcd45a306b9d8d458b46b9dcd458786b9e0d458306b9b8d456b46b9c4d456786b9c8d456306b9acd454b46b9a0d454786b9b0d454306b984d452b46b990d452786b994d452306b978d450b46b970d450786b97cd450306b958d44eb46b960d44e786b964d44e306b94cd44cb4)
  (.lf 0)) (.nd (.lf
  0x4ca9c9ff3d04ca889ff1d04ca749fefd04ca609fedd04ca4c9febd04ca389fe9d04ca289fe7d04ca149fe5d04ca009fe3d04c9ec9fe1d04c9d89fdfd04c9c49fddd04c5f89fdbd04c5e49fd9d04c5d09fd7d04c5bc9fd5d04c5a09fd3d04c5909fd1d04c5809fcfd04c56c9fcdd04c5589fcbd04c5449fc9d04c5309fc7d04be1c9fc5d04bca09fc3d04bb209fc1104e734a2becc4e73ca2bccc4e744a2bacc4e74ca2b8cc4e754a2b6cc4e6a0a2b4cc4e75ca2b2cc4e764a2b0cc4e76ca2aecc4e774a2accc4ea70a2aacc4e780a2a8cc4e788a2a6cc4e790a2a4cc4e798a2a2cc4e7a0a2a0cc4e7a8a29ecc4e7b0a29ccc4e7b8a29acc4e7c0a298cc4e7c8a296cc4e7d0a294cc4e7d8a292cc4e548a290cc4e568a28ecc4e7e0a28ccc4e7e8a28acc4e7f0a288cc4e7f8a286cc4e800a284cc4e808a282cc4ea68a2bdd04ea54a2bbd04ea40a2b9d04ea28a2b7d04ea18a2b5d04ea04a2b3d04e9f0a2b1d0)
  (.lf 0)))

def shaWireTree306 : BTree :=
  .nd (.nd (.nd (.lf
  0x69f7ce1483069e70e1467869efce146b469f00e146306963ce1447869e64e144b469e68e1443069580e1427869630e142b469634e142306b3a0e1bc786b3a4e1bcb46b3a8e1bc306b37ce1ba786b380e1bab46b384e1ba306b360e1b8786b35ce1b8b46b364e1b8306b34ce1b6786b350e1b6b46b354e1b6306b2c8e1b4786b2dce1b4b46b2e0e1b4306b2bce1b2786b2b8e1b2b46b2c0e1b2306b2ace1b0786b28ce1b0b46b2b0e1b0306b280e1ae786b27ce1aeb46b284e1ae306b26ce1ac786b268e1acb46b270e1ac306b21ce1aa786b25ce1aab46b260e1aa306b1fce1a8786b210e1a8b46b214e1a8306b1f0e1a6786b1e0e1a6b46b1f4e1a6306b1b0e1a4786b1c4e1a4b46b1c8e1a4306b1a4e1a2786b18ce1a2b46b1a8e1a2306b180e1a0786b138e1a0b46b184e1a0306b11ce19e786b10ce19eb46b120e19e306b0f4e19c786b0f0e19cb46b0f8e19c306b0e4e19a786b0e0e19ab46b0e8e19a30)
  (.lf 0)) (.nd (.lf
  0xdc4021c5000dc8021a5000dcc02185000dd002165000dd402145000dd802125000ddc02105000de0020e5000de4020c5000de8020a5000dec02085000df002065000df402045000df802025000dfc02005001d580038df01d5c0038dd01d600038db01d640038d901d680038d701d6c0038d501d700038d301d740038d101d780038cf01d7c0038cd01d800038cb01d840038c901d880038c701d8c0038c501d900038c301d940038c101d980038bf01d9c0038bd01da00038bb01da40038b901da80038b701dac0038b501db00038b301db40038b101db80038af01dbc0038ad01dc00038ab01dc40038a901dc80038a701dcc0038a501dd00038a301dd40038a103ee40bbeb403ee80bbcb403eec0bbab403ef00bb8b403ef40bb6b403ef80bb4b403efc0bb2b403f000bb0b403f040baeb403f080bacb403f0c0baab403f100ba8b403f140ba6b403f180ba4b403f1c0ba2b403f200ba0b403f240b9eb4)
  (.lf 0))) (.nd (.nd (.lf
  0x13f6c32827813f683282b413f703282300eb98327cb40eb1c327c780eb9c327c300eb10327ab40eaa0327a780eb14327a300ea943278b40ea143278780ea983278300ea083276b40e9843276780ea0c3276300e9783274b40e9043274780e97c3274300e8f83272b40e8843272780e8fc3272300e8783270b40e8043270780e87c3270300e7f8326eb40e784326e780e7fc326e300e778326cb40e704326c780e77c326c300e6f8326ab40e684326a780e6fc326a300e6783268b40e6043268780e67c3268300e5f83266b40e5883266780e5fc3266300e57c3264b40e4fc3264780e5803264300e4f03262b40e4703262780e4f43262300e4643260b40e3e43260780e4683260300e3d8325eb40e354325e780e3dc325e300e348325cb40e2d8325c780e34c325c300e2cc325ab40e248325a780e2d0325a300e23c3258b40e1cc3258780e2403258300e1c03256b40e13c3256780e1c43256300e1303254b4)
  (.lf 0)) (.nd (.lf
  0x21dfc55a6cc21e0055a4cc21e0455a2cc21de855a0cc21dec559ecc21df0559ccc21d64559acc21d685598cc21d6c5596cc21d605594cc21d5c5592cc220c45590cc220d0558ecc229dc558ccc220a4558acc21d705588cc21d845586cc21d805584cc21d985582cc2213855bdd02212055bbd02210855b9d0220f055b7d0220a055b5d02208855b3d02207055b1d02205855afd02204055add02202855abd02201055a9d021ff855a7d021fe055a5d021fc855a3d021fb055a1d021f98559fd021f80559dd021f68559bd021f505599d021f385597d021f205595d021f085593d021ef05591d021ee0558fd021ed0558dd021ec0558bd021eb05589d021e845587d021e585585d021e2c5583d021d7c558110243c8597ecc24370597ccc242f0597acc242685978cc241e05976cc241505974cc243e45972cc246745970cc24678596ecc2467c596ccc24670596acc23df45968cc23d6c5966cc23ce45964cc)
  (.lf 0)))

def shaWireTree307 : BTree :=
  .nd (.nd (.nd (.lf
  0x614a4c24c3061488c24ab46148cc24a7861490c24a3061470c248b461408c2487861480c24830613f0c246b460c64c24678613f4c2463060980c244b46098cc2447860c5cc2443060974c242b460920c2427860978c2423062480c2fcb462484c2fc7862488c2fc3062474c2fab46246cc2fa7862478c2fa306239cc2f8b462398c2f878623b4c2f830621fcc2f6b46238cc2f67862390c2f63062138c2f4b462134c2f4786213cc2f43062100c2f2b462128c2f2786212cc2f230620f4c2f0b46203cc2f078620f8c2f03061fb8c2eeb461fb4c2ee7861fbcc2ee3061e24c2ecb461e20c2ec7861facc2ec3061e08c2eab461e14c2ea7861e18c2ea3061dfcc2e8b461df4c2e87861e00c2e83061d78c2e6b461d74c2e67861decc2e63061d68c2e4b461c30c2e47861d6cc2e43061c1cc2e2b461c14c2e27861c20c2e23061c04c2e0b461c08c2e07861c0cc2e03061990c2deb461bf8c2de7861bfcc2de30)
  (.lf 0)) (.nd (.lf
  0x81c40fae52c81be8fae32c81cf4fae12c81bb8fadf2c81b84fadd2c81b4cfadb2c80854fad92c80834fad72c80820fad52c80808fad32c807f0fad12c80868facf2c807d0facd2c806a8facb2c80658fac92c80634fac72c80610fac52c809b0fac32c80358fac0cc8345cfeff2c83498fefd2c836b4fefb2c83420fef92c8344cfef72c83404fef52c833e4fef32c833ecfef12c833b0feef2c833c0feed2c833ccfeeb2c8337cfee92c83368fee72c834a0fee52c834a8fee32c83464fee12c82c74fedf2c82c5cfedd2c82c4cfedb2c82d44fed92c82c20fed72c82c18fed52c82c80fed32c82ad0fed12c82a64fecf2c82954fecd2c82658fecb2c82664fec92c82584fec72c82240fec52c821c8fec32c01614033eb4015dc033d4a0159c033ab4015640338b40152c0336b4014f40334b4014b803334a014780330b40143c032f4a013fc032cb4013c4032ab40138c0328b40135003274a013100324b4)
  (.lf 0))) (.nd (.nd (.lf
  0x205ac5cb8782065c5cb830205a05cb6b4204f45cb678205a45cb630204e85cb4b4204385cb478204ec5cb4302042c5cb2b42037c5cb278204305cb230203705cb0b4202c85cb078203745cb030202bc5caeb4202085cae78202c05cae30201fc5cacb4201505cac78202005cac30201445caab4200985caa78201485caa302008c5ca8b41ffdc5ca878200905ca8301ffd05ca6b41ff185ca6781ffd45ca6301ff0c5ca4b41fe605ca4781ff105ca4301fe545ca2b41fda05ca2781fe585ca2301fd945ca0b41fce05ca0781fd985ca0301fcd45c9eb41fc245c9e781fcd85c9e301fc185c9cb41fb685c9c781fc1c5c9c301fb5c5c9ab41faa45c9a781fb605c9a301fa985c98b41f9ec5c98781fa9c5c98301f9e05c96b41f92c5c96781f9e45c96301f9205c94b41f8745c94781f9245c94301f8685c92b41f7bc5c92781f86c5c92301f7b05c90b41f7005c90781f7b45c90301f6f45c8eb41f63c5c8e78)
  (.lf 0)) (.nd (.lf
  0xcce41ee5d00cc581ee3d00cbd41ee1d00cb541edfd00cad41eddd00ca4c1edbd00c9c81ed9d00c9401ed7d00c8b41ed5d00c8281ed3d00c79c1ed1d00c7181ecfd00c6901ecdd00c6041ecbd00c5801ec9d00c4f81ec7d00c4741ec5d00c3ec1ec3d00c34c1ec1100d3101f3d400d2101f39400d1041f35400cff81f31f40cf6c1f2f400cd601f27f40ccd41f25f40cc481f23400ca3c1f1b400c9301f17f40c8a41f15f40c8181f13f40c78c1f11400c6801f0df40c5f41f0b400c4e81f07400c3dc1f03400bcec1ffecc0bcf41ffccc0bcfc1ffacc0bd041ff8cc0bd0c1ff6cc0bd141ff4cc0bd1c1ff2cc0bd241ff0cc0bd2c1feecc0bd341feccc0bd3c1feacc0bd441fe8cc0bd4c1fe6cc0bd541fe4cc0bd5c1fe2cc0bd641fe0cc0bd6c1fdecc0bd741fdccc0bd7c1fdacc0bd841fd8cc0bd8c1fd6cc0bd941fd4cc0bd9c1fd2cc0bda41fd0cc0bdac1fcecc0bdb41fcccc0bdbc1fcacc0bdc41fc8cc)
  (.lf 0)))

def shaWireTree308 : BTree :=
  .nd (.nd (.nd (.lf
  0x1e1fc000e4b1e200000e491e204000e471e208000e451e20c000e431e210000e411e214000e3f1e218000e3d1e21c000e3b1e220000e391e224000e371e228000e351e22c000e331e230000e311e234000e2f1e238000e2d1e23c000e2b1e240000e291e244000e271e248000e251e24c000e231e250000e211e254000e1f1e258000e1d1e25c000e1b1e5c0000e191e5c4000e171e5c8000e151e5cc000e131e5d0000e111e5d4000e0f1e5d8000e0d1e5dc000e0b1e5e0000e091e5e4000e071e5e8000e051e5ec000e031e5f0000e011e5f4000dff1e5f8000dfd1e5fc000dfb1e600000df91e604000df71e608000df51e60c000df31e610000df11e614000def1e618000ded1e61c000deb1e620000de91e624000de71e628000de51e62c000de31e630000de13d3d8000ddf3d3dc000ddd3d3e0000ddb3d3e4000dd93d3e8000dd73d3ec000dd53d3f0000dd33d3f4000dd13d3f8000dcf3d3fc000dcd)
  (.lf 0)) (.nd (.lf
  0x4630c97a07846310979e7846314979c7846318979a784631c9798784632097967846324979478464b8979278459bc979078458d0978e78473f0978c7845850978a784578c978878455d0978678453fc978478453989782784532097807847ba497be3047ba897bc3047b5097ba3047a8c97b83047a9097b63047a9497b43047a9897b23047a0097b030479c097ae304787097ac304787497aa304787897a8304787c97a6304779c97a4304776c97a2304770897a030476a8979e30476ac979c30476d0979a3047618979830475e0979630475a897943047554979230475189790304751c978e3047520978c3047490978a304745c97883046a64978630469f0978430469bc9782304667897803049a009bbeb449a049bbcb4499a49bbab4499749bb8b449a689bb6b4498b09bb4b44991c9bb2b4498b49bb0b44984c9baeb44981c9bacb4496189baab4495d89ba8b4495849ba6b4495889ba4b4495349ba2b4)
  (.lf 0))) (.nd (.nd (.lf
  0x28eb45696b428ebc56963028e8056947828e7c5694b428e8456943028e4056927828e3c5692b428e4456923028e0456907828e005690b428e0856903028dcc568e7828dc8568eb428dd0568e3028d8c568c7828d88568cb428d90568c3028d50568a7828d4c568ab428d54568a3028d1056887828d0c5688b428d1456883028cd456867828cd05686b428cd856863028c9456847828c905684b428c9856843028c5856827828c545682b428c5c56823022bcc567cb422bc8567c7822bd0567c3022bb8567ab422bb4567a7822bbc567a3022ba45678b422ba056787822ba856783022b905676b422b8c56767822b9456763022b7c5674b422b7856747822b8056743022b685672b422b6456727822b6c56723022b545670b422b5056707822b5856703022b40566eb422b3c566e7822b44566e3022b2c566cb422b28566c7822b30566c3022b18566ab422b14566a7822b1c566a3022b045668b422b00566878)
  (.lf 0)) (.nd (.lf
  0x66330d99ecc66288d99ccc66274d99acc6620cd998cc661d0d996cc654d8d994cc6547cd992cc653ecd990cc65370d98ecc65e68d98ccc65244d98acc650ccd988cc65070d986cc65020d984cc64facd982cc66904d9bdd0668ecd9bbd0668dcd9b9d0668c8d9b7d066870d9b5d0667d8d9b3d0667b8d9b1d066780d9afd06676cd9add066758d9abd066624d9a9d066608d9a7d0664dcd9a5d066438d9a3d0663c0d9a1d066378d99fd066264d99dd06623cd99bd066200d999d0661b8d997d065fb4d995d065f8cd993d065f6cd991d065f44d98fd065f24d98dd065278d98bd065148d989d065134d987d065114d985d0650f4d983d064f3cd9811068fb8dd7ecc68efcdd7ccc68d5cdd7acc68ca8dd78cc68c20dd76cc68b88dd74cc68b50dd72cc68894dd70cc68968dd6ecc68868dd6ccc688d4dd6acc68808dd68cc68794dd66cc68728dd64cc686d4dd62cc685c0dd60cc68598dd5ecc68478dd5ccc)
  (.lf 0)))

def shaWireTree309 : BTree :=
  .nd (.nd (.nd (.lf
  0x71a54e6527871a68e6523071a0ce650b471a10e6507871a14e65030719a4e64eb4719fce64e7871a00e64e307194ce64cb471998e64c787199ce64c3071918e64ab471938e64a7871944e64a3071908e648b47190ce6487871910e64830718fce646b4718f4e6467871900e64630718e8e644b4718e4e64478718ece6443071878e642b4718d4e64278718d8e64230792b0e6fcb4792a4e6fc78792b4e6fc307922ce6fab479230e6fa7879290e6fa3079214e6f8b479220e6f87879224e6f830791d4e6f6b479204e6f6787920ce6f630791bce6f4b4791c4e6f478791c8e6f430791a4e6f2b4791a8e6f278791ace6f23078f8ce6f0b479198e6f0787919ce6f03078f50e6eeb478f80e6ee7878f84e6ee3078f20e6ecb478f38e6ec7878f48e6ec3078f00e6eab478f14e6ea7878f18e6ea3078ef4e6e8b478eece6e87878ef8e6e83078ed8e6e6b478ee0e6e67878ee4e6e63078ecce6e4b478ec0e6e478)
  (.lf 0)) (.nd (.lf
  0x8150800517d8158400517b81270005179813800051778138c005175813580051738149c005171812f400516f812c400516d814ac00516b815940051698152000516781394005165811c00051638118c0051618234000515f8226400515d830fc00515b830c4005159830e4005157830040051558304c0051538301c0051518314400514f829f000514d823ac00514b823600051498234c005147830b4005145830cc0051438307c00514182ffc00513f8305c00513d82fcc00513b832b000513982a100051378232c005135830f4005133830d80051318310000512f8302c00512d8304000512b82fd000512983190005127829c000512582320005123823680051210205803bfd00206003bdd00206803bbd00207003b9d00207803b7d00208003b5d00208803b3d00209003b1d00209803afd0020a003add0020a803abd0020b003a9d0020b803a7d0020c003a5d0020c803a3d0020d003a1d0020d8039fd0)
  (.lf 0))) (.nd (.nd (.lf
  0x3d8c0989a303d8749898b43d8389898783d8789898303d82c9896b43d7f09896783d8309896303d7e49894b43d7a89894783d7e89894303d79c9892b43d7609892783d7a09892303d7549890b43d7189890783d7589890303d70c988eb43d6d0988e783d710988e303d6c4988cb43d68c988c783d6c8988c303d680988ab43d644988a783d684988a303d6389888b43d5fc9888783d63c9888303d5f09886b43d5b89886783d5f49886303d5ac9884b43d5749884783d5b09884303d5689882b43d5489882783d56c9882304ae94987cb44ae90987c784ae98987c304ae6c987ab44ae68987a784ae70987a304ae409878b44ae3c9878784ae449878304ae149876b44ae109876784ae189876304ade89874b44ade49874784adec9874304adbc9872b44adb89872784adc09872304ad909870b44ad8c9870784ad949870304ad64986eb44ad60986e784ad68986e304ad38986cb44ad34986c784ad3c986c30)
  (.lf 0)) (.nd (.lf
  0x2b9005ffecc2b9085ffccc2b9105ffacc2b9185ff8cc2b9205ff6cc2b9285ff4cc2b9305ff2cc2b9385ff0cc2b9405feecc2b9485feccc2b9505feacc2b9585fe8cc2b9605fe6cc2b9685fe4cc2b9705fe2cc2b9785fe0cc2b9805fdecc2b9885fdccc2b9905fdacc2b9985fd8cc2b9a05fd6cc2b9a85fd4cc2b9b05fd2cc2b9b85fd0cc2b9c05fcecc2b9c85fcccc2b9d05fcacc2b9d85fc8cc2b9e05fc6cc2b9e85fc4cc2b9f05fc2cc2bc545ffdd02bc405ffbd02bc2c5ff9d02bc185ff7d02bc045ff5d02bbf05ff3d02bbdc5ff1d02bbc85fefd02bbb45fedd02bba05febd02bb8c5fe9d02bb785fe7d02bb645fe5d02bb505fe3d02bb3c5fe1d02bb285fdfd02bb145fddd02bb005fdbd02baec5fd9d02bad85fd7d02bac45fd5d02bab05fd3d02ba9c5fd1d02ba885fcfd02ba745fcdd02ba605fcbd02ba4c5fc9d02ba385fc7d02ba245fc5d02ba105fc3d02b9f85fc1102d66c62becc2d67462bccc)
  (.lf 0)))

def shaWireTree310 : BTree :=
  .nd (.nd (.nd (.lf
  0x389fc85a6b438a3485a630389f085a4783897c85a4b4389f485a4303897085a2783891085a2b43897485a2303890485a0783890085a0b43890885a030388f0859e783879c859eb4388f4859e3038790859c7838518859cb438794859c303850c859a7838494859ab438510859a3038488859878383f48598b43848c859830383e88596783837c8596b4383ec85963038370859478382e08594b438374859430382d4859278382708592b4382d885923038264859078381c88590b438268859030381bc858e7838154858eb4381c0858e3038148858c78380ac858cb43814c858c30380a0858a7838038858ab4380a4858a303802c85887837f948588b43803085883037f8885867837f048586b437f8c85863037ef885847837e748584b437efc85843037e5885827837dc48582b437e5c8582303ac6c897c783af64897cb43afac897c303ac60897a783ac5c897ab43ac64897a303ac4c8978783ac488978b4)
  (.lf 0)) (.nd (.lf
  0x59c7cb89d2c59df4b89b2c59c58b8992c59decb8972c59c34b8952c59de4b8932c59c10b8912c59ddcb88f2c59bf0b88d2c59dd4b88b2c59bc8b8892c59dccb8872c59bccb8852c59dc4b8832c58c30b880cc5b2ecbcbf2c5b2d8bcbd2c5b2c0bcbb2c5b2c8bcb92c5b29cbcb72c5b284bcb52c5b27cbcb32c5b25cbcb12c5b244bcaf2c5b298bcad2c5b220bcab2c5b224bca92c5b260bca72c5b1e8bca52c5b1d4bca32c5b1c0bca12c5b1c4bc9f2c5b198bc9d2c5b184bc9b2c5b178bc992c5b160bc972c5b14cbc952c5b134bc932c5b124bc912c5b10cbc8f2c5b0fcbc8d2c5b0e8bc8b2c5b0d4bc892c5b0bcbc872c5b0a8bc852c5b094bc832c5b090bc80cc5d1b0c0bf2c5d19cc0bd2c5d188c0bb2c5d174c0b92c5d160c0b72c5d148c0b52c5d134c0b32c5d120c0b12c5d18cc0af2c5d0fcc0ad2c5d0e8c0ab2c5d0d4c0a92c5d0c0c0a72c5d0b4c0a52c5d098c0a32c5d08cc0a12c5d074c09f2c)
  (.lf 0))) (.nd (.nd (.lf
  0x4c2c0b161e04cac0b16b404cb00b161404ba80b13f404c240b14a004b200b121e04ba00b12b404ba40b121404a940b101e04b140b10b404b180b101404a080b0e1e04a880b0eb404a8c0b0e140497c0b0c1e049fc0b0cb404a000b0c14048f80b0940049740b0aa0048780b07f4048f40b08a0047f00b061e048700b06b4048740b0614047640b041e047e40b04b4047e80b0414047580b02b40475c0b0214044b40bfc78044b00bfcb4044b80bfc30044a00bfa780449c0bfab4044a40bfa300448c0bf878044880bf8b4044900bf830044780bf678044740bf6b40447c0bf630044640bf478044600bf4b4044680bf430044500bf2780444c0bf2b4044540bf2300443c0bf078044380bf0b4044400bf030044280bee78044240beeb40442c0bee30044140bec78044100becb4044180bec30044000bea78043fc0beab4044040bea30043ec0be878043e80be8b4043f00be830043d80be678043d40be6b4)
  (.lf 0)) (.nd (.lf
  0x77514e2bacc7738ce2b8cc77234e2b6cc770dce2b4cc77804e2b2cc77664e2b0cc77510e2aecc77388e2accc77230e2aacc77800e2a8cc77660e2a6cc774c0e2a4cc7736ce2a2cc7720ce2a0cc770e8e29ecc77034e29ccc76f30e29acc76e74e298cc76d80e296cc76d20e294cc76c4ce292cc76c00e290cc76b70e28ecc777b4e28ccc7763ce28acc774c8e288cc77374e286cc77208e284cc77100e282cc77aace2bdd077a98e2bbd077a80e2b9d077a68e2b7d077a50e2b5d077a38e2b3d077a20e2b1d077a0ce2afd0779f4e2add0779dce2abd0779c4e2a9d0779ace2a7d077998e2a5d077980e2a3d077968e2a1d077954e29fd07793ce29dd077924e29bd07790ce299d0778f4e297d0778dce295d0778c4e293d0778ace291d077894e28fd07787ce28dd077700e28bd077534e289d077408e287d077258e285d0770f8e283d076fece28110713a0e27ecc7135ce27ccc712c8e27acc711f0e278cc)
  (.lf 0)))

def shaWireTree311 : BTree :=
  .nd (.nd (.nd (.lf
  0x4df489e7c304df2c9e7ab44df289e7a784df309e7a304df189e78b44df149e78784df1c9e78304df009e76b44defc9e76784df049e76304dc749e74b44dc709e74784dee89e74304dc649e72b44dc5c9e72784dc689e72304dc509e70b44dc4c9e70784dc549e70304dc249e6eb44dc409e6e784dc449e6e304daf09e6cb44daec9e6c784dc1c9e6c304dac89e6ab44dac49e6a784dacc9e6a304dab49e68b44dab09e68784dab89e68304daa49e66b44da9c9e66784daa89e66304d84c9e64b44d8589e64784d85c9e64304d8409e62b44d83c9e62784d8449e62304d82c9e60b44d8289e60784d8309e60304d8189e5eb44d8149e5e784d81c9e5e304d8049e5cb44d8009e5c784d8089e5c304d7609e5ab44d75c9e5a784d7649e5a304d74c9e58b44d7489e58784d7509e58304d7389e56b44d73c9e56784d7409e56304d3b49e54b44d72c9e54784d7309e54304d3a09e52b44d39c9e52784d3a49e5230)
  (.lf 0)) (.nd (.lf
  0x7dd78f2932c7dbc4f2912c7dbccf28f2c7dba0f28d2c7dad4f28b2c7dbd8f2892c7dadcf2872c7d4e0f2852c7d3d8f2832c7d374f280cc7fc10f6bf2c7fbfcf6bd2c7fbdcf6bb2c7fbe0f6b92c7fbb0f6b72c7fb98f6b52c7fb84f6b32c7fb60f6b12c7fb38f6af2c7fadcf6ad2c7fac4f6ab2c7faa0f6a92c7fa7cf6a72c7fa50f6a52c7fa28f6a32c7f9f4f6a12c7f9d0f69f2c7f938f69d2c7f93cf69b2c7f8a8f6992c7f7b0f6972c7f7b8f6952c7f60cf6932c7f628f6912c7f5d4f68f2c7f544f68d2c7f348f68b2c7f218f6892c7f194f6872c7f120f6852c7f080f6832c7efe4f680cc80994fabf2c8099cfabd2c80974fabb2c8095cfab92c80940fab72c80920fab52c80924fab32c808f8fab12c808e0faaf2c808d0faad2c808b4faab2c80898faa92c808a0faa72c807b4faa52c807a4faa32c809a8faa12c80790fa9f2c80764fa9d2c80750fa9b2c80734fa992c80718fa972c806fcfa952c)
  (.lf 0))) (.nd (.nd (.lf
  0x7bb88ee20507bb60ee1e507bb38ee1c507bfd0ee1a507ad78ee18507ad58ee16507acd8ee14507acbcee12507aba8ee10507ab80ee0e507ab34ee0c507a694ee0a507a654ee08507a58cee06507a84cee04507a304ee02507a258ee00507bf10f23e787bedcf23c787beb8f23a787bf3cf238787bf84f236787bd64f234787bd18f232787bf40f230787bcccf22e787bc30f22c787bfbcf22a787bc68f228787bf8cf226787bbd8f224787bbb4f222787bb8cf220787bb64f21e787bb3cf21c787bfd4f21a787ad7cf218787ad44f216787ace0f214787acb8f212787aba4f210787ab88f20e787ab24f20c787a690f20a787a644f208787a584f206787a808f204787a30cf202787a260f200787d648f23e507d670f23c507d5e4f23a507d684f238507d4c0f236507d3b0f234507d384f232507d330f230507d31cf22e507d284f22c507d274f22a507d22cf228507d1f0f226507d1ccf224507d200f22250)
  (.lf 0)) (.nd (.lf
  0x65724d0bccc656ecd0bacc656a4d0b8cc65654d0b6cc65604d0b4cc655b4d0b2cc65564d0b0cc65518d0aecc65498d0accc65b00d0aacc65b08d0a8cc65b10d0a6cc65b18d0a4cc659e8d0a2cc659f0d0a0cc659f8d09ecc65b20d09ccc65b28d09acc65b30d098cc65b38d096cc65b40d094cc65c28d092cc65a00d090cc65a08d08ecc65a10d08ccc65a18d08acc65a20d088cc6588cd086cc6583cd084cc657dcd082cc65e58d0bdd065e44d0bbd065e30d0b9d065e1cd0b7d065e08d0b5d065df4d0b3d065dd8d0b1d065dc4d0afd065db4d0add065da4d0abd065d90d0a9d065c18d0a7d065c04d0a5d065bf0d0a3d065bdcd0a1d065bc8d09fd065bb4d09dd065ba0d09bd065b8cd099d065b78d097d065b64d095d065b50d093d065a80d091d065a6cd08fd065a58d08dd065a44d08bd065a30d089d065884d087d065834d085d0657ecd083d06579cd08110693dcd07ecc693e4d07ccc693ecd07acc)
  (.lf 0)))

def shaWireTree312 : BTree :=
  .nd (.nd (.nd (.lf
  0x175f849bf2c175e449bd2c175d449bb2c175bc49b92c175b449b72c1759849b52c1757c49b32c1756849b12c1756049af2c1754049ad2c1752c49ab2c1759049a92c1750449a72c174f049a52c174d849a32c174d049a12c174dc499f2c174a4499d2c17508499b2c1747c49992c1746849972c1745049952c1745449932c1743049912c1742c498f2c17410498d2c173b0498b2c1737049892c1733c49872c1735049852c1731449832c173084980cc18bdc4dbf2c18bbc4dbd2c18ba44dbb2c18ba84db92c18b844db72c18b704db52c18bd04db32c18b484db12c18b344daf2c18b1c4dad2c18b144dab2c18af44da92c18b244da72c18adc4da52c18abc4da32c18aa84da12c18a904d9f2c18a844d9d2c18a704d9b2c18a984d992c18a504d972c18a304d952c18a1c4d932c18a044d912c189f84d8f2c189e44d8d2c18a0c4d8b2c189c44d892c1897c4d872c189404d852c181704d832c181444d80cc)
  (.lf
  0x235404809d0234ac4807d0234144805d02336c4803d0232984801101a6d44cbecc1a6dc4cbccc1a6e44cbacc1a6ec4cb8cc1a6f44cb6cc1a6fc4cb4cc1a7044cb2cc1a70c4cb0cc1a7144caecc1a71c4caccc1a77c4caacc1a7844ca8cc1a78c4ca6cc1a7944ca4cc1a79c4ca2cc1a7a44ca0cc1a7ac4c9ecc1a7b44c9ccc1a7bc4c9acc1a7c44c98cc1a7cc4c96cc1a7d44c94cc1a7dc4c92cc1a7e44c90cc1a7ec4c8ecc1a7f44c8ccc1a7fc4c8acc1a8044c88cc1a80c4c86cc1a8144c84cc1a81c4c82cc1aa804cbdd01aa6c4cbbd01aa584cb9d01aa444cb7d01aa304cb5d01aa1c4cb3d01aa084cb1d01a9f44cafd01a9e04cadd01a9cc4cabd01a9b84ca9d01a9a44ca7d01a9904ca5d01a97c4ca3d01a9684ca1d01a9544c9fd01a9404c9dd01a92c4c9bd01a9184c99d01a9044c97d01a8f04c95d01a8dc4c93d01a8c84c91d01a8b44c8fd01a8a04c8dd01a88c4c8bd01a8784c89d01a8644c87d0))
  (.nd (.lf
  0x79cb0eba03079c88eb9e3079c64eb9c3079c40eb9a3079c18eb983079aa4eb963079a70eb943079a84eb92307992ceb903079898eb8e3079880eb8c307983ceb8a3079710eb883079640eb86307959ceb84307951ceb82307949ceb80307b730efbeb47b6c0efbcb47b684efbab47b614efb8b47b5e4efb6b47b5b4efb4b47b4b0efb2b47b450efb0b47b37cefaeb47b3e0efacb47b3a8efaab47b308efa8b47b324efa6b47b2acefa4b47b238efa2b47b204efa0b47b18cef9eb47b19cef9cb47b180ef9ab47b1acef98b47b108ef96b47b120ef94b47b03cef92b47b00cef90b47afc4ef8eb47af74ef8cb47af50ef8ab47af04ef88b47aee8ef86b47af98ef84b47a4c4ef82b47a280ef80b47a028efbe7879fdcefbc7879f44efba7879f7cefb87879f08efb67879ec8efb47879e2cefb27879ea8efb07879e4cefae787a04cefac7879d98efaa7879d44efa87879d1cefa67879cfcefa47879eb0efa278)
  (.lf 0))) (.nd (.nd (.lf
  0x3032c672340303a86724a0302ac6721f4303286722a03022467201e302a46720b4302a867201430198671e1e30218671eb43021c671e143010c671c1e3018c671cb430190671c143008867194030104671aa030008671740300846718a02ff886715f4300046716a02ff0067141e2ff806714b42ff846714142fe7467121e2fef46712b42fef86712142fdf0670f402fe6c6710a02fd70670df42fdec670ea02fce8670c1e2fd68670cb42fd6c670c142fc5c670a1e2fcdc670ab42fce0670a142fbd86707f42fc546708a02fb5867061e2fbd06706b42fbd46706142facc67041e2fb4c6704b42fb506704142fac46702a02f52867fc782f52467fcb42f52c67fc302f51467fa782f51067fab42f51867fa302f50067f8782f4fc67f8b42f50467f8302f4ec67f6782f4e867f6b42f4f067f6302f4d867f4782f4d467f4b42f4dc67f4302f4c467f2782f4c067f2b42f4c867f2302f4b067f0782f4ac67f0b4)
  (.lf 0)) (.nd (.lf
  0x7e7d41c5acc7e87c1c58cc7e5401c56cc7e3f41c54cc7e30c1c52cc7e27c1c50cc7e2601c4ecc7e3181c4ccc7dd401c4acc7dcb81c48cc7db701c46cc7d5241c44cc7d4441c42cc7fee01c7dd07fecc1c7bd07feb81c79d07fea81c77d07fe941c75d07fe7c1c73d07fe6c1c71d07fe581c6fd07fe441c6dd07fe301c6bd07fe1c1c69d07fe081c67d07fdf41c65d07fde01c63d07fdcc1c61d07fdb81c5fd07fda41c5dd07fd901c5bd07fd7c1c59d07fd681c57d07fd541c55d07fd401c53d07fd2c1c51d07e8741c4fd07e8601c4dd07dd641c4bd07dccc1c49d07db801c47d07d5781c45d07d5641c43d07d49c1c41101ec5c40becc1ec6440bccc1ec6c40bacc1ec7440b8cc1ec7c40b6cc1ec8440b4cc1ec8c40b2cc1ec9440b0cc1ec9c40aecc1eca440accc1ed0440aacc1ed0c40a8cc1ed1440a6cc1ed1c40a4cc1ed2440a2cc1ed2c40a0cc1ed34409ecc1ed3c409ccc1ed44409acc1ed4c4098cc)
  (.lf 0)))

def shaWireTree313 : BTree :=
  .nd (.nd (.nd (.lf
  0x7ee4cf7e2307ee30f7e0787ee38f7e0b47ee3cf7e0307ee20f7de787ee24f7deb47ee28f7de307ee0cf7dc787ee08f7dcb47ee10f7dc307edf4f7da787edf8f7dab47ee00f7da307edccf7d8787edc8f7d8b47edecf7d8307edbcf7d6787edb8f7d6b47edc0f7d6307eda8f7d4787eda0f7d4b47edacf7d4307ed90f7d2787ed8cf7d2b47ed94f7d2307ed80f7d0787ed78f7d0b47ed84f7d0307ed68f7ce787ed64f7ceb47ed6cf7ce307ed58f7cc787ed54f7ccb47ed5cf7cc307ed40f7ca787ed44f7cab47ed48f7ca307ed34f7c8787ed2cf7c8b47ed38f7c8307eb94f7c6787ed18f7c6b47ed1cf7c6307eb84f7c4787eb80f7c4b47eb8cf7c4307eb74f7c2787eb70f7c2b47eb78f7c23080984fabc7880988fabcb48098cfabc3080968faba788096cfabab48097cfaba3080954fab87880958fab8b480960fab83080948fab6788093cfab6b48094cfab63080930fab4788092cfab4b480934fab430)
  (.lf 0)) (.nd (.lf
  0x80eb4fb9dd080ec0fb9bd080e64fb99d081068fb97d080e14fb95d080decfb93d080dccfb91d0814f0fb8fd080d78fb8dd080ef8fb8bd07f480fb89d07f508fb87d07f2fcfb85d07f2a4fb83d07f044fb81d08312cffbfd08310cffbdd08311cffbbd083014ffb9d083054ffb7d082fe0ffb5d083150ffb3d0829e8ffb1d0823b4ffafd082378ffadd082350ffabd082270ffa9d082474ffa7d0821f8ffa5d081ebcffa3d081ed0ffa1d081d38ff9fd081df4ff9dd081d80ff9bd081940ff99d081824ff97d081834ff95d08183cff93d0817a8ff91d08176cff8fd0816d4ff8dd081670ff8bd08161cff89d081550ff87d081424ff85d0814ecff83d08144cff81d0023b403ff2c023a003fd2c0238c03fb2c0237803f92c0236403f72c0235003f52c0233c03f32c0232803f12c0231403ef2c0230003ed2c022ec03eb2c022d803e92c022c403e72c022b003e52c0229c03e32c0228803e12c0227403df2c)
  (.lf 0))) (.nd (.nd (.lf
  0x5aca8b428785acc0b428305ac60b426b45ac9cb426785aca0b426305ac54b424b45ac30b424785ac58b424305ab80b422b45ab8cb422785ac24b422305ab74b420b45ab70b420785ab78b420305a590b41eb45ab64b41e785ab68b41e305a57cb41cb45a578b41c785a580b41c305a568b41ab45a56cb41a785a570b41a305a548b418b45a54cb418785a550b418305a53cb416b45a538b416785a540b416305a524b414b45a520b414785a528b414305a508b412b45a50cb412785a510b412305a4d8b410b45a4dcb410785a4e0b410305a4a8b40eb45a4ccb40e785a4d0b40e305a49cb40cb45a48cb40c785a4a0b40c305a44cb40ab45a448b40a785a470b40a305a43cb408b45a3f8b408785a440b408305a3ecb406b45a3e8b406785a3f0b406305a2b8b404b45a3dcb404785a3e0b404305a2a0b402b45a2a4b402785a2a8b4023059dacb8bcb459db0b8bc7859db4b8bc3059d94b8bab459d98b8ba78)
  (.lf 0)) (.nd (.lf
  0x3b0087fe4cc3af787fe2cc3ae887fe0cc3ae847fdecc3ae807fdccc3ae7c7fdacc3ae787fd8cc3ae747fd6cc3ae707fd4cc3b0007fd2cc3af987fd0cc3ae6c7fcecc3ae687fcccc3ae647fcacc3ae607fc8cc3ae5c7fc6cc3ae047fc4cc3ae007fc2cc3b5a07ffdd03b58c7ffbd03b5787ff9d03b5647ff7d03b5507ff5d03b53c7ff3d03b5287ff1d03b5147fefd03b5007fedd03b4ec7febd03b0f47fe9d03b0e07fe7d03b0cc7fe5d03b0b87fe3d03b0a47fe1d03b0907fdfd03b07c7fddd03b06c7fdbd03b0587fd9d03b0447fd7d03b0307fd5d03b01c7fd3d03afa47fd1d03af2c7fcfd03af187fcdd03af047fcbd03aef07fc9d03aedc7fc7d03aec87fc5d03aeb47fc3d03ab6c7fc1103f11c82becc3f12482bccc3f12c82bacc3f13482b8cc3f13c82b6cc3f14482b4cc3f14c82b2cc3f15482b0cc3f15c82aecc3f16482accc3f16c82aacc3f17482a8cc3f17c82a6cc3f18482a4cc3f18c82a2cc)
  (.lf 0)))

def shaWireTree314 : BTree :=
  .nd (.nd (.nd (.lf
  0x52574b5747852578b574b45257cb5743052568b5727852510b572b45256cb5723052504b5707852500b570b452508b57030524dcb56e78524f4b56eb4524f8b56e30524a0b56c78524b4b56cb4524b8b56c3052490b56a785248cb56ab452494b56a3052458b5687852424b568b45245cb5683052410b5667852414b566b452418b5663052404b5647852400b564b452408b56430523c0b56278523d4b562b4523d8b5623052398b56078523a0b560b4523a4b5603052370b55e7852374b55eb452378b55e3052360b55c7852364b55cb452368b55c3052324b55a7852320b55ab452328b55a30522fcb55878522e4b558b452300b55830522d4b55678522d8b556b4522dcb55630522b0b5547852298b554b4522b4b554305228cb5527852288b552b452290b5523051e9cb550785227cb550b452280b5503051decb54e7851e90b54eb451e94b54e3051d98b54c7851dc8b54cb451dccb54c3051d34b54a78)
  (.lf 0)) (.nd (.lf
  0x7541cf85d2c75354f85b2c753d8f8592c75324f8572c752f0f8552c752dcf8532c752c8f8512c752bcf84f2c75298f84d2c75334f84b2c7524cf8492c75244f8472c7520cf8452c751d4f8432c751dcf840cc75b84fc7f2c75b6cfc7d2c75b58fc7b2c75b40fc792c75b28fc772c75b0cfc752c75b00fc732c75ad0fc712c75abcfc6f2c75aa8fc6d2c75adcfc6b2c75a84fc692c75a68fc672c75a44fc652c75a2cfc632c75a50fc612c75a18fc5f2c759e4fc5d2c759ecfc5b2c759c0fc592c759b0fc572c75990fc552c75978fc532c7595cfc512c7594cfc4f2c75934fc4d2c758e4fc4b2c758d4fc492c75b8cfc472c758b0fc452c758f0fc432c75880fc40cc83d2d0d7f2c83d350d7d2c83cf10d7b2c83c7d0d792c83c310d772c83c190d752c83c8d0d732c83c090d712c83c3d0d6f2c83bb90d6d2c83b990d6b2c83b7d0d692c83ac10d672c83a810d652c83a6d0d632c83a910d612c83a990d5f2c)
  (.lf 0))) (.nd (.nd (.lf
  0xd07c1f32b40d0801f32140cf701f301e0cff01f30b40cff41f30140ceec1f2d400cf681f2ea00ce6c1f2b400cee81f2ca00cdec1f29f40ce681f2aa00cd641f281e0cde41f28b40cde81f28140ccd81f261e0cd581f26b40cd5c1f26140cc4c1f241e0cccc1f24b40ccd01f24140cbc81f21400cc441f22a00cb481f1f400cbc41f20a00cac81f1df40cb441f1ea00ca401f1c1e0cac01f1cb40cac41f1c140c9bc1f19f40ca381f1aa00c9341f181e0c9b41f18b40c9b81f18140c8a81f161e0c9281f16b40c92c1f16140c81c1f141e0c89c1f14b40c8a01f14140c7901f121e0c8101f12b40c8141f12140c70c1f0ff40c7881f10a00c6841f0e1e0c7041f0eb40c7081f0e140c5f81f0c1e0c6781f0cb40c67c1f0c140c5741f09f40c5f01f0aa00c4ec1f081e0c56c1f08b40c5701f08140c4681f05f40c4e41f06a00c3e01f041e0c4601f04b40c4641f04140c3d81f02a00c0381ffc780c0341ffcb4)
  (.lf 0)) (.nd (.lf
  0x38c0156acc038341568cc037a41566cc037281564cc0369c1562cc036101560cc03580155ecc03504155ccc03474155acc033f41558cc033741556cc032f81554cc032681552cc031e81550cc0316c154ecc030dc154ccc0305c154acc02fe01548cc02f501546cc02ed01544cc02e501542cc03d7c157dd003cf4157bd003c681579d003bd81577d003b581575d003ad81573d003a5c1571d0039cc156fd00394c156dd0038d0156bd0038441569d0037b41567d0037381565d0036ac1563d0036201561d003590155fd003514155dd003484155bd0034041559d0033841557d0033081555d0032781553d0031f81551d00317c154fd0030ec154dd00306c154bd002ff01549d002f601547d002ee01545d002e601543d002e1415411003dcc15becc03d5815bccc03ccc15bacc03c4015b8cc03be015b6cc03b6015b4cc03ae015b2cc03a3415b0cc039d415aecc0395415accc038a815aacc0381c15a8cc)
  (.lf 0)))

def shaWireTree315 : BTree :=
  .nd (.nd (.nd (.lf
  0x567d4af181e567d8af18b4567dcaf1814567b8af1540567c0af16a056714af1340567b4af14a056708af11f456710af12a056588af101e56700af10b456704af10145657caf0e1e5653caf0eb456580af0e145652caf0bf456534af0ca056324af0a1e56354af0ab456528af0a14562ecaf07405631caf08a055fbcaf0540562e8af06a055f3caf03f455fb8af04a055eecaf02b455f38af0214553d4affc78553d8affcb4553dcaffc30553c0affa78553c4affab4553c8affa30553b4aff878553b0aff8b4553b8aff830553a0aff67855398aff6b4553a4aff6305538caff47855388aff4b455390aff43055378aff2785537caff2b455380aff23055368aff07855360aff0b45536caff03055354afee785534cafeeb455358afee3055340afec785533cafecb455344afec3055324afea785532cafeab455330afea3055314afe87855318afe8b45531cafe83055300afe67855304afe6b455308afe630)
  (.lf 0)) (.nd (.lf
  0x78044f2532c78070f2512c78078f24f2c77870f24d2c776e4f24b2c775ecf2492c773c8f2472c77308f2452c77174f2432c7702cf240cc7bb10f67f2c7bb00f67d2c7baecf67b2c7bad4f6792c7baccf6772c7bac8f6752c7ba9cf6732c7ba8cf6712c7ba6cf66f2c7ba74f66d2c7ba48f66b2c7ba3cf6692c7ba24f6672c7ba10f6652c7b9fcf6632c7b9e0f6612c7b9e8f65f2c7b9c0f65d2c7b9acf65b2c7b994f6592c7b980f6572c7b970f6552c7b958f6532c78c68f6512c78c54f64f2c78c40f64d2c78c2cf64b2c78ad4f6492c789d8f6472c78988f6452c78818f6432c787d0f640cc7c4d8fa7f2c7c4c8fa7d2c7c4b0fa7b2c7c1b0fa792c7c19cfa772c7c188fa752c7c17cfa732c7c168fa712c7c158fa6f2c7c13cfa6d2c7c10cfa6b2c7c100fa692c7c0e0fa672c7c0ccfa652c7c110fa632c7c0acfa612c7c00cfa5f2c7c024fa5d2c81b3cfa5b2c7ad88fa592c7ad64fa572c7ad14fa552c)
  (.lf 0))) (.nd (.nd (.lf
  0x771f8001b01770e0001aff76fd8001afd76ed8001afb76e68001af976d74001af776d14001af576c40001af376bf0001af176b68001aef76ae4001aed76a3c001aeb769d0001ae976974001ae7768d4001ae57685c001ae3767dc001ae177f90001adf77f50001add77f64001adb77f10001ad977860001ad7776c8001ad5788ec001ad378724001ad178844001acf786e8001acd78610001acb788f0001ac978750001ac778848001ac5786ec001ac378614001ac1785c4001abf78754001abd78540001abb78500001ab9784c4001ab7783f4001ab57845c001ab37838c001ab178320001aaf78324001aad78328001aab782b4001aa978390001aa778148001aa5780d8001aa3780a0001aa178da4001a9f78cb8001a9d78c00001a9b78bd8001a9978b54001a9778b30001a957a494001a937a3f4001a917a3a4001a8f7a4dc001a8d7a340001a8b7a498001a897a3f8001a877a3a8001a857a4e0001a83)
  (.lf 0)) (.nd (.lf
  0x74bb8fcb8cc74ba0fcb6cc74b64fcb4cc74b6cfcb2cc74b74fcb0cc74b7cfcaecc74b84fcaccc74e18fcaacc74e20fca8cc74dd8fca6cc74e48fca4cc74e94fca2cc74e64fca0cc74d28fc9ecc74e28fc9ccc74e30fc9acc74e38fc98cc74e50fc96cc74de0fc94cc74e6cfc92cc74da8fc90cc74e74fc8ecc74d30fc8ccc74d38fc8acc74d40fc88cc74cd0fc86cc74ca8fc84cc74c54fc82cc75050fcbdd07503cfcbbd075028fcb9d075014fcb7d075000fcb5d074fecfcb3d074fd8fcb1d074fc4fcafd074fb0fcadd074f9cfcabd074f88fca9d074f74fca7d074f60fca5d074f4cfca3d074f38fca1d074f24fc9fd074f0cfc9dd074ef8fc9bd074ee8fc99d074ed4fc97d074ec0fc95d074eb0fc93d074e9cfc91d074e84fc8fd074d78fc8dd074d64fc8bd074d50fc89d074cc8fc87d074cb8fc85d074c64fc83d074c3cfc811075714fc7ecc7571cfc7ccc75724fc7acc757a0fc78cc757a8fc76cc)
  (.lf 0)))

def shaWireTree316 : BTree :=
  .nd (.nd (.nd (.lf
  0x837e00056b483820005630837d4005478837980054b4837d80054308378c005278837540052b48379000523083744005078833180050b48374800503083308004e788330c004eb483310004e30832d0004c788326c004cb4832d4004c3083258004a7883260004ab483264004a308324c004878832480048b4832500048308323c00467882a1c0046b483240004630829fc004478824a40044b482a0000443082498004278823840042b48249c00423083298047c7883294047cb48329c047c3083288047a7883284047ab48328c047a3083180047878832780478b48327c04783083170047678831740476b48317804763083160047478831580474b4831640474308313804727882a200472b48313c047230829d4047078824500470b4829d80470308243c046e7882444046eb482448046e308242c046c7882430046cb482434046c3082418046a7882420046ab482424046a308240c046878824080468b4)
  (.lf 0)) (.nd (.lf
  0x18e8043a0b418e84439eb418e88439cb418e8c439ab418e904398b418e944396b418e984394b418e9c4392b418ea04390b418ea4438eb418ea8438cb418eac438ab418eb04388b418eb44386b418eb84384b418ebc4382b418ec04380b4179d443be78179d843bc78179dc43ba78179e043b878179e443b678179e843b478179ec43b278179f043b078179f443ae78179f843ac78179fc43aa7817a0043a87817a0443a67817a0843a47817a0c43a27817a1043a07817a14439e7817a18439c7817a1c439a7817a2043987817a2443967817a2843947817a2c43927817a3043907817a34438e7817a38438c7817a3c438a7817a4043887817a4443867817a4843847817a4c43827817a5043807818ec443be3018ec843bc3018ecc43ba3018ed043b83018ed443b63018ed843b43018edc43b23018ee043b03018ee443ae3018ee843ac3018eec43aa3018ef043a83018ef443a63018ef843a43018efc43a230)
  (.lf 0))) (.nd (.nd (.lf
  0x2002c4329f4200dc432aa01ff6c43281e200244328b4200284328141feac43261e1ff604326b41ff644326141fdf04323f41fea44324a01fd3443221e1fde84322b41fdec4322141fc7043201e1fd284320b41fd2c4320141fbb8431df41fc68431ea01faf8431c1e1fbb0431cb41fbb4431c141fa38431a1e1faec431ab41faf0431a141f97c4317f41fa304318a01f8c043161e1f9744316b41f9784316141f8044313401f8b84314a01f7504311f41f8004312a01f69043101e1f7484310b41f74c4310141f5d0430e1e1f684430eb41f688430e141f50c430c1e1f5c4430cb41f5c8430c141f4544309401f504430aa01f39c4307401f4504308a01f2d84305401f3984306a01f2084303401f2d44304a01f2044302a01941443fc781941043fcb41941843fc301940043fa78193fc43fab41940443fa30193ec43f878193e843f8b4193f043f830193d843f678193d443f6b4193dc43f630193c443f478)
  (.lf 0)) (.nd (.lf
  0x438d09962cc438489960cc437bc995ecc43770995ccc43698995acc435f89958cc435789956cc434cc9954cc434d89952cc433dc9950cc43334994ecc432a8994ccc431e8994acc431fc9948cc42d649946cc42bb89944cc42b889942cc4426c997dd044164997bd0441209979d0440009977d043f449975d043f049973d043e5c9971d043d70996fd043d48996dd043b6c996bd043ab09969d043a609967d043a0c9965d0439189963d04388c9961d0437e8995fd0437a4995dd0436d4995bd04363c9959d0435b89957d0434fc9955d0434e89953d0433ec9951d043344994fd0432b8994dd043220994bd04320c9949d042d749947d042bf09945d042bdc9943d042bc8994110443d099becc4420499bccc440cc99bacc4408899b8cc43fc099b6cc43ec099b4cc43e8499b2cc43e0899b0cc43dd099aecc43cb099accc43b3499aacc43a8499a8cc43a3899a6cc439e499a4cc438d499a2cc4384c99a0cc)
  (.lf 0)))

def shaWireTree317 : BTree :=
  .nd (.nd (.nd (.lf
  0x69048d3dcb469060d3dc3069034d3da786903cd3dab469040d3da3069024d3d87869028d3d8b46902cd3d83069014d3d67869010d3d6b469018d3d63069000d3d47869004d3d4b469008d3d43068f38d3d27868fecd3d2b468ff4d3d23068eccd3d07868f2cd3d0b468f30d3d03068ebcd3ce7868eb8d3ceb468ec4d3ce3068ea8d3cc7868ea4d3ccb468eacd3cc3068e98d3ca7868c58d3cab468e9cd3ca3068becd3c87868bf0d3c8b468bf4d3c83068a9cd3c67868be0d3c6b468be4d3c63068a28d3c47868a90d3c4b468a94d3c430689d8d3c27868a1cd3c2b468a20d3c2306b6ecd6bc786b6f4d6bcb46b6f8d6bc306b6e0d6ba786b6d8d6bab46b6e4d6ba306b6c8d6b8786b6ccd6b8b46b6d0d6b8306b6b8d6b6786b6b0d6b6b46b6bcd6b6306b6a0d6b4786b6a4d6b4b46b6a8d6b4306b690d6b2786b688d6b2b46b694d6b2306b674d6b0786b67cd6b0b46b680d6b0306b664d6ae786b668d6aeb4)
  (.lf 0)) (.nd (.lf
  0x81bc0fb1cb481b58fb1b4a80b5cfb18b480b4cfb16b480b3cfb14b480b28fb134a80b0cfb114a80af4fb0f4a80ad8fb0d4a80accfb0b4a80a64fb094a80a4cfb06b480a0cfb054a809d0fb034a80360fb00aa83708ff3f4a836c8ff3d4a836b8ff3ab4835ecff38b4835dcff36b4835c4ff354a835b8ff334a8359cff30b48358cff2eb483530ff2d4a834f0ff2b4a834d4ff294a834c8ff26b4834b8ff24b4834acff22b483470ff214a82da0ff1eb482dc8ff1d4a82d58ff1b4a82d68ff194a82cd8ff174a82c90ff14b482c84ff12b482af8ff10b482a74ff0f4a8295cff0d4a8272cff0b4a826ecff094a826c0ff06b482680ff04b4821ccff02aa821b0fec0cc01dd800611f01ddc00611d01de000611b01de400611901de800611701dec00611501df000611301df400611101df800610f01dfc00610d01e0000610b01e0400610901e0800610701e0c00610501e1000610301e1400610101e180060ff)
  (.lf 0))) (.nd (.nd (.lf
  0x1e778784ab41e774784a781e77c784a301e7647848b41e7607848781e7687848301e7507846b41e74c7846781e7547846301e73c7844b41e7387844781e7407844301e7287842b41e7247842781e72c78423039d98783cb439dbc783c7839dc0783c3039d68783ab439d8c783a7839d90783a3039d387838b439d5c78387839d6078383039d087836b439d2c78367839d3078363039cd87834b439cfc78347839d0078343039ca87832b439ccc78327839cd078323039c787830b439c9c78307839ca078303039c48782eb439c6c782e7839c70782e3039c18782cb439c3c782c7839c40782c3039be8782ab439c0c782a7839c10782a3039bb87828b439bdc78287839be078283039b887826b439bac78267839bb078263039b587824b439b7c78247839b8078243039b287822b439b4c78227839b5078223039af87820b439b1c78207839b2078203039ac8781eb439aec781e7839af0781e3039a98781cb4)
  (.lf 0)) (.nd (.lf
  0x181643ec3d0181383ec110188803f3df41883c3f3b40186d83f2ff4186903f2d40185d03f27f41858c3f2540185103f21f4184cc3f1ff4184883f1df4184443f1bf4184003f19f4183bc3f1740182d03f0f40182543f0bf4182103f09f4181cc3f074017ad83ffecc17ae03ffccc17ae83ffacc17af03ff8cc17af83ff6cc17b003ff4cc17b083ff2cc17b103ff0cc17b183feecc17b203feccc17b283feacc17b303fe8cc17b383fe6cc17b403fe4cc17b483fe2cc17b503fe0cc17b583fdecc17b603fdccc17b683fdacc17b703fd8cc17b783fd6cc17b803fd4cc17b883fd2cc17b903fd0cc17b983fcecc17ba03fcccc17ba83fcacc17bb03fc8cc17bb83fc6cc17bc03fc4cc17bc83fc2cc17e2c3ffdd017e183ffbd017e043ff9d017df03ff7d017ddc3ff5d017dc83ff3d017db43ff1d017da03fefd017d8c3fedd017d783febd017d643fe9d017d503fe7d017d3c3fe5d017d283fe3d017d143fe1d0)
  (.lf 0)))

def shaWireTree318 : BTree :=
  .nd (.nd (.nd (.lf
  0x247ac595830247285956782472c5956b42473059563024710595478247145954b42471859543024700595278247045952b424708595230246ec595078246f05950b4246f4595030246dc594e78246d8594eb4246e0594e30246b0594c78246c8594cb4246cc594c30246a4594a78235a4594ab4246a8594a30234885948782350c5948b423510594830233f0594678234745946b42348059463023348594478233e45944b4233e8594430232cc594278233345942b42333c5942302469059bc782469459bcb42469859bc302468059ba782466c59bab42468459ba302465c59b8782465859b8b42466059b8302464059b6782464459b6b42464859b6302463459b4782462c59b4b42463859b4302462059b2782461c59b2b42462459b2302460859b0782460c59b0b42461059b030245f459ae78245f059aeb4245f859ae30245e059ac78245e459acb4245e859ac30245cc59aa78245d059aab4245d459aa30)
  (.lf 0)) (.nd (.lf
  0x3973000417d3973800417b39740004179397480041773975000417539758004173397600041713976800416f3977000416d3977800416b39780004169397880041673979000416539798004163397a00041613b5a800415f3b5b000415d3b5b800415b3b5c00041593b5c80041573b5d00041553b5d80041533b5e00041513b5e800414f3b5f000414d3b65000414b3b6580041493b6600041473b6680041453b6700041433b6780041413b68000413f3b68800413d3b69000413b3b6980041393b6a00041373b6a80041353b6b00041333b6b80041313b6c000412f3b6c800412d3b6d000412b3b6d80041293b6e00041273b6e80041253b6f00041233b6f80041213b96000411f3b96800411d3b97000411b3b9780041193b9800041173b9880041153b9900041133b9980041113b9a000410f3b9a800410d3ba0800410b3ba100041093ba180041073ba200041053ba280041033ba300041013ba380040ff)
  (.lf 0))) (.nd (.nd (.lf
  0x73ff8f00a3073db4f008b473db0f0087873db8f0083073d64f006b473d4cf0067873da8f0063073d40f004b473d24f0047873d44f0043073d0cf002b473d10f0027873d14f0023073b70f4bcb473b6cf4bc7873b78f4bc3073b5cf4bab473b58f4ba7873b60f4ba3073b4cf4b8b473b44f4b87873b50f4b83073b34f4b6b473b38f4b67873b3cf4b63073b24f4b4b473b20f4b47873b28f4b43073b08f4b2b473b10f4b27873b14f4b23073afcf4b0b473af4f4b07873b00f4b03073ae8f4aeb473ae0f4ae7873aecf4ae3073ac8f4acb473ad0f4ac7873ad4f4ac3073ab8f4aab473abcf4aa7873ac0f4aa3073aa4f4a8b473aa0f4a87873aa8f4a83073a90f4a6b473a94f4a67873a98f4a63073a78f4a4b473a80f4a47873a84f4a43073a6cf4a2b473a64f4a27873a70f4a23073a54f4a0b473a50f4a07873a58f4a03073a44f49eb473a3cf49e7873a48f49e3073a28f49cb473a2cf49c7873a30f49c30)
  (.lf 0)) (.nd (.lf
  0x5e210bfe1d05e1fcbfdfd05e1e8bfddd05e1d0bfdbd05e1c0bfd9d05e1b0bfd7d05e19cbfd5d05e14cbfd3d05e038bfd1d05df00bfcfd05deecbfcdd05de98bfcbd05dd14bfc9d05dcf8bfc7d05dce8bfc5d05dcd8bfc3d05dcb8bfc110602dcc2becc60288c2bccc600c0c2bacc600c8c2b8cc600d0c2b6cc600d8c2b4cc602f0c2b2cc6029cc2b0cc6011cc2aecc60124c2accc6012cc2aacc602f8c2a8cc602c0c2a6cc60178c2a4cc6017cc2a2cc60174c2a0cc60140c29ecc60148c29ccc60044c29acc5fdccc298cc5fdd4c296cc5fddcc294cc5fde4c292cc5fdecc290cc5f3f8c28ecc60300c28ccc602a8c28acc60194c288cc60154c286cc6016cc284cc60160c282cc604f0c2bdd0604dcc2bbd0604c8c2b9d0604b4c2b7d0604a0c2b5d06048cc2b3d060478c2b1d060464c2afd060450c2add06043cc2abd060428c2a9d060410c2a7d0603fcc2a5d0603e8c2a3d0603d4c2a1d0603c0c29fd0)
  (.lf 0)))

def shaWireTree319 : BTree :=
  .nd (.nd (.nd (.lf
  0x43b148b2bf443cb88b2ca043adc8b2a1e43b0c8b2ab443b108b2a14439c88b27f443ad48b28a0439c08b261e439bc8b26b4439c48b2614438f48b241e439388b24b4439b48b2414438608b2140438ec8b22a0438108b1f404385c8b20a0437388b1df44380c8b1ea0436908b1c1e437308b1cb4437348b1c14436508b1a1e436808b1ab4436888b1a14435d48b17f4436148b18a0435cc8b161e435808b16b4435d08b1614434d08b141e435688b14b44356c8b1414433cc8b11f4434c08b12a0433288b101e433bc8b10b4433c88b1014432f48b0e1e4331c8b0eb4433208b0e14432988b0c1e432948b0cb4432ec8b0c14431b08b0a1e432888b0ab44328c8b0a1442dbc8b081e431a48b08b4431a88b081442db08b06b442db48b0614430e48bfc78430e88bfcb4430ec8bfc304309c8bfa78430988bfab4430a08bfa30430888bf878430848bf8b44308c8bf830430748bf678430708bf6b4430788bf630)
  (.lf 0)) (.nd (.lf
  0x7d090f213b07d054f211b07cfe8f20fb07d008f20db07c448f20bb07c410f209b07c3c8f207b07c080f205b07bddcf203b07bd50f201b07f660f63fb07f344f63db07f1e0f63bb07f17cf639b07f0e0f637b07f114f635b07eff8f633b07efbcf631b07ef7cf62fb07ef50f62db07f788f62bb07ef0cf629b07e8dcf627b07e8c8f625b07e904f623b07e814f621b07e7c4f61fb07e7a0f61db07e7e0f61bb07e75cf619b07e548f617b07e3f0f615b07e2c8f613b07e284f611b07e268f60fb07e324f60db07dd4cf60bb07dcb0f609b07db74f607b07d52cf605b07d410f603b07d4b0f601b08058cfa3fb08050cfa3db08055cfa3bb0804c4fa39b080434fa37b080480fa35b080328fa33b0802bcfa31b0802e0fa2fb0802f4fa2db08019cfa2bb080050fa29b080014fa27b08008cfa25b07ffd4fa23b07ffa4fa21b0800ccfa1fb08009cfa1db07f994fa1bb07f8e0fa19b07f868fa17b07fcb0fa15b0)
  (.lf 0))) (.nd (.nd (.lf
  0x3326c6e2050332706e1e50332746e1c50332786e1a503327c6e1850332806e1650332846e1450332886e12503328c6e1050332906e0e50332946e0c50332986e0a503329c6e0850332a06e0650332a46e0450332a86e0250332ac6e005033328723e783332c723c7833330723a7833334723878333387236783333c7234783334072327833344723078333ac722e7833348722c783334c722a78333507228783335472267833358722478333bc7222783335c72207833360721e7833364721c7833368721a783336c7218783337072167833374721478333787212783337c72107833380720e7833384720c7833388720a783338c7208783339072067833394720478333987202783339c7200783505c723e5035060723c5035064723a50350687238503506c72365035070723450350a872325034fa472305034fa8722e5034fac722c5034fb0722a5034fb472285034fb872265034ed072245034ed4722250)
  (.lf 0)) (.nd (.lf
  0x4efa8a001104ea7ca4becc4ea84a4bccc4ea8ca4bacc4ea94a4b8cc4ea9ca4b6cc4eaa4a4b4cc4eaaca4b2cc4eab4a4b0cc4eabca4aecc4eac4a4accc4eb24a4aacc4eb2ca4a8cc4eb34a4a6cc4eb3ca4a4cc4eb44a4a2cc4eb4ca4a0cc4eb54a49ecc4eb5ca49ccc4eb64a49acc4eb6ca498cc4eb74a496cc4eb7ca494cc4eb84a492cc4eb8ca490cc4eb94a48ecc4eb9ca48ccc4eba4a48acc4ebaca488cc4ebb4a486cc4ebbca484cc4ebc4a482cc4ee28a4bdd04ee14a4bbd04ee00a4b9d04edeca4b7d04edd8a4b5d04edc4a4b3d04edb0a4b1d04ed9ca4afd04ed88a4add04ed74a4abd04ed60a4a9d04ed4ca4a7d04ed38a4a5d04ed24a4a3d04ed10a4a1d04ecfca49fd04ece8a49dd04ecd4a49bd04ecc0a499d04ecaca497d04ec98a495d04ec84a493d04ec70a491d04ec5ca48fd04ec48a48dd04ec34a48bd04ec20a489d04ec0ca487d04ebf8a485d04ebe4a483d04ebcca4811051188a47ecc)
  (.lf 0)))

def shaWireTree320 : BTree :=
  .nd (.nd (.nd (.lf
  0x2ff000000002fd000000002fb000000002f9000000002f7000000002f5000000002f3000000002f1000000002ef000000002ed000000002eb000000002e9000000002e7000000002e5000000002e3000000002e1000000002df000000002dd000000002db000000002d9000000002d7000000002d5000000002d3000000002d1000000002cf000000002cd000000002cb000000002c9000000002c7000000002c5000000002c3000000002c1000000002bf000000002bd000000002bb000000002b9000000002b7000000002b5000000002b3000000002b1000000002af000000002ad000000002ab000000002a9000000002a7000000002a5000000002a3000000002a10000000029f0000000029d0000000029b00000000299000000002970000000029500000000293000000002910000000028f0000000028d0000000028b0000000028900000000287000000002850000000028300000000281)
  (.lf
  0x3d1c09031d03d194902fd03d168902dd03d13c902bd03d1109029d03d0e49027d03d0b89025d03d08c9023d03d0609021d03d034901fd03d008901dd03cfdc901bd03cfb09019d03cf849017d03cf589015d03cf2c9013d03cf009011d03ced4900fd03cea8900dd03ce7c900bd03ce509009d03ce249007d03cdf89005d03cdcc9003d03cdac9001104702894becc4703094bccc4703894bacc4704094b8cc4704894b6cc4705094b4cc4705894b2cc4706094b0cc4706894aecc4707094accc470d094aacc470d894a8cc470e094a6cc470e894a4cc470f094a2cc470f894a0cc47100949ecc47108949ccc47110949acc471189498cc471209496cc471289494cc471309492cc471389490cc47140948ecc47148948ccc47150948acc471589488cc471609486cc471689484cc471709482cc473d494bdd0473c094bbd0473ac94b9d04739894b7d04738494b5d04737094b3d04735c94b1d04734894afd0))
  (.nd (.lf
  0x17e703e205017e743e1e5017e783e1c5017e7c3e1a5017e803e185017e843e165017e883e145017e8c3e125017e903e105017e943e0e5017e983e0c5017e9c3e0a5017ea03e085017ea43e065017ea83e045017eac3e025017eb03e005017f34423e7817f38423c7817f3c423a7817f4042387817f4442367817f4842347817f4c42327817f5042307817f54422e7817f58422c7817f5c422a7817f6042287817f6442267817f6842247817f6c42227817f7042207817f74421e7817f78421c7817f7c421a7817f8042187817f8442167817f8842147817f8c42127817f9042107817f94420e7817f98420c7817f9c420a7817fa042087817fa442067817fa842047817fac42027817fb042007819424423e5019428423c501942c423a501943042385019434423650194384234501943c4232501944042305019444422e5019448422c501944c422a501945042285019454422650194584224501945c422250)
  (.lf 0))) (.nd (.nd (.lf
  0x4079c86ba304078086b8784078486b8b44078886b8304076c86b6784077086b6b44077486b6304075886b4784075c86b4b44076086b4304074c86b2784074886b2b44075086b2304073486b0784073886b0b44073c86b0304072086ae784072886aeb44072c86ae304071486ac784070c86acb44071886ac304070086aa78406fc86aab44070486aa30406e486a878406ec86a8b4406f086a830406d886a678406d486a6b4406dc86a630406c486a478406c886a4b4406cc86a430406b086a278406ac86a2b4406b486a2304069886a0784069c86a0b4406a086a03040688869e784068c869eb440690869e3040674869c7840678869cb44067c869c3040664869a7840660869ab440668869a3040650869878406548698b440658869830406408696784063c8696b440644869630406288694784062c8694b44063086943040610869278406188692b44061c86923040604869078406008690b440608869030)
  (.lf 0)) (.nd (.lf
  0x459d89213b0459dc9211b0458dc920fb04585c920db045860920bb0457a09209b0455d89207b0454109205b0454149203b0453309201b0480ac963fb0480b0963db0480b4963bb0480b89639b047fe89637b047fec9635b0482149633b047ff09631b047ff4962fb047ff8962db047ffc962bb0480009629b0480049627b0480089625b04800c9623b0480109621b048014961fb048018961db047e90961bb047e949619b046fe09617b046fe49615b046fe89613b046fec9611b046ff0960fb046b60960db046b24960bb046ad09609b046a849607b046a049605b046a089603b0466889601b04a3e09a3fb04a3e49a3db04a3e89a3bb04a3ec9a39b04a3f09a37b04a3f49a35b04a3f89a33b04a3309a31b04a3349a2fb04a2d49a2db04a2d89a2bb04a2ec9a29b04a27c9a27b04a2809a25b04a2049a23b04a2089a21b04a20c9a1fb04a2109a1db04a2fc9a1bb04a2149a19b04a2189a17b04a21c9a15b0)
  (.lf 0)))

def shaWireTree321 : BTree :=
  .nd (.nd (.nd (.lf
  0x1782049783017808497678177fc4976b41780c497630177ec497478177e84974b4177f0497430177d8497278177dc4972b4177e0497230177c4497078177c84970b4177cc497030177b4496e78177b0496eb4177bc496e30177a4496c78177a0496cb4177a8496c3017790496a7817788496ab417794496a3017774496878177784968b41777c496830177644966781775c4966b41776849663017750496478177484964b4177544964301773c496278177384962b417740496230177244960781772c4960b41773049603017718495e7817714495eb41771c495e3017700495c7817704495cb417708495c30176ec495a78176f0495ab4176f4495a30176dc495878176d04958b4176e0495830176c4495678176c04956b4176c8495630176ac495478176b04954b4176b4495430176a0495278176984952b4176a44952301768c495078176884950b41769049503017674494e7817678494eb41767c494e30)
  (.lf 0)) (.nd (.lf
  0x6db4000477d6db4800477b6db500047796db580047776db600047756db680047736db700047716db7800476f6db8000476d6db8800476b6db900047696db980047676dba00047656dba80047636dbb00047616fb3400475f6fb3c00475d6fb4400475b6fbc00047596fbc80047576fbd00047556fbd80047536fbe00047516fbe800474f6fbf000474d6fbf800474b6fc000047496fc080047476fc100047456fc180047436fc200047416fc2800473f6fc3000473d6fc3800473b6fc400047396fc480047376fc500047356fc580047336fc600047316fc6800472f6fc7000472d6fc7800472b6fc800047296fc880047276fc900047256fc980047236fca00047217092800471f7093000471d7093800471b709b4004719709bc004717709c4004715709cc004713709d4004711709dc00470f709e400470d709ec00470b709f4004709709fc00470770a0400470570a0c00470370a1400470170a1c0046ff)
  (.lf 0))) (.nd (.nd (.lf
  0x715b0e8aa3071598e8a8b471590e8a8787159ce8a83071580e8a6b471584e8a67871588e8a6307148ce8a4b471490e8a47871578e8a43071480e8a2b47147ce8a27871484e8a23071470e8a0b47146ce8a07871474e8a03071454e89eb47145ce89e7871460e89e3071448e89cb471440e89c787144ce89c3071434e89ab47142ce89a7871438e89a3071418e898b471420e8987871424e8983071408e896b47140ce8967871410e89630713f0e894b4713f8e89478713fce89430713dce892b4713e4e89278713e8e89230713c8e890b4713cce89078713d0e89030713b4e88eb4713b8e88e78713c0e88e3071334e88cb47133ce88c78713ace88c3071328e88ab471320e88a787132ce88a3071310e888b471314e8887871318e88830712fce886b4712f8e8867871300e88630712e8e884b4712ece88478712f0e88430712d8e882b4712dce88278712e0e8823072928e87cb47292ce87c7872938e87c30)
  (.lf 0)) (.nd (.lf
  0x57210b3ddd0571fcb3dbd0571e8b3d9d0571d4b3d7d0571c0b3d5d0571acb3d3d0570e0b3d1d0570ccb3cfd0570b8b3cdd056f28b3cbd056eacb3c9d056e04b3c7d056d74b3c5d056c90b3c3d056c24b3c11059084b6becc5908cb6bccc59094b6bacc5909cb6b8cc590a4b6b6cc591d8b6b4cc590acb6b2cc590b4b6b0cc590bcb6aecc590c4b6accc590ccb6aacc590d4b6a8cc590dcb6a6cc590e4b6a4cc590ecb6a2cc590f4b6a0cc590fcb69ecc59104b69ccc5910cb69acc59114b698cc5911cb696cc59124b694cc5912cb692cc58ebcb690cc58e8cb68ecc59134b68ccc5913cb68acc59144b688cc5914cb686cc59154b684cc5915cb682cc593c4b6bdd0593b0b6bbd05939cb6b9d059388b6b7d059374b6b5d059360b6b3d05934cb6b1d059338b6afd059324b6add059310b6abd0592fcb6a9d0592e8b6a7d0592d4b6a5d0592c0b6a3d0592acb6a1d059298b69fd059284b69dd059270b69bd0)
  (.lf 0)))

def shaWireTree322 : BTree :=
  .nd (.nd (.nd (.lf
  0x7d454fdb6b47d5c8fdb6307d448fdb4787d3f4fdb4b47d44cfdb4307d360fdb2787d3a0fdb2b47d3a4fdb2307d354fdb0787d350fdb0b47d358fdb0307d2f8fdae787d2fcfdaeb47d300fdae307d278fdac787d2ecfdacb47d2f0fdac307d248fdaa787d244fdaab47d24cfdaa307d234fda8787d224fda8b47d238fda8307d1e0fda6787d1dcfda6b47d1ecfda6307d1bcfda4787d1b8fda4b47d1c0fda4307d1a0fda2787d1a4fda2b47d1b0fda2307d184fda0787d190fda0b47d194fda0307d15cfd9e787d160fd9eb47d164fd9e307d140fd9c787d144fd9cb47d148fd9c307d134fd9a787d130fd9ab47d138fd9a307d120fd98787d124fd98b47d128fd98307d0f8fd96787d0e0fd96b47d0fcfd96307d0b8fd94787d0d4fd94b47d0d8fd94307d078fd92787d074fd92b47d0a4fd92307d038fd90787d03cfd90b47d040fd90307cfd4fd8e787cfd0fd8eb47cff8fd8e307cfc0fd8c787cfc4fd8cb4)
  (.lf 0)) (.nd (.lf
  0xd39823a0b40d39c239eb40d3a0239cb40d3a4239ab40d3a82398b40d3ac2396b40d3b02394b40d3b42392b40d3b82390b40d3bc238eb40d3c0238cb40d3c4238ab40d3c82388b40d3cc2386b40d3d02384b40d3d42382b40d3d82380b40bbe823be780bbec23bc780bbf023ba780bbf423b8780bbf823b6780bbfc23b4780bc0023b2780bc0423b0780bc0823ae780bc0c23ac780bc1023aa780bc1423a8780bc1823a6780bc1c23a4780bc2023a2780bc2423a0780bc28239e780bc2c239c780bc30239a780bc342398780bc382396780bc3c2394780bc402392780bc442390780bc48238e780bc4c238c780bc50238a780bc542388780bc582386780bc5c2384780bc602382780bc642380780d3dc23be300d3e023bc300d3e423ba300d3e823b8300d3ec23b6300d3f023b4300d3f423b2300d3f823b0300d3fc23ae300d40023ac300d40423aa300d40823a8300d40c23a6300d41023a4300d41423a230)
  (.lf 0))) (.nd (.nd (.lf
  0x1662c3bca78166283bcab4166303bca30166183bc878166143bc8b41661c3bc830166043bc678166003bc6b4166083bc630165f03bc478165ec3bc4b4165f43bc430165dc3bc278165d83bc2b4165e03bc230188983ebc78188943ebcb41889c3ebc30188583eba78188543ebab41885c3eba301881c3eb878188183eb8b4188203eb830187e43eb678187e03eb6b4187e83eb630187ac3eb478187a83eb4b4187b03eb430187743eb278187703eb2b4187783eb2301873c3eb078187383eb0b4187403eb030186f83eae78186f43eaeb4186fc3eae30186b03eac78186ac3eacb4186b43eac30186703eaa781866c3eaab4186743eaa30186343ea878186303ea8b4186383ea830185f03ea678185ec3ea6b4185f43ea630185a83ea478185a43ea4b4185ac3ea4301856c3ea278185683ea2b4185703ea2301852c3ea078185283ea0b4185303ea030184e83e9e78184e43e9eb4184ec3e9e30184a43e9c78)
  (.lf 0)) (.nd (.lf
  0x34dbc7d93d034da87d91d034d947d8fd034d807d8dd034d6c7d8bd034d5c7d89d03484c7d87d033a4c7d85d0339b47d83d0339287d8110366f8817ecc36b84817ccc3663c817acc36b808178cc365608176cc367848174cc367048172cc3676c8170cc36780816ecc36324816ccc362ac816acc362308168cc361b48166cc3614c8164cc360dc8162cc3606c8160cc35ffc815ecc35f8c815ccc35f1c815acc35eac8158cc35e408156cc35dcc8154cc35d5c8152cc35ce88150cc35c70814ecc35bf4814ccc35b78814acc35ae48148cc35a588146cc359d48144cc359508142cc36fc0817dd036fac817bd036f988179d036f848177d036eac8175d036e448173d036e348171d036e20816fd036e0c816dd036df8816bd036dc08169d036d948167d036d1c8165d036d088163d036cf48161d036ce0815fd036ccc815dd036ca4815bd036c248159d036c108157d036bfc8155d036be88153d036bd48151d0)
  (.lf 0)))

def shaWireTree323 : BTree :=
  .nd (.nd (.nd (.lf
  0x67f74ce783067f5cce76b467f58ce767867f60ce763067f4cce74b467f48ce747867f50ce743067f3cce72b467f38ce727867f40ce723067f2cce70b467f28ce707867f30ce703067f1cce6eb467f18ce6e7867f20ce6e3067f0cce6cb467f08ce6c7867f10ce6c3067ef4ce6ab467ef0ce6a7867ef8ce6a3067edcce68b467ed8ce687867ee0ce683067ec4ce66b467ec0ce667867ec8ce663067eb0ce64b467eacce647867eb4ce643067e98ce62b467e94ce627867e9cce623067e88ce60b467e84ce607867e8cce603067e78ce5eb467e74ce5e7867e7cce5e3067e60ce5cb467e5cce5c7867e64ce5c3067e50ce5ab467e4cce5a7867e54ce5a3067e40ce58b467e3cce587867e44ce583067aa0ce56b467e2cce567867e30ce563067a94ce54b467a90ce547867a98ce543067588ce52b467a84ce527867a88ce52306757cce50b467578ce507867580ce503067564ce4eb467560ce4e7867568ce4e30)
  (.lf 0)) (.nd (.lf
  0x4b6a09b1d4a4b63c9b1ab44b5e09b18b44b4f09b174a4b45c9b14b44b3e89b12b44b3809b114a4b2fc9b0eb44b2909b0cb44b1a49b0b4a4b11c9b08b44b0b89b074a4b0349b054a4afc09b02aa4af189ac0cc4e1649f3f4a4e0f49f3cb44e0009f3ab44e0189f394a4df609f36b44de7c9f34b44de0c9f334a4dd989f30b44dcf09f2eb44dc989f2d4a4db789f2b4a4db609f294a4db4c9f26b44da589f24b44da189f234a4d9d89f20b44d9549f1eb44d9189f1cb44d8d49f1b4a4d8949f18b44d7809f174a4d6e89f154a4d6b09f12b44d6789f10b44d5e89f0f4a4d5949f0cb44d51c9f0ab44d4289f08b44d4149f06b44d43c9f054a4d3089f02b44d2149f00aa50428a33f4a503f8a33cb4503eca33b4a503c4a338b4503b4a336b45038ca334b45039ca3334a50368a330b450350a32f4a50340a32cb450334a32b4a50238a3294a50328a3274a501d4a3254a50140a3234a50124a3214a5010ca31f4a)
  (.lf 0))) (.nd (.nd (.lf
  0x343046c2ab43436c6c2a78343706c2a303428c6c28b4342f86c2878342fc6c2830342146c26b4342806c2678342846c2630341a46c24b4342086c24783420c6c2430341346c22b4341986c22783419c6c2230340c06c20b4341286c20783412c6c20303404c6c1eb4340b46c1e78340b86c1e3033fd46c1cb4340406c1c78340446c1c3033f586c1ab433fc86c1a7833fcc6c1a3033ee06c18b433f4c6c187833f506c183033e646c16b433ed46c167833ed86c163033de86c14b433e586c147833e5c6c143033d706c12b433ddc6c127833de06c123033cf86c10b433d646c107833d686c103033c7c6c0eb433cec6c0e7833cf06c0e3033bf86c0cb433c706c0c7833c746c0c3033b706c0ab433bec6c0a7833bf06c0a3033aec6c08b433b646c087833b686c083033a606c06b433ae06c067833ae46c0630339c86c04b433a546c047833a586c0430339346c02b4339bc6c0278339c06c0230366c870bcb4)
  (.lf 0)) (.nd (.lf
  0x140f432cdd0140a432cbd01404832c9d013ff432c7d013fa032c5d013f6032c3d013f2032c110148c0333df414874333bf41481c3339f4147c0333740146c433314014620332d401457c3329f4145283327f4144cc3325f4144783323f41441c33214014330331b401428c3317f4142303315f4141dc33134014138330f4014094330bf4140383309f413fe4330740138c033fecc138c833fccc138d033facc138d833f8cc138e033f6cc138e833f4cc138f033f2cc138f833f0cc1390033eecc1390833eccc1391033eacc1391833e8cc1392033e6cc1392833e4cc1393033e2cc1393833e0cc1394033decc1394833dccc1395033dacc1395833d8cc1396033d6cc1396833d4cc1397033d2cc1397833d0cc1398033cecc1398833cccc1399033cacc1399833c8cc139a033c6cc139a833c4cc139b033c2cc13c1433fdd013c0033fbd013bec33f9d013bd833f7d013bc433f5d013bb033f3d013b9c33f1d0)
  (.lf 0)))

def shaWireTree324 : BTree :=
  .nd (.nd (.nd (.lf
  0x88cc217f2c08860217d2c087e8217b2c0875c21792c086d021772c0864021752c085c021732c0854421712c084b4216f2c08438216d2c083a8216b2c0832c21692c0829c21672c0822021652c0819421632c0810421612c08088215f2c07ffc215d2c07f6c215b2c07eec21592c07e6c21572c07dec21552c07d7021532c07ce021512c07c60214f2c07be4214d2c07b54214b2c07ad821492c07a4c21472c079bc21452c0794021432c078f82140cc0a1b0257f2c0a148257d2c0a0bc257b2c0a04025792c09fb425772c09f2425752c09ea425732c09e2825712c09d9c256f2c09d10256d2c09c84256b2c09bf825692c09b6825672c09ae825652c09a6825632c099ec25612c0995c255f2c098dc255d2c0985c255b2c097e025592c0975025572c096d025552c0965025532c095d425512c09548254f2c094bc254d2c09430254b2c093a425492c0931425472c0929425452c0921425432c091d82540cc)
  (.lf
  0xb500e79d000b3c0e77d000b280e75d000b140e73d000b000e71d000aec0e6fd000ad80e6dd000ac40e6bd000ab00e69d000a9c0e67d000a880e65d000a740e63d000a600e61d000a4c0e5fd000a380e5dd000a240e5bd000a100e59d0009fc0e57d0009e80e55d0009d40e53d0009c00e51d0009ac0e4fd0009980e4dd0009840e4bd0009700e49d00095c0e47d0009480e45d0009340e43d0008a00e4110062d40efecc062d00efccc062cc0efacc062c80ef8cc062c40ef6cc062c00ef4cc062bc0ef2cc062b80ef0cc062b40eeecc062b00eeccc062ac0eeacc062a80ee8cc062a40ee6cc062a00ee4cc0629c0ee2cc062980ee0cc062940edecc062900edccc0628c0edacc062880ed8cc062840ed6cc062800ed4cc0627c0ed2cc062780ed0cc062740ececc062700ecccc0626c0ecacc062680ec8cc062640ec6cc062600ec4cc0625c0ec2cc06fd00efdd006f6c0efbd006ef80ef9d006e8c0ef7d0))
  (.nd (.lf
  0x63bd8cba03063beccb9e3063b40cb9c3063b20cb9a3063b5ccb983063ac0cb963063958cb943063928cb92306392ccb9030638e8cb8e3063410cb8c3063160cb8a30630e8cb883062f90cb863062d54cb843062caccb823062c48cb803066da4cfbeb466d64cfbcb466e74cfbab466d08cfb8b466cc4cfb6b466c88cfb4b466c50cfb2b466dd8cfb0b466714cfaeb4666c8cfacb466528cfaab466554cfa8b466658cfa6b466c0ccfa4b466414cfa2b466394cfa0b466348cf9eb466300cf9cb4662e4cf9ab4662b8cf98b465ff4cf96b465f14cf94b465ee4cf92b465ed0cf90b465ea0cf8eb465fc0cf8cb4652a0cf8ab4651e0cf88b465198cf86b4651b8cf84b465170cf82b464f4ccf80b46486ccfbe7864820cfbc78647bccfba7864760cfb878646dccfb67864678cfb4786467ccfb278643e0cfb07864108cfae7864034cfac7864178cfaa7864158cfa87863f98cfa67863d04cfa47863c20cfa278)
  (.lf 0))) (.nd (.nd (.lf
  0x2ba545fcab42ba5c5fca302ba445fc8782ba405fc8b42ba485fc8302ba305fc6782ba2c5fc6b42ba345fc6302ba1c5fc4782ba185fc4b42ba205fc4302ba085fc2782ba045fc2b42ba0c5fc2302d9b862bc782d9b462bcb42d9bc62bc302d9a462ba782d9a062bab42d9a862ba302d99062b8782d98c62b8b42d99462b8302d97c62b6782d97862b6b42d98062b6302d96862b4782d96462b4b42d96c62b4302d95462b2782d95062b2b42d95862b2302d94062b0782d93c62b0b42d94462b0302d92c62ae782d92862aeb42d93062ae302d91862ac782d91462acb42d91c62ac302d90462aa782d90062aab42d90862aa302d8f062a8782d8ec62a8b42d8f462a8302d8dc62a6782d8d862a6b42d8e062a6302d8c862a4782d8c462a4b42d8cc62a4302d8b462a2782d8b062a2b42d8b862a2302d8a062a0782d89c62a0b42d8a462a0302d88c629e782d888629eb42d890629e302d878629c782d874629cb4)
  (.lf 0)) (.nd (.lf
  0x7dd59018bd07dd290189d07db3d0187d07d5110185d07d4b50183d07d39101811080261057ecc80259057ccc80245057acc802050578cc801f50576cc801dd0574cc801cd0572cc801bd0570cc80211056ecc80165056ccc80171056acc7ff5d0568cc7ff690566cc7ff290564cc801410562cc7ff310560cc7ff39055ecc7ff89055ccc7f961055acc7f8e90558cc7f8010556cc7f8190554cc7f6dd0552cc7f6e90550cc7f6b9054ecc7f585054ccc80d59054acc7f2410548cc7f4050546cc7f1450544cc7f2790542cc8134d057dd081309057bd0812d50579d0812a90577d0812810575d0812690573d0812390571d0811fd056fd0811b1056dd081165056bd0811210569d0810dd0567d0810290565d0810010563d080ff10561d080fe1055fd080fa9055dd080e95055bd080e710559d080e450557d080e210555d080df90553d080dd10551d080d95054fd080d85054dd080d5d054bd07f44d0549d0)
  (.lf 0)))

def shaWireTree325 : BTree :=
  .nd (.nd (.nd (.lf
  0x7887cf2767878880f2763078868f274b47877cf274787886cf2743078770f272b478574f2727878774f2723078568f270b47851cf270787856cf27030784fcf26eb478510f26e7878514f26e30784b0f26cb478494f26c78784b4f26c3078480f26ab478488f26a787848cf26a3078474f268b478448f2687878478f2683078434f266b478438f2667878440f2663078424f264b478428f264787842cf26430783c8f262b478414f2627878418f26230783bcf260b4783b4f26078783c0f2603078388f25eb4783a8f25e78783acf25e307837cf25cb478184f25c7878380f25c3078170f25ab478178f25a787817cf25a307815cf258b478160f2587878164f2583078150f256b478068f2567878154f2563078058f254b47805cf2547878060f2543078048f252b47804cf2527878050f2523078034f250b478038f250787803cf2503077f0cf24eb477854f24e787802cf24e3077844f24cb4776c0f24c78)
  (.lf 0)) (.nd (.lf
  0x4948c9b9dd0493fc9b9bd0494009b99d0493bc9b97d0493909b95d0493949b93d0493589b91d0493289b8fd0491a09b8dd0490f09b8bd048e149b89d048d749b87d048cfc9b85d048c709b83d048bd49b81d04c2789fbfd04c2049fbdd04c1b49fbbd04bfe89fb9d04bf649fb7d04bf309fb5d04bee49fb3d04bde89fb1d04bc6c9fafd04bb009fadd04bb449fabd04ba789fa9d04ba1c9fa7d04b9549fa5d04b8b49fa3d04b8189fa1d04b7f49f9fd04b7cc9f9dd04b7a49f9bd04b6209f99d04b5309f97d04b49c9f95d04b41c9f93d04b3ac9f91d04b3409f8fd04b2d09f8dd04b1c89f8bd04b1509f89d04b0e49f87d04b0709f85d04afec9f83d04af409f81d04e17ca3bfd04e14ca3bdd04e058a3bbd04e030a3b9d04df80a3b7d04dea0a3b5d04de2ca3b3d04ddbca3b1d04dd10a3afd04dcb4a3add04dbe4a3abd04dbc0a3a9d04db9ca3a7d04da7ca3a5d04da2ca3a3d04d9f4a3a1d04d984a39fd0)
  (.lf 0))) (.nd (.nd (.lf
  0x536fca80c7853720a80c30536f0a80ab4536d0a80a78536f4a80a30536c4a808b4536a4a80878536c8a8083053698a806b453678a806785369ca806305366ca804b45364ca8047853670a8043053640a802b453630a8027853644a80230534a0acbcb45349cacbc78534a4acbc305348cacbab453488acba7853490acba3053478acb8b453474acb8785347cacb83053464acb6b453460acb67853468acb63053450acb4b45344cacb47853454acb4305343cacb2b453438acb27853440acb23053428acb0b453424acb0785342cacb03053414acaeb453410acae7853418acae3053400acacb4533fcacac7853404acac30533ecacaab4533e8acaa78533f0acaa30533d8aca8b4533d4aca878533dcaca830533c4aca6b4533c0aca678533c8aca630533b0aca4b4533acaca478533b4aca4305339caca2b453398aca278533a0aca23053388aca0b453384aca0785338caca03053374ac9eb453370ac9e78)
  (.lf 0)) (.nd (.lf
  0x34c5073facc34c5873f8cc34c6073f6cc34c6873f4cc34c7073f2cc34c7873f0cc34c8073eecc34c8873eccc3511073eacc34c9073e8cc350dc73e6cc34c9873e4cc34ca073e2cc34ca873e0cc34cb073decc34cb873dccc34cc073dacc3511873d8cc34cc873d6cc350e473d4cc34cd073d2cc34cd873d0cc34ce073cecc34ce873cccc34cf073cacc34cf873c8cc34d0073c6cc350fc73c4cc34d0c73c2cc3537c73fdd03536873fbd03535473f9d03534073f7d03532c73f5d03531873f3d03530473f1d0352f073efd0352dc73edd0352c873ebd0352b473e9d0352a073e7d03528c73e5d03527873e3d03526473e1d03525073dfd03523c73ddd03522873dbd03521473d9d03520073d7d0351ec73d5d0351d873d3d0351c473d1d0351b073cfd03519c73cdd03518873cbd03517473c9d03516073c7d03514c73c5d03513873c3d03512073c1103737876becc3738076bccc3738876bacc3739076b8cc)
  (.lf 0)))

def shaWireTree326 : BTree :=
  .nd (.nd (.nd (.lf
  0x47e74a1987847e70a198b447e78a1983046fc4a1967847e60a196b447e64a1963046fb4a1947846fb8a194b446fbca1943046fa0a1927846f9ca192b446fa8a1923046f90a1907846f8ca190b446f94a1903046f7ca18e7846f74a18eb446f80a18e3046f68a18c7846b0ca18cb446f6ca18c3046b00a18a7846ac0a18ab446b04a18a3046ab4a1887846a7ca188b446ab8a1883046a70a18678469b4a186b446a74a1863046998a18478469a0a184b4469a4a184304698ca1827846664a182b446990a18230499e8a57c78499eca57cb4499f4a57c30499dca57a78499a0a57ab4499e0a57a3049964a5787849968a578b44996ca5783049958a5767849954a576b44995ca57630498aca57478498d0a574b44994ca5743049898a572784989ca572b4498a0a5723049884a5707849888a570b44988ca570304982ca56e7849818a56eb44987ca56e3049630a56c784980ca56cb449810a56c30495c8a56a78)
  (.lf 0)) (.nd (.lf
  0x4abb8985d2c4ab8c985b2c4ab6098592c4ab3498572c4ab0898552c4aadc98532c4aab098512c4aa84984f2c4aa58984d2c4aa2c984b2c4aa0098492c4a9d498472c4a9a898452c4a97c98432c4a96c9840cc4d1b49c7f2c4d18c9c7d2c4d1609c7b2c4d1349c792c4d1089c772c4d0dc9c752c4d0b09c732c4d0849c712c4d0589c6f2c4d02c9c6d2c4d0009c6b2c4cfd49c692c4cfa89c672c4cf7c9c652c4cf509c632c4cf249c612c4cef89c5f2c4cecc9c5d2c4cea09c5b2c4ce749c592c4ce489c572c4ce1c9c552c4cdf09c532c4cdc49c512c4cd989c4f2c4cd6c9c4d2c4cd409c4b2c4cd149c492c4cce89c472c4ccbc9c452c4cc909c432c4cc809c40cc4f4d8a07f2c4f4b0a07d2c4f484a07b2c4f458a0792c4f42ca0772c4f400a0752c4f3d4a0732c4f3a8a0712c4f37ca06f2c4f350a06d2c4f324a06b2c4f2f8a0692c4f2cca0672c4f2a0a0652c4f274a0632c4f248a0612c4f21ca05f2c)
  (.lf 0))) (.nd (.nd (.lf
  0x8d1c17d43008d0417d27808d0017d2b408d0817d23008cf017d07808cec17d0b408cf417d03008cdc17ce7808cd817ceb408ce017ce3008cc817cc7808cc417ccb408ccc17cc3008cb417ca7808cb017cab408cb817ca3008ca017c87808c9c17c8b408ca417c83008c8c17c67808c8817c6b408c9017c63008c7817c47808c7417c4b408c7c17c43008c6417c27808c6017c2b408c6817c2300ba301abc780ba2c1abcb40ba341abc300b9c01aba780b9bc1abab40b9c41aba300b9401ab8780b93c1ab8b40b9441ab8300b8b81ab6780b8b41ab6b40b8bc1ab6300b8341ab4780b8301ab4b40b8381ab4300b7b41ab2780b7b01ab2b40b7b81ab2300b72c1ab0780b7281ab0b40b7301ab0300b6a81aae780b6a41aaeb40b6ac1aae300b6281aac780b6241aacb40b62c1aac300b5a81aaa780b5a41aaab40b5ac1aaa300b5201aa8780b51c1aa8b40b5241aa8300b4941aa6780b4901aa6b40b4981aa630)
  (.lf 0)) (.nd (.lf
  0x7f214f6bacc7f7a0f6b8cc7f104f6b6cc7f118f6b4cc7f554f6b2cc7f368f6b0cc7f208f6aecc7f18cf6accc7f78cf6aacc7f5c8f6a8cc7f3acf6a6cc7f1fcf6a4cc7f178f6a2cc7f0f0f6a0cc7f798f69ecc7f014f69ccc7efc4f69acc7ef90f698cc7ef5cf696cc7f79cf694cc7ef18f692cc7e8ecf690cc7e8f0f68ecc7f540f68ccc7f340f68acc7f210f688cc7f190f686cc7f11cf684cc7f07cf682cc7fc0cf6bdd07fbf4f6bbd07fbd4f6b9d07fbc4f6b7d07fbacf6b5d07fb94f6b3d07fb7cf6b1d07fb5cf6afd07fb34f6add07fad4f6abd07fac0f6a9d07fa9cf6a7d07fa74f6a5d07fa4cf6a3d07fa20f6a1d07f9f0f69fd07f9c8f69dd07f930f69bd07f920f699d07f8a0f697d07f7acf695d07f620f693d07f608f691d07f5f8f68fd07f5d0f68dd07f388f68bd07f25cf689d07f1b8f687d07f100f685d07f0b4f683d07f004f681107a484f67ecc7a3f0f67ccc7a39cf67acc7a4d4f678cc)
  (.lf 0)))

def shaWireTree327 : BTree :=
  .nd (.nd (.nd (.lf
  0x53048aaac7853044aaacb45304caaac305302caaaa7853034aaaab453038aaaa3053010aaa8785301caaa8b453020aaa83053000aaa67853004aaa6b453008aaa63052ff0aaa47852fe8aaa4b452ff4aaa43052fdcaaa27852fd4aaa2b452fe0aaa23052fc8aaa07852fc4aaa0b452fccaaa03052fb8aa9e7852fb4aa9eb452fbcaa9e3052fa4aa9c7852fa8aa9cb452facaa9c3052f94aa9a7852f90aa9ab452f98aa9a3052f78aa987852f7caa98b452f80aa983052f68aa967852f6caa96b452f70aa963052f54aa947852f58aa94b452f5caa943052f3caa927852f40aa92b452f48aa923052f30aa907852f28aa90b452f34aa903052f10aa8e7852f1caa8eb452f20aa8e3052efcaa8c7852ef8aa8cb452f04aa8c3052e6caa8a7852eecaa8ab452ef0aa8a3052e5caa887852e60aa88b452e64aa883052e40aa867852e4caa86b452e50aa863052e34aa847852e30aa84b452e38aa843052d10aa8278)
  (.lf 0)) (.nd (.lf
  0x3fdb492532c3fda092512c3fd8c924f2c3fd74924d2c3fd64924b2c3fd5092492c3fd3892472c3fd2492452c3fd1092432c3f2309240cc49084967f2c4906c967d2c49054967b2c4904096792c4908896772c4901496752c4900096732c48fe096712c48fec966f2c48fb8966d2c48fa4966b2c48f8896692c48f7096672c48f5896652c48f4896632c48f3096612c48f28965f2c48efc965d2c48ee4965b2c48ecc96592c48eb896572c48e9c96552c48e8896532c48e6c96512c48e54964f2c490fc964d2c48e2c964b2c48dc896492c48d2496472c48c9c96452c48ba496432c48b949640cc4c14c9a7f2c4c1249a7d2c4c0fc9a7b2c4bd309a792c4bd289a772c4bd0c9a752c4bcf49a732c4bce09a712c4bc0c9a6f2c4b9949a6d2c4b99c9a6b2c4b9709a692c4b8ec9a672c4b8d89a652c4b8489a632c4b5c49a612c4b5bc9a5f2c4b5949a5d2c4b5809a5b2c4b56c9a592c4b4d89a572c4b2789a552c)
  (.lf 0))) (.nd (.nd (.lf
  0x3f0d40021013f0d80020ff3f0dc0020fd3f0e00020fb3f0e40020f93f0e80020f73f0ec0020f53f0f00020f33f0f40020f13f0f80020ef3f0fc0020ed3f1000020eb3f1040020e93f1080020e73f10c0020e53f1100020e33f1140020e13fddc0020df3fde00020dd3fde40020db3fde80020d93fdec0020d73fdf00020d5401f00020d3401f40020d1401f80020cf401fc0020cd402000020cb402040020c9402080020c74020c0020c5402100020c3402140020c1402180020bf4021c0020bd402200020bb402240020b9402280020b74022c0020b5402300020b3402340020b1402380020af4023c0020ad402400020ab402440020a9402480020a74024c0020a5402500020a3402540020a14217c00209f41eb800209d41ebc00209b41ec000209941d5800209741d5c002095430f8002093430fc0020914310000208f42d1000208d42a8400208b43104002089431080020874310c00208542d14002083)
  (.lf 0)) (.nd (.lf
  0x72b24e829d072aece827d072abce825d072aa4e823d072a84e821d072a64e81fd072a10e81dd0729f0e81bd0729e0e819d0729bce817d0729a4e815d07298ce813d07297ce811d07296ce80fd072740e80dd07269ce80bd072640e809d072610e807d0725c0e805d072574e803d072534e8011071d5cecbecc71d3cecbccc71d44ecbacc71d4cecb8cc71d54ecb6cc71c5cecb4cc71b58ecb2cc71aececb0cc71af4ecaecc71afcecaccc720d8ecaacc720e0eca8cc720e8eca6cc720f0eca4cc7204ceca2cc72054eca0cc7213cec9ecc720f8ec9ccc72100ec9acc72108ec98cc72110ec96cc72118ec94cc72120ec92cc721ccec90cc7205cec8ecc72160ec8ccc71f2cec8acc71ea0ec88cc71ec4ec86cc71e00ec84cc71e08ec82cc723b4ecbdd0723a0ecbbd072388ecb9d072374ecb7d072364ecb5d072350ecb3d072338ecb1d072324ecafd072314ecadd072304ecabd0722f0eca9d0722dceca7d0)
  (.lf 0)))

def shaWireTree328 : BTree :=
  .nd (.nd (.nd (.lf
  0x4c1e4a9bf2c4c190a9bd2c4c180a9bb2c4beb0a9b92c4be9ca9b72c4be88a9b52c4be78a9b32c4bd6ca9b12c4bcbca9af2c4bb9ca9ad2c4bb60a9ab2c4ba2ca9a92c4b9fca9a72c4b918a9a52c4b878a9a32c4b754a9a12c4b6f0a99f2c4b6aca99d2c4b650a99b2c4b5f0a9992c4b500a9972c4b474a9952c4b3f4a9932c4b38ca9912c4b31ca98f2c4b2a4a98d2c4b1b0a98b2c4b128a9892c4b0c0a9872c4b040a9852c4afc8a9832c4af1ca980cc4e654adbf2c4e640adbd2c4e62cadbb2c4e618adb92c4e604adb72c4e5f0adb52c4e5dcadb32c4e5c8adb12c4e5b4adaf2c4e5a0adad2c4e58cadab2c4e578ada92c4e52cada72c4e550ada52c4e4f0ada32c4e4d0ada12c4e4a0ad9f2c4e48cad9d2c4e444ad9b2c4e42cad992c4e3e4ad972c4e3b4ad952c4e398ad932c4e3ccad912c4e468ad8f2c4e3fcad8d2c4d574ad8b2c4d4f0ad892c4d4d0ad872c4d4b4ad852c4d32cad832c4d234ad80cc)
  (.lf
  0x307e86435d0307786433d0307086431d030688642fd030608642dd030588642bd0305006429d0304746427d0303f06425d0303706423d0302f06421d030268641fd0301dc641dd030150641bd0300cc6419d03004c6417d02ffcc6415d02ff446413d02feb86411d02fe34640fd02fdb4640dd02fd2c640bd02fca06409d02fc1c6407d02fb946405d02fb106403d02fa746401103188468becc3188c68bccc3189468bacc3189c68b8cc318a468b6cc318ac68b4cc318b468b2cc318bc68b0cc318c468aecc318cc68accc3192c68aacc3193468a8cc3193c68a6cc3194468a4cc3194c68a2cc3195468a0cc3195c689ecc31964689ccc3196c689acc319746898cc3197c6896cc319846894cc3198c6892cc319946890cc3199c688ecc319a4688ccc319ac688acc319b46888cc319bc6886cc319c46884cc319cc6882cc328c068bdd03286068bbd0327ec68b9d03277468b7d03270468b5d03269868b3d0))
  (.nd (.lf
  0x2f1e40032812f1e800327f2f1ec00327d2f1f000327b2f0d40032792f2800032772f0640032752f0680032732f06c0032712f07000326f2f32800326d2ef8c00326b2ef680032692ef6c0032672ef700032652ef740032632f28400326130e1800325f30df000325d3120400325b312080032593120c00325731174003255312780032533110c003251310b400324f3105c00324d3100400324b30fc000324930f880032473121000324531214003243312180032413117800323f3127c00323d3111000323b310b8003239310600032373100800323530fc400323330f8c00323130f5c00322f30f3400322d30f0c00322b30ee400322930ebc00322730e9400322530e6c00322330e4000322132e5800321f32e5c00321d32e6000321b32e6400321932e6800321732e6c00321532e7000321332e7400321132e7800320f32e7c00320d32e8000320b32e8400320932e8800320732e8c00320532e90003203)
  (.lf 0))) (.nd (.nd (.lf
  0x35f0472dc7835f6c72dc3035ef872dab435e9872da7835efc72da3035e8c72d8b435e2c72d87835e9072d83035e2072d6b435db872d67835e2472d63035dac72d4b435d4872d47835db072d43035d3c72d2b435cd472d27835d4072d23035cc872d0b435c5872d07835ccc72d03035c4c72ceb435be072ce7835c5072ce3035bd472ccb435b5c72cc7835bd872cc3035b5072cab435ad072ca7835b5472ca3035ac472c8b435a4472c87835ac872c83035a3872c6b4359c072c67835a3c72c630359b472c4b43593872c478359b872c4303592c72c2b4358dc72c2783593072c230366f0733eaa36694733caa364d47334aa3648c7332aa363a4732eaa3631c732caa362a4732aaa35e0c7316aa35d287312aa35cb07310aa35c34730eaa35bbc730caa35b38730aaa35aac7308aa359187302aa366b4733df436644733b40364807333f4363f473314036334732df4362b8732bf43623c73294035da4731540)
  (.lf 0)) (.nd (.lf
  0x4660c0067f3466140067f14661c0067ef466240067ed4662c0067eb466300067e9466380067e74663c0067e5466440067e3466480067e1481280067df481300067dd481380067db481400067d9481480067d7481500067d5481580067d34815c0067d1481640067cf4816c0067cd481740067cb4817c0067c9482280067c7481840067c54818c0067c3481940067c14819c0067bf4822c0067bd481a40067bb481ac0067b9481b40067b7481bc0067b5481c40067b3481cc0067b1481d40067af481dc0067ad481e40067ab481ec0067a9481f40067a7481fc0067a5482040067a3482340067a14a49800679f4a4a000679d4a4a800679b4a4b00067994a4b80067974a4c00067954a4c80067934a4d00067914a4d800678f4a4e000678d4a4e800678b4a4f00067894a4f80067874a5000067854a5080067834a5100067814a51800677f4a51c00677d4a52400677b4a5280067794a5300067774a538006775)
  (.lf 0)))

def shaWireTree329 : BTree :=
  .nd (.nd (.nd (.lf
  0x511819a878050a419a8b40511c19a8300509819a6780502419a6b40509c19a6300501819a47804fa419a4b40501c19a43004f9819a27804f2419a2b404f9c19a23004f1819a07804ea819a0b404f1c19a03004e9c199e7804e1c199eb404ea0199e3004e10199c7804d90199cb404e14199c3004d84199a7804d04199ab404d88199a3004cf819987804c781998b404cfc19983004c6c19967804be81996b404c7019963004bdc19947804b6c1994b404be019943004b6019927804ae01992b404b6419923004ad419907804a541990b404ad819903004a48198e78049c8198eb404a4c198e30049bc198c7804938198cb4049c0198c300492c198a78048b8198ab404930198a30048ac1988780483c1988b4048b019883004830198678047b01986b404834198630047a4198478047241984b4047a819843004718198278046dc1982b40471c19823006f341d7c7806f981d7cb406f9c1d7c3006ebc1d7a78)
  (.lf 0)) (.nd (.lf
  0x49bac9bdd2c49b989bdb2c49b849bd92c49b709bd72c49b5c9bd52c49b449bd32c49b309bd12c49b4c9bcf2c49b149bcd2c49af89bcb2c49ae09bc92c49acc9bc72c49abc9bc52c49aa49bc32c498409bc0cc4cb049fff2c4caf49ffd2c4cadc9ffb2c4cac89ff92c4cab49ff72c4caa09ff52c4ca989ff32c4ca849ff12c4ca649fef2c4ca549fed2c4ca449feb2c4cb089fe92c4ca1c9fe72c4ca089fe52c4c9f49fe32c4c9dc9fe12c4c9d09fdf2c4c6009fdd2c4c5e89fdb2c4c5d89fd92c4c5c49fd72c4c5a49fd52c4c5a89fd32c4c5ac9fd12c4c5709fcf2c4c55c9fcd2c4c5489fcb2c4c5389fc92c4bf089fc72c4be109fc52c4bc989fc32c4bb1c9fc0cc4e358a3ff2c4e344a3fd2c4e338a3fb2c4e320a3f92c4e308a3f72c4e35ca3f52c4e2e0a3f32c4e2cca3f12c4e2b8a3ef2c4e2a4a3ed2c4e28ca3eb2c4e278a3e92c4e264a3e72c4e254a3e52c4e23ca3e32c4e290a3e12c4e218a3df2c)
  (.lf 0))) (.nd (.nd (.lf
  0x655c4c85ab465608c85a786560cc85a30655b8c858b465574c85878655bcc858306552cc856b465568c856786556cc8563065520c854b46551cc8547865524c85430654a0c852b46549cc85278654a4c852306541cc850b465418c8507865420c850306539cc84eb465398c84e78653a0c84e3065324c84cb465320c84c7865328c84c30652b4c84ab465200c84a78652b8c84a3064f14c848b4651f4c84878651f8c8483064f08c846b464f04c8467864f0cc8463064ef4c844b464ef0c8447864ef8c8443064ee0c842b464edcc8427864ee4c8423065ac0c83cb465accc83c7865ad0c83c3065aacc83ab465ab4c83a7865ab8c83a3065a9cc838b465aa0c8387865aa4c8383065a88c836b465960c8367865a8cc8363065950c834b465954c8347865958c8343065940c832b465944c8327865948c832306591cc830b465918c8307865938c830306590cc82eb465864c82e7865910c82e3065858c82cb4)
  (.lf 0)) (.nd (.lf
  0x464d893cecc474d493cccc4649893cacc4741493c8cc4649c93c6cc4644493c4cc4644c93c2cc4795493fdd04793c93fbd04792493f9d04790c93f7d0478f493f5d0478dc93f3d0478c493f1d0478ac93efd04780c93edd0477f493ebd0477dc93e9d0477c493e7d0477b493e5d04774493e3d04773493e1d04766893dfd04765893ddd04764493dbd04763493d9d0475d093d7d0475b493d5d04757893d3d0474c493d1d0474ac93cfd04744493cdd04743493cbd04741093c9d04648c93c7d04647c93c5d04646893c3d04645493c1104812c96becc4813496bccc4813c96bacc4814496b8cc4814c96b6cc4815496b4cc4821c96b2cc4816096b0cc4816896aecc4817096accc4817896aacc4818096a8cc4841096a6cc4818896a4cc4819096a2cc4819896a0cc481a0969ecc48230969ccc481a8969acc481b09698cc481b89696cc481c09694cc481c89692cc481d09690cc481d8968ecc481e0968ccc)
  (.lf 0)))

def shaWireTree330 : BTree :=
  .nd (.nd (.nd (.lf
  0x61e34d1683061cf4d1667861dc4d166b461dc8d1663061c94d1647861ce8d164b461cecd1643061c58d1627861c88d162b461c8cd1623061b40d1607861c4cd160b461c50d1603061b04d15e7861b34d15eb461b38d15e3061abcd15c7861af8d15cb461afcd15c3061a6cd15a7861ab0d15ab461ab4d15a3061a1cd1587861a60d158b461a64d15830619c4d1567861a10d156b461a14d15630616c0d15478619b8d154b4619bcd1543061644d15278616b4d152b4616b8d152306160cd1507861638d150b46163cd15030615d0d14e78615fcd14eb461600d14e30614dcd14c78615c4d14cb4615c8d14c3061430d14a78614d0d14ab4614d4d14a30613d4d1487861424d148b461428d1483061380d14678613c8d146b4613ccd146306135cd1447861360d144b461378d1443061078d14278612c4d142b4612c8d1423062628d1bc7862624d1bcb46262cd1bc3062600d1ba7862618d1bab46261cd1ba30)
  (.lf 0)) (.nd (.lf
  0x5c808b81d2c5c7c4b81b2c5c780b8192c5c73cb8172c5c6fcb8152c5c6b8b8132c5c670b8112c5c628b80f2c5c570b80d2c5c544b80b2c5c518b8092c5c4f8b8072c5c4d4b8052c5c2ccb8032c5c2a0b800cc5eea0bc3f2c5ed00bc3d2c5ececbc3b2c5ecd4bc392c5ecb8bc372c5eca4bc352c5ec94bc332c5ec84bc312c5ec64bc2f2c5ec48bc2d2c5ec30bc2b2c5ec1cbc292c5ed24bc272c5ebf8bc252c5ebe8bc232c5ebecbc212c5ed28bc1f2c5eb78bc1d2c5eb48bc1b2c5eb18bc192c5eab0bc172c5eab4bc152c5ea8cbc132c5ea84bc112c5e814bc0f2c5e7dcbc0d2c5e734bc0b2c5e780bc092c5e6ecbc072c5e6a4bc052c5e6b0bc032c5e5ecbc00cc60e90c03f2c60e74c03d2c60e40c03b2c60e14c0392c60e0cc0372c60de4c0352c60dd0c0332c60d40c0312c60d08c02f2c60ce8c02d2c60cb0c02b2c60c90c0292c60c54c0272c60c14c0252c60bf8c0232c60be4c0212c60bccc01f2c)
  (.lf 0))) (.nd (.nd (.lf
  0x113602ad630112602ad4b4112dc2ad478112e02ad430111dc2ad2b4112542ad278112582ad230111542ad0b4111d02ad078111d42ad030110c82aceb4111482ace781114c2ace30110442accb4110bc2acc78110c02acc3010fbc2acab4110382aca781103c2aca3010f302ac8b410fb02ac87810fb42ac83010ea42ac6b410f242ac67810f282ac63010e182ac4b410e982ac47810e9c2ac43010db02ac2b410e0c2ac27810e102ac23011c482b3aaa11abc2b34aa118302b2aaa117a42b28aa115982b20aa1150c2b1eaa112802b14aa111742b10aa110e82b0eaa10fdc2b0aaa10f502b08aa10ec42b06aa10e382b04aa11d142b3d4011c142b394011a882b3340117fc2b29f4117702b2740115642b1ff4114d82b1d401124c2b1340111402b0ff4110b42b0d4010fa82b09f410f1c2b07f410e902b05f411ca02b3bf411d102b3ca011c182b3a1e11c982b3ab411c9c2b3a1411b942b374011c102b38a0)
  (.lf 0)) (.nd (.lf
  0x12bec3d57d012b603d55d012ad03d53d012a543d51d0129c83d4fd01293c3d4dd0128ac3d4bd01282c3d49d0127ac3d47d01272c3d45d0126b03d43d0126583d4110136243dbecc135b03dbccc135503dbacc134a43db8cc134443db6cc133983db4cc133383db2cc1328c3db0cc1322c3daecc131ac3daccc1312c3daacc130ac3da8cc130003da6cc12f743da4cc12f143da2cc12e943da0cc12e143d9ecc12d683d9ccc12cdc3d9acc12c503d98cc12bc43d96cc12b383d94cc12ad83d92cc12a2c3d90cc129a03d8ecc129143d8ccc128b43d8acc128343d88cc127b43d86cc127343d84cc126883d82cc135c03dbdd0135303dbbd0134b43db9d0134243db7d0133a83db5d0133183db3d01329c3db1d01320c3dafd01318c3dadd01310c3dabd01308c3da9d0130103da7d012f843da5d012ef43da3d012e743da1d012df43d9fd012d783d9dd012cec3d9bd012c603d99d012bd43d97d012b483d95d0)
  (.lf 0)))

def shaWireTree331 : BTree :=
  .nd (.nd (.nd (.lf
  0x5d1bcbb14aa5c69cbb10aa5c64cbb0eaa5c598bb04aa5df7cbb3c1e5df80bb3cb45df84bb3c145dd58bb3a1e5df70bb3ab45df74bb3a145dd2cbb381e5dd34bb38b45dd38bb38145dd1cbb35f45dd24bb36a05dafcbb341e5daf8bb34b45db00bb34145dae8bb31405daf0bb32a05da0cbb2f405dae4bb30a05da00bb2d405da08bb2ea05d9f4bb2b405d9fcbb2ca05d978bb29405d980bb2aa05d860bb27f45d974bb28a05d83cbb261e5d840bb26b45d844bb26145d828bb241e5d830bb24b45d834bb24145d7c8bb221e5d7c4bb22b45d820bb22145d75cbb1f405d7b8bb20a05d654bb1d405d758bb1ea05d648bb1bf45d650bb1ca05d63cbb1a1e5d638bb1ab45d640bb1a145d5d0bb181e5d5d4bb18b45d630bb18145d56cbb15f45d5c8bb16a05d560bb141e5d564bb14b45d568bb14145d4acbb11f45d4b4bb12a05d4a4bb101e5d450bb10b45d4a8bb10145d3e8bb0e1e5d440bb0eb45d444bb0e14)
  (.lf 0)) (.nd (.lf
  0x4917896d72c4916096d52c4913896d32c4912496d12c4922c96cf2c4916496cd2c490b496cb2c48dd496c92c48d3096c72c48ca496c52c48c2896c32c48bbc96c0cc4c1549aff2c4c1389afd2c4c15c9afb2c4bdcc9af92c4bdc09af72c4bda09af52c4be309af32c4bd4c9af12c4bc2c9aef2c4bac89aed2c4baac9aeb2c4b9cc9ae92c4b9d89ae72c4b9089ae52c4b8589ae32c4b7349ae12c4b6e09adf2c4b6889add2c4b6389adb2c4b5cc9ad92c4b4e49ad72c4b4589ad52c4b3e49ad32c4b36c9ad12c4b2f89acf2c4b28c9acd2c4b1949acb2c4b1189ac92c4b0a49ac72c4b02c9ac52c4afbc9ac32c4e0f09eff2c4e0e49efd2c4dffc9efb2c4dfdc9ef92c4df5c9ef72c4de789ef52c4de049ef32c4dd6c9ef12c4dc849eef2c4db349eed2c4db209eeb2c4db009ee92c4dad89ee72c4d9b49ee52c4d99c9ee32c4d9cc9ee12c4d8849edf2c4d9149edd2c4d7e89edb2c4d8909ed92c4d7789ed72c)
  (.lf 0))) (.nd (.nd (.lf
  0x2764c509c7827654509c30275b8509ab4275b4509a78275bc509a30275185098b4275145098782751c5098302747c5096b42747850967827480509630273dc5094b4273d8509478273e0509430273385092b4273345092782733c5092302729c5090b427298509078272a050903027204508eb427200508e7827208508e302716c508cb427168508c7827170508c30270cc508ab4270c8508a78270d0508a30270285088b4270245088782702c50883026f8c5086b426f8850867826f9050863026eec5084b426ee850847826ef050843026e485082b426e4450827826e4c5082301bf6c507cb41bf68507c781bf70507c301bf58507ab41bf54507a781bf5c507a301bf445078b41bf405078781bf485078301bf305076b41bf2c5076781bf345076301bf1c5074b41bf185074781bf205074301bf085072b41bf045072781bf0c5072301bef45070b41bef05070781bef85070301bee0506eb41bedc506e78)
  (.lf 0)) (.nd (.lf
  0x7fb412dbd007f3012d9d007eb012d7d007e3012d5d007db012d3d007d2812d1d007ca412cfd007c2412cdd007b9c12cbd007b1812c9d007a9012c7d007a0412c5d00798012c3d0078dc12c1100727c13fecc0728413fccc0728c13facc0729413f8cc0729c13f6cc072a413f4cc072ac13f2cc072b413f0cc072bc13eecc072c413eccc072cc13eacc072d413e8cc072dc13e6cc072e413e4cc072ec13e2cc072f413e0cc072fc13decc0730413dccc0730c13dacc0731413d8cc0731c13d6cc0732413d4cc0732c13d2cc0733413d0cc0733c13cecc0734413cccc0734c13cacc0735413c8cc0735c13c6cc0736413c4cc0736c13c2cc075d013fdd0075bc13fbd0075a813f9d00759413f7d00758013f5d00756c13f3d00755813f1d00754413efd00753013edd00751c13ebd00750813e9d0074f413e7d0074e013e5d0074cc13e3d0074b813e1d0074a413dfd00749013ddd00747c13dbd00746813d9d0)
  (.lf 0)))

def shaWireTree332 : BTree :=
  .nd (.nd (.nd (.lf
  0x5779000144b57794001449577980014475779c001445577a0001443577a4001441577a800143f577ac00143d577b000143b577b4001439577b8001437577bc001435577c0001433577c4001431577c800142f577cc00142d577d000142b577d4001429577d8001427577dc00142558b5800142358b5c00142158b6000141f58b6400141d58b6800141b58b6c00141958b7000141758b7400141558b7800141358b7c00141158b8000140f58b8400140d58b8800140b58b8c00140958b9000140758b9400140558b9800140358b9c00140158ba00013ff58ba40013fd58ba80013fb58bac0013f95a5c40013f75a5c80013f55a5cc0013f35a5d00013f15a5d40013ef5a5d80013ed5a5dc0013eb5afa40013e95afa80013e75afac0013e55afb00013e35afb40013e15afb80013df5afbc0013dd5afc00013db5afc40013d95afc80013d75afcc0013d55afd00013d35afd40013d15afd80013cf5afdc0013cd)
  (.lf 0)) (.nd (.lf
  0x34bac77a07834bb0779e7834bb4779c7834bb8779a7834bbc77987834bc077967834bc477947834bc877927834bcc77907834bd0778e783482c778c7834830778a783483477887834838778678351007784783483c778278350c477807836fd877be3036fdc77bc3036fe077ba3036fe477b83036ebc77b63036e6c77b43036e7077b23036e7477b03036e7877ae3036e7c77ac3036dd877aa3036da477a83036d3c77a63036d4077a43036d4477a23036d4877a03036d4c779e3036cbc779c3036c48779a3036c4c77983036c5077963036c5477943036c5877923036c5c77903036bac778e30367bc778c3036724778a30367287788303672c778630367307784303673477823036738778030390607bbeb438fd87bbcb438f6c7bbab438edc7bb8b438e647bb6b438db07bb4b438d407bb2b438c987bb0b438c247baeb438b787bacb438b2c7baab438a887ba8b438a487ba6b4389d87ba4b4389947ba2b4)
  (.lf 0))) (.nd (.nd (.lf
  0x256304eec78256344eec30255cc4eeab4255f84eea78255fc4eea30255944ee8b4255c04ee878255c44ee830255544ee6b4255884ee6782558c4ee630255104ee4b4255484ee4782554c4ee430254d44ee2b4255044ee278255084ee2302549c4ee0b4254c84ee078254cc4ee0302545c4edeb4254904ede78254944ede30254204edcb4254504edc78254544edc30253e04edab4254144eda78254184eda30253a44ed8b4253d44ed878253d84ed8302536c4ed6b4253984ed6782539c4ed630253344ed4b4253604ed478253644ed430252fc4ed2b4253284ed2782532c4ed230252bc4ed0b4252f04ed078252f44ed030252784eceb4252b04ece78252b44ece30252344eccb42526c4ecc78252704ecc30251f84ecab4252284eca782522c4eca30251c04ec8b4251ec4ec878251f04ec830251804ec6b4251b44ec678251b84ec630251504ec4b4251744ec478251784ec430251344ec2b4251444ec278)
  (.lf 0)) (.nd (.lf
  0x5945cc14fd059424c14dd059404c14bd0593f0c149d0593ccc147d058310c145d058284c143d0581b4c1411058b08c1becc58ad0c1bccc58ab4c1bacc58aa4c1b8cc58a84c1b6cc58a78c1b4cc58a68c1b2cc58a4cc1b0cc58a38c1aecc58958c1accc58938c1aacc58920c1a8cc58908c1a6cc588b4c1a4cc58884c1a2cc5886cc1a0cc58854c19ecc587e4c19ccc587b4c19acc58790c198cc58764c196cc58550c194cc5851cc192cc584e4c190cc58498c18ecc58454c18ccc58424c18acc583d0c188cc5837cc186cc58744c184cc5828cc182cc5900cc1bdd058ff8c1bbd058f78c1b9d058f68c1b7d058f54c1b5d058f40c1b3d058f2cc1b1d058f18c1afd058f04c1add058ef0c1abd058edcc1a9d058ec8c1a7d058e98c1a5d058e34c1a3d058e20c1a1d058e0cc19fd058df8c19dd058dccc19bd058db8c199d058d80c197d058d40c195d058d30c193d058d20c191d058d00c18fd058ce0c18dd0)
  (.lf 0)))

def shaWireTree333 : BTree :=
  .nd (.nd (.nd (.lf
  0x76e90df2ea076d40df2bf476ddcdf2ca076ca8df2a1e76d38df2ab476d3cdf2a1476c1cdf27f476ca0df28a076b94df261e76c14df26b476c18df261476b0cdf241e76b88df24b476b8cdf241476a8cdf221e76b00df22b476b04df221476a10df1f4076a84df20a076998df1df476a0cdf1ea07691cdf1c1e76990df1cb476994df1c147689cdf1a1e76910df1ab476914df1a1476820df17f476894df18a0767a4df161e76818df16b47681cdf161476530df141e7652cdf14b47679cdf141476514df121e76520df12b476524df1214764fcdf101e76508df10b47650cdf1014764f0df0e1e764e4df0eb4764f4df0e14764c8df0c1e764d0df0cb4764d4df0c1476428df0a1e764bcdf0ab4764c0df0a1476418df081e7641cdf08b476420df0814762f8df054076410df06a0762e4df03f4762f4df04a0762dcdf02b4762e0df021476024dffc7876020dffcb47602cdffc3076014dffa787600cdffab4)
  (.lf 0)) (.nd (.lf
  0x49a8400577d498ec00577b49938005779498f40057774986800577549a4400577349a4c005771499c400576f4999400576d49a8800576b498f80057694993c00576749900005765498700057634983c0057614bb5400575f4ba8400575d4c28800575b4c2140057594c1c40057574bff80057554bf740057534bf400057514bef400574f4bdf800574d4bc7c00574b4bb100057494bb580057474c28c0057454c2180057434c1c80057414c00000573f4bf7c00573d4bf4400573b4bef80057394be000057374bc840057354c2900057334c21c0057314c1cc00572f4c00400572d4bf8000572b4bf4c0057294bf000057274be080057254bc8c0057234bb180057214dc0c00571f4dc1000571d4e18c00571b4e1200057194e0780057174e0800057154dfa00057134debc0057114de4c00570f4ddd800570d4dd3000570b4dcd00057094dc140057074e1940057054e1280057034e0880057014e0900056ff)
  (.lf 0))) (.nd (.nd (.lf
  0x452388c7a30452088c78b4452048c78784520c8c7830451dc8c76b4451d88c7678451e08c7630451b08c74b4451ac8c7478451b48c7430451808c72b44517c8c7278451848c7230451508c70b44514c8c7078451548c7030451208c6eb44511c8c6e78451248c6e30450f08c6cb4450ec8c6c78450f48c6c30450c08c6ab4450bc8c6a78450c48c6a30450908c68b44508c8c6878450948c6830450648c66b4450608c6678450688c6630450388c64b4450348c64784503c8c6430450088c62b4450048c62784500c8c623044fdc8c60b444fd88c607844fe08c603044fb08c5eb444fac8c5e7844fb48c5e3044f848c5cb444f808c5c7844f888c5c3044f588c5ab444f548c5a7844f5c8c5a3044f2c8c58b444f288c587844f308c583044f008c56b444efc8c567844f048c563044ed48c54b444ed08c547844ed88c543044ea88c52b444ea48c527844eac8c523044e7c8c50b444e788c507844e808c5030)
  (.lf 0)) (.nd (.lf
  0x2633453f0cc2625853eecc2626053eccc2626853eacc2627053e8cc2627853e6cc2646053e4cc2646853e2cc2647053e0cc2647853decc2648053dccc2633c53dacc2628053d8cc2628853d6cc2629053d4cc2648853d2cc2649053d0cc2649853cecc264a053cccc264a853cacc2634453c8cc2629853c6cc262a053c4cc262a853c2cc266ac53fdd02669853fbd02668453f9d02667053f7d02665c53f5d02664853f3d02663453f1d02662053efd02660c53edd0265f853ebd0265e453e9d0265d053e7d0265bc53e5d0265a853e3d02659453e1d02658053dfd02656c53ddd02655853dbd02654453d9d02653053d7d02651c53d5d02650853d3d0264f453d1d0264e053cfd0264cc53cdd0264b853cbd02635453c9d0262f053c7d0262dc53c5d0262c853c3d0262b053c11028b2856becc28b3056bccc28b3856bacc28b4056b8cc28b4856b6cc28b5056b4cc28b5856b2cc28b6056b0cc28b6856aecc)
  (.lf 0)))

def shaWireTree334 : BTree :=
  .nd (.nd (.nd (.lf
  0x30b98754ab430ba0754a3030b7875487830b747548b430b7c75483030b5475467830b507546b430b5875463030b3075447830b2c7544b430b3475443030b0c75427830b087542b430b1075423030a5075bc7830a4c75bcb430a5475bc3030a3c75ba7830a3875bab430a4075ba3030a2875b87830a2475b8b430a2c75b83030a1475b67830a1075b6b430a1875b63030a0075b478309fc75b4b430a0475b430309ec75b278306fc75b2b4309f075b230306f075b0783067c75b0b4306f475b0303067075ae78305fc75aeb43067475ae30305f075ac783057c75acb4305f475ac303057075aa78304f475aab43057475aa30304e875a8783046875a8b4304ec75a8303045c75a678303e475a6b43046075a630303d875a4783036475a4b4303dc75a4303035875a278302e475a2b43035c75a230302d875a0783025c75a0b4302dc75a03030250759e78301d0759eb430254759e30301c4759c7830144759cb4)
  (.lf 0)) (.nd (.lf
  0x2abd8589d2c2ab60589b2c2aaec58992c2aa7458972c2aa0458952c2a99858932c2a92458912c2a8ac588f2c2a834588d2c2a7c4588b2c2a75058892c2a6d458872c2a66c58852c2a5ec58832c2a5b05880cc208285cbf2c207b05cbd2c207005cbb2c2063c5cb92c205845cb72c204cc5cb52c204105cb32c203545cb12c202a05caf2c201e05cad2c201285cab2c200705ca92c1ffb45ca72c1fef05ca52c1fe385ca32c1fd785ca12c1fcb85c9f2c1fbfc5c9d2c1fb405c9b2c1fa7c5c992c1f9c45c972c1f9045c952c1f84c5c932c1f7945c912c1f6d85c8f2c1f6145c8d2c1f5545c8b2c1f4985c892c1f3e45c872c1f32c5c852c1f2685c832c1f1cc5c80cc2e8dc60bf2c2e87860bd2c2e80860bb2c2e79060b92c2e71460b72c2e6a060b52c2e63060b32c2e5c060b12c2e55460af2c2e4e860ad2c2e47060ab2c2e3f460a92c2e37c60a72c2e30460a52c2e28c60a32c2e21c60a12c2e1b0609f2c)
  (.lf 0))) (.nd (.nd (.lf
  0x388c06a830037fc06a678037f806a6b40380006a6300377806a4780377406a4b40377c06a430036f006a278036ec06a2b4036f406a2300366406a0780366006a0b40366806a030035d8069e78035d4069eb4035dc069e3003554069c7803550069cb403558069c30034cc069a78034c8069ab4034d0069a3003448069878034440698b40344c069830033c8069678033c40696b4033cc06963003348069478033440694b40334c069430032c0069278032bc0692b4032c40692300323c069078032380690b403240069030031bc068e78031b8068eb4031c0068e3003134068c7803130068cb403138068c30030b0068a78030ac068ab4030b4068a30030300688780302c0688b40303406883002fa806867802fa40686b402fac06863002f2406847802f200684b402f2806843002ea406827802ea00682b402ea8068230005b0067cb4005ac067c78005b4067c300059c067ab400598067a78005a0067a30)
  (.lf 0)) (.nd (.lf
  0x68eb0d3cdd068ea0d3cbd068bf8d3c9d068be8d3c7d068a98d3c5d068a24d3c3d0689d4d3c1106b3bcd6becc6b398d6bccc6b468d6bacc6b424d6b8cc6b2f4d6b6cc6b488d6b4cc6b3dcd6b2cc6b414d6b0cc6b3e8d6aecc6b454d6accc6b318d6aacc6b49cd6a8cc6b3f0d6a6cc6b3f8d6a4cc6b43cd6a2cc6b470d6a0cc6b4a4d69ecc6b320d69ccc6b328d69acc6b330d698cc6b478d696cc6b24cd694cc6b254d692cc6b704d690cc6b1d4d68ecc6b400d68ccc6b408d68acc6b410d688cc6b444d686cc6b338d684cc6b4b0d682cc6b6fcd6bdd06b6e8d6bbd06b6d4d6b9d06b6c0d6b7d06b6acd6b5d06b698d6b3d06b684d6b1d06b670d6afd06b65cd6add06b648d6abd06b634d6a9d06b620d6a7d06b60cd6a5d06b5f8d6a3d06b5e0d6a1d06b5d0d69fd06b5bcd69dd06b5a8d69bd06b594d699d06b580d697d06b56cd695d06b558d693d06b544d691d06b534d68fd06b51cd68dd06b508d68bd0)
  (.lf 0)))

def shaWireTree335 : BTree :=
  .nd (.nd (.nd (.lf
  0x4915496d4304913496d2b44914096d2784914496d2304912896d0b44912096d0784912c96d0304911496ceb44911096ce784911896ce304910496ccb4490b096cc784910896cc30490a096cab4490a496ca78490a896ca3048dcc96c8b448d8496c8784909896c83048d2896c6b448cb496c67848d7c96c63048ca896c4b448bb496c47848cac96c43048ba896c2b448b9c96c27848bac96c23049700973caa496e4973aaa496cc9738aa496a89734aa496889732aa497f8972caa494d4972aaa494ac9726aa494f89722aa4917c9716aa4913c9712aa49230970eaa490b8970aaa48dd89708aa48d349706aa48c309702aa497d4973df4497b8973bf4497a09739f449790973740497649733f44974c9731404960c972bf4495ec97294049504972540492d8972140492809715404925897114049188970d4048dfc9709f448d5c9707f448cc0970540497bc973c1e497cc973cb4497d0973c14497a4973a1e)
  (.lf 0)) (.nd (.lf
  0x4694892932c4672492912c46710928f2c466f0928d2c46af0928b2c466cc92892c46a2892872c466ac92852c4695892832c4664c9280cc4849c96bf2c4848896bd2c4847496bb2c4846096b92c4844c96b72c4843896b52c4842896b32c4840496b12c4840c96af2c483e096ad2c483d496ab2c483b896a92c4841496a72c4839096a52c4837c96a32c4836896a12c48354969f2c483e4969d2c48330969b2c4832096992c4830c96972c482f496952c482e896932c482d896912c482b8968f2c482bc968d2c48294968b2c4827c96892c4826896872c4825496852c4824096832c4824c9680cc4a7f49abf2c4a7e49abd2c4a7cc9abb2c4a7bc9ab92c4a7a49ab72c4a78c9ab52c4a7849ab32c4a7689ab12c4a7909aaf2c4a7449aad2c4a7389aab2c4a7309aa92c4a7349aa72c4a6f09aa52c4a6dc9aa32c4a6cc9aa12c4a6c09a9f2c4a6a49a9d2c4a6989a9b2c4a6789a992c4a6649a972c4a6509a952c)
  (.lf 0))) (.nd (.nd (.lf
  0x5d79cbe20505d718be1e505d6a4be1c505d688be1a505d610be18505d58cbe16505d500be14505d514be12505d48cbe10505d414be0e505d3d8be0c505d344be0a505d324be08505d288be06505d268be04505d1dcbe02505c480be00505e05cc23e785dfa4c23c785df38c23a785dd78c238785dda0c236785dc38c234785dc18c232785dbb4c230785da54c22e785db90c22c785d9ccc22a785d920c228785d8d0c226785d8bcc224785d80cc222785d7a4c220785d710c21e785d6acc21c785d690c21a785d618c218785d594c216785d508c214785d51cc212785d494c210785d41cc20e785d3d0c20c785d34cc20a785d32cc208785d290c206785d270c204785d1e4c202785c488c20078602d4c23e5060280c23c50600a8c23a50600acc23850600b0c23650600b4c23450600b8c232506002cc230505fcc4c22e505fcc8c22c505fcccc22a505fcd0c228505fcd4c226505f3e4c224505f3b0c22250)
  (.lf 0)) (.nd (.lf
  0x5ec5cbc2dd05ec44bc2bd05ec2cbc29d05ec18bc27d05ec08bc25d05ebf0bc23d05ebd8bc21d05ebc8bc1fd05ebb8bc1dd05eb70bc1bd05eb40bc19d05eb10bc17d05eaacbc15d05ea9cbc13d05ea88bc11d05ea74bc0fd05e800bc0dd05e748bc0bd05e730bc09d05e720bc07d05e6e8bc05d05e6a0bc03d05e5e0bc01105c9e0c0becc5c920c0bccc5c928c0bacc5c930c0b8cc5c938c0b6cc5c940c0b4cc5c948c0b2cc5c950c0b0cc5c958c0aecc5c960c0accc5d024c0aacc5cfa8c0a8cc5cf34c0a6cc5cebcc0a4cc5ce2cc0a2cc5cdb0c0a0cc5cd28c09ecc5d02cc09ccc5cfb0c09acc5d048c098cc5cfc8c096cc5cf4cc094cc5cec4c092cc5ce34c090cc5cdb8c08ecc5cd30c08ccc5cc98c08acc5cc2cc088cc5cba8c086cc5cb34c084cc5cab8c082cc5d1acc0bdd05d198c0bbd05d180c0b9d05d16cc0b7d05d158c0b5d05d144c0b3d05d130c0b1d05d11cc0afd05d10cc0add05d0f8c0abd0)
  (.lf 0)))

def shaWireTree336 : BTree :=
  .nd (.nd (.nd (.lf
  0x6f8ace9bf2c6f808e9bd2c6f8e0e9bb2c6f7b8e9b92c6f770e9b72c6f840e9b52c6f704e9b32c6f714e9b12c6f6a4e9af2c6f6c4e9ad2c6f658e9ab2c6f634e9a92c6f604e9a72c6f5a4e9a52c6f574e9a32c6f560e9a12c6f588e99f2c6f4ece99d2c6f4f0e99b2c6f4cce9992c6f4a8e9972c6ef7ce9952c6ef5ce9932c6ef94e9912c6ef10e98f2c6ef28e98d2c6eee8e98b2c6e304e9892c6e2bce9872c6e26ce9852c6e22ce9832c6e1f0e980cc7778cedbf2c77618edbd2c774a0edbb2c77344edb92c771e0edb72c770ccedb52c76fb0edb32c76eb0edb12c76e58edaf2c76d4cedad2c76d00edab2c76c2ceda92c76bdceda72c76b54eda52c76ad4eda32c76a24eda12c769b4ed9f2c76934ed9d2c768bced9b2c76834ed992c767b0ed972c76770ed952c765b4ed932c76594ed912c76570ed8f2c76550ed8d2c765e8ed8b2c76480ed892c763d8ed872c76310ed852c76340ed832c6fd04ed80cc)
  (.lf
  0x3d4607c74cc3d4687c72cc3d4707c70cc3d4787c6ecc3d4807c6ccc3d4887c6acc3d4907c68cc3d4987c66cc3d4a07c64cc3d4a87c62cc3d4b07c60cc3d4b87c5ecc3d4c07c5ccc3d4c87c5acc3d4d07c58cc3d4d87c56cc3d4e07c54cc3d4e87c52cc3d4f07c50cc3d4f87c4ecc3d5007c4ccc3d5087c4acc3d5107c48cc3d5187c46cc3d5207c44cc3d5287c42cc3dd747c7dd03dd347c7bd03dcf07c79d03dca87c77d03dc647c75d03dc207c73d03dbdc7c71d03db987c6fd03db547c6dd03db107c6bd03dacc7c69d03da887c67d03da447c65d03da007c63d03d9bc7c61d03d9787c5fd03d9307c5dd03d8e87c5bd03d8a07c59d03d8587c57d03d8107c55d03d7c87c53d03d7807c51d03d7387c4fd03d6f07c4dd03d6ac7c4bd03d6647c49d03d61c7c47d03d5d87c45d03d5947c43d03d5307c41103dd7c7c3ecc3dd3c7c3ccc3dcf87c3acc3dcb07c38cc3dc6c7c36cc3dc287c34cc3dbe47c32cc))
  (.nd (.lf
  0x79780002a81797d4002a7f796c8002a7d796bc002a7b795e0002a79795c8002a7779528002a75794b8002a7379440002a7179420002a6f794c8002a6d793cc002a6b793ac002a69793c0002a6779370002a6579344002a63792fc002a6179c0c002a5f79b78002a5d7a018002a5b79fd8002a5979f2c002a5779f64002a5579ef8002a5379ec4002a5179e18002a4f79e88002a4d79e44002a4b79d80002a4979da0002a477a03c002a4579fec002a4379f80002a4179f8c002a3f79fb0002a3d79ed8002a3b79e20002a3979e8c002a377ae78002a3579d7c002a3379d9c002a3179d40002a2f79d20002a2d79cf8002a2b79cd8002a2979cac002a277ae84002a2579c60002a2379c30002a217b1a8002a1f7b930002a1d7b6f4002a1b7b6c4002a197b698002a177b608002a157b628002a137b724002a117b4ac002a0f7b454002a0d7b374002a0b7b3e4002a097b3b8002a077b6f8002a057b6d4002a03)
  (.lf 0))) (.nd (.nd (.lf
  0x3a4e47b17403a5887b18a03a4c47b15403a4e07b16a03a49c7b13f43a4c07b14a03a44c7b121e3a4947b12b43a4987b12143a3e47b101e3a3e07b10b43a3e87b10143a0f87b0df43a3d87b0ea03a0e07b0c1e3a0f07b0cb43a0f47b0c143a0cc7b09f43a0d87b0aa03a0c07b081e3a0c47b08b43a0c87b08143a0a47b05403a0b07b06a039df87b03403a0a07b04a039df47b02a0392847bfc78392807bfcb4392887bfc303926c7bfa78392707bfab4392747bfa30392547bf8783925c7bf8b4392607bf830392487bf678392447bf6b43924c7bf6303922c7bf478392287bf4b4392387bf430392187bf2783921c7bf2b4392207bf230392047bf0783920c7bf0b4392107bf030391f47bee78391f07beeb4391f87bee30391dc7bec78391e47becb4391e87bec30391d07bea78391cc7beab4391d47bea30391bc7be878391b47be8b4391c07be830391a07be678391a87be6b4391ac7be630391907be478)
  (.lf 0)) (.nd (.lf
  0x76b01213b0076b41211b0076b8120fb0076bc120db0076c0120bb0076c41209b0076c81207b0076cc1205b0076d01203b0076d41201b008f38163fb008f3c163db008f40163bb008f441639b008f481637b008f4c1635b008f501633b008f541631b008f58162fb008f5c162db008f60162bb008f641629b008f681627b008f6c1625b008f701623b008f741621b008f78161fb008f7c161db008f80161bb008f841619b008f881617b008f8c1615b008f901613b008f941611b008f98160fb008f9c160db008fa0160bb008fa41609b008fa81607b008fac1605b008fb01603b008fb41601b00a81c1a3fb00a8201a3db00a8241a3bb00a8281a39b00a82c1a37b00a8301a35b00a8341a33b00a8381a31b00a83c1a2fb00a8401a2db00a8441a2bb00a8481a29b00a84c1a27b00a8501a25b00a8541a23b00a8581a21b00a85c1a1fb00a8601a1db00a8641a1bb00a8681a19b00a86c1a17b00a8701a15b0)
  (.lf 0)))

def shaWireTree337 : BTree :=
  .nd (.nd (.nd (.lf
  0xe09c3152b40e0a03152300df9c3150780e00c3150b40e0103150300df0c314e780df90314eb40df94314e300de8c314c780df00314cb40df04314c300de10314a780de80314ab40de84314a300dd943148780de043148b40de083148300dd1c3146780dd883146b40dd8c3146300dca83144780dd103144b40dd143144300dc5c3142780dc9c3142b40dca03142300eb7031bc780eaec31bcb40eb7431bc300eae031ba780ea7031bab40eae431ba300ea6431b8780e9e431b8b40ea6831b8300e9d831b6780e95431b6b40e9dc31b6300e94831b4780e8d431b4b40e94c31b4300e8c831b2780e85431b2b40e8cc31b2300e84831b0780e7d431b0b40e84c31b0300e7c831ae780e75431aeb40e7cc31ae300e74831ac780e6d431acb40e74c31ac300e6c831aa780e65431aab40e6cc31aa300e64831a8780e5d431a8b40e64c31a8300e5c831a6780e55831a6b40e5cc31a6300e54c31a4780e4cc31a4b4)
  (.lf 0)) (.nd (.lf
  0x1c804004f7d1c80c004f7b1c814004f791c81c004f771c824004f751c82c004f731c834004f711c83c004f6f1c844004f6d1c84c004f6b1c854004f691c85c004f671c864004f651c86c004f631c874004f611cadc004f5f1cae4004f5d1caec004f5b1cb68004f591cb70004f571cb78004f551cb80004f531cb88004f511cb90004f4f1cb98004f4d1cba0004f4b1cba8004f491cbb0004f471cbb8004f451cbc0004f431cbc8004f411cbd0004f3f1cbd8004f3d1cbe0004f3b1cbe8004f391cbf0004f371cbf8004f351cc00004f331cc08004f311cc10004f2f1cc18004f2d1cc20004f2b1cc28004f291cc30004f271cc38004f251cc40004f231cc48004f211ceb0004f1f1ceb8004f1d1cec0004f1b1cf3c004f191cf44004f171cf4c004f151cf54004f131cf5c004f111cf64004f0f1cf6c004f0d1cf74004f0b1cf7c004f091cf84004f071cf8c004f051cf94004f031cf9c004f011cfa4004eff)
  (.lf 0))) (.nd (.nd (.lf
  0x69cbcd8847869cc4d8843069c98d882b469c90d8827869c9cd882306dff0d87cb46dffcd87c786e000d87c306dfe0d87ab46dfe4d87a786dfe8d87a306dfd4d878b46dfd0d878786dfd8d878306dfbcd876b46dfb8d876786dfc0d876306dfacd874b46dfa4d874786dfb0d874306df94d872b46df90d872786df98d872306df7cd870b46df70d870786df80d870306df58d86eb46df60d86e786df68d86e306df44d86cb46df48d86c786df50d86c306df34d86ab46df28d86a786df38d86a306df1cd868b46df10d868786df20d868306df04d866b46def4d866786df08d866306dee8d864b46dee4d864786deecd864306deccd862b46ded0d862786ded4d862306deb8d860b46debcd860786dec0d860306dea8d85eb46de9cd85e786deacd85e306de8cd85cb46de88d85c786de90d85c306de78d85ab46de7cd85a786de80d85a306de64d858b46de58d858786de68d858306de40d856b46de4cd85678)
  (.lf 0)) (.nd (.lf
  0x4de60a3c6cc4ddeca3c4cc4dd48a3c2cc4e354a3fdd04e340a3fbd04e32ca3f9d04e318a3f7d04e304a3f5d04e2f4a3f3d04e2dca3f1d04e2c8a3efd04e2b4a3edd04e2a0a3ebd04e288a3e9d04e274a3e7d04e260a3e5d04e24ca3e3d04e238a3e1d04e228a3dfd04e214a3ddd04e200a3dbd04e1e8a3d9d04e1d8a3d7d04e1c4a3d5d04e1b0a3d3d04e144a3d1d04e0c8a3cfd04e0b4a3cdd04dfc4a3cbd04dedca3c9d04de70a3c7d04ddfca3c5d04dd54a3c3d04dcdca3c11050750a6becc50734a6bccc50764a6bacc506fca6b8cc50704a6b6cc506b4a6b4cc5079ca6b2cc507a4a6b0cc507aca6aecc507b4a6accc507bca6aacc507c4a6a8cc507cca6a6cc507d4a6a4cc507dca6a2cc507e4a6a0cc507eca69ecc50654a69ccc5065ca69acc50664a698cc5066ca696cc50674a694cc5067ca692cc50684a690cc50538a68ecc507f4a68ccc507fca68acc50804a688cc5080ca686cc50814a684cc)
  (.lf 0)))

def shaWireTree338 : BTree :=
  .nd (.nd (.nd (.lf
  0x6c0ace590786c098e590b46c0b0e590306c08ce58e786c088e58eb46c090e58e306c04ce58c786c048e58cb46c050e58c306c03ce58a786c038e58ab46c040e58a306c018e588786c020e588b46c030e588306bffce586786c00ce586b46c010e586306bccce584786bc30e584b46bff0e584306bbdce582786b8cce582b46bc28e582306f3b8e97c786f3bce97cb46f3c0e97c306f3ace97a786f388e97ab46f3b0e97a306f36ce978786f37ce978b46f380e978306f31ce976786f34ce976b46f350e976306f30ce974786f310e974b46f314e974306f2dce972786f2d8e972b46f2e0e972306f2a0e970786f29ce970b46f2a4e970306f24ce96e786f290e96eb46f294e96e306f23ce96c786f240e96cb46f244e96c306f1e4e96a786f1e0e96ab46f1e8e96a306f1d0e968786f1d4e968b46f1d8e968306f1a8e966786f1ace966b46f1b0e966306f19ce964786f194e964b46f1a0e964306f170e96278)
  (.lf 0)) (.nd (.lf
  0x1f1c039cb401f20039ab401f240398b401f280396b401f2c0394b401f300392b401f340390b401f38038eb401f3c038cb401f40038ab401f440388b401f480386b401f4c0384b401f500382b401f540380b401f5803be7801f5c03bc7801f6003ba7801f6403b87801f6803b67801f6c03b47801f7003b27801f7403b07801f7803ae7801f7c03ac7801f8003aa7801f8403a87801f8803a67801f8c03a47801f9003a27801f9403a07801f98039e7801f9c039c7801fa0039a7801fa403987801fa803967801fac03947801fb003927801fb403907801fb8038e7801fbc038c7801fc0038a7801fc403887801fc803867801fcc03847801fd003827801fd403807801fd803be3001fdc03bc3001fe003ba3001fe403b83001fe803b63001fec03b43001ff003b23001ff403b03001ff803ae3001ffc03ac300200003aa300200403a8300200803a6300200c03a4300201003a2300201403a03002018039e30)
  (.lf 0))) (.nd (.nd (.lf
  0x1422c3314141418c3311f4141d83312a01413c33101e141843310b414188331014140e8330df414134330ea014098330c1e140e0330cb4140e4330c141403c330a1e1408c330ab414090330a1413fe833081e140303308b41403433081413fe03306a013c0c33fc7813c0833fcb413c1033fc3013bf833fa7813bf433fab413bfc33fa3013be433f87813be033f8b413be833f83013bd033f67813bcc33f6b413bd433f63013bbc33f47813bb833f4b413bc033f43013ba833f27813ba433f2b413bac33f23013b9433f07813b9033f0b413b9833f03013b8033ee7813b7c33eeb413b8433ee3013b6c33ec7813b6833ecb413b7033ec3013b5833ea7813b5433eab413b5c33ea3013b4433e87813b4033e8b413b4833e83013b3033e67813b2c33e6b413b3433e63013b1c33e47813b1833e4b413b2033e43013b0833e27813b0433e2b413b0c33e23013af433e07813af033e0b413af833e03013ae033de78)
  (.lf 0)) (.nd (.lf
  0x258405d96cc258445d94cc258485d92cc2583c5d90cc258345d8ecc258845d8ccc259145d8acc258945d88cc258d05d86cc258f45d84cc258785d82cc25f205dbdd025ef85dbbd025ec45db9d025ce05db7d025cc85db5d025cb05db3d025c985db1d025c785dafd025c605dadd025c505dabd025c385da9d025c285da7d025c105da5d025bb45da3d025b9c5da1d025b8c5d9fd025b6c5d9dd025b5c5d9bd025b4c5d99d025b205d97d025af45d95d025a7c5d93d025a645d91d025a545d8fd025a445d8dd025a185d8bd0259ac5d89d0259585d87d02591c5d85d0258dc5d83d0258745d811028054617ecc27ffc617ccc27f64617acc27ec06178cc27e246176cc27d906174cc27cf06172cc27c546170cc27ba4616ecc27b00616ccc27a5c616acc279b86168cc2791c6166cc2787c6164cc277e06162cc277506160cc276a8615ecc2760c615ccc27574615acc274e06158cc274486156cc273986154cc)
  (.lf 0)))

def shaWireTree339 : BTree :=
  .nd (.nd (.nd (.lf
  0x6059cc3d47860598c3d4b4605a0c3d43060588c3d27860580c3d2b46058cc3d2306024cc3d07860530c3d0b46053cc3d03060238c3ce7860240c3ceb460244c3ce306022cc3cc7860224c3ccb460230c3cc3060214c3ca7860210c3cab46021cc3ca30601fcc3c87860200c3c8b460204c3c830601f0c3c6785ffa0c3c6b4601f4c3c6305fe68c3c4785fef8c3c4b45fefcc3c4305fe58c3c2785fe54c3c2b45fe5cc3c230628c8c6bc78628c0c6bcb4628ccc6bc30628acc6ba78628a8c6bab4628b8c6ba3062894c6b8786289cc6b8b4628a0c6b83062880c6b67862884c6b6b462888c6b63062874c6b4786286cc6b4b462878c6b43062860c6b2786285cc6b2b462864c6b2306284cc6b07862848c6b0b462850c6b03062838c6ae7862834c6aeb46283cc6ae3062824c6ac7862820c6acb462828c6ac3062810c6aa7862800c6aab462814c6aa30627f0c6a878627ecc6a8b4627f4c6a830627dcc6a678)
  (.lf 0)) (.nd (.lf
  0xb16c1b1cb40b0ec1b1ab40b06c1b18b40afec1b16b40af6c1b14b40aee81b134a0ae601b10b40addc1b0f4a0ad541b0cb40acd01b0b4a0ac481b08b40abc81b06b40ab501b04aa0aad81ac32c0aaa41ac0cc0d3401f3f4a0d2cc1f3cb40d2481f3b4a0d1c01f38b40d13c1f374a0d0b41f34b40d0301f334a0cfa41f314a0cf1c1f2eb40ce9c1f2cb40ce1c1f2ab40cd981f294a0cd0c1f274a0cc801f254a0cbf81f22b40cb781f20b40caf81f1eb40ca741f1d4a0c9ec1f1ab40c9681f194a0c8dc1f174a0c8501f154a0c7c41f134a0c73c1f10b40c6b81f0f4a0c62c1f0d4a0c5a41f0ab40c5201f094a0c4981f06b40c4141f054a0c38c1f02b40c3541f00aa0ebdc233f4a0eb64233d4a0eadc233ab40ea5823394a0e9cc23374a0e9442334b40e8c42332b40e8442330b40e7c4232eb40e744232cb40e6c4232ab40e6442328b40e5c42326b40e54023254a0e4b423234a0e42823214a0e39c231f4a)
  (.lf 0))) (.nd (.nd (.lf
  0x1f3f45c06301f2805c04b41f3385c04781f33c5c04301f1d85c02b41f2745c02781f2785c02302e8d060bcb42e8cc60bc782e8d460bc302e86c60bab42e86860ba782e87060ba302e7fc60b8b42e7f860b8782e80060b8302e78460b6b42e78060b6782e78860b6302e70860b4b42e70460b4782e70c60b4302e69460b2b42e69060b2782e69860b2302e62460b0b42e62060b0782e62860b0302e5b460aeb42e5b060ae782e5b860ae302e54860acb42e54460ac782e54c60ac302e4dc60aab42e4d860aa782e4e060aa302e46460a8b42e46060a8782e46860a8302e3e860a6b42e3e460a6782e3ec60a6302e37060a4b42e36c60a4782e37460a4302e2f860a2b42e2f460a2782e2fc60a2302e28060a0b42e27c60a0782e28460a0302e210609eb42e20c609e782e214609e302e1a4609cb42e1a0609c782e1a8609c302e130609ab42e12c609a782e134609a302e0c06098b42e0bc6098782e0c4609830)
  (.lf 0)) (.nd (.lf
  0xea3022f7d00e9a422f5d00e92022f3d00e8a022f1d00e82022efd00e7a022edd00e72022ebd00e6a022e9d00e62022e7d00e5a022e5d00e51822e3d00e48c22e1d00e40022dfd00e37422ddd00e2f022dbd00e26822d9d00e1e422d7d00e15c22d5d00e0d822d3d00e05022d1d00dfcc22cfd00df4422cdd00dec022cbd00de4022c9d00ddb822c7d00dd4022c5d00dccc22c3d00dc4022c1100d5e023fecc0d5e823fccc0d5f023facc0d5f823f8cc0d60023f6cc0d60823f4cc0d61023f2cc0d61823f0cc0d62023eecc0d62823eccc0d63023eacc0d63823e8cc0d64023e6cc0d64823e4cc0d65023e2cc0d65823e0cc0d66023decc0d66823dccc0d67023dacc0d67823d8cc0d68023d6cc0d68823d4cc0d69023d2cc0d69823d0cc0d6a023cecc0d6a823cccc0d6b023cacc0d6b823c8cc0d6c023c6cc0d6c823c4cc0d6d023c2cc0d93423fdd00d92023fbd00d90c23f9d00d8f823f7d00d8e423f5d0)
  (.lf 0)))

def shaWireTree340 : BTree :=
  .nd (.nd (.nd (.lf
  0x48528000c4b4a810000c494a814000c474a818000c454a81c000c434a820000c414a824000c3f4a828000c3d4a82c000c3b4a830000c394a834000c374a838000c354a83c000c334a840000c314a844000c2f4a848000c2d4a84c000c2b4a850000c294a854000c274a858000c254a85c000c234a860000c214a864000c1f4a868000c1d4a86c000c1b4a870000c194a874000c174a878000c154a87c000c134a880000c114cb24000c0f4cb28000c0d4cb2c000c0b4cb30000c094cb34000c074cb38000c054cb3c000c034cb40000c014cb44000bff4cb48000bfd4cb4c000bfb4cb50000bf94cb54000bf74cb58000bf54cb5c000bf34cb60000bf14cb64000bef4cb68000bed4cb6c000beb4cb70000be94cb74000be74cb78000be54cb7c000be34cb80000be14cb84000bdf4cb88000bdd4cb8c000bdb4cb90000bd94cb94000bd74ee48000bd54ee4c000bd34ee50000bd14ee54000bcf4ee58000bcd)
  (.lf 0)) (.nd (.lf
  0x4d9eca3a0b44d97ca39eb44d934a39cb44d8e0a39ab44d8bca398b44d78ca396b44d6f8a394b44d6d0a392b44d6a0a390b44d608a38eb44d5c0a38cb44d550a38ab44d484a388b44d488a386b44d48ca384b44d33ca382b44d224a380b44c27ca3be784c208a3bc784c1b8a3ba784bfeca3b8784bf68a3b6784bf34a3b4784bee8a3b2784bdeca3b0784bc70a3ae784bb04a3ac784bb48a3aa784ba7ca3a8784ba20a3a6784b958a3a4784b8b8a3a2784b81ca3a0784b7f8a39e784b7d0a39c784b7a8a39a784b624a398784b534a396784b4a0a394784b420a392784b3b0a390784b344a38e784b2d4a38c784b1cca38a784b154a388784b0e8a386784b074a384784aff0a382784af44a380784e178a3be304e114a3bc304e054a3ba304e02ca3b8304df7ca3b6304de9ca3b4304de28a3b2304ddb8a3b0304dd0ca3ae304dcb0a3ac304dbe0a3aa304dbbca3a8304db98a3a6304da78a3a4304da28a3a230)
  (.lf 0))) (.nd (.nd (.lf
  0x2903c57241428fc457214028ff85722a028f8c571ff428fc05720a028f4c571e1e28f84571eb428f88571e1428f10571b4028f44571ca028ed857194028f0c571aa028ea057174028ed45718a028e685715f428e9c5716a028e2857141e28e605714b428e6457141428dec57114028e205712a028db4570ff428de85710a028d74570e1e28dac570eb428db0570e1428d38570bf428d6c570ca028cf8570a1e28d30570ab428d34570a1428cbc5707f428cf05708a028c7c57061e28cb45706b428cb857061428c745704a02863457fc782863057fcb42863857fc302862057fa782861c57fab42862457fa302860c57f8782860857f8b42861057f830285f857f678285f457f6b4285fc57f630285e457f478285e057f4b4285e857f430285d057f278285cc57f2b4285d457f230285bc57f078285b857f0b4285c057f030285a857ee78285a457eeb4285ac57ee302859457ec782859057ecb42859857ec30)
  (.lf 0)) (.nd (.lf
  0x6a484e18ecc6a174e18ccc69fb4e18acc69f74e188cc69f0ce186cc69e74e184cc6b000e182cc6b3ace1bdd06b388e1bbd06b368e1b9d06b358e1b7d06b2e4e1b5d06b2c4e1b3d06b2b4e1b1d06b288e1afd06b274e1add06b264e1abd06b218e1a9d06b1f8e1a7d06b1d8e1a5d06b1ace1a3d06b188e1a1d06b124e19fd06b104e19dd06b0ece19bd06b0cce199d06b0bce197d06b0ace195d06b08ce193d06b068e191d06b040e18fd06b020e18dd06a03ce18bd06a02ce189d06a00ce187d069e80e185d069694e183d069568e181106d63ce57ecc6d390e57ccc6d35ce57acc6d2c0e578cc6d490e576cc6d1b0e574cc6cf68e572cc6cf80e570cc6cfa4e56ecc6cdece56ccc6cd54e56acc6cd34e568cc6cd0ce566cc6cc1ce564cc6cb04e562cc6cb0ce560cc6cac0e55ecc6c7c4e55ccc6c7ace55acc6c79ce558cc6c7e8e556cc6c6dce554cc6c124e552cc6bf78e550cc6bf54e54ecc6beb0e54ccc)
  (.lf 0)))

def shaWireTree341 : BTree :=
  .nd (.nd (.nd (.lf
  0x79a14e7e87879a10e7e8b479a18e7e83079a00e7e67879a04e7e6b479a08e7e630799f0e7e478799e0e7e4b4799f4e7e430799c8e7e278799d4e7e2b4799d8e7e230799bce7e078799b0e7e0b4799c0e7e03079998e7de787999ce7deb4799a8e7de307998ce7dc7879988e7dcb479990e7dc307996ce7da7879974e7dab479978e7da3079960e7d8787995ce7d8b479964e7d8307993ce7d67879948e7d6b47994ce7d63079904e7d4787990ce7d4b479934e7d430798e8e7d278798f0e7d2b4798f4e7d230797a0e7d078798c0e7d0b4798e0e7d03079750e7ce7879794e7ceb479798e7ce30796fce7cc7879744e7ccb479748e7cc30796ece7ca78796f0e7cab4796f4e7ca3079618e7c878796d8e7c8b4796dce7c83079590e7c6787960ce7c6b479610e7c63079540e7c47879584e7c4b479588e7c4307948ce7c278794f0e7c2b4794f4e7c2307aa54eabc787aa40eabcb47aa58eabc307aa30eaba78)
  (.lf 0)) (.nd (.lf
  0xa3001b9dd00a3041b9bd00a3081b99d00a30c1b97d00a3101b95d00a3141b93d00a3181b91d00a31c1b8fd00a3201b8dd00a3241b8bd00a3281b89d00a32c1b87d00a3301b85d00a3341b83d00a3381b81d00bb681fbfd00bb6c1fbdd00bb701fbbd00bb741fb9d00bb781fb7d00bb7c1fb5d00bb801fb3d00bb841fb1d00bb881fafd00bb8c1fadd00bb901fabd00bb941fa9d00bb981fa7d00bb9c1fa5d00bba01fa3d00bba41fa1d00bba81f9fd00bbac1f9dd00bbb01f9bd00bbb41f99d00bbb81f97d00bbbc1f95d00bbc01f93d00bbc41f91d00bbc81f8fd00bbcc1f8dd00bbd01f8bd00bbd41f89d00bbd81f87d00bbdc1f85d00bbe01f83d00bbe41f81d00d45c23bfd00d46023bdd00d46423bbd00d46823b9d00d46c23b7d00d47023b5d00d47423b3d00d47823b1d00d47c23afd00d48023add00d48423abd00d48823a9d00d48c23a7d00d49023a5d00d49423a3d00d49823a1d00d49c239fd0)
  (.lf 0))) (.nd (.nd (.lf
  0x49fa89ca2b449fa49ca27849fac9ca23049f949ca0b449f909ca07849f989ca03049f809c9eb449f7c9c9e7849f849c9e3049f6c9c9cb449f689c9c7849f709c9c3049f589c9ab449f549c9a7849f5c9c9a3049f449c98b449f409c987849f489c983049f309c96b449f2c9c967849f349c963049f1c9c94b449f189c947849f209c943049f089c92b449f049c927849f0c9c923049ef49c90b449ef09c907849ef89c903049ee09c8eb449edc9c8e7849ee49c8e3049ecc9c8cb449ec89c8c7849ed09c8c3049eb89c8ab449eb49c8a7849ebc9c8a3049ea49c88b449ea09c887849ea89c883049e909c86b449e8c9c867849e949c863049e7c9c84b449e789c847849e809c843049e689c82b449e649c827849e6c9c82304d1a89c7cb44d1a49c7c784d1ac9c7c304d1809c7ab44d17c9c7a784d1849c7a304d1549c78b44d1509c78784d1589c78304d1289c76b44d1249c76784d12c9c76304d0fc9c74b4)
  (.lf 0)) (.nd (.lf
  0x2e0f0631b402e0086317402de48630f402dd64630b402dc706307402d44463fecc2d28863fccc2d2e463facc2d2ec63f8cc2d2f463f6cc2d2fc63f4cc2d30463f2cc2d1f463f0cc2d16c63eecc2d17463eccc2d17c63eacc2d44c63e8cc2d18463e6cc2d30c63e4cc2d31463e2cc2d31c63e0cc2d32463decc2d32c63dccc2d1fc63dacc2d18c63d8cc2d45463d6cc2d19463d4cc2d33463d2cc2d33c63d0cc2d34463cecc2d34c63cccc2d35463cacc2d20463c8cc2d19c63c6cc2d1a463c4cc2d36863c2cc2d5e063fdd02d5cc63fbd02d5b863f9d02d5a463f7d02d59063f5d02d57c63f3d02d56863f1d02d55463efd02d54063edd02d52c63ebd02d51863e9d02d50463e7d02d4f063e5d02d4dc63e3d02d4c863e1d02d4b463dfd02d4a063ddd02d48c63dbd02d47863d9d02d46463d7d02d42c63d5d02d41863d3d02d40463d1d02d3f063cfd02d3dc63cdd02d3c863cbd02d3b463c9d02d3a063c7d0)
  (.lf 0)))

def shaWireTree342 : BTree :=
  .nd (.nd (.nd (.lf
  0x3eaa08d70303ea848d6e783ea808d6eb43ea888d6e303ea708d6c783ea6c8d6cb43ea788d6c303ea608d6a783ea5c8d6ab43ea648d6a303ea4c8d68783ea408d68b43ea508d68303ea348d66783ea308d66b43ea388d66303ea208d64783ea1c8d64b43ea248d64303ea0c8d62783ea048d62b43ea108d62303e9f48d60783e9f88d60b43e9fc8d60303e9e08d5e783e9e88d5eb43e9ec8d5e303e9d48d5c783e9d08d5cb43e9d88d5c303e9bc8d5a783e9c08d5ab43e9c48d5a303e9a88d58783e9ac8d58b43e9b08d58303e9948d56783e9988d56b43e99c8d56303e97c8d54783e9808d54b43e9888d54303e9688d52783e96c8d52b43e9708d52303e95c8d50783e9548d50b43e9608d50303e7248d4e783e7208d4eb43e7288d4e303e6fc8d4c783e7008d4cb43e7048d4c303e6e48d4a783e6e88d4ab43e6ec8d4a303e6cc8d48783e6d08d48b43e6d48d48303e4108d46783e6bc8d46b43e6c08d4630)
  (.lf 0)) (.nd (.lf
  0x69e28d89d2c69e14d89b2c69e00d8992c69decd8972c69dd8d8952c69dc4d8932c69db0d8912c69da0d88f2c69d8cd88d2c69d78d88b2c69d64d8892c69d54d8872c69cb8d8852c69c94d8832c69ca0d880cc6ca40dcbf2c6ca2cdcbd2c6ca18dcbb2c6ca04dcb92c6c9f0dcb72c6c9dcdcb52c6c9c8dcb32c6c9b8dcb12c6c9a4dcaf2c6c98cdcad2c6c97cdcab2c6c964dca92c6c968dca72c6c93cdca52c6c92cdca32c6c914dca12c6c904dc9f2c6c6b8dc9d2c6c6bcdc9b2c6c694dc992c6c68cdc972c6c66cdc952c6c658dc932c6c644dc912c6c630dc8f2c6c8f0dc8d2c6c610dc8b2c6c5f8dc892c6c5e4dc872c6c5e8dc852c6c5b8dc832c6c5c0dc80cc6e7a4e0bf2c6e790e0bd2c6e77ce0bb2c6e768e0b92c6e754e0b72c6e740e0b52c6e72ce0b32c6e718e0b12c6e704e0af2c6e6f0e0ad2c6e6dce0ab2c6e6c8e0a92c6e6b4e0a72c6e6a0e0a52c6e690e0a32c6e67ce0a12c6e668e09f2c)
  (.lf 0))) (.nd (.nd (.lf
  0x6b700f281406a980f25f406afc0f26a006a280f241e06a900f24b406a940f2414069bc0f21f406a200f22a00694c0f201e069b40f20b4069b80f2014068d80f1e1e069400f1eb4069440f1e14068640f1c1e068cc0f1cb4068d00f1c14067f80f19f40685c0f1aa0067880f181e067f00f18b4067f40f1814067140f161e0677c0f16b4067800f1614066a80f13f40670c0f14a0066380f121e066a00f12b4066a40f1214065c40f101e0662c0f10b4066300f1014065500f0e1e065b80f0eb4065bc0f0e14064e40f0bf4065480f0ca0064740f0a1e064dc0f0ab4064e00f0a14064080f07400646c0f08a0063a00f05f4064040f06a0063300f041e063980f04b40639c0f0414063280f02a005cbc0ffc7805cb80ffcb405cc00ffc3005ca80ffa7805ca40ffab405cac0ffa3005c940ff87805c900ff8b405c980ff83005c800ff67805c7c0ff6b405c840ff63005c6c0ff47805c680ff4b405c700ff430)
  (.lf 0)) (.nd (.lf
  0x7861ce6aacc78914e6a8cc7875ce6a6cc78858e6a4cc786f8e6a2cc78644e6a0cc785d4e69ecc787ace69ccc78564e69acc7850ce698cc78520e696cc78410e694cc78468e692cc783a4e690cc7833ce68ecc78910e68ccc78730e68acc78864e688cc78700e686cc78640e684cc785d0e682cc79034e6bdd07901ce6bbd079004e6b9d078fece6b7d078fc8e6b5d078fb0e6b3d078f9ce6b1d078f74e6afd078f64e6add078f2ce6abd078f08e6a9d078e98e6a7d078e84e6a5d078e70e6a3d078e58e6a1d078e14e69fd078dfce69dd078dbce69bd078d14e699d078cfce697d078ce8e695d078cd8e693d078c7ce691d078b74e68fd078a64e68dd078a50e68bd078a38e689d078a0ce687d078990e685d0788c4e683d078768e68110720b8e67ecc720a4e67ccc7208ce67acc72078e678cc7200ce676cc71fb4e674cc7212ce672cc71f1ce670cc71e94e66ecc71eb8e66ccc71ddce66acc71dece668cc)
  (.lf 0)))

def shaWireTree343 : BTree :=
  .nd (.nd (.nd (.lf
  0x4d3509f041e4d4049f04b44d4089f04144d3489f02a04caf09ffc784caf89ffcb44cafc9ffc304cae49ffa784cae09ffab44cae89ffa304cacc9ff8784cad09ff8b44cad49ff8304cabc9ff6784cab89ff6b44cac09ff6304caa49ff4784caa89ff4b44caac9ff4304ca909ff2784ca8c9ff2b44ca949ff2304ca7c9ff0784ca789ff0b44ca809ff0304ca689fee784ca6c9feeb44ca709fee304ca509fec784ca589fecb44ca5c9fec304ca409fea784ca3c9feab44ca489fea304ca2c9fe8784ca309fe8b44ca349fe8304ca189fe6784ca209fe6b44ca249fe6304ca049fe4784ca0c9fe4b44ca109fe4304c9f89fe2784c9f09fe2b44c9fc9fe2304c9e49fe0784c9e09fe0b44c9e89fe0304c9cc9fde784c9c89fdeb44c9d49fde304c9bc9fdc784c5fc9fdcb44c9c09fdc304c5f09fda784c5ec9fdab44c5f49fda304c5dc9fd8784c5d49fd8b44c5e09fd8304c5c09fd6784c5c89fd6b44c5cc9fd630)
  (.lf 0)) (.nd (.lf
  0x181012532c017e412512c017b8124f2c0178c124d2c01760124b2c0173412492c0170812472c016dc12452c016b012432c016241240cc03de0167f2c03d84167d2c03d00167b2c03c7416792c03bfc16772c03b7c16752c03afc16732c03a6816712c039f0166f2c03970166d2c038dc166b2c0385016692c037d816672c0374416652c036b816632c0362c16612c035b4165f2c03520165d2c034a8165b2c0342816592c033a816572c0331416552c0329c16532c0321c16512c03188164f2c03110164d2c03090164b2c02ffc16492c02f8416472c02f0416452c02e8416432c02e241640cc056e81a7f2c056981a7d2c056101a7b2c055841a792c0550c1a772c054781a752c054001a732c0536c1a712c052e01a6f2c052541a6d2c051dc1a6b2c0515c1a692c050dc1a672c0505c1a652c04fdc1a632c04f5c1a612c04ec81a5f2c04e3c1a5d2c04db01a5b2c04d241a592c04c981a572c04c201a552c)
  (.lf 0))) (.nd (.nd (.lf
  0x81ec0fe205081c2cfe1e5081bfcfe1c5081b6cfe1a5080c94fe185080c70fe165080c38fe145080c14fe125080c04fe105080bbcfe0e5080b94fe0c5080bd4fe0a5080a8cfe085080a98fe065080a18fe0450809e4fe025080374fe005002c780028df02c7c0028dd02c800028db02c840028d902c880028d702c8c0028d502c900028d302c940028d102c980028cf02c9c0028cd02ca00028cb02ca40028c902ca80028c702cac0028c502cb00028c302cb40028c102cb80028bf02cbc0028bd02cc00028bb02cc40028b902cc80028b702ccc0028b502cd00028b302cd40028b102cd80028af02cdc0028ad02ce00028ab02ce40028a902ce80028a702cec0028a502cf00028a302cf40028a10454400289f0454800289d0454c00289b0455000289904554002897045580028950455c002893045600028910456400288f0456800288d0456c00288b0457000288904574002887045780028850457c002883)
  (.lf 0)) (.nd (.lf
  0x6b7ccd46ccc6b7d4d46acc6b7dcd468cc6b7e4d466cc6b7ecd464cc6b7f4d462cc6b7fcd460cc6b804d45ecc6b80cd45ccc6b814d45acc6b81cd458cc6b824d456cc6b82cd454cc6b834d452cc6b83cd450cc6b844d44ecc6b84cd44ccc6b854d44acc6b85cd448cc6b864d446cc6b86cd444cc6b874d442cc6bb9cd47dd06bb84d47bd06bb48d479d06bb38d477d06bb18d475d06bb08d473d06baf0d471d06badcd46fd06bac4d46dd06baa8d46bd06ba94d469d06ba84d467d06ba70d465d06ba5cd463d06ba44d461d06ba2cd45fd06ba18d45dd06ba00d45bd06b9e8d459d06b9ccd457d06b9b4d455d06b998d453d06b980d451d06b968d44fd06b954d44dd06b940d44bd06b92cd449d06b914d447d06b900d445d06b8e8d443d06b87cd441106bba4d43ecc6bb90d43ccc6bb50d43acc6bb74d438cc6bb78d436cc6bb2cd434cc6bb34d432cc6baf4d430cc6baccd42ecc6bba8d42ccc6bb5cd42acc)
  (.lf 0)))

def shaWireTree344 : BTree :=
  .nd (.nd (.nd (.lf
  0x2bfc869bf2c2bf7069bd2c2bf5869bb2c2bf5069b92c2bf3069b72c2bf1c69b52c2bf0869b32c2be4c69b12c2be4469af2c2be2469ad2c2be1869ab2c2bdfc69a92c2bde869a72c2bdd469a52c2bdc469a32c2bdb069a12c2bd98699f2c2bd88699d2c2bd70699b2c2bd5c69992c2bd5469972c2bce469952c2bcc869932c2bcc469912c2bca0698f2c2bc8c698d2c2bc78698b2c2bd3069892c2b4bc69872c2b46469852c2a64469832c2a5dc6980cc2cebc6dbf2c2cec06dbd2c2ce946dbb2c2ce906db92c2ce6c6db72c2ce586db52c2ce446db32c2cf6c6db12c2cea06daf2c2ce106dad2c2ce0c6dab2c2cde86da92c2cdd46da72c2cdc06da52c2cdac6da32c2cd546da12c2cd3c6d9f2c2cd346d9d2c2cd146d9b2c2cd006d992c2ccec6d972c2cca46d952c2cc546d932c2ccd06d912c2ccb86d8f2c2cc186d8d2c2cc086d8b2c2cbf06d892c2cc3c6d872c2ca686d852c2c9dc6d832c2c9246d80cc)
  (.lf
  0x1bc385078cc1bc405076cc1bc485074cc1bc505072cc1bc585070cc1bc60506ecc1bc68506ccc1bc70506acc1bc785068cc1bc805066cc1bc885064cc1bc905062cc1bc985060cc1bca0505ecc1bca8505ccc1bcb0505acc1bcb85058cc1bcc05056cc1bcc85054cc1bcd05052cc1bcd85050cc1bce0504ecc1bce8504ccc1bcf0504acc1bcf85048cc1bd005046cc1bd085044cc1bd105042cc1bf74507dd01bf60507bd01bf4c5079d01bf385077d01bf245075d01bf105073d01befc5071d01bee8506fd01bed4506dd01bec0506bd01beac5069d01be985067d01be845065d01be705063d01be5c5061d01be48505fd01be34505dd01be20505bd01be0c5059d01bdf85057d01bde45055d01bdd05053d01bdbc5051d01bda8504fd01bd94504dd01bd80504bd01bd6c5049d01bd585047d01bd445045d01bd305043d01bd1850411028038503ecc27fb4503ccc27f14503acc27e785038cc27dd85036cc))
  (.nd (.lf
  0x7cf4cf7a0787caf8f79e787c728f79c787c6c8f79a787c628f798787c64cf796787c5dcf794787c5e0f792787c658f790787c66cf78e787c5e4f78c787c3d4f78a787c390f788787c3acf786787c094f784787bdd8f782787bda8f780787ec94f7be307ec44f7bc307ec10f7ba307eb48f7b8307eb18f7b6307ebbcf7b4307edd4f7b2307eaa8f7b0307ead0f7ae307ea64f7ac307ebd8f7aa307ece4f7a8307e734f7a6307e6f4f7a4307e6d4f7a2307e7e8f7a0307e690f79e307e66cf79c307e630f79a307e5e0f798307e5bcf796307e354f794307e2f8f792307e21cf790307e1e0f78e307e9c0f78c307dc8cf78a307dc84f788307db5cf786307d540f784307d42cf782307d59cf7803081360fbbeb481314fbbcb4812ecfbbab4812b0fbb8b481294fbb6b481620fbb4b481248fbb2b481204fbb0b4811c4fbaeb48117cfbacb481130fbaab4810ecfba8b48150cfba6b481018fba4b48104cfba2b4)
  (.lf 0))) (.nd (.nd (.lf
  0x324046a68303230c6a66b4323806a6678323846a6630322906a64b4323006a6478323046a6430322086a62b4322846a6278322886a62303217c6a60b4321fc6a6078322006a6030320f86a5eb4321706a5e78321746a5e30320786a5cb4320ec6a5c78320f06a5c3031ff06a5ab43206c6a5a78320706a5a3031f6c6a58b431fe46a587831fe86a583031eec6a56b431f606a567831f646a563031e646a54b431ee06a547831ee46a543031dd86a52b431e586a527831e5c6a523031d4c6a50b431dcc6a507831dd06a503031cc06a4eb431d406a4e7831d446a4e3031c346a4cb431cb46a4c7831cb86a4c3031bb06a4ab431c286a4a7831c2c6a4a3031b306a48b431ba46a487831ba86a483031ab86a46b431b246a467831b286a463031a446a44b431aac6a447831ab06a4430319f86a42b431a386a427831a3c6a42303288c6afcb43282c6afc78328906afc30328206afab4327b86afa78328246afa30)
  (.lf 0)) (.nd (.lf
  0x7888006ff307890006ff107898006fef078a0006fed078a8006feb078b0006fe9078b8006fe7078c0006fe5078c8006fe3078d0006fe1090b8006fdf090c0006fdd090c8006fdb090d0006fd9090d8006fd7090e0006fd5090e8006fd3090f0006fd1090f8006fcf09100006fcd09108006fcb09110006fc909118006fc709120006fc509128006fc309130006fc109138006fbf09140006fbd09148006fbb09150006fb909158006fb709160006fb509168006fb309170006fb109178006faf09180006fad09188006fab09190006fa909198006fa7091a0006fa5091a8006fa3091b0006fa10a99c006f9f0a9a4006f9d0a9ac006f9b0a9b4006f990a9bc006f970a9c4006f950a9cc006f930a9d4006f910a9dc006f8f0a9e4006f8d0a9ec006f8b0a9f4006f890a9fc006f870aa04006f850aa0c006f830aa14006f810aa1c006f7f0aa24006f7d0aa2c006f7b0aa34006f790aa3c006f770aa44006f75)
  (.lf 0)))

def shaWireTree345 : BTree :=
  .nd (.nd (.nd (.lf
  0x81c78faeab481c74faea7881c7cfaea3081c64fae8b481c68fae87881c6cfae83081c54fae6b481c58fae67881c5cfae63081c48fae4b481c44fae47881c4cfae43081c34fae2b481bb4fae27881c38fae23081ba8fae0b481ba4fae07881bacfae03081b94fadeb481b98fade7881b9cfade3081b88fadcb481b80fadc7881b8cfadc3081b40fadab48085cfada7881b44fada3080848fad8b48084cfad87880850fad83080838fad6b48083cfad67880840fad63080828fad4b480824fad4788082cfad4308080cfad2b480810fad27880814fad230807f8fad0b4807fcfad07880800fad030807e4faceb4807e0face78807e8face30806b8faccb4807d4facc78807d8facc3080668facab4806a0faca78806b0faca3080630fac8b48065cfac87880660fac83080624fac6b480620fac67880628fac630805d0fac4b480608fac47880618fac4308035cfac2b4805c4fac278805c8fac230828f0fb3eaa)
  (.lf 0)) (.nd (.lf
  0xa6441bdd2c0a6301bdb2c0a61c1bd92c0a6081bd72c0a5f41bd52c0a5e01bd32c0a5cc1bd12c0a5b81bcf2c0a5a41bcd2c0a5901bcb2c0a57c1bc92c0a5681bc72c0a5541bc52c0a5401bc32c0a53c1bc0cc0c0441fff2c0c0301ffd2c0c01c1ffb2c0c0081ff92c0bff41ff72c0bfe01ff52c0bfcc1ff32c0bfb81ff12c0bfa41fef2c0bf901fed2c0bf7c1feb2c0bf681fe92c0bf541fe72c0bf401fe52c0bf2c1fe32c0bf181fe12c0bf041fdf2c0bef01fdd2c0bedc1fdb2c0bec81fd92c0beb41fd72c0bea01fd52c0be8c1fd32c0be781fd12c0be641fcf2c0be501fcd2c0be3c1fcb2c0be281fc92c0be141fc72c0be001fc52c0bdec1fc32c0bde81fc0cc0d93823ff2c0d92423fd2c0d91023fb2c0d8fc23f92c0d8e823f72c0d8d423f52c0d8c023f32c0d8ac23f12c0d89823ef2c0d88423ed2c0d87023eb2c0d85c23e92c0d84823e72c0d83423e52c0d82023e32c0d80c23e12c0d7f823df2c)
  (.lf 0))) (.nd (.nd (.lf
  0x5cd04b832305cc58b830b45cc20b830785cc5cb830305cc14b82eb45cb9cb82e785cc18b82e305cb60b82cb45cb28b82c785cb78b82c305cb1cb82ab45caacb82a785cb20b82a305ca94b828b45ca3cb828785ca98b828305ca30b826b45c9d8b826785ca34b826305c994b824b45c918b824785c998b824305c90cb822b45c8d4b822785c910b822305c890b820b45c8c8b820785c8ccb820305c884b81eb45c84cb81e785c888b81e305c840b81cb45c83cb81c785c844b81c305c7fcb81ab45c7f8b81a785c800b81a305c7b8b818b45c7b4b818785c7bcb818305c774b816b45c770b816785c778b816305c6f8b814b45c730b814785c734b814305c6ecb812b45c6b4b812785c6f0b812305c66cb810b45c6a8b810785c6acb810305c660b80eb45c57cb80e785c664b80e305c560b80cb45c564b80c785c568b80c305c554b80ab45c540b80a785c558b80a305c534b808b45c530b808785c538b80830)
  (.lf 0)) (.nd (.lf
  0x3eda883f2cc3edb083f0cc3edb883eecc3f01483eccc3edc483eacc3edcc83e8cc3edd483e6cc3eddc83e4cc3ede483e2cc3edec83e0cc3edf483decc3edfc83dccc3ee0483dacc3ee0c83d8cc3ee1483d6cc3ee1c83d4cc3ee2483d2cc3ee2c83d0cc3ee3483cecc3ee7883cccc3ee4083cacc3ee4883c8cc3ee5083c6cc3ee5883c4cc3ee6083c2cc40bd483fdd040bc483fbd040bac83f9d040b9c83f7d040aa483f5d040a7883f3d040a4c83f1d0405cc83efd0405ac83edd04058c83ebd04057c83e9d04056483e7d04055483e5d04053483e3d04051c83e1d04050c83dfd03fe4c83ddd03fe3483dbd03fe2483d9d03fe0c83d7d03fdf483d5d03f08483d3d03f06c83d1d03f05883cfd03f04883cdd03f03483cbd03f02083c9d03eeac83c7d03ee9883c5d03ee8483c3d03ee6883c1104025c86becc4026486bccc4026c86bacc4027486b8cc4027c86b6cc4028486b4cc4028c86b2cc4029486b0cc)
  (.lf 0)))

def shaWireTree346 : BTree :=
  .nd (.nd (.nd (.lf
  0x53c48b942b453c4cb9423054940b9bc785495cb9bcb454960b9bc305490cb9ba7854920b9bab454924b9ba30548fcb9b878548e8b9b8b454900b9b830548b0b9b67854848b9b6b4548ccb9b6305483cb9b478547f0b9b4b454840b9b430547d4b9b278547a8b9b2b4547d8b9b2305479cb9b07854764b9b0b4547a0b9b03054744b9ae7854720b9aeb454748b9ae3054714b9ac78546e8b9acb454718b9ac30546dcb9aa7854690b9aab4546e0b9aa3054684b9a8785464cb9a8b454688b9a83054640b9a678545f4b9a6b454644b9a630545e8b9a478545ccb9a4b4545ecb9a430545c0b9a2785458cb9a2b4545c4b9a23054580b9a07854550b9a0b454584b9a03054544b99e7854500b99eb454548b99e30544f0b99c78544c4b99cb4544f4b99c30544b8b99a785448cb99ab4544bcb99a3054480b9987854458b998b454484b998305444cb9967854414b996b454450b9963054408b99478543e0b994b4)
  (.lf 0)) (.nd (.lf
  0x80061059d2c7f989059b2c7f8d505992c7f85905972c7f82105952c7f70d05932c7f6ed05912c7f685058f2c7f595058d2c7f4dd058b2c7f49105892c7f3e505872c7f2c505852c7f27d05832c7f04d0580cc7f52901bf2c7f32d01bd2c7f1d101bb2c7f16101b92c7f0cd01b72c7f06d01b52c7efd901b32c7efa901b12c7ef6d01af2c7ef3d01ad2c7f76d01ab2c7eef901a92c7e8cd01a72c7e89901a52c7e8f501a32c7e80101a12c7e7ad019f2c7e791019d2c7e7cd019b2c7e75101992c7e53901972c7e3e501952c7e2bd01932c7e27501912c7e255018f2c7e311018d2c7dd2d018b2c7dca901892c7db6901872c7d51d01852c7d40501832c7d4950180cc207f8403f2c20754403d2c20690403b2c205d840392c2052040372c2046440352c203a840332c202f440312c20234402f2c2017c402d2c200c4402b2c2000840292c1ff4440272c1fe8c40252c1fdcc40232c1fd0c40212c1fc50401f2c)
  (.lf 0))) (.nd (.nd (.lf
  0x8660227430085dc2272b40856c227278085e0227230085602270b4084dc22707808564227030084d0226eb408460226e78084d4226e3008454226cb4083d0226c7808458226c30083c4226ab408354226a78083c8226a30083482268b4082c42268780834c226830082b82266b408248226678082bc2266300823c2264b4081bc22647808240226430081b02262b40812c226278081b4226230081202260b4080b022607808124226030080a4225eb408024225e78080a8225e3008018225cb407f94225c780801c225c3007f88225ab407f14225a7807f8c225a3007f082258b407e9422587807f0c22583007e882256b407e1422567807e8c22563007e082254b407d9822547807e0c22543007d8c2252b407d0822527807d9022523007cfc2250b407c8822507807d0022503007c7c224eb407c0c224e7807c80224e3007c00224cb407b7c224c7807c04224c3007b70224ab407b00224a7807b74224a30)
  (.lf 0)) (.nd (.lf
  0x68241d5acc067c01d58cc0674c1d56cc066d41d54cc066701d52cc065fc1d50cc065881d4ecc065101d4ccc064ac1d4acc064341d48cc063cc1d46cc063681d44cc062f01d42cc06fa01d7dd006f301d7bd006eb81d79d006e541d77d006ddc1d75d006d741d73d006d101d71d006c9c1d6fd006c241d6dd006bc01d6bd006b4c1d69d006ad41d67d006a701d65d0069f81d63d0069941d61d0069201d5fd0068ac1d5dd0068341d5bd0067d01d59d00675c1d57d0066e41d55d0066801d53d00660c1d51d0065981d4fd0065201d4dd0064bc1d4bd0064441d49d0063dc1d47d0063781d45d0063001d43d0062441d411006fe01dbecc06f7c1dbccc06f081dbacc06ec01db8cc06e2c1db6cc06de41db4cc06d7c1db2cc06ce81db0cc06c741daecc06c2c1daccc06b981daacc06b241da8cc06adc1da6cc06a481da4cc06a001da2cc0696c1da0cc068f81d9ecc068841d9ccc0683c1d9acc067a81d98cc)
  (.lf 0)))

def shaWireTree347 : BTree :=
  .nd (.nd (.nd (.lf
  0x585b8b25cb4585c4b25c78585c8b25c30585acb25ab4585a0b25a78585b0b25a3058588b258b458594b2587858598b258305857cb256b458570b2567858580b256305853cb254b458564b2547858568b254305852cb252b4584f8b2527858530b25230584b8b250b4584ecb25078584f0b25030584acb24eb458478b24e78584b0b24e3058438b24cb45846cb24c7858470b24c305842cb24ab458428b24a7858430b24a30583ecb248b4583e8b24878583f0b24830583a4b246b4583a0b24678583a8b246305833cb244b458338b2447858340b24430582d8b242b4582d4b24278582dcb2423058a10b2fcb458a0cb2fc7858a14b2fc30589f8b2fab4589f4b2fa78589fcb2fa30589e4b2f8b4589e0b2f878589e8b2f830589ccb2f6b4589c8b2f678589d0b2f630589b0b2f4b4589b8b2f478589bcb2f4305899cb2f2b4589a4b2f278589a8b2f23058990b2f0b458984b2f07858994b2f03058974b2eeb4)
  (.lf 0)) (.nd (.lf
  0x7d4812d32c07cc412d12c07c4412cf2c07bbc12cd2c07b3812cb2c07ab012c92c07a2412c72c079a012c52c0791812c32c078e012c0cc0a19c16ff2c0a12416fd2c0a0a016fb2c0a01816f92c09f8c16f72c09f0816f52c09e8816f32c09e0016f12c09d7416ef2c09ce816ed2c09c5c16eb2c09bd016e92c09b4c16e72c09acc16e52c09a4c16e32c099c416e12c0994016df2c098c016dd2c0984016db2c097b816d92c0973416d72c096b416d52c0963416d32c095ac16d12c0952016cf2c0949416cd2c0940816cb2c0937c16c92c092f816c72c0927816c52c091f816c32c091c016c0cc0ba441aff2c0b9d41afd2c0b9541afb2c0b8cc1af92c0b8481af72c0b7c81af52c0b7401af32c0b6bc1af12c0b63c1aef2c0b5bc1aed2c0b5341aeb2c0b4a81ae92c0b41c1ae72c0b3901ae52c0b3041ae32c0b2781ae12c0b1ec1adf2c0b1681add2c0b0e81adb2c0b0681ad92c0afe81ad72c0af681ad52c)
  (.lf 0))) (.nd (.nd (.lf
  0x204504072b42044c40727820454407230203944070b42039040707820398407030202e0406eb4202dc406e78202e4406e3020220406cb42021c406c7820224406c3020168406ab420164406a782016c406a30200b04068b4200ac406878200b44068301fff44066b41fff04066781fff84066301ff304064b41ff2c4064781ff344064301fe784062b41fe744062781fe7c4062301fdb84060b41fdb44060781fdbc4060301fcf8405eb41fcf4405e781fcfc405e301fc3c405cb41fc38405c781fc40405c301fb80405ab41fb7c405a781fb84405a301fabc4058b41fab84058781fac04058301fa044056b41fa004056781fa084056301f9444054b41f9404054781f9484054301f88c4052b41f8884052781f8904052301f7d44050b41f7d04050781f7d84050301f718404eb41f714404e781f71c404e301f654404cb41f650404c781f658404c301f594404ab41f590404a781f598404a301f4d84048b4)
  (.lf 0)) (.nd (.lf
  0x6140268cc006100266cc0060c0264cc006080262cc006040260cc00600025ecc005fc025ccc005f8025acc005f40258cc005f00256cc005ec0254cc005e80252cc005e40250cc005e0024ecc005dc024ccc005d8024acc005d40248cc005d00246cc005cc0244cc005c80242cc00898027dd000884027bd0008700279d00085c0277d0008480275d0008340273d0008200271d00080c026fd0007f8026dd0007e4026bd0007d00269d0007bc0267d0007a80265d0007940263d0007800261d00076c025fd000758025dd000744025bd0007300259d00071c0257d0007080255d0006f40253d0006e00251d0006cc024fd0006b8024dd0006a4024bd0006900249d00067c0247d0006680245d0006540243d0005c00241100160c02fecc015d002fccc0159402facc0155c02f8cc0152402f6cc014ec02f4cc014ac02f2cc0147002f0cc0143002eecc013f402eccc013bc02eacc0138402e8cc0134402e6cc)
  (.lf 0)))

def shaWireTree348 : BTree :=
  .nd (.nd (.nd (.lf
  0x7e96c0c60307e9500c5e787e9540c5eb47e9580c5e307e93c0c5c787e9400c5cb47e9440c5c307e9280c5a787e92c0c5ab47e9300c5a307e91c0c58787e9180c58b47e9200c58307e8500c56787e90c0c56b47e9100c56307e8380c54787e83c0c54b47e8480c54307e8280c52787e82c0c52b47e8300c52307e6180c50787e81c0c50b47e8200c50307e6000c4e787e6080c4eb47e60c0c4e307e1f00c4c787dca00c4cb47e5f80c4c307dc940c4a787dc6c0c4ab47dc980c4a307dc5c0c48787db4c0c48b47dc600c48307db1c0c46787d5c00c46b47db440c46307d5b40c44787d5b00c44b47d5b80c44307d58c0c42787d5a40c42b47d5a80c423083e6c107c7883e74107cb483e78107c3083e58107a7883e5c107ab483e64107a3083e4010787883e441078b483e4810783083e3410767883e301076b483e3810763083e1c10747883e241074b483e2810743083e0410727883e081072b483e0c107230)
  (.lf 0)) (.nd (.lf
  0x225104ba030225144b9e30225184b9c302251c4b9a30225204b9830225244b9630225284b9430225e44b9230222ac4b9030222884b8e30222644b8c30222404b8a302221c4b8830221f84b8630221d44b8430221b04b82302214c4b803024b284fbeb424b2c4fbcb424b304fbab424b344fb8b424b384fb6b424a844fb4b4248cc4fb2b4248d04fb0b4248d44faeb4248d84facb4248dc4faab4248e04fa8b4248e44fa6b4248e84fa4b4248ec4fa2b4248f04fa0b4248f44f9eb4248f84f9cb4247c44f9ab42473c4f98b4247404f96b4247444f94b4247484f92b42474c4f90b4247504f8eb4246b84f8cb4243ec4f8ab4243f04f88b4243f44f86b4243f84f84b4243fc4f82b4244004f80b4225844fbe78225884fbc782258c4fba78225904fb878225944fb678225984fb4782259c4fb278225a04fb078225a44fae78225a84fac78225ac4faa78225b04fa878225b44fa678225b84fa478225bc4fa278)
  (.lf 0))) (.nd (.nd (.lf
  0x1a474466c781a478466c301a3f8466ab41a430466a781a434466a301a3b44668b41a3ec4668781a3f04668301a3704666b41a3a84666781a3ac4666301a32c4664b41a3644664781a3684664301a2e84662b41a3204662781a3244662301a2a44660b41a2dc4660781a2e04660301a260465eb41a298465e781a29c465e301a21c465cb41a254465c781a258465c301a1d8465ab41a210465a781a214465a301a1944658b41a1cc4658781a1d04658301a1504656b41a1884656781a18c4656301a10c4654b41a1444654781a1484654301a0c84652b41a1004652781a1044652301a0844650b41a0bc4650781a0c04650301a040464eb41a078464e781a07c464e3019ffc464cb41a034464c781a038464c3019fb8464ab419ff0464a7819ff4464a3019f744648b419fac46487819fb046483019f304646b419f6846467819f6c46463019eec4644b419f2446447819f2846443019ec44642b419ee0464278)
  (.lf 0)) (.nd (.lf
  0x474cca152cc474b8a150cc4744ca14ecc474dca14ccc47424a14acc4741ca148cc46a38a146cc46974a144cc469aca142cc47b94a17dd047b80a17bd047b3ca179d047a70a177d047a5ca175d047a48a173d047a34a171d0479f0a16fd0479a8a16dd047854a16bd047840a169d047828a167d04778ca165d047758a163d047720a161d0476f8a15fd047698a15dd047684a15bd047600a159d0475f0a157d047594a155d047568a153d047544a151d047500a14fd0474eca14dd047480a14bd047470a149d046a5ca147d0469e0a145d0469d0a143d046658a1411046f64a1becc46f44a1bccc46f08a1bacc46f10a1b8cc46f14a1b6cc46f20a1b4cc46eb8a1b2cc46ed0a1b0cc46e24a1aecc46df4a1accc46dd0a1aacc46daca1a8cc46d88a1a6cc46d64a1a4cc46d34a1a2cc46d04a1a0cc46ce0a19ecc46cbca19ccc46c98a19acc46c58a198cc46c38a196cc46c08a194cc46beca192cc46baca190cc)
  (.lf 0)))

def shaWireTree349 : BTree :=
  .nd (.nd (.nd (.lf
  0x6cc64d6e6306cc50d6e4b46cbe0d6e4786cc54d6e4306caa0d6e2b46cbd0d6e2786cbd4d6e2306ca88d6e0b46ca8cd6e0786ca90d6e0306ca7cd6deb46ca78d6de786ca80d6de306c8e4d6dcb46c778d6dc786c8e8d6dc306c76cd6dab46c764d6da786c770d6da306c754d6d8b46c758d6d8786c75cd6d8306c73cd6d6b46c744d6d6786c748d6d6306c1acd6d4b46c104d6d4786c734d6d4306c0f8d6d2b46bf98d6d2786c0fcd6d2306bf68d6d0b46bf8cd6d0786bf90d6d0306bf5cd6ceb46bea0d6ce786bf60d6ce306be84d6ccb46be10d6cc786be90d6cc306be00d6cab46bdc8d6ca786be08d6ca306bd88d6c8b46bdbcd6c8786bdc0d6c8306bd7cd6c6b46bc78d6c6786bd80d6c6306bc6cd6c4b46bc40d6c4786bc70d6c4306bbccd6c2b46b8c8d6c2786bc38d6c2306d388d73caa6d25cd736aa6d16cd734aa6cf5cd732aa6cf00d72eaa6cce0d72caa6cd2cd728aa6cc74d726aa6cab4d71eaa)
  (.lf 0)) (.nd (.lf
  0xa4c4005f7d0a4cc005f7b0a4d4005f790a4dc005f770a4e4005f750a4ec005f730a4f4005f710a4fc005f6f0a504005f6d0a50c005f6b0a514005f690a51c005f670a524005f650a52c005f630a534005f610bce8005f5f0bcf0005f5d0bcf8005f5b0bd00005f590bd08005f570bd10005f550bd18005f530bd20005f510bd28005f4f0bd30005f4d0bd38005f4b0bd40005f490bd48005f470bd50005f450bd58005f430bd60005f410bd68005f3f0bd70005f3d0bd78005f3b0bd80005f390bd88005f370bd90005f350bd98005f330bda0005f310bda8005f2f0bdb0005f2d0bdb8005f2b0bdc0005f290bdc8005f270bdd0005f250bdd8005f230bde0005f210d5dc005f1f0d5e4005f1d0d5ec005f1b0d5f4005f190d5fc005f170d604005f150d60c005f130d614005f110d61c005f0f0d624005f0d0d62c005f0b0d634005f090d63c005f070d644005f050d64c005f030d654005f010d65c005eff)
  (.lf 0))) (.nd (.nd (.lf
  0x3d8047c54783d80c7c54303d7c07c52b43d7bc7c52783d7c47c52303d7787c50b43d7747c50783d77c7c50303d7307c4eb43d72c7c4e783d7347c4e303d6e87c4cb43d6e47c4c783d6ec7c4c303d6a47c4ab43d6a07c4a783d6a87c4a303d65c7c48b43d6587c48783d6607c48303d6147c46b43d6107c46783d6187c46303d5d07c44b43d5cc7c44783d5d47c44303d58c7c42b43d5887c42783d5907c42303dd5c7c3cb43dd247c3c783dd607c3c303dd187c3ab43dce07c3a783dd1c7c3a303dcd47c38b43dc987c38783dcd87c38303dc8c7c36b43dc547c36783dc907c36303dc487c34b43dc107c34783dc4c7c34303dc047c32b43dbcc7c32783dc087c32303dbc07c30b43db887c30783dbc47c30303db7c7c2eb43db447c2e783db807c2e303db387c2cb43db007c2c783db3c7c2c303daf47c2ab43dabc7c2a783daf87c2a303dab07c28b43da787c28783dab47c28303da6c7c26b43da347c2678)
  (.lf 0)) (.nd (.lf
  0x1f81042d3d01f75c42d1d01f69c42cfd01f5dc42cdd01f51842cbd01f46042c9d01f3a842c7d01f2e442c5d01f21442c3d01f19842c11020778433df4206b4433bf4205f4433940203c443334020198432d401ff684327f41fea84325401fd304321f41fc6c431f401faf4431bf41fa344319401f8bc4315401f68c430ff41f5cc430df41f508430b40190c843fecc190d043fccc190d843facc190e043f8cc190e843f6cc190f043f4cc190f843f2cc1910043f0cc1910843eecc1911043eccc1911843eacc1912043e8cc1912843e6cc1913043e4cc1913843e2cc1914043e0cc1914843decc1915043dccc1915843dacc1916043d8cc1916843d6cc1917043d4cc1917843d2cc1918043d0cc1918843cecc1919043cccc1919843cacc191a043c8cc191a843c6cc191b043c4cc191b843c2cc1941c43fdd01940843fbd0193f443f9d0193e043f7d0193cc43f5d0193b843f3d0193a443f1d01939043efd0)
  (.lf 0)))

def shaWireTree350 : BTree :=
  .nd (.nd (.nd (.lf
  0x25b905da07825b945da0b425b985da03025b845d9e7825b805d9eb425b885d9e3025b645d9c7825b605d9cb425b685d9c3025b505d9a7825b545d9ab425b585d9a3025b405d987825b445d98b425b485d983025b145d967825b185d96b425b1c5d963025aec5d947825a885d94b425af05d943025a6c5d927825a685d92b425a705d923025a5c5d907825a585d90b425a605d903025a4c5d8e7825a485d8eb425a505d8e3025a1c5d8c7825a205d8cb425a245d8c3025a0c5d8a7825a105d8ab425a145d8a30259a05d8878259a45d88b4259a85d8830259505d86782593c5d86b4259545d8630258e45d8478258e05d84b4259185d8430258885d8278258805d82b42588c5d823027f74617c7827ff0617cb427ff4617c3027ed4617a7827f60617ab427f6c617a3027e3861787827ec86178b427ecc61783027d9861767827e286176b427e2c61763027cec61747827d846174b427d8861743027c50617278)
  (.lf 0)) (.nd (.lf
  0x3d384003f7d3d388003f7b3d38c003f793d390003f773d394003f753d398003f733d39c003f713d3a0003f6f3d3a4003f6d3d3a8003f6b3d3ac003f693d3b0003f673d3b4003f653d3b8003f633d3bc003f6149d04003f5f49d0c003f5d49d14003f5b49d1c003f5949d24003f5749d2c003f5549d34003f5349d3c003f5149d44003f4f49d4c003f4d49dac003f4b49db4003f4949dbc003f4749dc4003f4549dcc003f4349dd4003f4149ddc003f3f49de4003f3d49dec003f3b49df4003f3949dfc003f3749e04003f3549e0c003f3349e14003f3149e1c003f2f49e24003f2d49e2c003f2b49e34003f2949e3c003f2749e44003f2549e4c003f2349e54003f214c604003f1f4c60c003f1d4c614003f1b4c61c003f194c624003f174c62c003f154c634003f134c63c003f114c644003f0f4c64c003f0d4c6ac003f0b4c6b4003f094c6bc003f074c6c4003f054c6cc003f034c6d4003f014c6dc003eff)
  (.lf 0))) (.nd (.nd (.lf
  0x74b00f412b474b08f4127874b0cf4123074aecf410b474af0f4107874af8f4103074898f40eb47486cf40e7874ae4f40e3074860f40cb47485cf40c7874864f40c307484cf40ab474848f40a7874850f40a3074830f408b47482cf408787483cf4083074818f406b47481cf4067874820f4063074808f404b474784f404787480cf4043074778f402b47476cf402787477cf40230745d8f8bcb4745d4f8bc78745dcf8bc30745c4f8bab4745c8f8ba78745ccf8ba30745b4f8b8b4745acf8b878745b8f8b8307459cf8b6b4745a0f8b678745a4f8b63074584f8b4b474588f8b47874590f8b43074574f8b2b474578f8b2787457cf8b23074560f8b0b474564f8b07874568f8b03074550f8aeb47454cf8ae7874554f8ae307453cf8acb474538f8ac7874540f8ac3074528f8aab474524f8aa787452cf8aa3074514f8a8b47450cf8a87874518f8a830744fcf8a6b474500f8a67874504f8a630744e8f8a4b4)
  (.lf 0)) (.nd (.lf
  0x6057cc3d1d060248c3cfd060234c3cdd060220c3cbd060208c3c9d0601f8c3c7d05ff00c3c5d05fe64c3c3d05fe50c3c11062648c6becc62650c6bccc62610c6bacc623e0c6b8cc622f0c6b6cc62294c6b4cc62678c6b2cc62680c6b0cc62688c6aecc62440c6accc62304c6aacc62690c6a8cc62698c6a6cc626a0c6a4cc62448c6a2cc6230cc6a0cc622acc69ecc621c4c69ccc62118c69acc62120c698cc61f88c696cc61f64c694cc61fa8c692cc61de8c690cc61d64c68ecc626a8c68ccc626b0c68acc626b8c688cc62450c686cc62314c684cc622b4c682cc628d0c6bdd0628bcc6bbd0628a4c6b9d06288cc6b7d06287cc6b5d062868c6b3d062854c6b1d062840c6afd06282cc6add062818c6abd0627f8c6a9d0627e4c6a7d0627d4c6a5d0627c4c6a3d0627b0c6a1d06279cc69fd06278cc69dd06277cc69bd062768c699d062750c697d06273cc695d062728c693d062714c691d062704c68fd0)
  (.lf 0)))

def shaWireTree351 : BTree :=
  .nd (.nd (.nd (.lf
  0x456608e6cb4456648e6c78456688e6c30456408e6ab44563c8e6a78456488e6a30456308e68b44562c8e6878456348e6830456188e66b4456148e66784561c8e6630455fc8e64b4455f88e6478456088e6430455ec8e62b4455e88e6278455f08e6230455888e60b4455848e6078455e08e6030455648e5eb4455708e5e78455748e5e30455508e5cb4455448e5c78455548e5c30455308e5ab44552c8e5a78455348e5a304551c8e58b4455188e5878455208e5830455088e56b4454fc8e56784550c8e5630454f08e54b4454ec8e5478454f48e5430454e08e52b4454dc8e5278454e48e5230454c88e50b4454c48e5078454cc8e5030454b48e4eb4454b88e4e78454bc8e4e304549c8e4cb4454a08e4c78454a48e4c30454888e4ab4454848e4a784548c8e4a30454788e48b4454548e48784547c8e4830454288e46b44542c8e4678454308e4630452d48e44b4452e48e4478454208e44304529c8e42b4)
  (.lf 0)) (.nd (.lf
  0x7d4012932c07cbc12912c07c3c128f2c07bb4128d2c07b30128b2c07aa812892c07a1c12872c0799812852c0791012832c078d81280cc0a19416bf2c0a11c16bd2c0a09816bb2c0a01016b92c09f8416b72c09f0016b52c09e8016b32c09df816b12c09d6c16af2c09ce016ad2c09c5416ab2c09bc816a92c09b4416a72c09ac416a52c09a4416a32c099bc16a12c09938169f2c098b8169d2c09838169b2c097b016992c0972c16972c096ac16952c0962c16932c095a416912c09518168f2c0948c168d2c09400168b2c0937416892c092f016872c0927016852c091f016832c091b81680cc0ba3c1abf2c0b9cc1abd2c0b94c1abb2c0b8c41ab92c0b8401ab72c0b7c01ab52c0b7381ab32c0b6b41ab12c0b6341aaf2c0b5b41aad2c0b52c1aab2c0b4a01aa92c0b4141aa72c0b3881aa52c0b2fc1aa32c0b2701aa12c0b1e41a9f2c0b1601a9d2c0b0e01a9b2c0b0601a992c0afe01a972c0af601a952c)
  (.lf 0))) (.nd (.nd (.lf
  0x3ab307e20503a8487e1e503a84c7e1c503a8507e1a503a8547e18503a53c7e16503a5407e14503a47c7e12503a4807e10503a3cc7e0e503a2c87e0c503a2cc7e0a503a2d07e08503a2d47e06503a2d87e04503a2dc7e02503a2e07e00503affc823e783af88823c783ae40823a783ae448238783ae488236783ae4c8234783ae508232783ae548230783ae58822e783ab50822c783ab54822a783ab588228783ab5c8226783ab608224783ab648222783ab688220783a868821e783a86c821c783a870821a783a8748218783a54c8216783a5508214783a48c8212783a4908210783a3d4820e783a300820c783a304820a783a3088208783a30c8206783a3108204783a3148202783a3188200783eeb8823e503eebc823c503eec0823a503eec48238503eec88236503eecc8234503eed08232503eed48230503eed8822e503eedc822c503eee0822a503eee48228503eee88226503eeec8224503eef0822250)
  (.lf 0)) (.nd (.lf
  0x53560a870cc53568a86ecc53570a86ccc53578a86acc53580a868cc53588a866cc53590a864cc53598a862cc535a0a860cc535a8a85ecc535b0a85ccc535b8a85acc535c0a858cc535c8a856cc535d0a854cc535d8a852cc535e0a850cc535e8a84ecc535f0a84ccc535f8a84acc53600a848cc53608a846cc53610a844cc53618a842cc53b54a87dd053b2ca87bd053b00a879d053ad4a877d053aa8a875d053a7ca873d053a50a871d053a24a86fd0539f8a86dd0539cca86bd0539a0a869d053974a867d053948a865d05391ca863d0538f0a861d0538c4a85fd053898a85dd05386ca85bd053840a859d053814a857d0537e8a855d0537bca853d053790a851d053764a84fd053738a84dd05370ca84bd0536e0a849d0536b4a847d053688a845d05365ca843d053620a8411053b5ca83ecc53b34a83ccc53b08a83acc53adca838cc53ab0a836cc53a84a834cc53a58a832cc53a2ca830cc53a00a82ecc)
  (.lf 0)))

def shaWireTree352 : BTree :=
  .nd (.nd (.nd (.lf
  0x797ecf17f2c798a4f17d2c79774f17b2c79730f1792c7968cf1772c79664f1752c795dcf1732c79560f1712c794e0f16f2c79464f16d2c7943cf16b2c79414f1692c793f0f1672c793c8f1652c79390f1632c79384f1612c7935cf15f2c7932cf15d2c792f0f15b2c79300f1592c7818cf1572c78018f1552c77fe0f1532c77fc0f1512c77fa4f14f2c77accf14d2c776d0f14b2c775b8f1492c773a8f1472c772c0f1452c77128f1432c76ff4f140cc7a014f57f2c79fd0f57d2c79f28f57b2c79f48f5792c79ef4f5772c79ec0f5752c79e14f5732c79e84f5712c79e30f56f2c79d78f56d2c79d90f56b2c79d3cf5692c79d18f5672c79cf0f5652c79cc4f5632c79ca4f5612c79c7cf55f2c79c58f55d2c79c2cf55b2c79c08f5592c79a98f5572c79a60f5552c79a78f5532c79920f5512c79874f54f2c79854f54d2c79834f54b2c79704f5492c79600f5472c79594f5452c79514f5432c79490f540cc)
  (.lf
  0x3c3dc8894cc3c3e48892cc3c3ec8890cc3c3f4888ecc3c3fc888ccc3c404888acc3c40c8888cc3c4148886cc3c41c8884cc3c4248882cc3c96088bdd03c93888bbd03c90c88b9d03c8e088b7d03c8b488b5d03c88888b3d03c85c88b1d03c83088afd03c80488add03c7d888abd03c7ac88a9d03c78088a7d03c75488a5d03c72888a3d03c6fc88a1d03c6d0889fd03c6a4889dd03c678889bd03c64c8899d03c6208897d03c5f48895d03c5c88893d03c59c8891d03c570888fd03c544888dd03c518888bd03c4ec8889d03c4c08887d03c4948885d03c4688883d03c42c888110243d0887ecc24378887ccc242f8887acc242708878cc241e88876cc241588874cc240c48872cc240348870cc23fa4886ecc23f14886ccc23e84886acc23dfc8868cc23d748866cc23cec8864cc23c648862cc23bdc8860cc23b4c885ecc23ab8885ccc23a2c885acc239a48858cc239148856cc238808854cc237ec8852cc))
  (.nd (.lf
  0xc0841e20500c0881e1e500c08c1e1c500c0901e1a500c0941e18500c0981e16500c09c1e14500c0a01e12500c0a41e10500c0a81e0e500c0ac1e0c500c0b01e0a500c0b41e08500c0b81e06500c0bc1e04500c0c01e02500c0c41e00500c148223e780c14c223c780c150223a780c1542238780c1582236780c15c2234780c1602232780c1642230780c168222e780c16c222c780c170222a780c1742228780c1782226780c17c2224780c1802222780c1842220780c188221e780c18c221c780c190221a780c1942218780c1982216780c19c2214780c1a02212780c1a42210780c1a8220e780c1ac220c780c1b0220a780c1b42208780c1b82206780c1bc2204780c1c02202780c1c42200780d93c223e500d940223c500d944223a500d9482238500d94c2236500d9502234500d9542232500d9582230500d95c222e500d960222c500d964222a500d9682228500d96c2226500d9702224500d974222250)
  (.lf 0))) (.nd (.nd (.lf
  0x3b0e47fe8783b0ec7fe8b43b0f07fe8303b0d07fe6783b0d87fe6b43b0dc7fe6303b0bc7fe4783b0c07fe4b43b0c87fe4303b0b07fe2783b0ac7fe2b43b0b47fe2303b0947fe0783b09c7fe0b43b0a07fe0303b0807fde783b0887fdeb43b08c7fde303b0707fdc783b0747fdcb43b0787fdc303b05c7fda783b0647fdab43b0687fda303b0507fd8783b0487fd8b43b0547fd8303b0387fd6783b03c7fd6b43b0407fd6303b0287fd4783b0207fd4b43b02c7fd4303afa87fd2783b0147fd2b43b0187fd2303af307fd0783af947fd0b43afa07fd0303af207fce783af247fceb43af287fce303af107fcc783af087fccb43af147fcc303aef47fca783aefc7fcab43af007fca303aee87fc8783aee07fc8b43aeec7fc8303aecc7fc6783aed47fc6b43aed87fc6303aec07fc4783aeb87fc4b43aec47fc4303ab707fc2783aeac7fc2b43aeb07fc2303fc7482bc783fc7082bcb43fcf482bc303fc6482ba78)
  (.lf 0)) (.nd (.lf
  0x2678c5213b0267905211b026794520fb026798520db02679c520bb0267a05209b0267a45207b0267a85205b0267ac5203b0267b05201b028a24563fb028a28563db028a2c563bb028a305639b028a345637b028a385635b028a3c5633b028a405631b028a44562fb028a48562db028a4c562bb028a505629b028a545627b028a585625b028a5c5623b028a605621b0288a4561fb028880561db028860561bb0288405619b0288205617b0288005615b0287e05613b0287c05611b0287a0560fb028780560db028760560bb0287405609b0287205607b0286fc5605b0286dc5603b0286745601b029f785a3fb029f7c5a3db029f805a3bb029f845a39b029f885a37b029f8c5a35b029f905a33b029f945a31b029f985a2fb029f9c5a2db029fa05a2bb029fa45a29b029fa85a27b029fac5a25b029fb05a23b029fb45a21b029fb85a1fb029fbc5a1db029fc05a1bb029fc45a19b029fc85a17b029fcc5a15b0)
  (.lf 0)))

def shaWireTree353 : BTree :=
  .nd (.nd (.nd (.lf
  0x12f103d647812f943d64b412f983d643012e903d627812f043d62b412f083d623012e103d607812e843d60b412e883d603012d943d5e7812e043d5eb412e083d5e3012d083d5c7812d883d5cb412d8c3d5c3012c7c3d5a7812cfc3d5ab412d003d5a3012bf03d587812c703d58b412c743d583012b643d567812be43d56b412be83d563012ad43d547812b583d54b412b5c3d543012a583d527812ac83d52b412acc3d5230129cc3d507812a4c3d50b412a503d5030129403d4e78129c03d4eb4129c43d4e30128b03d4c78129343d4cb4129383d4c30128303d4a78128a43d4ab4128a83d4a30127b03d4878128243d48b4128283d4830127303d4678127a43d46b4127a83d4630126b43d4478127243d44b4127283d4430126603d4278126a83d42b4126ac3d4230135b83dbc78135343dbcb4135bc3dbc30135283dba78134b83dbab41352c3dba30134ac3db878134283db8b4134b03db8301341c3db678)
  (.lf 0)) (.nd (.lf
  0x4a8f4004b7d4a8fc004b7b4a904004b794a90c004b774a914004b754a91c004b734a924004b714a92c004b6f4a934004b6d4a93c004b6b4a944004b694a94c004b674a954004b654a95c004b634a964004b614cb0c004b5f4cb14004b5d4cb1c004b5b4cb98004b594cba0004b574cba8004b554cbb0004b534cbb8004b514cbc0004b4f4cbc8004b4d4cbd0004b4b4cbd8004b494cbe0004b474cbe8004b454cbf0004b434cbf8004b414cc00004b3f4cc08004b3d4cc10004b3b4cc18004b394cc20004b374cc28004b354cc30004b334cc38004b314cc40004b2f4cc48004b2d4cc50004b2b4cc58004b294cc60004b274cc68004b254cc70004b234cc78004b214ee30004b1f4ee38004b1d4ee40004b1b4eebc004b194eec4004b174eecc004b154eed4004b134eedc004b114eee4004b0f4eeec004b0d4eef4004b0b4eefc004b094ef04004b074ef0c004b054ef14004b034ef1c004b014ef24004aff)
  (.lf 0))) (.nd (.nd (.lf
  0x6e5ece096b46e5e4e096786e5f0e096306e5d8e094b46e5d4e094786e5dce094306e5c0e092b46e5bce092786e5c4e092306e5b0e090b46e5ace090786e5b4e090306e594e08eb46e590e08e786e5a0e08e306e57ce08cb46e584e08c786e588e08c306e56ce08ab46e570e08a786e574e08a306e558e088b46e55ce088786e560e088306e544e086b46e548e086786e54ce086306e538e084b46e530e084786e53ce084306e4b4e082b46e4b0e082786e528e0823070df8e07cb470df4e07c7870e04e07c3070de8e07ab470de4e07a7870dece07a3070dcce078b470dc8e0787870dd0e0783070dace076b470db0e0767870dbce0763070da0e074b470d94e0747870da4e0743070d80e072b470d7ce0727870d84e0723070d6ce070b470d70e0707870d74e0703070d4ce06eb470d54e06e7870d58e06e3070d38e06cb470d34e06c7870d44e06c3070d28e06ab470d24e06a7870d2ce06a3070d00e068b4)
  (.lf 0)) (.nd (.lf
  0x52888abe3d052874abe1d052860abdfd05284cabddd052838abdbd052824abd9d052810abd7d0527fcabd5d0527e8abd3d0527d4abd1d0527c0abcfd0526dcabcdd052680abcbd05266cabc9d052658abc7d052644abc5d052630abc3d0524d4abc11054974aebecc54938aebccc54918aebacc54958aeb8cc548dcaeb6cc5484caeb4cc549a8aeb2cc549b0aeb0cc549b8aeaecc549c0aeaccc549c8aeaacc549d0aea8cc549d8aea6cc549e0aea4cc549e8aea2cc549f0aea0cc54858ae9ecc54800ae9ccc547b8ae9acc54774ae98cc54730ae96cc546d8ae94cc546a0ae92cc5465cae90cc5460cae8ecc549f8ae8ccc54a00ae8acc54a08ae88cc54a10ae86cc54b08ae84cc54860ae82cc54c54aebdd054c44aebbd054c30aeb9d054c1caeb7d054c08aeb5d054bf4aeb3d054be0aeb1d054bccaeafd054bb8aeadd054ba4aeabd054b90aea9d054b7caea7d054b68aea5d054b50aea3d054b40aea1d0)
  (.lf 0)))

def shaWireTree354 : BTree :=
  .nd (.nd (.nd (.lf
  0x78334f1a430782fcf1a278782ecf1a2b478300f1a230782c8f1a078782ccf1a0b4782e0f1a030782a0f19e78782b8f19eb4782bcf19e3078290f19c7878294f19cb478298f19c3078130f19a7878284f19ab478288f19a30780e4f19878780b4f198b478128f19830780a8f1967877fa0f196b4780acf1963077f78f1947877f7cf194b477f98f1943077f38f1927877f3cf192b477f70f1923077f2cf1907877f28f190b477f30f1903077f1cf18e787785cf18eb477f20f18e307782cf18c7877714f18cb477830f18c3077684f18a78775e8f18ab47770cf18a30775a8f1887877434f188b4775acf1883077424f18678772b8f186b47742cf18630772acf1847877158f184b4772b0f184307714cf182787703cf182b477150f1823079f78f57c787a008f57cb47a00cf57c3079f40f57a7879f50f57ab479f70f57a3079f1cf5787879f18f578b479f20f5783079ef0f5767879f0cf576b479f10f57630)
  (.lf 0)) (.nd (.lf
  0x17a0118cb4017a8118c3001778118a7801774118ab40177c118a300174c118878017481188b401750118830017201186780171c1186b401724118630016f4118478016f01184b4016f8118430016c8118278016c41182b4016cc118230056ec0fbeb4056f00fbcb4056f40fbab4056f80fb8b4056fc0fb6b4057000fb4b4057040fb2b4057080fb0b40570c0faeb4057100facb4057140faab4057180fa8b40571c0fa6b4057200fa4b4057240fa2b4057280fa0b40572c0f9eb4057300f9cb4057340f9ab4057380f98b40573c0f96b4057400f94b4057440f92b4057480f90b40574c0f8eb4057500f8cb4057540f8ab4057580f88b40575c0f86b4057600f84b4057640f82b4057680f80b4040640fbe78040680fbc780406c0fba78040700fb878040740fb678040780fb4780407c0fb278040800fb078040840fae78040880fac780408c0faa78040900fa878040940fa678040980fa4780409c0fa278)
  (.lf 0))) (.nd (.nd (.lf
  0x152e437eab4152ec37ea30152d437e878152d037e8b4152d837e830152c037e678152bc37e6b4152c437e630152ac37e478152a837e4b4152b037e4301529837e2781529437e2b41529c37e2301528437e0781528037e0b41528837e0301527037de781526c37deb41527437de301525c37dc781525837dcb41526037dc301524837da781524437dab41524c37da301523437d8781523037d8b41523837d8301522037d6781521c37d6b41522437d6301520c37d4781520837d4b41521037d430151ac37d278151f837d2b4151fc37d2301515037d078151a037d0b4151a437d030150f837ce781514437ceb41514837ce30150a037cc78150ec37ccb4150f037cc301504837ca781509437cab41509837ca3014ff037c8781503c37c8b41504037c83014f9837c67814fe437c6b414fe837c63014f4037c47814f8c37c4b414f9037c43014ee837c27814f3437c2b414f3837c230172a03abc781729c3abcb4)
  (.lf 0)) (.nd (.lf
  0x2ce546db3d02ce406db1d02ce306dafd02ce206dadd02ce086dabd02cdf86da9d02cde46da7d02cdd06da5d02cdbc6da3d02cda86da1d02cd4c6d9fd02cd386d9dd02cd246d9bd02cd106d99d02ccfc6d97d02cce86d95d02cc9c6d93d02cc4c6d91d02cc386d8fd02cc286d8dd02cc146d8bd02cc006d89d02cbec6d87d02cbdc6d85d02ca606d83d02c9206d81102e900717ecc2e8bc717ccc2e850717acc2e7e07178cc2e7687176cc2e6ec7174cc2e6787172cc2e6087170cc2e95c716ecc2eeb0716ccc2e4c0716acc2e4487168cc2eeb47166cc2e9087164cc2eb087162cc2ea047160cc2e904715ecc2e910715ccc2ea00715acc2e9747158cc2e0347156cc2dfc07154cc2df507152cc2dee47150cc2de70714ecc2de00714ccc2dd8c714acc2dd1c7148cc2dc9c7146cc2dc147144cc2db947142cc2f168717dd02f154717bd02f1407179d02f12c7177d02f1187175d02f0f47173d02f0b87171d0)
  (.lf 0)))

def shaWireTree355 : BTree :=
  .nd (.nd (.nd (.lf
  0x64638caa0b464a50caa03064628ca9e7864624ca9eb46462cca9e3064618ca9c7864610ca9cb46461cca9c3064604ca9a7864600ca9ab464608ca9a30645ecca9878645f0ca98b4645f4ca9830645d4ca9678645d8ca96b4645dcca9630645c8ca9478645c0ca94b4645ccca9430645acca9278645b4ca92b4645b8ca92306459cca907864598ca90b4645a0ca90306458cca8e786457cca8eb464590ca8e306456cca8c7864570ca8cb464574ca8c3064554ca8a7864558ca8ab46455cca8a30643c8ca887864544ca88b464548ca8830643bcca8678643b8ca86b4643c0ca86306439cca8478643a8ca84b4643acca843064350ca82786438cca82b464390ca823065d6cca7cb465d70ca7c7865d74ca7c3065d60ca7ab465d5cca7a7865d64ca7a3065d3cca78b465d48ca787865d4cca783065d30ca76b465d28ca767865d34ca763065d00ca74b465d18ca747865d1cca743065cecca72b465ce8ca7278)
  (.lf 0)) (.nd (.lf
  0x2abf45b1cb42ab805b1b4a2ab085b18b42aa945b174a2aa205b14b42a9b45b12b42a9445b114a2a8cc5b0f4a2a8545b0d4a2a7e05b0ab42a7705b094a2a6f45b074a2a6885b04aa2a6045ac32c2a5c85ac0cc2c8c45f3eb42c88c5f3d4a2c8485f3b4a2c8045f394a2c7c45f36b42c7885f354a2c7445f334a2c7045f30b42c6c85f2f4a2c6845f2d4a2c6405f2b4a2c5fc5f294a2c5b85f274a2c5785f24b42c5405f22b42c5045f214a2c4c05f1f4a2c4805f1cb42c4485f1ab42c4105f18b42c3d45f174a2c3945f14b42c35c5f12b42c3245f10b42c2e85f0f4a2c2a45f0d4a2c2645f0ab42c2285f094a2c1e45f074a2c1a45f04b42c1745f02aa2c1605ec0cc2e8fc633f4a2e894633cb42e824633ab42e7b063394a2e73463374a2e6bc6334b42e64c6332b42e5dc6330b42e570632eb42e504632cb42e490632b4a2e41463294a2e39c63274a2e32463254a2e2ac63234a2e2386320b42e1cc631eb4)
  (.lf 0))) (.nd (.nd (.lf
  0x300c4641878300c86418302ffd06416b430044641678300486416302ff486414b42ffc46414782ffc86414302febc6412b42ff3c6412782ff406412302fe386410b42feb06410782feb46410302fdb8640eb42fe2c640e782fe30640e302fd30640cb42fdac640c782fdb0640c302fca4640ab42fd24640a782fd28640a302fc206408b42fc986408782fc9c6408302fb986406b42fc146406782fc186406302fb146404b42fb8c6404782fb906404302faa06402b42fb086402782fb0c640230328b868bcb4328b468bc78328bc68bc303285868bab43285468ba783285c68ba30327e468b8b4327e068b878327e868b8303276c68b6b43276868b6783277068b630326fc68b4b4326f868b4783270068b4303269068b2b43268c68b2783269468b2303262468b0b43262068b0783262868b030325b468aeb4325b068ae78325b868ae303253c68acb43253868ac783254068ac30324bc68aab4324b868aa78)
  (.lf 0)) (.nd (.lf
  0x119142aedd0118942aebd01180c2ae9d0117802ae7d0116fc2ae5d01167c2ae3d0115fc2ae1d0115742adfd0114e82addd0114642adbd0113e42ad9d0113642ad7d0112e42ad5d01125c2ad3d0111d82ad1d0111502acfd0110c42acdd0110402acbd010fb82ac9d010f2c2ac7d010ea02ac5d010e142ac3d010d842ac110107242bfecc1072c2bfccc107342bfacc1073c2bf8cc107442bf6cc1074c2bf4cc107542bf2cc1075c2bf0cc107642beecc1076c2beccc107742beacc1077c2be8cc107842be6cc1078c2be4cc107942be2cc1079c2be0cc107a42bdecc107ac2bdccc107b42bdacc107bc2bd8cc107c42bd6cc107cc2bd4cc107d42bd2cc107dc2bd0cc107e42bcecc107ec2bcccc107f42bcacc107fc2bc8cc108042bc6cc1080c2bc4cc108142bc2cc10a782bfdd010a642bfbd010a502bf9d010a3c2bf7d010a282bf5d010a142bf3d010a002bf1d0109ec2befd0109d82bedd0109c42bebd0)
  (.lf 0)))

def shaWireTree356 : BTree :=
  .nd (.nd (.nd (.lf
  0x6fb9400084b6fb980008496fb9c0008476fba00008456fba40008436fba80008416fbac00083f6fbb000083d6fbb400083b6fbb80008396fbbc0008377094000083570944000833709480008317094c00082f7095000082d7095400082b709580008297095c0008277096000082570964000823709680008217096c00081f7097000081d7097400081b709780008197097c0008177098000081570984000813709880008117098c00080f7099000080d7099400080b709980008097099c000807709a0000805709a4000803709a8000801709ac0007ff709b00007fd7168c0007fb716900007f9716940007f7716980007f57169c0007f3716a00007f1716a40007ef716a80007ed716ac0007eb716b00007e9716b40007e7716b80007e5716bc0007e3716c00007e1716c40007df716c80007dd716cc0007db716d00007d9716d40007d7716d80007d5716dc0007d3716e00007d1716e40007cf716e80007cd)
  (.lf 0)) (.nd (.lf
  0x569a8b7a078569bcb79e78569e8b79c7856958b79a7856938b79878568c8b796785677cb7947856744b79278566e8b79078566c0b78e78566c4b78c78566c8b78a7856520b78878564f8b7867855fecb7847855f84b7827855f2cb78078598d0b7be3059904b7bc305988cb7ba30597c4b7b830597c8b7b63059788b7b4305983cb7b23059730b7b030596f0b7ae305967cb7ac3059680b7aa305963cb7a8305961cb7a630595ecb7a430595c8b7a230595a0b7a03059558b79e305956cb79c3059514b79a3059518b79830594c4b79630594a0b79430594dcb792305947cb7903059434b78e3059448b78c3059410b78a30593d8b788305838cb7863058320b78430582a8b78230581c8b780305bf40bbbeb45bee4bbbcb45bdacbbbab45bd70bbb8b45bd3cbbb6b45bcc4bbb4b45be40bbb2b45bdf4bbb0b45bc68bbaeb45bbf8bbacb45bbfcbbaab45bc18bba8b45bbb0bba6b45bb90bba4b45bb60bba2b4)
  (.lf 0))) (.nd (.nd (.lf
  0x29e845bf27829e805bf2b429e885bf23029e705bf07829e6c5bf0b429e745bf03029e5c5bee7829e585beeb429e605bee3029e485bec7829e445becb429e4c5bec3029e345bea7829e305beab429e385bea3029e205be87829e1c5be8b429e245be83029e0c5be67829e085be6b429e105be63029df85be47829df45be4b429dfc5be43029de45be27829de05be2b429de85be23029dd05be07829dcc5be0b429dd45be03029dbc5bde7829db85bdeb429dc05bde3029da85bdc7829da45bdcb429dac5bdc3029d945bda7829d905bdab429d985bda3029d805bd87829d7c5bd8b429d845bd83029d6c5bd67829d685bd6b429d705bd63029d585bd47829d545bd4b429d5c5bd43029cf45bd27829d445bd2b429d485bd23029c985bd07829ce85bd0b429cec5bd03029c405bce7829c8c5bceb429c905bce3029be85bcc7829c345bccb429c385bcc3029b905bca7829bdc5bcab429be05bca3029b385bc878)
  (.lf 0)) (.nd (.lf
  0x78498f1abd0783e0f1a9d0783d0f1a7d078338f1a5d078304f1a3d0782e4f1a1d0782c4f19fd07829cf19dd07828cf19bd07812cf199d0780b0f197d077f9cf195d077f74f193d077f34f191d077f24f18fd077858f18dd077710f18bd0775e4f189d077430f187d0772b4f185d077154f183d076ff8f1811079b6cf57ecc79b4cf57ccc79b34f57acc79b68f578cc79b08f576cc79ebcf574cc79b64f572cc79accf570cc79b74f56ecc79a3cf56ccc79a24f56acc79b80f568cc79a44f566cc799e8f564cc799d0f562cc799b8f560cc799a4f55ecc79984f55ccc799ecf55acc79958f558cc79944f556cc79900f554cc79908f552cc7991cf550cc79790f54ecc79740f54ccc796e8f54acc79700f548cc795fcf546cc79580f544cc79500f542cc7a010f57dd079f74f57bd079f24f579d079f14f577d079eecf575d079e0cf573d079dfcf571d079decf56fd079ddcf56dd079d74f56bd079d64f569d0)
  (.lf 0)))

def shaWireTree357 : BTree :=
  .nd (.nd (.nd (.lf
  0x7c8d4eeb0787c8d0eeb0b47c8d8eeb0307c8c4eeae787c8aceeaeb47c8c8eeae307c89ceeac787c8a0eeacb47c8a4eeac307c86ceeaa787c888eeaab47c88ceeaa307c7b8eea8787c7bceea8b47c860eea8307c7a0eea6787c7aceea6b47c7b0eea6307c794eea4787c790eea4b47c798eea4307c774eea2787c770eea2b47c778eea2307c764eea0787c760eea0b47c768eea0307c74cee9e787c748ee9eb47c750ee9e307c72cee9c787c6fcee9cb47c740ee9c307c6e0ee9a787c688ee9ab47c6e4ee9a307c2d4ee98787c2d8ee98b47c67cee98307c2c0ee96787c29cee96b47c2c4ee96307c288ee94787c27cee94b47c28cee94307c268ee92787c270ee92b47c274ee92307c254ee90787c248ee90b47c258ee90307c234ee8e787c23cee8eb47c240ee8e307c224ee8c787c21cee8cb47c228ee8c307c208ee8a787c210ee8ab47c214ee8a307c1fcee88787c1e8ee88b47c200ee88307c1c4ee8678)
  (.lf 0)) (.nd (.lf
  0x295e45b9dd0295e85b9bd0295ec5b99d0295f05b97d0295f45b95d0295f85b93d0295fc5b91d0296005b8fd0296045b8dd0296085b8bd02960c5b89d0296105b87d0296145b85d0296185b83d02961c5b81d02b7e05fbfd02b7e45fbdd02b7e85fbbd02b7ec5fb9d02b7f05fb7d02b7f45fb5d02b7f85fb3d02b7fc5fb1d02b8005fafd02b8045fadd02b8085fabd02b80c5fa9d02b8105fa7d02b8145fa5d02b8185fa3d02b81c5fa1d02b8205f9fd02b8245f9dd02b8285f9bd02b82c5f99d02b5785f97d02b57c5f95d02b5805f93d02b5845f91d02b5a45f8fd02b4845f8dd02b4405f8bd02b4445f89d02b4485f87d02b44c5f85d02b3c85f83d02b3cc5f81d02d28063bfd02d28463bdd02d28c63bbd02d29063b9d02d2b063b7d02d1e063b5d02d11463b3d02d11863b1d02d11c63afd02d12063add02d12463abd02d08463a9d02d05863a7d02d00c63a5d02d01063a3d02d01463a1d02d018639fd0)
  (.lf 0))) (.nd (.nd (.lf
  0x4ede8a4b6304edd0a4b4b44edcca4b4784edd4a4b4304edbca4b2b44edb8a4b2784edc0a4b2304eda8a4b0b44eda4a4b0784edaca4b0304ed94a4aeb44ed90a4ae784ed98a4ae304ed80a4acb44ed7ca4ac784ed84a4ac304ed6ca4aab44ed68a4aa784ed70a4aa304ed58a4a8b44ed54a4a8784ed5ca4a8304ed44a4a6b44ed40a4a6784ed48a4a6304ed30a4a4b44ed2ca4a4784ed34a4a4304ed1ca4a2b44ed18a4a2784ed20a4a2304ed08a4a0b44ed04a4a0784ed0ca4a0304ecf4a49eb44ecf0a49e784ecf8a49e304ece0a49cb44ecdca49c784ece4a49c304eccca49ab44ecc8a49a784ecd0a49a304ecb8a498b44ecb4a498784ecbca498304eca4a496b44eca0a496784eca8a496304ec90a494b44ec8ca494784ec94a494304ec7ca492b44ec78a492784ec80a492304ec68a490b44ec64a490784ec6ca490304ec54a48eb44ec50a48e784ec58a48e304ec40a48cb44ec3ca48c784ec44a48c30)
  (.lf 0)) (.nd (.lf
  0x31aa46ac5d031a306ac3d0319ec6ac110328886b3d40327a46b39f43272c6b3740321e46b21f4321586b1f4031fcc6b194031e406b13f431db46b11f431d286b0ff431c9c6b0df431c106b0b40311dc6bfecc311e46bfccc312206bfacc312286bf8cc312706bf6cc311806bf4cc312846bf2cc311186bf0cc310c06beecc310686beccc310106beacc30fcc6be8cc30f986be6cc312346be4cc3123c6be2cc312446be0cc311886bdecc3128c6bdccc311206bdacc310c86bd8cc310706bd6cc310186bd4cc3124c6bd2cc312546bd0cc3125c6bcecc311906bcccc312946bcacc311286bc8cc310d06bc6cc310786bc4cc310206bc2cc314986bfdd0314846bfbd0314706bf9d03145c6bf7d0314486bf5d0314346bf3d0314206bf1d03140c6befd0313f86bedd0313e46bebd0313d06be9d0313bc6be7d0313a86be5d0313946be3d0313806be1d03136c6bdfd0313586bddd0313446bdbd0313306bd9d0)
  (.lf 0)))

def shaWireTree358 : BTree :=
  .nd (.nd (.nd (.lf
  0x41af09586b441c3895863041ab895847841a789584b441abc95843041a6c95827841a449582b441a7095823044184997c7844264997cb444268997c304415c997a7844158997ab444160997a3044004997878441189978b44411c99783043f4899767843ff89976b443ffc99763043f3c99747843f389974b443f4099743043e6099727843efc9972b443f0099723043d7499707843e549970b443e5899703043d4c996e7843d64996eb443d6c996e3043b70996c7843d40996cb443d44996c3043ab4996a7843b64996ab443b68996a3043a6499687843aa89968b443aac99683043a1099667843a589966b443a5c9966304391c99647843a049964b443a0899643043890996278439109962b443914996230437ec996078438849960b443888996030437a8995e78437dc995eb4437e4995e30436d8995c784379c995cb4437a0995c3043640995a78436cc995ab4436d0995a30435bc995878436349958b4)
  (.lf 0)) (.nd (.lf
  0x1c984585d2c1c970585b2c1c95c58592c1c94858572c1c93458552c1c92058532c1c90c58512c1c8f8584f2c1c8e4584d2c1c8d0584b2c1c8bc58492c1c8a858472c1c89458452c1c88058432c1c87c5840cc1ceac5c7f2c1ce985c7d2c1ce845c7b2c1ce705c792c1ce5c5c772c1ce485c752c1ce345c732c1ce205c712c1ce0c5c6f2c1cdf85c6d2c1cde45c6b2c1cdd05c692c1cdbc5c672c1cda85c652c1cd945c632c1cd805c612c1cd6c5c5f2c1cd585c5d2c1cd445c5b2c1cd305c592c1cd1c5c572c1cd085c552c1ccf45c532c1cce05c512c1cccc5c4f2c1ccb85c4d2c1cca45c4b2c1cc905c492c1cc7c5c472c1cc685c452c1cc545c432c1cc505c40cc1d280607f2c1d26c607d2c1d258607b2c1d24460792c1d23060772c1d21c60752c1d20860732c1d1f460712c1d1e0606f2c1d1cc606d2c1d1b8606b2c1d1a460692c1d19060672c1d17c60652c1d16860632c1d15460612c1d140605f2c)
  (.lf 0))) (.nd (.nd (.lf
  0x7970130214075c813fc78075c413fcb4075cc13fc30075b413fa78075b013fab4075b813fa30075a013f8780759c13f8b4075a413f8300758c13f6780758813f6b40759013f6300757813f4780757413f4b40757c13f4300756413f2780756013f2b40756813f2300755013f0780754c13f0b40755413f0300753c13ee780753813eeb40754013ee300752813ec780752413ecb40752c13ec300751413ea780751013eab40751813ea300750013e878074fc13e8b40750413e830074ec13e678074e813e6b4074f013e630074d813e478074d413e4b4074dc13e430074c413e278074c013e2b4074c813e230074b013e078074ac13e0b4074b413e0300749c13de780749813deb4074a013de300748813dc780748413dcb40748c13dc300747413da780747013dab40747813da300746013d8780745c13d8b40746413d8300744c13d6780744813d6b40745013d6300743813d4780743413d4b40743c13d430)
  (.lf 0)) (.nd (.lf
  0x7bd90ee9ecc7bd0cee9ccc7c030ee9acc7bce4ee98cc7bc5cee96cc7bc58ee94cc7bc7cee92cc7bfb4ee90cc7c02cee8ecc7bf24ee8ccc7befcee8acc7beacee88cc7be64ee86cc7c028ee84cc7bd84ee82cc7cb88eebdd07cb60eebbd07cb34eeb9d07cb0ceeb7d07c914eeb5d07c8fceeb3d07c8dceeb1d07c8cceeafd07c8a8eeadd07c890eeabd07c864eea9d07c7b4eea7d07c79ceea5d07c784eea3d07c76ceea1d07c754ee9fd07c744ee9dd07c6e8ee9bd07c680ee99d07c2c8ee97d07c290ee95d07c278ee93d07c25cee91d07c244ee8fd07c22cee8dd07c218ee8bd07c204ee89d07c1e4ee87d07c1c0ee85d07bd9cee83d07bd20ee811077790ee7ecc7764cee7ccc774d4ee7acc77348ee78cc771e4ee76cc77188ee74cc76fb4ee72cc76ed0ee70cc76e78ee6ecc76d88ee6ccc76d04ee6acc76c80ee68cc76becee66cc76b58ee64cc76af8ee62cc76a34ee60cc769c0ee5ecc76978ee5ccc)
  (.lf 0)))

def shaWireTree359 : BTree :=
  .nd (.nd (.nd (.lf
  0x4e1d0a3d6b44e1d4a3d6304e1b4a3d4784e1bca3d4b44e1c0a3d4304e148a3d2784e1a0a3d2b44e1aca3d2304e0cca3d0784e13ca3d0b44e140a3d0304e0c0a3ce784e0b8a3ceb44e0c4a3ce304dfc8a3cc784e0aca3ccb44e0b0a3cc304dee0a3ca784dfb4a3cab44dfc0a3ca304de74a3c8784ded4a3c8b44ded8a3c8304de00a3c6784de68a3c6b44de6ca3c6304dd58a3c4784ddf4a3c4b44ddf8a3c4304dce4a3c2784dd44a3c2b44dd50a3c23050a68a6bc7850a64a6bcb450a6ca6bc3050a54a6ba7850a50a6bab450a58a6ba3050a40a6b87850a3ca6b8b450a44a6b83050a2ca6b67850a28a6b6b450a30a6b63050a18a6b47850a14a6b4b450a1ca6b43050a04a6b27850a00a6b2b450a08a6b230509f0a6b078509eca6b0b4509f4a6b030509dca6ae78509d8a6aeb4509e0a6ae30509c8a6ac78509c4a6acb4509cca6ac30509b4a6aa78509b0a6aab4509b8a6aa30509a0a6a8785099ca6a8b4)
  (.lf 0)) (.nd (.lf
  0x272b852532c2722052512c27188524f2c270e8524d2c27044524b2c26fa852492c26f0852472c26e6452452c26dc052432c26d7c5240cc22bd8567f2c22bc4567d2c22bb0567b2c22b9c56792c22b8856772c22b7456752c22b6056732c22b4c56712c22b38566f2c22b24566d2c22b10566b2c22afc56692c22ae856672c22ad456652c22ac056632c22aac56612c22a98565f2c22a84565d2c22a70565b2c22a5c56592c22a4856572c22a3456552c22a2056532c22a0c56512c229f8564f2c229e8564d2c220b0564b2c21e9056492c21e6456472c21e3856452c21da456432c21d905640cc2b38c5a7f2c2b3245a7d2c2b2b05a7b2c2b23c5a792c2b1c45a772c2b14c5a752c2b0dc5a732c2b0705a712c2affc5a6f2c2af8c5a6d2c2af145a6b2c2ae985a692c2ae245a672c2adb45a652c2ad445a632c2acd45a612c2ac5c5a5f2c2abe85a5d2c2ab705a5b2c2aafc5a592c2aa845a572c2aa145a552c)
  (.lf 0))) (.nd (.nd (.lf
  0x195e0002501195e40024ff195e80024fd195ec0024fb195f00024f9195f40024f7195f80024f5195fc0024f3196000024f1196040024ef196080024ed1960c0024eb196100024e9196140024e7196180024e51961c0024e3196200024e1214600024df214640024dd214680024db2146c0024d9214700024d7214740024d5214780024d32147c0024d1214800024cf214840024cd214880024cb2148c0024c9214900024c7214940024c5214980024c32149c0024c1214a00024bf214a40024bd214a80024bb214ac0024b9214b00024b7214b40024b5214b80024b3214bc0024b1214c00024af214c40024ad214c80024ab214cc0024a9214d00024a7214d40024a5214d80024a3214dc0024a122d5c00249f22d6000249d22d6400249b22d6800249922d6c00249722d7000249522d7400249322d7800249122d7c00248f22d8000248d22d8400248b22d8800248922d8c00248722d9000248522d94002483)
  (.lf 0)) (.nd (.lf
  0x6e474e08ccc6e47ce08acc6e484e088cc6e48ce086cc6e494e084cc6e49ce082cc6e7a0e0bdd06e78ce0bbd06e778e0b9d06e764e0b7d06e750e0b5d06e73ce0b3d06e728e0b1d06e714e0afd06e700e0add06e6ece0abd06e6d8e0a9d06e6c4e0a7d06e6b0e0a5d06e69ce0a3d06e688e0a1d06e674e09fd06e660e09dd06e64ce09bd06e630e099d06e5f4e097d06e5e0e095d06e5cce093d06e5b8e091d06e5a4e08fd06e58ce08dd06e578e08bd06e564e089d06e550e087d06e540e085d06e52ce083d06e4a8e081107092ce07ecc70934e07ccc7093ce07acc709b8e078cc709c0e076cc709c8e074cc709d0e072cc709d8e070cc709e0e06ecc709e8e06ccc709f0e06acc709f8e068cc70a00e066cc70a08e064cc70a10e062cc70a18e060cc70a20e05ecc70a28e05ccc70a30e05acc70a38e058cc70a40e056cc70a48e054cc70a50e052cc70a58e050cc70a60e04ecc70a68e04ccc70a70e04acc)
  (.lf 0)))

def shaWireTree360 : BTree :=
  .nd (.nd (.nd (.lf
  0x2b73c697f2c2b728697d2c2b714697b2c2b70069792c2b6ec69772c2b6d869752c2b6c469732c2b6b069712c2b69c696f2c2b688696d2c2b674696b2c2b66069692c2b64c69672c2b63869652c2b62469632c2b61069612c2b5fc695f2c2b5e8695d2c2b5d4695b2c2b5c069592c2b55069572c2b54069552c2b52869532c2b51469512c2b598694f2c2b474694d2c2b418694b2c2b40869492c2b3f069472c2b3dc69452c2a63469432c2b3ac6940cc2d25c6d7f2c2d2486d7d2c2d2346d7b2c2d2206d792c2d2a46d772c2d1d46d752c2d0e86d732c2d0dc6d712c2d0c06d6f2c2d0ac6d6d2c2d0986d6b2c2d0746d692c2d04c6d672c2cfe46d652c2cfd46d632c2cfbc6d612c2cfa86d5f2c2cf906d5d2c2cb986d5b2c2cb186d592c2cb106d572c2caf06d552c2cadc6d532c2cac86d512c2cab46d4f2c2ca986d4d2c2c9d06d4b2c2c9c06d492c2c97c6d472c2c9146d452c2d3586d432c2c8d86d40cc)
  (.lf
  0x1fa785c98cc1f9c05c96cc1f9005c94cc1f8485c92cc1f7905c90cc1f6d45c8ecc1f6105c8ccc1f5505c8acc1f4945c88cc1f3e05c86cc1f3285c84cc1f2645c82cc207d05cbdd0207245cbbd0206605cb9d0205a85cb7d0204f05cb5d0204345cb3d0203785cb1d0202c45cafd0202045cadd02014c5cabd0200945ca9d01ffd85ca7d01ff145ca5d01fe5c5ca3d01fd9c5ca1d01fcdc5c9fd01fc205c9dd01fb645c9bd01faa05c99d01f9e85c97d01f9285c95d01f8705c93d01f7b85c91d01f6fc5c8fd01f6385c8dd01f5785c8bd01f4bc5c89d01f4085c87d01f3505c85d01f28c5c83d01f1c85c81101cae05c7ecc1cae85c7ccc1caf05c7acc1cb6c5c78cc1cb745c76cc1cb7c5c74cc1cb845c72cc1cb8c5c70cc1cb945c6ecc1cb9c5c6ccc1cba45c6acc1cbac5c68cc1cbb45c66cc1cbbc5c64cc1cbc45c62cc1cbcc5c60cc1cbd45c5ecc1cbdc5c5ccc1cbe45c5acc1cbec5c58cc1cbf45c56cc))
  (.nd (.lf
  0xee340036810ee3800367f0ee3c00367d0ee4000367b0ee440036790ee480036770ee4c0036750ee500036730ee540036710ee5800366f0ee5c00366d0ee6000366b0ee640036690ee680036670ee6c0036650ee700036630ee74003661106a000365f106a400365d106a800365b106ac003659106b0003657106b4003655106b8003653106bc003651106c000364f106c400364d106c800364b106cc003649106d0003647106d4003645106d8003643106dc003641106e000363f106e400363d106e800363b106ec003639106f0003637106f4003635106f8003633106fc0036311070000362f1070400362d1070800362b1070c0036291071000362710714003625107180036231071c00362111f5c00361f11f6000361d11f6400361b11f6800361911f6c00361711f7000361511f7400361311f7800361111f7c00360f11f8000360d11f8400360b11f8800360911f8c00360711f9000360511f94003603)
  (.lf 0))) (.nd (.nd (.lf
  0x344b06ef030344306eeeb4343c86eee78344346eee30343bc6eecb4343506eec78343c06eec30343446eeab4342dc6eea78343486eea30342d06ee8b4342686ee878342d46ee8303425c6ee6b4341f06ee678342606ee630341e46ee4b43417c6ee478341e86ee430341706ee2b4341106ee278341746ee230341046ee0b4340986ee078341086ee0303408c6edeb4340246ede78340906ede30340186edcb433fac6edc783401c6edc3033fa06edab433f346eda7833fa46eda3033f286ed8b433eb86ed87833f2c6ed83033eac6ed6b433e3c6ed67833eb06ed63033e306ed4b433dc46ed47833e346ed43033db86ed2b433d4c6ed27833dbc6ed23033d406ed0b433cd06ed07833d446ed03033cc46eceb433c4c6ece7833cc86ece3033c406eccb433bbc6ecc7833c446ecc3033bb06ecab433b346eca7833bb46eca3033b286ec8b433aa86ec87833b2c6ec83033a9c6ec6b433a186ec67833aa06ec630)
  (.lf 0)) (.nd (.lf
  0x26964006bf32696c006bf126974006bef2697c006bed26984006beb2698c006be926994006be72699c006be5269a4006be3269ac006be128b24006bdf28b2c006bdd28b34006bdb28b3c006bd928b44006bd728b4c006bd528b54006bd328b5c006bd128b64006bcf28b6c006bcd28b74006bcb28b7c006bc928b84006bc728b8c006bc528b94006bc328b9c006bc128ba4006bbf28bac006bbd28bb4006bbb28bbc006bb928bc4006bb728bcc006bb528bd4006bb328bdc006bb128be4006baf28bec006bad28bf4006bab28bfc006ba928c04006ba728c0c006ba528c14006ba328c1c006ba12a0f8006b9f2a100006b9d2a108006b9b2a110006b992a118006b972a120006b952a128006b932a130006b912a138006b8f2a140006b8d2a148006b8b2a150006b892a158006b872a160006b852a168006b832a170006b812a178006b7f2a180006b7d2a188006b7b2a190006b792a198006b772a1a0006b75)
  (.lf 0)))

def shaWireTree361 : BTree :=
  .nd (.nd (.nd (.lf
  0x82c40fed83082c24fed6b482c2cfed67882c30fed63082c10fed4b482c0cfed47882c14fed43082bfcfed2b482c00fed27882c04fed23082ab4fed0b482bf0fed07882bf4fed030829a8feceb482aa8fece7882aacfece308267cfeccb48294cfecc78829a0fecc3082670fecab48266cfeca7882674feca3082568fec8b482624fec87882628fec830822e0fec6b482558fec6788255cfec630822d4fec4b482238fec478822d8fec43082184fec2b482170fec27882188fec23083460ff3eaa8349cff3caa83448ff34aa833e8ff32aa834a4ff2caa833d0ff2aaa83380ff28aa8346cff20aa82c60ff1caa82c7cff1aaa82d64ff18aa82c28ff16aa82a70ff0eaa82958ff0caa8265cff0aaa82668ff08aa836c4ff3c1e836fcff3cb483700ff3c14835f8ff3940836bcff3aa0835e8ff3740835f4ff38a0835d8ff35f4835e4ff36a0835c8ff341e835d0ff34b4835d4ff3414835b0ff321e835acff32b4)
  (.lf 0)) (.nd (.lf
  0x29da05bdd2c29d8c5bdb2c29d785bd92c29d645bd72c29d505bd52c29d405bd32c29ce45bd12c29c885bcf2c29c305bcd2c29bd85bcb2c29b805bc92c29b285bc72c29ad05bc52c29a785bc32c29a2c5bc0cc2bc585fff2c2bc445ffd2c2bc305ffb2c2bc1c5ff92c2bc085ff72c2bbf45ff52c2bbe05ff32c2bbcc5ff12c2bbb85fef2c2bba45fed2c2bb905feb2c2bb7c5fe92c2bb685fe72c2bb545fe52c2bb405fe32c2bb2c5fe12c2bb185fdf2c2bb045fdd2c2baf05fdb2c2badc5fd92c2bac85fd72c2bab45fd52c2baa05fd32c2ba8c5fd12c2ba785fcf2c2ba645fcd2c2ba505fcb2c2ba3c5fc92c2ba285fc72c2ba145fc52c2ba005fc32c2b9fc5fc0cc2d5e463ff2c2d5d063fd2c2d5bc63fb2c2d5a863f92c2d59463f72c2d58063f52c2d56c63f32c2d55863f12c2d54463ef2c2d53063ed2c2d51c63eb2c2d50863e92c2d4f463e72c2d4e063e52c2d4cc63e32c2d4b863e12c2d4a463df2c)
  (.lf 0))) (.nd (.nd (.lf
  0x608f8c0487860900c04830608ecc046b4608e0c04678608f0c04630608d4c044b4608c8c04478608d8c04430608bcc042b4608b0c04278608c0c0423060e64c03cb460e3cc03c7860e68c03c3060e28c03ab460e30c03a7860e34c03a3060e1cc038b460e18c0387860e20c0383060dfcc036b460e00c0367860e04c0363060df0c034b460decc0347860df4c0343060dd8c032b460d50c0327860ddcc0323060d44c030b460d20c0307860d48c0303060d10c02eb460d14c02e7860d18c02e3060cd8c02cb460cc0c02c7860cdcc02c3060cb4c02ab460ca0c02a7860cb8c02a3060c8cc028b460c48c0287860c98c0283060c3cc026b460c28c0267860c40c0263060c18c024b460c10c0247860c1cc0243060c04c022b460c00c0227860c08c0223060becc020b460be8c0207860bf0c0203060bd8c01eb460bc8c01e7860bdcc01e3060bbcc01cb460bb8c01c7860bc0c01c3060ba4c01ab460ba0c01a78)
  (.lf 0)) (.nd (.lf
  0x42ed48bd2cc42ed08bd0cc42ec88bcecc42cdc8bcccc42a608bcacc428e88bc8cc428e48bc6cc427c48bc4cc427808bc2cc430f08bfdd0430a48bfbd0430908bf9d04307c8bf7d0430688bf5d0430548bf3d0430408bf1d04302c8befd0430188bedd0430048bebd042ff08be9d042fdc8be7d042fc88be5d042fb48be3d042fa08be1d042f8c8bdfd042f788bddd042f648bdbd042f508bd9d042f3c8bd7d042f288bd5d042f148bd3d042f008bd1d042eec8bcfd042cf08bcdd042a588bcbd0429108bc9d0428e08bc7d0427f88bc5d0427948bc3d04276c8bc110443e08ebecc442ac8ebccc442b48ebacc441788eb8cc440148eb6cc440588eb4cc445e48eb2cc442bc8eb0cc442c48eaecc442cc8eaccc442d48eaacc445ec8ea8cc442dc8ea6cc442e48ea4cc442ec8ea2cc442f48ea0cc442fc8e9ecc443048e9ccc4430c8e9acc443148e98cc4431c8e96cc43bb48e94cc43bbc8e92cc43bc48e90cc)
  (.lf 0)))

def shaWireTree362 : BTree :=
  .nd (.nd (.nd (.lf
  0x5ba5cc554785ba44c554b45ba60c554305ba34c552785ba38c552b45ba3cc552305ba14c550785a78cc550b45ba18c550305a780c54e785a77cc54eb45a784c54e305a76cc54c785a768c54cb45a770c54c305a754c54a785a758c54ab45a75cc54a305a624c548785a728c548b45a74cc548305a3d4c546785a5f8c546b45a61cc546305a3acc544785a3b0c544b45a3b4c5443059fbcc542785a318c542b45a33cc542305b720c5bc785b71cc5bcb45b724c5bc305b6a0c5ba785b70cc5bab45b710c5ba305b654c5b8785b5c8c5b8b45b658c5b8305b5b8c5b6785b5bcc5b6b45b5c0c5b6305b5acc5b4785b500c5b4b45b5b0c5b4305b4f4c5b2785b4bcc5b2b45b4f8c5b2305b4a8c5b0785b44cc5b0b45b4b4c5b0305b440c5ae785b3f4c5aeb45b444c5ae305b3e8c5ac785b3bcc5acb45b3ecc5ac305b3acc5aa785b350c5aab45b3b4c5aa305b328c5a8785ae70c5a8b45b338c5a8305ae5cc5a678)
  (.lf 0)) (.nd (.lf
  0x39ab4781d2c39a84781b2c39a5478192c39a2478172c399f478152c399c478132c3999478112c39964780f2c3992c780d2c398ec780b2c398a878092c3986478072c3982078052c397d478032c397b07800cc3dd807c3f2c3dd407c3d2c3dcfc7c3b2c3dcb47c392c3dc707c372c3dc2c7c352c3dbe87c332c3dba47c312c3db607c2f2c3db1c7c2d2c3dad87c2b2c3da947c292c3da507c272c3da0c7c252c3d9c87c232c3d9847c212c3d93c7c1f2c3d8f47c1d2c3d8ac7c1b2c3d8647c192c3d81c7c172c3d7d47c152c3d78c7c132c3d7447c112c3d6fc7c0f2c3d6b87c0d2c3d6707c0b2c3d6287c092c3d5e47c072c3d5a07c052c3d5587c032c3d53c7c00cc3c00c803f2c3bfe4803d2c3bfb8803b2c3bf8c80392c3bf6080372c3bf3480352c3bf0880332c3bedc80312c3beb0802f2c3be84802d2c3be58802b2c3be2c80292c3be0080272c3bdd080252c3bda480232c3bd7880212c3bd4c801f2c)
  (.lf 0))) (.nd (.nd (.lf
  0x93cc264a7809450264a30093c02648b40933c264878093c4264830093302646b4092bc26467809334264630092b02644b40923c264478092b4264430092302642b4091e826427809234264230103f426fcb41045c26fc781046026fc301037426fab4103e826fa78103ec26fa30102ec26f8b41036826f8781036c26f8301026826f6b4102e026f678102e426f630101e826f4b41025c26f4781026026f4301016026f2b4101dc26f278101e026f230100dc26f0b41015426f0781015826f0301005426eeb4100d026ee78100d426ee300ffd026ecb41004826ec781004c26ec300ff5026eab40ffc426ea780ffc826ea300fed026e8b40ff4426e8780ff4826e8300fe5026e6b40fec426e6780fec826e6300fdd026e4b40fe4426e4780fe4826e4300fd4826e2b40fdc426e2780fdc826e2300fcbc26e0b40fd3c26e0780fd4026e0300fc3826deb40fcb026de780fcb426de300fbb026dcb40fc2c26dc78)
  (.lf 0)) (.nd (.lf
  0xd1682d77d00d0d82d75d00d05c2d73d00cfd02d71d00cf402d6fd00cec02d6dd00ce402d6bd00cdc42d69d00cd382d67d00ccac2d65d00cc1c2d63d00cb9c2d61d00cb1c2d5fd00caa02d5dd00ca102d5bd00c9942d59d00c9082d57d00c87c2d55d00c7f02d53d00c7602d51d00c6e42d4fd00c6582d4dd00c5c82d4bd00c54c2d49d00c4bc2d47d00c4402d45d00c3b02d43d00c3642d41100d3442dbecc0d2f02dbccc0d24c2dbacc0d1ec2db8cc0d1402db6cc0d0e02db4cc0d0342db2cc0cfa82db0cc0cf482daecc0cec82daccc0ce482daacc0cd9c2da8cc0cd102da6cc0cc842da4cc0cc242da2cc0cba42da0cc0cb242d9ecc0ca782d9ccc0ca182d9acc0c96c2d98cc0c8e02d96cc0c8542d94cc0c7c82d92cc0c7682d90cc0c6bc2d8ecc0c6302d8ccc0c5d02d8acc0c5242d88cc0c4c42d86cc0c4182d84cc0c3b82d82cc0d2d82dbdd00d25c2dbbd00d1cc2db9d00d1502db7d00d0c02db5d0)
  (.lf 0)))

def shaWireTree363 : BTree :=
  .nd (.nd (.nd (.lf
  0x5b378b6ec305b360b6eab45b35cb6ea785b364b6ea305b320b6e8b45b324b6e8785b354b6e8305b2f0b6e6b45ac4cb6e6785b2f4b6e6305ac40b6e4b45ac14b6e4785ac44b6e4305ac04b6e2b45abd4b6e2785ac0cb6e2305aba0b6e0b45aa8cb6e0785abccb6e0305aa80b6deb45aa7cb6de785aa84b6de305aa6cb6dcb45aa68b6dc785aa70b6dc305aa54b6dab45aa50b6da785aa58b6da305aa44b6d8b45aa34b6d8785aa48b6d8305aa20b6d6b45a8f0b6d6785aa24b6d6305a8dcb6d4b45a8e0b6d4785a8e4b6d4305a8ccb6d2b45a6acb6d2785a8d0b6d2305a6a0b6d0b45a690b6d0785a6a4b6d0305a680b6ceb45a684b6ce785a688b6ce305a66cb6ccb45a670b6cc785a674b6cc305a65cb6cab45a658b6ca785a660b6ca305a648b6c8b45a64cb6c8785a650b6c8305a63cb6c6b45a334b6c6785a640b6c6305a328b6c4b45a324b6c4785a32cb6c4305a304b6c2b459fa8b6c2785a30cb6c230)
  (.lf 0)) (.nd (.lf
  0x2922456f52c291e456f32c291a856f12c2917056ef2c2913056ed2c290ec56eb2c290a856e92c2906c56e72c2902c56e52c28ff056e32c28fb856e12c28f7856df2c28f3c56dd2c28f0456db2c28ecc56d92c28e9456d72c28e5456d52c28e1856d32c28de056d12c28da056cf2c28d6456cd2c28d2456cb2c28ce856c92c28ca856c72c28c6c56c52c28c3c56c32c2b3945aff2c2b32c5afd2c2b2b85afb2c2b2445af92c2b1cc5af72c2b1545af52c2b0e45af32c2b0785af12c2b0045aef2c2af945aed2c2af1c5aeb2c2aea05ae92c2ae2c5ae72c2adbc5ae52c2ad4c5ae32c2acdc5ae12c2ac645adf2c2abf05add2c2ab785adb2c2ab045ad92c2aa8c5ad72c2aa1c5ad52c2a9b05ad32c2a93c5ad12c2a8c45acf2c2a84c5acd2c2a7dc5acb2c2a7685ac92c2a6ec5ac72c2a6845ac52c2c8c05eff2c2c8845efd2c2c8405efb2c2c7fc5ef92c2c7c05ef72c2c7805ef52c2c73c5ef32c2c7005ef12c)
  (.lf 0))) (.nd (.nd (.lf
  0x235e0488a302354c4888b42354848887823550488830234b84886b4234b4488678234bc488630234204884b42341c48847823424488430233784882b4233744882782337c4882301ae4c487cb41ae48487c781ae50487c301ae38487ab41ae34487a781ae3c487a301ae244878b41ae204878781ae284878301ae104876b41ae0c4876781ae144876301adfc4874b41adf84874781ae004874301ade84872b41ade44872781adec4872301add44870b41add04870781add84870301adc0486eb41adbc486e781adc4486e301adac486cb41ada8486c781adb0486c301ad98486ab41ad94486a781ad9c486a301ad844868b41ad804868781ad884868301ad704866b41ad6c4866781ad744866301ad5c4864b41ad584864781ad604864301ad484862b41ad444862781ad4c4862301ad344860b41ad304860781ad384860301ad20485eb41ad1c485e781ad24485e301ad0c485cb41ad08485c781ad10485c30)
  (.lf 0)) (.nd (.lf
  0x4c4c0a95d004bc80a93d004b400a91d004ab40a8fd004a280a8dd00499c0a8bd0049180a89d0048980a87d0048100a85d0047840a83d0046c00a8110000800a7ecc0007c0a7ccc000780a7acc000740a78cc000700a76cc0006c0a74cc000680a72cc000640a70cc000600a6ecc0005c0a6ccc000580a6acc000540a68cc000500a66cc0004c0a64cc000480a62cc000440a60cc000400a5ecc0003c0a5ccc000380a5acc000340a58cc000300a56cc0002c0a54cc000280a52cc000240a50cc000200a4ecc0001c0a4ccc000180a4acc000140a48cc000100a46cc0000c0a44cc000080a42cc002d80a7dd0002c40a7bd0002b00a79d00029c0a77d0002880a75d0002740a73d0002600a71d00024c0a6fd0002380a6dd0002240a6bd0002100a69d0001fc0a67d0001e80a65d0001d40a63d0001c00a61d0001ac0a5fd0001980a5dd0001840a5bd0001700a59d00015c0a57d0001480a55d0001340a53d0)
  (.lf 0)))

def shaWireTree364 : BTree :=
  .nd (.nd (.nd (.lf
  0x1b88800184b1b88c0018491b8900018471b8940018452a4a80018432a4ac0018412a4b000183f2a4b400183d2a4b800183b2a4bc0018392a4c00018372a4c40018352a4c80018332a4cc0018312a4d000182f2a4d400182d2a4d800182b2a4dc0018292a4e00018272a4e40018252a4e80018232a4ec0018212a4f000181f2a4f400181d2a4f800181b2a4fc0018191c6580018171c65c0018151c6600018131c6640018111c66800180f1c66c00180d1c67000180b1c6740018091c6780018071c67c0018051c6800018031c6840018011c6880017ff1c68c0017fd1c6900017fb1c6940017f91c6980017f71c69c0017f51c6a00017f31c6a40017f11c6a80017ef1c6ac0017ed2da180017eb2da1c0017e92da200017e72da240017e52da280017e32da2c0017e12da300017df2da340017dd2da380017db2da3c0017d92da400017d72da440017d52da480017d32da4c0017d12da500017cf2da540017cd)
  (.lf 0)) (.nd (.lf
  0x2cff463a0b42cff8639eb42cf94639cb42cb9c639ab42cb1c6398b42cb206396b42cb246394b42cb286392b42cb2c6390b42cb30638eb42ca9c638cb42c9e0638ab42c9e46388b42c9e86386b42c9ec6384b42d35c6382b42c9f06380b42b83063be782b83463bc782b83863ba782b83c63b8782b84063b6782b84463b4782b84863b2782b84c63b0782b85063ae782b85463ac782b85863aa782b85c63a8782b86063a6782b86463a4782b86863a2782b86c63a0782b870639e782b874639c782b878639a782b87c6398782b5886396782b58c6394782b5906392782b5946390782b5a8638e782b488638c782b450638a782b4546388782b4586386782b45c6384782b3d06382782b3d46380782d27063be302d27463bc302d27863ba302d27c63b8302d2ac63b6302d1dc63b4302d10063b2302d10463b0302d10863ae302d10c63ac302d11063aa302d08063a8302d05463a6302cffc63a4302d00063a230)
  (.lf 0))) (.nd (.nd (.lf
  0x237d84a5230236c84a50b4237484a50782374c4a5030236384a4eb4236bc4a4e78236c04a4e30235a04a4cb42362c4a4c78236304a4c30235084a4ab4235944a4a78235984a4a30234704a48b4234fc4a4878235004a4830233d04a46b4234644a4678234684a46302331c4a44b4233c44a4478233c84a4430232b44a42b4233104a4278233144a4230243584afcb4242dc4afc782435c4afc30242d04afab4242544afa78242d44afa30242484af8b4241cc4af8782424c4af830241c04af6b42413c4af678241c44af630241304af4b4240ac4af478241344af430240a04af2b42401c4af278240a44af230240104af0b423f8c4af078240144af03023f804aeeb423efc4aee7823f844aee3023ef04aecb423e6c4aec7823ef44aec3023e604aeab423de04aea7823e644aea3023dd44ae8b423d584ae87823dd84ae83023d4c4ae6b423cd04ae67823d504ae63023cc44ae4b423c484ae47823cc84ae430)
  (.lf 0)) (.nd (.lf
  0x50d24b16fd050cc8b16dd050c88b16bd050c50b169d050c24b167d050bf4b165d050bbcb163d050bacb161d050b84b15fd050b44b15dd050b28b15bd050af4b159d050ae0b157d050abcb155d050a98b153d050188b151d04fce0b14fd04fc68b14dd04f840b14bd04f81cb149d04f7f8b147d04f7d4b145d04f630b143d04f5b4b1411050430b1becc50400b1bccc503f4b1bacc503c8b1b8cc503bcb1b6cc50394b1b4cc503a0b1b2cc50370b1b0cc50354b1aecc503acb1accc50338b1aacc50434b1a8cc50410b1a6cc5040cb1a4cc50158b1a2cc50128b1a0cc5015cb19ecc500f4b19ccc500e4b19acc500c8b198cc50008b196cc500a4b194cc4ffa4b192cc4ff58b190cc4fcb8b18ecc4fc24b18ccc4f714b18acc4f6fcb188cc4f6ecb186cc4f6f0b184cc4f644b182cc50740b1bdd05071cb1bbd0506ecb1b9d0506d8b1b7d0506c4b1b5d0506a0b1b3d050604b1b1d0505d4b1afd0505c4b1add0)
  (.lf 0)))

def shaWireTree365 : BTree :=
  .nd (.nd (.nd (.lf
  0x6e870db12aa6e1bcdb0caa6e140db06aa6dc98db04aa6dc20db02aa6eeb0db3df46eea0db3b406ee78db37f46ee5cdb35406ee2cdb31f46ee10db2ff46edecdb2d406eda4db27f46ed84db25f46ed74db23406ed34db1df46ed14db1b406ecd0db15406eca4db11406ec68db0b406e2a4db05f46e254db03f46eea4db3c1e6eea8db3cb46eeacdb3c146ee90db39f46ee9cdb3aa06ee88db381e6ee80db38b46ee8cdb38146ee64db361e6ee60db36b46ee74db36146ee48db33f46ee58db34a06ee40db321e6ee30db32b46ee44db32146ee14db301e6ee24db30b46ee28db30146edf4db2e1e6edf0db2eb46ee0cdb2e146edc4db2b406ede8db2ca06edb4db29f46edc0db2aa06edacdb281e6eda8db28b46edb0db28146ed8cdb261e6ed9cdb26b46eda0db26146ed78db241e6ed7cdb24b46ed80db24146ed5cdb21406ed70db22a06ed4cdb1ff46ed58db20a06ed44db1e1e6ed40db1eb46ed48db1e14)
  (.lf 0)) (.nd (.lf
  0x29bc8005b7d29b70005b7b29b18005b7929ac0005b7729a68005b7529d38005b7329cdc005b7129c80005b6f29c28005b6d29bd0005b6b29b78005b6929b20005b6729ac8005b6529a70005b6329a24005b612b8fc005b5f2b904005b5d2b90c005b5b2b914005b592b91c005b572b924005b552b92c005b532b934005b512b93c005b4f2b944005b4d2b94c005b4b2b954005b492b95c005b472b964005b452b96c005b432b974005b412b97c005b3f2b984005b3d2b98c005b3b2b994005b392b99c005b372b9a4005b352b9ac005b332b9b4005b312b9bc005b2f2b9c4005b2d2b9cc005b2b2b9d4005b292b9dc005b272b9e4005b252b9ec005b232b9f4005b212d440005b1f2d164005b1d2d2e0005b1b2d2e8005b192d2f0005b172d2f8005b152d300005b132d1f0005b112d168005b0f2d170005b0d2d178005b0b2d448005b092d180005b072d308005b052d310005b032d318005b012d320005aff)
  (.lf 0))) (.nd (.nd (.lf
  0x417788466b4417748466784177c8466304174c8464b44174884647841750846430417208462b44171c84627841724846230416f48460b4416f0846078416f8846030416c4845eb4416c0845e78416c8845e3041694845cb441690845c7841698845c3041664845ab441660845a7841668845a30416348458b44163084587841638845830416048456b44160084567841608845630415d48454b4415d0845478415d8845430415a88452b4415a4845278415ac8452304157c8450b441578845078415808450304154c844eb441548844e7841550844e3041520844cb44151c844c7841524844c30414f4844ab4414f0844a78414f8844a30414c88448b4414c4844878414cc8448304149c8446b441498844678414a0844630414708444b44146c84447841474844430414448442b4414408442784144884423041948843cb441928843c784194c843c304191c843ab4418fc843a7841920843a30418f08438b4)
  (.lf 0)) (.nd (.lf
  0x237404ad1d0236b44acfd0236244acdd02358c4acbd0234f44ac9d02345c4ac7d0233bc4ac5d0233084ac3d0232a84ac110226744bfecc2267c4bfccc226844bfacc2268c4bf8cc226944bf6cc2269c4bf4cc226a44bf2cc226ac4bf0cc226b44beecc226bc4beccc226c44beacc226cc4be8cc226d44be6cc226dc4be4cc226e44be2cc226ec4be0cc226f44bdecc226fc4bdccc227044bdacc2270c4bd8cc227144bd6cc2271c4bd4cc227244bd2cc2272c4bd0cc227344bcecc2273c4bcccc227444bcacc2274c4bc8cc227544bc6cc2275c4bc4cc227644bc2cc229c84bfdd0229b44bfbd0229a04bf9d02298c4bf7d0229784bf5d0229644bf3d0229504bf1d02293c4befd0229284bedd0229144bebd0229004be9d0228ec4be7d0228d84be5d0228c44be3d0228b04be1d02289c4bdfd0228884bddd0228744bdbd0228604bd9d02284c4bd7d0228384bd5d0228244bd3d0228104bd1d0227fc4bcfd0)
  (.lf 0)))

def shaWireTree366 : BTree :=
  .nd (.nd (.nd (.lf
  0x2bf2869b4302bf1069b2782bf0c69b2b42bf1469b2302be5469b0782be5069b0b42bf0069b0302be3c69ae782be3869aeb42be4069ae302be2869ac782be2c69acb42be3069ac302be1469aa782be1069aab42be1c69aa302be0469a8782be0069a8b42be0869a8302bdf069a6782bdec69a6b42bdf469a6302bdd869a4782bddc69a4b42bde069a4302bdc069a2782bdc869a2b42bdcc69a2302bdac69a0782bdb469a0b42bdb869a0302bda0699e782bd9c699eb42bda4699e302bd8c699c782bd84699cb42bd90699c302bd78699a782bd74699ab42bd7c699a302bd606998782bd646998b42bd686998302bd4c6996782bd486996b42bd506996302bcdc6994782bce06994b42bd406994302bccc6992782bcd06992b42bcd46992302bcb86990782bcb46990b42bcbc6990302bca4698e782bca8698eb42bcac698e302bc90698c782bc94698cb42bc98698c302bc7c698a782bc80698ab42bc84698a30)
  (.lf 0)) (.nd (.lf
  0x69d34003b7d69d3c003b7b69d44003b7969d4c003b7769c38003b7569c40003b7369c48003b7169c50003b6f69c58003b6d69c60003b6b69c68003b6969c70003b6769c78003b6569c80003b6369c88003b616c488003b5f6c490003b5d6c498003b5b6c4a0003b596c4a8003b576c4b0003b556c4b8003b536c4c0003b516c4c8003b4f6c108003b4d6c50c003b4b6c514003b496c51c003b476c524003b456c52c003b436c534003b416c53c003b3f6c544003b3d6c54c003b3b6c554003b396c55c003b376c564003b356c56c003b336c574003b316c57c003b2f6c584003b2d6c588003b2b6c590003b296c598003b276c5a0003b256c5a8003b236c5b0003b216e0d8003b1f6e0e0003b1d6e0e8003b1b6e0f0003b196e0f8003b176e100003b156e108003b136e110003b116de2c003b0f6de04003b0d6e614003b0b6e500003b096e508003b076e438003b056e440003b036e448003b016e450003aff)
  (.lf 0))) (.nd (.nd (.lf
  0x75cd8fc263075cbcfc24b475cb8fc247875cc0fc243075ca8fc22b475ca4fc227875cacfc223075c94fc20b475c90fc207875c98fc203075c80fc1eb475c84fc1e7875c88fc1e3075c6cfc1cb475c70fc1c7875c74fc1c3075c60fc1ab475c58fc1a7875c64fc1a3075c48fc18b475c4cfc187875c50fc183075c34fc16b475c38fc167875c3cfc163075c20fc14b475c24fc147875c28fc143075c10fc12b475c0cfc127875c14fc123075bf8fc10b475bfcfc107875c00fc103075be4fc0eb475be8fc0e7875becfc0e3075bd0fc0cb475bccfc0c7875bd8fc0c3075bc0fc0ab475bb8fc0a7875bc4fc0a3075ba0fc08b475ba4fc087875bb0fc083075b94fc06b47591cfc067875b98fc063075910fc04b475908fc047875914fc0430758f4fc02b4758bcfc0278758f8fc0230015fc02bc78015f802bcb40160002bc30015c002ba78015bc02bab4015c402ba300158402b8780158002b8b40158802b830)
  (.lf 0)) (.nd (.lf
  0x64794cbcdd064744cbcbd064730cbc9d06471ccbc7d064414cbc5d064138cbc3d06404ccbc11066940cebecc66944cebccc6693ccebacc66948ceb8cc66890ceb6cc667ecceb4cc66970ceb2cc66978ceb0cc66980ceaecc66988ceaccc668a0ceaacc66990cea8cc66998cea6cc669a0cea4cc669a8cea2cc668a8cea0cc66814ce9ecc6681cce9ccc66824ce9acc6682cce98cc66834ce96cc66650ce94cc66690ce92cc666b0ce90cc66618ce8ecc669b0ce8ccc669b8ce8acc669c0ce88cc669c8ce86cc668b0ce84cc6683cce82cc66bf4cebdd066be0cebbd066bccceb9d066bb8ceb7d066ba0ceb5d066b90ceb3d066b7cceb1d066b68ceafd066b54ceadd066b40ceabd066b2ccea9d066b18cea7d066b00cea5d066aeccea3d066ad4cea1d066ac0ce9fd066ab0ce9dd066aa0ce9bd066a8cce99d066a78ce97d066a64ce95d066a50ce93d066a3cce91d066a28ce8fd066a14ce8dd066a00ce8bd0)
  (.lf 0)))

def shaWireTree367 : BTree :=
  .nd (.nd (.nd (.lf
  0x3fd409246b43fd3c9246783fd449246303fd2c9244b43fd289244783fd309244303fd189242b43fd149242783fd1c92423046f5092fcb446f3092fc7846f5492fc3046f2492fab446e9492fa7846f2892fa3046e8892f8b446e8092f87846e8c92f83046e7092f6b446e7492f67846e7892f63046e5c92f4b446e6092f47846e6492f43046e4c92f2b446e4492f27846e5092f23046e3892f0b446e3492f07846e3c92f03046e2892eeb446e0892ee7846e2c92ee3046de892ecb446df892ec7846dfc92ec3046dc492eab446ddc92ea7846de092ea3046db892e8b446da092e87846dbc92e83046d7892e6b446d9492e67846d9892e63046d6892e4b446d4c92e47846d6c92e43046d2092e2b446d4092e27846d4492e23046d1492e0b446cf892e07846d1892e03046cd492deb446cec92de7846cf092de3046cc892dcb446ca892dc7846ccc92dc3046c7892dab446c9c92da7846ca092da3046c6c92d8b4)
  (.lf 0)) (.nd (.lf
  0x26a5852932c26a4452912c26a30528f2c26a1c528d2c26a08528b2c269f452892c269e052872c269cc52852c269b852832c269b45280cc2934856bf2c2930c56bd2c292d056bb2c2929856b92c2925856b72c2921c56b52c291dc56b32c291a056b12c2916856af2c2912856ad2c290e456ab2c290a056a92c2906456a72c2902456a52c28fe856a32c28fb056a12c28f70569f2c28f34569d2c28efc569b2c28ec456992c28e8c56972c28e4c56952c28e1056932c28dd856912c28d98568f2c28d5c568d2c28d1c568b2c28ce056892c28ca056872c28c6456852c28c3456832c28c245680cc2a4545abf2c2a4405abd2c2a42c5abb2c2a4185ab92c2a4045ab72c2a3f05ab52c2a3dc5ab32c2a3c85ab12c2a3b45aaf2c2a3a05aad2c2a38c5aab2c2a3785aa92c2a3645aa72c2a3505aa52c2a33c5aa32c2a3285aa12c2a3145a9f2c2a3005a9d2c2a2ec5a9b2c2a2d85a992c2a2c45a972c2a2b05a952c)
  (.lf 0))) (.nd (.nd (.lf
  0x4b7649e20504b7149e1e504b6b09e1c504b65c9e1a504b6089e18504b5189e16504b4849e14504b4049e12504b3949e10504b3289e0e504b2b89e0c504b1dc9e0a504b1649e08504b0fc9e06504b0889e04504b0049e02504afa49e00504c254a23e784c258a23c784c25ca23a784bfc0a238784bfc4a236784bfc8a234784bfcca232784bdd8a230784bcc8a22e784bbaca22c784bb6ca22a784ba54a228784ba58a226784b944a224784b894a222784b76ca220784b71ca21e784b6b8a21c784b664a21a784b610a218784b520a216784b48ca214784b40ca212784b39ca210784b330a20e784b2c0a20c784b1e4a20a784b16ca208784b104a206784b090a204784b00ca202784afaca200784e658a23e504e65ca23c504e660a23a504e664a238504e668a236504e66ca234504e670a232504e674a230504e678a22e504e67ca22c504e680a22a504e684a228504e530a226504e554a224504e4f4a22250)
  (.lf 0)) (.nd (.lf
  0x5784cb490cc57854b48ecc5785cb48ccc57864b48acc5786cb488cc57874b486cc5787cb484cc57884b482cc57ae8b4bdd057ad4b4bbd057ac0b4b9d057aacb4b7d057a98b4b5d057a84b4b3d057a70b4b1d057a5cb4afd057a48b4add057a34b4abd057a20b4a9d057a0cb4a7d0579f8b4a5d0579e4b4a3d0579d0b4a1d0579bcb49fd0579a8b49dd057994b49bd057980b499d05796cb497d057958b495d057944b493d057930b491d05791cb48fd057908b48dd0578f4b48bd0578e0b489d0578ccb487d0578b8b485d0578a4b483d05788cb4811059e24b47ecc59e2cb47ccc59e34b47acc59eb0b478cc59eb8b476cc59ec0b474cc59ec8b472cc59ed0b470cc59ed8b46ecc59ee0b46ccc59ee8b46acc59ef0b468cc59ef8b466cc59f00b464cc59f08b462cc59f10b460cc59f18b45ecc59f20b45ccc59f28b45acc59f30b458cc59f38b456cc59f40b454cc59f48b452cc59f50b450cc59f58b44ecc)
  (.lf 0)))

def shaWireTree368 : BTree :=
  .nd (.nd (.nd (.lf
  0x4c26ca97f2c4c1f8a97d2c4c1a8a97b2c4bfdca9792c4bf58a9772c4bf24a9752c4bed8a9732c4bddca9712c4bc60a96f2c4baf4a96d2c4bb38a96b2c4ba6ca9692c4ba10a9672c4b948a9652c4b8a8a9632c4b80ca9612c4b7e4a95f2c4b7c0a95d2c4b798a95b2c4b614a9592c4b524a9572c4b490a9552c4b410a9532c4b3a0a9512c4b334a94f2c4b2c4a94d2c4b1bca94b2c4b144a9492c4b0d8a9472c4b064a9452c4afe0a9432c4af34a940cc4e16cad7f2c4e108ad7d2c4e044ad7b2c4e024ad792c4df68ad772c4de94ad752c4de14ad732c4ddb0ad712c4dd04ad6f2c4dca8ad6d2c4dbd4ad6b2c4dbb4ad692c4db90ad672c4da70ad652c4da20ad632c4d9e8ad612c4d970ad5f2c4d930ad5d2c4d8dcad5b2c4d8b0ad592c4d788ad572c4d6f4ad552c4d6c8ad532c4d690ad512c4d5f0ad4f2c4d59cad4d2c4d524ad4b2c4d468ad492c4d454ad472c4d444ad452c4d334ad432c4d21cad40cc)
  (.lf
  0x1e03c7055d01e0287053d01e0147051d01e000704fd01dfec704dd01dfd8704bd01dfc47049d01dfb07047d01df9c7045d01df887043d01df70704110366d8703ecc36670703ccc365fc703acc365907038cc365207036cc364ac7034cc364347032cc363c47030cc36350702ecc362d4702ccc36258702acc361e47028cc361747026cc361047024cc360947022cc360247020cc35fb4701ecc35f44701ccc35ed4701acc35e687018cc35df47016cc35d847014cc35d107012cc35c987010cc35c1c700ecc35ba4700ccc35b20700acc35a947008cc35a107006cc359907004cc359007002cc366c0703dd036654703bd0365b07039d03654c7037d0364f47035d03646c7033d0364187031d03639c702fd036314702dd03629c702bd0362247029d0361c87027d0361587025d0360e87023d0360787021d036008701fd035f98701dd035f28701bd035eb87019d035e4c7017d035dd87015d035d687013d0))
  (.nd (.lf
  0x50ef4002e8150e9c002e7f50e38002e7d50d94002e7b50d98002e7950d9c002e7750ce8002e7550ca8002e7350c78002e7150c48002e6f50c10002e6d50c14002e6b50c18002e6950ba0002e6750b60002e6550b78002e6350b40002e6152318002e5f522d0002e5d52774002e5b52778002e5952710002e57526b0002e5552598002e53525c8002e51525f8002e4f52528002e4d5252c002e4b524bc002e4952478002e475277c002e4552780002e4352714002e41526b4002e3f5259c002e3d525cc002e3b525fc002e3952530002e3752534002e35524c0002e335247c002e3152438002e2f52454002e2d523f4002e2b523f8002e29523fc002e2752390002e2552344002e235235c002e2154d64002e1f54d30002e1d55178002e1b55140002e19550f0002e17550bc002e1554ff0002e13551b8002e1154fa0002e0f54f5c002e0d55024002e0b54f34002e0954ee4002e075517c002e0555144002e03)
  (.lf 0))) (.nd (.nd (.lf
  0x387507720aa388a8771eaa384407718aa3822c7710aa3810c770caa37ed47704aa37e487702aa39030773df438fb4773b4038eb477374038d9877334038c70772ff438bd0772d4038ad8772940389b07723f4388a07721f438884771ff4387b8771d40383c87717403819c770f4038080770b4037e6c7703f438fb8773c1e39028773cb43902c773c1438f347739f438fb0773aa038eb877381e38f2c7738b438f3077381438e287735f438eb07736a038dac77341e38e207734b438e2477341438d047731f438d947732a038c7477301e38cfc7730b438d0077301438bd4772e1e38c68772eb438c6c772e1438b58772bf438bcc772ca038adc772a1e38b50772ab438b54772a1438a7877274038ad47728a038a147725f438a747726a0389b477241e38a0c7724b438a10772414388a477221e389a87722b4389ac7722143889877201e388947720b43889c772014387bc771e1e3887c771eb438880771e14)
  (.lf 0)) (.nd (.lf
  0x688300063f3687cc0063f1687580063ef691280063ed68f800063eb68dd40063e968e4c0063e768d140063e568e000063e368d1c0063e16b30c0063df6b3100063dd6b4640063db6b23c0063d96b2400063d76b2440063d56b3d80063d36b3e00063d16b3e40063cf6b4340063cd6b3140063cb6b4980063c96b3ec0063c76b3f40063c56b4380063c36b46c0063c16b4a00063bf6b31c0063bd6b3240063bb6b32c0063b96b4740063b76b2480063b56b2500063b36b2580063b16b1d00063af6b3fc0063ad6b4040063ab6b40c0063a96b4400063a76b3340063a56b4a80063a36b33c0063a16d0c400639f6d09800639d6ce1400639b6cd8c0063996ce380063976ccb80063956d6800063936d43c0063916d44400638f6d2e400638d6d2ec00638b6d6880063896d44c0063876d4500063856d2f40063836d2fc0063816d21000637f6d10400637d6d0c800637b6d09c0063796ce180063776cd90006375)
  (.lf 0)))

def shaWireTree369 : BTree :=
  .nd (.nd (.nd (.lf
  0xa13c25bc300a0a825ba780a03825bab40a0ac25ba300a02c25b87809fac25b8b40a03025b83009fa025b67809f1c25b6b409fa425b63009f1025b47809e9c25b4b409f1425b43009e9025b27809e2025b2b409e9425b23009e1425b07809d9425b0b409e1825b03009d8825ae7809d0825aeb409d8c25ae3009cfc25ac7809c7c25acb409d0025ac3009c7025aa7809bf025aab409c7425aa3009be425a87809b6025a8b409be825a83009b5425a67809ae025a6b409b5825a63009ad425a47809a6025a4b409ad825a43009a5425a278099e425a2b409a5825a230099d825a0780995425a0b4099dc25a03009948259e78098d4259eb40994c259e30098c8259c7809854259cb4098cc259c3009848259a78097d8259ab40984c259a30097cc259878097482598b4097d02598300973c259678096c82596b409740259630096bc259478096482594b4096c02594300963c259278095cc2592b409640259230)
  (.lf 0)) (.nd (.lf
  0x6d70cdbdd2c6d714dbdb2c6d718dbd92c6d6d8dbd72c6d6c4dbd52c6d674dbd32c6d5f8dbd12c6d604dbcf2c6d524dbcd2c6d4e0dbcb2c6d1ecdbc92c6d13cdbc72c6d03cdbc52c6d088dbc32c6ce7cdbc0cc76034dfff2c76028dffd2c76010dffb2c75ff8dff92c75fecdff72c75fd4dff52c75fb8dff32c75fc8dff12c75f9cdfef2c75f84dfed2c75f70dfeb2c75f50dfe92c75f3cdfe72c75f28dfe52c75f58dfe32c75f5cdfe12c76038dfdf2c75ee4dfdd2c75ed4dfdb2c75ebcdfd92c75eacdfd72c75e94dfd52c75e84dfd32c75e70dfd12c75e5cdfcf2c75e48dfcd2c75e30dfcb2c75e1cdfc92c75e08dfc72c75df4dfc52c75de0dfc32c6f284dfc0cc77e90e3ff2c77e80e3fd2c77e74e3fb2c77e54e3f92c77e44e3f72c77e30e3f52c77e1ce3f32c77e04e3f12c77dece3ef2c77e10e3ed2c77dc8e3eb2c77dbce3e92c77da0e3e72c77d98e3e52c77b58e3e32c77b40e3e12c77b2ce3df2c)
  (.lf 0))) (.nd (.nd (.lf
  0x69908d06e30698ecd06cb4698e8d06c78698f0d06c30698d8d06ab4698d4d06a78698dcd06a30698b8d068b4698c8d06878698ccd06830698a8d066b4698a4d06678698acd0663069894d064b469890d0647869898d06430697f0d062b46987cd0627869880d06230697d8d060b4697e4d06078697e8d06030697ccd05eb4697c8d05e78697d0d05e30697b8d05cb4697b4d05c78697bcd05c30697a8d05ab46979cd05a78697acd05a3069790d058b46978cd0587869794d0583069778d056b469770d056786977cd0563069764d054b469760d0547869768d0543069738d052b469754d0527869758d052306972cd050b469720d0507869730d0503069714d04eb469710d04e7869718d04e30696fcd04cb469700d04c7869704d04c30696d0d04ab4696f0d04a78696f4d04a30696bcd048b4696c0d04878696c4d04830696a8d046b4696acd04678696b0d046306969cd044b4695d0d04478696a0d04430)
  (.lf 0)) (.nd (.lf
  0x49c449bebd049c309be9d049c1c9be7d049c089be5d049bf49be3d049be09be1d049bcc9bdfd049bb89bddd049ba49bdbd049b909bd9d049b7c9bd7d049b689bd5d049b549bd3d049b3c9bd1d049b289bcfd049b189bcdd049b049bcbd049af09bc9d049adc9bc7d049ac89bc5d049ab49bc3d049aa09bc1104c2409ebecc4c2489ebccc4c2509ebacc4bfa89eb8cc4bfb09eb6cc4bfb89eb4cc4c2c49eb2cc4c2cc9eb0cc4c2d49eaecc4c0489eaccc4c0509eaacc4c2dc9ea8cc4c2e49ea6cc4c2ec9ea4cc4c0589ea2cc4c0609ea0cc4c0689e9ecc4c0709e9ccc4c0789e9acc4bcd89e98cc4bbd49e96cc4bbdc9e94cc4bbe49e92cc4bbec9e90cc4b9b49e8ecc4c2f49e8ccc4c2fc9e8acc4c3089e88cc4c0809e86cc4c0889e84cc4c0909e82cc4c51c9ebdd04c5089ebbd04c4f09eb9d04c4e09eb7d04c4cc9eb5d04c4b89eb3d04c4a49eb1d04c4909eafd04c47c9eadd04c4689eabd04c4549ea9d0)
  (.lf 0)))

def shaWireTree370 : BTree :=
  .nd (.nd (.nd (.lf
  0x68d90dd7ab468d94dd7a3068c5cdd787868c98dd78b468c9cdd783068b4cdd767868c00dd76b468c04dd763068b18dd747868b40dd74b468b44dd743068a80dd727868b0cdd72b468b10dd723068a74dd707868a48dd70b468a78dd7030689ecdd6e7868a38dd6eb468a3cdd6e30689acdd6c78689a8dd6cb4689e4dd6c3068844dd6a786889cdd6ab4688a0dd6a3068790dd687868838dd68b46883cdd683068744dd667868774dd66b468778dd6630686f8dd64786870cdd64b468710dd643068698dd6278686acdd62b4686f0dd623068678dd607868674dd60b46867cdd603068668dd5e786864cdd5eb46866cdd5e3068640dd5c786847cdd5cb468644dd5c3068384dd5a7868434dd5ab468438dd5a30682f0dd587868378dd58b46837cdd58306829cdd5678682c4dd56b4682e8dd563067b18dd547868290dd54b468294dd543067a24dd527867b0cdd52b467b10dd5230679d4dd507867a18dd50b4)
  (.lf 0)) (.nd (.lf
  0x7542cf81d2c753f4f81b2c753e0f8192c753b0f8172c7540cf8152c7538cf8132c753d4f8112c75368f80f2c75350f80d2c75340f80b2c7527cf8092c753ccf8072c75224f8052c751e8f8032c751e0f800cc75dc0fc3f2c75dacfc3d2c75d9cfc3b2c75d80fc392c75d6cfc372c75d58fc352c75d44fc332c75d30fc312c75d1cfc2f2c75d08fc2d2c75cf4fc2b2c75ce0fc292c75cc8fc272c75cb4fc252c75ca0fc232c75cd0fc212c75c7cfc1f2c75d88fc1d2c75c5cfc1b2c75c44fc192c75c30fc172c75c1cfc152c75c08fc132c75bf4fc112c75be0fc0f2c75bd4fc0d2c75bbcfc0b2c75ba8fc092c75bacfc072c7590cfc052c75900fc032c75884fc00cc00b8000391f00b8400391d00b8800391b00b8c00391900b9000391700b9400391500b9800391300b9c00391100ba000390f00ba400390d00ba800390b00bac00390900bb000390700bb400390500bb800390300bbc00390100bc00038ff)
  (.lf 0))) (.nd (.nd (.lf
  0x12b882f15f412afc2f1340129f02f0ff4129642f0df4128d82f0b40135782f3c1e135ec2f3cb4135f02f3c14134f42f39f4135702f3aa01346c2f381e134ec2f38b4134f02f3814133e82f35f4134642f36a0133602f341e133e02f34b4133e42f3414132dc2f31f4133582f32a0132542f301e132d42f30b4132d82f3014131d02f2d401324c2f2ea0131502f2b40131cc2f2ca0130d02f29401314c2f2aa0130502f27f4130cc2f28a012fc82f261e130482f26b41304c2f261412f3c2f241e12fbc2f24b412fc02f241412eb82f214012f342f22a012e382f1f4012eb42f20a012db82f1df412e342f1ea012d302f1c1e12db02f1cb412db42f1c1412ca42f1a1e12d242f1ab412d282f1a1412c182f181e12c982f18b412c9c2f181412b8c2f161e12c0c2f16b412c102f161412b002f141e12b802f14b412b842f141412a7c2f11f412af82f12a0129f42f101e12a742f10b412a782f1014129682f0e1e)
  (.lf 0)) (.nd (.lf
  0x188d84db6cc188e44db4cc188f04db2cc189184db0cc189104daecc188dc4daccc188d04daacc188f84da8cc188e04da6cc188bc4da4cc189304da2cc189684da0cc189544d9ecc189a44d9ccc189944d9acc189984d98cc189a04d96cc1899c4d94cc189804d92cc1895c4d90cc189604d8ecc189644d8ccc189244d8acc189284d88cc1892c4d86cc181a44d84cc1816c4d82cc18bcc4dbdd018bb84dbbd018ba04db9d018b904db7d018b7c4db5d018b684db3d018b584db1d018b444dafd018b304dadd018b184dabd018b044da9d018af04da7d018ae04da5d018acc4da3d018ab84da1d018aa44d9fd018a8c4d9dd018a784d9bd018a644d99d018a544d97d018a404d95d018a2c4d93d018a184d91d018a004d8fd0189ec4d8dd0189d84d8bd0189c84d89d0189b44d87d0189784d85d01893c4d83d0181484d811020818517ecc20c34517ccc206e0517acc20c305178cc205645176cc20c2c5174cc)
  (.lf 0)))

def shaWireTree371 : BTree :=
  .nd (.nd (.nd (.lf
  0x5efa4bf0ab45efd4bf0a145e314bffc785e318bffcb45e320bffc305e304bffa785e308bffab45e30cbffa305e2f4bff8785e2f8bff8b45e2fcbff8305e2d4bff6785e2e4bff6b45e2e8bff6305e2c4bff4785e2bcbff4b45e2c8bff4305e2b0bff2785e2a8bff2b45e2b4bff2305e29cbff0785e298bff0b45e2a0bff0305e288bfee785e284bfeeb45e28cbfee305e274bfec785e270bfecb45e27cbfec305e260bfea785e25cbfeab45e264bfea305e248bfe8785e24cbfe8b45e254bfe8305e234bfe6785e238bfe6b45e23cbfe6305e228bfe4785e224bfe4b45e22cbfe4305e218bfe2785e214bfe2b45e21cbfe2305e208bfe0785e204bfe0b45e20cbfe0305e1ecbfde785e1f4bfdeb45e1f8bfde305e1d4bfdc785e1e0bfdcb45e1e4bfdc305e1c4bfda785e1c8bfdab45e1ccbfda305e1b8bfd8785e1b4bfd8b45e1bcbfd8305e1a0bfd6785e1a8bfd6b45e1acbfd6305e150bfd4785e158bfd4b4)
  (.lf 0)) (.nd (.lf
  0x6ebc4daf32c6ebd0daf12c6eba0daef2c6eb8cdaed2c6eb70daeb2c6eb74dae92c6eb4cdae72c6eb2cdae52c6eb14dae32c6eb34dae12c6eaf0dadf2c6ead0dadd2c6ead8dadb2c6eab0dad92c6ea9cdad72c6e8e4dad52c6e86cdad32c6e858dad12c6e854dacf2c6e1b8dacd2c6e1a8dacb2c6e16cdac92c6e13cdac72c6dc94dac52c6dc1cdac32c6dbccdac0cc762c4deff2c762b0defd2c762a0defb2c762ccdef92c76270def72c76260def52c76254def32c76234def12c76220deef2c76224deed2c761f4deeb2c761e8dee92c761ccdee72c761b0dee52c76198dee32c761a0dee12c76174dedf2c76158dedd2c76148dedb2c76134ded92c76114ded72c76108ded52c760e8ded32c760ccded12c760b8decf2c76094decd2c764b8decb2c760a0dec92c763c4dec72c76064dec52c762d4dec32c6fce0dec0cc77d74e2ff2c77d60e2fd2c77d48e2fb2c77d30e2f92c77d1ce2f72c77d04e2f52c)
  (.lf 0))) (.nd (.nd (.lf
  0x2b05458aeb42b05058ae782b05858ae302afe058acb42afdc58ac782afe458ac302af7058aab42af6c58aa782af7458aa302aef858a8b42aef458a8782aefc58a8302ae7c58a6b42ae7858a6782ae8058a6302ae0858a4b42ae0458a4782ae0c58a4302ad9858a2b42ad9458a2782ad9c58a2302ad2858a0b42ad2458a0782ad2c58a0302acb8589eb42acb4589e782acbc589e302ac40589cb42ac3c589c782ac44589c302abcc589ab42abc8589a782abd0589a302ab545898b42ab505898782ab585898302aae05896b42aadc5896782aae45896302aa685894b42aa645894782aa6c5894302a9f85892b42a9f45892782a9fc5892302a98c5890b42a9885890782a9905890302a918588eb42a914588e782a91c588e302a8a0588cb42a89c588c782a8a4588c302a828588ab42a824588a782a82c588a302a7b85888b42a7b45888782a7bc5888302a7445886b42a7405886782a7485886302a6c85884b4)
  (.lf 0)) (.nd (.lf
  0xb1481adbd00b0c81ad9d00b0481ad7d00afc81ad5d00af481ad3d00aec01ad1d00ae3c1acfd00adb41acdd00ad301acbd00aca81ac9d00ac241ac7d00aba41ac5d00ab2c1ac3d00aaa01ac1100ba1c1b3d400b89c1b37400b7101b31400b5041b29f40b4781b27f40b3ec1b25f40b3601b23f40b2d41b21f40b2481b1ff40b1bc1b1d400aeb01b11400ada41b0d400ac981b09400a4401bfecc0a4481bfccc0a4501bfacc0a4581bf8cc0a4601bf6cc0a4681bf4cc0a4701bf2cc0a4781bf0cc0a4801beecc0a4881beccc0a4901beacc0a4981be8cc0a4a01be6cc0a4a81be4cc0a4b01be2cc0a4b81be0cc0a4c01bdecc0a4c81bdccc0a4d01bdacc0a4d81bd8cc0a4e01bd6cc0a4e81bd4cc0a4f01bd2cc0a4f81bd0cc0a5001bcecc0a5081bcccc0a5101bcacc0a5181bc8cc0a5201bc6cc0a5281bc4cc0a5301bc2cc0a7941bfdd00a7801bfbd00a76c1bf9d00a7581bf7d00a7441bf5d00a7301bf3d0)
  (.lf 0)))

def shaWireTree372 : BTree :=
  .nd (.nd (.nd (.lf
  0x1bbe400104b1bbe80010491bbec0010471bbf00010451bbf40010431bbf80010411bbfc00103f1bc0000103d1bc0400103b1bc080010391bc0c0010371bc100010351bc140010331bc180010311bc1c00102f1bc2000102d1bc2400102b1bc280010291bc2c0010271bc300010251bf940010231bf980010211bf9c00101f1bfa000101d1bfa400101b1bfa80010191bfac0010171bfb00010151bfb40010131bfb80010111bfbc00100f1bfc000100d1bfc400100b1bfc80010091bfcc0010071bfd00010051bfd40010031bfd80010011bfdc000fff1bfe0000ffd1bfe4000ffb1bfe8000ff91bfec000ff71bff0000ff51bff4000ff31bff8000ff11bffc000fef1c000000fed1c004000feb1c720000fe91c724000fe71c728000fe51c72c000fe31c730000fe11c734000fdf1c738000fdd1c73c000fdb1c740000fd91c744000fd71c748000fd51c74c000fd31c750000fd11c754000fcf1c758000fcd)
  (.lf 0)) (.nd (.lf
  0x424148ba030421ec8b9e30420e88b9c30420ec8b9a30420f08b9830420248b963041f888b943041e2c8b923041e308b903041dc48b8e3041cf88b8c3041cfc8b8a3041be88b883041b488b863041acc8b843041a1c8b823041a208b8030443ec8fbeb4442108fbcb4441288fbab4440e48fb8b443fcc8fb6b443f0c8fb4b443ecc8fb2b443e148fb0b443da88faeb443d108facb443b408faab443a908fa8b443a448fa6b4439f08fa4b4438fc8fa2b4438708fa0b4437c88f9eb4437888f9cb4436b88f9ab4436208f98b44359c8f96b4435048f94b4435088f92b4433fc8f90b4433508f8eb4432c88f8cb44322c8f8ab4432308f88b442d808f86b442c008f84b442c048f82b442c088f80b442e6c8fbe7842e708fbc7842e748fba7842cc08fb87842a348fb678428a88fb478428ac8fb278427e48fb0784271c8fae78427208fac78427248faa78427288fa878426008fa678425248fa478424688fa278)
  (.lf 0))) (.nd (.nd (.lf
  0x27d4c5334aa27c105330aa27b6c532eaa27ac8532caa27a24532aaa278e85326aa277145320aa27540531aaa274045316aa273605314aa270f4530caa27050530aaa26f145306aa26e705304aa26dcc5302aa27fd4533d4027e9853394027d5c5335f427cb853334027b7c532ff427ad8532df427a34532bf4279905329402785453254027680531f40274ac531940273705315f4272cc53134027060530bf426fbc53094026e805305f426ddc5303f427f3c533bf427fd0533ca027e9c533a1e27f34533ab427f38533a1427e005337f427e945338a027d6053361e27df85336b427dfc53361427cbc53341e27d545334b427d5853341427c205331f427cb45332a027b8053301e27c185330b427c1c53301427adc532e1e27b74532eb427b78532e1427a38532c1e27ad0532cb427ad4532c1427994532a1e27a2c532ab427a30532a14278f85327f42798c5328a02785853261e278f05326b4278f4532614)
  (.lf 0)) (.nd (.lf
  0x61fe8d1aecc61f68d1accc61e94d1aacc61e44d1a8cc61db0d1a6cc61cf8d1a4cc61cc4d1a2cc61c5cd1a0cc61bc8d19ecc61b08d19ccc61ac0d19acc61a70d198cc61a30d196cc619d8d194cc616c4d192cc61648d190cc61608d18ecc615e0d18ccc614e0d18acc6144cd188cc61390d186cc612d4d184cc61330d182cc62630d1bdd062620d1bbd0625fcd1b9d0622dcd1b7d0622ccd1b5d0621e8d1b3d0620d8d1b1d062054d1afd061f24d1add061eccd1abd061e4cd1a9d061d8cd1a7d061d20d1a5d061cbcd1a3d061c44d1a1d061be0d19fd061bccd19dd061ba0d19bd061b80d199d061a50d197d0619f4d195d06192cd193d061908d191d0616e8d18fd061678d18dd061508d18bd061478d189d0613e0d187d06130cd185d0612ecd183d060e9cd1811064490d57ecc64498d57ccc64588d57acc640e8d578cc640c8d576cc640ecd574cc6409cd572cc64080d570cc640f4d56ecc64020d56ccc)
  (.lf 0)))

def shaWireTree373 : BTree :=
  .nd (.nd (.nd (.lf
  0x7781ce30cb477e94e30c1477580e30a1e776e8e30ab4776ece30a14773e0e307f477578e308a077310e3061e773d8e306b4773dce3061477298e304b47729ce3041477e7ce3fc7877e84e3fcb477e88e3fc3077e68e3fa7877e6ce3fab477e70e3fa3077e5ce3f87877e58e3f8b477e60e3f83077e40e3f67877e48e3f6b477e4ce3f63077e2ce3f47877e34e3f4b477e38e3f43077e20e3f27877e18e3f2b477e24e3f23077e08e3f07877e00e3f0b477e0ce3f03077df0e3ee7877df4e3eeb477df8e3ee3077ddce3ec7877de0e3ecb477de4e3ec3077dd0e3ea7877dcce3eab477dd4e3ea3077db8e3e87877db4e3e8b477dc0e3e83077da8e3e67877da4e3e6b477dace3e63077d90e3e47877d8ce3e4b477d94e3e43077d80e3e27877b5ce3e2b477d84e3e23077b48e3e07877b44e3e0b477b4ce3e03077b34e3de7877b30e3deb477b38e3de3077b1ce3dc7877b20e3dcb477b24e3dc3077b08e3da78)
  (.lf 0)) (.nd (.lf
  0x6d4cc00537d6d1d800537b6d0700053796d02c0053776cfcc0053756d66c0053736d5c40053716d56000536f6d51c00536d6d4d000536b6d1e00053696d0780053676d0300053656cfd00053636ce700053616f20800535f6f48800535d6f3e400535b6f40c0053596f5dc0053576f3740053556f33c0053536f3040053516f2c800534f6f45800534d6f26c00534b6f2340053496f20c0053476f48c0053456f4100053436f3a80053416f5e000533f6f34400533d6f30800533b6f2d00053396f45c0053376f2740053356f3ec0053336f4140053316f49000532f6f37800532d6f34800532b6f5e40053296f2d40053276f4600053256f2780053236f23800532176cdc00531f76c7000531d77ae400531b77734005319774e80053177747c005315771dc005313770b000531176f7400530f76f2800530d76e2c00530b76db800530976cf400530777af00053057774400530377550005301774700052ff)
  (.lf 0))) (.nd (.nd (.lf
  0x472109490784721894903047200948eb4471fc948e7847204948e30471ec948cb4471e8948c78471f0948c30471d8948ab4471d4948a78471dc948a30471c49488b4471c0948878471c8948830471b09486b4471ac948678471b49486304719c9484b447198948478471a0948430471889482b4471849482784718c94823048b40947cb448b3c947c7848b44947c3048b18947ab448b14947a7848b1c947a3048aec9478b448ae894787848af094783048ac09476b448abc94767848ac494763048a949474b448a9094747848a9894743048a689472b448a6494727848a6c94723048a3c9470b448a3894707848a4094703048a10946eb448a0c946e7848a14946e30489e4946cb4489e0946c78489e8946c30489b8946ab4489b4946a78489bc946a304898c9468b44898894687848990946830489609466b44895c94667848964946630489349464b44893094647848938946430489089462b448904946278)
  (.lf 0)) (.nd (.lf
  0x29a645beacc29a205be8cc299ec5be6cc29d345be4cc29cd85be2cc29c7c5be0cc29c245bdecc29bcc5bdccc29b745bdacc29b1c5bd8cc29ac45bd6cc29a6c5bd4cc29d3c5bd2cc29ce05bd0cc29c845bcecc29c2c5bcccc29bd45bcacc29b7c5bc8cc29b245bc6cc29acc5bc4cc29a745bc2cc29ef05bfdd029edc5bfbd029ec85bf9d029eb45bf7d029ea05bf5d029e8c5bf3d029e785bf1d029e645befd029e505bedd029e3c5bebd029e285be9d029e145be7d029e005be5d029dec5be3d029dd85be1d029dc45bdfd029db05bddd029d9c5bdbd029d885bd9d029d745bd7d029d605bd5d029d4c5bd3d029cf05bd1d029c945bcfd029c3c5bcdd029be45bcbd029b8c5bc9d029b345bc7d029adc5bc5d029a845bc3d029a285bc1102c05c5ebecc2c0645ebccc2c06c5ebacc2c0745eb8cc2c07c5eb6cc2c0845eb4cc2c08c5eb2cc2c0945eb0cc2c09c5eaecc2c0a45eaccc2c0ac5eaacc2c0b45ea8cc)
  (.lf 0)))

def shaWireTree374 : BTree :=
  .nd (.nd (.nd (.lf
  0x36cb0815c7836ca8815cb436cb4815c3036c9c815a7836c2c815ab436ca0815a3036c1881587836c148158b436c2081583036c0481567836c008156b436c0c81563036bf481547836bf08154b436bf881543036be081527836bd88152b436be481523036bcc81507836bc88150b436bd0815030367cc814e7836bb8814eb436bbc814e30367b0814c78367ac814cb4367b4814c3035af8814a7835b70814ab4367a0814a3035a6c81487835aec8148b435af0814830359e881467835a608146b435a6481463035964814478359dc8144b4359e0814430358ec814278359588142b43595c81423036b8881bc7836b7c81bcb436b8c81bc3036b4c81ba7836b5481bab436b5881ba3036afc81b87836b4081b8b436b4481b83036af081b67836ae881b6b436af481b63036adc81b47836ad881b4b436ae081b43036ac481b27836ac881b2b436acc81b23036ab481b07836ab081b0b436ab881b03036aa081ae78)
  (.lf 0)) (.nd (.lf
  0x3d900989d2c3d8b8989b2c3d87098992c3d82898972c3d7e098952c3d79898932c3d75098912c3d708988f2c3d6c0988d2c3d67c988b2c3d63498892c3d5ec98872c3d5a898852c3d56498832c3d5449880cc4a0b89cbf2c4a0a49cbd2c4a0909cbb2c4a07c9cb92c4a0689cb72c4a0549cb52c4a0409cb32c4a02c9cb12c4a0189caf2c4a0049cad2c49ff09cab2c49fdc9ca92c49fc89ca72c49fb49ca52c49fa09ca32c49f8c9ca12c49f789c9f2c49f649c9d2c49f509c9b2c49f3c9c992c49f289c972c49f149c952c49f009c932c49eec9c912c49ed89c8f2c49ec49c8d2c49eb09c8b2c49e9c9c892c49e889c872c49e749c852c49e609c832c49e5c9c80cc4c9b8a0bf2c4c9a4a0bd2c4c990a0bb2c4c97ca0b92c4c968a0b72c4c954a0b52c4c940a0b32c4c92ca0b12c4c918a0af2c4c904a0ad2c4c8f0a0ab2c4c8dca0a92c4c8c8a0a72c4c8b4a0a52c4c8a0a0a32c4c88ca0a12c4c878a09f2c)
  (.lf 0))) (.nd (.nd (.lf
  0x2940a76b4002900a7678002980a7630002800a74b40027c0a7478002840a74300026c0a72b4002680a7278002700a7230002580a70b4002540a70780025c0a7030002440a6eb4002400a6e78002480a6e30002300a6cb40022c0a6c78002340a6c300021c0a6ab4002180a6a78002200a6a30002080a68b4002040a68780020c0a6830001f40a66b4001f00a6678001f80a6630001e00a64b4001dc0a6478001e40a6430001cc0a62b4001c80a6278001d00a6230001b80a60b4001b40a6078001bc0a6030001a40a5eb4001a00a5e78001a80a5e30001900a5cb40018c0a5c78001940a5c300017c0a5ab4001780a5a78001800a5a30001680a58b4001640a58780016c0a5830001540a56b4001500a5678001580a5630001400a54b40013c0a5478001440a54300012c0a52b4001280a5278001300a5230001180a50b4001140a50780011c0a5030001040a4eb4001000a4e78001080a4e30000f00a4cb4)
  (.lf 0)) (.nd (.lf
  0x6d4e4dbcbd06d1f4dbc9d06d140dbc7d06d12cdbc5d06cfdcdbc3d06ce74dbc1106f8d8debecc6f8dcdebccc6f8ecdebacc6f7c8deb8cc6f78cdeb6cc6f84cdeb4cc6fb2cdeb2cc6f834deb0cc6f900deaecc6f7d8deaccc6f7a4deaacc6f8ccdea8cc6f828dea6cc6f908dea4cc6f7e0dea2cc6f7acdea0cc6f87cde9ecc6f734de9ccc6f73cde9acc6f6c0de98cc6f6e0de96cc6f67cde94cc6f684de92cc6f62cde90cc6f5bcde8ecc6f8d4de8ccc6f830de8acc6f910de88cc6f7e8de86cc6f7b4de84cc6f860de82cc6fb24debdd06fb0cdebbd06fafcdeb9d06fae8deb7d06fad0deb5d06fac0deb3d06fab0deb1d06fa9cdeafd06fa88deadd06fa74deabd06fa60dea9d06fa4cdea7d06fa38dea5d06fa24dea3d06fa0cdea1d06f9f8de9fd06f9e8de9dd06f9d0de9bd06f9bcde99d06f9acde97d06f998de95d06f984de93d06f970de91d06f95cde8fd06f948de8dd06f934de8bd06f920de89d0)
  (.lf 0)))

def shaWireTree375 : BTree :=
  .nd (.nd (.nd (.lf
  0x4b6949b1df44b6489b1b404b4649b15404b30c9b0f404b12c9b09404b0589b05f44c1709b3b404c1789b3ca04be709b39404c1689b3aa04be609b37404be6c9b38a04be549b35404be5c9b36a04be409b33404be489b34a04bd589b31f44be3c9b32a04bc3c9b301e4bd509b30b44bd549b30144bb7c9b2e1e4bc309b2eb44bc349b2e144bb709b2c1e4bacc9b2cb44bb749b2c144b9f49b29404bab89b2aa04b9e49b27404b9f09b28a04b9349b25404b9e09b26a04b8649b23f44b9309b24a04b74c9b221e4b85c9b22b44b8609b22144b7089b1ff44b7449b20a04b6989b1e1e4b7009b1eb44b7049b1e144b64c9b1c1e4b68c9b1cb44b6909b1c144b5ec9b19404b6449b1aa04b50c9b17f44b5e89b18a04b4b49b161e4b4e89b16b44b5089b16144b3fc9b13404b4609b14a04b3789b11f44b3f89b12a04b3109b101e4b3709b10b44b3749b10144b29c9b0d404b3089b0ea04b1ac9b0bf44b2989b0ca0)
  (.lf 0)) (.nd (.lf
  0x69168d2932c69154d2912c69144d28f2c69130d28d2c68f98d28b2c68e7cd2892c68e64d2872c68e14d2852c68e94d2832c68d20d280cc6b700d6bf2c6b6f0d6bd2c6b6dcd6bb2c6b6c4d6b92c6b6b4d6b72c6b69cd6b52c6b68cd6b32c6b678d6b12c6b660d6af2c6b64cd6ad2c6b638d6ab2c6b624d6a92c6b610d6a72c6b5fcd6a52c6b5e8d6a32c6b5e4d6a12c6b5c0d69f2c6b5b4d69d2c6b598d69b2c6b588d6992c6b570d6972c6b55cd6952c6b548d6932c6b708d6912c6b520d68f2c6b510d68d2c6b504d68b2c6b528d6892c6b4dcd6872c6b4c0d6852c6b4b4d6832c6b344d680cc6d994dabf2c6d980dabd2c6d970dabb2c6d964dab92c6d94cdab72c6d930dab52c6d91cdab32c6d910dab12c6d8f0daaf2c6d8f8daad2c6d8ccdaab2c6d8c0daa92c6d8a4daa72c6d890daa52c6d880daa32c6d868daa12c6d854da9f2c6d848da9d2c6d82cda9b2c6d818da992c6d804da972c6d7ecda952c)
  (.lf 0))) (.nd (.nd (.lf
  0x6f564de20506f58cde1e506f4f4de1c506f4f8de1a506f4fcde18506f4acde16506ef80de14506ef60de12506ef98de10506ef14de0e506ef2cde0c506eeecde0a506e308de08506e2c4de06506e288de04506e230de02506e1f4de00506f8b8e23e786f814e23c786f8f0e23a786f7c4e238786f790e236786f850e234786f710e232786f720e230786f6b0e22e786f6d0e22c786f664e22a786f650e228786f61ce226786f5b0e224786f580e222786f56ce220786f594e21e786f50ce21c786f510e21a786f514e218786f4b4e216786ef88e214786ef68e212786efa0e210786ef1ce20e786ef34e20c786eef4e20a786e310e208786e2cce206786e290e204786e238e202786e1fce2007877794e23e507761ce23c50774a4e23a5077350e23850771e8e23650770d4e2345076fb8e2325076eb4e2305076e5ce22e5076d50e22c5076d08e22a5076c30e2285076be0e2265076b5ce2245076ad8e22250)
  (.lf 0)) (.nd (.lf
  0x6532cc84dd0652bcc84bd0651fcc849d064f10c847d064efcc845d064ee8c843d064ed4c84110659ccc83ecc659c8c83ccc659c4c83acc659c0c838cc659b4c836cc659a8c834cc6599cc832cc65990c830cc65984c82ecc65868c82ccc65818c82acc657c8c828cc65784c826cc6574cc824cc65714c822cc656ccc820cc65678c81ecc6562cc81ccc655ccc81acc6558cc818cc6553cc816cc654b8c814cc6542cc812cc653b4c810cc65334c80ecc652ccc80ccc65208c80acc64f7cc808cc64f1cc806cc64f78c804cc64f20c802cc65ad4c83dd065abcc83bd065aa8c839d065a90c837d06595cc835d06594cc833d06593cc831d065914c82fd065860c82dd065810c82bd0657c0c829d06577cc827d065744c825d06570cc823d0656c4c821d065674c81fd065624c81dd0655f8c81bd065584c819d065558c817d06550cc815d06548cc813d06540cc811d06538cc80fd065314c80dd06528cc80bd0)
  (.lf 0)))

def shaWireTree376 : BTree :=
  .nd (.nd (.nd (.lf
  0xba5429bf2c0ba0029bd2c0b98829bb2c0b8dc29b92c0b87c29b72c0b7fc29b52c0b75029b32c0b6f029b12c0b67029af2c0b5f029ad2c0b54429ab2c0b4b829a92c0b42c29a72c0b3a029a52c0b31429a32c0b28829a12c0b1fc299f2c0b19c299d2c0b11c299b2c0b09c29992c0b01c29972c0af9c29952c0aef029932c0ae9029912c0ade4298f2c0ad84298d2c0acd8298b2c0ac7829892c0abf829872c0ab5829852c0aae029832c0aaac2980cc0d3482dbf2c0d2f42dbd2c0d2502dbb2c0d1f02db92c0d1442db72c0d0e42db52c0d0382db32c0cfac2db12c0cf4c2daf2c0cecc2dad2c0ce4c2dab2c0cda02da92c0cd142da72c0cc882da52c0cc282da32c0cba82da12c0cb282d9f2c0ca7c2d9d2c0ca1c2d9b2c0c9702d992c0c8e42d972c0c8582d952c0c7cc2d932c0c76c2d912c0c6c02d8f2c0c6342d8d2c0c5d42d8b2c0c5282d892c0c4c82d872c0c41c2d852c0c3bc2d832c0c35c2d80cc)
  (.lf
  0x1a1f84459d01a1b44457d01a1704455d01a12c4453d01a0e84451d01a0a4444fd01a060444dd01a01c444bd019fd84449d019f944447d019f504445d019f0c4443d019eac4441101a6c0443ecc1a684443ccc1a640443acc1a5fc4438cc1a5b84436cc1a5744434cc1a5304432cc1a4ec4430cc1a4a8442ecc1a464442ccc1a420442acc1a3dc4428cc1a3984426cc1a3544424cc1a3104422cc1a2cc4420cc1a288441ecc1a244441ccc1a200441acc1a1bc4418cc1a1784416cc1a1344414cc1a0f04412cc1a0ac4410cc1a068440ecc1a024440ccc19fe0440acc19f9c4408cc19f584406cc19f144404cc19ed04402cc1a6a8443dd01a668443bd01a6244439d01a5e04437d01a59c4435d01a5584433d01a5144431d01a4d0442fd01a48c442dd01a448442bd01a4044429d01a3c04427d01a37c4425d01a3384423d01a2f44421d01a2b0441fd01a26c441dd01a228441bd01a1e44419d01a1a04417d0))
  (.nd (.lf
  0x76a78e3a0b4769a8e39eb476964e39cb4768fce39ab476870e398b4767f4e396b47674ce394b4766c4e392b4766e8e390b476690e38eb476648e38cb476664e38ab476438e388b4764a8e386b4763a0e384b476380e382b46fcf4e380b46f3d8e3be786f400e3bc786f39ce3ba786f368e3b8786f330e3b6786f2f8e3b4786f2bce3b2786f44ce3b0786f260e3ae786f228e3ac786f1fce3aa786f47ce3a8786f1c4e3a6786f190e3a4786f5d0e3a2786f158e3a0786f104e39e786f11ce39c786f0d4e39a786f0a0e398786f07ce396786f054e394786f034e392786f00ce390786efe8e38e786efd0e38c786f13ce38a786e7e4e388786e7bce386786e284e384786e210e382786e218e3807877784e3be3077724e3bc30774f0e3ba3077468e3b830771d4e3b63077078e3b43076f88e3b23076efce3b03076e00e3ae3076dc4e3ac3076ce8e3aa3076c78e3a83076bcce3a63076b38e3a43076ac4e3a230)
  (.lf 0))) (.nd (.nd (.lf
  0x2f7a46698302f78c6696782f7886696b42f7906696302f7786694782f7746694b42f77c6694302f7646692782f7606692b42f7686692302f7506690782f74c6690b42f7546690302f73c668e782f738668eb42f740668e302f728668c782f724668cb42f72c668c302f714668a782f710668ab42f718668a302f7006688782f6fc6688b42f7046688302f6ec6686782f6e86686b42f6f06686302f6d86684782f6d46684b42f6dc6684302f6c46682782f6c06682b42f6c866823030930667cb43098c667c7830990667c30308bc667ab430924667a7830928667a303084c6678b4308b0667878308b4667830307d86676b43084066767830844667630307646674b4307cc667478307d0667430306e46672b4307586672783075c667230306646670b4306d8667078306dc667030305e4666eb430658666e783065c666e3030564666cb4305d8666c78305dc666c30304dc666ab430558666a783055c666a30)
  (.lf 0)) (.nd (.lf
  0x7e9f40c6acc7eccc0c68cc7e7280c66cc7e6fc0c64cc7e6dc0c62cc7e7440c60cc7e6880c5ecc7e65c0c5ccc7e6380c5acc7e5ec0c58cc7e5b80c56cc7e3580c54cc7e3080c52cc7e29c0c50cc7e1d80c4ecc7e1f40c4ccc81a5c0c4acc7dc580c48cc7db500c46cc7d53c0c44cc7d4200c42cc81b340c7dd081b200c7bd081b0c0c79d081af80c77d081ae40c75d081ad00c73d081abc0c71d081aa80c6fd081a940c6dd081a800c6bd081a6c0c69d07e9b00c67d07e9a00c65d07e98c0c63d07e9700c61d07e95c0c5fd07e9480c5dd07e9380c5bd07e9240c59d07e9140c57d07e84c0c55d07e8340c53d07e8240c51d07e6100c4fd07e5fc0c4dd07dc9c0c4bd07dc640c49d07db480c47d07d5bc0c45d07d5ac0c43d07d5840c411083714107ecc836f4107ccc83718107acc836981078cc836a01076cc836641074cc836481072cc8366c1070cc83678106ecc83610106ccc83588106acc835601068cc)
  (.lf 0)))

def shaWireTree377 : BTree :=
  .nd (.nd (.nd (.lf
  0x7b95cf652787b964f6523078c6cf650b478c70f650787b950f6503078c5cf64eb478c58f64e7878c60f64e3078c48f64cb478c44f64c7878c4cf64c3078c34f64ab478c30f64a7878c38f64a3078b68f648b4789f0f6487878c24f64830789dcf646b478984f64678789e8f6463078978f644b478810f644787897cf6443078804f642b4787ccf6427878808f642307fc94f6fcb47fc8cf6fc787fc98f6fc307fc78f6fab47fc80f6fa787fc84f6fa307fc6cf6f8b47fc64f6f8787fc70f6f8307fc50f6f6b47fc58f6f6787fc5cf6f6307fc38f6f4b47fc44f6f4787fc48f6f4307fc24f6f2b47fc2cf6f2787fc30f6f2307fc18f6f0b47fb64f6f0787fc1cf6f0307fb1cf6eeb47fb3cf6ee787fb40f6ee307fb08f6ecb47fb0cf6ec787fb14f6ec307fafcf6eab47faf8f6ea787fb00f6ea307fae8f6e8b47fab4f6e8787faecf6e8307fa68f6e6b47fa8cf6e6787fa90f6e6307fa38f6e4b47fa5cf6e478)
  (.lf 0)) (.nd (.lf
  0x6ca54db9dd06c8d8db9bd06c880db99d06c8b4db97d06c6f0db95d06c134db93d06bfe4db91d06bfb0db8fd06bec8db8dd06be38db8bd06bdb0db89d06bd20db87d06bca8db85d06bc0cdb83d06b8bcdb81d06f3d4dfbfd06f3fcdfbdd06f398dfbbd06f364dfb9d06f32cdfb7d06f2f4dfb5d06f2b8dfb3d06f448dfb1d06f25cdfafd06f224dfadd06f1f8dfabd06f478dfa9d06f1c0dfa7d06f18cdfa5d06f5ccdfa3d06f154dfa1d06f100df9fd06f118df9dd06f0d0df9bd06f09cdf99d06f078df97d06f050df95d06f030df93d06f008df91d06efe4df8fd06efccdf8dd06f138df8bd06e7e0df89d06e7b8df87d06e280df85d06e20cdf83d06e24cdf81d0777b8e3bfd077728e3bdd0774f4e3bbd07746ce3b9d077210e3b7d07707ce3b5d076f8ce3b3d076f04e3b1d076e28e3afd076dc8e3add076cece3abd076c7ce3a9d076bd0e3a7d076b3ce3a5d076ac8e3a3d076a80e3a1d0769e8e39fd0)
  (.lf 0))) (.nd (.nd (.lf
  0x57ee8b01eb457ec8b01e7857eecb01e3057ebcb01cb457e9cb01c7857ec0b01c3057e90b01ab457e70b01a7857e94b01a3057e64b018b457e44b0187857e68b0183057e38b016b457e18b0167857e3cb0163057e0cb014b457decb0147857e10b0143057de0b012b457dc0b0127857de4b0123057db4b010b457d94b0107857db8b0103057d88b00eb457d68b00e7857d8cb00e3057d5cb00cb457d3cb00c7857d60b00c3057d30b00ab457d10b00a7857d34b00a3057d04b008b457ce4b0087857d08b0083057cd8b006b457cb8b0067857cdcb0063057cacb004b457c8cb0047857cb0b0043057c80b002b457c70b0027857c84b0023057ae0b4bcb457adcb4bc7857ae4b4bc3057accb4bab457ac8b4ba7857ad0b4ba3057ab8b4b8b457ab4b4b87857abcb4b83057aa4b4b6b457aa0b4b67857aa8b4b63057a90b4b4b457a8cb4b47857a94b4b43057a7cb4b2b457a78b4b27857a80b4b23057a68b4b0b4)
  (.lf 0)) (.nd (.lf
  0x38ef87bf4cc38e9c7bf2cc390947bf0cc38d5c7beecc38cb47beccc38c407beacc38b947be8cc38b4c7be6cc390887be4cc390007be2cc38f8c7be0cc38f007bdecc38e847bdccc38dd07bdacc38d647bd8cc38cbc7bd6cc38c487bd4cc390907bd2cc390087bd0cc38f947bcecc38f087bcccc38e8c7bcacc38dd87bc8cc38d7c7bc6cc38cd47bc4cc38c507bc2cc3928c7bfdd0392787bfbd0392647bf9d0392507bf7d03923c7bf5d0392247bf3d0392147bf1d0392007befd0391ec7bedd0391d87bebd0391c47be9d0391b07be7d03919c7be5d0391887be3d0391707be1d03915c7bdfd0391447bddd0391347bdbd0391207bd9d0391107bd7d0390f87bd5d0390e47bd3d0390d07bd1d0390bc7bcfd0390ac7bcdd0390987bcbd038de87bc9d038d747bc7d038ccc7bc5d038c607bc3d038b9c7bc1103b1847ebecc3b18c7ebccc3b1947ebacc3b19c7eb8cc3b1a47eb6cc3b1ac7eb4cc3b1b47eb2cc)
  (.lf 0)))

def shaWireTree378 : BTree :=
  .nd (.nd (.nd (.lf
  0x4e5acadac304e594adaa784e590adaab44e598adaa304e580ada8784e57cada8b44e584ada8304e56cada6784e54cada6b44e570ada6304e520ada4784e51cada4b44e524ada4304e4ecada2784e510ada2b44e514ada2304e4e0ada0784e4b4ada0b44e4e4ada0304e4a8ad9e784e4a4ad9eb44e4acad9e304e494ad9c784e490ad9cb44e498ad9c304e480ad9a784e440ad9ab44e484ad9a304e434ad98784e430ad98b44e438ad98304e3e8ad96784e3ecad96b44e424ad96304e3bcad94784e3b8ad94b44e3dcad94304e3a8ad92784e394ad92b44e3acad92304e388ad90784e384ad90b44e38cad90304e378ad8e784e374ad8eb44e37cad8e304d5b0ad8c784e368ad8cb44e36cad8c304d538ad8a784d510ad8ab44d53cad8a304d504ad88784d500ad88b44d508ad88304d4d8ad86784d4d4ad86b44d4dcad86304d4c4ad84784d354ad84b44d4c8ad84304d31cad82784d23cad82b44d320ad8230)
  (.lf 0)) (.nd (.lf
  0x6de94d85d2c6de70d85b2c6de5cd8592c6de44d8572c6de1cd8552c6dde0d8532c6ddb0d8512c6dd78d84f2c6dd48d84d2c6dd14d84b2c6dce0d8492c6dcacd8472c6dc54d8452c6dbe0d8432c6dbb8d840cc70544dc7f2c70524dc7d2c70500dc7b2c704a8dc792c702ecdc772c702d8dc752c702b8dc732c702a4dc712c70288dc6f2c70208dc6d2c701fcdc6b2c701c8dc692c70198dc672c70168dc652c7013cdc632c7010cdc612c700f0dc5f2c700b4dc5d2c6fec4dc5b2c6feacdc592c6fe94dc572c6fe78dc552c6fed0dc532c6fe40dc512c6fe2cdc4f2c6fe00dc4d2c6fde8dc4b2c6fdd0dc492c6fd78dc472c6fd3cdc452c6fcc8dc432c6fcacdc40cc70e0ce07f2c70dfce07d2c70dd8e07b2c70dc4e0792c70db4e0772c70d8ce0752c70d98e0732c70d60e0712c70d50e06f2c70d3ce06d2c70d1ce06b2c70d08e0692c70cece0672c70ccce0652c70cd8e0632c70ca8e0612c70c88e05f2c)
  (.lf 0))) (.nd (.nd (.lf
  0xcbe41ea0300cb601e9e780cb5c1e9eb40cb641e9e300cae01e9c780cadc1e9cb40cae41e9c300ca581e9a780ca541e9ab40ca5c1e9a300c9d41e98780c9d01e98b40c9d81e98300c94c1e96780c9481e96b40c9501e96300c8c01e94780c8bc1e94b40c8c41e94300c8341e92780c8301e92b40c8381e92300c7a81e90780c7a41e90b40c7ac1e90300c7241e8e780c7201e8eb40c7281e8e300c69c1e8c780c6981e8cb40c6a01e8c300c6101e8a780c60c1e8ab40c6141e8a300c58c1e88780c5881e88b40c5901e88300c5041e86780c5001e86b40c5081e86300c4801e84780c47c1e84b40c4841e84300c3f81e82780c3f41e82b40c3fc1e823006fac1e7cb406f4c1e7c7806fb01e7c3006f401e7ab406ed41e7a7806f441e7a3006ec81e78b406e701e787806ecc1e783006e641e76b406df81e767806e681e763006dec1e74b406d901e747806df01e743006d841e72b406d2c1e727806d881e7230)
  (.lf 0)) (.nd (.lf
  0x821acfe9acc820a0fe98cc822a4fe96cc8204cfe94cc82200fe92cc820acfe90cc82a58fe8ecc82908fe8ccc825f4fe8acc825b0fe88cc82550fe86cc82214fe84cc8214cfe82cc82f84febdd082f70febbd082f58feb9d082f3cfeb7d082f24feb5d082f10feb3d082ef8feb1d082ee0feafd082ec8feadd082eb0feabd082e98fea9d082e7cfea7d082e68fea5d082e50fea3d082bc8fea1d082bb0fe9fd082ba0fe9dd082b8cfe9bd082b7cfe99d082b64fe97d082b4cfe95d082b34fe93d082adcfe91d082ac0fe8fd082930fe8dd082650fe8bd082638fe89d082618fe87d082224fe85d08217cfe83d082160fe81107d6b4fe7ecc7d664fe7ccc7d5fcfe7acc7d6b0fe78cc7d45cfe76cc7d3d0fe74cc7d488fe72cc7d34cfe70cc7d318fe6ecc7d288fe6ccc7d280fe6acc7d228fe68cc7d1e8fe66cc7d208fe64cc7d294fe62cc7d19cfe60cc7d18cfe5ecc7d2acfe5ccc7d2d4fe5acc7d10cfe58cc)
  (.lf 0)))

def shaWireTree379 : BTree :=
  .nd (.nd (.nd (.lf
  0x54868ae82b45486cae8230562b0ae7cb4562acae7c78562b4ae7c305629cae7ab4562a0ae7a78562a4ae7a3056290ae78b456284ae787856294ae78305626cae76b456278ae76785627cae763056260ae74b45625cae747856264ae743056248ae72b45623cae72785624cae723056230ae70b45622cae707856234ae703056218ae6eb456214ae6e785621cae6e30561f8ae6cb4561f4ae6c7856204ae6c30561c0ae6ab4561bcae6a78561ecae6a30561a8ae68b4561a4ae6878561acae683056184ae66b456190ae667856194ae663056178ae64b456174ae64785617cae643056158ae62b456154ae627856164ae623056148ae60b456144ae60785614cae603056128ae5eb456124ae5e7856134ae5e3056118ae5cb456114ae5c785611cae5c30560f8ae5ab4560f4ae5a7856104ae5a30560e8ae58b4560e4ae5878560ecae5830560c8ae56b4560c4ae5678560d4ae5630560b8ae54b4560b4ae5478)
  (.lf 0)) (.nd (.lf
  0x6a124d2532c6a12cd2512c6a45cd24f2c6a138d24d2c69eecd24b2c69ec8d2492c69ed8d2472c69648d2452c69604d2432c69550d240cc6d614d67f2c6d328d67d2c6d310d67b2c6d250d6792c6d230d6772c6d160d6752c6cf50d6732c6cf20d6712c6cedcd66f2c6c3c0d66d2c6c3a8d66b2c6c394d6692c6c37cd6672c6c6c4d6652c6c2e0d6632c6c290d6612c6c264d65f2c6c240d65d2c6c1fcd65b2c6c1ecd6592c6c19cd6572c6c174d6552c6c0e0d6532c6bf28d6512c6bf14d64f2c6be70d64d2c6bdfcd64b2c6bd70d6492c6bce4d6472c6bc50d6452c6bbc4d6432c6b89cd640cc6ea7cda7f2c6ea68da7d2c6ea70da7b2c6ea38da792c6ea84da772c6ea0cda752c6e9e8da732c6e9dcda712c6e9c4da6f2c6e9acda6d2c6e994da6b2c6e980da692c6e964da672c6e94cda652c6e938da632c6e920da612c6e90cda5f2c6ea8cda5d2c6e8d8da5b2c6e8c0da592c6ea94da572c6e88cda552c)
  (.lf 0))) (.nd (.nd (.lf
  0x6010c001d0160110001cff60114001cfd60038001cfb5fda0001cf95fda4001cf75fda8001cf55fdac001cf35fdb0001cf15f3f0001cef5f3d4001ced5f3d8001ceb5f3dc001ce95f2f8001ce75f2fc001ce55f2a0001ce35f2a4001ce161b70001cdf61920001cdd61700001cdb61698001cd961670001cd761674001cd56265c001cd362660001cd162664001ccf62434001ccd622f8001ccb62668001cc96266c001cc762670001cc562438001cc3622fc001cc1622a4001cbf621bc001cbd62104001cbb62108001cb961f7c001cb761f58001cb561f9c001cb361ddc001cb161d54001caf61d58001cad61d5c001cab61bf4001ca961bbc001ca761bc0001ca561b74001ca361b78001ca1639cc001c9f639a0001c9d638a0001c9b638a4001c99638a8001c97638ac001c95644d4001c93644d8001c9164528001c8f642c8001c8d642cc001c8b644dc001c89644e0001c876452c001c85642d0001c83)
  (.lf 0)) (.nd (.lf
  0x747d4f449d0747c4f447d0747acf445d07479cf443d074760f4411074ad8f43ecc74ac4f43ccc74aa8f43acc74adcf438cc74a7cf436cc74a5cf434cc74a64f432cc74a34f430cc74a68f42ecc74ae0f42ccc749fcf42acc74a08f428cc74a04f426cc749acf424cc74994f422cc7497cf420cc74964f41ecc7494cf41ccc74934f41acc7491cf418cc74904f416cc748ecf414cc748d4f412cc748bcf410cc7489cf40ecc747f8f40ccc747dcf40acc74800f408cc747b4f406cc74834f404cc74788f402cc74e00f43dd074decf43bd074dc4f439d074db4f437d074d90f435d074d80f433d074d04f431d074cf0f42fd074cdcf42dd074c84f42bd074c74f429d074c24f427d074c10f425d074bfcf423d074bd8f421d074bc4f41fd074ba8f41dd074b8cf41bd074b4cf419d074b38f417d074b24f415d074b10f413d074afcf411d074ae8f40fd074868f40dd074854f40bd074840f409d074824f407d0)
  (.lf 0)))

def shaWireTree380 : BTree :=
  .nd (.nd (.nd (.lf
  0x816d9094c788167d094cb4816e5094c3081645094a78815bd094ab481675094a30815b1094878815750948b4815b509483081569094678814190946b48156d0946308140d094478814090944b481411094430813f9094278813f50942b4813fd0942308260909bc78825dd09bcb48260d09bc30825cd09ba78825c109bab4825d109ba308253109b878822d109b8b48258909b830822c509b6788220909b6b4822c909b630821c109b4788214109b4b4821c509b4308211d09b2788212509b2b48213109b230820f909b078820f509b0b48210d09b030820a509ae788208909aeb4820a909ae308206109ac788207d09acb48208109ac308205509aa788205109aab48205909aa308202909a8788202509a8b48202d09a8308200909a6788200509a6b48200d09a63081fed09a47881e8909a4b481ff109a43081e7109a27881e5509a2b481e7509a23081e4909a07881c2909a0b481e4d09a03081c15099e78)
  (.lf 0)) (.nd (.lf
  0x137f837a078137fc379e7813800379c7813804379a78138083798781380c3796781381037947813814379278138183790781381c378e7813820378c7813824378a78138283788781382c378678138303784781383437827813838378078151c437be301516c37bc301511437ba30150bc37b8301506437b6301500c37b43014fb437b23014f5c37b03014f0437ae3014ec037ac3014e8837aa3014e5c37a83014e3437a63014e0837a43014de037a23014db837a03014d90379e3014d68379c3014d40379a3014b9837983014b7037963014b4c37943014b2837923014b0437903014ae0378e3014abc378c3014a98378a3014a7437883014a5037863014a2c37843014a0837823014978378030164403bbeb4164203bbcb4163fc3bbab4163d83bb8b4163b43bb6b4163903bb4b41636c3bb2b4163483bb0b4163203baeb4162fc3bacb4162d83baab4162b43ba8b4162903ba6b41626c3ba4b4161383ba2b4)
  (.lf 0))) (.nd (.nd (.lf
  0x19820429a781981c429ab419824429a301980c429878198084298b419810429830197f8429678197f44296b4197fc429630197e4429478197e04294b4197e8429430197d0429278197cc4292b4197d4429230197bc429078197b84290b4197c0429030197a8428e78197a4428eb4197ac428e3019794428c7819790428cb419798428c3019780428a781977c428ab419784428a301976c428878197684288b41977042883019758428678197544286b41975c42863019744428478197404284b419748428430197304282781972c4282b419734428230206d8427cb420788427c782078c427c3020618427ab4206cc427a78206d0427a302055c4278b42060c42787820610427830204a84276b42055042767820554427630203e84274b42049c427478204a0427430203304272b4203dc427278203e0427230202784270b42032442707820328427030201bc426eb42026c426e7820270426e3020100426cb4)
  (.lf 0)) (.nd (.lf
  0x40a609172cc405d89170cc405b4916ecc405c4916ccc405a0916acc4056c9168cc405a89166cc405449164cc405249162cc405509160cc3fe54915ecc3fe3c915ccc407d8915acc3fe149158cc3fe6c9156cc3f7789154cc3f6dc9152cc3f6a49150cc3f60c914ecc3f5d0914ccc3f53c914acc3f4e49148cc3f3989146cc3f33c9144cc3f28c9142cc40c1c917dd040c04917bd040bf49179d040abc9177d040a949175d040a5c9173d0408c09171d0408ac916fd040898916dd040884916bd0408749169d0408609167d04084c9165d0408389163d0408249161d040810915fd0407fc915dd0407e8915bd03fef09159d03fe7c9157d03f7589155d03f6ec9153d03f6849151d03f634914fd03f5bc914dd03f54c914bd03f4f49149d03f3c49147d03f3349145d03f27c9143d03f23c9141103fd0c91becc3fc9491bccc3fc4091bacc3fc0491b8cc3fbc091b6cc3fb9091b4cc3fb3891b2cc3fafc91b0cc)
  (.lf 0)))

def shaWireTree381 : BTree :=
  .nd (.nd (.nd (.lf
  0x6a10cd24e306a0f4d24cb46a0f8d24c786a0fcd24c306a0e8d24ab469ff8d24a786a0ecd24a3069ee0d248b469ed0d2487869ee4d2483069684d246b469ebcd2467869ec0d2463069678d244b46964cd244786967cd2443069588d242b4695fcd2427869640d242306ac98d2fcb46ac9cd2fc786aca0d2fc306ac88d2fab46ac8cd2fa786ac90d2fa306ac6cd2f8b46a694d2f8786ac7cd2f8306a688d2f6b46a680d2f6786a68cd2f6306a670d2f4b46a674d2f4786a678d2f4306a65cd2f2b46a658d2f2786a660d2f2306a644d2f0b46a640d2f0786a648d2f0306a634d2eeb46a62cd2ee786a638d2ee306a618d2ecb46a620d2ec786a624d2ec306a60cd2eab46a608d2ea786a610d2ea306a5ecd2e8b46a5f8d2e8786a5fcd2e8306a5e0d2e6b46a5dcd2e6786a5e4d2e6306a5c4d2e4b46a5c8d2e4786a5ccd2e4306a5a8d2e2b46a5acd2e2786a5b4d2e2306a59cd2e0b46a598d2e0786a5a0d2e030)
  (.lf 0)) (.nd (.lf
  0x6ed18db1d4a6ed04db1ab46ecf0db18b46ecd8db174a6ecc4db14b46ecb0db134a6ec94db10b46ec88db0eb46ec70db0d4a6ec60db0ab46e2e4db08b46e2b4db074a6e25cdb054a6dc24db034a6e1d4db00aa77770df3eb4775fcdf3d4a7748cdf3b4a77320df38b4771a8df374a77058df34b476f4cdf32b476e98df30b476de4df2eb476d44df2cb476cacdf2b4a76c20df28b476b98df274a76b10df254a76a90df234a76a14df20b47699cdf1eb476920df1d4a768a0df1b4a76824df18b4767a8df174a76730df154a76518df134a76500df114a764dcdf0f4a764ccdf0d4a76540df0b4a7642cdf094a763c8df06b4762e8df04b4762fcdf034a6fce4df00aa786b4e33eb4786a4e33d4a78680e33b4a78658e3394a785f4e336b4785a4e3354a7857ce332b478274e330b47825ce32f4a78244e32cb478230e32ab47821ce328b478208e3274a781e8e3254a781d0e3234a781b4e3214a78118e31f4a)
  (.lf 0))) (.nd (.nd (.lf
  0x1e35874423037d30743cb437d50743c7837d54743c3037d04743ab437d24743a7837d28743a3037cd87438b437cf874387837cfc74383037cac7436b437ccc74367837cd074363037c807434b437ca074347837ca474343037c547432b437c7474327837c7874323037c287430b437c4874307837c4c74303037bfc742eb437c1c742e7837c20742e3037bd0742cb437bf0742c7837bf4742c3037ba4742ab437bc4742a7837bc8742a3037b787428b437b9874287837b9c74283037b4c7426b437b6c74267837b7074263037b207424b437b4074247837b4474243037af47422b437b1474227837b1874223037ac87420b437ae874207837aec74203037a9c741eb437abc741e7837ac0741e3037a70741cb437a90741c7837a94741c3037a44741ab437a64741a7837a68741a3037a187418b437a3874187837a3c741830379ec7416b437a0c74167837a10741630379c07414b4379e0741478379e4741430)
  (.lf 0)) (.nd (.lf
  0x16d683ad3d016d203ad1d016ce03acfd016ca03acdd016c643acbd016c243ac9d016be83ac7d016bb03ac5d016b703ac3d016b343ac110164d43bfecc164dc3bfccc164e43bfacc164ec3bf8cc164f43bf6cc164fc3bf4cc165043bf2cc1650c3bf0cc165143beecc1651c3beccc165243beacc1652c3be8cc165343be6cc1653c3be4cc165443be2cc1654c3be0cc165543bdecc1655c3bdccc165643bdacc1656c3bd8cc165743bd6cc1657c3bd4cc165843bd2cc1658c3bd0cc165943bcecc1659c3bcccc165a43bcacc165ac3bc8cc165b43bc6cc165bc3bc4cc165c43bc2cc168283bfdd0168143bfbd0168003bf9d0167ec3bf7d0167d83bf5d0167c43bf3d0167b03bf1d01679c3befd0167883bedd0167743bebd0167603be9d01674c3be7d0167383be5d0167243be3d0167103be1d0166fc3bdfd0166e83bddd0166d43bdbd0166c03bd9d0166ac3bd7d0166983bd5d0166843bd3d0166703bd1d0)
  (.lf 0)))

def shaWireTree382 : BTree :=
  .nd (.nd (.nd (.lf
  0x20888518eb420890518e3020878518c7820874518cb42087c518c3020864518a7820860518ab420868518a30208505188782084c5188b4208545188302083c518678208385186b4208405186301f3045184781f2405184b41f3085184301f2345182781f1b45182b41f2385182302246c557c7822468557cb422470557c3022458557a7822454557ab42245c557a3022444557878224405578b422448557830224305576782242c5576b4224345576302241c557478224185574b42242055743022408557278224045572b42240c557230223f4557078223f05570b4223f8557030223e0556e78223dc556eb4223e4556e30223cc556c78223c8556cb4223d0556c30223b8556a78223b4556ab4223bc556a30223a4556878223a05568b4223a8556830223905566782238c5566b4223945566302237c556478223785564b42238055643022368556278223645562b42236c55623022354556078223505560b4)
  (.lf 0)) (.nd (.lf
  0x2a53800437d2a54000437b2a5480043792a5500043772a5580043752a5600043732a5680043712a57000436f2a57800436d2a58000436b2a5880043692a5900043672a5980043652a5a00043632a5a80043611c63000435f1c63400435d1c63800435b1c63c0043591c6400043571c6440043551c6480043531c64c0043511c65000434f1c65400434d1c6b000434b1c6b40043491c6b80043471c6bc0043451c6c00043431c6c40043411c6c800433f1c6cc00433d1c6d000433b1c6d40043391c6d80043371c6dc0043351c6e00043331c6e40043311c6e800432f1c6ec00432d1c6f000432b1c6f40043291c6f80043271c6fc0043251c7000043231c7040043212d9c800431f2d9d000431d2d9d800431b2d9e00043192d9e80043172d9f00043152d9f80043132da000043112da0800430f2da1000430d2da7000430b2da780043092da800043072da880043052da900043032da980043012daa00042ff)
  (.lf 0))) (.nd (.nd (.lf
  0x72f10f0bc7872f20f0bc3072f04f0bab472f00f0ba7872f08f0ba3072ef0f0b8b472ef4f0b87872ef8f0b83072ed8f0b6b472ee0f0b67872ee4f0b63072ec8f0b4b472ec4f0b47872ed0f0b43072eb4f0b2b472eb8f0b27872ebcf0b23072ea8f0b0b472ea4f0b07872eacf0b03072e98f0aeb472e94f0ae7872e9cf0ae3072e84f0acb472e80f0ac7872e88f0ac3072e70f0aab472e6cf0aa7872e74f0aa3072e5cf0a8b472e58f0a87872e60f0a83072e48f0a6b472e44f0a67872e4cf0a63072e30f0a4b472e34f0a47872e38f0a43072e1cf0a2b472e20f0a27872e24f0a23072e10f0a0b472e0cf0a07872e14f0a03072df8f09eb472df4f09e7872dfcf09e3072de4f09cb472de0f09c7872de8f09c3072dd0f09ab472dccf09a7872dd4f09a3072dc0f098b472dbcf0987872dc4f0983072da4f096b472dacf0967872db0f0963072d90f094b472d94f0947872d9cf0943072d84f092b472d7cf09278)
  (.lf 0)) (.nd (.lf
  0x5c0acbbf1d05c098bbefd05c084bbedd05c070bbebd05c05cbbe9d05c048bbe7d05c034bbe5d05c020bbe3d05c00cbbe1d05bff8bbdfd05bfe4bbddd05bfd0bbdbd05bfbcbbd9d05bfa8bbd7d05bf94bbd5d05bf80bbd3d05bf34bbd1d05bed0bbcfd05bebcbbcdd05bea8bbcbd05be94bbc9d05be80bbc7d05be34bbc5d05bd1cbbc3d05bce8bbc1105e058bebecc5dfa0bebccc5df34bebacc5dd74beb8cc5dd9cbeb6cc5dc34beb4cc5e06cbeb2cc5dfc8beb0cc5df48beaecc5de04beaccc5de0cbeaacc5e074bea8cc5dfd0bea6cc5df50bea4cc5de14bea2cc5de1cbea0cc5dc50be9ecc5dc58be9ccc5dbc4be9acc5db7cbe98cc5dba0be96cc5d9e0be94cc5d930be92cc5d900be90cc5d908be8ecc5e07cbe8ccc5dfd8be8acc5df58be88cc5de24be86cc5de2cbe84cc5dc60be82cc5e45cbebdd05e448bebbd05e434beb9d05e420beb7d05e40cbeb5d05e3f8beb3d05e3e4beb1d05e3d0beafd0)
  (.lf 0)))

def shaWireTree383 : BTree :=
  .nd (.nd (.nd (.lf
  0x434248a9030433108a8e78433948a8eb4433988a8e30431788a8c78432f88a8cb4433048a8c304316c8a8a78431608a8ab4431708a8a3042d488a8878431548a88b4431588a883042b748a867842d308a86b442d408a863042b688a847842b608a84b442b6c8a843042b548a827842b488a82b442b588a82303cc388a7cb43cc408a7c783cc448a7c303cc2c8a7ab43cc248a7a783cc308a7a303cc148a78b43cc108a78783cc1c8a78303cc048a76b43cbfc8a76783cc088a76303cbe88a74b43cbf08a74783cbf48a74303cbdc8a72b43cbd48a72783cbe08a72303cbc88a70b43cbc48a70783cbcc8a70303cbb48a6eb43cbb08a6e783cbb88a6e303cba08a6cb43cb9c8a6c783cba48a6c303cb8c8a6ab43cb888a6a783cb908a6a303cb788a68b43cb748a68783cb7c8a68303cb648a66b43cb608a66783cb688a66303cb508a64b43cb4c8a64783cb548a64303cb348a62b43cb3c8a62783cb408a6230)
  (.lf 0)) (.nd (.lf
  0x67ae8d213b067a40d211b0679b0d20fb06774cd20db0676d8d20bb067674d209b067604d207b0674f4d205b067414d203b0673e0d201b06b3b8d63fb06b394d63db06b374d63bb06b420d639b06b2f0d637b06b484d635b06b2d4d633b06b29cd631b06b2a0d62fb06b450d62db06b228d62bb06b208d629b06b1e8d627b06b1bcd625b06b198d623b06b130d621b06b114d61fb06b148d61db06b0d8d61bb06b15cd619b06b170d617b06b09cd615b06b07cd613b06b054d611b06b034d60fb06a198d60db06a048d60bb06a01cd609b069fd8d607b069eacd605b06b00cd603b069598d601b06d630da3fb06d420da3db06d3f0da3bb06d2c8da39b06d28cda37b06d190da35b06d0f0da33b06d0b8da31b06cffcda2fb06cdfcda2db06cd64da2bb06ce2cda29b06cc98da27b06cc14da25b06cbbcda23b06cb98da21b06caf0da1fb06c854da1db06c838da1bb06c81cda19b06c7f8da17b06c718da15b0)
  (.lf 0))) (.nd (.nd (.lf
  0x2be785e20502be7c5e1e502be805e1c502be845e1a502be885e18502be8c5e16502bce85e14502bcec5e12502bcf05e10502bcf45e0e502bcf85e0c502bcfc5e0a502bd345e08502b4cc5e06502b4d05e04502b4d45e02502b4d85e00502bfd4623e782bfa4623c782bfa8623a782bfac6238782bfb06236782bfb46234782bfb86232782bec86230782becc622e782bed0622c782bed4622a782bed86228782bedc6226782bee06224782bee46222782bee86220782beec621e782bef0621c782bef4621a782bef86218782befc6216782bd186214782bd1c6212782bd206210782bd24620e782bd28620c782bd2c620a782bd3c6208782b4ec6206782b4f06204782b4f46202782b4f86200782cec4623e502cec8623c502cecc623a502ced06238502ced46236502ced86234502cedc6232502cf706230502cee0622e502cee4622c502cee8622a502ceec6228502cef06226502cef46224502cef8622250)
  (.lf 0)) (.nd (.lf
  0x4cdec9c51d04cdc09c4fd04cd949c4dd04cd689c4bd04cd3c9c49d04cd109c47d04cce49c45d04ccb89c43d04cc7c9c41104d1b89c3ecc4d1909c3ccc4d1649c3acc4d1389c38cc4d10c9c36cc4d0e09c34cc4d0b49c32cc4d0889c30cc4d05c9c2ecc4d0309c2ccc4d0049c2acc4cfd89c28cc4cfac9c26cc4cf809c24cc4cf549c22cc4cf289c20cc4cefc9c1ecc4ced09c1ccc4cea49c1acc4ce789c18cc4ce4c9c16cc4ce209c14cc4cdf49c12cc4cdc89c10cc4cd9c9c0ecc4cd709c0ccc4cd449c0acc4cd189c08cc4ccec9c06cc4ccc09c04cc4cc949c02cc4d1a09c3dd04d1749c3bd04d1489c39d04d11c9c37d04d0f09c35d04d0c49c33d04d0989c31d04d06c9c2fd04d0409c2dd04d0149c2bd04cfe89c29d04cfbc9c27d04cf909c25d04cf649c23d04cf389c21d04cf0c9c1fd04cee09c1dd04ceb49c1bd04ce889c19d04ce5c9c17d04ce309c15d04ce049c13d04cdd89c11d04cdac9c0fd0)
  (.lf 0)))

def shaWireTree384 : BTree :=
  .nd (.nd (.nd (.lf
  0x1ff000000001fd000000001fb000000001f9000000001f7000000001f5000000001f3000000001f1000000001ef000000001ed000000001eb000000001e9000000001e7000000001e5000000001e3000000001e1000000001df000000001dd000000001db000000001d9000000001d7000000001d5000000001d3000000001d1000000001cf000000001cd000000001cb000000001c9000000001c7000000001c5000000001c3000000001c1000000001bf000000001bd000000001bb000000001b9000000001b7000000001b5000000001b3000000001b1000000001af000000001ad000000001ab000000001a9000000001a7000000001a5000000001a3000000001a10000000019f0000000019d0000000019b00000000199000000001970000000019500000000193000000001910000000018f0000000018d0000000018b0000000018900000000187000000001850000000018300000000181)
  (.lf
  0x489949469d0489689467d04893c9465d0489109463d0488e49461d0488b8945fd04888c945dd048860945bd0488349459d0488089457d0487dc9455d0487b09453d0487849451d048758944fd04872c944dd048700944bd0486d09449d0486a49447d0486789445d04864c9443d04861094411048b50943ecc48b28943ccc48afc943acc48ad09438cc48aa49436cc48a789434cc48a4c9432cc48a209430cc489f4942ecc489c8942ccc4899c942acc489709428cc489449426cc489189424cc488ec9422cc488c09420cc48894941ecc48868941ccc4883c941acc488109418cc487e49416cc487b89414cc4878c9412cc487609410cc48734940ecc48708940ccc486d8940acc486ac9408cc486809406cc486549404cc486289402cc48b38943dd048b0c943bd048ae09439d048ab49437d048a889435d048a5c9433d048a309431d048a04942fd0489d8942dd0489ac942bd0489809429d0489549427d0))
  (.nd (.lf
  0x209cc462050209d0461e50209d4461c50209d8461a50209dc461850209e0461650209e4461450209e8461250209ec461050209f0460e50209f4460c50209f8460a50209fc46085020a0046065020a0446045020a0846025020a0c46005020be44a3e7820bc84a3c7820ba84a3a7820b884a387820b644a367820b444a347820b244a327820b044a307820ae44a2e7820a6c4a2c7820a704a2a7820a744a287820a784a267820a7c4a247820a804a227820a844a207820a884a1e7820a8c4a1c7820a904a1a7820a944a187820a984a167820a9c4a147820aa04a127820aa44a107820aa84a0e7820aac4a0c7820ab04a0a7820ab44a087820ab84a067820abc4a047820ac04a027820ac44a007822bdc4a3e5022be04a3c5022be44a3a5022be84a385022bec4a365022bf04a345022bf44a325022bf84a305022bfc4a2e5022c004a2c5022c044a2a5022c084a285022c0c4a265022c104a245022c144a2250)
  (.lf 0))) (.nd (.nd (.lf
  0x422288660784222c86603042214865eb442218865e784221c865e3041fbc865cb441fb8865c7841fc0865c3041fac865ab441f9c865a7841fb0865a3041f388658b441f3c86587841f4086583041f188656b441f1c86567841f2086563041ed48654b441ed086547841ed886543041c788652b441ec486527841ec886523041c648650b441c1086507841c6886503041c00864eb441c04864e7841c08864e3041bf4864cb441bd8864c7841bf8864c3041bc8864ab441bcc864a7841bd0864a3041b748648b441b7886487841b7c86483041b0c8646b441b0886467841b1086463041af48644b441afc86447841b0086443041a848642b44198486427841a88864230425a486fcb44259c86fc78425b086fc304258486fab44259086fa784259486fa304257886f8b44257086f8784257c86f8304256086f6b44255c86f6784256486f6304254886f4b44254c86f4784255086f4304253c86f2b4424f486f278)
  (.lf 0)) (.nd (.lf
  0x4e3a0a213b04e3d4a211b04e470a20fb04e404a20db04d57ca20bb04d4f8a209b04d4e4a207b04d4bca205b04d36ca203b04d370a201b05074ca63fb050730a63db050760a63bb0506f8a639b050700a637b0506b0a635b050614a633b0505e4a631b0505f4a62fb05059ca62db0505a0a62bb0505a4a629b0505a8a627b050510a625b0504e0a623b0504f0a621b0504b8a61fb0504bca61db0504c0a61bb050458a619b050174a617b0500b0a615b04ffc0a613b04ff64a611b04fcc4a60fb04fc50a60db04f790a60bb04f770a609b04f758a607b04f724a605b04f6c8a603b04f5dca601b052ea4aa3fb052e84aa3db052da0aa3bb052d7caa39b052d48aa37b052d50aa35b052cdcaa33b052ce0aa31b052c60aa2fb052bfcaa2db052be4aa2bb052be8aa29b052c30aa27b052b80aa25b052c94aa23b052b3caa21b052b2caa1fb052aecaa1db052af0aa1bb052c7caa19b052af4aa17b052a88aa15b0)
  (.lf 0)))

def shaWireTree385 : BTree :=
  .nd (.nd (.nd (.lf
  0x174b8499eb4174bc499e30174a0499c78174a8499cb4174ac499c3017494499a7817490499ab417498499a3017480499878174844998b4174884998301746c499678174704996b417474499630174584994781745c4994b41746049943017444499278174404992b41744849923017428499078174344990b4174384990301741c498e7817418498eb417420498e3017404498c7817408498cb41740c498c30173f4498a78173f8498ab4173fc498a30173a0498878173a44988b4173a849883017344498678173404986b41734849863017324498478173284984b41732c49843017318498278173104982b41731c49823018e304d7c7818e2c4d7cb418e344d7c3018e204d7a7818e184d7ab418e244d7a3018e084d787818e044d78b418e0c4d783018df04d767818df44d76b418df84d763018dd84d747818dd44d74b418ddc4d743018dc84d727818dc44d72b418dcc4d723018db44d707818db84d70b4)
  (.lf 0)) (.nd (.lf
  0x724bc00467d724c400467b724cc004679724d4004677724dc004675724e4004673724ec004671724f400466f724fc00466d7250400466b7250c004669725140046677251c004665725240046637252c0046617310c00465f7311400465d7311c00465b73198004659731a0004657731a8004655731b0004653731b8004651731c000464f731c800464d731d000464b731d8004649731e0004647731e8004645731f0004643731f80046417320000463f7320800463d7321000463b73218004639732200046377322800463573230004633732380046317324000462f7324800462d7325000462b732580046297326000462773268004625732700046237327800462173b8400461f73b8c00461d73b9400461b73c1000461973c1800461773c2000461573c2800461373c3000461173c3800460f73c4000460d73c4800460b73c5000460973c5800460773c6000460573c6800460373c7000460173c780045ff)
  (.lf 0))) (.nd (.nd (.lf
  0x726c0e85078726c4e8503072688e84eb4726a8e84e78726ace84e307267ce84cb472670e84c7872680e84c3072664e84ab472650e84a7872668e84a3072634e848b47262ce8487872648e8483072618e846b4725b8e846787261ce84630725a4e844b472594e84478725a8e8443072554e842b472550e842787255ce8423072cc0e83cb472c94e83c7872cc4e83c3072c74e83ab472c88e83a7872c8ce83a3072c68e838b472c48e8387872c6ce8383072c38e836b472c3ce8367872c40e8363072c2ce834b472c28e8347872c30e8343072c04e832b472c00e8327872c08e8323072bd8e830b472bd4e8307872bdce8303072bb4e82eb472bb0e82e7872bb8e82e3072b88e82cb472b84e82c7872b8ce82c3072b54e82ab472b50e82a7872b58e82a3072af8e828b472b1ce8287872b20e8283072ae4e826b472ac0e8267872ae8e8263072ab4e824b472aa8e8247872ab8e8243072a8ce822b472a88e82278)
  (.lf 0)) (.nd (.lf
  0x5a898b655d05a884b653d05a4fcb651d05a4b8b64fd05a484b64dd05a45cb64bd05a434b649d05a420b647d05a35cb645d05a2ecb643d059fb0b641105af80b6fecc5af88b6fccc5af84b6facc5af44b6f8cc5af28b6f6cc5af20b6f4cc5af24b6f2cc5b480b6f0cc5aee4b6eecc5aee0b6eccc5aedcb6eacc5acb8b6e8cc5ac7cb6e6cc5ac3cb6e4cc5ac08b6e2cc5ab9cb6e0cc5a940b6decc5a928b6dccc5a924b6dacc5a8c0b6d8cc5a8bcb6d6cc5a8b8b6d4cc5a8f4b6d2cc5a4f0b6d0cc5a4c8b6cecc5a498b6cccc5a46cb6cacc5a638b6c8cc5a418b6c6cc5a2f4b6c4cc5a308b6c2cc5b5a0b6fdd05b58cb6fbd05b57cb6f9d05b54cb6f7d05b52cb6f5d05b518b6f3d05b488b6f1d05b394b6efd05b37cb6edd05b368b6ebd05b358b6e9d05b2f8b6e7d05ac48b6e5d05ac10b6e3d05abd0b6e1d05aa88b6dfd05aa74b6ddd05aa60b6dbd05aa4cb6d9d05aa28b6d7d05a8e8b6d5d05a8d4b6d3d0)
  (.lf 0)))

def shaWireTree386 : BTree :=
  .nd (.nd (.nd (.lf
  0x7e651015c787e655015cb47e671015c307e625015a787e645015ab47e649015a307e5e90158787e5f10158b47e61d0158307e5c50156787e5ad0156b47e5c90156307e2ed0154787e3390154b47e5a50154307e2450152787e2e10152b47e2e50152307e2090150787e2390150b47e23d0150307e1e5014e787e1fd014eb47e201014e307dc7d014c787e1c5014cb47e1c9014c307dc49014a787dc71014ab47dc75014a307db310148787dc350148b47dc3d0148307d5090146787db250146b47db290146307d4410144787d4fd0144b47d5010144307d39d0142787d4350142b47d4390142307f25501bc787f51d01bcb47f52101bc307f1cd01ba787f1dd01bab47f1e901ba307f15d01b8787f1c101b8b47f1c501b8307f0c901b6787f0e501b6b47f15501b6307f0bd01b4787f08d01b4b47f0c101b4307eff501b2787efd501b2b47f00101b2307efa501b0787efa101b0b47efcd01b0307ef8d01ae78)
  (.lf 0)) (.nd (.lf
  0xd51827a0780d51c279e780d520279c780d524279a780d5282798780d52c2796780d5302794780d5342792780d5382790780d53c278e780d540278c780d544278a780d5482788780d54c2786780d5502784780d5542782780d5582780780ec7827be300ec7c27bc300ec8027ba300ec8427b8300ec8827b6300ec8c27b4300ec9027b2300ec9427b0300ec9827ae300ec9c27ac300eca027aa300eca427a8300eca827a6300ecac27a4300ecb027a2300ecb427a0300ecb8279e300ecbc279c300ecc0279a300ecc42798300ecc82796300eccc2794300ecd02792300ecd42790300ecd8278e300ecdc278c300ece0278a300ece42788300ece82786300ecec2784300ecf02782300ecf4278030104a02bbeb4104a42bbcb4104a82bbab4104ac2bb8b4104b02bb6b4104b42bb4b4104b82bb2b4104bc2bb0b4104c02baeb4104c42bacb4104c82baab4104cc2ba8b4104d02ba6b4104d42ba4b4104d82ba2b4)
  (.lf 0))) (.nd (.nd (.lf
  0x132383e6e30131b43e6cb4131403e6c78131b83e6c30131343e6ab4130c03e6a78131383e6a30130b43e68b4130443e6878130b83e6830130383e66b412fb83e66781303c3e663012fac3e64b412f283e647812fb03e643012f1c3e62b412ea83e627812f203e623012e9c3e60b412e283e607812ea03e603012e1c3e5eb412dac3e5e7812e203e5e3012da03e5cb412d203e5c7812da43e5c3012d143e5ab412c943e5a7812d183e5a3012c883e58b412c083e587812c8c3e583012bfc3e56b412b7c3e567812c003e563012b703e54b412aec3e547812b743e543012ae03e52b412a703e527812ae43e523012a643e50b4129e43e507812a683e5030129d83e4eb4129583e4e78129dc3e4e301294c3e4cb4128c83e4c78129503e4c30128bc3e4ab4128483e4a78128c03e4a301283c3e48b4127c83e4878128403e4830127bc3e46b4127483e4678127c03e46301273c3e44b4126cc3e4478127403e4430)
  (.lf 0)) (.nd (.lf
  0x36850818bd03683c8189d0368288187d0368048185d0367788183d0358f481811039058857ecc38fc4857ccc38f64857acc38ed48578cc38e5c8576cc38da48574cc38d388572cc38c908570cc38c1c856ecc38b6c856ccc38b24856acc38a808568cc38a408566cc389d08564cc3898c8562cc388908560cc3892c855ecc38770855ccc38528855acc3845c8558cc384048556cc383448554cc382f08552cc382488550cc381d8854ecc38124854ccc380bc854acc380008548cc37fa48546cc37eec8544cc37e848542cc38fd4857dd038f4c857bd038ecc8579d038ea88577d038e188575d038d8c8573d038c888571d038bf4856fd038b68856dd038af8856bd038ab88569d038a2c8567d0389c88565d0389648563d0388d08561d0388b8855fd0387c0855dd038504855bd0384548559d0383dc8557d0383408555d0382c48553d03823c8551d0381b0854fd03812c854dd038090854bd0380208549d0)
  (.lf 0)))

def shaWireTree387 : BTree :=
  .nd (.nd (.nd (.lf
  0x684c8cede78684cccede306845ccedcb46844ccedc78684bccedc30683d4cedab468318ceda786843cceda306830cced8b468308ced87868310ced830682f4ced6b4682b4ced678682f8ced6306824cced4b467abcced47868250ced43067ab0ced2b467a5cced27867ab4ced230679ecced0b4679f4ced07867a54ced03067974ceceb4679e0cece78679e4cece306775cceccb4675d8cecc786796ccecc30675bccecab4675ccceca78675d0ceca30675a0cec8b4675a8cec878675accec83067594cec6b467498cec67867598cec6306748ccec4b467460cec47867490cec430673f0cec2b467454cec27867458cec23068d44cf3aaa68af0cf38aa68acccf34aa68614cf2eaa68540cf2aaa6852ccf28aa6856ccf1eaa683e0cf1aaa68304cf18aa682bccf16aa6825ccf14aa6797ccf0eaa675b8cf0aaa675c8cf08aa674a0cf04aa68d40cf3bf468f9ccf3ca068ce8cf3a1e68d38cf3ab468d3ccf3a14)
  (.lf 0)) (.nd (.lf
  0x544ecab1cb4544b4ab1ab45447cab18b454440ab174a54404ab14b4543c8ab134a54388ab114a5434cab0eb453f38ab0d4a53e18ab0b4a53de0ab08aa53cc4aac72c53ca4aac52c53c00aac32c53bf8aac0cc56fdcaf3f4a56fc0af3d4a56fa4af3ab456f94af38b456ec0af36b456e28af354a56d94af334a56d04af314a56c30af2eb456adcaf2d4a56ab8af2b4a56aa8af28b456af4af274a56a54af254a569f4af22b45681caf20b456808af1eb45682caf1d4a567e4af1ab4567c8af194a567bcaf16b456764af14b45670caf12b45658caf114a56540af0f4a56530af0cb4564b0af0b4a56318af08b4562e4af06b455fb4af04b455f44af034a55f0caf00aa58b00b33f4a58ac8b33d4a58ab0b33ab458a9cb3394a58a80b336b458a6cb334b458a58b332b458a48b3314a58a34b32f4a58954b32cb458934b32ab45891cb3294a58904b326b4588b0b324b45887cb3234a58868b320b458850b31f4a)
  (.lf 0))) (.nd (.nd (.lf
  0x35d7870923035d007090b435cfc70907835d0470903035c88708eb435c84708e7835c8c708e3035c0c708cb435c08708c7835c10708c3035b94708ab435b90708a7835b98708a3035b107088b435b0c70887835b1470883035a847086b435a8070867835a8870863035a007084b4359fc70847835a04708430359807082b43597c708278359847082301e1c4707cb41e1c0707c781e1c8707c301e1b0707ab41e1ac707a781e1b4707a301e19c7078b41e1987078781e1a07078301e1887076b41e1847076781e18c7076301e1747074b41e1707074781e1787074301e1607072b41e15c7072781e1647072301e14c7070b41e1487070781e1507070301e138706eb41e134706e781e13c706e301e124706cb41e120706c781e128706c301e110706ab41e10c706a781e114706a301e0fc7068b41e0f87068781e1007068301e0e87066b41e0e47066781e0ec7066301e0d47064b41e0d07064781e0d8706430)
  (.lf 0)) (.nd (.lf
  0x15a8836abd015a4c36a9d015a0c36a7d0159c836a5d01598436a3d01594036a1d015900369fd0158bc369dd01587c369bd0158383699d0157f03697d0157b03695d0157783693d0157403691d015700368fd0156bc368dd015678368bd0156343689d0155f03687d0155ac3685d0155683683d01552836811010498367ecc1044c367ccc103d8367acc103443678cc102cc3676cc1024c3674cc101b83672cc101403670cc100ac366ecc10034366ccc0ffb4366acc0ff343668cc0feb43666cc0fe343664cc0fda03662cc0fd143660cc0fc9c365ecc0fc08365ccc0fb90365acc0fafc3658cc0fa703656cc0f9f83654cc0f9643652cc0f8d83650cc0f860364ecc0f7e0364ccc0f760364acc0f6e03648cc0f6603646cc0f5e03644cc0f5603642cc10448367dd0103d0367bd0103543679d0102c43677d0102443675d0101c83673d0101383671d0100bc366fd01002c366dd00ffac366bd00ff2c3669d0)
  (.lf 0)))

def shaWireTree388 : BTree :=
  .nd (.nd (.nd (.lf
  0xebec317f2c0eb80317d2c0eaf4317b2c0ea7831792c0e9ec31772c0e95c31752c0e8dc31732c0e85c31712c0e7dc316f2c0e75c316d2c0e6dc316b2c0e65c31692c0e5dc31672c0e56031652c0e4d431632c0e44831612c0e3bc315f2c0e32c315d2c0e2b0315b2c0e22031592c0e1a431572c0e11431552c0e09831532c0e00831512c0df8c314f2c0defc314d2c0de7c314b2c0de0031492c0dd8431472c0dd0c31452c0dc9831432c0dc583140cc10494357f2c10428357d2c103ac357b2c1033035792c102a035772c1022035752c101a435732c1011435712c10098356f2c10008356d2c0ff88356b2c0ff0835692c0fe8835672c0fe0835652c0fd8c35632c0fd0035612c0fc70355f2c0fbf4355d2c0fb64355b2c0fae835592c0fa5c35572c0f9cc35552c0f95035532c0f8c435512c0f834354f2c0f7b4354d2c0f734354b2c0f6b435492c0f63435472c0f5b435452c0f53435432c0f4f83540cc)
  (.lf
  0x836410db1d0836310dafd08361d0dadd0836050dabd08357d0da9d0835590da7d0835490da5d0835010da3d0834810da1d082df10d9fd082dd90d9dd082dc10d9bd082db10d99d082cf50d97d082cc50d95d082cb10d93d082b1d0d91d082a810d8fd0829750d8dd0827450d8bd0827050d89d0826e50d87d0826910d85d0821d90d83d0821b90d811002438117ecc02434117ccc02430117acc0242c1178cc024281176cc024241174cc024201172cc0241c1170cc02418116ecc02414116ccc02410116acc0240c1168cc024081166cc024041164cc024001162cc023fc1160cc023f8115ecc023f4115ccc023f0115acc023ec1158cc023e81156cc023e41154cc023e01152cc023dc1150cc023d8114ecc023d4114ccc023d0114acc023cc1148cc023c81146cc023c41144cc023c01142cc02690117dd00267c117bd0026681179d0026541177d0026401175d00262c1173d0026181171d002604116fd0))
  (.nd (.lf
  0x68684d3a0b468654d39eb468484d39cb468414d39ab468364d398b4682d4d396b468280d394b467af8d392b467a08d390b4679bcd38eb467728d38cb4676b0d38ab467654d388b467610d386b4674bcd384b467420d382b4673c4d380b466db0d3be7866d70d3bc7866e80d3ba7866d14d3b87866cd0d3b67866c94d3b47866c5cd3b27866de4d3b07866720d3ae78666d4d3ac7866534d3aa7866560d3a87866664d3a67866c18d3a47866424d3a278663a0d3a07866354d39e786630cd39c78662f0d39a78662c4d3987866000d3967865f20d3947865ef0d3927865edcd3907865eacd38e7865fccd38c78652acd38a78651ecd38878651a4d38678651c4d384786517cd3827864f58d3807868fc4d3be3068f08d3bc3068d68d3ba3068cb4d3b83068c2cd3b63068b94d3b43068b5cd3b23068a50d3b030689f8d3ae30689b8d3ac30688e0d3aa3068814d3a830687a0d3a63068734d3a430686e0d3a230)
  (.lf 0))) (.nd (.nd (.lf
  0x2e4bc626cb42e520626c782e524626c302e444626ab42e4b0626a782e4b4626a302e3cc6268b42e4386268782e43c6268302e3546266b42e3c06266782e3c46266302e2dc6264b42e3486264782e34c6264302e2646262b42e2d06262782e2d46262302e1f46260b42e2586260782e25c6260302e188625eb42e1e8625e782e1ec625e302e114625cb42e17c625c782e180625c302e0a4625ab42e108625a782e10c625a302e02c6258b42e0986258782e09c6258302dfb86256b42e0206256782e0246256302df4c6254b42dfac6254782dfb06254302dee06252b42df406252782df446252302de6c6250b42ded46250782ded86250302ddfc624eb42de60624e782de64624e302dd88624cb42ddf0624c782ddf4624c302dd18624ab42dd7c624a782dd80624a302dc946248b42dd0c6248782dd106248302dc106246b42dc886246782dc8c6246302db906244b42dc046244782dc086244302db406242b4)
  (.lf 0)) (.nd (.lf
  0x7f2b90583d07f021058110828f9097ecc82529097ccc82509097acc825810978cc81f8d0976cc81f990974cc828d90972cc81f410970cc81f4d096ecc81fa5096ccc81fa1096acc81fc10968cc81fd10966cc81fd50964cc81ea50962cc81e290960cc81cf1095ecc81bc5095ccc81d59095acc8189d0958cc817510956cc817d50954cc817e50952cc8171d0950cc8175d094ecc816bd094ccc81649094acc815c10948cc8153d0946cc813a10944cc811dd0942cc830a5097dd083095097bd08306d0979d082fe50977d082fb50975d082fa50973d082f950971d0829b5096fd08230d096dd0822fd096bd0822ed0969d0822510967d0820d90965d081e9d0963d081e110961d081d51095fd081d29095dd081d09095bd0818b10959d0818850957d0818110955d0817f10953d0817a10951d081781094fd0816e9094dd081679094bd0815b90949d0815710947d0814150945d0814010943d0813f1094110)
  (.lf 0)))

def shaWireTree389 : BTree :=
  .nd (.nd (.nd (.lf
  0x7deacf2dcb47deb8f2dc787debcf2dc307de9cf2dab47dea0f2da787dea4f2da307ddf4f2d8b47de90f2d8787de94f2d8307dde8f2d6b47dde0f2d6787ddecf2d6307ddd0f2d4b47dda8f2d4787ddd4f2d4307dd18f2d2b47dd88f2d2787dd8cf2d2307dd08f2d0b47dd0cf2d0787dd10f2d0307dcf0f2ceb47dcf4f2ce787dcf8f2ce307dce0f2ccb47dce4f2cc787dce8f2cc307dcd4f2cab47dbecf2ca787dcd8f2ca307db34f2c8b47dbdcf2c8787dbe4f2c8307d554f2c6b47dae4f2c6787db0cf2c6307d3f0f2c4b47d548f2c4787d54cf2c4307d37cf2c2b47d3dcf2c2787d3e4f2c2307e17cf33eaa7e15cf338aa7e064f32eaa7e038f32aaa7e020f328aa7e008f326aa7dff4f324aa7def4f322aa7dec8f31eaa7deb4f31caa7df10f31aaa7de18f318aa7dde4f316aa7ddc8f314aa7dd84f312aa7dd04f310aa7dd20f30eaa7e188f30caa7dbf4f30aaa7dc28f308aa7daf8f306aa7e578f33b40)
  (.lf 0)) (.nd (.lf
  0x5233cab9dd052354ab9bd052310ab99d0522c8ab97d0522a8ab95d0522f4ab93d051eccab91d051e1cab8fd051de0ab8dd051d80ab8bd051d48ab89d051cd0ab87d052274ab85d05195cab83d0518f0ab81d055170afbfd055128afbdd0550e8afbbd0550b4afb9d054fe8afb7d0551acafb5d054f98afb3d054f54afb1d055018afafd054f0cafadd054edcafabd054ea8afa9d054e7cafa7d054e3cafa5d054e1cafa3d054df0afa1d054dccaf9fd054dacaf9dd054d7caf9bd054d5caf99d054d28af97d054cf0af95d054d04af93d054cccaf91d054c9caf8fd054e58af8dd053e50af8bd053e78af89d053d5caf87d053d2caf85d053c68af83d053c2caf81d057174b3bfd057024b3bdd057000b3bbd057080b3b9d056eecb3b7d056e78b3b5d056dbcb3b3d056d28b3b1d056c88b3afd056c08b3add056bc0b3abd056b8cb3a9d056b64b3a7d056a84b3a5d056a20b3a3d0569a4b3a1d0569b8b39fd0)
  (.lf 0))) (.nd (.nd (.lf
  0x55d18ac6eb455d14ac6e7855d1cac6e3055cecac6cb455ce8ac6c7855cf0ac6c3055cc0ac6ab455cbcac6a7855cc4ac6a3055c94ac68b455c90ac687855c98ac683055c68ac66b455c64ac667855c6cac663055c3cac64b455c38ac647855c40ac643055c10ac62b455c0cac627855c14ac623055be4ac60b455be0ac607855be8ac603055bb8ac5eb455bb4ac5e7855bbcac5e3055b8cac5cb455b88ac5c7855b90ac5c3055b60ac5ab455b5cac5a7855b64ac5a3055b34ac58b455b30ac587855b38ac583055b08ac56b455b04ac567855b0cac563055adcac54b455ad8ac547855ae0ac543055ab0ac52b455aacac527855ab4ac523055a84ac50b455a80ac507855a88ac503055a58ac4eb455a54ac4e7855a5cac4e3055a2cac4cb455a28ac4c7855a30ac4c3055a00ac4ab4559fcac4a7855a04ac4a30559d4ac48b4559d0ac4878559d8ac4830559a8ac46b4559a4ac4678559acac46305597cac44b4)
  (.lf 0)) (.nd (.lf
  0x37e207672cc37d807670cc37e1c766ecc37d84766ccc37e18766acc37d887668cc37e147666cc37d8c7664cc37e107662cc37d907660cc37e0c765ecc37d94765ccc37e08765acc37d987658cc37e047656cc37d9c7654cc37e007652cc37da07650cc37df4764ecc3792c764ccc378fc764acc378cc7648cc37ddc7646cc37da47644cc37da87642cc386e4767dd0386cc767bd0386b87679d0386a47677d03868c7675d0386787673d0386647671d038650766fd03863c766dd038628766bd0386147669d0386007667d0385ec7665d0385a87663d0385947661d038580765fd038570765dd03854c765bd0384c07659d03842c7657d03839c7655d0383147653d03828c7651d0381fc764fd038170764dd0380e0764bd0380547649d037fd07647d037f4c7645d037ec07643d037dac7641103903476fecc386d876fccc38f3876facc3874076f8cc38e2c76f6cc3874476f4cc38d0876f2cc3869876f0cc)
  (.lf 0)))

def shaWireTree390 : BTree :=
  .nd (.nd (.nd (.lf
  0x4a3b8a5bc304a39ca5ba784a3a0a5bab44a3a4a5ba304a388a5b8784a384a5b8b44a390a5b8304a378a5b6784a374a5b6b44a37ca5b6304a364a5b4784a35ca5b4b44a368a5b4304a348a5b2784a350a5b2b44a354a5b2304a320a5b0784a31ca5b0b44a340a5b0304a310a5ae784a30ca5aeb44a314a5ae304a2c0a5ac784a2bca5acb44a2c4a5ac304a2a8a5aa784a2b0a5aab44a2b4a5aa304a29ca5a8784a298a5a8b44a2a0a5a8304a28ca5a6784a270a5a6b44a290a5a6304a258a5a4784a260a5a4b44a264a5a4304a24ca5a2784a1d8a5a2b44a250a5a2304a1cca5a0784a1c4a5a0b44a1d0a5a0304a1b0a59e784a1b4a59eb44a1b8a59e304a1a4a59c784a1a0a59cb44a1a8a59c304a190a59a784a18ca59ab44a194a59a304a17ca598784a180a598b44a184a598304a168a596784a164a596b44a170a596304a150a594784a158a594b44a15ca594304a144a592784a13ca592b44a148a59230)
  (.lf 0)) (.nd (.lf
  0x53870a85d2c53844a85b2c53818a8592c537eca8572c537c0a8552c53794a8532c53768a8512c5373ca84f2c53710a84d2c536e4a84b2c536b8a8492c5368ca8472c53660a8452c53634a8432c53624a840cc55e54ac7f2c55e2cac7d2c55e00ac7b2c55dd4ac792c55da8ac772c55d7cac752c55d50ac732c55d24ac712c55cf8ac6f2c55cccac6d2c55ca0ac6b2c55c74ac692c55c48ac672c55c1cac652c55bf0ac632c55bc4ac612c55b98ac5f2c55b6cac5d2c55b40ac5b2c55b14ac592c55ae8ac572c55abcac552c55a90ac532c55a64ac512c55a38ac4f2c55a0cac4d2c559e0ac4b2c559b4ac492c55988ac472c5595cac452c55930ac432c55920ac40cc58198b07f2c58170b07d2c58144b07b2c58118b0792c580ecb0772c580c0b0752c58094b0732c58068b0712c5803cb06f2c58010b06d2c57fe4b06b2c57fb8b0692c57f8cb0672c57f60b0652c57f34b0632c57f08b0612c57edcb05f2c)
  (.lf 0))) (.nd (.nd (.lf
  0x54881a7678054fc1a76300547c1a74b4053f81a7478054801a7430053ec1a72b40537c1a7278053f01a7230053701a70b4052f01a7078053741a7030052e41a6eb4052641a6e78052e81a6e30052581a6cb4051d41a6c780525c1a6c30051c81a6ab4051541a6a78051cc1a6a30051481a68b4050d41a68780514c1a6830050c81a66b4050541a6678050cc1a6630050481a64b404fd41a64780504c1a643004fc81a62b404f541a627804fcc1a623004f481a60b404ed81a607804f4c1a603004ecc1a5eb404e4c1a5e7804ed01a5e3004e401a5cb404dc01a5c7804e441a5c3004db41a5ab404d341a5a7804db81a5a3004d281a58b404ca81a587804d2c1a583004c9c1a56b404c181a567804ca01a563004c0c1a54b404b9c1a547804c101a543004b901a52b404b101a527804b941a523004b041a50b404a841a507804b081a503004a781a4eb4049f81a4e7804a7c1a4e30049ec1a4cb4049681a4c78)
  (.lf 0)) (.nd (.lf
  0x7fb88f6f2cc7fb68f6f0cc7fb50f6eecc7fae0f6eccc7fae4f6eacc7faa4f6e8cc7fa84f6e6cc7fa6cf6e4cc7fa3cf6e2cc7f9f8f6e0cc7f9e0f6decc7feecf6dccc7f94cf6dacc7f8acf6d8cc7f7b4f6d6cc7f7e0f6d4cc7f614f6d2cc7f638f6d0cc7f5d8f6cecc7f548f6cccc7f350f6cacc7f224f6c8cc7f19cf6c6cc7f134f6c4cc7f090f6c2cc7fc9cf6fdd07fc88f6fbd07fc74f6f9d07fc60f6f7d07fc4cf6f5d07fc34f6f3d07fc20f6f1d07fb44f6efd07fb18f6edd07fb04f6ebd07faf0f6e9d07fa94f6e7d07fa64f6e5d07fa34f6e3d07fa18f6e1d07f9dcf6dfd07f9acf6ddd07f948f6dbd07f8b8f6d9d07f7d8f6d7d07f7c4f6d5d07f648f6d3d07f634f6d1d07f5e4f6cfd07f5bcf6cdd07f514f6cbd07f258f6c9d07f1a4f6c7d07f12cf6c5d07f0acf6c3d07eff0f6c1107ec9cf7fecc7ecd8f7fccc7ec90f7facc7ec5cf7f8cc7eca8f7f6cc7ebc4f7f4cc7eddcf7f2cc7ebb4f7f0cc)
  (.lf 0)))

def shaWireTree391 : BTree :=
  .nd (.nd (.nd (.lf
  0x53f8caa543053f78aa52b453f28aa527853f7caa523053eb4aa50b453eb0aa507853eb8aa503053ea0aa4eb453ea4aa4e7853ea8aa4e3053e88aa4cb453e8caa4c7853e90aa4c3053dc0aa4ab453dbcaa4a7853e80aa4a3053db0aa48b453dacaa487853db4aa483053be0aa46b453d84aa467853d88aa463053bd4aa44b453bd0aa447853bd8aa443053bb8aa42b453bbcaa427853bc0aa42305432caafcb454338aafc785433caafc3054320aafab4542d8aafa7854324aafa30542c8aaf8b4542a8aaf878542ccaaf8305429caaf6b454294aaf678542a0aaf63054280aaf4b454288aaf4785428caaf43054274aaf2b454270aaf27854278aaf2305425caaf0b454258aaf07854260aaf03054248aaeeb454244aaee785424caaee3054234aaecb454220aaec7854238aaec3054214aaeab45416caaea7854218aaea3054158aae8b454160aae87854164aae8305414caae6b454140aae67854150aae630)
  (.lf 0)) (.nd (.lf
  0x4fd00a2532c4fd0ca2512c4fc7ca24f2c4fc10a24d2c4f608a24b2c4f588a2492c4f590a2472c4f55ca2452c4f614a2432c4f508a240cc51cb4a67f2c51ca4a67d2c51c80a67b2c51c70a6792c51c50a6772c51c38a6752c51c20a6732c51c84a6712c51bf4a66f2c51bdca66d2c51bc8a66b2c51baca6692c51b94a6672c51b7ca6652c51b64a6632c51b4ca6612c51b34a65f2c51b1ca65d2c51b00a65b2c51ae4a6592c51acca6572c51ab4a6552c51b08a6532c51a90a6512c51a7ca64f2c51a44a64d2c51a20a64b2c51a0ca6492c51a4ca6472c518c0a6452c518a4a6432c51874a640cc54314aa7f2c542fcaa7d2c542e4aa7b2c542c0aa792c54204aa772c541ecaa752c541dcaa732c541bcaa712c541a4aa6f2c54224aa6d2c54180aa6b2c54128aa692c54114aa672c540f0aa652c540c4aa632c54098aa612c54078aa5f2c53fdcaa5d2c53fccaa5b2c53facaa592c53f94aa572c53fe8aa552c)
  (.lf 0))) (.nd (.nd (.lf
  0x465180020014651c001fff46520001ffd46524001ffb46528001ff94652c001ff746530001ff546534001ff346538001ff14653c001fef46540001fed46544001feb46548001fe94654c001fe746550001fe546554001fe346558001fe147008001fdf4700c001fdd47010001fdb47014001fd947018001fd74701c001fd5480cc001fd3480d0001fd1480d4001fcf480d8001fcd480dc001fcb480e0001fc948220001fc7480e4001fc5480e8001fc3480ec001fc1480f0001fbf48224001fbd480f4001fbb480f8001fb9480fc001fb748100001fb548104001fb348108001fb14810c001faf48110001fad48114001fab48118001fa94811c001fa748120001fa548124001fa347020001fa14a418001f9f4a41c001f9d4a420001f9b4a424001f994a428001f974a42c001f954a430001f934a434001f914a438001f8f4a43c001f8d4a440001f8b4a444001f894a448001f874a44c001f854a450001f83)
  (.lf 0)) (.nd (.lf
  0x735b4ec61d073558ec5fd07352cec5dd073518ec5bd0734e4ec59d0734b0ec57d073424ec55d073414ec53d0733fcec51d0733dcec4fd0733b4ec4dd0732ecec4bd0732d4ec49d0732bcec47d0732acec45d073294ec43d07327cec411073720ec3ecc73708ec3ccc736e8ec3acc736f4ec38cc736ccec36cc736c4ec34cc73690ec32cc7367cec30cc73660ec2ecc73668ec2ccc7366cec2acc7361cec28cc73604ec26cc735e8ec24cc735c0ec22cc73560ec20cc73538ec1ecc73570ec1ccc734f8ec1acc734d0ec18cc73430ec16cc73470ec14cc73404ec12cc733ecec10cc733c0ec0ecc732f4ec0ccc732e0ec0acc732c4ec08cc732fcec06cc732a0ec04cc73288ec02cc73864ec3dd073850ec3bd07383cec39d073828ec37d073814ec35d073800ec33d0737ecec31d0737d8ec2fd0737c4ec2dd0737b0ec2bd073760ec29d07374cec27d073738ec25d073724ec23d07359cec21d073588ec1fd0)
  (.lf 0)))

def shaWireTree392 : BTree :=
  .nd (.nd (.nd (.lf
  0x54968b9bf2c5492cb9bd2c54908b9bb2c548ecb9b92c548d0b9b72c5482cb9b52c547dcb9b32c5478cb9b12c54750b9af2c54704b9ad2c546bcb9ab2c54674b9a92c54630b9a72c545fcb9a52c545b0b9a32c54570b9a12c54530b99f2c54508b99d2c544d0b99b2c54498b9992c54448b9972c54420b9952c543d0b9932c54390b9912c54358b98f2c53f40b98d2c53e20b98b2c53df8b9892c53cf4b9872c53cfcb9852c53c74b9832c53c1cb980cc57130bdbf2c5711cbdbd2c57134bdbb2c56fccbdb92c56ed4bdb72c56e30bdb52c56d9cbdb32c56d30bdb12c56c38bdaf2c56b34bdad2c56b20bdab2c56b0cbda92c56afcbda72c56a5cbda52c569fcbda32c5689cbda12c56888bd9f2c56874bd9d2c56860bd9b2c5684cbd992c5683cbd972c56794bd952c5671cbd932c56594bd912c5655cbd8f2c5654cbd8d2c564b8bd8b2c5632cbd892c562f4bd872c55fc4bd852c55f4cbd832c55f10bd80cc)
  (.lf
  0x1d984686dd01d970686bd01d95c6869d01d9486867d01d9346865d01d9206863d01d90c6861d01d8f8685fd01d8e4685dd01d8d0685bd01d8bc6859d01d8a86857d01d8946855d01d8806853d01d86c6851d01d858684fd01d844684dd01d830684bd01d81c6849d01d8086847d01d7f46845d01d7e06843d01d7c8684110328c8683ecc32868683ccc327f4683acc3277c6838cc3270c6836cc326a06834cc326346832cc325c46830cc3254c682ecc324cc682ccc3244c682acc323cc6828cc3234c6826cc322cc6824cc322486822cc321bc6820cc32138681ecc320b8681ccc32030681acc31fac6818cc31f2c6816cc31ea46814cc31e186812cc31d8c6810cc31d00680ecc31c74680ccc31bf0680acc31b706808cc31af86806cc31a846804cc31a106802cc328b0683dd03284c683bd0327d86839d0327606837d0326f06835d0326846833d0326186831d0325a8682fd032530682dd0324b0682bd0))
  (.nd (.lf
  0x370280031813702c00317f36ee000317d36ee400317b36ee800317936eec00317736ef000317536ef400317336de800317136db000316f36d7800316d36d7c00316b36d8000316936d8400316736d8800316536cc800316336c980031613848000315f3841c00315d3907400315b38fec00315938f7c00315738eec00315538e7400315338dc000315138d5000314f38ca800314d38c3400314b38b8800314938b3c0031473907800314538ff000314338f8000314138ef000313f38e7800313d38dc400313b38d5400313938cac00313738c3800313538b8c00313338b4000313138a9800312f38a5800312d389e800312b389a4003129388e80031273894400312538788003123385400031213a83800311f3a53800311d3afe000311b3af440031193ad740031173ad780031153ad7c0031133ad800031113ad8400310f3ad8800310d3ad8c00310b3aadc0031093aae00031073afe40031053af70003103)
  (.lf 0))) (.nd (.nd (.lf
  0x35b4c730c1e35bc4730cb435bc8730c1435ac0730a1e35b40730ab435b44730a1435a3473081e35ab47308b435ab8730814359b073054035a2c7306a0359287303f4359ac7304a0359207302b4359247302143537473fc783537073fcb43537873fc303536073fa783535c73fab43536473fa303534c73f8783534873f8b43535073f8303533873f6783533473f6b43533c73f6303532473f4783532073f4b43532873f4303531073f2783530c73f2b43531473f230352fc73f078352f873f0b43530073f030352e873ee78352e473eeb4352ec73ee30352d473ec78352d073ecb4352d873ec30352c073ea78352bc73eab4352c473ea30352ac73e878352a873e8b4352b073e8303529873e6783529473e6b43529c73e6303528473e4783528073e4b43528873e4303527073e2783526c73e2b43527473e2303525c73e0783525873e0b43526073e0303524873de783524473deb43524c73de303523473dc78)
  (.lf 0)) (.nd (.lf
  0x4e7d40066f34e5440066f14e5640066ef4e7dc0066ed4e7e40066eb4e7ec0066e94e7f40066e74e7fc0066e54e8040066e34e80c0066e1506380066df5063c0066dd506400066db506440066d9506480066d75064c0066d5507980066d3507a00066d1507a80066cf507b00066cd507b80066cb507c00066c9507c80066c7507d00066c5507d80066c3507e00066c1507e80066bf506500066bd506580066bb506600066b9506680066b7506700066b5506780066b3506800066b1505340066af507f00066ad507f80066ab508000066a9508080066a7508100066a5508180066a3506880066a152cf400669f52c6c00669d52c0c00669b52c1000669952c1400669752c3c00669552ec000669352ec800669152dc800668f52dd000668d52dd800668b52ed000668952ed800668752de000668552de800668352df000668152df800667f52cf800667d52d0000667b52c7000667952ca400667752c18006675)
  (.lf 0)))

def shaWireTree393 : BTree :=
  .nd (.nd (.nd (.lf
  0x66081d5030065241d4e78065901d4eb4065941d4e30064c01d4c78065181d4cb40651c1d4c30064481d4a78064b41d4ab4064b81d4a30063e01d48780643c1d48b4064401d48300637c1d4678063d41d46b4063d81d4630063041d4478063701d44b4063741d44300624c1d4278062f81d42b4062fc1d423006f841dbc7806f1c1dbcb406f881dbc3006f101dba7806ea41dbab406f141dba3006e981db87806e401db8b406e9c1db83006e341db67806dc81db6b406e381db63006dbc1db47806d601db4b406dc01db43006d541db27806cfc1db2b406d581db23006cf01db07806c881db0b406cf41db03006c7c1dae7806c101daeb406c801dae3006c041dac7806bac1dacb406c081dac3006ba01daa7806b381daab406ba41daa3006b2c1da87806ac01da8b406b301da83006ab41da67806a5c1da6b406ab81da63006a501da478069e41da4b406a541da430069d81da278069801da2b4069dc1da230)
  (.lf 0)) (.nd (.lf
  0x5283cabdd2c52828abdb2c52820abd92c52808abd72c527ecabd52c527e0abd32c527c4abd12c52734abcf2c526d0abcd2c52670abcb2c5265cabc92c52648abc72c52634abc52c52620abc32c524d0abc0cc553e4afff2c553d0affd2c553e8affb2c553ecaff92c5539caff72c553acaff52c55374aff32c55364aff12c55350afef2c55338afed2c55328afeb2c55310afe92c552fcafe72c552e8afe52c552d0afe32c552f0afe12c552b0afdf2c553f0afdd2c55288afdb2c55278afd92c55260afd72c55248afd52c55250afd32c55224afd12c55214afcf2c55200afcd2c551f0afcb2c551d8afc92c55078afc72c55058afc52c5508cafc32c55068afc0cc5734cb3ff2c57344b3fd2c57328b3fb2c57314b3f92c572f8b3f72c57300b3f52c572d4b3f32c572c0b3f12c572acb3ef2c57350b3ed2c57294b3eb2c57278b3e92c57264b3e72c57248b3e52c57250b3e32c57354b3e12c57218b3df2c)
  (.lf 0))) (.nd (.nd (.lf
  0x64fd8c8023064d48ccbcb464d4cccbc7864d50ccbc3064d38ccbab464d34ccba7864d3cccba3064d24ccb8b464d20ccb87864d2cccb83064d14ccb6b464d0cccb67864d18ccb63064d00ccb4b464cfcccb47864d04ccb43064cecccb2b464ce8ccb27864cf0ccb23064cd0ccb0b464cccccb07864cd4ccb03064cbcccaeb464cc0ccae7864cc4ccae3064cb0ccacb464cacccac7864cb4ccac3064c98ccaab464c9cccaa7864ca0ccaa3064c80cca8b464c84cca87864c8ccca83064c74cca6b464c68cca67864c78cca63064c5ccca4b464c58cca47864c60cca43064c4ccca2b464c48cca27864c50cca23064c2ccca0b464c38cca07864c3ccca03064c1ccc9eb464c18cc9e7864c24cc9e3064c0ccc9cb464c08cc9c7864c10cc9c3064bf8cc9ab464bfccc9a7864c00cc9a3064be8cc98b464be0cc987864beccc983064bd0cc96b464bd4cc967864bd8cc963064bb8cc94b464bc0cc947864bc4cc9430)
  (.lf 0)) (.nd (.lf
  0x48b589646cc48b909644cc48ba09642cc49080967dd049068967bd0490509679d0490389677d0490289675d0490109673d048ff89671d048fd8966fd048fc8966dd048fb4966bd048f9c9669d048f849667d048f6c9665d048f549663d048f409661d048f20965fd048f10965dd048ef8965bd048ee09659d048ec89657d048eb09655d048e989653d048e809651d048e68964fd048e50964dd048e40964bd048e289649d048db89647d048d209645d048c989643d048b6c9641104909096fecc4907096fccc4905896facc4904496f8cc4908c96f6cc4901896f4cc4900496f2cc48fe496f0cc48ff096eecc4971496eccc48fa896eacc48f8c96e8cc48f7496e6cc48f5c96e4cc494e496e2cc48f3496e0cc48f2c96decc48f0096dccc48ee896dacc48ed096d8cc48ebc96d6cc48ea096d4cc48e8c96d2cc48e7096d0cc48e5896cecc4910096cccc48e3096cacc48dd096c8cc48d2c96c6cc48ca096c4cc)
  (.lf 0)))

def shaWireTree394 : BTree :=
  .nd (.nd (.nd (.lf
  0x6167cd18eb461684d18e30615dcd18c786150cd18cb4615e8d18c3061500d18a786147cd18ab461504d18a306146cd18878613e4d188b461474d18830613c4d18678613d8d186b4613dcd18630612f0d1847861304d184b461308d18430612e4d1827860eb8d182b4612e8d1823064804d57c7864800d57cb464808d57c30647c0d57a78647a8d57ab4647f8d57a3064784d578786479cd578b4647a0d5783064700d57678646fcd576b464704d5763064680d5747864684d574b464688d5743064650d5727864648d572b464654d5723064404d570786441cd570b464640d57030641a4d56e78640f0d56eb4641a8d56e3064004d56c786401cd56cb464050d56c3063ff8d56a7863fe0d56ab463ffcd56a3063fa4d5687863fbcd568b463fd8d5683063f68d5667863f80d566b463f84d5663063c68d5647863d28d564b463f60d5643063c24d5627863c34d562b463c60d5623063c04d5607863c00d560b4)
  (.lf 0)) (.nd (.lf
  0x65630c81d2c655d0c81b2c65590c8192c65540c8172c654bcc8152c65430c8132c653b8c8112c65338c80f2c652d0c80d2c6520cc80b2c65090c8092c65034c8072c64fe4c8052c64f80c8032c64f28c800cc67cd8cc3f2c67ce0cc3d2c67cb0cc3b2c67c98cc392c67c84cc372c67c70cc352c67c5ccc332c67c50cc312c67c34cc2f2c67ce8cc2d2c67c0ccc2b2c67bf4cc292c67bfccc272c67bc4cc252c67baccc232c67bb4cc212c67b84cc1f2c67b70cc1d2c67b60cc1b2c67b44cc192c67e1ccc172c67a7ccc152c67a80cc132c67384cc112c67360cc0f2c67350cc0d2c67368cc0b2c67328cc092c672c8cc072c672b4cc052c67294cc032c67208cc00cc69d0cd03f2c69cf8d03d2c69b64d03b2c69b50d0392c69b3cd0372c69b18d0352c69afcd0332c69ae4d0312c69ad4d02f2c69ab4d02d2c69a9cd02b2c69b2cd0292c69b80d0272c69a64d0252c69a50d0232c69a2cd0212c69a18d01f2c)
  (.lf 0))) (.nd (.nd (.lf
  0x10a6c2bfcb410a742bfc3010a5c2bfa7810a582bfab410a602bfa3010a482bf87810a442bf8b410a4c2bf83010a342bf67810a302bf6b410a382bf63010a202bf47810a1c2bf4b410a242bf43010a0c2bf27810a082bf2b410a102bf230109f82bf078109f42bf0b4109fc2bf030109e42bee78109e02beeb4109e82bee30109d02bec78109cc2becb4109d42bec30109bc2bea78109b82beab4109c02bea30109a82be878109a42be8b4109ac2be830109942be678109902be6b4109982be630109802be4781097c2be4b4109842be4301096c2be278109682be2b4109702be230109582be078109542be0b41095c2be030109442bde78109402bdeb4109482bde30109302bdc781092c2bdcb4109342bdc301091c2bda78109182bdab4109202bda30109082bd878109042bd8b41090c2bd830108f42bd678108f02bd6b4108f82bd630108e02bd478108dc2bd4b4108e42bd430108cc2bd278108c82bd2b4)
  (.lf 0)) (.nd (.lf
  0x14af8414fd014ad4414dd014ab0414bd014a8c4149d014a684147d014a444145d014a204143d01496c414110148f041becc148b041bccc1485841bacc147fc41b8cc147b441b6cc1476441b4cc1470041b2cc1495041b0cc1465c41aecc1494841accc145b841aacc1494041a8cc1450841a6cc1493841a4cc1445841a2cc1493041a0cc143c8419ecc14928419ccc14324419acc149204198cc1426c4196cc149184194cc141d04192cc149104190cc1412c418ecc14908418ccc14074418acc149004188cc13fd84186cc148f84184cc13f404182cc1496441bdd01486841bbd01480c41b9d0147ac41b7d01475c41b5d01471041b3d0146b841b1d01466c41afd01461441add0145c841abd01456c41a9d01451841a7d0144bc41a5d01446841a3d01441041a1d0143c0419fd014374419dd01431c419bd0142d04199d01427c4197d0142204195d0141c84193d01417c4191d014124418fd0140d8418dd0)
  (.lf 0)))

def shaWireTree395 : BTree :=
  .nd (.nd (.nd (.lf
  0x5bfc4bbdab45bfccbbda305bfb4bbd8785bfb0bbd8b45bfb8bbd8305bfa0bbd6785bf9cbbd6b45bfa4bbd6305bf8cbbd4785bf88bbd4b45bf90bbd4305bf38bbd2785bf78bbd2b45bf7cbbd2305bed4bbd0785bf2cbbd0b45bf30bbd0305bec8bbce785bec4bbceb45beccbbce305beb4bbcc785beb0bbccb45beb8bbcc305bea0bbca785be9cbbcab45bea4bbca305be8cbbc8785be88bbc8b45be90bbc8305be38bbc6785be78bbc6b45be7cbbc6305bd20bbc4785be2cbbc4b45be30bbc4305bd14bbc2785bd10bbc2b45bd18bbc2305e454bebc785e450bebcb45e458bebc305e440beba785e43cbebab45e444beba305e428beb8785e424beb8b45e42cbeb8305e410beb6785e414beb6b45e41cbeb6305e400beb4785e404beb4b45e408beb4305e3ecbeb2785e3f0beb2b45e3f4beb2305e3d8beb0785e3dcbeb0b45e3e0beb0305e3c8beae785e3c4beaeb45e3ccbeae305e3b4beac785e3b8beacb4)
  (.lf 0)) (.nd (.lf
  0x51e58a6d52c51e4ca6d32c51e2ca6d12c51dfca6cf2c51daca6cd2c51d58a6cb2c51d14a6c92c51a58a6c72c5198ca6c52c51914a6c32c518d4a6c0cc54344aaff2c54330aafd2c5431caafb2c542d0aaf92c54298aaf72c54284aaf52c54268aaf32c54254aaf12c54240aaef2c5422caaed2c54210aaeb2c5415caae92c54144aae72c540f8aae52c540ccaae32c540a8aae12c54084aadf2c54040aadd2c54028aadb2c54014aad92c54004aad72c53ffcaad52c53f1caad32c53f04aad12c53eecaacf2c53edcaacd2c53dccaacb2c53d9caac92c56f80aeff2c56f88aefd2c56f5caefb2c56f90aef92c56ebcaef72c56618aef52c565f8aef32c565e0aef12c565d0aeef2c565b4aeed2c564d8aeeb2c5649caee92c56488aee72c5646caee52c56458aee32c56444aee12c56430aedf2c56418aedd2c56404aedb2c563e4aed92c563d0aed72c563bcaed52c563a8aed32c56390aed12c5637caecf2c)
  (.lf 0))) (.nd (.nd (.lf
  0x1bd285042b41bd245042781bd2c50423027f9c503cb428018503c782801c503c3027efc503ab427f90503a7827f94503a3027e605038b427ef050387827ef450383027dc05036b427e5450367827e5850363027d1c5034b427db450347827db850343027c805032b427d1050327827d1450323027be05030b427c7450307827c7850303027b3c502eb427bd4502e7827bd8502e3027a98502cb427b30502c7827b34502c30279f4502ab427a8c502a7827a90502a30279585028b4279e8502878279ec502830278b85026b42794c502678279505026302781c5024b4278ac502478278b0502430277845022b42781050227827814502230276e45020b4277785020782777c50203027648501eb4276d8501e78276dc501e30275b0501cb42763c501c7827640501c3027510501ab4275a4501a78275a8501a30274745018b42750450187827508501830273d45016b4274685016782746c501630273305014b4)
  (.lf 0)) (.nd (.lf
  0x96a81693d0096281691d0095a0168fd009514168dd009488168bd0093fc1689d0093701687d0092ec1685d00926c1683d0091b416811003ddc167ecc03d80167ccc03cfc167acc03c701678cc03bf81676cc03b781674cc03af81672cc03a641670cc039ec166ecc0396c166ccc038d8166acc0384c1668cc037d41666cc037401664cc036b41662cc036281660cc035b0165ecc0351c165ccc034a4165acc034241658cc033a41656cc033101654cc032981652cc032181650cc03184164ecc0310c164ccc0308c164acc02ff81648cc02f801646cc02f001644cc02e801642cc03d90167dd003d0c167bd003c801679d003bf01677d003b701675d003af01673d003a741671d0039e4166fd003964166dd0038e8166bd00385c1669d0037cc1667d0037501665d0036c41663d0036381661d0035a8165fd00352c165dd00349c165bd00341c1659d00339c1657d0033201655d0032901653d0032101651d0)
  (.lf 0)))

def shaWireTree396 : BTree :=
  .nd (.nd (.nd (.lf
  0x60f7000134b60f74001349636c0001347636c4001345636c8001343636cc001341636d000133f636d400133d62d4400133b636d8001339636dc001337636e000133563970001333636e40013316397400132f636e800132d636ec00132b636f0001329636f4001327636f8001325636fc001323637000013216370400131f6370800131d6541400131b653940013196531c001317652940013156515c001313651600013116516400130f65ae400130d65ae800130b65aec00130965af000130765af400130565af8001303659d0001301659d40012ff659d80012fd659dc0012fb659e00012f9658740012f7658240012f5657d40012f3657900012f16738c0012ef673900012ed673940012eb673980012e96739c0012e7673a00012e5673a40012e367d300012e167d340012df67d380012dd67d3c0012db67d400012d967d440012d767d480012d567d4c0012d367d500012d167d540012cf67d580012cd)
  (.lf 0)) (.nd (.lf
  0x388dc7ba030389387b9e303877c7b9c30385347b9a30384747b9830384107b9630383607b9430382fc7b9230382547b9030381e47b8e30381347b8c30380c87b8a30380147b883037fb07b863037f1c7b843037e907b823037dd07b80303afd07fbeb43af507fbcb43aca87fbab43acac7fb8b43acb07fb6b43acb47fb4b43acb87fb2b43acbc7fb0b43ad647faeb43aa287facb43aaa07faab43aa2c7fa8b43aa887fa6b43aa307fa4b43aa707fa2b43aa347fa0b43a6fc7f9eb43a6cc7f9cb43a6e47f9ab43a5ac7f98b43a5287f96b43a5107f94b43a46c7f92b43a4207f90b43a3a87f8eb43a2347f8cb43a2107f8ab43a1ec7f88b43a1c87f86b43a1a47f84b43a1707f82b43a1587f80b43906c7fbe7838fe87fbc7838f787fba7838ee87fb87838e707fb67838dbc7fb47838d4c7fb27838ca47fb07838c307fae7838b847fac7838b387faa7838a947fa87838a547fa678389e47fa478389a07fa278)
  (.lf 0))) (.nd (.nd (.lf
  0x253c84f18a02535c4f1540253904f16a0253244f1340253584f14a0252ec4f11f4253204f12a0252ac4f101e252e44f10b4252e84f1014252684f0e1e252a04f0eb4252a44f0e14252244f0c1e2525c4f0cb4252604f0c14251e84f09402521c4f0aa0251b04f07f4251e44f08a0251a84f06b4251ac4f061424e184ffc7824e144ffcb424e1c4ffc3024e044ffa7824e004ffab424e084ffa3024df04ff87824dec4ff8b424df44ff83024ddc4ff67824dd84ff6b424de04ff63024dc84ff47824dc44ff4b424dcc4ff43024db44ff27824db04ff2b424db84ff23024da04ff07824d9c4ff0b424da44ff03024d8c4fee7824d884feeb424d904fee3024d784fec7824d744fecb424d7c4fec3024d644fea7824d604feab424d684fea3024d504fe87824d4c4fe8b424d544fe83024d3c4fe67824d384fe6b424d404fe63024d284fe47824d244fe4b424d2c4fe43024d144fe27824d104fe2b424d184fe230)
  (.lf 0)) (.nd (.lf
  0x5a620c547d05a3d0c545d05a340c543d059fb8c541105b704c5becc5b708c5bccc5b6a8c5bacc5b660c5b8cc5b5e4c5b6cc5b5ccc5b4cc5b4f0c5b2cc5b4acc5b0cc5b450c5aecc5b3fcc5accc5b3c0c5aacc5b314c5a8cc5ae58c5a6cc5adecc5a4cc5add4c5a2cc5abf8c5a0cc5ab30c59ecc5ab38c59ccc5aabcc59acc5aa90c598cc5a9ccc596cc5a9b0c594cc5a97cc592cc5a6f8c590cc5a6e4c58ecc5a6d4c58ccc5a714c58acc5a724c588cc5a5f0c586cc5a36cc584cc5a364c582cc5b728c5bdd05b714c5bbd05b65cc5b9d05b5c4c5b7d05b5b4c5b5d05b4fcc5b3d05b4b8c5b1d05b448c5afd05b3f0c5add05b3b8c5abd05b34cc5a9d05ae6cc5a7d05ae40c5a5d05ae20c5a3d05abb8c5a1d05ab28c59fd05ab18c59dd05aadcc59bd05aa40c599d05aa04c597d05a9f4c595d05a988c593d05a83cc591d05a828c58fd05a808c58dd05a7e8c58bd05a7c8c589d05a630c587d05a384c585d0)
  (.lf 0)))

def shaWireTree397 : BTree :=
  .nd (.nd (.nd (.lf
  0x75e60dfce7875e58dfceb475e64dfce3075e44dfcc7875e4cdfccb475e50dfcc3075e38dfca7875e34dfcab475e3cdfca3075e24dfc87875e20dfc8b475e28dfc83075e10dfc67875e0cdfc6b475e14dfc63075dfcdfc47875df8dfc4b475e00dfc43075de8dfc2786f280dfc2b475decdfc23077aa4e2bc7877aa0e2bcb477aa8e2bc3077a90e2ba7877a8ce2bab477a94e2ba3077a78e2b87877a74e2b8b477a7ce2b83077a60e2b67877a5ce2b6b477a64e2b63077a48e2b47877a44e2b4b477a4ce2b43077a30e2b27877a2ce2b2b477a34e2b23077a18e2b07877a14e2b0b477a1ce2b03077a04e2ae7877a00e2aeb477a08e2ae30779ece2ac78779e8e2acb4779f0e2ac30779d4e2aa78779d0e2aab4779d8e2aa30779bce2a878779b8e2a8b4779c0e2a830779a4e2a678779a0e2a6b4779a8e2a63077990e2a4787798ce2a4b477994e2a43077978e2a27877974e2a2b47797ce2a23077960e2a078)
  (.lf 0)) (.nd (.lf
  0x525a400567d525d400567b52608005679525480056775255000567552798005673527a00056715272800566f526c400566d525ac00566b525dc005669526100056675255800566552560005663524cc00566154eec00565f54eb400565d5518000565b55148005659550f8005657550c400565554ff8005653551c000565154fa800564f54f6400564d5502c00564b54f3c00564954ef0005647551840056455515000564355100005641550c800563f5500000563d551c800563b54fac00563954f68005637550340056355518c005633551580056315510800562f550d000562d5500400562b551d000562954fb400562754f700056255503c00562354f4400562156bd000561f56ba000561d5718800561b57040005619570440056175709400561556f0400561356e8800561156de000560f56d5000560d56c5000560b56c1800560956bd4005607571900056055704c005603570540056015709c0055ff)
  (.lf 0))) (.nd (.nd (.lf
  0x44fa88c207844fcc8c203044f9c8c1eb444f7c8c1e7844fa08c1e3044f708c1cb444f508c1c7844f748c1c3044f448c1ab444f248c1a7844f488c1a3044f188c18b444ef88c187844f1c8c183044eec8c16b444ecc8c167844ef08c163044ec08c14b444ea08c147844ec48c143044e948c12b444e748c127844e988c123044e688c10b444e488c107844e6c8c103044e3c8c0eb444e1c8c0e7844e408c0e3044e108c0cb444df08c0c7844e148c0c3044de48c0ab444dc48c0a7844de88c0a3044db88c08b444d988c087844dbc8c083044d8c8c06b444d6c8c067844d908c063044d608c04b444d408c047844d648c043044d348c02b444d248c027844d388c02303d2d090bcb43d2cc90bc783d2d490bc303d2a890bab43d2a490ba783d2ac90ba303d27c90b8b43d27890b8783d28090b8303d25090b6b43d24c90b6783d25490b6303d22490b4b43d22090b4783d22890b4303d1f890b2b43d1f490b278)
  (.lf 0)) (.nd (.lf
  0x220005668cc21fe85666cc21fd05664cc21fb85662cc21fa05660cc21f88565ecc21f70565ccc21f58565acc21f405658cc21f285656cc21f105654cc21ef85652cc220cc5650cc220d8564ecc229e4564ccc220ac564acc21e8c5648cc21e605646cc21e345644cc21da05642cc22bd4567dd022bc0567bd022bac5679d022b985677d022b845675d022b705673d022b5c5671d022b48566fd022b34566dd022b20566bd022b0c5669d022af85667d022ae45665d022ad05663d022abc5661d022aa8565fd022a94565dd022a80565bd022a6c5659d022a585657d022a445655d022a305653d022a1c5651d022a08564fd0229f4564dd0220bc564bd021e9c5649d021e705647d021e445645d021db05643d021d8c5641102934c56fecc2931056fccc292d456facc2929c56f8cc2925c56f6cc2922056f4cc291e056f2cc291a456f0cc2916c56eecc2912c56eccc290e856eacc290a456e8cc2906856e6cc)
  (.lf 0)))

def shaWireTree398 : BTree :=
  .nd (.nd (.nd (.lf
  0x32d00796c7832d18796cb432d1c796c3032cf4796a7832cdc796ab432cf8796a3032cb879687832cd07968b432cd479683032cac79667832c947966b432cb079663032c8879647832c847964b432c8c79643032c6479627832c607962b432c6879623032c4079607832c3c7960b432c4479603032c1c795e7832c18795eb432c20795e3032bf8795c7832bf4795cb432bfc795c3032bd4795a7832bd0795ab432bd8795a3032ae079587832adc7958b432ae479583032acc79567832ac87956b432ad079563032ab879547832ab47954b432abc79543032aa479527832aa07952b432aa879523032a9079507832a8c7950b432a9479503032a7c794e7832a78794eb432a80794e3032a68794c7832a64794cb432a6c794c3032a54794a7832a50794ab432a58794a3032a4079487832a3c7948b432a4479483032a2c79467832a287946b432a3079463032a1879447832a147944b432a1c79443032a04794278)
  (.lf 0)) (.nd (.lf
  0x320b4689d2c3202c689b2c31fa868992c31f2868972c31ea068952c31e1468932c31d8868912c31cfc688f2c31c70688d2c31bec688b2c31b6c68892c31af468872c31a8068852c31a0c68832c319d86880cc347c06cbf2c3475c6cbd2c346e46cbb2c346686cb92c345ec6cb72c345706cb52c344f46cb32c344786cb12c344046caf2c3438c6cad2c343186cab2c342a06ca92c342286ca72c341b86ca52c341486ca32c340d46ca12c340606c9f2c33fe86c9d2c33f6c6c9b2c33ef46c992c33e786c972c33dfc6c952c33d846c932c33d0c6c912c33c906c8f2c33c0c6c8d2c33b846c8b2c33b006c892c33a746c872c339dc6c852c339386c832c338f86c80cc366d470bf2c3666c70bd2c365f870bb2c3658c70b92c3651c70b72c364a870b52c3643070b32c363c070b12c3634c70af2c362d070ad2c3625470ab2c361e070a92c3617070a72c3610070a52c3609070a32c3602070a12c35fb0709f2c)
  (.lf 0))) (.nd (.nd (.lf
  0x3e0064e78003e8064e30003d0064cb4003cc064c78003d4064c30003bc064ab4003b8064a78003c0064a30003a80648b4003a4064878003ac064830003940646b40039006467800398064630003800644b40037c064478003840644300036c0642b4003680642780037006423003d3006fcb403da006fc7803da406fc3003ca406fab403d2406fa7803d2806fa3003c1806f8b403c9806f87803c9c06f83003b9406f6b403c0c06f67803c1006f63003b1406f4b403b8806f47803b8c06f43003a9406f2b403b0806f27803b0c06f23003a0c06f0b403a8806f07803a8c06f0300398806eeb403a0006ee7803a0406ee300390806ecb40397c06ec780398006ec300388006eab4038fc06ea780390006ea30037f406e8b40387406e8780387806e8300377006e6b4037e806e678037ec06e630036e806e4b40376406e4780376806e4300365c06e2b4036dc06e278036e006e230035d006e0b40365006e078)
  (.lf 0)) (.nd (.lf
  0x6bc60d645d06bbf8d643d06b890d641106d618d6fecc6d32cd6fccc6d318d6facc6d254d6f8cc6d23cd6f6cc6d164d6f4cc6cf54d6f2cc6cf30d6f0cc6cee0d6eecc6c3c4d6eccc6c3acd6eacc6c398d6e8cc6c388d6e6cc6c6c8d6e4cc6c2e4d6e2cc6c294d6e0cc6c278d6decc6c244d6dccc6c200d6dacc6c208d6d8cc6c1b8d6d6cc6c6ccd6d4cc6c0f4d6d2cc6bf2cd6d0cc6bf18d6cecc6be88d6cccc6be04d6cacc6bd74d6c8cc6bce8d6c6cc6bc54d6c4cc6bbc8d6c2cc6d39cd6fdd06d374d6fbd06d348d6f9d06d298d6f7d06d204d6f5d06cf90d6f3d06cf2cd6f1d06cef8d6efd06ccf0d6edd06ccd8d6ebd06ccc8d6e9d06cc68d6e7d06cc58d6e5d06cbd8d6e3d06ca98d6e1d06ca84d6dfd06ca74d6ddd06c774d6dbd06c760d6d9d06c74cd6d7d06c738d6d5d06c100d6d3d06bf94d6d1d06bf64d6cfd06be94d6cdd06be0cd6cbd06bdc4d6c9d06bd84d6c7d06bc74d6c5d06bc3cd6c3d0)
  (.lf 0)))

def shaWireTree399 : BTree :=
  .nd (.nd (.nd (.lf
  0x48cc497061e48d549706b448d5897061448c589703f448cbc9704a048c2c9702b448c5497021447e4c97fc7847e4897fcb447e5097fc3047e3897fa7847e3497fab447e4097fa3047e2897f87847e2497f8b447e2c97f83047e1097f67847e1497f6b447e1897f63047e0097f47847dfc97f4b447e0497f43047de897f27847dec97f2b447df097f23047dd097f07847dd897f0b447ddc97f03047dbc97ee7847dc097eeb447dc497ee3047dac97ec7847db097ecb447db497ec3047d9897ea7847d9c97eab447da097ea3047d8097e87847d8497e8b447d8897e83047d6c97e67847d7497e6b447d7897e63047d5c97e47847d6097e4b447d6497e43047d4497e27847d4897e2b447d4c97e23047d3497e07847d3897e0b447d3c97e03047d2097de7847d2497deb447d2897de3047d1097dc7847d0c97dcb447d1497dc3047cf897da7847cfc97dab447d0097da3047ce097d87847ce897d8b447cec97d830)
  (.lf 0)) (.nd (.lf
  0x4e8cca2932c4e8a8a2912c4e890a28f2c4e880a28d2c4e870a28b2c4e854a2892c4e844a2872c4e82ca2852c4e818a2832c4e810a280cc50a74a6bf2c50a60a6bd2c50a4ca6bb2c50a38a6b92c50a24a6b72c50a10a6b52c509fca6b32c509e8a6b12c509d4a6af2c509c0a6ad2c509aca6ab2c50998a6a92c50984a6a72c50970a6a52c5095ca6a32c50948a6a12c50934a69f2c50920a69d2c5090ca69b2c508f8a6992c508e4a6972c508d0a6952c508bca6932c508a8a6912c50894a68f2c50880a68d2c5086ca68b2c50858a6892c50844a6872c50830a6852c50820a6832c5068ca680cc530f4aabf2c530e0aabd2c530d0aabb2c530b8aab92c530a4aab72c53094aab52c53090aab32c53068aab12c53058aaaf2c53040aaad2c53030aaab2c53014aaa92c53018aaa72c52fecaaa52c52fd8aaa32c52ffcaaa12c53024aa9f2c52fa0aa9d2c52f8caa9b2c52f84aa992c52f64aa972c52f50aa952c)
  (.lf 0))) (.nd (.nd (.lf
  0x61d48c6205061be8c61e5061bb0c61c5061b8cc61a5061a7cc6185061a3cc61650619e0c6145061910c61250616f4c610506168cc60e50615ecc60c5061518c60a5061460c60850613a4c60650612f8c6045061338c6025060ebcc6005062654ca3e7862658ca3c7862614ca3a78623e4ca3878622f4ca367862298ca3478621a8ca3278620e4ca30786204cca2e7861f78ca2c7861f54ca2a7861f98ca287861dc0ca267861d34ca247861cccca227861d50ca207861bf0ca1e7861bb8ca1c7861b94ca1a7861a84ca187861a44ca1678619e8ca147861918ca1278616fcca107861694ca0e78615f4ca0c7861520ca0a7861468ca0878613acca067861300ca047861340ca027860ec4ca0078644b4ca3e50644b8ca3c5064518ca3a50642bcca38506428cca365064370ca34506426cca32506435cca305064218ca2e506421cca2c5064220ca2a5063fecca285064428ca265063d1cca245063c8cca2250)
  (.lf 0)) (.nd (.lf
  0x60c34c065d060b14c063d060afcc061d060ae4c05fd060accc05dd060ab4c05bd060aa4c059d060a8cc057d060a74c055d060a5cc053d060a4cc051d060a20c04fd0609f0c04dd0609bcc04bd060990c049d0608f4c047d0608dcc045d0608c4c043d0608acc0411060e8cc03ecc60e70c03ccc60dccc03acc60db4c038cc60d98c036cc60d78c034cc60d84c032cc60d3cc030cc60d00c02ecc60ce4c02ccc60cacc02acc60c88c028cc60c50c026cc60b20c024cc60b0cc022cc60af4c020cc60ad4c01ecc60ac8c01ccc60b28c01acc60a94c018cc60a7cc016cc60a64c014cc60b40c012cc60a28c010cc609f8c00ecc609c4c00ccc60998c00acc60908c008cc608e8c006cc608d0c004cc608b8c002cc60e6cc03dd060e38c03bd060e24c039d060e10c037d060df8c035d060de0c033d060d4cc031d060d1cc02fd060d04c02dd060cbcc02bd060c9cc029d060c44c027d060c24c025d060c0cc023d0)
  (.lf 0)))

def shaWireTree400 : BTree :=
  .nd (.nd (.nd (.lf
  0x7bf08f9bf2c7beccf9bd2c7be84f9bb2c7be38f9b92c7be08f9b72c7bd60f9b52c7bcf4f9b32c7bcb4f9b12c7bcc8f9af2c7bc2cf9ad2c7bc18f9ab2c7bc64f9a92c7bf88f9a72c7bbd4f9a52c7bbacf9a32c7bb84f9a12c7bb5cf99f2c7bb34f99d2c7bfccf99b2c7ad74f9992c7ad40f9972c7acd4f9952c7acb4f9932c7aba0f9912c7ab74f98f2c7ab14f98d2c7a688f98b2c7a640f9892c7a580f9872c7a7fcf9852c7a300f9832c7a254f980cc7d63cfdbf2c7d610fdbd2c7d5e0fdbb2c7d680fdb92c7d458fdb72c7d3acfdb52c7d364fdb32c7d32cfdb12c7d308fdaf2c7d260fdad2c7d240fdab2c7d210fda92c7d1d8fda72c7d1c4fda52c7d1a8fda32c7d16cfda12c7d150fd9f2c7d29cfd9d2c7d2bcfd9b2c7d104fd992c7d0e4fd972c7d0acfd952c7d07cfd932c7d044fd912c7cfd8fd8f2c7cff0fd8d2c7c434fd8b2c7c404fd892c7c37cfd872c7c078fd852c7bdc8fd832c7bd30fd80cc)
  (.lf
  0x3b9ac80accc3ba0c80aacc3ba1480a8cc3ba1c80a6cc3ba2480a4cc3ba2c80a2cc3ba3480a0cc3ba3c809ecc3ba44809ccc3ba4c809acc3ba548098cc3ba5c8096cc3ba648094cc3ba6c8092cc3ba748090cc3ba7c808ecc3ba84808ccc3ba8c808acc3ba948088cc3ba9c8086cc3baa48084cc3baac8082cc3c00080bdd03bfd880bbd03bfac80b9d03bf8080b7d03bf5480b5d03bf2880b3d03befc80b1d03bed080afd03bea480add03be7880abd03be4c80a9d03be2080a7d03bdf480a5d03bdc480a3d03bd9880a1d03bd6c809fd03bd40809dd03bd14809bd03bce88099d03bcb88097d03bc888095d03bc588093d03bc2c8091d03bc00808fd03bbd4808dd03bba8808bd03bb7c8089d03bb508087d03bb248085d03baf48083d03bab48081102081c807ecc20798807ccc206e4807acc206208078cc205688076cc204b08074cc203f48072cc203388070cc20284806ecc201c4806ccc2010c806acc))
  (.nd (.lf
  0x7ec000029817eb5000297f7ebe400297d7eba400297b7ed000029797ea840029777ea540029757ea300029737ea080029717ecc000296f7e72000296d7e70000296b7e6cc0029697e6ac0029677e6840029657e6600029637e64000296180e4c00295f80ec400295d8135400295b813c8002959812e0002957812bc00295581290002953815880029518124000294f8121400294d811bc00294b813d4002949811580029478135c00294581320002943812fc0029418149000293f8143800293d8158000293b812580029398120c002937813880029358119800293381140002931810e400292f8103c00292d8100c00292b810540029298151c00292780fd000292580ea000292380e7c002921818a400291f8181800291d830b800291b830c0002919830800029178300000291583048002913830180029118314000290f829ec00290d8232400290b8235c0029098233c002907830b0002905830c8002903)
  (.lf 0))) (.nd (.nd (.lf
  0x3b4987eb6303b4807eb4783b47c7eb4b43b4847eb4303b46c7eb2783b4647eb2b43b4707eb2303b4547eb0783b4587eb0b43b45c7eb0303b43c7eae783b4407eaeb43b4447eae303b4287eac783b42c7eacb43b4307eac303b4187eaa783b4147eaab43b41c7eaa303b4047ea8783b4087ea8b43b40c7ea8303b3ec7ea6783b3f47ea6b43b3f87ea6303b3d47ea4783b3e07ea4b43b3e47ea4303b3c47ea2783b3c87ea2b43b3cc7ea2303b3b07ea0783b3b47ea0b43b3b87ea0303b3a07e9e783b39c7e9eb43b3a47e9e303b3907e9c783b38c7e9cb43b3947e9c303b37c7e9a783b3787e9ab43b3807e9a303b3607e98783b3687e98b43b36c7e98303b3507e96783b3547e96b43b3587e96303b33c7e94783b3407e94b43b3447e94303b3287e92783b3247e92b43b3307e92303b3107e90783b3187e90b43b31c7e90303b2fc7e8e783b3007e8eb43b3047e8e303b2ec7e8c783b2f07e8cb43b2f47e8c30)
  (.lf 0)) (.nd (.lf
  0xda142213b00da182211b00da1c220fb00da20220db00da24220bb00da282209b00da2c2207b00da302205b00da342203b00da382201b00f258263fb00f25c263db00f260263bb00f2642639b00f2682637b00f26c2635b00f2702633b00f2742631b00f278262fb00f27c262db00f280262bb00f2842629b00f2882627b00f28c2625b00f2902623b00f2942621b00f298261fb00f29c261db00f2a0261bb00f2a42619b00f2a82617b00f2ac2615b00f2b02613b00f2b42611b00f2b8260fb00f2bc260db00f2c0260bb00f2c42609b00f2c82607b00f2cc2605b00f2d02603b00f2d42601b010b002a3fb010b042a3db010b082a3bb010b0c2a39b010b102a37b010b142a35b010b182a33b010b1c2a31b010b202a2fb010b242a2db010b282a2bb010b2c2a29b010b302a27b010b342a25b010b382a23b010b3c2a21b010b402a1fb010b442a1db010b482a1bb010b4c2a19b010b502a17b010b542a15b0)
  (.lf 0)))

def shaWireTree401 : BTree :=
  .nd (.nd (.nd (.lf
  0x101b4357478102243574b41022835743010124357278101a83572b4101ac357230100a8357078101183570b41011c35703010018356e781009c356eb4100a0356e300ff98356c781000c356cb410010356c300ff18356a780ff8c356ab40ff90356a300fe983568780ff0c3568b40ff103568300fe183566780fe8c3566b40fe903566300fd9c3564780fe0c3564b40fe103564300fd103562780fd903562b40fd943562300fc803560780fd043560b40fd083560300fc04355e780fc74355eb40fc78355e300fb74355c780fbf8355cb40fbfc355c300faf8355a780fb68355ab40fb6c355a300fa6c3558780faec3558b40faf03558300f9dc3556780fa603556b40fa643556300f9603554780f9d03554b40f9d43554300f8d43552780f9543552b40f9583552300f8443550780f8c83550b40f8cc3550300f7c4354e780f838354eb40f83c354e300f744354c780f7b8354cb40f7bc354c300f6c4354a78)
  (.lf 0)) (.nd (.lf
  0x1d754004e7d1d75c004e7b1d764004e791d76c004e771d774004e751d77c004e731d784004e711d78c004e6f1d794004e6d1d79c004e6b1d7a4004e691d7ac004e671d7b4004e651d7bc004e631d7c4004e611da2c004e5f1da34004e5d1da3c004e5b1dab8004e591dac0004e571dac8004e551dad0004e531dad8004e511dae0004e4f1dae8004e4d1daf0004e4b1daf8004e491db00004e471db08004e451db10004e431db18004e411db20004e3f1db28004e3d1db30004e3b1db38004e391db40004e371db48004e351db50004e331db58004e311db60004e2f1db68004e2d1db70004e2b1db78004e291db80004e271db88004e251db90004e231db98004e211de00004e1f1de08004e1d1de10004e1b1de8c004e191de94004e171de9c004e151dea4004e131deac004e111deb4004e0f1debc004e0d1dec4004e0b1decc004e091ded4004e071dedc004e051dee4004e031deec004e011def4004dff)
  (.lf 0))) (.nd (.nd (.lf
  0x6e338d826b46e31cd826786e33cd826306e0c8d824b46e0ccd824786e314d824306e0b8d822b46e0b0d822786e0bcd822306e09cd820b46e0a0d820786e0a4d820306e078d81eb46e08cd81e786e090d81e306e064d81cb46e068d81c786e070d81c306e054d81ab46e058d81a786e05cd81a306e038d818b46e044d818786e048d818306e02cd816b46e028d816786e030d816306e014d814b46de00d814786e018d814306ddecd812b46ddc0d812786ddf8d812306ddb4d810b46dd94d810786ddb8d810306dd7cd80eb46dd58d80e786dd80d80e306dd4cd80cb46dd34d80c786dd50d80c306dd24d80ab46dcf0d80a786dd28d80a306dce4d808b46dcbcd808786dce8d808306dcb0d806b46dc74d806786dcb4d806306dc58d804b46dc14d804786dc5cd804306dbe8d802b46dbdcd802786dc0cd802306ca30dcbcb46ca34dcbc786ca38dcbc306ca20dcbab46ca1cdcba786ca24dcba306ca0cdcb8b4)
  (.lf 0)) (.nd (.lf
  0x51c98a67bd051c7ca679d051c64a677d051c4ca675d051c34a673d051c1ca671d051c0ca66fd051bf0a66dd051bd8a66bd051bc0a669d051ba8a667d051b90a665d051b78a663d051b60a661d051b48a65fd051b30a65dd051b18a65bd051af8a659d051ae0a657d051ac8a655d051ab0a653d051aa0a651d051a88a64fd051a74a64dd051a34a64bd051a1ca649d051a08a647d0519f8a645d0518b8a643d05184ca6411051d50a6fecc51ca8a6fccc51d04a6facc51c74a6f8cc51c54a6f6cc51c3ca6f4cc51c24a6f2cc51c88a6f0cc51bf8a6eecc51be0a6eccc51bd4a6eacc51bb0a6e8cc51b98a6e6cc51b80a6e4cc51b68a6e2cc51b50a6e0cc51b38a6decc51b20a6dccc51b04a6dacc51ae8a6d8cc51ad0a6d6cc51ab8a6d4cc51b0ca6d2cc51a94a6d0cc51c00a6cecc51a48a6cccc51a24a6cacc51d10a6c8cc51a50a6c6cc51980a6c4cc518a8a6c2cc5224ca6fdd0521aca6fbd052194a6f9d0)
  (.lf 0)))

def shaWireTree402 : BTree :=
  .nd (.nd (.nd (.lf
  0x6f768e9b4306f754e9b2786f750e9b2b46f758e9b2306f6f8e9b0786f6f4e9b0b46f6fce9b0306f6e8e9ae786f6e4e9aeb46f6ece9ae306f698e9ac786f694e9acb46f69ce9ac306f654e9aa786f688e9aab46f68ce9aa306f63ce9a8786f638e9a8b46f640e9a8306f608e9a6786f60ce9a6b46f610e9a6306f5a0e9a4786f5f8e9a4b46f5fce9a4306f558e9a2786f554e9a2b46f55ce9a2306f544e9a0786f548e9a0b46f54ce9a0306f538e99e786f534e99eb46f53ce99e306f518e99c786f528e99cb46f52ce99c306f4dce99a786f4e0e99ab46f4e4e99a306f4d0e998786f4c8e998b46f4d4e998306f4bce996786f4a4e996b46f4c0e996306ef78e994786f498e994b46f49ce994306ef6ce992786ef58e992b46ef70e992306ef4ce990786ef48e990b46ef50e990306ef20e98e786ef3ce98eb46ef40e98e306ef04e98c786ef00e98cb46ef08e98c306eee0e98a786e2fce98ab46eee4e98a30)
  (.lf 0)) (.nd (.lf
  0xa2c0e5c7800a340e5c3000a1c0e5ab400a180e5a7800a200e5a3000a080e58b400a040e587800a0c0e5830009f40e56b4009f00e5678009f80e5630009e00e54b4009dc0e5478009e40e5430009cc0e52b4009c80e5278009d00e5230009b80e50b4009b40e5078009bc0e5030009a40e4eb4009a00e4e78009a80e4e30009900e4cb40098c0e4c78009940e4c300097c0e4ab4009780e4a78009800e4a30009680e48b4009640e48780096c0e4830009540e46b4009500e4678009580e4630009400e44b40093c0e4478009440e44300092c0e42b4009280e4278009300e423006fc80efcb406fc40efc7806fcc0efc3006f640efab406f600efa7806f680efa3006ef00ef8b406eec0ef87806ef40ef83006e840ef6b406e800ef67806e880ef63006e140ef4b406e100ef47806e180ef43006da80ef2b406da40ef27806dac0ef23006d400ef0b406d3c0ef07806d440ef03006cd00eeeb406ccc0eee78)
  (.lf 0))) (.nd (.nd (.lf
  0x15b4036b03015b0436ae7815b0036aeb415b0836ae3015ac436ac7815ac036acb415ac836ac3015a8036aa7815a7c36aab415a8436aa3015a4436a87815a4036a8b415a4836a83015a0436a67815a0036a6b415a0836a630159c036a478159bc36a4b4159c436a4301597c36a2781597836a2b41598036a2301593836a0781593436a0b41593c36a030158f8369e78158f4369eb4158fc369e30158b4369c78158b0369cb4158b8369c3015874369a7815870369ab415878369a30158303698781582c3698b415834369830157e8369678157e43696b4157ec369630157a8369478157a43694b4157ac369430157703692781576c3692b41577436923015738369078157343690b41573c369030156f8368e78156f4368eb4156fc368e30156b4368c78156b0368cb4156b8368c3015670368a781566c368ab415674368a301562c368878156283688b415630368830155e8368678155e43686b4155ec368630)
  (.lf 0)) (.nd (.lf
  0x28664618ecc28660618ccc2865c618acc286586188cc286546186cc286506184cc2864c6182cc289dc61bdd0289c461bbd0289b061b9d02899c61b7d02898861b5d02897461b3d02896461b1d02895061afd02893c61add02892861abd02891461a9d02890061a7d0288ec61a5d0288d461a3d0288c461a1d0288b0619fd028890619dd028870619bd0288506199d0288306197d0288106195d0287f06193d0287d06191d0287b0618fd028790618dd028770618bd0287506189d0287306187d0287106185d0286f06183d028644618110293cc657ecc293d0657ccc293d8657acc293d46578cc293c86576cc293b86574cc293bc6572cc293c46570cc293c0656ecc293b4656ccc293a4656acc293a86568cc293b06566cc293ac6564cc293a06562cc293906560cc29394655ecc2939c655ccc29398655acc2938c6558cc2937c6556cc293806554cc293886552cc293846550cc29378654ecc29368654ccc)
  (.lf 0)))

def shaWireTree403 : BTree :=
  .nd (.nd (.nd (.lf
  0x63e50c6783063e34c676b463e30c6767863e38c6763063e1cc674b463e18c6747863e20c6743063e00c672b463e04c6727863e08c6723063de8c670b463df4c6707863df8c6703063ddcc66eb463dd0c66e7863de0c66e3063d88c66cb463dc4c66c7863dc8c66c3063d74c66ab463d7cc66a7863d80c66a3063d68c668b463d60c6687863d6cc6683063d54c666b463d4cc6667863d58c6663063cd0c664b463d3cc6647863d40c66430633f8c662b463cc4c6627863cc8c66230633ccc660b4633e0c66078633e4c660306339cc65eb4633acc65e78633b0c65e3063390c65cb46338cc65c7863394c65c3063320c65ab463378c65a786337cc65a306330cc658b463308c6587863318c65830632e0c656b4632e4c6567863300c656306326cc654b4632d4c65478632d8c654306321cc652b463260c6527863264c65230631bcc650b463210c6507863214c6503063198c64eb4631b0c64e78631b4c64e30)
  (.lf 0)) (.nd (.lf
  0x114882b1cb4114082b1ab4113882b18b4113082b16b4112842b154a111fc2b12b4111782b114a110ec2b0f4a110642b0cb410fe02b0b4a10f542b094a10ec82b074a10e3c2b054a10dc02b02aa10d882ac0cc136202f3eb4135ac2f3d4a135242f3ab4134a02f394a134182f36b4133942f354a1330c2f32b4132882f314a132002f2eb4131802f2cb4131002f2ab4130802f28b412ffc2f274a12f702f254a12ee82f22b412e682f20b412de82f1eb412d642f1d4a12cd82f1b4a12c4c2f194a12bc02f174a12b342f154a12aac2f12b412a282f114a1299c2f0f4a129102f0d4a128882f0ab4128082f08b4127882f06b4127082f04b4126842f034a126482f00aa148ec333eb4148ac333d4a14854333b4a147f833394a147a03336b4147503334b4146fc33334a146ac3330b414658332f4a14608332cb4145b4332b4a1456033294a1450433274a144b033254a1445433234a144043320b4143b4331eb4)
  (.lf 0))) (.nd (.nd (.lf
  0x1d1a86068781d1b06068301d1986066b41d1946066781d19c6066301d1846064b41d1806064781d1886064301d1706062b41d16c6062781d1746062301d15c6060b41d1586060781d1606060301d148605eb41d144605e781d14c605e301d134605cb41d130605c781d138605c301d120605ab41d11c605a781d124605a301d10c6058b41d1086058781d1106058301d0f86056b41d0f46056781d0fc6056301d0e46054b41d0e06054781d0e86054301d0d06052b41d0cc6052781d0d46052301d0bc6050b41d0b86050781d0c06050301d0a8604eb41d0a4604e781d0ac604e301d094604cb41d090604c781d098604c301d080604ab41d07c604a781d084604a301d06c6048b41d0686048781d0706048301d0586046b41d0546046781d05c6046301d0446044b41d0406044781d0486044301d0306042b41d02c6042781d0346042302e864603cb42e8c0603c782e8c4603c302e7f4603ab42e858603a78)
  (.lf 0)) (.nd (.lf
  0x100ec26afd01006426add00ffe026abd00ff6026a9d00fee026a7d00fe6026a5d00fde026a3d00fd5826a1d00fccc269fd00fc48269dd00fbc0269bd00fb3c2699d00fab42697d00fa282695d00f9a42693d00f91c2691d00f890268fd00f80c268dd00f78c268bd00f70c2689d00f68c2687d00f60c2685d00f58c2683d00f4d42681100a1b4267ecc0a158267ccc0a0e8267acc0a0542678cc09fc82676cc09f502674cc09ed02672cc09e3c2670cc09db0266ecc09d24266ccc09c98266acc09c0c2668cc09b942666cc09b142664cc09a942662cc09a002660cc09988265ecc09908265ccc09888265acc097f42658cc0977c2656cc096fc2654cc0967c2652cc095e82650cc0955c264ecc094d0264ccc09444264acc093b82648cc093402646cc092c02644cc092402642cc0a168267dd00a0e0267bd00a0642679d009fd82677d009f482675d009ec82673d009e4c2671d009dc0266fd009d34266dd0)
  (.lf 0)))

def shaWireTree404 : BTree :=
  .nd (.nd (.nd (.lf
  0x534f4000b4b534f8000b49534fc000b4753500000b4553504000b4353508000b415350c000b3f53510000b3d53514000b3b53518000b395351c000b3753520000b3553524000b3353528000b315352c000b2f53530000b2d53534000b2b53538000b29557c4000b27557c8000b25557cc000b23557d0000b21557d4000b1f557d8000b1d557dc000b1b557e0000b19557e4000b17557e8000b15557ec000b13557f0000b11557f4000b0f557f8000b0d557fc000b0b55800000b0955804000b0755808000b055580c000b0355810000b0155814000aff55818000afd5581c000afb55820000af955824000af755828000af55582c000af355830000af155834000aef57b08000aed57b0c000aeb57b10000ae957b14000ae757b18000ae557b1c000ae357b20000ae157b24000adf57b28000add57b2c000adb57b30000ad957b34000ad757b38000ad557b3c000ad357b40000ad157b44000acf57b48000acd)
  (.lf 0)) (.nd (.lf
  0x4d9f8a7a0784d974a79e784d944a79c784d8eca79a784d8b4a798784d798a796784d704a794784d6cca792784d6aca790784d614a78e784d5cca78c784d55ca78a784d4a8a788784d4aca786784d4b0a784784d338a782784d230a7807850f34a7be3050f88a7bc3050ee4a7ba3050e8ca7b83050e28a7b63050d64a7b43050d78a7b23050d30a7b03050cd8a7ae3050c98a7ac3050c68a7aa3050c3ca7a83050c04a7a63050bd8a7a43050bdca7a23050b94a7a03050b54a79e3050b6ca79c3050b0ca79a3050b10a7983050ac8a7963050aa8a7943050198a792304ff4ca790304fca0a78e3050a84a78c304f82ca78a304f808a788304f7eca786304f7b0a784304f650a782304f5c4a7803052764abbeb452740abbcb4526f8abbab4526a0abb8b452588abb6b4525b8abb4b4525e8abb2b452518abb0b4524e4abaeb4524a4abacb452468abaab452428aba8b452444aba6b4523e4aba4b4523c4aba2b4)
  (.lf 0))) (.nd (.nd (.lf
  0x2a4445abcb42a44c5abc302a4345aba782a4305abab42a4385aba302a4205ab8782a41c5ab8b42a4245ab8302a40c5ab6782a4085ab6b42a4105ab6302a3f85ab4782a3f45ab4b42a3fc5ab4302a3e45ab2782a3e05ab2b42a3e85ab2302a3d05ab0782a3cc5ab0b42a3d45ab0302a3bc5aae782a3b85aaeb42a3c05aae302a3a85aac782a3a45aacb42a3ac5aac302a3945aaa782a3905aaab42a3985aaa302a3805aa8782a37c5aa8b42a3845aa8302a36c5aa6782a3685aa6b42a3705aa6302a3585aa4782a3545aa4b42a35c5aa4302a3445aa2782a3405aa2b42a3485aa2302a3305aa0782a32c5aa0b42a3345aa0302a31c5a9e782a3185a9eb42a3205a9e302a3085a9c782a3045a9cb42a30c5a9c302a2f45a9a782a2f05a9ab42a2f85a9a302a2e05a98782a2dc5a98b42a2e45a98302a2cc5a96782a2c85a96b42a2d05a96302a2b85a94782a2b45a94b42a2bc5a94302a2a45a92782a2a05a92b4)
  (.lf 0)) (.nd (.lf
  0x6bd3ce586cc6bcb8e584cc6bc14e582cc6d414e5bdd06d404e5bbd06d3e0e5b9d06d278e5b7d06d17ce5b5d06d11ce5b3d06d0e0e5b1d06d0a8e5afd06ce08e5add06cd78e5abd06cd40e5a9d06cc88e5a7d06cbf0e5a5d06cbc4e5a3d06cba4e5a1d06cb6ce59fd06c864e59dd06c844e59bd06c824e599d06c804e597d06c72ce595d06c158e593d06c0b4e591d06c094e58fd06c054e58dd06c044e58bd06c034e589d06c014e587d06bff4e585d06bc2ce583d06b8a4e581106eec4e97ecc6eebce97ccc6ee98e97acc6eed0e978cc6ee70e976cc6ee50e974cc6ee38e972cc6ee20e970cc6ee00e96ecc6eddce96ccc6ee04e96acc6ede4e968cc6ee08e966cc6ede0e964cc6ed6ce962cc6ed60e960cc6ed3ce95ecc6ed1ce95ccc6ed0ce95acc6ecfce958cc6ece0e956cc6ecc8e954cc6ecb4e952cc6ec98e950cc6eed8e94ecc6ec74e94ccc6f128e94acc6e2ece948cc6e2dce946cc6e270e944cc)
  (.lf 0)))

def shaWireTree405 : BTree :=
  .nd (.nd (.nd (.lf
  0x7a6a4ea90307a59cea8e787a5a0ea8eb47a5a4ea8e307a540ea8c787a53cea8cb47a544ea8c307a524ea8a787a528ea8ab47a52cea8a307a518ea88787a514ea88b47a51cea88307a374ea86787a504ea86b47a50cea86307a32cea84787a354ea84b47a364ea84307a248ea82787a2c0ea82b47a2d4ea8230730e4ea7cb4730e8ea7c78730ecea7c30730d4ea7ab4730d0ea7a78730d8ea7a30730c0ea78b4730b8ea7878730c4ea7830730a4ea76b4730acea7678730b0ea76307308cea74b473090ea74787309cea743073080ea72b47307cea727873084ea72307305cea70b473060ea707873074ea70307304cea6eb473050ea6e7873054ea6e307303cea6cb473040ea6c7873044ea6c307302cea6ab473030ea6a7873034ea6a3073020ea68b473018ea687873024ea683073008ea66b47300cea667873010ea663072ff8ea64b472ff4ea647873000ea643072fd4ea62b472fe8ea627872fecea6230)
  (.lf 0)) (.nd (.lf
  0x105e42b9dd0105e82b9bd0105ec2b99d0105f02b97d0105f42b95d0105f82b93d0105fc2b91d0106002b8fd0106042b8dd0106082b8bd01060c2b89d0106102b87d0106142b85d0106182b83d01061c2b81d011e5c2fbfd011e602fbdd011e642fbbd011e682fb9d011e6c2fb7d011e702fb5d011e742fb3d011e782fb1d011e7c2fafd011e802fadd011e842fabd011e882fa9d011e8c2fa7d011e902fa5d011e942fa3d011e982fa1d011e9c2f9fd011ea02f9dd011ea42f9bd011ea82f99d011eac2f97d011eb02f95d011eb42f93d011eb82f91d011ebc2f8fd011ec02f8dd011ec42f8bd011ec82f89d011ecc2f87d011ed02f85d011ed42f83d011ed82f81d01373c33bfd01374033bdd01374433bbd01374833b9d01374c33b7d01375033b5d01375433b3d01375833b1d01375c33afd01376033add01376433abd01376833a9d01376c33a7d01377033a5d01377433a3d01377833a1d01377c339fd0)
  (.lf 0))) (.nd (.nd (.lf
  0x4cd649c4a304cd349c48b44cd309c48784cd389c48304cd089c46b44cd049c46784cd0c9c46304ccdc9c44b44ccd89c44784cce09c44304ccb09c42b44ccac9c42784ccb49c42304d1989c3cb44d1789c3c784d19c9c3c304d16c9c3ab44d14c9c3a784d1709c3a304d1409c38b44d1209c38784d1449c38304d1149c36b44d0f49c36784d1189c36304d0e89c34b44d0c89c34784d0ec9c34304d0bc9c32b44d09c9c32784d0c09c32304d0909c30b44d0709c30784d0949c30304d0649c2eb44d0449c2e784d0689c2e304d0389c2cb44d0189c2c784d03c9c2c304d00c9c2ab44cfec9c2a784d0109c2a304cfe09c28b44cfc09c28784cfe49c28304cfb49c26b44cf949c26784cfb89c26304cf889c24b44cf689c24784cf8c9c24304cf5c9c22b44cf3c9c22784cf609c22304cf309c20b44cf109c20784cf349c20304cf049c1eb44cee49c1e784cf089c1e304ced89c1cb44ceb89c1c784cedc9c1c30)
  (.lf 0)) (.nd (.lf
  0x2f6b4668110309c4667ecc30964667ccc308f0667acc308806678cc3080c6676cc3079c6674cc3072c6672cc306ac6670cc3062c666ecc305ac666ccc30524666acc304986668cc304146666cc303946664cc303146662cc3028c6660cc30200665ecc30174665ccc300f0665acc300706658cc2fff06656cc2ff686654cc2fedc6652cc2fe586650cc2fdd8664ecc2fd50664ccc2fcc4664acc2fc406648cc2fbb86646cc2fb346644cc2fab06642cc30994667dd03092c667bd0308b86679d0308486677d0307d46675d0307606673d0306e06671d030660666fd0305e0666dd030560666bd0304d86669d03044c6667d0303c86665d0303486663d0302c86661d030240665fd0301b4665dd030128665bd0300a46659d0300246657d02ffa46655d02ff1c6653d02fe906651d02fe0c664fd02fd8c664dd02fd04664bd02fc786649d02fbf46647d02fb746645d02fae86643d02fa7c664110309cc66fecc)
  (.lf 0)))

def shaWireTree406 : BTree :=
  .nd (.nd (.nd (.lf
  0x3e7c08d96b43e7c48d96303e7ac8d94783e7a48d94b43e7b08d94303e7908d92783e7948d92b43e7988d92303e77c8d90783e7808d90b43e7848d90303e76c8d8e783e7688d8eb43e7708d8e303e7508d8c783e7548d8cb43e75c8d8c303e7408d8a783e7448d8ab43e7488d8a303e7308d88783e7348d88b43e7388d88303e7108d86783e4048d86b43e7148d86303e3f48d84783e3608d84b43e3f88d84303e3548d82783e3508d82b43e3588d823040c0c917c7840c08917cb440c10917c3040bfc917a7840bf8917ab440c00917a3040bec91787840ac09178b440bf091783040ab491767840a989176b440ab891763040a8c91747840a689174b440a9091743040a54917278408c49172b440a58917230408b8917078408b49170b4408bc917030408a4916e78408a0916eb4408a8916e3040888916c784088c916cb440890916c304087c916a7840878916ab440880916a30408689168784086c9168b4)
  (.lf 0)) (.nd (.lf
  0x71444e89d2c71430e89b2c7141ce8992c71404e8972c713f4e8952c713d8e8932c713e0e8912c713bce88f2c71338e88d2c71324e88b2c71308e8892c7130ce8872c713a8e8852c712d4e8832c712b0e880cc723bcecbf2c723a8ecbd2c7238cecbb2c72378ecb92c72390ecb72c7235cecb52c7233cecb32c72328ecb12c72348ecaf2c723b8ecad2c722f8ecab2c722e0eca92c722cceca72c722b8eca52c722aceca32c72290eca12c7227cec9f2c7226cec9d2c72254ec9b2c72244ec992c72224ec972c72210ec952c721fcec932c721d0ec912c7215cec8f2c72164ec8d2c71f58ec8b2c71ed8ec892c71f04ec872c71e2cec852c71e1cec832c71e14ec80cc72f28f0bf2c72f14f0bd2c72f18f0bb2c72f2cf0b92c72edcf0b72c72eccf0b52c72ee8f0b32c73100f0b12c72e90f0af2c72e7cf0ad2c72e68f0ab2c72e54f0a92c72e40f0a72c72e2cf0a52c72f30f0a32c72e04f0a12c72df0f09f2c)
  (.lf 0))) (.nd (.nd (.lf
  0x5ab00fc8b405ab80fc83005aa00fc67805a9c0fc6b405aa40fc63005a8c0fc47805a880fc4b405a900fc43005a780fc27805a740fc2b405a7c0fc230088a412bc78088a012bcb4088a812bc300883412ba780883012bab40883812ba30087ac12b878087a812b8b4087b012b8300872012b6780871c12b6b40872412b6300869412b4780869012b4b40869812b4300861012b2780860c12b2b40861412b2300859012b0780858c12b0b40859412b0300850812ae780850412aeb40850c12ae300848412ac780848012acb40848812ac30083fc12aa78083f812aab40840012aa300837812a8780837412a8b40837c12a830082f012a678082ec12a6b4082f412a6300826c12a4780826812a4b40827012a430081e412a278081e012a2b4081e812a2300815812a0780815412a0b40815c12a030080d4129e78080d0129eb4080d8129e300804c129c7808048129cb408050129c3007fc0129a7807fbc129ab4)
  (.lf 0)) (.nd (.lf
  0x78e6ce6e2cc78e28e6e0cc78e0ce6decc78dd4e6dccc78d2ce6dacc78dece6d8cc78d00e6d6cc78d28e6d4cc78c88e6d2cc78b80e6d0cc78ab4e6cecc78a70e6cccc78a4ce6cacc78a14e6c8cc789a0e6c6cc788d0e6c4cc78790e6c2cc792b8e6fdd079294e6fbd079228e6f9d079210e6f7d0791cce6f5d0791b0e6f3d0791a0e6f1d078f88e6efd078f4ce6edd078f1ce6ebd078efce6e9d078ee8e6e7d078ed4e6e5d078ebce6e3d078e48e6e1d078e30e6dfd078de4e6ddd078d70e6dbd078d60e6d9d078d50e6d7d078d3ce6d5d078cc8e6d3d078b94e6d1d078aace6cfd078a9ce6cdd078a84e6cbd078a24e6c9d0789a8e6c7d07892ce6c5d07891ce6c3d078798e6c11079810e7fecc798b8e7fccc79818e7facc79914e7f8cc797d0e7f6cc79eb4e7f4cc796b8e7f2cc796a8e7f0cc7963ce7eecc795d8e7eccc7953ce7eacc794b4e7e8cc794c4e7e6cc79804e7e4cc798dce7e2cc797a4e7e0cc)
  (.lf 0)))

def shaWireTree407 : BTree :=
  .nd (.nd (.nd (.lf
  0x4e988a2a6b44e98ca2a6304e964a2a4784e974a2a4b44e978a2a4304e954a2a2784e958a2a2b44e95ca2a2304e944a2a0784e948a2a0b44e94ca2a0304e930a29e784e938a29eb44e93ca29e304e918a29c784e91ca29cb44e920a29c304e908a29a784e90ca29ab44e910a29a304e8f4a298784e8f0a298b44e8fca298304e8e0a296784e8e4a296b44e8e8a296304e8d0a294784e8d4a294b44e8d8a294304e8b8a292784e8bca292b44e8c0a292304e8a4a290784e8aca290b44e8b0a290304e894a28e784e898a28eb44e89ca28e304e884a28c784e87ca28cb44e888a28c304e868a28a784e86ca28ab44e874a28a304e85ca288784e858a288b44e860a288304e848a286784e840a286b44e84ca286304e834a284784e830a284b44e838a284304e820a282784e81ca282b44e824a282304ff08a27cb44ff00a27c784ff14a27c304fef4a27ab44feeca27a784fef8a27a304fee0a278b44fecca27878)
  (.lf 0)) (.nd (.lf
  0x7d8822532c07d1022512c07c90224f2c07bfc224d2c07b84224b2c07af022492c07a6422472c079ec22452c0795822432c079042240cc0a1b8267f2c0a15c267d2c0a0ec267b2c0a05826792c09fcc26772c09f5426752c09ed426732c09e4026712c09db4266f2c09d28266d2c09c9c266b2c09c1026692c09b9826672c09b1826652c09a9826632c09a0426612c0998c265f2c0990c265d2c0988c265b2c097f826592c0978026572c0970026552c0968026532c095ec26512c09560264f2c094d4264d2c09448264b2c093bc26492c0934426472c092c426452c0924426432c091e42640cc0ba642a7f2c0ba142a7d2c0b9a02a7b2c0b90c2a792c0b8942a772c0b8142a752c0b7802a732c0b7082a712c0b6882a6f2c0b6082a6d2c0b5742a6b2c0b4e82a692c0b45c2a672c0b3d02a652c0b3442a632c0b2b82a612c0b22c2a5f2c0b1b42a5d2c0b1342a5b2c0b0b42a592c0b0342a572c0afb42a552c)
  (.lf 0))) (.nd (.nd (.lf
  0x7794002801077980027ff0779c0027fd077a00027fb077a40027f9077a80027f7077ac0027f5077b00027f3077b40027f1077b80027ef077bc0027ed077c00027eb077c40027e9077c80027e7077cc0027e5077d00027e3077d40027e1090380027df0903c0027dd090400027db090440027d9090480027d70904c0027d5090500027d3090540027d1090580027cf0905c0027cd090600027cb090640027c9090680027c70906c0027c5090700027c3090740027c1090780027bf0907c0027bd090800027bb090840027b9090880027b70908c0027b5090900027b3090940027b1090980027af0909c0027ad090a00027ab090a40027a9090a80027a7090ac0027a5090b00027a3090b40027a10a91c00279f0a92000279d0a92400279b0a9280027990a92c0027970a9300027950a9340027930a9380027910a93c00278f0a94000278d0a94400278b0a9480027890a94c0027870a9500027850a954002783)
  (.lf 0)) (.nd (.lf
  0x6a060d8a4cc69c2cd8a2cc6a068d8a0cc69c34d89ecc69d38d89ccc69d40d89acc69d48d898cc69d50d896cc69c3cd894cc69c44d892cc69c4cd890cc69c54d88ecc69c5cd88ccc69c64d88acc69c6cd888cc69c74d886cc69c7cd884cc69c84d882cc6a440d8bdd06a430d8bbd06a420d8b9d06a40cd8b7d06a3fcd8b5d06a3e8d8b3d06a3d8d8b1d06a3c4d8afd06a3b0d8add06a0d8d8abd06a0c4d8a9d06a0acd8a7d06a098d8a5d06a088d8a3d06a074d8a1d069e4cd89fd069e38d89dd069e24d89bd069e10d899d069dfcd897d069de8d895d069dd4d893d069dc0d891d069dacd88fd069d98d88dd069d84d88bd069d70d889d069d5cd887d069cc8d885d069cb4d883d069c8cd881106da48d87ecc6da50d87ccc6da58d87acc6dad4d878cc6dadcd876cc6dae4d874cc6daecd872cc6daf4d870cc6dafcd86ecc6db04d86ccc6db0cd86acc6db14d868cc6db1cd866cc6db24d864cc6db2cd862cc)
  (.lf 0)))

def shaWireTree408 : BTree :=
  .nd (.nd (.nd (.lf
  0x3297479bf2c3296079bd2c3294c79bb2c3293879b92c3292479b72c3291079b52c328fc79b32c3260c79b12c333a079af2c3252479ad2c3249479ab2c3241479a92c3239479a72c3231879a52c333b079a32c3222079a12c32184799f2c32100799d2c32080799b2c31ff879992c31f7479972c31ef479952c31e7479932c31de079912c31d54798f2c31cd4798d2c31c4c798b2c31bc879892c31b4879872c31ac479852c31a4c79832c31a007980cc350547dbf2c350587dbd2c3503c7dbb2c3501c7db92c350087db72c34ff47db52c350a47db32c34f847db12c34fa07daf2c34f647dad2c34f4c7dab2c34f387da92c34f247da72c34ec87da52c34eb47da32c34ea47da12c34e8c7d9f2c34e787d9d2c34e647d9b2c34e447d992c34dd47d972c34dcc7d952c34db87d932c34d987d912c34d847d8f2c34d707d8d2c34e247d8b2c348507d892c33ad87d872c33a487d852c339a87d832c3392c7d80cc)
  (.lf
  0x1b82c54b0cc1b83454aecc1b83c54accc1b89c54aacc1b8a454a8cc1b8ac54a6cc1b8b454a4cc1b8bc54a2cc1b8c454a0cc1b8cc549ecc1b8d4549ccc1b8dc549acc1b8e45498cc1b8ec5496cc1b8f45494cc1b8fc5492cc1b9045490cc1b90c548ecc1b914548ccc1b91c548acc1b9245488cc1b92c5486cc1b9345484cc1b93c5482cc1bba054bdd01bb8c54bbd01bb7854b9d01bb6454b7d01bb5054b5d01bb3c54b3d01bb2854b1d01bb1454afd01bb0054add01baec54abd01bad854a9d01bac454a7d01bab054a5d01ba9c54a3d01ba8854a1d01ba74549fd01ba60549dd01ba4c549bd01ba385499d01ba245497d01ba105495d01b9fc5493d01b9e85491d01b9d4548fd01b9c0548dd01b9ac548bd01b9985489d01b9845487d01b9705485d01b95c5483d01b9445481101bf80547ecc1bf88547ccc1bf90547acc1c00c5478cc1c0145476cc1c01c5474cc1c0245472cc1c02c5470cc1c034546ecc))
  (.nd (.lf
  0x8107cfba03080fbcfb9e3080eb0fb9c3080ebcfb9a3080e60fb983080e38fb963080e0cfb943080de8fb923080dc8fb903080db8fb8e3080d74fb8c3080ef4fb8a307f47cfb88307f454fb86307f2f8fb84307f2a0fb82307f040fb803083124ffbeb4830ecffbcb483078ffbab482ff0ffb8b483038ffb6b482fd8ffb4b483148ffb2b4829e0ffb0b48231cffaeb482370ffacb482344ffaab482268ffa8b48246cffa6b4821f0ffa4b481eb4ffa2b481ec8ffa0b481d30ff9eb481d10ff9cb481d78ff9ab481938ff98b48181cff96b4817f8ff94b48182cff92b481788ff90b481764ff8eb4816c4ff8cb481650ff8ab4815dcff88b481548ff86b48141cff84b4814e4ff82b481444ff80b481374ffbe7881310ffbc78814a4ffba78812b4ffb8788128cffb6788157cffb478814a8ffb2788121cffb078811f0ffae7881188ffac7881148ffaa78810e8ffa87881034ffa67881010ffa47881050ffa278)
  (.lf 0))) (.nd (.nd (.lf
  0x31cb06ace7831d346ace3031ca46accb431c246acc7831ca86acc3031c186acab431ba06aca7831c1c6aca3031b946ac8b431b206ac87831b986ac83031b146ac6b431aa86ac67831b186ac63031a9c6ac4b431a346ac47831aa06ac43031a286ac2b4319f46ac27831a2c6ac230328e06b3eaa3280c6b3aaa327946b38aa322606b22aa321d46b20aa320486b1aaa31ebc6b14aa31e306b12aa31da46b10aa31d186b0eaa31c8c6b0caa3281c6b3bf4328846b3ca0327a86b3a1e328146b3ab4328186b3a14327306b381e3279c6b38b4327a06b3814326c06b3540327286b36a0326546b3340326bc6b34a0325e46b3140326506b32a03256c6b2f40325e06b30a0324ec6b2d40325686b2ea03246c6b2b40324e86b2ca0323ec6b2940324686b2aa03236c6b2740323e86b28a0322ec6b2540323686b26a0322706b23f4322e86b24a0321e86b221e322686b22b43226c6b22143215c6b201e321dc6b20b4)
  (.lf 0)) (.nd (.lf
  0xdbec006ef30dbf4006ef10dbfc006eef0dc04006eed0dc0c006eeb0dc14006ee90dc1c006ee70dc24006ee50dc2c006ee30dc34006ee10f3d8006edf0f3e0006edd0f3e8006edb0f3f0006ed90f3f8006ed70f400006ed50f408006ed30f410006ed10f418006ecf0f420006ecd0f428006ecb0f430006ec90f438006ec70f440006ec50f448006ec30f450006ec10f458006ebf0f460006ebd0f468006ebb0f470006eb90f478006eb70f480006eb50f488006eb30f490006eb10f498006eaf0f4a0006ead0f4a8006eab0f4b0006ea90f4b8006ea70f4c0006ea50f4c8006ea30f4d0006ea110c80006e9f10c88006e9d10c90006e9b10c98006e9910ca0006e9710ca8006e9510cb0006e9310cb8006e9110cc0006e8f10cc8006e8d10cd0006e8b10cd8006e8910ce0006e8710ce8006e8510cf0006e8310cf8006e8110d00006e7f10d08006e7d10d10006e7b10d18006e7910d20006e7710d28006e75)
  (.lf 0)))

def shaWireTree409 : BTree :=
  .nd (.nd (.nd (.lf
  0x81f10fb2c1e81f18fb2cb481f20fb2c1481f04fb2a1e81f00fb2ab481f08fb2a1481ef0fb281e81ef4fb28b481ef8fb281481ee4fb261e81ee0fb26b481ee8fb261481e68fb234081ed8fb24a081e5cfb21f481e64fb22a081e18fb201e81e44fb20b481e58fb201481df8fb1e1e81bd4fb1eb481dfcfb1e1481b78fb1bf481bccfb1ca080b74fb1a1e81b50fb1ab481b74fb1a1480b54fb174080b60fb18a080b48fb154080b50fb16a080b38fb13f480b44fb14a080b30fb121e80b24fb12b480b34fb121480b10fb101e80b18fb10b480b1cfb101480b00fb0e1e80af8fb0eb480b04fb0e1480ae8fb0c1e80ae4fb0cb480aecfb0c1480ac8fb0a1e80ac4fb0ab480ad0fb0a1480a5cfb081e80a58fb08b480a60fb081480a48fb05f480a50fb06a0809c0fb041e809c4fb04b4809c8fb0414809b4fb02b4809b8fb021481a38fbfc7881a40fbfcb481a44fbfc3081a2cfbfa7881a28fbfab481a30fbfa30)
  (.lf 0)) (.nd (.lf
  0x109282bdd2c109142bdb2c109002bd92c108ec2bd72c108d82bd52c108c42bd32c108b02bd12c1089c2bcf2c108882bcd2c108742bcb2c108602bc92c1084c2bc72c108382bc52c108242bc32c108202bc0cc123382fff2c123242ffd2c123102ffb2c122fc2ff92c122e82ff72c122d42ff52c122c02ff32c122ac2ff12c122982fef2c122842fed2c122702feb2c1225c2fe92c122482fe72c122342fe52c122202fe32c1220c2fe12c121f82fdf2c121e42fdd2c121d02fdb2c121bc2fd92c121a82fd72c121942fd52c121802fd32c1216c2fd12c121582fcf2c121442fcd2c121302fcb2c1211c2fc92c121082fc72c120f42fc52c120e02fc32c120dc2fc0cc13c1833ff2c13c0433fd2c13bf033fb2c13bdc33f92c13bc833f72c13bb433f52c13ba033f32c13b8c33f12c13b7833ef2c13b6433ed2c13b5033eb2c13b3c33e92c13b2833e72c13b1433e52c13b0033e32c13aec33e12c13ad833df2c)
  (.lf 0))) (.nd (.nd (.lf
  0x5b174bc98785b17cbc98305b15cbc96b45b164bc96785b168bc96305b150bc94b45b148bc94785b154bc94305b138bc92b45b13cbc92785b140bc92305b128bc90b45b120bc90785b12cbc90305b110bc8eb45b114bc8e785b118bc8e305b100bc8cb45b0f8bc8c785b104bc8c305b0e4bc8ab45b0ecbc8a785b0f0bc8a305b0d8bc88b45b0d0bc88785b0dcbc88305b0c0bc86b45b0c4bc86785b0c8bc86305b0b0bc84b45b0acbc84785b0b4bc84305b09cbc82b45b098bc82785b0a0bc82305ea28bc7cb45ea00bc7c785ea2cbc7c305e9ecbc7ab45e9f0bc7a785e9f4bc7a305e9dcbc78b45e9d4bc78785e9e0bc78305e9c8bc76b45e9c4bc76785e9ccbc76305e9b4bc74b45e9b0bc74785e9b8bc74305e9a0bc72b45e99cbc72785e9a4bc72305e98cbc70b45e988bc70785e990bc70305e978bc6eb45e974bc6e785e97cbc6e305e964bc6cb45e960bc6c785e968bc6c305e94cbc6ab45e944bc6a78)
  (.lf 0)) (.nd (.lf
  0x419f4866acc419a48668cc419948666cc419988664cc4199c8662cc416dc8660cc416ac865ecc4167c865ccc4164c865acc4161c8658cc415ec8656cc419888654cc41a7c8652cc415648650cc41a00864ecc41a10864ccc41a38864acc41a3c8648cc41a808646cc4197c8644cc419788642cc4237c867dd042364867bd0423448679d0423348677d04231c8675d0423048673d0422e88671d0422d4866fd0422bc866dd042294866bd0422848669d0422708667d04225c8665d0422488663d0422308661d042220865fd042190865dd041fb4865bd041f448659d041f248657d041edc8655d041ecc8653d041c6c8651d041c0c864fd041bfc864dd041bd4864bd041b808649d041b5c8647d041b048645d041a8c8643d0419708641104238486fecc4237886fccc4235486facc4235c86f8cc4232886f6cc4231086f4cc422f486f2cc422ec86f0cc422cc86eecc422a486eccc422ac86eacc4238886e8cc)
  (.lf 0)))

def shaWireTree410 : BTree :=
  .nd (.nd (.nd (.lf
  0x56a34bd647856a78bd64b456b50bd6430569d4bd627856a28bd62b456a2cbd6230569c0bd607856998bd60b4569c4bd603056988bd5e7856984bd5eb45698cbd5e3056978bd5c7856974bd5cb45697cbd5c3056968bd5a785695cbd5ab45696cbd5a305693cbd587856928bd58b456940bd583056790bd567856918bd56b45691cbd563056754bd547856780bd54b456788bd5430566fcbd527856748bd52b45674cbd5230566f0bd5078566ecbd50b4566f4bd5030566ccbd4e7856698bd4eb4566d0bd4e3056688bd4c7856684bd4cb45668cbd4c305666cbd4a7856674bd4ab456678bd4a3056510bd48785650cbd48b456524bd483055ffcbd4678564fcbd46b456500bd463055f70bd447855ff0bd44b455ff4bd443055f18bd427855f64bd42b455f68bd423057120bdbc7857124bdbcb457128bdbc3057110bdba785710cbdbab457114bdba3056fd0bdb87857100bdb8b457104bdb83056eccbdb678)
  (.lf 0)) (.nd (.lf
  0x23a6c481d2c239e4481b2c2395448192c238c048172c2382c48152c237a048132c2371048112c23680480f2c235f0480d2c23560480b2c234cc48092c2343448072c2338c48052c232e848032c2329c4800cc1b7e44c3f2c1b7a84c3d2c1b7644c3b2c1b7204c392c1b6dc4c372c1b6984c352c1b6544c332c1b6104c312c1b5cc4c2f2c1b5884c2d2c1b5444c2b2c1b5004c292c1b4bc4c272c1b4784c252c1b4344c232c1b3f04c212c1b3ac4c1f2c1b3684c1d2c1b3244c1b2c1b2e04c192c1b29c4c172c1b2584c152c1b2144c132c1b1d04c112c1b18c4c0f2c1b1484c0d2c1b1044c0b2c1b0c04c092c1b07c4c072c1b0384c052c1aff44c032c1afd84c00cc2803c503f2c27fb8503d2c27f18503b2c27e7c50392c27ddc50372c27d3850352c27c9c50332c27bfc50312c27b58502f2c27ab4502d2c27a10502b2c2797450292c278d450272c2783850252c277a050232c2770050212c27664501f2c)
  (.lf 0))) (.nd (.nd (.lf
  0xe2e822da780e2ec22da300e1e822d8b40e26022d8780e26422d8300e16022d6b40e1dc22d6780e1e022d6300e0dc22d4b40e15422d4780e15822d4300e05422d2b40e0d022d2780e0d422d2300dfd022d0b40e04822d0780e04c22d0300df4822ceb40dfc422ce780dfc822ce300dec422ccb40df3c22cc780df4022cc300de4422cab40deb822ca780debc22ca300ddbc22c8b40de3822c8780de3c22c8300dd4422c6b40ddb022c6780ddb422c6300dcd022c4b40dd3822c4780dd3c22c4300dc6c22c2b40dcc422c2780dcc822c2300ebd8233eaa0eb60233caa0ea542338aa0e9c82336aa0e53c2324aa0e4b02322aa0e4242320aa0e398231eaa0e28c231aaa0e1802316aa0e0742312aa0df68230eaa0dddc2308aa0ebac233df40eb2c233b400ea202337f40e9942335400e5082323f40e47c2321f40e3f0231ff40e364231d400e2582319400e14c2315400e0402311400df34230d400eb30233c1e)
  (.lf 0)) (.nd (.lf
  0x7d6c2152cc07cdc2150cc07c5c214ecc07be0214ccc07b50214acc07ad42148cc07a482146cc079b82144cc0793c2142cc0886c217dd0087f4217bd0087682179d0086dc2177d00864c2175d0085cc2173d0085502171d0084c0216fd008444216dd0083b4216bd0083382169d0082a82167d00822c2165d0081a02163d0081102161d008094215fd008008215dd007f78215bd007ef82159d007e782157d007df82155d007d7c2153d007cec2151d007c6c214fd007bf0214dd007b60214bd007ae42149d007a582147d0079c82145d00794c2143d0078f4214110088c021becc0887021bccc087cc21bacc0874021b8cc086b421b6cc0865421b4cc085d421b2cc0852821b0cc084c821aecc0841c21accc083bc21aacc0831021a8cc082b021a6cc0820421a4cc0817821a2cc0811821a0cc0806c219ecc07fe0219ccc07f80219acc07f002198cc07e802196cc07e002194cc07d542192cc07cf42190cc)
  (.lf 0)))

def shaWireTree411 : BTree :=
  .nd (.nd (.nd (.lf
  0x5832cb2c430582c4b2c2b458250b2c278582c8b2c23058afcb33eaa58a08b33caa589dcb338aa5898cb330aa58a20b32eaa588e0b328aa58848b322aa58818b31eaa587dcb31caa587acb31aaa5875cb316aa583bcb308aa5836cb306aa58ac4b33c1e58ad4b33cb458ad8b33c1458aacb339f458abcb33aa058a94b3381e58a98b338b458aa8b3381458a7cb3354058a8cb336a058a60b3334058a70b334a058a54b331f458a5cb332a058a30b3301e58a40b330b458a44b3301458964b32e1e58a24b32eb458a28b32e1458944b32b405895cb32ca058930b329f458940b32aa058918b3281e58928b328b45892cb32814588c0b3254058910b326a058894b323f4588bcb324a058878b3221e5888cb322b458890b3221458860b31ff458870b320a0587f4b31e1e58858b31eb45885cb31e14587c4b31c1e587e8b31cb4587ecb31c145879cb31a1e587b8b31ab4587bcb31a1458770b317f458794b318a0)
  (.lf 0)) (.nd (.lf
  0xdf6422cf2c0dee022cd2c0de6022cb2c0ddd822c92c0dd6022c72c1048026ff2c1041026fd2c1039026fb2c1030826f92c1028426f72c1020426f52c1017c26f32c100f826f12c1007026ef2c0ffec26ed2c0ff6c26eb2c0feec26e92c0fe6c26e72c0fdec26e52c0fd6426e32c0fcd826e12c0fc5426df2c0fbcc26dd2c0fb4826db2c0fac026d92c0fa3426d72c0f9b026d52c0f92826d32c0f89c26d12c0f81826cf2c0f79826cd2c0f71826cb2c0f69826c92c0f61826c72c0f59826c52c0f51826c32c0f4e026c0cc11d3c2aff2c11ccc2afd2c11c442afb2c11bc02af92c11b402af72c11ab82af52c11a342af32c119b42af12c119342aef2c118b42aed2c1182c2aeb2c117a02ae92c1171c2ae72c1169c2ae52c1161c2ae32c115942ae12c115082adf2c114842add2c114042adb2c113842ad92c113042ad72c1127c2ad52c111f82ad32c111702ad12c110e42acf2c110602acd2c10fd82acb2c)
  (.lf 0))) (.nd (.nd (.lf
  0x1fb70401a301faa84018b41f9fc4018781faac4018301f9f04016b41f93c4016781f9f44016301f9304014b41f8844014781f9344014301f8784012b41f7cc4012781f87c4012301f7c04010b41f7104010781f7c44010301f704400eb41f64c400e781f708400e301f640400cb41f58c400c781f644400c301f580400ab41f4d0400a781f584400a301f4c44008b41f41c4008781f4c84008301f4104006b41f3644006781f4144006301f3584004b41f2a04004781f35c4004301f2944002b41f1e04002781f29840023019d2c44bcb419d2844bc7819d3044bc3019d1844bab419d1444ba7819d1c44ba3019d0444b8b419d0044b87819d0844b83019cf044b6b419cec44b67819cf444b63019cdc44b4b419cd844b47819ce044b43019cc844b2b419cc444b27819ccc44b23019cb444b0b419cb044b07819cb844b03019ca044aeb419c9c44ae7819ca444ae3019c8c44acb419c8844ac7819c9044ac30)
  (.lf 0)) (.nd (.lf
  0x1404032d40013180325400129c032140011b0031940011340315f4010f00313f4010ac0311f401068030ff401024030d400205c03fecc0206403fccc0206c03facc0207403f8cc0207c03f6cc0208403f4cc0208c03f2cc0209403f0cc0209c03eecc020a403eccc020ac03eacc020b403e8cc020bc03e6cc020c403e4cc020cc03e2cc020d403e0cc020dc03decc020e403dccc020ec03dacc020f403d8cc020fc03d6cc0210403d4cc0210c03d2cc0211403d0cc0211c03cecc0212403cccc0212c03cacc0213403c8cc0213c03c6cc0214403c4cc0214c03c2cc023b003fdd00239c03fbd00238803f9d00237403f7d00236003f5d00234c03f3d00233803f1d00232403efd00231003edd0022fc03ebd0022e803e9d0022d403e7d0022c003e5d0022ac03e3d00229803e1d00228403dfd00227003ddd00225c03dbd00224803d9d00223403d7d00222003d5d00220c03d3d0021f803d1d0021e403cfd0)
  (.lf 0)))

def shaWireTree412 : BTree :=
  .nd (.nd (.nd (.lf
  0x826b41046b4828a4104630826a8104478822941044b4826ac10443082288104278822801042b48228c10423082884147c7882880147cb482888147c308286c147a7882870147ab482878147a308285c147878828601478b4828641478308284c147678828501476b482854147630828341474788283c1474b48284014743082828147278828241472b48282c1472308280c147078828141470b482818147030827fc146e78827f8146eb482800146e30827ec146c78827e4146cb4827f0146c30827d8146a78827d0146ab4827dc146a30827c4146878827bc1468b4827c8146830827ac146678827a81466b4827b014663082794146478827981464b48279c14643082784146278827801462b4827881462308276c146078827701460b48277414603082760145e788275c145eb482764145e3081dbc145c788274c145cb482750145c3081cdc145a7880d2c145ab481ce0145a3080d1c14587880d201458b4)
  (.lf 0)) (.nd (.lf
  0x260a453a0b4260a8539eb4260ac539cb426138539ab425fb85398b425fbc5396b425fc05394b425fc45392b425fc85390b425fcc538eb4260f0538cb425d48538ab425d4c5388b425d505386b425d545384b425d585382b425d5c5380b424b6c53be7824b7053bc7824b7453ba7824b7853b87824b7c53b67824a9053b4782495c53b2782496053b0782496453ae782496853ac782496c53aa782497053a8782497453a6782497853a4782497c53a2782498053a07824984539e7824988539c78247d0539a7824784539878247885396782478c539478247905392782479453907824798538e78246c4538c7824434538a78244385388782443c538678244405384782444453827824448538078263c853be30263cc53bc30263d053ba30263d453b830263d853b6302631c53b430261d853b230261dc53b030261e053ae30261e453ac30261e853aa30261ec53a8302612453a630260b053a430260b453a230)
  (.lf 0))) (.nd (.nd (.lf
  0x217b846d2b4217f046d278217f446d2302177446d0b4217ac46d078217b046d0302173046ceb42176846ce782176c46ce30216f446ccb42172446cc782172846cc30216bc46cab4216e846ca78216ec46ca302168446c8b4216b046c878216b446c8302164c46c6b42167846c6782167c46c6302160c46c4b42164046c4782164446c430215ec46c2b42160046c2782160446c23021d54473eaa21d18473caa21cd4473aaa21c584736aa21c144734aa21bd04732aa21b8c4730aa21b48472eaa21acc472aaa21a884728aa21a444726aa21a004724aa219bc4722aa21908471caa2181c4714aa217d84712aa217944710aa21750470eaa2162c4704aa21d28473df421ce4473bf421ca047394021c244735f421be04733f421b9c4731f421b58472ff421b14472d4021a984729f421a544727f421a104725f4219cc4723f421988472140218d4471b40217e84713f4217a44711f421760470ff42171c470d40)
  (.lf 0)) (.nd (.lf
  0x490e0a54acc48e00a548cc48d64a546cc48cdca544cc48c50a542cc499f8a57dd0499e4a57bd049998a579d049960a577d049950a575d0498a4a573d049890a571d049880a56fd049814a56dd04962ca56bd0495c4a569d04957ca567d049568a565d049558a563d049498a561d049444a55fd049430a55dd049420a55bd0493e0a559d0493d0a557d0493a8a555d049374a553d049360a551d04933ca54fd049318a54dd0490d8a54bd048df4a549d048d4ca547d048ceca545d048c78a543d048c04a54110497dca5becc497f4a5bccc497e8a5bacc497eca5b8cc49784a5b6cc49770a5b4cc49758a5b2cc49744a5b0cc4972ca5aecc49800a5accc495fca5aacc495bca5a8cc49518a5a6cc49524a5a4cc4954ca5a2cc492fca5a0cc49d00a59ecc492e8a59ccc492f8a59acc49304a598cc49308a596cc49300a594cc49268a592cc49250a590cc49238a58ecc4918ca58ccc490cca58acc48de8a588cc)
  (.lf 0)))

def shaWireTree413 : BTree :=
  .nd (.nd (.nd (.lf
  0x6bf4cd70ea06be24d70c1e6bea4d70cb46bea8d70c146bdb8d709406be1cd70aa06bcf8d707f46bd94d708a06bcb4d7061e6bcf0d706b46bcf4d706146bc84d704a06afd8d7fc786afd4d7fcb46afdcd7fc306afc4d7fa786afc0d7fab46afc8d7fa306afb0d7f8786afacd7f8b46afb4d7f8306afa0d7f6786af9cd7f6b46afa4d7f6306af8cd7f4786af88d7f4b46af90d7f4306af78d7f2786af74d7f2b46af7cd7f2306af64d7f0786af60d7f0b46af68d7f0306af50d7ee786af4cd7eeb46af54d7ee306af3cd7ec786af38d7ecb46af40d7ec306af28d7ea786af24d7eab46af2cd7ea306af14d7e8786af10d7e8b46af18d7e8306aef8d7e6786aef0d7e6b46aefcd7e6306aee4d7e4786aedcd7e4b46aee8d7e4306aed0d7e2786aeccd7e2b46aed4d7e2306aec0d7e0786aeb8d7e0b46aec4d7e0306aeacd7de786aea4d7deb46aeb0d7de306ae98d7dc786ae90d7dcb46ae9cd7dc306ae84d7da78)
  (.lf 0)) (.nd (.lf
  0x107a8005e7d107b0005e7b107b8005e79107c0005e77107c8005e75107d0005e73107d8005e71107e0005e6f107e8005e6d107f0005e6b107f8005e6910800005e6710808005e6510810005e6310818005e6111fdc005e5f11fe4005e5d11fec005e5b11ff4005e5911ffc005e5712004005e551200c005e5312014005e511201c005e4f12024005e4d1202c005e4b12034005e491203c005e4712044005e451204c005e4312054005e411205c005e3f12064005e3d1206c005e3b12074005e391207c005e3712084005e351208c005e3312094005e311209c005e2f120a4005e2d120ac005e2b120b4005e29120bc005e27120c4005e25120cc005e23120d4005e21138bc005e1f138c4005e1d138cc005e1b138d4005e19138dc005e17138e4005e15138ec005e13138f4005e11138fc005e0f13904005e0d1390c005e0b13914005e091391c005e0713924005e051392c005e0313934005e011393c005dff)
  (.lf 0))) (.nd (.nd (.lf
  0x3bf7880b6b43bf7480b6783bf7c80b6303bf4c80b4b43bf4880b4783bf5080b4303bf2080b2b43bf1c80b2783bf2480b2303bef480b0b43bef080b0783bef880b0303bec880aeb43bec480ae783becc80ae303be9c80acb43be9880ac783bea080ac303be7080aab43be6c80aa783be7480aa303be4480a8b43be4080a8783be4880a8303be1880a6b43be1480a6783be1c80a6303bdec80a4b43bde880a4783bdf080a4303bdbc80a2b43bdb880a2783bdc080a2303bd9080a0b43bd8c80a0783bd9480a0303bd64809eb43bd60809e783bd68809e303bd38809cb43bd34809c783bd3c809c303bd0c809ab43bd08809a783bd10809a303bce08098b43bcdc8098783bce48098303bcb08096b43bcac8096783bcb48096303bc808094b43bc7c8094783bc848094303bc508092b43bc4c8092783bc548092303bc248090b43bc208090783bc288090303bbf8808eb43bbf4808e783bbfc808e303bbcc808cb4)
  (.lf 0)) (.nd (.lf
  0x21abc46a9d021a7846a7d021a3446a5d0219f046a3d0219ac46a1d021970469fd021938469dd0218f8469bd0218bc4699d0218844697d02184c4695d02180c4693d0217c84691d021784468fd021740468dd021704468bd0216cc4689d0216944687d02165c4685d02161c4683d0215dc4681101a6c8467ecc1a68c467ccc1a648467acc1a6044678cc1a5c04676cc1a57c4674cc1a5384672cc1a4f44670cc1a4b0466ecc1a46c466ccc1a428466acc1a3e44668cc1a3a04666cc1a35c4664cc1a3184662cc1a2d44660cc1a290465ecc1a24c465ccc1a208465acc1a1c44658cc1a1804656cc1a13c4654cc1a0f84652cc1a0b44650cc1a070464ecc1a02c464ccc19fe8464acc19fa44648cc19f604646cc19f1c4644cc19ed84642cc1a69c467dd01a658467bd01a6144679d01a5d04677d01a58c4675d01a5484673d01a5044671d01a4c0466fd01a47c466dd01a438466bd01a3f44669d01a3b04667d0)
  (.lf 0)))

def shaWireTree414 : BTree :=
  .nd (.nd (.nd (.lf
  0x26fe861483026ebc61467826f486146b426f4c61463026e1861447826ea86144b426eac61443026d9c61427826e086142b426e0c614230289d461bc78289d061bcb4289d861bc30289b861ba78289bc61bab4289c061ba30289a461b878289a861b8b4289ac61b8302899461b6782899061b6b42899861b6302898061b4782897861b4b42898461b4302896c61b2782896861b2b42897061b2302895461b0782895c61b0b42896061b0302894861ae782894461aeb42894c61ae302893461ac782893061acb42893861ac302891861aa782892061aab42892461aa302890461a8782890c61a8b42891061a830288f461a678288f061a6b4288f861a630288e461a478288e061a4b4288e861a430288cc61a278288c861a2b4288d061a230288b861a078288b461a0b4288bc61a03028898619e7828894619eb4288ac619e3028874619c7828888619cb42888c619c3028868619a7828854619ab42886c619a30)
  (.lf 0)) (.nd (.lf
  0x4f928003e7d4f930003e7b4f938003e794f940003e774f948003e754f950003e734f958003e714f960003e6f4f968003e6d4f970003e6b4f978003e694f980003e674f988003e654f990003e634f998003e61530f8003e5f53100003e5d53108003e5b53110003e5953118003e5753120003e5553128003e5353130003e5153138003e4f53140003e4d531a0003e4b531a8003e49531b0003e47531b8003e45531c0003e43531c8003e41531d0003e3f531d8003e3d531e0003e3b531e8003e39531f0003e37531f8003e3553200003e3353208003e3153210003e2f53218003e2d53220003e2b53228003e2953230003e2753238003e2553240003e2353248003e21553f4003e1f553fc003e1d55404003e1b5540c003e1955414003e175541c003e1555424003e135542c003e1155434003e0f5543c003e0d5549c003e0b554a4003e09554ac003e07554b4003e05554bc003e03554c4003e01554cc003dff)
  (.lf 0))) (.nd (.nd (.lf
  0x755b8f8763075598f874b4755a4f87478755a8f8743075584f872b475588f872787558cf8723075574f870b475578f870787557cf8703075554f86eb475558f86e7875568f86e3075540f86cb475544f86c7875548f86c307552cf86ab475528f86a7875538f86a3075510f868b47551cf8687875520f86830754f4f866b4754f0f86678754f8f86630754ccf864b4754e4f86478754e8f86430754c0f862b4754a0f86278754c4f862307547cf860b475494f8607875498f8603075450f85eb47545cf85e7875460f85e3075428f85cb475420f85c7875440f85c3075320f85ab475410f85a7875414f85a3075310f858b475314f8587875318f8583075304f856b475300f8567875308f85630752f4f854b4752ecf85478752f8f85430752d8f852b4752e0f85278752e4f85230752ccf850b4752c4f85078752d0f85030752b0f84eb4752b4f84e78752b8f84e307529cf84cb4752a4f84c78752a8f84c30)
  (.lf 0)) (.nd (.lf
  0x63108c649d062fa0c647d062cf0c645d062c64c643d062c20c6411063e8cc6fecc63e74c6fccc63e5cc6facc63e44c6f8cc63e2cc6f6cc63e14c6f4cc63e94c6f2cc63df0c6f0cc63dd8c6eecc63d90c6eccc63d98c6eacc63d78c6e8cc63d50c6e6cc63cd8c6e4cc634dcc6e2cc633f4c6e0cc633c8c6decc63388c6dccc63354c6dacc63314c6d8cc632fcc6d6cc632f0c6d4cc63278c6d2cc6323cc6d0cc631d8c6cecc631c8c6cccc63114c6cacc630b8c6c8cc62f70c6c6cc62d10c6c4cc62c58c6c2cc641d4c6fdd0641c0c6fbd0641acc6f9d063f44c6f7d063f30c6f5d063f18c6f3d063f00c6f1d063eecc6efd063ed4c6edd063ec0c6ebd063eacc6e9d063db4c6e7d063da0c6e5d063cbcc6e3d0634a8c6e1d063490c6dfd06347cc6ddd063464c6dbd06344cc6d9d063438c6d7d063330c6d5d063288c6d3d06324cc6d1d0631f8c6cfd0631e4c6cdd063138c6cbd0630c8c6c9d062f68c6c7d0)
  (.lf 0)))

def shaWireTree415 : BTree :=
  .nd (.nd (.nd (.lf
  0x4594c8ed4304590c8ed2b4459108ed278459148ed230458ec8ed0b4458e88ed078458f08ed030458788eceb44587c8ece78458808ece304586c8eccb4457d08ecc78458708ecc30457c08ecab4454708eca78457c48eca30454608ec8b44544c8ec878454648ec830454408ec6b4453e08ec678454448ec630453ac8ec4b4453a48ec478453b08ec4304533c8ec2b4453888ec2784539c8ec23045d708f3caa45d488f38aa45d008f32aa45cec8f30aa45cac8f2aaa45c908f28aa45b348f26aa4595c8f16aa459208f14aa459608f10aa454748f08aa453448f02aa45e708f3df445e3c8f3b4045e208f374045de48f31f445dc88f2f4045d8c8f29f445c0c8f27f445bf08f2540459ec8f15f4459348f1340458a08f0f40457488f074045e408f3c1e45e688f3cb445e6c8f3c1445e308f39f445e388f3aa045e248f381e45e288f38b445e2c8f381445e148f354045e1c8f36a045e008f33f445e0c8f34a0)
  (.lf 0)) (.nd (.lf
  0xe06822932c0dfe422912c0df5c228f2c0ded8228d2c0de58228b2c0ddd022892c0dd5822872c0dce422852c0dc7022832c0dc3c2280cc1047826bf2c1040826bd2c1038826bb2c1030026b92c1027c26b72c101fc26b52c1017426b32c100f026b12c1006826af2c0ffe426ad2c0ff6426ab2c0fee426a92c0fe6426a72c0fde426a52c0fd5c26a32c0fcd026a12c0fc4c269f2c0fbc4269d2c0fb40269b2c0fab826992c0fa2c26972c0f9a826952c0f92026932c0f89426912c0f810268f2c0f790268d2c0f710268b2c0f69026892c0f61026872c0f59026852c0f51026832c0f4d82680cc11d342abf2c11cc42abd2c11c3c2abb2c11bb82ab92c11b382ab72c11ab02ab52c11a2c2ab32c119ac2ab12c1192c2aaf2c118ac2aad2c118242aab2c117982aa92c117142aa72c116942aa52c116142aa32c1158c2aa12c115002a9f2c1147c2a9d2c113fc2a9b2c1137c2a992c112fc2a972c112742a952c)
  (.lf 0))) (.nd (.nd (.lf
  0x400dc862050400e0861e50400e4861c50400e8861a50400ec861850400f08616503fca08614503fca48612503fca88610503fcac860e503fcb0860c503fcb4860a503fcb88608503f3e88606503f3ec8604503f2d08602503f2d4860050401488a3e784014c8a3c78401508a3a78401548a3878401588a36784015c8a3478401608a3278401648a3078401688a2e784016c8a2c78401708a2a78401748a2878401788a26784017c8a2478401808a2278401848a2078401888a1e784018c8a1c78401908a1a78401948a1878401988a16783fcd88a14783fcdc8a12783fce08a10783fce48a0e783fce88a0c783fcec8a0a783fcf08a08783f3f88a06783f3fc8a04783f2e08a02783f2e48a0078430ac8a3e50430d48a3c50430b08a3a5042d008a385042a6c8a3650429e88a3450429d48a3250429c08a3050429ac8a2e50429988a2c50429848a2a50429708a28504295c8a2650429488a2450429348a2250)
  (.lf 0)) (.nd (.lf
  0x531acaca8cc531b4aca6cc531bcaca4cc531c4aca2cc531ccaca0cc531d4ac9ecc531dcac9ccc531e4ac9acc531ecac98cc531f4ac96cc531fcac94cc53204ac92cc5320cac90cc53214ac8ecc5321cac8ccc53224ac8acc5322cac88cc53234ac86cc5323cac84cc53244ac82cc534a8acbdd053494acbbd053480acb9d05346cacb7d053458acb5d053444acb3d053430acb1d05341cacafd053408acadd0533f4acabd0533e0aca9d0533ccaca7d0533b8aca5d0533a4aca3d053390aca1d05337cac9fd053368ac9dd053354ac9bd053340ac99d05332cac97d053318ac95d053304ac93d0532f0ac91d0532dcac8fd0532c8ac8dd0532b4ac8bd0532a0ac89d05328cac87d053278ac85d053264ac83d05324cac8110557b0ac7ecc557b8ac7ccc557c0ac7acc5583cac78cc55844ac76cc5584cac74cc55854ac72cc5585cac70cc55864ac6ecc5586cac6ccc55874ac6acc5587cac68cc55884ac66cc)
  (.lf 0)))

def shaWireTree416 : BTree :=
  .nd (.nd (.nd (.lf
  0x5ff000000005fd000000005fb000000005f9000000005f7000000005f5000000005f3000000005f1000000005ef000000005ed000000005eb000000005e9000000005e7000000005e5000000005e3000000005e1000000005df000000005dd000000005db000000005d9000000005d7000000005d5000000005d3000000005d1000000005cf000000005cd000000005cb000000005c9000000005c7000000005c5000000005c3000000005c1000000005bf000000005bd000000005bb000000005b9000000005b7000000005b5000000005b3000000005b1000000005af000000005ad000000005ab000000005a9000000005a7000000005a5000000005a3000000005a10000000059f0000000059d0000000059b00000000599000000005970000000059500000000593000000005910000000058f0000000058d0000000058b0000000058900000000587000000005850000000058300000000581)
  (.lf
  0x3c520880ccc3c4f4880acc3c4c88808cc3c49c8806cc3c4708804cc3c4448802cc3c950883dd03c924883bd03c8f88839d03c8cc8837d03c8a08835d03c8748833d03c8488831d03c81c882fd03c7f0882dd03c7c4882bd03c7988829d03c76c8827d03c7408825d03c7148823d03c6e88821d03c6bc881fd03c690881dd03c664881bd03c6388819d03c60c8817d03c5e08815d03c5b48813d03c5888811d03c55c880fd03c530880dd03c504880bd03c4d88809d03c4ac8807d03c4808805d03c4548803d03c434880110447f08cbecc447f88cbccc448008cbacc448088cb8cc448108cb6cc448188cb4cc448208cb2cc448288cb0cc448308caecc448388caccc448988caacc448a08ca8cc448a88ca6cc448b08ca4cc448b88ca2cc448c08ca0cc448c88c9ecc448d08c9ccc448d88c9acc448e08c98cc448e88c96cc448f08c94cc448f88c92cc449008c90cc449088c8ecc449108c8ccc449188c8acc))
  (.nd (.lf
  0xf2142620500f218261e500f21c261c500f220261a500f2242618500f2282616500f22c2614500f2302612500f2342610500f238260e500f23c260c500f240260a500f2442608500f2482606500f24c2604500f2502602500f2542600500f2d82a3e780f2dc2a3c780f2e02a3a780f2e42a38780f2e82a36780f2ec2a34780f2f02a32780f2f42a30780f2f82a2e780f2fc2a2c780f3002a2a780f3042a28780f3082a26780f30c2a24780f3102a22780f3142a20780f3182a1e780f31c2a1c780f3202a1a780f3242a18780f3282a16780f32c2a14780f3302a12780f3342a10780f3382a0e780f33c2a0c780f3402a0a780f3442a08780f3482a06780f34c2a04780f3502a02780f3542a007810a802a3e5010a842a3c5010a882a3a5010a8c2a385010a902a365010a942a345010a982a325010a9c2a305010aa02a2e5010aa42a2c5010aa82a2a5010aac2a285010ab02a265010ab42a245010ab82a2250)
  (.lf 0))) (.nd (.nd (.lf
  0x3f4748290303f444828e783f44c828eb43f450828e303f438828c783f434828cb43f43c828c303f424828a783f420828ab43f428828a303f4108288783f40c8288b43f4148288303f30c8286783f4008286b43f4048286303f2f48284783f2f88284b43f2fc8284303f2e88282783f2188282b43f2ec8282303c2bc827cb43c2b8827c783c2c0827c303c2a4827ab43c2a8827a783c2b0827a303c2908278b43c2948278783c29c8278303c2848276b43c27c8276783c2888276303c26c8274b43c2708274783c2748274303c25c8272b43c2608272783c2648272303c24c8270b43c2508270783c2548270303c234826eb43c238826e783c23c826e303c21c826cb43c220826c783c228826c303c20c826ab43c210826a783c214826a303c1fc8268b43c2008268783c2048268303c1e88266b43c1ec8266783c1f08266303c1d88264b43c1d48264783c1dc8264303c1c48262b43c1bc8262783c1c8826230)
  (.lf 0)) (.nd (.lf
  0x2cc6c6213b02ccd86211b02ccc0620fb02cc70620db02cc74620bb02cc786209b02cc7c6207b02cbbc6205b02cbc06203b02cbc46201b02ee58663fb02ee5c663db02ee60663bb02ee646639b02ee686637b02ee6c6635b02ee706633b02ee746631b02ee78662fb02eea8662db02ed4c662bb02ed506629b02ed546627b02ed586625b02ed5c6623b02ecd46621b02ec8c661fb02ec90661db02ec94661bb02ec986619b02ec9c6617b02eca06615b02ebec6613b02eba06611b02eb8c660fb02ebc8660db02ebb4660bb02eb686609b02eb406607b02eb786605b02eb446603b02eb486601b030c846a3fb030c886a3db030c8c6a3bb030c906a39b030c946a37b030c986a35b030c9c6a33b030ca06a31b030ca46a2fb030ca86a2db030cac6a2bb030cb06a29b030cb46a27b030cb86a25b030cbc6a23b030cc06a21b030cc46a1fb030cc86a1db030ccc6a1bb030cd06a19b030cd46a17b030cd86a15b0)
  (.lf 0)))

def shaWireTree417 : BTree :=
  .nd (.nd (.nd (.lf
  0x129203d8c301288c3d8a78128183d8ab4128903d8a301280c3d8878127983d88b4128103d88301278c3d8678127183d86b4127903d86301270c3d84781269c3d84b4127103d8430126903d8278126543d82b4126943d823015160417c78151b0417cb4151b4417c3015154417a7815108417ab415158417a30150b0417878150fc4178b415100417830150a4417678150584176b4150a8417630150004174781504c4174b41505041743014ff441727814fa84172b414ff841723014f5041707814f9c4170b414fa041703014f44416e7814ef8416eb414f48416e3014eb4416c7814eec416cb414ef0416c3014ea8416a7814e7c416ab414eac416a3014e5041687814e704168b414e7441683014e4441667814e284166b414e4841663014e1c41647814e184164b414e2041643014df441627814df04162b414df841623014dcc41607814dc84160b414dd041603014da4415e7814da0415eb414da8415e30)
  (.lf 0)) (.nd (.lf
  0x535ac004a7d535b4004a7b535bc004a79535c4004a77535cc004a75535d4004a73535dc004a71535e4004a6f535ec004a6d535f4004a6b535fc004a6953604004a675360c004a6553614004a635361c004a61557ac004a5f557b4004a5d557bc004a5b55838004a5955840004a5755848004a5555850004a5355858004a5155860004a4f55868004a4d55870004a4b55878004a4955880004a4755888004a4555890004a4355898004a41558a0004a3f558a8004a3d558b0004a3b558b8004a39558c0004a37558c8004a35558d0004a33558d8004a31558e0004a2f558e8004a2d558f0004a2b558f8004a2955900004a2755908004a2555910004a2355918004a2157af0004a1f57af8004a1d57b00004a1b57b7c004a1957b84004a1757b8c004a1557b94004a1357b9c004a1157ba4004a0f57bac004a0d57bb4004a0b57bbc004a0957bc4004a0757bcc004a0557bd4004a0357bdc004a0157be40049ff)
  (.lf 0))) (.nd (.nd (.lf
  0x711f8e03a30711d8e038b4711d4e03878711dce03830711c4e036b4711c0e03678711cce03630711b4e034b4711ace03478711b8e034307118ce032b47119ce03278711a0e0323071168e030b471170e0307871174e0303071158e02eb47115ce02e7871160e02e3071148e02cb471144e02c787114ce02c3071138e02ab471130e02a787113ce02a307111ce028b471124e0287871128e0283071108e026b471110e0267871114e02630710fce024b4710e4e0247871100e02430710d0e022b470f48e02278710d4e0223070f38e020b470f34e0207870f3ce0203070f20e01eb470f1ce01e7870f28e01e3070f0ce01cb470f04e01c7870f10e01c3070ef0e01ab470ef4e01a7870ef8e01a3070ee4e018b470ee0e0187870ee8e0183070ec8e016b470ed0e0167870ed4e0163070eb0e014b470eb4e0147870ec0e0143070ea4e012b470e9ce0127870ea8e0123070e90e010b470e84e0107870e94e01030)
  (.lf 0)) (.nd (.lf
  0x56108ae5bd0560f0ae59d0560d8ae57d0560c0ae55d0560a8ae53d056090ae51d056078ae4fd056060ae4dd056048ae4bd056030ae49d056018ae47d056008ae45d055f8cae43d055ec4ae4110562c8aefecc562bcaefccc562d0aefacc5628caef8cc56274aef6cc56258aef4cc56244aef2cc56228aef0cc56210aeeecc56200aeeccc561b8aeeacc561a0aee8cc5618caee6cc56170aee4cc56160aee2cc56140aee0cc56130aedecc56110aedccc56100aedacc560e0aed8cc560d0aed6cc560b0aed4cc560a0aed2cc56080aed0cc56070aececc56050aecccc5603caecacc56028aec8cc562dcaec6cc55f9caec4cc55ed4aec2cc56f7caefdd056f6caefbd056f58aef9d056f48aef7d056eb8aef5d05660caef3d0565f4aef1d0565dcaeefd0565c8aeedd0565b0aeebd0564d4aee9d056498aee7d056480aee5d056468aee3d056454aee1d056440aedfd05642caeddd056414aedbd056400aed9d0)
  (.lf 0)))

def shaWireTree418 : BTree :=
  .nd (.nd (.nd (.lf
  0x79848f54ab47984cf54a3079828f5487879654f548b47982cf5483079608f54678795b0f546b47962cf546307957cf544787954cf544b4795a8f54430794fcf542787947cf542b479544f542307a3dcf5bc787a474f5bcb47a478f5bc307a3d0f5ba787a3a0f5bab47a3d4f5ba307a388f5b8787a38cf5b8b47a390f5b8307a334f5b6787a37cf5b6b47a380f5b6307a2dcf5b4787a2a8f5b4b47a2e0f5b4307a22cf5b2787a224f5b2b47a28cf5b2307a208f5b0787a1e0f5b0b47a20cf5b0307a1d0f5ae787a1d4f5aeb47a1d8f5ae307a17cf5ac787a144f5acb47a180f5ac307a124f5aa787a120f5aab47a13cf5aa307a110f5a8787a114f5a8b47a118f5a8307a104f5a6787a0fcf5a6b47a108f5a6307a0acf5a4787a0a8f5a4b47a0b0f5a4307a098f5a2787a09cf5a2b47a0a0f5a2307a074f5a0787a06cf5a0b47a078f5a03079bd8f59e787a050f59eb47a054f59e3079bc8f59c7879bccf59cb4)
  (.lf 0)) (.nd (.lf
  0x703413a0b407038139eb40703c139cb407040139ab4070441398b4070481396b40704c1394b4070501392b4070541390b407058138eb40705c138cb407060138ab4070641388b4070681386b40706c1384b4070701382b4070741380b40586c13be780587013bc780587413ba780587813b8780587c13b6780588013b4780588413b2780588813b0780588c13ae780589013ac780589413aa780589813a8780589c13a678058a013a478058a413a278058a813a078058ac139e78058b0139c78058b4139a78058b8139878058bc139678058c0139478058c4139278058c8139078058cc138e78058d0138c78058d4138a78058d8138878058dc138678058e0138478058e4138278058e81380780707813be300707c13bc300708013ba300708413b8300708813b6300708c13b4300709013b2300709413b0300709813ae300709c13ac30070a013aa30070a413a830070a813a630070ac13a430070b013a230)
  (.lf 0))) (.nd (.nd (.lf
  0x16d2c3a907816d283a90b416d303a903016cec3a8e7816ce83a8eb416cf03a8e3016cac3a8c7816ca83a8cb416cb03a8c3016c703a8a7816c6c3a8ab416c743a8a3016c303a887816c2c3a88b416c343a883016bf43a867816bf03a86b416bf83a863016bbc3a847816bb83a84b416bc03a843016b7c3a827816b783a82b416b803a823011cfc3a7cb411c943a7c7811d003a7c3011c883a7ab411c043a7a7811c8c3a7a3011bf83a78b411b843a787811bfc3a783011b783a76b411b083a767811b7c3a763011afc3a74b411a783a747811b003a743011a6c3a72b4119f83a727811a703a7230119ec3a70b4119783a7078119f03a70301196c3a6eb4118f83a6e78119703a6e30118ec3a6cb41187c3a6c78118f03a6c30118703a6ab4117f03a6a78118743a6a30117e43a68b4117603a6878117e83a6830117543a66b4116e03a6678117583a6630116d43a64b4116603a6478116d83a6430116543a62b4)
  (.lf 0)) (.nd (.lf
  0x2ed7c71abd02ed2c71a9d02ed1871a7d02ed0471a5d02ecf071a3d02ecdc71a1d02ecbc719fd02ec60719dd02ec4c719bd02ec387199d02ec247197d02ec107195d02ebfc7193d02ebdc7191d02e9fc718fd02e9e8718dd02e9d8718bd02e9c87189d02e9b87187d02e9a87185d02e9987183d02e97c71811030af0757ecc30aec757ccc30ae8757acc30ae47578cc30ae07576cc30adc7574cc30ad87572cc30ad47570cc30ad0756ecc30acc756ccc30ac8756acc30ac47568cc30ac07566cc30abc7564cc30ab87562cc30ab47560cc30ab0755ecc30aac755ccc30aa8755acc30aa47558cc30aa07556cc30a9c7554cc30a987552cc30a947550cc30a90754ecc30a8c754ccc30a88754acc30a847548cc30a807546cc30a7c7544cc30a787542cc311c0757dd0311ac757bd03119c7579d0311587577d0311487575d0310f07573d0310987571d031040756fd030fe8756dd030fa4756bd030f6c7569d0)
  (.lf 0)))

def shaWireTree419 : BTree :=
  .nd (.nd (.nd (.lf
  0x64ff8ca46b46504cca467865050ca463064fc4ca44b464fecca447864ff0ca443064f70ca42b464f84ca427864f88ca4230661a4cafcb4661a8cafc78661accafc306618ccafab466184cafa7866190cafa3066174caf8b466178caf8786617ccaf83066160caf6b466164caf67866168caf63066154caf4b46614ccaf47866158caf43066138caf2b466134caf2786613ccaf23066118caf0b46611ccaf07866120caf03066104caeeb466108caee786610ccaee30660eccaecb4660f4caec78660f8caec30660dccaeab4660d4caea78660e0caea30660c8cae8b4660c4cae878660cccae830660accae6b4660b8cae678660bccae63066098cae4b46609ccae478660a4cae4306608ccae2b466088cae27866090cae23066078cae0b466070cae0786607ccae03066064cadeb466060cade7866068cade3066044cadcb466050cadc7866054cadc3066038cadab466030cada786603ccada3066020cad8b4)
  (.lf 0)) (.nd (.lf
  0x320d06b1cb43204c6b1b4a31fc46b18b431f446b16b431ec06b154a31e346b134a31da86b114a31d1c6b0f4a31c906b0d4a31c086b0ab431b886b08b431b106b06aa31a986ac52c31a246ac32c319f06ac0cc347e06f3f4a347786f3cb4347046f3b4a346886f394a3460c6f374a345906f354a345146f334a344986f314a344206f2eb4343ac6f2d4a343346f2ab4342c06f294a342486f274a341d46f24b4341646f22b4340f46f214a3407c6f1eb4340086f1d4a33f8c6f1b4a33f146f194a33e986f174a33e1c6f154a33da46f134a33d2c6f114a33cb06f0f4a33c2c6f0d4a33ba06f0ab433b1c6f08b433a906f06b4339fc6f054a339586f034a339146f00aa366f4733f4a3669c733d4a36634733ab4365cc7338b4365587336b4364d873354a3649073334a363ec7330b4363a8732f4a36320732d4a362a8732b4a3622c7328b4361ac7326b43611c7324b4360ac7322b43603c7320b435fcc731eb4)
  (.lf 0))) (.nd (.nd (.lf
  0x1da08687ab41da04687a781da0c687a301d9f46878b41d9f06878781d9f86878301d9e06876b41d9dc6876781d9e46876301d9cc6874b41d9c86874781d9d06874301d9b86872b41d9b46872781d9bc6872301d9a46870b41d9a06870781d9a86870301d990686eb41d98c686e781d994686e301d97c686cb41d978686c781d980686c301d968686ab41d964686a781d96c686a301d9546868b41d9506868781d9586868301d9406866b41d93c6866781d9446866301d92c6864b41d9286864781d9306864301d9186862b41d9146862781d91c6862301d9046860b41d9006860781d9086860301d8f0685eb41d8ec685e781d8f4685e301d8dc685cb41d8d8685c781d8e0685c301d8c8685ab41d8c4685a781d8cc685a301d8b46858b41d8b06858781d8b86858301d8a06856b41d89c6856781d8a46856301d88c6854b41d8886854781d8906854301d8786852b41d8746852781d87c6852301d8646850b4)
  (.lf 0)) (.nd (.lf
  0x12fe82ea5d012f5c2ea3d012ed82ea1d012e582e9fd012dd82e9dd012d502e9bd012cc42e99d012c382e97d012bac2e95d012b202e93d012a9c2e91d012a142e8fd0129882e8dd0128fc2e8bd0128782e89d0127f82e87d0127782e85d0126f82e83d0126382e81100d3542e7ecc0d3042e7ccc0d27c2e7acc0d2042e78cc0d1702e76cc0d0f82e74cc0d0642e72cc0cfd82e70cc0cf602e6ecc0cee02e6ccc0ce602e6acc0cdcc2e68cc0cd402e66cc0ccb42e64cc0cc3c2e62cc0cbbc2e60cc0cb3c2e5ecc0caa82e5ccc0ca302e5acc0c99c2e58cc0c9102e56cc0c8842e54cc0c7f82e52cc0c7802e50cc0c6ec2e4ecc0c6602e4ccc0c5e82e4acc0c5542e48cc0c4dc2e46cc0c4482e44cc0c3d02e42cc0d3002e7dd00d28c2e7bd00d1fc2e79d00d1802e77d00d0f02e75d00d0742e73d00cfe82e71d00cf582e6fd00ced82e6dd00ce582e6bd00cddc2e69d00cd502e67d00ccc42e65d00cc342e63d0)
  (.lf 0)))

def shaWireTree420 : BTree :=
  .nd (.nd (.nd (.lf
  0x73ba000074b73ba400074973ba800074773bac00074573bb000074373bb400074173bb800073f73bbc00073d73bc000073b73bc400073973bc800073773bcc00073573bd000073373bd400073173bd800072f73bdc00072d73be000072b73be400072973be800072773bec00072573bf000072373bf400072173bf800071f73bfc00071d73c0000071b73c0400071973c0800071773c0c000715746080007137460c0007117461000070f7461400070d7461800070b7461c0007097462000070774624000705746280007037462c000701746300006ff746340006fd746380006fb7463c0006f9746400006f7746440006f5746480006f37464c0006f1746500006ef746540006ed746580006eb7465c0006e9746600006e7746640006e5746680006e37466c0006e1746700006df746740006dd746780006db750740006d9750780006d77507c0006d5750800006d3750840006d1750880006cf7508c0006cd)
  (.lf 0)) (.nd (.lf
  0x5bb38bba0305bb0cbb9e305bb10bb9c305baacbb9a305ba84bb98305bac8bb96305ba50bb94305ba28bb92305a7a0bb90305a7a4bb8e305a7a8bb8c305a86cbb8a305a730bb88305a604bb86305a394bb84305a398bb823059fc8bb80305e11cbfbeb45dff8bfbcb45ddb0bfbab45deb0bfb8b45de60bfb6b45dbccbfb4b45db10bfb2b45dad8bfb0b45da5cbfaeb45dc98bfacb45d990bfaab45d950bfa8b45d88cbfa6b45d878bfa4b45d7d8bfa2b45d770bfa0b45d728bf9eb45d6dcbf9cb45d66cbf9ab45d5fcbf98b45d5a0bf96b45d53cbf94b45d528bf92b45d478bf90b45d3fcbf8eb45d3acbf8cb45d30cbf8ab45d36cbf88b45d254bf86b45d2acbf84b45d1f4bf82b45c470bf80b45bf4cbfbe785bef0bfbc785bdb8bfba785bd7cbfb8785bd50bfb6785bcd0bfb4785be4cbfb2785be00bfb0785bc74bfae785bc2cbfac785bc30bfaa785bc34bfa8785bbbcbfa6785bb9cbfa4785bb6cbfa278)
  (.lf 0))) (.nd (.nd (.lf
  0x2c46c5e9a302c4305e98782c42c5e98b42c4345e98302c3f85e96782c3f45e96b42c3fc5e96302c3b85e94782c3b45e94b42c3bc5e94302c37c5e92782c3785e92b42c3805e92302c3445e90782c3405e90b42c3485e90302c30c5e8e782c3085e8eb42c3105e8e302c2cc5e8c782c2c85e8cb42c2d05e8c302c2885e8a782c2845e8ab42c28c5e8a302c24c5e88782c2485e88b42c2505e88302c20c5e86782c2085e86b42c2105e86302c1c85e84782c1c45e84b42c1cc5e84302c18c5e82782c1885e82b42c1905e823025f085e7cb425eec5e7c7825f0c5e7c3025ee05e7ab425eb85e7a7825ee45e7a3025eac5e78b425ea85e787825eb05e783025e985e76b425e945e767825e9c5e763025e845e74b425e805e747825e885e743025e705e72b425e6c5e727825e745e723025e5c5e70b425e585e707825e605e703025e485e6eb425e445e6e7825e4c5e6e3025e345e6cb425e305e6c7825e385e6c30)
  (.lf 0)) (.nd (.lf
  0x7a0a4f5a3d07a07cf5a1d07a058f59fd079bd4f59dd079bacf59bd079b88f599d079060f597d078db0f595d078d88f593d078c1cf591d078bbcf58fd078b5cf58dd078b10f58bd078ad8f589d0789fcf587d07894cf585d078824f583d0787d4f581107b574f97ecc7b560f97ccc7b550f97acc7b530f978cc7b514f976cc7b500f974cc7b4a4f972cc7b444f970cc7b2e0f96ecc7b3d8f96ccc7b3a0f96acc7b288f968cc7b318f966cc7b290f964cc7b230f962cc7b1f8f960cc7b0d4f95ecc7b0b8f95ccc7b0a4f95acc7b088f958cc7b070f956cc7b05cf954cc7b030f952cc7b004f950cc7af90f94ecc7af68f94ccc7af38f94acc7aefcf948cc7aec0f946cc7ae9cf944cc7a4b8f942cc7b6ecf97dd07b6b0f97bd07b678f979d07b5f4f977d07b5c0f975d07b588f973d07b440f971d07b398f96fd07b364f96dd07b354f96bd07b338f969d07b300f967d07b2a4f965d07b228f963d07b1f4f961d0)
  (.lf 0)))

def shaWireTree421 : BTree :=
  .nd (.nd (.nd (.lf
  0x76850ee5830767b4ee56b476790ee5678767d4ee563076784ee54b47672cee547876788ee543076720ee52b476718ee527876724ee52307670cee50b476704ee507876710ee503076634ee4eb4766f8ee4e78766fcee4e3076610ee4cb47660cee4c7876628ee4c30765ecee4ab47649cee4a78765fcee4a3076490ee48b4763f4ee487876494ee4830763e4ee46b476378ee4678763e8ee463076364ee44b47636cee447876370ee443076358ee42b473358ee42787635cee42307cb4ceefcb47cb74eefc787cb78eefc307cb2ceefab47cb3ceefa787cb44eefa307c9a0eef8b47cb1ceef8787cb24eef8307c988eef6b47c97ceef6787c98ceef6307c970eef4b47c96ceef4787c974eef4307c95ceef2b47c960eef2787c964eef2307c944eef0b47c948eef0787c950eef0307c938eeeeb47c930eeee787c93ceeee307c87ceeecb47c898eeec787c928eeec307c854eeeab47c870eeea787c874eeea30)
  (.lf 0)) (.nd (.lf
  0x30e646b9dd030e386b9bd030e106b99d030de86b97d030dc46b95d030da06b93d030bfc6b91d030bd86b8fd030bb46b8dd030b906b8bd030b6c6b89d030b486b87d030b246b85d030b006b83d030a706b81d032e506fbfd032e306fbdd032e0c6fbbd032de86fb9d032dc46fb7d032da06fb5d032d7c6fb3d032d586fb1d032d346fafd032d106fadd032cec6fabd032cc86fa9d032ca46fa7d032c7c6fa5d032c586fa3d032c346fa1d032c106f9fd032bec6f9dd032bc86f9bd032b546f99d032b586f97d032b5c6f95d032b606f93d032b646f91d032b686f8fd032b6c6f8dd032b706f8bd032b746f89d032b786f87d032b7c6f85d032b806f83d032b846f81d034b0c73bfd034b1073bdd034b1473bbd034b1873b9d034b1c73b7d034b2073b5d034b2473b3d034b2873b1d034b2c73afd034b3073add034b3473abd034b3873a9d034b3c73a7d034b4073a5d034b4473a3d034b4873a1d034b4c739fd0)
  (.lf 0))) (.nd (.nd (.lf
  0x51560a45c7851568a45c3051538a45ab451534a45a785153ca45a305150ca458b451508a4587851510a45830514e0a456b4514dca45678514e4a45630514b4a454b4514b0a45478514b8a4543051488a452b451484a452785148ca452305145ca450b451458a4507851460a4503051430a44eb45142ca44e7851434a44e3051404a44cb451400a44c7851408a44c30513d8a44ab4513d4a44a78513dca44a30513aca448b4513a8a44878513b0a4483051380a446b45137ca4467851384a4463051354a444b451350a4447851358a4443051328a442b451324a442785132ca4423051810a43cb4517f0a43c7851814a43c30517e4a43ab4517c4a43a78517e8a43a30517b8a438b451798a43878517bca438305178ca436b45176ca4367851790a4363051760a434b451740a4347851764a4343051734a432b451714a4327851738a4323051708a430b4516e8a430785170ca43030516dca42eb4516bca42e78)
  (.lf 0)) (.nd (.lf
  0x335f46e93d0335e06e91d0335cc6e8fd0335b86e8dd0335a46e8bd0335906e89d03357c6e87d0335686e85d0335546e83d03353c6e8110347cc6e7ecc347686e7ccc346f06e7acc346746e78cc345f86e76cc3457c6e74cc345006e72cc344846e70cc344106e6ecc343986e6ccc343246e6acc342ac6e68cc342346e66cc341c46e64cc341546e62cc340e06e60cc3406c6e5ecc33ff46e5ccc33f786e5acc33f006e58cc33e846e56cc33e086e54cc33d906e52cc33d186e50cc33c9c6e4ecc33c186e4ccc33b906e4acc33b0c6e48cc33a806e46cc339e86e44cc339446e42cc347986e7dd03472c6e7bd0346b46e79d0346386e77d0345bc6e75d0345406e73d0344c46e71d0344486e6fd0343d46e6dd03435c6e6bd0342e86e69d0342746e67d0341fc6e65d0341886e63d03411c6e61d0340a46e5fd0340306e5dd033fb86e5bd033f406e59d033ec46e57d033e486e55d033dd06e53d033d586e51d0)
  (.lf 0)))

def shaWireTree422 : BTree :=
  .nd (.nd (.nd (.lf
  0x43ac499a87843a3099a8b443ac899a83043a2499a678439dc99a6b443a2899a630439d099a478438e899a4b4439d499a430438dc99a2784386899a2b4438e099a2304385499a0784380899a0b44385899a030437f4999e7843780999eb4437fc999e3043768999c78436b0999cb44376c999c30436a4999a7843610999ab4436a8999a3043604999878435949998b44360899983043588999678435489996b44358c999630435349994784353c9994b44354099943043528999278434109992b44352c999230433d4999078433709990b4433d899903043364998e78432dc998eb443368998e30432a0998c784326c998cb4432a4998c3043260998a7843258998ab443264998a30431f899887842da09988b44325099883042d9499867842c589986b442d9899863042c4c99847842c489984b442c5099843042c3899827842c349982b442c3c998230461b89d7c78461b49d7cb4461bc9d7c30461a49d7a78)
  (.lf 0)) (.nd (.lf
  0x1d8d4685d2c1d8c0685b2c1d8ac68592c1d89868572c1d88468552c1d87068532c1d85c68512c1d848684f2c1d834684d2c1d820684b2c1d80c68492c1d7f868472c1d7e468452c1d7d068432c1d7cc6840cc1ddfc6c7f2c1dde86c7d2c1ddd46c7b2c1ddc06c792c1ddac6c772c1dd986c752c1dd846c732c1dd706c712c1dd5c6c6f2c1dd486c6d2c1dd346c6b2c1dd206c692c1dd0c6c672c1dcf86c652c1dce46c632c1dcd06c612c1dcbc6c5f2c1dca86c5d2c1dc946c5b2c1dc806c592c1dc6c6c572c1dc586c552c1dc446c532c1dc306c512c1dc1c6c4f2c1dc086c4d2c1dbf46c4b2c1dbe06c492c1dbcc6c472c1dbb86c452c1dba46c432c1dba06c40cc1e1d0707f2c1e1bc707d2c1e1a8707b2c1e19470792c1e18070772c1e16c70752c1e15870732c1e14470712c1e130706f2c1e11c706d2c1e108706b2c1e0f470692c1e0e070672c1e0cc70652c1e0b870632c1e0a470612c1e090705f2c)
  (.lf 0))) (.nd (.nd (.lf
  0x9b3416a4b409b3c16a43009ab816a27809ab416a2b409abc16a23009a3816a07809a3416a0b409a3c16a030099b0169e78099ac169eb4099b4169e300992c169c7809928169cb409930169c30098ac169a78098a8169ab4098b0169a300982c169878098281698b409830169830097a4169678097a01696b4097a8169630097201694780971c1694b409724169430096a01692780969c1692b4096a4169230096201690780961c1690b40962416903009598168e7809594168eb40959c168e300950c168c7809508168cb409510168c3009480168a780947c168ab409484168a30093f4168878093f01688b4093f816883009368168678093641686b40936c168630092e4168478092e01684b4092e816843009264168278092601682b40926816823003d88167cb403d10167c7803d8c167c3003d04167ab403c84167a7803d08167a3003c781678b403bf416787803c7c16783003be81676b403b74167678)
  (.lf 0)) (.nd (.lf
  0x7c298eed6cc7c284eed4cc7c264eed2cc7c250eed0cc7c238eececc7c4dceecccc7c26ceecacc7c1f4eec8cc7c334eec6cc7c048eec4cc7bd8ceec2cc7cb7ceefdd07cb48eefbd07cb28eef9d07c99ceef7d07c978eef5d07c968eef3d07c954eef1d07c940eeefd07c92ceeedd07c878eeebd07c850eee9d07c83ceee7d07c828eee5d07c810eee3d07c7f8eee1d07c7e0eedfd07c6f8eeddd07c694eedbd07c49ceed9d07c48ceed7d07c47ceed5d07c324eed3d07c30ceed1d07c2f8eecfd07c2e4eecdd07c2b8eecbd07c2a4eec9d07c1d4eec7d07c040eec5d07bde8eec3d07bdaceec1107ce58ef3d407caacef35f47ca88ef33407ca48ef2df47ca30ef2b407c9e4ef23f47c9c8ef21f47c9b0ef1f407c538ef11407b73ceffecc7b93ceffccc7b708effacc7b6cceff8cc7b6a0eff6cc7b624eff4cc7b630eff2cc7b72ceff0cc7b4ccefeecc7b464efeccc7b3c4efeacc7b3f4efe8cc7b3c0efe6cc)
  (.lf 0)))

def shaWireTree423 : BTree :=
  .nd (.nd (.nd (.lf
  0x51c6ca678b451c68a6787851c78a6783051c5ca676b451c58a6767851c60a6763051c44a674b451c40a6747851c48a6743051c2ca672b451c28a6727851c30a6723051c14a670b451c10a6707851c18a6703051bfca66eb451c04a66e7851c08a66e3051be8a66cb451be4a66c7851beca66c3051bc4a66ab451bcca66a7851bd0a66a3051bb8a668b451bb4a6687851bbca6683051ba0a666b451b9ca6667851ba4a6663051b88a664b451b84a6647851b8ca6643051b70a662b451b6ca6627851b74a6623051b58a660b451b54a6607851b5ca6603051b40a65eb451b3ca65e7851b44a65e3051b28a65cb451b24a65c7851b2ca65c3051afca65ab451b10a65a7851b14a65a3051af0a658b451aeca6587851af4a6583051ad8a656b451ad4a6567851adca6563051ac0a654b451abca6547851ac4a6543051aa8a652b451aa4a6527851aaca6523051a8ca650b451a98a6507851a9ca6503051a78a64eb4)
  (.lf 0)) (.nd (.lf
  0x2df1862532c2dea462512c2de34624f2c2ddc0624d2c2dd50624b2c2dcdc62492c2dc5c62472c2dbdc62452c2db6462432c2db306240cc309c8667f2c30968667d2c308f4667b2c3088466792c3081066772c307a066752c3073066732c306b066712c30630666f2c305b0666d2c30528666b2c3049c66692c3041866672c3039866652c3031866632c3029066612c30204665f2c30178665d2c300f4665b2c3007466592c2fff466572c2ff6c66552c2fee066532c2fe5c66512c2fddc664f2c2fd54664d2c2fcc8664b2c2fc4466492c2fbbc66472c2fb3866452c2fab466432c2fa806640cc328d46a7f2c328746a7d2c328006a7b2c327886a792c327186a772c326ac6a752c326406a732c325d06a712c325586a6f2c324d86a6d2c324586a6b2c323d86a692c323586a672c322d86a652c322546a632c321c86a612c321446a5f2c320c46a5d2c3203c6a5b2c31fb86a592c31f386a572c31eb06a552c)
  (.lf 0))) (.nd (.nd (.lf
  0x26870002401268740023ff268780023fd2687c0023fb268800023f9268840023f7268880023f52688c0023f3268900023f1268940023ef268980023ed2689c0023eb268a00023e9268a40023e7268a80023e5268ac0023e3268b00023e128aa40023df28aa80023dd28aac0023db28ab00023d928ab40023d728ab80023d528abc0023d328ac00023d128ac40023cf28ac80023cd28acc0023cb28ad00023c928ad40023c728ad80023c528adc0023c328ae00023c128ae40023bf28ae80023bd28aec0023bb28af00023b928af40023b728af80023b528afc0023b328b000023b128b040023af28b080023ad28b0c0023ab28b100023a928b140023a728b180023a528b1c0023a328b200023a12a07800239f2a07c00239d2a08000239b2a0840023992a0880023972a08c0023952a0900023932a0940023912a09800238f2a09c00238d2a0a000238b2a0a40023892a0a80023872a0ac0023852a0b0002383)
  (.lf 0)) (.nd (.lf
  0x70b04e004cc70b64e002cc71354e03dd071340e03bd0711e0e039d0711d0e037d0711bce035d0711a4e033d071178e031d071164e02fd071150e02dd071140e02bd07112ce029d071118e027d071104e025d0710d8e023d070f40e021d070f2ce01fd070f14e01dd070efce01bd070eece019d070ed8e017d070ec4e015d070eace013d070e98e011d070e80e00fd070e6ce00dd070e40e00bd070e28e009d070b3ce007d070b18e005d070ac0e003d070aa8e001107022ce4becc70234e4bccc7023ce4bacc70244e4b8cc7024ce4b6cc7007ce4b4cc70084e4b2cc7008ce4b0cc70094e4aecc7009ce4accc70584e4aacc7058ce4a8cc70594e4a6cc704d0e4a4cc703c4e4a2cc703cce4a0cc703d4e49ecc7059ce49ccc705a4e49acc705ace498cc705b4e496cc705bce494cc704dce492cc703dce490cc703e4e48ecc703ece48ccc703f4e48acc703fce488cc70404e486cc7040ce484cc7025ce482cc)
  (.lf 0)))

def shaWireTree424 : BTree :=
  .nd (.nd (.nd (.lf
  0x32e44797f2c32e24797d2c32e00797b2c32ddc79792c32db879772c32d9479752c32d7079732c32d4c79712c32d28796f2c32d04796d2c32ce0796b2c32cbc79692c32c9879672c32c7079652c32c4c79632c32c2879612c32c04795f2c32be0795d2c32bbc795b2c32ad879592c32ac479572c32ab079552c32a9c79532c32a8879512c32a74794f2c32a60794d2c32a4c794b2c32a3879492c32a2479472c32a1079452c329fc79432c3297c7940cc34a407d7f2c34a2c7d7d2c34a147d7b2c34a007d792c349ec7d772c34a1c7d752c349d07d732c349b47d712c349a07d6f2c3498c7d6d2c3497c7d6b2c349647d692c3495c7d672c349407d652c349287d632c349147d612c349007d5f2c348ec7d5d2c348d87d5b2c348d07d592c348b07d572c3489c7d552c348887d532c348747d512c348607d4f2c33c6c7d4d2c33bd87d4b2c33b507d492c33ac47d472c350ec7d452c339947d432c350b47d40cc)
  (.lf
  0x1f7985c10cc1f6dc5c0ecc1f6185c0ccc1f5585c0acc1f49c5c08cc1f3e85c06cc1f3305c04cc1f26c5c02cc207c45c3dd0207145c3bd0206505c39d0205985c37d0204e05c35d0204245c33d0203685c31d0202b45c2fd0201f45c2dd02013c5c2bd0200845c29d01ffc85c27d01ff045c25d01fe4c5c23d01fd8c5c21d01fccc5c1fd01fc105c1dd01fb545c1bd01fa905c19d01f9d85c17d01f9185c15d01f8605c13d01f7a85c11d01f6ec5c0fd01f6285c0dd01f5685c0bd01f4ac5c09d01f3f85c07d01f3405c05d01f27c5c03d01f1d05c01102d9cc60becc2d9d460bccc2d9dc60bacc2d9e460b8cc2d9ec60b6cc2d9f460b4cc2d9fc60b2cc2da0460b0cc2da0c60aecc2da1460accc2da7460aacc2da7c60a8cc2da8460a6cc2da8c60a4cc2da9460a2cc2da9c60a0cc2daa4609ecc2daac609ccc2dab4609acc2dabc6098cc2dac46096cc2dacc6094cc2dad46092cc2dadc6090cc2dae4608ecc))
  (.nd (.lf
  0x15124003581150cc00357f1507400357d1501c00357b14fc400357914f6c00357714f1400357514ed000357314e9800357114e6800356f14e4000356d14e1400356b14dec00356914dc400356714d9c00356514d7400356314d4c0035611645000355f1645400355d1645800355b1645c0035591646000355716464003555164680035531646c0035511647000354f1647400354d1647800354b1647c0035491648000354716484003545164880035431648c0035411649000353f1649400353d1649800353b1649c003539164a0003537164a4003535164a8003533164ac003531164b000352f164b400352d164b800352b164bc003529164c0003527164c4003525164c8003523164cc00352117a5400351f17a5800351d17a5c00351b17a6000351917a6400351717a6800351517a6c00351317a7000351117a7400350f17a7800350d17a7c00350b17a8000350917a8400350717a8800350517a8c003503)
  (.lf 0))) (.nd (.nd (.lf
  0x345186f32b43451c6f32143442c6f301e3449c6f30b4344a06f3014343b86f2df4344246f2ea0343406f2c1e343b06f2cb4343b46f2c14342cc6f29f4343386f2aa0342586f281e342c46f28b4342c86f2814341e06f261e3424c6f26b4342506f26143416c6f2340341d86f24a0341006f21f4341686f22a0340886f201e340f86f20b4340fc6f2014340146f1df4340806f1ea033f9c6f1c1e3400c6f1cb4340106f1c1433f246f1a1e33f906f1ab433f946f1a1433ea86f181e33f186f18b433f1c6f181433e2c6f161e33e9c6f16b433ea06f161433db46f141e33e206f14b433e246f141433d3c6f121e33da86f12b433dac6f121433cc06f101e33d306f10b433d346f101433c3c6f0e1e33cb46f0eb433cb86f0e1433bac6f0c1e33c306f0cb433c346f0c1433b246f094033ba46f0aa033a986f074033b206f08a033a086f05f433a946f06a0339686f041e33a006f04b433a046f04143395c6f02b4)
  (.lf 0)) (.nd (.lf
  0x2d718006af32d720006af12d728006aef2d730006aed2d738006aeb2d740006ae92d748006ae72d750006ae52d758006ae32d760006ae12f5b8006adf2f5c0006add2f5c8006adb2f5d0006ad92f5d8006ad72f5e0006ad52f5e8006ad32f5f0006ad12f5f8006acf2f600006acd2f608006acb2f610006ac92f618006ac72f620006ac52f628006ac32f630006ac12f638006abf2f640006abd2f648006abb2f650006ab92f658006ab72f660006ab52f668006ab32f670006ab12f678006aaf2f680006aad2f688006aab2f690006aa92f698006aa72f6a0006aa52f6a8006aa32f6b0006aa131520006a9f31528006a9d31530006a9b31538006a9931540006a9731548006a9531550006a9331558006a9131560006a8f31568006a8d31570006a8b31578006a8931580006a8731588006a8531590006a8331598006a81315a0006a7f315a8006a7d315b0006a7b315b8006a79315c0006a77315c8006a75)
  (.lf 0)))

def shaWireTree425 : BTree :=
  .nd (.nd (.nd (.lf
  0x839c4fff878839d0fff8b4839d4fff830839acfff678839b8fff6b4839bcfff63083994fff478839a0fff4b4839a4fff4308397cfff27883980fff2b483984fff2308396cfff07883964fff0b483974fff03083958ffee788394cffeeb48395cffee3083930ffec788392cffecb483934ffec3083920ffea788391cffeab483924ffea308390cffe87883910ffe8b483914ffe830838f0ffe67883900ffe6b483904ffe630838e4ffe478838d8ffe4b4838e8ffe430838c8ffe278838ccffe2b4838d0ffe230838a0ffe0788389cffe0b4838a4ffe03083890ffde788388cffdeb483894ffde3083874ffdc7883878ffdcb483884ffdc308385cffda7883860ffdab483864ffda3083850ffd87883838ffd8b483854ffd830837f8ffd678837f4ffd6b483804ffd630837a8ffd478837acffd4b4837ecffd4308379cffd2788376cffd2b4837a0ffd2308374cffd07883728ffd0b483764ffd0308371cffce78)
  (.lf 0)) (.nd (.lf
  0x313486bdd2c313346bdb2c313206bd92c3130c6bd72c312f86bd52c312e46bd32c312d06bd12c312bc6bcf2c312a86bcd2c312986bcb2c3112c6bc92c310d46bc72c3107c6bc52c310246bc32c30fd86bc0cc332346fff2c332206ffd2c3320c6ffb2c331f86ff92c331e46ff72c331d06ff52c331bc6ff32c331a86ff12c331946fef2c331806fed2c3316c6feb2c331586fe92c331446fe72c331306fe52c3311c6fe32c331086fe12c330f46fdf2c330e06fdd2c330cc6fdb2c330b86fd92c330a46fd72c330906fd52c3307c6fd32c330686fd12c330546fcf2c330406fcd2c3302c6fcb2c330186fc92c330046fc72c32ff06fc52c32fdc6fc32c32fd86fc0cc3538073ff2c3536c73fd2c3535873fb2c3534473f92c3533073f72c3531c73f52c3530873f32c352f473f12c352e073ef2c352cc73ed2c352b873eb2c352a473e92c3529073e72c3527c73e52c3526873e32c3525473e12c3524073df2c)
  (.lf 0))) (.nd (.nd (.lf
  0x5f9a4c4aab45f99cc4aa785f9a8c4aa305f990c4a8b45f98cc4a8785f994c4a8305f97cc4a6b45f978c4a6785f980c4a6305f968c4a4b45f964c4a4785f96cc4a4305f954c4a2b45f950c4a2785f958c4a2305f93cc4a0b45f940c4a0785f944c4a0305f924c49eb45f92cc49e785f930c49e305f918c49cb45f914c49c785f91cc49c305f904c49ab45f900c49a785f908c49a305f8f0c498b45f8ecc498785f8f4c498305f8dcc496b45f8d8c496785f8e0c496305f8c4c494b45f8c8c494785f8ccc494305f8b4c492b45f8b0c492785f8b8c492305f8a0c490b45f89cc490785f8a4c490305f88cc48eb45f888c48e785f890c48e305f874c48cb45f878c48c785f87cc48c305f860c48ab45f864c48a785f868c48a305f850c488b45f848c488785f854c488305f838c486b45f83cc486785f840c486305f824c484b45f828c484785f82cc484305f818c482b45f554c482785f81cc4823063078c47cb4)
  (.lf 0)) (.nd (.lf
  0x452f08e4acc452f48e48cc452808e46cc4527c8e44cc452a08e42cc457048e7dd0456f08e7bd0456e08e79d0456cc8e77d0456b08e75d04569c8e73d04568c8e71d04567c8e6fd04566c8e6dd04564c8e6bd0456388e69d0456208e67d04560c8e65d0455f48e63d0455e48e61d0455788e5fd0455588e5dd0455388e5bd0455248e59d0455108e57d0454f88e55d0454e88e53d0454d08e51d0454c08e4fd0454a88e4dd0454908e4bd0454808e49d0454508e47d0454248e45d0452b88e43d0452988e4110457248efecc4570c8efccc457208efacc457148ef8cc457108ef6cc457188ef4cc456c08ef2cc4572c8ef0cc457b08eeecc456588eeccc456508eeacc456288ee8cc4565c8ee6cc456048ee4cc457388ee2cc455808ee0cc455608edecc4554c8edccc455408edacc4553c8ed8cc455048ed6cc4556c8ed4cc454d88ed2cc457448ed0cc454b08ececc454988ecccc457b88ecacc4545c8ec8cc)
  (.lf 0)))

def shaWireTree426 : BTree :=
  .nd (.nd (.nd (.lf
  0x5dd84c978305db60c976785dd4cc976b45dd50c976305db44c974785db54c974b45db58c974305dab0c972785db04c972b45db3cc972305da98c970785daa0c970b45daa8c970305da20c96e785da8cc96eb45da90c96e305d9b8c96c785da10c96cb45da14c96c305d944c96a785d984c96ab45d9b0c96a305d8dcc968785d914c968b45d918c968305d874c966785d8a4c966b45d8d4c966305d818c964785d864c964b45d868c964305d7b0c962785d7d0c962b45d810c962305d744c960785d798c960b45d7a8c960305d6fcc95e785d708c95eb45d73cc95e305d6ecc95c785d6d8c95cb45d6f0c95c305d5f0c95a785d6c8c95ab45d6ccc95a305d580c958785d5e4c958b45d5e8c958305d554c956785d574c956b45d578c956305d4e8c954785d4ecc954b45d54cc954305d4a0c952785d4ccc952b45d4d0c952305d42cc950785d454c950b45d45cc950305d3c4c94e785d3f8c94eb45d424c94e30)
  (.lf 0)) (.nd (.lf
  0x3c684881d2c3c658881b2c3c62c88192c3c60088172c3c5d488152c3c5a888132c3c57c88112c3c550880f2c3c524880d2c3c4f8880b2c3c4cc88092c3c4a088072c3c47488052c3c44888032c3c4388800cc452708c3f2c452488c3d2c4521c8c3b2c451f08c392c451c48c372c451948c352c451648c332c451348c312c451048c2f2c450d48c2d2c450a48c2b2c450788c292c4504c8c272c4501c8c252c44ff08c232c44fc48c212c44f988c1f2c44f6c8c1d2c44f408c1b2c44f148c192c44ee88c172c44ebc8c152c44e908c132c44e648c112c44e388c0f2c44e0c8c0d2c44de08c0b2c44db48c092c44d888c072c44d5c8c052c44d308c032c44d208c00cc3d2e4903f2c3d2bc903d2c3d290903b2c3d26490392c3d23890372c3d20c90352c3d1e090332c3d1b490312c3d188902f2c3d15c902d2c3d130902b2c3d10490292c3d0d890272c3d0ac90252c3d08090232c3d05490212c3d028901f2c)
  (.lf 0))) (.nd (.nd (.lf
  0x100cc272ff4101482730a010044272e1e100c4272eb4100c8272e140ffc0272b401003c272ca00ff402729400ffbc272aa00fec02727400ff3c2728a00fe402725400febc2726a00fdc02723f40fe3c2724a00fd3827221e0fdb82722b40fdbc2722140fcac27201e0fd2c2720b40fd302720140fc28271df40fca4271ea00fba0271c1e0fc20271cb40fc24271c140fb1c2719f40fb98271aa00fa9427181e0fb142718b40fb182718140fa0827161e0fa882716b40fa8c2716140f9842713f40fa002714a00f8fc27121e0f97c2712b40f9802712140f87027101e0f8f02710b40f8f42710140f7ec270d400f868270ea00f76c270b400f7e8270ca00f6ec2709400f768270aa00f66c2707400f6e82708a00f5ec2705400f6682706a00f56c2703400f5e82704a00f5682702a00f1c827fc780f1c427fcb40f1cc27fc300f1b427fa780f1b027fab40f1b827fa300f1a027f8780f19c27f8b40f1a427f830)
  (.lf 0)) (.nd (.lf
  0xe7e8316fd00e768316dd00e6e8316bd00e6683169d00e5e83167d00e56c3165d00e4e03163d00e4543161d00e3c8315fd00e338315dd00e2bc315bd00e22c3159d00e1b03157d00e1203155d00e0a43153d00e0143151d00df98314fd00df08314dd00de88314bd00de0c3149d00dd903147d00dd183145d00dca43143d00dc543141100ebe031becc0eb6831bccc0eb0831bacc0ea5c31b8cc0e9d031b6cc0e97031b4cc0e8f031b2cc0e87031b0cc0e7f031aecc0e77031accc0e6f031aacc0e67031a8cc0e5f031a6cc0e54431a4cc0e4b831a2cc0e42c31a0cc0e3a0319ecc0e340319ccc0e294319acc0e2343198cc0e1883196cc0e1283194cc0e07c3192cc0e01c3190cc0df70318ecc0df10318ccc0de90318acc0dde43188cc0dd683186cc0dcf03184cc0dc7c3182cc0eb7831bdd00eae831bbd00ea6c31b9d00e9e031b7d00e95031b5d00e8d031b3d00e85031b1d00e7d031afd00e75031add0)
  (.lf 0)))

def shaWireTree427 : BTree :=
  .nd (.nd (.nd (.lf
  0x5a968b712b45a96cb712145a6ecb70f405a6f4b710a05a6dcb70d405a6e8b70ea05a6ccb70bf45a6d8b70ca05a6c4b70a1e5a6c0b70ab45a6c8b70a145a5e8b707405a6b8b708a05a5e4b706a059b80b7fc7859b7cb7fcb459b84b7fc3059b68b7fa7859b64b7fab459b70b7fa3059b50b7f87859b58b7f8b459b5cb7f83059b44b7f67859b40b7f6b459b48b7f63059b30b7f47859b2cb7f4b459b34b7f43059b14b7f27859b18b7f2b459b1cb7f23059b04b7f07859b00b7f0b459b0cb7f03059af4b7ee7859af0b7eeb459af8b7ee3059ae0b7ec7859adcb7ecb459ae4b7ec3059ac8b7ea7859ac4b7eab459ad0b7ea3059ab4b7e87859ab0b7e8b459ab8b7e83059a9cb7e67859aa4b7e6b459aa8b7e63059a88b7e47859a84b7e4b459a8cb7e43059a74b7e27859a78b7e2b459a7cb7e23059a64b7e07859a60b7e0b459a6cb7e03059a54b7de7859a50b7deb459a58b7de3059a40b7dc7859a3cb7dcb4)
  (.lf 0)) (.nd (.lf
  0x3053066eb2c304a466e92c3042066e72c303a066e52c3032066e32c3029866e12c3020c66df2c3018066dd2c300fc66db2c3007c66d92c2fffc66d72c2ff7466d52c2fee866d32c2fe6466d12c2fde466cf2c2fd5c66cd2c2fcd066cb2c2fc4c66c92c2fbc466c72c2fb4066c52c2fabc66c32c2fa8866c0cc328dc6aff2c3287c6afd2c328086afb2c327906af92c327206af72c326b46af52c326486af32c325d86af12c325606aef2c324e06aed2c324606aeb2c323e06ae92c323606ae72c322e06ae52c3225c6ae32c321d06ae12c3214c6adf2c320cc6add2c320446adb2c31fc06ad92c31f406ad72c31eb86ad52c31e2c6ad32c31da06ad12c31d146acf2c31c886acd2c31c046acb2c31b846ac92c31b0c6ac72c347d86eff2c347746efd2c346fc6efb2c346806ef92c346046ef72c345886ef52c3450c6ef32c344906ef12c3441c6eef2c343a46eed2c343306eeb2c342b86ee92c342406ee72c)
  (.lf 0))) (.nd (.nd (.lf
  0x23f2c482c7823f30482c3023e20482ab423e9c482a7823ea0482a3023d984828b423e1448287823e1848283023d104826b423d8c48267823d9048263023c884824b423d0448247823d0848243023c004822b423c7c48227823c8048223023b704820b423bf448207823bf848203023adc481eb423b64481e7823b68481e3023a50481cb423ad0481c7823ad4481c30239c8481ab423a44481a7823a48481a30239384818b4239bc481878239c0481830238a44816b42392c48167823930481630238104814b4238984814782389c481430237844812b42380448127823808481230236f44810b4237784810782377c48103023664480eb4236e8480e78236ec480e30235d4480cb423658480c782365c480c3023544480ab4235c8480a78235cc480a30234b04808b4235384808782353c480830234184806b4234a4480678234a8480630233704804b42340c48047823410480430232dc4802b423364480278)
  (.lf 0)) (.nd (.lf
  0x4a140acdd0049880acbd0049040ac9d0048840ac7d0047fc0ac5d0047700ac3d0046c80ac110041680bfecc041700bfccc041780bfacc041800bf8cc041880bf6cc041900bf4cc041980bf2cc041a00bf0cc041a80beecc041b00beccc041b80beacc041c00be8cc041c80be6cc041d00be4cc041d80be2cc041e00be0cc041e80bdecc041f00bdccc041f80bdacc042000bd8cc042080bd6cc042100bd4cc042180bd2cc042200bd0cc042280bcecc042300bcccc042380bcacc042400bc8cc042480bc6cc042500bc4cc042580bc2cc044bc0bfdd0044a80bfbd0044940bf9d0044800bf7d00446c0bf5d0044580bf3d0044440bf1d0044300befd00441c0bedd0044080bebd0043f40be9d0043e00be7d0043cc0be5d0043b80be3d0043a40be1d0043900bdfd00437c0bddd0043680bdbd0043540bd9d0043400bd7d00432c0bd5d0043180bd3d0043040bd1d0042f00bcfd0042dc0bcdd0042c80bcbd0)
  (.lf 0)))

def shaWireTree428 : BTree :=
  .nd (.nd (.nd (.lf
  0x3382800174b3382c0017493383000174733834001745338380017433383c0017413384000173f3384400173d357b400173b357b8001739357bc001737357c0001735357c4001733357c8001731357cc00172f357d000172d357d400172b357d8001729357dc001727357e0001725357e4001723357e8001721357ec00171f357f000171d357f400171b357f8001719357fc0017173580000171535804001713358080017113772400170f3772800170d3772c00170b3773000170937734001707377380017053773c00170337740001701377440016ff377480016fd3774c0016fb377500016f9377540016f7377580016f53775c0016f3377600016f1377640016ef377680016ed3776c0016eb377700016e9377740016e7377780016e5396a00016e3396a40016e1396a80016df396ac0016dd396b00016db396b40016d9396b80016d7396bc0016d5396c00016d3396c40016d1396c80016cf396cc0016cd)
  (.lf 0)) (.nd (.lf
  0x2d02467a0782d028679e782cfa0679c782cba8679a782cb646798782cb686796782cb6c6794782cb706792782cb746790782cb78678e782caa8678c782ca1c678a782ca206788782ca246786782ca286784782d4346782782ca2c6780782f18467be302f18867bc302f18c67ba302f19067b8302f19467b6302f10467b4302f0c467b2302f01867b0302f01c67ae302f02067ac302f02467aa302f02867a8302f31467a6302ef8067a4302ef3467a2302ef3867a0302ef3c679e302ef40679c302f270679a302eb246798302eaf86796302eaa86794302eaac6792302eab06790302eab4678e302eab8678c302eabc678a302e9686788302e9286786302e92c6784302e9306782302e934678030311c86bbeb4311cc6bbcb4311f46bbab4311646bb8b4312646bb6b4310fc6bb4b4310a46bb2b43104c6bb0b430ff46baeb430fb06bacb430f786baab430f4c6ba8b430f246ba6b430efc6ba4b430ed46ba2b4)
  (.lf 0))) (.nd (.nd (.lf
  0x236044b0caa233a04b04aa243544b3d40241284b35f4240984b33f4240084b31f423f784b2ff423ee84b2df423e584b2b4023b1c4b1ff423a884b1d40238e44b17f4238504b15f4237bc4b1340236a44b0ff4236144b0df42357c4b0b40242cc4b3b40243504b3ca0242444b3940242c84b3aa0241bc4b37f4242404b38a02412c4b361e241b44b36b4241b84b36142409c4b341e241204b34b4241244b34142400c4b321e240904b32b4240944b321423f7c4b301e240004b30b4240044b301423eec4b2e1e23f704b2eb423f744b2e1423e5c4b2c1e23ee04b2cb423ee44b2c1423dd04b294023e544b2aa023d484b274023dcc4b28a023cc04b254023d444b26a023c384b234023cbc4b24a023bb04b21f423c344b22a023b204b201e23ba84b20b423bac4b201423a8c4b1e1e23b144b1eb423b184b1e1423a004b1b4023a844b1ca0239784b19f4239fc4b1aa0238e84b181e239704b18b4239744b1814)
  (.lf 0)) (.nd (.lf
  0x5241cb567d05240cb565d0523dcb563d0523b8b561d052394b55fd05236cb55dd05232cb55bd05231cb559d0522e0b557d0522b8b555d052294b553d052284b551d051e98b54fd051dd0b54dd051d94b54bd051d30b549d051ce0b547d0519e0b545d05196cb543d0518f8b541105225cb5becc52240b5bccc52208b5bacc521f8b5b8cc52218b5b6cc52220b5b4cc521c0b5b2cc52128b5b0cc52110b5aecc52108b5accc520c8b5aacc520c4b5a8cc52070b5a6cc52030b5a4cc5299cb5a2cc51ff8b5a0cc51fc4b59ecc51fa4b59ccc51f5cb59acc51f18b598cc51f00b596cc52a7cb594cc52994b592cc51eacb590cc52998b58ecc51de8b58ccc51d8cb58acc51d1cb588cc51cf0b586cc519b4b584cc51934b582cc52e98b5bdd052e74b5bbd052d8cb5b9d052d68b5b7d052d34b5b5d052d20b5b3d052cc8b5b1d052cb4b5afd052c50b5add052bd4b5abd052bc0b5a9d052bacb5a7d052b9cb5a5d0)
  (.lf 0)))

def shaWireTree429 : BTree :=
  .nd (.nd (.nd (.lf
  0x6d790dbe8786d78cdbe8b46d794dbe8306d778dbe6786d77cdbe6b46d780dbe6306d764dbe4786d768dbe4b46d76cdbe4306d748dbe2786d754dbe2b46d758dbe2306d738dbe0786d73cdbe0b46d740dbe0306d72cdbde786d728dbdeb46d730dbde306d708dbdc786d710dbdcb46d71cdbdc306d6fcdbda786d6f8dbdab46d700dbda306d6e8dbd8786d6ecdbd8b46d6f0dbd8306d6dcdbd6786d6d4dbd6b46d6e0dbd6306d6c8dbd4786d6c0dbd4b46d6ccdbd4306d600dbd2786d6b4dbd2b46d6b8dbd2306d5f0dbd0786d5ecdbd0b46d5f4dbd0306d5dcdbce786d5e0dbceb46d5e4dbce306d56cdbcc786d5d0dbccb46d5d4dbcc306d1f8dbca786d4d4dbcab46d4d8dbca306d144dbc8786d1e4dbc8b46d1f0dbc8306d130dbc6786d134dbc6b46d138dbc6306d090dbc4786d124dbc4b46d128dbc4306ce78dbc2786cfd4dbc2b46cfd8dbc2306fb14debc786fb1cdebcb46fb20debc306fb04deba78)
  (.lf 0)) (.nd (.lf
  0x31288005a7d3111c005a7b310c4005a793106c005a7731014005a7531248005a7331250005a7131258005a6f3118c005a6d31290005a6b31124005a69310cc005a6731074005a653101c005a6330fd0005a6132ed8005a5f32ee0005a5d32ee8005a5b32ef0005a5932ef8005a5732f00005a5532f08005a5332f10005a5132f18005a4f32f20005a4d32f28005a4b32f30005a4932f38005a4732f40005a4532f48005a4332f50005a4132f58005a3f32f60005a3d32f68005a3b32f70005a3932f78005a3732f80005a3532f88005a3332f90005a3132f98005a2f32fa0005a2d32fa8005a2b32fb0005a2932fb8005a2732fc0005a2532fc8005a2332fd0005a2134c44005a1f350d0005a1d34c4c005a1b34c54005a1934c5c005a1734c64005a1534c6c005a1334c74005a1134c7c005a0f34c84005a0d3510c005a0b34c8c005a09350d8005a0734c94005a0534c9c005a0334ca4005a0134cac0059ff)
  (.lf 0))) (.nd (.nd (.lf
  0x4153c840e304150c840cb4414ec840c7841510840c30414e0840ab4414c0840a78414e4840a30414b48408b441494840878414b8840830414888406b4414688406784148c8406304145c8404b44143c84047841460840430414308402b441420840278414348402303c95888bcb43c95488bc783c95c88bc303c93088bab43c92c88ba783c93488ba303c90488b8b43c90088b8783c90888b8303c8d888b6b43c8d488b6783c8dc88b6303c8ac88b4b43c8a888b4783c8b088b4303c88088b2b43c87c88b2783c88488b2303c85488b0b43c85088b0783c85888b0303c82888aeb43c82488ae783c82c88ae303c7fc88acb43c7f888ac783c80088ac303c7d088aab43c7cc88aa783c7d488aa303c7a488a8b43c7a088a8783c7a888a8303c77888a6b43c77488a6783c77c88a6303c74c88a4b43c74888a4783c75088a4303c72088a2b43c71c88a2783c72488a2303c6f488a0b43c6f088a0783c6f888a030)
  (.lf 0)) (.nd (.lf
  0x252084e89d0251d04e87d0251904e85d0251604e83d0251244e81101b7e84e7ecc1b7ac4e7ccc1b7684e7acc1b7244e78cc1b6e04e76cc1b69c4e74cc1b6584e72cc1b6144e70cc1b5d04e6ecc1b58c4e6ccc1b5484e6acc1b5044e68cc1b4c04e66cc1b47c4e64cc1b4384e62cc1b3f44e60cc1b3b04e5ecc1b36c4e5ccc1b3284e5acc1b2e44e58cc1b2a04e56cc1b25c4e54cc1b2184e52cc1b1d44e50cc1b1904e4ecc1b14c4e4ccc1b1084e4acc1b0c44e48cc1b0804e46cc1b03c4e44cc1aff84e42cc1b7bc4e7dd01b7784e7bd01b7344e79d01b6f04e77d01b6ac4e75d01b6684e73d01b6244e71d01b5e04e6fd01b59c4e6dd01b5584e6bd01b5144e69d01b4d04e67d01b48c4e65d01b4484e63d01b4044e61d01b3c04e5fd01b37c4e5dd01b3384e5bd01b2f44e59d01b2b04e57d01b26c4e55d01b2284e53d01b1e44e51d01b1a04e4fd01b15c4e4dd01b1184e4bd01b0d44e49d01b0904e47d0)
  (.lf 0)))

def shaWireTree430 : BTree :=
  .nd (.nd (.nd (.lf
  0x2cb946d5ab42cf7c6d5a302cb806d58782cb846d58b42cb886d58302cb046d56782cb086d56b42cb0c6d56302caf46d54782caf86d54b42cafc6d54302cae06d52782cae46d52b42cae86d52302cad06d50782cacc6d50b42cad46d50302cab86d4e782cabc6d4eb42cac06d4e302ca906d4c782ca946d4cb42caac6d4c302ca846d4a782ca7c6d4ab42ca886d4a302c9bc6d48782c9c46d48b42c9c86d48302c9b06d46782c9846d46b42c9b46d46302c9446d44782c9486d44b42c94c6d44302c9006d42782c9086d42b42c90c6d42302ceac6dbc782ceb06dbcb42ceb46dbc302ce986dba782ce9c6dbab42cea46dba302ce846db8782ce806db8b42ce886db8302ce706db6782ce746db6b42ce786db6302ce5c6db4782ce606db4b42ce646db4302ce486db2782ce4c6db2b42ce506db2302ce386db0782ce346db0b42ce3c6db0302ce246dae782ce286daeb42ce2c6dae302ce146dac782ce186dacb4)
  (.lf 0)) (.nd (.lf
  0x71380003a7d71388003a7b71390003a7971398003a7771260003a7571268003a7371270003a7171278003a6f71280003a6d71288003a6b7128c003a6971294003a677129c003a65712a4003a63712ac003a6171d34003a5f71d38003a5d71d40003a5b71d48003a5971d50003a5771c58003a5571b54003a5371ae8003a5171af0003a4f71af8003a4d720d4003a4b720dc003a49720e4003a47720ec003a4572048003a4372050003a4172138003a3f720f4003a3d720fc003a3b72104003a397210c003a3772114003a357211c003a3372140003a3172058003a2f72144003a2d71f28003a2b71e9c003a2971ec0003a2771dfc003a2571e04003a2371e0c003a2172ac8003a1f72a9c003a1d72a7c003a1b72a28003a1972a30003a1772a34003a1572a3c003a1372a44003a1172a48003a0f72a50003a0d72cd8003a0b72ca4003a0972c7c003a0772c54003a0572d00003a0372c18003a0172bec0039ff)
  (.lf 0))) (.nd (.nd (.lf
  0x103c028cb401044028c3001004028a7801000028ab401008028a3000fcc02887800fc80288b400fd002883000f8c02867800f880286b400f9002863000f5c02847800f580284b400f6002843000f3002827800f2c0282b400f3402823000890027cb40088c027c7800894027c300087c027ab400878027a7800880027a30008680278b4008640278780086c027830008540276b40085002767800858027630008400274b40083c027478008440274300082c0272b40082802727800830027230008180270b4008140270780081c02703000804026eb400800026e7800808026e30007f0026cb4007ec026c78007f4026c30007dc026ab4007d8026a78007e0026a30007c80268b4007c4026878007cc026830007b40266b4007b0026678007b8026630007a00264b40079c026478007a40264300078c0262b40078802627800790026230007780260b4007740260780077c02603000764025eb400760025e78)
  (.lf 0)) (.nd (.lf
  0x67500ce45d067474ce43d067288ce411067fa8cefecc67f90cefccc67fb0cefacc67fb8cef8cc68630cef6cc685f8cef4cc6863ccef2cc685eccef0cc6860cceeecc67f04ceeccc67fb4ceeacc67ed4cee8cc6822ccee6cc67ea8cee4cc686a0cee2cc68238cee0cc67e70cedecc68458cedccc683d8cedacc67eecced8cc67e28ced6cc68254ced4cc67ac0ced2cc67574ced0cc675a4cececc67548cecccc67590cecacc675c0cec8cc67508cec6cc67488cec4cc672d0cec2cc68faccefdd068ed8cefbd068d2ccef9d068ae0cef7d068ac4cef5d068ab4cef3d068aa4cef1d068618ceefd068560ceedd06854cceebd068534cee9d06851ccee7d068508cee5d0684f4cee3d0684e4cee1d0684d0cedfd0684c0ceddd068440cedbd068314ced9d0682fcced7d0682b0ced5d067ab8ced3d067a58ced1d0679e8cecfd067970cecdd0675d4cecbd0675b0cec9d06759ccec7d067494cec5d06745ccec3d0)
  (.lf 0)))

def shaWireTree431 : BTree :=
  .nd (.nd (.nd (.lf
  0x46ea89330b446eac93301446e10932d4046e18932ea046dd8932b4046e0c932ca046db493294046dd4932aa046d909327f446db09328a046d6093261e46d7c9326b446d8c93261446d3c9323f446d589324a046d1093221e46d289322b446d3893221446ce8931f4046d089320a046cc4931df446ce4931ea046c90931c1e46cb4931cb446cc0931c1446c68931a1e46c84931ab446c88931a1446c3493181e46c5c9318b446c6093181446c1093154046c2c9316a046be09313f446c0c9314a046bbc93121e46bd89312b446bdc93121446b8893101e46bb09310b446bb493101446b54930df446b80930ea046b2c930c1e46b4c930cb446b50930c1446aa49309f446b18930aa046a4c93081e46a9c9308b446aa093081446a449306a04794c93fc784794093fcb44795093fc304792893fa784793493fab44793893fa304791893f8784791c93f8b44792093f8304790493f678478f893f6b44790893f630)
  (.lf 0)) (.nd (.lf
  0x2d80c62932c2d7f862912c2d7e4628f2c2d7d0628d2c2d7bc628b2c2d7a862892c2d79462872c2d78062852c2d76c62832c2d7686280cc2f91466bf2c2f90066bd2c2f8ec66bb2c2f8d866b92c2f8c466b72c2f8b066b52c2f89c66b32c2f88866b12c2f87466af2c2f86066ad2c2f84c66ab2c2f83866a92c2f82466a72c2f81066a52c2f7fc66a32c2f7e866a12c2f7d4669f2c2f7c0669d2c2f7ac669b2c2f79866992c2f78466972c2f77066952c2f75c66932c2f74866912c2f734668f2c2f720668d2c2f70c668b2c2f6f866892c2f6e466872c2f6d066852c2f6bc66832c2f6b86680cc3187c6abf2c318686abd2c318546abb2c318406ab92c3182c6ab72c318186ab52c318046ab32c317f06ab12c317dc6aaf2c317c86aad2c317b46aab2c317a06aa92c3178c6aa72c317786aa52c317646aa32c317506aa12c3173c6a9f2c317286a9d2c317146a9b2c317006a992c316ec6a972c316d86a952c)
  (.lf 0))) (.nd (.nd (.lf
  0x504eca62050504aca61e50504b0a61c50504b4a61a5050454a6185050170a61650500aca614504ffbca612504ff60a610504fcc0a60e504fc4ca60c504f78ca60a504f76ca608504f754a606504f720a604504f6c4a602504f5d8a6005050754aa3e7850738aa3c7850768aa3a7850708aa38785070caa3678506b8aa347850618aa3278505e8aa3078505f8aa2e78505acaa2c78505b0aa2a78505b4aa2878505b8aa267850514aa2478504e4aa2278504f4aa2078504c4aa1e78504c8aa1c78504ccaa1a785045caa187850178aa1678500b4aa14784ffc4aa12784ff68aa10784fcc8aa0e784fc54aa0c784f794aa0a784f774aa08784f75caa06784f728aa04784f6ccaa02784f5e0aa007852ea0aa3e5052e80aa3c5052d9caa3a5052d78aa385052d40aa365052d44aa345052cd4aa325052cd8aa305052c5caa2e5052bf8aa2c5052bdcaa2a5052be0aa285052c2caa265052b7caa245052c90aa2250)
  (.lf 0)) (.nd (.lf
  0x5a05cb408cc5a028b406cc5a004b404cc59fe0b402cc5ada4b43dd05ad8cb43bd05ad74b439d05ad64b437d05ad54b435d05ad38b433d05ad20b431d05ad0cb42fd05acf4b42dd05acdcb42bd05acc4b429d05aca4b427d05ac5cb425d05ac28b423d05ab7cb421d05ab6cb41fd05a58cb41dd05a574b41bd05a554b419d05a544b417d05a52cb415d05a514b413d05a504b411d05a4d4b40fd05a4a4b40dd05a474b40bd05a444b409d05a3f4b407d05a3e4b405d05a2acb403d05a29cb4011058b10b8becc58b18b8bccc58b20b8bacc58b28b8b8cc58b30b8b6cc58b38b8b4cc58b40b8b2cc58b48b8b0cc59e18b8aecc58b54b8accc59e10b8aacc58bb8b8a8cc59e08b8a6cc58bc4b8a4cc59e00b8a2cc58bd0b8a0cc59df8b89ecc58bdcb89ccc59df0b89acc58be8b898cc59de8b896cc58bf4b894cc59de0b892cc58c00b890cc59dd8b88ecc58c0cb88ccc59dd0b88acc58c18b888cc59dc8b886cc)
  (.lf 0)))

def shaWireTree432 : BTree :=
  .nd (.nd (.nd (.lf
  0x55164b97f2c5511cb97d2c550dcb97b2c5509cb9792c54fdcb9772c551a0b9752c54f8cb9732c54f48b9712c5500cb96f2c54f00b96d2c54ed0b96b2c54e9cb9692c54e70b9672c54e30b9652c54e10b9632c54de4b9612c54dc0b95f2c54d94b95d2c54d6cb95b2c54d48b9592c54d1cb9572c54ce4b9552c54cf8b9532c54cb0b9512c54c8cb94f2c54e4cb94d2c53e44b94b2c53e6cb9492c53d50b9472c53d20b9452c53c5cb9432c53c20b940cc57168bd7f2c57018bd7d2c56ff4bd7b2c57074bd792c56ee0bd772c56e6cbd752c56db0bd732c56d10bd712c56c44bd6f2c56becbd6d2c56bb4bd6b2c56b80bd692c56b58bd672c56a74bd652c56a14bd632c56994bd612c569acbd5f2c569d8bd5d2c56948bd5b2c56924bd592c568b8bd572c5676cbd552c56734bd532c566d8bd512c56694bd4f2c56680bd4d2c56670bd4b2c56508bd492c564e8bd472c55fdcbd452c55f74bd432c55f1cbd40cc)
  (.lf
  0x3794c748dd03791c748bd0378ec7489d0378bc7487d0378907485d0378647483d0378287481101e1d8747ecc1e1e0747ccc1e1e8747acc1e2647478cc1e26c7476cc1e2747474cc1e27c7472cc1e2847470cc1e28c746ecc1e294746ccc1e29c746acc1e2a47468cc1e2ac7466cc1e2b47464cc1e2bc7462cc1e2c47460cc1e2cc745ecc1e2d4745ccc1e2dc745acc1e2e47458cc1e2ec7456cc1e2f47454cc1e2fc7452cc1e3047450cc1e30c744ecc1e314744ccc1e31c744acc1e3247448cc1e32c7446cc1e3347444cc1e33c7442cc1e5a0747dd01e58c747bd01e5787479d01e5647477d01e5507475d01e53c7473d01e5287471d01e514746fd01e500746dd01e4ec746bd01e4d87469d01e4c47467d01e4b07465d01e49c7463d01e4887461d01e474745fd01e460745dd01e44c745bd01e4387459d01e4247457d01e4107455d01e3fc7453d01e3e87451d01e3d4744fd01e3c0744dd01e3ac744bd0))
  (.nd (.lf
  0x5989c002d81597e8002d7f597ec002d7d597f0002d7b59850002d7959740002d7759700002d755969c002d73596a0002d71596a4002d6f59628002d6d595f8002d6b595d4002d69595ac002d675957c002d6559580002d6359584002d615bab8002d5f5bad4002d5d5bf50002d5b5bef4002d595bdbc002d575bd80002d555bd54002d535bcd4002d515be50002d4f5be04002d4d5bc78002d4b5bc38002d495bc3c002d475bf54002d455bef8002d435bdc0002d415bd84002d3f5bd58002d3d5bcd8002d3b5be54002d395be08002d375bc7c002d355bc40002d335bc44002d315bc48002d2f5bc4c002d2d5bba0002d2b5bb70002d295bb44002d275bb24002d255bb28002d235babc002d215d60c002d1f5d5b0002d1d5e12c002d1b5e008002d195ddc0002d175dec0002d155de70002d135dbdc002d115db20002d0f5dac0002d0d5da6c002d0b5dca8002d095d9a0002d075e130002d055e00c002d03)
  (.lf 0))) (.nd (.nd (.lf
  0x3722077e8303720877e6783720077e6b43720c77e630371f477e478371ec77e4b4371f877e430371d477e278371e077e2b4371e477e230371c877e078371c077e0b4371cc77e030371b477de78371b077deb4371b877de30371a077dc783719877dcb4371a477dc303718c77da783718877dab43719077da303717877d8783717477d8b43717c77d8303716477d6783716077d6b43716877d6303715077d4783714c77d4b43715477d4303713077d2783713477d2b43713877d2303712077d0783712477d0b43712877d0303711477ce783711077ceb43711877ce303710077cc78370fc77ccb43710477cc30370ec77ca78370e877cab4370f077ca30370dc77c878370d877c8b4370e077c830370c877c678370c477c6b4370cc77c630370b477c478370b077c4b4370b877c430370a077c2783709c77c2b4370a477c2303963c7abc78396387abcb4396407abc30396287aba78396247abab43962c7aba30)
  (.lf 0)) (.nd (.lf
  0x76c480062f376bf80062f176b6c0062ef777b00062ed776380062eb774c40062e9773700062e7772040062e5770ec0062e376fe00062e1785440062df785040062dd784c80062db783f80062d9784600062d7783640062d5788f40062d3787280062d17884c0062cf786f00062cd786180062cb788fc0062c9787580062c7788540062c5786f40062c3786200062c1785c80062bf787600062bd785480062bb785080062b9784cc0062b7783fc0062b5784640062b3783940062b17832c0062af789000062ad7872c0062ab7885c0062a9786fc0062a7786240062a5785cc0062a3787640062a17a1fc00629f7a1c400629d7a16400629b7a1680062997a19c0062977a0f00062957a49c0062937a3fc0062917a3b400628f7a4e400628d7a34800628b7a4a40062897a4000062877a3b80062857a4e80062837a34c0062817a2b400627f7a23400627d7a20000627b7a1c80062797a16c0062777a174006275)
  (.lf 0)))

def shaWireTree433 : BTree :=
  .nd (.nd (.nd (.lf
  0xb3302962b40b3342962300b2242960780b2a42960b40b2a82960300b194295e780b218295eb40b21c295e300b114295c780b188295cb40b18c295c300b094295a780b108295ab40b10c295a300b0142958780b0882958b40b08c2958300af942956780b0082956b40b00c2956300af182954780af882954b40af8c2954300ae882952780af0c2952b40af102952300ae0c2950780ae7c2950b40ae802950300ad7c294e780ae00294eb40ae04294e300ad00294c780ad70294cb40ad74294c300ac70294a780acf4294ab40acf8294a300abf02948780ac642948b40ac682948300ab802946780abe42946b40abe82946300ab082944780ab742944b40ab782944300aabc2942780aafc2942b40ab002942300b9dc29bc780b96829bcb40b9e029bc300b95c29ba780b8ec29bab40b96029ba300b8e029b8780b85c29b8b40b8e429b8300b85029b6780b7dc29b6b40b85429b6300b7d029b4780b76029b4b4)
  (.lf 0)) (.nd (.lf
  0x7b0b4ebdd2c7b0a0ebdb2c7b084ebd92c7b06cebd72c7b058ebd52c7b028ebd32c7aff4ebd12c7af8cebcf2c7af64ebcd2c7af34ebcb2c7aef4ebc92c7aebcebc72c7ae90ebc52c79e74ebc32c79db0ebc0cc7b948efff2c7b94ceffd2c7b914effb2c7b900eff92c7b8f0eff72c7b8dceff52c7b8e0eff32c7b8aceff12c7b8e4efef2c7b888efed2c7b870efeb2c7b860efe92c7b848efe72c7b88cefe52c7b824efe32c7b92cefe12c7b828efdf2c7b7ecefdd2c7b7d8efdb2c7b7c4efd92c7b7b4efd72c7b7a0efd52c7b774efd32c7b758efd12c7b75cefcf2c7b648efcd2c7b5d8efcb2c7b660efc92c7b4c0efc72c7b48cefc52c7b404efc32c7b3ecefc0cc7da9cf3ff2c7da8cf3fd2c7daa0f3fb2c7da70f3f92c7da58f3f72c7da3cf3f52c7da2cf3f32c7da18f3f12c7d9fcf3ef2c7da04f3ed2c7d9e4f3eb2c7d9e0f3e92c7d9b0f3e72c7d9a4f3e52c7d988f3e32c7d970f3e12c7d980f3df2c)
  (.lf 0))) (.nd (.nd (.lf
  0x69878d01478699c0d0143069864d012b469860d0127869868d0123069848d010b46984cd0107869850d010306982cd00eb469838d00e7869840d00e3069820d00cb46981cd00c7869824d00c3069808d00ab46980cd00a7869810d00a30696e8d008b4696e4d00878696ecd00830696d8d006b4695e4d00678696dcd00630695d8d004b4695bcd00478695dcd00430695b0d002b4695acd00278695b4d0023068214d4bcb468218d4bc7868220d4bc3068208d4bab468204d4ba786820cd4ba30681f4d4b8b4681ecd4b878681f8d4b830681e0d4b6b4681d8d4b678681e4d4b630681ccd4b4b4681c4d4b478681d0d4b430681b8d4b2b4681b4d4b278681bcd4b230681a4d4b0b4681a0d4b078681a8d4b0306818cd4aeb468188d4ae7868190d4ae306817cd4acb468174d4ac7868180d4ac3068158d4aab468168d4aa786816cd4aa3068144d4a8b468148d4a8786814cd4a83068130d4a6b468134d4a678)
  (.lf 0)) (.nd (.lf
  0x4d8489e63d04d8349e61d04d8209e5fd04d80c9e5dd04d7f89e5bd04d7589e59d04d7449e57d04d7349e55d04d3a89e53d04d3989e51d04d3809e4fd04d2ec9e4dd04d2dc9e4bd04d2c49e49d04d2b49e47d04d29c9e45d04d2849e43d04d1cc9e41104df549efecc4df3c9efccc4df589efacc4df109ef8cc4def49ef6cc4dc809ef4cc4dc7c9ef2cc4dd689ef0cc4dc309eeecc4daf49eeccc4db1c9eeacc4dafc9ee8cc4daa09ee6cc4d8889ee4cc4d86c9ee2cc4d8689ee0cc4d8649edecc4d8609edccc4d7e49edacc4d7689ed8cc4d7749ed6cc4d3b09ed4cc4d3c09ed2cc4d3949ed0cc4d2fc9ececc4d58c9ecccc4d2cc9ecacc4d3609ec8cc4d2a49ec6cc4d28c9ec4cc4d3009ec2cc4e0ec9efdd04e0d89efbd04dff49ef9d04dfd49ef7d04dd909ef5d04dd809ef3d04dd709ef1d04dc389eefd04db409eedd04db2c9eebd04db0c9ee9d04dae49ee7d04d9c49ee5d04d9b09ee3d04d9989ee1d0)
  (.lf 0)))

def shaWireTree434 : BTree :=
  .nd (.nd (.nd (.lf
  0x685b0dda07868580dda0b4685b4dda03068574dd9e7868474dd9eb468578dd9e3068468dd9c78683f4dd9cb46846cdd9c30683e8dd9a78683c8dd9ab4683ecdd9a30683acdd9878683a4dd98b4683c0dd983068398dd967868328dd96b46839cdd96306831cdd947867adcdd94b468320dd943067accdd927867a30dd92b467ad4dd9230679fcdd9078679a0dd90b467a28dd90306798cdd8e786770cdd8eb467990dd8e3067700dd8c78676e8dd8cb467704dd8c30676a8dd8a786766cdd8ab4676e0dd8a3067644dd8878675fcdd88b467664dd8830675e4dd8678674e8dd86b4675e8dd8630674a8dd847867450dd84b4674e0dd843067404dd8278673e8dd82b467448dd82306adb4e17c786adb8e17cb46adbce17c306ad10e17a786ad5ce17ab46adace17a306ac60e178786ad04e178b46ad08e178306ac54e176786ac08e176b46ac58e176306abf0e174786abe8e174b46ac00e174306ab94e17278)
  (.lf 0)) (.nd (.lf
  0x3e280a1c5003e2c0a1a5003e300a185003e340a165003e380a145003e3c0a125003e400a105003e440a0e5003e480a0c5003e4c0a0a5003e500a085003e540a065003e580a045003e5c0a025003e600a005000c80063e7800c84063c7800c88063a7800c8c06387800c9006367800c9406347800c9806327800c9c06307800ca0062e7800ca4062c7800ca8062a7800cac06287800cb006267800cb406247800cb806227800cbc06207800cc0061e7800cc4061c7800cc8061a7800ccc06187800cd006167800cd406147800cd806127800cdc06107800ce0060e7800ce4060c7800ce8060a7800cec06087800cf006067800cf406047800cf806027800cfc06007801c58063e5001c5c063c5001c60063a5001c6406385001c6806365001c6c06345001c7006325001c7406305001c78062e5001c7c062c5001c80062a5001c8406285001c8806265001c8c06245001c9006225001c9406205001c98061e50)
  (.lf 0))) (.nd (.nd (.lf
  0x121e82fdcb4121f02fdc30121d82fda78121d42fdab4121dc2fda30121c42fd878121c02fd8b4121c82fd830121b02fd678121ac2fd6b4121b42fd6301219c2fd478121982fd4b4121a02fd430121882fd278121842fd2b41218c2fd230121742fd078121702fd0b4121782fd030121602fce781215c2fceb4121642fce301214c2fcc78121482fccb4121502fcc30121382fca78121342fcab41213c2fca30121242fc878121202fc8b4121282fc830121102fc6781210c2fc6b4121142fc630120fc2fc478120f82fc4b4121002fc430120e82fc278120e42fc2b4120ec2fc230148d432bc78148d032bcb4148d832bc301489032ba781488c32bab41489432ba301483832b8781483432b8b41483c32b830147dc32b678147d832b6b4147e032b6301478832b4781478432b4b41478c32b4301473832b2781473432b2b41473c32b230146e032b078146dc32b0b4146e432b0301469432ae781469032aeb4)
  (.lf 0)) (.nd (.lf
  0x2027c51aecc201c051accc2010451aacc2005051a8cc1ff9051a6cc1fed051a4cc1fe1451a2cc1fd5851a0cc1fc94519ecc1fbdc519ccc1fb1c519acc1fa5c5198cc1f9a05196cc1f8e45194cc1f8285192cc1f7745190cc1f6b4518ecc1f5f4518ccc1f530518acc1f4785188cc1f3c05186cc1f2fc5184cc1f22c5182cc20bd451bdd020bb451bbd020b9451b9d020b7451b7d020b5451b5d020b3451b3d020b1451b1d020af451afd020ad451add0209ac51abd02099851a9d02098451a7d02097051a5d02095c51a3d02094851a1d020934519fd020920519dd02090c519bd0208f85199d0208e45197d0208d05195d0208bc5193d0208a85191d020894518fd020880518dd02086c518bd0208585189d0208445187d01f30c5185d01f23c5183d01f1b051811021dbc557ecc221a4557ccc21dc0557acc221a05578cc21dc45576cc2219c5574cc21dc85572cc221985570cc21dcc556ecc22194556ccc)
  (.lf 0)))

def shaWireTree435 : BTree :=
  .nd (.nd (.nd (.lf
  0x603f4c2a478603f0c2a4b4603f8c2a430603e0c2a278603dcc2a2b4603e4c2a230603ccc2a078603c8c2a0b4603d0c2a030603b8c29e78603b4c29eb4603bcc29e30603a4c29c78603a0c29cb4603a8c29c3060390c29a7860394c29ab460398c29a306037cc2987860378c298b460380c2983060368c2967860364c296b46036cc2963060354c2947860350c294b46035cc2943060338c292786033cc292b460344c292306032cc2907860328c290b460330c2903060318c28e786031cc28eb460320c28e30602bcc28c7860304c28cb460308c28c30601e0c28a78602b0c28ab4602b4c28a30601d0c28878601ccc288b4601d4c28830601bcc28678601b8c286b4601c0c28630601a8c28478601acc284b4601b0c2843060184c2827860198c282b46019cc28230618e0c27cb4618ecc27c78618f0c27c30618ccc27ab4618c8c27a78618d0c27a30618b0c278b4618b4c27878618b8c278306187cc276b4)
  (.lf 0)) (.nd (.lf
  0x7aa6ceaf12c7aa4ceaef2c7a968eaed2c7a930eaeb2c7ada4eae92c7a910eae72c7a8f4eae52c7a8e8eae32c7a8d4eae12c7a8c4eadf2c7a8a0eadd2c7a88ceadb2c7a868ead92c7a870ead72c7a7f8ead52c7a6c8ead32c7a614ead12c7a600eacf2c7a5eceacd2c7a66ceacb2c7a5c8eac92c7a560eac72c7a448eac52c7cb94eeff2c7cb70eefd2c7cb54eefb2c7ce28eef92c7c980eef72c7c990eef52c7c958eef32c7c998eef12c7c934eeef2c7c8bceeed2c7c884eeeb2c7c840eee92c7c82ceee72c7c814eee52c7c7fceee32c7c7e4eee12c7c7d4eedf2c7c708eedd2c7c6a0eedb2c7c4a0eed92c7c4a4eed72c7c330eed52c7c310eed32c7c2fceed12c7c2eceecf2c7c4e0eecd2c7c2a8eecb2c7c1f8eec92c7c338eec72c7e178f2ff2c7e16cf2fd2c7e14cf2fb2c7e158f2f92c7e0d0f2f72c7e0a8f2f52c7e090f2f32c7e078f2f12c7e060f2ef2c7e04cf2ed2c7e034f2eb2c7e01cf2e92c)
  (.lf 0))) (.nd (.nd (.lf
  0x1c9545856301c93c5854b41c9385854781c9405854301c9285852b41c9245852781c92c5852301c9145850b41c9105850781c9185850301c900584eb41c8fc584e781c904584e301c8ec584cb41c8e8584c781c8f0584c301c8d8584ab41c8d4584a781c8dc584a301c8c45848b41c8c05848781c8c85848301c8b05846b41c8ac5846781c8b45846301c89c5844b41c8985844781c8a05844301c8885842b41c8845842781c88c5842302b300583cb42b360583c782b364583c302b28c583ab42b2f4583a782b2f8583a302b2185838b42b2805838782b2845838302b1a05836b42b20c5836782b2105836302b1285834b42b1945834782b1985834302b0b85832b42b11c5832782b1205832302b04c5830b42b0ac5830782b0b05830302afd8582eb42b040582e782b044582e302af68582cb42afcc582c782afd0582c302aef0582ab42af5c582a782af60582a302ae745828b42aee45828782aee8582830)
  (.lf 0)) (.nd (.lf
  0xcf0c1eadd00ce8c1eabd00ce0c1ea9d00cd841ea7d00ccf81ea5d00cc6c1ea3d00cbe81ea1d00cb681e9fd00cae81e9dd00ca601e9bd00c9dc1e99d00c9541e97d00c8c81e95d00c83c1e93d00c7b01e91d00c72c1e8fd00c6a41e8dd00c6181e8bd00c5941e89d00c50c1e87d00c4881e85d00c4001e83d00c3441e811006ff01e7ecc06fa41e7ccc06f381e7acc06ed81e78cc06e5c1e76cc06dfc1e74cc06d941e72cc06d181e70cc06ca41e6ecc06c441e6ccc06bc81e6acc06b541e68cc06af41e66cc06a781e64cc06a181e62cc0699c1e60cc069281e5ecc068b41e5ccc068541e5acc067d81e58cc067641e56cc067041e54cc066881e52cc066141e50cc065a01e4ecc065401e4ccc064c41e4acc064641e48cc063fc1e46cc063801e44cc063201e42cc06fb41e7dd006f481e7bd006ed01e79d006e6c1e77d006df41e75d006d8c1e73d006d281e71d006cb41e6fd006c3c1e6dd006bd81e6bd0)
  (.lf 0)))

def shaWireTree436 : BTree :=
  .nd (.nd (.nd (.lf
  0x1cf1c000f4b1cf20000f491cf24000f471cf28000f451cf2c000f431cf30000f411cf34000f3f1cf38000f3d1d29c000f3b1d2a0000f391d2a4000f371d2a8000f351d2ac000f331d2b0000f311d2b4000f2f1d2b8000f2d1d2bc000f2b1d2c0000f291d2c4000f271d2c8000f251d2cc000f231d2d0000f211d2d4000f1f1d2d8000f1d1d2dc000f1b1d2e0000f191d2e4000f171d2e8000f151d2ec000f131d2f0000f111d2f4000f0f1d2f8000f0d1d2fc000f0b1d300000f091d304000f071d308000f051d30c000f031d670000f011d674000eff1d678000efd1d67c000efb1d680000ef91d684000ef71d688000ef51d68c000ef31d690000ef11d694000eef1d698000eed1d69c000eeb1d6a0000ee91d6a4000ee71d6a8000ee51d6ac000ee31d6b0000ee11d6b4000edf1d6b8000edd1d6bc000edb1d6c0000ed91d6c4000ed71d6c8000ed51d6cc000ed31d6d0000ed11d6d4000ecf1d6d8000ecd)
  (.lf 0)) (.nd (.lf
  0x4620493a0b446208939eb44620c939cb446210939ab4462149398b4462189396b44621c9394b4464a89392b4459b09390b4458c4938eb4473e4938cb445844938ab4457809388b4455c49386b4453e49384b44538c9382b4453149380b4443fc93be784422093bc784413493ba78440f093b87843fd893b67843f1893b47843ed893b27843e2093b07843db493ae7843d1c93ac7843b4c93aa7843a9c93a87843a5093a678439fc93a4784390893a2784387c93a078437d4939e7843794939c78436c4939a784362c939878435a89396784351c93947843520939278434089390784335c938e78432d4938c7843244938a784324893887842d8c93867842c2493847842c2893827842c2c9380784622093be304622493bc304622893ba304622c93b8304623093b6304623493b4304623893b2304623c93b0304624093ae304624493ac304624893aa304624c93a8304625093a6304625493a4304625893a230)
  (.lf 0))) (.nd (.nd (.lf
  0x2663053f0302661853ee782661453eeb42661c53ee302660453ec782660053ecb42660853ec30265f053ea78265ec53eab4265f453ea30265dc53e878265d853e8b4265e053e830265c853e678265c453e6b4265cc53e630265b453e478265b053e4b4265b853e430265a053e2782659c53e2b4265a453e2302658c53e0782658853e0b42659053e0302657853de782657453deb42657c53de302656453dc782656053dcb42656853dc302655053da782654c53dab42655453da302653c53d8782653853d8b42654053d8302652853d6782652453d6b42652c53d6302651453d4782651053d4b42651853d4302650053d278264fc53d2b42650453d230264ec53d078264e853d0b4264f053d030264d853ce78264d453ceb4264dc53ce30264c453cc78264c053ccb4264c853cc302635853ca78264b053cab4264b453ca30262f453c8782634c53c8b42635053c830262e853c678262e453c6b4262ec53c630)
  (.lf 0)) (.nd (.lf
  0x64420d5a6cc63cecd5a4cc63c84d5a2cc63c9cd5a0cc63c6cd59ecc63ad0d59ccc63a58d59acc63a50d598cc639f4d596cc63658d594cc6366cd592cc63664d590cc6365cd58ecc63424d58ccc63130d58acc630fcd588cc62f7cd586cc62d20d584cc62c80d582cc644a4d5bdd064478d5bbd0642b4d5b9d0642a0d5b7d06427cd5b5d06425cd5b3d06424cd5b1d06423cd5afd0641fcd5add0641ecd5abd0641dcd5a9d063f7cd5a7d063d34d5a5d063c58d5a3d063c48d5a1d063c38d59fd063aecd59dd063aacd59bd063a30d599d063a14d597d0639b8d595d0639a4d593d0638b8d591d063878d58fd063850d58dd06383cd58bd063828d589d063818d587d062d60d585d062cc4d583d062c2cd5811066c00d97ecc66c04d97ccc66bfcd97acc6670cd978cc666b4d976cc665a0d974cc66580d972cc664b0d970cc664b8d96ecc66490d96ccc6647cd96acc6654cd968cc664ccd966cc664d0d964cc)
  (.lf 0)))

def shaWireTree437 : BTree :=
  .nd (.nd (.nd (.lf
  0x78f60e6ac3078f0ce6aa7878f24e6aab478f28e6aa3078e9ce6a87878eace6a8b478f04e6a83078e8ce6a67878e90e6a6b478e94e6a63078e7ce6a47878e74e6a4b478e80e6a43078e5ce6a27878e60e6a2b478e64e6a23078e18e6a07878e50e6a0b478e54e6a03078e00e69e7878e04e69eb478e10e69e3078dc4e69c7878dc8e69cb478dcce69c3078d20e69a7878d18e69ab478db8e69a3078d0ce6987878d08e698b478d10e6983078cf4e6967878cece696b478cf8e6963078ce0e6947878cdce694b478ce4e6943078c80e6927878cd0e692b478cd4e6923078c74e6907878b78e690b478c78e6903078b6ce68e7878a68e68eb478b70e68e3078a5ce68c7878a58e68cb478a60e68c3078a40e68a7878a3ce68ab478a44e68a3078a2ce6887878a30e688b478a34e68830789a4e6867878a04e686b478a08e68630788d4e68478788c8e684b47898ce6843078784e682787876ce682b478788e68230)
  (.lf 0)) (.nd (.lf
  0x79fb400527d79edc00527b79e2400527979e900052777ae7c0052757a02000527379fd400527179f6000526f79f4c00526d79efc00526b79ee000526979e580052677ae8800526579e3400526379dac0052617b3b400525f7b93400525d7b70400525b7b6c80052597b69c0052577b60c0052557b62c0052537b7280052517b4c800524f7b45800524d7b38c00524b7b3f00052497b3bc0052477b6fc0052457b6d80052437b68c0052417b61000523f7b78c00523d7b66800523b7b4d00052397b45c0052377b3880052357b7000052337b6e00052317b74400522f7b64000522d7b5d000522b7b59c0052297b4b80052277b4700052257b3700052237b3e80052217cc9000521f7cc5000521d7cf1c00521b7cec40052197cea00052177d88c0052157cdf00052137cde00052117cd7000520f7cd4c00520d7ccec00520b7cc8c0052097cfac0052077cf240052057cef40052037cea80052017d8a40051ff)
  (.lf 0))) (.nd (.nd (.lf
  0x48a549432b448a3494327848a5894323048a289430b448a0894307848a2c943030489fc942eb4489dc942e7848a00942e30489d0942cb4489b0942c78489d4942c30489a4942ab448984942a78489a8942a30489789428b4489589428784897c9428304894c9426b44892c94267848950942630489209424b44890094247848924942430488f49422b4488d4942278488f8942230488c89420b4488a8942078488cc9420304889c941eb44887c941e78488a0941e3048870941cb448850941c7848874941c3048844941ab448824941a7848848941a30488189418b4487f89418784881c941830487ec9416b4487cc941678487f0941630487c09414b4487a0941478487c4941430487949412b44877494127848798941230487689410b4487489410784876c9410304873c940eb44871c940e7848740940e3048710940cb4486f0940c7848714940c30486e4940ab4486c0940a78486e8940a30486b49408b4)
  (.lf 0)) (.nd (.lf
  0x25ba45e62cc25db45e60cc25b745e5ecc25b7c5e5ccc25bc85e5acc25b285e58cc25afc5e56cc25a845e54cc25a785e52cc25a905e50cc25a985e4ecc25a2c5e4ccc259b45e4acc259605e48cc259245e46cc258fc5e44cc258a45e42cc25f105e7dd025ee85e7bd025eb45e79d025ea05e77d025e8c5e75d025e785e73d025e645e71d025e505e6fd025e3c5e6dd025e285e6bd025e145e69d025e005e67d025dec5e65d025dd85e63d025dc45e61d025c005e5fd025bec5e5dd025bd85e5bd025b385e59d025b0c5e57d025ae45e55d025ad05e53d025abc5e51d025aa85e4fd025a3c5e4dd0259c45e4bd0259705e49d0259345e47d02590c5e45d0258c85e43d0258b05e41102c8bc5efecc2c8805efccc2c83c5efacc2c7f85ef8cc2c7bc5ef6cc2c77c5ef4cc2c7385ef2cc2c6fc5ef0cc2c6bc5eeecc2c6785eeccc2c6345eeacc2c5f05ee8cc2c5ac5ee6cc2c5705ee4cc2c5385ee2cc2c4f85ee0cc)
  (.lf 0)))

def shaWireTree438 : BTree :=
  .nd (.nd (.nd (.lf
  0x3680081843036770818278367008182b43677481823038f58857c7838fc8857cb438fcc857c3038ed0857a7838f44857ab438f48857a3038eac85787838ec48578b438ec885783038e1c85767838ea08576b438ea485763038d9085747838e108574b438e1485743038c8c85727838d848572b438d8885723038bf885707838c808570b438c8485703038b74856e7838bec856eb438bf0856e3038b00856c7838b60856cb438b64856c3038abc856a7838af0856ab438af4856a3038a5c85687838ab08568b438ab4856830389cc85667838a248566b438a2885663038968856478389c08564b4389c4856430388d48562783895c8562b438960856230388c8856078388c48560b4388cc856030387c4855e78388b0855eb4388b4855e3038544855c78387ac855cb4387b0855c3038458855a78384fc855ab438500855a30383e0855878384488558b4384508558303834c855678383d48556b4383d8855630)
  (.lf 0)) (.nd (.lf
  0x4faa8a89d2c4fa94a89b2c4fa80a8992c4fa6ca8972c4fa58a8952c4fa44a8932c4fa30a8912c4fa1ca88f2c4fa08a88d2c4f9f4a88b2c4f9e0a8892c4f9cca8872c4f9b8a8852c4f9a4a8832c4f9a0a880cc534acacbf2c53498acbd2c53484acbb2c53470acb92c5345cacb72c53448acb52c53434acb32c53420acb12c5340cacaf2c533f8acad2c533e4acab2c533d0aca92c533bcaca72c533a8aca52c53394aca32c53380aca12c5336cac9f2c53358ac9d2c53344ac9b2c53330ac992c5331cac972c53308ac952c532f4ac932c532e0ac912c532ccac8f2c532b8ac8d2c532a4ac8b2c53290ac892c5327cac872c53268ac852c53254ac832c53250ac80cc557a8b0bf2c55794b0bd2c55780b0bb2c5576cb0b92c55758b0b72c55744b0b52c55730b0b32c5571cb0b12c55708b0af2c556f4b0ad2c556e0b0ab2c556ccb0a92c556b8b0a72c556a4b0a52c55690b0a32c5567cb0a12c55668b09f2c)
  (.lf 0))) (.nd (.nd (.lf
  0x4eec0ade3004de00adcb404e600adc7804e640adc3004d540adab404dd40ada7804dd80ada3004cc80ad8b404d480ad87804d4c0ad83004c3c0ad6b404cbc0ad67804cc00ad63004bb80ad4b404c300ad47804c340ad43004b300ad2b404bac0ad27804bb00ad23004aa40ad0b404b240ad07804b280ad03004a180aceb404a980ace7804a9c0ace300498c0accb404a0c0acc7804a100acc30049080acab4049800aca78049840aca30048880ac8b4048fc0ac878049000ac830048000ac6b40487c0ac678048800ac630047740ac4b4047f40ac478047f80ac430046f80ac2b4047680ac2780476c0ac230056cc0b3eaa055d40b3aaa055480b38aa0543c0b34aa053300b30aa052a40b2eaa052180b2caa04e8c0b1eaa04e000b1caa04d740b1aaa04ce80b18aa04c5c0b16aa04b500b12aa04ac40b10aa04a380b0eaa049ac0b0caa048200b06aa047940b04aa047080b02aa056a00b3d40055a00b39f4)
  (.lf 0)) (.nd (.lf
  0x6fd20de43d06fcbcde411070924defecc7090cdefccc708f8defacc708d4def8cc708e8def6cc708b0def4cc70894def2cc70884def0cc70864deeecc70854deeccc70834deeacc7081cdee8cc70828dee6cc707f8dee4cc707dcdee2cc707c0dee0cc707d4dedecc70794dedccc70778dedacc70070ded8cc7006cded6cc70038ded4cc70040ded2cc70014ded0cc6ffd4dececc6ff30decccc764b4decacc6fe54dec8cc763c0dec6cc6fedcdec4cc762d0dec2cc762c0defdd0762acdefbd076294def9d076284def7d07626cdef5d076258def3d076244def1d076230deefd076218deedd076208deebd0761f0dee9d0761dcdee7d0761c4dee5d0761acdee3d076190dee1d076180dedfd07616cdeddd076154dedbd07613cded9d076128ded7d076110ded5d0760f8ded3d0760e0ded1d0760c8decfd0760b0decdd076090decbd076080dec9d076070dec7d07605cdec5d07604cdec3d07603cdec110)
  (.lf 0)))

def shaWireTree439 : BTree :=
  .nd (.nd (.nd (.lf
  0x49b889bd87849b809bd8b449b8c9bd83049b749bd67849b6c9bd6b449b789bd63049b609bd47849b589bd4b449b649bd43049b489bd27849b409bd2b449b509bd23049b349bd07849b2c9bd0b449b389bd03049b209bce7849b1c9bceb449b249bce3049b089bcc7849b0c9bccb449b109bcc3049af49bca7849afc9bcab449b009bca3049ae89bc87849ae49bc8b449aec9bc83049ad49bc67849ad09bc6b449ad89bc63049ab89bc47849ac09bc4b449ac49bc43049aac9bc27849aa89bc2b449ab09bc2304c5109ebc784c5149ebcb44c5189ebc304c5009eba784c4f89ebab44c5049eba304c4e49eb8784c4e89eb8b44c4ec9eb8304c4d89eb6784c4d49eb6b44c4dc9eb6304c4bc9eb4784c4c49eb4b44c4c89eb4304c4ac9eb2784c4b09eb2b44c4b49eb2304c4949eb0784c49c9eb0b44c4a09eb0304c4889eae784c4849eaeb44c48c9eae304c4749eac784c4709eacb44c4789eac304c45c9eaa78)
  (.lf 0)) (.nd (.lf
  0x778b0e2932c77898e2912c77880e28f2c7780ce28d2c7766ce28b2c77518e2892c77390e2872c77238e2852c77104e2832c76fe4e280cc79038e6bf2c79020e6bd2c7900ce6bb2c78ff0e6b92c78fd0e6b72c78fb4e6b52c78fa0e6b32c79194e6b12c78f78e6af2c78f30e6ad2c78f10e6ab2c78ea0e6a92c78e88e6a72c78e78e6a52c78e68e6a32c78e24e6a12c78e08e69f2c78dc0e69d2c78d1ce69b2c78d04e6992c78cf0e6972c78d24e6952c78c84e6932c78b7ce6912c78a6ce68f2c78a54e68d2c78a48e68b2c78a10e6892c78994e6872c788cce6852c78780e6832c78794e680cc7aa60eabf2c7aa44eabd2c7aa2ceabb2c7aa14eab92c7a9f8eab72c7a9e4eab52c7a9c8eab32c7a9b4eab12c7a990eaaf2c7a960eaad2c7a7e4eaab2c7a7d0eaa92c7a7b8eaa72c7a7a0eaa52c7a784eaa32c7a76ceaa12c7a754ea9f2c7a73cea9d2c7a724ea9b2c7a70cea992c7a6f8ea972c7a6d8ea952c)
  (.lf 0))) (.nd (.nd (.lf
  0x782d4e62050782a8e61e5078370e61c5078138e61a50780cce6185078090e6165077f84e6145077f44e6125077f58e6105077f00e60e5077838e60c50776a8e60a507759ce60850773b8e60650772e8e6045077164e6025077014e60050788e8ea3e787871cea3c7878840ea3a78786dcea38787860cea3678785c0ea34787874cea32787853cea3078784f0ea2e78784acea2c78783f0ea2a7878458ea287878360ea267878314ea2478782f8ea2278782dcea2078782b0ea1e7878378ea1c7878140ea1a78780d4ea187878098ea167877f8cea147877f4cea127877f60ea107877f08ea0e7877840ea0c78776b0ea0a78775a4ea0878773c0ea0678772f0ea04787716cea02787701cea00787a488ea3e507a3e4ea3c507a3acea3a507a4f0ea38507a358ea36507a2c4ea34507a218ea32507a1e8ea30507a1b0ea2e507a14cea2c507a12cea2a507a188ea28507a0e0ea26507a0b8ea24507a084ea2250)
  (.lf 0)) (.nd (.lf
  0x637cccc85d0637b8cc83d0637a0cc81106708ccc7ecc67094cc7ccc6709ccc7acc67118cc78cc67120cc76cc67128cc74cc67130cc72cc67138cc70cc67140cc6ecc67148cc6ccc67150cc6acc67158cc68cc67160cc66cc67168cc64cc67170cc62cc67178cc60cc67180cc5ecc67188cc5ccc67190cc5acc67198cc58cc671a0cc56cc671a8cc54cc671b0cc52cc671b8cc50cc671c0cc4ecc671c8cc4ccc671d0cc4acc671d8cc48cc671e0cc46cc671e8cc44cc671f0cc42cc6794ccc7dd067930cc7bd067910cc79d0678f8cc77d0678e8cc75d0678d4cc73d0678c0cc71d0678b0cc6fd067898cc6dd067880cc6bd067868cc69d06784ccc67d067838cc65d067820cc63d067808cc61d0677eccc5fd0677d8cc5dd0677c8cc5bd0677a8cc59d067790cc57d067780cc55d067768cc53d067308cc51d0672f0cc4fd0672d8cc4dd067268cc4bd067258cc49d067244cc47d067228cc45d067214cc43d0)
  (.lf 0)))

def shaWireTree440 : BTree :=
  .nd (.nd (.nd (.lf
  0x11d4839bf2c11cf839bd2c11c5439bb2c11bf439b92c11b7439b72c11ac839b52c11a6839b32c119e839b12c1196839af2c118e839ad2c1183c39ab2c117b039a92c1175039a72c116d039a52c1165039a32c115a439a12c11518399f2c114b8399d2c11438399b2c113b839992c1133839972c1128c39952c1122c39932c1118039912c110f4398f2c11094398d2c10fe8398b2c10f5c39892c10ed039872c10e4439852c10dc839832c10d903980cc136283dbf2c135b43dbd2c135543dbb2c134a83db92c134483db72c1339c3db52c1333c3db32c132903db12c132303daf2c131b03dad2c131303dab2c130b03da92c130043da72c12f783da52c12f183da32c12e983da12c12e183d9f2c12d6c3d9d2c12ce03d9b2c12c543d992c12bc83d972c12b3c3d952c12adc3d932c12a303d912c129a43d8f2c129183d8d2c128b83d8b2c128383d892c127b83d872c127383d852c1268c3d832c126503d80cc)
  (.lf
  0x237944891d023704488fd023674488dd0235e4488bd0235544889d0234c04887d0234284885d0233804883d0232904881101aa8c487ecc1aa94487ccc1aa9c487acc1ab184878cc1ab204876cc1ab284874cc1ab304872cc1ab384870cc1ab40486ecc1ab48486ccc1ab50486acc1ab584868cc1ab604866cc1ab684864cc1ab704862cc1ab784860cc1ab80485ecc1ab88485ccc1ab90485acc1ab984858cc1aba04856cc1aba84854cc1abb04852cc1abb84850cc1abc0484ecc1abc8484ccc1abd0484acc1abd84848cc1abe04846cc1abe84844cc1abf04842cc1ae54487dd01ae40487bd01ae2c4879d01ae184877d01ae044875d01adf04873d01addc4871d01adc8486fd01adb4486dd01ada0486bd01ad8c4869d01ad784867d01ad644865d01ad504863d01ad3c4861d01ad28485fd01ad14485dd01ad00485bd01acec4859d01acd84857d01acc44855d01acb04853d01ac9c4851d01ac88484fd0))
  (.nd (.lf
  0x76a74e7a078769ace79e787695ce79c7876904e79a7876878e7987876814e7967876758e79478766c0e79278766f4e790787669ce78e7876650e78c7876670e78a7876464e7887876468e78678763ace784787638ce782786fd00e7807879808e7be30798b0e7bc30797b8e7ba30797ace7b83079698e7b6307967ce7b4307961ce7b2307964ce7b0307950ce7ae3079480e7ac3079450e7aa30794ace7a83079404e7a630793dce7a430793a8e7a230793b4e7a03079368e79e3079338e79c3079310e79a3079308e7983078198e7963078020e7943077fe8e7923077fcce7903077face78e3077ad4e78c30776d8e78a30775c4e78830773cce78630772cce7843077130e7823077004e780307a02cebbeb479fe0ebbcb479f34ebbab479f54ebb8b479f04ebb6b479eccebb4b479e64ebb2b479e94ebb0b479e40ebaeb479d84ebacb479dc4ebaab479d4ceba8b479d24eba6b479cf4eba4b479ccceba2b4)
  (.lf 0))) (.nd (.nd (.lf
  0x308ac66fa783091866fa30308a066f8b43083c66f878308a466f8303083066f6b4307c866f6783083466f630307bc66f4b43075466f478307c066f4303074866f2b4306d466f2783074c66f230306c866f0b43065466f078306cc66f0303064866eeb4305d466ee783064c66ee30305c866ecb43055466ec78305cc66ec303054866eab4304cc66ea783054c66ea30304c066e8b43044066e878304c466e8303043466e6b4303bc66e6783043866e630303b066e4b43033c66e478303b466e4303033066e2b4302bc66e2783033466e230302b066e0b43023466e078302b466e0303022866deb4301a866de783022c66de303019c66dcb43011c66dc78301a066dc303011066dab43009866da783011466da303008c66d8b43001866d8783009066d8303000c66d6b42ff9866d6783001066d6302ff8c66d4b42ff1066d4782ff9066d4302ff0466d2b42fe8466d2782ff0866d2302fe7866d0b42fe0066d078)
  (.lf 0)) (.nd (.lf
  0x81e841462cc81e401460cc824ac145ecc81c04145ccc81be0145acc80c9c1458cc80c7c1456cc80c401454cc80c241452cc80c081450cc80bc0144ecc80bc8144ccc80be0144acc80a881448cc80a9c1446cc80a281444cc80a041442cc8288c147dd08287c147bd0828681479d0828581477d0828441475d0828301473d08281c1471d082804146fd0827f4146dd0827e0146bd0827cc1469d0827b41467d0827a41465d0827901463d08277c1461d082768145fd082754145dd081db4145bd080d281459d080d181457d080d081455d080cf41453d080ce01451d080ccc144fd080cb4144dd080ca4144bd080b6c1449d080aa81447d080a301445d0809fc1443d08037014411080594187ecc80508187ccc80870187acc8045c1878cc8043c1876cc803e01874cc8032c1872cc802cc1870cc802d0186ecc802fc186ccc8017c186acc800441868cc8004c1866cc7fff01864cc7ffc41862cc7ffa01860cc)
  (.lf 0)))

def shaWireTree441 : BTree :=
  .nd (.nd (.nd (.lf
  0x7f3d8f706aa7f264f702aa80234f73d4080218f73940801d4f733408015cf72b407ff50f727407f980f71bf47f8c8f719407f7f4f715f47f744f713407f58cf70df47f378f70bf47f248f709407f14cf7054080228f73bf480230f73ca08021cf73a1e80220f73ab480224f73a14801fcf7374080214f738a0801ecf735f4801f8f736a0801e0f7341e801e4f734b4801e8f73414801c4f73140801d0f732a0801b4f72f40801c0f730a0801a8f72df4801b0f72ea0801a0f72c1e8016cf72cb4801a4f72c1480150f729f480158f72aa07ff64f7281e7ff54f728b48014cf728147ff44f725407ff4cf726a07ff20f723407ff40f724a07ff14f721407ff1cf722a07ff08f71f407ff10f720a07fefcf71df47ff04f71ea07f984f71c1e7fef4f71cb47fef8f71c147f8ccf71a1e7f978f71ab47f97cf71a147f80cf717f47f8c4f718a07f7f8f7161e7f804f716b47f808f716147f748f7141e7f7ecf714b4)
  (.lf 0)) (.nd (.lf
  0x79c68eb9dd079c44eb9bd079c1ceb99d079aa8eb97d079a74eb95d079a88eb93d079930eb91d07989ceb8fd079884eb8dd079860eb8bd079714eb89d079644eb87d0795a0eb85d079520eb83d0794cceb81d07b738efbfd07b720efbdd07b690efbbd07b61cefb9d07b5ecefb7d07b5bcefb5d07b4e8efb3d07b46cefb1d07b384efafd07b40cefadd07b3b0efabd07b310efa9d07b32cefa7d07b2b4efa5d07b240efa3d07b20cefa1d07b194ef9fd07b1d0ef9dd07b1c8ef9bd07b1b4ef99d07b110ef97d07b798ef95d07b044ef93d07b014ef91d07afccef8fd07af7cef8dd07af58ef8bd07af0cef89d07aef0ef87d07afa0ef85d07a4ccef83d07a288ef81d07cf34f3bfd07cee0f3bdd07ced4f3bbd07d8b0f3b9d07ce08f3b7d07ce10f3b5d07cd98f3b3d07cda0f3b1d07cce4f3afd07cca4f3add07cc40f3abd07cca8f3a9d07cbf4f3a7d07ccb0f3a5d07cbb4f3a3d07cf98f3a1d07caf0f39fd0)
  (.lf 0))) (.nd (.nd (.lf
  0x578c8b48630578b0b484b4578acb48478578b4b484305789cb482b457898b48278578a0b482305a284b47cb45a280b47c785a28cb47c305a260b47ab45a274b47a785a278b47a305a254b478b45a250b478785a258b478305a240b476b45a23cb476785a244b476305a224b474b45a228b474785a22cb474305a218b472b45a214b472785a21cb472305a1f4b470b45a200b470785a204b470305a1e0b46eb45a1dcb46e785a1ecb46e305a1d0b46cb45a1ccb46c785a1d4b46c305a1b8b46ab45a1b4b46a785a1bcb46a305a1a0b468b45a19cb468785a1a4b468305a190b466b45a188b466785a194b466305a174b464b45a17cb464785a180b464305a164b462b45a15cb462785a168b462305a14cb460b45a144b460785a150b460305a12cb45eb45a130b45e785a138b45e305a114b45cb45a120b45c785a124b45c305a108b45ab45a104b45a785a10cb45a305a0e4b458b45a0e0b458785a0e8b45830)
  (.lf 0)) (.nd (.lf
  0x3dda87e6ccc3ddb07e6acc3ddac7e68cc3dda07e66cc3dd907e64cc3dd947e62cc3dd987e60cc3d9407e5ecc3d8f87e5ccc3d8b07e5acc3d8687e58cc3d8207e56cc3d7d87e54cc3d7907e52cc3d7487e50cc3d7007e4ecc3ddf87e4ccc3d6747e4acc3d62c7e48cc3ddf07e46cc3dde47e44cc3d55c7e42cc3e0987e7dd03e0807e7bd03e06c7e79d03e0547e77d03e03c7e75d03e0247e73d03e00c7e71d03dff47e6fd03dfdc7e6dd03dfc47e6bd03dfa07e69d03df887e67d03df787e65d03df607e63d03df4c7e61d03df347e5fd03df1c7e5dd03df047e5bd03deec7e59d03ded07e57d03deb87e55d03dea47e53d03de8c7e51d03de747e4fd03de5c7e4dd03de447e4bd03de2c7e49d03de187e47d03de047e45d03dddc7e43d03ddb87e41103e0a47efecc3e0907efccc3e09c7efacc3e0687ef8cc3e0447ef6cc3e0307ef4cc3e0187ef2cc3e0007ef0cc3dfe47eeecc3dfcc7eeccc3dfa87eeacc)
  (.lf 0)))

def shaWireTree442 : BTree :=
  .nd (.nd (.nd (.lf
  0x5018cb152b450a94b1523050180b150784ff34b150b450184b150304fc6cb14e784fcd8b14eb44fcdcb14e304f844b14c784fc60b14cb44fc64b14c304f824b14a784f838b14ab44f83cb14a304f814b148784f7fcb148b44f818b148304f7dcb146784f7e0b146b44f7e4b146304f7ccb144784f7bcb144b44f7d0b144304f5e4b142784f628b142b44f62cb1423050720b1bc7850724b1bcb45073cb1bc3050710b1ba7850714b1bab450718b1ba30506e4b1b878506e0b1b8b4506e8b1b830506c8b1b678506d0b1b6b4506d4b1b630506a4b1b478506bcb1b4b4506c0b1b43050608b1b27850698b1b2b45069cb1b230505dcb1b078505fcb1b0b450600b1b030505c8b1ae78505ccb1aeb4505d0b1ae30505bcb1ac7850588b1acb4505c0b1ac3050578b1aa7850574b1aab45057cb1aa305055cb1a87850564b1a8b450568b1a83050548b1a67850550b1a6b450554b1a63050504b1a4785053cb1a4b4)
  (.lf 0)) (.nd (.lf
  0x727a8e85d2c72794e85b2c72780e8592c72770e8572c726e4e8552c726cce8532c726b4e8512c7268ce84f2c72674e84d2c72654e84b2c72624e8492c725b0e8472c72598e8452c72558e8432c72530e840cc7371cec7f2c73704ec7d2c736e4ec7b2c736f0ec792c736c8ec772c736c0ec752c7368cec732c73674ec712c7365cec6f2c73664ec6d2c73630ec6b2c73614ec692c73600ec672c735e4ec652c735b8ec632c7355cec612c73534ec5f2c73520ec5d2c734e8ec5b2c734b8ec592c73428ec572c7346cec552c73400ec532c733e8ec512c733bcec4f2c732f0ec4d2c732dcec4b2c732c0ec492c732f8ec472c7329cec452c73280ec432c73304ec40cc74134f07f2c74120f07d2c73fc4f07b2c73fd4f0792c73fa0f0772c73f90f0752c73f6cf0732c73f4cf0712c73f38f06f2c73f1cf06d2c73f58f06b2c73fe4f0692c73edcf0672c73ec8f0652c73ef8f0632c73ea0f0612c73e88f05f2c)
  (.lf 0))) (.nd (.nd (.lf
  0x63941e4678063f01e4630063881e44b40631c1e44780638c1e4430063101e42b4062581e4278063141e42300d2ac1efcb40d3141efc780d3181efc300d2241efab40d2a01efa780d2a41efa300d1a01ef8b40d2181ef8780d21c1ef8300d1181ef6b40d1941ef6780d1981ef6300d0941ef4b40d10c1ef4780d1101ef4300d00c1ef2b40d0881ef2780d08c1ef2300cf801ef0b40d0001ef0780d0041ef0300cefc1eeeb40cf741eee780cf781eee300ce7c1eecb40cef01eec780cef41eec300cdfc1eeab40ce701eea780ce741eea300cd741ee8b40cdf01ee8780cdf41ee8300cce81ee6b40cd681ee6780cd6c1ee6300cc5c1ee4b40ccdc1ee4780cce01ee4300cbd81ee2b40cc501ee2780cc541ee2300cb581ee0b40cbcc1ee0780cbd01ee0300cad81edeb40cb4c1ede780cb501ede300ca501edcb40cacc1edc780cad01edc300c9cc1edab40ca441eda780ca481eda300c9441ed8b40c9c01ed878)
  (.lf 0)) (.nd (.lf
  0x82af0fed2cc82accfed0cc82a60fececc82950fecccc8264cfecacc82660fec8cc82560fec6cc8223cfec4cc82190fec2cc83458fefdd083440fefbd083430fef9d08341cfef7d08340cfef5d0833f8fef3d0833dcfef1d0833c4feefd0833acfeedd08339cfeebd08338cfee9d083374fee7d083360fee5d083350fee3d083340fee1d083330fedfd082c70feddd082c58fedbd082c44fed9d082c34fed7d082c1cfed5d082c08fed3d082bf8fed1d082ab0fecfd0829a4fecdd082678fecbd08262cfec9d082564fec7d0822dcfec5d08218cfec3d082168fec11083704ff3df4836c0ff3b40835c0ff33f4835a8ff314083524ff2bf4834e8ff29f4834d0ff274082e04ff1f4082d8cff1bf482d50ff19f482d00ff17f482cd4ff15408297cff0df482724ff0bf482714ff09f4826c8ff074083130fffecc83110fffccc83120fffacc83114fff8cc830e8fff6cc83008fff4cc8318cfff2cc83020fff0cc)
  (.lf 0)))

def shaWireTree443 : BTree :=
  .nd (.nd (.nd (.lf
  0x56478aee4b456474aee4785647caee43056460aee2b45645caee27856464aee2305644caee0b456448aee07856450aee03056438aedeb456434aede785643caede3056424aedcb456420aedc7856428aedc305640caedab456408aeda7856410aeda30563f8aed8b4563f4aed878563fcaed830563d8aed6b4563d4aed678563dcaed630563c4aed4b4563c0aed478563c8aed430563b0aed2b4563acaed278563b4aed2305639caed0b456398aed078563a0aed03056384aeceb456380aece7856388aece3056370aeccb45636caecc7856374aecc305635caecab456358aeca7856360aeca3056344aec8b456340aec87856348aec83056308aec6b455fb0aec6785630caec63055fa4aec4b455ee8aec47855fa8aec43055edcaec2b455ea8aec27855ee0aec23056f84af3eaa56f8caf3caa5661caf34aa565fcaf32aa565e4af30aa565b8af2caa564dcaf2aaa5648caf26aa56470af24aa5641caf1caa)
  (.lf 0)) (.nd (.lf
  0x71010e2532c71094e2512c70ff4e24f2c70fd8e24d2c70fc8e24b2c70e60e2492c70bace2472c70b88e2452c70b74e2432c70ab8e240cc721ece67f2c721dce67d2c721c0e67b2c721ace6792c72198e6772c72180e6752c72174e6732c71f20e6712c71ef0e66f2c71edce66d2c71e58e66b2c71e44e6692c71e34e6672c71d8ce6652c71d78e6632c71d68e6612c71d58e65f2c71d30e65d2c71bd0e65b2c71b50e6592c71acce6572c71ab4e6552c71a50e6532c71a08e6512c719d8e64f2c72230e64d2c71940e64b2c7191ce6492c718f8e6472c718e0e6452c7187ce6432c71860e640cc730f4ea7f2c730e0ea7d2c730ccea7b2c730bcea792c730a8ea772c73094ea752c73098ea732c7306cea712c73064ea6f2c73070ea6d2c73068ea6b2c7301cea692c73108ea672c72ffcea652c72fd8ea632c730f8ea612c72fb4ea5f2c72f9cea5d2c72f8cea5b2c72fdcea592c72f64ea572c72f50ea552c)
  (.lf 0))) (.nd (.nd (.lf
  0x68cf8001c0168df4001bff68cfc001bfd68980001bfb68984001bf968914001bf768918001bf568828001bf3687c4001bf168754001bef686fc001bed685d0001beb6859c001be9684a4001be768444001be5683bc001be368340001be16b0fc001bdf6b084001bdd6b05c001bdb6b060001bd96b014001bd76a050001bd56b3c4001bd36b3c8001bd16b3cc001bcf6b42c001bcd6b2fc001bcb6b490001bc96b3d0001bc76b3d4001bc56b430001bc36b45c001bc16b494001bbf6b300001bbd6b304001bbb6b308001bb96b460001bb76b230001bb56b234001bb36b238001bb16b1cc001baf6b1a0001bad6b178001bab6b13c001ba96b150001ba76b100001ba56b164001ba36b17c001ba16c720001b9f6cec8001b9d6c0bc001b9b6c0c0001b996c0c4001b976c0c8001b956d678001b936d42c001b916d430001b8f6d2d4001b8d6d2d8001b8b6d67c001b896d434001b876d438001b856d2dc001b83)
  (.lf 0)) (.nd (.lf
  0x742b4f8811075060f87ecc75068f87ccc75070f87acc750ecf878cc750f4f876cc750fcf874cc75104f872cc7510cf870cc75114f86ecc7511cf86ccc75124f86acc7512cf868cc75134f866cc7513cf864cc75144f862cc7514cf860cc75154f85ecc7515cf85ccc75164f85acc7516cf858cc75174f856cc7517cf854cc75184f852cc7518cf850cc75194f84ecc7519cf84ccc751a4f84acc751acf848cc751b4f846cc751bcf844cc751c4f842cc756dcf87dd0756ccf87bd075640f879d07562cf877d0755acf875d075590f873d075580f871d07556cf86fd075550f86dd07553cf86bd075524f869d07550cf867d0754ecf865d0754c8f863d07549cf861d075470f85fd075444f85dd075418f85bd07531cf859d07530cf857d0752fcf855d0752e8f853d0752d4f851d0752c0f84fd0752acf84dd075294f84bd075284f849d075248f847d075234f845d075208f843d0751ccf84110756e4f83ecc)
  (.lf 0)))

def shaWireTree444 : BTree :=
  .nd (.nd (.nd (.lf
  0x83bf90d703083be50d6e7883be10d6eb483be90d6e3083bd50d6c7883bb50d6cb483bd90d6c3083b750d6a7883b790d6ab483bad0d6a3083b690d687883abd0d68b483b6d0d683083ab10d667883aad0d66b483ab50d663083a890d647883aa10d64b483aa50d643083a750d627883a710d62b483a790d623083a5d0d607883a610d60b483a650d603083a4d0d5e7883a510d5eb483a550d5e3083a390d5c7883a410d5cb483a450d5c3083a290d5a7883a1d0d5ab483a2d0d5a30838450d5878838150d58b483a150d5830838090d5678837e90d56b48380d0d5630837bd0d5478837850d54b4837cd0d5430837790d5278837610d52b48377d0d5230837310d5078832f90d50b4837590d5030832ed0d4e78832e90d4eb4832f10d4e30832dd0d4c78832c90d4cb4832e10d4c30832150d4a78832bd0d4ab4832c10d4a30831c90d4878831cd0d48b4831d10d4830831bd0d467882a3d0d46b4831c10d4630)
  (.lf 0)) (.nd (.lf
  0x161843ba030161883b9e301618c3b9c30161903b9a30161943b9830161983b96301619c3b9430161a03b9230161a43b9030161a83b8e30161ac3b8c30161b03b8a30161b43b8830161b83b8630161bc3b8430161c03b8230161c43b8030178543fbeb4178583fbcb41785c3fbab4178603fb8b4178643fb6b4178683fb4b41786c3fb2b4178703fb0b4178743faeb4178783facb41787c3faab4178803fa8b4178843fa6b4178883fa4b41788c3fa2b4178903fa0b4178943f9eb4178983f9cb41789c3f9ab4178a03f98b4178a43f96b4178a83f94b4178ac3f92b4178b03f90b4178b43f8eb4178b83f8cb4178bc3f8ab4178c03f88b4178c43f86b4178c83f84b4178cc3f82b4178d03f80b41644c3fbe781642c3fbc78164083fba78163e43fb878163c03fb6781639c3fb478163783fb278163543fb0781632c3fae78163083fac78162e43faa78162c03fa8781629c3fa678162783fa478162103fa278)
  (.lf 0))) (.nd (.nd (.lf
  0x1f2204242302077c42fcb4206c842fc782078042fc30206bc42fab42060842fa78206c042fa30205fc42f8b42054c42f8782060042f8302054042f6b42049842f6782054442f6302048c42f4b4203d842f4782049042f430203cc42f2b42032042f278203d042f2302031442f0b42026842f0782031842f0302025c42eeb4201ac42ee782026042ee30201a042ecb4200f042ec78201a442ec30200e442eab42003c42ea78200e842ea302003042e8b41ff7c42e8782003442e8301ff7042e6b41febc42e6781ff7442e6301feb042e4b41fe0042e4781feb442e4301fdf442e2b41fd4442e2781fdf842e2301fd3842e0b41fc8042e0781fd3c42e0301fc7442deb41fbc842de781fc7842de301fbbc42dcb41fb0842dc781fbc042dc301fafc42dab41fa4842da781fb0042da301fa3c42d8b41f98c42d8781fa4042d8301f98042d6b41f8d042d6781f98442d6301f8c442d4b41f81442d4781f8c842d430)
  (.lf 0)) (.nd (.lf
  0x42650956acc426449568cc425dc9566cc425109564cc4244c9562cc424089560cc421c4955ecc420d0955ccc42098955acc4206c9558cc420089556cc41f749554cc41e1c9552cc41df09550cc41dac954ecc41cd4954ccc41ca8954acc41ba09548cc41b389546cc41aa09544cc419c09542cc42e24957dd042de0957bd042c9c9579d042a049577d0428889575d0428389573d0427a89571d0426e4956fd0426d0956dd0426bc956bd0426309569d0425ec9567d0425089565d0424489563d0424009561d0421b8955fd0420c8955dd0420a0955bd0420849559d0420189557d041f949555d041e149553d041dec9551d041dbc954fd041ce0954dd041cb8954bd041bb09549d041b309547d041ab09545d0419d09543d0419ac95411042e4095becc430cc95bccc42e0095bacc42cf895b8cc42a1c95b6cc429e095b4cc429cc95b2cc429b895b0cc429a495aecc4299095accc4297c95aacc4296895a8cc)
  (.lf 0)))

def shaWireTree445 : BTree :=
  .nd (.nd (.nd (.lf
  0x6a8e0d325f46a89cd323406a6e0d315f46a6d0d313406a15cd30d4069f90d309f469f18d307406ad30d33bf46ad38d33ca06ad28d33a1e6ad24d33ab46ad2cd33a146aa54d3381e6ac78d338b46ad1cd338146aa48d3361e6aa38d336b46aa4cd336146aa20d333406aa30d334a06aa0cd331f46aa1cd332a06aa04d3301e6aa00d330b46aa08d330146a9dcd32d406a9e8d32ea06a9a4d32b406a9d8d32ca06a930d329f46a9a0d32aa06a918d3281e6a91cd328b46a92cd328146a8e4d3261e6a90cd326b46a910d326146a8d8d3241e6a8a0d324b46a8dcd324146a7fcd321406a898d322a06a7e8d31f406a7f0d320a06a7d8d31d406a7e4d31ea06a710d31b406a7d4d31ca06a704d319406a70cd31aa06a6f8d317f46a700d318a06a6ecd3161e6a6f0d316b46a6f4d316146a6d8d3141e6a6d4d314b46a6dcd314146a4a0d311406a6ccd312a06a478d30ff46a49cd310a06a160d30e1e6a470d30eb4)
  (.lf 0)) (.nd (.lf
  0x7ac3ceb1d4a7ac2ceb1b4a7ac08eb194a7abdceb174a7abcceb14b47abc0eb12b47ab98eb10b47ab58eb0eb47ab0ceb0cb47a670eb0ab47a634eb094a7a564eb06b47a44ceb04aa7a2eceac32c7a24ceac0cc7cee8ef3f4a7ce48ef3cb47ce38ef3ab47ce2cef38b47cac0ef374a7ca9cef354a7ca80ef32b47ca74ef30b47ca54ef2f4a7ca34ef2d4a7ca28ef2ab47ca08ef28b47c9f8ef26b47ca20ef254a7c9d0ef234a7c9b8ef214a7c9a8ef1eb47c70cef1cb47c6a4ef1ab47c600ef18b47c564ef16b47c558ef14b47c540ef134a7c530ef10b47c4f4ef0eb47c4e4ef0cb47c350ef0ab47c33cef08b47c360ef06aa7c04ceec52c7bdb4eec32c7bd2ceec0cc7e590f33f4a7e57cf33cb47e568f33ab47e59cf3394a7e510f336b47e4e0f334b47e4d0f332b47e4c4f330b47e4a4f32f4a7e48cf32cb47e470f32b4a7e4b0f3294a7e440f3274a7e44cf3254a7e504f3234a7e414f320b47e3ccf31f4a)
  (.lf 0))) (.nd (.nd (.lf
  0x39b8c78a47839b9478a43039b6078a2b439b5c78a27839b6478a23039b3078a0b439b2c78a07839b3478a03039b00789eb439afc789e7839b04789e3039ad0789cb439acc789c7839ad4789c3039aa0789ab439a9c789a7839aa4789a3039a707898b439a6c78987839a7478983039a407896b439a3c78967839a4478963039a107894b439a0c78947839a14789430399e07892b4399dc789278399e4789230399b07890b4399ac789078399b478903039980788eb43997c788e7839984788e3039950788cb43994c788c7839954788c3039918788ab439914788a783991c788a30398d87888b4398d4788878398dc788830398947886b43989078867839898788630398507884b43984c788478398547884303980c7882b439808788278398107882301e96c787cb41e968787c781e970787c301e958787ab41e954787a781e95c787a301e9447878b41e9407878781e9487878301e9307876b41e92c787678)
  (.lf 0)) (.nd (.lf
  0x182783e8bd0182343e89d0181f03e87d0181b43e85d0181803e83d0181303e8110136343e7ecc135d83e7ccc135683e7acc134d43e78cc1345c3e76cc133c83e74cc133503e72cc132bc3e70cc132443e6ecc131c43e6ccc131443e6acc130c43e68cc130303e66cc12fa43e64cc12f2c3e62cc12eac3e60cc12e2c3e5ecc12d983e5ccc12d0c3e5acc12c803e58cc12bf43e56cc12b683e54cc12af03e52cc12a5c3e50cc129d03e4ecc129443e4ccc128cc3e4acc1284c3e48cc127cc3e46cc1274c3e44cc126b83e42cc135e83e7dd0135603e7bd0134e43e79d0134543e77d0133d83e75d0133483e73d0132cc3e71d01323c3e6fd0131bc3e6dd01313c3e6bd0130bc3e69d0130403e67d012fb43e65d012f243e63d012ea43e61d012e243e5fd012da83e5dd012d1c3e5bd012c903e59d012c043e57d012b783e55d012ae83e53d012a6c3e51d0129e03e4fd0129543e4dd0128c43e4bd0128443e49d0)
  (.lf 0)))

def shaWireTree446 : BTree :=
  .nd (.nd (.nd (.lf
  0x2206855b0782206455b0b42206c55b0302205055ae782204c55aeb42205455ae302203855ac782203455acb42203c55ac302202055aa782201c55aab42202455aa302200855a8782200455a8b42200c55a83021ff055a67821fec55a6b421ff455a63021fd855a47821fd455a4b421fdc55a43021fc055a27821fbc55a2b421fc455a23021fa855a07821fa455a0b421fac55a03021f90559e7821f8c559eb421f94559e3021f78559c7821f74559cb421f7c559c3021f60559a7821f5c559ab421f64559a3021f4855987821f445598b421f4c55983021f3055967821f2c5596b421f3455963021f1855947821f145594b421f1c55943021f0055927821efc5592b421f0455923021ee855907821ee45590b421eec55903021ed8558e7821ed4558eb421edc558e3021ec8558c7821ec4558cb421ecc558c3021eb8558a7821eb4558ab421ebc558a3021ea855887821ea45588b421eac55883021e7c558678)
  (.lf 0)) (.nd (.lf
  0x3196000427d3196800427b31970004279319780042773198000427531988004273319900042713199800426f319a000426d319a800426b319b0004269319b8004267319c0004265319c8004263319d0004261337a000425f337a800425d337b000425b337b8004259337c0004257337c8004255337d0004253337d8004251337e000424f337e800424d3384800424b33850004249338580042473386000424533868004243338700042413387800423f3388000423d3388800423b3389000423933898004237338a0004235338a8004233338b0004231338b800422f338c000422d338c800422b338d0004229338d8004227338e0004225338e8004223338f00042213576400421f3576c00421d3577400421b3577c004219357840042173578c004215357940042133579c004211357a400420f357ac00420d3580c00420b358140042093581c004207358240042053582c004203358340042013583c0041ff)
  (.lf 0))) (.nd (.nd (.lf
  0x73eb8f062b473eb4f0627873ebcf0623073e9cf060b473ea8f0607873eacf0603073e90f05eb473e84f05e7873e94f05e3073e78f05cb473e74f05c7873e7cf05c3073e60f05ab473e58f05a7873e64f05a3073e40f058b473e4cf0587873e50f0583073e34f056b473e28f0567873e38f0563073e1cf054b473e18f0547873e20f0543073e04f052b473e00f0527873e08f0523073df0f050b473de4f0507873df4f0503073dd4f04eb473dd8f04e7873ddcf04e3073da0f04cb473d9cf04c7873da4f04c3073d88f04ab473d90f04a7873d94f04a3073d7cf048b473d78f0487873d80f0483073d68f046b473d5cf0467873d6cf0463073d38f044b473d50f0447873d54f0443073cf8f042b473d28f0427873d2cf04230743f8f03cb4743fcf03c7874400f03c30743a8f03ab4743ecf03a78743f0f03a3074390f038b474398f038787439cf038307435cf036b474354f0367874360f0363074348f034b4)
  (.lf 0)) (.nd (.lf
  0x5edacbe69d05ed98be67d05ed88be65d05ed74be63d05ed64be61d05ed34be5fd05eb84be5dd05eb60be5bd05eb30be59d05eafcbe57d05eaecbe55d05eadcbe53d05eaccbe51d05e820be4fd05e7e8be4dd05e7b0be4bd05e78cbe49d05e6f8be47d05e6d4be45d05e6bcbe43d05e5f0be41105eeacbefecc5ee80befccc5ee7cbefacc5ee74bef8cc5ee78bef6cc5eec8bef4cc5eec4bef2cc5eed0bef0cc5eebcbeeecc5eeb8beeccc5eec0beeacc5edb4bee8cc5fb6cbee6cc5eeb4bee4cc5eeb0bee2cc5ee94bee0cc5ed48bedecc5eb94bedccc5eb54bedacc5eb28bed8cc5ed54bed6cc5ebb4bed4cc5eba8bed2cc5eac0bed0cc5ea58bececc5e7f8becccc5e794becacc5e7a0bec8cc5e704bec6cc5e6c4bec4cc5e750bec2cc5fb64befdd05fb50befbd05fb34bef9d05fb24bef7d05fb10bef5d05fafcbef3d05fae8bef1d05fad4beefd05fac0beedd05faa0beebd05fa8cbee9d05fa7cbee7d0)
  (.lf 0)))

def shaWireTree447 : BTree :=
  .nd (.nd (.nd (.lf
  0x43ce88af27843cf48af23043cd48af0b443cdc8af07843ce08af03043cc48aeeb443cc08aee7843cc88aee3043b008aecb443c888aec7843c8c8aec30439a88aeab443af48aea7843af88aea30439988ae8b44399c8ae878439a08ae830439488ae6b4439848ae678439908ae630438c88ae4b44393c8ae478439408ae4304383c8ae2b4438b48ae278438b88ae230437608ae0b4438288ae078438348ae0304374c8adeb4437548ade78437588ade30436748adcb4437408adc78437448adc30436588adab4436688ada784366c8ada30435e88ad8b4435e48ad878435ec8ad830435d88ad6b44348c8ad678435dc8ad630434588ad4b44345c8ad478434708ad430433b08ad2b44344c8ad278434508ad2304338c8ad0b4433a48ad078433a88ad030431d48aceb4433808ace78433848ace30431c88accb4431c48acc78431cc8acc30431a08acab4431b88aca78431bc8aca3042d548ac8b4431948ac878)
  (.lf 0)) (.nd (.lf
  0x765bce213b07659ce211b07657ce20fb076558e20db0765f4e20bb076488e209b0763fce207b07631ce205b07634ce203b06fd0ce201b0788e4e63fb078718e63db07883ce63bb0786d8e639b078604e637b0785bce635b078748e633b078538e631b0784ece62fb0784a8e62db0783ece62bb078454e629b07835ce627b078310e625b0782f4e623b0782d8e621b0782ace61fb078374e61db07813ce61bb0780d0e619b078094e617b077f88e615b077f48e613b077f5ce611b077f04e60fb07783ce60db0776ace60bb0775a0e609b0773bce607b0772ece605b077168e603b077018e601b07a48cea3fb07a3e8ea3db07a3b0ea3bb07a4f4ea39b07a35cea37b07a2c8ea35b07a21cea33b07a1ecea31b07a1b4ea2fb07a150ea2db07a130ea2bb07a18cea29b07a0e4ea27b07a0bcea25b07a088ea23b07a064ea21b079be4ea1fb079bb8ea1db079b98ea1bb079078ea19b079154ea17b078d98ea15b0)
  (.lf 0))) (.nd (.nd (.lf
  0x2ecd06620502ec74661e502ec78661c502ec7c661a502ec806618502ec846616502ec886614502ebe86612502eb9c6610502eb88660e502ebc4660c502ebb0660a502eb646608502eb346606502eb746604502eb386602502eb3c6600502ee7c6a3e782ee806a3c782ee846a3a782ee886a38782ee8c6a36782ee906a34782ee946a32782ee986a30782ee9c6a2e782eeac6a2c782ed606a2a782ed646a28782ed686a26782ed6c6a24782ed706a22782ecd86a20782eca46a1e782eca86a1c782ecac6a1a782ecb06a18782ecb46a16782ecb86a14782ebf06a12782eba46a10782eb906a0e782ebcc6a0c782ebb86a0a782eb6c6a08782eb4c6a06782eb7c6a04782eb506a02782eb546a007830c046a3e5030c086a3c5030c0c6a3a5030c106a385030c146a365030c186a345030c1c6a325030c206a305030c246a2e5030c286a2c5030c2c6a2a5030c306a285030c346a265030c386a245030c3c6a2250)
  (.lf 0)) (.nd (.lf
  0x4c7aca089d04c798a087d04c784a085d04c770a083d04c758a081104ee34a07ecc4ee3ca07ccc4ee44a07acc4eec0a078cc4eec8a076cc4eed0a074cc4eed8a072cc4eee0a070cc4eee8a06ecc4eef0a06ccc4eef8a06acc4ef00a068cc4ef08a066cc4ef10a064cc4ef18a062cc4ef20a060cc4ef28a05ecc4ef30a05ccc4ef38a05acc4ef40a058cc4ef48a056cc4ef50a054cc4ef58a052cc4ef60a050cc4ef68a04ecc4ef70a04ccc4ef78a04acc4ef80a048cc4ef88a046cc4ef90a044cc4ef98a042cc4f4d4a07dd04f4aca07bd04f480a079d04f454a077d04f428a075d04f3fca073d04f3d0a071d04f3a4a06fd04f378a06dd04f34ca06bd04f320a069d04f2f4a067d04f2c8a065d04f29ca063d04f270a061d04f244a05fd04f218a05dd04f1eca05bd04f1c0a059d04f194a057d04f168a055d04f13ca053d04f110a051d04f0e4a04fd04f0b8a04dd04f08ca04bd04f060a049d04f034a047d0)
  (.lf 0)))

def shaWireTree448 : BTree :=
  .nd (.nd (.nd (.lf
  0x3ff000000003fd000000003fb000000003f9000000003f7000000003f5000000003f3000000003f1000000003ef000000003ed000000003eb000000003e9000000003e7000000003e5000000003e3000000003e1000000003df000000003dd000000003db000000003d9000000003d7000000003d5000000003d3000000003d1000000003cf000000003cd000000003cb000000003c9000000003c7000000003c5000000003c3000000003c1000000003bf000000003bd000000003bb000000003b9000000003b7000000003b5000000003b3000000003b1000000003af000000003ad000000003ab000000003a9000000003a7000000003a5000000003a3000000003a10000000039f0000000039d0000000039b00000000399000000003970000000039500000000393000000003910000000038f0000000038d0000000038b0000000038900000000387000000003850000000038300000000381)
  (.lf
  0x3d28490b9d03d25890b7d03d22c90b5d03d20090b3d03d1d490b1d03d1a890afd03d17c90add03d15090abd03d12490a9d03d0f890a7d03d0cc90a5d03d0a090a3d03d07490a1d03d048909fd03d01c909dd03cff0909bd03cfc49099d03cf989097d03cf6c9095d03cf409093d03cf149091d03cee8908fd03cebc908dd03ce90908bd03ce649089d03ce389087d03ce0c9085d03cde09083d03cda49081102805c907ecc28004907ccc27f78907acc27ed89078cc27e3c9076cc27d9c9074cc27cf89072cc27c5c9070cc27bbc906ecc27b18906ccc27a74906acc279d09068cc279349066cc278949064cc277f89062cc277609060cc276c0905ecc27624905ccc2758c905acc274ec9058cc274509056cc273b09054cc2730c9052cc272709050cc271d8904ecc27140904ccc270a0904acc26ffc9048cc26f609046cc26ec09044cc26e1c9042cc28014907dd027f88907bd027ee89079d027e4c9077d0))
  (.nd (.lf
  0x14be436205014be8361e5014bec361c5014bf0361a5014bf436185014bf836165014bfc36145014c0036125014c0436105014c08360e5014c0c360c5014c10360a5014c1436085014c1836065014c1c36045014c2036025014c2436005014ca83a3e7814cac3a3c7814cb03a3a7814cb43a387814cb83a367814cbc3a347814cc03a327814cc43a307814cc83a2e7814ccc3a2c7814cd03a2a7814cd43a287814cd83a267814cdc3a247814ce03a227814ce43a207814ce83a1e7814cec3a1c7814cf03a1a7814cf43a187814cf83a167814cfc3a147814d003a127814d043a107814d083a0e7814d0c3a0c7814d103a0a7814d143a087814d183a067814d1c3a047814d203a027814d243a0078168303a3e50168343a3c50168383a3a501683c3a3850168403a3650168443a3450168483a32501684c3a3050168503a2e50168543a2c50168583a2a501685c3a2850168603a2650168643a2450168683a2250)
  (.lf 0))) (.nd (.nd (.lf
  0x3f860831d403f894831ea03f81c831b403f85c831ca03f7e48319403f818831aa03f7ac8317f43f7e08318a03f78883161e3f7a48316b43f7a88316143f7188313f43f7808314a03f6b483121e3f7108312b43f7148312143f648830ff43f6ac8310a03f5e0830e1e3f640830eb43f644830e143f574830b403f5d8830ca03f51c8309403f570830aa03f3d08307403f5188308a03f3608305f43f3cc8306a03f29c83041e3f3208304b43f3248304143f2948302a040bc883fc7840bcc83fcb440bd083fc3040bbc83fa7840bb883fab440bc083fa3040ba083f87840ba483f8b440ba883f83040b9483f67840b4083f6b440b9883f63040a9c83f47840a7c83f4b440aa083f43040a7083f27840a6c83f2b440a7483f230405d083f078407cc83f0b4407d083f030405b883ee78405bc83eeb4405c883ee304059483ec784059083ecb44059883ec304058083ea784058483eab44058883ea304057083e878)
  (.lf 0)) (.nd (.lf
  0x3ef848213b03ef888211b03ef8c820fb03ef90820db03ef94820bb03ef988209b03ef9c8207b03e4308205b03e3ac8203b03e3b08201b0400f4863fb0400f8863db0400fc863bb0401008639b0401048637b0401088635b04010c8633b0401108631b040114862fb040118862db04011c862bb0401208629b0401248627b0401288625b04012c8623b0401308621b040134861fb040138861db04013c861bb0401408619b0401448617b03fcbc8615b03fcc08613b03fcc48611b03fcc8860fb03fccc860db03fcd0860bb03fcd48609b03f3f08607b03f3f48605b03f2d88603b03f2dc8601b0430b48a3fb0430d88a3db0430bc8a3bb042d048a39b042a708a37b0429ec8a35b0429d88a33b0429c48a31b0429b08a2fb04299c8a2db0429888a2bb0429748a29b0429608a27b04294c8a25b0429388a23b0429248a21b0422088a1fb04216c8a1db0421708a1bb0421248a19b0420448a17b041fec8a15b0)
  (.lf 0)))

def shaWireTree449 : BTree :=
  .nd (.nd (.nd (.lf
  0x160b0455478160ac4554b4160b44554301609c455278160984552b4160a045523016088455078160844550b41608c45503016074454e7816070454eb416078454e3016060454c781605c454cb416064454c301604c454a7816048454ab416050454a3016038454878160344548b41603c45483016024454678160204546b416028454630160104544781600c4544b41601445443015ffc45427815ff84542b41600045423015f6045bc7815f5c45bcb415f6445bc3015f4c45ba7815f4845bab415f5045ba3015f3845b87815f3445b8b415f3c45b83015f2045b67815f1c45b6b415f2445b63015f0845b47815f1045b4b415f1445b43015efc45b27815ef845b2b415f0045b23015ee045b07815ee445b0b415ee845b03015ecc45ae7815ec845aeb415ed445ae3015ebc45ac7815eb845acb415ec045ac3015ea845aa7815ea445aab415eac45aa3015e9045a87815e9845a8b415e9c45a83015e8445a678)
  (.lf 0)) (.nd (.lf
  0x64e5c00487d64e6400487b64e6c00487964e7400487764e7c00487564e8400487364e8c00487164e9400486f64e9c00486d64ea400486b64eac00486964eb400486764ebc00486564ec400486364ecc0048616708800485f6709000485d6709800485b671140048596711c004857671240048556712c004853671340048516713c00484f6714400484d6714c00484b671540048496715c004847671640048456716c004843671740048416717c00483f6718400483d6718c00483b671940048396719c004837671a4004835671ac004833671b4004831671bc00482f671c400482d671cc00482b671d4004829671dc004827671e4004825671ec004823671f4004821693d800481f693e000481d693e800481b694640048196946c004817694740048156947c004813694840048116948c00480f6949400480d6949c00480b694a4004809694ac004807694b4004805694bc004803694c4004801694cc0047ff)
  (.lf 0))) (.nd (.nd (.lf
  0x71810e446b471820e4467871824e44630717fce444b471800e4447871804e44430717f0e442b4717e8e44278717f4e442307209ce43cb4720a8e43c78720ace43c3072090e43ab472084e43a7872094e43a307206ce438b472070e438787207ce4383072000e436b472004e4367872064e4363071face434b471f90e4347871ff8e4343071f84e432b471f6ce4327871f88e4323071f14e430b471f10e4307871f64e4303071e8ce42eb471e88e42e7871f08e42e3071e78e42cb471e7ce42c7871e80e42c3071de0e42ab471de4e42a7871e70e42a3071dcce428b471dc8e4287871dd0e4283071db0e426b471dbce4267871dc0e4263071da4e424b471d20e4247871da8e4243071d14e422b471d10e4227871d18e4223071cf0e420b471cfce4207871d00e4203071ce4e41eb471ce0e41e7871ce8e41e3071cb4e41cb471cace41c7871cc8e41c3071b70e41ab471ca0e41a7871ca4e41a3071b28e418b4)
  (.lf 0)) (.nd (.lf
  0x58434b24bd0583f4b249d0583acb247d058344b245d0582e0b243d0581a4b2411058af4b2fecc5872cb2fccc5873cb2facc586fcb2f8cc58740b2f6cc58704b2f4cc586c0b2f2cc586bcb2f0cc586a8b2eecc58674b2eccc58734b2eacc58648b2e8cc5864cb2e6cc58620b2e4cc58608b2e2cc585f0b2e0cc585d8b2decc585c0b2dccc585a8b2dacc58590b2d8cc58578b2d6cc58544b2d4cc58504b2d2cc584c8b2d0cc58480b2cecc58440b2cccc58400b2cacc583b4b2c8cc58354b2c6cc582ecb2c4cc58270b2c2cc58a18b2fdd058a00b2fbd0589ecb2f9d0589d4b2f7d0589c0b2f5d0589acb2f3d058998b2f1d058980b2efd058970b2edd058948b2ebd0588f0b2e9d0588d8b2e7d0588c4b2e5d05889cb2e3d05883cb2e1d058828b2dfd058810b2ddd0587d4b2dbd0587a4b2d9d05877cb2d7d05874cb2d5d058524b2d3d0584ccb2d1d0584a4b2cfd058464b2cdd058408b2cbd0583e0b2c9d0)
  (.lf 0)))

def shaWireTree450 : BTree :=
  .nd (.nd (.nd (.lf
  0x7ad30f994307acacf992787acb0f992b47acccf992307abe8f990787ab6cf990b47abf8f990307ab60f98e787ab4cf98eb47ab64f98e307ab40f98c787a680f98cb47ab44f98c307a674f98a787a664f98ab47a678f98a307a638f988787a578f988b47a65cf988307a56cf986787a464f986b47a570f986307a458f984787a314f984b47a45cf984307a2f0f982787a294f982b47a2f4f982307ce98fd7c787ce94fd7cb47cefcfd7c307ce74fd7a787ce70fd7ab47ce78fd7a307ce20fd78787ce64fd78b47ce68fd78307ce14fd76787cdb8fd76b47ce18fd76307cda8fd74787cdacfd74b47cdb0fd74307cd88fd72787cd80fd72b47cd8cfd72307cd58fd70787cd14fd70b47cd5cfd70307cd08fd6e787ccbcfd6eb47cd0cfd6e307cc7cfd6c787cc94fd6cb47ccb4fd6c307cc58fd6a787cc1cfd6ab47cc5cfd6a307cc0cfd68787cc10fd68b47cc14fd68307cc00fd66787cbe4fd66b47cc04fd6630)
  (.lf 0)) (.nd (.lf
  0xa2781ba0300a27c1b9e300a2801b9c300a2841b9a300a2881b98300a28c1b96300a2901b94300a2941b92300a2981b90300a29c1b8e300a2a01b8c300a2a41b8a300a2a81b88300a2ac1b86300a2b01b84300a2b41b82300a2b81b80300ba681fbeb40ba6c1fbcb40ba701fbab40ba741fb8b40ba781fb6b40ba7c1fb4b40ba801fb2b40ba841fb0b40ba881faeb40ba8c1facb40ba901faab40ba941fa8b40ba981fa6b40ba9c1fa4b40baa01fa2b40baa41fa0b40baa81f9eb40baac1f9cb40bab01f9ab40bab41f98b40bab81f96b40babc1f94b40bac01f92b40bac41f90b40bac81f8eb40bacc1f8cb40bad01f8ab40bad41f88b40bad81f86b40badc1f84b40bae01f82b40bae41f80b40a33c1fbe780a3401fbc780a3441fba780a3481fb8780a34c1fb6780a3501fb4780a3541fb2780a3581fb0780a35c1fae780a3601fac780a3641faa780a3681fa8780a36c1fa6780a3701fa4780a3741fa278)
  (.lf 0))) (.nd (.nd (.lf
  0x1703c3b2c1e170743b2cb4170783b2c14170003b29f4170343b2aa016fc03b281e16ff83b28b416ffc3b281416f7c3b261e16fb43b26b416fb83b261416f383b241e16f703b24b416f743b241416efc3b214016f303b22a016ec43b1f4016ef83b20a016e8c3b1d4016ec03b1ea016e543b1b4016e883b1ca016e183b194016e503b1aa016ddc3b174016e143b18a016da03b15f416dd83b16a016d5c3b141e16d983b14b416d9c3b141416d143b121e16d503b12b416d543b121416cd43b0ff416d0c3b10a016c943b0e1e16ccc3b0eb416cd03b0e1416c583b0bf416c8c3b0ca016c183b0a1e16c503b0ab416c543b0a1416bdc3b074016c103b08a016ba43b05f416bd83b06a016b643b041e16b9c3b04b416ba03b041416b583b02b416b5c3b0214168203bfc781681c3bfcb4168243bfc301680c3bfa78168083bfab4168103bfa30167f83bf878167f43bf8b4167fc3bf830167e43bf678167e03bf6b4)
  (.lf 0)) (.nd (.lf
  0x3208c799bd0320047999d031f807997d031f007995d031e787993d031dec7991d031d60798fd031ccc798dd031c40798bd031bbc7989d031b3c7987d031acc7985d031a587983d0319fc798110347e47d7ecc3479c7d7ccc347347d7acc346bc7d78cc346407d76cc345c47d74cc3454c7d72cc344d07d70cc344547d6ecc343e07d6ccc343687d6acc342f47d68cc3427c7d66cc342047d64cc341947d62cc341247d60cc340b07d5ecc3403c7d5ccc33fc47d5acc33f487d58cc33ed07d56cc33e547d54cc33dd87d52cc33d607d50cc33ce47d4ecc33c647d4ccc33bd07d4acc33b487d48cc33ac07d46cc350e87d44cc339907d42cc34a3c7d7dd034a287d7bd034a107d79d0349fc7d77d0349e87d75d0349d87d73d0349c47d71d0349b07d6fd03499c7d6dd0349887d6bd0349747d69d0349607d67d03494c7d65d0349387d63d0349247d61d0349107d5fd0348fc7d5dd0348e87d5bd0348d47d59d0)
  (.lf 0)))

def shaWireTree451 : BTree :=
  .nd (.nd (.nd (.lf
  0x648accbd478648a4cbd4b4648b0cbd43064854cbd27864898cbd2b46489ccbd230647f4cbd0786483ccbd0b46484ccbd03064798cbce78647e8cbceb4647eccbce3064748cbcc786477ccbccb464790cbcc306473ccbca7864738cbcab464740cbca3064728cbc87864724cbc8b46472ccbc83064418cbc67864714cbc6b464718cbc6306413ccbc4786440ccbc4b464410cbc4306406ccbc27864130cbc2b464134cbc23066beccebc7866be4cebcb466bf0cebc3066bd8ceba7866bd4cebab466bdcceba3066bbcceb87866bc4ceb8b466bc8ceb83066ba4ceb67866bb0ceb6b466bb4ceb63066b98ceb47866b94ceb4b466b9cceb43066b88ceb27866b80ceb2b466b8cceb23066b70ceb07866b74ceb0b466b78ceb03066b5cceae7866b60ceaeb466b64ceae3066b48ceac7866b4cceacb466b50ceac3066b38ceaa7866b30ceaab466b3cceaa3066b1ccea87866b20cea8b466b28cea83066b04cea678)
  (.lf 0)) (.nd (.lf
  0x437648b1d4a436948b1b4a435f48b18b4435748b174a434c88b154a434bc8b12b4433d08b114a433308b0f4a4329c8b0d4a431e48b0b4a431f48b094a42d608b074a42bb48b04aa42b848ac32c42bc08ac0cc45e748f3eb445e448f3d4a45e348f3ab445e588f394a45e188f36b445e048f34b445de88f334a45dd08f314a45dc08f2eb445dac8f2cb445da08f2b4a45e8c8f294a45bfc8f274a45bdc8f24b445bac8f22b445b888f20b445b648f1eb445b3c8f1cb445a8c8f1ab445a448f18b4459fc8f174a4593c8f154a459248f12b4459648f114a458888f0eb4457e08f0cb4457d48f0ab4457508f094a4558c8f06b4453b88f04b4453508f034a453008f00aa46f60933eb446f40933d4a46ef4933b4a46ee89338b446edc9336b446f1c93354a46eb49332b446ecc93314a46e14932eb446df0932cb446dcc932ab446da89328b446d8493274a46d549324b446d3093234a46d009320b446cdc931eb4)
  (.lf 0))) (.nd (.nd (.lf
  0x33b746c887833b7c6c883033af46c86b433af06c867833af86c863033a686c84b433a646c847833a6c6c8430339d06c82b4339cc6c8278339d46c82301ddf06c7cb41ddec6c7c781ddf46c7c301dddc6c7ab41ddd86c7a781dde06c7a301ddc86c78b41ddc46c78781ddcc6c78301ddb46c76b41ddb06c76781ddb86c76301dda06c74b41dd9c6c74781dda46c74301dd8c6c72b41dd886c72781dd906c72301dd786c70b41dd746c70781dd7c6c70301dd646c6eb41dd606c6e781dd686c6e301dd506c6cb41dd4c6c6c781dd546c6c301dd3c6c6ab41dd386c6a781dd406c6a301dd286c68b41dd246c68781dd2c6c68301dd146c66b41dd106c66781dd186c66301dd006c64b41dcfc6c64781dd046c64301dcec6c62b41dce86c62781dcf06c62301dcd86c60b41dcd46c60781dcdc6c60301dcc46c5eb41dcc06c5e781dcc86c5e301dcb06c5cb41dcac6c5c781dcb46c5c301dc9c6c5ab41dc986c5a78)
  (.lf 0)) (.nd (.lf
  0x142543295d0142003293d0141ac3291d01415c328fd014108328dd0140b8328bd01405c3289d0140083287d013fb43285d013f743283d013f183281100ebf0327ecc0eb90327ccc0eb20327acc0ea8c3278cc0ea003276cc0e9883274cc0e9083272cc0e8883270cc0e808326ecc0e788326ccc0e708326acc0e6883268cc0e6083266cc0e5743264cc0e4e83262cc0e45c3260cc0e3d0325ecc0e358325ccc0e2c4325acc0e24c3258cc0e1b83256cc0e1403254cc0e0ac3252cc0e0343250cc0dfa0324ecc0df28324ccc0dea8324acc0de143248cc0dd983246cc0dd203244cc0dcac3242cc0eba0327dd00eb18327bd00ea9c3279d00ea103277d00e9803275d00e9003273d00e8803271d00e800326fd00e780326dd00e700326bd00e6803269d00e6003267d00e5843265d00e4f83263d00e46c3261d00e3e0325fd00e350325dd00e2d4325bd00e2443259d00e1c83257d00e1383255d00e0bc3253d0)
  (.lf 0)))

def shaWireTree452 : BTree :=
  .nd (.nd (.nd (.lf
  0x2694117f2c02680117d2c0266c117b2c0265811792c0264411772c0263011752c0261c11732c0260811712c025f4116f2c025e0116d2c025cc116b2c025b811692c025a411672c0259011652c0257c11632c0256811612c02554115f2c02540115d2c0252c115b2c0251811592c0250411572c024f011552c024dc11532c024c811512c024b4114f2c024a0114d2c0248c114b2c0247811492c0246411472c0245011452c0243c11432c023bc1140cc03dd8157f2c03d70157d2c03ce8157b2c03c5c15792c03bcc15772c03b4c15752c03acc15732c03a5015712c039c0156f2c03940156d2c038c4156b2c0383815692c037a815672c0372c15652c036a015632c0361415612c03584155f2c03508155d2c03478155b2c033f815592c0337815572c032fc15552c0326c15532c031ec15512c03170154f2c030e0154d2c03060154b2c02fe415492c02f5415472c02ed415452c02e5415432c02e181540cc)
  (.lf
  0x82890147d2c82874147b2c8289414792c8284814772c8283814752c8282014732c8280814712c82810146f2c827e8146d2c827d4146b2c827b814692c827c014672c827a014652c8278c14632c8277814612c82758145f2c81db8145d2c81be4145b2c80d3014592c80d3414572c80cfc14552c80ce814532c80cd414512c80cbc144f2c80cb8144d2c80be4144b2c80abc14492c80ab414472c80a2c14452c80a0814432c803d41440cc80598187f2c80548187d2c80874187b2c804ac18792c8044018772c804c018752c803bc18732c803a418712c80390186f2c80300186d2c80180186b2c8012018692c8010018672c8012c18652c800e018632c800c818612c80128185f2c80074185d2c7f9a0185b2c7f91018592c7f87c18572c7f82818552c7f75418532c7f72c18512c7f6c0184f2c7f5b0184d2c7f4f4184b2c7f4bc18492c7f3f018472c7f3c018452c7f2e418432c7f0541840cc7fee41c7f2c))
  (.nd (.lf
  0x5f798c7a0785f770c79e785f748c79c785f720c79a785f6f8c798785f6d0c796785f6acc794785f688c792785f664c790785f640c78e785f61cc78c785f810c78a785f5ecc788785f5c4c786785f5a0c784785f57cc782785e614c7807862584c7be3062518c7bc30624ecc7ba30623f4c7b83062260c7b63062338c7b43062164c7b2306208cc7b03061ffcc7ae3061ef0c7ac3061ea8c7aa3061e6cc7a83061da0c7a63061d0cc7a43061ca4c7a23061c74c7a03061b60c79e3061b10c79c3061ad8c79a3061a98c7983061a24c79630619ccc79430616d8c7923061658c7903061620c78e30615b8c78c30614f4c78a3061440c78830613b8c786306136cc784306134cc7823060eacc7803064860cbbeb464810cbbcb4647b0cbbab464754cbb8b4646d0cbb6b464660cbb4b464664cbb2b4643d4cbb0b4640fccbaeb464028cbacb46416ccbaab464148cba8b463f8ccba6b463cf8cba4b463c14cba2b4)
  (.lf 0))) (.nd (.nd (.lf
  0x2c6505f2c1e2c6885f2cb42c68c5f2c142c60c5f2a1e2c6445f2ab42c6485f2a142c5c85f281e2c6005f28b42c6045f28142c5845f261e2c5bc5f26b42c5c05f26142c5485f23402c57c5f24a02c5105f21f42c5445f22a02c4d05f201e2c5085f20b42c50c5f20142c48c5f1e1e2c4c45f1eb42c4c85f1e142c4505f1b402c4845f1ca02c4185f19402c44c5f1aa02c3e05f17f42c4145f18a02c3a05f161e2c3d85f16b42c3dc5f16142c3645f13402c3985f14a02c32c5f11402c3605f12a02c2f45f0ff42c3285f10a02c2b45f0e1e2c2ec5f0eb42c2f05f0e142c2705f0c1e2c2a85f0cb42c2ac5f0c142c2345f09f42c2685f0aa02c1f45f081e2c22c5f08b42c2305f08142c1b05f061e2c1e85f06b42c1ec5f06142c1a85f04a02bc4c5ffc782bc485ffcb42bc505ffc302bc385ffa782bc345ffab42bc3c5ffa302bc245ff8782bc205ff8b42bc285ff8302bc105ff6782bc0c5ff6b42bc145ff630)
  (.lf 0)) (.nd (.lf
  0x7d0a8fd93d07d070fd91d07d034fd8fd07cfccfd8dd07cfbcfd8bd07c42cfd89d07c3fcfd87d07c060fd85d07bf70fd83d07bd3cfd81107e599017ecc7e58d017ccc7e571017acc7e5a10178cc7e5190176cc7e4ed0174cc7e4e90172cc7e4f50170cc7e4ad016ecc7e491016ccc7e489016acc7e4b50168cc7e4850166cc7e4510164cc7e5090162cc7e5250160cc7e3d5015ecc7e3dd015ccc7e3a5015acc7e37d0158cc7e5310156cc7e33d0154cc7e2dd0152cc7e2110150cc7e1ad014ecc7e195014ccc7dc11014acc7dc310148cc7db010146cc7d5310144cc7d4150142cc7ec71017dd07ec29017bd07ebf50179d07eb2d0177d07eafd0175d07eaed0173d07ea990171d07ea75016fd07ea3d016dd07ea19016bd07e9e50169d07e9d50167d07e7190165d07e6e50163d07e6bd0161d07e6a1015fd07e675015dd07e64d015bd07e6210159d07e5cd0157d07e5a90155d07e2e90153d07e2410151d0)
  (.lf 0)))

def shaWireTree453 : BTree :=
  .nd (.nd (.nd (.lf
  0x7b7a8efd4307b770efd2787b778efd2b47b77cefd2307b764efd0787b760efd0b47b768efd0307b65cefce787b74cefceb47b750efce307b620efcc787b650efccb47b654efcc307b5acefca787b5dcefcab47b5e0efca307b4e0efc8787b5a0efc8b47b5a4efc8307b480efc6787b4c4efc6b47b4d8efc6307b420efc4787b474efc4b47b478efc4307b414efc2787b3fcefc2b47b418efc2307e114f2bc787e120f2bcb47e124f2bc307e0fcf2ba787e108f2bab47e10cf2ba307e0f0f2b8787e0ecf2b8b47e0f4f2b8307e0d8f2b6787e0c0f2b6b47e0dcf2b6307dfd0f2b4787dfd4f2b4b47e0b8f2b4307dfc4f2b2787dfb8f2b2b47dfc8f2b2307dfacf2b0787dfa8f2b0b47dfb0f2b0307df8cf2ae787df9cf2aeb47dfa0f2ae307df7cf2ac787df74f2acb47df84f2ac307df68f2aa787df60f2aab47df6cf2aa307df48f2a8787df4cf2a8b47df50f2a8307df30f2a6787df3cf2a6b47df40f2a630)
  (.lf 0)) (.nd (.lf
  0x420f48b9dd0420f88b9bd0420fc8b99d0420288b97d041f8c8b95d041e348b93d041e388b91d041dc88b8fd041d008b8dd041d048b8bd041bec8b89d041b4c8b87d041ad08b85d041a248b83d041a288b81d0443f48fbfd0442188fbdd0441308fbbd0440ec8fb9d043fd48fb7d043f148fb5d043ed48fb3d043e1c8fb1d043db08fafd043d188fadd043b488fabd043a988fa9d043a4c8fa7d0439f88fa5d0439048fa3d0438788fa1d0437d08f9fd0437908f9dd0436c08f9bd0436288f99d0435a48f97d0435148f95d0435188f93d0434048f91d0433588f8fd0432d08f8dd04323c8f8bd0432408f89d042d888f87d042c188f85d042c1c8f83d042c208f81d04627893bfd04627c93bdd04628093bbd04628493b9d04628893b7d04628c93b5d04629093b3d04629493b1d04629893afd04629c93add0462a093abd0462a493a9d0462a893a7d0462ac93a5d0462b093a3d0462b493a1d0462b8939fd0)
  (.lf 0))) (.nd (.nd (.lf
  0x53970a8663053940a864b45393ca8647853944a8643053914a862b453910a8627853918a86230538e8a860b4538e4a86078538eca86030538bca85eb4538b8a85e78538c0a85e3053890a85cb45388ca85c7853894a85c3053864a85ab453860a85a7853868a85a3053838a858b453834a858785383ca858305380ca856b453808a8567853810a85630537e0a854b4537dca85478537e4a85430537b4a852b4537b0a85278537b8a8523053788a850b453784a850785378ca850305375ca84eb453758a84e7853760a84e3053730a84cb45372ca84c7853734a84c3053704a84ab453700a84a7853708a84a30536d8a848b4536d4a84878536dca84830536aca846b4536a8a84678536b0a8463053680a844b45367ca8447853684a8443053654a842b453650a8427853658a8423053b3ca83cb453b1ca83c7853b40a83c3053b10a83ab453af0a83a7853b14a83a3053ae4a838b453ac4a8387853ae8a83830)
  (.lf 0)) (.nd (.lf
  0x355187283d035500728110366e0727ecc36684727ccc36614727acc365b87278cc365287276cc364b47274cc3643c7272cc363cc7270cc36358726ecc362dc726ccc36260726acc361ec7268cc3617c7266cc3610c7264cc3609c7262cc3602c7260cc35fbc725ecc35f4c725ccc35edc725acc35e707258cc35dfc7256cc35d8c7254cc35d187252cc35ca07250cc35c24724ecc35bac724ccc35b28724acc35a9c7248cc35a187246cc359987244cc359087242cc36680727dd03660c727bd0365a07279d0365387277d0364c47275d03645c7273d0364007271d03638c726fd036304726dd036280726bd0362147269d0361a47267d0361407265d0360d07263d0360607261d035ff0725fd035f80725dd035f10725bd035ea47259d035e387257d035dc47255d035d547253d035ce07251d035c64724fd035bec724dd035b68724bd035adc7249d035a507247d0359cc7245d0359447243d0358c8724110)
  (.lf 0)))

def shaWireTree454 : BTree :=
  .nd (.nd (.nd (.lf
  0x47a3ca172b447a44a17230479f4a1707847a2ca170b447a30a17030479b0a16e78479aca16eb4479b4a16e30479a0a16c784785ca16cb4479a4a16c3047848a16a7847844a16ab447850a16a3047838a1687847834a168b44783ca1683047820a1667847790a166b447824a1663047784a164784775ca164b447788a1643047750a1627847724a162b447754a1623047700a1607847718a160b44771ca16030476f0a15e78476c0a15eb4476f4a15e3047688a15c7847690a15cb447694a15c304767ca15a7847604a15ab447680a15a30475f4a15878475f8a158b4475fca15830475c0a1567847598a156b4475eca156304758ca154784756ca154b447590a1543047560a1527847548a152b447564a1523047508a150784753ca150b447540a15030474f0a14e78474f8a14eb4474fca14e30474e4a14c7847484a14cb4474e8a14c3047474a14a7847478a14ab44747ca14a3047468a1487846ac8a148b4)
  (.lf 0)) (.nd (.lf
  0x23abc885d2c23a30885b2c239a888592c2391888572c2388488552c237f088532c2376488512c236d4884f2c23644884d2c235b4884b2c2352488492c2349088472c233f888452c2335088432c232d48840cc452688c7f2c452408c7d2c452148c7b2c451e88c792c451bc8c772c4518c8c752c4515c8c732c4512c8c712c450fc8c6f2c450cc8c6d2c4509c8c6b2c450708c692c450448c672c450148c652c44fe88c632c44fbc8c612c44f908c5f2c44f648c5d2c44f388c5b2c44f0c8c592c44ee08c572c44eb48c552c44e888c532c44e5c8c512c44e308c4f2c44e048c4d2c44dd88c4b2c44dac8c492c44d808c472c44d548c452c44d288c432c44d188c40cc28060907f2c28008907d2c27f7c907b2c27edc90792c27e4090772c27da090752c27cfc90732c27c6090712c27bc0906f2c27b1c906d2c27a78906b2c279d490692c2793890672c2789890652c277fc90632c2776490612c276c4905f2c)
  (.lf 0))) (.nd (.nd (.lf
  0x9f6017361e09fe01736b409fe417361409edc17334009f581734a009e5c1731f409ed81732a009dd417301e09e541730b409e5817301409d48172e1e09dc8172eb409dcc172e1409cbc172c1e09d3c172cb409d40172c1409c30172a1e09cb0172ab409cb4172a1409ba417281e09c241728b409c2817281409b2017254009b9c1726a009aa017234009b1c1724a009a201721f409a9c1722a00999817201e09a181720b409a1c17201409914171d4009990171ea009894171b4009910171ca0098141719f409890171aa00978c17181e0980c1718b40981017181409708171540097841716a009688171340097041714a0096081711f4096841712a00958017101e096001710b409604171014094f4170e1e09574170eb409578170e1409468170c1e094e8170cb4094ec170c14093dc170a1e0945c170ab409460170a140935017081e093d01708b4093d4170814092cc170540093481706a00924c170340)
  (.lf 0)) (.nd (.lf
  0x7de10f2d8cc7ddccf2d6cc7ddc0f2d4cc7dd7cf2d2cc7dbd4f2d0cc7dbd0f2cecc7e180f2cccc7dad8f2cacc7dbe0f2c8cc7dae0f2c6cc7d4e4f2c4cc7d3e0f2c2cc7e174f2fdd07e160f2fbd07e144f2f9d07e134f2f7d07e0b0f2f5d07e09cf2f3d07e088f2f1d07e074f2efd07e05cf2edd07e048f2ebd07e030f2e9d07e018f2e7d07e000f2e5d07df04f2e3d07deecf2e1d07ded8f2dfd07dec0f2ddd07dea8f2dbd07de98f2d9d07ddf0f2d7d07ddd8f2d5d07dd90f2d3d07dd14f2d1d07dcfcf2cfd07dcecf2cdd07dcdcf2cbd07dbe8f2c9d07db10f2c7d07d550f2c5d07d3ecf2c3d07d378f2c1107e588f33d407e554f337407e49cf32d407e46cf329f47e45cf327f47e43cf325f47e42cf323f47e41cf321407e3c4f31df47e3b4f31bf47e398f319f47e370f317f47e360f315f47e330f313f47e2a8f311f47e1b8f30ff47e1a0f30df47dc1cf30bf47dc04f309f47daf4f307f47d4f8f30540)
  (.lf 0)))

def shaWireTree455 : BTree :=
  .nd (.nd (.nd (.lf
  0x51d68a70c1e51db0a70cb451db4a70c1451d24a7094051d60a70aa051a70a707f451d20a708a0519b0a7061e51a5ca706b451a6ca706145197ca703f4519a8a704a051974a702b451978a7021451170a7fc7851174a7fcb451178a7fc305115ca7fa7851160a7fab451164a7fa3051148a7f87851144a7f8b451150a7f83051138a7f67851134a7f6b45113ca7f63051120a7f47851124a7f4b451128a7f43051108a7f2785110ca7f2b451114a7f230510fca7f078510f4a7f0b451100a7f030510e8a7ee78510e4a7eeb4510eca7ee30510cca7ec78510d4a7ecb4510d8a7ec30510c0a7ea78510bca7eab4510c4a7ea30510a8a7e878510aca7e8b4510b0a7e8305108ca7e67851098a7e6b45109ca7e6305107ca7e47851080a7e4b451084a7e4305106ca7e27851064a7e2b451070a7e23051058a7e07851050a7e0b45105ca7e03051044a7de7851040a7deb451048a7de3051034a7dc7851030a7dcb4)
  (.lf 0)) (.nd (.lf
  0x3c11882532c3c10882512c3c1c0824f2c3c0e0824d2c3c0cc824b2c3c0b882492c3c0a482472c3c09082452c3c07c82432c3bac48240cc42380867f2c42368867d2c4234c867b2c4235886792c4232486772c4230c86752c422f086732c422d886712c422c0866f2c422a0866d2c422a8866b2c4227886692c4226086672c4224c86652c4223486632c4238c86612c42194865f2c41fc4865d2c41f48865b2c41f2886592c41ee086572c41ee886552c41c7086532c41c1486512c41d60864f2c41bdc864d2c41b84864b2c41b6086492c41b1486472c41a9086452c4198086432c419748640cc3cc4c8a7f2c3cc3c8a7d2c3cc288a7b2c3cc188a792c3cc008a772c3cbec8a752c3cbd88a732c3cbc08a712c3cbac8a6f2c3cb988a6d2c3cb848a6b2c3cb708a692c3cb5c8a672c3cb488a652c3cb388a632c3cb248a612c3cb088a5f2c3cb108a5d2c3cae48a5b2c3cad08a592c3cac08a572c3caa88a552c)
  (.lf 0))) (.nd (.nd (.lf
  0x353c0002201353c40021ff353c80021fd353cc0021fb353d00021f9353d40021f7353d80021f5353dc0021f3353e00021f1353e40021ef353e80021ed353ec0021eb353f00021e9353f40021e7353f80021e5353fc0021e3354000021e1372f40021df372f80021dd372fc0021db373000021d9373040021d7373080021d53730c0021d3373100021d1373140021cf373180021cd3731c0021cb373200021c9373240021c7373280021c53732c0021c3373300021c1373340021bf373380021bd3733c0021bb373400021b9373440021b7373480021b53734c0021b3373500021b1373540021af373580021ad3735c0021ab373600021a9373640021a7373680021a53736c0021a3373700021a13839000219f3830800219d3828000219b381f000219938164002197380d400219539294002193392980021913929c00218f392a000218d392a400218b392a8002189392ac002187392b0002185392b4002183)
  (.lf 0)) (.nd (.lf
  0x715f0e8b1d0715dce8afd0715c8e8add0715b4e8abd0715a0e8a9d07158ce8a7d07157ce8a5d071488e8a3d071478e8a1d071464e89fd071450e89dd07143ce89bd071428e899d071414e897d071400e895d0713ece893d0713d4e891d0713c4e88fd0713b0e88dd071330e88bd07131ce889d071304e887d0712f4e885d0712e4e883d0712d0e88110723c4e87ecc723cce87ccc723d4e87acc72450e878cc72458e876cc72460e874cc72468e872cc72470e870cc72478e86ecc72480e86ccc72488e86acc72490e868cc72498e866cc724a0e864cc724a8e862cc724b0e860cc724b8e85ecc724c0e85ccc724c8e85acc724d0e858cc724d8e856cc724e0e854cc724e8e852cc724f0e850cc724f8e84ecc72500e84ccc72508e84acc72510e848cc72518e846cc72520e844cc72528e842cc7293ce87dd072924e87bd072910e879d0728ece877d0728dce875d0728c8e873d0728b0e871d072898e86fd0)
  (.lf 0)))

def shaWireTree456 : BTree :=
  .nd (.nd (.nd (.lf
  0x443d499bf2c4420899bd2c440d099bb2c4408c99b92c43fc499b72c43ec499b52c43e8899b32c43e0c99b12c43dd499af2c43cb499ad2c43b3899ab2c43a8899a92c43a3c99a72c439e899a52c438d899a32c4385099a12c437e0999f2c43778999d2c436a0999b2c4360099992c4358499972c4353899952c4352499932c433f899912c43360998f2c432c4998d2c4325c998b2c4324c99892c42d9099872c42c4499852c42c3099832c42bfc9980cc45fd49dbf2c45fc09dbd2c45f8c9dbb2c45f349db92c45f1c9db72c45f089db52c45ef89db32c45ee49db12c45ecc9daf2c45f389dad2c45e9c9dab2c45ff49da92c45c609da72c45be89da52c45bbc9da32c45b909da12c45b849d9f2c45b4c9d9d2c45a9c9d9b2c45a549d992c45a089d972c459909d952c459749d932c459809d912c458a49d8f2c458289d8d2c4580c9d8b2c457789d892c455989d872c453c49d852c453589d832c453049d80cc)
  (.lf
  0x309b464bdd03095464bbd0308e064b9d03087064b7d0307fc64b5d03078c64b3d03071c64b1d03069c64afd03061c64add03059c64abd03051464a9d03048864a7d03040464a5d03038464a3d03030464a1d03027c649fd0301f0649dd030164649bd0300e06499d0300606497d02ffe06495d02ff586493d02fecc6491d02fe48648fd02fdc8648dd02fd40648bd02fcb46489d02fc306487d02fba86485d02fb246483d02fa6c6481101d288647ecc1d290647ccc1d298647acc1d3146478cc1d31c6476cc1d3246474cc1d32c6472cc1d3346470cc1d33c646ecc1d344646ccc1d34c646acc1d3546468cc1d35c6466cc1d3646464cc1d36c6462cc1d3746460cc1d37c645ecc1d384645ccc1d38c645acc1d3946458cc1d39c6456cc1d3a46454cc1d3ac6452cc1d3b46450cc1d3bc644ecc1d3c4644ccc1d3cc644acc1d3d46448cc1d3dc6446cc1d3e46444cc1d3ec6442cc1d650647dd01d63c647bd0))
  (.nd (.lf
  0x282a0003381282a400337f282a800337d282ac00337b282b0003379282b4003377282b8003375282bc003373282c0003371282c400336f282c800336d282cc00336b282d0003369282d4003367282d8003365282dc003363282e0003361298b400335f298b800335d29d2000335b29cc400335929c6800335729c1000335529bb800335329b6000335129b0800334f29ab000334d29a5800334b29a14003349299dc00334729d2400334529cc800334329c6c00334129c1400333f29bbc00333d29b6400333b29b0c00333929ab400333729a5c00333529a18003333299e0003331299b000332f2998800332d2996000332b2993800332929910003327298e8003325298bc003323298c00033212b88000331f2b5ac00331d2b88400331b2b8880033192b88c0033172b8900033152b8940033132b8980033112b89c00330f2b8a000330d2b8a400330b2b8a80033092b8ac0033072b8b00033052b8b4003303)
  (.lf 0))) (.nd (.nd (.lf
  0x36534727630364607274b4364bc727478364c0727430364047272b43645472727836458727230363907270b4363f8727078363fc72703036308726eb436384726e7836388726e3036284726cb4362fc726c7836300726c3036218726ab436278726a783627c726a30361a87268b43620c72687836210726830361447266b43619c726678361a0726630360d47264b4361387264783613c726430360647262b4360c8726278360cc72623035ff47260b4360587260783605c72603035f84725eb435fe8725e7835fec725e3035f14725cb435f78725c7835f7c725c3035ea8725ab435f08725a7835f0c725a3035e3c7258b435e9c72587835ea072583035dc87256b435e3072567835e3472563035d587254b435dbc72547835dc072543035ce47252b435d4c72527835d5072523035c687250b435cd872507835cdc72503035bf0724eb435c5c724e7835c60724e3035b6c724cb435be4724c7835be8724c30)
  (.lf 0)) (.nd (.lf
  0x3f1c80068f33f1d00068f13f1d80068ef3f1e00068ed3f1e80068eb3f1f00068e93f1f80068e73f2000068e53f2080068e33f2100068e1402580068df402600068dd402680068db402700068d9402780068d7402800068d5402880068d3402900068d1402980068cf402a00068cd402a80068cb402b00068c9402b80068c7402c00068c5402c80068c3402d00068c1402d80068bf402e00068bd402e80068bb402f00068b9402f80068b7403000068b5403080068b3403100068b1403180068af403200068ad403280068ab403300068a9403380068a7403400068a5403480068a3403500068a142ab800689f42abc00689d42ac000689b42ac400689942ac800689742ad000689543110006893431180068914312000688f42d1800688d42ad800688b43128006889431300068874313800688542d2000688342ae000688142ae800687f42af000687d42af800687b42b0000687942b0800687742b10006875)
  (.lf 0)))

def shaWireTree457 : BTree :=
  .nd (.nd (.nd (.lf
  0x2ecc1586b402f4415863002ec015847802e4c1584b402ec415843002e4015827802e101582b402e4415823005608197c7805674197cb405678197c300557c197a78055fc197ab405600197a30054ec197878055701978b40557419783005470197678054e01976b4054e4197630053e0197478054641974b40546819743005364197278053d41972b4053d8197230052d8197078053581970b40535c1970300524c196e78052cc196eb4052d0196e30051bc196c7805240196cb405244196c300513c196a78051b0196ab4051b4196a30050bc196878051301968b4051341968300503c196678050b01966b4050b419663004fbc196478050301964b40503419643004f3c19627804fb01962b404fb419623004ec019607804f301960b404f3419603004e34195e7804eb4195eb404eb8195e3004da8195c7804e28195cb404e2c195c3004d1c195a7804d9c195ab404da0195a3004c9019587804d101958b4)
  (.lf 0)) (.nd (.lf
  0x42f688bdd2c42f548bdb2c42f408bd92c42f2c8bd72c42f248bd52c42f048bd32c42ef88bd12c42ecc8bcf2c42ce48bcd2c42a648bcb2c429048bc92c428fc8bc72c427e88bc52c427908bc32c4277c8bc0cc445d48fff2c445cc8ffd2c445b08ffb2c445988ff92c445848ff72c445748ff52c445608ff32c445448ff12c445488fef2c445208fed2c445088feb2c4450c8fe92c444dc8fe72c444cc8fe52c444b48fe32c444a08fe12c444888fdf2c444748fdd2c444a48fdb2c444548fd92c4443c8fd72c4442c8fd52c444e88fd32c442448fd12c441948fcf2c441888fcd2c4403c8fcb2c440288fc92c43ef88fc72c43e408fc52c43d948fc32c43d348fc0cc4795893ff2c4794493fd2c4792c93fb2c4791093f92c478fc93f72c478e493f52c478c893f32c478b093f12c4781093ef2c477f893ed2c477e493eb2c477c893e92c4781893e72c4777c93e52c4774c93e32c476e893e12c4766c93df2c)
  (.lf 0))) (.nd (.nd (.lf
  0x61220c8b4786122cc8b43061210c8b2b46120cc8b27861214c8b230611fcc8b0b4611f8c8b07861200c8b030611e4c8aeb4611ecc8ae78611f0c8ae30611d4c8acb4611d8c8ac78611dcc8ac30611c0c8aab4611c8c8aa78611ccc8aa30611b0c8a8b4611acc8a878611b4c8a8306119cc8a6b4611a0c8a678611a4c8a63061190c8a4b461188c8a47861194c8a43061178c8a2b461174c8a2786117cc8a23061168c8a0b461160c8a0786116cc8a03061150c89eb461154c89e7861158c89e3061138c89cb461134c89c7861144c89c3061120c89ab461128c89a786112cc89a3061114c898b46110cc8987861118c8983061100c896b4610fcc8967861104c89630610ecc894b4610e8c89478610f4c89430610dcc892b4610d8c89278610e0c89230610c0c890b4610bcc89078610ccc89030610acc88eb4610a8c88e78610b0c88e3061098c88cb46109cc88c78610a0c88c3061084c88ab46108cc88a78)
  (.lf 0)) (.nd (.lf
  0x404c09277d0404ac9275d0404989273d0404849271d040470926fd04045c926dd040448926bd0404349269d0404209267d04040c9265d0403f89263d0403e49261d0403d0925fd0401e4925dd0401d0925bd0401bc9259d0400949257d03fdd49255d03fdc09253d03fdac9251d03fd98924fd03fd84924dd03fd70924bd03fd5c9249d03fd489247d03fd349245d03fd209243d03f2489241104694092fecc4692c92fccc4694492facc4690092f8cc468ec92f6cc468c492f4cc468b092f2cc4689492f0cc4688092eecc468cc92eccc4685892eacc4684092e8cc4682092e6cc4680892e4cc4682892e2cc467dc92e0cc467c892decc4695092dccc4679892dacc4678092d8cc4676492d6cc4678492d4cc4694c92d2cc4672892d0cc4672c92cecc466f892cccc46af492cacc466f492c8cc46a2c92c6cc466b092c4cc4697c92c2cc46f5892fdd046f2c92fbd046e9092f9d046e7c92f7d046e6892f5d0)
  (.lf 0)))

def shaWireTree458 : BTree :=
  .nd (.nd (.nd (.lf
  0x5f5a8cd44785f5a4cd44b45f5accd44305f584cd42785f580cd42b45f588cd42306025ccdbc7860190cdbcb460260cdbc30600a4cdba78600f4cdbab460188cdba306008ccdb87860094cdb8b460098cdb83060080cdb67860078cdb6b460084cdb63060064cdb4786006ccdb4b460070cdb43060050cdb27860054cdb2b460058cdb23060024cdb07860020cdb0b460048cdb0305fc3ccdae785fc40cdaeb45fc44cdae305fc30cdac785fc2ccdacb45fc34cdac305fc20cdaa785fc18cdaab45fc24cdaa305fc04cda8785fc08cda8b45fc10cda8305fbf8cda6785f3a8cda6b45fbfccda6305f398cda4785f358cda4b45f3a0cda4305f34ccda2785f33ccda2b45f350cda2305f330cda0785f31ccda0b45f334cda0305f310cd9e785f2f4cd9eb45f314cd9e305f2e8cd9c785f2cccd9cb45f2eccd9c305f2bccd9a785f2b4cd9ab45f2c0cd9a305f2a8cd98785f270cd98b45f2accd98305f25ccd9678)
  (.lf 0)) (.nd (.lf
  0x53878a81d2c5384ca81b2c53820a8192c537f4a8172c537c8a8152c5379ca8132c53770a8112c53744a80f2c53718a80d2c536eca80b2c536c0a8092c53694a8072c53668a8052c5363ca8032c5362ca800cc55e5cac3f2c55e34ac3d2c55e08ac3b2c55ddcac392c55db0ac372c55d84ac352c55d58ac332c55d2cac312c55d00ac2f2c55cd4ac2d2c55ca8ac2b2c55c7cac292c55c50ac272c55c24ac252c55bf8ac232c55bccac212c55ba0ac1f2c55b74ac1d2c55b48ac1b2c55b1cac192c55af0ac172c55ac4ac152c55a98ac132c55a6cac112c55a40ac0f2c55a14ac0d2c559e8ac0b2c559bcac092c55990ac072c55964ac052c55938ac032c55928ac00cc581a0b03f2c58178b03d2c5814cb03b2c58120b0392c580f4b0372c580c8b0352c5809cb0332c58070b0312c58044b02f2c58018b02d2c57fecb02b2c57fc0b0292c57f94b0272c57f68b0252c57f3cb0232c57f10b0212c57ee4b01f2c)
  (.lf 0))) (.nd (.nd (.lf
  0xb6742a6eb40b6002a6e780b6782a6e300b5f42a6cb40b5842a6c780b5f82a6c300b5782a6ab40b4f82a6a780b57c2a6a300b4ec2a68b40b46c2a68780b4f02a68300b4602a66b40b3e02a66780b4642a66300b3d42a64b40b3542a64780b3d82a64300b3482a62b40b2c82a62780b34c2a62300b2bc2a60b40b23c2a60780b2c02a60300b2302a5eb40b1ac2a5e780b2342a5e300b1a02a5cb40b12c2a5c780b1a42a5c300b1202a5ab40b0ac2a5a780b1242a5a300b0a02a58b40b02c2a58780b0a42a58300b0202a56b40afac2a56780b0242a56300afa02a54b40af302a54780afa42a54300af242a52b40aea02a52780af282a52300ae942a50b40ae242a50780ae982a50300ae182a4eb40ad942a4e780ae1c2a4e300ad882a4cb40ad182a4c780ad8c2a4c300ad0c2a4ab40ac882a4a780ad102a4a300ac7c2a48b40ac082a48780ac802a48300abfc2a46b40ab982a46780ac002a46300ab8c2a44b4)
  (.lf 0)) (.nd (.lf
  0x1153c395fd0114ac395dd01142c395bd0113ac3959d01132c3957d0112b03955d0112203953d0111a43951d011118394fd011088394dd01100c394bd010f803949d010ef43947d010e683945d010dec3943d010d9839411011d4439becc11cf439bccc11c5039bacc11bf039b8cc11b7039b6cc11ac439b4cc11a6439b2cc119e439b0cc1196439aecc118e439accc1183839aacc117ac39a8cc1174c39a6cc116cc39a4cc1164c39a2cc115a039a0cc11514399ecc114b4399ccc11434399acc113b43998cc113343996cc112883994cc112283992cc1117c3990cc110f0398ecc11090398ccc10fe4398acc10f583988cc10ecc3986cc10e403984cc10dc43982cc11cdc39bdd011c6039bbd011bd039b9d011b5039b7d011ad439b5d011a4439b3d0119c439b1d01194439afd0118c439add01184839abd0117bc39a9d01172c39a7d0116ac39a5d01162c39a3d0115b039a1d011524399fd011494399dd0)
  (.lf 0)))

def shaWireTree459 : BTree :=
  .nd (.nd (.nd (.lf
  0x5c708ba54305c690ba52b45c6c8ba52785c6ccba52305c644ba50b45c67cba50785c680ba50305c608ba4eb45c62cba4e785c630ba4e305c5fcba4cb45c5f8ba4c785c600ba4c305c5e8ba4ab45c5ecba4a785c5f0ba4a305c50cba48b45c51cba48785c524ba48305c4e4ba46b45c4fcba46785c504ba46305c2e8ba44b45c4d8ba44785c4dcba44305c2b0ba42b45c2dcba42785c2e0ba42305cfd4bafcb45cf0cbafc785cfd8bafc305cf00bafab45cea4bafa785cf04bafa305ce98baf8b45ce10baf8785ce9cbaf8305ce04baf6b45cda4baf6785ce08baf6305cd98baf4b45cd1cbaf4785cd9cbaf4305cce8baf2b45ccbcbaf2785ccecbaf2305ccb0baf0b45cbfcbaf0785ccb4baf0305cbf0baeeb45cb94baee785cbf4baee305cb80baecb45cb00baec785cb84baec305caf4baeab45ca90baea785caf8baea305ca84bae8b45ca18bae8785ca88bae8305ca0cbae6b45c9ccbae6785ca10bae630)
  (.lf 0)) (.nd (.lf
  0x423c486e52c423ac86e32c4239c86e12c4219c86df2c41fcc86dd2c41f6086db2c4205c86d92c41f0086d72c41ef086d52c41d9886d32c41d7886d12c41d6886cf2c41c8886cd2c41c9c86cb2c41b9486c92c41b2086c72c443c48aff2c441dc8afd2c440ac8afb2c440648af92c43f808af72c43cfc8af52c43cec8af32c43cd08af12c43c948aef2c43c808aed2c43b088aeb2c43a788ae92c4398c8ae72c439348ae52c438c08ae32c438408ae12c437508adf2c4372c8add2c4367c8adb2c435f08ad92c434948ad72c434688ad52c434648ad32c433b88ad12c433188acf2c431d88acd2c431b48acb2c431908ac92c42d588ac72c42ba48ac52c45d808eff2c45d688efd2c45d588efb2c45d448ef92c45d2c8ef72c45d288ef52c45cfc8ef32c45ce88ef12c45cd08eef2c45cc08eed2c45ca88eeb2c45c8c8ee92c45b308ee72c45b188ee52c45b088ee32c45af08ee12c45adc8edf2c45b388edd2c)
  (.lf 0))) (.nd (.nd (.lf
  0x1b6fc4c36301b6b44c34b41b67c4c34781b6b84c34301b6704c32b41b6384c32781b6744c32301b62c4c30b41b5f44c30781b6304c30301b5e84c2eb41b5b04c2e781b5ec4c2e301b5a44c2cb41b56c4c2c781b5a84c2c301b5604c2ab41b5284c2a781b5644c2a301b51c4c28b41b4e44c28781b5204c28301b4d84c26b41b4a04c26781b4dc4c26301b4944c24b41b45c4c24781b4984c24301b4504c22b41b4184c22781b4544c22301b40c4c20b41b3d44c20781b4104c20301b3c84c1eb41b3904c1e781b3cc4c1e301b3844c1cb41b34c4c1c781b3884c1c301b3404c1ab41b3084c1a781b3444c1a301b2fc4c18b41b2c44c18781b3004c18301b2b84c16b41b2804c16781b2bc4c16301b2744c14b41b23c4c14781b2784c14301b2304c12b41b1f84c12781b2344c12301b1ec4c10b41b1b44c10781b1f04c10301b1a84c0eb41b1704c0e781b1ac4c0e301b1644c0cb41b12c4c0c781b1684c0c30)
  (.lf 0)) (.nd (.lf
  0x81ec12a3d00816012a1d0080dc129fd008054129dd007fc8129bd007f441299d007ec41297d007e441295d007dc41293d007d3c1291d007cb8128fd007c38128dd007bb0128bd007b2c1289d007aa41287d007a181285d0079941283d0078d412811001bd0127ecc01ba8127ccc01b7c127acc01b501278cc01b241276cc01af81274cc01acc1272cc01aa01270cc01a74126ecc01a48126ccc01a1c126acc019f01268cc019c41266cc019981264cc0196c1262cc019401260cc01914125ecc018e8125ccc018bc125acc018901258cc018641256cc018381254cc0180c1252cc017e01250cc017b4124ecc01788124ccc0175c124acc017301248cc017041246cc016d81244cc016ac1242cc01bb8127dd001b8c127bd001b601279d001b341277d001b081275d001adc1273d001ab01271d001a84126fd001a58126dd001a2c126bd001a001269d0019d41267d0019a81265d00197c1263d0019501261d0)
  (.lf 0)))

def shaWireTree460 : BTree :=
  .nd (.nd (.nd (.lf
  0x49d6c00154b49d7000154949d7400154749d7800154549d7c00154349d8000154149d8400153f49d8800153d49d8c00153b49d9000153949d9400153749d9800153549d9c00153349da000153149da400152f49da800152d4c65400152b4c6580015294c65c0015274c6600015254c6640015234c6680015214c66c00151f4c67000151d4c67400151b4c6780015194c67c0015174c6800015154c6840015134c6880015114c68c00150f4c69000150d4c69400150b4c6980015094c69c0015074c6a00015054c6a40015034c6a80015014eac80014ff4eacc0014fd4ead00014fb4ead40014f94ead80014f74eadc0014f54eae00014f34eae40014f14eae80014ef4eaec0014ed4eaf00014eb4eaf40014e94eaf80014e74eafc0014e54eb000014e34eb040014e14eb080014df4eb0c0014dd4eb100014db4eb140014d94eb180014d74eb1c0014d54f8980014d34f89c0014d14f8a00014cf4f8a40014cd)
  (.lf 0)) (.nd (.lf
  0x34a8073a0b434a84739eb434a88739cb434a8c739ab434a907398b434a947396b434a987394b434a9c7392b434aa07390b434aa4738eb4347f0738cb4347f4738ab4347f87388b4347fc7386b4350f07384b4348007382b4350b87380b432e5473be7832e3473bc7832e1073ba7832dec73b87832dc873b67832da473b47832d8073b27832d5c73b07832d3873ae7832d1473ac7832cf073aa7832ccc73a87832ca873a67832c8073a47832c5c73a27832c3873a07832c14739e7832bf0739c7832bcc739a7832b8873987832b8c73967832b9073947832b9473927832b9873907832b9c738e7832ba0738c7832ba4738a7832ba873887832bac73867832bb073847832bb473827832bb873807834aa873be3034aac73bc3034ab073ba3034ab473b83034ab873b63034abc73b43034ac073b23034ac473b03034ac873ae3034acc73ac3034ad073aa3034ad473a83034ad873a63034adc73a43034ae073a230)
  (.lf 0))) (.nd (.nd (.lf
  0x252404e8a30252004e8878251fc4e88b4252044e8830251c84e8678251c44e86b4251cc4e8630251884e8478251844e84b42518c4e8430251584e8278251544e82b42515c4e82301b77c4e7cb41b7b44e7c781b7b84e7c301b7384e7ab41b7704e7a781b7744e7a301b6f44e78b41b72c4e78781b7304e78301b6b04e76b41b6e84e76781b6ec4e76301b66c4e74b41b6a44e74781b6a84e74301b6284e72b41b6604e72781b6644e72301b5e44e70b41b61c4e70781b6204e70301b5a04e6eb41b5d84e6e781b5dc4e6e301b55c4e6cb41b5944e6c781b5984e6c301b5184e6ab41b5504e6a781b5544e6a301b4d44e68b41b50c4e68781b5104e68301b4904e66b41b4c84e66781b4cc4e66301b44c4e64b41b4844e64781b4884e64301b4084e62b41b4404e62781b4444e62301b3c44e60b41b3fc4e60781b4004e60301b3804e5eb41b3b84e5e781b3bc4e5e301b33c4e5cb41b3744e5c781b3784e5c30)
  (.lf 0)) (.nd (.lf
  0x56920bd57d05678cbd55d056750bd53d0566f8bd51d0566d4bd4fd056690bd4dd05667cbd4bd056668bd49d056504bd47d055ff8bd45d055f6cbd43d055f14bd411056fe0bdbecc56fc4bdbccc56fa8bdbacc56fa0bdb8cc56ec4bdb6cc56e2cbdb4cc56d98bdb2cc56d0cbdb0cc56c34bdaecc56ae0bdaccc56abcbdaacc56aecbda8cc56af8bda6cc56a58bda4cc569f8bda2cc56824bda0cc5680cbd9ecc56834bd9ccc567e8bd9acc567ccbd98cc56838bd96cc56784bd94cc56718bd92cc56590bd90cc56548bd8ecc56544bd8ccc564b4bd8acc56328bd88cc562f0bd86cc55fc0bd84cc55f48bd82cc5712cbdbdd057118bdbbd057108bdb9d056ed8bdb7d056e3cbdb5d056da8bdb3d056d3cbdb1d056ca0bdafd056b44bdadd056b30bdabd056b1cbda9d056b08bda7d056a68bda5d056a08bda3d0568acbda1d056898bd9fd056884bd9dd056870bd9bd05685cbd99d056848bd97d0567acbd95d0)
  (.lf 0)))

def shaWireTree461 : BTree :=
  .nd (.nd (.nd (.lf
  0x76248def27876250def23076238def0b47623cdef07876240def03076228deeeb47621cdeee787622cdeee307620cdeecb476210deec7876214deec30761f8deeab476200deea7876204deea30761e0dee8b4761e4dee878761ecdee830761c8dee6b4761d4dee678761d8dee630761b8dee4b4761b4dee478761c0dee43076194dee2b4761a4dee278761a8dee23076184dee0b476188dee0787618cdee03076178dedeb476170dede787617cdede3076160dedcb476164dedc7876168dedc3076140dedab476144deda7876150deda3076130ded8b47612cded87876138ded83076120ded6b47611cded67876124ded630760fcded4b476100ded47876104ded430760f0ded2b4760e4ded278760f4ded230760d8ded0b4760d4ded078760dcded030760b4deceb4760c0dece78760c4dece30760a8deccb47609cdecc78760acdecc3076088decab476084deca787608cdeca3076078dec8b476074dec878)
  (.lf 0)) (.nd (.lf
  0x42a4800587d428c800587b428cc005879427bc0058774276000587542ebc00587342ec000587142ec400586f42cd800586d42a4c00586b428d0005869428d4005867427c0005865427640058634276800586143b5800585f43aa400585d4440800585b4422c00585944140005857440fc00585543fe400585343f2400585143ee400584f43e2c00584d43dc800584b43d2800584943b5c0058474441000584544234005843441480058414410400583f43fe800583d43f2c00583b43eec00583943e3400583743dc0005835444180058334423c0058314415000582f4410800582d43ff000582b43f3000582943ef000582743e3800582543d8c00582343d300058214639800581f463a000581d463a800581b464c4005819463b0005817463b8005815473fc005813463c0005811463c800580f463d000580d463d800580b463e0005809464cc005807463e8005805463f000580347400005801463f80057ff)
  (.lf 0))) (.nd (.nd (.lf
  0x3c5e48816b43c6048816783c6088816303c5b88814b43c5d88814783c5dc8814303c58c8812b43c5ac8812783c5b08812303c5608810b43c5808810783c5848810303c534880eb43c554880e783c558880e303c508880cb43c528880c783c52c880c303c4dc880ab43c4fc880a783c500880a303c4b08808b43c4d08808783c4d48808303c4848806b43c4a48806783c4a88806303c4588804b43c4788804783c47c8804303c43c8802b43c44c8802783c45088023044b948cbcb444b908cbc7844b988cbc3044b808cbab444b7c8cba7844b848cba3044b6c8cb8b444b688cb87844b708cb83044b588cb6b444b548cb67844b5c8cb63044b448cb4b444b408cb47844b488cb43044b308cb2b444b2c8cb27844b348cb23044b1c8cb0b444b188cb07844b208cb03044b088caeb444b048cae7844b0c8cae3044af48cacb444af08cac7844af88cac3044ae08caab444adc8caa7844ae48caa3044acc8ca8b4)
  (.lf 0)) (.nd (.lf
  0x27e805278cc27de05276cc27d3c5274cc27ca05272cc27c005270cc27b5c526ecc27ab8526ccc27a14526acc279785268cc278d85266cc2783c5264cc277a45262cc277045260cc27668525ecc275d0525ccc27530525acc274945258cc273f45256cc273505254cc272b45252cc2721c5250cc27184524ecc270e4524ccc27040524acc26fa45248cc26f045246cc26e605244cc26dbc5242cc27fec527dd027f58527bd027eb85279d027e1c5277d027d7c5275d027cd85273d027c3c5271d027b9c526fd027af8526dd027a54526bd0279b05269d0279145267d0278745265d0277d85263d0277405261d0276a0525fd027604525dd02756c525bd0274cc5259d0274305257d0273905255d0272ec5253d0272505251d0271b8524fd027120524dd027080524bd026fdc5249d026f405247d026ea05245d026dfc5243d026d785241102804852fecc27fc452fccc27f2452facc27e8852f8cc27de852f6cc)
  (.lf 0)))

def shaWireTree462 : BTree :=
  .nd (.nd (.nd (.lf
  0x2ed0071a4302ece471a2782ece871a2b42ecec71a2302ecc471a0782ecc071a0b42ecc871a0302ec68719e782ec6c719eb42ec70719e302ec50719c782ec54719cb42ec5c719c302ec3c719a782ec40719ab42ec44719a302ec2c7198782ec307198b42ec347198302ec187196782ec1c7196b42ec207196302ec087194782ec047194b42ec0c7194302ebe07192782ebf47192b42ebf87192302ebd47190782eb587190b42ebd87190302e9f0718e782e9f4718eb42e9f8718e302e9dc718c782e9e0718cb42e9e4718c302e9d0718a782e9cc718ab42e9d4718a302e9bc7188782e9c07188b42e9c47188302e9ac7186782e9b07186b42e9b47186302e99c7184782e9a07184b42e9a47184302e9907182782e9847182b42e994718230311b0757c78311b4757cb4311b8757c30311a4757a78311a0757ab4311a8757a3031160757878311947578b431198757830311507576783114c7576b431154757630)
  (.lf 0)) (.nd (.lf
  0x23a64489d2c239dc489b2c2394c48992c238b848972c2382448952c2379848932c2370848912c23678488f2c235e8488d2c23558488b2c234c448892c2342c48872c2338448852c232e048832c232944880cc1aa844cbf2c1aa704cbd2c1aa5c4cbb2c1aa484cb92c1aa344cb72c1aa204cb52c1aa0c4cb32c1a9f84cb12c1a9e44caf2c1a9d04cad2c1a9bc4cab2c1a9a84ca92c1a9944ca72c1a9804ca52c1a96c4ca32c1a9584ca12c1a9444c9f2c1a9304c9d2c1a91c4c9b2c1a9084c992c1a8f44c972c1a8e04c952c1a8cc4c932c1a8b84c912c1a8a44c8f2c1a8904c8d2c1a87c4c8b2c1a8684c892c1a8544c872c1a8404c852c1a82c4c832c1a8284c80cc2803450bf2c27fb050bd2c27f1050bb2c27e7450b92c27dd450b72c27d3050b52c27c9450b32c27bf450b12c27b5050af2c27aac50ad2c27a0850ab2c2796c50a92c278cc50a72c2783050a52c2779850a32c276f850a12c2765c509f2c)
  (.lf 0))) (.nd (.nd (.lf
  0xfec030b4001020030ca000fb40309f400fe8030aa000fac0308b400fb0030814023a803fc78023a403fcb4023ac03fc300239403fa780239003fab40239803fa300238003f8780237c03f8b40238403f8300236c03f6780236803f6b40237003f6300235803f4780235403f4b40235c03f4300234403f2780234003f2b40234803f2300233003f0780232c03f0b40233403f0300231c03ee780231803eeb40232003ee300230803ec780230403ecb40230c03ec30022f403ea78022f003eab4022f803ea30022e003e878022dc03e8b4022e403e830022cc03e678022c803e6b4022d003e630022b803e478022b403e4b4022bc03e430022a403e278022a003e2b4022a803e2300229003e0780228c03e0b40229403e0300227c03de780227803deb40228003de300226803dc780226403dcb40226c03dc300225403da780225003dab40225803da300224003d8780223c03d8b40224403d8300222c03d678)
  (.lf 0)) (.nd (.lf
  0x6a1c4d255d06a1acd253d06a120d251d06a110d24fd06a100d24dd06a0f0d24bd069ee8d249d069ec4d247d069680d245d069644d243d069584d241106a398d2fecc6a39cd2fccc6a374d2facc6ac70d2f8cc6a360d2f6cc6a358d2f4cc6a318d2f2cc6a300d2f0cc6a2ecd2eecc6a2d8d2eccc6a3a4d2eacc6a2d4d2e8cc6a290d2e6cc6a26cd2e4cc6a258d2e2cc6a278d2e0cc6a274d2decc6a244d2dccc6a238d2dacc6a23cd2d8cc6a240d2d6cc6a1b8d2d4cc6a128d2d2cc6a130d2d0cc6a460d2cecc6a13cd2cccc69ef0d2cacc69eccd2c8cc69edcd2c6cc69650d2c4cc69608d2c2cc6aca8d2fdd06ac94d2fbd06ac80d2f9d06a690d2f7d06a67cd2f5d06a664d2f3d06a654d2f1d06a63cd2efd06a628d2edd06a614d2ebd06a600d2e9d06a5e8d2e7d06a5d0d2e5d06a5b8d2e3d06a5a4d2e1d06a58cd2dfd06a578d2ddd06a568d2dbd06a554d2d9d06a540d2d7d06a528d2d5d06a510d2d3d0)
  (.lf 0)))

def shaWireTree463 : BTree :=
  .nd (.nd (.nd (.lf
  0x48fbc966cb448fc0966c7848fc4966c3048fac966ab448fa0966a7848fb0966a3048f949668b448f9096687848f9896683048f7c9666b448f7896667848f8096663048f649664b448f6096647848f6896643048f4c9662b448f4496627848f5096623048f389660b448f2496607848f3c96603048f18965eb448f14965e7848f1c965e3048f08965cb448f04965c7848f0c965c3048ef0965ab448eec965a7848ef4965a3048ed89658b448ed496587848edc96583048ec09656b448eb496567848ec496563048ea89654b448ea496547848eac96543048e849652b448e9096527848e9496523048e789650b448e7496507848e7c96503048e60964eb448e5c964e7848e64964e3048e48964cb448e44964c7848e4c964c3048e38964ab448e34964a7848e3c964a3048dc09648b448dbc96487848dc496483048d989646b448db096467848db496463048d089644b448d1896447848d1c96443048b709642b4)
  (.lf 0)) (.nd (.lf
  0x3f47c82932c3f45882912c3f448828f2c3f430828d2c3f41c828b2c3f4b482892c3f30482872c3f31082852c3f25082832c3f21c8280cc407b486bf2c407bc86bd2c4079486bb2c4077c86b92c4076886b72c407b886b52c4074486b32c407c086b12c4072486af2c4071086ad2c406f886ab2c406e886a92c407c486a72c406c086a52c407c886a32c406a486a12c40684869f2c40670869d2c406b8869b2c4064c86992c4063886972c4062486952c4061486932c405fc86912c405ec868f2c403c0868d2c403a8868b2c403c486892c4038486872c4037086852c4035886832c4035c8680cc443bc8abf2c441b88abd2c43c788abb2c4405c8ab92c43c488ab72c43c308ab52c43c3c8ab32c43c1c8ab12c43bf08aaf2c43bd88aad2c43af08aab2c439708aa92c439808aa72c4392c8aa52c438b08aa32c438248aa12c437248a9f2c4370c8a9d2c436648a9b2c434b48a992c434888a972c434448a952c)
  (.lf 0))) (.nd (.nd (.lf
  0x58e48b6205058e4cb61e5058ddcb61c5058de0b61a5058d90b6185058d50b6165058d54b6145058d58b6125058d0cb6105058cecb60e5058cc4b60c5058c98b60a5058c9cb6085058c54b6065058c64b60450582b8b6025058240b6005059024ba3e7859028ba3c7859038ba3a7858ff4ba387858fc8ba367858fccba347858fd0ba327858fd4ba307858fd8ba2e7858fdcba2c7858fe0ba2a7858fe4ba287858eacba267858e60ba247858e64ba227858e68ba207858e6cba1e7858decba1c7858df0ba1a7858d98ba187858d68ba167858d6cba147858d70ba127858d14ba107858cf4ba0e7858cccba0c7858ca8ba0a7858cacba087858c5cba067858c6cba0478582c0ba027858248ba00785b73cba3e505b72cba3c505b6b0ba3a505b668ba38505b5ecba36505b5d4ba34505b784ba32505b4c0ba30505b458ba2e505b418ba2c505b3c8ba2a505b32cba28505ae74ba26505ae30ba24505ae10ba2250)
  (.lf 0)) (.nd (.lf
  0x5b294bcb5d05b280bcb3d05b26cbcb1d05b254bcafd05b240bcadd05b230bcabd05b218bca9d05b208bca7d05b1f8bca5d05b1e4bca3d05b1d0bca1d05b1b8bc9fd05b1a8bc9dd05b194bc9bd05b180bc99d05b16cbc97d05b158bc95d05b144bc93d05b130bc91d05b11cbc8fd05b108bc8dd05b0f4bc8bd05b0e0bc89d05b0ccbc87d05b0b8bc85d05b0a4bc83d05b08cbc81105e46cbc7ecc5e474bc7ccc5e47cbc7acc5e4f8bc78cc5e500bc76cc5e508bc74cc5e510bc72cc5e518bc70cc5e520bc6ecc5e528bc6ccc5e530bc6acc5e538bc68cc5e540bc66cc5e548bc64cc5e550bc62cc5e558bc60cc5e560bc5ecc5e568bc5ccc5e570bc5acc5e578bc58cc5e580bc56cc5e588bc54cc5e590bc52cc5e598bc50cc5e5a0bc4ecc5e5a8bc4ccc5e5b0bc4acc5e5b8bc48cc5e5c0bc46cc5e5c8bc44cc5e5d0bc42cc5ea30bc7dd05e9f8bc7bd05e9e4bc79d05e9d0bc77d05e9bcbc75d05e9a8bc73d0)
  (.lf 0)))

def shaWireTree464 : BTree :=
  .nd (.nd (.nd (.lf
  0x66908d9bf2c668f4d9bd2c668fcd9bb2c668d0d9b92c66880d9b72c667dcd9b52c667c0d9b32c6678cd9b12c66770d9af2c66768d9ad2c66634d9ab2c66674d9a92c66694d9a72c66504d9a52c663f0d9a32c663d4d9a12c66334d99f2c6628cd99d2c66278d99b2c66210d9992c661d4d9972c65f90d9952c65f70d9932c65f48d9912c65f30d98f2c65e74d98d2c65248d98b2c6513cd9892c65118d9872c650fcd9852c64fb0d9832c64f38d980cc69100ddbf2c68f54ddbd2c68da8ddbb2c68e20ddb92c68c10ddb72c68de0ddb52c68bc8ddb32c68944ddb12c68970ddaf2c688b0ddad2c68904ddab2c687e8dda92c687b4dda72c6874cdda52c686b4dda32c685c8dda12c68588dd9f2c6849cdd9d2c683fcdd9b2c683a8dd992c68330dd972c68268dd952c67ae0dd932c67a38dd912c67998dd8f2c6773cdd8d2c676d0dd8b2c67648dd892c675f4dd872c674ecdd852c67400dd832c673d8dd80cc)
  (.lf
  0x39db0783ccc39d80783acc39d507838cc39d207836cc39cf07834cc39cc07832cc39c907830cc39c60782ecc39c30782ccc39c00782acc39bd07828cc39ba07826cc39b707824cc39b407822cc39b107820cc39ae0781ecc39ab0781ccc39a80781acc39a507818cc39a207816cc399f07814cc399c07812cc399907810cc39960780ecc39928780ccc398e8780acc398a47808cc398607806cc3981c7804cc397d07802cc39dc4783dd039d94783bd039d647839d039d347837d039d047835d039cd47833d039ca47831d039c74782fd039c44782dd039c14782bd039be47829d039bb47827d039b847825d039b547823d039b247821d039af4781fd039ac4781dd039a94781bd039a647819d039a347817d039a047815d0399d47813d0399a47811d039974780fd039944780dd03990c780bd0398cc7809d0398887807d0398447805d0398007803d0397ac7801103b5ac7cbecc3b5b47cbccc3b5bc7cbacc))
  (.nd (.lf
  0x6ad7c002b816acd0002b7f6ac24002b7d6abb8002b7b6ab64002b796ab18002b776aab8002b756aa78002b736a984002b716a95c002b6f6a904002b6d6a8d4002b6b6a880002b696a850002b676a824002b656a9d0002b636a7b8002b616c88c002b5f6c8bc002b5d6d658002b5b6d5b0002b596d550002b576d50c002b556d4c0002b536d1c8002b516d064002b4f6d020002b4d6cfbc002b4b6ce64002b496cdb0002b476d65c002b456d5b4002b436d554002b416d510002b3f6d4c4002b3d6d1cc002b3b6d068002b396d024002b376cfc0002b356ce68002b336cdb4002b316cea4002b2f6cd24002b2d6cc34002b2b6cb60002b296cb30002b276cad8002b256ca5c002b236c8e0002b216f0a4002b1f6f080002b1d6f3e0002b1b6f404002b196f3a0002b176f370002b156f334002b136f2fc002b116f2c0002b0f6f450002b0d6f264002b0b6f22c002b096f200002b076f480002b056f408002b03)
  (.lf 0))) (.nd (.nd (.lf
  0x3a7987af0b43a7a07af0783a7a47af0303a7807aeeb43a7847aee783a7907aee303a7707aecb43a76c7aec783a7747aec303a7607aeab43a75c7aea783a7647aea303a74c7ae8b43a7447ae8783a7507ae8303a7387ae6b43a7307ae6783a73c7ae6303a7207ae4b43a7247ae4783a7287ae4303a70c7ae2b43a7107ae2783a7147ae2303a6b87ae0b43a6b47ae0783a6bc7ae0303a6a47adeb43a6a07ade783a6a87ade303a6607adcb43a65c7adc783a6647adc303a6087adab43a6047ada783a60c7ada303a5607ad8b43a55c7ad8783a5a87ad8303a3c87ad6b43a39c7ad6783a5547ad6303a38c7ad4b43a3847ad4783a3907ad4303a3747ad2b43a3787ad2783a37c7ad2303a3547ad0b43a3587ad0783a35c7ad0303a3287aceb43a3487ace783a34c7ace303a0747accb43a0707acc783a0787acc303a05c7acab43a0647aca783a0687aca303a0507ac8b43a04c7ac8783a0547ac8303a0347ac6b4)
  (.lf 0)) (.nd (.lf
  0xeb00213b000eb80211b000ec0020fb000ec8020db000ed0020bb000ed80209b000ee00207b000ee80205b000ef00203b000ef80201b001cd8063fb001cdc063db001ce0063bb001ce40639b001ce80637b001cec0635b001cf00633b001cf40631b001cf8062fb001cfc062db001d00062bb001d040629b001d080627b001d0c0625b001d100623b001d140621b001d18061fb001d1c061db001d20061bb001d240619b001d280617b001d2c0615b001d300613b001d340611b001d38060fb001d3c060db001d40060bb001d440609b001d480607b001d4c0605b001d500603b001d540601b003e640a3fb003e680a3db003e6c0a3bb003e700a39b003e740a37b003e780a35b003e7c0a33b003e800a31b003e840a2fb003e880a2db003e8c0a2bb003e900a29b003e940a27b003e980a25b003e9c0a23b003ea00a21b003ea40a1fb003ea80a1db003eac0a1bb003eb00a19b003eb40a17b003eb80a15b0)
  (.lf 0)))

def shaWireTree465 : BTree :=
  .nd (.nd (.nd (.lf
  0xcea42dac300ce202daa780cdb02daab40ce242daa300cda42da8780cd242da8b40cda82da8300cd182da6780cc982da6b40cd1c2da6300cc8c2da4780cc082da4b40cc902da4300cbfc2da2780cb882da2b40cc002da2300cb7c2da0780cb082da0b40cb802da0300cafc2d9e780ca8c2d9eb40cb002d9e300ca802d9c780c9fc2d9cb40ca842d9c300c9f02d9a780c9802d9ab40c9f42d9a300c9742d98780c8f42d98b40c9782d98300c8e82d96780c8682d96b40c8ec2d96300c85c2d94780c7dc2d94b40c8602d94300c7d02d92780c74c2d92b40c7d42d92300c7402d90780c6d02d90b40c7442d90300c6c42d8e780c6442d8eb40c6c82d8e300c6382d8c780c5b42d8cb40c63c2d8c300c5a82d8a780c5382d8ab40c5ac2d8a300c52c2d88780c4a82d88b40c5302d88300c49c2d86780c42c2d86b40c4a02d86300c4202d84780c39c2d84b40c4242d84300c3902d82780c3602d82b40c3942d8230)
  (.lf 0)) (.nd (.lf
  0x1ab8400507d1ab8c00507b1ab940050791ab9c0050771aba40050751abac0050731abb40050711abbc00506f1abc400506d1abcc00506b1abd40050691abdc0050671abe40050651abec0050631abf40050611ae5c00505f1ae6400505d1ae6c00505b1aee80050591aef00050571aef80050551af000050531af080050511af1000504f1af1800504d1af2000504b1af280050491af300050471af380050451af400050431af480050411af5000503f1af5800503d1af6000503b1af680050391af700050371af780050351af800050331af880050311af9000502f1af9800502d1afa000502b1afa80050291afb00050271afb80050251afc00050231afc80050211bba800501f1bbb000501d1bbb800501b1bc340050191bc3c0050171bc440050151bc4c0050131bc540050111bc5c00500f1bc6400500d1bc6c00500b1bc740050091bc7c0050071bc840050051bc8c0050031bc940050011bc9c004fff)
  (.lf 0))) (.nd (.nd (.lf
  0x6c280d41e306c24cd41cb46c248d41c786c250d41c306c21cd41ab46c1d8d41a786c220d41a306c1c4d418b46c1c0d418786c1c8d418306c1a4d416b46c1a0d416786c1a8d416306c170d414b46c188d414786c18cd414306c0d0d412b46c0d4d412786c160d412306bef4d410b46bef8d410786befcd410306bee8d40eb46bee4d40e786beecd40e306bed8d40cb46be9cd40c786bedcd40c306be5cd40ab46be54d40a786be60d40a306bd54d408b46bdd8d408786bddcd408306bd48d406b46bd38d406786bd4cd406306bcd0d404b46bc44d404786bcd4d404306bbb0d402b46b894d402786bbb4d402306a434d8bcb46a438d8bc786a43cd8bc306a428d8bab46a424d8ba786a42cd8ba306a410d8b8b46a418d8b8786a41cd8b8306a400d8b6b46a404d8b6786a408d8b6306a3f0d8b4b46a3ecd8b4786a3f8d8b4306a3e0d8b2b46a3dcd8b2786a3e4d8b2306a3d0d8b0b46a3c8d8b0786a3d4d8b030)
  (.lf 0)) (.nd (.lf
  0x4fe24a26bd04fe14a269d04fe00a267d04fdf0a265d04fdd8a263d04fdc4a261d04fda8a25fd04fd88a25dd04fd78a25bd04fd68a259d04fd4ca257d04fd38a255d04fd24a253d04fcfca251d04fceca24fd04fc74a24dd04fc04a24bd04f5a0a249d04f580a247d04f570a245d04f558a243d04f4eca241104ff20a2fecc4ff10a2fccc4ff0ca2facc4fed4a2f8cc4feb8a2f6cc4feb4a2f4cc4fe8ca2f2cc4fe70a2f0cc4fe50a2eecc4fe30a2eccc4fed8a2eacc4fe6ca2e8cc4fe68a2e6cc4fde4a2e4cc4fe38a2e2cc4fedca2e0cc4fd9ca2decc4fdbca2dccc4fdc0a2dacc4fd58a2d8cc4ff7ca2d6cc4fd54a2d4cc4fd04a2d2cc4fd10a2d0cc4fc80a2cecc4fc14a2cccc4f60ca2cacc4f58ca2c8cc4f594a2c6cc4f560a2c4cc4f618a2c2cc5041ca2fdd050318a2fbd050300a2f9d0502eca2f7d0502d8a2f5d0502c4a2f3d0502aca2f1d050298a2efd050280a2edd05026ca2ebd05024ca2e9d0)
  (.lf 0)))

def shaWireTree466 : BTree :=
  .nd (.nd (.nd (.lf
  0x6cdc4e56ab46ce44e56a306cd04e568786cd80e568b46cd84e568306cc04e566786cc7ce566b46ccfce566306cb84e564786cbf8e564b46cbfce564306cb5ce562786cb48e562b46cb7ce562306cb38e560786cb34e560b46cb3ce560306ca70e55e786cb10e55eb46cb14e55e306ca64e55c786ca60e55cb46ca68e55c306c8c0e55a786c8c4e55ab46c8c8e55a306c890e558786c888e558b46c894e558306c708e556786c7e4e556b46c86ce556306c14ce554786c6d8e554b46c700e554306bfece552786c140e552b46c144e552306bfc8e550786bfcce550b46bfd0e550306bfbce54e786bfb8e54eb46bfc0e54e306be50e54c786bed0e54cb46bf9ce54c306bdd4e54a786be40e54ab46be44e54a306bd40e548786bd98e548b46bdcce548306bc98e546786bd08e546b46bd0ce546306bbece544786bc8ce544b46bc90e544306b8ace542786bbe0e542b46bbe4e542306d408e5bc786d40ce5bcb4)
  (.lf 0)) (.nd (.lf
  0x3fa80b9c3003fac0b9a3003fb00b983003fb40b963003fb80b943003fbc0b923003fc00b903003fc40b8e3003fc80b8c3003fcc0b8a3003fd00b883003fd40b863003fd80b843003fdc0b823003fe00b80300271807beb40271c07bcb40272007bab40272407b8b40272807b6b40272c07b4b40273007b2b40273407b0b40273807aeb40273c07acb40274007aab40274407a8b40274807a6b40274c07a4b40275007a2b40275407a0b402758079eb40275c079cb402760079ab4027640798b4027680796b40276c0794b4027700792b4027740790b402778078eb40277c078cb402780078ab4027840788b4027880786b40278c0784b4027900782b4027940780b401e5807be7801e5c07bc7801e6007ba7801e6407b87801e6807b67801e6c07b47801e7007b27801e7407b07801e7807ae7801e7c07ac7801e8007aa7801e8407a87801e8807a67801e8c07a47801e9007a27801e9407a07801e98079e78)
  (.lf 0))) (.nd (.nd (.lf
  0x1453432e6301448c32e4b4144d432e478144d832e4301443032e2b41448032e2781448432e230143e432e0b41442432e0781442832e0301439432deb4143d832de78143dc32de301434432dcb41438832dc781438c32dc30142f032dab41433832da781433c32da30142a032d8b4142e432d878142e832d8301424432d6b41429432d6781429832d630141f032d4b41423832d4781423c32d4301419c32d2b4141e432d278141e832d2301414c32d0b41419032d0781419432d030140f832ceb41414032ce781414432ce30140a832ccb4140ec32cc78140f032cc301404c32cab41409c32ca78140a032ca3013ff832c8b41404032c8781404432c83013fa432c6b413fec32c67813ff032c63013f6432c4b413f9832c47813f9c32c43013f3032c2b413f5832c27813f5c32c230148a8333caa14850333aaa147f43338aa146f83332aa14654332eaa145b0332aaa1455c3328aa145003326aa144ac3324aa)
  (.lf 0)) (.nd (.lf
  0x23b48599ecc23ab4599ccc23a24599acc2399c5998cc2390c5996cc238785994cc237e45992cc237585990cc244d0598ecc243dc598ccc243e0598acc243e85988cc243d85986cc233d45984cc233205982cc2469c59bdd02468859bbd02466459b9d02465059b7d02463c59b5d02462859b3d02461459b1d02460059afd0245ec59add0245d859abd0245c459a9d0245b059a7d02459c59a5d02458859a3d02457459a1d02455c599fd024540599dd024530599bd02451c5999d0245085997d0244f45995d0244e45993d0244c85991d0244b4598fd0244a4598dd024490598bd02447c5989d0244685987d0244585985d0233305983d0232bc5981102597c5d7ecc259805d7ccc259845d7acc258605d78cc258545d76cc258585d74cc2585c5d72cc258505d70cc258385d6ecc258705d6ccc258685d6acc25ef45d68cc2586c5d66cc25ef05d64cc2587c5d62cc258645d60cc258ec5d5ecc258e85d5ccc)
  (.lf 0)))

def shaWireTree467 : BTree :=
  .nd (.nd (.nd (.lf
  0x624f8c33b4062568c33ca0623b0c339f4624f4c33aa062220c3381e623a8c338b4623acc3381462210c3361e62214c336b462218c33614621b8c3334062208c334a0620f0c331f4621b4c332a062068c3301e620e8c330b4620ecc3301461f44c32e1e6205cc32eb462060c32e1461edcc32bf461f3cc32ca061e98c32a1e61ed4c32ab461ed8c32a1461dd8c3274061e74c328a061d40c325f461dd4c326a061ce0c3241e61d38c324b461d3cc3241461c80c3214061cd8c322a061b4cc31ff461c7cc320a061b2cc31e1e61b44c31eb461b48c31e1461ae8c31c1e61b20c31cb461b24c31c1461aa8c3194061ae0c31aa061a58c3174061aa4c318a061a00c3154061a54c316a0616e4c31340619fcc314a06166cc311f4616e0c312a061630c3101e61664c310b461668c31014615d8c30d4061628c30ea061514c30b40615d4c30ca06145cc309f461510c30aa0613a0c3081e61454c308b461458c30814)
  (.lf 0)) (.nd (.lf
  0x4e040b1d4a04d780b1b4a04cec0b194a04c600b174a04bd80b14b404b540b134a04ac80b114a04a3c0b0f4a049b00b0d4a049280b0ab4048a80b08b4048240b074a047980b054a0470c0b034a046d00b00aa06fdc0f3f4a06f780f3d4a06f040f3b4a06e940f38b406e280f374a06db80f34b406d500f32b406ce40f314a06c700f2f4a06c000f2cb406b940f2b4a06b200f294a06ab00f26b406a440f254a069d40f22b4069680f214a068f40f1f4a068800f1d4a068100f1ab4067a40f194a067300f174a066c00f14b4066540f134a065e00f114a0656c0f0f4a064fc0f0cb4064900f0b4a064200f08b4063b80f06b40634c0f054a062dc0f02b4062340f00aa088bc133eb40884c133cb4087c8133b4a0873c13394a086b013374a086281334b4085a81332b40852413314a0849c132eb408418132d4a08390132ab40830c13294a082841326b40820013254a0817413234a080ec1320b408068131f4a)
  (.lf 0))) (.nd (.nd (.lf
  0x1cd745c5eb41cd705c5e781cd785c5e301cd605c5cb41cd5c5c5c781cd645c5c301cd4c5c5ab41cd485c5a781cd505c5a301cd385c58b41cd345c58781cd3c5c58301cd245c56b41cd205c56781cd285c56301cd105c54b41cd0c5c54781cd145c54301ccfc5c52b41ccf85c52781cd005c52301cce85c50b41cce45c50781ccec5c50301ccd45c4eb41ccd05c4e781ccd85c4e301ccc05c4cb41ccbc5c4c781ccc45c4c301ccac5c4ab41cca85c4a781ccb05c4a301cc985c48b41cc945c48781cc9c5c48301cc845c46b41cc805c46781cc885c46301cc705c44b41cc6c5c44781cc745c44301cc5c5c42b41cc585c42781cc605c4230207185c3cb4207bc5c3c78207c05c3c30206545c3ab42070c5c3a78207105c3a302059c5c38b4206485c38782064c5c3830204e45c36b4205905c3678205945c3630204285c34b4204d85c3478204dc5c34302036c5c32b42041c5c3278204205c3230202b85c30b4)
  (.lf 0)) (.nd (.lf
  0xdc302282cc0ebc822bdd00eb5022bbd00eacc22b9d00ea4422b7d00e9b822b5d00e93422b3d00e8b422b1d00e83422afd00e7b422add00e73422abd00e6b422a9d00e63422a7d00e5b422a5d00e52c22a3d00e4a022a1d00e414229fd00e388229dd00e304229bd00e27c2299d00e1f82297d00e1702295d00e0ec2293d00e0642291d00dfe0228fd00df58228dd00ded4228bd00de542289d00ddcc2287d00dd542285d00dce02283d00dc38228110088d0227ecc08884227ccc087fc227acc087702278cc086e42276cc0866c2274cc085ec2272cc085582270cc084e0226ecc0844c226ccc083d4226acc083402268cc082c82266cc082342264cc081a82262cc081302260cc0809c225ecc08010225ccc07f98225acc07f182258cc07e982256cc07e182254cc07d842252cc07d0c2250cc07c8c224ecc07bf8224ccc07b80224acc07aec2248cc07a602246cc079e82244cc079542242cc08880227dd0)
  (.lf 0)))

def shaWireTree468 : BTree :=
  .nd (.nd (.nd (.lf
  0x412f8000d4b412fc000d4941300000d4741304000d4541308000d434130c000d4141310000d3f41314000d3d41318000d3b4131c000d3941320000d3741324000d3541328000d331ea7c000d311ea80000d2f1ea84000d2d1ea88000d2b1ea8c000d291ea90000d271ea94000d251ea98000d231ea9c000d211eaa0000d1f1eaa4000d1d1eaa8000d1b1eaac000d191eab0000d171eab4000d151eab8000d131eabc000d111eac0000d0f1eac4000d0d1eac8000d0b1eacc000d091ead0000d071ead4000d051ead8000d031eadc000d011eae0000cff1eae4000cfd1eae8000cfb1eaec000cf944bbc000cf744bc0000cf544bc4000cf344bc8000cf144bcc000cef44bd0000ced44bd4000ceb44bd8000ce944bdc000ce744be0000ce544be4000ce344be8000ce144bec000cdf44bf0000cdd44bf4000cdb44bf8000cd944bfc000cd744c00000cd544c04000cd344c08000cd144c0c000ccf44c10000ccd)
  (.lf 0)) (.nd (.lf
  0x494589ba0304945c9b9e30494889b9c30493f49b9a30493f89b9830493b89b9630493889b94304938c9b9230493549b9030493249b8e304919c9b8c30490ec9b8a3048e109b883048d709b863048cf89b843048c6c9b823048bd09b80304c2709fbeb44c1fc9fbcb44c1ac9fbab44bfe09fb8b44bf5c9fb6b44bf289fb4b44bedc9fb2b44bde09fb0b44bc649faeb44baf89facb44bb3c9faab44ba709fa8b44ba149fa6b44b94c9fa4b44b8ac9fa2b44b8109fa0b44b7ec9f9eb44b7c49f9cb44b79c9f9ab44b6189f98b44b5289f96b44b4949f94b44b4149f92b44b3a49f90b44b3389f8eb44b2c89f8cb44b1c09f8ab44b1489f88b44b0dc9f86b44b0689f84b44afe49f82b44af389f80b449a1c9fbe7849a209fbc78499b09fba78499809fb87849a749fb678498c89fb478499289fb278498cc9fb078498589fae78498289fac78496249faa78495d09fa8784959c9fa678495a09fa478495409fa278)
  (.lf 0))) (.nd (.nd (.lf
  0x2928456f8b4292b056f878292b456f8302924456f6b42927856f6782927c56f6302920856f4b42923856f4782923c56f430291c856f2b4291fc56f2782920056f2302918c56f0b4291bc56f078291c056f0302915456eeb42918056ee782918456ee302911456ecb42914856ec782914c56ec30290d056eab42910856ea782910c56ea302908c56e8b4290c456e878290c856e8302905056e6b42908056e6782908456e6302901056e4b42904456e4782904856e43028fd456e2b42900456e2782900856e23028f9c56e0b428fc856e07828fcc56e03028f5c56deb428f9056de7828f9456de3028f2056dcb428f5056dc7828f5456dc3028ee856dab428f1456da7828f1856da3028eb056d8b428edc56d87828ee056d83028e7856d6b428ea456d67828ea856d63028e3856d4b428e6c56d47828e7056d43028dfc56d2b428e2c56d27828e3056d23028dc456d0b428df056d07828df456d03028d8456ceb4)
  (.lf 0)) (.nd (.lf
  0x682c8dd96cc68264dd94cc67ad0dd92cc67a34dd90cc67988dd8ecc67738dd8ccc676ccdd8acc67640dd88cc675f0dd86cc674dcdd84cc673fcdd82cc68ef4ddbdd068d54ddbbd068c90ddb9d068c6cddb7d068b38ddb5d068b04ddb3d068954ddb1d068940ddafd0688c0ddadd0688acddabd0687f4dda9d068788dda7d068720dda5d0686c0dda3d0685b8dda1d06857cdd9fd068470dd9dd0683f0dd9bd0683c4dd99d0683a0dd97d068324dd95d067ad8dd93d067a2cdd91d067994dd8fd067708dd8dd0676e4dd8bd067668dd89d0675f8dd87d0674e4dd85d06744cdd83d0673b8dd81106ad50e17ecc6ad40e17ccc6ad60e17acc6acb4e178cc6aa44e176cc6aa2ce174cc6aa14e172cc6a9fce170cc6a9ece16ecc6aa5ce16ccc6a974e16acc6a928e168cc6a8ece166cc6a8bce164cc6a868e162cc6a7f8e160cc6a7e0e15ecc6a860e15ccc6a764e15acc6a760e158cc6a6e8e156cc6a748e154cc)
  (.lf 0)))

def shaWireTree469 : BTree :=
  .nd (.nd (.nd (.lf
  0x78a8ce70caa78a78e70aaa789b4e706aa7893ce704aa787a0e702aa792ace73df479280e73bf479268e739f479250e737f479240e735407916ce72d407912ce72940790f8e72340790cce71f40790a4e71bf479090e7194078c0ce711f478bdce70f4078b00e70bf478af0e709407895ce705f4787ece703f479284e73c1e792a0e73cb4792a8e73c1479278e73a1e79270e73ab47927ce73a1479260e7381e79258e738b479264e7381479248e7361e79244e736b47924ce73614791f4e733407923ce734a0791e8e73140791f0e732a079184e72ff4791e4e730a079170e72e1e7917ce72eb479180e72e1479148e72bf479168e72ca079140e72a1e79130e72ab479144e72a1479120e7274079128e728a079110e725f47911ce726a0790fce7241e79108e724b47910ce72414790e8e721f4790f0e722a0790e0e7201e790d0e720b4790e4e72014790c0e71df4790c8e71ea0790b4e71c1e790b8e71cb4)
  (.lf 0)) (.nd (.lf
  0x40280b9dd00402c0b9bd0040300b99d0040340b97d0040380b95d00403c0b93d0040400b91d0040440b8fd0040480b8dd00404c0b8bd0040500b89d0040540b87d0040580b85d00405c0b83d0040600b81d0057ec0fbfd0057f00fbdd0057f40fbbd0057f80fb9d0057fc0fb7d0058000fb5d0058040fb3d0058080fb1d00580c0fafd0058100fadd0058140fabd0058180fa9d00581c0fa7d0058200fa5d0058240fa3d0058280fa1d00582c0f9fd0058300f9dd0058340f9bd0058380f99d00583c0f97d0058400f95d0058440f93d0058480f91d00584c0f8fd0058500f8dd0058540f8bd0058580f89d00585c0f87d0058600f85d0058640f83d0058680f81d0070f813bfd0070fc13bdd00710013bbd00710413b9d00710813b7d00710c13b5d00711013b3d00711413b1d00711813afd00711c13add00712013abd00712413a9d00712813a7d00712c13a5d00713013a3d00713413a1d007138139fd0)
  (.lf 0))) (.nd (.nd (.lf
  0x4ae64983c784ae88983c304ae58983ab44ae38983a784ae5c983a304ae2c9838b44ae0c9838784ae309838304ae009836b44ade09836784ae049836304add49834b44adb49834784add89834304ada89832b44ad889832784adac9832304ad7c9830b44ad5c9830784ad809830304ad50982eb44ad30982e784ad54982e304ad24982cb44ad04982c784ad28982c304acf8982ab44acd8982a784acfc982a304accc9828b44acac9828784acd09828304aca09826b44ac809826784aca49826304ac749824b44ac549824784ac789824304ac489822b44ac289822784ac4c9822304ac1c9820b44abfc9820784ac209820304abf0981eb44abd0981e784abf4981e304abc4981cb44aba4981c784abc8981c304ab98981ab44ab78981a784ab9c981a304ab6c9818b44ab4c9818784ab709818304ab409816b44ab209816784ab449816304ab149814b44aaf49814784ab189814304aae89812b44aac8981278)
  (.lf 0)) (.nd (.lf
  0x2e7206276cc2e6ac6274cc2e63c6272cc2e5cc6270cc2e560626ecc2e4f4626ccc2e47c626acc2e4006268cc2e3886266cc2e3106264cc2e2986262cc2e2286260cc2e1bc625ecc2e148625ccc2e0d8625acc2e0646258cc2dff06256cc2df806254cc2df146252cc2dea06250cc2de30624ecc2ddbc624ccc2dd4c624acc2dcd86248cc2dc586246cc2dbd86244cc2db606242cc2e8b4627dd02e848627bd02e7d86279d02e7606277d02e6e46275d02e6706273d02e6006271d02e594626fd02e528626dd02e4b8626bd02e4406269d02e3c86267d02e3506265d02e2d86263d02e2606261d02e1f0625fd02e184625dd02e110625bd02e0a06259d02e0286257d02dfb46255d02df486253d02dedc6251d02de68624fd02ddf8624dd02dd84624bd02dd146249d02dc906247d02dc0c6245d02db8c6243d02db2c6241102e8f062fecc2e88c62fccc2e81c62facc2e7a462f8cc2e72862f6cc2e6b462f4cc)
  (.lf 0)))

def shaWireTree470 : BTree :=
  .nd (.nd (.nd (.lf
  0x3a244894c783a22c894cb43a248894c303a208894a783a220894ab43a224894a303a1fc8948783a1e48948b43a2008948303a1c08946783a1d88946b43a1dc8946303a1b48944783a19c8944b43a1b88944303a1508942783a1908942b43a1948942303af6889bc783ad5889bcb43af6c89bc303ad4c89ba783ad4889bab43ad5089ba303ad3889b8783ad3489b8b43ad3c89b8303ad2489b6783ad2089b6b43ad2889b6303ad1089b4783ad0c89b4b43ad1489b4303ac9c89b2783ac9889b2b43aca089b2303ac8889b0783ac8489b0b43ac8c89b0303ac7489ae783aa2489aeb43ac7889ae303aa1889ac783aa1489acb43aa1c89ac303aa0489aa783aa0089aab43aa0889aa303a9f089a8783a9ec89a8b43a9f489a8303a9dc89a6783a9d889a6b43a9e089a6303a9c889a4783a9c489a4b43a9cc89a4303a9b489a2783a9b089a2b43a9b889a2303a9a089a0783a69c89a0b43a9a489a0303a690899e78)
  (.lf 0)) (.nd (.lf
  0x61140c89d2c61124c89b2c61110c8992c6113cc8972c610f0c8952c610d4c8932c610c4c8912c610b4c88f2c610c8c88d2c61088c88b2c61070c8892c61054c8872c61044c8852c61030c8832c61024c880cc64d58ccbf2c64d44ccbd2c64d5cccbb2c64d28ccb92c64d10ccb72c64cf8ccb52c64ce4ccb32c64cd8ccb12c64cdcccaf2c64ca8ccad2c64c94ccab2c64c88cca92c64c6ccca72c64c70cca52c64c44cca32c64c30cca12c64c20cc9f2c64c34cc9d2c64bf4cc9b2c64be4cc992c64bcccc972c64bbccc952c64ba0cc932c64b8ccc912c64ba4cc8f2c63804cc8d2c63808cc8b2c637e0cc892c6380ccc872c637bccc852c637a4cc832c637a8cc80cc65e5cd0bf2c65e4cd0bd2c65e38d0bb2c65e20d0b92c65e10d0b72c65df8d0b52c65de4d0b32c65dc8d0b12c65de0d0af2c65de8d0ad2c65d94d0ab2c65c1cd0a92c65c14d0a72c65bf4d0a52c65be0d0a32c65bccd0a12c65bb8d09f2c)
  (.lf 0))) (.nd (.nd (.lf
  0x61e00eb678061dc0eb6b4061e40eb630061cc0eb478061c80eb4b4061d00eb430061b80eb278061b40eb2b4061bc0eb230061a40eb078061a00eb0b4061a80eb030061900eae780618c0eaeb4061940eae300617c0eac78061780eacb4061800eac30061680eaa78061640eaab40616c0eaa30061540ea878061500ea8b4061580ea830061400ea6780613c0ea6b4061440ea6300612c0ea478061280ea4b4061300ea430061180ea278061140ea2b40611c0ea230061040ea078061000ea0b4061080ea030060f00e9e78060ec0e9eb4060f40e9e30060dc0e9c78060d80e9cb4060e00e9c30060c80e9a78060c40e9ab4060cc0e9a30060b40e9878060b00e98b4060b80e9830060a00e96780609c0e96b4060a40e96300608c0e9478060880e94b4060900e9430060780e9278060740e92b40607c0e9230060640e9078060600e90b4060680e9030060500e8e780604c0e8eb4060540e8e300603c0e8c78)
  (.lf 0)) (.nd (.lf
  0x77a28e2f2cc77b50e2f0cc779fce2eecc779e4e2eccc779cce2eacc779b4e2e8cc77b60e2e6cc77988e2e4cc77970e2e2cc77ac4e2e0cc77944e2decc7792ce2dccc77914e2dacc778fce2d8cc778e4e2d6cc778cce2d4cc778b4e2d2cc7789ce2d0cc77884e2cecc77810e2cccc77670e2cacc7751ce2c8cc77394e2c6cc7724ce2c4cc77118e2c2cc77d70e2fdd077d58e2fbd077d44e2f9d077d2ce2f7d077d18e2f5d077d00e2f3d077cece2f1d077cdce2efd077cc0e2edd077cb0e2ebd077c9ce2e9d077c88e2e7d077c70e2e5d077c58e2e3d077c40e2e1d077c28e2dfd077c0ce2ddd077bfce2dbd077be8e2d9d077bd4e2d7d077bc4e2d5d077ba0e2d3d077b90e2d1d077b7ce2cfd077b6ce2cdd07769ce2cbd0775dce2c9d0773ece2c7d077244e2c5d077110e2c3d076fe8e2c110777cce3fecc77760e3fccc77ae8e3facc77738e3f8cc7750ce3f6cc77480e3f4cc7722ce3f2cc770b4e3f0cc)
  (.lf 0)))

def shaWireTree471 : BTree :=
  .nd (.nd (.nd (.lf
  0x4d9a49ee2784d9ac9ee2304d9909ee0b44d98c9ee0784d9949ee0304d8789edeb44d87c9ede784d8809ede304d8509edcb44d7f49edc784d8709edc304d7dc9edab44d7d49eda784d7e09eda304d7c49ed8b44d7c89ed8784d7cc9ed8304d7709ed6b44d6689ed6784d7bc9ed6304d6509ed4b44d65c9ed4784d6609ed4304d63c9ed2b44d6449ed2784d6489ed2304d6309ed0b44d6289ed0784d6349ed0304d61c9eceb44d6189ece784d6209ece304d5d09eccb44d5709ecc784d5d49ecc304d5649ecab44d5609eca784d5689eca304d3f89ec8b44d3f49ec8784d3fc9ec8304d3e49ec6b44d3e09ec6784d3e89ec6304d3cc9ec4b44d3d09ec4784d3d49ec4304d2749ec2b44d2449ec2784d3c49ec2304e1609f3eaa4e0149f38aa4de089f32aa4db489f2caa4db249f2aaa4db109f28aa4d9a09f22aa4d7ec9f1aaa4d77c9f16aa4d6589f14aa4d5e49f0eaa4d40c9f04aa4e0109f3b404e1549f3ca0)
  (.lf 0)) (.nd (.lf
  0x6e402532c006d002512c006bc024f2c006a8024d2c00694024b2c0068002492c0066c02472c0065802452c0064402432c005c40240cc005bc067f2c005a8067d2c00594067b2c0058006792c0056c06772c0055806752c0054406732c0053006712c0051c066f2c00508066d2c004f4066b2c004e006692c004cc06672c004b806652c004a406632c0049006612c0047c065f2c00468065d2c00454065b2c0044006592c0042c06572c0041806552c0040406532c003f006512c003dc064f2c003c8064d2c003b4064b2c003a006492c0038c06472c0037806452c0036406432c002e40640cc002dc0a7f2c002c80a7d2c002b40a7b2c002a00a792c0028c0a772c002780a752c002640a732c002500a712c0023c0a6f2c002280a6d2c002140a6b2c002000a692c001ec0a672c001d80a652c001c40a632c001b00a612c0019c0a5f2c001880a5d2c001740a5b2c001600a592c0014c0a572c001380a552c)
  (.lf 0))) (.nd (.nd (.lf
  0x7e810f620507e7b4f61e507e794f61c507e7dcf61a507e754f618507e544f616507e3ecf614507e2c4f612507e280f610507e264f60e507e320f60c507dd48f60a507dcacf608507db6cf606507d528f604507d40cf602507d4acf600507f55cfa3e787f338fa3c787f1e4fa3a787f180fa38787f0dcfa36787f094fa34787efecfa32787efb8fa30787ef78fa2e787ef40fa2c787f790fa2a787eefcfa28787e8e0fa26787e8a4fa24787e908fa22787e80cfa20787e7b8fa1e787e79cfa1c787e7d8fa1a787e760fa18787e54cfa16787e3f8fa14787e300fa12787e740fa10787e258fa0e787e31cfa0c787dd3cfa0a787dcb4fa08787db88fa06787d520fa04787d408fa02787d498fa007880588fa3e50804f4fa3c5080558fa3a5080458fa385080430fa36508047cfa345080324fa3250802b8fa3050802dcfa2e50802e8fa2c5080184fa2a5080040fa285080010fa265080088fa24507ffccfa2250)
  (.lf 0)) (.nd (.lf
  0x69970d034cc699a4d032cc69918d030cc698fcd02ecc69934d02ccc6993cd02acc698bcd028cc69b7cd026cc6988cd024cc698c4d022cc697e0d020cc699a8d01ecc697f8d01ccc69b70d01acc69788d018cc697a4d016cc699b0d014cc69740d012cc69728d010cc69b88d00ecc69800d00ccc69744d00acc69748d008cc69eb4d006cc695ecd004cc695a8d002cc69cf0d03dd069cacd03bd069b60d039d069b4cd037d069b34d035d069b10d033d069af8d031d069ae0d02fd069ac8d02dd069ab0d02bd069a98d029d069a88d027d069a74d025d069a60d023d069a4cd021d069a28d01fd069a14d01dd069a04d01bd0699f4d019d0699dcd017d0699c4d015d06986cd013d069854d011d069844d00fd069828d00dd069814d00bd069804d009d0696e0d007d0695e0d005d0695b8d003d06958cd0011067cf4d4becc67cfcd4bccc67d04d4bacc67d0cd4b8cc67d14d4b6cc67fc0d4b4cc67d1cd4b2cc)
  (.lf 0)))

def shaWireTree472 : BTree :=
  .nd (.nd (.nd (.lf
  0x246a059bf2c2468c59bd2c2466859bb2c2465459b92c2464c59b72c2463059b52c2461859b32c2460459b12c245fc59af2c245dc59ad2c245c859ab2c245c059a92c245a059a72c2458c59a52c2457859a32c2456459a12c24544599f2c2454c599d2c24524599b2c2450c59992c244f859972c2456859952c244cc59932c244bc59912c244d4598f2c24498598d2c24480598b2c2446c59892c2455059872c233d859852c2332459832c232b85980cc25f245dbf2c25efc5dbd2c25ed45dbb2c25ce85db92c25cd45db72c25cc05db52c25c9c5db32c25c7c5db12c25c645daf2c25da85dad2c25c3c5dab2c25c845da92c25c185da72c25bb85da52c25ba05da32c25db05da12c25b705d9f2c25b785d9d2c25bc45d9b2c25b245d992c25af85d972c25a805d952c25a745d932c25a8c5d912c25a945d8f2c25a285d8d2c259b05d8b2c2595c5d892c259205d872c258f85d852c258a05d832c258ac5d80cc)
  (.lf
  0x1afcc4c41101b7e04c3ecc1b7a44c3ccc1b7604c3acc1b71c4c38cc1b6d84c36cc1b6944c34cc1b6504c32cc1b60c4c30cc1b5c84c2ecc1b5844c2ccc1b5404c2acc1b4fc4c28cc1b4b84c26cc1b4744c24cc1b4304c22cc1b3ec4c20cc1b3a84c1ecc1b3644c1ccc1b3204c1acc1b2dc4c18cc1b2984c16cc1b2544c14cc1b2104c12cc1b1cc4c10cc1b1884c0ecc1b1444c0ccc1b1004c0acc1b0bc4c08cc1b0784c06cc1b0344c04cc1aff04c02cc1b7c84c3dd01b7884c3bd01b7444c39d01b7004c37d01b6bc4c35d01b6784c33d01b6344c31d01b5f04c2fd01b5ac4c2dd01b5684c2bd01b5244c29d01b4e04c27d01b49c4c25d01b4584c23d01b4144c21d01b3d04c1fd01b38c4c1dd01b3484c1bd01b3044c19d01b2c04c17d01b27c4c15d01b2384c13d01b1f44c11d01b1b04c0fd01b16c4c0dd01b1284c0bd01b0e44c09d01b0a04c07d01b05c4c05d01b0184c03d01afd44c011026c1850becc))
  (.nd (.lf
  0x7cf54f3a0b47cae4f39eb47c720f39cb47c6b8f39ab47c62cf398b47c5f4f396b47c5d8f394b47c58cf392b47c654f390b47c670f38eb47c50cf38cb47c3d8f38ab47c394f388b47c3e4f386b47c090f384b47bf4cf382b47bf58f380b47b714f3be787b718f3bc787b71cf3ba787b634f3b8787b638f3b6787b63cf3b4787b578f3b2787b57cf3b0787b3ccf3ae787b410f3ac787b3d0f3aa787b340f3a8787b344f3a6787b2e8f3a4787b2ecf3a2787b2f0f3a0787b1b8f39e787b1bcf39c787b1c0f39a787b1c4f398787b124f396787b128f394787b0dcf392787b0e0f390787afd4f38e787afa4f38c787afa8f38a787afacf388787aec8f386787afb0f384787a4c0f382787a298f380787cf30f3be307cedcf3bc307ced0f3ba307d8acf3b8307ce04f3b6307ce0cf3b4307cd94f3b2307cd9cf3b0307ccc8f3ae307cc98f3ac307cc3cf3aa307cc9cf3a8307cbf0f3a6307cca0f3a4307cbb0f3a230)
  (.lf 0))) (.nd (.nd (.lf
  0x2f2c067c4782f2bc67c4b42f2c467c4302f2ac67c2782f2a867c2b42f2b067c230318706abc783186c6abcb4318746abc303185c6aba78318586abab4318606aba30318486ab878318446ab8b43184c6ab830318346ab678318306ab6b4318386ab630318206ab4783181c6ab4b4318246ab4303180c6ab278318086ab2b4318106ab230317f86ab078317f46ab0b4317fc6ab030317e46aae78317e06aaeb4317e86aae30317d06aac78317cc6aacb4317d46aac30317bc6aaa78317b86aaab4317c06aaa30317a86aa878317a46aa8b4317ac6aa830317946aa678317906aa6b4317986aa630317806aa4783177c6aa4b4317846aa4303176c6aa278317686aa2b4317706aa230317586aa078317546aa0b43175c6aa030317446a9e78317406a9eb4317486a9e30317306a9c783172c6a9cb4317346a9c303171c6a9a78317186a9ab4317206a9a30317086a9878317046a98b43170c6a9830316f46a9678)
  (.lf 0)) (.nd (.lf
  0xc580070f300c5c0070f100c600070ef00c640070ed00c680070eb00c6c0070e900c700070e700c740070e500c780070e300c7c0070e102cf80070df02d000070dd02d080070db02d100070d902d180070d702d200070d502d280070d302d300070d102d380070cf02d400070cd02d480070cb02d500070c902d580070c702d600070c502d680070c302d700070c102d780070bf02d800070bd02d880070bb02d900070b902d980070b702da00070b502da80070b302db00070b102db80070af02dc00070ad02dc80070ab02dd00070a902dd80070a702de00070a502de80070a302df00070a1045c400709f045cc00709d045d400709b045dc007099045e4007097045ec007095045f4007093045fc0070910460400708f0460c00708d0461400708b0461c007089046240070870462c007085046340070830463c0070810464400707f0464c00707d0465400707b0465c007079046640070770466c007075)
  (.lf 0)))

def shaWireTree473 : BTree :=
  .nd (.nd (.nd (.lf
  0x80644fa88b48064cfa883080600fa867880638fa86b48063cfa8630805e8fa8478805ecfa84b4805f0fa84308034cfa8278805d4fa82b4805e0fa82307c4c4fa7cb47c4ccfa7c787c4d0fa7c307c4b8fa7ab47c4b4fa7a787c4bcfa7a307c1b4fa78b47c1b8fa78787c1bcfa78307c1a0fa76b47c1a4fa76787c1a8fa76307c18cfa74b47c190fa74787c194fa74307c178fa72b47c174fa72787c180fa72307c160fa70b47c164fa70787c16cfa70307c14cfa6eb47c150fa6e787c154fa6e307c138fa6cb47c140fa6c787c144fa6c307c108fa6ab47c12cfa6a787c130fa6a307c0f8fa68b47c0f4fa68787c0fcfa68307c0e8fa66b47c0e4fa66787c0ecfa66307c0d4fa64b47c0d0fa64787c0d8fa64307c0bcfa62b47c0c0fa62787c0c4fa62307c0a8fa60b47c0b0fa60787c0b4fa60307c018fa5eb47c010fa5e787c01cfa5e307bffcfa5cb47c000fa5c787c004fa5c307bff0fa5ab47ada0fa5a78)
  (.lf 0)) (.nd (.lf
  0x436c0bdd2c043580bdb2c043440bd92c043300bd72c0431c0bd52c043080bd32c042f40bd12c042e00bcf2c042cc0bcd2c042b80bcb2c042a40bc92c042900bc72c0427c0bc52c042680bc32c042640bc0cc05cc80fff2c05cb40ffd2c05ca00ffb2c05c8c0ff92c05c780ff72c05c640ff52c05c500ff32c05c3c0ff12c05c280fef2c05c140fed2c05c000feb2c05bec0fe92c05bd80fe72c05bc40fe52c05bb00fe32c05b9c0fe12c05b880fdf2c05b740fdd2c05b600fdb2c05b4c0fd92c05b380fd72c05b240fd52c05b100fd32c05afc0fd12c05ae80fcf2c05ad40fcd2c05ac00fcb2c05aac0fc92c05a980fc72c05a840fc52c05a700fc32c05a6c0fc0cc075d413ff2c075c013fd2c075ac13fb2c0759813f92c0758413f72c0757013f52c0755c13f32c0754813f12c0753413ef2c0752013ed2c0750c13eb2c074f813e92c074e413e72c074d013e52c074bc13e32c074a813e12c0749413df2c)
  (.lf 0))) (.nd (.nd (.lf
  0x59c00b88eb459c04b88e7859c08b88e3059becb88cb459bf4b88c7859bf8b88c3059be0b88ab459bdcb88a7859be4b88a3059bd0b888b459bc4b8887859bd4b8883059bb8b886b459bb4b8867859bbcb8863059ba8b884b459ba4b8847859bacb8843059b98b882b459b94b8827859b9cb882305cfecb87cb45cf70b87c785cff0b87c305cee8b87ab45cf64b87a785cf68b87a305cedcb878b45ce60b878785cee0b878305cddcb876b45ce54b876785ce58b876305cdd0b874b45cd54b874785cdd4b874305ccd0b872b45cd48b872785cd4cb872305ccc4b870b45ccc0b870785ccc8b870305cc48b86eb45cc44b86e785cc4cb86e305cbccb86cb45cbc8b86c785cbd0b86c305cb50b86ab45cb4cb86a785cb54b86a305cad4b868b45cad0b868785cad8b868305ca58b866b45ca54b866785ca5cb866305c9bcb864b45c9e4b864785c9e8b864305c980b862b45c454b862785c984b862305c434b860b4)
  (.lf 0)) (.nd (.lf
  0x3c020825ccc3c014825acc3bcc88258cc3bc988256cc3bc688254cc3c04c8252cc3c0508250cc3c03c824ecc3c030824ccc3c024824acc3c0188248cc3c0488246cc3bb048244cc3c0408242cc3c2c4827dd03c2b4827bd03c2a08279d03c28c8277d03c2788275d03c2688273d03c2588271d03c240826fd03c22c826dd03c218826bd03c2088269d03c1f48267d03c1e08265d03c1cc8263d03c1b48261d03c1a0825fd03c18c825dd03c178825bd03c1648259d03c1508257d03c13c8255d03c1288253d03c1148251d03c100824fd03c0f0824dd03c0dc824bd03c0c88249d03c0b48247d03c0a08245d03c08c8243d03c0448241103fd0082fecc3fc8882fccc3fc3082facc3fbf482f8cc3fbb482f6cc3fb8082f4cc3fb2882f2cc3fae482f0cc3faa482eecc3fa5c82eccc3fa1c82eacc3f9d082e8cc3f99882e6cc3f94882e4cc3f90082e2cc3f8b882e0cc3f87c82decc3f83c82dccc3f80082dacc)
  (.lf 0)))

def shaWireTree474 : BTree :=
  .nd (.nd (.nd (.lf
  0x52b08b59c3052accb59a7852ac8b59ab452ad0b59a3052ab8b5987852ab4b598b452abcb5983052aa0b5967852aa8b596b452aacb5963052a78b5947852a94b594b452a98b5943052a10b5927852a6cb592b452a70b59230529fcb5907852a04b590b452a08b59030529f0b58e78529ecb58eb4529f4b58e30529e0b58c78529dcb58cb4529e4b58c30529ccb58a78529c8b58ab4529d0b58a30529b8b58878529a8b588b4529bcb5883051ce8b58678519ccb586b451cecb58630519c0b5847851938b584b4519c4b5843051928b58278518e0b582b45192cb5823055138b97c7855134b97cb45513cb97c3055110b97a78550d8b97ab455114b97a30550a4b97878550a0b978b4550a8b9783054fd8b9767855090b976b455094b9763054fccb9747854fc8b974b454fd0b9743054f88b9727854fbcb972b454fc0b9723054f30b9707854f7cb970b454f80b9703054f24b96e7854f20b96eb454f28b96e30)
  (.lf 0)) (.nd (.lf
  0x80e9d055d2c80e79055b2c80e4905592c80e2d05572c80dfd05552c80dd905532c80da105512c80dad054f2c80d61054d2c80ec9054b2c7f43505492c7f40905472c7f2ed05452c7f29505432c7f0310540cc7ec75017f2c7ec31017d2c7ebf9017b2c7eb3101792c7eb0101772c7eb9d01752c7ecf901732c7ea7901712c7ea41016f2c7ea1d016d2c7e9ed016b2c7ecb101692c7e71d01672c7e6ed01652c7e6c101632c7e6a501612c7e679015f2c7e659015d2c7e629015b2c7e5d101592c7e5b101572c7e34901552c7e2f101532c7e21501512c7e1d5014f2c7e1ed014d2c7dc45014b2c7dc5501492c7db1501472c7d53501452c7d41d01432c7d5810140cc837110dbf2c836f10dbd2c836d50dbb2c836950db92c8369d0db72c836610db52c836450db32c836690db12c836250daf2c8360d0dad2c835850dab2c8355d0da92c8356d0da72c835090da52c835410da32c834890da12c82de90d9f2c)
  (.lf 0))) (.nd (.nd (.lf
  0xbe801fd0780be7c1fd0b40be841fd0300be6c1fce780be681fceb40be701fce300be581fcc780be541fccb40be5c1fcc300be441fca780be401fcab40be481fca300be301fc8780be2c1fc8b40be341fc8300be1c1fc6780be181fc6b40be201fc6300be081fc4780be041fc4b40be0c1fc4300bdf41fc2780bdf01fc2b40bdf81fc2300ebc022bc780ebbc22bcb40ebc422bc300eb4822ba780eb4422bab40eb4c22ba300eac422b8780eac022b8b40eac822b8300ea3c22b6780ea3822b6b40ea4022b6300e9b022b4780e9ac22b4b40e9b422b4300e92c22b2780e92822b2b40e93022b2300e8ac22b0780e8a822b0b40e8b022b0300e82c22ae780e82822aeb40e83022ae300e7ac22ac780e7a822acb40e7b022ac300e72c22aa780e72822aab40e73022aa300e6ac22a8780e6a822a8b40e6b022a8300e62c22a6780e62822a6b40e63022a6300e5ac22a4780e5a822a4b40e5b022a4300e52422a278)
  (.lf 0)) (.nd (.lf
  0x4fa81962cc04f281960cc04eac195ecc04e20195ccc04d94195acc04d081958cc04c7c1956cc04bec1954cc04b701952cc04ae41950cc04a58194ecc049cc194ccc0493c194acc048bc1948cc048401946cc047b41944cc047281942cc0567c197dd005604197bd0055781979d0054e81977d00546c1975d0053dc1973d0053601971d0052d4196fd005248196dd0051b8196bd0051381969d0050b81967d0050381965d004fb81963d004f381961d004ebc195fd004e30195dd004da4195bd004d181959d004c8c1957d004bfc1955d004b801953d004af41951d004a68194fd0049dc194dd00494c194bd0048cc1949d0048501947d0047c41945d0047381943d0046e0194110056d419becc0568019bccc055dc19bacc0555019b8cc054f019b6cc0544419b4cc053e419b2cc0533819b0cc052ac19aecc0522019accc051c019aacc0514019a8cc050c019a6cc0504019a4cc04fc019a2cc04f4019a0cc)
  (.lf 0)))

def shaWireTree475 : BTree :=
  .nd (.nd (.nd (.lf
  0x576e8b2b6b4576ecb2b630576d4b2b478576d8b2b4b4576dcb2b430576bcb2b278576c0b2b2b4576c4b2b230576a8b2b078576b0b2b0b4576b4b2b03057698b2ae7857694b2aeb4576a0b2ae3057680b2ac7857684b2acb457688b2ac305766cb2aa7857670b2aab457674b2aa3057654b2a87857658b2a8b457660b2a83057640b2a67857644b2a6b457648b2a63057630b2a47857634b2a4b457638b2a4305761cb2a27857618b2a2b457624b2a23057608b2a07857604b2a0b45760cb2a030575f4b29e78575f8b29eb4575fcb29e30575e4b29c78575e0b29cb4575e8b29c30575d0b29a78575ccb29ab4575d4b29a30575bcb29878575c0b298b4575c4b29830575acb29678575a8b296b4575b0b2963057590b2947857594b294b457598b2943057584b2927857578b292b457588b2923057568b290785756cb290b457570b290305755cb28e7857558b28eb457560b28e305753cb28c7857548b28cb4)
  (.lf 0)) (.nd (.lf
  0x10dc02d32c0109802d12c0105402cf2c0101802cd2c00fe002cb2c00fa002c92c00f7002c72c00f4402c52c00f1802c32c00f0802c0cc03dc406ff2c03d4c06fd2c03cc006fb2c03c3406f92c03bb006f72c03b3006f52c03ab006f32c03a2806f12c039a406ef2c0392406ed2c0389c06eb2c0381006e92c0378c06e72c0370406e52c0367806e32c035ec06e12c0356806df2c034e006dd2c0345c06db2c033dc06d92c0335c06d72c032d406d52c0325006d32c031d006d12c0314806cf2c030c406cd2c0304406cb2c02fbc06c92c02f3806c72c02eb806c52c02e3806c32c02e0006c0cc056c80aff2c056580afd2c055d00afb2c055440af92c054c00af72c054380af52c053b40af32c0532c0af12c052a00aef2c052140aed2c051900aeb2c051100ae92c050900ae72c050100ae52c04f900ae32c04f100ae12c04e880adf2c04dfc0add2c04d700adb2c04ce40ad92c04c580ad72c04bd40ad52c)
  (.lf 0))) (.nd (.nd (.lf
  0x7d464001a017d3b40019ff7d3680019fd7d3340019fb7d30c0019f97d2640019f77d2540019f57d2180019f37d2a00019f17d2c40019ef7d1ac0019ed7d1740019eb7d1580019e97d2a40019e77d2c80019e57d1080019e37d0e80019e17e3e80019df7e2c00019dd7e2780019db7e25c0019d97e3140019d77dd340019d57f52c0019d37f3600019d17f2000019cf7f1840019cd7f0d00019cb7f5300019c97f3940019c77f1f40019c57f1700019c37f0e80019c17f7700019bf7f00c0019bd7efac0019bb7ef700019b97ef440019b77f7800019b57ef100019b37e8e40019b17e89c0019af7e8f80019ad7e8180019ab7e7c80019a97e7980019a77e7d00019a57e7580019a37e53c0019a17f82c00199f7f71000199d7f6f400199b7f6900019997f5980019977f4e80019958059c001993805140019918056400198f8048c00198d8042400198b805a0001989804fc0019878052400198580460001983)
  (.lf 0)) (.nd (.lf
  0x75ad8fc30cc75ad4fc2ecc75aacfc2ccc75ae0fc2acc75a88fc28cc75a6cfc26cc75a48fc24cc75a3cfc22cc75a54fc20cc75a1cfc1ecc759e8fc1ccc759f0fc1acc759c4fc18cc759b4fc16cc75994fc14cc7597cfc12cc75960fc10cc75950fc0ecc75938fc0ccc758e8fc0acc758d8fc08cc75b90fc06cc758b4fc04cc758fcfc02cc75dbcfc3dd075da8fc3bd075d94fc39d075d7cfc37d075d68fc35d075d54fc33d075d40fc31d075d2cfc2fd075d18fc2dd075d04fc2bd075cf0fc29d075cdcfc27d075cc4fc25d075cb0fc23d075c9cfc21d075c8cfc1fd075c78fc1dd075c68fc1bd075c54fc19d075c40fc17d075c2cfc15d075c18fc13d075c04fc11d075bf0fc0fd075bdcfc0dd075bc8fc0bd075bb4fc09d075b9cfc07d075918fc05d075904fc03d0758b8fc011000e0402becc00e0c02bccc00e1402bacc00e1c02b8cc00e2402b6cc00e2c02b4cc00e3402b2cc00e3c02b0cc00e4402aecc)
  (.lf 0)))

def shaWireTree476 : BTree :=
  .nd (.nd (.nd (.lf
  0x815fc087878816000878b481604087830815ec087678815e40876b4815f00876308158c0874788148c0874b481590087430814800872788147c0872b481484087230814680870788146c0870b48147008703081458086e78811a4086eb48145c086e3081170086c7881154086cb48119c086c3081134086a7881118086ab48114c086a308110c086878810cc0868b481110086830810c0086678810bc0866b4810c4086630810a8086478810ac0864b4810b008643081098086278810940862b48109c08623081070086078810440860b48108808603080fc4085e7880fa0085eb480fc8085e3080f90085c7880f94085cb480f98085c3080f84085a7880f7c085ab480f88085a3080f7008587880f680858b480f7408583080f5408567880f5c0856b480f6008563080f4808547880f400854b480f4c08543080f3408527880f300852b480f3808523080f1808507880f1c0850b480f2408503080f04084e78)
  (.lf 0)) (.nd (.lf
  0x1900047a07819004479e7819008479c781900c479a781901047987819014479678190184794781901c4792781902047907819024478e7819028478c781902c478a781903047887819034478678190384784781903c4782781904047807820f4847be3020f4c47bc3020f5047ba3020f5447b83020f5847b63020f5c47b43020f6047b23020f6447b03020f6847ae3020f6c47ac3020f7047aa3020f7447a83020f7847a63020f7c47a43020f8047a23020f8447a03020f88479e3020f8c479c3020f90479a3020f9447983020f9847963020f9c47943020fa047923020fa447903020fa8478e3020fac478c3020cd0478a3020cb447883020c8847863020c6447843020c4047823020bf04780302247c4bbeb4224804bbcb4224844bbab4224884bb8b42248c4bb6b4224904bb4b4224944bb2b4224984bb0b42249c4baeb4224a04bacb4224a44baab4224a84ba8b4224ac4ba6b4224b04ba4b4224b44ba2b4)
  (.lf 0))) (.nd (.nd (.lf
  0x1922443ca301920c43c8781920843c8b41921043c830191f843c678191f443c6b4191fc43c630191e443c478191e043c4b4191e843c430191d043c278191cc43c2b4191d443c23021d3c46bc7821d3846bcb421d4046bc3021d0046ba7821cfc46bab421d0446ba3021cbc46b87821cb846b8b421cc046b83021c8046b67821c7c46b6b421c8446b63021c4046b47821c3c46b4b421c4446b43021bfc46b27821bf846b2b421c0046b23021bb846b07821bb446b0b421bbc46b03021b7446ae7821b7046aeb421b7846ae3021b3046ac7821b2c46acb421b3446ac3021af446aa7821af046aab421af846aa3021ab446a87821ab046a8b421ab846a83021a7046a67821a6c46a6b421a7446a63021a2c46a47821a2846a4b421a3046a430219e846a278219e446a2b4219ec46a230219a446a078219a046a0b4219a846a03021968469e7821964469eb42196c469e3021930469c782192c469cb421934469c30)
  (.lf 0)) (.nd (.lf
  0x45ab09d5acc45a5c9d58cc45a189d56cc45a409d54cc4592c9d52cc459a89d50cc458bc9d4ecc473dc9d4ccc4583c9d4acc457649d48cc4559c9d46cc453d49d44cc453709d42cc461c09d7dd0461ac9d7bd0461989d79d0461849d77d0461709d75d04615c9d73d0461489d71d0461349d6fd0461209d6dd04610c9d6bd0460f89d69d0460e49d67d0460d09d65d0460bc9d63d0460a89d61d0460949d5fd0460809d5dd04606c9d5bd0460589d59d0460449d57d0460309d55d04601c9d53d04600c9d51d0458949d4fd04581c9d4dd0458089d4bd0457609d49d0455b89d47d0453ec9d45d04537c9d43d04530c9d411045e7c9dbecc45e4c9dbccc45e549dbacc45e5c9db8cc45e809db6cc45e089db4cc45dec9db2cc45dd49db0cc45e889daecc45dbc9daccc45da89daacc45ff09da8cc45c049da6cc45be49da4cc45bb89da2cc45b8c9da0cc45b809d9ecc45b489d9ccc45a989d9acc45a509d98cc)
  (.lf 0)))

def shaWireTree477 : BTree :=
  .nd (.nd (.nd (.lf
  0x6b348d682786b4acd682b46b4b8d682306d340d67cb46d608d67c786d60cd67c306d31cd67ab46d314d67a786d320d67a306d304d678b46d24cd678786d308d678306d240d676b46d22cd676786d244d676306d154d674b46d158d674786d15cd674306d148d672b46cf6cd672786d14cd672306cf1cd670b46cf18d670786cf48d670306cf0cd66eb46cf08d66e786cf10d66e306ced0d66cb46c3c8d66c786ced4d66c306c3b0d66ab46c3b4d66a786c3b8d66a306c39cd668b46c390d668786c3a0d668306c380d666b46c378d666786c384d666306c36cd664b46c2f0d664786c370d664306c2a4d662b46c2d0d662786c2d4d662306c274d660b46c298d660786c29cd660306c23cd65eb46c268d65e786c26cd65e306c218d65cb46c230d65c786c234d65c306c204d65ab46c20cd65a786c210d65a306c1f0d658b46c1e8d658786c1f4d658306c184d656b46c1b0d656786c1b4d656306c0f0d654b4)
  (.lf 0)) (.nd (.lf
  0x41ec00607d041f400607b041fc006079042040060770420c006075042140060730421c0060710422400606f0422c00606d0423400606b0423c006069042440060670424c006065042540060630425c0060610596c00605f0597400605d0597c00605b059840060590598c006057059940060550599c006053059a4006051059ac00604f059b400604d059bc00604b059c4006049059cc006047059d4006045059dc006043059e4006041059ec00603f059f400603d059fc00603b05a0400603905a0c00603705a1400603505a1c00603305a2400603105a2c00602f05a3400602d05a3c00602b05a4400602905a4c00602705a5400602505a5c00602305a640060210727800601f0728000601d0728800601b0729000601907298006017072a0006015072a8006013072b0006011072b800600f072c000600d072c800600b072d0006009072d8006007072e0006005072e8006003072f0006001072f8005fff)
  (.lf 0))) (.nd (.nd (.lf
  0x3b8c87cae303b8b07cacb43b8ac7cac783b8b47cac303b89c7caab43b8987caa783b8a07caa303b8887ca8b43b8847ca8783b88c7ca8303b8747ca6b43b8707ca6783b8787ca6303b8607ca4b43b85c7ca4783b8647ca4303b84c7ca2b43b8487ca2783b8507ca2303b8387ca0b43b8347ca0783b83c7ca0303b8247c9eb43b8207c9e783b8287c9e303b8107c9cb43b80c7c9c783b8147c9c303b7fc7c9ab43b7f87c9a783b8007c9a303b7e87c98b43b7e47c98783b7ec7c98303b7d47c96b43b7d07c96783b7d87c96303b7c07c94b43b7bc7c94783b7c47c94303b7ac7c92b43b7a87c92783b7b07c92303b7987c90b43b7947c90783b79c7c90303b7847c8eb43b7807c8e783b7887c8e303b7707c8cb43b76c7c8c783b7747c8c303b75c7c8ab43b7587c8a783b7607c8a303b7487c88b43b7447c88783b74c7c88303b7347c86b43b7307c86783b7387c86303b7207c84b43b71c7c84783b7247c8430)
  (.lf 0)) (.nd (.lf
  0x19828429bd0198144299d0198004297d0197ec4295d0197d84293d0197c44291d0197b0428fd01979c428dd019788428bd0197744289d0197604287d01974c4285d0197384283d019720428110207fc427ecc20758427ccc20694427acc205dc4278cc205244276cc204684274cc203ac4272cc202f84270cc20238426ecc20180426ccc200c8426acc2000c4268cc1ff484266cc1fe904264cc1fdd04262cc1fd104260cc1fc54425ecc1fb98425ccc1fad4425acc1fa1c4258cc1f95c4256cc1f8a44254cc1f7ec4252cc1f7304250cc1f66c424ecc1f5ac424ccc1f4f0424acc1f43c4248cc1f3844246cc1f2c04244cc1f1f04242cc20790427dd0206d4427bd0206144279d0205584277d0204a44275d0203e44273d02032c4271d020274426fd0201b8426dd0200fc426bd0200484269d01ff884267d01fec84265d01fe0c4263d01fd504261d01fc8c425fd01fbd4425dd01fb14425bd01fa544259d0)
  (.lf 0)))

def shaWireTree478 : BTree :=
  .nd (.nd (.nd (.lf
  0x263885d7ab4263945d7a302637c5d7878263785d78b4263805d7830263645d7678263685d76b42636c5d76302630c5d7478263085d74b4263105d7430262f85d7278262fc5d72b4263005d7230261ac5d7078261b05d70b4261b45d7030261945d6e78261985d6eb42619c5d6e30261845d6c78261885d6cb42618c5d6c30261705d6a78261745d6ab4261785d6a30261605d68782615c5d68b4261645d6830260945d66782614c5d66b4261505d6630260805d6478260885d64b42608c5d6430260745d6278260705d62b4260785d62302605c5d6078260645d60b4260685d6030260505d5e782604c5d5eb4260545d5e30260385d5c782603c5d5cb4260405d5c30260245d5a78260285d5ab42602c5d5a3025fb05d5878260185d58b42601c5d583025fa45d567825fa05d56b425fa85d563025f885d547825f8c5d54b425f905d543025f7c5d527825f745d52b425f805d523025f685d507825f645d50b4)
  (.lf 0)) (.nd (.lf
  0x3c3b800407d3c3c000407b3c3c80040793c3d00040773c3d80040753c3e00040733c3e80040713c3f000406f3c3f800406d3c40000406b3c4080040693c4100040673c4180040653c4200040633c428004061447ec00405f447f400405d447fc00405b448040040594480c004057448140040554481c004053448240040514482c00404f4483400404d4489400404b4489c004049448a4004047448ac004045448b4004043448bc004041448c400403f448cc00403d448d400403b448dc004039448e4004037448ec004035448f4004033448fc0040314490400402f4490c00402d4491400402b4491c004029449240040274492c004025449340040234493c0040213cc5000401f3cc5800401d3cc6000401b3cc680040193cc700040173cc780040153cc800040133cc880040113cc9000400f3cc9800400d3ccf800400b3cd000040093cd080040073cd100040053cd180040033cd200040013cd28003fff)
  (.lf 0))) (.nd (.nd (.lf
  0x74a0cf46c7874a10f46c30749e4f46ab4749e0f46a78749e8f46a30749d4f468b4749d0f46878749d8f46830749c0f466b4749bcf46678749c4f46630749b0f464b4749a4f46478749b4f4643074998f462b47498cf462787499cf4623074974f460b474980f4607874984f4603074968f45eb474960f45e787496cf45e3074944f45cb474950f45c7874954f45c3074938f45ab47492cf45a787493cf45a3074914f458b474920f4587874924f4583074908f456b4748fcf456787490cf45630748e4f454b4748f0f45478748f4f45430748d8f452b4748ccf45278748dcf45230748b4f450b4748c0f45078748c4f45030748a8f44eb474890f44e78748acf44e30747f0f44cb474884f44c7874888f44c30747e0f44ab4747e4f44a78747e8f44a30747ccf448b4747c8f44878747d0f44830747b8f446b4747bcf44678747c0f44630747a4f444b4747a0f44478747a8f4443074790f442b474794f44278)
  (.lf 0)) (.nd (.lf
  0x6173cc259d061728c257d061714c255d061704c253d06156cc251d06155cc24fd0614a8c24dd061494c24bd061484c249d0613f8c247d060c60c245d06097cc243d06091cc24110618fcc2fecc618e8c2fccc618c4c2facc618d8c2f8cc618a0c2f6cc61894c2f4cc61850c2f2cc6182cc2f0cc61834c2eecc61804c2eccc61884c2eacc618a4c2e8cc617d4c2e6cc617b8c2e4cc617a8c2e2cc617a0c2e0cc61770c2decc6189cc2dccc6188cc2dacc61890c2d8cc61898c2d6cc619a4c2d4cc61598c2d2cc61580c2d0cc614b4c2cecc614b8c2cccc614c4c2cacc61414c2c8cc60e4cc2c6cc60b34c2c4cc612acc2c2cc62558c2fdd06247cc2fbd062468c2f9d062394c2f7d0621f0c2f5d062130c2f3d0620fcc2f1d061fc8c2efd061fb0c2edd061e1cc2ebd061e04c2e9d061df0c2e7d061d70c2e5d061c24c2e3d061c10c2e1d061c00c2dfd06198cc2ddd06197cc2dbd061968c2d9d061954c2d7d0)
  (.lf 0)))

def shaWireTree479 : BTree :=
  .nd (.nd (.nd (.lf
  0x42a508bcab442a548bca30429088bc878429008bc8b44290c8bc830427fc8bc678428d88bc6b4428dc8bc630427988bc478427f08bc4b4427f48bc430427748bc278427708bc2b4427788bc230447dc8ebc78447d88ebcb4447e08ebc30447c88eba78447c48ebab4447cc8eba30447b48eb878447b08eb8b4447b88eb8304479c8eb678447988eb6b4447a08eb6304478c8eb478447848eb4b4447908eb430447788eb278447708eb2b44477c8eb230447648eb0784475c8eb0b4447688eb030447508eae78447488eaeb4447548eae304473c8eac78447348eacb4447408eac30447288eaa78447248eaab44472c8eaa30447148ea878447108ea8b4447188ea830447008ea678446f88ea6b4447048ea630446e08ea478446e88ea4b4446ec8ea430446d48ea278446d08ea2b4446d88ea230446bc8ea078446c08ea0b4446c48ea030446a88e9e78446b08e9eb4446b48e9e30446988e9c784469c8e9cb4)
  (.lf 0)) (.nd (.lf
  0x10d402932c0109002912c0104c028f2c01010028d2c00fd8028b2c00f9802892c00f6802872c00f3c02852c00f1002832c00f000280cc03dbc06bf2c03d4406bd2c03cb806bb2c03c2c06b92c03ba806b72c03b2806b52c03aa806b32c03a2006b12c0399c06af2c0391c06ad2c0389406ab2c0380806a92c0378406a72c036fc06a52c0367006a32c035e406a12c03560069f2c034d8069d2c03454069b2c033d406992c0335406972c032cc06952c0324806932c031c806912c03140068f2c030bc068d2c0303c068b2c02fb406892c02f3006872c02eb006852c02e3006832c02df80680cc056c00abf2c056500abd2c055c80abb2c0553c0ab92c054b80ab72c054300ab52c053ac0ab32c053240ab12c052980aaf2c0520c0aad2c051880aab2c051080aa92c050880aa72c050080aa52c04f880aa32c04f080aa12c04e800a9f2c04df40a9d2c04d680a9b2c04cdc0a992c04c500a972c04bcc0a952c)
  (.lf 0))) (.nd (.nd (.lf
  0x369b0762050369a0761e503696c761c5036970761a503697476185036978761650368f4761450368987612503689c761050368a0760e50368a4760c50368a8760a50368ac76085036810760650367dc760450367887602503678c76005036ba07a3e7836b747a3c7836b787a3a7836b2c7a387836b307a367836b347a347836b387a327836b3c7a307836a9c7a2e7836a6c7a2c7836a707a2a7836a747a287836a787a267836a7c7a2478369e47a2278369b87a2078369a87a1e783698c7a1c78369907a1a78369947a1878369987a1678368fc7a1478368c87a1278368cc7a1078368d07a0e78368d47a0c78368d87a0a78368dc7a0878368187a0678367e47a0478367987a02783679c7a00783904c7a3e50390107a3c5038fa87a3a5038f107a385038e447a365038df47a345038d1c7a325038ce07a305038c007a2e5038bc47a2c5038b087a2a5038acc7a285038a6c7a265038a007a2450389807a2250)
  (.lf 0)) (.nd (.lf
  0x517b0a438cc51784a436cc51758a434cc5172ca432cc51700a430cc516d4a42ecc516a8a42ccc5167ca42acc51650a428cc51624a426cc515f8a424cc515cca422cc515a0a420cc51574a41ecc51548a41ccc5151ca41acc514f0a418cc514c4a416cc51498a414cc5146ca412cc51440a410cc51414a40ecc513e8a40ccc513bca40acc51390a408cc51364a406cc51338a404cc5130ca402cc51818a43dd0517eca43bd0517c0a439d051794a437d051768a435d05173ca433d051710a431d0516e4a42fd0516b8a42dd05168ca42bd051660a429d051634a427d051608a425d0515dca423d0515b0a421d051584a41fd051558a41dd05152ca41bd051500a419d0514d4a417d0514a8a415d05147ca413d051450a411d051424a40fd0513f8a40dd0513cca40bd0513a0a409d051374a407d051348a405d05131ca403d0512fca401104f84ca8becc4f854a8bccc4f85ca8bacc4f864a8b8cc4f86ca8b6cc)
  (.lf 0)))

def shaWireTree480 : BTree :=
  .nd (.nd (.nd (.lf
  0x6adc4e17f2c6adf8e17d2c6ad64e17b2c6acb8e1792c6ac0ce1772c6aba0e1752c6ab4ce1732c6ab00e1712c6aaa0e16f2c6aa60e16d2c6a978e16b2c6a948e1692c6a8f0e1672c6a8c0e1652c6a86ce1632c6a83ce1612c6a80ce15f2c6a9bce15d2c6a7a0e15b2c6a77ce1592c6a72ce1572c6a74ce1552c6a6a4e1532c6a4c8e1512c6a4e0e14f2c6a180e14d2c69fbce14b2c69fe4e1492c69f20e1472c69e8ce1452c6961ce1432c69564e140cc6d640e57f2c6d598e57d2c6d53ce57b2c6d4f8e5792c6d4ace5772c6d1b4e5752c6d050e5732c6d00ce5712c6cfa8e56f2c6ce50e56d2c6cd9ce56b2c6ce90e5692c6cd10e5672c6cc20e5652c6cb44e5632c6cb1ce5612c6cac4e55f2c6ca48e55d2c6c8cce55b2c6c874e5592c6c8a8e5572c6c6e0e5552c6c128e5532c6bfd8e5512c6bfa4e54f2c6bebce54d2c6be2ce54b2c6bda4e5492c6bd14e5472c6bc9ce5452c6bc00e5432c6b8b0e540cc)
  (.lf
  0x413a0845ccc413a8845acc413b08458cc413b88456cc413c08454cc413c88452cc413d08450cc413d8844ecc413e0844ccc413e8844acc413f08448cc413f88446cc414008444cc414088442cc41960847dd041938847bd04190c8479d0418e08477d0418b48475d0418888473d04185c8471d041830846fd041804846dd0417d8846bd0417ac8469d0417808467d0417548465d0417288463d0416fc8461d0416cc845fd04169c845dd04166c845bd04163c8459d04160c8457d0415dc8455d0415b08453d0415848451d041554844fd041528844dd0414fc844bd0414d08449d0414a48447d0414788445d04144c8443d04141084411041968843ecc41940843ccc41914843acc418e88438cc418bc8436cc418908434cc418648432cc418388430cc4180c842ecc417e0842ccc417b4842acc417888428cc4175c8426cc417308424cc417048422cc416d48420cc416a4841ecc41674841ccc41644841acc))
  (.nd (.lf
  0x8ef416205008ef8161e5008efc161c5008f00161a5008f0416185008f0816165008f0c16145008f1016125008f1416105008f18160e5008f1c160c5008f20160a5008f2416085008f2816065008f2c16045008f3016025008f3416005008fb81a3e7808fbc1a3c7808fc01a3a7808fc41a387808fc81a367808fcc1a347808fd01a327808fd41a307808fd81a2e7808fdc1a2c7808fe01a2a7808fe41a287808fe81a267808fec1a247808ff01a227808ff41a207808ff81a1e7808ffc1a1c78090001a1a78090041a1878090081a16780900c1a1478090101a1278090141a1078090181a0e780901c1a0c78090201a0a78090241a0878090281a06780902c1a0478090301a0278090341a00780a79c1a3e500a7a01a3c500a7a41a3a500a7a81a38500a7ac1a36500a7b01a34500a7b41a32500a7b81a30500a7bc1a2e500a7c01a2c500a7c41a2a500a7c81a28500a7cc1a26500a7d01a24500a7d41a2250)
  (.lf 0))) (.nd (.nd (.lf
  0x3e0b07ec2b43e0ac7ec2783e0b47ec2303e2d07f38aa3e3cc7f34aa3e2447f2aaa3e2307f26aa3e3c87f20aa3e19c7f1aaa3e3c47f16aa3e1347f10aa3e1087f0caa3e3bc7f0aaa3e3c07f04aa3e3207f02aa3e6a87f3d403e6647f37403e6347f33403e5c87f29403e5987f25403e5547f1f403e5107f19403e4e07f15403e49c7f0f403e46c7f0bf43e4507f09403e3d47f03f43e6947f3b403e6a47f3ca03e6807f39f43e6907f3aa03e6687f381e3e6787f38b43e67c7f38143e6507f35f43e6607f36a03e6487f341e3e6447f34b43e64c7f34143e6207f31403e6307f32a03e60c7f2f403e61c7f30a03e5f87f2d403e6087f2ea03e5e47f2bf43e5f47f2ca03e5dc7f2a1e3e5d87f2ab43e5e07f2a143e5b47f27f43e5c47f28a03e5ac7f261e3e5a87f26b43e5b07f26143e5847f23403e5947f24a03e5707f21f43e5807f22a03e5587f201e3e5687f20b43e56c7f20143e5407f1d403e5507f1ea0)
  (.lf 0)) (.nd (.lf
  0x194fc4213b0195004211b019504420fb019508420db01950c420bb0195104209b0195144207b0195184205b01951c4203b0195204201b020be0463fb020bc4463db020ba4463bb020b844639b020b604637b020b404635b020b204633b020b004631b020ae0462fb020a10462db020a14462bb020a184629b020a1c4627b020a204625b020a244623b020a284621b020a2c461fb020a30461db020a34461bb020a384619b020a3c4617b020a404615b020a444613b020a484611b020a4c460fb020a50460db020a54460bb020a584609b020a5c4607b020a604605b020a644603b020a684601b022c5c4a3fb022c604a3db022c644a3bb022c684a39b022c6c4a37b022c704a35b022c744a33b022c784a31b022c7c4a2fb022c804a2db022c844a2bb022c884a29b022c8c4a27b022c904a25b022c944a23b022c984a21b022c9c4a1fb022ca04a1db022ca44a1bb022ca84a19b022cac4a17b022cb04a15b0)
  (.lf 0)))

def shaWireTree481 : BTree :=
  .nd (.nd (.nd (.lf
  0x10de43942b410de839423011cd439bc7811c6439bcb411cd839bc3011c5839ba7811bd439bab411c5c39ba3011bc839b87811b5439b8b411bcc39b83011b4839b67811ad839b6b411b4c39b63011acc39b47811a4839b4b411ad039b43011a3c39b278119c839b2b411a4039b230119bc39b0781194839b0b4119c039b0301193c39ae78118c839aeb41194039ae30118bc39ac781184c39acb4118c039ac301184039aa78117c039aab41184439aa30117b439a8781173039a8b4117b839a8301172439a678116b039a6b41172839a630116a439a4781163039a4b4116a839a4301162439a278115b439a2b41162839a230115a839a0781152839a0b4115ac39a0301151c399e7811498399eb411520399e301148c399c7811418399cb411490399c301140c399a7811398399ab411410399a301138c399878113183998b4113903998301130c3996781129c3996b411310399630112903994781120c3994b4)
  (.lf 0)) (.nd (.lf
  0x1eb28004c7d1eb2c004c7b1eb30004c791eb34004c771eb38004c751eb3c004c731eb40004c711eb44004c6f1eb48004c6d1eb4c004c6b1eb50004c691eb54004c671eb58004c651eb5c004c631eb60004c6144ba4004c5f44bac004c5d44bb4004c5b44c30004c5944c38004c5744c40004c5544c48004c5344c50004c5144c58004c4f44c60004c4d44c68004c4b44c70004c4944c78004c4744c80004c4544c88004c4344c90004c4144c98004c3f44ca0004c3d44ca8004c3b44cb0004c3944cb8004c3744cc0004c3544cc8004c3344cd0004c3144cd8004c2f44ce0004c2d44ce8004c2b44cf0004c2944cf8004c2744d00004c2544d08004c2344d10004c211eb64004c1f1eb68004c1d1eb6c004c1b1ebe4004c191ebe8004c171ebec004c151ebf0004c131ebf4004c111ebf8004c0f1ebfc004c0d1ec00004c0b1ec04004c091ec08004c071ec0c004c051ec10004c031ec14004c011ec18004bff)
  (.lf 0))) (.nd (.nd (.lf
  0x70348dc307870350dc30307032cdc2eb470328dc2e7870330dc2e307031cdc2cb470318dc2c7870320dc2c30702fcdc2ab4702f8dc2a7870300dc2a30701d4dc28b4701b4dc2878701d8dc2830701a4dc26b470184dc2678701acdc263070178dc24b470158dc24787017cdc24307014cdc22b470124dc227870150dc223070114dc20b470100dc20787011cdc2030700f4dc1eb4700ccdc1e78700f8dc1e30700b8dc1cb46fffcdc1c78700c0dc1c306fff0dc1ab46ffe4dc1a786fff4dc1a306ffccdc18b46ffc8dc18786ffd0dc18306ffb0dc16b46ffacdc16786ffc0dc16306ffa0dc14b46ff9cdc14786ffa4dc14306ff7cdc12b46ff78dc12786ff8cdc12306ff6cdc10b46ff68dc10786ff70dc10306ff54dc0eb46ff50dc0e786ff58dc0e306ff18dc0cb46ff10dc0c786ff1cdc0c306ff04dc0ab46feecdc0a786ff08dc0a306fdd4dc08b46fdacdc08786fee0dc08306fd90dc06b46fd84dc0678)
  (.lf 0)) (.nd (.lf
  0x54190aa6bd054178aa69d054124aa67d05410caa65d0540ecaa63d0540c0aa61d054070aa5fd054060aa5dd053fd8aa5bd053fc0aa59d053fa8aa57d053f90aa55d053f80aa53d053ebcaa51d053eacaa4fd053e94aa4dd053e84aa4bd053db8aa49d053d8caa47d053bdcaa45d053bccaa43d053bb4aa411054318aafecc54300aafccc542e8aafacc542c4aaf8cc54208aaf6cc541f0aaf4cc541e0aaf2cc541c0aaf0cc541a8aaeecc54228aaeccc54184aaeacc5412caae8cc54118aae6cc540f4aae4cc540c8aae2cc5409caae0cc5407caadecc53fe0aadccc53fd0aadacc53fb0aad8cc53f98aad6cc53ff8aad4cc53ec4aad2cc53eccaad0cc53e9caacecc53ed4aacccc53dc8aacacc53d98aac8cc53be8aac6cc53ca0aac4cc53bc8aac2cc54340aafdd054328aafbd0542d4aaf9d0542a4aaf7d054290aaf5d05427caaf3d054264aaf1d054250aaefd05423caaedd05421caaebd054168aae9d0)
  (.lf 0)))

def shaWireTree482 : BTree :=
  .nd (.nd (.nd (.lf
  0x797e0f17c7879770f17cb4797e4f17c3079760f17a7879764f17ab479768f17a3079754f178787972cf178b479758f17830796a0f1767879720f176b479724f1763079674f1747879660f174b479684f17430795c0f17278795c4f172b479658f17230795b4f170787956cf170b4795b8f1703079554f16e78794dcf16eb479558f16e30794d0f16c7879460f16cb4794d4f16c3079434f16a7879438f16ab479458f16a3079428f168787941cf168b47942cf16830793f4f16678793fcf166b47940cf16630793d0f16478793e4f164b4793e8f164307939cf1627879398f162b4793a0f162307937cf1607879378f160b479380f1603079350f15e7879354f15eb479358f15e3079324f15c7879328f15cb479348f15c3079318f15a78792ecf15ab47931cf15a30792dcf15878792e0f158b4792e4f1583078014f15678792d0f156b4792d4f1563078004f1547878008f154b47800cf1543077ff8f15278)
  (.lf 0)) (.nd (.lf
  0x25b011663002598116478025941164b40259c11643002584116278025801162b402588116230025701160780256c1160b4025741160300255c115e7802558115eb402560115e3002548115c7802544115cb40254c115c3002534115a7802530115ab402538115a30025201158780251c1158b4025241158300250c115678025081156b402510115630024f8115478024f41154b4024fc115430024e4115278024e01152b4024e8115230024d0115078024cc1150b4024d4115030024bc114e78024b8114eb4024c0114e30024a8114c78024a4114cb4024ac114c3002494114a7802490114ab402498114a30024801148780247c1148b4024841148300246c114678024681146b40247011463002458114478024541144b40245c11443002444114278024401142b40244811423001bc011bc7801bbc11bcb401bc411bc3001b9811ba7801b9411bab401b9c11ba3001b6c11b87801b6811b8b401b7011b830)
  (.lf 0))) (.nd (.nd (.lf
  0x159503722aa158cc371eaa15848371aaa158003718aa157103710aa156cc370eaa15688370caa15644370aaa156003708aa155bc3706aa155783704aa15c74373d4015aa8372df415a64372b40159e83727f4159a43725f4159603723f41591c37214015898371d40158143719f4157cc371740156dc370ff415698370df415654370bf4156103709f4155cc3707f4155883705f415c3c373b4015c70373ca015c0437394015c38373aa015bcc37374015c003738a015b9437354015bc83736a015b5c37334015b903734a015b2437314015b583732a015aec372ff415b203730a015aac372e1e15ae4372eb415ae8372e1415a68372c1e15aa0372cb415aa4372c1415a2c3729f415a60372aa0159ec37281e15a243728b415a28372814159a837261e159e03726b4159e43726141596437241e1599c3724b4159a03724141592037221e159583722b41595c372214158e0371ff4159183720a01589c371e1e)
  (.lf 0)) (.nd (.lf
  0x2bf6869bbd02bf5469b9d02bf4069b7d02bf2c69b5d02bf1869b3d02bf0469b1d02be4869afd02be3469add02be2069abd02be0c69a9d02bdf869a7d02bde469a5d02bdd069a3d02bdbc69a1d02bda8699fd02bd94699dd02bd80699bd02bd6c6999d02bd586997d02bd446995d02bcd86993d02bcc06991d02bcb0698fd02bc9c698dd02bc88698bd02bc746989d02bc646987d02b4b46985d02a6486983d02a5e06981102c8cc6d7ecc2ca386d7ccc2c8c86d7acc2ca346d78cc2c9d46d76cc2ca806d74cc2ca706d72cc2ca746d70cc2ca786d6ecc2ca6c6d6ccc2ca3c6d6acc2c9406d68cc2c9786d66cc2c9586d64cc2c9ac6d62cc2c99c6d60cc2c9a06d5ecc2c9a86d5ccc2c9a46d5acc2c9806d58cc2c96c6d56cc2c9706d54cc2c9746d52cc2c9346d50cc2c9386d4ecc2c93c6d4ccc2c9046d4acc2c8f46d48cc2c8f86d46cc2c8fc6d44cc2c8f06d42cc2d2586d7dd02d2446d7bd02d2306d79d0)
  (.lf 0)))

def shaWireTree483 : BTree :=
  .nd (.nd (.nd (.lf
  0x62a24c7fa3062a0cc7f87862a04c7f8b462a10c7f830629f0c7f678629f4c7f6b4629fcc7f630629dcc7f478629e0c7f4b4629e4c7f430629c8c7f278629ccc7f2b4629d0c7f230629b4c7f078629b8c7f0b4629bcc7f030629a4c7ee78629a8c7eeb4629acc7ee3062988c7ec786298cc7ecb462990c7ec3062978c7ea786297cc7eab462980c7ea3062964c7e87862968c7e8b46296cc7e83062950c7e67862954c7e6b46295cc7e63062940c7e47862938c7e4b462944c7e4306292cc7e27862928c7e2b462930c7e2306291cc7e07862918c7e0b462920c7e03062900c7de786290cc7deb462910c7de30628f4c7dc78628f0c7dcb4628f8c7dc30628e4c7da78628e0c7dab4628e8c7da30625f0c7d878625e8c7d8b4628d8c7d830625d0c7d678625d8c7d6b4625dcc7d630625c4c7d478625c0c7d4b4625c8c7d43062560c7d278625b0c7d2b4625b4c7d230624c8c7d07862540c7d0b462544c7d030)
  (.lf 0)) (.nd (.lf
  0x23a804b1cb4239f84b1ab42396c4b194a238d84b174a238444b154a237b44b12b4237284b114a236984b0f4a236084b0d4a235744b0ab4234e04b08b4234484b06b4233a44b054a232fc4b02aa232ac4ac0cc258304f3eb4257fc4f3cb4257c04f3b4a257804f38b4257484f36b42570c4f354a256cc4f32b4256944f30b42565c4f2eb4256244f2cb4255ec4f2ab4255b44f28b4255784f274a255344f254a254f44f22b4254bc4f20b4254804f1f4a254404f1cb4254044f1b4a253c44f18b42538c4f16b4253544f14b42531c4f12b4252e04f114a2529c4f0f4a252584f0d4a252184f0ab4251e04f08b4251a44f074a251704f04aa251404ec32c251304ec0cc28050533eb427fcc533cb427f30533b4a27e905338b427df453374a27d5053354a27cb05332b427c1453314a27b70532f4a27acc532d4a27a28532b4a279885328b4278ec53274a2784c5324b4277b45322b42771853214a27678531eb4)
  (.lf 0))) (.nd (.nd (.lf
  0x1d5e86472301d5d06470b41d5cc6470781d5d46470301d5bc646eb41d5b8646e781d5c0646e301d5a8646cb41d5a4646c781d5ac646c301d594646ab41d590646a781d598646a301d5806468b41d57c6468781d5846468301d56c6466b41d5686466781d5706466301d5586464b41d5546464781d55c6464301d5446462b41d5406462781d5486462301d5306460b41d52c6460781d5346460301d51c645eb41d518645e781d520645e301d508645cb41d504645c781d50c645c301d4f4645ab41d4f0645a781d4f8645a301d4e06458b41d4dc6458781d4e46458301d4cc6456b41d4c86456781d4d06456301d4b86454b41d4b46454781d4bc6454301d4a46452b41d4a06452781d4a86452301d4906450b41d48c6450781d4946450301d47c644eb41d478644e781d480644e301d468644cb41d464644c781d46c644c301d454644ab41d450644a781d458644a301d4406448b41d43c6448781d444644830)
  (.lf 0)) (.nd (.lf
  0x11b342ab5d011aac2ab3d011a282ab1d0119a82aafd0119282aadd0118a82aabd0118202aa9d0117942aa7d0117102aa5d0116902aa3d0116102aa1d0115882a9fd0114fc2a9dd0114782a9bd0113f82a99d0113782a97d0112f82a95d0112702a93d0111ec2a91d0111642a8fd0110d82a8dd0110542a8bd010fcc2a89d010f402a87d010eb42a85d010e282a83d010d7c2a81100ba602a7ecc0ba102a7ccc0b99c2a7acc0b9082a78cc0b8902a76cc0b8102a74cc0b77c2a72cc0b7042a70cc0b6842a6ecc0b6042a6ccc0b5702a6acc0b4e42a68cc0b4582a66cc0b3cc2a64cc0b3402a62cc0b2b42a60cc0b2282a5ecc0b1b02a5ccc0b1302a5acc0b0b02a58cc0b0302a56cc0afb02a54cc0af1c2a52cc0aea42a50cc0ae102a4ecc0ad982a4ccc0ad042a4acc0ac8c2a48cc0ac0c2a46cc0ab842a44cc0ab0c2a42cc0ba0c2a7dd00b9942a7bd00b9182a79d00b8882a77d00b8082a75d00b78c2a73d0)
  (.lf 0)))

def shaWireTree484 : BTree :=
  .nd (.nd (.nd (.lf
  0x670b800094b670bc000949670c0000947670c4000945670c8000943670cc000941670d000093f670d400093d670d800093b670dc000939670e0000937670e4000935670e8000933670ec000931670f000092f670f400092d670f800092b670fc0009296710000092767104000925671080009236710c0009216711000091f693f000091d693f400091b693f8000919693fc0009176940000091569404000913694080009116940c00090f6941000090d6941400090b694180009096941c0009076942000090569424000903694280009016942c0008ff694300008fd694340008fb694380008f96943c0008f7694400008f5694440008f3694480008f16944c0008ef694500008ed694540008eb694580008e96945c0008e7694600008e56b7240008e36b7280008e16b72c0008df6b7300008dd6b7340008db6b7380008d96b73c0008d76b7400008d56b7440008d36b7480008d16b74c0008cf6b7500008cd)
  (.lf 0)) (.nd (.lf
  0x5699cb3a0b4569b0b39eb4569dcb39cb45694cb39ab45692cb398b4568bcb396b456770b394b456738b392b4566dcb390b45669cb38eb4566a0b38cb4566a4b38ab456514b388b4564ecb386b455fe0b384b455f78b382b455f20b380b455174b3be7855130b3bc78550ecb3ba78550b8b3b87854fecb3b678551b0b3b47854f9cb3b27854f58b3b07855020b3ae7854f10b3ac7854ee0b3aa7854eacb3a87854e80b3a67854e40b3a47854e20b3a27854df4b3a07854dd0b39e7854db0b39c7854d80b39a7854d60b3987854d2cb3967854cf4b3947854d08b3927854cd0b3907854ca0b38e7854e5cb38c7853e54b38a7853e7cb3887853d60b3867853d30b3847853c6cb3827853c30b3807857170b3be3057020b3bc3056ffcb3ba305707cb3b83056ee8b3b63056e74b3b43056db8b3b23056d24b3b03056c84b3ae3056c04b3ac3056bbcb3aa3056b88b3a83056b60b3a63056a80b3a43056a1cb3a230)
  (.lf 0))) (.nd (.nd (.lf
  0x2a7f45aca302a7805ac8b42a7145ac8782a7845ac8302a7085ac6b42a6985ac6782a70c5ac6302a68c5ac4b42a6145ac4782a6905ac4302a6085ac2b42a5cc5ac2782a60c5ac2302b3305b3caa2b2485b38aa2b1d05b36aa2b1585b34aa2b0085b2eaa2af205b2aaa2aea45b28aa2ac685b1eaa2ab7c5b1aaa2aa905b16aa2a9405b10aa2a8c85b0eaa2a8505b0caa2a76c5b08aa2a6f05b06aa2b3405b3df42b2c45b3b402b1e05b37f42b1685b35f42b0f05b33402afa05b2d402aeb45b29f42ae385b27402abfc5b1d402ab105b19402aa285b15402a8d85b0ff42a8605b0df42a7e85b0b402a7005b07f42b2c85b3c1e2b3385b3cb42b33c5b3c142b2585b39f42b2c05b3aa02b1e45b381e2b2505b38b42b2545b38142b16c5b361e2b1d85b36b42b1dc5b36142b0f45b341e2b1605b34b42b1645b34142b0845b31402b0ec5b32a02b0185b2ff42b0805b30a02afa45b2e1e2b0105b2eb42b0145b2e14)
  (.lf 0)) (.nd (.lf
  0x76f58edb3d076f3cedb1d076e10edafd076d6cedadd076cc8edabd076c98eda9d076bb4eda7d076b20eda5d076aa0eda3d076a40eda1d0769f4ed9fd07694ced9dd0768b0ed9bd076860ed99d076808ed97d076740ed95d0765d0ed93d0765b0ed91d076590ed8fd07656ced8dd07654ced8bd07645ced89d07644ced87d076334ed85d07630ced83d06fce8ed8110786c4f17ecc786b8f17ccc78684f17acc7865cf178cc7863cf176cc785a8f174cc78580f172cc78278f170cc78264f16ecc78248f16ccc78238f16acc78224f168cc78210f166cc781f0f164cc781d8f162cc781b8f160cc78120f15ecc781a4f15ccc780f8f15acc780dcf158cc78188f156cc77ee0f154cc77ec8f152cc77eb4f150cc77ef4f14ecc77ac8f14ccc776ccf14acc775b0f148cc773a4f146cc772bcf144cc77124f142cc797e8f17dd07976cf17bd07975cf179d079728f177d079688f175d07965cf173d0795bcf171d0)
  (.lf 0)))

def shaWireTree485 : BTree :=
  .nd (.nd (.nd (.lf
  0x7ac20eb18147abfceb161e7abe4eb16b47ac00eb16147abc8eb13407abd4eb14a07abbceb11407abc4eb12a07ab94eb0f407abb8eb10a07ab54eb0d407ab5ceb0ea07ab08eb0b407ab50eb0ca07a650eb09f47ab04eb0aa07a648eb081e7a630eb08b47a64ceb08147a568eb06a07b55cebfc787b564ebfcb47b568ebfc307b540ebfa787b544ebfab47b548ebfa307b534ebf8787b528ebf8b47b538ebf8307b51cebf6787b518ebf6b47b520ebf6307b504ebf4787b4f8ebf4b47b508ebf4307b498ebf2787b4ecebf2b47b4f0ebf2307b484ebf0787b430ebf0b47b490ebf0307b424ebee787b2e4ebeeb47b428ebee307b2ccebec787b2c8ebecb47b2d4ebec307b2bcebea787b2b8ebeab47b2c0ebea307b274ebe8787b278ebe8b47b27cebe8307b268ebe6787b264ebe6b47b26cebe6307b258ebe4787b254ebe4b47b25cebe4307b218ebe2787b248ebe2b47b24cebe2307b1e0ebe0787b1dcebe0b4)
  (.lf 0)) (.nd (.lf
  0x225704b9dd0225744b9bd0225784b99d02257c4b97d0225804b95d0225e84b93d0222b04b91d02228c4b8fd0222684b8dd0222444b8bd0222204b89d0221fc4b87d0221d84b85d0221b44b83d0221504b81d024b504fbfd024b584fbdd024b604fbbd024b644fb9d024b684fb7d024a8c4fb5d02492c4fb3d0249304fb1d0249344fafd0249384fadd02493c4fabd0249404fa9d0249444fa7d0249484fa5d02494c4fa3d0249504fa1d0249544f9fd0249584f9dd0247cc4f9bd02476c4f99d0247704f97d0247744f95d0247784f93d02477c4f91d0247804f8fd0246c04f8dd02441c4f8bd0244204f89d0244244f87d0244284f85d02442c4f83d0244304f81d0263dc53bfd0263e453bdd0263ec53bbd0263f053b9d0263f453b7d02632053b5d0261f053b3d0261f453b1d0261f853afd0261fc53add02620053abd02620453a9d02612853a7d0260c453a5d0260c853a3d0260cc53a1d0260d0539fd0)
  (.lf 0))) (.nd (.nd (.lf
  0x4f134a052b44f130a052784f138a052304f108a050b44f104a050784f10ca050304f0dca04eb44f0d8a04e784f0e0a04e304f0b0a04cb44f0aca04c784f0b4a04c304f084a04ab44f080a04a784f088a04a304f058a048b44f054a048784f05ca048304f02ca046b44f028a046784f030a046304f000a044b44effca044784f004a044304efd4a042b44efd0a042784efd8a042304f4bca03cb44f49ca03c784f4c0a03c304f490a03ab44f470a03a784f494a03a304f464a038b44f444a038784f468a038304f438a036b44f418a036784f43ca036304f40ca034b44f3eca034784f410a034304f3e0a032b44f3c0a032784f3e4a032304f3b4a030b44f394a030784f3b8a030304f388a02eb44f368a02e784f38ca02e304f35ca02cb44f33ca02c784f360a02c304f330a02ab44f310a02a784f334a02a304f304a028b44f2e4a028784f308a028304f2d8a026b44f2b8a026784f2dca026304f2aca024b4)
  (.lf 0)) (.nd (.lf
  0x316986a8dd0316846a8bd0316706a89d03165c6a87d0316486a85d0316346a83d03161c6a8110328d06a7ecc328706a7ccc327fc6a7acc327846a78cc327146a76cc326a86a74cc3263c6a72cc325cc6a70cc325546a6ecc324d46a6ccc324546a6acc323d46a68cc323546a66cc322d46a64cc322506a62cc321c46a60cc321406a5ecc320c06a5ccc320386a5acc31fb46a58cc31f346a56cc31eac6a54cc31e206a52cc31d946a50cc31d086a4ecc31c7c6a4ccc31bf86a4acc31b786a48cc31b006a46cc31a8c6a44cc31a186a42cc328a06a7dd0328386a7bd0327c46a79d03274c6a77d0326dc6a75d0326706a73d0326006a71d0325886a6fd0325086a6dd0324886a6bd0324086a69d0323886a67d0323086a65d03228c6a63d0322046a61d0321786a5fd0320f46a5dd0320746a5bd031fec6a59d031f686a57d031ee86a55d031e606a53d031dd46a51d031d486a4fd031cbc6a4dd031c306a4bd0)
  (.lf 0)))

def shaWireTree486 : BTree :=
  .nd (.nd (.nd (.lf
  0x423fc956030420cc955e78421b0955eb4421b4955e30420a4955c78420c0955cb4420c4955c3042088955a7842094955ab44209c955a304201c9558784207c9558b44208095583041f98955678420109556b44201495563041e1895547841f7c9554b441f8095543041df895527841e0c9552b441e1095523041dd095507841de49550b441de895503041ce4954e7841db4954eb441db8954e3041cbc954c7841cd0954cb441cd8954c3041bb4954a7841cac954ab441cb0954a3041b3495487841ba89548b441bac95483041ab495467841b289546b441b2c954630419d495447841aa89544b441aac954430419b4954278419c89542b4419cc95423042e1495bc7842dfc95bcb442e1895bc3042dcc95ba7842cb095bab442df495ba3042ca495b87842a2495b8b442ca895b83042a1095b6784287c95b6b442a1495b6304286895b4784282495b4b44286c95b4304281895b2784280895b2b44281c95b230)
  (.lf 0)) (.nd (.lf
  0x1ad04485d2c1acf0485b2c1acdc48592c1acc848572c1acb448552c1aca048532c1ac8c48512c1ac78484f2c1ac64484d2c1ac50484b2c1ac3c48492c1ac2848472c1ac1448452c1ac0048432c1abfc4840cc1b7dc4c7f2c1b7a04c7d2c1b75c4c7b2c1b7184c792c1b6d44c772c1b6904c752c1b64c4c732c1b6084c712c1b5c44c6f2c1b5804c6d2c1b53c4c6b2c1b4f84c692c1b4b44c672c1b4704c652c1b42c4c632c1b3e84c612c1b3a44c5f2c1b3604c5d2c1b31c4c5b2c1b2d84c592c1b2944c572c1b2504c552c1b20c4c532c1b1c84c512c1b1844c4f2c1b1404c4d2c1b0fc4c4b2c1b0b84c492c1b0744c472c1b0304c452c1afec4c432c1afd04c40cc1bf78507f2c1bf64507d2c1bf50507b2c1bf3c50792c1bf2850772c1bf1450752c1bf0050732c1beec50712c1bed8506f2c1bec4506d2c1beb0506b2c1be9c50692c1be8850672c1be7450652c1be6050632c1be4c50612c1be38505f2c)
  (.lf 0))) (.nd (.nd (.lf
  0x7dac12d23007ca812d0b407d2012d07807d2412d03007c2812ceb407c9c12ce7807ca012ce3007ba012ccb407c1c12cc7807c2012cc3007b1c12cab407b9412ca7807b9812ca3007a9412c8b407b1012c87807b1412c83007a0812c6b407a8812c67807a8c12c6300798412c4b4079fc12c47807a0012c4300790c12c2b40797812c2780797c12c230087c4133aaa087381338aa086ac1336aa085201330aa08414132caa083081328aa081fc1324aa081701322aa08064131eaa07fd8131caa07d4c1312aa07bc0130caa07ab41308aa07a281306aa0791c1302aa08890133d40087901339f4087041337f408678133540084ec132f40083e0132b40082d4132740081c81323f40813c13214008030131df407fa4131b4007d1813114007b8c130b4007a801307f4079f41305400881c133bf40888c133ca008794133a1e08814133ab408818133a140870813381e087881338b40878c1338140867c13361e)
  (.lf 0)) (.nd (.lf
  0x7a6c4ead2cc7a5b8ead0cc7a5b4eacecc7a538eacccc7a558eacacc7a550eac8cc7a554eac6cc7a440eac4cc7a2e8eac2cc7aaf8eafdd07aae4eafbd07aad0eaf9d07aab8eaf7d07aaa4eaf5d07aa8ceaf3d07aa7ceaf1d07aa68eaefd07a978eaedd07a940eaebd07a928eae9d07a918eae7d07a904eae5d07a8f0eae3d07a8dceae1d07a8c8eadfd07a8b4eaddd07a89ceadbd07a884ead9d07a864ead7d07a854ead5d07a6bcead3d07a624ead1d07a610eacfd07a5fceacdd07a5e8eacbd07a5d8eac9d07a5c0eac7d07a46ceac5d07a324eac3d07a274eac1107ae64eb3d407ae10eb33407add8eb2df47adbceb2b407ac88eb25407ac38eb1bf47ac24eb19f47ac04eb17f47abd8eb15407a62ceb07407a038ebfecc79ff8ebfccc7a048ebfacc7a004ebf8cc79fccebf6cc79fc4ebf4cc79facebf2cc79ed4ebf0cc79e54ebeecc79e9cebeccc79e7cebeacc79dc0ebe8cc79da8ebe6cc7a044ebe4cc)
  (.lf 0)))

def shaWireTree487 : BTree :=
  .nd (.nd (.nd (.lf
  0x503dca33a14503c0a33740503cca338a0503b0a33540503b8a336a050388a333f450398a334a05037ca3321e50380a332b450384a3321450364a32ff450374a330a05034ca32e1e5035ca32eb450360a32e145025ca32bf450344a32ca050234a32a1e50254a32ab450258a32a145020ca3281e50228a328b45022ca32814501e4a3261e50200a326b450204a3261450154a3241e501d8a324b4501dca324145013ca3221e50148a322b45014ca3221450120a3201e50130a320b450134a3201450108a31e1e50114a31eb450118a31e14500f8a31c1e500fca31cb450100a31c14500d8a31a1e500d4a31ab4500dca31a14500bca317f4500cca318a04ffe8a3161e50010a316b4500b8a316144ffcca313404ffe0a314a04ff3ca311404ffc8a312a04ff2ca30ff44ff38a310a04fc5ca30e1e4ff24a30eb44ff28a30e144f734a30bf44fc2ca30ca04f708a30a1e4f72ca30ab44f730a30a144f6f4a30740)
  (.lf 0)) (.nd (.lf
  0x1f7f042532c1f73442512c1f670424f2c1f5b0424d2c1f4f4424b2c1f44042492c1f38842472c1f2c442452c1f1f442432c1f1944240cc1a6cc467f2c1a690467d2c1a64c467b2c1a60846792c1a5c446772c1a58046752c1a53c46732c1a4f846712c1a4b4466f2c1a470466d2c1a42c466b2c1a3e846692c1a3a446672c1a36046652c1a31c46632c1a2d846612c1a294465f2c1a250465d2c1a20c465b2c1a1c846592c1a18446572c1a14046552c1a0fc46532c1a0b846512c1a074464f2c1a030464d2c19fec464b2c19fa846492c19f6446472c19f2046452c19edc46432c19ec04640cc243b84a7f2c243404a7d2c242b84a7b2c242304a792c241a04a772c2410c4a752c2407c4a732c23fec4a712c23f5c4a6f2c23ecc4a6d2c23e444a6b2c23dbc4a692c23d344a672c23cac4a652c23c244a632c23b944a612c23b004a5f2c23a744a5d2c239ec4a5b2c2395c4a592c238c84a572c238344a552c)
  (.lf 0))) (.nd (.nd (.lf
  0x13dd800260113ddc0025ff13de00025fd13de40025fb13de80025f913dec0025f713df00025f513df40025f313df80025f113dfc0025ef13e000025ed13e040025eb13e080025e913e0c0025e713e100025e513e140025e313e180025e1153ac0025df153b00025dd153b40025db153b80025d9153bc0025d7153c00025d5153c40025d3153c80025d1153cc0025cf153d00025cd153d40025cb153d80025c9153dc0025c7153e00025c5153e40025c3153e80025c1153ec0025bf153f00025bd153f40025bb153f80025b9153fc0025b7154000025b5154040025b3154080025b11540c0025af154100025ad154140025ab154180025a91541c0025a7154200025a5154240025a3154280025a1169b000259f169b400259d169b800259b169bc002599169c0002597169c4002595169c8002593169cc002591169d000258f169d400258d169d800258b169dc002589169e0002587169e4002585169e8002583)
  (.lf 0)) (.nd (.lf
  0x6fc54dc54cc6fc5cdc52cc6fc64dc50cc6fc6cdc4ecc6fc74dc4ccc6fc7cdc4acc6fc84dc48cc6fc8cdc46cc6fc94dc44cc6fc9cdc42cc70540dc7dd070520dc7bd0704fcdc79d0704a0dc77d0702e4dc75d0702ccdc73d0702b4dc71d07029cdc6fd070284dc6dd070204dc6bd0701ecdc69d0701c4dc67d070194dc65d070164dc63d070134dc61d0700ecdc5fd0700dcdc5dd0700b0dc5bd06febcdc59d06fea4dc57d06fe8cdc55d06fe74dc53d06fe64dc51d06fe3cdc4fd06fe24dc4dd06fdfcdc4bd06fde4dc49d06fdc8dc47d06fd70dc45d06fd38dc43d06fca4dc41107055cdc3ecc70550dc3ccc70548dc3acc704acdc38cc702f0dc36cc702dcdc34cc702bcdc32cc702a8dc30cc7028cdc2ecc7020cdc2ccc70200dc2acc701ccdc28cc7019cdc26cc7016cdc24cc70140dc22cc70110dc20cc70104dc1ecc700bcdc1ccc6fec8dc1acc6feb0dc18cc6fe98dc16cc6fe7cdc14cc6fed4dc12cc)
  (.lf 0)))

def shaWireTree488 : BTree :=
  .nd (.nd (.nd (.lf
  0x24b24597f2c24b18597d2c24afc597b2c24ae859792c24ad459772c24a8059752c248b859732c248c859712c24894596f2c2487c596d2c24868596b2c2485459692c2484459672c2483059652c2482459632c2480859612c247f0595f2c247dc595d2c247c0595b2c2473859592c2472459572c2471c59552c246fc59532c246e859512c246d4594f2c246b4594d2c235ac594b2c2351c59492c2347c59472c233e059452c2334459432c232c45940cc263b05d7f2c263a85d7d2c2638c5d7b2c263745d792c263605d772c263145d752c261bc5d732c261a85d712c261a05d6f2c261805d6d2c2616c5d6b2c261585d692c2611c5d672c260845d652c260985d632c260605d612c260485d5f2c260345d5d2c261345d5b2c25fb45d592c25f9c5d572c25f945d552c25f785d532c25f605d512c25f4c5d4f2c260ec5d4d2c25d445d4b2c25d405d492c25d245d472c25d085d452c259dc5d432c259d45d40cc)
  (.lf
  0x1c7f85860cc1c800585ecc1c808585ccc1c810585acc1c8185858cc1c8205856cc1c8285854cc1c8305852cc1c8385850cc1c840584ecc1c848584ccc1c850584acc1c8585848cc1c8605846cc1c8685844cc1c8705842cc1cad4587dd01cac0587bd01caac5879d01ca985877d01ca845875d01ca705873d01ca5c5871d01ca48586fd01ca34586dd01ca20586bd01ca0c5869d01c9f85867d01c9e45865d01c9d05863d01c9bc5861d01c9a8585fd01c994585dd01c980585bd01c96c5859d01c9585857d01c9445855d01c9305853d01c91c5851d01c908584fd01c8f4584dd01c8e0584bd01c8cc5849d01c8b85847d01c8a45845d01c8905843d01c8785841102b380583ecc2b318583ccc2b2a4583acc2b2305838cc2b1b85836cc2b1405834cc2b0d05832cc2b0645830cc2aff0582ecc2af80582ccc2af08582acc2ae8c5828cc2ae185826cc2ada85824cc2ad385822cc2acc85820cc2ac50581ecc))
  (.nd (.lf
  0x8b1400378108b1800377f08b1c00377d08b2000377b08b2400377908b2800377708b2c00377508b3000377308b3400377108b3800376f08b3c00376d08b4000376b08b4400376908b4800376708b4c00376508b5000376308b540037610a3bc00375f0a3c000375d0a3c400375b0a3c80037590a3cc0037570a3d00037550a3d40037530a3d80037510a3dc00374f0a3e000374d0a3e400374b0a3e80037490a3ec0037470a3f00037450a3f40037430a3f80037410a3fc00373f0a40000373d0a40400373b0a4080037390a40c0037370a4100037350a4140037330a4180037310a41c00372f0a42000372d0a42400372b0a4280037290a42c0037270a4300037250a4340037230a4380037210bc6800371f0bc6c00371d0bc7000371b0bc740037190bc780037170bc7c0037150bc800037130bc840037110bc8800370f0bc8c00370d0bc9000370b0bc940037090bc980037070bc9c0037050bca0003703)
  (.lf 0))) (.nd (.nd (.lf
  0x335b06e8c78335ac6e8cb4335b46e8c303359c6e8a78335986e8ab4335a06e8a30335886e8878335846e88b43358c6e8830335746e8678335706e86b4335786e8630335606e84783355c6e84b4335646e84303354c6e8278335486e82b4335506e8230347306e7cb4347906e7c78347946e7c30346b86e7ab4347246e7a78347286e7a303463c6e78b4346ac6e7878346b06e7830345c06e76b4346306e7678346346e7630345446e74b4345b46e7478345b86e7430344c86e72b4345386e72783453c6e72303444c6e70b4344bc6e7078344c06e7030343d86e6eb4344406e6e78344446e6e30343606e6cb4343cc6e6c78343d06e6c30342ec6e6ab4343546e6a78343586e6a30342786e68b4342e06e6878342e46e6830342006e66b43426c6e6678342706e66303418c6e64b4341f46e6478341f86e6430341206e62b4341806e6278341846e6230340a86e60b4341146e6078341186e6030340346e5eb4)
  (.lf 0)) (.nd (.lf
  0x196d4006cf3196dc006cf1196e4006cef196ec006ced196f4006ceb196fc006ce919704006ce71970c006ce519714006ce31971c006ce1214e0006cdf214e8006cdd214f0006cdb214f8006cd921500006cd721508006cd521510006cd321518006cd121520006ccf21528006ccd21530006ccb21538006cc921540006cc721548006cc521550006cc321558006cc121560006cbf21568006cbd21570006cbb21578006cb921580006cb721588006cb521590006cb321598006cb1215a0006caf215a8006cad215b0006cab215b8006ca9215c0006ca7215c8006ca5215d0006ca3215d8006ca122ddc006c9f22de4006c9d22dec006c9b22df4006c9922dfc006c9722e04006c9522e0c006c9322e14006c9122e1c006c8f22e24006c8d22e2c006c8b22e34006c8922e3c006c8722e44006c8522e4c006c8322e54006c8122e5c006c7f22e64006c7d22e6c006c7b22e74006c7922e7c006c7722e84006c75)
  (.lf 0)))

def shaWireTree489 : BTree :=
  .nd (.nd (.nd (.lf
  0x7d7f4fe70b47d7f0fe70787d7f8fe70307d7d8fe6eb47d7e0fe6e787d7e4fe6e307d7ccfe6cb47d7c8fe6c787d7d0fe6c307d7b8fe6ab47d7b0fe6a787d7bcfe6a307d798fe68b47d79cfe68787d7a4fe68307d788fe66b47d78cfe66787d790fe66307d77cfe64b47d778fe64787d780fe64307d764fe62b47d768fe62787d76cfe62307d754fe60b47d748fe60787d758fe60307d73cfe5eb47d734fe5e787d740fe5e307d720fe5cb47d728fe5c787d72cfe5c307d710fe5ab47d708fe5a787d714fe5a307d6f8fe58b47d6fcfe58787d700fe58307d6e8fe56b47d6ecfe56787d6f0fe56307d0b0fe54b47d0a0fe54787d6e0fe54307d094fe52b47d060fe52787d098fe52307d04cfe50b47d030fe50787d058fe50307d020fe4eb47d01cfe4e787d028fe4e307d010fe4cb47c45cfe4c787d014fe4c307c43cfe4ab47c44cfe4a787c454fe4a307c414fe48b47c3bcfe48787c418fe48307c3b0fe46b4)
  (.lf 0)) (.nd (.lf
  0x228784bdd2c228644bdb2c228504bd92c2283c4bd72c228284bd52c228144bd32c228004bd12c227ec4bcf2c227d84bcd2c227c44bcb2c227b04bc92c2279c4bc72c227884bc52c227744bc32c227704bc0cc24e244fff2c24e104ffd2c24dfc4ffb2c24de84ff92c24dd44ff72c24dc04ff52c24dac4ff32c24d984ff12c24d844fef2c24d704fed2c24d5c4feb2c24d484fe92c24d344fe72c24d204fe52c24d0c4fe32c24cf84fe12c24ce44fdf2c24cd04fdd2c24cbc4fdb2c24ca84fd92c24c944fd72c24c804fd52c24c6c4fd32c24c584fd12c24c444fcf2c24c304fcd2c24c204fcb2c24ab44fc92c24a644fc72c24a504fc52c24a3c4fc32c24a384fc0cc266b053ff2c2669c53fd2c2668853fb2c2667453f92c2666053f72c2664c53f52c2663853f32c2662453f12c2661053ef2c265fc53ed2c265e853eb2c265d453e92c265c053e72c265ac53e52c2659853e32c2658453e12c2657053df2c)
  (.lf 0))) (.nd (.nd (.lf
  0x5d0a4c0a2305d088c0a0b45d084c0a0785d090c0a0305d070c09eb45d078c09e785d07cc09e305d064c09cb45d060c09c785d068c09c305d050c09ab45d044c09a785d054c09a305cfc4c098b45d034c098785d038c098305cf48c096b45cfb8c096785cfbcc096305ced8c094b45cf3cc094785cf40c094305ce48c092b45ceccc092785ced0c092305cdccc090b45ce3cc090785ce40c090305cd44c08eb45cdc0c08e785cdc4c08e305ccacc08cb45cd38c08c785cd3cc08c305cc40c08ab45cc9cc08a785cca0c08a305cbbcc088b45cc30c088785cc34c088305cb48c086b45cbb0c086785cbb4c086305caccc084b45cb3cc084785cb40c084305ca50c082b45cac0c082785cac4c0823060e7cc07cb460e60c07c7860e80c07c3060e50c07ab460dc4c07a7860e54c07a3060dacc078b460db8c0787860dbcc0783060da0c076b460d9cc0767860da4c0763060d88c074b460d7cc0747860d8cc07430)
  (.lf 0)) (.nd (.lf
  0x3c9ac8a5acc3c9948a58cc3c9d08a56cc3c9e08a54cc3c9888a52cc3c9748a50cc3c9d48a4ecc3c97c8a4ccc3c9988a4acc3c9dc8a48cc3c9d88a46cc3c9808a44cc3c9c88a42cc3cc488a7dd03cc348a7bd03cc208a79d03cc0c8a77d03cbf88a75d03cbe48a73d03cbd08a71d03cbbc8a6fd03cba88a6dd03cb948a6bd03cb808a69d03cb6c8a67d03cb588a65d03cb448a63d03cb308a61d03cb1c8a5fd03cb048a5dd03caf48a5bd03cae08a59d03cacc8a57d03cab88a55d03caa48a53d03ca908a51d03ca7c8a4fd03ca688a4dd03ca548a4bd03ca408a49d03ca288a47d03ca188a45d03c9bc8a43d03c9848a4110443c08afecc441d88afccc43c848afacc440608af8cc43c688af6cc43c648af4cc43c608af2cc43c208af0cc43bf48aeecc43bdc8aeccc43b048aeacc43a748ae8cc439888ae6cc439308ae4cc438bc8ae2cc4382c8ae0cc437288adecc437108adccc436788adacc434b88ad8cc)
  (.lf 0)))

def shaWireTree490 : BTree :=
  .nd (.nd (.nd (.lf
  0x58f10c1aeb458f14c1ae3058ef4c1ac7858ef8c1acb458f00c1ac3058ee0c1aa7858ee4c1aab458ee8c1aa3058ed0c1a87858ed4c1a8b458ed8c1a83058ec0c1a67858e9cc1a6b458ec4c1a63058e90c1a47858e3cc1a4b458e94c1a43058e28c1a27858e2cc1a2b458e30c1a23058e10c1a07858e18c1a0b458e1cc1a03058e04c19e7858dfcc19eb458e08c19e3058dd8c19c7858dd0c19cb458df4c19c3058dc0c19a7858dc4c19ab458dc8c19a3058d88c1987858d84c198b458db4c1983058d78c1967858d74c196b458d7cc1963058d38c1947858d34c194b458d3cc1943058d28c1927858d24c192b458d2cc1923058d18c1907858d08c190b458d1cc1903058cf8c18e7858ce8c18eb458cfcc18e3058cc0c18c7858cd8c18cb458cdcc18c3058c90c18a7858cb0c18ab458cb4c18a3058c84c1887858c80c188b458c88c1883058c70c1867858c4cc186b458c74c1863058c40c1847858c3cc184b4)
  (.lf 0)) (.nd (.lf
  0x320bc681d2c32034681b2c31fb068192c31f3068172c31ea868152c31e1c68132c31d9068112c31d04680f2c31c78680d2c31bf4680b2c31b7468092c31afc68072c31a8868052c31a1468032c319e06800cc347c86c3f2c347646c3d2c346ec6c3b2c346706c392c345f46c372c345786c352c344fc6c332c344806c312c3440c6c2f2c343946c2d2c343206c2b2c342a86c292c342306c272c341c06c252c341506c232c340dc6c212c340686c1f2c33ff06c1d2c33f746c1b2c33efc6c192c33e806c172c33e046c152c33d8c6c132c33d146c112c33c986c0f2c33c146c0d2c33b8c6c0b2c33b086c092c33a7c6c072c339e46c052c339406c032c339006c00cc366dc703f2c36674703d2c36600703b2c3659470392c3652470372c364b070352c3643870332c363c870312c36354702f2c362d8702d2c3625c702b2c361e870292c3617870272c3610870252c3609870232c3602870212c35fb8701f2c)
  (.lf 0))) (.nd (.nd (.lf
  0xfe5c26a4300fdd826a2780fdd426a2b40fddc26a2300fd5026a0780fd4c26a0b40fd5426a0300fcc4269e780fcc0269eb40fcc8269e300fc40269c780fc3c269cb40fc44269c300fbb8269a780fbb4269ab40fbbc269a300fb342698780fb302698b40fb382698300faac2696780faa82696b40fab02696300fa202694780fa1c2694b40fa242694300f99c2692780f9982692b40f9a02692300f9142690780f9102690b40f9182690300f888268e780f884268eb40f88c268e300f804268c780f800268cb40f808268c300f784268a780f780268ab40f788268a300f7042688780f7002688b40f7082688300f6842686780f6802686b40f6882686300f6042684780f6002684b40f6082684300f5842682780f5802682b40f5882682300a160267cb40a0e4267c780a164267c300a0d8267ab40a068267a780a0dc267a300a05c2678b409fdc2678780a06026783009fd02676b409f4c26767809fd4267630)
  (.lf 0)) (.nd (.lf
  0xaaf42942cc0b9f8297dd00b97c297bd00b9002979d00b8702977d00b7f02975d00b7742973d00b6e42971d00b664296fd00b5e4296dd00b568296bd00b4dc2969d00b4502967d00b3c42965d00b3382963d00b2ac2961d00b220295fd00b190295dd00b110295bd00b0902959d00b0102957d00af902955d00af142953d00ae842951d00ae08294fd00ad78294dd00acfc294bd00ac6c2949d00abec2947d00ab7c2945d00ab042943d00aab42941100ba5029becc0b9fc29bccc0b98429bacc0b8d829b8cc0b87829b6cc0b7f829b4cc0b74c29b2cc0b6ec29b0cc0b66c29aecc0b5ec29accc0b54029aacc0b4b429a8cc0b42829a6cc0b39c29a4cc0b31029a2cc0b28429a0cc0b1f8299ecc0b198299ccc0b118299acc0b0982998cc0b0182996cc0af982994cc0aeec2992cc0ae8c2990cc0ade0298ecc0ad80298ccc0acd4298acc0ac742988cc0abf42986cc0ab542984cc0aadc2982cc0b9e429bdd0)
  (.lf 0)))

def shaWireTree491 : BTree :=
  .nd (.nd (.nd (.lf
  0x591acb68878591b0b688b4591b4b6883059198b6867859194b686b4591a0b6863059188b6847859184b684b45918cb6843059170b6827859174b682b459178b682305af68b67cb45af6cb67c785af74b67c305af54b67ab45af5cb67a785af60b67a305af3cb678b45af48b678785af4cb678305af2cb676b45af30b676785af34b676305af0cb674b45af10b674785af14b674305aef4b672b45aef8b672785aefcb672305aee8b670b45aed8b670785aeecb670305aeccb66eb45aec4b66e785aed0b66e305aeb8b66cb45aeb0b66c785aebcb66c305aea0b66ab45aea4b66a785aea8b66a305ac98b668b45ae90b668785ae94b668305ac88b666b45ac8cb666785ac90b666305abf4b664b45ac6cb664785ac70b664305abe4b662b45abe8b662785abecb662305a950b660b45abd8b660785abdcb660305a938b65eb45a944b65e785a948b65e305a920b65cb45a92cb65c785a930b65c305a90cb65ab4)
  (.lf 0)) (.nd (.lf
  0x21d1446fd2c21cd046fb2c21c9446f92c21c5446f72c21c1046f52c21bcc46f32c21b8846f12c21b4446ef2c21b0846ed2c21ac846eb2c21a8446e92c21a4046e72c219fc46e52c219b846e32c2197c46e12c2194446df2c2190446dd2c218c846db2c2189046d92c2185846d72c2181846d52c217d446d32c2179046d12c2174c46cf2c2171046cd2c216d846cb2c216a046c92c2166846c72c2162846c52c215f846c32c243c04aff2c243484afd2c242c04afb2c242384af92c241a84af72c241144af52c240844af32c23ff44af12c23f644aef2c23ed44aed2c23e4c4aeb2c23dc44ae92c23d3c4ae72c23cb44ae52c23c2c4ae32c23b9c4ae12c23b084adf2c23a7c4add2c239f44adb2c239644ad92c238d04ad72c2383c4ad52c237b04ad32c237204ad12c236904acf2c236004acd2c235704acb2c234dc4ac92c234444ac72c2339c4ac52c232f84ac32c2582c4eff2c257f84efd2c257b84efb2c)
  (.lf 0))) (.nd (.nd (.lf
  0x1a3304422b41a2f84422781a3344422301a2ec4420b41a2b44420781a2f04420301a2a8441eb41a270441e781a2ac441e301a264441cb41a22c441c781a268441c301a220441ab41a1e8441a781a224441a301a1dc4418b41a1a44418781a1e04418301a1984416b41a1604416781a19c4416301a1544414b41a11c4414781a1584414301a1104412b41a0d84412781a1144412301a0cc4410b41a0944410781a0d04410301a088440eb41a050440e781a08c440e301a044440cb41a00c440c781a048440c301a000440ab419fc8440a781a004440a3019fbc4408b419f8444087819fc044083019f784406b419f4044067819f7c44063019f344404b419efc44047819f3844043019ef04402b419ec844027819ef44402302439c48bcb42439848bc78243a048bc302432448bab42432048ba782432848ba302429c48b8b42429848b878242a048b8302421448b6b42421048b6782421848b6302418448b4b4)
  (.lf 0)) (.nd (.lf
  0x2dfc06c11003d9c073df403d1c073bf403c900739f403c04073740039f8072f400386c0729f4037e0072740036d40723f4036480721f4035bc071f40034b0071b40032a407134003118070d4002f8c0707400291c07fecc0292407fccc0292c07facc0293407f8cc0293c07f6cc0294407f4cc0294c07f2cc0295407f0cc0295c07eecc0296407eccc0296c07eacc0297407e8cc0297c07e6cc0298407e4cc0298c07e2cc0299407e0cc0299c07decc029a407dccc029ac07dacc029b407d8cc029bc07d6cc029c407d4cc029cc07d2cc029d407d0cc029dc07cecc029e407cccc029ec07cacc029f407c8cc029fc07c6cc02a0407c4cc02a0c07c2cc02c7007fdd002c5c07fbd002c4807f9d002c3407f7d002c2007f5d002c0c07f3d002bf807f1d002be407efd002bd007edd002bbc07ebd002ba807e9d002b9407e7d002b8007e5d002b6c07e3d002b5807e1d002b4407dfd002b3007ddd002b1c07dbd0)
  (.lf 0)))

def shaWireTree492 : BTree :=
  .nd (.nd (.nd (.lf
  0x7fd281c50307e8681c4e787e8641c4eb47e8701c4e307e8581c4c787dd681c4cb47e85c1c4c307dd301c4a787dcd01c4ab47dd601c4a307dcc41c48787db841c48b47dcc81c48307db781c46787d57c1c46b47db7c1c46307d56c1c44787d5701c44b47d5741c44307d4a01c42787d4a41c42b47d5601c4230199d400191f199d800191d199dc00191b199e0001919199e4001917199e8001915199ec001913199f0001911199f400190f199f800190d199fc00190b19a0000190919a0400190719a0800190519a0c00190319a1000190119a140018ff19a180018fd19a1c0018fb19a200018f919a240018f719a280018f52318c0018f3231900018f1231940018ef231980018ed2319c0018eb231a00018e9231a40018e7231a80018e5231ac0018e3231b00018e1231b40018df231b80018dd231bc0018db231c00018d9231c40018d7231c80018d5231cc0018d3231d00018d1231d40018cf231d80018cd)
  (.lf 0)) (.nd (.lf
  0x299045ba030298dc5b9e30295a85b9c30295ac5b9a30295b05b9830295b45b9630295b85b9430295bc5b9230295c05b9030295c45b8e30295c85b8c30295cc5b8a30295d05b8830295d45b8630295d85b8430295dc5b8230295e05b80302b7405fbeb42b7445fbcb42b7485fbab42b74c5fb8b42b7505fb6b42b7545fb4b42b7585fb2b42b75c5fb0b42b7605faeb42b7645facb42b7685faab42b76c5fa8b42b7705fa6b42b7745fa4b42b7785fa2b42b77c5fa0b42b7805f9eb42b7845f9cb42b7885f9ab42b78c5f98b42b5585f96b42b55c5f94b42b5605f92b42b5645f90b42b59c5f8eb42b47c5f8cb42b4205f8ab42b4245f88b42b4285f86b42b42c5f84b42b3b85f82b42b3bc5f80b429d1c5fbe7829cc05fbc7829c645fba7829c0c5fb87829bb45fb67829b5c5fb47829b045fb27829aac5fb07829a545fae7829a105fac78299d85faa78299ac5fa878299845fa6782995c5fa478299345fa278)
  (.lf 0))) (.nd (.nd (.lf
  0x230784aaa78230744aaab42307c4aaa30230644aa878230604aa8b4230684aa830230504aa6782304c4aa6b4230544aa6302303c4aa478230384aa4b4230404aa430230284aa278230244aa2b42302c4aa230230144aa078230104aa0b4230184aa030230004a9e7822ffc4a9eb4230044a9e3022fec4a9c7822fe84a9cb422ff04a9c3022fd84a9a7822fd44a9ab422fdc4a9a3022fc44a987822fc04a98b422fc84a983022fb04a967822fac4a96b422fb44a963022f9c4a947822f984a94b422fa04a943022f884a927822f844a92b422f8c4a923022f744a907822f704a90b422f784a903022f604a8e7822f5c4a8eb422f644a8e3022f4c4a8c7822f484a8cb422f504a8c3022f384a8a7822f344a8ab422f3c4a8a3022f244a887822f204a88b422f284a883022f104a867822f0c4a86b422f144a863022efc4a847822ef84a84b422f004a843022ee84a827822ee44a82b422eec4a8230242ec4a7cb4)
  (.lf 0)) (.nd (.lf
  0x4df90ad77d04deacad75d04de3cad73d04ddc8ad71d04dd20ad6fd04dcc0ad6dd04dbf4ad6bd04dbd0ad69d04dbacad67d04da88ad65d04da3cad63d04da04ad61d04d960ad5fd04d924ad5dd04d8f8ad5bd04d8a0ad59d04d7a4ad57d04d710ad55d04d6bcad53d04d684ad51d04d5fcad4fd04d5a8ad4dd04d530ad4bd04d478ad49d04d464ad47d04d450ad45d04d314ad43d04d218ad41104e170adbecc4e15cadbccc4e008adbacc4e464adb8cc4df6cadb6cc4de80adb4cc4e360adb2cc4e364adb0cc4dcfcadaecc4dc9cadaccc4db80adaacc4db64ada8cc4db88ada6cc4da68ada4cc4da54ada2cc4d9e4ada0cc4d968ad9ecc4d950ad9ccc4d900ad9acc4d8a8ad98cc4d88cad96cc4d6ecad94cc4d728ad92cc4d69cad90cc4d604ad8ecc4d5bcad8ccc4d54cad8acc4d438ad88cc4d418ad86cc4d480ad84cc4d328ad82cc4e650adbdd04e63cadbbd04e628adb9d04e614adb7d04e600adb5d0)
  (.lf 0)))

def shaWireTree493 : BTree :=
  .nd (.nd (.nd (.lf
  0x6e87cda52786e880da52306e810da50b46e81cda50786e820da50306e800da4eb46e804da4e786e808da4e306e1a0da4cb46e19cda4c786e1a4da4c306e188da4ab46e184da4a786e18cda4a306e170da48b46e150da48786e174da48306e120da46b46e124da46786e128da46306dc3cda44b46dc6cda44786e118da44306dbd4da42b46dbf0da42786dc34da42306ec4cdafcb46ec40dafc786ec50dafc306ec30dafab46ec2cdafa786ec38dafa306ec20daf8b46ec1cdaf8786ec24daf8306ec08daf6b46ebfcdaf6786ec0cdaf6306ebe0daf4b46ebf0daf4786ebf4daf4306ebd4daf2b46ebccdaf2786ebd8daf2306ebb8daf0b46ebb4daf0786ebbcdaf0306eba8daeeb46eba4daee786ebacdaee306eb94daecb46eb90daec786eb98daec306eb7cdaeab46eb80daea786eb84daea306eb60dae8b46eb64dae8786eb68dae8306eb48dae6b46eb54dae6786eb58dae6306eb38dae4b46eb3cdae478)
  (.lf 0)) (.nd (.lf
  0x226f8005c7d22700005c7b22708005c7922710005c7722718005c7522720005c7322728005c7122730005c6f22738005c6d22740005c6b22748005c6922750005c6722758005c6522760005c6322768005c61249d0005c5f249d4005c5d24ba8005c5b24bb0005c5924bb8005c5724bc0005c5524bc8005c5324a9c005c51249d8005c4f249e0005c4d249e8005c4b249f0005c49249f8005c4724bd0005c4524bd8005c4324be0005c4124be8005c3f24bf0005c3d24aa4005c3b24a00005c3924a08005c3724a10005c3524bf8005c3324c00005c3124c08005c2f24c10005c2d24c18005c2b24aac005c2924a18005c2724a20005c2524a28005c2324a30005c212624c005c1f26250005c1d26434005c1b2643c005c1926444005c172644c005c1526454005c1326330005c1126254005c0f2625c005c0d26264005c0b2626c005c0926274005c072645c005c0526464005c032646c005c0126474005bff)
  (.lf 0))) (.nd (.nd (.lf
  0x3bb088004783bb0c8004303bac88002b43bad88002783badc8002304129084bcb44128c84bc784129484bc304127c84bab44127884ba784128084ba304126884b8b44126484b8784126c84b8304125484b6b44125084b6784125884b6304124084b4b44123c84b4784124484b4304122c84b2b44122884b2784123084b2304121884b0b44121484b0784121c84b0304120484aeb44120084ae784120884ae30411f084acb4411ec84ac78411f484ac30411dc84aab4411d884aa78411e084aa30411c884a8b4411c484a878411cc84a830411b484a6b4411b084a678411b884a630411a084a4b44119c84a478411a484a4304118c84a2b44118884a2784119084a2304117884a0b44117484a0784117c84a03041164849eb441160849e7841168849e3041150849cb44114c849c7841154849c304113c849ab441138849a7841140849a30411288498b4411248498784112c849830411148496b441110849678)
  (.lf 0)) (.nd (.lf
  0x22fcc4a99d022fb84a97d022fa44a95d022f904a93d022f7c4a91d022f684a8fd022f544a8dd022f404a8bd022f2c4a89d022f184a87d022f044a85d022ef04a83d022ed84a8110243b44a7ecc2433c4a7ccc242b44a7acc2422c4a78cc2419c4a76cc241084a74cc240784a72cc23fe84a70cc23f584a6ecc23ec84a6ccc23e404a6acc23db84a68cc23d304a66cc23ca84a64cc23c204a62cc23b904a60cc23afc4a5ecc23a704a5ccc239e84a5acc239584a58cc238c44a56cc238304a54cc237a44a52cc237144a50cc236844a4ecc235f44a4ccc235644a4acc234d04a48cc234384a46cc233904a44cc232ec4a42cc2436c4a7dd0242e84a7bd0242604a79d0241d84a77d0241484a75d0240b84a73d0240284a71d023f984a6fd023f084a6dd023e784a6bd023dec4a69d023d644a67d023cdc4a65d023c544a63d023bcc4a61d023b3c4a5fd023aa84a5dd023a1c4a5bd0239944a59d0239044a57d0)
  (.lf 0)))

def shaWireTree494 : BTree :=
  .nd (.nd (.nd (.lf
  0x296e4659078296ec6590b4296f0659030296d8658e78296d4658eb4296dc658e30296c4658c78296c0658cb4296c8658c30296b0658a78296ac658ab4296b4658a302969c658878296986588b4296a065883029688658678296846586b42968c65863029674658478296706584b429678658430296606582782965c6582b4296646582302b730697c782b72c697cb42b734697c302b71c697a782b718697ab42b720697a302b7086978782b7046978b42b70c6978302b6f46976782b6f06976b42b6f86976302b6e06974782b6dc6974b42b6e46974302b6cc6972782b6c86972b42b6d06972302b6b86970782b6b46970b42b6bc6970302b6a4696e782b6a0696eb42b6a8696e302b690696c782b68c696cb42b694696c302b67c696a782b678696ab42b680696a302b6686968782b6646968b42b66c6968302b6546966782b6506966b42b6586966302b6406964782b63c6964b42b6446964302b62c696278)
  (.lf 0)) (.nd (.lf
  0x60fb0003c7d60fb8003c7b60fc0003c7960fc8003c7760fd0003c7560fd8003c7360fe0003c7160fe8003c6f60ff0003c6d60ff8003c6b61000003c6961008003c6761010003c6561018003c6361020003c6163670003c5f63678003c5d63680003c5b63688003c5963690003c5763698003c55636a0003c53636a8003c51636b0003c4f636b8003c4d6370c003c4b63714003c496371c003c4763978003c4563724003c436372c003c4163734003c3f6373c003c3d63744003c3b6374c003c3963980003c3763754003c3563988003c336375c003c3163764003c2f6376c003c2d63774003c2b6377c003c2963784003c276378c003c2563794003c236379c003c2165758003c1f65720003c1d656e8003c1b656a0003c1965650003c1765600003c15655b0003c1365560003c1165514003c0f65494003c0d65afc003c0b65b04003c0965b0c003c0765b14003c05659e4003c03659ec003c01659f4003bff)
  (.lf 0))) (.nd (.nd (.lf
  0x74c40fc82b474c5cfc827874c60fc823075b70fc7cb475b74fc7c7875b78fc7c3075b60fc7ab475b54fc7a7875b64fc7a3075b3cfc78b475b48fc787875b4cfc783075b24fc76b475b30fc767875b34fc763075b18fc74b475b10fc747875b1cfc743075af4fc72b475af8fc727875afcfc723075ae4fc70b475ae8fc707875aecfc703075ac4fc6eb475ac0fc6e7875ac8fc6e3075ab0fc6cb475aa4fc6c7875ab4fc6c3075a98fc6ab475a94fc6a7875a9cfc6a3075a80fc68b475a7cfc687875a8cfc683075a64fc66b475a70fc667875a74fc663075a4cfc64b475a58fc647875a5cfc643075a34fc62b475a30fc627875a38fc623075a14fc60b475a20fc607875a24fc603075a08fc5eb475a04fc5e7875a0cfc5e30759f4fc5cb4759f8fc5c78759fcfc5c30759d4fc5ab4759d8fc5a78759dcfc5a30759bcfc58b4759c8fc5878759ccfc5830759a4fc56b4759a8fc5678759acfc563075998fc54b4)
  (.lf 0)) (.nd (.lf
  0x65504ca55d06543cca53d0653c4ca51d065344ca4fd0652dcca4dd065218ca4bd0650a8ca49d065054ca47d064ff4ca45d064fc0ca43d064f6cca411065d80cafecc65d88cafccc65d58cafacc65d44caf8cc65d2ccaf6cc65d08caf4cc65cf8caf2cc65cd4caf0cc65d14caeecc65cc0caeccc65c98caeacc65c7ccae8cc65d0ccae6cc65c6ccae4cc65c38cae2cc656e4cae0cc6568ccadecc6563ccadccc655eccadacc655a4cad8cc65fd8cad6cc654c8cad4cc65458cad2cc653d4cad0cc65360cacecc652f8cacccc6522ccacacc650bccac8cc6505ccac6cc65000cac4cc64f94cac2cc661b0cafdd066194cafbd066180caf9d06616ccaf7d06615ccaf5d066140caf3d066124caf1d066114caefd0660fccaedd0660e4caebd0660d0cae9d0660c0cae7d0660a8cae5d066094cae3d066080cae1d06606ccadfd066058caddd066040cadbd066028cad9d066010cad7d0654f4cad5d065454cad3d0)
  (.lf 0)))

def shaWireTree495 : BTree :=
  .nd (.nd (.nd (.lf
  0x467e092a0b4467e892a030467c0929e78467cc929eb4467d0929e30467b4929c78467ac929cb4467b8929c30467a0929a784679c929ab4467a4929a3046778929878467889298b44678c929830467689296784676c9296b4467709296304674c929478467509294b4467549294304673c929278467409292b44674492923046730929078467209290b4467349290304670c928e7846714928eb446718928e30466fc928c7846700928cb446704928c30466e4928a78466e0928ab4466e8928a30466d4928878466d09288b4466d8928830466bc928678466c09286b4466c4928630466a8928478466a49284b4466b492843046694928278466989282b44669c928230404f4927cb4404ec927c78404f8927c30404d8927ab4404e0927a78404e4927a30404cc9278b4404c4927878404d0927830404b09276b4404b8927678404bc927630404a49274b44049c927478404a8927430404889272b440490927278)
  (.lf 0)) (.nd (.lf
  0x197c842932c197b442912c197a0428f2c1978c428d2c19778428b2c1976442892c1975042872c1973c42852c1972842832c197244280cc21d4846bf2c21d0c46bd2c21cc846bb2c21c8c46b92c21c4c46b72c21c0846b52c21bc446b32c21b8046b12c21b3c46af2c21b0046ad2c21ac046ab2c21a7c46a92c21a3846a72c219f446a52c219b046a32c2197446a12c2193c469f2c218fc469d2c218c0469b2c2188846992c2185046972c2181046952c217cc46932c2178846912c21744468f2c21708468d2c216d0468b2c2169846892c2166046872c2162046852c215f046832c215e04680cc231384abf2c231244abd2c231104abb2c230fc4ab92c230e84ab72c230d44ab52c230c04ab32c230ac4ab12c230984aaf2c230844aad2c230704aab2c2305c4aa92c230484aa72c230344aa52c230204aa32c2300c4aa12c22ff84a9f2c22fe44a9d2c22fd04a9b2c22fbc4a992c22fa84a972c22f944a952c)
  (.lf 0))) (.nd (.nd (.lf
  0x47fdc96205047fe0961e5047fe4961c5047e88961a5047e8c96185046fcc96165046fd096145046fd496125046fd896105046fdc960e5046b5c960c5046b20960a5046acc96085046a80960650469fc96045046a0096025046684960050480bc9a3e78480c09a3c78480c49a3a78480c89a38784801c9a3678480209a3478482189a3278480249a3078480289a2e784802c9a2c78480309a2a78480349a2878480389a26784803c9a2478480409a2278480449a2078480489a1e784804c9a1c7847e989a1a7847e9c9a187846ff49a167846ff89a147846ffc9a1278470009a1078470049a0e7846b649a0c7846b289a0a7846ad49a087846a889a067846a0c9a047846a109a02784668c9a00784a3c49a3e504a3c89a3c504a3cc9a3a504a3d09a38504a3d49a36504a3d89a34504a3dc9a32504a3289a30504a32c9a2e504a2cc9a2c504a2d09a2a504a2e89a28504a2749a26504a2789a24504a1e09a2250)
  (.lf 0)) (.nd (.lf
  0x57c00b058cc57c08b056cc57c10b054cc57c18b052cc57c20b050cc57c28b04ecc57c30b04ccc57c38b04acc57c40b048cc57c48b046cc57c50b044cc57c58b042cc58194b07dd05816cb07bd058140b079d058114b077d0580e8b075d0580bcb073d058090b071d058064b06fd058038b06dd05800cb06bd057fe0b069d057fb4b067d057f88b065d057f5cb063d057f30b061d057f04b05fd057ed8b05dd057eacb05bd057e80b059d057e54b057d057e28b055d057dfcb053d057dd0b051d057da4b04fd057d78b04dd057d4cb04bd057d20b049d057cf4b047d057cc8b045d057c9cb043d057c60b041105819cb03ecc58174b03ccc58148b03acc5811cb038cc580f0b036cc580c4b034cc58098b032cc5806cb030cc58040b02ecc58014b02ccc57fe8b02acc57fbcb028cc57f90b026cc57f64b024cc57f38b022cc57f0cb020cc57ee0b01ecc57eb4b01ccc57e88b01acc57e5cb018cc57e30b016cc)
  (.lf 0)))

def shaWireTree496 : BTree :=
  .nd (.nd (.nd (.lf
  0x443e8997f2c4420c997d2c44124997b2c440e099792c43fc899772c43f0899752c43ec899732c43e1099712c43d88996f2c43d0c996d2c43b3c996b2c43a8c99692c43a4099672c439ec99652c438f899632c4386c99612c437c4995f2c43784995d2c436b4995b2c4361c99592c4359899572c434f099552c434e499532c433e899512c43340994f2c432b4994d2c43214994b2c4320899492c42d7099472c42be499452c42bd099432c42bc49940cc461c49d7f2c461b09d7d2c4619c9d7b2c461889d792c461749d772c461609d752c4614c9d732c461389d712c461249d6f2c461109d6d2c460fc9d6b2c460e89d692c460d49d672c460c09d652c460ac9d632c460989d612c460849d5f2c460709d5d2c4605c9d5b2c460489d592c460349d572c460209d552c464a49d532c459ac9d512c458c09d4f2c473e09d4d2c458409d4b2c4577c9d492c455c09d472c453d89d452c453749d432c453089d40cc)
  (.lf
  0x340486c1dd033fd06c1bd033f546c19d033edc6c17d033e606c15d033de46c13d033d6c6c11d033cf46c0fd033c786c0dd033bf46c0bd033b6c6c09d033ae86c07d033a5c6c05d0339c46c03d0338fc6c01103576870becc3577070bccc3577870bacc3578070b8cc3578870b6cc3579070b4cc3579870b2cc357a070b0cc357a870aecc357b070accc3581070aacc3581870a8cc3582070a6cc3582870a4cc3583070a2cc3583870a0cc35840709ecc35848709ccc35850709acc358587098cc358607096cc358687094cc358707092cc358787090cc35880708ecc35888708ccc35890708acc358987088cc358a07086cc358a87084cc358b07082cc366d070bdd03666870bbd0365f470b9d03658870b7d03651870b5d0364a470b3d03642c70b1d0363bc70afd03634870add0362cc70abd03625070a9d0361dc70a7d03616c70a5d0360fc70a3d03608c70a1d03601c709fd035fac709dd035f3c709bd0))
  (.nd (.lf
  0x47b60002f8147acc002f7f47ad0002f7d47ad4002f7b47ad8002f7947a10002f77479d0002f7547968002f734796c002f7147970002f6f47974002f6d477a8002f6b47778002f6947714002f67476dc002f65476e0002f63476e4002f614940c002f5f493c4002f5d49a24002f5b49a28002f59499b4002f5749984002f5549a78002f53498d4002f514992c002f4f498d8002f4d4985c002f4b49830002f4949634002f4749a2c002f4549a30002f43499b8002f4149988002f3f49a7c002f3d498dc002f3b49930002f39498e0002f3749860002f3549834002f3349638002f31495e0002f2f495a8002f2d495ac002f2b49544002f2949478002f274947c002f2549494002f2349410002f214b628002f1f4b538002f1d4c280002f1b4c20c002f194c1bc002f174bff0002f154bf6c002f134bf38002f114beec002f0f4bdf0002f0d4bc74002f0b4bb08002f094bb4c002f074c284002f054c210002f03)
  (.lf 0))) (.nd (.nd (.lf
  0x3831876547838398765430382907652b43830c76527838310765230382847650b4382007650783828876503038174764eb4381f4764e78381f8764e3038168764cb4380e4764c783816c764c3038058764ab4380d8764a78380dc764a303804c7648b4380487648783805076483037fc87646b437fc476467837fcc76463037f447644b437f4076447837f4876443037eb87642b437eb476427837ebc7642303886476fcb43886876fc783886c76fc303884c76fab43885076fa783885476fa303883c76f8b43883876f8783884076f8303882476f6b43882876f6783882c76f6303881476f4b43881876f4783881c76f4303880076f2b4387fc76f2783880476f230387ec76f0b4387f076f078387f476f030387d476eeb4387d876ee78387dc76ee303875c76ecb4387c876ec78387cc76ec303873476eab43873876ea783873c76ea303871876e8b43871c76e8783872c76e8303870076e6b43870476e678)
  (.lf 0)) (.nd (.lf
  0x5fde00064f35fde80064f15f3f40064ef602fc0064ed602a40064eb6014c0064e9601500064e7601580064e56015c0064e3601640064e16210c0064df621100064dd61f800064db61f5c0064d961fa00064d761de00064d5626740064d36267c0064d1626840064cf6243c0064cd623000064cb6268c0064c9626940064c76269c0064c5624440064c3623080064c1622a80064bf621c00064bd621140064bb6211c0064b961f840064b761f600064b561fa40064b361de40064b161d600064af626a40064ad626ac0064ab626b40064a96244c0064a7623100064a5622b00064a3621c80064a16436800649f642e800649d642ec00649b642f0006499640640064976443c006495644e4006493644ec0064916453000648f642f800648d6430000648b644f4006489644fc0064876453800648564308006483643100064816438000647f6431800647d6444400647b64320006479643280064776432c006475)
  (.lf 0)))

def shaWireTree497 : BTree :=
  .nd (.nd (.nd (.lf
  0x7ed821987807e642198b407edc21983007e5821967807de42196b407e5c21963007dd821947807d682194b407ddc21943007d5c21927807cd82192b407d6021923007ccc21907807c582190b407cd021903007c4c218e7807bdc218eb407c50218e3007bd0218c7807b4c218cb407bd4218c3007b40218a7807ad0218ab407b44218a3007ac421887807a442188b407ac821883007a38218678079b42186b407a3c218630079a8218478079382184b4079ac2184300792c218278078f02182b4079302182300a0cc257c780a14c257cb40a150257c300a050257a780a0c0257ab40a0c4257a3009fc42578780a0442578b40a04825783009f3425767809fb82576b409fbc25763009eb425747809f282574b409f2c25743009e3825727809ea82572b409eac25723009dac25707809e2c2570b409e3025703009d20256e7809da0256eb409da4256e3009c94256c7809d14256cb409d18256c3009c08256a78)
  (.lf 0)) (.nd (.lf
  0x648fccbdd2c648e4cbdb2c648d0cbd92c648bccbd72c648a8cbd52c6488ccbd32c64848cbd12c647e0cbcf2c6478ccbcd2c64734cbcb2c64720cbc92c64710cbc72c64408cbc52c64128cbc32c64048cbc0cc67084cfff2c67070cffd2c67060cffb2c67048cff92c67034cff72c67020cff52c6700ccff32c66ff8cff12c66fe4cfef2c66fd0cfed2c66fbccfeb2c66fa8cfe92c66f94cfe72c66f80cfe52c66f6ccfe32c66f58cfe12c66f44cfdf2c66f30cfdd2c66f1ccfdb2c66f08cfd92c66ef8cfd72c66ee4cfd52c66ed0cfd32c66eb8cfd12c66ebccfcf2c66e54cfcd2c66e40cfcb2c66e2ccfc92c66e14cfc72c66e68cfc52c66754cfc32c666f4cfc0cc693ccd3ff2c693c8d3fd2c693a4d3fb2c69390d3f92c69378d3f72c69364d3f52c69350d3f32c69334d3f12c69340d3ef2c690f0d3ed2c690f8d3eb2c690d0d3e92c690b8d3e72c690a8d3e52c69090d3e32c69080d3e12c69068d3df2c)
  (.lf 0))) (.nd (.nd (.lf
  0x67340cc0ab46733ccc0a7867344cc0a3067324cc08b467330cc087867334cc083067318cc06b4672cccc06786731ccc0630672bccc04b4672b0cc0478672c0cc0430672a4cc02b467298cc0278672a8cc023065e50d0bcb465e48d0bc7865e54d0bc3065e3cd0bab465e34d0ba7865e40d0ba3065e24d0b8b465e28d0b87865e2cd0b83065e0cd0b6b465e14d0b67865e18d0b63065e00d0b4b465dfcd0b47865e04d0b43065ddcd0b2b465decd0b27865df0d0b23065dccd0b0b465dd0d0b07865dd4d0b03065db8d0aeb465dbcd0ae7865dc0d0ae3065dacd0acb465da8d0ac7865db0d0ac3065d9cd0aab465d98d0aa7865da0d0aa3065c24d0a8b465c20d0a87865d8cd0a83065c0cd0a6b465c08d0a67865c10d0a63065bfcd0a4b465bf8d0a47865c00d0a43065be8d0a2b465be4d0a27865becd0a23065bd4d0a0b465bd0d0a07865bd8d0a03065bc0d09eb465bbcd09e7865bc4d09e3065ba4d09cb4)
  (.lf 0)) (.nd (.lf
  0x4bd049a73d04bcf09a71d04bcdc9a6fd04bc089a6dd04b9909a6bd04b9809a69d04b96c9a67d04b8e89a65d04b8d49a63d04b8409a61d04b5c09a5fd04b5ac9a5dd04b5909a5bd04b57c9a59d04b5689a57d04b4d49a55d04b2749a53d04b2609a51d04b24c9a4fd04b2309a4dd04b21c9a4bd04af949a49d04af849a47d04af749a45d04af5c9a43d04af4c9a41104c1509afecc4c1349afccc4c1149afacc4bd3c9af8cc4bd449af6cc4bd409af4cc4bd389af2cc4bd489af0cc4bc289aeecc4b9a49aeccc4b9a89aeacc4b9a09ae8cc4b90c9ae6cc4b9049ae4cc4b8549ae2cc4b5dc9ae0cc4b5d49adecc4b5d89adccc4b5d09adacc4b5c89ad8cc4b4dc9ad6cc4b2849ad4cc4b2889ad2cc4b2809ad0cc4b23c9acecc4b2409acccc4b1909acacc4afa09ac8cc4b0189ac6cc4af649ac4cc4afb89ac2cc4c1309afdd04c1089afbd04c0e89af9d04bdc49af7d04bdb09af5d04bd9c9af3d04bd8c9af1d0)
  (.lf 0)))

def shaWireTree498 : BTree :=
  .nd (.nd (.nd (.lf
  0x662ccd9583065fd0d95678661c0d956b4661c4d9563065f04d9547865f00d954b465f08d9543065eccd9527865ef4d952b465ef8d9523065ec0d9507865ebcd950b465ec4d9503065e94d94e7865e98d94eb465eb0d94e30652b0d94c7865e88d94cb465e8cd94c30651f0d94a7865250d94ab465254d94a30651d0d94878651ccd948b4651d4d94830651acd94678651a8d946b4651b0d9463065184d9447865188d944b46518cd9443064f74d9427864fa4d942b464fa8d94230668f8d9bc78668f0d9bcb466900d9bc30668e4d9ba78668e0d9bab4668e8d9ba30668d4d9b878668ccd9b8b4668d8d9b83066874d9b67866878d9b6b46687cd9b63066864d9b47866868d9b4b46686cd9b430667bcd9b278667d0d9b2b4667d4d9b23066784d9b07866788d9b0b4667b4d9b03066778d9ae7866774d9aeb46677cd9ae306675cd9ac7866760d9acb466764d9ac306662cd9aa7866628d9aab466630d9aa30)
  (.lf 0)) (.nd (.lf
  0x72a00e81d2c72a08e81b2c729d4e8192c729ace8172c72994e8152c729cce8132c729d8e8112c72748e80f2c726a0e80d2c7265ce80b2c72630e8092c725c8e8072c725d4e8052c72564e8032c7253ce800cc73868ec3f2c73858ec3d2c73844ec3b2c73830ec392c7381cec372c73808ec352c737f0ec332c737dcec312c737ccec2f2c737b8ec2d2c73764ec2b2c73758ec292c7373cec272c7372cec252c735c4ec232c73590ec212c7354cec1f2c73574ec1d2c734fcec1b2c734d4ec192c7348cec172c73474ec152c73460ec132c733f0ec112c733c4ec0f2c7338cec0d2c733a4ec0b2c7334cec092c7333cec072c73324ec052c73310ec032c73308ec00cc74408f03f2c7440cf03d2c743a4f03b2c74394f0392c74358f0372c74234f0352c74230f0332c74210f0312c74200f02f2c741e0f02d2c741ccf02b2c741b8f0292c74238f0272c74198f0252c74178f0232c74164f0212c740ccf01f2c)
  (.lf 0))) (.nd (.nd (.lf
  0xc5dc2e4a300c55c2e48b40c4d82e48780c5602e48300c4cc2e46b40c45c2e46780c4d02e46300c4502e44b40c3cc2e44780c4542e44300c3c02e42b40c3782e42780c3c42e4230135882efcb4135f82efc78135fc2efc30135042efab41357c2efa78135802efa301347c2ef8b4134f82ef878134fc2ef830133f82ef6b4134702ef678134742ef630133702ef4b4133ec2ef478133f02ef430132ec2ef2b4133642ef278133682ef230132642ef0b4132e02ef078132e42ef030131e02eeeb4132582eee781325c2eee30131602eecb4131d42eec78131d82eec30130e02eeab4131542eea78131582eea30130602ee8b4130d42ee878130d82ee83012fd82ee6b4130542ee678130582ee63012f4c2ee4b412fcc2ee47812fd02ee43012ec82ee2b412f402ee27812f442ee23012e482ee0b412ebc2ee07812ec02ee03012dc82edeb412e3c2ede7812e402ede3012d402edcb412dbc2edc7812dc02edc30)
  (.lf 0)) (.nd (.lf
  0x172e849becc1733049bccc172c449bacc1736c49b8cc1739c49b6cc1738849b4cc173f049b2cc173e049b0cc173e449aecc173ec49accc173e849aacc173b449a8cc1739049a6cc1739449a4cc1739849a2cc1736049a0cc17364499ecc17368499ccc16e4c499acc16e104998cc16dd44996cc16d944994cc16d4c4992cc16d084990cc17334498ecc172f0498ccc172ec498acc173004988cc172f44986cc172d84984cc172e04982cc175f449bdd0175e049bbd0175cc49b9d0175b849b7d0175a449b5d01758c49b3d01757849b1d01756449afd01755049add01753c49abd01752849a9d01751849a7d01750049a5d0174ec49a3d0174d449a1d0174c0499fd0174b0499dd01749c499bd01748c4999d0174784997d0174644995d01744c4993d01743c4991d017424498fd017414498dd017400498bd0173ac4989d01734c4987d0173384985d0173204983d01730c498110189884d7ecc1898c4d7ccc)
  (.lf 0)))

def shaWireTree499 : BTree :=
  .nd (.nd (.nd (.lf
  0x5f15cbee4305f144bee2b45f148bee2785f14cbee2305f130bee0b45f12cbee0785f134bee0305f11cbedeb45f118bede785f120bede305f104bedcb45f100bedc785f108bedc305f0f0bedab45f0ecbeda785f0f4beda305f0d4bed8b45f0d0bed8785f0dcbed8305f0c4bed6b45f0c0bed6785f0c8bed6305f0a4bed4b45f0b0bed4785f0b4bed4305f094bed2b45f098bed2785f09cbed2305f088bed0b45f080bed0785f08cbed0305f044beceb45f074bece785f078bece305f028beccb45eff0becc785f038becc305ef98becab45efe4beca785efe8beca305ef58bec8b45ef5cbec8785ef60bec8305eefcbec6b45ef4cbec6785ef50bec6305eee4bec4b45eee0bec4785eee8bec4305eeccbec2b45eed4bec2785eed8bec2305fb3cbf38aa5fab8bf2caa5faacbf2aaa5fbf0bf26aa5f140bf22aa5f114bf1eaa5f0e8bf1aaa5effcbf0caa5efa0bf0aaa602c4bf3d405fd5cbf37405fba4bf2bf4)
  (.lf 0)) (.nd (.lf
  0x66170caf92c661a0caf72c66144caf52c66128caf32c6612ccaf12c66100caef2c660e8caed2c660d8caeb2c66110cae92c660b0cae72c660a0cae52c66084cae32c66074cae12c6605ccadf2c66048cadd2c6602ccadb2c66018cad92c65fdccad72c654cccad52c65460cad32c653d8cad12c65364cacf2c652fccacd2c6523ccacb2c650c0cac92c65060cac72c65004cac52c68fb0ceff2c68ee0cefd2c68d34cefb2c68aeccef92c68af4cef72c68ac8cef52c68ad0cef32c68620cef12c68610ceef2c68558ceed2c6853cceeb2c68528cee92c68510cee72c684f8cee52c686a4cee32c684d8cee12c68568cedf2c68460cedd2c683dccedb2c68300ced92c682b8ced72c68258ced52c67ac4ced32c679f0ced12c67978cecf2c675dccecd2c675b4cecb2c675c4cec92c6758ccec72c6749ccec52c673f4cec32c673b0cec0cc6acacd2ff2c6aca4d2fd2c6ad14d2fb2c6ac74d2f92c6a684d2f72c)
  (.lf 0))) (.nd (.nd (.lf
  0x1c1f8544c781c200544c301c1d0544ab41c1cc544a781c1d4544a301c1a45448b41c1a05448781c1a85448301c1785446b41c1745446781c17c5446301c14c5444b41c1485444781c1505444301c1205442b41c11c5442781c1245442301c608543cb41c5e8543c781c60c543c301c5dc543ab41c5bc543a781c5e0543a301c5b05438b41c5905438781c5b45438301c5845436b41c5645436781c5885436301c5585434b41c5385434781c55c5434301c52c5432b41c50c5432781c5305432301c5005430b41c4e05430781c5045430301c4d4542eb41c4b4542e781c4d8542e301c4a8542cb41c488542c781c4ac542c301c47c542ab41c45c542a781c480542a301c4505428b41c4305428781c4545428301c4245426b41c4045426781c4285426301c3f85424b41c3d85424781c3fc5424301c3cc5422b41c3ac5422781c3d05422301c3a05420b41c3805420781c3a45420301c374541eb41c354541e78)
  (.lf 0)) (.nd (.lf
  0xb3841aa3d00b2f81aa1d00b26c1a9fd00b1e01a9dd00b15c1a9bd00b0dc1a99d00b05c1a97d00afdc1a95d00af5c1a93d00aed41a91d00ae501a8fd00adc81a8dd00ad441a8bd00acbc1a89d00ac381a87d00abb81a85d00ab401a83d00aa981a8110056e41a7ecc056941a7ccc0560c1a7acc055801a78cc055081a76cc054741a74cc053fc1a72cc053681a70cc052dc1a6ecc052501a6ccc051d81a6acc051581a68cc050d81a66cc050581a64cc04fd81a62cc04f581a60cc04ec41a5ecc04e381a5ccc04dac1a5acc04d201a58cc04c941a56cc04c1c1a54cc04b881a52cc04afc1a50cc04a701a4ecc049e41a4ccc0496c1a4acc048ec1a48cc048581a46cc047cc1a44cc047401a42cc056901a7dd00561c1a7bd0055901a79d0055001a77d0054841a75d0053f41a73d0053781a71d0052ec1a6fd0052601a6dd0051d01a6bd0051501a69d0050d01a67d0050501a65d004fd01a63d004f501a61d0)
  (.lf 0)))

def shaWireTree500 : BTree :=
  .nd (.nd (.nd (.lf
  0x743b000114b7436400114974244001147742480011457424c001143742500011417425400113f7425800113d7425c00113b7426000113974b88001137748a400113574870001133748740011317487800112f7487c00112d7488000112b74e0800112974e0c00112774e1000112574e4000112374dd000112174e5800111f74d9c00111d74e5c00111b74d1800111974d1c00111774d2000111574c9800111374c9c00111174c4c00110f74c3400110d19d5400110b19d5800110919d5c00110719d6000110519d6400110319d6800110119d6c0010ff19d700010fd19d740010fb19d780010f919d7c0010f719d800010f519d840010f319d880010f119d8c0010ef19d900010ed19d940010eb19d980010e919d9c0010e719da00010e519da40010e319da80010e119dac0010df19db00010dd19db40010db19db80010d919dbc0010d719dc00010d519dc40010d31aaa00010d11aaa40010cf1aaa80010cd)
  (.lf 0)) (.nd (.lf
  0x3ecbc87a0783ecc0879e783ecc4879c783ecc8879a783eccc8798783ecd08796783ecd48794783ecd88792783ecdc8790783ece0878e783ece4878c783ece8878a783ecec8788783ecf08786783e4288784783e39c8782783e3a087807840c3c87be3040c4087bc3040c4487ba3040c4887b83040ad087b63040ad487b43040ad887b230408fc87b0304090087ae304090487ac304090887aa304090c87a8304091087a6304091487a4304091887a2304091c87a03040920879e3040924879c3040928879a304006c879830400708796303f7908794303f7208792303f6bc8790303f650878e303f5e8878c303f580878a303f5248788303f3d88786303f3848784303f2b88782303f2bc87803042e488bbeb442e4c8bbcb442e508bbab442cb48bb8b442a288bb6b4428908bb4b4428948bb2b4427cc8bb0b4426ec8baeb4426f08bacb4426f48baab4426f88ba8b4425f48ba6b4425188ba4b44245c8ba2b4)
  (.lf 0))) (.nd (.nd (.lf
  0x274345258b4274c4525878274c8525830273945256b4274285256782742c525630272f05254b4273885254782738c525430272545252b4272e4525278272e8525230271bc5250b4272485250782724c52503027124524eb4271b0524e78271b4524e3027084524cb427118524c782711c524c3026fe0524ab427078524a782707c524a3026f445248b426fd452487826fd852483026ea45246b426f3852467826f3c52463026e005244b426e9852447826e9c52443026d905242b426df452427826df852423027fd852fcb427f4c52fc7827fdc52fc3027f4052fab427eac52fa7827f4452fa3027ea052f8b427e1052f87827ea452f83027e0452f6b427d7052f67827e0852f63027d6452f4b427ccc52f47827d6852f43027cc052f2b427c3052f27827cc452f23027c2452f0b427b9052f07827c2852f03027b8452eeb427aec52ee7827b8852ee3027ae052ecb427a4852ec7827ae452ec3027a3c52eab4)
  (.lf 0)) (.nd (.lf
  0x5fd48cdb6cc5fd24cdb4cc5fbe4cdb2cc5fbd4cdb0cc5fbc4cdaecc5fbb0cdaccc5fb98cdaacc5fb90cda8cc5fc50cda6cc5f394cda4cc5f370cda2cc5f368cda0cc5f360cd9ecc5f234cd9ccc5f224cd9acc5f20ccd98cc5f1fccd96cc5f1e4cd94cc5f1b8cd92cc5f180cd90cc5f058cd8ecc5f008cd8ccc5efb8cd8acc5ef6ccd88cc5eef8cd86cc5ef08cd84cc5e764cd82cc60268cdbdd06018ccdbbd06009ccdb9d060088cdb7d060074cdb5d06005ccdb3d06004ccdb1d06001ccdafd05fc38cdadd05fc28cdabd05fc14cda9d05fc00cda7d05f3a4cda5d05f354cda3d05f338cda1d05f318cd9fd05f2f0cd9dd05f2c4cd9bd05f2b0cd99d05f26ccd97d05f258cd95d05f244cd93d05f190cd91d05f060cd8fd05f018cd8dd05efc0cd8bd05ef7ccd89d05ef2ccd87d05ef18cd85d05e76ccd83d05e618cd811062574d17ecc6250cd17ccc624a8d17acc623e8d178cc62228d176cc6232cd174cc)
  (.lf 0)))

def shaWireTree501 : BTree :=
  .nd (.nd (.nd (.lf
  0x77bd8e2d87877be4e2d83077bcce2d6b477bc8e2d67877bd0e2d63077ba8e2d4b477ba4e2d47877bb4e2d43077b98e2d2b477b94e2d27877b9ce2d23077b80e2d0b477b88e2d07877b8ce2d03077b70e2ceb477b74e2ce7877b78e2ce30776a0e2ccb477b64e2cc7877b68e2cc30775e0e2cab477690e2ca7877694e2ca30773f0e2c8b477524e2c87877528e2c83077248e2c6b4773d4e2c678773e8e2c63077114e2c4b47723ce2c47877240e2c43077028e2c2b477108e2c2787710ce2c23077d64e33caa77d78e33aaa77d34e338aa77d08e334aa77cd0e32eaa77c78e326aa77c64e324aa77c4ce322aa77c34e320aa77c1ce31eaa77bb0e312aa77bc0e30eaa77818e30caa77678e30aaa7739ce306aa772a0e304aa786b0e33df47869ce33bf478674e339f47864ce3374078598e3334078254e32d40781fce325f4781e0e323f4781c4e321f4781a8e31ff47810ce31d4077ebce3114077e98e30df4)
  (.lf 0)) (.nd (.lf
  0x646ec00547d646a800547b646b0005479643f4005477641180054756488400547364838005471647d800546f6477800546d646f000546b646b8005469646c0005467643fc00546564120005463640440054616654000545f6656800545d66dbc00545b66d7c00545966e8c00545766d2000545566cdc00545366ca000545166c6800544f66df000544d6672c00544b666e00054496654400544766dc000544566d8000544366e9000544166d2400543f66ce000543d66ca400543b66c6c00543966df40054376673000543566dc400543366d8400543166e9400542f66d2c00542d66ce800542b66ca800542966c7400542766dfc00542566738005423666e8005421688f400541f6882400541d68fdc00541b68f1c00541968d7c00541768cc800541568c4000541368ba800541168b7000540f68a6400540d68a0c00540b689cc005409688f800540768fe400540568f2000540368d8400540168cd00053ff)
  (.lf 0))) (.nd (.nd (.lf
  0x3d138902a303d0e89028b43d1089028783d10c9028303d0bc9026b43d0dc9026783d0e09026303d0909024b43d0b09024783d0b49024303d0649022b43d0849022783d0889022303d0389020b43d0589020783d05c9020303d00c901eb43d02c901e783d030901e303cfe0901cb43d000901c783d004901c303cfb4901ab43cfd4901a783cfd8901a303cf889018b43cfa89018783cfac9018303cf5c9016b43cf7c9016783cf809016303cf309014b43cf509014783cf549014303cf049012b43cf249012783cf289012303ced89010b43cef89010783cefc9010303ceac900eb43cecc900e783ced0900e303ce80900cb43cea0900c783cea4900c303ce54900ab43ce74900a783ce78900a303ce289008b43ce489008783ce4c9008303cdfc9006b43ce1c9006783ce209006303cdd09004b43cdf09004783cdf49004303cdb49002b43cdc49002783cdc8900230473cc94bcb4473c894bc78473d094bc30)
  (.lf 0)) (.nd (.lf
  0x2b0d85a72cc2b06c5a70cc2aff85a6ecc2af885a6ccc2af105a6acc2ae945a68cc2ae205a66cc2adb05a64cc2ad405a62cc2acd05a60cc2ac585a5ecc2abe45a5ccc2ab6c5a5acc2aaf85a58cc2aa805a56cc2aa105a54cc2a9a45a52cc2a9305a50cc2a8b85a4ecc2a8405a4ccc2a7d05a4acc2a75c5a48cc2a6e05a46cc2a6785a44cc2a5f85a42cc2b3585a7dd02b2e45a7bd02b2745a79d02b2005a77d02b1885a75d02b1105a73d02b0a05a71d02b0345a6fd02afc05a6dd02af4c5a6bd02aed45a69d02ae585a67d02ade45a65d02ad745a63d02ad045a61d02ac945a5fd02ac1c5a5dd02aba85a5bd02ab305a59d02aabc5a57d02aa485a55d02a9d85a53d02a96c5a51d02a8f85a4fd02a8805a4dd02a8085a4bd02a7985a49d02a7205a47d02a6a45a45d02a6205a43d02a5bc5a41102b3905afecc2b3285afccc2b2b45afacc2b2405af8cc2b1c85af6cc2b1505af4cc2b0e05af2cc2b0745af0cc)
  (.lf 0)))

def shaWireTree502 : BTree :=
  .nd (.nd (.nd (.lf
  0x350107db6b4350147db63034ffc7db47834ff87db4b4350007db43034f9c7db27834f987db2b434fec7db23034f8c7db07834f887db0b434f907db03034f787dae7834f747daeb434f7c7dae3034f607dac7834f687dacb434f6c7dac3034f547daa7834f507daab434f587daa3034f3c7da87834f407da8b434f447da83034f287da67834f2c7da6b434f307da63034ecc7da47834f187da4b434f1c7da43034ebc7da27834eb87da2b434ec07da23034ea87da07834ea07da0b434eac7da03034e907d9e7834e947d9eb434e987d9e3034e7c7d9c7834e807d9cb434e847d9c3034e6c7d9a7834e687d9ab434e707d9a3034e4c7d987834e487d98b434e5c7d983034e387d967834dd87d96b434e3c7d963034dc47d947834dc07d94b434dc87d943034dac7d927834db07d92b434db47d923034d9c7d907834da07d90b434da47d903034d887d8e7834d8c7d8eb434d907d8e3034d787d8c7834d747d8cb4)
  (.lf 0)) (.nd (.lf
  0x3c67c889d2c3c650889b2c3c62488992c3c5f888972c3c5cc88952c3c5a088932c3c57488912c3c548888f2c3c51c888d2c3c4f0888b2c3c4c488892c3c49888872c3c46c88852c3c44088832c3c4308880cc44ba08cbf2c44b8c8cbd2c44b788cbb2c44b648cb92c44b508cb72c44b3c8cb52c44b288cb32c44b148cb12c44b008caf2c44aec8cad2c44ad88cab2c44ac48ca92c44ab08ca72c44a9c8ca52c44a888ca32c44a748ca12c44a608c9f2c44a4c8c9d2c44a388c9b2c44a248c992c44a108c972c449fc8c952c449e88c932c449d48c912c449c08c8f2c449ac8c8d2c449988c8b2c449848c892c449708c872c4495c8c852c449488c832c449448c80cc3d2dc90bf2c3d2b490bd2c3d28890bb2c3d25c90b92c3d23090b72c3d20490b52c3d1d890b32c3d1ac90b12c3d18090af2c3d15490ad2c3d12890ab2c3d0fc90a92c3d0d090a72c3d0a490a52c3d07890a32c3d04c90a12c3d020909f2c)
  (.lf 0))) (.nd (.nd (.lf
  0x2ad407d4b402adc07d43002ac407d27802ac007d2b402ac807d23002ab007d07802aac07d0b402ab407d03002a9c07ce7802a9807ceb402aa007ce3002a8807cc7802a8407ccb402a8c07cc3002a7407ca7802a7007cab402a7807ca3002a6007c87802a5c07c8b402a6407c83002a4c07c67802a4807c6b402a5007c63002a3807c47802a3407c4b402a3c07c43002a2407c27802a2007c2b402a2807c230056b40abc78056b00abcb4056b80abc30056440aba78056400abab4056480aba30055bc0ab878055b80ab8b4055c00ab830055300ab6780552c0ab6b4055340ab630054ac0ab478054a80ab4b4054b00ab430054240ab278054200ab2b4054280ab230053a00ab0780539c0ab0b4053a40ab030053180aae78053140aaeb40531c0aae300528c0aac78052880aacb4052900aac30052000aaa78051fc0aaab4052040aaa300517c0aa878051780aa8b4051800aa830050fc0aa678050f80aa6b4)
  (.lf 0)) (.nd (.lf
  0x6e884da53d06e824da51d06e80cda4fd06e7fcda4dd06e190da4bd06e178da49d06e14cda47d06e11cda45d06dc38da43d06dbd0da41106ea80dafecc6ea6cdafccc6ea74dafacc6ea3cdaf8cc6ea88daf6cc6ea10daf4cc6e9ecdaf2cc6e9fcdaf0cc6e9f8daeecc6e9f4daeccc6e998daeacc6e99cdae8cc6e968dae6cc6e950dae4cc6e954dae2cc6e924dae0cc6e910dadecc6ea90dadccc6e8dcdadacc6e8c4dad8cc6ea98dad6cc6e8e0dad4cc6e830dad2cc6e818dad0cc6e84cdacecc6e198dacccc6e180dacacc6e15cdac8cc6e130dac6cc6dc90dac4cc6dc18dac2cc6ec54dafdd06ec3cdafbd06ec28daf9d06ec10daf7d06ebf8daf5d06ebdcdaf3d06ebc0daf1d06ebb0daefd06eb9cdaedd06eb88daebd06eb6cdae9d06eb5cdae7d06eb44dae5d06eb28dae3d06eb10dae1d06eb00dadfd06eaecdaddd06eaccdadbd06eabcdad9d06eaa8dad7d06e8acdad5d06e874dad3d06e85cdad1d0)
  (.lf 0)))

def shaWireTree503 : BTree :=
  .nd (.nd (.nd (.lf
  0x4b2389a4eb44b2449a4e784b2489a4e304b2209a4cb44b2249a4c784b2289a4c304af989a4ab44b2149a4a784b2189a4a304af8c9a48b44af889a48784af909a48304af789a46b44af7c9a46784af809a46304af6c9a44b44af689a44784af709a44304af509a42b44af549a42784af589a42304c1289afcb44c10c9afc784c12c9afc304c1009afab44c0ec9afa784c1049afa304bdc89af8b44c0e09af8784c0e49af8304bdb49af6b44bdb89af6784bdbc9af6304bda49af4b44bda89af4784bdac9af4304bd909af2b44bd949af2784bd989af2304bd849af0b44bcb89af0784bd889af0304bc1c9aeeb44bbfc9aee784bc209aee304bac49aecb44bbf09aec784bbf49aec304baa09aeab44baa49aea784baa89aea304b9d09ae8b44b9d49ae8784ba989ae8304b9bc9ae6b44b9c09ae6784b9c49ae6304b8f09ae4b44b8d09ae4784b9009ae4304b8c49ae2b44b7809ae2784b8c89ae2304b7309ae0b4)
  (.lf 0)) (.nd (.lf
  0x60340c2932c60358c2912c60310c28f2c60314c28d2c602acc28b2c601d8c2892c601c8c2872c601a4c2852c60180c2832c60170c280cc628d4c6bf2c628c4c6bd2c628b0c6bb2c62890c6b92c62898c6b72c62870c6b52c62858c6b32c62844c6b12c62830c6af2c6281cc6ad2c627fcc6ab2c627e8c6a92c62808c6a72c62804c6a52c627b4c6a32c627a0c6a12c6280cc69f2c628b4c69d2c6276cc69b2c62754c6992c62740c6972c6272cc6952c62718c6932c6275cc6912c626f8c68f2c626e0c68d2c626fcc68b2c626bcc6892c62454c6872c6231cc6852c622b8c6832c621d0c680cc64b6ccabf2c64b58cabd2c64b70cabb2c64b38cab92c64b20cab72c64b0ccab52c64b04cab32c64aeccab12c64acccaaf2c64af0caad2c64aaccaab2c64a8ccaa92c64a78caa72c64a90caa52c64a98caa32c64634caa12c6463cca9f2c64614ca9d2c645fcca9b2c645e8ca992c645e0ca972c645c4ca952c)
  (.lf 0))) (.nd (.nd (.lf
  0x6b12cd620506b110d61e506b144d61c506b0d4d61a506b158d618506b16cd616506b098d614506b078d612506b050d610506b030d60e506a194d60c506a044d60a506a018d6085069fd4d6065069ea8d604506b008d6025069594d600506b3c0da3e786b39cda3c786b378da3a786b428da38786b2f8da36786b48cda34786b2d8da32786b2a4da30786b2a8da2e786b458da2c786b22cda2a786b20cda28786b1ecda26786b1c0da24786b19cda22786b134da20786b118da1e786b14cda1c786b0dcda1a786b160da18786b174da16786b0a0da14786b080da12786b058da10786b038da0e786a19cda0c786a04cda0a786a020da087869fdcda067869eb0da04786b010da02786959cda00786d62cda3e506d41cda3c506d3ecda3a506d2c4da38506d288da36506d18cda34506d0ecda32506d0b4da30506cff8da2e506cdf8da2c506cd60da2a506ce28da28506cc94da26506cc10da24506cbb8da2250)
  (.lf 0)) (.nd (.lf
  0x632a0c415d063290c413d06322cc411d063208c40fd0631a8c40dd063184c40bd0630a0c409d06308cc407d062c10c405d062c00c403d062bd0c4011060ed4c8becc60edcc8bccc60ee4c8bacc60eecc8b8cc60ef4c8b6cc60efcc8b4cc60f04c8b2cc60f0cc8b0cc60f14c8aecc60f1cc8accc60f7cc8aacc60f84c8a8cc60f8cc8a6cc60f94c8a4cc60f9cc8a2cc60fa4c8a0cc60facc89ecc60fb4c89ccc60fbcc89acc60fc4c898cc60fccc896cc60fd4c894cc60fdcc892cc60fe4c890cc60fecc88ecc60ff4c88ccc60ffcc88acc61004c888cc6100cc886cc61014c884cc6101cc882cc61280c8bdd061270c8bbd061254c8b9d061240c8b7d061230c8b5d061218c8b3d061204c8b1d0611f4c8afd0611e0c8add0611d0c8abd0611bcc8a9d0611a8c8a7d061198c8a5d061180c8a3d061170c8a1d06115cc89fd061148c89dd061130c89bd06111cc899d061108c897d0610f8c895d0610e4c893d0)
  (.lf 0)))

def shaWireTree504 : BTree :=
  .nd (.nd (.nd (.lf
  0x56d819bf2c0568419bd2c055e019bb2c0555419b92c054f419b72c0544819b52c053e819b32c0533c19b12c052b019af2c0522419ad2c051c419ab2c0514419a92c050c419a72c0504419a52c04fc419a32c04f4419a12c04e98199f2c04e0c199d2c04d80199b2c04cf419992c04c6819972c04c0819952c04b5c19932c04ad019912c04a44198f2c049b8198d2c04958198b2c048d819892c0482c19872c047a019852c0471419832c046d81980cc06fe41dbf2c06f801dbd2c06f0c1dbb2c06ec41db92c06e301db72c06de81db52c06d801db32c06cec1db12c06c781daf2c06c301dad2c06b9c1dab2c06b281da92c06ae01da72c06a4c1da52c06a041da32c069701da12c068fc1d9f2c068881d9d2c068401d9b2c067ac1d992c067381d972c066f01d952c0665c1d932c065e81d912c065741d8f2c0652c1d8d2c064981d8b2c064501d892c063e81d872c063541d852c0630c1d832c0623c1d80cc)
  (.lf
  0x1fdac4021d01fcec401fd01fc30401dd01fb74401bd01fab04019d01f9f84017d01f9384015d01f8804013d01f7c84011d01f70c400fd01f648400dd01f588400bd01f4cc4009d01f4184007d01f3604005d01f29c4003d01f1884001101998844becc1999044bccc1999844bacc199a044b8cc199a844b6cc199b044b4cc199b844b2cc199c044b0cc199c844aecc199d044accc19a3044aacc19a3844a8cc19a4044a6cc19a4844a4cc19a5044a2cc19a5844a0cc19a60449ecc19a68449ccc19a70449acc19a784498cc19a804496cc19a884494cc19a904492cc19a984490cc19aa0448ecc19aa8448ccc19ab0448acc19ab84488cc19ac04486cc19ac84484cc19ad04482cc19d3444bdd019d2044bbd019d0c44b9d019cf844b7d019ce444b5d019cd044b3d019cbc44b1d019ca844afd019c9444add019c8044abd019c6c44a9d019c5844a7d019c4444a5d019c3044a3d019c1c44a1d019c08449fd0))
  (.nd (.lf
  0x6cb24dba0306caccdb9e306ca50db9c306c8d4db9a306c87cdb98306c8b0db96306c6ecdb94306c130db92306bfe0db90306bfacdb8e306bec4db8c306be34db8a306bdacdb88306bd1cdb86306bca4db84306bc08db82306b8b8db80306f3ccdfbeb46f3f4dfbcb46f390dfbab46f35cdfb8b46f324dfb6b46f2ecdfb4b46f2b0dfb2b46f440dfb0b46f254dfaeb46f21cdfacb46f1f0dfaab46f470dfa8b46f1b8dfa6b46f184dfa4b46f5c4dfa2b46f14cdfa0b46f0f8df9eb46f110df9cb46f0c8df9ab46f094df98b46f070df96b46f048df94b46f028df92b46f000df90b46efdcdf8eb46efc4df8cb46f130df8ab46e7d8df88b46e7b0df86b46e278df84b46e204df82b46e244df80b46d650dfbe786d5acdfbc786d54cdfba786d508dfb8786d4bcdfb6786d1c4dfb4786d060dfb2786d01cdfb0786cfb8dfae786ce60dfac786cdacdfaa786cea0dfa8786cd20dfa6786cc30dfa4786cb58dfa278)
  (.lf 0))) (.nd (.nd (.lf
  0x2d56063f0782d55c63f0b42d56463f0302d54c63ee782d54863eeb42d55063ee302d53863ec782d53463ecb42d53c63ec302d52463ea782d52063eab42d52863ea302d51063e8782d50c63e8b42d51463e8302d4fc63e6782d4f863e6b42d50063e6302d4e863e4782d4e463e4b42d4ec63e4302d4d463e2782d4d063e2b42d4d863e2302d4c063e0782d4bc63e0b42d4c463e0302d4ac63de782d4a863deb42d4b063de302d49863dc782d49463dcb42d49c63dc302d48463da782d48063dab42d48863da302d47063d8782d46c63d8b42d47463d8302d43063d6782d45c63d6b42d46063d6302d42463d4782d42063d4b42d42863d4302d41063d2782d40c63d2b42d41463d2302d3fc63d0782d3f863d0b42d40063d0302d3e863ce782d3e463ceb42d3ec63ce302d3d463cc782d3d063ccb42d3d863cc302d3c063ca782d3bc63cab42d3c463ca302d3ac63c8782d3a863c8b42d3b063c8302d39863c678)
  (.lf 0)) (.nd (.lf
  0x832700472cc829c80470cc82314046ecc82358046ccc823a8046acc8225c0468cc821a40466cc81fdc0464cc81eb00462cc81e300460cc81d40045ecc81d14045ccc81d60045acc818bc0458cc818440456cc818400454cc817ec0452cc817900450cc81774044ecc816f8044ccc81658044acc815d80448cc815580446cc814300444cc814bc0442cc832a0047dd083290047bd0832800479d08317c0477d0831680475d0831540473d0829dc0471d08244c046fd082438046dd082428046bd0824140469d0824000467d0823ec0465d0823d80463d0823c40461d081da8045fd081d90045dd081d70045bd0818e80459d0818700457d0818600455d08184c0453d0817c80451d0817b4044fd0816dc044dd081668044bd0815d00449d0815600447d0814dc0445d0814c80443d08145004411081378087ecc81328087ccc812e8087acc813380878cc814280876cc815a40874cc813c00872cc813c40870cc)
  (.lf 0)))

def shaWireTree505 : BTree :=
  .nd (.nd (.nd (.lf
  0x7fb30f6ac307fac8f6aa787faccf6aab47fad0f6aa307fab8f6a8787faa8f6a8b47fabcf6a8307fa80f6a6787fa78f6a6b47fa98f6a6307fa54f6a4787fa58f6a4b47fa70f6a4307fa24f6a2787fa44f6a2b47fa48f6a2307fa00f6a0787fa08f6a0b47fa0cf6a0307f9ccf69e787f9e8f69eb47f9ecf69e307f934f69c787f9c0f69cb47f9c4f69c307f928f69a787f924f69ab47f92cf69a307f918f698787f8a4f698b47f91cf698307f898f696787f874f696b47f89cf696307f624f694787f7a4f694b47f7a8f694307f610f692787f618f692b47f61cf692307f600f690787f5fcf690b47f604f690307f5ecf68e787f5f0f68eb47f5f4f68e307f38cf68c787f53cf68cb47f5ccf68c307f260f68a787f334f68ab47f384f68a307f1bcf688787f1ecf688b47f1f0f688307f108f686787f1b0f686b47f1b4f686307f0b8f684787f0f8f684b47f0fcf684307f008f682787f078f682b47f088f68230)
  (.lf 0)) (.nd (.lf
  0x63b44cb9dd063b24cb9bd063b60cb99d063ac4cb97d06395ccb95d063930cb93d063934cb91d0638eccb8fd063414cb8dd063164cb8bd0630eccb89d062f94cb87d062d58cb85d062cb0cb83d062c4ccb81d066daccfbfd066d6ccfbdd066e7ccfbbd066d10cfb9d066ccccfb7d066c90cfb5d066c58cfb3d066de0cfb1d06671ccfafd0666d0cfadd066530cfabd06655ccfa9d066660cfa7d066c14cfa5d066420cfa3d06639ccfa1d066350cf9fd066308cf9dd0662eccf9bd0662c0cf99d065ffccf97d065f1ccf95d065eeccf93d065ed8cf91d065ea8cf8fd065fc8cf8dd0652a8cf8bd0651e8cf89d0651a0cf87d0651c0cf85d065178cf83d064f54cf81d068fc8d3bfd068f0cd3bdd068d6cd3bbd068cb8d3b9d068c30d3b7d068b98d3b5d068b60d3b3d068a54d3b1d0689fcd3afd0689bcd3add0688e4d3abd068818d3a9d0687a4d3a7d068738d3a5d0686e4d3a3d06868cd3a1d06865cd39fd0)
  (.lf 0))) (.nd (.nd (.lf
  0x58134b078785813cb078305810cb076b458108b0767858110b07630580e0b074b4580dcb07478580e4b07430580b4b072b4580b0b07278580b8b0723058088b070b458084b070785808cb070305805cb06eb458058b06e7858060b06e3058030b06cb45802cb06c7858034b06c3058004b06ab458000b06a7858008b06a3057fd8b068b457fd4b0687857fdcb0683057facb066b457fa8b0667857fb0b0663057f80b064b457f7cb0647857f84b0643057f54b062b457f50b0627857f58b0623057f28b060b457f24b0607857f2cb0603057efcb05eb457ef8b05e7857f00b05e3057ed0b05cb457eccb05c7857ed4b05c3057ea4b05ab457ea0b05a7857ea8b05a3057e78b058b457e74b0587857e7cb0583057e4cb056b457e48b0567857e50b0563057e20b054b457e1cb0547857e24b0543057df4b052b457df0b0527857df8b0523057dc8b050b457dc4b0507857dccb0503057d9cb04eb457d98b04e78)
  (.lf 0)) (.nd (.lf
  0x39b487a62cc39b187a60cc39ae87a5ecc39ab87a5ccc39a887a5acc39a587a58cc39a287a56cc399f87a54cc399c87a52cc399987a50cc399687a4ecc399307a4ccc398f07a4acc398ac7a48cc398687a46cc398247a44cc397e87a42cc3a2b87a7dd03a2a47a7bd03a28c7a79d03a2787a77d03a2607a75d039ff87a73d039fe07a71d039fc87a6fd039fb07a6dd039f987a6bd039f7c7a69d039f647a67d039f4c7a65d039f347a63d039f1c7a61d039f047a5fd039eec7a5dd039ed47a5bd039ebc7a59d039ea47a57d039e8c7a55d039e747a53d039e5c7a51d039e447a4fd039e2c7a4dd0399007a4bd0398bc7a49d0398787a47d0398347a45d0397e07a43d0397b47a41103a2c07afecc3a2c47afccc3a2947afacc3a31c7af8cc3a2687af6cc3a0007af4cc39fe87af2cc39fd07af0cc39fb87aeecc39fa07aeccc39f847aeacc39f6c7ae8cc39f547ae6cc39f3c7ae4cc39f247ae2cc39f0c7ae0cc)
  (.lf 0)))

def shaWireTree506 : BTree :=
  .nd (.nd (.nd (.lf
  0x4b130a988784b0d0a988b44b134a988304b0c4a986784b04ca986b44b0c8a986304b03ca984784afd8a984b44b044a984304afcca982784af2ca982b44afd0a982304e064ad7c784e0f8ad7cb44e0fcad7c304e048ad7a784e040ad7ab44e04cad7a304df94ad78784e01cad78b44e038ad78304deb0ad76784df88ad76b44df8cad76304de40ad74784de88ad74b44dea8ad74304ddccad72784de34ad72b44de38ad72304dd24ad70784dda8ad70b44ddc4ad70304dcc4ad6e784dd18ad6eb44dd1cad6e304dbf8ad6c784dca0ad6cb44dcbcad6c304dbd8ad6a784dbecad6ab44dbf0ad6a304dbc8ad68784dbb0ad68b44dbccad68304da8cad66784dba4ad66b44dba8ad66304da40ad64784da64ad64b44da84ad64304da08ad62784da34ad62b44da38ad62304d964ad60784d9fcad60b44da00ad60304d928ad5e784d958ad5eb44d95cad5e304d8fcad5c784d91cad5cb44d920ad5c304d8a4ad5a78)
  (.lf 0)) (.nd (.lf
  0x65618c85d2c655c8c85b2c65578c8592c65530c8572c654acc8552c65428c8532c653a8c8512c65330c84f2c652c0c84d2c65204c84b2c64f18c8492c64f00c8472c64eecc8452c64ed8c8432c64ed0c840cc67950cc7f2c6793ccc7d2c67914cc7b2c678fccc792c67920cc772c678d8cc752c678c4cc732c67960cc712c678a0cc6f2c67890cc6d2c6786ccc6b2c67850cc692c67840cc672c67824cc652c67814cc632c677f8cc612c677dccc5f2c67958cc5d2c677accc5b2c67798cc592c677bccc572c6776ccc552c6730ccc532c672f4cc512c672e0cc4f2c6726ccc4d2c67270cc4b2c67248cc492c67230cc472c67218cc452c671fccc432c67204cc40cc69d04d07f2c69ce0d07d2c69988d07b2c69974d0792c6995cd0772c69944d0752c699a0d0732c69914d0712c698f8d06f2c698e4d06d2c69938d06b2c698b4d0692c698a0d0672c69888d0652c698c0d0632c697dcd0612c697c4d05f2c)
  (.lf 0))) (.nd (.nd (.lf
  0xa7641bf8780a7601bf8b40a7681bf8300a7501bf6780a74c1bf6b40a7541bf6300a73c1bf4780a7381bf4b40a7401bf4300a7281bf2780a7241bf2b40a72c1bf2300a7141bf0780a7101bf0b40a7181bf0300a7001bee780a6fc1beeb40a7041bee300a6ec1bec780a6e81becb40a6f01bec300a6d81bea780a6d41beab40a6dc1bea300a6c41be8780a6c01be8b40a6c81be8300a6b01be6780a6ac1be6b40a6b41be6300a69c1be4780a6981be4b40a6a01be4300a6881be2780a6841be2b40a68c1be2300a6741be0780a6701be0b40a6781be0300a6601bde780a65c1bdeb40a6641bde300a64c1bdc780a6481bdcb40a6501bdc300a6381bda780a6341bdab40a63c1bda300a6241bd8780a6201bd8b40a6281bd8300a6101bd6780a60c1bd6b40a6141bd6300a5fc1bd4780a5f81bd4b40a6001bd4300a5e81bd2780a5e41bd2b40a5ec1bd2300a5d41bd0780a5d01bd0b40a5d81bd0300a5c01bce78)
  (.lf 0)) (.nd (.lf
  0x807c4fae2cc809acfae0cc80794fadecc80768fadccc81b48fadacc80738fad8cc8071cfad6cc80704fad4cc806ecfad2cc80724fad0cc80698facecc807ccfacccc806a4facacc80654fac8cc805fcfac6cc8060cfac4cc805c0fac2cc828e8fafdd0824e4fafbd0824ccfaf9d0824b4faf7d081de0faf5d081dc8faf3d081cd4faf1d081cc0faefd081ca8faedd081c80faebd081c70fae9d081c60fae7d081c50fae5d081c3cfae3d081bb0fae1d081ba0fadfd081b90faddd081b7cfadbd080858fad9d080844fad7d080830fad5d08081cfad3d080804fad1d0807ecfacfd0807dcfacdd0806b4facbd080664fac9d08062cfac7d08061cfac5d0805ccfac3d080354fac1108136cfbfecc81334fbfccc813e4fbfacc813d0fbf8cc813bcfbf6cc8162cfbf4cc8129cfbf2cc81684fbf0cc81254fbeecc81220fbeccc81504fbeacc813dcfbe8cc81518fbe6cc8137cfbe4cc8142cfbe2cc81340fbe0cc)
  (.lf 0)))

def shaWireTree507 : BTree :=
  .nd (.nd (.nd (.lf
  0x52848abdc3052830abda785282cabdab452834abda3052818abd87852814abd8b45281cabd83052804abd67852800abd6b45280cabd630527f0abd478527f4abd4b4527f8abd430527dcabd278527d8abd2b4527e4abd230527c8abd078527ccabd0b4527d0abd030526e0abce7852730abceb4527bcabce3052684abcc78526d4abccb4526d8abcc3052674abca7852678abcab45267cabca3052660abc87852664abc8b452668abc8305264cabc67852650abc6b452654abc63052638abc4785263cabc4b452640abc43052624abc27852628abc2b45262cabc23054c48aebc7854c4caebcb454c50aebc3054c3caeba7854c34aebab454c40aeba3054c20aeb87854c24aeb8b454c2caeb83054c14aeb67854c0caeb6b454c18aeb63054c00aeb47854bf8aeb4b454c04aeb43054becaeb27854be8aeb2b454bf0aeb23054bd4aeb07854bd0aeb0b454bdcaeb03054bc4aeae7854bc0aeaeb454bc8aeae30)
  (.lf 0)) (.nd (.lf
  0x61594c2532c61574c2512c614b0c24f2c61498c24d2c614bcc24b2c613fcc2492c60c68c2472c60b30c2452c61298c2432c60e94c240cc63e88c67f2c63e70c67d2c63e58c67b2c63e40c6792c63e28c6772c63e10c6752c63e90c6732c63decc6712c63dd4c66f2c63d8cc66d2c63d94c66b2c63d64c6692c63d48c6672c63cd4c6652c634d8c6632c633f0c6612c633c0c65f2c63384c65d2c63350c65b2c63310c6592c632f8c6572c632ecc6552c63274c6532c63238c6512c631d4c64f2c631c4c64d2c63110c64b2c630b4c6492c62f5cc6472c62cfcc6452c62c54c6432c62c1cc640cc65d7cca7f2c65d84ca7d2c65d54ca7b2c65d40ca792c65d24ca772c65d04ca752c65cf4ca732c65cd0ca712c65d10ca6f2c65cbcca6d2c65c94ca6b2c65c78ca692c65c68ca672c65c64ca652c65c34ca632c656e0ca612c65688ca5f2c65638ca5d2c655e8ca5b2c655a0ca592c65fd4ca572c654c4ca552c)
  (.lf 0))) (.nd (.nd (.lf
  0x57394001e0157398001dff5739c001dfd573a0001dfb573a4001df9573a8001df7573ac001df5573b0001df3573b4001df1573b8001def573bc001ded573c0001deb573c4001de9573c8001de7573cc001de5573d0001de3573d4001de158d9c001ddf58da0001ddd58da4001ddb58da8001dd958cd0001dd758cd4001dd55903c001dd359040001dd159044001dcf59048001dcd5904c001dcb59050001dc959054001dc759058001dc55905c001dc359060001dc159064001dbf59068001dbd5906c001dbb59070001db959074001db759078001db55907c001db358eb0001db158e70001daf58e74001dad58e78001dab58e7c001da958e80001da758e84001da558dac001da358db0001da15a9ec001d9f5a99c001d9d5a850001d9b5a854001d995a858001d975a85c001d955b748001d935b74c001d915b6bc001d8f5b678001d8d5b5fc001d8b5b750001d895b794001d875b6c0001d855b67c001d83)
  (.lf 0)) (.nd (.lf
  0x74038f011d074024f00fd074010f00dd073ffcf00bd073fecf009d073dacf007d073d48f005d073d18f003d073d08f0011073778f4becc735d4f4bccc735a8f4bacc7356cf4b8cc7357cf4b6cc73508f4b4cc734dcf4b2cc734a8f4b0cc7347cf4aecc73468f4accc738a0f4aacc738a8f4a8cc738b0f4a6cc738b8f4a4cc738c0f4a2cc738c8f4a0cc738d0f49ecc738d8f49ccc738e0f49acc738e8f498cc738f0f496cc738f8f494cc73900f492cc7392cf490cc7390cf48ecc73914f48ccc73930f48acc73920f488cc73928f486cc7378cf484cc73794f482cc73b7cf4bdd073b68f4bbd073b54f4b9d073b40f4b7d073b2cf4b5d073b18f4b3d073b04f4b1d073af0f4afd073ad8f4add073ac4f4abd073ab0f4a9d073a9cf4a7d073a88f4a5d073a74f4a3d073a5cf4a1d073a4cf49fd073a34f49dd073a24f49bd073a14f499d0739fcf497d0739e8f495d0739d4f493d0739c4f491d0739b0f48fd0)
  (.lf 0)))

def shaWireTree508 : BTree :=
  .nd (.nd (.nd (.lf
  0x8000505a6b48001d05a6307fff905a4787ffe505a4b47fffd05a4307ffc905a2787ffd905a2b47ffdd05a2307ffb505a0787ffb105a0b47ffb905a0307ff85059e787ff8d059eb47ff91059e307ff79059c787f975059cb47ff7d059c307f965059a787f8f9059ab47f96d059a307f8ed0598787f8510598b47f8f10598307f8410596787f8450596b47f8490596307f8350594787f7390594b47f8390594307f7090592787f7050592b47f7310592307f6e10590787f6a10590b47f6fd0590307f695058e787f581058eb47f699058e307f571058c787f4d9058cb47f579058c307f4cd058a787f4c9058ab47f4d1058a307f4990588787f4a10588b47f4c10588307f4850586787f3a90586b47f4890586307f2bd0584787f2c10584b47f3a10584307f2750582787f0250582b47f2b50582308309d097c7883099097cb4830a1097c308308d097a7883085097ab483091097a3082fe9097878830250978b4)
  (.lf 0)) (.nd (.lf
  0x1367833a0b41367c339eb413680339cb413684339ab4136883398b41368c3396b4136903394b4136943392b4136983390b41369c338eb4136a0338cb4136a4338ab4136a83388b4136ac3386b4136b03384b4136b43382b4136b83380b411edc33be7811ee033bc7811ee433ba7811ee833b87811eec33b67811ef033b47811ef433b27811ef833b07811efc33ae7811f0033ac7811f0433aa7811f0833a87811f0c33a67811f1033a47811f1433a27811f1833a07811f1c339e7811f20339c7811f24339a7811f2833987811f2c33967811f3033947811f3433927811f3833907811f3c338e7811f40338c7811f44338a7811f4833887811f4c33867811f5033847811f5433827811f58338078136bc33be30136c033bc30136c433ba30136c833b830136cc33b630136d033b430136d433b230136d833b030136dc33ae30136e033ac30136e433aa30136e833a830136ec33a630136f033a430136f433a230)
  (.lf 0))) (.nd (.nd (.lf
  0x17dd03ff4b417dd83ff43017dc03ff27817dbc3ff2b417dc43ff23017dac3ff07817da83ff0b417db03ff03017d983fee7817d943feeb417d9c3fee3017d843fec7817d803fecb417d883fec3017d703fea7817d6c3feab417d743fea3017d5c3fe87817d583fe8b417d603fe83017d483fe67817d443fe6b417d4c3fe63017d343fe47817d303fe4b417d383fe43017d203fe27817d1c3fe2b417d243fe23017d0c3fe07817d083fe0b417d103fe03017cf83fde7817cf43fdeb417cfc3fde3017ce43fdc7817ce03fdcb417ce83fdc3017cd03fda7817ccc3fdab417cd43fda3017cbc3fd87817cb83fd8b417cc03fd83017ca83fd67817ca43fd6b417cac3fd63017c943fd47817c903fd4b417c983fd43017c803fd27817c7c3fd2b417c843fd23017c6c3fd07817c683fd0b417c703fd03017c583fce7817c543fceb417c5c3fce3017c443fcc7817c403fccb417c483fcc3017c303fca7817c2c3fcab4)
  (.lf 0)) (.nd (.lf
  0x3e6888d7acc3e6748d78cc3e6588d76cc3e6408d74cc3e6288d72cc3e6148d70cc3e6008d6ecc3e5f08d6ccc3e5d08d6acc3e5c08d68cc3e5a08d66cc3e5908d64cc3e57c8d62cc3e5608d60cc3e54c8d5ecc3e5388d5ccc3e5188d5acc3e5088d58cc3e4e88d56cc3e4d88d54cc3e4c48d52cc3e4a88d50cc3e4908d4ecc3e4748d4ccc3e45c8d4acc3e4488d48cc3e94c8d46cc3e4148d44cc3e32c8d42cc3eb1c8d7dd03eb088d7bd03eaf48d79d03eae08d77d03eacc8d75d03eab88d73d03eaa48d71d03ea908d6fd03ea7c8d6dd03ea688d6bd03ea548d69d03ea3c8d67d03ea288d65d03ea148d63d03ea008d61d03e9f08d5fd03e9dc8d5dd03e9c88d5bd03e9b48d59d03e9a08d57d03e98c8d55d03e9788d53d03e9648d51d03e72c8d4fd03e7088d4dd03e6f08d4bd03e6d88d49d03e6c48d47d03e40c8d45d03e37c8d43d03e3648d41103e6b08dbecc3e6a08dbccc3e68c8dbacc3e6708db8cc)
  (.lf 0)))

def shaWireTree509 : BTree :=
  .nd (.nd (.nd (.lf
  0x6922cd2a67869230d2a6b469234d2a6306921cd2a47869218d2a4b469220d2a43069208d2a2786920cd2a2b469210d2a230691f4d2a078691f0d2a0b4691f8d2a030691e0d29e78691e4d29eb4691e8d29e30691d0d29c78691ccd29cb4691d4d29c30691bcd29a78691c0d29ab4691c4d29a30691a4d29878691acd298b4691b0d2983069198d2967869194d296b46919cd2963069184d2947869180d294b469188d2943069170d292786916cd292b469174d292306915cd2907869158d290b469160d2903069140d28e7869148d28eb46914cd28e3068f94d28c7869134d28cb469138d28c3068e8cd28a7868f88d28ab468f8cd28a3068e80d2887868e78d288b468e84d2883068e6cd2867868e68d286b468e70d2863068e18d2847868e58d284b468e5cd2843068d28d2827868e08d282b468e0cd282306a384d27cb46a388d27c786a38cd27c306a370d27ab46a36cd27a786a378d27a306a34cd278b4)
  (.lf 0)) (.nd (.lf
  0x66258cb1d4a66230cb1b4a661f4cb194a65fe0cb16b4654d4cb154a65468cb134a653e4cb114a6536ccb0eb465e60cb0d4a65240cb0ab4650c4cb08b46506ccb074a6500ccb04aa64fa0cac32c64f30cac0cc68fb4cf3eb468ee4cf3cb468d48cf3b4a68c84cf394a68bfccf36b468b24cf354a68af8cf32b468884cf30b468934cf2f4a68860cf2cb468898cf2b4a687dccf294a68770cf26b468708cf24b4686a8cf22b4685accf20b468570cf1f4a68464cf1cb4683e4cf1b4a68354cf194a682c0cf174a68260cf154a67ac8cf12b4679f8cf10b467980cf0f4a676fccf0cb46769ccf0b4a6763ccf094a675e0cf06b4674a4cf054a673f8cf02b4673b4cf00aa6ad48d33eb46ad34d33cb46ad54d33b4a6acb0d3394a6aa3cd3374a6aa24d334b46aa10d332b46a9f4d3314a6a9e0d32eb46a9d4d32cb46a96cd32ab46a920d3294a6a8e8d3274a6a8a4d3254a6a864d322b46a7ecd320b46a7dcd31eb4)
  (.lf 0))) (.nd (.nd (.lf
  0x37a78749ab437a74749a7837a7c749a3037a4c7498b437a4874987837a5074983037a207496b437a1c74967837a24749630379f47494b4379f0749478379f8749430379c87492b4379c4749278379cc7492303799c7490b437998749078379a074903037970748eb43796c748e7837974748e3037944748cb437940748c7837948748c3037914748ab437910748a7837918748a30378e47488b4378e0748878378e8748830378b47486b4378b0748678378b8748630378887484b4378847484783788c7484303785c7482b437858748278378607482301e598747cb41e594747c781e59c747c301e584747ab41e580747a781e588747a301e5707478b41e56c7478781e5747478301e55c7476b41e5587476781e5607476301e5487474b41e5447474781e54c7474301e5347472b41e5307472781e5387472301e5207470b41e51c7470781e5247470301e50c746eb41e508746e781e510746e301e4f8746cb4)
  (.lf 0)) (.nd (.lf
  0x16e743a9bd016e383a99d016dfc3a97d016dc03a95d016d7c3a93d016d343a91d016cf43a8fd016cb43a8dd016c783a8bd016c383a89d016bfc3a87d016bc43a85d016b843a83d016b2c3a811011d543a7ecc11d083a7ccc11c803a7acc11c083a78cc11b883a76cc11af43a74cc11a7c3a72cc119fc3a70cc1197c3a6ecc118fc3a6ccc118683a6acc117dc3a68cc117643a66cc116e43a64cc116643a62cc115d03a60cc115443a5ecc114cc3a5ccc1144c3a5acc113cc3a58cc1134c3a56cc112b83a54cc112403a52cc111ac3a50cc111203a4ecc110a83a4ccc110143a4acc10f883a48cc10efc3a46cc10e703a44cc10df43a42cc11d043a7dd011c903a7bd011c003a79d011b803a77d011b043a75d011a743a73d0119f43a71d0119743a6fd0118f43a6dd0118783a6bd0117ec3a69d01175c3a67d0116dc3a65d01165c3a63d0115e03a61d0115543a5fd0114c43a5dd0114443a5bd0113c43a59d0)
  (.lf 0)))

def shaWireTree510 : BTree :=
  .nd (.nd (.nd (.lf
  0x20e0c51683020df051667820df45166b420df851663020de051647820dd45164b420de451643020dc051627820dbc5162b420dc851623020db051607820dac5160b420db451603020d9c515e7820da0515eb420da4515e3020d8c515c7820d88515cb420d94515c3020d7c515a7820d78515ab420d80515a3020d6851587820d605158b420d6c51583020d4c51567820d505156b420d5451563020d3c51547820d345154b420d4051543020d2451527820d285152b420d2c51523020d1051507820d145150b420d1851503020d00514e7820d04514eb420d08514e3020ce8514c7820cec514cb420cf4514c3020cdc514a7820cc4514ab420ce0514a3020ca051487820ca45148b420ca851483020c9451467820c7c5146b420c9851463020c5851447820c705144b420c7451443020c4c5142781f2445142b420c5051423020bb851bc7820bcc51bcb420bd051bc3020bac51ba7820b9851bab420bb051ba30)
  (.lf 0)) (.nd (.lf
  0x2321c00447d2322400447b2322c004479232340044772323c004475232440044732324c0044712325400446f2325c00446d2326400446b2326c004469232740044672327c004465232840044632328c0044611a6d000445f1a6d800445d1a6e000445b1a6e80044591a6f00044571a6f80044551a7000044531a7080044511a71000444f1a71800444d1a77800444b1a7800044491a7880044471a7900044451a7980044431a7a00044411a7a800443f1a7b000443d1a7b800443b1a7c00044391a7c80044371a7d00044351a7d80044331a7e00044311a7e800442f1a7f000442d1a7f800442b1a8000044291a8080044271a8100044251a8180044231a82000442126c1400441f26c1c00441d26c2400441b26c2c00441926c3400441726c3c00441526c4400441326c4c00441126c5400440f26c5c00440d26cbc00440b26cc400440926ccc00440726cd400440526cdc00440326ce400440126cec0043ff)
  (.lf 0))) (.nd (.nd (.lf
  0x73514ec5a30734b4ec58b4734ccec5878734e0ec58307342cec56b473434ec5678734acec56307341cec54b473418ec547873420ec54307340cec52b473408ec527873410ec5230733e4ec50b4733e0ec5078733f8ec5030733b8ec4eb4733d4ec4e78733d8ec4e3073300ec4cb4733acec4c78733b0ec4c30732d8ec4ab4732e4ec4a78732e8ec4a30732c8ec48b4732ccec4878732d0ec4830732b4ec46b4732b0ec4678732b8ec463073298ec44b4732a4ec4478732a8ec443073284ec42b47328cec427873290ec42307385cec3cb473854ec3c7873860ec3c3073848ec3ab473840ec3a787384cec3a3073834ec38b47382cec387873838ec383073818ec36b473820ec367873824ec36307380cec34b473804ec347873810ec3430737f8ec32b4737f4ec3278737fcec3230737e0ec30b4737e4ec3078737e8ec3030737d0ec2eb4737c8ec2e78737d4ec2e30737b4ec2cb4737bcec2c78737c0ec2c30)
  (.lf 0)) (.nd (.lf
  0x5c834ba5dd05c7f0ba5bd05c78cba59d05c74cba57d05c718ba55d05c6d0ba53d05c684ba51d05c640ba4fd05c604ba4dd05c5f4ba4bd05c52cba49d05c508ba47d05c4e0ba45d05c2e4ba43d05c2a4ba41105d00cbafecc5cfe0bafccc5cf20bafacc5cea8baf8cc5ce1cbaf6cc5cd8cbaf4cc5cd10baf2cc5cc88baf0cc5cc0cbaeecc5cb8cbaeccc5cb04baeacc5ca9cbae8cc5ca1cbae6cc5c9c0bae4cc5c900bae2cc5c8c0bae0cc5c870badecc5c82cbadccc5c7d4badacc5c79cbad8cc5c764bad6cc5c720bad4cc5c6c4bad2cc5c694bad0cc5c63cbacecc5c618bacccc5c550bacacc5c56cbac8cc5c5a8bac6cc5c590bac4cc5c2d8bac2cc5cfdcbafdd05cf08bafbd05cea0baf9d05ce0cbaf7d05cda0baf5d05cd18baf3d05ccb8baf1d05cbf8baefd05cb88baedd05cafcbaebd05ca8cbae9d05ca14bae7d05c9c8bae5d05c8fcbae3d05c8b8bae1d05c87cbadfd05c824baddd05c7dcbadbd0)
  (.lf 0)))

def shaWireTree511 : BTree :=
  .nd (.nd (.nd (.lf
  0x40e0887e87840e0c87e8b440e1087e83040df887e67840df087e6b440dfc87e63040de487e47840de087e4b440de887e43040dc887e27840dcc87e2b440dd487e23040dbc87e07840db887e0b440dc087e03040da887de7840dac87deb440db087de3040d9887dc7840d9487dcb440d9c87dc3040d8487da7840d8087dab440d8887da3040d7087d87840d6887d8b440d7487d83040d5887d67840d5487d6b440d5c87d63040d4087d47840d4887d4b440d4c87d43040d3487d27840d2c87d2b440d3887d23040d1887d07840d2087d0b440d2487d03040d0c87ce7840d0487ceb440d1087ce3040b9087cc7840cf887ccb440cfc87cc3040b8487ca7840b7c87cab440b8887ca3040b6887c87840b7087c8b440b7487c83040a4887c67840b3887c6b440b6087c63040a3487c47840a3c87c4b440a4087c43040a2887c27840a2487c2b440a2c87c230441cc8abc78441c88abcb4441d08abc3043c7c8aba78)
  (.lf 0)) (.nd (.lf
  0x5f1c4c213b05f1a4c211b05f06cc20fb05f030c20db05efccc20bb05ef8cc209b05ef3cc207b05ef40c205b05e778c203b05e68cc201b062644c63fb06264cc63db06260cc63bb0623dcc639b0622ecc637b062290c635b0621b0c633b0620e0c631b062048c62fb061f74c62db061f50c62bb061f94c629b061dbcc627b061d30c625b061cd4c623b061d4cc621b061becc61fb061bb4c61db061b90c61bb061a80c619b061a40c617b0619e4c615b061914c613b0616f8c611b061690c60fb0615f0c60db06151cc60bb061464c609b0613a8c607b0612fcc605b06133cc603b060ec0c601b0644bcca3fb0644c4ca3db06451cca3bb0642c0ca39b064290ca37b064374ca35b064270ca33b064360ca31b064224ca2fb064228ca2db06422cca2bb063ff0ca29b06442cca27b063d20ca25b063c90ca23b063ca8ca21b063c78ca1fb063adcca1db063a68ca1bb063a6cca19b063a04ca17b0639c4ca15b0)
  (.lf 0))) (.nd (.nd (.lf
  0x28a20562050288a0561e502887c561c502885c561a502883c5618502881c561650287fc561450287dc561250287bc5610502879c560e502877c560c502875c560a502873c5608502871c560650286f8560450286d85602502867056005028a645a3e7828a685a3c7828a6c5a3a7828a705a387828a745a367828a785a347828a7c5a327828a805a307828a845a2e7828a885a2c7828a8c5a2a7828a905a287828a945a267828a985a247828a9c5a227828aa05a2078288a85a1e78288845a1c78288645a1a78288445a1878288245a1678288045a1478287e45a1278287c45a1078287a45a0e78287845a0c78287645a0a78287445a0878287245a0678287005a0478286e05a0278286785a007829ef85a3e5029efc5a3c5029f005a3a5029f045a385029f085a365029f0c5a345029f105a325029f145a305029f185a2e5029f1c5a2c5029f205a2a5029f245a285029f285a265029f2c5a245029f305a2250)
  (.lf 0)) (.nd (.lf
  0x4ab749819d04ab489817d04ab1c9815d04aaf09813d04aac49811d04aa98980fd04aa6c980dd04aa40980bd04aa149809d04a9e89807d04a9bc9805d04a9909803d04a97098011049d089cbecc49d109cbccc49d189cbacc49d209cb8cc49d289cb6cc49d309cb4cc49d389cb2cc49d409cb0cc49d489caecc49d509caccc49db09caacc49db89ca8cc49dc09ca6cc49dc89ca4cc49dd09ca2cc49dd89ca0cc49de09c9ecc49de89c9ccc49df09c9acc49df89c98cc49e009c96cc49e089c94cc49e109c92cc49e189c90cc49e209c8ecc49e289c8ccc49e309c8acc49e389c88cc49e409c86cc49e489c84cc49e509c82cc4a0b49cbdd04a0a09cbbd04a08c9cb9d04a0789cb7d04a0649cb5d04a0509cb3d04a03c9cb1d04a0289cafd04a0149cadd04a0009cabd049fec9ca9d049fd89ca7d049fc49ca5d049fb09ca3d049f9c9ca1d049f889c9fd049f749c9dd049f609c9bd049f4c9c99d049f389c97d0)
  (.lf 0)))

/-- Claims and ranks of the wires: 44 bits each, 64 per leaf. -/
def shaWireTree : BTree :=
  .nd (.nd (.nd (.nd (.nd (.nd (.nd (.nd (.nd (shaWireTree0) (shaWireTree1)) (.nd (shaWireTree2) (shaWireTree3))) (.nd (.nd (shaWireTree4) (shaWireTree5)) (.nd
  (shaWireTree6) (shaWireTree7)))) (.nd (.nd (.nd (shaWireTree8) (shaWireTree9)) (.nd (shaWireTree10) (shaWireTree11))) (.nd (.nd (shaWireTree12) (shaWireTree13))
  (.nd (shaWireTree14) (shaWireTree15))))) (.nd (.nd (.nd (.nd (shaWireTree16) (shaWireTree17)) (.nd (shaWireTree18) (shaWireTree19))) (.nd (.nd (shaWireTree20)
  (shaWireTree21)) (.nd (shaWireTree22) (shaWireTree23)))) (.nd (.nd (.nd (shaWireTree24) (shaWireTree25)) (.nd (shaWireTree26) (shaWireTree27))) (.nd (.nd
  (shaWireTree28) (shaWireTree29)) (.nd (shaWireTree30) (shaWireTree31)))))) (.nd (.nd (.nd (.nd (.nd (shaWireTree32) (shaWireTree33)) (.nd (shaWireTree34)
  (shaWireTree35))) (.nd (.nd (shaWireTree36) (shaWireTree37)) (.nd (shaWireTree38) (shaWireTree39)))) (.nd (.nd (.nd (shaWireTree40) (shaWireTree41)) (.nd
  (shaWireTree42) (shaWireTree43))) (.nd (.nd (shaWireTree44) (shaWireTree45)) (.nd (shaWireTree46) (shaWireTree47))))) (.nd (.nd (.nd (.nd (shaWireTree48)
  (shaWireTree49)) (.nd (shaWireTree50) (shaWireTree51))) (.nd (.nd (shaWireTree52) (shaWireTree53)) (.nd (shaWireTree54) (shaWireTree55)))) (.nd (.nd (.nd
  (shaWireTree56) (shaWireTree57)) (.nd (shaWireTree58) (shaWireTree59))) (.nd (.nd (shaWireTree60) (shaWireTree61)) (.nd (shaWireTree62) (shaWireTree63)))))))
  (.nd (.nd (.nd (.nd (.nd (.nd (shaWireTree64) (shaWireTree65)) (.nd (shaWireTree66) (shaWireTree67))) (.nd (.nd (shaWireTree68) (shaWireTree69)) (.nd
  (shaWireTree70) (shaWireTree71)))) (.nd (.nd (.nd (shaWireTree72) (shaWireTree73)) (.nd (shaWireTree74) (shaWireTree75))) (.nd (.nd (shaWireTree76)
  (shaWireTree77)) (.nd (shaWireTree78) (shaWireTree79))))) (.nd (.nd (.nd (.nd (shaWireTree80) (shaWireTree81)) (.nd (shaWireTree82) (shaWireTree83))) (.nd (.nd
  (shaWireTree84) (shaWireTree85)) (.nd (shaWireTree86) (shaWireTree87)))) (.nd (.nd (.nd (shaWireTree88) (shaWireTree89)) (.nd (shaWireTree90) (shaWireTree91)))
  (.nd (.nd (shaWireTree92) (shaWireTree93)) (.nd (shaWireTree94) (shaWireTree95)))))) (.nd (.nd (.nd (.nd (.nd (shaWireTree96) (shaWireTree97)) (.nd
  (shaWireTree98) (shaWireTree99))) (.nd (.nd (shaWireTree100) (shaWireTree101)) (.nd (shaWireTree102) (shaWireTree103)))) (.nd (.nd (.nd (shaWireTree104)
  (shaWireTree105)) (.nd (shaWireTree106) (shaWireTree107))) (.nd (.nd (shaWireTree108) (shaWireTree109)) (.nd (shaWireTree110) (shaWireTree111))))) (.nd (.nd
  (.nd (.nd (shaWireTree112) (shaWireTree113)) (.nd (shaWireTree114) (shaWireTree115))) (.nd (.nd (shaWireTree116) (shaWireTree117)) (.nd (shaWireTree118)
  (shaWireTree119)))) (.nd (.nd (.nd (shaWireTree120) (shaWireTree121)) (.nd (shaWireTree122) (shaWireTree123))) (.nd (.nd (shaWireTree124) (shaWireTree125)) (.nd
  (shaWireTree126) (shaWireTree127)))))))) (.nd (.nd (.nd (.nd (.nd (.nd (.nd (shaWireTree128) (shaWireTree129)) (.nd (shaWireTree130) (shaWireTree131))) (.nd
  (.nd (shaWireTree132) (shaWireTree133)) (.nd (shaWireTree134) (shaWireTree135)))) (.nd (.nd (.nd (shaWireTree136) (shaWireTree137)) (.nd (shaWireTree138)
  (shaWireTree139))) (.nd (.nd (shaWireTree140) (shaWireTree141)) (.nd (shaWireTree142) (shaWireTree143))))) (.nd (.nd (.nd (.nd (shaWireTree144)
  (shaWireTree145)) (.nd (shaWireTree146) (shaWireTree147))) (.nd (.nd (shaWireTree148) (shaWireTree149)) (.nd (shaWireTree150) (shaWireTree151)))) (.nd (.nd (.nd
  (shaWireTree152) (shaWireTree153)) (.nd (shaWireTree154) (shaWireTree155))) (.nd (.nd (shaWireTree156) (shaWireTree157)) (.nd (shaWireTree158)
  (shaWireTree159)))))) (.nd (.nd (.nd (.nd (.nd (shaWireTree160) (shaWireTree161)) (.nd (shaWireTree162) (shaWireTree163))) (.nd (.nd (shaWireTree164)
  (shaWireTree165)) (.nd (shaWireTree166) (shaWireTree167)))) (.nd (.nd (.nd (shaWireTree168) (shaWireTree169)) (.nd (shaWireTree170) (shaWireTree171))) (.nd (.nd
  (shaWireTree172) (shaWireTree173)) (.nd (shaWireTree174) (shaWireTree175))))) (.nd (.nd (.nd (.nd (shaWireTree176) (shaWireTree177)) (.nd (shaWireTree178)
  (shaWireTree179))) (.nd (.nd (shaWireTree180) (shaWireTree181)) (.nd (shaWireTree182) (shaWireTree183)))) (.nd (.nd (.nd (shaWireTree184) (shaWireTree185)) (.nd
  (shaWireTree186) (shaWireTree187))) (.nd (.nd (shaWireTree188) (shaWireTree189)) (.nd (shaWireTree190) (shaWireTree191))))))) (.nd (.nd (.nd (.nd (.nd (.nd
  (shaWireTree192) (shaWireTree193)) (.nd (shaWireTree194) (shaWireTree195))) (.nd (.nd (shaWireTree196) (shaWireTree197)) (.nd (shaWireTree198)
  (shaWireTree199)))) (.nd (.nd (.nd (shaWireTree200) (shaWireTree201)) (.nd (shaWireTree202) (shaWireTree203))) (.nd (.nd (shaWireTree204) (shaWireTree205)) (.nd
  (shaWireTree206) (shaWireTree207))))) (.nd (.nd (.nd (.nd (shaWireTree208) (shaWireTree209)) (.nd (shaWireTree210) (shaWireTree211))) (.nd (.nd (shaWireTree212)
  (shaWireTree213)) (.nd (shaWireTree214) (shaWireTree215)))) (.nd (.nd (.nd (shaWireTree216) (shaWireTree217)) (.nd (shaWireTree218) (shaWireTree219))) (.nd (.nd
  (shaWireTree220) (shaWireTree221)) (.nd (shaWireTree222) (shaWireTree223)))))) (.nd (.nd (.nd (.nd (.nd (shaWireTree224) (shaWireTree225)) (.nd (shaWireTree226)
  (shaWireTree227))) (.nd (.nd (shaWireTree228) (shaWireTree229)) (.nd (shaWireTree230) (shaWireTree231)))) (.nd (.nd (.nd (shaWireTree232) (shaWireTree233)) (.nd
  (shaWireTree234) (shaWireTree235))) (.nd (.nd (shaWireTree236) (shaWireTree237)) (.nd (shaWireTree238) (shaWireTree239))))) (.nd (.nd (.nd (.nd (shaWireTree240)
  (shaWireTree241)) (.nd (shaWireTree242) (shaWireTree243))) (.nd (.nd (shaWireTree244) (shaWireTree245)) (.nd (shaWireTree246) (shaWireTree247)))) (.nd (.nd (.nd
  (shaWireTree248) (shaWireTree249)) (.nd (shaWireTree250) (shaWireTree251))) (.nd (.nd (shaWireTree252) (shaWireTree253)) (.nd (shaWireTree254)
  (shaWireTree255))))))))) (.nd (.nd (.nd (.nd (.nd (.nd (.nd (.nd (shaWireTree256) (shaWireTree257)) (.nd (shaWireTree258) (shaWireTree259))) (.nd (.nd
  (shaWireTree260) (shaWireTree261)) (.nd (shaWireTree262) (shaWireTree263)))) (.nd (.nd (.nd (shaWireTree264) (shaWireTree265)) (.nd (shaWireTree266)
  (shaWireTree267))) (.nd (.nd (shaWireTree268) (shaWireTree269)) (.nd (shaWireTree270) (shaWireTree271))))) (.nd (.nd (.nd (.nd (shaWireTree272)
  (shaWireTree273)) (.nd (shaWireTree274) (shaWireTree275))) (.nd (.nd (shaWireTree276) (shaWireTree277)) (.nd (shaWireTree278) (shaWireTree279)))) (.nd (.nd (.nd
  (shaWireTree280) (shaWireTree281)) (.nd (shaWireTree282) (shaWireTree283))) (.nd (.nd (shaWireTree284) (shaWireTree285)) (.nd (shaWireTree286)
  (shaWireTree287)))))) (.nd (.nd (.nd (.nd (.nd (shaWireTree288) (shaWireTree289)) (.nd (shaWireTree290) (shaWireTree291))) (.nd (.nd (shaWireTree292)
  (shaWireTree293)) (.nd (shaWireTree294) (shaWireTree295)))) (.nd (.nd (.nd (shaWireTree296) (shaWireTree297)) (.nd (shaWireTree298) (shaWireTree299))) (.nd (.nd
  (shaWireTree300) (shaWireTree301)) (.nd (shaWireTree302) (shaWireTree303))))) (.nd (.nd (.nd (.nd (shaWireTree304) (shaWireTree305)) (.nd (shaWireTree306)
  (shaWireTree307))) (.nd (.nd (shaWireTree308) (shaWireTree309)) (.nd (shaWireTree310) (shaWireTree311)))) (.nd (.nd (.nd (shaWireTree312) (shaWireTree313)) (.nd
  (shaWireTree314) (shaWireTree315))) (.nd (.nd (shaWireTree316) (shaWireTree317)) (.nd (shaWireTree318) (shaWireTree319))))))) (.nd (.nd (.nd (.nd (.nd (.nd
  (shaWireTree320) (shaWireTree321)) (.nd (shaWireTree322) (shaWireTree323))) (.nd (.nd (shaWireTree324) (shaWireTree325)) (.nd (shaWireTree326)
  (shaWireTree327)))) (.nd (.nd (.nd (shaWireTree328) (shaWireTree329)) (.nd (shaWireTree330) (shaWireTree331))) (.nd (.nd (shaWireTree332) (shaWireTree333)) (.nd
  (shaWireTree334) (shaWireTree335))))) (.nd (.nd (.nd (.nd (shaWireTree336) (shaWireTree337)) (.nd (shaWireTree338) (shaWireTree339))) (.nd (.nd (shaWireTree340)
  (shaWireTree341)) (.nd (shaWireTree342) (shaWireTree343)))) (.nd (.nd (.nd (shaWireTree344) (shaWireTree345)) (.nd (shaWireTree346) (shaWireTree347))) (.nd (.nd
  (shaWireTree348) (shaWireTree349)) (.nd (shaWireTree350) (shaWireTree351)))))) (.nd (.nd (.nd (.nd (.nd (shaWireTree352) (shaWireTree353)) (.nd (shaWireTree354)
  (shaWireTree355))) (.nd (.nd (shaWireTree356) (shaWireTree357)) (.nd (shaWireTree358) (shaWireTree359)))) (.nd (.nd (.nd (shaWireTree360) (shaWireTree361)) (.nd
  (shaWireTree362) (shaWireTree363))) (.nd (.nd (shaWireTree364) (shaWireTree365)) (.nd (shaWireTree366) (shaWireTree367))))) (.nd (.nd (.nd (.nd (shaWireTree368)
  (shaWireTree369)) (.nd (shaWireTree370) (shaWireTree371))) (.nd (.nd (shaWireTree372) (shaWireTree373)) (.nd (shaWireTree374) (shaWireTree375)))) (.nd (.nd (.nd
  (shaWireTree376) (shaWireTree377)) (.nd (shaWireTree378) (shaWireTree379))) (.nd (.nd (shaWireTree380) (shaWireTree381)) (.nd (shaWireTree382)
  (shaWireTree383)))))))) (.nd (.nd (.nd (.nd (.nd (.nd (.nd (shaWireTree384) (shaWireTree385)) (.nd (shaWireTree386) (shaWireTree387))) (.nd (.nd
  (shaWireTree388) (shaWireTree389)) (.nd (shaWireTree390) (shaWireTree391)))) (.nd (.nd (.nd (shaWireTree392) (shaWireTree393)) (.nd (shaWireTree394)
  (shaWireTree395))) (.nd (.nd (shaWireTree396) (shaWireTree397)) (.nd (shaWireTree398) (shaWireTree399))))) (.nd (.nd (.nd (.nd (shaWireTree400)
  (shaWireTree401)) (.nd (shaWireTree402) (shaWireTree403))) (.nd (.nd (shaWireTree404) (shaWireTree405)) (.nd (shaWireTree406) (shaWireTree407)))) (.nd (.nd (.nd
  (shaWireTree408) (shaWireTree409)) (.nd (shaWireTree410) (shaWireTree411))) (.nd (.nd (shaWireTree412) (shaWireTree413)) (.nd (shaWireTree414)
  (shaWireTree415)))))) (.nd (.nd (.nd (.nd (.nd (shaWireTree416) (shaWireTree417)) (.nd (shaWireTree418) (shaWireTree419))) (.nd (.nd (shaWireTree420)
  (shaWireTree421)) (.nd (shaWireTree422) (shaWireTree423)))) (.nd (.nd (.nd (shaWireTree424) (shaWireTree425)) (.nd (shaWireTree426) (shaWireTree427))) (.nd (.nd
  (shaWireTree428) (shaWireTree429)) (.nd (shaWireTree430) (shaWireTree431))))) (.nd (.nd (.nd (.nd (shaWireTree432) (shaWireTree433)) (.nd (shaWireTree434)
  (shaWireTree435))) (.nd (.nd (shaWireTree436) (shaWireTree437)) (.nd (shaWireTree438) (shaWireTree439)))) (.nd (.nd (.nd (shaWireTree440) (shaWireTree441)) (.nd
  (shaWireTree442) (shaWireTree443))) (.nd (.nd (shaWireTree444) (shaWireTree445)) (.nd (shaWireTree446) (shaWireTree447))))))) (.nd (.nd (.nd (.nd (.nd (.nd
  (shaWireTree448) (shaWireTree449)) (.nd (shaWireTree450) (shaWireTree451))) (.nd (.nd (shaWireTree452) (shaWireTree453)) (.nd (shaWireTree454)
  (shaWireTree455)))) (.nd (.nd (.nd (shaWireTree456) (shaWireTree457)) (.nd (shaWireTree458) (shaWireTree459))) (.nd (.nd (shaWireTree460) (shaWireTree461)) (.nd
  (shaWireTree462) (shaWireTree463))))) (.nd (.nd (.nd (.nd (shaWireTree464) (shaWireTree465)) (.nd (shaWireTree466) (shaWireTree467))) (.nd (.nd (shaWireTree468)
  (shaWireTree469)) (.nd (shaWireTree470) (shaWireTree471)))) (.nd (.nd (.nd (shaWireTree472) (shaWireTree473)) (.nd (shaWireTree474) (shaWireTree475))) (.nd (.nd
  (shaWireTree476) (shaWireTree477)) (.nd (shaWireTree478) (shaWireTree479)))))) (.nd (.nd (.nd (.nd (.nd (shaWireTree480) (shaWireTree481)) (.nd (shaWireTree482)
  (shaWireTree483))) (.nd (.nd (shaWireTree484) (shaWireTree485)) (.nd (shaWireTree486) (shaWireTree487)))) (.nd (.nd (.nd (shaWireTree488) (shaWireTree489)) (.nd
  (shaWireTree490) (shaWireTree491))) (.nd (.nd (shaWireTree492) (shaWireTree493)) (.nd (shaWireTree494) (shaWireTree495))))) (.nd (.nd (.nd (.nd (shaWireTree496)
  (shaWireTree497)) (.nd (shaWireTree498) (shaWireTree499))) (.nd (.nd (shaWireTree500) (shaWireTree501)) (.nd (shaWireTree502) (shaWireTree503)))) (.nd (.nd (.nd
  (shaWireTree504) (shaWireTree505)) (.nd (shaWireTree506) (shaWireTree507))) (.nd (.nd (shaWireTree508) (shaWireTree509)) (.nd (shaWireTree510)
  (shaWireTree511)))))))))

def shaSigTree0 : BTree :=
  .nd (.nd (.nd (.lf
  0x708000001c1f00000707800001c1d00000707000001c1b00000706800001c1900000706000001c1700000705800001c1500000705000001c1300000704800001c1100000704000001c0f00000703800001c0d00000703000001c0b00000702800001c0900000702000001c0700000701800001c0500000701000001c0300000700800001c0100000788000001e1f00000787800001e1d00000787000001e1b00000786800001e1900000786000001e1700000785800001e1500000785000001e1300000784800001e1100000784000001e0f00000783800001e0d00000783000001e0b00000782800001e0900000782000001e0700000781800001e0500000781000001e0300000780800001e01)
  (.lf
  0x112400000448f0000112380000448d0000112300000448b0000112280000448900001122000004487000011218000044850000112100000448300001120800004481000011a800000469f000011a780000469d000011a700000469b000011a6800004699000011a6000004697000011a5800004695000011a5000004693000011a4800004691000011a400000468f000011a380000468d000011a300000468b000011a2800004689000011a2000004687000011a1800004685000011a1000004683000011a08000046810000122800000489f0000122780000489d0000122700000489b0000122680000489900001226000004897000012258000048950000122500000489300001224800004891))
  (.nd (.lf
  0x256d92b5895b44ad5256c92b5095b04ad3256b92b4895ac4ad1256a92b4095a84acf256992b3895a44acd256892b3095a04acb256792b28959c4ac9256692b2095984ac726659331899944cc526649331099904cc3266393308998c4cc126701331499be4cc4266f1330c99ba4cc2266e1330499c04cdb266f9336899bc4cd9266e9336099b84cd7266d9335899b44cd5266c9335099b04cd3266b9334899ac4cd1266a9334099a84ccf26699333899a44ccd26689333099a04ccb266793328999c4cc926669332099984cc7276593b189d944ec5276493b109d904ec3276393b089d8c4ec1277013b149dbe4ec4276f13b0c9dba4ec2276e13b049dc04edb276f93b689dbc4ed9276e93b609db84ed7)
  (.lf
  0x16c0000005af0000016b8000005ad0000016b0000005ab0000016a8000005a90000016a0000005a7000001698000005a5000001690000005a3000001688000005a1000001f00000007bf000001ef8000007bd000001ef0000007bb000001ee8000007b9000001ee0000007b7000001ed8000007b5000001ed0000007b3000001ec8000007b1000001ec0000007af000001eb8000007ad000001eb0000007ab000001ea8000007a9000001ea0000007a7000001e98000007a5000001e90000007a3000001e88000007a1000002700000009bf0000026f8000009bd0000026f0000009bb0000026e8000009b90000026e0000009b70000026d8000009b50000026d0000009b30000026c8000009b1)))
  (.nd (.nd (.lf
  0x40c0200c102e0802040b0200410400815040f82050103c0813040e8204810380811040d820401034080f040c820381030080d040b82030102c080b040a8202810280809040982020141e0a0405070280c141a0a0205060280414400a0b050f82828143c0a09050e8282014380a07050d8281814340a05050c8281014300a03050b82808142c0a01051002854143e0a14050f0284c143a0a12050e0284414360a10050d0283c14320a0e050c02834142e0a0c050b0282c142a0a0a050a0282414260a08060783010181c0c0306068300818180c0106100302c183e0c0a060f03024183a0c08060e0301c18360c06060d0301418320c04060c0300c182e0c02060b0300418400c15060f83050183c0c13)
  (.lf
  0x91c00000246f0000091b80000246d0000091b00000246b0000091a8000024690000091a000002467000009198000024650000091900000246300000918800002461000009a000000267f0000099f80000267d0000099f00000267b0000099e8000026790000099e0000026770000099d8000026750000099d0000026730000099c8000026710000099c00000266f0000099b80000266d0000099b00000266b0000099a8000026690000099a00000266700000999800002665000009990000026630000099880000266100000a2000000287f00000a1f80000287d00000a1f00000287b00000a1e80000287900000a1e00000287700000a1d80000287500000a1d00000287300000a1c800002871))
  (.nd (.lf
  0x245e922c8917848b1245d922c0917448af245c922b8917048ad245b922b0916c48ab245a922a8916848a92459922a0916448a7245892298916048a5245792290915c48a3255692a8895584aa1256012aac957e4aaa255f12aa4957a4aa8255e12a9c95764aa6255d12a9495724aa4255c12a8c956e4aa2255b12a8495804ab5255f92ad0957c4ab3255e92ac895784ab1255d92ac095744aaf255c92ab895704aad255b92ab0956c4aab255a92aa895684aa9255992aa095644aa7255892a9895604aa5255792a90955c4aa326569328899584ca12660132ac997e4caa265f132a4997a4ca8265e1329c99764ca6265d1329499724ca4265c1328c996e4ca2265b1328499804cb5265f932d0997c4cb3)
  (.lf
  0x13c0000004ef0000013b8000004ed0000013b0000004eb0000013a8000004e90000013a0000004e7000001398000004e5000001390000004e3000001388000004e1000001c00000006ff000001bf8000006fd000001bf0000006fb000001be8000006f9000001be0000006f7000001bd8000006f5000001bd0000006f3000001bc8000006f1000001bc0000006ef000001bb8000006ed000001bb0000006eb000001ba8000006e9000001ba0000006e7000001b98000006e5000001b90000006e3000001b88000006e1000002400000008ff0000023f8000008fd0000023f0000008fb0000023e8000008f90000023e0000008f70000023d8000008f50000023d0000008f30000023c8000008f1)))

def shaSigTree1 : BTree :=
  .nd (.nd (.nd (.lf
  0x270d1383c9c324e0e270c138349c2e4e0c270b1382c9c2a4e0a270a138249c264e08280794010a01c5003280694008a018500128101402ca03e500a280f14024a03a5008280e1401ca0365006280d14014a0325004280c1400ca02e5002280b14004a0405015280f94050a03c5013280e94048a0385011280d94040a034500f280c94038a030500d280b94030a02c500b280a94028a0285009280994020a41e520429071480ca41a5202290614804a440520b290f94828a43c5209290e94820a4385207290d94818a4345205290c94810a4305203290b94808a42c5201291014854a43e5214290f1484ca43a5212290e14844a4365210290d1483ca432520e290c14834a42e520c290b1482ca42a520a)
  (.lf
  0x191c00000646f0000191b80000646d0000191b00000646b0000191a8000064690000191a000006467000019198000064650000191900000646300001918800006461000019a000000667f0000199f80000667d0000199f00000667b0000199e8000066790000199e0000066770000199d8000066750000199d0000066730000199c8000066710000199c00000666f0000199b80000666d0000199b00000666b0000199a8000066690000199a00000666700001999800006665000019990000066630000199880000666100001a2000000687f00001a1f80000687d00001a1f00000687b00001a1e80000687900001a1e00000687700001a1d80000687500001a1d00000687300001a1c800006871))
  (.nd (.lf
  0x56d82b5815b40ad5056c82b5015b00ad3056b82b4815ac0ad1056a82b4015a80acf056982b3815a40acd056882b3015a00acb056782b28159c0ac9056682b2015980ac706658331819940cc506648331019900cc3066383308198c0cc106700331419be0cc4066f0330c19ba0cc2066e0330419c00cdb066f8336819bc0cd9066e8336019b80cd7066d8335819b40cd5066c8335019b00cd3066b8334819ac0cd1066a8334019a80ccf06698333819a40ccd06688333019a00ccb066783328199c0cc906668332019980cc7076583b181d940ec5076483b101d900ec3076383b081d8c0ec1077003b141dbe0ec4076f03b0c1dba0ec2076e03b041dc00edb076f83b681dbc0ed9076e83b601db80ed7)
  (.lf
  0x113c0000044ef0000113b8000044ed0000113b0000044eb0000113a8000044e90000113a0000044e7000011398000044e5000011390000044e3000011388000044e1000011c00000046ff000011bf8000046fd000011bf0000046fb000011be8000046f9000011be0000046f7000011bd8000046f5000011bd0000046f3000011bc8000046f1000011bc0000046ef000011bb8000046ed000011bb0000046eb000011ba8000046e9000011ba0000046e7000011b98000046e5000011b90000046e3000011b88000046e1000012400000048ff0000123f8000048fd0000123f0000048fb0000123e8000048f90000123e0000048f70000123d8000048f50000123d0000048f30000123c8000048f1)))
  (.nd (.nd (.lf
  0x120d8906448342418120c8905c48302416120b89054482c2414120a8904c4828241213048981c4c1026061303898144c0c260413028980c4c0826021301898044c402602130f898044c40261e130f898744c3c261c130e8986c4c38261a130d898644c342618130c8985c4c302616130b898544c2c2614130a8984c4c28261214048a01c5010280614038a014500c280414028a00c5008280214018a00450402802140f8a0045040281e140f8a074503c281c140e8a06c5038281a140d8a06450342818140c8a05c50302816140b8a054502c2814140a8a04c5028281215048a81c54102a0615038a814540c2a0415028a80c54082a0215018a80454402a02150f8a80454402a1e150f8a874543c2a1c)
  (.lf
  0x116c0000045af0000116b8000045ad0000116b0000045ab0000116a8000045a90000116a0000045a7000011698000045a5000011690000045a3000011688000045a1000011f00000047bf000011ef8000047bd000011ef0000047bb000011ee8000047b9000011ee0000047b7000011ed8000047b5000011ed0000047b3000011ec8000047b1000011ec0000047af000011eb8000047ad000011eb0000047ab000011ea8000047a9000011ea0000047a7000011e98000047a5000011e90000047a3000011e88000047a1000012700000049bf0000126f8000049bd0000126f0000049bb0000126e8000049b90000126e0000049b70000126d8000049b50000126d0000049b30000126c8000049b1))
  (.nd (.lf
  0x45e822c8117808b1045d822c0117408af045c822b8117008ad045b822b0116c08ab045a822a8116808a90459822a0116408a7045882298116008a5045782290115c08a3055682a8815580aa1056002aac157e0aaa055f02aa4157a0aa8055e02a9c15760aa6055d02a9415720aa4055c02a8c156e0aa2055b02a8415800ab5055f82ad0157c0ab3055e82ac815780ab1055d82ac015740aaf055c82ab815700aad055b82ab0156c0aab055a82aa815680aa9055982aa015640aa7055882a9815600aa5055782a90155c0aa306568328819580ca10660032ac197e0caa065f032a4197a0ca8065e0329c19760ca6065d0329419720ca4065c0328c196e0ca2065b0328419800cb5065f832d0197c0cb3)
  (.lf 0)))

def shaSigTree2 : BTree :=
  .nd (.nd (.nd (.lf
  0xb80000002df000000b78000002dd000000b70000002db000000b68000002d9000000b60000002d7000000b58000002d5000000b50000002d3000000b48000002d1000000b40000002cf000000b38000002cd000000b30000002cb000000b28000002c9000000b20000002c7000000b18000002c5000000b10000002c3000000b08000002c1000000380000000df000000378000000dd000000370000000db000000368000000d9000000360000000d7000000358000000d5000000350000000d3000000348000000d1000000340000000cf000000338000000cd000000330000000cb000000328000000c9000000320000000c7000000318000000c5000000310000000c3000000308000000c1)
  (.lf
  0x92400000248f0000092380000248d0000092300000248b0000092280000248900000922000002487000009218000024850000092100000248300000920800002481000009a800000269f000009a780000269d000009a700000269b000009a6800002699000009a6000002697000009a5800002695000009a5000002693000009a4800002691000009a400000268f000009a380000268d000009a300000268b000009a2800002689000009a2000002687000009a1800002685000009a1000002683000009a080000268100000a2800000289f00000a2780000289d00000a2700000289b00000a2680000289900000a2600000289700000a2580000289500000a2500000289300000a24800002891))
  (.nd (.lf
  0x156d8ab5855b42ad5156c8ab5055b02ad3156b8ab4855ac2ad1156a8ab4055a82acf15698ab3855a42acd15688ab3055a02acb15678ab28559c2ac915668ab2055982ac716658b31859942cc516648b31059902cc316638b308598c2cc116700b31459be2cc4166f0b30c59ba2cc2166e0b30459c02cdb166f8b36859bc2cd9166e8b36059b82cd7166d8b35859b42cd5166c8b35059b02cd3166b8b34859ac2cd1166a8b34059a82ccf16698b33859a42ccd16688b33059a02ccb16678b328599c2cc916668b32059982cc717658bb185d942ec517648bb105d902ec317638bb085d8c2ec117700bb145dbe2ec4176f0bb0c5dba2ec2176e0bb045dc02edb176f8bb685dbc2ed9176e8bb605db82ed7)
  (.lf
  0x193c0000064ef0000193b8000064ed0000193b0000064eb0000193a8000064e90000193a0000064e7000019398000064e5000019390000064e3000019388000064e1000019c00000066ff000019bf8000066fd000019bf0000066fb000019be8000066f9000019be0000066f7000019bd8000066f5000019bd0000066f3000019bc8000066f1000019bc0000066ef000019bb8000066ed000019bb0000066eb000019ba8000066e9000019ba0000066e7000019b98000066e5000019b90000066e3000019b88000066e100001a400000068ff00001a3f8000068fd00001a3f0000068fb00001a3e8000068f900001a3e0000068f700001a3d8000068f500001a3d0000068f300001a3c8000068f1)))
  (.nd (.nd (.lf
  0x290a9484ca42852122a049501ca81054062a0395014a80c54042a029500ca80854022a0195004a84054022a0f95004a840541e2a0f95074a83c541c2a0e9506ca838541a2a0d95064a83454182a0c9505ca83054162a0b95054a82c54142a0a9504ca82854122b049581cac1056062b0395814ac0c56042b029580cac0856022b0195804ac4056022b0f95804ac40561e2b0f95874ac3c561c2b0e9586cac38561a2b0d95864ac3456182b0c9585cac3056162b0b95854ac2c56142b0a9584cac2856122c049601cb01058062c0396014b00c58042c029600cb00858022c0196004b04058022c0f96004b040581e2c0f96074b03c581c2c0e9606cb038581a2c0d96064b03458182c0c9605cb0305816)
  (.lf
  0x196c0000065af0000196b8000065ad0000196b0000065ab0000196a8000065a90000196a0000065a7000019698000065a5000019690000065a3000019688000065a1000019f00000067bf000019ef8000067bd000019ef0000067bb000019ee8000067b9000019ee0000067b7000019ed8000067b5000019ed0000067b3000019ec8000067b1000019ec0000067af000019eb8000067ad000019eb0000067ab000019ea8000067a9000019ea0000067a7000019e98000067a5000019e90000067a3000019e88000067a100001a700000069bf00001a6f8000069bd00001a6f0000069bb00001a6e8000069b900001a6e0000069b700001a6d8000069b500001a6d0000069b300001a6c8000069b1))
  (.nd (.lf
  0x145e8a2c8517828b1145d8a2c0517428af145c8a2b8517028ad145b8a2b0516c28ab145a8a2a8516828a914598a2a0516428a714588a298516028a514578a290515c28a315568aa8855582aa115600aaac557e2aaa155f0aaa4557a2aa8155e0aa9c55762aa6155d0aa9455722aa4155c0aa8c556e2aa2155b0aa8455802ab5155f8aad0557c2ab3155e8aac855782ab1155d8aac055742aaf155c8aab855702aad155b8aab0556c2aab155a8aaa855682aa915598aaa055642aa715588aa9855602aa515578aa90555c2aa316568b28859582ca116600b2ac597e2caa165f0b2a4597a2ca8165e0b29c59762ca6165d0b29459722ca4165c0b28c596e2ca2165b0b28459802cb5165f8b2d0597c2cb3)
  (.lf 0)))

def shaSigTree3 : BTree :=
  .nd (.nd (.nd (.lf
  0x16068b00858182c0116100b02c583e2c0a160f0b024583a2c08160e0b01c58362c06160d0b01458322c04160c0b00c582e2c02160b0b00458402c15160f8b050583c2c13160e8b04858382c11160d8b04058342c0f160c8b03858302c0d160b8b030582c2c0b160a8b02858282c0916098b0205c1e2e0417070b80c5c1a2e0217060b8045c402e0b170f8b8285c3c2e09170e8b8205c382e07170d8b8185c342e05170c8b8105c302e03170b8b8085c2c2e0117100b8545c3e2e14170f0b84c5c3a2e12170e0b8445c362e10170d0b83c5c322e0e170c0b8345c2e2e0c170b0b82c5c2a2e0a170a0b8245c262e0818078c010601c300318068c0086018300118100c02c603e300a180f0c024603a3008)
  (.lf
  0x111c00000446f0000111b80000446d0000111b00000446b0000111a8000044690000111a000004467000011198000044650000111900000446300001118800004461000011a000000467f0000119f80000467d0000119f00000467b0000119e8000046790000119e0000046770000119d8000046750000119d0000046730000119c8000046710000119c00000466f0000119b80000466d0000119b00000466b0000119a8000046690000119a0000046670000119980000466500001199000004663000011988000046610000122000000487f0000121f80000487d0000121f00000487b0000121e8000048790000121e0000048770000121d8000048750000121d0000048730000121c800004871))
  (.nd (.lf
  0x345e9a2c8d17868b1345d9a2c0d17468af345c9a2b8d17068ad345b9a2b0d16c68ab345a9a2a8d16868a934599a2a0d16468a734589a298d16068a534579a290d15c68a335569aa88d5586aa135601aaacd57e6aaa355f1aaa4d57a6aa8355e1aa9cd5766aa6355d1aa94d5726aa4355c1aa8cd56e6aa2355b1aa84d5806ab5355f9aad0d57c6ab3355e9aac8d5786ab1355d9aac0d5746aaf355c9aab8d5706aad355b9aab0d56c6aab355a9aaa8d5686aa935599aaa0d5646aa735589aa98d5606aa535579aa90d55c6aa336569b288d9586ca136601b2acd97e6caa365f1b2a4d97a6ca8365e1b29cd9766ca6365d1b294d9726ca4365c1b28cd96e6ca2365b1b284d9806cb5365f9b2d0d97c6cb3)
  (.lf
  0x93c0000024ef0000093b8000024ed0000093b0000024eb0000093a8000024e90000093a0000024e7000009398000024e5000009390000024e3000009388000024e1000009c00000026ff000009bf8000026fd000009bf0000026fb000009be8000026f9000009be0000026f7000009bd8000026f5000009bd0000026f3000009bc8000026f1000009bc0000026ef000009bb8000026ed000009bb0000026eb000009ba8000026e9000009ba0000026e7000009b98000026e5000009b90000026e3000009b88000026e100000a400000028ff00000a3f8000028fd00000a3f0000028fb00000a3e8000028f900000a3e0000028f700000a3d8000028f500000a3d0000028f300000a3c8000028f1)))
  (.nd (.nd (.lf
  0x356d9ab58d5b46ad5356c9ab50d5b06ad3356b9ab48d5ac6ad1356a9ab40d5a86acf35699ab38d5a46acd35689ab30d5a06acb35679ab28d59c6ac935669ab20d5986ac736659b318d9946cc536649b310d9906cc336639b308d98c6cc136701b314d9be6cc4366f1b30cd9ba6cc2366e1b304d9c06cdb366f9b368d9bc6cd9366e9b360d9b86cd7366d9b358d9b46cd5366c9b350d9b06cd3366b9b348d9ac6cd1366a9b340d9a86ccf36699b338d9a46ccd36689b330d9a06ccb36679b328d99c6cc936669b320d9986cc737659bb18dd946ec537649bb10dd906ec337639bb08dd8c6ec137701bb14ddbe6ec4376f1bb0cddba6ec2376e1bb04ddc06edb376f9bb68ddbc6ed9376e9bb60ddb86ed7)
  (.lf
  0x96c0000025af0000096b8000025ad0000096b0000025ab0000096a8000025a90000096a0000025a7000009698000025a5000009690000025a3000009688000025a1000009f00000027bf000009ef8000027bd000009ef0000027bb000009ee8000027b9000009ee0000027b7000009ed8000027b5000009ed0000027b3000009ec8000027b1000009ec0000027af000009eb8000027ad000009eb0000027ab000009ea8000027a9000009ea0000027a7000009e98000027a5000009e90000027a3000009e88000027a100000a700000029bf00000a6f8000029bd00000a6f0000029bb00000a6e8000029b900000a6e0000029b700000a6d8000029b500000a6d0000029b300000a6c8000029b1))
  (.nd (.lf
  0x192400000648f0000192380000648d0000192300000648b0000192280000648900001922000006487000019218000064850000192100000648300001920800006481000019a800000669f000019a780000669d000019a700000669b000019a6800006699000019a6000006697000019a5800006695000019a5000006693000019a4800006691000019a400000668f000019a380000668d000019a300000668b000019a2800006689000019a2000006687000019a1800006685000019a1000006683000019a080000668100001a2800000689f00001a2780000689d00001a2700000689b00001a2680000689900001a2600000689700001a2580000689500001a2500000689300001a24800006891)
  (.lf 0)))

def shaSigTree4 : BTree :=
  .nd (.nd (.nd (.lf
  0x308000000c1f00000307800000c1d00000307000000c1b00000306800000c1900000306000000c1700000305800000c1500000305000000c1300000304800000c1100000304000000c0f00000303800000c0d00000303000000c0b00000302800000c0900000302000000c0700000301800000c0500000301000000c0300000300800000c0100000388000000e1f00000387800000e1d00000387000000e1b00000386800000e1900000386000000e1700000385800000e1500000385000000e1300000384800000e1100000384000000e0f00000383800000e0d00000383000000e0b00000382800000e0900000382000000e0700000381800000e0500000381000000e0300000380800000e01)
  (.lf
  0xd2400000348f00000d2380000348d00000d2300000348b00000d2280000348900000d2200000348700000d2180000348500000d2100000348300000d2080000348100000da800000369f00000da780000369d00000da700000369b00000da680000369900000da600000369700000da580000369500000da500000369300000da480000369100000da400000368f00000da380000368d00000da300000368b00000da280000368900000da200000368700000da180000368500000da100000368300000da080000368100000e2800000389f00000e2780000389d00000e2700000389b00000e2680000389900000e2600000389700000e2580000389500000e2500000389300000e24800003891))
  (.nd (.lf
  0x1d6d8eb5875b43ad51d6c8eb5075b03ad31d6b8eb4875ac3ad11d6a8eb4075a83acf1d698eb3875a43acd1d688eb3075a03acb1d678eb28759c3ac91d668eb2075983ac71e658f31879943cc51e648f31079903cc31e638f308798c3cc11e700f31479be3cc41e6f0f30c79ba3cc21e6e0f30479c03cdb1e6f8f36879bc3cd91e6e8f36079b83cd71e6d8f35879b43cd51e6c8f35079b03cd31e6b8f34879ac3cd11e6a8f34079a83ccf1e698f33879a43ccd1e688f33079a03ccb1e678f328799c3cc91e668f32079983cc71f658fb187d943ec51f648fb107d903ec31f638fb087d8c3ec11f700fb147dbe3ec41f6f0fb0c7dba3ec21f6e0fb047dc03edb1f6f8fb687dbc3ed91f6e8fb607db83ed7)
  (.lf
  0x1d3c0000074ef00001d3b8000074ed00001d3b0000074eb00001d3a8000074e900001d3a0000074e700001d398000074e500001d390000074e300001d388000074e100001dc00000076ff00001dbf8000076fd00001dbf0000076fb00001dbe8000076f900001dbe0000076f700001dbd8000076f500001dbd0000076f300001dbc8000076f100001dbc0000076ef00001dbb8000076ed00001dbb0000076eb00001dba8000076e900001dba0000076e700001db98000076e500001db90000076e300001db88000076e100001e400000078ff00001e3f8000078fd00001e3f0000078fb00001e3e8000078f900001e3e0000078f700001e3d8000078f500001e3d0000078f300001e3c8000078f1)))
  (.nd (.nd (.lf
  0x350e9a86cd4386a1a350d9a864d4346a18350c9a85cd4306a16350b9a854d42c6a14350a9a84cd4286a1236049b01cd8106c0636039b014d80c6c0436029b00cd8086c0236019b004d8406c02360f9b004d8406c1e360f9b074d83c6c1c360e9b06cd8386c1a360d9b064d8346c18360c9b05cd8306c16360b9b054d82c6c14360a9b04cd8286c1237049b81cdc106e0637039b814dc0c6e0437029b80cdc086e0237019b804dc406e02370f9b804dc406e1e370f9b874dc3c6e1c370e9b86cdc386e1a370d9b864dc346e18370c9b85cdc306e16370b9b854dc2c6e14370a9b84cdc286e1238049c01ce010700638039c014e00c700438029c00ce008700238019c004e0407002380f9c004e040701e)
  (.lf
  0x1d6c0000075af00001d6b8000075ad00001d6b0000075ab00001d6a8000075a900001d6a0000075a700001d698000075a500001d690000075a300001d688000075a100001df00000077bf00001def8000077bd00001def0000077bb00001dee8000077b900001dee0000077b700001ded8000077b500001ded0000077b300001dec8000077b100001dec0000077af00001deb8000077ad00001deb0000077ab00001dea8000077a900001dea0000077a700001de98000077a500001de90000077a300001de88000077a100001e700000079bf00001e6f8000079bd00001e6f0000079bb00001e6e8000079b900001e6e0000079b700001e6d8000079b500001e6d0000079b300001e6c8000079b1))
  (.nd (.lf
  0x1c5e8e2c8717838b11c5d8e2c0717438af1c5c8e2b8717038ad1c5b8e2b0716c38ab1c5a8e2a8716838a91c598e2a0716438a71c588e298716038a51c578e290715c38a31d568ea8875583aa11d600eaac757e3aaa1d5f0eaa4757a3aa81d5e0ea9c75763aa61d5d0ea9475723aa41d5c0ea8c756e3aa21d5b0ea8475803ab51d5f8ead0757c3ab31d5e8eac875783ab11d5d8eac075743aaf1d5c8eab875703aad1d5b8eab0756c3aab1d5a8eaa875683aa91d598eaa075643aa71d588ea9875603aa51d578ea90755c3aa31e568f28879583ca11e600f2ac797e3caa1e5f0f2a4797a3ca81e5e0f29c79763ca61e5d0f29479723ca41e5c0f28c796e3ca21e5b0f28479803cb51e5f8f2d0797c3cb3)
  (.lf 0)))

def shaSigTree5 : BTree :=
  .nd (.nd (.nd (.lf
  0x1e0a8f02878283c091e098f0207c1e3e041f070f80c7c1a3e021f060f8047c403e0b1f0f8f8287c3c3e091f0e8f8207c383e071f0d8f8187c343e051f0c8f8107c303e031f0b8f8087c2c3e011f100f8547c3e3e141f0f0f84c7c3a3e121f0e0f8447c363e101f0d0f83c7c323e0e1f0c0f8347c2e3e0c1f0b0f82c7c2a3e0a1f0a0f8247c263e08200790010801c40032006900088018400120101002c803e400a200f10024803a4008200e1001c80364006200d1001480324004200c1000c802e4002200b1000480404015200f90050803c4013200e9004880384011200d900408034400f200c900388030400d200b90030802c400b200a9002880284009200990020841e420421071080c841a4202)
  (.lf
  0x151c00000546f0000151b80000546d0000151b00000546b0000151a8000054690000151a000005467000015198000054650000151900000546300001518800005461000015a000000567f0000159f80000567d0000159f00000567b0000159e8000056790000159e0000056770000159d8000056750000159d0000056730000159c8000056710000159c00000566f0000159b80000566d0000159b00000566b0000159a8000056690000159a0000056670000159980000566500001599000005663000015988000056610000162000000587f0000161f80000587d0000161f00000587b0000161e8000058790000161e0000058770000161d8000058750000161d0000058730000161c800005871))
  (.nd (.lf
  0x3c5e9e2c8f17878b13c5d9e2c0f17478af3c5c9e2b8f17078ad3c5b9e2b0f16c78ab3c5a9e2a8f16878a93c599e2a0f16478a73c589e298f16078a53c579e290f15c78a33d569ea88f5587aa13d601eaacf57e7aaa3d5f1eaa4f57a7aa83d5e1ea9cf5767aa63d5d1ea94f5727aa43d5c1ea8cf56e7aa23d5b1ea84f5807ab53d5f9ead0f57c7ab33d5e9eac8f5787ab13d5d9eac0f5747aaf3d5c9eab8f5707aad3d5b9eab0f56c7aab3d5a9eaa8f5687aa93d599eaa0f5647aa73d589ea98f5607aa53d579ea90f55c7aa33e569f288f9587ca13e601f2acf97e7caa3e5f1f2a4f97a7ca83e5e1f29cf9767ca63e5d1f294f9727ca43e5c1f28cf96e7ca23e5b1f284f9807cb53e5f9f2d0f97c7cb3)
  (.lf
  0xd3c0000034ef00000d3b8000034ed00000d3b0000034eb00000d3a8000034e900000d3a0000034e700000d398000034e500000d390000034e300000d388000034e100000dc00000036ff00000dbf8000036fd00000dbf0000036fb00000dbe8000036f900000dbe0000036f700000dbd8000036f500000dbd0000036f300000dbc8000036f100000dbc0000036ef00000dbb8000036ed00000dbb0000036eb00000dba8000036e900000dba0000036e700000db98000036e500000db90000036e300000db88000036e100000e400000038ff00000e3f8000038fd00000e3f0000038fb00000e3e8000038f900000e3e0000038f700000e3d8000038f500000e3d0000038f300000e3c8000038f1)))
  (.nd (.nd (.lf
  0x3d6d9eb58f5b47ad53d6c9eb50f5b07ad33d6b9eb48f5ac7ad13d6a9eb40f5a87acf3d699eb38f5a47acd3d689eb30f5a07acb3d679eb28f59c7ac93d669eb20f5987ac73e659f318f9947cc53e649f310f9907cc33e639f308f98c7cc13e701f314f9be7cc43e6f1f30cf9ba7cc23e6e1f304f9c07cdb3e6f9f368f9bc7cd93e6e9f360f9b87cd73e6d9f358f9b47cd53e6c9f350f9b07cd33e6b9f348f9ac7cd13e6a9f340f9a87ccf3e699f338f9a47ccd3e689f330f9a07ccb3e679f328f99c7cc93e669f320f9987cc73f659fb18fd947ec53f649fb10fd907ec33f639fb08fd8c7ec13f701fb14fdbe7ec43f6f1fb0cfdba7ec23f6e1fb04fdc07edb3f6f9fb68fdbc7ed93f6e9fb60fdb87ed7)
  (.lf
  0xd6c0000035af00000d6b8000035ad00000d6b0000035ab00000d6a8000035a900000d6a0000035a700000d698000035a500000d690000035a300000d688000035a100000df00000037bf00000def8000037bd00000def0000037bb00000dee8000037b900000dee0000037b700000ded8000037b500000ded0000037b300000dec8000037b100000dec0000037af00000deb8000037ad00000deb0000037ab00000dea8000037a900000dea0000037a700000de98000037a500000de90000037a300000de88000037a100000e700000039bf00000e6f8000039bd00000e6f0000039bb00000e6e8000039b900000e6e0000039b700000e6d8000039b500000e6d0000039b300000e6c8000039b1))
  (.nd (.lf
  0x1d2400000748f00001d2380000748d00001d2300000748b00001d2280000748900001d2200000748700001d2180000748500001d2100000748300001d2080000748100001da800000769f00001da780000769d00001da700000769b00001da680000769900001da600000769700001da580000769500001da500000769300001da480000769100001da400000768f00001da380000768d00001da300000768b00001da280000768900001da200000768700001da180000768500001da100000768300001da080000768100001e2800000789f00001e2780000789d00001e2700000789b00001e2680000789900001e2600000789700001e2580000789500001e2500000789300001e24800007891)
  (.lf 0)))

def shaSigTree6 : BTree :=
  .nd (.nd (.nd (.lf
  0x300f98050c03c6013300e98048c0386011300d98040c034600f300c98038c030600d300b98030c02c600b300a98028c028600930099802038121c070e0407018380e1c050e0307010380a1c030e020700838061c010e1007008383e1c010e1007078383e1c1d0e0f07070383a1c1b0e0e0706838361c190e0d0706038321c170e0c07058382e1c150e0b07050382a1c130e0a07048041e020401070080c041a02020106008040440020b010f80828043c0209010e8082004380207010d8081804340205010c8081004300203010b80808042c0201011000854043e0214010f0084c043a0212010e0084404360210010d0083c0432020e010c00834042e020c010b0082c042a020a010a0082404260208)
  (.lf
  0x1d1c00000746f00001d1b80000746d00001d1b00000746b00001d1a80000746900001d1a00000746700001d1980000746500001d1900000746300001d1880000746100001da000000767f00001d9f80000767d00001d9f00000767b00001d9e80000767900001d9e00000767700001d9d80000767500001d9d00000767300001d9c80000767100001d9c00000766f00001d9b80000766d00001d9b00000766b00001d9a80000766900001d9a00000766700001d9980000766500001d9900000766300001d9880000766100001e2000000787f00001e1f80000787d00001e1f00000787b00001e1e80000787900001e1e00000787700001e1d80000787500001e1d00000787300001e1c800007871))
  (.nd (.lf
  0xd6d86b5835b41ad50d6c86b5035b01ad30d6b86b4835ac1ad10d6a86b4035a81acf0d6986b3835a41acd0d6886b3035a01acb0d6786b28359c1ac90d6686b2035981ac70e658731839941cc50e648731039901cc30e6387308398c1cc10e700731439be1cc40e6f0730c39ba1cc20e6e0730439c01cdb0e6f8736839bc1cd90e6e8736039b81cd70e6d8735839b41cd50e6c8735039b01cd30e6b8734839ac1cd10e6a8734039a81ccf0e698733839a41ccd0e688733039a01ccb0e6787328399c1cc90e668732039981cc70f6587b183d941ec50f6487b103d901ec30f6387b083d8c1ec10f7007b143dbe1ec40f6f07b0c3dba1ec20f6e07b043dc01edb0f6f87b683dbc1ed90f6e87b603db81ed7)
  (.lf
  0x153c0000054ef0000153b8000054ed0000153b0000054eb0000153a8000054e90000153a0000054e7000015398000054e5000015390000054e3000015388000054e1000015c00000056ff000015bf8000056fd000015bf0000056fb000015be8000056f9000015be0000056f7000015bd8000056f5000015bd0000056f3000015bc8000056f1000015bc0000056ef000015bb8000056ed000015bb0000056eb000015ba8000056e9000015ba0000056e7000015b98000056e5000015b90000056e3000015b88000056e1000016400000058ff0000163f8000058fd0000163f0000058fb0000163e8000058f90000163e0000058f70000163d8000058f50000163d0000058f30000163c8000058f1)))
  (.nd (.nd (.lf
  0x1e018f00478403c021e0f8f00478403c1e1e0f8f074783c3c1c1e0e8f06c78383c1a1e0d8f06478343c181e0c8f05c78303c161e0b8f054782c3c141e0a8f04c78283c121f048f81c7c103e061f038f8147c0c3e041f028f80c7c083e021f018f8047c403e021f0f8f8047c403e1e1f0f8f8747c3c3e1c1f0e8f86c7c383e1a1f0d8f8647c343e181f0c8f85c7c303e161f0b8f8547c2c3e141f0a8f84c7c283e1220049001c80104006200390014800c400420029000c8008400220019000480404002200f900048040401e200f90074803c401c200e9006c8038401a200d9006480344018200c9005c80304016200b90054802c4014200a9004c8028401221049081c84104206210390814840c4204)
  (.lf
  0x156c0000055af0000156b8000055ad0000156b0000055ab0000156a8000055a90000156a0000055a7000015698000055a5000015690000055a3000015688000055a1000015f00000057bf000015ef8000057bd000015ef0000057bb000015ee8000057b9000015ee0000057b7000015ed8000057b5000015ed0000057b3000015ec8000057b1000015ec0000057af000015eb8000057ad000015eb0000057ab000015ea8000057a9000015ea0000057a7000015e98000057a5000015e90000057a3000015e88000057a1000016700000059bf0000166f8000059bd0000166f0000059bb0000166e8000059b90000166e0000059b70000166d8000059b50000166d0000059b30000166c8000059b1))
  (.nd (.lf
  0xc5e862c8317818b10c5d862c0317418af0c5c862b8317018ad0c5b862b0316c18ab0c5a862a8316818a90c59862a0316418a70c5886298316018a50c5786290315c18a30d5686a8835581aa10d6006aac357e1aaa0d5f06aa4357a1aa80d5e06a9c35761aa60d5d06a9435721aa40d5c06a8c356e1aa20d5b06a8435801ab50d5f86ad0357c1ab30d5e86ac835781ab10d5d86ac035741aaf0d5c86ab835701aad0d5b86ab0356c1aab0d5a86aa835681aa90d5986aa035641aa70d5886a9835601aa50d5786a90355c1aa30e568728839581ca10e60072ac397e1caa0e5f072a4397a1ca80e5e0729c39761ca60e5d0729439721ca40e5c0728c396e1ca20e5b0728439801cb50e5f872d0397c1cb3)
  (.lf 0)))

def shaSigTree7 : BTree :=
  .nd (.nd (.nd (.lf
  0xd0e8682034381a070d0d8681834341a050d0c8681034301a030d0b86808342c1a010d1006854343e1a140d0f0684c343a1a120d0e0684434361a100d0d0683c34321a0e0d0c06834342e1a0c0d0b0682c342a1a0a0d0a0682434261a080e0787010381c1c030e068700838181c010e100702c383e1c0a0e0f07024383a1c080e0e0701c38361c060e0d0701438321c040e0c0700c382e1c020e0b0700438401c150e0f87050383c1c130e0e8704838381c110e0d8704038341c0f0e0c8703838301c0d0e0b87030382c1c0b0e0a8702838281c090e09870203c1e1e040f070780c3c1a1e020f06078043c401e0b0f0f878283c3c1e090f0e878203c381e070f0d878183c341e050f0c878103c301e03)
  (.lf
  0xd1c00000346f00000d1b80000346d00000d1b00000346b00000d1a80000346900000d1a00000346700000d1980000346500000d1900000346300000d1880000346100000da000000367f00000d9f80000367d00000d9f00000367b00000d9e80000367900000d9e00000367700000d9d80000367500000d9d00000367300000d9c80000367100000d9c00000366f00000d9b80000366d00000d9b00000366b00000d9a80000366900000d9a00000366700000d9980000366500000d9900000366300000d9880000366100000e2000000387f00000e1f80000387d00000e1f00000387b00000e1e80000387900000e1e00000387700000e1d80000387500000e1d00000387300000e1c800003871))
  (.nd (.lf
  0x2c5e962c8b17858b12c5d962c0b17458af2c5c962b8b17058ad2c5b962b0b16c58ab2c5a962a8b16858a92c59962a0b16458a72c5896298b16058a52c5796290b15c58a32d5696a88b5585aa12d6016aacb57e5aaa2d5f16aa4b57a5aa82d5e16a9cb5765aa62d5d16a94b5725aa42d5c16a8cb56e5aa22d5b16a84b5805ab52d5f96ad0b57c5ab32d5e96ac8b5785ab12d5d96ac0b5745aaf2d5c96ab8b5705aad2d5b96ab0b56c5aab2d5a96aa8b5685aa92d5996aa0b5645aa72d5896a98b5605aa52d5796a90b55c5aa32e5697288b9585ca12e60172acb97e5caa2e5f172a4b97a5ca82e5e1729cb9765ca62e5d17294b9725ca42e5c1728cb96e5ca22e5b17284b9805cb52e5f972d0b97c5cb3)
  (.lf
  0x53c0000014ef0000053b8000014ed0000053b0000014eb0000053a8000014e90000053a0000014e7000005398000014e5000005390000014e3000005388000014e1000005c00000016ff000005bf8000016fd000005bf0000016fb000005be8000016f9000005be0000016f7000005bd8000016f5000005bd0000016f3000005bc8000016f1000005bc0000016ef000005bb8000016ed000005bb0000016eb000005ba8000016e9000005ba0000016e7000005b98000016e5000005b90000016e3000005b88000016e1000006400000018ff0000063f8000018fd0000063f0000018fb0000063e8000018f90000063e0000018f70000063d8000018f50000063d0000018f30000063c8000018f1)))
  (.nd (.nd (.lf
  0x2d6d96b58b5b45ad52d6c96b50b5b05ad32d6b96b48b5ac5ad12d6a96b40b5a85acf2d6996b38b5a45acd2d6896b30b5a05acb2d6796b28b59c5ac92d6696b20b5985ac72e6597318b9945cc52e6497310b9905cc32e6397308b98c5cc12e7017314b9be5cc42e6f1730cb9ba5cc22e6e17304b9c05cdb2e6f97368b9bc5cd92e6e97360b9b85cd72e6d97358b9b45cd52e6c97350b9b05cd32e6b97348b9ac5cd12e6a97340b9a85ccf2e6997338b9a45ccd2e6897330b9a05ccb2e6797328b99c5cc92e6697320b9985cc72f6597b18bd945ec52f6497b10bd905ec32f6397b08bd8c5ec12f7017b14bdbe5ec42f6f17b0cbdba5ec22f6e17b04bdc05edb2f6f97b68bdbc5ed92f6e97b60bdb85ed7)
  (.lf
  0x56c0000015af0000056b8000015ad0000056b0000015ab0000056a8000015a90000056a0000015a7000005698000015a5000005690000015a3000005688000015a1000005f00000017bf000005ef8000017bd000005ef0000017bb000005ee8000017b9000005ee0000017b7000005ed8000017b5000005ed0000017b3000005ec8000017b1000005ec0000017af000005eb8000017ad000005eb0000017ab000005ea8000017a9000005ea0000017a7000005e98000017a5000005e90000017a3000005e88000017a1000006700000019bf0000066f8000019bd0000066f0000019bb0000066e8000019b90000066e0000019b70000066d8000019b50000066d0000019b30000066c8000019b1))
  (.nd (.lf
  0x152400000548f0000152380000548d0000152300000548b0000152280000548900001522000005487000015218000054850000152100000548300001520800005481000015a800000569f000015a780000569d000015a700000569b000015a6800005699000015a6000005697000015a5800005695000015a5000005693000015a4800005691000015a400000568f000015a380000568d000015a300000568b000015a2800005689000015a2000005687000015a1800005685000015a1000005683000015a08000056810000162800000589f0000162780000589d0000162700000589b0000162680000589900001626000005897000016258000058950000162500000589300001624800005891)
  (.lf 0)))

def shaSigTree8 : BTree :=
  .nd (.nd (.nd (.lf
  0x50800000141f0000050780000141d0000050700000141b00000506800001419000005060000014170000050580000141500000505000001413000005048000014110000050400000140f0000050380000140d0000050300000140b00000502800001409000005020000014070000050180000140500000501000001403000005008000014010000058800000161f0000058780000161d0000058700000161b00000586800001619000005860000016170000058580000161500000585000001613000005848000016110000058400000160f0000058380000160d0000058300000160b0000058280000160900000582000001607000005818000016050000058100000160300000580800001601)
  (.lf
  0xf24000003c8f00000f23800003c8d00000f23000003c8b00000f22800003c8900000f22000003c8700000f21800003c8500000f21000003c8300000f20800003c8100000fa8000003e9f00000fa7800003e9d00000fa7000003e9b00000fa6800003e9900000fa6000003e9700000fa5800003e9500000fa5000003e9300000fa4800003e9100000fa4000003e8f00000fa3800003e8d00000fa3000003e8b00000fa2800003e8900000fa2000003e8700000fa1800003e8500000fa1000003e8300000fa0800003e810000102800000409f0000102780000409d0000102700000409b0000102680000409900001026000004097000010258000040950000102500000409300001024800004091))
  (.nd (.lf
  0x216d90b5885b442d5216c90b5085b042d3216b90b4885ac42d1216a90b4085a842cf216990b3885a442cd216890b3085a042cb216790b28859c42c9216690b20859842c7226591318899444c5226491310899044c3226391308898c44c122701131489be44c4226f1130c89ba44c2226e1130489c044db226f9136889bc44d9226e9136089b844d7226d9135889b444d5226c9135089b044d3226b9134889ac44d1226a9134089a844cf22699133889a444cd22689133089a044cb226791328899c44c9226691320899844c7236591b188d9446c5236491b108d9046c3236391b088d8c46c1237011b148dbe46c4236f11b0c8dba46c2236e11b048dc046db236f91b688dbc46d9236e91b608db846d7)
  (.lf
  0x1f3c000007cef00001f3b800007ced00001f3b000007ceb00001f3a800007ce900001f3a000007ce700001f39800007ce500001f39000007ce300001f38800007ce100001fc0000007eff00001fbf800007efd00001fbf000007efb00001fbe800007ef900001fbe000007ef700001fbd800007ef500001fbd000007ef300001fbc800007ef100001fbc000007eef00001fbb800007eed00001fbb000007eeb00001fba800007ee900001fba000007ee700001fb9800007ee500001fb9000007ee300001fb8800007ee1000000700000001bf0000006f8000001bd0000006f0000001bb0000006e8000001b90000006e0000001b70000006d8000001b50000006d0000001b30000006c8000001b1)))
  (.nd (.nd (.lf
  0x3b0f9d804ec40761e3b0f9d874ec3c761c3b0e9d86cec38761a3b0d9d864ec3476183b0c9d85cec3076163b0b9d854ec2c76143b0a9d84cec2876123c049e01cf01078063c039e014f00c78043c029e00cf00878023c019e004f04078023c0f9e004f040781e3c0f9e074f03c781c3c0e9e06cf038781a3c0d9e064f03478183c0c9e05cf03078163c0b9e054f02c78143c0a9e04cf02878123d049e81cf4107a063d039e814f40c7a043d029e80cf4087a023d019e804f4407a023d0f9e804f4407a1e3d0f9e874f43c7a1c3d0e9e86cf4387a1a3d0d9e864f4347a183d0c9e85cf4307a163d0b9e854f42c7a143d0a9e84cf4287a12020781010081c04030206810080818040102100102c083e040a)
  (.lf
  0x1f6c000007daf00001f6b800007dad00001f6b000007dab00001f6a800007da900001f6a000007da700001f69800007da500001f69000007da300001f68800007da100001ff0000007fbf00001fef800007fbd00001fef000007fbb00001fee800007fb900001fee000007fb700001fed800007fb500001fed000007fb300001fec800007fb100001fec000007faf00001feb800007fad00001feb000007fab00001fea800007fa900001fea000007fa700001fe9800007fa500001fe9000007fa300001fe8800007fa10000082000000207f0000081f80000207d0000081f00000207b0000081e8000020790000081e0000020770000081d8000020750000081d0000020730000081c800002071))
  (.nd (.lf
  0x205e902c8817840b1205d902c0817440af205c902b8817040ad205b902b0816c40ab205a902a8816840a92059902a0816440a7205890298816040a5205790290815c40a3215690a88855842a1216010aac857e42aa215f10aa4857a42a8215e10a9c857642a6215d10a94857242a4215c10a8c856e42a2215b10a84858042b5215f90ad0857c42b3215e90ac8857842b1215d90ac0857442af215c90ab8857042ad215b90ab0856c42ab215a90aa8856842a9215990aa0856442a7215890a98856042a5215790a90855c42a3225691288895844a12260112ac897e44aa225f112a4897a44a8225e1129c897644a6225d11294897244a4225c1128c896e44a2225b11284898044b5225f912d0897c44b3)
  (.lf 0x400000000ff0000003f8000000fd0000003f0000000fb0000003e8000000f90000003e0000000f70000003d8000000f50000003d0000000f30000003c8000000f1)))

def shaSigTree9 : BTree :=
  .nd (.nd (.nd (.lf
  0x230d918188c344605230c918108c304603230b918088c2c46012310118548c3e4614230f1184c8c3a4612230e118448c364610230d1183c8c32460e230c118348c2e460c230b1182c8c2a460a230a118248c264608240792010901c48032406920089018480124101202c903e480a240f12024903a4808240e1201c90364806240d1201490324804240c1200c902e4802240b1200490404815240f92050903c4813240e9204890384811240d920409034480f240c920389030480d240b92030902c480b240a9202890284809240992020941e4a0425071280c941a4a0225061280494404a0b250f92828943c4a09250e9282094384a07250d9281894344a05250c9281094304a03250b92808942c4a01)
  (.lf
  0x171c000005c6f0000171b800005c6d0000171b000005c6b0000171a800005c690000171a000005c6700001719800005c6500001719000005c6300001718800005c61000017a0000005e7f0000179f800005e7d0000179f000005e7b0000179e800005e790000179e000005e770000179d800005e750000179d000005e730000179c800005e710000179c000005e6f0000179b800005e6d0000179b000005e6b0000179a800005e690000179a000005e6700001799800005e6500001799000005e6300001798800005e610000182000000607f0000181f80000607d0000181f00000607b0000181e8000060790000181e0000060770000181d8000060750000181d0000060730000181c800006071))
  (.nd (.lf
  0x405ea02c9017880b1405da02c1017480af405ca02b9017080ad405ba02b1016c80ab405aa02a9016880a94059a02a1016480a74058a0299016080a54057a0291015c80a34156a0a89055882a1416020aad057e82aa415f20aa5057a82a8415e20a9d057682a6415d20a95057282a4415c20a8d056e82a2415b20a85058082b5415fa0ad1057c82b3415ea0ac9057882b1415da0ac1057482af415ca0ab9057082ad415ba0ab1056c82ab415aa0aa9056882a94159a0aa1056482a74158a0a99056082a54157a0a91055c82a34256a1289095884a14260212ad097e84aa425f212a5097a84a8425e2129d097684a6425d21295097284a4425c2128d096e84a2425b21285098084b5425fa12d1097c84b3)
  (.lf
  0xf3c000003cef00000f3b800003ced00000f3b000003ceb00000f3a800003ce900000f3a000003ce700000f39800003ce500000f39000003ce300000f38800003ce100000fc0000003eff00000fbf800003efd00000fbf000003efb00000fbe800003ef900000fbe000003ef700000fbd800003ef500000fbd000003ef300000fbc800003ef100000fbc000003eef00000fbb800003eed00000fbb000003eeb00000fba800003ee900000fba000003ee700000fb9800003ee500000fb9000003ee300000fb8800003ee1000010400000040ff0000103f8000040fd0000103f0000040fb0000103e8000040f90000103e0000040f70000103d8000040f50000103d0000040f30000103c8000040f1)))
  (.nd (.nd (.lf
  0x416da0b5905b482d5416ca0b5105b082d3416ba0b4905ac82d1416aa0b4105a882cf4169a0b3905a482cd4168a0b3105a082cb4167a0b29059c82c94166a0b21059882c74265a1319099484c54264a1311099084c34263a1309098c84c142702131509be84c4426f2130d09ba84c2426e2130509c084db426fa136909bc84d9426ea136109b884d7426da135909b484d5426ca135109b084d3426ba134909ac84d1426aa134109a884cf4269a133909a484cd4268a133109a084cb4267a1329099c84c94266a1321099884c70f048781c3c101e060f03878143c0c1e040f028780c3c081e020f01878043c401e020f0f878043c401e1e0f0f878743c3c1e1c0f0e8786c3c381e1a0f0d878643c341e18)
  (.lf
  0xf6c000003daf00000f6b800003dad00000f6b000003dab00000f6a800003da900000f6a000003da700000f69800003da500000f69000003da300000f68800003da100000ff0000003fbf00000fef800003fbd00000fef000003fbb00000fee800003fb900000fee000003fb700000fed800003fb500000fed000003fb300000fec800003fb100000fec000003faf00000feb800003fad00000feb000003fab00000fea800003fa900000fea000003fa700000fe9800003fa500000fe9000003fa300000fe8800003fa1000010700000041bf0000106f8000041bd0000106f0000041bb0000106e8000041b90000106e0000041b70000106d8000041b50000106d0000041b30000106c8000041b1))
  (.nd (.lf
  0x1f24000007c8f00001f23800007c8d00001f23000007c8b00001f22800007c8900001f22000007c8700001f21800007c8500001f21000007c8300001f20800007c8100001fa8000007e9f00001fa7800007e9d00001fa7000007e9b00001fa6800007e9900001fa6000007e9700001fa5800007e9500001fa5000007e9300001fa4800007e9100001fa4000007e8f00001fa3800007e8d00001fa3000007e8b00001fa2800007e8900001fa2000007e8700001fa1800007e8500001fa1000007e8300001fa0800007e81036581b180d9406c5036481b100d9006c3036381b080d8c06c1037001b140dbe06c4036f01b0c0dba06c2036e01b040dc006db036f81b680dbc06d9036e81b600db806d7)
  (.lf 0)))

def shaSigTree10 : BTree :=
  .nd (.nd (.nd (.lf
  0xb00000002bf000000af8000002bd000000af0000002bb000000ae8000002b9000000ae0000002b7000000ad8000002b5000000ad0000002b3000000ac8000002b1000000ac0000002af000000ab8000002ad000000ab0000002ab000000aa8000002a9000000aa0000002a7000000a98000002a5000000a90000002a3000000a88000002a1000000300000000bf0000002f8000000bd0000002f0000000bb0000002e8000000b90000002e0000000b70000002d8000000b50000002d0000000b30000002c8000000b10000002c0000000af0000002b8000000ad0000002b0000000ab0000002a8000000a90000002a0000000a7000000298000000a5000000290000000a3000000288000000a1)
  (.lf
  0x1f1c000007c6f00001f1b800007c6d00001f1b000007c6b00001f1a800007c6900001f1a000007c6700001f19800007c6500001f19000007c6300001f18800007c6100001fa0000007e7f00001f9f800007e7d00001f9f000007e7b00001f9e800007e7900001f9e000007e7700001f9d800007e7500001f9d000007e7300001f9c800007e7100001f9c000007e6f00001f9b800007e6d00001f9b000007e6b00001f9a800007e6900001f9a000007e6700001f99800007e6500001f99000007e6300001f98800007e610000082800000209f0000082780000209d0000082700000209b0000082680000209900000826000002097000008258000020950000082500000209300000824800002091))
  (.nd (.lf
  0x116d88b5845b422d5116c88b5045b022d3116b88b4845ac22d1116a88b4045a822cf116988b3845a422cd116888b3045a022cb116788b28459c22c9116688b20459822c7126589318499424c5126489310499024c3126389308498c24c112700931449be24c4126f0930c49ba24c2126e0930449c024db126f8936849bc24d9126e8936049b824d7126d8935849b424d5126c8935049b024d3126b8934849ac24d1126a8934049a824cf12698933849a424cd12688933049a024cb126789328499c24c9126689320499824c7136589b184d9426c5136489b104d9026c3136389b084d8c26c1137009b144dbe26c4136f09b0c4dba26c2136e09b044dc026db136f89b684dbc26d9136e89b604db826d7)
  (.lf
  0x173c000005cef0000173b800005ced0000173b000005ceb0000173a800005ce90000173a000005ce700001739800005ce500001739000005ce300001738800005ce1000017c0000005eff000017bf800005efd000017bf000005efb000017be800005ef9000017be000005ef7000017bd800005ef5000017bd000005ef3000017bc800005ef1000017bc000005eef000017bb800005eed000017bb000005eeb000017ba800005ee9000017ba000005ee7000017b9800005ee5000017b9000005ee3000017b8800005ee1000018400000060ff0000183f8000060fd0000183f0000060fb0000183e8000060f90000183e0000060f70000183d8000060f50000183d0000060f30000183c8000060f1)))
  (.nd (.nd (.lf
  0x240392014900c480424029200c9008480224019200490404802240f920049040481e240f92074903c481c240e9206c9038481a240d9206490344818240c9205c90304816240b92054902c4814240a9204c9028481225049281c94104a06250392814940c4a0425029280c94084a0225019280494404a02250f9280494404a1e250f92874943c4a1c250e9286c94384a1a250d9286494344a18250c9285c94304a16250b92854942c4a14250a9284c94284a1226049301c98104c06260393014980c4c0426029300c98084c0226019300498404c02260f9300498404c1e260f93074983c4c1c260e9306c98384c1a260d9306498344c18260c9305c98304c16260b93054982c4c14260a9304c98284c12)
  (.lf
  0x176c000005daf0000176b800005dad0000176b000005dab0000176a800005da90000176a000005da700001769800005da500001769000005da300001768800005da1000017f0000005fbf000017ef800005fbd000017ef000005fbb000017ee800005fb9000017ee000005fb7000017ed800005fb5000017ed000005fb3000017ec800005fb1000017ec000005faf000017eb800005fad000017eb000005fab000017ea800005fa9000017ea000005fa7000017e9800005fa5000017e9000005fa3000017e8800005fa1000018700000061bf0000186f8000061bd0000186f0000061bb0000186e8000061b90000186e0000061b70000186d8000061b50000186d0000061b30000186c8000061b1))
  (.nd (.lf
  0x105e882c8417820b1105d882c0417420af105c882b8417020ad105b882b0416c20ab105a882a8416820a91059882a0416420a7105888298416020a5105788290415c20a3115688a88455822a1116008aac457e22aa115f08aa4457a22a8115e08a9c457622a6115d08a94457222a4115c08a8c456e22a2115b08a84458022b5115f88ad0457c22b3115e88ac8457822b1115d88ac0457422af115c88ab8457022ad115b88ab0456c22ab115a88aa8456822a9115988aa0456422a7115888a98456022a5115788a90455c22a3125689288495824a11260092ac497e24aa125f092a4497a24a8125e0929c497624a6125d09294497224a4125c0928c496e24a2125b09284498024b5125f892d0497c24b3)
  (.lf 0)))

def shaSigTree11 : BTree :=
  .nd (.nd (.nd (.lf
  0x110e0884444362210110d0883c4432220e110c08834442e220c110b0882c442a220a110a0882444262208120789010481c24031206890084818240112100902c483e240a120f09024483a2408120e0901c48362406120d0901448322404120c0900c482e2402120b0900448402415120f89050483c2413120e8904848382411120d890404834240f120c890384830240d120b89030482c240b120a89028482824091209890204c1e260413070980c4c1a26021306098044c40260b130f898284c3c2609130e898204c382607130d898184c342605130c898104c302603130b898084c2c26011310098544c3e2614130f0984c4c3a2612130e098444c362610130d0983c4c32260e130c098344c2e260c)
  (.lf
  0xf1c000003c6f00000f1b800003c6d00000f1b000003c6b00000f1a800003c6900000f1a000003c6700000f19800003c6500000f19000003c6300000f18800003c6100000fa0000003e7f00000f9f800003e7d00000f9f000003e7b00000f9e800003e7900000f9e000003e7700000f9d800003e7500000f9d000003e7300000f9c800003e7100000f9c000003e6f00000f9b800003e6d00000f9b000003e6b00000f9a800003e6900000f9a000003e6700000f99800003e6500000f99000003e6300000f98800003e610000102000000407f0000101f80000407d0000101f00000407b0000101e8000040790000101e0000040770000101d8000040750000101d0000040730000101c800004071))
  (.nd (.lf
  0x305e982c8c17860b1305d982c0c17460af305c982b8c17060ad305b982b0c16c60ab305a982a8c16860a93059982a0c16460a7305898298c16060a5305798290c15c60a3315698a88c55862a1316018aacc57e62aa315f18aa4c57a62a8315e18a9cc57662a6315d18a94c57262a4315c18a8cc56e62a2315b18a84c58062b5315f98ad0c57c62b3315e98ac8c57862b1315d98ac0c57462af315c98ab8c57062ad315b98ab0c56c62ab315a98aa8c56862a9315998aa0c56462a7315898a98c56062a5315798a90c55c62a3325699288c95864a13260192acc97e64aa325f192a4c97a64a8325e1929cc97664a6325d19294c97264a4325c1928cc96e64a2325b19284c98064b5325f992d0c97c64b3)
  (.lf
  0x73c000001cef0000073b800001ced0000073b000001ceb0000073a800001ce90000073a000001ce700000739800001ce500000739000001ce300000738800001ce1000007c0000001eff000007bf800001efd000007bf000001efb000007be800001ef9000007be000001ef7000007bd800001ef5000007bd000001ef3000007bc800001ef1000007bc000001eef000007bb800001eed000007bb000001eeb000007ba800001ee9000007ba000001ee7000007b9800001ee5000007b9000001ee3000007b8800001ee1000008400000020ff0000083f8000020fd0000083f0000020fb0000083e8000020f90000083e0000020f70000083d8000020f50000083d0000020f30000083c8000020f1)))
  (.nd (.nd (.lf
  0x316d98b58c5b462d5316c98b50c5b062d3316b98b48c5ac62d1316a98b40c5a862cf316998b38c5a462cd316898b30c5a062cb316798b28c59c62c9316698b20c59862c7326599318c99464c5326499310c99064c3326399308c98c64c1327019314c9be64c4326f1930cc9ba64c2326e19304c9c064db326f99368c9bc64d9326e99360c9b864d7326d99358c9b464d5326c99350c9b064d3326b99348c9ac64d1326a99340c9a864cf326999338c9a464cd326899330c9a064cb326799328c99c64c9326699320c99864c7336599b18cd9466c5336499b10cd9066c3336399b08cd8c66c1337019b14cdbe66c4336f19b0ccdba66c2336e19b04cdc066db336f99b68cdbc66d9336e99b60cdb866d7)
  (.lf
  0x76c000001daf0000076b800001dad0000076b000001dab0000076a800001da90000076a000001da700000769800001da500000769000001da300000768800001da1000007f0000001fbf000007ef800001fbd000007ef000001fbb000007ee800001fb9000007ee000001fb7000007ed800001fb5000007ed000001fb3000007ec800001fb1000007ec000001faf000007eb800001fad000007eb000001fab000007ea800001fa9000007ea000001fa7000007e9800001fa5000007e9000001fa3000007e8800001fa1000008700000021bf0000086f8000021bd0000086f0000021bb0000086e8000021b90000086e0000021b70000086d8000021b50000086d0000021b30000086c8000021b1))
  (.nd (.lf
  0x1724000005c8f00001723800005c8d00001723000005c8b00001722800005c8900001722000005c8700001721800005c8500001721000005c8300001720800005c81000017a8000005e9f000017a7800005e9d000017a7000005e9b000017a6800005e99000017a6000005e97000017a5800005e95000017a5000005e93000017a4800005e91000017a4000005e8f000017a3800005e8d000017a3000005e8b000017a2800005e89000017a2000005e87000017a1800005e85000017a1000005e83000017a0800005e810000182800000609f0000182780000609d0000182700000609b0000182680000609900001826000006097000018258000060950000182500000609300001824800006091)
  (.lf 0)))

def shaSigTree12 : BTree :=
  .nd (.nd (.nd (.lf
  0x10800000041f0000010780000041d0000010700000041b00000106800000419000001060000004170000010580000041500000105000000413000001048000004110000010400000040f0000010380000040d0000010300000040b00000102800000409000001020000004070000010180000040500000101000000403000001008000004010000018800000061f0000018780000061d0000018700000061b00000186800000619000001860000006170000018580000061500000185000000613000001848000006110000018400000060f0000018380000060d0000018300000060b0000018280000060900000182000000607000001818000006050000018100000060300000180800000601)
  (.lf
  0xb24000002c8f00000b23800002c8d00000b23000002c8b00000b22800002c8900000b22000002c8700000b21800002c8500000b21000002c8300000b20800002c8100000ba8000002e9f00000ba7800002e9d00000ba7000002e9b00000ba6800002e9900000ba6000002e9700000ba5800002e9500000ba5000002e9300000ba4800002e9100000ba4000002e8f00000ba3800002e8d00000ba3000002e8b00000ba2800002e8900000ba2000002e8700000ba1800002e8500000ba1000002e8300000ba0800002e8100000c2800000309f00000c2780000309d00000c2700000309b00000c2680000309900000c2600000309700000c2580000309500000c2500000309300000c24800003091))
  (.nd (.lf
  0x196d8cb5865b432d5196c8cb5065b032d3196b8cb4865ac32d1196a8cb4065a832cf19698cb3865a432cd19688cb3065a032cb19678cb28659c32c919668cb20659832c71a658d318699434c51a648d310699034c31a638d308698c34c11a700d31469be34c41a6f0d30c69ba34c21a6e0d30469c034db1a6f8d36869bc34d91a6e8d36069b834d71a6d8d35869b434d51a6c8d35069b034d31a6b8d34869ac34d11a6a8d34069a834cf1a698d33869a434cd1a688d33069a034cb1a678d328699c34c91a668d320699834c71b658db186d9436c51b648db106d9036c31b638db086d8c36c11b700db146dbe36c41b6f0db0c6dba36c21b6e0db046dc036db1b6f8db686dbc36d91b6e8db606db836d7)
  (.lf
  0x1b3c000006cef00001b3b800006ced00001b3b000006ceb00001b3a800006ce900001b3a000006ce700001b39800006ce500001b39000006ce300001b38800006ce100001bc0000006eff00001bbf800006efd00001bbf000006efb00001bbe800006ef900001bbe000006ef700001bbd800006ef500001bbd000006ef300001bbc800006ef100001bbc000006eef00001bbb800006eed00001bbb000006eeb00001bba800006ee900001bba000006ee700001bb9800006ee500001bb9000006ee300001bb8800006ee100001c400000070ff00001c3f8000070fd00001c3f0000070fb00001c3e8000070f900001c3e0000070f700001c3d8000070f500001c3d0000070f300001c3c8000070f1)))
  (.nd (.nd (.lf
  0x2f0c9785cbc305e162f0b97854bc2c5e142f0a9784cbc285e1230049801cc0106006300398014c00c600430029800cc0086002300198004c0406002300f98004c040601e300f98074c03c601c300e9806cc038601a300d98064c0346018300c9805cc0306016300b98054c02c6014300a9804cc028601231049881cc4106206310398814c40c620431029880cc4086202310198804c4406202310f98804c440621e310f98874c43c621c310e9886cc438621a310d98864c4346218310c9885cc4306216310b98854c42c6214310a9884cc428621232049901cc8106406320399014c80c640432029900cc8086402320199004c8406402320f99004c840641e320f99074c83c641c320e9906cc838641a)
  (.lf
  0x1b6c000006daf00001b6b800006dad00001b6b000006dab00001b6a800006da900001b6a000006da700001b69800006da500001b69000006da300001b68800006da100001bf0000006fbf00001bef800006fbd00001bef000006fbb00001bee800006fb900001bee000006fb700001bed800006fb500001bed000006fb300001bec800006fb100001bec000006faf00001beb800006fad00001beb000006fab00001bea800006fa900001bea000006fa700001be9800006fa500001be9000006fa300001be8800006fa100001c700000071bf00001c6f8000071bd00001c6f0000071bb00001c6e8000071b900001c6e0000071b700001c6d8000071b500001c6d0000071b300001c6c8000071b1))
  (.nd (.lf
  0x185e8c2c8617830b1185d8c2c0617430af185c8c2b8617030ad185b8c2b0616c30ab185a8c2a8616830a918598c2a0616430a718588c298616030a518578c290615c30a319568ca88655832a119600caac657e32aa195f0caa4657a32a8195e0ca9c657632a6195d0ca94657232a4195c0ca8c656e32a2195b0ca84658032b5195f8cad0657c32b3195e8cac8657832b1195d8cac0657432af195c8cab8657032ad195b8cab0656c32ab195a8caa8656832a919598caa0656432a719588ca98656032a519578ca90655c32a31a568d288695834a11a600d2ac697e34aa1a5f0d2a4697a34a81a5e0d29c697634a61a5d0d294697234a41a5c0d28c696e34a21a5b0d284698034b51a5f8d2d0697c34b3)
  (.lf 0)))

def shaSigTree13 : BTree :=
  .nd (.nd (.nd (.lf
  0x1a0b0d004684034151a0f8d050683c34131a0e8d048683834111a0d8d0406834340f1a0c8d0386830340d1a0b8d030682c340b1a0a8d028682834091a098d0206c1e36041b070d80c6c1a36021b060d8046c40360b1b0f8d8286c3c36091b0e8d8206c3836071b0d8d8186c3436051b0c8d8106c3036031b0b8d8086c2c36011b100d8546c3e36141b0f0d84c6c3a36121b0e0d8446c3636101b0d0d83c6c32360e1b0c0d8346c2e360c1b0b0d82c6c2a360a1b0a0d8246c2636081c078e010701c38031c068e008701838011c100e02c703e380a1c0f0e024703a38081c0e0e01c703638061c0d0e014703238041c0c0e00c702e38021c0b0e004704038151c0f8e050703c38131c0e8e04870383811)
  (.lf
  0x131c000004c6f0000131b800004c6d0000131b000004c6b0000131a800004c690000131a000004c6700001319800004c6500001319000004c6300001318800004c61000013a0000004e7f0000139f800004e7d0000139f000004e7b0000139e800004e790000139e000004e770000139d800004e750000139d000004e730000139c800004e710000139c000004e6f0000139b800004e6d0000139b000004e6b0000139a800004e690000139a000004e6700001399800004e6500001399000004e6300001398800004e610000142000000507f0000141f80000507d0000141f00000507b0000141e8000050790000141e0000050770000141d8000050750000141d0000050730000141c800005071))
  (.nd (.lf
  0x385e9c2c8e17870b1385d9c2c0e17470af385c9c2b8e17070ad385b9c2b0e16c70ab385a9c2a8e16870a938599c2a0e16470a738589c298e16070a538579c290e15c70a339569ca88e55872a139601caace57e72aa395f1caa4e57a72a8395e1ca9ce57672a6395d1ca94e57272a4395c1ca8ce56e72a2395b1ca84e58072b5395f9cad0e57c72b3395e9cac8e57872b1395d9cac0e57472af395c9cab8e57072ad395b9cab0e56c72ab395a9caa8e56872a939599caa0e56472a739589ca98e56072a539579ca90e55c72a33a569d288e95874a13a601d2ace97e74aa3a5f1d2a4e97a74a83a5e1d29ce97674a63a5d1d294e97274a43a5c1d28ce96e74a23a5b1d284e98074b53a5f9d2d0e97c74b3)
  (.lf
  0xb3c000002cef00000b3b800002ced00000b3b000002ceb00000b3a800002ce900000b3a000002ce700000b39800002ce500000b39000002ce300000b38800002ce100000bc0000002eff00000bbf800002efd00000bbf000002efb00000bbe800002ef900000bbe000002ef700000bbd800002ef500000bbd000002ef300000bbc800002ef100000bbc000002eef00000bbb800002eed00000bbb000002eeb00000bba800002ee900000bba000002ee700000bb9800002ee500000bb9000002ee300000bb8800002ee100000c400000030ff00000c3f8000030fd00000c3f0000030fb00000c3e8000030f900000c3e0000030f700000c3d8000030f500000c3d0000030f300000c3c8000030f1)))
  (.nd (.nd (.lf
  0x396d9cb58e5b472d5396c9cb50e5b072d3396b9cb48e5ac72d1396a9cb40e5a872cf39699cb38e5a472cd39689cb30e5a072cb39679cb28e59c72c939669cb20e59872c73a659d318e99474c53a649d310e99074c33a639d308e98c74c13a701d314e9be74c43a6f1d30ce9ba74c23a6e1d304e9c074db3a6f9d368e9bc74d93a6e9d360e9b874d73a6d9d358e9b474d53a6c9d350e9b074d33a6b9d348e9ac74d13a6a9d340e9a874cf3a699d338e9a474cd3a689d330e9a074cb3a679d328e99c74c93a669d320e99874c73b659db18ed9476c53b649db10ed9076c33b639db08ed8c76c13b701db14edbe76c43b6f1db0cedba76c23b6e1db04edc076db3b6f9db68edbc76d93b6e9db60edb876d7)
  (.lf
  0xb6c000002daf00000b6b800002dad00000b6b000002dab00000b6a800002da900000b6a000002da700000b69800002da500000b69000002da300000b68800002da100000bf0000002fbf00000bef800002fbd00000bef000002fbb00000bee800002fb900000bee000002fb700000bed800002fb500000bed000002fb300000bec800002fb100000bec000002faf00000beb800002fad00000beb000002fab00000bea800002fa900000bea000002fa700000be9800002fa500000be9000002fa300000be8800002fa100000c700000031bf00000c6f8000031bd00000c6f0000031bb00000c6e8000031b900000c6e0000031b700000c6d8000031b500000c6d0000031b300000c6c8000031b1))
  (.nd (.lf
  0x1b24000006c8f00001b23800006c8d00001b23000006c8b00001b22800006c8900001b22000006c8700001b21800006c8500001b21000006c8300001b20800006c8100001ba8000006e9f00001ba7800006e9d00001ba7000006e9b00001ba6800006e9900001ba6000006e9700001ba5800006e9500001ba5000006e9300001ba4800006e9100001ba4000006e8f00001ba3800006e8d00001ba3000006e8b00001ba2800006e8900001ba2000006e8700001ba1800006e8500001ba1000006e8300001ba0800006e8100001c2800000709f00001c2780000709d00001c2700000709b00001c2680000709900001c2600000709700001c2580000709500001c2500000709300001c24800007091)
  (.lf 0)))

def shaSigTree14 : BTree :=
  .nd (.nd (.nd (.lf
  0x2c101602cb03e580a2c0f16024b03a58082c0e1601cb03658062c0d16014b03258042c0c1600cb02e58022c0b16004b04058152c0f96050b03c58132c0e96048b03858112c0d96040b034580f2c0c96038b030580d2c0b96030b02c580b2c0a96028b02858092c0996020b41e5a042d071680cb41a5a022d0616804b4405a0b2d0f96828b43c5a092d0e96820b4385a072d0d96818b4345a052d0c96810b4305a032d0b96808b42c5a012d1016854b43e5a142d0f1684cb43a5a122d0e16844b4365a102d0d1683cb4325a0e2d0c16834b42e5a0c2d0b1682cb42a5a0a2d0a16824b4265a082e0797010b81c5c032e0697008b8185c012e101702cb83e5c0a2e0f17024b83a5c082e0e1701cb8365c06)
  (.lf
  0x1b1c000006c6f00001b1b800006c6d00001b1b000006c6b00001b1a800006c6900001b1a000006c6700001b19800006c6500001b19000006c6300001b18800006c6100001ba0000006e7f00001b9f800006e7d00001b9f000006e7b00001b9e800006e7900001b9e000006e7700001b9d800006e7500001b9d000006e7300001b9c800006e7100001b9c000006e6f00001b9b800006e6d00001b9b000006e6b00001b9a800006e6900001b9a000006e6700001b99800006e6500001b99000006e6300001b98800006e6100001c2000000707f00001c1f80000707d00001c1f00000707b00001c1e80000707900001c1e00000707700001c1d80000707500001c1d00000707300001c1c800007071))
  (.nd (.lf
  0x96d84b5825b412d5096c84b5025b012d3096b84b4825ac12d1096a84b4025a812cf096984b3825a412cd096884b3025a012cb096784b28259c12c9096684b20259812c70a6585318299414c50a6485310299014c30a6385308298c14c10a700531429be14c40a6f0530c29ba14c20a6e0530429c014db0a6f8536829bc14d90a6e8536029b814d70a6d8535829b414d50a6c8535029b014d30a6b8534829ac14d10a6a8534029a814cf0a698533829a414cd0a688533029a014cb0a6785328299c14c90a6685320299814c70b6585b182d9416c50b6485b102d9016c30b6385b082d8c16c10b7005b142dbe16c40b6f05b0c2dba16c20b6e05b042dc016db0b6f85b682dbc16d90b6e85b602db816d7)
  (.lf
  0x133c000004cef0000133b800004ced0000133b000004ceb0000133a800004ce90000133a000004ce700001339800004ce500001339000004ce300001338800004ce1000013c0000004eff000013bf800004efd000013bf000004efb000013be800004ef9000013be000004ef7000013bd800004ef5000013bd000004ef3000013bc800004ef1000013bc000004eef000013bb800004eed000013bb000004eeb000013ba800004ee9000013ba000004ee7000013b9800004ee5000013b9000004ee3000013b8800004ee1000014400000050ff0000143f8000050fd0000143f0000050fb0000143e8000050f90000143e0000050f70000143d8000050f50000143d0000050f30000143c8000050f1)))
  (.nd (.nd (.lf
  0x180f8c074603c301c180e8c06c6038301a180d8c06460343018180c8c05c60303016180b8c054602c3014180a8c04c6028301219048c81c6410320619038c814640c320419028c80c6408320219018c80464403202190f8c8046440321e190f8c874643c321c190e8c86c6438321a190d8c86464343218190c8c85c64303216190b8c854642c3214190a8c84c642832121a048d01c681034061a038d014680c34041a028d00c680834021a018d004684034021a0f8d0046840341e1a0f8d074683c341c1a0e8d06c6838341a1a0d8d064683434181a0c8d05c683034161a0b8d054682c34141a0a8d04c682834121b048d81c6c1036061b038d8146c0c36041b028d80c6c0836021b018d8046c403602)
  (.lf
  0x136c000004daf0000136b800004dad0000136b000004dab0000136a800004da90000136a000004da700001369800004da500001369000004da300001368800004da1000013f0000004fbf000013ef800004fbd000013ef000004fbb000013ee800004fb9000013ee000004fb7000013ed800004fb5000013ed000004fb3000013ec800004fb1000013ec000004faf000013eb800004fad000013eb000004fab000013ea800004fa9000013ea000004fa7000013e9800004fa5000013e9000004fa3000013e8800004fa1000014700000051bf0000146f8000051bd0000146f0000051bb0000146e8000051b90000146e0000051b70000146d8000051b50000146d0000051b30000146c8000051b1))
  (.nd (.lf
  0x85e842c8217810b1085d842c0217410af085c842b8217010ad085b842b0216c10ab085a842a8216810a90859842a0216410a7085884298216010a5085784290215c10a3095684a88255812a1096004aac257e12aa095f04aa4257a12a8095e04a9c257612a6095d04a94257212a4095c04a8c256e12a2095b04a84258012b5095f84ad0257c12b3095e84ac8257812b1095d84ac0257412af095c84ab8257012ad095b84ab0256c12ab095a84aa8256812a9095984aa0256412a7095884a98256012a5095784a90255c12a30a5685288295814a10a60052ac297e14aa0a5f052a4297a14a80a5e0529c297614a60a5d05294297214a40a5c0528c296e14a20a5b05284298014b50a5f852d0297c14b3)
  (.lf 0)))

def shaSigTree15 : BTree :=
  .nd (.nd (.nd (.lf
  0x80b84030202c100b080a8402820281009080984020241e120409070480c241a12020906048042440120b090f84828243c1209090e8482024381207090d8481824341205090c8481024301203090b84808242c1201091004854243e1214090f0484c243a1212090e0484424361210090d0483c2432120e090c04834242e120c090b0482c242a120a090a04824242612080a0785010281c14030a0685008281814010a100502c283e140a0a0f05024283a14080a0e0501c283614060a0d05014283214040a0c0500c282e14020a0b05004284014150a0f85050283c14130a0e85048283814110a0d850402834140f0a0c850382830140d0a0b85030282c140b0a0a85028282814090a09850202c1e1604)
  (.lf
  0xb1c000002c6f00000b1b800002c6d00000b1b000002c6b00000b1a800002c6900000b1a000002c6700000b19800002c6500000b19000002c6300000b18800002c6100000ba0000002e7f00000b9f800002e7d00000b9f000002e7b00000b9e800002e7900000b9e000002e7700000b9d800002e7500000b9d000002e7300000b9c800002e7100000b9c000002e6f00000b9b800002e6d00000b9b000002e6b00000b9a800002e6900000b9a000002e6700000b99800002e6500000b99000002e6300000b98800002e6100000c2000000307f00000c1f80000307d00000c1f00000307b00000c1e80000307900000c1e00000307700000c1d80000307500000c1d00000307300000c1c800003071))
  (.nd (.lf
  0x285e942c8a17850b1285d942c0a17450af285c942b8a17050ad285b942b0a16c50ab285a942a8a16850a92859942a0a16450a7285894298a16050a5285794290a15c50a3295694a88a55852a1296014aaca57e52aa295f14aa4a57a52a8295e14a9ca57652a6295d14a94a57252a4295c14a8ca56e52a2295b14a84a58052b5295f94ad0a57c52b3295e94ac8a57852b1295d94ac0a57452af295c94ab8a57052ad295b94ab0a56c52ab295a94aa8a56852a9295994aa0a56452a7295894a98a56052a5295794a90a55c52a32a5695288a95854a12a60152aca97e54aa2a5f152a4a97a54a82a5e1529ca97654a62a5d15294a97254a42a5c1528ca96e54a22a5b15284a98054b52a5f952d0a97c54b3)
  (.lf
  0x33c000000cef0000033b800000ced0000033b000000ceb0000033a800000ce90000033a000000ce700000339800000ce500000339000000ce300000338800000ce1000003c0000000eff000003bf800000efd000003bf000000efb000003be800000ef9000003be000000ef7000003bd800000ef5000003bd000000ef3000003bc800000ef1000003bc000000eef000003bb800000eed000003bb000000eeb000003ba800000ee9000003ba000000ee7000003b9800000ee5000003b9000000ee3000003b8800000ee1000004400000010ff0000043f8000010fd0000043f0000010fb0000043e8000010f90000043e0000010f70000043d8000010f50000043d0000010f30000043c8000010f1)))
  (.nd (.nd (.lf
  0x296d94b58a5b452d5296c94b50a5b052d3296b94b48a5ac52d1296a94b40a5a852cf296994b38a5a452cd296894b30a5a052cb296794b28a59c52c9296694b20a59852c72a6595318a99454c52a6495310a99054c32a6395308a98c54c12a7015314a9be54c42a6f1530ca9ba54c22a6e15304a9c054db2a6f95368a9bc54d92a6e95360a9b854d72a6d95358a9b454d52a6c95350a9b054d32a6b95348a9ac54d12a6a95340a9a854cf2a6995338a9a454cd2a6895330a9a054cb2a6795328a99c54c92a6695320a99854c72b6595b18ad9456c52b6495b10ad9056c32b6395b08ad8c56c12b7015b14adbe56c42b6f15b0cadba56c22b6e15b04adc056db2b6f95b68adbc56d92b6e95b60adb856d7)
  (.lf
  0x36c000000daf0000036b800000dad0000036b000000dab0000036a800000da90000036a000000da700000369800000da500000369000000da300000368800000da1000003f0000000fbf000003ef800000fbd000003ef000000fbb000003ee800000fb9000003ee000000fb7000003ed800000fb5000003ed000000fb3000003ec800000fb1000003ec000000faf000003eb800000fad000003eb000000fab000003ea800000fa9000003ea000000fa7000003e9800000fa5000003e9000000fa3000003e8800000fa1000004700000011bf0000046f8000011bd0000046f0000011bb0000046e8000011b90000046e0000011b70000046d8000011b50000046d0000011b30000046c8000011b1))
  (.nd (.lf
  0x1324000004c8f00001323800004c8d00001323000004c8b00001322800004c8900001322000004c8700001321800004c8500001321000004c8300001320800004c81000013a8000004e9f000013a7800004e9d000013a7000004e9b000013a6800004e99000013a6000004e97000013a5800004e95000013a5000004e93000013a4800004e91000013a4000004e8f000013a3800004e8d000013a3000004e8b000013a2800004e89000013a2000004e87000013a1800004e85000013a1000004e83000013a0800004e810000142800000509f0000142780000509d0000142700000509b0000142680000509900001426000005097000014258000050950000142500000509300001424800005091)
  (.lf 0)))

def shaSigTree16 : BTree :=
  .nd (.nd (.nd (.lf
  0x60800000181f0000060780000181d0000060700000181b00000606800001819000006060000018170000060580000181500000605000001813000006048000018110000060400000180f0000060380000180d0000060300000180b000006028000018090000060200000180700000601800001805000006010000018030000060080000180100000688000001a1f00000687800001a1d00000687000001a1b00000686800001a1900000686000001a1700000685800001a1500000685000001a1300000684800001a1100000684000001a0f00000683800001a0d00000683000001a0b00000682800001a0900000682000001a0700000681800001a0500000681000001a0300000680800001a01)
  (.lf
  0x102400000408f0000102380000408d0000102300000408b0000102280000408900001022000004087000010218000040850000102100000408300001020800004081000010a800000429f000010a780000429d000010a700000429b000010a6800004299000010a6000004297000010a5800004295000010a5000004293000010a4800004291000010a400000428f000010a380000428d000010a300000428b000010a2800004289000010a2000004287000010a1800004285000010a1000004283000010a08000042810000112800000449f0000112780000449d0000112700000449b0000112680000449900001126000004497000011258000044950000112500000449300001124800004491))
  (.nd (.lf
  0x236d91b588db446d5236c91b508db046d3236b91b488dac46d1236a91b408da846cf236991b388da446cd236891b308da046cb236791b288d9c46c9236691b208d9846c7246592318919448c5246492310919048c3246392308918c48c124701231491be48c4246f1230c91ba48c2246e1230491c048db246f9236891bc48d9246e9236091b848d7246d9235891b448d5246c9235091b048d3246b9234891ac48d1246a9234091a848cf24699233891a448cd24689233091a048cb246792328919c48c9246692320919848c7256592b1895944ac5256492b1095904ac3256392b08958c4ac1257012b1495be4ac4256f12b0c95ba4ac2256e12b0495c04adb256f92b6895bc4ad9256e92b6095b84ad7)
  (.lf
  0x6c0000001af0000006b8000001ad0000006b0000001ab0000006a8000001a90000006a0000001a7000000698000001a5000000690000001a3000000688000001a1000000f00000003bf000000ef8000003bd000000ef0000003bb000000ee8000003b9000000ee0000003b7000000ed8000003b5000000ed0000003b3000000ec8000003b1000000ec0000003af000000eb8000003ad000000eb0000003ab000000ea8000003a9000000ea0000003a7000000e98000003a5000000e90000003a3000000e88000003a1000001700000005bf0000016f8000005bd0000016f0000005bb0000016e8000005b90000016e0000005b70000016d8000005b50000016d0000005b30000016c8000005b1)))
  (.nd (.nd (.lf
  0x20f01024083a0408020e0101c08360406020d0101408320404020c0100c082e0402020b0100408400415020f81050083c0413020e8104808380411020d810400834040f020c810380830040d020b81030082c040b020a81028082804090209810200c1e060403070180c0c1a06020306018040c40060b030f818280c3c0609030e818200c380607030d818180c340605030c818100c300603030b818080c2c06010310018540c3e0614030f0184c0c3a0612030e018440c360610030d0183c0c32060e030c018340c2e060c030b0182c0c2a060a030a018240c260608040782010101c08030406820081018080104100202c103e080a040f02024103a0808040e0201c10360806040d0201410320804)
  (.lf
  0x81c00000206f0000081b80000206d0000081b00000206b0000081a8000020690000081a000002067000008198000020650000081900000206300000818800002061000008a000000227f0000089f80000227d0000089f00000227b0000089e8000022790000089e0000022770000089d8000022750000089d0000022730000089c8000022710000089c00000226f0000089b80000226d0000089b00000226b0000089a8000022690000089a0000022670000089980000226500000899000002263000008988000022610000092000000247f0000091f80000247d0000091f00000247b0000091e8000024790000091e0000024770000091d8000024750000091d0000024730000091c800002471))
  (.nd (.lf
  0x225e912c8897844b1225d912c0897444af225c912b8897044ad225b912b0896c44ab225a912a8896844a92259912a0896444a7225891298896044a5225791290895c44a3235691a888d5846a1236011aac8d7e46aa235f11aa48d7a46a8235e11a9c8d7646a6235d11a948d7246a4235c11a8c8d6e46a2235b11a848d8046b5235f91ad08d7c46b3235e91ac88d7846b1235d91ac08d7446af235c91ab88d7046ad235b91ab08d6c46ab235a91aa88d6846a9235991aa08d6446a7235891a988d6046a5235791a908d5c46a3245692288915848a12460122ac917e48aa245f122a4917a48a8245e1229c917648a6245d12294917248a4245c1228c916e48a2245b12284918048b5245f922d0917c48b3)
  (.lf
  0x3c0000000ef0000003b8000000ed0000003b0000000eb0000003a8000000e90000003a0000000e7000000398000000e5000000390000000e3000000388000000e1000000c00000002ff000000bf8000002fd000000bf0000002fb000000be8000002f9000000be0000002f7000000bd8000002f5000000bd0000002f3000000bc8000002f1000000bc0000002ef000000bb8000002ed000000bb0000002eb000000ba8000002e9000000ba0000002e7000000b98000002e5000000b90000002e3000000b88000002e1000001400000004ff0000013f8000004fd0000013f0000004fb0000013e8000004f90000013e0000004f70000013d8000004f50000013d0000004f30000013c8000004f1)))

def shaSigTree17 : BTree :=
  .nd (.nd (.nd (.lf
  0x251012854943e4a14250f1284c943a4a12250e1284494364a10250d1283c94324a0e250c12834942e4a0c250b1282c942a4a0a250a1282494264a08260793010981c4c0326069300898184c0126101302c983e4c0a260f13024983a4c08260e1301c98364c06260d1301498324c04260c1300c982e4c02260b1300498404c15260f93050983c4c13260e9304898384c11260d9304098344c0f260c9303898304c0d260b93030982c4c0b260a9302898284c092609930209c1e4e0427071380c9c1a4e022706138049c404e0b270f938289c3c4e09270e938209c384e07270d938189c344e05270c938109c304e03270b938089c2c4e012710138549c3e4e14270f1384c9c3a4e12270e138449c364e10)
  (.lf
  0x181c00000606f0000181b80000606d0000181b00000606b0000181a8000060690000181a000006067000018198000060650000181900000606300001818800006061000018a000000627f0000189f80000627d0000189f00000627b0000189e8000062790000189e0000062770000189d8000062750000189d0000062730000189c8000062710000189c00000626f0000189b80000626d0000189b00000626b0000189a8000062690000189a0000062670000189980000626500001899000006263000018988000062610000192000000647f0000191f80000647d0000191f00000647b0000191e8000064790000191e0000064770000191d8000064750000191d0000064730000191c800006471))
  (.nd (.lf
  0x425ea12c9097884b1425da12c1097484af425ca12b9097084ad425ba12b1096c84ab425aa12a9096884a94259a12a1096484a74258a1299096084a54257a1291095c84a3046582318119408c5046482310119008c3046382308118c08c104700231411be08c4046f0230c11ba08c2046e0230411c008db046f8236811bc08d9046e8236011b808d7046d8235811b408d5046c8235011b008d3046b8234811ac08d1046a8234011a808cf04698233811a408cd04688233011a008cb046782328119c08c9046682320119808c7056582b1815940ac5056482b1015900ac3056382b08158c0ac1057002b1415be0ac4056f02b0c15ba0ac2056e02b0415c00adb056f82b6815bc0ad9056e82b6015b80ad7)
  (.lf
  0x103c0000040ef0000103b8000040ed0000103b0000040eb0000103a8000040e90000103a0000040e7000010398000040e5000010390000040e3000010388000040e1000010c00000042ff000010bf8000042fd000010bf0000042fb000010be8000042f9000010be0000042f7000010bd8000042f5000010bd0000042f3000010bc8000042f1000010bc0000042ef000010bb8000042ed000010bb0000042eb000010ba8000042e9000010ba0000042e7000010b98000042e5000010b90000042e3000010b88000042e1000011400000044ff0000113f8000044fd0000113f0000044fb0000113e8000044f90000113e0000044f70000113d8000044f50000113d0000044f30000113c8000044f1)))
  (.nd (.nd (.lf
  0xf0c8785c3c301e160f0b878543c2c1e140f0a8784c3c281e1210048801c40102006100388014400c200410028800c4008200210018800440402002100f880044040201e100f88074403c201c100e8806c4038201a100d8806440342018100c8805c40302016100b88054402c2014100a8804c4028201211048881c44102206110388814440c220411028880c4408220211018880444402202110f888044440221e110f88874443c221c110e8886c4438221a110d8886444342218110c8885c44302216110b88854442c2214110a8884c4428221212048901c48102406120389014480c240412028900c4808240212018900448402402120f890044840241e120f89074483c241c120e8906c4838241a)
  (.lf
  0x106c0000041af0000106b8000041ad0000106b0000041ab0000106a8000041a90000106a0000041a7000010698000041a5000010690000041a3000010688000041a1000010f00000043bf000010ef8000043bd000010ef0000043bb000010ee8000043b9000010ee0000043b7000010ed8000043b5000010ed0000043b3000010ec8000043b1000010ec0000043af000010eb8000043ad000010eb0000043ab000010ea8000043a9000010ea0000043a7000010e98000043a5000010e90000043a3000010e88000043a1000011700000045bf0000116f8000045bd0000116f0000045bb0000116e8000045b90000116e0000045b70000116d8000045b50000116d0000045b30000116c8000045b1))
  (.nd (.lf
  0x36d81b580db406d5036c81b500db006d3036b81b480dac06d1036a81b400da806cf036981b380da406cd036881b300da006cb036781b280d9c06c9036681b200d9806c7035681a880d5806a1036001aac0d7e06aa035f01aa40d7a06a8035e01a9c0d7606a6035d01a940d7206a4035c01a8c0d6e06a2035b01a840d8006b5035f81ad00d7c06b3035e81ac80d7806b1035d81ac00d7406af035c81ab80d7006ad035b81ab00d6c06ab035a81aa80d6806a9035981aa00d6406a7035881a980d6006a5035781a900d5c06a3045682288115808a10460022ac117e08aa045f022a4117a08a8045e0229c117608a6045d02294117208a4045c0228c116e08a2045b02284118008b5045f822d0117c08b3)
  (.lf 0)))

def shaSigTree18 : BTree :=
  .nd (.nd (.nd (.lf
  0x1b80000006df000001b78000006dd000001b70000006db000001b68000006d9000001b60000006d7000001b58000006d5000001b50000006d3000001b48000006d1000001b40000006cf000001b38000006cd000001b30000006cb000001b28000006c9000001b20000006c7000001b18000006c5000001b10000006c3000001b08000006c1000001380000004df000001378000004dd000001370000004db000001368000004d9000001360000004d7000001358000004d5000001350000004d3000001348000004d1000001340000004cf000001338000004cd000001330000004cb000001328000004c9000001320000004c7000001318000004c5000001310000004c3000001308000004c1)
  (.lf
  0x82400000208f0000082380000208d0000082300000208b0000082280000208900000822000002087000008218000020850000082100000208300000820800002081000008a800000229f000008a780000229d000008a700000229b000008a6800002299000008a6000002297000008a5800002295000008a5000002293000008a4800002291000008a400000228f000008a380000228d000008a300000228b000008a2800002289000008a2000002287000008a1800002285000008a1000002283000008a08000022810000092800000249f0000092780000249d0000092700000249b0000092680000249900000926000002497000009258000024950000092500000249300000924800002491))
  (.nd (.lf
  0x136d89b584db426d5136c89b504db026d3136b89b484dac26d1136a89b404da826cf136989b384da426cd136889b304da026cb136789b284d9c26c9136689b204d9826c714658a318519428c514648a310519028c314638a308518c28c114700a31451be28c4146f0a30c51ba28c2146e0a30451c028db146f8a36851bc28d9146e8a36051b828d7146d8a35851b428d5146c8a35051b028d3146b8a34851ac28d1146a8a34051a828cf14698a33851a428cd14688a33051a028cb14678a328519c28c914668a320519828c715658ab1855942ac515648ab1055902ac315638ab08558c2ac115700ab1455be2ac4156f0ab0c55ba2ac2156e0ab0455c02adb156f8ab6855bc2ad9156e8ab6055b82ad7)
  (.lf
  0x183c0000060ef0000183b8000060ed0000183b0000060eb0000183a8000060e90000183a0000060e7000018398000060e5000018390000060e3000018388000060e1000018c00000062ff000018bf8000062fd000018bf0000062fb000018be8000062f9000018be0000062f7000018bd8000062f5000018bd0000062f3000018bc8000062f1000018bc0000062ef000018bb8000062ed000018bb0000062eb000018ba8000062e9000018ba0000062e7000018b98000062e5000018b90000062e3000018b88000062e1000019400000064ff0000193f8000064fd0000193f0000064fb0000193e8000064f90000193e0000064f70000193d8000064f50000193d0000064f30000193c8000064f1)))
  (.nd (.nd (.lf
  0x27049381c9c104e062703938149c0c4e0427029380c9c084e022701938049c404e02270f938049c404e1e270f938749c3c4e1c270e9386c9c384e1a270d938649c344e18270c9385c9c304e16270b938549c2c4e14270a9384c9c284e1228049401ca0105006280394014a00c500428029400ca0085002280194004a0405002280f94004a040501e280f94074a03c501c280e9406ca038501a280d94064a0345018280c9405ca0305016280b94054a02c5014280a9404ca028501229049481ca4105206290394814a40c520429029480ca4085202290194804a4405202290f94804a440521e290f94874a43c521c290e9486ca438521a290d94864a4345218290c9485ca4305216290b94854a42c5214)
  (.lf
  0x186c0000061af0000186b8000061ad0000186b0000061ab0000186a8000061a90000186a0000061a7000018698000061a5000018690000061a3000018688000061a1000018f00000063bf000018ef8000063bd000018ef0000063bb000018ee8000063b9000018ee0000063b7000018ed8000063b5000018ed0000063b3000018ec8000063b1000018ec0000063af000018eb8000063ad000018eb0000063ab000018ea8000063a9000018ea0000063a7000018e98000063a5000018e90000063a3000018e88000063a1000019700000065bf0000196f8000065bd0000196f0000065bb0000196e8000065b90000196e0000065b70000196d8000065b50000196d0000065b30000196c8000065b1))
  (.nd (.lf
  0x125e892c8497824b1125d892c0497424af125c892b8497024ad125b892b0496c24ab125a892a8496824a91259892a0496424a7125889298496024a5125789290495c24a3135689a884d5826a1136009aac4d7e26aa135f09aa44d7a26a8135e09a9c4d7626a6135d09a944d7226a4135c09a8c4d6e26a2135b09a844d8026b5135f89ad04d7c26b3135e89ac84d7826b1135d89ac04d7426af135c89ab84d7026ad135b89ab04d6c26ab135a89aa84d6826a9135989aa04d6426a7135889a984d6026a5135789a904d5c26a314568a288515828a114600a2ac517e28aa145f0a2a4517a28a8145e0a29c517628a6145d0a294517228a4145c0a28c516e28a2145b0a284518028b5145f8a2d0517c28b3)
  (.lf 0)))

def shaSigTree19 : BTree :=
  .nd (.nd (.nd (.lf
  0x130b0982c4c2a260a130a098244c26260814078a010501c280314068a0085018280114100a02c503e280a140f0a024503a2808140e0a01c50362806140d0a01450322804140c0a00c502e2802140b0a00450402815140f8a050503c2813140e8a04850382811140d8a0405034280f140c8a0385030280d140b8a030502c280b140a8a0285028280914098a020541e2a0415070a80c541a2a0215060a80454402a0b150f8a828543c2a09150e8a82054382a07150d8a81854342a05150c8a81054302a03150b8a808542c2a0115100a854543e2a14150f0a84c543a2a12150e0a84454362a10150d0a83c54322a0e150c0a834542e2a0c150b0a82c542a2a0a150a0a82454262a0816078b010581c2c03)
  (.lf
  0x101c00000406f0000101b80000406d0000101b00000406b0000101a8000040690000101a000004067000010198000040650000101900000406300001018800004061000010a000000427f0000109f80000427d0000109f00000427b0000109e8000042790000109e0000042770000109d8000042750000109d0000042730000109c8000042710000109c00000426f0000109b80000426d0000109b00000426b0000109a8000042690000109a0000042670000109980000426500001099000004263000010988000042610000112000000447f0000111f80000447d0000111f00000447b0000111e8000044790000111e0000044770000111d8000044750000111d0000044730000111c800004471))
  (.nd (.lf
  0x325e992c8c97864b1325d992c0c97464af325c992b8c97064ad325b992b0c96c64ab325a992a8c96864a93259992a0c96464a7325899298c96064a5325799290c95c64a3335699a88cd5866a1336019aaccd7e66aa335f19aa4cd7a66a8335e19a9ccd7666a6335d19a94cd7266a4335c19a8ccd6e66a2335b19a84cd8066b5335f99ad0cd7c66b3335e99ac8cd7866b1335d99ac0cd7466af335c99ab8cd7066ad335b99ab0cd6c66ab335a99aa8cd6866a9335999aa0cd6466a7335899a98cd6066a5335799a90cd5c66a334569a288d15868a134601a2acd17e68aa345f1a2a4d17a68a8345e1a29cd17668a6345d1a294d17268a4345c1a28cd16e68a2345b1a284d18068b5345f9a2d0d17c68b3)
  (.lf
  0x83c0000020ef0000083b8000020ed0000083b0000020eb0000083a8000020e90000083a0000020e7000008398000020e5000008390000020e3000008388000020e1000008c00000022ff000008bf8000022fd000008bf0000022fb000008be8000022f9000008be0000022f7000008bd8000022f5000008bd0000022f3000008bc8000022f1000008bc0000022ef000008bb8000022ed000008bb0000022eb000008ba8000022e9000008ba0000022e7000008b98000022e5000008b90000022e3000008b88000022e1000009400000024ff0000093f8000024fd0000093f0000024fb0000093e8000024f90000093e0000024f70000093d8000024f50000093d0000024f30000093c8000024f1)))
  (.nd (.nd (.lf
  0x336d99b58cdb466d5336c99b50cdb066d3336b99b48cdac66d1336a99b40cda866cf336999b38cda466cd336899b30cda066cb336799b28cd9c66c9336699b20cd9866c734659a318d19468c534649a310d19068c334639a308d18c68c134701a314d1be68c4346f1a30cd1ba68c2346e1a304d1c068db346f9a368d1bc68d9346e9a360d1b868d7346d9a358d1b468d5346c9a350d1b068d3346b9a348d1ac68d1346a9a340d1a868cf34699a338d1a468cd34689a330d1a068cb34679a328d19c68c934669a320d19868c735659ab18d5946ac535649ab10d5906ac335639ab08d58c6ac135701ab14d5be6ac4356f1ab0cd5ba6ac2356e1ab04d5c06adb356f9ab68d5bc6ad9356e9ab60d5b86ad7)
  (.lf
  0x86c0000021af0000086b8000021ad0000086b0000021ab0000086a8000021a90000086a0000021a7000008698000021a5000008690000021a3000008688000021a1000008f00000023bf000008ef8000023bd000008ef0000023bb000008ee8000023b9000008ee0000023b7000008ed8000023b5000008ed0000023b3000008ec8000023b1000008ec0000023af000008eb8000023ad000008eb0000023ab000008ea8000023a9000008ea0000023a7000008e98000023a5000008e90000023a3000008e88000023a1000009700000025bf0000096f8000025bd0000096f0000025bb0000096e8000025b90000096e0000025b70000096d8000025b50000096d0000025b30000096c8000025b1))
  (.nd (.lf
  0x182400000608f0000182380000608d0000182300000608b0000182280000608900001822000006087000018218000060850000182100000608300001820800006081000018a800000629f000018a780000629d000018a700000629b000018a6800006299000018a6000006297000018a5800006295000018a5000006293000018a4800006291000018a400000628f000018a380000628d000018a300000628b000018a2800006289000018a2000006287000018a1800006285000018a1000006283000018a08000062810000192800000649f0000192780000649d0000192700000649b0000192680000649900001926000006497000019258000064950000192500000649300001924800006491)
  (.lf 0)))

def shaSigTree20 : BTree :=
  .nd (.nd (.nd (.lf
  0x20800000081f0000020780000081d0000020700000081b00000206800000819000002060000008170000020580000081500000205000000813000002048000008110000020400000080f0000020380000080d0000020300000080b000002028000008090000020200000080700000201800000805000002010000008030000020080000080100000288000000a1f00000287800000a1d00000287000000a1b00000286800000a1900000286000000a1700000285800000a1500000285000000a1300000284800000a1100000284000000a0f00000283800000a0d00000283000000a0b00000282800000a0900000282000000a0700000281800000a0500000281000000a0300000280800000a01)
  (.lf
  0xc2400000308f00000c2380000308d00000c2300000308b00000c2280000308900000c2200000308700000c2180000308500000c2100000308300000c2080000308100000ca800000329f00000ca780000329d00000ca700000329b00000ca680000329900000ca600000329700000ca580000329500000ca500000329300000ca480000329100000ca400000328f00000ca380000328d00000ca300000328b00000ca280000328900000ca200000328700000ca180000328500000ca100000328300000ca080000328100000d2800000349f00000d2780000349d00000d2700000349b00000d2680000349900000d2600000349700000d2580000349500000d2500000349300000d24800003491))
  (.nd (.lf
  0x1b6d8db586db436d51b6c8db506db036d31b6b8db486dac36d11b6a8db406da836cf1b698db386da436cd1b688db306da036cb1b678db286d9c36c91b668db206d9836c71c658e318719438c51c648e310719038c31c638e308718c38c11c700e31471be38c41c6f0e30c71ba38c21c6e0e30471c038db1c6f8e36871bc38d91c6e8e36071b838d71c6d8e35871b438d51c6c8e35071b038d31c6b8e34871ac38d11c6a8e34071a838cf1c698e33871a438cd1c688e33071a038cb1c678e328719c38c91c668e320719838c71d658eb1875943ac51d648eb1075903ac31d638eb08758c3ac11d700eb1475be3ac41d6f0eb0c75ba3ac21d6e0eb0475c03adb1d6f8eb6875bc3ad91d6e8eb6075b83ad7)
  (.lf
  0x1c3c0000070ef00001c3b8000070ed00001c3b0000070eb00001c3a8000070e900001c3a0000070e700001c398000070e500001c390000070e300001c388000070e100001cc00000072ff00001cbf8000072fd00001cbf0000072fb00001cbe8000072f900001cbe0000072f700001cbd8000072f500001cbd0000072f300001cbc8000072f100001cbc0000072ef00001cbb8000072ed00001cbb0000072eb00001cba8000072e900001cba0000072e700001cb98000072e500001cb90000072e300001cb88000072e100001d400000074ff00001d3f8000074fd00001d3f0000074fb00001d3e8000074f900001d3e0000074f700001d3d8000074f500001d3d0000074f300001d3c8000074f1)))
  (.nd (.nd (.lf
  0x320d99064c8346418320c9905cc8306416320b99054c82c6414320a9904cc828641233049981ccc106606330399814cc0c660433029980ccc086602330199804cc406602330f99804cc40661e330f99874cc3c661c330e9986ccc38661a330d99864cc346618330c9985ccc306616330b99854cc2c6614330a9984ccc28661234049a01cd010680634039a014d00c680434029a00cd008680234019a004d0406802340f9a004d040681e340f9a074d03c681c340e9a06cd038681a340d9a064d0346818340c9a05cd0306816340b9a054d02c6814340a9a04cd028681235049a81cd4106a0635039a814d40c6a0435029a80cd4086a0235019a804d4406a02350f9a804d4406a1e350f9a874d43c6a1c)
  (.lf
  0x1c6c0000071af00001c6b8000071ad00001c6b0000071ab00001c6a8000071a900001c6a0000071a700001c698000071a500001c690000071a300001c688000071a100001cf00000073bf00001cef8000073bd00001cef0000073bb00001cee8000073b900001cee0000073b700001ced8000073b500001ced0000073b300001cec8000073b100001cec0000073af00001ceb8000073ad00001ceb0000073ab00001cea8000073a900001cea0000073a700001ce98000073a500001ce90000073a300001ce88000073a100001d700000075bf00001d6f8000075bd00001d6f0000075bb00001d6e8000075b900001d6e0000075b700001d6d8000075b500001d6d0000075b300001d6c8000075b1))
  (.nd (.lf
  0x1a5e8d2c8697834b11a5d8d2c0697434af1a5c8d2b8697034ad1a5b8d2b0696c34ab1a5a8d2a8696834a91a598d2a0696434a71a588d298696034a51a578d290695c34a31b568da886d5836a11b600daac6d7e36aa1b5f0daa46d7a36a81b5e0da9c6d7636a61b5d0da946d7236a41b5c0da8c6d6e36a21b5b0da846d8036b51b5f8dad06d7c36b31b5e8dac86d7836b11b5d8dac06d7436af1b5c8dab86d7036ad1b5b8dab06d6c36ab1b5a8daa86d6836a91b598daa06d6436a71b588da986d6036a51b578da906d5c36a31c568e288715838a11c600e2ac717e38aa1c5f0e2a4717a38a81c5e0e29c717638a61c5d0e294717238a41c5c0e28c716e38a21c5b0e284718038b51c5f8e2d0717c38b3)
  (.lf 0)))

def shaSigTree21 : BTree :=
  .nd (.nd (.nd (.lf
  0x1c0d8e0407034380f1c0c8e0387030380d1c0b8e030702c380b1c0a8e028702838091c098e020741e3a041d070e80c741a3a021d060e80474403a0b1d0f8e828743c3a091d0e8e82074383a071d0d8e81874343a051d0c8e81074303a031d0b8e808742c3a011d100e854743e3a141d0f0e84c743a3a121d0e0e84474363a101d0d0e83c74323a0e1d0c0e834742e3a0c1d0b0e82c742a3a0a1d0a0e82474263a081e078f010781c3c031e068f00878183c011e100f02c783e3c0a1e0f0f024783a3c081e0e0f01c78363c061e0d0f01478323c041e0c0f00c782e3c021e0b0f00478403c151e0f8f050783c3c131e0e8f04878383c111e0d8f04078343c0f1e0c8f03878303c0d1e0b8f030782c3c0b)
  (.lf
  0x141c00000506f0000141b80000506d0000141b00000506b0000141a8000050690000141a000005067000014198000050650000141900000506300001418800005061000014a000000527f0000149f80000527d0000149f00000527b0000149e8000052790000149e0000052770000149d8000052750000149d0000052730000149c8000052710000149c00000526f0000149b80000526d0000149b00000526b0000149a8000052690000149a0000052670000149980000526500001499000005263000014988000052610000152000000547f0000151f80000547d0000151f00000547b0000151e8000054790000151e0000054770000151d8000054750000151d0000054730000151c800005471))
  (.nd (.lf
  0x3a5e9d2c8e97874b13a5d9d2c0e97474af3a5c9d2b8e97074ad3a5b9d2b0e96c74ab3a5a9d2a8e96874a93a599d2a0e96474a73a589d298e96074a53a579d290e95c74a33b569da88ed5876a13b601daaced7e76aa3b5f1daa4ed7a76a83b5e1da9ced7676a63b5d1da94ed7276a43b5c1da8ced6e76a23b5b1da84ed8076b53b5f9dad0ed7c76b33b5e9dac8ed7876b13b5d9dac0ed7476af3b5c9dab8ed7076ad3b5b9dab0ed6c76ab3b5a9daa8ed6876a93b599daa0ed6476a73b589da98ed6076a53b579da90ed5c76a33c569e288f15878a13c601e2acf17e78aa3c5f1e2a4f17a78a83c5e1e29cf17678a63c5d1e294f17278a43c5c1e28cf16e78a23c5b1e284f18078b53c5f9e2d0f17c78b3)
  (.lf
  0xc3c0000030ef00000c3b8000030ed00000c3b0000030eb00000c3a8000030e900000c3a0000030e700000c398000030e500000c390000030e300000c388000030e100000cc00000032ff00000cbf8000032fd00000cbf0000032fb00000cbe8000032f900000cbe0000032f700000cbd8000032f500000cbd0000032f300000cbc8000032f100000cbc0000032ef00000cbb8000032ed00000cbb0000032eb00000cba8000032e900000cba0000032e700000cb98000032e500000cb90000032e300000cb88000032e100000d400000034ff00000d3f8000034fd00000d3f0000034fb00000d3e8000034f900000d3e0000034f700000d3d8000034f500000d3d0000034f300000d3c8000034f1)))
  (.nd (.nd (.lf
  0x3b6d9db58edb476d53b6c9db50edb076d33b6b9db48edac76d13b6a9db40eda876cf3b699db38eda476cd3b689db30eda076cb3b679db28ed9c76c93b669db20ed9876c73c659e318f19478c53c649e310f19078c33c639e308f18c78c13c701e314f1be78c43c6f1e30cf1ba78c23c6e1e304f1c078db3c6f9e368f1bc78d93c6e9e360f1b878d73c6d9e358f1b478d53c6c9e350f1b078d33c6b9e348f1ac78d13c6a9e340f1a878cf3c699e338f1a478cd3c689e330f1a078cb3c679e328f19c78c93c669e320f19878c73d659eb18f5947ac53d649eb10f5907ac33d639eb08f58c7ac13d701eb14f5be7ac43d6f1eb0cf5ba7ac23d6e1eb04f5c07adb3d6f9eb68f5bc7ad93d6e9eb60f5b87ad7)
  (.lf
  0xc6c0000031af00000c6b8000031ad00000c6b0000031ab00000c6a8000031a900000c6a0000031a700000c698000031a500000c690000031a300000c688000031a100000cf00000033bf00000cef8000033bd00000cef0000033bb00000cee8000033b900000cee0000033b700000ced8000033b500000ced0000033b300000cec8000033b100000cec0000033af00000ceb8000033ad00000ceb0000033ab00000cea8000033a900000cea0000033a700000ce98000033a500000ce90000033a300000ce88000033a100000d700000035bf00000d6f8000035bd00000d6f0000035bb00000d6e8000035b900000d6e0000035b700000d6d8000035b500000d6d0000035b300000d6c8000035b1))
  (.nd (.lf
  0x1c2400000708f00001c2380000708d00001c2300000708b00001c2280000708900001c2200000708700001c2180000708500001c2100000708300001c2080000708100001ca800000729f00001ca780000729d00001ca700000729b00001ca680000729900001ca600000729700001ca580000729500001ca500000729300001ca480000729100001ca400000728f00001ca380000728d00001ca300000728b00001ca280000728900001ca200000728700001ca180000728500001ca100000728300001ca080000728100001d2800000749f00001d2780000749d00001d2700000749b00001d2680000749900001d2600000749700001d2580000749500001d2500000749300001d24800007491)
  (.lf 0)))

def shaSigTree22 : BTree :=
  .nd (.nd (.nd (.lf
  0x2e0d17014b8325c042e0c1700cb82e5c022e0b17004b8405c152e0f97050b83c5c132e0e97048b8385c112e0d97040b8345c0f2e0c97038b8305c0d2e0b97030b82c5c0b2e0a97028b8285c092e0997020bc1e5e042f071780cbc1a5e022f0617804bc405e0b2f0f97828bc3c5e092f0e97820bc385e072f0d97818bc345e052f0c97810bc305e032f0b97808bc2c5e012f1017854bc3e5e142f0f1784cbc3a5e122f0e17844bc365e102f0d1783cbc325e0e2f0c17834bc2e5e0c2f0b1782cbc2a5e0a2f0a17824bc265e08300798010c01c6003300698008c018600130101802cc03e600a300f18024c03a6008300e1801cc0366006300d18014c0326004300c1800cc02e6002300b18004c0406015)
  (.lf
  0x1c1c00000706f00001c1b80000706d00001c1b00000706b00001c1a80000706900001c1a00000706700001c1980000706500001c1900000706300001c1880000706100001ca000000727f00001c9f80000727d00001c9f00000727b00001c9e80000727900001c9e00000727700001c9d80000727500001c9d00000727300001c9c80000727100001c9c00000726f00001c9b80000726d00001c9b00000726b00001c9a80000726900001c9a00000726700001c9980000726500001c9900000726300001c9880000726100001d2000000747f00001d1f80000747d00001d1f00000747b00001d1e80000747900001d1e00000747700001d1d80000747500001d1d00000747300001d1c800007471))
  (.nd (.lf
  0xb6d85b582db416d50b6c85b502db016d30b6b85b482dac16d10b6a85b402da816cf0b6985b382da416cd0b6885b302da016cb0b6785b282d9c16c90b6685b202d9816c70c6586318319418c50c6486310319018c30c6386308318c18c10c700631431be18c40c6f0630c31ba18c20c6e0630431c018db0c6f8636831bc18d90c6e8636031b818d70c6d8635831b418d50c6c8635031b018d30c6b8634831ac18d10c6a8634031a818cf0c698633831a418cd0c688633031a018cb0c6786328319c18c90c6686320319818c70d6586b1835941ac50d6486b1035901ac30d6386b08358c1ac10d7006b1435be1ac40d6f06b0c35ba1ac20d6e06b0435c01adb0d6f86b6835bc1ad90d6e86b6035b81ad7)
  (.lf
  0x143c0000050ef0000143b8000050ed0000143b0000050eb0000143a8000050e90000143a0000050e7000014398000050e5000014390000050e3000014388000050e1000014c00000052ff000014bf8000052fd000014bf0000052fb000014be8000052f9000014be0000052f7000014bd8000052f5000014bd0000052f3000014bc8000052f1000014bc0000052ef000014bb8000052ed000014bb0000052eb000014ba8000052e9000014ba0000052e7000014b98000052e5000014b90000052e3000014b88000052e1000015400000054ff0000153f8000054fd0000153f0000054fb0000153e8000054f90000153e0000054f70000153d8000054f50000153d0000054f30000153c8000054f1)))
  (.nd (.nd (.lf
  0x1b0f8d8046c40361e1b0f8d8746c3c361c1b0e8d86c6c38361a1b0d8d8646c3436181b0c8d85c6c3036161b0b8d8546c2c36141b0a8d84c6c2836121c048e01c701038061c038e014700c38041c028e00c700838021c018e004704038021c0f8e0047040381e1c0f8e074703c381c1c0e8e06c7038381a1c0d8e064703438181c0c8e05c703038161c0b8e054702c38141c0a8e04c702838121d048e81c74103a061d038e814740c3a041d028e80c74083a021d018e80474403a021d0f8e80474403a1e1d0f8e874743c3a1c1d0e8e86c74383a1a1d0d8e86474343a181d0c8e85c74303a161d0b8e854742c3a141d0a8e84c74283a121e048f01c78103c061e038f014780c3c041e028f00c78083c02)
  (.lf
  0x146c0000051af0000146b8000051ad0000146b0000051ab0000146a8000051a90000146a0000051a7000014698000051a5000014690000051a3000014688000051a1000014f00000053bf000014ef8000053bd000014ef0000053bb000014ee8000053b9000014ee0000053b7000014ed8000053b5000014ed0000053b3000014ec8000053b1000014ec0000053af000014eb8000053ad000014eb0000053ab000014ea8000053a9000014ea0000053a7000014e98000053a5000014e90000053a3000014e88000053a1000015700000055bf0000156f8000055bd0000156f0000055bb0000156e8000055b90000156e0000055b70000156d8000055b50000156d0000055b30000156c8000055b1))
  (.nd (.lf
  0xa5e852c8297814b10a5d852c0297414af0a5c852b8297014ad0a5b852b0296c14ab0a5a852a8296814a90a59852a0296414a70a5885298296014a50a5785290295c14a30b5685a882d5816a10b6005aac2d7e16aa0b5f05aa42d7a16a80b5e05a9c2d7616a60b5d05a942d7216a40b5c05a8c2d6e16a20b5b05a842d8016b50b5f85ad02d7c16b30b5e85ac82d7816b10b5d85ac02d7416af0b5c85ab82d7016ad0b5b85ab02d6c16ab0b5a85aa82d6816a90b5985aa02d6416a70b5885a982d6016a50b5785a902d5c16a30c5686288315818a10c60062ac317e18aa0c5f062a4317a18a80c5e0629c317618a60c5d06294317218a40c5c0628c316e18a20c5b06284318018b50c5f862d0317c18b3)
  (.lf 0)))

def shaSigTree23 : BTree :=
  .nd (.nd (.nd (.lf
  0xb070580c2c1a16020b06058042c40160b0b0f858282c3c16090b0e858202c3816070b0d858182c3416050b0c858102c3016030b0b858082c2c16010b10058542c3e16140b0f0584c2c3a16120b0e058442c3616100b0d0583c2c32160e0b0c058342c2e160c0b0b0582c2c2a160a0b0a058242c2616080c0786010301c18030c0686008301818010c100602c303e180a0c0f06024303a18080c0e0601c303618060c0d06014303218040c0c0600c302e18020c0b06004304018150c0f86050303c18130c0e86048303818110c0d860403034180f0c0c860383030180d0c0b86030302c180b0c0a86028302818090c0986020341e1a040d070680c341a1a020d060680434401a0b0d0f86828343c1a09)
  (.lf
  0xc1c00000306f00000c1b80000306d00000c1b00000306b00000c1a80000306900000c1a00000306700000c1980000306500000c1900000306300000c1880000306100000ca000000327f00000c9f80000327d00000c9f00000327b00000c9e80000327900000c9e00000327700000c9d80000327500000c9d00000327300000c9c80000327100000c9c00000326f00000c9b80000326d00000c9b00000326b00000c9a80000326900000c9a00000326700000c9980000326500000c9900000326300000c9880000326100000d2000000347f00000d1f80000347d00000d1f00000347b00000d1e80000347900000d1e00000347700000d1d80000347500000d1d00000347300000d1c800003471))
  (.nd (.lf
  0x2a5e952c8a97854b12a5d952c0a97454af2a5c952b8a97054ad2a5b952b0a96c54ab2a5a952a8a96854a92a59952a0a96454a72a5895298a96054a52a5795290a95c54a32b5695a88ad5856a12b6015aacad7e56aa2b5f15aa4ad7a56a82b5e15a9cad7656a62b5d15a94ad7256a42b5c15a8cad6e56a22b5b15a84ad8056b52b5f95ad0ad7c56b32b5e95ac8ad7856b12b5d95ac0ad7456af2b5c95ab8ad7056ad2b5b95ab0ad6c56ab2b5a95aa8ad6856a92b5995aa0ad6456a72b5895a98ad6056a52b5795a90ad5c56a32c5696288b15858a12c60162acb17e58aa2c5f162a4b17a58a82c5e1629cb17658a62c5d16294b17258a42c5c1628cb16e58a22c5b16284b18058b52c5f962d0b17c58b3)
  (.lf
  0x43c0000010ef0000043b8000010ed0000043b0000010eb0000043a8000010e90000043a0000010e7000004398000010e5000004390000010e3000004388000010e1000004c00000012ff000004bf8000012fd000004bf0000012fb000004be8000012f9000004be0000012f7000004bd8000012f5000004bd0000012f3000004bc8000012f1000004bc0000012ef000004bb8000012ed000004bb0000012eb000004ba8000012e9000004ba0000012e7000004b98000012e5000004b90000012e3000004b88000012e1000005400000014ff0000053f8000014fd0000053f0000014fb0000053e8000014f90000053e0000014f70000053d8000014f50000053d0000014f30000053c8000014f1)))
  (.nd (.nd (.lf
  0x2b6d95b58adb456d52b6c95b50adb056d32b6b95b48adac56d12b6a95b40ada856cf2b6995b38ada456cd2b6895b30ada056cb2b6795b28ad9c56c92b6695b20ad9856c72c6596318b19458c52c6496310b19058c32c6396308b18c58c12c7016314b1be58c42c6f1630cb1ba58c22c6e16304b1c058db2c6f96368b1bc58d92c6e96360b1b858d72c6d96358b1b458d52c6c96350b1b058d32c6b96348b1ac58d12c6a96340b1a858cf2c6996338b1a458cd2c6896330b1a058cb2c6796328b19c58c92c6696320b19858c72d6596b18b5945ac52d6496b10b5905ac32d6396b08b58c5ac12d7016b14b5be5ac42d6f16b0cb5ba5ac22d6e16b04b5c05adb2d6f96b68b5bc5ad92d6e96b60b5b85ad7)
  (.lf
  0x46c0000011af0000046b8000011ad0000046b0000011ab0000046a8000011a90000046a0000011a7000004698000011a5000004690000011a3000004688000011a1000004f00000013bf000004ef8000013bd000004ef0000013bb000004ee8000013b9000004ee0000013b7000004ed8000013b5000004ed0000013b3000004ec8000013b1000004ec0000013af000004eb8000013ad000004eb0000013ab000004ea8000013a9000004ea0000013a7000004e98000013a5000004e90000013a3000004e88000013a1000005700000015bf0000056f8000015bd0000056f0000015bb0000056e8000015b90000056e0000015b70000056d8000015b50000056d0000015b30000056c8000015b1))
  (.nd (.lf
  0x142400000508f0000142380000508d0000142300000508b0000142280000508900001422000005087000014218000050850000142100000508300001420800005081000014a800000529f000014a780000529d000014a700000529b000014a6800005299000014a6000005297000014a5800005295000014a5000005293000014a4800005291000014a400000528f000014a380000528d000014a300000528b000014a2800005289000014a2000005287000014a1800005285000014a1000005283000014a08000052810000152800000549f0000152780000549d0000152700000549b0000152680000549900001526000005497000015258000054950000152500000549300001524800005491)
  (.lf 0)))

def shaSigTree24 : BTree :=
  .nd (.nd (.nd (.lf
  0x40800000101f0000040780000101d0000040700000101b00000406800001019000004060000010170000040580000101500000405000001013000004048000010110000040400000100f0000040380000100d0000040300000100b00000402800001009000004020000010070000040180000100500000401000001003000004008000010010000048800000121f0000048780000121d0000048700000121b00000486800001219000004860000012170000048580000121500000485000001213000004848000012110000048400000120f0000048380000120d0000048300000120b0000048280000120900000482000001207000004818000012050000048100000120300000480800001201)
  (.lf
  0xe2400000388f00000e2380000388d00000e2300000388b00000e2280000388900000e2200000388700000e2180000388500000e2100000388300000e2080000388100000ea8000003a9f00000ea7800003a9d00000ea7000003a9b00000ea6800003a9900000ea6000003a9700000ea5800003a9500000ea5000003a9300000ea4800003a9100000ea4000003a8f00000ea3800003a8d00000ea3000003a8b00000ea2800003a8900000ea2000003a8700000ea1800003a8500000ea1000003a8300000ea0800003a8100000f28000003c9f00000f27800003c9d00000f27000003c9b00000f26800003c9900000f26000003c9700000f25800003c9500000f25000003c9300000f24800003c91))
  (.nd (.lf
  0x1f6d8fb587db43ed51f6c8fb507db03ed31f6b8fb487dac3ed11f6a8fb407da83ecf1f698fb387da43ecd1f688fb307da03ecb1f678fb287d9c3ec91f668fb207d983ec7206590318819440c5206490310819040c3206390308818c40c120701031481be40c4206f1030c81ba40c2206e1030481c040db206f9036881bc40d9206e9036081b840d7206d9035881b440d5206c9035081b040d3206b9034881ac40d1206a9034081a840cf20699033881a440cd20689033081a040cb206790328819c40c9206690320819840c7216590b18859442c5216490b10859042c3216390b08858c42c1217010b1485be42c4216f10b0c85ba42c2216e10b0485c042db216f90b6885bc42d9216e90b6085b842d7)
  (.lf
  0x1e3c0000078ef00001e3b8000078ed00001e3b0000078eb00001e3a8000078e900001e3a0000078e700001e398000078e500001e390000078e300001e388000078e100001ec0000007aff00001ebf800007afd00001ebf000007afb00001ebe800007af900001ebe000007af700001ebd800007af500001ebd000007af300001ebc800007af100001ebc000007aef00001ebb800007aed00001ebb000007aeb00001eba800007ae900001eba000007ae700001eb9800007ae500001eb9000007ae300001eb8800007ae100001f40000007cff00001f3f800007cfd00001f3f000007cfb00001f3e800007cf900001f3e000007cf700001f3d800007cf500001f3d000007cf300001f3c800007cf1)))
  (.nd (.nd (.lf
  0x380f9c074e03c701c380e9c06ce038701a380d9c064e0347018380c9c05ce0307016380b9c054e02c7014380a9c04ce028701239049c81ce410720639039c814e40c720439029c80ce408720239019c804e4407202390f9c804e440721e390f9c874e43c721c390e9c86ce438721a390d9c864e4347218390c9c85ce4307216390b9c854e42c7214390a9c84ce42872123a049d01ce81074063a039d014e80c74043a029d00ce80874023a019d004e84074023a0f9d004e840741e3a0f9d074e83c741c3a0e9d06ce838741a3a0d9d064e83474183a0c9d05ce83074163a0b9d054e82c74143a0a9d04ce82874123b049d81cec1076063b039d814ec0c76043b029d80cec0876023b019d804ec407602)
  (.lf
  0x1e6c0000079af00001e6b8000079ad00001e6b0000079ab00001e6a8000079a900001e6a0000079a700001e698000079a500001e690000079a300001e688000079a100001ef0000007bbf00001eef800007bbd00001eef000007bbb00001eee800007bb900001eee000007bb700001eed800007bb500001eed000007bb300001eec800007bb100001eec000007baf00001eeb800007bad00001eeb000007bab00001eea800007ba900001eea000007ba700001ee9800007ba500001ee9000007ba300001ee8800007ba100001f70000007dbf00001f6f800007dbd00001f6f000007dbb00001f6e800007db900001f6e000007db700001f6d800007db500001f6d000007db300001f6c800007db1))
  (.nd (.lf
  0x1e5e8f2c879783cb11e5d8f2c079743caf1e5c8f2b879703cad1e5b8f2b0796c3cab1e5a8f2a879683ca91e598f2a079643ca71e588f29879603ca51e578f290795c3ca31f568fa887d583ea11f600faac7d7e3eaa1f5f0faa47d7a3ea81f5e0fa9c7d763ea61f5d0fa947d723ea41f5c0fa8c7d6e3ea21f5b0fa847d803eb51f5f8fad07d7c3eb31f5e8fac87d783eb11f5d8fac07d743eaf1f5c8fab87d703ead1f5b8fab07d6c3eab1f5a8faa87d683ea91f598faa07d643ea71f588fa987d603ea51f578fa907d5c3ea3205690288815840a12060102ac817e40aa205f102a4817a40a8205e1029c817640a6205d10294817240a4205c1028c816e40a2205b10284818040b5205f902d0817c40b3)
  (.lf 0)))

def shaSigTree25 : BTree :=
  .nd (.nd (.nd (.lf
  0x2106108048440420b210f90828843c4209210e9082084384207210d9081884344205210c9081084304203210b90808842c4201211010854843e4214210f1084c843a4212210e1084484364210210d1083c8432420e210c10834842e420c210b1082c842a420a210a1082484264208220791010881c44032206910088818440122101102c883e440a220f11024883a4408220e1101c88364406220d1101488324404220c1100c882e4402220b1100488404415220f91050883c4413220e9104888384411220d910408834440f220c910388830440d220b91030882c440b220a91028882844092209910208c1e460423071180c8c1a46022306118048c40460b230f918288c3c4609230e918208c384607)
  (.lf
  0x161c00000586f0000161b80000586d0000161b00000586b0000161a8000058690000161a000005867000016198000058650000161900000586300001618800005861000016a0000005a7f0000169f800005a7d0000169f000005a7b0000169e800005a790000169e000005a770000169d800005a750000169d000005a730000169c800005a710000169c000005a6f0000169b800005a6d0000169b000005a6b0000169a800005a690000169a000005a6700001699800005a6500001699000005a6300001698800005a6100001720000005c7f0000171f800005c7d0000171f000005c7b0000171e800005c790000171e000005c770000171d800005c750000171d000005c730000171c800005c71))
  (.nd (.lf
  0x3e5e9f2c8f9787cb13e5d9f2c0f9747caf3e5c9f2b8f9707cad3e5b9f2b0f96c7cab3e5a9f2a8f9687ca93e599f2a0f9647ca73e589f298f9607ca53e579f290f95c7ca33f569fa88fd587ea13f601faacfd7e7eaa3f5f1faa4fd7a7ea83f5e1fa9cfd767ea63f5d1fa94fd727ea43f5c1fa8cfd6e7ea23f5b1fa84fd807eb53f5f9fad0fd7c7eb33f5e9fac8fd787eb13f5d9fac0fd747eaf3f5c9fab8fd707ead3f5b9fab0fd6c7eab3f5a9faa8fd687ea93f599faa0fd647ea73f589fa98fd607ea53f579fa90fd5c7ea34056a0289015880a14060202ad017e80aa405f202a5017a80a8405e2029d017680a6405d20295017280a4405c2028d016e80a2405b20285018080b5405fa02d1017c80b3)
  (.lf
  0xe3c0000038ef00000e3b8000038ed00000e3b0000038eb00000e3a8000038e900000e3a0000038e700000e398000038e500000e390000038e300000e388000038e100000ec0000003aff00000ebf800003afd00000ebf000003afb00000ebe800003af900000ebe000003af700000ebd800003af500000ebd000003af300000ebc800003af100000ebc000003aef00000ebb800003aed00000ebb000003aeb00000eba800003ae900000eba000003ae700000eb9800003ae500000eb9000003ae300000eb8800003ae100000f40000003cff00000f3f800003cfd00000f3f000003cfb00000f3e800003cf900000f3e000003cf700000f3d800003cf500000f3d000003cf300000f3c800003cf1)))
  (.nd (.nd (.lf
  0x3f6d9fb58fdb47ed53f6c9fb50fdb07ed33f6b9fb48fdac7ed13f6a9fb40fda87ecf3f699fb38fda47ecd3f689fb30fda07ecb3f679fb28fd9c7ec93f669fb20fd987ec74065a0319019480c54064a0311019080c34063a0309018c80c140702031501be80c4406f2030d01ba80c2406e2030501c080db406fa036901bc80d9406ea036101b880d7406da035901b480d5406ca035101b080d3406ba034901ac80d1406aa034101a880cf4069a033901a480cd4068a033101a080cb4067a0329019c80c94066a0321019880c74165a0b19059482c54164a0b11059082c34163a0b09058c82c1417020b1505be82c4416f20b0d05ba82c2416e20b0505c082db416fa0b6905bc82d9416ea0b6105b882d7)
  (.lf
  0xe6c0000039af00000e6b8000039ad00000e6b0000039ab00000e6a8000039a900000e6a0000039a700000e698000039a500000e690000039a300000e688000039a100000ef0000003bbf00000eef800003bbd00000eef000003bbb00000eee800003bb900000eee000003bb700000eed800003bb500000eed000003bb300000eec800003bb100000eec000003baf00000eeb800003bad00000eeb000003bab00000eea800003ba900000eea000003ba700000ee9800003ba500000ee9000003ba300000ee8800003ba100000f70000003dbf00000f6f800003dbd00000f6f000003dbb00000f6e800003db900000f6e000003db700000f6d800003db500000f6d000003db300000f6c800003db1))
  (.nd (.lf
  0x1e2400000788f00001e2380000788d00001e2300000788b00001e2280000788900001e2200000788700001e2180000788500001e2100000788300001e2080000788100001ea8000007a9f00001ea7800007a9d00001ea7000007a9b00001ea6800007a9900001ea6000007a9700001ea5800007a9500001ea5000007a9300001ea4800007a9100001ea4000007a8f00001ea3800007a8d00001ea3000007a8b00001ea2800007a8900001ea2000007a8700001ea1800007a8500001ea1000007a8300001ea0800007a8100001f28000007c9f00001f27800007c9d00001f27000007c9b00001f26800007c9900001f26000007c9700001f25800007c9500001f25000007c9300001f24800007c91)
  (.lf 0)))

def shaSigTree26 : BTree :=
  .nd (.nd (.nd (.lf
  0x1b00000006bf000001af8000006bd000001af0000006bb000001ae8000006b9000001ae0000006b7000001ad8000006b5000001ad0000006b3000001ac8000006b1000001ac0000006af000001ab8000006ad000001ab0000006ab000001aa8000006a9000001aa0000006a7000001a98000006a5000001a90000006a3000001a88000006a1000001300000004bf0000012f8000004bd0000012f0000004bb0000012e8000004b90000012e0000004b70000012d8000004b50000012d0000004b30000012c8000004b10000012c0000004af0000012b8000004ad0000012b0000004ab0000012a8000004a90000012a0000004a7000001298000004a5000001290000004a3000001288000004a1)
  (.lf
  0x1e1c00000786f00001e1b80000786d00001e1b00000786b00001e1a80000786900001e1a00000786700001e1980000786500001e1900000786300001e1880000786100001ea0000007a7f00001e9f800007a7d00001e9f000007a7b00001e9e800007a7900001e9e000007a7700001e9d800007a7500001e9d000007a7300001e9c800007a7100001e9c000007a6f00001e9b800007a6d00001e9b000007a6b00001e9a800007a6900001e9a000007a6700001e99800007a6500001e99000007a6300001e98800007a6100001f20000007c7f00001f1f800007c7d00001f1f000007c7b00001f1e800007c7900001f1e000007c7700001f1d800007c7500001f1d000007c7300001f1c800007c71))
  (.nd (.lf
  0xf6d87b583db41ed50f6c87b503db01ed30f6b87b483dac1ed10f6a87b403da81ecf0f6987b383da41ecd0f6887b303da01ecb0f6787b283d9c1ec90f6687b203d981ec7106588318419420c5106488310419020c3106388308418c20c110700831441be20c4106f0830c41ba20c2106e0830441c020db106f8836841bc20d9106e8836041b820d7106d8835841b420d5106c8835041b020d3106b8834841ac20d1106a8834041a820cf10698833841a420cd10688833041a020cb106788328419c20c9106688320419820c7116588b18459422c5116488b10459022c3116388b08458c22c1117008b1445be22c4116f08b0c45ba22c2116e08b0445c022db116f88b6845bc22d9116e88b6045b822d7)
  (.lf
  0x163c0000058ef0000163b8000058ed0000163b0000058eb0000163a8000058e90000163a0000058e7000016398000058e5000016390000058e3000016388000058e1000016c0000005aff000016bf800005afd000016bf000005afb000016be800005af9000016be000005af7000016bd800005af5000016bd000005af3000016bc800005af1000016bc000005aef000016bb800005aed000016bb000005aeb000016ba800005ae9000016ba000005ae7000016b9800005ae5000016b9000005ae3000016b8800005ae100001740000005cff0000173f800005cfd0000173f000005cfb0000173e800005cf90000173e000005cf70000173d800005cf50000173d000005cf30000173c800005cf1)))
  (.nd (.nd (.lf
  0x21029080c8408420221019080484404202210f908048440421e210f90874843c421c210e9086c8438421a210d9086484344218210c9085c84304216210b90854842c4214210a9084c8428421222049101c88104406220391014880c440422029100c8808440222019100488404402220f910048840441e220f91074883c441c220e9106c8838441a220d9106488344418220c9105c88304416220b91054882c4414220a9104c8828441223049181c8c1046062303918148c0c460423029180c8c0846022301918048c404602230f918048c40461e230f918748c3c461c230e9186c8c38461a230d918648c344618230c9185c8c304616230b918548c2c4614230a9184c8c28461224049201c90104806)
  (.lf
  0x166c0000059af0000166b8000059ad0000166b0000059ab0000166a8000059a90000166a0000059a7000016698000059a5000016690000059a3000016688000059a1000016f0000005bbf000016ef800005bbd000016ef000005bbb000016ee800005bb9000016ee000005bb7000016ed800005bb5000016ed000005bb3000016ec800005bb1000016ec000005baf000016eb800005bad000016eb000005bab000016ea800005ba9000016ea000005ba7000016e9800005ba5000016e9000005ba3000016e8800005ba100001770000005dbf0000176f800005dbd0000176f000005dbb0000176e800005db90000176e000005db70000176d800005db50000176d000005db30000176c800005db1))
  (.nd (.lf
  0xe5e872c839781cb10e5d872c039741caf0e5c872b839701cad0e5b872b0396c1cab0e5a872a839681ca90e59872a039641ca70e588729839601ca50e5787290395c1ca30f5687a883d581ea10f6007aac3d7e1eaa0f5f07aa43d7a1ea80f5e07a9c3d761ea60f5d07a943d721ea40f5c07a8c3d6e1ea20f5b07a843d801eb50f5f87ad03d7c1eb30f5e87ac83d781eb10f5d87ac03d741eaf0f5c87ab83d701ead0f5b87ab03d6c1eab0f5a87aa83d681ea90f5987aa03d641ea70f5887a983d601ea50f5787a903d5c1ea3105688288415820a11060082ac417e20aa105f082a4417a20a8105e0829c417620a6105d08294417220a4105c0828c416e20a2105b08284418020b5105f882d0417c20b3)
  (.lf 0)))

def shaSigTree27 : BTree :=
  .nd (.nd (.nd (.lf
  0xf0b878083c2c1e010f10078543c3e1e140f0f0784c3c3a1e120f0e078443c361e100f0d0783c3c321e0e0f0c078343c2e1e0c0f0b0782c3c2a1e0a0f0a078243c261e08100788010401c20031006880084018200110100802c403e200a100f08024403a2008100e0801c40362006100d0801440322004100c0800c402e2002100b0800440402015100f88050403c2013100e8804840382011100d880404034200f100c880384030200d100b88030402c200b100a8802840282009100988020441e220411070880c441a22021106088044440220b110f88828443c2209110e8882044382207110d8881844342205110c8881044302203110b88808442c2201111008854443e2214110f0884c443a2212)
  (.lf
  0xe1c00000386f00000e1b80000386d00000e1b00000386b00000e1a80000386900000e1a00000386700000e1980000386500000e1900000386300000e1880000386100000ea0000003a7f00000e9f800003a7d00000e9f000003a7b00000e9e800003a7900000e9e000003a7700000e9d800003a7500000e9d000003a7300000e9c800003a7100000e9c000003a6f00000e9b800003a6d00000e9b000003a6b00000e9a800003a6900000e9a000003a6700000e99800003a6500000e99000003a6300000e98800003a6100000f20000003c7f00000f1f800003c7d00000f1f000003c7b00000f1e800003c7900000f1e000003c7700000f1d800003c7500000f1d000003c7300000f1c800003c71))
  (.nd (.lf
  0x2e5e972c8b9785cb12e5d972c0b9745caf2e5c972b8b9705cad2e5b972b0b96c5cab2e5a972a8b9685ca92e59972a0b9645ca72e5897298b9605ca52e5797290b95c5ca32f5697a88bd585ea12f6017aacbd7e5eaa2f5f17aa4bd7a5ea82f5e17a9cbd765ea62f5d17a94bd725ea42f5c17a8cbd6e5ea22f5b17a84bd805eb52f5f97ad0bd7c5eb32f5e97ac8bd785eb12f5d97ac0bd745eaf2f5c97ab8bd705ead2f5b97ab0bd6c5eab2f5a97aa8bd685ea92f5997aa0bd645ea72f5897a98bd605ea52f5797a90bd5c5ea3305698288c15860a13060182acc17e60aa305f182a4c17a60a8305e1829cc17660a6305d18294c17260a4305c1828cc16e60a2305b18284c18060b5305f982d0c17c60b3)
  (.lf
  0x63c0000018ef0000063b8000018ed0000063b0000018eb0000063a8000018e90000063a0000018e7000006398000018e5000006390000018e3000006388000018e1000006c0000001aff000006bf800001afd000006bf000001afb000006be800001af9000006be000001af7000006bd800001af5000006bd000001af3000006bc800001af1000006bc000001aef000006bb800001aed000006bb000001aeb000006ba800001ae9000006ba000001ae7000006b9800001ae5000006b9000001ae3000006b8800001ae100000740000001cff0000073f800001cfd0000073f000001cfb0000073e800001cf90000073e000001cf70000073d800001cf50000073d000001cf30000073c800001cf1)))
  (.nd (.nd (.lf
  0x2f6d97b58bdb45ed52f6c97b50bdb05ed32f6b97b48bdac5ed12f6a97b40bda85ecf2f6997b38bda45ecd2f6897b30bda05ecb2f6797b28bd9c5ec92f6697b20bd985ec7306598318c19460c5306498310c19060c3306398308c18c60c1307018314c1be60c4306f1830cc1ba60c2306e18304c1c060db306f98368c1bc60d9306e98360c1b860d7306d98358c1b460d5306c98350c1b060d3306b98348c1ac60d1306a98340c1a860cf306998338c1a460cd306898330c1a060cb306798328c19c60c9306698320c19860c7316598b18c59462c5316498b10c59062c3316398b08c58c62c1317018b14c5be62c4316f18b0cc5ba62c2316e18b04c5c062db316f98b68c5bc62d9316e98b60c5b862d7)
  (.lf
  0x66c0000019af0000066b8000019ad0000066b0000019ab0000066a8000019a90000066a0000019a7000006698000019a5000006690000019a3000006688000019a1000006f0000001bbf000006ef800001bbd000006ef000001bbb000006ee800001bb9000006ee000001bb7000006ed800001bb5000006ed000001bb3000006ec800001bb1000006ec000001baf000006eb800001bad000006eb000001bab000006ea800001ba9000006ea000001ba7000006e9800001ba5000006e9000001ba3000006e8800001ba100000770000001dbf0000076f800001dbd0000076f000001dbb0000076e800001db90000076e000001db70000076d800001db50000076d000001db30000076c800001db1))
  (.nd (.lf
  0x162400000588f0000162380000588d0000162300000588b0000162280000588900001622000005887000016218000058850000162100000588300001620800005881000016a8000005a9f000016a7800005a9d000016a7000005a9b000016a6800005a99000016a6000005a97000016a5800005a95000016a5000005a93000016a4800005a91000016a4000005a8f000016a3800005a8d000016a3000005a8b000016a2800005a89000016a2000005a87000016a1800005a85000016a1000005a83000016a0800005a8100001728000005c9f00001727800005c9d00001727000005c9b00001726800005c9900001726000005c9700001725800005c9500001725000005c9300001724800005c91)
  (.lf 0)))

def shaSigTree28 : BTree :=
  .nd (.nd (.nd (.lf
  0x800000001f0000000780000001d0000000700000001b00000006800000019000000060000000170000000580000001500000005000000013000000048000000110000000400000000f0000000380000000d0000000300000000b00000002800000009000000020000000070000000180000000500000001000000003000000008000000010000008800000021f0000008780000021d0000008700000021b00000086800000219000000860000002170000008580000021500000085000000213000000848000002110000008400000020f0000008380000020d0000008300000020b0000008280000020900000082000000207000000818000002050000008100000020300000080800000201)
  (.lf
  0xa2400000288f00000a2380000288d00000a2300000288b00000a2280000288900000a2200000288700000a2180000288500000a2100000288300000a2080000288100000aa8000002a9f00000aa7800002a9d00000aa7000002a9b00000aa6800002a9900000aa6000002a9700000aa5800002a9500000aa5000002a9300000aa4800002a9100000aa4000002a8f00000aa3800002a8d00000aa3000002a8b00000aa2800002a8900000aa2000002a8700000aa1800002a8500000aa1000002a8300000aa0800002a8100000b28000002c9f00000b27800002c9d00000b27000002c9b00000b26800002c9900000b26000002c9700000b25800002c9500000b25000002c9300000b24800002c91))
  (.nd (.lf
  0x176d8bb585db42ed5176c8bb505db02ed3176b8bb485dac2ed1176a8bb405da82ecf17698bb385da42ecd17688bb305da02ecb17678bb285d9c2ec917668bb205d982ec718658c318619430c518648c310619030c318638c308618c30c118700c31461be30c4186f0c30c61ba30c2186e0c30461c030db186f8c36861bc30d9186e8c36061b830d7186d8c35861b430d5186c8c35061b030d3186b8c34861ac30d1186a8c34061a830cf18698c33861a430cd18688c33061a030cb18678c328619c30c918668c320619830c719658cb18659432c519648cb10659032c319638cb08658c32c119700cb1465be32c4196f0cb0c65ba32c2196e0cb0465c032db196f8cb6865bc32d9196e8cb6065b832d7)
  (.lf
  0x1a3c0000068ef00001a3b8000068ed00001a3b0000068eb00001a3a8000068e900001a3a0000068e700001a398000068e500001a390000068e300001a388000068e100001ac0000006aff00001abf800006afd00001abf000006afb00001abe800006af900001abe000006af700001abd800006af500001abd000006af300001abc800006af100001abc000006aef00001abb800006aed00001abb000006aeb00001aba800006ae900001aba000006ae700001ab9800006ae500001ab9000006ae300001ab8800006ae100001b40000006cff00001b3f800006cfd00001b3f000006cfb00001b3e800006cf900001b3e000006cf700001b3d800006cf500001b3d000006cf300001b3c800006cf1)))
  (.nd (.nd (.lf
  0x2c0b96054b02c58142c0a9604cb02858122d049681cb4105a062d0396814b40c5a042d029680cb4085a022d0196804b4405a022d0f96804b4405a1e2d0f96874b43c5a1c2d0e9686cb4385a1a2d0d96864b4345a182d0c9685cb4305a162d0b96854b42c5a142d0a9684cb4285a122e049701cb8105c062e0397014b80c5c042e029700cb8085c022e0197004b8405c022e0f97004b8405c1e2e0f97074b83c5c1c2e0e9706cb8385c1a2e0d97064b8345c182e0c9705cb8305c162e0b97054b82c5c142e0a9704cb8285c122f049781cbc105e062f0397814bc0c5e042f029780cbc085e022f0197804bc405e022f0f97804bc405e1e2f0f97874bc3c5e1c2f0e9786cbc385e1a2f0d97864bc345e18)
  (.lf
  0x1a6c0000069af00001a6b8000069ad00001a6b0000069ab00001a6a8000069a900001a6a0000069a700001a698000069a500001a690000069a300001a688000069a100001af0000006bbf00001aef800006bbd00001aef000006bbb00001aee800006bb900001aee000006bb700001aed800006bb500001aed000006bb300001aec800006bb100001aec000006baf00001aeb800006bad00001aeb000006bab00001aea800006ba900001aea000006ba700001ae9800006ba500001ae9000006ba300001ae8800006ba100001b70000006dbf00001b6f800006dbd00001b6f000006dbb00001b6e800006db900001b6e000006db700001b6d800006db500001b6d000006db300001b6c800006db1))
  (.nd (.lf
  0x165e8b2c859782cb1165d8b2c059742caf165c8b2b859702cad165b8b2b0596c2cab165a8b2a859682ca916598b2a059642ca716588b29859602ca516578b290595c2ca317568ba885d582ea117600baac5d7e2eaa175f0baa45d7a2ea8175e0ba9c5d762ea6175d0ba945d722ea4175c0ba8c5d6e2ea2175b0ba845d802eb5175f8bad05d7c2eb3175e8bac85d782eb1175d8bac05d742eaf175c8bab85d702ead175b8bab05d6c2eab175a8baa85d682ea917598baa05d642ea717588ba985d602ea517578ba905d5c2ea318568c288615830a118600c2ac617e30aa185f0c2a4617a30a8185e0c29c617630a6185d0c294617230a4185c0c28c616e30a2185b0c284618030b5185f8c2d0617c30b3)
  (.lf 0)))

def shaSigTree29 : BTree :=
  .nd (.nd (.nd (.lf
  0x180e0c01c60363006180d0c01460323004180c0c00c602e3002180b0c00460403015180f8c050603c3013180e8c04860383011180d8c0406034300f180c8c0386030300d180b8c030602c300b180a8c0286028300918098c020641e320419070c80c641a320219060c8046440320b190f8c828643c3209190e8c82064383207190d8c81864343205190c8c81064303203190b8c808642c320119100c854643e3214190f0c84c643a3212190e0c84464363210190d0c83c6432320e190c0c834642e320c190b0c82c642a320a190a0c824642632081a078d010681c34031a068d008681834011a100d02c683e340a1a0f0d024683a34081a0e0d01c683634061a0d0d014683234041a0c0d00c682e3402)
  (.lf
  0x121c00000486f0000121b80000486d0000121b00000486b0000121a8000048690000121a000004867000012198000048650000121900000486300001218800004861000012a0000004a7f0000129f800004a7d0000129f000004a7b0000129e800004a790000129e000004a770000129d800004a750000129d000004a730000129c800004a710000129c000004a6f0000129b800004a6d0000129b000004a6b0000129a800004a690000129a000004a6700001299800004a6500001299000004a6300001298800004a6100001320000004c7f0000131f800004c7d0000131f000004c7b0000131e800004c790000131e000004c770000131d800004c750000131d000004c730000131c800004c71))
  (.nd (.lf
  0x365e9b2c8d9786cb1365d9b2c0d9746caf365c9b2b8d9706cad365b9b2b0d96c6cab365a9b2a8d9686ca936599b2a0d9646ca736589b298d9606ca536579b290d95c6ca337569ba88dd586ea137601baacdd7e6eaa375f1baa4dd7a6ea8375e1ba9cdd766ea6375d1ba94dd726ea4375c1ba8cdd6e6ea2375b1ba84dd806eb5375f9bad0dd7c6eb3375e9bac8dd786eb1375d9bac0dd746eaf375c9bab8dd706ead375b9bab0dd6c6eab375a9baa8dd686ea937599baa0dd646ea737589ba98dd606ea537579ba90dd5c6ea338569c288e15870a138601c2ace17e70aa385f1c2a4e17a70a8385e1c29ce17670a6385d1c294e17270a4385c1c28ce16e70a2385b1c284e18070b5385f9c2d0e17c70b3)
  (.lf
  0xa3c0000028ef00000a3b8000028ed00000a3b0000028eb00000a3a8000028e900000a3a0000028e700000a398000028e500000a390000028e300000a388000028e100000ac0000002aff00000abf800002afd00000abf000002afb00000abe800002af900000abe000002af700000abd800002af500000abd000002af300000abc800002af100000abc000002aef00000abb800002aed00000abb000002aeb00000aba800002ae900000aba000002ae700000ab9800002ae500000ab9000002ae300000ab8800002ae100000b40000002cff00000b3f800002cfd00000b3f000002cfb00000b3e800002cf900000b3e000002cf700000b3d800002cf500000b3d000002cf300000b3c800002cf1)))
  (.nd (.nd (.lf
  0x376d9bb58ddb46ed5376c9bb50ddb06ed3376b9bb48ddac6ed1376a9bb40dda86ecf37699bb38dda46ecd37689bb30dda06ecb37679bb28dd9c6ec937669bb20dd986ec738659c318e19470c538649c310e19070c338639c308e18c70c138701c314e1be70c4386f1c30ce1ba70c2386e1c304e1c070db386f9c368e1bc70d9386e9c360e1b870d7386d9c358e1b470d5386c9c350e1b070d3386b9c348e1ac70d1386a9c340e1a870cf38699c338e1a470cd38689c330e1a070cb38679c328e19c70c938669c320e19870c739659cb18e59472c539649cb10e59072c339639cb08e58c72c139701cb14e5be72c4396f1cb0ce5ba72c2396e1cb04e5c072db396f9cb68e5bc72d9396e9cb60e5b872d7)
  (.lf
  0xa6c0000029af00000a6b8000029ad00000a6b0000029ab00000a6a8000029a900000a6a0000029a700000a698000029a500000a690000029a300000a688000029a100000af0000002bbf00000aef800002bbd00000aef000002bbb00000aee800002bb900000aee000002bb700000aed800002bb500000aed000002bb300000aec800002bb100000aec000002baf00000aeb800002bad00000aeb000002bab00000aea800002ba900000aea000002ba700000ae9800002ba500000ae9000002ba300000ae8800002ba100000b70000002dbf00000b6f800002dbd00000b6f000002dbb00000b6e800002db900000b6e000002db700000b6d800002db500000b6d000002db300000b6c800002db1))
  (.nd (.lf
  0x1a2400000688f00001a2380000688d00001a2300000688b00001a2280000688900001a2200000688700001a2180000688500001a2100000688300001a2080000688100001aa8000006a9f00001aa7800006a9d00001aa7000006a9b00001aa6800006a9900001aa6000006a9700001aa5800006a9500001aa5000006a9300001aa4800006a9100001aa4000006a8f00001aa3800006a8d00001aa3000006a8b00001aa2800006a8900001aa2000006a8700001aa1800006a8500001aa1000006a8300001aa0800006a8100001b28000006c9f00001b27800006c9d00001b27000006c9b00001b26800006c9900001b26000006c9700001b25800006c9500001b25000006c9300001b24800006c91)
  (.lf 0)))

def shaSigTree30 : BTree :=
  .nd (.nd (.nd (.lf
  0x290a14824a42652082a0795010a81c54032a0695008a81854012a101502ca83e540a2a0f15024a83a54082a0e1501ca83654062a0d15014a83254042a0c1500ca82e54022a0b15004a84054152a0f95050a83c54132a0e95048a83854112a0d95040a834540f2a0c95038a830540d2a0b95030a82c540b2a0a95028a82854092a0995020ac1e56042b071580cac1a56022b0615804ac40560b2b0f95828ac3c56092b0e95820ac3856072b0d95818ac3456052b0c95810ac3056032b0b95808ac2c56012b1015854ac3e56142b0f1584cac3a56122b0e15844ac3656102b0d1583cac32560e2b0c15834ac2e560c2b0b1582cac2a560a2b0a15824ac2656082c0796010b01c58032c0696008b0185801)
  (.lf
  0x1a1c00000686f00001a1b80000686d00001a1b00000686b00001a1a80000686900001a1a00000686700001a1980000686500001a1900000686300001a1880000686100001aa0000006a7f00001a9f800006a7d00001a9f000006a7b00001a9e800006a7900001a9e000006a7700001a9d800006a7500001a9d000006a7300001a9c800006a7100001a9c000006a6f00001a9b800006a6d00001a9b000006a6b00001a9a800006a6900001a9a000006a6700001a99800006a6500001a99000006a6300001a98800006a6100001b20000006c7f00001b1f800006c7d00001b1f000006c7b00001b1e800006c7900001b1e000006c7700001b1d800006c7500001b1d000006c7300001b1c800006c71))
  (.nd (.lf
  0x76d83b581db40ed5076c83b501db00ed3076b83b481dac0ed1076a83b401da80ecf076983b381da40ecd076883b301da00ecb076783b281d9c0ec9076683b201d980ec7086584318219410c5086484310219010c3086384308218c10c108700431421be10c4086f0430c21ba10c2086e0430421c010db086f8436821bc10d9086e8436021b810d7086d8435821b410d5086c8435021b010d3086b8434821ac10d1086a8434021a810cf08698433821a410cd08688433021a010cb086784328219c10c9086684320219810c7096584b18259412c5096484b10259012c3096384b08258c12c1097004b1425be12c4096f04b0c25ba12c2096e04b0425c012db096f84b6825bc12d9096e84b6025b812d7)
  (.lf
  0x123c0000048ef0000123b8000048ed0000123b0000048eb0000123a8000048e90000123a0000048e7000012398000048e5000012390000048e3000012388000048e1000012c0000004aff000012bf800004afd000012bf000004afb000012be800004af9000012be000004af7000012bd800004af5000012bd000004af3000012bc800004af1000012bc000004aef000012bb800004aed000012bb000004aeb000012ba800004ae9000012ba000004ae7000012b9800004ae5000012b9000004ae3000012b8800004ae100001340000004cff0000133f800004cfd0000133f000004cfb0000133e800004cf90000133e000004cf70000133d800004cf50000133d000004cf30000133c800004cf1)))
  (.nd (.nd (.lf
  0x150e8a86c54382a1a150d8a86454342a18150c8a85c54302a16150b8a854542c2a14150a8a84c54282a1216048b01c58102c0616038b014580c2c0416028b00c58082c0216018b00458402c02160f8b00458402c1e160f8b074583c2c1c160e8b06c58382c1a160d8b06458342c18160c8b05c58302c16160b8b054582c2c14160a8b04c58282c1217048b81c5c102e0617038b8145c0c2e0417028b80c5c082e0217018b8045c402e02170f8b8045c402e1e170f8b8745c3c2e1c170e8b86c5c382e1a170d8b8645c342e18170c8b85c5c302e16170b8b8545c2c2e14170a8b84c5c282e1218048c01c6010300618038c014600c300418028c00c6008300218018c00460403002180f8c0046040301e)
  (.lf
  0x126c0000049af0000126b8000049ad0000126b0000049ab0000126a8000049a90000126a0000049a7000012698000049a5000012690000049a3000012688000049a1000012f0000004bbf000012ef800004bbd000012ef000004bbb000012ee800004bb9000012ee000004bb7000012ed800004bb5000012ed000004bb3000012ec800004bb1000012ec000004baf000012eb800004bad000012eb000004bab000012ea800004ba9000012ea000004ba7000012e9800004ba5000012e9000004ba3000012e8800004ba100001370000004dbf0000136f800004dbd0000136f000004dbb0000136e800004db90000136e000004db70000136d800004db50000136d000004db30000136c800004db1))
  (.nd (.lf
  0x65e832c819780cb1065d832c019740caf065c832b819700cad065b832b0196c0cab065a832a819680ca90659832a019640ca706588329819600ca5065783290195c0ca3075683a881d580ea1076003aac1d7e0eaa075f03aa41d7a0ea8075e03a9c1d760ea6075d03a941d720ea4075c03a8c1d6e0ea2075b03a841d800eb5075f83ad01d7c0eb3075e83ac81d780eb1075d83ac01d740eaf075c83ab81d700ead075b83ab01d6c0eab075a83aa81d680ea9075983aa01d640ea7075883a981d600ea5075783a901d5c0ea3085684288215810a10860042ac217e10aa085f042a4217a10a8085e0429c217610a6085d04294217210a4085c0428c216e10a2085b04284218010b5085f842d0217c10b3)
  (.lf 0)))

def shaSigTree31 : BTree :=
  .nd (.nd (.nd (.lf
  0x60e8304818380c11060d8304018340c0f060c8303818300c0d060b83030182c0c0b060a8302818280c090609830201c1e0e0407070380c1c1a0e020706038041c400e0b070f838281c3c0e09070e838201c380e07070d838181c340e05070c838101c300e03070b838081c2c0e010710038541c3e0e14070f0384c1c3a0e12070e038441c360e10070d0383c1c320e0e070c038341c2e0e0c070b0382c1c2a0e0a070a038241c260e08080784010201c10030806840082018100108100402c203e100a080f04024203a1008080e0401c20361006080d0401420321004080c0400c202e1002080b0400420401015080f84050203c1013080e8404820381011080d840402034100f080c840382030100d)
  (.lf
  0xa1c00000286f00000a1b80000286d00000a1b00000286b00000a1a80000286900000a1a00000286700000a1980000286500000a1900000286300000a1880000286100000aa0000002a7f00000a9f800002a7d00000a9f000002a7b00000a9e800002a7900000a9e000002a7700000a9d800002a7500000a9d000002a7300000a9c800002a7100000a9c000002a6f00000a9b800002a6d00000a9b000002a6b00000a9a800002a6900000a9a000002a6700000a99800002a6500000a99000002a6300000a98800002a6100000b20000002c7f00000b1f800002c7d00000b1f000002c7b00000b1e800002c7900000b1e000002c7700000b1d800002c7500000b1d000002c7300000b1c800002c71))
  (.nd (.lf
  0x265e932c899784cb1265d932c099744caf265c932b899704cad265b932b0996c4cab265a932a899684ca92659932a099644ca726589329899604ca5265793290995c4ca3275693a889d584ea1276013aac9d7e4eaa275f13aa49d7a4ea8275e13a9c9d764ea6275d13a949d724ea4275c13a8c9d6e4ea2275b13a849d804eb5275f93ad09d7c4eb3275e93ac89d784eb1275d93ac09d744eaf275c93ab89d704ead275b93ab09d6c4eab275a93aa89d684ea9275993aa09d644ea7275893a989d604ea5275793a909d5c4ea3285694288a15850a12860142aca17e50aa285f142a4a17a50a8285e1429ca17650a6285d14294a17250a4285c1428ca16e50a2285b14284a18050b5285f942d0a17c50b3)
  (.lf
  0x23c0000008ef0000023b8000008ed0000023b0000008eb0000023a8000008e90000023a0000008e7000002398000008e5000002390000008e3000002388000008e1000002c0000000aff000002bf800000afd000002bf000000afb000002be800000af9000002be000000af7000002bd800000af5000002bd000000af3000002bc800000af1000002bc000000aef000002bb800000aed000002bb000000aeb000002ba800000ae9000002ba000000ae7000002b9800000ae5000002b9000000ae3000002b8800000ae100000340000000cff0000033f800000cfd0000033f000000cfb0000033e800000cf90000033e000000cf70000033d800000cf50000033d000000cf30000033c800000cf1)))
  (.nd (.nd (.lf
  0x276d93b589db44ed5276c93b509db04ed3276b93b489dac4ed1276a93b409da84ecf276993b389da44ecd276893b309da04ecb276793b289d9c4ec9276693b209d984ec7286594318a19450c5286494310a19050c3286394308a18c50c1287014314a1be50c4286f1430ca1ba50c2286e14304a1c050db286f94368a1bc50d9286e94360a1b850d7286d94358a1b450d5286c94350a1b050d3286b94348a1ac50d1286a94340a1a850cf286994338a1a450cd286894330a1a050cb286794328a19c50c9286694320a19850c7296594b18a59452c5296494b10a59052c3296394b08a58c52c1297014b14a5be52c4296f14b0ca5ba52c2296e14b04a5c052db296f94b68a5bc52d9296e94b60a5b852d7)
  (.lf
  0x26c0000009af0000026b8000009ad0000026b0000009ab0000026a8000009a90000026a0000009a7000002698000009a5000002690000009a3000002688000009a1000002f0000000bbf000002ef800000bbd000002ef000000bbb000002ee800000bb9000002ee000000bb7000002ed800000bb5000002ed000000bb3000002ec800000bb1000002ec000000baf000002eb800000bad000002eb000000bab000002ea800000ba9000002ea000000ba7000002e9800000ba5000002e9000000ba3000002e8800000ba100000370000000dbf0000036f800000dbd0000036f000000dbb0000036e800000db90000036e000000db70000036d800000db50000036d000000db30000036c800000db1))
  (.nd (.lf
  0x122400000488f0000122380000488d0000122300000488b0000122280000488900001222000004887000012218000048850000122100000488300001220800004881000012a8000004a9f000012a7800004a9d000012a7000004a9b000012a6800004a99000012a6000004a97000012a5800004a95000012a5000004a93000012a4800004a91000012a4000004a8f000012a3800004a8d000012a3000004a8b000012a2800004a89000012a2000004a87000012a1800004a85000012a1000004a83000012a0800004a8100001328000004c9f00001327800004c9d00001327000004c9b00001326800004c9900001326000004c9700001325800004c9500001325000004c9300001324800004c91)
  (.lf 0)))

/-- Lists of signals (up to 2 of 17 bits, one more than the signal): 64 per leaf. -/
def shaSigTree : BTree :=
  .nd (.nd (.nd (.nd (.nd (shaSigTree0) (shaSigTree1)) (.nd (shaSigTree2) (shaSigTree3))) (.nd (.nd (shaSigTree4) (shaSigTree5)) (.nd (shaSigTree6)
  (shaSigTree7)))) (.nd (.nd (.nd (shaSigTree8) (shaSigTree9)) (.nd (shaSigTree10) (shaSigTree11))) (.nd (.nd (shaSigTree12) (shaSigTree13)) (.nd (shaSigTree14)
  (shaSigTree15))))) (.nd (.nd (.nd (.nd (shaSigTree16) (shaSigTree17)) (.nd (shaSigTree18) (shaSigTree19))) (.nd (.nd (shaSigTree20) (shaSigTree21)) (.nd
  (shaSigTree22) (shaSigTree23)))) (.nd (.nd (.nd (shaSigTree24) (shaSigTree25)) (.nd (shaSigTree26) (shaSigTree27))) (.nd (.nd (shaSigTree28) (shaSigTree29))
  (.nd (shaSigTree30) (shaSigTree31)))))

def shaKTree0 : BTree :=
  .nd (.nd (.nd (.lf 0x428a2f98) (.lf 0x27b70a85)) (.nd (.lf 0xe49b69c1) (.lf 0x19a4c116))) (.nd (.nd (.lf 0xd807aa98) (.lf 0xa2bfe8a1)) (.nd (.lf 0x983e5152)
  (.lf 0x748f82ee)))

def shaKTree1 : BTree :=
  .nd (.nd (.nd (.lf 0x3956c25b) (.lf 0x650a7354)) (.nd (.lf 0x2de92c6f) (.lf 0x391c0cb3))) (.nd (.nd (.lf 0x72be5d74) (.lf 0xd192e819)) (.nd (.lf 0xc6e00bf3)
  (.lf 0x90befffa)))

def shaKTree2 : BTree :=
  .nd (.nd (.nd (.lf 0xb5c0fbcf) (.lf 0x4d2c6dfc)) (.nd (.lf 0xfc19dc6) (.lf 0x2748774c))) (.nd (.nd (.lf 0x243185be) (.lf 0xc24b8b70)) (.nd (.lf 0xb00327c8) (.lf
  0x84c87814)))

def shaKTree3 : BTree :=
  .nd (.nd (.nd (.lf 0x923f82a4) (.lf 0x81c2c92e)) (.nd (.lf 0x5cb0a9dc) (.lf 0x5b9cca4f))) (.nd (.nd (.lf 0x9bdc06a7) (.lf 0xf40e3585)) (.nd (.lf 0x6ca6351) (.lf
  0xbef9a3f7)))

def shaKTree4 : BTree :=
  .nd (.nd (.nd (.lf 0x71374491) (.lf 0x2e1b2138)) (.nd (.lf 0xefbe4786) (.lf 0x1e376c08))) (.nd (.nd (.lf 0x12835b01) (.lf 0xa81a664b)) (.nd (.lf 0xa831c66d)
  (.lf 0x78a5636f)))

def shaKTree5 : BTree :=
  .nd (.nd (.nd (.lf 0x59f111f1) (.lf 0x766a0abb)) (.nd (.lf 0x4a7484aa) (.lf 0x4ed8aa4a))) (.nd (.nd (.lf 0x80deb1fe) (.lf 0xd6990624)) (.nd (.lf 0xd5a79147)
  (.lf 0xa4506ceb)))

def shaKTree6 : BTree :=
  .nd (.nd (.nd (.lf 0xe9b5dba5) (.lf 0x53380d13)) (.nd (.lf 0x240ca1cc) (.lf 0x34b0bcb5))) (.nd (.nd (.lf 0x550c7dc3) (.lf 0xc76c51a3)) (.nd (.lf 0xbf597fc7)
  (.lf 0x8cc70208)))

def shaKTree7 : BTree :=
  .nd (.nd (.nd (.lf 0xab1c5ed5) (.lf 0x92722c85)) (.nd (.lf 0x76f988da) (.lf 0x682e6ff3))) (.nd (.nd (.lf 0xc19bf174) (.lf 0x106aa070)) (.nd (.lf 0x14292967)
  (.lf 0xc67178f2)))

/-- The constants: one per leaf. -/
def shaKTree : BTree :=
  .nd (.nd (.nd (shaKTree0) (shaKTree1)) (.nd (shaKTree2) (shaKTree3))) (.nd (.nd (shaKTree4) (shaKTree5)) (.nd (shaKTree6) (shaKTree7)))

end Verif.Data
