import Verif.NetSort

/-!
# The order in which the gates of `data/circ/aes_128.txt` are packed

Generated by `tools/gen_circuits.py`.
-/

namespace Verif.Data

def aesXorReads0 : BTree :=
  .nd (.nd (.nd (.lf
  0x5416ba0443010e00428410940422010700004c16b0042781086041f0001108aa015e0056a815920564015710558c000f055b4156b0559815340003415e405730158d05608156805588154a0002c2200055fc1570055a80009056181561053d000070892815930561c157e055e415640001415fc0574015910561015780558015200000c158e055d8156c054400001)
  (.lf
  0xb7d832d90b85832d80b8142dff0b8702dfe0ccc02e500b82432fc0b8202e040b8542e2e0b8b032fe0b85c2e140b8742e210b8ac2e260b8a82e510b6a42d9e0b76c2dd80b8d82e230b8d42e2d0b6942da30b7842da00b6382d940b7642d970b6e42db30ccc432ff0b72c2dad0cb6c2e3e0b5a42d580b78c2da10b7042d8f0b7b02de20b90c2e330b7982ddc0b6a02d89))
  (.nd (.lf
  0x378b8de2c3ea64fa6c3e9a0eedd38a80fef93f948ea5d393e8ea773a540e94f3a7ace51b37988fe3d3f8dcfcdd3ef5cf8f23ee18fb1e3eb88fab83e994fa633fbacfebb3bc08f3773c43cf1003c854f1ab38f00e98f3c3ccf0f23c538f15d3c570f1ed3c3ecf0fa3cde4f1b93c6e0f1973c6fcf1be3c48cea0d3a830f1633c588f2173d6b4f18f3c638f5653d590f147)
  (.lf
  0x1c3646fb21beb06faa1bec06da41b4d06f0a1bb606ec01b64c69f81a7dc6eac1b4b4698d1bc386ef61bab86d9d1b6606d921a7d869d91a6306ea91a7686eb91baa869f91a76c69d81bc986efa1bb046eb81bac86ea81bad86d9e1b4b0703c1c0286ff21bf406d771a7246fde1b6046d7f1c10070281bf806d891b6106d761bf2c6d7e1a7206fdb1bf386feb1bf706fd1)))
  (.nd (.nd (.lf
  0x194c064e018d0063601984066001954063b06a641a9801964065806a4c05ba016fc05a70169805c3017c405e2017ec05ff0174005e5017f805e40180405d70174c06030180805fd015f405810114c044e0111c0457011340449011a004d90120404c10124404af011c004cb01280048a0130c048f0121404780125804840120004900123804bb012a404bc012a004a6)
  (.lf
  0x34aecd2b1349b4d24f34bc8d2e13482cd1ea34a14d2433498cd23134a38d28434becd2df34a20d27e34928d22b34bf8d2dd34bd0d2db347e8b42f2d0b4d25f348a0d246348dcd249348a4d21f34860d2143489cd1fb347e4d1f734a28d24134854d21234804b42c34858d20c347d4d2e834bb4d2ec34bbcd2eb34bc4d2f034bccd2ee34b30d2ce34c3cd30e34bd4d2d3))
  (.nd (.lf
  0x251ec9477250a0942024f9093d125ab8947525220947324ed493b124eb8940124f3893ea24f6493ed24f3c93bc24ee093ab24f3493af24e9c9355250a893e124ee493b024d94931e24ee8935624d4c947e2520c94822521494812521c9486251f4948425190946625244949025224946b25ad496b4251e4947825abc93ec24f9c93d724f5893f3250849410250a4942d)
  (.lf 0)))

def aesXorReads1 : BTree :=
  .nd (.nd (.nd (.lf
  0x11404f191120ac48293d59c47b11145cf5851226448973c5a447a711444f23111a4c45073c79c485312144f1af1266c40f93c99c499710354f13312d6c40d13c42c49b71032cf11f12c9c40e53c5544993103acf2111265440dd3c4ec4b5d416244cce10ac042a4109410b1d13308431210b98427e109a44254109190bbd1331842a610a0c4281109fc427c413744c9e)
  (.lf
  0x3b874edf93b7f4edfc3b854edfe3b7e0ee003b81cee063b814ee033b834ee0c3b8b4ee2c3b85ceaee3b60cec553b150eb133b6b4edc63b74cedd73b5e8edc93b758edc83b6cced7f3b5f4ede53b790edd53ab0ceab73c5acf1893c618f25d3c804f1b13c7d8f5013c964f4cd3d27cf4d73c610f4b73d250f47c3d33cf4913d1e0f4733d248f4723c960f49e3d240f4ad))
  (.nd (.lf
  0x926824550926024ce09150247e0916c24670917c245a09210245e093b8246c091ac246a091982464091f42496092502476091fc247c0921424890924c248e0924824ef0901c23fc090e42436092c0248b092bc24950900c2401090fc23fe08fb023f2090dc23f50905c2411091dc246d090a4240b092e0249d08f1823c30910423ff0907c23ed0912824400933c249b)
  (.lf
  0x6a2c0cce06da41ab8069f051de1473059c8133a86436147c8643c1612051d21470859ba133b01bae147b057fe160e04dd0166c859c2134904d1a15fd8584a160a864421673051bc134304d1c15fb05830146785250148b052101c9b0729014a5072681620861a8148184e94135604d4e149705874162404ea4148d8521818a8062cc1395862ba146b84eac149105220)))
  (.nd (.nd (.lf
  0x27a08980924e848c7623080930c24be092f627ac49e2c278a492f9245f48c7427b1c9e2d24a209f67279d492672617492d020e289f11279e09e6e279a097db231288c6f209409ea62604c928a24a08933d2482891fe24ae092b7260648c0e267e49224267f497cb209f899fe25f7c923f24b7c92d124c3491ef24670936724c588c68230b88c2123078989526074838c)
  (.lf
  0x609c1837060b418290612018b90618418a1061c4188f0614018ab06200186a0628c186f061941858061d81864061801870061b8189b06224189c062201886062a4189406238188c06280189e06274189a062a818a8062e018b40641818cb064101918063284cd9063a84cd80636418d3063c018d2133f81920063744cee0637018d8063a41902064004cf0063ac18e8))
  (.nd (.lf
  0x1f8007dfb1f6147d2b26984915a232648cfc233e4907b241dc906f2341090d72420490bf2421c90ad2342090c92427890922430490972344c8d0c2426090802344890962421890b92429c90ba2429890a42431c90b2242b090aa242f890bc242ec90b82432090c62435890d22449090e9244889134243a0920f24420920e243dc90f12443890f0248489144243ec9210)
  (.lf 0)))

def aesXorReads2 : BTree :=
  .nd (.nd (.nd (.lf
  0xb99cb1cd0cc3833092c5542fb00b92cb17f0cba032e12cdbc2fe00b9fcb75b0bf582e732e324333c0ccecb7690d1002cd33034c344a0b394b1dd0d718302b30384342e0b2e4c0f70d6b8b1e50d1802d0d2c7ac34540b3e4b1f10d74830532a75c32750c9c4aaa50ca2432832a8f438d10e33caa6f0c97432572acdc39610e56ca9e50cac432af2ab4c329f0ca64aa01)
  (.lf
  0x27fdc9ffb2c64cb18f2c630b77f2ddecb7732c670b7db2de14b7c32de2cb7b12c5b0b7cd2de88b7962df14b79b2c6a4b1a02de70b7842c6a0b79a2de28b7bd2deacb7be2dea8b7a82df2cb7b62dec0b7ae2df08b7c02defcb7bc2df30b7ca2df68b7d62e0c8b7ed2e0c0b8462dfb0b8162dfccb7ff2dfdcb7f22e070b7f62e138b8042e00cb8022dff8b7fc2e054b82e))
  (.nd (.lf
  0x40fd10b1642c5d0b1542c4d0584415d1057342ee509bb41eb906d2418b1062a41a9906a541a8909a34229d089d41b0106a341921152a454a1152641a01082841fa1006641b2d0681418b50f1f41b8113b140ff903ce41b8506a7405e907ed41fa507e7446e5063c41ea9077c402a11529451fd13dd43c5d0f1543c4d0f9a43cb1069641ebd07ac41ead15e1454ad03c6)
  (.lf
  0x31c24c74331c84c71e31c74c71831f98c7ba31e50c74131c70c70831e58c78a31e20d11033e38cf7e33df0cf7333dbcd0d132210c6e734450d0ee34360cf6e32218c6ef33dc8c6e631b0cc88832204cf7f32224c88231e0cc6c2344b0d10034368cf7d32200c78234370d0d034338cffe33f30cfb433d6cc7103191ccfa033d64c6d534008cfea33e88cf6331b60c646)))
  (.nd (.nd (.lf
  0x169a05a8516a305a8a16a205a80169f05a6f169b05a84169d05aa416a505b0016b1c5afc16bf85ac616b705acb16b285ab516abc5ab416aa85b1216b585ad516b505acc16ab85adf16bb05aea16b385ade16b745aab16b8c5af416ba45ae816c4c5b0216b345a65169585a79169d85af216b945af116bac5a611696c5aa5169605a44169285a77169345a89169a45ad7)
  (.lf
  0x2af5cabd22aff0abd62b110abe42af8cabe22af78abdc2afd4ac0e2b030abee2afdcabf42aff4ac012b02cac062b028ac452b050abdd2adfcab742aec4abae2b068ac032b064ac0d2adecab792aedcab762ad90ab6a2aebcab6d2ae3cab892afbcabe52ae84ab832b090ac152ab88aa752aee4ab772ae5cab652af08abb82b0b4ac132aef0abb22adf8ab632b0d0ac11))
  (.nd (.lf
  0x246488e5a2384c9184238488e0e2387c8e38238d89186238848e1e2389c8e2b238d48e30238d08e5b236cc8da8237948de2239008e2d238fc8e37236bc8dad237ac8daa236608d9e2378c8da12370c8dbd2464c9187237548db7245a48e4a235cc8d70237b48dab2372c8d99237d88dec2393c8e3d237c08de6236c88d97246508e3b239308e39235d48d69235988dc7)
  (.lf 0)))

def aesXorReads3 : BTree :=
  .nd (.nd (.nd (.lf
  0x43fd90fd443f410ff443fa1101543ff5101843ff10ff2440ad100a440091000440f91019440511012440a9101c44121102e44241102944239109a440a11065441811079441911039440e11034441d1106d441511078441c1106c44175108c44229107244185105c440d511a5446b9107d441f1105543fbd0fea44095101e4469d10804422d107f43fe50ff7440bd0fec)
  (.lf
  0x4144904b44134d04d141301048c4116d04564148904cf42ba904cd410c0ff9d3fe6d049541139046941199046b4113d044d41059040c41115043d410e50431413110465410b5041041034ff9a41119042f4109904e44146d051a42bbd04e742bc50af0413d50aee42b910ae642bd50af442bad0ae942dbd0b6e4135504d44148d046a41165044341109045f412350490))
  (.nd (.lf
  0x1d7e475cf1d72c75fb1d7e875f51d5fc755721f3c6f9c1b6546ebc1bad46eb31baec6eb71bb106f311bb246f191bba46f071bb306f231bbe06ee21bc6c6ee71bb746ed41bbb86edc1bb206ee81bb986f131bc046f141bc006efe1bc846f0c1bc186f041bc606f161bc546f121bc886f201bcc06f2c1bdf86f431bdf06f8e1bd0871c11bd8871c01bd446f4b1bda06f4a)
  (.lf
  0x33658cf3e337e8f7eb36854d9d43686cd9f833680e2af37ccccc7b33ca4cf0f336ccdf8733c94cc7937dd4df673369ce16e336b4cc7a33804cdb233150cdff331e0cc6c37e40cda633198e16b38088cdac38094dff537e70df7b33154df5137d04dfb1385a8e03037cc8e2b137de8df2b38f24df9d37d40dfb637da4df4039cd8cf3533b24e68533b7cceb939a1ccecb)))
  (.nd (.nd (.lf
  0x29fc8a7ee2a1fca8722a1c0a7f02a1f8a7dd29f44a8832a218a8692a1a0a8a32a1f0a7ef29df4a77829f08a7b52a214a86c2a1c4a86b29e24a6d729ec4a77a29b98a78a29f0ca78d29ea4a7912a24ca7f129e54a7812a258a87d29b74a6ae29f24a77b29e9ca6e729f58a7c82a1eca87729f50a7b629df0a6e52a268a8752a220a87329b14a6ab298a8a7a329b88a78b)
  (.lf
  0x42c3caa1228dd4a3732ab04aa0d28dbcb76e2bec4afad2c4a4afa92be9cd52433ccccda5357a4d0b534238aa8e28da8a36928d94a36228d7ccf1f336bccdab3809ccf17331f4dff733c64cf0d35998d55b33c1cdb2b36c04daf036b68da9f36a64da77369ccda7137fb0df6533bfcea5b3a638de633a85ce8b1379b0ea8939370dd3f369a8da5536940fbd13ea68ec2f))
  (.nd (.lf
  0x4af012ab0477411cd0472012390480812200484412230480c11f10479811e20480411c90470c11c104990121b047e411e30476811cc0479011ce046fc12b004ad412b404adc12b304ae412b804aec12b604a70129e04b2c12ca04af412a307b441ed004b0412c007b6c12220489c120f04838122b04964124a0498c1267048e0124d04998124c049a4123f048ec126b)
  (.lf 0)))

def aesXorReads4 : BTree :=
  .nd (.nd (.nd (.lf
  0x13434220d087ec51bd055341547167341537054c4644308a9422a3160ac24f705ab4584b0941416b715fdc24bf059f44d1b0934c168b13494249f0599459c3094a416ed166cc251705b444dd1093841697160e417e30463457ff05fb41197147b41f1106f741baf05f44117b133b41f390702c59bb0601411af1470c17f90468c51d307c141be7161241d37190f41d41)
  (.lf
  0x19950661119880660f195085c0717014659d195a86584195d46587195ac6559170285c08195a4654319504653f19720657f195845c09170105c02195486546194f466141986466181986c661719874661c1987c661a198006602198b4662c1988466071998c66621989466241995465861962c6573195c8658f196f465ae1971c65cb1967065b11972865b01973465a3))
  (.nd (.lf
  0x40ae902a64166905d94168505e14169d06434184505ab40acd0637418d0ffae3fc45060140aed05c540a9d0600417e106334187d05ea4174902bc40a9506444187506704186cff693fd64ff12416c502a241671059b4167d02a340aa102a13fd48ff4d3fc6cff173fc4d05f44166502b940aa4ff583fd4102aa3fc34fe8841881062541891066d4188d066f419b90635)
  (.lf
  0x27bac9eda28e68a278289649f6227cd89f30289089f8627d68a28c27f589f6d27b989eaf27a609fb527e889f9528a38a23027efc9f9827db09f4827ed09eae27ab49eff27a689f0427b949eac27a6c9e9928ab0a11827e689efe27b9c9ee427f009f9427cb0aef22baf0aea42ba2c986324bb0ae872ba00989f2bbd8aede2ba84ae822628898622ba5cae8a2ba18ae9a)))
  (.nd (.nd (.lf
  0x2c780b1c02cfc0b2a02c900b2202cd80b3402ccc0b3002d000b3e02d380b4a02e700b6102e680bac02d801b3902e001b3802dbc0b6902e180b6806d400bb202dcc1b4802dc80b6e02dfc0b9802e581b4a02e040b7e02e1c0b8b02e540b9002e500bb302c4c0b0802d140b4202e800b8d02e7c0b9702c3c0b0d02d2c0b0a02be00afe02d0c0b0102c8c0b1d06d441b4b)
  (.lf
  0x33e50d101344bcd120344e4d13d34438d123344f0d122344fcd11534444d14134500d13b33decd0dd35494d5223508cd3f434fbcd44b3511cd3f1350f8d4bd3515cd4a5351d4d49335098d4af35210d46e3529cd473351a4d460351e8d46835158d474351c8d49f35234d4a035230d48a352b4d49835248d49035290d4a235284d49e352b8d4ac352f0d4b835450d4cf))
  (.nd (.lf
  0x2592096432574c95d70c23430870c2102d130c18430890c26031010c2a430e90c2e430d70c18830f30c32030b20c3ac30b70c2b430a00c2f830ac0c2a030b80c2d830e30c34430e40c34030ce0c3c430dc0c35830d40c3a030e60c39430e20c3c830f00c40030fc0c53831130c530315e0c44832c90c4c832c80c484311b0c4e0311a0cb5031640c49432cc0c4903120)
  (.lf 0)))

def aesXorReads5 : BTree :=
  .nd (.nd (.nd (.lf
  0x42fb10bef42fb50c5f430290bdc42d1d0b41432d90c794303d0be6432790c7b430390c0d431510c2b430fd0c1242fa10cc4432d50c46430b10c984325d0cb1431f50c84431010c334304d0c4142fa50bd442f3d0c99431f90c2742fc50ca7432750c35430650c55430150c0212c7c4cad12d2c4b0512c6c4ca912d1c4b0112c244ca512d0c4af1126d449a91272c4b31)
  (.lf
  0x360c8d83036110d84236104d83e36138d84c36170d858362d0d86f362c8d8c8361b8d898361d4d881361e4d87436278d87836340d88636214d88436200d87e3625cd8b0362b8d89036264d8963627cd8a3362b4d8a8362b0d8d1362d8d87f36084d8163614cd850362e8d8a5362e4d8af36074d81b36164d81836018d80c36144d80f360c4d82b36244d8873610cd825))
  (.nd (.lf
  0x2a478a8b72a764a9b42a948a9a5293449a802691ca9552a2d0a9352a458a9192a2d4a8b3291889a4a2922c9a8526a0c9a812a650a91d29340a4872918ca4602a2a8a5f6269fca9a62a92caa4a2a924aa232a894aa242a7ecaa222a880aa4c2a944aa502a94caa4f2a954aa542ac8cab222a6d4a9182a484a9332a4c8a92b2a584a9882a64ca99d2a550a98b2a670a98a)
  (.lf
  0x2307c89082480091ac2309091c62466491962460c9173245a88e53248049190246348e632466082b0208f0939324794917224684916b23948918c23d6c8f4c2c464922f2311497c524954922523140923b244e48ac8291ac9a6e230f497cc248b8922329234925824950921c2457091382487c914d248888abf209f4829f20aa4925922b24828b245748c492013c921e)))
  (.nd (.nd (.lf
  0x28f14a3be28f10a3c229040a3f828f44a3dc28f68a3d029024a3de28f60a44829020a3b928f0ca41529068a3d528f50a411290d8a3dd289eca27028e80a39b2905ca3e428f64a3d728de4a27528eb4a27228998a33c28e84a33f28e0ca34329124a3f928d34a277290e8a43728940a23f28ebca27328e4ca26728ec8a3ae290d4a3eb28f28a39c289e8a26528fe8a3e3)
  (.lf
  0x1669c51b71460c517a145dc5175141c04f4f13d0c4ef613bc84eec13b084eb613ad0523413aa44e9a148584e9713a30529e13a044e7f145d84e6913998523113a744e63148fc520913a3c586a146b04e5b18ad44e4b139184f4e138b04e2b138204e0713804588e1468c4dfd1496c4df9137dc52ac139f84df31379c4de31378052f614b504ddd14ba852bd145d05833))
  (.nd (.lf
  0x1900862961895463fa18950625018984627a189e063fc1898c6260189a4626d189dc6272189d86297187d461ea1889c622418a08626f18a046279187c461ef188b461ec1876861e01889461e31881461ff1900c63fd1885c61f918fdc628a186d061b1188bc61ed1883461db188e0622e18a3c627f188c86228187d061d519010627d18a30627b186cc5897162506209)
  (.lf 0)))

def aesXorReads6 : BTree :=
  .nd (.nd (.nd (.lf
  0x81cc7c43086f81e871f5b421ce07aa47ae5089e822591e59c21b807a9478b50889822211e9d421d407a847ab9087101e971ea54254a095147c410a358253d1eb8c28e00944478bf0b4b024cb1dd9c28c409504788b0b57824ab1e9cc28f4094d47ab70a3a825231e3342d44094e47b5f09e50278f1ecbc27a609e8478a50aa402a751ddb4277a09dd478890aae82ab7)
  (.lf
  0x5960163a0590c164005924164d0595c16520595816a30598016290572c15c0057f415fa059b0164f059ac16590571c15c50580c15c2056c015b6057ec15b90576c15d5058ec1631057b415cf059d01661055f4157a0581415c30578c15b105838160405a14165f0582015fe0572815ab05a48165d059d8165b0560c1573055b815df056a015c6056dc15c9056a41597))
  (.nd (.lf
  0x20d64835820dc4837020dd47d5820b1c7d611f5807d6920c04831020c94832b20b70831320ca8831220bc482e120b7c832720ca483261f4d47a8b12dec4b8512df84adb12e0c4b8712e484bff12e9c4be712edc4bd512e604bf112f184bb012fa44bb512eac4b9e12ef04baa12e984bb612ed04be112f3c4be212f384bcc12fbc4bda12f504bd212f984be412f8c4be0)
  (.lf
  0x41049040f41029042541089042e4108d040e40c44fedb41229046141179042440c41030c4112904183fe6105bc4165102a43fd3cff0e3f93cff163fbfcfed74171902be3fda0ff533fd38ff4c3fc2cfed63f938ff143fa1cff153fc3cff0c3fc28ff0941741059540ad0ff6a3fc20fe863fd50fefe3fbd900d03f410fc913f140fc483f11cfcfc3f3a4fce540338fd7c)))
  (.nd (.nd (.lf
  0x1c4b0712a1c510713c1c530714a1c66c71801c5f871a81c66871af1c58871ae1c61c715f1c598715e1c6c871851c5a871b01c61871841c63c717c1c5d871b61c63871631c59c71971c68071751c5d0716b1c41070ff1c508713f1c688719d1c5e471771c444710b1c52c71061c3c870f41c50c70f71c48c71031c6dc71b31c4b4710d1c6fc718a1bedc6fb41c55c7107)
  (.lf
  0x3e638f9ac3e674f9af3e63cf9813e5d8d7b43e634d7d935f5cd7d53e7c0f9a73e61cf9773e5b8f9683e5e0f97235f4cfa4a3e93cfa4e3e944fa4d3e94cfa523e954fa503e8c8fa343e9dcfa763e95cfa393e964fa583e974fa5c3e97cf9ae3e6ccf99b3e668f9b73e794f9d63e7bcf9f33e710f9d93e7c8f9d83e7d4f9cb3e71cf9f73e7d8f9f13e5e4d7b730ef4c3c7))
  (.nd (.lf
  0xe65039b20e68c39b50e654398b0e61039800e64c38f50e3b438eb0e7d839ad0e604397e0e3c438bc0e60839780e3a43a420e91c3a460e9243a450e92c3a4a0e9343a480e8b83a300e96c3a5a0e93c3a3510f8443e00e94c3a5210fb439b40e6e439a10e68039bd0e7ac39dc0e7d439f90e72839df0e7e039de0e7ec39d10e73439fd0e7f039f70e60c3987122b448a7)
  (.lf 0)))

def aesXorReads7 : BTree :=
  .nd (.nd (.nd (.lf
  0x45c5d151f4573d155345ccd17314556d155545dd11747453d514ec45c1515c74572d151145c11170045d35174345d19172f45c91171045529150545d11174145db1173f453c914c94531515d545409154245475154d4540d14f94532914c64544d1501453f514f345d4115494545d15084532d14c8454f114eb45219173845e25178845d85173b45d8d176245dd51768)
  (.lf
  0x39600e5ed39614e5d539694e5c339620e5df396d0e59e3975ce5a339664e590396a8e59839610e5a439688e5cf396f4e5d0396f0e5ba39774e5c839708e5c039750e5d239744e5ce39778e5dc397b0e5e839910e5ff39908e65c397f8e62839814e61139824e604398b8e60839998e61639854e61439840e60e3989ce640398f8e620398a4e626398bce633398f4e638))
  (.nd (.lf
  0x40d81bb004094101f040f0101e06ed0106a040a41bb2040a01024040d4104e041301bba040dc1034040f410410412c104604128106b03f240fbe03fec0ff804158104304154104d03f140fc3040040fc003eb80fb403fe40fb703f640fd306eec1bb503fac0fcd06f1c105e03dec0f780400c0fc103f840faf0403010020418c1053040180ffc03f200fa906ed81051)
  (.lf 0x132104af412bb04b3e12c384ca012b984ae41220047de11f184ae211f28488211f4847c811f1043ae10ec8453810ed847e610e80439e132304cb0132004c88132284c8e132084c86))) (.nd
  (.nd (.lf
  0x37ffccf1836c00da18346b8d1ad35994cb6a33b54ceca36994da4436868da0639e5ce6a439a18df8637cd4dfe5336b8d5943564cd621342bcd0ac35964d55d35568e181385b4e72b39c0ce70039de4e74e33cf0cf3a33ce4cf36380bcdfe7331f0daa13696cda0c368bcd9ef367a0d66736824da08369c0da8136a00da9d36b04dac036974f7db3df68d9f93e01cf806)
  (.lf
  0x142085076141d0684e1a06068041a00867f319fbc505513c844f1e1a148683a19fb8505813c8c4edc19fc84f20136dc4e1d136e06805138844e1e136e44db61a1a8683e1a00c505a138804e1c19ff0505c141500c3a030100bec02fa80bcb02ef40bc702f140bc0030f80c2602f9c0bdc02f080bbc02f640bca02f100be002eec0bed02f840bd802f4c0bbe031580c2a))
  (.nd (.lf
  0x1928864b71934064b61934c64a91929464d51935064cf1915c5b6b233948f8623dfc8f7d23e148f8123e388ffb23e4c8fe323ecc8fd123e588fed23f088fac23f948fb123e9c8f9e23ee08fa623e488fb223ec08fdd23f2c8fde23f288fc823fac8fd623f408fce23f888fe023f7c8fdc23fb08fea23fe88ff624120900d241189058240309291240b092902406c9015)
  (.lf 0)))

def aesXorReads8 : BTree :=
  .nd (.nd (.nd (.lf
  0x1b5d4252d094ac6d7d0946c25191a71c24e90938c6d2b09e2c17e51ba9c279d05fbc69d70a9c41f131a3b4277105f4c698b0aac41f3b1b64427c50601c68f709ec417fb1a7d42a5107c1c6d33080d41d391bea4203f1a77c207d0742469050808c1d171a66c20a9073c46d450815c1d811a3cc204b0759469fd081b41d23003f800fc003e800f8003d800f4003c800f0)
  (.lf
  0xd8b4362b0d9a436280d858361c0d984361f0d904363b0e244388d0d94c36350e25c36c60d7bc35ec0d9ac36290d92436170d9d0366a0db2c36bb0d9b836640d8c036110e23836b90db2036b70d79435e00d68c36450d838362c0d874362f0d83c36010d7d835b60d83435e10d77c35dd0d9c036270d81c35f70d7c835e40d7e035e60d76c36bc0db0436c00db0c36bf))
  (.nd (.lf
  0x40805021040801027e408c9021b40891021a40861023740881021e408990236408350211408fd025e4084d0212408cd026a40894fd683f59501e740769025140939021f4085501a73f33d01f5406b101aa4068901db4069501c5406fd027f4089d01cd4071d026b409a0fcb23eeb501f9406ad01b7406b501f8407d902674092d0204407a0fd643f36d02804088d0252)
  (.lf
  0x2433090a0241e88d01233e88cf0241f09070241b88dc8236588d7c233788ca721cbc8d65235808cc1237308db4235d08d62233148ca6233648cc021cb88d5d233708d6f235788cdf233748cd8237908db8235f48d76235b88d5c235e88d6c235908fd423e888f8a233a0870121acc8f76232bc8cad23f608fc023de08cb7232c886b22338c8cac21c008f73233988f83)))
  (.nd (.nd (.lf
  0x22c408b501e5c079201e2c079b01e44078d01eb0081d01f14080501f5407f301ed0080f01f9007ce0201c07d301f2407bc01f6807c801f1007d401f4807ff01fb4080001fb007ea0203407f801fc807f00201008020200407fe02038080c020700818021a8082f021a0087a020b81acd021381acc020f4083702150083606b480880021041ace02100083c021340866)
  (.lf
  0x39f08e74539ed4e7a539d24e7413a0d0e7eb39f44e7c339ee8e7b839f10e6e439b54e8903a254e8943a25ce8933a264e8983a26ce8963a1d8e8783a2ece8ba3a274e87d3a27ce89e3a29ce8a63a2a4e7f239fdce7df39f78e7fb3a0a4e81a3a0cce8373a020e81d3a0d8e81c3a0e4e80f3a02ce83b3a0e8e83539f14e7c938ae4e2c338af0e04538b04e2c538b40e33d))
  (.nd (.lf
  0x1aeb46ba91aebc6bae1aecc6bac1ae486b941af0c6bc21aedc6b991b3c46cf01aeec6bba1b39c6b1c1ac3c6a7b1a9e86b211ad3c6b401ad646b5d1acb86b431ad706b421ad7c6b351acc46b611ad806b5b1a9946afd260788bbb260e08bd524a508bcd21ef48aec22b948ae322bac8ae722bd08b6122be48b4922c648b3722bf08b5322ca08b1222d2c8b1722c348b04)
  (.lf 0)))

def aesXorReads9 : BTree :=
  .nd (.nd (.nd (.lf
  0xf694f7df0f7743dd7367ec456310f94f8090f5cc3d6d3dfc4453310f34da890fc9c3f2536b4c3e070f7ccda331164c43f1369b444f90fd3cdb07113fc3f3d3684c48270fe3cda25113b43f29368e448950fefcda8f1143c3f3136b7445050fcbcda491213c3fa53750c40e70d5a4da611034c3573370e440c70dc7cda43103243557368b440e30dd3cd9ff103a43593)
  (.lf
  0x36abcdd53414c105053bc8cef343bcc4ea993bcb4ef333bd38efa93bd2cef873bda4ef7b3bcd8ef973bd98ef483be24ef5d3bd0cef3e3bd90ef4a3bd08ef683bd70ef8b3bd8cef903bdc8ef623be6cef803bde8ef783be44ef8e3be28ef863be68ef963bea0efa43bf50efc53bf48efd83bf10efe53bf20eff93bf90efe13bfe0eff03c078efea3bee4efe83bf80efb8))
  (.nd (.lf
  0x26728998b2672499ad2642498f92655c992026448990e264d49915265449925266a499a3264ac990b2670099bf2635898d5266549913265bc992126650997e266f499b9266f8999d26568993c2647c991a266dc99b4266cc99ae26370989326144996526460990f263e09919263ec991726228984a263b498df2637498db265709900263f498f726248988b26364988e)
  (.lf
  0x219608ad621d10867621db8877221a50868a21fd887da21d3069f11a6b466571a6406671199b468e91999066591a70c66671999469fa1995864071b5bc666c18fe069cd18fe462931a77066661902469b51a3f064061a72c698315ed4699818a4857781a69c669315de469c41a6d069ac1a38069821a6e468f91a3a06fc61a80c69a61cf8c73dd1cf2474231ce7c7391)))
  (.nd (.nd (.lf
  0x26c309b7926d409b2e26ebc9b4726ca49b2626d389b3c26ca09b5a26d189b6f26d349b7026d909b4c26ddc9bb826e309b6826eb09b7226dc49b6e26de09b7626ea89b82270289ba9270189c0826ea09ba126e589be926e809b9f26e789b9a26fb49be626f109bec26fa09be026f349c0226ff09be226f309b9726e6c9bd126fc49bd426fc09bc5270409be126d789b5d)
  (.lf
  0x46dc11b6846db91b6c470011b9346f991be846e491bef46ef91bee46e751b8d46e311b804701d1bf246ec91c0646fc11b9c46f051be446f491bf846f011bbf46e051bc546f451bc846f411bb346cbd1b2846dd51b7246f711bc746f5d1bd346d051b3d46dbd1b3446ca91b4a46dcd1b4d46d5d1b5146fe51bf346de51b43470211c0346bad1ae846df51b2b46edd1b35))
  (.nd (.lf
  0x1b7c06e1d1b82c6e1e1b8286e081b8ac6e161b8406e0e1b8886e201b87c6e1c1b8b06e2a1b8e86e361ba206e4d1ba186e981b93071f91b9b071f81b96c6e551b9c86e541c7f06ea01b97c71fa1b9786e5a1b9ac6e841ba0871fe1b9b46e6a1b9cc6e771ba046e7c1ba006ea11b7fc6df41b8c46e2e1ba306e791ba2c6e831b7ec6df91b8dc6df61b7906dea1b8bc6ded)
  (.lf 0)))

def aesXorReads10 : BTree :=
  .nd (.nd (.nd (.lf
  0xa3649aeb0a80028e32677c2ea60b4bc9afd0a79028c726c4c2ec60b58498610a86028f7262642a0c0a3b498a70ba602d47260b42e5a09e5c98b70b99027a924b9c33060aa4c915f0b920277d25fe432de0aaf498430b9f027d1261d42e7009ef49aaf0ccd82a5d2608c2cd00b334ae6f0b3882cdd24b0c30280c05cae750b2d8ae7b0c1c8306f2616c2d0a0b4149873)
  (.lf
  0xc72031c60c76831d80c75c31d40c79031e20c7c831ee0c90032050c8f832500c81038990c89038980c84c320d0c8a8320c0e28032660c85c389a0c85832120c88c323c0c8e8389c0c89432220c8ac322f0c8e432340c8e032670c6dc31ac0c7a431e60c91032310c90c323b0c6cc31b10c7bc31ae0c67031a20c79c31a50c71c31c10e284389d0c76431bb0e55c324c))
  (.nd (.lf
  0xffd440070ff9c3fdd0ff583fd20ff943f9f0fe6c3f99101203fff0ff4c3fd00fed03fb30ff503fca0fe5c40a01029440a41029c40a3102a440a8102ac40a610228408c102f440bc102b44091102bc40ae102cc40b2102d440061002c3ff30ffc8400f100f4402e1011c404b1007040311012840301013440231007c404f1013840490ff543fd9082f420b7082d02061)
  (.lf
  0x37e0cdfbf37e38e2cd37f0cdfc037e3cdf8238cc8e30638b2ce04437f08dfbe38b10e048380f8e44e39070e40438f5ce169380d0e3f038f54e18739148e43a38fc8e3df38628e16838f64e3d638f50e3ed38f38e3fd38fb8e3d838f3ce035391a8e43e39014e3fc38fd8e3ec38fe8e3e038618e0b438220e06c38184e05938158e01e3803ce00b382e0e08238180e012)))
  (.nd (.nd (.lf
  0x19a98665e1be8069cc1a6e073fa1cfe073f6171985c5a171306dae1a3a8695816ef05be6172286d1a1a8185d16171d85c9a1d59073d81cf4074c41ce2073a21a5806a5219ee86acc2135869bc1a61084d718fa86bd21af406ae81aa106a801a94c74901cfb866781d56874c51cee06d701a61869851a39868e41a388755b1d46075161b4e86d2e1b4986a2e1a58467e4)
  (.lf
  0x2d180b4662d2acb4692d22cb4852d3acb4e12d274b47f2d470b5112d0e8b4372d2d4b4732d24cb4612d2f8b4b42d48cb50f2d2e0b4ae2d1e8b45b2d498b50d2d478b50b2d0e4b3ed2cfa8b48f2d160b4762d19cb4792d164b44b2d100b3f02d15cb3eb2cf94b3c32d2e8b4712d144b4412d0e0b4322d108b43c2cf04b5122d45cb5162d464b5152d46cb51a2d474b518))
  (.nd (.lf
  0x18d0462ff18c84631b18f6463cd18ccc631518fbc63a618b0c62c018d2c630918ca462f718d50634a18eac639b18d38634418c4062f518f38639918ea0639718b58523d148ec632518bc8630c18bf4630f18bcc62e318ab062aa18bc462d718b5462d318d40630718bac62ab18aa0523a18b7862d818b44639c18e8463a018e8c639f18e9463a418e9c63a218e20638a)
  (.lf 0)))

def aesXorReads11 : BTree :=
  .nd (.nd (.nd (.lf
  0x43bc10e8c43b610ea643a950eae43a910ea243b550eb643ad10ea843bbd0ed443bc50edf43b910eb343ac90ed9438ed0e36439750e5043bf10ee143bcd0eb5438bd0e2b43a1d0e38438810e10439450e3f439fd0e4343aa50ea7439650e3143b350ec0438690e0743a250e39439ed0e2143a390e8843b0d0ebf43a690e5e438e90e1943af50eb843b890eb74380509ec)
  (.lf
  0x3935ce4d339364e4d83936ce4d6392e8e4bc393cce4f23937ce4c139384e4e039394e4e43939ce436390ece42339088e43f391b4e45e391dce47b39130e461391e8e460391f4e4533913ce47f391f8e4793900ce3e13ee14f8e03dff4f8193dfd8f7e13dfa4f81b3e120f8913e094f8613e09cf8833e088f8653e0f8f8303e1e4f82d3e0e4f8363e0e0f82e3e090f82c))
  (.nd (.lf
  0x1b0086bea1aad06c001afc06c231b0446c241b0406c0e1b0c46c1c1b0586c141b0a06c261b0946c221b0c86c301b1006c3c1b2386c531b2306c9e1b1486cc31b1c86cc21b1846c5b1b1e06c5a1b3486ca41b1946cca1b1906c601b1c46c8a1b2206ccc1b1cc6c701b1e46c7d1b21c6c821b2186ca51afdc6bf21b0dc6c341b2486c7f1b2446c891b0146c031b0f46bf4)
  (.lf
  0x3da510b7542c4505314149d05244140d0af94155d05514151504df4136504d742e890b7442dc505264143902824722d0544409b5058f41379028942de50b7040959142e44fe914a644f3113c445639147244f89143c455a914ae4508115e2454c1157c451411404452d113ca46b791af6451a11ae4450e9142444fa914c044ed913bc45399148044fc1081242099081e)))
  (.nd (.nd (.lf
  0x2f08cbb6a31de0c77431dc8c77d31c28c70034d80d35934d50d41834df8d37631c04c65e30860d3da34f40d3cc2eeb8bb3d2ebb0bbaf2ed04b62631c48bbbe2ed80bb562efe4bb612ec64bb882edd0bb5031dd4c713319ecd3e734e58bb752ebb4b630321f4c70b31a74bb942ed5cb8aa34e6cd33a302f0bf7a2fdecbe6f2f16cbc442f10cbc122edacc69731900c9ca)
  (.lf
  0x43019a8065c8195a065601939064ac1935064cc192e066b0199406554194a064c0192a0651c1938064c8194e064a4195b0653c194606504192c06710199806564194c06500192806558193e064d0189206170184406108182306054181f06074181806258187e060fc1834060681814060c418220607018380604c1845060e41830060ac1816062b818820610c1836))
  (.nd (.lf
  0xa75429d40a75c29d30a76429d80a76c29d60a6f029be0a7c429f00a77429c30ba4c2e920a78429e00ba5429420a51c292f0a4b8294b0a5e4296a0a60c29870a560296d0a618296c0a624295f0a56c298b0a62829850a43422390d1bc34790d1c82fed0d1dc347b0d21834f30d26c34db0d2ac34c90d23034e50d2e834a40d37434a90d27c34920d2c0349e0d26834aa)
  (.lf 0)))

def aesXorReads12 : BTree :=
  .nd (.nd (.nd (.lf
  0xd724c6a10d5583431318fc374e0d6c4c6f50d648c7250d600345731cc437340d754d3d70db84327734ecc37030ca2cd3210e42438d334ccc36cf0c97cd2e70e59439633502c36f90cadcd3830dbb432a134d2438ad0e2a4d3510f67c3d9d3958c3dc10f6fcd3bd10f8c3d55395043d650f58ce54b10f2c3d3d34d7c3e270f894d4310f7b43deb34dec43ef0f61cd3d5)
  (.lf
  0x37d2cdf4937d3cdf4e37c74df4837c00df0237c34df0c37c4cdf0537cfcdf3e37c94df2437cc4de8837a54d68735a18de8f37b24deb437b84deed37a88deb737bb0deb637bc4dea737a94dee337bacdee2379d4de793a69cee2e39ea4e9c33a6f4e7ab3b8c8ee8f3a704ee753a754ee4b3a6a0ee633a730e9c63b9dce9c93a6dce8e83a728e9c03a6d8e9d43a720ee5b))
  (.nd (.lf
  0x3caacf2a83caccf2b13ca64f2343c8b0f2af3c9d4f2733c9b4f2f83ca9cf2a33c8f0f2353c560f28a3c9f0f26b3cce8f34d3cd30f34b3ccf4f33f3ccf8f36f3ccf0f30e3cc40f6bd3daf0f3473cd14f3493cd20f3533cd48f3693cac0f2b73ca7cf29e3ca54f2d53cb10f2f33cbecf31e3ccd4f3343cbe8f3013cc8cf3213cc94f3243cbe4f28b3c8dd027a3da4cf5a3)
  (.lf
  0x2aab4aaa82a9ecaa412b308ac962ac00aaaf2aab0aaa62b180ac542abd8c15230470c0fb30368b1f42c7ccc0f930398b86330558c13e3042cc0e82e198b1f23040cc0fa303e0c0ec3038cc102303b4c0e43035cb1f5305b8c14230388c0db30358c0d430430c1002e188b92a2e3d0b8e02e378b8cf2e32cb87a2e16cb75d2e4b8b9162e328b87c2e170b75f2e338b75c)))
  (.nd (.nd (.lf
  0x13bcc4db113adc66b419ad44d84136141b6806d844f5913bb84eef13b104ec5136604d99138484e1306d901b65138181b62138344f5c13d744e2d136944eff13afc1b4206d0c1b401477451ca1472c59c7190c86433147c4643a190ec57f81611c51d01474451c1166e059b9133984ce7147a851eb160dc4dcf166b059ad138084e03167044d181346457f5161005841)
  (.lf
  0x32f8ccbaf32e94cb9832ed8cba432e80cbb032eb8cbdb32f24cbdc32f20cbc632fa4cbd432f38cbcc32f80cbde32f74cbda32fa8cbe832fe0cbf433140cc0b33138cc6833028cc3433044cc1d33054cc10330e8cc14331c8cc2233084cc2033070cc1a330cccc4c33128cc2c330d4cc32330eccc3f33124cc4433120cc7333148cc1b32ef4cbb232fbccbec33160cc41))
  (.nd (.lf
  0x156ec55ce156e855b81576c55c61570055be1574855d01573c55cc1577055da157a855e6158e055fd158d85648157f057511587057501582c560515888560415d78564e1583c575615838560a1586c5634158c8575815874561a1588c5627158c4562c158c0564f156bc55a41578455de158f05629158ec5633156ac55a91579c55a615650559a1577c559d156fc55b9)
  (.lf 0)))

def aesXorReads13 : BTree :=
  .nd (.nd (.nd (.lf
  0x4360d0d87435290d5d436190d5c435950d4f435350da1436810d85433e50ce3470c51c224707d0b59470d51c21470991d0d473151ce94720d1cd3471291cf7471f91c4e473ad1c77471011c3b473111c7c470e91c82471d91ce7473351cf2473711ccc474251cda473491cd0473cd1ce8473991ce4474211cf6474e91d0c474e51d30474791d38474811d6a475251d57)
  (.lf
  0x2f4dcbd322f4d8bd5b2f500bd092f2acbca02f374bcda2f510bd2f2f50cbd392f29cbca52f38cbca22f240bc962f36cbc992f2ecbcb52f46cbd112f334bcaf2f530bd412f1ccbc702f394bca32f30cbc912f3b8bce42f54cbd3f2f3a0bcde2f2a8bc8f2f558bd3d2f538bd3b2f198bc4f2f134bcbf2f230bca62f25cbca92f234bc7b2ef80bbde2f22cbc672f194bc63))
  (.nd (.lf
  0x200e48038200ec8037200f4803c200fc803a20080802220134804c20104802720a0c8282201148044209ec7fa61feac7f931fe487faf1ff747fce1ff9c7feb1fef07fd11ffa87fd01ffb47fc31fefc7fef1ffb87fe91fd2c7edf1fbd480ac2029480a3202ac80a7202d08121202e481092036480f7202f08113203a080d22042c80d72033480c42037880cc202e080d8)
  (.lf
  0x321f8c6c031df8d0cc31838c6d231910cf5633d40c70e33e68c66232258c61431b78c6f831a40c760319f0c86c33228cc8432888c51031428c9c6327f0c9e832dc0ca38312a0c53831488c9bc32838c4fc31458cc9c32940c4ac31398c4c632740c9f431408ca6832898c52e31368c4ce326a0ca022ee60bb7a2ed90bbd42ec70bb902f170bc482ee90bbca2ef10bb3e)))
  (.nd (.nd (.lf
  0x2c5d8a6a4314f8a64829878a61030910a9ee29844a108297c0a5e029778c53f29738a5c82e1b0b76c2dd90b8732c3d0b0ea2ab08a9ef2a7a0aa102a830aa082c4b0b0eb2beb8aa922aa40aa8c29a94a636296c0a649298f8a6372c760a68a299d0a5a229a4ca69129a2ca73a297e8a5aa2e1b4b1d92c424aa352a8c0a5b6296c4a5ab2c54cb1df2c3d4a675299c8a670)
  (.lf
  0x24cf8933b255c8931724bd087e921f5487ce21e1c876821d745d1c1663457c5171b457df15e9cb3752cd34b3332d064a3ff267bcb3d5290bc99e821d28873721ccc923d245308c412605c92ba231747c3e1c93c6d112ce94b35626754aa2928dac9d052ab20aa0727404a3772743897b02bf249a0e25f607263149685256148c0522e148a852081481052002aa2ca9d4))
  (.nd (.lf
  0x23b6c8e9223a288d4823b4c8e9b23acc8ead249d4926d23b148ea72498c8f38239f88d2f23b748e9323aec8e8b23b988edc23cf48f2d23b808ed623a508d43249d88f2b23ce88f2923a048e7d239e88eb7235008ea2235248ea5235048d37232208c86239ec8d3f234a48d2723b888e91239f08d3b2321c8c84234c08d2a234948f2e23ccc8f3223cd48f3123cdc8f36)
  (.lf 0)))

def aesXorReads14 : BTree :=
  .nd (.nd (.nd (.lf
  0x44fec4af5126ad142f132144b734476d119f4481d11914475d119d445e511d943c0d0efb462ad0ec743b3d0eed43b2d0ebb45ad516df45b6516f345ae516e745bbd16ad4371d0dbf4378d0ddf437650d9f437a50dd14265c4ccf4266c4cc3426e44cc74262c4c9f426dc4cd74278c4c954267c4cb7426cc4cd346f8c43ad4703c43a746ffc47ed46fb443c5470144555)
  (.lf
  0x3c1f8f0623c38cf0e13c190f0583a4b8e92b3c398f0df3c374f0cc3a468e9153a43cf0493a4a0f02f3a480e92d3a4a4e90b3a3f8e8fa3a49ce9233a46ce7913c198f0263a450e9093a3ece7953a3f0e77039dbcf0b43c35cf0d63c354f0b73c2e4f0b83c77cf0b63c270f0ca3c34cf0d23c344f0cd3c33cf0ce3c394f0e43c39ce92c3a4c4f02d3c0b0f0353c164f06e))
  (.nd (.lf
  0xee143bc50ee543bb30e5303bcf0ee903b8e0ef1c3b930ee243b7c0ee683b880ee103b940ee483bbf0eeb43bc00eeb03baa0ef343bb80eec83bb00ef103bc20ef043bbe0ef383bcc0ef703bd80f0d03bef0f0c83c480efb83c180efd43c010efe43bf40f0783bf80f1403c060f0143c040f0003bfe0f05c3c300f0b83c100f0643c160f07c3c230f0b43c280f0b03c51)
  (.lf
  0x4203507b84201d08024200108b8422ad08b9422b1080641f7507db4247908f2422a9085e41f69077f422d908604215912704493911f5446850f9243d31121f448551212449b91252448e11227446f911a04485111f4447bd06ea41b9d11ee43d3506eb41ba106b344a311276448e90f9341b9906b2448a1121e447e117ec45f0917a445e5d179445e4d120a447750fa3)))
  (.nd (.nd (.lf
  0x219e08670219b084b620ec0785e233b0860621a487eb21e4f0793823db8870220250776e1e3f87d6a1e59078b21ecb0776a1e218862222b50860e21d38867e21ca886b6219fc7a4221d00873e21ce08ad521fc087ea1eb6078ce1c9407d1a1ecb478b82328086bc21adc860c2134084ca1f46c7c3c1f0e08f6c239c08d5421e7886232177886522183c85df1eb588786)
  (.lf
  0x2dd24b72d2dd2cb74a2dd3cb74e2dd44b6a22da9cb68f2da38b6ab2db64b6ca2db8cb6e72dae0b6cd2db98b6cc2dba4b6bf2daecb6eb2dba8b6e52d9ccb67730414c0ff303f0c0d530364c10130440c17930484c161304c4c14f303c0c16b30500c12a3058cc12f30494c118304d8c12430480c130304b8c15b30524c15c30520c146305a4c15430538c14c30580c15e))
  (.nd (.lf
  0x806c201607ff01ffe080c42030080742003081ec207a080842020081ac1f8207e1c1f6f07db81f8b07ee41faa07f0c1fc707e601fad07f181fac07f241f9f07e6c1fcb07f281fc507d441f5509f7427e709f801eb309f9427e909fd028610a02428490a064283709fe828530a0a028120a12c28170a03428000a078280c0a02028180a05828430a0c428440a0c0282e)
  (.lf 0)))

def aesXorReads15 : BTree :=
  .nd (.nd (.nd (.lf
  0x8cc022300878028f0096002760099c0279009640247008f002380095c021f00864021700ae802710093c0239008c00222008e8022400854030600c2c030a00c34030900c3c030e00c44030c00bc802f400c7c031e00c4c02f9069941a6400c5c0316069a40278009f4026500990028100abc02a000ae402bd00a3802a300af002a200afc029500a4402c100b0002bb)
  (.lf
  0x2f7f0be262f80cbe0f2f81cbe022f8b0be062f980be142f84cbe122f838be0c2f894be3e2f8f0be1e2f89cbe242f8b4be312f8ecbe362f8e8be612f910be0d2f6bcbda42f784bdde2f920be332f91cbe3d2f6acbda92f79cbda62f650bd9a2f77cbd9d2f6fcbdb92f87cbe152f744bdb32f940be452f5ccbd702f7a4bda72f71cbd952f7c8bde82f95cbe432f7b0bde2))
  (.nd (.lf
  0x992026350991c263f096dc25b5097cc25b20968025a6097ac25a90972c25c50a9042a3d0977425bf0a91c2650095b4256a097d425b30974c25a1097f825f4099542645097e025ee096e8259b0a8f82643099482641095cc25630957825cf0966025b60969c25b9096642587095f025780965c255f095642557097e825b10963c2579095c02562095e82564095542646)
  (.lf 0))) (.nd (.nd (.lf
  0x38810e21a38850e242388a8e29238904e28c38a38e2403896ce258389bce25a38944e25438940e274389cce23a389c8e26e389a0e24938a28e288389a8e25938920e25538974e27938980e278388ece296389a4e1e23877ce22438874e27c3897ce289389ece1cf3872ce243387a0e1e638700e2253876ce1f3387bce275389ace2053875ce29738a50e1ba38634e24d)
  (.lf
  0x1b2e86cb020f586ae21ab78659e195b065541700451fc1478c653e1619c51e119688658a195005c0b170185c00147ec51e2147806550194ec65511952c653c147f451fa196e8658e19554654a19510653a195205c0c161985abc166f4581e1607051f814754583b1601051c516a705a66168bc5a22166f859bc147d451d4147105801147d858131600851f9147dc51f4))
  (.nd (.lf
  0x13f544fa113e5c4f8e13ea04f9613e084fa213e804fcd13eec4fce13ee84fb813f6c4fc613f004fbe13f484fd013f3c4fcc13f704fda13fa84fe6140e04ffd140d8504813ff051611407051601402c5005140885004145b8504e1403c516614038500a1406c5034140c8516814074501a1408c5027140c4502c140c0504f13ebc4fa413f844fde140f05029140ec5033)
  (.lf 0)))

def aesXorReads16 : BTree :=
  .nd (.nd (.nd (.lf
  0x381000b7037e000b5038c800b30388800b106f9800af0468800ad046b800ab0702800a9045e800a706f7000a50465800a30463000a105a58009f05b40009d05bb0009b05990009905a280097059f0009505ad8009305ab0009108a90008f054c0008d05518008b087e80089053b8008708918008505470008305420008103840007f038f8007d03920007b037880079)
  (.lf
  0x2c394b0e42c34cb0af2c524b1482c35cb0d62c494b02e2c0ccb01b2c068b0372c194b0562c1bcb0732c110b0592c1c8b0582c1d4b04b2c11cb0772c1d8b0712bff4b00105bdc16c605b0416ff05bec16c305b68176f05c5c175705c9c174505c38176105cd8172005d64172505c6c16e205cb0171a05c58172605c90175105cfc175205cf8173c05d7c174a05d101742))
  (.nd (.lf
  0x3b254ec873b278ec853b198ec773b13cec4b3b11ced083b304ec673b180ec513ac10ec6e3b1a0ec453b490ed293b4a0ed333b49ced3d3b4f0ed5d3b4d0ed323b4d8ed3b3b4e8ed3f3b4e4ed4d3b530ed633b588ed513b250eca93b1ecec7a3b274ed013b2d8ed073b45cecce3b36ced163b368ece93b364ecd13b42ced0a3b424ec693b284e9dc37980de5c3a590e95c)
  (.lf
  0x203f880e6202787f371fcc87ef21fcb0794d1e48080991e53880a92026879511e53c794c2045880ea202c480a8202888098202987f381fcb89d9e275a09d50274dc82601fd449d33274b07f53276889d8a275349d2e1fd587f502750c9d36274c89d46274a49d47275089d3d274a88261276e89d8e275449d3c274d09d28275389d3a1fd487fbe1fe207f741fd307f41)))
  (.nd (.nd (.lf
  0x1d38076d01b3406c201bfc06fc01d68074701d64075101b2406c701c1406c401ac806b801bf406bb01b7406d706ab41aa301bbc06d106b040762019fc067c01c1c06c501b9406b301c40070601d9c075701c28070001b3006ad06a90075501d90075301a140675019c006e101aa806c801ae406cb01aac069901a38068a01aa40671019ac066901c3006c301a84068b)
  (.lf
  0x36da4db6036de8db6836d50db7436dc8db9f36e34dba036e30db8a36eb4db9836e48db9036e90dba236e84db9e36eb8dbac36ef0dbb837050dbcf37048dc2836f38dbf836f54dbe136f64dbd436ff8dbd8370c0dbe636f94dbe436f80dbde36fdcdc1037038dbf036fe4dbf636ffcdc0337034dc0837030dc3137058dbdf36e04db7636eccdbb037068dc0537064dc0f))
  (.nd (.lf
  0x1f1f07c7a1f2747c881f2087c801f2507c921f2447c8e1f2787c9c1f2b07ca81f3e87cbf1f3e07d0a1f2f87e7f1f3787e7e1f3347cc71f3907cc61fa287d101f3447e821f3407ccc1f3747cf61f3d07e841f37c7cdc1f3947ce91f3cc7cee1f3c87d111f18c7c5e1f28c7ca01f3f87ceb1f3f47cf51f1c47c6f1f2a47c601f1607b101f2847c691f2047c7b1fa2c7e85)
  (.lf 0)))

def aesXorReads17 : BTree :=
  .nd (.nd (.nd (.lf
  0x3a7b449c01053c412210434ef1d12dd8418e104f8412e1043c41061040cfbeb108f0384f3ee5442360e164fad1109e039293eabc42420e0f4faa510a603b5b3f00442480e1a4fcab10930386f3ea5c42640e44cfbe50f6d83db13eed43f760fdbcfad7115f045693eca43d7e0f5e4faf71151845413f0ac3f600fd2cfc590f8603e113eaf4469a11664fa9d11e784525)
  (.lf
  0x40121005340269003f3ff4cffa43fff0fffb401b9005f40205006d3ff3cffa94007d00043ff70ffca3fff4ffcd4002cffe34011500413ffa4ffab4026d00983fe30feb14009d000540024ffdd4009900204027d0097401e900343ff48ff374021900854024900833fe24ff773fc9100113fcd0ffce3ff2cffd13fcd4ff823fdd0ff2d3ff14ff333fcbcff2540128ffc9))
  (.nd (.lf
  0x37200dca0386c0e1a037cc0dcf037d40df4038040e000382c0d44035240d31034c00d4d035ec0d6c036140d89035680d6f036200d6e0362c0d61035740d8d036300d870341c0d0b0707c1c190705811b706ffc1c1b070a81c93070ec1c7b0712c1c69070101c85071681c44071f41c49070fc1c32071401c3e070e81c4a071201c750718c1c76071881c600720c1c6e)
  (.lf
  0x1d130745e1d0a073d21cf6874b61d598754e171205cce176385cac172e85c3816f285d34173505d72181985c9c171e05c2c174605d1e173c85d92172885c5e171405bfa175105c58171f85cde17a085c8c16fa05c3416ef85d3819f586a261a5c084f0213606ac21ab3869501a48067e21a908696219f40692a1aa406bd61a4d867dc1a8c8697619ef069401a9506aec)))
  (.nd (.nd (.lf
  0x2945ca4de29328a4a42949ca4a7293c4a4ef29594a563293f4a4f729980a65d292a49a7229474a4df2938ca4cb29470a5182996ca631294d0a522293a8a4c9298bca58029630a57f291e09a592695ca4e729318a4be29294a4c729304a4c5292d8a496292aca47f291f4a479294d8a4dd292dca4982920c9a56292e0a4ac291dca570295d4a574295dca573295e4a578)
  (.lf
  0x66481973134e81a1b068a81a190652c193b064d819a7065c0198e065fc1991065c4195f065501950065bc1937064c4192f0674819890659c195106520193a06548193c064b41a1e0688c1a22068941a210689c1a26068a41a24068281a0c068fc1a3e068ac1a11134bc4d2e068bc1a2e134ec199006654197d065f019990671c19b80674419d50669819bb0675019ba))
  (.nd (.lf
  0x2220c8851222b888a42241488f5222a0889e221a8884f2306888f32240888f122098879321e44887f2213088662215c886922134883b21e5887942212c8827220948823222a888612210c879521e40878e220d0882a2208488f6223ec88fa223f488f9223fc88fe2240488fc2238888e42244489102240c88e92308c8c222241c89062306c8868221b48855221508871)
  (.lf 0)))

def aesXorReads18 : BTree :=
  .nd (.nd (.nd (.lf
  0x298143d8a0bc982ef00bb3c2ec00ba882e9f2979433520cbe02fc60b9d8a5d50cf0033940cd64331c0bf402e840b9a8a59f0cd6c33210cc78331d0cc5033122991c33200bed02e6b29a9c33480cc7c32ec0cb90a5a70cea033900cd1033180cbdc2fe40ba08a73f0cc5832e50bf682e7730ee433a40cdb8335a0cd6033490cd1433422980c34440c25030880b3f0a621)
  (.lf
  0x1df7077d21de4074e91e15078311e110782f1ddf477791ddd877b31d398779e1d3bc77a11d39c74dd1d21074821dddc74e51d33c74cd1df78778d1dde074e11d20c743e1d35874d01d32c78381e0f4783c1e0fc783b1e10478401e10c783e1e08078221e1c478701e11478271e11c78461e134784c1e15477a01de4c74ed1d3b077a51df4c77c41df7477e11dec877c7))
  (.nd (.lf
  0x77281db4077b41db9076bc1d76077001dae076a81dba076e01de50774c1de6077481dd0077cc1dde077601dd6077a81de80779c1de4077d01df2078081dfe079681e15079601e6e078501e3e0786c1e270787c1e1a079101e1e079e81e2c078ac1e2a078981e24078f41e56079501e36078fc1e3c079141e490794c1e4e079481e7b0771c1dbc077e41df6079801e4b)
  (.lf
  0x3e640f97c3e5e8f96b3e59cd7d435844d60f3e728f9b23e598d7d635ed4d7b23e5a8d60e35674d7da35f44f97d35f6cd7d235f2cd59c3e788f9b63e5ecd7d035f28d7c83e5d0d7b635840fb743ec40f9653e558d5f535748fabe3e9f4d66f3edd8fb463ecd4fae8359c8d5f43e9f0fa793e590f95935740fa893e9e0f95a3574cd5d13ed80fb083ea20fa7e3e560f957)))
  (.nd (.nd (.lf
  0x1a75069891a6206d8f1b63868f51a7cc69f21b4c46fa41be9c6fa61a77468fb1a3e86d431a3c468f01a7ec696a1a5d469741a8c467db1a4d46bd51aa0c6a821a4a467cc1904067cf19f386cab1b2a86a411a90067e119f80691f1a478694f18fb063eb1ab046ac0213bc84ee1a5bc6a871a89467d5174dc5c33170c85e8117a005cdd173705c7d1a514693c1aaf06926)
  (.lf
  0x2e724b9122e45cb8ff2e3f8b91b2e524b93a2e54cb9572e4a0b93d2e558b93c2e564b92f2e4acb95b2e568b9552e374b85f2b164ac532b140ab012abf4ac552b190accd2b1d4acb52b214aca32aac8acbf2b250ac7e2b2dcac832b1e4ac6c2b228ac782b1d0ac842b208acaf2b274acb02b270ac9a2b2f4aca82b288aca02b2d0acb22b2c4acae2b2f8acbc2b330acc8))
  (.nd (.lf
  0x177105de11783c5e00178645e1d177b85e03178705e021787c5df5177c45e21178805e1b176a45dad1fab870bd1bf346fee1bf9c6fe51bfb46fe91bfd870631bfec704b1c06c70391bff870551c0a870141c13470191c03c70061c080700e1bfe8701a1c06070451c0cc70461c0c870301c14c703e1c0e070361c12870481c11c70441c15070521c188705e1c2c07075)
  (.lf 0)))

def aesXorReads19 : BTree :=
  .nd (.nd (.nd (.lf
  0x448c512234484d11bf44a71122f448811217447c111c34486911f641ba512f244c55131444c4d12f544bdd12f644b9d12f444b69130a44c45131044c6d130d44c75131c44c3d130e44b2d12484494d1235448d1127744a3d127e44a6d12d1449b1128144b41128044acd1271449bd129f44a79129d4486d122945e7d17bb45e810fa745ed517d345ef9182345f5d17f9)
  (.lf
  0x44cf9133d44ce1133444de9134e44d51135244e89138344e8113aa44e09136544d89139b44d91135b44da9135a45131140a44f3d140844f39139a4514d139844e59140c45149136344dad148b45239139544e51144d4502513a43f23cfc8244e15137c4523513d044e7d13973f5fcfc7f44d54fc8c3f229132a44df5132d44d25133145035140b44cfcfc9f44f9113a5))
  (.nd (.lf
  0x17a305c9117bfc5ebd17b745eab17c205efe17d7c5f4f17c085ef817b105ced181785f4d17d705f4b17a3c5e8b174f85ed9173a85ec017ac45ec3173ac5e9617a485ce517a145d3f173a45ce117c105ebb17a845e9317a285e8817a505c92170f45f5017d545f5417d5c5f5317d645f5817d6c5f5617cf05f3e17da45f6817d745f431816c605a17d845f601817c5ec2)
  (.lf
  0x3e9bcfaa93e9b4ec3f3eb2cf92b3b094fc403e99cfa603ea78fb2c3eb8cfaa83ee80faca3eac0fa943e998f8f13ec64f90f3e430f91b3eac4f92c3e49cf8fd3e3c0ec1838500f9313e438f8f73e468f90d3e3ecfad43e498f9113a574e8ab37964de67393ece4f837484e50a3940cdd253a898e97537974ef1a393a4de5839400de6137480e4fc37950dd243941ce521)))
  (.nd (.nd (.lf
  0x2ef20bba32ee88bc472ee34bb7e2ee3cbb8e2ef4cbbd22ed8cbba92ede4bb9732804c4cd31330ca2532890ca6732998c5012f158b6272eed8b62e2eee4bbb8327ccc9cd32730c4c531394c4e431280c36e30db0c36a312acc4aa3293ccc9b31454c514313ecc4e030de0c9bb326e8c4a731298ca37328d8cb6f3279cc9fb327e8c9c531424c5082edbcbb6e31388c50d)
  (.lf
  0x2e288b8a12e270b89a2e258d38430310c0c234ff4d3563030cc78431dd8c216319f8c20e307fcc89331b40c60031b30c6423181cd3e234f70c0ba34e40c0b7302d0bb782edd8ae562ee28bb622b948c770319dcc66033d24c6fe31ad4e69633cf4cee83a3d0e729302bce93433b94cedc2f044bb2c2e25cd63235700cf3235870d56534308d69d357c0d0b239de8e75c))
  (.nd (.lf
  0xeb243ac60eb583ad40eb903ae00ecc83af70ecc03b420ebd8452f0ec58452e0ec143aff0ec703afe116383b480ec24455a0ec203b040ec543b2e0ecb0455c0ec5c3b140ec743b210ecac3b260eca83b490eaa43a9e0eb6c3ad80ecd83b230ecd43b2d0ea943aa30eb843aa00ea383a940eb643a970eae43ab31163c455d0eb2c3aad114c43b3e0e9a439380eb8c3aa1)
  (.lf 0)))

def aesXorReads20 : BTree :=
  .nd (.nd (.nd (.lf
  0x70541c0006fc01bed1418c1d3c04be812e204b604f4907530136804cf012fd04bc012e404b304d870743012ff04bcc12ea04b9412d019b4c1d1a04bc812cd19adc1cf404bac12dc04b584eb907610135004ce012f904bb812d404b384ef5075a012d904b5c12d213c0c1d2604d30131604bf812fc04b7412cf14a84151205444536f05490152114d9422500892c1efb)
  (.lf
  0xf30c3cc00f3403cce0f3783cda0f4d83cf10f4d03d5c0f3c03d1a0f3dc3d030f3ec3cf60f4803cfa0f6483d080f41c3d060f4083d000f4643d320f4c03d120f46c3d180f4843d250f4bc3d2a0f4b83d930f4e03d010f28c3c980f3543cd20f5103d270f50c3d310f27c3c9d0f36c3c9a0f2203c8e0f34c3c910f2cc3cad0f44c3d090f3143ca70f5303d390f18c3904))
  (.nd (.lf
  0x40d3d02da40dd5032040bf9034d40bed031940c59031840bf102f040be902f640cdd032f40ce9033240cb9034140d39034640d09034a40d11033b40cd9037440d01035a40d5103be40ea503b840ee903a840d99036340e55036240d8503e840d81039a40e4d038840e61039440e4903a140eb903ac40e7103a040d9d03e940f4d03d640ead03aa40e2503c040e650325)
  (.lf
  0x2cc5cb5372d4ccb5302d640b5782d51cb53e2cff0b3fa2d4c8b33d2cc58b38d2cce0b3932ce38b33c2ccecb3392d6a0b57c2d500b3972ce48b38c2d520b5362cf38a7a429b90a6b129aa4a67c299e8a6c7298a0a61729f80a77e29dc4a6d229b10a6a829b18a6bb29ac0a62c29894a6ba299eca62d29898a62329ed0a78229b60a67d29890a62229dc8a6b629858c41a)))
  (.nd (.nd (.lf
  0x133a44ce4161cc51a613920588c16228586c13d684e33136b84e10137004dbe19b441b60133a04d2219b404f4606af04e3206dc04d56135305872135881af6149781ebe06cd0536613438582e07bc01ef814db01b4606eb057fc138a81ab006ab857fa134784d1602f6c0bd602f3c0bdf02f540bd102fc00c61030240c49030640c3702fe00c53030a00c120312c0c17)
  (.lf
  0x323ccc8ed3254cc94932414c8e732610c97932288c89f32474c8db323ecc8c932498c91c3262cc97732480c91632388c8c332638c97532618c97332284c873321c0c8f732300c8de3233cc8e132304c8b3322a0c6fc322fcc87131d9cc76532488c8d9322e4c8a932280c89a322a8c8a431d8cc97a325fcc97e32604c97d3260cc98232614c98032590c9663265cc996))
  (.nd (.lf
  0x2153c851d215e885702174c85c1215d0856a214d88517218f885bf2174085bd213886a2d1a8ac854b2145085322148c853521454850b2141085002144c84e32138484df215d8852d2140484fe213a46a2a2140884f82137485c22171c85c62172485c52172c85ca2173485c8216b885b0217a485e82174485b5218ec863a2175485d4218fc8534214e4852121480853d)
  (.lf 0)))

def aesXorReads21 : BTree :=
  .nd (.nd (.nd (.lf
  0x479051e1e478711e384790d1e40477ad1e55479611e11478411e05476651d96477451dca4795d1e14478751e13476951d9d477951da2472f11cbe4772d1cc1476cd1db1478ed1e39476e51d9f4793d1e2a4728d1c5a4779d1da3476b51cbd478c11de6478951e23479391e37477891dd2476611cbb479211e21479691e1f471b90b6d42dad1dfb472e11da4472fd1da7)
  (.lf
  0x32144c8503214cc84f32154c8543215cc852320d8c838321a4c86832164c83d3216cc85a3217cc85e32184c7b631ea4c75931d60c7bb31fa4c7da31fccc7f731f20c7dd31fd8c7dc31fe4c7cf31f2cc7fb31fe8c7f531cfcc7973576cd3a834e94d8f3363bcd3e136398d965363fcd94d36474d93b35778d957364b0d9163653cd91b36444d90836488d910363f8d91c))
  (.nd (.lf
  0x1eeb47baa1eee87bb81ef207bc41f0587bdb1f0507c261ef687e6d1efe87e6c1efa47be31f0007be21f9c87c2c1efb47e6e1efb07be81efe47c121f0407e701efec7bf81f0047c051f03c7c0a1f0387c2d1edfc7b7a1eefc7bbc1f0687c071f0647c111ee347b8b1ef147b7c1edd07b561eef47b851ee747b971f9cc7e711eebc7b911f9ec7c221eda07b3d1ef1c7b7d)
  (.lf
  0x283ac9c1729670a1042710ca5fc296089c1c30e7ca5b727048a5852707c9c1629640a10b27108a9bc2a858ab062a7c0ab2a2a980aa322aa60a9c22a850aad02a7b0ab3a2a998aa362aa58aa1a2aaf0aace30918c25e2a960c2342aa78aa002ab48a9e42acd8aa6e2a8f0aaa42a758b1f02c7a8b1e4303d8c0e02c770c0d22dda0b8c82dd68b36e2c5f8b1542c730b874)))
  (.nd (.nd (.lf
  0x297f4a5e329744a5d029674a642283c8a64529910a5e729798a5a529690a73d29cf0c3b730ed8a60128428a10929704a5c0298eca63a29a34a5cb296b4a6772ceb4b3352ccd0b3d92cf60b41b2d068b2ed298fca59429710a58a29904a6402cea4d1d934760b32d3477cd1de2cc20d1e334788b3dd2d04cb2f52cbd0b3572cbe0a4542ce04b3802cc44b3102cf84b3e0)
  (.lf
  0x4090d0508413d8f68a42c290afa3dad1069f41a49069044f8113d640fc9147c4100103fd44fb903e440f31069e41a5d014341add0652418a106ed41a81068943e5106514190107f041ec907a841b5106c740585017b40575015b43e550f4f43d1d0af841581026542139084c420e1199541d01073a42091079041e31149a3db00ed65415d9027c409ed0274409110242))
  (.nd (.lf
  0xe21c37960de6c37830de08379f0df3437be0df5c37db0deb037c10df6837c00df7437b30debc37df0df7837d90dd94376914e24538414df4537b14e0c537f14e50540314eac53eb14eec53d914e6853f514f2853b414fb453b914ebc53a214f0053ae14ea853ba14ee053e514f4c53e614f4853d014fcc53de14f6053d614fa853e814f9c53e414fd053f21500853fe)
  (.lf 0)))

def aesXorReads22 : BTree :=
  .nd (.nd (.nd (.lf
  0x8a08222d087281eaf219dc283a0a01027f009fb827df09f6c254e21d1428da095f82566095708ad70a39025ec097002581095d025680954086590b4c02583095dc256e095a425542184428c8095d82551218c42d62095bc25600956887b90a3e025d4096f0257d095c825580954886010a3b8255d0956c2556219942d4809740259a09608258009584255321cf42bd6)
  (.lf
  0x3dd28f7243dd54f6fb3dbdcf7453dd24f7443db34f6c941ad8f48b3c88cf2273c870f3a53ce14f37f3c8a8f3e93ce24f4013ce64f3b73c938f3d73cf10f3a83d014f38f3c914f2403cf08f3883c910f3983ce38f3cd3cebcf3d03ceb8f3ac3cf84f3bc3ced8f3b23d000f3d13cf30f3ca3cf80f3d63cfb8f3e83d158f4473d088f4463d090f42d3d008f4853d0b0f3f5))
  (.nd (.lf
  0x10c6442d810b1842cc10c4442cf10bc442eb10d44434710c0c42e510e08437710a84428e10c6c42d910be442c710c90431a10e24437510dd8433f10c78431410b8042c110e30437310e10437110a30426d1094c42f510af842dc10b3442df10afc42b510ab842aa10af4428d10a2c428510c8042d710aac42a810a24426c10ab042a2109f4437810df4437c10dfc437b)
  (.lf
  0x472991c9642da10c60430310be042d150b244160d0bfa4162d0569431990c1042f190b4942d110b4042efd0582415a10bc442c7d0be142f2d0bc542f010bbe430a90bf242f290b4242c950b1e42ed10b2241628f3203cae0f2703c55cf13e3c4f4f2723c8e4f2133cc88f2b63c9d0f23a3c8b4f1563c848f13c3c4dcf2693c4d0f2813c9a8f13f3c4d8f1353cb40f294)))
  (.nd (.nd (.lf
  0x2134c871721c588e73234708d1f2347886e3212e484b8231f484cd21330870f218b0862f218b887b7217e4866321cec87ed21fb08649217587a4c2176485d821f5c87d621e248788217c485f02190c864221a6c7a441e90c87d121f408673219c8862121fcc8761217fc79291fd747f5c1e3bc78ee1fb3c7ece1fc9486542194c87d421a18868921a207eab2748c9d22)
  (.lf
  0x2b758ae002b774ade92b784addc2b818ade02b900adee2b7b4adec2b7a0ade62b7fcae182b858adf82b804adfe2b81cae0b2b854ae102b850ae412b878ade72b624ad7e2b6ecadb82b890ae0d2b88cae172b614ad832b704ad802b5b8ad742b6e4ad772b664ad932b7e4adef2b6acad8d2b8b0ae1f2ac38aa7f2b70cad812b684ad6f2b730adc22b8ccae1d2b718adbc))
  (.nd (.lf
  0xd06033dd0d05834280cf7035a90cff035a80cfac33e50d00833e40d73034360cfbc35bc0cfb833ea0cfec34140d04835be0cff433fa0d00c34070d044340c0d04034370ce3c33840cf0433be0d07034090d06c34130ce2c33890cf1c33860cdd0337a0cefc337d0ce7c33990d73435bf0cec433930d6ac34240cd38334b0cf2433870ce9c33750cf4833c80d0a43419)
  (.lf 0)))

def aesXorReads23 : BTree :=
  .nd (.nd (.nd (.lf
  0x456d518dd457011909462f918b6463a515bd462cd15ac4630118b4462c915bc456d118cf4632518f04632918c8463d518dc4635918d4463c518e64639118ce4642118f44640118f8465b51940464f91974465b11951464a1195046535194b4652918fe465691925464811956465311924464b5193c464e91958464b11929463fd1931465f91937464d91921456e915b7)
  (.lf
  0x33318cce033344cce33331cccb4332c0cca333314cca73327cca5333490ccdb332c4cca83296cca56332c8c9d632754cd7c33604cd803360ccd7f33614cd843361ccd8233598cd683367ccd9e33624cd6d3362ccd8a3363ccd8e33654cce23339ccccf33338cceb33464cd0a3348ccd27333e0cd0d33498cd0c334a4ccff333eccd2b334a8cd25332ccccb735854d08f))
  (.nd (.lf
  0xfc143eeb0fe2c3f8a0fc243f080fe843e6a0f9bc3e570f9583e730fa843e920faac3eaf0fa003e950fab83e940fac43e870fa0c3eb30fac83ead0f8f43e4111a8446ab11a903f7d11aa446ad11ae0472511b34470d11b7446fb11af8471711bb046d611c3c46db11b4446c411b8846d011b3046dc11b68470711bd4470811bd046f211c54470011be846f811c30470a)
  (.lf 0))) (.nd (.nd (.lf
  0x38200e13e3848ce15638484e0673804ce010382cce07e38250e08f3825ce07f381e4e06238030e07d3807ce01137f84e10838234e073381a0e0663818ce06438170dfdf38400e19b38668e15138464e15338548e12738540e14e38550e15d38570e15b3855ce15938560e12b384a8e13f38258e0833821ce08638274e10338318e0e53842ce0b238324e10a38320e0ed)
  (.lf
  0x1492c5222149184eae13944526313948526d149904eb11394c4e501640858d6162c05273149b05262162c858a61629055c415638557a14cd8532b14ca4556814b6c52d91572055b0155a8532814b8452dc155d4532a14b60557814adc557b155e45574155bc55661578055b4155b8533714b7852b614cc052e214b6854ce15270548414b344e7a139e4547014d34534b))
  (.nd (.lf
  0x1536c54bd15e3c554e15204547e153cc54b115344549f153f054f21554c5543153d854ec152e0549d15e78554115540553f151d0535114d3c54cd1526854b41529454b71526c548914d505352152645475151cc5471153e054af15244535314d3852ce152085478151bc55441552455481552c554715534554c1553c554a154c055321557c555e15544553715e645798)
  (.lf 0)))

def aesXorReads24 : BTree :=
  .nd (.nd (.nd (.lf
  0x747084f1082b81d6c074a01d0f1a5c4205c077801dc8076641d90076201d861a89c2050075c41d6d075a867d7081c81ddc076241d7a075701d2a074a45d3907a18151516efc1ea80549c5c3508960225316fa41ea4053ec5c8d08880221517a0c1ea00554c5cdf07a58153d171fc254408abc5c59094f024fd1751425100942c5bfb0932824c5171442540093645c5f)
  (.lf
  0x227a48757227d88a632282c8a4b2286c8a39227f08a55228a88a14229348a192283c8a02228808a0e228288a1a228608a45228cc8a46228c88a302294c8a3e228e08a36229288a482291c8a44229508a52229888a5e22ac08a7522ab88ac4229d08c3122a508c3022a0c8a7d22a688a7c230d08acc22a1c8c3222a188a8222a4c8aac22aa88c3622a548a9222a6c8a9f))
  (.nd (.lf
  0x43c3101693f508fd7d3f524fd484031d01094035901114049d00cc4037501264037100ef4034500cf4044d012540448fcf53f3c4fd553f4c0fd273f06cfd1d3f4a4fd3440624fd6b3f654fd4f3f6acfd1a41c0cfd8c3f578fd9d3f614fd593f4b0fd863f5a8fd583f610fd4e3f67cfd93405f0fd9e3f5e901813f6a8fda63f689017d3f660fd943f6490702406010188)
  (.lf
  0x24ea493a62501893e624ef493b424d50931c24ea09320247b4935124bc0935b24d48932324bc491ec2506893f224ed8935f24d68935024ef893ac24d6094e224e7493362474891d02472c934524cb4932a2539894ce2527c949624e70939a24cb091ca2470491c223dac91d32470c91c0246fc91bc253f894d22526091d1246f88f6a25280934424d08a4e829320a49d)))
  (.nd (.nd (.lf
  0x29100a3a02a6c0a8b028f80a340280009e106c580a8902a600a87026e409a9026900a150277809fc027b409ff0277c09cd0270809be0277409a50267c099d0290009f70275409bf026d809a80270009aa0266c0a8c02a440a9002a4c0a8f02a540a9402a5c0a92029e00a7a02a940aa402a640a7f06c4c1b1202a740a9c06c5c09fe0280c09eb027a80a07028d40a26)
  (.lf
  0x35da0d74235e68d75035d3cd74e35d28d74835d84d77a35de0d75a35d8cd76035da4d76d35ddcd77235dd8d79b35e00d74935bacd6e035c74d71a35e10d76f35e0cd77935b9cd6e535c8cd6e235b40d6d635c6cd6d935becd6f535d6cd75135c34d6ef35e30d78135ac0d5ad35c94d6e335c0cd6d135cb8d72435e4cd77f35ca0d71e35ba8d6cf35e58d77d35e38d77b))
  (.nd (.lf
  0x105ac4166106ac41a81081841f31081441fd105e44177106c44168105804144106a44171106244183109bc425d1066c417d10a4c420e10550412b106cc4169106444161106f041b21084c4203106d841ac105a8413f1097842011084041ff1055c415310540418d104f0417810514417b104f4413310458411410544413b104944123106e04167105484137104544112)
  (.lf 0)))

def aesXorReads25 : BTree :=
  .nd (.nd (.nd (.lf
  0xdcb0359a0d5e0d58d10400375e0dd0c372f0dcb437243572440ce0dcb835793561c410a0dd7c37560dd50d7df103f037b20de6837670dce837280d660d62b1038037550dc98358d3589440f40deb837780dd5c37420dd00373b39e7c384c0db9ce6a10e158370939aa439260e484e6d10e0e836d539a0c3b580e5bce7b30e19836ff39cfc386c0dbcce6df0e44038c3)
  (.lf
  0x3b0dcec353afc0ebb63ad70eb5b3b0ccec163b054ec0e3acd8e9473a4fcebc13ad60eb8a3adc4eb8d3ad64eb573a500e93a3acfceb373acd4eb333aee0eb643ad2ceb473a4f8e93b3acc4e93c39c40ec123b07cec1e3b084ec1d3b08cec223b0f4ec203afa8ebec3b024ec083b03cec073b044ec103b0e4ec383b05ceb8c3ad7ceb6f3adb8eb753afc4eb863aedcebbb))
  (.nd (.lf
  0x24df496bd2567c938d256209731256e4970d25bc4972b25670970325b0896c025c3c95a9256c49582256e095b0256b096f0256a0970525b2496fc25bd896c825c04972a25c90972225c30970425bf496fa25c08970025cf0973025e00971b25de8977c25c68975225d34978725d30974725d18974425e94979c25da897a425e18976825d44977825dd8976c25d4c9750)
  (.lf
  0x1e9ac78791e1dc78af1dd8477331e58478b71e2847aba1e3186ce91e38c78781b3e078db1dd806bce1eb9878b61b3d072401c8146ce81c90c72571c84c6e9c1b3e470d51c82c72491e32878ac1c810725f1c84872111c96c70d41ba7478ba1c82872091e494791a1b36c71e91b40c6cc91e4b471e71b30479451e4cc6cd71c78c6d061b3686cc81c3206cdd1b3007954)))
  (.nd (.nd (.lf
  0x27f549fbe27ee09fb7283fc9fd327e8c9f4928b50a22b27ee49f9627dd09f6f27ee89f0527c00a30e28c4ca31228c64a31128c6ca31a28c0ca31828bb0a2ee28bcca2f228be4a2f128cb4a32c28c74a31c28c9ca112288c49fa927ea0a11928abca29828b2ca2d728a28a29b28b58a29a28b84a28f28a34a2cd28b54a2cc27eec9fc126ae49abd26ae898b926adc9abf)
  (.lf
  0x20a208275209c082651f9e87e6f1c6f871b11e23478741e8887a0d172105c1506e081b7506d241b3a06c341b0006be81adf06b681acf06b001aa106a701a8f069bc1a6c0697c1a5a069501a494655d195243b310ea34202508b542011085f4216d08b7422f909294230d09114238508ff42319091b423c108da4244d08df4235508cc4239908d44230908e042379090b))
  (.nd (.lf
  0x1b2dc6cb521148840920fa483d920f4083ca20f6883d41b2cc849e2128c84a22129484a12129c84a6212a484a421228848c2131484c4212c4849121b2c86ca212d484b421b3c84102105483fd20ff084192111c843821144845521098843b21150843a2115c842d210a4845921160845320f6c6ae3181b45d2a174946075181c45d27175e060e51823460cd1827460bb)
  (.lf 0)))

def aesXorReads26 : BTree :=
  .nd (.nd (.nd (.lf
  0xb5b82d4d0b4f42d3b0b4c891530b4f02a2f0a7a0afeb0bb282d6f0b5982d64268c42dc20b6a82d770b5402d360a8c82a1c25f542d650b4d02a310a84092430ba702dbe0b6202d670b5442d4c0b5289a110b9782ad40ab2027c026a442e680acd82b0a0aa682a6709f5827ac24564330a0ab282a9f0aa742a9b0aa58924f0b9302a9c09eb4922b0cb882acb0ab082ac0)
  (.lf
  0x503813f804fa414da0537c14de0538414dd0538c14e20539414e00531814c80540c15020539c14cd0890c2242053ac14ea08a7c144c051441439050e014550520c14740523414910518814770524014760524c146905194149505250148f0503c141304bb412e804b8412f104b9c12e304c08137304c6c135b04cac134904c28136504ce8132404d74132904c7c1312))
  (.nd (.lf
  0x129a44a75129b44a6812a484a6c12b104a7a129e44a78129d04a7212a2c4aa412a884a8412a344a8a12a4c4a9712a844a9c12a804ac512aa84a73128544a0a1291c4a4412ab84a9912ab44aa3128444a0f129344a0c127e84a00129144a03128944a1f12a144a7b128dc4a1912ad84aab12754487a1293c4a0d128b449fb129604a4e12af44aa9129484a481285049f5)
  (.lf
  0x3a9c0f6f63db48ead53a930ea123a7d4f6c33aab8eaab3dbe8f6dc3db1ceafa3ab50ead23db08ea113a7d0ea533a850ea543a93cea153a84cea103dc58f7043ab98ea523a938ea4d3db20eaaa3a9f0ecd83b220ec6d3a9b8ea2a3a78cec653b138eb033b340eca83b27cec4a3ac18e9e23b1b0ec643b17cea6b3a8b0ec5e3b110ea6d3a8b4ea2b3b3f8ec9c3ac50ea6f)))
  (.nd (.nd (.lf
  0x1dd48771d1d990747f1d0ec76bb1da3076a81da5c76ab1da3476771d1f074341da2c767b1d9e476651dcd876a51d9fc74fa1d1f8747d1d99876621d984771e1dcb4772c1dd04772b1dd0c77421dca4774a1dd00774c1dd4477501dd4c774f1e27c789e1dcc477301e24476aa1dabc76951da5076b11dc1c76d01dc3c77391dae876d31dce076d21dbe476c11daf47711)
  (.lf
  0x2d008b5a52d5e8b5642d674b5692d57cb5562d5c0b55e2d530b56a2d5a0b5952d60cb5962d608b5802d68cb58e2d620b5862d668b5982d65cb5942d690b5a22d6c8b5ae2d828b5c52d820b6222d710b5ee2d72cb5d72d73cb5ca2d7d0b5ce2d8d8b5dc2d76cb5da2d758b5d42d7b4b6062d810b5e62d7bcb5ec2d7d4b5f92d80cb5fe2d808b6372d830b5d52d5dcb56c))
  (.nd (.lf
  0x15ab8569815b44569d15a4c568a15a905692159f8569e15a7056c915adc56ca15ad856b415b5c56c215af056ba15b3856cc15b2c56c815b6056d615b9856e215cd056f915cc8574415be0576b15c60576a15c1c570115c78570015dc8574a15c2c576c15c28570615c5c573015cb8576e15c64571615c7c572315cb4572815cb0574b15aac56a015b7456da15ce05725)
  (.lf 0)))

def aesXorReads27 : BTree :=
  .nd (.nd (.nd (.lf
  0x46aad19e24680519eb467a919f5468b51a10469251a71469611a67469c11a66469451a5d4696d1a5f469bd1a5e4675d19f74276509c6427050877421fd09c3427690a5d428250a2d427950a1d421f10a2b428490a04428dd09df4280509f2428210a024280109e4427790a294285d0a24428810a16428bd0a4a428710a1a428c10a2c428a10a25428b90a2a429710a52)
  (.lf
  0x3ed14fb3c3eda0fb613fa2cfe623f984fdf73ec14fb033f6f4fb3e3ec48faee3eda4faf13ed3cfb493f7bcfddf3ed74fb073fad0fe013ea40fa8b3f704fb3f3ed0cfb133f700fdbe3f82cfdff3f750fb623ed10fb113f8b8fdfd3fa38fdfb3e570d673359c4fb733ec38fb023ebbcfb0f3ec34fb343ea3cfa863ec2cfae93eafcf95d3f788fb3d3ebb4fa873e9e8d670))
  (.nd (.lf
  0x39e00e7403a4c0e5b039540e5303bd80ead03a2c0e75039b00e5e039d80e60039440f4203d1c0f4603d240f4503d2c0f4a03d340f4803cb80f3003d740f5c03d3c0f3506e541b9403d4c0f5206e740eb403ae40ea103a800ebd03bac0edc03bd40ef903b280edf03be00ede03bec0ed103b340efd03bf00ef7039dc0e7b14894526e149ac58b1162b458a5149d8590d)
  (.lf
  0x81b0204a0815820a808088207c080f820340a94027b009f102ab009dc02a7009e70278a093a02518094b024a60936824c60943024fe08ac01e9207a70220e079c8225407a301e82074801d62075f81cee074501d06075001d3607c1017f8060101f3805f401f1005fb017e2093802516094a0249e0934824be0941024f608a88153605530220c053c0224c05468150a)))
  (.nd (.nd (.lf
  0x33c9ccf2633c0ccf0237e7cdf9e37da0cc6d37dacdf6a37d98df6437f54dfd439a10e6c739b18e6a739a98e78339e08da1d36870da5336948e677399d8e6c439b0ce6cd39b30ced633b38e67f399f8d0bd342f0d1bb346e8db0336c08cdb933810cdb133754cde3336dcce083396ccde73386ccdef3390ccc92338accdf633760ce1d337a4cddc336f4cdf433798cdbc)
  (.lf
  0x1a040672019b006880198c069501a240680019ec066601bf806d201a4c0686019e8066201a400678019b805d201670058401608056301554055f0157405580175805be015fc0574015680554015c405620157005780154c0585015e40570015ac0556017b805c20160c0576015a8055201600056801578123a0481011ec047a811cb046f411c70471411c0048f81226))
  (.nd (.lf
  0xb1d42c720b1ec2c7f0b2242c840b2202cbf0b01c2bfc0b0e42c360b2502c810b24c2c8b0b00c2c010b0fc2bfe0afb02bf20b0dc2bf50b05c2c110c03430050b0a42c0b0c19c2c9c0af1c2a820b1042bff0b07c2bed0b1282c400b2842c910b1102c3a0b0182be70c0182c8f0b2782c8d0a9f82a6b0a8a42c1b0af902c020afcc2c050af942bdb0af502bd00af8c2a7f)
  (.lf 0)))

def aesXorReads28 : BTree :=
  .nd (.nd (.nd (.lf
  0xcc88bbb30fcb0332e0bf9cbb3f0ff0834700ccb432ee2ef143f360d34034b80d1b033260cbc42fea2ef2c3f3a0cc9032ef0bfa4bba50fea034cc0d25834820d20034710d1b4bc490d7a035b80d680356c2f17436620d8d835fb0d7a835a40d67835762ee4437220d7f435f50d7c035eb0d768bb1d0d7d0359f0d568bbd50dd4835f10d78835b42ed94364a0d8c835de)
  (.lf
  0x2fd38bf732fd60bf212fb0cbeb82fbd4bef22fd70bf472fd6cbf512fafcbebd2fbecbeba2faa0beae2fbccbeb12fb4cbecd2fcccbf292fb94bec72fd90bf592fa2cbe882fbf4bebb2fb6cbea92fc18befc2fdacbf572fc00bef62fb08bea72fdb8bf552fd98bf532f9f8bc1d2f06cbed72fa90bebe2fabcbec12fa94be932f018bc042fa8cbe7f2f9f4be7b2fc08beb9))
  (.nd (.lf
  0x41abd06ae41a0d06e341b890aff42bf90f16405c4f45a447ad11ea43cdd064143d250f48420f507d441f5d07d641ed507b4413ed04fa41e5d079641dc507704211d074941d2107cd4227d089e41fbd07ee41efd082b437ad054141501077942271009c41cf5073c41fd507f441eed07ba41e3d078e4213d199746659053d41f15081041fb119914664109a2466e519b8)
  (.lf
  0x2ef64bb9c2ee6cbc622f12cbbd72f310bcac2f190bc4e2ef84bb9a2ef6cbbd82ef58bc5f2ee48bc6f2f180bbda2ee74bb932f370bcb02f1dcbc6e2f1a0bc5e2f1b0bc502f128bff42ff08bfaa2fe18bbc72ee9cbf962f0e4bbcd2ffe0bfe02fe60bc3c2ef44bbc62fe04bbcc2ee98bf932fe10bfa32fe50bf872fe14bf8030040bfe42feacbfa22fe70bf922fe80bc3e)))
  (.nd (.nd (.lf
  0x16c645ba216e385bdd16f645b7616d3059fe167dc5c4016f5c5bd516f485a121678c59d716cbc59f4168785a0f1688459f51679859da1674c5a13167cc59d11673c5b801681059fd1679c59e11675859e816180585f16ec85bcf16f385bcd16ed45bb716ed85bdb16ed05b9616e605b9d16e705bd316e6c5c1d170705bdf16f785c41168805a01168345a0c168745b4d)
  (.lf
  0x2ff04bfaf2ef40bbce2fefcbf9b2fe64bf9730078bfd52fedcbf822f0e8bbcf2fea0bf9e2fe54c078301f4c07c301fcc07b30204c0803020cc07e30180c06230254c09430214c0673021cc0863022cc08a30234bfdc2ff84bfc92ff20bfe53004cc00430074c0212ffc8c00730080c0063008cbff92ffd4c02530090c01f2fea4bc3f328b4c9b2326bcca7b329dcca05))
  (.nd (.lf
  0xbd402f070bb6c2ed80bad42ea00bb702ed20bab42f9c0be842fa00be8c2f9f0be942fa40be9c2fa20be202f8a0bef42fbc0bea42f8f0bfec2ffa0beb42fac0bff42f0e0bc4c2efb0bbe82f170bd142f360bd3c2f530bc902f390bd482f380bd542f2b0bc9c2f570bd582f510bb742ee11167445a7116803f731169445a9116d046211172446091176445f7116e84613)
  (.lf 0)))

def aesXorReads29 : BTree :=
  .nd (.nd (.nd (.lf
  0x4472511704430110b14448510f94449510fb444a1112044635116f4472d11c8444f911364437510d844751116d44651116b442f50f5b43d61114f4435910ef4438910e54435d10d5443210f62443150f5943d550f434450110d14432510c7442f910bc4432910ac43c9d11724473d11ce4462d11754460d1182445c511744453111924466511984465d1195448151204)
  (.lf
  0x2bc88af1d2ba7caea327df49ef827bd4a12b2849c9f3b28478a19d284dca18528554a17327e00a18f28590a14e2861ca15328524a14028568a148284d8a15428548a17f285b4a180285b0a16a28634a178285c8a17028610a18228604a17e28638a18c28670a198287d0a1af287c8a212286b8a1d8286d4a1c1286e4a1b428778a1b828888a1c628714a1c428700a1be))
  (.nd (.lf
  0x226cc89b0225ac89bb22750899f2267889a32247c8812226f089752276889d3226a489a5224c4881722594892e224b08938226f4893b22554894322f9c8be3225dc893322f7489ca2200887ff2259c892d2254c892f226a889662272489c722610897822478891b22fa089c52276089c322020877b21ddc894d22460893922058891d22464881d21e00877e2245c8913)
  (.lf
  0x35830d7b035668d7ce35540d7c635680d56035878d5f23e588d57035738f954359b0d56835a88d5fa356a0d5b235688d57c359a0d3032e74cae3b34c1cb9af2b880b9d52b918ae3734c44b9d92b91cd36834c14b9d22e718b9ae2e6b4e53d34c94b9c734ce4d3142e760d33634c10d3013505cd35334b8cd33e34c90d31c34cfcd31b34be4d37834c00ae3a34dd0d352)))
  (.nd (.nd (.lf
  0x30ec0c3ac315e4c56931574c55731778c57531584c3ad30ea8a68431550c5503153cc66e31a9cc6a631a94c671319ccc672317f4c670319b0c6a831b24c6c831b1cc6ab31ab4c6ac31a04c68031964c57a3161cc58d31630c5ad31744c5b23175cc5e131678c5b531780c5b43186cc5a331684c5d93177cc5d831544c3b334cdca90e29bfca69e29a6ca71b29c9ca69d)
  (.lf
  0x1b5086d411b4f8b86f2dda8b763267fc99f6267cc5bc415f8457de176405cc915f6c5d8c1668457d41b4d86d171b450748c1cfdc57d01d158742c15f3074141ce6857c8174c85d0e15f1066ad19a2866891d1b0668419a0c7418199fc667c1d45073f015f909ae5262ec98b226258987f26198985e260e498361d4686676199d4536b14d84535d14c8c531114bdc52c5))
  (.nd (.lf
  0x1ca9873111caac72f91cb2472e71cab873031cb6072c21cbec72c71caf472b41cb3872bc1caa872c81cb1872f31cb8472f41cb8072de1cc0472ec1cb9872e41cbe072f61cbd472f21cc0873001cc40730c1cd7873231cd70736e1cc88738d1cd08738c1ccc4732b1cd20732a1cf1073821ccd473a61ccd073301cd04735a1cd6073a81cd0c73401cd24734d1cd5c7352)
  (.lf 0)))

def aesXorReads30 : BTree :=
  .nd (.nd (.nd (.lf
  0x10a6d0f4113248424b43d4c4cb41093d10a91334042674195443aa0f6e506f310e903f7941ad447ea115fd0f7f10f083d8143dc4454b11521069510ef83f6343eac43ba0f86d06f911fe0469d41b5c47f411e8506ab11f6847b9419f44886120dd0f2111f3847c1446ec4af81273d069d11fc047ad43e8447e211e8d179112230486b418c44b1641ac44b1a41a144ca8)
  (.lf
  0x1433450b8142c850b01431050c21430450be1433850cc1437050d8144d050ef144c8514a143b85118143d45101143e450f41447850f81455051061441451041440050fe1445c5130144b851101446451161447c5123144b45128144b05155144d850ff1424c508e1434c50d0144e85125144e4512f14284509f143645090142204f3c143445099142c450ab144445107))
  (.nd (.lf
  0x8af4226205554231308b7022fa08bac22fd08b7422cf08b10221a08b6c226308984225f08cf822f508b5422c508af022b608b1822c008974239608e6c239a08e74239908e7c239e08e84239c08e00238208ecc23b208e8c238708e9423a408ea423a808eac22fc08c0422e908ba0230508ccc232408cf4234108c48232708d00232608d0c231908c54234508d10233f)
  (.lf
  0x432690cce432e90cd84332918e2456c1159c453451474450c515a844ffd13fd4638115b84568914d0452ad14a8462b5143044ff11590451dd18ac4567515954564915914643918b84565114bc451d9147545351147a44ff91638458a11584454d914b1450fd1606455bd156d458f1163a458011577455c914b0455b11533450f915e74579115fe457951581454dd1532)))
  (.nd (.nd (.lf
  0x24a1c9286278d49269279cc9e72248c4921d291b4a46c268149a0420a1c82862bf2cafca2489c92262301c8c06230208c04262e88c0b230348c0c2317c8c5e24b1492c424b588bd924b6492d824b3892cc260949824247d091f7247d8920324808937524dd0928f24a389edf27b78916d245b08f5a23d648f5d23d708290209488f5123d408c4d231309e7b279e89f21)
  (.lf
  0x278549e0d276149d83277049d80275b89d74276e49d77276649d93279149e43276ac9d8d27a749e1e275049d3e2770c9d81276849d6f277309dc22788c9e13277189dbc276209d69279589e11278809e0f274c07f571fd549d9d275989d84275d49d872759c9d55275309d48275949d31274bc9d2d277209d7f275749d49275107f54275289d38274ac9e14278649e18))
  (.nd (.lf
  0x25538956d2533494c2253fc94fc2556895472556495512532494c72541494c4252c894b8253f494bb2537494d725b9496df253bc94d125ba495622525091cd2541c94c52539494b32544095062559c955725428950025330933725b9895552559095532525c949324d1894e124cd094c8252e494cb24cd4949e25268932f24e6c934724ccc932b2543094c3252a4949b)
  (.lf 0)))

def aesXorReads31 : BTree :=
  .nd (.nd (.nd (.lf
  0xf2003c40105803db01050042600f681a6b00fe81a6a00fa403e30100003e2069d8042c00fb41a6e00fb003e800fe40412010401a7000fec03f80100404050103c040a01038042d00e34038200efc03bc01068040701064041100e24038700f14038400dc8037800ef4037b00e740397069dc1a7100ebc0391069b4042200cfc033c00f1c038500e94037300f4003c6)
  (.lf
  0x2e954ba3d2e8f0ba592ea1cba782ea44ba952e998ba7b2ea50ba7a2ea5cba6d2e9a4ba992ea60ba932e87cba23326e4c37a30944c26b30930c237308ecc26d309d0c2df309e4c2c730a5cc2b5309f0c2d130a98c29030b24c29530a2cc28230a70c28a309e0c29630a50c2c130abcc2c230ab8c2ac30b3cc2ba30ad0c2b230b18c2c430b0cc2c030b40c2ce30b78c2da))
  (.nd (.lf
  0x9a242684099f4268d09a0c267f09a78270f09adc26f709b1c26e509a98270109b5826c009be426c509aec26ae09b3026ba09ad826c609b1026f109b7c26f209b7826dc09bfc26ea09b9026e209bd826f409bcc26f009c0026fe09c38270a09d70272109d68276c09c802a4909d002a4809cbc272909d1827280a930278209ccc2a4a09cc8272e09cfc275809d582a62)
  (.lf 0))) (.nd (.nd (.lf
  0x3f854fe103f84cfe1238a98e2a43fa04fe803e9b8fb2f3ecb8fab33eac8fbcd3ef30de33378c8f1733c5c8f9173e458fb2d3e440f9133e448ec2e3b090f9433e508e8b33a2c8f5613d580f56d3d5b0ea3e379b4da9336c38db0b36c54dc6d36c44dc7c37314dc793729cdc95372fcdc6a3738cdc9a37218dca937234db2436c84dc8e371e0db2037250dc8c372dcdcad)
  (.lf
  0x17df45f7417db05f6a174005cb3172b85cc2172f45cc3172f85cb2171945c3b17f705fb017dd85cbc1718c5c3a17df85d5e1757060be181ac5d84174b05cd81735c5d7b175dc5d741830860aa181ec6072181a86068175d85cd6172945d21171e85d29174885cd9172905c7b1836860ae181d05d2d174a05d20181f05d7a174985df0176f85d54173e85cf9173d45d9b))
  (.nd (.lf
  0x110b4441f1105043d4110ac43ff10ff443fb11238444511094441511040440211058440410fe444da1137c44de1138444dd1138c44e21139444e01131844c8113d444f41139c44cd120944824113ac44ea12134444c111444439110e044551120c44741123444911118844771124044761124c446911194449511250448f1105c43d71b50068fd19fc467fb19fd0505b)
  (.lf 0)))

def aesXorReads32 : BTree :=
  .nd (.nd (.nd (.lf
  0x4fc413ef04fa80e40000f414680514014110501813ec04f980e4a000ec140304fd013ee0379000390502813e50382000370505c140b0500813fd04fa00dfc000d414800515014150502013fc04f900e36000cc141204fe813f0038a8003106fa80d5c034980d0e034300ced0337c002f046980ce90339c0ce2000b411b2035800d48034240cfe033900cde000ac1c0e)
  (.lf
  0x5db4172b05d2c171905dd8176c05f3417bd05dc0176605cc816e707c0817bb05f2817b905bf416f905b78174705b90172e05c7c173105b94170405c0016db05bcc16e305b7c16d705dc8172905c3c170105be016f605c0816c005afc17be05f0c17c205f1417c105f1c17c605f2417c405ea817ac05f7c17de05f2c17b107c3c1f0e05f3c17ce07c0c173005cd4171d))
  (.nd (.lf
  0x3aa90ea883aa18ec5b3aa1ce8d33a7d8e9ea3a798fee53fa94fe833d5bcf1943a79ce8db3a230fe993f9bcfe213aa94ea803a538f3763c674e5323a5d8ea633a814e9773a864e98c39468ea253f974fe283eea0fa983e988fbd43ef3cfad23fa84fe173f81cfbd63ef54fbd23c4b8f12c3c4a0fb9e3fdb8ff443fd08fba93ee7cfb933eb80fab53c484e52638ef8fae1)
  (.lf
  0x22138883621e3486a221a84882221d24862722210886c22090879721e48878c21a80864d21898881f21938882f2208086a32193c864c222708870220dc882e220a0881e220b0879821d208b3a22c208af021eec86682199c8adc21d1c863322cf88b2622b7887c521f0087ba21998865b218c88ad9219708ae922b68866921974865a22d588b2a22bc48ae822b888ad8)))
  (.nd (.nd (.lf
  0x16940598016d805a40168005b0016b805db0172405dc0172005c6017a405d40173805cc0178005de0177405da017a805e8017e005f401918060b019100656018281a8d018a81a8c018640613018c0061206a40065c018741a8e018700618018a40642019001a94018ac0628018c40635018fc063a018f8065d016f405b2017bc05ec019280637019240641016e405b7)
  (.lf
  0x37084dc203708cdc1e37008dc04370d4dc3437094dc093709cdc26370acdc2a370b4db7e36e0cdb6b36da8db8736ed4dba636efcdbc336e50dba936f08dba836f14db9b36e5cdbc736f18dbc136d2cdabd3484cd20d34828d1e7347acd20f34878d287348bcd26f348fcd25d34800d27934938d238349c4d23d348ccd22634910d232348b8d23e348f0d2693495cd26a))
  (.nd (.lf
  0x1f4347d0c1fa347c721f1947b0f1ec387c771f2947c961f2bc7cb31f2107c991f2c87c981f2d47c8b1f21c7cb71f2d87cb11ebe47c5324c7c935c24d5c93b724ecc935924ea8942724f0c940f24f7c93ff24d90941924fc093da2504493e924f5493cc24fb893d424f0893e824f78940b24fdc941424fe093f625074940424ff893fc25054940e25030940a250709418)
  (.lf 0)))

def aesXorReads33 : BTree :=
  .nd (.nd (.nd (.lf
  0xe1b4fe431098839113f9043db40f6bd030b0fdb43de23f9cc457a1159d04210f5f03d7741024453f114e8fe2d0fd783f493fe5c3e160f83cfecb11a5845973fbf4479c1148cfef311ed0451d40a3c482f120b0fe9b11ec845193f97c489d12268ff6511ea045133fecc47981142502cb1215c48543fbbc49ac10524fe7b12680411b3faa44b5e103fcff1d126e840cd)
  (.lf
  0x3b71ceac73b14cea363b148eb1a3ac38eaca3ab18edbf3b5cced8e3b628ed723b664ed843b5e0ed763b6f8edb83b650ed8f3b660ed923b738ed9c3b848edc53b840ee2a3b710edbd3b6e8edf53b744edbc3b740eda43b7c8edef3b770edf43b7c0edee3b784ee0e3b7b0ee083b780edbb3b694edff3b810ede93b7a0eddd3b860edf13b604eacc3b698ed973b870ee01))
  (.nd (.lf
  0x705c1bfe072441c4f071bc1c3d072681c90074441ceb073b01cb5072501c8a071581c37074781ce9074081ce706fe01bef046d41c6b070d01c520710c1c55070d41c2b070901c20070cc1bf906fdc1bf5072581c4d070841c1e070141bee070881c1806fcc1cf6073ec1cfa073f41cf9073fc1cfe074041cfc073601cda074cc1d320740c1cdf074141d040744c1d12)
  (.lf
  0x134d41bc106bcc524e134fc1bb81c9944d6606f20728d068d8106614a484d4206f004ea8134f84d3d13a6c4e8d1359c4d5e135541a31134c44e4713a884d3c06bb0629d135501afd18b244d5f068c04e54134c01aeb139d01edf07b7452bf07b041ebb07bb41b2f04b0c1ef507b541ed3135a81edc06c6c1ec007b8412c203360556207b481b3014ce01b1a06c641b07)))
  (.nd (.nd (.lf
  0x291bc924a267f099f8267d0afcd26a289a6c260c8981c2606099da2632898b527adc9eb027a809fc827ec09f8e2632c92de24ad89f1627c409f0a268b0922924538914f244f4913a24af89a1625f40925e2497c925d2495c9a2a248f88ac0260cc982724afc9f2327b189a32268b49a2b2417c99db2458c97d125f2897c627b549e882604891542681c99f5245549a8b)
  (.lf
  0x45a4d16ba45a51169245b1d16a445a89169c45b191675459ad16d145b81169b45a6916c94589d15ee45a15167c45b4d16ae45a8d16a14587516174597d162a457f11620459f5162345915163f45a751697459dd161945ba916b74562115834598d15fd458cd162b459b1166245ba516ab45a311686458a5162645aa116a745b5116a5458411573455c51637458911621))
  (.nd (.lf
  0x1f8a07e8e1f85c7e111f8b87e101fa487e5a1f86c7e901f8687e161f89c7e401f8f87e961f8a47e261f8bc7e331f8f47e381f8f07e5b1f6ec7db01f7b47dea1f9207e351f91c7e3f1f6dc7db51f7cc7db21f6807da61f7ac7da91f72c7dc51fa5c7e931f7747dbf1fa747e501f60c7d801f7d47db31f74c7da11f7f87df41f9547e451f7e07dee1f6e87d9f1fa507e43)
  (.lf 0)))

def aesXorReads34 : BTree :=
  .nd (.nd (.nd (.lf
  0xca74b3150e2d438b22cebc3da00a7ecd1e50f7082a052ccbc3d560baacd1f10f59829e9348143d3e0bb2cb40d0f8a02a1d2d0a43dee0a844b2f70f6202e9d2cd642fc40b97cb3bb0bf382e692ce0c33100cc2cb3550bec82e4d2cd8c32ea0cb8cb3130bf882e812cf8c2fd80b9d4b4230cd04333e2ce8c34420b354b3bd0d1302ce72ce1c35c80c0b4b3690d0c02cbb)
  (.lf
  0x282d0a08e283d8a09c2826ca09a28258a094282b4a0c628310a0a6282bca0ac282d4a0b92830ca0be28308a0f728330a095280dca02c281a4a06628348a0bb28344a0c5280cca031281bca02e28070a0222819ca0252811ca0412829ca09d28164a03b28370a0cd27fa89fe7281c4a02f2813ca01d281e8a0702839ca0cb281d0a06a280d8a017283b0a0c928378a0c7))
  (.nd (.lf
  0x798c1e62079941e610799c1e66079a41e64079201e4a079fc1e7e079ac1e4f079b41e6c079c41e70079dc1dc4077241db1076c01dcd077ec1dec078141e09077681def078201dee0782c1de1077741e0d078301e070765c1d9b409c8f6863da11040240ff103b64518915e04155106ca43c510f30451f913ba41a910f1e446e107444229907e6421510818426e9054c)
  (.lf
  0x363c8d3ab34e98d3a0363e8d8e834f80d49635190d42134fd8d3c634e2cd441350f4d43a35268d48235144d44835080d41e350f0d3c334e28d3eb34f10d3f334fb0d3c734f14d3c2352c8d48635128d3f734fc8d3ea35148d44034fc0e5c639650e57c3953cd3be34df4e56839534d43339728e5b2395a8e557350d8d37c39544e54e39530e56539508e57539598e550)))
  (.nd (.nd (.lf
  0x1cf9c83c520f1075111cec073741cecc73b21d04474101d14c74521cf7c73de1cfc4755f1d5786aeb1d30c73b61ce4873fd1cff073761d00474001ce6c742d1d1a469b11b6cc6db21996c665a1a66469911a6ec69ba16ff45bf520f0483c01ab2c6aca18f9463e41906464181a57c695e1ce8473a01ce78737819a20579b1cdfc737e1d22c748a1cf3c73ce199005557)
  (.lf
  0x2b4e4ad252b338acc42b240ac712b4f0ad232b4d0ad212abfcaafb2abe0aca52b1b8ac8c2b1f4ac8f2b1bcac652b178ac5a2b1b4aaf92abd4aaab2b340ac872b16cac582abe8aab32b170ac522aaa4ad282b4b4ad2c2b4bcad2b2b4c4ad302b4ccad2e2b448ad142b514ad442b4d4ad192b4dcad362b4ecad3a2b4f4ac8e2b24cac7b2b1e8ac972b314acb62b33cacd3))
  (.nd (.lf
  0x1c098700b1c78070af1c30070ad1bf886d851b60c703b1c02070221c04c70251c0246ff71b6206d861c01c6fe31bf846fdf1c198701d1bffc6fcc1b61c6d821bfc06fe61bf7470b21c2dc70b61c2e470b51c2ec70ba1c2fc70b81c27870a01c34470d01c30470a51c7b471ec1c31470c41c78470241c0a470111c040702d1c16c704c1c19470691c0e8704f1c1a0704e)
  (.lf 0)))

def aesXorReads35 : BTree :=
  .nd (.nd (.nd (.lf
  0x45fc517e0461c11829461f91879460f5183b45f3517c94606517e245f6117ae461c517b145ff517f546195186145fed17cf4628d189845ed117a14606d17e345fbd17d946071181a4625d1895460c1182a45fc117c346279189346245188645ecd120c43e9517e945f0117c845ebd17cb45f0517bf45e9911de45e8d120f44835120b460c917e145ec917a745e79179d)
  (.lf
  0x3f28d132944ca0fca144e1d133644e35144744db9137545119137444d75137344dc5138f45115138e3f1e4fc6d413e504f742bf50afb41045044741051030d40c4d044b4113104bf4114d0483410ad0493411910485411b1043a412450435411110441411490440410d90434410a904a5411dd047e411d90470412bd04a041249047a412910482411fd0474412b90484))
  (.nd (.lf
  0x1d8f0764e1d80878e91d88878e81d844760b1d8a0760a1e42876561d85479021d85076101d884763a1d8e079041d88c76201d8a4762d1d8dc76321d8d876571d6d475aa1d79c75e41d908762f1d90476391d6c475af1d7b475ac1d66875a01d79475a31d71475bf1e42c79051d75c75b91e3ac764a1d5f4757a1d7bc75ad1d734759b1d7e075ee1d93c763f1d7c875e8)
  (.lf
  0x3f9e8feee40b28ffb23fd90fe5e3fa69028e3fbc8fefc3fb28ff963f8b1040841080fe7240c28fe403f908fed43fd28fe4c3f860ff063fa10fee83f110fce23f028fb223eb98fba23ef68fbc83f438fc123ec70fb323ead8fb8a3efb8fa9c3eaf0fc583f0a8faf63eca0fad63eed0fbe43ea58fcaa3f000faa43eab8fad03ee50fbea3bc70e9ec3aa38e8c63ac78e970)))
  (.nd (.nd (.lf
  0x2b884e54739518b8ae2b0f0ac3a2e26cac312b0fcac3e2e264b8982ecc4bb302f030bba02ecd0bc0f2f038bb3b2ece8c69531a50c66a319a0c6b431accc6b931ae0c77b31de8c635318d0c69331a28c68d31a30c21430828c679319e0c4f2314d4c5343147cc51e327b4c9ec2b924ae4834ebcd3ae30e04c38031374c38230e14c3842e2d0b86830df4c37c2efdcbbf6)
  (.lf
  0x3a968ea403a8fcea163a828ea003aa98e9e43a774ff403fb3cfe2a3c6b0f1a0394c0f18c394b0e52b3c788e53639490d41635024d3fc3fb88fe7f3f8f902c53fc0cfe6c3fd98feb83f8c4bf8b2f160bc5734f8cd3ce34f2cd39534e44d38f34e14d38034dd4ca00327acc39932988c51330e50c39530e28c3892f0d0bc102f034da513474ccef736a70d1cd33cfcdacd))
  (.nd (.lf
  0xeb743ace0eb9c3aeb0eaf03ad10eba83ad00ebb43ac30eafc3aef0ebb83ae90e9d43a790476c11d60473c11df0475411d1047c01261048241249048641237047e01253048a012120492c121704834120004878120c048201218048581243048c41244048c0122e04944123c048d8123404920124604914124204948125004980125c04ab8127304ab012be049c81eb7)
  (.lf 0)))

def aesXorReads36 : BTree :=
  .nd (.nd (.nd (.lf
  0x14ad41d48038dc5565074280dfd07b941d18038241eeb073c80de5145fc1d820392c52d7075980e4114c9c1d240384c58a30543c150c1498415220547c4e4f08938224906be414f6053cc4d650884021fd14884154e055245245054e0153313ab422aa08a9c51af093e016af18aec250605ae44e5709300167f18b3424d405a3462a109280166714864252a05bbc5237)
  (.lf
  0xf2303ca90f35c3cc80f3843ce50f2d83ccb0f3903cca0f39c3cbd0f2e43ce90f3a03ce30f1bc3c731700c654e1951c65451953465491956065c51957465ad195f4659b1958065b7196306576196bc657b195c4656819608657019570657c195e865a71965465a8196506592196d465a0196686598196b065aa196a465a6196d865b41971065c01984865d7198406622))
  (.nd (.lf
  0x40b71029140fa903ef40fb903f740fb503f940fe103c940fd903d240f5103d940f6103db40f5d03dd40f7103bd40ef103b140c69032740c75031c40c05037940d31037f40e0d036840db5038240db1035740dcd036b40e35038c40e0502eb3fee4ff513fc40fe893fdacffaf3fbdd02a0417a4ffd9416e502b7416bd05984173d05a040ac905bb40abcff5f3fc6902b0)
  (.lf
  0x31588c3b229a08a8c829d88a6fb29a64a66c299a8a75829c5ca70b2a2f0a76e29c60a70d29be8a6f829c28a69829a5ca65529938a696299b4a6562993ca5ed2a090a73629c68a66b29950a5ec29c58a71429a70a176285109f7b27be89ebb27a38a12128474a11a285e8a162284c4a12827de89f78284709ebd27ae89ef127a409ef727bc89ebc27a449e8f28648a166)))
  (.nd (.nd (.lf
  0x31740c1c030280c10031540c13030d40c2f06dfc1b770311c0c2906e0c0cba02f5c0bd40317c0c1d030f40c0b031a00c5e032fc0caf031880c58030900c0506e000cad032f00cab02f740bcd02f200c39030080c20030440c230300c0bf102f980be2030040bc902f0c0bc1031900c1b02fe40be302f680bcc02f900bce02efc0cb0032d40cb4032dc0cb3032e40cb8)
  (.lf
  0x3446cd118344a0d126344d8d13234638d14934630d1a234520d1723453cd15b3454cd14e345e0d152346c8d1603457cd15e34568d158345c4d18a34620d16a345ccd170345e4d17d3461cd18234618d1b334640d159343b4d0e8344b4d12a34650d17f3464cd189343ecd0f9344ccd0ea34388cf96344acd0f33442cd105345acd16134474d0ff34670d19134358cf75))
  (.nd (.lf
  0x259c096ca2597c9659259d8965825b5096a22598c96cc25988965e259bc968825a1896ce259c4966e259dc967b25a14968025a1096a32580c95f8258d4963225a40967d25a3c9687257fc95fd258ec95fa257a095ee258cc95f12584c960d25b5496cf25894960725b6496982572891db258f495fb2586c95e925918963c25a74968d25900963625808930b25b58968b)
  (.lf 0)))

def aesXorReads37 : BTree :=
  .nd (.nd (.nd (.lf
  0x42f690c4542f650c1d42f950c3742f490c29430110bf0430950beb430190bff42ff90bee42f610bea42f910ca34305d0c1e430610c164308d0c36430d10c32432890c264307d0c1c430a10c22431110c3e432cd0c7c431e90cb2432c10c95432290cd1432510c53431710c52432a10c9c431bd0cd0432590c6e432350c78431d90ca6432310c8b431750c93432f10c73)
  (.lf
  0x36564d917364e4d93336664d98f3652cd92d36728d9bf363b8d3a93658cd92136504d90f365b0d96236744d9bd36598d95c364a0d90d36758d9bb36730d9b9363c4d8ed363a8d93d36428d92436454d9273642cd8f8363d0d8e736424d8eb3638cd5d7365a0d91f363d4d8ec3577cd5da363d8d3a434e8cd9c036714d9c43671cd9c336724d9c83672cd9c6366a8d9ac))
  (.nd (.lf
  0x1ef047bb21ef2c7bcf1ee807bb51ef387bb41ef447ba71ee8c7bd31ef487bcd1ecfc7b6f2aad8a9fd29184a8ab291989a872934ca8ad2a2c8a9912a4b4a9872a46ca94d29218a95d2a4d8a9282a624a9152a49ca48a2a4b0a9262a490a91a2a450a9472a4fca9462a500a93a2a59ca94e2a530a94a2a618a9442a504a93e2a598a95c2a640a96a2a91ca9da2a760ab20)
  (.lf
  0x29790a60429a00a5b430e88a64a29660c540297d0a66829c20a6f629a50a64c29730a5ea297b89e6b249ec9279279a4926824994928c24a148f4127944928d249cc9e842796c927a2600492641f9f09e632789c7e7d27a289e79249c89e5d279689e5827d349ea727a7c9e54278d09e2627a4c9e552792c9fb227970927827e309e9e279c4927f23d009ec827928928b)))
  (.nd (.nd (.lf
  0x303d4c0f42c78cb1e92c7bca9d52a8ecaa3a28cbca32e2a7dca9e13090cc24229860a60c29828a33128394a60f29838a61d298709c4527110c53d314f0a6a329a88b1392c4e0b13a2c4d8b14f2c530b1512c540b8712e1c0b1832c608b0fe2c374b1012c400afb02be80b1072c418b35c2cd7cb35e2cd44b3502cedcb3b62a9acaa6a2aa84aaa029104a4402cb9ca3f4)
  (.lf
  0x2e28cac412e274b62f2b088d3ca34cf0ae67394ecd3942e76cb17a2c3c0b0cb2ced4b3ac2900cb4162cbbca44429114a42d290a8aac42743c9d0d2dd88b12e2c414b8c72c534b0e82c6d8b13d2c3e0a59528408a0f32aa50a36827420a3642887c9d0428dd09d0c27400a61b29774a5da2971ca5c5296f8a5ba296a4a5a3314eca5e228d6892f72467482b324e5c8c73))
  (.nd (.lf
  0x1501053fa14f1853a715e28544f15178544d14de0534114c6c53db14e9053c214ecc53c514e94539514d08531c14e8c537914ddc53751501853bd14e6c538814d0c534014e30537c14dcc54521515c54561516454551516c545a151745458150f85440151ac546a1517c544515e1c57861518c546215e2c53c414f2453b114ec053cd14fec53ec15014540914f6853ef)
  (.lf 0)))

def aesXorReads38 : BTree :=
  .nd (.nd (.nd (.lf
  0x824c20900823c208d21a042caa082302047219d43070082ec20b2082c086290b418210e083d820c30826820980817887710b3d020b10825020532180c303e0842820d4082cc209b0823820741e4ac21c007a247eb5087401eab1fd7c227c0896c793f086e81ea71e4ec22280888c78f1087581ea31fb4c21c607a647f3d0953025471fab428d8094fc9d270a3882513)
  (.lf
  0x3ce8cf3833ce00f3b93c908f3903c944f3933c90cf22b3c880f1d63ce04f2413c72cf1c93cfb0f39b3ce08f24f3c888f2213c8c8f2263c71cf4643d1acf46a3d1a4f4673d224f4883d174f4663d048f4483d14cf4523d144f44b3d134f44c3d09cf4263d0f4f3923ce84f2473c918f3c73cf6cf4043cfacf40b3cee0f4073d028f4063cfecf3bf3ceecf4173d058f3ed))
  (.nd (.lf
  0x20b3882c820b6482e220b6882d620c3882ea20b3c82cc20b9082d820c8882ee20da082ff20d90836620bf8831e20bec837920c2c82fa20c30830a20d18833620cbc837820cc0832e20d34836220cf8833220d30831f20c34835320d78833b20ce8834720b147e6220bd482e620d54834020cfc833d1f57c7d5720bbc82c01f9907d6220b9c7d6520b8c82c920cdc8333)
  (.lf
  0x3c718f1c33cf60f3c63ce90f24b3c760f1c43ce50f37e3cdf0f4f43d1f8f1783c584f1143c40cf1f83c7d4f1f13d3e0f4a23c968f1fb3c600f1603c7d0f1413c408f17d3c458f17e3c5ecf1403c45cf1153d2e8f4963c970f17c3c5e8f1793c7f0f1f03c6c100163fe04ff363fab8fe7c3f914ff2e3fbd4fec740048ffd43ff10ff803fdd8ff753fb18fead3f910ff21)))
  (.nd (.nd (.lf
  0x1dd8878a31e2887a5d1e9707a9b1ea6878951e25078d11f47c7d1e21d0c7ae71e30078801e37c78de1dda078e51e390787d1e9fc7abb21b548cd523350785b1e16886ad21aac872521c9071d51c74c867b219e8873521cd07a3f1e8f87a551e950861b2186878851e21078761dcc872461b3d477351dcd07b291eca078b11e2c072081af3c79631e5887c321e5807c35)
  (.lf
  0x2b734ada32b67cadcf2b738adc92b55cab193e5a4f9733e5b0d7c93e5c4f9753e600f9ed3e654f9d53e694f9c33e618f9df3e6d0f99e3e75cf9a33e664f98c3e6a8f9983e650f9a43e688f9cf3e6f4f9d03e6f0f9ba3e774f9c83e708f9c03e750f9d23e744f9ce3e778f9dc3e7b0f9e83e910f9ff3e908fa5a3e7f8fa283e814fa113e824fa043e8b8fa083e9c8fa16))
  (.nd (.lf
  0xcf4033b60cf4c33a90ce9433d50cf5033cf0cd5c32f90e5fc39790e5d832bf0e3f4397b0e62839f30e66c39db0e6ac39c90e3c039e50e6e839a40e77439a90e67c39920e6c0399e0e66839aa0e6a039d50e70c39d60e70839c00e78c39ce0e72039c60e76839d80e75c39d40e79039e20e7c839ee0e9003a050e8f83a500e81043c70e89043c60e84c3a0d0e8a83a0c)
  (.lf 0)))

def aesXorReads39 : BTree :=
  .nd (.nd (.nd (.lf
  0x451e11938465ed197a465bd19634659519644650d1962464c11970466051980465fd1973466251988465dd19764657515c4456e518bb462e918b94645d18e846445191d4637918eb4647118ea4640d18e34638519134646d19124562d14d54542514f44521d14d9453b51489453e116fd4543d15634551d15cd45459170d45551151e45595154145435150045511150e)
  (.lf
  0x341d8d05834184d05e3419cd06b341d4d070341d0d09f341f8d04733fa4cfde3406cd01834210d06d3420cd07733f94cfe334084cfe033f38cfd434064cfd733fe4cff334164d04f3402ccfed34230d07f33ec4cfae3408ccfe134004cfcf340b0d02234254d07d34098d01c33fa0cfcd34260d07b34240d07933e90c6d931b5ccffd33f28cfe433f54cfe733f2ccfb9))
  (.nd (.lf
  0x11c0446cf11cb0472211e0c477311c98471c11ba046c912028477111e00476f11a9c45860fd9446fd11b1846e411b5446e711b1c46b911ab8454e11b14458711614458311ca046df11afc46af11a9846a011ac046aa11604477411de4477811dec477711df4477c11dfc477a11d80476211e34478c11e0447671201c480611e1447841202c46e611bac46d311b4846ef)
  (.lf 0))) (.nd (.nd (.lf
  0x37ed4df3436cb8d9ee346b0d5ee35664d58035604d56f35550df5a35868d576342d0d579355dcd575357a8d55c34310dfeb37f5cdf5b36c14d9f6357bcd5ec357acdf5737eccdf9535a70d6203586cda6436968da5735530d63b35534d54135990d658358d4d54937df8df7d39e58e77839d80e78539a38e68c37e24df7337db4e70239a34ced436cb0da0e367b0e6ee)
  (.lf
  0x14cf4537414c64531714f8053c814dd8533c14c74531a14e1c533e14c58538a14dc4539114e2c538614e04537214fe053cc14e3c538014de8537014df8531e14c60672c19be866bb13d304f0613c1466d819ae4506519cc0671819b6866c5141a84f0419afc66ba19ae066e219b5466e319b5866be13d2c4f0719d20671c19b50506c13d344f4a19b8066c6141904fc4))
  (.nd (.lf
  0x1932864c61946064dd19458652819370662f193f0662e193ac64e51940864e4199186534193bc6638193b864ea193ec651419448663a193f464fa1940c650719444650c1944065351923c64841930464be1947065091946c65131922c64891931c6486191d0647a192fc647d1927c64991991c663b192c46493198c4652419138644b1932464871929c64751934864c8)
  (.lf 0)))

def aesXorReads40 : BTree :=
  .nd (.nd (.nd (.lf
  0x1d2dc22560894473db079d014f91cf4c22160884c742907a7815511d17c1e94054ec744d08ac822ad1d4742500093ec74970943825091cef424c80930c737d0937024d71ce5c24a80928c741b094c4252e1d1bc25200947473e9093a824e51d44c278c05f9c74c709e7817f11ced42a7207c54738b09dc817d51ce942ab207cf4741309f1818091d15427b205ff473e1)
  (.lf
  0x227f489ee21eac87a42277c87ac21d508ab222adc8ab622ae48ab522aec8aba22af48ab822a788aa022b448ad022b0c8aa5230ec8c3a22b1c8ac62310c8a24228a48a11228408a2d2296c8a4c229948a69228e88a4f229a08a4e229ac8a41228f48a6d229b08a6721eb487b10d7cc35ee0d79c35a50d7b435e90d800366d0d85436550d89436430d818365f0d8d0361e))
  (.nd (.lf
  0x40619089341e1d070c41c18fd523f4e5076841d9d076541d78fd193f0e0fc193f6b4fd363f620fd5d3f62cfd373f4d4fd163f080fd2d3f0e4fc173efd507183f550fd513f46cfd183f45cfd263f478fbf341c590835420d1076141c8d073741cd9078941c91072241d7107a541e9107a341d7d07c141f0108954225107693f628fd793f56cfd5a3f63d07073f671070d)
  (.lf
  0x26848b0462c040afef2bf809a3924910afed2bf509a0d2c128b0322bffcafd6268f09a382bfdcafee2bfb0afd1248d8aff62bf74afd22491492372c188b0362bf84afdc2bf68afd02c000aff426830a9582a440a8b6291a0a4652917c9a84269249a452a558a920291789a822692c9a46291909aa1269209aa6269f4a91126a9c9aa326a809a7e2a578a92a291a49aa2)))
  (.nd (.nd (.lf
  0x2534094702590094606b800990025441ade02540094c025740976025d01ae40257c095c025940969025cc096e025c80991023c408e60248c0920025f8096b025f40975023b408eb024a408e80235808dc0248408df0240408fb06b941ae10244c08f506bec09860228c08a0024ac08e90242408d7024d0092a0262c097b024b80924023c008d106b880979026200977)
  (.lf
  0x35ae4d6bd39ee4e6e539b88e7c139ef4e7a139d10e83139f64e81939fa4e80739f40e82339fe0e7e23a06ce7e739f74e74839fb8e7dc39f60e7e839f98e8133a004e8143a000e7fe3a084e80c3a018e8043a060e8163a054e8123a088e8203a0c0e82c3a220e8433a218e8a43a108e86c3a124e8553a134e8483a1c8e84c3a2d8e85a3a164e8583a150e8523a1ace884))
  (.nd (.lf
  0x1ac786b121ad046b171a9e46a721ac606b001a9e06b161ac186b391ac9c6b3a1ac986b241ad1c6b321acb06b2a1acf86b3c1acec6b381ad206b461ad586b521ae906b691ae886bb81ada06ce11ae206ce01addc6b711ae386b701b3906bbe1adec6ce21ade86b761ae1c6ba01ae786cec1ae246b861ae3c6b931ae746b981ae706bbf1ac346b081ad346b4a1aea06b95)
  (.lf 0)))

def aesXorReads41 : BTree :=
  .nd (.nd (.nd (.lf
  0x103e8359739cc440de39c2c40ee0dce4df610e12836e537f6438540dc1cdfab0e47c391c37dbc38380db4cdfa30ed58396d37d7438640dbf4e0090e1a836f138154390e0e304e1850f6b03da738fac3dde0f764dfb91159043e738f343d740f5bce3d3114d043cf3859c3f450fcc8e1650f82c3e08380cc459410fccdfef113e83f5137ef445000fcfcdf79120a83f91)
  (.lf
  0x377b8ddc837880ddd637754ddd437740ddce3779cde00377f8dde0377a4dde6377bcddf3377f4ddf8377f0de2137818ddcf3758cdd5e3768cdda037828ddf537824ddff375c4dd6f376a4dd6037560dc6237684dd6937604dd7b37784ddd73764cdd7537848de0737530dc43376acdd6137624dd59376d0ddaa37864de05376b8dda437588dc5b37870de0337850de01))
  (.nd (.lf
  0x2560c957f25cd0971d2568c959d25650959225690937f24df0976425dcc977225e5c977125e64979825e9c979625e30978e25e8497a025e4c979125e54979425dfc977e25eac95ae25bd495b3256c896c525c2c970e25ccc973725cb8975725d58973625d24975d25d54975f25d7897352569496ed2640498d42623c98532635c989126458995926444992d263cc9963)
  (.lf
  0x219887a1a21d8c7a241e884868d1e8747a06219107a451e8f08710213388c8021ae084bc21ba08d20239d08718213508c9421b00860821b988cee241b086fa232f88ca421cb08728233408d5a2354884ae232a886b021bf88704233588f7021b587abc1ea00787e1e39878e01eba07d201e34878961ea707a5e1e220776c1e2907b2e1ed7878cc1ead87a721e2287766)))
  (.nd (.nd (.lf
  0x273289cf5273589ca5270d49ad6271e09c75273b89cc12739c9ccd270949add272049c2e26b609c3a271e49c3d2713c9c4b272c49ca72718c9adf2735c9cd426aec9ab62720c9ad9271449c2f272389c82273649cd3272189c76270d09c2d273789cd1273689ccf26acc98c4261e49c55270a89c3b270909c31270ac9ac626b0c987c270a498c72631498c3272209c23)
  (.lf
  0x426ad09a94243d08f1426d509824216908054249d08e54241508d3424c109264261d0977424a90920423b108d1426c10975426110973422c9085d4216509014233908e84236508eb4233d08bf42031080a4233508b3422c508af424b108e34231d08584202d0808422e908b4422b50978425f5097c425fd097b4260509804260d097e4259109664264d099242615096b))
  (.nd (.lf
  0x184d86123184d4612d1829460a31838460a0182386094183646097182e460b31859c61651832c60ad185bc613e181c05d2b1838c60a118304608f183b060e21850c61331839860dc182a05d85185a0613118500612f181cc606f175f060bd1760860a41825460a71760c607a181d85d79181a45d81175f45d75183a0609f182146077181b8606c181e05d241748c6134)
  (.lf 0)))

def aesXorReads42 : BTree :=
  .nd (.nd (.nd (.lf
  0xc73031960c5d430540c12030460c10493410c9c821c923d5432840874c91bb0e350227f23da43258086f491710e570222b24e6432b20876493290ca6821cb2472438b00953c920d0a7e028db24d3c2a020a3948f610baa02d3124bbc29e60a32491eb0bb202d63246042a1a0a3e493a50a83828ef24c6c2e9a0b524938b0b970279924de42e6609eac91e90cc202a95)
  (.lf
  0x4c70132204d9c132504d1c1341087b421e904d64133b087cc13cc04ba412e604dc4132f04d3c131d04de8137004f4413c104dd0136a04cd81317087a813bf04f3813bd04bbc12df04b68134b04c50133204c8c133504c54130304be012f404c4c12db04b5412d304dd8132d04c2c12f504bb012de04bd812e004b4413c204f1c13c604f2413c504f2c13ca04f3413c8))
  (.nd (.lf
  0x128ac4a5b129684a551278449e50ff443fcb0ff203f590fedc3fcd0ff7040450ffb4402d0fff4401b0fec84037100303ff6100bc3ffb0ffc43fe4100083ff00ffb03ffc0ffe84027100544028100504012100d44020100684018100b0402a100a44026100d840341011040401027040571026840b010158408010174406910184405c102184060102e0406e101b4406c)
  (.lf
  0x37390dc9c3719cdb1436c30db0836c40dae836b78f88a3e140f7f53df90da8b368d0f8143dfccdad53e218f84e3e058f80136b60da8a3dfecf7f43dfc8f80d3e028f8123e02cf7fa3df8cda353e198f8323e030f7e53df88f7e03e068f80236b50db9636d90db4c36bf0dac736b14db3836adcdab536e68db8236ce8dac436aecdab836bdcdac636ad0db3536be8db45)))
  (.nd (.nd (.lf
  0x1e7247a0c1e72879c81e78c79f21e7607a0e1e78879ad1e6bc79eb1e8b079d71e75879df1e5ec796a1e7b079bb1e9187a2b1e76c79d91d51475411e64c796c1d4b875081e7b475371e604797f1e8447a0f1e6c475431e88c79fc1d4a074a31e654796d1e5c4752f1e68079941e7ec79f71e70879bc1e5e8750d1e84879f51e8d879f31d4c475251d48879751d4287544)
  (.lf
  0x2ce3cb60e2d84cb6122d854b6112d85cb6162d864b6142d7e0b5fa2d8ecb63a2d86cb5ff2d874b61c2d894b6242d8a4b5742d5e4b5612d580b57d2d6acb59c2d6d4b5b92d628b59f2d6e0b59e2d6ecb5912d634b5bd2d6f0b5b72d514b5492d0ccb43d2d0d8b3ef2d0ecb43f2d128b4b72d17cb49f2d1bcb48d2d140b4a92d1f8b4682d284b46d2d18cb4562d1d0b462))
  (.nd (.lf
  0x15cf4573915cfc573e15d04573c15c88572415d3c574e15d0c572915ddc577615d1c574615dd456a815ab4569515a5056b115b7c56d015ba456ed15af856d315bb056d215bbc56c515b0456f115bc056eb159d4530d1a85c63c71a55463c318aa462d918b0862bd18b0462db18b88634d18b9c633518c14632318ba8633f18c5062fe18cdc630318be462f018c2862f8)
  (.lf 0)))

def aesXorReads43 : BTree :=
  .nd (.nd (.nd (.lf
  0x42ae10a87429790a40427e909f942b590ab542a910aa14222107fd41fed0a1f427d90a114278109f7427d509db4274109cc427cd08894221d08754299109e74276109cd421f507fc4273909c0421cd0aaa42b3d0ace42b1d0aad42b250ac842b050ac6429c90a7442abd0aae42a950aa342a9d0aa642af50abc42b5d09f4427f50a07428190a0d429050a364297d0a69)
  (.lf
  0x3917ce42b39084e418390c8e42039030e42c390a8e45739114e45839110e44239194e45039128e44839170e45a39164e45639198e464391d0e47039330e48739328e4e239218e4b039234e49939244e48c392d8e490393b8e49e39274e49c39260e496392bce4c839318e4a8392c4e4ae392dce4bb39314e4c039310e4ef39338e497390e4e42e391ace46839348e4bd))
  (.nd (.lf
  0x1630c58be1640c590016578594b1657459551634458cf1642458c0162e052881640458c91638458db1660c597d163cc58d5165e45966162b0526f1642c58c1163a458b916450590a165ac595b164385904163085283166105959165a05957162bc58ab162a058e514a0058d014a2458d314a045277149285248162a4527f149a452671644058bf162a8527b149245224)
  (.lf
  0x44eb915254539514e1450a114023cda913f444e991ad940edcf3544549114663cdcd076d4022d008941f9507ad41e15089b41e0d00a341f2500ad40275079841db1076b466d507f241f91198f42269089641f2107c441f09076a3de54f7923ddf4f7c341fccf76d3dda8f7813ded4f7cb437a9008a3de50f7d33defcf76c3df44f7803ddad07cc3ded0f77745e3906b9)))
  (.nd (.nd (.lf
  0x33700ce2d33764ce533385ccec533af4ce23337dcceb733a70ce0533788ce89337ccce493384cce8833978ce9b33a1cce66338d8ce1133830cec633a14ceb033a0ccddf33768cdd333914ce0a337a8cdc13382ccded33824cdca33710cddd3376ccc873297cce68337c4cdde3372ccdb83324ccdcc336c0ca0b33a78cea333a88cea733a84cea933aa0ce9d33aa8cea6)
  (.lf
  0x10f40438012d8049e0117c0454010e80434011440442010f00458010cc04650116404500112c04360133804a20118c0456011280432011800448010f803a200db0035400d48033300c94032f00cb4032800e98038e00d3c034400ca8032400d04033200cb0034800c8c035500d24034000cec032600ef8039200d4c034600ce8032200d40033800cb80290009680242))
  (.nd (.lf
  0xa46829730a52029320a5ac29370a4b429200a4f8292c0a4a029380a4d829630a54429640a540294e0a5c4295c0a55829540a5a029660a59429620a5c829700a600297c0a73829930a73029de0a6482e890a6c82e880a684299b0a6e0299a0ba3029ec0a6942e8a0a69029a00a6c429ca0a7202e8e0a6cc29b00a6e429bd0a71c29c20a71829ed0a514293a0a5dc2974)
  (.lf 0)))

def aesXorReads44 : BTree :=
  .nd (.nd (.nd (.lf
  0xf62cc4fd0fd402fc73283c3f3e0bf44c9bd0fe4033133148c3f2a0bed4c5390ff0032ed312a43f340bf94ca390fce02fdb32dc43fa60cd0cc9e90d5a83445327f435740d13cc9c70dc8035cb3142c35580d0ccc5110dd4035b33288c35943321435840d164cc8b0dcd835d7321b436e20c9e4c67d0dc10328d31d84391a0e35cc6910db40326131be4396a0e59cc6df)
  (.lf
  0x37ad4de8535a14d68237a28d69a35a10de84379f8debf37a74deae37aa8de9c37b5cded837aa0dea037af8deb237ac0deaf37b58dec437b78dedc37c68ded337c58df1837b48df2737bf0df3737c98df2337d10df2237cb8df0837b9cdf3637cb0dee637be4df1437c40df3a37bf4def837d14df0137c3cdf0437c38df0937cb4df2837a4cde8037b38dec737d28df03))
  (.nd (.lf
  0x41b21055341549150745419141b45068f1593ca08f27d3c9e4f2853c9fcf2983cbc4f2893cb0cf2a13cc74f2a63cb3cf2ac3ca48f2c53ca3cf2ae3ca74f29c3ca40f2883ca80f28e3cb8cf2cd3cb88f2c63caf8f2e53cc70f2ee3cba0f2cc3cb28f2c73cb08f2e43cb38f2fe3cbc0f3583cb84f34e3cd40f2e03cc6cf3123ccacf31a3cc54f3183cc50f6b83cd98f365)
  (.lf
  0x2fa00be762fa10bc1e2f060ad9e2b5b0ab092aa08aa422a7d4ad4a2aa74aa1d2b688ad8a2b530ab172ac40ab082aa04aa1c2a7d0ad542b51cad552b520aa832aa00aa7d2b6e8ad8e2b518ab122a9f0aa432b548ab182aa70ab942ad88aadd2a9e0aa3e2a7ccab402aa6caa192ae60ab802ad08aaeb2ab90aadc2a9dcaa182a7c8ab4a2acf4ab4b2acf8aa792a9d8aa73)))
  (.nd (.nd (.lf
  0x138c04e3106ae81abb13d104f4519b3866cf136cc1b6b134804d21133844cdf06e981ba715fa857eb1466c524f148ac52051c9a8726b13570728e1ca3c1bca06f105293141c472661c99c58811869861a714808520313a484e93149605259134d84d341623c67ea19fac4ea3148d4521718a78629f18b2862cb1395462b618adc51ad13aa84eab14900524113c604f19)
  (.lf
  0x32cf0cb6132d18cb0f32ac4caa632b8ccae032d28cb3532d24cb3f32ab4caab32ba4caa832a58ca9c32b84ca9f32b04cabb32c84cb1732b4ccab532d48cb47329d8c9b332baccaa932b24ca9732bd0caea32d64cb4532bb8cae432ac0ca9532d70cb4332d50cb41329e4ca75329c8cac532a48caac32a74caaf32a4cca80329f0ca6f32a44ca73329acca2932bc0caa7))
  (.nd (.lf
  0x119c446691178445df1187445dc1172845d01185445d3117d445ef1204c48111181c45e91206c467a1169045a11187c45dd117f445cb118a0461e119fc466f1188846181179045c512060466d119f0466b1168c45700fd3445f91170845e01174445e31170c45b5116a84544117044571115bc456d1189045db116ec45ab11688459c116b045a6115ac4670119d44674)
  (.lf 0)))

def aesXorReads45 : BTree :=
  .nd (.nd (.nd (.lf
  0x436010d50437510d7f437490dda435f90d6d435a90daf435b10d5b435690d56436b10dab436590dae436a90da4436350dcc437210da6436310d6b4355d0d91436d50d94436d10d97434150d02435e10d71437010d93437250db7434650cff435450d14434490d1e435e50d21435050d25436b50da7434ad0d0b437910dd7433d90b8b4354d0d154358d0d13435910d52)
  (.lf
  0x2850ca130284b0a11f28504a1232846c9f7928680a157284b4a12427e049f7c284b89ef427bcca1fe2880ca20228814a2012881ca20628824a20428788a1e42889ca2262882ca1e928834a20c28854a2142885ca15e2858ca14b28528a16728654a1862867ca1a3285d0a18928688a18828694a17b285dca1a728698a1a1284bca13334314d09a2ef74bc722f1acbc69))
  (.nd (.lf
  0x1fdf87fd71feb07f961ff3c7f9b1fe447f841fe887f901fe307f9c1fe687fc71fed47fc81fed07fb21ff547fc01fee87fb81ff307fca1ff247fc61ff587fd41ff907fe0200c87ff7200c080421ffd88273200588272200147fff200707ffe209e0804820024827420020800420054802e200b082762005c8014200748021200ac8026200a880491fea47f9e1ff6c7fd8)
  (.lf
  0x2e1a4cc7e313bcc4ec31270c50731370c4d632710c4c0312f8c500313b8c35531294c37e30cecc36331304c37530d98c36130d50b8882e150c38b30db4c33a30dfcc36b30d88c4c430e0cc3742ee84b62b2b0dcae572edb0bb392b05cbbf42eda4ac332eea0b61f2b0f4bb962ecdcac362ef00ac3b2b058bb142b0c8ac302ec34bc592ecd8bb232ec84bb4f2ed54bbf5)))
  (.nd (.nd (.lf
  0x2a348a8cf2a3f0a8e129db4a72a2a094a81e2a358a85b2a36ca8d529ce4a7332a0e4a76429d58a7682a07ca7f92a024a8012a3bca8ed2a04ca7352a3f8a8fd29c98a69f2a0eca7572a00ca7652a0f0a83a2a414a8fb2a0d0a82629db0a7632a3e4a8f02a3d0a8e329cb0a72529c64a8bb29d80a76929ce0a76b29d84a71029c3ca70c29d7ca75929cb4a6f92a0d8a72b)
  (.lf
  0x190747a661e1f06bc4239a48d50235388cd3233348cc8232308c7c231ec7a701c95872551f0d878d01b4407ad41e3746bb01eaa07a7e1aed095be231dc8c721f0e8724e1c934725d1c92072471eab872421c9049390245f882bb24dc89368231b08e48231a48c6624e8892f52318c9a2825fc097ea24ce891f023d3c91a3246448e6224be882b220ac4a67e298649c1a))
  (.nd (.lf
  0x1c9f058861ca88729c1ca5473601cd9473641cd9c73631cda473681cdac73661cd30734e1ce1c73861cdb473531ceb473ac1cdc473701cf1c72d21cb5c72bf1caf872db1cc2472fa1cc4c73171cba072fd1cc5872fc1cc6472ef1cbac731b1cc6873151ca8c7283232148d2e234ac8e83239fc8e77234d88edf23a248ec723a3c8eb5234e88ed123a988e9a23b248e9f)
  (.lf 0)))

def aesXorReads46 : BTree :=
  .nd (.nd (.nd (.lf
  0x11e7d086b11f6047b741cfc4884120c5081b11f3047bf426f44aea1273507f711fb847ab41ef447e011e6d079f122284859421444b0c4666c4b0841f1c4ca412d85199312c4119bb12d09081f12bc049c34209c4af6126fd0813132e04b7544fc44c87108ed14811320c42354539c4c8f109dd13bd1322c424144edc4c8910a5d14c113204423144fac4cb1108bd1425)
  (.lf
  0x14534514c1454450a2142544f3b13ce850a71435450c61437c50e3142d050c91438850c81439450bb142dc50e71439850e113cb450833c09ce77239dc4e9113a45ce7773a428f0613c0dcf06d3a41cf04739e50f0553c0e8f0323c1bce91f3c0ace9263c0d8f0303c0a8e91e3a418f0bb3c104f04e3c128f0403c16cf07c3c118f0443c2e8f06c3c140f04f3c168f054))
  (.nd (.lf
  0xae482b740adf42b7a0ae0c2b870ae442b8c0ae402bb50ac142afa0acdc2b340ae782b890ae742b930ac042aff0acf42afc0aba82af00acd42af30ac542b0f0add42b6b0ac9c2b090ae982b9b0ab142aac0acfc2afd0ac742aeb0ad202b3e0aeb42b990ae682b630ad082b380ac102ae50aec02b970aea02b950aaa42aa609f542b190ab882b000abc42b030ab8c2ad9)
  (.lf
  0x453ed14f0453a914e945c391556453a114d845211148345331148844fc91a5a4675119c54667108214205119bf466c9088d469711a004670519aa4224108204671119be466f519a14666119bc46699199f466650815468a919f44669119a046679199d467d919dc422310a8c427e109bf421b107f941e8109cb4221907e1428d109fc42745087441fe907f84275d09ca)))
  (.nd (.nd (.lf
  0x208f8821c2086c8231208848224207cc81f2207c48237208d081a32063881db20750824a2088c8245207fc808b202148213206a0819c2023881d52024481c1206ec823f208e481f72021c825e208d481962064c822b2067481b1206a4822a20850820f2081481f82078881a720688823a2080c82282080480721fc6c7f0f206d481a02023c808a20684808d2067c7f14)
  (.lf
  0x2dac4b6c42dac0b6ae2db44b6bc2dad8b6b42db20b6c62db14b6c22db48b6d02db80b6dc2dce0b6f32dcd8b74c2dbc8b71c2dbe4b7052dbf4b6f82dc88b6fc2dd50b70a2dc24b7082dc10b7022dc6cb7342dcc8b7142dc74b71a2dc8cb7272dcc4b72c2dcc0b7552dce8b7032da94b69a2db5cb6d42dcf8b7292dcf4b7332da84b69f2db74b69c2da28b6902db54b693))
  (.nd (.lf
  0x7db41f6007df81f6c07da01f7807dd81fa307e441fa407e401f8e07ec41f9c07e581f9407ea01fa607e941fa207ec81fb007f001fbc080381fd308030201e07f48206507fc8206407f841fdb07fe01fda081a0202c07f94206607f901fe007fc4200a08020207607fcc1ff007fe41ffd0801c200208018202d07e141f7a07edc1fb4080481fff08044200907e041f7f)
  (.lf 0)))

def aesXorReads47 : BTree :=
  .nd (.nd (.nd (.lf
  0xe8003b500f3803b400f4403a700e8c03d300f4803cd00d3403511368c1aa6008c4022c008940235008ac02270091802b70097c029f009bc028d0093802a9009f8026800a84026d0098c0256009d0026200978026e009b0029900a1c029a00a18028400a9c029200a30028a00a78029c00a6c029800aa002a600ad802b200c1002c900c08031400b201a5900ba01a58)
  (.lf
  0x30d34c33730b80c2d630a88c28730d48c33530d20c333309a0aadb2ab64c2b730a10c29e30a3cc2a130a14c27530950c25230a0cc2693099cc26530b88c299309f4c25330940aad8309c0c26a3098cc33c30d04c34030d0cc33f30d14c34430d1cc34230c90c32630d74c35c30d24c32b30d2cc34a30d3cc34e30d4cc2a030a94c28d30a30c2a930b5cc2c830b84c2e5))
  (.nd (.lf
  0x99c4266f09c4826c909a9c269109a20267a09a48267c099b4275e09d8c276209d94276109d9c276609da4276409d28274c09e1c278609dac27510a9b42a6c09dbc276e0a93c26d009b5426bd09af026d909c1c26f809c44271509b9826fb09c5026fa09c5c26ed09ba4271909c60271309a4c2697095c4256c095942575095ac25670961825f70967c25df096bc25cd)
  (.lf 0))) (.nd (.nd (.lf
  0x3728cde4d3792cdcab3726cde463747cdc6c36c3cdccd37264dcbd3720cdccc37328dd1d3746cdcf437398dc9e37204de5637464dd363745cdb1836b8cdae13737cdc7e37240dc853724cdc7f371f4daec36b98db2936c94db1d36c64dce83725cdc6b36bb4dae036a48db1736c48db0a37440dd29374a0dd273744cde69379a0de47374c8dd26374d0dd3b374e8dd39)
  (.lf
  0x1ab586ac41a5cc84f3213786a292154085382141484e01a8b06972213f484f4213c884e42136c84fc2139484dc1ab4c6ac5215a0853c213686ad71ab486ad02141884fa1a8a06c1a1aac86aa21a91469671a4b06bdb1aa5869651b0786bf81af886a981a92c6a441a5a469661a5906a931a4b86a9d1aa5069681a4bc692d1b0d86c0a1af906aa31aa706a921af986bda))
  (.nd (.lf
  0x1a2ec68b61a2e868d91a0e4682e1a1ac68681a31868b31a31468bd1a0d468331a1c468301a07868241a1a468271a12468431a6a469a11a16c683d1a60468ce19fe067f51a1cc68311a144681f1a1f068721a34c68c31a1d8686c1a0e068191a6a868c11a34068bf19fdc505914158684d1a05868341a09468371a05c680919ff84f221a054505713c7c4edd1a1e0682f)
  (.lf 0)))

def aesXorReads48 : BTree :=
  .nd (.nd (.nd (.lf
  0x1b8006c001a8006800198006400188006000178005c00168005800158005400148005000138004c001280048001180044001080040000f8003c000e80038000d80034000c80030000b8002c000a8002800098002400088002000078001c00068001800058001400048001000038000c0002800080001800040000800000383400ff038ec00fd0391400fb0377c00f9)
  (.lf
  0x2c050b0242c088b04f2c0f4b0502c0f0b03a2c174b0482c108b0402c150b0522c144b04e2c178b05c2c1b0b0682c2e8b07f2c2e0b0d42c1f8b11f2c278b11e2c234b0872c290b0862c488b0e02c244b1202c240b08c2c274b0b62c2d0b1322c27cb09c2c294b0a92c2ccb0ae2c2c8b0e12c0c4b0262c18cb0602c2f8b0ab2c2f4b0b52c0b4b02b2c1a4b0282c058b01c))
  (.nd (.lf
  0x40818fcbb3f30514133b590ec613b200ec6f3ac54eb093b1c4ec843b35cec8b3b2cceca53b334ec503b3d4ec9a3b1f8ecb73b244ec793b1d8ec983b228ec783b290ec903b2bcec973b2e8ecaa3b258ecbf3b330ecc83b318ecbb3b2e0ecb23b2b8ecf43b2f8ece03b358ed563b3f4ed543b580ecfc3b514ecf23b510ed0f3b3b4ecee3b3b0ed4e3b470ed133b518ed12)
  (.lf
  0x1e2607b311e2a07b3b1ecc878ab1e2a478a61eef87b921edb07b411ece87b301edb87b621ed807c861ec287afa1e9dc78d61e3547c471ebb87abf1f2287c641f1387af01eb0c7a761eaf878d41e30c7aeb1e3107af51ebb078d71e31478c21f2887c761f1407afb1ebd07aea1f1487c461f1107dd01f6787d861ec787aa71ea947d721f4947acb1f7507dbc1f5d07d28)))
  (.nd (.nd (.lf
  0x1ef4078501dfc077d0208007d701ed4079f01e58078801e80078a01dec086c021c40870021cc086f021d40874021dc087202160085a022140884021e4085f06b641ad8021f4087c06b5407de01f8c07cb01f2807e70205408060207c082301fd008090208808080209407fb01fdc082702098082101e8407a513bb44d7f13b0c1a5d01a0c067e019dc0687019f40679)
  (.lf
  0x38e58e35f38c04e2f638ccce33038e68e38538e64e38f38bf4e2fb38ce4e2f838b98e2ec38cc4e2ef38c44e30b38dc4e36738c8ce30538e88e39738b00e2bd38cece2f938c64e2e738d10e33a38eace39538cf8e33438c00e2e138eb8e39338e90e39138afce04338100e31538b78e2fc38bb4e2ff38b7ce2d138b18e04638b74e041380ece00338d00e2f738b5ce2c7))
  (.nd (.lf
  0x22c288b1022d548b1322cd48b2f22fec8bf522d1c8b2922fbc8bbc22bb48aea22d7c8b1d22cf48b0b22da08b5e22f048baf22d888b5822c908b0922ff08bad22ef88bab22b8087c121efc8b3922c188b2022c448b2322c1c8af521f1087c222c148ae122b7c8add22d908b1b22bf487c321ef887bc22bb88ae422b6c8bb022ed48bb422edc8bb322ee48bb822ef48bb6)
  (.lf 0)))

def aesXorReads49 : BTree :=
  .nd (.nd (.nd (.lf
  0x115c83f780fdc83f703a83c45b1115f84577115d04573115a8e957115d83f710f600e9691167845751152845423ab4445fe11798459a115b845450fd883f4c3aaa4456c1150c3e1a0f84ce9f311a7045fa1171045b0116b8459f1166cea61122d048a811e8045263a87c4916123a8485d120d047b8114a845203a5ec48aa121fc4877121104836120d4e8d1121f847c0)
  (.lf
  0x3bd44ef4f3bc90ea903bcfceb293ac9ceb253beb0ef6b3bcdcef253bc88ef203bcc0ef263ac8ceff23bfdceff63c014eff53c01cf0063bf5cf0123c010f0143c08cf0223c064f0173c06cf01a3bfeceffa3bfb4ef603bdc4ef453bd10ef753be7cef883beacefaf3bdf0ef8d3beb8ef8c3bec4ef833bdfcefb33bec8efad3bc9cea933fe14ff273fac0ff7d3fe34ff29))
  (.nd (.lf
  0x34a80d3a034e00d650354c0d66035480d50035cc0d5e035600d56035a80d680359c0d64035d00d72036080d7e037680d95037600dfe036500dbe0366c0da70367c0d9a037100d9e038580dac036ac0daa036980da4036f40dd6037500db6036fc0dbc037140dc90374c0dce037480e170351c0d3c035e40d76037a00dcb0379c0dd50350c0d41035fc0d3e034b00d32)
  (.lf
  0x171a05c43172d45c99172185bef170c45c2e1707c5bc317108599a166185d6d172605c5b1721c5c4d16fb85c1e16fe05be31a4c4691d1a46467c91a57469571a55067cd19ee467b620efc6a861a44c693019f5063d7213b4695618fc867b818ef85bf418f9c640f19ebc63d618f4463bd18eec67b718fcc63f11a49c63c118efc692818f9863e31a4d0691818f406a0f)))
  (.nd (.nd (.lf
  0x26c0c9bf226fdc9bf626fe49bf526fec9bfa2703c9bf826f409bd226f5c9bd626ffc9bd5270049c00270349c0c270149b4a26d8c9b2b26ca89b5326dfc9bae26ec49bb526ee89bc126f009bb426e3c9bbf26ef49bdd26f709bb326d0c9b5729ceca66429264a4ad292a09a5b269cca4b129310a533292d4a4ff2936ca4e529208a51f293d8a4a629404a4bd292a8a4a1)
  (.lf
  0x46ddd1b8746e511bab46ea91b8646ee51ba946e5d1b9946e611b8546c751b211495c4e5a148bc4e96148041afc065241944064f4194d0650c193f0657819cf065dc19b70661c19a50659819c1066581980066e41985065ec196e06630197a065d819860661019b10667c19b206678199c066fc19aa0669019a2066d819b4066cc19b00670019be0673819ca0687019e1))
  (.nd (.lf
  0x1ba5c6e7d1c81c72061ba6c6e9a1c8046dfc1b8046de91b7a06e051b8cc6e241b8f46e411b8486e271b9006e261b90c6e191b8546e451b9106e3f1b5946d6921e3c8832220ac8829220c4882d220e888a7220fc888f2217c887d221088899221b8885822244885d2214c884a221908852220f8885e221708889221dc888a221d888742225c8882221f0887a22238888c)
  (.lf 0)))

def aesXorReads50 : BTree :=
  .nd (.nd (.nd (.lf
  0x9dec9eb50cb742abb27d442e7b09f3c9fc70b9bc27bb27f4433350a96c9f390b32c2cc927b642ce10b36c9e8d0c09c3015278cc2cb527ae4306d0c1ac9f6b0b4242d0327f342cf10b3bc9e870c0ec300b297bc3c720f19832a80c9f0a5eb0f3503ca80e36838b70cb1032920ca38a5cd0f1a038f90e39038df0e37038db2993438de0ca4c326229a543c690f1803c5e)
  (.lf
  0xc6e431a10c68031bd0c7ac31dc0c7d431f90c72831df0c7e031de0c7ec31d10c73431fd0c7f031f70c60c31871d0fc74d41d344777f1ddec77731d37077db1de1477c31de2c77b11d38077cd1de8877961df14779b1d3ac74e41de7077841d3a8779a1de2877bd1deac77be1dea877a81df2c77b61dec077ae1df0877c01defc77bc1df3077ca1df6877d61e0c877ed))
  (.nd (.lf
  0x8604217c0860021a5083d420ea0849c2124086382179086342183083c420ef084b420ec0836820e00849420e30841420ff08594215b0845c20f908658218b082d4209e084bc20ed0843420db084e0212e086742189086282153084c82128083d020d50868021870866021850827420960817c21090834820f00838420f30834c20c90830820be0834420990825c2095)
  (.lf
  0x3b950ee3a3a690e99e3a66ce9983a388e7a639bece78939bf0e78e39e2ce73b39bf4e6fa3b9a0e9ce3a708e78d39e28e7883a670e96a39ea8f0a23a4a8e76a39d64e75739d50e9223a434e8f93c218e9303a438e8ff39e40e7583a3e0e75639c7ce76d39c90e76e39da4e75539c94e71e3c158f0343a440e76c39dace7683a430e90039dd8e80a39edce74c39ba0e6e6)))
  (.nd (.nd (.lf
  0x1b5c46d6e1b5485cb716fdc57a61cf4473991ce4c5c9e1726c74461d0a873e41b4ec6d1b1a7045ca91709c5be7181805d8a17620742b1d08874171a7a468ee1a3ac68e5199b85d8b1722c5bff1b54c69e419a905d8916680599e173685cd0173286a071a61c66681732c5c9f15f586f9f1b6c066691a6f468ef199bc746b1d19874581b49c668e199c064081a48c691a)
  (.lf
  0x2e498b9242e4e0b9362e4d4b9322e508b9402e540b94c2e6a0b9632e698b9c22e588b98c2e5a4b9752e5b4b9682e648b96c2e730b97a2e5e4b9782e5d0b9722e62cb9a42e688b9842e634b98a2e64cb9972e684b99c2e680b9cd2e6a8b9732e454b90a2e51cb9442e6d0b9992e6ccb9a32e444b90f2e534b90c2e3e8b9002e514b9032e494b91f2e614b97b2e4dcb919))
  (.nd (.lf
  0x177f85dfc177ec5df8178205e06178585e12179905e29179885e74178a0614f17920614e178dc5e31179385e30185485e7a178ec6150178e85e361791c5e60179786156179245e461793c5e53179745e58179705e7b1776c5dd0178345e0a179a05e551799c5e5f1775c5dd51784c5dd2177005dc61782c5dc9177ac5de51855c6153177f45ddf1857c5e70176805d53)
  (.lf 0)))

def aesXorReads51 : BTree :=
  .nd (.nd (.nd (.lf
  0x447c511fa447dd123b4490511f944929129944955127d448b5126b44709128b449d1123e449fd1245448cd1230449c91254448c91244448b112fd44975128644981125c44a55126a449a1126244bf11287449f1127a44a51128a44ac1129844c2512e444b89130844c1912c144ae112cf44b0d12c044bc112ce44b7112c844a8d12c644b0912a244b5d12ae44aa91300)
  (.lf
  0x3e1acf83f3e1f4f8573e484f8ed3e18cf8313e450f90b3dfdcf7e83e294f8413e1fcf8533e320f8a43e424f9033e248f8683e144f84c3e404f8ee3e358f8bb3e078dad936b5cf8853e128f8423e0f4f84b3e114f8493e000f7f83e0dcf81f3e05cf8153e250f8293e08cf7fc3dfe4dad63e060f8133e038f8c03e394f8e43e374f8c33e37cf8de3e454f8dc3e340f8d2))
  (.nd (.lf
  0x1b1f06c7e1b2a46ca81b2746c831b3446cd01b2846ca01b3546c061afe46ab71aad86c0b1b0e46c2a1b10c6c471b0606c2d1b1186c2c1b1246c1f1b06c6c4b1b1286c451aa846be717a245c93172405e9117a345d3b173905f0117aa45ee917ae45ed717a805ef317b205eb217bac5eb717ab45ce817af85eac17aa05eb817ad85ee317b445ee417b405ece17bc45edc)
  (.lf
  0x4156904e242df10b2c415e11c1a42c090b54415390b9a42e910b2a415b9051042d990562472390b9042ce91c56414f90580413f90b3e4159904dc42ef10b1c41620f10138ec4de2b3d574e3c5378c0e3c1378a4de263c4b4e3a93789cf55b3c4e0e3b038f10e3bf38ef0f1b53c3a4e3bd3d57cf13038ea0f55a3c3fcf0f83c514f1193c3c4f10c3c3d8f0e83c49cf0f7)))
  (.nd (.nd (.lf
  0x32db0ca6434d84d32834c9ccc813287cca1c34e5cd3292e768e54935014b9b131cb0c6cf308a0d3d134d38d33834c18bc132d950c9ff2e1a8d2e2302f4ae662b8f0c51c313e4c4f430864c1f631de4c6642ee7cbb382ee54bb2b2eca0bc452ed44ac4031cb4c65f32db4c9f130dc8c9c831448c50c31418c4ff313dcc7733182cc22434cecd31934c08d3db34ddcb9d4)
  (.lf
  0x3df48f7d03df389af826bd89ae426aa8ba082e318b8c22e300cf4833d18cf4433d08e3c838ac0e2ae38ab062c818ad0629c1869073dc19ab866ac19aa878921c978725c1c96859c6166ac59a616280586f161ac9fad27e409f8d27d4c9f4c27cf85832160a0582715fec57ee15fa4ca6530dccb8bd3286cc38d2e2e09f1f27c689f0927b749ecd27b14c6033089cc225))
  (.nd (.lf
  0xd31c34c10dc5c37150d36434bb0dd2c354c0d1d834730d3c434af0d33c349d0d3e834f00d54435410d3d034ea0d2d834970dcc0353f0d538353d0d1d433280bfac34cb0d25034b20d28c34b50d25434870d1f032f00d24c33290cc9c33250d3d834ad0d234347d0d1d0346e0d1f834780cc8c35420d51c35460d52435450d52c354a0d53435480d4b835300d58c3562)
  (.lf 0)))

def aesXorReads52 : BTree :=
  .nd (.nd (.nd (.lf
  0x89a82252089d81a89054ac14fa08f002275088502205088084edb09080240808ef0226e0881c155a055484f1d089b0220305504153c19fb4241c08f9823d208f4023c108ef422ae141cc24fc05c1816dc05b084e3509428176405ce016fe05b2416c405af04e050931016c505af8169f05a441682093601abf05af41690092901b4505b60169c05a0c4ec1094c8174c)
  (.lf
  0x3b91cee413bb24eec53b9b4e9cd3bc24eefe3b8bce9bc3ba0ce9d93b934ee3d3ba10ee823bbeceef93ba48ee6e3b8e0ee373bbdceeec3bbb8eeeb3a6ace99f3a5b0ee4f3b8d0e9d03a6ecee353a74cee333a6b8e99a3a664e96d3a3a4e8e53ba70e9d73a6bce9aa3a6a4e9a63a6c0e7a839e3ceecc3bb44eed03bb4ceecf3bb54eed43bbfceed23bab0eeb23badceeb6))
  (.nd (.lf
  0x3d894f62d3da34f69a3d98cf6623dab4f6803d924f5e43d78cf6313d840f6a63da64f6713d994f5d53d73cf61b3d798f5c83d6a8f6113d714f6033d7d4f6773d934f6013d75cf6813d9d0f5b83d63cf61f3d79cf5f13d724f61e3d870f66d3d9acf6403d8c8f5e23d684f6783d9a4f69c3d99cf5ba3d6dcf5b53d7b4f59e3d738f5ab3d744f59f3d768f59d3d658f5bb)
  (.lf
  0x2c5a0b1422c644b18a2c620b1642c43cb1902c5c4b1662c594b1632df40b7a42ddf8b1702c514b10e2de00b7742ddc8b6ba2da20b64a2d920b6412d8f4b6652d984b65e2daf8b6a62d9d4b66c2d8f0b40a2d980b6402ce6cb3c72ce70b64b2cf2cb3c82ce74b39a2db58b6aa2d9b8b6492cf28b3c62d9d8b6642d918b4902d168b4462d110b4352d0c4b3e92cf9cb3e4)))
  (.nd (.nd (.lf
  0x15fa01b9914ba452d314af84d0f133941b9814c4052d2139c8534414be852f9166a451da14760517907bc41ec3146fc51b8133ec1bad06e3052141484c520f14be052c4145e01ef906c8c1b0b160fc582f147bc520e13a804e9c14ba01ebf13a444d6306f2c5360137941ed7166d859af166a01ed606cd4565715584536d148c84e9013a385560147b84cfa133e052b1)
  (.lf
  0x33174cc593317ccc5e33184cc5c330f8cc40331dccc763318ccc4533194cc64331accc6a331bccbba32efccba732e98cbc332fc4cbe232feccbff32f40cbe532ff8cbe433004cbd732f4ccc0333008cbfd32e14ca493226cc8a532278c8753228cc8a7322c8c91f3231cc9073235cc8f5322e0c91132398c8d032424c8d53232cc8be32370c8ca32318c8d632350c901))
  (.nd (.lf
  0x15d74575c1592c564a15d8455ac156c455991566055b51578c55d4157b455f11570855d7157c055d6157cc55c91571455f5157d055ef14cd452e3217bc85ce213fc84f9213d86ad11ab5484fb2142885732146c855b214ac8549213a08565214e885242157485292147c8512214c0851e21468852a214a085552150c85562150885402158c854e215208546215688558)
  (.lf 0)))

def aesXorReads53 : BTree :=
  .nd (.nd (.nd (.lf
  0x475e11d1b470ad0ba842d5d1cd5471091c78471351c7b4710d1c2c4709d0b5c471050bb142ead0ba9474891c874712d1c30470b51c2a471c91c1e42e9d1d5a476251d88475c51d5d476051d80474cd1d72475c11d74475f51d7c475e51d77475ed1d7a475851d60475651c7a472251c3d470f11c81473ed1cea4743d1d25473511ced474911cec474f51cd94735d1d11)
  (.lf
  0x31ee0c7ac31f6cc7b131d5cc74e31ec8c79a31d58c7b031e80c7d331f04c7d431f00c7be31f84c7cc31f18c7c431f60c7d631f54c7d231f88c7e031fc0c7ec32120c80332118c85c32008c82c32024c81532034c808320c8c80c32190c81a32064c81832050c812320acc84432108c824320b4c82a320ccc83732104c83c32100c86532128c81331e9cc7a231f9cc7e4))
  (.nd (.lf
  0x203d480ef209ac82672041c80e9209c4817a202b480aa2047c80dd203f480cb204a0811e205fc816f2048881182039080c9209a0816d205f0816b202807f331fcc480f92031880e02034480e32031c80b51fcd87f342031480a12027c809d2049080db202f47f351fcc07ef4202b880a42026c8170205d48174205dc8173205e48178205ec817620570815e206248188)
  (.lf
  0x2a9a4aa5a2a958b8c32be4caf912c4dcafb72bdd4b13b2be8caf8d2c574afa12be1cb1ee2c49caf903033cb1b02bdd0c0d12c370af8c2c768b14e2be18b13c2c4acb1262c3e4b0f12c6c4b1802c5d4b0d92c55cb0e92c6f8b12a2be48ba092c5d0b0f32e304b1812c360b1562c3fcb0f62d080b2e926714b3d72cd74b3032cd3cb2f126764b3272915499d72d050b349)))
  (.nd (.nd (.lf
  0x2acc4ab2e2a844a1fc2cd1cb3092cc14aac72a6e0a3762cf78b2ea290ccb6582d078b4182a9b4a9e928840b6592cf6cb3d62a8e0aa3128844c2452acbca1fd2c7b0b1132bf00aa8d28d78a1fa273e8a58929610b3ab26760aa882a9a0a9cb2a720b34e2cd30b34b2bebcafa22ddb4b12829978a5df299cca5f127078a61a297fca5fb2c7b4b12d2d07cb3a728ff8b372)
  (.lf
  0x21d8085f41e808875c218807a301fae07eaf1faa89a2e25f1c82a827c209ebe24a0c9ec427984928927da097fe23154985822f308380267c897e02456c9a6a25f7092302916497d220a789f3f27a887ea7260808c5c20df0ae6b22ee88394261c08bd420e20aac02aaf8aab727c789f18260409ecc26030928127eb098061fa98b4172d054b4122d018b3df2cf50aa8a))
  (.nd (.lf
  0xdf1437b00dea837a80def037ba0dee437b60df1837c40df5037d00e08837e70e08038320df9838790e01838780dfd437ef0e03037ee0e21038400dfe4387c0dfe037f40e014381e0e070387e0e01c38040e03438110e06c38160e06838410de64378e0df2c37c80e09838130e094381d0de5437930df4437900ddf837840df2437870dea437a30e214387f0deec379d)
  (.lf 0)))

def aesXorReads54 : BTree :=
  .nd (.nd (.nd (.lf
  0x4792c47f94621447f5461bc47db4622c48874627447cf462944af94623c47f1462a447e346284488d46b044b1746a7d1aa946ad44b1346b251ab946b344afd46ab44cc94332c4c99433644cbf432ec4cbd4333c4c9b4326c4c974330c4c914320c4cb3432844cbb447a443a94479c43a3446b447e94427c43b944264453d446d443b54428c43b14429447d742b4c47d5)
  (.lf
  0x3dd90f7703dc80f79c3dd64f7973dd60f73f3dd08f73e3de38f75d3dd40f7963de20f75c3de84f7623dd80f78a3de80f79d3dd0cf7a53dec0f75f3dd78f7513de24f7683db6cf6d83dc5cf7123dea4f7863de14f7613db94f6e33dce4f6e83db78eb003dc4ced533dbf4f6ef3de3cf78b3dc2cf7033dde0f7693ab88ea513dcecf6df3dbe4f6e93dd50f73a3ddc4f767))
  (.nd (.lf
  0xe53439160edb03b620e4ac3c380f0f43c3c0f0fc3c3b0f1043c400f10c3c3e0f0883c240f1543c540f1143c290f11c3c460f12c3c4a0f1343b9e0ee8c3b8b0ee283ba70ef543bc60ef7c3be30eed03bc90ef883bc80ef943bbb0eedc3be70ef983be10edb43b7110aa442a310a80425510a3c42a510ad0431d10b14430510b5442f310a20430f10b9042ce10c1c42d3)
  (.lf
  0x442ad0f5d43d5d0f544456910da442e90f6343d690f42442a90f5c43cd50f2443c8d10b543cd10f2643c9506cf4445110f4442cd0f5e43c8906ce442b90f6443d590d4e433ad0bf842df90b2e4157d0b82415ed055d435310d06433a90ce6433850cdc42e55055e415710b8642cc50b9442e250b8742e010b7f435c10d0c433a10b8842cc10b2f433890b34415e91cd6)))
  (.nd (.nd (.lf
  0x1b36078b31e204787b1e3fc78f41ea587a7c1e3208f6f2355486e11e51c793d1e3e47f261fbb07ee61e9f47a6a1e9a486eb21828860721344839c1fbb479391dd6c8c8f21c3083aa1fc9c7f221fc7879181c8d8723421c0c86bd1e14878f51c8dc6d02233488ccb1e14c872b2182c839d1eac07aad1eaa88f6d1e19878641e188869121a30792c1e49c8e6821bd886d8)
  (.lf
  0x305dcc13530554c12330600c176307acc1d1305e8c170304f0c11d307c0c1cf30788c1cd303a8b8672e194c15130468c138304a4c13b3046cc11130428c10630464c0eb303a4c0e7305f0c1333041cc104303c4b86430420c0fe30394c1d63076cc1da30774c1d93077cc1de30784c1dc306f8c1c030824c2083078cc1c530794c1e4307b4c1ec307c4c13a304fcc127))
  (.nd (.lf
  0xb56c28ba09f9027e10a17c281d0a0f4280b0a1a0285e0a2fc28af0a18828580a09028050b50028ad0a2f028ab09f8c228607ac428390a00828200a04428230a00c27f509fa8222e0a004228708a1422830a190281b09fec27eb09f8827dc09fb027e608a0428b00a2d428b40a2dc28b30a2e428b80a2ec28b60a270289e0a34428d00a2f428a30b4a42d280a30428c0)
  (.lf 0)))

def aesXorReads55 : BTree :=
  .nd (.nd (.nd (.lf
  0x7b81a4e0076401d60077c01e3007b401e8007b0020b005ac016000674019a007e001e5007dc01ef0059c01650068c01620054001560066c0159005ec01750693c1a4b00634016f06954020000474011a0069401630060c0151006b801a40081401f5006a0019e005a8014b0693001f30080801f10048c011300438017f0052001660055c0169005240137004b00128)
  (.lf
  0x2f7ccbdc92f714bdf52f7d0bdef2f0bcbbf13295cc9da3275cccaf332acc9f733288cd21332eccd0933364ccf732968cd13333a0ccd23342cccd733334ccc433378cccc332e8ccd833358cd03333c4cd04333c0ccee33444ccfc333d8ccf433420cd0633414cd0233448cd1033480cd1c335e0cd33335d8cd8c334c8cd5c334e4cd45334f4cd3833588cd3c33668cd4a))
  (.nd (.lf
  0xf9783e8b0f9e43e8c0f9e03e760fa643e840f9f83e7c0fa403e8e0fa343e8a0fa683e980faa03ea40fbd83ebb0fbd03f060fae83f810fb683f800fb243ec30fb803ec20fe103f0e0fb343f820fb303ec80fb643ef20fbc03f860fb6c3ed80fb843ee50fbbc3eea0fbb83f0f0f9b43e620fa7c3e9c0fbe83ee70fbe43ef10f9a43e670fa943e640f9483e580fa743e5b)
  (.lf 0))) (.nd (.nd (.lf
  0x38764e21f38828e22d388cce1f63885ce23238858e24538804e1f9388bce231388b8e1c3386a4e06938174e05a38054e09f3817ce0783838ce0a338314e071382c4e08c38344e09a38240e0c73824ce085381f0e0a238260e08438248e0703844ce0ad38328e0ac382a8e0db382e8e0b6382c0e1123832ce0c438308e0da38340e0e238378e1243845ce122384a0e116)
  (.lf
  0x1616c58561608c5820193006494191645b66161685854191485b6a16d8072ea1cae072841c9cc52961494c72961c9bc58851cbb872d61ca6072811622052521c9ec72721c9b872a01ca4c72a11ca50727a1c9d452971cc1872da1ca4872851c9d072701ca78728216210620a1875061c0186f861af186ac5893161e8520b1883861f6186a85896161f0520d186b8528d))
  (.nd (.lf
  0x1410c50421411450401409850281414c50521411c502d145b4516c1412c504a145c44fac13ec44f9913e604fb513f8c4fd413fb44ff113f084fd713fc04fd613fcc4fc913f144ff513fd04fef13de44ed114b3c5480151e45477151fc547b1522054f51523454dd152b454cb1524054e7152f054a61537c54ab152845498152c854a01523054ac152a854d71531454d8)
  (.lf 0)))

def aesXorReads56 : BTree :=
  .nd (.nd (.nd (.lf
  0x8b7822ca08b2022b908ad46aed09a58267e099d0253e1a954270409b60269909a302680099a025121a504269b09a3c268609a04266c0933067bd09a38266909508697709a1c2678099c824ac1a8cc26ec09b50269509a282670099a8253619f742675099cc266e09490693709ba026b209a682698099e4266b094e86bd709e401f5407d2018001aa4427a207ed81f8a)
  (.lf
  0x1802860061805c6030180b861781806460161807c6023180b46028180b0604b17eac5fa017f745fda180e06025180dc602f17e9c5fa517f8c5fa217e405f9617f6c5f9917eec5fb5185e4617517f345faf185fc604017dc85cb117f945fa317f0c5f9117fb85fe418114603517fa05fde17ea85d0b185d8603318108603117dd45f71175805fbf174205fa617e5c5fa9))
  (.nd (.lf
  0x4032900c44030100de4036d00d8403510100403a100fc403b10f06404e50f0443c290138403f900fb4045d00fa403e5014c403e1013040489011f40479011840459012b40599016440469012a403fd014d404d5014b404f1014a404c50f2840464fd4d3f5190107404090150404ed01654053cfd413f4fd00ed3f5d8fd743f5290103402dd00c1402ed01234046d00df)
  (.lf
  0x26c7c9b1626c509b0126bf89b1e26c089aff26bb499e126df09b5226c009af326bc09aec26d589b1a26268996a2647898e82622098872621498da26124984726598991c26378988626140984b263fc98842612098e2260ac98fe263a498e32636098d3264e8990c26348988926148982a26240984c26118961825714930a2478091de24764936f24c0492fe258709604)))
  (.nd (.nd (.lf
  0x2ebc0bae06d4c0b1002c540afd02bf00b1902d1c0b3802d440b5502c980b3b02d500b3a02d5c0b2d02ca40b5902d600b5302b4c0ad7137c84d71026dc09b2026ac09bb026c409ad027300a3d027940a25027d40a13027500a2f0281009ee0289c09f3027a409dc027e809e80279009f4027c80a1f028340a20028300a0a028b40a18028480a10028900a22028840a1e)
  (.lf
  0x352f8d4b435200d465354c8d513354a0d51135124d44535108d49535188d47c351b4d47f3518cd45035130d43f35184d443350ecd41f35300d47735134d4443509cd42235138d3ee34fb4d51835474d51c3547cd51b35484d5203549cd51e35408d504354ecd53a354a4d509354acd52a354bcd52e354ccd47e3520cd46b351a8d487352d4d4a6352fcd4c335250d4a9))
  (.nd (.lf
  0xc248308e0c28430370c0d430330c41030bb0c23c308c0c18c305e0c24030860c0c431500c55431540c55c31530c56431580c56c31560c4f0313e0c5a431680c57431430cb4c32d20c58431600cb5c30c20c31c30af0c2b830cb0c3e430ea0c40c31070c36030ed0c41830ec0c42430df0c36c310b0c42831050c24430951044c412a1049c415910554414d104c841b5)
  (.lf 0)))

def aesXorReads57 : BTree :=
  .nd (.nd (.nd (.lf
  0xe9dc393c0e31038680dc00d6a30e99439500e1b836f5355a43abe0ea203a670e49039120e32038c5359b4440610f583e1e0f6c0f9551120044541106444080fdb83f680f790d5cf115a0441b1104c440e1102443f8355c444120f7943d783e58c45401103c440010f48d5f3111a0445010ff043f610f543f660fd28d61f10fe843d30f87c3e1035584459811190442e)
  (.lf
  0x36334d81e3608cd80b36028d82736154d8463617cd863360d0d84936188d84836194d83b360dcd86736198d86135fc4d7f53ad94eb5239c44e9493ad3ce77f3ad58eba33addceb833ad24eba93ad18ebab3adc8eb6a3ae1ceb453adb4eb3e3add8eb6c3ada0eb483ad10eb973ae44eb963ae10eb7e3ae64eba83ae90eb9c3ae40eb883ae14eb823aea8eb983af30eba2))
  (.nd (.lf
  0x2caccb2b22ca98b2a22cb24b2d82caf0b2a42cb20b2872ca3cb2d12cc70b2b92cae0b2c32c95cb2462cb48b2992ccf8b31b2caf4b2bb2c8fcb2392c9acb2482c8c8b21e2cb4cb22f2c974b25b2cad4b2a52c984b2412cc04b2e42c884b2042c9bcb2492c934b2332c9b8b26c2cb8cb2df2cc00b2a32ca70b29a2c958b2292cb74b2da2cc80b2d92c8049a9c2688cb251)
  (.lf
  0x261809b1226bf099de26ba8983026208984424a6092c824b7098d0260a092bc2475892fc25700917a239b891ae23d90936a24c40957a2563891fa2481891e824de0938a24c6893a42460091ea24bb88f6024d38920c24720932824e60917023da091ba23d50934025f389a5225fb0a490291c09a642682097e22c7d897f426870922a24938915826a409a102490897d4)))
  (.nd (.nd (.lf
  0x28fa4a3cc289a49f8727dd49f0127ba09f9b27e7c9f2d27ed8a2c928434a297288a4a28927db8a2ab284589fae28a64a10f27f489fa728450a10c27e98a22828438a2a128a0ca2a628a40a28228b0ca2ba28a20a28628a9ca2a028a58a29428b08a2aa28b20a2c628c00a2c128bf0a2fe28b00a31f28b98a31e28c54a30928c30a30828c90a2dc28b4ca32228c50a2d2)
  (.lf
  0x185f86173231388c330e258388b2c5c8b12107cd81eff0cbf432da12248481f1a67c69801459c516215e4c578e198e4663024a9492920c19830030bb082e8b0dd2837131156c453007b2c1eb81a54869091ce9c738e249ac92620e1f4387a15e04577e18fec63f621b1486a6185b861631c83871fb230a08c131fa707e9124948921125ba096dd0829820670b5682d23))
  (.nd (.lf
  0x20f2c83d520f386cbb20f4c83d720f88844f20fdc84372101c842520fa08441210588400210e4840520fec83ee2103083fa20fd884062101084312107c843221078841c210fc842a210908422210d88434210cc843021100843e21138844a2127084612126884b22118086a52120086a4211bc846921218846821b3084c0211cc86c4211c8846e211fc84982125886c6)
  (.lf 0)))

def aesXorReads58 : BTree :=
  .nd (.nd (.nd (.lf
  0x932487290a30c24dd21cb42d5d092a48ca50a3cc252f232fc28e90948486fb0b50c24eb241b4279309e348cef09e94279f21b9c2a8f0a9cc860909de4277321b042ab50aacc8c9509f3427c72135427b509ecc87190a9542a53239d42cc7080dc8d210b364204121ba43013212f42ca50809486b90c1a420ab232042d010816484cf0b3b4204d21c443009081bc99fb)
  (.lf
  0x50cc14730510c146105088147d05148143c051d41441050dc142a051201436050c8144205100146d0516c146e051681458051ec146605180145e051c81470051bc146c051f0147a05228148605360149d0535814e80527021f5052f021f4052ac14a50530814a408a7014fe052bc223c052b814aa052ec14d405348223e052f414ba0530c14c70534414cc0534014ff))
  (.nd (.lf
  0x130184bfc131ac4c57131604c21130004bf612f084ba3131b84c55131984c5312e044b6a12b5c4bd712e804bbe12ebc4bc112e844b9312e204b3612e7c4b6b12da44b67130084bb912e644b8912e004b7a12e284b8412d944c5a1317c4c5e131844c5d1318c4c62131944c60131104c46131dc4c761319c4c4b131a44c68131b44c6c131bc4bc012f144bad12eb04bc9)
  (.lf
  0x3f174fc5a44dc0fca23f260fc6b3f0b8fc2c3f1a0fafa3ebe4fbb73eca8fbbf3eee8fb2b3ebe0fad944e10fca03f268fbbe3eee4fbb63f1b0fc5c3ef9901bc3f368fc033ee58fadc3ea9cfcd03f2dcfcad406e8fd663f308fcbf3f018fc023f2d8fadf3ea98fb993eb68fbab3ee70fade3eb74fadb4079901c83f310fbaa3ee60fb973f300fcac3efb0ef7e3bd60ef52)))
  (.nd (.nd (.lf
  0x1c50471301c53c71551c47071351c55071341c54471211c47c71591c56071531bf046da51d3ec76721d98c766b1d9c476811d9d8770d1da1476cf1da8c76b91d9f876d91da8076981db44769d1da4c768a1da7876921da1076a21da7076dd1dad476c61db0876b41db2c76e81daf876b81db7076ce1db3076c71db6076ca1dc3076f01dc9077031dc88772e1dc087873)
  (.lf
  0x3120cc48731244c48c31240c52731268c46331014c3fa310dcc434312c0c489312bcc49331004c3ff310f4c3fc30fa8c3f0310d4c3f331054c40f311d4c46b3109cc409312e0c49b30f10c3c1310fcc3fd31074c3eb31120c43e3134cc49931108c43831010c3e5313a8c497312e8c49530f0ca74929d18c41930f88c40030fc4c40330f8cc3d530f28a74c30f84a747))
  (.nd (.lf
  0x12564495d1259c49621259849851239448da1245c4914125c8495f125c449691238448df1247448dc1232848d01245448d3123d448ef12d5c4b511241c48e912c94497a1229448681247c48dd123f448cb124a0491e125fc496f1248849181239048c512d60496d125f0496b121944848114a448f91230848e01234448e31230c48b9122c848ae123044891121244847)
  (.lf 0)))

def aesXorReads59 : BTree :=
  .nd (.nd (.nd (.lf
  0x469391a364686d1a16468491a0e468811a1e468f91a3c46b091a2946ab91ab0468a11aba469fd1a7e4698d1a4d469311a4646a091a74469b51a80469b11a62469e51aa246a811a8446aed1a784691d1a7d46a4d1a8a46a491a75467fd19fc468ad1a2246a591a8946a851a95467c519e1468fd1a324681119ec4688d19ef468dd1a0b46a151a834685d19f346b1d1ac4)
  (.lf
  0x39624e55539548d434395e8e5703959ce64a3993ce64e39944e64d3994ce65239954e650398c8e634399ace66a3995ce63939964e6583997ce65e39984e5ae396cce59b39668e5b739794e5d6397bce5f339710e5d9397c8e5d8397d4e5cb3971ce5f7397d8e5f1395ece55940a2cfe7e3fb38febd3fe7cff463e9ecfa8a3ea0cfa7f3ea44fa853ea38fdcd3eb24fb79))
  (.nd (.lf
  0x4038100903e240f8d039b40e68039840e710399c0e6303a080ef303a6c0edb03aac0ec903a280ee503ae80ea403b740ea903a7c0e9203ac00e9e03a680eaa03aa00ed503b0c0ed603b080ec003b8c0ece03b200ec603b680ed803b5c0ed403b900ee203bc80eee03d000f0503cf80f5003c101b8503c901b8403c4c0f0d03ca80f0c06e680f5803c5c1b8e03c580f12)
  (.lf
  0xdcc8357c0d640374c0d550371c0d5c035660fe883f1e0fc883fbc0fc283f8c0fc683f1610fb83dea0f89043ca0f58843e20f6f83d9c0e2a036ec0dbe039640db3839080dc0836e00d74034520d17035ac0d0b035c40d120343e0cce02fd40bf7832e60beb8330c0bf282fc00f6103de80f8883d3a0f5803d520f6f03d9a0e298329e0cac039600c97038ce0ca203274)))
  (.nd (.nd (.lf
  0x39ec0e73d39cf0e66335554d0c8342d8cda4356c4d5b039c14e76339d88e69139c6ce71a39ad8e71739c58e6713a3d4e75139d40e79939bd0e6f239bdce6f63a654e9943a37ce8de39cdce77b39a74e69c3acb4e6b539ad0d5f9357e0e6d839a50cf3739b6ce6da3a4d4e72f39c24e70837d7ccdaa37ea4dfa837d64df5835a7cd69e38014e0043814ce0523860ce3e7)
  (.lf
  0x26bc099a028c80a060271c09ba026b809960271009ac0268809060234008b8022d8089702224089302244088c0242808f2022cc08a80223808880229408960224008ac0221c08b9022b408a40227c088a0248808f6022dc08aa022780886022d0089c0224807f601f0007a801e98078701de4078301e04077c01fe807e201e8c079801df8077801e54078601e00079c))
  (.nd (.lf
  0x232c48fd323e808fba23eac8fbd23e848f8f232d88cb423e7c8f7b23de48f7723ff88fb523e5c8ce4232d48cb023e208f7e23dd4904a2413c904e24144904d2414c9052241549050240d890382419c90662415c903d24aac92aa2416c905a24ac48fbc23f048fa923ea08fc523fcc8fe423ff4900123f488fe7240008fe62400c8fd923f549005240108fff23e248cb9)
  (.lf 0)))

def aesXorReads60 : BTree :=
  .nd (.nd (.nd (.lf
  0x2ac1c345d0b42caa170d14c2cf72a6f435d10c134bc170e618397a0db9832a62f9d439e80e6f038fa0e2fc37080caf832902eeac397c0e48038fb0e3dc38e80e39cbbbb0e3d836d40ca44bbfb0e5f439740e5c8396e2edc439d00e6e039850e3a838ba0dbf832bc2ec1439730e3d036f20ca9cbb270e73039960e5d438e60e30838be0e2ecbb2f0f9003dfa0f7303da8)
  (.lf
  0x2c660b1942dddcb1a12c5bcb1692df78b78d2dde0b1952c648b16d2c658b18e2c59cb8362e0ecb83a2e0f4b8392e0fcb83e2e104b83c2e080b8222e14cb8522e10cb8272e114b8442e124b8482e12cb7a02de4cb1ab2c6a8b7a52df4cb7c42df74b7e12dec8b7c72df80b7c62df8cb7b92ded4b7e52df90b7df2c65cb7813368cc09e2f00cbe8a2fa0cbe812fa24be85))
  (.nd (.lf
  0x405c1016e405b1077d41ded076e450dd1432450ad140144f7d05904161d13b544ed114a24529514a444fa5142345089143946b5d1ad64519d1ad346b4913c942ce50b384527d149e4500d1441454bd152e4507d141e452b514ac455a51435450d113e1451b91471451c1158d44f0513c04526d13f944fe1142d413a91c8d47231056142d95050f415b50b2742c990ba3)
  (.lf
  0x33748cdc533230ca5e33708cc963278cca0732780cc9532828ca0932788c9e1338d0cdf833750cc8f32820ca0633740cdc6336d8cbd232e70cb8832e18cb7732dccca3f328f4ca3a32f58cbbe32dc8ca4732908ca1432dd8ca3c326fcca1132700cb893285cca1232704c9be32fb8cbc232e1cca4432858ca1032e00ca48328f8ccfa33320ca5532770c51a31464cca5)))
  (.nd (.nd (.lf
  0x16be85b0716c185aef169885a67169245a481697c5a7f16ad85a9716ae45a9a16afc5abe16ae05ab316af45a9d16a7c5a9e16a645a2d168dc5bc516ee05a051618458521679459d91619459d216dd45a0916cd459fb16cb459e016d145a1a168405b371685c5a0b167c85a18168285a081685859fa16c945b1d16d005b2016c705b7116d585b3e16cb05b4116cd05b26)
  (.lf
  0x2af10abbf2ad34aaed2fe0cbfa62fe7cbf9d2fe94bfa12feb8c01b2feccc0032ff4cbff12fed8c00d2ff88bfcc30014bfd12ff1cbfbe2ff60bfc62fec8bfd22ff40bffd2ffacbffe2ffa8bfe83002cbff62ffc0bfee30008c0002fffcbffc30030c00a30068c016301c8c02d301c0c088300b0c056300ccc03f300dcc03230170c03630240c0443010cc042300f8c03c))
  (.nd (.lf
  0xbb402a210bafc2ed50bb902f4d0bbd42f350bc142f230bad02f3f0bc502efe0bcdc2f030bbe42eec0bc282ef80bbd02f040bc082f2f0bc742f300bc702f1a0bcf42f280bc882f200bcd02f320bcc42f2e0bcf82f3c0bd302f480be682f5f0be602faa0bd782ff10bdf82ff00bdb42f670be102f660bfd02fb80bdc42ff20bdc02f6c0bdf42f960be502ff60bdfc2f7c)
  (.lf 0)))

def aesXorReads61 : BTree :=
  .nd (.nd (.nd (.lf
  0x4424d11a44421111a6446c511b0446bd11a9446ad11aa44275109c442550ffa43fc50fdf43f79100f440ed10404412d104f4401110434413910424416510674401d1069441a1104d43f250fcb442fd10b0442b50f5f4430510af44351113d443dd11074433d112d443191111443c910f04443510e1443ad10c4443d910ea443a110e0443391109443fd110a4440910fe)
  (.lf
  0x2bcd4af302bd68af342be60af422bd04af402bcf0af3a2bd4caf6c2bda8af4c2bd54af522bd6caf5f2bda4af642bda0af992bdc8af3b2bb74aed22bc3caf0c2bde0af612bddcaf6b2bb64aed72bc54aed42bb08aec82bc34aecb2bbb4aee72bd34af432bbfcaee12be00af732ba54ae922bc5caed52bbd4aec32bc80af162be24af712bc68af102bb70aebd2be38af6f))
  (.nd (.lf
  0x1bb586ef01bb846ef31bb5c6ec51b6706d9a1bb546eb11babc6ead1bcd06eeb1bb346d9b1b6586d941baf86eb41baac6f801be146f841be1c6f831be246f881be2c6f861bdb06f6e1be646f981be346f731c72c71ca1be446f901c73c6ef21bbdc6edf1bb786efb1bca46f1a1bccc6f371bc206f1d1bcd86f1c1bce46f0f1bc2c6f3b1bce86f351bafc6d9f279648c54)
  (.lf
  0x3430cd0b335eb4d0bb34204d531342fcd0b735538d544342c4d55e342a8cb663e534d5ed34200d0be342b4cb6b35624d0b0336d0daa4369e8d9fe368b0da42370e0da6037508da4836b70da8e368e0da2436848db06369b0da3236b48da883dfc0f808367e8f7de36978dac236ac8da8236828da2036bd0db32369a0e17038138e1a038508df9837e48dfc837fc0e2b4)))
  (.nd (.nd (.lf
  0x31b84c6da30eacc57c31554c5453152cc56331600c5cb3159cc5b1315ccc59d31580c5cd316a8c590316ccc56d315e0c55b315b8c56631568c572315b0c5bd3165cc5c231658c5943171cc5a831670c59a3170cc5bc316e8c5b031730c5c631860c5ca31a8cc5f8317d0c6a2317d8c652318acc64d3192cc62a31930c628318b8c5fb31798c64a318b0c5fa31884c5f2)
  (.lf
  0x3df28f7b3420a8f7933ddf0f1a73c688f1a13c64cf18d3c5c4f2093c7b0f1e33c528f1493c51106c2418a4f46f405bcf4623d1810693418e8f46342135083c3deec8e7220ee883b620ec883b120eb883a820e9883a42328883a520e6cca4e30e20b8b9297c8a35b28d64a66e296b0a35429a30a5a828d40da76367f0c09f327c8c39830decc36f30d9cc36033208b8bc))
  (.nd (.lf
  0x19dd8677219e0c679c19e68690c19e14678219e2c678f19e64679419e6067c119c5c670c19d24674619e90679119e8c679b19c4c671119d3c670e19bf0670219d1c670519c9c67211a434690b19ce4671b1a54c67ac19af4506819d44670f19cbc66fd19d68675019ecc67a119d50674a19c5866fb1a458679f19ec0679d19b70506b1419c672b19be0671219c0c6715)
  (.lf 0)))

def aesXorReads62 : BTree :=
  .nd (.nd (.nd (.lf
  0xfd910b6711608454d10ef03e1d4144447fa11bf846c811ad046b211a8c469f415bc49e41276047f611e910b2b129184a1a121c4483811f7047c211ee90ba5127684888121bc4843120e8483942e6c484211f4047c34153c4afa1276c49d2127410b55128b84a161278c486c120f847f211eb90b0312744483c11f9047a54706c4a2a127d049d3122384870121b8486d)
  (.lf
  0x3d34cf4a53d4bcf5113d314f4953d4b0f5213c800f1873d37cf4a93d394f4813d398f4de3d47cf51d3d408f4c63d280f47f3d4c0f51b3d538f5193c96cf1ff3c7c8f4f33d1e8f4983d1dcf49b3d1ecf2023c7e8f1f73d1e4f1f93c7ccf1813d4d8f4a73c80cf1fe3c614f16a3c818f1883c5fcf5263d4acf52a3d524f5293d534f54c3d4b4f5483d510f5463d554f554))
  (.nd (.lf
  0x9068242f09120242e0912c242109074244d09130244708f3c220908adc22c108ae8155708afc22c308b38233b08b8c232308bcc231108b50232d08c0822ec08c9422f108b9c22da08be022e608b8822f208bc0231d08c2c231e08c28230808cac231608c40230e08c88232008c7c231c08cb0232a08ce8233608e48234d08e4023a608d30237608d4c235f08d5c2352)
  (.lf
  0x88101a88136d04e1613d5119604651919844655119784662919684661916ac45bb916e645ae116f245b6116de45ad11c0a470491bce470111bec46ff91c0e46f89174e45e01177c45d21177045e11176645e311aac46b311ab846b211ab446aa11a9e46b010ad842b110ab242b510abe42aa10acc42b490eba43b290eec43b390ec6462a90efa43c0909b24267909e2)))
  (.nd (.nd (.lf
  0x268649a1825fcc97f22c474b11c25f84924b249209a6326988a48f2923897eb269bc9a5125f34933f246e491b824e54939424c9c93262471c913b231009a7423120913f244f891f124d2c934a23d3491c5247108e642479091a22468091e724798917f24e8c931924c609389246a091a6246ac91aa255e49578255d4957424c3c936923d8c8f62246b48e6d239b09a37)
  (.lf
  0x62f0187306144183b060c81824060f018260605c190806434190c0643c190b0644419100644c190e063d018f60649419240645c18fb133d44cf40646c191a13404187a061fc1867061981883062c418a2062ec18bf0624018a5062f818a40630418970624c18c30630818bd060f41841275149d40274e49d35274fc9d3b275509dc5275b49dad275f49d9b275709db7))
  (.nd (.lf
  0x2343c8d05232708c9a241cc8d0d233dc8cf5243689089241d08d092326c8c98233f88cf8233cc9126244ac912a244b49129244bc912e244c4912c244489114245249148244cc9119248649218244dc913624884909c2423c8d152345090a12433c90c02436490dd242b890c32437090c22437c90b5242c490e12438090db233fc907d24e7c91cf247309499252549343)
  (.lf 0)))

def aesXorReads63 : BTree :=
  .nd (.nd (.nd (.lf
  0x12fc04a1014f805330113c044c0135c0495012d404830138004d60151405310136804d001270047d01520052f01500052d0115404450110004b1011e8049801224049b011ec046901178045a011e40441010ec0439013700493011c4045b011480444011700446010dc0534014e40538014ec0537014f4053c014fc053a0147805200154405500150405250150c0542)
  (.lf
  0x2e9d8ba742e9ccba702ea00ba7e2ea38ba8a2eb98baa12eb90bb0e2ea80baca2ea9cbab32eaacbaa62eb40baaa2ed18bab82eadcbab62eac8bab02eb24bae22eb80bac22eb2cbac82eb44bad52eb7cbada2eb78bb472eba0bab12e94cba482ea14ba822ebd0bad72ebccbae12e93cba4d2ea2cba4a2e8e0ba3e2ea0cba412e98cba5d2eb0cbab92e9d4ba572ebf0bae9))
  (.nd (.lf
  0x4538113006f401182044ec1bce044e811360451c1160045781bd40452411460453c11530457411580457011830436c10d004434110a045a011550459c115f0435c10d50444c10d20430010c60442c10c9043ac10e506f541bd1043f410df0701c117004234108a0445410d3043cc10c1044781114045d4116504460110e0436810bb06f481163045c811610424c1083)
  (.lf 0))) (.nd (.nd (.lf
  0x3eec0fad53ec9cfb263ebc8f8fa3e3e0f8f63ebd4faf43f0a4fc573eaecfaba3ea6cfb243e4a8fb893ee20fb1b3ec68fc113f040fd0d3ef1cfbd93ef60fba13eb94fae43a354e8d43eab0fb1f3ec60fb213ec80fc093f384fc433f108fee73bc38ff053fc10ff493fd20ea833aa08fed13fb40fe333f8c8fe3f40c1d03063f9c5041f41079040741018fe2b3fd9cfec9)
  (.lf
  0x1d3d0766f1d98074f81d3dc74f51db6876b01d9b8766a1d9a4765e1da0074361d0c077b41d3a074d81d0f4740a1d01477751d33074811dee077921ddf074ce1d214743c1d20074071d01074c91d02074d31d328740b1d02474061df4077a41ddf874d91d34874c81de0077741ddc879781d43074a41d07473ec1cfac75211d3f874711e5f079761d4c0749c1d1d4741c))
  (.nd (.lf
  0xb6fc2def0b7b82de90b5d42d7911044440c110143f691102c440711078448b110cc44731110c446111090447d11148443c111d44441110dc442a111204436110c8444211100446d1116c446e111684458111ec446611180445e111c84470111bc446c111f0447a11228448611360449d1135844e811270481d112f0481c112ac44a51130844a41212844f0112bc481e)
  (.lf 0)))

def aesXorReads64 : BTree :=
  .nd (.nd (.nd (.lf
  0x33ec0cec033980029045f80d0203374002706f800d0f0340c0cfa033d40ce000094119a035e00d4c034340d00033d00cdc0008c1190034280cf2033a0002105a6810f0042e810a2042801081041cc001f05b50107d041ec10760007416f0043d010dc042741092041e010720006c16680423c1080041e8001905a381096041c4001705a0010a30425c108e042241074)
  (.lf
  0x5c70173905d9c175805dc4177505d18175b05dd0175a05ddc174d05d24177905de0177305c0c17070b5c42d6b0b5a02a350b5642d6d0b5f02de50b6342dcd0b6742dbb0b5502dd70b6b02d960b73c2d9b0b6442d840b6882d900b6302d9c0b6682dc70b6d42dc80b6d02db20b7542dc00b6e82db80b7302dca0b7242dc60b7582dd40b7902de00b8c82df70b8c02e42))
  (.nd (.lf
  0x3eb4cfacc3fdbcfe4b3f87cfc263ecc4fec03faf8feba3c6a4f1753c4bcfb253eab4faab3ea80f9363e4d0fec13f8a4eee23d58cf12938f18f20d3c540faf33ea8cfaa13c520f10e3949cfc0e3e990f9353f378fcdc3f298f11b3c410f0eb3f37cfc273eff0f1953c414e3ba3c744f15138f1cff453f8d8ef183d60cf56a3d578f55c3a634e8ac3ef4cec3e3c3c0e533)
  (.lf
  0x22b9887c621d1889502246887f821f88877921a5c891221df4877522538892022018877f21de0877622004877c21a58881821f84881922010880021ff487f9225d0894a21ff087e321f8087dc22488878221dd071201c3c070d81b51c6a001a7fc6fba1b4d4699d1c47871001bef86d511b5306d461a7f869e31a6706fad1a7806fb81becc6a011a78869e11c4f8710e)))
  (.nd (.nd (.lf
  0x17d405b40168805a8017b405ab0173405c706a541a910177c05c106a740652015bc056c017dc05b50175405a30180005f60195c0647017e805f0016f0059d06a480645019500643015d405650158005d10166805b8016a405bb0166c0589015f8057a0166405610156c0559017f005b301644057b015c80564015f005660155c064801934064c0193c064b019440650)
  (.lf
  0x34958d254349dcd26234970d25a349b8d26c349acd268349e0d27634a18d28234b78d29934b70d2fa34a60d2c234a7cd2ab34a8cd29e34b20d2a234c28d2b034abcd2ae34aa8d2a834b04d2da34b60d2ba34b0cd2c034b24d2cd34b5cd2d234b58d30b34b80d2a93492cd240349f4d27a34ba8d2cf34ba4d2d93491cd24534a0cd242348c0d236349ecd2393496cd255))
  (.nd (.lf
  0x250989424251e8943b251d09476250e896a92516896a825124944325180944225ab0948c2513496aa251309448251649472251c096b02516c9458251849465251bc946a251b8948d24f9493e025078941b252009467251fc947124fbc93eb2509493e224f4893d82507c93db24ff493f925ac496ad2503493f125ae4947c24ec8935d250cc93e32501493d3250c8942e)
  (.lf 0)))

def aesXorReads65 : BTree :=
  .nd (.nd (.nd (.lf
  0x3f89c4b2810424ff731267840fb3fb1449aa1037cfe3b12dc8f1a5108a4384b3c5dc42330e154f113109d4391d3c3b4422d0e0e4f0f510a543b573c57c422b0e194f1ef1089c386b3c3f442610e43cf37b0f6cc3dad3c6f43de10f77cf199115e445653c7043d7b0f5d4f1d3114dc45353c4943f5d0fcccf1670f8543e093c864469511654f5af11a6444fb3d5c44797)
  (.lf
  0x3b7dceded3ac3ceaed3b674ed6e3ac70ec563b69cec593b62ced853b824edf33b654eb113b864ee143ab20ea3b3b67ceb1d3b5e4ed6f3b6c8ed9e3b8acee133b748edac3b600ed6d3b858ee113b83cee023aaf4eaa33a9d0ed7b3b5a8ec573abb0ed6b3abbced693ab00eab43aa7cea753a8dcea333b750eb0a3abaceacd3ab04eabc3ab08ea313a8b8edf63b87cee1e))
  (.nd (.lf
  0x747c1c54071641c41071001c5d0722c1c7c072541c99071a81c7f072601c7e0726c1c71071b41c9d072701c970708c1c2708efc23c908f08155d08f1c23cb08f58244308fac242b08fec241908f7024350902823f4090b423f908fbc23e20900023ee08fa823fa08fe024250904c2426090482410090cc241e090602416090a824280909c2424090d0243209108243e)
  (.lf
  0x6c141b020332c4de206cc41b1d137844ddc07b781b18145ec1b2b06c181b2506c0c0cca137a01b1c06a6c1b5506ac41a7b13bdc1b6d06cfc1a5c06d8c1ac80333466cd136c01a7d13be81b5706d5066b306cf81b3c06da80cd4033301b59138241b5606aa41aa71367c4d9306cf41ac906b0c1a85033540ccf138301b5806ae44da406aa01a7a13b541ac206abc1ab3)))
  (.nd (.nd (.lf
  0x25f7897da269b492a324a80936624d20933c24ddc8f4a2399892eb24b6c929f247b88e67231b89e52279409e4c24638985c26158983c24d24918f23d4c9205239509ea126020980023d2c8e5523098985724b1c9165247e4917c26250986e261a09f0b27b849e532469c917723d7c95bc24e809396261bc92a120e089e7d27934926627ec49f66256f4916f239949f52)
  (.lf
  0x4587116254587d15f5455d9157445845160d4581d160145af91605457bd1575455c11534457fd15f0457a116a045ac516b045b3d16af45b6d16da45bad16d045b3916d245b8d16e245b8516d545b5d16d645bc516f045aa5161e458f5160f45839161b45a1d164a45a3516c1458d9165145b011650459b5163b458e5168f45afd168e457a51579166a81915060cc182e))
  (.nd (.lf
  0x1f9487e411f5d87d291f49c7dcf1f6707db61f69c7db91f6747d8b1eb387acc1f66c7d771f5d47d731f7e87db11f64c7d261ec687acd1f6107d7a1f5c47e461f92c7e4a1f9347e491f93c7e4e1f9447e4c1f8c87e341f97c7e5e1f94c7e391fa6c7e9a1f95c7e561fa547db81f6f47da51f6907dc11f7bc7de01f7e47dfd1f7387de31f7f07de21f7fc7dd51f7447e01)
  (.lf 0)))

def aesXorReads66 : BTree :=
  .nd (.nd (.nd (.lf
  0x2cd1435b02d02434640b43cb65d0d1582cfb2d09c35d40c154b7710c9d832732c42c328a0ca14b1610e35438d22c434325e0c964b1870e588395d2c46c32b60caccb0d10ca80329b2c50438b10e2b0b1310f67829f92e79c3dc00a80cb1110f5502ea92e7d43d640a79cba0d0f4f02ec92c5f43e260a86cb1b90f7b02a0f2c7043d860ba6cb8590bf082e5d2e1d42fcc)
  (.lf
  0x27fc49fe927f88a04b28050a0322808ca03528054a00327fe09ff42804c9fe327f649f73281d8a02d2802c9ff527fa09fdc27fd89fec27ca4a0d028354a0d42835ca0d328364a0d828374a0d6282e0a0ba283eca0fa2837ca0bf28384a0e0283a4a0e8283b4a034280e4a02128080a03d281aca05c281d4a07928128a05f281e0a05e281eca05128134a07d281f0a077))
  (.nd (.lf
  0x471510b8e42c4904e046b7113a842e5904e142c51053a414a91c5542ee1057241de9077641d1908554210107ca44f1913b044ea515664500113f6421110841420e9141644f7913dc415350548415190b8f4151d025a41d090b6242d410b0842c250555413ad050c41419050441d1d074541d0d14644518d05494141d026c42065081141f2d0b63414b10264451bd1436)
  (.lf
  0x3950cd3bf39788e5b6395f4e574395b8e564395c8e558350c8dea637a58d40d34ee0d34c34d2cde6f359f8d3d937a90de94379dcd68835038d40c379b8d34a34c8cd67534cd0d67c34ed4d34d34cd4d32237b18de8e359d0d41034ee4d3b4379e0d67a34f60c7ca31d48c74231d00c73731cccc78b31ca4c72631f38c7a831e48c73231cacc71a31cd8c72831c7cc720)))
  (.nd (.nd (.lf
  0x1cf5c73d61d58073d41d58c7562171c05c73171c85c75171d05d11174406a051a8106d191b4605c89172205bed16f885be516f90598e166305bbb16ee869391a4e0640b19028669119a406abf16c305a03160505811168945a331613c581816a545a4316a045a5516a345a3c169d45a5c169305ab71694c5a47160385a5a169185a42169505a5216a0c5a6d16a085a6e)
  (.lf
  0x2b290acb92b348acb82b354acab2b29cacd72b358acd12b174ac612e280ac232ab7cab472a9d0aae72ab8cab492ad40abbb2ad54aba32adccab912ad60abad2ae08ab6c2ae94ab712ad9cab5e2ade0ab662ad50ab722adc0ab9d2ae2cab9e2ae28ab882aeacab962ae40ab8e2ae88aba02ae7cab9c2aeb0abaa2aee8abb62b048abcd2b040ac2c2af30abf62af4cabdf))
  (.nd (.lf
  0x1c1ac70411c0f4706d1c1b070671bfc46d8b23d388e492336c8d72235ac8d77235c48d6d236008def236148dd72369c8dc5236288de1236d88da0237648da52366c8d92236b08d9a236108da6236908dd1236fc8dd2236f88dbc2377c8dca237108dc2237588dd42374c8dd0237808dde237b88dea238f08e01238e88e4e2380091672388091662383c8e09238988e08)
  (.lf 0)))

def aesXorReads67 : BTree :=
  .nd (.nd (.nd (.lf
  0x45ee917b644825183a462051880461fd184b461ad186a462651852461291878461f5187c4621d187b4622518884626d189a4627d17ca45fcd17ad45eb117d1460ad1802460c5184345fa118054610918044607517ed45fad1835460d1183345edd11e143dd50f8343de90fc143f150f8543ed1104943f45103f43fa5100343e41101d440310fe2441050ff543f590fd5)
  (.lf
  0x412f904b24134104ab4133904d2412a9051d41461051c413bd04bd412f104ba42bb10520413cd051e413c904ee42b8504cc41329057c42b810519412ed0ae542ba104c9413210aed41509051f4115d042c4122d048642b9d04e64139504cb4119d0437412cd045c4115104684121d046d411ed0471415f50521411d5043b4150d04f4410550312412d5045541285045d))
  (.nd (.lf
  0x1d6d075991e430763d1d930763b1d5c075551d54c75c91d65875b01d68475b31d65c75851d19074621d65475711d5bc756d1d7d075ab1d63475521d2e874631d5f875741d5ac76401d91476441d91c76431d92476481d92c76461d8b0762e1d96c765a1d93476331e42479081d94476501e43475b21d6dc759f1d67875bb1d7a475da1d7cc75f71d72075dd1d7d875dc)
  (.lf
  0x3a818ea423a580e9fa3aa70e8d83a340e97a3a878ea603a7c8eaa83ab40e9683a558ea0e3a928ea7a3a780eaf23a358ec5c3a620ea283a9a0e99036834d9f13679cda1936800d9e136808d9e936754da0f3680cd9f536a88d9e6346acda7936780d1b83df5cd1b93469cdc36367d0d1af346a8cda23365cda0733bc4cdfb34698cd9233640daf133684cd91368c0d9f0)))
  (.nd (.nd (.lf
  0x34d04d34034f94d3e42ee24bb2229af4a6dc29ad4a6d929abca6b729b80a7d329b44a85d29ddca7a129e18a7b329e30a7802a17ca6d529b38a6c129b58a6d029b00a77629b50a7bd29e74a79c29e58a79029eb4a7a829e98a7a02a170a7bc29e5ca79429ec8a7ac29f48a7b02a1e8a7cd2a1d0a87629f30a7ed29f70a7f329fb0a7eb29fa8a7d02a288a8952a248a894)
  (.lf
  0x34710cef037f8cdf5e33c04e8ed3a374e7ae3e524d63035678d7c1354f8d0c936998d1c133bece98339480e51f3fb98fee33fb7ce79c39d7ce75d3a370e74f39ca0fbe83ef2cf9413f290fab93e4f0f93d3e4ccf9303a978e95b3946113da44f6513d7451f5145f4517513f544fbd13e845275149645250b1152befcafbd2cdacafc12bed51c51415c1056c42cdd0b10))
  (.nd (.lf
  0x4a481eb604a04127b04a60127a07b6012c604a141eca04a10128004a4412aa04aa01ecc04a4c129004a64129d04a9c12a204a9812c704894121a0495c125404ac8129f04ac412a904884121f04974121c048281210049541213048d4122f07b641ecd0491c122907ae412ba0475c11d40497c121d048f4120b049a0125e04afc12af04988125804890120507b6812ad)
  (.lf 0)))

def aesXorReads68 : BTree :=
  .nd (.nd (.nd (.lf
  0x946816d313a9424e205a64589105f90118f161d417ee04664525d07c481bdf1353c17d2045f44d5907ce81c0d13a541806046c4520705fe811a5186a41f0606fa45883074e07269075100e3514a541d08037ec7291074580e071c9b41cf00378c5211076000e49148b41d64038fc5251074880e111467c150b05424583105474151b15fb4224d0891c4d1d053c414ef)
  (.lf
  0x19758664d197d8664c1979465df197f065de199486628197a4664e197a065e4197d4660e198306650197dc65f4197f466011982c660619828662919624657e196ec65b819858660319854660d196146583197046580195b86574196e465771966465931994c6651196ac658d199ac661e1953c654c1970c658119684656f1973065c21988c66131971865bc19620656d))
  (.nd (.lf
  0x3ff60ff5e40ad902ae416cd05a54172105a64169105cd4178105c4416b905c9416e105b2416a905ce4173105f6417a1063241775061c4187905dc4183505fe41831060741815060a41811065c4190905f3418390606417c90661418690618418410660417fd060b4199506684185d06164197506364183d02bd40ae105d841745066741889062141865059d40ac505f7)
  (.lf
  0x284a89efb27bd89ef0284c8a12027ce8a04c280589ffe27ff09fe527f6c9fe127f7c9fd828140a03827fe49ff027f689f7227f909fde27bb49f2727bb89fff27cac9f2827bbc9eec281a0a03c27ff49ff227ca89f2627fe89fee27f80a38a28990a25828948a237288d49f7127d709f5b28f20a27c288d89f8527d809f34288d09f7027b6c9f3127ba8a25327cdc9f32)))
  (.nd (.nd (.lf
  0x32ec0cb6032700c9e033240cc8032f40ca306dec1b7a033040cc006e040c220309c0c0f030380c2b031640c4a0318c0c67030e00c4d031980c4c031a40c3f030ec0c6b031a80c6502f940be9137084d8302b240ac402af40acd02b0c0abf02b780b4f02bdc0b3702c1c0b2502b980b4102c580b0002ce40b0502bec0aee02c300afa02bd80b0602c100b3102c7c0b32)
  (.lf
  0x344d4d0eb3444cd0e3344f8d1343468cd18f344e0d12e343b0cf8f346a0d18d34678d18b34364d0d534348d10f33e30d0fa33e5cd0fd33e34cf8333de0c6ee3434ccf8b3221cc885344e8d0e934350cf8733de4cf7033de8cf763220cd1923465cd19634664d1953466cd19a34674d198345f0d17e346dcd1b63467cd18334684d1a034694d1a4346a4d0fc343bccf95))
  (.nd (.lf
  0x25a6896892573495c924dc0961724c2095fe257bc960124c2495d42574093032570c937124c1c92ff2590895f92577c95d12572095c62574891dc246c4968e25a4c969225a54969125a5c969625a649694259e8967c25a9c96a625a6c968125b4c96d225a7c969e25b5c96002581495ed257b09609258dc962825904964525858962b25910962a2591c961d258649649)
  (.lf 0)))

def aesXorReads69 : BTree :=
  .nd (.nd (.nd (.lf
  0x431c90ca942ed50b4f431a10c49431a50c67431850c85431890c4a4318d0c5e4312d0c47430910c2d42fcd0c00430050c11430210c9f433310ccd432e10cb9432f50cb7432f90cbf432d10c92432410c7f433510cd5433150c91433190cc7431d10bc142d390b20431210be742f4d0bc242d350b464301d0bfb42f750bc742f6d0b4c42d210c0b430250c77431d50c03)
  (.lf
  0x3677cd9de36734d9b13673cd9ce3674cd9d23675cd926364acd91336448d92f36574d94e3659cd96b364f0d951365a8d950365b4d943364fcd96f365b8d969363dcd8fb3a7dce50c35f94d64835914d7ed35fa4d65f35938d85d36014d84536054d83335ff0d84f36090d80e3611cd81336024d65236068d80836010d81436048d83f360b4d840360b0d82a36134d838))
  (.nd (.lf
  0x2a918a97b2a5c8a9ab2a5fca97a2a5f8a97c2a7e4a9b22a680a9f82a6b0a9aa2a74ca9a42a688a9ae2a748a9732a5f4aa212a938a99b2a668a9a12a47ca91c2a600a95f2a934aa482a69ca9a32a494a9172a5aca9302a4b8a9342a604a9372a53ca93b2a6cca9af2a514a9292a7e8a9dd29348a4672a5d4a9312a52ca92f2a5d0a96c2ac84a9db2a770a9ad2a648a960)
  (.lf
  0x26aac92b520ddc8c0520e0c836f24ae48c0920dcc92e324b3c835b24b488bff20dd8ae7722fc0836e2b9c48bd820dc892c023028835a261f892b322ff89867260dc929b241a08bf12417492ad262cc98a424ad092b226bdc929a24a549af9241a4905c2677092d724ab0930e23074823d247d48c75230ac91ff224248251246a48c252094c9197231888c1c230a88f58)))
  (.nd (.nd (.lf
  0x28fdca3f62675899d429094a4242994ca652273f49cfc28d84a3602cdfca422288eca241288f89f6328944a24328980a3c72895ca349289bca38728970a39928cf8a27628d2ca26d28924a246289d0a25628920a26e289b0a37f28df4a37e28d18a34228ea4a39228e18a38228df0a34c28d20a34728ea0a39828f18a3ac290d0a3a728f88a3ea28e98a3bf28ee0a3db)
  (.lf
  0x20ae89388231b482912482c8c672309c906a20eec722020ecc78651c87084d220ea4785f2323484cb20e847c371f0cc7b5c1ec547adf1eb547aa91ea5c7a911eac47a671e96c873a1e9587a53219547a4e1e9345d87175bc5d6c1aba86415175a46a2419f2063c61a830696e18f085d361744c5d0f175b85cef1732058361465c518e1479c518b14620643f1475c51c0))
  (.nd (.lf
  0x1502053ee1502c53e114f74540d15030540714e34531f186b461b7186c05899186d461b9187106231187646219187a46207187286223187e061e21886c61e71877461d0187b861dc1876061e81879862131880462141880061fe18884620c188186204188606216188546212188886220188c0622c189f86243189f0628e1890863f51898863f418944624b189a0624a)
  (.lf 0)))

def aesXorReads70 : BTree :=
  .nd (.nd (.nd (.lf
  0x2024c2d2e093349d1b0a3182543274842d60092b47ed10a3d825371fd3c28ec094947f0d0b518253b1fb1c279609e44809709ea027a31e52c2a920a9dc777109df027771e4042abc0aae47ef109f4027cb1fcac27bc09ee4791f0a9702a591fb142ccc080ec805d0b37020451e55c30161dd7c2ca8080a478fd0c1b820af1fbe42d04081747f090b3c820511e474303c)
  (.lf
  0x3c8ccf39505604157c055d41585055ec1577056581607056bc15ef056fc15dd0567815f90573815b8057c415bd056cc15a60571015b2056b815be056f015e90575c15ea0575815d4057dc15e20577015da057b815ec057ac15e8057e015f60581816020597816190597016840586016420587c162b0588c161e05920162205a881630058bc162e058a8162805904165a))
  (.nd (.lf
  0x20bac7d6720db4836a1f99c7d3020bcc7e6520b5c82c120bc882f020da4836720db0833120c90830020b1082bf20dd0836520d8c83561f5007ac91ea1482dd20af07d631f55882bd1f5647e6b1eb187a881f5247d471f50c7d4120ca07e631f5447b241eb207ac71f4fc7d381f4d0833c20d0c834220d44834120e44839020dac835220d40835420d84836020d7c8357)
  (.lf
  0x3fc78ff223fc7cfeaf3fab0feab3ffe8ffac3fdf0ff203faa8fe7d3fde0ff283fbd1036a40ca102f240b4d02d140b3102963fef4ffb540dc9032640b49029c3fef8ffb740b4102993fed102923fc0502f340a6d029840a4d029040dd9030040b35029a3ff00ff0040b78ffbc3fee1049841181045a4104cfeda3fb35043c4102cff99412590458410e104173fe70fecc)))
  (.nd (.nd (.lf
  0x1f0d071e81c7ac71ea1c7cc71f21c8f4723c21b6c86da239ac8e6a1e4bc792e1e43870c91e4dc79361e4d079321fac47eb021a3c868e1e1a4786820ee483b81b5246fb61bebc6fab1bed46fb11c380714d1bf5c712f1c3f4711b1c370713d1c43070f61c4c471091c3b070e91c42870e81bf5871081c3f0712b1c45471321c45071021c51471221c46871181c4cc712e)
  (.lf
  0x3e854fa143e840fa0e3e89cfa403e8f8fa203e8a4fa263e8bcfa333e8f4fa383e8f0fa733e918fa0f3e6c4f9a63e78cf9e03e930fa353e92cfa3f3e6b4f9ab3e7a4f9a83e658f99c3e784f99f3e704f9bb3e884fa173e74cf9b53e950fa473e5c0f96d3e7acf9a93e724f9973e7d0f9ea3e96cfa453e7b8f9e43e6c0f9913e978fa433e958fa413e5bcd7d835eccf9c5))
  (.nd (.lf
  0x10fa83a560e85c43da0e8583a120e88c3a3c0e8e843dc0e8943a220e8ac3a2f0e8e43a340e8e03a570e6dc39ac0e7a439e60e9103a310e90c3a3b0e6cc39b10e7bc39ae0e67039a20e79c39a50e71c39c110fac43dd0e76439bb10f243a4c0e5dc38fc0e7c439af0e73c399d0e7e839f00e9443a410e7d039ea0e6d8399710fb03a3f0e9383a3d0e3b038bd0caf439cb)
  (.lf 0)))

def aesXorReads71 : BTree :=
  .nd (.nd (.nd (.lf
  0x45431154645501155d4553d16f445549154e45be515ce4573115ca45bd5156245571155a45c3116f845bf916fc45d09171f45d01174c45c79178645c8d172b45c89172145c81170a45dcd175845cc9177245cb9172a45d75173e45cf1173045e1d175c45c2d176945dd9173745cd917594552d154845c59170f45dad173a45cf5173945515154345bfd15c645441151c)
  (.lf
  0x33d88cf6033f24cfa533e8ccfa1340a0cfdf33f04cf6133d78c6d633ec8cfa833e7cd0823421cd08634224d0853422cd08a34234d088341a8d06c3428cd0a234244d0713424cd0923425cd09634264cfe633faccfd333f48cfef34074d00e3409cd02b33ff0d011340a8d010340b4d00333ffcd02f340b8d02933ecccf6539a5ce6723954ce578395c4e56f395dce573))
  (.nd (.lf
  0x11c74470e11c9c472b11bf0471111ca8471011cb4470311bfc472f11cb8472911ac4455103dfc0f7a03dcc0f8303de40f7503e50100503eb40fed03ef40fdb03e700ff703f300fb603fbc0fbb03ec40fa403f080fb003eb00fbc03ee80fe703f540fe803f500fd203fd40fe003f680fd803fb00fea03fa40fe603fd80ff4040101000041481017041401062040581bb1)
  (.lf 0))) (.nd (.nd (.lf
  0x38070dffe37fd8e76139bbce69f39af4e6b036a68da85369e0e6b139a3cceea38074dfa137d54e6c9399b8e02e380a0e02636cc4db2f36cb4e6f339b64e6cf3a4c8e8f23a3b8e02937dfccf0e367b4d9eb36790d9e23471ce93339adce68136b30daa036a6ce8f333ce0cee439cd0e72c39ca8da3c3687cd1bd39cb4e66f33b78da3d36858d9f73dfbcd9e53678ce16c)
  (.lf
  0x13e484f7a13c484f0d13c244f6613b2c4ec913f204fb013da04f0813b3c4ecc13c304ec8138644f63138684f7313d904f131386c4e1813f804fb413dec4f7213db04f6213dc04ed013b2850b613cd84ee1139004e26136a4507713c9c4f24142e85094141f84f2f13b804ede13c984e23136a04e37138904e3d138e04e27138944e221434850a6142004e41138f04e36))
  (.nd (.lf
  0x194a465191933064c219238646f199206517194986515191345b6516d8864a3191b0648a191ec648d191b4645f191505b68191ac5b6316d7458591933864851919464551913064461915864501615c651a1947c651e19484651d1948c6522194946520194186508194e465381949c650d198fc663e194ac652a19924648c192446479191e064951930c64b41933464d1)
  (.lf 0)))

def aesXorReads72 : BTree :=
  .nd (.nd (.nd (.lf
  0xa9481f091cfcc2036074ec765d0810074f3081f81d0b1cffc2024074647403082a81cf31ce7420580760c742f081301d671d1dc206e0749469b307a0c150d1b4741e8d0548c6db508954224f1a8241e73053dc69d108844220f1a6541e9d0553c6d5707a4c15391a40422b108aac6d39093fc24f91bf64250d0941c6fc90931c24c11a7bc24db0935469bf0929c24a1)
  (.lf
  0xd95c36230d864360c0d8a836180d85036240d888364f0d8f436500d8f0363a0d97436480d90836400d95036520d944364e0d978365c0d9b036680dae8367f0dae036ca0d9f838890da7838880da3436870da9036860e23036d80da44388a0da40368c0da7436b60dad038900da7c369c0da9436a90dacc36ae0dac836d90d8c436260d98c36600daf836ab0daf436b5))
  (.nd (.lf
  0x41c6cfdac3f6c5071a3f6c101933f6dcfdaf41c3d071941c38fd1f3f08cfc053eeb0fb9b3f314fcb33efb4fcc64080d01a94074cfd63406d4fc3c4076501c64069101df3f335019f3f35101a840699019e3f588fccc4074501b14073901c4406c101d7406f901b6406d101d24074101cf4073101d8407590202407d1026640935022240931024a4083d020c40865020e)
  (.lf
  0x26a189a7c2a2b09a4c269108eb8235088d322320c871421c4c8e792349886bb23af08e9623a008d28232248c8221c4886f321ae88d2321bd08d2d23490871521bd486f223b508ea823a088d33234b08d2223a108e78239d890b0234408d002325c871c21c6c9071233d086c3242d0908e241e08cf6232748c9621c6886ed21b088cf121bb88cfb233c8871d21bbc86ec)))
  (.nd (.nd (.lf
  0x22a408990225009050233808ec0237408ef0233c08bd022c808ae0233408950223c088d024c008e70231408af022980898022c0089a0222c097c0260409800260c097f0261409840261c0982025a0096a02654099402624096f06ba41ae802634098c06b8c08ee023cc08db0236808f7024940916024bc0933024100919024c80918024d4090b0241c0937024d80931)
  (.lf
  0x3a208e8643a1b4e86a3a1cce8773a204e87c3a200e8b73a228e85339fd4e7ea3a09ce8243a248e8793a244e88339fc4e7ef3a0b4e7ec39f68e7e03a094e7e33a014e7ff3a194e85b3a05ce7f93a268e88b39ef0e6e33a0bce7ed3a034e7db3a0e0e82e3a294e8893a0c8e82839fd0e74d3a2a0e8873a270e88539efce7bb39e90e80939d28e7f039f84e7f339d2ce7c6))
  (.nd (.lf
  0x1ae9c6b9f1ac6c6b191ad4c6b0a1ac086a7c1ad2c6b131acac6b251b3b46ce51acf46b1f1b3dc6bb21abd86a631ad546b0b1accc6b031ad786b541aee46ba51ad606b4e1ac306a771b3986ba31aed86ba11abe46af51abc86b2f1a9d06b1a1a9f46b1d1a9d46a6b1a8e86a381abcc6a731a9746a5b1ad686b091abd06a6f1a8e46a361a9906a5e1a9646ba61aeac6baa)
  (.lf 0)))

def aesXorReads73 : BTree :=
  .nd (.nd (.nd (.lf
  0x37e3445160fcacdf81122583fc13800445100fcd4e039114183f3938ad448520fe9cdff1103e0356b37f2440d40d5d4df9310340372137e6440ca0d564e1431039037513868440ea0d654e04f10370e171103b03737369a438490db8cdb330e14c370536bd4391b0e42cda210e0dc36d13682c39710e5acda830e18c36fb36acc385f0dbbcdac30e43438af3697c3dab)
  (.lf
  0x3753cdd4b37520dd8537160dd703718cdd7337164dc4f36ab0da7e37524dc57370fcdc3d376c0dd5f37528dc5337118daad370ecdaae36aa8de0837834de0c3783cde0b37844de103784cde0e377c8ddf437894de2437854ddf93785cde163786cde1a37874dd7237594dc6137180dd7737694dd96376bcddb337610dd99376c8dd98376d4dd8b3761cddb7376d8ddb1))
  (.nd (.lf
  0x263d8993326450990a264bc98f52641498ec2644099082641098f4263c8994b2650c994a264a0992426534996e26588995026508992c264a89929265309932265609956266f09947266d899b82651899c22666c99a72667c999a2671899a6266a0997b265d0999e26670997a2661499b2266b099a22670c99842671c9989266ac998e266a899752646c98fc264ec9934)
  (.lf
  0x1e2f87ae21f1007a941eae07a741e2d079661eb907d6c1f108791c1fc207ef81e3f0775e1e558805c1fb10791e1fca87ef01e40077701e52880961fb187f0c1fd387ed0274809d1a202489d261fab07f3c1fb4878f01e4e8793e1fd787eb41e4a8860221dc08628219d0868021f48875021a70869e217c8878a2189085da2192887f421cf086642180087b8218c08610)))
  (.nd (.nd (.lf
  0x26b5c9ac726ae09ab226b209abc263049ce6273c49cf0273bc9ce9273ac9cea273549ce8272f89cc0273e49cf82736c9cc3273749cdc2738c9ce22737c9c30270dc9c39270e09ae1271dc9c662721c9c8b271509c69272289c682723c9c592715c9c8d272309c8926b2498ad296eca35529bcca35126c849b1c26c649af126bbc9b1b26cc89bab26cf49bad26d6c9bb9)
  (.lf
  0x426bd09ae426250988426c508ea423bd08d74235908f3424850912424ad092f424010915424b90914424c509074240d0933424c9092d422ed086146bcd1afd46ba91aed46ba51aff46c891b6d46c4d1b6346c9d1b5d46ce11b7146d311b4246d951b3b46d1d1b0c46d191b4046c491b3a46c991b8f46d4d1b6046d491b5046da51bb646d711b5646e391b7846d891b61))
  (.nd (.lf
  0x184e46138184ec6137184f4613c184fc613a18480612218534614c185046127185b4616c185146144185a460a6182ac60931824860af1837460ce1839c60eb182f060d1183a860d0183b460c3182fc60ef183b860e9181e4607d1b71c6dc21b4846d611b7046d231b7386e3b1b78c6e231b7cc6e111b7506e2d1b8086dec1b8946df11b79c6dda1b7e06de61b7886df2)
  (.lf 0)))

def aesXorReads74 : BTree :=
  .nd (.nd (.nd (.lf
  0x2481c2e4a09dfc91fb0cb802abf2563c2e7e09f4c957b0b9c827bf24c44333a0a97c936b0b3482ccf23d942ce40b37c91af0c0a83019239bc2cb8245ec30760c1c495c10b4302d0724bf42cf80b3d491d70c148303f24af432700870498290ca0821d12634438d0089f492dd0c95821bb24b24395a088a492990cab821d72611432980871c98830e2a8254d260c429f6)
  (.lf
  0x4eb813b004f6c13da04f3c13b5087c421f004f4c13d2087ac133404ce4132104c80133d04dac135c04dd4137904d28135f04de0135e04dec135104d34137d04df0137704bdc12fb0c5fc31790c5d82d1d0c114317b0c62831f30c66c31db0c6ac31c90c13831e50c6e831a40c77431a90c67c31920c6c0319e0c66831aa0c6a031d50c70c31d60c70831c00c78c31ce))
  (.nd (.lf
  0x101a04066101fc409810258407810204407e1021c408b1025440901025040b9100243ffe100ec403810288408d1028440971001440031010440000ffb83ff4100e43ff7100644013101e4406f100ac400d102a8409f0ff243fb61010c4001100843fef101304042102c4409d10278406710118403c100203fe9102d0409b102b040990fed43f9e0fd5c401d0ff984004)
  (.lf
  0x36cd8dafd36becdaf636ec8db8636d34db4436cf8db3436d08dabc36ad8e1f8386b4e194385dce174385c8e1973851ce05038800e1e038740e1ac3869ce1a2385d8e14638514dfcd37e68e17338510dfce37f2cdf9b38870e1d838748e17537f30dfca386a0e196385f8e31638b80e2cc38b28e2bb38adce03f380f4e03a38c68e30238ad8e04738108e00238ae8e03c)))
  (.nd (.nd (.lf
  0x1d42475471d42c74b11d1d074721d48c75031d3fc749d1e738796b1d49074a91d1cc741e1d2a8749e1d26c79da1e9247a481e91c79e71e7a479e81e7f479ea1e7987a2a1e8bc7a2e1e8dc7a2d1e8e47a381e7e479f81e84c75461e5f475071d418754b1e6f4798a1e70c79d11e5d079991e74079981e68479791e5dc79c51e73c79c41d2ac75271a470641618f6868f8)
  (.lf
  0x2d178b46e2d1b0b4992d21cb49a2d218b4842d29cb4922d230b48a2d278b49c2d26cb4982d2a0b4a62d2d8b4b22d438b4c92d430b5222d320b4f22d33cb4db2d34cb4ce2d3e0b4d22d4a8b4e02d37cb4de2d368b4d82d3c4b50a2d420b4ea2d3ccb4f02d3e4b4fd2d41cb5022d418b52b2d440b4d92d1ecb4702d2b4b4aa2d450b4ff2d44cb5092d1dcb4752d2ccb472))
  (.nd (.lf
  0x18b98630418c08632f18c74633018c70631a18cf4632818c88632018cd0633218cc4632e18cf8633c18d30634818e68635f18e6063aa18d7863c918df863c818db4636718e10636618f3063b018dc463ca18dc0636c18df4639618e5063d818dfc637c18e14638918e4c638e18e4863b118c44630618d0c634018e78638b18e74639518c34630b18d24630818bd862fc)
  (.lf 0)))

def aesXorReads75 : BTree :=
  .nd (.nd (.nd (.lf
  0x428790a8f42a390a68429550a8d428d50a61429950a604273d09d3438250e06437c508834386d0e05438510e854387d0e65438d50e6d437e90e4f438f90e304399d0e29438350dfe438b90e1e438310e34438a10e694391d0e68439290e42439f50e7e439e90e6c439910e584392d0e46439f10e4e43a190e8443af90e5543af10ec2439510eee43a550eaf43a510e8d)
  (.lf
  0x39344e4c7390d4e433391c4e43039078e424391a4e42739124e443392a4e49f3916ce43d39368e4cf39004e3fe391cce43139144e41f391f0e4723938ce4cd391d8e46c390e0e41d39398e4cb39378e4c938fd0e18b38624e44d39068e43439094e4373906ce40938f78e3dc39064e3f538fcce3f1391e0e42f39044e3dd38f68e18839008e3f838fbce4d039354e4d4))
  (.nd (.lf
  0x149c0526a14994595c1658459601658c595f1659459641659c596216520594a165d45974165a4594f166045980165b4596c1661458d216314528714a1858d71641458f61643c59131639058f91644858f81645458eb1639c5917164585911149c458b31a91c6a9e1aa6c6be51af846bd91aa986c411afac6c291afc46c171aaa86c331b0206bfc1b0ac6c011aad46aae)
  (.lf
  0x405ad0f6b43cf50f2b43c6d0f1143c3d06bd419e50179405a8f43f3b8890f2a43c4101733d0a90682405e0f44e43e6106473d0f906de418e4f45b41b750688419d4f44f41a8506b841941064641935063b418e106df41b7106db41aa1067f419d11c1740a0cf67b3da2d0afc414bcf6834154105393da550bba4095cf687414c905253d9e905563da14f68241358f6a2)))
  (.nd (.nd (.lf
  0x33ab0ceb333ac8ceb133abccec133b00ce9733a58cec7337b0ce0f336fccdbe337e4ce3733870ce67339acce4433934ce6a33930ce5f3392cce47339bcce6e339a4cdcd3371cc200307f8c1fc34f98d3422efe0c9a631360c52c34ec0d32632830c520314d8c67a31a38c6f631df0c87c31a58bb3c2f088bb402f168bb1a39520d3582ee30bb1b2f9b8bb9e2eca8bc42)
  (.lf
  0x90002210084c021d0086c021600a50027c008f40232008600212008bc0220008680236008440243008dc022e008a4021400ab00280009040234008a00210008f80226008700180005280132004c001110040c010d0042c010600610016c004b401220042001020047c01100042801260040401330049c011e004640104006700170004c40124004600100004b80116))
  (.nd (.lf
  0xa74829bf0a74429c90a504293f0a5f4293c0a4a829300a5d429330a554294f0ba3c2e8d0a59c29490bb0c29da0a41029010a5fc293d0a574292b0a620297e0a77c29cf0a60829780a51029250ba5029cd0a77029cb0a40c22940877c29590a48829400a4c429430a48c29150a42822360a484229508a4c22910a610293b0a46c290b0a40828fc0a430290608a3c29d0)
  (.lf 0)))

def aesXorReads76 : BTree :=
  .nd (.nd (.nd (.lf
  0xdbe832b93185436ee0ca8cc8970e2cc38ae3198c3da40f684cf9b0f7583dc331c3c43e40f55ccf510f5b03d6733d5c43cc0f4fcc6450fc983e2931b4c3df20f7bcc60f10fc03d89343343f4e0bf14c77f0fcf02fcf31b043f8e0cc44c87f0fca02fb331a643fbe0cbacc6ed0fcc02fe331b943f2e0bf64cf6d0fe90333f31e1c35680d10cc7070d5c8344d31c5c371e)
  (.lf
  0x37d1cdf1137a2cde8737b74de9837a08d68e37b3cd69137b64deab37cecdf2f37ac4de8d37ca4df1c35a58d3b737c7cde8337aa4de9937c78def037c6cdf1937b80dec837a5cde9237cc0df1737c54df1235a48d4153503cdea337a40de8635a3cde9137a24de76379c8de7135a4cd68935a0cd67f37ba8de81379ccd68d35788d414379d0d67d359d8df4637d34df4c))
  (.nd (.lf
  0x3cd90f32e3cca8f30b3cd08f3403ccc0f3133cc28f3193cc3cf3443cce4f3383dae4f35a3ccbcf2b53ca88f2d23cb44f34a3cc44f3413ccecf2a93ca44f2ff3cae8f2a43caa8f2d33cab4f2e93cafcf3673ccc4f2cb3ca4cf36e3cd6cf2843ca0cf3073ca94f2ef3caecf3063cc00f3593cd44f2f23cb50f2b93cad0f3683cd3cf3463cd0cf26c3c8f4f23b3cc7cf2b2)
  (.lf
  0x2aec0ab842acf0aae62a9c8aa3f2ad20aaec2aa68c2b830a18c24b308f0aad52a9c0c26430924aad730af0c2a430998c2552ab68aad43093cc24a30920c26e30984c26f30988c24e308e4aa7130b50c2a830980c23d308e0c236309b0c2562ab58aca62b1c0ac4f2aab8aa402a80cac4d2abdcaaf42b2a8ac922b17caafe2aaa8aa022b15cac4e2b130aaa72a9e8ac56)))
  (.nd (.nd (.lf
  0x14878521f139304e4d137e058a114c90532514b54517d07ba01ee907b9c1b0406c284ed813b641ee207b8c556314ac852b313a1c4e7514d18534714b2052c9135c84d7307b501b2214a9c4e6a139ac52fd14bac1ec407b144de606ca81b2407b081b2606c9c4de915960565914ab41a8606a1c4d8806a104e0006a0c533914c48531314b0052c114d88536314a7c4efb)
  (.lf
  0x329f4ca74328c4ca2c329f8c9ae326b4cb4832d34cb4c32d3ccb4b32d44cb5032d4ccb4e32cc8cb3432d94cb6432d54cb3932d5ccb5632d6ccb5a32d74caae32accca9b32a68cab732b94cad632bbccaf332b10cad932bc8cad832bd4cacb32b1ccaf732bd8caf1329fcca8332dd4cb7f32de0ca4532df4cb8132e30cbf932e84cbe132ec4cbcf32e48cbeb32f00cbaa))
  (.nd (.lf
  0x119dc4673119e44678119ec467611970465e11a244688119f446631205c481611a0446801206445e21179c45cf1173845eb11864460a1188c4627117e0460d11898460c118a445ff117ec462b118a84625116b44557155dc557214cbc52df155c45331155f855eb1564c55d31568c55c11561055dd156c8559c1575455a11565c558a156a055961564855a21568055cd)
  (.lf 0)))

def aesXorReads77 : BTree :=
  .nd (.nd (.nd (.lf
  0x4376d0dd5437590da5436090d72434110bf94374d0dce437350dca433cd0ce742e110d4b42fd90d1f434610d3142fdd0cec433810bf5433750ba142e150b83436110d174340d0cf2433b90ced433e10b8142cc90db64370d0dc2437050db9436ed0dba437950db8436410d924366d0d9a4372d0d95437850de0437750ddc4373d0d304341d0d1d434710d0d435cd0d2e)
  (.lf
  0x2f1c4bc6d2f1e8bce72f1fcbccf2f27cbcbd2f208bcd92f2b8bc982f344bc9d2f24cbc8a2f290bc922f1f8bc9e2f270bcc92f2dcbcca2f2d8bcb42f35cbcc22f2f0bcba2f338bccc2f32cbcc82f360bcd62f398bce22f4f8bcf92f4f0bd522f3e0bd222f3fcbd0b2f40cbcfe2f4a0bd022f568bd102f43cbd0e2f428bd082f484bd3a2f4e0bd1a2f48cbd202f4a4bd2d))
  (.nd (.lf
  0x200d88023200d4802d1fe947fa31ff847fa01fe387f941ff647f971fee47fb3209e482771ff2c7fad20a24803e1fdb47f6a1ff8c7fa11ff047f8f1ffb07fe22010c80331ff987fdc1fea07f89209e8803120100802f1fd987f431fb647fbd1fe187fa41fe547fa71fe1c7f791fd207edc1fe147f671fd947f631ffa07f9f1fdfc7f701fd247f421fd847f4a1fd108034)
  (.lf
  0x2ef04baeb2eedcbb152ec4cbf7c2ec30bb0b2ee00bb202d8a8bb352eba8b6312eca4bb122d954bb7f2ec28b61e34da8d8e035750d35a34cb8d31634e78d3de34e20d43835070d37034d10d3c034fa0d3d434de8d43034d78e54a39500d3bc39588d35034d20d38235028d2e634cc8d32034ec8d3d631cc0c72431bd0c63e31a80c71631c18c78633db0c6e431bb0c698)))
  (.nd (.nd (.lf
  0x29c90a71129c0ca6fe29c48a69a2995ca8d42a364a8d82a374a8d72a39ca8e62a3fca8dc2a160a85a2a3aca8ea2a3d4a8e92a3dca8f62a41ca9062a3c4a76a29dbca76729d98a7372a09ca8102a0d4a84f2a2e8a8cb2a328a84e2a0f4a8c92a2f4a8bf2a2f8a83729c4ca7152a8d0ab3829a40b3762cbc8b3042aa88aa6c2cee0b3522cd80b1082c408b1842e1c8b152)
  (.lf
  0x299c4a5b226f689a0025f7497d92694097c825f106d541a384642319a94641c15ed0a60029770a0db29718a358283906bd41905c64141a4f46411190386d151a6c0642d1b6b4669b190a48d4f21b5083b72332483af1c8848ca82132483a720eac839a18628957324e4893911fae479281c8ec72321c8c4722e1fb9478ec1c8bc5cdb17114599d18184599615f549373))
  (.nd (.lf
  0x235148d3e23a808e88235108e9e23a388ec123abc8ec223ab88eac23b3c8eba23ad08eb223b188ec423b0c8ec023b408ece23b788eda23cb08ef123ca88f3c23bc0926123c40926023bfc8ef923c588ef8249d08f4423c0c926a23c088efe23c3c8f2823c98926c23c448f0e23c5c8f1b23c948f2023c908f4523a548e9023b548ed223cc08f1d23cbc8f2723a8c8ea1)
  (.lf 0)))

def aesXorReads78 : BTree :=
  .nd (.nd (.nd (.lf
  0x132344263450ec439f0f6d51ae510e843de3451a447e7115ed1af710edc3d7d46b7c453b114e513cb10ecc3f5f452d443af0f85d140511f1446974514447c911e75157d11f4c47b5454c44883120b515e311f2c47b3450844ae31226d14af11f1c47a9455ac47df11e65143d12204485544f8c4ae5451cc4ae74563c4ca112d7d13c512c3d13cd12cfd14a712bb4499f)
  (.lf
  0x3c180f05e3c380f0c93c378f0e23c320f09e3c20cf08d3c208f0793c250f0783c774f0ac3c2a0f1dc3c240f08c3c264f0dc3c2c8f0c03c27cf0983c254f09d3c340f0b13c2c0f0a93c3b8f0913a4bce9083c310f0573c350f0cb3c2d4f0b33c0c4e9213c17cf03c3c0e0f02e3c314f03b3c12cf0453c304f0ad3c144f0333c778f0ef3a458e7733c18cf0393c1f4f03d))
  (.nd (.lf
  0xab482ace0ab842aa70aa8c2a990ad102afb0ab3c2acc0aaa02aa50ab402ac60aa5c2b9c0ae842ba00ae8c2b9f0ae942ba40ae9c2ba20ae182b880aee42bb80aea42b8d0aeac2baa0aebc2bae0aec42b020ac1c2aef0abb82b0b0ace42b2a0ad0c2b470ac602b2d0ad182b2c0ad242b1f0ac6c2b4b0ad282b450ab442ad50eda43b630ed8038750e51c3b650edd03bdd)
  (.lf
  0x426f908714207109d6421c9086f4207507a1428f90a0c421d90870421b9086d4274909c241f810e70438610df6437d50df2437bd09ee4212d082f439d90e3c437d109ea422010831437b90833420b908a44228d0df3427a108a5420c907d1439710e32437dd08a24220907d043811086642129090242341080341f7107b941df908ae4215d08014241908ee422c1085c)))
  (.nd (.nd (.lf
  0x1fc48807d201e48073201bc81e42063c80771fc4c7f0e1fbf0806d20198806020910824d2093082592092c825b20968825f20960822020888822720898822920894824320908824920920823b2023081a52020480802022481f92071881e32079c81b42072481e6207208215206e481b7207ac81ea2079480611fc5c86401e9487a2023330872221c8078e21e37078da)
  (.lf
  0x2dad4b6af2dc54b70b2db1cb6a92dd18b73b2d9a8b6432db7cb69d2daf4b68b2dba0b6de2dd34b7392db88b6d82da90b6892dd40b7372dd20b7352d9b4b6692d998b6b92da18b6a02da44b6a32da1cb6742d9c0b6632da14b6672d97cb40b2db90b69b2d9c4b6682d944b63e2d9c8b6442cf24b73c2dd04b7402dd0cb73f2dd14b7442dd1cb7422dc98b7282dd64b758))
  (.nd (.lf
  0x7ef41f7c07da81f7007ed41f7307e541f8f081dc206907e9c1f890829c201a07d141f3407efc1f7d07e741f6b07f201fbe0807c200f07f081fb807e101f65081a8200d08070200b07ca41f22060341f9907d881f8007dc41f8307d8c1f5907d481f4e07d841f2307c841f1b07f101f7b07d3c1f4c07cc41f2807d401f4607c6420100805420140805c2013080642018)
  (.lf 0)))

def aesXorReads79 : BTree :=
  .nd (.nd (.nd (.lf
  0xb5c02d100bb802d006998031a00b6c1a5e00b6802d600b9c030000bf81a6000ba402e600bbc02f300bf402f800bf0031b009ec027000ab402aa00c2002f500c1c02ff009dc027500acc027200980026600aac026900a2c02850699c1a6100a74027f0696c0310008b4022a00ad4027300a4c026100af802b400c54030500ae002ae009e8025b069a0030300c480301)
  (.lf
  0x30ad8c2cb30b90c2ca30b9cc2bd30ae4c2e930ba0c2e3309c4c25737f48cf1d37fe8cf1537ca8cf0b2f5dcbd722f0acbc292f5c4bc2d2f5f8bdeb2f64cbdd32f68cbdc12f610bddd2f6c8bd9c2f754bda12f65cbd8a2f6a0bd962f648bda22f680bdcd2f6ecbdce2f6e8bdb82f76cbdc62f700bdbe2f748bdd02f73cbdcc2f770bdda2f7a8bde62f908bdfd2f900be56))
  (.nd (.lf
  0x963825e9096f825a80978425ad0968c2596096d025a20967825ae096b025d90971c25da0971825c40979c25d20973025ca0977825dc0976c25d8097a025e6097d825f2099102609099082654098202a39098a02a380985c2611098b826100a8f0265a0986c2a3a0986826160989c2640098f82a40098a42626098bc2633098f42638098f0265b096ec25b0097b425ea)
  (.lf 0))) (.nd (.nd (.lf
  0x374dcde5137940dd2337488de5737248dca136c8cdb2237274dcf5372a0dce7373acdcde37424dd08373a8dccb3741cdce1373e4dcf8373a4db1336ba4e1b338630e17d3874ce1bb385fce190388ace1e538824e1dd387d4e1be3886ce1da38758e20b38724e1b7385e8e1e438738e1b638770e1c83881ce1ed38838e1ee387b0e215387f8e1f4387c8e20f38820e206)
  (.lf
  0x1af606b301a9d86a661a8d4697b1a5086af11a96869791acd06b0e1abe06a5c1a8ec6a341a5f4697a1a5e06a571a5286a611a960697c1a52c69431ad306b201abe86a671a9806a561abf06af01abb8842820fc883de20f7083cd20f246cb41ab7c6a1f210b0841420f206cb61ab806a2120f306a8b1a8786cb11aa3083df1b2f46cb21aa346a8a21110841820f746cbc))
  (.nd (.lf
  0x1a03c67ff19fd867f01a00067fa1387c68c41a32468c81a32c68c71a33468cc1a33c68ca1a2c068b21a37468dc1a34468b71a69469a41a35468d41a6ac68361a0ec68231a088683f1a1b4685e1a1dc687b1a13068611a1e868601a1f468531a13c687f1a1f868791a004505d13c2c4f7613dbc4f6d13dd44f7113df84feb13e0c4fd313e8c4fc113e184fdd13ec84f9c)
  (.lf 0)))

def aesXorReads80 : BTree :=
  .nd (.nd (.nd (.lf
  0x380c00f7037dc00f5038c400f30387c00f106f9400ef0468400ed046b400eb0702400e9045e400e706f6c00e50465400e30462c00e105a5400df05b3c00dd05bac00db0598c00d905a2400d7059ec00d505ad400d305aac00d108a8400cf054bc00cd0551400cb087e400c9053b400c70891400c50546400c30541c00c10383800bf038f000bd0391800bb0378000b9)
  (.lf
  0x2c184b01f2c104b03b2c4ccb1232c14cb0352c5ccb0c62bfc4afde2c1acb0292c124b0172c1d0b06a2c354b0bb2c1b8b0642c0c0b0112c490b0b92c348b0b72bf609a3d268ecb0452c038b02c2c074b02f2c03cb0052bff8affa2c034afd92bf5cafd52c1c0b0272bfecaff82bf949a3a2bff0aff22bf4cb0bc2c304b0c02c30cb0bf2c314b0c42c31cb0c22c2a0b0aa))
  (.nd (.lf
  0x3b438ed2f3b4b0ed223b520ed2e3b3ccecef3b4d4ed383b484ed203b474ed583b51cecc03b29cecff3b3d8ed373b498ed253b48cec993b24cece13b308ec8c3b1f0ecf73b1fcecc73b2aced4f3b524ecb93b26ced5c3b564ec813ac20ece33b30cecc93b234ece83b388ed613b55ced063b400eca63b224ed553b540ed3e3b4b4ec463ac1ceb053b33cec863b248ec7d)
  (.lf
  0x1eb3c7aa41ec647aca1ea987d6f1ec707d7f1f5c07b1f1ec747b181f7b07dc01f61c7d7e1f5e07d6e1f5f07d2a1f49081b62069880641fbec79581e48c80781fc447f0b206e081a4201b87f1a1fc547efa1fc40795d1e488805f1e5688191201b0795c1e56c795920768819020220806820194805e206287f161fc2880fa2032080b01fbcc79501e484809c1fcbc7f2d)))
  (.nd (.nd (.lf
  0x1a60070901ac406f101b0406df01a8006fb01b4006ba01bcc06bf01ad406a801b1806b401ac006c001af806eb01b6406ec01b6006d601be406e401b7806dc01bc006ee01bb406ea01be806f801c20070401d58071b01d50076601c681a9f01ce81a9e01ca4072301d00072206a88076c01cb41aa001cb0072801ce4075201d401aac01cec073801d04074501d3c074a)
  (.lf
  0x38af8e2b838b20e2c237f04e39838e74e39c38e7ce39b38e84e3a038e8ce39e38e08e38438ee4e3b838e94e38938e9ce3a638eb4e3ac38ebce2fe38c0ce2eb38ba8e30738cd4e32638cfce34338c50e32938d08e32838d14e31b38c5ce34738d18e34138b24e04936be4db4836d04db3f36d1cdb4336d40dbbd36d54dba536dd4db9336d60dbaf36e10db6e36e9cdb73))
  (.nd (.lf
  0x22e708b9e22f2c8bca22efc8ba322fe48bf822f0c8bc222ff48b2222c9c8b0f22c388b2b22d648b4a22d8c8b6722ce08b4d22d988b4c22da48b3f22cec8b6b22da88b6522bbc87c72686c97c925fc48c511e9e47af61ebcc7c511f1347c451ebf87cad1f15c7c951f1747c831ec087c9f1f1d07c681f25c7c6d1ec347b061f1b87c561ec307c6c1f1707c8f1f1f47c90)
  (.lf 0)))

def aesXorReads81 : BTree :=
  .nd (.nd (.nd (.lf
  0x11484e8d91273848ab1228848a03aa7448fe1239848b312180484611eb045283a7ec48a11224047a21149ce961123e848c41228c4876121a8486112170ea43126d0415a10538414c3a81c49a8106a8417e10560412f104a0411e3a5c44b62104a4412010440410710414eb1f12728411f10410e8c712cc0411110438410c3aa3c49c410648416c1055841241045c4102)
  (.lf
  0x3fcb1002d3ff6cffe73fe8d000f3ff20fff93ff30ffaa3ffacffa73fe4cff323ff68ffa83fe48ffa63fe88ffed3ff84fff23ff88ffe03ffdd000e4002900083ffccffec3ffa0ffe63ffe0fff6400b1001e40259000340211009e40009002e400ad003b400cd002a401a9003240149004d40111004c400f9003a40165008240201004040161002f401ad005d401810049))
  (.nd (.lf
  0x35dc0d350355c0d51036dc0dad035a40d4b037c00ddd033e40cf6036040d3f0357c0d2d036280d80037fc0ddb037700da5036100d7a035180d27038280dd9037c80dd7033fc0cef033a80d5b034900d42034cc0d45034940d13034200d040348c0ceb033940ce3036180d3d0346c0d05033f00cee034180cf0033840de6037ac0dea037b40de9037bc0dee037c40dec)
  (.lf
  0x18fc063db1a46c63d318f00691218fb463e21a7f068f21b510699a1a41069de1bea06d321a7d068f61b640698a1a3b069d61ba986d2a1a7186d7c1b5d069be1a7b86fc81bf606d381a4006d561a65069d01a8206db41b47069b21d1d8742e1ce7074021cff874f21d97073f21cf8074541d04873a41ce2873b41d31875121cfa0746e1d06873961cdf073bc1d258751c)))
  (.nd (.nd (.lf
  0x29308a4b429280a4da292f0a5092933ca50e293b8a4ce2944ca4f029390a4e22943ca508293f8a4fc29478a512294c8a51629968a52f298b8a630294b8a55f294c0a56b29578a55b295b8a56a29588a557294f0a56029568a5562950ca57e295f0a56429508a531295bca5472954ca54a29548a53d29970a561293aca4dc29498a521295c8a549295f4a5712930ca4bf)
  (.lf
  0x68681a2c067804d27068004d26067bc19e90681819e8134e01a3a067cc4d28067c819ee067fc1a18068584d2a0680419fe0681c1a0b068541a10068501a3b0664c19880671419c2068801a0d0687c1a170663c198d0672c198a065e0197e0670c19810668c199d134e44d2b066d419971354c1a2806514194206734198b066ac19790675819cc068b41a1d0674019c6))
  (.nd (.lf
  0x2222c88882226088962229888a2223d088b9223c88904222e08c11223608c102231c88c12237888c023060890c2232c8c122232888c62235c88f0223b88c142236488d62237c88e3223b488e8223b0890d221ac886022274889a223e088e5223dc88ef2219c88652228c88622214088562226c8859221ec8875230648c1522234886f230a48900220cc8830222948863)
  (.lf 0)))

def aesXorReads82 : BTree :=
  .nd (.nd (.nd (.lf
  0xe5a0a6f70f2f03ca40f1c439000e3f832c20cae8a7090f17c38e00caa432a4299a43cb80f2083c610e40438f80e2e038b6297d43da20bb802ed40a848c5410f7102f420bc582ebc0ba8c2a200a818a5990f5602ed60bb042ebd0baec2eac2992c3d680bae82a0730e8c3d400bb5c2ece0bb30a5b50f8a82f2a0bc482edf0bab82e9e0a878a6810f7c02ecd0bad82a13)
  (.lf
  0x1e0c0784a1dfb078161dfcc77ff1dfdc77f21e07077f61e1b078041e00c78021dff877fc1e054782e1e0b0780e1e05c78141e07478211e0ac78261e0a8786d1e0d077fd1de44778c1df4477ce1e0e878231e0e4782d1de7c779d1df5c778e1de1874ee1df3c77971debc77a91e03c78051df0477a31e10878351dde874d51df64778f1dedc77871df8877d81e12c7833))
  (.nd (.lf
  0x84d020eb082fc20bc0828c209c0830020b608244218c0864421900864c218f0865421940865c2192085d82178086a421a808664217d0866c219a0867c219e0868420f2083dc20df0837820fb084a4211a084cc213708420211d084d8211c084e4210f0842c213b084e821350830420c50762c1d5a075541d930763c1d57075b81e03076ac1deb076ec1dd9076881df5)
  (.lf
  0x39b84e7a339d0ce7403a038e7f639f1ce7be39ed8e7b439d08e6e039ab4e6d639b4ce6e939b5ce6d439ab0e6ab3a098e7fa39f00e6e739b48e6aa39f20e7a239e80d83635f8cd65635928d6283589cd66135908d62d360e8d82235fccd7ea35f88d7e0358b0d6263563cd63f35728d64735900d6293572cd58e36148d82635fb0d64b35918d63e35fd0d66035978f9c6)))
  (.nd (.nd (.lf
  0x1664459881b4586a021a72869af1746c5c6c171a875191cf307488199e46bd31a5706ae919f4c63d21ab20694d1a4cc75171d19c5cd1171545c44174c45cee1667c57e015da057661d11073ef1cf9469f01a79c69e51b4bc68e3199606adb1a73c69ce19a7869931a6486d551a3fc68fe1b4dc6fc31bf086fc71a7b469ec1b5cc693f1a4f86d791b5e069c51b4a469d5)
  (.lf
  0x2e6f0b9ab2e350b8d12e53cb90d2e4b4b8fb2e560b94e2e70cb9a92e548b9482e450b8f52e720b9a72e6f8b9a52e34cb87e2e174b9292e3c8b9102e404b9132e3ccb8e52e368b75e2e3c4b87f2e1f4b87b2e550b90b2e3acb8db2e348b8cc2e370b8d62e1e4b9b22e6dcb9b62e6e4b9b52e6ecb9ba2e6f4b9b82e658b9982e744b9d02e6fcb99d2e704b9c02e714b9c4))
  (.nd (.lf
  0x178545dd3177cc5dc1178785e14179d45e65178605e0e177685dbf185505e63179c85e611768c5d9f176705def176f05dd61771c5dd9176f45daa176985d99176ec5d9d176545d4b178685dd11769c5d9e1756c5cf6176a05d4c175245e66179ac5e6a179b45e69179bc5e6e179c45e6c179485e54179fc5e7e179cc5e591856c615a179dc5e76185545dd8177745dc5)
  (.lf 0)))

def aesXorReads83 : BTree :=
  .nd (.nd (.nd (.lf
  0x44b5912b944bc512db44c3112a744a9912dd44945122e44a49128d44c49130b44bcd12ab449cd124744ac5125844959123644a4d123f4498d126144c0512c9449ed127544ba512e64490111fb44aed1257449a5125944ae912b244c1d12e544ba112c744a69128e44941124f44b8d12ca44c6912af448e5122244885126d449311246448dd124d44925124b448991216)
  (.lf
  0x3e364f8d83e35cf8d53e494f9243e414f9043e3bcf8443e13cf83b3e0e8f8333e1a4f8783e24cf8973e210f8b13e2c0f8963e324f88b3e21cf89d3e270f8953e03cf8033f0c4fbc03eef4fc9b3f214fbe73f1c113533f22513353f205136d3f0d9137b44cb0fc9e44cdcfc7d44c9cfc6644c98fc883f1f8fc803f1f1134544ce5134444cf1133044d3d136c44d311348))
  (.nd (.lf
  0x17b585ed417ba05ee617b945ee217bc85ef017c005efc17d385f1317d305f5e17c48605117cc8605017c845f1b17ce05f1a181705f6417c94605417c905f2017cc45f4a17d20605617ccc5f3017ce45f3d17d1c5f4217d185f6517b145eba17bdc5ef417d485f3f17d445f4917b045ebf17bf45ebc17aa85eb017bd45eb317b545ecf18174605717b9c5ec91814c5f5a)
  (.lf
  0x3c364f2163c3f8de2a3c820f1183c734e515378a0f1963c498de2d40b0cef0138a7cfe573bc2ceee33f96cef0738a84fea33bbcce2a73f944fe383bc00fe083bc34ef0a3f850ef133bc18fea63fa50eef23f940fe353f8c0feb93fd04fe463f824fe033f86cfe9d3f9b4fec83f8d0e29e41014ff473f80902c73f91cfe1a3fa70fe703f844fd0c3e984ec193eff4fa9f)))
  (.nd (.nd (.lf
  0x2f054d2e534b90d4003500cd40234e04d34734d18d33d3957ce55e34eece53f394f8d3572f58cbd62350b4d42c34de4d3d334e4cd39234d8cd3623506cd41a350acd38734e18d3dd34e68d39d34e70d315302d8b9e02e778d32b34ca8d4073637cd8de34da4bb182ef94bbe42ebbcbb592ee04bc352fe34bf8c2fdf4bf8a2eda0bbb12eec0be712f9c0bbc32ef08bbc9)
  (.lf
  0x31ba4c22930874c9ef313e8b8b532694c4f53132cd42a30314b9e135004d37f2b98cc7803085cc21531994c2113083cfca53f158fc413f03cfc083efe8d3d234e38c0bb34d3cd31a302d4cc9a331fcca63328d4ca2032868fbd03ef28fbc63ee40fb873ee10bb582ed38b8af2ed50baee2e2acc9ee327a8c9e632724c9b832690c75e31c88c22631bc8c6e030870bc46))
  (.nd (.lf
  0xd53c35350dc6c371a0d54c35520dcc434b40d2e434a10d28034bd0d3ac34dc0d3d434f90d32834df0d3e034de0d3ec34d10d33434fd0d3f034f70d1fc32f30e9c43a6b0e9a0370d0e4e43a6d0e9f03ae50ea343acd0ea743abb0e5103ad70eab03a960eb3c3a9b0ea443a840ea883a900ea303a9c0ea683ac70ead43ac80ead03ab20eb543ac00eae83ab80eb303aca)
  (.lf 0)))

def aesXorReads84 : BTree :=
  .nd (.nd (.nd (.lf
  0x5cd0170505bf016f405bc84f010947816dd05b6416d61369c24e605d2016f505b9816c805a78169d138bc1c260706817e8046a04f61072201c5c070041bfc05fc811b6046704e0f07c581c1c06ff41bf206fc41be306f881b6705f58119d07cf81c1d070501c12070444d9b071c01c58070941bf606fb0180a046d04ec70704c1bf405ff811a913bc41f24071b01c36)
  (.lf
  0x3bbbceeb53bbc4eef03bbf4eefc3bbb4e9d23b8ece9b93a6e0e9cf3b9bcee763ba4cee9f3b938ee793ba78ee783ba14ee553b94cee953ba74ee943a6c4e99d0f1ac3c650f18832c50e4143c670f1d83cdf0f21c3cc70f25c3cb50e5503cd10f2983c900f3243c950f22c3c7e0f2703c8a0f2183c960f2503cc10f2bc3cc20f2b83cac0f33c3cba0f2d03cb20f3183cc4))
  (.nd (.lf
  0x3d64cf5793d5dcf6343d794f5b63d688f5973d604f5983d630f5753d9c0f6a93daa0f6a73d9ccf68f3da38f6753da30f6723da60f6b13dac0f69d3da6cf69f3da78f66f3d9b8f6793d740f5f33d6a4f5a83d764f6413d7e8f6333d8dcf5ec3d96cf65a3d8d8f61d3d964f5ef3d8f4f63c3d8d4f5993d77502ed40b8902dd3ff0502d940b7d02e640d6d02f140d2d02f7)
  (.lf
  0x2d250b47c2d0c0b3f12cfb0b3c22d0d0b3e62ce24b3bf2ce28b4472cf14b3c02ce2cb3882d2b0b4802d114b3ee2cf10b3be2d0f8b3f22cfa0d260348a8d209347b0b40f2ccc0d207347d8b42b34990d24c34864d1f82d0b8b40e34844d20834818d1fc347ccd210347f4d1f4347a4b331349f0d250347c8d1ed347a0d1e634868d20e2d0a8b58c2d568b3fd2ce58b33a)))
  (.nd (.nd (.lf
  0x14aa8529c135744d3706bdc536714ac04de4159584e8413a0852121355c4daf13d6c4f5613d404f47138444e0b1382857f914670519813c584efd13be04e4906f144d4d13b504ebd13aec57fd15fc8588b14a44525f13ae84da2136804d9706d1c1b4113bf04d9613650529006b141abd06a084ebc06dc41ac416110583e160d051aa1469c51a4146f851821373059ae)
  (.lf
  0x323bcc902323b8c8ec3243cc8fa323d0c8f232418c9043240cc90032440c90e32478c91a325d8c931325d0c98a324c0c95a324dcc943324ecc93632580c93a32648c9483251cc94632508c94032564c972325c0c9523256cc95832584c965325bcc96a325b8c993325e0c9413238cc8d832454c912325f0c967325ecc9713237cc8dd3246cc8da32320c8ce3244cc8d1))
  (.nd (.lf
  0x2155c8554215908562215c8856e217008585216f885d22161086132169086122164c858d216a8858c218f085e42165c86342165885922168c85bc216e886362169485a2216ac85af216e485b4216e085e5214dc852c215a485662171085b12170c85bb214cc8531215bc852e2147085222159c85252151c8541218f4863721564853b2185485cc213dc6ad4215c4852f)
  (.lf 0)))

def aesXorReads85 : BTree :=
  .nd (.nd (.nd (.lf
  0x4748d1d10471cd0b5f472751ca5472891c694716d1ca7472d91de1472b51dbb476551df9471b11dc9476791cc0476f51d9b472cd1cb0476711cb2472b11d9a476511dc3476a51dbe476c11da8477751df8476c91dac477091dbf476e91db8477711dc8477911de0478891dcf478811e24477391e42478d51e344785d1df5477d11dea478e91e1b478111e36478691e16)
  (.lf
  0x32138c83932134c84331ed4c7b331fb4c7a431e70c75a31f94c7ad31f14c7bf32094c81b31f5cc7b932158c84b31e40c73931fbcc7a531f34c79d31fe0c7ee32174c84931fc8c7e831e98c75332180c84732160c84531e4cc78f31e30c7c931d40c7b431d6cc7b731d44c74731cf0c72a31e34c74f31c9cc71b31fd0c7a331e38c74b31cf4c73431cf8c73a31c64c84c))
  (.nd (.lf
  0x205f48163209bc826e206048180209a480e22039c80cf2033880eb20464810a2048c8127203e0810d20498810c204a480ff203ec812b204a88125202bc7f391e98c7b3c1ece47b6d1eda47b611ed107bc91edcc7bb11ede47b9f1ed207bbb1ee407b841eecc7b891ed4c7b4c1ee287b721ed487b881ede07bab1ee647bac1ee607b961eee47ba41ee787b9c1eec07bae)
  (.lf
  0x2cba0b3022cd94b2f02cb98b3842cc98b3242cd20b2ec28ff4b30f290f8a43928fbcb32529144a44e2909ca3fc267b099c434784a438290acd1dd290fca3ee2ccb0a45028fd4c39d297e4a583299bca6f229a24a65f29940a643298d4a60d29728a591299d8a5f8283bca6882982ca0ce298d0a330283a8a1052840ca665283b89c1d2706c9bdb29944a0cf2704ca58b)))
  (.nd (.nd (.lf
  0x2cd90b30c2cbecb2ee2cbacb7652c3ecafbe2a714a9be2a6e4aa932a824a21a2976cab352acd0a36e2a78ca9e22ab24a9ff2a7f8aa87308c4c2302a95cc25d30970aac52965ca5962aae4aab82a82caa8f2a994aa642a7aca9ea2ab34aacc2a84ca9c12a700aa952a8b0aa2f2a8b8aa5f2ac90a37228878ab272ac98aabf2a83caa0e2a6eca69230e84c3a0296cca67f)
  (.lf
  0x2aa24aa86308bcaa392a8a0b1e82c320afbc2c788b1d22bed0b3b42ce90b3a02cdf8b3742cdccb65a267b899ed2cf70a42c267a4b86e2dd98afac3032cb1c82bea0986920e348389260f4838b20e04b3a82908ca4023475ca44f29098981a24b34837d2303c839720e55145e4510103f34538114194100515684100d03cd4528d13f73db05149744f2103e5415c5053c))
  (.nd (.lf
  0xe1ec382e0dd64373e0df4c37910dec4377f0df7037d20e0cc38230df5837cc0de6037790e21838210e0c0381f0dcf4372a0d66437ad0ddd837940de1437970dddc376d0dd9837620ddd4372b0dca437270df60378f0dd8c37600dd1c373c0dd90375a0dc9438240e0a438280e0ac38270e0b4382c0e0bc382a0e04038120e11438440e0c438170e20c38820e0d43834)
  (.lf 0)))

def aesXorReads86 : BTree :=
  .nd (.nd (.nd (.lf
  0x42b3447d942aa4488542afc47cd42b544aeb42acc47ef42b1447e142b64488b4661c4b0d465a5198b465e44b114655519854651c4af7465844cb921d3427e8088c021c807ab887db0a158282a09fbc2288087481eb207ab087f709fc4228d08a28228908a00227e21a2c228c086f01ead21a5427de08a2c222c088a887730a0f8282609f682284088bc21d807ac0876f)
  (.lf
  0x3dcd8f7183db68f6d33de40f7653dea8f7633ab5cead33aab0f6f53db40f6e43ac04f6e73db44f6cf3db18f6c43abeceab33aabceaad3dd20f6d93db14eaff3ab60ead63db30ea563a954f7843de7cf79e3de9cf7873df14f7c43dde4f7a63de90f7a83def4f7bc3dec4f7ab3deb4f7ac3ddccf7723de44f6e63db74eadf3ab78f7053dc64f7223dcdcf74b3dbd0f725))
  (.nd (.lf
  0x10b2442bc10b6842c810b1042d410b4842ff10bb4430010bb042ea10c3442f810bc842f010c10430210c0442fe10c38430c10c70431810dd0432f10dc8438810cb8435810cd4434110ce4433410d78433810e40434610d14434410d00433e10d5c437010db8435010d64435610d7c436310db4436810db0439110b8442d610c4c431010de8436510de4436f10b7442db)
  (.lf
  0x471191c44470f91c29470750bb042c1d0b05473611c88470a10baa42d750b56470710bb342c190bac42e751c3f42ec90baf42eb50ba6473e11c804711d0bae42e710b58470810b5e42c111dfc472e91ca1471910b3c415951c91471810b69478211dae472551c6242da90564472811c9b472411c5d42e491c9a471791c5942e4d0b3d477411da0471a11c65471711c58)))
  (.nd (.nd (.lf
  0x21b4c7ec11c7c071e61f0f478ae1ec50725121ce4861821d0485fd1e870873221a6486611f0e47aab1e46479141e44c7f231faf472301b4286cde1b3707a901e33c78c921c34870a21c248e7121834785821d2c86fd21bf083a021abc86ae232a484ad212b08d512355c8d562333c872721c988ca32195c8656231fc8c7e21be4906b21b9486e421afc86be2324c8c92)
  (.lf
  0x30498c143305c4c162305ecc17f30540c165305f8c16430604c1573054cc18330608c17d30424c10d2ac2cad512a9f8ab132ac3cad532b568adc52b57cadad2b5f4ad9b2b588adb72b630ad762b6bcad7b2b5c4ad682b608ad702b578ad7c2b5e8ada72b654ada82b650ad922b6d4ada02b668ad982b6b0adaa2b6a4ada62b6d8adb42b710adc02b870add72b868ae32))
  (.nd (.lf
  0xb50428220a09c280f0a038282b0a164284a0a18c28670a0e0284d0a198284c0a1a4283f0a0ec286b0a1a8286509fb422310cd1c33510cd282e850cd3c33530cd7833cb0cdcc33b30ce0c33a10cd9033bd0ce48337c0ced433810cddc336a0ce2033760cdc833820ce0033ad0ce6c33ae0ce6833980ceec33a60ce80339e0cec833b00cebc33ac0cef033ba0cf2833c6)
  (.lf 0)))

def aesXorReads87 : BTree :=
  .nd (.nd (.nd (.lf
  0x51c010f004240107006a80161004fc0129004800112004a801140041401f6007ec01fa007f401f9007fc01fe0080401fc0078801e40083c020e0080c01e90694c1a520081c0206069340168005b401550055001710067c0190006a401ad005f80193006b00192006bc01850060401b1006c001ab004ac012f462bd1596451e514bd45665147b4568119014630518e7)
  (.lf
  0x33524cd4833510cd423356ccd74335c8cd5433574cd5a3358ccd67335c4cd6c335c0cd9b335e8cd4333394ccda3345ccd14335f8cd69335f4cd7333384ccdf33474ccdc33328ccd033454ccd3333d4ccef33554cd4b3341ccce933618cd7b332a8c9db3347cccdd333f4cccb334a0cd1e33634cd7933488cd1833390ccc933650cd7733620cd75332b4cca933298ccf9))
  (.nd (.lf
  0xf9f43e770fe1c3f850fa3c3e710feec3f020f8d03dd10fa9c3e650fa143e530fac03ea60fc1c3ef70faa83ea00f9b03e050fe803ef50fc103ef30f8dc3e330f7f03e810f8083e680f9643e6b0f80c3e3e0f8e83df90f8b43e010f7f43df50fab03e630f9243e3b0f8c83e300f8f03dca0f7243ef80fbf43efc0fbfc3efb0fc043f000fc0c3efe0fb903ee60fc4c3f12)
  (.lf 0))) (.nd (.nd (.lf
  0x384e8e131384c0e0f1383ace0f8383a8e13c38438e0f3384c8e0f2383c0e14b38480e11e384d0e14a384ece0f93853ce15a383fce0fe3843ce138384cce081381c8e0d43834ce15538460e11f38404e09938254e0df38298e0a438238e0d538244e0bb382ace13d384d4e0c33826ce13938498e09e3816ce0e138294e0b73829ce0ec38380e12938494e10238390e089)
  (.lf
  0x14828587714a3861c1161fc587814a3c528c1889861fa186fc5898161f85876186e0589a16248632618bd062c418a94521b13a9862d218a8c523918ca8631218b5062ad148f0521a18a9c62a418a8862dc18b3c62dd18b4062bf18a984ea718d08631618b3862c518af862bc18b6862ae148e058e614a0852721488c4eb013abc58a7149985247163a858c4162b85268))
  (.nd (.lf
  0x1531054c21539454d01532854c81537054da1536454d61539854e4153d054f015508550715500555215418578d15498578c15454550f154b0550e15e70555a15464579215460551415494553e154f057941549c5524154b45531154ec5536154e8555b152e454ae153ac54e815518553315514553d152d454b3153c454b01527854a4153a454a71532454c315e745795)
  (.lf 0)))

def aesXorReads88 : BTree :=
  .nd (.nd (.nd (.lf
  0x7cac1f1e0603817f41a4ac2a7607d281f2f07c7c1f1d07c6067d109dd81f1c05fd469630aae01f4b07d081f401a90c27ca07e781f8607d4c1f2607c68180c19f8c27b807d041f200600469210a9601f9a07d901f4307cb81f2a07c9c6951080e81d9a075c01d561ab3c2044077e01dcc076481d5d075601d501ab0c2088075641d52074ac1d1d0743884d9080a01d51)
  (.lf
  0x174245f7c17de05d0317dac5d611741c5cff17fa85fa117e1c5f7917dc05f6e17de85cc0172fc6036180ec603a180f46039180fc603e18104603c1808860241813c604e1810c6029185f4617c1811c6046185dc5fa817eb45f9517e505fb117f7c5fd017fa45fed17ef85fd317fb05fd217fbc5fc517f045ff117fc05feb17dec5f7f22b048abe227bc89ea21d5487a9))
  (.nd (.lf
  0x402d50f2943c20fcf83f13500f53f5d500c53f5dd00f4403b90f0b43c1d011040420fd4c3f4150f05405a101744059cfcf73f3b4fcea40334fd023f52cfd403f50cfd033f3c8fcee3f39cfd013f3f4fceb3f03501243f51cfcf33f3b0fc943f24cfcf43f138fbe1405390153405490155405450157405590f09405510134404e9013f404f90175404f50177405d90f0d)
  (.lf
  0x2575495cc2571095c224c0091d8246d491b623d9c91e1246dc91b4246cc91b0258d096082573891df246c88f6625758936e24db0975425644958c24e18931424c4c9587255f8957d25d7096f425bac96ba256609590256189312247f4937b24820938124df893152482491fc25c2096c425af0938724e00937a25bb0957c24e30940224f40935e24c88932124c7493ad)))
  (.nd (.nd (.lf
  0x28b80a2c028f00a3802a280a4f02a200a9a029381aff029b81afe029740a57029d00a5606c500aa0029841b0c029800a5c029b40a8602a101b0e029bc0a6c029d40a7902a0c0a7e02a080aa10280409f6028cc0a3002a380a7b02a340a85027f409fb028e409f80279809ec028c409ef028440a0b06c541b0f0288c0a0506c040a96026cc09b0028ec09f90286409e7)
  (.lf
  0x35308d4a835314d49b3525cd4c735318d4c13513cd4533c3e4d7aa35804d5b9356b0d6b535ac4d66b35aa0d72735b04d70f35b7cd6fd35810d71935bb8d6d835c44d6dd35b4cd6ca35b90d6d235b00d6de35b70d70935bdcd70a35bd8d6f435c5cd70235bf0d6fa35c38d70c35c2cd70835c60d71635c98d72235df8d73935df0d79235ce0d76235cfcd74b35d0cd73e))
  (.nd (.lf
  0x1057c419d10594418b104d841a7105f041701067c417510504413a105d8415e10500417410590419710614419810610418210694419010628418810670419a1066441961069841a4106d041b01080841c71080042121071842591079842581075441cf107b041ce10970421810764425a1076041d41079441fe107f0426e1079c41e4107b441f1107ec41f6107e84219)
  (.lf 0)))

def aesXorReads89 : BTree :=
  .nd (.nd (.nd (.lf
  0x1106844181100443f73568445240ff603fcc0fd50d7c711478403a100383faf0fe703f580fd08d551120c83fce0feac3f9d0fe583f9535f3c451a0fe503f433566c489e0ff3c3fc60ff10d7b1114504022100283fd70feb03f9a0fd58d60d114283fc50fe603f553e53c485a100783fe80ff1c3fae0feb43faa35974414a0dda0375c0d630d63d1047037ca0de783741)
  (.lf
  0x3b0d8ebb33b0c8ec343aec8ebe33af68ebef3af88ebdf3afb8ebd23b008ec013aff0ec003af90ebde3af9cec143b030ebf43af98ebdb3af4cebeb3b02cec063b028ebfd3b0e8ebe53ad74eb4a3aed4ebac3b070ebed3b04cec0d3ae2ceb693af34eb7a3ade0eb703aeb4eb733ae74eb7f3b00cebf53ae24eb6b3b0f0ec3b3ad4ceb4e3af3ceb793ae94eb7b3af50ebce))
  (.nd (.lf
  0x2c898b2382c87cb23b2c89cb2252c7f09a202c82c9aa526a7c9a9d2cad8b2472c874b2102c800b1fd2c830b1fe26a6cb2ba2cd04b3402ccfcb2cd2cb3cb2ce2cb94b2d02cb30b31a2cc7cb31e2cc84b31d2cc8cb3222cb84b2e02cb6cb23a2c964b2172c858b2432ca6cb2882ca74b2bf2c940b2912caf8b2902c9b4b2552c94cb29f2cadcb29e2c7fc9a25256549382)
  (.lf
  0x268c0afea2454892342bf389a02291709a42268f8925a245009a70269e899fa21c2c86d11e15c86ac1e18c78372181478591c6f086df1e12471bd21c3878611e1588c911e138783621c8478511e13c86e21e19c784821c1c84aa1e18086f721ad4618b21aa878501857086dd1c874615d21c1886f821b4084c821ad087232181084b72333886dc21b6478c71e2b47893)))
  (.nd (.nd (.lf
  0x28ba4a2fa28bd8a32828ba0a2e728c34a2ed28bd4a2f028bd0a2dd28c8ca320288bca22a28ad0a2ad28c40a2ef28c3ca2f728454a11128b1ca27e288b09faa28ad49faf28aeca29128ca4a32528a54a11728c84a30227e789ee928c14a22d28a1ca27f28c10a2e028c04a2ff28b28a2ae288b89fd728c98a2fd28beca2f8283f89f9927e5ca28b27f50a11027eaca113)
  (.lf
  0xd6f435aa10f6c43c812d3c4b2415de8576d18fb863cb1857861511c7d071d92461491680bff82ff312068480f15d5c5752218d4861425b6096cd0cb3432ca10a48425b1b3d86ce322fcc8bee1fa0c7e8025ae096ab070181bcf0aab82a4b0a9182a3b0fee83f831200447fe06f181bb306e3c1b86165ec59781b32c6cc41815460521e40c78ea1c71471c222f848bdc))
  (.nd (.lf
  0x21204847e2121c848b2125484902125084c12104c840821114844221280848d2127c84972103c840d2112c840a20fe083fe2110c84012108c841d21b3486c7210d4841721a9c84a820f4883cf21134840b210ac83f921158844c212cc849d2114084462104883f321b38849b212c0849920f446cb81ab84842720fc0840e20ffc841120fc483e320f606a2020fbc6cb9)
  (.lf 0)))

def aesXorReads90 : BTree :=
  .nd (.nd (.nd (.lf
  0xc9e82908088e021dc269ec32860a5d8294a0a43c22960878021da269c438d80a444229b08a60229708a3891410c968229a0876c925b0e57828fe08a642234268fc32b40a57829460a3e82292088dc21de2690c329c08a40223508774a45d0e2d0295a0a49029100a43828ff0a3ec9a030b5e02d6c0a8c029fa2bf3c2dda0b6b82d4b0b4e82a340a8b82a04248d42eaa)
  (.lf
  0x513c144405204147e0537014c90536c14d30512c14490521c1446050d0143a051fc143d0517c145908a74223f051c41453087dc14e40500413fe0522414470519c1435052481488053a414d905230148205138142f08a7814d70539814d50501c13f704fc81463050b0144a050ec144d050b4141b05040140c050ac13f304fb413eb0523814450508c140d0501013f6))
  (.nd (.lf
  0x12fdc4be8130044c0512f584beb130104bea1301c4bdd12f644c09130204c0312e2c4b391277449d71275047bb121ec49d9127a04a51127e44a39128244a27121d04a43128604a02128ec4a07127f449f01283849fc127e04a08128184a33128844a34128804a1e129044a2c128984a24128e04a36128d44a32129084a40129404a4c12aa04a6312a984abc129884a8c)
  (.lf
  0x3bcbcef283bc7ceb283a914e9ef3be08ef703bc78eb263aa58ea913bcb8e9ee3a5cceb2a3ac84ef593acaceb223a824e9723be70ef743bca4eb203aa60ea083bcc8ea923a910ed7e3b5b0eabb3a888e98a3a58cea733a8c8e9fd3b608ed7c3aae8eab53aa88ea9e3a7f0e97f3a588ea213a5f0ea393a8c0e98b3a5f8e97d3b658eb123abd8ea383a88cea203aad8ea72)))
  (.nd (.nd (.lf
  0x1dbf878721dc5c77051dc1077001e23877461dc9c788c1dc9877161dcf4771c1dc68789a1dcf076ff1dc04774b1dd3877191dc6077471dab476a41db8876db1dd34772a1dc7c771b1daa4769f1dbc476a61da4076961db8c76991dba476c31e26c788f1db3476a11e1d477281d9cc76701dbcc76a71dafc76911dbe076f21dcbc77251dc3877061dab0768f1e2407723)
  (.lf
  0x29d04a6ed31110c3fb30f6cc3cb30f08c3bc30f30c3c629bacc4ae312ccc4b2312d4c4b1312dcc4b6312e4c4b431218c488314acc52a312ecc48d312f4c4bc31354c4d4313acc4023101cc3ef30fb8c40b310e4c42a3110cc44731060c42d31118c42c31124c41f3106cc44b31128c44530f34a74f2cffcb3942ce44b5412d4f4b3cf2d4d0b5b32d534b59b2d5acb589))
  (.nd (.lf
  0x1249048db122bc48ac121904863122c048a6121144970125d44974125dc4973125e44978125ec497612570495e126244988125f4496312d544b5412604498012d6448e21239c48cf1233848eb12464490a1248c4927123e0490d12498490c124a448ff123ec492b124a84925122c448b514bc45672159ac5669159c4566d159e856e7159fc56cf15a7c56bd15a0856d9)
  (.lf 0)))

def aesXorReads91 : BTree :=
  .nd (.nd (.nd (.lf
  0x4672519a2469051a334693d1a05469411a4046b0d1ab146b191a81469211a2c467f919d546abd1aaa46a911aa3466a108914223d1a594674919ed4678119e34674d19d14670919c04673519b3466ad19a9469b919fd4679119c3466bd088e4675919c64669d1a9446af51abc46a651a9746a6d1a9a46b151a98469f11a8846a3d1a8e46a951a8b46a9d1aa646acd1ab2)
  (.lf
  0x3ececfb713ebb0fb5f3ec18faf03edecfb013ec28fac53ec10fac83eb10fb3a3ec00fb533ec5cfb583ed38fb163f6e4fb703ed20fb423ede0fb5c3ed64fb523f6e0fb5e3f730fdbc3f7f8fb6f3f7f0fe0a3edb8fdd03f73cfddd3f738fdc93f748fdc83fce0feb33f7b8feb23f770fdda3f7a4fdfa3f7d8fdde3f7a0fdd13f74cfded3fa30fdf53f7d0ff393f800fddb))
  (.nd (.lf
  0x3c8c0f3c03ce81b9003c940f2203cac0f2f03ce40f3403ce00f5903adc0eac03ba40ee603d100f3103d0c0f3b03acc0eb103bbc0eae03a700ea203b9c0ea503b1c0ec106e6c1b9103b640ebb06e1c0f4c039a40e6603bc40eaf03b3c0e9d03be80ef003d440f4103bd00eea03ad80e9706e700f3f03d380f3d039bc0e5f039680ecb03a500eb203a8c0eb503a540e83)
  (.lf
  0xc0282cee0b420306a0b2d030260b3802cc80ccd02e6e0b9e832dc0b91833040b9882e580ba582a0a0a8582ec40a7882ea40a7f829f40e29032960cab039580c95038cc0ca00326e0c0202cec0b40030680b29030120b3602cc60a95027b409f302ab409de02a8e09e9027920b50828e80a3c82d5c0a3082d2a0a37828d40952021c2086d02224086c822780873021b6)))
  (.nd (.nd (.lf
  0x38f98dfb738f2ce3ca38f44e3d037ff4e163380c4d56735598dfed37dd0df7237ddcdf7637fe4dff8380dce03638acce2b237fa4dfc737f18d63737e44df9437d50df9737e58df8837e2cdf8a3867ce02b385bcda6736bccdaf2368a4da2836804cd933dfb4f7ec3570cd5c135714d5c4358e4d638342e4d0b83e544f9503565cd59633caccf2a33ca0cf2437e98cc67)
  (.lf
  0x1ddc07a901e74079401e3c077a0204807e601e9c079a01e38077601e90078c01e080ecc03a580e7e039f00e5d0393c0e590395c0e5203b400eb8039e40e6e039500e4e039ac0e5c039580e72039340e7f039cc0e6a039940e5003ba00ebc039f40e70039900e4c039e80e620396006e201ab0069401a48067301994066f019b4066801b9806ce01a3c0684019a80664))
  (.nd (.lf
  0xaf3c2bc90af182a2b0aa0c2bcb0af682c430afac2c2b0afec2c190aa282c350b0282bf40b0b42bf90afbc2be20b0002bee0afa82bfa0afe02c250b04c2c260b0482c100b0cc2c1e0b0602c160b0a82c280b09c2c240b0d02c320b1082c3e0b2402c550b2382ca00b15030010b1d030000b18c2c5d0b1e82c5c0c0102cbe0b19c30020b1982c620b1cc2c8c0b228300c)
  (.lf 0)))

def aesXorReads92 : BTree :=
  .nd (.nd (.nd (.lf
  0x2f0943e9e0f9c83e380f7683dd30f7383dc62f59443e80f73c3dc80f63c3d6b0f568bb430f71c3d700f5a8bbe710f403df60f6303d5b2ebc43f460fa183e6e0f8fc3e360f8b83e2c2ed6c3e0c0f7ec3df70f7d0bb8310fd03e820f8bc3e040f7483d8e0f634bc370fd48347a0cbc82fe82fe443f400d3a034bc0d204332a0bfb02fe62fdfc3f920d20c332f0ccb0332b)
  (.lf
  0x2fa48beff2fa5cbee72fadcbed52fa68bef12fb18beb02fba4beb52faacbea22faf0beaa2fa58beb62fad0bee12fb3cbee22fb38becc2fbbcbeda2fb50bed22fb98bee42fb8cbee02fbc0beee2fbf8befa2fd58bf112fd50bf6a2fc40bf3a2fc5cbf232fc6cbf162fd00bf1a2fdc8bf282fc9cbf262fc88bf202fce4bf522fd40bf322fcecbf382fd04bf452fd3cbf4a))
  (.nd (.lf
  0x42c39053842e650b9842c650b1842d4d0b5242c050b00470651c18415dd0b9742de10b7b42de90559415610b0b42eed0509414cd06c341a2d068a43cfd0f3e43d450f5043e650b364096d04d840a1904db41369065341bbd06ee41aa50f7d43df10f6c41bb106da419310f6f43db9069143ea506f741bd906d543c490678419ed067a41a6d069a43e7d0f9e45e3d062f)
  (.lf
  0x33284cc9e333f8cce6332d4ccac32950ca5233280c51831324c9d3313a0c9d932750c51b313a4c4c833458ccea332b8c9dd32760c9d2332d8cca4327d8cac632a50ca2b326d0c53131410ca71329b4ca6a32b28cab232a04ca78328a8ca28329b0c533314c0c9ab31378c9b1326b0c53231414c4df32b88cab6329e8c9b5326c0c9aa32a08ca7032810bcc02f238bc76)))
  (.nd (.nd (.lf
  0x16c905b7016d105b8c16dd05bd816d545bd616f705b541704c5ba0170485baf16eac5bae16e985c1816e205b7f170505baa16df85b9316f505bd0170585ba116e485ba716e5c5bb116e685bb016e2459ff167f05b4b16d185bcc16e645bd116ecc5a1f168645b8d16c605a28168385b47168445b5716c845c191705c5b271686c5c8516f6859d81614c5ba3168a45b3f)
  (.lf
  0x30154c06e301b0c04e3015cc05430174c061301acc066301a8c091301d0c03d2ff7cbfd430044c00e301e8c063301e4c06d2ff6cbfd93005cbfd62ff10bfca3003cbfcd2ffbcbfe93013cc04530004bfe330208c0752fe9cbfa430064bfd72ffdcbfc530088c01830224c07330070c0122ff78bfc330230c07130210c06f2fe68bc3d2f0ecbff32ff00bfda2ff2cbfdd))
  (.nd (.lf
  0xbe142f890be4c2f8e0be482fb90bc442f060bd0c2f400be782f8b0be742f950bc342f0b0bd242f080bbd82efc0bd042eff0bc842f1b0bfdc2ff50bccc2f150bffc2fa60bb442ebe0bd2c2f090bca42ef70bd502f4a0beac2f9b0bd382f440bc402ef10bff02f990bea02f970bac02ea10a87c2f250bbb82f0c0bbf42f0f0bbbc2ee50bb782eda0bbb42eb70bac42eaf)
  (.lf 0)))

def aesXorReads93 : BTree :=
  .nd (.nd (.nd (.lf
  0x4444d112c44491111a444d1110b444211106444491110444f1111e44625116e445b1118c4462111cc4471d11c6445fd117d445f111324474911614455911ca445f9116044525116a445a11200447351148444cd114d4465911674459911574436510d04445911154464d118a445cd1169443a510e34447d10fa443e110ee4445d10f14446d11034480511d3444d510f3)
  (.lf
  0x2be08af6d2ba1098a326284aef12bae8aed82bb24aedb2baecaea92ba80ae9c2bae4ae852ba0cae812bc70aed32bac4ae9d2ba6098a02ba78ae8c2b9fcaf762bdecaf7a2bdf4af792bdfcaf7e2be04af7c2bd78af602be74af9c2be0caf652be14af842be2caf8a2be3caeda2bb7caec72bb18aee32bc44af022bc6caf1f2bbc0af052bc78af042bc84aef72bbccaf23))
  (.nd (.lf
  0x2249c87fe21f9487dd2200c8923220708983224ac897f220448949220388973224e88932226048815224d48916224d08930224a88814220408959224fc895c22550893e225848952225208942225f88976225748958225c889602260889642274489c82271089d0227188bdb226c88bda22654896f225b8896a22f9889a2226848be0226808994226c489c2226a08be2)
  (.lf
  0x380e0e00037e00df8c37de0dfbc37fb8e03238590e16638f48e3cc37ee0e3ea38610e05438020df5c37e88df6e37ea8dfd837d80e70a39cc0e93639b70e6b83acb8e6a239df0e7383a380e99639b28e6be39be0e78639e68e7523a3d8e67c39c70e72239a48e76639c18e6de39cf8e7b239a08e6d039aa0e6a039e78d624358a8d7de35618d5c835630d63c35970f94e)))
  (.nd (.nd (.lf
  0x317c0c64e3194cc620318a4c66d31b18c5ef317b8c5e7318c0c62d31614c574317a0c5cf31aa4c6a4319bcc5f1315c4c56f31864c58a315d8c58e317a4c5913166cc5953193cc62f316ecc5ab318c4c5fc315f4c54a3188cc577316a4c58b31888c61a317e4c5f731758c5d031624c58431960c5f531aa8c5f3315a0a68729a14c59f31608c58f315c0c583315ecc581)
  (.lf
  0x2e224e16238090e02337ff0dffb37fd0da5c36914cefa3df64da1733bd8fec23faf0ef163fe78ff703bb80e18237f88dfd338ab4dfb037e9c68f419a9c66a31b4fc68e719a7cfeec3fb78eeda40a28ef113bb987f1d1e45472351fb9c7ecc1b4046d2819a68669919a54669219a3c9a75269ac9a60268a49a1a2685c7ec21e4d46cfd1c7c46d0d1b3646fa11b6c46dac))
  (.nd (.lf
  0x19be466e919b1066c219bdc66dd19b6c66d919d58670d19bc466c319b00506619b9066de19b5c67a219e9c67a619ea467a519eac67aa19eb467a819e38679019f1467c419ec467951a444691019ed467b41a45c671419c64670119c00671d19d2c673c19d54675919ca8673f19d60673e19d6c673119cb4675d19d70675719b9466c71c9f4729d1c9e072711c9dc729f)
  (.lf 0)))

def aesXorReads94 : BTree :=
  .nd (.nd (.nd (.lf
  0x415e44b8612ce04b1812b510b2d12fd04bc812e344b6c12c784ae012b690b7d132b04b8f12dc44b6e12db44b644138c4b7012c504ae14156c4b7c12dbc4b4a12cd10cdb12f704bc412de04b6812cdc4b0412b59050b12d984b3512bf84ad5414d44cca12f604ba212e384b8c12df44b7941b144ccc108fd06cd13300423941a344cc4109ed0f1913270424543ccc4cd4)
  (.lf
  0x3d53cf54b3d544f5503d48cf5223d4c4f49a3d28cf4753d1d0f4973d31cf4ce3d40cf5393d3c8f4f73d4e0f4f63d39cf4f93d3d4f5053d4dcf5043c81cf1fd199d057d1199f857cd198d857c913b8c4e3e138ec5081141f4507513ca050dd1421c50c51423450b313b9850cf1429050981431c509d13ce44f3214278508613ce0509c1423050bf142b450c0142b050aa))
  (.nd (.lf
  0x8df0235608eb8236408d8c236208d78235c08dd4238e08e30236e08ddc237408df4238108e2c238608e2823af08bfc22f408cc4232e08e60238308e5c238d08bec22f908cdc22f608b9022ea08cbc22ed08c3c230908dbc236508c84230308e80239508af822bb08ce422f708c5c22e508d08233808e9c239308e50235d08cf0233208bf822df08ea8239108e88238f)
  (.lf
  0x426d9098a426e1099a4265912cc44bb9132444ba9132244c7912fa44c6118a0462a1188e46291189c46229186e4621110a44428911b444261109e446b111e6447a111d8445e1119c44759119044819119e447690dd0437a10d9e437610dde437890dbe437191d66474d91d86475511d62476391d84476311e4a478b91e64479411e28479791e6c479310ca0432090cc2)))
  (.nd (.nd (.lf
  0x268d89176246088c2f245e49178256fc92fb2467c919e24aec83962633c98ce24a5c92962687c9a1e260ec983a262049880260bc9ae726b9899dd26bec9afa26c449b102617c989726294a45b29168981b24ba892e224b9492e4261049840261b4986c26ab49aac26084ae6d2b9b09a0124b04916424588ae732b9c8929e2b9e4ae7826164987124b4c9f1b27a549e94)
  (.lf
  0x276309d76276bc9d7b275c49d64276089d70275b09d7c275e89da7276549da8276509d92276d49da0276689d98276b09daa276a49da6276d89db4277109dc0278489dd7278409e22277589e3f277d89e3e277949ddf277f09dde279089e38277a49e40277a09de4277d49e0e278309e44277dc9df4277f49e012782c9e06278289e39276249d7e276ec9db8278589e03))
  (.nd (.lf
  0x24cb89509252c494f12530494df252a094fb2534094ba253cc94bf252d493322531894b4252c094c0252f894eb2536494ec2536094d6253e494e42537894dc253c094ee253b494ea253e894f825420950425558951b2555095662546896db254e896da254a4952325500952225b90956c254b496dc254b09528254e495522554096de254ec95382550495452553c954a)
  (.lf 0)))

def aesXorReads95 : BTree :=
  .nd (.nd (.nd (.lf
  0x151c054601524049a0127c04870121804a30134404c20136c04df012c004c50137804c40138404b7012cc04e30138804dd01174046100d0c033e00cdc034700cf4033900d6003c900dc403b100e04039f00d8003bb00e40037a00ecc037f00dd4036800e18037400dc0038000df803ab00e6403ac00e60039600ee403a400e78039c00ec003ae00eb403aa00ee803b8)
  (.lf
  0x2e84cb9ec2ea34ba4b2e9acba392ea58ba8c2ec3cbae72ea40ba862e948ba332ec78bae52ec18bae32e7f8b1c52c6f4ba672e8c0ba4e2e8fcba512e8c4ba272e880ba1c2e8bcb9ff2e7f4b9fb2ea48ba492e874ba1a2e814b1c42e878ba142e7e4baf22ebdcbaf62ebe4baf52ebecbafa2ebf4baf82eb50bad62ed2cbb4a2ec1cbadb2ec24bb082ec44bb102ec7cba50))
  (.nd (.lf
  0x41f810ef042e010d60431c10d9042e410a7042701098042dc107f041e410770446810d1042bc1099042401082042681084041d41166045ac116a045b41169045bc116e045c4116c0454811540461c1186045cc115906f641bd8045dc117606f4c10d80437410c50431010e10443c110004464111d043b811030447011020447c10f5043c4112104480111b0426c109f)
  (.lf 0))) (.nd (.nd (.lf
  0x3a77ce9de3fbecfea23fa81028d40a30ff633fd88ffb13fec102c940b20feed3f9e4fe783a9e4fea73f880fe1e3f88cfe223f818ef123bc40ef0c3f894fe243fdc4fec33f8e4f1a33c444f11038f0ce3c23c434de313c73cf1ce3a82cde553797cde5e3a80cea023a54ce9523a91cea46393fce4fe3f964fe583f968fe563fc08fe953fa5cfe963fb84fee03f924fe48)
  (.lf
  0x1d1c073ea1cefc74991cf0074a11d26873ed1cf0473be1e6e8754a1d4c874a51d28074981d49875201d47875ca1d66075801d2f874511d13c756c1d54474611d73875b61d5b875541d194744e1d2e474601d14075691d2f075791d5a874bf1d2f474b81d79875ba1d60475781d5c875681d5d875561d5405fc017db45d0a172bc5c64171885d5f174045cfe17f105fac))
  (.nd (.lf
  0x112b844aa112ec44d4113484820112f444ba1130c44c71134444cc1134044f11113c444411204447e1137044c91136c44d31112c44491121c4446110d0443a111fc443d1117c44591212c4821111c444531224c44e411034440a1122444471119c4435112484488113a444d911230448211138442f1213044d71139844d51100c43fe0fd9c4463110b0444a110ec444d)
  (.lf 0)))

def aesXorReads96 : BTree :=
  .nd (.nd (.nd (.lf
  0x38180077037e80075038d0007303898007106fa0006f04690006d046c0006b070300069045f0006706f78006504660006304638006105a60005f05b48005d05bb8005b05998005905a300057059f8005505ae0005305ab8005108a98004f054c8004d05520004b087f00049053c8004708920004505478004305438004105190142e05058141404fd413e703848003f)
  (.lf
  0x5d58175405d4c175005d80175e05db8176a05ef0178105ee817cc05e001efd05e801efc05e3c178905e98178807c0017da05e4c1efe05e48178e05e7c17b805ed81f0a05e84179e05e9c17ab05ed417b005ed017db05ccc172805d94176205f0017ad05efc17b705cbc172d05dac172a05c60171e05d8c172105d0c173d07c2c1f0105d54173707cdc17c805be816c7))
  (.nd (.lf
  0x3a568e52a39450e5123c730f1b63c6d0f56e3d588ec5a3ee48faaa3ea88f1743c3a8fbce3ead0fb303fa08fe163f928fef03fa60fe5c3a2f8ea483a550ea043a648f1d03c470e9933a330ea763a988ea5c3a924ea243a860fef83fba8fee43fbc4fe743f9b8f1203c474f11a3c850f20c3c828fe753f8f0eedc3d608f1aa3c6a0e8da3a300e8bf3a610e9553a304fea4)
  (.lf
  0x1fcfc7f621fb5c7ed51ff087faa1fd907f3e1fb747ed81fdbc7f401fb507f721fadc7f751fdcc7f6e1fda47f601ff687fae1fda07f4d1fb687eb61fd187ede1fb588a3c2281889f221d60867d218ac89e021e8c87a1229008a282278887af21e98862a227b487a0219f089f021d4c89f3227c489ec2279c89de229608a2c2279887a821d64875221ec087a221d588880)))
  (.nd (.nd (.lf
  0x1a08067401a3006760199c075801d74075c01d7c075b01d84076001d8c075e01d10074601dc4077001d94074b06adc1ab601da4076806a9406ca01b3c06b701ad806d301c0406f201c2c070f01b8006f501c3806f401c4406e701b8c071301c48070d01a340691015cc056e0159c0577015b405690162005f90168405e1016c405cf0164005eb0170005aa0178c05af)
  (.lf
  0x36df4db7b36ee4db7836d98db6c36ec4db6f36e44db8b36fc4dbe736e8cdb8537088dc1736d24db4636eecdb7936e64db6736f10dbba370a4dc1536ef8dbb436e00db65370b0dc1337090dc1136cf0dac936ae4db9536d88db7c36db4db7f36d8cdb5136b28daba36d84db3d36cecdb3936f00db7736d64daf836b2cdac836d28db4036cdcdc1837074dc1c3707cdc1b))
  (.nd (.lf
  0x1f24c7c751fa047d061f1307af71f2ac7c611f2247c591f2d07caa1f42c7cfb1f2b87ca41f1887b0b1fa307cf91f4207cf71f13c7c4b1f1207c851ec207c701ec447c731ec247aff1eb087ac01f1247b071ebc47aef1f2c07c5f1f1287b031eb047a781ebe07af21ebb47cfc1f4047d001f40c7cff1f4147d041f41c7d021f3a07cea1f4547d141f4247cef1fa247e88)
  (.lf 0)))

def aesXorReads97 : BTree :=
  .nd (.nd (.nd (.lf
  0x3efbc47b61147cfb8b120cc48303eadc47be1146cfb3312730489f3ec7447aa11454fc1311e68450b3f43c485b12160fbc9126c0414b3ef6c49a410474fba312d8041013eb9c49c61033cfb2312cb0410b3f02c49c2103f4fce3126f840e13f1144b743fba4423a0e134fe85108d038573fc1c42760e49cfe1910900383b3f93442960ed64ff4b108c038673fb54422e)
  (.lf
  0x3fe94ff883fe10ff833fe18ff263fc8d006c401c50070401cd006f401d5007440265007240171005e4018d00624024d00614025500944028500a04021cffd03ff54ff953fe50ffad401ecffea400d5004f4004100194013900184008500174004d00374012d00363fe1cff793ac2cea3a3a8bceaf73ab24ea713b5a0edcf3ac6cedb93ab2ced773aba8ed933b160eb10))
  (.nd (.lf
  0x71a01c66071e81c78071dc1c74072101c82072481c8e073a81ca5073a01d10072901cce072ac1cb7072bc1caa073501cae074b81cbc072ec1cba072d81cb4073341ce6073901cc60733c1ccc073541cd90738c1cde073881d2f0715c1c4c072241c86073e01cdb073dc1ce50714c1c510723c1c4e070f01c420721c1c450719c1c610731c1cbd071e41c5b074001ced)
  (.lf
  0x20f186a1c1a850695a1a5206a881b2b86adc1344c4d0306e7c4cde06e8c1b8b06e941b7c064744cf906e5c1b7d147701ba106e7859b706e281b881345c1b8903d5451f006ea41b96134441ba0064504dc7134244ce3133800f54033685189133dc0cdb137384d10134084dca1338864311347c191c15fd04d05133d861a506ee41aed148544d4706f244d4906bbc1067)))
  (.nd (.nd (.lf
  0x29984a57629518a54829534a54c29634a54b2963ca58e298cca63229604a4c0293b4a4a329288a4f92948ca500294d4a53929398a503294e0a50229464a4f5293a4a54f29538a537292e4a4d7260109280249f89e70279889e6027c889e7c249588f5223d78916e27b809e2824dd89204247e0982624b6892c6262d0905e24a8892282bf30913c26818a46e279d09eb6)
  (.lf
  0x675c19ad066a419d90676019d30654c1957454d515f145609157f4562515f7457d11661457ed1649457b5163545811167b4588916184592d161545831160b45859160a457e91614457b11657458bd164c45911162e4596d163e458d11632459d91656459351648459e9165a45981165e45aa9168145a9916e845a011674459c516bb459c11667459a9166645b211696))
  (.nd (.lf
  0x2227c8890222a488ad221f88893222b08892222bc88852220488b1222c088ab220d487991ec6c7d821f5ec7d791f6047d7d1f6287df71f63c7ddf1f6bc7dcd1f6487de91f6f87da81f7847dad1f68c7d9a1f6d07da21f6387dae1f6b07dd91f71c7dda1f7187dc41f79c7dd21f7307dca1f7787ddc1f76c7dd81f7a07de61f7d87df21f9107e091f9087e541f8207e8f)
  (.lf 0)))

def aesXorReads98 : BTree :=
  .nd (.nd (.nd (.lf
  0xd13830f60c32830590c0e02d120b3a0a5c30d728308a0c15c30390c0c0302f2984c34320c0b82ce9298f435b20c22c30820c200a68f0d19830de0c31830930c17030340b440a5af0d16030810c0c82cfd299e435d60c36830a40c20c305d0c16030562cf34327b0c9e0b3790ca3032872ccdc38d90e358b2fd0c980325b2cc1c39660e57cb3f90cae032b52d07432a2)
  (.lf
  0x1df8077c61df8c77b91ded477e51df9077df1d35c7781296fca0da27f749fed27f989ff327fac9fef28008a0732806ca05b280aca04928028a065280e8a02428174a0292807ca012280c0a01e28068a02a280a0a0552810ca05628108a0402818ca04e28120a04628168a0582815ca05428190a062281c8a06e28328a08528320a0e628210a0ae2822ca0972823ca08a))
  (.nd (.lf
  0x797c1e550770c1dc1077fc1dbe076b01db2077dc1db50775c1dd1078dc1e2d077a41dcb079a01e5d076381d5b078041dbf0777c1dad078281e00079bc1e5b079701e25078101dfa077181d7b079d81e59079a81e57076441d8d075c81ddb075e01dc2076cc1dc5075e41d98076501d6f0761c1d77075cc1d6b078181dbd0768c1d95076301d8a076581d540754c1e5e)
  (.lf
  0x3ecd8fa84359b8d70035b38d5ff356acd5a6355f8d6ab35a9cd6a435c10d6ec35aecd6b2357f8d5fc35a98d5af356a8d5ba356d4d5bb356d8d5ae3569cd5a535c70d6f035ad0d5b435690d57f35af0d6aa359a8d93e36430d5d934ea8d36e34db4d8e936394d8e236508d92a363e4d8f035760d5d636390d36c34d74d3a134cc0d3a734e88d36f34d70d33136568d92e)))
  (.nd (.nd (.lf
  0x1a51c69461715c5d41175005bf91713c5c4e16ff85c5d171705ca1176445cf1173c05d1d170a05c26170ac5c2a181946064175c45d701734c5d3316f245bc81708c5cb9172e06a131a8485ca8172d05767172ac5caa176345ccd1711c5c461d53474b21d2d474b41d09c74261a8646a181d16c745a1d12c744a1d46c74931d24873bb1cdec737a1ce5473941d064746d)
  (.lf
  0x2b490acdf2b488ad382b378ad082b394acf12b3a4ace42b438ace82b500acf62b3d4acf42b3c0acee2b41cad202b478ad002b424ad062b43cad132b474ad182b470ad412b498acef2b244ac862b30cacc02b4a8ad152b4a4ad1f2b234ac8b2b324ac882b1d8ac7c2b304ac7f2b284ac9b2b404acf72b2ccac952b4c8ad272b144aafc2b32cac892b2a4ac772b350acca))
  (.nd (.lf
  0x1c2b870c21c1d071d71c25071d61c20c707d1c268707c1c77870cc1c21c71d81c21870821c24c70ac1c2a871da1c25470921c26c709f1c2a470a41c2a070cd1c09c701c1c16470561c2d070a11c2cc70ab1c08c70211c17c701e1c03070121c15c70151c0dc70311c77c71db1c124702b1c7d470be1bfbc6fec1c184701f1c0fc700d1c1a870601c30c70b11c190705a)
  (.lf 0)))

def aesXorReads99 : BTree :=
  .nd (.nd (.nd (.lf
  0x45f7d17e745e71182745f3917b04600d17c745ead17a245f5917cc45ea917de45f19180b45f75181045fd117dc4605517fc45fb917e646045180a45fe917f8460991814460891818462591877462491894461d9185d46159186746171185b46199182046191184e46105185e4616918404611d1890460f118604615d1846460851853461e91839460e1184f46289185f)
  (.lf
  0x3f210fbc144d5cfc8d44d34fc8b44d71135644ead13a344e3113863f238fc754504113a14537113993f264fc603f17d136f3f1c9132b3f5f8fd813f1ccfc763f1c4fc6a3f19cfc613f16cfc2d45110fc833f1dcfc5e3f0dcfc303f1e0fbbc3eeed139e44f4d13d24515d13d145165145844f95148a45159148c45245149045375148f4537d14de44eb513ac45044fd80))
  (.nd (.lf
  0x17b1c5eaf17ab85ecb17be45eea17c0c5f0717b605eed17c185eec17c245edf17b6c5f0b17c285f0517a545e991d2ec757c1d5d475731d5ec75771d61075f11d62475d91d6a475c71d63075e31d6e075a21d76c75a71d67475941d6b8759c1d62075a81d69875d31d70475d41d70075be1d78475cc1d71875c41d76075d61d75475d21d78875e01d7c075ec1d8f87603)
  (.lf
  0x3a534e50d393a0e9e53aa14e8bd3942ce5013a3ace8c9393f4e9783a284e5063a7c0e94c3a2a8e9653a2f0e88d3a544e8c83a2b4e9743a28ce8a03c4e8f2103c550f11e3c428f1323c998f1ae3c798f2303c5a0f5843d598f1903d5c0f5ae3c860f1663c490f1d23c700f1983c6f0f37a3c3f0f1ee3c578f0f43c3b0f1123c5d8f1a43f8e8fec43fdc8fe263fc70fea8)))
  (.nd (.nd (.lf
  0x31290c50f31438ca213320ccc8933220c86b30840c6b731ad8c6dd31b70bb012ec00c61131840c89532250c66133d2ccf4a31c34cf4f33d38cf5533d50c64331b44c60d2ec94bb2431e04c6c431af0c6bf31af8c6eb31ba8c6e331b88cf6b33da8c78531c14c7042ecb4c71531a70c68631a7cc69e318e8c63d318f0c6f331c8cc72f34f3cd31f34c78b9d72e758d31d)
  (.lf
  0x33b48cf2133c78cf1c380a8cf1633c50e19e33c30cf0a35968d52333c18e72139a64e68a39cb8cee23267ce8ec399c0cedb37fa0cf0033bf8db2a36814d1d236a60d1ce34730da863473cd1c539d78e704399ccd636358ccd63135860d61635850d7dc35820d5e837500da5434700eace3aa10ea813cde0f1a6378bcf1b73c648e3bb3c548de3635eacf14b3c488e537))
  (.nd (.lf
  0xeb043a8f0ebb03ae20ed0c3b330eb983adc0eaa03a89116403b310ed003b2f0e4f838c70dc043abd0ea183aa40ea543aa70ea1c3a7d0e9d83a720ea1439510e4fc393d0eba03a9f0e9cc3a700e51438c60e9d03a6a0e4ec3b340ece43b380ecec3b370ecf43b3c0ecfc3b3a0ec803b220ed343b4c0ed043b271158445600ed143b44116443aa60eaac3a930ea483aaf)
  (.lf 0)))

def aesXorReads100 : BTree :=
  .nd (.nd (.nd (.lf
  0x53e014f5088482201087fc52c305540154b14c54153a054d4533b08ab022a914abc24fa05ac4565d0942016bb137ac24c205a0424d606ca4168f092881ec7059a452ed094c016f114bfc251c05b544e6d09390169b14aa417e604644536905fc0119b135d41f1406f841b3705f50117f07cf01ec90703c52cb0602011b314d2417fc0469c4e7707c201beb13a241d3a)
  (.lf
  0xf3743c9b0f2ec3c890f3983cdc0f5743d370f3803cd60f2883c830f6083d350f5383d330e40c38e20cb0c3cb70f2003c9e0f23c3ca10f2043c770f1c03c6c0f1fc38ff0e38c38e10f3883c990f1b43c6a0e55439020f1b83c640e3743d420f51c3d460f5243d450f52c3d4a0f5343d480f4903d260f65c3d960f53c3d2b0f5443d500f57c3d5e0f60c3ca00f2943c8d))
  (.nd (.lf
  0x40be103a240ddd03ec40f5503eb40eb5030540bf5035540ca9030240c7903a340c85034740ccd039d40e6d034540bfd03c840f0502e340b61035d40c0d034340cad035c40d5903bf40eed037e40de1032940c9103b940ec103da40ebd02d540a50ffbf40da5032240c7d030440c8d031b40ba102e73fed9031740a75029740a55038040be502ec40ba502db40b5102ea)
  (.lf
  0x30f90c3d030f38c3bf30eeca74529d0ca74031078c40630ee8a74d29d20a6ec30ef8a74229bbca6f029ba4c3d129bc4a6ee29ba8a5d7310d8c40a30f3ca74a29ba0a5d630f20a74e29d10c5a231620c54830e94a6142981cc55630e9ca68331680c58631570c3b129a18a60630ea4c3a630e90c54d29960c54e3150cc3a829964a61531738c5ac31530c54931510c542)))
  (.nd (.nd (.lf
  0x30340c00030780c0c030200c18030580c43030c40c44030c00c2e031440c3c030d80c34031200c46031140c42031480c50031800c5c032b80c73032b00cbe031c81b73032481b72032040c7b032600c7a06df80cc4032141b74032100c80032440caa032a01b760324c0c90032640c9d0329c0ca2032980cc5030940c1a0315c0c54032c80c9f032c40ca9030840c1f)
  (.lf
  0x3261cc96b32624c98832634c98c3263cc8e032394c8cd32330c8e93245cc90832484c925323d8c90b32490c90a3249cc8fd323e4c929324a0c923322acc87733dc4cf7733dd0d0db3435cd0cf33e08d13734384d11f3439cd10d33e18d129343f8d0f234484d0f733e4ccf8a343e0d0e033e48d0f634398d1193441cd11a34418d1043449cd11234430d10a34478d11c))
  (.nd (.lf
  0x215ac855c215d4857921528855f215e0855e215ec855121534857d215f085772140c85072571c91dd2476895cf2572c936d24c08963f2579c9627257dc96152577896312581895f0258a495f5257ac9306257f095ea2579895f6257d096212583c962225838960c258bc961a2585096122589896242588c9620258c0962e258f8963a25a30965125a28969c2594096cb)
  (.lf 0)))

def aesXorReads101 : BTree :=
  .nd (.nd (.nd (.lf
  0x472e51cb7472511c92472c51c6f4718d1c61477b11d97472711c93471b50b6c476411ca44717d1e12479151e444799d1e15479a51e68478ad1e66479511e56479851e604796d1e59479751e5c4789d1e26479251da6476bd1cb5472d11da14774d1dbc4778d1def477e91dff477f91dee478c51e09477f51e0b478291ded476451c9742f0d0bce42c850b4342f550b23)
  (.lf
  0x36468d947364d4d948364d0d93236554d940364e8d93836530d94a36524d94636558d95436590d960366f0d977366e8d9d0365d8d9a0365f4d98936604d97c36698d98036768d98e36634d98c36620d9863667cd9b8366d8d99836684d99e3669cd9ab366d4d9b0366d0d9db366f8d987364a4d91e3656cd95836708d9ad36704d9b736494d92336584d92036438d914))
  (.nd (.lf
  0x1ee947b751ef407bc61f09c7c171ef287bc01edf87b511f9d07c151f0907c131edac7b671ed907ba11ed387b8c1ed5c7b8f1ed3c7b451ea887aa01ed947b4d1ecdc7b351ef307b7b1ed987b491ea847a621ecf87b381eccc7c181f0747c1c1f07c7c1b1f0847c201f08c7c1e1f0107c061f0c47c301f0947c0b1f9e47e781f0a47c281f9d47b8e1ee047b551ed507b93)
  (.lf
  0x2e160b1c02c6e0b17c2e830b9f42c440b9e62c4c0b1402c340b11a2c618b10c2c580b10a2ddc0b4262d970b4082cd10b3682ce18b3bc2ce88b4222cf88b3122cd88b3542ce08b3ba2cd60b2f62d0a0b40c34810d1f02ccb8d1e42ceb8b3142d070b3f82cc18b2fc2ccd8b3782cf30a678296b8a68e298f0a61229708a62029808c3b829cf8a5a629a98a64629678a5d4)))
  (.nd (.nd (.lf
  0x2d084b3a12ceccb3b22ce14b3672cd98a6f529bd0b2fe2cc38b30d2cd0cb3422d01cb65b2d094b4242ddacafa62c57cb15e2c3f4b0fc29c14a7042c334b0cc2c4fcb13e2c4bcb9e32e788b0f72e7ccb9f22e82cba0a2c5ecb1b72c6fca66729998b76f2c570b15a2c72cb1ca2cdb4b36c2c754b1d42e314b8c42dd9cc0cd30330a5f32c76cb1de2c6d0c0df30378b656)
  (.lf
  0x42d910502409cd143844f60f36d46b55145c40f84ff433bc64eee13a9e0ea0139464e9e839410de663aa30e508374f8fc283e4c8ec293fbe8eedb38a94fe533bc3ceee73fafcef173bc0cfbe23e500f8e13e4b4f8fc3e3e4fce03b108e14139a94ceeb33ba4e73539c04cee33a3bccedd33b68e79833b5cced32eefcbafe2b94cd4062b988a90f321a8c77731dc4bc14))
  (.nd (.lf
  0x15140541515138546015050577d150d0577c1508c541d150e8541c15e2054661509c5780150985422150cc544c151285782150d45432150ec543f15124544415120546714f1c53bc14fe453f61515054411514c544b14f0c53c114ffc53be14eb053b214fdc53b514f5c53d115e24578314fa453cb15dfc545c14e1453821500453bf14f7c53ad150285400151845451)
  (.lf 0)))

def aesXorReads102 : BTree :=
  .nd (.nd (.nd (.lf
  0xaf282a2609e6087f50b0e02c0c0aa002a6f0a8a82a2409ea8864b0af302a940aa1c2a850aa042a782176c2a840a894277e218942bcd0af102bc20aaf8878b0b0802c080af542a7c0a9a02a2809f4885f30af0c2a7a0a89c27be21a7c2c1c0af982bc50aa182a6e0a9a42a5e21a742cce0831020b80814887510b3782126083e82092081d420600811887d30c06020ba)
  (.lf
  0x3cfe0f3f43d10cf4383d0d8f4843d108f42e3d03cf4203d078f4303d038f4033cfe4f4133d140f41d3d070f4393d160f42f3ce7cf39a3cf78f3d93d1a0f4493d194f41f3cf0cf3913cfbcf39c3ce28f2503cf7cf3a93ceccf3ad3d0dcf4313cf2cf3c53d170f4593ce10f21d3cfc4f39d3cef4f38b3cfe8f3f03d15cf4253cfa8f3da3ce78f2493d0f0f4233d128f421))
  (.nd (.lf
  0x10e04438010e0c437e10d88436410e54439410e14436910e1c438610e2c438a10e3442de10b8c42cb10b2842e710c54430610c7c432310bd0430910c88430810c9442fb10bdc432710c98432110ab442b11ec947e661f4e47d5b1f4c47d3b1f9a883231f54c830f1f98482db1f54082e51f5987d6420c447d551f5347d461f5787d521f5307e601f55082d320b3482d2)
  (.lf
  0x3ca00f2783c9c4f2683c9f8f2383c8d8f6583d680f5893d5f0f1eb3c7a0f5b33d654f5763d7c8f5ee3d76cf5b43d5e0f1ea3d650f5883d61cf5733d5a0f5863d5ecf5743d5a4f1e93d8c0f5d83d6f8f57d3d5e8f5723d770f5b23d6c0f3ba3c948f24a3c920f21f3c86cf37d3c754f1c83cef8f3a23ce80f21e3c75cf1ca3c868f1db3c750f1c53c708f2533c768f1d9)))
  (.nd (.nd (.lf
  0x2015c9d1927460775a2747c9d1e1fb2c7f291fc1c7f061fb0c79461e51079491e5207eeb1fba87f211fc80791b1fafc805b2016879551dd74775c21d9c87661e3e071f61b37c78fb1e3e87eef1fc0c79171e4587c3f1eb787ae11eb807a6f1e9b8876b21da87ab31eac87a931ea487c3b1eb6c7ada1e2ec77651dd9078831e2087a711eabc78cb219bc866e1ed7478a0)
  (.lf
  0x2b620ad6d2b8e0ae1b2b8b8ae192b538ab112ac34ad9d2b5a8ad842b5d4ad872b5acad5b2ac58ab142b5a4ad4f2b534ad4b2b720ad7f2b58cab152ac30ab0a2b558ad502b524ae222b89cae262b8a4ae252b8acae2a2b8b4ae282b828ae0c2b914ae442b8bcae112b8c4ae302b8d4ae342b8e4ad862b62cad732b5c8ad8f2b6f4adae2b71cadcb2b670adb12b728adb0))
  (.nd (.lf
  0xcf3033c20ce38336f0d73834170d09834150cd34331a0ba0c33a30cdb0338a0cdec338d0cdb4335f0cd5032f60cdac331b0cc6433170cf3833850cd9433550cd3033460cd5833500cc54341a0d07c341e0d084341d0d08c34220d09434200d01834080d0ec343a0d09c340d0d70c35c20d0ac342a0d73c338c0ce4433790cde033950cf0c33b40cf3433d10ce8833b7)
  (.lf 0)))

def aesXorReads103 : BTree :=
  .nd (.nd (.nd (.lf
  0x4643d190a465c5196e464ed1939462d515c3463e518c44630918bc4642d18bf4635d18cb4656d19594639518b74654d1942456611597463ed18c34635518c54640918fa465d51941464591910456d915b146571193f465c9193d45691153b452a518df456b918bd4570915c5456bd15a14534914aa456b515a94569515a34646918ae4570515bb454e914d34564d158a)
  (.lf
  0x35824d0a533d7ccfb033ea4cfa733ebccfab33ee0d02533ef4d00d33f74cffb33f00d01733fb0cfd63403ccfdb33f44cfc833f88cfd033ef0cfdc33f68d00733fd4d00833fd0cff234054d00033fe8cff834030d00a34024d00634058d01434090d020341f0d037341e8d094340d8d060340f4d04934104d03c34198d04034278d04e34134d04c34120d0463417cd078))
  (.nd (.lf
  0x11c24470611c58471411c90472011dc8473711dc0478211cd847fd11d5847fc11d14473f11d70473e12020478811d24480011d20474411d54476e11db0480211d5c475411d74476111dac476611da8478911ba446de11c6c471811dd8476311dd4476d11b9446e311c8446e011b3846d411c6446d711be446f312024480311c2c46ed11ffc477e11aa046a511c8c46e1)
  (.lf 0))) (.nd (.nd (.lf
  0x382e4e0b53839ce10938398e06538064cf2033800cdfe39c80e71839c50d56c355a8d56436a78da1436810db04367a8d57839a78e6ce39a00db3036878e78439af0e6c837f58df6c37e80dfba37d58df7c35660f952355b8d63a35718f7ee368a8d5c735558d59235500d0ae3e54cd63435520dfea37f98dfe437eecdfb437ec8da84368acd1bc369c8da2e34718e180)
  (.lf
  0x1534854ba151c8535514d4052cc14d284e78135dc546d135e0547d151b84e7b135e44d76153a854be15214547c151d8546c151e8535614d3056c015a38567614bbc4e70139bc566214c0c530115b1056ac15990530b14c1852ee14c004e6e137b4565f137b8566f159804e71137bc4dec15b7056b0159dc566e159a0565e159b0530c14c0853dc14e98539014e38533f))
  (.nd (.lf
  0x15554555415e7c54b6152ec54a31528854bf153b454de153dc54fb1533054e1153e854e0153f454d31533c54ff153f854f91520c53571911c6451191285b671913c64531917864cb191cc64b31920c64a11919064bd19248647c192d46481191dc646a192206476191c864821920064ad1926c64ae192686498192ec64a619280649e192c864b0192bc64ac192f064ba)
  (.lf 0)))

def aesXorReads104 : BTree :=
  .nd (.nd (.nd (.lf
  0x92a824a51728c2534094cc5d9309488251f173cc25380939c5d1f09e3817e91746427a005fcc5c2d0a9d01f17171e4277405f5c5c9d0aad81f3f1819c27c80602c5d7309ed817ff173542a5607c945d35080e01d3d16f2c2042170e42084074345cbb080981d1b172b420ac073d45d8f081681d851733c204e075a45c49081c01d271d53c1e840544c756707a381525)
  (.lf
  0x22aa48aa422aa08acd2289c8a1c229648a5622ad08aa122acc8aab2288c8a212297c8a1e228308a122295c8a15228dc8a31230dc8c35229248a2b2313c8abc227ac89e8229848a1f228fc8a0d229a88a6022b148ab1229908a5a228988a07231088aaf22b088aad2279087a721e948a3b228108a222284c8a252281489f721eb887aa2280c89e52278c89e1229988a1d))
  (.nd (.lf
  0x40611078641d6d076642249075a40669019941cad019840635019040631075241cd1072941cb9072a41ca1071f41d91071441cc1071e4066d019141c9507a241c4d071241d4d07e241cbcfd533f541075641c15076041d75071741c54fd893f61d01853f5c0fd6c3f57107573f57cfda33f5ed073541cc4fd993f63507e341e20fd313f47101873f5c4fda73f5b50192)
  (.lf
  0x269989a0a25fbca495291f09a55293d0a4ec2925ca47e2696097ee29270a4942924ca475291c8a492291d8a473269a49a6729480a4f8291d09a68269689a0b29358a4b026950b2542c8a8b2282c81cb1fb2c7e09a9e2684c97f72c960b2522c7e89aa4268889a212c81897f6248b49a9924940b22b26a689a9724944922c2ca60b2422c7e49a9826a589a922c8389a24)))
  (.nd (.nd (.lf
  0x28fc0a43028500a29029080a28029140a1b0285c0a47029180a410270409c50229c08a20226c08ab02284089d022f0092d02354091502394090302310091f023d008de0245c08e30236408cc023a808d80235008e402388090f023f40910023f008fa02474090802408090002450091202444090e02478091c024b00928025e8093f025e0098a024f81add025781adc)
  (.lf
  0x35accd6af35ab0d6ff35b30d6e635b5cd6e935b34d6ba35ad8d6a935b2cd6ad35a94d5fd35ca8d6e135adcd6ae35814d60035ae0d5b8356dcd78235e1cd78635e24d78535e2cd78a35e34d78835db0d76e35e7cd79e35e3cd77335e44d79035e54d79435e5cd6e835bb4d6d535b50d6f135c7cd71035ca4d72d35bf8d71335cb0d71235cbcd70535c04d73135cc0d72b))
  (.nd (.lf
  0x104b041261048442041082442081082c420710834420c1083c420a107c041f210874421c1084441f7109cc42721085442141097c417a105b4414310508417f106b4419e106dc41bb1063041a1106e841a0106f441931063c41bf106f841b9104b4415b1c9306bb11c9506bb51c8406bc51a8dc6a621a97c6afb1abdc6aef1a9a86b571ac046b3f1ac1c6b2d1a9b86b49)
  (.lf 0)))

def aesXorReads105 : BTree :=
  .nd (.nd (.nd (.lf
  0x39c1c3dae0f6a4e7670fdb03ddb39a4c456610fa4e7230f5d83d7139c74453e10f44e67d0fd203f473a3dc3e0e0f834e7531165843f539e6c45220fd4ce787114703f4139be4482e0fe4ce6bf114603f2d39b2c489c0ff0ce997114483f373a38445080fcece739121583fa939df441480d5b4e6a31046835773acbc40fe0dc8ce6b910330355b39b7441080dd4ce937)
  (.lf
  0x3af00ebf93afe0ebba3af54ebc93af0cebc53af10ebb93a4f4e9433711cdc4236aacdd5137534dd4537138ddad3755cdd9537574dd8337148dd9f375d0dd683765cdd6d3717cdc56375b8dd5637178dd6c37570dd8f375f4dd90375f0dd7a37674dd8837608dd8037650dd9237644dd8e37678dd9c376b0dda837810ddbf37808de18376f8dde837714ddd137724ddc4))
  (.nd (.lf
  0x25d14978d25e40976325d88979d25c7096f325c24970625e3c977025ddc9765256b495ab25cf4971e256e895b425c1c96c125c9496f725db4976b25bec96c325e98978325678938325cfc971f25c8c95bb25d20973e25e04977d25e08976925cc8970a25bc8958d25ea8977b25e48977925aec959325610972f2562895b5256a895af2562c96ea256889589256649585)
  (.lf
  0x1c7b86cd61fc9079111c78878f31d94871f71dd547f5a1e50471ef2014c7f041e49079102745478f21e3b49d171dd5076532015879401e43c86832197c8641217d4861c218648617217b085dd2175c87f2219e486452197885fe1e85c8671218587a26217707a041c7507a3b1e93c85cf1e86c7a161e8047a35217b47a271e89486871e81c7a05219207a3d1e8e88682)))
  (.nd (.nd (.lf
  0x26b089c8526b449c6526b549c53270889c73270f09ade2719c9adb270cc9c28270c89adc26b409ada26b509c5f271249c60271289c48271c49c52271409c4e271909c62271849c5e271c89c70272109c80273489c7d273409cd8271f09cb82728c9cad272889c9f273189cac273d09cb3272c09cb2272909c9e272ec9cce273309ca6272e89cb92731c9cbf2732c9cc2)
  (.lf
  0x423e5090c423e108f6424650904423f908fc42441090e42435090a424690918424a10924425d9093b425d10986424e909a54256909a4425250943425810942426a1098e4253509a6425310948425650972425c109aa4256d0958425850965425bd096a425b9098f423b508e24247d091c425e90967425e50971423a508e74249508e44234908d84247508db423f508f7))
  (.nd (.lf
  0x1821060d7182b060961833c609b182445d8018288609018230609c1826860c7182d460c8182d060b21835460c0182e860b81833060ca1832460c61835860d41839060e0184c860f7184c06142183d861611845861601841460ff1847060fe18598614818424616218420610418454612e184b061641845c6114184746121184ac6126184a86149182a4609e1836c60d8)
  (.lf 0)))

def aesXorReads106 : BTree :=
  .nd (.nd (.nd (.lf
  0x268742e800ac782b060ab4c2a980a98027d425fd42e740ab042aa209f04b1f70cd002b1a0ab902ac30aa782a660a98497e30c618317a0b4602cd42682431e80c6f030470c0882d1c0b4582ce626994317c0c124302c0c09430230c068a4710c0902d170b2e8a4910c5f431740c5c8307a25fb431d00c6e031850c100301e0b4682d0e2694c31730c0702d190b3e897cf)
  (.lf
  0x4cc0131e04c68132a04ca0135504d0c135604d08134004d8c134e04d20134604d68135804d5c135404d90136204dc8136e04f00138504ef813d004e1021e504e9021e404e4c138d04ea8138c087a013d604e5c21e604e58139204e8c13bc04ee821ec04e9413a204eac13af04ee413b404ee013d704cdc132c04da4136604f1013b104f0c13bb04ccc133104dbc132e))
  (.nd (.lf
  0x12b004aa712ae04aa5121e4484011ebc4a29127c84a10128044a13127cc49e91278849de127c44841120fc483d129504a0b1277c49dc121e048751278049d6120ec4aac12ac44ab012acc4aaf12ad44ab412adc4ab212a584a9812b244ac812ae44a9d12aec4aba12afc4abe12b044a121285c49ff127f84a1b129244a3a1294c4a57128a04a3d129584a3c129644a2f)
  (.lf
  0x3a9b0ea6a3b280ec703ac08dd8637168dc4a36ac0daa936a9cdd47370f0da7d37628dd6437538dc3e36a98da7f37114daa8369f0dc483698cdc4b37124dc4437104dc3a37688dd7637540dc4036ac4da6237548dd4637510dd0637200dc6636a44da4c3692cdb1c36b94dadf37380dca036ca0dae736b88da9036b90da4a368ecdb0936898db1636c34da4d368e8da27)))
  (.nd (.nd (.lf
  0x1dcdc77101d99c743721da47a03218747a311d07c74a21d27c75331d4a4751f1d2c079b31d4b479891e5a479731d2a079b91d50875361e62c753f1d41475021d500752c1d41079681d4f879851d52479861e5f875481e63c79801e5c879701e6c079881e61c79841e6e0798e1e6c879921e8a479fa1e7d07a281e7d87a0b1e6b07a0a1e72c799f1e6b8799e1e84079de)
  (.lf
  0x2d6a4b5a62d840b5fb2d83cb6052d5ccb5712d6bcb56e2d570b5622d69cb5652d61cb5812d79cb5dd2d664b57b2d860b60d2d4f0b3952d6c4b56f2d63cb55d2d6e8b5b02d88cb60b2d6d0b5aa2d5d8b55b2d8a0b6092d868b6072d4fcb53b2d4e0b58b2d560b5722d58cb5752d564b5462d508b5352d55cb5392d4c4b3fb2d6d8b56d2d50cb53a2d00cb3fe2d510b390))
  (.nd (.lf
  0x15cdc572f15a9c56a515b8c56a215a40569615b6c569915aec56b515dcc576f15b3456af15dec5740159cc567015b9456a315b0c569115bb856e415d14573515ba056de15aa8568f15dd0573315d08573115998530714c1456bf15a3056a615a5c56a915a34567b14c28530815a2c566715994566315ba856a115a0c530914c1052f0159d0566a15984573615cec573a)
  (.lf 0)))

def aesXorReads107 : BTree :=
  .nd (.nd (.nd (.lf
  0x42ad90a4942ad10aba429210a85429690a8442a0d0a7f42a090a7a42a610a9742a490a9642a190a7e429bd0aa042a790a88429b90a5b429ed0a7342a890a9d42a710a93427ed09e6428fd0a3842ab10a7542aad0a9f4280d09e14294d0a0e428290a10428e50a134292d0a2142a650a89428c50a0542b010ab94271d087e429dd0a0f4286d0a0b429d90a5442aed0ab7)
  (.lf
  0x3ebf0fa823e56cfe603f994fe643f99cfe633f9a4fe683fad4fe663f7b0fe8a3fcf4ff3c3fa3cfe8d3fa44fe903f834fe0c3f8bcfb0c3ed1cfac73eb18fb093ed8cfb7a3f754fde53edc8fb7d3f790fb7c3f6fcfb773edd4fdd73f78cfdd63ebf4fb3739414e4dd39424e4f938f6ce40038fe4e3f738ffce3fb39020e47539034e45d390b4e44b39040e467390f0e426))
  (.nd (.lf
  0x162dc58f5162f458e3149e858ff1635058c8163dc58cd14a14527e1633858b614a1058cc162f058ef1637458f01637058da163f458e81638858e0163d058f2163c458ee163f858fc16430590816568591f16560596a164785977164f85976164b45927165105926166085970164c4597a164c0592c164f4595616550597c164fc593c1651459491654c594e165485971)
  (.lf
  0x38300e3a039100dde038080df6038c00e1e06f9011a0046b01c08045e01bda04650118a05a5016ce05ba8166205a20167a05ad016aa08a80152e0551021f8053b02244054601506450cd03b33cdad141d40f0cf35c41644f3563cd55152740f7cf357450b1141540ec903ff40f1103c246b4513b940f15158c4510d03de450a5141445049149544ecd13a74539113b8)))
  (.nd (.nd (.lf
  0x337b8cde8338f4ce25338f0ce1e33858ce3f33948ce4833908ce2433888ce1f33868ce3e338a8ce5c33968ce9a338ccce8433a18ce3233ad4ce6433ad0ce9333a44ce9033a30cec4339f0ce7b33ae8ce92339e8ce7933a08ce8033af0ce7833994ce8d33aacceae339dcce76339f4cebb33ad8ce0d337c0ce35338b0cead33a80ce9f33a04cdf5337acce5d33848cdf2)
  (.lf
  0x479c11dc0470811bc0476411ca0471011e0046ec11ed0478411d80474c11be04958122a047ac11de0474811ba047a011d0047180fde03ea00f9003e380f6f03d840f6b03da40f6403f880fca03e2c0f8003d980f6003df40f6e03da00f8403d7c0f9103e140f7c03ddc0f6203fe80fce03e3c0f8203dd80f5e03e300f7403da804b2011f00464011880443010d4043f))
  (.nd (.lf
  0xa9f42a7b0b1182bfd0af442bce0aa2c2a6a0af482bc80a9e42c920b25c2c960b2642c950b26c2c9a0b2742c980b1f82c800b30c2cc20b27c2c850c04430100b28c2ca20c01c2c040b0242bf10afc02c0d0b0ec2c2c0b1142c490b0682c2f0b1202c2e0b12c2c210b0742c4d0b1302c470af4c2bd70a3f429070a40021e10a41429090a45029810a4a429690a4e42957)
  (.lf 0)))

def aesXorReads108 : BTree :=
  .nd (.nd (.nd (.lf
  0xd76035b70d68835962edec35dc0d6d435a10d618bb990dce036460d84035fc0d7e835e30d764ca030db90327d326a437060ca3cc4cf0e47838e53136c36d20c98cc52f0e5b039693289c36fc0caecca690dbc032a53140c38c00e2e4c9f50f6983da3327443dd80f714c4c710f983d593139c3d6e0f5a4c4ad10f383d41329443f440f8accc9d0f8283df13145c43f2)
  (.lf
  0x2fa6cbc1a2f014bc022fa30be822f9e4bf5a2fd7cbf5e2fd84bf5d2fd8cbf622fd94bf602fd10bf462fddcbf762fd9cbf4b2fda4bf682fdb4bf6c2fdbcbec02fb14bead2fab0bec92fbdcbee82fc04bf052fb58beeb2fc10beea2fc1cbedd2fb64bf092fc20bf032fa34bc1f3578cd67734ed8d41135a5cd67b379c0dedf35a6cdeb3379fcdea135a30dec537a30d690))
  (.nd (.lf
  0x41fc5082541e6513db4538d14e24164d059244ebcf35d46b6d1ada40914f6a33da94f6a44091d024642dcd0b724714d1c52414dd053642265089841e11078241f0cf7b24205d08164214d08524029500a44225cf776402bd00ae402b1008e40245009043da911b7446d90f1d43c71016340588f3753cdd11461451810f2f43cb9067e3d0ad06bf41af906c641af106c9)
  (.lf
  0x2f0e0bdc42f638bd7a2f0c0bbeb2ee14bd682efa4bb5d2f720bdb02f5a8bbef2ee10bb5e2f5d4bbea2efa0bd782f09cbd7b2f5e4bd742f5bcbd662f780bdb42f5b8bc312f0a0bc262f0b0bbf02ed70bed82fa98be8e2effcbbac2edccbe7a2f064bbfd2fb70bec42f9f0bc1c2f01cbb722f004bbfe2eff0be772eef0be872f9e0bc002eef4bbad2fbd0bec82fa3cbe86)))
  (.nd (.nd (.lf
  0x16cd85b7716e0c5b2e16ce45b8216ce05b8f16ccc5b3116de45b8116de059e9167ac5194146541baa06eac1aca06b2c52a414a9452a207bd01ef607bdc1a9a033641eee07bbc582c160b44d061341c535e14d7c1b3206ccc1ebc07af41eba139704e5d137f01af206bd01af506ba81a37135804d61161c05871135284d4b139284d43135204d46135404d5106db81b6f)
  (.lf
  0x329b8caed32a1ccad532a94cac3328c0cadf32ad0ca9e32b5ccaa332a64ca9032aa8ca9832a18caa432a88cacf32af4cad032af0caba32b74cac832b08cac032b50cad232b44cace32b78cadc32bb0cae832d10caff32d08cb5832bf8cb2832c14cb1132c24cb0432cb8cb0832d80cb1632c54cb1432c40cb0e32c9ccb4032cf8cb2032ca4cb2632cbccb3332cf4cb38))
  (.nd (.lf
  0x117a045d21182c45d71173445c01177845cc1172045d8117584603117c44604117c045ee1184445fc117d845f411820460611814460211848461011880461c119b84633119b0467e118c8480d11948480c11904463b11960463a12040468411914480e11910464011944466a119a048121194c465011964465d1199c46621199846851179445da1185c4614119c8465f)
  (.lf 0)))

def aesXorReads109 : BTree :=
  .nd (.nd (.nd (.lf
  0x4463d118e4475510e44436d10ed443b110f5444dd110c444fd1143445391153445491142444a5115b44545115d4457111414432d0f65433bd0b8a42ccd0ce9433dd0b3542fd10d81434450d29434050d49434590d6f434810d0a434bd0cfd4346d0ba0434690d10433f90d00433f10d37434cd0d36434b10d24434ed0d62435210d40434c90d2d434a90d28435b90d3a)
  (.lf
  0x2875ca1f0287b8a1d028764a1d62877ca1e3287b4a1e8287b0a223287d8a1bf28584a1562864ca19028800a1e5287fca1ef28574a15b28664a15828518a14c28644a14f285c4a16b28744a1c72860ca16528820a1f7284989ef92866ca159285e4a14728690a19a2884ca1f528678a19428580a14528858a1f328828a1f1284a4a12528488a17528508a15c28534a15f))
  (.nd (.lf
  0x2202488072262889262204c880f21e04877a2201487e621f9089a42277489dc2276c89b7226e489b82272c89ba226d889d22275c89d62276489d522fac8bea2273c89ce22fa4891c224848937224d8894b225e4898022614898d22530899922660898c226ac89512253c89872262c898621f9c87831fdc47f6c1fd147edb1fdac7f471fde07fe51fe347fcd1fe747fbb)
  (.lf
  0x39514b9df2b8d8d3ba34be0ae3d33d14c1f9307ccc6693087cc1d5319acc1f7307bcc6bd3082cc1e731cb8c65b307e0c64830804c1d431a48c1fd307b8c71431ac8c1e632248c65d31968c60131b34c649318dcc63231a0cc6af31bfcc65c31830c1f233d1cc6db318d8cf4331a08c63331c30c6ae31a2ccb6e313b4b85532874c4f331274c51d3135cb86b312fcc379)))
  (.nd (.nd (.lf
  0x29c38a83329d54a80f29c8ca8b929c08a81d29fe0a7342a044a73129d78a75d29d70a75429cc8a73029c88a80d29ff4a8182a020a7fc2a0bca8b82a008a8002a064a8122a038a80c2a0b8a81c2a0e0a8322a3e8a82d2a3e0a9042a0b0a84b2a118a8c52a134a84a2a130a8402a3b8a8e52a338a8e42a380a8c42a154a8e22a368a8ec2a150a8472a104a8592a3a0a8d3)
  (.lf
  0x14af052bb260b8981f260586ae71ab686ac91aaf86abd1a9446a3f1a8586a0d14a9852a314a6c75611d45475101d2cc748d1d22474571d11c74451d16474151d03c9f1227b70981127a489e6f260349fc42601c980527f249f4325ffc6ae61a5385b0d1a9405d6816ff083c319f6863bc1a8c067cb18ee86d3019a60642c19a50665f190a066a21909064221b5c86425))
  (.nd (.lf
  0x1cd5873831cb5472ca1cc1c73041cd88734f1cd8473591cb4472cf1cc3472cc1cae872c01cc1472c31cb9472df1cf1473a91cbdc72d91ce3c736a1c9e472761cc3c72cd1cbb472bb1cc60730e1cdbc735f1cc4873081cb5072b91cf18735d1cdb0735b1ca6858891621c72e91cad872d01cb0472d31cadc72a71ca00727e1cad4729b1ca6472971cc5072cb1cabc727f)
  (.lf 0)))

def aesXorReads110 : BTree :=
  .nd (.nd (.nd (.lf
  0x12d8d06e512c4911ed12d190f3912c0049c5448444afc127050f4b133204b77420fc4c98108f5074f132f8423741f644cbc109e508a913268424341fac4c9610a6507b713240424941e744cb2109350773132e842654212443a80f6dd074d10e883f7741f3c47e8115f508a110ee03d7f41ffc4547114f1082310ed03f61420b443b00f8650ded11f58469b41f7c47d4)
  (.lf
  0x1430c50a5145085137141f04e3f1436c5091142e450891439050da1452c51351437850d4142484f37145405133145105131141fc507b141e050b513cd050a013cf450a313cd44f2e13ca84f29141e44f3313c944edf14380508f141e84f2b13b9c4ee213cb04e3a138e45138144f4513c144fc513b1450451401450c513e1448851241456451581451451291451c5146))
  (.nd (.lf
  0x8b1c221d0ab342ac70ab1027d70aab42ac90ab602b410aba42b290abe42b170aa902b330ac202af20acac2af70abb42ae00abf82aec0aba02af80abd82b230ac442b240ac402b0e0acc42b1c0ac582b140aca02b260ac942b220acc82b300ad002b3c0ae602b530ae582bac0ad482b7c0ad642b650ad742b580ae082b5c0aed02b6a0ada42b680ad902b620adec2b94)
  (.lf
  0x45a11161a45799158545601157e457d91578455b91ba846cc91b1446b85146a4501d1b1746c1114b746e591b3046c651b0e452e9140646c591af146b811afb46be11b0246be51af046b9d146b46dd11b4446c551afa46bb11ae646c811afe452d915d84541114fa4530d14824509d14fc44fcd13ed4575915504544914c74531114c2453c5142644fb11518452151519)))
  (.nd (.nd (.lf
  0x27c807efd206488067201a481972062c819e20784819b20714818d206cc80762074c80902021881c72020c807f201f0819a20210807e2063080822082481ad2073881c0206b081dd206e881b2206c08208207d881cf2071081dc20748821220780821120810820220840820e208cc821a209548247208c88246208c0825d208e081f0209708254208d8821d2080081fe)
  (.lf
  0x2786c9e17278749e1c2787c9e1a278009e02278f49e3c278849e07279249e48278949e242795c9d862762c9d73275c89d8f276f49dae2771c9dcb276709db1277289db0277349da32767c9dcf277389dc92752c9d4f2d8fcb6452d908b66f2d9acb6472d988b6e12d9ecb6c92da64b6b72d940b6d32daa0b6922db2cb6972da34b6842da78b68c2d9e8b6982da58b6c3))
  (.nd (.lf
  0x25248939e2527091ce246f4955825574955c2557c955b2558495602558c955e255109546255c4957025594954b25b8c96e2255a4956825b9c94ca2533c94b7252d894d32540494f22542c950f2538094f52543894f42544494e72538c951325448950d2527494a107d341f4707d10180f07cd41f4907d601fc107da41fa907de41f9707cc01fb307e201f7207eac1f77)
  (.lf 0)))

def aesXorReads111 : BTree :=
  .nd (.nd (.nd (.lf
  0x109c041700f2803c000e30036d069e0041501090041300d14033500cc003a100da8038800de4038b00dac035900d38034a00da4033100cac032900f30038300d84034b00d08033400d30033600c9c041801074041c0107c041b0108404200108c041e010100406010c4043001094040b069d41a74010a40428069e4038a00e3c037700dd8039300f0403b200f2c03cf)
  (.lf
  0x30cd8c2f130cd0c34c30bc0c31a30bdcc30330becc2f630c80c2fa30d60c30830c1cc30630c08c30030c64c33230cc0c31230c6cc31830c84c32530cbcc32a30cb8c35930ce0c30130a8cc29830b54c2d230cf8c32730cf4c33130a7cc29d30b6cc29a30a20c28e30b4cc29130accc2ad30c4cc30930b14c2a730d18c33930934c23a30b74c29b30aecc28930b98c2dc))
  (.nd (.lf
  0x9d04273e09d1c274b09d54275009d50278309b4c26c809c14270209d80274d09d7c275709b3c26cd09c2c26ca09ae026be09c0c26c109b8c26dd0a98c2a4d09bd426d70aabc276809a14268209c3426cb09bac26b909c58270c09db4275d09c40270609b4826b30a938275b09da8275909a2c267b099d826e709ac026ce09afc26d109ac4269f09a50269009abc2677)
  (.lf 0))) (.nd (.nd (.lf
  0x372d8dcb237288dcbb37300dcbe372f0dcb3372b0dcaa37298dce2372e8dcc837310dd1c37414dd1837468dd0437374dcda37904dcdc3735cdcd637348de4a37914dd2a37920de4437900dcf137458dd1437930dcf03736cdcd3374ccdd383743cdd0e374acde4937478dc9f37258dcfe37394dd3537448dd1537444dc913723cdcc937260dc8237210dcff3721cdcc1)
  (.lf
  0x1765c5d94177d05ddc176ac5da2175285cf4176585cf8171845d47171485d51175205cfb171805c53178305de0176905d55175405d46176b05d9a175385eda17a1c5cec1723c5c82172005d3d1738c5ce017b785ec617a5c5e8e17a185e84173885c95172385c3e16fac5c94172045c3f170f05c3717bd85eca17a405c83170d85bea17a605d3c174e8854c2145884f5))
  (.nd (.lf
  0x19fe467fd1a02068751a074685d1a0b4684b1a03868671a0f068261a17c682b1a08468141a0c868201a070682c1a0a868571a11468581a11068421a19468501a12868481a170685a1a16468561a19868641a1d068701a30868871a30068d21a218697f1a298697e1a254688f1a2b0688e1a6a068d81a264699e1a26068941a29468be1a2f069a01a29c68a41a2b468b1)
  (.lf 0)))

def aesXorReads112 : BTree :=
  .nd (.nd (.nd (.lf
  0x3b800ec003a800e80039800e40038800e00037800dc0036800d80035800d40034800d00033800cc0032800c80031800c40030800c0002f800bc002e800b8002d800b4002c800b0002b800ac002a800a80029800a40028800a000278009c00268009800258009400248009000238008c002280088002180084002080080001f8007c001e80078001d80074001c80070)
  (.lf
  0xdb1436c40db1c36c20daa036aa0db7436dc0db2436af0e25438940db3436cc0e23c362e0d8cc361b0d86836370d99436560d9bc36730d91036590d9c836580d9d4364b0d91c36770d9d836710d7e435b92c724b1042c328b0c92c74cb0f22bfe4aff32bfc0afdb2bf7caff52c010b06d2c054b0552c094b0432bf90b05f2c0d0b01e2c15cb0232c064b00c2c0a8b018))
  (.nd (.lf
  0x40884fcc33f2c0fcaf406e4fcd64068cfcce3f364fcd73f31cfcbe3f2e0fcd53f344fcb13f01d022a3f5a4fcb93f2b8fc3d3f010fcba3ee74fb9a408510277409d9024f408ed023d408f10269408f9023a40941026140981025f4094d025540951025d4097102813f360fd674068501a04072501e9407790205408b501b840785022c4078101f7406f501bb4081d022b)
  (.lf
  0x23dd08ce92339c8ce223fc08fc423e2c8f8223df08f7223e008cb8232b882e020af87d221ec587ad11eb147d421ea1c7a8320b7882c61f5207ac41ea247a841ec8c7ad01ea187d331eca87d3e1f4bc7b2b1ec887b1720bd07d681f5687d321f4b87d231f4e87a8a1ea087ba21ed407b401e98478aa1e2647b631ecd07a9f1ee987b801eda87b361ea8c7a601ea7878a7)))
  (.nd (.nd (.lf
  0x21901ad00213c084c0215408590218c085e02188088101f8407d60204c0810021b8085b021b4086501f7407db0206407d801f1807cc0204407cf01fc407eb06b4c1ad10200c07e506b6c087601e4c07900206c07d901fe407c702090081a021ec086b02078081401f8007c106b500869021e0086701e64078901e1007f501ef807dc01f3407df01efc07ad01e88079e)
  (.lf
  0x38b94e32538bd4e31338b58e32f38c10e2ee38c9ce2f338ba4e2dc38be8e2e838b90e2f438bc8e31f38c34e32038c30e30a38cb4e31838c48e31038c90e32238c84e31e38cb8e32c38cf0e33838e50e34f38e48e3aa38d38e37838d54e36138d64e35438df8e35838ed0e36638d94e36438d80e35e38ddce39038e38e37038de4e37638dfce38338e34e38838e30e3b5))
  (.nd (.lf
  0x22c788b0c22be08b1822c588b4322cc48b4422cc08b2e22d448b3c22cd88b3422d208b4622d148b4222d488b5022d808b5c22eb88b7322eb08bc022dc88bed22e488bec22e048b7b22e608b7a22fe88bc622e148bf222e108b8022e448baa22ea08bf422e4c8b9022e648b9d22e9c8ba222e988bc722c948b1a22d5c8b5422ec88b9f22ec48ba922c848b1f22d748b1c)
  (.lf 0)))

def aesXorReads113 : BTree :=
  .nd (.nd (.nd (.lf
  0x369ec40db36a9440d70dcd4e991108f83b700ed9038703a9a442380ef483ba60e4c839190e1d0385a3a8a4427a0ed9839490e4d439330e4a8e9891091039340e16cec5d10a683b670ed783b5c3a35c424a0eee83ba20edbc392e0e45038723abcc424e0ed74392c0e1c4e9e1109983bb60ee003b5f0e52039180e454ea7b116a045560f8483db83a92c4616117a845af)
  (.lf
  0x3c004efd03bf38f00c3c000efc93bfc4f0133c058efcd3bf30f01f3bfa4efe63bdbcef6a3be74ef983c054eff43bfccefcf3bd94ef5f3be94ef6c3bd50ef463be64ef493bde4ef733c034efeb3be3cef673bf9cefd63bcd4ef2c3be9cef6d3be04ef553bec0efa63bf64efd53bea8ef9e3bdb8ef533bfb0efd33c060efd13bc84eb243aa5cef7d3bd40ef5e3bd1cef61))
  (.nd (.lf
  0x2623099c82673499cc2673c99cb2674499d02670499ce26620998a266449990266bc998f266c499b0266ec99ba266d498fa26474990726418990d264f4992e2656c995f26590996d265b0995e265fc996b2659c9969265a0995d26234984d033f40cf8033c40d01033dc0cf3034480d83034ac0d6b034ec0d59034680d75035280d34035b40d39034bc0d22035000d2e)
  (.lf
  0x1cf3473791cdcc73d51cec473af1d1a073e215e8473f91ce4057901cfec73721555874c21ceb8579a19a08664b15e806685199f46633194c05791194b4664319a2c73e61cf20664a19abc6637198c866ab194c4652c1cee86642199045cd21661c5765171c457d715d545c6b166245655170a4598f15d8c5c6915f68576415d505bec15da45654170c05c2215d885c7c)))
  (.nd (.nd (.lf
  0x26df49b7a26fd09bd326ff49bf326d3c9b4926e0c9b6026cf89b2c26dec9b2f26da49b6526f9c9be326dcc9b51270449c0e26c749aee26e149b6126e349b3f26e389b842702c9c0926ec09b7e26d709b372701c9c042700c9bfe26c2098ab262749bbb26cd09b4826cb49b4b26cd49b5426ce09b3326c9c9b0926c1c9b0526ec89b5f26ce49b2026c3498aa26d089b18)
  (.lf
  0x46ee11b7c470051be946e891b7646ccd1b2e46fd11be746f951bd446c1914bb452e51b9546cb11b4b46cf11b3f46cb51b2346c691b1846c3d1b0d46c1d1b0546e111b3946ca51b1b46bc914b846c711b0346bf11bd646f7d1bde46f751bd946f6d1bda470251bd846f111bc646f2d1bca46f551bc946ff51bfc46fad1bea46fd51b3e46cc51b4946d211b4546e8d1b64))
  (.nd (.lf
  0x1b83c6e091c7fc71fd1b8846e031c83c6e941b70c6dc01b8e46df71b85c6de51b9086e381ba646e891b8f06e321b7f86ddf1c8006e871ba586e851b6f06d5f1b5746e131b7706dfa1b7ac6dfd1b7746dcf1b5986d621b76c6dbd1b6ec6db91b8f86df51b7546dc61b58c6d5c1b6dc6d641b4806e8a1ba3c6e8e1ba446e8d1ba4c6e921ba546e901b9d86e781ba946ea4)
  (.lf 0)))

def aesXorReads114 : BTree :=
  .nd (.nd (.nd (.lf
  0xb3d82cf324b54304c0c0f49f1d0c9bc21bf27b8c32810873c9e970e334227b278ac3255086e49eab0e564222727d1c32ad087549f930ca5c21c527a0438a50952c9ec10a7d428d727cbc29ff0a3849ecb0ba942d2d2799c29e30a3149e770bb142d5f27a942a170a3d49f590a82c28eb288cc2e970b5149f150b964279527c942e6309e9c9ed10cc142a91279fc2e47)
  (.lf
  0xc5dc30440c7c431af0c73c319d0c7e831f00c94432410c7d031ea0c6d831970e288323f0c938323d0c10c30200b46c31cb0c65031b20c68c31b50c654318b0c61031800c64c30210c07c301d0c7d831ad0c604317e0c13c30420c60831780c06c32420c91c32460c92432450c92c324a0c93432480c8b832300c9ac326a0c93c32350e32c38ca0c94c32520e28c31b4))
  (.nd (.lf
  0x827c20b9083202131083642119083a42107082882123083e020e20846c20e70837420d0083b820dc0836020e80839821130840421140840020fe08484210c084182104084602116084542112084882120084c0212c08620214308618219c08508216c085242155085342148085c8214c08690215a085642158085502152085ac2184086082164085b4216a085cc2177)
  (.lf
  0x38034dfe038160e00a37ebcdfdd37eb0e06d37f78dfdb37eb8dfad38348e09c3815ce01437f70dfda38178e01838038ebc83ad68eb403a4e4e70f39c30eb3239e04e7333af08eb5e3acd0e9463a504e9383ad8ce73239c38eb6039aeceb623ad84eb4d3ad04eb303aed0eb743ad30e94839c34e6ba3a508e78039df8ee523b8d8e9a539e9ce78c39ce8e96b3a390e8e3)))
  (.nd (.nd (.lf
  0x1a51067e519eec748e1a8f8696c19f60696d1a5ac69591a888693219f7875651d244748f1be786daf1a8bc6a231a83873891cee473b719f6467d219f286fa51a79869ae1a4506bd11ab3469151aa04694c1a4886a851d05873a3174c05d1a174505d1716fd85bc61cf6473771cdd45c5416f1c59901a7a069c21a7005c201d1a8740e1ce605d15170845bbd172d85c77)
  (.lf
  0x2d3f0b4fe2d4bcb52e2d47cb5032d484b5202d494b5242d49cb4782d1f4b4652d190b4812d2bcb4a02d2e4b4bd2d238b4a32d2f0b4a22d2fcb4952d244b4c12d300b4bb2d10cb3f32e334b8d72e340b8812e354b8d92e390b9512e3e4b9392e424b9272e3a8b9432e460b9022e4ecb9072e3f4b8f02e438b8fc2e3e0b9082e418b9332e484b9342e480b91e2e504b92c))
  (.nd (.lf
  0x18ed463b418ea4638f18f8463e018eb463ac18f3c630e18c4c62fb18be8631718d14633618d3c635318c90633918d48633818d54632b18c9c635718d58635118b7c62af173dc5d52175345da5176845d4f176605e17176c45dff1773c5ded175685e09177785dc8178045dcd1770c5dba177505dc2176c05dce177305df91779c5dfa177985de41781c5df2177b05dea)
  (.lf 0)))

def aesXorReads115 : BTree :=
  .nd (.nd (.nd (.lf
  0x422050e6f438590e2a438450e2d4385d0e22438550830437fd09ef427b509eb43ab10e374388d0e08438010dfb438910df0427a50ef243bfd0efe43bf50ef543bdd0ef643b050ef443b790ee043ba50ee843b950ee343b9d0ee643b150ec443ae50e2c438f50e0f438390e334397d0e6643a6d0ed1439b90e7343b410e7243a3d0e77439c50e9d43ab50e9c438950867)
  (.lf
  0x3e098f8753e16cf8743e170f8563e1dcf8823e1f8f87c3e188f8603e174f85a3e1d8f8643e240f88e3e420f8733e400f9023e1c8f8e93e388f8e83e31cf8a93e318f8ac3e3b0f8bf3e2f0f8ea3e2f8f8a83e334f8ba3e2e0f9203e38cf8cc3e2b4f8d13e350f8b53e2d0f8bd3e428f8eb3e134f8283e1a8f8673e34cf8c23e304f8b93e10cf82f3e23cf8523e100f83c))
  (.nd (.lf
  0x1afb06ab81b0d46bfd1b0546c0f1b34c6ccd1b09c6c091b3146c9a1af806a9f1b0fc6bf51b0746bed1b1206c3e1b27c6c8f1b1086c381afd86ab31b3506c8d1b2706c8b1af8c6bdf1af706c191aac06c041aae46c071aac46aa71a9286a481af746aaf1aa646a971b1106bf31af786aab1a9246a461aa806a9a1aa546c901b2546c941b25c6c931b2646c981b26c6c96)
  (.lf
  0x466e9199241f19199a42141079e41ef107f6426f1081a41cf9086a41f790dec420b1082241ff908a041f39074c42121077241e7107b641fa908a841f61074e420f90f4a448410f38447b106e441a1106b0418c1179043e81069c446e90f20419f106aa41b5906f843ea9069443dc10f7e41ad106f24195110a843d490f4043cc90f1841a3106cc41b110534414290cda)))
  (.nd (.nd (.lf
  0x313e0c4f632834c9f831308c6c531a3cc63b327f8c9f9327c0d36434c48d31032708c6f031ba0c6ce3272cc9c33269cc52131340d35530318b9ac31344c4ca3130cc6f731bc4c68732878c53731828c60831808d3cd34ec4d3133138cc4e131364c49e30e40c38c31904c60930878d36534d0cb9b035064d404314b4c4a13127cd40834c60c0c7328d0c4fe30e44cc80)
  (.lf
  0x60a81812061001828060791c8a471411c1646b611ad446b4119b446651198e3e530f9483e518f7ea3df60f7d639510e53c394e8d1e034770d1d6314e8c39e30e70c240308b8c22c30340c0ce30328b1182bf20afc42b9d8ae702b9a8a48c291a8a458274709d162745084ec20f0883be1ca3072641c98867e819b3066b2190f86438190c1040440b1902c440b090088))
  (.nd (.lf
  0xd2a034d50d30c34d60d30834c00d38c34ce0d32034c60d36834d80d35c34d40d39034e20d3c834ee0d50035050d4f835500d41037110d49037100d44c350d0d4a8350c0dc50355e0d45c37120d45835120d48c353c0d4e837160d49435220d4ac352f0d4e435340d4e0355f0d2dc34ac0d3a434e60d51035310d50c353b0d2cc34b10d3bc34ae0d27034a20d39c34a5)
  (.lf 0)))

def aesXorReads116 : BTree :=
  .nd (.nd (.nd (.lf
  0xfc5c2fc334fa43f1b0bf34d3c10fe34330f34d143f0b0bec4d3710fef432e9350743f230bf84d4390fc7c2fd734e243fa30ccf4d3df0d59c344134e7c35710d12cd3170dc7435c734cbc35550d0bcd35b0dd3435af35754359136384357d0d154d36b0dccc35d313d5423ca088201540054504e17090e0240c08f44227205570152a054984db508f4c2277089d02273)
  (.lf
  0x3b90cee583b908ee403b984ee4c3b928ee463b9d0ee6c3b968ee593b988ee603ba38ee803bbe0eeb13bbd8eefa3bac0eec13ba40eec03bafceebb3baf8ee8a3bb20eea63ba64eec23bae8ee983ba8ceeea3bba0eec43ba88ee913ba2ceead3bb2ceeb43bb28eea73bc20eec33b8e4e9d63b9a4ee643bb38eeb33bba4eecd3a744e9cb3ba04ee3c3a760e9ba3b994e9c7))
  (.nd (.lf
  0x3d638f58d3d6fcf5b93d6c4f59c3d864f5c73d7e4f5e13d7acf5803d83cf5d63d710f5fb3d734f5a73d648f5d43d718f5a63d780f5cc3d7f4f5d33d828f5f43d748f6153d808f5f03d7a8f60b3d800f5fc3d7e0f6143d838f61a3d860f6973d9a8f6683da58f66c3d8a4f6243d954f62f3d8a0f62e3d8b0f6ac3d9d8f6613d980f6543d920f63b3d998f6643d930f63a)
  (.lf
  0x2c73cb8772c740b8e12e20cb8782c744b1ce2e518b91a2e37cb8822e200b8762e360b85e2e168ba682e8c8ba112e7b8b1c62c70cba0f2e7e8b1bb2e9b0ba542e884b9fc2c708b1bc2e864ba102e838ba002e7dcba182e804b9f82e7acb1c72ea10ba582e7d8b9ef2e7a8b9e82e888ba162c6e8b7b42c690b18b2c588b1442c50cb7752c624b16e2dee0b7922ddf0b199)))
  (.nd (.nd (.lf
  0x160a464401910459cb146e851bb146d84d0a1342c4f53161144dcd06e9051db146744d12161b44ea11398852fb13a144e68135b81ee607b80532214aac4e731493451a513d5c4da1136304ef9136fc1ab2137041b6c162344df6146ac1aee14d704e8306cb85826146644d0813410529d07bb04f5106a285835146281ba806e88524c148f85233146e44d2306e3457f3)
  (.lf
  0x3315ccc4b32ee4cbb732fd4cbb432e88cba832fb4cbab32f34cbc7330b4cc2332f7ccbc133180cc5332df0cb7932fdccbb532f54cba333000cbf6331a4cc5132fe8cbf032ef0cb9d331b8cc4f33188cc4d32decca4332900cbd132e68cbb832ea4cbbb32e6ccb8d32e08ca4632e64ca41328ecca1532ff0cbb332e4ccb8332de8cb7432e10cb7e3284ccc563316ccc5a))
  (.nd (.lf
  0x15d7c57591574455b315d4c5644155cc5570157a455a71571c5595157c855e8159245639157b055e2156b8558f15d805637159185635155b0532d14b7455c31563055aa1566c55ad15634557f14cc852e01562c556d155ac5569157b855a515614557614ccc532c1559c533414cb8563a158fc563e15904563d1590c56421591456401589856281594c56521591c562d)
  (.lf 0)))

def aesXorReads117 : BTree :=
  .nd (.nd (.nd (.lf
  0x475451d48475591d44475491d2a474751d50475311d1c475b51d1a474611d4e475b11d6b475151d73475d91d17474591d2b472191c85473f91cf9475d51d5c4756d1d19471f51c79474ed1cc8473191c4c473fd1c4f473751cdb4754d1d4f473951c7f4752d1d32470d11c23475051cc7473451cc9475011d3c474c51d21475351d4a474391cfa472111c45475611d1f)
  (.lf
  0x2f3a8bca12f20cbc4c2ef7cbbdc2f1d0bc6a2f184bd422f51cbd462f524bd452f52cbd4a2f534bd482f4b0bd2e2f57cbd5e2f53cbd332f544bd502f554bd542f55cbca82f2b4bc952f250bcb12f37cbcd02f3a4bced2f2f8bcd32f3b0bcd22f3bcbcc52f304bcf12f3c0bceb2f1d4bc5131cd4c73b31ce0c79531e44c78931d18c7f131e6cc7d931e84c7c731d28c7e3))
  (.nd (.lf
  0x203588103203c48104203c080ee2044480fc203d880f420420810620414810220448811020480811c205b88133205b0817e204c8826320548826220504813b20560813a20998818420514826420510814020544816a205a0826a2054c815020564815d2059c81622059881852039480da2045c8114205c8815f205c481692038480df2047480dc2032880d02045480d3)
  (.lf
  0x2eec8bf7e2fe40bc362ee08bb5a2ebc0bbe62ed08bd642f090bb2e2ec98bb042edc0bbfa2eee8bbaa2f9d0bc162a71ca9bf28864a9e0287eca1f92acb4a3322886caa6328ccca20f2a6e8a21827384aacb287e09ce4308b49ced27394aa5e288389cfb2a7f0a9b727380a9e72a72497b12a7d89cec25ad8aa5b28d8c96b72a828a9c62a6d8aa062a798c2412acb0ab25)))
  (.nd (.nd (.lf
  0x2a8b4a9ca2a710a59a2987ca5e12966ca5fe2973ca58829724b1782c5dcb37a2cd28b2fa2cee4b3b02cca8b6572c56cb1032cec4b3aa2ce98ab302a988aa5c2cdf0b36a2c780b1122cdf4b37b2cddcb3532cca0aaca2ab18aac32ccc8b32b2cca4b1e12c6d4b1852cf68b3612c798b1142c3e8aaa32aa44aa5d2cbfcb2f92cbccb346290c8a42e2c79cb1792bed8ab39)
  (.lf
  0x274246439147a051e61475851ce1472059c01472451b316200586e146885c67170bc5bc217330599c1666c5d861728059971611851961464870bc1b4306d0b1fca072331b41c7f1f1fbb86d00174485c5616ee487e81c8a071d2219b485f81e80087b6217ec7a341faf8723a1b3f09d1d201487f5b1fc707f051fc087ee41fb347eca21cd8869a1be7487421e95c7229))
  (.nd (.lf
  0x23ce48f3423c688f1c23d248f4823cec8f21249c4927023cfc8f3e249dc8ea423a5c8d47235188ea923b5c8ec823b848ee523ad88ecb23b908eca23b9c8ebd23ae48ee923ba08ee3234c48e850dd84375b0dd60359b0dcfc375d0ddb037d50ddf437bd0de3437ab0dd1837c70de7037860defc378b0de0437740de4837800ddf0378c0de2837b70de9437b80de9037a2)
  (.lf 0)))

def aesXorReads118 : BTree :=
  .nd (.nd (.nd (.lf
  0x46f3c43c14704c43bd4702c47fb4763447f74761447dd4763c48894758c47d1475544afb4761c47f3474dc47e54759c488f44c644b1944bed131f44c8c4b1544bad132544bbc4aff44b344ccb45e344ccd45d9c4cc145e144cc545dc44c9d45d244cd545df44c9345e044cb545d3c4cd14793443ab479b443a54797c47eb478a443c34794445494799443bf478bc43bb)
  (.lf
  0x3c194f0713c120f0a53c290f0703c1fcf0a33c21cf0893c220f0673a3f4e90141cecf7c841e34f77e41eccf7be3ab64ea573a940eae73ab8cea7d3db38f7353abd4f7093db5cf6f33abf8f7113dc08ed523dc8cf6e13ab74eab23db88eaf43ab70f6e03db58f71d3dbb4f70c3dbb8f6ec3dcc4f6fc3dbe0f6f23dc70f70d3dc28f7083dcc0f7103dce0f7343dd98f721))
  (.nd (.lf
  0xee843b960ef4c3bd00f0e83c250f0e43c2f0ee743b9b0ef643b980ee183b8c0ef443b8f0eec43bab0f0443c070ef0c3ba50f1083c370ed8439460ef6c3b990eee43b870ef903bda0f1243c350f0d83bff0ef783bd40ee803b810f1303c330f1103c310e4c039170e1cc3bb50edf83b9c0ee343b9f0edfc3b750edb83b6a0edf439310e4bc392d0ef803b970edac3b68)
  (.lf
  0x45fc917ea45e49120e4477d0fa445e5911dc446f50f6843ced17a54482111bc43da506ad460a117d045e550fa643ce906ac45f4911e043e89100643f690f7941bfd06fc41be90fb743eb90fad441990ff043ef90fb343e2906fe43eb10f7843dcd0f8c43e050f8d43e210f7241bf506f544091100e43f010f8041bed06f443f290fb643e1111504437110bb442d110b2)))
  (.nd (.nd (.lf
  0x2187885f621a4c862d2187c875e2198085ee1f5ac7ad91eb5c8ced23328879f21d88875f1ddac78c11e2e485fc217e885f723474870821b48864621d3c873f2191c87eb21a60869021fc47a681e21c7ec01faf07eba2025480582015079651dda477632016479261e44886ea21b8086de1e5487aac1e968787a1faec7eb31e54c776f1dd608ca1232408c8e201547759)
  (.lf
  0x30574c15a305a8c168305e0c17430740c18b30738c1ea30628c1b430644c19d30654c190306e8c19430810c1a230684c1a030670c19a306ccc1cc30728c1ac306d4c1b2306ecc1bf30724c1c430720c20530748c19b304f4c132305bcc16c30760c1c13075cc1cb304e4c137305d4c13430488c128305b4c12b30534c147306b4c1a33057cc14130780c1d3303f4c0d8))
  (.nd (.lf
  0xa144283c0a0d828340a12028460a11428420a14828500a180285c0a2b828730a2b028be0a1c82d210a2482d200a204287b0a260287a0b4f828cc0a2142d220a21028800a24428aa0a2a02d240a24c28900a264289d0a29c28a20a29828cd0a094281a0a15c28540a2c8289f0a2c428a90a084281f0a174281c0a02828100a15428130a0d4282f0b4fc2d250a11c2829)
  (.lf 0)))

def aesXorReads119 : BTree :=
  .nd (.nd (.nd (.lf
  0x8ec023f00484011c0045401250046c0117004d801a70053c018f0057c017d004f80199005b8015800644015d0054c014600590015200538015e005700189005dc018a005d801740065c0182005f0017a00638018c0062c01880066001960069801a2007d001b9007c80204006e01a47007601a460071c01c10077801c006928020a0072c1a480072801c60075c01f0)
  (.lf
  0x2f6b8bd8f2f968be412f948be3f2f5b0bb872ed7cbdc32f630bdaa2f66cbdad2f634bd7f2efb8bbec2f62cbd6d2f5acbd692f7b8bda52f614bd762efb4bb862f59cbc2e2f0a8be462f92cbe4a2f934be492f93cbe4e2f944be4c2f8c0be322f994be642f94cbe372f954be542f964be582f96cbdac2f6c4bd992f660bdb52f78cbdd42f7b4bdf12f708bdd72f7c0bdd6))
  (.nd (.lf
  0x992c264a0993426490993c264e09944264c098c826340997c265e0994c26390a9142a440995c26560a8fc25b8096f425a50969025c1097bc25e0097e425fd0973825e3097f025e2097fc25d50974426010980025fb095ec257f0f8c43dd00f72c3e390f8d43dcd0f7e03ea90f9443e910f9843e7f0f9203e9b0f9c03e5a0fa4c3e5f0f9543e000f9983e540f9403e60)
  (.lf 0))) (.nd (.nd (.lf
  0x387a4e1ff3879ce24c38910e29338a3ce22c38878e1de38654e29c38a34e29838a2ce1d1386c4e198387dce19238728e1c138734e193386b8e1a638644e1a338664e17b38144e2303878ce1bf386c8e1b0386bce1c2385f0dfcf389e8e27f389f8e281389f4e28338a08e29538a00e25c38978e26338988e29938984e29b38a68e29138a40e29d38730e1e1386e4e1b8)
  (.lf
  0x169e05a5e16890581f160485800168d8584e160e85b32167d859c516140580a1374c59d51673859b516cc05a001678859db1674059c4166d0580913748585d16018585e16134580b16020580716d285a1c16790585c16144584c167a859d41619064a4191b8645a191606449191145b6116d7c5b5c192a06490191105b6916d905858191205b5e16084585516088645b))
  (.nd (.lf
  0x13eac4fa913f9c4fa613e504f9a13f7c4f9d13efc4fb9145bc516913f444fb31458c504413ddc4f7413fa44fa713f1c4f9513fc84fe814124503913fb04fe213eb84f93145c0503714118503513da84f0f13b344fc313e404faa13e6c4fad13e444f7f13c404ece13e3c4f6b13da44f6713fb84fa513e1c4f1113c384f0a13de04f6e13d94503a140fc503e14104503d)
  (.lf 0)))

def aesXorReads120 : BTree :=
  .nd (.nd (.nd (.lf
  0x38cc51f30741c0df9190dc1d15038144ceb073bc0de1167241d7f0391c51cd0758c0e3d1477c1d210383c6add08b08221c07a20153e1b2bc233008c1022c9089901eaa0555815281aa2422cb089a4226608994225c089686949089a01ea6054a4695b08ae022670888822181a854231808c0022b408980221b07a8815541a874225e088641e98054fc83c7095182314)
  (.lf
  0x1967c65cf1973865c91954c5c0d17dbc5cc1172c05f7717dcc5d5d174085fe717e3c5fcf17e7c5fbd17e185fd917eb85f9817f445f9d17e4c5d0617e905f9217e385f9e17e705fc917edc5fca17ed85fb417f5c5fc217ef05fba17f385fcc17f2c5fc817f605fd617f985fe2180d05ff9180c8604417fe061711806061701801c6001180786000185d0604a1802c6172))
  (.nd (.lf
  0x419b1066441999066b419a90671419a50673419c906d941b6106454167902bf3fd84ff6040ad505d3416e905eb4195d05b0416fd0656416f905f94171d05bd417b505f5417b102ab3fd54fc953f13cfc4c402c4fcf93f14cfce6403f4fd7340354fd454032cfc924040500b6402d100d73f4f4fd093f400fd723f4f8fd083f510fd3c4036500bd4036900bc402e900e9)
  (.lf
  0x2b9f4ae9b2ba58ae912b9f892ed2bc38aee22ba94ae902ba20ae7c2ba88ae8e262789c58270b09ae226b109ab526ac498c6261ec9877271589c3626ac098c2261f4987826ad0987a25fec98bf24ba09ac52630098bd25fe892e9271d09ae326b8098be262f098b826af898ac261d89bbe26cd89b1726bc899e0262a49b1526c10989b26ef09b6226d549b06262a0989c)))
  (.nd (.nd (.lf
  0x2cd40b1706cec0ba802b140ac202d340b0b02cac0af902d580b4c02eb40b9d02d400b4602c480af306d480b9b02ea80b9902b2c0abb02ad80b2702bc00b0e02bfc0b1102bc40adf02b500ad002bbc0ab702ac40aaf02d480b0902b9c0ad102b200aba02b480abc02ab40b9e02e8c0ba202e940ba102e9c0ba602ea40ba402e280b8c02edc0bb602eac0b9106d3c1b4e)
  (.lf
  0x35448d52c35338d4f835354d4e135364d4d4353f8d4d8354d8d4e635394d4e435380d4de353dcd51035438d4f0353e4d4f6353fcd50335434d50835430d53735458d4df35204d476352ccd4b035468d50535464d50f351f4d47b352e4d47835198d46c352c4d46f35244d48b353c4d4e73528cd48535498d51735118d3f5352ecd47935264d46735310d4ba354b4d515))
  (.nd (.lf
  0xc4c4314a0c52032ce0c4cc31300c4e4313d0c51c31420c51831650c31430ba0c3dc30f40c548313f0c54431490c30430bf0c3f430bc0c2a830b00c3d430b30c35430cf0cb5432cf0c39c30c90cb2c315a0c21430600c3fc30bd0c37430ab0c42030fe0c57c314f0c40830f80c31030a50cb58314d0c570314b0c17c30360b44430d90c28830c00c2c430c30c28c3099)
  (.lf 0)))

def aesXorReads121 : BTree :=
  .nd (.nd (.nd (.lf
  0x126c449a51271c4b2d126b449a1126ec4b29103d440ef103b435870d61435810d19c34650d184307b0c1dc30730b2ac2ca90b29c208908214207f075341d49075140e2b0389c0e23359a43a780e9b0384e0dbd0d57d0eb683aae0e4d838c90e160370c0dc28d5a30e9b8393a0e4dc39280e4943923356cc39220e0f0370b356a43b5a0e9bc3a660e990d5fb0eb083aaa)
  (.lf
  0x36308d8b735fa0d6493616cd819360e4d80736190d85a36324d8b536178d85436080d65736330d8b336310d8b135facd7e735988d83535950d81c36034d81f35954d7f235fb8d64f35f84d6633594cd64336180d81735ff4d7ef35f98d7e435fc0d64435904d8b8362f4d8bc362fcd8bb36304d8c03630cd8be36288d8a436354d8d436314d8a93631cd8c63632cd8ca))
  (.nd (.lf
  0x2a5b4a9592a55ca9972a658a995297dc9a4d2c844b2202c8349a932c814b20f2c890b2712c8c4b27d2c914b24f2c870b2972c900b22e2ca24b2372c854b20a2c8f8b2302c850b2442c8d8b27f2c8f4b2622c970b23c2c99cb25a2c938b24c2c9f8b27c2c98cb2602ca58b2662c9c0b26a2cc64b2e22cb70b3182cb78b2862c9dcb2a72c9ecb2762ca38b27a2cb08b2b4)
  (.lf
  0x245588285249008c44209f0afc5268cc828a2312c827f201389249230f0828427a189fcc27da89eb8278c89e8c27b609f3827f409fc627d409eb4279f89ed027c909f14288c89f5827a909e76279989eca27cb89ec027a009f9227d189eaa278a89e9627b889f1c24b50987226168ae7a2b9d092c22b9b8982226ab898742610897f82457892e6262d8982c262989898)))
  (.nd (.nd (.lf
  0x29060a3df289349f6127d78a38928988a37828cf4a37b2898ca261288e09f842891c9f5f27d749f3528fa0a27128974a24c288e8a239289a0a24027ccca3d628f9ca3e629034a3e52907ca41e290eca41429030a41629074a41c2906ca41929134a44c28fb4a3ec28feca37a289f4a24b28928a27928e74a34a28f2ca40528e20a38d29010a38c28ecca3c928e2ca3cd)
  (.lf
  0x14668519315fbc51e91463c59ca1473c4dcb1476451b2137184f581370c4dbc13d084db2136b067e913bf84d9e13c5c4ebe13648534514ae8517c13d484dbd136344dad136244d8213ad44d95135f8529a13a184e8014da84d70135bc52fc1399c4d6b426d109a7470091bf1135484d2945ad91695133bc4cda27a709e41088f421f6087c821e70e558389b199a8664f))
  (.nd (.lf
  0x1874861f01878461f31874c61c5186e8520c187445895161f4587b188d061eb1872c61bb186c861ac186f061b6161e4628018a14628418a1c628318a24628818a2c6286189b0626e18a6c629a18a34627319004640018a4462901901461f2187dc61df1877861fb188a4621a188cc623718820621d188d8621c188e4620f1882c623b188e86235186f4589b231e884ab)
  (.lf 0)))

def aesXorReads122 : BTree :=
  .nd (.nd (.nd (.lf
  0x1e97c27ce09f247a9d09ee827b71e25c2a5a0a95c78d30b32820391f4842cda0810c7ae90c05078e10b29820271e39c306c082b4787f0b408205b1ea042cf00813c7abd0c0e8207121b5c21b707a148f71087341e8f2335c22790895c8705086cc1e7521bfc22250885c86b1086d41e9f232ac21c307a5484af0952422b32354c28d5094048d5b0a37c250f233442d2b)
  (.lf
  0x563015880569c156f055a415670582815c10567c158905600157205628157405594166a059bc166e059c4166d059cc1672059d4167005930164e05a9c16a6059dc1653059e4167805a1c168605a4c15c80573415b5056d015d1057fc15f005824160d0577815f30583015f20583c15e505784161105840160b0562c158f05014140004fe4140904ffc13fb05068148b))
  (.nd (.lf
  0x12fc04bee12ff84bfa131584c11131504c6a130404c3a1305c4c231306c4c16131004c1a131c84c281309c4c26130884c20130e44c52131404c32130ec4c38131044c451313c4c4a131384c7312f0c4bb812fd44bf2131704c471316c4c5112efc4bbd12fec4bba12ea04bae12fcc4bb112f4c4bcd130cc4c2912f944bc7131904c5912e084b7f12ff44bbb12f6c4ba9)
  (.lf
  0x3f3d8fcef3f240fc0c3f390fc463ee94fbdf3ee98fc513ef80fbdd3ee9cfba44041900c6402c0fc493ef78fbdc3f3c0fce83f148fdae3f4e0fd253f480fd153f440fc1f3f058fc153f6d8fd783f450fc213f060fbf43f490fc1e3ee3cfbf13ee30fd213efdcfbf23ee38fb8d41c10fd8e3f444fc1a3efd8fbf03f4a0fc223f05113723f1d0fc2f3eee0fafb3eb60fc69)))
  (.nd (.nd (.lf
  0x1c46470f31c55871501c6a471811c53871401c3f870f11c6d0717f1c678717d1bef06d4d1b52c711d1c3b871101c3d471131c3bc70e11b5406d4e1c3b46fbf1bef46fbb1c54871051c3746d4f1b5286d481bf006fb91beb871781c69471a41c68c71931c65471941c62c71961c648719c1c69c71a61c684719f1c6ec71ba1c6ac71aa1c6d471121c40470eb1c3a8710f)
  (.lf
  0x30f00a74b30f14c3c930f50c44130fa4c42930fe4c41730f68c43331020c3f2310acc3f730fb4c3e030ff8c3ec30fa0c3f830fd8c42331044c42431040c40e310c4c41c31058c414310a0c42631094c422310c8c43031100c43c31260c45331258c4d231148c47c31164c46531174c45831208c45c31498c46a311a4c46831190c462311ecc49431248c474311f4c47a))
  (.nd (.lf
  0x12290452b121a448a9122e049211232449091236448f7121884913123a048d21242c48d71233448c01237848cc1232048d8123584903123c44904123c048ee1244448fc123d848f412420490612414490212448491012480491c125b84933125b0497e124c84b23125484b2212504493b12560493a12d584984125144b4e12510494012544496a125a04b501254c4950)
  (.lf 0)))

def aesXorReads123 : BTree :=
  .nd (.nd (.nd (.lf
  0x45d81176a45de5177845ddd176d45e0d178245dbd176e45d15154c45545151b45469155745c45156445c9517534575115db45d4915da45c0515d94575d172745d451726454f514cd4679519c84671d19a54668d19dd467411a3d4680d1a0f467ed1a57466b91a21467c919ee4684519db467a519cc4680919f0467a119fa467691a13468251a1a468291a084687d1a56)
  (.lf
  0x398f0e66739918e60f396c4e5a63978ce5e039930e6353992ce63f396b4e5ab397a4e5a839658e59c39784e59f39704e5bb39884e6173974ce5b539950e647395e4e576397ace5a939724e597397d0e5ea39974e645397b8e5e4396c0e59539980e64339958e641395b0d437350d4e5c539648e5ac39674e5af3964ce58139558e55439644e56d395ace569397c0e5a7))
  (.nd (.lf
  0x4180104f03e040f7103db00fdd03e980fc403ed40fc703e9c0f9503e280f8603e940f6d03d9c0f65040200fbf03e740f8703df80f7003e200f7203d8c10540416410580416c105704174105c0417c105a041001042041bc106e04184104706efc1bbe04194106406edc0fc603f2c0fb303ec80fcf03ff40fee0401c100b03f700ff1040280ff0040340fe303f7c100f)
  (.lf
  0x12d704994126484b26126d84b5a12658499a12140469211e98489811ec0482811e58469811a503e140fd7045360f5e845780f7803db2109804226108a84294108b04274108c842281035840da103a040e21032040c61034840e6121384504114384894113b04826113f844f8116483e060fc9045320f5c845620f7703daa0e430385e0e18839700e0d8390a0e1483848)))
  (.nd (.nd (.lf
  0x36a1cd5cd35730dacf36b38da31369acda1136840da37368d8da8d36a30dadb3691cda4637504da5636964da58370dcda3f368f8d9fd369d4da7436a8cd5743e584f960357c4d61d3557cd59f35f0cd7c23553cd7c035ef0d7bf35ef8d54335508d7af35eb8d60b35828f94b3e528d65b35620d5573562cd58a35614d58435f74d54b3585cd62339e74e69b39a68e7b1)
  (.lf
  0x2fac0bde02f480bba02fa00bd002f180b2802bc80ada02b600ab902aac0ab502acc0aae02cb00b1402b540aca02ac00aaa02b1c0ab802ac80ace02aa40adb02b3c0ac602b040aac02d100b1802b640acc02b000aa802b580abe02ad00a160278009c80271809a70266409a302684099c028680a020270c09b8026780998026d409a60268009bc0265c09c9026f409b4))
  (.nd (.lf
  0x240c8901424ab890622407c92a424078901a240ac90442410892a6240b4902a240cc903724104903c24100906323efc8fb423fc48fee2413090392412c904323eec8fb923fdc8fb623e908faa23fbc8fad23f3c8fc924abc92a723f848fc324a4c905423e1c8f8423fe48fb723f5c8fa5240088ff824164904923ff08ff223ef88fa324ac0904724158904523de88cb3)
  (.lf 0)))

def aesXorReads124 : BTree :=
  .nd (.nd (.nd (.lf
  0xe2ac38a72aa7c3d9b0a7dcc2350f6f42a012a9643d530ba9cc25f0f58429e53091c3d3b0bb1caacf0f88c2a192aaf43de90a834aa1b0f6142e992aa5c2fc10b96caa370bf2c2e652a99c330d0cc1cab3b0bebc2e492a7b432e70cb7caad10bf7c2e7d2a8542fd50b9c4a9c30cce433372aa64343f0b344aa330d1242ce32a98435c50c0a4ab2b0d0b42cb72a7c435ad)
  (.lf
  0x2e0b0b80e2e05cb8142e074b8212e0acb8262e0a8b84f2e0d0b7fd2de44b78c2df44b7ce2e0e0b8232e0dcb82d2de7cb79d2df5cb78e2de18b1ac2df3cb7972debcb7a92e03cb8052df04b7a32e100b8352dde8b18d2df64b78f2dedcb7872df88b7d82e11cb8332df70b7d22de40b1a52e128b8312e108b82f2ddf4b7792ddd8b7b32c688b79e2c6b4b7a12c68cb19d))
  (.nd (.lf
  0x4559d149843db50f3143cb5149c450a903cf43e710f9b43e590f4e41939014444f1d13be44eed0f3c418f501454519513bf40f811add4526503c7420a5079441e4914424507114184505d058540a210f0e41b0513b240fd4f3723cdb10f1a41b4d015c420ed00a241ddd0774414b9052b41639053b414b5057541434f67e42115079343d19064f419250f97418ad0172)
  (.lf
  0x33d74cf5a33d60cf9d33d48cfad33e78cf5c33d4cc71134068cfee33ed4cfac33e98cf9c33ea8cf6431b50c8f832308c8ae322b0c89d32264c86f31d90c6fb323f0c8e432260c87231d98c6fd32270c76b31be8c76c31a6cc8af31db4c76a31da4c76232450c8e8322b4c87431da0c69a32298c876321b8ce4633840cc9733250cc8e33234cdd13370ccc8633928ce0e)))
  (.nd (.nd (.lf
  0x16b3c5a7d169745b0416c0c5a32160545aa7169645a8b169145ab216a985b0116bfc5a96169f85a64160745afd16bb85af816bb45a311688c583c16a6c581a169805a4b1698c581b168b85a2a1606459bf160f4580f160145a981695c5a3d168c05a2b168085a2c16040580316bc05af716bd85b0916bcc5b0b16c285b0516c205ae216b905b1716c585af916bd45afb)
  (.lf
  0x2b098ac0f2ad10aae52ab84ab932ad80ab7a2adacab7d2ad84ab512aba8aae82ad7cab452ad0cab412aef8ab752ad64aae92ab80aade2ad30ab462acfcac182b074ac1c2b07cac1b2b084ac202b094ac1e2b000ac022b124ac482b09cac072b0a4ac282b0bcac2e2b0d4ab7c2ae04ab692ada0ab852aeccaba42aef4abc12ae48aba72af00aba62af0cab992ae54abc5))
  (.nd (.lf
  0x236508dae2367c8db1236548d81233108cc22364c8d672358c8d61237c88da92362c8d68233688cc3235e08d6a2357c8e3e2390c8e42239148e412391c8e462392c8e44238a88e2c2397c8e5e239348e312462c918a239448e50246548db0236d48d9d236708db92379c8dd8237c48df5237188ddb237d08dda237dc8dcd237248df9237e08df3235e48d7b0bb642ed3)
  (.lf 0)))

def aesXorReads125 : BTree :=
  .nd (.nd (.nd (.lf
  0x43f710fe04407d0fe3440050ff3441d510734404d100d4425d109243f110f7b440c50fed4402d0fdd4416110304426d109144259107144129103a43fb90fdb44251108f446a1108d43efd0fbb43ee1100543f610ff843f850ffb43f650fc643ed50fb243f5d0fb943ebd0f8b441310feb43f1d0fba43e450f7443f210f8943e09107e4420d10824421510814421d1086)
  (.lf
  0x413050adb41251049b42b69049a4144d04994125d04c34131504c24109d04192ba64ae942ba34ae892ba4cae8f2baa0af192bb04af012bb44aeef2bac0af0b2bb80aeca2bc0caecf2bb14aeb82bb58aec42bb00aed02bb38aefb2bba4aefc2bba0aee62bc24aef42bbb8aeec2bc00aefe2bbf4aefa2bc28af082bc60af142bdc0af2b2bdb8af882bca8af542bcc4af3d))
  (.nd (.lf
  0x1c7306f941bd5471c41bd506f501bd846f7a1bde071c61bd8c6f601bda46f6d1bddc6f721bdd86f951bbd46eea1bc9c6f241be086f6f1be046f791bbc46eef1bcb46eec1bb686ee01bc946ee31bc146eff1c73471c71bc5c6ef91c70c6f8a1baf46eba1bcbc6eed1bc346edb1bce06f2e1be3c6f7f1bcc86f281bbd06ed91c7386f7d1be306f7b1bac06d991b65c6f09)
  (.lf
  0x33a64e6f533b3ccec3399e4cf34302b8ceb839b08cf3b33a60eb2c39968cec239bfce67839988e695399d0e64939abce6ed39a60e65b39a2ce6fe33b20c99e39ebce71539920e71939ab8e67539bb0e6c539a40f94735564cb6735864d595355ccd0a435ef4d553342e8d56b35528cdb535888d59135560d7ac355c8d56d35708d552354c0d545354fcd590342acd09b)))
  (.nd (.nd (.lf
  0x29e20a79929b8ca77029b84a6c829b4ca6cf298aca62929f78a78729de4a6c929af0a6aa29b28a6b42989ca86a2a1bca86e2a234a86d2a23ca88e2a25ca88c2a208a8842a29ca8a62a224a8872a22ca88a2a1e4a8782a26ca79829dfca6c329b08a78329edca85e29f54a86129e88a8652a190a86029f5ca7e129e94a7e329f88a7df29b2ca773319fcc67631d7cc606)
  (.lf
  0x3ee44facd3e9a4fca73e3ccec433efecf9373b0a0f5ac3c5c0e5313d5acf0d8394b4f22e39494e5133c82cf14f378dd07a941e55006741619027d3d9fd0287409d4f69242d4504f83dad50f9d43cd90142420e507784023d07d541dd5074141e45076f402a507be3df08f77f418b901603d1b9016d40568f48a43ea0f4613b88c754c199dc57e542118f7c93dee8f7cf))
  (.nd (.lf
  0x49a812650479411e919f7c67ae19b0466df19af0506d141a466e119ba0675319bb4673b19c2c672919bc0674519c68670419cf4670919bfc66f619c4066fe19bb0670a19c20673519c8c673619c88672019d0c672e19ca0672619ce8673819cdc673419d10674219d48674e19e80676519e7867b219d90690719e10690619dcc676d19e28676c1a42867c019ddc6908)
  (.lf 0)))

def aesXorReads126 : BTree :=
  .nd (.nd (.nd (.lf
  0x10a0042474159c4cd610a9c429e10a710b3f1325042fa10b8842af10a10426a1094904ff132d8429d10a284251416044cd210bd842c010a7c4282109ac4268414fc46ac1154043ac0f8711c5711c6846ee11acc458810e983f7c0fde90b3b11fb046b511634458a11624458042e44458c10f103f7b4723c46a21162c455411531056311c0846ea11a7845841153c43c0)
  (.lf
  0x3d274f4b23d290f49c3d2e4f4e43d358f4d23d330f4c43d2ccf4ac3d2e0f4b63d400f4dc3d478f4c13d468f51c3d300f4f13d3b8f50b3d3fcf4f03d3f8f4ea3d4f8f52e3d494f5243d430f50a3d504f5183d450f5103d500f4ef3d3acf5453d528f5133d448f53f3d480f50d3d298f4a13d2f0f4bb3d51cf5283d49cf5153d264f4933d374f4a83d200f4763d2f4f47d))
  (.nd (.lf
  0x9270246509110243a0901823e7093782499092e8249708f1422700556c241b08f90240208fcc240508f9423d708f30220608f8c2271089bc226d0911823fd08f7423cd08f1023be08f3823c8089ac24ae092cc24b2092d424b1092dc24b6092e424b409220248a093cc24f2092ec248f092f424bc0934424d00937c24040902423f108fc0240d090ec242c091142449)
  (.lf
  0x135901af813938526016288532614b58517e07ba81ee41559052b413a204e7614d2052ca07b201b36135d0536814aa04e6c14bf852ec07b181b28137a8565c14ab8533a14c5052c2087f81efa14d90536e14a804f0213bd04eb819ad866d2136184f48141884ef013b184d9a070401b66138384f60138b84da613c004ec006d101abe138104e34141c867ec13c704eda)))
  (.nd (.nd (.lf
  0x27a249e83279a89f8f27c5c9284267dc9ea927aa09f4227d149f4427e449e6d279b09ebf27c349f0c27b249e65279909ea3248cc923227d549f5427ecc9f1327b3c9ece27acc9eb227d3c9f4e27f149fcf27f389f1927b509ed727b589e8b278bc9e2e27da49fcb27f289e8524970afc72bf189a2f25f4c92412683c9a8d26a309157248f0923a24934924c269dc9a76)
  (.lf
  0x63c418f5063fc18fa063f81921061f41872062bc18ac0642818f7064241901061e41877062d41874061881868062b4186b062341887133fc4cf10627c18811336c1912060bc182c062dc18750625418630630018b6064641907062e818b0061f0185d134001905064581903060d41825060801891061681878061a4187b0616c1849060f8183a0616418210606c1819))
  (.nd (.lf
  0x243e890f62441c91202447892142442491062443c91132447491182447091452423490882433490ca244a091152449c911f2426c90992434c908a242088d162432c9093242ac90a5248549213242f4909f2494c9130241d88cfd24354908b242cc90832437890d4244d491252436090ce242308d11248809123244c89121241e49075241c890af23438909a2345c909d)
  (.lf 0)))

def aesXorReads127 : BTree :=
  .nd (.nd (.nd (.lf
  0x132404b4012b804ac0130004be012f404ba0132804c80136004d4014c004eb014b80544013a80514013c404fd013d404f00146804f4015300502014040500013f004fa0144c052c014a8050c0145405120146c051f014a40524014a0054d014c804fb0127404920133c04cc014d80521014d4052b01264049701354049401208048801334048b012b404a7014340503)
  (.lf
  0x34bdcd2f634bf4d2fc34bfcd24834934d235348d0d251349fcd27034a24d28d34978d27334a30d27234a3cd26534984d29134a40d28b3485cd21b2eddcbaff2ee2cbb6d2e86cba152e848b9e92e7b4ba172e898ba8f2e8dcba772e91cba652e810ba812e958ba402e9e4ba452e8ecba2e2e930ba3a2e8d8ba462e910ba712e97cba722e978ba5c2e9fcba6a2e990ba62))
  (.nd (.lf
  0x250009413250b09412250bc94072500c9431250c0942b24eec93bf04244108c0421410950422c1087042981117042fc10ff0433c10ed042b811090437810c80440410cd0430c10b60435010c2042f810ce0433010f90439c10fa0439810e40441c10f2043b010ea043f810fc043ec10f8044201106044581112045901129045881174044a01bcd045201bcc044dc1131)
  (.lf 0))) (.nd (.nd (.lf
  0x3c518f22f3c794f1e43c6b4f19c3c994f2643c4c4f1073c418f1533c83cf20e3c4e4e8d23a59ce9663ab3ceaa73a7c4ea5f3a86cea1a3a5e4e51e39408e8cf3a338ea653a990ea8b3aa28e9f93a7e0e95f3a578ea413a334e8a23a5bce96e3a314e8c43aa34ea273a7a4ef1b3efa4facf3eb38fbff3eff8fca93f2a0fa953a614e9823a3a8e8b03a61ce9863ef8cfbb1)
  (.lf
  0x1bf3c6fca1c160702c1bfcc6fea1bf906fda1bfa06d8a1b6006e141b7786dca1b49069d31a65c6db81b56c6d591b8606e001b6e86d671b57869961b7146d581a7486dc81b47c6dcb1b7246dc41b6fc6db61b8c06e041b6f86d601b4946d1e1b5a06d5a1b48876bc1da3876681d3d8747b1d1e476781d0cc74311db0076ae1d9e8747a1d0e874351d3e474781d0c8765f))
  (.nd (.lf
  0xccc82e310b9002e2f0b54c2d380a8cc2dbd0b6182da40b6542da70b61c2d7d0b5d82d720b6142d390b4dc2d350b7a02d9f0b5cc2d700b5542d520b5d02d6a0b4cc2e340b8e42e380b8ec2e370b8f42e3c0b8fc2e3a0b8802e220b9542e540b9042e270cc0c33020b9142e440cccc2da60b6ac2d930b6482daf0b7742dce0b79c2deb0b6f02dd10b7a82dd00b7b42dc3)
  (.lf 0)))

/-- The inputs of the XOR gates by wires: 18 bits each, 64 per leaf. -/
def aesXorReads : BTree :=
  .nd (.nd (.nd (.nd (.nd (.nd (.nd (aesXorReads0) (aesXorReads1)) (.nd (aesXorReads2) (aesXorReads3))) (.nd (.nd (aesXorReads4) (aesXorReads5)) (.nd
  (aesXorReads6) (aesXorReads7)))) (.nd (.nd (.nd (aesXorReads8) (aesXorReads9)) (.nd (aesXorReads10) (aesXorReads11))) (.nd (.nd (aesXorReads12) (aesXorReads13))
  (.nd (aesXorReads14) (aesXorReads15))))) (.nd (.nd (.nd (.nd (aesXorReads16) (aesXorReads17)) (.nd (aesXorReads18) (aesXorReads19))) (.nd (.nd (aesXorReads20)
  (aesXorReads21)) (.nd (aesXorReads22) (aesXorReads23)))) (.nd (.nd (.nd (aesXorReads24) (aesXorReads25)) (.nd (aesXorReads26) (aesXorReads27))) (.nd (.nd
  (aesXorReads28) (aesXorReads29)) (.nd (aesXorReads30) (aesXorReads31)))))) (.nd (.nd (.nd (.nd (.nd (aesXorReads32) (aesXorReads33)) (.nd (aesXorReads34)
  (aesXorReads35))) (.nd (.nd (aesXorReads36) (aesXorReads37)) (.nd (aesXorReads38) (aesXorReads39)))) (.nd (.nd (.nd (aesXorReads40) (aesXorReads41)) (.nd
  (aesXorReads42) (aesXorReads43))) (.nd (.nd (aesXorReads44) (aesXorReads45)) (.nd (aesXorReads46) (aesXorReads47))))) (.nd (.nd (.nd (.nd (aesXorReads48)
  (aesXorReads49)) (.nd (aesXorReads50) (aesXorReads51))) (.nd (.nd (aesXorReads52) (aesXorReads53)) (.nd (aesXorReads54) (aesXorReads55)))) (.nd (.nd (.nd
  (aesXorReads56) (aesXorReads57)) (.nd (aesXorReads58) (aesXorReads59))) (.nd (.nd (aesXorReads60) (aesXorReads61)) (.nd (aesXorReads62) (aesXorReads63)))))))
  (.nd (.nd (.nd (.nd (.nd (.nd (aesXorReads64) (aesXorReads65)) (.nd (aesXorReads66) (aesXorReads67))) (.nd (.nd (aesXorReads68) (aesXorReads69)) (.nd
  (aesXorReads70) (aesXorReads71)))) (.nd (.nd (.nd (aesXorReads72) (aesXorReads73)) (.nd (aesXorReads74) (aesXorReads75))) (.nd (.nd (aesXorReads76)
  (aesXorReads77)) (.nd (aesXorReads78) (aesXorReads79))))) (.nd (.nd (.nd (.nd (aesXorReads80) (aesXorReads81)) (.nd (aesXorReads82) (aesXorReads83))) (.nd (.nd
  (aesXorReads84) (aesXorReads85)) (.nd (aesXorReads86) (aesXorReads87)))) (.nd (.nd (.nd (aesXorReads88) (aesXorReads89)) (.nd (aesXorReads90) (aesXorReads91)))
  (.nd (.nd (aesXorReads92) (aesXorReads93)) (.nd (aesXorReads94) (aesXorReads95)))))) (.nd (.nd (.nd (.nd (.nd (aesXorReads96) (aesXorReads97)) (.nd
  (aesXorReads98) (aesXorReads99))) (.nd (.nd (aesXorReads100) (aesXorReads101)) (.nd (aesXorReads102) (aesXorReads103)))) (.nd (.nd (.nd (aesXorReads104)
  (aesXorReads105)) (.nd (aesXorReads106) (aesXorReads107))) (.nd (.nd (aesXorReads108) (aesXorReads109)) (.nd (aesXorReads110) (aesXorReads111))))) (.nd (.nd
  (.nd (.nd (aesXorReads112) (aesXorReads113)) (.nd (aesXorReads114) (aesXorReads115))) (.nd (.nd (aesXorReads116) (aesXorReads117)) (.nd (aesXorReads118)
  (aesXorReads119)))) (.nd (.nd (.nd (aesXorReads120) (aesXorReads121)) (.nd (aesXorReads122) (aesXorReads123))) (.nd (.nd (aesXorReads124) (aesXorReads125)) (.nd
  (aesXorReads126) (aesXorReads127)))))))

def aesXorFan0 : BTree :=
  .nd (.nd (.nd (.lf
  0x1111111111111111111111111111111111111111111111111111111111111111111111111111111111111111111111111111111111111111111111111111111122222222222222222222222222222222222222222222222222222222222222222222222222222222222222222222222285854785858547858585478585854785)
  (.lf
  0x3333333333333333333333333333333333333333333333333333333333333333333333333333333333333333333333333333333333333333333333333333333333333333333333333333333333333333333333333333333333333333333333333333333333333333333333333333333333333333333333333333333333333333))
  (.nd (.lf
  0x3463111021110211102111111111111111121212110022102010010010000001222322320020313000400200200000021223233111121121122222312222222222022223222346311102111021110211111111111111112121211000010201001001000000122232232002031300040020020000002122323311112112112222)
  (.lf 0))) (.nd (.nd (.lf
  0x1223233111121121122222231222222222202222322234631110211102111021111111111111111212121100201020100100100000012223223200203130004002002000000212232331111211211222222312222222222022223222346311102111021110211111111111111112121211111111111111111111111111233333)
  (.lf 0)) (.nd (.lf
  0x1021111111111111111212121100001020100100100000012223223200203130004002002000000212232331111211211222223122222222220222232223463111021110211102111111111111111121212110000102010010010000001222322320020313000400200200000021223233111121121122222312222222222022)
  (.lf 0)))

def aesXorFan1 : BTree :=
  .nd (.nd (.nd (.lf
  0x4002002000000212232331111211211222223122222222220222232223463111021110211102111111111111111121212110022102010010010000001222322320020313000400200200000021223233111121121122222312222222222022223222346311102111021110211111111111111112121211000010201001001000)
  (.lf 0x0)) (.nd (.lf
  0x2031300040020020000002122323311112112112222231222222222202222322234631110211102111021111111111111111212121100001020100100100000012223223200203130004002002000000212232331111211211222223122222222220222232223463111021110211102111111111111111121212110000102010)
  (.lf 0))) (.nd (.nd (.lf
  0x10000001222322320020313000400200200000021223233111121121122222312222222222202222322234631110211102111021111111111111111212121100001020100100100000012223223200203130004002002000000212232331111211211222223122222222222022223222346311102111021110211111111111)
  (.lf 0)) (.nd (.lf
  0x3122222222220222232223463111021110211102111111111111111121212110022102010010010000001222322320020313000400200200000021223233111121121122222231222222222202222322234631110211102111021111111111111111212121102001020100100100000012223223200203130004002002000000)
  (.lf 0)))

def aesXorFan2 : BTree :=
  .nd (.nd (.nd (.lf
  0x1211000010201001001000000122232232002031300040020020000002122323311112112112222231222222222220222232223463111021110211102111111111111111121212110000102010010010000001222322320020313000400200200000021223233111121121122222312222222222202222322234631110211102)
  (.lf
  0x1111111133333333333331133333333333113111333333333133331313333313333331131133333331111111111111111111111111111111111111111111111111111111111111111111111111111111111111111111111111111111111111111111111111111111133333333333331133333333333113111333333333133331))
  (.nd (.lf
  0x2121100001020100100100000012223223200203130004002002000000212232331111211211222223122222222220222232223463111021110211102111111111111111121212110000102010010010000001222322320020313000400200200000021223233111121121122222312222222222022223222346311102111021)
  (.lf 0))) (.nd (.nd (.lf
  0x313000400200200000021223233111121121122222231222222222202222322234631110211102111021111111111111111212121100201020100100100000012223223200203130004002002000000212232331111211211222222312222222222022223222346311102111021110211111111111111112121211333311111)
  (.lf 0)) (.nd (.lf
  0x3223200203130004002002000000212232331111211211222222312222222222022223222346311102111021110211111111111111112121211000010201001001000000122232232002031300040020020000002122323311112112112222223122222222220222232223463111021110211102111111111111111121212110)
  (.lf 0)))

def aesXorFan3 : BTree :=
  .nd (.nd (.nd (.lf
  0x1111121121111111111112211111121121111111111111112112111111110000102010010010000001222322320020313000400200200000021223233111121121122222312222222222022223222346311102111021110211111111111111112121211000010201001001000000122232232002031300040020020000002122)
  (.lf 0)) (.nd (.lf
  0x1122222312222222222022223222346311102111021110211111111111111112121211000010201001001000000122232232002031300040020020000002122323311112112112222231222222222202222322234631110211102111021111111111111111212121100001020100100100000012223223200203130004002002)
  (.lf 0))) (.nd (.nd (.lf
  0x3111121121122222312222222222022223222346311102111021110211111111111111112121211000010201001001000000122232232002031300040020020000002122323311112112112222231222222222202222322234631110211102111021111111111111111212121100001020100100100000012223223200203130)
  (.lf 0)) (.nd (.lf
  0x1111212121100001020100100100000012223223200203130004002002000000212232331111211211222222312222222222022223222346311102111021110211111111111111112121211000010201001001000000122232232002031300040020020000002122323311112112112222223122222222220222232223463111)
  (.lf 0)))

def aesXorFan4 : BTree :=
  .nd (.nd (.nd (.lf
  0x5874585858745858587458585874585833333333333333333333333322322333333333333333333333333333223223333333333333333333333333332232233311111111111111111111111111111111222222222222222222222222211211222222222222222222222222222112112222222222222222222222222221121122)
  (.lf
  0x6363632563636325636363256363632563636325636363256363632563636325636363256363632563636325636363256363632563636325636363256363632563636325636363256363632563636325636363256363632563636325636363256363632563636325636363256363632563636325636363256363632563636325))
  (.nd (.lf
  0x2000000212232331111211211222223122222222220222232223463111021110211102111111111111111121212110000102010010010000001222322320020313000400200200000021223233111121121122222312222222222022223222346311102111021110211111111111111112121211002010201001001000000122)
  (.lf 0))) (.nd (.nd (.lf
  0x1111111111111111111112333333333313333231233133123333313323332333333233333333342243222332363331111111111110101111111011111111111111111101111111111111012111101111111211011111111111111221111101111111111121101111111111101112111111111101111011011111011111111111)
  (.lf 0)) (.nd (.lf
  0x1122222231222222222202222322234631110211102111021111111111111111212121100001020100100100000012223223200203130004002002000000212232331111211211222222312222222222022223222346311102111021110211111111111111112121211022210201001001000000122232232002031300040020)
  (.lf 0)))

def aesXorFan5 : BTree :=
  .nd (.nd (.nd (.lf
  0x2331111211211222223122222222220222232223463111021110211102111111111111111121212111111111121121111111111111112112111111221111111111112112111111111111121111011111011112111111111110111110110111101111111111211101111111111101121111111311110111112211111111111111)
  (.lf 0)) (.nd (.lf
  0x1111111111112121211000010201001001000000122232232002031300040020020000002122323311112112112222231222222222202222322234631110211102111021111111111111111212121100001020100100100000012223223200203130004002002000000212232331111211211222223122222222220222232223)
  (.lf 0))) (.nd (.nd (.lf
  0x1102111021111111111111111212121100001020100100100000012223223200203130004002002000000212232331111211211222223122222222222022223222346311102111021110211111111111111112121211000010201001001000000122232232002031300040020020000002122323311112112112222231222222)
  (.lf 0)) (.nd (.lf
  0x313000400200200000021223233111121121122222231222222222202222322234631110211102111021111111111111111212121100001020100100100000012223223200203130004002002000000212232331111211211222222312222222222022223222346311102111021110211111111111111112121211020010201)
  (.lf 0)))

def aesXorFan6 : BTree :=
  .nd (.nd (.nd (.lf
  0x2223222346311102111021110211111111111111112121211000010201001001000000122232232002031300040020020000002122323311112112112222231222222222220222232223463111021110211102111111111111111121212110000102010010010000001222322320020313000400200200000021223233111121)
  (.lf
  0x1111111111111111111111111113333333333333113333333333311311133333333313333131333331333333113113333333111111111111111111111111111111111111111111111111111111111111111111111111111111111111111111111111111111111111111111111111111111113333333333333113333333333311))
  (.nd (.lf
  0x2222202222322234631110211102111021111111111111111212121100001020100100100000012223223200203130004002002000000212232331111211211222223122222222220222232223463111021110211102111111111111111121212110200102010010010000001222322320020313000400200200000021223233)
  (.lf 0))) (.nd (.nd (.lf
  0x1131111111211011111111111011121111111111011110110111110111111111112111101111101111211111111111112112111111111111221111112112111111111111111211211111111000010201001001000000122232232002031300040200200000021223233111121121122222230122222222220222232223463111)
  (.lf 0)) (.nd (.lf
  0x1111111111112121211002210201001001000000122232232002031300040020020000002122323311112112112222223122222222220222232223463111021110211102111111111111111121212110200102010010010000001222322320020313000400200200000021223233111121121122222231222222222202222322)
  (.lf 0)))

def aesXorFan7 : BTree :=
  .nd (.nd (.nd (.lf
  0x2031300040020020000002122323311112112112222223122222222220222232223463111021110211102111111111111111121212110020102010010010000001222322320020313000400200200000021223233111121121122222231222222222202222322234631110211102111021111111111111111212121133111111)
  (.lf 0)) (.nd (.lf
  0x122232232002031300040020020000002122323311112112112222223122222222220222232223463111021110211102111111111111111121212110000102010010010000001222322320020313000400200200000021223233111121121122222231222222222202222322234631110211102111021111111111111111212)
  (.lf 0))) (.nd (.nd (.lf
  0x10010000001222322320020313000400200200000021223233111121121122222312222222222022223222346311102111021110211111111111111112121211000010201001001000000122232232002031300040020020000002122323311112112112222231222222222202222322234631110211102111021111111111)
  (.lf 0)) (.nd (.lf
  0x2222202222322234631110211102111021111111111111111212121100001020100100100000012223223200203130004002002000000212232331111211211222223122222222220222232223463111021110211102111111111111111121212110000102010010010000001222322320020313000400200200000021223233)
  (.lf 0)))

def aesXorFan8 : BTree :=
  .nd (.nd (.nd (.lf
  0x5874585858745858587458585874585833333333333333333333333333332333333333333333333333333333333323333333333333333333333333333333233358745858587458585874585858745858333333333333333333333333333332333333333333333333333333333333323333333333333333333333333333333233)
  (.lf
  0x6363632563636325636363256363632563636325636363256363632563636325636363256363632563636325636363256363632563636325636363256363632563636325636363256363632563636325636363256363632563636325636363256363632563636325636363256363632563636325636363256363632563636325))
  (.nd (.lf
  0x10201001001000000122232232002031300040020020000002122323311112112112222231222222222202222322234631110211102111021111111111111111212121100001020100100100000012223223200203130004002002000000212232331111211211222223122222222220222232223463111021110211102111)
  (.lf 0))) (.nd (.nd (.lf
  0x3333313333231233133123333313323332333333233333333342243222332363331111111111110101111111011111111111111113110111111111111101211110111111121101111111111111122111110111131111111211011111111111011121111111111011110110111110111111111112111101111101111211111111)
  (.lf 0)) (.nd (.lf
  0x1222322320020313000400200200000021223233111121121122222231222222222202222322234631110211102111021111111111111111212121102001020100100100000012223223200203130004002002000000212232331111211211222222312222222222022223222346311102111021110211111111111111112121)
  (.lf 0)))

def aesXorFan9 : BTree :=
  .nd (.nd (.nd (.lf
  0x2222022223222346311102111021110211111111111111112121211020010201001001000000122232232002031300040020020000002122323311112112112222231222222222202222322234631110211102111021111111111111111212121102001020100100100000012223223200203130004002002000000212232331)
  (.lf 0)) (.nd (.lf
  0x3122222222220222232223463111021110211102111111111111111121212110000102010010010000001222322320020313000400200200000021223233111121121122222312222222222022223222346311102111021110211111111111111112121211002010201001001000000122232232002031300040020020000002)
  (.lf 0))) (.nd (.nd (.lf
  0x3111121121122222312222222222202222322234631110211102111021111111111111111212121100001020100100100000012223223200203130004002002000000212232331111211211222223122222222222022223222346311102111021110211111111111111112121211000010201001001000000122232232002031)
  (.lf 0)) (.nd (.lf
  0x1111111121212110000102010010010000001222322320020313000400200200000021223233111121121122222231222222222202222322234631110211102111021111111111111111212121100001020100100100000012223223200203130004002002000000212232331111211211222222312222222222022223222346)
  (.lf 0)))

def aesXorFan10 : BTree :=
  .nd (.nd (.nd (.lf
  0x2002000000212232331111211211222223122222222220222232223463111021110211102111111111111111121212110000102010010010000001222322320020313000400200200000021223233111121121122222312222222222202222322234631110211102111021111111111111111212121100001020100100100000)
  (.lf
  0x1111111111111111111111111111111111111111111111111111111111111111111111111111111111111111111111111111111111111111111111333333333333311333333333331131113333333331333313133333133333311311333333311111111111111111111111111111111111111111111111111111111111111111))
  (.nd (.lf
  0x400200200000021223233111121121122222312222222222022223222346311102111021110211111111111111112121211000010201001001000000122232232002031300040020020000002122323311112112112222231222222222202222322234631110211102111021111111111111111212121100001020100100100)
  (.lf 0))) (.nd (.nd (.lf
  0x2222222202222322234631110211102111021111111111111111212121100001020100100100000012223223200203130004002002000000212232331111211211222222312222222222022223222346311102111021110211111111111111112121211000010201001001000000122232232002031300040020020000002122)
  (.lf 0)) (.nd (.lf
  0x2222312222222222022223222346311102111021110211111111111111112121211000010201001001000000122232232002031300040020020000002122323311112112112222223122222222220222232223463111021110211102111111111111111121212110000102010010010000001222322320020313000400200200)
  (.lf 0)))

def aesXorFan11 : BTree :=
  .nd (.nd (.nd (.lf
  0x1110111110111121111111111111211211111111111122111111211211111111111111121121111111100001020100100100000012223223200203130004002002000000212232331111211211222222312222222222022223222346311102111021110211111111111111112121211333331111111111111111111111112333)
  (.lf 0)) (.nd (.lf
  0x1021111111111111111212121100201020100100100000012223223200203130004002002000000212232331111211211222223122222222220222232223463111021110211102111111111111111121212110000102010010010000001222322320020313000400200200000021223233111121121122222312222222222022)
  (.lf 0))) (.nd (.nd (.lf
  0x211102111021111111111111111212121100001020100100100000012223223200203130004002002000000212232331111211211222223122222222220222232223463111021110211102111111111111111121212110000102010010010000001222322320020313000400200200000021223233111121121122222312222)
  (.lf 0)) (.nd (.lf
  0x4002002000000212232331111211211222222312222222222022223222346311102111021110211111111111111112121211000010201001001000000122232232002031300040020020000002122323311112112112222223122222222220222232223463111021110211102111111111111111121212110000102010010)
  (.lf 0)))

def aesXorFan12 : BTree :=
  .nd (.nd (.nd (.lf
  0x2022223222346311102111021110211111111111111112121211000010201001001000000122232232002031300040020020000002122323311112112111121212111111111111111120111201112011136432222232222232202222222222210000111111111111000011111111111101110111011101110111011101110111)
  (.lf
  0x1111111111111111111111111163632563636325636363256363632563636325636363256363632563636325636363256363632563636325636363256363632563636325636363256363632563636325636363256363632563636325636363256363632563636325636363256363632563636325636363256363632563636325))
  (.nd (.lf
  0x2223222346311102111021110211111111111111112121211020010201001001000000122232232002031300040020020000002122323311112112112222231222222222202222322234631110211102111021111111111111111212121102001020100100100000012223223200203130004002002000000212232331111211)
  (.lf 0))) (.nd (.nd (.lf
  0x1111011111011112111311111111112112111111111111221111112112111111111111111211211111111020010201001001000000122232232002031300040020020000002122323311112112112222223122222222220222232223463111021110211102111111111111111121212110000102010010010000001222322320)
  (.lf 0)) (.nd (.lf
  0x1111111111111111212121100001020100100100000012223223200203130004002002000000212232331111211211222222312222222222022223222346311102111021110211111111111111112121211002010201001001000000122232232002031300040020020000002122323311112112112222223122222222220222)
  (.lf 0)))

def aesXorFan13 : BTree :=
  .nd (.nd (.nd (.lf
  0x3333313333231233133123333313323332333333233333333342243222332363331111111111110101111111011111111111111111101111111111111012111101111111211011111111111111221111101111111111121101111111111101112111111111101111011011111011111111111211110111110111121111111111)
  (.lf 0)) (.nd (.lf
  0x3223200203130004002002000000212232331111211211222223122222222220222232223463111021110211102111111111111111121212110000102010010010000001222322320020313000400200200000021223233111121121122222312222222222022223222346311102111021110211111111111111112121211000)
  (.lf 0))) (.nd (.nd (.lf
  0x12223223200203130004002002000000212232331111211211222223122222222222022223222346311102111021110211111111111111112121211000010201001001000000122232232002031300040020020000002122323311112112112222231222222222220222232223463111021110211102111111111111111)
  (.lf 0)) (.nd (.lf
  0x2222222202222322234631110211102111021111111111111111212121100001020100100100000012223223200203130004002002000000212232331111211211222222312222222222022223222346311102111021110211111111111111112121211000010201001001000000122232232002031300040020020000002122)
  (.lf 0)))

def aesXorFan14 : BTree :=
  .nd (.nd (.nd (.lf
  0x2121100001020100100100000012223223200203130004002002000000212232331111211211222223122222222220222232223463111021110211102111111111111111121212110020102010010010000001222322320020313000400200200000021223233111121121122222312222222222022223222346311102111021)
  (.lf
  0x1111111111111111111111111111111111111111111111111111111111111111111111111111111111111111111111111111111111111111111111111111111111111111133333333333331133333333333113111333333333133331313333313333331131133333331111111111111111111111111111111111111111111111))
  (.nd (.lf
  0x1111121212110020102010010010000001222322320020313000400200200000021223233111121121122222312222222222022223222346311102111021110211111111111111112121211000010201001001000000122232232002031300040020020000002122323311112112112222231222222222202222322234631110)
  (.lf 0))) (.nd (.nd (.lf
  0x1021110211102111111111111111121212110000102010010010000001222322320020313000400200200000021223233111121121122222312222222222202222322234631110211102111021111111111111111212121100001020100100100000012223223200203130004002002000000212232331111211211222223122)
  (.lf 0)) (.nd (.lf
  0x2002031300040020020000002122323311112112112222223122222222220222232223463111021110211102111111111111111121212110022102010010010000001222322320020313000400200200000021223233111121121122222231222222222202222322234631110211102111021111111111111111212121102001)
  (.lf 0)))

def aesXorFan15 : BTree :=
  .nd (.nd (.nd (.lf
  0x1111211321111111111112211111121121111111111111112112111111110200102010010010000001222322320020313000400200200000021223233111121121122222231222222222202222322234631110211102111021111111111111111212121100001020100100100000012223223200203130004002002000000212)
  (.lf 0)) (.nd (.lf
  0x2112222223122222222220222232223463111021110211102111111111111111121212110000102010010010000001222322320020313000400200200000021223233111121121122222231222222222202222322234631110211102111021111111111111111212121100201020100100100000012223223200203130004002)
  (.lf 0))) (.nd (.nd (.lf
  0x2122323311112112112222231222222222202222322234631110211102111021111111111111111212121100001020100100100000012223223200203130004002002000000212232331111211211222223122222222220222232223463111021110211102111111111111111121212110000102010010010000001222322320)
  (.lf 0)) (.nd (.lf
  0x1111121212110000102010010010000001222322320020313000400200200000021223233111121121122222312222222222022223222346311102111021110211111111111111112121211022210201001001000000122232232002031300040020020000002122323311112112112222231222222222202222322234631110)
  (.lf 0)))

def aesXorFan16 : BTree :=
  .nd (.nd (.nd (.lf
  0x5874585858745858587458585874585833333333333333333333333323333333333333333333333333333333233333333333333333333333333333332333333358745858587458585874585858745858333333333333333333333333323333333333333333333333333333333233333333333333333333333333333332333333)
  (.lf
  0x6363632563636325636363256333333333333333333344444444433333333333333333333333333333333333333333333333333333333333333333333333333333333333333333333333333333333333333333333333333333333333333333333333333333333333333333333333333333333333333333333333333333333333))
  (.nd (.lf
  0x1111111111111212121102221020100100100000012223223200203130004002002000000212232331111211211222223122222222220222232223463111021110211102111111111111111121212110222102010010010000001222322320020313000400200200000021223233111121121122222312222222222022223222)
  (.lf 0))) (.nd (.nd (.lf
  0x1111121132111111311111122111111211211111111111111121121111111100201020100100100000012223223200203130004002002000000212232331111211211222222312222222222022223222346311102111021110211111111111111112121211022210201001001000000122232232002031300040020020000002)
  (.lf 0)) (.nd (.lf
  0x2110000102010010010000001222322320020313000400200200000021223233111121121122222231222222222202222322234631110211102111021111111111111111212121100001020100100100000012223223200203130004002002000000212232331111211211222223122222222220222232223463111021110211)
  (.lf 0)))

def aesXorFan17 : BTree :=
  .nd (.nd (.nd (.lf
  0x1112112112222231222222222202222322234631110211102111021111111111111111212121100001020100100100000012223223200203130004002002000000212232331111211211222223122222222220222232223463111021110211102111111111111111121212110000102010010010000001222322320020313000)
  (.lf 0)) (.nd (.lf
  0x1223233111121121122222312222222222022223222346311102111021110211111111111111112121211000010201001001000000122232232002031300040020020000002122323311112112112222231222222222202222322234631110211102111021111111111111111212121100001020100100100000012223223200)
  (.lf 0))) (.nd (.nd (.lf
  0x3000400200200000021223233111121121122222312222222222202222322234631110211102111021111111111111111212121100001020100100100000012223223200203130004002002000000212232331111211211222223122222222222022223222346311102111021110211111111111111112121211000010201001)
  (.lf 0)) (.nd (.lf
  0x3111021110211102111111111111111121212110000102010010010000001222322320020313000400200200000021223233111121121122222231222222222202222322234631110211102111021111111111111111212121100001020100100100000012223223200203130004002002000000212232331111211211222222)
  (.lf 0)))

def aesXorFan18 : BTree :=
  .nd (.nd (.nd (.lf
  0x122232232002031300040020020000002122323311112112112222223122222222220222232223463111021110211102111111111111111121212110000102010010010000001222322320020313000400200200000021223233111121121122222312222222222202222322234631110211102111021111111111111111212)
  (.lf
  0x1111111111111111111111111111111111111111111111111111111111111113333333333333113333333333311311133333333313333131333331333333113113333333111111111111111111111111111111111111111111111111111111111111111111111111111111111111111111111111111111111111111111111111))
  (.nd (.lf
  0x122232232002031300040020020000002122323311112112112222231222222222202222322234631110211102111021111111111111111212121100001020100100100000012223223200203130004002002000000212232331111211211222223122222222220222232223463111021110211102111111111111111121)
  (.lf 0))) (.nd (.nd (.lf
  0x3233111121121122222231222222222202222322234631110211102111021111111111111111212121100001020100100100000012223223200203130004002002000000212232331111211211222222312222222222022223222346311102111021110211111111111111112121211000010201001001000000122232232002)
  (.lf 0)) (.nd (.lf
  0x212232331111211211222222312222222222022223222346311102111021110211111111111111112121211002010201001001000000122232232002031300040020020000002122323311112112112222223122222222220222232223463111021110211102111111111111111121212110000102010010010000001222)
  (.lf 0)))

def aesXorFan19 : BTree :=
  .nd (.nd (.nd (.lf
  0x3333333133332312331331233333133233323333332333333333422432223323633311111111111101011111110111111111111111111011111111111110121111011111112110111111111111112211111011111111111211011111111111011121111111111011110110111110111111111112111101111101111211111111)
  (.lf 0)) (.nd (.lf
  0x2232223463111021110211102111111111111111121212110222102010010010000001222322320020313000400200200000021223233111121121122222312222222222022223222346311102111021110211111111111111112121211000010201001001000000122232232002031300040020020000002122323311112112)
  (.lf 0))) (.nd (.nd (.lf
  0x2222220222232223463111021110211102111111111111111121212110200102010010010000001222322320020313000400200200000021223233111121121122222312222222222022223222346311102111021110211111111111111112121211002010201001001000000122232232002031300040020020000002122323)
  (.lf 0)) (.nd (.lf
  0x100000012223223200203130004002002000000212232331111211211222222312222222222022223222346311102111021110211111111111111112121211000010201001001000000122232232002031300040020020000002122323311112112112222223122222222220222232223463111021110211102111111111111)
  (.lf 0)))

def aesXorFan20 : BTree :=
  .nd (.nd (.nd (.lf
  0x5874585858745858587458585874585833333333333333333333333333333323333333333333333333333333333333233333333333333333333333333333332358745858587458585874585858745858333333333333333333333333333333323333333333333333333333333333333233333333333333333333333333333332)
  (.lf
  0x6363632563636325636363256363632563636325636363256363632563636325636363256363632563636325636363256363632563636325636363256363632563636325636363256363632563636325636363256363632563636325636363256363632563636325636363256363632563636325636363256363632563636325))
  (.nd (.lf
  0x2112222231222222222202222322234631110211102111021111111111111111212121100001020100100100000012223223200203130004002002000000212232331111211211222223122222222220222232223463111021110211102111111111111111121212110000102010010010000001222322320020313000400200)
  (.lf 0))) (.nd (.nd (.lf
  0x203130004002002000000212232331111211211222222312222222222022223222346311102111021110211111111111111112121211000010201001001000000122232232002031300040020020000002122323311112112112222223122222222220222232223463111021110211102111111111111111121212113333111)
  (.lf 0)) (.nd (.lf
  0x2322234631110211102111021111111111111111212121100001020100100100000012223223200203130004002002000000212232331111211211222222312222222222022223222346311102111021110211111111111111112121211000010201001001000000122232232002031300040020020000002122323311112112)
  (.lf 0)))

def aesXorFan21 : BTree :=
  .nd (.nd (.nd (.lf
  0x1112112111111111111221111112112111111111111111211211111111020010201001001000000122232232002031300040020020000002122323311112112112222223122222222220222232223463111021110211102111111111111111121212110200102010010010000001222322320020313000400200200000021223)
  (.lf 0)) (.nd (.lf
  0x102010010010000001222322320020313000400200200000021223233111121121122222312222222222022223222346311102111021110211111111111111112121211000010201001001000000122232232002031300040020020000002122323311112112112222231222222222202222322234631110211102111021111)
  (.lf 0))) (.nd (.nd (.lf
  0x1212121100001020100100100000012223223200203130004002002000000212232331111211211222223122222222222022223222346311102111021110211111111111111112121211000010201001001000000122232232002031300040020020000002122323311112112112222231222222222220222232223463111021)
  (.lf 0)) (.nd (.lf
  0x3233111121121122222231222222222202222322234631110211102111021111111111111111212121100001020100100100000012223223200203130004002002000000212232331111211211222222312222222222022223222346311102111021110211111111111111112121211000010201001001000000122232232002)
  (.lf 0)))

def aesXorFan22 : BTree :=
  .nd (.nd (.nd (.lf
  0x1102111111111111111121212110000102010010010000001222322320020313000400200200000021223233111121121122222312222222222022223222346311102111021110211111111111111112121211000010201001001000000122232232002031300040020020000002122323311112112112222231222222222202)
  (.lf
  0x1111111111111111111111111111111111111111111111111111111111111111111111111111111111333333333333311333333333331131113333333331333313133333133333311311333333311111111111111111111111111111111111111111111111111111111111111111111111111111111111111111111111111111))
  (.nd (.lf
  0x2111021110211111111111111112121211000010201001001000000122232232002031300040020020000002122323311112112112222231222222222202222322234631110211102111021111111111111111212121100001020100100100000012223223200203130004002002000000212232331111211211222223122222)
  (.lf 0))) (.nd (.nd (.lf
  0x2222222220222232223463111021110211102111111111111111121212113311111111111111111111111123333333333133332312331331233333133233323333332333333333422432223323633311111111111101011111110111111111111111111011111111111110121111011111112110111111111111112211111011)
  (.lf 0)) (.nd (.lf
  0x201001001000000122232232002031300040020020000002122323311112112112222223122222222220222232223463111021110211102111111111111111121212110222102010010010000001222322320020313000400200200000021223233111121121122222231222222222202222322234631110211102111021111)
  (.lf 0)))

def aesXorFan23 : BTree :=
  .nd (.nd (.nd (.lf
  0x2323311112112112222223122222222220222232223463111021110211102111111111111111121212110000102010010010000001222322320020313000400200200000021223233111121121122222231222222222202222322234631110211102111021111111111111111212121100221020100100100000012223223200)
  (.lf 0)) (.nd (.lf
  0x20000002122323311112112112222223122222222220222232223463111021110211102111111111111111121212110000102010010010000001222322320020313000400200200000021223233111121121122222231222222222202222322234631110211102111021111111111111111212121100001020100100100000)
  (.lf 0))) (.nd (.nd (.lf
  0x203130004002002000000212232331111211211222223122222222220222232223463111021110211102111111111111111121212110000102010010010000001222322320020313000400200200000021223233111121121122222312222222222022223222346311102111021110211111111111111112121211000010201)
  (.lf 0)) (.nd (.lf
  0x2111021110211111111111111112121211000010201001001000000122232232002031300040020020000002122323311112112112222231222222222202222322234631110211102111021111111111111111212121100201020100100100000012223223200203130004002002000000212232331111211211222223122222)
  (.lf 0)))

def aesXorFan24 : BTree :=
  .nd (.nd (.nd (.lf
  0x5874585858745858587458585874585833333333333333333333333333233333333333333333333333333333332333333333333333333333333333333323333358745858587458585874585858745858333333333333333333333333333233333333333333333333333333333332333333333333333333333333333333323333)
  (.lf
  0x6363632563636325636363256363632563636325636363256363632563636325636363256363632563636325636363256363632563636325636363256363632563636325636363256363632563636325636363256363632563636325636363256363632563636325636363256363632563636325636363256363632563636325))
  (.nd (.lf
  0x2322320020313000400200200000021223233111121121122222312222222222022223222346311102111021110211111111111111112121211000010201001001000000122232232002031300040020020000002122323311112112112222231222222222202222322234631110211102111021111111111111111212121100)
  (.lf 0))) (.nd (.nd (.lf
  0x2111101111101111211111111111112112111111111111221111112112111111111111111211211111111000010201001001000000122232232002031300040020020000002122323311112112112222223122222222220222232223463111021110211102111111111111111121212113111111111111111111111111233333)
  (.lf 0)) (.nd (.lf
  0x200000021223233111121121122222231222222222202222322234631110211102111021111111111111111212121100001020100100100000012223223200203130004002002000000212232331111211211222222312222222222022223222346311102111021110211111111111111112121211022210201001001000000)
  (.lf 0)))

def aesXorFan25 : BTree :=
  .nd (.nd (.nd (.lf
  0x112111111101111210111111111111101111111111111111110111111101011111111111133363233222342243333333332333333233323313333321331332132333313333333333211111111111111111111111133000010201001001000000122232232002031300040020020000002122323311112112112222231222222)
  (.lf 0)) (.nd (.lf
  0x4631110211102111021111111111111111212121100001020100100100000012223223200203130004002002000000212232331111211211222223122222222220222232223463111021110211102111111111111111121212110000102010010010000001222322320020313000400200200000021223233111121121122222)
  (.lf 0))) (.nd (.nd (.lf
  0x2222202222322234631110211102111021111111111111111212121100001020100100100000012223223200203130004002002000000212232331111211211222223122222222222022223222346311102111021110211111111111111112121211000010201001001000000122232232002031300040020020000002122323)
  (.lf 0)) (.nd (.lf
  0x10010000001222322320020313000400200200000021223233111121121122222231222222222202222322234631110211102111021111111111111111212121100201020100100100000012223223200203130004002002000000212232331111211211222222312222222222022223222346311102111021110211111111)
  (.lf 0)))

def aesXorFan26 : BTree :=
  .nd (.nd (.nd (.lf
  0x1211222223122222222222022223222346311102111021110211111111111111112121211000010201001001000000122232232002031300040020020000002122323311112112112222231222222222220222232223463111021110211102111111111111111121212110000102010010010000001222322320020313000400)
  (.lf
  0x3111333333333133331313333313333331131133333331111111111111111111111111111111111111111111111111111111111111111111111111111111111111111111111111111111111111111111111111111111133333333333331133333333333113111333333333133331313333313333331131133333331111111111))
  (.nd (.lf
  0x1111211211222223122222222220222232223463111021110211102111111111111111121212110000102010010010000001222322320020313000400200200000021223233111121121122222312222222222022223222346311102111021110211111111111111112121211000010201001001000000122232232002031300)
  (.lf 0))) (.nd (.nd (.lf
  0x211102111021111111111111111212121102001020100100100000012223223200203130004002002000000212232331111211211222222312222222222022223222346311102111021110211111111111111112121211000010201001001000000122232232002031300040020020000002122323311112112112222223122)
  (.lf 0)) (.nd (.lf
  0x2346311102111021110211111111111111112121211000010201001001000000122232232002031300040020020000002122323311112112112222223122222222220222232223463111021110211102111111111111111121212110022102010010010000001222322320020313000400200200000021223233111121121122)
  (.lf 0)))

def aesXorFan27 : BTree :=
  .nd (.nd (.nd (.lf
  0x1111111111111111112333333333313333231233133123333313323332333333233333333342243222332363331111111111110101111111011111111111111111101111111111111012111101111111211011111111111111221111101111311111112110111111111110111211111111110111101101111101111111111121)
  (.lf 0)) (.nd (.lf
  0x1211000010201001001000000122232232002031300040020020000002122323311112112112222231222222222202222322234631110211102111021111111111111111212121100001020100100100000012223223200203130004002002000000212232331111211211222223122222222220222232223463111021110211)
  (.lf 0))) (.nd (.nd (.lf
  0x1111112121211000010201001001000000122232232002031300040020020000002122323311112112112222231222222222202222322234631110211102111021111111111111111212121100001020100100100000012223223200203130004002002000000212232331111211211222223122222222220222232223463111)
  (.lf 0)) (.nd (.lf
  0x1111211211222222312222222222022223222346311102111021110211111111111111112121211000010201001001000000122232232002031300040020020000002122323311112112112222223122222222220222232223463111021110211102111111111111111121212110000102010010010000001222322320020313)
  (.lf 0)))

def aesXorFan28 : BTree :=
  .nd (.nd (.nd (.lf
  0x1110211111111111111112121211000010201001001000000122232232002031300040020020000002122323311112112112222231222222222220222232223463111021110211102111111111111111121212110000102010010010000001222322320020313000400200200000021223233111121121122222312222222222)
  (.lf
  0x3133333133333311311333333311111111111111111111111111111111111111111111111111111111111111111111111111111111111111111111111111111111111111111111111111111111111111111111111111111111111111111111111111111111111111111111111111111111111111111111111111111111111111))
  (.nd (.lf
  0x1102111111111111111121212110022102010010010000001222322320020313000400200200000021223233111121121122222312222222222022223222346311102111021110211111111111111112121211000010201001001000000122232232002031300040020020000002122323311112112112222231222222222202)
  (.lf 0))) (.nd (.nd (.lf
  0x1111111111111111111233333333331333323123313312333331332333233333323333333334224322233236333111111111111010111111101111111111111111110111111111111101211110111111121101111111111111122111110111131111111211011111111111011121111111111011110110111110111111111112)
  (.lf 0)) (.nd (.lf
  0x201020100100100000012223223200203130004002002000000212232331111211211222222312222222222022223222346311102111021110211111111111111112121211000010201001001000000122232232002031300040020020000002122323311112112112222223122222222220222232223463111021110211102)
  (.lf 0)))

def aesXorFan29 : BTree :=
  .nd (.nd (.nd (.lf
  0x3233111121121122222312222222222022223222346311102111021110211111111111111112121211002210201001001000000122232232002031300040020020000002122323311112112112222231222222222202222322234631110211102111021111111111111111212121133333111111111111111111111111233333)
  (.lf 0)) (.nd (.lf
  0x2122323311112112112222231222222222202222322234631110211102111021111111111111111212121100201020100100100000012223223200203130004002002000000212232331111211211222223122222222220222232223463111021110211102111111111111111121212110000102010010010000001222)
  (.lf 0))) (.nd (.nd (.lf
  0x40020020000002122323311112112112222231222222222202222322234631110211102111021111111111111111212121100001020100100100000012223223200203130004002002000000212232331111211211222223122222222220222232223463111021110211102111111111111111121212110020102010010010)
  (.lf 0)) (.nd (.lf
  0x211102111021111111111111111212121100001020100100100000012223223200203130004002002000000212232331111211211222222312222222222022223222346311102111021110211111111111111112121211020010201001001000000122232232002031300040020020000002122323311112112112222223122)
  (.lf 0)))

def aesXorFan30 : BTree :=
  .nd (.nd (.nd (.lf
  0x1222322320020313000400200200000021223233111121121122222312222222222022223222346311102111021110211111111111111112121211000010201001001000000122232232002031300040020020000002122323311112112112222223122222222220222232223463111021110211102111111111111111121)
  (.lf
  0x111111111111111111111111111111111111111111111111111111111111111111111111111111111111111111111111111111111111111111111111111111111111111111111111111111111111111111111111111111111111111))
  (.nd (.lf
  0x100100000012223223200203130004002002000000212232331111211211222223122222222220222232223463111021110211102111111111111111121212110000102010010010000001222322320020313000400200200000021223233111121121122222312222222222022223222346311102111021110211111111111)
  (.lf 0))) (.nd (.nd (.lf
  0x1111121212110000102010010010000001222322320020313000400200200000021223233111121121122222231222222222202222322234631110211102111021111111111111111212121100001020100100100000012223223200203130004002002000000212232331111211211222223122222222222022223222346311)
  (.lf 0)) (.nd (.lf
  0x2122323311112112112222223122222222220222232223463111021110211102111111111111111121212110222102010010010000001222322320020313000400200200000021223233111121121122222231222222222202222322234631110211102111021111111111111111212121100001020100100100000012223223)
  (.lf 0)))

def aesXorFan31 : BTree :=
  .nd (.nd (.nd (.lf
  0x3333313333231233133123333313323332333333233333333342243222332363331111111111110101111111011111111111111113110111111111111101211110111111121101111111111111122111110111111111112110111111111110111211111111110111101101111101111111111121111011111011112111111111)
  (.lf 0)) (.nd (.lf
  0x2232223463111021110211102111111111111111121212110000102010010010000001222322320020313000400200200000021223233111121121122222231222222222202222322234631110211102111021111111111111111212121102001020100100100000012223223200203130004002002000000212232331111211)
  (.lf 0))) (.nd (.nd (.lf
  0x2312222222222022223222346311102111021110211111111111111112121211000010201001001000000122232232002031300040020020000002122323311112112112222231222222222202222322234631110211102111021111111111111111212121100001020100100100000012223223200203130004002002000000)
  (.lf 0)) (.nd (.lf
  0x3333333333333333333333333333333333332222222222222222222222222222222222222222222222222222222222222222222222222222222222222222222220000102010010010000001222322320020313000400200200000021223233111121121122222312222222222022223222346311102111021110211111111111)
  (.lf 0)))

/-- How often the XOR gates read a wire: 4 bits each, 256 per leaf. -/
def aesXorFan : BTree :=
  .nd (.nd (.nd (.nd (.nd (aesXorFan0) (aesXorFan1)) (.nd (aesXorFan2) (aesXorFan3))) (.nd (.nd (aesXorFan4) (aesXorFan5)) (.nd (aesXorFan6) (aesXorFan7)))) (.nd
  (.nd (.nd (aesXorFan8) (aesXorFan9)) (.nd (aesXorFan10) (aesXorFan11))) (.nd (.nd (aesXorFan12) (aesXorFan13)) (.nd (aesXorFan14) (aesXorFan15))))) (.nd (.nd
  (.nd (.nd (aesXorFan16) (aesXorFan17)) (.nd (aesXorFan18) (aesXorFan19))) (.nd (.nd (aesXorFan20) (aesXorFan21)) (.nd (aesXorFan22) (aesXorFan23)))) (.nd (.nd
  (.nd (aesXorFan24) (aesXorFan25)) (.nd (aesXorFan26) (aesXorFan27))) (.nd (.nd (aesXorFan28) (aesXorFan29)) (.nd (aesXorFan30) (aesXorFan31)))))

def aesXorOrder0 : BTree :=
  .nd (.nd (.nd (.lf
  0x2351c8d53235648cf52159c85642155c855321578850321dfc877b21dd0877321d88870722628897b22620898e2261c891a231008c35230f88c44231348bd62210488432236088d52213887ef2239c88c12233089022231c887621b8486dd21b3486f021bb8868e23b108ec023af88ebd23ac08e1e23c888f3423cc08f2e23c4c8e5a21800866621970865f219a88663)
  (.lf
  0x78ec1e37078c832db0cb1832bb0cb0432b80cab832ca0cb2432d00cb3432cc0cc9832f20cbbc33290cc5032f40cc9c32e00cb0032b70cab032a90ca8c2fec0bf5c2fcc0bf482fc90bf1c2fdb0bf682fe10bf782fdd0c2e030030c00030ba0c09430050c2e42ff10bf442fc80ba042fbd0b980452a11454450a11440450711414451911460451f11470451b118604541))
  (.nd (.lf
  0x277009da0266c09b30278809d80278409dd0266410f6027980973026e009bd026e809b5043d409df0279c09de02694098a02644099a0279009d7026f009af026f818bb063e418d5063b818d4063c4192006408192806448191506444191c0646818db063cc19220646019210647418d90713819260608818f8063f418fa063d41c510647c19270647818e50632818d1)
  (.lf
  0x1f1407c001ecc07fd01f9c07c101eec07af00964023e008c8023100884021a0096c024f008bc022a00874026700944022b0089402190074401b6006a801a90066401920074c01c70069c01a20065401df0072401a300674019100520012d00484012000440010900528013e00478011900430015600500011a0045001080030000a50026400980022000810030800b6)))
  (.nd (.nd (.lf
  0x20e2483f11faa483ab20ec083ae20e2c838a1fb10839820f107e8e2030c80c920e18838320ed083b320ec883af1fb587e9b1fab87ec520e44839220e347ed820e1c7dd6204047eb1203bc7e66203ac81332049881252041881082046c812f2042481351fac880ed204a081272043c810a1f99c8113204d07e59203f080fb2040880f4205008111204a48110203707e6b)
  (.lf
  0x1b3f06f99198f4679419e1c66d91bf0c6792198f06fba1becc66d31c2dc66d619c00662a19bfc66361bf2066331c2d470111bf386fbd1c0606f951bea06fdb1bed06fa01ce6c679a19d90734219dbc675c1cd0c676519d30737a19d9c67611ccf060571cd8475961ccb4737f1ccc4734a1cce873241cdd8734c1933c73d71ce28738c1cd5c73621cd207ca31aab065b3))
  (.nd (.lf
  0x7b4c71f507bbc1eec1bf7022b2087cc71e607ae81eb71c7a4229a0879c70b307e881f991c2c81f0507c10701908b2821f91bfdc227d07ea06fde08a001f9f1bef0241507f206fc608a2c1f951bf00244b07f80700008a201f9a1c070228307e70715a090a41fd31bfe0207c06ad46fe4081a81aba1bf24206806e406fcc081941aac1c284207206ea070d0081d41aca)
  (.lf 0)))

def aesXorOrder1 : BTree :=
  .nd (.nd (.nd (.lf
  0x6b2027440b1042c2403a6c2de50ecb837d40407c0706001fc071d001f80722001f406ef001f00701001ec06fb001e80718001e4070f001e00df2001dc08d0001d808d6001d40e04001d008bc001cc0ded001c808ca001c408c5001c00b4a001bc0b67001b80b75001b40b31001b00b44001ac0b3d001a80b5a001a40b55001a011500019c0a97001980aa20019410fc)
  (.lf
  0xbad02dfe0cfb431de0d46033e50c77436980c858332f0c85032120c84436b90c8383d330f0f835e211aa046a7119a44666119904646118f8463d0f4e0392b0e4a83e1b0f1a036880f5a83c6e0d7603d540f4fc35da12b7c463b118e43e1d0e49c39260e49039230f55c39211272048bf1057449b9126d0463611c90463312744497a12fe04bf51267448f811e9c48d1))
  (.nd (.lf
  0x1827060d6183c0606c182ec60c0182f460b8183e060e7183c460e6182a0608d18250609d183b860df182fc60b218304553f15b8856be15b5c56bd15b68570e15bac571915c00570315bfc570a15c20570f15b1056dc15c48570615c44570b15b0856fc15c58558715b8456e615b8c56de15c70570d15c5c570c15b3856b515ae856c315c50570515b9456d815b9c7cb6)
  (.lf
  0x1f8407e0c1f7e883821fb1c7e0d1f7ec7df8226e47e3a1f85c7ddc1f5f47d6c226e07e511f9307e351f85889c21f9407e4d1f77c7ddb203787e6d1f8047dcb1f5b87d53203747eb31f9847e5f1f80c80f3203907e621f7547dcc1defc77ac1dea477971de50778f1df0477b81d64c754b1d52077ce1dee875901d53075041dafc76b61d57475111d31474b11db0476be)))
  (.nd (.nd (.lf
  0x5e6c178105e7817cd05ebc17d505efc17c205ef817c905f1c178805e8017cf05f1417ce05f28178605fec17d305d7c17a505ea817a705e8817fe05f3017d405f2c179205ddc177e05e1c17d105f1017a905e7017ab08b40231008bb0230508bac230808cdc231908cfc232908cb0232808ccc233108bc8230a08ce4232f08ce0233408bc0240908cf422d208c3c2314)
  (.lf
  0x630c18bd05a30166a1492018b9060f44d2906038167d14bdc1e39078cc1954064f8534a078bc1cb414e101c700654852fa07b44177005da81509187441ea005d98534007be0175b14bc819a9065f017e305cec5353065d8197214e7c198b05fb4530106888184a06110167e14c781ad90610052d7068b018191782c1cc3072f41b730654c5dfd072e41cb7176081c7a))
  (.nd (.lf
  0x20ae483bd20eec83a3210a8842020f9489e32276089d422acc8a0021088841d227bc89ee20a9882a420a8c85c7204b485b12161082aa209d4828620a0c828220e8883a120a588a372286c858b2162482c220ae8836920c58835320d48835121344845321138836020c908a9522a50841420fd0836520d0081e720dc083f620fcc83d520ef88a3f21e2c878a21e2487cd)
  (.lf 0)))

def aesXorOrder2 : BTree :=
  .nd (.nd (.nd (.lf
  0x473c11d90474811d4045d015d00574815dc0575415d7055dc1e1e078801e2a0788c1e250771421be0870021ca0870c21c50859441a11072041b0106b041b80fac0262f098c4263b098d0263609758255809568256409574255f093fc205208150205e0815c205907fe410c80432810d40433410cf041bc0f3103ccc0f3f03cd80f3803b60840c227688a52228448d6b)
  (.lf
  0x1ad806b7b1ade86b811adf86b7d1ae946ba11ae7c6bcd1aea06ba71ae906b911adc46b681ad506b5c1ab7074111cff073f11cfdc73ee1cfb074001cffc74061d00c74021d0a874261d090745b1d0b4742c1d0a474161cfd873ed1ce8873e21cdc871971c60871771c5f471741c5c871861c614718c1c62471881c6c071ac1c6a871da1c6cc71b21c6bc719c1c5f07173))
  (.nd (.lf
  0x1a11068351a05468081a05c72bc1cbd872d21cbac72d11cbb873221cbfc732e1cc5073171cc4c731e1cc7073231cb6072f01cc98731a1cc94731f1cb5873101cca872bb1cbd472fa1cbdc72f21ccc073211ccac73201cb8872c91cb3872d71cca073191cbe472ec1cbec7d451fb987d9d1f6f47d801fb707eff1f6dc7f051fba07ee91fbd07f461fbe87f001f6887db4)
  (.lf
  0x12dd44b5d12b304b8412d884b5e1270049bd1280449e8126bc499112640498e1280c49f31277849da126a84a0d127e449db126b449a8129c449ce1266c48e9123a048e5129cc4a671293c4a4b127344a7f129a44a4c1237c47b5149d05264149384d33134144bf7149e852761492c523f134b05290149f0523a134d04d2d164a85915164505903163f458fc164b05929)))
  (.nd (.nd (.lf
  0x101b04085101ac4088102dc4099102fc40a9102b040a8102cc40b1101c8408a102e440af102e040b4101c04135102f440551023c409410244408c104d040b6102f840b5101f04063101a04071102ec40ae1024c4086102543d9e0f7903dbc0f7643dc40f7703e0b0f7b43e130f7f43e000f7f03e070f8143dbf0f7783e0d0f80c3e0c0f8203dc60fce03e110f6d03de3)
  (.lf
  0x61c8187106140181b0833820cd0833020cb082a0209d0d67c359e0d674359c0d5e435390d4b445a41168c45a2116844582115c0456e0f9283e490f9203e470f8903d830f5dc4a0a1281c4a061281449e61275c49d3021fc087e021f4087c0216c083f04dec137a04de4137804d5c133b04bbc12ee04bb412ec04b2c12af07d201f4707d181f4507c001efe08e182385))
  (.nd (.lf
  0x10c1842680f8783e1c11ce046aa10f3c431110bbc432910c1c430f10bec434910c5843af10cc042f70fad43d6b10bf8468e10e1043a710c8c434c10d203f600fd74404a100b0402a0f2c83bb40eec43c930f224437510dc03d560f0f43f590f2a446470eeb03c590f1003d3e0f19047b70f28c3c9e0f1f03f930fdd83d3410c1443030f2703bad10e183c8c0e46c4381)
  (.lf 0)))

def aesXorOrder3 : BTree :=
  .nd (.nd (.nd (.lf
  0x361c054b01360051d01488051f014680d8b01510054c0150c050a013bc04f6013fc0549014f00521014500523011440496011c8048b011c4048e012f4049f0131404af012c804ae012e404b7011e00490012fc04b5012f804ba011d80d720130c045001254049a0125c0492035c404bc0131004bb012080467011b804770130404b401264048c0126c03c90103803ea)
  (.lf
  0x1a7b06f3c1acf463c518e5063cb18f10686818dcc686e1a19c67ac18da867d519ec8643718df46453190ec66e819b8466e319b6c651f1947865c019490665219940665b193ec6538194d86541194085e25177ac5e36178a05e1c177985fd01787c5df4176b85e16177e05e0c177f85f421783c554e1543856a915630554d1543055a4155d86124155ac6136184ac5626))
  (.nd (.lf
  0x1630c1cb116234195b161a01950162801c56162601ecf173cc1ee0162201eaa173e81eb2174181e9e162f81f13163701ef6163801ec3170b017e1170e817e6163981987162a817d8162fc1974166dc17f016eb417eb17190199e16ed01a20181a41a25163b81ae3181c01a170597058f2068c058f5068a858f806ba454eb064e8555206510551e0719c5537064b8559b)
  (.lf
  0x5e84178b05d78175105440150314b681f1505e54178905dbc175705d3c150f14c081ec505e4c177805d9c176014ba819e00672819ac0663817e805d08173514b4c19d40672019a206630197b05fc817411877019d2066dc19ad0669019a114c401a27061ec1865060b0181c05a24167414d1c1a33061bc186306124182e06068168814cf01aeb061b4185206104182b)))
  (.nd (.nd (.lf
  0x75341d6a076641d7b076841d8b076381d8a076541d93075501d6c0766c1d91076681d960754822ae0767c1c9c075c41d76075cc1d6e08b201d98076801d97075781d43075281d53076741d90075d41d68075dc08eb024c0090c02494090b024a00957024e4095f02524094c025200953025440912024a809590253c095802550091003d98095d023a8092f024d00931)
  (.lf
  0x205d88174205b4816a20be882cc2057081541feb07fa8202487ea31f9e47e761f9287e4920e307eaa1faa07e8d1fa307e8b204547eb41f9707e571f8787e021da1076601d8cc76301d8a075821f70c7d8f1f5c47d5c1f4c87d311b9d06e4b1b8d46d761b5c06d491c46070f11c37c70d91c36070d71c21070461c0e470341c0cc70311cef073a719e78679d19e70679b))
  (.nd (.lf
  0x8c74240808d0823220901c230e08bb822e508b6822d608b4c2aee0ab642ace0ab502acb0ab242add0ab702ae30ab802adf0aea02b050ac082baf0ac9c2b070aeac2af30ab4c2aca0aafc299a0a65c42b210a74429210a60428f10a3442a110a8042a710a9042a310c2442c910b18431e10bc842cb10c6842b710a5c428e10a144281109f04b1812c0c4af812bf84af5)
  (.lf 0)))

def aesXorOrder4 : BTree :=
  .nd (.nd (.nd (.lf
  0x1684858af161f8538216198589f173c45cf91741453331639459b6163a85c6218198606f181e8551d1465c612114c1c530e13888629e14d44589c162a05c381630458801620c59af166a059db154d455501488051fb148485329139f851b0147cc520f148385226147d8512514624518d145e45196146384fd4139e04e75139f04e6e139c44e1c137ec4dfd137ac4e00)
  (.lf
  0x1b0e86c681b10c6c421b0fc6c2c1b0306c031ac9c6bf81ac8875d51d6e475b51d6ec75b61d6d075cb1d6fc75d41d74875ce1d7dc75f11d7bc76011d80075fe1d7c875e61d6f475bc1d6ac749e1ce206ecf1bae86eb41badc6eab1b8bc6ebe1baf46ec41bb046ec01bba06ee41bb886f101bbac6eea1bb9c6ed41bac06eac1b89c6d571b55477cb1decc77a41dec877a5))
  (.nd (.lf
  0x1d70c75a21d730761b1d764761a1d7b475e91d7cc76051d80c761d1d6b875d61d83875f61d82476061d71475fa1d87875a71d79c75ea1d7e075db1d864760b1d82876071d78075ac1d6e075c61d84075f51d7f075dd1d7886e211bb586eae1bb2c6eb61bb386f021bb7c6f0c1bbd06ef71bbcc6efe1bbf06f031bac46ed01bc146efa1bc106eff1bae06ef01bc246ea6)
  (.lf
  0xc0f430390c0d0306d0c15c303a0ba502e900bbe02edf0baa82e7d0b9f02e7a0bbe82eee0bb542ed10ba942f060bbc02ed20baa02ea30bdb42f430b9d82e470b9042e400bdbc2f630bd2c2f470bd082f7b0bd942f480b86c2df510a98428b109e8356b0d58834b910aa0429c10a0842700d45842b410a78426d0d5a435680d83435590d54435220d2cc34960d83c35fc)))
  (.nd (.nd (.lf
  0x86d821b4085c02188086f421b2086f021b7085b821a80870421bb0851c218d08648218f0862821c6086e421c2086e0217a0857c2166085bc21bf086c421910861021930fccc41910fcc041880faa8416c106d0417f106cc418f1061841a6106bc419d105884173106a841a01067c419e0faac4199106d841b50fa604179105e041921060041ba106c841b1106ac416e)
  (.lf
  0x1780059b0166805990166005770156c055701448051101440050f013b804d201338048a0122404880121c04660112804460100804010100003ff00f7803c200ef8037800ddc037600dd4035400ce0033400bc002ef00bb802ed00b3002b000ab002600097c025e00974023c00880021c0076001d70075801d5006d0019800650014f00538014d00530012b0043c010b))
  (.nd (.lf
  0xba802e700b980d4600c30030903520032e00c380d4700be802da00b4402c400af802b300994025000914024b00908024000950025300968025700958027e009e8027800a98028100a00027d009a8024a009040234008b802230077401c8006f401c3006e801b80073001cb0074801cf007380d35007d001f1034ec0216007d80d370078801c2006e401ac00698019b)
  (.lf 0)))

def aesXorOrder5 : BTree :=
  .nd (.nd (.nd (.lf
  0x214e48547214d0853021c0c874221c68873321c50873e21d7c872a21d84877721de0876a21dc8875921c74872821df8877021de4875a21c54875421d80870d21d10874721d34872f21d78875c21dc4875b21cdc870b21c20871621de8876f21da0873921d3888fd225308916224fc8922225288984225c88983225708978225ac89862254c8928225248989226148979)
  (.lf
  0x1a71c605d18168664d194c4651a194407de81f7947de31f7207dc2176b05da71715c5daa175dc5c55193d464f31937063af18e44637918dc05e23171445c50171385c4d1712c69c21818469fe1a6ac63c218eec633f183fc636818c00636618c8463031a7c469ee1a720605b176f05dbb15cac5dc5176c4572918ee0633b18cc0637f18d68734b19dd0747a1ce50749a))
  (.nd (.lf
  0xb8582e3c0b93830330bae42e6a0ba682e1c041082e5d0b9582ec70b99c2e240ea9c3ab30e96c39ed0e7a43a140e8bc3a260ea383a4b0e77839be0e72c3a0d0e8dc39f40ea243a630e76839c50e7483a090e8a839f00e7e40e9d0e9e4103f0e7fc3a010e7383a170e8ec34d903d04368e03d1836da044a8350403ce434e80441c34ca03d3836ab03d24348004560369c)
  (.lf
  0x62f8181606048180d14b981e34071c81c6f071b852cc07ab0176b05d74175614b3c19900663c198a0662452e106b941845060601817177541cbe072401c7b071d05eb2087d01ee407ad41ead17efc1fc90665c1996066445dc806e441afa06be01aed09b68113b044e81135044a42702049880b5f02d200b4109c1c0f8b038380df9037c426c303a180979025d40968)))
  (.nd (.nd (.lf
  0xfbe83eff0fbf03ef70fd283f210fca43f200fb9c3ece0fb4c3edc0fc983f190fbf83ef10fc00467e121ac484312180484b1218c4892121d0489a1221048871220c488e1223048461219448941222848931223c484d124284898120ec486a121bc486c1219c491012244489912240485711a1c468b12138489612224486e121844870123984a84129804a791297c4a7c)
  (.lf
  0x18a64626f178c05ded177245fca17f085fc017af05eba17acc5f3c178005dde15aa856a41550055a51567c553b184dc61311849c562b15550553d182046076181c85c3c163a058e7174305d00173f058c8162cc58b21679059ce1673459e01671459c41a42068fe1a3e859c716678599c14d74531614c4c537814ddc537518a9c61d414cb0534b14cac532713de44f5e))
  (.nd (.lf
  0xdd88375f0dd6844b91127444991126844981125444aa1127c44a91129044a1117b444ca112dc45f31134444d0117c044b21125c44961103843f310fc83feb0ff583fcb0ff443fc80ff183fda0ff643fe00ff743fdc104e440020fffc413c100904004104e83ff00ff403fc70fef03fa50fe884089101d04069101bc4066101704078101dc407e101ec407a104c440a0)
  (.lf 0)))

def aesXorOrder6 : BTree :=
  .nd (.nd (.nd (.lf
  0x2b680a6f029c40a81044840a750287009e30279409ed043e009e9026401923064941935071941929063403c1e0f0803c380f08c3c260e9d8506a141b0507d141c05074140405c1d1707c5c29170885c24163545faf17ec45fbb17ed05fb617d586fa61be9c6f861be7c6f921ad0c77681dda8775b1dde0777e1d3701ea307a941ecb07aa01eaf07918330c0cc383316)
  (.lf
  0x2117c845d211688db8236988da12368c8da0236248da9236a08ddb236b88dab237dc8dce237188e03237e48dd9237e08db7236688d95236448d8e235f80ce00332c0cc0033180cbd032ec0ccf033380cd5033480cd109a4c0cf7033d0269c034740cf909a500ce5033140cbc032bc0ca9032788b3d22c448b0c22c2c8b0522bf48b2222c5c8b1f22c688b1922d748b38))
  (.nd (.lf
  0x1931c64ba1930c64b9191ec64601919c64701930064b21924864851925067ba1a26c68731a240687b1a24c68c71a29068d11a2e468bc1a2e068c31a30468c81a1d868951a32868bf1a32468c41a1f468b51a338686b1a268689f1a27068971a35068c61a33c68c51a21c67c619f2c687e1a33068be1a27868911a28069fa1a9786a3a1a94c6a391a9586a8a1a99c6a96)
  (.lf
  0x1948c65211942865f71978465221942c6508199f46664194a864ee18a34628c199fc6673199686656194a4668b199d46657193b064e91958c654a1945464da18a60628219594655919500653c1945065711956c653d1936064d5179805e47178ec5dec177385dcd179885e56178c85e27177c05e6e179605e37178d05e2f17fe85fe117f545fc31778c5dd317ff05ff0)))
  (.nd (.nd (.lf
  0x4d04138604e2c138804e0c152704eb413b504eb0137304d60135f04da013b204e94138a04df4138c04ad812fb04b5c12f004b5812f304c88130404ca8131404c5c131304c78131c04b7412f504c90131a04c8c131f04b6c152004ca012b504be812ff04bf012f70547c132104ca4132004b9c12cc04b4c12dc04c98131904bf812f104c001ee807d501f3007d241f2f)
  (.lf
  0x1f0c07c2e1f0b47c1b1f03c7c0a2267c899e22670899a1f8cc7e301f8b4825220904823f208e8822220878821815e00577f15df8577d15d70574215d0050c21430450c0142fc50a014244508d1799c5e66179945e64179145e33178c463ec18fac63ea18fa463c618e9c63931b2986ca51b2906ca31b2106c751b1c46c221b0846c201b07c6b311aca46b211d72075c4))
  (.nd (.lf
  0x1b3c470b619c5466fb19bb066fa19bcc66de19c78670b19ca4672419c84675a19d24674819d88673e19cf4675d19cb8670919be4670419b9866d817cdc5dcf176545e21178445db518ef063ba18ee463be18e1463801a6c069ac1a6a86a0c1a6ec632f1843069ed1a7985dd7176785d76176805b13176c05dab177f05d8c177105dba176a0638918cf45dca1a734699d)
  (.lf 0)))

def aesXorOrder7 : BTree :=
  .nd (.nd (.nd (.lf
  0x13f545089146305176145ac514d145984d5d139084d6a138cc4d6d138e04e69138f84e6c139704e63139744e65139844e6b138684e3c139dc4e60139cc4e66138484e53139a84d5b139044e471390c4e3b139bc4e68139b44e67138a84e15138744e18139d04e5f139144e34139184d8e137544dad1375c4da3136ec4e05137504e041372c4dcd137984df8137a84e08)
  (.lf
  0xe41439040f2483c8d0d9b438f40da0436640f25838f30d9803ca20f264366b0e3c436830e1903caa0e3dc3f920f2203c790eca438fb0feb43ca00fe084e8a0f1d84e8b0eea8402b0f21c434110cbc432010c38430c10c2c42f610bb842eb10fe4433c10c8842ff0f42c43380f44c3d020e3a842e70f4343d1210d0c3d0310c903d1e0f474433110ec43d1010d183d0e))
  (.nd (.lf
  0x95d889fd095e88a170990825b90f25410e00fd6810e80febc113e0f27c10dd0f27411140f1e010eb0fda410e30fe7812a60fd58146c13a4c147110124169713a34146313a4016b00fda0147b0fe9c14760fe1816a30fd8c13cb1012c13d40f29415490eee013be0f200155e0fde013e80fe5413de0f23c152e0fd881666100b8166e0eebc16540f1f818370fdf01682)
  (.lf 0x1aaf81d6d0755c1c9b071901c2c06e181b851abf41d61075541d3b072781c62070d01b80))) (.nd (.nd (.lf
  0x6ce81b3706cc81c4706d701b6406d6c1b2206c1c1b0e06c5c1b6106d501b3906cb01b3b15fe0583616048582b16044582e16174583f161a8584f16148584e1616458571606058301617c585516178585a1605858991618c57ef160d4583a160dc583216248585c161a4585b160885807160385817161845854160e4582c160ec0b6302edc0b9302eb00b9202ebc0bde)
  (.lf
  0x6ce01b1306c0c1afb06be41af2160e0581315ff457fc15fc84d1d02ee40b9402e1c0b8002df00b7b05bd016cf05ae416b805aa816a90891c222208848220a0882022010d0f034170d01c33ff0cfec33f809fdc27d209f0c278809e1c27850a9f02a570a92029a90a69c29670c99c32420c8c8322a0c898322311ffc47da11f2c46721196846580588c15fe057a015e7))
  (.nd (.lf
  0x6ef81bd206f441bd806f541bd4070f01bfa06fdc1c42070801bfc070f81be806f201bbf06ed81bb206eb429fa0a79429da0a78029d70a75429e90a7a029ef0a7b029eb0aef82a110a8382bc40a8cc2a130af0029ff0a77c29d60a72829c60a6f831110c3f030f10c3dc30ee0c3b031000c3fc31060c40c31020c7e831280c49432010c52c312a0c7f431160c3d830ed)
  (.lf 0)))

def aesXorOrder8 : BTree :=
  .nd (.nd (.nd (.lf
  0xf3f03a830e71034e70d324347f0df8434f60d27c36bc0d3a834c40db1c34f90df4c347d0d1e034ba0d50433e70d95435200cfc0348f0d58042770b8642f400b9b834a30ba802e270b8b82e780b85430320bae02de40b97035090b9542e230e9683a130d4303a2d0e8943a490e6f439ca1078839d90e8203a290e7bc3aaf0e7f83a000db64332d0d37441e00d59431f2)
  (.lf
  0x2b5c0aeb02ba80af102bb80aed02c540b1102c3c0b5102c600b1702c500b0102b840ad802b2c0ac502ae80a3e028a40a1e028900a1b028640a2d028b00a33028c00a2f043e80a5502948114e029fc0a57044780a430288c0a1a028340a07027f009b202674099202660098f0263409a10268009a70269009a3043c809c90271810f4027ac09cb043cc09b70265c098e))
  (.nd (.lf
  0xa1dc28a50a230288f0a22c28960a250289b0a12428680a27428920a27028970a14028880a284283e0a1b428720a1bc286a0a2a028990a28828980a168279a09e7828510a27c28910a1c428640a1cc73b91e0c074831e0dc748f1e0b478701e19078711e13c784a1e13078681e16078771d25c78621e1a878651e16878591d24078601e3bc748b1e0c4783f1e0c8782c)
  (.lf
  0xa8e429aa0a6a02a750a97c2a3e0a8ec2a360ad802b470acec297709ce027370ad882b560acc829850a60c2b6e0ad602b370acd02b2f0a7b829d30a72029c70a67c299e0a7c029e40a6ec298e0a63429fc0a79829c00a6f429b80ce58337d0cd7427a609e0c27820ce60338c0cdb433620a0d433a40ce38336a0a0d827a509f8827c909ef4278909e18278409f9027d8)))
  (.nd (.nd (.lf
  0x3cc00f2503cbc0f2a03b840f1b03cd00f2e03b1c0f0003c140f0203bf40f3b03cb00f3503cac0eed03af00ed903b880f3203c900f0403bdc0f062172c8270228c4840821374878f2237079411e5e079501e58879471e5c879ac1e5c079a81e624798c1e61479a21e67079ad1e56879691e69479881e680799d1e55079981e6dc79421e60c79801e5e4796a1e6d079a7)
  (.lf
  0x235a089dc22b188a14228248a4a2274c8a722275c8a92229c08a01235b081db228cc83b62011483f220f5883c22113483c12014483e420158804e20f3083b52336883f92331c844b20f8883e11ef287bc91eed87bb521bd47bdf1ef0083e61ef687bbb22f1c835c202d487b521e78879521e34878821e1c835e20cf080bc1e87c77111e85483411e89c87cc20c8c836f))
  (.nd (.lf
  0x2304c8be722f608beb22f988bd522fe88bee22ff88bf722fcc8c33230b88c2d230c88c27230808c2f230308bf122fb08bdf22f748bdb22038880621fc487fb21fa887e821ff887f922014880122000883c220c8881c220e88836220a888382205c87f621fb887da21f9087c1222208879221e0887b221d4887422204887f2225888922223488e3222fc88be223a488b0)
  (.lf 0)))

def aesXorOrder9 : BTree :=
  .nd (.nd (.nd (.lf
  0x23a188e41239d48e3b23a108e9c23a608e9023ad48ea223ad88ebb23a2c8e42239fc8eba23ab88ead23a308e3c23a9c8ea523a648e1a23a808e9e23a1c8e7d23ab08e8f23af08e8d239a88e21238988e3d23ae08eb923a488e7623a208e5123bc08eca23b788ecd23bb88f1123b9c8f1223c848ef523c808f2c23c208ecc23b948f2b23c288f0e23c248ed223c708f27)
  (.lf
  0x1aab46d6d1b53c6d3b1b4e46d381bfd86fb21d31c6f311d1606f361d510726e1ba7c6d351f53476171f5987d341f94c7c791d8847c9b1d8507ad61e2e079171ca2479051e29c83d420f28803320b0c813e1ecfc8143204e87b49216a0827c1ed6887ce21e6c80a12107083bc2011c83ea20ee883a020f2083b72015083df1ef847bbf20c5c80b01e8dc80ad1e91487d4))
  (.nd (.lf
  0x237a08de42365c8db9237b88de3237ac8de9236788dfc238108d74236f88ddc237448dbb237e88df3237c88dea237288d96236948d9f237b08de2237548dc3237300ca20339c0cc3033700cc20337c0d0e033c00d16034000d03033fc0d0a034200cc9033840d10034180d0f0342c0cc709a540d14032840ce6033ac0ce80338c269d034340d15034300cd3032e00cbf)
  (.lf
  0x2241c88ef21f488c1422fa087d321e7483562200c87ed21ef0837f20df8837d220cc87f821f7c87d921f1488122201c87e021f00837a222a0886e22174885a221648855222b4886d21ec487ad21e84888a221e887af21e44836721a9c8675217f085bf2165c82af21a988683219cc8670219b886b821a188674217108598239ac8e23238888e1f238508e0e239b08e44)))
  (.nd (.nd (.lf
  0x73441cda074901d17073f01cef073f8245209240246c09214246b0922024b70926424bf092a424ac092a024b3092c424720922824b9092bc24b8092d02470096a024bd090d0248f0925024910923025ac092d824be092d4247c091842468091c424bb092b824930921824950ace42b730ad3c2b680ad382b6b0ae682b7c0ae882b8c0ae3c2b8b0ae582b940ad542b6d)
  (.lf
  0x177c05670158c05560137804da01334045601148044500f3803ca00ef4073901cd4072800d10034000ccc02bc00ae002ab023c008ec0237c07c201ef807b1008b002280086c01a40068001930046c01170042800930023c00820329c0ca3032580c1c030600c0b1acd01d3c074d81c2706de86ad4076b41d321ad441ca8070dc6b360880c21eb07c3c1ed81f2c422a0))
  (.nd (.lf
  0x48b41277048d81235048c8121f047fc11f6047ac11e7047901196046041176045f01173045c4118504610118b046201187046bc11ab046a411d7046c811b1046b8119b045ec11720459c1163045801599056101579055fc1576055d015880561c158e0562c158a056c815ae056b015da056d415b4056c4159e055f81575055b015680558c1de7077481dc7077341dc4)
  (.lf 0)))

def aesXorOrder10 : BTree :=
  .nd (.nd (.nd (.lf
  0x5a5014600501c1a0f068441a1d06b841a15066f01d23074941d2d087c01d290734024ba092f024c4096a824c00919c2b9d0ae7c2ba70aeec2ba30ad2831d00c74831da0c7c031d60c5f42f350bcdc2f3f0c2b42f3b0bb88385b0e17438680e3d838620e020472111c8c472f12314472811b3817d005f4817de05ff417d605df4233a08cf023440902c234008b9c2b1f)
  (.lf
  0x16b945b1b16bb85aed16ba85ad716adc5aae16a685aa2167205a54168fc5a34168e85a31168bc5a43169085a49169185a45169b45a691699c5a95169c05a6f169b05a59168e45a30168945a21168785ca1172305c811721c5c7e171f05c901723c5c961724c5c92172e85cb6172d05ce6172f45cbc172e45ca6172185c7d171c85c6e171ac565f15928563f15914563c))
  (.nd (.lf
  0x1b7286db11b6d86dbf1b83c6e011b7846dd41b78c69051a50c691f1a4e0691e1a4ec696f1a530697d1a58469641a580696b1a5a469701a494693d1a5d469671a5d0696c1a48c695d1a5e468f51a50869471a510693f1a5fc696e1a5e8696d1a4bc69141a46c69241a5dc69661a51869391a5205d091751c5d23174f05d22174fc5d73175405d87175945d68175905d6f)
  (.lf
  0x167e059f6167845a561690059f71678859df1a4c069151a41068f61681c59981a4c869261a43068fc1685c693e1a4a068f91a3d068f316b185aad167f859cb16674598b16b205abc16a8c5a9f167f45ad416af85aa01672459c614f48537214d60535414cf8533d14fc053bf14ee0536914d8853da14f04536c14c4853111883461f2187a061e71877c61dd1883c6203)))
  (.nd (.nd (.lf
  0xa50029440b1a42cb10b2902c890b1f02c8b0d53c36200d7e036150d80036180d91c36290d93c36390d8f036380d90c36410d7ec361a0d924363f0d92036440d80836660d93435f00d87c36240d884361c0d9a836460d93836450d83035580d57036030d92c363e0d88c36160d8942e480be002f5c0bdd42f5b0bde02fa70be242faf0be642f9c0be602fa30be842f62)
  (.lf
  0xd0b8342d0d0b0342b0d028282b09e3c27e909fa027e709f9827c709ed427b30a9b82a6d0a9b02a6b0a9302a3a0a8e032590c96032570c95832350b6c42dae11fc447f011fbc47ee11f3c47bd11eec16150585016130584815f1054fc14b4052cc14b2052c41490045281a6d069b01a6b069a81a49066501d66075941d640758c1d420727c09240248c0922024840900))
  (.nd (.lf
  0x166105982153705b2c1683c55361442059ed154606122143f858f614730519f144ec513a144ac5124146fc51a11472451c31470451ed1478851df1482051fc147a051ee147585139144cc5130144d0512014554508b13f5c508a142184fd31452051411457451441450c518f14628518414648516e145a451911458c513f144584fdb13f744f80138e44e1e135bc4e19)
  (.lf 0)))

def aesXorOrder11 : BTree :=
  .nd (.nd (.nd (.lf
  0xee1c3b830f1203b910eea43b8e0ed743b460ed2c3b550ee803ba50ee703b690ee203a510f3643cb40f3143a9f0f31c3d140f3f43cfb0f3583cd70f3c43d160f3ac3cbd0f3d83d230f4543ced0f3b03aa20f41c3cfe0ea503cca0f3403ce10f3783d090f3e83d1b0f3e43cba0ea143a840ea8c3cf30f3d43ce80f3303ce2109ac31f50db5c39db0e7442e3b0b9342c0a)
  (.lf
  0x9ad40d8d019b02ab103660299c036300d83036080d8109bc40d8e09bb828bd036540d920199426f4035340daa035600d3d036d80d9f034b80db10359006660cd9826d8034f8277d036ac3359036780db5019a80d540354c0d6103508066709c180dac0357026d209da80d57035640d45036d089ff227f88a6a228f48ab722ad88afb22af08d8b2296c8d90235fc89f9))
  (.nd (.lf
  0x11ea81942123741c6a11ed0192c122e01cae12730195912650194d123901c581241814fc1269c150111ec01754125dc14f3123d4176412300150d12748150712634174d12714172e126f01733123d019841240c1725123f4197012b1c173f12af4173912620199d126d4166911ec816721235c1815122f4183b12b801686125f8167c123ac1829125781938130501941)
  (.lf
  0x8dd4234f08b0822a7087801fb220a2023fd08dfc236408d6823512165425230943424380907023ee08f8423dd216a825170942c24f1090d8241f08fe423d7238342515093e824e90911c24372165825fa0979025c6096d8258f095c0256d219b425ee0978825bc096d0259b09608256b20a682665097b025d10971c25be10fb4142b0505413f70451010e903d640f56)))
  (.nd (.nd (.lf
  0x9f5828200a04c27f809fac27fa0a9002a7a0a9582a6f0a9542a720aa842a830aaa42a930aa582a920aa742a9b0a9702a740aa8c2a990aa882a9e0a9682bca0aa9c2a3f0a9e42a7e0a9ec2a760af3c2aa00aaa02a9f0a9982a4d0a9482a5b0aa942a980a9f42a700a9fc32250c99432410c96832400c974328c0c9b832940c9f832810c9f432880ca1832470c97c328e)
  (.lf
  0x12b904ae306208185d0611c1846060c4182f0837020b3082a4209b0822820890d6b435840d5e835370d470351b116c8458d115f843e110f7c43de0f9603e2f0f8943d810f5803d3c1285449f01277049d8126c8498f0223408680215c084c02120084104e24136404d4c134804d10133d04bf412d804b1c12bc04ae012b107d581f3107c901f1d07c641f1808e50236f))
  (.nd (.lf
  0x3eb00fa803e8c14290505014090503c14060501014180505c141e0506c141a05a401440050f4169f05198144205a44142e05038140504fe813f604fcc19de0672419be0671019bb066e419cd0673019d30674019cf06b5019f5067c81ae60686c19f706b7819e30670c19ba066bc19ab066a01cf2073741cd2073601ccf073341ce1073801ce7073901ce30878c1d09)
  (.lf 0)))

def aesXorOrder12 : BTree :=
  .nd (.nd (.nd (.lf
  0x1fc247f401f65c7d591f7986f191e2e47c8b1f2247ca11d1647ab01ead86e941bcd06e9d1bca06e911b644713f1c50471311c53471481c37070cd1c2a470ae1c2b070951c10c6fab1b4106d401b5807bed1f00c6ae61b59c6d081b46c6d461b48c6d2c1b47c6d3a1f2c06be11af7c6aa11af5c6b051f2946ac51ab08734d1cf60739e1ab6073b11ce34738b1cea0737b)
  (.lf
  0x1cb0072bd1cae07daf1f60c7d781f6087d641f5887da71f62c7db81f6907da11fbb87ee71fb907f9c1fd647ef71fbb47ede1f67c7d891f51c7d7e1f50472331c87872131c86472101c81872221c88472281c89472241c93072481c91872771c93c724e1c92c72381c860720f1c81072011c7f07c321f07c7c181f0707c171f0487c3a1f0ac7c411f0fc7c3e1f1d07c63))
  (.nd (.lf
  0x20984574a15e30576815e04576715e1057b815e5457c415ea857ad15ea457b415ec857b915db8578615ef057b015eec57b515db057a615f00574915e2c579015e34578815f1c57b715f0457b615de0575d15d90576d15ef857af15e3c578215e444f7c1433850aa1430c50a91431850fa1435c5109143b050ef143ac50f6143d050fb142c050c81440050f2143fc50f7)
  (.lf
  0x1013c3f9b0fe64408b101d4405410144404c13b3c4eb413aa04e9b104c03fa813b444ec513a984e970feac4edd13b1c4e9e13a684e940ff7c3fc40fee83fa60fe803f9f0ff843fd50fec83f6e0fdb03fed0ff5c3fb40fdb43f5b114784503113e443ac10cf84315114804514113c443d710f4c452c1145844f310f5043a91110044271106c43c610d444350111084436)))
  (.nd (.nd (.lf
  0x1bfc06df01b8806de01ba406e701a8c06bb01bd006e501bcc06ea01a8406db01be006ee019ec06c001b1406c201af4070501bb006f901bac06ad01a48069901a8806f601b9006c401adc06c60382c0e49038940e3e038900e41039d40e5203a200e67039a80e66039c40e6f038ac0e43039f00e6d039ec0e72038a40e6303a000e76037fc0e48039340e4a039140e8f)
  (.lf
  0x2276481fa1e6e479b61e59879651e58c79611e55c79391e4d87b051ec007afe1ebf07add1eb247abb2069481a220674819b2062c814b2052882e420b7082d920b547f8d1fe2c7f89201bc806d201b0806a1fa007e7e1f9d480be1fb307eca1fb247e961f8707e0b203a480e82039c80e61f9a87e681f960765d1d97076591d95c763b1d89c76231eb047ab51eabc7aae))
  (.nd (.lf
  0xb4102d900b6382dab0b67c2d960b8242dd70b7542e0c0b7102dbf0b8282dc60b6302d140b3a42cf40b0c02c2209b9828ed0a3382c3609d40295509ce427ab09b40277c09b7c27410a49829190a3702691037182bf90373029740a5a42687099c8297c0b35028bc03de00f61099f40dd60a424290703df00d91036142c1f0b05c28f709d2026b10379426f203dac2cd7)
  (.lf 0)))

def aesXorOrder13 : BTree :=
  .nd (.nd (.nd (.lf
  0x84802090074001b5006f001c50083c02020079c01da007a401160056c01370054001360054c018200590018a005d00177005cc017e005f0013d005540184005e80183005fc013b034c0018800454015a0057c015c0055c0d34006040189006000147004b00133004f00186005e4015e0054401600023800d3002bc00c8002b800cb003e800dc0040800ec003bc00eb)
  (.lf
  0xdab036b40da443a190e8603b400e86c3bba0e9003bc00eee43a900e8e03a930ea3c3aa80e8c03abb0eaac2eaf0ba002fbf0bab82ebd0baec303e0ba4c2ecd0bb2c2ed60ba9c2e9e0b9c42f4c0ba7442790d4504283109f435ed0d2c835f30d7b035780d2f0357e0d5dc356f0d43c41eb0d5c42c330a3c032a40b8182c1d0a3882d1b0b09c2cea0b3682cf50b0c82db0))
  (.nd (.lf
  0xa5840aa80a6280a9d0a67411560a55c127d0acb8128409bd41261049ac0d94049440f630a5d812980a5fc128e09cd812720a5500bf30a6d00bf809ae80f8a0366c0bea03e780f640a5940c040a6900bfe09cec0f840a5680ea40aac80e8503dc80e8c03dd40e790a2fc0ec10a5ac0eb30a64c0e920b1440a8702a18293002a440a8f09c9c1127044900d7c029ec0a79)
  (.lf
  0x1078c12a304628116f04594115c0d4a8138204db0134c04d18134004cd012890d464137604da8134a04d14133804cd4129b0d26c137404d64134d04cf0129d0d52013d103f6c0fc503e540f8f0301c0bfa0d48413e503f3c0fc303ea40f9303e340c060d240152c03f340fb203e840f970d59c102203bf00ee603b240eae03ab00ea80d2e0102e03bc00ee403b300ec8)))
  (.nd (.nd (.lf
  0xa78c29fb0a8a82a200a8a42a250a7842bc10a8b829c10a8002a050a80829fd0af142a270a8bc2a260a7b429d20a76429e20a8b02a1f0a81029f70a81830d80c46030f40c43430f30c440313f0c48431470c4c431340c4c0313b0c4e430fa0c44831410c4dc31400c4f030f80c7f831450c36831170c47031190c45032020c4f831460c4f431040c3a430f00c3e43143)
  (.lf
  0x232348c5722b808add22a748a6922ea08aa422a2c8a84229948a64234dc8cfe233c88ce12335c8447214c884f3213b084e6210f883fe21d58871b21c44870421c0086fd22538891722440890b223e088e1230648bf022f648bd322f3c8bce2209887f521f8c87dd21f2087ba2228088682219088632217c885e21b08868b21a048679219dc867623a448e43238948e18))
  (.nd (.lf
  0x4d6c136f04db8137504dc8137105490139704e50152604f04139905494138504d94135c04d3c134904cf812f404b7c12d404b6812d104b3c12e304b8812e904b9812e505470130b04c20151e04cb4130d0547412f904b6412d004b0c12bd04ac81f4d07ce01f2d07ccc1f2a07ca01f3c07cec1f4207cfc1f3e07f001f6407d841fc207e1c1f6607f041f5207cc81f29)
  (.lf 0)))

def aesXorOrder14 : BTree :=
  .nd (.nd (.nd (.lf
  0x16a345a9716a405a92168c85cdb173745ce8173805ce2171fc569615a6056a215a6c569d158f4560e158405624158505617156d0603e18100604a1810c604517f9065a6196a065b2196ac65ad19534662d198bc663b198c866351974c64bf1930464cb1931064c61919868cb1a33468db1a34068d219f286a8e1aa406a9d1aa546a971a8d46bc31af146bcf1af206bca)
  (.lf
  0x130d041c61307841c51675052111480452131303449661181c41cb2288081f9208008ab42080481e62294489fb1ed8089e4207c8829e204848284209ec7b4521614857d20d3c8348227c081fe20d2c835b20ca4837620d4087ca20c8083f820f64836a20d8c80bd202b887a721e8c857c20ac081322109c839d2104883c62293476b220aec813d2048885b220a048139))
  (.nd (.lf
  0x1729c5cac172a45ca4173905cd31737c5cd2172505c79172005c89173705ccb172ac5c9e172b456281599856421596c5641159785692159bc569c15a10568715a0c568e15a30569315920566015a54568a15a50568f15918568015a64557e15994566a1599c566215a78569115a685690159485637158f8564715a5c5689159a4565c159ac553a1577455b91574855b8)
  (.lf
  0x1d33c74cd1d33077341d39c74e11cf1473c41e14474951ced473ac1ceac73aa1e10c74981d21c747f1cf20782b1e06874881ced873b41d01473db1ce9873741cdcc73701d01c73fb1cf8c73df1cf6874131cff473e01cda473551b06c6bf11acac6b251ac506b131b0746c111afe46bf51afc06c291b04c6bf61ac8c6b1f1f38c7cc81f2f87cbd1f2d47cb31f3947cd9)))
  (.nd (.nd (.lf
  0x83ec20b5083502103083e42102083f820bc084dc2107082a820d90837820db08358212f084002108083fc20c60827820a2082f42105083e020dd0834020df0d4c435ab0d60c35a00d62c35a30d74835b40d77035c40d71c35c30d73835cc0d61835a50d75035ca0d74c35cf0d63436760d764357b0d6a835af0d6b035a70d9cc35d10d76c35d00d65c353a0d4f8358e)
  (.lf
  0xc53830d20e7b833570cd5833550f124392f0e4b8392d2122084872121884852119884592115c8dc7236f08db1236c08d862360c8d820336c0cda033640cd8032dc0c9b0325c8b3b22cac8b2622c908b0822c188b03031400c4f031380c4d030b00c10030304ed613b544ed413b4c4eb213a604e9616d905b6316d885b6116d085b3316cbc60b0182bc60ae182b4608c))
  (.nd (.lf
  0x1d99876641d98c76a21da1c76761da9c768e1da2476a31d9c076611d91876421d8dc76341d4ec75311d4b875241d448750c1fdf07f751fdc87f781fce87f371e240788e1e234790a1e4187f1e1ddb878d51e350746d1d180745f1d30874aa1d54875431d8b474691d3ec74f51d3cc7f521fd0474a71e6ec78ce1d40874bb1d318728d1f7507d4c1f7a87de71f5a47f50)
  (.lf 0)))

def aesXorOrder15 : BTree :=
  .nd (.nd (.nd (.lf
  0x19c3866f419c7c674d19c64674319cc8674619cf0675719cec675b19c18671619d58675019d3c674019bd4675e19d3866f119d10672f19ccc671b19d8c674219d60674119c88670519b8066f619d4c675519cd4672619cdc5dc61763469f318d38634b18a40629b14db853e914eec542f14da853d6150f453e6150ec53ee14fa0543f1510c5434150f853be14f845442)
  (.lf
  0x1819c58d8181a0586e163b458a71627858951630058ba1637c5879161b058ab161fc587b1684059741338859eb166b859811669c5978133b05993148a84ceb1682859a4165cc59c2166485976147f859871487c521c148a05227133d868f01485468ee147dc5996147e861ce14bf052c114de4534414cbc532814c84531a14c1852e514b20533b141dc53051419c5198))
  (.nd (.lf
  0x1fde423da2051c24161fd3423d91fcbc244d1fec823d41ff6423cc20594242a1fddc24d61fcf424d01fd5025af1fe3824dd1fc4c25941fee424cf1fd8824d5081bc78d20845078bb084647889084e8787608458787a0852878af0845478f70844c787e084c079bd07b6478de07bc078cc08af078e007af478e908a6c789207eb878b307c28790c08d287ad708d307ab8)
  (.lf 0))) (.nd (.nd (.lf
  0x1be046fa31be206f431be746f8e1ad2c6f8f1bde06f701bd906f981be2c6f8a1be246f511bd206b471bd106fa41be006f761bd6c6f711dc5c77471d3a8773b1d39077301ddf077581ddf477481dd1477511dd94775a1de10771c1dcc877671dd6477741dd9874e81dd88777f1d37877411dd0877491dcdc777b1ddd877771ddd477271dc6874dd1d3a477691dd58774f)
  (.lf
  0x1b6b06d7c1b5946d641a51469201a42869091a4005a16175245d24174385d0d1740858e2185c4614c184f86129184a0556c17bdc5ed217b085ebb177d85dc319a48666d199606654194b4652b1a05067ef19f8067b019ebc636b1cbe072d31cb1072aa1caa46a1a1fbc47d9e1f5d87d431f4f46b381c8f072171c82071ee1c7b470c41f1287c141f0447bfe1eff06d6b))
  (.nd (.lf
  0xaa1c2bce0aab42a8c0af242a780a9602a4f0a9102a410a8f0325e0c924323e0c910323b0c8e4324d0c93032530c940324f0cc5c32750c9c833230ca6832770cc7032630c90c323a0c8bc322b0c8a047f611f8447d611f7047d311f2447e511f9047eb11fa047e712520480d120284957120c4480f1254847fb11f6c47d211f1c47c411efc161a0581415fa0580015f7)
  (.lf 0)))

def aesXorOrder16 : BTree :=
  .nd (.nd (.nd (.lf
  0xc53c31650c56c27550a480278c0a43c27260a6480f7409db00f710a56429a30a59026b909cd40f620364c2b2c0350c29890a58029b10cd6826c209ddc276209b302709036c827ae0368428e50c864321d0a3a02cdc099cc28f50b358270109a302c200c88028dd09a1426a601968065c019900dbd0198006070174405d30176c0da70175c057e01520054a015480d89)
  (.lf
  0x14114507b14138504d1412850371405c500e140044ffb13fd85be616f445bcb16f385bc2163505bd516f505bdb16f605bd716ffc5bfb16fe45c27170085c0116ff85beb16f1c5bc31633858cb1631c5f7817d8c5f5817d785f5517d2c5f6717d985f6d17da85f6917e445f8d17e2c5fb917e505f9317e405f7d17d745f5417d245f4617d046f621bd186b481bd146b4d))
  (.nd (.lf
  0x1e80479fc1e81c7a281e8387a2c1e73c79ef1e8d07a241e8c87a0f1e7207a181e8b879c21e7e079fd1e7d479ed1e8787a111e8947a101e77079211e4a079c91e8cc7a091e8147a031e82c0abe02c0c0adf02be00ade02bec0b2f02c300b4202c840b2402c800b2b02ca40b3002b940afd02cd80b2702cd40b2c02b8c0b1d02ce80abd02c080b0702c100aff02d240b2e)
  (.lf
  0x15a805650156005a20163005660158005540142c04f00139004e30134c04cc0143405010138404dc0133c05190140c04dd0135c04cb0120c046801170045b0112c04440121404790116404540111c0491011ec04550113c044300fec03e000f5003d300f0c03bc00ff403f100f4403cc00efc040900fcc03cd00f1c03bb01d98074b01cfc073e01cb8072701da0075c)))
  (.nd (.nd (.lf
  0x2074081eb2075481e02064881d1207d881ea207d481d62060881ce20790816c206b881ab206fc81bc2077081d8207b481d7206d081912063c818d207ec81e92070481b6207187f8820bd0815b20b74815720b98831920bb8830f20bfc830520cc0833420c2c831b2057882ec20ccc831120c40830c20b38830820c687fd720c0082fc20bd482e920c88830e20ce0830d)
  (.lf
  0x1e218787b1e24c786c1e42c78e61ca2878cb1de00714f1fcac77851ddc47f2d1de0c71501fd4477791c54c7f281fc707f041de187f0a1de247f531fd287f1a1fc607f231fc047f641fe8c7f0d1fd387f381fc207e861f4c0760c1f7f87d4f1f4dc7d541f4d8761f1f5947c951d8487e201f4cc7d961f7407d581f5287c781f6307c871f2187c961f24c70a01f2607c7b))
  (.nd (.lf
  0x23bf08ed923b588f1a23c2c8efa23c748f0d23c088f1b23bc88ed1239788e5b23b208e52218508602217e085ff217dc85ec21830860b2186c861a21864866821928862921950864e218dc864b2169c8590217b4861f2182485f41cf3c1c261cd401c2b1cd501c931cda01c1d1cd041dac1cf641c331ce7c1c361cdbc1c881ce0c1ed71cecc1fb61cd2422b31ce441ebb)
  (.lf 0)))

def aesXorOrder17 : BTree :=
  .nd (.nd (.nd (.lf
  0x81b47e221fc74789d096b883180962c83580963483720962488f60968c8428096188ccd096108cc9096208cdd0968489f1095c88a39095cc89e20961c89e60967c84cb2133484dc2131484db213c484cf213648df12381c8dff237d88e022379c8e09238148ec623b088ec723ac48eaa23b0c8e9b23acc898c226448977225988bc622ecc8bc222ee08ba422ef88bc0)
  (.lf
  0x1bf606fd30d1e833530cd44369f0d1cc334f1fdd8776d2051477881ddcc3f8e0f228391a0fdcc3f660da0036940cd34334c0cd284d3a134d44d30134504d0d1342c3f610f268367e0e3e036860d9b037d00db6036d60da8436a0170dc5bb516ec44cff133ec4cf90b7882bef0bb202e640bb182cd00afa8369b0da283a460e7ec2be80e8ac3a160af983a0a0e7342be4))
  (.nd (.lf
  0x31ec0c84032000c3c099e00c89030580c5b031800c5d031602680032080c8b032040c48030b40c34030f40c87031e80c5f031480c6113a804ee213af84ed713af44eda13c244eeb13c444efb13bf84efa13c144f0313b104edc13c2c4f0113c284f0613b084f2213c3c4e9f13b844ee613b8c4ede13cac4f0813c404f0713b384eb313ae84ec313c344f0013b944ed8)
  (.lf
  0x1ebb47ada1eaf07b181ebb07adf1eaf47ab91e77479291e49479241e43c790d1e77c79d11e74078eb1e39479ec1e78c79d21e3b078e21e9e87a3f1e2f078b01e22878811e9f07a511e4b478fd1e3007a5d1e92c792e1e2f878bd2002c7fc01fe6c7f571fcf87f22200247fea1ff887fbb1fee87ffd1ff587fbe1fe407f55206d48194205e48169205a08166206e48193)))
  (.nd (.nd (.lf
  0xc67031ab0baa42f0b0bb9c2f000bb982f030bcc82f140bce82f240bc9c2f230bcb82f2c0bbb42f050bcd02f2a0bccc2f2f0bbac30ab0bce02ed00bc282f0f0bc302f070c2a82f310bce42f300bbdc2ede0bb8c2eec0bcd82f290bc382f010bc4037f70e0c4380d0e098380c0e0a438580e0e838610e128384d0e12438540e14838130e0ac385a0e14038590e1543811)
  (.lf
  0x1d18c25980821874f609380209120b102667085602152084a082b3099ac214e209fc265b08514829f08d5822a8087581f0e2391c22aa08a9885b308b0421de20adc24f2093b023fb08f4882a7095f424e821604241e08fc882bc0970c259c09630256a20ab425a5096688285096cc257f10e9813f40446010e403d5c434a04458111510edc11410439443a2051b412bf))
  (.nd (.lf
  0xfcd43e9c0fa6825f80978c25d80977825d50974c25e70979825ed097a825e909844260d0982c26390985026130984025fd0977425d40972425c50970825210943025010941c24fe093f025100943c25160944c2512094e82536094d02562094f4253c094e425260941824fd093d024f0093ac201b080181ffb080041ff807fd8200a08024201008034200c080d02030)
  (.lf 0)))

def aesXorOrder18 : BTree :=
  .nd (.nd (.nd (.lf
  0x4d78132504c9c132f05488132b04b481f7e07e001f8907f141f8407cac23bc08ef823c60900c23c208da4082c020b808370377c083201f6407a301e9407ae0372807a901d402cb00b2c82cba0b3002cb60a50c364a0d93036540d9a036500d56c2faa0beb02fb40c0b42fb00bd5c3b220ec903b2d0f2103b280eb3c37c20df1037cc0e39437c80ddbc44ee1137044eb)
  (.lf
  0x17f5c5fd417f3c656f19568654f19554654c1950c655e1957465641958465601962065841960865b01962c658a1961c657419550654b194dc653f1935c65f51978065d51976c65d21974065e41978c65ea1979c65e619838660a1982066391984466101983465fa1976865d11971865c2196fc6488191cc6468191b864651918c6477191d8647d191e8647919284649d))
  (.nd (.lf
  0x1851c6150186846192185c86165185d05eb917bd45ed117ba85ed017bb45f2117bf85f2b17c4c5f1617c485f1d17c6c5f2217b5c5eef17c905f1917c8c5f1e17b545f0f17ca05eb817bd05ef917bd85ef117cb45f2017ca45f1f17b845ec617b345ed617c985f1817be05eeb17be864ed19a40666c19a14666b19a2066bc19a6466c619ab866b119ab466b819ad866bd)
  (.lf
  0x13ff04ff813ee45034140784ff913e544f93147145132144b051291446c511a14790513e13f084fb013e6851cd144f04fb113e6c4f98145184feb13ed84f7313d5c4f4c1451c511813f7c4fcc13e905156142304fcd13dfc4f7215de4575e15d485745130c4497615dec576f15d40574113144578715dc4574815d10573e138b04e16135c44d62135684d58138ac4e1b)))
  (.nd (.nd (.lf
  0xebec3aee0ebf4375e0de6037740de3437730de4037bf0de8437c70dec437b40dec037bb0dee4377a0de4837c10dedc37c00def037780e38c37c50dd7437970de7037990de5038e70def837c60def437840ddac37700dde437c30ded8379b0de38379d10ffc44c11102044c01102844b0113a044e41138c44d9112d444d8113a844cf1123c44de113b444e91135044d2)
  (.lf
  0x1111c4446111144444110944413110443eef0fbb83eed0fbb03ecd0faec3eb91217c485e12174485c120e44686119e84a78129dc4a76129d449a312664499503f500fd303f480fd103ec00f910509014230508814210500011430676419d80675c19d6066d4198d073b41cec073ac1cea073241c760921024830920824810918024240ad9c2b660ad942b640ad142b33))
  (.nd (.lf
  0x149945262149705256133f84cfc133e857e6135144d36130644c0e130304ced131944c5a13d6c4f5813d404fd813f1c496f1256c4f8b13e144d161245048a712278489d12fa0492f124b8492b13454491f115804c131257c4be513da84f441340c48aa12fbc4bed12690499e126ec47a511ccc4975125b4494f123dc463713ca44f26130b84c2b1231c47a913010472a)
  (.lf 0)))

def aesXorOrder19 : BTree :=
  .nd (.nd (.nd (.lf
  0xb3b02dd10b71c2dbb0b6982e200b7ac2dea0b7a42d970b3e82d070b4402dda0b72c2dc10b6702dbc037880db003d7c0d9a09aac2bfe0cda005eb018c0060c01894060b018a00657018e4065f01924064c019200653019440612018a806590193c0658019500610036ec065d017a8062f018d00631018b00dc001958065e01954061c01804060801844065b019380633)
  (.lf
  0x1e3e078fe1e3607f7a1fd8c7fbc1fe507fde1ff68816f1ff7082051ff308225208307f7f1fdac7faa1fdec7e741f9c87e781f8a47e0f1f8287e941f8447e341f8b87e361f7cc7e5b1f9587e601f7d875221d3dc77991d52475391d3f8755b1d4e07b611d5547b641d4f876321d60476501d8e06ea31b4f86ea91ba886d721b5bc6d881b5d07bf91b5a87c0d1f0046d5b))
  (.nd (.lf
  0x71984f15064a84f55072b04fa3065584fc90652c4f40071484f60053e84f97053fc4f6505d484f33053c44f3b05d884f520542c4fac05414511905d2c4f8a05cb04f9205cc44f68066084f3f05c8c4f5a065b84fa805cf44fe305cdc4fe8066684f9c059904f6c059c04f460604c180a13d70183513ed4168413f98167713d0c180516798193c166f019461666c1c6b)
  (.lf
  0x40c0102310c5016830421c107b04184104d04130102f10c04181f04214106a041641047134f41943052ec14a50521c114b043c010ed1347c195a052bc14a3051f411490446c10ef148b81c5a052b4149205220147f15f9c16ed05b5c16a505a74151a0545c15021346016e105b5416bb05aa0169b05464150e12484174e05b7c16c405acc16a61352017340566c1585)))
  (.nd (.nd (.lf
  0x1200815e30588415fd0585815fc058641648058a81650058e8163d058e416440590816030586c164a05900164905914160106018164e0550416200589416220587418030591c164f05918160d057c815f905808164c058fc16240585c16260520014c00527014b50526c14b80539c14c9053bc14d90537014d80538c14e10528814ba053a414df053a014e4052801747)
  (.lf
  0xf7983dbd0f6cc3da40f5403d3115328548e149a05243148c452301656c59231643859081640058fe12e684b8e12b444ace12b284ac9132b84c80131f84c7b131244c4501b0c069e01a340682019f806770392c0e26038400e0f038080df70488c11fe047b811e60478811df0467c117a045a8116204578115b05688157d0559c1566055501552077c01dcb076d41db4))
  (.nd (.lf
  0xc5cc318e0c63431940c64431900c79031b60c6cc31e60c76031b80c79431a40c610317b0c5c4316f0c5b02f040bbbc2ee40bba82ee10bb602ef30bbc82ef90bbd82ef50c29c2f1b0bc6030a90bcf42f1d0c2a02f090bba42ee00bb302ed40ba98382a0e054380a0e04038070dff438190e060381f0e070381b0e3ac38410e0f838ef0e19838430e3b0382f0e03c3806)
  (.lf 0)))

def aesXorOrder20 : BTree :=
  .nd (.nd (.nd (.lf
  0x1a83469c31a73869951b1bc5df217f185dd817ce05de1177905dd11771c5de9189986512194cc5ddc19398627218954628a1937462531946c64fd18a105db718a1c664418d6c636e1760063081912867a519e9c67aa17648635f18dd4637119ed4638218d3c631e1a63c5ceb1ca8c561f171305d981781c5d9d18d28635c18ef4631a18d18633c18a68628f193d85724)
  (.lf
  0x15d80577415dcc577a15ddc577615e78579a15e6057cc15e8457a015e74578a15da8576115d50574f15d1850c7142c850a7142b450a41426c50b6142d450bc142e450b81438050dc1436851111438c50e21437c50cc142b050a31423c509713de85e6c1795c5e4c179485e49178fc5e5b179685e61179785e5d17a145e81179fc5ead17a205e8717a105e71179445e48))
  (.nd (.lf
  0x18fe063d018fb463d818fc0642419004642e19058641919054642019078642518f4c63f21909c641c19098642118f686412190ac63c818fdc63fc18fe463f4190c06423190b0642218f9063a818eb463db190a4641b18fec63ee18ff469d41b2c86c8e1b29c6c8d1b2a86cde1b2ec6ce81b3406cd31b33c6cda1b3606cdf1b2506cac1b3846cd61b3806cdb1b2486ccc)
  (.lf
  0xdd5c36ce0db3037930ddf4375c0dd6437540e07838050dfe437e80daec34e40e08038140dfc036c40db08382c0e05837f50dfc837ed0dc2836ef0db9436920d3a434cb0dc3037000db7436b30dabc37180dc0836df0dac0368f0ed783b470ecd03a7b0e8f43a3c0ed803b570ecf43a1d0e8683b6d0ed603b370ecd43b2f0ef683a740e9b03a1e0e8143a020ef703bc9)))
  (.nd (.nd (.lf
  0x46f811ba0471411c3045fc11970473011c10472c11c6045f411b70474011ca0457c119c04684119e0466411d50472011d10471c1189045b81175045f811ce0470011a00464c11a20558815a0055f01595055ec15980573015a90575815be0570415bd0572015c605608159a0573c15c40573815c90560015ba0574c15cd05558159f0569015a10567015d80572c15d4)
  (.lf
  0x1501c540614ebc53ac14e585546146bc50fd139f45544154d054e51539051be1469851a41468c512313ebc4fae1454c51501452c514a141fc4fe913f444e32138c44e30138bc4e141318c4c62137584db9136e04db71364c4d8413608528714a10527f149f85255148f8523c13e204f3c13cdc4f3413d4c4c091251449411041040fb1039c40e2100f8403c100e447b6))
  (.nd (.lf
  0x1680058b016000586015f4057b0163c058e016540592016440d9c016dc05b4036a005d9016e40da4016940585015f0056f015a4055e0145c0502013dc04fd013d004f2014180505014300509014200d7f014b8052b036280550014c00d860147004fc013cc04e60138004d50123c047a011bc0475011b0046a011f8047d012100481012000d6e0129804a3035c004c8)
  (.lf 0)))

def aesXorOrder21 : BTree :=
  .nd (.nd (.nd (.lf
  0x22b888cb1232608c8e231d48c89229e88b7e22a8c8ab222a808b7c22e848b8f22e988bc322e148bae22eec8b9b22a948b8b22ed48b9d22e788b9c22a848b9822ee88ba3229d88b8222e008b9222e208ba222e808bb622e7c8aea22a048a8e22a988bb022ed08ba922bb48b93233908d1e233f48d08233b48d0f235848d14235608d5d2348c8d3c235248d45233fc8d11)
  (.lf
  0x1120045a0113803c100f0003d200f18072c01cac073d01cc4033700cd8034800cf002af00ab802c000ad008e30238808f4023a007b501ed007c601ee8021f0087802300089001970065801a800670010e00434011f0044c00860021400970022c0c9a032640cab0327c0c0f030380c20030508e28235a88cca1f2907bec1ca7468eb18a7461171819457e415cd4522c))
  (.nd (.lf
  0x3a1006fd0e5200e8b01c0c3936039e006f10a4200ec001c90291603ac8071f0a4a00e9101c2028cf02a140a840b0600a8e02a342bf604498112309a380a78029dc26860441810fd0a3780aa602a8c2ce602a6c0a980c8841152045442c15049ec0b560b094128202d6c2bfb0497c0b3e09a34126902d1426920493c0b320b384129402dd82cd904a2c0b6809ba01270)
  (.lf
  0x2124083c000340b5d022180870021280844020e00009045500af002b540ac902b200ab802ac4000702bc80ae602b180ac102ad00aa5000140afe02ba00ac202af00ab002a4000011ab441d37072741c94072446ae708ad022090881c21fc1aaa0241907f9c1fcb07f286ac6082001baf06e5c1b921d450213d076cc1c9a07254750708afc22bb08ae822b51d2f42455)))
  (.nd (.nd (.lf
  0xc25830520c2c8309f0c0e030710c1d830730c1b830b40c26030a00c25c305e0bb04304a0c14c309d0c24030750c1a030770db84371d0dbe437120dbe037150dd1037260dd3037360dce437350dd00373e0dbfc37170dd18373c0dd1437410dbf438ff0dd2836e00dc7037210dc7837190e40037430dd2c37420dc2436ee0dbd436fe0dd20373b0dc8037130dc884419)
  (.lf
  0x1e2687ac31eae87ab41e3b478e31e38478bf1e280788b1fe447f8f1fd58814c2052481482085c82112081c7f8a1fe187f851f7c07dd31f7487df91f71c7dc61f7747d951f5f07dce1f5bc7d6d1d65475911d2e475181d2fc74be1d4a8750a1d420762f1d88875161b8906e221b8746d8b1b4746d131f0247c051eff46d9b1b5f46d7b1c2886fe71bf346fe01bf1c6fc1))
  (.nd (.lf
  0x1e180dcd01eb0078b0371c077701d5c074e01d04073b01cc02c7f0b1a82c640b19c2c5b0a5082c6e0b1b42c740b1c42c700b2ec2c960b24c2cc10b2e02c980b2f42c840b1802c5c0a4ec29380a4d436190d81035fe0d80435f50d56836080d81c360e0d82c360a0d98436300d8b436690d94836320d994361e0d7e835f60d54c35500d5342f790bd902f590bd7c2f56)
  (.lf 0)))

def aesXorOrder22 : BTree :=
  .nd (.nd (.nd (.lf
  0x1fd207f061f58c726a1c9b072791c9c072721c8447c721f1bc7c6c1f2487c821f07489e9228b08a48229bc89d622650828d215e0857a216dc826a2088457bd15efc57ce15f0857c515d8c51011440c511314418510a142945ea317a945eaf17aa05eaa179286428190a86434190b4642f18eb06ce21b3906cef1b39c6ce91b2246c5e1b1806c6a1b18c6c651b014760f)
  (.lf
  0x14bc4497b1233849cb127104148124144613120d442690f0bc4265107403e190f6b83d8a0f5bc3d4b0f5203d580f4b4439d0f4a4432a0f49c3d260badc35750d44833e40c78c34b70c7842e9b0b06c28c70a38028db0a30428bb0a2e8283809e9c27a109dec277909dd8276109d6c275a0a468274d0a42c274b09d18294f09d00273f09ccc274e09cc4291f09d1c28d6))
  (.nd (.lf
  0x18038600918118603818108603717fe45fe017f945fee180fc60301804060031804864d9195d86552195ac6551195b865a2195fc65ac1965065971964c659e1967065a319560657019694659a19690659f195586590196a4653b195d4657a195dc6572196b865a1196a865a01958865491953865571969c6599195e4656c195ec65bc197f065d8197c465d7197d06628)
  (.lf
  0x1a8a06a241a83c6a591a90c6a251a7e469f51cb8c72ca1caf872a71a77c69be1cb9472d91cad472ab1a86c72f11cb6c72ba1cadc72b21bd4c6f4b1a81869dc1a69869a51bd486f4a1bcec6b441a81c6f631bd1c6b3a1a82069da18f9463a918e8463a018e6c639918f9c63d418f24639518e3463f318f7463ca18e3863841a22067c719efc67be19ee467b71a2286877)))
  (.nd (.nd (.lf
  0xf9f83e7a0f8e03f420fa0c3e260f9543e5a0f95c3e520fd183e7c0fa103e7b0f9083d840f6203e390fa043e740f9643e4c0f96c49ae1284c49ef1282049f4128384a3d128744a3b128b44a30128b04a37128d449f21283c4a40128cc4a3f128e049f512d604a3e127644a191285c4a14128404b57128e84a44128e44a001279c49ec127d84a42128c84a16128244a18)
  (.lf
  0x17f2c656a195a465681959c6548194e46535197c065ef197b865ed19730652019474648319208648119200645f190e063b21a23c688e1a234688c1a1a467c5191086a521a9446a501a93c6a301a8846a1d1ae1c6b861ae146b841ad946b561ad48740c1d02c740a1d02473d21ce9073a01c64871911c640718f1c5b870201c0746dd21b7446dd01b73c6db01b6786d9c))
  (.nd (.lf
  0x1c3c870e71c36c70f71c3d870ff1c3e870f91c4dc712d1c4a0713a1c4e4711d1c4d071211c3d070f31c32070e11c2f870681c13470481c144704c1c10870561c154705d1c16c70581c26070781c1d4709e1c21c70791c264706f1c14c70521c0f070321c0b86ac91aa8068571f2a46b1a1aa906ff51bfcc6ff21bf746fda1bf646d421b45468de1b45c68e31c3006f9a)
  (.lf 0)))

def aesXorOrder23 : BTree :=
  .nd (.nd (.nd (.lf
  0x18b6862ec14d3c541914e44540814e605417151f4541615208542315080542a151d05469151f853b61503c546b150b4546d151a8539c151d8547f14e4c541d15078541a1504c547c151e0547a151c4545d14ec053b414ed4546e150b054651509c545f14c2050841546858ef162ec59a9166c0511f1478c513714694513614750521a1474c51f51477051e114810520d)
  (.lf
  0x12564494d120d04c5212528482e133b8496b12558498711838411e123e8463a1185448ff112104128123504612104a448cb118c447ac1240048d61238c48cc1230448b9122d448c81231841581272448f212340472911eb447a616230491711888492a12448462812474489c115905235134dc461e12f98491114918492c1243848ae1157c413e1051446241009c490f))
  (.nd (.lf
  0x20cf8244321e4023e722374257c20d3823f821f4023f122f20244620d08265421e70258022420257e21e9426642107c264c20e9c265f20fb0265e21150264d20fd4264b20f6c264820f38265920ee4265d2109021d420e9821d120f9c23f42114021dc20ffc229e2104421da2105821d821bd823eb20fbc23ea210d423ec20e7c24422103423e621378257520fec23f7)
  (.lf 0))) (.nd (.nd (.lf
  0xcb0833280cc3c32a60cb8432e60cb8c32de0cca833080cc4033070cb3832b50cae832c30cc3433000cb9432d80cb9c2e580bfcc2fcf0bfa02fce0bfac301a0bff030220c030300f0c02c30160c0502fd50bfb4301c0c048301b0c05c2fd30c2f030200bee42ff20bfdc2ff40bfbc30bb0c06430210c0602fdf0ba102fcb0bf50301e0c0442ff60bfa42ff8113d44531)
  (.lf
  0x1de447790200947fe41ff487fc41ff087fc11dba875851d5d475661d580755e1ea6c7a531e40478ff1e30878b50a1c028470a0f4279509dcc27711e0cc78131d22874841d1f473ca1ee907b6c1ed88757f1d5b0756b1e7d879cd1e70479271e444791002c140ae002b3c0ac402b000ab90291c0a22028440a060280809fb026ec099602614097a025d8096f063ec18d6))
  (.nd (.lf
  0x690c1a3f068f01d6b075581d4b075441d48075181d5a075641d60075741d5c08a5c1d82075fc22c7076901d8408ab41d70075401d47074f81d3a074d409290245009090243c09060241009180245c091e0246c091a03d6c0940024f40f6c0258c094203d94092e024380905023e008f20239c33a20ce3433820ce20337f0cdd833910ce4033970ce5033930d20c33b9)
  (.lf 0)))

def aesXorOrder24 : BTree :=
  .nd (.nd (.nd (.lf
  0x13d28494313ce4523613408414315f9449131180c4606118bc4962125b04c12123ec4901126e8494713dbc48b611eb847a8118984f3d13e404126104b44113104844124101003bb510df843571095846ab10e4c432b118fc437210d7c464910e2c468f10970426610c5c43f610bb043eb10f1042f810c8443e810ce43fae0f1dc3f6710d104e9113a304e8f0fe0c3ca4)
  (.lf
  0x1dad075611d45c7a5b1e9287a3e1e9247a391e4b07a521e9387a721e9ac7a691ea147a7f1e9e07a9f1ea5c7a921ea187a6e1e9507a401e3ec79031e31028670a148284c0a13c284309e7028560a154285c0a16428580a200287c0a1e828aa0a20c28820a1fc286c0a120284409e50279609c74782a1e07478191e06c78181e05478251e080783e1e08c78221e1187841))
  (.nd (.lf
  0x1ffec804b20004804f2005c8035200b0803020090804d1ffa47ffe200dc802f2010080361ff9c8020201307fc62004c8010200f4801a2010c8042201248041200207f9a1ff947fe8200e4802e2009c800c2006c751d1db9c75651db8c75631db3077091db8877151db7476d21dbc077021dbd0770c1db0076d31dc3877001dbec76f61d5d877041dc2875641db3c76d9)
  (.lf
  0xb45c2d110b37c2d3c0b4bc2d120b0242c000b6642cfb0b3882c280b01426e90b6602d000b3c42ced0b3a02da50b4382cf20b0b82c260c94832370c8b4322c0c89032220c95032480b6d02db20b0b032600c9282db30b0b42c2a0e5d4395c0e50839390a52c29290e5dc396b0e53039400b11039830e5b439490e4e839380c41430ea0c38030df0c35c30d50c41c30fb)))
  (.nd (.nd (.lf
  0x9554250a09488255709530255609544250809508255b090f42527094b025290949025600954c255c095482514093e425000942425590952c252b09478252d07f90202207ff8201707ff4201a08138202b0816020400810c203f08128204808010201c08144204608140204b08008203c08154204f07f6c202108098202308078205a08134205608130200e07fcc1ffa)
  (.lf
  0x2221488842220c886221eb087aa21a64869621a5486942174085c2217048e79239d08e73239c88e202176085d423b848edf23b748edc239608e37238c086512184c860f218388603217f485ee1ab641c1e1aae01ebc1af9c228d1ab9020671d31021221d2ac1ec01d1a023e01d63c24e5209b8264f2172021e22173423e8209c4258a10d1410de10c20146410bb413bf))
  (.nd (.lf
  0x232408cab231f08c62231848ad022b148a3c22e188aaa22a3c8aa222a1c8a8622aa48aa722b9c8ae622b948b9522e448b9022ee48bac22e648b9722dfc8ae322a208a7c22a788a43234408cf9233dc8d01233e08cf4234148d04234ac8d272346c8d3f234c48d26235048d3a234d88d402347c8d19234088ce8233ac8ce321454850921408850421404850021440850b)
  (.lf 0)))

def aesXorOrder25 : BTree :=
  .nd (.nd (.nd (.lf
  0x2306887bd2209087f42208087fa22054884822050884d220c0881a220b888d7220f887f72203c88d3221008845220fc87fc220e4884b2212487e222060882c22094881d2212888472235088462200887ec21fc087fd2210888d22209c8821220d088582227888672221888702222488c4222dc88c62239888992229088cb222cc886c2222c88c92231488b9222d08871)
  (.lf
  0x1e34c78db1e32471dd1e2a46f1b1af5478a51e244729b1d4b475201d47c750b1d41475001d54c74f21d3b87fa01fd9c7f151e35878d01ca6078c61ca5872951e3c472921a8107f711fcfc7f1f1fe047f361fecc7f5c17f145e2c178ac69e71a79469ca1a70069ba1940061cc1872861c4178685e061b4a0677b1b538679f1b5986ff11bebc746e1ab3c6be01aa7c6864))
  (.nd (.lf
  0xa2c42bc70cc604949060cc176106e94229803d7034a90e71c4931070f42bbf0c7ec43530c2dc3907118503f4e124a44b740414c16ad06b5421e4096482bbd0c7dc30af0e3e848b405ffc240d0aea4430a12db0196508524367b117dc3f4012d700e030555c152307f7423ff0378c0dc30b2f036620c0a43c750e38445ee1051041380fcf438df0f0e83d110b9080dc1)
  (.lf
  0x22c008abb22ae48b4222c348af322b008abf237508d99236288d70228d48a032372c8d98236308d87229748dba236888d7d235d88d7322bb08a82229f48a61229048a1322bac8aa822a248a63229888b8722aac8a74229b08a42234b48cea233888cce21040840a234b88d00233808cd5211208d15233e88cd2233408ccf2151884fc2137c843620ff083d02146884fe)))
  (.nd (.nd (.lf
  0x4018100e040140fcc03ec40fb803f04100b03ff80fe303f580fe504fc014300503014250502c14280515c14390517c14490513014480514c145105048142a05164144f0516014540504016920517413f2050bc1434050c4142c05a8014560517814550507014010502014110516c144e050cc1426050d419a50679419c10676819c0067741a0c067b81a14067f81a01)
  (.lf
  0xf5d83c620f1843eb80f6383d8c100d83cae0f2b4404d0f29c3ca613a8c4ea113a543fb90fedc3fb0113e044f6113bc441010c9c4326115b4432e10cb4440c1100844000df7034f10d3c037550d3b434ec0dfb837e70df9436e40db8836db0ecc03a7c0e9e83a650e8103a030e93439e00e77c3ab50e9783a5c0b9842e5f0b9642e910b9482e3d0ba902e300b8a42e4a))
  (.nd (.lf
  0x16428592e16478592d1649c59261654c593d164ec5961165685959165445935164905919164485906163fc4b8112d844b6012b704ad812b584b7b12d904b9512e484b9112f0c4ba612e8c4bd212f384bb512ed04b9e12e3c4add12b104ad2126f84c99132284c85132204c84132084ca5132484cb7132c44ca81334c4ccf133344cd4132f44cba133384cab132404c89)
  (.lf 0)))

def aesXorOrder26 : BTree :=
  .nd (.nd (.nd (.lf
  0xca44329c0cc7c32950c8f04827120a4483312554482d11f50164b059341661060201651057e014ea053b014f805d2414f00525c1aa306a941ab106e341aa9069401d9c076781da608ac01da207524095a02570096503da009600241c33d30cf5433e20d22033da0ce0039b20e6d039c30e75839b80e57c479911e6c47a4124e0479f11a8c1c14070581c22071041c1a)
  (.lf
  0x16cf45b5816d5c5b5e16d6c5b5a16e085b7e16df05baa16e145b8416e045b6e16d385b4516cc45b3916c8860b51828060951826c60921824060a41828c60aa1829c60a61833860ca1832061021834460d01833460ba182686091182206084181fc56db15b1856bb15b0456b815abc56ca15b2456d015b3456cc15bd056f015bb8572015bdc56f615bcc56e015b0056b7))
  (.nd (.lf
  0x1af1c6bbd1adfc6b661adac6b741af106bb61ae586b891ae6073711d06073f41d03473f31d04074441d08474521d0d874391d0d474401d0f874451cfe874121d124743c1d12074411cfe074321d13473de1d05c741c1d06474141d15074431d13874421d01073a51cfc073f91d12c743b1d06c740e1d074715e1c678717a1c64c71791c65871ca1c69c71d51c6f071bf)
  (.lf
  0x156845575155c855d815708559e155cc553918570614318494611e155a85538185786152184cc612a155b4616a18550613018470611b1594c56381589c5557154805501159545649158bc557f1555456611592c5580155585553182a4608e181f4606d163e858f9182ac609f182146074170cc60b7182846071181ac606a172545c7a171c05c6f1719c5c651725c5c8b)))
  (.nd (.nd (.lf
  0x901423b808f0023b708df8236308da8237308ef423b008e54238808e5c07bd0200807de01fdc07dd01fe808290202c08310206c081e0206808250208c07e401ff0082b02084082a0209807e203774082f01ef0080102018080301ff80ddb020a008300209c07ee01f4c07da01f8c082d02080080501fe0080701cd0077901d54076e01d50077101e80078201ea00792)
  (.lf
  0x1e79479c01e48078e402bdc0af602bd40af402b4c0ab7028e40a38028dc0a360285409f9026b409ac026ac09aa02624096d063b418ec063ac18ea0632418100ef843be00ef7c3bde0eeec3a720e998502d140b0502b140a8500913fc44fec16f845be016f7c5bde16eec58d0162dc5f7317dc85f7117dc05f5117cfc5f3d1bd7c6f591bd606f571ad246b411acfc773a))
  (.nd (.lf
  0x14fdc53d814ef4537314dc0536514d6862e618b5462c818adc62b318ab462cb18b2862d418b3862cd18c98632518c54631718bf462f318c58630c18b1462bb18b0062aa18aa0540e14ff0539a14eb853aa14e64540414ff8545c150045400151885426150945477151c85467151c0541c14ec853ab14e1c538914d3452f814bc052ef18a7c52e714b905c3616ed85bb2)
  (.lf 0)))

def aesXorOrder27 : BTree :=
  .nd (.nd (.nd (.lf
  0x14aec52a314a70528114a9c5237124944f91122c449511240848fc1032440f01031840e31010440ee1042041021041c410d10460410e1044840f91046840d1103a84125104444122103fc40451047c412f1032c41151042840fc103c4411d1040441141040040da10340404710118412c1044040f31039040f510cfc3d21119d83c600f10c3bb70f1fc37db0e298387e)
  (.lf
  0xaea82e350b3102b2a0b8502cc70aec42e340afb42df60b8602e110b8f82e210b9682e4c0b90c2e170b83c2ccd0bad82e2d0b8982df70b7f02df10d260348e0d23034ae0d2ac34aa0cf9833dc0cf6c41df0d50c34890cfa831eb109d831f90c77c2dfa0cf5c31e80c7e034930c78034940c7cc31f10d26835070c7b4348d0c7a431f609a2426810373c266f037140dd2))
  (.nd (.lf
  0xf110155d0556c3d2f04f9c13e40f53813dd04f6c3c4b054b4152b0f1a41665040703e90059b410210f1c016530404c3c73060d810560f0fc1681040b43d40059e010270f578181d040e0436b0436c0f4211ee010e603d1c466b044f0112b10e0810d903ce8437f04448110b10d6010da03d3c4655043840f4a1095c12a40456446a9051a8128011ab4146f04a1c4668)
  (.lf
  0x6e501acc1ac48207a06f5c1bbc06eac1ba11d4d0211c077a41dd3072641c8c070e81c2d1d1ac2125077741dd1076dc1c97072281c391d3c021330776c1dc0076bc1ca41d494230b08bd422d708ae41fbc07ee41fb81d5a022ff08bcc22cd08adc22a207ec41fa61d3e4234e08bf422e208b6022cf1d43c248b091d4242e0906823dc08a5422901d538247f091cc2459)))
  (.nd (.nd (.lf
  0x5c80171705b7816c305b2816d305c74171005bd416e805bdc2206089142221088e82220088f4226c089382274089782261089742268089982227088fc226e08990226d089a42225090402272088142244089242246089042426089ac2273089a8223108858221d0889822700898c2248088ec224a0cfe8343a0d058342f0d05434320d18434430d1a434530d1583452)
  (.lf
  0x107d041ec107a041e50c1d0304f0c108303b0c0dc30360dc7c36fa0dba836e30dac436ae1115444301108443ca10f2043c70fbf43ed80fb243e930f6343d66121b44844120e8468411934464c12a184a61129504a4d1292449cf03f880fbd03e9c0fa603e600f94050c8140d04ff413f504fc413ee0679c19c2066c819aa0669819a3073ec1cd6073001cbf071e01c5e))
  (.nd (.lf
  0xdca838fe0dd40372f0e3f4371b0dbec36f20db9c36b20da40444c110dc442c110c844291107c443b110e84441110f8443d11820446311180460c112184465118244451110c4442811074441a110543ef40fb7c3ed40fb683ed10fb1c3ee30fb883ee90fb983ee50fd1c3f0b0fc203f490fcb43f0d0fd203ef90fb643ed00fb143ec20faf448641213c4849121304840)
  (.lf 0)))

def aesXorOrder28 : BTree :=
  .nd (.nd (.nd (.lf
  0x2012088db21e3880b11e6e88a3021e5c835f20d9082a922a0c8a0d1e698799f1ed7879a41e6a4794f1ed507b471ed607b4f1ecdc7ad4207dc81fc207b081ee20778818e20c48833720cd4833920db07fb0202a480ab2027c80bb21e187ea421068839b20f4883e0211287ead204ec811e204c0812a204b880d01da50769e1da7476a61dac4763d1fd3078791e2b8787d)
  (.lf
  0x1754c5da3175705d5b175605d45174945d1c1744c5d0f1742861681854c6148185386145184f0615718558615d18568615918604617d185ec61ac18610618318600616d185346144184e86138184d45eee17b645ece17b505ecb17b245edd17b705ee317b805edf17c1c5f0317c045f3017c285f0917c185ef317b4c5eca17afc5e17178546689199d06669199bc6666))
  (.nd (.lf
  0x1c8f472301c8fc7bfb1f1207c131f0f07c161f0ec7c841f0e47c811f1c47c561f1987c6a1f1687c851f0987c351f1a47c611f1807c5c1f0847c901f2287bf41f1487c641f1247c341f2007c771f1ac7c5d1f1087c251f0787c221f1b87c681f1607c4b1f1387de0226a47e402266c7e3e2269c89d12270489d5226c489b5228a48a472272889d21f91c89be2291889e8)
  (.lf
  0x120f0467b11938486612140483d119f4467811b9046cb11af8466f1194c439711b9846da11ae846b11198846f211b7046bb11adc46ae11fa847d111f14467410e00435911fb047e011ef0465b1196447f811f8847c111ef847b9105c0415f0fa443d8b0f5a03d62105bc41630fa903d440f508417a0fad03ead0fa643e970f7443da80f6803d300f1543c4c0f74c3dc0)))
  (.nd (.nd (.lf
  0x166305971165bc59431651c596416638595c164ac59691667c598d16578595d164705952166005972164085937164d8594e16534596e165b45990165b059281644c590f164745966165a0595f16520594f127044b9812de04b8712b504b8012f004b8d12ef84ba912e884ba812f204bb112de44b8312f1c4bb812eec4bb212b544bb612f4c4bc112b3c4b9f12e904b99)
  (.lf
  0xff083fb30fec440841020c408210204406210140404e0f7603dd70f7583dd50f6c83da60f66854c31528854a01527c5245135084d40164fc593e164c45930164144d4f135384b8612e084b7e12df44ac212b044abf132844c96132544c94131d84c6e131b406b501ad006b301ac80691019d40e3d038f00e3b038e80e19037f012150485012130484811f1044e01191))
  (.nd (.lf
  0xf2e03d050f3943ccf0f4203cef0f3903d060f3243cb60ea5c3a580e9543a4f0d7a435e80d5d035420d50035290e92039f70ccf03aad0e98839dc0dae034c30d30834720d1c43a8c0ea2c369d0da5c35170d2c033f20d28833dd0d2d833ec0d2d434ac0d44434990cfbc3ab20e91c33e90df4834f30d598348a0d29834910ba342e8a0ba2c2dfb0b78c39ec0e6ec39ba)
  (.lf 0)))

def aesXorOrder29 : BTree :=
  .nd (.nd (.nd (.lf
  0xe1403800354803aa00ec803a900dc0035500d70036500ebc03a200e1c037a00e2402b700bf002d800bc402d700bd0032300c14032b00c54031800c50031f00c7402de00bd8032500c6c032400c8002dc03528032900ad802fb00c0002fd00be00d4900c88032a00c8402e800b3402d400b74032700c6802ff00bc803010089c026c0092002610091c026400a600275)
  (.lf
  0x13f284fe013e5857431313c575115d1c4c3d130ec4d5f131584d8a131344dab136344c241308c4c481309849b7126004aeb126d84ac312af84b761271849d61275049df126b049a2126584a5012684524a134a8526b149604d0912fec59071344857f613418580015fe84d2413488545613498473c10d74474211cec483810d84483e120dc46b21198046bd11ad84657))
  (.nd (.lf
  0x1898c627318958652819938628b189f8650719378629118a7062541947065b8193d064fe1938c628518a20664206b086645190d8633e18ec0634818df0636f18c28644b18cc467cd18e1c67a819eac632218da463071a19863bf18d80643f18d30637618dc867b618f0c638318e2c635018c7c1ad818e481ac018e6069eb06dc069d906e04699007210699906d9c6973)
  (.lf
  0x69041a38178b81b3106c6c1afd06bd41ad206b3c1abb176c81b2506c641aef06bb01adb06b441acb177301b9c06c8c1b0806bf81af109c2c121c0481811e8044e40aae02a540a9309db412100481011de044dc110302ab40aa90cfd8120e047cc11e904780115709c68128502ec80b9c02dfc0b6402d880b5e09d80129902e980b9a02e080b7e02de80b7909b4c1273)))
  (.nd (.nd (.lf
  0xe68439a40e68039ab0e6a4396a0e60839b10e69c39b00e6b039680e75039b50e4ec39870e63039890e61039e30e6b839b60e6b439740e56c39600e5a439b30e698398b0e5f8398d11a5c476f11d1c476411d3c476711e58477811e78478811e2c478711e48479011d28476911e60478e11e5c479311d44493611e70473f11db8477311dc0476b124ec479511e744794)
  (.lf
  0x149044d2b126cc498b118d0461711840460f103c840c7100ec3f890fe1c3f7e0fe443f5e0e46036850d9bc366e0e2a438820e1b836a70da9436a40ee6c3b520ecfc3a7d0e8fc3a3e0f39c3cb50ea483a540e8e43a0f0ba602e770b33c2bf00aed02bb30b5302d2b0b4782d180b4542d010b7002d020b3f82cf30b3c02ceb0a5f4274209cd026b703dcc0f70018c8060d))
  (.nd (.lf
  0x826420960824c35a40d63c35890d63035800d4f035930d64835990d65835950d9c035bb0d6e036720d77c35bd0d9c435a90d61435810d4d435320d4bc45a91165045891163c4586115f045981165c459e1166c459a117d845c0116f445fd1178c45c2117e445ae116384585115e84577115c83e4f0f8e83e340f8dc3e2b0f6183e3e0f8f43e440f9043e400fcfc3e66)
  (.lf 0)))

def aesXorOrder30 : BTree :=
  .nd (.nd (.nd (.lf
  0xa80029000a00027000980025000900023000880021000808cc2232a88cc5232d08b5622ddc8b7322d708b7922db08b6f22d688d5c235908d542353c875d21d94877621d9c876323154877d21e048992225d4898f225f488ec222f088ce223ac88c82240c88cf223b486e821bd086cf21bb086ef21bc486df21b8c84be2130084c92135c84c4211ac8def237b48de5)
  (.lf
  0x167a85217133d043a510e6c43991247848a611880495d118b83e1f1674859ab133a8551413a0855641540c4e80146ec4e871341c292d0a4ac29180a45c29150a41029020a4005545153a84e840a3d028f30a3ac28e70a3902ce00a3642c400a3442e330b7842e660bb0c2e500b08c28cb0a324385e0fe503f8f0fddc2e890b8ac2ddc0e45038e910cd842fc0f40043db))
  (.nd (.lf
  0x1897061e21887c622418884621c189d4624b18974624a1883061f1187e062011896862431888c62161889459ca16b645ab516b385ab416b445b0516b885b1116bdc5afa16bd85b0116bfc5b0616aec5ad316c205afd16c1c5b0216ae45af316c305a9e16b605add16b685ad516c505b0416c345b0316b145aac16ac45aba16c285afc16b705acf16b785a1b1696c5a37)
  (.lf
  0x1b6506d731b5c46e721b9386d8a1b6186d841f1147c281efe87bf21b5146d1a1f10c7c271f02c7c001b5b07c331f0647c061efc47bf01b72c6db21b6986d7e1b58c6d621b7346dc11b6746d5d1b5706dd91b70c6da21b67c6d9a1c3f070d61c32870bb1c2e870b91c40070f01c3a070d31c344710e1c3b070e91bf986fe51c62c71701c59871651c574715b1c6347181)))
  (.nd (.nd (.lf
  0x10ba442d210b5442d110b7042da10a6c42b310b8842d810b8442dd10a64431b10b98356a10ae042bd10ae842b510c7c42df10ba042de10a94428a10a44429a10b9042d710af042af10af848ed12c7c4afb12c504afa12c5c4b4612ca04b4e12ce04b3b12cdc4b4212d004b0112c644b4812cf84b4712d0c4aff12d9c4b4c12b944b1e12c8c4b2012c6c4b6b12d144b4d)
  (.lf
  0x9d8c0dfa02ffc283103a78097d025c4096c0cd6c0e7a025ac277a03ad009690d5b81161044380f4402a7c34ad04444110c0d438112f03d30357604d2c133f04ce8129f0d2ec13390495833ee04cdc12920d7ac13c803ea80fa40300034b1055700fa00cfc413dc03e4034a8040740ecd03ae00eab109e0105703ad83513040a00eb5027e009f7027d407200007806f2))
  (.nd (.lf
  0x206e88190205fc818c205f881782066481972069c81a32068481ca206c481b02073481c92071081cc206a88195206048173205d4816e20b9c82d02056481581ffb07faf20b4c82d220bc082e220b5c830620c0c830220cb8832120be4830720bec815d2054c8150205547f4420200805b201687eb91fa7c7e8420178805d20194806220180808b201f4807c202608091)
  (.lf 0)))

def aesXorOrder31 : BTree :=
  .nd (.nd (.nd (.lf
  0x1ba346e6d1b9a46e781ba706e871ba3c6e4f1b9fc6e9a1ba246e8a1ba206e481bc986f231b8d86e661b9946e7a1b9cc6f2b1ba306e9b1ba2c6e6f1b8fc6e421b9246e931ba646e841b9d46e7c1c31871151c3b871051c390710a1c52471201c51c712c1c4a871241c4f071301c52c70ef1c448713e1c4bc71441c4f470e51c4d4714a1c37471261c48871161c43c714e)
  (.lf
  0x183ec60f718d786105183cc639718cb46324184006349183f8638a18d64644918cb8631b18c64630618db4634118e18635718d1465b7189d85c2a19438627918938628e189ac5c351897c61bc170d0663f189dc626e19388626018a0061aa1894861bf1867461ba186cc5c441871461b6186d461b11898861c1177405b151586c5db617670560b177e85db4158645dd4))
  (.nd (.lf
  0x91281fdf1b51c228707e606d6e08a081f971b490242707f486ea1081cc1ab41b4c0206906ae46e1c0818c1b8f1b484206406aac6d16081c41ba71b3fc207406b246d52081ac1b9a1f7d4211e1f728211b1f5a0213c1f55c21211f548214c1f80021241f95421261f52c21321f7c81edb1f7681fbb1f5ac22be1f6501ebf1f5ec22a31f8541fb01f8b01f0c1f578234d)
  (.lf 0))) (.nd (.nd (.lf
  0x140cc50691417450681418850191414c506e13fd45038140f4503a140d4507614190506f1418c502514028501114068506b14170503c140bc503e163185bed16f145be216f345be5170645bf61708c5c0b170385c0a170545c13170685bc816f9c5c1c170445c1b170585bcf1701c5c2016ef45bec16fc45bee16fa45c25170605c211705c5bd91634458d616f405c1e)
  (.lf
  0x31780c39030a00c1d030640c1213b904ebf13ab84ea413a883faa16dc85b4d16ce05b3416ca05b1f182f860991820c6082181e05c3215b9056bf15ac4558a1561855851f3e07cd31f30c7cbb1f2dc7cb41888861fd187b461e51878461de16b6c5ab616a845a9d1680459ff169745a38168a05a20168705a19172a85c85171d45c6d171a45c66159a05643158b4562c))
  (.nd (.lf
  0x2e2c0b9f02e780ba502e880ba103df80bc702f100f8002fb40bc903dfc0bb502e540b8c02db40b8102d8016eb05b5816cb05b4416c805b1816da05b6416e005b7416dc065b0170205bfc199805ca01704065f816f005b4016c705af816ba05ad4223e088a4221e08890221b08864222d088b02233088c0222f090382255089482425089e022570903c22430888c221a)
  (.lf 0)))

def aesXorOrder32 : BTree :=
  .nd (.nd (.nd (.lf
  0x153804f50130004c2013280d7401318046d010e0043a011080d6c010f803e500eb803b000ee00d5b00ed0035b00c98032800cc00d4c00cb002d300a70029e00aa002a100a8c0243008380210008600d3a0085001bb0061401870063c0d320062c0132003f400ff0041c0d290040c00aa232f48cb2233008cc4232ec8c5d22f108bb122ef08bc122edc8a8d235788d4d)
  (.lf
  0x1ad086f551bd386f6c1bd506f501be6c6f931be446f971be106f731be586f6e1bd306f411bce06f3a1acec77311d39874e31d39474e01d36c77211dc8077261dc9477231dd80775f1dd7477641dd4c774c1dd8477401dc7874ec1dc6474d81cf501e680794c1e48079381e450790c1e57079581e5d079681e5907a041e7d079ec1ec907a101e8307a001e6d079341e44))
  (.nd (.lf
  0x2cec0b2d02bbc0ad402b6c0ae402ce00b2602c180af902c200a00029140a21028e80a20028f40a6c029380a74029780a61029740a68029980a27028fc0a6e029900a6d029a40a250447c0a72027fc0a44029240a4602904114f029ac0a73029a80a31028580a1d028980a700298c0a48028ec0a4a025d009b90265409ae0265009b10278009c2027a009d20275409d1)
  (.lf
  0x1cf0073701ca8077401d78073801cc8072600dc4035600d28034900ce4033200dcc036700d1c034200cd4037f00da4034300cf4033100ba402ce00b0802c100ac402aa00bac02df00afc02ba00ab402f700b8402bb00ad402a9024740902023d808f50239408de0247c0913023cc08ee02384092b0245408ef023a408dd01fbc07d401f2007c701edc07b001fc407e5)))
  (.nd (.nd (.lf
  0x20b60815120b3482cf20cd8833220cac82df20bd87e26201f87ea2201ac7e9e201d08783202708785201fc80a62025480a52027887941fa988081202a0809d202c880a71fa80808d21e107e7c201e8807720220808421e0880b4202e880b3201987e811fa947ea1202a8809a2024c806e202247e98203107ea71fb387ec22030083c320eb484492033480c820e3c83d1)
  (.lf
  0x1f2347c7d1f5a87c881d2b874551bcb0727d1c9f06e901ca1472811ba4875131d2e86f2e1de3472741ca006f301c9f86f2a1d29872861d17874751d19074bc1d14072831d3e074b21d11874a81d15874511b4186cf81b3cc6d001b3c06d011b3d06cea1b41c6cfa1b54468d51b4f068dc1efac68d31b86c66d119b2c677819bf466c919b206d7819b406d181efd46d0a))
  (.nd (.lf
  0x1ce38229f1ccf81fa41d1ec1f071cea422cb1cf3422911cf0c228e1cdf024171cd7c228c1cd94244e1d32c22891d1c022841ce70242b1cef820a41cd44208d1d65c207f1cd7020661cdb820841d26c207d1ce1420771bec01c2506dc86fec070a81b831bf541c8f072386fb7070701b691bf441dab072d86fae070c81b7e1c0101c3506de0702a0721c1c601c3081ed6)
  (.lf 0)))

def aesXorOrder33 : BTree :=
  .nd (.nd (.nd (.lf
  0x22e9c8f2623cd88f2f23c508f2823cc88f1723c948c42230dc8c45231388c522311c8c54231408d60235688d66235588665219b0865d2199c864d2198486412194088f4223cc88d62213c884c2236888512214885692159885542157c856a215648562215b08cc3232f08ca3232c03cab0f5d0437406024473715ce84f190596859a2181ec54f806b58651118de86aea)
  (.lf
  0xba642e870af8833450cd103a360cd083a0c0ccfc333e0ea2839f8131744c591312c4c33130bc4c1c1306c3a8d0cce829b50a6c029ae0a64429880a5ec29620a578295d1305c4c0f1302c35730d5b435640d57c355e0d4a0351f0d42c35060a54c29510a5343ab00ea203a590e9103a230e8883a2c0e81c4f89130204c0613f884c03130084fe413e844bff0d29c2d86))
  (.nd (.lf
  0x13b9c5b2116dc05b4c16d945b4b16da05b9c16de45ba616e385b9116e345b9816e585b9d16d485b6a16e7c5b9416e785b9916d405b8a16e8c5b3516dbc5b7416dc45b6c16ea05b9b16e905b9a16d705b4316d205b5116e845b9316dcc5b6616dd4607e182f06098182c46097182d060e81831460f51836860dd1836460e41838860e91827860b6183b060e0183ac60e5)
  (.lf
  0x205387fdf1ff6c81bb20600814d1ff807f80209308230208b482091fdb47f662092c822c20870820b1ff388245208bc821220620818620b7882ca205487fa71fe1c7f2720b8c815f1fed07fa91fe9882e8205687fb51fe107f43201a07e821f9207e281f8907e232019c7ebe1f9ec7e771f81880832018c80581f7bc7dee1fb5c7e9c1fa487e901fa287e881fb6c7ebc)))
  (.nd (.nd (.lf
  0xe3b4385f0dfd838300e0d438320e0b438f00e15c38600e158381d0e01038090e048385c0e13c38340e09c383611ae446f711b4c46ec11b4846ef11c78470011c9c471011c4c470f11c68471811b6446f111c80471611c7c471b11b5c48c311c9446b811bd846fb11be046f312328471d11c98471c11b8c46ca11b3c46d811c88471511be846ed11bf0176805e981782)
  (.lf
  0x4acc12ae10c6016b104ab44300051dc12ab10e7815eb05794151304f30431205784155f10be4153d04f7c434e0599c106204170102910ce818380416043b8059e8104a133f4193d05210111c043b8492d072bc111a13484194e045204d0105af016b60546014fd15fd4176505ac84bea05a68150813420172f055a8156404f804915065c4156012fe8173a055444bf1))
  (.nd (.lf
  0x80b8205c080dc2036080cc2020080001ff707fb81fea07f941091041f01071041dc106e041b01080041fc10860420c1082042a810a60429010d2042b410ac042a41096041d8106d0419010600416c0efa03b940eda03b800ed703b540ee903ba00eef03bb00eeb03c4c0f0f03c340f3d03c580f1503c480eff03b7c0ed603adc0ecb03aa8858a20a748295238a885dc)
  (.lf 0)))

def aesXorOrder34 : BTree :=
  .nd (.nd (.nd (.lf
  0x117d444e71126c401c1007840261050440220ff2440ba102f040c4104dc40c01019c3e0e0f8403e180fcf03e140f6a85525154485528154a855911526459a01659c598f1664459701642c4bb912f304bd012f284bbf12b644ce6133a04cc8133604cdd1320c06f501bdc070d01be8070001a600e7d039fc0e9903a080e890388012590496c1279049781268047e011cd)
  (.lf
  0x1926c64c91929064a319280648d191b464641916464551914868941a1fc68791a1f0687019f2468831a20868891a21868851a2b468a91a29c68d91a2c068af1a2b068991a1d4687119f0467bd19eec6a571a9086a371a8f46a341a8ac6a461a9146a4c1a9246a481a9c06a6c1a9a86a9b1a9cc6a721a9bc6a5c1a8f06a331a87c6a271a7dc6b8c1addc6b6c1adc86b69))
  (.nd (.lf
  0x199c8668a19afc66b419af866b9199c066aa19b0c665519a3c669419a44668c19b2866bb19b1066ba199f06663199a0667119b0466b319a4c668619a5467d81a04867ee1a01c67ed1a028683e1a06c684a1a0c068331a0bc683a1a0e0683f19fd0680c1a10868361a104683b19fc8682c1a11867d71a04468161a04c680e1a130683d1a120683c19ff867e519fa867f3)
  (.lf
  0x131844c3e130f04e3a135c04c5f131784c5c1377c4d9b1362c4d79133c04c54137784db1136a84d83131384dbe136a44d80135e04d76132d44c8f131d04c441310c4c42132cc4c8e131bc4c28130944c9d132184c69130a44c1512c304ae21261448f0123bc48ec12c384b0212ba84ae612b844b1a12c104ae71236447b312ea84ac812b1849c312628498912eb84b7a)))
  (.nd (.nd (.lf
  0x1102c45f1113944401112cc44d51130844bc117d044e2113b044e111298448c11270448e1136c44dd1133044c61130c3fb60ffc83fce0ff9c3fcd0ffa840190ffec40211002c400e1002840151004c3fd40ffb0401b10044401a100583fd2104ec401f0fed43ff10ffd83ff30ffb8413d1006040201005c3fde0ff0c3fca0ff4c401d100403ff50ffa03ff7101584090)
  (.lf
  0xacc4319a0c66431980c65c31780c5ac31690bbfc2efe0bbf42efc0bb742ece0bb2838250e09038230e08838030dfc437ef11bac46ea11ba446e811b2446b311ac0179a05e64179805e5c177605d60230408c0c230208c0422e008ae02ae90aba02ae70ab982ac50aad82ab410ab442ac10aac42aa10a244271109bc4b1312c484b1112c4049b81260c497f061d01873))
  (.nd (.lf
  0x1258c48b2131284c3713dc048d3122ec47af12b7849d0125404f3e124cc48b711cc84f4112618497c13c584f14122f84f6313ecc4f3a125a040e9101204043103344042100fc40e01035840dd1036440d8104a8412310464412e1047040f81046c41091035040ce1033c4033100c043a010e7c439c115a843f810fd43d6c0f19c39280fa343d960f170465010d78435b)
  (.lf 0)))

def aesXorOrder35 : BTree :=
  .nd (.nd (.nd (.lf
  0x189806350158805a70160c059c01608059f0173805b00175805c00170c05bf0172805c80162405a10174005c60173c05cb0161c0da50175005610169805ab016a005a3036a405cd0175405cc0164c0578015fc05880174805c5016a8059d016b004d90147804fa0144c04f90145805450149c054d014dc053a014d80541014fc0500014600547014f405460150804fe)
  (.lf
  0x1b5686da11b57870cb1c28c70d41c2fc701f1c07871621c09071ea1c30c71fd1c7c070071c014702f1c03073c01ce6474a11cefc74b51d1c474ce1cf5474861d1f074801ceec73d11ce8473e41cf406b301ac586bfa1acbc6b081ac1c7cba1af6c7d3e1acdc7d9b1f5086b551ad4c6b5e1acd46c741b1c86c7d1a7c06a201a8786a291a7e072a61a86472b91cab06f37))
  (.nd (.lf
  0x165f819301660c1cb3167f0195c168381951166281c591675c1ed01a3c81ee11665c1eab1a3e01eb31a4081e9f168181f14168501ef7165ec1ec4166b017e21677417e7167041988166a817d9166c419751662417f1167c417ec16844199f167441a21167781a261670c1ae4166d01a18168101a3216cb81a2b1684c1aea16ee0193b162141945162c01c6916218192f)
  (.lf
  0x5534153304fac13d61343817400563c1583055a4154c054c013ea163ec19a005634157205584154f1341018f406378182306044168e05a2c167312fd818e80637018c206080180f05a34168712f9c18e60632c18ba060a8182414bd41e6a079501c6d0716c196206524194714dec1e5e079481e38072001c7f06584195d14cd01e5c079041e30071f01c5c18a801ee2)))
  (.nd (.nd (.lf
  0x53b41482052fc14c40530414bc05d2814e6053b814e5052b014910526014a1053ac14de0530c14b6053141a39069e41a55069b81a54069c41aa006a081aa806a481a9506a441a9c06a681a5b069cc1aa206a601aa106a741a5906e2c1aa6068ec1a78069f41a7a069d41b9806a7c1aa706a781a65069281a51069681aa406a5c1a7c069bc1a7e074d01d72075381d67)
  (.lf
  0x72981c8b08640216b085542154085102136106503f310faa03d920f5903d630980425dc0973025c40970025bd094a82505093bc24ee090f0243a080901fff07fa41fe807f681fd90426810750417c105e04144104e03c0c0ede03b440eca03b180ec521f2c8315202e480b8202dc80b61e5f079531e544791e1e46878ac1ec687af21eb6c7ad11eb2c7ac020700817c))
  (.nd (.lf
  0xdfec37f80dfcc46f011b6c46d011b5846cd11b0846df11b7846e511b8846e1122cc470711c1048c911cb447091230846f511b5446cc11b0046bc11ad4179f05e28177f05e14177c05de8178e05e34179405e44179005fe017b605ecc17fa05f7017b805fe417a405e10177b05dc8176e05da4230908bd022e908bbc22e608b9022f808bdc22fe08bec22fa090182320)
  (.lf 0)))

def aesXorOrder36 : BTree :=
  .nd (.nd (.nd (.lf
  0x1a75c61c01870861be177ec69a01a7c854371511c545315114543c14d84635318ce4636418d58634018b18546c151cc5475151ec548314ecc58a91566854f1153fc6118184b852cb155705532153d455661538055171564c55071874052e814c8852f314b48539e1876c52e014c74599a167b05a0d14c8068ec1a3bc68f1165e859c01662059f01676459b314de859a1)
  (.lf
  0x178f45e3a178d463f118f7063d618f6463cd18eac63e018f7c63e618f8c63e219028640619010643219034640c1902463f618f4863ce18e8c639f18e746cab1b2586c8b1b2446c881b1fc6c9a1b2646ca01b2746c9c1b3106cc01b2f86ced1b31c6cc61b30c6cb01b2406c871b1cc6c7b1a7486c271b0486c071b0346c041b0086c161b0546c1c1b0646c181b1006c3c))
  (.nd (.lf
  0x1b3946c771b2c46cb61b2cc6cae1b3ac6cdd1b3986cdc1b2786c851b2286c931b38c6cd51b2d46ca81b2dc6b241b0b86c0a1b08c6c091b0986c5a1b0dc6c641b1306c4f1b12c6c561b1506c5b1b0406c281b1746c521b1706c571b0386c481b1846bf41b0b46c321b0bc6c2a1b1986c591b1886c581b0686b2a1b0186c0f1b17c6c511b0c46c241b0cc75a91d74475a4)
  (.lf
  0xeef83a670e9083be80ef483bbf0e9a43a640f2f03a860e9483a0e0e7d839f50f2f83cbb0ea603a4e0e8e83cdd0ea943a990e9403a4c0eb943acc0eb003a5f0e8a03a270eb9c3adb0eadc3aaa0e8c83af30eb743abc0eae43ab40bf802fb60ba142e570b8c82e310bf882fd60bef82fba0bed42fee0bf602fbb0b9782e1d0c17c30350bb082e960b9b02e6b0c1843055)))
  (.nd (.nd (.lf
  0x5728158c055c415780560415d10570c15a30565815a5076c01dee077281de3077241de6078681df7078901e0c0783c1e0b078581e14077401de8078741e12078701e17077381e08078841e1b0728c1ded077c81def077a81e26078641e22078601dda076fc1dc60773c1e1f078441df1077901df308540218e085a82183085a42186086e821970871021ac086bc21ab)
  (.lf
  0xf0cc3c320f0c4473410dec436c10da438990e25c38960e25438760df7837dd0edb83b670ed983b630ed143b3c0ecc83cd80f3103cc30f3083a910ea043a7f0da4c33470cce032040da2c35010d39434d70b5002d3e0b4dc2d360b0782c070b0082da00b6682d930b6482d090b3e42ce70b04c28cc09a1026820b06828c5037500dd10189006230188806210180005e4))
  (.nd (.lf
  0x12a00d6f012500474011ac045e01160044d0101c03f200f9c03ed00f9003e200fd803f500ff003f900fe00d6601078041b035a40440010800d670103003ec00f8c03d600f4003c500df4036800d74036300d68035800db0036b00dc8036f00db80d4f00e5003910354403b600e580d5000e08036200d64034c00d18033b00bd402e000b5402db00b4802d000b9002e3)
  (.lf 0)))

def aesXorOrder37 : BTree :=
  .nd (.nd (.nd (.lf
  0x2352c8d44235408d4a233c08d422358c8d62233448d20234a08d24234588d57235548d52235448d2c233a48cf6233c48d4c234f88d38234cc8d2f2138c852e213c8851b213bc85172156c852421574852d214f4853721544854e213f4851c21558853a21554854f213c0854421580855c210fc853b214a8852f21480856b21568855221540850f213ec8508213e88563)
  (.lf
  0x13a3841e10e4c433f40c87c321c0b38c2cd50b34c2c500b0dc2c3513f584fc813f184fa913e7c2c190b0502bfd0afdc2bf4194c861b917178650d187185c5c13e3c4f8d13e104f6e13d984f6218c04611318448637418450610e193dc627d1716864d2189e862651a8546062173c06a001a6fc573118f00610b1842863321842061071f9487e2b1f81c7e041f7f469e9))
  (.nd (.lf
  0x2d2c2c1c02fc408c60affc0bf60232c28f603e200dee0375c0be8022f4267603e700e050b3740c020235c28e102ff008d10a3a40f82037cc321e03a8007190a3e40e8301bf0321b03a280702099d40e7701bc02ce403afc07230a3980eb101c7828ef03a4007070ba702ddf0b8682df40b9182f410b9bc2e3f0b8b02ea20b7f42e280b8bc2e510bb242e790ba3c2e8c)
  (.lf
  0x90fc24220906c74b8096c420900822020822177826630854c2140084f8859d08fd822c608b1422c02174824ed0911024210907485be0995825b8096dc25b210fec1146045141140044fc432c05a6012bb04adc12aa10c9415e6055281542054f043e906030105d041201046134e01c6c04534114c0451c491a05d5416b705a781699122b0198505594154e0552c4d32)))
  (.nd (.nd (.lf
  0x1114c442f11120442e1112c447a111704482111b0446f111ac4476111d0443511134447c111c8447b111dc44331182844801106044521115c44541113c460d111e44481111e0443f11098442b110d0447e111c444561112444580fb043efb0fb5c3ef00fb583ef30fc883f040fca83f140fc5c3f130fc783f1c0fb743ef50fc903f1a0fc8c3f1f0fb6c3f4b0fca03ec0)
  (.lf
  0x1c7dc71ec1c79c6fef1bf5c6fd61d6c475b01d66073c71cdf8737d1cedc73921ce3c736b1cda873561ac806ae51ab1c6bed1afa46ace1f4f07cad1aba06add1ab6c6ad71a74469ae1a66069f61a78869e11cacc72a81ca846b3e1a668699118e40638f18e30644419104636119f3c67ae19ea463b618ed463b11941464f1193c065091938064df193a862741899064d6))
  (.nd (.lf
  0xbd502f680bd9c2f6e0bdac2f6a0c0a02f900be34302e0bec82f920c0a82f7e0bd782f550b9c82f4a0b9243af10eb703ad10eb5c3ace0eb103ae00eb7c3ae60eb8c3ae20f1d03b080ec143c850ecac3b0a0f2043af60eb583acd0eb083abf0eae837910ddf037710dddc376e0dd9037800ddfc37860de0c37820e38037a80de9438e60df2837aa0e38837960ddd8376d)
  (.lf 0)))

def aesXorOrder38 : BTree :=
  .nd (.nd (.nd (.lf
  0x1d84476041d820761c1d6dc6f061bc206f121bc2c6f0d1b8c077fb1e00c78111e03477fd1de888038200e880312012880501ff28770f1dbf877031dc1877161d8a87a951ea987aaa1eaa07a911e8e8289e0a28028ac0a28c28a609e74786b1e17078691e19c78721e0587bcf1ef887bde1ef587bb91d5bc7a351e9107a291e8987a131e48c0b3702ce40b5302cf00b43)
  (.lf
  0x9cb4272509c8c271609c54270409c0c27000b11c26fe09bf026fb0a55826f909bcc26f00a5a829750a3342ce509b9428ec09eb026e109b7826d909b58277f09b3c278b09d7c26c90a68828be09ea426c609b1026c109b2826bf09d0c26b80a5f8848d211e0846d211cc846a21184847c211ec8482211fc847e2134884a42128484d42131c84a62134c8492211c88469))
  (.nd (.lf
  0x19814663419868661d1986466241988866291977865f6198b06620198ac6625197706616198c065be197ec6600197f465f8198dc6627198c46626197a065cd1975065dd198b8661f197fc65f219804644f1923c646b19210646a1921c64bb1926064c5192b464b0192b064b7192d464bc191c46489192f864b3192f464b8191bc64a919308645119238649319240648b)
  (.lf
  0x1a1b0644318ddc68961a200686d1910063c119ffc67e619f6867ad18e2063231a00467f519f4467b118db0680d19fdc67d619f4c67ce191f064611915c645619138644c191f86472190e463b318df8648a191d0643a18ed0634d19c8c67081992c664a1991c664619c94670719ba466e2194bc671a19bf066ea194106503197a465ce1971065c3196ec65b9197ac65df)))
  (.nd (.nd (.lf
  0x2118088b0219c0880021980883022c80894022e808a40229c08a3022b808ac021b40885022d008aa022cc08af021ac0dea022e0084502228088f022300887037a408b1022e408b0021dc085c0218c086c022d808a902238088102240134204e1c136304df0136204dfc13ae04e4013b604e8013a304e7c13aa04ea0136904e0413b004e9813af04eac1367054c413b4)
  (.lf
  0x1a4dc69361a4d469341a44c68fd1a3ec5d3b174e85d39174e05d17173fc5cfd1858c6162185846160185046134184c85ee917ba05ee717b985ec517ad85eb419a10668319a0866811998866531993c68061a01468041a00c67e419f4867d01cba872e91cba072e71cb2072b61cad07dbc1f6b87dac1f6a47d851f57c7cae1c8b8722d1c8b0722b1c83071fa1c7e07c31))
  (.nd (.lf
  0x1b65c6cf71abdc6acc1ab006ab71aaa86b0d1aaec6abc1aae86af51aab868621bfac6fad1ac406d2d1b4ac6b1d1aa986b321acb073cb1cec073c21cd1c73461bf106fb91bed8738119da86d961b3d8700e1bffc73771cd3c6d4d1cd606fd01bea870171c0506d981cde4736c1cd9c74991d1e46fbf1b3d46cf21cd6c73401b54073961ce546d1e1b43c73371b3ec7bf7)
  (.lf 0)))

def aesXorOrder39 : BTree :=
  .nd (.nd (.nd (.lf
  0x147a8521b144f451d01482c51f2147b051eb146f052241487451281475c51d91479451ce147f451f11483051ef1471051311467851bd14818520a1480851c6147984f7414590511414530508714584518014580517f145cc5186145d0517a145e051901445c515a1462051771461c517b142205194146044fcf1460851701459451571464c517e145f4517c145144fea)
  (.lf
  0x122ac41421248057e2134644625104fc492410e1443680f0ac43560f06c43020f0b038de10dbc3c2410e1c3c30119203c2710e403c2810dc4438310954435a0c31443550c2b8436e0e438437c10e44425b1199c3c630f1583d350f0f03c3b0f15c3bb00ee643cb00f16c3c500f57436740f1c4367c0f1b435e70f5cc367a0e48039020e424374e0f19439080e1a83c5d))
  (.nd (.lf
  0x20f7823f020f3c244520f8c26522103c25782104c257b21024265c096e889f80990c8a40099048a730991c89de0991489db099108a600990089f5099608a12099188a1d0873c8d72087408a3408fcc8d7b0876c8d6f08a7089e5087648a5a0875c8a0208f888a2808f908abe08fa48a98091048af108f948a10095c48a5708f8c8ab508fbc8a1e091008ac7099408a53)
  (.lf 0))) (.nd (.nd (.lf
  0x11434452611430452911560453a11588454a1153445491155045521144c452b11568455011564455511444461b1157844f4114c04535114c8452d11884455711584455611474450211424451211570454f114d04527114d81af706cd81b1206cac1b1106cb81b5d06cfc1b6506d3c1b5206d381b5906d5c1b1806cc01b5f06d541b5e06d681b16071201b6306bd81b35)
  (.lf
  0x630018bf0609c18210efbc3bc60eef03a700e9043a1f140ec5016140144ffa13fd04fee16fbc5bc616ef058ca1632458b617e045f5c17d345e0d178085e011bdd46f401bce46b461abc46a0a1dd3874eb1d35c74d51d35074d3079c41e4c078d81e35072a81c810cb9032bf0cac02e040b8082e010bfd42fd00bf0c2fbc0bee02fb7114cc450e113f844f710f5443d2))
  (.nd (.lf
  0xced834850cf8033bb0d21033a70ce1c337e0cdd033720cdbc39810e5b039610e59c395e0e55439700e5bc39760e5cc39720e71839980e65439e20e704399a0e74c39860e598395d0e54c39510e538476811d4c474d11d40474411a88475711d58475d11d684759124c0477f11df0493a11e884781124d4476d11d24474511a6c469811a541be306f381bc306f241bc0)
  (.lf 0)))

def aesXorOrder40 : BTree :=
  .nd (.nd (.nd (.lf
  0xfdd43f90100b43bae10ecc3c7d0f22c3d700f4dc43b50f5643d490f5b43bb20f10443370f1443d2e0f5343c4a0fa3c3c6f0f1c8466a0f0b4439210cf4439a0f47c3d2a10c343c420ee683d940f1603cb10f86838f50e3e4391e10db447350f25c3c9b0fd6043470f0d041dc0e34838ca0e34c38dd0e35438750ee583ba10eea03c4f0ee603b4a0f4903cf40f45c3d1c)
  (.lf
  0x1e0f078ee1e15878541e120782f1e078781c1d214747e1cee07b881ee0476a91edc4757a1d5b87b771edd87b7e1edf07b791ef2c7bac1ee7c7bc71eeb87ba81ef107b9c1edd07b6f1ed9c7b661d4ac79eb1e78879d41e78479c41e48879d71e75879de1e76c79d91e9087a161e7e87a211e8707a1b1e85c79f71e73879c51e45479191e44c0afc02b9c0adc02b880ad9))
  (.nd (.lf
  0x1dba476d61dc2c77081dc1c77011daf476b51d8ac75771dbf076ff1dbac76e41dbc878c31ea007a4f1e99c7a481e9707a8f1e9807a8e1e9dc7a751ea807aa51ea247a901e9407a5e1ea8c7a941ea4c7a8a1e9307a881ea5879001e9bc7a731ea047a631ea607a8d1ea9c7a8c1e9e47a3d1e8ec7a4d1ea907aa21ea707a7b1ea08271f0a1b828460a18c284e0a198289a)
  (.lf
  0xb12c2c3e0a41831130c3f42c4c0b0fc2c3b0c64c317a0c58831520a43427530c65431890c5a831560a47831a10c62c31670c57c315e0b1cc29410a4e4291109d6027570b1d42c620b15c29340a4942c810b1ac2c580a4d829310ab882ac70aaf4299b0a65429940ab902ad80aad429700a5b82af00ab682ab70a5bc295b0a99c2a4e0a908296609cf4273c0a9a42a5d)))
  (.nd (.nd (.lf
  0x800c2053081142025080602027041681098041d0108d041cc10900431010a10433810b6042e410b50430010be041e810920431c10bc0431810c1041e010b20432c10c50413c10970427010990425010d00430c10cc043081084041a41070041e410c9042ec109b04238109d03ab40f0103b740ef603b700ef903cb40f0a03cdc0f1f03c880f1e03ca40f2703b8c0efb)
  (.lf
  0x10d00165512280192d122a414f41249c1726148e0165d14c98193114c941eb414c8c17da14c241a19177741b6a176841eb8177641f96176381aad035100a7d049b00d5f036cc0beb0cda40e8d0d2900f530cf7812a10cfa013bb109b0101401c10001b022fc001302d1c000b029e800032286481d91e6d481e11e6b882c81e6ac79aa22a4c81ef228588a0a207fc81e2))
  (.nd (.lf
  0x21494850e21434854221504853f21530854b215248543214a485072141484ed2139c84e021c9c871f21c60871721c3c870621cd0872121cfc873d21cd8875721d28874621db0875321d48875121d0c871c21c40870a21c4886f822514893a2247c8939224a88919224c0892e224d48934224c48967225848960225b8896422544896322560892c224ac89252243488fb)
  (.lf 0)))

def aesXorOrder41 : BTree :=
  .nd (.nd (.nd (.lf
  0x2240088e4222e088602224088942227c889b223a888b62232888b52229c886b221dc8872222e888a6222a488a1222b885c521b00868021a5c867e21a7486ea21afc86ed21ad486ab21b1886da21b28868221af086e021b2486e421b6c868c21b4c86f221bac867b21aa486b221b0486b921ba486e721b9886e521a9485fb21a3c869821b7086c821b0c86ae21b408e11)
  (.lf
  0x1b4cc677d1d30472901ca3c7f731fdbc73ce1f7d07ca01f2787c991d4bc74ad1ca3089ed227b089eb228f88a2f228b889fa227dc89f4229388a4b1622857df15f7859b515f8057da20ae082b62166c85882161c5509146e851b9155805506146dc5bb715f6057d61625057d415f4c6a9219b48685a1a11c5547146d451b4146c866d719b547013198f86ffb19e306b33))
  (.nd (.lf
  0x36740d80035f40d6d035800d4e034d80d2d034a88ca921d98840221250847021224846f2123084bb2127484c3212b484b0212b084b7212d484762123884bd212cc84bc212e084742135484c1210b484932126084952124084d8212e884c2212e484802119c846c211d484bf212c88497212288499235d48db62364c8db2236748db4238008dc9237d08ddf237008de0)
  (.lf
  0x213a0843a20ff4851f21418843b210e0843721ce0870c21bec86fa21be486f721cec871e213d4844021060872e21c6484512110483e82120484682100483ee20f7083bf2120c847721160842e21018848f211e48455210bc83ed224e08927223e888d021f2487a6224dc89292247089132237c8946224ec891d20dcc835922fd88be122f488bcb22f288bc922fe48bf5)))
  (.nd (.nd (.lf
  0x67f41a080681819c70677c1a0e068101a0d0682419c506b7c1a120669c19e4067a419e6067841ae70682c1a130682819d1066d819bd067181a100680c19e80676c19ea072ec1cf9073541cee073501cf1074801d02074a01d12074541d11074701d1a0736c1cf3074881d18074841d1d0736421ee074981c7e073e01cfd073e81cf5087d81d1f0749c1d1e073941cca)
  (.lf
  0xb87c2e1e109f84272109b8354a0d2d034970d4b034be0d29436590d51835450caa0329e0a3f42c010a3ec28fa0b0bc2c040b00c2c2b0b0442c100e540394a0e4f42c3c0a51c29460c5b831680c54c293209ca427280aaf02aba0aacc2a3709af026bb0acc026f709bd829c50a70c29b90cdc4336b0cd7c27b209c34270c09c70271209c44270f09b7026db017c005ec))
  (.nd (.lf
  0x1322c4c471311806ba01a94069a01a80069701a5406a901aa006af01ab006ab01b4c06cf01b34070b01b5806d501b4806bf01a7c069601a240683019e00e42038b40e22038a00e1f038740e31038c00e37038d00e330396c0e57039540e97039780e5d039680e470389c0e1e038540e1103830121a0481411fa0480011f7047d4120904820120f04830120b048cc122f)
  (.lf 0)))

def aesXorOrder42 : BTree :=
  .nd (.nd (.nd (.lf
  0x6f042a2b0a8b42a350af0c2a310a76031420c510314d0c80031480c3bc42511094c426210d94425a107f8309c0c27830a60c2d830a20c12437470dd2437520e40c374d0dbd0447d111fc4488118444483110a83f250fc9c3f2f0fd343f2b0fb4848951225c48a412430489b11a284aae12ac04ab812dc44ab41296c100a040301018040f4101003edc145a051701468)
  (.lf
  0x15ab456ab15aa07cef1f3687ccf1f3547ccc1f3287cde1f3747ce41f3847ce01f4207d041f4087d391f42c7d0a1f41c7cf41f3507ccb1f3007cbc1f2e462191881061f9187fc61f6187d062081881c620e1882c620a188c8622e188b06293188d46234188c4621e187f861f5187a861e61878c5ad216af45ab216ae05aaf16a985ac116b005ac716b105ac316bac5ae7))
  (.nd (.lf
  0x1c6ec71c61c71071cb1c60071981c73471c21c73071c71c5f871b81c74471601c67471a21c67c719a1c75c71c91c74871c81c628716f1c5d8717f1c73c71c11c68471941c68c6da41b7786dba1b74c6db91b7586e0a1b79c6e141b7f06dff1b7ec6e061b8106e0b1b7006dd81b8346e021b8306e071b6f86df81b8446da31b7746de21b77c6dda1b8586e091b8486e08)
  (.lf
  0x170f85c2e16ebc5ca3172345c41171005c3b174d05d19174205cf71638c58e1174d85d2a174405cfe163785d42174b05cfb173d45cf416f6858d21631458b11628858a116f705bc916ef858cc162d05be816f485bbf162e0588716d745b4416c945b2416c805b1e16d7c5b5316ce85b36168145b6b16d545b371679459e3169205a2d1688c5a22168685a18169285a3e)))
  (.nd (.nd (.lf
  0x1e54079101e70079a01d6c077301e88079801e84079d01d640dc801e98073301de0077d01de8077503738079f01e9c079e01d94074a01d44075a01e90079701df0076f01df829370b2182c5e0b1ec2c660b1f82cad0b23c2cb50b27c2ca20b2782ca90b29c2c610b2002caf0b2942cae0b2a82c680b2f82cb30b1582c850b2282c870b2082cc20b2b02cb40b2ac2c72)
  (.lf
  0x1dcd8772d1dcb074b61d1d074720798c1e62079841e60078fc1c710cb5832d50cb5032d30cad032a10ca7c2fe70bf982fe50bf902eb00ba0c2e7f1149445241148c45221140444f2113c01b2a06ca41b2806c9c1b0606bc0582a160a458281609c580615fb057ea02eac0baa02ea40ba802dc40b6f05b9816e505b9016e305b08169c088e42238088dc22360885421ff))
  (.nd (.lf
  0x170e4587a161d45561153dc54f41542055041625857d715524554814d48531b14b60532414c7c534514ce8534914d20539d14bf452d5163b0588414ce4551615388530f14b3452ff14b1059bd1669459dc16760599516cac58ad1620459d51674c5598154b858f01622459be166ec55631665058da1630858f3161f45551165fc597c165e459a31486458bc156705597)
  (.lf 0)))

def aesXorOrder43 : BTree :=
  .nd (.nd (.nd (.lf
  0xe26038840e28838cd0e30038d40e2c438b30e31c38d00e2e8387f0e28438d10e33838bc0e2ec38880e36c38c50df6838ab0e2a038a70e28038da0e2fc38cf0e2f8388e0e1dc387a0e22438c90e32c38aa0e26838ac0ece43b860ed443b680ed383b650ee483b810ee5c3b7f0ee003b9e0ee9c3b8c0ed583b710ee983b950ee3c3b8d0ed503c4d0ee503b380ede43b7c)
  (.lf
  0x36f80c8e099f00dcb0a3b80dd00b36c0dc409a2c07aa0a3e026880322826e3099c42670019b428c4099ec26e70c860268f0afe80ddc035d8290a09a8c0de409a900d77020cc269a037800d790a49c269f0e4c826b30e5180d1b0a52426a109d50269e09abc26aa09d440d7e03460272a09a600d7509ce80f6f03db8295f03d800f5d03dd80d97025840f7a03da80f69))
  (.nd (.lf
  0x5a54126410e501461049b8439605ab8125411948147904a5c465f051d0129010df416a1049d4483604f2413c6119dc13d204f3c43730551c153910c1013bc04ee443600556815591192813e604f8c426a04f6813d910e30152a054a4473a0598c101b11a40166c04080425e05948101210d70183404154464005a00102c1099c1676040984388060101037126801939)
  (.lf
  0x90c0242308f5822941d2c0247d091882451090ec24351d40c24d40835420bf082b0209708250208f1d51c24e20832420b6082ac20920822c20811de3825bb0831c209f0821c2083216382661086242173084fc2134084a821232167c264a085f421710855c2142084d4212920b002669085ec21600853c2141238ac238d08ddc235908b1021d307ef81fbd20ac42381)))
  (.nd (.nd (.lf
  0xd174345b0d07034340d18c34590d188345e0d06834d00d19c33fc0d0e4343e0d0ec34360d35434600d1a0345f0d098340b0d048341b0d19434580d0f434300d0fc27bb09fd427d109fa827d009fb4281c09ff828240a03828110a03428180a05827d709fbc281e0a050281d0a06427d50a2d0282209ee827f409fe427f609fc428b80a06c28230a06827e109f2027cd)
  (.lf
  0x9248246d0915c2456090c824310add42b500ad0429840a60829780c6a031830c5d431550c550291d0bc342ee80bb4c2ecf0bab42e7b0e0cc380e0dffc37e60db0c36c111be446d411b1446b4119b4466105ea0178305db4176c05d68175008c4822ed08b7422d508b4422ce0abdc2ad20ab082abb0a664299610aec429610a00427f109d0351512c844afc12bbc4ae8))
  (.nd (.lf
  0x11a2448531214848591215848551241c487b121e0490912288487d12420486912114484111a08467f119f04a7d129a04a5d1298c4a5a129604a6c129ac4a72129bc4a6e12db44a9412a444b7212ad84a9612db84a82129884a591265c4a4e1239c0fd903f100fb903efc0fb603ed00fc803f1c0fce03f2c0fca040c80ff003fb41034040580ff2040cc0fde03ef80fb5)
  (.lf 0)))

def aesXorOrder44 : BTree :=
  .nd (.nd (.nd (.lf
  0x1e37078df1d41878b11e31c7ab21e28c78f21e4c878831e41c74b31d43474671d4c875451d3f074af1d2dc74621f59c7dff1f95074c31f7607d931f5e87d5d1f7107d8d1f8207dec1f5c8746a1f6407e211fe087fa41d5047f681fc6481832083c82031d3bc81461fec47fd8205907f3c1fc447f121e22071e11e39c6f2f1d40474a91d48c727f1fcb07f4b1fdc07f24)
  (.lf
  0x199746678199dc667e199ec667a19a88669e19a7066cd19a9466a419a84668e199b86665199446659193ac680b19fd867eb19fc467e819f7867fa19fe4680019ff467fc1a09068201a078684f1a09c68261a08c681019fc067e719f7067d919f5072ef1cb6872cf1cb5472cc1cb0872de1cb7472e41cb8472e01cc2073041cc0873331cc2c730a1cc1c72f41cb5072cb))
  (.nd (.lf
  0x2273c89cb1fafc8a06227c87e42226ac89ae2271889c32282089d0229b889cc226dc7e39226547ec0228ac8a452288c89ba2271c820a2097c821520920821a2095c826820954826920a30825d215c085742099082a1208ac8243215cc8273209c88265208cc82be209e8818920968828920980824620a448267215d48266209288227208d08235215dc8572215b4824d)
  (.lf
  0xf6d43d9b0f5443ddf0f7243db60f6743d980f90c3d850f5f43d3b0f1ac3c6a0f9143e320f89c3d780f5843e510f8ec3e280f5e83d750fba03ecf0fb0c3d8f0f54c3d520fba83ede0fae83e940f59c3ef60fb803ebf0faf03eb71036c40d3100c83f7d0f2b03c911037040d2100dc3f8d0fe2840ed103204044100d0402f101f44064101603f790f2a03c90101fc4073)))
  (.nd (.nd (.lf
  0x12e144bd512ef44bc912ef04b9712b144ada12b5c4bcb12f184bab12e6c4baf131a84cac131e44c97131e84ca6133784ca3133704ce11338c4cc2133544cc7132344c9a133944cc5133904cd6131f04cd1133804cdf131ac4cca132fc4cad132784cdb133684cd91335c4cb2132304c87131f44ce7133104cb6132bc4cb4019f006c101a7406b601a7006b901bb406ca)
  (.lf
  0x4640118f04638116d044c415940564c15920564415700554c1de2077841de00777c1dbe072602182086042180085fc215e085184187105d44167105983ea30fa843ea0097cc25f2097c425f00973c25b509470251b094682519093e0242008058201508050201307fc81fcf04230108b042281089041a0104b03bd40ef403bcc0ef203aec0eb9228848a0e228308a0b))
  (.nd (.lf
  0xb8a82cc80d3d034e00e8d439cc0b8402dde0daa42e5b0e7a039c90e85439f20da342e540b84c2df30bb142ec40e82c34770d1d42e450b7fc34f20b9a02e650d40c33340b93c37cf0d37833370e8cc2d3a0b4b82d260b4b42d230b4842d410b4d02d460b5142d440b5942d5a0b55c2d890b5ac2d6a0b5982d520b4b02d220b0302d160b0202da20b4342d080b4302d05)
  (.lf 0)))

def aesXorOrder45 : BTree :=
  .nd (.nd (.nd (.lf
  0xa88028a00a34028900a50029200a64024e00998029b00a40029a00a54024c00a18029f00898026b009c0026d009a002a400a5c02a000a580258008f4024400934029d00a3c026f0098802710067c01e40070001d9006fc01dc0082c01ed0084c01fd0080001fc0081c02050071801de008340203008300208007100d3800844019e0078c01e80079401e0034f0020a)
  (.lf
  0x1195847c0119703d430f5043e9d0f5143db10f53c3db70f6c03e230f57c3e290f8883e920f5943ebe0fa543f880fe1440c50fe2c3f970fe5840530fe704e990fea44ea713a743f6b0fda83fa30fdbc43d110f4043d810eac43a410c4c441610f3043a310c64457310f8c43be10ee8449110f04369a0d33837d80db4836960d318375b0db3c36c00dafc37f40db1436ad))
  (.nd (.lf
  0x72c86a0506df069c106dd869a40715069a807b3872b107b7c69de087c472a007ac472a50879469af07c486a1807bd469bd087dc69ea07e2c69f407e3469e007f1869a207e1469b807f786a0e07e446a1c07e3c69c407f4469ef06acc69cf06ae0698b06e38699706aa869ad06e981ad71b1c01abe1a6d41b990a5400a890a6dc0a920a6c8112803df40a7c0442410ff)
  (.lf
  0x2e900b7302d3c0b4e09ec00e44038b80e00037f80bf90236c08ce09b340e38038b00e12037ec0df60301408da09de00f92038d80e1b038280df809e900ea6026d0099e025f80978025c8096609d700ec2026a0099c025f00977025a8096709e040e9302698098b025fc096e0d95c1198046081164044c80f5502aac0a940d428118c04600115a044c0110d03d440aaa)))
  (.nd (.nd (.lf
  0x11d6c46a011a90475211e68478d11dc8476511dd01bac06fa81bc606f7c1bc506f881c1106fcc1c190700c1c06070081c0d0702c1bcc06f901c13070241c12070381bca070fc1c1706e7c1be906fb81beb06f981c43070401c180703c1bd606eec1bc206f2c1c15070201bed06f801bef0a7082a010a77429f60a77029f90a8a02a0a0a8c02a1a0a8742a190a8902a22)
  (.lf
  0x17f005f1017b405e6016a40584015cc056801590055d0148004fb013a804df0136c04d40126004730118804570114c044c0104003eb00f6803cf00f2c03c400e18036100d40034500d04033a00bf802d900b2002bd00ae402b2009b80249008e0022d008a402220079801c1006c001a500684019a0057401380049c011c0046001110035400b00027c0094002400089))
  (.nd (.lf
  0xf98c3f450fa203e680fd043e540f8c03e2c0f5fc3d7c0f5e44a0c127e049ed127dc49ea1278449fc127ec4a02127fc49fe12d504a24128844b56129184a2612d544a12127c449e91275449dd126ac0884021bc0864021a808610217c0873021c80879021d8087503798089b022600de802304089d0379c0889021a408600214c084d02108138004dac136004d98135d)
  (.lf 0)))

def aesXorOrder46 : BTree :=
  .nd (.nd (.nd (.lf
  0x237f88df5236900d110344c0d1f09a5c0d17032f88b5822db48b7122dac8b7822c1c0c86032200c92099e80c8d030cc4f0c13c384f1e13c904f1213ae45ba016e885bac16e945ba716d1c60ed183bc6104183c860f61824c571315c54572215c60571a15ae47d271f4a47d3b1f4b07d2e1f33462591896c629518978626a187dc5b0916c2c5b1d16c385b1216ac05a8b)
  (.lf
  0x10bf43d1a0fd7c40290fe043f6510d3437ce10e843d2b10ec042fa0f40443100f4603f570fd544d1712f8c415413d7c4f30125104fb4118a84c2c1179841c012fc048ad124604be91053c4f510fd4c4c10106f845dd107284c38117a841c41557c555b13e3049401682c5a091680c59ef1550c551c163d05864163c458e91676859d0166fc5b2d167b8521616ecc58e4))
  (.nd (.lf
  0x169405a361694c5a87169905a91169e45a7c169e05a8316a045a88168f45a5516a285a7f16a245a84168ec5a7516a385a1d169685a5f169705a5716a4c5a8616a3c5a851691c5a2c168cc5a3c16a305a7e169785a51169805c68172a05c84172745c83172805cd4172c45ce1173185cc9173145cd0173385cd5172285ca2173685ccc173645cd1172205cc2173785c6a)
  (.lf
  0x1c08c70211c00471991c60c70221bf846fdf1c89c720e1c80871eb1c2d0701a1c8a4721d1c7e471ef1c31472351c87c71fe1c7ec71f61c16870441c0d870301c0b0702b1c17070411c02470061bfc070691c138700a1bfb86fed1d79075ad1d680749c1ce1c73861d78475af1d66874a31d28075da1d6e875a61d290735d1dca4771b1d34873d31cf18739d1dca8771d)))
  (.nd (.nd (.lf
  0x12d104b0b126104af712c004b4a12cf44b2212c544b240610818800617018750616c18780629c1889062bc18990627018980628c18a106188187a062a4189f062a018a4061801967062b41830061fc188406204187c065ac18a6062b818a5061b01851061601861062ac189e0620c18760621420950836820b20833c20ba0834821010838c2109083cc20f6083c820fd)
  (.lf
  0x700a09027f407150006008d3019d00673019c400160381c0014023200685019e4001002da8083e020f4083b000380b34000300b580213c0843000200ab602ad40ab302a68000604400000402b1c0abb02a200000208088163205888161201107be91efa07be7135f04d7b135c84d55174105c63171845c6019e9067a319e8867a11c79071581c55c71560c590315a))
  (.nd (.lf
  0x2023c808c201d87ebb1fae87e731f9e87e2720e047ec61fabc7ec31fad47eac1fb3c7ebd1fb547ed31fb4483952033080c620ea4839a20e508397203087eb81fad87e9a1fa4c7e8f203b080e32034880d42034c80cf2038880d82037c80db20368810c2041c8100204fc8119204348112203e880d6203547e631f9747dcd1d9e8764d1d8fc764c1d914763c1d954764b)
  (.lf 0)))

def aesXorOrder47 : BTree :=
  .nd (.nd (.nd (.lf
  0x1c518714c1c51470fb1c32470e01c39871401c4b871191c42c71171c0b470711c0e070631c124706d1c248708b1c250709d1c1f070a51c2b4707f1c27070401c1a870aa1c230708f1c200704a1c26870931c13c70701c1d870811c1c8709f1c24470ab1c24070591c0fc70471c12c70a81c29c70851c19070731ab8c6aab1b6086fca1bef8735e1cd90670219cb466f7)
  (.lf
  0x16c3c561e1772c5d9b17780561d176285618176445d90175d45ddb176245fbe176185d85177005d9a16c605d9416ca85dbf1538c54df1443054f0143f0559614664510d154c45107153744e70155944e72184584e76154bc54fe1536c54f312f6054fb12d6c552d146c45505184805592154ac57c915f20589b15f6c57ba1627457d115f1858ae15f4057c3163dc5893))
  (.nd (.lf
  0x1f53823cf1f7dc23db1f71424181f56c23df1f66424e61f63823d51f82423cd1fa1c242c1f79024d81f7b424d21f74425b01f5cc24e31f64425961f81424e11f9c424df1fdd0211d1fd08211a1fe0c213b1fc3021201fc98214b1fe9421181fda821171fc8421311fc801eda206141ef11fce422bd208401ebe20810229d1fc581faf1ff2c1f0b1fd94234b1fdf823ce)
  (.lf 0))) (.nd (.nd (.lf
  0x170405bf016f8c5bf217d145f7f17d6c5f7417d685f7717eac5f8817ed45f9d17e805f9c17e9c5fa517eb05f6117de45fae17e8c5fad17ea05f5f17e645fb217d105f7e17e0c5f8017dec5fb717ea85fb317ea45f6b17d485f5717d805fb017e885f8217dd45f841a76c6f6f1bcfc6f5a1bd086f6b1be346f691be306f7e1be886f7c1be1c6f821be506f491bd9c6fa5)
  (.lf
  0x155f455591577c55ba156b05574155c0556f1803c5fea17f6c5fc1178745de7195e06553194f8653a194606516197f865d91972465c1196f465ba19244646c19170645419140644d1a27468741a1a867c319ef067b81a9806a3b1a8986a221a84c6a111ae546b701ad6c6b571ac086b001d06873f51cfa073e11cf7473dc1c680717b1c5ac71631c57c715c1b7806dbb))
  (.nd (.lf
  0x883c220b0880834330d07834130d06434100d03834220d08434280d09434240d2fc344a0d11c34d40d1b0344c0d33c34380d060340f0d01034000cff427ee09f6427ce09f5027cb09f0427dd09f7027e309f8027df0a2c028050a00828b70a09c28070a2cc27f309f4c27ca09efc27bc09edc2a730a9782a530a9642a500a9182a620a9842a680a9942a640af182a8a)
  (.lf 0)))

def aesXorOrder48 : BTree :=
  .nd (.nd (.nd (.lf
  0xc83034af0e74039bf0e91439e70e7ac3ab10b8e42e3a0ba2035020da302e440b7c82ddd0d27032050cd202d7b0b6142d8b0b5f42d830b4902de70b76c2dce0b8382def0b41828ca037540d650a5480f7b03ddc2c1609a0c29af036640f5e09cb80d7a09ac02c3809a9426a8036dc27180357427a20cd9c26900374c2bf50e4d439470e4cc30d30a40427490a4b033f5)
  (.lf
  0x2604097b025c018f20637418d20636018cf0633418e10638018e70639018e3071301909064181c50064cc190b0713418f70635c18ce0631418c1062f03be60ef443bcb0ef383bc20e9d43bd50ef503bdb0ef603bd70effc3bfb0efe43c360f0083c010eff83beb0ef1c3bc30e9b83a6b0e9a0503214074501214060500f1403450211408050271409050231412c5047))
  (.nd (.lf
  0x1e1cc786f1e1b878661e09074941e05c74961e16c784e1e14878381e11075281ee687b6b1ee447b701ee607bb31ee407bb81ef387ba11ef407bd81eebc7bb41edb47b891ef507bc31ef087bb01edc87bc51eef075711ee747baa1ee6c7b8c1ef207bb21ef547bb11ede87b681d6007b731ef4c7bd21ee947b921ee88790e1e7d079cc1e80879c71e7c07a2b1e88c7a12)
  (.lf
  0x9ed0276709d9827f009f6827b909ed827b10a16c279b09dc0272009c4c26d40a174284a0a0fc279709dbc28690a14c284009c78271b0d09c340c0d00834010cfe433f70d0a4341d0a0b0279109db834350d07c282d09c40270e018740602017d805f50179405de0187c0613017cc05ee01784062b0185405ef017a405dd016500579015b4056c01570055501658058a)))
  (.nd (.nd (.lf
  0x1e68c79a11e63c79591e55479581e67879871e668797d1e6487ac71ec307af01ebf47ae61ec287b4b1ecd47b361ec487b161ec747b4d1ecc47b401ebc47b081ed4c7b4c1ece07b321eb9c7b261ece87adc1ec3c7b0e1ec807b191ecf07b341ed387b331ebd87acf1eb547ae81ece47b461ecb47b1b1ec788171206b4817b20698817d2068081df2075081dd206cc81f4)
  (.lf
  0x20c707a2d20d10833a20ca0832620c74836e20db4835420cfc8e0b205047b3d215f882971ed0482a820a707b4a21774812b1ed0c829920a4882ab1ed08826b1ed44829820a4c82a2209bc826c2174485ba216e0828723914813620b1c8144216f078801c7606f151c7886f181c7806f141bc4c78961c7507aad1e27071df1c77878da1e1d078981e1fc787c1e288788c))
  (.nd (.lf
  0x222ac88e52223c887d221f0886a22194885621adc869021a14868d21a20867f21a6c869221ac486a421a8086d721ad886ad21b5886d521b2c86d221aa0868a21a2485fa219f08599239ec8e3f2389c8e62238f88e1d239b88e66239b48e69239a08eab23aa08ea423aa48e9523a388ea623a748e642398c8e13238e48e0f23b908ecf239808ece239648e5623b608ed4)
  (.lf 0)))

def aesXorOrder49 : BTree :=
  .nd (.nd (.nd (.lf
  0x23c548e2d23bcc8f1823bc48ee923c908f1023cb48f0f23bf48e5c2397c8ed323ccc8f2a23bfc8ef723c1485e72188885f22184885f5218448659218f8865821914862e21918865e218e48634218c486252196c8649219208662218148604218ec863a2180485f6218bc863c2181c864f218f4862a21968862321858864c219088620217a8863f2194c73981c09c6d3d)
  (.lf
  0x1e8c03aa60ccec2bf22108c7be41ef747be51ef6484151eef878d11e41078f61e290836120c507a3120d2484262107847391077441db1076441d81075c41d41074c41d21194441cd1949c52f9146b451ac14cdc52d6146a8534614b5051a81b3f8604f193e461bd186dc61b01990470b11c0486ffe1bff46ffa1b4b86d0b1fd847f5e1de2c7fcf1fee077701c3046fe9))
  (.nd (.lf
  0x33200d12034140cea033740cec22b048b3022bd88b2522c288b2d22d548b4022dd08b3a22cd48b6322dc08b4d22c4c8b3e22da48b5722d448b5022c388b4e22dd48ac422cc48b3622d188b4322d508b5322da88b5222c6c8b1222c408b0f22d9c8b6822d808b2822d1c0c17031700c38031440c37031500c83031940c8c031d40c78031d00c7f031f40c3e031580c85)
  (.lf
  0x2175485ae216ac8e7c2390085d72173885ac23bf88e5d239408e322167882b223c108ed7239288e31216d48ee823b408e34238b88e2c218c08606217c085a22164882c1218cc86082178c85a4216808615217e485e521684858f1e640795c1e4e078ab1e27c789e1e644795b1e4e8791d1e45879681e52879401e4f079341ecb07ad01eb107abe1e3d478f41ebe47af7)))
  (.nd (.nd (.lf
  0xae702b920ae6c2b970ad4c2bb70ae802b380adc82b770add02b6f0aee82b990ae842b980ad7c2b460ad2c2b540ae782b910add82b690ade031610c69831820c66c31810c67831cd0c6bc31d50c6fc31c20c6f831c90c71c31880c68031cf0c71431ce0c72831860c7b031d30c58031a50c6a831a70c68831e70c73031d40c72c31920c5e4317e0c61c31d10c71031a9)
  (.lf
  0x87a46b0f087f41f081ab40229207fb01fe607ea86acd0913c1fe21ac18228507f306b2e082941bb406eb81ac61ab0c208506ea86b15081c01b931d320211f076e01db2070e0762e085341dae1d5e4212707258753d08b5022ab07c241edc1d2d022a508a84755408ad81f0d1d4c0245a0915023d008a4c746c0939c24501d3f4244808f4475210936820ad0829c20a6))
  (.nd (.lf
  0x77081dd6077541ddc077641dd8078001dfc077e81e280780c1e02077fc1dec077301dc3076e81db6076c42187085c82167085b42164085882176085d4217c085e4217808680219c0866821c80868c21a20867c218c085b021630856821560854441720facc3eb20fabc3ea90fa984169105904171105b4416b106f04185105f441a31066c4197106604177105803f32)
  (.lf 0)))

def aesXorOrder50 : BTree :=
  .nd (.nd (.nd (.lf
  0xac842b290aeb82b250ab3042e310b9442f410c7442ea10a404b4912d2c4b5312da44b4f12bd818aa062b018b4065a418b00615c210408418210e084e4210a0828435d50d75c35e10d9e035dd0d4f445da1177045e5117f045e11161c3e800fa083e8a0fd103e860f61c4a411290c4a4812d684a3c127ac08b5022dc08c3037b008bb0218813b104ecc13c3054d813b7)
  (.lf
  0x158e8564e159345654159445650159e05674159c856a0159ec567a159dc566415910563b158c8562e158a455d61570455b6156f055b3156a855c51571055cb1572055c7157bc55eb157a45622157c855f1157b855db156ec55b2156a055a61568c600617fc45fe617fb05fe317f645ff517fd05ffb17fe05ff71807c601b18064604818088602118078600b17fac5fe2))
  (.nd (.lf
  0x175b45d74174a45d41175e85d6b175e45d701749c5d61175f85cf6175185d4b175205d431763c5d721760c5d71174cc5d181747c5d28175f05d6a175285d3d175306126185bc614b18590614a1859c619b185e061a618634619018630619718654619c1854461691867c61931867861981853c61891868c611d185b86173185c0616b186a4619a1869061991856c6142)
  (.lf
  0x14e9853a414dd8621b1881453a514dd052eb18b4462c418a9061d214c28530318b4062c318ab861d814d0c62e718b5862a618a8862a11519053b114df4534c14cd853351517853b714e30538614df0541214e6c538d14ca852f6142ec50a213ef44f7d13d744f47142f450b114260509413ef050c9142cc509513dec4f7814098500b13ffc4ffe13fc84fed140a0501c)))
  (.nd (.nd (.lf
  0xbde82fa90be7c2fa80be902f600c0ac2fad0bd182f7f0be102f810bdf0302f0be982fae0be942f6c0b9d42f580bd842fab0be782f830bdd82f850eaf83af80eb503aed0eb4c3af00ec7c3b010ec9c3b110ec503b100ec6c3b190eb683af20ec843b170ec803b1c0eb603c820ec943abd0ebdc3afc0ebe43af40f2183b1e0ec983b1d0eb903acb0eb403ad90ec8c3b16)
  (.lf
  0x239008e00ce74339c0ce6c339a0cdec336e0cdb0397c0e5ec397a0e5e4395a0e534394b11d8c476211d84476011cf4469f11a4c1bde06f741bdc06f6c1bba06e5429f50a7d029f30a7c829d10a6f029ba0c430310b0c42831090c3a02c4a0b0f4421b1086842191086041f70d970365a0c19830650c19030630bb002ebe0bae837110dc40370f0dc3836ed0db7836dc))
  (.nd (.lf
  0x135b84d68138944e24138a44e281389c4e56139444e4f139e84e59139604e52139004e17135b04d61135904d5e136f04da81365c4da7136784d94136c84da6137704dc6136d04df4137404dcf137d84df3137884df0137044db01367c4d99136844d8c14a3c527b1494c5261149685250149dc5267149e05272149c452b514abc52ad14ac452ab14a7852b014a2c526f)
  (.lf 0)))

def aesXorOrder51 : BTree :=
  .nd (.nd (.nd (.lf
  0xb5282d2a0b56c2d290b5082d800b58c2d7f0b5b82d550b5bc2d7a0b5d02d810b4c82d3b0b5e42d720b5e02d750b4c02d670b6082d190b54c2d590b52c2d3f0b5f82d770b5f02d760b5342c0d0b4942d310b6102d710b57c2d5c0b53c2c290b6e82cfd0b66c2d0b0b6e02dec0b6a82dee0b7402dd30b7242dd80b7342cff0b68c2de60b7302de80b7642d0f0b82c2ded)
  (.lf
  0x227d88a66229108cdf211188cfb233b884e520fc084e92138484252105c8702210cc842b21000845b210c0890f224288914223f088ee21f448be9223c087db21f5887e521f0887ae21eac885721ec882bd20ab88671216688583216088e10216bc8e48216d08e532392c82c520ad085da21644791c1e424793f1e46c7ad91eb287aee1eb6079be1e3a879ca1e6fc78fa))
  (.nd (.lf
  0x131a01c68125b8192b125901cad12530195713088194c131041c551306014fb135d41500133bc1753135f814f2136241763130c0150c1313015061314c174c13058172d1316c1732125cc1983122bc172412ff0196f13084173e130e817381355c199b13044166815cdc16711258418140602c573d060e44c2d05a144c39059ec496a060984f8e064dc4f71065004f4b)
  (.lf
  0x10ee4141f0504c13ed045081117043b00f5810cec141d0500813f804fbc12a7115ac147204bd812e004b0012ba04ad012a810f70147c04ba812de04af812b904ab012a910cc816a404ba012cd04b0412b010fe8161c058181540054dc15150544813d510f1416100581015ea054f815340545013e910d3c160e057cc15e20550c152f10ea0166f0424c107d04124103a)))
  (.nd (.nd (.lf
  0xca10328d0ca2432450cc7432920c89c32640c9a432660c98433240ca2c32930ca2832510c8d8323d0c91832900ca0c32680c96c326a11f0c47fd11f6447f211f6047f5120904806120b0481612064481512080481e11f7c47f712098481c12094482111f744953120a847c211ff0480111ff847f9125604823120ac482211fa447d011f5447de120a0481b1200047f3)
  (.lf
  0x8d7c235708d4c23500201007df01f3807c301efc07b801dec075601d14073a01cd8072f0b2202c5f0b154293d0a49029120d88835f90d7bc35550d49035230be082f5d0bd402f490bd142f440ebe83ad50eb183aa90e9743a310de6837750dd9836cd0db2c36ca11314449311024440710f0043bd0ffd03fcf0fefc3fb80fe903fa110248406d101783f9a0fe603f7a))
  (.nd (.lf
  0x741821f5074ac1d0b087b41cf70735c1cce073141cc1072f02489091d02469091bc2466091902478091dc247e091ec247a0964424a00927425ab0930824a20969c248e091b824650917024580914c2b6c0ad5c2b4c0ad482b490acfc2b5b0ad682b610ad782b5d0aed42b830ae002bb90ae942b850aed82b710ad442b480acf42b3a0acd4319f0c628317f0c614317c)
  (.lf 0)))

def aesXorOrder52 : BTree :=
  .nd (.nd (.nd (.lf
  0x1d328746f1cd38735a1abf0736d1ce106fd41beb06b4f1c00870291c7cc71e51c7a06ab31beec6ffc1c06c71591bf8c6fcb1bf146d791b4507bf61ab886b1c1a1707ca81ab2c679519e4c67811bf3c6fb51bfa873631cd4c73c11b4386d291ccec73661ccfc685e1a3746d8119d44675419d64676019d2c66df190f869721a80469a31cabc729f17ac46a161a72469b1)
  (.lf
  0x1f1507c761f17c7c5e1f1d47c471f0a47c201f0907c0c1f01c89bd226587e4f2264c7e441f8fc89a22266089b62269889a42273489b2226b48a262281489e72281089aa1f9187e451f8e07e3c1f7788242208d8821d208a482202086c823b208e0825020924823d20a38827720978857620a40827920a3c8259208b8822a2089882232084c578515dc0576515dac5762))
  (.nd (.lf
  0x142b850e81441050931433450d21433c50ca1442c50f91441450f8142e850a11429850af1440850f11434450c41434c5e39179cc5e4f179a05e4e179ac5e9f179f05ea917a445e9417a405e9b17a645ea0179545e6d17a885e9717a845e9c1794c5e8d17a985e38179c85e77179d05e6f17aac5e9e17a9c5e9d1797c5e461792c5e5417a905e96179d85e69179e0639c)
  (.lf
  0x1104843cb10f24444e110e0441711050440f116744584115e043dd10cd043331167c4593115bc43e210f8045ab116544574115c4456c112a0448d10ff043f110ef0434b1129c44901100c43bf10eec44ba1129443fe10fc043ee0e24038780e1b036a30d40034ff0e23c38800df7c36a80da98389f0e21c37d90df5837d50de14376c0dd8036c90d3f034fb0de1c377b)))
  (.nd (.nd (.lf
  0x39d00e81039cc0e35038680e21038a80e7e039b00e4c038fc0e4e047841221047f41216047f0121904934122a0499c123f04908123e0492412470480c121b0496012450495c124a04804123b04970124e0478c122004894122204874126f04930125d0492c120d047c811f904808125a0491012240485c122604574119d045e41192045e011950472411a60474c11bb)
  (.lf
  0x1e1e072991bc5c6f161b9646e561b9546e531b6486d8e1b63071071c41071031c40870cc1c2f470281c22470651c18870611c0f8700f1c0206d801b43068d71a3586d321b4886d0d1b40c671219c44670f19c3466ee19bb466431a7a069a71a67069831a5c4605e15ccc571e150b853de14f2c53ca14d9c531514c5062e118b7862dd18b6062bc18ad062ab150305409))
  (.nd (.lf
  0xacac2ab00a6d829580a53826ae09a6c0d7b0a6cc27ad09ea027a309c2027050aff0277e09d78275d0b11429480a4bc26d109b2c0da3036800d62035780d41036e028d50a34c28d20a37c26740b0e427240b118271909b5c26e0018a4061401824060f01818060401860061701878061b018680db901900063d036fc0662019080dba018b8060e0181405f8017c805e7)
  (.lf 0)))

def aesXorOrder53 : BTree :=
  .nd (.nd (.nd (.lf
  0x3d800f4002d400cd003f000f2003ec00f7002cc0d2700400008d0034800d70035000cf0349800f90040400f8002fc00a4002ac00b4003f800f10035800c9003608acb232008ada231d08ade231e88cb6232808cba232508c7f232588cbf2326c8adb232148cb8232dc8c9d232708ae1232b08ca122b308c7d232048c8b232208cae2327c8cb9232788c6f22b5c8c5e)
  (.lf
  0xb6bc32290b6d439370b108394f0e5042c490a41430dc0b13431510a470316d0c55c2c530a48c2c590b148296d0a5b029980a5c429a60a6942a3d0a6ac29810a6002b360a618298c0a62c29bf0a63c335c0a0c833700cd8c276509d9027b809da0283b09e4c28410a0e8282a09e4033fe0a0b805e30178805f4017a0055a01564056b0157c04d10134004e2013580449))
  (.nd (.lf
  0x9ac81108043f8291002a9c0aa40a4880a9c02a6427560455411530a35c127c02d5c315d04a0c0b5c09cac126002cfc3166049a80b460c540125002ccc290c04a540b770a46c128d02da42752049c40b4c0b1200bf20231c2c3a02fdc08cc0a4b80f89037bc26a702fa408be09ab00f9d03818274a0300c08d80a40c0bfd0234830d403e0c0df40e4d00ea201c68294a)
  (.lf
  0x3b100ec30cfac103903bb80ebd03a540e94028c80a170282c0a0a027e809f301c24001f028d00a28028200a03027d80725000740a40028a80a04027f809f201c6c0019037d406ae01a4c068701a180676019bc00170236406b001a900684019fc06720005408cd01af006a601a00067a019b8001102d340878021740851021400840020e4000f02de0087a021b8084e)))
  (.nd (.nd (.lf
  0xc4d8311b0c438311d1079c42271080c421c10808421f1093842301096442401090c423f1092842481082442211094042461093c424b1081c43631095041e910898422b108a0422310d9c424d10960424c1084c41f8107fc4208109484245108a8421d108b02e950c1c8304e0c19c304d0c1a830990c1ec30a10c22c308e0c22830950c24c30540c1b0309b0c244309a)
  (.lf
  0x238588e1523bd88ecb239388e49238d885b62189085f3217a485e12169885a3231588ac922b208aff22bc88a99236048d7c235e08a8c229e08a75233788cd32333084eb210e4840e213d0845221064845c211588403223dc837520dd089042237887b421f1887c421ee4879a21e4c87922172885c32170085d92175885d3239348e2f2172485e22178085df1e4d4789b))
  (.nd (.lf
  0x7bf01f1e07b94238b08dd8236b08dc4236808d98237a08de4238008df4237c08ff823a208e7c240408f1023a409000239008dc0236708d70235808d5407fb01f9807db01f8407d801f5807ea01fa407f001fb407ec0376008120203c0dda020d4081403764080001f8007d701f2807c401ee4077201d74075201d60074f01d34076101d80076701d900763037080789)
  (.lf 0)))

def aesXorOrder54 : BTree :=
  .nd (.nd (.nd (.lf
  0x1ada8744a1d130745d1d13c74531cfbc71ce1c74071dc1c74c71d61c5d46e0e1b8406e1a1b84c6e151b6d469761a5e069871a5ec697e1a4685d7b175f45da5176105d881747861a01868861ae1869461a7185185f2517c9c5f3217ca85f2c17b3066c019b0866cf19b1466c71999c68431a11468511a124684b19fa473271cca473351ccb0732f1cb347f321fcd07f9e)
  (.lf
  0x2287081f01fe84778c1d4f074f41ca086f331d51872841f8507f7d1c5487f291de1c7f5f1de047df11f1c07c7e1f1f07e701cd4867751ce6873801d1dc73cc19dac5ddf175fc6a031521c643517828562016c5c56111a6785ced162f458781619459d614888556213a1858971620858a6161d058db161f052ca14204507915528510f14c3452ed14b8852df14b7452d1))
  (.nd (.lf
  0x157545609157985616157ec55fe157e856051580c560a156fc55d7158345601158305606156f455f71584855711577055e11577855d91586856081584c56071572455b0156d455be1583c56001578055d3157885fd3180345fe9180085fe8180146039180586044180ac602e180a86035180cc603a17fbc6007180f46031180f0603617fb46027181045fd2180306011)
  (.lf
  0x1afac6bda1af647cf11f36c6be81af946be41f6e87d881f2c87cab1abe86ae91f6ec7da31f6687d741ace47db01f6107d441f4fc7cac1ae006b671abfc6ad51ab4c6abf1ae086b761ad746b591abf86b8e1ade06b5a1ab686ad21b27c6c861abb069d51a6dc69b61b2846c951b1f06c781abac6cad1b25c6c791a74c69d01a92c6a321a84069fb1a78c69c51a9346a41)))
  (.nd (.nd (.lf
  0xd75835c90d6b835a10d6c04576116c0458c11694458b116a045d7116e445e01172445cc1172045d3117444592116a845d91173c45d8117504590117e845de115d445af116d045b1116b045fe1175845df11754459c1160c45881164445db1173845b31169845b50f5ec3e560f8b83e4b0f8d83e4e0f9f43e5f0fa143e6f0f9c83e6e0f9e43e770f8c43e500f9fc3e75)
  (.lf
  0x181d4607315b5856d515b5056d315ad056a715a947cea1f3a47ce81f39c7cc61afb06bea188506213188486211187c053a314e805acd16b305acb16b285aab16a705a981693c5a4e169345a4c168ac59f5167c85c9c1726c5c9a172645c78170fc5c3d159685659159605657158d8557c155e855d11574055cf1573855af1568855a018004600017ffc5ffe17f7c5fcd))
  (.nd (.lf
  0x1fc2c7f031f7ac7de91e25c78941fedc7fa21f73c7dc91ca4c7d701fc947f0f1fd807f5d1e2e87d921f5587d551f5407c9a1fc507ab11c78c7d791f54478871f9bc7e6e1e20878751f84c78ca1e3a078a81fc6c6e711b9346e431b91c6e3c1b6406e5b1b9446e601b97c6e5e1bc806e6e1b9ac6f251bc886e951bc906e641b9306e411b8f86d891b614710d1c3b470eb)
  (.lf 0)))

def aesXorOrder55 : BTree :=
  .nd (.nd (.nd (.lf
  0x150d85438150d453c414fe0544b14d5c53e414fac53ea14f6c544d150e85444150e453d114dc453c514f305446151045432150c053f118af862e518ae462d918ad862e318d4462fc18bec632918c50631018d8c62f718c6062c218bd0635418d48633718be062b818c9c62fe18a94631118c3462eb18ba0632c18be8635518be462cf18b0462c718af4633818cd862f0)
  (.lf
  0x141d45332138384e0914b144e0b14b3850821388452fe1873c52db14b084e0f142144f35124f4493c124d0493212518494211e804f28124e44f4213cb44c000fcf84f3113c4c4f4513cb84f2c13e984f4f13ca84f1a13d244f2513f644f38124fc4f641256841bb1180841c1106dc495c1181041b9125c44967106b44969117fc573b117e05738117b04960118144c3f))
  (.nd (.lf
  0x8f2c78c8090507ab308f607ac20913078b408f4c791808d2478f3090a078d70933479330932c7899096b478850936c788f0964c78aa09324790809328206e20d88266620d98266020d18266221e30264e21e64266a21e80264921ea4265a22150266820ca821d520de421d220d6823f521efc21e121ee022a420d2821df21f5421dd20df023fc20dac23fa20d5423ed)
  (.lf 0))) (.nd (.nd (.lf
  0x1dcf0774a078c41e6f0792c1e64079281e6707a6c1e7807ab81e8d07a401e8c07a5c1e9507a701e51079a41ea207a4c1ea107a601e4f07a241ea6072081e6e079cc1e70079ac1ec107a681ea707a641e5b079001e47079401ea407a481e72079941e740ca9c32e20caf832d70caf432da0cc2432eb0cc4432fb0cbf832fa0cc1433030cb1032dc0cc2c33010cc283306)
  (.lf
  0x228887e411f8ec7e2f1f86c7e18209888232208588208208187fcd15e38576915d60574e15d304c501434050ab14258509213f004fbe179d45e50179045e26177bc5dee18fe863d118f1c63a518e78639a1b2d06c8f1b1e86c761abbc6aed1b0c06c0b1aff86bf71afcc6bf21d77075b21d69475a31d27c749d1bb606eaf1ba946e291b88c6d561df5877b51de6c7792))
  (.nd (.lf
  0x57d4160905820160f05830160b060001631058b818020597c163306004161f057fc15f6057b415e90579014b90529014990527c14960525014a80529c14ae052ac14aa05d1014d0053341746053d814d205d1414be0527814950522814860520c1a72069741a52069601a4f069341a61069801a67069901a6306e201a8906a181b8a06abc1a8b06e241a770695c1a4e)
  (.lf 0)))

def aesXorOrder56 : BTree :=
  .nd (.nd (.nd (.lf
  0x138184d9514ae852bc14a9852c714c645251120bc4f5413e884f3613e184f32124644faa13d9c4f5913e9c4fe713dac4f1713f9457e3135184926134ec4d0c12fe4588e134c452471237049ca1264c489f1269448e2123cc498c123544abc12ae847b111cd84d1b122f048cf1319c494b1343c4c1d131004d73135f44d88148b44972130804c3613558573615ce4573c)
  (.lf
  0x1de8477b91dec477c01def477bc1dff077f21dfc0780f1dfd477dc1dfd077d21ded877aa1de9c77981de4c7ffc1ff987fd51ffb47fd41ff247ff11ffc080072001480042007480192005480292009880222007c800f200087fee1fe587fc31fe4c76c91d8b075881d8a4758d1d61c76c51dae476c21daf076bb1dbe876e81db7876f91dbdc76ee1dbe076ce1dadc758e))
  (.nd (.lf
  0x1bb546eda1bb5c6ed21bc386f011bc286f001bb086e2c1b8c46eb91bc1c6ef91bb646ecc1bb6c779a1df5077b41df1077ae1df3477ea1df8877ec1df9077f81e000780b1df9877f31dedc77cc1e02877fa1dfe477e71debc78061dfac77961df4c77d81df5477cf1dfd877e91e03077e81def877a81de8c77b01e00878091df5c77c61df647f58200587fd11ffd47fd3)
  (.lf
  0xd7c4354c0d494361b0d81435f20d53835490d660353b0d4cc351a0d2f434a10d66835870d5f0352e0d47435a60d640357d0d4c0352b1085041f9107bc41ee1079841e410858420a0d96c35700d440422210830365e0d97436580cb3c32b60caa82e000a3f828f10cb4432c50ca802e050b80c32dd0cb1c32a50ca88329d0b5782cde0b03c2c0e0a3f028ea0b5382d33)))
  (.nd (.nd (.lf
  0x105783eb10fab041a8106a44195106244193096fc25ff0976c25f40976825f7098ac2608098d4261d09880261c0989c26250978425f9098b82623098b426280977c2619098c8262c0970425fe0980c2600097ec2637098a82633098a425eb0974025d7097802630098882602097d42604093a8252809410251d0940c252009550253109578254609524254509540254e)
  (.lf
  0x31c00c60031400c40028c00870020c8c78231cc8c722319c8ad622b508ad222de88ab122ab88aad22a008a7e229e48d0d2342c8d092341c8ce6233648cd4214608516214508512213e484442110c873221cb0872521c8c86ff213dc84f6225f88943224f8893d224608911224248c08230148bfd22ff08bd12241889052207c880c22028880921fac87dc21f5c889a))
  (.nd (.lf
  0x550013f004d0013a004c4012f0050c0142005240146005140d2c005ac0168034cc018d005b40d2f005640139004c001230047401120033000b7002b000b2002a400a7002ec00ba0030400be002f40d230038c00e0034940105003940d240034400b1002a0009b00254008a232108c5f2316c8c60231688c59231948c64231b88c6b231a88ca8232988ca5232b48c92)
  (.lf 0)))

def aesXorOrder57 : BTree :=
  .nd (.nd (.nd (.lf
  0x225548923226008974225cc8920225748959225348947225c48965226348957224d889262246c8924225e8896d225a089402253c8bd0230448bef230048be3230288c4b230ec8c4a230ac8c102308c8c3d230708c5122fe08c38230fc8c3c230788c1d22f908c30231308bda230348c0e230608c152313c8c49231208c4322fd08be022f5c8be5230948c29230848c02)
  (.lf
  0x19dc8676e178205d961ac646ae019e646b0e1aac868611ad386af81a16473bd1ceb8676919e40678f19e38701519e2c678a1c33c678619e146b2d1aa4467831ce4073451ce5c67711d1d8733819db46ff419e00677f1b6546d021a3a46d4c1a39c68e61b50c68e21cebc73821cce46b1b1ac606b0c1ac2c6b0a1afb86b041abd06ea01b4a868e01d59c75421d50079bc))
  (.nd (.lf
  0x49fc37ec04a1837e40498c34f7049b434df0494c36ba04a5836be04a3034e3049d0369504f14375304f3834eb054e0347604ee034c50556036c804f88347b04f6034fa054a03699040680e9c0d3bc103e0d20810110d33410540da88102b0d1e410250d3f81036213688e0109aa48b5b099b44f4e043ec10f9072ac33350c2fc46270712c58b903e6c196d0912434c0)
  (.lf
  0xd5101134044cc112e044b434a004d1c134304cd812660d254153b03e940f8e03e303561041100ea903a380e87028140a01027d006fe000680df001a04067d019c0001202d00084b0211c083a00028112502b0c0abf02ac80002231c48ad822b388a68228e88a18231c08adc22b448a55229508c87231708aca229788a3b22c708b1422b088a9b229608a1f22c788b1d)))
  (.nd (.nd (.lf
  0x12aac4a8d12acc4a9d12a804a9c12a9c4aa5129984a7e12ab44aa312ab04aa8129904b6f12ac44a4a12a0c4a8812a144a8012dcc4aaa12ac84aa9129c0499a129704a6512abc4aa212a1c4a7a12a240fa203f800fbc03f540fbb03f60100703fa4100f03fe40ffc03fe01003040040fc203f68100903ffc1008040100fc0040ec100d03e680fdf03f900fe103f701035)
  (.lf
  0x13d204f9413ddc4f7613e644f7513db44f8213d584f4d15d34574b15cfc4c6012ff449741363c4d81135fc4c7f131c44c6c1236c48da1236049bf1241048fe126a44978123d848e11238048de14924523b148e44d4d124a0491615fec57e91246c4d53135404d3f11a48437a10de4467910ddc437611abc466e119b047ba119cc46710fa7c3d950f6443d990f1503c53))
  (.nd (.lf
  0x1027441331030840a2104c8408e101b84065101684057101483ddd0f7203dc20f7143db90f6a43dcc0f72c3dd20f73c3dce0fcd83df40f7c43f390f8583df60fcdc3de20f6f83dba0f6883d9f0f67054ae1526c54941525854931524854a31527454a71529854a51535454bf152f454fc1536454d01535854b515260549715164545514bec594b1648059171647c5918)
  (.lf 0)))

def aesXorOrder58 : BTree :=
  .nd (.nd (.nd (.lf
  0xccc433120cae4301d0c07c30270c2f830230bf28455b115744568118744563114201b6006d881b6e071281b6606c34586016188587216290586b160340be102f8c0bef03e1c0be702e38171c05c78172a06604172205b24226f089c4227a0904822750887034640d198346e0d348346a0d044281f0a08428290a2d8282509f302aa40aa982aaf0af302aaa0a944328f)
  (.lf
  0x22ccc8b6422d2c8b4922d288b2f22c548afe22be88af822bd00c55031000c35030ec0c32030c00c440310c0c4a0311c0c46099b00c6c031a4267f032400c6e099dc0c5a030e80c31030900c1e0304c4edb13b184ebb13b044eb813ad84eca13b244ed013b344ecc13c7c4ef213bbc4f2113c704ef413c804ee013b004eb713aa84ea513a705b6916d505b4916d3c5b46))
  (.nd (.lf
  0x1a9f06a7f1a9ec6a861aa106a8b1a9006a581aa346a821aa306a871a8f86a781aa4c6a231a9746a621a97c6a5a1aa646a891aa506a881a9286a311a8d86a3f1aa3c6a811a9846a541a98c6ad61ae4c6b6f1ae206b6e1ae2c6bbf1ae706bc91aec46bb41aec06bbb1aee46bc01add46b8d1af086bb71af046bbc1adcc6bad1af186b581ae486b971ae506b8f1af2c6bbe)
  (.lf
  0x17f305e1e177a0600817fc85fd117f385fc917b885ec717af45e18177d45dc217b905ed817ad45df7176bc5ef017b685eb7178505e1317db05f5317d1c5dff177585db917db85f6217cf85e0e1780c5f7a17d905f4317d005f3b15b3c56b61561055411548454fa15b4456c515a98558b1562056dd15b1c56a315624553e1572855b1155b8553c1547c54f91573055c0)))
  (.nd (.nd (.lf
  0x7d301f7b07d741f8307db41f7007db01f7707dd41f3607d381f7d07dcc1f7c07de01f3407f0c1f8107c681f5307d601f5507d401fd007de81f8207de41f4007c041f2c07cd41f7f07dc81f5707d281f5908d48239208db8238708db4238a08ee4239b08f0423ab08eb823aa08ed423b308dd0238c08eec23b108ee823b608dc8240108efc235408e44239608e4c238e)
  (.lf
  0x1d70875c11d67c759b1d6646eca1bb246ec81bb1c6ea41b8ac6e1e1df2077c71df1477c31de7c75941d6487ff91ffd87ff41ffcc7f991fe5c7f921db7c76dc1db2876c71d4e8751b1d4647a661e9887a591e9587a3c1e3f078f90a18828610a180285f0a0f0279909e48785d1e0d878281e09c74931d244748d1ee387b861ee147b841d56475571d5587a001e7a079e6))
  (.nd (.lf
  0x17ef45e2d178885e0919394627c1941864fc18984636218d1c631d193fc64f81a6c8698918de063671938464d31818c626818dec634318c1463041a7606271189c0626c1893c61c818c8069a117360629618940698c1990065b61a65069931943c69cb1ca906a0218e5853d914f1853c014dac536814d8053ce14f2053d414f4c53d014fe453f614fd45451151285449)
  (.lf 0)))

def aesXorOrder59 : BTree :=
  .nd (.nd (.nd (.lf
  0x136b84dbd137e84de9137f84df9136904df11381c4d77137084dc7137604dbf1380c4e02138044dff137744d9a136584da5137f04de8137804dda137b8525414a64526d14a00525e14a24532d14a5c531814a6052b714a8452a914a94532e149d4529314ae452a414af852b81497c52b214cc04d3914a38528c14a68529114c5c52c014b1852bf149cc5263149485260)
  (.lf
  0xf48834f80d358332b0d32033360d1d033320ccb034e10cccc34fd0c80c36b70c7f034e60c52434ee0d368347e0d3042bda0d3302bbc0d34c33490d38834dc0d1f037e30e7c439e40e84439cf0e72039e60e6f039b90e7a839d80e75c3a340af4039fc0af2039fd0aaac3a610af3433410cc9433190ca6039f30cc6c32960e77433210cc802e690b30c2bb20b8e02beb))
  (.nd (.lf
  0xfe1016790f238181e0f88410df03d0c3eb60439c0f540f5c8113d044b03cb3043700f520f1681113044403d3a043a80f500f57010e203d2c3d4a04a9412a20f880146b04a783d71051c012880f17c1696049943bb30518812a00f11416af049543d39051e8129a0f56c147504a443c6605a88129c0f6bc13ca04f1c3d9704f4c13d00f1481548054e83bb604ef413ba)
  (.lf
  0x1aad01d5f075101d33072481c891f2a82240088a8220c088101fb707ed01ef21abe42234088a021fe087ec21ea07ecc1fa51aac022cc088c822170883422001af8c228f08074200707f5c1fce07eb01fa11af60228a08044200507fac1fd607f341fab1f29c242d0803c1ff407f8c1fd51ac78208e06f941bcf06e801b9606b341abc1afbc207e06f641bcd06ecc1b9d)))
  (.nd (.nd (.lf
  0x2f000be602f400bd302f3c0bda02f600b9902ec40be002f580bdf02f6c0b9703e140be402df40bb602eec0bb802ecc0f8102f740be502f700ba302dc80b8f02e600be202f540bba02eb40bbc05ad016f205b3816e705b3416ea05c6416fb05c84170b05c38170a05c54171305b5016ec05c6c171105c68171605b48197f05c7c16ac05bc416f605bcc16ee066641718)
  (.lf
  0x5514153505308149d05234148505204147e069ec1a56069181a3e068e81a37075d01d4f074e41d38072881c63024c8090d023f008f1023b408e60ceac33860cde033610cd8028330e62839650e55c393f0e4f82c4311dc4474811cf8469d1190c464206fb01bc706ec41bb006e8c1b9e0a80c29de0a73429c40a68429a00c46830f50c39430dd0c36430d6108a44204))
  (.nd (.lf
  0xc38830de0c36c42201082c42001081841fd107ec420f10838421510848421110d484237108d0436610980423910d8842251081441fc107c441ed107a8306b0c158304b0c14430480c118305a0c16430600c174305c0c2c030820c1fc30b30c29030840c2c430700c14030470baf0303c0ba4837160dc0436f60dbf036f30dbc437050dc10370b0dc2037070e3f0372d)
  (.lf 0)))

def aesXorOrder60 : BTree :=
  .nd (.nd (.nd (.lf
  0x235a4859c2293c8a972283c8a56228688a382278089fc23918859321730858c216a485802383085bd20ab0834521e7c87a8209b4837721ef887b720dec833d20d3487cf20d5c8371215fc88f521e9083eb20f68827d20f2c83b820e90844f20fdc82a020e7883fa20f7483c72332c8cc8233708a7120b248d6d1ed488123216e48e2920a6c844c2102c8429201488057)
  (.lf
  0x1c5a071641c5846dd71b7086db71b6f46db41b6a86dc61b7146dcc1b7246dc81b7c06dec1b7a86e181b7cc6df21b7bc6ddc1b6f06db31b6a06da51b680693c1a49c691c1a48869191a45c692b1a4a869311a4b8692d1a55469511a53c69851a56069571a55069411a48469181a43c690b1a4185d40174ac5d20174985d1d1746c5d2f174b85d35174c85d31175645d55))
  (.nd (.lf
  0x1fd147f311fcc07efb1f6047eef1fd687d481fb807edf1fba87db11fc5c7efe1fd1c7efd1f6e47d871f5dc7d861fccc7ef61fbc87dbe1fbac72001c8e872161c8bc72151c8c872661c90c72711c960725b1c95c72621c98072671c87072341c9a4725e1c9a072631c86872541c9b471ff1c8e4723e1c8ec72361c9cc72651c9bc72641c898720d1c848721b1c9ac725d)
  (.lf
  0x135484d1113440594c164844d4c1352c4d491608c580815fdc57f013470492216094581915ffc57eb1347858311606c57ee15fb457e8152b054881516c5234148c8522f152ac5490135044d251348c54af152544d511350c4d3e11d7046a111a64464110e28438911d78474b11d00469411910476a11d50474111a58469112160468811a00464b10e38438d121684847)))
  (.nd (.nd (.lf
  0xf7a03de50f7803f3a0f8283e120f8243dd00f69c3dab0f71c3e0f0f8083de70f7683de9148cc54c81523454c41522854b31548c54ed1564054b9152f854e91549c54cd1523c54c01549855241534c54d11522c54d7153f454ee149a454ba152d854c9152c054ec1536855291534854aa15168549a1523055111544054ce1531454cb1644059381648859441646c5933)
  (.lf
  0x8e10238308d8822c301fd807f501fd007f301f4807b601ec8076d01db0076b01da8074901cb407290b1e82c790b1e02c770b150293f0a4cc36140d84c36120d84435ee0d55c354b0bdd02f730bdc82f710ba7c2e740b9c03aec0ebac3aea0eba43aca0eae03ab60de30378b0de2837890dda837580dd5844bf112ec44ae112b0448b1122444040ff983fe50ff903fe3))
  (.nd (.lf
  0xf0a43c7a119944395107383d550e27838860e1ec38850e1d037eb0e22838810e244388d0e23038d70e30c38af0e36438c20e2d438d80e29438830e1e438700df8037d70edb03b500ed303b4f0ed243b420ed843b5a0edd03b5f0ed703c390ee2c3b820f11c3ba30ee4c3c460ede03b530ed203b3b0eccc3b310f3703aa10ea6c3aa00ea583a820f2fc3aa40f3003cb9)
  (.lf 0)))

def aesXorOrder61 : BTree :=
  .nd (.nd (.nd (.lf
  0x100c03e90101804350105c043d0109c042a010980431010bc03f0010200437010b40436010c803ee035a0043b00f20040d01048040f010280d6a010d0043c010cc03fa00f7c03e600fbc0439010b0041101010041300cfc038400d80037900d7c037c00eac038d00ecc039d00e80039c00e9c03a500d98037e00eb403a300eb003a800d900d5600ec4033e00e0c0388)
  (.lf
  0x155ec5630158a8607c170c46086182005c2d16eb85c6c170bc5d07163745d111742c5bba163105bc016ee45b3216cc05b3b16c8c59f4167cc5a1f167e4690316854690d1a41c5a9b16a645aa41679c536314c2c53b914d6c53a214e8461e414e9c61d314d0462b118764538b14e14538a14d38509014238509913e744ff013fbc4ffd13fdc4fb813eb4512113f0c4fda))
  (.nd (.lf
  0x72c054f20656055690653c55000714c554f07b34611a07b78552c07aa4612f07ac0612307a74556707c44555e07bd0550d07b08554b05f80551b05f94553306618559d05f5c54f6065cc556805fbc550a05fa854e106670554c0687c551906890553006b88559506858165b1560c1a2e1542c1a29153781ae81940464d41899c626d18a5c6513194d06281193e864e8)
  (.lf
  0x17ce81cf4073781c7d0717c1b840657c1948176e01ce8073701cc2071d41c5d06dfc195e1764c1ce60732c1cba071cc1c61178481f4f07ce41f1c07bb41ee907b9c1ee3175e01fa307d0c1f3707c7c1f1b07c5c1f161770421fa07d041f0207b1c1ec617f201fa0069d01a5e06900199505fd817f3177881f9b069a01a5c068d81993065e017f5177481fd4069981a4b)))
  (.nd (.nd (.lf
  0x24b00f6d02558095e02554091c02404090802444095b0253809330249809350cd7833a90ce14339e0ce1033a10cf4033b20cf6433c20cf1433c10cf3033ca0ce2c33a30cf4833c80cf4433cd0ce2434860cf5828340cea033ad0cea833a50d22c33cf0cf6033ce0ce54337c0ce04338a0cf5033c70ceb0339f0ceb8393c0e62039640e5f439630e60039af0e64439b7)
  (.lf
  0x19cd066f819bbc66e519b70664919390628918a186283189fc627b14fbc53c314ef0536414d78535518bbc62ba18ac061d61875453421506c539514e48538814e04537f166e459b216618597d165dc5975147d05138144b8512614474511c145a8511513f704fcb13ee84fb7139104e11135ac4d63135704d59137644daf136704d90136184c5514a6c526e1496c524c))
  (.nd (.lf
  0x12bcc4b0712c184b0d12c284b0912d944b2f12cb04b6a12d444b3112d984b1d12bf44af4126044ae9123b818790619018590617c18560615018680619c186e061ac186a06590189006234196a062c8189206598187e0617818550613018480610c20d3082f820b8082ec20af0828020c20830420c80831420c4084b020ea0839c212e0843020ec084b420d8082d020b0)
  (.lf 0)))

def aesXorOrder62 : BTree :=
  .nd (.nd (.nd (.lf
  0x1900a760018c1122001880a8c001840a8300180005f00178005d00170005b00168005901c4400580015c00560015400540014c00520014400500013c004e00134004c0012c004a0012400480011c00460011400440010c0042001040040000fc003e000f4003c000ec003a000e40713000e00037000d80035000d00033000c80031000c0002f000b8002d000b0002b)
  (.lf
  0x11cc4497d10564533f14c304e0d14ce052d9137b44d0012fb84bec134a04be412f8836aa0d1c0335214c0052ee141b452e3141c835ea0c82c320a0d27832080c81c34d810da83910119504264107544ab90fd703c940e47439190e45c3f720b9b42e220b33830300b32c499f10fd043ea10f9c43c310ed043ae0ba382cc60b8d82bd3166e859a6166645a0c147fc4cf7))
  (.nd (.lf
  0x1f3d87cd21f3ac7cd11f3b87d221f3fc7d2d1f4507d171f44c7d1e1f4707d231f3607cf01f4987d1a1f4947d1f1f3587d101f4a87cb81f3d47cfa1f3dc7cf21f4bc7d211f4ac7d201f3887cc71f3387cd71f4a07d191f3e47cec1f3ec61e01888061fc1885461fb18860624c188a46269188f86241188f4624818918624d18808621a1896062441895c624918800623a)
  (.lf
  0x1d56875511d53c76cb1d624757b1d47075101edec7b691d5a875261d42474fa1edf47b6e1ed8c757d1d5a47b8b1ee0875731d4a475271d9b076441d8d875371d45474f11d9a076541d93c76251d60c767f1d938758a1d4d875351bb0c6e2d1b8946d581b5506d531bb146eb21ba9c6e1f1b4fc6ed11baec6ea81b8806d311ba0c6e401b8cc6d481b4986d251b9c06e50)))
  (.nd (.nd (.lf
  0x8c44230c09030233608cf8233508bf022e108ba022f108cec232e08c4c230608c542ab90abd42ad10aba82ad00abb42b1c0abf82b240ac382b110ac342b180ac582ad70abbc2b1e0ac502b1d0ac642ad50aeb02b220aae02af40abe42af60abc42bb00ac6c2b230ac682ae10ab182acd0ab582b200ac4c2af80abac2afa109ec42b910a5442ae10a5042b110b8042c2)
  (.lf
  0x6de45d9707c801efd07b981ed4177cc21e807bec5dad07c181efa1786c1fa9068f4197905fd05d9f07f841977177941f9d066485e2406bd01adc06b401ab6177a81ba906b685dbd06bb81ac309ea811e5044100aa002a28110a04408110109e38113602a782839049f80b8302db80b61049480da202db0278004a3c0b6b09c5c0e13038340bf4023500f9f038240e08))
  (.nd (.lf
  0x21e5883d722bc081e321ed887982285483272028889df22774831e228c88d6e2293083c91e59c79561e524794e1e52079441e5c4795f1e63879771e5d079951e634798a1ed7079b31e6c879971e5fc795d1e548794c1e514793e1ec1c7aeb1eb887aea1eb8c7ad31ebe87ae91ec047af81ebd47b2a1ec5c7b141ed587b3b1ecc07b241ec347af31eb907ace1eb307ac6)
  (.lf 0)))

def aesXorOrder63 : BTree :=
  .nd (.nd (.nd (.lf
  0x203447e6c20474811f2045880f02040c76401d9ac76521d96c76481d97c76ab1d9f876b01d9e476771da5c769c1da4076ac1d94c767b1da6c76931da4876911d92476a41dab875841d9c476741da0c76801daa876a81da7c76961d99c76431d8f8764a1da64769a1da2c766d1da1474c91d1987ab71fc407f2e1f5687d981b61c6e621b9286e541b9186e5d1ba386e82)
  (.lf
  0x1ab286ab91a1486bde1aaa4685d1aad46aa519b686b111ab206bd61aad86ae11aa6068551a13468401a17c685b1aa9c6aa21a1606aaf1f2986af61a15865b51ab106981173a4571d1735c5710173a8572315c6c6988173b069b41a6085ce317358729e1a648698a1a66c69801a82c69a91a67c698e1a634697c1a6f072a2173bc69dd183f060f918cd0610f183a86335))
  (.nd (.lf
  0x1c2e0207606e6c6d34070901b711b6641c2906e086d7a072341c851b4401c1b06da06d05072e01cb51b5041c3106df46d59070bc1b771b5841c860715c6d2f07b541ed21efbc1eee07bac6cfd08ac421f21f0101eb907ad87bf808a6421e61b5101f9307e486d6907c0c1ef91b46422c9087e06d36089f01fa71b60c227f07e786d090904c1fc71b448227607e506d1c)
  (.lf 0))) (.nd (.nd (.lf
  0x636819240645c18fc063bc18fe0e9a83bed0ef143be20ef343be50f0643bf60f0943c0b0f0383c0a0f0543c130f0683bc80ef9c3c1d0f0443c1c0f0583bcf0f01c3c210eef43bec0efc43bee0efa43c2a0f0603c220f05c3bd90e9cc3a770ef403c1f0f0403bf00ef8c3bf213fcc503914054502e140505031141945042141cc505714168505614184505f14198501b)
  (.lf
  0x25800910021000ce002e00092002300080033500cb9032b40cac032700c95033580cca032a80ca5032600ce2033300ca6032800c94031240c2e030880c21030440c0a0312c0c3f0307c0c1a030340c57031040c1b030540c092125884712118c842c210148404237088d9c236508d8d235e48a5c033a40cc4032cc0ca8032900c9d22d7c8b0222bdc8aba22ae08a9a))
  (.nd (.lf
  0x114f8461a11598454311864452f1143c4506113ec43d610ea81b2f06c681b0f06c541b0c06c281b1e06c741b2406c841b20071101b4606d0c1c4606db01b48071141b3406c501b0b06c001afc06bcc582f16068580f16054580c16028581e1607458241608458201623c58461610c5891161c0584816240583416050580b1600857fe15fe40bb002e6c0b9002e580b8d)
  (.lf 0)))

/-- The XOR gates in the order in which they are packed: 18 bits each, 64 per leaf. -/
def aesXorOrder : BTree :=
  .nd (.nd (.nd (.nd (.nd (.nd (aesXorOrder0) (aesXorOrder1)) (.nd (aesXorOrder2) (aesXorOrder3))) (.nd (.nd (aesXorOrder4) (aesXorOrder5)) (.nd (aesXorOrder6)
  (aesXorOrder7)))) (.nd (.nd (.nd (aesXorOrder8) (aesXorOrder9)) (.nd (aesXorOrder10) (aesXorOrder11))) (.nd (.nd (aesXorOrder12) (aesXorOrder13)) (.nd
  (aesXorOrder14) (aesXorOrder15))))) (.nd (.nd (.nd (.nd (aesXorOrder16) (aesXorOrder17)) (.nd (aesXorOrder18) (aesXorOrder19))) (.nd (.nd (aesXorOrder20)
  (aesXorOrder21)) (.nd (aesXorOrder22) (aesXorOrder23)))) (.nd (.nd (.nd (aesXorOrder24) (aesXorOrder25)) (.nd (aesXorOrder26) (aesXorOrder27))) (.nd (.nd
  (aesXorOrder28) (aesXorOrder29)) (.nd (aesXorOrder30) (aesXorOrder31)))))) (.nd (.nd (.nd (.nd (.nd (aesXorOrder32) (aesXorOrder33)) (.nd (aesXorOrder34)
  (aesXorOrder35))) (.nd (.nd (aesXorOrder36) (aesXorOrder37)) (.nd (aesXorOrder38) (aesXorOrder39)))) (.nd (.nd (.nd (aesXorOrder40) (aesXorOrder41)) (.nd
  (aesXorOrder42) (aesXorOrder43))) (.nd (.nd (aesXorOrder44) (aesXorOrder45)) (.nd (aesXorOrder46) (aesXorOrder47))))) (.nd (.nd (.nd (.nd (aesXorOrder48)
  (aesXorOrder49)) (.nd (aesXorOrder50) (aesXorOrder51))) (.nd (.nd (aesXorOrder52) (aesXorOrder53)) (.nd (aesXorOrder54) (aesXorOrder55)))) (.nd (.nd (.nd
  (aesXorOrder56) (aesXorOrder57)) (.nd (aesXorOrder58) (aesXorOrder59))) (.nd (.nd (aesXorOrder60) (aesXorOrder61)) (.nd (aesXorOrder62) (aesXorOrder63))))))

def aesAndReads0 : BTree :=
  .nd (.nd (.nd (.lf
  0x10cb442b911cd445531298449ed1303c4b3b0a1c422330981c258b0b14c2bdf0850420cd0a644223b0b7d42d810ad442add0c80c318f0f3bc3c7b0bd742ee90cf6c32fb0c444309d0e80c398f0fae43e450d40c32f50d9f435bb0914c220b05dfc170b0728c1c2f04e0c130708d2c221f09c7c26a307f441f5d0784c1d9f0526c141f0364c0d170449c10ab0585c159b)
  (.lf
  0xda0c35a60da6435ba0da5435ff0da9c36080da8c35a70da5c36020d9e435fe0d9ec36030da4c36210da24360b0da1436090da2c36130da0436050d8e036390d968363e0d8fc36a60da1036660d934364c0da60367c0d96c36960d9e836670da8836820db5836920dab036880da6836800da5036780dac0368a2c2c4b0122c26cafe22c2b4b00a2c37cb0202c20cafe6))
  (.nd (.lf
  0x2cb5cb2232ca2cb2022ca349a952cac4b2182cb54b2222cabcb2192cb1cb22d2ca4cb2092c9e4b2032ca84b2132c9ccb21b2c8d0b2352c990b24a2c92cb28a2c9e0b2682c97cb25e2ca08b2802c994b2b02cab8b2692ca30b2742cb18b2c02ca50b2922ca10b2722cb58b2d42caa8b2a025d84959625d3c959a25d64958025cec95a625d0496be25c4496ee25c4c9385)
  (.lf
  0x683c196c068e41982067941968067ec1962067dc195d06824196a068141969067e419600676c195c067741961067d41983067ac196d0679c196b067b419750678c196506668199b066f019a0066841a080679819c8066bc19ae067e819de066f419f80677019c90681019e4068e019f40683819ea067f019e2067d819da0684819ec45a651538459cd16024594d1608)))
  (.nd (.nd (.lf
  0x2716c9acc2731498c92726c9aca271ec9ac02724c9acb272649ad3272bc9c27272ac9acd272449acf2725c9c21271189c47271b89c4c271349caa271f89c5a271749c5c272509c6a271bc9c9a272489c7f273109c9c273c89c98272b89c6c272d89c96272d09c7a273209c9026fbc9b2226e549b0a26f249b2426edc9b4426e749af426e1c9b5826e249b3126e949b0e)
  (.lf
  0x3e264f8103e29cf7e63e47cf8043e1bcf8473e204f82a3e2acf7e73e28cf81c3e1b4f8463e3fcf81d3e26cf8113e2dcf8353e224f82b3e284f7ff3e36cf8213e150f8553e178f87a3e1ecf88c3e220f8803e164f8583e478f8703e17cf8fe3e288f88d3e2a8f8a63e268f8983e2d8f8b23e368f8ca3e1b8f86c3e280f89e44e4cfc3444d84fc3244de4fc624512cfc7a))
  (.nd (.lf
  0x15c4c530e15c3c567915c84568615c74568515c44567c15bcc567815bd4567d15c34569b15c0c568915bfc568715c1452f315bec568115ac856b315b5056b815ae4572015bf856e015b1c56c615c4856f615b54571015bd056e115c7056fc15d20570c15c98570215c5056fa15c3856f215ca8570418e4462b218dec62e818e3462ee18ebc630018d8c62c618de462b0)
  (.lf 0)))

def aesAndReads1 : BTree :=
  .nd (.nd (.nd (.lf
  0x131c05080139804d30146004ee0152805040148804f60144004ec0141804e40149804f801034036e00fdc035e010240366010ac037c00f7c036200fd4035c00fc403570100c036400ffc036300fcc035a00f54035600f5c035b00fbc037d00f94036700f84036500f9c036f00f74035f00e50039500ed8039a00e6c040200f8003c200ea403a800fd003d800edc03f2)
  (.lf
  0x3c10cf0843c1d8f05c3c134f04c3c2f8f0bc3c14cf06a3c1a0f05d3c248f0743c1e8f0723c2b8f0a63c258f0803c368f0c63c280f08a3dd1ceada3de6ceafc3dc9ceab03dd3cf6d43dcf4eae83dcbcf6ca3dcacea593dbfceae03dd04eae93dcb4eae43dc54ea583dc6ceae53dd34f6d53dca4eab13dc04eae13dd6ceadb3dd5ceafd3dba8f6eb3dc38f6f03dbc4f732))
  (.nd (.lf
  0x43dc10f604508112604414114004490111104530112c04600113c04558113204510112a044f8112204568113409d4c26b409cf426a409d3c26ac09e0426c209c9426a809cec26a209cdc269d09d2426aa09d1426a909ce426a009c6c269c09c7426a109cd426c309cac26ad09c9c26ab09cb426b509c8c26a509b6826db09bf026e009b84274809c98270809bbc26ee)
  (.lf 0))) (.nd (.nd (.lf
  0x3cb24f2d83cb58f2ed3cc58f3083dad8f2fc3cd88f3363cc10f3023cb70f2da3cca0f3263cbd0f2de3d8fcf5a43d884f57e3d974f58a3d944f59a3d89cf5c23d7fcf5de3d84cf5913d81cf5bc3d8acf5c33d914f5c03d94cf5903d90cf5c13d8e4f59b3d97cf58b3d814f5bd3d91cf5a53d88cf57f3d728f5cb3d830f5e83d7a4f6163d818f6043d7dcf5f63d820f5fe)
  (.lf
  0x32f98cbca32f2ccc3c33048cbf232f64cbd8330a8cc0832f9ccc2833018cbf3330e0cc0e331c0cc2433108cc16330c0cc0c33098cc0433118cc18325b4c8c43255cc8b6325a4c8bc32644c8d2324d4c87a32544c87832534c8b13258cc8ba3257cc87b3253cc8b4324acc8b0324b4c8b53252cc8d3324f4c8bd324e4c8bb324fcc8c5324ccc8b7323a8c8eb32430c8f0))
  (.nd (.lf
  0x1cca0730a1cbc472f01ccf073201cbfc733a1cc78730b1cd1873261ce0073361cd40732c1ccf873241cce0731c1cd50732e23c8c8c8a23c348d3823c7c8d3c23d0c8d4a23bd48e9823c2c8e8c23c1c8d3523c648e9c23c548e9923c248e8623bac8d3423bb48e8723c148d4b23bec8d3d23bdc8e9d23bf48c8b23bcc8d3923aa88eab23b308eb023ac48f1823bd88ed8)
  (.lf 0)))

def aesAndReads2 : BTree :=
  .nd (.nd (.nd (.lf
  0x44a9511f244ad511c044a15121844b4d121c44afd123c44bfd122a44ab511fd4499d122444af5123d44aa5124244b8511fc44a45124344b55121d44a0d121944995122544a8511f344add11c144969125b44a21125e4497d1296449991264449e5127844c1112fe44a2512a844a41129744af912bc44b5112d244a11128244ad912b444b8112ac44a9112a0460dd17a8)
  (.lf
  0x282f0a090282a8a08628280a07e28300a0922e0a4b1a62e04cb16a2e094b19e2e134b1ae2dfc4b7942e034b7882e024b19b2e07cb7982e06cb7952e02cb7822df9cb19a2dfa4b7832e01cb1af2dfe4b19f2dfd4b7992dfecb1a72dfbcb16b2de98b7a72df20b7ac2deb4b81e2dfd0b7d42deecb7ba2e030b7ea2df24b80a2dfa0b7d52e068b7f02e130b8062e090b7f8))
  (.nd (.lf
  0x1b1a06c4c1b2106c5e17d145ea617cbc5e9e17d045ce617d8c5eb417c5c5ea217cb45e9c17ca45c9717cec5ea417cdc5ea317cac5e9a17c345c9617c3c5e9b17c9c5eb517c745ce717c645ea517c7c5ea717c545e9f17b305ecd17bb85ed217b4c5f3a17c605efa17b845ee017cb05f1017bbc5f2a17c385efb17cd85f1617d885f2617d005f1c17cb85f1417ca05f0c)
  (.lf 0))) (.nd (.nd (.lf
  0x378f8dcfa389dce1b43891ce1a438864e178388dce1c43893ce1d438834e1aa3889ce18f387f4e1c63894ce1d538884e1bc388fce18e3888ce1bd388d4e1c5388e4e179387ece1c73899ce1b53895ce1a5387a8e1eb38848e1f0387c4e228387f0e1fa3880ce20238840e20c3884ce22238880e22938948e24e388d8e234388e0e21838958e246388f8e226389d8e266)
  (.lf
  0x34c20d2b234b40d2a434af8d29a34ad0d29234b50d2a62eb74ba342eb1cba022eb64ba2c2ed14ba422ea94b9f02eb04ba2a2eaf4ba252eb4cba062eb3cb9f12eafcba282ea6cba242ea74ba292eaecba432eab4ba2d2eaa4ba072eabcba352ea8cba032e968ba5b2e9f0ba602e984bad22eaa0ba882e9bcba6e2eb00ba9e2e9f4babe2ea70ba892eb38baa42ed10baba))
  (.nd (.lf
  0x2235088ba2233888b2223a888c41f8ec7b201f8947d901f8dc7d981f9647daa1f8347d941f88c7d2c1f87c7d891f8c47d961f8b47d951f8847d8c1f80c7d881f8147d8d1f8747dab1f84c7d991f83c7d971f8547b211f82c7d911f7087dc31f7907dc81f7247e301f8387df01f75c7dd61f8887e061f7947e201f8107df11f8b07e0c1f9607e1c1f8d87e121f8907e0a)
  (.lf 0)))

def aesAndReads3 : BTree :=
  .nd (.nd (.nd (.lf
  0x16df45a0716e7c59df16c685b1b16d085b1e16c7c5b7216d685b5816c8c5b2216ca85b2816d0c5b5016d385b7316ea05ba416e185b8416cf05b3a16e785b9016d485b4816df05b7a032940c060323c0bf6032840bfe0330c0c14031dc0bfa032340bf4032240bef0326c0bfc0325c0bfb0322c0bf2031b40bee031bc0bf30321c0c15031f40bff031e40bfd031fc0c07)
  (.lf
  0x361acd7f736224d811361ecd651361dcd801361f4d803361c4d7fb360a0d82936128d82e360bcd8a0361d8d856360f4d83c36238d86c3612cd88c361a8d85736270d87236338d88836298d87a36250d87036228d868362a8d87c3af2ceb663af5ceb383b014eb3a3aefceb423af74e94a3ae4ce9443aec4eb553ae7ceb3c3af44e94b3afcceb503aebceb543b0c4eb51))
  (.nd (.lf
  0x2163c85112162c84eb2164485192161c84e7214f8853f2158085442151485ac21628856c2154c855221678858221584859c21600856d216a08588217888598216c8858e21680858621668857e216d8859025a0c95e4259b495dc259fc930425a8495f22595495e0259ac95da2599c91e3259e495e2259d495e1259a495d82592c91e22593495d92599495f32596c9305)
  (.lf 0))) (.nd (.nd (.lf
  0xefdc394f0eff43b830efc4394b0eea03ba90ef283bae0eebc3c200efd83bd60eef43bbc0f0383bec0ef2c3c0c0efa83bd70f0703bf20f1383c080f0983bfa0f0503bf00f0283be80f0a83bfc10dac42c210d54428610d9c42ba10e3c42d010ccc425610d3c42b810d2c42b310d84429010d74425710d3442b610ca442b210cac42b710d2442d110cec42bb10cdc4291)
  (.lf
  0x31134c3d23113cc3d7311b4c3f53117cc3df3116cc3dd31184c3e731154c3d931030c40d310b8c4123104cc48431168c43a31084c420311c8c450310bcc47031138c43b31200c45631490c46c31228c45e311e0c454311b8c44c31238c4602d804b4042d7acb4002d7f4b5542d8d4b5662d724b5502d794b54e2d784b3992d7dcb5522d7ccb5512d78cb54a2d6fcb398))
  (.nd (.lf
  0x193c4647f1939c64691938c6467193a464711937c6463192586497192e0649c1927465041938864c4192ac64aa193d864da192e464f41936064c51940064e0194c864f01942864e6193e064de193c864d61943864e8240fc8cea240a48f94240ec8f9c241848fae240448f982409c8cba2408c8f8d240d48f9a240c48f99240948f902401c8f8c240248f91240848faf)
  (.lf 0)))

def aesAndReads4 : BTree :=
  .nd (.nd (.nd (.lf
  0x435650d08434f50ce4435ed0b8d435150cf4435550d09435dd0d0e435f50b8c435d50d0f436250cfb4357d0b9f4351d0cf54368d0cf1435a50cdf434890d23434e10d3e434fd0d46435110d424349d0d26434f10d34434e50d76435d10d43435610d54436290d88435810d5e435a10d66435f10d7a436c90da24744d1c32475a51c48473c51c38474a51c744751d0b5a)
  (.lf
  0xf4b43c840f45c39520f4a43c7c0f6443c920f3d432c60f4443c7a0f4343c750f48c39060f47c32c70f43c3c780f3ac3c740f3b43c790f42c3c930f3f43c7d0f3e439070f3fc3c850f3cc39530f2a83cab0f3303cb00f2c43d220f3e03cd80f2fc3cbe0f4403cee0f3343d0e0f3b03cd90f4783cf40f6403d0a0f4a03cfc0f4583cf20f4303cea0f4b03cfe198245c10))
  (.nd (.lf
  0x200947f822011c7f981ffec7ee2200447ee0200347f772007c7f802006c7ee32003c7f7a1ffc47f761ffcc7f7b2002c7f99200047f831fff47f812000c7f8b1ffe47f7d1fec07fb11ff487fb61fedc801e1fff07fde1ff147fc4200407ff41ff4c800e1ffc87fdf200687ffa20118800a200908000200487ff8200307ff0200a08002205947ef62053c80ba2058480c2)
  (.lf
  0x23bbc8e8d2439c9085237fc8d872402c8cbb20bf47a8d1ef647b771f2f47c5b1f81c7d2d208347f19204c47f3b277549d591ffd47ee1229cc87b3222dc879b22dc487c92256c87851c6646da71bd046da11c1cc6d8d1b92c6d6b1db8474391dfac77891e65c753b1d804755917fdc5f83183d460811789c5db317c445e9d2160c850f1b1446bef1ad9c6b052117c6ae5)))
  (.nd (.nd (.lf
  0x31794c5523189cc546316fcc3b4317b4c57f31694c56a31894c5473174cc564317acc57e31754c5653178cc553316dcc5593169cc56b31774c3af31874c55f31648c59331710c59831664c5c831698c5a4316bcc5ae31700c5be31714c5d431748c5c931898c62431790c5e2316e0c5b631878c61c317b0c5ea31770c5da2a304a7002a10ca6fc2a344a75a2a14ca720)
  (.lf
  0x335b8cd40341cccf6834174cfbe341bccfc634274cfd8340eccfc23415ccf663414ccfb7341a4cfc434194cfc334154cfba340c4cfb6340cccfbb34144cfd93410ccfc7340fccfc534114cf69340e4cfbf33fc0cff134048cff633fdcd068340f8d01e34014d00434158d0343404cd054340c8d01f34190d03a34270d050341b8d04234170d03834148d030341c8d044))
  (.nd (.lf
  0xa23c27f80a28427fe0a32c28140a1dc1eb40a23422320a22427f30a26c27fc0a25c1eb50a22c27f60a1b427f20a1bc27f70a21c28150a1f427ff0a1e427fd0a1fc28070a1d427f90a0b0282d0a13828320a0cc289a0a1e0285a0a10428400a23028700a13c288a0a1b8285b0a25828760a32828860a280287c0a23828740a220286c0a290287e0d03c33700cfe43362)
  (.lf 0)))

def aesAndReads5 : BTree :=
  .nd (.nd (.nd (.lf
  0x23fc096602510092602434090c02560093c0246c0956024e80927025880942026380952025b00948025680940025500938025c0094a0218407c20212c07b20217407ba021fc07d0020cc07b60212407b00211407ab0215c07b80214c07b70211c07ae020a407aa020ac07af0210c07d1020e407bb020d407b9020ec07c3020c407b301fa007e90202807ee01fbc0856)
  (.lf
  0x400e4ff9140094ffc73ff78ffdf3ffd100064001d003040051000c3ff94ffe43ffc0ffee3ffd5007e401f1000d401a1002840159005040071001a40091002240000fffe4011900383b79ceb0c3b6d4eaa03b72cea343b764eac43b68ceaf83b704eab83b6aced673b624eabe3b684eaf93b6c4eb183b6a4ed663b6bceb193b76ceac53b734ea353b61ceabf3b7aceb0d))
  (.nd (.lf
  0x1ac886b231ad106b281aca46b901adb86b501acdc6b361ae086b661ad146b801ad906b511ae306b6c1aef06b7c1ae586b721ae106b6a1adf86b621ae686b7422e9487ca22e3c8afa22e848b0222f148b1422ddc8afe22e3487c822e248af322e6c8b0022e5c8aff22e2c8af622db48af222dbc8af722e1c8b1522df48b0322de48b0122dfc87cb22dd48afb22cb08b2d)
  (.lf 0))) (.nd (.nd (.lf
  0x128f84a221288c4a94129a84a4a128c44a3012a084a60128fc4a80129784a4b12a404a6612b084a7c12a684a6e12a204a64129f84a5c12a784a701024c3fea101f43fb01023c3fe2102dc3ff81016c3f5a101dc3fe0101cc3fdb102243fb8102143f5b101d43fde101443fda1014c3fdf101c43ff91018c3fe31017c3fb9101943feb101643fb1100404011100c84016)
  (.lf
  0x2b39cab052b3b4ac732b384aab12b260ac992b2e8ac9e2b27cad102b398acc62b2b4acac2b3f8acdc2b2ecacfc2b368acc72b430ace22b4f8acf82b458acea2b410ace02b3e8acd82b468acec2b024aaf22afccab562b014ab5c2b10cab6e2af44aaf02afb4aaee2afa4ab4f2affcab5a2afecaaf12afacab522af1cab4e2af24ab532af9cab6f2af64ab5d2af54ab5b))
  (.nd (.lf
  0xd41c348b0d2f834bf0d38034c40d314352c0d42834ec0d34c34d20d47835020d384351c0d40034ed0d4a035080d57035180d4c8350e0d48035060d46834fe0d4d835100eca43a8a0ec4c39400ec943a820ed1c3a980ebec370e0ec443a800ec343a7b0ec7c39420ec6c370f0ec3c3a7e0ebc43a7a0ebcc3a7f0ec2c3a990ec043a830ebf439430ec0c3a8b0ebe43941)
  (.lf 0)))

def aesAndReads6 : BTree :=
  .nd (.nd (.nd (.lf
  0x463b918ec464191904464c9190c464d1191445cd5150a45c0d15144577514fe45d5d153e45c2514da4557d14ce45c6d14f74574d152245c1d14db45c5514ee45c6514f645c4d14ef45d55153f4577d14ff45745152345ca5150b45c75151545481152145bd915c84572516fa4574915d045565155845581155e45bdd171445c4916fb45c21170645d5917544577915dc)
  (.lf
  0x51e414b40526014850530014a0053f014b00532814a6052e0149e052c814960533814a804edc131804e84130804ecc131004f54132604e24130c04e7c130604e6c130104eb4130e04ea4130d04e74130404dfc130004e04130504e64132704e3c131104e2c130f04e44131904e1c130904cf8133f04d80134404d1413ac04e28136c04d4c135204e78138204d84139c))
  (.nd (.lf
  0x11d68473a11e18474a11d90474011d48473811d30473011da04742041240faa040cc0f9a041140fa2041a40fb80406c0f9e040c40f98040b40f93040fc0fa0040ec0f9f040bc0f96040440f920404c0f97040ac0fb9040840fa3040740fa10408c0fab040640f9b03f400fd103fc80fd603f5c103e040700ffe03f940fe4040c0101403fcc102e040480fff040e8101a)
  (.lf 0))) (.nd (.nd (.lf
  0x404b901284039100e2403c900f040519010440521011441c44fd5640654fd123f6ccfd2a41d44fd224062cfc1c3f66cfc2441d8cfd333f694fd824063cfc1d41c2cfd2e41d64fd3241c24fd2f41c74fd233f6d4fd2b3f6a4fd8341c9cfd574065cfd133f5b8fd6f405f8fda03f68501823f6a0fda43f644fd903f668fd96405fd070a41c21018340639018a41d41071c)
  (.lf
  0x35d60d73635c54d75635cd0d72135d98d73c35e60d75235dc0d74435d78d73a35d50d73235dd0d7463a1fce7d63a1a4e7ce3a1ece7463a2d4e7e43a11ce7d23a18ce7cc3a17ce6eb3a1d4e7d43a1c4e7d33a184e7ca3a0f4e6ea3a0fce7cb3a174e7e53a13ce7473a12ce7d53a144e7d73a114e7cf39ff0e7fd3a078e8023a00ce8743a128e82a3a044e8103a188e840))
  (.nd (.lf
  0x188f8622b18998624618a506256189c0624c18978624418960623c189d0624e2124c83f4211f483e62123c83ec212fc8402211946cbe211ec6ae4211dc83e12122483ea212146cbf211e483e42116c83e02117483e5211d48403211ac83ed2119c83eb211b483f52118c83e721068841b210f08420210848488211988448210bc842e211e8845e210f48478211708449)
  (.lf 0)))

def aesAndReads7 : BTree :=
  .nd (.nd (.nd (.lf
  0x1c5c46fd51c63470fb1c4e470e71c49470e51c60c6da91c56c70db1c3e070f91c4e871161c45c71481c49871241c4a471281c6b071981c4ec71701c51871491c590715c1c63071681c4e071361c580715a1c5e8716e1c60871721dc4c74fc1dbf4767c1db5476881dd14769a1dbdc766c1db7c74381db9c76751dbb476861dbd4766d1dc2476821db9476741dc2c7683)
  (.lf
  0x28784a13c28774a13b28734a134286a49efc286aca13528724a151286eca13f286dca13d286f49f83286c49f7f285a0a16928628a16e285bca1e0286d8a196285f4a17c28738a1ac2862ca1cc286a8a19728770a1b228880a1c828798a1ba28750a1b028728a1a8287a8a1bc2f4d4bbe22f47cbc802f4c4bc882f564bc9a2f3f4bc842f464bc522f454bc792f4acbc86))
  (.nd (.lf
  0x238648d82237ec8d7e237f48d83238548da32382c8d912381c8d8f238348ce12380c8d89236e88dbb237708dc0237048e28238188de82373c8dce238688dfe237748e18237f08de9238908e04239608e14238b88e0a238708e02238588dfa238c88e0c0be442ef20bdec2eb20be342eea0bedc2f000bd8c2a220bde42ee80bdd42ee30be1c2eb80be0c2a230bddc2ee6)
  (.lf 0))) (.nd (.nd (.lf
  0x727c1c28072841c2d072fc1c47072c41c31072b41bfb072cc1c390729c1c03071781c5f072001c64071941cd6072b01c8c071cc1c72073101ca2072041cc2072801c8d073481ca8074b01cbe073701cb0073281ca6073001c9e073801cb20924423e8091ec23da0923423e0093b423f609164155e091d4220a091c423d50921c23de0920c155f091cc23d80913c23d4)
  (.lf
  0x2dc3cb64d2dc94b6802dc84b67f2dc44b6782dbb4b64c2dbbcb6792dc34b6952dbfcb6832dbecb6812dc04b6532dbd4b64f2dab0b6ad2db38b6b22daccb7242dbe8b6da2db04b6c02dc48b6f02db3cb7102dbb8b6db2dc80b6f62dd48b70c2dca8b6fe2dc60b6f42dc38b6ec2dcb8b7003071cc11e306c4c0ee3070cc1163080cc12c3063cc0dc306acc1143069cc10f))
  (.nd (.lf
  0x113043f6b112d444201125c441c112644421112c4443f1129c44291128c4427112a444311127c4423111584457111e0445c1117444c4112884484111ac446a112d8449a111e444b41126044851130044a0113b844b01132844a6112e0449e112c844961133844a81a2e4681a1a28c680c1a2d468121a35c68281a22c50601a284505e1a27468071a2bc68101a2ac5061)
  (.lf 0)))

def aesAndReads8 : BTree :=
  .nd (.nd (.nd (.lf
  0x477651ca9476d51c70477a51c6b4775d1caa477351ca8477551cab477c51d934780d1caf4776d1c71478351c9f478cd1c67473091cc3477011daa476ad1dde477691db4476dd1db6477191dc4477051dd6477511ddf477c91de8477d91df0478091e00478f91e32477611dcc478391e0c431c50bc8432250bcc431950bfc431350be24310d0b4a432950bb64315d0bd1)
  (.lf
  0x1809c5d04181245f9a17ff45f881804c5f821803c5cc5180845f8a180745f89180445f8017fcc5cc417fd45f81180345f9b1800c5d0517ffc5f8b180145f8d17fec5f8517ec85fb317f505fb817ee4602017ff85fe017f1c5fc6180485ff617f54601017fd05fe1180705ffc18120600c180986002180505ffa180385ff2180a8600422a9c8a0822a4489fa22a8c8a00))
  (.nd (.lf
  0x1ef7c7b821efd47b761efc47b431f00c7b861effc7b831efcc7b701ef547b421ef5c7b711efbc7b591ef947b4b1ef847b871ef9c7a651ef747b471ee507b951eed87b9a1ee6c7c021ef807bc21eea47ba81efd07bd81eedc7bf21ef587bc31eff87bde1f0a87bee1f0207be41efd87bdc1efc07bd41f0307be62a664a9222a5c4a4842a634a4882a67ca9122a5e49a88)
  (.lf
  0x425b5080e4255d08c4425a508ca4263508dc424fd08644255508624254508bd4258d08c84257d08654254d08c0424d508bc424dd08c14253d08dd4251508cb4250508c94251d080f424f508c5423d108f54245908fb423e909624250109224242509084255109384245d0952424d9092342579093e42631094e425a1094442559093c425410934425b1094646e7d1af4)))
  (.nd (.nd (.lf
  0x2911c9f8828e94a25f28e14a24e28ec49f6528eeca25428e8ca25e28e7ca2552901ca26b28e3ca24528f04a24f28f3ca23d28edca25b28d00a34128e58a38028e04a3c028ea8a38428d14a34429118a39428e5ca3ba28e78a3ab28ef0a3b029038a40628e40a38e28ed8a3b428e90a3a228f48a3ce28b449f7628b949f4a28a7c9fa428b6c9fbc28c1c9f9c28a8c9fc2)
  (.lf
  0x3f70cfaea3ee04fac03f7e4fafe3f71cfa803ed5cfb383edacfa8d3ed2cf95e3f714fa813ed9cfa923edb4fa8c3ed94fa933f79cfaff3edfcfac13ed34f95f3f764fac33f72cfaeb3ec50fb153ed68fb403ed04fdba3ed30fb4a3ed44fb503ed58fb543ed6cfb663ed90fdbb3f718fdc43f7e0fde63ee00fb7e3f728fdc23edb0fb6a3f7c8fdd83930ce3e4392b4e40e))
  (.nd (.lf
  0xe95439a60e82432c00e87c398e0e86c39890e8b438f20e8a432c10e874398c0e7fc39880e804398d0e86439a70e83c39910e82c38f30e84439990e81c38ef0e6f839bf0e78039c40e7143a2c0e82839ec0e74c39d20e8783a020e7843a1c0e80039ed0e8a03a080e9503a180e8c83a0e0e8803a060e86839fe0e8d83a101259448c61253c485e1258448be1260c48d4)
  (.lf 0)))

def aesAndReads9 : BTree :=
  .nd (.nd (.nd (.lf
  0x1ba406e801cd0071801bdc073201c58070301cf8071e01da8072e01d20072401cd8071c01cc0071401d300726018f4059e0189c058e018e405960196c05ac0183c059201894058c018840587018cc0594018bc05930188c058a0181405860181c058b0187c05ad0185405970184405950185c059f01834058f0171005c50179805ca0172c06320184005f20176405d8)
  (.lf
  0x3d208f4833d2d0f4d03d344f4da3d360f4d43d2acf4aa3d2c0f4ae3d2d4f4ca3d320f4db3d388f4e03d4f0f53a3d3f0f4fa3d3b0f4e83d308f4be3d420f506144ac4ee8144544ee41449c4f301454c4f3e143cc50961443c508a1442c4e4314484509a144745097144345084143a44e42143ac5085144244f3f143ec4f31143dc509b143f44ee9143c44ee5142a050a9))
  (.nd (.lf
  0x1f1fc7ce61f3107ca61f2347c8c1f3607cbc1f26c7cd61f2e87ca71f3887cc21f4387cd21f3b07cc81f3687cc01f3507cb81f3c07cca251b493242515c9362251a493ca2522c93dc250fc93c62515493c42514493612518c93c82517c93c72514c93c0250d49360250dc93c12513c93dd2511493cb2510493c92511c9325250f4936324fd093f52505893fa24fec9462)
  (.lf 0))) (.nd (.nd (.lf
  0x8528212a0844421100858821400847c2160084f8212b085c0214608688215c085e8214e085a0214408578213c085f82150079441da8078ec1da0079341d74079e41db6078641da4078d41d9e078c41d5f0791c1da60790c1da5078cc1d9c0783c1d5e078441d9d078bc1db7078841d75078741da70788c1da90785c1da1077381dcf077c01dd4077541e46078701dfc)
  (.lf
  0x300bcbfb52ff98bfe730020bfec2ffb4c05e300d0c0142ffecbffa30130c02a30024c04a300a0c01530168c03030238c04630190c03830148c02e30120c026301a0c03a32cecca3232c94ca2e32cdcca8e32d7ccaa032c0cca8a32c7cca8832c6cc9b732cc4ca8c32cb4ca8b32c74ca8432be4c9b632becca8532c64caa132c2cca8f32c1cca8d32c34ca3332c04ca2f))
  (.nd (.lf
  0x49381232048cc129a049e0125a04904124004a3012700493c128a049b8125b04a58127604b10128604a80127c04a38127404a20126c04a90127e19e5c66ca19e0466ee19e4c66f419efc670619da4506e19dfc66c819dec66e719e3466f219e24506f19df466ea19d7c66e619d8466eb19de4670719dbc66f519dac66f319dc466cb19d9c66ef19c78671f19d006724)
  (.lf 0)))

def aesAndReads10 : BTree :=
  .nd (.nd (.nd (.lf
  0x468991a2446a411a604298d09fe42965087a42a6d09f0429b509dc429f508784291d09d4428f509c94293d088a429e508794290d09c4428ed09c84291509c5429ad09dd42a4509f142935088b4299d09ff4295d087b428510a15428990a18428650a50429390a4c4288d0a22429190a324289d0a44429090a51429f10a78429b10a6a42a690a90429610a56428f10a3a)
  (.lf
  0xc8a032080c99032180c8c8320e0c88032060c86831fe0c8d832101e0a474401e04c74de1e09474e21e1ac74f01dfc477941e03477881e02474db1e07c77981e06c77951e02c77821df9c74da1dfa477831e01c74f11dfe474e31dfd477991dfec74411dfbc74df1de9877a71df2077ac1deb4781e1dfd077d41deec77ba1e03077ea1df24780a1dfa077d51e06877f0))
  (.nd (.lf
  0x3cc80f0e03c800f0603c680efe03cd80f10165445226164ec527816534527c165bc528a1648c58c6164e458ba164d452751651c58ca1650c58c7164dc58b41646452741646c58b5164cc528b164a4527d1649458cb164ac52271648452791636058d9163e858de1637c5946164905906163b458ec164e0591c163ec5936164685907165085922165b85932165305928)
  (.lf 0))) (.nd (.nd (.lf
  0x4082901fa407c101dc4085902083b454ec623b3c4ec4c3b374ec743b464ec6a3b394eb163b2c4eca23b3ecec833b34cec483b39ceb173b414ec723b3e4ec823b40cec733b46cec6b3b37cec753b32cec493b434ec633b3acec4d3b238ec8f3b2f0ecc43b314ecd43b348ecca3b2b4ecac3b2d0ecb03b2f4ed043b408ecd53b398ece43b468ed183b378ecdc3b3c0ecea)
  (.lf
  0x38d28e33738df0e35238ec8e36838e18e35a38dd0e35038da8e34838e28e35c3702cdafe36fd4db563701cdb5e370bcdb7036f4cdb5a36fbcdabe36facdb4f37004db5c36ff4db5b36fb4db5236f24db4e36f2cdb5336fa4db7136f6cdb5f36f5cdb5d36f74daff36f44db5736e20db8936ea8db8e36e3cdc0036f58dbb636e74db9c36fb8dbcc36eacdbec36f28dbb7))
  (.nd (.lf
  0x18518610a1849061001844860f81843060f0184a061021b9fc6de01b9a46dd21b9ec6dd81ba7c6dee1b9446d6c1b99c6d6a1b98c6dcd1b9d46dd61b9c46d6d1b9946dd01b91c6dcc1b9246dd11b9846def1b95c6dd91b94c6dd71b9646de11b93c6dd31b8186e071b8a06e0c1b8346e741b9486e341b86c6e1a1b9986e4a1b8a46e641b9206e351b9c06e501ba786e60)
  (.lf 0)))

def aesAndReads11 : BTree :=
  .nd (.nd (.nd (.lf
  0x1e69475011e674753d1e71c74211e68c74a71d4e075391e630796e1e5bc79b41e67079901e60c79821e69879961e63479c01e6f879911e6a8799a1e77079d21e6d879a41e6a079a21e7c079ee1e75079c616a8c5a4016b6c5a3a16b9c580c16c445a5016ab45a26169c45a38169ec581716a3c5a3e16aa45a2716b645a3416b04581616b0c5a3516aec5a5116b4c580d)
  (.lf
  0x32084c79831ff4c74431ffcc79932074c75d3203cc74d3202cc7af32044c75532014c74931ef0c7bd31f78c7c231f0cc83432028c7ea31f44c7d032088c80031f7cc82031ff8c7eb320c0c80632188c81c320e8c80e320a0c80432078c7fc320f8c810366ccd5e036674d5dc366bcd90636764d918365ecd9023665cd9003664cd3ad366a4d90436694d90336654d8fc))
  (.nd (.lf
  0x118bc45b71191c45d5118f445bf118e445bd118fc45c7118d445b9117b045ed1183845f2117cc465a118e0461a1180446001193046301183c464a118b8461b11958463611a08464611980463c11938463411920462c11990463e158bc5590158645582158ac558815934559e1580452e61585c52e41584c557d1589455861588452e7158545580157dc557c157e45581)
  (.lf 0))) (.nd (.nd (.lf
  0x8d9c22ef08d6422d908d5422d708d6c22e108d3c22d308c18230708ca0230c08c34237e08d50233408c6c231a08db0234a08ca4236a08d20233508de8235008eb0236608e10235808dc8234e08da0234608e20235a0ae3c2ae60ade42aa00ae2c2ade0aecc2af40ad5c27d80adcc2adc0adbc2ad70ae142aaa0ae0427d90adc42ada0ad342ad60ad3c2adb0adb42af5)
  (.lf
  0x2b814ab1d2b7d4ad5c2b744ad582b74cad5d2b7c4ad792b78cad672b77cad652b794ab1f2b764ad612b640ad912b6c8ad962b65cae082b778adbe2b694ada42b7d8add42b6ccadf42b748adbf2b810adda2b8f8adf02b838ade22b7f0add82b7c8add02b848ade43e8ecf9923e894f9843e8dcf98a3e9c4f9a03e80cd7cc3e87cd7b83e86cf97f3e8c4f9883e8b4d7cd))
  (.nd (.lf
  0x13fdc4f7c13fe44f81140444f9f1401c4f8d1400c4f8b140244f1513ffc4f8513ed84fb713f604fbc13ef45024140084fe413f2c4fca140584ffa13f64501413fe04fe5140805000141305010140a85006140604ffe140484ff6140b85008154e452d01548c548e154d454961556454a81542c5492154845358154745487154bc5494154ac54931547c548a154045486)
  (.lf 0)))

def aesAndReads12 : BTree :=
  .nd (.nd (.nd (.lf
  0x4411d0fd2441450fe6440dd0fc24405d0fcc440850f874468d0fbc440cd0fc3442250fce4408d0f86440f50fcf4414d0fe7441150fd3440250fbd441ad0f774417d0f8f43f910fe5440690ffe43ffd11a2440b110084404510104409910164406d1088440f1102d440d9103244149105044119104444179105a440891020441b9106a4458d10e6444ad10b64459510b8)
  (.lf
  0x2fcb0bf0a2fd30bf1e37ba4d5e437bdcd68a37aecd68037c1cde7c37c84d41237b0cde7a37b54d67937bfcd69437d0cd41337b34d69837b44d67837b2cd69937bbcde7d37ae4d68137bd4d69537b94d5e537bccd68b37a68de9b37af0de9e37a7cdefe37bd0deda37ab4deac37b08dec037af4decc37b28dedb37d08df2037c18deee37ae8deb837bd8def237b50ded0))
  (.nd (.lf
  0x1bdd46da21bd7c6eca1bdc46ed21be4c6ee41bd1c6ece1bd746da01bd646ec31bdac6ed01bd9c6ecf1bd6c6ec61bcf46ec21bcfc6ec71bd5c6ee51bd346ed31bd246ed11bd3c6da31bd146ecb1bbf06efd1bc786f021bc0c6f6a1bd206f2a1bc446f101bd706f401bc7c6f5a1bcf86f2b1bd986f461be486f561bdc06f4c1bd786f441bd606f3c1bdd06f4e226248928)
  (.lf
  0x376f4dd5b372c4daeb3e1c4f80536f34dabf38844e1ab38d34e04b39214e3e338454e01b3ae54e9453babce9a13c2f4e9033a104e7cd361b4d7f93e7f4d7b93ed54fb3935cdcd6c3365d4d90135334d459397f4e55b37b04de7b32004c79f3451cd0e5340d4cf67324bcc8793389ccdc933024ca4b334c4ccbd32bf4ca892f3dcbc53300acbc412f7ecbbf32fc3cbc21)))
  (.nd (.nd (.lf
  0x33984cc903393ccc98339b4cdce33a3ccdd6338a4cdc8338bcce0733954cde033a2ccdd7338e4cde4338c4ce06338eccde5339cccdcf33944cc993395ccde1339d4cdbb3398ccc9133850ce1533880ce4033904ce5833958ce5433864ce18338a0ce2633884ce3a338e0ce5933a38ce8a339c8ce6c33940ce4e33988ce60338c0ce2e339d0ce7029f94a6be29f64a784)
  (.lf
  0x30c58c2f230c30c2ea30cb0c2fe2f8e4bd902f88cbd822f8d4bd882f97cbd9e2f804bc322f874bbf22f864bd7d2f8bcbd862f8acbc332f86cbd802f7dcbd7c2f7e4bd812f85cbd9f2f824bd892f814bd872f82cbd912f7fcbd832f6d8bdb72f760bdbc2f6f4be2e2f810bde42f72cbdca2f870bdfa2f764be1a2f7e0bde52f8a8be002f978be162f8d0be082f888bdfe))
  (.nd (.lf
  0x2446890f42553494ae254dc94a6255249330255ac94bc2547c94aa254d494a4254c491d52550c94ac254fc94ab254cc94a22545491d42545c94a3254bc94bd2549493312548494ad2549c94af2547494a72535094d5253d894da2536c9542254809502253a494e8254d09518253dc9532254589503254f8951e255a8952e255209524254d8951c254c09514255309526)
  (.lf 0)))

def aesAndReads13 : BTree :=
  .nd (.nd (.nd (.lf
  0x2c680b1b02cf00b2002c840b8802d980b4802cbc0b2e02de80b5e02cf40b7802d700b4902e100b6402ec00b7402e380b6a02df00b6202dd80b5a02e480b6c02a0409e2029ac09d2029f409da02a7c09f00294c09d6029a409d00299409cb029dc09d8029cc09d70299c09ce0292409ca0292c09cf0298c09f10296409db0295409d90296c09e30294409d3028200a09)
  (.lf
  0x3772cdc553771cdd6b37734dc5d37704dc51375e0dd7937668dd7e375fcddf037718dda637634dd8c37778ddbc3766cdddc376e8dda7377b0ddc237878ddd8377d8ddca37790ddc037768ddb8377e8ddcc3bed4ef403befcef2a3bf2cef3c3c074ef5a3bf7cea9a3c02cea943bef4ef4d3c044ef3a3bf74ea9b3be84ef383beecef4c3bf04ef393bffcef5b3be4cef3d))
  (.nd (.lf
  0xc47c30a70c454305b0c33030cd0c3b830d20c34c313a0c46030fa0c38430e00c4b031100c3bc312a0c43830fb0c4d831160c58831260c500311c0c4b831140c4a0310c0c510311e107e441181078c4134107d441381085c41461072c416e107844162107744131107bc4172107ac416f1077c415c1070441301070c415d1076c41471074441391073441731074c4119)
  (.lf 0))) (.nd (.nd (.lf
  0x20bdc7d4b20b0882c320b4082d420b54832020c2082ec20b2c82ca20c1882fc20b44831a20c0882ed20c1082f820d28834420c58831420c7082f620c6082e820ce0832c131344ba4130dc4b96131244b9c131c44bb2130544adc130c44b3a130b44b911310c4b9a130fc4add130bc4b941302c4b90130344b95130ac4bb3130744b9d130644b9b1307c4ba51304c4b97)
  (.lf
  0x2d38cb46b2d354b4552d344b4532d35cb45d2d32cb44f2d208b4832d290b4882d224b4fa2d340b4b02d25cb4962d3a0b4c62d294b4e62d310b4b12d3d8b4cc2d4a0b4e22d400b4d42d3b8b4ca2d390b4c22d410b4d62e67cb8f62e624b8e82e66cb8ee2e72cb9042e59cb8842e60cb8602e5fcb8e32e654b8ec2e644b8852e604b8e62e574b8e22e57cb8e72e5f4b905))
  (.nd (.lf
  0xb16c2a8d0b1842be90b15c2a890b0382c0f0b0c02c140b0542c7c0b1682c3c0b08c2c220b1b82c520b0c42c6c0b1402c3d0b1e02c580b2f02c680b2082c5e0b1c02c560b1a82c4e0b2182c600a71429260a6bc29180a704291e0a7ac29340a65c21e20a6b4223a0a6a429130a6ec291c0a6dc21e30a6ac29160a63429120a63c29170a69c29350a674291f0a664291d)
  (.lf 0)))

def aesAndReads14 : BTree :=
  .nd (.nd (.nd (.lf
  0xbb002cc00c6002dc00bd802d200b9002ca00b7802c200be802d4007ac014c00754013c0079c014400824015a006f401400074c013a0073c0135007840142007740141007440138006cc0134006d4013900734015b0070c0145006fc014300714014d006ec013d005c80173006500178005e401e0006f801a00061c01860074801b60065401d0006d001a10077001bc)
  (.lf
  0x3cf24f3c83cf48f3ce3cf54f3e43cf70f3e73cfd8f3f23d050f40c3d0d0f4083cff8f3fc3d110f3e23d068f4180595415ac058fc159c0594415a405a8415ba0587415a0058e4159a058d415950592c15a20591c15a1058dc15980584c1594058541599058cc15bb0589415a50588415a30589c15ad0586c159d0574815d3057d015d805764164a0588016000579c15e6))
  (.nd (.lf
  0x979426200981025f1098b0260c09960261c098d8261209890260a098782602098e826140fbb43e4e0fb5c3e460fba43dfe0fc343e5c0fafc3e4a0fb543e440fb443dd50fb8c3e4c0fb7c3e4b0fb4c3e420fad43dd40fadc3e430fb3c3e5d0fb143dff0fb043e4d0fb1c3e4f0faf43e470f9d03e750fa583e7a0f9ec3ee20fb003ea20fa243e880fb503eb80fa5c3ed2)
  (.lf 0))) (.nd (.nd (.lf
  0x40de9035340f99035e40e19038440dc1036e40d91035840e9903a440e41038e417c4ff5c417ed059641704ff184196d02ac4180cff6c416dcff564177d029f41794ff5a41824ff6d4175cffd64176d029e41754ffd74196502ad4170cff194178cff5b417bcff5d417f505974168905a34172905ac416b505e64179105e2416a505a8416d905b44172d05d64175105e7)
  (.lf
  0x34540d1303445cd116345a0d14634494d16634510d131345d8d14c346c0d16234600d154345b8d14a34590d14234610d1563542cd428353d4d4243541cd45e354d4d4703534cd45a353bcd458353acd3f935404d45c353f4d45b353b4d45435324d3f83532cd455353a4d4713536cd45f3535cd45d35374d42935344d42535220d489352a8d48e3523cd50035358d4b6))
  (.nd (.lf
  0xe00037e40df0c37fe0df8837cf0e02837ea0e0f837fa0e05037f00e00837e80dff037e00e06037f21511c53a8150c453981510c53a01519453b615064539c150bc5320150ac5393150f4539e150e4539d150b453961503c5392150445397150a453b71507c53a11506c539f1508453a91505c539914f3853cf14fc053d414f54543c1506853fc14f8c53e2150b85412)
  (.lf 0)))

def aesAndReads15 : BTree :=
  .nd (.nd (.nd (.lf
  0x295eca4b2294aca4ae29494a4b329504a4bb2941ca49f295a4a47b29554a49b2946ca48129330a4cd29440a4e029384a56829450a4f2293eca4fa29430a50a29444a57a29490a515295b0a55829500a53a29418a504294b0a51a294a8a52829550a550207b47efe2085c80702072c807a207bc8062208bc806a2082c7f182075c8195206f48074208b4806b207ec8198)
  (.lf
  0x4129d041a412250449416350432412e5030f4123d04504128d0448412b5045142b75042941275043f411f50433413b5041d414550463411b9046f412010478411e5058c412c1047c411cd0472412a104a64120504ac4123904b1412e104b642b790adc41279049c414590514412890488413b104c62bd9caebe2bd44aeae2bd8caeb62be5caecc2bcbcaeb22bd2caeac))
  (.nd (.lf
  0x179445db6179345db5179045dae1788c5d56178945daf178f45dcb178cc5db9178bc5db7178d45cfd178ac5d59177885de3178105de8177a45e50178b85e10177dc5df6179085e26178145e40178905e11179305e2c179e05e3c179585e32179105e2a178f85e22179685e341c29c6fd21c2446ffc1c28c70041c32c70161c1e470001c23c6d8c1c22c6ff51c2747002)
  (.lf 0))) (.nd (.nd (.lf
  0x2665c98552650498ee264dc98ea264fc98ef265f498f1265cc98e7265c498e5265e499032660498e1264889923264c0994e2653c99702655099522649c9926265209944264c49940264f89955266609996265f09960266309972266089980264e09936266489978037440d28036ec0d18037340d20038540d36036640d1c036d40d16036c40d110371c0d1e0370c0d1d)
  (.lf
  0x633c185206394184c063841847063cc1854063bc18530638c184a0631418460631c184b0637c186d0635418570634418550635c185f06334184f06210188506298188a0622c18f20634018b20626418980639018c80629c18e20631818b3063b818ce0647818de063e018d40639818cc0638018c4063f018d6278249d6a277cc9d5a278149d62278dc9d782776c9d5e))
  (.nd (.lf
  0x5e5c16cb05ea4171205e94171105e64170805dec16ca05df4170905e54172305e2c16e105e1c171305e34171505e0c170d05ce8173b05d70174005d0417a805e18176805d3c174e05e68177e05d74179805df0176905e90178405f60179405eb8178a05e70178205e58177a05ec8178c0b8a42d8a0b84c2d4e0b8942d820b93c2d980b7ec2a360b8442d800b8342d7b)
  (.lf 0)))

def aesAndReads16 : BTree :=
  .nd (.nd (.nd (.lf
  0x430e50bde4316d0b4b430ed0bd6431650bd0430bd0bd74313d0be3431b50bfd431450bdf431ad0bc94321d0bcd430510c15430810c30430c50c50430f10c384306d0c1a432b90ca4430850c3a430b90c3d431690c42431390c4c431b10c64432210c86431610c56431c10c6a0ebd43a811126c43d9101543fe10df9437710efb43b79118c44559124c448bd107144163)
  (.lf
  0x22b2c8a16229e487b422a3c87b222a2c89f522a7489fe22a6487b522a3489f8229bc89f4229c489f922a248a17229fc8a01229ec89ff22a048a09229dc89fb228b88a2f229408a34228d48a9c229e88a5c2290c8a4222a388a72229448a8c229c08a5d22a608a7822b288a8822a888a7e22a408a7622a288a6e22a988a800dac436120da6c36040dab4360a0db5c3620))
  (.nd (.lf
  0x2a56c9a4e2a60ca8b12a54ca4d42a5dc9a892a58ca8ae2a614a8b02a594a8af2a744a9132a63ca4892a544a4d52a6a4a9232a5bca4852a4e0a9392a508a9482a524a9682a548a9502a4f4a93c2a910a95a2a50ca9642a588a9692a5e0a9762a740a99e2a638a98c2a5c0a96e2a610a9822a6a0a9982caacb2122ca14b21a2ca54b2082cb04b22c2c9d49a942ca0c9a26)
  (.lf
  0x46eed1b3646eb51b0a46ebd1b1e46e2d1aee46fdd1b2446e0d1b0146d6d1b0846dfd1aef46e951b1046ded1b0046e9d1b1146e251b1f46ec51b0b46d651b0946e6d1af546ef51b3746d391b4f46d991b5446d551b6a46d691b5846d7d1b5e46fd91b9046d9d1ba646e911b6b46e291b7e46eb91b8846ec11bac46ef11bba46e091b7a46e791b9a0684c1974067f41964)))
  (.nd (.nd (.lf
  0x28adc9f0328afca10028c2c9f9d28acc9fa028ae49f0228ac49fa128b649fbd28a749fa528af4a10128b3c9f7728b8c9f4b28a00a28128aa0a28428a14a2c428af8a2bc28a4ca29228a90a2a228aa4a2b228ac0a2c528c28a30628b68a2d828a78a29c28b90a2e228ae0a2b628b40a2ce273249ace272dc9c20271b49c26273cc9ad22727498c82725498ae272d49ac1)
  (.lf
  0x392fce416393b4e4283922ce4123929ce3e23928ce407392e4e414392d4e41339294e40a39204e4063920ce40b39284e4293924ce4173923ce41539254e3e539224e40f39100e44139188e4463911ce4b839238e46e39154e45439298e4843918ce4a439208e46f392d0e48a393b0e4a0392f8e492392b0e48839288e48039308e4943e27cf7fe3e32cf8203e2ccf834))
  (.nd (.lf
  0x124dc452c1253448bc1252448b71256c48661255c452d1252c48ba124b448b6124bc48bb1251c48d5124f448bf124e44867124fc48c7124d4485f123b048ed1243848f2123cc495a124e0491a1240449001253049301243c494a124b8491b12558493612608494612580493c12538493412520492c12590493e15cac52f215c54568015c9c568815d24569a15bf45684)
  (.lf 0)))

def aesAndReads17 : BTree :=
  .nd (.nd (.nd (.lf
  0x189006080179c06220181805f3018b8060e01968061e018e0061401898060c018800604018f006160149c047e01444046e0148c04760152c048c013bc04720142c046c0141c046701474047401464047301424046a0139404660139c046b01414048d013dc0477013cc0475013e4047f013b4046f0129004a50131804aa012ac051c013c804d2012e404b80142804e8)
  (.lf
  0x1432850ae142bc5120143d850d6142f450bc1443850ec1432c510c143a850d71447050f21454851081449850fa1445050f01442850e8144a850fc3c284f0283c25ce7923c2bce9243c1cce9043c1d4e9123c2fce9023c36ce7753c214e91c3c24ce9133c1ace9183c31ce7743c1a4e9193c1ece9053c29ce9253c1dce91d3c22cf0293c204e7933c0f8f03f3c148f042))
  (.nd (.lf
  0x2510094222502494082515094382505c9452250d8942325178943e25228944e251a0944425158943c251409434251b094460456c10bc0451410ac0455c10b40460410ca044b410b00450c10aa044fc10a50454410b20453410b10450410a80448c10a40449410a9044f410cb044cc10b5044bc10b3044d410bd044ac10ad0438810e30441010e8043a41150044b81110)
  (.lf 0))) (.nd (.nd (.lf
  0x778c1de2078d01e12077c41e32078401dfd079081e18079e01e2e079301e20078e81e16078c01e0e079401e223cc9cf15a3cc14f2763ccdcf29a3dadcf28c3cc24f27a3cbd4f2543cb6cf2973cbdcf26e3cc5cf27b3cb64f2863cb74f2963cb5cf2873cbf4f28d3cd8cf29b3cbacf26f3cca4f15b3cc0cf2773caf0f2bd3cb20f2e63cb9cf2f63cbb0f2ea3cb04f2c0)
  (.lf
  0x32ae0cab932b68cabe32afccb3032c18cae632b34cacc32c78cafc32b6ccb1c32be8cae732cb0cb0232d78cb1832cd8cb0a32c90cb0032c68caf832ce8cb0c3311ccb9e330c4cb903310ccb96331c4cbac3303cca4c330acca4a3309ccb8b330f4cb94330e4ca4d330a4cb8e33014cb8a3301ccb8f33094cbad3305ccb973304ccb9533064cb9f33034cb9132f10cbc5))
  (.nd (.lf
  0x19c94678c19da8674c19ccc673219df8676219d04677c19d80674d19e20676819ef8677819e48676e19e00676619de8675e19e5867701cd54728a1ccfc72ac1cd4472b21ce0472c41cc9c72881ccf472861cce472a51cd2c72b01cd1c72891ccec72a81cc7472a41cc7c72a91ccdc72c51ccb472b31cca472b11ccbc728b1cc9472ad1cb7072dd1cbf872e21cb8c734a)
  (.lf 0)))

def aesAndReads18 : BTree :=
  .nd (.nd (.nd (.lf
  0x429990a6243a7d0e0a43a450df8439d50dfc43b5d0e2643a2d08844396d08684395d0e1343a5d0e0243a650885439850e1c4394d0e124398d0e1d43b4d0e27439e50dfd43a050e0343a850e0b43a4d0df9439010e41439310e6a439ad0e9643a090e80439150e44439690e48439350e62439810e8343a610e8a43b590ed2439e10e7443a490e90439590e5243a810e9e)
  (.lf
  0x1e1a878061e09077f81e04877ee1e02077e61e0a077fa28304a018282aca008282f4a010283d4a02628224a00c28294a00628284a001282dca00e282cca00d2828ca004281fca00028204a0052827ca02728244a01128234a00f2824ca0192821ca009280f8a03f28180a04428114a0b628230a06c2814ca05228290a08228184a0a228200a06d282c8a088283d0a09e))
  (.nd (.lf
  0x164e85920164d0591816540592a1b2146a4c1b1bc6aa81b2046aac1b28c6aba1b15c6bfa1b1b46bee1b1a46aa51b1ec6bfe1b1dc6bfb1b1ac6be81b1346aa41b13c6be91b19c6abb1b1746aad1b1646bff1b17c6a4d1b1546aa91b0306c0d1b0b86c121b04c6c7a1b1606c3a1b0846c201b1b06c501b0bc6c6a1b1386c3b1b1d86c561b2886c661b2006c5c1b1b86c54)
  (.lf 0))) (.nd (.nd (.lf
  0x3b3e8ecf83b450ed0c373ecda943733cdc6837434db1e373b4dc8a37354db26372bcdaea37404dc7b374c4db1a37344db27373f4dc6e3740cdc7a373dcdc6f373bcdc8b3742cdb1f3731cdb1b378fcda9537364dc6937220dc89372d0dcb8372e4dd3037318dcc237294dca4372c0dcae372d4dcfc373d8dcc337350dcd0373b8dcec37430dd0a37360dcce37408dd00)
  (.lf
  0x36ff0dbd2370b8dbe837018dbda36fd0dbd036fa8dbc837028dbdc34b54d22c34afcd1fe34b44d22434c24d23a34a74d1ee34ae4d22234ad4d21d34b2cd20234b1cd1ef34adcd22034a4cd21c34a54d22134accd23b34a94d22534a84d20334a9cd22d34a6cd1ff34948d253349d0d25834964d2ca34a80d2803499cd26634ae0d296349d4d2b634a50d28134b18d29c))
  (.nd (.lf
  0x1b9e86e561b9a06e4e1b9886e461b9f86e58223ac879c2235488402239c88482242c885a222f488442234c879a2233c883922384884622374884522344883c222cc8838222d4883d22334885b2230c8849222fc884722314879d222ec8841221c88873222508878221e488e0222f888a02221c88862234888b62225488d0222d088a12237088bc2242888cc2239888c2)
  (.lf 0)))

def aesAndReads19 : BTree :=
  .nd (.nd (.nd (.lf
  0x16a445a3f16a845a4116b245a3b169385a4f169c85a8616a1c5a9216a405a8e169ac5a6a16b105a70169cc5ad816b085a9316ab05aa816c405aba16b985ad216b685ac816b005a7a16a885aa016dec5a0616e4459de16cec59f016e1c59f816ea459ee16ca459ec16d24586316d645a1416e9459ef16d3c59dc16d4c586216d4459dd16e1459f916cf459f116d6c5a15)
  (.lf
  0x365c4d3ac365ccd8fd36644d9193660cd907365fcd90536614d5e1365e4d5dd364c0d93136548d936364dcd9a8365f8d95e36514d94436658d9743654cd994365c8d95f36690d97a36760d990366b8d98236670d97836648d970366c8d984362acd80236254d7fa3629cd6503633cd810361ccd7fe3623cd7f83622cd64d36284d80036274d7ff36234d7f6361a4d64c))
  (.nd (.lf
  0x15844559f1581c55891580c5587158245591157fc5583156d855b71576055bc156f456241580855e41572c55ca1585855fa157645614157e055e5158805600159305610158a856061586055fe1584855f6158b85608216dc85182168484e6216cc85102178c8526216246ad82167c850e2166c8509216b484ea216a46ad921674850c215fc850821604850d216648527)
  (.lf 0))) (.nd (.nd (.lf
  0xad7c2adf0ad6c2aab0ad842ae70ad542aa10ac302b0d0acb82b120ac4c2b840ad682b3a0ac842b200adc82b500acbc2b700ad382b3b0ae002b560aec82b6c0ae282b5e0ade02b540adb82b4c0ae382b600f0ac3b820f054394a0f09c3b7a0f13c3b900efcc38760f03c3b780f02c3b730f084394e0f07438770f0343b760efa43b720efac3b770f0243b910efec3b7b)
  (.lf
  0x3e874f9823e7e4f97e3e7ecf9833e864f9a13e82cf98b3e81cf9893e834f9933e804f9853e6e0f9b93e768f9be3e6fcfa303e818f9e63e734f9cc3e878f9fc3e76cfa1c3e7e8f9e73e8b0fa023e9c0fa183e8d8fa0a3e890fa003e868f9f83e8e8fa0c3123cc3e6311e4c3d83122cc3de31494c3f43115ca752311cca750311bcc3d331214c3dc31204a753311c4c3d6))
  (.nd (.lf
  0x1540c548b1546c54a91544454971543454951544c52d115424548f1530054c11538854c61531c552e1543054ee1535454d41548055041538c551e1540854ef154a8550a15560551a154d05510154885508154705500154e055121943c6470193e464621942c6468194cc647e193845b6e193dc5b6c193cc645d194146466194045b6f193d464601935c645c193646461)
  (.lf 0)))

def aesAndReads20 : BTree :=
  .nd (.nd (.nd (.lf
  0x4451d10cc445ed0f60447fd0f664449d10d3444c510de444bd0f61444ed10c24446510d2444e510c34451510cd4455510b94448d10df4457d10e74471510b7443f110fd44439110044405113044489111c444151104447f911864443d113a444e1111d445e9112e44519114444591115444711112a44499111844589115e436cd0cf04359d0cde435850b9e4362d0cfa)
  (.lf
  0x37ba0dee43ba6ce9b43ba1ce9a23b9f4e8e63ba94e9b23bae4e9c43b974e9a03b99cee313b944e9ac3ba24e9c53b9c4e9be3b9acee303b9cce9bf3ba84e9b33b9ece8e73b924e9ad3ba5ce9b53ba34e9a33b8f8ee3f3b978ee443b914ee7e3b940ee483b95cee563bab8ee5c3b97cee723b9c0ee7f3bae0ee883ba90eea03b9f0ee7a3ba30ee863b9a8ee663ba68ee96))
  (.nd (.lf
  0x226bc880a2266c89142263c87fa225b487de225c4878422704881b22514880c225a487df225f48924226fc881a225ec89252264c87fb2267489152251c880d226448929226b4880b224f0893d2257889402250489622251889442255c8956225c0895a2257c897c225e88963225b0896822648898e22670899a226b889ac2270089be226408988200a47f8a2004c7f7c)
  (.lf
  0x2b754ab1b2af2caaef30bbcc2592b374ac6930624c1152e584b8612ea7cba2b2dfacb7892dbc4b67d2d31cb3f534a5cd2232d70cb54f29f04a77531144a75131704c3b52a054a71d286b4a1392820ca00728e549f8928a949fc32bca4aead271ac98af26e8c9b5926514984f2593c95db25c6496ef250e493c52546494a52942ca4d92ca049a272c1f4b0092a9149a4f)))
  (.nd (.nd (.lf
  0x2a19ca6b22a284a6cc29fa4a6da29efca77429f1ca6df29eaca6ac29f2ca6db29eeca6b829f14a6de29ee4a6b92a18ca6cd2a244a6b329f3ca6ad29f9ca6bf29f6ca78529e38a78f29e68a79e29e7ca7ce29eb8a7aa29e4ca79229f00a7be29e6ca7ba29ee0a7af29fa0a7ca2a280a8622a240a86629f68a7d829f18a7c429f98a7e43176cc3ae3187cc55e316e4c558)
  (.lf
  0x2f860bdf62f8e0be0a335bcca5c33564ca58335acccc233664ccd4334dcccbe3354cccbc3353cc9df33594ccc033584ccbf33544ccb8334b4c9de334bcccb933534ccd5334fcccc3334ecccc133504ca5d334d4ca59333b0cced33438ccf2333cccd64334e8cd1a33404cd0033548cd303343ccd50334b8cd1b33580cd3633660cd4c335a8cd3e33560cd3433538cd2c))
  (.nd (.lf
  0x80141f6607fbc1f2c080041f5e080ac1f7407f5c181007fb41f5c07fa41f5707fec1f3207fdc181107fac1f5a07f341f5607f3c1f5b07f9c1f7507f741f5f07f641f3307f7c1f6707f541f2d07e301f8d07eb81f9207e4c1ffa07f601fba07e841fa007fb01fd007ebc1fea07f381fbb07fd81fd6080a81fe6080001fdc07fb81fd407fa01fcc080101fde0a2942806)
  (.lf 0)))

def aesAndReads21 : BTree :=
  .nd (.nd (.nd (.lf
  0x28a80a0e0283c0a76029500a36028740a1c029a00a4c028ac0a66029280a37029c80a5202a780a62029f00a58029a80a50029900a4802a000a5a025c408d20256c08c2025b408ca0263c08e00250c08c60256408c00255408bb0259c08c80258c08c70255c08be024e408ba024ec08bf0254c08e10252408cb0251408c90252c08d30250408c3023e008f90246808fe)
  (.lf
  0x3bfbcef3b3bedcef413bf1cef2b3bd58ef573be50ef763bddcf0103bfb8efa23be14ef843c028efc23be54efc03be80efa33bf78efdc3c070effe3bf28ef923bf18efbe3bef0efba3bed8efb44011cff904008cffc64006cff3040144ffa0400a4ff7e3ffbcff7a3fffcff2b40054ff8a401a4ff7f401f4ff8e40004ff2a401fcff8f4015cffa140074ff31400c4ff8b))
  (.nd (.lf
  0x1072441351060041811068841861061c41ee1073041ae1065441941078041c41068c41de1070841af107a841ca1085841da107d041d01078841c81077041c0107e041d21ae6c6a3c1ae146a6c1ae5c6a701aef46a7e1adb46b101ae0c6b041adfc6a691ae446b141ae346b111ae046afe1ad8c6a681ad946aff1adf46a7f1adcc6a711adbc6b151add46a3d1adac6a6d)
  (.lf 0))) (.nd (.nd (.lf
  0x12f284bcb12fb04bd012f444c42130604bf812f7c4bde130c04c0e12fb44c2e130304bf9130f84c14131c04c2a131204c1c130d84c12130b04c0a131304c1e12a7c49f612a24487212a6c49ee12b0c4a041299c47bc12a0c49ec129fc49e712a54487c12a4447bd12a0449ea1297449e61297c49eb129f44a05129bc49ef129ac487d129c449f7129944873128704a1d)
  (.lf
  0x2e5bcb8ef2e5acb8ed2e5c4b8f72e594b8e92e470b91d2e4f8b9222e48cb9942e5a8b94a2e4c4b9302e608b9602e4fcb9802e578b94b2e640b9662e728b97c2e668b96e2e620b9642e5f8b95c2e678b9702b46cac722b414aab02b45cac6a2b4fcac802b38cab022b3fcac682b3ecac632b444ab042b434ab032b3f4ac662b364ac622b36cac672b3e4ac812b3acac6b))
  (.nd (.lf
  0xa67c29270a65429190a530294d0a5b829520a54c29ba0a660297a0a58429600a6b029900a5bc29aa0a638297b0a6d829960a7a829a60a700299c0a6b829940a6a0298c0a710299e0d4dc34980d484348a0d4cc34900d57434a60d4242fee0d47c32f40d46c34850d4b4348e0d4a42fef0d47434880d3fc34840d40434890d46434a70d43c34910d42c348f0d4443499)
  (.lf 0)))

def aesAndReads22 : BTree :=
  .nd (.nd (.nd (.lf
  0x82001cc0079801c20075001ba0073801b2007a801c4464d518b04641d15be463b515aa4647d15b24652514be4634514d646435159f4636515a6463f514bf46465159a464cd159e4649d159b464ad15b3463bd15ab4636d15a74645518b14641515bf4631918c7463c918d24634d18f64636918d84633518cc465a918d0463cd19264646118f74652118fc464a9191e)
  (.lf
  0x58e01616057d4163605850160105918161c05a801632059401624058f8161a058d016120595016260533c1430052e414200532c1428053f4143e052841424052dc141e052cc1419053141426053041425052d4141c0525c141805264141d052c4143f0529c14290528c1427052a414310527c1421051581457051e0145c0517414c4052881484051ac146a052d8149a))
  (.nd (.lf
  0xfad83ea30fb783ebe0fc303ece0fba03ec40fb583ebc0fb403eb40fbb03ec611da446ca11d4c46bc11d9446c211e1c46d811cec3f7e11d44455211d3446b711d7c46c011d6c3f7f11d3c46ba11cc446b611ccc46bb11d2c46d911d0446c311cf446c111d0c46cb11ce446bd11bc046f111c4846f611bdc475e11cf0471e11c14470411d40473411c4c474e11cc8471f)
  (.lf 0))) (.nd (.nd (.lf
  0x4182106024196906584170905c0417f105fa4177905da417c105ee40524fc96403ccfc4a4038cfcfe404bcfd3a403dd00b240384fd0a4051cfc5540324fd064043500b34043cfcfa40414fc544042cfcfb404a4fd3b40394fcff4030cfd0740454fc97403c4fc4b402e100b94039900be402fd00ea4032100c24034d00d2404d900e04039d010e4042900eb4043100f6)
  (.lf
  0x35274d49c353b8d4cc352acd4ec35328d4b7353f0d4d2354d0d4e835418d4da353d0d4d0353a8d4c835428d4dc35dd4d60635d7cd60235dc4d6c835e64d6da35cf4d6c435d64d6c235d54d5bd35dacd6c635d9cd6c535d5cd6be35cccd5bc35cd4d6bf35d4cd6db35d14d6c935d04d6c735d1cd60735cecd60335bc8d6f335c50d6f835be4d76a35d00d72035c1cd706))
  (.nd (.lf
  0x14fc4542c1504053fd150e0541815190542815108541e150c05416150a8540e151185420189d461d61897c61c8189c461ce18a5461e41891c589e18974589c1896461c3189ac61cc1899c589f1896c61c6188f461c2188fc61c71895c61e51893461cf1892461cd1893c61d71891461c9187f061fd1887862021880c626a18920622a1884462101897062401887c625a)
  (.lf 0)))

def aesAndReads23 : BTree :=
  .nd (.nd (.nd (.lf
  0x207648194207f48199207a4806320734807b206fc80752081c7eff208648071206a881ab2074081ae206bc81de206f881bc2070c81c220830820a2074481fc207e881df208b8822c207b881e82073081ca2086082162076081d62081881ec1c5cc6da81c58470da1c4dc70e61c5a470fa1c57470e21c6b46da61c5ec70df1c49c70e41c59470e31c51c6fd41c5bc70de)
  (.lf
  0x2bd1caea72bd74aeb42bd64aeb32bd24aeaa2bc94aea62bc9caeab2bd14aecd2bcdcaeb72bcccaeb52bce4aebf2bcb4aeaf2bb90aee52bc18aeea2bbacaf5c2bcc8af122bbe4aef82bd28af282bc1caf482bc98af132bd60af2e2be58af442bd88af362bd40af2c2bd18af242bd98af38287ac9f82287549f7e2879ca13e28884a150286cca13a2873ca1382872c9efd))
  (.nd (.lf
  0x1c26470011c2346ff81c1bc6ff41c1c46ff91c22470171c1fc70051c1ec70031c2046fd31c1dc6ffd1c0b8702f1c14070341c0d4709c1c1e8705c1c10c70421c23870721c144708c1c1c0705d1c26070781c32870881c288707e1c24070761c228706e1c2987080238cc8ce0238748d88238bc8d90239648da2238148d8c2386c8d862385c8d7f238a48d8e238948d8d)
  (.lf 0))) (.nd (.nd (.lf
  0x36cc0d140363c0d10036440d15036bc0d37036840d21036740d1f0368c0d290365c0d19035380d4f035c00d54035540dc6036700d7c0358c0d62036d00d92035c40db2036400d7d037080d98038500dae037300da0036e80d96036c00d8e037400da2073841c380732c1c02073741c30074b41c46072a411b8073141c2e073041c290735c1bfa0734c11b90730c1c2c)
  (.lf
  0x277c49d58277b49d53277fc9d60277ec9d5f277bc9d56277449d522774c9d57277ac9d79277849d63277749d612778c9d6b277649d5b276409d91276c89d962765c9dfe277709dbe276949da4277c09dd4276cc9dee277489dbf277e89dda278d89dea278109de0277c89dd8277b09dd0278209de22dcbcb6522dc64b64e2dcacb6822dd4cb6942dbdcb67e2dc4cb67c))
  (.nd (.lf
  0xb87c2d560b86c2a370b83c2d7e0b7c42d7a0b7cc2d7f0b82c2d990b8042d830b7f42d570b80c2d8b0b7e42d4f0b6c02db10b7482db60b6dc2e1e0b7f02dde0b7142dc40b8402df40b74c2e0e0b7c82ddf0b8682dfa0b9382e0a0b8902e000b8482df80b8302df00b8a02e021133c4430112e444221132c4428113bc443e112843f6a112dc43d8112cc441d113144426)
  (.lf 0)))

def aesAndReads24 : BTree :=
  .nd (.nd (.nd (.lf
  0x4740d0b60474051c254737d1c2e4750d0b5b4741d1c36474bd1c24473f51c374749d1c75473bd1c39473851c2f474551c33474fd1c49473291ccb473d11cce4733d1d0a473811cde4738d1ce2474111d02473d51d06473f11d0b475191d42474a11d26473c11cee475a11d3e474b91d00474511d124783d1c9e478fd1c66478051cae477dd1d92477cd1c6a4771d1c98)
  (.lf
  0x197cc655e1981465661989c65781976c6562197c45c0e197b46557197fc6564197ec6563197bc655a1974465561974c655b197ac65791978465671977465651978c5c1119764655f196406591196c865961965c65fe1977065be1969465a4197c065d4196cc65ee1974865bf197e865da1989865ea1981065e0197c865d8197b065d01982065e2180ac5f8c180545f84))
  (.nd (.lf
  0x2060c80d4204dc80be205347f3a2052480b32056c80c02055c80bf2052c80b6204b480b2204bc80b72051c80d5204f480c3204e480c1204fc7ef7204d480bb203b080ed2043880f2203cc815a204e0811a2040481002053081302043c814a204b8811b20558813620608814620580813c20538813420520812c20590813e1f0347a641efdc7b461f0247b4a1f0ac7b58)
  (.lf
  0x197545c0f16b145a3916cac59ed1936c5b6d1cc84728718904589d18d7462b11647458bb157ec52e515414535915bdc530f1504c532119d8c66c913fec4ed3143b4508b1a214505f031c40bf502d7c0ae30293409d1024f408c1020b407b103c0c0e8701c64069d01824058d049c411f5040540f99013a4046d00f64035d00b1c024b006dc013b0677c196306324184d)))
  (.nd (.nd (.lf
  0x2a124a71e2a05ca71c2a084a6a12a014a72e2a0fca71f2a0a4a7282a08ca6a02a0aca7292a144a7212a334a75b2a01ca72f2a30ca7012a114a6fd29fe8a7fb2a068a7fe29ffca8302a018a8042a02ca80a2a058a8142a06ca82a2a0a0a8312a120a83e2a148a8502a340a8cc2a110a8422a088a8202a308a8c028f4ca23c28ed4a25a28e44a2442903ca26a28ef49f64)
  (.lf
  0x398ece55c39894e586398dce58e39994e5a03980ce58a3987ce55a3986ce57f398c4e58c398b4e58b39874e582397e4e57e397ece58339864e5a13982ce58f3981ce58d39834e55d39804e587396e0e5b939768e5be396fce63039818e5e639734e5cc39878e5fc3976ce61c397e8e5e7398b0e60239990e618398d8e60a39890e60039868e5f8398e8e60c3f7ccfac2))
  (.nd (.lf
  0xd02c33680d0d4337e0cf842e860cfdc32fa0cfcc335d0d01433660d0042e870cfd433600cf5c335c0cf6433610cfc4337f0cf9c33690cf8c33670cfa433710cf7c33630ce5833970cee0339c0ce7434040cf8833c40ceac33aa0cfd833da0cee433f40cf6033c50d00033e00d0d033f00d02833e60cfe033de0cfc833d60d03833e80e8dc39980e88438ee0e8cc3990)
  (.lf 0)))

def aesAndReads25 : BTree :=
  .nd (.nd (.nd (.lf
  0x20d0081601ff407fc02120082c0202c0846020a80817021480832021f8084202170083802128083002110082802180083a01d3406ae01cdc069e01d2406a601dac06bc01c7c06a201cd4069c01cc4069701d0c06a401cfc06a301ccc069a01c54069601c5c069b01cbc06bd01c9406a701c8406a501c9c06af01c74069f01b5006d501bd806da01b6c074201c800702)
  (.lf
  0x3b6dceaa13b5c0ed713b640ed743b5d4ed9a3b620ed863b634ed8c3b708edc03b644edb03b6b8ed9b3b688eda03b768edd83b730edca3b6d8edb43b6a8eda83b7a8ede63d41cf16c3d3a4f1823d3f4f4703d4f4f48e3d38cf25e3d2bcf2043d30cf18b3d354f2603d384f25f3d32cf2563d2fcf18a3d324f2573d4ecf48f3d3ecf4713d364f2613d424f16d3d3b4f183))
  (.nd (.lf
  0x22d388b3222ccc8b9a22de08b5a22d048b4022e308b7022d3c8b8a22db88b5b22e588b7622f108b8622e808b7c22e388b7422e208b6c22e908b7e1f3c47a7a1f36c7b001f3b47b041f43c7b121f30c7c661f3647c5a1f3547afd1f39c7c6a1f38c7c671f35c7c541f2e47afc1f2ec7c551f34c7b131f3247b051f3147c6b1f32c7a7b1f3047b011f1e07c791f2687c7e)
  (.lf 0))) (.nd (.nd (.lf
  0x1005c408810178403e100944024101d84054100cc407410148403f10210405a102d84070102384062101f04058101c84050102484064085fc20d6085a420a0085ec20ce0868c20e40851c20620858c20cc0857c20c7085d420a4085c420630858420ca084f420c6084fc20cb0857420e50853c20cf0852c20a50854420d70851420a1083f020fd0847821020840c2174)
  (.lf
  0x2af6caaf32af3cab572ae18ab872aea0ab8c2ae34abfe2af50abb42ae6cab9a2afb0abca2aea4abea2af20abb52afe8abd02b108abe62b010abd82afc8abce2afa0abc62b020abda301a4bf883014cbfb430194bfbc3023cbfce300c4bfb830134bc4030124bfad3017cbfba3016cbfb93012cbfb03009cbfac300a4bfb13011cbfcf300e4bfbd300d4bfbb300ecbf89))
  (.nd (.lf
  0xeac03ab10eb483ab60eadc3b1e0ebf03ade0eb143ac40ec403af40eb4c3b0e0ebc83adf0ec683afa0ed183b0a0ec903b000ec483af80ec303af00eca03b0204a94120604a3c11f604a8411fe04b141214049dc11fa04a3411f404a2411ef04a6c11fc04a5c11fb04a2c11f2049b411ee049bc11f304a1c1215049f411ff049e411fd049fc1207049d411f7048b0122d)
  (.lf 0)))

def aesAndReads26 : BTree :=
  .nd (.nd (.nd (.lf
  0x45c71170245c69171845cd1172846a4519e64695519ac469ad19ca469cd19d84692d19b04685519f84689d19cf468e519b64690d19b1468bd19de4689519ce468c519df469dd19d9469a519cb4691519b74698519e74694d19ad468191a07468711a34468d51a44468e91a38468351a0c468611a14468751a30468b91a3b469291a42469d91a72469a91a68469511a52)
  (.lf
  0x4e00136d04ea0138804f50139804ec8138e04e80138604e68137e04ed813900c8dc31980c884304a0c8cc31900c99431a60c8242d1e0c87c318e0c86c31890c8b430500c8a42d1f0c874318c0c7fc31880c804318d0c86431a70c83c31910c82c30510c84431990c81c304b0c6f831bf0c78031c40c714322c0c82831ec0c74c31d20c87832020c784321c0c80031ed))
  (.nd (.lf
  0x41a0102a041101020040c81018040b0101004120102203cdc0e9803c840e8803ccc0e9003d5c0ea603c240e8c03c7c0e8603c6c0e8103cb40e8e03ca40e8d03c740e8403bfc0e8003c040e8503c640ea703c3c0e9103c2c0e8f03c440e9903c1c0e8903af80ebf03b800ec403b140f2c03c280eec03b4c0ed203c780f0203b840f1c03c000eed03ca00f0803d580f18)
  (.lf 0))) (.nd (.nd (.lf
  0x3f6d0fdb240659019441d89075841c99071040825019c4082cfc3a40794fcd2408c4fcbc407fcfcc8407b4fd6040774fbaf4070cfcca407f4fcc9407bcfcb4407c4fbae407acfcb5408bcfcbd4078cfcd340704fccb4085d019d407ecfc3b406b901af4075101b2406cd01f24070901c04072d01ca4092101ec4075501ee407a901f3407f901fc408c1022e4079101e2)
  (.lf
  0x3a07ce8603a0f8e82b3a1c0e8463a2d0e85c3a1e8e84e3a1a0e8443a178e83c3a1f8e85038e2ce2e238dd4e2d438e1ce2da38ecce2f038d4ce04c38dbce04a38dace2cf38e04e2d838df4e04d38db4e2d238d24e2ce38d2ce2d338da4e2f138d6ce2db38d5ce2d938d74e2e338d44e2d538c20e30938ca8e30e38c3ce38038d58e33638c74e31c38db8e34c38cace36c))
  (.nd (.lf
  0x212108464212f8847421238846a211f08462211d8845a21248846c184a4608a1844c6082184945d7e1851c6098183ec6086184446080184345d2f1847c60881846c60871843c607e183c45d2e183cc607f1842c6099184045d7f183f460891840c608b183e46083182c060b11834860b6182dc611e183f060de1831460c41844060f41834c610e183c860df1846860fa)
  (.lf 0)))

def aesAndReads27 : BTree :=
  .nd (.nd (.nd (.lf
  0x1dcec769b1db5c76891dbbc76871dc5474fd1dbec767d1dac876b31db2076b61dadc76ee1dbb076ea1db1476c41db8076de1db24770a1dc2076eb1dbd876f41dd10773a1db5876d41dbf076fa1db9876e41dc5077121e75474201e6a474a61e6dc75001e77474ac1e66c75341e69c753a1e7c474af1e6d4753c1e6ac75351e6fc752a1e7bc74ae1e704752b1e74c74ad)
  (.lf
  0x2f49cbc852f45cbc7c2f3ccbc782f3d4bc7d2f44cbc9b2f414bc892f404bc872f41cbbe32f3ecbc812f2c8bcb32f350bcb82f2e4bd2a2f400bce02f31cbcc62f460bcf62f354bd162f3d0bce12f498bcfc2f560bd122f4c0bd042f478bcfa2f450bcf22f4d0bd06320fcc754320a4c748320ecc74c3218cc75c3201cc7aa3208cc79e3207cc745320d4c7ae320c4c7ab))
  (.nd (.lf
  0xbd642ee20bd6c2ee70bdcc2f010bda42eeb0bd942eb90bdac2ef30bd842eb30bc602f190bce82f1e0bc7c2f860bd902f460bcb42f2c0bde02f5c0bcec2f760bd682f470be082f620bed82f720be302f680bde82f600bdd02f580be402f6a1199445c61193c45b81198445be11a0c45d4118dc3f741193445581192445b31196c45bc1195c3f751192c45b6118b445b2)
  (.lf 0))) (.nd (.nd (.lf
  0x914423d9091bc23f70918423e10917423df0918c23e90915c23db09038240f090c0241409054248609170243c0908c2422091d02452090c4247209140243d092082458093b0246e092302460091e82456091c0244e09240246208e2422e008dcc22d208e1422d808eb422ee08d44155808db4221e08da422cd08dfc22d608dec155908dac22d008d1c22cc08d2422d1)
  (.lf
  0x306f4c0f2306e4c0dd306a4c11230614c10e3061cc11330694c12d3065cc1173064cc0f330664c11f30634c0ef30510c14530598c14a3052cc1bc30648c17230564c158306a8c1883059cc1a830618c173306e0c18e30808c1a430708c196306c0c18c30698c18430718c1982b84cab1e2b7f4ad602b83cad662b8fcad782b76cab1c2b7dcab1a2b7ccad592b824ad64))
  (.nd (.lf
  0x1a27c680a1a20468061a20c680b1a26c68291a24468131a23468111a24c681b1a224680d1a10068411a18868461a11c68ae1a230686e1a15468541a28068841a18c689e1a208686f1a2a8688a1a358689a1a2d068901a28868881a27068801a2e06892140bc4f14140644f84140ac4f8c141344f9e140044f881405c4ed21404c4f7d140944f8a140844f89140544f80)
  (.lf 0)))

def aesAndReads28 : BTree :=
  .nd (.nd (.nd (.lf
  0x46095179846025179a4613517b8461650fb04603d11e2461cd17bd4600517c44607d0fb1460b517d4461d517bc460bd17d54611517b94601d179b45ffd17c5460fd17a946155179945f6917db4604917e445f9518164600117fe45fdd17f646039180c4604d182e460b1181746161181e461311844460211806461511824461d11872460f91836441bd0f764416d0f8e)
  (.lf
  0x2e048b7ee2e020b7e62e0a0b7fa2fd34bc082fcdcbe982fd24bea02fdc4beb22fc54be9c2fcc4bc202fcb4be912fd0cbe9e2fcfcbe9d2fcbcbe942fc2cbe902fc34be952fcacbeb32fc74bea12fc64be9f2fc7cbc092fc4cbe992fb28becb2fbb0bed02fb44bf422fc60bef82fb7cbede2fcc0bf0e2fbb4bf2e2fc30bef92fcf8bf142fdc0bf2a2fd20bf1c2fcd8bf12))
  (.nd (.lf
  0x17d105f1e1d8d474c01d87c758a1d8c475921d95475a41d81c758e1d87475581d86475831d8ac75901d89c758f1d86c75861d7f475821d7fc75871d85c75a51d83475931d82475911d83c74c11d814758b1d6f075bd1d77875c21d70c762a1d82075ea1d74475d01d87076001d77c761a1d7f875eb1d89876061d95076161d8c0760c1d87876041d86075fc1d8d0760e)
  (.lf
  0x465ad14d7459e5157b46e451b254558514cf4686519f9428cd09d5439250869424e5086344c15122b4603511e34409d0fcd4461d0f67434d50ce5474150b61477151c99432bd0bb73cb7cf2553d824f5df3cf3cf3973d2c4f2053ffc4ff7b40cfcffbb412a5041b416d4ff57404dcfd0b3f65cfc2544d04fc6f40924fd613bf0cea953b70ceab93dc7cf6cb3b2d4eca3)))
  (.nd (.nd (.lf
  0x383f4e06a3841ce08a383ece07a38434e06e383a4e0163846ce01a3835ce075382f4e076383dce01738474e0a038364e07438414e0a138524e06f38334e07b382fce077383bce06b384bce08b382a0e0a938338e0ae382bce0dc382f8e0bc38304e0c038468e1143833ce11c38410e0dd383d8e0e838520e10c383e8e0cc384b8e10638360e0d6383f0e0ee339c4cdba)
  (.lf
  0x2eb60baac2eb18baa22eaf0ba9a2eb70baae30cb4c25a30c5cc27a30ca4c28030d5cc29230bd4c23e30c44c25830c34c27330c8cc27e30c7cc23f30c3cc27630bacc27230bb4c27730c2cc29330bf4c28130be4c27f30bfcc25b30bccc27b30aa8c2ab30b30c2b030ac4c32230be0c2d830afcc2be30c40c2ee30b34c30e30bb0c2d930c78c2f430d58c30a30ca0c2fc))
  (.nd (.lf
  0x1f8787e021f8e87e142446c8c9e244148d062445c8d0a2450c8d18243b490902440c9084243fc8d0324444909424434909124404907e2438c8d0224394907f243f48d19243cc8d0b243bc9095243d48c9f243ac8d072428890a32431090a8242a49110243b890d0242dc90b62440890e62431491002439090d12443090ec2450890fc2445890f22441090ea243f890e2)
  (.lf 0)))

def aesAndReads29 : BTree :=
  .nd (.nd (.nd (.lf
  0x31d40bf7030b00c2d031380c32030cc0c9a031e00c5a031040c40032300c700313c0c8a031b80c5b032580c76033080c86032800c7c032380c74032200c6c032900c7e02e4c0af402df40ae402e3c0aec02ec40b0202d940ae802dec0ae202ddc0add02e240aea02e140ae902de40ae002d6c0adc02d740ae102dd40b0302dac0aed02d9c0aeb02db40af502d8c0ae5)
  (.lf
  0x3aef4eb433afeceb3b3ae9ceb3d3af1ceb673af64eb393adf0eb7d3ae38eb9a3ae6ceba63ae80eb9e3ae04eb803ae50eb923ae3cec303afc8eba13af70ebd03aef8ebbc3b010ebfa3af60ebd63aec0ebae3af28ebc6377ecdc5c37794dc50377dcdc543787cdc643770cdd663777cdd5a3776cdc4d377c4dd6a377b4dd6737774dd54376e4dc4c376ecdd5537764dc65))
  (.nd (.lf
  0x2595c95e32597495e52594c95dd25828960b258b096102584496782595896382587c961e259a8964e258b49668259309639259d0965425a809664259f8965a259b0965225998964a25a08965c0c51430a60c4bc305a0c504309e0c58c30b40c45c2d140c4b4309c0c4a430970c4ec30640c4dc2d150c4ac309a0c43430960c43c309b0c49c30b50c474309f0c4643065)
  (.lf 0))) (.nd (.nd (.lf
  0x10cf442c310cc4428710ba042e910c2842ee10bbc436010cd8431610bf442fc10d38432c10c2c434c10ca8431710d70433210e38434810d98433a10d50433010d28432810da8433c20ce47b2620c747d4a20c547d4420d147d3620be47d5c20c1c7a8c20c647e6920c847d4e20c147d5d20c6c7d3c20ba47e6820c0c7d3d20d2c7d3720c5c7d4520c247d4f20cb47b27)
  (.lf
  0x2d704b54b2d77cb5672d744b5552d734b5532d74cb4052d71cb4012d5f8b57f2d680b5842d614b5f62d730b5ac2d64cb5922d790b5c22d684b5e22d700b5ad2d7c8b5c82d8d0b5de2d7f0b5d02d7a8b5c62d780b5be2d800b5d22d414b45c2d3bcb44e2d404b4542d4a4b46a2d334b3f62d3a4b3f42d394b4492d3ecb4522d3dcb3f72d39cb44c2d30cb4482d314b44d))
  (.nd (.lf
  0x2405c8f9d2404c8f9b240648ceb2403c8f9523f188fc723fa08fcc23f349034240488ff423f6c8fda24098900a23fa49024240208ff5240c09010241809020240e89016240a0900e240889006240f890180b21c2be80b1c42a880b20c2be00b2f42bf60b1642a2c0b1bc2bde0b1ac2bd90b1f42a8c0b1e42a2d0b1b42bdc0b13c2bd80b1442bdd0b1a42bf70b17c2be1)
  (.lf 0)))

def aesAndReads30 : BTree :=
  .nd (.nd (.nd (.lf
  0xf5803c300ff803de010a803ee0102003e400fd803dc00fc003d40103003e600bec025c00b94024c00bdc025400c64026a00b34025000b8c024a00b7c024500bc4025200bb4025100b84024800b0c024400b14024900b74026b00b4c025500b3c025300b54025d00b2c024d00a08028300a90028800a2402f000b3802b000a5c029600b8802c600a9402e000b1002b1)
  (.lf
  0x3dc00f6fe3dc1cf7063dcb8f71e3dc3cf72c3dc68f7333dd00f73c3dd38f74c3dca0f7263de68f7563dca8f7143dd68f7463d06cf2243cff4f24c3d024f23e3d054f2623cfccf3a63cf4cf3963cf8cf2293ced4f38c3cfdcf3a73cf94f3863d114f2283cf74f3873d034f2633d0d4f23f3cf04f38d3d064f2253cffcf24d3cea8f3ab3cf50f3b03cec4f3e63cf00f3b4))
  (.nd (.lf
  0x9ce8271e09bf4273809c70270909d10272409e00273409d38272a09cf0272209cd8271a09d48272c098ec259c09894258c098dc25940996425aa0983425900988c258a0987c2585098c42592098b425910988425880980c25840981425890987425ab0984c25950983c259309854259d0982c258d0970825c30979025c80972426300983825f00975c25d6098882606)
  (.lf 0))) (.nd (.nd (.lf
  0x3d834f6443d908f6173d8a8f6263d940f6383d978f65c3d888f6203d948f6123d918f63e40e3d02ee40d9502ce40dbd031440e1502f440d7cffc240ce4ffba40e9d02e540d2502d640f9cffc340df502e040e9502e440ded02e140e1d02f540dc5031540d4502d740e4502ef40d6502cf40cb1032d40cf1033040cc5035240d41034840cd5033440cf9033840cf5037c)
  (.lf
  0x323c4c962324e0c918323fcc8fe32540c92e32434c94e324b0c91932578c93432640c94a325a0c93c32558c93232530c92a325b0c93e34614cf90345bccf8434604cf88346c4cf9834534d0f0345a4d0e434594cf81345ecd0f4345dcd0f13459cd0de3450ccf8034514d0df3458ccf9934554cf8934544d0f53455ccf913452ccf8534408d10334490d10834424d17a))
  (.nd (.lf
  0x23afc8ebe23c288eee23b348f0823bb08ed923c508ef423d088f0423c788efa23c308ef223c188eea23c888efc0e064377a0e00c37440e05437720e0fc37880dfac359c0e00437700dff4376b0e03c37480e02c359d0dffc376e0df84376a0df8c376f0dfec37890dfc437730dfb437490dfcc377b0dfa437450de8037a10df0837a60de9c380e0dfb037ce0ded437b4)
  (.lf 0)))

def aesAndReads31 : BTree :=
  .nd (.nd (.nd (.lf
  0x26e649af526e2c9b3a26e9c9b3026e4c9b3b26f2c9b4526f0c9b2526dac9b0f26f7c9b2326e449b0b26d009b4126dd09b6626d9c9ba426e009b6a26db49b6c26e889b8626dd49b9226e289b8126e709b9826f289bb626f209bc226e509b9026e989b8826fb89bde29544a49a294b4a48029414a49e294eca4ba295649a5c29434a4d8294a4a4af293cca47a295b49a5d)
  (.lf
  0x44d64fc9c44cecfc6e44dfcfbc344d9cfc6444da4fc9d44e2cfc8644e04fbc244e24fc8745124fc7b44ddcfc6344d2cfc6544e44fc3544d7cfc3344cb9132f44d09134644d1d136644d41134a44ccd133244d01133a44d0d138a44e21135144da1135845129144844de1137644d81135e44e01137e44e4913904131d041c4145d04624127d043e42b7d0428412dd030e))
  (.nd (.lf
  0x18dd462e118e1c62ec18e0c62c718ddc62e418d6462e018d6c62e518dcc630118da462ef18d9462ed18dac62b318d8462e918c60631918ce8631e18c7c638618d90634618cb4632c18de0635c18cec637618d68634718e08636218eb8637218e30636818de8636018dd0635818e40636a1796c5cfc179145d581795c5db8179e45dca178b45db41790c5db2178fc5d57)
  (.lf 0))) (.nd (.nd (.lf
  0x25c9c95a025d0c96bf25dd495b625c54938425c5c95b725ce495a725d6c958125ca495a125d9c959725d2c959b25b1896c725bf8972025c84972c25ca0972625be496f825c60971025bfc977425c58972d25d08974025ce8973825d68975825d38974a25c50971225d9897602664c99022660c98e02663498e62658498f026664985426524984e264e498eb2654c98e4)
  (.lf
  0x45b0d15ea45995158645965157a45a0d15f34590d1612459a5158745a2515f8459fd15f245a2d15f945b1515eb45955160945905161345a451539459bd1603458b1162d459391630458c5165c4590916404591d1646459e116584593d168a45a21165d459a1166445b1116c2459511652459c9166e45a09167e45a611690063f4185e0639c184e063e418560647c186c))
  (.nd (.lf
  0x2c264b0082c254b0032c29cafe82c28cafe72c25cb0062c1e4b0022c1ecb0072c24cb0212c224b00b2c214afe92c22cb0132c204afe32c0e0b0392c168b03e2c0fcb0a62c210b0662c134b04c2c260b07c2c16cb0962c1e8b0672c288b0822c378b0922c2b0b0882c268b0802c250b0782c2c0b08a05ecc171405e74170c05ebc16e005f64172205e14171005e6c170a)
  (.lf 0)))

/-- The inputs of the AND gates by wires: 18 bits each, 64 per leaf. -/
def aesAndReads : BTree :=
  .nd (.nd (.nd (.nd (.nd (aesAndReads0) (aesAndReads1)) (.nd (aesAndReads2) (aesAndReads3))) (.nd (.nd (aesAndReads4) (aesAndReads5)) (.nd (aesAndReads6)
  (aesAndReads7)))) (.nd (.nd (.nd (aesAndReads8) (aesAndReads9)) (.nd (aesAndReads10) (aesAndReads11))) (.nd (.nd (aesAndReads12) (aesAndReads13)) (.nd
  (aesAndReads14) (aesAndReads15))))) (.nd (.nd (.nd (.nd (aesAndReads16) (aesAndReads17)) (.nd (aesAndReads18) (aesAndReads19))) (.nd (.nd (aesAndReads20)
  (aesAndReads21)) (.nd (aesAndReads22) (aesAndReads23)))) (.nd (.nd (.nd (aesAndReads24) (aesAndReads25)) (.nd (aesAndReads26) (aesAndReads27))) (.nd (.nd
  (aesAndReads28) (aesAndReads29)) (.nd (aesAndReads30) (aesAndReads31)))))

def aesAndFan0 : BTree :=
  .nd (.nd (.nd (.lf 0x2000000020000000200000002) (.lf 0x0)) (.nd (.lf
  0x222222222222222220000000001111010311021021022222200000000000000000000000000000000000000000000000000000000000000000000000000000000000000000022222222222222222000000000111101031102102102222220000000000000000000000)
  (.lf 0))) (.nd (.nd (.lf
  0x2222222222222222200000000011110103110210210222222000000000000000000000000000000000000000000000000000000000000000000000000000000000000000000000000000000000000000000000)
  (.lf 0)) (.nd (.lf
  0x2222222222222222200000000011110103110210210222222000000000000000000000000000000000000000000000000000000000000000000000000000000000000000000222222222222222220000000001111010311021021022222200000000000000000000000000000000000000)
  (.lf 0)))

def aesAndFan1 : BTree :=
  .nd (.nd (.nd (.lf
  0x210210222222000000000000000000000000000000000000000000000000000000000000000000000000000000000000000000222222222222222220000000001111010311021021022222200000000000000000000000000000000000000000000000000000000000000000000000000000000000000000022222222222222)
  (.lf 0x0)) (.nd (.lf
  0x1101031102102102222220000000000000000000000000000000000000000000000000000000000000000000000000000000000000000002222222222222222200000000011110103110210210222222000000000000000000000000000000000000000000000000000000000000000000000000000000000000000000222222)
  (.lf 0))) (.nd (.nd (.lf
  0x2222222220000000001111010311021021022222200000000000000000000000000000000000000000000000000000000000000000000000000000000000000000002222222222222222200000000011110103110210210222222000000000000000000000000000000000000000000000000000000000000000000000000000)
  (.lf 0)) (.nd (.lf
  0x222222222222222220000000001111010311021021022222200000000000000000000000000000000000000000000000000000000000000000000000000000000000000000002222222222222222200000000011110103110210210222222)
  (.lf 0)))

def aesAndFan2 : BTree :=
  .nd (.nd (.nd (.lf
  0x22222222222222222000000000111101031102102102222220000000000000000000000000000000000000000000000000000000000000000000000000000000000000000000222222222222222220000000001111010311021021022222200000000000000000000000000000000000000000000000000000000000)
  (.lf 0x0)) (.nd (.lf
  0x2222222222222222200000000011110103110210210222222000000000000000000000000000000000000000000000000000000000000000000000000000000000000000000222222222222222220000000001111010311021021022222200000000000000000000000000000000000000000000000000000000000)
  (.lf 0))) (.nd (.nd (.lf
  0x1010311021021022222200000000000000000000000000000000000000000000000000000000000000000000000000000000000000000002222222222222222200000000011110103110210210222222000000000000000000000000000000000000000000000000000000000000000000000000000000000000000000000000)
  (.lf 0)) (.nd (.lf
  0x11110103110210210222222000000000000000000000000000000000000000000000000000000000000000000000000000000000000000000022222222222222222000000000111101031102102102222220000000000000000000000000000000000000000000000000000000000000000000000000000000000000000)
  (.lf 0)))

def aesAndFan3 : BTree :=
  .nd (.nd (.nd (.lf
  0x222222222222222220000000001111010311021021022222200000000000000000000000000000000000000000000000000000000000000000000000000000000000000000022222222222222222000000000111101031102102102222220000)
  (.lf 0)) (.nd (.lf
  0x22222222222222222000000000111101031102102102222220000000000000000000000000000000000000000000000000000000000000000000000000000000000000000002222222222222222200000000011110103110210210)
  (.lf 0))) (.nd (.nd (.lf
  0x22222222222222222000000000111101031102102102222220000000000000000000000000000000000000000000000000000000000000000000000000000000000000000002222222222222222200000000011110103)
  (.lf 0)) (.nd (.lf
  0x2222222222222222200000000011110103110210210222222000000000000000000000000000000000000000000000000000000000000000000000000000000000000000000022222222222222222000000000111101031102102102222220000000000000000000000000000000000000000000000000000)
  (.lf 0)))

def aesAndFan4 : BTree :=
  .nd (.nd (.nd (.lf
  0x2000000020000000200000002000000000000000000000000000000000000000000000000000000000000000000000000000000000000000000000000000000000000000000000000000000000000000000000000000000000000000000000000000000000000000000000000000000000000000000000000000000000000000)
  (.lf
  0x200000002000000020000000200000002000000020000000200000002000000020000000200000002000000020000000200000002000000020000000200000002000000020000000200000002000000020000000200000002000000020000000200000002000000020000000200000002000000020000000200000002000000))
  (.nd (.lf
  0x222222000000000000000000000000000000000000000000000000000000000000000000000000000000000000000000222222222222222220000000001111010311021021022222200000000000000000000000000000000000000000000000000000000000000000000000000000000000000000022222222222222222000)
  (.lf 0))) (.nd (.nd (.lf 0x0) (.lf 0)) (.nd (.lf
  0x2222222222222222200000000011110103110210210222222000000000000000000000000000000000000000000000000000000000000000000000000000000000000000000022222222222222222000000000111101031102102)
  (.lf 0)))

def aesAndFan5 : BTree :=
  .nd (.nd (.nd (.lf 0x0) (.lf 0)) (.nd (.lf
  0x22222222222222222000000000111101031102102102222220000000000000000000000000000000000000000000000000000000000000000000000000000000000000000002222222222222222200000000011110103110210210222222000000000000000000000000000000000000000000000)
  (.lf 0))) (.nd (.nd (.lf
  0x2222222222222222200000000011110103110210210222222000000000000000000000000000000000000000000000000000000000000000000000000000000000000000000022222222222222222000000000111101031102102102222220000000000000000000000000000000)
  (.lf 0)) (.nd (.lf
  0x1010311021021022222200000000000000000000000000000000000000000000000000000000000000000000000000000000000000000002222222222222222200000000011110103110210210222222000000000000000000000000000000000000000000000000000000000000000000000000000000000000000000022222)
  (.lf 0)))

def aesAndFan6 : BTree :=
  .nd (.nd (.nd (.lf
  0x22222222222222222000000000111101031102102102222220000000000000000000000000000000000000000000000000000000000000000000000000000000000000000000222222222222222220000000001111010311021021022222200000000000000)
  (.lf 0x0)) (.nd (.lf
  0x2222222222222222200000000011110103110210210222222000000000000000000000000000000000000000000000000000000000000000000000000000000000000000000222222222222222220000000001111010311021021022222200000000)
  (.lf 0))) (.nd (.nd (.lf 0x22222222222222222000000000111101031101021022222200000000000000000000000002000000000000000000000000000) (.lf 0)) (.nd (.lf
  0x22222222222222222000000000111101031102102102222220000000000000000000000000000000000000000000000000000000000000000000000000000000000000000000222222222222222220000000001111010311021021022222200000000000000000000000000000000000000000000)
  (.lf 0)))

def aesAndFan7 : BTree :=
  .nd (.nd (.nd (.lf
  0x1101031102102102222220000000000000000000000000000000000000000000000000000000000000000000000000000000000000000000222222222222222220000000001111010311021021022222200000000000000000000000000000000000000000000000000000000000000000000000000000000000000000000000)
  (.lf 0)) (.nd (.lf
  0x2000000000111101031102102102222220000000000000000000000000000000000000000000000000000000000000000000000000000000000000000000222222222222222220000000001111010311021021022222200000000000000000000000000000000000000000000000000000000000000000000000000000000000)
  (.lf 0))) (.nd (.nd (.lf
  0x2222222222220000000001111010311021021022222200000000000000000000000000000000000000000000000000000000000000000000000000000000000000000022222222222222222000000000111101031102102102222220000000000000000000000000000000000000000000000000000000000000000000000000)
  (.lf 0)) (.nd (.lf
  0x2222222222222222200000000011110103110210210222222000000000000000000000000000000000000000000000000000000000000000000000000000000000000000000222222222222222220000000001111010311021021022222200000000)
  (.lf 0)))

def aesAndFan8 : BTree :=
  .nd (.nd (.nd (.lf
  0x2000000020000000200000002000000000000000000000000000000000000000000000000000000000000000000000000000000000000000000000000000000020000000200000002000000020000000000000000000000000000000000000000000000000000000000000000000000000000000000000000000000000000000)
  (.lf
  0x200000002000000020000000200000002000000020000000200000002000000020000000200000002000000020000000200000002000000020000000200000002000000020000000200000002000000020000000200000002000000020000000200000002000000020000000200000002000000020000000200000002000000))
  (.nd (.lf
  0x22222222222222222000000000111101031102102102222220000000000000000000000000000000000000000000000000000000000000000000000000000000000000000002222222222222222200000000011110103110210210222222000000000000000000000000000000000000000000000000000000000000000000)
  (.lf 0))) (.nd (.nd (.lf 0x0) (.lf 0)) (.nd (.lf
  0x1111010311021021022222200000000000000000000000000000000000000000000000000000000000000000000000000000000000000000002222222222222222200000000011110103110210210222222000000000000000000000000000000000000000000000000000000000000000000000000000000000000)
  (.lf 0)))

def aesAndFan9 : BTree :=
  .nd (.nd (.nd (.lf
  0x22222222222222222000000000111101031102102102222220000000000000000000000000000000000000000000000000000000000000000000000000000000000000000002222222222222222200000000011110103110210210222222000000000)
  (.lf 0)) (.nd (.lf
  0x222222222222222220000000001111010311021021022222200000000000000000000000000000000000000000000000000000000000000000000000000000000000000000022222222222222222000000000111101031102102102222220)
  (.lf 0))) (.nd (.nd (.lf
  0x2222222222222222200000000011110103110210210222222000000000000000000000000000000000000000000000000000000000000000000000000000000000000000000022222222222222222000000000111101)
  (.lf 0)) (.nd (.lf
  0x222222222222222220000000001111010311021021022222200000000000000000000000000000000000000000000000000000000000000000000000000000000000000000002222222222222222200000000011110103110210210222222000000000000000000000000000000000000000000000000)
  (.lf 0)))

def aesAndFan10 : BTree :=
  .nd (.nd (.nd (.lf
  0x210222222000000000000000000000000000000000000000000000000000000000000000000000000000000000000000000222222222222222220000000001111010311021021022222200000000000000000000000000000000000000000000000000000000000000000000000000000000000000000002222222222222222)
  (.lf 0x0)) (.nd (.lf
  0x1021021022222200000000000000000000000000000000000000000000000000000000000000000000000000000000000000000022222222222222222000000000111101031102102102222220000000000000000000000000000000000000000000000000000000000000000000000000000000000000000002222222222222)
  (.lf 0))) (.nd (.nd (.lf
  0x2222222222222222200000000011110103110210210222222000000000000000000000000000000000000000000000000000000000000000000000000000000000000000000022222222222222222000000000111101031102102102222220000)
  (.lf 0)) (.nd (.lf
  0x22222222222222222000000000111101031102102102222220000000000000000000000000000000000000000000000000000000000000000000000000000000000000000000222222222222222220000000001111010311021021022)
  (.lf 0)))

def aesAndFan11 : BTree :=
  .nd (.nd (.nd (.lf
  0x2222222222222222200000000011110103110210210222222000000000000000000000000000000000000000000000000000000000000000000000000000000000000000000000000000000000000000000000000)
  (.lf 0)) (.nd (.lf
  0x2222222222222222200000000011110103110210210222222000000000000000000000000000000000000000000000000000000000000000000000000000000000000000000222222222222222220000000001111010311021021022222200000000000000000000000000000000000000)
  (.lf 0))) (.nd (.nd (.lf
  0x2222222222222222200000000011110103110210210222222000000000000000000000000000000000000000000000000000000000000000000000000000000000000000000222222222222222220000000001111010311021021022222200000000000000000000000000000)
  (.lf 0)) (.nd (.lf
  0x3110210210222222000000000000000000000000000000000000000000000000000000000000000000000000000000000000000000022222222222222222000000000111101031102102102222220000000000000000000000000000000000000000000000000000000000000000000000000000000000000000000222222222)
  (.lf 0)))

def aesAndFan12 : BTree :=
  .nd (.nd (.nd (.lf
  0x22222222222222222000000000111101031102102102222220000000000000000000000000000000000000000000000000000000000000000000000000000000000000000000000000000000000000000000000000000000000000000000000000000000)
  (.lf
  0x2000000020000000200000002000000020000000200000002000000020000000200000002000000020000000200000002000000020000000200000002000000020000000200000002000000020000000200000002000000020000000200000002000000020000000200000002000000))
  (.nd (.lf
  0x22222222222222222000000000111101031102102102222220000000000000000000000000000000000000000000000000000000000000000000000000000000000000000002222222222222222200000000011110103110210210222222000000000000000)
  (.lf 0))) (.nd (.nd (.lf
  0x22222222222222222000000000111101031102102102222220000000000000000000000000000000000000000000000000000000000000000000000000000000000000000000222222222222222220000000001)
  (.lf 0)) (.nd (.lf
  0x2222222222222222200000000011110103110210210222222000000000000000000000000000000000000000000000000000000000000000000000000000000000000000000022222222222222222000000000111101031102102102222220000000000000000000000000000000000000000)
  (.lf 0)))

def aesAndFan13 : BTree :=
  .nd (.nd (.nd (.lf 0x0) (.lf 0)) (.nd (.lf
  0x11110103110210210222222000000000000000000000000000000000000000000000000000000000000000000000000000000000000000000222222222222222220000000001111010311021021022222200000000000000000000000000000000000000000000000000000000000000000000000000000000000000000)
  (.lf 0))) (.nd (.nd (.lf
  0x2222200000000011110103110210210222222000000000000000000000000000000000000000000000000000000000000000000000000000000000000000000022222222222222222000000000111101031102102102222220000000000000000000000000000000000000000000000000000000000000000000000000000000)
  (.lf 0)) (.nd (.lf
  0x2222222222222222200000000011110103110210210222222000000000000000000000000000000000000000000000000000000000000000000000000000000000000000000022222222222222222000000000111101031102102102222220000)
  (.lf 0)))

def aesAndFan14 : BTree :=
  .nd (.nd (.nd (.lf
  0x2222222222222222200000000011110103110210210222222000000000000000000000000000000000000000000000000000000000000000000000000000000000000000000222222222222222220000000001111010311021021022222200000000000000000000000000000000000000000000000000000000000)
  (.lf 0x0)) (.nd (.lf
  0x222222222222222220000000001111010311021021022222200000000000000000000000000000000000000000000000000000000000000000000000000000000000000000022222222222222222000000000111101031102102102222220000000000000000000000000000000000000000000000000000)
  (.lf 0))) (.nd (.nd (.lf
  0x222222222222222220000000001111010311021021022222200000000000000000000000000000000000000000000000000000000000000000000000000000000000000000002222222222222222200000000011110103110210210222222000000000000000000000000000)
  (.lf 0)) (.nd (.lf
  0x111101031102102102222220000000000000000000000000000000000000000000000000000000000000000000000000000000000000000000222222222222222220000000001111010311021021022222200000000000000000000000000000000000000000000000000000000000000000000000000000000000000000002)
  (.lf 0)))

def aesAndFan15 : BTree :=
  .nd (.nd (.nd (.lf
  0x222222222222222220000000001111010311021021022222200000000000000000000000000000000000000000000000000000000000000000000000000000000000000000002222222222222222200000000011110103110210210222222000)
  (.lf 0)) (.nd (.lf
  0x222222222222222220000000001111010311021021022222200000000000000000000000000000000000000000000000000000000000000000000000000000000000000000002222222222222222200000000011110103110210)
  (.lf 0))) (.nd (.nd (.lf
  0x2222222222222222200000000011110103110210210222222000000000000000000000000000000000000000000000000000000000000000000000000000000000000000000222222222222222220000000001)
  (.lf 0)) (.nd (.lf
  0x222222222222222220000000001111010311021021022222200000000000000000000000000000000000000000000000000000000000000000000000000000000000000000022222222222222222000000000111101031102102102222220000000000000000000000000000000000000000000000000000)
  (.lf 0)))

def aesAndFan16 : BTree :=
  .nd (.nd (.nd (.lf
  0x2000000020000000200000002000000000000000000000000000000000000000000000000000000000000000000000000000000000000000000000000000000020000000200000002000000020000000000000000000000000000000000000000000000000000000000000000000000000000000000000000000000000000000)
  (.lf
  0x200000002000000020000000200000000000000000000000000000000000000000000000000000000000000000000000000000000000000000000000000000000000000000000000000000000000000000000000000000000000000000000000000000000000000000000000000000000000000000000000000000000000000))
  (.nd (.lf
  0x2222222222222222200000000011110103110210210222222000000000000000000000000000000000000000000000000000000000000000000000000000000000000000000222222222222222220000000001111010311021021022222200000000000000000000000000000000000000000000)
  (.lf 0))) (.nd (.nd (.lf
  0x2222222222222222200000000011110103110210210222222000000000000000000000000000000000000000000000000000000000000000000000000000000000000000000022222222222222222000000000111101031102102102222220)
  (.lf 0)) (.nd (.lf
  0x222222222222222220000000001111010311021021022222200000000000000000000000000000000000000000000000000000000000000000000000000000000000000000002222222222222222200000000011110103110210210222222000000000000000000000000000000000000000000000000000000000000)
  (.lf 0)))

def aesAndFan17 : BTree :=
  .nd (.nd (.nd (.lf
  0x2222222222222222200000000011110103110210210222222000000000000000000000000000000000000000000000000000000000000000000000000000000000000000000222222222222222220000000001111010311)
  (.lf 0)) (.nd (.lf
  0x22222222222222222000000000111101031102102102222220000000000000000000000000000000000000000000000000000000000000000000000000000000000000000002222222222222222200000000011)
  (.lf 0))) (.nd (.nd (.lf
  0x311021021022222200000000000000000000000000000000000000000000000000000000000000000000000000000000000000000002222222222222222200000000011110103110210210222222000000000000000000000000000000000000000000000000000000000000000000000000000000000000000000022222222)
  (.lf 0)) (.nd (.lf
  0x222222222222222220000000001111010311021021022222200000000000000000000000000000000000000000000000000000000000000000000000000000000000000000002222222222222222200000000011110103110210210222222000000000000000000000000)
  (.lf 0)))

def aesAndFan18 : BTree :=
  .nd (.nd (.nd (.lf
  0x2000000000111101031102102102222220000000000000000000000000000000000000000000000000000000000000000000000000000000000000000000222222222222222220000000001111010311021021022222200000000000000000000000000000000000000000000000000000000000000000000000000000000000)
  (.lf 0x0)) (.nd (.lf
  0x2222000000000111101031102102102222220000000000000000000000000000000000000000000000000000000000000000000000000000000000000000002222222222222222200000000011110103110210210222222000000000000000000000000000000000000000000000000000000000000000000000000000000000)
  (.lf 0))) (.nd (.nd (.lf
  0x2222222222222222200000000011110103110210210222222000000000000000000000000000000000000000000000000000000000000000000000000000000000000000000022222222222222222000000000111)
  (.lf 0)) (.nd (.lf
  0x2222000000000000000000000000000000000000000000000000000000000000000000000000000000000000000000022222222222222222000000000111101031102102102222220000000000000000000000000000000000000000000000000000000000000000000000000000000000000000000222222222222222220000)
  (.lf 0)))

def aesAndFan19 : BTree :=
  .nd (.nd (.nd (.lf 0x0) (.lf 0)) (.nd (.lf
  0x222222222222222220000000001111010311021021022222200000000000000000000000000000000000000000000000000000000000000000000000000000000000000000022222222222222222000000000111101031102102102222220000000000000000)
  (.lf 0))) (.nd (.nd (.lf
  0x222222222222222220000000001111010311021021022222200000000000000000000000000000000000000000000000000000000000000000000000000000000000000000022222222222222222000000000111101031102102102222220000000)
  (.lf 0)) (.nd (.lf
  0x2222222200000000011110103110210210222222000000000000000000000000000000000000000000000000000000000000000000000000000000000000000000022222222222222222000000000111101031102102102222220000000000000000000000000000000000000000000000000000000000000000000000000000)
  (.lf 0)))

def aesAndFan20 : BTree :=
  .nd (.nd (.nd (.lf
  0x2000000020000000200000002000000000000000000000000000000000000000000000000000000000000000000000000000000000000000000000000000000020000000200000002000000020000000000000000000000000000000000000000000000000000000000000000000000000000000000000000000000000000000)
  (.lf
  0x200000002000000020000000200000002000000020000000200000002000000020000000200000002000000020000000200000002000000020000000200000002000000020000000200000002000000020000000200000002000000020000000200000002000000020000000200000002000000020000000200000002000000))
  (.nd (.lf
  0x2222222222222222200000000011110103110210210222222000000000000000000000000000000000000000000000000000000000000000000000000000000000000000000222222222222222220000000001111010311021021)
  (.lf 0))) (.nd (.nd (.lf
  0x1110103110210210222222000000000000000000000000000000000000000000000000000000000000000000000000000000000000000000022222222222222222000000000111101031102102102222220000000000000000000000000000000000000000000000000000000000000000000000000000000000000000000000)
  (.lf 0)) (.nd (.lf
  0x2222222222222222200000000011110103110210210222222000000000000000000000000000000000000000000000000000000000000000000000000000000000000000000022222222222222222000000000111101031102102102222220000000000000000)
  (.lf 0)))

def aesAndFan21 : BTree :=
  .nd (.nd (.nd (.lf
  0x22222222222222222000000000111101031102102102222220000000000000000000000000000000000000000000000000000000000000000000000000000000000000000000222222222222222220000000001111010311021021022222200000)
  (.lf 0)) (.nd (.lf
  0x222222222222222220000000001111010311021021022222200000000000000000000000000000000000000000000000000000000000000000000000000000000000000000022222222222222222000000000111101031102102102222220000000000000000000000000000000000000000000000000000000000000000000)
  (.lf 0))) (.nd (.nd (.lf
  0x2222222222222222200000000011110103110210210222222000000000000000000000000000000000000000000000000000000000000000000000000000000000000000000022222222222222222000000000111101031102102102222220000000000000000000000000000000000000000000000000000000)
  (.lf 0)) (.nd (.lf
  0x2222222222222222200000000011110103110210210222222000000000000000000000000000000000000000000000000000000000000000000000000000000000000000000022222222222222222000000000111)
  (.lf 0)))

def aesAndFan22 : BTree :=
  .nd (.nd (.nd (.lf
  0x222222222222222220000000001111010311021021022222200000000000000000000000000000000000000000000000000000000000000000000000000000000000000000022222222222222222000000000111101031102102102222220000000000000000000000000000000000000)
  (.lf 0x0)) (.nd (.lf
  0x22222222222222222000000000111101031102102102222220000000000000000000000000000000000000000000000000000000000000000000000000000000000000000002222222222222222200000000011110103110210210222222000000000000000000000000000000)
  (.lf 0))) (.nd (.nd (.lf 0x0) (.lf 0)) (.nd (.lf
  0x2222222222222222000000000111101031102102102222220000000000000000000000000000000000000000000000000000000000000000000000000000000000000000000222222222222222220000000001111010311021021022222200000000000000000000000000000000000000000000000000000000000000000000)
  (.lf 0)))

def aesAndFan23 : BTree :=
  .nd (.nd (.nd (.lf
  0x222222222222222220000000001111010311021021022222200000000000000000000000000000000000000000000000000000000000000000000000000000000000000000002222222222222222200000000011)
  (.lf 0)) (.nd (.lf
  0x2102222220000000000000000000000000000000000000000000000000000000000000000000000000000000000000000000222222222222222220000000001111010311021021022222200000000000000000000000000000000000000000000000000000000000000000000000000000000000000000002222222222222222)
  (.lf 0))) (.nd (.nd (.lf
  0x1110103110210210222222000000000000000000000000000000000000000000000000000000000000000000000000000000000000000000222222222222222220000000001111010311021021022222200000000000000000000000000000000000000000000000000000000000000000000000000000000000000000022222)
  (.lf 0)) (.nd (.lf
  0x22222222222222222000000000111101031102102102222220000000000000000000000000000000000000000000000000000000000000000000000000000000000000000002222222222222222200000000011110103110210210222222000000000000000000000000000000)
  (.lf 0)))

def aesAndFan24 : BTree :=
  .nd (.nd (.nd (.lf
  0x2000000020000000200000002000000000000000000000000000000000000000000000000000000000000000000000000000000000000000000000000000000020000000200000002000000020000000000000000000000000000000000000000000000000000000000000000000000000000000000000000000000000000000)
  (.lf
  0x200000002000000020000000200000002000000020000000200000002000000020000000200000002000000020000000200000002000000020000000200000002000000020000000200000002000000020000000200000002000000020000000200000002000000020000000200000002000000020000000200000002000000))
  (.nd (.lf
  0x1111010311021021022222200000000000000000000000000000000000000000000000000000000000000000000000000000000000000000022222222222222222000000000111101031102102102222220000000000000000000000000000000000000000000000000000000000000000000000000000000000000000)
  (.lf 0))) (.nd (.nd (.lf
  0x22222222222222222000000000111101031102102102222220000000000000000000000000000000000000000000000000000000000000000000000000000000000000000000000000000000000000000000000)
  (.lf 0)) (.nd (.lf
  0x1022222200000000000000000000000000000000000000000000000000000000000000000000000000000000000000000002222222222222222200000000011110103110210210222222000000000000000000000000000000000000000000000000000000000000000000000000000000000000000000022222222222222222)
  (.lf 0)))

def aesAndFan25 : BTree :=
  .nd (.nd (.nd (.lf 0x22222222222222222000000000111101031102102102222220000000000000000000000000000000) (.lf 0)) (.nd (.lf
  0x2222222222222222200000000011110103110210210222222000000000000000000000000000000000000000000000000000000000000000000000000000000000000000000222222222222222220000000001111010311021021022222200000000000000000000000)
  (.lf 0))) (.nd (.nd (.lf
  0x2222222222222222200000000011110103110210210222222000000000000000000000000000000000000000000000000000000000000000000000000000000000000000000022222222222222222000000000111101031102102102222220000000)
  (.lf 0)) (.nd (.lf
  0x2222222222220000000001111010311021021022222200000000000000000000000000000000000000000000000000000000000000000000000000000000000000000002222222222222222200000000011110103110210210222222000000000000000000000000000000000000000000000000000000000000000000000000)
  (.lf 0)))

def aesAndFan26 : BTree :=
  .nd (.nd (.nd (.lf
  0x22222222222222222000000000111101031102102102222220000000000000000000000000000000000000000000000000000000000000000000000000000000000000000000222222222222222220000000001111010311021)
  (.lf 0x0)) (.nd (.lf
  0x222222222222222220000000001111010311021021022222200000000000000000000000000000000000000000000000000000000000000000000000000000000000000000022222222222222222000000000111101031)
  (.lf 0))) (.nd (.nd (.lf
  0x2222222222222222200000000011110103110210210222222000000000000000000000000000000000000000000000000000000000000000000000000000000000000000000022222222222222222000000000111101031102102102222220000000000000000000000000000)
  (.lf 0)) (.nd (.lf
  0x22222222222222222000000000111101031102102102222220000000000000000000000000000000000000000000000000000000000000000000000000000000000000000000222222222222222220000000001111010311021021022222200000000000000000000)
  (.lf 0)))

def aesAndFan27 : BTree :=
  .nd (.nd (.nd (.lf 0x0) (.lf 0)) (.nd (.lf
  0x22222222222222222000000000111101031102102102222220000000000000000000000000000000000000000000000000000000000000000000000000000000000000000002222222222222222200000000011110103110210210222222000000000000000000000000000000000000000000000000000000000000)
  (.lf 0))) (.nd (.nd (.lf
  0x22222222222222222000000000111101031102102102222220000000000000000000000000000000000000000000000000000000000000000000000000000000000000000002222222222222222200000000011110103110210210222222000000000000000000000000000000000000000000000000000)
  (.lf 0)) (.nd (.lf
  0x22222222222222222000000000111101031102102102222220000000000000000000000000000000000000000000000000000000000000000000000000000000000000000000222222222222222220000000001111010)
  (.lf 0)))

def aesAndFan28 : BTree :=
  .nd (.nd (.nd (.lf
  0x22222222222222222000000000111101031102102102222220000000000000000000000000000000000000000000000000000000000000000000000000000000000000000000222222222222222220000000001111010311021021022222200000000000000000000000000000000000)
  (.lf 0x0)) (.nd (.lf
  0x222222222222222220000000001111010311021021022222200000000000000000000000000000000000000000000000000000000000000000000000000000000000000000022222222222222222000000000111101031102102102222220000000000000000000000000000000000000)
  (.lf 0))) (.nd (.nd (.lf 0x0) (.lf 0)) (.nd (.lf
  0x2222222222222222200000000011110103110210210222222000000000000000000000000000000000000000000000000000000000000000000000000000000000000000000022222222222222222000000000111101031102102102222220000000000000000000000000000000000000000000000000000000000000000)
  (.lf 0)))

def aesAndFan29 : BTree :=
  .nd (.nd (.nd (.lf
  0x22222222222222222000000000111101031102102102222220000000000000000000000000000000000000000000000000000000000000000000000000000000000000000000000000000000000000000000000000)
  (.lf 0)) (.nd (.lf
  0x2222220000000000000000000000000000000000000000000000000000000000000000000000000000000000000000002222222222222222200000000011110103110210210222222000000000000000000000000000000000000000000000000000000000000000000000000000000000000000000222222222222222220000)
  (.lf 0))) (.nd (.nd (.lf
  0x1102102102222220000000000000000000000000000000000000000000000000000000000000000000000000000000000000000002222222222222222200000000011110103110210210222222000000000000000000000000000000000000000000000000000000000000000000000000000000000000000000222222222222)
  (.lf 0)) (.nd (.lf
  0x2222222222222222200000000011110103110210210222222000000000000000000000000000000000000000000000000000000000000000000000000000000000000000000022222222222222222000000000111101031102102102222220000000000000000000000000000)
  (.lf 0)))

def aesAndFan30 : BTree :=
  .nd (.nd (.nd (.lf
  0x2220000000001111010311021021022222200000000000000000000000000000000000000000000000000000000000000000000000000000000000000000022222222222222222000000000111101031102102102222220000000000000000000000000000000000000000000000000000000000000000000000000000000000)
  (.lf 0x0)) (.nd (.lf
  0x2222222222200000000011110103110210210222222000000000000000000000000000000000000000000000000000000000000000000000000000000000000000000222222222222222220000000001111010311021021022222200000000000000000000000000000000000000000000000000000000000000000000000000)
  (.lf 0))) (.nd (.nd (.lf
  0x222222222222222220000000001111010311021021022222200000000000000000000000000000000000000000000000000000000000000000000000000000000000000000002222222222222222200000000011110103110210210222222000000000000000000000000000000000000000000000000000)
  (.lf 0)) (.nd (.lf
  0x222222222222222220000000001111010311021021022222200000000000000000000000000000000000000000000000000000000000000000000000000000000000000000002222222222222222200000000)
  (.lf 0)))

def aesAndFan31 : BTree :=
  .nd (.nd (.nd (.lf 0x0) (.lf 0)) (.nd (.lf
  0x222222222222222220000000001111010311021021022222200000000000000000000000000000000000000000000000000000000000000000000000000000000000000000002222222222222222200000000011110103110210210222222000000000000000)
  (.lf 0))) (.nd (.nd (.lf
  0x22222222222222222000000000111101031102102102222220000000000000000000000000000000000000000000000000000000000000000000000000000000000000000002222222222222222200000000011110103110210210222222)
  (.lf 0)) (.nd (.lf 0x222222222222222220000000001111010311021021022222200000000000000000000000000000000000000000000000000000000000000000000000000) (.lf 0)))

/-- How often the AND gates read a wire: 4 bits each, 256 per leaf. -/
def aesAndFan : BTree :=
  .nd (.nd (.nd (.nd (.nd (aesAndFan0) (aesAndFan1)) (.nd (aesAndFan2) (aesAndFan3))) (.nd (.nd (aesAndFan4) (aesAndFan5)) (.nd (aesAndFan6) (aesAndFan7)))) (.nd
  (.nd (.nd (aesAndFan8) (aesAndFan9)) (.nd (aesAndFan10) (aesAndFan11))) (.nd (.nd (aesAndFan12) (aesAndFan13)) (.nd (aesAndFan14) (aesAndFan15))))) (.nd (.nd
  (.nd (.nd (aesAndFan16) (aesAndFan17)) (.nd (aesAndFan18) (aesAndFan19))) (.nd (.nd (aesAndFan20) (aesAndFan21)) (.nd (aesAndFan22) (aesAndFan23)))) (.nd (.nd
  (.nd (aesAndFan24) (aesAndFan25)) (.nd (aesAndFan26) (aesAndFan27))) (.nd (.nd (aesAndFan28) (aesAndFan29)) (.nd (aesAndFan30) (aesAndFan31)))))

def aesAndOrder0 : BTree :=
  .nd (.nd (.nd (.lf
  0x72801db0073401d400504015200510014b002e400ca002f000c32318c8c79231a48c6622a408b7b22b908aac2340c8d0e234688d0621428851321430851121c80872621cd48722224b48944224bc893c22fb48c0922fc88bfb21fc8880d21ffc8808221f8888722200888221a44869c21a7c8693239948e7a2399c8e71239848ee023b548edb21828861021860860d)
  (.lf
  0x609419190632019320634c190405a3c190f0631c190d06310182806450190e0631818ff06400190c0641c19080640c19010f0503a200f0243a6f0f0483a710f0d43a780efe03bca0f0183c040e9b43bcc0f0343c050ef043bf30efd03c030eff03bfd0efdc506014030505514010505e14020507a1404c50441401850521414050001401c5059141445002140fc5040))
  (.nd (.lf
  0x857021a5085642148086b821a60856c21940865421a408674219e086602196106703d93106383ea5106283ea2106883e9b105f03eae1060c418c0fcd03ea710608418d0fa7841741060441a51062c4196105ec262609748261b0972c262409738263809764260a095b826180967426160972025cd0987c261709728260509818261509838260f0982426070953c24fb)
  (.lf
  0x7a441e7c079b032ff0cbb832df0c0402fff0bfc0454e114f4452e06d4c1b4206ccc585316108583302f500bc302ed0170f05bf816ef0898822510890834570d11834370a048280109fc82a970aa182a770ca0832710c988481a1202447fa058f8162d0587814dd0533014bd06a581a85069d81d8f075f81d6f02534093c024b433c60ced433a60e69439940e614478c)))
  (.nd (.nd (.lf
  0x232188acf22b4c8c7e232308acd232648c93232548c77232288c8222e688a8522e048a8a22bb88a7f22eac8a9f22e108a6d22abc8b8d229ec8a9122e0c8b8a229dc8b8c22e248baa22bbc8b9422e388d48233cc8d2a233588d35233948d39233b08d25233608d0a2344c8ce72336c8d212345c8cef234488d18234ec8d34234c08d29214c484ff214b0843d2153484f8)
  (.lf
  0x169a85a6b169945ccf171ec5cc4171d05ccd171dc5ce5172085cb3171085cc1172fc5c71171d85cc8173005c73172b85caf172f85cb7172e05cb215a34563915a08555815a2c563515a7c5640159c45581159fc567d158c4558215a18567e158cc566c159b4567c159d45676159c05604155e455f9156ac5602156b85621156dc55e8155e055f6157d055a7156b455fd))
  (.nd (.lf
  0x926c229609298245e09290245b090cc24ab09294245d0925824970928c249e0927c249a092602b950a5e42b8a0ad002b930ad102ba40ad342b7e0ad082b890ae1c2b3c0ad0c2b8e0ae202b3e0ade42b7a0ae182b810ae082b7d0c72031590c6f431740c71831770c75c31800c6c431630c6f031ba0c5c031760c70431bb0c5c831ac0c6b431b90c6d031b50c6c02f2d)
  (.lf 0)))

def aesAndOrder1 : BTree :=
  .nd (.nd (.nd (.lf
  0x267c09b00268809a90637c18f00638818e90ef4c3be40ef583bdd1407c503014088502916f4c5be416f585bdd17d945f7617da05f6f1bd346f5e1bd3c6f561dc7c772f1dc88772b079541e66079601e5f0cb2032d90cb2c32d20bf642fea0bf702fe31145c452811468452106c701b2d06c7c1b2616070582d1607c582602e740bae02e800ba705b6016e905b6c16e2)
  (.lf
  0x1f0407c591f0687c4c1f0207c531efcc7c8f1f0dc7c231f0547c551f1447c0e1f0d87c7f1f1347c5b1f1407c6d227247e1a226c07e19226f07e31228947e3d226b07e4e2267489bf1f7847e32226d089c51f90c89c0227108a24226ec89c8226bc826320838828b208c4824f2087c856f20850825b2061c825320910822420864825c2091c8228209448256215b8824e))
  (.nd (.lf
  0x8e6423a508e8023a108e70239a0209007d50206407cd0208807d1020d007dc0203407cf02060081601f2407d002074081701f2c080802024081502040081102030079b01d30079001d10079901d2007ab01d4c078401d18078f01e34074001d1c079401e38074201dfc078001e30078701e2007830b2a029130b274293c0b298293e0b2dc29450b2442c630b2702c9a)
  (.lf 0))) (.nd (.nd (.lf
  0x144885207144d451de13ec8522314748512f1449c51d814774512a1474451cf1480c51c71479c51db145a04fbb145c84fa51453c4fd2145b44fde1460c4fce14544515b13e04508014614515913f40515c14560516c145385167145c44e641359c4e5b138404e361384c4e79135a44e4e131904e4a139684d60135984e62139344d65138f44e49139304e57139204e4b)
  (.lf
  0x1900063cf1a28c68721a06867b31925c643c19c4c66e419810652519a60665e195f86544179ec5e29180545e2017bf45df917e1c5e1015ba8558d157945577185dc612c159b8563418310608a172c05c301753c5d1516fd45bc416de05b3e1698c59fa1a52c691116b845aa714f8053ba188a053a818b8061da15028538e14358509c141045003147284fc4145484fe1))
  (.nd (.lf
  0x58d0162f058c0162b058a414e20524c14d70523014e00523c14f50526814cb043c414d60447414d405224148e0536c14d50522c14c60531c14d30533814cf0532814c806a6c1a4c06a401a4506a641a4806ab81a5306a1017f706a3c197a06a341a420691c1a9406a381a44069fc1a8006a301a8706a201a8306a041d94075141d89072801d92075041da3075301d7d)
  (.lf 0)))

def aesAndOrder2 : BTree :=
  .nd (.nd (.nd (.lf
  0x7ce81f4b07cf41f4408de0238908dec238201fa007f901fac07f201d7c077001d8807690b1b02c7d0b1bc2c760d81836170d82436100bd982f770bda42f700eb783aef0eb843ae80ddf8378f0de0437881127844af1128044ab0ff603fe90ff6c3fe2101d84087101e440800f7283ddb0f7343dd41527054a115290549e16468593216494592f12d8c4b7f12e404b7c)
  (.lf
  0x1e03877ad1dfbc754d1e01477de1de98779d1dfb877d01de7077dd1df8077ff1df2477db1df8c80231ff2080111ff8c800d1fe6080281ff4080141fefc7ff71fffc7f951ff148034200f87fc720000803f200ac800e2007080121dbcc75861db6875501db94751a1dbb075621db44757c1db8076d51dacc755f1db4076d81d63076d41db5c76ed1db9876f51db6c7a83))
  (.nd (.lf
  0xf7c83df30f7b854cc1524454b81490854c61491054cf1522454bc1351054ad153045458149a854bb152c454571530854b2153a054c71535054b716554590916508590d165285904165805916164e84d4a16504596b16444590116518595816430596a1655c5963165245950164e44bb012b2c4ba712b344bac12b004b9d12b4c4ba012d7c4b8812e2449c212b404ba1)
  (.lf 0))) (.nd (.nd (.lf
  0x18ec05fd019180644017dc05fe0192c0645017e40636018dc0643018f8063f018e805c9015e805be015c805c7015d805d80160405b2015d005bd016ec056e015d405c2016f00570016b405ae016e805b5016d805b10150004f1014d404e9014f804ed0153c04f8014a404eb014d005320139404ec014e405330139c0524014940531014b0052d014a004b8011a404ad)
  (.lf
  0x236f48dd3237108dd8237348dde034240cba033f80cb20341c0cb6034700cc1033c80cb4033f40cfb032b80cb5034080cfc032c00ced033b80cfa033d40cf6033c48b4c22a708b3922c048b2922c108b6122bd48b3222b0c8b2c22d048af922c248b3422d108afc22cfc8b4522d888b2a22d208b37031f80c2f031cc0c27031f00c2b0323c0c360319c0c29031c80c70))
  (.nd (.lf
  0x107d44242108f041f2108b4422e108e84235108d842310c25030450c22430410c2482ebf0c28c304c0c1f430430c22030860ba5c30440c23430870c0fc30780c1e430850c20030810c1f0373f0dbc037340dba4373d0dbb0374f0dbdc37280dad837330dcc436e60dbac37380dcc836e80dc8c37240dcc0372b0dcb03727111d443ce111a84420111cc442411214442d)
  (.lf 0)))

def aesAndOrder3 : BTree :=
  .nd (.nd (.nd (.lf
  0x23bd08eeb239548ee623ba88ef823c048f0623c648638217908644217988632217f88626217c48621216948652218ac85e8217bc862d2187485eb218b086172189c8636218d48643211e8848b211f484842369c8db3236a88daf033340cde033400cd722c588b2722c608b23031080c53031140c4c13b204ed913b2c4ed216d585b6716d645b601828860b31829460ac)
  (.lf
  0x1c71471711c6e8716a1c70c716d1c76471781c6a470261c6dc71b51c59c716c1c6f871b61c5a471a41c69471b41c6b471ae1c6a06e051b5fc6dfa1b6ac6e031b6bc6e171b6e06de91b6b46df71b7d46da71b6b86dfe1b7d86da91b7906de51b7d06ded1b7b86de81a5a869161a57c68ff1a5a069121a610691d1a53868f71a570695a1a43869011a58c695b1a4406949))
  (.nd (.lf
  0x613c18b106168188b05a2818960613818940612c18320626c18950613418860621c189306238188f062281888083f0208c083c4209a083e8209c0842c20a30839420b7083c020b1083b82098082e420f5083bc20ae0838020e1083b420e8083a420e40838835cd0d47835c20d4d835cb0d4e035de0d4fc35b60d62035c10d6fc35340d62835c60d700357f0d6c435b2)
  (.lf 0))) (.nd (.nd (.lf
  0x201e47e25201c47e7f2025c7e9d201ec8059201c080a31f8a87e832021880871f9f48082202148094201c8808a201e083881faac80ca1fa247ed91fa5483a81fa4480c51f8387ecd20ec47e991fb0480c720e147e9720eb0838420e387eda20e4c80cb2041080ce204147e1d203c87e69204607e5e203fc7e64203d880ee1f75c7e65203f880f71f96880f8203d48117)
  (.lf
  0x3c380efe1e5ec79761e5d47b0b1ec0c7b02206a481a82069082f320bc882f1201d480642018480c11fb507ed2203e480e120380766a1d9a476651ba606e631b98471141c3f870fd1c1b8705f1c178672c19cac672a14f9c53d714f5462e418b4c62d21506054031500851e01475451c214588515f145784e55138fc4e2d137484dc0136d452b414a285279103bc40df))
  (.nd (.lf
  0x6d341b0206d581b0506dac1b1006d041ad306d301add06d281aff06c101b5106d2c1b0106cf01b3d06d241b4406d141b4006cf8585816024584d15fc4585616014586f16040584115fcc584c16128580115fd058511612c5803160f0583d16124584416114584002f640b8a02f380b8602f5c0b7002fb00b9102f080b8802f340b8502f2c0b6502e240bd202f300b84)
  (.lf 0)))

def aesAndOrder4 : BTree :=
  .nd (.nd (.nd (.lf
  0x20658819e20660819a20b4482e520b5882d42017080732017c80691fadc80bf1fb407ec82035c80ea2036480e51d91c765e1d98876561b9106e5a1b9706e521c3d471091c3e071011c15070671c15c706019c28671019c80670c14f1c53cd14f3c53c918b2462e218b3062d714ff4540d14ffc54051468051cb1470051a21450051541450851491388c4e37138984e2e)
  (.lf
  0x1e0f478531e11478401ee8c756d1ef34757e1ee4c75581ee9c7b6a1ee7875741ee5c7b951d4b075701ee807b961d5c87b8a1ee347ba61ee507bad1eeac7a0d1e44879fe1e4987a041e47c7a0a1e4c479f91e74c79e91e7c479141e71879fb1e7c879c31e88879ee1e8187a1a1e83079ff02ca80ad602c7c0ace02ca00ad202d400add02c380ad002c700acd02c680aca))
  (.nd (.lf
  0x395008dc039880e17039800e14037f40e69039840e160393c0e500397c0e58039640e53039441248047d0123d047b41246047c01276047ec122c02abc123a044141238047a811ef049041239047b01227048a01237048c01231048ac1229047101170046e4116904708116c047581177046a00aac046d8110f046d01166045ac11bd046d411680468c11a4046cc11ac)
  (.lf
  0x1a9ac6a5b1aed46ba01ae40743a1d09474151c70071ab1c66c6e001b7ac6ddb1a59469501a5005d69175505d4418644617c185b05f1717c085ef219ac8669d19a3468341a07c680f1cc6073031cbcc7edd1f6987da51c97072471c8dc7c461f1107c40226cc89a82269482c620960823e15eb8579915e2450f01436c50cb17a545e80179c0641a1901463f51b3506cbf)))
  (.nd (.nd (.lf
  0xe4c038e00c7802cf00c4c02c700c7002cb00cb402d600c1c02c900c48031000b0c02ca00c5c031100b14030200c0c030f00c28030b00c180293008fc0288008dc0291008ec02a5009180277008e4028500a0c0233008e8028c00a100235009c8027300a08027b009f002760081801b7007ec01af0081001b30085401be007bc01b1007e801f8006ac01b2007fc01f9)
  (.lf
  0x1825860c7181b860d51834c6087181e460dc1835060891830860c31834860cb1833060c615c24558f15bf856b015c1c56b315c7c56bc15bb4558e15bec56f915ab056b215c0856fa15ab856e815ba456f815bc456f215bb07d1d1f3247d121f3087d1b1f3147d381f3407d011af987d0f1f4347cbf1f3107d161f4387cc11f3f07cfd1f4307d051f4187d001891c61f3))
  (.nd (.lf
  0x1294c4aa4126604ab5129784a8f129544a9a12a6048ea129584a9f12a644a5112a284a8b12a5c4a9212a4c4a8e040080fb303fdc0f96040000faf040540fba03fac0c0803fd80fae03fd00fab03e640ffb03fd40fad03f980fe703fcc0fee03fbc0fea03fa014520500c144704ff0145004ffc146505028143b03d68144604464144404fe413fe0512c144504fec1436)
  (.lf 0)))

def aesAndOrder5 : BTree :=
  .nd (.nd (.nd (.lf
  0x1c61071951c61c718e1b7106dd51b71c6dce1a4a4693a1a4b06933174b45d3e174c05d3718554616618560615f17b6c5eec17b785ee5199d86687199e4668019fe0680919fec68021cb7072ed1cb7c72e61f6287dad1f6807da81c88072311c88c722a1f0a87c2f1f0f47c2c2265c89a12268c8999208dc8240208f0823915dc8578315dd4577c142d050c5142dc50be)
  (.lf
  0x17b0c5f1517c345ec017bec5efc17c2c5f0417c145eff19adc652e19ab0652c19ad4666119b30666a19a6c665f19aa466a7193bc666019ac066a819970669619a5c66a619a7c66a019a68683919ed0682e19f7c683719f8c684e19fb0681d19f84682b1a0a467db19f8868321a0a867dd1a06068191a0a068211a088681c1cc7472ae1cc4872c31cc6c72c71ccc872d0))
  (.nd (.lf
  0x128bc4a29127804a1a1286c4a27128884a231287808ad0217808a20215808ab0216808c00219408960216008a102154089f0214808590229808a002150089102248089e02264089a02254089304ea4135a04e78135204e9c135604f00136104e48135404e74135104e6c134e04d5413a204e70135004e34138e04e68139504e58139104e3c131d04b38131204b18131b)
  (.lf 0))) (.nd (.nd (.lf
  0x1c44070de1c47c71111c468711c1c4cc712b1c1f870351c20c70451c1f4703d1c21870371c1d0700b1c234706b1c0e8703b1c1ec708e1c140706c1c20870a41c19870771c25c673819b74673019920672719930673619b9c674719bac671419c5c670319bc0674519c7066f219c60671d19ce4672819ce8673114fc8535f14fb053c2150cc535915140536614fd0536d)
  (.lf
  0x2252c8933224c88c0b230008bff22344881622010889822244888e21a8c86a221a848e85239c08e6f23bbc8eed23b68862821878861c232d48a6b22cf08abd237208d9222ac08a67234308cfc2146484ea21c9084342127084312260889152301888f12204c87e62230c87b321a68867223a0885b023b888e4c2195c85db1e5bc792a1ec107aef1e79c79cb1e9607902))
  (.nd (.lf
  0xd05034450a0c034500d13834030d02034550d13c34050d10034410d13434480d12434440a05c278a0a03027c20a05427c60a09827cf0a00027c40a02c280909ef827c50a040280a09f0027fb09ff028080a00c280409ffc2a9c0a5a02a910a91c2a9a0a92c2aac0a9502a850a9242a900aa382a430a9282a950aa3c2a450aa002a810aa342a880aa242a840ca1c3238)
  (.lf 0)))

def aesAndOrder6 : BTree :=
  .nd (.nd (.nd (.lf
  0xc3f8310f0c404310810834421e1084042170c16030690c16c30620dc0c37140dc18370d110e4444a110f044430fb843ef20fb903eeb12144486212150485b129a84a7b129b44a7403f180fd703f240fd00505814270506414200672c19dc0673819d50737c1cf0073881ce9091d82487091e424800ad642b6a0ad702b630c630319d0c63c31960bbc42f020bbd02efb)
  (.lf
  0x178f85e79179e85e8917a085e83179f4641f18ea8641418e90641d18e98643118eb8640318f5464111903c63a218f5c64181904063cc18ff863ff1903864071902064021b3646af01b3386aee1b35c6c831b3b06c8c1b2f46c811b32c6cc91a7586c821b3486cca1b1f86cb81b2e46cc81b3046cc21b2f06c551b0046c4a1aff46c531aca06c671b0206c391affc6c47))
  (.nd (.lf
  0xeb483b030eb1c3b0e0ec303ac10eb203b130ec343ac30ebf83aff0ec2c3b060ec1c3b020dee836d10debc37650dee037690df2437720de8c37670deb837ac0dd8437680decc37ad0dd8c379e0de7c37ab0de9837a70de8844c41125044d71101444cd1122844c710ff444b610fbc44b811380440d1101844b4112f844921137c44bd1132444ce1132044d6100503fc5)
  (.lf 0))) (.nd (.nd (.lf
  0x103f840f41039841031043038b90db5038b00e1b4389b0e1cc38b40e1f438ae0e1c438d60e2f4386f0e1c838b20e28c37ea0e2dc38b80e318389c0e30438ad0ee243a7e0edf83b3e0eda83b440ee883b4d0edec3b360edbc3b730ece83b430ede83b840ed043b720ee143b9d0edac3b8a0edf43cea0e8403cd40e94c3cdb0ea003cee0e9583ccd0ea683cd30f3e03a57)
  (.lf
  0xedc03a1c0efd43bc40f32c3a9d0ec003aac0bfec2fc10c1e830400bc4c2ed90be202f4e10b0442870d8a035f70d6cc3582108bc35720cba82e070b5882d1c0b6542cf60c9b42db60e64039430c4802c4e0c6b831580b2382c5d0abf429720aa0829ac0adec29870a82429900cec4336409ff427690a1d828450d108282f018e005fa016bc05710149804e8012780460))
  (.nd (.lf
  0xe67c39560e6a039590e70039620e64c39440e678399c0e54839580e68c399d0e550398e0e63c399b0e65839970e648479111914478611a70478f11a7847a111a94477a11d30478511e0c469a11d38478a11e10474311dd4477611e08477d11df84779070301bbd070041ba2070281bb90707c1bc406fd41ace070001bb806ff81bb506e901c0506ffc1bb706fc01bf1)
  (.lf 0)))

def aesAndOrder7 : BTree :=
  .nd (.nd (.nd (.lf
  0x22f508c1222f308c0422f348c2622f708c2c21f608c07230e48bde22f888c0f230588bea230e88c17230888c032307c8c2a220dc87bb220b487c72208c87e9220a087f32206c87e12202c881021f0c87de22064884421f9c8811220788829220888835220bc88b1221cc88952216c88b22217088a32219888bd21ec088ff2224c8869221bc889722274886122230889c)
  (.lf
  0x1985466131971465ca1987066141971c66021980c66121982c660c1981864b61918864ab1916c64b41917864c8191a4649a190f464a81929864581917464af1929c645a19254649619294649e1927c64991a30867c81a2dc67c21a30067c41a36067cc1a29868781a2d068b219f00687a1a2ec68b31a1bc68a11a28868b11a2a868ab1a2946a851a8506a7a1a8486a83))
  (.nd (.lf
  0x11c28470511c18470105f20177905ef4175905f18177505f6c178005ec4151105ef0177405ee8177105d7017c105eec177305eb017ad05ee417b405ed417b005eb8233208b8c232708b70233008b7c234108ba8231b07ee8232608ab0232408b6422de08cac232508b6c231608c5c232308c78231f08c6823180ac5c2ac80ac302ac10ac542ac40ac982acf0ac002973)
  (.lf 0))) (.nd (.nd (.lf
  0x42c0106504278109f042b810a7042a010a2042800f2803b500f1d03b400f2603ae80f3c03b6c0f0c03b480f1a03b3c0f1803abc0ed303c840f1903b380f0703c200f1703c400f1103c2c0f091e64c78ad1e608793b1e66c794d1ed6c79461e610793d1e5e8796d1e52c79371e62c796c1e50c796e1e5ac797e1e6c479941e6047b1f1eb487b101eafc7b2e1eb147b28)
  (.lf
  0x5e8c232d08c70230d0ac482b010abc842d610b1442b612cf04b2b12c70189d06230187d083dc20e60835c35c80d6dc35a81173445bc116b43e730f9883e53128c44a201284408a80225c088804e90139304e10131804c1c12f807dc41f6007d4423af08e78238f0207c080e01ffc079601e1407760b28c2c920b20c363d0d8b0361d0be742f8c0bdf43b150ec103af5))
  (.nd (.lf
  0x1be846f661ad306f681bd946f771bd706f721bde4774d1d36877431d344773e1d1cc77521d364775c1d388772e1dccc77181d35877441dce074df1dcd477391dd40773d1dd2c774607a581e4207a2c1ca907a501e3e07b201e49079e8196307a201e3d07a181e3a0720c1e8f07a1c1e3c079d41e7607a141e7e079fc1e79079dc33040b82032f90cabc33020cacc3313)
  (.lf 0)))

def aesAndOrder8 : BTree :=
  .nd (.nd (.nd (.lf
  0x136804dba136cc4db6149985288149c0527d1035440e81035c40e10e1f0389d0e22c38940ed643b640ed6c3b620ea703cc60f2dc3cc10b49c2d390b50c2d350b6342da10b63c2d9101858062701864062001634059e0164005970141005150141c050e011f0048d011fc048600fd0040500fdc03fe00da8037b00db4037400b8802f300b9402ec00948026300954025c)
  (.lf
  0x2b440b2302c6c0acc02c240b0a02c640b1202c4c0b0d02c2c0a67028600a5c028400a65028500a7e0287c0a50028480a5b0283c0a59028300a13029800a5a028380a4b029300a580294c0a540293c0a4d0276c098c027400984027640988027a809930271009860273c09830273409800261c09d4027380982026fc09c00273009c70272009c302704191b063301910))
  (.nd (.lf
  0x46b411a70469415c7055cc15bc0554015c5055bc15d9055e815ab04fb015b9055b815b7055ac15550570015b8055b415a60569c15b6056bc15b0056a815a8078541dc1078281ca50784c1dbd0789c1dc8077e41c3b0781c1dbc078141db90729c1e0e078181dbb077d01df5078101dfd077f81df8077d821b50858421aa0850c21b30857421c7085a02199084ac21a7)
  (.lf
  0x1b2bc6c501b0ec6c2b1d74c75d01d73c6ef81bb8c6ed31e02077f71df4480182002880061db3476c41db0c7a6d1e9b07a6a0a240287b0a1ac78421e0ec782e1ee647b801edfc79f31e78079da02c940b1002c000a62029440a420275809c5026d819160641418f60f03c3bfa0efa8505b1411850361703c5bfa16fa85fa117e305f7c1bdfc6f7a1bdb4773f1dca07724)))
  (.nd (.nd (.lf
  0x6b401ea007ac01f7007c801f3007b8017d004b8017200498017b004a8018c004d40166004a00171005bc0122004a40176005c00124005840162005b80169005a80165003d400a6003a8009e003cc00a20041000ad0037800a0003a400e70026800a1003b800e80027000d90036800e60038400e2003748c9a231608c8322b7c8c7622b548c8f22b648ca42297c8c68)
  (.lf
  0x188f061ec1891461ef18a4861fa188ac53a9188e46237187a461ee189006238187ac62261889c6236188bc6230188a85b00168085af5168005afe16aa85b1a16acc5ae416aa05af216bc059cc16aa45af916bc45aa516b7c5ae016bbc5ae816ba45ae316a085a2e169dc5a2716a005a2a16a505a351699859fb169d05a72168905a29169ec5a73168985a61169885a71))
  (.nd (.lf
  0x50dc1443050f8143f050e814380681c19b8067f019b10681419b40686819bf067c01743067ec197d067e419ae066cc1a00067e819b0067ac19ec067e019f3067d019ef067b41d1b073301d10071dc1d19073201d2a0734c1d04065801d0f0731c1d0d073101c79074501d0e073181cff074001d0c0741c1d080740c1d01092c824630929c242f092c0245f09304246a)
  (.lf 0)))

def aesAndOrder9 : BTree :=
  .nd (.nd (.nd (.lf
  0x179645e6a179705e6318f7863ef18f8463e81b2606ca91b26c6ca21b0506c251b05c6c1e1d6f875c71d73475c01baf06ecd1bafc6ec61deac77ca1deec77c21ffbc7ffa2000c7ff21dae076c81dae876c61e9047a5a1e9a07a550a15028650a15c285e1e07c78291e08478261edd47b871ede07b831e75479ea1e76079e402ba40afa02bb00af3028ac0a3c028b80a35)
  (.lf
  0x1cc0472c51cc3c730d1cafc72c61cc58730e1cb0472fc1cbf4730c1cc1473061cc007ef91f5847ee11f5d47dc01f5807efc1f5fc7ee31f5007dab1f6d47d461f2bc7ee21f6cc7d491f6d87db21fbcc7dbf1fbb07ee51c98471f21c95872071c97c720b1c9d872141c91472091c94c72511c80c720a1c96872521c81472401c90472501c924724a1c9107c4f1effc7c65))
  (.nd (.lf
  0x4b28132c04b54130604b20131104b14130f04b0812c904c58131004b10130104c08130e04c24130a04c14130307dd81f2707dac1f2307dd01eff07e181f2e07d7c1f2507da81f2207da01eea07c981f6f07da41f2107d681f5b07d9c1f6207d8c1f5e07d7023b408d9423a908d7823b208d8423c308db0239d07efc23a808aa423a608d6c236008eb423a708d742398)
  (.lf 0))) (.nd (.nd (.lf
  0x14f7c53e314dbc535614f9453dd14d7053e214f7054311512053f314fb462ed1875c630f18abc62dc18ab062f218aa4631318a8c62df18bd862bf18ad4631218ba462b218bd462ea18bc462db18bb8630e15180538015084537e151a053ad150a4539015090538f1502c541014d4053971507c541414e5054111505454281519854611508851e91447851da144b451c8)
  (.lf
  0x1ffe07fbd2067c7fdd20950820d20b687fab2026c7e851fb2c7e12226807e37204907eb01df84754a1db84755c1ee3c7b651d96876511bb786ead1b9606d751f0e07c021b7986d5f1c42070d51c69870251c90871f11c228700d1d72874a21dd5c74d01e17874811d08073e61b0d86bfc1f3f86bdc1f6a87d9c1ae6c6b611b2e86c801a9986a2c1cbf872ad1bd806f3d))
  (.nd (.lf
  0xc9f032310ca1432340ca64323f0c9c02db70c9ec32790c8b832330ca00327a0c8c0326b0c9b032780c9cc32740c9bc481f119d4481411f28481d11f38483011f5c480811f3048131204447c611f3448181204847c81200c480412040480b1203048070590c15f4058e015440590415f00597815fb058b01516058dc15ef058d415ec05518163c058d815ee0589c1628)
  (.lf 0)))

def aesAndOrder10 : BTree :=
  .nd (.nd (.nd (.lf
  0xe05c38280e068382111b7446ee11b8046e705e30179d05e3c179608bd8230708be423000ab6c2aec0ab782ae510a7c42b010a8842a912c144b1612c204b0f061981877061a418700830020d10830c20ca0d64435a20d650359b1165845a71166445a00f8f03e4d0f8fc3e46127e84a0b127f44a04021c40882021d0087b04db4137e04dc0137704b8412f204b9012eb)
  (.lf
  0x1b1146b261b0006c4e1b1186bfb1b0d06c351b1106c3d1b0f86c381d79475b31d7ac759c1d808759d1d77c75a11d7b874a51d72475d81d6a8759e1d7a075f91d6a075d71d86075de1d7f475e31d7b06efd1b8b86ef21b8a06efb1b8a86f0f1b8c86ee11bacc6eef1bbb46e261bad46ef61bbb86eaa1bb706edd1bbb06ee51bb986ee01df6877a01df7c77951df94779e))
  (.nd (.lf
  0x100243fbe100483fc11008c3fcc0fff43f711002040060feec3fc01003440070fef43ff80ffe440051000040010fff040b20fdec40a71017440b01018440c1101a8409b1017c40a61029040591018040ab10294405b1025840971028c409e1027c409a0f8183d320f7ec3da30f8103da50f8543dac0f7bc3dc10f7e83df80f6843dc30f7fc3df90f6e03dea0f7ac3df7)
  (.lf 0))) (.nd (.nd (.lf
  0xea783cd50f37c3a950f3dc3ce00f3a43cd20f38c3cd10b5442d200b5b42d1d0b5cc2c060b6202d280b5582d130b4e02d3d0b02c2d1f0b5502d6c0b4682d600b5842d5d0b5a42d500b5902dbd0b40c2dc80b3bc2d9d0b3e02dc30b3f02dd40b3dc2d940b6902c310b4282dd20b69c2cee0b6a42da80b7082d9e0b6f82dcf0194806030191c05fb0194005ff01984060a)
  (.lf
  0x105803d801e04074300e30034e00c1002c6024e008fa0202807cc009d00236007b001ae0058c01250036c009d033bc0cb1031900c26212d88407212ac8462212d0846521318846e2127c8432212a884a8211788464212bc84a921180849a2126c84a72128884a3212788dcf235e88ddd2366c8dd6236148dd72363c8dc5235dc8dfb237048d80236108dbf237488d88))
  (.nd (.lf
  0x6ff41bf806fe41bf406fc82a230a7502a180a7302a210a7402a320a76c2a0c0a7382a170a85429c90a73c2a1c0a85829cb0a81c2a080a8502a0f0a8402a0b0c4e830eb0c4bc30e40c4e030e70c52830f20c48c2c4f0c4b8312c0c38430e60c4cc312d0c38c311e0c47c312b0c49831270c4884249107e8423e107cc4247107d8425f1080442320d97c423d108ec41f0)
  (.lf 0)))

def aesAndOrder11 : BTree :=
  .nd (.nd (.nd (.lf
  0x2228888aa222bc88e221b64867821acc866f21ac085cf21b14867d21ab0868421a7886bd21718867a21aa886bb21a1c86be21ae886c421abc86d121ad08e89238648eb4238908e78238708e94238e88ea3216b48e8123a008e122385c8ea123a0c8e1b23a5c8e7e23a4c8e7723a288e9f23c1c8e4f23c7c8e3323c008e5723bec8ec923be48e3523b8c8eec239508e38)
  (.lf
  0x1a8bc6a9a1a8e06a691a8b46a771a9d469fc1a8b86a7e1a9d86a2a1a9906a651a9d06a6d1a9b86a681aee86b031aebc6b011aee06b641af306b6d1ae786b621aeb06baa1ab786b631aecc6bab1ad7c6b991ae686ba91ae886ba31ae74743f1cfac74341cf9c743d1ce8c745a1cfc874231cfa474311d0bc73751cfa874381d0c073e51d078741f1d0b874271d0a07422))
  (.nd (.lf
  0xac2c2b090aaf82ac30ac402b0a0ab002afb0abf02b080ac0c2b040abfc42db10a3042d0109cc42d910a2042f110a4c42c40d5b042cf10b344284109d442d410b38428610afc42c010b3042c710b2042c312d044af212cd84aee12cfc498212d404af912ca84af012cd44b33123c44af112ce84b3412bb04b2512c984b3212cb44b2e12ca418a20614c1897060b418a0)
  (.lf 0))) (.nd (.nd (.lf
  0x1eb347b131eb847aff1ec247ac81eb787b151ec887ae01eca47b211ec707b2f1ec8c7b112071c8177206c88167206dc818a20708817a206bc7fe12067081d3205c8816b207cc81be205c081d2206f481c3206e081c8206b082f81feb882fd20b2c82e01fe30832d2055883011fed882db20bbc814f1feb4830420bac7feb20bb482ea20cb082e120bdc82fe202907e4b)
  (.lf
  0xded437a40de5444b11128c44a21003c3ffe0ffbc40ad10270408d0f8043df00f78454b4152a454a816514593c164d04b9612e504b93132e04caa132a406e301b3806be039ac0e56039181243048b8121e046fc11aa0466815c2056b4159d078401dfb077ac21b00866c218b106404184105d826210983025fc095282535094942044080bc201f042e810a5042540f23))
  (.nd (.lf
  0xcaf032ed0cac432f80cbd832ab0cac832fd0cbdc32ad0cba032e90cbd432f00cbc432ec0c0542fc60c0282fc20c04c2e820c0902fcd0bff82fc40c02430070b9882fc50c03830080bf002ff90bfe830060c00430020bff44553114104548113f445511140045651142c453c10f6845471151444fa113fc454c1151844fc114dc453811510453f11500453b06d601b09)
  (.lf 0)))

def aesAndOrder12 : BTree :=
  .nd (.nd (.nd (.lf
  0x132444c981329c4c9301a9c06b801aa806b1038bc0e40038c80e390481c12180482812110460c119404618118d056181597056241590077501de50775c1dde085d02185085dc217e105844168105a841650979425f6097a025ef09438251f0944425180802020190802c2012041f8108f04204108803b9c0ef803ba80ef11e57879641e5cc79601eb947b061ebd07afb)
  (.lf
  0x1e2d87a741e3047a7e1e8e07a9e1e91c7a711e4bc7a571e98478c51e4c07a701e994792b1e97c7a641ea747a7d1ea107a760a25427740a22827720a24c27980a2a4279f0a1e4284b0a21c288509c84284d0a23828860a10828740a1d428840a1f4287e0a1e078501e050784b1cf2478571d24878391d208783a1d224785f1e1b473ba1d23878491e0d4748c1e18c7834))
  (.nd (.lf
  0x12ee84adb12e284b8b12e704bad12ecc4ba5133244c81133044c70133184c73132c04c78133304c2a132904c9c131d44c721332c4ca0131dc4c9b1327c4cbe132e44cbc1330006e801a5006dd01a3006e601a40070a01a6c06cc01a3806da01a2c06d801a20068f01b8406d901a2806c701b2006d701b4006d101b2c06c9039c00e1c039940e01039b80e1803a580e23)
  (.lf
  0x212c484a0212448db5236b48dac034100cf3033908b2e22c848b20031e40c68031644eff13bb84edf16e485b7d16db460de1832460b915c1056ef15b7c7d181f40c7cf318908622d188745afb16b985ad6169f45a68169605cca172d45ca515a2056731598c55ff157a855da180bc601a1802865981960c6573198786609197e464b119270648c1a2f468a81a2606a80)))
  (.nd (.nd (.lf
  0x118404b60119404c7011c004a10118c04ac012a8045d0119004b1012ac045f01270049d012a404a40129404a0010c003e10109403d9010b803dd010fc03e80106403db01090042200f5403dc010a4042300f5c041401054042101070041d0106003a600d5c039b00d3c03a400d4c03b500d78038f00d44039a00e60034b00d48039f00e64034d00e28038b00e5c0392)
  (.lf
  0x308c0c2a031dc0c71030940c620318c0c6f031a80c6b031984f0413ad44ef913ab44f0213ac44f1b13af04eed13abc4ef813bd84ea913ac04efd13bdc4eab13ba04ee913bd44ef013bc44eec16e5c5b2916e305b2716e545b4116ea45b4a16dec5b3f16e245b8716c985b4016e405b8816cf05b7616ddc5b8616dfc5b8016de860e31823c60d8181dc60e11822c6101))
  (.nd (.lf
  0x111784422111a44467110704423111b84468110784459111684466111844462111743f1d0f6403f120fb203f1b0fb303f2c0fb543f060fb283f110fc3c3ec40fb2c3f160fc403ec60fc043f020fc383f090fc283f0512234464f1220846831222c468512284468c121d8484812204487f11a04484a122184880120fc4871121c8487e121e4487a121d44aa61295c4a9b)
  (.lf 0)))

def aesAndOrder13 : BTree :=
  .nd (.nd (.nd (.lf
  0x15b2056d915b2c56d21f3707ced1f37c7ce618818621718824621016afc5ad016b085ac9169045a52169105a4b172385c9f172445c9815930565d1593c56561570c55d41571855cd17fcc600417fd85ffd19570656d1957c65661978865f31979465ec191d46486191e0647f1a20468921a210688b1a9106a551a91c6a4e1ade46b8a1adf06b831cff8740f1d0047408)
  (.lf
  0x1a52869591a54869531a5345d6e174685d63174045d6c174585da2174845d52173e05d60175785d121740c5d671757c5d14175345d4e175745d561755c5d5118658612d1862c613d186506140186ac6149185e8611f186206186184e4613f1863c6187184ec6175185d86185185f8617f185e45f1c17b205f1117b045f1a17b105f2f17b3c5f00178645f0e17c305ebe))
  (.nd (.lf
  0xd6f835b90d6e835b51174843e51171c457d11740458111788458a116ec457f1171845c4115e445801172c45c5115ec45b6116dc45c3116f845bf116e83e780f4f43e6d0f6003e760f6083e870f6243e610f8cc3e6c0f9a83d7e0f8d43e710f9ac3e2a0f9703e5d0f9a43e640f9943e60128d84992128ac49b1128d049e51291449ee1287c49e3128a84a28126c049e4)
  (.lf 0))) (.nd (.nd (.lf
  0x203c4810b203f4768a1d8c476781d898766e1d8e8768c1d8d476721d62c76581d9f476411d89076731da0876391d9f076811da34766f1da1876751b9f46d4a1b99c6e341ba186d8f1b9d86e451b9a86d931b95c6e801b8f46d8d1b9a06e7e1b8dc6e811b9ec6e771ba146f1f1b9b0713b1c36871231c348710c1c2f0711b1c38871271c3a871061c44c70c71c38c7129)
  (.lf
  0x1037838a40e24c38920eddc3b760edd43cda0f3383cc80b5242d480b51c2db90b6b42dac01934063c018b405c4016cc05a4014ec052a0146c04b3012880493010ac041a0102c03a100e40038100c64030800be4028e009e402690080401f00078401780059c0158003c000df003408c7b231b48c6c22df48ae922ba08d22234748d1c214a0852721498874b21d048740))
  (.nd (.lf
  0x2ef40bbe02f280bc502f180bc102efc171405b14170905a9c171205b04172705b3016fd0546c170805b00170605af416ab05c34170705afc16f805be4170505c00170105bf016fa0899c2218089702211089942214089dc221f089401fb50896c21ec08964220e0884c22600896822100892c224c08960225308950224f08934345c0d03434510d018345a0d024346b)
  (.lf 0)))

def aesAndOrder14 : BTree :=
  .nd (.nd (.nd (.lf
  0x88ac223c088b822350d08034310d08c342a09f6c27ec09f7827e50a9802a710a98c2a6a0c92c325c0c938325511f8c47f411f9847ed0581c16180582816110529814b7052a414b00697c1a70069881a69075601d690756c1d620245809270246409200ce3c33a00ce4833990e5b8397f0e5c4397811d54476611d60475f06f401be106f4c1bda0a79c29f80a7a829f1)
  (.lf
  0x209d8828a15ecc575f15ea0575715ec4575b15f2c576615e5c575915e9457a315d4c575a15eb057a415d54579215e4c57a215e6c579c15e5850f513f0450ea13efc50f31427c5110142a050d91427450e7143944f7e1427850ee14398509a1435050d51439050dd1437850d817a685df117a3c5e4017a605e4417ab05e4d179f85e4217a305e8a178f05e4317a4c5e8b))
  (.nd (.lf
  0xa4e82c650b2842c9b0b1682c8c0b2342c990b2502c950b24036420d49836370d55036400d55836510d574362b0d7f436360d8d035520d7fc363b0d8d435f40d89836270d8cc362e0d8bc362a0be882f530be5c2f4f0be802e730bec42f5a0be2c2f510be582f940b92c2f520be6c2f950bd342f860be1c2f930be382f8f0be283b1a0e9803b0f0eb143b180eb243b2a)
  (.lf 0))) (.nd (.nd (.lf
  0x137dc4d91137284d85137904d921376c4da2137384d7a1370c4dc4136604d87137304dc5136744dd3137244de5137844def1372052a81493452961490052821493c529d1497452ac134b8528614a505257148f452b614af4525914a54529214a80528314aa8528d103d83f7f1042c403810394403d103dc40311045c40351041440eb10328403a1045840fd1033040ec)
  (.lf
  0x15e505756138d44c57137444dac132884c2712c9c4aed12e304b771287049e212a304a5214a14526c165004d13160f85804154884d2711ddc4746121cc484211bfc46c312014465d105f83d460f7b03dbb0f9783e2d0fc0c3e96104183f8c102603f9d13ba84eac0ffe83f70114e443d91116c43cd116e043e4112b443c20e33036d30de8036d00e0e436c60dc9436b5))
  (.nd (.lf
  0x6e1c1d88075001d86074f41ca1076341d87074fc1d78075e41d85076001d81075f01d7a0254809030251c08fb0254008ff02588090a024ec08fd025180944023dc08fe0252c0945023e40936024dc0943024f8093f024e833cb0cd9433c00cddc33c90cde833df0ce0c33b40a0dc33bf0cef433730cde433c40cef833750cebc33b00cef033b70cee033b30e6a83945)
  (.lf 0)))

def aesAndOrder15 : BTree :=
  .nd (.nd (.nd (.lf
  0x214d884ee214f8843c2148c851e213908445214f0852121388851d214888535215208533214ac874f21c14874821bf0873a21bf8876b21c4c874521108872d21cac870921c04874c21cc0870e21ca4873121da4873c21d4087492254888f92256888e022508890c225a4890e2257c891e225fc8956223f8891222578895422484897022520896a2250489502256c8c1b)
  (.lf
  0x157d455a91578c55e4157cc55ec157b455e7180d05fc4180a45fda180c85fde1811c5fe7180605fdc18098602417f585fdd180b4602517f60601318050602318070601d1805c659d1946465921945c659b1951c65af19540658119514658f1963464db195186596196386542195f0657d1963065851961865801988c65cf1986065c81988465cb198e065d61981c6526))
  (.nd (.lf
  0xb9f82f220bab02f2b0bb702f3c0bb942f160bb682f210bc7c2eab0bb6c2f260bc802ed70bc442f120bc782f190bc682f150e14c37e90e12037fe0e14438020e194380b0e0f038000e11c38450dfe838010e13038460dff038370e0e038440e0fc38400e0ec4719119c0470e11b10471711b20472c11b44470211b18470d11c2c46bf11b1c471211c3046c111bf446fe)
  (.lf 0))) (.nd (.nd (.lf
  0x951024390953424f7095842502094cc23de0950424f6094fc24f3090f825480950024f5094b8252f094f82537094e02532094c0204907fd4203e07f60204707fc4205b07ff0202d07eb4203b07fc0203907fb41fdc08108203a07fbc2028080a42038080c42032080b0202a042fc106b042d01050042f410670434410720428c1031042c41066042bc10630414810b8)
  (.lf
  0x11dec476c0701c1bf606f9c2a1e0a83429fe0c4d431240c4544244108cc42240c23c307e0c1bc373a0dca4371a111c0445f111403f180fc1c3ef8122204877121a04aa112a404a8103ff40fec03f74144d050f0142d0680819f1067881d16074141cf6092b4249c092342b900adfc2b700c70c31b20c68c2f280bc5c2f080e138383d0e0b8471411c0c46f405f0c17b2))
  (.nd (.lf
  0x1413c50481412450431705058d31702458b51704858cf1709858d716fe05bca170185c04163345bcc170345c0516f045bf316fd05c0316ff05bfd16fdc5fa6178105f9b17d305fa417d405fb817d645f8a17d385f9817e585f4817d3c5f9f17e5c5f4a17e145f8617e545f8e17e3c5f891bdd06af21bdec6b451bd746b401be0c6f3e1be406a091bd846f6a1acf06b4a)
  (.lf 0)))

/-- The AND gates in the order in which they are packed: 18 bits each, 64 per leaf. -/
def aesAndOrder : BTree :=
  .nd (.nd (.nd (.nd (aesAndOrder0) (aesAndOrder1)) (.nd (aesAndOrder2) (aesAndOrder3))) (.nd (.nd (aesAndOrder4) (aesAndOrder5)) (.nd (aesAndOrder6)
  (aesAndOrder7)))) (.nd (.nd (.nd (aesAndOrder8) (aesAndOrder9)) (.nd (aesAndOrder10) (aesAndOrder11))) (.nd (.nd (aesAndOrder12) (aesAndOrder13)) (.nd
  (aesAndOrder14) (aesAndOrder15))))

def aesInvReads0 : BTree :=
  .nd (.nd (.nd (.lf
  0x12c804cae12d304b0612c704caa12d204b0212c284ca612d104af212ba04ca212d004aee12b484ad812b784b32126c849a6127204b2e126b849a2126f04b2a126704998126e04b3c103d840f0103c840d80d620358a0d608357e0d1a0346a0d188345e0c1f030780c1d0307e0b2b02cae0b2c02cb2082282086082002082075381d4a075181d42038b00e28038900e20)
  (.lf
  0xed5a3ddd0f7ae3b868f4283da80d7a23f838fe923e920f90637948c0962f970be6c301d8e6c0356f8a90231a20c6b031288c3502b0a8a9de2c368b14a2cc28a3f2283888bde22f588c00230b08f562486886a81af306cf2))
  (.nd (.lf
  0x9e6827ae09f08274209cc027840a990266009988266409998262a09860265c0a9083f140fc603f1c0fc803edc0fb283f100fe20478e11e40479211e50475811d18478a1201051a0149505228147f8103804098106c06ef051901479051c6146c00f2603c500f5a06e485992166885998166505940164b85972165f86cfa1b4206d041b3f86c741b1886ca61b3386180)
  (.lf 0))) (.nd (.nd (.lf
  0x33d30c60431c08a89e2a270a8982a2a0a88029fd0a8a429fd8c76e319d0c5fe31b28c65431958c61631940a90a2a420a9002a430a8562a318a8de2a3c89c182c560aa2a2c6c8af9e29648a1062cf40a45228fc0a43c27440a58626748b35a2be50b134283c0c39a29820b8be34750c0c8308a8a21c308c8ab322aae8ab2829748a5e8298e0d1da290c0a5b82bee0a706)
  (.lf 0)) (.nd (.lf
  0x5ac816cc05ba01644058b016a4058f0150405458152c0550814be052b015000890013dc04f7813e004f8813a604e5013d8087b8326c0c9f832940caa832260c85032680e27883b420eb083a220e6078181e000786e1e040a356283f0a35228d38a0b028260a0f8282a0b88c2e228b8862e238b8182e000b8502e040c09a30260bf7830270bf3c2fc90bf742fcd0dfd0)
  (.lf 0)))

def aesInvReads1 : BTree :=
  .nd (.nd (.nd (.lf
  0x1a84074241a868745c1d25074481d5705d6616c385d64175885ae016ac05b1416b405d0c16f005cc6175a85b9416eb05b8a1706851a813a7862b8149084f1a148704ed614b18565a06b184e1413d786434166c04cfc16108642e13450726006c7861a219ac01aaa06d704d4406bc01b2c07bc81a80146d01b08033481b20135681b5e069f81bc2068c857f0134c80cd0)
  (.lf 0)) (.nd (.lf
  0xe140385c0e18038080dfd838420e20057be15ef057ba15ee0543615090546815e10642a19098642019068626418948629818ff88d4c2331884c6231e08482211c084c221b20619618650619218660611818418614a185a8724a1c910723e1c9486e6e1b9706ea21c8088c6a231908c60231c088da22320890e2305882b620ad082ae20ae07e2a1f8607e5c1fa6097d6)
  (.lf 0))) (.nd (.nd (.lf
  0x3ded9146c3de0907d2409610b763ddb9067641c0106d045281028441ae8f440402310780414a11c143d9f0f7cc41929198c46b3903b446b89152c452c913c242ca10b1a4152906f041a61026e41ec104fc41e69074a402a908423cd80f35e3cdc0f6be3cc30f32c3dae8f3323daa8f6903da20f6b23d928f6563dab8f64e40fc103fa40f2903e240f41039640e29039e)
  (.lf 0)) (.nd (.lf
  0x35e98d7a035e90d76435d30d79c35d70ea3c3a7f8e9da3a9f8e86e3a158e8b83a198e52e394a0e522394d0e37a38d88e3b638dc8dc74371c8dc70371d8dbfa36f88dc3236fc8d3c834e30d37234fe8d2c434ab0d30c34af0bc0a2f150bb4c2ed48bacc2ead0bb482eb10c39630d78c39230e18c31c30c10c35a30c50c0a62f998be682f9a8be282f840be622f880ceec)
  (.lf 0)))

def aesInvReads2 : BTree :=
  .nd (.nd (.nd (.lf
  0x136e84daa136704d9000ff003ea010b81a72136284d8000c804d7c00ba802d800c701a62135e84d6c135a04d8e0076801c8008301a50465f11966465111982464b9194e46489195e45e29176445df9177a45d79172c45d69174a46af91a9c46b291ab6469e91a6446a311a8642b410aca42b090ab0429c10a8042a510a8a43c010ef843b210eea43b710eb043b690eaa)
  (.lf 0)) (.nd (.lf
  0x1903063b618ee0638018db863b218f78619018638618c186205e4a178e05e7c1856072381c348722c1c8a870961c21070ce1c77093382398092f224e388e22238408e5c246202fbe0bf202fd20bf702f800bdb82fba0bfe0468a11a30468e11a4046541190846861205057a815e9057ac15ea8561e15830565015d68873021f3085ea21d6885a62165085e6218e097b6)
  (.lf 0))) (.nd (.nd (.lf
  0x39440f1ba3c4a8f1643c420ea1c3a998e8c23eec8f9383a238eee43abc0fed240c20fed83f9d8dd2e379a8de64374f0dcf237908dd2c37938e28638a10e2a838990e24a389c0e23c389b0e19c38578e12c38580e14c383d0e110384d8d0c037dc0cef837d48cda833808d54637e10e6f039ac8e68834720cb6833b30e67a37d88cf2235ee8f94435588e2aa39c48cdfc)
  (.lf 0)) (.nd (.lf
  0x2be90afba2bec8af562bcf8af9a2bd38a36628d70a37028db0a1da28708a22428748c0a030290bd6030288bd242f430bd5c2f470c88a32240c88e32230c82e32058c86632098da4e36bb8da96369b8d9a236628d9dc36668d8dc36368d8d636360d89a36208d8d236248ec2c3b0a8ec403b098ebe83af80ebfe3afd8de3c378e8de38378d0ddea37748de2237788effc)
  (.lf 0)))

def aesInvReads3 : BTree :=
  .nd (.nd (.nd (.lf
  0x26aa0919a2b9a09e5e249f09f0e279389f56278c09a8e269e0915024d309576268d0838426900983e26ba0986a26330828e20a30829420a48821e2095881f4209007a081c8308d1a1c35878bc219407a401c85079421dd5878f620e7886841e4c071e41e5786cea1e8607a1e219a872582744878d821c78785c2356086f0232f084ba21fb887d8217809d241fba08764)
  (.lf 0)) (.nd (.lf
  0x5fa817f60600817a205e4017dc07c302e560b9802e6c0b9e02e180b8182e520cc0044f6113f045021143044be112b044f2120886d121b6a868de1b4f068a81a25868da1a68857c215f7057d815f48501e140305050145a857c015f3857ca15f18552815458555c15e58667219a186680199e864fe193b06536198f09814262c09864260d0902e24070906424aa02cc4)
  (.lf 0))) (.nd (.nd (.lf
  0x2cdc0b4102cf48b2ca2caa0b2c42cab0978425e6897a825e88978a25e20979e25db899e42678899ea267989986266809976266900e1c038b80e38039080dc0036a00e18036e01d34074f81d60075f01cd0072e01d300732024f4094082514094982480091a024f0091e023b408ed823b808ee8237808d8023b008dc02bba0aef02bbe0af002b7e0ad982bb60add83c56)
  (.lf 0)) (.nd (.lf
  0x2e2c0b8ba2e2d8b71e2dc18b7562dc58c21230830c22230868c1b630678c206306b8ae5e2b970ae642b980ae022b7a8ae422b7e8fbc43ee08fc3e3efe0fa2a3e848fa743e888c9e432688ca6032860c47e31198c528311d8b89e2e250b8ac2e2a0b5f02d760b6382d7a0b8922e240b8a62e290b4f42d370b52c2d3b0c0b8302c8c0c0302f8b98e2e5d8b9ce2e618ae4e)
  (.lf 0)))

def aesInvReads4 : BTree :=
  .nd (.nd (.nd (.lf
  0x44c5912f844bb1132044b6112c444b79130246209186c46299188c4612118684614118624429911e44428111b244189107a441591076447411184445d9119a445291180445611202437110dbc437990d9c436390db0436610da8476291d82474d11d7e475b91d5e474b11d64479191e6a478b11e62479491e18478191e3c433210cd6432010cc0432b10caa433490c8e)
  (.lf 0)) (.nd (.lf
  0x25ef097ba25ee096722598096a425b40316a0c5b0316e0c5c031340c48831660cb40421e1088042221089041e810758421a109c06d0e1af186bc81af286b8a1ade06bc01b3b88c5a22f388bd022f488b9422e088bc822fd882aa20ab07d161f4607ce01f3387d121fa1897ac25ed097b225eb8945c25128948e25ac8118804648119e046a8114a044e0118406f582788)
  (.lf 0))) (.nd (.nd (.lf
  0x3df50d9f23df70da2236b40da4035f10d57a35608e7643a3c0d5f633c40d6a038018e3e8380b0dfc433b40cee633b80ced833a90ce94339f8cebe2ec58c6ba34e60c684307a0b6202edf0c63830dd8c37030d90d3fe2d8b0b856313c0c1f431998bb662ecc8ac3833d00c368307e8e5382e770e56034d98d42e34cb0bf8e2f9c8bbb432738c38e2d8c8c2202ec08c612)
  (.lf 0)) (.nd (.lf
  0x3c020efda3c090f0023bf88f0203c0390078401d900a640191005a400f1005440108ee263b890ee203b8a0ede23b7e8edde3b828f5343d558f5323d560f5423d438f5523d45857e214568515c14578511a14408515614448f19e3c5b8f1e03c508f09a3c238f0aa3c308f7b83df18f77a3df00f7a23de60f7523de30f46c3d230f45e3d150f4103d218f43a3d0c816a8)
  (.lf 0)))

def aesInvReads5 : BTree :=
  .nd (.nd (.nd (.lf
  0x1e9b0876c1ead07adc1ea607d1c1c878721a1c86072161c64071881c5b071b81ed687ad21ea387a581dcf877201dd20789c1e9407a4a1e7f87a321e79079cc1e7807a1418f1066441be88652e1cf08693a18fa06634170905bf017298641e1a490598a171b873ca15e8863dc18f5083bc19aa05c4a1cfd069b6199706fc41a7a86d7a1a4086a8e1b2b067e6175086062)
  (.lf 0)) (.nd (.lf
  0xb3582cea0b3f82c760b1902cc00c03829f20a7f02a080a85029b40a68829ee0ba4035640d5b8357a0d63835260d45035600dc603b4e0ed403b520ed503b180ec183b4a11578529814d6852f414ae0129404a0812c807b386ac61a93867c61a828678619dd067c21a438750e1d21874421d03073441ccc873841cea8980e26028980225ff08f1223c008f46249b83846)
  (.lf 0))) (.nd (.nd (.lf
  0xf1603c5a0f1703c1a0f0083c520f048439610e60439a10e70435a10d08439210d48837a20e48838620df8834e20e38834820cd04c78131e84c7c131f84c3c130904c74130d04aca12b304ace12b404a8e129d84ac612a1840be1030040c2103104082101a840ba101e821aa086b021ae086c0216e0855821a6085981e8007a281e9007a681e40078a01e7c078e104e8)
  (.lf 0)) (.nd (.lf
  0x2b930ae5a2b960ad0a2b3c8ad422b408ae4a2b128ae542b940abf82af80ac462afc0c0a8302c0c0ac302a8c05830100c09230140cf0433cc0cf2e33cb0cb2a32c48cb6232c88cefc33c68cf1233c20cc3633078cc74330b8c99832680c99c32668c95c32510c99432550d1be34740d1ca34708d17434570d1b4345b0d62e354f0d61235798d4fa35388d538353c8d7a8)
  (.lf 0)))

def aesInvReads6 : BTree :=
  .nd (.nd (.nd (.lf
  0x146305186146105180032500c82033181b7813d000bb813ba84eb202e080b7002ed01b4c139f00aa6139905172029c00a5e02a881b10139604e4413a604e8a02580094e026481ae6137e84df4139804e5e02140083e022081ad6138a04dfe01dc8077401cf0072a01db81ab4137c04dde137684dd8018b0061a019781a96137584dd4137204dc40145804fe01538050e)
  (.lf 0)) (.nd (.lf
  0x2452897c225fa0910a243e091462485897c025ef897e625f90953c254a8956e25b802032080f02048081501ff407f88202e081e028d20a37028e60a3c028940a20828ce0b498343c0d11834500d16833fe0cfb034380d7003a5c0e9783a600e9883a260e8503a5810f78498a12630498e12640495412508498612d4857b015eb857b615ec8571a15c20574c15dc06412)
  (.lf 0))) (.nd (.nd (.lf
  0x418990686418f9068e41989061441979061240579015843d110140404b10120404c9011c420d9073841e2907a641c81072c41d510732409e10240409c10262408e1021c408d102283b4a8ed403b578ed423b4c0ed103b478ed4a3a328fe9e3c668fe1c3bbd0e98039438fe043e4a0f91c3e460f14c3a2b8ec1a3e9a8e2a23f950e4ea3a560de5a40b00f8f43bc10f1b2)
  (.lf 0)) (.nd (.lf
  0x33bd0cef233bb8cd5e33518cd9c33558d0ca34318d0a6342a0d06234128d0a034168e75a399b0e72639eb0e62a39848e66839888fedc3f9a8feb63fcf8fdea3f7c0ff3a3f780e51639470e4f4393d8e4b239268e4f0392a8f93e3e398f93a3e4b8f8ce3e2b8f8c43e48913d44516913e645249145444e71144e45039056a42c31050042bd90ae2413c10af2415f8afaa)
  (.lf 0)))

def aesInvReads7 : BTree :=
  .nd (.nd (.nd (.lf
  0x2c338b9e42c458b1d629000a42029108a42829028a3e029048a44a28ce0a33628cd0a33a28ba8a31628b78a32a274189d02273f89d0a272f09ca0273d89ca8270f89c40270509bd826f389bea26f189be429760a5bc29988a5a029510a55c294f8a5662014092e027b48916020d708c3e24918929c246908e56245d09f4023118824e247c892ca2300892382bf08a456)
  (.lf 0)) (.nd (.lf
  0x37e90e02037fc8defa37ce0df0a37cf0eed83bb58ef143bb78eea83baf0eeaa3bb183d980f6e83de60f8803d1c0f4103d940f450669619a3066a019a7065f819798662a19980619c1866861a018678601a18020604c185e899f0269788ad2268508a9622a108ace230e036de0dba036ea0dbd836a00da3836da0e248b7602c398b0ec2c3b8b0a02c238b0e22c51817e0)
  (.lf 0))) (.nd (.nd (.lf
  0x186186184186085f3417c885f66181607ea81fd607f001fb2076241d84876581e41872261be6872241c8886f641bd486f961c7208c582315889cc2314889b42265889a622f9082a220a80829c20a98801820018804a20a00829a20a60829620a908154205088186209b07ea21fa807e9e1fa907bfc1efa87c2e1f9d8aa842a898aa042aad0aa1e2a738a9cc2a6c0b39e)
  (.lf 0)) (.nd (.lf
  0x1b31870c61c740698e145385148145905be016fc84cdc068d04d40069580cd606d69099442661099c42681095c425290990426b11be0470311c1046f311bc246e811bb446fe85868069001a42069101a02067c01a3c134b116b245b7116ec45b9116cc45af116ca45a78582415f9819261669018ec063681922133c89f0627b089f8a27cf09df8277989e3a27918b8b2)
  (.lf 0)))

/-- The inputs of the INV gates by wires: 18 bits each, 64 per leaf. -/
def aesInvReads : BTree :=
  .nd (.nd (.nd (aesInvReads0) (aesInvReads1)) (.nd (aesInvReads2) (aesInvReads3))) (.nd (.nd (aesInvReads4) (aesInvReads5)) (.nd (aesInvReads6) (aesInvReads7)))

def aesInvFan0 : BTree :=
  .nd (.nd (.nd (.lf 0x0) (.lf 0x0)) (.nd (.lf
  0x100001000010000000000000000000000001111000000000000000000000000000000000000000000000000000000000000000000000000000000000000100000000000000010000100001000000000000000000000000111100000000000000000000000000000000000000000000000000000000000000000000000)
  (.lf 0))) (.nd (.nd (.lf
  0x10000000000000001000010000100000000000000000000000011110000000000000000000000000000000000000000000000000000000000000000000000000000000000000100000000000000010000100001000000000000000000000000000000000000000000000000100000)
  (.lf 0)) (.nd (.lf
  0x100000000000000000000000011110000000000000000000000000000000000000000000000000000000000000000000000000000000000001000000000000000100001000010000000000000000000000001111000000000000000000000000000000000000000000000000000000000000000000000000000000000000100)
  (.lf 0)))

def aesInvFan1 : BTree :=
  .nd (.nd (.nd (.lf
  0x1000000000000000100001000010000000000000000000000001111000000000000000000000000000000000000000000000000000000000000000000000000000000000000100000000000000010000100001000000000000000000000000111100000000000000)
  (.lf 0x0)) (.nd (.lf
  0x10000000000000001000010000100000000000000000000000011110000000000000000000000000000000000000000000000000000000000000000000000000000000000001000000000000000100001000010000000000000000000000001111000000)
  (.lf 0))) (.nd (.nd (.lf
  0x10000000000000001000010000100000000000000000000000011110000000000000000000000000000000000000000000000000000000000000000000000000000000000000100000000000000010000100001000000000000)
  (.lf 0)) (.nd (.lf
  0x1000000000000000100001000010000000000000000000000001111000000000000000000000000000000000000000000000000000000000000000000000000000000000000010000000000000001000010000100000000000000000000000011110000000000000000000000000000000000000000000000000)
  (.lf 0)))

def aesInvFan2 : BTree :=
  .nd (.nd (.nd (.lf
  0x111100000000000000000000000000000000000000000000000000000000000000000000000000000000000001000000000000000100001000010000000000000000000000001111000000000000000000000000000000000000000000000000000000000000000000000000000000000000010000000000000001000010)
  (.lf
  0x100000000000000110000000000100001000000000000001000000000000000000000000000000000000000000000000000000000000000000000000000000000000000000000000000000000000000000000000000000000000000000000000000000000100000000000000110000000000100001))
  (.nd (.lf
  0x11110000000000000000000000000000000000000000000000000000000000000000000000000000000000001000000000000000100001000010000000000000000000000001111000000000000000000000000000000000000000000000000000000000000000000000000000000000000100000000000000010000100)
  (.lf 0))) (.nd (.nd (.lf
  0x10000000000000001000010000100000000000000000000000011110000000000000000000000000000000000000000000000000000000000000000000000000000000000000100000000000000010000100001000000000000000000000000000000000)
  (.lf 0)) (.nd (.lf
  0x100000000000000010000100001000000000000000000000000111100000000000000000000000000000000000000000000000000000000000000000000000000000000000001000000000000000100001000010000000000000000000000001)
  (.lf 0)))

def aesInvFan3 : BTree :=
  .nd (.nd (.nd (.lf
  0x1111000000000000000000000000000000000000000000000000000000000000000000000000000000000000100000000000000010000100001000000000000000000000000111100000000000000000000000000000000000000000000000000000)
  (.lf 0)) (.nd (.lf
  0x100000000000000010000100001000000000000000000000000111100000000000000000000000000000000000000000000000000000000000000000000000000000000000010000000000000001000010000100000000000000000000000011110000000000000000000000000000000000000000000)
  (.lf 0))) (.nd (.nd (.lf
  0x100000000000000010000100001000000000000000000000000111100000000000000000000000000000000000000000000000000000000000000000000000000000000000010000000000000001000010000100000000000000000000000011110000000000000000000000000000000000)
  (.lf 0)) (.nd (.lf
  0x11110000000000000000000000000000000000000000000000000000000000000000000000000000000000000100000000000000010000100001000000000000000000000000111100000000000000000000000000000000000000000000000000000000000000000000000000000000000001000000000000000)
  (.lf 0)))

def aesInvFan4 : BTree :=
  .nd (.nd (.nd (.lf 0x0) (.lf 0x0)) (.nd (.lf
  0x1000000000000000100001000010000000000000000000000001111000000000000000000000000000000000000000000000000000000000000000000000000000000000000100000000000000010000100001000000000000000000000000111100000000000000000000)
  (.lf 0))) (.nd (.nd (.lf
  0x1000000000010000101100100110000010010001000000100000000001101111111101110000000000001010000000100000000000000000010000000000000100000010000000000100000000000000000000010000000000000010000000000010000000000000010000100100000100000000000)
  (.lf 0)) (.nd (.lf
  0x10000000000000001000010000100000000000000000000000011110000000000000000000000000000000000000000000000000000000000000000000000000000000000000100000000000000010000100001000000000000000000000000111100000000000000000000000000000000000000000)
  (.lf 0)))

def aesInvFan5 : BTree :=
  .nd (.nd (.nd (.lf
  0x1000000000000000100001000010000000000000000000000000000000000000000000000000000000000000000000000000000000000000000000000000100000100000000000000001000001001000010000000000000010000000000010000000000000001000000000000000000000)
  (.lf 0)) (.nd (.lf
  0x111100000000000000000000000000000000000000000000000000000000000000000000000000000000000010000000000000001000010000100000000000000000000000011110000000000000000000000000000000000000000000000000000000000000000000000000000000000001000000000)
  (.lf 0))) (.nd (.nd (.lf
  0x10000100000000000000000000000011110000000000000000000000000000000000000000000000000000000000000000000000000000000000000100000000000000010000100001000000000000000000000000111100000000000000000000000000000000000000000000000000000000000000000000000000000000)
  (.lf 0)) (.nd (.lf
  0x10000000000000001000010000100000000000000000000000011110000000000000000000000000000000000000000000000000000000000000000000000000000000000000100000000000000010000100001000000000000000000000000111100000)
  (.lf 0)))

def aesInvFan6 : BTree :=
  .nd (.nd (.nd (.lf
  0x10000100001000000000000000000000000111100000000000000000000000000000000000000000000000000000000000000000000000000000000000001000000000000000100001000010000000000000000000000001111000000000000000000000000000000000000000000000000000000000000000)
  (.lf
  0x10000000000000011000000000010000100000000000000100000000000000000000000000000000000000000000000000000000000000000000000000000000000000000000000000000000000000000000000000000000000000000000000000000000010000000000000))
  (.nd (.lf
  0x10000000000000001000010000100000000000000000000000011110000000000000000000000000000000000000000000000000000000000000000000000000000000000001000000000000000100001000010000000000000000000000001111000000000000000000000000000000000000000000000000000000000)
  (.lf 0))) (.nd (.nd (.lf
  0x100000000000100000000000000100001001000001000000000000000010000010000000000000000000000000000000000000000000000000000000000000000000000000111100000000000000000000000000000000000000000000000000000000000000000000000000000000000001000000000000000)
  (.lf 0)) (.nd (.lf
  0x111100000000000000000000000000000000000000000000000000000000000000000000000000000000000001000000000000000100001000010000000000000000000000001111000000000000000000000000000000000000000000000000000000000000000000000000000000000000010000000)
  (.lf 0)))

def aesInvFan7 : BTree :=
  .nd (.nd (.nd (.lf
  0x1000000000000000100001000010000000000000000000000001111000000000000000000000000000000000000000000000000000000000000000000000000000000000000010000000000000001000010000100000000000000000000000000000000)
  (.lf 0)) (.nd (.lf
  0x1000000000000000100001000010000000000000000000000001111000000000000000000000000000000000000000000000000000000000000000000000000000000000000010000000000000001000010000100000000000000000000)
  (.lf 0))) (.nd (.nd (.lf
  0x100000000000000010000100001000000000000000000000000111100000000000000000000000000000000000000000000000000000000000000000000000000000000000010000000000000001000010000100000000000)
  (.lf 0)) (.nd (.lf
  0x10000000000000001000010000100000000000000000000000011110000000000000000000000000000000000000000000000000000000000000000000000000000000000001000000000000000100001000010000000000000000000000001111000000000000000000000000000000000000000000000000000000000)
  (.lf 0)))

def aesInvFan8 : BTree :=
  .nd (.nd (.nd (.lf 0x0) (.lf 0x0)) (.nd (.lf
  0x1100000000000000000000000000000000000000000000000000000000000000000000000000000000000010000000000000001000010000100000000000000000000000011110000000000000000000000000000000000000000000000000000000000000000000000000000000000001000000000000000100001000010000)
  (.lf 0))) (.nd (.nd (.lf
  0x10000101100100110000010010001000000100000000001101111111101110000000000001010000000100000000000000000001000000000000010000001000000000010000000000000000000001000000000000000100000000000100000000000000100001001000001000000000000000010000010000000000000)
  (.lf 0)) (.nd (.lf
  0x10000000000000001000010000100000000000000000000000011110000000000000000000000000000000000000000000000000000000000000000000000000000000000000100000000000000010000100001000000000000000000000)
  (.lf 0)))

def aesInvFan9 : BTree :=
  .nd (.nd (.nd (.lf
  0x100000000000000010000100001000000000000000000000000111100000000000000000000000000000000000000000000000000000000000000000000000000000000000010000000000000001000010000100000000000000000000000011110000000000000000000000000000000000000000000000000000000000)
  (.lf 0)) (.nd (.lf
  0x1000000000000000100001000010000000000000000000000001111000000000000000000000000000000000000000000000000000000000000000000000000000000000000100000000000000010000100001000000000000000000000000111100000000000000000000000000000000000000000000000000)
  (.lf 0))) (.nd (.nd (.lf
  0x10000000000000001000010000100000000000000000000000011110000000000000000000000000000000000000000000000000000000000000000000000000000000000000100000000000000010000100001000000000000000000000000111100000000000000000000000000000000)
  (.lf 0)) (.nd (.lf
  0x1111000000000000000000000000000000000000000000000000000000000000000000000000000000000000010000000000000001000010000100000000000000000000000011110000000000000000000000000000000000000000000000000000000000000000000000000000000000000100000000000)
  (.lf 0)))

def aesInvFan10 : BTree :=
  .nd (.nd (.nd (.lf
  0x1000000000000000100001000010000000000000000000000001111000000000000000000000000000000000000000000000000000000000000000000000000000000000000010000000000000001000010000100000000000000000000000011110000000000000000)
  (.lf 0x1000000000000001100000000001000010000000000000010000000000000000000000000000000000000000000000000000000000000000000000000000)) (.nd (.lf
  0x100000000000000010000100001000000000000000000000000111100000000000000000000000000000000000000000000000000000000000000000000000000000000000010000000000000001000010000100000000000000000000000011110000000000000)
  (.lf 0))) (.nd (.nd (.lf
  0x10000000000000001000010000100000000000000000000000011110000000000000000000000000000000000000000000000000000000000000000000000000000000000000100000000000000010000100001000000000000000000000000111100000000000000000000000000000000000000000000000000000)
  (.lf 0)) (.nd (.lf
  0x100000000000000010000100001000000000000000000000000111100000000000000000000000000000000000000000000000000000000000000000000000000000000000001000000000000000100001000010000000000000000000000001111000000000000000000000000000000000000000000000)
  (.lf 0)))

def aesInvFan11 : BTree :=
  .nd (.nd (.nd (.lf
  0x1000001000000000000000000000000000000000000000000000000000000000000000000000000011110000000000000000000000000000000000000000000000000000000000000000000000000000000000000100000000000000010000100001000000000000000000000000000000000000000000000000000001000)
  (.lf 0)) (.nd (.lf
  0x100000000000000000000000011110000000000000000000000000000000000000000000000000000000000000000000000000000000000001000000000000000100001000010000000000000000000000001111000000000000000000000000000000000000000000000000000000000000000000000000000000000000100)
  (.lf 0))) (.nd (.nd (.lf
  0x1000010000100000000000000000000000011110000000000000000000000000000000000000000000000000000000000000000000000000000000000001000000000000000100001000010000000000000000000000001111000000000000000000000000000000000000000000000000000000000000000000000000000000)
  (.lf 0)) (.nd (.lf
  0x100000000000000010000100001000000000000000000000000111100000000000000000000000000000000000000000000000000000000000000000000000000000000000001000000000000000100001000010000000000000000000000001111000000000)
  (.lf 0)))

def aesInvFan12 : BTree :=
  .nd (.nd (.nd (.lf
  0x100000000000000010000100001000000000000000000000000111100000000000000000000000000000000000000000000000000000000000000000000000000000000000000000001000010000100000000000000000000010000000000001111111111111111111111111111111111111111111111111111111111111111)
  (.lf 0x0)) (.nd (.lf
  0x10000100001000000000000000000000000111100000000000000000000000000000000000000000000000000000000000000000000000000000000000010000000000000001000010000100000000000000000000000011110000000000000000000000000000000000000000000000000000000000000000)
  (.lf 0))) (.nd (.nd (.lf
  0x100000100000000000000000000000000000000000000000000000000000000000000000000000000111100000000000000000000000000000000000000000000000000000000000000000000000000000000000001000000000000000100001000010000000000000000000000001111000000000000000000000000000)
  (.lf 0)) (.nd (.lf
  0x11110000000000000000000000000000000000000000000000000000000000000000000000000000000000000100000000000000010000100001000000000000000000000000111100000000000000000000000000000000000000000000000000000000000000000000000000000000000001000)
  (.lf 0)))

def aesInvFan13 : BTree :=
  .nd (.nd (.nd (.lf
  0x10000101100100110000010010001000000100000000001101111111101110000000000001010000000100000000000000000010000000000000100000010000000000100000000000000000000010000000000000010000000000010000000000000010000100100000100000000000000001000001000000000000000)
  (.lf 0)) (.nd (.lf
  0x1000000000000000100001000010000000000000000000000001111000000000000000000000000000000000000000000000000000000000000000000000000000000000000100000000000000010000100001000000000000000000000000111)
  (.lf 0))) (.nd (.nd (.lf
  0x100000000000000010000100001000000000000000000000000111100000000000000000000000000000000000000000000000000000000000000000000000000000000000001000000000000000100001000010000000000000000)
  (.lf 0)) (.nd (.lf
  0x10000000000000001000010000100000000000000000000000011110000000000000000000000000000000000000000000000000000000000000000000000000000000000000100000000000000010000100001000000000000000000000000111100000000000000000000000000000000000000000000000000000)
  (.lf 0)))

def aesInvFan14 : BTree :=
  .nd (.nd (.nd (.lf
  0x11110000000000000000000000000000000000000000000000000000000000000000000000000000000000001000000000000000100001000010000000000000000000000001111000000000000000000000000000000000000000000000000000000000000000000000000000000000000100000000000000010000100)
  (.lf 0x100000000000000110000000000100001000000000000001000000000000000000000000000000000000000000000000000000000)) (.nd (.lf
  0x1111000000000000000000000000000000000000000000000000000000000000000000000000000000000000100000000000000010000100001000000000000000000000000111100000000000000000000000000000000000000000000000000000000000000000000000000000000000010000000000000001)
  (.lf 0))) (.nd (.nd (.lf
  0x100001000010000000000000000000000001111000000000000000000000000000000000000000000000000000000000000000000000000000000000000010000000000000001000010000100000000000000000000000011110000000000000000000000000000000000000000000000000000000000000000000000000000)
  (.lf 0)) (.nd (.lf
  0x1000000000000000100001000010000000000000000000000001111000000000000000000000000000000000000000000000000000000000000000000000000000000000000010000000000000001000010000100000000000000000000000011110)
  (.lf 0)))

def aesInvFan15 : BTree :=
  .nd (.nd (.nd (.lf
  0x1111000000000000000000000000000000000000000000000000000000000000000000000000000000000000010000000000000001000010000100000000000000000000000011110000000000000000000000000000000000000000000000000000)
  (.lf 0)) (.nd (.lf
  0x1000000000000000100001000010000000000000000000000001111000000000000000000000000000000000000000000000000000000000000000000000000000000000000010000000000000001000010000100000000000000000000000011110000000000000000000000000000000000000000)
  (.lf 0))) (.nd (.nd (.lf
  0x10000000000000001000010000100000000000000000000000011110000000000000000000000000000000000000000000000000000000000000000000000000000000000001000000000000000100001000010000000000000000000000001111000000000000000000000000000)
  (.lf 0)) (.nd (.lf
  0x1111000000000000000000000000000000000000000000000000000000000000000000000000000000000000100000000000000010000100001000000000000000000000000111100000000000000000000000000000000000000000000000000000000000000000000000000000000000010000000000000001)
  (.lf 0)))

def aesInvFan16 : BTree :=
  .nd (.nd (.nd (.lf 0x0) (.lf 0x0)) (.nd (.lf
  0x11110000000000000000000000000000000000000000000000000000000000000000000000000000000000001000000000000000100001000010000000000000000000000001111000000000000000000000000000000000000000000000000000000000000000000000000000000000000100000000)
  (.lf 0))) (.nd (.nd (.lf
  0x11110000000000000000000000000000000000000000000000000000000000000000000000000000000000000100000000000000010000100001000000000000000000000000111100000000000000000000000000000000000000000000000000)
  (.lf 0)) (.nd (.lf
  0x1111000000000000000000000000000000000000000000000000000000000000000000000000000000000000010000000000000001000010000100000000000000000000000011110000000000000000000000000000000000000000000000000000000000000000000000000000000000001000000000000000100001000)
  (.lf 0)))

def aesInvFan17 : BTree :=
  .nd (.nd (.nd (.lf
  0x10000000000000001000010000100000000000000000000000011110000000000000000000000000000000000000000000000000000000000000000000000000000000000001000000000000000100001000010000000000000000000000001111000000000000000000000000000000000000)
  (.lf 0)) (.nd (.lf
  0x100000000000000010000100001000000000000000000000000111100000000000000000000000000000000000000000000000000000000000000000000000000000000000010000000000000001000010000100000000000000000000000011110000000000000000000000000000)
  (.lf 0))) (.nd (.nd (.lf
  0x10000000000000001000010000100000000000000000000000011110000000000000000000000000000000000000000000000000000000000000000000000000000000000000100000000000000010000100001000000000000000000000000111100000000)
  (.lf 0)) (.nd (.lf
  0x100001000010000000000000000000000001111000000000000000000000000000000000000000000000000000000000000000000000000000000000000010000000000000001000010000100000000000000000000000011110000000000000000000000000000000000000000000000000000000000000000000000000)
  (.lf 0)))

def aesInvFan18 : BTree :=
  .nd (.nd (.nd (.lf
  0x1000000000000000100001000010000000000000000000000001111000000000000000000000000000000000000000000000000000000000000000000000000000000000000010000000000000001000010000100000000000000000000)
  (.lf
  0x10000000000000011000000000010000100000000000000100000000000000000000000000000000000000000000000000000000000000000000000000000000000000000000000000000000000000000000000000000000000))
  (.nd (.lf
  0x10000000000000001000010000100000000000000000000000011110000000000000000000000000000000000000000000000000000000000000000000000000000000000001000000000000000100001000010000000000000000000)
  (.lf 0))) (.nd (.nd (.lf
  0x10000000000000001000010000100000000000000000000000011110000000000000000000000000000000000000000000000000000000000000000000000000000000000000100000000000000010000100001000000000000000000000000111100000000000000000000000000000)
  (.lf 0)) (.nd (.lf
  0x100000000000000010000100001000000000000000000000000111100000000000000000000000000000000000000000000000000000000000000000000000000000000000001000000000000000100001000010000000000000000000000001111000000000000000000000)
  (.lf 0)))

def aesInvFan19 : BTree :=
  .nd (.nd (.nd (.lf
  0x100001011001001100000100100010000001000000000011011111111011100000000000010100000001000000000000000000100000000000001000000100000000001000000000000000000000100000000000000100000000000100000000000000100001001000001000000000000000010000010000000000000)
  (.lf 0)) (.nd (.lf
  0x100001000010000000000000000000000001111000000000000000000000000000000000000000000000000000000000000000000000000000000000000100000000000000010000100001000000000000000000000000111100000000000000000000000000000000000000000000000000000000000000000)
  (.lf 0))) (.nd (.nd (.lf
  0x1000000000000000100001000010000000000000000000000001111000000000000000000000000000000000000000000000000000000000000000000000000000000000000100000000000000010000100001000000000000000000000000111100000000000000000000000000000000000000000000000000000000)
  (.lf 0)) (.nd (.lf
  0x100000000000000010000100001000000000000000000000000111100000000000000000000000000000000000000000000000000000000000000000000000000000000000001000000000000000100001000010000000000000)
  (.lf 0)))

def aesInvFan20 : BTree :=
  .nd (.nd (.nd (.lf 0x0) (.lf 0x0)) (.nd (.lf
  0x10000000000000001000010000100000000000000000000000011110000000000000000000000000000000000000000000000000000000000000000000000000000000000001000000000000000100001000010000000000000000000000001111000000000000000000000000000000000000000000)
  (.lf 0))) (.nd (.nd (.lf
  0x100000000000000010000100001000000000000000000000000111100000000000000000000000000000000000000000000000000000000000000000000000000000000000001000000000000000100001000010000000000000000000000000000000)
  (.lf 0)) (.nd (.lf
  0x1000010000100000000000000000000000011110000000000000000000000000000000000000000000000000000000000000000000000000000000000000100000000000000010000100001000000000000000000000000111100000000000000000000000000000000000000000000000000000000000000000)
  (.lf 0)))

def aesInvFan21 : BTree :=
  .nd (.nd (.nd (.lf
  0x111100000000000000000000000000000000000000000000000000000000000000000000000000000000000001000000000000000100001000010000000000000000000000001111000000000000000000000000000000000000000000000000000000)
  (.lf 0)) (.nd (.lf
  0x1000000000000000000000000000000000000000000000000000000000000000000000000000000000000100000000000000010000100001000000000000000000000000111100000000000000000000000000000000000000000000000000000000000000000000000000000000000010000000000000001000010000100000)
  (.lf 0))) (.nd (.nd (.lf
  0x11110000000000000000000000000000000000000000000000000000000000000000000000000000000000000100000000000000010000100001000000000000000000000000111100000000000000000000000000000000000000000000000000000000000000000000000000000000000001000000000000000100)
  (.lf 0)) (.nd (.lf
  0x10000000000000001000010000100000000000000000000000011110000000000000000000000000000000000000000000000000000000000000000000000000000000000000100000000000000010000100001000000000000000000000000111100000000000000000000000000000)
  (.lf 0)))

def aesInvFan22 : BTree :=
  .nd (.nd (.nd (.lf
  0x10000000000000000000000001111000000000000000000000000000000000000000000000000000000000000000000000000000000000000100000000000000010000100001000000000000000000000000111100000000000000000000000000000000000000000000000000000000000000000000000000000000000010)
  (.lf
  0x1000000000000001100000000001000010000000000000010000000000000000000000000000000000000000000000000000000000000000000000000000000000000000000000000000000000000000))
  (.nd (.lf
  0x100001000000000000000000000000111100000000000000000000000000000000000000000000000000000000000000000000000000000000000010000000000000001000010000100000000000000000000000011110000000000000000000000000000000000000000000000000000000000000000000000000000000)
  (.lf 0))) (.nd (.nd (.lf
  0x1000000000000000100001000010000000000000000000000000000000000000000000000000010000000000100001011001001100000100100010000001000000000011011111111011100000000000010100000001000000000000000000100000000000001000000100000000001000000000000000000000100)
  (.lf 0)) (.nd (.lf
  0x1000000000000000100001000010000000000000000000000001111000000000000000000000000000000000000000000000000000000000000000000000000000000000000010000000000000001000010000100000)
  (.lf 0)))

def aesInvFan23 : BTree :=
  .nd (.nd (.nd (.lf
  0x1000000000000000100001000010000000000000000000000001111000000000000000000000000000000000000000000000000000000000000000000000000000000000000010000000000000001000010000100000000000000000000000011110000000000000000000000000000)
  (.lf 0)) (.nd (.lf
  0x1000000000000000100001000010000000000000000000000001111000000000000000000000000000000000000000000000000000000000000000000000000000000000000010000000000000001000010000100000000000000000000000011110000000000000000)
  (.lf 0))) (.nd (.nd (.lf
  0x1000000000000000100001000010000000000000000000000001111000000000000000000000000000000000000000000000000000000000000000000000000000000000000100000000000000010000100001000000000000000000000000111100000)
  (.lf 0)) (.nd (.lf
  0x100001000000000000000000000000111100000000000000000000000000000000000000000000000000000000000000000000000000000000000010000000000000001000010000100000000000000000000000011110000000000000000000000000000000000000000000000000000000000000000000000000000000)
  (.lf 0)))

def aesInvFan24 : BTree :=
  .nd (.nd (.nd (.lf 0x0) (.lf 0x0)) (.nd (.lf
  0x100000000000000010000100001000000000000000000000000111100000000000000000000000000000000000000000000000000000000000000000000000000000000000010000000000000001000010000100000000000000000000000011)
  (.lf 0))) (.nd (.nd (.lf
  0x10000010000000000000000000000000000000000000000000000000000000000000000000000000111100000000000000000000000000000000000000000000000000000000000000000000000000000000000001000000000000000100001000010000000000000000000000000000000000000000000000000100000)
  (.lf 0)) (.nd (.lf
  0x10000000000000001000010000100000000000000000000000011110000000000000000000000000000000000000000000000000000000000000000000000000000000000000100000000000000010000100001000000000000000000000000111100000000000000000)
  (.lf 0)))

def aesInvFan25 : BTree :=
  .nd (.nd (.nd (.lf
  0x1000000000010000001000000000000010000000000000000001000000010100000000000011101111111101100000000001000000100010010000011001001101000010000000000100000000000000000000000000111100000000000000000000000000000000000000000000000000000000000000000000000000000000)
  (.lf 0)) (.nd (.lf
  0x1000010000100000000000000000000000011110000000000000000000000000000000000000000000000000000000000000000000000000000000000001000000000000000100001000010000000000000000000000001111000000000000000000000000000000000000000000000000000000000000000000000000)
  (.lf 0))) (.nd (.nd (.lf
  0x10000000000000001000010000100000000000000000000000011110000000000000000000000000000000000000000000000000000000000000000000000000000000000000100000000000000010000100001000000000000000000000000111100000000000000000000000000000000000000000000000000000000)
  (.lf 0)) (.nd (.lf
  0x10000000000000001000010000100000000000000000000000011110000000000000000000000000000000000000000000000000000000000000000000000000000000000000100000000000000010000100001000000000)
  (.lf 0)))

def aesInvFan26 : BTree :=
  .nd (.nd (.nd (.lf
  0x100000000000000010000100001000000000000000000000000111100000000000000000000000000000000000000000000000000000000000000000000000000000000000001000000000000000100001000010000000000000000000000001111000000000000000000000000000000000000000)
  (.lf
  0x110000000000100001000000000000001000000000000000000000000000000000000000000000000000000000000000000000000000000000000000000000000000000000000000000000000000000000000000000000000000000000100000000000000110000000000100001000000000000001000000000000000000000))
  (.nd (.lf
  0x1000000000000000100001000010000000000000000000000001111000000000000000000000000000000000000000000000000000000000000000000000000000000000000100000000000000010000100001000000000000000000000000111100000000000000000000000000000000000)
  (.lf 0))) (.nd (.nd (.lf
  0x1000010000100000000000000000000000011110000000000000000000000000000000000000000000000000000000000000000000000000000000000000100000000000000010000100001000000000000000000000000111100000000000000000000000000000000000000000000000000000000000000000000000000000)
  (.lf 0)) (.nd (.lf
  0x10000100001000000000000000000000000111100000000000000000000000000000000000000000000000000000000000000000000000000000000000001000000000000000100001000010000000000000000000000001111000000000000000000000000000000000000000000000000000000000000000000000)
  (.lf 0)))

def aesInvFan27 : BTree :=
  .nd (.nd (.nd (.lf
  0x1000000000010000101100100110000010010001000000100000000001101111111101110000000000001010000000100000000000000000010000000000000100000010000000000100000000000000000000010000000000000001000000000001000000000000001000010010000010000000000000)
  (.lf 0)) (.nd (.lf
  0x111100000000000000000000000000000000000000000000000000000000000000000000000000000000000010000000000000001000010000100000000000000000000000011110000000000000000000000000000000000000000000000000000000000000000000000000000000000001000000000000000100001000)
  (.lf 0))) (.nd (.nd (.lf
  0x111100000000000000000000000000000000000000000000000000000000000000000000000000000000000010000000000000001000010000100000000000000000000000011110000000000000000000000000000000000000000000000000000000000000000000000000000000000001000000000000000)
  (.lf 0)) (.nd (.lf
  0x100000000000000010000100001000000000000000000000000111100000000000000000000000000000000000000000000000000000000000000000000000000000000000001000000000000000100001000010000000000000000000000001111000000000000000000000000000000000)
  (.lf 0)))

def aesInvFan28 : BTree :=
  .nd (.nd (.nd (.lf
  0x1000000000000000000000000111100000000000000000000000000000000000000000000000000000000000000000000000000000000000001000000000000000100001000010000000000000000000000001111000000000000000000000000000000000000000000000000000000000000000000000000000000000000)
  (.lf
  0x10000000000000000000000000000000000000000000000000000000000000000000000000000000000000000000000000000000000000000000000000000000000000000000000000000000000000000000000000000000000000000000000000000000000000000000000000000000000000000000000000))
  (.nd (.lf
  0x10000000000000000000000001111000000000000000000000000000000000000000000000000000000000000000000000000000000000000100000000000000010000100001000000000000000000000000111100000000000000000000000000000000000000000000000000000000000000000000000000000000000010)
  (.lf 0))) (.nd (.nd (.lf
  0x100000000001000010110010011000001001000100000010000000000110111111110111000000000000101000000010000000000000000001000000000000010000001000000000010000000000000000000001000000000000000100000000000100000000000000100001001000001000000000000)
  (.lf 0)) (.nd (.lf
  0x1110000000000000000000000000000000000000000000000000000000000000000000000000000000000000100000000000000010000100001000000000000000000000000111100000000000000000000000000000000000000000000000000000000000000000000000000000000000001000000000000000100001000010)
  (.lf 0)))

def aesInvFan29 : BTree :=
  .nd (.nd (.nd (.lf
  0x100000000000000010000100001000000000000000000000000111100000000000000000000000000000000000000000000000000000000000000000000000000000000000010000000000000001000010000100000000000000000000000000000000000000000000000000000100000)
  (.lf 0)) (.nd (.lf
  0x10000000000000001000010000100000000000000000000000011110000000000000000000000000000000000000000000000000000000000000000000000000000000000001000000000000000100001000010000000000000000000000001111000000000000000000000)
  (.lf 0))) (.nd (.nd (.lf
  0x10000000000000001000010000100000000000000000000000011110000000000000000000000000000000000000000000000000000000000000000000000000000000000001000000000000000100001000010000000000000000000000001111000000000000)
  (.lf 0)) (.nd (.lf
  0x1000010000100000000000000000000000011110000000000000000000000000000000000000000000000000000000000000000000000000000000000000100000000000000010000100001000000000000000000000000111100000000000000000000000000000000000000000000000000000000000000000000000000000)
  (.lf 0)))

def aesInvFan30 : BTree :=
  .nd (.nd (.nd (.lf
  0x100000000000000010000100001000000000000000000000000111100000000000000000000000000000000000000000000000000000000000000000000000000000000000001000000000000000100001000010000000000000000000)
  (.lf 0x0)) (.nd (.lf
  0x1000000000000000100001000010000000000000000000000001111000000000000000000000000000000000000000000000000000000000000000000000000000000000000100000000000000010000100001000000000000)
  (.lf 0))) (.nd (.nd (.lf
  0x1111000000000000000000000000000000000000000000000000000000000000000000000000000000000000010000000000000001000010000100000000000000000000000011110000000000000000000000000000000000000000000000000000000000000000000000000000000000000100000000000000)
  (.lf 0)) (.nd (.lf
  0x1000000000000000100001000010000000000000000000000001111000000000000000000000000000000000000000000000000000000000000000000000000000000000000010000000000000001000010000100000000000000000000000011110000000000000000000000000)
  (.lf 0)))

def aesInvFan31 : BTree :=
  .nd (.nd (.nd (.lf
  0x10000101100100110000010010001000000100000000001101111111101110000000000001010000000100000000000000000001000000000000010000001000000000010000000000000000000001000000000000001000000000001000000000000001000010010000010000000000000000100000100000000000000)
  (.lf 0)) (.nd (.lf
  0x100001000010000000000000000000000001111000000000000000000000000000000000000000000000000000000000000000000000000000000000000010000000000000001000010000100000000000000000000000011110000000000000000000000000000000000000000000000000000000000000000)
  (.lf 0))) (.nd (.nd (.lf
  0x100000000000000010000100001000000000000000000000000111100000000000000000000000000000000000000000000000000000000000000000000000000000000000010000000000000001000010000100000000000000000000000011110000000000000000000000000000000000000000000000000)
  (.lf 0)) (.nd (.lf 0x1111000000000000000000000000000000000000000000000000000000000000000000000000000000000000100000000000000010000100001000000000000) (.lf 0)))

/-- How often the INV gates read a wire: 4 bits each, 256 per leaf. -/
def aesInvFan : BTree :=
  .nd (.nd (.nd (.nd (.nd (aesInvFan0) (aesInvFan1)) (.nd (aesInvFan2) (aesInvFan3))) (.nd (.nd (aesInvFan4) (aesInvFan5)) (.nd (aesInvFan6) (aesInvFan7)))) (.nd
  (.nd (.nd (aesInvFan8) (aesInvFan9)) (.nd (aesInvFan10) (aesInvFan11))) (.nd (.nd (aesInvFan12) (aesInvFan13)) (.nd (aesInvFan14) (aesInvFan15))))) (.nd (.nd
  (.nd (.nd (aesInvFan16) (aesInvFan17)) (.nd (aesInvFan18) (aesInvFan19))) (.nd (.nd (aesInvFan20) (aesInvFan21)) (.nd (aesInvFan22) (aesInvFan23)))) (.nd (.nd
  (.nd (aesInvFan24) (aesInvFan25)) (.nd (aesInvFan26) (aesInvFan27))) (.nd (.nd (aesInvFan28) (aesInvFan29)) (.nd (aesInvFan30) (aesInvFan31)))))

def aesInvOrder0 : BTree :=
  .nd (.nd (.nd (.lf
  0x96402657096982583096382655096902581096142653096882579095d02651096802577095a4256c095bc25990936424d30939025970935c24d10937825950933824cc09370259e081ec2078081e4206c06b101ac506b041abf068d01a35068c41a2f060f8183c060e8183f05958165705960165904114104304100104103a9c0ea503a8c0ea101c58071401c480710)
  (.lf
  0x76ad1eee87bd71dc347a141ed406bd11fc1c7f491f4907c831bca4604b17cb85f36180ec73601ab7c548118d1063581894461a81585454ef161b458a51661451f9141c445ef117ac46001185847ab1243443540d7983679))
  (.nd (.lf
  0x4f3413d704f8413a104e6013c2054c8133004cc4133204ccc131504c30132e054841f8a07e301f8e07e401f6e07d941f8807f1023c708f2023c908f2823ac08e8c23c50900828d00a4a829140a3fc081c0204c08360377828c80a3c828e30a360079301e2807ad037242cc90b3442ccc0b3282ca00b25c2cb90b2fc367d0da1036820d9fc363a0d8c436530d99c30c0)
  (.lf 0))) (.nd (.nd (.lf
  0x19e98630218e04544f15138544c15150544014fe8545214fec63b718ce862ff18d94632a18cac630b18ca0548515210548015218542b1518c546f151e44e0c162b055151636457cf14b245083167a05229147e0521e13a2052c3133a459ad15f28589a141e061cd14c105c5f1a3a8606418454510e18464559915574559414ba452f414c7068ed1486052dc15f705383)
  (.lf 0)) (.nd (.lf
  0x2d640b6602dd00b2202c580b5202c780a8202a2c0a9602a840a5f029580a800448009ee027bc09f0027c409d30272809ec043dc1936064fc194a0655419130642819340713c41da1075841d1107303c0c0f0003c370f02051ab141f851a91469c505814130507c141505c46171145c431711c5c0c170005c2817020604d181305fbc181385f9e17e485fba17e686fe8)
  (.lf 0)))

def aesInvOrder1 : BTree :=
  .nd (.nd (.nd (.lf
  0xd4203a120d4343a2e0e9283a240eab82eb30b61c2eb20bac42d700b5602d8a0b5a02e860b7802e630bad42dca0b7582dc50b83428d409d3c315c0a484278d0a438276b0a58c2b2d0358c270a09ebc321a0b360267e0b084321709a2839300363c30d10cd600d55036b826a2035e00d9603de40d400a3680d84019a40d9009ab40daf034fc0de1034642bf809a640668)
  (.lf 0)) (.nd (.lf
  0x70a01c2e070c01c0406fec1c21071002bdf0af782bdd0af702a1b0a8482a340af0832150c84c32100c83431320c4a4314c0c7fc46a61198c4263118f04241108e0426110d9030cb0c32830c90c330308c0c20c30a50c2d439250e488391f0e4a437370dcb837510e4044635118c84630118e0446d1119044871182c415b105684157105703f150fc303f2e0fd304beb)
  (.lf 0))) (.nd (.nd (.lf
  0x1ef6c8a361ef0483e9204b085bb1eedc833b20e00836822940814220d747a202011883c020a508e0a1ecf87be620c948cc62359c81da235c48a962296489e121650858d20a94837820d30813720f60827e20f3483a52015484211e6c079af1e6e07b5f1e61879961ed7479991ed547b481ed107b591ec947b2b1ed5c7b27207e081fd2079481f1207a081cb2071481cf)
  (.lf 0)) (.nd (.lf
  0x1af4c6bd01af486bb21ae986bce1aeb8751e1d3fc74ed1d4fc74371d0ac745c1d0cc72971ca5072911ca6871bd1c6c471db1c6e46e3a1b8e46e381b8ec6dfd1b7c46e191b7e469e41a71869b91a7f469621a55869861a5785e05178a85da6176a45d66175685da41758861cb186bc61c91870c618e1860861ad18628605317ccc5f3417cd45f1417c205f3117c406776)
  (.lf 0)))

def aesInvOrder2 : BTree :=
  .nd (.nd (.nd (.lf
  0x9b7426d509b3826c8007f801f50085c0d3909b1426c00064026be005d4016c006380d3109af426b609ad026c7003b400e4004180d28232f88cb3232888cc12325c8ca7232448caf22f148bb222efc8bbd22ebc8b9622eb48ba52357c8d4e235948d5b234f48d32235188d43215a08565215848558214e0854021528854521e00877c21d90877521db8875821db48755)
  (.lf 0)) (.nd (.lf
  0xc81831db0c77031c00c6dc31d90c7bc30c80c31c30c60c3102f250bc702f3e0c2b0391c0e1a439160e454384b0e10838670e3b8499c11cc049791271c471111c20472e1231017df05f9017e905fb817c005edc17dd05ff0234508d18234708d20232a08c842343090282bd40af482bd60af542b0f0ac182b280aeb4439810f9842f510eb442d310b2842f310c704bdb)
  (.lf 0))) (.nd (.nd (.lf
  0x1ca2078dd1e25478b21e210750e1d4cc74611f7647c9c1d11c77721d5e07f69206107f6c1fcec6e971bcd46f321ba786e791bc846e961bc9c71431c50871541c4c871251c4e0711e1c4d870ce1c2bc70961c2c070a61c1e870881c26c68601bee0677c1bea466d419c046aa31bf0873781cd6473441a39065b419d98733d1bec467911af747ca21aac471551ce2466fe)
  (.lf 0)) (.nd (.lf
  0x15f4857dd15f6457ab15e7c57cd15e9c51b3146b851b8146d850ed143845112143a46050181485eb0181445e9217a185eae17a3864451912064471911864171902c64331904c6d271b5dc6d4b1b4dc6cd11b3146cee1b3346c6e1b1b46c6b1b1b06c4d1b1046c691b12476161d85476201d84c75f41d7c075ff1d7ec6f1e1bc746f1c1bc686ef51bba46f111bbc477fe)
  (.lf 0)))

def aesInvOrder3 : BTree :=
  .nd (.nd (.nd (.lf
  0x1355048cd15cd04f2f124f84f8713c9c4fab13c604d47134f048a8126984abb1346841c2134804c1f135d04c3513198414710518414a10524410f104ac40fa104803d040e418468d0e1ac3c5e10ca03d200e4283ca10eeac3c7b1073c43420f26038f20f2bc36750f4303d0f10cd4392c13a243c6c10e3c3c2e11ab0437811978425d10fdc43ec10bc04e920fdd043b2)
  (.lf 0)) (.nd (.lf
  0x2fd40bfb030040bd102f200bee03e18172b05cc0173605cf0170c05c0c172906600227b089f8228108a18225f0895822790904436890db54346f0da7834540d12c346d0d3442be10afb82bec0afa4280f0a01828280a2d42be00af9c2be50af8c2a940aa2c2aae0af2c33390cd0c33400ccf4327f0c9d8329b0cc784c0a131604c32130684817120384832125501662)
  (.lf 0))) (.nd (.nd (.lf
  0x166e05a08167a45965165505962165584bc212f344bd412f444bc512f104bcf12edc4cf2133c44cf5133cc4cc3133404cbb13348070e01c5c071c01c8406e001b50070c01b700e9a03a7c0eb003af80e68039700e9803990127a04a04128a04a4c1240048d01278048f011da0476c11dc0477411bc046c011d8046e015dd0577815df0578015bf056cc15db056ec1e2b)
  (.lf 0)) (.nd (.lf
  0x171605c5d1716c5b8f16e0c5bab16e2c61091841861111843460db1833c61031835c572f15cb8573215cc0570115bd4572115bf47de21f7047e1f1f7f07d151f4247d3a1f44464f219344653019430623f188cc6294188ec5c4f171285c56171505af816bb05b1c16bd05c49171205c53171485a7a169b85a96169d8605c1816460601817c5cc7172ec5ce71730c5727)
  (.lf 0)))

def aesInvOrder4 : BTree :=
  .nd (.nd (.nd (.lf
  0x2262c897c225d88990225b08962225bc8981231048c362314c8c46230908c34230a08c312214c88f22214088d9220c4883d220ac883b223a088c2222ec88cd2229488c0222b0890121b8886de21bcc86ce21b1c86d821b3086d423b148ec123a688ebf23adc8eaf23a588eb223c8c8f3523c588f3123ca48f0c23c0c8f1e21990866b219008660219588655219a48647)
  (.lf 0)) (.nd (.lf
  0x12f784bdd12f704b3912cc04b5212da018b5062d818b7062e0189a0624418b3065a0210f0844021110844820f4083ac210d084e036870d78c35e40d79435c50d6f035e00d9dc462d1179c45e8117a445ca1170445e4117ec4155105583e8b0fa303e700f99c3e890fd0c4bd612f684bd912f5c4a2e128944a4712d6408c40232408cf0235408a50227008c2037ac13c4)
  (.lf 0))) (.nd (.nd (.lf
  0x1efa86cf91efb86d111b5a06d201af886abd1ab0473b21d1e06afb19e206b501c00c71f41c0586fe219da0677319dc0676c19d48674a19cfc675f1762c635d1a7306342183d05b10176f8631c186ec61b8186c869ff16c585c2b189e060fa18ccc5db317664561c19e8061b4183f4729c173b872b01a6cc6a171a6585fc717ce45dda1939c61c716c646110176046309)
  (.lf 0)) (.nd (.lf
  0x1e01077ed1e04878011dfc478101e01c803c200ec8053200c8802d20078802a2008477131dc4877101dc5076f11dbf476ef1dc147a9a1eaac7a991eab07aa11ea1c7aa91ea2c2bf10a2b428ae0a2bc288d0a20428ab0a22478cf1e2dc78f01e284784d1e11c78551e1847bdc1ef8c7bbd1ef807bd11ef307ba91ef187a361e9187a2f1e8a87a081e90c7a1d1e8640b54)
  (.lf 0)))

def aesInvOrder5 : BTree :=
  .nd (.nd (.nd (.lf
  0xf4d843b60f5683d6e0f5303e8e0e43c390d0e430390b0e32038c40e2d838dc0f6b43d690f51c3d2c0ee7c3b900ee903c4e0f4a03d250f3fc3d190f3c83ce60f3c03d0a0c78833220df4432970e784349d0c7d0331a0b8482df80b94c320f0d2482cc50b8dc39e50af4431ee0c7a841de0cd502e250e7e834db0ccb837e20d3d436bd0d20435470d95833f30ba843031)
  (.lf 0)) (.nd (.lf
  0x59ac1675059fc163b058c816600601c14f9053f815040542814da0534414f705d201ab206adc1abd06b1c1a9306a281ab006e301da7076a01da9076a81d8c0760c1da508abc294c0a6b4297a0a570094a02504096403d9c35630d49c33e30d41433c30cee833e10d21c3a870e90c3a210e81839a20e66439c20e7544c07130144c0112ff8478911e0047a3124dc1c23)
  (.lf 0))) (.nd (.nd (.lf
  0x78b01e2d078b81e0d078041e290782421cb0873021cd0873821ad0868421c9086a441bd1072441c3106fc41a71071c41a410668263c098f4263e098fc261e09848263a098682565095982567095a02547094ec25630950c205f081802061081882041080d4205d080f410d50435810d70436010b7042ac10d3042cc0f4003d140f4803d340f2003c500f3e03c708274)
  (.lf 0)) (.nd (.lf
  0x15c98572d15cb05685159e456a115a04572515894572a15ca055fc157c05623157e0605418160605618154602c180806049180a0678219e60679719e5865951962465b119644677e19e34678919e10661b1983c663a1985c64cc1934064ce1933464ae1928864ca192a868df1a3a068e51a38468ba1a2b868da1a2d86b171aa786b091abcc6a7d1a9c46a9c1a9e46bd4)
  (.lf 0)))

def aesInvOrder6 : BTree :=
  .nd (.nd (.nd (.lf
  0xa31828c30a30828c00192806410198c0dbc09e8005dc09dd427590170405b8017680da609cf8055309cc828b9014e0052f015440d8809cb0272209d302745012c004a7013240d7309bf426fa09cc0272f010a0041f011040d6b09c5026ff00ee403ba00e78039500edc0d5a09be026ef09bb426ec00c58030d00cbc0d4b09bac26ea09b9026e200a2c027f00a9c0287)
  (.lf 0)) (.nd (.lf
  0x122944be112fd04885121f048a31242c4be012f7c4bf312fc84a9e12a544ab712dc01019040781024040a80ffa03fc41017040f01469051b81473051e0144a05104146705a4c1a1e0688c1a28068b419ff067d81a1c06b801d2e074bc1d30074c41d13074281d2c087bc24c50931824c70932024aa0928424c3096a42bd80af5c2bdb0af642b8d0ae102ba60aee03209)
  (.lf 0))) (.nd (.nd (.lf
  0x20c4c834320c7c834720cc4830a20cbc8309202bc80ac21e8880a020258809020264808e2106c839c20f1483d320e40839620ea88399204f08120204e0813120470810e2046881141da5476a01dabc76a11da6076881da3c76a51d1947f4f1e3347f0e1dde874c01ca1c7f021f2507c8e1f23078a61d15c760d1f4d471511fca872751d2b06f2d205807c7a1de0878d9)
  (.lf 0)) (.nd (.lf
  0x19de8677919ddc66af19a8c66ce19aac68651a18c68531a15068311a09468501a0b473ad1ccd873931cf5873151cc2473341cc447f6e1fcd47f5b1fe7c7ef51fbe07f9d1fbc0728b1ca38727a1c9ec72591c93472781c9547c9f1f1cc7c9d1f25c7c671f15c7c621f24489ea228b489f3229248a2a227388a272281c82b5216188280215ec8571209e0857920afc57d5)
  (.lf 0)))

def aesInvOrder7 : BTree :=
  .nd (.nd (.nd (.lf
  0x1619c5cf21622c58eb1480052101488452141481451f014824522514670519b14668519d145d4518b145bc519513a0c4e81139fc4e85139784e50139ec4e541387c4e20138284dec1379c4df51378c4df214bb052de14cc452d014a8852ae14a7c52b3100a0497013da448b0106b8461f1248c494e12348472b122e84fa01188c4127123e4496511804491c15f84522b)
  (.lf 0)) (.nd (.lf
  0x1bf4870101bfe46f7d1be706f851be78776c1ddac778a1ddbc77541dd7877551dd8c1ecc07b741ef307c401e8e07a081eca07a28334b0cd1833500cd3832fc0cbcc33150ccc030ce0c33430d00c33c300d0c01030260c2f44cf8134bc456913428454b115084567118701b6f06dd01b7506dec1b5006d1c1b6d071245bb0161cc5876161dc58501611c58711628c0bf0)
  (.lf 0))) (.nd (.nd (.lf
  0xc30c30c20c3042f9a0be442fb30c0b03f540feb03f800fd903b120ec243b2c0f20c39130df3439120e44437b20dea437cb0e390462c118ac44e6118a444da1132c44d3117c8415110540414e1054c400c1000c402510500414d10530414b1054840aa1028440c3104d83f510fd403f4f0fd483dfe0f7d43e170fcec55421544c550215568550f1539c54e61536059cf)
  (.lf 0)) (.nd (.lf
  0xd98c38630e3a034c70a29c28a40a2c82df00b7e4266e0346826a0034ac066b036b484ca2133084ce2134084ae2129484c8213588df0238188e08237988de1237408dda237f42c34034800d21034880d01033e00d1e09a588b5922db88b7622dc88b6622d788b6522d3c2c120afcc0c930b3480c76031b40c91099e44f8313d844fc513e784efc13bcc4f1d13c8c5c59)
  (.lf 0)))

/-- The INV gates in the order in which they are packed: 18 bits each, 64 per leaf. -/
def aesInvOrder : BTree :=
  .nd (.nd (.nd (aesInvOrder0) (aesInvOrder1)) (.nd (aesInvOrder2) (aesInvOrder3))) (.nd (.nd (aesInvOrder4) (aesInvOrder5)) (.nd (aesInvOrder6) (aesInvOrder7)))

def aesPos0 : BTree :=
  .nd (.nd (.nd (.lf 0x0) (.lf
  0x2e580b7e02de80a8e02ae80ab202ab80a6e02a680a9602a480a7a029d80a72026c809ae026a809b60239808a60234808f2023b808b2022b807c201fb807e601f8807a201f3807ca01f18078a01eb807aa01e98076e01da8076201e3806a201a7806aa01a9805e60178805de0176805c60170805be016e805a60168804b60138804da0135804c2012e803fe00fe803f6))
  (.nd (.lf
  0x5d1c190a816910ed744ba10ed78541a1506c5d1a190b40ac142af515f242b290ac442b010ac842b310ac64ed803b7205a143b610053d3b6d005353b6a190ac3b6e00531541d15080014e45a3416a305e85169005a08168105a3c169905a000abc42aed15f342add0ac545e890ab942ae10aba42b090abe42b0d0acb42afd17a342b250acd42b1d16a60edd016a105a70)
  (.lf 0))) (.nd (.nd (.lf
  0xea903a6002278d6443590008a20e9703ac4022683a9c0eab03a78022583ad435940d6480ea803ab85a020d674359e14b0052bf03af05be70d66064e703ae8359703a7064e103a885be41937802160085c021800864021a0086c021c00874021e0087c02200088402220088c02240089402260089c0228008a4022a008ac022c008b44efa11fb047ea1225446cd13d58)
  (.lf 0)) (.nd (.lf
  0x103d44105103b503a040fa07ffc40e9008ed40f6008e540f21b1ac40f5008e155a61569c023a4801c201d06149200a07ff01ffb08024201307fe81030440bd102a440ad103a4614d102d440b1102e440d91032440e11040440cd1854440f91042440f12020103f0201b08058201e103dc062d080006c63103ac40f9080706c6917a006c5b103a820050805c6c6c08004)
  (.lf 0)))

def aesPos1 : BTree :=
  .nd (.nd (.nd (.lf
  0x4ab40c9285b61148784ab3164b46072181a00bcf02f240bd00c94c0bc702ed400d28c93c32500034e0bb402f3000d182f100bc802eec00d082f4432520c9440bc502f2c592f0c96c325e14884522202f605b630c958607702f58325702ee4607102efc5b60181bc006b001a80b9a001a4592b18190606318194605e12ab80bb016d60605a02e64323012ab4323114854)
  (.lf
  0x213c085001ed007b30214407b201ec408520214c08540215408560215c085802164085a0216c085c02174085e0217c08600218408620218c08640219408660219c0868021a4086a021ac086c01ea007a7021b407a601e94086e021bc0870021c40872021cc0874021d40876021dc0878021e4087a021ec087c021f4))
  (.nd (.lf
  0x6dba0f8c81b5906dac6dcb06d541b5706d8c58ec0f8bc5dcf1539058e91aa306dc01b7181b6c06d981b6d0f8e01b6406d48053b8f8d03e35014f21b5106da4053a86d841b6506d60053986db83e370f8d81b6206da06a8d0f9003e431539c54e806dd45dd30f8ec6dbb06dcc3e3c06d586dc306d705dd11b704057e015f41b37015f0594f18490612318494611d12b74)
  (.lf 0))) (.nd (.nd (.lf
  0x81042061080b45d310816420690814447d438bc047c011eb047cc38b70107411d41b44c38ab0e2e411f11b4645c701b42838aa0476438af047b06d1c0475411d70479058940e29c5c6f14d7458911a9906d121b45c11ed0479c11ee0e2c411e50474803638e2b038ae00d9211d1047a803628478811e6047600361847bc38b00e2b411e3047a46a660e2e038bb14d80)
  (.lf 0)) (.nd (.lf
  0x250b17cd443c3195dc250910f1024eb195c424f117ccc656f01b8006df0932c06de168a465b4196d465b2196b44c01093885f2a196a024ca10e744c0210e78566b159b05f2b196bc12d744b4d162244b8112da44b5912de44b8912dc50e8043b2092f843a100abd43ae00ab543aa196ac43ad00ab1566e159bc02ae4931824dd062a524c9092ec24ba0932024d2092e4)
  (.lf 0)))

def aesPos2 : BTree :=
  .nd (.nd (.nd (.lf
  0x9430250809500256c094100da9036945a3d036540dcd16b340d9d036640da1037040db1037140de5036d45ac9037740ded0375425a030f70258c095e0259830f30004809471a44030e60c3c809641a4245b071a45430e50253430eb0257c690c02520094b025604cdc0c3885b08146d44cdb16b2c69161a42009600256809610c3b0095702514005a8c3a030e70016e)
  (.lf
  0x47e81362c483d120ec012e0ce6001370ceb046a400434013d804603394004884d9b0050e485d0322829800022c008c055b4298e0128804a302da80b790018400620a2d007ce8a734076c01db40be60a5f00073001d015960a63c04a8012a4290601f7a07dd8a73c077801de407df8303c297d001e4007a06ff829b701660059902bbc29770013c0050030e0297e001fc))
  (.nd (.lf
  0x18e9063a018f60640018e7030750c1c4564d0c184309917cf430690c194306d0c234307d0c24430b10c2045f410c2a430b90c28464343cdc0642019030642c3cd70149418ed184c03ccb0f3641909184a85d78184d83cca063c81904184b018ee063c018fc12b903cc7175dc548112b8c5953184d061280641418ff064183cd0063f418eb0130e3ccc0f33404c4863a8)
  (.lf 0))) (.nd (.nd (.lf
  0x5c2219f98373503f6c0fed19f700fd603f600fe41323c37321707c5306132405a9319f8867d803fb80fe603fbc373b03f940fd300b6a37370dce002db83f480fec00b660fe203f9c0fd900b620ff00dce8373903f8c0fe916a4837420dd18530914c200ff71708c373f19f9c0ff50dcf80fd719f840fdd1708467df00b1202c580afe02c080ccc033400cd4033600cdc)
  (.lf 0)) (.nd (.lf
  0x425f01a1c227319b40425310984229019b245eda19b584252089e0228b19b302274089d8228213130424f17b5c560b1312c5a6119b5466c808a30228508a34425908a0c227101a6e425410958069c889c0228901a6a228008a10227701a66228e10960425508a0422871697c42601098c560e1583c229517b6c425b19b5c229310970227519b44227b17b6466cf01a18)
  (.lf 0)))

def aesPos3 : BTree :=
  .nd (.nd (.nd (.lf
  0xd7f0cfbc0d6218b440d6816ea062ce0052401480350c014716650629518a48629418a384b39035645ba118a240d420cf284b3a0cf2c526c149ac5ba218a3c05974164d15be41681059a41659059e41689059c4cf3433df034d833ce001bd33da001b533d918a2c33db001b15271149b8006e434f80d5405be50d41034cc0d32035000d4a034c405924164515bf41635)
  (.lf 0)) (.nd (.lf
  0x1dcf1a91c3fa80feac554a1552c1ddc178b43fa31b21c1dda0fe901dbd1b2401dc3178ac6c8e0176005d70767805d61aa5c6df61b7906de51b7ac5904076d05e221b7cc1d9d0fdf459050fdf858fd155005e231b7b80ed243b390ed443b710ed643b450eda43b790ed84fe003f92076443f81007fd3f8e007f53f8a1b7dc3f8d007f155421550c01fe476641daf06095)
  (.lf 0))) (.nd (.nd (.lf
  0x3da8515414590513003d9851883a170e85814560517059b00e8803a2314f0853c3051a45ccb0e86c63270519c3a1c051286321051405cc718c780476011d4142b011d059b418d14634218d0c633d12d941441173046339050a839f512d9839f614ed853b717300633f02579095a45751096742585095d4259509694258d39f80e828141e0e7e401134e81801114e808)
  (.lf 0)) (.nd (.lf
  0x56d715b6002ea49cf0275306359273f09cc4273009cf8274809cbc142b450a9161d4509914344635d14284509d1429450c5142d450c9143a450b918d8450e1143c450d9450f09d58451c09d44274c09d50451701cd4273519600450b114642752195e85f8819618450a09ce8274d195f0273609ce0274412fe0450717e1c56d612fdc5a2219608657809d38274709d3c)
  (.lf 0)))

def aesPos4 : BTree :=
  .nd (.nd (.nd (.lf
  0x2eaa0baa02ea60ba902ea20ba802e9e0ba702e9a0ba602e960ba502e920ba402e8e0ba302e8a0ba202e860ba102e820ba002e7e0b9f008b1000de0036822b40035800d22e760b9d02e710b9bc2e6d0b9ac2e690b99c2e650b98c2e610b97c2e5d0b96c2e590b95c2e550b94c2e510b93c2e4d0b92c2e490b91c2e450b90c08a9000ce0032822940031800c22e3d0b8ec)
  (.lf
  0x2cd10b34c2cd50b35c2cd90b36c2cdd0b37c2ce10b38c2ce50b39c2ce90b3ac2ced0b3bc2cf10b3cc2cf50b3dc2cf90b3ec2cfd0b3fc2d010b40c2d050b41c2d090b42c084a0b4342d0f0b4442d130b4542d170b4642d1b0b4742d1f0b4842d230b4942d270b4a42d2b0b4b42d2f0b4c42d330b4d42d370b4e42d3b0b4f42d3f0b5046c5d160e06c65160ec51771a900))
  (.nd (.lf
  0x61521852017e605f8017e70f0a017de05f30048b8f0903c250123217cb05f8c048a85f6c17df05f48048985fa03c270f09817dc05f8859590f0c03c3315154545605fbc5d4f0f0ac615705fb43c2c05f40615105f585d4b1853804fa013e417b1013e0597d1885062151884c620d12c6817c717510620805ec03c0512c643c0615124544a17518620e02d990b62456b9)
  (.lf 0))) (.nd (.nd (.lf
  0x28d9401c36490d908364d140245c040d9a0028e92810501811b94500e009d64984127fc3645170145c030d990365a17008365713f984ffd009d2028c8205e5c000d940364e0d918501411b98368000a4a48be12514503b1409802739252c49f500bd848cb1250402f5140a849430da0457420da3002f30da1c57450d98857440d954364c0d96c365413fbc49f70da28)
  (.lf 0)) (.nd (.lf
  0x41ad0856c216116ad841b8106ec55dd15778216f17ac441b31a29c216d106d0214f1a284215517abc689e01970065b084bc065a1651460f4183c860f3183bc4ad2085185ea9183a8212e106344ad11063855d11574c5ea6183b410dd44365158a4439910e04437110e4443a110e25064041a20848841910095d419e00955419a183ac419d0095155d4157540256484a8)
  (.lf 0)))

def aesPos5 : BTree :=
  .nd (.nd (.nd (.lf
  0x4675119f801048cb884867134fc33170cc48330916e0c07f38042a01229349c4d110cc045b820cbf832fc16e105b860cc94465f11a600121934dc486413504465600422332016e144d330cc5033180cc404d310045601098cc284d300cc0800ac0cbfc46710cc9832e41345c010c804165b87121984863135204d32121a44d350cbec33220cbb832d90cba4011f93478)
  (.lf 0)) (.nd (.lf
  0x1e34fb9801e14fb886cac0fb9401e05544c5514007891c7a072401810471f41c6f071b81c7c072181c6d038a10e27438890e23438c91811438950e24438990e2e438a90e30438e10e2b460490e36438e90e344724c3eec072381c89072443ee7016a41c731b2903edb0fba41c8f1b2a85dfc1b2703eda071e01c8a1b2b41c74071d81c82161743ed7177ec551216168)
  (.lf 0))) (.nd (.nd (.lf
  0x6b6f022e908b6422f108c4422f908b94230908c64230139500e58812f90e54400f74e57800f54e5686b790e57400f454e24538a003d9130104c60175f44c1012f604bd4130304c3812f4022d508b4422bd08b0422fd1760422c908b1422cd08bb422dd08bd4231508b845d8508c34231d08c144c6c396404c58131104c64395f0111c12fa1adc439530e58413171addc)
  (.lf 0)) (.nd (.lf
  0x5f5e19a184462098502627199f0261009848261e130e0445f17d7056a4130dc5a5119a086679098a02621098a444690987c260d01d2e446411198074c89830262501d2a261c09880261301d26262a111a0446509874262316948446f111cc56a815aa4263117d7c446b19a1c262f111b0261119a04261717d6c667d01c280709097c407081697066c419b0866c319af8)
  (.lf 0)))

def aesPos6 : BTree :=
  .nd (.nd (.nd (.lf
  0x3f16b9469941a65469921a6344cfa02a3c5b2e1a6280a770c6204cf90c62451e5147905b311a638041041031169e4106504134103d04174106d04154c62c319d029ac318c000ad3198000a531951a62c3199000a151e8147a8002a429cc0a8a05b1d0a76029a00a67029d40a8002998040b41029169f41019041445b2104084101d040941045040d41049041a41039)
  (.lf
  0x364f00c203659125e04ff61272c49c900c240f4900c28366c12798030b00c30030d0d9f0030f13fac02799260c4fe8127e049f400c44367a00c68368f1273802f0009ca02fb0d9d8030513fe0027892500280d0a070075401d54273b09d28073601cdc2519094a006e801ba40e9f008aa0eaf009a002690a0dc284601d68075b09d94277401cf0073d03b280232808c6))
  (.nd (.lf
  0x1a3d17690635d0155005530686005521673063c518f0863c318efc4b86068b85da118ee81a170f5b44b850f5b854ab152b45d9e18ef80ccd4332515e4433590cd0433310cd4433610cd24f5c03d820682c3d710069d3d7e006953d7a18eec3d7d0069154ae152bc01a64684c1a2905f8d1a16068201a07068541a1f068180cc84331d15e54330d0cd145f910cc543311)
  (.lf 0))) (.nd (.nd (.lf
  0x533900319110204464173c4441410f6043dc11040443810f501e31078b45a1d078741e55173b41e25078841e29079241e39079341e6d078f45cf5079941e7507974df8c111c0dfbc111704444111a0dfa8533b00eb810fb1a34037de0dfac11181a3285c4b1a35837dd0440011131a33010fc043f8110b1333037da1713053371332c5ac11a35068c804450110d04454)
  (.lf 0)) (.nd (.lf
  0x42f800a4d430600a45430219eac430500a41563d158f8029248e8023b70625923a308e50239508e8823ac08e4c1231448c11663448b1123a46255122e448b5122f448dd1233448e11240448d11894448f91242448f1430108ee8430c08ed423af08ee0430701ac4239919ec042fb10c2023b619ea45f0419ed842fa08e7c23b119eb0239a08e7023a81320c42f717c0c)
  (.lf 0)))

def aesPos7 : BTree :=
  .nd (.nd (.nd (.lf
  0x640916f0864160d3040dc703764640c037080dc4037444b9b0d2f85bbf14a484b9c167706412190280dda0374c0ddb0d3180dd0036fc01d68d31034c30075e0dbe0375c01d5837380dd20371401d48377034c80d3140dcf0375459db0d33834d214a4c52940378c5bc30d32864170378434c90370c6411037245bc11903c01bb806f201a7006a001a9006a801ab006b0)
  (.lf 0)) (.nd (.lf
  0x1efb101501ef607bc41ef91013c060307b686c4d1010c405107bdc6c54179586c45101081edf07bc86c5607b6c1edd07ba45832100fc5e53155d4582f1a8dc6c4b1b1441ef307bb01ef4101241eea07b6005eb901104046017b21ed707bc005ea87b9c1eeb07b7805e987bd44048101141ee807bb86a38101404053155e0557907bf05e571012c6c4607be8404c07b70)
  (.lf 0))) (.nd (.nd (.lf
  0xa174284d0a18428810a1445e390a1e428890a1c4561c3acc05608157d056143ac7012841567182003abb0eb241583181e45cf4182183aba055b0157e181f01568055a8157612ae03ab7173cc53f012adc5930182086078055fc1579056003ac0055dc15650104e3abc0eaf4041485590157c0104a1574055e0156b0104615810eafc3abe055d4157b164c83ac80eb2c)
  (.lf 0)) (.nd (.lf
  0x288d17ed8632f01d9007630a19c07621685c65541954c6555195384bea0a1f85fb0195282866116b44be9116b8570515c185fae1953414d14533516164536914d44534114d84537114d6516c045c20a16845b100c1d45be00c1545ba1952c45bd00c11570815c2403064a1882879063ad28650a15c28560a190286e0a15414cc4532d16174531d14d5463b114c945321)
  (.lf 0)))

def aesPos8 : BTree :=
  .nd (.nd (.nd (.lf
  0x2c460b1102c420b1002c3e0b0f02c3a0b0e02c360b0d02c320b0c02c2e0b0b02c2a0b0a02c260b0902c220b0802c1e0b0702c1a0b0602c160b0502c120b0402b4e000562c0b0b0242c070b0142c030b0042bff0aff42bfb0afe42bf70afd42bf30afc42bef0afb42beb0afa42be70af942be30af842bdf0af742bdb0af642bd70af542bd30af440843000522bcc0af28)
  (.lf
  0x7f001fb807ed01fb007eb01fa807e901fa007e701f9807e501f9007e301f8807e101f8007df01f7807dd01f7007db01f6807d901f6007d701f5807d501f5007d301f4807d101f4007cf01f3407cc01f2c07ca01f2407c801f1c07c601f1407c401f0c07c201f0407c001efc07be01ef407bc01eec07ba01ee407b801edc07b601ed46af015e046ae915dfc51541a79c))
  (.nd (.lf
  0xb1342c510b2345eb90b1642c550b1742c7d0b1b42c850b2942c7117af42c9d0b2b42c95174a0ef50174505d0017480ef4004e305ca86d6a0ef0c3bd105d186d6f174d86d620ef08172f05d046d7305cac172d05ce458c10eefc5d34150d858bd1a9e86d661b5b8174205cf017430ef20173a05ca0046b8ef103bc5011b2172705cfc046a85cdc173b05cb8046985d10)
  (.lf 0))) (.nd (.nd (.lf
  0x2438096e081196fdc35e40d78435d913e704a680d84c0261928144a4713f084fad0090a46e1128b8029f128504a5900a784fb21296c361415d24361e00a70361b15d1835f615d2035e80d77c35ee0d79c4f77128c4361f009924a1a13ef44fb8129684a5d1289c023e928a857470d874361a12864023d8d88c36040098a4fb503c54025e93edc35f40d7bc35e60d744)
  (.lf 0)) (.nd (.lf
  0x415c0830420bb0831041580191420a51a2bc414b1056420c21a2a45e981a2d0414a082a820bd1a2b020a6082a020b413310414717a5855bd1330c5aba1a2cc68a8082f820b7082fc4151082d420a30190e414e1053406448828820bc0190a20b2082d820a90190620c01053c414c082cc20b916ae441571056c55bf1570820c717a6441531a2dc20c51055020a71a2c4)
  (.lf 0)))

def aesPos9 : BTree :=
  .nd (.nd (.nd (.lf
  0x5b78182fc0083002080c3e00204593a182d060b3182d460ae12b080c5416dc060aa030f4329012b043291148c4523216dc460ad01435050945609051641441050c4145105184144932930ca940c310ca5000574ca8400554ca7460ab0ca800054548d05235001590c390313c16e7430f00c2e030b40c3b031140c2c0142105074560d05034144516e841415050441419)
  (.lf 0)) (.nd (.lf
  0x5deb0fa6c60570705c3e9c06fe86051070005de81813c0596016541bdb01650594b1845061151844c610d12b641bf117780610906f683e7512b683e76153dc54f817784610f037310dc8456390dd54373d0dcb4374d0dd7437453e780fa281bce0f9e401d34fa1801d14fa08610b0fa1401d0553e854fb007491bd606fb0180446f641bcb06f281bd806f881bc90371d)
  (.lf 0))) (.nd (.nd (.lf
  0x127904a48038284a28128e04a00038184a5c39100e434128b04a446a420e460391b14de4537a04a785c890e44c6c7104a703914049f86c7904a105c871b1dc0434010cc125f010c86a891b6c86da31b6886da81638c1275171f86db10497438ed1638838ee1636c536f172006daa0215908524216108604216908554217908624217138f00e40812510e3c400e74e3f8)
  (.lf 0)) (.nd (.lf
  0x440a19dec440d00af1568a15a2c02be495b82585062d525710958c2562095c0257a09584132e44cb5165d44ca51337462d9132b44ca9132c44cd1133044cd5133d44cc518b744ced133f44ce544070962044140960c257e09618440f01bcc256719e00440311044258419de45f4619e184402095b0257f19df02568095a82576131e043ff17d145689131dc5a8219e08)
  (.lf 0)))

def aesPos10 : BTree :=
  .nd (.nd (.nd (.lf
  0x5b1c147444ceb16b5c69541a5240a08028080a090c52c0a00027b4007a8c51c3149001ee09ec028180079827f40a01027cc007882828314c0c52009fe028105ad80c54831561474851d3028445b210c53c69570283c314e027c46951027dc5b1e1a5380029000a009d10009c5ad51a50c69441a514693d1339409e816c64693a0274031291339831281472051c916c5c)
  (.lf
  0x1e911da034af006de4ee0007ac4753007b04847007b401ee0d1d001ef036e0484a13b5c01b891d783468007c84ed4006ea476b007d04a72007d401f60d1b001bf0d1ec4a6213b20475811d9801c0007044ec200708475c0070c01c4007140db6007dc01c60d2c0473713af04871121bc01c8007244eb9006b648610072c01ae80738347f0d22c01cf0d26847b600740))
  (.nd (.lf
  0x19a0162243d271763c54991621c6a601b3f06d00066a419a3066a83d3006684198f0138e3d2c0f4b404e48663819a60138a199e0668819950138619ab0f4bc3d2e0667c19a51a9883d380f4ec549c1527419b2176443d331b3d819b00f4d019931b3f81999176386cfa014f0053b065d0053a1a8bc6c281b05c6c181b070581d066285d871b09419730f434581e0f438)
  (.lf 0))) (.nd (.nd (.lf
  0x109d0de78107f1a1841085170e0685e00e6c039a0417c039916a9c68531a14868541a13c4caa041d85c321a128105e0dde04ca90dde4531a14c645c311a134073541cc5167641cf9073841cd1073c41d01073a4ddf0378e04148377b002dd3789002d537851a12c3788002d1531d14c7800b644168107105cc5105d0413c104e04170106604134073041cbd167741cad)
  (.lf 0)) (.nd (.lf
  0x42c010b0c562a158ac233d17bcc42bb1925c233b10af0231d19244232317bc0648f01a78069d08bf4069c1680064d41934c64d2193384bca08c505eea1932822fc10a544bc910a58561e1587c5ee81933411da4475916064478d11dd4476511e14479511df50a6042aa08bc0429900a0d42a600a0542a21932c42a500a01562115888028248be0230f0622122fb08bb4)
  (.lf 0)))

def aesPos11 : BTree :=
  .nd (.nd (.nd (.lf
  0x34580d15801a6836340da7006920d9d036840d940068e0dab0d1683457036780da4166dc34610d190528614a100db216edc345d18d5c0db00d1700d9218d440d9716ed0634d00642018b80632018f8062a01500054401520054c01540055401560055c015800564015a0056c015c00574015e0057c01600058401620058c01640059401660059c4e0811eec47cf12054)
  (.lf 0)) (.nd (.lf
  0xf3c43d010f3a4ff803ff2078d43fe10083d3fee008353fea1aeec3fed00831555b15570020e478f41e53060c51e40078c81e31078fc1e49078c00f2f43cb90f2943ca90f39460c90f2c43cad0f2d43cd50f3143cdd0f3f43cc9183343cf50f4143ced1e560ffd01e51079301e540ffbc05eb078d86bb30ff8c3ff1079486bb9178f86baa0ff881e3b079346bbc078dc)
  (.lf 0))) (.nd (.nd (.lf
  0x53d317364625f026e909b6456e109c3426f509b94270509c5426fd3a580e9a814c20e96401234e99801214e988625b0e994012054f5453d60048914ca0538017804533414bf052f814cc0535814bd026d509b4456e509b0426f91781426c909b1426cd09bb426dd09bc4271109b845e0909c24271909c04538c3a6c0537814d9053843a670122414c3189803a5b0e9a4)
  (.lf 0)) (.nd (.lf
  0x27f519bf027de09f8027ec13160456717e7c56f21315c5a6919c0866fa09fd827ef09fdc457109fb427db01e8e456c115b807a489f6827f301e8a27ea09fb827e101e8627f8115c0456d09fac27f1169a84578115ec56f515bd827ff17e84457319c1c27fd115d027df19c0427e517e7866fe01d30074b09efc074a1682465041940c6505193f84bd509f585f97193e8)
  (.lf 0)))

def aesPos12 : BTree :=
  .nd (.nd (.nd (.lf
  0x6d181a99c58921b43c08b70bac808b30bac008af0b9e808ab0b9e008a70b90408a30b8fc58c31b5d0518e162f82f6e0bdb02f680bd982f300bcb82f2a0bca02ef10bbbc2eeb0bba46dbc0c1682ffe0be8457de0aeac2b8a0ad306c0c0b1302c0d0af3858390b4282ccb0b230517e0b8102dac0b53c69ef0a8dc2a160a7706b640ac602ac20a994577c01f3807ef020a0)
  (.lf
  0x2f2f0bcc42f330bcd42f370bce42f3b0bcf42f3f0bd042f430bd142f470bd242f4b0bd342f4f0bd442f530bd542f570bd642f5b0bd742f5f0bd8408be0bd8c2f650bd9c2f690bdac2f6d0bdbc2f710bdcc2f750bddc2f790bdec2f7d0bdfc2f810be0c2f850be1c2f890be2c2f8d0be3c2f910be4c2f950be5c2f990be6c2f9d0be7c6d65162f06d6d162fc518f1a9f0))
  (.nd (.lf
  0x59c918ed463b218ed063af12e08186b1757863aa061503c6512e043c661518c54641757463ae02f190bc2457890bcf42f250bc542f350bd142f2d3c680f1e818480f1a4017b4f1d801794f1c863ab0f1d40178551985467005e918500619817c24614c184506110185206170184302f050bc04578d0bbc42f2917c342ef90bbd42efd0bc742f0d0bc842f410bc445f11)
  (.lf 0))) (.nd (.nd (.lf
  0xfa200aa636cb0db2802aa83e840fbb00aa20fb103ed80fa800a9e0fbf0db3436cc03ec80fb816a3036d50db6452f914be00fc61705c36d119f1c0fc40db400fa619f040fab1705067be00cb0032b03e18032a16a14679319e50679219e3c4c7a03e745c0d19e280f850daac4c790dab052ee14bc05c0e19e3406c241af9165e41b2d06c541b0506c941b3506c74dab8)
  (.lf 0)) (.nd (.lf
  0x113e507c042020872841f10099d41fd0099541fa1a02c41fe0099155f1157cc02664874821e9061cd21d50871c21c60875021de087141134444cd166f444bd113d461d11131444c11132444e91136444ed1143444dd1875445051145444fd41f8087b042040879c21e1087a84200019bc21cb1a04041f31080421e81a0205ec21a05441f20874021e31a03021cc08738)
  (.lf 0)))

def aesPos13 : BTree :=
  .nd (.nd (.nd (.lf
  0x7f996e5033700cdb43364136dc47d40ce80015d921ec48501377c4dc9004fa4857120e80113121dc484c004484dce12134339f15cec33ab0044033a615ce8338015cf033740cdac337b0cdc84d93129f833a9005824886137604dd31212c484e12200013a9220c573d0cea833a81221c01398cebc338f0057a4dd203410015a9375033810cde833730cd74525c13798)
  (.lf 0)) (.nd (.lf
  0x1d17185003f3b0fd241d33184e85e14185183f3a074701d2e184f01d18074681d2612ba03f371784c552d12b9c5956185106138074bc1d29074c03f400749c1d150164e3f3c0fcf40594874501d2c0164a1d24074a01d1b016461d310fcfc3f3e074941d2b165543f480fd2c5530154c41d38178543f431851c1d360fd101d19185041d1f17848613e0170005bf073e8)
  (.lf 0))) (.nd (.nd (.lf
  0x92142495091f44f0c39c404efc13b804f0439c00117c13a21900439b30e70413be18fe45cb21901439b204ea039b704ee863fc04e8c13a504ecc4b980e6bc5cb114e8c4b9716768640318fe813bb04ed413bc0e6e413b204e8003bb8e6d039b600ef2139f04ee403ba84ec013b404e9803b984ef439b80e6d413b104edc59d90e6fc39c314e9053a604f105cb30e6ec)
  (.lf 0)) (.nd (.lf
  0x26d71133026b91980426bf17dc865fd01c88072109a640720168fc66241988c6622198784c1e09ac05f6e198682698112944c1d1129856b815ae45f6c1987413d444f41163044f7513d744f4d13db44f7d13d9512a044ba09a3044a900b6d44b600b6544b21986c44b500b6156bb15af002da49a5026ab06329269709a24268809a5826a009a1c13cf44f39163144f29)
  (.lf 0)))

def aesPos14 : BTree :=
  .nd (.nd (.nd (.lf
  0xb0e02c340b1b02c940b0c0119d0466455bd0462411c116d341191046341195046d411a5046e411d9046a45b510474411e1047242cc831ff02cb40b2802cc031fa001500b121804031ee0c7f00b2e180245b4a1805831ed02c5c0b29180300b1302c540b2112a7031ea16d24520212a6c591b18048600802ca80b2402cac31f302c880b10002ca31ef0c7c000b382c3c)
  (.lf
  0x21e0019c006710435c10e600ea403aa00c3a234b01b1a06c588d6806a601a9c100504050038b00e30514300fd847070e0d80324944f403f811c7c03f911cc003fa00fec37fd00ff0112311ccc513400c96472a0dfc803ff144c4032791bfc0401125a004020100c37f500f303804125c0512511c24471600f3403ce1447c03cf11c2c03d000f4403d204484040400f4c))
  (.nd (.lf
  0x54ca1532c01b646adc1acd05fbd1aba06ab01aab06ae41ac306aa80d244348d15b54347d0d2d45fc10d21434810d22434a90d26434ad0d334349d17f1434c50d35434bd1ad00f7901acb06b181ace0f77c056706ac062400f74c3de106b306239176e862450f7481ab506b1c623c06ac41ab306afc4b280f73c5db9153244b27166186246188e01ac806b081ac90f760)
  (.lf 0))) (.nd (.nd (.lf
  0x384615e185344171506afe01ea507a541ead07b341eb507a841ec507b541ebd38480e168112b0e12400cb4e15800c94e1486b0a0e15400c854d18534700329113304528173e444d811280449c113504500112601e9107a341e79079f41eb9173f41e8507a041e8907aa41e9907ac41ed107a745d0107b241ed907b044534385c0452011430452c385701014112c1ac08)
  (.lf 0)) (.nd (.lf
  0x435b10da4245e199a85f1c199d8435a091182459199b02442091102450130cc435717c6c5658130d05a4f199c866680916824530916c436109144243f01bce435c10d7806f4890f8245701bca244e09148244501bc6245c10d80435d0913c245516934436810dac565b15970246317c744363199dc246110d902443199c4244917c68666e01b2006c70908c06c616968)
  (.lf 0)))

def aesPos15 : BTree :=
  .nd (.nd (.nd (.lf
  0x64b703a24352b039ac64b1039c45bd6192bc020f008380e4b0083459f71929064a319288649e12ef80e6216f48649a03928350412ef4350514a9452a716f44649d01885061d45801062a418910620418a1062c4189935080d4640e3e0d41c00874d45000854d44c649b0d454008454aa852ab002190e4603974170d439240e3b038e80e48039480e3901871061b45805)
  (.lf 0)) (.nd (.lf
  0x40a8102941f9007e585a1a102bc40b315650559507e905e6f102ac656707e8840ac07e10656107e285e6c19578061a018641f64018605a331979465e41978c65de130341f7b1799865d907d8c40851303840861562055891799065df03f610fd4458a10fe143f6d0fd743f7d0fe343f754088102681f5710224022b5025802295024865db1025402285562c558c008a9)
  (.lf 0))) (.nd (.nd (.lf
  0x1609010ce3b1c0ec740434858201620010ca161805870160f010c616250ec7c3b1e05864161f1a9703b280ecac540c15034162c174343b231b37c162a0ec90160d1b39c1613174286ce5012e004b7057b804b61a8786be41af506bd51af7057fd058105d031af9815ed0ebf457fb0ebf857f4150085d021af680a5e429690a60429a10a62429750a66429a90a644ec00)
  (.lf 0)) (.nd (.lf
  0x572415c9403164a41c291d063dd290a0a3f028fb0a42429130a3e815284549d156b4548d1531463e11525454911526454b9152a454bd1537454ad18f9454d51539454cd292011890291b0a458291e1187c07770a4005ff01184c46210a4705fe917f285ff61184829050a45c5fec0a40429030a43c4a941183c5fc915c8c4a93164545ff217fa029180a448291911860)
  (.lf 0)))

def aesPos16 : BTree :=
  .nd (.nd (.nd (.lf
  0x2b090ac1c2b040ac042afe0abec2af80abd42af20abbc2aec0aba42ae60ab8c2ae00ab742ada0ab5c2ad40ab442ace0ab2c2ac80ab1429de000162abf0aaf02ab90aad82ab30aac02aad0aaa42aa70aa902aa10aa782a9b0aa5c2a950aa482a8f0aa302a890aa182a830aa002a7d0a9e82a770a9d02a710a9b82a6b0a9a0083b000122a620a97c2a5c0a9642a560a94c)
  (.lf
  0x68f81a3a068d81a22068781a1a0685819d60680819fe067d819b60678819de0676819960670819be066e8198206688199e06668196206578195a065581922064681916065081882061f8187a061d8183606188185a06158181606108183e060e817fa05fd818220607817da05f58180205ff8179a05e5817e205f78177a05dd817a205e78175e05d58178205df8169e))
  (.nd (.lf
  0x3b910055d3b9e005553b9a18bac3b9d00551542b150b0015645b7c16f505e9d16e205b5016d305b8416eb05b480aea42ba515cb42b950af345ea10ae742b990ae842bc10aec42bc50af942bb517a942bdd0afb42bd516f80ee9016f305bb816f60ee7c04d705b6062f00ee4c3ba105bd062ea174a862f60ee4816dd05bbc62ec05b6416db05b9c4b540ee3c5d29150a8)
  (.lf 0))) (.nd (.nd (.lf
  0x5bf30d718651703c3835c703bc0651103bd85bf01943c0272009c40ed0009c05a06193d464f4193cc64ed12f440ee716fa064e903b3c35a212f4835a114b0852c316fa464ef01999066245829066f419a50665419b50671419ad35a50d6d80ec30d69000934d6c800914d6b864eb0d6c4009054b1c52c8002490ecb03b88171643b380ec003afc0ecd03b5c0ebe01985)
  (.lf 0)) (.nd (.lf
  0x204d0816c206508130106244185105c44175106c46165105f441791060441a11064441a9107244195185a441c11074441b92072104b0206d081a020701049c0639081486aee1046c4129081b86ae517a306af6104682057081a46ae80814c20550818457851045c5e8b156c457841a7a46af21ab90206a08190206b10480206208140063390470411d018d2204f0819c)
  (.lf 0)))

def aesPos17 : BTree :=
  .nd (.nd (.nd (.lf
  0xc1a0303400e08308c32820ca040c170307459380ca2c328e148bc5230030a85b6f0ca1860a7030a032870302c60a1030445b6c1827c0077001d80bec001d4593418250609318254608e12ae80c0216d90608a02fac326012ae432611488c522416d94608d0137d04db455f904e84138904de4139904ea4139132630c9d40bdf0c990004f4c9c4004d4c9b4608b0c9c0)
  (.lf 0)) (.nd (.lf
  0x54b8f9903e65015321ba306eec054a86ecc1bb706ea8054986f003e670f9981bb406ee859650f9c03e73153d454f606f1c5ddf0f9ac619706f143e6c06ea0619106eb85ddc18638058a016241b890162059cf18f5463d218f4c63cf12e281b9f1775c63ca06e203e4512e243e46153a454eb1775063ce036790d9a457990da7436850d9d436950da94368d3e480f968)
  (.lf 0))) (.nd (.nd (.lf
  0x38df049006d5d048a4122b048e058b50e35c5c7914da858b21a9cc6d511b5601241048ec12420e38412390489803738e37038de00dd21225048f80372848d8123a048b003718490c38e00e3741237048f46a740e3a038eb14db4536e049285c7d0e38c6d4d0492038e4048a86d55048c05c7b1b54c04280109c120a0109859c318e54639318e50638d12de41221171cc)
  (.lf 0)) (.nd (.lf
  0x251e10f344be110f385679159e85f38194b8130544c05161244c39130844c11130c44c41130a50f4043e20944843d100add43de00ad543da194ac43dd00ad1567c159f402b6494682531062bd251d0943c250e09470252609434130044bfd161344bed1309462c112fd44bf112fe44c19130244c1d130f44c0d18b144c35131144c2d43d7094d043e4094bc252a094c8)
  (.lf 0)))

def aesPos18 : BTree :=
  .nd (.nd (.nd (.lf
  0x3127026dc09b1026e8312200078099b1a4c031160c49009b81a4a05b141a4d8311502680311b026cc692c02670099e026b04ce40c4485b111470c4ce316b4869341a4a409b4026b409b50c47009ab02664006a8c4603117001ae0998026c80069826a409ae0267c0068826d8311a0c46409aa026c05ad30c48c31261471051c7026f45b150c4786937026ec311f02674)
  (.lf
  0x174005f601770d048341f005e0342d11ed0017911dec4789005e8017c138b8017d11df44e3c005f8017f0360c0d8400600342212288018111e2c477a00608018313880018291dbc4e2c0061801870d014340c00620341611f684e1211dd44772006240d8900628342811de4018b00630018d0d0e0018f1381c018591aa84e0411e08478000644343500668344b11ddc))
  (.nd (.lf
  0xc5a4657c3d0c065681955065743d07014c4193f1afd43cfb0f424195b1aff05d841afb43cfa0651019561aff8194006508194e160143cf717604548d1600c6a231afc86bf80655c1951065603d000653c193d0134e3cfc0f3f404d4864f019540134a194c0654019430134619590f3fc3cfe0653419531a8903d080f42c5490152441960176143d031afb8195e0f410)
  (.lf 0))) (.nd (.nd (.lf
  0x37670dda402eb84098104000ba61036040e8102c00ba210440dda83768040dc103d16a9037720ddd8531714c58104b170bc376f1a11c10490ddb8102b1a1041031170a8683f00e3c038e0402c038d16a7c68241a08868231a07c4c9e040885c261a068100a0dd204c9d0dd24530c14c2c5c241a074070741c0d167041c41070a41c19070e41c49070c4dd30375d03ff8)
  (.lf 0)) (.nd (.lf
  0x660808b8022d908b84428908b5c22c501aae428410a1806ac88b1022dd01aaa22d408b6022cb01aa622e210a20428508b5422db168ec429010a4c561c1587422e917b9c428b1985c22e710a3022c91984422cf17b8c660d01a48069108aa4069016950669419a4c669519a3c4c3a08b005edf19a2822a8109944c39109985610158485edc19a3411ac446a1163e446d5)
  (.lf 0)))

def aesPos19 : BTree :=
  .nd (.nd (.nd (.lf
  0x1808066207ff96eb4340b0d0243401138c048b10d0f4019e9204846af139604e42005fe47cb11dfc01761208c46ac005d44e4711ab4343c15cdc3448005cc344315cd8341d15ce034110d02034180d03c4e0c11e0c344600686481d139404e4c11aac46ae120b8017b9206857390d11c344512078017a8d138342c0067e4e4b03618019b93934341e0d05c34100cfe8)
  (.lf 0)) (.nd (.lf
  0x6b8c1adf06b7d1ae1057d0078185e2f1ae341def0feb457ce0feb857c8155305e2e1ae080f0443c010f0643c390f0843c0d0f0c43c410f0a4fec03fc20778c3fb10081d3fbe008153fba1ae383fbd00811554e1553c0206477ac1e01060ad1dee077801ddf077b41df7077780eff43bf90ef943be90f09460b10efc43bed0efd43c150f0143c1d0f0f43c09182d43c35)
  (.lf 0))) (.nd (.nd (.lf
  0x62c1052885cd418af8048201204147d0120059a218b9062e218b9462dd12d3414931733062d8051f03a2512d383a2614f1453c41734062df0263109884572109954263d098b4264d0997426453a290e8ec14700e8a0011b4e8d401194e8c862db0e8d8011854f1c53c800469147805238177c451ec146c051b4147a05210146b0261d098645725098242641177b42611)
  (.lf 0)) (.nd (.lf
  0x14684517118de45199146a45191453f09ea8454c09e9427a009ea0454701d04278919480453b1152427a6194645f9419498453a09e3827a119470278a09e30279812f80453717e4456e412f7c5a1019494651809e88279b09e8c454109e64278701e4e453c114f8079489e18279f01e4a279609e68278d01e4627a411500453d09e5c279d1683845481152c56e715ba0)
  (.lf 0)))

def aesPos20 : BTree :=
  .nd (.nd (.nd (.lf
  0x30580c15430510c13c304c0c12430460c10c30400c0f4303a0c0dc30340c0c0302d0c0ac30280c09430220c07c301c0c06430160c04c30100c034300a0c01c30040c0042ee4000762ffb0bfe02ff40bfc82fef0bfb02fe90bf982fe30bf802fdd0bf682fd70bf4c2fd10bf382fcb0bf202fc50bf082fbf0bef02fb90bed82fb30bec02fad0bea82fa70be9008bf00072)
  (.lf
  0x2b900ae442b920ae4c2b940ae542b960ae5c2b980ae642b9a0ae6c2b9c0ae742b9e0ae7c2ba00ae842ba20ae8c2ba40ae942ba60ae9c2ba80aea42baa0aeb008420aeb42bae0aebc2bb00aec42bb20aecc2bb40aed42bb60aedc2bb80aee42bba0aeec2bbc0aef42bbe0aefc2bc00af042bc20af0c2bc40af142bc60af1c2bc80af246bad15f806bb515f8c51671a860))
  (.nd (.lf
  0x182e060d06a330f1803c63151845462061045d5b0f16c6c2f060fc3c5c060886c37060a05d591b0d40506014141803014106a831b6786d8c1b6346d92163601819175446d9b060083c35163643c36163445457175406d9502e550b9142e5d0b9f42e650b9442e750ba142e6d3c380f12817f60f0e401734f11801714f1086d9f0f114017055164545a005c917fe06050)
  (.lf 0))) (.nd (.nd (.lf
  0xf6d19d605c0919d98369803d540f6819d700f5103d4c0f60131c036951702852e9131bc5a7c19d90675903da40f6103da8369e03d7c0f4e00a66369a0da6c029a83d340f6700a620f5d03d880f5400a5e0f6b0da74369c03d780f64169e836a50daa452ea14bac0f721702c36a019d9c0f700da840f5219d840f5717018675e00a02028180a0e027e80b4002d100b48)
  (.lf 0)) (.nd (.lf
  0x68041a008680319ff84c96086685eb219fe82182106f44c95106f855df157845eb619ff4110b4441d166c44451110e4442911124445911105070441d3085d841c00097d41cd0097541cc19fec41ce0097155e515788025e485f82195061bd2181085cc217208600218a085c4110644415166d44405110f461b5110344409110444431110844435111544425186e4444d)
  (.lf 0)))

def aesPos21 : BTree :=
  .nd (.nd (.nd (.lf
  0x33530337c61c1033945b8f186fc00e6003940cc000390596a186d061b2186cc61af12c080cd616e2061aa032fc332d12c04332e14938525016e3061ad01549054e45689055b41555055141565055d4155d33310cd080cb30ccc000634ccf400614ccf061ab0ccf80060549445254001890cbb0334416f2432f80cb0032bc0cbd0331c0cae01535054c4568d054841559)
  (.lf 0)) (.nd (.lf
  0xe54439891817439590e554395d0e5f4396d0e60439a10e5c460610e66439a90e64473943f1c073801cdb0738c3f17016d41cc518e803f0b0fc641ce118e685e0818e983f0a073281cdc18e701cc6073201cd412e003f071781c551f12dfc59c818e886398073741cd7073783f10073541cc30160e3f0c0fc340584873081cda0160a1cd2073581cc9016061cdf0fc3c)
  (.lf 0))) (.nd (.nd (.lf
  0x135504db0176644d60134904d28135704d8813480239908e5457e508e1423bd17674238d08e24239108ec423a108ed423d508e945d9508f3423dd08f144dbc399404da8136504db439910114c134e1918039830e640136b191685ca519198398204d50398704d98645c04d3c135204d784baf0e5fc5ca414e544bb0167a8646319160136704d8413680e620135f04d30)
  (.lf 0)) (.nd (.lf
  0x449411258075c89980267901d6a2670099d0266701d66267e112604495099c426771691444a01128c56b615adc268517dac449b1991c268311270266519904266b17da0663f01c5807150991407141692c66641998c66651997c4c2d099705f61199682644111d44c2e111d856aa15aac5f601997813a644e89163844ebd13a944e9513ad44ec513ab511e0448a098e0)
  (.lf 0)))

def aesPos22 : BTree :=
  .nd (.nd (.nd (.lf
  0x43d4111504494110d31bc0c7380abf0c6ec00334c72000314c71869cb0c7240030547d451f8000c90ac802b7416ce42b280abc02aec0ac902b4c0aba010e5043845a9d04344110916cd410d90435410dd043f410ed044041121043c45b31044641129044442b8031cf02b700ad502b7831cc001200ac01a74031be0c72c0adb1a7285b3c1a75831bd02b140ad71a730)
  (.lf
  0x50a600d3848b700d3c035000d440fca00e0c03520dc9846f414280499b126a8035400d54509c00ac6499e00d5c02b280d6836f30dbfc035b0dc34497a00d7046ea12908035d00d7c508b00d804a3614268036100d880fc803f2403630dc08492f00d904a4411bd4036500d98507d00ade46ee14224036900da836e50dbb0036b0dbd84977141bc46fa11bdc036c03f38))
  (.nd (.lf
  0x5daa18bfc0cfb433dd15cc434110cfe433e90d02434190d004f6803db2069743da1006bd3dae006b53daa18bec3dad006b154bc152f401ae469941a7b05fa51a68069681a590699c1a71069600cf6433d515cd433c50cff45fa90cf3433c90cf4433f10cf8433f50d05433e517eb4340d0d07434051a7e0f6d01a79069d01a7c0f6bc055b0697863000f68c3db1069e8)
  (.lf 0))) (.nd (.nd (.lf
  0x383100cfa471e0e080380f144c837f600fdc37f111ca4472c0dfe403409436438270e0b8382a0e09838421256c383f00fd0381e00cbe50ed04494491a0e11003f214398491711c88382411c9450f40e06c033a9246050d50e0b450e500c8638290e10038250e0843812143f44712143e4510f11c8447101714c033b80cd250de0e0ac381111c68381900fa03818143dc)
  (.lf 0)) (.nd (.lf
  0x12684626d125c4496d125d44995126144999126e44989189a449b11270449a9433009038433c09024240309030433801af423ed19bc0432b10ce4240a19ba85f1019bd8432a08fc8240519bb023ee08fc023fc1314c432717c3c564a131505a6619bcc66e80901823fe0901c433108ff423eb01b8e432d10cb806e488fa8240401b8a23fa08ffc23f101b86240810cbc)
  (.lf 0)))

def aesPos23 : BTree :=
  .nd (.nd (.nd (.lf
  0x1e68d3d034f50079e0e12038ac01e5838880e260386401e4838c034f80d3cc0e23038a459f00d400350114a8c52a4038dc5bcf0d3ec6487038d434fa0385c6481038745bcc191f80203008080df70080459ef191d06475191cc646d12ec80e0e16f106469037d834d412ec434d514a5c529816f18646e017cd05ef457e905fc417d905f2417e905fe417e134d70d3a4)
  (.lf 0)) (.nd (.lf
  0x5e60156084c401696066a519a681f4707d001f48101e41f3e07cb005fb901d04075017f21f2b07d1005fa87cec1f3f07cc405f987d244077101d81f3c07d085a57101fc408315614558607d405e63101e866a707d38407b07cc066a107cd85e6119a7c060e018341f10018305a7419d0c674419d08673f131981f2717968673a07c3c4055131944056155e8557c17960)
  (.lf 0))) (.nd (.nd (.lf
  0x5d001b4d83aea056f815d01b52015ba056f015c8162a83ae7173fc53fd1629c6a6e1b4f86d420574415cb057483af00572415b70108e3aec0ebb40424856d815ce0108a15c60572815bd0108615d30ebbc3aee0571c15cd1a9c03af80ebec54001500415da174043af31b4dc15d80ebd015bb1b50015c1173f86d3c012b004ab0567004aa1649460441810c6045180f8)
  (.lf 0)) (.nd (.lf
  0x5fbb17f7414ff453ed1568454211502453f915064542915045178045f20a2b445e100c3d45ee00c3545ea17f6c45ed00c31571615c5c030e4a2d428cb063c528b80a2a828a90a2dc28c10a2a014fa453e51569453d51503463c914f7453d914f84540114fc454051509453f518f34541d150b4541528ce117d028c90a31028cc117bc076b0a2b85fe01178c45f10a328)
  (.lf 0)))

def aesPos24 : BTree :=
  .nd (.nd (.nd (.lf
  0x2dfa0b7dc2df40b7c42dee0b7ac2de80b7942de20b77c2ddc0b7642dd60b74c2dd00b7342dca0b71c2dc40b7042dbe0b6ec2db80b6d42db20b6bc2c8e000362da90b6982da30b6802d9d0b6682d970b6502d910b6382d8b0b6202d850b6082d7f0b5f02d790b5d82d730b5c02d6d0b5a82d670b5902d610b5782d5b0b5602d550b548084b000322d4c0b5242d460b50c)
  (.lf
  0x8390a8642a1a0a86c2a1c0a8742a1e0a87c2a200a8842a220a88c2a240a8942a260a89c2a280a8a42a2a0a8ac2a2c0a8b42a2e0a8bc2a300a8c42a320a8cc2a340a8d42a360a8e0083a0a8e42a3a0a8ec2a3c0a8f42a3e0a8fc2a400a9042a420a90c2a440a9142a460a91c2a480a9242a4a0a92c2a4c0a9342a4e0a93c2a500a9446afd15e206b0515e2c51571a7c0))
  (.nd (.lf
  0x4ef05df064500efcc3c0105e6064491750864550efc8178105e4c644c05df4177f05e2c4bac0efbc5d411510c4bab1679c645619120179405e3817950efe0178c05de8047b8efd03bf5011f2177905e44047a85e24178d05e00047985e583bf70efd8178a05e4059e90f0003c031511c544805e745d430efec645705e6c3bfc05df8645105e105d401913c04ee013b4)
  (.lf 0))) (.nd (.nd (.lf
  0xf1d009a2362d0d8b8026983c700f360099e0f2c03cc40f230099a0f3a0d8c0362f03cb40f331691c36380d8f052dd14b6c0f4116ffc36331995c0f3f0d8d00f21199440f2716ff0664e0093e0279009e8027b009f0027d009f8027f00a00028100a08028300a10028500a18028700a20028900a28028b00a30028d00a38028f00a404f73128944a23128244a0613f38)
  (.lf 0)) (.nd (.lf
  0x55cc1318c5a7319cd0672908448210b0844c41810842420f70194e417e105f00654883d821100194a21060842820fc019462114105fc417d0841c210d169c841871062855ce1573c211b17a94418319cdc21191061020fb19cc4210117a84672e01940064f0836c064e16a5467f419fc867f319fb44c92083c85e9a19fa820da105744c911057855c41570c5e9b19fb8)
  (.lf 0)))

def aesPos25 : BTree :=
  .nd (.nd (.nd (.lf
  0x60cd014ed0537456190544414f9053a4150905464150132c30cb540c830cb10005f4cb44005d4cb3460cb0cb40005c549085243001790c8b0328416ed432380c80031fc0c8d0325c0c7e014d905354561d0531414fd16ee414cd0532414d1053c414e1053d41515053945bbd05434151d05414329032d70327c0c9a0328832d2002280c841834032c60cb500ca018324)
  (.lf 0)) (.nd (.lf
  0x6e09070b03ea51643c3ea6164205505177b86e03037ed0df7437f50e05437fd0dfa4380d0e07438053ea80fae81c200faa401db4fad801d94fac86e0d0fad401d85541c5508007691c28070f8180a470ac1c1d070701c2a070d01c1b037d90df5437c10df143801180b437cd0df2437d10dfc437e10dfe438190df9460310e04438210e02471043ebc070f01c37070fc)
  (.lf 0))) (.nd (.nd (.lf
  0x6b9e04b605c921ae680440010fc12b3010f869fd1ad306b3a1acec6b4015ebc12c91722c6b4904ac4391d15ec0391e15ea0537b172286b430222108844222908924223108874224108944223939200e4c812a50e48400ef4e4b800ed4e4a86b4d0e4b400ec54df4537e003b912ad04b10175944ac012a204a8412af04ae812a00220d0882421f5087e42235175a42201)
  (.lf 0)) (.nd (.lf
  0x135a44d89135e44d8d136b44d7d18bd44da5136d44d9d44370977044440975c25d209768443f01bfc25bb19b8044331110425d819b605f5219b9844320970025d319b7025bc096f825ca13140442f17d3c56971313c5a6319b9466d90975025cd0975444390972c25b901cee4434110d8073c896e025d101cea25c80973025bf01ce625d6110e044350972425cf16990)
  (.lf 0)))

def aesPos26 : BTree :=
  .nd (.nd (.nd (.lf
  0xa5d0c5ec3179029440a5716b8031820c61451e3147880a6416cb4317e1a61c0a620c5f40a441a6040a4a16ca8697f000d4003402894003316b7469751a5c869731a5b84cf1028ec5b231a5a40a240c5604cf20c56451d7147585b241a5bc03e240f79169a40fad03e540f8503e940fb503e74c56c316e02860315c0008d31690008531671a5ac31680008151d914768)
  (.lf
  0x6a001a84137e04e10045a0116c1e130171a05c58a71005e60179c05c7839140e540082c020c05e08299b013c004f104e9c13af011800461039bc0e7e008440212007ea135304d680454011540dc6007660dd6007e401fa07ec81fc10188806230185e0df00078601e08380001ff0080019e90a6a8054a0152c4f5f0096047550d5ec020893d64025a11b1c025b12568))
  (.nd (.lf
  0x19f0067d019e7013c619fd0f57c3d5e067c419f7167803d680f5ac54a9152a81a04176743d631909c1a020f59019e51908419eb17668641f0152005470671805461a7cc6b1f1ac3c6b0e1ac505799067705d921ac7419c50f4f457980f4f85791152785d941ac540c9e432690ca0432a10ca2432750ca6432a90ca44f5003d52066e43d410067d3d4e006753d4a1ac80)
  (.lf 0))) (.nd (.nd (.lf
  0x532814c9c5c3f1a1fc076341d7d167c41db1076641d89076a41db907684deb037be0429837ab002fd37b8002f537b61a1ec37b9002f1532a14cac00be442b810c505cdd10b10428c10a2042c010ba04284075e41d75167d41d65076745cd9075b41d69075c41d91076041d95076d41d85173541dad076f41da537b30432037bf0430c10bd0431837ba00e8810a71a200)
  (.lf 0)) (.nd (.lf
  0x4cb108da05ef41a1a0235010b184cb210b14562d158b05ef61a1bc120844811167a44845120b4481d120f4484d120d50b2442db08d1042c800a2d42d600a2542d21a1ac42d500a215632158c0028a48d3023630623d234f08d04234008d38235808cfc120344809167b447f9120c462391200447fd12014482512054482912124481918904484112144483942d108d98)
  (.lf 0)))

def aesPos27 : BTree :=
  .nd (.nd (.nd (.lf
  0x34710d1ac347613a785bbc0d24001cb920244ead11af04ea3006ca47dc12060346f16ef45bbb0d234348316ee03480139ec4e92006c601c9820165bba0d1e434770d1b84ea911af434a90073e487311cd04ed013aec01b092290476d00734486e11cf001cc13b00473e0d2a8574f0d2d401ca0d2c857510d23057500d1f834750d214347d13a144a800d2cc01d291d68)
  (.lf 0)) (.nd (.lf
  0x1e8307a441e9b07a080f5e43d7515b743d650f67460e10f5b43d690f5c43d910f6043d950f6d43d85183943dad0f6f43da51ea8100901ea307a781ea61007c05f707a2062501004c402107a906248179286255100481e8d07a7c624c07a241e8b07a5c4b2c1003c5e491559c4b2b166206256189241ea007a681ea1100601e9807a1805db900504015017721e8507a74)
  (.lf 0))) (.nd (.nd (.lf
  0x12854f8c53e4004a9151c054c817864547c151105440151e054a0150f0278d09e2456b509de427b117874278109df4278509e94279509ea427c909e645e2109f0427d109ee454d43a9c054c0152b054cc3a98012541515188003a8b0ea641531187e45ce8188183a8a05468152c187f0151605460152412c603a871739853e112c5c597a1881061f8054b41527054b8)
  (.lf 0)) (.nd (.lf
  0x284701eca283e0a108283501ec6284c11680459d0a0fc28451689045a8116ac570315c10285317eb445a31965c285111690283319644283917eac658f01d6007570a04c0756168bc65d31974865d4197344c090a0a85fa3197242812115f44c0a115f856f715be05fa21973c14a34527d1626452b114a64528914aa452b914a85160045920a018458100bfd458e00bf5)
  (.lf 0)))

def aesPos28 : BTree :=
  .nd (.nd (.nd (.lf
  0x34a40d11034040d21034c40d1930b30c31408f20c2d000074c30000054c2f868eb0c3040004546ac51aa0001908fa0244416ad423f408ee023bc08fc0241c08ed00cf1033b45a2d033740d1516ac40ce5033840ce9034240cf9034340d2d033f45aad034940d3503474245030c70243c09090244830c20001808f31a3c030b60c31009101a3a05afc1a3d830b5023e0)
  (.lf
  0x968025e0a4800236008c829380037000e0008e8023e0a1e0021600848a5d40031000c800868021e295801fba07ed8a744078401e1407ef81fc209f4001f6007c827f0002b000b0007e801fe09cb001d60074827680025000980076801de09a1001b6006c826a0001f00080006e801be0977001960064825f800190006800668019e094c00176005c8254c001300050))
  (.nd (.lf
  0xbf342fed0bff42fe53c980f2a8189a0f26401834f29801814f288622b0f2940180551d054750060918a2062e017c84629418970625818a4062b8189502fbd0bee456cd0bea42fe117c942fb10beb42fb50bf542fc50bf642ff90bf245f290bfc430010bfa462ec3cac062d818b1062e43ca701464189b188c03c9b0f2a418b7188a45d6c188d83c9a0628018b2188b0)
  (.lf 0))) (.nd (.nd (.lf
  0x50800db9836df0dba8508217068370400b3e4a341424049281421c02b6925d44a430db885c181707437030dbdc5c1b0dbd0505f141dc02b580b36081d9707036ed0dbac36e314238492a0dc7402d39267446f1142cc509f00ad24932127040359126ac46fc00d6050a311bbc371e15d5c372700d58372415d60370015d6436f20dba436f80dbc05068126b4372900b5a)
  (.lf 0)) (.nd (.lf
  0x116244585165744575116b461ed115f445791160445a11164445a51171445951879445bd1173445b54228089004234088ec2236088f84231019ec221f19d404223108bc223c19d285ecd19d58422208894223719d3022200888c222e131b0421f17b3055fd131ac5a7719d506748088e02231088e44227088bc221d01a2e422510890068c88870223501a2a222c088c0)
  (.lf 0)))

def aesPos29 : BTree :=
  .nd (.nd (.nd (.lf
  0x1658342c0d240058e0d1b0347c0d120058a0d280cef033bb034700d221663833c40cf20526a149a40d2f16e7c33c0189dc0d2d0cefc0d10189c00d1616e6c626d0053e01498052a014b8053200ed003b800ef003c000f1003c800f3003d000f5003d800f7003e000f9003e800fb003f000fd003f800ff004000101004080103004104d8f121784859123f4487c137ac)
  (.lf 0)) (.nd (.lf
  0x60d8076041d7b076083f70075e41d670168e3f6c0fdb405a4875981d7e0168a1d76075e81d6d016861d830fdbc3f6e075dc1d7d1650c3f780fdec553e154fc1d8a178843f731839c1d880fdd01d6b183841d711787860de0173005cb0753005ca1652061051840c6104183f44ad5075885e17183e41d4b0fd344ad60fd385532154cc5e16183fc0ea343a7d158c43ab1)
  (.lf 0))) (.nd (.nd (.lf
  0x13f9050144b780e77c5cbc14ec04b7716708638418de0140e05020140f0e7a0140604fd003cb8e79039e500f3213f30502c03ca8500c140704fe803c98504039e70e79814040502859c10e7bc39f314ed053b50505c5cbf0e7ac63870505439ec04fe0638104ff85cbb18df4046a011a413d9011a059d318f9063e318f9863dd12e3413ef172dc63d904f5c39c612e38)
  (.lf 0)) (.nd (.lf
  0x56c615b1c5f78196fc140244ff916244502d14054500514094503514075136044ea09b8044d900b8d44e600b8544e2196ec44e500b8156c915b2802e249ba026ff0634126eb09b7426dc09ba826f409b6c13fd44ff1162544fe114064634513fa44fe513fb4500d13ff45011140c4500118d245029140e4502144df09c0844ec09bf426f809c0044e701ca426e119700)
  (.lf 0)))

def aesPos30 : BTree :=
  .nd (.nd (.nd (.lf
  0x322202e14322f02e000b7b02e0c322a001800b64180c0321e0c8b00b81180a45b56180d8321d02da40b7c180b00b6502d9c0b7312a90321a16d54521012a8c5921180c8602802df40b7602df8322402dd00b620030a321f0c88400c382d840b7a003060b7102dd40b68003020b7f0c88c322002dc80b781648c322b0c8b85213148500b8616d5c3226180dc0b840c89c)
  (.lf
  0x4d8878f005ce8173629c5017b005ed0173e05d0865b804de8137629a7014e005390137e04e086098049e81276299f0142005090127e04a087b8005ee817b61eef018100605017be05f085d640476811d6299a013a804eb011de047884a08038680e161288010d8043700e1e03888770405b6816d629c20176805db016de05b8871e40576815d629ba016a805ab015de))
  (.nd (.lf
  0xd54435650d614355517f74357d0d63435751b220f8501b1d06c601b200f83c057306c0861800f80c3e1106c7861791771861860f8081b0706c64617c06c0c1b0506c444af80f7fc5dc51535c4af7165886182185e01b1a06c501b1b0f8201b1206c00052b8f8103e05014b21aff06c5c052a86c3c1b1306c18052986c703e070f8181b1006c5859610f8403e1315368)
  (.lf 0))) (.nd (.nd (.lf
  0xd054d48535300349118704678174444628117c045ec118904650117a01f5907d541f4107d141f81174541f4d07d241f5107dc41f6107de41f9907d945d1907e441fa107e244684388c0467011970467c38870104411801b760387b0e224119d1b7785c641b740387a04614387f046606de10460411830464058f70e1dc5c6014d4458f41aa486dd61b77011990464c)
  (.lf 0)) (.nd (.lf
  0x439109294249301c0e438c10e3807048924824ab01c0a24a209298249901c0624b010e40438d0928c24a9168dc439810e6c5669159a824b717ca44393197dc24b510e502497197c4249d17c9465ee01b5006d3091dc06d2169046634198c86633198b84c22092385f20198a8247610db44c2110db8565d159785f1e198b412a944a95163244ac912ac44aa112b044ad1)
  (.lf 0)))

def aesPos31 : BTree :=
  .nd (.nd (.nd (.lf
  0x21a8202e5bdf0d51c35440d4f04f2311f0435760088246ce1253c4f4913cd0020191b0447f9008f046d512584023b13ce449640d5dc574c0d60802390d5f8574a0d560574d0d53035420d544354913bf847fb0d604022391d004f4413cf84962125944748007f6474a15d2c35800d5f44a83007f235880d59c022193cf40e90008764f3f0d56435520d528353414ad0)
  (.lf 0)) (.nd (.lf
  0x59fc1931064c31931464be12f181fcf179c464ba07edc40b512f1440b6156585597179c064bd04019100245811100f4402510054403510114402d40b8103281fab102e402335031802315030864bb10314023055664559a008c91fb307f28184c47ed81fa807e9c1fb507efc1fa6040051000458150ffc44029184d43ff90ffd43ffd10074400d100844041100446139)
  (.lf 0))) (.nd (.nd (.lf
  0x167e174643b531ab28167c0ed50165f1ab081665174586ac00131004c30590004c21a7e06b361ac946b261acb457a5059585d0e1acd4163f0ecb457a40ecb8579d150385d0f1acb00a9042a310a9242a690a9442a3d0a9842a710a964ecc03b42058cc3b310051d3b3e005153b3a1acdc3b3d005115410150440146458ec165105e6d163e058c0162f058f41647058b8)
  (.lf 0)) (.nd (.lf
  0x15584557515654556518ff4558d156745585297211950296d0a5a029701193c07830a54869601190c46510a5b8695817f5869661190829570a5a4695c0a54c29550a5844cf0118fc5fd515cc44cef16b6c69631a568296a0a590296b1192029620a54007eb91910464501fb2294f0a59c07ea8a57c29630a55807e98a5b046471191829600a5985adc11940465315cd0)
  (.lf 0)))

def aesPos32 : BTree :=
  .nd (.nd (.nd (.lf 0x0) (.lf
  0x4f58140204fe8131a04c5813e204f78130204bf8132204c7812e204b7812da04b58129604b0812ba04ad8123a048d812a204a68121e048581242048f811fe047e811f604888115e0460811a204808113e044e8113604588107e041e8107604508105e04168105604208103e040e8103604188101e040681016041080ffe03fe80ff6040880fde03f680fd6040080fc2))
  (.nd (.lf
  0xad4457690ae142b6d0ad742b7d0ae342b753b780ee2816ae0ede401534ee1801514ee08636b0ee1401505509054250054916b605b3017a445ae416ab05aa816b805b0816a902b4d0ad24576d0ace42b7117a542b410acf42b450ad942b550ada42b890ad645e990ae042b910ade45b3c3b8c05b2816c505b343b880134416af18dc03b7b0ee2416cb18da45d2418dd8)
  (.lf 0))) (.nd (.nd (.lf
  0x22d83b7c35ad0d6a80ed203b605a050d6cc35b714b1852c503b985bed0d6bc64f703b9035b003b1864f103b305bea193b8026c009ac0ea6009a85a041938864e41938c64df12f380ebd16f9464da03a94358912f34358a14af052bb16f8864dd0193d064b45821065841949064e41959065a41951358d0d67c0e990d630008f4d664008d4d65864db0d668008c54af8)
  (.lf 0)) (.nd (.lf
  0x6b6210434023c556b055ad008f92030081181855480cc2025080902032080f020230412510484410d10444414d18564411910454411d104f4412d105144165104c4615d10574416d105548124411408110203f0811c410f018cc20291ad6841031044420451ad7c5e861ad484102080b820401ad8c202a080b0203815ee040ff17a1455ab15ed46a001ad586b5e08104)
  (.lf 0)))

def aesPos33 : BTree :=
  .nd (.nd (.nd (.lf
  0x326b02fc00bde0036a32670c9a000db82f740bf5003660bed02fc40be4003620bfa0c9a8326902fb80bf4164d432730c9d85228148a40c0116da4326e1825c0bff0c9bc0be2182440be816d98608f001c4007002f0c006f164b86074181cc6075181b84ab202f645b5e181a80bc20c9204ab10c924521c148745b5f181b404c841311157a4134504cb4131d04cf4134d)
  (.lf 0)) (.nd (.lf
  0x54ea12e2c59d118f5063c806e541b8f06e583e5006e341b7b0150e3e4c0f934054486de81b920150a1b8a06e381b81015061b970f93c3e4e06e2c1b91167403e570f96c54ee153bc1b9e177643e5318f5c1b9c0f9501b7f18f441b851775463cd01610058306d8005821aa386dc91b6e46db81b6f858ee06dd85dce1b71c1b5f0f8b458ed0f8b858e61538c5dd01b6fc)
  (.lf 0))) (.nd (.nd (.lf
  0x38d00108c11fe18e4038c30e344121b18e205c7618e5838c20480c38c704858638c047fc12020483c4b7b0e2fc5c7514d904b7c16714639218e2412170484012180e324120e047f0036b8e31038c600db211fb04854036a8483012110480403698486438c80e314120d0484c59c40e33c38d314d9c5368048805c770e32c63970487838ca048006391048185c7218e38)
  (.lf 0)) (.nd (.lf
  0x6e5093d406e41687c6574195d46573195b44bf2094305f30195a024f410ed44bf110ed85672159cc5f32195b812ee44ba9161a44bdd12f144bb512f544be512f350ee043ca093a043b900acd43c600ac543c2195ac43c500ac15675159d802b2493c02507062b124f30939424e4093c824fc0938c12e944ba1161b44b9112f2462b512e644b9512e744bbd12eb44bc1)
  (.lf 0)))

def aesPos34 : BTree :=
  .nd (.nd (.nd (.lf
  0x37d40dfd038740e0d038840e41038445ad9038e40e49038c42648310f02638098702640310c0006009711a48030fe0c428098d1a4605b0e1a49830fd025d8310402624691c025c80974026044cdf0c3e85b0c146f04ce016b3c69251a464098a0260c098b0c40c0982025bc00628c40030ff0018e096e026200061825fc0984025d400608263031020c404098002618)
  (.lf
  0x5920164c0ce2033c800e8003a401378632804be812f629a301480052106cc429b2015e8057b137d0012f1226433a3005164dee004c44838004c848bd004cc01340cda401350341448ac137940146920c8335f004e04de200522488a004e847f0004ec013c0cd8c01050cdc447e21375848841220401060041c4dd000420487400424010a0042c0d03004f4010c0ce9c))
  (.nd (.lf
  0xc32430c50c33430ed0c37430f50c45430e117d34310d0c474310519360f3d01931064b019340f3bc052b064586d810f38c3cf1064c86d87175f86d790f388191b064b46d8a0645c19190649458cb0f37c5d7a1521c58c81a9f86d7f1b610192e064a0192f0f3a019260645004cb8f3903ce5013321913064ac04ca8648c19270646804c9864c03ce70f3981924064a8)
  (.lf 0))) (.nd (.nd (.lf
  0x530d132805aa01a0946818040601010040643754040380ffd00b8a374f0dd4002e383ff0101600b86100c04044100300b82101a0dd48375104034101316a78375a0dd78530e14c441021170a437551a09c101f0dd5810011a08410071709c681e00e24038803f84038716a5067e419f9467e319f744c8e03fe05c1e19f680fe00dcc44c8d0dcc0530514c105c2019f78)
  (.lf 0)) (.nd (.lf
  0x22b519a30229e08a8022ac130f0426717b785611130ec5a5319a48668808ad822af08adc427108ab4229b01a8e426c109b806a488a6822b301a8a22aa08ab822a101a8622b8109c0426d08aac22b1169544277109ec56151585822bf17b84427319a5c22bd109d0229f19a4422a517b74668e01a30068b089fc068a1698066d419b4866d319b384c4a08a585ed819b28)
  (.lf 0)))

def aesPos35 : BTree :=
  .nd (.nd (.nd (.lf
  0x59a018b5462d218b4c62cd12d240d8216e9c62c8035ac33e212d2833e3149c8527316e9862cf016b905aa4571905b7416c505ad416d505b9416cd33e50cfdc0d5f0cf9800734cfcc00714cfc462cb0cfc80070549d45278001c90d67035f416fe435a80d5c0356c0d69035cc0d5a016a505a84571d05a4416c916fc4169905a54169d05af416ad05b0416e105ac45bf5)
  (.lf 0)) (.nd (.lf
  0x3fbc077986b87077b05e301ae1405de017741dc7017706a481b2586c851b2106c8b161541ddd178a06c94077183f95161503f96161345546178a86c8c03bad0ee743bb50ef543bbd0eea43bcd0ef743bc53f980fea81dba0fe6402034fe9802014fe886c970fe940200555205549008091dc2077601828477141db7076d81dc4077381db503b990ee543b810ee143bc1)
  (.lf 0))) (.nd (.nd (.lf
  0x3a390e8e853c914f281492173443a3318b9c14900e8d0147318b8414791733462de011f0047b05150047a166bc632418c8c632518c744b5d051a85cc618c6414530e8344b5e0e83853bd14ef85cc818c7c0975425c515d0425f90978425d1097c42601097a4e8403a220511c3a110045d3a1e004553a1a18c6c3a1d0045153c014f0401164513c146505ddd145205110)
  (.lf 0)) (.nd (.lf
  0x1442451051615450f5144b46369143f450f914404512114444512514514511518db4513d145345135452709e00453409dec277609df8452f01cec275f195004523114c4277c194e45f8e19518452209d902777194f0276009d88276e12fa0451f17e3456dd12f9c5a1619508653809de0277109de4452909dbc275d01e2e452411498078c89d70277501e2a276c09dc0)
  (.lf 0)))

def aesPos36 : BTree :=
  .nd (.nd (.nd (.lf
  0x2f600bd782f5c0bd682f580bd582f540bd482f500bd382f4c0bd282f480bd182f440bd082f400bcf82f3c0bce82f380bcd82f340bcc800278009a2f2c0009600248bc982f240b8e82f210bc7c2f1d0bc6c2f190bc5c2f150bc4c2f110bc3c2f0d0bc2c2f090bc1c2f050bc0c2f010bbfc2efd0bbec2ef90bbdc2ef50bbcc00238008a2eed0008600208bb9c2ee5022ec)
  (.lf
  0x2c150b05c2c190b06c2c1d0b07c2c210b08c2c250b09c2c290b0ac2c2d0b0bc2c310b0cc2c350b0dc2c390b0ec2c3d0b0fc2c410b10c2c450b11c2c490b12c2c4d021182c4f0b1442c530b1542c570b1642c5b0b1742c5f0b1842c630b1942c670b1a42c6b0b1b42c6f0b1c42c730b1d42c770b1e42c7b0b1f42c7f0b2042c830b2146c05160306c0d1603c516f1a8b0))
  (.nd (.lf
  0x49485fd0180c0124a18040602017fb0124618110f0fc3c3e06014180b1aa103c480f12c545b151701818175543c431b63c18160f11017f91b66017ff175486d940140004ff05f6804fe1656061541854c6155185344ae905fc05d4a1852417d90f0744aea0f0785450151445d4c1853c0b7d42de5159642e190b8042df10b8442e210b824f0803c3205f343c21005bd)
  (.lf 0))) (.nd (.nd (.lf
  0x49df127a0505412748501c1275849e012804504c127f850521415c49eb1414050001407c505a14054503e140c84ff513fc05001140ac501014080503d1412450590d9a852df0d928028b94160493a0d960504a124f4366e12a20367f00c7036410d974504d009f23686127e8498012350498700c64368314b8c49d71414c52e50da1050481413c368212750505b0d9f8)
  (.lf 0)) (.nd (.lf
  0x21971072c21791a000217f17acc67ff01988066108564066016adc68a51a28868a31a27c4cbe085c05eae1a2682158106944cbd1069855d9157605eac1a27410f4443c11680443f510f7443cd10fb443fd10f9506a041ba0853041a90096d41b50096541b21a26c41b60096155db15770025a48550216b061b121570852421480855821600851c10ef443b91681443a9)
  (.lf 0)))

def aesPos37 : BTree :=
  .nd (.nd (.nd (.lf
  0xcc8165a433400cd0c52521494c0cd516e34333a186dc0cd30ccec0cb6186c40cbc16e2861ae14920478d1491c4d6f134384d25121504672004364d42134b407f2935144d3614934469c149284d7f121a04687135104d3b135184d3d0043a4676119fc010f935784d4c01fd64d621354c4674129d44d631355807f4804424d65135604d291346c467b119a04d0f1344c)
  (.lf 0)) (.nd (.lf
  0x1cb90604d1ca6072601c97072941caf072580e41439010e3b438f10e4b460510e3e438f50e3f4391d0e43439250e514391118154393d0e53439351cbc0fc101cb7072c81cba0fbfc05af072706cd10fbcc3f01072e06cd8178086cc90fbc81ca1072cc6cda072741c9f072ac58740fbbc5dff1546058711a9546cce1b3541cb4072b81cb50fbe01cac07268057b8fbd0)
  (.lf 0))) (.nd (.nd (.lf
  0x13230e5a400fb4e5d800f94e5c86ad00e5d400f854e3c5390003e9132b04d08176244cb8132004c7c132d04ce0131e0233908cd4232108c94236117634232d08ca4233108d44234108d64237908d145d9108dc4238108da44d14397c04d00133b04d0c39770113413241ab5c396b0e5e413411ab385ca01ab7c396a04ca4396f04cf06ad104c94132704cd057790e59c)
  (.lf 0)) (.nd (.lf
  0x56ac130bc5a4a19988665809948264b0994c448109924263701d4e447c111f80754898d8264f01d4a264609928263d01d46265411200447d0991c264d1693044881122c56af15ac0265b17d9444831999c265911210263b19984264117d88665d01c40070f0986c070e16940668419a0c6685199fc4c36098c85f5d199e8261a111744c351117856a315a945f5a199f8)
  (.lf 0)))

def aesPos38 : BTree :=
  .nd (.nd (.nd (.lf
  0x4cfd0c68451ec147ac5b361a67c04274108d16a0410c1042a41099042e410c9042c4c68c31b502a5431a4000bd31b0000b531af1a66c31b1000b151ef147c4002e42a740ab405b2d0aa002a480a9102a7c0aaa02a4004224108516a141075042b45b25041f410790420410a10424410a504314109516ca410bd0433410b50ab70c6dc0ab202ab00ab50c6cc004202a58)
  (.lf
  0xf3400b2c02cc09af426cc01c90072509074242c01b1006c501bbe263f09938071201c4c22cd01aba22dc01a500695097ac25fa01c18070701d1e244701bda06f58915806ca01b2c269309a88071e01c7c505100c4848d50da14027a9412c0314127180315124f8031600c5c364b00c600f47124c05042009ee49d30d900031b140fc027d92324031d12624031e00c7c))
  (.nd (.lf
  0x635e12db41a57176986359069003d8512db83d86152c854b317694635f033910ce0457610ced4339d0ce3433ad0cef433a53d880f6681a340f62401ab4f65801a94f648635b0f65401a8552d454b6006a91a3c0694817e6468fc1a31068c01a3e069201a2f0337d0cde457650cda433a117e7433710cdb433750ce5433850ce6433b90ce245fa10cec433c10cea46954)
  (.lf 0))) (.nd (.nd (.lf
  0x47000e0f4033f91c28512614488491e12424471500c66470815d54383e0e0e84a8a00c6238430e088033d94484112200ce651230e054380d0e01837f014cf8513511bf85140145200826944dc51330208650e3143a447271246c50db1435c470412a3050e4143c05120144b0033082092511e144a848ec12434511a144a4082594450512700cc648fa1243c033294414)
  (.lf 0)) (.nd (.lf
  0x23e10625d23cd08efc23be08f3023d608ef412484491d165b4490d125146261124544911124644939124a4493d12574492d18994495512594494d431708f90432408f7c23da08f88431f01adc23c319dc0431310c8423e019da85f0a19dd8431208f2023db19db023c408f1823d2131cc430f17c245643131d05a7f19dcc676808f7023d508f74431908f4c23c101b6e)
  (.lf 0)))

def aesPos39 : BTree :=
  .nd (.nd (.nd (.lf
  0x5bc514a644bb4167b86472191a80e04037f40e050d3800dfa037a401de8d37434db0077e0de80380401dd837e00dfc037b801dc8381834de0d3700df9037fc59ed0d39834ea14a70529d038345bc90d38c64770382c34e2037b46471037cc5bc7191bc01fd007f00dcd007ec59dd1904c641519050640d12e680de416ef864080373034bc12e6434bd14a44529016f00)
  (.lf 0)) (.nd (.lf
  0x6739179706746101681f0a07c70673c07c141f0707c504c681015c5e59155ec4c67169d8674519ce01f1d07c581f1e1017c1f1307c0805f390170405d017d21f0107c6805f287c441f1507c2005f187c7c4060101781f1207c605a751019c406b155fc558007c985e5d1018c674707c90406407c18674107c305e5b19cf806080181c1ee6018186a3a1b14c6c441b10c)
  (.lf 0))) (.nd (.nd (.lf
  0x15ab0569815ae0eb7c04a70564060400eb4c3ae1056b06039173e860460eb4815950569c603c0564415930567c4aa80eb3c5cf914fdc4aa7164906042180e015a80568815a90eb6015a005638041b8eb503ad501072158d05694041a8567415a1056500419856a83ad70eb58159e0569059260eb803ae314fe853fb056c45cfb0eb6c6047056bc3adc05648604105660)
  (.lf 0)) (.nd (.lf
  0x632d12d8828a717ed063290a24045c512d8445c615c30570d17ed4632e053a114e44574914f1453ad14e7453bd14f3453b545c811768288411724030b51758030951748632b11754030855c3c571000c29288c0a28818ee4a23c28810a200288e0a260287f0538d14e24574d14de453b118ef4538114df4538514e94539514ea453c914e6463c114f0453d114ee4a294)
  (.lf 0)))

def aesPos40 : BTree :=
  .nd (.nd (.nd (.lf
  0x2d020b4002cfe0b3f02cfa0b3e02cf60b3d02cf20b3c02cee0b3b02cea0b3a02ce60b3902ce20b3802cde0b3702cda0b3602cd60b3502cd20b3402cce0af4000118b3242cc70b3142cc30b3042cbf0b2f42cbb0b2e42cb70b2d42cb30b2c42caf0b2b42cab0b2a42ca70b2942ca30b2842c9f0b2742c9b0b2642c970b2542c930b2442c8f0211c00108b2282c880b218)
  (.lf
  0x2ac3020f42ac60ab242acc0ab3c2ad20ab542ad80ab6c2ade0ab842ae40ab9c2aea0abb42af00abcc2af60abe42afc0abfc2b020ac142b080ac2c2b0d0ac3c2b110ac4c2b150ac5c2b19020f82b1b0ac742b1f0ac802b230ac942b270aca42b2b0acb42b2f0acc02b320acd42b370ace42b3b0acf42b3f0ad002b430ad142b470ad246b5515ed06b5d15edc515f1a810))
  (.nd (.lf
  0xb3545ec90b4042d110b3e45dcc3bec05db8176905dc43be7013a417531b0283bdb0efa4176f1b0405d3c1b0083bda05d60176a1b04c175405d581762160403bd7174e4543d160346a291b0206c0e05dac176505db03be005d8c1751011ce3bdc0ef74047485d401768011ca176005d901757011c6176d0ef7c3bde05d8417671a8a03be80efac5440151041774174f4)
  (.lf 0))) (.nd (.nd (.lf
  0x4fd013f8435fc14b4c35dd0096a4fde1293835eb13f444a4f0d8004a870d84402c50d75035f113f50024b8d85c4a221265c46df1268402c20d85452d7128444fda14b50361913f3c4fd50d8584a2013f8836120098e4a100d80435f0009364fc70d75c02bc0d7484a1f1293435da009964f6e0d820360e0d82836050d89049990d88802b90d7fc025493e080f1811b6c)
  (.lf 0)) (.nd (.lf
  0x5e9e19fd841620835020e719fb020d00834820de1324c415f17a7055c5132505a9719fd467e9083a020e0083a441690837c20cd0192e416510590064c8833020e60192a20dc0838420d30192620ea1059c41660837420e316a58416f105cc55c71571820f117a7c416a19fdc20ef105ac20d119fc420d717a7467ef019280649082c4064816aec68b51a2c868b61a2c0)
  (.lf 0)))

def aesPos41 : BTree :=
  .nd (.nd (.nd (.lf
  0x4ac6031f45b76182e80c660caa04ac50caa45238148e45b77182f40524414811584414b505274148d052b414bd05294caac32bd0316832ac0016d32b90016532b5182ec32b800161523b148f0005a431880c7805ba90c650315c0c56031900c6e03154051f41479158541469052845bad051c4146d051d41495052141499052e4148916ec414b10530414a90c7b0cafc)
  (.lf 0)) (.nd (.lf
  0x59b07010059a164a060541814c6055181384aaa070685de6181281c030fa344aa90fa3854fe153fc5de7181340de34377d1576437b10de6437890dea437b90de84fa403ea206fdc3e910075d3e9e007553e9a1812c3e9d0075155011540801d646ffc1c150601d1c0206fd01bf3070041c0b06fc80dde437751577437650de7460210ddb437690ddc437910de043795)
  (.lf 0))) (.nd (.nd (.lf
  0x69fe0e4c0393314dfc538004b205c8f0e4ac6b3d04b18392c04aa06b4604ab85c8c1ad08043a010e41289010e06a431b1f86c6f1b1b86c7416124129f172146c7d04a1c3905161203906161045375172186c76021bd086b421c50879421cd086e421dd087b421d539080e468127b0e42400eb4e45800e94e4486c800e45400e854ddc5378003a9128304a68175644a18)
  (.lf 0)) (.nd (.lf
  0x258c0966825a40962c134544d11165144d01134e462e5134244d05134344d2d134744d31135444d2118ba44d49135644d41441f096c8442c096b425a8096c0442701be4259119c80441b110a425ae19c605f4c19c94441a0965825a919c7025920965025a013180441717d2c568f1317c5a6f19c986719096a825a3096ac442109684258f01cce441c11078073489638)
  (.lf 0)))

def aesPos42 : BTree :=
  .nd (.nd (.nd (.lf
  0x828c57c31610020e0a16028bc0081828980a2a028740080828cc31620c5800a27028b45ade0c5a8316d1476c51dc028e85b270c5946977028e031660286c6971028845b251a5b4002f000b809fb000b45ad91a54c69551a548694f133a80a1216c7c694a027e83140133a431411473c51d016c74694d00f2d03c745a5903d440f3903ca40f4903d640f4131440c554)
  (.lf
  0x24503a340e8e00918355c11ec8024711d40474300920024913c48020491cec4f1e00930024d0d4f8354500938354f11b504f041236848d80093c0e9300940356211fb402510094802530d5cc025513be4020791afc4ef611ff047f80095c35700098035851237802360080202410d5ac024b13c18020691b101b830a6d005860161c13fc0a614046c011b4288b0a730))
  (.nd (.lf
  0x19d30f52019ca066e004eb8f5103d45013b219b70673c04ea8671c19cb066f804e9867503d470f51819c80673869f20f5403d531528854a30676c5d970f52c6b11067643d4c066f06b19067085d951ac5c054201504199d015006a611b4106cf31b3d06cf81622c19b3176346d01066703d25162303d26162105498176306cfb032150c814321d0c8f432250c8443235)
  (.lf 0))) (.nd (.nd (.lf
  0x68661a18868631a17c4cae042805c371a16810880de404cad0de44532114c805c361a174074c41d21167841d55074f41d2d075341d5d07514de4c37a6041f03794002ed37a0002e5379f1a16c37a1002e1532414c9800ba44210109b05cd11087041e41078042181090041dc074741d19167941d09075045cc9074441d0d074541d35074941d39075641d29173341d51)
  (.lf 0)) (.nd (.lf
  0x234d17bd4686e01a9006a308c9c06a2167d06495192506492192344bba08cf85eee19224232610ab44bb910ab85625158985eef1923811f1447b515fe447e911f4447c111f8447f111f650ac042c208c6842b100a1d42be00a1542ba1922c42bd00a115628158a4028648c8823390622d232508c5c231608c90232e08c5411ec447ad15ff4479d11f54623111e9447a1)
  (.lf 0)))

def aesPos43 : BTree :=
  .nd (.nd (.nd (.lf
  0x46b913bac528912980528813a844eae020124e9913aac01c69200446ba13a3c4e7a13b6c528e1298c528d0069801a50367001a4166e0635518d48635318d384b69036cc5bb318d240d9b0d1404b6a0d13c528214a045bb218d3c05c54170515d64173905c84171105cc4174105ca4d14c34650363c3452001dd345f001d5345e18d283460001d1528714a14007643660)
  (.lf 0)) (.nd (.lf
  0x630b100140210555885563008491e66079f01834479a41e5b079681e68079c81e5903d1d0f464573d0f4243d41183543d110f4343d150f4d43d250f4e43d590f4a460d90f5443d610f52479fc400c079e81e75079f44007017c41e5f18c403ffb100241e7b18c285e4418c583ffa079901e7618c301e60079881e6e12d703ff71790c556112d6c59ab18c486308079dc)
  (.lf 0))) (.nd (.nd (.lf
  0x9d64e9c03a82053ac3a710049d3a7e004953a7a1886c3a7d0049153dc14f740126453cc150905e0d14f6053a014e7053d414ff0539809cc4272d15b14271d09d545e1109c94272109ca4274909ce4274d09db4273d17854276509dd4275d150c0ea10150705408150a0e9fc048f053b062200e9cc3a810542062191738862250e9c814f10540c621c053b414ef053ec)
  (.lf 0)) (.nd (.lf
  0x65ca0a08028190a08445890a05c280501eae45841161807ac8a010281d01eaa28140a060280b01ea628221162045850a054281b168c445901164c56fc15bf4282917e9c458b1975c282711630280919744280f17e9065ce01d48075109fa40750169a0670419c0c670519bf44c550a0005f9d19be027e8115944c561159856f015bc45f9c19bfc148c45221164c45255)
  (.lf 0)))

def aesPos44 : BTree :=
  .nd (.nd (.nd (.lf
  0x68d902314309c13334309d1467c519e16bd068df00ca9032645a21033340cb5032940cc5033540cbd30990c2b808d60c26000034c2a000014c29868db0c2a400005469051a20000908c90239c16a94231808dc0237408c70233008de00c95032445a25032040cb916aa40c89032140c8d032b40c9d032c40cd1032845aa1033240cd903305a3785af30232868e102344)
  (.lf
  0x8b0022c82e7d0b9fc2e810ba0c2e850ba1c2e890ba2c2e8d0ba3c2e910ba4c2e950ba5c2e990ba6c2e9d0ba7c2ea10ba8c2ea50ba9c2ea90baac2ead0babc2eb1022d008b60bacc08b8022e82eb50badc2eb90baec2ebd0bafc2ec10bb0c2ec50bb1c2ec90bb2c2ecd0bb3c2ed10bb4c2ed50bb5c2ed90bb6c2edd0bb7c2ee10bb8c6d0d162406d151624c51871a9a0))
  (.nd (.lf
  0x4b420f1f8546a151ac5d6418abc0bdd42f6515c242f990be042f710be442fa10be24f2003c92061c43c81005fd3c8e005f53c8a18aac3c8d005f1546d151b8017e461e4188f05f15187c061b8186d061ec1885061b00bd842f5d15c342f4d0be145f190bd542f510bd642f790bda42f7d0be742f6d17c742f950be942f8d18920f250188d0622018900f23c0513061c8)
  (.lf 0))) (.nd (.nd (.lf
  0x5093128dc492c1433452fc1249452fd14214509202072507c1423c02ca91bb4492e141d4505d142f85301126a0530200cc8033103ec0033016a3467c519f0867c319ef44c8503f1c5c1319ee80faf0db0c4c860db1052f614bd45c1219efc06d941b55166441b8906dc41b6106e041b9106de4db1836d803e8c36c70029d36d40029536d219eec36d30029152fa14bec)
  (.lf 0)) (.nd (.lf
  0x55f7157e0026a487f02213061d921ff087c421f0087f82208087bc114b445291667445191154461dd11484451d114944545114d44549115a44539187844561115c44559420f08858421c08844220c088504218019d421f519f40420b10864221219f245ec819f58420a087e8220d19f3021f6087e0220413230420717b1855f51322c5a8f19f4867c80883822070883c)
  (.lf 0)))

def aesPos45 : BTree :=
  .nd (.nd (.nd (.lf
  0x4ded137f0338814974336a0055a4dfb122e03377137b048bc0ce30489c0ce7801390cd80337d137c001478ce94483e11f94489811fb801360ce845263120d44df61498433a4137a84df20ce884833137f8339d0057e48360ce34337c1378c3362004c0335e120d048b90cd9801619362433950ce7033960ce4833b111f9033ad004b4338a005424d9f03418485a0cec0)
  (.lf 0)) (.nd (.lf
  0x60fc075041d430753c4ad80fd3c5e19154d04ad7165286102183e01d58075481d590fd601d50074f8059b8fd503f55016721d3d07554059a875341d51075100599875683f570fd581d4e0755059490fd803f63154dc5538075845e1b0fd6c61070757c3f5c075086101075205e18183f805c6017141d230171059541851461421850c613d12b941d3917844613907488)
  (.lf 0))) (.nd (.nd (.lf
  0x39cb0e75c13e818f685cb818f9439ca04f4839cf04f9063dc04f3413cf04f704b8f0e71c5cb614ea84b901674863e218f6013e504f7813e60e74413dd04f2803c38e73839cc00f1213c904f8c03c284f6813df04f4003c184f9c39d00e73413db04f8459d40e76039da14eb453ae04fb85cb90e74c63e704fb039d204f3863e104f505cb518f7804640118c13ae01188)
  (.lf 0)) (.nd (.lf
  0x6605198086604197f84c1509b685f73197e426c2112f44c16112f856bf15b005f74197fc13eb44f9d162c44fd113ee44fa913f244fd913f05130044d209ad844c100b7d44ce00b7544ca197ec44cd00b7156c215b0c02de49af826d50633526c109acc26b209b0026ca09ac413e644f95162d44f8513ef4633913e344f8913e444fb113e844fb513f544fa518cf44fcd)
  (.lf 0)))

def aesPos46 : BTree :=
  .nd (.nd (.nd (.lf
  0x47b411e9047c41211048041215048d4120516d74122d048f412250b5b0c85c0b5602d440b590c848005a02cec60200c818321402d5c601916d4060260c8140b4002d48601c02cf00b3e02d284aa00c8085b4f148244a9f164786022180600b5302d340b540c82c0b4b02ce400ba8c81c3208002ee0b3802d4000b982d200b4c02cfc00b882d54320a0c8240b4902d3c)
  (.lf
  0x390844c8034680d16113801018040700d1e034884c00039e80e76130601120044900e7e03a0877a805be816f629c30178005e1016fe05c084b58039680e5612dc01108044300e5e0398880bc062e818b629ca018d00635018be063084ca803a680e96133001138044f00e9e03a88598c04468111629940131804c70111e044888204063e818f62090019000641018fe))
  (.nd (.lf
  0x1ad3034ed0d3a456a50d364351117f3434e10d37434e50d41434f50d42435290d3e45fd10d48435310d4646be43dfc06bd01aef06bdc3df7015b41ad9187803deb0f7e41af5187685dc0187983dea06b781af0187701ada06b701ae812c403de7176fc54d012c3c59741878861d806bc41aeb06bc83df006ba41ad70148e3dec0f7b4052486b581aee0148a1ae606ba8)
  (.lf 0))) (.nd (.nd (.lf
  0x7ce41f2138600e1c811550e18400cf4e1b800cd4e1a86cc20e1b400cc54d30534d00339115d045d0174144580115204544115f045a8115001ef507bc41edd07b841f1d174241ee907b941eed07c341efd07c541f3507c045d0d07cb41f3d07c9445dc3874045c8116d045d4386f0102c11561b2e838630e1c411731b3045c5e1b2c838620456c3867045b86cc30455c)
  (.lf 0)) (.nd (.lf
  0x247a13090436f17c7c565f1308c5a43198d4662809210247d092144379091ec246901bee437410dd806fc891a0248101bea2478091f0246f01be6248610de04375091e4247f16908438010e0c56621598c248d17c8c437b198dc248b10df0246d198c4247317c84662f01b3806cd0913406cc169386675199d06673199b44c31091905f18199a4244c10d544c3210d58)
  (.lf 0)))

def aesPos47 : BTree :=
  .nd (.nd (.nd (.lf
  0x59f9192d464b2192d064ae12f040e8c16f6064aa039d0351c12f08351d14ab052ad16f5c64ad018e10634458090641418ed0637418fd0643418f5351f0d4c80e680d480008b4d4b400894d4a464ab0d4b0008854ac852af002290e7003a1c170f439cc0e65039900e72039f00e63018cd06324580d062e418f11710418c1062f418c50639418d5063a41909063645c39)
  (.lf 0)) (.nd (.lf
  0x64c707f3040c407eb864c107ed05e72192fc06200187c1f8e018785a1c1958c656519590655f12fb81fa5179b4655a07e34409d12fb4409e1563c5591179ac655d03fbd0feb458610ff843fc90fee43fd90ffa43fd140a0102c81f8110284022f502b8022d502a8655b102b4022c556485593008b91f8907e80184947e301f7e07df41f8b07e541f7c03fa90fe945865)
  (.lf 0))) (.nd (.nd (.lf
  0x439859383b370ecd816420592069f90ed003b43150485413059545d130ecec6b280594c3b3c058d86b30058f05d101acb804be012f41617012f06a5b1b3b46cdc1b3746ce416200162d174206cec058583b15161fc3b16161e05408174246ce3029dd0a73429e50a81429ed0a76429fd0a83429f53b180eca8160a0ec6401434ec9801414ec886cee0ec94014055028)
  (.lf 0)) (.nd (.lf
  0x2923054fd153e45a8d153a4552118fa454f1153b454f51545455051546455391542463ed154c45541154a4a524463c0a510293f0a51c463701df429291a6c0462b118e029451a6a05fcf1a6d8462a0a4b829401a6b0292a0a4b429381340c462717f40572a134105aeb1a6c869aa0a504293b0a50846300a4e4292701f8e462e118b007e48a498293e01f8a29360a4e8)
  (.lf 0)))

def aesPos48 : BTree :=
  .nd (.nd (.nd (.lf
  0x2aac0aaa82aa60aa8c2aa00aa742a9a0aa602a940aa442a8e0aa2c2a880aa142a820a9fc2a7c0a9e42a760a9cc2a700a9b42a6a0a99c00018a9902a610a9782a5b0a9602a550a94807f801fe807fc01ff8080002008080402018080802028080c02038081002048081402058081802068081c020780820020880824020980000820a8082c020b80830020c80834020d8)
  (.lf
  0x7b581f0207bf81eba07ad81ee207b781e9a07a581ec207af81e7a079d81ea207a781e5a079581e82079f81e3a078d81e62079781e1a078581e42078f81dfa077d81e22078781dda077581e02077f81dbe076e81db6077881d9e076681d96077081d7e075e81d76076881d5e075681d56076081d3e074e81d36075881d22074681d16075081cd6074081cfe073d81cb6))
  (.nd (.lf
  0x170805c7817aa45c2c16fd05bf0170a05c5016fb02c050b00456ad0afc42c2917ab42bf90afd42bfd0b0742c0d0b0842c410b0445eb10b0e42c490b0c45c843bbc05c70171705c7c3bb8013741701187c03bab0eee4171d187a45d30187d83baa05c181718187b0170205c10171012c503ba7174b8543012c4c5977187d061e805c64171305c683bb005c4416ff0118e)
  (.lf 0))) (.nd (.nd (.lf
  0xefa009d85a0d1944c651519448650d12f680f1116fb8650a03be435b912f6435ba14b2452ca16fbc650e019f5067945839068641a01067c41a11068841a0935bc0d73c0eed0d6f400974d72800954d720650b0d724009454b3852cd002590ef503c30171843be00ee903ba80ef703c040ee8019e106774583d067341a051719419d50674419d9067e419e9067f41a1d)
  (.lf 0)) (.nd (.lf
  0x107944205107d4420d108b441f9185d44225108d4421d41370827041440825c209208268413f018fc207b1aab041331050420981aa8c5e921aacc41320820020931aa98207c081f8208a15d90412f17a4455b715d8c69d91aabc6aa208250208d0825441390822c2079018ee4134104d8063c881e02091018ea208808230207f018e62096104e0413508224208f1a76c)
  (.lf 0)))

def aesPos49 : BTree :=
  .nd (.nd (.nd (.lf
  0x5236148dc0c5316dd4329e182dc0c510ca7c0c34182c40c3a16dc860af001f4007c03054007b164dc60a41828c60a5182784abe030ac5b6a182680c140c9e04abd0c9e4522a148ac5b6b1827404f6413c91580413fd04f9413d504fd4140504fb4c9ec328d03020327c0014d32890014532851826c328800141522d148b80052430400c2605b910c13030140c0403048)
  (.lf 0)) (.nd (.lf
  0x1be90f9fc3e7e06f741be3165343e880fa2c54fc153f41bf0177943e831845c1bee0fa101bd1184441bd717788610e01640058f06ec8058e1658c6195186506193186344af906f205dda186201bb10f9744afa0f97854f0153c45ddb1863c0db5436c5159e436f90db8436d10dbc437010dba4f9803e7206e943e610073d3e6e007353e6a1862c3e6d0073154f3153d0)
  (.lf 0))) (.nd (.nd (.lf
  0x6da91b6c0126b04994126c0e3e4126304940037b8e3d038f600df2124f049a0037a849801264049580379849b438f80e3d412610499c6a880e400390314dcc5374049d05c830e3ec6da5049c838fc049506dad049685c811b6ac042e010b41235010b06a751b5686d4b1b5286d50162dc124b171e06d59048cc38d5162d838d6162bc5369171e86d52020f50839420fd)
  (.lf 0)) (.nd (.lf
  0x131f44c6d132344c9d132150fa043fa094f043e900aed43f600ae543f219e6c43f500ae1568315a1002ba49510255b062c92547094e42538095182550094dc131744c59166144c491320462cd131444c4d131544c75131944c79132644c6918b444c91132844c8943ef0957843fc0956425540957043f701bb4253d19e8043eb10fe4255a19e685f4019e9843ea09508)
  (.lf 0)))

def aesPos50 : BTree :=
  .nd (.nd (.nd (.lf
  0x693816c6869460c4b409ca02774693c0271809c9027544ce70c4a85b16147284ce816b5869421a4e409de0275c09df0c4c809d40270c00728c4bc3130001ce09c20277000718274809d60272000708278031340c4c409d3027645ad40c4e8313e1473051cb0279c5b1b0c4d469470279431360271c6940027345b181a4f800230008809a7000845ad11a4c869351a4cc)
  (.lf
  0x29840052c014c07f701feb018a006290628429a201468051b06b7c05268a6c0056e015bc0d3d0a60c0145005181ab60a6bc0568015a417070119a04658a66004de0137c046786a3429ae01588056307a3829c7017e005f90546c298c012580497061e029a1014500515012be14c90a628048a0122c17ab0121a299c013d804f705280298901210048500fbe0d140059e))
  (.nd (.lf
  0x3d21066106c27176286c190f448196d065fc6c2a065a4196b065dc581b0f43c5d891524c58181a8b86c201b0901980065e819810f46019780659804db8f4503d15013721965065f404da865d41979065b004d9866083d170f4581976065f06a300f4803d23152585497066245d8b0f46c6c1a0661c3d1c065a86c22065c05d881b0780536014d4194b014d06a261afec)
  (.lf 0))) (.nd (.nd (.lf
  0x378004184106716aa0378a0de34531f14c701075170d437871a15c10730de1810551a144105b170cc684e00e540394040d4039316a9468421a11468441a0f84ca5041305c2b1a0e810340dd844ca60dd80531214c4c5c2e1a0f4071e41c69167441c9d072141c75072541ca507234dd8c3775040a03764002cd3771002c5376d1a0ec3770002c1531514c6000b2440c0)
  (.lf 0)) (.nd (.lf
  0x230701aca22fe08c0822f501ac6230c10a80429d08bfc2305167fc42a810aac562315890231317bb442a31935c231110a9022f31934422f917bac64cf01a60069708b4c0696168f06615198506613198384c1908ba85ee41982422d2109f44c1a109f85617158605ee21983c11c3446fd162e4473111c64470911ca4473911c850a00429208b184281009fd428e009f5)
  (.lf 0)))

def aesPos51 : BTree :=
  .nd (.nd (.nd (.lf
  0x4e3b139684e66139d43425149ec34070065e4e7411acc34141399446b50d0a4482a0d0e8019c0cff4341a139a401888d108478411aa0482611f7401990d0fc5280123944e6f149f434411398c4e6b0d0f848e3139dc343b0068248e60d0a834191397033ff0064c33fb1238846b40d00c01a29380834310d0e434330d0bc344c11a983449006403427006464e1603620)
  (.lf 0)) (.nd (.lf
  0x3fc6155485553178d863ee03c710f18457a90f2543c7d0f1b43c8d0f2743c853fc80ff681e0c0ff24020b4ff5802094ff4863eb0ff540208555545556008291e14078a8182e4785c1e09078201e16078801e0703c5d0f16457ad0f1243c81182f43c510f1343c550f1d43c650f1e43c990f1a460c10f2443ca10f22478b43fdc078a01e23078ac3fd7017941e0d18fc0)
  (.lf 0))) (.nd (.nd (.lf
  0x62c318af44b45052f05cd318ae414a50e8f44b460e8f853cb14f305cd218afc09a34267d15c4426b109a64268909aa426b909a84e9003a52052643a410047d3a4e004753a4a18aec3a4d0047153ce14f3c011e4528414b705df514a40525814950528c14ad05250099e4267515c54266509a745df9099b42669099c4269109a04269509ad42685177f426ad09af426a5)
  (.lf 0)) (.nd (.lf
  0x455f01d1c27b31940045531158427d0193e05f9a19418455209ee027cb193f027b409ed827c212f60454f17e6456eb12f5c5a081940864f909f3027c509f34455909f0c27b101e6e455411558079c89ec027c901e6a27c009f1027b701e6627ce11560455509f0427c71682845601158c56ee15bbc27d517e6c455b1941c27d31157027b51940427bb17e6064ff01d18)
  (.lf 0)))

def aesPos52 : BTree :=
  .nd (.nd (.nd (.lf
  0x2ffa0bfdc2ff50bfc42fee0bfac2fe80bf942fe20bf7c2fdc0bf642fd60bf502fd00bf342fca0bf1c2fc40bf042fbe0beec2fb80bed42fb20bebc2fac0bea42fa60be8c00198be802b870ae142b830ae042b7f0adf42b7b0ade42b770add42b730adc42b6f0adb42b6b0ada42b670ad942b630ad842b5f0ad742b5b0ad642b570ad542b530ad442b4f020fc00188ad28)
  (.lf
  0x300e0c04430140c05c301a0c07430200c08c30260c0a4302c0c0bc30320c0d430380c0ec303e0c10430440c11c304a0c13430500c14c30560c164305b02308305d0c17c30610c18c30650c19c30690c1ac306d0c1bc30710c1cc30750c1dc30790c1ec307d0c1fc30810c20c30850c21c30890c22c308d0c23c30910c24c30950c25c6dbd163a06dc5163ac51971aa40))
  (.nd (.lf
  0x18680f1d0184b18ec418511757063ad01430050b060b0050a1a8d06c3c1b0b46c2c1b0c85828061085d561b0ec182b0f13458270f1385820151745d581b0d00bae42ea90bb042ee10bb242eb50bb642ee90bb44f1403c620607c3c51005dd3c5e005d53c5a1b0f83c5d005d1545f1518001764609c183d05efd182a06070181b060a41833060680ba942ea10ba342e91)
  (.lf 0))) (.nd (.nd (.lf
  0x36ad1703c52ef131ec5a8419e58678903e4c0f8c03e5036b703e240f7800a8636b30dac802a283ddc0f9000a820f8703e2c0f7e00a7e0f950dad436b403e200f8e16a0c36bd0db0052f114bcc0f9c1704436b919e5c0f9a0dae80f7c19e440f8217030678e00c98032503d700324169ec676219d8c676519d7c4c6d03dcc5c0719d680f5b0da4c4c6e0da5052e814b9c)
  (.lf 0)) (.nd (.lf
  0x55e7157985eb91a23c112244479167e444ad1125444851129444b511275076041eb0868041d90098d41e50098541e31a22c41e60098155eb157b00262486a421bf061c121ab08674219c086a821b40866c111d44471167f444611126461c9111a44465111b4448d111f44491112c444811871444a9112e444a141df0870841ec086f421b70870041e9019a421a11a240)
  (.lf 0)))

def aesPos53 : BTree :=
  .nd (.nd (.nd (.lf
  0x61c21870c61be12c180d0016e4061ba033a0334512c14334614954525716e3861bd015a50565456910572415b10568415c10574415b933480cd680cdc0cd2400674cd5800654cd4861bb0cd540064549605259001990ce4033ec16f54339c0cd8033640ce6033c00cd701591056345695055f415b516f441585056041589056a41599056b415cd056745bcd0571415d5)
  (.lf 0)) (.nd (.lf
  0x181b439f50e81439ed1d0e0fcd01d09074101d0c0fcbc05bb073b861a00fc8c3f310742861991783861a60fc881cf307414619c073bc1cf1073f44b000fc7c5e0d154984aff165a061a2186601d06074001d070fca01cfe073b0058b8fc903f25016321ceb0740c058a873ec1cff073c80589874203f270fc981cfc0740859670fcc03f33154a4552a0743c5e0f0fcac)
  (.lf 0))) (.nd (.nd (.lf
  0x8f8424191769423e908f9423ed0903423fd090442431090045da1090a42439090844e6439ac04e50138e04e5c39a901164137819100399b0e69c1395190e45cac19114399a04df439a004e40643c04de4137b04e244ba70e65c5caa14e6c4ba8167986446190e0139104e2813920e684138804dd803b38e678399d00ed2137504e3c03b284e18138b04df003b184e4c)
  (.lf 0)) (.nd (.lf
  0x44ad09a6c26a1168f844b8112ec56bd15af826af17dc444b31989c26ad112d0268f19884269517dbc661f01c70071b099bc071a1691066441990c6645198f84c2509a185f67198e8266e112344c261123856b115ac85f66198f413bd44ee5163444f1913c044ef113c444f2113c25124044a209988449100b5d449e00b55449a198ec449d00b5156b415ad402d6499a8)
  (.lf 0)))

def aesPos54 : BTree :=
  .nd (.nd (.nd (.lf
  0x31dd17fec31e0000d151fc147f4003642bc00b0605b3d0af302b940ae402bc80afc02b8c04504113d156d4112d045945b41044d41131044e4115904524115d045f4114d16d14117504614116d0b090c79c0b0402bfc0b070c788004e02ba460000c75831e402c145ff916d1060060c7540aee02c005ffc02ba80aec02be04a980c7485b43147ec4a9716460600217fe0)
  (.lf
  0x3239257850da11c08470d00fd4382c00ff8384111ca003d400c7203df0e0a003e9143ac03229247421fb088280676019dc256d095f006f401bd420ff0843806520194c25c101cfa25d001c00070103e000f8f00ca0032907c241f1901828060b08fcc06e681b96240201af806bf01b9e25430954806ee01bbc2224088d0067c019f427e309fc8074e01d3c239e08eb8))
  (.nd (.lf
  0x3db80f7281a860f6e401b34f71801b14f708629b0f71401b05530c54c4006c91a8e06a9017ec46a441a8306a081a9006a681a81034350d0c457050d084345917ed434290d094342d0d134343d0d14434710d1045fb90d1a434790d1846a9c3dcc06a881a9d06a943dc7015841a8718a803dbb0f7241aa318a685db418a983dba06a301a9e18a701a8806a281a9612d00)
  (.lf 0))) (.nd (.nd (.lf
  0x3b600edc03b800ee403ba00eec03bc00ef403be00efc03c000f0403c200f0c03c400f1403c600f1c03c800f2403ca00f2c50df124704919123e448f8144e4496a12444496f1438050ec14454470e143bc470112430496b124545117144a0472411cc850ea12570495f14370511b123bc4719144ac4904144d850fc1241c4902143e0472b14420512e143fc48f511cc4)
  (.lf 0)) (.nd (.lf
  0x128744a054347090e04354090cc242e090d8434f01b0c241719ac0434310d44243419aa85f1619ad8434209070242f19ab024180906824261310c433f17c545651131105a5b19ac866a8090c02429090c443490909c241501bae434410d1806ec89050242d01baa2424090a0241b01ba6243210d20434509094242b16964435010d4c565415954243917c5c434b19adc)
  (.lf 0)))

def aesPos55 : BTree :=
  .nd (.nd (.nd (.lf
  0x350e0d4340e4d0394c59f60d458351a14aa052a9039845bd50d44864a70397c35110390464a10391c5bd31927c0209008200e210081c59f119214648319210647d12ed40e3816f2864780388034ec12ed834ed14a7c529e16f2c647f018290606457f106134183506094184506154183d34f00d4080e140d3bc00834d3f000814d3e4647b0d3f4008054a8452a200209)
  (.lf 0)) (.nd (.lf
  0x60390230408e018121f5507db8060287d941f6907d70060187dcc4090102341f6607db05a3210260409b15634558e07de85e691024c65e707de0409407d6865e107d805e651977406140184c1f3a018485a5619a9066a219a8c669d130f81f5117978669907ce4406d130f4406e1560455831797c669e03f050fbd459010fca43f110fc043f210fcc43f19407110208)
  (.lf 0))) (.nd (.nd (.lf
  0x5d051500c57f71a8806bdb1af8815fa057d015fb0ec2015f205780042b8ec103b05010b215df057dc042a857bc15f3057980429857f03b070ec1815f0057d86a1f0ec403b131501854070580c5d070ec2c6bd7058043b0c057906bdf057a85d041af7404b2012c415c5012c06a6f1b5186d341b4d46d3a162b015db173f46d43057103ae5162b43ae61629453fc173f0)
  (.lf 0)) (.nd (.lf
  0x45f91182c28d6117e003135181403115181069bb11818031055c7c571e00c4928de0a3d018f64a38428d30a34828e00a3a828d105445151045a95150c4546918f445439150d4543d15174544d1518454811514463d5151e45489151c4a3dc460c0a3c828ec0a3d4460701dc428d71a70445fb1182428f31a6e45fc31a71845fa0a37028ee1a6f028d80a36828e713420)
  (.lf 0)))

def aesPos56 : BTree :=
  .nd (.nd (.nd (.lf
  0x2d9c0b6642d960b64c2d900b6342d8a0b61c2d840b6042d7e0b5ec2d780b5d42d720b5bc2d6c0b5a42d660b58c2d600b5742d5a0b55c2d540b54400098b5382d4b0b5202d450b5082a0f0a8342a0b0a8242a070a8142a030a80429ff0a7f429fb0a7e429f70a7d429f30a7c429ef0a7b429eb0a7a429e70a79429e30a78429df020dc00088a76829d80a75829d40a748)
  (.lf
  0x2db00b6cc2db60b6e42dbc0b6fc2dc20b7142dc80b72c2dce0b7442dd40b75c2dda0b7742de00b78c2de60b7a42dec0b7bc2df20b7d42df80b7ec2dfd0b7fc2e010b80c2e05021382e070b8242e0b0b8342e0f0b8442e130b8542e170b8642e1b0b8742e1f0b8842e230b8942e270b8a42e2b0b8b42e2f0b8c42e330b8d42e370b8e46cb5161906cbd1619c517f1a950))
  (.nd (.lf
  0x17bc1883017a605ea017b412c6c3c0717514544b12c70597b18848620a05ef417b705ef83c1005ed417a30120e3c0c0f034048485e8817ba0120a17b205ed817a90120617bf0f03c3c0e05ecc17b9165f03c180f06c544e1513c17c6175243c131885c17c40f05017a71884417ad1751c620f013d004f305e2004f2167a06453191486454191384baa05e785d3f19128)
  (.lf 0))) (.nd (.nd (.lf
  0x501b127c446e91415852e01262c52e114034501a0205a50041405c02899273c46e313fe84fe41411452e41271052e600b3c02ce03cac02cd1692066531995466541993c4c2a03d085bfd199280f2a0d8984c290d89c52d814b645bfb19934069441a41163641a75069741a4d069b41a7d06994d8a8363b03c7836290026d36370026536351992c36360026152de14b70)
  (.lf 0)) (.nd (.lf
  0x419410658065c8848021390196a2130084d0212701966213e106604195084c4213716518419f1068c55d61575c214517aac419b183dc2143106702125183c4212b17aa060ee019580655084140654169c4673519ccc673219cbc4c62084705ea319ca82104105d44c61105d855cb157285ea419cb410c64430916524433d10c94431510cd4434510cb505e4418b083e0)
  (.lf 0)))

def aesPos57 : BTree :=
  .nd (.nd (.nd (.lf
  0x3329129ec4d730cc4c469a13608010b8cc6c524b0cbd44d83135d04d68135244d39135504d2c134684d1f135704d67134f84d84135284d2a135e847a6136044d7c121884d7611a14486511e6c4d4711e5c4d7e11e8c46971350c479c11a304d38135904d40129dc4d2f121a84689134d04d6d1214c4d61119c04686135484d1411a54467a13484478e11a4c4d5f1353c)
  (.lf 0)) (.nd (.lf
  0xe16438790e184384d0e1c438810e1a4fb003ed2071243ec10077d3ece007753eca1af403ecd00771550d1543801de471441c67060351c54071181c450714c1c5d071100e0f438390e09438290e19460390e0c4382d0e0d438550e114385d0e1f43849180f438750e214386d1c6a0fb501c65071801c680fb3c05a3071286bc80fb0c3ed1071986bce177d86bc00fb08)
  (.lf 0))) (.nd (.nd (.lf
  0x6b9915f6c12f3172446ba204b6c393515f70393615f505381172406b9b02285089d4228d08ab4229508a0422a508ad4229d39380e52812cf0e4e400f34e51800f14e5086ba50e51400f054e0c5384003c912d704bb8175c44b6812cc04b2c12d904b9012ca02271089b42259089742299175d4226508984226908a24227908a4422b1089f45d7908aa422b908a844bc4)
  (.lf 0)) (.nd (.lf
  0x445c0980425fc09810445701c1425e519b00444b11164260219ae45f5819b18444a097a825fd19af025e6097a025f413120444717d54569e1311c5a5e19b1466b8097f825f7097fc4451097d425e301d0e444c1113807448978825fb01d0a25f2097d825e901d06260011140444d097cc25f91697444581116c56a115a88260717d64445319b1c26051115025e719b04)
  (.lf 0)))

def aesPos58 : BTree :=
  .nd (.nd (.nd (.lf
  0x31971a65c0a8c0c6580a6e1a6440a7416cc0698f000ec003a0293c003916b8869841a61469821a5f44cf6029945b281a5e80a4d0c5c04cf50c5c451dd147785b2b1a5f803f940fd5169c4100903fc40fe104004101103fe4c5cc31860290431740009d318000095317f1a5ec31810009151e1147800026429240a6005b150a4c028f40a3e0292c0a56028f003f440fcd)
  (.lf
  0x35d300b104fc60093246d900b18499300b1c02c80d75802910d794499613ee84a29128a0029200a4c4fb400a504a1c00a54029600a5c0f1400b2402980d8704a4b13eb84a1812854029a00a6c4fab008fe4a0700a74024080a8035e90d7d402a10d80c46de00a8848cf128e402a300a944f9900a984a2c13ea002a700aa00f1203c4c02a90d7e44a5600aa84a3c1237c))
  (.nd (.lf
  0x3d83152c054b1068b45da30f5ec63c7068ac3d7c0683863c1068505d9f18ef4054e0153419ef0153059df1908c642219090641e12e781a0517664641a067b83d5512e743d561529054a617660641d032d90cb2457c10cbf432e50cb5432f50cc1432ed3d580f5a819e20f56401a34f59801a14f588641b0f59401a05529c54a80068919ea0680017e0467b419df06778)
  (.lf 0))) (.nd (.nd (.lf
  0x77f4df0c37d50434037c40030d37d00030537cf1a2ec37d100301533214cd000c24436410ef05ce910db0433010cd0436810e40432c077541dd1168541dc1077e45ce1077241dc5077341ded077741df1078441de1173941e09078641e0137ca043c837d7043b810e7043c037d300ea010d11a30437c60df5010ed1a2e45c461a31837c50435810e91a2f010d204350)
  (.lf 0)) (.nd (.lf
  0x121f4486d1672448a11222448791226448a9122450b8042f308db842e100a3d42ee00a3542ea1a0ac42ed00a315637158e0028e48dd8238d06249237908dac236a08de0238208da4121a44865167344855122346245121744859121844881121c4488512294487518934489d122b4489542e808e4042f408e2c238508e3842f001aac236f1a0c042e310bbc238c1a0a4)
  (.lf 0)))

def aesPos59 : BTree :=
  .nd (.nd (.nd (.lf
  0x4a6f13ac4484611ff4480613b84481713b9c4eec11d584ee513a544eb413bb84eaa13b4c4ec713a284e8413a584ebf13a904eb513b484edf13bbc349214a2c3473007224eed1210c348113b7848450d258476a0d29c01f30d1a8348613b8801b98d2b4476111edc4767129c001f00d2ac528f1297c4ee814a3034ae13b744ee40d2b04a7313bc034a80074647520d25c)
  (.lf 0)) (.nd (.lf
  0xf7143dcd0f7b43ddd0f7c43e110f78460f10f8243e190f8047b44403c07b301ec707b3c4037017f41eb118740402b100e41ecd187285e5018758402a07ad81ec8187301eb207ad01ec012c3040271793c556f12c2c59701875061c807b241ec307b28403007b041eaf0178e402c100b405e487ab81ec60178a1ebe07b081eb5017861ecb100bc402e07afc1ec5165c4)
  (.lf 0))) (.nd (.nd (.lf
  0x1551054e009fa427e51599427d50a0345e2909f7427d909f84280109fc428050a09427f5178b4281d0a0b42815155e0ead0155905550155c0eac0049b054f861600ea8c3ab1055686159173b861660ea88154305554615c054fc1541055344af00ea7c5cec14fa04aef1657061641856015560554015570eaa0154e054f0040b8ea903aa501032153b0554c040a8552c)
  (.lf 0)) (.nd (.lf
  0x45c01170c570a15c2c287d17ecc45bb1955c287b116f0285d19544286317ec4654f01d78075d0a0f4075c168946594196546593196344bfa0a1505fa819620283c116544bf91165856fe15bfc5faa1963814ba452d9161e4530d14bd452e514c14531514bf5166045aa0a0c0459900c0d45a600c0545a21962c45a500c01570115c0803024a0e0284f063a1283b0a0b4)
  (.lf 0)))

def aesPos60 : BTree :=
  .nd (.nd (.nd (.lf
  0x94c35c68fb0c3640008546c051b2000290924024ec16b04249c0919024600926024c4091700d4d035245a35034e40d7116af40d41034f40d45035940d55035a40d89035645ab9036040d91035e424f830df024e80933024f030dc00030091d1a40030ce0c36c09391a3e85b021a41430cd0248830d2024d468fc024780920024b44cd70c3285b01146b84cd816b20)
  (.lf
  0xc511e5800c40030c00c2032a400900030432dd119dc4d5111a34468b002fc00be13538012691a0000bc0049600b90cc1032f8002e032eb129d800b7119bc465e002d800b4134f000b31195c4d4b002c800b1032ac0caa002c032f71215400af11954466e002b800ad134b80120919cc4d3a002a800a90cc44330b002a032fd11a204d2011a48468f0029c0ca700298))
  (.nd (.lf
  0x3cba185ac3cbd00611547b151f001864632c18e105f2d18ce0630018bf0633418d7062f80c0643015159b430050c0f45f310c03430090c04430310c08430350c154302517cd4304d0c174304518e40f31018df0636818e20f2fc051f0631061700f2cc3cc1063806169175c861760f2c818c90636c616c0631418c70634c4af30f2bc5d71151e84af4165786173185a8)
  (.lf 0))) (.nd (.nd (.lf
  0x50ce126e050961268849291291450c51290450cb1434448c514328507a1426050d21423450b6142b0506e141a450791429050881426450b71430c50d30dc1c52ff0db9c02cc9434049210dbd450c21248c370b126f8371b00dfc36de0dbe850c600af63723126c4497d126e448f100df0372014c0c49a61433053000dc8450c114320371f1268c50d40dc7002d592690)
  (.lf 0)) (.nd (.lf
  0x1188445f1187e44619118a44611423f089a8424c089942260089a0424701a04224919c40423b10924226619c245ed419c54423a08938226119c30224a08930225813170423717b4c56031316c5a6d19c58670808988225b0898c424108964224701a4e423c108f8069488918225f01a4a225608968224d01a46226410900423d0895c225d169b042481092c560715820)
  (.lf 0)))

def aesPos61 : BTree :=
  .nd (.nd (.nd (.lf
  0xd450352c59930cf7433e0149bc5270035605ba50cf5c62970355833d8034e46291034fc5ba018a340143005080d1a00504598d189d46272189cc626f12cc80d3016e74626a0346433b212cc433b314990526616e68626e01601057c456e905894160d057f4161d058b4161533b50cf1c0d0d0ced8006b4cf0800694cf04626b0cf0c00685499c5268001a90d15034ac)
  (.lf 0)) (.nd (.lf
  0x1d8f0769c05aa8767c1da30765805a9876b03f870fe181da0076986a980fe403f93155105545076cc5e270fe2c6de7076c43f8c076506df0076685e241b7b005d2017441d750174059421839060e31839460df12b341d8b1787460da075d03f6512b383f66154e4553a1787060dd03ae90eb6456210ec343af50eb943b050ec543afd3f680fde81d680fda401fb4fdd8)
  (.lf 0))) (.nd (.nd (.lf
  0x1431050e03a00050bc141d00f4e39fc0e7f403d485070143400f4a142c050c0142300f4614390e7fc39fe050b41433166d43a080e82c53bb14ef01440173143a0318d1c143e0e810142118d04142717308633e011c0046f05008046e16700638518e08638318dfc4b76050605cbd18de814010e7744b750e77853af14ec45cba18df809474250d15dc42541094a42519)
  (.lf 0)) (.nd (.lf
  0x141e513c0450209c2844f100b9d44fe00b9544fa1966c44fd00b9156d015b4402e649c4827290634d271509c1c270609c50271e09c1414144504d16214503d141d4635114114504114124506914164506d14234505d18d54508514254507d44f709cb0450409c9c272209ca844ff01cbc270b1968044f3114042728196645f821969844f209c40272319670270c09c38)
  (.lf 0)))

def aesPos62 : BTree :=
  .nd (.nd (.nd (.lf
  0xbaa181645b5c18198323502e4c0ba5181700b8f02e440b9d12ac0323216d6c521712abc592a18188605802e980ba002e9c323b02e780b8c0032a32370c8e000cb82e2c0ba3003260b9b02e7c0b92003220ba80c8e8323902e700ba2164b032430c918521a1486c0baf16d74323e1819c0bad0c8fc0b90181840b9616d68605f00194006402dc00063164886034180cc)
  (.lf
  0x79d01e60079701e58079501e50079301e480791046c0035e80d7611bf01060041900d7e0360856fc0426810962990012b804af0109e0428848b8037680dd61234010a8042b00dde037884768036680d9611e001078041f00d9e03688647004ce8133629a5014b0052d0133e04d085ff4049681256299e0140805030125e049884960037e80df6125e010c0043100dfe))
  (.nd (.lf
  0x1b4106d243e27015e41b2b184803e1b0f8a41b47184685dcc184983e1a06cc01b42184701b2c06cb81b3a12b803e171772c54de12b7c594e18488611806d0c1b3d06d103e2006cec1b29014ce3e1c0f874053486ca01b40014ca1b3806cf01b2f014c61b450f87c3e1e06ce41b3f165403e280f8ac54e1153881b4c177343e231849c1b4a0f8901b2d184841b3317724)
  (.lf 0))) (.nd (.nd (.lf
  0x11a401fbd07ee41fa507ea41fe5174841fb107eb41fb507f541fc507f741ffd07f245d2507fd4200507fb4e25c11cb0e29011c60470411c90e27c0417046a86d290e24c38a10471c6d2f171a86d210e24811af047086d32046ac11ad046e4589f0e23c5c6614d5c589c1a9a46d271b4b411c3046f011c40e26411ba046a0035b8e250389600d7211a704700035a846dc)
  (.lf 0)) (.nd (.lf
  0x24c301c2624da10ea043a50933424d3168ac43b010ecc5670159c424e117cbc43ab196dc24df10eb024c1196c424c717cb065ae01b6806d90928406d8168d865f4197cc65f5197b44c11092e05f24197a424a010e144c1210e185664159945f26197bc12c044af1162a44b2512c344afd12c744b2d12c550e20439a09250438900aad439600aa54392197ac439500aa1)
  (.lf 0)))

def aesPos63 : BTree :=
  .nd (.nd (.nd (.lf
  0x4f5713d9c355f14acc3540008664f6612554354e13d6049580d58c4a840d5d002620d4dc355413d6c020a8d5f047e911b28475411eac025f0d5e052ba11ebc4f6114ae0357a13d544f5d0d5e447ac13da035750088a46c60d5903553008324f4e0d4e402590d4d446d112558353d008924ef50d5b035710d5b435690d61846c80d61002560d584021393c240e9211b0c)
  (.lf 0)) (.nd (.lf
  0x40ce15674559f179d8627e040751019456f1102644081101c4409110284408940d0103881fd510344023750378023550368627b1037402345568055a1008d91fdd07fd0184f47f801fd207f441fdf07fa41fd0040611017456f5101344085185044055101444059101e44069101f4409d101b461451025440a510235035c1ff7103901ff207fb41ff510380062707f58)
  (.lf 0))) (.nd (.nd (.lf
  0x4ca0132416690132069df1ab1c6ac61ab206abf15d9c167f174506ab9059a03b4515d983b4615db05414174546abe02aa50aa542aad0ab342ab50aa842ac50ab542abd3b480ed68165c0ed24014b4ed5801494ed486aba0ed540148550585417005291664059e8179e4599c1659059601666059c0165702a910aa342a790a9f42ab9179f42a850aa042a890aaa42a99)
  (.lf 0)) (.nd (.lf
  0x3e690f9443e390f8843e090f7c43dd90f7043da90f6443d790f5843d490f4c43d190f4043ce90f3443cb90f2843c890f1c43c590f1043c290f0443bf90ef843bc90eec43b990ee043b690ed443b390ec843b090ebc43ad90eb043aa90ea443a790e9843a490e8c43a190e80439e90cfb833d60cef833390cb3032b40ca7032840c9b032540c8f0320c0c7d031dc0c710)
  (.lf 0)))

def aesPos64 : BTree :=
  .nd (.nd (.nd (.lf 0x0) (.lf
  0x3ee80fb603f880f7603e880f9e03e580f5603e080f7e03de80f3603d880f5e03d680f1603d080f3e03ce80efa03bd80f2203c780eda03b580f0203bf80eba03ad80ee203b780dba036d80ec203af80dc2036f80c5e031680c56031480c12030f80c36030c80bf2030780c1a030580bd202ff80bfa02fd80bb202f780bda02f580b9202ef80bba02ed80b7202e780b9a))
  (.nd (.lf
  0x3b7a05ad016c618db016b005ac816be12dd03b7717488542212dcc59bf18dd0636805b1c16c105b203b8005afc16ad0114e3b7c0edf4045485ab016c40114a16bc05b0016b30114616c90edfc3b7e05af416c3166f83b870ee2c54261509c16d0174943b8318ddc16ce0ee1016b118dc416b717484636d0134004cf05a4804ce167846435190cc6434190b84ba205aa0)
  (.lf 0))) (.nd (.nd (.lf
  0x52c1002390ea103ae0171343a900e9503a580ea303ab40e940192906494582506454194d17124191d064641921065041931065141965064d45c4506574196d06554d64c0ebb0d6800eb603ac00eb90d670026703a6864e00d63c359b03adc64d816f9864e60d6380ea003ac864dc03a6c0e9d03aa84bd00d62c5be314af44bcf1680c64e5193640eb303ab00eb40d654)
  (.lf 0)) (.nd (.lf
  0x203b081084108080e42027018ae410410414062c88098203e018aa2036080e8202d018a620431041c4106080dc203d1a80841101044c55ae156bc204a17a1c410b1ad4c204810430202b1ad6c203117a106b59018c806310803006301a8fc6c6a1b1686c581b17c583f080885e7c1b1a0200b10394583e103985837156905e7e1b1801035440c51037440fd1039440d1)
  (.lf 0)))

def aesPos65 : BTree :=
  .nd (.nd (.nd (.lf
  0x4cd4c92c325d02ed8324c0012d3259001253255181ac325800121521f14880004a42ef80bd405b790bc102ecc0bb202f000bca02ec404c341309157b412f904cc45b7d04c0412fd04c14132504c54132904d24131916e04134104d4413390bd70c97c0bd202f340bd50c968006c02edc60700c938325c02f4c606916d8860760c9340bbc02f38606c02ee00bba02f18)
  (.lf 0)) (.nd (.lf
  0xd86436090d88436410d8a436150d8e436490d8c4f8c03e4206d4c3e310071d3e3e007153e3a1b7283e3d0071154e51539801c646d6c1b7105fed1b5e06d401b4f06d741b6706d380d81436010d7b435f10d8b45ff10d7e435f50d7f4361d0d83436250d914361117fd4363d0d93436351b740f9101b6f06da81b720f8fc057f06d506dc20f8cc3e4106dc06dc817748)
  (.lf 0))) (.nd (.nd (.lf
  0x4220108411e1010806a651b4686d081b4246d0e1625811f7171b46d160477c38a51625c38a61623c535c171b06d110203508094203d081742045080c4205508194204d38a80e2e811d30e2a400db4e2d800d94e2c86d1b0e2d400d854d78535f0036911db047c8174a4477811d00473c11dd047a011ce02021080742009080342049174b42015080442019080e42029)
  (.lf 0)) (.nd (.lf
  0x12f844bb118ae44bd912fa44bd143bf0942843cc0941425000942043c701b8424e9195c043bb10f242506195a45f34195d843ba093b82501195b024ea093b024f812fcc43b717cc4567412fd05a1d195c8656a0940824fb0940c43c1093e424e701c4e43bc10ef807148939824ff01c4a24f6093e824ed01c46250410f0043bd093dc24fd1687843c810f2c5677159e0)
  (.lf 0)))

def aesPos66 : BTree :=
  .nd (.nd (.nd (.lf
  0x5ace0c42c310e1470051bd0264c5b0f0c41c6927026443106025cc6921025e45b0d1a47c0017000580954000545acd1a44c69121a450690f13368096a16c18690a0254830e01336430e1146cc51b416c14690d00dbd036b45a39037840dc9036e40dd9037a40dd130e30c3d809460c390000f4c3c4000d4c3b4690b0c3c0000c546e451b800039094e0259416b142544)
  (.lf
  0x485113728487a121e0010e0043c4dc7004ee486c00444013c8045033750ce0801150ce4048fe004584792122340117004644db400468487f13710011b004700d0103408011d0ce1447c900478488f11e40011f004804da7005064787136cc01230049033680cdb801250cde0469e1366446a311a8001260341c01270ce2c4841004a00129004a8339b004b04d8e00512))
  (.nd (.lf
  0x6a7f0f3c03cf315228548b064dc5d7f0f3ac6d7a064d43cec064606d82064785d7d1b600052a014a418f9014a05951184d46132184cc612d12b84190f175d46129063e03cc512b883cc6151fc5480175d0612f030890c1e456490c2b430950c21430a50c2d4309d3cc80f36818ec0f324018b4f35801894f348612b0f35401885520854830062918f40642817ce463dc)
  (.lf 0))) (.nd (.nd (.lf
  0x6f041bb1166841be506f341bbd06f741bed06f54dccc374503f503734002ad3740002a5373d19f6c3741002a1530714c2800aa43f700ff305ca10fdf03f440fd003f780fe803f3c06eb41ba9166941b9906f445c9906e841b9d06e941bc506ed41bc906fa41bb9172741be106fc41bd9373c03fd8374703fc40feb03fd0374300e100fd519f8037360dd100ff219f64)
  (.lf 0)) (.nd (.lf
  0x227e109344c49109385609158285ed619b34119544645164644679119844651119c44681119a509404262089c84251009dd425e009d5425a19b2c425d009d1560c158340276489e82291061fd227d089bc226e089f02286089b411904463d16474462d119946201118d44631118e4465911924465d119f4464d18814467511a14466d425708a50426408a3c228a08a48)
  (.lf 0)))

def aesPos67 : BTree :=
  .nd (.nd (.nd (.lf
  0x5b6416e905b44360033f9035f00d75035f833f4005280d6018b4033e80cfd80d7b18b285baa18b5833e7035940d7718b300d610358c0d6f12d3033e416ea4527412d2c59a118b5062c9035e00d72035e433ed035c00d5e005d233ea0cfa40175835740d76005ce0d6d035c40d64005ca0d7a0cfb033eb035b80d741667c33f50cfe05276149dc0d8116eac33f018b5c)
  (.lf 0)) (.nd (.lf
  0x182943b8d0ee243b910eec43ba10eee43bd90ee9460a90ef443be10ef24776c3fac077581dd1077643fa7017641dbb1b23c3f9b0fea41dd71b2545e2c1b2183f9a077001dd21b2601dbc076f81dca1614c3f97178a455471613c6a461b2346c930774c1dcd077503fa00772c1db9016ce3f9c0fe7405b4876e01dd0016ca1dc8077301dbf016c61dd50fe7c3f9e07724)
  (.lf 0))) (.nd (.nd (.lf
  0x144305144145b051080970425bd15d1425ad097945de1096d425b1096e425d90972425dd097f425cd1779425f50981425ed14680e89014630517814660e87c04770512063200e84c3a2105190631a1732863260e848144d0517c631c05124144b0515c4b600e83c5cc914efc4b5f166b8632218c6014600516814610e86014580511803db8e8503a1500f72144505174)
  (.lf 0)) (.nd (.lf
  0x276301e26277a114a0452509db42773168544530114cc56e015b84278117e3c452b1951c277f114b0276119504276717e30653f01ce8073909d0407381688065841960c6585195f84bf509d605f85195e42740114144bf61141856d415b545f84195fc1430450b1161c450e51433450bd1437450ed143551420451a09cd0450900bad451600ba54512195ec451500ba1)
  (.lf 0)))

def aesPos68 : BTree :=
  .nd (.nd (.nd (.lf
  0x58b81b5786a761463058b31b55858b01b53858ab1b5106a711462858a81b4ec58a41b4e058a01b4b86a6b14620589d1b49458991b47c5895000fe003e94618003d800f2588e1b4302ee20bb802ede0bb702eda0bb602ed60bb502ed20bb402ece0bb302eca0bb202ec60bb102ec20bb002ebe0baf02eba0bae02eb60bad008b9000ee003a822d40039800e22eae0bab0)
  (.lf
  0x6c15160506c1b1605c6c231606851711a8c46c2b1607c6c31160886c391609451731a8d86c41160a86c47160b46c4f160c051751a8ec6c57160d42c870b2242c8b0b23408480b2402c920b2502c960b2602c9a0b2702c9e0b2802ca20b2902ca60b2a02caa0b2b02cae0b2c02cb20b2d02cb60b2e02cba0b2f02cbe0b3002cc20b3102cc60b3202cca0b33008490b33c))
  (.nd (.lf
  0x3c2e005b53c2a1852c3c2d005b1545315150016e45f5417eb05ee517d805f2817c905f5c17e105f200b7842ddd159742dcd0b8145ee90b7542dd10b7642df90b7a42dfd0b8742ded17bb42e150b8942e0d17ee0f0d017e905f9017ec0f0bc04fb05f3861500f08c3c3105fa8614a1753861560f08817d305f94614c05f3c17d105f744aec0f07c5d4d151484aeb1655c)
  (.lf 0))) (.nd (.nd (.lf
  0x29492760366d0d97850400d91003130d8fc49d5124ec364700a5a4fe70d9d4367d0d9e036730da4849820da3803100d9ac028593ff00f4812534369100c384ff41253049c80d9c849ca14008366900a42494e13f8c367b13fcc02778d9dc368d0d9d0366f0d97c500a11ba050081407449dd11b9c5c0100a46028a93fb036790d98049e30d99c03040d99450060d944)
  (.lf 0)) (.nd (.lf
  0x10f8461ad10ec443ad10ed443d510f1443d910fe443c9186a443f11100443e941af085b841bc085a42163085b041b701974214d1a28041ab106e4216a1a2605eb01a29841aa0854821651a270214e08540215c132fc41a717ab455da133005ab81a290689908598215e0859c41b108574214b0198e41ac106b806648852821640198a215a0857c2151019862168106c0)
  (.lf 0)))

def aesPos69 : BTree :=
  .nd (.nd (.nd (.lf
  0x465c11a504d231347007f1935a84d7001fda4d80135e04a6a135b8524c0cc7c330c0cc1432fa1356c0107832b44d590040e32ec0cc840128929f432e10cca0573e11e94012791e84468411a044d5a1358047a70040632db129f04d190cc9c331e0cc34330315cfc32f915d0432dc002f432ed15d0032e011a0c4d55002ec468211a2800ba1198846580048e4d5013598)
  (.lf 0)) (.nd (.lf
  0x3ef5015f21c99072c4057a872a41cad072800579872d83ef70fbd81caa072c06a560fc003f031546c551c072f45e030fbec6cca072ec3efc072786cd2072905e011b34005ae016b41c7f016b06a4c1b2ac6c9a1b26c6ca0161781c95177e46ca9071f83ed51617c3ed61615c5511177e06ca2038b50e29438bd0e37438c50e2c438d50e39438cd3ed80fba81c720fb64)
  (.lf 0))) (.nd (.nd (.lf
  0x5c9f14e3857781a78c6adb1ab34133d04cdc133e0e5c4133504c8803a38e5b0396e00e92132104ce803a284cc8133604ca003a184cfc39700e5b4133304ce469e50e5e0397b14e44539204d185ca10e5cc6ae004d10397404c986ad804cb05c9e1ab58044c0112c1307011286a071ade06b671ad986b6c15f18131d172586b7504c14394d15f14394e15ef8538717260)
  (.lf 0)) (.nd (.lf
  0x138f44e2d163c44e61139244e39139644e69139451180447209838446100b3d446e00b35446a199ec446d00b3156a615a9c02ce49858262d0630526190982c260a09860262209824138a44e25163d44e15139346309138744e19138844e41138c44e45139944e3518c344e5d139b44e554467098c04474098ac2626098b8447001c2c260f19a004463111c4262c199e0)
  (.lf 0)))

def aesPos70 : BTree :=
  .nd (.nd (.nd (.lf
  0x69a00c69831b402acc699a16ce069a60c6940a9b0c6ac0aae1a6700a9702a640aa71340031a216cdc51ed133fc5ae61a690699802abc0aa802ac031ac02a980a940026a31a90c6a0009b82a4c0aad002660aa402aa40a9a002620ab10c6a831a702a940aab16ba031b20c6d851ee147c00ab816ce431ae1a69c0ab60c6b40a981a6840a9e16cd4699e001040040029e0)
  (.lf
  0x364300ba03652125fc5033127b049e900ba402ea140b402eb1277002ec00bb402ee03d14032000bbc3689124e450271233848cc00bc402f21409002709230402f4009c602f70d958366100be036711261402f9127844a0000be802fc1404802fd127c8502100bf802ff03d0c0f4400c00366611b9003011280849de00c0803031400c027692740500f00c1803070d920))
  (.nd (.lf
  0x3d9c069401a4b0694c3d97015541a3518d803d8b0f6641a5118d685da818d983d8a068e81a4c18d701a36068e01a4412dc03d871769c54b412dbc59bc18d886358069341a47069383d90069141a330140e3d8c0f6340504868c81a4a0140a1a42069181a39014061a4f0f63c3d8e0690c1a49166ec3d980f66c54b7152e01a56176a43d9318d9c1a540f6501a3718d84)
  (.lf 0))) (.nd (.nd (.lf
  0x51101440c510d1240c47111451c533d125b0533c14400510b0208a50f514428033391c704713143b850d6144e05343125b8534100ecc03b20441c03b116b0068d51a34868d31a3384cc9044785c4a1a32411060df604cca0df64533614cd45c481a33c079141e35168641e69079441e41079841e7107964df7037ee043e837db0031d37e90031537e51a32c37e800311)
  (.lf 0)) (.nd (.lf
  0x431410c5806dc88f0023d901b6a23d008f5023c701b6623de10c60431508f4423d7169f4432010c8c56461591c23e517c2c431b19ddc23e310c7023c519dc423cb17c20676e01ad806b508e9406b416a2467b419ed467b219eb44c8108ef05f0019ea023a410bd84c8210bd4563a158ec5f0219ebc1236448c91662448fd1239448d5123d44905123b50be4430b08e60)
  (.lf 0)))

def aesPos71 : BTree :=
  .nd (.nd (.nd (.lf
  0x640e0177105d8457b905e54177d05db4178d05e74178534bf0d3440dc00d300007b4d33000794d32c640b0d334007854a545296001e90dc80377c17034372c0dbd036f00dca037500dbb0175d05d6457bd05d24178117044175105d34175505dd4176505de4179905da45c0905e4417a105e24d31c0de20d34c0ddd037600de00d33c01f80370464100d30834d003778)
  (.lf 0)) (.nd (.lf
  0x6c49160d01efd179486c5207b94403d160cc403e160b05574179506c4a03e490f8e43e510f9c43e590f9143e690f9e43e614040101481ed910104021f50138021d501286c5510134021c555d85577008791ee107be0183d47b901ed607b541ee307bb41ed403e350f8c43e1d0f8843e5d183e43e290f8943e2d0f9343e3d0f9543e750f90460fd0f9b43e7d0f995011c)
  (.lf 0))) (.nd (.nd (.lf
  0x5cf8180fc04a601294157301290593118210608318214607e12ad81589173c0607a055c83ab512ad43ab614fb853ef173c4607d028590a12455f10a1f428650a15428750a214286d3ab80eb2815660eae401334eb1801314eb08607b0eb14013054fc453f2004c9156e05610178c455c41563055881570055e81561028450a10455f50a0c42869178d428390a0d4283d)
  (.lf 0)) (.nd (.lf
  0x45dc0a280289b0a28c45d701d94288518cc045cb1176428a118ca85fb818cd845ca0a228289c18cb028860a220289412d8c45c717edc570e12d9059b118cc863280a27428970a27845d00a254288301f0e45cc1173407c48a208289a01f0a28920a258288901f06289f1173c45ce0a24c2899166cc45d81176c571115c4828a617ee445d318cdc28a411750288718cc4)
  (.lf 0)))

def aesPos72 : BTree :=
  .nd (.nd (.nd (.lf
  0x58311b1406a39145d0582e1b120582b1b10858291b1006a35145c858241b0e058211b0c0581c1b0986a2d145c058191b07458151b05858131b0506a2b145b8580e0005e580b1b0102c840b2082c800b1f82c7c0b1e82c780b1d82c740b1c82c700b1b82c6c0b1a82c680b1982c640b1882c600b1782c5c0b1682c580b1582c540b1482c500b1382b8c0005a2c4a0b120)
  (.lf
  0x6b6515ef06b6b15efc6b7315f0051611a8246b7b15f1c6b8115f286b8915f3051621a8386b9115f486b9715f546b9f15f5c51651a84c6ba715f740835020cc0831020bc082d020ac08290209c08250208c08210207c081d0206c08190205c08150204c08110203c080d0202c08090201c08050200c080101ffc07fd01fec07f901fdc07f601fd407f401fcc07f201fc4))
  (.nd (.lf
  0x3be31b00c17720ef9017551b02c175b174ec6c09013a004e705cd804e61a9e46d701b5846d601b5a458c205d305d351b5c417350eef458c00eef858ba150dc5d321b5a00b1e42c690b2042ca10b2242c750b2642ca90b244ef003bd205ca43bc10057d3bce005753bca1b5c83bcd005715438150e4015e45cc4174705eb5173405c98172505ccc173d05c900b1942c61)
  (.lf 0))) (.nd (.nd (.lf
  0x362500adc4f7b11b884a0c0d81c4a0e13e2435fd0097e46da13da8361013de802468d82c36200d81836020d7cc4f91129484f8f13e944a64129a45bf500982025993dd0360c0d7c848d10d7ec02ad0d7dc4f8d0d78c025c809424f8e0d76c35d50d7804f9016fe035fa009764a2b13e784a6513e5402449263c4a3a0d7605bf416fe435f80d7b45bf60d7a84f6d13e18)
  (.lf 0)) (.nd (.lf
  0x4cc2083205e971a2a820b0105144cc11051855bc156f85e951a2b4109844251168244285109b4425d109f4428d109d50520415a0829041490092d41560092541521a2ac41550092155c015704024a482b020c30618120af0828420a0082b820b80827c109344249168344239109c4617d10904423d10914426510954426910a244259185e4428110a444279415008318)
  (.lf 0)))

def aesPos73 : BTree :=
  .nd (.nd (.nd (.lf
  0xc76031c40c790cae800840316c60c00cab832bc031dc60b916de860c60cab40c60031c860bc031700c5e031a84ac80caa85b79148e84ac7164f060c2182e00c73031b40c740cacc0c6b0316400f28cabc32b0003ce0c58031c000f1831a00c6c0317c00f0831d432b20cac40c69031bc593e0caec32be148f4523e031f05b7b0cad860c7031e832b70317460c10318c)
  (.lf 0)) (.nd (.lf
  0xded437851809437ad0def437a51c180fa901c13070381c160fa7c059706fe060500fa4c3ea1070506049177a860560fa481bfd0703c604c06fe41bfb0701c4aac0fa3c5de9154004aab1649c6052181201c10070281c110fa601c0806fd8055b8fa503e95015721bf507034055a870141c0906ff00559870483e970fa581c060703059290fa803ea31540c550407064)
  (.lf 0))) (.nd (.nd (.lf
  0x1278049dc128504a401276021a90869421910865421d117574219d0866421a10870421b10872421e9086d45d610878421f1087644a74391c04a60129304a6c3917010d4127c1b1e0390b0e46412991b1fc5c881b1c0390a04a04390f04a506c81049f4127f04a3058470e41c5c8414dd858441a9046c751b1f0129504a3c12960e444128d049e803838e430390e00e12)
  (.lf 0)) (.nd (.lf
  0x25a701cca259e09688259501cc625ac11080441d0967c25a5169c04428110ac569315a5025b317d34442319c9c25b111090259319c84259917d28671f01be006f7095cc06f616a00678419e0c678519df84c75096285f4319de8257210ff44c7610ff8568715a205f4219df4133344cbd165c44cf1133644cc9133a44cf9133851000441209598440100afd440e00af5)
  (.lf 0)))

def aesPos74 : BTree :=
  .nd (.nd (.nd (.lf
  0x9ee0c50c001f4c540001d4c534694b0c544001c5475451d40007909f60283416bf427e409eb027a809f80280c09e900f1903c545a5d03c140f3d16bd40f0d03c240f1103cc40f2103cd40f5503c945af903d340f5d03d1428403157028300a05028383153000a809ef1a54031460c5500a0b1a5205b201a5583145027d4314a0281c694c027c009f2027fc4cec0c508)
  (.lf
  0x76601d9c147700f9a2988011f8047f04810120b010900425050942986011c8047305b78045e8117629970136004d90117e1ccb0a6f005b6016dc0d960369401a20068c1a640a6b4055c01574184f0a680050e0143c04a7868ec29ac0155805570799405d68a71805f2017cc1a120a6ac05500154404ff85ad404568115629960134804d3051382987011e0047913b98))
  (.nd (.lf
  0xc914322d3d280f4e819900f4a4019b4f4d801994f4c86d050f4d4019855268549b006691998066b817da4666c198d06630199a06690198b032010c7f431e90c7b4322917db431f50c7c431f90c86432090c88432410c8345f710c8e432490c8c466c43d3c066b019a7066bc3d37014f419911b3f43d2b0f4e419ad1b40c5d901b3d43d2a0665819a81b418199206650)
  (.lf 0))) (.nd (.nd (.lf
  0x75841d49379c0427837a70426410930427037a300e70107d1a18037960de90109a1a1645c391a19437950420810951a170107e04200108c132c03792170e85322132bc5aab1a190685804258108e0425c379b04234107b00bea37970de6402fb841e8109400be6108a0423c108100be210980de6837980422c109116ab037a20de94532314c94109f170ec379d1a19c)
  (.lf 0)) (.nd (.lf
  0x11ea447c911ee447cd11fb447bd188d447e511fd447dd42b708cf042c408cdc233208ce842bf01a7c231b1924042b310b042338192285ef21925842b208c80233319230231c08c78232a12eec42af17bc4562712ef059f31924c648808cd0232d08cd442b908cac231901aee42b410ad806bc88c60233101aea232808cb0231f01ae6233610ae042b508ca4232f167d4)
  (.lf 0)))

def aesPos75 : BTree :=
  .nd (.nd (.nd (.lf
  0xdae05c050d9a036300d8b036640da30362805c0416fd15d7416ed05c945c0105bd416f105be4171905c24171d05cf4170d16ff4173505d14172d3459036c43466036b40da6036bc3463006840d9018d4034550d1880dac18d2c5bb618d583454036540da818d300d910364c0d9f12dac345116ed4528312db059b918d506348036a40da2036a8345b036800d8e00696)
  (.lf 0)) (.nd (.lf
  0x1e71079e04000079bc1e5d0174e3ffc0fff405d4879701e740174a1e6c079c01e63017461e790fffc3ffe079b41e73166b440081002c5564155941e8017914400318c5c1e7e100101e6118c441e6717904630e017c005ef0790805ee1a8546bba1aea06ba91aebc57e6079605e3a1aee01e410ff7457e70ff7857df155645e3b1aec80f3443cc10f3643cf90f3843ccd)
  (.lf 0))) (.nd (.nd (.lf
  0x4b200e9bc5ce114f684b1f165f86226188601504053f815050e9e014fc053a803fb8e9d03a7500ff214e90540403fa853e414fd053c003f9854183a770e9d814fa05400597f0ea003a8314f7853df054345ce30e9ec62270542c3a7c053b86221053d05ce01887c048e0123414cf01230598a18994626318990625e12cb414e5173686259053383a5512cb83a5614f48)
  (.lf 0)) (.nd (.lf
  0x148f4522d14934525d1491515a0457a09f70456900bed457600be5457219bec457500be156f315bd002fa49f9027fb0638927e709f6427d809f9827f009f5c148745219164d4520914904638d14844520d14854523514894523914964522918e445251149845249456f09ff8457c09fe427f409ff0457701d3427dd19c00456b115e427fa19be45fa019c18456a09f88)
  (.lf 0)))

def aesPos76 : BTree :=
  .nd (.nd (.nd (.lf
  0x30a5023a468e70c29c5af7023ac51a11468c30ad0c2b05ac40233c08d20c28030a20239000438236c08cb0230c00428238008da0010230a10c27c00418236408d40c29008e30236008e21a36068e416b0c4ccf1468008df16bd408e80c26c4cd00235408ea0234008d70c2bc30aa0239868dc0238430a302334309a1a3985af61a36808e50c2ac309e1a38008d300014)
  (.lf
  0x6d1d162606d231626c6d2b1627851891a9b46d331628c6d39162986d41162a4518b1a9c86d49162b86d4f162c46d57162d0518d1a9dc6d5f162e408bc0bb982ee80bba82eec0bbb82ef00bbc82ef40bbd82ef80bbe82efc0bbf82f000bc082f040bc182f080bc282f0c0bc382f100bc482f140bc582f180bc682f1c0bc782f200bc8808bd0bc942f270bca42f2b0bcb4))
  (.nd (.lf
  0x62b00f20c3c910623862aa1759862b60f20818770622462ac061cc1875062044b440f1fc5d65151b04b431666c62b318aa0188a06210188b0f2201882061c004ab8f2103c85012b2186f0621c04aa861fc1883061d804a9862303c870f218188006218599a0f2403c93151bc54700624c5d670f22c62b7062443c8c061d062b1061e85d6318ab8051201444185501440)
  (.lf 0))) (.nd (.nd (.lf
  0xa643eb00fc205c8d0fae03e7c0fa003eb40fb703e7806d441b4d166541b3d06dd45c9106d141b4106d241b6906d641b6d06e341b5d172541b8506e541b7d36ce03f1436da03f000fba03f0c36d600cb40fa419f0036c90db5c0fc119ee45c1619f1836c803ea40fbc19ef00fa503e9c0fb41321c36c51705452f7132205a8e19f1067b803ef40fb503ef836cf03ecc)
  (.lf 0)) (.nd (.lf
  0x42110881421f301a0e420c108380684887c8220b01a0a22020881821f901a06221010840420d0880c220916a4442171086c55f9157e8221717b24421319f5c22151085021f719f4421fd17b1067cd019d006730875c067216a6c68131a05068161a0384c99087b85ebe1a02421d6107b84c9a107b455ee157b45ebf1a03c1139444d5166e44509113c444e1114044511)
  (.lf 0)))

def aesPos77 : BTree :=
  .nd (.nd (.nd (.lf
  0x12b13658485811a7c339111a844da40ce24015b9216c4d860ce684d970050a33970ceb833930ce38337e136b847c6136ac4dc011f4447d516e5c015c805564d900ce64337f11e503386004843384136a4336f005624daa0cd9c33610cdb04dac16e603387005664891136ec47d2136c4014091a94488c0cd945b9916e5833830cde45b950cdd84d8a13680013f8055e)
  (.lf 0)) (.nd (.lf
  0x3f3512b983f36154ac552c17840613f03a310e88456510e9543a3d0e8b43a4d0e9743a453f380fd281d160fce401f34fd1801f14fd08613b0fd1401f0554b8552f007c91d1e074d0181c474841d13074481d20074a81d1103a1d0e86456550e8243a41181d43a110e8343a150e8d43a250e8e43a590e8a460790e9443a610e92474dc3f4c074c81d2d074d43f4701704)
  (.lf 0))) (.nd (.nd (.lf
  0x59d81900864041901863fe12e5413c5172bc63f804eb439ae12e5839ad14e8853a1172c063ff024650915457b109224247109184248109244247939b00e70813a10e6c401074e6f401054e6f063fb0e6f8010454e9c53a50041913a904f00176b44eb0139e04e7413ab04ed8139c024510913457b5090f42475176c42445091042449091a42459091b4248d091745db5)
  (.lf 0)) (.nd (.lf
  0x13f744fc544c709b6044d409b4c26ce09b5844cf01c8c26b71980044c31134426d4197e85f761981844c209af026cf197f026b809ae826c61306044bf17dd456c11305c5a3a1980c65f809b4026c909b4444c909b1c26b501dae44c411318076c89ad026cd01daa26c409b2026bb01da626d21132044c509b1426cb168e444d01134c56c415b1426d917ddc44cb1981c)
  (.lf 0)))

def aesPos78 : BTree :=
  .nd (.nd (.nd (.lf
  0x59200c84c321614830520d02d705b510c838602702d68320f02cf4602102d0c5b4e1807c0059001600b1e0015c591c18050601318054600e12a680b3416d18600a02c7431e812a6431e914800520116d1c600d011b10468455b90475411bd046b411cd0477411c531eb0c7f40b110c7b0003b4c7e400394c7d4600b0c7e000385480c5204000e90b1902cbc16d242c70)
  (.lf
  0x640881600636818d629cb018e8063b018de063884404111000ebc03b0042b010bc00e8c03a408dd4238401ab006ad03f6802dd83fa8038500e1821a7086d8066a019ac102f040f8039100e4820d50193a064d88390064c01934064f8854c216201978065f04160106800e5c0398085f4218c019900665082ac20ba0191806470191e108304248039d00e7821d1019fa))
  (.nd (.lf
  0x1add014861af30f7bc3dee06b9c1aed165cc3df80f7ec54d3153501afa177043df31879c1af80f7d01adb187841ae1176f861dd015b0056b06af0056a166146244189086243188f84b2606b485db7188e81abb0f7344b250f73854c7153205db6188f40d294349515b4434c90d2c434a10d30434d10d2e4f7403de206abc3dd1006dd3dde006d53dda188ec3ddd006d1)
  (.lf 0))) (.nd (.nd (.lf
  0x11590459858680e17c5c5b14d2c58651a9446cb81b2f8116f045a411700e1a4116704550034b8e190386600d321153045b0034a845901168045680349845c438680e1941165045ac6a500e1c0387314d38534f045e05c5f0e1ac6cb3045d8386c045606cbb045785c5d1b2e4040a0102411390102069ec1ac206af81abe46b0015e38114f171546b09044dc384515e30)
  (.lf 0)) (.nd (.lf
  0x56561595c5f19199bc129244a39163a44a6d129544a45129944a75129750d60436a09100435900a8d436600a854362199ac436500a8156591596802a249120245f06281244b090f4243c091282454090ec128d44a31163b44a21129646285128a44a25128b44a4d128f44a51129c44a4118a244a69129e44a61435f09188436c09174245809180436701b242441199c0)
  (.lf 0)))

def aesPos79 : BTree :=
  .nd (.nd (.nd (.lf
  0x64041911063e4d4980e8a0d4cc0e85039fc0e880d4bc0210039a464b00d488353003a1864a916f6864b60d4840e6e03a0464ac039a80e6c039e44bc30d4785bd914ab84bc4167ec64b3192a00e82039e80e830d4a00e780399c01f68d48c3525007de0e6603a0001f5839d80e7b039b401f483a1035270d4900e77039f459fa0d4b8353114ac452b003a2c5bdb0d4a8)
  (.lf 0)) (.nd (.lf
  0xfe543fcd184a43f9d0fe643fa10ff043fb10ff143fe50fed4612d0ff743fed0ff55029c1fa3102d01f9e07e641fa1102c0061b07e0865601028c40b107e7c6559179b86566102881f8707e68655c07e0c1f8507e444bf01027c5e6a156404bef1686c6562195601f9b07e501f9c102a41f9207e00060b9029040a6018321f7f07e60060a87e3c1f9307e18060987e74)
  (.lf 0))) (.nd (.nd (.lf
  0x540b005091612058a01798458541607058181614058781605029c90a71429b10a6d429f11799429bd0a6e429c10a78429d10a7a42a090a7545e690a8042a110a7e458ac3b2c058981621058a43b27012e4160b1b3983b1b0eca416271b3ac5d0c1b3783b1a0584016221b3bc160c05838161a161f83b171742c5409161ec6a5a1b3886cea0588c161d058903b200586c)
  (.lf 0)) (.nd (.lf
  0x292c01f862943118bc462d0a4dc293d16ba84639118e8572d15cb0294a17f4446331a6dc2948118d0292b1a6c4293017f3869af01df0077b0a430077a164585ff417fcc5ff517fb84a920a4885fc617fa8290b118344a9111838572115c885fc717fb4152d454a5156a454d91530454b11534454e115325184046220a3fc461100c5d461e00c55461a17fac461d00c51)
  (.lf 0)))

def aesPos80 : BTree :=
  .nd (.nd (.nd (.lf
  0x57d91ae806a0f1459057d81ae6057d31ae4857d11ae406a0d1458c57cd1ae2057c91ae0057c41add86a081458057c21adb457bd1ada857bb0001e6a031457857b61ad7057b31ad502b480ad182b440ad082b410acf82b3c0ace82b380acd82b340accc2b310acb82b2c0aca82b280ac982b240ac882b210ac782b1c0ac682a180001a2b160ac502b120ac402b0e0ac30)
  (.lf
  0x73881cde073681c96073081cbe072e81c76072881c9e072681c5e072081c7e071e81c42070e81c36071881bfe06fe81bf6070881bb606f881bde070081b7e06e881bc206ee81b6206d681b5606e081b4206cf81b3a06cd81afa06bd81b2206c781ada06b581b0206bf81abe06ad81ae206b781a9e06a681a9606b081a7e069e81a7606a881a62069781a5606a081a42))
  (.nd (.lf
  0x3bac0eeb4046485bf817160118a170e05c48170501186171b0eebc3bae05c3c1715165d43bb70eeec5434150d41722174c43bb3187dc17200eed01703187c41709174b461ed0137004db05b9004da1669462f518bc862f318bb44b5105be85d2718ba416e30ee344b520ee385428150a45d2618bbc0aef42bad15ca42be10af242bb90af642be90af44ee403ba205b5c)
  (.lf 0))) (.nd (.nd (.lf
  0x67b45c5d068541a2506834d7100f0f0d7400f0a03c100f0d0d730027303bb865100d6fc35cd03c2c650816fc465160d6f80ef303c18650c03bbc0ef103bf84bdb0d6ec5bf214b2c4bdc1682c6514194240f0703bfc0f080d7140efd03bb002378d70435c2008e20eeb03c14023683bec0f0003bc8023583c2435c30d7000efc03c085a0c0d72c35ce14b3052cf03c40)
  (.lf 0)) (.nd (.lf
  0x41401050c55ba156ec209d17a4c413b1aad0209b104f0207d1aab4208317a406aab018f8063d08178063c1a7a86af41abcc6af51abb0577e081d05e881ab98205d10454577d104585783156c05e891abac10674418d1069441c5106b44199106f441cd106d50460412a0814441190090d41260090541221ab9c41250090155b2156cc024248164206f06161205c08138)
  (.lf 0)))

def aesPos81 : BTree :=
  .nd (.nd (.nd (.lf
  0xc1c0300c04f1413c11581413b104fa45b9504ee413b504ef413dd04f3413e10500413d116e6413f90502413f10c290ca3c0c240307c0c270ca2800780302460a00c9f8328c03094609916db860a60c9f40c0e03080609c030280c0c030604ac00c9e85b6d148b04abf164d860a2182600c210306c0c220ca0c0c190301c00e28c9fc32800038e0c060307800e183058)
  (.lf 0)) (.nd (.lf
  0x1ce46eb41bc3060051bb006e881ba106ebc1bb906e800db0436bd159f436ad0db9460090dad436b10dae436d90db2436dd0dbf436cd1803436f50dc1436ed1bc60f9d01bc106ef01bc40f9bc058b06e9861900f98c3e7106f0861891777861960f9881bab06ef4618c06e9c1ba906ed44afb0f97c5ddd153c84afc165906192186281bbe06ee01bbf0f9a01bb606e90)
  (.lf 0))) (.nd (.nd (.lf
  0x84742105083c4211508494210d38d80e3a812270e36400e34e39800e14e3886d5c0e39400e054dac536c00389122f049181750448c812240488c1231048f01222020e10837420c90833421091751420d50834420d9083e420e9084042121083b45d4908464212908444492438ec04910123f0491c38e7010a412281b55038db0e3a412451b56c5c7c1b53038da048b4)
  (.lf 0)) (.nd (.lf
  0x255519e70253e09500254c1320043e717cfc5682131fc5a8819e88679809558254f0955c43f109534253b01c8e43ec10fb80724894e8255301c8a254a09538254101c86255810fc043ed0952c255116a1c43f810fec568515a18255f17d0443f319e9c255d10fd0253f19e84254517cf4679e01bb006eb0947c06ea1684c6534194d46532194b44be2094d85f36194a0)
  (.lf 0)))

def aesPos82 : BTree :=
  .nd (.nd (.nd (.lf
  0x692f1338809be16c48692a0269831101338431111470451c216c40692d00e75039945a4903a640e81039c40e9103a840e8931130c494099a0c45000174c48400154c474692b0c48000145471451c60005909a2026e416b84269409970265809a4026bc099500e61039745a4d039340e8516b740e55039440e59039e40e69039f40e9d039b45ae503a540ea503a3426f0)
  (.lf
  0x1668a608013f0050014f20a62c0490012444e6d0064848270d10001869399c0194123a8019511ad801960065c3406006600d8711adc4e5e0061e48e10cff0019b1396c0189920b4019d11f7c019e0067c3400005a0340e11f844e4f1206c482f005a4016a13924016b12084016c005b4016e0361401a0005bc344411ac44e43120444825005c4017213900017c92058))
  (.nd (.lf
  0x6bec1afac6bf0160201961176006bf9065283cf51601c3cf616000548c176086bf30314d0c4f431550c5d4315d0c524316d0c5f431653cf80f428193e0f3e401934f41801914f4086bfd0f414019055238548f0064919460657017d446524193b064e81948065481939031390c4d431210c494316117d54312d0c4a431310c54431410c56431790c5145f590c5c43181)
  (.lf 0))) (.nd (.nd (.lf
  0x104705cb91033040941024040c8103c0408c071941c61167541c51072245cb5071641c55071741c7d071b41c81072841c71172c41c99072a41c91376b04128377704114103f04120377300e4010291a10037660ddd010461a0e45c2d1a1183765040b810411a0f0102a040b410381329c3762170b05314132a05aa61a10c683804108103b0410c376c040e4102700baa)
  (.lf 0)) (.nd (.lf
  0x428a1982c428d009f1561a1586c027e48b3822e50621522d108b0c22c208b4022da08b0411be446f5162f446e511c74621911bb446e911bc4471111c04471511cd4470518874472d11cf44725428708ba0429408b8c22de08b98428f01a4c22c719840428310a4422e4198285ee619858428208b3022df1983022c808b2822d613070427f17b9456191306c5a3d19848)
  (.lf 0)))

def aesPos83 : BTree :=
  .nd (.nd (.nd (.lf
  0x47ce0d134018e1383c47cc11dc4342e11dcc4e1c0d098019c91f344dff0d0dc4e100060e34340d12834300d0ac341c1389c489d1388c4e39122b848b016ec4019d8065a4e090d0d8341b129fc342300610342013888340d006664e240d01033fe0d0284e2516ebc34240066a478c138d048af138a0018191f5c478a0d0085bb016eb834210d0545bac0d04c4e031386c)
  (.lf 0)) (.nd (.lf
  0x3fcb0ff641e2918fa85e3818fd83fca078481e2418fb01e0e078401e1c12e4c3fc7178d4555412e5059d618fcc63e8078941e1f078983fd0078741e0b0170e3fcc0ff3405c4878281e220170a1e1a078781e11017061e270ff3c3fce0786c1e21167543fd80ff6c5557155601e2e178e43fd318fdc1e2c0ff501e0f18fc41e15178dc63ef0179005e3077c005e21a828)
  (.lf 0))) (.nd (.nd (.lf
  0x14ba0e95014b5052c014b80e93c04830526862c00e90c3a51052d862ba1735862c60e908149f052c462bc0526c149d052a44b480e8fc5cd514f344b471667862c418ae014b2052b014b30e92014aa0526003eb8e9103a4500fb21497052bc03ea8529c14ab0527803e9852d03a470e91814a8052b8599d0e9403a5314f4053d1052ec5cd70e92c62c7052e43a4c05270)
  (.lf 0)) (.nd (.lf
  0x74509e5407441683c6524194886523194784bde09eb05f92194682794114d44bdd114d856e215b8c5f9019474145e4516916104519d1461451751465451a51463514e0454a09e20453900bcd454600bc545421946c454500bc156e515b9802f249e4027a706371279309e14278409e48279c09e0c14594516116114515114624637514564515514574517d145b45181)
  (.lf 0)))

def aesPos84 : BTree :=
  .nd (.nd (.nd (.lf
  0x590e1b8286a9c14670590b1b80459071b7e859021b7d06a991466859001b7a858fc1b7a058fa1b7886a941466058f51b76858f21b74858ef1b7306a8f1465858ea1b71058e70007e30960c25030920c240308e0c230308a0c22030860c21030820c200307e0c1f0307a0c1e030760c1d030720c1c0306e0c1b0306a0c1a030660c19030620c180305e0c1702f230007a)
  (.lf
  0x6dcd163c06dd3163cc6ddb163d851991aa546de3163ec6de9163f86df116404519b1aa686df9164186dff164246e0716430519d1aa7c6e0f164442b4b0ad3408400ad402b520ad502b560ad602b5a0ad702b5e0ad802b620ad902b660ada02b6a0adb02b6e0adc02b720add02b760ade02b7a0adf02b7e0ae002b820ae102b860ae202b890ae2c08410ae342b8e0ae3c))
  (.nd (.lf
  0xbb345f010ba642e950ba742ebd0bab42ec50bb942eb117c142edd0bbb42ed518400f190183b060d8183e0f17c0507060806c360f14c3c61060f06c3d175686c2e0f1481825060dc6c3f060841823060bc58260f13c5d571517858231a8c86c331b0e81838060c818390f160183006078049b8f1503c5501272181d060d4049a860b41831060900499860e83c570f158)
  (.lf 0))) (.nd (.nd (.lf
  0x5c0819d7406ab41a9d165841ad106ae41aa906b241ad906b04da5c36a803d3c36960027d36a40027536a219d6c36a30027152ed14bb0009e43d600f6e05c7d0f5a03d300f4b03d640f6303d2806a641a95165941a8506af45c7906a341a8906a441ab106a841ab506b541aa5171d41acd06b741ac5369f03dc436aa03db00f6603dbc36a700c840f5019d8036990da98)
  (.lf 0)) (.nd (.lf
  0x41db107a021be1a2205ebb1a25441da0869821b91a23021a20869021b1132f041d717af055e8132ec5ab51a2586889086e821b3086ec41e1086c0219f019ce41dd1077806748867821b8019ca21ae086c821a5019c621bc1078041dc086bc21b516ad041e7107a855ea157a421c317af441e41a25c21c11078821a31a24421a817ae0688d019a006670860c066616a64)
  (.lf 0)))

def aesPos85 : BTree :=
  .nd (.nd (.nd (.lf
  0x56f4cd440cfe0cd700cf9033cc0cfc0cd5c00e70337461c00cd2c3359033e861b916e4861c40cd280ce3033d461bc033780ce0033b04b080cd1c5b91149584b07165b861c6186e00cf6033bc0cf70cd3c0ced0336c01338cd30334e004d20cda033d00132833a80cee033840131833e033500cd340ceb033c4596d0cd60335b14968525b033fc5b930cd5061c7033f4)
  (.lf 0)) (.nd (.lf
  0x61a7074343f2c073c061a1073d85e0c1867c05ba016e41cd1016e059c618e9463a318e90639d12df41ce7178106399073403f0512df83f0615474551e17818639f039790e5a457810e67439850e5d439950e694398d3f080fc681cc40fc2401eb4fc5801e94fc48639b0fc5401e8554805521007a91ccc0738818164733c1cc1073001cce073601cbf039650e5845785)
  (.lf 0))) (.nd (.nd (.lf
  0x399f0e670138704e3459e50e6a039ab14e7453a004e685cad0e690644704e6039a204de8644104e005cab190fc04580115c135b0115859ec19190646219194645e12eb413711728c645904d64397e12eb8397d14e4c539417298645f023ad08e7457e108f4423b908ea423c908f6423c139810e64c134d0e60000ff4e63800fd4e628645b0e63400fc54e645396003f9)
  (.lf 0)) (.nd (.lf
  0x26810631d266d0997c265e099b026760997413b844edd163544ecd13c14632113b544ed113b644ef913ba44efd13c744eed18c944f1513c944f0d449709a1044a4099fc267a09a08449f01c5c2663199004493112842680198e45f6a199184492099a0267b198f02664099982672130a0448f17da456b31309c5a46199086638099f02675099f44499099cc266101d6e)
  (.lf 0)))

def aesPos86 : BTree :=
  .nd (.nd (.nd (.lf
  0xb0102bec0b020c76c0af902b9c00aa8c75c31d8002ae0ae602bf800a982bd80afa02bb400a882c0c31da0c7640af702bf4591a0c78c31e6147f851ff02c285b450c778600702c2031df02bac600102bc45b4217ffc004d001300acc0012c5af11a74c69d21a75469cd134280ae216cec69c902b2c31b81342431b9147cc51f216cf869cf010f9043a45a99044741105)
  (.lf
  0x6b201acc06d783d580f6500c8803230893c069688978068201a0c0faa03ee4032e00cbc02ad88f2406de81b7623d801ae006b90965c25a601be806fb143240375126ec372200aee50c400ddc49a900de0492400de4037a0dba0037b03f304926142ec02bc926dc36dd00df850b800afa49c000e0048f200e0403820db80034b0dbbc48f4142ac48c71230c034c00d34))
  (.nd (.lf
  0x3db7176cc54c212cfc599618a88629806a7c1a9906a803dc006a5c1a850144e3dbc0f6f4051486a101a9c0144a1a9406a601a8b014461aa10f6fc3dbe06a541a9b166603dc80f72c54c5153181aa8176d43dc318a9c1aa60f7101a8918a841a8f176c4629e01580055f069a8055e166a0630518c08630318bf44b5506a005dab18be41a690f6744b560f67854b9152e8)
  (.lf 0))) (.nd (.nd (.lf
  0x510c123b4492014518496614438472e11c6048ff144f8491214510514a1242c5142143cc51121452c5107144bc51241439c50e1143c8511d144045111144c0513c14530381c14cfc37fc00cd6514911cb4380a144ec472f0e07c4a8b0e0c004000dfcc3810144fc03268e0dc47031257447061259c03fd0e0d05340125b4514514d083838144e851410e0d4496914534)
  (.lf 0)) (.nd (.lf
  0x243710d30241919ac4241f17c5066ae01b0806c108fe406c01699c66f419bd466f219bb44c52090405f0c19ba423f810c944c5110c985649159205f0d19bb8126444981164a449b512674498d126b449bd126950ca0433a08fb0432900a6d433500a65433319bac433600a61564b15930029a48fd0240b0627123f708fa423e808fd8240008f9c125f44979164b44969)
  (.lf 0)))

def aesPos87 : BTree :=
  .nd (.nd (.nd (.lf
  0xe1c038cc17094387c0e11038400e1e038a00e0f018150604457f5060041839170a4180906014180d060b4181d060c41851060845c2106124185906104d3dc0e360d40c0e31038b00e340d3f802040385464800d3c834ff038c8647916f3464860d3c40e1a038b4647c038580e18038904bb70d3b85bce14a804bb8167c86482191e80e2e0389c0e2f0d3d80e250384c)
  (.lf 0)) (.nd (.lf
  0x1f2d101c00227501f40225501f0669b101f802245561c5584008991f3507d30184347ce01f2a07ca41f3707d041f2803ef10fbb459050fb743f15184443ee50fb843ee90fc243ef90fc343f2d0fbf461150fc943f350fc7501e01f4f102101f4a07d141f4d10200060f07cb866a0101cc408107d2c66981798866a6101c81f3307d18669c07cbc1f3207cf44c3f101bc)
  (.lf 0))) (.nd (.nd (.lf
  0x6d3d029150a414291d0a4f429250a44429350a514292d3ae80ebe815b80eba4013b4ebd801394ebc86d470ebd4013854ff853ff004e915c00575817924570c15b5056d015c20573015b3029010a3f428e90a3b429291793428f50a3c428f90a46429090a48429410a4345e510a4e429490a4c457643afc0575015cf0575c3af7012b415b91b4fc3aeb0ebe415d51b514)
  (.lf 0)) (.nd (.lf
  0x45f717f10571b1341c5aee1a70c69ba0a3bc28e80a3c046010a39828d501f4e45fc117f807d48a35028ed01f4a28e40a3a428db01f4628f1117fc45fd0a39428eb16bb4460811828572015c7428f817f1446031a71c28f61180828d91a70028df17f0869be01dc0076f0a2e8076e1644c5fe417f8c5fe517f784a8e0a3405fba17f6828b9117744a8d11778571315c50)
  (.lf 0)))

def aesPos88 : BTree :=
  .nd (.nd (.nd (.lf
  0x588a1b4086a5f1461058861b3e458831b3c858811b3c06a5d14608587c1b3a058791b38058731b3506a571460058701b330586d1b318586b1b3106a530003e58661b2f058631b2d02e380b8d82e340b8c82e300b8b82e2c0b8a82e280b8982e240b8882e200b8782e1c0b8682e180b8582e140b8482e100b8382e0c0b8282e080b8182ccd0003a2e020b8002dfe0b7f0)
  (.lf
  0x6cc5161b06ccb161bc6cd3161c851811a9646cdb161dc6ce1161e86ce9161f451831a9786cf1162086cf7162146cff1622051851a98c6d071623429d30a75429d70a76429db0a77408380a78029e20a79029e60a7a029ea0a7b029ee0a7c029f20a7d029f60a7e029fa0a7f029fe0a8002a020a8102a060a8202a0a0a8302a0e0a8402a110a8482a130a8502a150a85c))
  (.nd (.lf
  0x17870efb44ba90efb85442151105d3e191340b4f42d2d15f642d610b5242d390b5642d690b544efc03c0205dec3bf10059d3bfe005953bfa1912c3bfd00591544515118016645e0c179905ecd178605de0177705e14178f05dd80b4a42d2515f742d150b5345ed10b4742d190b4842d410b4c42d450b5942d3517b542d5d0b5b42d55179c0f010179705e48179a0effc)
  (.lf 0))) (.nd (.nd (.lf
  0x9a43c980f3d05c710f2903c6c0f1a03ca00f3203c64068f41a39163741a29069845c6d068c41a2d068d41a55069141a59069e41a49171a41a7106a041a69363203d00363d03cec0f3503cf8363900b280f1f19940362c0d8e80f3c199245bfe19958362b03c900f37199300f2003c880f2e130b0362816fe852da130ac5a4919948664803ce00f3003ce4363103cbc)
  (.lf 0)) (.nd (.lf
  0x41780094d418500945418219cac41860094155d0157340252484002117061912103083d020f508408210c083cc10c1443011653442f110ca4619510be442f510bf4431d10c34432110d04431118664433910d244331418008468418c08454210f0846041890194420f919cc0417b10620211619ca05ea219cd8417a083f8211119cb020fa083f4210813190417717a80)
  (.lf 0)))

def aesPos89 : BTree :=
  .nd (.nd (.nd (.lf
  0x468e129ac47a81198c4d28119804d4d134904d18129b84795119ac4d71119f44a741199446671345800c90032800cb0033000cd0033800cf0034000d10034800d30035000d50035800d70036000d90036800db0037000dd0037800df0038001128045e008f002380c900023459401835060d31835460ce12b280ca616df060ca0323c32c012b2432c1148fc524016df4)
  (.lf 0)) (.nd (.lf
  0x1c4f071846bd10712c1c4d0716457ef0fafc5df51543057ec1a8646bc71af301c62071701c630fb201c5a07120056b8fb103ec5015b21c470717c056a8715c1c5b071380569871903ec70fb181c58071786a1b0fb403ed31543c5510071ac5df70fb2c6bc1071a43ecc071306bc9071485df41af1405a2016841c2d016806a9e1b82c6dfc1b7ec6e00164401c43177b0)
  (.lf 0))) (.nd (.nd (.lf
  0x394c04bb012e704bbc39470110412d01ae74393b0e52412ed1ae8c5c941ae54393a04b54393f04ba06ba604b4412d304b8057da0e4dc5c9314e0857d61a8406b9c1ae8412e904b8c12ea0e50412e104b3803938e4f0393e00e5212cd04b98039284b7812e204b50039184bac39400e4f412df04b946a120e520394b14e14538604bc85c950e50c6b9604bc0394404b48)
  (.lf 0)) (.nd (.lf
  0x25ed17d5c66bf01c1007030971c07021698866e219b9066e319b784c4e097785f5019b6825c6110b44c4d110b8569515a585f4e19b74136144d75164844da9136444d81136844db11366510c04442096e8443100b1d443e00b15443a19b6c443d00b11569815a6402c64970825d9062ed25c5096dc25b60971025ce096d4135c44d6d164944d5d1365462f1135944d61)
  (.lf 0)))

def aesPos90 : BTree :=
  .nd (.nd (.nd (.lf
  0x169d40fbd03fd45b0d03f140fc103f240fe903f640fed040340fdd16c441005040540ffd0a630c61c0a5e029600a610c61000360290869800c5d831830297c697816cb069860c5d40a470c5f00a5a1a5f00a43029140a52133dc317216ca451df133e05ae11a60c69790296c0a5502970317a0294c0a400022a31780c5dc008b828fc0a59002260a50029500a4600222)
  (.lf
  0x2ab00ab04f8b0091648d313e5c02af00ac035dc0d78802b10d7b0499113df44a0f1282c02b203c5c02b30d7f84a2600ad002b500ad8360f00ae04f7200922498d13dbc4a33128bc02ba0d83402c30d88449fc00a64024180a90360900ab84f800091e46dd08bdc230601a68069b0386c0e2a00814020605a3029950133004cd04f4403c684f6004660119c232108cc0))
  (.nd (.lf
  0x19ec067d819dd032c50cb0457c50cac432e917e1432b90cad432bd0cb7432cd0cb8433010cb445f890cbe433090cbc4680c3d6c067f819f9068043d670152419e3190803d5b0f5a419ff190645d9c190943d5a067a019fa1907019e40679819f212e803d571766c54a512e7c59de190986418067ec19f5067f03d60067cc19e1013ce3d5c0f57404f48678019f8013ca)
  (.lf 0))) (.nd (.nd (.lf
  0x10e01332037c217108532f1331c5abd1a30c68b8043a810e3043ac37cc0438410cf00c2a37c70df24030b8433810e800c2610de0438810d500c2210ec0df2c37c80437c10e516af037d20df58533314cc410f31711c37cd1a31c10f10df3810d31a30010d81710c68bf00e9c03a6042cc03a516ac868821a20c68851a1f84cb5043285c3c1a1e410b20dea04cb60dea4)
  (.lf 0)) (.nd (.lf
  0x5efe1a0d842e208dd023871a0b0237008dc8237e1328c42df17bec5635132905aa31a0d4682808e20238008e2442e908dfc236d01b2e42e410b9806cc88db0238601b2a237c08e04237301b26238a10b9c42e508df4238316a8842f110bc85639158d8239117bfc42ec1a0dc238f10bac23711a0c4237717bf4682e01aa806a908d4406a816ab468761a1d068731a1b4)
  (.lf 0)))

def aesPos91 : BTree :=
  .nd (.nd (.nd (.lf
  0x348713b54346d007a8346911d7448440d1c001d3939f0349f0d29834a10d27034ba11ee434b70079c34940070a4e91036e448a80d2e401e513a2048a312014349b11fc84e970d24c01cd922984e780d2904e89006d234a00d2d8349d0d260348813a8046b813a744eb21203446be16ee401ce8071e4e820d28834891200034910076c348e13a6c347a0072a01be93a70)
  (.lf 0)) (.nd (.lf
  0x4038100ec5572155cc1ed21794440331875c1ed0100d01eb3187441eb91793861ce017f005fb07a5005fa1661c6252189506253189384b2a07aa85e47189281e93100344b29100385566155a05e46189340f6343d7d15b643db10f6643d890f6a43db90f6850040402207a1c40110085d401e00855401a1892c401d008515569155a8021647a3c1ea5060dd1e9207a10)
  (.lf 0))) (.nd (.nd (.lf
  0x154f055080409855603aa70ea98154c05548595b0eabc3ab314fb053ed0557c5cef0eaac6167055743aac055006161055185ceb18574049a0126415210126059791881462031880861ff12c5815371739c61fa054803a8512c543a8614f8053e21739061fe027a109e4456b109f1427ad09e7427bd09f3427b53a880ea6815140ea24012b4ea5801294ea4861fb0ea54)
  (.lf 0)) (.nd (.lf
  0x282c0a0e828440a0ac14b5452d1161f452c114be463a514b2452c514b3452ed14b7452f114c4452e118ea4530914c645301459f0a14845ac0a13428480a14045a701d64283119640459b116a4284e196245fac19658459a0a0d828491963028320a0d0284012fec459717ea4570012ff05a2319648658a0a12828430a12c45a10a104282f01ece459c1167807b48a0b8)
  (.lf 0)))

def aesPos92 : BTree :=
  .nd (.nd (.nd (.lf
  0x69031a3e40936024bc09370c34c092e0246c00528c33c30d00014e091a024d00051824ac0930024840050824e030d40c344092c024c85ac90c36830de146bc51b1024fc5b030c3586907024f430d50247c6901024945aff1a3f8000b0002808ff000245ac71a3d068f51a3cc68ed13344091616be068ea023f830b01334830b11469451a616bec68ee00d05033d45a29)
  (.lf
  0x32f4119a400a50029000a30cb8c00a113454011d919f04d121199046610027c32e50025832da11a5800c00049200b50cba000ab13488011e919740ac60029600a48a5d800490012800a68029e28dd01f5a07d58a738077201dcc07d781f62292f01f9a07e58a740077e01dfc07e781fa20a9c00276009c82a88004300110009e8027e0a71002560094829e4003d000f8))
  (.nd (.lf
  0x18dc0635818dd0f2e018d40630804bb8f2d03cb5012f218c10636404ba8634418d50632004b9863783cb70f2d818d206360595f0f3003cc3151f4547e063945d730f2ec61770638c3cbc063186171063305d70185b8051e0147418a7014705982188d46233188d0622e12c8818bd175a8622a062983c9512c843c96151c45472175a0622d02fd10bf0456c90bfd42fdd)
  (.lf 0))) (.nd (.nd (.lf
  0x370a0dbec50b90db8403760db7049b61248836e400b5e50600dc48371a0dc5437100dcb4497b0dca803730dc2002c6941d00fcd124d4372e00dc4506d124cc46f60dc4446f9141ec370600b464934141703719141b002b88dc50372b0dc3c370c0dbf05084124b450811425c4927124ac5c1900b4a02cb9419837170dbf446eb0dc1403670dc04507e0dbb802ce80b0a)
  (.lf 0)) (.nd (.lf
  0x226b17b54424319c5c226910910224b19c44225117b48670f01a00067f088ac067e169e4675219d4c675519d384c6a089085ecb19d24222a108744c691087855fb157f05ece19d3c11674458d1656445c1116a44599116e445c9116c508844233088784220009bd422e009b5422a19d2c422d009b15601157fc026e4889c223d061e9222908868221b088a0223208864)
  (.lf 0)))

def aesPos93 : BTree :=
  .nd (.nd (.nd (.lf
  0x16f6434600d0a034240d17034840d08015ed057a456ed05764161116f7415e10577415e50581415f5058241629057e45be10588416310586434b833c9034a80d23034b033c5004f80d0e189c433b80cf180d29189a45b9e189d833b70344c0d25189b00d0f034440d1d12cd033b416e70526512ccc598f189d06268034980d200349c33bd034780d0c0059233b90cee8)
  (.lf 0)) (.nd (.lf
  0x1f94fdc860db0fdd401f8554f0553d007e91d70076181822475cc1d65075901d72075f01d6303ad50eb4456250eb043af9182343ac90eb143acd0ebb43add0ebc43b110eb8460910ec243b190ec0476243f7c076101d7f0761c3f77017341d69183803f6b0fde41d85183645e20183983f6a075b81d80183701d6a075b01d7812b403f671787c553b12b3c594418388)
  (.lf 0))) (.nd (.nd (.lf
  0x94e42549094c4e78039f204fd439e10043d39ee0043539ea18dec39ed0043153b214ecc010e44ff4141305dc5140004fc813f104ffc140904fc009424250515dd424f5094b45dc9093f424f909404252109444252509514251517734253d09534253514160e7d014110503014140e7c0046b04fd863800e78c39f1050486379172f863860e78813fb05034637c04fdc)
  (.lf 0)) (.nd (.lf
  0x271a12ffc44ef17df856cf130005a2719688659809c90271d09c9444f909c6c270901dee44f4113d8077c89c20272101dea271809c70270f01de62726113e044f509c64271f1689845001140c56d215b4c272d17e0c44fb1969c272b113f0270d19684271317e04659f01cb8072d09bb4072c168b065c31970865c4196f44c0509c105f79196e426ec113544c0611358)
  (.lf 0)))

def aesPos94 : BTree :=
  .nd (.nd (.nd (.lf
  0x6035180b84aa202e1c5b52180a80b6f0c8604aa10c864520e1483c5b53180b4049a4125915724128d049d4126504a141295049f4c86c322d02d8c321c0010d3229001053225180ac322800101521114848004242dac0b8205b610b6e02d800b5f02db40b7702d78049541251157341241049e45b6504924124504934126d04974127104a44126116da4128904a641281)
  (.lf
  0x38085cc0046e811b629990139004e5011be047084618035680d56118c01048041300d5e03588766005ae816b629c10175005d5016be05b08709c05668159629b801678059f0159e056886d68053e814f629b3016000581014fe054087140056e815b629b90169005a5015be0570857a0042e810b62991012d004b5010be04308651404d68135629a6014c805330135e))
  (.nd (.lf
  0x611e015e0057706c3805761658061841860c6185185fc4af506c905dc3185e81b0d0f7f44af60f7f854d5153585dc2185f80d574354d159c435810d5a435590d5e435890d5c4f8003e1206c043e01006fd3e0e006f53e0a185ec3e0d006f154d81536401be46c241b1f05fd51b0c06bf81afd06c2c1b1506bf00d5243545159d435350d5b45fd90d4f435390d5043561)
  (.lf 0))) (.nd (.nd (.lf
  0x11bb046b803598471438980e25411b8046f86a6a0e28038a314d68535b047305c6b0e26c6d2204728389c046b06d2a046c85c691b4a0041601054118d010506a931b77c6dcf1b7386dd4163e411a3171846ddd0462c3875163e03876163c45350171886dd501f6d07d741f7507e541f7d07da41f8d07e741f8538780e228117f0e1e400d34e21800d14e2086de00e214)
  (.lf 0)) (.nd (.lf
  0x5667159a002aa4927024b306299249f0924424900927824a80923c12bb44ae9162b44ad912c44629d12b844add12b944b0512bd44b0912ca44af918a844b2112cc44b19438f092d8439c092c424ac092d0439701b542495197c0438b10e6424b2197a85f28197d8438a0926824ad197b024960926024a41304c438717c9c5666130505a35197c865e8092b824a7092bc)
  (.lf 0)))

def aesPos95 : BTree :=
  .nd (.nd (.nd (.lf
  0x3587009504f0111b0048d60d5a848d913c4035600087a46c213bc4357213c0802058d5b835830d5a035650d5584f1811f0c4f1513cb047bd11f085bdc0087e021893bec356f0d5544a860d578024a0d5684f140d518021b93c58353f0d4e0354313c5c5bdd0d574021c91d144f2511ef84f1c0080e46d311d38353b16f785be10d56c355016f80354d13bd04f0d0080a)
  (.lf 0)) (.nd (.lf
  0x62801034c40e107fcc6279179e86286103481fdb07fb8627c07f5c1fd907f944b381033c5e78156784b37166486284189e01fef07fa01ff0103641fe607f50061b9035040d6018721fd307fb0061a87f8c1fe707f68061987fc440d8103541fe407fa859911037c40e31568855a307fe05e7b1036c628707fd840dc07f60628107f785e77189f40626018941fb801890)
  (.lf 0))) (.nd (.nd (.lf
  0xaac42ad10aa745e810ab242ad90ab0459f43b5c059e01673059ec3b5701314165d1ab043b4b0ed6416791aae05d181ab243b4a0598816741aaec165e05980166c15db83b471745c541515db469de1ab146ab7059d4166f059d83b50059b4165b0110e3b4c0ed3404448596816720110a166a059b816610110616770ed3c3b4e059ac16711a7803b580ed6c541815064)
  (.lf 0)) (.nd (.lf
  0x316301e2007870a578078616b6869621a59469641a5784ced0a5d05fd41a564295d118f44cee118f8572f15cc05fd21a57c155b4555d169845591155e4556915624559915605190046520a544464100c7d464e00c75464a1a56c464d00c71573215ccc031e4a564296f063f5295c0a538294d0a56c29650a530155645555169945545155f463f9155345549155445571)
  (.lf 0)))

def aesPos96 : BTree :=
  .nd (.nd (.nd (.lf 0x0) (.lf
  0x5a58172205d88167e059e8167605a88165e05968165605a08163e058e8163605988161e05868161605908157e055e81576058881562055781556056081542054f8153a054d8152205478151a0545814e20537814da0535814c2052f814ba052d8147605288149e05258145605208147e051e8143605188145e05168141605108143e050e813f605088141e0506813da))
  (.nd (.lf
  0x4b531669c62f418ba016f005ba816f10ee6016e805b58045b8ee503b950117216d505bb4045a85b9416e905b70045985bc83b970ee5816e605bb059a60ee803ba3150b4542e05be45d2b0ee6c62f705bdc3b9c05b6862f105b805d2818bb804d60135416bb0135059bd18dd4637218dcc636f12dc816d11748c636a05ae83b7512dc43b7615084542317480636e02b61)
  (.lf 0))) (.nd (.nd (.lf
  0x6604582d065c419a9171541979065d4197d06674198d0668419c1066445c51066e419c9066c4d6ac0ee50d6e00ee103b680ee30d6d0026d03b1064f00d69c35b503b8064e816fb064f60d6980ec903b7064ec03b140ec703b4c4bd30d68c5beb14b104bd41681c64f2193a80edd03b540ede0d6b00ed403b08022f8d6a435a8008c20ec103b6c022e83b440ed603b20)
  (.lf 0)) (.nd (.lf
  0x6328817c2063081580631881b0411f1047820600819869eb104a0412b156d055b5081cc5e8d1048c6af7081c44124081506aef081685e8a1abb40638018dc2035018d86a011ad846b501ad446b5815ee8204b17a086b60080d040fd15ee440fe15ec855aa17a0c6b5704139104a44141105844149104d44159105a44151410010448202810404023f50438023d50428)
  (.lf 0)))

def aesPos97 : BTree :=
  .nd (.nd (.nd (.lf
  0x4c548985227001390be702ff416e142fa80bdc02f6c0be902fcc0bda0136904d9455fd04d54138d16e24135d04d64136104e04137104e1413a504dd45b8d04e7413ad04e543000327702fec0bf602ff83272001c80be01824032660c9d00bfc182245b6818258326502f940bf7182300be102f8c0bef12af0326216d9c522512aec593318248608802fe00bf202fe4)
  (.lf 0)) (.nd (.lf
  0x1b7c0f92401cb4f95801c94f94863cb0f95401c8553b054ed007291b8406e6817fe46e1c1b7906de01b8606e401b77036650d984579d0d944368917ff436590d954365d0d9f4366d0da0436a10d9c460010da6436a90da446e743e5c06e601b9306e6c3e58016141b7d18f403e4b0f9641b9918f245dd818f583e4a06e081b9418f301b7e06e001b8c12e303e4717758)
  (.lf 0))) (.nd (.nd (.lf
  0x638a0482438be12de838bd14d8c5362171d0638f02095082145779082e420a10824420b10830420a938c10e34811fd0e30000df4e33800dd4e330638b0e33400dc54d94536600379120504870174d4482011fa047e412070484811f802081081f4577d081b420a5174e42075081c420790826420890827420bd082345d3d082d420c5082b4487c38d404868121404874)
  (.lf 0)) (.nd (.lf
  0x43df01b9c2513194c043d310f842530194a45f3a194d843d209460252b194b0251409458252212f8c43cf17cdc567b12f905a11194cc652a094b02525094b443d90948c251101c6e43d410f58071c89440252901c6a252009490251701c66252e10f6043d50948425271684843e010f8c567e159fc253517cec43db194dc253310f702515194c4251b17ce4652f01b98)
  (.lf 0)))

def aesPos98 : BTree :=
  .nd (.nd (.nd (.lf
  0x69310268c5b131a4b8001d00070097d0006c5ad01a48c69221a490691e13374099416c28691a025f030f81337830f9146e851bb16c2c691d00e19038245a41038f40e25038540e35039140e2d30fc0c43409700c3ec00134c42000114c414691b0c4240010546f851bf0004909780263c16b4425ec096c025b4097a02614096b00e05038045a45037c40e2916b540df9)
  (.lf
  0x170005fa017b0d0c8018513854018491ef01eb70a72005fe017fc1b080a6c40574015d418f30a69005260149c1d6f0169a29c00173805cf06eb029b501630058d0747429be0170805c3084a4065e8197621380196006590197e1cf40a6f405bc016f417d40a67404fc013f41d460a6fc05c8017240cba0a60400e20038c012f85510298d01270049d06f5405568a6d8))
  (.nd (.lf
  0x19411afd819471760c6bf4014c0052f06488052e1aa006d881b5e06d771b5f058ce064e05d7b1b61419210f37458cd0f37858c6152185d7c1b5f80c3a430d90c3c431110c3e430e50c42431190c404f3803cf2064543ce10063d3cee006353cea1b6243ced00631548815224018e46474193305f4519200644819110647c1929064400c35430d10c2f430c10c3f45f49)
  (.lf 0))) (.nd (.nd (.lf
  0x374b002bd3758002b537571a06c3759002b1531014c3c00ae44018101d05cad100903fec0ffa04020101203fe4070241c05167141bf5070b45ca506ff41bf9070041c21070441c25071141c15172a41c3d071341c35375304080375f0406c101504078375c00e280fff1a080374e0dd6c101c1a0645c281a098374d0401010171a070100004008100f1327c374a17094)
  (.lf 0)) (.nd (.lf
  0x11af446ad11b3446dd11b1509a0427a08a704269009ed4276009e5427219a2c4275009e1561315850027a48a9022bb0620922a708a64229808a9822b008a5c11a744699163f4468911b04620d11a44468d11a5446b511a9446b911b6446a91884446d111b8446c9426f08af8427c08ae422b408af0427801a34229d19a40426b109e422ba19a245ee019a58426a08a88)
  (.lf 0)))

def aesPos99 : BTree :=
  .nd (.nd (.nd (.lf
  0x52791397c482b139a84e710200a4e621397407fd938344e1411e1447ba138184e0011de046a9138384e1a139284e560064a0800939204e531208046b0139104e55020064e3e1394801939205046b2006524e2f138e84e2d138d847d91227c4e70149e847e0149f04e29138dc07fe9387c4e33006564770122844e18138044e61149fc48e8149f8014f005380d6c00534)
  (.lf 0)) (.nd (.lf
  0xf1143c2d1e040ff101dff077e81e020fefc05df077906b860fecc3fc1078006b8b178c86b7e0fec81de9077ec6b8f077941de7077cc57cf0febc5e311553457cb1a8306b831ae281dfc077d81dfd0fee01df40778805bb8fed03fb5016f21de1077e405ba877c41df5077a005b9877f83fb70fed81df2077e06a0b0ff003fc3155405551078145e330feec6b7f0780c)
  (.lf 0))) (.nd (.nd (.lf
  0x98342615098d42625098e42659098a45de90994426610992452443a3c0523414860523c3a37011f4147118b803a2b0e8e0148c18b685ccf18b983a2a051d8148818b701472051d0148112d3c3a271733853c612d4059a318b8c62d9052241483052283a3005200146f00f8e3a2c0e8b403e4851b8148700f8a147e05208147500f86148b0e8bc3a2e051fc148516690)
  (.lf 0)) (.nd (.lf
  0x27ab17e5445431949c27a911510278b19484279117e4c651f01d00073f09dac073e1685065441950c6545194f84be509e085f8b194e8276a114744be61147856db15b705f8a194f414474510d161445141144a45119144e45149144c51480453209d78452100bbd452e00bb5452a194ec452d00bb156de15b7c02ee49d98277d06365276909d6c275a09da0277209d64)
  (.lf 0)))

def aesPos100 : BTree :=
  .nd (.nd (.nd (.lf
  0x58e41b6d86a8a1465058df1b6b858dc1b69858d61b6706a851464858d41b64c58d01b64058cc1b6186a7d1464058c91b5f458c51b5d8002f800ba6a7b000b6002c9b5b058bb1b5902f9e0be702f9a0be602f960be502f920be402f8e0be302f8a0be202f860be102f820be002f7e0bdf02f7a0bde02f760bdd02f720bdc0002b800aa2f6a000a600288bd902f620b9cc)
  (.lf
  0x6bbd15fa06bc315fac6bcb15fb851691a8746bd315fcc6bd915fd86be115fe4516b1a8886be915ff86bef160046bf716010516d1a89c6bff160242bcb0af342bcf021102bd20af502bd60af602bda0af702bde0af802be20af902be60afa02bea0afb02bee0afc02bf20afd02bf60afe02bfa0aff02bfe0b0002c020b0102c060b0202c0a0b0302c0e021142c110b04c))
  (.nd (.lf
  0x17bc4600417f305fc818000602817f102e410b8f42e290b8b42e6917bd42e350b8c42e390b9642e490b9842e810b9345ef90b9e42e890b9c4605c3c4c06048180d060543c470140417f71b65c3c3b0f12418131b6745d541b6383c3a05ff0180e1b68017f805fe818061635c3c371754c54581634c6a821b6586d9a0603c1809060403c400601c17f50124e3c3c0f0f4)
  (.lf 0))) (.nd (.nd (.lf
  0x2d300b5002d500b5802d700b6002d900b6802db00b7002dd00b7802df00b8002e100b8802e300b9002e500b9802e713fb449e4127e44986122fc50471262049da125f84fee13fec5022127cc4ffe127d849ee1262849c71409450341273049c513fdc4981127344fea140a049d1127885037127c050431402c48ca1280c5005124f05016140e8500c1233449d914064)
  (.lf 0)) (.nd (.lf
  0x11174444541c70866041d40864c218d0865841d00198c21771a00441c31073c219419fe45eb41a01841c2085f0218f19ff02178085ec21861326041bf17ad455e01325c5a9a1a01467f80864021890864441c90861c2175019ae41c510710066c885d0218e019aa218408620217a019a621921072041c608614218b16a6041d11074855e315790219917adc41ca1a01c)
  (.lf 0)))

def aesPos101 : BTree :=
  .nd (.nd (.nd (.lf
  0x16f14152905494152d05534153d055441571055045bc1055a4157905584335033440333c0cca03348333f003840cb4186c033330cd040cd0186a05b8b186d83332032e40ccb186b00cb5032e00cc412c10332f16e24524f12c0c596b186d461a9033300cc60333433370330c0cb2004ae33340ccd4012c832c40cc9004aa0cc1033140cb7004a60cce0cce0333603308)
  (.lf 0)) (.nd (.lf
  0x3f0e0734c1cd91671c3f180fc6c55221548c1ce6178243f1318e9c1ce40fc501cc718e841ccd17814639e016d005b3072a005b21a9606cd71b3206cc71b3345876072f85dfe1b3581ca70fbb458750fbb8586e1545c5e001b33c0e46439090e48439410e4a439150e4e439490e4c4fbc03f020726c3ef10079d3efe007953efa1b3643efd0079155191546801e64728c)
  (.lf 0))) (.nd (.nd (.lf
  0x3ab8e614398400eb2134b04d9003aa84d70136004d4403a984da439890e618135d04d8c59eb0e63c399214e5c539804dc05ca70e62c646704db8398c04d40646104d585ca21917404520114413310114069e41ab746adc1ab786ad515dc81347172706acf04cbc396515dc4396615ddc538d172746ad40234d08cf4235508dd4235d08d24236d08df4236539680e5e8)
  (.lf 0)) (.nd (.lf
  0x447900b4d448600b4544821996c448500b4156ad15ab802d2499002657063112643098d4263409908264c098cc13a144e81163944e7113aa46315139e44e75139f44e9d13a344ea113b044e9118c644eb913b244eb1447f09968448c09954265009960448701c44263919980447b112242656199645f6419998447a098f8265119970263a098f02648130c0447717d8c)
  (.lf 0)))

def aesPos102 : BTree :=
  .nd (.nd (.nd (.lf
  0xac102b0c0ad01343031ba16cf451f41342c5af01a75069c802b600ad102b6431c302b3c0abe0028a31c00c6fc00a382af40ad6002860acd02b480ac4002820ada0c70831c102b380ad416bbc31ca0c73451f6147dc0ae116cfc31c71a75c0adf0c7140ac21a7440ac716ce869ce0011c004602a8c004516b9c69a31a68869a51a6744cfe02ae45b341a6640aa10c680)
  (.lf
  0x36d0dc2449b400db8036f00dc0371800dc8506400aea49731418449af1270c03740dc58037d0dcb046fb00d4c02b380d78371300da0507200ae64937089e4228801a20068909854262401c30070d091c4248001b4006d107d78060687db406160185c22a308ac8068e01a3c2669099e0071801c64249b01c1a0705892a806d601b5c070787cd01f4301840061103c94))
  (.nd (.lf
  0x62fa176b863060f6881a63069d462fc0697c1a61069b44b580f67c5dad152ec4b57166a8630418be01a76069c01a770f6a01a6e06970050b8f6903da5014321a5b069cc050a869ac1a6f069880509869e03da70f6981a6c069c859a90f6c03db3152f854bf069fc5daf0f6ac6307069f43dac069806301069985dac18bf8055a015641a410156059ba18d94636318d90)
  (.lf 0))) (.nd (.nd (.lf
  0x380100cde032b943e837fb0dfd03800143ec5c4f0e068033892404510911c7450fe00c7e48ee1245037f8171485c4e0e058380b1714438091436050f100c7a03368208e5c500e00c37ff0dfdc510611c3c383200cf248f712438512d14460031d92458470c00f6849061247c03d914470490a0e0cc57520e0f003d70e0e457530e04c57540e02037fe0e038380514388)
  (.lf 0)) (.nd (.lf
  0x432c08fec240116994433710cec564d15938240f17c44433419bdc240d10cc823ef19bc423f517c3866ef01af006bb08f3c06ba169f8677519dd0677219db44c7108f985f0619da423ce10c344c7210c385641159085f0719dbc124d44925165a44959125044931125444961125250c40432208f08431100a5d431e00a55431a19dac431d00a51564415914029648f28)
  (.lf 0)))

def aesPos103 : BTree :=
  .nd (.nd (.nd (.lf
  0xdea0d360007f4d390007d4d384646b0d394007c54a68529b001f90df2038241706437d40de60379c0df4037f80de5017b905ed457ed05e9417dd1705417ad05ea417b105f4417c105f5417f505f145c1d05fb417fd05f94d37c0e0c0d3ac0e07038080e0a0d39c01fe037ac64700d36834e803820646816f2064760d3640df10380c646c037b00def037ec4bb30d358)
  (.lf 0)) (.nd (.lf
  0x673d03ea90fa6459510fb343eb50fa943ec50fb543ebd4059101a81f0310160022350198022150188673b101940220555f8557d008891f0b07c88184247c381f0007bfc1f0d07c5c1efe03e950fa4459550fa043eb9184043e890fa143e8d0fab43e9d0fac43ed10fa8461050fb243ed90fb0501841f25101b01f2007c6c1f23101a0060907c1067401016c406907c84)
  (.lf 0))) (.nd (.nd (.lf
  0x4aa6056c85cf6180e8159b0eb344aa50eb3853f514fd85cf7180f40a2d428a51574428d90a30428b10a34428e10a324eb403ae20563c3ad1004dd3ade004d53ada180ec3add004d153f814fe401364565c15ad05e3d159a05630158b0566415a3056280a284289d15754288d0a3145e410a25428910a26428b90a2a428bd0a37428ad1791428d50a39428cd15b00eb90)
  (.lf 0)) (.nd (.lf
  0x5fd917ef85fe61178828b30a3145fdc0a2bc28b10a2f44a901177c5fbd15c544a8f164485fe217f6028c60a30028c7117a028be0a2b007cb9179045e501f3228ab0a30c07ca8a2ec28bf0a2c807c98a32045e71179828bc0a3085914117c045f315c6057190a33c5fbf117ac5fe70a33445ec0a2c05fe10a2d85fbc17f7c076a01da4289101da059b218cd4633418ccc)
  (.lf 0)))

def aesPos104 : BTree :=
  .nd (.nd (.nd (.lf
  0x58601b2b86a4e145f0585b1b29858581b27858521b2486a49145e858501b228584c1b220584a1b2086a44145e058451b1e858421b1c8583c1b1986a3e145d800139b17858361b1642d400b4f82d3c0b4e82d380b4d82d340b4c82d300b4b82d2c0b4a82d280b4982d240b4882d200b4782d1c0b4682d180b4582d140b4482d100b4382d0c0b03c00128b4202d060b410)
  (.lf
  0x6b0d15e406b1315e4c6b1b15e5851591a7d46b2315e6c6b2915e786b3115e84515b1a7e86b3915e986b3f15ea46b4715eb0515d1a7fc6b4f15ec42a540a95c2a5a0a9742a600a98c2a66020f02a690a9b02a6f0a9c82a750a9e02a7b0a9f82a810aa102a870aa282a8d0aa402a930aa582a990aa702a9f0aa882aa50aaa02aab0aab82ab10aad02ab70aae82abd0ab00))
  (.nd (.lf
  0x175f013b06a2a1b0446c011b0006c06160481775174e06c0f05d783bd5160443bd616028543c174e86c0702cdd0b3342ce50b4142ced0b3642cfd0b4342cf53bd80efa817520ef6401634ef9801614ef886c120ef940160550f8543f00589175a05dc017b045d74174f05d38175c05d98174d02cc90b3142cb10b2d42cf117b142cbd0b2e42cc10b3842cd10b3a42d09)
  (.lf 0))) (.nd (.nd (.lf
  0x499212928499513dd44f8113ea84a3013e104a32129184994128284fac13eec4a0d128f84f7f1266049fd13dc44fb01264048d013ef84a5713f284f92128584a5413e304a4c13e7c4fc113e4c4a17128f44fa1126384a5813f6c4a1e13e8c4a501299c4a3b13f4c4a6613f644fdf129704fd713e204fa613f804f9b13f104fb913df04f7613e1c4fb113e584fa713f14)
  (.lf 0)) (.nd (.lf
  0x10af442ad166a442e110b2442b910b6442e910b45058441720833841600093d416d00935416c19fac416e0093155c915720024e4835820ed0618d20d90832c20ca0836020e20832410aa442a5166b4429510b34618910a74429910a8442c110ac442c510b9442b51861442dd10bb442d54168083c04174083ac20e5083b841700192c20cf19fc04163105c420ec19fa0)
  (.lf 0)))

def aesPos105 : BTree :=
  .nd (.nd (.nd (.lf
  0x5b801835832c5032240c9b183300c850321c0c9312b3032c216dfc524112b2c593f1834860c8032700c960327432cb032500c82003ea32c70cb2000fb832040c99003e60c91032540c88003e20c9e0cb2832c9032480c981650432d30cb585244149140ca516e0432ce1835c0ca30cb3c0c86183440c8c16df860cf0022400880319c0087164f460c41830c60c5182f8)
  (.lf 0)) (.nd (.lf
  0x3eb7016741c211b8143eab0fae41c3d1b8305df01b7f43eaa070981c381b8381c22070901c30164343ea7177b45506164286a9d1b8086e08070e41c33070e83eb0070c41c1f0158e3eac0fab40564870781c360158a1c2e070c81c25015861c3b0fabc3eae070bc1c351aa6c3eb80faec5509154281c42177c43eb31b7f81c400fad01c231b8181c29177bc6e0401670)
  (.lf 0))) (.nd (.nd (.lf
  0x87f42205088942215088b4224d088645d6d089142255088f44b1c393404b0812bd04b14392f010ec12a61ad1439230e4c412c31ad2c5c8e1acf0392204aac392704af86b4e04a9c12a904ad857ad0e47c5c8d14df057aa1a7f06b441ad2012bf04ae412c00e4a412b704a90038b8e490392600e3212a304af0038a84ad012b804aa8038984b0439280e49412b504aec)
  (.lf 0)) (.nd (.lf
  0x44401110c569a15a6c25dd17d4c443b19b9c25db110f025bd19b8425c317d4466df01bf806fd0967406fc169b8672319c88672419c784c5e096d05f4919c68259c110544c5d11058568e15a405f4819c74134a44d19165044d4d134d44d25135144d55134f51060442a09640441900b0d442600b05442219c6c442500b01569115a4802c24966025af062e1259b09634)
  (.lf 0)))

def aesPos106 : BTree :=
  .nd (.nd (.nd (.lf
  0x22428800a3605b050a23028540a14028880a2c0284c03dd40f71169b40f6103e645b0103da40f6503db40f8d03df40f9103ec40f8116c240fa903ee40fa10a390c5bc0a34028b80a370c5ac00300286469700c578316c028d4696816c9869760c5740a1f028c0696c028680a1c028a04cf40c5685b22147604cf316b7c69741a5a80a31028ac0a320c5900a290285c)
  (.lf
  0x25c009743541009780e91125284f500082646d20d4d8026113d34020b91d34026311eb8026400994353a008b8354811e7c4f4111d2c4749008bc023013cec023111d040232008cc023403a3c0266008d4357f125504f3511b3046d7008dc023813cc001fe91b40023a007fe023d0d52c3557008f8356612258023f11d10474f00900024213c80024311d184f2f00910))
  (.nd (.lf
  0x3d4d0067154a015284019e4670419d705f7519c4066d819b50670c19cd066d00c99432610c93432510ca345f790c96432550c974327d0c9b432850ca94327117df4329d0cab4329519da0f55019d50674019d80f53c0543066e86b180f50c3d51067586b1e176586b100f50819bf067446b21066ec19bd0672457970f4fc5d931527c57941a7c46b161ac7019d206730)
  (.lf 0))) (.nd (.nd (.lf
  0x37ae0deec10c41a1e85c401a21837ad042b410bf1a1f010a8042a810b6132e037aa170f45329132dc5ab01a21068780430010b90430437b4042dc10a500c0a37b00debc03038429010be00c0610b4042e010ab00c0210c20dec837b1042d410bb16ac437bc0def4532c14cb410c91710437b71a21c10c70ded410a91a20410af170f8687d00e8403a004224039f16aa8)
  (.lf 0)) (.nd (.lf
  0x42dc08d84235b08d9042d901a9423451a1c042cb10b5c23621a1a45ef71a1d442ca08d28235d1a1b0234608d202354132cc42c717be0562e132d05aaf1a1c8686a08d78235608d7c42d008d54234301b0e42cc10b3806c488d08235c01b0a235208d5c234901b06236010b3c42cd08d4c235916ab842d810b68562f158c4236717be442d31a1dc236510b5023471a1c4)
  (.lf 0)))

def aesPos107 : BTree :=
  .nd (.nd (.nd (.lf
  0x4ecb13b14473d11cfc4765006b2475715d3834b40d2c44a81006ae34bb0d26401d093b100db7007324ec60d22834840d1f0346714a284ed911da44ee313ba8080893b684ed60200e4e8713a3847f5122504e7e139e4476212a084e8613a4c4ec313b4401c38201a4ec113b3447b511cd44ebd13b38080793ae04eca00712486011cd801c593aa04eb313a9c4eb012030)
  (.lf 0)) (.nd (.lf
  0x5da87a541e9907a3005d987a884017100581e9607a705989100804023155ac556c07aa45e4b1006c625707a9c401c07a28625107a405e481893c05f6017d41e6b017d059ac18c50631318c54630d12d681e81179006309079a83ff512d643ff61557c556017908630f03d310f48457390f5543d3d0f4b43d4d0f5743d453ff8100281e5e0ffe4021350018021150008)
  (.lf 0))) (.nd (.nd (.lf
  0x3a900549415130100e3a8c0ea34040485448152a0100a152205498151901006152f0ea3c3a8e0548c1529165e03a970ea6c53e514f981536173a43a931881c15340ea50151718804151d1739461fd012500493053e00492166006223188906222188784b1e054385cdf1886814f70e9b44b1d0e9b853d914f6c5cde1887409d14273515b04276909d44274109d842771)
  (.lf 0)) (.nd (.lf
  0x458a1972c458d00bf156fa15bec02fe4a03828250639528110a00c28020a040281a0a004149e4527516274526514a746399149b45269149c4529114a04529514ad4528518e7452ad14af452a545870a0a045940a08c281e0a098458f01d4c2807197404583116442824197205fa61975845820a030281f1973028080a028281613030457f17e9456f91302c5a3019754)
  (.lf 0)))

def aesPos108 : BTree :=
  .nd (.nd (.nd (.lf
  0x30bc0242c68ec023d008f6024104cd30c2c85af91469c4cd416b1868f21a3a4090c02414090d0c2ec0903023c4004a8c2e030b70012e08f0024280049824040906023dc00488243830ba0c2e40902024205ac50c30c30c6146a051a9024545afd0c2fc68f70244c30bd023d468f1023ec5afa1a3bc00000000408c4000085ac21a38c68e21a39468dd1333808ec16bc8)
  (.lf
  0x5e8017e0923001560054824a8000d0003800568015e08f900136004c82400000700020004e8013e08ce0011600448232000040000c00468011e2e3c0b8f82e400229008a60b90808a8022a82e440b9182e480b9282e4c0b9382e500b9482e540b9582e580b9682e5c0b9782e600b9882e640b9982e680b9a82e6c0b9b82e700b9c82e750b9dc2e79022b008ae0b9ec))
  (.nd (.lf
  0x189c0627818aa12c903c97175a4547312c8c5983188c86228062cc18ad062d03ca0062ac1899012ce3c9c0f27404b48626018b0012ca18a8062b0189f012c618b50f27c3c9e062a418af166043ca80f2ac5476151dc18bc175b43ca3188dc18ba0f290189d188c418a3175ac622f014600517061f805161666462b518ac862b418ab44b41062505d6218aa4187d0f1f4)
  (.lf 0))) (.nd (.nd (.lf
  0x48b5142bc50aa11bf446f01231002b09231857560dca03725122d002af8dcbc370e00b5250a703f2c02d080b0650a90dbf836f90dbc436db14bf850bc126f050c71433c0820942fc50ba0206e506a141c049b0124d850631417849b3125c8506b141e050a8142d402c78207a50a5142c8497911bc850a2142c0081f9426c50ad00b22499f11bcc02c994230509514228)
  (.lf 0)) (.nd (.lf
  0x222201a26223a108a44226088b42233169e04230108c85600157f8224117b3c422c19d5c223f108ac222119d44222617b28674d019e8067908804067816a4067d419f4c67d519f3c4c8a088605ec719f282200108144c891081855f4157d85ec519f3811504453116664456511534453d11574456d115550820421a087d04209009ad4216009a5421219f2c4215009a1)
  (.lf 0)))

def aesPos109 : BTree :=
  .nd (.nd (.nd (.lf
  0x47ef121d44889136444d9e13718483913684483c12220489a121584dc81375c46a2122a84d9a11f8c47e6136344dcc11e20479313768487d1379c4dad121d84890136a048ba136e44ddd136c04879122a44dbc11e444882137e44831136fc48bb11f4c488e137bc488b137d44dfa122144df31368c4dc3137f44db8137804dd5136604d92136944dcd136c84dc213784)
  (.lf 0)) (.nd (.lf
  0xea643a890eaa43ab90ea84fd403f62074fc3f51007dd3f5e007d53f5a183ec3f5d007d15535154d801f64751c1d5d0607d1d4a074f01d3b075241d53074e80e9e43a75158d43a650ea7460810e9b43a690e9c43a910ea043a950ead43a85182143aad0eaf43aa51d600fd901d5b075581d5e0fd7c05c70750061000fd4c3f610757060fa1786861060fd481d450755c)
  (.lf 0))) (.nd (.nd (.lf
  0x39c514ea453a8172d063df024c1092c457a10939424cd092f424dd093b424d539c80e76c13cb0e724010b4e75801094e75063db0e754010854eac53ac0042913d304fa8177044f5813c804f1c13d504f8013c6024ad092a457a50926424d1176e424a10927424a50931424b50932424e9092e45dbd0938424f1093644fb439dc04fa413e204fac39d90119413cc18f80)
  (.lf 0)) (.nd (.lf
  0x44db113a426fe196e05f7c1971844da09b9826f9196f026e209b9026f01302044d717dec56c81301c5a2d1971465ba09be826f309bec44e109bc426df01dce44dc11378077489b7826f701dca26ee09bc826e501dc626fc1138044dd09bbc26f5168b844e8113ac56cb15b30270317df444e31971c27011139026e31970426e917de865be01ca0072709b0c0726168e0)
  (.lf 0)))

def aesPos110 : BTree :=
  .nd (.nd (.nd (.lf
  0xb66180c40b6c16d50602f0017c005e02d1c005d1647c60241808c6025180784a9e02d745b4c180680b460c8004a9d0c8045207148205b4d180740483411fd157041231048641209048a4123904884c80c321502ce83204000fd3211000f5320d1806c3210000f1520a1482c003e42d080b5805b550b4502cdc0b3602d100b4e02cd4047e411f51571411e5048745b59)
  (.lf
  0x5788801806268189629c9018b8062f0189e062887288057e815f629bb016c005b1015fe0580858440436810d62992012e804bb010de04388665c04e68139629a8014f8053f0139e04e884570034e80d36116201030040d00d3e03508670004ee813b629a9015100545013be04f0858e8043e810f629930130004c1010fe044084ab0038e80e3612b2010f0043d00e3e))
  (.nd (.lf
  0x54db06c8c5dc70f82c618706c843e0c06c10618106c285dc4185f40572015c41ae5015c059721879061e31879461de12c341afb176f461d906b903de512c383de61533854cf176f061df035010d3c456a10d494350d0d3f4351d0d4b435153de80f7e81ad80f7a401bb4f7d801b94f7c861db0f7d401b85534454d2006e91ae006bd817f246b8c1ad506b501ae206bb0)
  (.lf 0))) (.nd (.nd (.lf
  0x119a0e2041191045f803538e1f0387e00d52117d0465803528463811920461003518466c38800e1f4118f046546a910e220388b14d505355046885c650e20c6dd1046803884046086dd9046205c631b75c04100103c1163010386a521b3006cb11b2c06cb6161a81179171686cbf04584385d161a4385e16188534a171706cb701f0907be41f1107cc41f1907c141f29)
  (.lf 0)) (.nd (.lf
  0x12ae50dc04382091a8437100a9d437e00a95437a198ac437d00a9156601598402a6491c824890628d24750919c2466091d0247e0919412a444a8d163344a7d12ad4629112a144a8112a244aa912a644aad12b344a9d18a544ac512b544abd43770923043840921c248209228437f01b3c246b198c0437310e042488198a45f22198d84372091c02483198b0246c091b8)
  (.lf 0)))

def aesPos111 : BTree :=
  .nd (.nd (.nd (.lf
  0x4f5111d304f5c13d88080e93d504f4f00846080993c004f071237046c513bdc4ef211fac4a8513bfc4f0b13cf04f4a00852080c93ce84f471225c495113cdc4f46020364f3113d0c021591b3c49530085a4f2113cac4f1f13ca4474711f104f6314ad4494914ad84f1b13c9c080a93c444f240085e473a11ec44f0a13bcc4f5314adc479e14ae40215008500e750084c)
  (.lf 0)) (.nd (.lf
  0x100e44049100c502fc1fcd103301fc807f0c1fcb1031c062107eb064c0102ec40c907f2464b9179d064c6102e81fb107f1064bc07eb41faf07eec4bc8102dc5e73156604bc7167f864c2192e01fc507ef81fc6103041fbc07ea80613902f040be018521fa907f08061287ee41fbd07ec0061187f1c40c0102f41fba07f0059fd1032040cb1566c559c07f385e751030c)
  (.lf 0))) (.nd (.nd (.lf
  0xa8b42a290a8542a190a9545e710a8842a1d0a8942a450a8d42a4d0a9b42a39179d42a650a9d42a5d16540ed10164f0592816520ecfc04bf058d06b2f0eccc3b41059406b34174486b270ecc816390592c6b38058d416370590c57a30ecbc5d111503c57a01a7dc6b2b1accc164c05918164d0ece01644058c8043b8ecd03b35010f2163105924043a859041645058e0)
  (.lf 0)) (.nd (.lf
  0x57350a5cc5fd71192c69670a5c4464c0a55069610a5685fd31a574078201e04293501e005ae91a6d469b41a6cc69ad13408294b17f3069a90a4d0462513404462615ca0572917f3469ae05511154045a89154d4551d15434552d154f455254629118ec2928118a0031b518d80319518c869ab118d4031855cb8572b00c6929310a51818fc4a4cc29240a49429320a4f0)
  (.lf 0)))

def aesPos112 : BTree :=
  .nd (.nd (.nd (.lf
  0x575b1aa8469dc1453c575f1aaa057611aad457681aaf069e114544576a1ab0c576f1ab2c57731ab4869e61454c57751ab64577a1ab8400039ab8c69e81455457801aba857821abc42b0a0ac182b030ac002afd0abe82af70abd02af10abb82aeb0aba02ae50ab882adf0ab702ad90ab582ad30ab402acd0ab282ac70ab1000028ab042abe0aaec2ab80aad42ab20aabc)
  (.lf
  0x6ae215dec6ada15dd86ad315dd051521a7886acc15dc06ac415dac6abd15da451501a7746ab615d946aae15d806aa715d78514e1a7606aa015d68032e80ca6032a80a12027f8093a020f8084a020d8083a01c1806f601c080636014e8045a01138046202c380cb201bf80842025180a0a011480536018e81f3607e081f1a07c581f4207cf81efa07bd81f2207c781eda))
  (.nd (.lf
  0x3bc70ef18173805cf86a780ef3c3bd3150e8543b05d2c5d370ef2c6d6305d243bcc05cb06d6b05cc85d331b59c04e201384170d013805976187d461f3187c861ef12c481723174bc61ea05c303ba512c443ba6150bc5431174b061ee02c190b02456a90b0f42c250b0542c350b1142c2d3ba80eee817000eea4015b4eed801594eec861eb0eed40158550c8543300569)
  (.lf 0))) (.nd (.nd (.lf
  0x52d213f2c46d813f584fdd020524fcc13f2002528203e4f7813df84a2111b704f7013db0025392890498c13de44f8513ed84fc300956081293ecc4fc01286c4a4813ebc4fbf0204e4fa913ef00256928204a490095e4f9a13e904f9813e884a2d1294c4fdc14b404a3f14b444f9413e80081093e284f9d0096248d2129544f8313dac4fcd14b544a1314b580278009dc)
  (.lf 0)) (.nd (.lf
  0x20ad17a5068ae0191006430821c06421a7686ab11aac06ab21aaa8575d082785e8e1aa902086104b4575c104b85762156d85e8f1aaa41080441f11082442291084441fd1088442311086504c04142081e841310091d413e00915413a1aa94413d0091155b8156e402464820820990616d2085081dc207608210208e081d4107b441e91075441d91085461711078441dd)
  (.lf 0)))

def aesPos113 : BTree :=
  .nd (.nd (.nd (.lf
  0x50e41429050f4145d050b45ba505154146505134314832a7031340c480314032a2001f80c32182c032960ca900c4e182a45b74182d83295030dc0c49182b00c33030d40c4112b10329216dcc523312b0c5939182c860a8031280c440312c329b031080c30003aa32970ca6000eb830bc0c47003a60c3f0310c0c36003a20c4c0ca683299031000c46164ec32a30ca98)
  (.lf 0)) (.nd (.lf
  0xdc64563d0dc2437411805437110dc3437150dcd437250dce437590dca460190dd4437610dd246fbc3e8c06fa81be506fb43e87016441bcf184403e7b0fa241beb184205de4184583e7a06f501be6184301bd006f481bde12b6c3e771778c54f912b70594c18448610a06f9c1be106fa03e8006f7c1bcd0154e3e7c0f9f4055486f301be40154a1bdc06f801bd301546)
  (.lf 0))) (.nd (.nd (.lf
  0xe54e3e86db40e3f400e454dc45372003991259049c0175344970124e04934125b04998124c0214508504212d084c4216d175442139084d4213d08574214d085942185085445d55085f4218d085d449cc3904049b81269049c438ff010bc12521b6b038f30e404126f1b6cc5c821b69038f20495c38f7049a86db50494c12550498858e10e3bc5c7f14dc058de1aa1c)
  (.lf 0)) (.nd (.lf
  0x6778096002579096044409095dc256501cae440411018072c89590257d01caa2574095e0256b01ca62582110204405095d4257b16a0444101104c568c15a34258917d1c440b19e1c258711030256919e04256f17d10677f01bc806f10952406f016a1867a519e8c67a419e744c7d095805f3c19e64254810f944c7e10f98568015a045f3e19e7c131c44c61166044c95)
  (.lf 0)))

def aesPos114 : BTree :=
  .nd (.nd (.nd (.lf
  0x693f00ed103b045a5103bd40edd03b340eed03bf40ee5312b0c4f409c40c4b0001b4c4e000194c4dc693b0c4e400185473451ce0006909cc0278c16bc4273c09c10270009ce0276009bf00ebd03ae45a5503aa40ee116ba40eb103ab40eb503b540ec503b640ef903b245aed03bc40f0103ba4c4cc09e60c4fc09e10276c09e40c4f000240271469410c4b8313b02788)
  (.lf
  0x47fe1206401d10074c4ea600750480b13ad801d5007580db4036d401d70d23c46bb0076048071203801d9007684e98006ce480213a9401dd0077834720d1e001df0d20847d013a2c47f31201001e0036e801e10d25447630078801e30079034a5007984e7f006da47a9139f4476011db801e80d28c01f10d2e047f60071c01af80748349e007704e8d006d6489303598))
  (.nd (.lf
  0x5816152485d861b07c0c6c431a10c6e431d90c70431ad0c74431e10c724f4403d220659c3d110065d3d1e006553d1a1b0a43d1d006515494152540196465bc198505f5d1972065901963065c4197b065880c67431990c61431890c7145f610c644318d0c65431b50c69431bd0c77431a917d9431d50c79431cd19880f4901983065f819860f47c0537065a06c210f44c)
  (.lf 0))) (.nd (.nd (.lf
  0x73945cbd072d41cb1072e41cd9073241cdd073f41ccd173041cf5074141ced3783041d0378f041bc106a041c8378c00e5810531a140377e0de2c10701a1205c341a158377d04164106b1a1301054041581063132b0377a170c0531b132ac5aa91a1546849041b01065041b4378404188105100bca377f0de0402f384140106900bc6106004190105700bc2106e0de08)
  (.lf 0)) (.nd (.lf
  0x22ec08be8230408bac11d54475116074474111de4622511d24474511d34476d11d74477111e444761188a4478911e644781429f08c4842ac08c34230808c4042a701a6422f119340429b10aa4230e193245eec19358429a08bd823091933022f208bd0230012f30429717ba4562012f2c5a011935464c808c28230308c2c42a108c0422ef01ace429c10a7806b488bb8)
  (.lf 0)))

def aesPos115 : BTree :=
  .nd (.nd (.nd (.lf
  0x48131399047de12088482c138284e17138fc477e1386447811207c482911f284e41139444774123a44e1311a9c4776138144e4511f6c477c1395048a0139804e2612090489e138844828138c84e57138a848101239c4e3511f584830139c848e0138e048e4122c847d8139a048ad139b84e73120704e6c138784e3d139d84e31139644e4e138444e0b138744e46138ac)
  (.lf 0)) (.nd (.lf
  0x1e390791457e50ff7c5e3d1556857e11a8506bb11aedc1e4e079201e4f0ffa01e46078d005cb8ff903fe5017321e330792c05ca8790c1e47078e805c9879403fe70ff981e44079286a160ffc03ff315574555e0795c5e3f0ffac6bab079543fec078e06bb4078f85e3c1aec005ea017a41e19017a059d718fd063f518fc863ed12e481e2f178d063e9078603fc512e44)
  (.lf 0))) (.nd (.nd (.lf
  0x14df189685cdc189983a5a0532014da1897014c40531814d212cc03a571736c53d412cbc598c1898862580536c14d5053703a600534c14c100fce3a5c0e97403f48530014d800fca14d00535014c700fc614dd0e97c3a5e0534414d71662c3a680e9ac53d714f6014e4173743a631899c14e20e99014c51898414cb17360625d0122004870529804861667062c518b08)
  (.lf 0)) (.nd (.lf
  0x27be115344bd61153856e915ba85f96193f41475451c5160c451f91478451d1147c45201147a51540456209ec8455100bdd455e00bd5455a193ec455d00bd156ec15bb402f649ee827d10637d27bd09ebc27ae09ef027c609eb41470451bd160d451ad147946381146d451b1146e451d91472451dd147f451cd18e1451f51481451ed455709f50456409f3c27ca09f48)
  (.lf 0)))

def aesPos116 : BTree :=
  .nd (.nd (.nd (.lf
  0x58061afe86a25145b058021afc457ff1afa857fa1af946a21145a857f81af8057f51af6057f21af486a1c145a057ed1af2857ea1af0857e41aed86a171459857e21aeb8001b9aeb030570c15030520c138304b0c12030450c108303f0c0f030390c0d830330c0c4302e0c0a830270c09030210c078301b0c06030150c048300f0c03030090c01830030c000001a8bff4)
  (.lf
  0x6d75163106d7b1631c6d831632851911aa046d8b1633c6d91163486d991635451931aa186da1163686da7163746daf1638051951aa2c6db7163942fa2023002fa50bea02fab0beb82fb10bed02fb70bee82fbd0bf002fc30bf182fc90bf302fcf0bf482fd50bf602fdb0bf782fe10bf902fe70bfa82fed0bfc02ff30bfd82ff90bff02fff0230430020c01430080c02c))
  (.nd (.lf
  0xbce42f490bcc461a43c7c06190185f0619c3c7701434184918ec03c6b0f1e4186518ea45d6018ed83c6a06138186018eb0184a06130185812e103c671757c546512e0c59cb18ecc63a806184185b061883c700616418470128e3c6c0f1b404a486118185e0128a185606168184d0128618630f1bc3c6e0615c185d167283c780f1ec5468151a4186a175843c7318edc)
  (.lf 0))) (.nd (.nd (.lf
  0x36c103de436af0028d36bb0028536b819e2c36bc0028152f214bd000a243e040f9805c890f8403dd80f7503e0c0f8d03dd006bd41af1165f41ae106c645c8106ba41ae506bb41b0d06bf41b1106cc41b01172141b2906ce41b2136b603e6c36c203e580f9103e6436bf00c9c0f7a19e4036b10daf80f9719e205c1019e5436b003dfc0f9219e300f7b03df40f8a131f0)
  (.lf 0)) (.nd (.lf
  0x21da1327041ef17b0455ef1326c5a9c1a048680a0879021dc0879441f70876c21c9019ee41f4107d8067c8872021e2019ea21d80877421cf019e621e6107e441f50876421df16a7441ff1080c55f2157c021ed17b0c41fb1a05c21eb107f021cd1a04421d317b00680d019b8066d086b4066c16acc68931a24868941a2384cba087105eba1a22821ac107544cb910758)
  (.lf 0)))

def aesPos117 : BTree :=
  .nd (.nd (.nd (.lf
  0x489b137c44df701ff24de91379007f7936504d9c120fc485c136304d871210047e7136544da2137444dde0054607fa9373c4ddb123f0484f1372c4ddc01fee4dc5137640152921ac48520054e4db6137044db5136f8487e11f1c4df81497848ab1497c4daf136f407f8936984dba00552478611f204d9d136204de81498048371498800ec003ac0ce9003a8596c18714)
  (.lf 0)) (.nd (.lf
  0x5be1659861a41868c61a5186784afd074405e0b186681cf90fc744afe0fc785524154945e0a186740e75439c515a0439f90e78439d10e7c43a010e7a4fc803f32073b43f21007bd3f2e007b53f2a1866c3f2d007b15527154a001ee473d41d0b060651cf8073a81ce9073dc1d01073a00e70439bd15a1439ad0e79460690e6d439b10e6e439d90e72439dd0e7f439cd)
  (.lf 0))) (.nd (.nd (.lf
  0x640704f0839ba04e90640004ea85cae18ff4045e0117413850117059e41911064421910c643e12e98139b172a0643a04e0c399512e94399614e68539c172a4643d0240908fe457d1090b42415090142425090d4241d39980e6a813770e66401034e69401014e68c643b0e698010054e7c539e00409137f04e58176a44e08137304dd0138104e301372023f508fc457d5)
  (.lf 0)) (.nd (.lf
  0x13d84632d13cc44f2d13cd44f5513d144f5913de44f4918cc44f7113e044f6944af09ab844bc09aa426a409ab044b701c74268d1988044ab112e426aa198645f701989844aa09a4826a519870268e09a40269c1308044a717db456ba1307c5a4019894661809a98269f09a9c44b109a74268b01d8e44ac112b8076489a2826a301d8a269a09a78269101d8626a8112c0)
  (.lf 0)))

def aesPos118 : BTree :=
  .nd (.nd (.nd (.lf
  0xb27002c60b1f02c8c0b16002c20b2c0c7c831f102c800b261647431fb0c7f85205148180b3316d2c31f61805c0b310c7dc0b14180440b1a16d20600f0014c005202bd400511646460041800c600517ff84a9602c2c5b4017fe80af40c7404a950c74451f9147e85b4117ff4045541145156c41179045841151045c41181045a4c74c31e502ba031d4000dd31e1000d5)
  (.lf
  0x383b124405119123d8490800f5403d614458031a923ec03d800c6e03db0e01c381400f703823123ac03dd11c5c491300f7803e01441003e112414511300f8803e30447c112000f90381711c5003e512400472000f9803e7143d8032091c6c510200fa803eb0dfe8380200fb0380c123c050e811c98472300fb4112400fb8381d11c1403ef00fc003f10e0bc03f314374))
  (.nd (.lf
  0x1ac006ab8051b8f7503dd5014721aad06b14051a86af41ac106ad0051986b283dd70f7581abe06b1059840f7803de31533054cd06b445dbb0f76c624706b3c3ddc06ac8624106ae05db8188fc0566015941a9301590599718a9062a318a94629d12cf81aa9176c0629906a483db512cf43db61530054c1176c8629f034490d0e457010d1b434550d11434650d1d4345d)
  (.lf 0))) (.nd (.nd (.lf
  0x384b0e16411491ac1c5c581abe8384a044c4384f045106b0b044b4112f044f0578d0e11c5c5714d1457891a7b86aff1ac181145044fc11460e144113d044a803438e130384e00d121129045080342844e8113e044c003418451c38500e134113b0450469ed0e160385b14d205349045385c590e14c6afb045303854044b86b03044d05c561ac04032d80ca203b400ed4)
  (.lf 0)) (.nd (.lf
  0x66b519ad066b319ab44c41090e85f1219aa4242210cf44c4210cf8564f159405f1319abc127b449dd164244a11127e449e9128244a19128050d00435209058434100a7d434e00a75434a19aac434d00a7156521594c029e4907824350627524210904c241209080242a090441276449d51643449c5127f462791273449c91274449f11278449f51285449e5189f44a0d)
  (.lf 0)))

def aesPos119 : BTree :=
  .nd (.nd (.nd (.lf
  0x61741895170b418650618418690622418790623418ad061f45c310629418b506274d4400e600d46c0e5b039580e5e0d45c020a038fc64a00d428351803970649816f5064a60d4240e440395c649c039000e43039384bbf0d4185bd014a984bc0167e064a5192640e58039440e590d43c0e4f038f401ee8d42c350c007be0e3c0395401ed839300e500390801ec83968)
  (.lf 0)) (.nd (.lf
  0x1f5f07dd8184647d881f5407d4c1f6107dac1f5203f4d0fd2458a50fce43f71184743f410fcf43f450fd943f550fda43f890fd6461210fe043f910fde5023c1f79102701f7407dbc1f771025c061507d6065e01022c409907dd465da179a065e6102281f5d07dc065dc07d641f5b07d9c4c101021c5e67156284c0f168d065e2197601f7107da81f72102441f6807d58)
  (.lf 0))) (.nd (.nd (.lf
  0x3b12057843b01004fd3b0e004f53b0a1af9c3b0d004f1540415014013e457a415ff05e5515ec0577815dd057ac15f5057700a59429610a53429510a6345e590a56429550a574297d0a5b429850a694297117974299d0a6b4299516020ec5015fd057e016000ec3c04b3057886bde0ec0c3b11057f86be3174186bd60ec0815e7057e46be80578c15e5057c457fc0ebfc)
  (.lf 0)) (.nd (.lf
  0x29100a3f807db91850461501f7228fd0a45407da8a43429110a41007d98a468461711858290e0a450591711880462315c9857270a4845fcb1186c5ff70a47c461c0a4085ff10a4205fc817fbc077601dd428e301dd05aec1a71469c21a71069bd1341428f917f0469b80a38845f61341845f515c68571c17f0069bf05459151245a91151f4546515154547515214546d)
  (.lf 0)))

def aesPos120 : BTree :=
  .nd (.nd (.nd (.lf
  0x57ae1ad2869fb1457057ab1ad0457a71acf857a21acc869f614568579f1aca8579c1ac90579a1ac8869f41456057951ac6857921ac48578f1ac30000b94558578a1ac1057871abf02df90b7d82df30b7c02ded0b7a82de70b7902de10b7782ddb0b7602dd50b7482dcf0b7302dc90b7182dc30b7002dbd0b6e82db70b6d02db10b6b8000a8b6ac2da80b6942da20b67c)
  (.lf
  0x6c6d161006c731610c6c7b1611851791a9146c831612c6c89161386c9116144517b1a9286c99161586c9f161646ca716170517d1a93c6caf161842d440b51c2d4a0b5342d50021302d530b5582d590b5702d5f0b5882d650b5a02d6b0b5b82d710b5d02d770b5e82d7d0b6002d830b6182d890b6302d8f0b6482d950b6602d9b0b6782da10b6902da70b6a82dad02134))
  (.nd (.lf
  0xb6f42da50b6542db50b7142dad3c080f06817a40f024016b4f05801694f048620b0f054016855130544d005a917ac05f0817b645ebc17a105e8017ae05ee0179f02d850b60456bd0b5c42da917b742d790b5d42d7d0b6742d8d0b6842dc10b6445ee10b6e42dc90b6c45f143c1c05f0017bb05f0c3c17013d417a5188403c0b0f06417c1188245d48188583c0a05ea8)
  (.lf 0))) (.nd (.nd (.lf
  0x295927b45036140c049421251049e7009be49ea15d0c368b0da2049ef009ba36900d9c00293940bc0f4600a3e50310d98c365c0d94c363e14b88504412320504e14154081a941185041020564ff213fe449fb124fc4fe913f9449e512a244ff113ffc502e140f0028682062502c140e049db125185029140e408199408c503500a1e48c0124e002889404c501e14044)
  (.lf 0)) (.nd (.lf
  0x21410619d212d0847c211e084b021360847410d84435d158b4434d10e1461a110d54435110d64437910da4437d10e74436d18694439510e94438d41970851041a4084fc213a0850841a00195c2123183c04193106842140183a45eaa183d84192084a0213b183b0212408498213212b50418f17a9c55d212b4c5947183d460e8084f02135084f44199084cc21210196e)
  (.lf 0)))

def aesPos121 : BTree :=
  .nd (.nd (.nd (.lf
  0x32e613434465a0041a3324134ac46910cba84690119644d1d0028832f31196c0cac1349801118cbc800a00cbd846790cb6033230cbc032ef0cb9c4d1000402332a11a6447990cc74009d0cc644d6b0cc1832f1129e801028ccb04d8511e6832df135e44d720cc545246135f4479d14924332b0025c466a129e046781199833000046a4d770cc3c331a002503308129b0)
  (.lf 0)) (.nd (.lf
  0x6a4b1b28c6ca80722c1c85072303ee00720c1c71015ce3edc0fb740574871c01c88015ca1c80072101c77015c61c8d0fb7c3ede072041c871a9343ee80fbac5515154581c94177f43ee31b2741c920fb901c751b2941c7b177e86ca1016a005a70715805a61a8686bcf1aef86bbf1af1057f0071b05df31af341c550faf457f10faf857e91542c5df21af180e1443841)
  (.lf 0))) (.nd (.nd (.lf
  0x5c9a1ada0395204bfc395704c486b7a04bec12fd04c2857c30e53c5c9714e2057c11a8186b6e1add0131304c3413140e564130b04be0039b8e550395600e7212f704c40039a84c20130c04bf8039984c5439580e554130904c3c6a050e580396314e2c538c04c705c9b0e56c6b6904c68395c04bf06b7204c085c991adc004460111412dd011106a111ae906b931ae50)
  (.lf 0)) (.nd (.lf
  0x4c46098205f5619ae825f0111144c4511118569c15a745f5419af4137844dd1164444e05137b44ddd137f44e0d137d51120445a09790444900b2d445600b25445219aec445500b21569f15a8002ca497b02603062f925ef0978425e0097b825f80977c137344dc9164544db9137c462fd137044dbd137144de5137544de9138244dd918c044e01138444df9444f09818)
  (.lf 0)))

def aesPos122 : BTree :=
  .nd (.nd (.nd (.lf
  0x16c641061041c410590a8d0c67c0a8802a0c0a8b0c670003c029b069900c638319b02a24698816cc869960c6340a720c6500a841a6300a6d029bc0a7d133ec318a16cbc51e6133f05ae41a64c698902a140a7f02a183193029f00a6a0024a318f0c6400093829a40a82002460a7a029f80a70002420a870c6483191029ec0a8116b8c319a0c67851e91479c0a8e16ccc)
  (.lf
  0xed9009b8026f008ce271109c80073001cc428610a1c0076001d8427b909f20074801d2424c50935006dc01b74070f87e201f9701870061d03bd0023a83c0c0274009d426e709bd8072a01cac0777893bc071681c5624fe01b8806e309e3c279e01d08074313f6002bb11b803618009264fd200af44a1200af84a5100afc02c00d77802c103c584a4013f24024a92874))
  (.nd (.lf
  0xcc6433390cca4333d0cd74332d17e5433550cd94334d1a2c0f6101a27068881a2a0f600054f0683063c00f5cc3d81068a063b91768863c60f5c81a110688c63bc068341a0f0686c4b880f5bc5da0152b04b871673863c418ee01a24068781a250f5e01a1c0682804fb8f5d03d75013f21a090688404fa868641a1d0684004f9868983d770f5d81a1a0688059cd0f5fc)
  (.lf 0))) (.nd (.nd (.lf
  0x37e40442810f900c4a37df0df840313843e0111200c4611080443010ff00c4211160df8837e004424110f16afc37ec0dfb4533a14ce0111d1713437e71a35c111b0df9810fd1a34411031712468cd00eb403ac0437403ab16af868c41a31468c21a2f84cc6043d05c451a2e810dc0df004cc50df04532e14cc05c441a2f4077a41dd9168441e0d077d41de5078141e15)
  (.lf 0)) (.nd (.lf
  0x563c132105a8b19ecc67aa08ec823aa08ecc42ff08ea4239701b4e42fd10bf006d488e5823b001b4a23a608eac239d01b4623b410c0042fe08e9c23ad16a28430910c285640158fc23bb17c14430419edc23b910c0c239b19ec423a117c0467ae01ac006af08dec06ae16a8468341a0cc68321a0bc4ca208e485efc1a0a8237a10b744ca110b785633158d05efa1a0b4)
  (.lf 0)))

def aesPos123 : BTree :=
  .nd (.nd (.nd (.lf
  0x1ad006b801af006c001b1006c801b3006d001b5006d801b7006e001b9006e801bb006f001bd006f84e811224848a71217c487213b704a7111d6c4a6113a0c4e9013adc476c13a50475f11d644a5e122944eba13b2447f1121244e8c11ee047f413a004ebe1200c47ff13b30480a13b604e9f121b4480813a68484213ab04ecf13a884870121204eaf1203c476413ba4)
  (.lf 0)) (.nd (.lf
  0x6c4e07b885e551b1300602018041ebd01800596f1875461d21874c61cd12c241ed31793461c907af0402512c284026155b4556e1793061cf03de90f76456990f8343df50f7943e050f8543dfd4028100e81eb0100a4021b500d80219500c861cb100d40218555c05571008691eb807b38183a47aec1ead07ab01eba07b101eab03dd50f744569d0f7043df9183b43dc9)
  (.lf 0))) (.nd (.nd (.lf
  0x53f314fd01588173d43ac31821c15860eb10156918204156f173c8607f01280049f05528049e1656861651858861631857c4aee055805ced1856815490ea744aed0ea7853e714fa45cea1857809ff427ed1598428210a02427f90a06428290a044ea803ab2054f43aa1004bd3aae004b53aaa1856c3aad004b153ea14fac012e45514155b05e251548054e815390551c)
  (.lf 0)) (.nd (.lf
  0x14ca4534914ce4534d14db4533d18ed4536514dd4535d45b70a1f045c40a1dc28720a1e845bf01d7c285b1954045b3117042878195245fb21955845b20a180287319530285c0a178286a12fb045af17ebc570712fac5a191954865480a1d0286d0a1d445b90a1ac285901eee45b4116d807bc8a160287101eea28680a1b0285f01ee62876116e045b50a1a4286f16860)
  (.lf 0)))

def aesPos124 : BTree :=
  .nd (.nd (.nd (.lf
  0x9440257400598255409590252800588258830ea0c3a40956025705acc0c3d030f5146dc51b6025a45b090c3b869170259c30ef0252469110253c5b041a43800110004009290003c5aca1a41869021a41068fd13354094016bf868f8024a030c81335830c9146b451ac16c0068ff00d61035445a31036140d6d035740d7d036340d7530cc0c374091c0c32c000b4c360)
  (.lf
  0x80003ba0b940a5e80067001a00b18002d6297800154005603184297f002140086003da0bbd0035600d48a5ec006d001b80b410a5e4005b001704d7b002784a790cb78011c935d4009c11e3c009b11a6c009a00264330e002600ca811a744d6c0046e47980cc700095135a40119929b40093119b00092002443316003203307119b44d5d11e9047a20031c00c61355c))
  (.nd (.lf
  0x19020130a18fa063f818f10130619070f33c3cce063ec1901165483cd80f36c548415214190e175e43cd3184dc190c0f35018ef184c418f5175d8612e014900523063400522165746175185d06172185b44af1063985d6e185a018cf0f2b44af20f2b85478151e45d6f185bc0c0b4301d159a430510c0e430290c12430590c104f2c03cc20630c3cb10061d3cbe00615)
  (.lf 0))) (.nd (.nd (.lf
  0x33800ce4033a00cec033c00cf4033e00cfc034000d04034200d0c034400d14034600d1c034800d24034a1419449b5126c849a01267050c0123cc48b6126fc5067141cc509d127085076126b848b3126f449311427850ae11be049a7141c4497c125c4506214284497611bb050b1128e050bd1420c49ac128d4507f126e85091142d050861266849a514250497412308)
  (.lf 0)) (.nd (.lf
  0x685089540684169ac671419c48671319c384c5a089b05ed119c282254108d44c59108d85602158105ed019c34117e445e9164e4461d1181445f51185446251183508e0424a089204239009cd4246009c5424219c2c4245009c15605158180272489402267061f1225308914224408948225c0890c1179445e1164f445d11182461f51176445d51177445fd117b44601)
  (.lf 0)))

def aesPos125 : BTree :=
  .nd (.nd (.nd (.lf
  0x59b45bed058f4163905904166105944166505a14165516fa4167d05a3416750d570cf840d52035300d550cf700144034dc62900cf4033de0354c628a16e9062960cf3c0d3c03538628c034e00d3a035184b3b0cf305ba3149b44b3c16654629318a200d4f035200d500cf540d47034d4016c8cf4433d2005b60d3403534016b835100d49034ec016a8354433d40cf4c)
  (.lf 0)) (.nd (.lf
  0x1d9c076381d8d0766c1da5076300ecd43b310ec743b210ed7460990eca43b250ecb43b4d0ecf43b550edd43b41182743b6d0edf43b651db20fe501dad076a01db00fe3c05d3076486def0fe0c3f91076b86df5178986de60fe081d97076a46df80764c1d950768459030fdfc5e251550458ff1aa586ded1b7c81daa076901dab0fe201da20764005ab8fe103f85016b2)
  (.lf 0))) (.nd (.nd (.lf
  0x633b0e814011054ee453ba004491426050f01774450a4141b050681428050c814190256509584575509544258917754255909554255d095f4256d0960425a1095c45dd90966425a90964450fc3a0c050e81435050f43a07011c4141f18d0039fb0e824143b18ce85cc418d1839fa05090143618cf0142005088142e12da039f71730c53b812d9c59b618d106338050dc)
  (.lf 0)) (.nd (.lf
  0x451109d14273301e0e450c11438078489cc8274b01e0a274209d18273901e06275011440450d09d0c27491688445181146c56d915b68275717e2445131961c275511450273719604273d17e18657d01cd0073309c5c0732168a065a41969465a3196784bfe09cb85f7f196682716113b44bfd113b856cd15b385f8019674141945055162045089141c45061142045091)
  (.lf 0)))

def aesPos126 : BTree :=
  .nd (.nd (.nd (.lf
  0x521616d64605d012c504ad455e104ba412d104b0412e104bc412d932330c9140b8d0c8d000474c90400454c8f4605b0c9000044548605219001190b9502eac16db42e600b8a02e240b9702e840b88012b104ab455e504a7412d516dc412a504a8412a904b2412b904b3412ed04af45b7504b9412f504b742eb8324702ea40ba402eb03242001980b8e1818032360c910)
  (.lf
  0x87e021fc08800220408820220c08840221408860221c088801e70079b02224079a01e64088a0222c088c02234088e0223c08900224408920224c08940225408960225c089802264089a0226c089c02274089e0227c08a00228408a201e40078f01e38078d01e30078b01e28078901ec007af01eb807ad01eb007ab01ea807a901e9007a301e8807a101e80079f01e78))
  (.nd (.lf
  0x1b4d17720611906cd83e1512b783e161537054dd17728611f035b90d6a456410d77435c50d6d435d50d79435cd3e180f8a81b2a0f86401c34f89801c14f888611b0f89401c05537c54e0007091b3206d2017f846cd41b2706c981b3406cf81b25035a50d68456450d64435c917f9435990d654359d0d6f435ad0d70435e10d6c45fe90d76435e90d7446d2c3e2c06d18)
  (.lf 0))) (.nd (.nd (.lf
  0x5361047d85c710e2cc6d0b047d038b4047586d14047705c6e1b440041c0106c11b6010686a6c1b4c06d201b4786d241628811cd1719c6d2c046d4388d16284388e162685356171a06d2601fd107f041fd907fe41fe107f341ff1080041fe938900e28811a90e24400d74e27800d54e2686d310e27400d454d6053590035911b1047201747446d011a60469411b3046f4)
  (.lf 0)) (.nd (.lf
  0x12d244b45162344b3512db462a912cf44b3912d044b6112d444b6512e144b5518ab44b7d12e344b7543a70938043b40936c24d60937843af01b6c24bf196c043a310ec424dc196a45f2e196d843a20931024d7196b024c00930824ce1300c439f17cb4566d130105a2a196cc65aa0936024d10936443a90933c24bd01c2e43a410e98070c892f024d501c2a24cc09340)
  (.lf 0)))

def aesPos127 : BTree :=
  .nd (.nd (.nd (.lf
  0x47ad1254847a013bf04f0813cc847f713c3047fa1254047b01235c4f3313d0848db125204f0511b2448dd13be04f3611ce4473813d1447b313d484f1911b5847c513c4c495713c984f4813c6846cb1251c4f2811d08496013d9047aa13ca8495911f00475113d6847bf13d804f651258c4f5e13c384f2d13da44f2213d304f4013c0c4efd13c3c4f3813c744f2e13d2c)
  (.lf 0)) (.nd (.lf
  0x20030803c583d1039c5e7d15694583a1a8f06c611b19c2018080482019103c0201007ff80623903b040ed018921ffd0805406228803420110801006218806840ef103b8200e080506a3d103e040fb156a055a9080845e81103cc6c5c0807c40f4080086c64080205e7f1b188062c018ac1fe2018a8599018a14628218a0c627f12cd81ff9179e4627a07f8440cd12cd4)
  (.lf 0))) (.nd (.nd (.lf
  0x16a40edbc04cb05a1864300ed8c3b7105a8864291747864360ed88168b05a74642c05a1c168905a544ba40ed7c5d1b150704ba31678c6432190a0169e05a60169f0eda0169605a10044b8ed903b6501132168305a6c044a85a4c169705a28044985a803b670ed98169405a6859e20edc03b7315078541f05a9c5d1f0edac643705a943b6c05a20643105a385d1d190bc)
  (.lf 0)) (.nd (.lf
  0xfc803b200f7803d600f48039600e4803be00ed8037600dc8039e00e68035e00d68037e00de8033e00ce8033600cc8031e00c68031600c4802fe00be802f600bc802b200b7802da00b4802be00ae802b64649118c446191180045e91174441211042440f1100c44019100043fe90ff443fb90fe843f890fdc43f590fd043f290fc443ef90fb843ec90fac43e990fa04)
  (.lf 0)))

/-- Class and place of the gate which drives a wire: 18 bits each, 64 per leaf. -/
def aesPos : BTree :=
  .nd (.nd (.nd (.nd (.nd (.nd (.nd (aesPos0) (aesPos1)) (.nd (aesPos2) (aesPos3))) (.nd (.nd (aesPos4) (aesPos5)) (.nd (aesPos6) (aesPos7)))) (.nd (.nd (.nd
  (aesPos8) (aesPos9)) (.nd (aesPos10) (aesPos11))) (.nd (.nd (aesPos12) (aesPos13)) (.nd (aesPos14) (aesPos15))))) (.nd (.nd (.nd (.nd (aesPos16) (aesPos17))
  (.nd (aesPos18) (aesPos19))) (.nd (.nd (aesPos20) (aesPos21)) (.nd (aesPos22) (aesPos23)))) (.nd (.nd (.nd (aesPos24) (aesPos25)) (.nd (aesPos26) (aesPos27)))
  (.nd (.nd (aesPos28) (aesPos29)) (.nd (aesPos30) (aesPos31)))))) (.nd (.nd (.nd (.nd (.nd (aesPos32) (aesPos33)) (.nd (aesPos34) (aesPos35))) (.nd (.nd
  (aesPos36) (aesPos37)) (.nd (aesPos38) (aesPos39)))) (.nd (.nd (.nd (aesPos40) (aesPos41)) (.nd (aesPos42) (aesPos43))) (.nd (.nd (aesPos44) (aesPos45)) (.nd
  (aesPos46) (aesPos47))))) (.nd (.nd (.nd (.nd (aesPos48) (aesPos49)) (.nd (aesPos50) (aesPos51))) (.nd (.nd (aesPos52) (aesPos53)) (.nd (aesPos54) (aesPos55))))
  (.nd (.nd (.nd (aesPos56) (aesPos57)) (.nd (aesPos58) (aesPos59))) (.nd (.nd (aesPos60) (aesPos61)) (.nd (aesPos62) (aesPos63))))))) (.nd (.nd (.nd (.nd (.nd
  (.nd (aesPos64) (aesPos65)) (.nd (aesPos66) (aesPos67))) (.nd (.nd (aesPos68) (aesPos69)) (.nd (aesPos70) (aesPos71)))) (.nd (.nd (.nd (aesPos72) (aesPos73))
  (.nd (aesPos74) (aesPos75))) (.nd (.nd (aesPos76) (aesPos77)) (.nd (aesPos78) (aesPos79))))) (.nd (.nd (.nd (.nd (aesPos80) (aesPos81)) (.nd (aesPos82)
  (aesPos83))) (.nd (.nd (aesPos84) (aesPos85)) (.nd (aesPos86) (aesPos87)))) (.nd (.nd (.nd (aesPos88) (aesPos89)) (.nd (aesPos90) (aesPos91))) (.nd (.nd
  (aesPos92) (aesPos93)) (.nd (aesPos94) (aesPos95)))))) (.nd (.nd (.nd (.nd (.nd (aesPos96) (aesPos97)) (.nd (aesPos98) (aesPos99))) (.nd (.nd (aesPos100)
  (aesPos101)) (.nd (aesPos102) (aesPos103)))) (.nd (.nd (.nd (aesPos104) (aesPos105)) (.nd (aesPos106) (aesPos107))) (.nd (.nd (aesPos108) (aesPos109)) (.nd
  (aesPos110) (aesPos111))))) (.nd (.nd (.nd (.nd (aesPos112) (aesPos113)) (.nd (aesPos114) (aesPos115))) (.nd (.nd (aesPos116) (aesPos117)) (.nd (aesPos118)
  (aesPos119)))) (.nd (.nd (.nd (aesPos120) (aesPos121)) (.nd (aesPos122) (aesPos123))) (.nd (.nd (aesPos124) (aesPos125)) (.nd (aesPos126) (aesPos127)))))))

def aesLeakTree0 : BTree :=
  .nd (.nd (.nd (.lf
  0x63e0063dd0063fc063f90063f8063f50063f8063f50063e0063dd01b8301b82801b8301b828000000000000063fc063f90063f8063f5000000000000000000000000000000000000000000000000000000000000000000)
  (.lf
  0x6254062510063e0063dd00632c06329006278062750063ec063e90063380633500627c062790063e4063e100632c0632900626c062690063c8063c5006308063050062480624500638c063890062cc062c901b8041b800))
  (.nd (.lf
  0x1b7741b7700063f8063f50063e0063dd0063c8063c50063a4063a10063740637100634406341006308063050063e0063dd00638c06389006338063350063e4063e1006378063750063080630500638c0638901b8041b800)
  (.lf 0x630806305))) (.nd (.nd (.lf
  0x63e4063e10063ec063e90063e0063dd0063b4063b1006374063710063c8063c50063f8063f501b8041b8000063f8063f50063c8063c501b7f81b7f40063980639500638c063890063e4063e100638c0638901b8041b800)
  (.lf
  0x6278062750061e8061e500615806155006374063710062e4062e100624c062490061b8061b50063c8063c500632c0632900629406291006200061fd0063f8063f500635c063590062c0062bd0062240622101b8041b800))
  (.nd (.lf
  0x62e4062e10063b4063b10062cc062c9006398063950062a8062a50063680636500627806275006324063210063cc063c90062d8062d50063740637101b71c1b7180063080630500638c063890062880628500630806305)
  (.lf 0)))

def aesLeakTree1 : BTree :=
  .nd (.nd (.nd (.lf
  0x63cc063c90063e0063dd0063b4063b10063c8063c501b8081b8040063f8063f5000000000000063c8063c50063ec063e90063b4063b10063c8063c501b8041b8000063c8063c50063e0063dd0063e4063e100000000000)
  (.lf
  0x6368063650062c4062c1006224062210063f8063f50063500634d0062ac062a900620c062090063c8063c50063200631d006278062750061d0061cd006374063710062cc062c900621c062190063b4063b100630806305))
  (.nd (.lf
  0x6378063750063e4063e10062d8062d50063380633500638c063890063e0063dd0062c0062bd0063080630500634406341006374063710063a4063a10063c8063c50063e0063dd0063f8063f501b7301b72c01b8041b800)
  (.lf 0))) (.nd (.nd (.lf
  0x6374063710063cc063c90063240632100636806365006398063950063b4063b10063c8063c50063c8063c50063b4063b100639806395006368063650063f8063f50063a4063a101b7e01b7dc00638c063890063c8063c5)
  (.lf
  0x628406281006200061fd00617c061790063e4063e100635c063590062d8062d500624c062490061c4061c10061400613d00638c06389006300062fd006278062750061e8061e500615c061590063980639500630806305))
  (.nd (.lf
  0x633c06339006278062750063a4063a10062d8062d50063f8063f50063240632100625406251006368063650062900628d006398063950062c0062bd0063b4063b10062d8062d50063c8063c50062e4062e10063c8063c5)
  (.lf 0)))

/-- Class, input and places of two gates of a last block which read the same wire, by packing parameter: 44 bits each, 16 per leaf. -/
def aesLeakTree : BTree :=
  .nd (aesLeakTree0) (aesLeakTree1)

end Verif.Data

namespace Verif

open Data

/-- The certificate for the order of the gates. -/
noncomputable def aesSort : SortCert where
  xor := ⟨0, 2, 28176, fun j => aesXorReads.get 18 64 j, fun w => aesXorFan.get 4 256 w, fun r => aesXorOrder.get 18 64 r⟩
  and := ⟨1, 2, 6400, fun j => aesAndReads.get 18 64 j, fun w => aesAndFan.get 4 256 w, fun r => aesAndOrder.get 18 64 r⟩
  inv := ⟨2, 1, 2087, fun j => aesInvReads.get 18 64 j, fun w => aesInvFan.get 4 256 w, fun r => aesInvOrder.get 18 64 r⟩
  pos w := aesPos.get 18 64 w

/-- Class, input and places of two gates which read the same wire. -/
noncomputable def aesLeak (l : Nat) : Nat := aesLeakTree.get 44 16 l

end Verif
