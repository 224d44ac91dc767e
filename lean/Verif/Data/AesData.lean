import Verif.Cut

/-!
# Gates of `data/circ/aes_128.txt` and a certificate for them

Generated by `tools/gen_circuits.py`.
-/

namespace Verif.Data

def aesGateTree0 : BTree :=
  .nd (.nd (.nd (.lf
  0x20894003f002fc20890003e002f82088c003d002f420888003c002f020884003b002ec20880003a002e82087c0039002e4208780038002e0208740037002dc208700036002d82086c0035002d4208680034002d0208640033002cc208600032002c82085c0031002c4208580030002c020854002f002bc20850002e002b82084c002d002b420848002c002b020844002b002ac20840002a002a82083c0029002a4208380028002a02083400270029c208300026002982082c002500294208280024002902082400230028c208200022002882081c0021002842081800200028020814001f0027c20810001e002782080c001d0027420808001c0027020804001b0026c20800001a00268207fc001900264207f8001800260207f400170025c207f0001600258207ec001500254207e8001400250207e400130024c207e0001200248207dc001100244207d8001000240207d4000f0023c207d0000e00238207cc000d00234207c8000c00230207c4000b0022c207c0000a00228207bc000900224207b8000800220207b400070021c207b0000600218207ac000500214207a8000400210207a400030020c207a00002002082079c00010020420798000000200)
  (.lf
  0x1966865c1196911964465c319691196906551195d8204cc000019742204c800001973e1973c65651959019594656619584197406569195a0195a4656619618195986585195a8195a8658e196581963865c4196850b2e481380b620204e000001973619734655f195781957c655c196301957065861958019580658d19584195840000195de195dc65931963c1964c65c0196811957800001958a19588658a196541962865c91968119680654e1952c1958c659519650195386547195b019614658c1962c1962c65cc196711955c657f196541956800001957619574657f19640195fc6589196501959000001959e1959c6597196501965065bd196711967065481951c1951c654f195d8195606597196581965865be196ad195a0658f196601953c65ba196881962465981965c1965c65c81968519684657b195e41966065bc196791963c65cb1967919678654a195e4195e46583196881965465bf1967d1963065ca1967d1967c654c1952c195306549219141963465c5196ad1952065492190c195246571195341953465b8196b01968865a3196ad196ac6580196b019528657a196b0196b065ad196bd196bc657b1960c19618659b196641966c65c219675))
  (.nd (.lf
  0x68bc1a9106a400692c1a4906a4406a441a9b06a9906a6c1a4920e90069301a4806a5006a481a9a06a8506a681a490693806a501a9806a9d06a601a4920e8c069241a4720e8006a4c1aa006a9106a801aa420e7c06a781aa60691c06a9c839f20e9406a3c1a9c06a9506a701a220691c0691c83a120e7c20e7c03c6224c4224c41946065140651419e50679c22488195b226300656c19de0679c0679c89902021006ddc000006fb606fb48a46229080e2b438400e0fc0e0fc00000e10e0e10c386a0e1d40e1a838a90e20122908383a0e0e40e0e838590e1e40e0f0383d0e1500e2b838440e1780e2bc38460e1140e11838470e1080e2c0384a0e1240e12838470e19c0e11c38660e12c0e17838590e1ec0e16438550e1e80e15438540e1c80e15038660e1c40e198386c0e1ac0e1ac38ac0e1f10e100383d0e1b00e1b038aa0e1fd0e0f438670e1040e104386d0e1080e1b438a50e22d0e12c386e0e1d80e1b838a40e2050e10800000e1620e124386f0e1e00e16038730e1bc0e1bc38ab0e1f90e1c038a70e21d0e1c438a30e2110e1c838a60e1f50e1cc38a00e2010e11038750e1d00e11400000e1220e12038770e1d00e1d0389d0e1f10e1d4389f0e1fd)
  (.lf 0))) (.nd (.nd (.lf
  0xbc382f2a0bc980bc982f620bcd50bbc400000bbd20bbd02f170bc9c0bc9c2f5e0bcf90bca02f5a0bced0bca42f5d0bcd10bca82f570bcdd0bbb82f170bcb00bbe82f2c0bcac0bbec00000bbfa0bbf82f2e0bcac0bc5c2f0f0bcac0bcac2f540bccd0bcb02f560bcd90bbbc2f2e0bcb40bcb42f550bd090bc3c2f2f0bcb80bcb82f5f0bce10bcbc2f530bcd50bc782f320bcc00bcc005ef0bcf90bcc42f580bced0bcc82f590bcd10bccc2edf0bb780bcd42ee10bc440bcdc2ee50bb880bb942ede0bc0c0bb782ee60bc340bb982f510bce40bce02f130bc440bc442f1b0bce40bce42f3a0bd090bcec2ee80bc340bc342f1f017b80bcd02f190bc7c0bc7c2f4e0bcf00bce82f440bcf00bcf02f3d0bd1d0bcd82ee30bb880bb882f4d0bb9c0bb9c2f500bcfc0bba02f160bcfc0bcf42f3f0bd140bcf82f470bcfc0bcfc2f410bd010bb7c2ee0017a80bb842f120bd0c0bb8c2ee0017a00bb802f080bb900bb902f4f0bd0c0bd082f180bd0c0bd0c2f440bd190bd102f470bd140bd002f180bd140bd142f480bd250bd042ee9017b80bba42f160bd380bc602eec017a80bbb02f200bc300bd1c2f060bbb40bbb42f1c0bc1c0bc582f1c0bd2c0bd182f130bc6c)
  (.lf 0)) (.nd (.lf
  0x1d964765a1d9541db10765d1d9701d974765a1d9e81d96876791d978090900000232ee232ec76711d9f41d9c4766c1da3c1d9b076681da381d9a076671da181d99c76791da141d9e476801d9fc1d9fc76c01da411d94c76501da001da0076be1da4d1d940767a1d9501d95076811d9541da0476b91da7d1d97876821da281da0876b81da551d95400001d9ae1d97076831da301d9ac76871da0c1da0c76bf1da491d93800001d9461d94476731da101da1076bb1da6d1da1476b71da611da1876ba1da451da1c76b41da511d92c76731da241d95c76891da201d96000001d96e1d96c768b1da201d9cc767d1da201da2076b11da411da2476b31da4d1d930768b1da281da2876b21da7d1d9f4768c1da2c1da2c76bc1da551da3076b01da491d9e8768f1da341da3484f61da6d1da3876b51da611da3c76b61da451da40763c1d8ec1da48763e1d9b41da5076421d8fc1d908763b1d9801d8ec76431d9a81d90c76ae1da581da54766f1d9b41d9b476771da581da5876971da7d1da6076451d9a81d9a8767b213dc1da4476751d9ec1d9ec76ab1da641da5c76a11da641da64769a1da911da4c76401d8fc1d8fc76aa1d9101d91076ad1da701d91476721da70)
  (.lf 0)))

def aesGateTree1 : BTree :=
  .nd (.nd (.nd (.lf
  0x182406080049401820010523b4423b444ab212ac412ac4000012ad212ad04ad612b980bb5803e600f8000f8003c00058000f0003a00050000e8003800048000e00010023b5823b584aae12b2c12ab84ad612bac12b587fb312ba81fecc4aee12bb40bb082ecf0bb4d0bb3c2ed300f980bb4c2e7d00f8800f8803c20058800f0803a20050800e8803820048800e08010223b5023b50000012c8e0b9f403e100f9c00f8403c10058400f0403a10050400e8403810048400e04010123b5423b54000012c920b9d803e400f9800f9803c60059800f1803a60051800e9803860049800e18010623b4023b40000012c9600f9c03c70059c00f1c03a70051c00e9c03870049c00e1c010723b3c23b3c000012c9a12c8c4ab612ad412ad4000012ae612ae44ae012bac12b804b1f12bd900f9003c40059000f1003a40051000e9003840049000e10010423b4823b484ab012abc12ac04acf12bbc12ac84ab312b2812c904aba12b5012c944abc12aec12af04abd12ae012c984ac012afc12b004abd12b7412af44adc12b0412b504acf12bc412b3c4acb12bc012b2c4aca12ba012b284adc12b9c12b704ae212b8412b844b2212bc912ad84ab312b8812b884b2012bd5)
  (.lf 0)) (.nd (.lf
  0x17c385f3517c4117c3c5ebb17ae817c445ebd17bb017c4c5ec117af817b045eba17b7c17ae85ec217ba417b085f2d17c5417c505eee17bb017bb05ef617c5417c545f1617c7917c5c5ec417ba417ba45efa2115c17c405ef417be817be85f2a17c6017c585f2017c6017c605f1917c8d17c485ebf17af817af85f2917b0c17b0c5f2c17c6c17b105ef117c6c17c645f1b17c8417c685f2317c6c17c6c5f1d17c7117aec5ebc2116c17af45eed17c7c17afc5ebc2117417af05ee417b0017b005f2b17c7c17c785ef317c7c17c7c5f2017c8917c805f2317c8417c705ef317c8417c845f2417c9517c745ec52115c17b145ef117ca817bcc5ec82116c17b205efb17ba017c8c5ee217b2417b245ef717b8c17bc45ef717c9c17c885eee17bd817bb85edf17bec17bec5f2c17c9817bdc5f2917c9817c985f3317cf117c905ef417ca817bd05ee317bd417bd45ec717b1817b185f2817c9c17c945eed17bd817bd85f2d17c9c17c9c5f3017cfd17bb45ee82117417ba05ee217b9017b885ee017ca017ca05f3217cf517ca45f3117ce117ca85f3717ced17b8c5edf17cac17cac5f2f17cf917cb0845617ce917cb45f3417cd917b905ee117cb817cb85f3917cd5)
  (.lf 0))) (.nd (.nd (.lf
  0x139484e591396d1397c4dde20c5813778831b1381c139604ddf138101377c4e051381c139704e6020c5c139804e0b20c6c1396c4e5d13854139744e0b13814139544e641381413814831d20c6c139504e0620c6c20c6c014a2219022190164e059340593400000593e0593c80ab05b68225ec3a640ea040e9903a8c0ea84225e03a680e99c0e99c00000e9aa0e9a83a8c0ea700ea307f950ea80225e83a8a1fe541fe543aa40ea8c16db45b0016bfc16bfc000016c0e16c0c5b2a16cd416ca85b6916d01226685afa16be416be85b1916ce416bf05afd16c5016db85b0416c7816dbc5b0616c1416c185b0716c0816dc05b0a16c2416c285b0716c9c16c1c5b2616c2c16c785b1916cec16c645b1516ce816c545b1416cc816c505b2616cc416c985b2c16cac16cac5b6c16cf116c005afd16cb016cb05b6a16cfd16bf45b2716c0416c045b2d16c0816cb45b6516d2d16c2c5b2e16cd816cb85b6416d0516c08000016c6216c245b2f16ce016c605b3316cbc16cbc5b6b16cf916cc05b6716d1d16cc45b6316d1116cc85b6616cf516ccc5b6016d0116c105b3516cd016c14000016c2216c205b3716cd016cd05b5d16cf116cd45b5f16cfd16be45b3716cd8)
  (.lf 0)) (.nd (.lf
  0x94dc2531094cc094c4252f095dc095dc258109631094cc2530095f4095e025800961d095f4258809611094f4252e0952809528257b095d4095d425820962d0962c85a8216b4095d8257f09639095fc258e094b80961c2534094b8096082508094b409420252e094c0094b885ad216ac0960c25842169809610258c094b409620253e096300963085ad216a80963485a7216b4216b405b82318c2318c24100903c0983425bb217102171005a1231e81c92c72581c9711c93485b61c96d1c96c71d9216d81c76485bb1c8081c960725c216dc1c9707206216ec1c94872011c8181c81885bc216d81c80885bc216e81c94c7201216f0216f005a9231c8231c823f908fe01b39485b0216d4216d405b0231ac231ac2403233100900c24a50930808fe0000008fea231e823e82064c08fa024be0930808fe8814b09308093088cca204500904081142332c2045000001767609604252f216b008fa424c409324095ec85a60962509624250721698095e425860962909618258a2169c096282534216ac09600252f094d0094d085ac216980941c85ab094c0094c085ac216a8216b005b92318823188000009046090442413090481c9407201216ec216ec05aa231c4)
  (.lf 0)))

def aesGateTree2 : BTree :=
  .nd (.nd (.nd (.lf
  0xfeb43f5d0fd880fd88000e000200fd78000e000300feac3f5d000340feb83f5d000380fd743f5b000280fd70000f000340fd6c000b000240f4143c980f25c0f25c00000f26e0f26c3cc20f3340f3083d010f36104e2c881b2205c2205c3c920f2440f2483cb10f3440f2503c950f2b00f4183c9c0f2d80f41c3c9e0f2740f2783c9f0f2680f4203ca20f2840f2883c9f0f2fc0f27c3cbe0f28c0f2d83cb10f34c0f2c43cad0f3480f2b43cac0f3280f2b03cbe0f3240f2f83cc40f30c0f30c3d040f3510f2603c950f3100f3103d020f35d0f2543cbf0f2640f2643cc50f2680f3143cfd0f38d0f28c3cc60f3380f3183cfc0f3650f26800000f2c20f2843cc70f3400f2c03ccb0f31c0f31c3d030f3590f3203cff0f37d0f3243cfb0f3710f3283cfe0f3550f32c3cf80f3610f2703ccd0f3300f27400000f2820f2803ccf0f3300f3303cf50f3510f3343cf70f35d0f2443ccf0f3380f3383cf60f38d0f33c3d000f3650f3403cf40f3590f2fc3cd30f3440f34482160f37d0f3483cf90f3710f34c3cfa0f3550f3503c810f2000f3583c830f2c80f3603c870f2100f21c3c800f2940f2003c880f2bc0f2203cf20f3680f3643cb40f2c80f2c83cbc0f368)
  (.lf
  0x2474093d02484024f40943025080246c00000247a02478094e0252c02444000002452024380937025300245009370251c024dc092f0252c0250809830254d02468094c0252c0252c09740254d0254c08ff023f8023fc090021a4c024bc094f02538024600000024ba0247c09460253c0253c097302555024b8094a0251802518098202555025540901024c402454000002466024640941025300252809770255d0250409800255d0255c0905024080241408fe0248c023f80906024b4024180971025640250c098102559025300976025590255809030240802408096d0241c0241c09700257c0254409780256d0256c0908024b40243c094e0253402538097f025610248409450253402514097b02561025600933024c4024c4093b0256402564095a0258902568096402570024f809520254002540868e02579024b4093f21a3c0254809790255102524097d02551025500939024fc024fc096e0257002570095d0259d02574095f025940251c097e025790257809670257c0242009360257c0257c09610258102584090921a3c024240936025b80240409320258c025340975025890240c090021a540240009280241002410096f0258c0258809380258c))
  (.nd (.lf
  0x130984c2d130bd130cc4bb220f58130c04c3420f5c130d04bdf20f6c130bc4c3112fa4130c44bdf12f64130a84bda12f7c12f7c83dc20f58130b44c2e20f5820f58038f225a0225a019a32004806b348a67229b4155d05507154181541800001542a154285531154f0154c455701551d228501bdb06fd806f6c8a6c2299c2299c550115400154045520155001540c55041546c155d4550b15494155d8550d1543015434550e15424155dc55111544015444550e154b815438552d154481549455201550815480551c1550415470551b154e41546c552d154e0154b45533154c8154c855731550d1541c5504154cc154cc55711551915410552e1542015420553415424154d0556c15549154485535154f4154d4556b155211542400001547e154405536154fc1547c553a154d8154d8557215515154dc556e15539154e0556a1552d154e4556d15511154e855671551d1542c553c154ec1543000001543e1543c553e154ec154ec55641550d154f055661551915400553e154f4154f4556515549154f8556f15521154fc556315515154b85542155001550083c6155391550455681552d155085569155111550c54f0153bc1551454f2154841551c54f6153cc)
  (.lf 0))) (.nd (.nd (.lf
  0x1909063ce209cc1907c642118f601908463ce18f201906863c918f3818f388274209b819074641e209b8209b801f721db821db814681fff4148705229148b5148a4522d209fc148b451d820a0c148a0522a14788148a851d814748147608284209f8209f801e721df815e28579715e6d15e30826615e6915e6857192099815e5c579b2099c15e6c5746209ac15e44574115d1815d18826c2099815c5456a815a9c15a9c000015aae15aac56d215b7415b48571115ba12233456a215a8415a8856c115b8415a9056a515af015c5856ac15b1815c5c56ae15ab415ab856af15aa815c6056b215ac415ac856af15b3c15abc56ce15acc15b1856c115b8c15b0456bd15b8815af456bc15b6815af056ce15b6415b3856d415b4c15b4c571415b9115aa056a515b5015b50571215b9d15a9456cf15aa415aa456d515aa815b54570d15bcd15acc56d615b7815b58570c15ba515aa8000015b0215ac456d715b8015b0056db15b5c15b5c571315b9915b60570f15bbd15b64570b15bb115b68570e15b9515b6c570815ba115ab056dd15b7015ab4000015ac215ac056df15b7015b70570515b9115b74570715b9d15a8456df15b7815b78570615bcd15b7c571015ba5)
  (.lf 0)) (.nd (.lf
  0x232886e3d1b9241b8f46e381b96c1b8e06e341b9681b8d06e331b9481b8cc6e451b9441b9146e4c1b92c1b92c6e8c1b9711b87c6e1c1b9301b9306e8a1b97d1b8706e461b8801b8806e4d1b8841b9346e851b9ad1b8a86e4e1b9581b9386e841b9851b88400001b8de1b8a06e4f1b9601b8dc6e531b93c1b93c6e8b1b9791b86800001b8761b8746e3f1b9401b9406e871b99d1b9446e831b9911b9486e861b9751b94c6e801b9811b85c6e3f1b9541b88c6e551b9501b89000001b89e1b89c6e571b9501b8fc6e491b9501b9506e7d1b9711b9546e7f1b97d1b8606e571b9581b9586e7e1b9ad1b9246e581b95c1b95c6e881b9851b9606e7c1b9791b9186e5b1b9641b964852e1b99d1b9686e811b9911b96c6e821b9751b9706e081b81c1b9786e0a1b8e41b9806e0e1b82c1b8386e071b8b01b81c6e0f1b8d81b83c6e7a1b9881b9846e3b1b8e41b8e46e431b9881b9886e631b9ad1b9906e111b8d81b8d86e47214bc1b9746e411b91c1b91c6e771b9941b98c6e6d1b9941b9946e661b9c11b97c6e0c1b82c1b82c6e761b8401b8406e791b9a01b8446e3e1b9a01b9986e681b9b81b99c6e701b9a01b9a06e6a1b9a51b8206e09214cc1b8286e3a1b9b0)
  (.lf 0)))

def aesGateTree3 : BTree :=
  .nd (.nd (.nd (.lf
  0xa0c00000184200b8c00000184e0184c061200d8c00b0c00000184a01848061100d0c00a8c00000184601844061000c8c00d8c034300f8c00d0c032300f0c00c8c030300e8c01840030323c4c00c0c038323bcc23bcc549a1ff1410b9c42ef10bd910a88429e10ba410bd042f610ab810bd842a410a7810a7802e000b8810ba442ed10bf110bf002e600b8010be802e500b8000b8002c000d8000b0002a000d001810060481813d17fec5ff71810800a80028000c80181086046181551814c036500d8018154036600d8018134604f1801c1813c5ffd17fdc17fdc036000d8800d80034000f8000d00032000f0000c80030000e8010ab802e500b9810bbc429f10a9010bb4429f00b8810bc0429f00b8410a7c429d00b9410a1802e500b9000b9402c500d9400b1402a500d1400a94028500c9400a14030523c4417f7c036500d901801c036500d98181205ff817ff4181185ff800d88181245ff800d8417fe05ff600d9400d94034500f9400d14032500f1400c94030500e9400c14038523bc423bc45478151dc151dc0000151ea151e8549c152b000a00030023c5800c00038023bd823bd8547415244151d0549c152c4152707fc5152c01ff1454b4152cc)
  (.lf 0)) (.nd (.lf
  0x16618599a166601666083ee166991666459c01668d1666859c1166711666c59481651c16674594a165e41667c594e1652c165385947165b01651c594f165d81653c59b91668416680597b165e4165e45983166841668459a2166a91668c5951165d8165d8598720fbc1667059811661c1661c59b6166901668859ac166901669059a5166bd16678594c1652c1652c59b5165401654059b81669c16544597e1669c1669459a7166b41669859af1669c1669c59a9166a116520594920fcc16528597a166ac16530594920fd4165245971165341653459b7166ac166a85980166ac166ac59ac166b9166b059af166b4166a05980166b4166b459b0166c5166a4595220fbc16548597e166d816600595520fcc165545988165d4166bc596f16558165585984165c0165f85984166cc166b8597b1660c165ec596c166201662059b8166c81661059b5166c8166c859bf16721166c05981166d8166045970166081660859541654c1654c59b4166cc166c4597a1660c1660c59b9166cc166cc59bc1672d165e8597520fd4165d4596f165c4165bc596d166d0166d059be16725166e083ee16719166e459c016709165c4596e166e8166e859c51670516718594520fb8)
  (.lf 0))) (.nd (.nd (.lf
  0x11a4c46bd11a751195c469511a5011a5046bc11aa511a5446c611a7d11a5846ba11a7111a14469911a5c11a5c834e11a9511a6046bf11a8911a6446c011a6d11a6846471191811a704649119e011a78464d11928119344646119ac11918464e119d41193846b811a8011a7c467a119e0119e0468211a8011a8046a111aa511a884650119d4119d4468620d3c11a6c468011a1811a1846b511a8c11a8446ab11a8c11a8c46a411ab911a74464b119281192846b41193c1193c46b711a9811940467d11a9811a9046a611ab011a9446ae11a9811a9846a811a9d1191c464820d4c11924467911aa81192c464820d54119204670119301193046b611aa811aa4467f11aa811aa846ab11ab511aac46ae11ab011a9c467f11ab011ab046af11ac111aa0465120d3c11944467d11ad4119fc465420d4c119504687119d011ab8466e11954119544683119bc119f4468311ac811ab4467a11a08119e8466b11a1c11a1c46b711ac411a0c46b411ac411ac446be11b1d11abc468011ad411a00466f11a0411a044653119481194846b311ac811ac0467911a08119e4467420d54119d0466e119c0119b8466c11acc11acc46bd11b2111ad046bc11b0d11ad446c211b19)
  (.lf 0)) (.nd (.lf
  0x18db8631a18d2418c68634a18df018d8c639018dc118ca0636718d9818d98638e18ded18d9c639818dc518d68639918dc118dc0631e18c6c18c6c638618c8018c80638918de018d84639318dd118da8639118dd118c78631718cf018c5c631f18d1818dc4634b18d2418c7c638a18dc818d24635318dc818dc8637318ded18dcc637d18dd418dd0632118d1818d1863572163c18d5c638718dd418dd4637618e0118c84634e18de018dd8637818df818de0637a18de518de4635018df818c64634118c7418c74638818df018dec635018df018df0637d18dfd18df4638018df818df8638118e0918e08634a18d4c18e04635118e1c18dfc634b18d4c18d4c638a18e1018de863222163c18c88634e18e1c18d38635418e1018d44634018d4818d48632418c8c18c8c638518e1018e10638d18e7118e34639c18cf0204d40000199661996465eb197a8197a80000197ba197b8661619884198586655198b1238f465e7197981979c65e8197fc197ac65e819860197a06612197b0197b06619197b4198646651198dd197980000197a6197a4660b19870198706653198cd204d800001996e1996c65f1197c0197c465f2197b4197b400001980e1980c661f1986c)
  (.lf 0)))

def aesGateTree4 : BTree :=
  .nd (.nd (.nd (.lf
  0x43841120043dd2206c10b1042c0042c410d0043c0042cc10b40432c0449410bb043540449810bd042f0042f410be042e40449c10c1043000430410be04378042f810dd043080435410d0043c80434010cc043c40433010cb043a40432c10dd043a00437410e304388043881123043cd042dc10b40438c0438c1121043d9042d010de042e0042e010e4042e404390111c044090430810e5043b404394111b043e1042e400000433e0430010e6043bc0433c10ea04398043981122043d50439c111e043f9043a0111a043ed043a4111d043d1043a81117043dd042ec10ec043ac042f00000042fe042fc10ee043ac043ac1114043cd043b01116043d9042c010ee043b4043b4111504409043b8111f043e1043bc1113043d50437810f2043c0043c0823e043f9043c41118043ed043c81119043d1043cc10a00427c043d410a204344043dc10a60428c04298109f043100427c10a7043380429c1111043e4043e010d3043440434410db043e4043e410fa04409043ec10a9043380433810df208fc043d010d90437c0437c110e043f0043e81104043f0043f010fd0441d043d810a40428c0428c110d042a0042a01110043fc042a410d6043fc043f410ff04414)
  (.lf
  0x2ea40bab02d8c02d580b5202e7802e780ba202ec502e740baa02eb902ea80bae21adc02e880b5321aec02d4c0b5121ae002d4486b921adc02d8c86b821adc02ec486b721af421adc04ae237fc02c4c86ae02c8502c840aa021ab81fd947f721fdd91fd9c86a61fdd51fdd47ef421a981fdc87f7621a9c1fdd87f2121aac1fdc47f731fcac1fdcc7f211fc6c1fc8486ac21a98237fc2da50b6cc0b6cc2c8b0b22821af804a723818238182cb3201140b22c81212011402b3486b421ab821ab804b7237d8237d82ccc204ac0b3302d670b6880b2c000000b2ca0b2c82da20b69421a9804bf237b8237b82cdb204840b36c2d6c0b6880b6888133201142011400000a6b20a6b029450a51002c9886b221ac002a8086b302b2402b2486b421ac821ad004b1237f0237f02cc2204a40b3082d720b62021b1004a123830238302ca62010c21acc04b2237ec02f7886c521b0c21b0c04a22382c02ce886b821ae421ae404ac23804238042d970b6c80b6c82c8d0b230030ec86c021b1421b1404a0238340b2ac2d960b2b41fd887f6b1fde91fbd086ab1fc741fbd47f1b1fc741fdac7f7a1fc6c1fde886aa21aa01fdd07f2b1fde01fde086ad21aa81fc7486ac21aa8))
  (.nd (.lf
  0x133304cf413340133404d3a134b8134b44d03134b8134b84d2f134c5134bc4d32134c0134ac4d03134c0134c04d33134d1134b04cd520ddc133544d01134e41340c4cd820dec133604d0b133e0134c84cf213364133644d07133cc134044d07134d8134c44cfe13418133f84cef1342c1342c4d3b134d41341c4d38134d4134d44d421352d134cc4d04134e4134104cf313414134144cd713358133584d37134d8134d04cfd13418133f44cf820df4133e04cf2133d0133c84cf0134dc134dc4d4113531134e04d401351d134e44d4613529133cc4cef134e8134e84d3e13535134184d3c134d8134f04d4313515133d04cf1134f4134f44d481351113534837720df4135084cc9133b8135204cff13530135144d47133fc133fc837820ddc1350c4d4420dd8135104d4c133b8135184d4a20ddc135004cf0133d4134f84cf020dec135044cf020df0133c04cee20de0133b8837920ddc0e37438da0e4980e49839310e4b50e300836820da40e30838f00e3700e3c039210e4780e39c38d80e3d00e3d039240e4780e37038d80e48c0e48439290e4c10e48c39270e4d90e4a438d90e3780e49c38d920dac0e36438d720da00e4b839300e3a00e4dc836a20da0)
  (.lf 0))) (.nd (.nd (.lf
  0x121fc056d015b00bf642fe10bfa10bf982fe80be7c0bfa02f950be3c123cc056d015a00be4c2f8f0bf6c0bf6c2fdf0bfb90bfb804ee013a00bfb004ed013a00be3c04e8013a8013a004c8015a0123b448ef1229c1238048e8123bd123bc489d1225c1226c4897123881225c0568015a81238848e6123d5123d4056e015a0015a00548017a00132004a80152001520052801720012a00488014a0014a00508016a001220050823e3801420058823db823db857b615f4c15ed857de15fcc123a0489812274123984898015a8122604896015b40bddc04ed013b00bf842f900be540bf7c2f90013a80bf882f90013a40be402f8e013b40be7c04ed013b8013b404cd015b41229c056d015b8015b4054d017b40133404ad0153401534052d01734012b4048d014b4014b4050d016b401234050d23e2401434058d23da423da457ba15ee415ee4000015ef215ef057de15fb815f787fcb15fc81ff2c57f615fd423e2c44db1fea023e3844b51134823e2444b9112e0112e00000112ee112ec44dd113b4112d444dd113c8113747fa8113c41fea044f5113d023eb83d1b0f4e00f46c3d430f56023ea43d1f0f4780f47800000f4860f4843d430f54c0f50c7f9a0f55c)
  (.lf 0)) (.nd (.lf
  0x214e4022c22e9822e9822f308c381d41c75141d4611d42485261d45d1d45c7495214981d45075182149c1d46074c2214ac1d43874bd1d3081d308852c2149821498023f22e4c22e4c2236200ac1a45468a71a2981a29800001a2aa1a2a868d21a3741a34869111a3a12334c689f1a2f02334468a11a2801a28468c01a3842334068a31a2881a28c68a41a2ec1a45868ab1a3141a45c68ad1a2b01a2b468ae1a2a41a46068b11a2c01a2c468ae1a3381a2b868cd1a2c82334868c51a3441a31468c01a38c1a30068bc1a3881a2f068bb1a3681a2ec68cd1a3641a33468d41a34c1a34c69141a3911a29c68a41a3501a35069121a39d1a29068ce1a2a01a2a068d51a2a41a354690d1a3cd1a2c868d61a3781a358690c1a3a51a2a400001a2fe1a2c068d71a3801a2fc68db1a35c1a35c69131a3991a28800001a2961a29468c71a3601a360690f1a3bd1a364690b1a3b11a368690e1a3951a36c69081a3a11a27c68c71a3741a2ac68dd1a3701a2b000001a2be1a2bc68df1a3701a31c68d11a3701a37069051a3911a37469071a39d1a28068df1a3781a37869061a3cd1a34468e01a37c1a37c69101a3a51a38069041a3991a33868e31a3841a384853e1a3bd)
  (.lf 0)))

def aesGateTree5 : BTree :=
  .nd (.nd (.nd (.lf
  0x1297c4a881299d129804a8a129a9128904a6212984129844a89129d9129884a93129b11298c4a87129a5129484a66129901299003ff129c9129944a8c129bd129984a8d129a11299c4a141284c129a44a1612914129ac4a1a1285c128684a13128e01284c4a1b129081286c4a85129b4129b04a4712914129144a4f129b4129b44a6e129d9129bc4a1d12908129084a5300ff8129a04a4d1294c1294c4a82129c0129b84a78129c0129c04a71129ed129a84a181285c1285c4a8112870128704a84129cc128744a4a129cc129c44a73129e4129c84a7b129cc129cc4a75129d1128504a1500fe8128584a46129dc128604a1500fe0128544a3d12864128644a83129dc129d84a4c129dc129dc4a78129e9129e04a7b129e4129d04a4c129e4129e44a7c129f5129d44a1e00ff8128784a4a12a08129304a2100fe8128844a5412904129ec4a3b12888128884a50128f0129284a50129fc129e84a471293c1291c4a3812950129504a84129f8129404a81129f8129f84a8b12a51129f04a4d12a08129344a3c12938129384a201287c1287c4a80129fc129f44a461293c1293c4a85129fc129fc4a8812a5d129184a4100fe0129044a3b128f4128ec4a3912a00)
  (.lf 0)) (.nd (.lf
  0x85a021840860022f90216e085e8085b821690863022f8c214a0852408528216908628085a421650862c0859421640860c0859021760860808704215a08564085682157085dc0855c21760856c085d8217d085f0085f421bb0864108640213d084f00861021b10864508644213f084f0084f021a7085040850421aa08664080d4205f080e4080e42066080e8080e800000814208140206c081a00818c20a2081e5081b02099081e5081e4202708090080c42070081bc081882071081c0081c020a1081e9081042068081c4081c42095081dd081a020a4081dd0810c2067081bc0819c209d081e9081dc202308148081e820540814808148205c081ec0809c2020081140808020280813c080a02093081ec081ec207c08211081f02086081f80817c2074081c8081cc209a081f5081a8209c081f5081f4202a0813c0813c20602119c081d0209b081d9081ac209f081d9081d8205a08180081802090081f8081f8207f08225081fc20810821c081a420a008201081c8846608201080a820570820408090208f080a4080a420920820408200208908204082042083082090820820590821c081bc20970821108198209e082110808c20530821408210205908214)
  (.lf 0))) (.nd (.nd (.lf
  0x15dbc571c15c6c15dc4571e15d3415dcc572215c7c15c88571b15d0015c6c572315d2815c8c578d15dd415dd0574f15d3415d34575715dd415dd4577615df915ddc572515d2815d28575b2099c15dc0575515d6c15d6c578a15de015dd8578015de015de0577915e0d15dc8572015c7c15c7c578915c9015c90578c15dec15c94575215dec15de4577b15e0415de8578315dec15dec577d15df115c70571d209ac15c78574e15dfc15c80571d209b415c74574515c8415c84578b15dfc15df8575415dfc15dfc578015e0915e00578315e0415df0575415e0415e04578415e1515df457262099c15c98575215e2815d505729209ac15ca4575c15d2415e0c574315ca815ca8575815d1015d48575815e1c15e08574f15d5c15d3c574015d7015d70578c15e1815d60578915e1815e18579315e7115e10575515e2815d54574415d5815d58572815c9c15c9c578815e1c15e14574e15d5c15d5c578d15e1c15e1c579015e7d15d385749209b415d24574315d1415d0c574115e2015e20579215e7515e24579115e6115d10574015e2c15e2c578f15e7915e34579415e5915d14574215e3815e38579915e5515e708268209b415e788267209b415e4c571a15cfc)
  (.lf 0)) (.nd (.lf
  0x1caac72ec1caf11c9fc727c1cab01cab072ea1cafd1c9f072a61ca001ca0072ad1ca041cab472e51cb2d1ca2872ae1cad81cab872e41cb051ca0400001ca5e1ca2072af1cae01ca5c72b31cabc1cabc72eb1caf91c9e800001c9f61c9f4729f1cac01cac072e71cb1d1cac472e31cb111cac872e61caf51cacc72e01cb011c9dc729f1cad41ca0c72b51cad01ca1000001ca1e1ca1c72b71cad01ca7c72a91cad01cad072dd1caf11cad472df1cafd1c9e072b71cad81cad872de1cb2d1caa472b81cadc1cadc72e81cb051cae072dc1caf91ca9872bb1cae41cae485861cb1d1cae872e11cb111caec72e21caf51caf072681c99c1caf8726a1ca641cb00726e1c9ac1c9b872671ca301c99c726f1ca581c9bc72da1cb081cb04729b1ca641ca6472a31cb081cb0872c31cb2d1cb1072711ca581ca5872a72161c1caf472a11ca9c1ca9c72d71cb141cb0c72cd1cb141cb1472c61cb411cafc726c1c9ac1c9ac72d61c9c01c9c072d91cb201c9c4729e1cb201cb1872c81cb381cb1c72d01cb201cb2072ca1cb251c9a072692162c1c9a8729a1cb301c9b07269216341c9a472911c9b41c9b472d81cb301cb2c72a01cb301cb3072cd1cb3d1cb3472d01cb38)
  (.lf 0)))

def aesGateTree6 : BTree :=
  .nd (.nd (.nd (.lf
  0x1f40c7cd8207ac1f3607d0b1f3e01f4c87cf21f3641f3647d071f3cc1f4047d071f4d81f4c47cfe1f4181f3f87cef1f42c1f42c7d3b1f4d41f41c7d381f4d41f4d47d421f52d1f4cc7d041f4e41f4107cf31f4141f4147cd71f3581f3587d371f4d81f4d07cfd1f4181f4187d3c1f4d81f4d87d3f1f5391f3f47cf8207b41f3e07cf21f3d01f3c87cf01f4dc1f4dc7d411f5311f4e07d401f51d1f4e47d461f5291f3cc7cef1f4e81f4e87d3e1f5351f4ec81e61f5251f4f07d431f5151f3d07cf11f4f41f4f47d481f5111f52c81e8207b41f53481e7207b41f5247cc8207981f32081eb1f3c41f5087cc91f3b81f3247cef1f3c41f35c81e8207a41f5187d4a2079c1f5287cf5207ac1f4fc7d4e1f3bc1f53881ea207a01f5207cff1f5301f5147d471f3fc1f3fc81e82079c1f50c7d44207981f5107d4c1f3b81f51c7cf51f3bc1f53081ed207a81f5007cf01f3d41f3d481ec207981f3c481ec207a81f4f87cf0207ac1f5047cf0207b01f3c07cee207a01f3bc81ed207ac1f3b881e92079c12c344b1a12c7912c684b1e005b812c784ac9005a8005a8014a007a800528012a00728004a8010a006a800428018a23ab023ab000001650612b240169005bc)
  (.lf
  0x26b009a9027240284009a20268402688099f0273c0267c09c90268c0272409de02770027780a0502781027540a09027810278009c40272824020042e21c5c21c5c00000284a0284809a80269c0269c0000026aa0266c09da027640266809c202760026740000026820268009c20274c0270809cc0275c0273009db02768026a809da0275c027680a0b02791026ac09d20276c0276c09ff027850268c09d002690026840000026960269409cd02760027340a0c0278d026a009a902690026900000026ea026e809d602748027580a030278d0278c0991026380269809d80275c0275c0a000277d026d809c802750026a409c8026b40272009cf02738027380a0f0277d0277c098b0262802644098a026bc026280992026e4027740a040279d027500a060279d0279c0994026e4026e409ca21a5c0272809fa027a0027480a0e027850264809fd02794026b409d102764027440a070279102784098d026f00279009be026f0026f009c6027940279409e6027b90279809f0027a0027a009e9027cd027a409eb027c40274c0a0a027a9027708696027a9027a809f3027ac0273c0a0d02789027600a020278902788098f026380263809f90264c027400a08027b9))
  (.nd (.lf
  0x6c4880ef229c007480843b0752407524843c210e80768c1d4d210ec07534843c210d8210f003292285c2111003212287c2287c1aea201c406ba81bc106f142285c1afb06be806be8000006bf206bf0806006f1406f148a6f203bc203bc0000155d61a96084452110c210cc033222838228381b07203b806c181bb606f302110c032222878228781aeb201e006bac1bc706f300d548355f0d58d0d57c35632109c0d58c350d210ac0d55084260d5890d58834e0210980d380842b0d4240d424842c210a80d434842c21098210b003392281c210ec032a22858228581afe06bf42281c000006c4e06bf4805f06f3006c4c1b1506c5006c5480ee1057806f308a6e203b8203b80000155d206c381bde06fa8210b8033722824228241b10203a4210d8032f228440d41884292109c2109c033e22808228081bde06fe806fe81ac706b18210f8032722864228641af7201cc06b1c80e91057c06bdc1ba806fa8228441b022017006c081baf06fa806fa8809f203a4203a40000155de06ba01bb206f6006f6080e0201bc2038000001447e06f1080df201b82037c00001447a06e7c1bbd06f2406ef480de201b406e7480de0701c2037800001447606e1c8a8406f24)
  (.lf 0))) (.nd (.nd (.lf
  0x13cac82b820adc13da84f1c20aec13db44f1c20af013c704f1a20ae013c6882b920adc20adc01ae21edc21edc137204d9004d90148c052340523081c9202440519013b304dc404dc481c91ffd02072400001f9a216e7882e420b78054a8152b20b3805490152f054ad054ac1533053540535c14d520b400535482d120b3c156bc82c820b1c157b855a020b2c15680559e20b201567882c920b1c054bc14e6054cc054d082cf20b54056d815b720b580539882d020b3c20b3c019621f3c20b78018721f7821f7813d82023404f6013b504dd821f3c000004f0a04f0813c004f0404f04139704dd8056cc15620559c0559c82dc20b5820b58018f21f5821f5813ce2000804f3813a604dd804dd87fea2071820b1c019e21f1c21f1c139704d7004d70149f0528020b38019721f3821f3813bf207180528081c604ea42071800001f54a1561c82c820b24157f882ca20b200570082d720b74055bc156a20b74055a8156405598055981563056c0056c015bb056dd056ec1571056fc055c482d820b5c056dc15bf05580055901562056a8056a815b4056fd054c882d020b54054d482d220b40052f882d020b44056d0156220b7005588156020b600558082d920b5c)
  (.lf 0)) (.nd (.lf
  0x19ebc67b919f1019f1067ed19f3119f1467ef19f3d19e2067c719f1819f1867ee19f6d19ee467c819f1c19f1c67f819f4519f2067ec19f3919ed867cb19f2419f24857e19f5d19f2867f119f5119f2c67f219f3519f30677819ddc19f38677a19ea419f40677e19dec19df8677719e7019ddc677f19e9819dfc67ea19f4819f4467ab19ea419ea467b319f4819f4867d319f6d19f50678119e9819e9867b7215fc19f3467b119edc19edc67e719f5419f4c67dd19f5419f5467d619f8119f3c677c19dec19dec67e619e0019e0067e919f6019e0467ae19f6019f5867d819f7819f5c67e019f6019f6067da19f6519de067792160c19de867aa19f7019df067792161419de467a119df419df467e819f7019f6c67b019f7019f7067dd19f7d19f7467e019f7819f6467b019f7819f7867e119f8919f686782215fc19e0867ae19f9c19ec067852160c19e1467b819e9419f80679f19e1819e1867b419e8019eb867b419f9019f7c67ab19ecc19eac679c19ee019ee067e919f8c19ed067e619f8c19f8c67f019fe519f8467b119f9c19ec467a019ec819ec8678419e0c19e0c67e519f9019f8867aa19ecc19ecc67ea19f9019f9067ed19ff119f9867ee19fd5)
  (.lf 0)))

def aesGateTree7 : BTree :=
  .nd (.nd (.nd (.lf
  0x14088504414150141107fbd1416023d6c50421fef41fef4505c1416c0c82832170c86d0c85c321b015f80c86c31c5015e80c7140579015fc015e40559017e401564053901764014e40519016e4015e8055a017e801568053a01768014e8051a016e801468059a23d7023d7000001424601464059923d7423d7400001424a0c6f8057c015f8015f8055e017f801578053e01778014f8051e016f801478059e23d6023d6000001424e015fc055f017fc0157c053f0177c014fc051f016fc0147c059f23d5c23d5c0000142521424450241408c1408c00001409e1409c504e1416414138508d14191015f0055c017f001570053c01770014f0051c016f001470059c23d6823d68501e1407414078503d14174140805021140e0142485028141081424c502a140a4140a8502b1409814250502e140b4140b8502b1412c140ac504a140bc14108503d1417c140f4503914178140e4503814158140e0504a141541412850501413c1413c5090141811409050211414014140508e1418d14084504b1409414094505114098141445089141bd140bc50521416814148508814195140980000140f2140b4505314170140f050571414c1414c508f1418914150508b141ad)
  (.lf 0)) (.nd (.lf
  0x1e15878051e0281e1507805212ec1e15c7805212f01e0147803212e01e00c84b9212dc212dc02ae22b6c22b6c20010803c0803c1ee607b9407b9880fe2018807c981ff608008087388bf508b2c0872c8bf4087281eea07b522130c1ee947b521ed301ed4884c4212f81e14484b61e17d1e17c77dd212d81e180780a212ec1e02884bc212d8212d802af22b6808728000008b2e08b2c8bf722fa817ad05e461791417914000017926179245e71179f0179c45eb017a1d22fa85e3e1796c22fa05e40178fc179005e5f17a0022f9c5e4217904179085e431796817ad45e4a1799017ad85e4c1792c179305e4d1792017adc5e501793c179405e4d179b4179345e6c1794422fa45e64179c0179905e5f17a081797c5e5b17a041796c5e5a179e4179685e6c179e0179b05e73179c8179c85eb317a0d179185e43179cc179cc5eb117a191790c5e6d1791c1791c5e7417920179d05eac17a49179445e75179f4179d45eab17a211792000001797a1793c5e76179fc179785e7a179d8179d85eb217a1517904000017912179105e66179dc179dc5eae17a39179e05eaa17a2d179e45ead17a11179e85ea717a1d178f85e66179f0179285e7c179ec1792c00001793a)
  (.lf 0))) (.nd (.nd (.lf
  0x20f0c03a222554225541902203500640819dd067880677489ae226a8063ac89ae063a8226b817e61fe341fe34180005ffc17f305f5e17d7417d74000017d8617d845f8917e5017e245fc817e7d0686818c7063180631889b90672c0631080110672c0668089bf0672c0672c89bc226e0066cc801006870068700000066f20681018fc063ec063ec89be066f0066f089c0226f0226f05f5617dcc0664c19ce067400674089ba226d8063f089ba226ec226e85f5817d5c17d605f7717e600673889bd226e4226e45f5a17d6417d685f5b17dc817f345f6217df017f385f6417d8c17d905f6517d8017f3c5f6817d9c17da05f6517e1417d945f8417da40673489bf226ec226ec5f7c17e2017df05f7717e6817ddc5f7317e6417dcc5f7217e4417dc85f8417e4017e105f8b17e2817e285fcb17e6d17d785f5b17e2c17e2c5fc917e7917d6c5f8517d7c17d7c5f8c17d8017e305fc417ea917da45f8d17e5417e345fc317e8117d80000017dda17d9c5f8e17e5c17dd85f9217e3817e385fca17e7517d64000017d7217d705f7e17e3c17e3c5fc617e9917e405fc217e8d17e445fc517e7117e485fbf17e7d17d585f7e17e5017d885f9417e4c17d8c000017d9a)
  (.lf 0)) (.nd (.lf
  0x1af686c0a1b0f01b0ec6c101b0f01b0f06c3d1b0fd1af6c6c461af801b0cc6c3d1b0d41b0f46c401b0f81b0586c2b1b0a41b0a485ce1b0dd1b0886c561b0b51b0ac6c521b0b51b0b46c111b05c1b0d06be11b0181b0186c172173c1b05c6c471b0d41af846c0e1b0e01af806c491b0e01b0d46c361b1011b0d86c381b0f81b0dc6c401b0e01b0e06c3a1b0e51b0e46c101b0f81b0f86c411b1091b1086c0a1b04c1b0286c05217541b0406be52174c1af946c181b0141b0146bff1b0041b0046bfe1b12c1b12c6c561b1491b1006bff1af981af986c141b0001b0fc6c0b1b04c1b1046c111b11c1b0446c001b0481b0486be41af8c1af8c6c451b1101affc6bfd1b1141b1146c4f1b1691b0e86be22173c1af886c0e1b11c1b0386c141b1101b0506c461b10c1b1186c4e1b1551b02c6bfc1b0601b0606c491b10c1b04c6c4a1b1101b0006bfc1b1201b1206c4c1b16d1b1386bfd1b0081b1286c511b14d1b1446c52217381b1486c5a1afec1b1306bfd2174c1b13c6bfd217501aff46bfb217401b10c6c501b1651b1406bd61afec1afec85d12173c1af9085d0217442174405942321c2321c2493092481b12485ce1b15d1b15c6bd5217381af5485d31aff8)
  (.lf 0)))

def aesGateTree8 : BTree :=
  .nd (.nd (.nd (.lf
  0x3da80f7303e0903cc00f2b2085403cac0f2503c9c03c940f2303dac03dac0f7503e0103db00f7403ded03db40f7a03df903c980f2203db803db80f7203e0503dbc820e03df503dc00f7703de503c9c0f2403dc403dc40f7c03de103dfc82102085403e04820f2085403df40efb2083803bec821303c9003dd80efc03c8403bf00f2203c9003c2882102084403de80f7e2083c03df80f282084c03dcc0f8203c8803e0882122084003df00f3203e0003de40f7b03cc803cc882102083c03ddc0f782083803de00f8003c8403dec0f2803c8803e0082152084803dd00f2303ca003ca082142083803c9082142084803dc80f232084c03dd40f232085003c8c0f212084003c8882152084c03c8482112083c03bdc0e8a03a2403a24000003a3603a340eb403afc03ad00ef303b2921f9c0e8403a0c03a100ea303b0c03a180e8703a7803be00e8e03aa003be40e9003a3c03a400e9103a3003be80e9403a4c03a500e9103ac403a440eb003a5403aa00ea303b1403a8c0e9f03b1003a7c0e9e03af003a780eb003aec03ac00eb603ad403ad40ef603b1903a280e8703ad803ad80ef403b2503a1c0eb103a2c03a2c0eb703a3003adc0eef03b5503a540eb803b00)
  (.lf
  0x1ac786b201ac981ac386b361ac8d1ac8c6af81ac901ac906b251ac9d1ac946b281ac981ab246af61ac801ac806b221ac851ac846af81ac981ac986b291aca91aca46af91acbc1aca06ae71ab381abe46ae81abe81ab386afc1aba01aba06ae41acc01acc06b341ad0d1ad0c862f218d41ac886aca218bc1aca86af21abec1abc86aed218d41abe06acd218cc1ab346b001abb41ac9c6af31abec1abec6b321acb01acc86b391aced1abb46ae71aba41aba46ae61accc1ace46b3a218b81accc6b3e1ace91ace86b421ab8c1ab9c6ae51acb41abe86acc1ab2c1ab2c6b2d1acb01acb46b371ad091acdc6ae5218d01ab286af61acbc1acd06ae5218cc1abd86afc1acb01abf06b2e1acac1acb86b361acf51acd86ae51aba81ab946ae3218c01abcc6ae41ac001ac006b311acac1acac6b381ad051ace06abe1ab8c1ab8c8631218bc1ab308630218c4218c40534234c0234c0270a09c241acb06b351ad111acc4862e1acfd1acfc6abd218b81aaf486331ab981acf86af41ad081ad088635218c81acd46b441ab901ad108632218c01aaf86ae41ab981ab988634218c8218c80533234c4234c4270809c1c09c208d8c2074c0b56480580b7080b600805920140))
  (.nd (.lf
  0x13a6c4eb613ac813ac84eee13b0513acc4eea13b2913ad04ee613b1d13ad44ee913b0113ad84ee313b0d13a1c4eb813adc13a20000013a2e13a2c4eba13adc13adc4ee013afd13ae04ee213b09139f04eba13ae413ae44ee113b3913ae84eeb13b1113aec4edf13b0513aa84ebe13af013af082e613b2913af44ee413b1d13af84ee513b0113afc4e6c139ac13b044e6e13a7413b0c4e72139bc139c84e6b13a40139ac4e7313a68139cc4edd13b1413b104e9f13a7413a744ea713b1413b144ec613b3913b1c4e7513a6813a684eab20b9c13b004ea513aac13aac4eda13b2013b184ed013b2013b204ec913b4d13b084e70139bc139bc4ed9139d0139d04edc13b2c139d44ea213b2c13b244ecb13b4413b284ed313b2c13b2c4ecd13b31139b04e6d20bac139b84e9e13b3c139c04e6d20bb4139b44e95139c4139c44edb13b3c13b384ea413b3c13b3c4ed013b4913b404ed313b4413b304ea413b4413b444ed413b5513b344e7620b9c139d84ea213b6813a904e7920bac139e44eac13a6413b4c4e93139e8139e84ea813a5013a884ea813b5c13b484e9f13a9c13a7c4e9013ab013ab04edc13b5813aa04ed913b5813b584ee313bb113b504ea513b68)
  (.lf 0))) (.nd (.nd (.lf
  0x15fec57e015f9815f9858151600c16004580b1600c1600c58041603915ff457ab15ea815ea8581415ebc15ebc58171601815ec057dd160181601058061603016014580e160181601858081601d15e9c57a8017c815ea457d91602815eac57a8017c015ea057d015eb015eb05816160281602457df1602816028580b160351602c580e160301601c57df1603016030580f160411602057b1017d815ec457dd1605415f7c57b4017c815ed057e715f501603857ce15ed415ed457e315f3c15f7457e3160481603457da15f8815f6857cb15f9c15f9c58171604415f8c58141604416044581e1609d1603c57e01605415f8057cf15f8415f8457b315ec815ec85813160481604057d915f8815f8858181604816048581b160a915f6457d4017c015f5057ce15f4015f3857cc1604c1604c581d160a116050581c1608d15f3c57cb1605816058581a160a516060581f1608515f4057cd16064160645824160811609c05f5017c0160a405f6017c01607857a515f2815e9457cb15f3415ecc05f5017d01606c582a15f2c160a805f3017d41609057db160a016084582315f6c15f6c05f5017d81607c5820017dc16080582815f281608c57d115f2c160a005f0017cc)
  (.lf 0)) (.nd (.lf
  0x1e67400001e6ce1e69079cb1e7501e6cc79cf1e72c1e72c7a071e7691e65800001e6661e66479bb1e7301e7307a031e78d1e73479ff1e7811e7387a021e7651e73c79fc1e7711e64c79bb1e7441e67c79d11e7401e68000001e68e1e68c79d31e7401e6ec79c51e7401e74079f91e7611e74479fb1e76d1e65079d31e7481e74879fa1e79d1e71479d41e74c1e74c7a041e7751e75079f81e7691e70879d71e7541e75484761e78d1e75879fd1e7811e75c79fe1e7651e76079841e60c1e76879861e6d41e770798a1e61c1e62879831e6a01e60c798b1e6c81e62c79f61e7781e77479b71e6d41e6d479bf1e7781e77879df1e79d1e780798d1e6c81e6c879c3211dc1e76479bd1e70c1e70c79f31e7841e77c79e91e7841e78479e21e7b11e76c79881e61c1e61c79f21e6301e63079f51e7901e63479ba1e7901e78879e41e7a81e78c79ec1e7901e79079e61e7951e6107985211ec1e61879b61e7a01e6207985211f41e61479ad1e6241e62479f41e7a01e79c79bc1e7a01e7a079e91e7ad1e7a479ec1e7a81e79479bc1e7a81e7a879ed1e7b91e798798e211dc1e63879ba1e7cc1e6f07991211ec1e64479c41e6c41e7b079ab1e6481e64879c01e6b0)
  (.lf 0)))

def aesGateTree9 : BTree :=
  .nd (.nd (.nd (.lf
  0xcd7c33860ce3c0cdb8338a0ce180ce1833c20ce550cd4400000cd520cd5033770ce1c0ce1c33be0ce790ce2033ba0ce6d0ce2433bd0ce510ce2833b70ce5d0cd3833770ce300cd68338c0ce2c0cd6c00000cd7a0cd78338e0ce2c0cddc336f0ce2c0ce2c33b40ce4d0ce3033b60ce590cd3c338e0ce340ce3433b50ce890cdbc338f0ce380ce3833bf0ce610ce3c33b30ce550cdf833920ce400ce4001ff0ce790ce4433b80ce6d0ce4833b90ce510ce4c333f0ccf80ce5433410cdc40ce5c33450cd080cd14333e0cd8c0ccf833460cdb40cd1833b10ce640ce6033730cdc40cdc4337b0ce640ce64339a0ce890ce6c33480cdb40cdb4337f007f80ce5033790cdfc0cdfc33ae0ce700ce6833a40ce700ce70339d0ce9d0ce5833430cd080cd0833ad0cd1c0cd1c33b00ce7c0cd2033760ce7c0ce74339f0ce940ce7833a70ce7c0ce7c33a10ce810ccfc3340007e80cd0433720ce8c0cd0c3340007e00cd0033680cd100cd1033af0ce8c0ce8833780ce8c0ce8c33a40ce990ce9033a70ce940ce8033780ce940ce9433a80cea50ce843349007f80cd2433760ceb80cde0334c007e80cd3033800cdb00ce9c33660cd340cd34337c0cd9c0cdd8337c0ceac)
  (.lf 0)) (.nd (.lf
  0x71fc1c302100c072081c3021010071e41c8107221072041c30070d4070c01c2e21000070b8840120ffc0705c84002100421004036422770227701bed06fc006fc01adf06b7806b788a50207640dc2883e720fb40dc1436bc0dc240dc2483ed20fa80da1436ab0dab40dbf0370b0daac0daac83ed20fac20fb4037822720227201b0406c0c06c0c80752076420764000006eb207d3c8b2b07d4407d44000007f9607f948b2322c7807dac805d22c8c22c8c1e4e0793407934000007942079401e7207a0c07a0c1eba07a6907d2c80232009020090000007b06080601ed107b4007b448b1f22c9407cfc000007f7a07b041e56079c007f788b2522c8022c941e70079f0079c01e6b07a3807d541fd407f6807d30000007d3a07d3880a207f6807f6880232018c07da48b202008c2008c000007b0207fa48b2220174080681ecb07b2807b2c805e07b0822c88000007b0a07b081e580795c07b001e5207944079481e4f079fc079381e4f079980793c1e790794c0794c1e800795007944000007956079541e7d07a20079f41ebc07a4d079601e5907950079500000079aa079a81e8607a0807a181eb307a4d07a4c1e41078f807fa880252017820094000007b0e)
  (.lf 0))) (.nd (.nd (.lf
  0x1579455f2157ed1578c55b4157a4156d055a3156d4156d45587156181561855e7157981579055ad156d8156d855ec157981579855ef157f9156b455a820b34156a055a2156901568855a01579c1579c55f1157f1157a055f0157dd1568c559f157a8157a855ee157f5157b055f3157d51569055a1157b4157b455f8157d1157ec82c820b34157f482c720b34157c8557915678155e4559f15684157cc55f420b18157d055fc15678157d455f7156bc157dc55a51567c157e055af157f0157f082cd20b28157bc55fe1567c1567c82cd20b2c20b34019821f3421f3413bd04ef804ef880002075020b7c018621f7c21f7c13da04f6c04f6880942075020b84018421f8421f84000004f7e04f7c13dd04f7804f74881f2075020750000004ed60571c80b62036020360000013dfa05a9080b52035c2035c000013df605a4880d52035805a7480bc2035820358000013df205ae8000005b5e05b5c80d5202ec20354000013dee05c2c15f2057c4057c480b805c8805bb48007202e0202e0000011f9205a2080b705a1005bb888b9202dc202dc000011f8e05c7015c9057200572088f005b3405b3488f3223bc223cc4f0613c8c13c184f2e13d0c223c04f0a13c24)
  (.lf 0)) (.nd (.lf
  0x1b2e06c641b18c1b2e86c661b2541b2f06c6a1b19c1b1a86c631b2201b18c6c6b1b2481b1ac6cd61b2f81b2f46c971b2541b2546c9f1b2f81b2f86cbf1b31d1b3006c6d1b2481b2486ca3216bc1b2e46c9d1b28c1b28c6cd31b3041b2fc6cc91b3041b3046cc21b3311b2ec6c681b19c1b19c6cd21b1b01b1b06cd51b3101b1b46c9a1b3101b3086cc41b3281b30c6ccc1b3101b3106cc61b3151b1906c65216cc1b1986c961b3201b1a06c65216d41b1946c8d1b1a41b1a46cd41b3201b31c6c9c1b3201b3206cc91b32d1b3246ccc1b3281b3146c9c1b3281b3286ccd1b3391b3186c6e216bc1b1b86c9a1b34c1b2706c71216cc1b1c46ca41b2441b3306c8b1b1c81b1c86ca01b2301b2686ca01b3401b32c6c971b27c1b25c6c881b2901b2906cd51b33c1b2806cd21b33c1b33c6cdc1b3951b3346c9d1b34c1b2746c8c1b2781b2786c701b1bc1b1bc6cd11b3401b3386c961b27c1b2586c91216d41b2446c8b1b2341b22c6c891b3441b3446cdb1b3991b3486cda1b3851b34c6ce01b3911b2306c881b3501b3506cd81b39d1b27c6cd61b3401b3586cdd1b37d1b2346c8a1b35c1b35c6ce21b3791b39c85af216d41b3706c621b21c1b3886c981b398)
  (.lf 0)))

def aesGateTree10 : BTree :=
  .nd (.nd (.nd (.lf
  0x184f46122184a0184a06157185141850c614d1851418514614618541184fc60ed183b0183b06156183c4183c4615918520183c8611f18520185186148185381851c61501852018520614a18525183a460ea00074183ac611b18530183b460ea0007c183a86112183b8183b86158185301852c61211853018530614d1853d1853461501853818524612118538185386151185491852860f300064183cc611f1855c1848460f600074183d8612918458185406110183dc183dc6125184441847c6125185501853c611c1849018470610d184a4184a461591854c1849461561854c1854c6160185a51854461221855c1848861111848c1848c60f5183d0183d061551855018548611b1849018490615a1855018550615d185b11846c61160007c1845861101844818440610e1855418554615f185a918558615e185951855c6164185a118444610d1856018560615c185ad1856400181859d1856861611858d18448610f1856c1856c616618589185a4001a0007c185ac00190007c1859c60e60006018398001d1843c1858060e7184301839c610d1843c183d4001a0006c18590616800064185a061130007418574616c18434185b0001c0006818598611d185a8)
  (.lf
  0x2383c2d800b6ec0b520815b20140035280d4b21b780352c0d53033d4033d486e121b7c0355086df21b9421b7c04862389c2389c2d3d0b4f00b4f02d940b4f80b4f800000b6661fbb086d021b5421b40049523860238602d54239980b5502d740b6642387c2d990b7040b6ec2c780b1dc0b1e0815b201680b664815b200f42056c00001af4e1af4c6b691ada01ada46b6a1ad941ad9400001adee1adec6b971ae4c21b58048f238781ad8800001ad9a1ad986b8e1ae641ae386bcd1ae911ae5c6bc41ae911ae906b521ad3c1ad486b4b1adc00b1ac8e6f0b5c4238782d49201681f75c86dd21b6821b7404882389421b38049723858238582d58200f80b5602d630b650238942d410b5000b5008e760b58c0354c86e521b8821b940480238b4238b42d34239c80b4d02d630b5e40b58c8e6e239a80332086cd21b2821b34049823854238542d5a0b56421b68048b23888238882d460b5140b5188e750b5c40b7042c6a0b1a40b1a480590b5c40b5242d710b6840b5c48e72239b80b5682892239b8239b86b5b1ade01ad7800001ad861ad846b831ae501ad6c6b831ae641ae0c6b8d1ae601fa4086d521b4c21b54049023874238742d4a239a80b5282d620b68c))
  (.nd (.lf
  0xff8440000ff94101203fde0ffe00ffe03ff31005422d203fd40ff4c0ff503ff31004c0ffcc3fef100500ffbc3fee100300ffb840001002c10000400610014100144046100590ff683fd710018100184044100650ff5c40010ff6c0ff6c40070ff701001c403f100950ff9440081004010020403e1006d0ff7000000ffca0ff8c4009100480ffc8400d1002410024404510061100284041100851002c403d100791003040401005d10034403a100690ff78400f100380ff7c00000ff8a0ff88401110038100384037100591003c4039100650ff4c401110040100404038100951004440421006d100484036100611000440151004c1004c840e1008510050403b1007910054403c1005d1006c3ff60ffd0100583fc30ff08100603fc50ffd0100683fc90ff180ff243fc20ff9c0ff083fca0ffc40ff284034100700ffd03ffe1007010070401d10095100783fcc0ffc41005c3ffc100081007440271007c0ffc440022103c1000840311007c1007c4020100a9100804022100a0100643fc70ff180ff1840300ff2c0ff2c4033100880ff303ff91008810084402a100881008840241008d0ff0c3fc42104c0ff143ff5100980ff1c3fc4210540ff103fec0ff20)
  (.lf 0))) (.nd (.nd (.lf
  0x15a005682158e8158e8829820a5c159f8567f20a58159fc5687158a415a04568520a5c159ec562b158c0159e4562b20a6c159f0562b20a70158ac562920a60158a4829920a5c140184f9913e6013e60000013e7213e704fc313f3813f0c500213f65222c04f9313e4813e4c4fb213f4813e544f9613eb41401c4f9d13edc140204f9f13e7813e7c4fa013e6c140244fa313e8813e8c4fa013f0013e804fbf13e9013edc4fb213f5013ec84fae13f4c13eb84fad13f2c13eb44fbf13f2813efc4fc513f1013f10500513f5513e644f9613f1413f14500313f6113e584fc013e6813e684fc613e6c13f184ffe13f9113e904fc713f3c13f1c4ffd13f6913e6c000013ec613e884fc813f4413ec44fcc13f2013f20500413f5d13f24500013f8113f284ffc13f7513f2c4fff13f5913f304ff913f6513e744fce13f3413e78000013e8613e844fd013f3413f344ff613f5513f384ff813f6113e484fd013f3c13f3c4ff713f9113f40500113f6913f444ff513f5d13f004fd413f4813f48828613f8113f4c4ffa13f7513f504ffb13f5913f544f8213e0413f5c4f8413ecc13f644f8813e1413e204f8113e9813e044f8913ec013e244ff313f6c13f684fb513ecc)
  (.lf 0)) (.nd (.lf
  0x1cfa073a71ce381ce3873bc1cea01ced873bc1cfb01cf9c73b31ceec1cecc73a41cf001cf0073f11cfac1cef073ee1cfac1cfac73f81d0051cfa473b91cfbc1cee473a81cee81cee8738c1ce2c1ce2c73ed1cfb01cfa873b21ceec1cec873ad215741ceb473a71cea41ce9c73a51cfb41cfb473f71d0091cfb873f61cff51cfbc73fc1d0011cfc485561cffd1ceec73f21cfb01cfc873f91cfed1cffc737d215581cdf4855b1ce981cfe0737e1ce8c1cdf873a41ce981cff074002155c1d00073aa2156c1cfec73fd1ced01cff473aa1ce901cfd873a51cea81cea8855c215581cea473a61cfcc1ce98855c215681cfdc73a52157021570020922f241b7f06da62154c1b7e46da61b6801b69885542153821550021122f0422f04000008a9e08a9c22a908aa022f24229e206f01cfb073f51d0111cea073a41cfc01cfc073f41d00d1cfd474041ce901ce90855d2156c1cfd073a52156c2156c020a22f2022f2022a008a7c08a7822d708bfc08a808c12205e0176505d41174ec176185d931765d1764c5d972151c1765c5d412152c174ec854d2152c2152c021a22ee008aa0817808b5422f402292200b008a4822cf08b5c22ee022b908ae008ae081bb08ae8)
  (.lf 0)))

def aesGateTree11 : BTree :=
  .nd (.nd (.nd (.lf
  0x14f18534d14dc814d34537314dd414f1c53c8009bc14f2053d014dc814f2453cb14e0c14f2c537914dcc14f30538314f4014f400268009ac14f0c53d214dcc14dcc0268009a80090800000185a0098800000185e0185c061600b8801858061500b080088800000185601854061400a880080800000185201850028223cd023cd000001283600984024100b8400904022100b0400884020100a8400804028123cd423cd400001283a00998024600b9800918022600b1800898020600a9800818028623cc023cc000001283e0099c024700b9c0091c022700b1c0089c020700a9c0081c028723cbc23cbc0000128421283449a01267c1267c00001268e1268c49ca12754127284a091278100990024400b9000910022400b1000890020400a9000810028423cc823cc8499a126641266849b91276412670499d126d01283849a4126f81283c49a6126941269849a7126881284049aa126a4126a849a71271c1269c49c6126ac126f849b91276c126e449b512768126d449b412748126d049c6127441271849cc1272c1272c4a0c1277112680499d12730127304a0a1277d1267449c7126841268449cd12688127344a05127ad126ac49ce12758127384a0412785)
  (.lf 0)) (.nd (.lf
  0x1e1d878a21e36c1e29078792126c1e1e478ac1e2641e35078931e1e81e1e878a81e2501e28878a81e3601e34c789f1e29c1e27c78901e2b01e2b078dd1e35c1e2a078da1e35c1e35c78e41e3b51e35478a51e36c1e29478941e2981e29878781e1dc1e1dc78d91e3601e358789e1e29c1e29c78de1e3601e36078e11e3c11e2787899212741e26478931e2541e24c78911e3641e36478e31e3b91e36878e21e3a51e25078901e3701e37078e01e3bd1e37878e51e39d1e25478921e37c1e37c78ea1e3991e3b48498212741e3bc8497212741e390786a1e23c1e1a878901e2481e39478e6212581e39878ee1e23c1e39c78e91e2801e3a478961e2401e3a878a01e3b81e3b8849d212681e38478f01e2401e240849d2126c1c51070ee2124c1c50470ee1c3a01c3b88494212382125002d122ae02129402c022b2422b241f3907ce02127402c822b0422b041f4922cb807d241fc207f4c2123002d922ac022ac01f6707d9807d9880a307f4c07f4c806c2009007ce4806c22ca822ae01f55201b0201b000000da061c3a084952124c2124c02d222adc1f0a07bd92128c2128c02c222b1c22b1c1f3b201ac1e590796d1e5f11e480791c1e5a01e5a0796c1e5ed)
  (.lf 0))) (.nd (.nd (.lf
  0x60b417db05f5405ebc17d505f5c05f54834520d0c060c8834520d0820d1401202223805c8c833305d3005c90174a05d3005d30833420cc820cd00131221f4221f4161f203cc0587c16ce05b90222381602223880580816c305b380e71c832b0e7c00e72039ee0e7c00e7c0832c20ca820cb00139221d4221d40000058b2058b0162e058b4058b480e105b3805b3880e2203dc20cf00129222142221416140584c0e92c832d20ca80e7b8832d20cac20cb40138221d8221d8162b058a80584c0000058560585480e205b74058a880e205b00203880000146a217ecc5fbc17f2d17ef05fcb17dac17dac833d20cec060c017db20d0c06084833e060bd060bc17ae20cf805eb8834305f5c05f5c834420d0805f6c834420cf820d10012122234222341603203dc0580c16d905b7420cac013a221d0221d01633058c8058c80000058d2058d088e505b6405e44179a05ea505e6817a905d2805d28833520ccc20ccc0132221f0221f01620203c80588016d905bac05b6480e1203d820cec012a22210222101617058580585880e105b902038400001469e17f20833820cf417d4c833820ce417f2c833a20ce017f24833d20ce820d0801232222c2222c160605814)
  (.lf 0)) (.nd (.lf
  0x19188645d219341926464691927c191746457191641915c645519274191a46458191a8191a8643c190ec190ec649d192701927464a7192c90b1f08124204bc20490000018a2218a2062211888018884621e188f818874621e1886418878623d188880b3bc81222048c0b5dc812d2048c2048c000018a1a18a18621b188d40b3c48e490b38823924623518904188d462301894c20488000018a1618a146217188581885c6214189100b1f88e472392c2391c6213188481884c6214188ac18850623e18860188f86253189441894c627a189551886c624d189300b20400000b5b60b5b48e4e2392823928620f188b01885800001886a188686242189341883c6237189341893462771895d1884800001885618854623718920188dc6241189301890462501893c0b2002c74239300b1d00000239222392062111884018844623018944188c0622c18948188b0622b18928188ac623d18924188f462441890c1890c62841895118930627518951189506200187fc1890862811896118860624518864188640000188be188bc624b1891c1892c6278189611896062061880c1891062821895d1895c62041880c1880c626e188201888062471894018820627118980)
  (.lf 0)))

def aesGateTree12 : BTree :=
  .nd (.nd (.nd (.lf
  0x4c5c134004c7d04c60134204c8904b70131a04c6404c64134104cb904c68134b04c9104c6c133f04c8504c28131e04c7004c70825e04ca904c74134404c9d04c78134504c8104c7c12cc04b2c04c8412ce04bf404c8c12d204b3c04b4812cb04bc004b2c12d304be804b4c133d04c9404c9012ff04bf404bf4130704c9404c94132604cb904c9c12d504be804be8130b2097c04c80130504c2c04c2c133a04ca004c98133004ca004ca0132904ccd04c8812d004b3c04b3c133904b5004b50133c04cac04b54130204cac04ca4132b04cc404ca8133304cac04cac132d04cb104b3012cd2098c04b3812fe04cbc04b4012cd2099404b3412f504b4404b44133b04cbc04cb8130404cbc04cbc133004cc904cc0133304cc404cb0130404cc404cc4133404cd504cb412d62097c04b58130204ce804c1012d92098c04b64130c04be404ccc12f304b6804b68130804bd004c08130804cdc04cc812ff04c1c04bfc12f004c3004c30133c04cd804c20133904cd804cd8134304d3104cd0130504ce804c1412f404c1804c1812d804b5c04b5c133804cdc04cd412fe04c1c04c1c133d04cdc04cdc134004d3d04bf812f92099404be412f304bd404bcc12f104ce0)
  (.lf
  0x1b2406660191401914064a01a5801928065201a5401948065401a3401950065901a300198c06590197c01964068701a1801a1806c701a5d01998069001a3c01a4006ba01a6901a3c06b801a5d01a5c068101a0801a040680219ac01a1c06c501a6901a68067d019f8019f40680219b401a000656019f00197c068901a4401a2406bf01a7101a5806bd01a6101a3406c101a6101a60064101940019c4069201a4401a4406b901a9901a3806bb01a6d01a1406c401a6d01a6c067b019f8019ec06820197401a08067a01934019e806b501a7401a4806c301a7101a7006470192401924064f01a7401a74069e01a9901a3006be01a7d01a2006c001a99019f006b301a9c01a98064201a9c019fc064801a9c01a9c06a801aa901a5406bc01a7d01a7c0678019340193406502199c0194006b201a80019e0064401a8c019f806b1019e401a7806a801a8001a8006a101aad01a8406a301aa4019e406b401a8c01a8c06a501a9101a90064201aa401aa006ab01aa401aa406ac01ab501ab406480193c019080674219ac019d0065301944019200651219b401944065a0195801aac065a019cc01968065c01ac001ab0064101ac801904065801900019000675019d8))
  (.nd (.lf
  0x669419a706698225d41991203440669c80d113bc420344000013bc206cc880cc06ef006d448a6406ee406ee48015203302033000001353e06d541bb306f3c06f3c80142031c2031c00001354a06cbc80c606ea406f2c8013203182031800001354606c8480c5229842031400001354206fdc1acf06b3806b3c809f201cc2027c000010582201ec00000e4ee201e800000e4ea06e4480790e4e4201e400000e4e206ca440d222948229485a931ff400700c1ab206ac406ac48a4206ed006d2c8a4606d3006d30000006ed206ed08a5422910229505a6d16a2806e4880a006d3406d34000006f5e06f5c8a5022904229405a71169c0169c00000169ce169cc5a9516a94169b45a9516aa816a547fd016aa41ff405aad16ab006c941b2606ea406c9800002298206ef88a6422980229804d001fedc06d4c801306f2006f208a6222978229784cde1337406d381ba906ef006cb08a5f06ea406ea48a6522984229844cda133dc133684d021345c13374000013382133804d0213448134087fb7134581fedc4d1a1346406b38805b06ebc06fd81ad106b4006b441ad2229c406b408a7606b4c06fd41ad506b5006b508a7706b4c06b4c000006ebe06b480000229ae)
  (.lf 0))) (.nd (.nd (.lf
  0x23e7000000c1f223e7400000c1f623e6000000c1fa23e5c00000c1fe0c1f0300e0c0340c03400000c0460c04430390c1100c0e430780c13d23e7830060c08c23e6830080c01c0c02030280c12023e64300a0c0240c028300b0c0880c1f430120c0b40c1f830140c04c0c05030150c0400c1fc30180c05c0c06030150c0d80c05430350c06423e6c302d0c09c0c0b430280c1280c0a030230c1240c08c30220c1040c08830350c1000c0d4303b0c0e80c0e8307b0c12d0c038300b0c0ec0c0ec30790c1390c02c30360c03c0c03c303c0c0400c0f030740c1690c064303d0c1140c0f430730c1410c04000000c09a0c05c303e0c11c0c09830420c0f80c0f8307a0c1350c02400000c0320c030302f0c0fc0c0fc30760c1590c10030720c14d0c10430750c1310c108306f0c13d0c018302f0c1100c04830440c10c0c04c00000c05a0c05830460c10c0c0bc30270c10c0c10c306c0c12d0c110306e0c1390c01c30460c1140c114306d0c1690c09c30470c1180c11830770c1410c11c306b0c1350c0d8304a0c1200c12004e70c1590c12430700c14d0c12830710c1310c12c2ff70bfd80c1342ff90c0a40c13c2ffd0bfe80bff42ff60c06c0bfd82ffe0c094)
  (.lf 0)) (.nd (.lf
  0x88e081b422fcc0903c814b09294092948cd32333c093348cd1233341d6a4753b1d4e81d4e800001d4fa1d4f875661d5c41d59875a51d5f12333c75331d54008f4c23c9233342333475351d4d01d4d475541d5d408f3c23d0233302333075371d4d81d4dc75381d53c1d6a8753f1d5641d6ac75411d5001d50475421d4f41d6b075451d5101d51475421d5881d50875611d51808ff08cc8233382333875591d5941d56475541d5dc1d55075501d5d81d540754f1d5b81d53c75611d5b41d58475681d59c1d59c75a81d5e11d4ec75381d5a01d5a075a61d5ed1d4e075621d4f01d4f075691d4f41d5a475a11d61d1d518756a1d5c81d5a875a01d5f51d4f400001d54e1d510756b1d5d01d54c756f1d5ac1d5ac75a71d5e91d4d800001d4e61d4e4755b1d5b01d5b075a31d60d1d5b4759f1d6011d5b875a21d5e51d5bc759c1d5f11d4cc755b1d5c41d4fc75711d5c01d50000001d50e1d50c75731d5c01d56c75651d5c01d5c075991d5e11d5c4759b1d5ed1d4d075731d5c81d5c8759a1d61d1d59475741d5cc1d5cc75a41d5f51d5d075981d5e91d58875771d5d41d5d485161d60d1d5d8759d1d6011d5dc759e1d5e51d5e075241d48c1d5e875261d554)
  (.lf 0)))

def aesGateTree13 : BTree :=
  .nd (.nd (.nd (.lf
  0x151f454a9151f8152a454e11531d1521c54aa152c8152a854e0152f5151f80000152521521454ab152d01525054af152ac152ac54e7152e9152b054e31530d152b454df15301152b854e2152e5152bc54dc152f11520054b1152c0152040000152121521054b3152c0152c054d9152e1152c454db152ed151d454b3152c8152c854da1531d152cc54e4152f5152d054d8152e91528c54b7152d4152d403ef1530d152d854dd15301152dc54de152e5152e0546515190152e8546715258152f0546b151a0151ac54641522415190546c1524c151b054d6152f8152f45498152581525854a0152f8152f854bf1531d15300546e1524c1524c54a400fb8152e4549e152901529054d315304152fc54c9153041530454c215331152ec5469151a0151a054d2151b4151b454d515310151b8549b153101530854c4153281530c54cc153101531054c61531515194546600fa81519c549715320151a4546600fa015198548e151a8151a854d4153201531c549d153201532054c91532d1532454cc1532815314549d153281532854cd1533915318546f00fb8151bc549b1534c15274547200fa8151c854a51524815330548c151cc151cc54a1152341526c54a115340)
  (.lf 0)) (.nd (.lf
  0x1def4778d1df0c1de34777c1de381de3877601dd7c1dd7c77c11df001def877861de3c1de3c77c61df001df0077c91df611de187781213341de04777b1ddf41ddec77791df041df0477cb1df591df1484c61df4d1df1877cd1df3d1ddf4777a1df1c1df1c77d21df391df4c7751213181dd4484cb1dde81df3077521dddc1dd4877781dde81df2477d81dde01df6084ca213201df3477ce213181df3877d61dddc1df4877881df581df5884cd213281dde884cc2132822f7400001dd3e1dd3476df1db781db7800001db8a1db88770a1dc541dc2877491dc81087c8802a08b1008c2021f5087d0087d08be2087dc089c88be0087dc087dc000008b1208b108be622f8422f8476d71dbd008bec8be322f7c087d421f622f7c22f7c76d91db601db6476f81dc64087d8000022f7a22f7876db1db681db6c76dc1dbcc1dd3876e31dbf4089d4774f200a41dd3c76e51db901db9476e61db841dd4076e91dba01dba476e61dc181db9877051dba808be08be422f8022f8076fd1dc241dbf476f81dc6c1dbe076f41dc681dbd076f31dc481dbcc77051dc441dc14770c1dc2c1dc2c774c1dc711db7c76dc1dc301dc30774a1dc7d1db7077061db801db80770d1db84)
  (.lf 0))) (.nd (.nd (.lf
  0xebd03b1e0ebe00ebe03b240ebe40ec903b5c0ed090ec083b250ecb40ec943b5b0ece10ebe400000ec3e0ec003b260ecbc0ec3c3b2a0ec980ec983b620ecd50ec9c3b5e0ecf90eca03b5a0eced0eca43b5d0ecd10eca83b570ecdd0ebec3b2c0ecac0ebf000000ebfe0ebfc3b2e0ecac0ecac3b540eccd0ecb03b560ecd90ebc03b2e0ecb40ecb43b550ed090ecb83b5f0ece10ecbc3b530ecd50ec783b320ecc00ecc082f60ecf90ecc43b580eced0ecc83b590ecd10eccc3ae00eb7c0ecd43ae20ec440ecdc3ae60eb8c0eb983adf0ec100eb7c3ae70ec380eb9c3b510ece40ece03b130ec440ec443b1b0ece40ece43b3a0ed090ecec3ae90ec380ec383b1f20bdc0ecd03b190ec7c0ec7c3b4e0ecf00ece83b440ecf00ecf03b3d0ed1d0ecd83ae40eb8c0eb8c3b4d0eba00eba03b500ecfc0eba43b160ecfc0ecf43b3f0ed140ecf83b470ecfc0ecfc3b410ed010eb803ae120bec0eb883b120ed0c0eb903ae120bf40eb843b090eb940eb943b4f0ed0c0ed083b180ed0c0ed0c3b440ed190ed103b470ed140ed003b180ed140ed143b480ed250ed043aea20bdc0eba83b160ed380ed1c3b070ebb80ebb83b1c0ec200ec583b1c0ed2c0ec703b4d0ed28)
  (.lf 0)) (.nd (.lf
  0xa1d428450a1ec0a11428340a1180a11828180a05c0a05c28790a1e00a0cc28310a1e40a1e428830a2390a1f828850a21d0a2142886217980a218288e0a0bc0a23885ed217a80a1dc28840a2350a210280a0a0bc0a02828300a0c80a0c885ec217a80a1e028810a2410a20428900a0c00a24085ea217a0217a8057b233a4233a427df0a0081949464f5194ac193d464e4193d8193d864c81931c1931c6529194a00a0d028300a1f00a20c2831217b00a1f028800a23d0a2002831217ac0a1e828820a2250a20828310a0d80a0c4282f217a009eec813e200c8204f8000019dca09adc8d8709ec819dc8670719c8423620672119cb42361c66fd19bf019c84671c19cfc19bf4671c19cf419c70671819cf819cf8676519d2109ac4814009acc20500000019dd2204fc000019dce09d3c8038204f4204f4000019dc609ad08d8609acc19dcc670919c2019c24670a19c1419dd0670d19c3019c34670a19ca809acc000009eca09ec88d89235f02362466fb19c6019c60671719cd819c28672919c382361866ff19bf819bfc670019c5c19c5c672919cd419ca4673019cbc19dc4670319c0819c0c670019cc019cc0676e19d0d19bec672319ce419c1c673919ce0)
  (.lf 0)))

def aesGateTree14 : BTree :=
  .nd (.nd (.nd (.lf
  0xd08833cf0cf380cf3834390cf4c0cf4c343c0d0ac0cf5034020d0ac0d0a4342b0d0c40d0a834330d0ac0d0ac342d0d0b10cf2c33cc007a80cf3433fe0d0bc0cf3c33cc007a00cf3033f40cf400cf40343b0d0bc0d0b834040d0bc0d0bc34300d0c90d0c034330d0c40d0b034040d0c40d0c434340d0d50d0b433d5007b80cf5434020d0e80d01033d8007a80cf60340c0cfe00d0cc33f20cf640cf6434080cfcc0d00834080d0dc0d0c833ff0d01c0cffc33ef0d0300d030343c0d0d80d02034390d0d80d0d834430d1310d0d034050d0e80d01433f30d0180d01833d70cf580cf5834380d0dc0d0d433fe0d01c0d01c343d0d0dc0d0dc34400d13d0cff833f8007a00cfe033f20cfd00cfc833f00d0e00d0e034420d1350d0f001ef0d1290d0f434440d1190cfd033f10d0f80d0f834490d1150d12833c8007bc0cf2001ea0cfc40d10c33c90cfb80cf2433ef0cfc40d100344f0cfbc0d13c01eb007b40d1103445007bc0d114344d0cfb80d12434000d1340d13401e8007ac0cfc401e9007ac209e801eb21de8007ac01cb000500072c01ab000d0006ac018b001500062c007423a2c23a2c3f6d1fe780cfcc33ef0d0ec0d0ec343f0d1390d13801ee007a0)
  (.lf
  0x1d94079201f2801e48079801f1c01f0c078201da401da4079801e0c01e6007c901f1801f1807d301f7101f4c075901df801cf4074501d3101d1406f401be401bdc06f301cfc01cf8074b01d3d01d2c074f219bc01cfc074301d4901d48866f219d401d0c06f4219cc01d1806f4219d001bd006f2219c001bc88671219bc01d28074c01c1001c108670219bc219bc04f6236dc236dc2da70b6bc0b6bc2c950b2500b25081562079401f10079501f2801e54078301e5801e0c077f01f2c01f2c07cf01f7901f788677219f401e380788219f401e20078201e1001e08078001f2001f708678219f401e58076701d9801d9807c801f1c01f2007d201f7501f3407d401f5901f5807d801e4001f1c07d001f7d01f4007df01dfc01f2407d101f6101d64077f01e0401f60078501dfc01dfc867d219ec01e10078101f3801f3807d901f5501f64079001f7401f5007d5219d801f5407dd01df801f74867d219e8219f404e823714237142d1e0b4740b4748e41207942079400000b5a623f94045121d5021d5000001fbc623f80045621d3c21d3c00001fbca23f98045021d541fbc47e871fa841fa1c7eb81fadc23f8c045321d4821d487ea11ff681fa847e9c1faf8))
  (.nd (.lf
  0x75f41d7e07619075841d76075d0075d81d9d075e1075e01d5c07588075fc1d2c07544075441d62210dc075881d9207600075f81d8807600076001d810762d0759c1da5075e9075d0843607609075e81d2707498074981d91074ac074ac1d940760c074b01d590760c076041d8307624076081d8b0760c0760c1d8507611075a01da0076190749c1d24210f40748c1d24210ec074901d4c074a0074a01d930761c074941d550761c076181d5b0761c0761c1d8807629076101d5b07624076201d8b07624076241d8c07635080281ef207bc407bc88b0e22c282007800000747a2005c00000747e076301d5c07648075701d4b07574075741d2f074b80756c1d30210ec074c01d6307540074b81d900763c0762c1d4a074c4076341d5507578075541d50210f4075401d4a07530075281d4807640076401d9a07695074c41d5f0752c0752c1d470764c0764c1d970769907bc48b0b07f1407f148b1322c3407fdc8b122030007e38000008016080148b0f22c2c22c4800000747607ff08b1022c3022c401ccc07360074741cb20733022c3c1ca80729c073301cc7073a8072a01cc7073a00731c1cc3073a422c4c1ca60730c0730c1cc20738422c381caa072a4)
  (.lf 0))) (.nd (.nd (.lf
  0x20c340158221582215816662232c137b4831820c6420c64014c221882218816e205c5005c5015db0576805c4c15dd057700577088d20577805778000005b260576080a505b240576888d105b2405b2488cf2232c05980809005c7816da4832020c9416dac831f20c9411d54831220c4020c4801532216c2216c1659059600596488c505c7820c3801572215c2215c1661202240598416c205b9c11b78831020c4420c4401542216822168165c0596c0597088c405c7805c78000005b0a20c940140221b8221b8163a058e4058e480ac05b0805b0888cb223182232c14c1053780e984830820c240e9e83a7820c2016c74832020c7c20c800145221a40ea24830820c1c20c20015d2214422144166c059ac0576c88c822330059b080902232020c60014d22184221841651059400594088d0059480596c16db0594805948000005b96221a41646223300591816e305b9405b9488c82230c2232014c5053100531000000531e0530414e9053f80531c14e9053e4053a47f8b053f41fe2c15010540016f7c5be816fdd16f9082de16fc916fc85b7120b7816dc482e316e6816dc85b9816e6816fcc5b9e20b8c16fc05b9e16e6016fa05bf716e6016e6082e520b8c)
  (.lf 0)) (.nd (.lf
  0x993c26490992c0992c264809a5409a5426a009a7109974269409a38205f000001c756205dc00001c762205d800001c75e205d400001c75a09a50269b09a7509a74269f0995809928264609a4809a48269609a9509a9485d72177419b2c66d819b8519a64668819a6819a68666c199ac199ac66cd19b3019b3066d519b9119a48668d2179419a34668719a2419a1c668519b3419b3466d719b8919a20668419b4019b4066d419b8d19a24668619b4c19b4c66de19b6919b8485e021794199b085e02178419b5466e419a1019b9085e22178019b78669419b8819a5085e02177c19b5066852178c19b5c66852179019a146683217802178005852325823258247c233741c75471671c5981c59800001c5aa1c5a871921c6741c64871d11c6a123634715f1c5f02362c71611c5801c58471801c6842362871631c5881c58c71641c5ec1c758716b1c6141c75c716d1c5b01c5b4716e1c5a41c76071711c5c01c5c4716e1c6381c5b8718d1c5c82363071851c6441c61471801c68c1c600717c1c6881c5f0717b1c6681c5ec718d1c6641c63471941c64c1c64c71d41c6911c59c71641c6501c65071d21c69d1c590718e1c5a01c5a071951c5a41c65471cd1c6cd)
  (.lf 0)))

def aesGateTree15 : BTree :=
  .nd (.nd (.nd (.lf
  0x170985c24171b0171b05c7617205171c002ff171f9171c45c78171e9170a05c25171c8171c85c7d171e5171f85bfc00bfc16ff002fa17094171dc5bfd1708816ff45c2317094171d05c831708c1720c02fb00bf4171e05c7900bfc171e45c8117088171f45c33172041720402f800bec1709402f900bec23e1000000c88223e1400000c88623e0000000c88a23dfc00000c88e0c88031b20c6c40c6c400000c6d60c6d431dd0c7a00c774321c0c7cd23e1831aa0c71c23e0831ac0c6ac0c6b031cc0c7b023e0431ae0c6b40c6b831af0c7180c88431b60c7440c88831b80c6dc0c6e031b90c6d00c88c31bc0c6ec0c6f031b90c7680c6e431d90c6f423e0c31d10c72c0c74431cc0c7b80c73031c70c7b40c71c31c60c7940c71831d90c7900c76431df0c7780c778321f0c7bd0c6c831af0c77c0c77c321d0c7c90c6bc31da0c6cc0c6cc31e00c6d00c78032180c7f90c6f431e10c7a40c78432170c7d10c6d000000c72a0c6ec31e20c7ac0c72831e60c7880c788321e0c7c50c6b400000c6c20c6c031d30c78c0c78c321a0c7e90c79032160c7dd0c79432190c7c10c79832130c7cd0c6a831d30c7a00c6d831e80c79c0c6dc00000c6ea0c6e831ea0c79c)
  (.lf 0)) (.nd (.lf
  0x1a55c698e1a6201a63869951a65d1a51469421a63c1a63c699a1a6591a67c84ff214141a650691a1a4fc1a66869501a6781a65c69991a5401a5408500213fc1a6546996213f81a658699e1a4fc1a660699c213fc1a64869411a5181a64069412140c1a64c6941214101a504693f214001a4fc8501213fc213fc026622db022db022ee08c2408bb88bdd205d008aa8817408990205d000001c2fe1a63484fe1a66d1a66c6919213f81a67069462140c1a66469461a5001a5188504213f8213f8026722dac22dac2277206a8089dc22c408bb408a1822ed08c0c1dab484f61daed1daec7639213d81daf07666213ec1dae476661d9801d99884fc213d8213d8026f22d8c22d8c2288205b41be3c6f9c1be811be8c84ef213d41be606f1e1bd0c1be646f9a213b81be686fa21bd0c1be706fa0213bc1bd0c84f1213bc213bc027622d7022d70230308c2c1785084e617889178885da0213981788c5dcd213ac178805dcd1771c1773484ec2139821398027f22d4c22d4c22bd200a808af422cc08bb408bb48199205b408c2c21ee087b4087b4816d087bc205b400001c3021783c5e181789d1768084eb17724176845dc717724178605e271771c1789c84ea213a0)
  (.lf 0))) (.nd (.nd (.lf
  0x102c440b2102d1102c840b5102cc102b84086102cc102cc40b6102dd102bc405820ebc101604084102f0102d440751017010170408a101d810210408a102e41022840bb102e0102ec40c310329102d84087102f0102f040c91033510218405b20ecc1016c408e101ec102d0408110224102044072102381023840be102e0102f883ae10331102dc4080102241022440bf102e4102fc40c61032110330404b20eb81032440cd20ebc10334407820ecc1032040ca10208103284078101c81030c4073101e0101e083b420eb81031840c720eb820e9803bf224e020eb803b722500224e0193620278064d819c6067f02250019272032c0649c19c1067f0067f0800e2033c0684018de0637406374800e0637c0de5c372a0dca40dca400000dcb60dcb437540dd7c0dd5037930dda922a0c37240dc8c0dc9037430dd8c0dc9837270dcf80de60372e0dd200de6437300dcbc0dcc037310dcb00de6837340dccc0dcd037310dd440dcc437500dcd40dd2037430dd940dd0c373f0dd900dcfc373e0dd700dcf837500dd6c0dd4037560dd540dd5437960dd990dca837270dd580dd5837940dda50dc9c37510dcac0dcac37570dcb00dd5c378f0ddd50dcd437580dd80)
  (.lf 0)) (.nd (.lf
  0x1ae086b881aee01ae206bba1aedc1aedc6bc41af351af106b4a1adbc1ad286b701adc81adf86b79218541ade46b731add41add46b721aefc1aef4860e1af2d1af2c6b49218381ad2486131adc81adc88614218481adcc6b711aee41aee86bc21af251aee46bc31af391af086b711add81af246b761adc01add88614218381af0c6b71218502185005512344c2344c273c206e00a88c2a2e0a8a90a8a42a2a218780a8c48620218940a8a82a320a74c0a8b829e40a8c80a8802a240a8cd0a8cc861f218940a8c88625218882189405402349023490272009c7c09c8081b823614206e000001ea5a0a30028bc0a4200a420290c0a46d0a66829490a5381add06b701aef01aee06bc11af411aef06bc01af3d1af046bd01adc01adc086152184c1af006b712184c2184c05522344823448273d200e009cf427b809f140a65486160a68d0a68c2921218580a484861b0a5280a528861c218680a64c29a00a6910a68029a42185c0a690294e2186c0a66c2949218700a538861c218582187005492346c2346c273209cc409cc481b709eec0a89029d52188c2188c054223488234882722206dc0a43028bd2182c0a434291c0a2f00a2f0860d2182c2182c055a23428)
  (.lf 0)))

def aesGateTree16 : BTree :=
  .nd (.nd (.nd (.lf
  0x37c80e1e03958038800df52080c037d40e28038540393c0e0f037d8037d80e2403840038780e240394c039380e1b0388c0386c0e0c038a0038a00e5803948038900e5503948039480e5f039a1039400e2103958038840e1003888038880df4037cc037cc0e540394c039440e1a0388c0388c0e590394c0394c0e5c039ad038680e1520814038540e0f038440383c0e0d03950039500e5e039a5039540e5d03991039580e630399d038400e0c0395c0395c0e5b039a90396081fe03999039640e6003989038440e0e03968039680e6503985039a0820020814039a881ff20814039980de5207f8037948203038380397c0de60382c037980e0c03838037d08200208040398c0e67207fc0399c0e122080c039700e6b03830039ac820220800039940e1c039a4039880e6403870038708200207fc039800e61207f8039840e690382c039900e1203830039a4820520808039740e0d03848038488204207f8038388204208080396c0e0d2080c039780e0d20810038340e0b208000383082052080c0382c8201207fc037840d74035cc035cc0000035de035dc0d9e036a4036780ddd036d1220100d6e035b4035b80d8d036b4035c00d7103620037880d7803648)
  (.lf
  0xa29c28cf0a3940b6a08137201040b25480410af6c2010400000a4820a48028b90a2e00b69c8136201000b2fc803f0b70c200fc00000a47a0b39000000b39a0b3988e300b660238c028cd0a3640a47828b30a3340a33428c80a3ac0b34c80460b6542011800000a4760a47428af0a2b80a2bc28ac0a370238bc28a90a2a00b4182d090b67c0b42400000b64e0b64c8e3d238b8238b828ab0a2a80a2ac28ac0a30c0a2b028d60a2c00a2e428b60a3580a35828eb0a3a40a2a428c80a3a40a3a486060a3dd0b6b42c990b2600b53c2c9c201000b2648055201002010000000a47e0a2c028dd0a2c40a47c28b50a2d00a2d428b60a2c40a2c400000a31e0a31c28e30a37c0a2b800000a2ca0a2c828da0a3940a36829190a3c10a38c29100a3c10a3c0289e0a26c0a27828970a2f00a2a800000a2b60a2b428cf0a3800a33c28d90a3900a32028c40a3a80a31028c30a3880a30c28d50a3840a2d000000a2de0a2cc28e50a3900a2dc28e70a3900a390290d0a3b10a2d828d50a2e80a35428dc0a36c0a2e828de0a3980a36428e80a39c0a2e028df0a3a00a37c291b0a3b90a36c291c0a3b10a3b028980a25c0a25c289f0a3180a27c290a0a3c80a2a028e70a398))
  (.nd (.lf
  0x6b688a4206eb406eb48a4a229102291038380e1540e0e038600e1d40e0f838600e1c00e1807f910e1d01fe4438780e1dc229cc37d31fe40229c437b10dec00dec000000dece0decc37d50df94229d037ad0df280deb437d50dfa80df547f900dfa41fe4037ed0dfb01f300839020e5406aa81a3f06964068fc1a71069c006aac1a4106900069041a42068f40690000000690e0690c1a73069c006ad88a6206ad406ae48a6306ecc06ad4000006ece06ab01a4506910069141a42069882298c1a35068d0068d01a73069c8069081a6106918229881a37068d8068d80000068e6068e41a5b069b006ecc8a6522960229941a3306940068cc1a5b069c40696c1a65069c0229901a5906994069941a74069cc069181a6a069c8069cc1aa4069f5069a81aa0069f5069f41a5706954068dc1a380693c06aa41a3b068e8068ec1a38069a0068e01a62068f0068f01a69068f4068f400000694e0694c1a6f069ac069101a6b069d0069d01a98069e9069ac1aa7069e9069e81a2606954069541a5f069f8069881a77069d4068d41a54069d4069d4839e06a0d069b01aa306a0d06a0c1a8c06a10069c01a99069e1069641a54069dc069501a50069d8069401a4f069b8)
  (.lf 0))) (.nd (.nd (.lf
  0xc51004fd013f80c4d03132013f4013f404dd015f40137404bd01574012f4049d014f401274051d23de423de442021080410804000010812108104226108d80c63031390c4cc0c4cc04f8013e80c64804fe013e0013e004d8015e00136004b801560012e00498014e001260051823df823df841fe1086c107f84226108ec108987fa3108e81fe8c423e108f40c5f8318b0c63d0c62c318f013f80c63c3139013e80c4e404f9013fc013e404d9015e40136404b901564013e804da015e80136804ba015680c4c804fc013f8013f004dc015f00137004bc01570012f0049c014f0013fc04df015fc0137c04bf0157c012fc049f014fc013f804de015f80137804be01578012f8049e014f801278051e23de0012e8049a014e8012e40499014e401270051c23de801268051a23df00127c051f23ddc01264051923df423df00000109ce23df40000109d223de00000109d623ddc0000109da109cc42061081410814000010826108244230108ec108c0426f1091923de84200107fc10800421f108fc10808420310868109d0420a10890109d4420c1082c10830420d10820109d842101083c10840420d108b410834422c1084410890421f109041087c421b10900)
  (.lf 0)) (.nd (.lf
  0x1c06870221c0a51bf506fd01c0701c07070201c0bd1bf9c701e1c0601c07870251c09d1bf546fd21c07c1c07c702a1c0991c0906faa1bf3c1bee084d0213441c0947026213381c098702e1bf3c1c0886fd11bf581c0806fd12134c1c08c6fd1213501bf446fcf213401bf3c84d12133c21344029422bd422bd41fae07eb41c06070211c0c11c07484ce1c0ad1c0ac6fa9213381bea484d31bf481bea86fd01bf481c08470301bf401c0c084d2213401c0a86fe01c0b81c0b884d5213481bf4884d42134821348029322bd822bd81fcf0801c0801c1efa07be407be48b43207741c06c70281c0b11c0bc84cf213541c09c70291bf801bf8084d02133c1c0a0702c2133c2133c029622bcc22bcc000007ec607ec41fb307ec807ecc80692077407eb88b4c2077420774000007efe088ac81bf08b3808b3881c0206b0088a081c008b002070000001eeba088c00000088ca088c88c0908b6408b6481bf206ac206fc00001eeb6088d822c808bf808bf881ba206980876c81ba08774206e800001eec2088cc81b9088d408bd881b920694206e400001eebe087788c07087741eeb47b3f1ecf81ecf800001ed0a1ed087b6a1edd41eda87ba91ee01088108c0508c78)
  (.lf 0)))

def aesGateTree17 : BTree :=
  .nd (.nd (.nd (.lf
  0xdf4035d00ff400d74033d00f7400cf4031d00ef400c74039d23b640cd2c01fd007f00cf0c01fb007f40cdd001fd007f80ced433640cda40cecc3364007e80ced83364007e40cd903362007f40cafc017d005f00ccdc017b005f40cba0017d005f80cca432d80cb740cc9c32d8005e80cca832d8005e40cb6032d6005f400ff403dd005f400f7403bd0057400ef4039d004f400e74011d23ae4005f4015d007f400574013d00774004f4011d006f400474019d23a64007f401dd000080077401bd00088006f4019d00108006740062239e4239e460fc183ec183ec0000183fa183f86120184c0184807fd5184d015128037f151611516053d700dfc14f5c037a1500015000037900dec12a1003ff12a4912a484a1100ffc1284403fa128e8128e803f900fec00dec035b00fec00d6c033b00f6c00cec031b00eec00c6c039b23b6c00fec03db005ec00f6c03bb0056c0cc90017f0ccc90ccc832b0005fc0cac0017a0cb640cb640179005ec00eec039b004ec005ec015b007ec0056c013b0076c004ec011b006ec00e6c011b23aec0046c019b23a6c0cec001ff0cef90cef8333c007fc0ccf001fa0cd94209a801fb21da80cd9401f9007ec007ec01db00010)
  (.lf 0)) (.nd (.lf
  0x78641de1077a8079cc1e482114c079201e7b079a007a741e452113c079141e7107aa8079c41e7707a9c07a881e6e079d8079b81e5f079ec079ec1eac07a98079dc1ea907a9807a981eb307af107acc1e390797807a941e6d079d8079b41e6821154079a01e6207990079901e6107ab807ab81eb907ad50798c1e5f07aac07aac1eaf07af907af8844f21154079d81ead07a9c07ab41eb407ad907af084502115407ad81eb8079bc07aa41eb107ae107ae01e650797c079d41e4707918079181ea807a9c079881e6007aa007aa01eb207af507ad01eb52113807ad41ebd0797807ae41e6f07af407a9c1eb007afd07ac01ebf0797c078e41e5f079840797c84552114c07af4845521148211540310228c00779c1dbc2112c076f01def07770078581de2077a8077881dd3077bc077bc1e20078681a8b469bf1a6f81a6f800001a70a1a70869ea1a7d41a7a86a291a80107e64801c07e5807e58000007efa07bf08b5007ef807ef88b5222d3822d4869b71a75022d4069b91a6e01a6e469d81a7e407e501fd007f4807f408b4f22d2c22d3c69bb1a6e81a6ec69bc1a74c1a8b869c31a7741a8bc69c51a7101a71469c61a7041a8c069c91a7201a72469c61a798)
  (.lf 0))) (.nd (.nd (.lf
  0x13cb04f2713d2413c9c4f2313d2013c8c4f2213d0013c884f3413cfc13cd04f3a13ce413ce44f7a13d2913c384f0b13ce813ce84f7813d3513c2c4f3513c3c13c3c4f3b13c4013cec4f7313d6513c644f3c13d1013cf04f7213d3d13c40000013c9a13c5c4f3d13d1813c984f4113cf413cf44f7913d3113cf84f7513d5513cfc4f7113d4913d004f7413d2d13d044f6e13d3913c484f4313d0813c4c000013c5a13c584f4513d0813d084f6b13d2913d0c4f6d13d3513c1c4f4513d1013d104f6c13d6513d144f7613d3d13d184f6a13d3113cd44f4913d1c13d1c82b613d5513d204f6f13d4913d244f7013d2d13d284ef713bd813d304ef913ca013d384efd13be813bf44ef613c6c13bd84efe13c9413bf84f6813d4013d3c4f2a13ca013ca04f3213d4013d404f5113d6513d484f0013c9413c944f3620adc13d2c4f3013cd813cd84f6513d4c13d444f5b13d4c13d4c4f5413d7913d344efb13be813be84f6413bfc13bfc4f6713d5813c004f2d13d5813d504f5613d7013d544f5e13d5813d584f5813d5d13bdc4ef820aec13be44f2913d6813bec4ef820af413be04f2013bf013bf04f6613d6813d644f2f13d6813d684f5b13d7513d6c4f5e13d70)
  (.lf 0)) (.nd (.lf
  0x987825b7096d8096dc25b409750096d025d3096e00974c25da0976409764261a097a90969425cd0978c096c425e309788096c80000096d6096d425e509788096a00000096ae096ac25cd097780973425d70978809788260b097a9200f000000986e0986c25ad096b0096b425aa09768096a825d4096b8096b825db096bc0975c25e609794096d825dd0979809798260a097b1096e025dc09790097702612097bd0969825e509790097942616097bd097bc25c90971c096bc0000097160971425e109774097742619097b1097b025980971c0971c25d1097c00975025e90979c097a42610097ad096b00000096c2096c025d80978c0978c260d097b5097602617097b909784260e097b9097b8259c09664096702595096e8097a825960965409654259d09710096742608097c0097c025f1097e5097802614097ad097ac25cf09754097a0260f097c90977c2611097c9097c8259f097100971025d5216fc097542605097cc097682618097b5097b4259a09664097c425fb097cc097cc25f4097f90979c85be097d5097d025f6097f0097782615097d509664260409678096782607097d8097d425fe097d80967c25cc097d8097d825f8097dd0965825972170c)
  (.lf 0)))

def aesGateTree18 : BTree :=
  .nd (.nd (.nd (.lf
  0x14a1052ad14a3114a1452af14a3d14924528714a1814a1852ae14a6d14a1c52b814a4514a2052ac14a39149dc528b14a2414a24821e14a5d14a2852b114a5114a2c52b214a3514a305239148e014a38523b149a814a40523f148f0148fc523814974148e052401499c1490052aa14a4814a44526c149a8149a8527414a4814a48529314a6d14a5052421499c1499c52782087c14a345272149e0149e052a714a5414a4c529d14a5414a54529614a8114a3c523d148f0148f052a6149041490452a914a6014908526f14a6014a58529814a7814a5c52a014a6014a60529a14a65148e4523a2088c148ec526b14a70148f4523a20894148e85262148f8148f852a814a7014a6c527114a7014a70529d14a7d14a7452a014a7814a64527114a7814a7852a114a8914a6852432087c1490c526f14a9c149c452462088c1491852791499814a8052601491c1491c527514984149bc527514a9014a7c526c149d0149b0525d149e4149e452a914a8c149d452a614a8c14a8c52b014ae514a84527214a9c149c85261149cc149cc5245149101491052a514a9014a88526b149d0149d052aa14a9014a9052ad14af1149ac5266208941499852601498814980525e14a94)
  (.lf
  0x28680a850287c0287c0a88029dc028800a4e029dc029dc0a79029e1029e40a2121a7c028840a4e02a18029380a5402a0c0286c0a1821a940285c0a1821a8c028600a4002870028700a87029ec028640a4a029ec029700a94029e9029940a8d029e9029e80a50029ec029e00a50029f4029ec0a7c029f9029f00a7f029f4029f40a8002a0502a040a4a0294c029f80a4b0294c0294c0a8902a0c029400a2421a8c028900a5802910029280a4421a94029100a3e02900029000a3d02a28029fc0a3e02894028940a54028fc029500a8502a0802a240a9002a4902a480a940293002a000a5102a1802a180a9302a5d02a4c0a9721a7c02a5c0a4121a8c029440a3f02948029480a2302888028880a8402a0c028f80a3c02a100292c0a3b02960029600a8802a0802a20869e02a5902a580a1421a780285086a3028f402a140a8d02a5102a340a3c0290402a500a41028ec0290486a421a7802a080a8f02a6102a3c0a15028e802a100a8e02a65028540a3b028f4028f486a421a8802a380a3c21a9021a9004c1237b0027fc09b021a6c0280409b0026d40280809b021a70026c009ae21a6023ee4047d21c2021c20088602214022140000022220222008ab022ec))
  (.nd (.lf
  0x6df88a7a0701c0701c000006e9a06e988a8922a1406ec88a89229f422a2450a7143101429c50cf1439006ee08a8622a0822a1850ab142a8142a80000142b6142b450cf1437c1433c7fbe1438c06e841ae322a2006e8c1bb706f0006edc8a8822a1022a2050cd1fef81fef850e71439806d641be006f8406dd41be006ddc20fa8037b2271406d988a4722938227141be00700c06f808a5222938229384bea1fed40d81c83f820fe420fe4036c22750227501b6b06da806da81b5f06fb406d748a4106d7c06d7c000006f521672083f020fd420fd4037022740227401b722291006dc81bac06f7c06dc080a006db006dac8a5106db006db0000006eba1655083f020fc420fc003752272c2272c1b9306e4806e4c1ae0201d806eb08a542293c0d9fc83fa20fe020fe8036b22754227541be406fd006fd01ad706b5806b588a5206eb806eb88a4f229282293c4bc412f8406f508a4c2291406b7c1ae02293406b80000022932229304bc812f1c12f1c000012f2a12f284bec12ff012f104bec1300412fb07fb5130001fed44c041300c210380357227a406afc801306ec40d5ec84182106421064034c227d0227d01bca06ff006ff01ac206b0406b088a5a22978)
  (.lf 0))) (.nd (.nd (.lf
  0xee483b900ef5c0ef5c3be10efb10ee4c3b8f0ef680ef683bde0efb50ee503b910ef740ef743be80ef910efb482a720ab40ef883b690ee380efa03b9f0efb00ee7c82a820a9c0ef903bec0ee380ef783b9020aac0ef843b9020ab00ee403b8e20aa00ee3882a920a9c20a9c01be21e9c21e9c137d04d8420ae001ad21ee004df47fef2026021ee0145b051700516c7e67202602026000000f41e1451c82c520b0c20b1401a021f1421f14147222064051c813b004e940eda082ab0ee440eda43b8f0ee440ee4482ac20aa820ab001b921eb021eb00000051220512014460511c0511c7ff504e9411f70478720acc11f64478711e0411e1c82b420ab820ad001b121ed021ed014551ffe80515413a504e3c04e947ff62025c051887e662025c20b1001a121f1021f1014712025c2025c00000f41a0ef583bdf0efb90ef7c3bee0ee3c0ee3c82ad20aac20aac01ba21eac21eac1441051080510800000510211e0482b520acc20acc01b221ecc21ecc14541ffe405100881c04e6805150139a04e2020b0c01a221f0c051c4139a04e5813bd082bb13c7413c7482bc20ae804e687ff52025820af001a921ef021f0c14702025821ef0146005184051807e6520258)
  (.lf 0)) (.nd (.lf
  0x1c48070cd1c3c81c3c871032123c1c46470fd1c40c1c40c71331c4841c47c71291c4841c48471221c4b11c46c70c81c31c1c31c71321c3301c33071351c4901c33470fa1c4901c48871241c4a81c48c712c1c4901c49071261c4951c31070c52124c1c31870f61c4a01c32070c5212541c31470ed1c3241c32471341c4a01c49c70fc1c4a01c4a071291c4ad1c4a4712c1c4a81c49470fc1c4a81c4a8712d1c4b91c49870ce2123c1c33870fa1c4cc1c3f070d12124c1c34471041c3c41c4b070eb1c3481c34871001c3b01c3e871001c4c01c4ac70f71c3fc1c3dc70e81c4101c41071351c4bc1c40071321c4bc1c4bc713c1c5151c4b470fd1c4cc1c3f470ec1c3f81c3f870d01c33c1c33c71311c4c01c4b870f61c3fc1c3fc71361c4c01c4c071391c5211c3d870f1212541c3c470eb1c3b41c3ac70e91c4c41c4c4713b1c5191c4d4848e1c50d1c4d8713d1c4fd1c3b470ea1c4dc1c4dc71421c4f91c50c70c1212381c30484931c3a81c4f070c21c39c1c30870e81c3a81c4e471481c3a01c5208492212401c4f4713e212381c4f871461c39c1c50870f81c5181c5188495212481c3a88494212482124802d322ad81c4c8713a1c5051c3b070e81c4d0)
  (.lf 0)))

def aesGateTree19 : BTree :=
  .nd (.nd (.nd (.lf
  0x23be0000018166009fc025f00bfc00bfc02df00dfc0097c023f00b7c008fc021f00afc0087c029f23c5c00b7c02bf00d7c00afc029f00cfc00a7c031f23bdc23bdc00001816a1815c5fea17fa417fa4000017fb617fb460141807c180506053180a9009f0025c00bf000970023c00b70008f0021c00af000870029c23c6800bf002dc00df000b7002bc00d7000af0029c00cf000a70031c23be823be85fe417f8c17f9060031808c17f985fe717ff8181605fee18020181645ff017fbc17fc05ff117fb0181685ff417fcc17fd05ff11804417fc4601017fd4180206003180941800c5fff1809017ffc5ffe1807017ff860101806c180406016180541805460561809917fa85fe718058180586054180a517f9c601117fac17fac601717fb01805c604f180d517fd460181808018060604e180ad17fb000001800a17fcc60191808818008601d18064180646055180a1180686051180c51806c604d180b91807060501809d18074604a180a917fb8601f1807817fbc000017fca17fc8602118078180786047180991807c6049180a517f8c602118080180806048180d5180846052180ad180886046180a11804460251808c1808c0367180c518090604b180b9)
  (.lf 0)) (.nd (.lf
  0xd96836630d96c0d80c366c0d96c0d82c364a0d9240d92436710d9790d8ac364b0d9280d928367b0d9510d92c366f0d9450d808366d0d9540d950362f0d8b40d94435fd0d8b40d8b436370d9540d95436560d9790d95836600d9600d96036590d98d0d964365b0d9840d81036320d96c0d96c365d0d9710d97036340d9840d97836340d97c0d8d0360820fec0d820363c0d8a00d7fc35fc20ff40d7ec35fc20fec0d7f036240d8000d800366b0d97c0d7f4362e0d97c0d97c36600d9890d988362f0d8dc0d8bc361f0d8f00d8f0366c0d9980d974360520fdc0d81436320d9a80d8c836380d99c0d98036630d9840d98c36220d8240d82436380d88c0d8e036690d9980d98436640d9950d994362e0d8dc0d8dc366d0d99c0d99036350d9a80d99836730d9f10d9f083f820ff40d8b8362820ff40d8a036220d8900d89036210d9b80d9b836790d9d50d9e436300d9f40d8d436230d8d80d88c361f0d9ac0d9ac366f0d9f90d9b436740d9d90d8d836070d8180d81836680d99c0d99c36700d9fd0d9c0367f0d87c0d9d0367520fd80d9d4367d0d8780d88836200d9a00d9a036720d9f50d9f483fd20fe80d9d836780d8c00d9a436710d9e10d9e036250d87c)
  (.lf 0))) (.nd (.nd (.lf
  0x144845147145241465c51a61451c1469882c220b001468051571469014674519f1455c1455c82c020afc1469082c520b081467851a220afc1452482c420b0820b0801a321f0821f08146e051bc20afc01a621efc21efc14660519c051b88818207580519880982075820758000004ece06480899f2072c0649880ca2072c06488899e2072c2072c0000067060678889a520340064b080d0107a42034000001376a0646419c50680006800809e2032c0637880cb107a82032c000013776067fc89a120328064d080ca063a4203280000137720676c89a620324064a480c92269c2032400001376e0684c18d7063580635c80af20214202bc000011b3a064e419cf067440659481080674406744808b202b80654880ae066fc0652880ad202b8202b8000011b32202b4000011b2e063d08080202202020000000e71a201fc00000e712201f800000e70e0634c80b3200482004800000630e063f889b5200442004400000630a200400000063062003c000006302064140000067a6067a489a42267c064c4899f107a02267c4d8b1fee0064600000067e2067e089a22267406384899d06388226744d69135a00670489a722680135a00000135ae226804d6513608)
  (.lf 0)) (.nd (.lf
  0xb1642c5a219780b1682c620b00c0b13c2c5c0b1810b1702c602197c0b1402c540b18d0b1502c052198c0b15c2c05219900b18c865f219940b1382c560b1750b1582c050b0280b0142c03219800b00c86612197c2197c05062357823578278009dfc189ac627818a051927864a6192b51927c64ac192c1192b064b02191c192c0645a2192c191ac64a2192701928864a9192ad0b144865e0b17d18a04865021954188e46228188e8188a06224189c0189c0627418a0d18a0c864f21954188c8622d21954188e8620c1882c1882c626d189b0188b46227188a41889c6225189b4189b4627718a090b1742c0a0b0100b1802c0a2198c0b0288664219780b17c2bdd219780af782c040b018189e061fe1888c2197005092356c2356c2785204e80af7486630b018188a46226189cc189cc627e189e9189e862821888c189b0627518a11189d4628418890187f86224188981889086552194c189f8623418a0818a088655219482195405102355023550278d2368409e3427a509f980b0188664219882199005012358c2358c277909de009e1427be09f9809de0813909f9809f98812623680192a0642e1914c192848646192bd190b8645419158192ac64ad19190)
  (.lf 0)))

def aesGateTree20 : BTree :=
  .nd (.nd (.nd (.lf
  0x473411ca047e4047e41237048310472811f4047380473811fa0473c047e81232048610476011fb0480c047ec1231048390473c0000047960475811fc04814047941200047f0047f012380482d047f4123404851047f8123004845047fc12330482904800122d0483504744120204804047480000047560475412040480404804122a0482504808122c048310471812040480c0480c122b04861048101235048390481412290482d047d012080481804818824e048510481c122e0484504820122f048290482411b6046d40482c11b80479c0483411bc046e4046f011b504768046d411bd04790046f412270483c0483811e90479c0479c11f10483c0483c1210048610484411bf047900479011f52093c0482811ef047d4047d412240484804840121a04848048481213048750483011ba046e4046e41223046f8046f8122604854046fc11ec048540484c12150486c04850121d0485404854121704859046d811b72094c046e011e804864046e811b720954046dc11df046ec046ec1225048640486011ee0486404864121a0487104868121d0486c0485811ee0486c0486c121e0487d0485c11c02093c0470011ec04890047b811c32094c0470c11f60478c)
  (.lf
  0x2d340b7d02de802df40bae02e1d02d400b7402df002dd00baa02e1d02e1c0b6202d8002d080b6d02d1802d180b7302d1c02d1c000002d7602d740b7902dd402dc00baf02e1902de40ba602e1902e180b3402cc402de80ba302e0902cd00b2d02d4802dc40bb202e0902e080b2e02cb402cb40b3502d7002cd40ba002e2002d380b7502df802dd40bb102e1102df80ba202e1102e100b3002d8002d800b6a02e2002e200b8902e4502dcc0bab02e4502df00ba402e4502e440b6702e4802db40b8102dfc02dd80bad02e3502e000ba702e2902ddc0ba902e2902e280b3702d7002d700b6e21adc02de00bac02e0d02e040ba802e0d02e0c0b6802db802cc40b9c02cd802cb80b2f21aec02dfc86b602e3502cdc0b6502e3802e240b9302e2c02cd80b9f02e3802db80b9d02e2c02e340b9602e3802e2c0b8c02e5902e300b8e02e5002e380b9002e3d02e3c0b6702e5002cbc0b5702ccc02ccc0b9e02e4802cc00b6102e4802e480b9302e5502e4c0b9602e5002e500b9702e6102e5c0b6802e7402da00b5602da402e540b6202da802e400b3821adc02e600b6102da802da80ba002e6802da40b3a02ce402ce00b6502e7402d940b6b02e6802ce40b9b02e68))
  (.nd (.lf
  0x16aa85ad416ad1169b85aac16aac16aac5ad316b0116ab05add16ad916ab45ad116acd16a705ab016ab816ab8837e16af116abc5ad616ae516ac05ad716ac916ac45a5e1697416acc5a6016a3c16ad45a6416984169905a5d16a08169745a6516a30169945acf16adc16ad85a9116a3c16a3c5a9916adc16adc5ab816b0116ae45a6716a3016a305a9d20dfc16ac85a9716a7416a745acc16ae816ae05ac216ae816ae85abb16b1516ad05a6216984169845acb16998169985ace16af41699c5a9416af416aec5abd16b0c16af05ac516af416af45abf16af9169785a5f20e0c169805a9016b04169885a5f20e141697c5a871698c1698c5acd16b0416b005a9616b0416b045ac216b1116b085ac516b0c16af85a9616b0c16b0c5ac616b1d16afc5a6820dfc169a05a9416b3016a585a6b20e0c169ac5a9e16a2c16b145a85169b0169b05a9a16a1816a505a9a16b2416b105a9116a6416a445a8216a7816a785ace16b2016a685acb16b2016b205ad516b7916b185a9716b3016a5c5a8616a6016a605a6a169a4169a45aca16b2416b1c5a9016a6416a645acf16b2416b245ad216b8516a405a8b20e1416a2c5a8516a1c16a145a8316b2816b285ad416b7d)
  (.lf 0))) (.nd (.nd (.lf
  0xbed42fe90bf010bed82fe30bf0d0bde82fa20bee00be182fb80bedc0be1c00000be2a0be282fba0bedc0be882fac0bedc0bedc2fe00befd0bee02fe20bf090bdec2fba0bee40bee42fe10bf390beb02fbb0bee80bee82feb0bf110beec2fdf0bf050bea42fbe0bef00bef004ef0bf290bef42fe40bf1d0bef82fe50bf010befc2f6b0bda80bf042f6d0be700bf0c2f710bdb80bdc42f6a0be3c0bda82f720be640bdc82fdd0bf140bf102f9e0be700be702fa60bf140bf142fc60bf390bf1c2f740be640be642faa013b80bf002fa40bea80bea82fda0bf200bf182fd00bf200bf202fc90bf4d0bf082f6f0bdb80bdb82fd90bdcc0bdcc2fdc0bf2c0bdd02fa10bf2c0bf242fcb0bf440bf282fd30bf2c0bf2c2fcd0bf310bdac2f6c013a80bdb42f9d0bf3c0bdbc2f6c013a00bdb02f940bdc00bdc02fdb0bf3c0bf382fa30bf3c0bf3c2fd00bf490bf402fd30bf440bf302fa30bf440bf442fd40bf550bf342f75013b80bdd42fa10bf680be8c2f78013a80bde02fab0be600bf4c2f920bde40bde42fa70be4c0be842fa70bf5c0bf482f9e0be980be782f8f0beac0beac2fdc0bf580be9c2fd90bf580bf582fe30bfb10bf502fa40bf680be902f930be94)
  (.lf 0)) (.nd (.lf
  0x1d8a075ae1d74c1d6b875d41d7581d8b076302141c1d8c075da2142c1d8ac762d1d7901d8b475da1d7501d89875d51d7681d768850c214181d76475d61d88c1d758850c214281d89c75d52143021430025922de422de42267089980899881c408b4c08b4c81b4205bc206d000001e82a08e5823472148c1bc006f091bc611baf06eb81bc101bc106f081bc5d1bc246f181bae01bae085152144c1bc206eb92144c2144c025222e0022e002255204701d64c75a01d6911d65485161d68d1d68c7521214581d484851b1d5281d68075a42145c1d690754e2146c1d66875491d5381d538851c214581d528851c214681d66c75492147021470024922e2422e24224a089240892481b308b501d87076251d8d11d76075d41d8801d88076241d8cd1d89476341d7501d750850d2142c1d89075d52142c2142c025a22de022de02269089a02148c024222e4022e40223a206cc0895422d108b78089a08bf608b4408b4481c3206cc206cc00001e8261d56085182145c1d66075492146c1d5247547214601d51c85192145c2145c024e22e1022e1022e908c5408d1c23452148008d5885202147c08d1485212147c1d8a4762a2141821418025f22dcc22dcc226c205c0)
  (.lf 0)))

def aesGateTree21 : BTree :=
  .nd (.nd (.nd (.lf
  0x15368548a1523c15360548a00fa81536c548a00fa415228548800fb400fb403cd005b400f3403ad0053400eb4038d004b400e34010d23b241539c03ee00fa023b243ec00fafc15384548f152241522403e800fa80caa8036e00da00fafc00000fb0a0fb083ee40fbd00c92c036800da800da0034800fa000d20032800f2000ca0030800ea000fa003c8005a000f2003a80052000c20038823bb800ea00388004a000e20010823b3823b383ebc0fb640faf03ee40fbe40fb907f9d0fbe01fe743efc0fbec23bac3e571fe7023ba43e350f8d00f8d000000f8de0f8dc3e590f9a423bb83e310f9380f8c43e590f9b80f9647f9c0f9b41fe703e710f9c01628058ad162c5162b458b100dd8162c4585c00dc816170037100ddc16154037400dd81534c54e0153911538054e400fb815390548f00fa81523c03e900fbc1522003ec00fb81167c45ac116c1116b045b000bd8116c0455b00bc800bc802d200dc800b4802b200d4800ac8029200cc800a48031223c1023c1000001517a1156c02f100bdc00bc402d100dc400b4402b100d4400ac4029100cc400a44031123c1423c1400001517e1155002f400bd800bd802d600dd800b5802b600d5800ad8029600cd8)
  (.lf 0)) (.nd (.lf
  0x1ec687ad01ec781eb4084e02137c1dd8084c8213241dd2484d8213741dd3084da213601dd1876fc1dd281dbf084d82135c1c0b484d02135421324029c22bb422bb41fd208058080581ed507b5007b508b4207f2821360028d22bf022bf01fa407e8c07e8c8b4f07f9821380028522c1022c101f9722d2c07e5c1fdc07f9807f988b4722d0821340029522bd022bd01fb022d0822d08369a0da640da68369b0dac80dc30369e0da740da78369b0db2c0da6c36c60da7c0dc3c36a80da9c0daa036a50db180db1836da0db600db6083e60db991ec7c84df213941df5484c8213341dd2c84d72137421320029d22bb022bb01eff07bf807bf8806907f402135c028e22bec22bec1ff5080742137c028622c0c07ec01fd007fd422c0c1f9907e6007e601ff007e6807e68000007fd607fd4809c201a4201a400000dc3a0dc3836a40da8c0da9036a50da800da7c36cc0da800da8000000dada1eb0884e42138821354029022be41dbb884dc2136821390028122c2021370028922c0022c001f9e2055007e781fd707ffc22c201f9107e4007e40815307ffc22be41fa622d1807e981fbe07ffc07ffc809b22d1422d1400000dc361dde084cd2132c21334029822bc4)
  (.lf 0))) (.nd (.nd (.lf
  0x1073841db1079110674418c10678106784170105bc105bc41d01073c10658419120bd410644418b106341062c4189107401074041da107951063041881074c1074c41d71079910634418a107581075841e1107751079882ef20bd41076c41621061c107844198107941066082f020bbc1077441e51061c1075c418920bcc10768418920bd010624418720bc01061c82f120bbc20bbc0176220e0220e0170305c2c05c0c80e72036c2039c0000148d20ed2c3b540ed8d0eb7482fb0ec180eb783b040ec180ed503b630ec100ec1082fd20bec20bec016a2211022110167e059f4059f480e605be41073c41d81079d1058482f310628105884188106281076041e7106201062082f520bcc20bcc0172220f0220f0168c2036405a3016f405bf01103c43ba20c0c1103043ba10ed010ee8830420bf820c1001612213422134166f20018059bc16f405bdc139a482eb13a4813a4882ec20ba820bb00179220d4220d40000058be058bc1631058c0058c447e22039820bac017a220d0220d01642059040590400000590e0590c88b105bd005bd080e620014203980000148ca20d24011c222482224816d205c5805c5815d7057580575888e705b28062f0836020d94)
  (.lf 0)) (.nd (.lf
  0x2061000001cbb618c146306217b8217b80577233b4233b426f2200ec09bc827ac09fac194c864e1193981939885fc217d8194d46536217d80a23c85e7217b40a10085e82179c0a0bc85e92179c2179c057e2339823398000009d9a09d98276809d9c09d9c27d509fac217d8056f233d4233d427702057409dc027ad09fac09fac8144205fc18bfc630a18c1918c18630e18abc18ac462af217c018abc85f1217bc18c2862c018c3818b0085f0217bc18c3c85ef217d4217bc0576233b8233b827ea09fc809fc826d709b58197f88604217f8217f80567233f4233f4275f205fc09b5c817f09aa4205fc00001cbc2194e864f0194f8193c085f8217dc1938c64e1194a4194a46533194f9194cc64e1217f01938464df217e0194d8653e1937c0a06085e8217a40a23485e8217b4217a0057d2339c2339c2757235d009d5c27d309fa8194fc85f7217f41937c85f9217dc217dc056e233d8233d8000009db609db4276f09db809db827d409fa809fa88143205f818a6085f0217c418c3485f0217d418c4085f2217c0217c00575233bc233bc279209e4409e4826de205f8198208600217fc217fc0566233f8233f827d509fc009fc026db09b6809b6c803b205f8)
  (.lf 0)))

def aesGateTree22 : BTree :=
  .nd (.nd (.nd (.lf
  0x5038000004e1204e1087f521f9804e9c87f921fa421fa40e8203a7c03a080eaa03afc21f980e8603a1403a14000003a2203a200eaa03ae803aa87f8303af821fa00ea81fe0c1fe0c0ec203b0421fe40df703850037dc0e1f038d021fd40dfb037e8037e80000037f6037f40e1f038bc0387c7f82038cc050c8109921fdc21fdc0e1d1fe081fe080e37038d8050d4000022016220140d921fe042200c0d70035bc035bc0000035ca035c80d9403690220180d6c03624035b00d94036a4036507f81036a01fe040dac036ac2204c00001f9962205000001f99a2203c00001f99e1f9947df81f7dc1f7dc00001f7ee1f7ec7e221f8b41f8887e611f8e10521814902205c05240000022046051a8000004e0204e00881122030220447df21f7c41f7c87e111f8c41f7d07df51f8301f9987dfc1f8581f99c7dfe1f7f41f7f87dff1f7e81f9a07e021f8041f8087dff1f87c1f7fc7e1e1f80c1f8587e111f8cc1f8447e0d1f8c81f8347e0c1f8a81f8307e1e1f8a41f8787e241f88c1f88c7e641f8d11f7e07df51f8901f8907e621f8dd1f7d47e1f1f7e41f7e47e251f7e81f8947e5d1f90d1f80c7e261f8b81f8987e5c1f8e51f7e800001f8421f8047e271f8c0)
  (.lf
  0x2fa80c0a0302402f480bff02f4c02f4c000002fa602fa40c0503004030140c320304902f500bfc0301c02ff00c3b03049030480bc002ef402f000bb902f7802f540c070301802ff80c3c030450301c0c3103045030440bbe02ef402f58000002f6602f640c0903018030180c2f03039030380bba02ee402ee80bbb21b0c02ef80bbb21b1402eec0be302efc02efc0c2a03078030040c3d03041030280c2e03041030400bbc02fb002ef00bed0307802f280c0903020030240c3a0304d02ee40bc102fa002f700c0003020030200c3003075030000c360304d0304c0bee02fb002fb00bf60305002f040c2c03050030500c150307502ffc0c3703075030740bf303078030780c1f03085030840bee02fd8030300c33030590300c0c3503059030580bc302fa002fa00bfa21afc02fe40c0d0302c030100c380303d030340c340303d0303c0bf402fe802fe80c290305c030540c1f0305c0305c0c1803089030600c1a030800302c86be0306502f0c0bf103068030080c3903065030640c220306802ef40c2802f0802f080c2b03068030680c1c0306d0306c0bf3030800307c0c2203080030800c2303091030900bed02fd802fd80c2c0309802fcc0bc721b0c))
  (.nd (.lf
  0xdab036aa20fa00daa883e920f9c20f9c037e2270822708000006d9e06d9c1b6906da006da4810406d30072181c88070fc20fa0037d2270c2270c1b582294006d601bd406fac06fac8104201d8070fc840020ffc072308400210142100003652276c2276c1b5e06d7406d784c3b2041020410000016b92071e81c870722d0721c1c8b20ffc0722c1c352100c072201c35070bc070d4840420ff82101003612277c2277c1b57202f40dbe083e60dc190dc18368420f980da1083eb0dab40dab483ec20fa80dc1c36b120fac0dac483ec20f9820fb003792271c2271c000006c5a20fac037a227181671c597220fcc167105972165b0165b083f520fcc227181b2906ca006ca0000006caa06ca88a4306f7020fcc037222738227381b74201f006dd01bdc06f9006d5c1bdc06f7c06f708103203100d9b083f60d9e90d9e835f820fd80d9ec362520fec0d7e083fb0d88406c581b1806c5c20fec036a2275806c6040d32040c227581b6606d9406d94810306f842040c000016b8a0d89483fc20fd820fd8036f22744227441b7120264165c883f420fb80723883ff2101420ffc036622768227681bd606fc406fc41add06b7020fb8037722724227241af3202f8)
  (.lf 0))) (.nd (.nd (.lf
  0x56641546055ac055181573056740561c15bb05649055ac157c20b5c056481576055f0055f015ac0566805668159b056950561415bc056710566c159d0568c0567015a50567405674159f056790567815750568c055d4154a20b6c05528157d055a80569415640552c0552c1579055940567c154720b5c0551c1573056b0055cc1579056a4056901570055e0055c01561055f4055f415ae056a0055e415ab056a0056a015b5056f90568c15a60569d056981576056b0055d81565055dc055dc1549055200552015aa056a40569c156f055e0055e015af056a4056a415b205705056ac15b3056e9055941561056b4056b415b105701056b882d6056f1056f0153a20b58056bc15b6056e1056e015ba055c4056e8156705584054e882db0558c056d4153b05580054ec15610558c0546014e5053b4056b015b9056f5056e415bd20b5c056f4156720b6c0546414d9053000530014ee053680544c14bc20b3c052f014e805480053a014ee05474053b8151f054700547c1527054b90549c14d7053700546814eb05480053ac14da053b0053b014be052f4052f4151e05474053b4152305474054741526054d505498153505358056c815c105584053a814bf20b4c)
  (.lf 0)) (.nd (.lf
  0x1997485e319a1819a1885e42178821790058123268092108cdf0931809318814620460232682477091d8091d88146093900927481460927c2051800001a22621758058f2323023230248a2050421718059f231f0231f023e62059408f9824af0935419a0c85e12177c2177c05862325421738059723210232102499204480926424a40935423254247e091f4091f424d5091fc09354814120614093f023ba08ee408ee8816c205042050400001a23209a8c85d82177409a9085dd217682177405882324c2324c24820920408ee48112092bc2178405842325c2325c0000091e6091e4247b091e8091e824b5092dc09a9885da2176021768058b23240232402487092181b16485d0217542175405902322c2322c248b233600922c24a309390217880583232602326024e5093ac093ac23e308f88098b885d82176421764058c2323c0924800000925221724059c231fc231fc24b7093ec093ec23bc08eec08eec8cd4092bc0921c8ce3092c808f908111092d4091ec8cd50940c21760058d2323823238248909220092208ce10932c092048ce40929021728059b232002320024a109280092848cdb092bc091f8818c0940c08ef08ce1233880927823e12338c)
  (.lf 0)))

def aesGateTree23 : BTree :=
  .nd (.nd (.nd (.lf
  0x14cd4533c14cf914bb452ea14cd814cd8534114cf514d0852c1017fc14b0405fa14ba814cec52c214b9c14b0852e814ba814ce0534714ba014d1c05fb017f414cf0533d017fc14cf4534514b9c14d0452f814d1414d1405f8017ec14ba805f9017ec23d1000001260a23d1400001260e23d0000001261223cfc000012616126084915124501245000001246212460493f12528124fc497e1255523d08490f124381243c492e12538124444912124a41260c4919124cc12610491b124681246c491c1245c12614491f124781247c491c124f012470493b12480124cc492e12540124b8492a1253c124a849291251c124a4493b12518124ec494112500125004981125451245449121250412504497f1255112448493c124581245849421245c12508497a125811248049431252c1250c4979125591245c0000124b612478494412534124b44948125101251049801254d12514497c12571125184978125651251c497b125491252049751255512464494a125241246800001247612474494c12524125244972125451252849741255112438494c1252c1252c49731258112530497d125591253449711254d124f049501253812538027f125711253c497612565)
  (.lf 0)) (.nd (.lf
  0x1c24c709d1c2541c25470961c2811c23c703c1c0ec1c0ec70a61c1001c10070a91c2601c104706e1c2601c25870981c2781c25c70a01c2601c260709a1c2651c0e07039212cc1c0e8706a1c2701c0f07039212d41c0e470611c0f41c0f470a81c2701c26c70701c2701c270709d1c27d1c27470a01c2781c26470701c2781c27870a11c2891c2687042212bc1c108706e1c29c1c1c07045212cc1c11470781c1941c280705f1c1181c11870741c1801c1b870741c2901c27c706b1c1cc1c1ac705c1c1e01c1e070a91c28c1c1d070a61c28c1c28c70b01c2e51c28470711c29c1c1c470601c1c81c1c870441c10c1c10c70a51c2901c288706a1c1cc1c1cc70aa1c2901c29070ad1c2f11c1a87065212d41c194705f1c1841c17c705d1c2941c29470af1c2e91c2a484ae1c2dd1c2a870b11c2cd1c184705e1c2ac1c2ac70b61c2c91c2dc7035212b81c0d484b31c1781c2c070361c16c1c0d8705c1c1781c2b470bc1c1701c2f084b2212c01c2c470b2212b81c2c870ba1c16c1c2d8706c1c2e81c2e884b5212c81c17884b4212c8212c802b322b5822b581f2107c8007c848b31207401c29870ae1c2d51c180705c1c2a01c2a070ac1c2ed1c11084b0212c4)
  (.lf 0))) (.nd (.nd (.lf
  0x225581901203340640419d70676c102e440c2103451030840d1101c8101c883b520ecc20eac03ba224f420ecc03b22251422514191e20340224f41931064c0064c00000064ca064c889ae0675c0647819d7067a40675c800b203500ddf837870de590de1c37960dcdc0dcdc83bd20eec20eec03aa225342253419150645006450800b067882002c0000060d6067ac8080200280682418f0063bc063bc800a0688020028000005eb6067b08982200240661880090660820024000005eb205eb4174705d1805d1c174405d90065cc8978065d40660019750680c065d40000067aa0682018f2063c4063c8897c225e0067a88983225f0225f0173905ce005ce4173a05d44067dc897f20218225fc000005eaa065e817aa201f805ea8173d05cf005cf4173a05da405ce8176405cf805d90177805dd8065f0897e22614067e8897e225e8225f8175b1fe3006630897a068800688000000670e063c489790670c0670c8981225ec066080000067120671089862260405ce0000005cee22604173505d4805cd4175d05dc805cec175d05db405d747f8c05dc41fe30177505dd00663400000680e0680c897d225e4063b8897d22610065e017ab201fc067d489802021c)
  (.lf 0)) (.nd (.lf
  0x1b5b06d70215bc1b4588574215c81b5946d741b4501b5d08572215c01ea547a271e8981e89800001e8aa1e8a87a521e9741e9487a911e9a109b048d8809b0c09afc8d8709ec009b0c000009ec209af4813f09ec009ec08d852360409d3427a809eec09cbc27a809f4409ea08d8923614236147a1f1e8f02360c7a211e8801e8847a401e984236087a231e8881e88c7a241e8ec1ea587a2b1e9141ea5c7a2d1e8b01e8b47a2e1e8a41ea607a311e8c01e8c47a2e1e9381e8b87a4d1e8c809c94000023612236107a451e9441e9147a401e98c1e9007a3c1e9881e8f07a3b1e9681e8ec7a4d1e9641e9347a541e94c1e94c7a941e9911e89c7a241e9501e9507a921e99d1e8907a4e1e8a01e8a07a551e8a41e9547a8d1e9cd1e8c87a561e9781e9587a8c1e9a51e8a400001e8fe1e8c07a571e9801e8fc7a5b1e95c1e95c7a931e9991e88800001e8961e8947a471e9601e9607a8f1e9bd1e9647a8b1e9b11e9687a8e1e9951e96c7a881e9a11e87c7a471e9741e8ac7a5d1e9701e8b000001e8be1e8bc7a5f1e9701e91c7a511e9701e9707a851e9911e9747a871e99d1e8807a5f1e9781e9787a861e9cd1e9447a601e97c1e97c7a901e9a51e9807a841e999)
  (.lf 0)))

def aesGateTree24 : BTree :=
  .nd (.nd (.nd (.lf
  0x42481049042580423c109104124041248230208bc04234108e208b8042381096040e004244103f040e4042588235208c804228103a040fc040fc8234208b8040ec8234208c804220103a208cc0422c103a208d0040e81038208c0040e48235208cc040e08231208bc040380fa103e8003e80000003e9203e900fcb03f5803f2c100a03f8521fec0f9b03e6803e6c0fba03f6803e740f9e03ed40403c0fa503efc040400fa703e9803e9c0fa803e8c040440fab03ea803eac0fa803f2003ea00fc703eb003efc0fba03f7003ee80fb603f6c03ed80fb503f4c03ed40fc703f4803f1c0fcd03f3003f30100d03f7503e840f9e03f3403f34100b03f8103e780fc803e8803e880fce03e8c03f38100603fb103eb00fcf03f5c03f3c100503f8903e8c000003ee603ea80fd003f6403ee40fd403f4003f40100c03f7d03f44100803fa103f48100403f9503f4c100703f7903f50100103f8503e940fd603f5403e98000003ea603ea40fd803f5403f540ffe03f7503f58100003f8103e680fd803f5c03f5c0fff03fb103f60100903f8903f640ffd03f7d03f200fdc03f6803f68822603fa103f6c100203f9503f70100303f7903f740f8a03e2403f7c0f8c03eec)
  (.lf
  0xb1cc8e420b1d021a6004cd23780237802cf40b3cc0b3cc8e4f0b3d40b3d400000b6260b6248e4723908239082a4f0a9380a93c2a500a99c0ab0c2a590a9600a9642a5a0a9540ab042a530a9480a94c2a500aa000a9402a7a0a9500a9502a810a9540a95400000a9ae0a9ac2a870aa0c0a94800000a95a0a9582a7e0aa240a9f82abd0aa510aa1c2ab40aa510aa502a420a8fc21a3804d723758237582d05201340b3e0804b239140b3b42d660b5dc0b3f08e440b3f40b3f400000b59a0b4142d660b62c0b5988e4a23914239142a4b0a9a00a92c2a730aa24237b02cde2012c2012c00000ab0a0b3e82d750b6080b4388e44204880b6088e4923910239102a710a9f40ab082a570a9c40a9c42a6c0aa3c21a7804c723798237982cec204bc0b40c2d870b6380b3b02d650b6380b6388124201342013400000ab120ab102a5d0a9700a9742a5a0a9e80a9682a790a9780a9342a6c0aa340a9b02a680aa380a9a02a670aa180a99c2a790aa140a9e42a800a9fc0a96000000a96e0a93800000a9460a9442a730aa100a9cc2a7d0aa200a9f42a8c0aa2c0a9782a820aa280aa082ab80aa550a96c2a8b0aa200a9302a8b0aa280aa2c2abc0aa550aa542a6f0a9b4))
  (.nd (.lf
  0x2244c1a030681816b7c838520e080681818f6063d4063d489870687420db403f8223fc20e0803e322450224501971065c0065c4898506874223fc191b06468064688087068740687400000670a10564837020dd410568837520dc820dd403f02241c2241c1988225ec0662019c2067d406708898b2261810394837020dc410570837220dc020dc003f5224082240819a9066a0066a080090658c065801963067e40658c0000067b61335c837820de413538837a20de020de003ed22428224281983225f00660c19ec067b4067b48987225e02243c1978065dc065dc898b068802262c439f10ef010e7c43c710f702261c43a310e8810e88000010e9610e9443c710f5c10f1c7fa610f6c103fc837420dc820dc803f32241022410198c0662c0662c19f60663416a08838520e0c20e0c03e222454133c4837c20de820de803eb224302243019fa0682822454196f201f8065bc19f6067dc0650017aa226240682818ee063b4063b4898906710067d88989226142262443c51fe981fe9843df10f7820dc403f42240c2240c19f9068200669019bc067f4066e419cd0675820f64038c225ac225ac19d6068680675889be226c420e1403e02245c20dd003f122418)
  (.lf 0))) (.nd (.nd (.lf
  0x112dc44d6113d8112e444ba11344114ac44c11136c114b044c3113081130c44c4112fc114b444c7113181131c44c4113901131044e3113201136c44d6113e01135844d2113dc1134844d1113bc1134444e3113b81138c44e9113a0113a04529113e5112f444ba113a4113a44527113f1112e844e4112f8112f844ea112fc113a84522114211132044eb113cc113ac4521113f9112fc0000113561131844ec113d41135444f0113b0113b04528113ed113b4452411411113b8452011405113bc4523113e9113c0451d113f51130444f2113c4113080000113161131444f4113c4113c4451a113e5113c8451c113f1112d844f4113cc113cc451b11421113d04525113f9113d44519113ed1139044f8113d8113d8057711411113dc451e11405113e0451f113e9113e444a611294113ec44a81135c113f444ac112a4112b044a5113281129444ad11350112b44517113fc113f844d91135c1135c44e1113fc113fc4500114211140444af113501135044e5015d8113e844df113941139445141140811400450a1140811408450311435113f044aa112a4112a44513112b8112b8451611414112bc44dc114141140c45051142c11410450d1141411414450711419)
  (.lf 0)) (.nd (.lf
  0x885c2134206942149c023e22e5022e5022f608c4808c4821dc0876c08770819e084d022ff00000084d2084d020ca083240832820cb083180832c20ea0833c0831420f208318087948c08087a0087a48c09087a0087a0000008b1e0878c81b908b1c214b8023722e6c22e6c2227206780889c22c308bf808b0c8c0222fec08b1c8c06230082300820bc0836408324000008332083180000083720833420f4083f4082fc00000830a0830820e4083d4082f420fc083ec0833020fc083e4088548bff230141b8b08535214cc214cc023222e8022e80221e2068c0887822d908bac21508022322ebc22ebc22040880c0880c22e80881408814000008bae08bac8bff22fe808c4021e208784087888bf922ffc22ffc20e2083b8082f020e4083e80839020ee083e4083b820fd083f00833c20f3083ec083f0212d08419083cc2129084190841820e0083780837020f8083d0083d021300840d083f421210840d0840c20af083780837820e80841c0830c00000831e214b0023922e6422e640000088aa088a8222c088ac214d4023022e8822e88221c22fec0887022c008b740880422d908b74088b081a3084cc0884400000884e0884c81c008b7408b748c0120690)
  (.lf 0)))

def aesGateTree25 : BTree :=
  .nd (.nd (.nd (.lf
  0xfc943f26005dc0fc983f2e0fb400fca43ed70fb440fcb80170005cc0fc883ed20fb5c0fb5c0171005dc0fb4c0171005cc0fc803ed2005c80fc8c3ed2005c40fb483ed0005d40fb440170005c80fb400174005d823bb000000fa9a23bb400000fa9e23ba000000faa223b9c00000faa60fa983e390f8e00f8e000000f8f20f8f03e630f9b80f98c3ea20f9e523ba83e330f8c80f8cc3e520f9c80f8d43e360f9340fa9c3e3d0f95c0faa03e3f0f8f80f8fc3e400f8ec0faa43e430f9080f90c3e400f9800f9003e5f0f9100f95c3e520f9d00f9483e4e0f9cc0f9383e4d0f9ac0f9343e5f0f9a80f97c3e650f9900f9903ea50f9d50f8e43e360f9940f9943ea30f9e10f8d83e600f8e80f8e83e660f8ec0f9983e9e0fa110f9103e670f9bc0f99c3e9d0f9e90f8ec00000f9460f9083e680f9c40f9443e6c0f9a00f9a03ea40f9dd0f9a43ea00fa010f9a83e9c0f9f50f9ac3e9f0f9d90f9b03e990f9e50f8f43e6e0f9b40f8f800000f9060f9043e700f9b40f9b43e960f9d50f9b83e980f9e10f8c83e700f9bc0f9bc3e970fa110f9c03ea10f9e90f9c43e950f9dd0f9803e740f9c80f9c803f70fa010f9cc3e9a0f9f50f9d03e9b0f9d90f9d43e220f884)
  (.lf 0)) (.nd (.lf
  0x22a601f8a20300086f0847f21214086e88480212142121402e022aa422aa41f6d22c6007e281ff107fe407db41fc507fc407cbc80bf07fc407fc48b1c20468082888468211b4082908467211b4211b402f822a4422a441f1c07c6c07c708b130724422c70000007246072441c260710007bb48b1b07f1822c6c1c4007130071001c3b07178082e48470211c4081182044211a00811084692119c0806c1ec907b2007b248b1022c68080b48468211a4211a402fc22a34211c402f422a5422a541ffb08028211e402ec22a7422a741f8207e0407e088b1a07e0c22a341f6207d8407d841f6407fec2120802e322a9822a981f7207dc407dc4000007dce07dcc1ffb07ff007fec8b1a22c5822c681c1c0706c070701c3b07170070ec1c370717408514848021204086bc215e0858c086c0215e2121008578215c21200085708481211fc085b48480211fc211fc02e622a8c22a8c1fee08024080241ef407bcc07bcc801a07f1007c6c80c007be00858c8484211f8084b88470211d42120402e422a9422a94200508020080201ef607bd407bd48b1907be007dc88b1707be007be0000007f12083448475211cc211d402f022a64211f802e722a8822a881f77202e8)
  (.lf 0))) (.nd (.nd (.lf
  0x58b880f2190a805b9088dc203c8203c80000157fe0586c16c705c0805c08812c203b40578080ed190ac203b400001580a05a8888f605b3405a4c16cf05b5c05b3c88f6223c8223d85ba91ff4805a5416d005b4805b4088f4223c00575c88f4223d4223d05b8716e1816e18000016e2605a6480d705c8405c84000005afa05c1815fe057f4057f488f505af805af888f7223cc223dc5b8316e8016e0c5bab16f0016e245bab16eec16eac7fd216efc1ff485bc316f0805b0c88de2235c2235c558a1569c1562855b21571c05868000005bea05be888d9223500578c88d40579022350558e15634156340000156421564055b215708156c87fc715718058cc88d6190a40581c000005bae05bac88db223582235855b01ff1c1ff1c55ca1572416fe05b8b16e2816e28000016e3a16e385bb516f0016ed45bf416f2d223d45b8516e1016e145ba416f1016e1c5b8816e7c16fe45b8f16ea416fe85b9116e4016e445b9216e3416fec5b9516e5016e545b9216ec816e485bb116e5816ea45ba416f1816e905ba016f1416e805b9f16ef416e7c5bb116ef016ec45bb716ed816ed85bf716f1d16e2c5b8816edc16edc5bf516f2916e205bb216e3016e305bb816e34)
  (.lf 0)) (.nd (.lf
  0x93fc23b208ec42164c05d22312408f0c0000092ba092b88cbc232e0093f423b808edc08ee08cb1232dc08ec881891b80c23124243c20638090f024b60930c232d000001b80e1b8046d931b6481b64800001b65a1b6586dbe1b7241b6f86dfd1b7512310c244b232e0232e06d8b1b6a0232d86d8d1b6301b6346dac1b73408f008cb5232e4232d46d8f1b6381b63c6d901b69c1b8086d971b6c41b80c6d991b6601b6646d9a1b6541b8106d9d1b6701b6746d9a1b6e81b6686db91b6780930c8cb7232c8232dc6db11b6f41b6c46dac1b73c1b6b06da81b7381b6a06da71b7181b69c6db91b7141b6e46dc01b6fc1b6fc6e001b7411b64c6d901b7001b7006dfe1b74d1b6406dba1b6501b6506dc11b6541b7046df91b77d1b6786dc21b7281b7086df81b7551b65400001b6ae1b6706dc31b7301b6ac6dc71b70c1b70c6dff1b7491b63800001b6461b6446db31b7101b7106dfb1b76d1b7146df71b7611b7186dfa1b7451b71c6df41b7511b62c6db31b7241b65c6dc91b7201b66000001b66e1b66c6dcb1b7201b6cc6dbd1b7201b7206df11b7411b7246df31b74d1b6306dcb1b7281b7286df21b77d1b6f46dcc1b72c1b72c6dfc1b7551b7306df01b749)
  (.lf 0)))

def aesGateTree26 : BTree :=
  .nd (.nd (.nd (.lf
  0x75401b5000a8006d401950012800654006a23a0423a046187186181861c61881867c187e8618f186a4187ec61911864018644619218634187f0619518650186546192186c81864861b118658007cc01d3000300074c01b3000b0006cc0193001300064c006c23a0c23a0c61a9186d4186a461a41871c1869061a01871818680619f186f81867c61b1186f4186c461b8186dc186dc61f8187211862c6188186e0186e061f61872d1862061b2186301863061b918634186e461f11875d1865861ba18708186e861f0187351863400001868e1865061bb187101868c61bf186ec186ec61f718729186180000186261862461ab186f0186f061f31874d186f461ef18741186f861f218725186fc61ec187311860c61ab187041863c61c1187001864000001864e1864c61c318700186ac61b5187001870061e9187211870461eb1872d1861061c3187081870861ea1875d186d461c41870c1870c61f4187351871061e818729186c861c7187141871400001874d1871861ed187411871c61ee18725187206174185cc1872861761869418730617a185dc185e8617318660185cc617b18688185ec61e6187381873461a7186941869461af187381873861cf1875d)
  (.lf
  0x1f6a07dcf1f6a91f6a87d8f1f6541f6547dc41f6c81f69886d61f6d11f57c7d8c1f6d41f5d87d9c1f6941f6707dd81f6ad1ff607da51f6901f6947dc91f6ad1f6ac7d581f61c1f5e07d9b1f68c1f66c7dd11f6b91f5987da41f68c1f6907dd51f6b91f6b87d891f61c1f5747dc71f6bc1f61c7d911f6bc1f6bc7db01f6e11f6c07dba1f6c81f6747dd41f6d11f6d07dbd1f6d41f6887dcc1f6b11f6647dd71f6b11f6b07d5a1f5641f6c87db31f6f51f6cc7db51f6ec1f5647dc31f5781f5787dc61f6d41f6d47db71f6d91f6d87d8e1f6ec1f6687dd21f6e11f68c7dcb1f6e11f6e07d8e1f6e41f6387d6321b6c1f5587d5721b6c1f5687d5721b741f55c7d7f1f56c1f56c7dc51f6e41f5607d881f6e41f6e47dba1f6f11f6e87dbd1f6ec1f6ec7dbe1f6fd1f6fc7d881f6441f6207d8321b741f58c7d961f60c1f60c7d7d1f5fc1f6f87d8f1f7101f63c7d7e1f6401f6f47d7d1f5901f5907d921f5f81f6dc7d6021b5c1f5807d8c1f7101f6307d921f7041f6487dc31f7001f70c7dcb1f7491f72c7d7b1f6001f6407d621f5841f5f47d7b1f7081f5847dc21f7041f7087dcc1f75d1f7307d7b21b701f5f87d7a1f7141f7147dc91f7611f7247d7b21b6c))
  (.nd (.lf
  0x10d20438610d6d10c64434310c7410c74434910c7810d24438110d9d10c9c434a10d4810d28438010d7510c78000010cd210c94434b10d5010cd0434f10d2c10d2c438710d6910d30438310d8d10d34437f10d8110d38438210d6510d3c437c10d7110c80435110d4010c84000010c9210c90435310d4010d40437910d6110d44437b10d6d10c54435310d4810d48437a10d9d10d4c438410d7510d50437810d6910d0c435710d5410d54841e10d8d10d58437d10d8110d5c437e10d6510d60430510c1010d68430710cd810d70430b10c2010c2c430410ca410c10430c10ccc10c30437610d7810d74433810cd810cd8434010d7810d78435f10d9d10d80430e10ccc10ccc43442107c10d64433e10d1010d10437310d8410d7c436910d8410d84436210db110d6c430910c2010c20437210c3410c34437510d9010c38433b10d9010d88436410da810d8c436c10d9010d90436610d9510c1443062108c10c1c433710da010c2443062109410c18432e10c2810c28437410da010d9c433d10da010da0436910dad10da4436c10da810d94433d10da810da8436d10db910d98430f2107c10c3c433b10dcc10cf443122108c10c48434510cc810db0432c10c4c)
  (.lf 0))) (.nd (.nd (.lf
  0x1208c48591214c1216448601218912044480e1216812168486512185121a8828f20a541217c47e61202c12194481c121a41218848641207012070829020a3c12180486120a381218448691202c1218c486720a3c12174480d120481216c480d20a4c12178480d20a5012034480b20a401202c829120a3c20a3c01d621e3c21e3c0000050560505414130505005050139004e2405b6c88d1223341127c4432110c4110c40000110d6110d4445c1119c11170449b111c922344442c110ac110b0444b111ac110b8442f1111811280443611140112844438110dc110e04439110d011288443c110ec110f0443911164110e44458110f411140444b111b41112c4447111b01111c4446111901111844581118c11160445e1117411174449e111b9110c8442f1117811178449c111c5110bc4459110cc110cc445f110d01117c4497111f5110f44460111a0111804496111cd110d000001112a110ec4461111a81112844651118411184449d111c1111884499111e51118c4495111d9111904498111bd111944492111c9110d8446711198110dc0000110ea110e844691119811198448f111b91119c4491111c5110ac4469111a0111a04490111f5111a4449a111cd)
  (.lf 0)) (.nd (.lf
  0x176385d3c21530174f05d3a21520176405d9121518176285d9517645176445d99174e8174e885492151c1b5c06d1a215cc1b5b46d1a1b4501b4688574215b8215b805f7230901cdb4736e215982159805ff230702307024a2205240928824b10934819fb8679d19e8819e888584215f819fc467f2215f8215f805e7230d0230d0245d206440917424a90934819ea867a52161419e94679f19e8419e7c679d19f9419f9467ef19fe919e84679e19fac19fac67f619fc919fec857f2161419fd867ac19fe819eb08580215fc19fc867fa19e6c19fbc679d2161019e74679b2160019e6c8581215fc215fc05e6230d4230d424d3093b8093b823db08f682309023f120620091b024d2093a008f6c8188206600934881882059c2062000001d02219e788584216082161005e1230e819fe485802161419fe88585216082161405e0230ec230ec2453232a80914c24aa09358215d005f1230a8230a824702065c091c024d609378093588cae2061c230e824542061c0917c6e8e2061c2061c00001d01a1e8e8857c215d81e8d8857c215e8215f005e9230c8230c8246109180091846e8d206181cd8073691cde11cc7073181cd901cd9073681cddd1cda473781cc60)
  (.lf 0)))

def aesGateTree27 : BTree :=
  .nd (.nd (.nd (.lf
  0x168445a251688c1688c0267168c5168905a4b168b9168945a4c1689d1689859d316748168a059d516810168a859d9167581676459d2167dc1674859da16804167685a44168b0168ac5a0616810168105a0e168b0168b05a2d168d5168b859dc16804168045a12009981689c5a0c16848168485a41168bc168b45a37168bc168bc5a30168e9168a459d716758167585a401676c1676c5a43168c8167705a09168c8168c05a32168e0168c45a3a168c8168c85a34168cd1674c59d400988167545a05168d81675c59d4009801675059fc16760167605a42168d8168d45a0b168d8168d85a37168e5168dc5a3a168e0168cc5a0b168e0168e05a3b168f1168d059dd00998167745a09169041682c59e000988167805a1316800168e859fa16784167845a0f167ec168245a0f168f8168e45a06168381681859f71684c1684c5a43168f41683c5a40168f4168f45a4a1694d168ec5a0c169041683059fb168341683459df16778167785a3f168f8168f05a0516838168385a44168f8168f85a4716959168145a00009801680059fa167f0167e859f8168fc168fc5a4916951169005a481693d167ec59f716908169085a4616955169105a4b16935167f059f916914)
  (.lf 0)) (.nd (.lf
  0x1f08c7c301f0d11f094849e1f0cd1efbc7c261f0801f0987c2d1f0bd1f0cc7bb1212781eec484a31ef681f0b07bb21ef5c1eec87bd81ef681f0c07c342127c1f0d07bde2128c1f0bc7c311efa01f0c47bde1ef601f0a87bd91ef781ef7884a4212781ef747bda1f09c1ef6884a4212881f0ac7bd9212902129002c122b2022b201f3a2019007ce81fd107f4c07c101fe807c18087188bd408b301f0807c291f0e11ef707bd81f0901f0907c281f0dd1f09c7c321f0b91f0d484a0212941f0dc849f212941f0b47c2e212781f0b87c361ef5c1f0c87be81f0d81f0d884a5212881f0a47c381ef601ef6084a52128c1e5f4790f1e4381e43800001e44a1e448793a1e5141e4e879791e541088fc000008906089048bd508bd008a0080290898c0898c000008b3208b308be622f5822f5879071e49008984226408bec22f5079091e4201e42479281e52408990000008bbe08bbc8be222f4c22f4c790b1e4281e42c790c1e48c1e5f879131e4b41e5fc79151e4501e45479161e4441e60079191e4601e46479161e4d81e45879351e46822f54792d1e4e41e4b479281e52c1e4a079241e5281e49079231e5081e48c79351e5041e4d4793c1e4ec1e4ec797c1e531)
  (.lf 0))) (.nd (.nd (.lf
  0x5f6417d506080060801824060cd0609017d620d0c0609c17d620d1005f6817d70608c0608c182e060a9060b817e5060c8060ac182d05f9405f94834020cfc0607c182c060c1060b0183020cfc060cc833f20d14060a017af05f500609817d605f6c060a8183205f5005f5817d420d0005f50834120cfc20cfc0126222200e93839e10e7800e78000000e7920e7903a0b0e8580e82c3a4a0e88506344898d2264c2263439db0e7680e76c39fa0e8680e77439de0e7d40e93c39e50e7fc0e94039e70e7980e79c39e80e78c0e94439eb0e7a80e7ac39e80e8200e7a03a070e7b00e7fc39fa0e8700e7e839f60e86c0e7d839f50e84c0e7d43a070e8480e81c3a0d0e8300e8303a4d0e8750e78439de0e8340e8343a4b0e8810e7783a080e7880e7883a0e0e78c0e8383a460e8b10e7b03a0f0e85c0e83c3a450e8890e78c00000e7e60e7a83a100e8640e7e43a140e8400e8403a4c0e87d0e8443a480e8a10e8483a440e8950e84c3a470e8790e8503a410e8850e7943a160e8540e79800000e7a60e7a43a180e8540e8543a3e0e8750e8583a400e8810e7683a180e85c0e85c3a3f0e8b10e8603a490e8890e8643a3d0e87d0e8203a1c0e8680e86883260e8a1)
  (.lf 0)) (.nd (.lf
  0xb26081370b5a00b70c00000b5a20b5a08e41238f0238f02b630ae000ad8c2b8b0ae840af682b6f0ae240adc42b720adb40adc82b910add8238e82b650ad900ad942b840ae940ae242b840ae9c0ae102b800ae980ae002b7f0ae780adfc2b910ae740ae442b980ae5c0adbc2ba10ae800ae842bcb0aead0ae602bd60aead0aeac2b580ad5c0ad602b55219740adc000000adce0adcc2ba30ae800ae9c2bce0aea50ae582bd50aeb10ad9800000ada60ada42b8b0ae700adb400000ae0e0ae2c2b950ae800ae802bc90aea10ae742bcf0aec10ae982bcd0aec10aec02b5d0ae080ae5c2bd80aea10aea02b540ad4c0ae0c2b9f0ae6c0ae7c2bcc0aeb10aeb02b5a0ad5c0ad682b530ade00ad4c2b5b0ae080ae082b932195c0ad902ba30ae880add82b9a0ae880ae682bd00aeb50ae542ba40ae8c0ae8c2bd40aeb50add02b9b0ae900ae902bc80aea90ae6c2bd70aea90aeb42b870ae140aea82b560ae140ae142b8f0aeb80ad6c2bc60aeb80aeb82baf0aedd0aebc2bb90aec40ae782bd20aea50aea42b8d0ae4c0ae4c2bc30aec40aec42bb20aef10aec82bb40aee80ae9486560aecd0ae642bd10aedd0ae882bca0aedd0aedc2b8c0aee00ad742b8a0aed0)
  (.lf 0)))

def aesGateTree28 : BTree :=
  .nd (.nd (.nd (.lf
  0xf1d88238208f40f1e08237208f40f1d03bf3208d80efcc823b0f0700f1b43bf40f0640efd03c1a0f0700f0088238208e40f1c43c75208dc0f1d43c20208ec0f1a83c790f0680f1e4823a208e00f1cc3c2a0f1dc0f1c03c720f0a80f0a88238208dc0f1b83c6f208d80f1bc3c770f0640f1c83c200f0680f1dc823d208e80f1ac3c1b0f0800f080823c208d80f070823c208e80f1a43c1b208ec0f1b03c1b208f00f06c3c19208e00f068823d208ec0f0648239208dc0078801c2000740070801a2000f40068801820017400608007d23a5023a5000000d3720078401c1000780070401a1000f80068401810017800604007e23a5423a5400000d3760079801c6000640071801a6000e40069801860016400618007923a4023a4000000d37a0079c00000180e0180c0602000600071c00000180a018080601000e00069c000001806018040600001600061c00000180201800007823a3c23a3c00000d37e0d370346e0d1b40d1b400000d1c60d1c434990d2900d26434d80d2bd0078001c00007c0070001a0000fc0068001800017c00600007f23a5823a5834660d20c0079001c40006c0071001a4000ec0069001840016c00610007b23a4823a4834680d19c)
  (.lf
  0x2c140adb02c1802bf40b0702bfc02a940ad502c1802bbc0b1902be502a8c0aa421acc02b980b2402be502be40aa702a9802a9c0aa421ad402a900acc02aa002aa00b1202c1802c180b0702c2502c1c0b0a02c2002a980b1002aac02aac0b1302c0802bd00b1b02bf902bac0b1d02bf902bf80aac02b4402b440ae221abc02ba80b2102c0502ab00ad902c0802bb00b2002bdd02b840af502bcc02bd40b1c02bdd02bdc0adc02b8802b880b1102bfc02bfc0b0002c2902c000b0202c2002bcc86ae02c0502c040b0a02c0802c080b0402c0d02c0c0adb02c2002c200b0b02c3102c2c0adc02c4402b6c0ab021acc02ac00ae302b4002c240ad602b7802b580ac702b8c02b8c0b1302c3402c100aad21abc02ab40ad902c4402b640adf02c3802c280aca02ac402ac40adf02b2c02b7c0b1002c3402c340b1a02c8d02c680aa102b1802a840ac702b2402c300ad502b7802b780b1402c3802c500b1b02c7502c740b1f02b5c02b540ad021ad402b400aca02b3002b300ac902c5402c540b2002c7102b700acb02b7402b740aaf02ab802ab80b0f02c3802c380b1702c9902c5c0b2602b1c02c800ad702c9002c6c0b1c21ab802c400b1802c7d02c7c0acd02b1c))
  (.nd (.lf
  0x144485114143301445050c2142f01443450bd143081430883e420f7814440511120f7820f780387225c0225c01999204800666419bc067ec210840344227f0227f01b2c06cac0685418d3063480634880d30672006cb81bcf06f4406cfc1bbe06d0806f448a59203082296400001190a1190045d3117481174800001175a1175845fd11820117f4463c1184d06d08000006f2a06cac1bc806f2806f288a5b229582296c45cd117301173445ec118301173c45d01179c1190445d7117c406ce04642203181190845d9117601176445da117541190c45dd117701177445da117e81176845f911778117c445ec11838117b045e811834117a045e7118141179c45f911810117e445ff117f8117f8463f1183d1174c45d0117fc117fc463d118491174045fa1175011750460011754118004638118791177846011182411804463711851117540000117ae1177046021182c117ac46061180811808463e118451180c463a118691181046361185d118144639118411181846331184d1175c46081181c1176000001176e1176c460a1181c1181c46301183d1182046321184911730460a118241182446311187911828463b118511182c462f11845117e8460e11830)
  (.lf 0))) (.nd (.nd (.lf
  0x4e247ff81ffb81ffe00000048f615a18829820a7415a1c829d20a6820a7401c821e7421e74142a22028050a813b104e80121a0829020a54121a4829520a4820a5401d021e5421e54141f05080050807ff704ec804e807fdc1ffdc1ffdc0000048ee051287ff604ecc1ffd80000044961ffd400000449204d84149405254052507ff41f99c1ffd00000046ca20ac001b521ec021ec0144f2202c0eddc82a820aa40efb882aa20aa020aa001bd21ea021ea0143e050fc050f87ff3052240513c138104dc804dc8880f1ffcc1ffcc0000046c61905c6422190791909c826f209d41908863d81909818f608270209bc19078642618f1c18f2463c7209c018f1c8271209bc209bc01f621dbc21dbc137004da004da014820520c209d801ef21dd821dd813ea1ffc80520c7ff204d541ffc8000004272190948270209d418ec08270209c4190a08272209c015d4082682099c15d04573f209a015cfc82692099c15a748278209e415c50827a209e02099c01fe21d9c21d9c000004fd204fd013f204fcc04fcc138504dbc209e001ed21de021de013ee21fa804fb8138504e1004e1487f01ffc404fac7ff104fbc209c001f521dc021dc013c804f2404f247ff105038)
  (.lf 0)) (.nd (.lf
  0x8ce0000008cf208cf0236408dbc08cf4236f08db808d44236d08da408d7c236608d9408db8239708dd908db4239a08de908d9423a608dd908dd8232208c8408d9023a308de908de8232808c9408ca0232108d1808c84232908d4008d08236908dc808dc8239608de108da423a508de108de0232408d4c08d4c235d08df008ca4239408df008df0237d08e1508dc0239808e1508d9c239f08e1508e14235a08e1808dbc239908de508d9823a408de508de4232608c9408c8823232148c08c90235408e1808c9823232149408c8c234b08c9c08c9c239208e1808e18238708e2508df4238708dfc08e1c238a08e2008dd0239b08df908dac239d08df908df8232b08d4008d4023612147c08d80237508dcc08dd4239c08ddd08db023a008ddd08ddc235b08d8408d84239108dfc08da823a108e0508dcc851e08e0508e04238a08e0808cac235808e0808dfc238008e2908e00238208e2008c94239008ca808ca8239308e0808e08238408e0d08e0c235a08e2008e20238b08e3108e30235408d7408d50234f2149408d68232f2148c08cbc236208d3c08d3c234908d2c08d2c234808e5408e5423a008e7108e80235608e900912800000935208fac8cce09418)
  (.lf 0)))

def aesGateTree29 : BTree :=
  .nd (.nd (.nd (.lf
  0xb2802aa00d2800aa8028a00ca800a28030a23c3023c300000162da126cc02e900bbc00ba402c900da400b2402a900d2400aa4028900ca400a24030923c3423c340000162de126b002ec00bb800bb802ce00db800b3802ae00d3800ab8028e00cb800a38030e23c2023c200000162e200bbc02cf00dbc00b3c02af00d3c00abc028f00cbc00a3c030f23c1c23c1c0000162e6162d858491612016120000016132161305873161f8161cc58b21622500bb002cc00db000b3002ac00d3000ab0028c00cb000a30030c23c2823c285843161081610c58621620816114584616174162dc584d1619c162e0584f161381613c58501612c162e45853161481614c5850161c016140586f161501619c58621621016188585e1620c16178585d161ec16174586f161e8161bc5875161d0161d058b516215161245846161d4161d458b316221161185870161281612858761612c161d858ae16251161505877161fc161dc58ad162291612c0000161861614858781620416184587c161e0161e058b41621d161e458b016241161e858ac16235161ec58af16219161f058a91622516134587e161f416138000016146161445880161f4161f458a616215161f858a816221)
  (.lf 0)) (.nd (.lf
  0x1a9646a57211001a95c8441210fc21108032322874228741aed06bb006bb48a732076821104032422870228701af006bbc06bc08a7220768210fc032622868228681af506bd006bd480722076820768000006ea208740802808b28206f000001ec8a08b8481bb200b0206ec00001ec86206d800001ec92206d400001ec8e2069000001df6a2068c00001df6608bc48be5206802068000001dd3a08bd0802d2067c2067c00001dd362067800001df722067400001df6e2066400001dd4208c5821d3087480874c8c18230641ec847ab31eac81eac800001eada1ead87ade1eba41eb787b1d1ebd1087488c0b08b2808b288c1b2303c2306c7aab1eb2008b608c1923030230647aad1eab01eab47acc1ebb4230607aaf1eab81eabc7ab01eb1c1ec887ab71eb441ec8c7ab91eae01eae47aba1ead41ec907abd1eaf01eaf47aba1eb681eae87ad91eaf808ae421fa23068230687ad11eb741eb447acc1ebbc1eb307ac81ebb81eb207ac71eb981eb1c7ad91eb941eb647ae01eb7c1eb7c7b201ebc11eacc7ab01eb801eb807b1e1ebcd1eac07ada1ead01ead07ae11ead41eb847b191ebfd1eaf87ae21eba81eb887b181ebd51ead400001eb2e1eaf07ae31ebb0)
  (.lf 0))) (.nd (.nd (.lf
  0x136604dd9136a5135b44d6a13664136644dd7136b1135a84d94135b8135b84d9a135bc136684dd2136e1135e04d9b1368c1366c4dd1136b9135bc000013616135d84d9c13694136144da013670136704dd8136ad136744dd4136d1136784dd0136c51367c4dd3136a9136804dcd136b5135c44da213684135c80000135d6135d44da413684136844dca136a5136884dcc136b1135984da41368c1368c4dcb136e1136904dd5136b9136944dc9136ad136504da813698136988346136d11369c4dce136c5136a04dcf136a9136a44d5613554136ac4d581361c136b44d5c13564135704d55135e8135544d5d13610135744dc7136bc136b84d891361c1361c4d91136bc136bc4db0136e1136c44d5f13610136104d9520d1c136a84d8f13654136544dc4136c8136c04dba136c8136c84db3136f5136b04d5a13564135644dc313578135784dc6136d41357c4d8c136d4136cc4db5136ec136d04dbd136d4136d44db7136d9135584d5720d2c135604d88136e4135684d5720d341355c4d7f1356c1356c4dc5136e4136e04d8e136e4136e44dba136f1136e84dbd136ec136d84d8e136ec136ec4dbe136fd136dc4d6020d1c135804d8c13710136384d6320d2c)
  (.lf 0)) (.nd (.lf
  0x173945ce6173b91733c5d0d17389173605d0217389173885c8f17238172385cf91724c1724c5cfc173ac173745d041739d173505d061739d1739c5c94172e4172505cc1173ac173785d0517381172e45cca2165c173545d0917381173805cc417328173285cfa173a0173985cf0173a0173a05ce9173cd1734c5d0a173a9173a85cf3173ac173a45ceb173c4173ac5ced173b11722c5c8c2166c1723c5c8c21674173405d08173b9172305cb417240172345cbd173bc172405cfb173bc173645d01173b9173b85cc3173bc173bc5cf0173c9173c05cf3173c4173b05cc3173c4173c45cf4173d5173d45cbd173181730c5c982166c172605ccb172e0172f45cb821674172e05cb2172d0172d05cb1173f8173f85d0917415174245cbf174342393064cd193301933464ec19434204d0000019506204bc000019512204b800001950e0b374812d23938204b400001950a1951064dd193701937464da193e80b3880000239362393464f1193f42393864cb193a01950864d7193c4193c464ec1943c193b064e819438193a064e7194182392c64cf19338193380000193461934464f3194101950464d3193481934c64d0194001933c64d01939c1934064fa19350)
  (.lf 0)))

def aesGateTree30 : BTree :=
  .nd (.nd (.nd (.lf
  0xb9302dde0b7740b77400000b7860b7842e090b8500b8242e480b87d23af82dd60b7cc00ef0039c004f000e70011c23ae823ae82dd80b75c0b7602df80b86023ae42dda0b7640b7682ddb0b7c80b9342de20b7f40b9382de40b78c0b7902de50b7800b93c2de80b79c0b7a02de50b8180b7942e050b7a423aec2dfd0b7dc0b7f42df80b8680b7e02df30b8640b7cc2df20b8440b7c82e050b8400b8142e0b0b8280b8282e4b0b86d0b7782ddb0b82c0b82c2e490b8790b76c2e060b77c0b77c2e0c0b7800b8302e440b8a90b7a42e0d0b8540b8342e430b8810b78000000b7da0b79c2e0e0b85c0b7d82e120b8380b8382e4a0b8750b76400000b7720b7702dff0b83c0b83c2e460b8990b8402e420b88d0b8442e450b8710b8482e3f0b87d0b7582dff0b8500b7882e140b84c0b78c00000b79a0b7982e160b84c0b7fc2df70b84c0b84c2e3c0b86d0b8502e3e0b8790b75c2e160b8540b8542e3d0b8a90b7dc2e170b8580b8582e470b8810b85c2e3b0b8750b8182e1a0b8600b86001670b8990b8642e400b88d0b8682e410b8710b86c2dc70b7180b8742dc90b7e40b87c2dcd0b7280b7342dc60b7ac0b7182dce0b7d40b7382e390b8840b8802dfb0b7e4)
  (.lf
  0x24000043621bbc21bbc000001d5a01d5806ec01bac01bb006ed01ba024010043221bcc21bcc000001d5201d5006e601b9424004043521bc021bc006e201b8401b8806e301be801b9806e301c4c01b8c070e01b9c01b9c071401ba001ba0000001bfa2400c043321bc821bc8070501bfc23ffc043721bb824018043021bd421bd406de01bec21bb8000001d5e01d5c06f001bbc01bbc071601c7c01bf8071a01c5801c58075201c9501b84000001b9201b78070701c7001b90070701c5c01c1c06ff01c6c01bfc071f01c7801c7c074301c9501c9406d101c0424014043121bd021bd0000001d5601d5406ea01c1424008043421bc421bc406e001b7c01b80070001c8001c14070001c8801c0006fb01c8401bec06fa01c6401be8070d01c6001ba8071c01c6c01bac000001bba01bb8071e01c6c01bc006ed01c3801bb4070d01bc401c34071301c4801c48075301c8d01c6c074401c8d01c8c06cf01b3801b3c06d0219cc01b94000001ba601ba4071101c7001c70074601c9901c4c075101c99))
  (.nd (.lf
  0x21164030c228d0228d01bc007010070101ab006abc06abc8a8206ed4211480313228b4228b41bb706fbc06fbc1ae206b8406b848a7a0701806ab480df06ed4228a01b9e06e7406e108a8906e9c06e288a8806ed4211440314228b0228b01b9606e5406e588a830701806e6c807a0701807018000006e9e06e9c8a81229f406ed48a8522a0406e78393922a0422a047c4f1f1b006ac08a7e229fc06dfc1bc406f3806e2c8a8606f3806e54000006e5e06e5c1bc006f3806f388a7e229e4229f87c531f1481f14800001f1561f1547c771f21c1f13c7c771f2301f1dc7fd61f22c1ff587c8f1f2381f3107c571f1581f15800001f16a1f1687c811f2301f2047cc01f25d06b881ae3229fc211840304228f0228f0000006df206df01b7e06df406df41bb806ee821124031c22890228901bba06ff806ee88a83229fc229fc7c511f1401f1447c701f2401f14c7c541f1ac1f3147c5b1f1d41f3187c5d1f1701f1747c5e1f1641f31c7c611f1801f1847c5e1f1f81f1787c7d1f1881f1d47c701f2481f1c07c6c1f2441f1b07c6b1f2241f1ac7c7d1f2201f1f47c831f2081f2087cc31f24d1f15c7c541f20c1f20c7cc11f2591f1507c7e1f1601f1607c841f164)
  (.lf 0))) (.nd (.nd (.lf
  0x11d5846e911ba011ba0000011bb211bb0471311c7811c4c475211ca5226d846e311b8811b8c470211c8811b9446e611bf411d5c46ed11c1c11d6046ef11bb811bbc46f011bac11d6446f311bc811bcc46f011c4011bc0470f11bd011c1c470211c9011c0846fe11c8c11bf846fd11c6c11bf4470f11c6811c3c471511c5011c50475511c9511ba446e611c5411c54475311ca111b98471011ba811ba8471611bac11c58474e11cd111bd0471711c7c11c5c474d11ca911bac000011c0611bc8471811c8411c04471c11c6011c60475411c9d11c64475011cc111c68474c11cb511c6c474f11c9911c70474911ca511bb4471e11c7411bb8000011bc611bc4472011c7411c74474611c9511c78474811ca111b88472011c7c11c7c474711cd111c80475111ca911c84474511c9d11c40472411c8811c88830e11cc111c8c474a11cb511c90474b11c9911c9446d211b4411c9c46d411c0c11ca446d811b5411b6046d111bd811b4446d911c0011b64474311cac11ca8470511c0c11c0c470d11cac11cac472c11cd111cb446db11c0011c00471120c3c11c98470b11c4411c44474011cb811cb0473611cb811cb8472f11ce511ca046d611b5411b54473f11b68)
  (.lf 0)) (.nd (.lf
  0x1755c5d8817608176085d8f1766117620854617659176585d142151817450854b174f41763c5d15174e8174545d3b174f4175005d3d17628174f4854c2152809d7426a92050c235bc000009aa609aa4263f098f809f608d77200e8200e8000009aa209b68814409eac09d688d720a02009fbc26dd09b7009b708d740a0200a020000009eae09eac8d78235cc235cc26310993809b7426de235c409b780000235c2235c02635098d0098d00000098de098dc2659099a8098c42659099bc099642663099b809aa0263d0995c098f4266f099b8098f8000009906099042671099b8099b82697099d9204f0000019ba2204ec000019b9e204e8000019b9a09f20813920604204e4000019b9609ff426bc09aec09e8026e1236b009ae4818309ec409aec8d9d09ec409ec48dad2368409efc8dab2367809af08daa236ac19b946677199d8199d80000199ea199e866a219ab419a8866e119ae1236b4666f19a30236ac6671199c0199c4669019ac4236a86673199c8199cc667419a2c19b98667b19a5419b9c667d199f0199f4667e199e419ba0668119a0019a04667e19a78199f8669d19a08236b0669519a8419a54669019acc19a40668c19ac819a30668b19aa8)
  (.lf 0)))

def aesGateTree31 : BTree :=
  .nd (.nd (.nd (.lf
  0xf6703e060f7e80f7e43dcf0f7e80f7e83dfb0f7f50f7ec3dfe0f7f00f7dc3dcf0f7f00f7f03dff0f8010f7e03da1009d80f6843dcd0f8140f73c3da4009c80f6903dd70f7100f7f83dbe0f6940f6943dd30f6fc0f7343dd30f8080f7f43dca0f7480f7283dbb0f75c0f75c3e070f8040f74c3e040f8040f8043e0e0f85d0f7fc3dd00f8140f7403dbf0f7440f7443da30f6880f6883e030f8080f8003dc90f7480f7483e080f8080f8083e0b0f8690f8103e0c0f84d0f8143e120f8590f6fc3dbb0f8180f8183e0a0f8650f81c02770f8550f8203e0f0f8450f8543d94009dc0f65002720f6f40f8383d950f6e80f6543dbb0f6f40f8483e16009d80f8583dc1009c80f8443e130f72c0f84c3dc10f6ec0f82c3e1a0f6ec0f6ec0270009c80f8283dbc009c8009c8025200bc800948023200b48008c8021200ac801648021223d1000848029223c9023c9000001721215f4405f1017dc0f4d804f1013dc013c404d1015c40134404b101544012c40491014c401244051123e14113400571015dc015c40551017c401544053101744017c405d1009c40174405b100944014c40511016c401444059123d940f7243dc4009c00f7103dbe0f7000f6f83dbc0f80c)
  (.lf 0)) (.nd (.lf
  0x178645dc8177341785c5dc8213ac178685dc8213b0177205dc6213a01771884e92139c2139c027e22d5022d500000089fa089f82280089fc089fc22ee08c1008f4000002331a2332400001be962332800001be9a2331400001be9e1be946f371bcd81bcd800001bcea1bce86f621bdb41bd886fa11bde108f2400002331e2332c6f2f1bd302331c6f311bcc01bcc46f501bdc4233186f331bcc81bccc6f341bd2c1be986f3b1bd541be9c6f3d1bcf01bcf46f3e1bce41bea06f411bd001bd046f3e1bd781bcf86f5d1bd08233206f551bd841bd546f501bdcc1bd406f4c1bdc81bd306f4b1bda81bd2c6f5d1bda41bd746f641bd8c1bd8c6fa41bdd11bcdc6f341bd901bd906fa21bddd1bcd06f5e1bce01bce06f651bce41bd946f9d1be0d1bd086f661bdb81bd986f9c1bde51bce400001bd3e1bd006f671bdc01bd3c6f6b1bd9c1bd9c6fa31bdd91bcc800001bcd61bcd46f571bda01bda06f9f1bdfd1bda46f9b1bdf11bda86f9e1bdd51bdac6f981bde11bcbc6f571bdb41bcec6f6d1bdb01bcf000001bcfe1bcfc6f6f1bdb01bd5c6f611bdb01bdb06f951bdd11bdb46f971bddd1bcc06f6f1bdb81bdb86f961be0d1bd846f701bdbc1bdbc6fa01bde5)
  (.lf 0))) (.nd (.nd (.lf
  0x1fe80409d1027006b948a8322a1022a1037481fe3c22a0837260dc940dc9400000dca222a1437220dcfc0dc88374a0dd7c0dca0374a0dd680dd287f8f0dd781fe3c37620dd840c2b030a90c3d80c3d831010c3f50c40430b80c4140c3a830b70c2fc0c2dc30a70c3100c31030f40c3b8133104c57131581315800001316a131684c8113230132044cc01325d229584c5113140131444c70132401314c4c54131ac133144c5b131d4133184c5d13170131744c5e131641331c4c6113180131844c5e131f8131784c7d13188131d44c7013248131c04c6c13244131b04c6b13224131ac4c7d13220131f44c8313208132084cc31324d1315c4c541320c1320c4cc113259131504c7e13160131604c8413164132104cbc13289131884c8513234132144cbb13261131640000131be131804c861323c131bc4c8a13218132184cc2132551321c4cbe13279132204cba1326d132244cbd13251132284cb71325d1316c4c8c1322c1317000001317e1317c4c8e1322c1322c4cb41324d132304cb613259131404c8e13234132344cb513289132384cbf132611323c4cb313255131f84c92132401324083a613279132444cb81326d132484cb9132511324c4c40130fc)
  (.lf 0)) (.nd (.lf
  0x9b1481771b5dc1972c863f21914218fc0526234f8234f826f409bcc09bcc000009bd609bd427e509fa0218c00535234bc234bc270b2362809c2c27d909fa009fa08d8e205d82363800001b5de1b5dc6d0d1b4301b4346d0e1b4241b5e06d111b4401b4446d0e1b4b81b4386d2d1b448218e8052b234e4234e427d209fd009b388d9a09b4409fd026d309b4809b488d9b09b4409b44000009eba09b30803609eb809eb88d98236500aaf8862d218a8218a8053b234a4234a427c609fdc09fdc26cb09b2809b2c8d8b2364419728864521908218b40538234b0218b80537234b4234b4270f205dc09c3c27aa09f94219140520235102351026e72366009b9c27aa09ed409ea88d9423634234b0271109c4009c44817523650236506cff1b470218cc0532234c8234c82706205f009c1827c009f48219080523235042350426eb09ba82350026ef09bb809bb827d909bc009c1c27c609bc009bc0000009f6a09f688d902362c218a4053c234a0234a027cf09fe009b4c26c92365809fe026c809b1c09b208d8a09b2409b24000023642236406d011b4001b4046d201b50409bf48d912365c09ba827cf09bb409bb4000009f4a09f488d9123630236446d251b4c4)
  (.lf 0)))

def aesGateTree32 : BTree :=
  .nd (.nd (.nd (.lf
  0x35780d8603588035880dcc03700036fc0d9503700037000dc10370d037040dc403708036f40d9503708037080dc503719036f80d67207dc0359c0d930372c036540d6a207ec035a80d9d03628037100d84035ac035ac0d99036140364c0d99037200370c0d9003660036400d8103674036740dcd0371c036640dca0371c0371c0dd403775037140d960372c036580d850365c0365c0d69035a0035a00dc903720037180d8f03660036600dce03720037200dd1037810363c0d8a207f4036280d8403618036100d8203724037240dd303779037280dd2037650372c0dd803771036140d8103730037300dd00377d0373481f60376d037380dd50375d036180d830373c0373c0dda037590377481f8207f40377c81f7207f40376c0d5a207d80356881fb0360c037500d5b036000356c0d810360c035a481f8207e4037600ddc207dc037700d87207ec037440de0036040378081fa207e0037680d91037780375c0dd9036440364481f8207dc037540dd6207d8037580dde03600037640d87036040377881fd207e8037480d820361c0361c81fc207d80360c81fc207e8037400d82207ec0374c0d82207f0036080d80207e00360481fd207ec0360081f9207dc)
  (.lf
  0xa60429820a6310a60829840a6280b43c80480b6100b6108e4f2392c2393c29c30a7080a70c29c40a76c0b3a08e4c0b5940b3842ce20b5940b3dc81230b5940b3ac812e0b5940b5948e52239382394829bf0a7700a77029db0a7e80a76c29ed0a7e40b6e42c7c0b1ec0b62c8049204bc2012400000a8e20b1ec80480b5b40b61c8048204b82012000000a8de0a8dc29cd0a7300a73429ce0a7240a8e029d10a7400a74429ce0a7b80a73829ed0a7480a74829f60a7f80a7b429f40a7cc0a7cc2a340a8110a7e82a2e0a8150b3782d750b5dc0b5d4804e204d02013800000a8d60a8d429c70a7180a71c29c40a7d00a71029ee0a7200a7b82a030a8040a804861e0a83d0a72029f50a7240a71800000a72a0a72829f20a7f40a7c82a310a8210a72400000a77e0a77c29fb0a7dc0a7ec2a280a8210a82029b60a6cc0a6d829af0a7500a6fc29e70a7f40a73000000a73e0a72c29fd0a7f00a70800000a7160a71429e70a7e00a79c29f10a7f00a73c29ff0a7f00a7f02a250a8110a81029b00a6bc0a6bc29b70a7780a7e42a2b0a8310a7d82a2c0a8250a8082a290a8310a83029b90a7780a77829ef2187c0a80c2a2a0a8150a81429e90a7bc0a7bc2a1f0a834))
  (.nd (.lf
  0xdebc37ce0dfb80dec437b20df240e08c37b90df4c0e09037bb0dee80deec37bc0dedc0e09437bf0def80defc37bc0df700def037db0df000df4c37ce0dfc00df3837ca0dfbc0df2837c90df9c0df2437db0df980df6c37e10df800df8038210dfc50ded437b20df840df84381f0dfd10dec837dc0ded80ded837e20dedc0df88381a0e0010df0037e30dfac0df8c38190dfd90dedc00000df360def837e40dfb40df3437e80df900df9038200dfcd0df94381c0dff10df9838180dfe50df9c381b0dfc90dfa038150dfd50dee437ea0dfa40dee800000def60def437ec0dfa40dfa438120dfc50dfa838140dfd10deb837ec0dfac0dfac38130e0010dfb0381d0dfd90dfb438110dfcd0df7037f00dfb80dfb883960dff10dfbc38160dfe50dfc038170dfc90dfc4379e0de740dfcc37a00df3c0dfd437a40de840de90379d0df080de7437a50df300de94380f0dfdc0dfd837d10df3c0df3c37d90dfdc0dfdc37f80e0010dfe437a70df300df3037dd20e5c0dfc837d70df740df74380c0dfe80dfe038020dfe80dfe837fb0e0150dfd037a20de840de84380b0de980de98380e0dff40de9c37d40dff40dfec37fd0e00c0dff038050dff40dff437ff0dff9)
  (.lf 0))) (.nd (.nd (.lf
  0x1094041f901598107e4422510974109584216107f4107f4422b1085c10894422b10968108ac425c10964109704264109ad1095c42281097410974426a109b91089c41fc01588107f0422f10870109544222108a8108884213108bc108bc425f109641097c0567109b5109604221108a8108a8426010968109804267109a5109b441ec0159c109a8426e01598109b8421901588109a4426b1088c109ac42191084c109904214108641086405610159c1099c42680159c0159c05470179c0151c05270171c109644266109bd108a04217108a4108a441fb107e8107e8425b1096810884421c01580108704216108601085842141096c1096c4265109c11085c421310978109784262109c51086042151098410984426c109a1109c40566015801099841ed10848109b04223109c01088c056501598109a0427010848109884214015881099442140158410850421201594108480564015980159805460179801518052601718109684263109c9107b0056210854107b44213108541098c42721084c109c8056301594109c005600158c1085405610158c0158c05430178c0150c05230170c109bc056501580107ec0565015901084c05600158801594054501794)
  (.lf 0)) (.nd (.lf
  0x1ee007b2e1ecac1ecb87b271ed301ec9c7b2f1ed581ecbc7b9a1ee081ee047b5b1ed641ed647b631ee081ee087b831ee2d1ee107b311ed581ed587b67212fc1edf47b611ed9c1ed9c7b971ee141ee0c7b8d1ee141ee147b861ee411edfc7b2c1ecac1ecac7b961ecc01ecc07b991ee201ecc47b5e1ee201ee187b881ee381ee1c7b901ee201ee207b8a1ee251eca07b292130c1eca87b5a1ee301ecb07b29213141eca47b511ecb41ecb47b981ee301ee2c7b601ee301ee307b8d1ee3d1ee347b901ee381ee247b601ee381ee387b911ee491ee287b32212fc1ecc87b5e1ee5c1ed807b352130c1ecd47b681ed541ee407b4f1ecd81ecd87b641ed401ed787b641ee501ee3c7b5b1ed8c1ed6c7b4c1eda01eda07b991ee4c1ed907b961ee4c1ee4c7ba01eea51ee447b611ee5c1ed847b501ed881ed887b341eccc1eccc7b951ee501ee487b5a1ed8c1ed8c7b9a1ee501ee507b9d1eeb11ed687b55213141ed547b4f1ed441ed3c7b4d1ee541ee547b9f1eea91ee6484be1ee9d1ee687ba11ee8d1ed447b4e1ee6c1ee6c7ba61ee891ee9c7b25212f81ec9484c31ed381ee807b261ed2c1ec987b4c1ed381ee747bac1ed301eeb084c2213001ee847ba2212f8)
  (.lf 0)))

def aesGateTree33 : BTree :=
  .nd (.nd (.nd (.lf
  0xba582ed70ba9d0b9a82e670ba5c0ba5c2ed50baa90b99c2e920b9ac0b9ac2e980b9b00ba602ed00bad90b9d42e990ba840ba642ecf0bab10b9b000000ba0a0b9cc2e9a0ba8c0ba082e9e0ba680ba682ed60baa50b99400000b9a20b9a02e8b0ba6c0ba6c2ed20bac90ba702ece0babd0ba742ed10baa10ba782ecb0baad0b9882e8b0ba800b9b82ea00ba7c0b9bc00000b9ca0b9c82ea20ba7c0ba2c2e830ba7c0ba7c2ec80ba9d0ba802eca0baa90b98c2ea20ba840ba842ec90bad90ba0c2ea30ba880ba882ed30bab10ba8c2ec70baa50ba482ea60ba900ba9003e70bac90ba942ecc0babd0ba982ecd0baa10ba9c2e530b9480baa42e550ba140baac2e590b9580b9642e520b9dc0b9482e5a0ba040b9682ec50bab40bab02e870ba140ba142e8f0bab40bab42eae0bad90babc2e5c0ba040ba042e9300f980baa02e8d0ba4c0ba4c2ec20bac00bab82eb80bac00bac02eb10baed0baa82e570b9580b9582ec10b96c0b96c2ec40bacc0b9702e8a0bacc0bac42eb30bae40bac82ebb0bacc0bacc2eb50bad10b94c2e5400f880b9542e860badc0b95c2e5400f800b9502e7c0b9600b9602ec30badc0bad82e8c0badc0badc2eb80bae90bae02ebb0bae4)
  (.lf 0)) (.nd (.lf
  0x1a81c6a101a8201a8206a0a1a8251a6a069a92118c1a6a869da1a8301a6b069a9211941a6a469d11a6b41a6b46a181a8301a82c69e01a8301a8306a0d1a83d1a8346a101a8381a82469e01a8381a8386a111a8491a82869b22117c1a6c869de1a85c1a78069b52118c1a6d469e81a7541a84069cf1a6d81a6d869e41a7401a77869e41a8501a83c69db1a78c1a76c69cc1a7a01a7a06a191a84c1a7906a161a84c1a84c6a201a8a51a84469e11a85c1a78469d01a7881a78869b41a6cc1a6cc6a151a8501a84869da1a78c1a76869d5211941a75469cf1a7441a73c69cd1a8541a8546a1f1a8a91a8586a1e1a8951a85c6a241a8a11a864845e1a89d1a78c6a1a1a8501a8686a211a88d1a89c69a5211781a69484631a7381a88069a61a72c1a69869cc1a7381a8906a282117c1a8a069d22118c1a88c6a251a7701a89469d21a7301a87869cd1a7481a7488464211781a74469ce1a86c1a7388464211881a87c69cd21190078441db92111c076e41de507878077941deb0786c0785c1dd6076f4076f41deb0775c077ac1e1d07868077a81e210786c07dd08b0a07dd807e041f760801407dd8000007fb207fb08b1522c3807fb88b1420078078741e25078b1)
  (.lf 0))) (.nd (.nd (.lf
  0x2266c5b1e1ff44226645afc16bec16bec000016bfa16bf85b2016cc0226705af816c5416be05b2016cd416c807fd116cd01ff445b3816cdc226a84e161fee4226a04df4137cc137cc0000137da226ac4df013834137c04e18138b4137d84e18138a0138607fb9138b01fee44e30138bc226dc47071feb00631c89b5226d8226d446e511b9011b90000011b9e11b9c470911c64226e046e111bf811b84470911c7811c247fac11c741feb0472111c80139944df8137dc137dc0000137ee137ec4e22138b4138884e61138e1226a44df2137c4137c84e11138c4137d04df513830139984dfc138581399c4dfe137f4137f84dff137e8139a04e0213804138084dff1387c137fc4e1e1380c138584e11138cc138444e0d138c8138344e0c138a8138304e1e138a4138784e241388c1388c4e64138d1137e04df513890138904e62138dd137d44e1f137e4137e44e25137e8138944e5d1390d1380c4e26138b8138984e5c138e5137e8000013842138044e27138c0138404e2b1389c1389c4e63138d9138a04e5f138fd138a44e5b138f1138a84e5e138d5138ac4e58138e1137f04e2d138b0137f4000013802138004e2f138b0138b04e55138d1138b44e57138dd)
  (.lf 0)) (.nd (.lf
  0x983c2610216f8098402618096e4096f425bb0980c0980c260d098610986085c5217080986485bf217140985c85c0217142171405a0231ec231ec23e72333c08f9c24a8092cc092a08ccb233101b22085b5216cc216cc05b2231a4216d005b1231a8231a8240420450200e000000963e200cc0000096460963c25210948009484251e09538235e4251d0947009474251e094d409478254809488096442527094980949c25280948c09488254f0948c0948c0000094e6094e425550954409554258209589096f085c4217080986885c2217002170805a3231e009cec8032235f0235f02519094d80946425410955c094a8255109568235ec253f0952c0947000000947e0947c25410954809504254b095580952c255a0956409568257e09581200c8000009642235e8251b094680946c253a0956c096402525094fc094fc253a09574094e8253609570094d8253509550094d425470954c0954c258509599095482589095a5094ac25280952009520255d0956c0956c85a6095a5095a42572095a80948000000949209490254c0955c09530258b0958909588251009434094402509094b809544258d0958109570258309599095982513094e0094a02547094b0)
  (.lf 0)))

def aesGateTree34 : BTree :=
  .nd (.nd (.nd (.lf
  0x7b001cc0004c0073001ac000cc006b0018c0014c00630007323a2823a283f490fd200fd243f680fe200fd2c3f4c0fd8c0fef43f530fdb40fef83f550fd500fd543f560fd440fefc3f590fd600fd643f560fdd80fd583f750fd680fdb43f680fe280fda03f640fe240fd903f630fe040fd8c3f750fe000fdd43f7b0fde80fde83fbb0fe2d0fd3c3f4c0fdec0fdec3fb90fe390fd303f760fd400fd403f7c0fd440fdf03fb40fe690fd683f7d0fe140fdf43fb30fe410fd4400000fd9e0fd603f7e0fe1c0fd9c3f820fdf80fdf83fba0fe350fdfc3fb60fe590fe003fb20fe4d0fe043fb50fe310fe083faf0fe3d0fd4c3f840fe0c0fd5000000fd5e0fd5c3f860fe0c0fe0c3fac0fe2d0fe103fae0fe390fd203f860fe140fe143fad0fe690fe183fb70fe410fe1c3fab0fe350fdd83f8a0fe200fe2000080fe590fe243fb00fe4d0fe283fb10fe310fe2c3f380fcdc0fe343f3a0fda40fe3c3f3e0fcec0fcf83f370fd700fcdc3f3f0fd980fcfc3fa90fe440fe403f6b0fda40fda43f730fe440fe443f920fe690fe4c3f410fd980fd983f77000240fe303f710fddc0fddc3fa60fe500fe483f9c0fe500fe503f950fe7d0fe383f3c0fcec0fcec3fa50fd00)
  (.lf
  0x224808c2022fc0220c08c2023040230808f30233123ef4047921c3021c300000023e6022400891022300224408b102254023e4088e022a4022a408a40231802290089f023140227c089e022f40227808b1022f0022c408b7022d8022dc08f502329022d808f70231d0223808c0022fc022fc08e80231d0231c0873021c8021cc087421a2c022240000022360223408b5023000230008ea02329023280877021d8021dc087421a34021d0089c021e00222c08b8022300223000000228a0228808be022e8022d408f40232d022f808eb0232d0232c0879021d8021e408720225c021c8087a02284021e808e502334022f008ee0233d0231408ec0233d0233c087c02284021f008aa0234c0225408b902304022e008f002359022e408ef02331021e008e30235c022e808f60232502324087502294022f408f102321021d408a60235c0230408e9023590233008a7022940229408af023340233408ce023590235808ac0235c0231808ed023210232008ad022cc0228408b321a1c0233808d802340022cc08e2023400234008d10236d021d808e1021ec0234408d3023640234808db0234c021ec08e40234c0234c08d5023510235008ac023640235c08d802369))
  (.nd (.lf
  0x227b81b3e2032006cf81bb906f18210880343227f4227f41b2506c9006c901bc306c9c06c9c000006f1a06f188a5c2295c21028035b22794227941bbe07000070001aba06ae406ae88a56229702297045f11fea81fea8460b1182806c201bc706bc406bbc1bda06bc406bc4000006f6e210e4032c2285006b5c8a462293406b648077130ec20fe0036d2274c2274c1b6d2291406db41bd606f5c20fc403742273006d68000006d7206d701be306f9006f588a4b202802292c0000130ee130e44bcc12f2c12f2c000012f3e12f3c4bf61300412fd84c351303120fa4037c22710227101b4b06d28227301be306fc806d281b4d06f8c06f8c8a5122934229344bc612f1412f184be51301412f204bc912f80130e84bd012fa8130ec4bd212f4412f484bd312f38130f04bd612f5412f584bd312fcc12f4c4bf212f5c12fa84be51301c12f944be11301812f844be012ff812f804bf212ff412fc84bf812fdc12fdc4c381302112f304bc912fe012fe04c361302d12f244bf312f3412f344bf912f3812fe44c311305d12f5c4bfa1300812fe84c301303512f38000012f9212f544bfb1301012f904bff12fec12fec4c371302912ff04c331304d12ff44c2f13041)
  (.lf 0))) (.nd (.nd (.lf
  0x20a8c01c221e8c21e8c14381ff880502487fc1fff8050e0139d04e64050a07ffe1ffdc04e647ffe1ffac1fff80000048ea2233c56a015af415a8056c815b742233056a415a8c15a8c000015a9a15a9856c815b6015b207fc915b70058fc00002233a2233856c61ff241ff2456e015b7c223700000190a6223740000190aa223600000190ae190a463bb18ee818ee8000018efa18ef863e618fc418f98642518ff12237863b318f400579000002236a2236863b518ed018ed463d418fd4057ac0000223662236463b718ed818edc63b818f3c190a863bf18f64190ac63c118f0018f0463c218ef4190b063c518f1018f1463c218f8818f0863e118f182236c63d918f9418f6463d418fdc18f5063d018fd818f4063cf18fb818f3c63e118fb418f8463e818f9c18f9c642818fe118eec63b818fa018fa0642618fed18ee063e218ef018ef063e918ef418fa464211901d18f1863ea18fc818fa8642018ff518ef4000018f4e18f1063eb18fd018f4c63ef18fac18fac642718fe918ed8000018ee618ee463db18fb018fb064231900d18fb4641f1900118fb8642218fe518fbc641c18ff118ecc63db18fc418efc63f118fc018f00000018f0e18f0c63f318fc0)
  (.lf 0)) (.nd (.lf
  0x1d080744a1d0901d09074511d0941d14474891d1bd1d0b874521d1681d14874881d1951d09400001d0ee1d0b074531d1701d0ec74571d14c1d14c748f1d1891d07800001d0861d08474431d1501d150748b1d1ad1d15474871d1a11d158748a1d1851d15c74841d1911d06c74431d1641d09c74591d1601d0a000001d0ae1d0ac745b1d1601d10c744d1d1601d16074811d1811d16474831d18d1d070745b1d1681d16874821d1bd1d134745c1d16c1d16c748c1d1951d17074801d1891d128745f1d1741d17485361d1ad1d17874851d1a11d17c74861d1851d180740c1d02c1d188740e1d0f41d19074121d03c1d048740b1d0c01d02c74131d0e81d04c747e1d1981d194743f1d0f41d0f474471d1981d19874671d1bd1d1a074151d0e81d0e8744b214dc1d18474451d12c1d12c747b1d1a41d19c74711d1a41d1a4746a1d1d11d18c74101d03c1d03c747a1d0501d050747d1d1b01d05474421d1b01d1a8746c1d1c81d1ac74741d1b01d1b0746e1d1b51d030740d214ec1d038743e1d1c01d040740d214f41d03474351d0441d044747c1d1c01d1bc74441d1c01d1c074711d1cd1d1c474741d1c81d1b474441d1c81d1c874751d1d91d1b87416214dc)
  (.lf 0)))

def aesGateTree35 : BTree :=
  .nd (.nd (.nd (.lf
  0x1811c605617fdc18158036300d941812c604c00d9c18130605417fd81814060071815018150036000d8c17fe4036100d8c23c70000010bfa23c74000010bfe23c60000010c0223c5c000010c0610bf8429110a4010a40000010a5210a5042bb10b1810aec42fa10b4523c68428b10a2810a2c42aa10b2810a34428e10a9410bfc429510abc10c00429710a5810a5c429810a4c10c04429b10a6810a6c429810ae010a6042b710a7010abc42aa10b3010aa842a610b2c10a9842a510b0c10a9442b710b0810adc42bd10af010af042fd10b3510a44428e10af410af442fb10b4110a3842b810a4810a4842be10a4c10af842f610b7110a7042bf10b1c10afc42f510b4910a4c000010aa610a6842c010b2410aa442c410b0010b0042fc10b3d10b0442f810b6110b0842f410b5510b0c42f710b3910b1042f110b4510a5442c610b1410a58000010a6610a6442c810b1410b1442ee10b3510b1842f010b4110a2842c810b1c10b1c42ef10b7110b2042f910b4910b2442ed10b3d10ae042cc10b2810b2802e710b6110b2c42f210b5510b3042f310b3910b34427a109e410b3c427c10aac10b444280109f410a00427910a78109e4428110aa010a0442eb10b4c)
  (.lf 0)) (.nd (.lf
  0x212e802ab22b78212cc02b222b5c22b5c1f1f2009807c7c1fd907fac22b781feb0803407fac8b3622cc422cd8597d1ff381798c84a82129c17a985e54212b01795c5e5317a7c17a7c5ea317ac917a8c5e54212ac179505e52212a0178ec84a8212a417ac084a8212b4212a002bd22b3022b301f3507cd007c5c8b3e07c6407c881fe807c6407c64000007fea07fe88b3422cbc212e402ac22b7422b741ff308038080381ee807b9c07ba01ee922ce807cd4802007ba407ba4000022cd222cd0595b165681656800001657617ac884a7212b41794c84ad212ac212b402b822b4422b441f2a07ca407ca8801f22ce407b9c8b3f07ba8080341eec07bac07bac8b4007ba807ba8000007f1e16574597f1663c212b802b722b4822b481f282008407ca01fc307ff807f0c8b3922cc807b94815107f1c07f1c8b3d22ce422ce45957165d01655c597f16650165fc7fce1664c1ff38599716658227601b6206d84212ac02ba22b3c06d848a542076c07c48000007c5207c50815807f7407c781fce07f90212c002b522b501794884a92129c212a402bc22b342129c02be22b2c22b2c1ff608048080481ede07b7407b7880211673822b341fe808044080441ee107b80)
  (.lf 0))) (.nd (.nd (.lf
  0x61b0186806234061a01867062140621418b906241061681879061780619c187906210061e4187f061f8061f818bf0623d0623418b40625d0623818b5062410614800000615a06158187d06220061f418bc0624d061781881062240620418b7062510617018820622c0620818be0624506130188a062240622818bb062510622c18af062450623c183c060ec06250186f061b40624c1842060fc06108183b0618006244183e061b4060ec1843061a80610c18ad06254061b4187706254062541896062790621018b60625d0625818a006260062401875061ec0625c1845061a8061a8187b20d7c061ec18aa062600626018990628d0622018b206249061fc18bd06249062481840060fc06264189b06284060fc18a9061100611018ac0626c0611418720626c0626818a30626c0626c189d062710620018b8062790622418b1062790627818740627c06100183d20d94060f0183d20d8c060f41865061040610418ab0627c060f8186e0627c0627c18a0062890628018a3062840628c1863061280612818780619006274184620d7c061181872062a8061c818780629c061e018a90629806288186f061dc061bc1860061f006270187406284061d0184920d8c)
  (.lf 0)) (.nd (.lf
  0x191546453219201914c86492191c1919086482191c192cc8647219342191c051e235182351827c309ff809ff826ba09ae409ae88127204f02049c000018e7e1927064a5192d11929464b4191502196c050a235682195005112354c2354c000009e3a09e38279009e3c19150864d2192c2192c051a235282352827a009e7c0b1302c550b1910b1542c640b0100b01086652198c2198c05022358823588277a2060409de827b609ef809e7c813909e8409e84000009efa09ef881802049409e3c812509ef023568278709e1809e1c8da42049420494000018e76192d0864a219200b1848660219940b18886652198821994050023590235902777236a40b1908662219800afb08660219842198005052357c2357c277e2369809df827c309f3409e288daa09f3409e50000009e5a09e5827bf09f3409f348da2236742194c0512235482354827932060009e4c27c809f9c219880503235842358427e709fb409e2027b909f9c09f9c8da42367c190f0864821924192c486482193421920051d2351c2351c26e509b9009ddc27a609ef009b8026e12368c2198405042358023580000009dee09dec277d09df009df027b709ee4192c8864d2192809e0c8dad09e98)
  (.lf 0)))

def aesGateTree36 : BTree :=
  .nd (.nd (.nd (.lf
  0x45301149045a40452411680453404580115b045f40456c1157045f00455c1156045d0045581168045cc045a0116e045b4045b411ae045f904508113f045b8045b811ac04605044fc11690450c0450c116f04510045bc11a704635045341170045e0045c011a60460d0451000000456a0452c1171045e8045681175045c4045c411ad04601045c811a904625045cc11a504619045d011a8045fd045d411a204609045181177045d80451c00000452a045281179045d8045d8119f045f9045dc11a104605044ec1179045e0045e011a004635045e411aa0460d045e8119e04601045a4117d045ec045ec824604625045f011a304619045f411a4045fd045f8112b044a804600112d04570046081131044b8044c4112a0453c044a8113204564044c8119c046100460c115e0457004570116604610046101185046350461811340456404564116a2091c045fc1164045a8045a811990461c04614118f0461c0461c11880464904604112f044b8044b81198044cc044cc119b04628044d011610462804620118a046400462411920462804628118c0462d044ac112c2092c044b4115d04638044bc112c20934044b01154044c0044c0119a0463804634116304638)
  (.lf
  0x1fc507f151fc401fdf87f181fc5c1fc607f151fcd41fc547f341fc641fcb07f271fd241fc9c7f231fd201fc8c7f221fd001fc887f341fcfc1fcd07f3a1fce41fce47f7a1fd291fc387f0b1fce81fce87f781fd351fc2c7f351fc3c1fc3c7f3b1fc401fcec7f731fd651fc647f3c1fd101fcf07f721fd3d1fc4000001fc9a1fc5c7f3d1fd181fc987f411fcf41fcf47f791fd311fcf87f751fd551fcfc7f711fd491fd007f741fd2d1fd047f6e1fd391fc487f431fd081fc4c00001fc5a1fc587f451fd081fd087f6b1fd291fd0c7f6d1fd351fc1c7f451fd101fd107f6c1fd651fd147f761fd3d1fd187f6a1fd311fcd47f491fd1c1fd1c86a61fd551fd207f6f1fd491fd247f701fd2d1fd287ef71fbd81fd307ef91fca01fd387efd1fbe81fbf47ef61fc6c1fbd87efe1fc941fbf87f681fd401fd3c7f2a1fca01fca07f321fd401fd407f511fd651fd487f001fc941fc947f3621a9c1fd2c7f301fcd81fcd87f651fd4c1fd447f5b1fd4c1fd4c7f541fd791fd347efb1fbe81fbe87f641fbfc1fbfc7f671fd581fc007f2d1fd581fd507f561fd701fd547f5e1fd581fd587f581fd5d1fbdc7ef821aac1fbe47f291fd681fbec7ef821ab41fbe07f201fbf0))
  (.nd (.lf
  0xe2f039240e44c0e3f0392e0e43d0e414392c0e43d0e43c38bd0e3880e2f438ea0e44c0e38838f320d9c0e3cc39220e4400e3ec39320e4490e31039020e4040e40839330e4310e35838f90e4040e3e4392f0e4310e43038e70e3940e39438ef0e4340e434390e0e4590e43839180e4400e44039110e46d0e44439130e4640e41083660e4490e448391b0e44c0e44c39150e4510e45038ec0e4640e2d838e60e45c0e2e038b520db40e2d038b520dac0e2d438dd0e2e40e45438be20d9c0e2e439230e45c0e40439290e4590e3e039300e4590e45838ec0e45c0e45c39180e4690e460391b0e4640e464391c0e4750e47038ed0e4880e3b438dc0e3b80e3b838c00e2fc0e2fc39200e47c0e2f838ea0e4880e3a838f00e47c0e47438e60e3bc0e46838e70e3bc0e3bc39250e47c0e47c39280e4dd0e4a039370e3600e494392c0e4b90e4b0392d20d980e3b038c120dac0e30438f40e3840e46c38db0e3080e39838e120db40e38438db0e3740e36c38d90e4800e480392a0e4d50e4a838d920db01353c4ce21338413384000013396133944d0c1345c134304d4b1348906f0c8a632297c2297c4cdc1336c133704cfb1346c133784cdf133d8135404ce613400)
  (.lf 0))) (.nd (.nd (.lf
  0x1221048a31230c12218488712278123e0488e122a0123e448901223c12240489112230123e848941224c122504891122c41224448b012254122a048a3123141228c489f123101227c489e122f01227848b0122ec122c048b6122d4122d448f612319122284887122d8122d848f4123251221c48b11222c1222c48b712230122dc48ef123551225448b812300122e048ee1232d1223000001228a1224c48b9123081228848bd122e4122e448f512321122e848f112345122ec48ed12339122f048f01231d122f448ea123291223848bf122f81223c00001224a1224848c1122f8122f848e712319122fc48e9123251220c48c1123001230048e8123551230448f21232d1230848e612321122c448c51230c1230c056f123451231048eb123391231448ec1231d123184873121c812320487512290123284879121d8121e448721225c121c8487a12284121e848e4123301232c48a6122901229048ae123301233048cd1235512338487c122841228448b2015b81231c48ac122c8122c848e11233c1233448d71233c1233c48d012369123244877121d8121d848e0121ec121ec48e312348121f048a9123481234048d2123601234448da123481234848d41234d)
  (.lf 0)) (.nd (.lf
  0x1d48074b91d2e01d2e474b61d3581d2d874d51d2e8232c874cd1d3641d33474c81d3ac1d32074c41d3a81d31074c31d3881d30c74d51d3841d35474dc1d36c1d36c751c1d3b11d2bc74ac1d3701d370751a1d3bd1d2b074d61d2c01d2c074dd1d2c41d37475151d3ed1d2e874de1d3981d37875141d3c51d2c400001d31e1d2e074df1d3a01d31c74e31d37c1d37c751b1d3b91d2a800001d2b61d2b474cf1d3801d38075171d3dd1d38475131d3d11d38875161d3b51d38c75101d3c11d29c74cf1d3941d2cc74e51d3901d2d000001d2de1d2dc74e71d3901d33c74d91d3901d390750d1d3b11d394750f1d3bd1d2a074e71d3981d398750e1d3ed1d36474e81d39c1d39c75181d3c51d3a0750c1d3b91d35874eb1d3a41d3a485261d3dd1d3a875111d3d11d3ac75121d3b51d3b074981d25c1d3b8749a1d3241d3c0749e1d26c1d27874971d2f01d25c749f1d3181d27c750a1d3c81d3c474cb1d3241d32474d31d3c81d3c874f31d3ed1d3d074a11d3181d31874d72149c1d3b474d11d35c1d35c75071d3d41d3cc74fd1d3d41d3d474f61d4011d3bc749c1d26c1d26c75061d2801d28075091d3e01d28474ce1d3e01d3d874f81d3f81d3dc75001d3e0)
  (.lf 0)))

def aesGateTree37 : BTree :=
  .nd (.nd (.nd (.lf
  0x150c8540d1502c1502c5415150cc150cc5434150f1150d453e31502015020541900df8150b8541315064150645448150d8150d0543e150d8150d8543715105150c053de14f7414f74544714f8814f88544a150e414f8c5410150e4150dc5439150fc150e05441150e4150e4543b150e914f6853db00de814f70540c150f414f7853db00de014f6c540314f7c14f7c5449150f4150f05412150f4150f4543e15101150f85441150fc150e85412150fc150fc54421510d150ec53e400df814f905410151201504853e700de814f9c541a1501c15104540114fa014fa05416150081504054161511415100540d150541503453fe1506815068544a151101505854471511015110545115169151085413151201504c5402150501505053e614f9414f945446151141510c540c1505415054544b1511415114544e1517515030540700de01501c54011500c1500453ff151181511854501516d1511c544f151591500853fe1512415124544d151711512c5452151511500c5400151301513054571514d15168037d00de015170037e00de01514453d814ff414f6053fe1500015148545300dfc1514c545b14ff41515054561503815158540414ff81515c540e1516c)
  (.lf 0)) (.nd (.lf
  0xda5c36d60db540daa436cd0db540dadc36d70db580db5837070db810db3437030db810db8036bb0dae40da9c36ce0db5c0db38370a0db750db5c36fb0db750db7436890dae40dae436c30db840db8436e20dba90db8836ec0db900db6437000db8d0db4037020db8d0db8c36900dad40dad436c720f9c0db1c36f60db900db3c37060db990da2c368820fb40da1c368820fac0da2036b00da300db3037040dba90db5436fd0dba90dba836c00dbac0da3036f70dbac0da2436ba0dbac0dbac36ec0dbb90dbb036ef0dbb40da4036be0db9c0db9036e50dbbd0db9436e70dbb40db9836ef0db9c0db9c36e90dba10dba036c00dbb40dbb436f00dbc50dbc036c10dbd80db0436af0db080db0836930da480dbb836bb0db0c0dbc436ba0db0c0db0c36f90dbcc0dba4369120f9c0da4436be0dbd80da4836f40dbcc0daf836c40dbcc0dbcc36fc0dc2d0db00369420fac0da5036c80dad00daec36ab0db200db2036f80dbc80dbbc36ae0da540da5436c40dabc0db1036f50dbc80dbc836ff0dc210dc2083e820fb408aa4802c0829c200b000000829a200a00000082a62009c0000082a2230302032080c4080c82051081c8087e80000230362303800000829e)
  (.lf 0))) (.nd (.nd (.lf
  0x1ff28576b15da81079c82f220bc01079482f520bc81062882f420bc820bc80173220ec220ec168e05a3410ed0830520c0c20c0c01622213022130167120014059c416f805be405a3416f805a3c0ed8c82fa20be00ed8482fd20be80ec1882fc20be820be8016b2210c2210c16fc05c3005c3015f0057bc057bc88c005b1820ba8017b220cc220cc16f805c6c05be088c0222f00590847e1223002230051e31ff0020bf801672211c2211c167820370059e016c405bb4105c082f020bc420ba4017c220c8220c816630598805988166505bec1079082f020bd420bc00175220e4220e416ab05aa805aa880b70599405994000005bbe05c6c15cb0572820bd40170220f8220f8168a222c805a2816c405bdc05b1088c2222f40ebb082f820be40ed8082f820bf420be0016d22104221041685222cc0598c88b40599005990000005b3205af416cc05bb420bf401682211822118167a059e4059e488c205c880572888b005b3005b3088c2222c82230851bd1476805a1416ee05bbc05bbc88be222bc222f851c1147001470000001470e1470c51e5147d4146f451e5147e8147947fc0147e41ff0051fd147f020d840104222a8222a8000005a5220d34011822258)
  (.lf 0)) (.nd (.lf
  0x1950085fa217e01932085f8217e4217e0056d233dc233dc276c235a409db027d509f5809f588d742359419960860221800218000565233fc233fc275d09d70174045cb0172d4172d4859c21658217c80573233c4233c4277509dd009dd48d670a01c194f885fd217e8217f40568233f0233f0276109d8009d808d780a01c09b58815d0a01c0a01c000009eb2217c40574233c0233c027e209fc409fc426d909b6009b608d6609eb009d5427ac09f6009eb08d6e235a019d6c676819db119da0676c2167c19db067162168c19d74859e19dad19dac66e92167819ba485a319c4819da4671619c4019d9066ea19c3c19ba8671019c4819c4085a52168c2168c05c223164231642421206680908424bb092fc18d4063252164c18c94635818d1418e00633f18c9818d2863452165418d14633f18d0418cfc633d18e1418e14638f18e6918e3c633d2165018c98635418d0018d50638618e0c18e18638e18e5518e38633d18d0818e28639118e4d18e4c639518d3018e54634218cf018e1c639418e6118e5063982163c18e6063422164c18d0885942163818d04633e18e2c18d2c633c18d6018d60638918e0c18e0c639018e6518e24858e18e5d18e5c631521638)
  (.lf 0)))

def aesGateTree38 : BTree :=
  .nd (.nd (.nd (.lf
  0x1f8687e091f86c1f86c7ded1f7b01f7b07e4d1f9301f9287e131f8701f8707e521f9301f9307e551f9911f84c7e0e207d41f8387e081f8281f8207e061f9341f9347e571f9891f9387e561f9751f93c7e5c1f9811f8247e051f9401f9407e541f98d1f94481ee1f97d1f9487e591f96d1f8287e071f94c1f94c7e5e1f9691f98481f0207d41f98c81ef207d41f97c7dde207b81f77881f31f81c1f9607ddf1f8101f77c7e051f81c1f7b481f0207c41f9707e60207bc1f9807e0b207cc1f9547e641f8141f99081f2207c01f9787e151f9881f96c7e5d1f8541f85481f0207bc1f9647e5a207b81f9687e621f8101f9747e0b1f8141f98881f5207c81f9587e061f82c1f82c81f4207b81f81c81f4207c81f9507e06207cc1f95c7e06207d01f8187e04207c01f81481f5207cc1f81081f1207bc2208400001f5421f53c7ce21f3841f38400001f3961f3947d0c1f45c1f4307d4b1f48904e6c882c2207c2207c7cdc1f36c1f3707cfb1f46c1f3787cdf1f3d804ef47d50220981f5407ce61f4001f5447ce81f39c1f3a07ce91f3901f5487cec1f3ac1f3b07ce91f4241f3a47d081f3b41f4007cfb1f4741f3ec7cf71f4701f3dc7cf61f4501f3d87d081f44c)
  (.lf
  0x33a40ce60345421d78000003566035640cf3033c8240c8040421d8421d840ce3033880338c0d0203488033940ce6033f4033980d10033a8033cc0cf003440034400d24034880348886de034c1240c0040621d7c21d7c000003562035600cef033b8033bc0cf0033ac240d8040021d940339000000339e21d940ce1033f8033840d09034780339c0d0903464034247f8003474240cc040321d8821d880d071fe001fe000d2103480033b80000033c6033c40d2003474033880d200347c034800d51034a9240d4040121d9021d9000000355e0355c0ced0341c0341c0d0203490034080cfe0348c033f80cfd0346c033f40d0f03468033c00d0f033d00343c0d1503450034500d5503495034900d4b03499033a80d16033ac033ac000003406034040d1c03460034700d49034a5033c80d18034840348c0d4a034b5033b40d1e03474033a00000033b2033b00d13034780344c0d52034a5034a40cd803354033600cd1033d8034680d4c034b5034b40cdb03400034740d4603495034940cd203344033440cd903400034000d1121b7c0346c0d4f03499034980d0b03444034440d40034b8034600d540349d034840d450349d0349c0cd40340c033640d43034ac))
  (.nd (.lf
  0xd4e434e50d4540d4b8355b0d4ed0d3f835300d4bc0d4bc35580d4dd0d3e400000d3f60d3f435250d4c00d4c0355a0d4e90d4c435590d5190d39435160d51c0d4e834e70d3980d39c34e4210b40d4dc34e30d3880d38c34e4210ac0d390350c0d3a00d3a035530d51c0d49435640d4ed0d4ec34e90d3980d3a434e20d41c0d38834ea0d4440d3a835550d4f40d454351f0d4f40d4f4353e0d5190d4a035600d5190d518351c0d51c0d51c35480d5290d4f835480d5000d520354b0d5240d4ac35620d5090d48835360d4d00d4d084260d5090d508354b0d50c0d4b0355e0d4fd0d4d4355c0d4fd0d4fc34ec0d4440d44435232109c0d4b435610d4e10d4d8355d0d4e10d4e0351d0d48c0d48c35520d5000d50035410d52d0d39835510d3ac0d3ac35540d50c0d3b0351a0d50c0d50435430d5240d50c35450d5110d510351c0d5240d524354c0d5350d53435160d47c0d4583510210b40d47034f0210ac0d3c035240d4400d440350a0d4300d43035090d5580d530351d0d5480d52835170d47c0d47c35550d53c0d474350b0d4780d51434ed2109c0d3b4351a0d5480d46835200d53c0d47834ef0d3b80d3b835500d53c0d53c35580d59d0d56035670d41c)
  (.lf 0))) (.nd (.nd (.lf
  0xedf400000ee020ee003ba20eec80ee887f970eed8223143ba01fe5c1fe5c3bba0eee40efbc3b820ee040ee0400000ee160ee143bac0eedc0eeb03beb0ef09223103b7c0edec0edf03b9b0eeec0edf83b7f0ee580efc03b860ee800efc43b880ee1c0ee203b890ee100efc83b8c0ee2c0ee303b890eea40ee243ba80ee340ee803b9b0eef40ee6c3b970eef00ee5c3b960eed00ee583ba80eecc0eea03bae0eeb40eeb43bee0eef90ee083b7f0eeb80eeb83bec0ef050edfc3ba90ee0c0ee0c3baf0ee100eebc3be70ef350ee343bb00eee00eec03be60ef0d0ee1000000ee6a0ee2c3bb10eee80ee683bb50eec40eec43bed0ef010eec83be90ef250eecc3be50ef190eed03be80eefd0eed43be20ef090ee183bb70eed80ee1c00000ee2a0ee283bb90eed80eed83bdf0eef90eedc3be10ef050edec3bb90eee00eee03be00ef350eee43bea0ef0d0eee83bde0ef010eea43bbd0eeec0eeec82a60ef250eef03be30ef190eef43be40eefd0eef83b6b0eda80ef003b6d0ee700ef083b710edb80edc43b6a0ee3c0eda83b720ee640edc83bdc0ef100ef0c3b9e0ee700ee703ba60ef100ef103bc50ef350ef183b740ee640ee643baa20a9c0eefc3ba40eea8)
  (.lf 0)) (.nd (.lf
  0x1a148687a1a19d1a11468541a14c1a14c68841a1751a15068781a1691a10868571a1541a154855e1a18d1a158687d1a1811a15c687e1a1651a16068041a00c1a16868061a0d41a170680a1a01c1a02868031a0a01a00c680b1a0c81a02c68761a1781a17468371a0d41a0d4683f1a1781a178685f1a19d1a180680d1a0c81a0c868432157c1a164683d1a10c1a10c68731a1841a17c68691a1841a18468621a1b11a16c68081a01c1a01c68721a0301a03068751a1901a034683a1a1901a18868641a1a81a18c686c1a1901a19068661a1951a01068052158c1a01868361a1a01a0206805215941a014682d1a0241a02468741a1a01a19c683c1a1a01a1a068691a1ad1a1a4686c1a1a81a194683c1a1a81a1a8686d1a1b91a198680e2157c1a038683a1a1cc1a0f068112158c1a04468441a0c41a1b0682b1a0481a04868401a0b01a0e868401a1c01a1ac68371a0fc1a0dc68281a1101a11068751a1bc1a10068721a1bc1a1bc687c1a2151a1b4683d1a1cc1a0f4682c1a0f81a0f868101a03c1a03c68711a1c01a1b868361a0fc1a0d86831215941a0c4682b1a0b41a0ac68291a1c41a1c4687b1a2191a1c8687a1a2051a1cc68801a2111a1d4855e1a20d)
  (.lf 0)))

def aesGateTree39 : BTree :=
  .nd (.nd (.nd (.lf
  0x125c849811248812604027b009f4125d84977009fc125dc497f12484125ec4932125fc125fc0278009ec124900279009ec0146c059b23d6c017ec05db009ec0176c05bb0096c016ec059b008ec009ec025b00bec0096c023b00b6c0166c021b23cec008ec021b00aec0086c029b23c6c00bec02db00dec00b6c02bb00d6c00aec029b00cec00a6c031b23bec23bec60081ff4c1709c5c23171bc171bc5c731720914ce852e9017e40c82432110c8610c70c31bf0c82c0c82c320f0c8790c870057d015e00c85832180c74014bb052e814ccc14cc4533914d0114ccc533714d1914ce452e914bb814cdc52e9017e814ba452e7017f414cf8534014be014be005fd017f80c69c057d015f00c740057d015f80c84431c00c7140c83c31c0015e80c84831c0015e40c70031be015f4015f4055d017f401574053d0177414d1005fd017e014b4005fd017f0017f405dd009f40177405bd00974014f4051d016f4016f4059d008f40c878057e015e00c86031c50c6fc0c6fc0578015e8015e00558017e001560053801760014e00518016e001460059823d7801474059d23d6401674021d23ce4171b45c75171f1171e85c7c170cc171f05c291708c1708c02f800be8)
  (.lf 0)) (.nd (.lf
  0x1e0a8785e1e0d51e0ac78581e0e11dfbc78171e0b41dfec782d1e0b01dff000001dffe1dffc782f1e0b01e05c78211e0b01e0b078551e0d11e0b478571e0dd1dfc0782f1e0b81e0b878561e10d1e08478301e0bc1e0bc78601e0e51e0c078541e0d91e07878331e0c41e0c484b61e0fd1e0c878591e0f11e0cc785a1e0d51e0d077e01df7c1e0d877e21e0441e0e077e61df8c1df9877df1e0101df7c77e71e0381df9c78521e0e81e0e478131e0441e044781b1e0e81e0e8783b1e10d1e0f077e91e0381e038781f212dc1e0d478191e07c1e07c784f1e0f41e0ec78451e0f41e0f4783e1e1211e0dc77e41df8c1df8c784e1dfa01dfa078511e1001dfa478161e1001e0f878401e1181e0fc78481e1001e10078421e1051df8077e1212ec1df8878121e1101df9077e1212f41df8478091df941df9478501e1101e10c78181e1101e11078451e11d1e11478481e1181e10478181e1181e11878491e1291e10877ea212dc1dfa878161e13c1e06077ed212ec1dfb478201e0341e12078071dfb81dfb8781c1e0201e058781c1e1301e11c78131e06c1e04c78041e0801e08078511e12c1e070784e1e12c1e12c78581e1851e12478191e13c1e06478081e068)
  (.lf 0))) (.nd (.nd (.lf
  0x5e18175e05e2c05d78173320ccc05ccc176605d4c05ca8172720cd405c98172720ccc05c9c174f05cac05cac179505e2405ca0175805e2405e24178a05e3105e30175905d8405d64174a05d9805d98179605e4020ea403bc224ec224ec19e60683c0683c18e1063800638089ac0637c0637c00000671a06aa083a220e80068c083a020e8406a9483a020e9420e8003c5224c8224c81944226540651019e10678c0e078839820e740dea8839820e640e084839a20e6020e6003cd224a8224a8194f065380656419d906540065388999065400654000000678e0678c89912263020e2403dc2246c2246c19d90685c20e2803db224702247019d4068580685c18ce063340632881020633006334899906330063300000067260685818d10634006340899a0672420e1803df2246022460196b202bc065ac19c90679406724899c2263c06a9883a520e880e07c839d20e6820e7403c8224bc20e9403c0224dc224bc1948226700652019c006744224dc1938064dc064dc8108067000657c19c0067940670089942263c06338898c0633c2263c39d90e7d80e7643a010e8582263039dd0e7700e77000000e77e0e77c3a010e8440e8047f940e85420e6803cb224b0)
  (.lf 0)) (.nd (.lf
  0x1ea0c7a8e1ea291ea448578215f41ea4c8577215f41ea207a0e1e8cc1e8387a341e8d81ea247a8a215d81ea287a921e8cc1ea2c7a8d1e9101ea347a3a1e8d01ea387a441ea481ea48857d215e81ea147a941e8d01e8d0857d215ec1b5c88575215c8215c805f3230a0230a02473091c81b5786d661b5b51b5986d151b4681b4546d13215c01b44c8571215bc1b5cc856f215d4215bc05f6230942309424e8093c0093c023d708f58215f405e8230cc091cc8c9e20788230cc245f0917808f58816720788091788caf20788207880000092aa0a00426b209ac409f448160200d02058000001b18209cc8815e2057c2057c00001b17a09ccc000009cd609cd4813d09f0409cf027bb09f0409f04815e200e009d448d7b205782057800001b17609d4c8033235f809cd88d8609ce009ce0000009f3209f308d7e235e4235f86beb1afa81afa800001afb61afb46c0f1b0801b0806c571b0dd09d04000009f2609f248d7f235e809c98000009f1609ffc26b809adc1b1786bf31b0340a00026b509ad009ad48d7909ad809f148d80235ec09ae08d7a23600236006c0d1b0641b0346c081b0ac09ad80000235fe235fc6be91afa01afa46c081b0a41b0206c041b0a8)
  (.lf 0)))

def aesGateTree40 : BTree :=
  .nd (.nd (.nd (.lf
  0x3e1c822b03ec0040040f8803eb403e200fae03ec003e588228208a40401410092089c040240fb4208ac03ff8100d03eb804034822a208a00401c0fbe0402c04010100603ef803ef882282089c040081003208980400c100b03eb4040180fb403eb80402c822d208a803ffc0faf03ed003ed0822c2089803ec0822c208a803ff40faf208ac040000faf208b003ebc0fad208a003eb8822d208ac03eb482292089c03e0c0f1503c5003c50000003c6203c600f4003d2c03d000f7f03d59220980f0d03ca8220900f0f03c3803c3c0f2e03d3c2208c0f1103c4003c440f1203ca403e100f1903ccc03e140f1b03c6803c6c0f1c03c5c03e180f1f03c7803c7c0f1c03cf003c700f3b03c80220940f3303cfc03ccc0f2e03d4403cb80f2a03d4003ca80f2903d2003ca40f3b03d1c03cec0f4203d0403d040f8203d4903c540f1203d0803d080f8003d5503c480f3c03c5803c580f4303c5c03d0c0f7b03d8503c800f4403d3003d100f7a03d5d03c5c000003cb603c780f4503d3803cb40f4903d1403d140f8103d5103c40000003c4e03c4c0f3503d1803d180f7d03d7503d1c0f7903d6903d200f7c03d4d03d240f7603d5903c340f3503d2c03c640f4b03d28)
  (.lf
  0x1ab4800001ab561ab546af71ac20020448684219f8219f804e723718237182d1c201040b4702d680b6440b4ac2d910b69c0b644805520558219d804ef236f8236f82d2d205582055800001ad220196c866c219a8219a804fb236c801bcc8675219cc219cc04f2236ec236ec2d3020118021a4868521a0802034868421a0821a0804e323728237282d170b4580b4888e34238ec236c82d9c0b6fc0b6fc2c6e0b1b40b1b88e34238f8219e804eb23708237082da00b6c00b45800000b4620b4c02d980b6800b4602d9f0b6800b6808e34238c0238d06af51ac04236d42cc00b2fc219b804f7236d8236d82caf201540b2bc2d690b6a00b49c8e3e0b4a00b6c02c930b24821a1404e023734237342d12238f00b3008e37199680b2488e3f0b5a80b4482d690b6540b4b42d6a0b6a00b4a000000b5aa0b5a48e37238c40b5a88e3c238dc238dc6acf1abb01ab3c6af71ac341abdc6b011ac301ac046b101ac3c1ad206ae11ab801ab806b071ac401ac1c6b431ac591ac406b341ac591ac586ac21abc4219d404f0236f4236f42d2e238c40b4b82d680b66c21a1004e123730237302d13201500b44c2d980b66c0b47c665a0b66c0b66c8e36200fc238d800001ad1a))
  (.nd (.lf
  0x10f88440910f9110f8c439010e3c10f94439210f0410f9c439610e4c10e58438f10ed010e3c439710ef810e5c440110fa410fa043c310f0410f0443cb10fa410fa443ea10fc910fac439910ef810ef843cf20bfc10f9043c910f3c10f3c43fe10fb010fa843f410fb010fb043ed10fdd10f98439410e4c10e4c43fd10e6010e60440010fbc10e6443c610fbc10fb443ef10fd410fb843f710fbc10fbc43f110fc110e40439120c0c10e4843c210fcc10e50439120c1410e4443b910e5410e5443ff10fcc10fc843c810fcc10fcc43f410fd910fd043f710fd410fc043c810fd410fd443f810fe510fc4439a20bfc10e6843c610ff810f20439d20c0c10e7443d010ef410fdc43b710e7810e7843cc10ee010f1843cc10fec10fd843c310f2c10f0c43b410f4010f40440010fe810f3043fd10fe810fe844071104110fe043c910ff810f2443b810f2810f28439c10e6c10e6c43fc10fec10fe443c210f2c10f2c440110fec10fec44041104d10f0843bd20c1410ef443b710ee410edc43b510ff010ff04406110451100082fe110391100444081102910ee443b61100811008440d1102511038438d20bf810e34830310ed81101c438e10ecc10e3843b410ed8)
  (.lf 0))) (.nd (.nd (.lf
  0x13d404d5015d40135404b501554012d40495014d401254051523e04112c80575015d0114a40573015d4113680575015d81146c44cb113401146444cb015c81147044cb015c41132c44c9015d4015d40555017d401554053501754014d40515016d401454059523d8423d8452d714b5814b58000014b6614b6452fb14c2c14bec7fc214c3c114580577114911149044a3015dc011cc0453013cc0f5f004f70f6290f6283d09013dc0f42404f20f4c80f4c804f1013cc013cc04d3015cc0114c04330134c0134c04b30154c1128c057211330113300571015cc015cc0553017cc0154c05330174c010cc0413012cc012cc0493014cc0104c049323e8c0124c051323e0c014cc0513016cc0144c059323d8c23d8c52f91ff081ff08531314c481238448ee123c9123b848f2015b8123c8489d015a8122740569015bc015bc054f017bc0153c052f0173c12258056c015b8015b8054e017b801538052e01738015b0054c017b001530052c01730014b0050c016b0015a8054a017a801528052a01728014a8050a016a801428058a23db023db00000160ae015a40549017a401524052901724014a40509016a401424058923db423db40000160b2014b8050e016b8)
  (.lf 0)) (.nd (.lf
  0x8480212b0849d084ac20e1084bc0845420d4082ec0835020d2084680845020e0083a00838020d1083b4083b4211e08460082ec20e9083540838c20e908464083a4211b084600846c2123084a90848c20d20835c083a0211f084640847c2126084a1084982127211b80835420d108474084742121084c10848420d2211cc082e0211a08464084682124084bd0849020d2211d00849c212f08340084602125084b90849420ab083400834820d0211c0083408471211bc084a0212a08384084c0846f211d4084702129084b5084a4212d211bc083848470211bc211bc02f622a4c22a4c20030802c0802c1ef007bbc07bbc80172077821468024b22e1c22e1c22de08c4c08c4c21d9087601d8d0850a214201d8c8850d2142821428025b22ddc22ddc22d608c601e824799b1e6681e66800001e67a1e67879c61e7441e7187a051e77121464024c22e1822e1822e208c5008c5021d708758087588bf508b241bc548510214541bc5885152144821454025022e0822e0822530894808948816f08b0421488024322e3c22e3c223c088ec088f0223d08b0421484024422e3822e382243089080890c8bf108b041d8c485082143421434025822de822de8226522fbc)
  (.lf 0)))

def aesGateTree41 : BTree :=
  .nd (.nd (.nd (.lf
  0xfa803e1f00fdc0f87c03f20f9200fa643e200f9140f8803e460f9200f8b803f500fd00fa743ea100fd80fa843e4c00fc80fa583ea50f9180fa9403f300fd40fa7c3e560fa8c0fa703e9e0f9580f95803f500fd80fa683e9b00fdc0fa6c3ea30f9140fa783e4c0f9180fa8c03f000fcc0fa5c3e470f9300f93003f100fdc0f92003f100fcc0fa543e4700fc80fa603e4700fc40f91c3e4500fd40f91803f000fc80f91403f400fd800de0035800fe000d60033800f6000ce0031800ee000c60039823b7800fe003d8005e000f6003b80056000fd003d4005d000f5003b40055000fdc03d7005dc00f5c03b70055c00fc003d0005c000f4003b00054000fc803d2005c800f4803b200548005c80152007c80054801320074800ec80392004c800e48011223b10004c80112006c800448019223a9023a9000000cf1200fc403d1005c400f4403b10054400ec40391004c4005c40151007c400544013100744004c40111006c400e44011123b1400444019123a9423a9400000cf1600fd803d6005d800f5803b60055800ed80396004d800e58011623b00005d80156007d800558013600758004d80116006d800458019623a8023a8000000cf1a00edc0397004dc)
  (.lf 0)) (.nd (.lf
  0x70dc1c3607154070d81c4807150071501c860719d072481c280709c070a01c29070900724c1c2c070ac070b01c2907124070a41c48070b4070b41c5107164071441c87071910706c1c5a07164071641c81071b907074000007082070801c420714c070681c4207160071081c4c0715c071301c5b071680709c0000070aa070a81c5a0715c071681c8b07191070981c580715c0715c1c800717d071201c4f07138071381c8f0717d0717c1c0b07028072401c2207084070881c1f0713c0707c1c490708c0708c1c5007090070900000070ea070e81c5607148071581c830718d07084000007096070941c4d07160071341c8c0718d0718c1c1107038070441c0a070bc070281c12070e4070481c7d07194070ac1c520716c071241c5e07170071481c8e07185071781c8507181071541c8907181071801c4407128071741c840719d0719c1c14070e4070e41c4a20ffc071281c7a071a0071901c3e070f00716c1c7f07185071841c0d070f0070f01c4607194071941c66071b9071981c70071a0071a01c69071cd071a41c6b071c40714c1c8a071a90717083fe071a9071a81c73071ac071601c82071890713c1c8d07189071881c0f07038070381c790704c)
  (.lf 0))) (.nd (.nd (.lf
  0x16e9c5b9816ed016ed05be416f7816ec05be116f7816f785beb16fd116f705bad16f8816eb45b9c16eb816eb85b8016dfc16dfc5be016f7c16f745ba616ebc16e985ba120b9416e845b9b16e7416e6c5b9916f8016f805bea16fd516f845be916fc116f885bef16fcd16e705b9816f8c16f8c5be716fd916ebc5be516f7c16f945bec16fb916e745b9a16f9816f985bf116fb516fd882df20b9416fac5b7216e5c16e0082e020b8416fc45ba816fd416fb85bf016ea016ea082e020b7c16fb05bed20b7816fb45bf516e5c16fbc5bf320b7c16fa45b9916e7816f9c5b9920b8c16fa85b9920b9016e645b9720b8016e5c82e120b7c157fc559215644156440000156561565455bc1571c156f055fb157490579888d52236c05828000005bce05bcc88da2235422354558c1562c1563055ab1572c15638558f15698158005596156c01580455981565c1566055991565015808559c1566c156705599156e41566455b815674156c055ab15734156ac55a7157301569c55a6157101569855b81570c156e055be156f4156f455fe1573915648558f156f8156f855fc157451563c55b91564c1564c55bf15650156fc55f7157751567455c0157201570055f61574d)
  (.lf 0)) (.nd (.lf
  0x1b7bc6dfa1b7d91b7fc854f215541b7d06d7a1b67c1b7e86db01b7f81b7dc6df91b6c01b6c085502153c1b7d46df6215381b7d86dfe1b67c1b7e06dfc2153c1b7c86da11b6981b7c06da12154c1b7cc6da1215501b6846d9f215401b67c85512153c2153c021622ef022ef0000008ac608ac422b308ac81b7a06df11b8011b7b4854e1b7ed1b7ec6d79215381b5e485531b6881b5e86da01b6881b7c46e001b6801b8008552215401b7f88555215481b68885542154821548021322efc22efc22cf08c1c08c1c21f9087e0087e08c0c207801b62085502154421544021422ef822ef822ae08ab408ab88c152078008acc80272078020780000008afe09de48180205e42060000001c98609b9827b109f5c09f5c813c205ec205ec00001c99209f0c813b205e809e00817a0a018205e800001c98e09e7827bc09f2009ef0813a205e4205e400001c98a09f548d6f2059009dbc816409dac2059000001b3ae09d7c27ab09f5009f50803b205742057400001b3b209df48d9e0a01809e70813a0a0180a018000009e9609d78000009f4e09c0c8d6e19ff809ac08d6b235d409d8c6ce9200e409f4c8d70235a409d846cea200e809da88d7509dac09d948d6b235c8)
  (.lf 0)))

def aesGateTree42 : BTree :=
  .nd (.nd (.nd (.lf
  0x187e0000400008187c861a8187d8187bc61f1186a0186a0000200004187b461ee00000187b861f61865c187c4619e18660187d8000700010187a86199186781867800060000018668000600010187a0619900014187ac61990001818664619700008186600007000141865c0003000040ceb833bb0cefd0ceec33bf007f80cefc3369007e80cc88332f0cccd0ccbc3333005f80cccc32dd005e8005e8015a007e800568013a00768004e8011a006e800468019a23a70007e801da000140076801ba00094006e8019a00114006680065239f0239f00000185b60cda401f9007fc0cb740179005fc005e40159007e400564013900764004e40119006e400464019923a74007e401d9000180076401b900098006e4019900118006640066239f4239f40000185ba0cd8801fc007f80cb58017c005f8005f8015e007f800578013e00778004f8011e006f8007f801de000040077801be00084006f8019e0010400478019e23a60006780061239e0239e00000185be005fc015f007fc0057c013f0077c007fc01df000000077c01bf00080004fc011f006fc0047c019f23a5c006fc019f001000067c0060239dc239dc0000185c2185b46100183fc183fc00001840e)
  (.lf
  0x1f7447dd521b5c21b5c048e2387c1f71886d61f7511f7507d5321b581f54c86db1f5f01f5507d7a1f5f01f7547d8021b6c1f7487d801f5e81f60086dc21b581f5f086dc21b6821b70048923890238902d42201600b5082d7b0b68c031240cb403138031380cb7032980325c86c603295032380cc503295032940cae032980313c0c7d03298032980ca80329d032a00c5021b1c031400c7d032d40329c0c7f032b0031fc0c5321b2c032ac0cae032b0032b80c6d031500314c0c87031cc031e80c6a0321c0321c0cb7032c4031f40c83032c8031500c83031b80320c0cb4032c4032c40cbe0331d032f80c44031a4035380cfc033d81f7047dca1f7651f75886d821b741f7287dd91f5e81f76486da21b6021b60048d23880238802d480b51c0b54400000b54e0b54c2d7c0b6280b4ec2d800b6280b51c8e730b6280b6288e6b23998032d00cbc0330d032b00caf032c1032bc0c80032d4032000c6e03204032040c52031440314886c821b24031b80c6a032d8032d80cba03325032e80c6b21b2c032c00c7903208032080cb8032c8031440cb3032c8032c80cbb03329032ec0cca031a80b7002c6c0b1ac031e40c7321b34031cc0c6d031bc031b40c6b032cc))
  (.nd (.lf
  0xd7983594210700d664841c21058210700349227dc227d81b3506cd006cd0000006cda227dc1b3306cc806ccc80b0202a412eb84b4112d0012d00000012d1212d104b6b12dd812dac4baa12e0522c2c4b3b12ce812cec4b5a12de812cf44b3e12d5412ebc4b4512d7c12ec04b4712d1812d1c4b4812d0c12ec44b4b12d2812d2c4b4812da012d204b6712d3012d7c4b5a12df012d684b5612dec12d584b5512dcc12d544b6712dc812d9c4b6d12db012db04bad12df512d044b3e12db412db44bab12e0112cf84b6812d0812d084b6e12d0c12db84ba612e3112d304b6f12ddc12dbc4ba512e0912d0c000012d6612d284b7012de412d644b7412dc012dc04bac12dfd12dc44ba812e2112dc84ba412e1512dcc4ba712df912dd04ba112e0512d144b7612dd412d18000012d2612d244b7812dd412dd44b9e12df512dd84ba012e0112ce84b7812ddc12ddc4b9f12e3112de04ba912e0912de44b9d12dfd12da04b7c12de812de8840612e2112dec4ba212e1512df04ba312df912df44b2a12ca412dfc4b2c12d6c12e044b3012cb412cc04b2912d3812ca44b3112d6012cc44b9b12e0c12e084b5d12d6c12d6c4b6512e0c12e0c4b8412e3112e144b3312d60)
  (.lf 0))) (.nd (.nd (.lf
  0x11110444111234112344498112511126c82a020a941109c82a020a841123c449e110fc1127882a220a8011260444f112701125444971113c1113c82a020a7c1124044401111411238444020a8c11244444020a9011100443e20a8020a8001c521e8021e80142e2200c050b8139004e3815a28561d1587015870000015882158805647159481591c568615975057b815e422380223805617158581585c56361595815864561a158c415a2c5621158ec15a305623158881588c56241587c15a345627158981589c562415910158905643158a0158ec563615960158d856321595c158c856311593c158c45643159381590c5649159201592056891596515874561a15924159245687159711586856441587815878564a1587c159285682159a1158a0564b1594c1592c5681159791587c0000158d615898564c15954158d45650159301593056881596d15934568415991159385680159851593c56831596915940567d1597515884565215944158880000158961589456541594415944567a1596515948567c159711585856541594c1594c567b159a1159505685159791595456791596d15910565815958159588296159911595c567e1598515960567f15969)
  (.lf 0)) (.nd (.lf
  0x1cddc8567215b42159c05fe23074230740000091922308024dd094000915824dd09378091c824dd091d0093748cad232a4215c405f42309c2309c24e0093bc091608ca90941008f708cab09410215b405f82308c2308c24020900409004819709410094100000092a6215d405f0230ac230ac246f2327c091bc24a90937008f688149092a4092a48caf232a80919c245c093a80911c244a09380093808cac232a0215e005ed230b8230b8246a23280091a824d309350230782455232ac0915424d1093a009170000009346093448ca723280091902466091940919424d3093a40934c8ca6205982329800001d01e1d01473971ce581ce5800001ce6a1ce6873c21cf341cf0874011cf61232a8738f1ceb008f548ca1232a0232a073911ce401ce4473b01cf442329c73931ce481ce4c73941ceac1d018739b1ced40916c74072054008f5c81911d01c1d01c739d1ce701ce74739e1ce641d02073a11ce801ce84739e1cef81ce7873bd1ce88232a473b51cf041ced473b01cf4c1cec073ac1cf481ceb073ab1cf281ceac73bd1cf241cef473c41cf0c1cf0c74041cf511ce5c73941cf101cf1074021cf5d1ce5073be1ce601ce6073c51ce641cf1473fd1cf8d)
  (.lf 0)))

def aesGateTree43 : BTree :=
  .nd (.nd (.nd (.lf
  0x160400000186201860020123d5423d54000014f52140c005e4017980179805c6009980171805a6009180169805860089801618020623d4023d40000014f560179c05c70099c0171c05a70091c0169c05870089c0161c020723d3c23d3c000014f5a14f4c536614d9414d94000014da614da4539014e6c14e4053cf14e990179005c4009900171005a4009100169005840089001610020423d4823d48536014d7c14d80537f14e7c14d88536314de814f50536a14e1014f54536c14dac14db0536d14da014f58537014dbc14dc0536d14e3414db4538c14dc414e10537f14e8414dfc537b14e8014dec537a14e6014de8538c14e5c14e30539214e4414e4453d214e8914d98536314e4814e4853d014e9514d8c538d14d9c14d9c539314da014e4c53cb14ec514dc4539414e7014e5053ca14e9d14da0000014dfa14dbc539514e7814df8539914e5414e5453d114e9114e5853cd14eb514e5c53c914ea914e6053cc14e8d14e6453c614e9914da8539b14e6814dac000014dba14db8539d14e6814e6853c314e8914e6c53c514e9514d7c539d14e7014e7053c414ec514e7453ce14e9d14e7853c214e9114e3453a114e7c14e7c026f14eb514e8053c714ea9)
  (.lf 0)) (.nd (.lf
  0x1e57879611e5891e56879022121c1e408792e1e59c1e4c079052122c1e41479381e4941e580791f1e4181e41879341e4801e4b879341e5901e57c792b1e4cc1e4ac791c1e4e01e4e079691e58c1e4d079661e58c1e58c79701e5e51e58479311e59c1e4c479201e4c81e4c879041e40c1e40c79651e5901e588792a1e4cc1e4a87925212341e494791f1e4841e47c791d1e5941e594796f1e5e91e598796e1e5d51e59c79741e5e11e5a484861e5dd1e4cc796a1e5901e5a879711e5cd1e5dc78f5212181e3d4848b1e4781e5c078f61e46c1e3d8791c1e4781e5d079782121c1e5e079222122c1e5cc79751e4b01e5d479221e4701e5b8791d1e4881e488848c212181e484791e1e5ac1e478848c212281e5bc791d212301e3c478831e2081e20800001e21a1e21878ae1e2e41e2b878ed1e31123018787b1e26023010787d1e1f01e1f4789c1e2f42300c787f1e1f81e1fc78801e25c1e3c878871e2841e3cc78891e2201e224788a1e2141e3d0788d1e2301e234788a1e2a81e22878a91e2382301478a11e2b41e284789c1e2fc1e27078981e2f81e26078971e2d81e25c78a91e2d41e2a478b01e2bc1e2bc78f01e3011e20c78801e2c01e2c078ee1e30d)
  (.lf 0))) (.nd (.nd (.lf
  0xe90439c80e7b40e91c39fe0e92c0e9103a460e7f80e7f8832820c9c0e9083a4320c980e90c3a4b0e7b40e9143a4920c9c0e8fc39ef0e7d00e8f439ef20cac0e90039ef20cb00e7bc39ed20ca00e7b4832920c9c20c9c013e221c0221c016f605c4805c4815e00577c0577c80e40578422220160e058340583400000583e0583c16fe05c040e8e883260e9210e92039c720c980e92439f420cac0e91839f40e7b80e7d0832c20c9820c98013f221bc221bc1638204b005e1c173020cbc05e28178d05e2c05e34174d05cd005cd0176205d3805cc0175c05e5005d70176205e4405d88179305e4005e4c179b05e8905e58832e05e9105e2c178e05e3d05e38175f05e5005e5017a105e9505e8417a520cbc05e94175020ccc05e3c175805d8405d84179705e4405e5c179e05e8105e8017a205d6805e90172320cb805e88175005d2805e6c174b05d4005d40833420cb805e78179f20cb820cb80137221dc221dc1629203b4058e016c805bf8058a416c305bf805bf880e4203c420cd8012f221fc221fc161b20390203900000146aa05d60175320cd405d4c174d05d3c05d7c174e05d8005d80173205cc405cc4179205e4405d34174b05e4805e48179c05e9d)
  (.lf 0)) (.nd (.lf
  0xaf102bc80af5d0af5c8657219740ae2086582195c0af202b792196c0af2c2b79219700ade42b77219600addc86592195c2195c050e235582355827dc0a0100a01026ac09aac09aac813b09ed00ad8086582196421964050c2356023564278909e202356027bf0a00c0a00c26ae09ab409ab48da609ed009e248dac09ed009ed08da923694204c00000192d6204a80000192de192d46447191181911800001912a2394c6443191081910c64441916c192dc644d191301911c6444191d019134644e1912419110646e19120191206475191241912400001917e1917c647b191dc191286472191f4191c864b119221191ec64a819221192206436190cc190d8642f19150204ac0000192e2204a40000192da23958643f19170190fc6467191f4192d8644b19194192e064511914019144644e191b819138646d191481912c647d191f023950644119100239546465191c41919464601920c1910464601920419180645c1920819170645b191e8191080000191161916c646d191e4191b46474191cc191146467191e01913000001913e1919c6471191f01913c647f191f0191f064a519211191cc64b419211192106430190bc190bc643719178190dc64a219228)
  (.lf 0)))

def aesGateTree44 : BTree :=
  .nd (.nd (.nd (.lf
  0xd22434930d2c40d2c434b20d2e90d2cc34600d2140d2143497000440d2b034910d25c0d25c34c60d2d00d2c834bc0d2d00d2d034b50d2fd0d2b8345b0d1680d16834c50d17c0d17c34c80d2dc0d180348e0d2dc0d2d434b70d2f40d2d834bf0d2dc0d2dc34b90d2e10d15c3458000540d164348a0d2ec0d16c34580005c0d16034800d1700d17034c70d2ec0d2e834900d2ec0d2ec34bc0d2f90d2f034bf0d2f40d2e034900d2f40d2f434c00d3050d2e43461000440d184348e0d3180d2403464000540d19034980d2100d2fc347e0d1940d19434940d1fc0d23834940d30c0d2f8348b0d24c0d22c347b0d2600d26034c80d3080d25034c50d3080d30834cf0d3610d30034910d3180d244347f0d2480d24834630d1880d18834c40d30c0d304348a0d24c0d24c34c90d30c0d30c34cc0d36d0d22834840005c0d210347e0d2000d1f8347c0d3100d31034ce0d3650d31434cd0d3510d31834d30d35d0d1fc347b0d31c0d31c34cb0d3690d32000100d3590d32434d00d3490d200347d0d3280d32834d50d3450d36000120005c0d36800110005c0d3583454000400d15000150d1f40d33c34550d1e80d154347b0d1f40d18c00120004c0d34c34d700044)
  (.lf
  0x2098083a020e0020e80861020f1020c40865020f1020f008210209c020c008620210d020e408600210d0210c07f002054020540827219fc0209c0856021100205c0837020d80201c082e020dc020dc085b020f5020b8086a020f5020f407e90206401fa4081a0212c020ac0869020f9020d0085e020f9020f807eb01fa801fdc0836020d4020d808670210102024082d020d4020b408630210102100081b020640206408230210401fac07e821a1401f9c07e821a0c01fa0081001fb001fb008570212c020d4085d02129020b0086402129021040842021290212808200212c0212c084c02139020bc08660211902108084c021100211008450213d02130084f02134020e0867e0211902118084f0211c0213c080e01fd401fa8085501fbc0211408470213401fc0081e0211c01fbc08580211c0211c08490212102120082002134021340850021450214008210215802084080f020880208807f301fc801fc808540214c01fd408240203c0203c080b0215c02138081b0208c02144081a0208c0208c08590214c021640860021890212407f1219fc01fc4081e021580215808630219d0208007f421a0c01fd00828020500206c080b020a0020a0085802148))
  (.nd (.lf
  0x118b84639118d5118f883cf20f54118e845b920f38118cc45ba1177c118dc463b20f3c118ec45e620f4c118e445f0118f4118d84638117c0117c083d020f3c118d0463520f38118d4463d1177c118e045e611780118c445e1117981179883d420f38118bc45e120f4c118c845e120f501178445df20f401177c83d120f3c20f3c039622584225840000066be066bc19b1066c0066c019da067ec20f380397225802258019b22034c067ec80b42034c2034c000013bce14408510f144611434450c0143481434850a41428c1428c51041440c1432850c520f941431450bf14304142fc50bd1441014410510e144651430050bc1441c1441c510b144691430450be14428144285115144451446883df20f941443c5096142ec1445450cc144641433083e020f7c144445119142ec1442c50bd20f8c1443850bd20f90142f450bb20f80142ec83e120f7c20f7c0386225c4225c41997066580665819ee06660066600000067ce1307c4c2c130d512fb84bdd12fbc12fbc4bc112f0012f004c211308012f9c4be220f7412f884bdc12f7812f704bda13084130844c2b130d912f744bd913090130904c28130dd12f784bdb1309c1309c4c32130b9130dc83d720f74)
  (.lf 0))) (.nd (.nd (.lf
  0x510c109a1ff7c1ff7c0000039b21ff7800000379215848829820a6415a24829a20a6020a6001cd21e6021e601423050900508c123c1ff74050b07fdd04ec81ff7400000378e050e87fdc220181ff7000000378a0517488122206020aa801bb21ea821ea8139404d8c04d8c148e0523c05238880c22048051bc138b051b4051b4000004e2220ae801ab21ee821ee8138804d9804e20881222034220487e161ff6404d9814860521c20ae401ac21ee421ee4138004d9404d94148a0522c0522c881b052200521c881c0522005220000004eb2052281489220580522400002204204eb088192205404ec0881522038220547df01f8341f7c07e181f8b405144138b0516805170881a0516805168000004de604de488102202c220407df41f7cc1f7cc00001f7da1f7d87e181f8a01f8607fd91f8b01ff647e301f8bc20b48019321f4821f4813a404db004db01479051e8051e8881f04d5020b24019c21f2420b44019421f4421f4413c504f1804f14882804d5004d50000004ed204f5c882e04ed004ed088262208821f2413a104d7420b28019b21f2821f2813b704ee004edc882504ea404d74149d0527805278881e04ea404ea4882e22088220887cda1f3dc)
  (.lf 0)) (.nd (.lf
  0x1bad46eb21bb481bac86ed11bad82336c6ec91bb541bb246ec41bb9c1bb106ec01bb981bb006ebf1bb781bafc6ed11bb741bb446ed81bb5c1bb5c6f181bba11baac6ea81bb601bb606f161bbad1baa06ed21bab01bab06ed91bab41bb646f111bbdd1bad86eda1bb881bb686f101bbb51bab400001bb0e1bad06edb1bb901bb0c6edf1bb6c1bb6c6f171bba91ba9800001baa61baa46ecb1bb701bb706f131bbcd1bb746f0f1bbc11bb786f121bba51bb7c6f0c1bbb11ba8c6ecb1bb841babc6ee11bb801bac000001bace1bacc6ee31bb801bb2c6ed51bb801bb806f091bba11bb846f0b1bbad1ba906ee31bb881bb886f0a1bbdd1bb546ee41bb8c1bb8c6f141bbb51bb906f081bba91bb486ee71bb941bb94850e1bbcd1bb986f0d1bbc11bb9c6f0e1bba51bba06e941ba4c1bba86e961bb141bbb06e9a1ba5c1ba686e931bae01ba4c6e9b1bb081ba6c6f061bbb81bbb46ec71bb141bb146ecf1bbb81bbb86eef1bbdd1bbc06e9d1bb081bb086ed32143c1bba46ecd1bb4c1bb4c6f031bbc41bbbc6ef91bbc41bbc46ef21bbf11bbac6e981ba5c1ba5c6f021ba701ba706f051bbd01ba746eca1bbd01bbc86ef41bbe81bbcc6efc1bbd01bbd06ef61bbd5)
  (.lf 0)))

def aesGateTree45 : BTree :=
  .nd (.nd (.nd (.lf
  0x1628c58aa162b11616c5858162901629058af162ad162c0582f00ddc160bc037216160162a4583016154160c05856161601629858b516158162d4037300dd4162a858ab00ddc162ac58b316154162bc5866162cc162cc037000dcc16160037100dcc00dcc035300fcc00d4c033300f4c00ccc031300ecc00c4c039323b8c23b8c4a491fec8162b058ae161981627c58a7162b916168585616284162b8585c1615816158037000dc81628458a5162d1162c8037500dc0162d0037600dc000dc0035000fc000d40033000f4000cc0031000ec000c40039023b9823b984a23129001288c4a4b12980160f8037500dd016198037500dd81629c58571617016294585700dc8162a0585700dc41615c585500dd400dd4035500fd400d54033500f5400cd4031500ed400c54039523b8423b844a2712898128980000128a6128a44a4b1296c1292c7fb21297c1fec84a631298818104604e1814918138605200d98181485ffd00d8817ff4036100d9c17fd8036400d9810ba042f510be510bd442f900b9810be442a400b8800b8802c200d8800b0802a200d0800a88028200c8800a08030223c5000d88034200f8800d08032200f0800c88030200e8800c08038223bd0)
  (.lf 0)) (.nd (.lf
  0x1eb3c7ac01eb701eb707b0d1ec1c1eb607b0a1ec1c1ec1c7b141ec751ec147ad51ec2c1eb547ac41eb581eb587aa81ea9c1ea9c7b091ec201ec187ace1eb5c1eb387ac9213941eb247ac31eb141eb0c7ac11ec241ec247b131ec791ec287b121ec651eb107ac01ec301ec307b101ec7d1eb5c7b0e1ec201ec387b151ec5d1eb147ac21ec3c1ec3c7b1a1ec591ec507a9a1eafc1eaa084e0213841ec547b16213781ec587b1e1eafc1ec487ac11eb181ec407ac12138c1ec4c7ac1213901eb047abf213801eafc84e12137c1df64776b1dda81dda800001ddba1ddb877961de841de5877d51deb122fec77631de0022fe477651dd901dd9477841de9422fe077671dd981dd9c77681ddfc1df68776f1de241df6c77711ddc01ddc477721ddb41df7077751ddd01ddd477721de481ddc877911ddd822fe877891de541de2477841de9c1de1077801de981de00777f1de781ddfc77911de741de4477981de5c1de5c77d81dea11ddac77681de601de6077d61dead1dda077921ddb01ddb077991ddb41de6477d11dedd1ddd8779a1de881de6877d01deb51ddb400001de0e1ddd0779b1de901de0c779f1de6c1de6c77d71dea91dd9800001dda61dda4778b1de70)
  (.lf 0))) (.nd (.nd (.lf
  0x119b4835420d4820d5001112227422274000005a9e05a9c16a905aa0119ac835520d4c20d4c0112222702227016ac2035405ab016e105c0005a7c88f205b84137104dd11375513718834613751137504d5320d181354c834b135f0137344d54135e4135504d7a135f0137444dd520d1c137544d8020d2c137484d80135e813600834c20d18135f0834c20d2820d300119222542225416b7202f005adc16d505b84060e4836306188060e8186006188062ec186620d8c062e0186606180062c018bf0618006180836520d8c20d8c0102222b0222b01693203fc05aa480ff15e8405b84810b203fc203fc000015e8205ac816dc05bf420d3801172225c2225c16b4203e406198836420d7820d7801072229c2229c169b2036005a6c16be05bf40e5a4835c20d5820d58010f2227c2227c16a52041805a9416cd05bf413760834720d34137384dcf20d181373c4dd7135e4135e4834920d1c20d1c011e222402224016dc05c5c05c5c15d5057500575080f905b2805bf480b6203e4203e4000015e8e06398809e2033c202780000107ae0678481012023006518808c066fc2023000000ed9a064e0808b226602022c00000ed960659c899b0673c0673c810720228)
  (.lf 0)) (.nd (.lf
  0x1930064bd217f4192f064bd217ec192f464e519304192f864ee1948019304652c194801948065211948d19484652419488194886525194991949864ee193dc193b864e9217f4193a464e3193941939464e2194bc194bc653a194d90b53480420a2482399c281d0a0700a074283c0a174239a400000a24a0a24828270a1040b27c0000239a2239a028410a1340a104283c0a17c0a0f028380a17818bd462c518bec239a8281b0a0e00a06c28430a16423998281f0a0780a07800000a0860a08428430a1500a10c284d0a1600a134285c0a16c2010800000a246200f400000a24e0a07c28200a0dc0a24c28290a0a00a24428230a0880a08c28200a1400a080284a0a0900a09028510a0940a0a4282a0a0940a09400000a0ee0a0ec28570a14c0a0e028370a158200f800000a2520a250282d0a0b00a0b4282a0a1280a0a828490a0b80a0dc28490a1540a12428500a13c0a08800000a09a0a098284e0a1640a15c28840a1910a138288d0a1910a19028120a03c0a13c28900a1810a09c28590a1600a0a000000a0ae0a0ac285b0a1600a16028810a1810a180280c0a02c0a048280b0a0c00a02c28130a0e80a15428870a1a10a17828850a1a10a1a028150a0e8)
  (.lf 0)))

def aesGateTree46 : BTree :=
  .nd (.nd (.nd (.lf
  0x408018223ad023ad000000d1420b7e82df4005800b7d02dee0b7c00b7b82dec0b8d00b8d02e3e0b9250b8f42dec0b7c40b7c401610059c0b7c02ded0b8e80b7b401610058c0b8f82dec0058400584014100784005040121007040048401010068400404018123ad423ad400000d1460b8e82e450b9050b9280166005800b9142dfc0b9240b7f00165005980b9002e410059c0b9042e490b7a80b7b02dea005940b7a80164005980059800000181e0181c0606007980051800000181a0181806050071800498000001816018140604006980041800000181201810018623ac023ac000000d14a0059c01470079c0051c01270071c0049c01070069c0041c018723abc23abc00000d14e0d14033e20cf840cf8400000cf960cf94340d0d0600d034344c0d08d0b9200165005800b92401600058c00580014000780005000120007000048001000068000400018023ad823ad833da0cfdc0b74c01650059000590014400790005100124007100049001040069000410018423ac823ac833dc0cf6c0cf7033fc0d0700b92c01630059400594014500794005140125007140049401050069400414018523ac423ac433de0cf740cf7833df0cfd80d14433e60d004)
  (.lf
  0x21bec000001f8201f80077201dc421be0076e01db401db8076f01e1801dc8076f01e7c01dbc079a01dcc01dcc07a001dd001de0077901dd001dd0000001e2a01e2807a601e8801dec07a201eac01e8807de01ec523fb8044821bf401db4000001dc223fa8044c21be421be4076c01dac01ddc000001dea01df0077901e6801de4079901df421bf4076a01e1c01dac07aa01ea423fac044b21be801da8079301ea001de807aa01e9c01dc0079301e8c01e4c078b01e9c21be8079101e2c01e2c07ab01ea801ea807db01ed101df407a101ea401e8407d701ed101ed0078f01e3401eac07cf01ec501ec4075d01e3401e34079701ed401e6807ae01eb023fb4044921bf021bf0000001f8601f84077601e4401e44078c01eb801eb807d501ec101dc4000001dd601dd4079d01ea001e7407dc01ecd01e9807d301ecd01ecc076101d7801d84075a01dfc01db0078c01eb001e30078701eb401dd807a801e9c01e1c078601e9401e18079901e9001e64079f01e7801e9c07d001ebd01e7807df01ebd01ebc075b01d6801d68076201e2401d8807cd01ed401ed407b601ef901ed807c001ee001e9007d601edd01eb0867601ee901e8c07da01ee901e9407d901ec1))
  (.nd (.lf
  0x1f1cc7c641f2001f2007cb01f2a81f1f07cad1f2a81f2a87cb71f3011f2a07c791f2b81f1e47c681f1e81f1e87c4c1f12c1f12c7cac1f2ac1f2a47c721f1ec1f1ec7cb11f2ac1f2ac7cb41f30d1f1c87c6d20e541f1b47c671f1a41f19c7c651f2b01f2b07cb61f3051f2b47cb51f2f11f2b87cbb1f2fd1f1a07c641f2bc1f2bc7cb31f3091f2c0838e1f2f91f2c47cb81f2e91f1a47c661f2c81f2c87cbd1f2e51f308838f20e541f2f87c3d20e381f0f483931f1981f2dc7c3e1f18c1f0f87c641f1981f130839020e441f2d07cc31f1901f30c839220e401f2f47c741f3041f2e87cbc1f1d01f1d0839020e3c1f2e07cb920e381f2e47cc11f18c1f304839520e481f2ec7cbf20e3c1f198839420e481f2d47c651f1a81f2cc7c6520e4c1f2d87c6520e501f1947c6320e401f18c839120e3c20e3c03d6224842248400000657206570195e0657420e4803d322490224901957065580657880842076020e4403d42248c2248c195a0656406568898d207600655c898e207602076000000670207ee8000007f5e07f5c80222026807e4480222006c200880000076a207b14809520074200740000076ae07e90809c20070200700000076aa07e74809b2006c)
  (.lf 0))) (.nd (.nd (.lf
  0x139344e5713989139584e061382c1382c831c20c58138284e071394c1381c831c20c681395c4e0620c7020c7001492219422194164c0592c0593080082000c059a888c520020200200000054da057d880072036c2001c0000057162001800000570e2001400000570a16d785b0e16c4c16c4c832420c7816d845b6220c7811be846f611d0411d04474511d5111d10474f11d2d11d50830f20c5411d3c470611d4c11c18831020c3c11d28474b20c3811d2c475311bd411d1446f720c4c11bdc46f520c4011bd4831120c3c20c3c0156221602216000000597a0597816600597c0eb283a7a0e9fc0e9fc830c20c180eb343ace20c1820c18015f2213c2213c166d2001020c7801472219c2219c1649203d40592416c105ba81394c4e5e139691398c831720c74139784e151398813854831820c5c139644e5a20c58139684e6213810138184e0420c6013810831920c5c20c58014f2217c2217c1653202980594c16c905ba820c5c014e221802218016e905c540597c16e305ba805ba880042022405c5415d905760057648004203d4200100000054e616c6c5b1620c9416c585b1016c4816c405b0e16d5416d545b5f16da916c485b0f16d6c16c3c832420c88)
  (.lf 0)) (.nd (.lf
  0x19b1066c519b1d19b1466c819b1819b04669819b1819b1866c919b2919b08666a2177c199a8669619b3c19b206687199b8199b8669c19a2019a58669c19b3019a7066ce19b2c19b3866d619b7519b24669919b3c19b3c66dc19b8119a60666d2178c199b466a019a3419b1c669319a6c19a4c668419a8019a8066d119b2c19b4485de19b7d19b28669219a6c19a6c66d219b3019b4866d919b6d19b7c665d2177819b7066e02177c19b80668a2178c19b6c66dd19a5019b74668a19a1019b58668519a2819a2885e42177819b6466da21778217780587232502325024802061409f6c8142200e4200e4000009a9e09a9c2639098e0098e4263609998098d4263609934098d82660098e8098e82667098ec0999c269f09a15200ec000009aaa098e00000098f2098f02664099bc09aa8264309908098fc2640098ec09f888d75235c4235c42633098c809f7c8d76235c8235c826570998c0995c2652099d4098cc2652099cc09948264e099d009938264d099b009934265f099ac0990c26400998009900265f099100997c2666099940999826a4099e5099bc2699099e5099e426260989409898262321774099802675099cc099d4269c099dd099b026a0099dd)
  (.lf 0)))

def aesGateTree47 : BTree :=
  .nd (.nd (.nd (.lf
  0x135004b401550012d00494014d001250051423e08015d00554017d001550053401750014d00514016d001450059423d88017d005d4009d00175005b400950016d00594008d00f68c0275009d0009d0025400bd000950023400b50008d0021400ad001650021423d0800850029423c8823c885c101703c170405c2f171400f8680273009d4009d4025500bd400954023500b54008d4021500ad400854029523c8423c845c1217044170485c13170a8172145c1a170d0172185c1c1706c170705c1d170601721c5c201707c170805c1d170f4170745c3c17084009cc025300bcc0094c023300b4c008cc021300acc0084c029323c8c23c8c5c3417100170d05c2f17148170bc5c2b17144170ac5c2a17124170a85c3c17120170f05c4317108171085c831714d170585c131710c1710c5c81171591704c5c3d1705c1705c5c4417060171105c7c17189170845c4517134171145c7b17161170600000170ba1707c5c461713c170b85c4a17118171185c821715517044000017052170505c361711c1711c5c7e17179171205c7a1716d171245c7d17151171285c771715d170385c3617130170685c4c1712c1706c00001707a170785c4e1712c170d85c401712c)
  (.lf 0)) (.nd (.lf
  0x1bd246f461be4c1be4c6f9e1be691be8484f0213d41bcb084f0213c41be546fa41bd101be9084f2213c01be786f541be881be6c6f9d1bd501bd5084f0213bc1be586f451bd281be506f45213cc1be5c6f45213d01bd146f43213c0213c0027522d7422d7422ab08aa8232b800001a68a1a68469331a4c81a4c800001a4da1a4d8695e1a5a41a578699d1a5d1232bc692b1a520232b0692d1a4b01a4b4694c1a5b4232ac692f1a4b81a4bc69301a51c1a68869371a5441a68c69391a4e01a4e4693a1a4d41a690693d1a4f01a4f4693a1a5681a4e869591a4f8232b469511a5741a544694c1a5bc1a53069481a5b81a52069471a5981a51c69591a5941a56469601a57c1a57c69a01a5c11a4cc69301a5801a580699e1a5cd1a4c0695a1a4d01a4d069611a4d41a58469991a5fd1a4f869621a5a81a58869981a5d51a4d400001a52e1a4f069631a5b01a52c69671a58c1a58c699f1a5c91a4b800001a4c61a4c469531a5901a590699b1a5ed1a59469971a5e11a598699a1a5c51a59c69941a5d11a4ac69531a5a41a4dc69691a5a01a4e000001a4ee1a4ec696b1a5a01a54c695d1a5a01a5a069911a5c11a5a469931a5cd1a4b0696b1a5a81a5a869921a5fd)
  (.lf 0))) (.nd (.nd (.lf
  0x131d083a820e9c132e04cb920e98132e44cc11318c132ec4cbf20e9c132d44c65131a8132cc4c6520eac132d84c6520eb0131944c6320ea01318c83a920e9c20e9c03be224e4224e419f4068400c394308d20efc0c23430ba0c3c80c3b030bd0c3c80c2f430ab0c2f80c2f8308f0c2380c2e830c00c3bc0c3c830ff0c40d0c3fc310320efc0c3ac30aa0c2440c24430c00c2ac0c30030f10c3b80c2fc30f50c3bc0c2ac30a70c3cc0c3c430f90c4010c23830f00c3bc0c3cc30f70c4190c3dc30a820f0c0c2a830a80c3c00c3c030fa0c4150c3e830a820f100c3e430a80c2b40c2a030a620f000c3d430fc0c3f90c3f030fd20ef80c3f431050c2980c3b830fb0c4110c3ec30810c2980c29883c120efc0c3f831000c2e00c2e083c020efc132c083a6132f9132f84c3d20e98132fc4c6a20eac132f04c6a13190131a883ac20e980c41883bf20f1420efc03a62254422544190c0642c0642c0000064360643419fc067fc2292000001034a2292400001034e10348406510190101900000101a2101a0408f102681023c40ce1029522918405f101781017c407e10278101844062101e41034c40691020c10350406b101a8101ac406c1019c10354406f101b8)
  (.lf 0)) (.nd (.lf
  0x1ad686b881add00a7a029bd2188c0a614295c0a6280a57029312186c0a86829e20a7ac0a85c29e30a7ac0a7ac2a220a8700a62c29570a57c0a628298d0a6390a63829560a57c0a57c29960a6400a32c28bc0a3600a34028a52182c0a29428d80a3140a36029090a40c0a42486060a45d0a634295d0a64c0a574294c0a5780a57829300a4bc0a4bc29910a6400a64029990a6a10a66429a80a5200a4c429640a5440a55c29480a5900a59029950a63c0a6f429f00a7740a7a429d80a7a80a7a829bc0a6ec0a78c29d40a7c00a7c02a210a86c0a86029d70a6f80a6f829ec0a7600a79829ec0a8700a7b02a1e0a86c0a86c2a280a8c50a5582951218740a544294b0a5340a534294a0a65c0a65c29a20a6790a68829580a6980a658299d0a67d0a52c29490a6440a644299b0a6990a674299e218580a67829a60a51c0a698861d218680a63c299c0a6950a6948618218740a67029220a51c0a67c29a10a5600a53029480a6500a684294e0a5200a48829480a5280a520861d2186c0a65029980a69d0a69c86172187421874054823470234702730236240a884861e0a8bd0a6ec2a1d0a8700a8782a260a8b50a78829dd218940a77429d70a7640a75c29d50a874)
  (.lf 0)))

def aesGateTree48 : BTree :=
  .nd (.nd (.nd (.lf
  0x3abc0ee003b7403b740eea03bcd03b6c0eac03b8403ab00e9b03ab403ab40e7f039f8039f80edf03b7803b700ea503ab803ab80ee403b7803b780ee703bd903a940ea02083403a800e9a03a7003a680e9803b7c03b7c0ee903bd103b800ee803bbd03b840eee03bc903a6c0e9703b8803b880ee603bd503b8c820603bc503b900eeb03bb503a700e9903b9403b940ef003bb103bcc82082083403bd482072083403bc40e7020818039c0820b03a6403ba80e7103a58039c40e9703a64039fc82082082403bb80ef22081c03bc80e9d2082c03b9c0ef603a5c03bd8820a2082003bc00ea703bd003bb40eef03a9c03a9c82082081c03bac0eec2081803bb00ef403a5803bbc0e9d03a5c03bd0820d2082803ba00e9803a7403a74820c2081803a64820c2082803b980e982082c03ba40e982083003a600e962082003a5c820d2082c03a5882092081c21fe00000039b6039b00dff037f8037f800000380a038080e29038d0038a40e68038fd21fd80df9037e0037e40e18038e0037ec0dfc0384c039b40e0303874039b80e0503810038140e0603804039bc0e0903820038240e0603898038180e2503828038740e18038e8038600e14038e4038500e13038c4)
  (.lf
  0xab1c2acf0abd80ac442b430ac910ac682b410ac910ac902ad10abd80abd82b07218dc0ac1c2b370ac940ab202ac9218ec0ac542b3f0ac7d0ac302b4a0ac7d0ac7c2acc0ab2c0ab302ac9218f40ab242af10ab340aba02b0f0ac600ac3c2b4b0ac790ac242b180ac5c0ab602b170ac580ac5c2b480ac850ac842afb0abe40ab3c2b3a0ac880ac602b3c0ac790ac782aca0abe40abe42b030ac880ac882b230acad0ac582b3e0acad0ab342b380acb00ab2c2b360ab400ab402b390aca00ac342b450acad0acac2b000acb00ab442afe0aca00ab282afa0acb00ac8c2b2d0ac940ac6486360ac9d0ac942b260acc10ac982b280acb80ac402b470ac9d0ac9c2b300aca00aca02b2a0aca50aca42b000acb80acb02b2d0acbd0acb42b300acb80acb82b310acc90acc82afa0ac0c0abe82af5218f40ac002ad5218ec0ab542b080abd40abd42aef0abc40acc42b010acdc0ac042af00ac080ac082ad40ab4c0acc02aef0ab580ab4c2b350acd00abbc2aed0acd40acd42b3f0ad291acec6b3d1abd01abd08630218bc1acbc6b3c1ad011acf06b40218bc218bc0536234b8234b8000009c3209c30270e09c340ab582b040abc00acbc2afb0ac0c0aca82ad2218dc))
  (.nd (.lf
  0x2017c00000c42206f98805c201cc2017000000c42e0c28830d20c33c06ea08a78229d0229e030920c2bc06f408a76229c8229d830940c24c06f1c8a77229cc229dc30b90c2cc0c424309e0c2e40c2e430b40c3580c25030b40c3500c2d030af0c3540c2bc30ae0c3340c420309a0c2640c26830970c31c06c78000006f6a06f688a75229c4229d430960c2540c25830970c2b80c25c30c20c26c0c26c30c80c2700c28030a10c2700c27000000c2ca0c2c830ce0c3280c33830fb0c36d0c26400000c2760c27430c50c3400c31431040c36d0c42c30a40c28c0c29030a10c3080c2b830c10c3300c28430c10c2940c30430c70c3180c31831070c35d0c24830bb0c3400c25400000c2620c26030bb0c32c0c2ec30b30c33c0c27830d00c33c0c33c30f80c35d0c36c30890c2180c22430820c29c0c35c30830c2080c208308a0c2c40c22830f50c3740c32031000c3990c28c30ca0c34c0c32831060c3650c33030fe0c37d0c33431010c3610c34030fa0c3690c31c31050c3690c36830870c2180c21830f10c22c0c22c30f40c38c0c29430c90c3440c24c30d20c3440c34430f90c3990c32c31020c3890c32430ff0c3710c35430fc0c37d0c37c308c0c2c4)
  (.lf 0))) (.nd (.nd (.lf
  0xc4b0312d0c4a00c65c31300c4bc0c4c0312d0c5380c4b4314d0c4c423e8c31450c4fc0c51431400c5880c500313b0c5840c4ec313a0c5640c4e8314d0c5600c53431530c5480c54831930c58d0c49831230c54c0c54c31910c5990c48c314e0c49c0c49c31540c4a00c550318c0c5c90c4c431550c5740c554318b0c5a10c4a000000c4fa0c4bc31560c57c0c4f8315a0c5580c55831920c5950c48400000c4920c49031470c55c0c55c318e0c5b90c560318a0c5ad0c564318d0c5910c56831870c59d0c47831470c5700c4a8315c0c56c0c4ac00000c4ba0c4b8315e0c56c0c51c313f0c56c0c56c31840c58d0c57031860c5990c47c315e0c5740c57431850c5c90c4fc315f0c5780c578318f0c5a10c57c31830c5950c53831620c5800c58004ff0c5b90c58431880c5ad0c58831890c5910c58c310f0c4380c59431110c5040c59c31150c4480c454310e0c4cc0c43831160c4f40c45831810c5a40c5a031430c5040c504314b0c5a40c5a4316a0c5c90c5ac31180c4f40c4f4314f013f80c59031490c53c0c53c317e0c5b00c5a831740c5b00c5b0316d0c5dd0c59831130c4480c448317d0c45c0c45c31800c5bc0c46031460c5bc0c5b4316f0c5d4)
  (.lf 0)) (.nd (.lf
  0x873c8be822fb808c6821c9087200872481171c0cc089388bf40894008940000008b9608b948bec22f9c088dc81c408b0808964000008b8a0897c8116089600895c8be9089600896c8be80896008960000008b0a089ac811622fb0088f8000008b7a08b888bed22fa008ba48beb2045822fac00001c0ce1c0c46fc31bf081bf0800001bf1a1bf186fee1bfe41bfb8702d1c01108b088bef22fa822fbc6fbb1bf6008734000022fb622fb46fbd1bef01bef46fdc1bff422fb06fbf1bef81befc6fc01bf5c1c0c86fc71bf841c0cc6fc91bf201bf246fca1bf141c0d06fcd1bf301bf346fca1bfa81bf286fe91bf3808b788bee22fa422fb86fe11bfb41bf846fdc1bffc1bf706fd81bff81bf606fd71bfd81bf5c6fe91bfd41bfa46ff01bfbc1bfbc70301c0011bf0c6fc01bfc01bfc0702e1c00d1bf006fea1bf101bf106ff11bf141bfc470291c03d1bf386ff21bfe81bfc870281c0151bf1400001bf6e1bf306ff31bff01bf6c6ff71bfcc1bfcc702f1c0091bef800001bf061bf046fe31bfd01bfd0702b1c02d1bfd470271c0211bfd8702a1c0051bfdc70241c0111beec6fe31bfe41bf1c6ff91bfe01bf2000001bf2e1bf2c6ffb1bfe01bf8c6fed1bfe0)
  (.lf 0)))

def aesGateTree49 : BTree :=
  .nd (.nd (.nd (.lf
  0xcbe033300cc590cb5432f90cc040cbe4332f0cc310cb3000000cb8a0cb4c32fa0cc0c0cb8832fe0cbe80cbe833360cc250cb1400000cb220cb2032eb0cbec0cbec33320cc490cbf0332e0cc3d0cbf433310cc210cbf8332b0cc2d0cb0832eb0cc000cb3833000cbfc0cb3c00000cb4a0cb4833020cbfc0cbac32e30cbfc0cbfc33280cc1d0cc00332a0cc290cb0c33020cc040cc0433290cc590cb8c33030cc080cc0833330cc310cc0c33270cc250cbc833060cc100cc10017f0cc490cc14332c0cc3d0cc18332d0cc210cc1c32b30cac80cc2432b50cb940cc2c32b90cad80cae432b20cb5c0cac832ba0cb840cae833250cc340cc3032e70cb940cb9432ef0cc340cc34330e0cc590cc3c32bc0cb840cb8432f3005f80cc2032ed0cbcc0cbcc33220cc400cc3833180cc400cc4033110cc6d0cc2832b70cad80cad833210caec0caec33240cc4c0caf032ea0cc4c0cc4433130cc640cc48331b0cc4c0cc4c33150cc510cacc32b4005e80cad432e60cc5c0cadc32b4005e00cad032dc0cae00cae033230cc5c0cc5832ec0cc5c0cc5c33180cc690cc60331b0cc640cc5032ec0cc640cc64331c0cc750cc5432bd005f80caf432ea0cc880cbb032c0005e8)
  (.lf 0)) (.nd (.lf
  0x7a801ea307a8407a681ea307a6c07a8c1e6207924079241e770798c07ea0809a07f5407f5481542006c07ed4815407e582055000001a8ba07ee0815307ee82054c00001a8b607b4c809c2053807fc0814e200742053800001a8c207f70814d2007007bfc8b4720534080741ec507b1007b10814d07f342053400001a8be07fb4811b2005c07bd0811b202e42046c000017d0e07de41d1d2046820468000017d0607dec1d1c2046420464000017d02079101e7107a6c078f81ea90790c0790c1eac07a6c07a641e9b07a8407a6c1e9d07a7107a701e7307a8407a841ea407a9507a901e7407aa8079d01e63079d4200980000078d2200840000078de200800000078da2007c0000078d607b548b4f22d4007bd81ef722c58080181efd07bf022cbc1dc20770407704000007712077101de6077dc22cc81dbe0776c076f81de6077f0077981df0077ec22cc41de4077c0077c01dff077f822cc01dc0076fc078d81dcc0772c077301dcd077200772c00000773a077381dfe077ec078dc1dd00773c077401dcd077b4077341dec07744077441df5077f4077d41e2b07821076fc1dfe077f4077f81e2f07821078201de207780078d41dca07790077901ddf07808)
  (.lf 0))) (.nd (.nd (.lf
  0x11df447a311eb011e3047a711e8c11e8c47df11ec911e9047db11eed11e9447d711ee111e9847da11ec511e9c47d411ed111de047a911ea011de4000011df211df047ab11ea011ea047d111ec111ea447d311ecd11db447ab11ea811ea847d211efd11eac47dc11ed511eb047d011ec911e6c47af11eb411eb482ae11eed11eb847d511ee111ebc47d611ec511ec0475d11d7011ec8475f11e3811ed0476311d8011d8c475c11e0411d70476411e2c11d9047ce11ed811ed4479011e3811e38479811ed811ed847b711efd11ee0476611e2c11e2c479c20abc11ec4479611e7011e7047cb11ee411edc47c111ee411ee447ba11f1111ecc476111d8011d8047ca11d9411d9447cd11ef011d98479311ef011ee847bc11f0811eec47c411ef011ef047be11ef511d74475e20acc11d7c478f11f0011d84475e20ad411d78478611d8811d8847cc11f0011efc479511f0011f0047c111f0d11f0447c411f0811ef4479511f0811f0847c511f1911ef8476720abc11d9c479311f2c11e54476a20acc11da8479d11e2811f10478411dac11dac479911e1411e4c479911f2011f0c479011e6011e40478111e7411e7447cd11f1c11e6447ca11f1c11f1c47d411f75)
  (.lf 0)) (.nd (.lf
  0x1c7f872221c8a81c88872581c8d51c7d400001c82e1c7f072231c8b01c82c72271c88c1c88c725f1c8c91c7b800001c7c61c7c472131c8901c890725b1c8ed1c89472571c8e11c898725a1c8c51c89c72541c8d11c7ac72131c8a41c7dc72291c8a01c7e000001c7ee1c7ec722b1c8a01c84c721d1c8a01c8a072511c8c11c8a472531c8cd1c7b0722b1c8a81c8a872521c8fd1c874722c1c8ac1c8ac725c1c8d51c8b072501c8c91c868722f1c8b41c8b485b61c8ed1c8b872551c8e11c8bc72561c8c51c8c071dc1c76c1c8c871de1c8341c8d071e21c77c1c78871db1c8001c76c71e31c8281c78c724e1c8d81c8d4720f1c8341c83472171c8d81c8d872371c8fd1c8e071e51c8281c828721b216dc1c8c472151c86c1c86c724b1c8e41c8dc72411c8e41c8e4723a1c9111c8cc71e01c77c1c77c724a1c7901c790724d1c8f01c79472121c8f01c8e8723c1c9081c8ec72441c8f01c8f0723e1c8f51c77071dd216ec1c778720e1c9001c78071dd216f41c77472051c7841c784724c1c9001c8fc72141c9001c90072411c90d1c90472441c9081c8f472141c9081c90872451c9191c8f871e6216dc1c79872121c92c1c85071e9216ec1c7a4721c1c824)
  (.lf 0)))

def aesGateTree50 : BTree :=
  .nd (.nd (.nd (.lf
  0x182c060d7182c9182c4605e18174182cc60601823c182d460641818418190605d18208181746065182301819460cf182dc182d860911823c1823c6099182dc182dc60b818301182e460671823018230609d00798182c86097182741827460cc182e8182e060c2182e8182e860bb18315182d06062181841818460cb181981819860ce182f41819c6094182f4182ec60bd1830c182f060c5182f4182f460bf182f918178605f007881818060901830418188605f007801817c60871818c1818c60cd18304183006096183041830460c2183111830860c51830c182f860961830c1830c60c61831d182fc606800798181a060941833018258606b00788181ac609e1822c183146085181b0181b0609a1821818250609a1832418310609118264182446082182781827860ce183201826860cb183201832060d518379183186097183301825c60861826018260606a181a4181a460ca183241831c6090182641826460cf183241832460d21838518240608b007801822c60851821c182146083183281832860d41837d1832c60d3183691833060d918375182186082183341833460d1183811833801e7183711833c60d6183611821c6084183401834060db1835d)
  (.lf
  0x1ae586bca1ae851ae846b851ae2c1ae2c6bbb1aea41ae406bce1ae8d1ae646bc31ae8d1ae8c6b501ad3c1ad406b4d218541ad306b4d2184c1ad346b751ad441ad446bbc1aec01adb86b921ae681ae486bc81ae951ae446bc91aebd1ae346b9c1ae6c1adb06b931ae701ae4c6bcf1ae891ae706bc01ae891ae886b4e1adf41ad706b9b1ae681ae6c6bcc1ae951ae946b7f1adf41adf46b871ae981ad4c6bbe1ae981ae986ba71aebd1ae9c6bb11aea41ad386b7e1aec01ae686bc21aebd1aebc6b841aec01aec06bb11aecd1aec46bb41aec81aea46baa1aed11ae74860e1aead1ad546b821aeb01aea86bac1aec81ae506bcb1aead1aeac6bb41aeb01ad3c6bba1ad501ad506bbd1aeb01aeb06bae1aeb51aeb46b841aec81aec86bb51aed91aed46b851aeec1ae146b741ae181ae186b581ad5c1ad5c6bb91aee023fd0044221c8c23fc8044421c8421c8c000002a7223fc4044521c8021c800a2a028a4028a80a2b0290823fbc044721c7821c78000002a7e02a7c0a38028dc028e00a350295802a700a2e028b421c840a280289c028b80a2b0296c028ac0a56028bc029580a6a029a0028a00a48029a0029a0869e029d9028a40000028b2028b00a4f0297c))
  (.nd (.lf
  0xd6503592210600d7a435f10d6480d64884192105c2105c034e227c8227c81bd106ff406ff41ac006afc06b0080aa2031c10de8432a10cbc10cbc84242107810df4437e21078210780347227e4227e41b302031c06cc01ba906f480ffac3fe7100c8100c8403610115100d44040100f110114840f21054101003ff7101100ffdc84102103c100ec403c21038100f040440ff98100d83fe82104c0ffa03fe6210400ff9884112103c2103c0356227a8227a8000006d1a06d181b4806d1c06d1c1bcb06f4812e7c4b4f12d5012d50840c2101812e884ba32101821018035f22784227841b55202a806ce81bb106f4806f4880aa2030c202a800001190e12d704b572103412d5c4b5112d4c12d444b4f12e5812e584ba012ead12d4c4b5012e7012d40840c2102812e804b4f210302103003592279c2279c1b5006d3c100b84037101191010c84102105410110841521048100dc40460ff9c0ff9c84152104c210540350227c0227c01b3c06cec06cec80a906ea40d7c08418210740d7c4841d21068210740348227e0227e01b312299406cc41baa06eec10cdc43322109410cc8432c10cb810cb0432a10dc410dc4437b10e1910cb8432b10ddc10cac842421088)
  (.lf 0))) (.nd (.nd (.lf
  0x13fe84ffb20a1813fec500313e9413ff4500120a1c13fdc4fa713eb013fd44fa720a2c13fe04fa720a3013e9c4fa520a2013e94828920a1c20a1c01de21e1c21e1c139004d6404e4080ec1ff7420a5c01ce21e5c21e5c138a04d7820a2001dd21e2021e201407050200502080ec04e4c04d78149b052700527080ec04ea8203b0000014afe159d8829615a1115a10560320a581580c829b158b015810562a158b015a14563020a6c15a085630158a8158c0829c20a58158b0829c20a6820a7001c921e7021e701428050a4050a47fe204e7c13e004fa613ea013ff84fac13e981400c828d20a2813e98828d20a2c20a3401d821e3421e34140d2200811274829f20a94112484419110f811064443f111041124c449420a7811250449c110f81125c4445110fc1127082a520a88110fc82a520a8c20a9401c021e9421e94143a050ec050ec80eb04ec413fc8828614001140004f7f20a1813dfc828b13ea0140044fac20a2c13eb0828c20a1813ea0828c20a2820a3001d921e3021e30140b050300503080eb04e8012160828e121991219847e520a3811f9482931203811f98480c120381219c481220a4c1219048121203012048829420a3812038829420a48)
  (.lf 0)) (.nd (.lf
  0x8a4081bb08bfc1b68085552154c21554021022f0822f0822a62303c08a9822be08bfc08bfc817123038205c400001c52a21568020b22f1c1a2148560215941a21885652158821594020022f4822f48228f2305c08ab4000008abe08abc22d808b9822f1c22a208a8408a8422d208c002154c021222f001a22085622158021588020322f3c22f3c230008c1822f0022ac2069c08ab022e108c0008c008c122303421538021722eec0870881b508b341766085482153417664854d2152821534021822ee822ee822b608ad421564020c22f1822f1822d808c7008c7021c508710087148c102304422eec22b4200a008ad022bf08bc0087108c1408b3408ad820a72304c1748c85482152421524021c22ed81a04085602158421584020422f3822f38000008a4e08a4c229508a5008a5022d008b4822ed822d208c5808b488c15230441766c854a2152021520021d22ed422ed421fe087f4087e421fa23044087f88c10206d408a3c22bf08b5421580020522f3422f3422972305008a5c22dc08b9808a8c8c1808b981c52470db1c3681c36800001c37a1c37871061c4441c41871451c47108a888c1a08b3408b348c172304c08a708c1b08afc08afc8c132303c)
  (.lf 0)))

def aesGateTree51 : BTree :=
  .nd (.nd (.nd (.lf
  0x127cc4a0012825127c449c2127dc1270849b11270c1270c4995126501265049f5127d0127c849bb127101271049fa127d0127d049fd12831126ec49b600ba0126d849b0126c8126c049ae127d4127d449ff12829127d849fe12815126c449ad127e0127e049fc1282d127e84a011280d126c849af127ec127ec4a06128091282402ed00ba01282c02ee00ba0128004987126b01261c49ad126bc128044a0200bbc128084a0a126b01280c4a05126f41281449b3126b41281849bd128281282802e800bac127f44a0c126b4126b402e800ba8009a0024800ba000ba002c800da000920022800b20008a0020800aa000b2002a800d2000820028823cb800aa0028800ca000a20030823c3823c38584116178161045869161f814d6c026d009b014f48026b009b414e0c026d009b814f10537414de414f085374009a814f145374009a414dd05372009b41265402ed00bb01283002eb00bb4126f402ed00bb8127f849ae126cc127f049ae00ba8127fc49ae00ba4126b849ac00bb4009b4024d00bb400934022d00b34008b4020d00ab400834028d23ca400bb402cd00db400b3402ad00d3400ab4028d00cb400a34030d23c2423c245845161101611000001611e)
  (.lf 0)) (.nd (.lf
  0x7d401ec22019407d141fe307f9407d781fe307fa82121c02de22aac22aac1fe30806807f8c80a42019407d1c806507f042019400000da0a212ec02aa22b7c22b7c1f1607c5407c54815707f902128402c422b1422b141f4407d0c07d108b2807f042126802cb22af822af81fde0804c0804c1edb07b6807b688b2d07b7007b70000007f262125802cf22ae822ae81f52202742126402cc22af422af41fe208050080501ed907b6007b608b2c07f2407b5880a407f2407d481fc907fa807f248b2a22c9807cec1fd607f682128802c322b1822b181f3d07cf00da0c361c0d86c0d87036190d8e81e5f0848a212201e5e48488212341e4108488212242122002dd22ab022ab01f6b07da807da880a407f801c5148490212542124002d522ad022ad01f5c22c7807d701fe007fa407d0c1fe007f8807f808b2b22c9c07b648b2322c9c22c9c360e0d8340d838360f0d8980da0036120d8440d848360f0d8fc0d83c363a0d84c0d8e8364e0d9301e5e8848d212282123402d822ac42126c02ca22afc22afc1f4d07d3007d348b2507cf807cf41f3e07f0407cf8000022ca607d5c1fd607d642122802db22ab822ab81fd60806007f588b2d22ca422ca436310d8ac)
  (.lf 0))) (.nd (.nd (.lf
  0x5c3815ea057a420cc40134221e8221e816240588c057a488e4057b00581416e80581c0588c16e80586805ba088e422380223905134144cc144d05153145cc144d8513714538146a0513e14560146a45140144fc145005141144f0146a851441450c1451051411458414504516014514145605153145d41454c514f145d01453c514e145b0145385160145ac145805166145941459451a6145d9144e85137145981459851a4145e5144dc5161144ec144ec5167144f01459c519f14615145145168145c0145a0519e145ed144f000001454a1450c5169145c814548516d145a4145a451a5145e1145a851a114605145ac519d145f9145b051a0145dd145b4519a145e9144f8516f145b8144fc00001450a145085171145b8145b85197145d9145bc5199145e5144cc5171145c0145c0519814615145c451a2145ed145c85196145e1145845175145cc145cc82be14605145d0519b145f9145d4519c145dd145d8512314488145e0512514550145e8512914498144a451221451c14488512a14544144a85194145f0145ec51561455014550515e145f0145f0517d14615145f8512c1454414544516220afc145dc515c14588145885191145fc145f45187145fc)
  (.lf 0)) (.nd (.lf
  0x189e4627a21938188a88654219382193805172353423534279b2060c09e6c27a609f5c0b6e82c7a0b1e40b1e48e660b5b82016000000b19a0b1982bfb0b0540b1dc803e0b5b80b5b88e76239a8239d82bef0b0300afbc2c170b0b80afec2c2e0b0b40b0b82c570b0e12016800000b1a22016400000b19e0b5742c9f239d4239d42c150b0880b0542c100b0d00b1e88e73239d00b5f08e742399c239d02bf10afc00afc42c100b0c80b0402c0c0b0cc0b1a02c010b0000b0042bfe0b07c239cc2bf30afc80afcc2bf40b02c0afdc2bf40b0940b0302c0b0b0ac0b02c2c1e0b0a80b19c2bfd0aff00aff42bfe0afe40aff82c1e0b0080b0782c250b0900b0942c620b0e10b0e02be40af8c0afc800000afd60afd42c170b0a40b05c2c220b0b40aff000000affe0affc2c300b0b40b0b42c550b0d50b0902c640b0d50b0d42be00af7c0af802be12198c0af902be1219940af842c090af940af942c500b1100b0882c310b0c00b0082c270b0bc0b09c2c5c0b0e90afc02c300b0bc0b0002c280b0c40afd02c1f0afe00afe02c260afe40afe400000b03e0b03c2c2c0b0a00b0c02c600b0e90b0e82c130b0440b0a02c630b0dd0b0c42c540b0dd0b0dc2be20b044)
  (.lf 0)))

def aesGateTree52 : BTree :=
  .nd (.nd (.nd (.lf
  0x49c0128b04a1c04a1c12c304a5904a2012bf04a7d04a2412bb04a7104a2812be04a5504a2c12b804a6104970128d04a300497400000498204980128f04a3004a3012b504a5104a3412b704a5d04944128f04a3804a3812b604a8d04a3c12c004a6504a4012b404a59049fc129304a4404a44825604a7d04a4812b904a7104a4c12ba04a5504a5012410490004a581243049c804a601247049100491c124004994049001248049bc0492012b204a6804a641274049c8049c8127c04a6804a68129b04a8d04a70124a049bc049bc12802095c04a54127a04a0004a0012af04a7404a6c12a504a7404a74129e04aa104a5c1245049100491012ae049240492412b104a8004928127704a8004a7812a004a9804a7c12a804a8004a8012a204a850490412422096c0490c127304a900491412422097404908126a049180491812b004a9004a8c127904a9004a9012a504a9d04a9412a804a9804a84127904a9804a9812a904aa904a88124b2095c0492c127704abc049e4124e2096c049381281049b804aa012680493c0493c127d049a4049dc127d04ab004a9c1274049f0049d0126504a0404a0412b104aac049f412ae04aac04aac12b804b0504aa4127a04abc)
  (.lf
  0x21a0868021a1421a0004e523720237202d1a0b4640b4648e2e0b46c0b46c00000b6420b6408e39238c80b6b82c970b2580b25c8e32238b8238c86ad31ab4801d3006f901bcc01d3c06f9219cc01be48674219b8219d004f1236f0236f02d2f200fc0b4bc2d950b67401f30867601f6901f680758219d801d60867b01e0401f2807d701f6d01f5c07db219dc01f6c0785219ec219ec04ea2370c2370c2d220b4840b48481350b67401aec06830197801a0c065d0196c01ac806bf01b0d01a10866b0196c01b0006550197401974866d219ac01afc06c32199c01b0c0655219ac219ac04fa236cc01d408670219d4219c004f5236e0236e02d4f0b5380b53881550b424021800861219f802184086902028020288681219fc021a8867f21a14219fc04e62371c219dc04ee236fc236fc00000b4aa0b4a82d2c0b4ac01b188667219b401af006bd2199801af406c5019780197886692199c2199c04fe236bc236bc00000b48e0b48c2d250b4900b4a42d920b64c0b4902d920b6a02371c2d920b6b40b6488e38205540b4b081550b4a02055400001ad1e2372c2d152014c0b4542d9c0b67401e04867c219e801e14867c219d8219f004e923710237102d200b47c))
  (.nd (.lf
  0x10490414d104b110494414f104bd103a441271049810498414e104ed1049c4158104c5104a0414c104b91045c412b104a4104a4836e104dd104a84151104d1104ac4152104b5104b040d910360104b840db10428104c040df103701037c40d8103f41036040e01041c10380414a104c8104c4410c10428104284114104c8104c84133104ed104d040e21041c1041c411820dbc104b4411210460104604147104d4104cc413d104d4104d4413610501104bc40dd1037010370414610384103844149104e010388410f104e0104d84138104f8104dc4140104e0104e0413a104e51036440da20dcc1036c410b104f01037440da20dd410368410210378103784148104f0104ec4111104f0104f0413d104fd104f44140104f8104e44111104f8104f8414110509104e840e320dbc1038c410f1051c1044440e620dcc103984119104181050041001039c1039c4115104041043c411510510104fc410c104501043040fd104641046441491050c1045441461050c1050c4150105651050441121051c1044841011044c1044c40e5103901039041451051010508410b104501042c410620dd4104184100104081040040fe1051410514414f1056910518414e10555)
  (.lf 0))) (.nd (.nd (.lf
  0xc1d4302c0c1e40c1e404e00138c0c1b0307b0c06c0c06c04e0013880138004c0015800130004a001500012800480014800c00c04e5013900c1ec04e3013940c0b004e5013980c1b4301c0c0840c1ac301c013880c1b8301c013840c070301a013940139404c5015940131404a5015140129404850149401200050023e5801214050523e4423e5848821227c1220848aa122fc23e44488612214122140000122221222048aa122e8122a87faf122f80118c0000018f6018f406390138c0110c0000018e6018e406350130c0108c0000018d6018d406310128c0100c0000018c6018c4048323ecc0120c0000018820c1a004e70c1d90c1d82ff40139c0bfd004e20c0740c07404e10138c0138c0000018b2018b006280158c0130c0000018a2018a006240150c0128c0000018920189006200148c01880050323e4c23e4c48a81febc1febc48c212304011980000018fe018fc063b01398011180000018ee018ec0637013180119c04470139c0111c04270131c01190044401390011100424013100109004040129001010048423ec80109c04070129c010980000018de018dc063301298011880000018f2018f0063801388011080000018e2018e0063401308)
  (.lf 0)) (.nd (.lf
  0x1d67875a61d51c1d67c75a11d5601d684754e1d5201d68875581d6981d698851d214681d66475a81d5201d520851d2146c21474024822e2822e28224822fdc0892022c208b4c08ebc8c9d092c4091240000092c6092c48caf2327c1d8d475c71d7181d71800001d72a1d72875f21d7f41d7c876311d8212327c75bf1d7702327475c11d7001d70475e01d8042327075c31d7081d70c75c41d76c1d8d875cb1d7941d8dc75cd1d7301d73475ce1d7241d8e075d11d7401d74475ce1d7b81d73875ed1d7482327875e51d7c41d79475e01d80c1d78075dc1d8081d77075db1d7e81d76c75ed1d7e41d7b475f41d7cc1d7cc76341d8111d71c75c41d7d01d7d076321d81d1d71075ee1d7201d72075f51d7241d7d4762d1d84d1d74875f61d7f81d7d8762c1d8251d72400001d77e1d74075f71d8001d77c75fb1d7dc1d7dc76331d8191d70800001d7161d71475e71d7e01d7e0762f1d83d1d7e4762b1d8311d7e8762e1d8151d7ec76281d8211d6fc75e71d7f41d72c75fd1d7f01d73000001d73e1d73c75ff1d7f01d79c75f11d7f01d7f076251d8111d7f476271d81d1d70075ff1d7f81d7f876261d84d1d7c476001d7fc1d7fc76301d8251d80076241d819)
  (.lf 0)))

def aesGateTree53 : BTree :=
  .nd (.nd (.nd (.lf
  0xc90000000c95a0c91c326e0c9dc0c95832720c9b80c9b832aa0c9f50c8e400000c8f20c8f0325f0c9bc0c9bc32a60ca190c9c032a20ca0d0c9c432a50c9f10c9c8329f0c9fd0c8d8325f0c9d00c90832740c9cc0c90c00000c91a0c91832760c9cc0c97c32570c9cc0c9cc329c0c9ed0c9d0329e0c9f90c8dc32760c9d40c9d4329d0ca290c95c32770c9d80c9d832a70ca010c9dc329b0c9f50c998327a0c9e00c9e0036f0ca190c9e432a00ca0d0c9e832a10c9f10c9ec32270c8980c9f432290c9640c9fc322d0c8a80c8b432260c92c0c898322e0c9540c8b832990ca040ca00325b0c9640c96432630ca040ca0432820ca290ca0c32300c9540c954326700db80c9f032610c99c0c99c32960ca100ca08328c0ca100ca1032850ca3d0c9f8322b0c8a80c8a832950c8bc0c8bc32980ca1c0c8c0325e0ca1c0ca1432870ca340ca18328f0ca1c0ca1c32890ca210c89c322800da80c8a4325a0ca2c0c8ac322800da00c8a032500c8b00c8b032970ca2c0ca2832600ca2c0ca2c328c0ca390ca30328f0ca340ca2032600ca340ca3432900ca450ca24323100db80c8c4325e0ca580c980323400da80c8d032680c9500ca3c324e0c8d40c8d432640c93c)
  (.lf 0)) (.nd (.lf
  0x1db5477081dbd41dcc076ef1db581db5877041dbc01dbf877041dcd01dcbc76fb1dc0c1dbec76ec1dc201dc2077391dccc1dc1077361dccc1dccc77401dd251dcc477011dcdc1dc0476f01dc081dc0876d41db4c1db4c77351dcd01dcc876fa1dc0c1dbe876f5213741dbd476ef1dbc41dbbc76ed1dcd41dcd4773f1dd291dcd8773e1dd151dbc076ec1dce01dce0773c1dd2d1dc0c773a1dcd01dce877411dd0d1dbc476ee1dcec1dcec77461dd091dd0076c61dbac1db5084d8213641dd047742213581dd08774a1dbac1dcf876ed1dbc81dcf076ed2136c1dcfc76ed213701dbb476eb213601dbac84d92135c21364028c22bf422bf41fd80807021328029b22bb822bb81fbc07eec07eb4000007ebe07ebc1fd807f9807eec1fcf07f6007f608b5022d0c21384028422c1422c14000007e4e07e4c1f9507e5007e548b4307e5822d0c36980da5c0da6036b80db601ec207b111ec811ec2c7b181ec711ec3484de1ec6d1ec6c7a99213781ea6484e31eb081ea687ac01eb081ec607b1c2137c1ec707ac62138c1ec5c7b191eb401ec647ac61eb001ec447b201eb001eb0084e52138c2138c028222c1c1df0877ca1df451df0c77d01df511df4077d42131c)
  (.lf 0))) (.nd (.nd (.lf
  0x106b441e1106e1106b841db106ed105fc41b0106bc1060000001060e1060c41b2106bc106bc41d8106dd106c041da106e9105d041b2106c4106c441d910719106c841e3106f1106cc41d7106e51068841b6106d0106d082ee10709106d441dc106fd106d841dd106e1106dc41641058c106e4416610654106ec416a1059c105a84163106201058c416b10648105ac41d5106f4106f041971065410654419f106f4106f441be10719106fc416d106481064841a320bbc106e0419d1068c1068c41d210700106f841c8107001070041c11072d106e841681059c1059c41d1105b0105b041d41070c105b4419a1070c1070441c3107241070841cb1070c1070c41c51071110590416520bcc1059841961071c105a0416520bd410594418d105a4105a441d31071c10718419c1071c1071c41c8107291072041cb1072410710419c107241072441cc1073510714416e20bbc105b8419a107481072c418b105c8105c841a0106301066841a01073c1068041d1107381074441d91078110730419d107481074841df1078d10670417120bcc105c441a4106441072841971067c1065c4188106901069041d4107381075082ee107891073441961067c1067c41d51073c)
  (.lf 0)) (.nd (.lf
  0x19d34672419d4819d48675519d5919d58671e19c9c19d4c671f19c9c19c9c675e19d6019d3866f62167c19d54672519d6c19c94671419c9819c9866f819bdc19bdc675919d6019bd8672219d6c19c88672819d6019d60676119dc119d84677019c4019dc085a22168019be085a02168419c9066f92168c19be4672c19c6419c7867192169419c64671319c5419c54671219d7c19d7c676a19d9919da8672019db819d78676519d9d19d9c676919c8019c8085a02167c19c7c671019cb019cb0675d19d5c19c50671019d7019ca0675a19d5c19d5c676419db519db485a02169419c4c671119d6419d68676219da519d64676319db919d70676019dbd19d88671119c5819d8067112168c19d8c67112169019c44670f216802168005c52315823158242b232e4197808600218041992c65f9218101992065f92180c1992865f9197f8197e465f721800197dc8601217fc218040564234001948c64ef193dc193dc652e194a0194b86535194dd0a1ec28880a2310a220288c2179c1947864c6217dc1931864f2194ac193c864f8194a0194a0653119501194c46540193800a21c28890a1000a2302836217ac0a22428360a0c00a0d885ec2179818b1462b418b18)
  (.lf 0)))

def aesGateTree54 : BTree :=
  .nd (.nd (.nd (.lf
  0x4b6c130304c6005274882b220b0220ac12df04b7804b78000004b8604b84130304c4c04c0c7f8a04c5c1fe28131b04c6821de8137704d9c04d9c1484052140521487f704eb4051f0147b21fc804ff887e604ff0209e401ec21de421de413f004fc404fc087f604fbc04fc413fc04db804ff0000004e1e04fbc000004eb6051ec000021fc604e1c87f121fa804eb487f421fbc04ebc87f921fd021fd01250049b404940127804a3421fc412540494c0494c00000495a04958127804a20049e07f8904a3021da8137b04d60209c801f321dc821dc813e504f9804f98137b04f9004dec87f721fcc04fd487ec21fcc21fcc12761fe241fe24129004a3c20a6401cc21e6421e64139104d7c04d7c1499052680526487ff2200c05268880804ea805258000004eaa0506c87fc0506820a4401d421e4421e441417050600505c87fb050680506013980508805088000004e3a05068000004ec604e3887ff21fe804ea888062200804ec4880221ff42200811c5047880471411ed0480821ffc11c9047200472000000472e0472c11ed047f4047b47f8804804050dc1398050d0050d0000004e5604e54880121ff0050988801050d40528487fb220042200411eb1fe20)
  (.lf
  0x1fac47ee71fb111fb107e9f1fa741faf87ee51fb011f9d47ea21fb2c1f9ac7e731fa681fa687eab21b3c1fb007ea51faac1faac7eda1fb201fa747ea71fb141f9cc7edd1fb141fb147ec61fb391fb187ed01fb201fb207ec91fb4d1f9bc7ed91f9d01f9d07edc1fb2c1fb247ecb1fb441fb2c7ecd1fb311f9c47edb1fb3c1fac07ee81fb391fae47ee11fb391fb387ea41fb3c1fb3c7ed01fb491fb407ed31fb441fb307ea41fb441fb447ed41fb551fb507ea51fb681fa947e941fa981fa987e781f9dc1f9dc7ed81fb5c1fb347e7621b3c1f9d87ea21fb681fa887ea81fb5c1fb4c7e931f9e81f9e87ea81fa501faa07ed91fb581fa507e901fb6c1fb6c7edf1fbb91fb547e9e1fa9c1fa787e9921b541fa907e7921b4c1f9e47eac1fa641fa647e931fa541fb487e9f1fa9c1fa7c7e901fab01fab07edc1fb581fb7086ce1fba91fa547e921fb781fba87e6921b381fb587ee31fbb11fb8c7e6a1fa3c1f9a87e901fa481f9a486d31fa481fa4886d421b481fbb886cf21b541fa9c7edd1fb5c1fb747ee41fb991fb7c7e9121b4c1fa4c7e911fb601fb607ee21fbb51fb647ee11fba11fb847e911fa581fb887e9121b501fa447e8f21b401fb787ee91fb95))
  (.nd (.lf
  0x73cc1ca007314073141cd6210bc073b01cd007358073581d06073d0073c81cfc073d0073d01cf5073fd072801ccd073dc073d41cf7073f4073d81cff073dc073dc1cf9073e1073941d0d073e9073e81ccf073ec073ec1cfc073f9073e01ccf073f40733c1ca4210cc073f81cca07348073281cbb0735c072901cd7073100735c1d080740807420842e07459074581c94210b8072508433072f4073e41ca1210bc072841ccd07418073341cd30740c073f01cff073f4073fc1cbe07294072941cd3072fc0734c1d0507408074081d0f074610743c1c95072e8073f41d0007405074041cc907348073481d090740c074241d1007449072541cbb072f4073241cc4210d4073101cbe07300073001cbd07428074281d1507445074001cd007418073401cbf07344073441ca307288072881d040740c072f81cbc07410074101d0e074650740c1d0c0746d074301d1b072ec0746c8432210c0074541ccb07464074401d11210b8074441d19072e8074648435210c8072f48434210c8210c8033322834228341b0906c20074141d0d07451072fc1cbb0741c0741c1d0b07469074341cbc073040742c1cbc210cc074381cbc210d0072f01cba210c0072e88431210bc)
  (.lf 0))) (.nd (.nd (.lf
  0x533414fe053f4053f4152605415053d01535054150541414b2052c4052c414b905380052e415230542c0542c150c0545105430151605438157a455f6157e9157ac82c6157e5157e4557820b18155e082cb15684157d855fa20b1c157e855a520b2c157c055a0156941569482cc20b181568482cc20b28157c455a020b30053fc152705451053d8152e054510545014ea05454053c015040540805410152b054190540c152a05435053e8152c054350543414bb053800538014f120b3c053ec152f054190541814eb053c4053c415200543805438150f054650543c15110545c052d014e405454053f8152805421053d41533054210542014b6052d4052d4151f052e8052e8152205444052d814b320b54052c814b320b4c052cc14db052dc052dc1521054540540882ce05441053e4153005441052ec14e80544405440151905444054441513054490544814ea0545c054541516054610545815190545c0545c151a0546d0546c14e4053b40570815540554c0554c00000555e0555c157f05628055fc15be05655222e4000005712057c880dc0571005710155a0556405568155b05558222ec154e055340570c1558055c8222f01572055f8055c8156d05640)
  (.lf 0)) (.nd (.lf
  0x1c6e071771c5781c578718c1c5e01c618718c1c6f01c6dc71831c62c1c60c71741c6401c64071c11c6ec1c63071be1c6ec1c6ec71c81c7451c6e471891c6fc1c62471781c6281c628715c1c56c1c56c71bd1c6f01c6e871821c62c1c608717d217341c5f471771c5e41c5dc71751c6f41c6f471c71c7491c6f871c61c7351c6fc71cc1c7411c5e071741c7001c70071c41c74d1c62c71c21c6f01c70871c91c72d1c5e471761c70c1c70c71ce1c7291c74c85c7217341c720714e1c5cc1c73871841c7481c72c71cd1c6101c61085c82171c1c72471ca217181c72871d21c5cc1c73071d02171c1c71871751c5e81c71071752172c1c71c7175217301c5d47173217201c5cc85c92171c2171c059e231f4231f424c1093f00925c24c109388091f024c10932c0930481482063009a5826472176c09a44269e09a8909924264709a3c09970262e098b4098b4268f09a3809a3c269909a9109a6426472177009a40269809a7d09a602647099300991c26452176009a7826a22175c09a6826200991409a6c269c2175809a80265609a900995885d82175c09a7026a4099140991485d92175c2175c058e232342323424da094080940823ac08eac08eac8148092c8)
  (.lf 0)))

def aesGateTree55 : BTree :=
  .nd (.nd (.nd (.lf
  0xc72031c20c7100c70831c00c8200c82032120c8750c830057f0c8690c83432140c8590c71031c10c8380c83832190c8550c8683198015fc0c660057a0c7040c84c31990c6f80c66431bf0c7040c840321f0c6fc0c87c057b015f40c8503215015fc0c854321d0c6f80c86431d00c8740c8740578015ec0c7040579015ec015ec055b017ec0156c053b0176c014ec051b016ec23d90000014d2223d94000014d2623d80000014d2a23d7c000014d2e14d2052db14b6814b68000014b7a14b78530514c4014c14534414c6d23d8852d514b5014b5452f414c5014b5c52d814bbc14d2452df14be414d2852e114b8014b8452e214b7414d2c52e514b9014b9452e214c0814b88530114b9814be452f414c5814bd052f014c5414bc052ef14c3414bbc530114c3014c04530714c1814c18534714c5d14b6c52d814c1c14c1c534514c6914b60530214b7014b70530814b7414c20534014c9914b98530914c4414c24533f14c7114b74000014bce14b90530a14c4c14bcc530e14c2814c28534614c6514c2c534214c8914c30533e14c7d14c34534114c6114c38533b14c6d14b7c531014c3c14b80000014b8e14b8c531214c3c14c3c533814c5d14c40533a14c69)
  (.lf 0)) (.nd (.lf
  0x89d08bd3089d8089d8000008bb221410026122dc422dc4226e20680089e470be20680089b822f408bdc1771c84ed213ac213ac027a22d6022d602240088fc0890070bd22f90089bc22ec08c0c08a088be308a0c08a0c000008b1a2140c026222dc022dc022702067c089c022f808be41be806f4a213cc1bd2884f4213b8213d0027122d8422d84228a206c008a2822f108be408be48bda206bc22f6800001c2f608a2422c408bdc08bdc8bdb206c022f6c00001c2fa1c2f4704f1c1381c13800001c14a1c148707a1c2141c1e870b91c241213c4027422d7822d7822fb08c28213e8026b22d9c22d9c22fc08c3008c3021ec087ac087ac8be408b1808b188be122f7008a348bd5087bc087bc000008b1608c2821f1087c0213b8027722d6c22d6c220a206640882822c508c10087c08bd408b14213b4027822d6822d68221b088680886c8bdc086fc08b148bdc22f5822f7070471c19021404026422db822db8230508c2008a3022f808a3808a38000008c16087b08bd822f7c08c148bd822f5022f6070491c1201c12470681c22408bb08bde22f5c087c48bd722f4c22f5c704b1c1281c12c704c1c18c213b0027922d6422d640000088b6088b4222f088b8)
  (.lf 0))) (.nd (.nd (.lf
  0xdc8037530dd000dde437460dd380dd1837370dd4c0dd4c37830ddf40de0c83b60de450ddf037450dd380dd3837840ddf80de10378b0de350de44371020ed80de38379220edc0de48373d20eec0de34378f0dd1c0de3c373d0dcdc0de2037380dcf40dcf483bc20ed80de2c378c20ed820ed803af2252022520191920038200380000060e20ddf4378a0de4d0dd30373b0dd340dd34371f0dc780dc78377f0ddf80dd14374020ef40dd00373a0dcf00dce837380ddfc0ddfc37890de510dcec37370de080de0837860de550dcf037390de140de1437900de310de5483b720ef40de2837110dcd80de4037470de500dd1c83b820edc0de3037940dcd80de18373820eec0de24373820ef00dce0373620ee00dcd883b920edc20edc03ae225242252419ff068340c23c83c020f040683418e6063940c3bc30f80c41d0c3e031070c29c0c41c83c220f00132ac4cb41330d1330083a820eb41313083a820ea4132d04cc3131901330c83aa20ea00c41083c020f1406394800d06714102e040c5103391021c40761022010220405a101641016440ba102e410200407b20ed4101ec4075101dc101d44073102e8102e840c41033d101d84072102f4102f440c110341)
  (.lf 0)) (.nd (.lf
  0x1b4f46d671b51d1b51c6cf41b3cc1b3cc6d5e1b3e01b3e06d611b5401b3c06cf1215cc1b3d06cf1215d41b3c46d191b3d41b3d46d601b5501b4b86d431b5041b50c6d6a1b5151b4e86d6e1b5151b5146d291b4bc1b4e46d6b1b5311b5086d691b5311b5306cf91b4781b4786d2f215bc1b4bc6d5f1b5341b3e46d261b5401b5346d4e1b5611b5386d501b5581b4e06d6f1b53d1b504856e1b53d1b53c6d581b5401b5406d521b5451b5446d281b5581b4f86d661b54d1b4d46d6d1b54d1b54c6d281b5501b4a06cfd215cc1b3f46d301b4741b3c86d221b5501b5506d551b55d1b55c6d231b4ac1b48c6d141b4c01b4c06d611b56c1b584856e1b5bd1b5bc6ced215b81b3b485731b45821868054b234642346427c509fe809fe826c209b0409b0826b62360c1ad608610218442184405542344023440274309d0809d0827c209ce02188805432348423484272409c8c09c90272509ea02186c054a2346823468273409ccc09cd08d8009c941b5546d581b5581b5586d591b5691b5686d221b4ac1b4886d1d215d41b4746d171b4641b5606d171b3f81b45c6d151b5741b5486cfa215bc1b3e86d261b57c1b4986d2c1b5701b3f86d2c1b4601b4b06d5e1b56c)
  (.lf 0)))

def aesGateTree56 : BTree :=
  .nd (.nd (.nd (.lf
  0x444c10c52090c0445810c5209100431410c3209000431082452090c0430c8241208fc21fb400000426621fb800000426a04264102c040ac040ac0000040be040bc105604184041581095041b121fac10260409404098104504194040a0102904100042681030041280426c1032040c4040c81033040b8042701036040d4040d810330414c040cc1052040dc0412810450419c0411410410419804104104004178041001052041740414810580415c0415c1098041a1040b0102904160041601096041ad040a41053040b4040b41059040b8041641091041dd040dc105a04188041681090041b5040b8000004112040d4105b0419004110105f0416c0416c1097041a9041701093041cd04174108f041c1041781092041a50417c108c041b1040c0106104180040c40000040d2040d0106304180041801089041a104184108b041ad0409410630418804188108a041dd0418c1094041b5041901088041a90414c10670419404194822e041cd04198108d041c10419c108e041a5041a0101504050041a8101704118041b0101b040600406c1014040e404050101c0410c040701086041b8041b4104804118041181050041b8041b8106f041dd041c0101e0410c)
  (.lf
  0x1fde486a721ab40b3042d640b6040b2cc2d640b698237f82cbe204cc0b2f82d6b0b6980b22881320b5ac21ab404b8237d4237d42cce0b3340b33481310b5900b5908e65239840b5ac8e61239742398429330a5400a55029500a5d80a540294f0a5b80a5b829a20a5e50a51429420a5880a4dc29380a53c0a4e029620a4f00a58829770a5d40a5dc299e0a5e50a5e4295d0a58c0a4e800000a4fa0a4f829660a5c40a59829a50a5f121a9c04be237bc21abc04b6237dc237dc00000b3260b3242ccb0b3280b3282d9a0b698237bc2d9a0b6d80b2b82d9a0b6780b66881322011021ae004ad23800238002cbc0b2ec0b2f06313201102011000000a6ae0a6ac29410a5000a4cc295b0a5c40a4d800000a4e60a4e4295b0a5b00a56c29650a5c00a50000000a50e0a50c29730a5c00a4fc29710a5c00a5c029990a5e10a4f029690a4f40a50429420a4f40a4f400000a54e0a54c296f0a5ac0a5bc299c0a5f10a5f0292a0a49c0a4a829230a5200a50829610a5180a53c29610a5b40a58429680a59c0a59c29a80a5e10a5e029240a48c0a48c292b0a5480a5b4299f0a6010a5d8299d0a6010a600292d0a5480a54829632185c0a58c29930a6040b3f800000b61a))
  (.nd (.lf
  0xe2c4836b0e3680e368836c20da80e4c038de0e3600e360836d20dac0e4cc38de20dac0e378836c20d9820dac03fa223f420e1003e12245820db003f9223f8223f80000064b6064b4192f064b8064bc17ab2029c223f41940064fc064fc00000650606504897a067c822458196d201fc065b419f2067d4067c880a7201f82029c00001105216b80837f20e1416b585ad720df816b5c5adf16a0416a04838120dfc20dfc03e6224442244419ec0681c20d9803ff223e0223e019bb20284133d4837c20dd81040c837420db820db803f72240022400190a202000642819c306808065f819ec0680820dd803ef22420224201987200280661c19c4068080680880a1202040681c18f4063cc063cc80a1067082028400001105e118f483d520f4820f480393225902259019cd0681420f4403942258c2258c19ac066ac0681418f9063e0063e089b10687c066b089ba0687c0687c0000066f6130d483d820f74130d883dd20f6820f740388225bc225bc199b066681446083e020f941446483e520f8820f940380225dc225dc198e226f00663819bd0674c0666889c0066f4066c819bd067b8066f489b8226d020f24039c2256c2256c19d006850155c483cd20f28)
  (.lf 0))) (.nd (.nd (.lf
  0xf6443d270f5040f6483d290f4a00f4a43d2a0f4940f64c3d2d0f4b00f4b43d2a0f5280f4a83d490f4b80f5043d3c0f5780f4f03d380f5740f4e03d370f5540f4dc3d490f5500f5243d4f0f5380f5383d8f0f57d0f48c3d200f53c0f53c3d8d0f5890f4803d4a0f4900f4903d500f4940f5403d880f5b90f4b83d510f5640f5443d870f5910f49400000f4ee0f4b03d520f56c0f4ec3d560f5480f5483d8e0f5850f54c3d8a0f5a90f5503d860f59d0f5543d890f5810f5583d830f58d0f49c3d580f55c0f4a000000f4ae0f4ac3d5a0f55c0f55c3d800f57d0f5603d820f5890f4703d5a0f5640f5643d810f5b90f5683d8b0f5910f56c3d7f0f5850f5283d5e0f5700f57004f70f5a90f5743d840f59d0f5783d850f5810f57c3d0c0f42c0f5843d0e0f4f40f58c3d120f43c0f4483d0b0f4c00f42c3d130f4e80f44c3d7d0f5940f5903d3f0f4f40f4f43d470f5940f5943d660f5b90f59c3d150f4e80f4e83d4b013d80f5803d450f52c0f52c3d7a0f5a00f5983d700f5a00f5a03d690f5cd0f5883d100f43c0f43c3d790f4500f4503d7c0f5ac0f4543d420f5ac0f5a43d6b0f5c40f5a83d730f5ac0f5ac3d6d0f5b10f4303d0d013c80f4383d3e0f5bc)
  (.lf 0)) (.nd (.lf
  0x214dc022e22e9022e90230108c3c08c3c21e40878c0886422c708c0808790802b206980889422f608c080883822c008c0808c08802b20678200ac0000084d61d2908528214a41d470852a214a01d33085282149c1d43074bd214ac1d43c74bd214b01d2f474bb214a0214a0023d22e54088402133206b01a3ec69081a4451a32468b81a3281a328689c1a26c1a26c68fd1a3f01a3f069051a4511a30868bd215141a2f468b71a2e41a2dc68b51a3f41a3f469071a4491a2e068b41a4001a40069041a44d1a2e468b61a40c1a40c690e1a4291a4448540215141a44c853f215141a420688e1a2cc1a23868b41a2d81a42869121a2cc1a43868c41a4481a4488545215081a41469141a2d01a2d085452150c21514022022ec822ec82200230180880022c308b381a23485431a2d81a2d88544215081a41c68b52151021510022122ec422ec42201206b01a2708540215041a4508542215001a3108540214fc1a41068b52150c1a2d468b32150021500022522eb422eb422092300c0882422f608be81ba248530214d4214c0023522e7422e74222322fe00888c22f208c041a2cc8541214fc214fc022622eb022eb0220c0882c0882c0000088360883422fe08c04)
  (.lf 0)))

def aesGateTree57 : BTree :=
  .nd (.nd (.nd (.lf
  0xdb0034c00fb000d30032c00f3000cb0030c00eb000c30038c23ba800fb003cc005b000f3003ac0053000eb0038c004b000e30010c23b2823b283ebe0faf40faf83edd0fbf40fb003ec10fb600fcc83ec80fb880fccc3eca0fb240fb283ecb0fb180fcd03ece0fb340fb383ecb0fbac0fb2c3eea0fb3c0fb883edd0fbfc0fb743ed90fbf80fb643ed80fbd80fb603eea0fbd40fba83ef00fbbc0fbbc3f300fc010fb103ec10fbc00fbc03f2e0fc0d0fb043eeb0fb140fb143ef10fb180fbc43f290fc3d0fb3c3ef20fbe80fbc83f280fc150fb1800000fb720fb343ef30fbf00fb703ef70fbcc0fbcc3f2f0fc090fbd03f2b0fc2d0fbd43f270fc210fbd83f2a0fc050fbdc3f240fc110fb203ef90fbe00fb2400000fb320fb303efb0fbe00fbe03f210fc010fbe43f230fc0d0faf43efb0fbe80fbe83f220fc3d0fbec3f2c0fc150fbf03f200fc090fbac3eff0fbf40fbf401770fc2d0fbf83f250fc210fbfc3f260fc050fc003ead0fab00fc083eaf0fb780fc103eb30fac00facc3eac0fb440fab03eb40fb6c0fad03f1e0fc180fc143ee00fb780fb783ee80fc180fc183f070fc3d0fc203eb60fb6c0fb6c3eec005d80fc043ee60fbb00fbb03f1b0fc24)
  (.lf 0)) (.nd (.lf
  0x85c421462120c0851821790859808680216c085d0085b0215d085e4085e421aa08690086a8847e086e1086e02136211f8084d884830857c08164202e211ac080b8206108138082242048080bc0816820490816c0816c202d080b00822c2053081700814c204e211b40813820480812808120204608238080b0208e082340823820980828d082602046211b008220205408170081702093082341e7cc7a001e8111e7d484761e80d1e80c7981211d81e604847b1e6a81e8007a04211dc1e81079ae211ec1e7e879a91e6b81e6b8847c211d81e6a8847c211e81e7ec79a9211f0211f002e922a8022a801f7b07de807de81c9107fdc080bc205d081240820c202b2119c080ac2057082400815c205d0823408174208f082300823c2097082790825c20460812c081502045081840824c209a0827108270209e0815408278204b08114081842092082300823020990828908240209d08285082488466082810827420a12119c08284204b211ac0812c846c2119808280201e2119808264201f081100807c20450811c0812820470825008078846b0811c0811c846c211a8211b002f922a4022a40000007cba07cb81f3007cbc0812420450824408234209608295)
  (.lf 0))) (.nd (.nd (.lf
  0x147d4522c14831147d8522814825147dc522b14809147e05225148151472451fa147e4147280000147361473451fc147e4147e4522214805147e8522414811146f851fc147ec147ec522314841147f0522d14819147f452211480d147b05200147f8147f8827e14831147fc522614825148005227148091480451ae146b41480c51b01477c1481451b4146c4146d051ad14748146b451b514770146d4521f1481c1481851e11477c1477c51e91481c1481c5208148411482451b7147701477051ed209fc1480851e7147b4147b4521c148281482052121482814828520b148551481051b2146c4146c4521b146d8146d8521e14834146dc51e4148341482c520d1484c1483052151483414834520f14839146b851af20a0c146c051e014844146c851af20a14146bc51d7146cc146cc521d148441484051e614844148445212148511484852151484c1483851e61484c1484c52161485d1483c51b8209fc146e051e4148701479851bb20a0c146ec51ee1476c1485451d5146f0146f051ea147581479051ea148641485051e1147a41478451d2147b8147b8521e14860147a8521b14860148605225148b91485851e7148701479c51d6147a0147a051ba146e4)
  (.lf 0)) (.nd (.lf
  0x19d946766216782167805c72315023150242e20654090b824a60933c18e4463922163818e2c639618e4918e58634c18e6818e48639a18cec18cf4633b2164018cec85912163c18e6c858f2165418d3085902163c2163c05d6231142311400000910e0910c2445091100911024c80933c0933c81622062408ef88162206542058800001b81218cf085952164c18e6885952164818e648590216542165405d02312c2312c243a090e4090e48161092981ca687295216341ca54728f1ca441ca3c728d1cb541cb5472df1cba91ca44728e1cb6c1ca38858c216281cb7c728d216302163005d92310823108244d09130174308598216742167405c82314c2314c242f23300091308030092e019c4885a4216882169005c1231682316824202063c0908024b6092e0090bc24a7092e0092e0819b205842058400001b80a18c908590216442164405d42311c0911481900941418e708592216402164805d3231202311c244109100091048cb10941423120243e090f4090f88cb2094140941400000929e19d98676e19c3c19db885a52168819dbc859f216942169405c02316c2316c241f090782163805d723110231102446206240911824a7093300907880300929c)
  (.lf 0)))

def aesGateTree58 : BTree :=
  .nd (.nd (.nd (.lf
  0x1643401f71646d164385935164611643c5936164451644058bd162f01644858bf163b81645058c3163001630c58bc16384162f058c4163ac16310592e164581645458f0163b8163b858f8164581645859171647d1646058c6163ac163ac58fc007d81644458f6163f0163f0592b164641645c59211646416464591a164911644c58c11630016300592a1631416314592d164701631858f31647016468591c164881646c59241647016470591e16475162f458be007c8162fc58ef164801630458be007c0162f858e61630816308592c164801647c58f5164801648059211648d164845924164881647458f516488164885925164991647858c7007d81631c58f3164ac163d458ca007c81632858fd163a81649058e41632c1632c58f916394163cc58f9164a01648c58f0163e0163c058e1163f4163f4592d1649c163e4592a1649c1649c5934164f51649458f6164ac163d858e5163dc163dc58c916320163205929164a01649858ef163e0163e0592e164a0164a0593116501164a85932164e5164ac5938164f11639458e1164b0164b05930164fd164b401f7164ed164b85935164dd164ec58ba007dc162e801f21638c164d058bb16380162ec58e11638c)
  (.lf
  0x21d3000000333223ff0043a21d2c21d2c00000332e0332c0c5d03170031740c5a03228033300c61031f0031840c930324823fe8043c21d2421d240c5703158031640c5a031c4031680c8503178031780c8b0317c23fe0043e21d1c21d1c000003336033340c63031880318c0c640317c0317c0000031d6031d40c910323403170000003182031800c880324c032200cc703279032440cbe03279032780c4c03124031300c45031a823ff8043821d340315c0c770325c0316000000316e23fec043b21d2821d280c7c031d821d340c55031c8031f00c7703264031dc0c7203260031c80c7103240031c40c840323c0319c0c6403214031900c84031a0032100c8a03224032240cca03269031540c7e0324c0316c0c7e03238031f80c760324803188000003196031940c9503248032480cbb03269032680c4603114031140c4d031d0031d80c9603254031580c9503250032140c990325c032580cba03271032400cc40326d032640cc00326d0326c0c80032180323c0cc103289032600cbf03289032880c4f031d0031d00c8621b1c032180cb50328c031a00c8c03250032540cc60327d032300cc20327d0327c0c7a031e0032340cc903271032700c48031e0))
  (.nd (.lf
  0x22cec35800d5fc0d60035a00d7000d680359b0d7040d66c359a0d6e40d66835ad0d6e00d6e035ea0d72d0d7dc35900d63c0d640358d0d6b80d60400000d6120d61035a70d6dc0d5f835a70d6f00d69c359f0d6ec0d6ec35e40d70d0d63435ad0d6440d6b435b30d6c80d6c835f30d70d0d70c356f0d5b80d5bc35702106c0d6f035e60d7190d6cc35f10d7190d71835730d5c80d5cc3570210740d63c35b60d6fc0d67835ba0d6d80d6d835f20d7150d67c35bf0d6f80d6fc35e30d7150d71435710d6840d5fc35be0d6f40d64435b50d6f40d6d435eb0d7210d6f835ef0d7210d72035a30d6840d68435ab0d7240d6c435f00d71d0d6e835e70d71d0d71c35750d5c80d5d4356e0d64c0d5b835760d6740d5d835e10d7240d5c035980d5d00d72435ca0d7490d5d035df0d74c0d6f435e50d7490d6d035ec0d7490d74835a80d74c0d5c435a20d74c0d74c35d40d7590d75835a30d6ac0d68c35930d6c00d6b835c20d7000d70084160d7390d70435e80d72d0d70835e90d7110d6e435ed0d7110d6dc35ee0d7390d5c835dd0d5dc0d5dc35e00d73c0d72c35780d6740d67435af2105c0d71035a90d6bc0d73835d70d73c0d6bc35de0d7300d72835d40d730)
  (.lf 0))) (.nd (.nd (.lf
  0x222c44fb71fef01fef04fd113f40223b8481d1feb80572488ec223b4223b047fb11fe8223bc47f71205011fdc481f120d011fe8000011ff611ff4481f120bc1207c7fae120cc1feb84837120d80591488cd05b04058f8163f05b0405b0488d32233c05b8088d0223302234c442a1111c110a844521119c22340442e110b4110b40000110c2110c0445211188111487fa71119805b5888d2223382234844501fe9c1fe9c446a111a4121b047ff11ff811ff800001200a120084829120d0120a44868120fd223b447f911fe011fe44818120e011fec47fc1204c121b4480312074121b848051201012014480612004121bc4809120201202448061209812018482512028120744818120e8120604814120e4120504813120c41204c4825120c012094482b120a8120a8486b120ed11ffc47fc120ac120ac4869120f911ff048261200012000482c12004120b048641212912028482d120d4120b44863121011200400001205e12020482e120dc1205c4832120b8120b8486a120f5120bc486612119120c048621210d120c44865120f1120c8485f120fd1200c4834120cc1201000001201e1201c4836120cc120cc485c120ed120d0485e120f911fe04836120d4)
  (.lf 0)) (.nd (.lf
  0x1cca473241cd1c1cc9073201cd181cc80731f1ccf81cc7c73311ccf41ccc473381ccdc1ccdc73781cd211cc2c73081cce01cce073761cd2d1cc2073321cc301cc3073391cc341cce473711cd5d1cc58733a1cd081cce873701cd351cc3400001cc8e1cc50733b1cd101cc8c733f1ccec1ccec73771cd291cc1800001cc261cc24732b1ccf01ccf073731cd4d1ccf4736f1cd411ccf873721cd251ccfc736c1cd311cc0c732b1cd041cc3c73411cd001cc4000001cc4e1cc4c73431cd001ccac73351cd001cd0073691cd211cd04736b1cd2d1cc1073431cd081cd08736a1cd5d1ccd473441cd0c1cd0c73741cd351cd1073681cd291ccc873471cd141cd1485661cd4d1cd18736d1cd411cd1c736e1cd251cd2072f41cbcc1cd2872f61cc941cd3072fa1cbdc1cbe872f31cc601cbcc72fb1cc881cbec73661cd381cd3473271cc941cc94732f1cd381cd38734f1cd5d1cd4072fd1cc881cc8873332159c1cd24732d1cccc1cccc73631cd441cd3c73591cd441cd4473521cd711cd2c72f81cbdc1cbdc73621cbf01cbf073651cd501cbf4732a1cd501cd4873541cd681cd4c735c1cd501cd5073561cd551cbd072f5215ac1cbd873261cd601cbe072f5215b4)
  (.lf 0)))

def aesGateTree59 : BTree :=
  .nd (.nd (.nd (.lf
  0x141d8503f1412014120507e141e0141e0508114241140fc503a01780140e85034140d8140d05032141e4141e4508314239141f405e71422d141f850851421d140d85033141fc141fc508a142191422c500a0179c1402805e2140cc14210500b140c01402c5031140cc142045090140c41424005e3017941421450860179c14218508e140c0142285041142381423805e00178c140cc05e10178c0178c05c30098c0170c05a30090c0168c05830088c0160c020323d4c23d4c53841ff0c141e8508214225140d45031141f0141f050801423d1423405e5017801423c05e6017801421c508914104142245037140c4140c405e0017880178005c0009800170005a0009000168005800088001600020023d5823d58535e14dec1406405e5017901410405e501798142085032140dc142005032017881420c503201784140c85030017940179405c5009940171405a5009140169405850089401614020523d4423d44536214d8414d84000014d9214d90538614e5814d78538614e6c14e187fc314e681ff0c539e14e7414cc8533f14d0d14cfc5343017f814b9c05fc017f8017f805de009f80177805be00978016f8059e008f801678021e23ce014d0c52ee017e8)
  (.lf 0)) (.nd (.lf
  0x17aac5eaf2129c17abc5e59212ac17aa85eac1798c17ab05e591794c17a945e54179641796484ac2129817aa05ea9212982129802bf22b2822b681f1a2054807c681fc70800822b281f37203f8212f802a722b8822b881f0f2018807c3c1fc0080080800880fe20084203f800001673e1df7484bb1e0181e01884bc212e8212f002a922b801f0e47bcb1ef281ef2800001ef3a1ef387bf61f0041efd87c351f03122fdc7bc31ef8022fd47bc51ef101ef147be41f01422fd07bc71ef181ef1c7bc81ef7c1f0e87bcf1efa41f0ec7bd11ef401ef447bd21ef341f0f07bd51ef501ef547bd21efc81ef487bf11ef5822fd87be91efd41efa47be41f01c1ef907be01f0181ef807bdf1eff81ef7c7bf11eff41efc47bf81efdc1efdc7c381f0211ef2c7bc81efe01efe07c361f02d1ef207bf21ef301ef307bf91ef341efe47c311f05d1ef587bfa1f0081efe87c301f0351ef3400001ef8e1ef507bfb1f0101ef8c7bff1efec1efec7c371f0291ef1800001ef261ef247beb1eff01eff07c331f04d1eff47c2f1f0411eff87c321f0251effc7c2c1f0311ef0c7beb1f0041ef3c7c011f0001ef4000001ef4e1ef4c7c031f0001efac7bf51f0001f0007c291f021)
  (.lf 0))) (.nd (.nd (.lf
  0x17f0c5fc720cdc17f1c5f7120cec17f085fc417dec17f105f7117dac17ef45f6c17dc417dc4833c20cd817f005fc120cd820e6403cc224ac224ac19e00684820ee403ac2252c2252c19f1068300640c19e60641420ec403b42250c2250c1922064840648419e6064600679889ad226a420e8403c4224cc224cc1943065080655819d4065600650819de06780065600000067820678089922263405f1017c505f70060d417c805f1c05f2017c505fd005f1417ef05f2405f2417f505f2805f1c000005f2e05f2c17f205ff405fc8183106021060dc17ce05f3405f3817cf05f2805f28000005f8205f8017fb05fdc05fec1828060210602017b705ed005edc17b005f540683018e80639c0639c89ad063a8226b417c205f0405f0817e106004060e017d205f4405f4817cf05fbc060d817cc05f9805f3017fd05ff005f9817e10600c05f8417dd0600805f34000005f4205f3c17ee05f4c05f7417dc05fe805f7017ee05fe405fb817f405fcc05f4017ff05ff005ff018250601105fcc1834060110601017b105ec005ec017b805f7c05ee01822060280600818290603105fe4182b060310603017ba05f7c05f0417ff05ff805fbc18030600405f4c17f605ff8)
  (.lf 0)) (.nd (.lf
  0xb344813018c480b6048e5c204a423970000018c4a18c4862a718b040b2188e530b21c0b21c00002396623964629d18a7018a7462bc18b740b2a800000b63e0b63c8e5a239540b2248e54239682396862c118b3418b0462bc18b7c18af062b818b7818ae062b718b5818adc62c918b5418b2462d018b3c18a9c62d918b6018b60630118b8118b3462dc18b6c18b70630018b8918b88628e18af418a88000018a9a18a9862ce18b6418b38630d18b9118b5c630418b9118b90629218a3c18a48628b18ac018b3c631018b8118b80628c18a2c18ab862d218b6818b48630818b9518a7062db18b6818b6c630c18b9518b9462bf18af418af462c718b9818a2c629318ae818a4c62fe18b9818b9862e718bbd18b9c62f118ba418b50630b18bad18b54630718ba118b58630a18b8518b64630318b8d18b40630e18b8d18b8c629018a3c18a3c62fa18a5018b2862df18b7418b7485ee18bad18bac62f418bb018b78630518ba118ba0629518ae818ae862cb217bc18b7c630618b8518b8462c518b2c18b2c62fb18ba418ba462ea18bd118ba862ec18bc818a5462c218bb018a5062fd18bb018bb062ee18bb518bb86296217bc18a5862c218bec18b68630218bbd)
  (.lf 0)))

def aesGateTree60 : BTree :=
  .nd (.nd (.nd (.lf
  0xf3d43d040f2940f410821a208600f3f83cb50f4080f3ec3cfd0f2d40f2d482182085c0f3e43cfa208580f3e83d020f2900f3f43cab0f2940f408821d208680f3d83ca60f2ac0f2ac821c208580f29c821c208680f3d03ca62086c0f3dc3ca6208700f2983ca4208600f294821d2086c0f29082192085c0f1e83c0d0f0300f03000000f0420f0403c370f1080f0dc3c760f13504e84882822090220a03c070f0180f01c3c260f1180f0243c0a0f0840f1ec3c110f0ac0f1f03c130f0480f04c3c140f03c0f1f43c170f0580f05c3c140f0d00f0503c330f0600f0ac3c260f1200f0983c220f11c0f0883c210f0fc0f0843c330f0f80f0cc3c390f0e00f0e03c790f1250f0343c0a0f0e40f0e43c770f1310f0283c340f0380f0383c3a0f03c0f0e83c720f1610f0603c3b0f10c0f0ec3c710f1390f03c00000f0960f0583c3c0f1140f0943c400f0f00f0f03c780f12d0f0f43c740f1510f0f83c700f1450f0fc3c730f1290f1003c6d0f1350f0443c420f1040f04800000f0560f0543c440f1040f1043c6a0f1250f1083c6c0f1310f0183c440f10c0f10c3c6b0f1610f1103c750f1390f1143c690f12d0f0d03c480f1180f11882360f1510f11c3c6e0f145)
  (.lf
  0x21a4404d423764237642d000b3fc025f409340260402604869521a48025ac09740260d025d009830248c0260c869221a4021a4804d323768237682cfc0b3ec0b3ec2d7a0b3f80b1fc8e510b2040265c869821a64023908686023c9023c8087021a18021c0868b022640238808ef023cd023bc08f321a1c02264868c21a28023cc089d21a2c023a408980227402274868c21a18023a8089821a3021a3004d923750237502d0c0b42c0b42c80470b5dc02a6086a021a9421a9404c0237b4237b42cdd0b3700b37080470b5982011c00000a8da0239c089821a2c21a2c04da2374c2374c2d0e0b4340b4348e510b5d4026b8869921a5c21a8c04c2237ac237ac2cdf204d0023dc868a21a2021a2804db23748237482d7a0b6f00b6f02c760b1d40b37c2d7a0b5f80b5e88e51239342394429e50a7c402260089621a20021fc868821a2402258868921a1c21a6404cc23784237842d860b6e00b6e02c7e0b1f40b1f48e500b5b421a2404dc237440b3802d7f0b38c237442d7f0b6f40b3fc2d7f0b3d40b5fc8e50239300b1d48e500b5bc2394029c10a7000a70429e00a8040a8d829cb0a7940a79429e00a80c0a78029dc0a80823efc047721cb821cb8000002caa))
  (.nd (.lf
  0x155a455711544c155ac556f20f1c155945515154681558c551520f2c15598551520f3015454551320f201544c83c920f1c20f1c039e225642256419da068540668c19cb067ec12d3484092101c21024035c2279010ca084212107c2107c0346227e8227e81b2f06cb8210400355227ac227901bc307004070041ab706ad806adc8a5506ae006b101ab82297c06ae000002296e2101c035e22788227881bcb07008070081ab406acc06ad080c311908227ac1b452295406d141bc806f441447050af142b8142b80000142ca142c850d914390143645118143bd06f008a87229e822a1c50a9142a0142a450c8143a0142ac50ac1430c1447450b3143341447850b5142d0142d450b6142c41447c50b9142e0142e450b614358142d850d5142e81433450c8143a81432050c4143a41431050c3143841430c50d5143801435450db1436814368511b143ad142bc50ac1436c1436c5119143b9142b050d6142c0142c050dc142c4143705114143e9142e850dd14394143745113143c1142c400001431e142e050de1439c1431c50e21437814378511a143b51437c5116143d9143805112143cd143845115143b114388510f143bd142cc50e41438c142d00000142de)
  (.lf 0))) (.nd (.nd (.lf
  0x15ae856b715c0c15c0c570e15c2915c4c8277209f415c20568f15ad015c3856c515c4815c2c570d15b1415b148278209dc15c24570a209d815c28571215ad015c305710209dc15c1856b615aec15c1056b6209ec15c1c56b6209f015ad856b4209e015ad08279209dc209dc01ee21ddc21ddc000004fb604fb413eb04fb004fb0138604dc021df813fb1ff9804fec13af04e182099801ff21d9821d9813b61ff8404ed813a704e1804e187ffd1ffc8148c0827f20a14147888280209fc209fc01e621dfc21dfc138504da804da8147e051fc051f87ffd1ff941fff4000004b221903c641c1909518f7463cc18f7818f7863b018ebc18ebc64111904018f5863d1209d418f4463cb18f3418f2c63c91904419044641b1909918e84827318f281907063a218f1c18e8863c818f2818f3463ca1905c18f288274209c81906c63c9209d015c64826b15d0815d08826c209a815e485741209b0209b001f921db021db000000511605114144305110051107fe304e0815bf0570515c5115c448278209f415a3c56b515adc15c3456bb15ad415c48827d209e815c14571415ad415ad4827d209ec148b8828020a1414748828520a0c20a1401e021e14209d001f121dd0)
  (.lf 0)) (.nd (.lf
  0x1d2348538214f41d23c8537214f41d210740a1d0bc1d02874301d0c81d218748e1d0bc1d22874401d2381d238853d214e81d20474901d0c01d0c0853d214ec214f4022822ea822ea822100883c1b9d06e7d1ba311b9e4852e1ba1d1ba1c6e05214b81b81485331b8b81b8186e2c1b8b81b9f46e8c1b8b01ba308532214c01ba288535214c81b8b88534214c8214c8023322e7c22e7c22200887c1b8508530214c4214c4023422e7822e7822220888422e700000088920889022260889408898819d2073c088808bfa2073c0883c8c0a2073c088888bf92073c2073c000008b0e09390816b2335c090b4819c09298090a88cba092980912c24a6092e40908c242409298092988cc0232f0093a08150206602066000001d8de2065c00001d8da2065800001d8d6093c823d308f4808f488cd208f44093cc23cf08f3808f388cd108f4408f440000092b208fcc8194094180936c814c2065008ff86fa7206502065000001d6ae09048814a092cc092cc814b2064c08fdc6fa62064c2064c00001d6aa0905c000009066090648cd2092f8092f8814a2064808fe46fa5206482064800001d6a6093a48149206442064400001d8e2093d023cd08f3008f34816920634)
  (.lf 0)))

def aesGateTree61 : BTree :=
  .nd (.nd (.nd (.lf
  0x1154445771160011580457b115dc115dc45b311619115e045af1163d115e445ab11631115e845ae11615115ec45a81162111530457d115f01153400001154211540457f115f0115f045a511611115f445a71161d11504457f115f8115f845a61164d115fc45b0116251160045a411619115bc4583116041160402f71163d1160845a9116311160c45aa11615116104531114c011618453311588116204537114d0114dc453011554114c045381157c114e045a2116281162445641158811588456c1162811628458b1164d11630453a1157c1157c457000bd811614456a115c0115c0459f116341162c45951163411634458e116611161c4535114d0114d0459e114e4114e445a111640114e8456711640116384590116581163c45981164011640459211645114c4453200bc8114cc456311650114d4453200bc0114c8455a114d8114d845a0116501164c4569116501165045951165d11654459811658116444569116581165845991166911648453b00bd8114ec45671167c115a4453e00bc8114f8457111578116604558114fc114fc456d115641159c456d116701165c4564115b0115904555115c4115c445a11166c115b4459e1166c1166c45a8116c5)
  (.lf 0)) (.nd (.lf
  0x1aaec6a511a9401a9446a521a9341aaf06a551a9501a9546a521a9c81a9486a711a95807f7c8b4022cf022d006a691a9d41a9a46a641aa1c1a9906a601aa181a9806a5f1a9f81a97c6a711a9f41a9c46a781a9dc1a9dc6ab81aa211a92c6a481a9e01a9e06ab61aa2d1a9206a721a9301a9306a791a9341a9e46ab11aa5d1a9586a7a1aa081a9e86ab01aa351a93400001a98e1a9506a7b1aa101a98c6a7f1a9ec1a9ec6ab71aa291a91800001a9261a9246a6b1a9f01a9f06ab31aa4d1a9f46aaf1aa411a9f86ab21aa251a9fc6aac1aa311a90c6a6b1aa041a93c6a811aa001a94000001a94e1a94c6a831aa001a9ac6a751aa001aa006aa91aa211aa046aab1aa2d1a9106a831aa081aa086aaa1aa5d1a9d46a841aa0c1aa0c6ab41aa351aa106aa81aa291a9c86a871aa141aa14843e1aa4d1aa186aad1aa411aa1c6aae1aa251aa206a341a8cc1aa286a361a9941aa306a3a1a8dc1a8e86a331a9601a8cc6a3b1a9881a8ec6aa61aa381aa346a671a9941a9946a6f1aa381aa386a8f1aa5d1aa406a3d1a9881a9886a73210fc1aa246a6d1a9cc1a9cc6aa31aa441aa3c6a991aa441aa446a921aa711aa2c6a381a8dc1a8dc6aa21a8f01a8f06aa51aa50)
  (.lf 0))) (.nd (.nd (.lf
  0xe5d0396f0e6440e5bc396b0e6400e5ac396a0e6200e5a8397c0e61c0e5f039820e6040e60439c20e6490e55839530e6080e60839c00e6550e54c397d0e55c0e55c39830e5600e60c39bb0e6850e58439840e6300e61039ba0e65d0e56000000e5ba0e57c39850e6380e5b839890e6140e61439c10e6510e61839bd0e6750e61c39b90e6690e62039bc0e64d0e62439b60e6590e568398b0e6280e56c00000e57a0e578398d0e6280e62839b30e6490e62c39b50e6550e53c398d0e6300e63039b40e6850e63439be0e65d0e63839b20e6510e5f439910e63c0e63c83560e6750e64039b70e6690e64439b80e64d0e648393f0e4f80e65039410e5c00e65839450e5080e514393e0e58c0e4f839460e5b40e51839b00e6600e65c39720e5c00e5c0397a0e6600e66039990e6850e66839480e5b40e5b4397e20d5c0e64c39780e5f80e5f839ad0e66c0e66439a30e66c0e66c399c0e6990e65439430e5080e50839ac0e51c0e51c39af0e6780e52039750e6780e670399e0e6900e67439a60e6780e67839a00e67d0e4fc394020d6c0e50439710e6880e50c394020d740e50039680e5100e51039ae0e6880e68439770e6880e68839a30e6950e68c39a60e690)
  (.lf 0)) (.nd (.lf
  0x1976065d5218141975465fd19764197646644198e0198dc660c198e0198e06639198ed198d865de217fc198d4660c198e81983065e12180c19784661419804198ec66071983c1981c65f819850198506645198fc19778660a1990c19828661019900198e4663c198e8198f065fb19788197886610197f0198406642198fc198fc664c1995519954860021814198e8663d198f9198f866061983c198186601218141980465fb197f4197f465fa1991c1991c6652199391983c664619900198f4660d1990c1983465fc198381983865e01977c1977c66411990019900664919961197ec65f91990419904664b1995919908664a1994519918664d1993d197f065f8199101994866081995819934664e217f8199386656197dc199588605218081993c6651198201991066481995d1995c85ff218141993065d2197dc1974865f8197e8199246658197e01994465fe197e0197e086052180c21814056023410234102755235cc09c4c803c09ed409ed48035204402044000001744609bbc8d9609bb009bd0810909bb009c6c803609c7409bac8d9709bb009f188d9b2365c2365c5cc01733009f3c8d9a2365809bb0000009e9e09c40803509e9c09e9c8d9c23660)
  (.lf 0)))

def aesGateTree62 : BTree :=
  .nd (.nd (.nd (.lf
  0x12b544adb12c2812c144ad212b6812b484ac312b7c12b7c4b0f12c2412b6c4b0c12c2412c244b1612c7d12c1c4ad812c3412b604ac712b6412b644aab12aa812aa84b0b12c2812c204ad112b6812b684b1012c2812c284b1312c8912b444acc005a012b304ac612b2012b184ac412c2c12c2c4b1512c8112c3c016f12c7512c404b1712c6512b204ac512c4412c444b1c12c6112c744a9c005bc12a70016a12b1412c584a9d12b0812a744ac312b1412c4c4b2212b0c12c88016b005b412c5c4b18005bc12c604b2012b0812c704ad312c8012c800168005ac12b140169005ac005ac014b007ac0052c012b0072c004ac010b006ac0042c018b23aac23aac58f21ff3412c644b1b12b4c12c304b1412c6d12b1c4ac312c3812c7c016d005a012c384b1212c8512c84016e005a012c6c4ac912b0c12b0c0168005a8005a00148007a012c504ac412b2412c544ac4005a412b4c016d005b812aac016d005b012c484ac4005a812b104ac2005b4005b4014d007b400534012d00734004b4010d006b400434018d23aa423aa458d01633c1633c00001634a1634858f41641000520012800720004a00108006a000420018823ab823ab858cc163a41633058f416424)
  (.lf 0)) (.nd (.lf
  0x1a8606a1c1a8ad1a8746a2c1a7301a73084652118c1a87069cd2118c0786c1e24078cd078901e330774c17cbc5ee02116c079848454211480775c1dd30787c0774c844d2112c2118c0302228f8228f81b7b201e406dec1bb706efc07aa81eb707aed07adc1ebb2113c07aec1e652114c07ac41e600799407ac81e602115007994845421138211500311228bc228bc000006e3e06e3c1b9106e4006e4081c706ef42116c030a228d8228d81b8806e1c06e208a802071c0787c1e23078c90788c1dd42112c2112c031a22898228981ba106e8006e8080dd06e8806e88000006efe06efc80742071c2071c00001f3121a8846a2221178211780307228e4079bc84502113c07abc1e602114c079801e5e211400797884512113c2113c0316228a8078a01e292111817bbc84582115c17b805ede2116017b7884592115c2115c030e228c8228c81bdd07014070141aae06ab406ab881c2201bc21118031f22884228841ae820708228e41b83201bc06e0c1ba606f9421158030f228c4228c41b8d2038006e341bb506f94228a8000006e6606e641b9b06e6806e681bc406f9406f9481c2201ec2070800001f31e077501dd221120078881e2d078a5078a41e3107748)
  (.lf 0))) (.nd (.nd (.lf
  0x16d9c5ae620c7816b98832316c3c16d805ae716c3016b9c5b0d16c3c16d905b6820c7c16da05b1320c8c16d8c5b6516c7416d945b1316c3416d745b6c16c3416c34832520c8c16d705b0e20c8c0eb643a6c0e9ac0e9ac00000e9be0e9bc3a960ea840ea583ad50eab1225e43a660e9940e9983a850ea940e9a03a690ea000eb683a700ea280eb6c3a720e9c40e9c83a730e9b80eb703a760e9d40e9d83a730ea4c0e9cc3a920e9dc0ea283a850ea9c0ea143a810ea980ea043a800ea780ea003a920ea740ea483a980ea5c0ea5c3ad80eaa10e9b03a690ea600ea603ad60eaad0e9a43a930e9b40e9b43a990e9b80ea643ad10eadd0e9dc3a9a0ea880ea683ad00eab50e9b800000ea120e9d43a9b0ea900ea103a9f0ea6c0ea6c3ad70eaa90ea703ad30eacd0ea743acf0eac10ea783ad20eaa50ea7c3acc0eab10e9c03aa10ea800e9c400000e9d20e9d03aa30ea800ea803ac90eaa10ea843acb0eaad0e9943aa30ea880ea883aca0eadd0ea8c3ad40eab50ea903ac80eaa90ea4c3aa70ea940ea9483060eacd0ea983acd0eac10ea9c3ace0eaa50eaa03a550e9500eaa83a570ea180eab03a5b0e9600e96c3a540e9e40e9503a5c0ea0c0e9703ac60eab8)
  (.lf 0)) (.nd (.lf
  0x901424be09340231c024d0093c8093408cc82330c216e005ad231b8231b823fe08ff408ff48cd008ffc0902024cd08ffc08ffc00000937e216a405bc2317c2317c24cd093d8093d823c808f1c08f208cc108f2408f1c8cd008f1808f10814508f1808f180000092b62169805bf2317023170241d205a4216ac05ba2318408fc024db0937c2318424180905c231bc24d8093cc0901824c408fbc08fbc000009362093608cc723308176785d34174cc1767c5d38174dc174e05d3517554174d05d35174c0174d45d54174e4174e45d5d17594175745d93175c10937c8cc623304233045d2a174a4174a40000174b2174b05d4e1757c174cc0000174da174d85d661758c0907424ad0938c092b48cd323310233105d261750c174985d4e17590175385d581758c090608cc31be942330c5d4c17560175605d6717598233085d281749c1749c5d6617594175985d97175c1175c05d4a17520176745d3217530175305d47175a8174a05d47175a01751c5d43175a41750c5d4217584174a85d2b17508175085d5417580175505d5b17568176705d2e174b4174b40000174c6174c45d5917590175645d98175bd174b85d2b1756c174ac5d55174bc174bc5d5c174c0)
  (.lf 0)))

def aesGateTree63 : BTree :=
  .nd (.nd (.nd (.lf
  0xf5e83d870f62d0f61c3d8b013d80f4bc04f4013d8013d804d6015d80135804b60155811450452111495114844525015d8113240574015d8015d80556017d80155805360175816054582216099160885826017d81609857d1017c80f62c3d36013c8013c804d2015c80134804b201548012c80492014c801248051223e100bd382f5b0bd7d0bd6c2f5f017b80bd7c2f09017a80bc2405e9017bc017bc05cf009bc0173c05af0093c016bc058f008bc1149444d0015c8015c80552017c801548053201748017c805d2009c80174805b2009480bc0805ec017b8017b805ce009b80173805ae00938016b8058e008b8017a405c9009a40172405a900924017a805ca009a80172805aa00928014c80512016c8016a8058a008a8016a40589008a4017b005cc009b00173005ac00930016b0058c008b0016c80592008c801448059223d9001628020a23d3023d3000000f86e01624020923d3423d3400000f87201638020e23d2023d2000000f8760163c020f23d1c23d1c00000f87a0f86c3dae0f6b40f6b400000f6c60f6c43dd80f78c0f7603e170f7b901630020c23d2823d283da80f69c0f6a03dc70f79c0f6a83dab0f7080f8703db20f7300f8743db40f6cc)
  (.lf 0)) (.nd (.lf
  0x213e0026d22d9422d94228422f5c08a1022ee08bbc2335c0000178a6178a05dba176e4176e40000176f6176f45de5177c0177945e24177ed233605db21773c233545db4176cc176d05dd3177d0233505db6176d4176d85db717738178a45dbe17760178a85dc0176fc177005dc1176f0178ac5dc41770c177105dc117784177045de017714233585dd817790177605dd3177d81774c5dcf177d41773c5dce177b4177385de0177b0177805de717798177985e27177dd176e85db71779c1779c5e25177e9176dc5de1176ec176ec5de8176f0177a05e2017819177145de9177c4177a45e1f177f1176f000001774a1770c5dea177cc177485dee177a8177a85e26177e5176d40000176e2176e05dda177ac177ac5e2217809177b05e1e177fd177b45e21177e1177b85e1b177ed176c85dda177c0176f85df0177bc176fc00001770a177085df2177bc177685de4177bc177bc5e18177dd177c05e1a177e9176cc5df2177c4177c45e1917819177905df3177c8177c85e23177f1177cc5e17177e5177845df6177d0177d084e617809177d45e1c177fd177d85e1d177e1177dc5da317688177e45da517750177ec5da917698176a45da21771c176885daa17744)
  (.lf 0))) (.nd (.nd (.lf
  0xe144384d0e2600e260389c0e2ad0e26838a10e28d0e148384f0e26c0e26c38a60e2890e2a4838820e340e0d4838820e240e27438ac0e1340e2b0838a20e200e298385d0e2a80e28c38a50e1740e174838820e1c0e278384e0e14c0e270384e20e2c0e27c384e20e300e138384c20e2020e2003dd2246822468196a065a4065a88084226442021000000e9421f2fc7c6a20e4c1f2f07c6a1f1901f1a8839420e381f190839520e4c20e5003d1224980e2ac838720e340e28038270e1300e09c384d0e13c0e28438a220e180e28838aa0e1300e29438530e1340e2a8838d20e280e134838d20e2c20e3403d82247c0e03883960e0710e070379b20e580de6c839b0df100de7037c20df100e07437c820e6c0e06837c80df080df20839c20e580df10839c20e6820e7003c9224b82249819542022c0655019d2067602247c1964226500659019bf06748224b8194a0652406524808a067480674881082020c06a901a4e20e8c06a54839e06a8d06a8c1a2120e780688483a306928068881a48069280692883a420e8806a841a4e0692020e5403d02249c0693883a420e7820e9003c1224d82249c1953065480654c80832263c224d819392020c2020c00000e93e)
  (.lf 0)) (.nd (.lf
  0x196dc65c4197211971065c8218fc196e4863e1971d1971c6545218f81972065722190c195148643195b82190c0522235082350826e92043c09ba427c609f2c0aaac2ab80aaf10aae02abc2189c0aaf02a66218ac234cc2705205d4218ec052a234e8234e826fd09bf00a9d82a480a91c0a91c2aa90aaa00aaa02ab10ab010aaa82ab20aae50aae42a660a9800aab486260aaed0aaec2a39218980a8e4862b0a9880aac42ac00a9800a980862d218ac0aac02a61218ac218ac053a234a8234a8271909c6009c648d8c1b5d409c1427b509f2c09bf0803c09f2c09f2c8d92205f02364800001b5d61b5d46d071b4181b41800001b42a1b4286d321b4f4195e8657521914195d4656f195c4195bc656d196d4196d465bf19729196fc656d21910195c4656e196ec196ec65c6197091970465c2218f81970865ca195ac196f8656d195c8195b4656b21900195ac8641218fc19550864021904219040524235000a98c2a610aaa40aaa42ab30aaf90aacc2a61218b00a9208628218a40aac82a610a9980aae82a700aaf80aaf48628218b40a9842a5f218a00ab00862a218a00a9c086282189c218a0053d2349c2349c271c09c6c09c70817609b400abac8639218dc)
  (.lf 0)))

def aesGateTree64 : BTree :=
  .nd (.nd (.nd (.lf
  0x20994007f003fc20990007e003f82098c007d003f420988007c003f020984007b003ec20980007a003e82097c0079003e4209780078003e0209740077003dc209700076003d82096c0075003d4209680074003d0209640073003cc209600072003c82095c0071003c4209580070003c020954006f003bc20950006e003b82094c006d003b420948006c003b020944006b003ac20940006a003a82093c0069003a4209380068003a02093400670039c209300066003982092c006500394209280064003902092400630038c209200062003882091c0061003842091800600038020914005f0037c20910005e003782090c005d0037420908005c0037020904005b0036c20900005a00368208fc005900364208f8005800360208f400570035c208f0005600358208ec005500354208e8005400350208e400530034c208e0005200348208dc005100344208d8005000340208d4004f0033c208d0004e00338208cc004d00334208c8004c00330208c4004b0032c208c0004a00328208bc004900324208b8004800320208b400470031c208b0004600318208ac004500314208a8004400310208a400430030c208a00042003082089c00410030420898004000300)
  (.lf
  0xa74029f70a8000a6dc2a220a8280a7c42a000a7fc0a70029ff0a7f80a7fc2a300a8250a82429e30a7840a7dc2a330a8190a8002a240a8190a81829b20a7840a78429eb0a8280a8282a0b0a84d0a82c2a150a8340a8342a0e0a8610a7f42a270a81d0a7d02a320a81d0a7e02a2f0a83d0a6e429e60a8400a81c29b40a6cc0a8382a100a8580a83c2a180a8400a6cc2a1e0a6e00a6e02a210a8400a8402a120a8450a6d029b1218940a6c029b12188c0a6c429d90a6d40a6d42a200a8500a7d42a2d0a84d0a84829ba2187c0a6c829e20a8500a7f82a260a84d0a84c29e80a8500a8502a150a85d0a8542a180a8580a84429e80a8580a8582a190a8690a86429e90a87c0a6e829e60a87c0a87c2a2c0a8c10a8b02a302187c0b6d42c860b2140b2148e620b2100b2d800000b2e20b2e081310b604204c400001973a0b6d02c890b2200b2208e630b5b02398c655919560195646578196640b2ec8e620b2f423990657d19624197386563195f4195f465781966c23988655b195681956c655c195cc0b6d82c830b2080b20881330b2100b21000000b5b20b5b08e65239580b2d08e6520748239946557195d0195e0657419668195d0657319648195cc658519644))
  (.nd (.lf
  0xde78379f20e6c0de8037d00e0040de88379f20e740de7c37c70de8c0de8c380d0e0040e00037d60e0040e00438020e0110e00838050e00c0dff837d60e00c0e00c38060e01d0dffc37a820e5c0dea037d40e0300df5837ab20e6c0deac37de0df2c0e01437c50deb00deb037da0df180df5037da0e0240e01037d10df640df4437c20df780df78380e0e0200df68380b0e0200e02038150e0790e01837d70e0300df5c37c60df600df6037aa0dea40dea4380a0e0240e01c37d00df640df4037cb20e740df2c37c50df1c0df1437c30e0280e02838140e07d0e02c38130e0690e03038190e0750df1837c20e0340e03438110e0810df64380f0e0240e03c38160e0610df1c37c40e0400e040381b0e05d0e080839720e740e054379c0df040e06c37d20e07c0e060381a0df480df48839820e5c0e058381720e580e05c381f0df040e064381d20e5c0e04c37c30df200e04437c320e6c0e05037c320e700df0c37c120e600df04839920e5c20e5c03ce224a4224a419e70684c20e4003d52248806a341a5d06a4c069741a4c0697806a301a4b068c8068c81a600693006a181a2e20e7c068b81a5a06a4c069681a6006a40069801a9206a3c069781a30068bc)
  (.lf 0))) (.nd (.nd (.lf
  0x151405250171401588054201788015080522017080149c05070169c0158000000187e0187c061e01780014800000018760150000000187a01878061d0170001874061c016800148805020168801408058223dd00141c058723dbc0148c05030168c0140c058323dcc01584054101784015040521017040148405010168401404058123dd40140000000187201870058023dd80149805060169801418058623dc00149405050169401590054401790015100524017100149005040169001410058423dc801414058523dc423dd000000bd9223dd400000bd9623dc000000bd9a23dbc00000bd9e0bd902ef60bbd40bbd400000bbe60bbe42f210bcb00bc842f600bcdd23dd82eee0bc2c23dc82ef00bbbc0bbc02f100bcc023dc42ef20bbc40bbc82ef30bc280bd942efa0bc540bd982efc0bbec0bbf02efd0bbe00bd9c2f000bbfc0bc002efd0bc780bbf42f1d0bc0423dcc2f150bc3c0bc542f100bcc80bc402f0b0bcc40bc2c2f0a0bca40bc282f1d0bca00bc742f230bc880bc882f630bccd0bbd82ef30bc8c0bc8c2f610bcd90bbcc2f1e0bbdc0bbdc2f240bbe00bc902f5c0bd090bc042f250bcb40bc942f5b0bce10bbe000000bc3a0bbfc2f260bcbc)
  (.lf 0)) (.nd (.lf
  0x1ee887baa1ed2c1ee987b5c1eea81eea884c5213081ed3884c4213082130802a322b9822b981f0507c101ee587b9e1ee951ed407b4c1ee601ee607b9c1eead1ecd084c0213041ee787b4d1ed481ee707b4d2130c1ee7c7b4d213101ed347b4b213001ed2c84c1212fc2130402a422b9422b941f0807c1c1ee5c7ba41eea11eeac84bf213141ee8c7ba51ed701ed7084c0212fc1ee907ba8212fc212fc02a622b8c07c208b3b2077007c148b3c2077022b8c1f0d07c3007c3480612077020770000007f0208adc22d508b8408b5481bc206a008a4481a7206a0206a000001e19a2069c00001e196087fc22ca08bc008bc081b6206882068800001e1a208a6481a108a5808b7081b5206842068400001e19e2067000001db0e0907c819b232f02066c00001db0a2066800001db062065400001db12205a400001bea22054000001a68e2053c00001a6862052400001a692092388118178a4204600000178a2204480000178ae204440000178aa08f8400002335a1db0476531d9481d94800001d95a1d958767e1da241d9f876bd1da51232f0764b1d9a0232e8764d1d9301d934766c1da34232e4764f1d9381d93c76501d99c1db0876571d9c41db0c76591d960)
  (.lf 0)))

def aesGateTree65 : BTree :=
  .nd (.nd (.nd (.lf
  0xbad02e8c0bae40bae42ebc0baf50bad42e5d00f980b9742e8a0bb080ba302e6000f880b9802e940ba000baec2e7a0b9840b9842e900b9ec0ba282e900bafc0bae82e870ba3c0ba1c2e770ba500ba502ec40baf80ba402ec10baf80baf82ecb0bb510baf02e8d0bb080ba342e7b0ba380ba382e5f0b9780b9782ec00bafc0baf42e860ba3c0ba3c2ec50bafc0bafc2ec80bb5d0ba182e8000f800ba002e7a0b9f00b9e82e780bb000bb002eca0bb550bb1003e70bb490bb142ecc0bb390b9f02e790bb180bb182ed10bb350bb482e5000f9c0b94003e20b9e40bb2c2e510b9d80b9442e770b9e40bb202ed70b9dc0bb5c03e300f940bb302ecd00f9c0bb342ed50b9d80bb442e880bb540bb5403e000f8c0b9e403e100f8c00f8c03c30058c00f0c03a30050c00e8c03830048c00e0c010323b4c23b4c4ad41fecc0bb042ec90bb410b9ec2e770bb0c0bb0c2ec70bb590bb382ed00ba200bb402e7d0b9dc0b9dc03e000f880bb1c2e7800f880bb242e780b9f40bb282e7800f840ba2003e500f980b9e02e7600f940bb5003e500f800b97c03e500f9000f9400000182e0182c060a0059400f1400000182a0182806090051400e1400000182200e94000001826)
  (.lf 0)) (.nd (.lf
  0x78941dd40776422c50000017d0a17d005ed217b4417b44000017b5617b545efd17c2017bf45f3c17c4d07e1c801e07e0c07e0c000007f1a07f188b1822c4c22c605eca17b9c07bb88b0f22c5822c585ecc17b2c17b305eeb17c3007eac1ef7202e407bdc000022c5622c545ece17b3417b385ecf17b9817d045ed617bc007bc080ba17d0817d085ed817b5c17b605ed917b5017d0c5edc17b6c17b705ed917be417b645ef817b7407df48b1022c5c22c5c5ef017bf017bc05eeb17c3817bac5ee717c3417b9c5ee617c1417b985ef817c1017be05eff17bf817bf85f3f17c3d17b485ecf17bfc17bfc5f3d17c4917b3c5ef917b4c17b4c5f0017b5017c005f3817c7917b745f0117c2417c045f3717c5117b50000017baa17b6c5f0217c2c17ba85f0617c0817c085f3e17c4517b34000017b4217b405ef217c0c17c0c5f3a17c6917c105f3617c5d17c145f3917c4117c185f3317c4d17b285ef217c2017b585f0817c1c17b5c000017b6a17b685f0a17c1c17bc85efc17c1c17c1c5f3017c3d17c205f3217c4917b2c5f0a17c2417c245f3117c7917bf05f0b17c2817c285f3b17c5117c2c5f2f17c4517be45f0e17c3017c30845617c6917c345f3417c5d)
  (.lf 0))) (.nd (.nd (.lf
  0x137c44e2f138b8138b84e561390d138bc4e60138e5138c04e54138d91387c4e33138c4138c48316138fd138c84e59138f1138cc4e5a138d5138d04de113780138d84de313848138e04de7137901379c4de013814137804de81383c137a04e52138e8138e44e1413848138484e1c138e8138e84e3b1390d138f04dea1383c1383c4e2020c5c138d44e1a13880138804e4f138f4138ec4e45138f4138f44e3e13921138dc4de513790137904e4e137a4137a44e5113900137a84e1713900138f84e4013918138fc4e4813900139004e4213905137844de220c6c1378c4e1313910137944de220c74137884e0a13798137984e50139101390c4e1913910139104e451391d139144e4813918139044e1913918139184e4913929139084deb20c5c137ac4e171393c138644dee20c6c137b84e2113838139204e08137bc137bc4e1d138241385c4e1d139301391c4e1413870138504e0513884138844e511392c138744e4e1392c1392c4e5813985139244e1a1393c138684e091386c1386c4ded137b0137b04e4d13930139284e1313870138704e5213930139304e5513991139384e56139751393c4e5c13981138244e0513940139404e541398d1394483161397d)
  (.lf 0)) (.nd (.lf
  0x951c254e0953409534258e0957909538258c09585094b02550095600954025860958d094980000094a609494255709558094a425590955809558257f0957909580250c094ec0946825590956009564258a0958d09578250a09424094242511094e009444257c095900958c253d094ec094ec254509590095902565095b509594256f0959c0957425840957d0955025880957d0957c254309524094e025492169c0952425790959c0959c2568095c90955c258109585095a0256a095c009584250e094340943425780944809448257b095a80944c2540095a8095a8256c095ad095602580095b50953c2587095b5095b42542095b809428250b216ac09430253c095b809438250b216b40942c25330943c0943c257a095b8095b8256f095c5095bc2572095c0095ac2542095c0095c02573095d1095d0253c09514095c4253d0951409514257c095d8095f0258309615096142587094f8095b025142169c094502540095e4095002546095d8095c8253109460094602546094c8095182578095d4095cc2543095e40950c253209510094c8252e095e8095e8257e09635094f02537216b409510251609454094542577095d8095082517216ac0945c254a094dc)
  (.lf 0)))

def aesGateTree66 : BTree :=
  .nd (.nd (.nd (.lf
  0xfd003fa80fe5c0fd043f6e0fe5c0fe543f970fe740fe583f9f0fe5c0fe5c3f990fe610fce03f39000340fce83f6a0fe6c0fcf03f390003c0fce43f610fcf40fcf43fa70fe6c0fe683f700fe6c0fe6c3f9c0fe790fe703f9f0fe740fe603f700fe740fe743fa00fe850fe643f42000240fd083f6e0fe980fdc03f45000340fd143f780fd940fe7c3f5f0fd180fd183f740fd800fdb83f740fe8c0fe783f6b0fdcc0fdac3f5c0fde00fde03fa80fe880fdd03fa50fe880fe883faf0fee10fe803f710fe980fdc43f600fdc80fdc83f440fd0c0fd0c3fa40fe8c0fe843f6a0fdcc0fdcc3fa90fe8c0fe8c3fac0feed0fda83f650003c0fd943f5f0fd840fd7c3f5d0fe900fe903fae0fee50fe943fad0fed10fe983fb30fedd0fd803f5c0fe9c0fe9c3fab0fee90fea000080fed90fea43fb00fec90fd843f5e0fea80fea83fb50fec50fee0000a0003c0fee800090003c0fed83f35000200fcd4000d0fd780febc3f360fd6c0fcd83f5c0fd780fd10000a0002c0fecc3fb7000240fedc3f62000340feb03fbb0fd700feec000c000280fed43f6c0fee40fec83fb40fdb00fdb0000a000240fec03fb1000200fec43fb90fd6c0fed03f620fd700fee4000f00030)
  (.lf
  0x236008db023640236408dc023750237408a6022bc0236808a7022bc022bc08e50237c02354087d21a1c021f408aa023880237008ad02388022b4089b022b8022b8087f021f8021f808e00237c022a808b00237c0237c08e8023dd0236c089a022040220408b00226c022c008e1023780238408e9023c10229808a021a34022b0088021a2c0220008b40228002280089a02270022700899023980239808f1023b50229c0897022d0022d008e4023780237808eb023d1023ac087102258021c40897022640226c08970238c022680898023800239408ec023b9023b808f0022a0023a008f70225c023c0089d0225c0225c868d21a2c0238008ea023d50238c08e7023d9023d0868821a34023d8868721a34023c408a8023d4023b008ed21a18023b408f502258023d4868d21a2821a3404d82375421c3800000261e24098041021c5424094041121c5021c5000000261624088041421c4421c4409100243c024400930025402408c041321c4821c480935024bc21c54090e024ac02614091a024d4024d4093002548024c0092b02544024ac092a02524024a8093d0252002520097a0256d02618091c0246c02470091d024600261c09200247c02480091d024f8))
  (.nd (.lf
  0x12ff84c321302512ffc4c2c1303112f404c011300012f44000012f5212f504c0313000130004c2913021130044c2b1302d12f144c0313008130084c2a1305d1300c4c3413035130104c281302912fcc4c07130141301483d61304d130184c2d130411301c4c2e13025130204bb512ed0130284bb712f98130304bbb12ee012eec4bb412f6412ed04bbc12f8c12ef04c2613038130344be812f9812f984bf013038130384c0f1305d130404bbe12f8c12f8c4bf420f5c130244bee12fd012fd04c23130441303c4c1913044130444c12130711302c4bb912ee012ee04c2212ef412ef44c251305012ef84beb13050130484c14130681304c4c1c13050130504c161305512ed44bb620f6c12edc4be71306012ee44bb620f7412ed84bde12ee812ee84c24130601305c4bed13060130604c191306d130644c1c13068130544bed13068130684c1d13079130584bbf20f5c12efc4beb1308c130704bdc12f0c12f0c4bf112f7412fac4bf11308012fc44c221307c130884c2a130c5130744bee1308c1308c4c30130d112fb44bc220f6c12f084bf512f881306c4be812fc012fa04bd912fd412fd44c251307c1309483d6130cd130784be712fc012fc04c2613080)
  (.lf 0))) (.nd (.nd (.lf
  0x18f6c63e518fc018fc0641918fe118fc4641b18fed18ed063f318fc818fc8641a1901d18f9463f418fcc18fcc642418ff518fd0641818fe918f8863f718fd418fd4826e1900d18fd8641d1900118fdc641e18fe518fe063a418e8c18fe863a618f5418ff063aa18e9c18ea863a318f2018e8c63ab18f4818eac641618ff818ff463d718f5418f5463df18ff818ff863ff1901d1900063ad18f4818f4863e3209bc18fe463dd18f8c18f8c64131900418ffc6409190041900464021903118fec63a818e9c18e9c641218eb018eb064151901018eb463da19010190086404190281900c640c190101901064061901518e9063a5209cc18e9863d61902018ea063a5209d418e9463cd18ea418ea46414190201901c63dc190201902064091902d19024640c190281901463dc1902819028640d190391901863ae209bc18eb863da1904c1903063cb18ec818ec863e018f3018f6863e01904018f8064121903c19048641a190851903463dd1904c1904c64201909118f7063b1209cc18ec463e418f441902c63d718f7c18f5c63c818f9018f9064151903c19054826e1908d1903863d618f7c18f7c64161904019058641d1907d1908c63a1209b8190806424209bc)
  (.lf 0)) (.nd (.lf
  0x1d05874421d1ec1d1d074331d0681d06874481d0d01d10874481d1e01d120747a1d1dc1d1e874821d2251d1d474451d1ec1d1ec74881d2311d1107419214ec1d064744c1d0e41d1cc743f1d11c1d0fc74301d1301d130747d1d1dc1d1f485361d22d1d1d8743e1d11c1d11c747e1d1e01d1f874851d21d1d22c7409214d81d220748c214dc1d2307436214ec1d21c74891d1001d22474361d0c01d20874311d0d81d0d8853c214d81d2147486214d8214d8022f22e8c2059c00001ba420923c8166091282059800001ba3e0918069a209370093708ca42065c091d00000093aa093a88ca1232740940023b008ebc08ec08ca2232b0093bc23d908f60091208ca10912409188814f09378093788ca32065808f648ca02327008fc424aa093a408f608c9d092a8092a88ca52327c2328c00001ba362329000001ba3a0909c6e8d232b41ba346e1f1b8781b87800001b88a1b8886e4a1b9541b9286e891b981090088ca51a688232946e171b8d0232846e191b8601b8646e381b964232806e1b1b8681b86c6e1c1b8cc090586e8e2053c1ba386e231b8f41ba3c6e251b8901b8946e261b8841ba406e291b8a01b8a46e261b9181b8986e451b8a8093848ca223278)
  (.lf 0)))

def aesGateTree67 : BTree :=
  .nd (.nd (.nd (.lf
  0x10b4842ad10aac10aac42b510b4c10b4c42d410b7110b54428310aa010aa042b900b9810b3842b310ae410ae442e810b5810b5042de10b5810b5842d710b8510b40427e109f4109f442e710a0810a0842ea10b6410a0c42b010b6410b5c42d910b7c10b6042e110b6410b6442db10b69109e8427b00b88109f042ac10b74109f8427b00b80109ec42a3109fc109fc42e910b7410b7042b210b7410b7442de10b8110b7842e110b7c10b6842b210b7c10b7c42e210b8d10b6c428400b9810a1042b010ba010ac8428700b8810a1c42ba10a9c10b8442a110a2010a2042b610a8810ac042b610b9410b8042ad10ad410ab4429e10ae810ae842ea10b9010ad842e710b9010b9042f110be910b8842b310ba010acc42a210ad010ad0428610a1410a1442e610b9410b8c42ac10ad410ad442eb10b9410b9442ee10bf510ab042a700b8010a9c42a110a8c10a84429f10b9810b9842f010bed10ba802e710be110bac42f210bd110a8c42a010bb010bb042f710bcd10be0427700b9c109dc02e210a8010bc4427810a74109e0429e10a8010bb842fd10a7810bf402e300b9410bc842f300b9c10bcc42fb10a7410bdc42ae10bec10bec02e000b8c10a8002e100b8c)
  (.lf 0)) (.nd (.lf
  0x7b848b2f07b8822b3c1f3207cc407c741fc007f7407f748b382007c22b501f2422cbc07c901ff20800407cc88b311673007f908b372009822cdc00001673222ce000001673607c381ffe08004080048b332008022ccc00001673a16730595f165781657800001658a165885989166501662459c81667d07bb01ee222cec07b88000022cd607fcc8b3522cc022cd4595916560165645978166601656c595c165cc212b002b922b4022b40000007cae07cac1f2d07cb007cb480261673407c4459cd201a0167345963165f416738596516590165945966165841673c5969165a0165a4596616618165985985165a8165f4597816668165e0597416664165d0597316644165cc59851664016614598b166281662859cb1666d1657c595c1662c1662c59c9166791657059861658016580598c165841663059c4166a9165a8598d166541663459c316681165840000165de165a0598e1665c165dc5992166381663859ca166751663c59c6166991664059c21668d1664459c5166711664859bf1667d1658c59941664c1659000001659e1659c59961664c1664c59bc1666d1665059be16679165605996166541665459bd166a91665859c7166811665c59bb16675)
  (.lf 0))) (.nd (.nd (.lf
  0x6124187c061a4061f018ac062980629818b3062f10628418a406295062901875062a8061d41864061d806294186e061dc061b8186920d94061a41863061940618c1861062a0061d818480611c0611c18a80629c062a018b2062f5062a418b1062e1062a818b7062ed061941862062b8062b818b9062d5061901860062ac062ac18af062f9062f8835f20d94064200000067c6067c489a32267822640000011b3611b2c465e119741197400001198611984468811a4c11a2046c711a790636c18cf226580633c00002264a2264846581195c11960467711a5c11968465b119c811b304662119f00653c46cd2023011b3446641198c1199046651198011b3846681199c119a0466511a14119944684119a4119f0467711a64119dc467311a60119cc467211a40119c8468411a3c11a10468a11a2411a2446ca11a6911978465b11a2811a2846c811a751196c46851197c1197c468b1198011a2c46c311aa5119a4468c11a5011a3046c211a7d119800000119da1199c468d11a58119d8469111a3411a3446c911a7111a3846c511a9511a3c46c111a8911a4046c411a6d11a4446be11a7911988469311a481198c00001199a11998469511a4811a4846bb11a69)
  (.lf 0)) (.nd (.lf
  0x9e988da5236842193405182353023530279d09e7009e74737a2369409ab88da22368c21928051b235242352427a309e8809e8c8da409ec423690634d18d6421924051c235202352027b909ff409ee48da72368c23694632718d102368c632918ca018ca4634818da418d34634818dac18d20634418da818d10634318d8818d88639618db509b948da2204ec18e80633918ce018ce4633618d5818e74632f18cb818cbc632c18d7023688632b18ca818cac632c18d0c18cb0635618cc018d58636b18da418dac639218db518db4635118d5c18ca8000018cb618cb4634f18d8018d80639718ddd18da4858e18ddd18ddc638018de018e7c633518cd018cd4633618cc418cd8635518ce818d0c635518d8418d54635c18d6c18d70639a18dbd18c9c634f18d9418cb8000018cca18cc8635a18d9418d94638f18dbd18dbc631c18c6c18c7063192165418d6c639c18db118ce0635f18da018cc0635d18cc418cc4000018d1e18d1c636318d7c18d7c639b18db918ce8635e18d9818d78639418dc518d3c635918d9018cd0000018cde18cdc636718d9018d90638d18db118db0631818c5c18c6063192164c18d74639518ded18d64636818d9c18da0638c18db9)
  (.lf 0)))

def aesGateTree68 : BTree :=
  .nd (.nd (.nd (.lf
  0x4638118f046450463c1192046400462c116304640046401193046510463011352091c044d41161046640458c11382092c044e0116b04560046481152044e4044e411670454c0458411670465804644115e0459804578114f045ac045ac119b046540459c1198046540465411a2046ad0464c11640466404590115304594045941137044d8044d811970465804650115d0459804598119c0465804658119f046b904574115820934045601152045500454811500465c0465c11a1046b10466011a00469d0466411a6046a90454c114f0466804668119e046b50466c8246046a50467011a304695045501151046740467411a804691046ac824820934046b4824720934046a4112820918044a0824b0454404688112904538044a4114f04544044dc8248209240469811aa2091c046a811552092c0467c11ae0453c046b8824a20920046a0115f046b00469411a70457c0457c82482091c0468c11a4209180469011ac045380469c11550453c046b0824d209280468011500455404554824c2091804544824c209280467811502092c0468411502093004540114e209200453c824d2092c0453882492091c0449010b7042d8042d80000042ea042e810e1043b0)
  (.lf
  0x1fbf07f661fd681fd647f2f1fd681fd687f5d1fd6d1fd6c7f5e1fd701fd5c7f2f1fd701fd707f5f1fd811fd607f0121a9c1fc047f2d1fd941fcbc7f0421aac1fc107f371fc901fd787f1e1fc141fc147f331fc7c1fcb47f331fd881fd747f2a1fcc81fca87f1b1fcdc1fcdc7f671fd841fccc7f641fd841fd847f6e1fddd1fd7c7f301fd941fcc07f1f1fcc41fcc47f031fc081fc087f631fd881fd807f291fcc81fca47f2421ab41fc907f1e1fc801fc787f1c1fd8c1fd8c7f6d1fde11fd907f6c1fdcd1fc7c7f1b1fd981fd987f6a1fde51fcc87f681fd881fda07f6f1fdc51fc807f1d1fda41fda47f741fdc11fdb87ef51fc681fc0c86a821aa41fdbc7f7021a981fdc07f781fc681fdb07f1c1fc841fda87f1c21aac1fdb47f1c21ab01fc707f1a21aa01fc6886a921a9c21aa404bc237c4237c42d8c0b6d402abc86b021ac402b1886b121abc21ac404b4237e4237e42cc70b3180b3182d8c0b2f40b6308e632397c0b6c42c910b2400b2442c872397c2397c29350a4d00a4d429540a5d4030e80be421b0c030dc0be402f7802f9086c421af802e700ba402ead02e900b5302d6002e940b5321af002c440b1e02c8902c780b2221abc02c880acd21acc))
  (.nd (.lf
  0x135444ce81339c133a04ce913390135484cec133ac133b04ce913424133a44d08133b4134004cfb13474133ec4cf713470133dc4cf613450133d84d081344c134204d0e13434134344d4e13479133884cdf13438134384d4c134851337c4d091338c1338c4d0f133901343c4d47134b5133b44d1013460134404d461348d133900000133ea133ac4d1113468133e84d1513444134444d4d13481134484d49134a51344c4d4513499134504d481347d134544d4213489133984d17134581339c0000133aa133a84d1913458134584d3f134791345c4d41134851336c4d1913460134604d40134b5134644d4a1348d134684d3e13481134244d1d1346c1346c8376134a5134704d4313499134744d441347d134784ccb13328134804ccd133f0134884cd113338133444cca133bc133284cd2133e4133484d3c134901348c4cfe133f0133f04d0613490134904d25134b5134984cd4133e4133e44d0a20ddc1347c4d0413428134284d391349c134944d2f1349c1349c4d28134c9134844ccf13338133384d381334c1334c4d3b134a8133504d01134a8134a04d2a134c0134a44d32134a8134a84d2c134ad1332c4ccc20dec133344cfd134b81333c4ccc20df4)
  (.lf 0))) (.nd (.nd (.lf
  0x121cc4874015a8121d448a512358121dc4874015a0121d0489c121e0121e048e2123581235448ab123581235848d7123651235c48da123601234c48ab123601236048db1237112350487d015b8121f448a912384122ac4880015a81220048b31228012368489a122041220448af1226c122a448af123781236448a6122b8122984897122cc122cc48e312374122bc48e0123741237448ea123cd1236c48ac12384122b0489b122b4122b4487f121f8121f848df123781237048a5122b8122b848e4123781237848e7123d91229448a0015a012280489a122701226848981237c1237c48e9123d11238c056f123c51239048eb123b5122704899123941239448f0123b1123c44870015bc121c0056a12264123a8487112258121c44897122641239c48f61225c123d8056b015b4123ac48ec015bc123b048f412258123c048a7123d0123d00568015ac122640569015ac015ac054b017ac0152c052b0172c012ac048b014ac0122c050b23e2c014ac050b016ac0142c058b23dac23dac57dc1ff2c123a44898015a4011a00448013a001120042801320010a00408012a0011b4044d013b401134042d01334010b4040d012b401034048d23ea401020048823eb8)
  (.lf 0)) (.nd (.lf
  0x1d3e074fa1d3e51d2607499214ac1d26874ca1d3f01d2707499214b41d26474c11d2741d27475081d3f01d3ec74d01d3f01d3f074fd1d3fd1d3f475001d3f81d3e474d01d3f81d3f875011d4091d3e874a22149c1d28874ce1d41c1d34074a5214ac1d29474d81d3141d40074bf1d2981d29874d41d3001d33874d41d4101d3fc74cb1d34c1d32c74bc1d3601d36075091d40c1d35075061d40c1d40c75101d4651d40474d11d41c1d34474c01d3481d34874a41d28c1d28c75051d4101d40874ca1d34c1d34c750a1d4101d410750d1d4711d32874c5214b41d31474bf1d3041d2fc74bd1d4141d414750f1d4691d418750e1d4551d30074bc1d4201d420750c1d46d1d42875111d44d1d30474be1d42c1d42c75161d4491d4648528214b41d46c8527214b41d44074961d2ec1d25874bc1d2f81d4447512214981d448751a1d2ec1d44c75151d3301d45474c21d2f01d45874cc1d4681d468852d214a81d434751c1d2f01d2f0852d214ac214b4023822e6822e682229088a0088a481a4230082053000001a45e2052c00001a45a2052800001a4562051400001a4621d0608538214e41d2007431214ec1d20c7431214f01d0c4742f214e01d0bc8539214dc)
  (.lf 0)))

def aesGateTree69 : BTree :=
  .nd (.nd (.nd (.lf
  0x1516c037800dec15138545d14ff814ff8037800de800dc8035200fc800d48033200f4800cc8031200ec800c48039223b9023b90000012a6200dc4035100fc400d44033100f4400cc4031100ec400c44039123b9423b94000012a6600dd8035600fd800d58033600f5800cd8031600ed800c58039623b8023b80000012a6a00ddc035700fdc00d5c033700f5c00cdc031700edc00c5c039723b7c23b7c000012a6e12a604a2b128a8128a80000128ba128b84a5512980129544a94129ad00dd0035400fd000d50033400f5000cd0031400ed000c50039423b8823b884a2512890128944a44129901289c4a28128fc12a644a2f1292412a684a31128c0128c44a32128b412a6c4a35128d0128d44a3212948128c84a51128d8129244a4412998129104a4012994129004a3f12974128fc4a5112970129444a5712958129584a971299d128ac4a281295c1295c4a95129a9128a04a52128b0128b04a58128b4129604a90129d9128d84a5912984129644a8f129b1128b400001290e128d04a5a1298c1290c4a5e12968129684a96129a51296c4a92129c9129704a8e129bd129744a91129a1129784a8b129ad128bc4a601297c128c00000128ce128cc4a621297c)
  (.lf 0)) (.nd (.lf
  0x829c203c0815823034205608188081582051081d008144204d081cc2302c2034080cc080d0203508130080cc0000080da2303c203008134080c02058081b8080d82058081a4082982038080dc080e0203508194082a0203e080f4080f0206e081b408134204c081ac081602062081b4080dc0000080ee080f8203f080e808130205e081a8082a420420810408108203f0817c080fc205e0810c081782065081900819420a3081e1080ec2063081b8081b82098081e1081e0202508090080942022211b4080f4000008102081002070081b4081b42096081d50819020a5081d5081d4202108080080842022211ac08088204a08098080982091082140dae836b420fb40dad036ae0dac00dac036ad0dbe80dbe837050dc050dbe437000dc090dc00370120f980dc0437090daa8200b40000086fa086f821500853c0853c00000854e0854c217b08618085ec21ba08645200a8000008706200a400000870222f9821480859422f940000086fe086fc2154085b808550218608614085202170086180861821b008641087002156085540855821570854822f88214c0852c08530214d0859008540214d085f40853421770854408544217e08548085480000085a2)
  (.lf 0))) (.nd (.nd (.lf
  0x2225816b605ad405ad857a1223bc05a50169605a5405a5888e805c8420d7001092229422294169e2043020d900101222b4222b4169205a4405aec16cf05b6020d64010c222882228816d805c7005b6088f5223a005a44810b05bfc05a7816d705bfc05a9816be05bfc05bfc80bc223a8223a8000015e8615e80573315cc815cc8000015cda15cd8575d15da015d74579c15dcd223a0572d15cb015cb4574c15db015cbc573015d1c15e84573715d4415e88573915ce015ce4573a15cd415e8c573d15cf015cf4573a15d6815ce8575915cf815d44574c15db815d30574815db415d20574715d9415d1c575915d9015d64575f15d7815d78579f15dbd15ccc573015d7c15d7c579d15dc915cc0575a15cd015cd0576015cd415d80579815df915cf8576115da415d84579715dd115cd4000015d2e15cf0576215dac15d2c576615d8815d88579e15dc515d8c579a15de915d90579615ddd15d94579915dc115d98579315dcd15cdc576815d9c15ce0000015cee15cec576a15d9c15d9c579015dbd15da0579215dc915cb0576a15da415da4579115df915da8579b15dd115dac578f15dc515d68576e15db015db0826615de915db4579415ddd15db8579515dc1)
  (.lf 0)) (.nd (.lf
  0x18c54859318cf818e40631618cec18c58633c18cf818cf88594216482165005d12312823128243b2066c090ec24b9092fc090c80000090d2090d0802f092fc092fc81682063809d288d6a09d2c172c85cb0173e0173e05d0217435174085cb021670172c4859c216682167005c923148231482431090c0090c481682058409dcc27db09f8c217e8056b233e4217ac057a233a8233a8272809c9c09dd027df09dd8217e4056c233e0233e0276a09da409da4275e09fb009dd8000009fb209fb08d6a235982180805632340423404275a09d6409d64000009d6e09d6c27e209f8c233e427e309fcc09f8c8d6b2359c1cbb4727f1c9f81c9f800001ca0a1ca0872aa1cad41caa872e91cb010a00826b009abc09da0814309d2c09d2c000009ece09abc8d6609ecc09ecc8d78235a0235a072771ca502359872791c9e01c9e472981cae409d708d6509d7809b648d692359423594727b1c9e81c9ec727c1ca4c1cbb872831ca741cbbc72851ca101ca1472861ca041cbc072891ca201ca2472861ca981ca1872a51ca2809c9c000009ca609ca48d6709f6c2359c729d1caa41ca7472981caec1ca6072941cae81ca5072931cac81ca4c72a51cac41ca9472ac1caac)
  (.lf 0)))

def aesGateTree70 : BTree :=
  .nd (.nd (.nd (.lf
  0x1f4207d0e1f4341f4347d4e1f4791f3887cdf1f4381f4387d4c1f4851f37c7d091f38c1f38c7d0f1f3901f43c7d471f4b51f3b47d101f4601f4407d461f48d1f39000001f3ea1f3ac7d111f4681f3e87d151f4441f4447d4d1f4811f4487d491f4a51f44c7d451f4991f4507d481f47d1f4547d421f4891f3987d171f4581f39c00001f3aa1f3a87d191f4581f4587d3f1f4791f45c7d411f4851f36c7d191f4601f4607d401f4b51f4647d4a1f48d1f4687d3e1f4811f4247d1d1f46c1f46c81e61f4a51f4707d431f4991f4747d441f47d1f4787ccb1f3281f4807ccd1f3f01f4887cd11f3381f3447cca1f3bc1f3287cd21f3e41f3487d3c1f4901f48c7cfe1f3f01f3f07d061f4901f4907d251f4b51f4987cd41f3e41f3e47d0a2079c1f47c7d041f4281f4287d391f49c1f4947d2f1f49c1f49c7d281f4c91f4847ccf1f3381f3387d381f34c1f34c7d3b1f4a81f3507d011f4a81f4a07d2a1f4c01f4a47d321f4a81f4a87d2c1f4ad1f32c7ccc207ac1f3347cfd1f4b81f33c7ccc207b41f3307cf41f3401f3407d3a1f4b81f4b47d031f4b81f4b87d2f1f4c51f4bc7d321f4c01f4ac7d031f4c01f4c07d331f4d11f4b07cd52079c1f3547d011f4e4)
  (.lf
  0x33d00d170347c0345c0d4d034a9034a80d050340c0340c0d0d034ac034ac0d2c034d1034b00d36034b8034b80d2f034e5034bc0d31034dc034780d48034a1034540d53034a1034a00cd603354033540d3f03368033680d42034c40336c0d08034c4033580cd321b94033480cd321b8c0334c0cfb0335c0335c0d41034d40347c0d47034d1034580d4e034d1034d00d0a034d4033500d04034d4034d40d36034e1034640d50034c1034c00d39034c4034c40d33034c9034c80d0a034dc034d80d39034dc034dc0d3a034ed034ec0d0403434034e00d0503434034340d43034f4034e80d0b035000342c0cfa03430034300cde03374034cc0cdc21b7c033700d0803500034200d0e034f4033740d3e034f4034f40d4603555035180d55033d80355486e221b8023f04047521cc024034042921c7021c700000028462402c042b21c6821c6809c00273024038042821c7421c74099a026dc24028042c21c6421c64099c0266c0284409a6027000270009bb027780267009bb02770026ec09b702774026dc09b60275424030042a21c6c21c6c00000284224024042d21c6021c60099e0267402678099f026d82401c042f21c5821c5800000284e0284c09ac026ac))
  (.nd (.lf
  0xd59c842a210a00d45c35070d4900d52c350a0d3c40d3c435200d42c0d42c35070d54c0d48035510d5380d49035540d5380d538355b0d5910d554355c0d5790d42835080d5400d55835610d5750d5908428210b40d540355a0d5950d54435590d5810d3bc8428210a40d54c35570d5990d55c3508210ac0d56435080d4340d5683508210b00d4203506210a00d57835600d4600d58435180d5940d46084282109c210a0033d2280c2280c1b1d06c7006bd0000006bda06bd81be606fa4076481d9f0768d076681d48210f0076641d48075340765c1d48210ec075201d46210e0075188439210dc0755c8438210dc06c7480f006b480767c1da3210dc210dc032e22848228481be906fdc06fa48a6a203c0203c00000155da07650843607689076881d20210d8074501cc1072ec072ec8435210cc210d4033022840228401b05229a41aad06a5e2110c1aac46a5e1a9601a9788444210f80745c1cc1210cc073048434210b8210d003312283c2283c1b06203bc06c141ba806f140d580350d0d41c0d570355d210980d57435650d4180d56c34e10d4180d38435070d4240d5988427210b40d41c842d210ac0d594842d210a8210b4033822820228201b1206c44)
  (.lf 0))) (.nd (.nd (.lf
  0xeea83bd90ef1c0ef143bcf0ef1c0ef1c3bc80ef490ef043b6f0edb80edb83bd80edcc0edcc3bdb0ef280edd03ba10ef280ef203bca0ef400ef243bd20ef280ef283bcc0ef2d0edac3b6c20aac0edb43b9d0ef380edbc3b6c20ab40edb03b940edc00edc03bda0ef380ef343ba30ef380ef383bcf0ef450ef3c3bd20ef400ef2c3ba30ef400ef403bd30ef510ef303b7520a9c0edd43ba10ef640ef483b920ede40ede43ba70ee4c0ee843ba70ef580ee9c3bd80ef540ef603be00ef9d0ef4c3ba40ef640ef643be60efa90ee8c3b7820aac0ede03bab0ee600ef443b9e0ee980ee783b8f0eeac0eeac3bdb0ef540ef6c82a60efa50ef503b9d0ee980ee983bdc0ef580ef703be30ef950efa43b6820a980ef983bea20a9c0efa83b9520aac0ef943be70ee7c0ef9c3b950ee3c0ef803b900ee540ee5482ac20a980ef8c3be420a9820a9801bf21e9821e98143c2072413d944f7213dd913d9c82b613dd513dd44ef420ad813dc84f7620adc13dd84f2120aec13db04f1c13c8413c8482bc20ad820ad801af21ed821ed814591ffc00516413ac04dc405134137d04dc414688514d20b0c1467c514d1451c1453482c420af820af801a721ef821ef8146420244)
  (.lf 0)) (.nd (.lf
  0x1a0fc68761a1c01a1d8687d1a1fd1a20c6801215781a00485631a0a81a1f068021a09c1a00868281a0a81a20068842157c1a210682e2158c1a1fc68811a0e01a204682e1a0a01a1e868291a0b81a0b88564215781a0b4682a1a1dc1a0a88564215881a1ec68292159021590020122f4422f44229108a402051000001a0022050c000019ffe20508000019ff6235dc000019ffa19ff4678f19e3819e38000019e4a19e4867ba19f1419ee867f919f41235e0678719e90235d4678919e2019e2467a819f24235d0678b19e2819e2c678c19e8c19ff8679319eb419ffc679519e5019e54679619e441a000679919e6019e64679619ed819e5867b519e68235d867ad19ee419eb467a819f2c19ea067a419f2819e9067a319f0819e8c67b519f0419ed467bc19eec19eec67fc19f3119e3c678c19ef019ef067fa19f3d19e3067b619e4019e4067bd19e4419ef467f519f6d19e6867be19f1819ef867f419f4519e44000019e9e19e6067bf19f2019e9c67c319efc19efc67fb19f3919e28000019e3619e3467af19f0019f0067f719f5d19f0467f319f5119f0867f619f3519f0c67f019f4119e1c67af19f1419e4c67c519f1019e50000019e5e19e5c67c719f10)
  (.lf 0)))

def aesGateTree71 : BTree :=
  .nd (.nd (.nd (.lf
  0x171cc5c2400be8125e0497a124c8124c8027d009f81720002fd00be012428027d009f0125d04923009e4125ac4973125e9124984922125b4125b4497112601125cc4923124a0125c44923009e81248c4921009f4125f8027d009e0009f4025d00bf4171d45c24170a4171d85c2400be41702c02fd00bf0170905c2200bf4170cc02fd00bf800bf402dd00df400974023d00b7400b7402bd00d74008f4021d00af400af4029d00cf400874029d23c6400a74031d23be423be45fe617f9414d1805fe017e014d0052ee14ba014ba005f8017e8017e005d8009e00176005b80096012600027e009e0125e8492812488124880278009e8009e0025800be01720802fe00be000be002d800de000960023800b6000b6002b800d60016e00598008e0008e0021800ae000ae0029800ce001660021823cf800860029823c7800a60031823bf823bf85fe217ffc17f88600a1807c17f94000017fa217fa0600a18068180287fd3180781ff4c60221808423cec5a081ff3c23ce459e616794167940000167a2167a05a0a1686823cf859e2167fc167885a0a1687c168287fcf168781ff3c5a221688423d78501c140e41407050441416423d6450201407c1407c00001408a)
  (.lf 0)) (.nd (.lf
  0x1e06877ec1dfac1dfac784d1e1301e12878121e06c1e06c78521e1301e13078551e1911e048780d212f41e03478071e0241e01c78051e1341e13478571e1891e13878561e1751e02078041e1401e14078541e18d1e14878591e16d1e02478061e14c1e14c785e1e1691e18484b8212f41e18c84b7212f41e16077de1e00c1df7878041e0181e164785a212d81e16878621e00c1e16c785d1e0501e174780a1e0101e17878141e1881e18884bd212e81e15478641e0101e01084bd212ec212f402a822b8407c9c80202074022b841f1107c4007c408b412074007c8c8b302074020740000007f0e08b5081c4204542071000001f0ea0899c811c2070c2070c00001f0e60872081be08728206f800001f0f2206f400001f0ee0886881b0087dc206c000001e5fa088b881af08bc4206bc00001e5f6206b000001e3ca206ac00001e3c608c10802a206a8087b881aa1dd3c206a800001e60208c0c8029206a408aac21f6206a408c2421f3087c8087cc8199206a4206a400001e5fe2069800001e3d22069400001e3ce20470000017ad22045c000017ade20458000017ada0894c811522fa820454000017ad61e13c785c1e1811e05084b8212dc1e1707860212dc)
  (.lf 0))) (.nd (.nd (.lf
  0x224b019dc0684420e8803c3224d0224d0193c064ec064ec19d9064f8064f80000067720655419cf067700677089932263820e2c03da224742247419680659c065a0898e202b42263839ff1fe501fe503a190e86020f0803a3225502255019040640c0641089aa0687820f0403a42254c2254c1907064180643080ce068780641c89a906878068780000066fa1033883b020ed41033c83b520ec820ef803a72254022540190e2033c0643819be0680020ed403b02251c2251c191c226800647019be0676c066f889af226ac1016883b020ec41034483b220ec00641819f00642020ec003b522508064d40000067c2225081923226740648c19f0067fc067c089ac226a020ea803bb224f0224f019dd068380683818e40638c0638c89ad067180671889af226800de4c83b820ef40dc7c83b820ee40de5883ba20ee020ee003ad22528225281917064580645889ac06460226b017c405f0c05f0c000005f1a05f1817e805fe00de5083bd20ee820ef403a82253c2253c19100643c0643c89af2072c226bc17c005f7405f0017e805ff405fa07f8d05ff020ec803b32251020ee803ab225302253019e90682c0682c18ec063ac2251019200647c0647c19dd06420)
  (.lf 0)) (.nd (.lf
  0x1b0a86c511b0d109f408d7d200cc09d0c8d7a09d0009d1c803309d0009cfc8d7b09d0009d00000009ea609c7c813e09ea409ea48d81235f0236046be71b0101af9c6c0f1b0941b03c6c191b0901b0646c281b09c235f400001b17e1b1806bf91afe01afe06c1f1b0a009ac880341b17c1b17c6bf51afd01afd46bf61afc41b0a06c4c1b0b91b1746bef1afb81afac6bec1b00c1afbc6bec1b0701afb06c161afc01afc06c1d1afc41afc400001b01e1b01c6c231b07c1b07c6c5b1b0b91b0b86bda1b0241afa06c271b0981afb800001afca1afe46bf61b0581afd86c151afe81afcc6c251b0901afc86c1a1b0941b0106c031b0881b00c6c151b0841b0946c4f1b0bd1b0546c1c1b06c1b0706c5a1b0bd1b0bc6bdc1af6c1afd000001afde1afe86c1e1b0981b0786c541b0c51afdc6c271b0901b09c6c581b0c51b0c46c0b1b0241b0846c531b0d11b0906c4d1b0b11b06c6c5c1b0b11b0b06bd81af5c1b08c6c501b0c11b0686c591b0c11b0c06bde1af6c1af786bd71aff01af5c6bdf1b0181af7c6c4a1b0c81b0246c131b0c81b0c86c331b0ed1af706bd9217541b0986c4e1b0ed1af606bd92174c1af646c011af741af746c481b0f01b0746c551b0ed)
  (.lf 0)))

def aesGateTree72 : BTree :=
  .nd (.nd (.nd (.lf
  0x3c68000003c7603c740f4d03d2803cd40f3f03d2803d280f7303d4903d2c0f7503d5503c380f4d03d3003d300f7403d8503cfc0f4e03d3403d340f7e03d5d03d380f7203d5103cf00f5103d3c03d3c820e03d7503d400f7703d6903d440f7803d4d03d480efe03bf403d500f0003cbc03d580f0403c0403c100efd03c8803bf40f0503cb003c140f7003d6003d5c0f3103cbc03cbc0f3903d6003d600f5903d8503d680f0703cb003cb00f3d2083c03d4c0f3703cf403cf40f6d03d6c03d640f6303d6c03d6c0f5c03d9903d540f0203c0403c040f6c03c1803c180f6f03d7803c1c0f3403d7803d700f5e03d9003d740f6603d7803d780f6003d7d03bf80eff2084c03c000f3003d8803c080eff2085403bfc0f2703c0c03c0c0f6e03d8803d840f3603d8803d880f6303d9503d8c0f6603d9003d7c0f3603d9003d900f6703da103d800f082083c03c200f3403db403cd80f0b2084c03c2c0f3e03cac03d980f2503c3003c300f3a03c9803cd00f3a03da803d940f3103ce403cc40f2203cf803cf80f6f03da403ce80f6c03da403da40f7603dfd03d9c0f3703db403cdc0f2603ce003ce00f0a03c2403c240f6b03da803da00f3003ce403ce40f7003da8)
  (.lf
  0x219b004f9236d0236d000000b34a0b3482cd40b34c0b3506b46204d40b4786b46201501ad186adb1abd41ab6c6b0d1ac301ab7000001ab7e1ab7c6b0f1ac301ac306b351ac510b4c42d9c0b4cc0b4cc00000b6a61ab846ade1abf81ab786afd1ab8821a0404e423724237242da90b6b00b6a48e33238bc219a404fc236c4236c42d070b4180b41c8e330b4200b24c8e33238e8238cc6ad11ab401ab446af01ac441abd46af01ac4c1abc06aec1ac481abb06aeb1ac281abac6afd1ac241abf46b041ac0c1ac0c6b441ac511ab186abf1ab901ac506ac01aafc1aafc6ac71abb81ab1c6b321ac681ab406b0f1ac381ab886b061ac381ac186b3c1ac651ac3c6b401ac651ac646af31abc41abc46afb1ac681ac686b1b1ac8d1ac6c6b251ac741ac486b391ac711abf86b131ac441ac44862e1ac7d1ac206b3f1ac7d1ac7c6b281ac801ac4c6b3a1ac551ab086af21ac901ac106b421ac5d1ac346b371ac5d1ac5c6ac41ab0c1ab106ac1218d41ab006ac1218cc1ab046ae91ab141ab146b301ac901ab0c6b2e1ab201ac246b3b1ac711ac706ac91abb81abb86aff218bc1ac286b3e1ac551ac546af91abfc1abfc6b2f1ac741ab206b311ac801ac746b1e1aca1))
  (.nd (.lf
  0x11010441310ed01104c830220c0011020440920bf811024441110ecc1103443c41104411044830520c0810ed8830420c0820c0801632212c2212c1673059c8059cc88bc2075c10ff444051103110ee043b410ffc10ffc44031104910e70830020c041101443b510ee81100c43b520c0c1101843b520c1010ed443b320c0010ecc830120bfc20c0401642212822128170505c2020f700389225b8225b8199c200400667019d5067f420f900381225d8225d819900663c0663c800f067f4067f480b2226cc226cc000013bc613bc04e8313a0813a08000013a1a13a184ead13ae013ab44eec13b0d20f840384225cc225cc00000664a0664819940664c0665089b106870226c44e7d139f0139f44e9c13af0139fc4e8013a5c20f3403982257c2257c19b4066cc066d04ef1226e013bc44e8713a8413bc84e8913a2013a244e8a13a1413bcc4e8d13a3013a344e8a13aa813a284ea913a3813a844e9c13af813a704e9813af413a604e9713ad413a5c4ea913ad013aa44eaf13ab813ab84eef13afd13a0c4e8013abc13abc4eed13b0913a004eaa13a1013a104eb013a1413ac04ee813b3913a384eb113ae413ac44ee713b1113a14000013a6e13a304eb213aec)
  (.lf 0))) (.nd (.nd (.lf
  0x1438058e23da023da00000160b6014bc050f016bc0143c058f23d9c23d9c0000160ba160ac57be15ef415ef4000015f0615f0457e815fcc15fa0582715ff901430058c23da823da857b815edc15ee057d715fdc15ee857bb15f48160b057c215f70160b457c415f0c15f1057c515f00160b857c815f1c15f2057c515f9415f1457e415f2415f7057d715fe415f5c57d315fe015f4c57d215fc015f4857e415fbc15f9057ea15fa415fa4582a15fe915ef857bb15fa815fa8582815ff515eec57e515efc15efc57eb15f0015fac58231602515f2457ec15fd015fb0582215ffd15f00000015f5a15f1c57ed15fd815f5857f115fb415fb4582915ff115fb858251601515fbc58211600915fc0582415fed15fc4581e15ff915f0857f315fc815f0c000015f1a15f1857f515fc815fc8581b15fe915fcc581d15ff515edc57f515fd015fd0581c1602515fd4582615ffd15fd8581a15ff115f9457f915fdc15fdc05f71601515fe0581f1600915fe4582015fed15fe857a715e9815ff057a915f6015ff857ad15ea815eb457a615f2c15e9857ae15f5415eb858181600015ffc57da15f6015f6057e216000160005801160251600857b015f5415f5457e6017d8)
  (.lf 0)) (.nd (.lf
  0x899422c108b5021458024f22e0c22e0c2251206f80894422c908ba80891c22c108ba80875081bd08b24087608bf60876808768000008b2608b248bf322fbc08b048bf722fcc22fcc79931e6c01ba8085102144421444025422df822df8225b08968088ec22db088f80896822db089401d6f08508214240876421cd22fc421424025c22dd822dd822db08c6408b6c8bf522fc422fc479951e6501e65479b41e7540890822e008b8821420025d22dd422dd4226b089a8089a881bd08b801bc6085122144021440025522df422df4225c22f9c0897022e008ba40875c8bec22fc008b808bf422fc022fc079971e6581e65c79981e6bc1e828799f1e6e41e82c79a11e6801e68479a21e6741e83079a51e6901e69479a21e7081e68879c11e69821448025322dfc22dfc2257089582146c024a22e2022e20224c0892c089308bee088f4088f4000022fca0895822d608964088e822d608b6808b588bf622fc822fc879b91e7141e6e479b41e75c1e6d079b01e7581e6c079af1e7381e6bc79c11e7341e70479c81e71c1e71c7a081e7611e66c79981e7201e7207a061e76d1e66079c21e6701e67079c91e6741e7247a011e79d1e69879ca1e7481e7287a001e775)
  (.lf 0)))

def aesGateTree73 : BTree :=
  .nd (.nd (.nd (.lf
  0xe5c011723afc005dc0157007dc0055c01370075c004dc0117006dc0045c019723a7c23a7c00000cf1e0cf1033560cd540cd5400000cd660cd6433810ce300ce0433c00ce5d00ec00390004c000e40011023b18005c00150007c000540013000740004c00110006c000440019023a9823a98334e0cdac00ed00394004d000e50011423b08005d00154007d000550013400750004d00114006d000450019423a8823a8833500cd3c0cd4033700ce4000fd403d5005d400f5403b50055400ed40395004d400e54011523b04005d40155007d400554013500754004d40115006d400454019523a8423a8433520cd440cd4833530cda80cf14335a0cdd40cf18335c0cd6c0cd70335d0cd600cf1c33600cd7c0cd80335d0cdf80cd74337d0cd8400fcc03d3005cc00f4c03b30054c00ecc0393004cc00e4c011323b0c005cc0153007cc0054c01330074c004cc0113006cc0044c019323a8c23a8c33750cdbc0cdd433700ce480cdc0336b0ce440cdac336a0ce240cda8337d0ce200cdf433830ce080ce0833c30ce4d0cd5833530ce0c0ce0c33c10ce590cd4c337e0cd5c0cd5c33840cd600ce1033bc0ce890cd8433850ce340ce1433bb0ce610cd6000000cdba)
  (.lf 0)) (.nd (.lf
  0x704c1c7c071ac070501c41071ac071ac1c6d071b1071b41c1520ffc070541c41071e80702c1c0c2100c071401c88071b9071b81c43071bc071b01c43071c40710c1c182100c070601c4b070e00703c1c0c21014070301c3407040070401c7b071bc070341c3d071bc071bc1c70071c9071c81c3e07118070f81c2f0712c0712c1c7c071d8071f083fe07229072281c0820ff80dbd436fd0dc110dc0837040daf00dc1036b10daac071c01c73071c4071c41c74071d5071d41c3d07118070f41c3821014070e01c32070d0070d01c31071f8071041c47071dc071cc1c3207064070641c47070cc0711c1c79071d8071d81c83072310720c1c09070b8070241c2f070c4071181c7d071dc071f41c8407219072101c8520ff8071f81c8907215072141c8d070b8070c81c30071e0072241c3f07234071d01c44071e8071101c3307114071141c1707058070581c78071dc071e01c820723507234840521008071dc1c800723d072001c8f070bc070208403070c4070c48404210080723c84022100021008036322774227741b5b06d6806d6c8a4e207640dab836ac0dbd00dbd036fe0dc250dabc36ab0dbdc0dbdc36fb0dc29070cc1c2f071ec071ec1c7f07239)
  (.lf 0))) (.nd (.nd (.lf
  0x156500000156aa1566c55c115728156a855c5157041570455fd157411570855f9157651570c55f5157591571055f81573d1571455f2157491565855c7157181565c00001566a1566855c9157181571855ef157391571c55f1157451562c55c9157201572055f0157751572455fa1574d1572855ee15741156e455cd1572c1572c82c6157651573055f3157591573455f41573d15738557b155e815740557d156b0157485581155f815604557a1567c155e85582156a41560855ec157501574c55ae156b0156b055b6157501575055d515775157585584156a4156a455ba20b1c1573c55b4156e8156e855e91575c1575455df1575c1575c55d81578915744557f155f8155f855e81560c1560c55eb157681561055b1157681576055da157801576455e2157681576855dc1576d155ec557c20b2c155f455ad15778155fc557c20b34155f055a4156001560055ea157781577455b3157781577855df157851577c55e2157801576c55b3157801578055e31579115770558520b1c1561455b1157a4156cc558820b2c1562055bb156a01578855a2156241562455b71568c156c455b7157981578455ae156d8156b8559f156ec156ec55eb15794156dc55e815794)
  (.lf 0)) (.nd (.lf
  0x9fcc26d509b5009b548d6a235c409b508d7609eb409ca06ce9235d8235b000001b3a6235b400001b3aa1b3a46c7b1b1e81b1e800001b1fa1b1f86ca61b2c41b2986ce51b2f109dac000009eb609eb48d73235b8235b86c731b240235a86c751b1d01b1d46c941b2d4235a46c771b1d81b1dc6c781b23c09c5c6cea205081b3a86c7f1b2641b3ac6c811b2001b2046c821b1f41b3b06c851b2101b2146c821b2881b2086ca11b218235ac6c991b2941b2646c941b2dc1b2506c901b2d81b2406c8f1b2b81b23c6ca11b2b41b2846ca81b29c1b29c6ce81b2e11b1ec6c781b2a01b2a06ce61b2ed1b1e06ca21b1f01b1f06ca91b1f41b2a46ce11b31d1b2186caa1b2c81b2a86ce01b2f51b1f400001b24e1b2106cab1b2d01b24c6caf1b2ac1b2ac6ce71b2e91b1d800001b1e61b1e46c9b1b2b01b2b06ce31b30d1b2b46cdf1b3011b2b86ce21b2e51b2bc6cdc1b2f11b1cc6c9b1b2c41b1fc6cb11b2c01b20000001b20e1b20c6cb31b2c01b26c6ca51b2c01b2c06cd91b2e11b2c46cdb1b2ed1b1d06cb31b2c81b2c86cda1b31d1b2946cb41b2cc1b2cc6ce41b2f51b2d06cd81b2e91b2886cb71b2d41b2d485ae1b30d1b2d86cdd1b3011b2dc6cde1b2e5)
  (.lf 0)))

def aesGateTree74 : BTree :=
  .nd (.nd (.nd (.lf
  0x1840c612a184d4184a8616918501005f0015c007f000570013c00770004f0011c006f0007f001dc0000c0077001bc0008c00470019c23a68006f0019c0010c006700063239e8239e860fa183e4183e86119184e4183f060fd18450185b8610418478185bc61061841418418610718408185c0610a184241842861071849c1841c61261842c184786119184ec184646115184e8184546114184c8184506126184c418498612c184ac184ac616c184f11840060fd184b0184b0616a184fd183f461271840418404612d18408184b461651852d1842c612e184d8184b86164185051840800001846218424612f184e0184606133184bc184bc616b184f9184c061671851d184c4616318511184c86166184f5184cc616018501184106135184d018414000018422184206137184d0184d0615d184f1184d4615f184fd183e46137184d8184d8615e1852d184dc616818505184e0615c184f91849c613b184e4184e400181851d184e8616118511184ec6162184f5184f060e9183a0184f860eb184681850060ef183b0183bc60e818434183a060f01845c183c0615a1850818504611c18468184686124185081850861431852d1851060f21845c1845c612800064)
  (.lf
  0x32cc0cbd03321032f40c6b21b300331c86c821b34031bc0c6c032e4032e40cc403301033100c7b03320032f00c6b031c00332886ca21b20032e00cbf03305033040cc3031ec031ac0c6921b20031ec86c821b1c21b20049d238400b1b08e6b239b0238402ca30b2880b28c8e6b20164239ac6b5f1ad781ad7c6b601addc032d40cc203319033080cc621b1c0350886de03541035400ccf21b78033400cf6033e0033d886e521b8c032dc86c603315033140c4321b18031100c6a031b00330c0c70031a80310c86cb031b0033180c7021b2c031a886cd21b2c21b2c049a2384c035000d4d03545035340d5121b7c1fbac7e9621b4c1fba07e961fa401fa5886d421b3821b500491238702387000000b52e1f5e886dd21b6c21b6c048a2388c2388c2d440b50c0333c86e3033e0035440cfc21b8c21b8c0482238ac2384c2d5d0b5700b57080570b5780b57800000b5ee0b52c2d4d0b5300b53081590b5e4238ac2d37201080b4dc2d730b5ec0b5ec8056205640b5108e6d205642056400001af461af446b631ad881ad8c6b601ae401ad806b8a1ad901ad906b911ad94032fc0cc021b18033000cc8031a4031a486c921b1c0332486c721b3421b1c049e2383c))
  (.nd (.lf
  0x12d604b692101c12df84b6312da412da44b9812e1812e104b8e12e1812e184b8712e4512e004b2e12cb412cb44b9712cc812cc84b9a12e2412ccc4b6012e2412e1c4b8912e3c12e204b9112e2412e244b8b12e2912ca84b2b2102c12cb04b5c12e3412cb84b2b2103412cac4b5312cbc12cbc4b9912e3412e304b6212e3412e344b8e12e4112e384b9112e3c12e284b6212e3c12e3c4b9212e4d12e2c4b342101c12cd04b6012e6012d884b372102c12cdc4b6a12d5c12e444b5112ce012ce04b6612d4812d804b6612e5412e404b5d12d9412d744b4e12da812da84b9a12e5012d984b9712e5012e504ba112ea912e484b6312e6012d8c4b5212d9012d904b3612cd412cd44b9612e5412e4c4b5c12d9412d944b9b12e5412e544b9e12eb512e5c4b9f12e9912e604ba512ea512d484b4e12e6412e644b9d12eb112e68840612ea112e6c4ba212e9112ea04b272101812c9c840b12d4012e844b2812d3412ca04b4e12d4012e944ba92101c12ea44b542102c12e904ba612d7812e984b5412d381011c3fda0ff640ff6400000ff760ff7440041003c100104043100690ff583fd70ffb8101243fe00ff7c0ff803fe10ff70101283fe40ff8c0ff903fe110004)
  (.lf 0))) (.nd (.nd (.lf
  0x159645606158141596c5608158dc15974560c15824158305605158a815814560d158d01583456771597c159785639158dc158dc56411597c1597c5660159a115984560f158d0158d0564520a5c15968563f159141591456741598815980566a15988159885663159b515970560a1582415824567315838158385676159941583c563c159941598c5665159ac15990566d159941599456671599915818560720a6c158205638159a415828560720a741581c562f1582c1582c5675159a4159a0563e159a4159a4566a159b1159a8566d159ac15998563e159ac159ac566e159bd1599c561020a5c15840563c159d0158f8561320a6c1584c5646158cc159b4562d15850158505642158b8158f05642159c4159b0563915904158e4562a15918159185676159c0159085673159c0159c0567d15a19159b8563f159d0158fc562e1590015900561215844158445672159c4159bc563815904158e0563320a74158cc562d158bc158b4562b159c8159c8567c15a1d159cc567b15a09159d0568115a15158b8562a159d4159d4567915a21159045677159c4159dc567e15a01158bc562c159e0159e05683159fd15a20829720a74159f45604158a415a0c563a15a1c)
  (.lf 0)) (.nd (.lf
  0x1ce8873c61cf381cf1873fc1cf651ce6400001cebe1ce8073c71cf401cebc73cb1cf1c1cf1c74031cf591ce4800001ce561ce5473b71cf201cf2073ff1cf7d1cf2473fb1cf711cf2873fe1cf551cf2c73f81cf611ce3c73b71cf341ce6c73cd1cf301ce7000001ce7e1ce7c73cf1cf301cedc73c11cf301cf3073f51cf511cf3473f71cf5d1ce4073cf1cf381cf3873f61cf8d1cf0473d01cf3c1cf3c74001cf651cf4073f41cf591cef873d31cf441cf4485561cf7d1cf4873f91cf711cf4c73fa1cf551cf5073801cdfc1cf5873821cec41cf6073861ce0c1ce18737f1ce901cdfc73871ceb81ce1c73f21cf681cf6473b31cec41cec473bb1cf681cf6873db1cf8d1cf7073891ceb81ceb873bf2155c1cf5473b91cefc1cefc73ef1cf741cf6c73e51cf741cf7473de1cfa11cf5c73841ce0c1ce0c73ee1ce201ce2073f11cf801ce2473b61cf801cf7873e01cf981cf7c73e81cf801cf8073e21cf851ce0073812156c1ce0873b21cf901ce107381215741ce0473a91ce141ce1473f01cf901cf8c73b81cf901cf9073e51cf9d1cf9473e81cf981cf8473b81cf981cf9873e91cfa91cf88738a2155c1ce2873b61cfbc1cee0738d2156c1ce3473c01ceb4)
  (.lf 0)))

def aesGateTree75 : BTree :=
  .nd (.nd (.nd (.lf
  0x14e8453c814e8d14e88534f14d3814e90535114e0014e98535514d4814d54534e14dcc14d38535614df414d5853c014ea014e9c538214e0014e00538a14ea014ea053a914ec514ea8535814df414df4538e009b814e8c538814e3814e3853bd14eac14ea453b314eac14eac53ac14ed914e94535314d4814d4853bc14d5c14d5c53bf14eb814d60538514eb814eb053ae14ed014eb453b614eb814eb853b014ebd14d3c5350009a814d44538114ec814d4c5350009a014d40537814d5014d5053be14ec814ec4538714ec814ec853b314ed514ecc53b614ed014ebc538714ed014ed053b714ee114ec05359009b814d64538514ef414e1c535c009a814d70538f14df014ed8537614d7414d74538b14ddc14e14538b14ee814ed4538214e2814e08537314e3c14e3c53bf14ee414e2c53bc14ee414ee453c614f3d14edc538814ef414e20537714e2414e24535b14d6814d6853bb14ee814ee0538114e2814e2853c014ee814ee853c314f4914e04537c009a014df0537614de014dd8537414eec14eec53c514f4114ef053c414f2d14ddc537314ef814ef853c214f4514f0053c714f2514de0537514f0414f0453cc14f2114f3c026d009a014f44026e009a0)
  (.lf 0)) (.nd (.lf
  0x1e20078aa1e2101e21078b11e2141e2c478e91e33d1e23878b21e2e81e2c878e81e3151e21400001e26e1e23078b31e2f01e26c78b71e2cc1e2cc78ef1e3091e1f800001e2061e20478a31e2d01e2d078eb1e32d1e2d478e71e3211e2d878ea1e3051e2dc78e41e3111e1ec78a31e2e41e21c78b91e2e01e22000001e22e1e22c78bb1e2e01e28c78ad1e2e01e2e078e11e3011e2e478e31e30d1e1f078bb1e2e81e2e878e21e33d1e2b478bc1e2ec1e2ec78ec1e3151e2f078e01e3091e2a878bf1e2f41e2f484961e32d1e2f878e51e3211e2fc78e61e3051e300786c1e1ac1e308786e1e2741e31078721e1bc1e1c8786b1e2401e1ac78731e2681e1cc78de1e3181e314789f1e2741e27478a71e3181e31878c71e33d1e32078751e2681e26878ab2125c1e30478a51e2ac1e2ac78db1e3241e31c78d11e3241e32478ca1e3511e30c78701e1bc1e1bc78da1e1d01e1d078dd1e3301e1d478a21e3301e32878cc1e3481e32c78d41e3301e33078ce1e3351e1b0786d2126c1e1b8789e1e3401e1c0786d212741e1b478951e1c41e1c478dc1e3401e33c78a41e3401e34078d11e34d1e34478d41e3481e33478a41e3481e34878d51e3591e33878762125c)
  (.lf 0))) (.nd (.nd (.lf
  0x5e70174b20cd0060701825060d106094183405f54060d0834220d00060c4834020d1405ef4834020d0420d0001252222417ec85fbf17f2117e005f6f17e0417e045f5317d4817d485fb417ecc17de45f7420cf417dd05f6e17dc017db85f6c17ed017ed05fbe17f2517dbc5f6b17edc17edc5fbb17f2917dc05f6d17ee817ee85fc517f0517f28833720cf417efc5f4517da817f145f7b17f2417dec833820cdc17f045fc917da817eec5f6c20cec17ef85f6c20cf017db05f6a20ce017da8833920cdc20cdc012e2220022200170105c3c22224160b2237c0e8d43a3e0e9350e928832820cb40e758832820ca40e8f83a4d0e7b80e934832a20ca020ca0013d221c4221c41636058d4058d480e3058dc05d3c174c05e6005e6017a305e7d05e40179d05e9905e74172405d2405d38174a05e5405e54179905ea105ea0832f20cd405e8c175a05e9c05d68833020cbc05e7c17a705d2405e64174b20ccc05d2c174920cc005d24833120cbc20cbc0136221e0221e000000589a0589816280589c0589c16f605c080582c16f605be805bd880e3203e005c3c15e80579c0579c80e305b1c2038c0000146a617d10833b17db417d145f6b17db417db4833c20ce8)
  (.lf 0)) (.nd (.lf
  0x19100647f191f8191d064b21921d191f464a71921d190c064312192c1921c6434190cc190d0643121934190c46459190d4191c46480191fc191406477192001920064a419219191486476191f8191dc64b31921919218643219184190c8646219250191fc64b019225191d864ac192251922464631918419184646b1922819228648b1924d191f864a61924d190d464a019250191d464ad1924d1924c6468192501925064951925d190cc649e190e0190e064a119240191e464ab192311920864a91923119230643919178190e4646619240191e864ae19215191b86483192041920c64aa19215192146469191bc19178646f2191c1922c649519234191bc649f1923419234648e19261192386490192581920486461923d191e064af1923d1923c649819240192406492192451925c6463191ac1918c6454191c019244646819258191a0643d2192c190f4647019174191c064a11926c19254649819258192606457190f8190f8646c1916019248643a2191c190e864661927c19198646c19270191b0649e1926c1926c64a8192c523918000018a1e0b3d06287204b818a1c621d188701887000001887e1887c624f1893019258649919269192686462191ac)
  (.lf 0)))

def aesGateTree76 : BTree :=
  .nd (.nd (.nd (.lf
  0xd35c3481000540d33034db0d1ec0d36c0014000480d354348c0d3640d34834d40d2300d2300012000440d34034d1000400d34434d90d1e80d35034810d1ec0d3640017000500d334347c0d2040d2040016000400d1f40016000500d32c347c000540d338347c000580d1f0347a000480d1ec0017000540d1e8001300044052ac8823220900525c14a3220100528c0000220020521087eb21fc805064000004e4604f90000004dba04db887eb21f9c04de087f621fc804e44880021fec04d4012e304b8804b88000004b9a04b98130d04c6004c34134c04c8d220b012dd04b7004b7412fc04c7004b7c12e004bdc04d4412e704c0404d4812e904ba004ba412ea04b9404d4c12ed04bb004bb412ea04c2804ba8130904bb804c0412fc04c7804bf012f804c7404be012f704c5404bdc130904c5004c24130f04c3804c38134f04c7d04b8c12e004c3c04c3c134d04c8904b80130a04b9004b90131004b9404c40134804cb904bb8131104c6404c44134704c9104b94000004bee04bb0131204c6c04bec131604c4804c48134e04c8504c4c134a04ca904c50134604c9d04c54134904c8104c58134304c8d04b9c131804c5c04ba0000004bae04bac131a04c5c)
  (.lf
  0x207808240214c0209008550214802148085f021a10217c07e5020280218808640207002154085d021910219008110202c0214c085c021ad02170086b0202c01f94080b020340202c868521a0c0218c0867219fc0219c081121a0c02160867e021990219807e4219f801f908683020340215c085b021a90216c080c21a0c21a0c04e22372c24060041e21b9c21b9c000001b2a01b280664019940199400000198a01988069201a3c24068041c21ba421ba40670019c42405c041f21b9821b98000001b2e01b2c0660019840198006630193824070041a21bac21bac000001b2201b20066a019ac019a8066d01a1c24064041d21ba021ba0066e019bc019b8066d01950019b4064e019a401938069601a50019c0064a01a5001a50866601a89019bc0000019b2019ac00000199e0199c068501a40019b0064301a2c01a2c06c201a8901a8806ab01a8c24078041821bb421bb4067201948019c8064301a402406c041b21ba821ba806450192c0190c064b01a3c0192c069301a48019a40688019a0019900663019a0019a000000193201930068e01a2801984068a01a4c01a2806c601a6501a4c06b701a6501a64067f0192424074041921bb021bb0000001b26))
  (.nd (.lf
  0x130b04bb312f60130c84be9130d812fa483d820f5c130b84c3612f60130a04bda20f6c130ac4bda20f7012f684bd820f6012f6083d920f5c20f5c038e225a4225a419f30686c1556c5564155cd155c083c820f34153f083c820f2415590557315450155cc83ca20f201189c4630118fd118f083d020f541172083d020f44118c0463f11780118fc83d220f4020f20039d225682256818fe063f4063f480d20673820f400395225882258819ae226c0066c480d20687c066b819ce067cc067cc80b32034820348000013bca116e483d311788116e845e0117881178883d420f4820f50039122598225980000066961558083c6155b9155b854ed20f18153b483cb15458153b8551415458155bc551a20f2c155b0551a154501546883cc20f181545883cc20f2820f300399225782257819b5202c81178083d520f4c20f4c0392225942259419aa20474066a819df067f8130804c29130e112ec883db12f6c12ecc4bd912f6c130a44c3812f6412f6483dd20f6c20f6c038a225b4225b4199e066740667489bb0677c066d419d30677c0677c800f203441440c510c1446d1425483e3142f81425850bc142f814430511b142f0142f083e520f8c20f8c0382225d4)
  (.lf 0))) (.nd (.nd (.lf
  0x1f3687d021f45c04f18000004f1204f10139b04e3404f40882b04e3404e34882322078220787cde1f3741f37400001f3821f3807d021f4481f4087fd71f45820b68018b21f6820b88018321f8821f88137304db421f6813d104f4804f4813a104dcc04dcc882522080051e414782209004ee81478220b4051e0000022082220807d001ff5c1ff5c7d1a1f464011ec045b013ec0116c043b0136c011e00458013e001160043801360011fc045f013fc0117c043f0137c0118004400138001100042001300011f4045d013f401174043d01374011f8045e013f801178043e01378010f8041e012f8010f4041d012f4010e00418012e001080040001280011e40459013e401164043901364010e40419012e401064049923e74011940000018fa018f8063a01394011140000018ea018e8063601314010940000018da018d8063201294010140000018ca018c8048523ec4011f0045c013f001170043c01370010f0041c012f0010fc041f012fc010ec041b012ec011e8045a013e801168043a01368010e8041a012e801074049d23e6401060049823e7801070049c23e680106c049b23e6c0107c049f23e5c01000048023ed801078049e23e6001068049a23e70)
  (.lf 0)) (.nd (.lf
  0x1ba506e952144c1ba586ec61bbe01ba606e95214541ba546ebd1ba641ba646f041bbe01bbdc6ecc1bbe01bbe06ef91bbed1bbe46efc1bbe81bbd46ecc1bbe81bbe86efd1bbf91bbd86e9e2143c1ba786eca1bc0c1bb306ea12144c1ba846ed41bb041bbf06ebb1ba881ba886ed01baf01bb286ed01bc001bbec6ec71bb3c1bb1c6eb81bb501bb506f051bbfc1bb406f021bbfc1bbfc6f0c1bc551bbf46ecd1bc0c1bb346ebc1bb381bb386ea01ba7c1ba7c6f011bc001bbf86ec61bb3c1bb186ec1214541bb046ebb1baf41baec6eb91bc041bc046f0b1bc591bc086f0a1bc451bc0c6f101bc511bc14850e1bc4d1bb3c6f061bc001bc186f0d1bc3d1bc4c6e91214381ba4485131bae81bc306e921badc1ba486eb81bae81bc406f142143c1bc506ebe2144c1bc3c6f111bb201bc446ebe1bae01bc286eb91baf81baf88514214381baf46eba1bc1c1bae88514214481bc2c6eb92145021450025122e0422e042254206d008e3c239908e9108e9085252148808e8c85202149408d28234608e4808e48239608e9508e94851f2149408d1885252148c21494024022e4822e482238088dc08e6423472149021490024122e4422e44223920454088e422d108b4c)
  (.lf 0)))

def aesGateTree77 : BTree :=
  .nd (.nd (.nd (.lf
  0x23bd00000153a610a9002e100b9c00b8402c100d8400b0402a100d0400a84028100c8400d84034100f8400d04032100f0400c84030100e8400a04030123c5400c04038123bd423bd40000153aa10a7402e400b9800b9802c600d9800b1802a600d1800a98028600c9800a18030623c4000d98034600f9800d18032600f1800c98030600e9800c18038623bc023bc00000153ae00b9c02c700d9c00b1c02a700d1c00a9c028700c9c00d9c034700f9c00d1c032700f1c00c9c030700e9c00a1c030723c3c00c1c038723bbc23bbc0000153b2153a4547c151ec151ec0000151fe151fc54a6152c41529854e5152f100b9002c400d9000b1002a400d1000a90028400c9000a10030423c4800c1000000183200c9000000183600d1000000183a00d9000000183e0183c060e00f9001838060d00f1001834060c00e9001830038423bc823bc85476151d4151d85495152d4151e0547915240153a8548015268153ac548215204152085483151f8153b05486152141521854831528c1520c54a21521c152685495152dc152545491152d8152445490152b81524054a2152b41528854a81529c1529c54e8152e1151f05479152a0152a054e6152ed151e454a3151f4)
  (.lf 0)) (.nd (.lf
  0x1de7077d31decd1de7477cf1dec11de7877d21dea51de7c77cc1deb11dd8c778b1de841ddbc77a11de801ddc000001ddce1ddcc77a31de801de2c77951de801de8077c91dea11de8477cb1dead1dd9077a31de881de8877ca1dedd1de5477a41de8c1de8c77d41deb51de9077c81dea91de4877a71de941de9484c61decd1de9877cd1dec11de9c77ce1dea51dea077541dd4c1dea877561de141deb0775a1dd5c1dd6877531dde01dd4c775b1de081dd6c77c61deb81deb477871de141de14778f1deb81deb877af1dedd1dec0775d1de081de0877932131c1dea4778d1de4c1de4c77c31dec41debc77b91dec41dec477b21def11deac77581dd5c1dd5c77c21dd701dd7077c51ded01dd74778a1ded01dec877b41dee81decc77bc1ded01ded077b61ded51dd5077552132c1dd5877861dee01dd607755213341dd54777d1dd641dd6477c41dee01dedc778c1dee01dee077b91deed1dee477bc1dee81ded4778c1dee81dee877bd1def91ded8775e2131c1dd78778a1df0c1de3077612132c1dd8477941de041def0777b1dd881dd8877901ddf01de2877901df001deec77871de3c1de1c77781de501de5077c51defc1de4077c21defc1defc77cc1df55)
  (.lf 0))) (.nd (.nd (.lf
  0x2022800000ed92067948102202142021400000ed9e0645489a4226a82269041991fe88063a018e9226a0063a400002268a226884177105d8105d80000105e6105e4419b106ac063a80000067160671489ab2269c2269c417310640105cc419b106c01066c7fa2106bc1fe8841b3106c8064f0193d066fc0650c8996066fc066fc899c22660065a481010677806778899922654226603aef0ec300ebbc3b170ecb0226543af30ebc80ebc800000ebd60ebd43b170ec9c0ec5c7f960ecac06750899b2265c064f400002265e2265c3b151fe581fe583b2f0ecb806764899a2265813b684ee713bad13a8082e820b9c13b9c4eeb20b9c13b844e9113a5813b7c4e9120bac13b884e9120bb013a444e8f20ba013a3c82e920b9c20b9c017e220c0220c00000059fe059fc168105a000ed903af70ebd80ebd800000ebea0ebe83b210ecb00ec843b600ecdd226583af10ebc00ebc43b100ecc00ebcc3af40ec2c0ed943afb0ec540ed983afd0ebf00ebf43afe0ebe40ed9c3b010ec000ec043afe0ec780ebf83b1d0ec080ec543b100ecc80ec403b0c0ecc40ec303b0b0eca40ec2c3b1d0eca00ec743b230ec880ec883b630eccd0ebdc3af40ec8c0ec8c3b610ecd9)
  (.lf 0)) (.nd (.lf
  0xa0e8284b2179c0a128285f0a1740a158288a0a1850a17c28860a1850a18428450a12c0a12c287b0a1a40a0b028530a1700a14c288f0a1890a0b828520a1680a070285b0a1680a17028800a1890a188280e0a0f40a14828880a1950a16c288c0a1950a194283f0a0f40a0f428470a1980a16428830a18d0a140288e0a18d0a18c28100a03c0a040280d217b40a04c287e0a1980a19828670a1bd0a14428890a1bd0a030280d217ac0a03428350a0440a044287c0a1c00a16828820a1bd0a038283e0a1c00a1bc28440a1c00a1c028710a1cd0a1cc283f0a11c0a0fc28300a1300a19c28710a1a40a1a4286a0a1d10a1a8286c0a1c80a05428420a1b00a03c287a0a0500a17485e60a1ad0a050287d0a1b00a150288b0a1ad0a1ac28740a1b00a1b0286e0a1b50a1b428440a1c80a1102819217ac0a064284c0a0e40a130287d0a1dc0a1f485e60a22d0a22c2809217980a02485eb0a0c80a1b828162179c0a05828420a1ec0a10828480a1e00a1c428740a1c80a1d028330a0680a06828480a0d00a120287a0a1dc0a1c828750a1d90a1d8283e0a11c0a11c287e0a1e00a0f82839217b40a0e428330a0d40a0d428320a1fc0a1fc288a0a2190a22828400a238)
  (.lf 0)))

def aesGateTree78 : BTree :=
  .nd (.nd (.nd (.lf
  0xd14833e80cf9c0cfa033e90cf900d14c33ec0cfac0cfb033e90d0280cfa434090cfb40058c01430078c0050c01230070c0048c01030068c0040c018323acc23acc34010cfec0d00433fc0d0780cff033f70d0740cfdc33f60d0540cfd834090d0500d024340f0d0380d038344f0d07d0cf8833df0d03c0d03c344d0d0890cf7c340a0cf8c0cf8c34100cf900d04034480d0b90cfb434110d0640d04434470d0910cf9000000cfea0cfac34120d06c0cfe834160d0480d048344e0d0850cf7400000cf820cf8034030d04c0d04c344a0d0a90d05034460d09d0d05434490d0810d05834430d08d0cf6834030d0600cf9834180d05c0cf9c00000cfaa0cfa8341a0d05c0d00c33fb0d05c0d05c34400d07d0d06034420d0890cf6c341a0d0640d06434410d0b90cfec341b0d0680d068344b0d0910d06c343f0d0850d028341e0d0700d07001ef0d0a90d07434440d09d0d07834450d0810d07c33cb0cf280d08433cd0cff40d08c33d10cf380cf4433ca0cfbc0cf2833d20cfe40cf48343d0d0940d09033ff0cff40cff434070d0940d09434260d0b90d09c33d40cfe40cfe4340b007b80d08034050d02c0d02c343a0d0a00d09834300d0a00d0a034290d0cd)
  (.lf
  0x1ec0079501e6c01eb407d401edd01edc076401e2401e24079b219dc01e6c07ca01ee001ee007b901f0d01ee407bb01f0401e7c07dd01ec901ea007d201ec901ec8075f01d7801d7807c901d8c01d8c07cc01eec01ee807c301eec01d90079201eec01eec07bd01ef101ea407d101ef901e8007d801ef901ef0079401f0401ef8079401efc01d6c075c219ec01d7c075c219f401d70078401d8001d8007cb01efc01d74078e01efc01efc07c001f0901f0007c301f0401f0407c401f1501f14078e01e5c01f08078f01e5c01e5c07cd01f1c01cd4073801ce501ce0070901cf801c2406f701c2801ce4070201c2c01c0806fc219d401bf006f601be001be006f501d0801c2806db01b6801b68073c01cec01bd806f401cf001cf0074601d4501c2c074101cec01d04074801d2901d08074d01d2501d200749219b801d24075101bc801d34070401d4401d448675219c801cec074401d4d01d10075301bcc01d4c8672219c001d00866e01d3901d3806cc219b801b30867301bd401b3406f301bd401bd48674219c8219c804f3236e8236e82d320b4c40b4c88e302079401e500768219ec01e3c077f01e7001da0079c01e2001e7007cc01f1801ef40765219dc))
  (.nd (.lf
  0x2006c0000076a6080701ec707b1807b188b4b07f34076a01d3a074e4074e40000074f6074f41d65075c0075941da4075ed076ac1d440750c075101d410758407f488b4c22d20076a81d40074fc075001d41074f0075041d600751407bf48b4c22d3422d301d34074cc07f348b4e22d2822d381d320753c22d2c1d36074d4074d81d3707538074d01d53075d022d341d5807590076a41d3e07560075601d53075d80754c1d4f075d40753c1d4e075b4075381d60075b0075801d6707598075981da7075dd075141d69075c4075a41d9f075f1074e81d370759c074dc1d61074ec074ec1d68074f0074f000000754a075481d6e075a80750c1d6a075cc075a81da6075e5075b41da1075e1074f81d70075bc074c81d5a075c0075c01d9a075e9074cc1d72075c4075c41d9907619074d40000074e2074e01d5a075ac075681d64075bc075901d73075c8074fc00000750a075081d72075bc075c81da3075f1075b01d9e075fd075b81d9b075ed075cc1d97075e5075ac1da207609075d41d9c075fd075bc1d98075dd075e41d2507550075dc1d2307488075ec1d2907498074a41d220751c074881d2a07544074a81d95075f4075f01d5607550075501d5e075f4)
  (.lf 0))) (.nd (.nd (.lf
  0x16d7c5b0e20c9011cf4474611d5511d48831020c5411d4c831520c4811d18475511bd811bd8831520c4c20c540150221782217816550595005950800305b040ea1c3a8220c340ea083a7c0e9f80e9f03a7a0eb040eb043acb0eb590e9f83a7b0eb1c0e9ec830c20c280eb2c3a7a20c3020c300159221542215416680599c0599c80ac05b4c13984831820c7413988831d20c6820c7401482219822198164a2234c0592816c205b4c20c900141221b4221b4163b2023c058ec16d105b4c05b4c80fb2000c2000c0000054de16d6c5b6616d8916bd4832020c8416d885b6a16c3016c385b0c20c8016c30832120c7c20c840144221a8221a81645059100591016e005b880593888ca058fc16db0832220c8016d985b1d16da816da8832520c8820c880143221ac221ac163e058f4058f416db0590005900000005b7a13990831a20c6020c4c015222170221701657202380595c16d105b7820c68014b2218c2218c16de05c4c05b7888ca223140eb1c3ad20eb390eb60830a20c200eb383ad60e9e00eb483a890eb580eb58830d20c2820c28015b2214c2214c16d605c6005c6015d3057480574c88c4223282232814e71fe2c0eb5c830720c340eb54830820c34)
  (.lf 0)) (.nd (.lf
  0x99dc265b09984099ac269d099f90999426a6099d9099d8262209884099d0269b099f9099f8262b09940098ec00000994609944266d099a4099b4269a099e90999026a3099e9099e8262809894098a0262109918098842629099400994026612175c099842691099fc0988826232176c0988c264b0989c0998c2672099c4099082669099c8099c82696099e1098c82671099c0099c426a2099ed099102668099c0099a0269e099ed099a426a5099e1099ec26550994c099e026240994c0994c265d099f0099c0269809a15098a42694099f0099f0267d09a1509a14265a09a180989c269209a1809890265409a18099f42687099fc09a18268709a2509a1c268a09a20099fc268009a2909a00268209a20099cc85d609a05099a826a109a0509a04268a09a08098ac265809a08098942690098a8098a8269309a0809a08268409a0d09a0c265a09a2009968262f2176c098bc26620993c09a10262c2175c098b0265809a4409a242655099740995426460998809988269309a3409a282649098c0098c0265e0992809960265e09a3809978269009a3409a34269a09a8d09a20268b09a3109a2c265b09a440996c264a0997009a3026540997409950264f21774)
  (.lf 0)))

def aesGateTree79 : BTree :=
  .nd (.nd (.nd (.lf
  0x1712c5c741714d171305c76171591703c5c4e17134171345c7517189171005c4f17138171385c7f171611713c5c7317155170f45c52171401714002ff17179171445c781716d171485c79171511714c5bff16ff8171545c01170c01715c5c0517008170145bfe1708c16ff85c06170b4170185c7117164171605c32170c0170c05c3a17164171645c5a171891716c5c08170b4170b45c3e00bf8171505c38170f8170f85c6e17170171685c6417170171705c5d1719d171585c0317008170085c6d1701c1701c5c701717c170205c351717c171745c5f17194171785c671717c1717c5c611718116ffc5c0000be8170045c311718c1700c5c0000be0170005c2817010170105c6f1718c171885c371718c1718c5c6417199171905c6717194171805c3717194171945c68171a5171845c0900bf8170245c35171b8170dc5c0c00be8170305c3f170b01719c5c2617034170345c3b1709c170d45c3b171ac171985c32170e8170c85c23170fc170fc5c70171a8170ec5c6d171a8171a85c7717201171a05c38171b8170e05c27170e4170e45c0b17028170285c6c171ac171a45c31170e8170e85c71171ac171ac5c741720d170c45c2c00be0170b05c26170a0)
  (.lf 0)) (.nd (.lf
  0x1a574696c1a5ac1a5ac699c1a5d51a5b069901a5c91a568696f1a5b41a5b484fe1a5ed1a5b869951a5e11a5bc69961a5c51a5c0691c1a46c1a5c8691e1a5341a5d069221a47c1a488691b1a5001a46c69231a5281a48c698e1a5d81a5d4694f1a5341a53469571a5d81a5d869771a5fd1a5e069251a5281a528695b213fc1a5c469551a56c1a56c698b1a5e41a5dc69811a5e41a5e4697a1a6111a5cc69201a47c1a47c698a1a4901a490698d1a5f01a49469521a5f01a5e8697c1a6081a5ec69841a5f01a5f0697e1a5f51a470691d2140c1a478694e1a6001a480691d214141a47469451a4841a484698c1a6001a5fc69541a6001a60069811a60d1a60469841a6081a5f469541a6081a60869851a6191a5f86926213fc1a49869521a62c1a55069292140c1a4a4695c1a5241a61069431a4a81a4a869581a5101a54869581a6201a60c694f1a55c1a53c69401a5701a570698d1a61c1a560698a1a61c1a61c69941a6751a61469551a62c1a55469441a5581a55869281a49c1a49c69891a6201a618694e1a55c1a5386949214141a52469431a5141a50c69411a6241a62469931a6791a62869921a6651a62c69981a6711a51069401a6301a63069901a67d)
  (.lf 0))) (.nd (.nd (.lf
  0x101bc406c10230101b0408b101c01020c407e10280101f8407a1027c101e840791025c101e4408b102581022c4091102401024040d110285101944062102441024440cf1029110188408c101981019840921019c1024840ca102c1101c040931026c1024c40c9102991019c0000101f6101b8409410274101f44098102501025040d01028d1025440cc102b11025840c8102a51025c40cb102891026040c510295101a4409a10264101a80000101b6101b4409c102641026440c2102851026840c41029110178409c1026c1026c40c3102c11027040cd102991027440c11028d1023040a0102781027883ae102b11027c40c6102a51028040c71028910284404e101341028c4050101fc1029440541014410150404d101c8101344055101f01015440bf1029c102984081101fc101fc40891029c1029c40a8102c1102a44057101f0101f0408d20ebc102884087102341023440bc102a8102a040b2102a8102a840ab102d5102904052101441014440bb101581015840be102b41015c4084102b4102ac40ad102cc102b040b5102b4102b440af102b910138404f20ecc101404080102c410148404f20ed41013c40771014c1014c40bd102c4102c04086102c4)
  (.lf 0)) (.nd (.lf
  0xa8742a270a8c90a89c29d5218900a8882a290a8ad0a8ac2a2d0a7900a8c029da2188c0a8a029ae0a74c0a6b829d40a7580a8bc29ad218780a6b486230a7580a8b429da0a7500a89829d50a7680a7688624218780a76429d60a88c0a7588624218882189005412348c2348c2721200c809c8427b809ee809cc027a909ee80a32828c5218340a40028bf0a2980a31428bf0a3040a2fc28bd0a4140a414290f0a4690a43c28bd218300a29828d40a3000a35029060a40c0a418290e0a4550a41c29140a4610a30428be0a42c0a45029182181c0a46028c22182c0a45c2895218180a254860b0a2f80a40c29100a4650a44028960a2ec0a25828bc0a2f80a2f8860c218280a42829110a44d0a44c29150a3300a43828bd0a3080a45428c20a2f00a308860c218182183005592342c2342c274f09d3809d38813e09ee809ee881b82057c1ae106b592184c1aeb86b562183c1ad586b821aeec1aeec6bc81af311af206bcc2183c1af306b762184c0a8702a250a8d10a8942a340a7500a76029d40a8800a75086252188c1ad646b8c1ade41aecc6b7f1ae1c1aed86b7e1ae1c1ae1c6bbe1aee01aef86bc51af1d1af1c6bc91ae001adfc6b701ae301ae306bbd1aedc)
  (.lf 0)))

def aesGateTree80 : BTree :=
  .nd (.nd (.nd (.lf
  0x384c0e25038c0038940e2b038a8038a80e6b038ed037fc0dfc038ac038ac0e69038f9037f00e2603800038000e2c03804038b00e6403929038280e2d038d4038b40e63039010380400000385e038200e2e038dc0385c0e32038b8038b80e6a038f5038bc0e6603919038c00e620390d038c40e65038f1038c80e5f038fd0380c0e34038cc0381000000381e0381c0e36038cc038cc0e5c038ed038d00e5e038f9037e00e36038d4038d40e5d03929038d80e6703901038dc0e5b038f5038980e3a038e0038e081fe03919038e40e600390d038e80e61038f1038ec0de80379c038f40dea03864038fc0dee037ac037b80de7038300379c0def03858037bc0e5903904039000e1b03864038640e2303904039040e42039290390c0df103858038580e27207fc038f00e210389c0389c0e5603910039080e4c03910039100e450393d038f80dec037ac037ac0e55037c0037c00e580391c037c40e1e0391c039140e4703934039180e4f0391c0391c0e4903921037a00de92080c037a80e1a0392c037b00de920814037a40e11037b4037b40e570392c039280e200392c0392c0e4c03939039300e4f03934039200e2003934039340e5003945039240df2207fc)
  (.lf
  0xab482afe0acdc0abf82b040acd00ac102b360accc0abec2aec0ac200ac202b390accc0accc2b400ad250ad248638218f40ac0c2b3a0acd00acd02b3d0ad310acf42b4c0abb00ad002ac60abac0ab182aec0abb80abc42aee0acec0acec2b460ad090ad182afc0ad280ace82b410ad0d0ad042b42218d80ad082b4a0abac0abc02aec0ace00ad0c2b450abf00acd82b3e0ad150ad142af20abb00abb0863d218ec0ad28863d218e80ace02b3c0ad2d0ad2c8637218f4218f40528234f0234f026f809bdc09c288d8b2074c09c3881762074c09bdc8d9c2074c2074c000009eaa0a9d02a49218ac0a9242a7c0a9a40aa8c2a6f0a9dc0a9bc2a600a9f00a9f02aad0aa9c0aa782a462189c0a9182a720aaac0a9c82a780aaa00a9e02aaa0aa9c0aa9c2ab40aaf50aad02a3a0a97c0a8e82a600a9880aa982a6e0a9dc0a9b82a69218b40a9a42a630a9940a9942a620aabc0aabc2aba0aad90acf02aed218ec0abf08638218dc0ad30863a218e00acfc2aed218f00acf82aed0abc80ab508638218e40abb42aeb218e0218e0052d234dc234dc26ff09bf809bfc6d77204240b1b48e2f0b5c00b49481360b4200b42000000b5c20b5c08e41238c4238c428a70a310))
  (.nd (.lf
  0xc30830d60c3500c35083be0c3890c2cc30d30c3480c34831030c3710c34c30f70c3650c2c430c320efc0c37030b70c2d40c36430850c2d40c2d430bf0c3740c37430de0c3990c23030ba0c38c0c35830fd0c3610c36030bd0c30c0c30c30f20c3800c39830bc0c39c0c21c308420f140c20c308420f0c0c21030ac0c2200c22030f30c39c0c37830e80c3800c21430b60c39c0c39c30e80c3a90c3a030eb0c3a40c38030e10c3ad0c38430e30c3a40c38830eb0c38c0c38c30e50c3910c39030bc0c3a40c2f0309020f0c0c24030c40c2c00c3a430ec0c3b50c3b430b60c2fc0c2d830b020f140c2c030aa0c2b006d4080c820054203200000133122030c00001331e2030800001331a06ef080162030406cf080c12296020304000013316202800000103522026400001035606f848a48201f0201f000000e2b6201e000000e08a201dc00000e2c2201d800000e2be06f7c8a49201d4201d400000e2ba201cc00000e096201c800000e092201c400000e08e20058000006aaa20054000006aa606acc801406ad420050000006ab22004c000006aae06f908a472290c2290c385e1fe4406fc81adb06b6806b6c8a452290422904383c0e0ec0e0ec00000e0fa)
  (.lf 0))) (.nd (.nd (.lf
  0xc5b831770c5bc0c5bc31710c5c10c43c3110013e80c44431420c5cc0c44c3110013e00c44031380c4500c450317f0c5cc0c5c831480c5cc0c5cc31740c5d90c5d031770c5d40c5c031480c5d40c5d431780c5e50c5c43119013f80c46431460c5f80c520311c013e80c47031500c4f00c5dc31360c4740c474314c0c4dc0c518314c0c5ec0c5d831430c52c0c50c31330c5400c54031800c5e80c530317d0c5e80c5e831870c6410c5e031490c5f80c52431370c5280c528311b0c4680c468317c0c5ec0c5e431420c52c0c52c31810c5ec0c5ec31840c64d0c508313c013e00c4f031360c4e00c4d831340c5f00c5f031860c6450c60004ff0c6390c60431880c6290c4e031350c6080c608318d0c6250c638310c013fc0c43004fa0c4d40c61c310d0c4c80c43431330c4d40c61031930c4cc0c64c04fb013f40c6203189013fc0c62431910c4c80c63431440c6440c64404f8013ec0c4d404f9013ec013ec04db015ec0136c04bb0156c012ec049b014ec0126c051b23dec23dec42241fe8c0c5f431850c6310c628318c0c5100c61431340c4e40c6183134013e40c4dc31330c5fc0c5fc31830c6490c60c3134013e80c64004fd013e00c46c04fd013f0)
  (.lf 0)) (.nd (.lf
  0x1bfe070211c0011bfe470231c00d1bef06ffb1bfe81bfe870221c03d1bfb46ffc1bfec1bfec702c1c0151bff070201c0091bfa86fff1bff41bff484ce1c02d1bff870251c0211bffc70261c0051c0006fac1beac1c0086fae1bf741c0106fb21bebc1bec86fab1bf401beac6fb31bf681becc701e1c0181c0146fdf1bf741bf746fe71c0181c01870071c03d1c0206fb51bf681bf686feb2133c1c0046fe51bfac1bfac701b1c0241c01c70111c0241c024700a1c0511c00c6fb01bebc1bebc701a1bed01bed0701d1c0301bed46fe21c0301c028700c1c0481c02c70141c0301c030700e1c0351beb06fad2134c1beb86fde1c0401bec06fad213541beb46fd51bec41bec4701c1c0401c03c6fe41c0401c04070111c04d1c04470141c0481c0346fe41c0481c04870151c0591c0386fb62133c1bed86fe21c06c1bf906fb92134c1bee46fec1bf641c0506fd31bee81bee86fe81bf501bf886fe81c0601c04c6fdf1bf9c1bf7c6fd01bfb01bfb0701d1c05c1bfa0701a1c05c1c05c70241c0b51c0546fe51c06c1bf946fd41bf981bf986fb81bedc1bedc70191c0601c0586fde1bf9c1bf786fd9213541bf646fd31bf541bf4c6fd11c0641c06470231c0b9)
  (.lf 0)))

def aesGateTree81 : BTree :=
  .nd (.nd (.nd (.lf
  0xcb0032f40cb800cc6c32da0cb040cb0432f00cb6c0cba832f00cc7c0cc6832e70cbbc0cb9c32d70cbd00cbd033240cc780cbc033210cc780cc78332b0ccd10cc7032ed0cc880cbb432db0cbb80cbb832bf0caf80caf833200cc7c0cc7432e60cbbc0cbbc33250cc7c0cc7c33280ccdd0cb9832e0005e00cb8032da0cb700cb6832d80cc800cc80332a0ccd50cc8433290ccc10cb6c32d70cc8c0cc8c33270ccd90cc94332c0ccb90cb7032d90cc980cc9833310ccb50ccd0017d005e00ccd8017e005e00ccac32b10cb580cac432d70cb640ccb0332d005fc0ccb433350cb580ccb833300cba00ccc032dd0cb5c0ccc432e80ccd40ccd40178005ec0cca033370cb5c0cb5c0178005e800ee00398004e000e60011823af8005e00158007e000560013800760004e00118006e0007e001d80001c0076001b80009c006e001980011c00460019823a78006600067239f8239f860f818454183e06120184d414f98037d00df015174037b00df415038037d00df81513c53ff150101513453ff00de81514053ff00de414ffc53fd00df41288003fd00ff012a5c03fb00ff41292003fd00ff812a244a39128f812a1c4a3900fe812a284a3900fe4128e44a3700ff4)
  (.lf 0)) (.nd (.lf
  0x77001ddf078000777c1ddb078040776c1dda077e4077081dc307768077681dec077e0077b01df3077c8078d01dc607714077181dc3077cc0770c1ded0771c0771c1df4077200772000000777a077781dfa077d80773c1df6077fc077d81e3207815077fc1e2307815078141db10778007714000007726077241df1077f0077c41e300781d077e81e270781d0781c1db5076c8076d41dae0774c077281dfc077ec077c81e330780d077ec1e240780d0780c1daf076b8076b81db607774076d81e2107824077801dea07824078241e0a07849078281e1407830077b41e0207800077d01e2c07849077f41e2507849078481de70784c078081e2907811077e41e2d07811078101de8077b8077e01e2a0782d078041e280782d0782c1db807774077741dee2111c077b81e1e07830078301e0d0785d078341e0f0785407800844607839077dc1e2e07839078381e170783c077cc1e3107819077f01e2607819078181db3076c8076c81e1d076dc076dc1e200783c076e01de50783c0783c1e1107841078401de707854076bc1db02112c076cc1db021134076c01dd8076d0076d01e1f0784c076c41de10784c0784c1e1407859078501e1707854078541e1807865)
  (.lf 0))) (.nd (.nd (.lf
  0x11f14479611f2c11e58478511e5c11e5c476911da011da047c911f2011f18478f11e6011e3c478a20ad411e28478411e1811e10478211f2411f2447d311f7911f2847d211f6511e14478111f3011f3047d011f7d11e6047ce11f2011f3847d511f5d11e18478311f3c11f3c47da11f5911f50475b11e0011da482b020ac411f5447d620ab811f5847de11e0011f48478211e1c11f40478220acc11f4c478220ad011e08478020ac011e0082b120abc20ac401b421ec421ec414500514405140880c2073411f2c47d811f7111f7c82af20ad411f68479111f7811f5c47d911e4411e4482b020abc11f6047dc20abc20abc01b621ebc21ebc00000513a05138144c05134051307ff32073411f2047d111f8111f3482ae11f6d11f6c475a20ab811d6882b311e0c11d6c478111e0c11f4447e011e0411f8082b220ac011f7882b520ac811e0c82b420ac820ac801b321ec821ec814520514c05148880d2073413dec4f0e13c3413c34000013c4613c444f3813d0c13ce04f7713d3905b4888f1223b4223c44f0813c1c13c204f2713d1c13c284f0b13c8813df04f1213cb013df44f1413c4c13c504f1513c4013df84f1813c5c13c604f1513cd413c544f3413c64)
  (.lf 0)) (.nd (.lf
  0x1c91072031c7a81c7a872181c8101c84872181c9201c90c720f1c85c1c83c72001c8701c870724d1c91c1c860724a1c91c1c91c72541c9751c91472151c92c1c85472041c8581c85871e81c79c1c79c72491c9201c918720e1c85c1c85c724e1c9201c92072511c9811c8387209216f41c82472031c8141c80c72011c9241c92472531c9791c92872521c9651c81072001c9301c93072501c97d1c93872551c95d1c81472021c93c1c93c725a1c9591c97485b8216f41c97c85b7216f41c95071da1c7fc1c76872001c8081c9547256216d81c958725e1c7fc1c95c72591c8401c96472061c8001c96872101c9781c97885bd216e81c94472601c8001c80085bd216ec216f405a8231cc231cc23f708fd80901c8cc32073808fd88cd32073809034810d20738207380000092a2200d400000987209b1c8d9909b1809b10803709b1809b18000009ebe09b288d9a09ebc09ebc8d9c236342367025a5097082366425a9096a0096a425aa097042366c25cb0975c0987025b10972c0972c25c6097a42366825a7096980969c25c60979c0971825c2097a00970825c1097800970425d30977c200dc00000987a200d80000098760987425b3096c8096cc25b4096bc)
  (.lf 0)))

def aesGateTree82 : BTree :=
  .nd (.nd (.nd (.lf
  0x1837801e5007801838001e60078018370605b0079c1816c01e21821018354605c1820418170608218210181a801e5007901836460dd00798183746088007881834860e1182081838401e3007941836c60921837c1836060da182481824801e5007981835860d70079c1835c60df18204183686088182081837c01e00078c1834c6083182201822001e10079c1821001e10078c18344608300788183506083007841820c6081007941820801e0007881820401e40079814af452501493c1493c00001494e1494c527a14a14149e852b914a4104e6088082201022020524a1492414928526914a2414930524d1499014af85254149b814afc5256149541495852571494814b00525a14964149685257149dc1495c52761496c149b8526914a2c149a4526514a2814994526414a0814990527614a04149d8527c149ec149ec52bc14a3114940524d149f0149f052ba14a3d1493452771494414944527d14948149f452b514a6d1496c527e14a18149f852b414a45149480000149a214964527f14a20149a05283149fc149fc52bb14a3914a0052b714a5d14a0452b314a5114a0852b614a3514a0c52b014a4114950528514a101495400001496214960528714a10)
  (.lf
  0x297c0a96029d9029d80a7f029dc23fc0044621c7c21c7c000002a7a02a780a34028cc028d00a35028c0028d40a55028e4028e40a5d0299423fd4044121c9021c90000002a7623fcc044321c8821c880a4d0291c02a740a3202934029340a48029a8029200a43029a4029a80a91029b1028b40000028c6028c40a5902990028bc0a5c028c0028c000000291a029180a6202978029880a8f029bd029640a98029bd029bc0a1d028680289c0a660299423fd8044021c9421c940a260290c028980a4f029900293c0a470298c028cc0000028da028d80a660298c0291c0a6702998029980a97029c1029740a93029c1029c00a4b02924028dc0a5e0299c0299c0a8b029b5029780a9a029b5029b40a1902924029240a53029c40290c0a4202984029840a95029b1029080a5502980029800a92029cd029540a5b02968029680a9b029ad028c80a640298c0298c0a8c029ad029ac0a1702858028740a16028ec028580a1e02914028780a89029c4029c40a72029e9029c80a7c029d0029b00a510295c029a40a90029cd029cc0a2002914029140a5721a7c0295c0a86029d0029d00a75029fd029d40a77029f40296c0a99029b9029900a8e029b9029b80a1b02868))
  (.nd (.lf
  0x10dec432a21090210900341227fc227fc1b222030406c881bb906eec06d3c801606eec06eec80c5202a4202a40000119060ff3c841021044210440354227b01aad484402111406c281bd006c04074bc8438210e4210e0032d2284c2284c1b0006bfc06bfc8a7506c0406c04000006f8a06c401bab06f98210a4033c22810228101bd006fe406fe41aca06b2406b288a6606b2c21114032022880228801ae9229d006ba41bab06ed806b248a7506b2006b18805c06b2006b20000006ec2210a8033b22814228141bc706fe006fe01acd06b302110003252286c2286c1af2229c406bc81bde06f8821098033f22804228041b1f2027c06b308a7606ec006c7c1bb006f9806ec08a78229a406eac8a70229a4229a454ff15470153fc5527154f006f888a6b229982299855031540815408000015416154145527154dc1549c7fc6154ec228541bd306fd406c1c1bc106f4c06bb01bd006bb806bb8000006f4e06f4c8a6d229a0210ac033a22818228181b1a06c6406c688a6810574229a055251ff181ff18553f154f806ff81abe06af406af88a8622a1c06af48a7906ec806b98807a06ee006fb81ae506b9006b908a8706e9806aec807b06ec806e04806e0701c)
  (.lf 0))) (.nd (.nd (.lf
  0x20a5001d121e5021e50141e1ff700503413b204e7c05078139f04e6404e7c80eb1ffb0203ac000014afa1214c485c121ad12170486b1203012030829520a4c20a4c01d221e4c21e4c141d1ffac0507413a204e54112244496112691122c829e1126511264441820a781106082a31110411258449a20a7c11268444520a8c1111482a420a781110482a420a8820a9001c121e9021e9014391ffb0050e413a204e80159c4567a15a25159e85689158a8158a8829d20a6c20a6c01ca21e6c21e6c14260509c0509c0000050960509480ea04e6420a2c01da21e2c21e2c14090502805028880904e880502c7feb203a804e8880ea1ff88203a8000014af6110f882a120a7c20a7c01c621e7c21e7c142c050b4050b4138c04e2820a3801d721e3821e3814121ffb80504813b104e3020a5801cf21e5821e5814212039404d6414a7052a0052a080e50529820a1801df21e1821e1814061ffe00501813a804e3004e3080e51ff7820394000014b021468c82c020b1420b0001a521f0021f00146922058051a4137d04de413c0c82b820ae413de882ba20ae00ef543be20efad0ee903b930ee940ee943b770edd80edd83bd70ef580ee743b9820ab40ee603b920ee50)
  (.lf 0)) (.nd (.lf
  0x2304c70d31c3c02304470d51c3501c35470f41c45408b988c102302c2304070d71c3581c35c70d81c3bc1c52870df1c3e41c52c70e11c3801c38470e21c3741c53070e51c3901c39470e21c4081c38871011c39821528021b22edc22edc22bc08aec08af08c1208b282304870f91c4141c3e470f41c45c1c3d070f01c4581c3c070ef1c4381c3bc71011c4341c40471081c41c1c41c71481c4611c36c70d81c4201c42071461c46d1c36071021c3701c37071091c3741c42471411c49d1c398710a1c4481c42871401c4751c37400001c3ce1c390710b1c4501c3cc710f1c42c1c42c71471c4691c35800001c3661c36470fb1c4301c43071431c48d1c434713f1c4811c43871421c4651c43c713c1c4711c34c70fb1c4441c37c71111c4401c38000001c38e1c38c71131c4401c3ec71051c4401c44071391c4611c444713b1c46d1c35071131c4481c448713a1c49d1c41471141c44c1c44c71441c4751c45071381c4691c40871171c4541c454848e1c48d1c458713d1c4811c45c713e1c4651c46070c41c30c1c46870c61c3d41c47070ca1c31c1c32870c31c3a01c30c70cb1c3c81c32c71361c4781c47470f71c3d41c3d470ff1c4781c478711f1c49d)
  (.lf 0)))

def aesGateTree83 : BTree :=
  .nd (.nd (.nd (.lf
  0x1611c5869161e4161a47fcc161f4127e402ef1281d1281c498600bbc1261802ea126bc14efc026f14f3514f34534c009bc14d30026a14dd414dd40269009ac009ac024b00bac0092c022b00b2c008ac020b00aac0082c028b23cac126bc02e900bac00bac02cb00dac00b2c02ab00d2c00aac028b00cac00a2c030b23c2c23c2c58671ff301ff3058811620023c78428910a9810a2442b110b1823c64428d10a3010a30000010a3e10a3c42b110b0410ac47fa410b1423c6c42af1fe901fe9042c910b20171b85c7b171fd171ec5c7f00bf8171fc5c2900be8125b04979125f5125e4497d009f8125f44928009e8009e8025a00be800968023a00b68008e8021a00ae800be802da00de800b6802ba00d6800868029a23c7000ae8029a00ce800a68031a23bf023bf000001815e170a402f900bfc124a00279009fc009e4025900be400964023900b64008e4021900ae400864029923c7400be402d900de400b6402b900d6400ae4029900ce400a64031923bf423bf40000181621708802fc00bf812484027c009f8009f8025e00bf800978023e00b78008f8021e00af800878029e23c6000bf802de00df800b7802be00d7800af8029e00cf800a78031e23be0)
  (.lf 0)) (.nd (.lf
  0x7cf01fdb07cfc2122402dc22ab407d201fc107fa807d681fdb07d442125402d022ae422ae41f5407d4c22ab41fdb0806407f6c8b2c22ca007d4c802407f0422ac41f6522c9807d941fc107f5007f048b2e22ca807b6c1ecf22ca00da0436160d8c40d8c4362c0d93822ca0360c0d82c0d830362c0d9300d8b036270d93422ca8360a0d89c0d89c36260d9140d91436790d9410d93836750d9410d94036350d8ec0d84c36400d8500da0836180d85c0d86036190d8500d85000000d8aa0d8a836460d9080d91836730d94d0d84400000d8560d854363d0d9200d8f4367c0d94d0d94c36010d7f80d89836390d9100d86436390d8740d8e4363f0d8f80d80435fa0d87c0d82836330d9200d85836480d91c0d91036760d95d0d93436740d95d0d83400000d8420d8f8367f0d93d0d85c00000d86a0d868364a0d91c0d84036330d90c0d8cc362b0d91c0d91c36700d93d0d93c35fb0d7e80d7e836020d8a40d95c36040d8a40d8a4363b20fdc0d8ec366a0d9600d8fc367d0d9490d92036720d9490d94835ff0d7f80d87436410d9240d90436770d9510d90036780d9790d7f836690d80c0d86c36420d92c0d908367e0d9450d90c367a0d9690d93083f60d969)
  (.lf 0))) (.nd (.nd (.lf
  0x145fc518014629145e4512714498144985190144ac144ac519314608144b05159146081460051821462014604518a146081460851841460d1448c512420b0c144945155146181449c512420b1414490514c144a0144a051921461814614515b14618146185187146251461c518a146201460c515b1462014620518b1463114610512d20afc144b45159146441456c513020b0c144c051631454014628514a144c4144c4515f1452c14564515f14638146245156145781455851471458c1458c5193146341457c51901463414634519a1468d1462c515c1464414570514b1457414574512f144b8144b8518f146381463051551457814554515020b1414540514a145301452851481463c1463c5199146911464051981467d1452c514714648146485196146951457851941463814650519b14675145305149146541465451a01467114668512114518144bc82c020b041466c519c20af81467051a4145181466051481453414658514820b0c14664514820b1014520514620b001451882c120afc20b0401a421f0421f04146b051b0051ac8817207581463851971469914644519e146891464c82be146851469482bf20b1414684512020af81448082c314524)
  (.lf 0)) (.nd (.lf
  0xb0442c1c0b0ec0b0b02c580b0e50b0e42be60af8c0af982bdf0b0100b0982c5d0b10d0b0a42c5f0b06d0af7c2be70b0380af9c2c520b0ec0af882c120b1100b0ec2c3c0b10d0b0bc2c560b10d0b10c2c180b1100b1102c450b11d0b0f02c450b0f80b1142c480b1180b07c2c340b0c80b0c8865e0b06d0b0d02c5a0b0d90b0ac2c5e0b0d90b0a82c5b0b0f50b0cc2c590b0f50b0f42be90b0380b0d82c190b0800b0382c202197c0b0802c4f0b0f80b06c2c480b1000afa42c160b1000b0f82c3f0b1210b0fc2c400b1180af8c2c4e0afa00afa02c510b1000b1002c420b1050b1042c180b1180b1182c490b1290b1282c120b0700b0482c0d219940b0602bed2198c0afb42c210b0340b0342c070b0240b1202c070afb80b01c2c050b1340b1242c190b13c0b0642c080b0680afb82c1d0b0200b0202c040b1400b11c2c130b0700b04c2c040b0840b0842c510b12c0b0682bec0afac0afac2c4d0b1300b1342c570b1890b0242c060b14c0b14c2c5e0b1690b1082bea2197c0afa82c160b13c0b0582c1d0b1300b0742c4e0b12c0b12c2c580b1850b1602bde0b00c0b0702c520b1300b1482c590b16d0b16c2c5d0b0500b1782c140b1880b05086602197c)
  (.lf 0)))

def aesGateTree84 : BTree :=
  .nd (.nd (.nd (.lf
  0x49e81269049ec049ec124d049300493012ad04ab004aa81273049f0049f012b204ab004ab012b504b11049cc126e20974049b81268049a8049a0126604ab404ab412b704b0904ab812b604af504abc12bc04b01049a4126504ac004ac012b404b0d04ac4825604afd04ac812b904aed049a8126704acc04acc12be04ae904b0482582097404b0c82572097404afc123e20958048f8825b0499c04ae0123f04990048fc12650499c0493482582096404af012c02095c04b00126b2096c04ad412c40499404b10825a2096004af8127504b0804aec12bd049d4049d482582095c04ae412ba2095804ae812c20499004af4126b0499404b08825d2096804ad81266049ac049ac825c209580499c825c2096804ad012662096c04adc1266209700499812642096004994825d2096c0499082592095c21ff80000048f2048e811cd04730047300000047420474011f704808047dc1236048352200011c7047180471c11e6048180472411ca04784048ec11d1047ac048f011d3047480474c11d40473c048f411d7047580475c11d4047d00475011f304760047ac11e6048200479811e20481c0478811e1047fc0478411f3047f8047cc11f9047e0047e0123904825)
  (.lf
  0x236cc2ce50b3900b3946b45238fc0b4806b452014c0b6748e3520118238d400001ad161ad146ad71ab581ab5800001ab6a1ad1c6add1ab701ab746ade1ab641ab686b021ac341ab4c6ad41abac1ab5c6ad41ac101ab506afe1ab601ab606b051ab641ab6400001abbe1abbc6b0b1ac1c1ac086b411ac611ac2c6b381ac611ac606ac61ab0c240b8040821cf421cf40b3d02d68240ac040b21ce82409c040f21cd821cd8000002eda02ed80b4f02d38240a0040e21cdc21cdc000002ed602ed40b4b02d2802d2c0b4c02d1c240b4040921cf021cf0000002ed202ed00b4902d90240a8040c21ce421ce40b3f02cf802cfc0b5f02dfc21ce80b6402d7802d900b5f02e0402d7c0b5a02e00240b0040a21cec21cec000002ece02ecc0b4502d1002d3c0b4c02db402d300b6c02d40240a4040d21ce021ce00b4102d0002d040b4202d6402d140b4202dc802d680b5902de002d640b6c02ddc02db00b7202dc402dc80bb002e1502cf40b6602dec02d240b7b02de802d10000002d2202d200b7002dec02dec0ba502e1502e140b3202cc402cc80b2f21af402d00000002d0e02d0c0b6602dd802d980b5e02de802d780b7e02df402cf80b7d02df002d28000002d36))
  (.nd (.lf
  0x1051c4154105611040440fd1052010520414c1056d10450414a105101052841511054d1040840ff1052c1052c4156105491056c836f20dd41054040d7103f010558410d105681054c41551043410434837020dbc10544415220db810548415a103f010550415820dbc1053840fe1040c1053040fe20dcc1053c40fe20dd0103f840fc20dc0103f0837120dbc20dbc03f622404224041a01068242294c000016b8e16b885a75169d0169d00000169e2169e05a9f16aa816a7c5ade16ad506ac88a4722944229445a6f169b8169bc5a8e16ab8169c45a7216a2406d8c5ae306f7c06c108a4a16b8c16b8c5a7916a4c16b905a7b169e8169ec5a7c169dc16b945a7f169f8169fc5a7c16a70169f05a9b16a0016a4c5a8e16ac016a385a8a16abc16a285a8916a9c16a245a9b16a9816a6c5aa116a8016a805ae116ac5169d45a7216a8416a845adf16ad1169c85a9c169d8169d85aa2169dc16a885ada16b0116a005aa316aac16a8c5ad916ad9169dc000016a36169f85aa416ab416a345aa816a9016a905ae016acd16a945adc16af116a985ad816ae516a9c5adb16ac916aa05ad516ad5169e45aaa16aa4169e80000169f6169f45aac16aa416aa45ad216ac5)
  (.lf 0))) (.nd (.nd (.lf
  0x118404410138401104042101304011ac044b013ac0112c042b0132c0108404010128401004048123ed4010880000018d2018d0063001288010080000018c2018c0048223ed0010ac040b012ac010180000018ce018cc048623ec00101c048723ebc0102c048b23eac0c06804e401398013900000018b60c19830730c1dd0c1cc307701398013980000018ba0c1dc3021013880c08404e10139c0139c0000018be23ed000000bfc223ed400000bfc623ec000000bfca23ebc00000bfce0bfc02f820be040be0400000be160be142fad0bee00beb42fec0bf0d23ed82f7a0be5c23ec82f7c0bdec0bdf02f9b0bef023ec42f7e0bdf40bdf82f7f0be580bfc42f860be800bfc82f880be1c0be202f890be100bfcc2f8c0be2c0be302f890bea40be242fa80be3423ecc2fa00beb00be802f9b0bef80be6c2f970bef40be5c2f960bed40be582fa80bed00bea02faf0beb80beb82fef0befd0be082f7f0bebc0bebc2fed0bf090bdfc2fa90be0c0be0c2fb00be100bec02fe80bf390be342fb10bee40bec42fe70bf110be1000000be6a0be2c2fb20beec0be682fb60bec80bec82fee0bf050bdf400000be020be002fa20becc0becc2fea0bf290bed02fe60bf1d)
  (.lf 0)) (.nd (.lf
  0x1d7b876031d8041d80485061d83d1d80876291d8311d80c762a1d8151d81075b01d6bc1d81875b21d7841d82075b61d6cc1d6d875af1d7501d6bc75b71d7781d6dc76221d8281d82475e31d7841d78475eb1d8281d828760b1d84d1d83075b91d7781d77875ef2141c1d81475e91d7bc1d7bc761f1d8341d82c76151d8341d834760e1d8611d81c75b41d6cc1d6cc761e1d6e01d6e076211d8401d6e475e61d8401d83876101d8581d83c76181d8401d84076121d8451d6c075b12142c1d6c875e21d8501d6d075b1214341d6c475d91d6d41d6d476201d8501d84c75e81d8501d85076151d85d1d85476181d8581d84475e81d8581d85876191d8691d84875ba2141c1d6e875e61d87c1d7a075bd2142c1d6f475f01d7741d86075d71d6f81d6f875ec1d7601d79875ec1d8701d85c75e31d7ac1d78c75d41d7c01d7c076211d86c1d7b0761e1d86c1d86c76281d8c51d86475e91d87c1d7a475d81d7a81d7a875bc1d6ec1d6ec761d1d8701d86875e21d7ac1d78875dd214341d77475d71d7641d75c75d51d8741d87476271d8c91d87876261d8b51d87c762c1d8c11d88485061d8bd1d7ac76221d8701d88876291d8ad1d8bc75ad214181d6b4850b1d758)
  (.lf 0)))

def aesGateTree85 : BTree :=
  .nd (.nd (.nd (.lf
  0xc97832640ca4c0ca38325b0c98c0c96c324b0c9a00c9a032980ca480c99032950ca480ca48329f0caa10ca4032610ca580c984324f0c9880c98832330c8c80c8c832940ca4c0ca44325a0c98c0c98c32990ca4c0ca4c329c0caad0c968325400da00c950324e0c9400c938324c0ca500ca50329e0caa50ca60036f0ca990ca6432a00ca890c940324d0ca680ca6832a50ca850ca98322400dbc0c890036a0c9340ca7c32250c9280c894324b0c9340ca7032ab0c92c0caac036b00db40ca8032a100dbc0ca8432a90c9280ca94325c0caa40caa4036800dac0c934036900dac00dac034b00fac00d2c032b00f2c00cac030b00eac00fac03cb005ac00f2c03ab0052c00c2c038b23bac00eac038b004ac00e2c010b23b2c23b2c3ee21fe740ca8832a40c9700ca54329d0ca910ca9032510c92c0ca74324c0c9440c93c324b0ca5c0ca78324c00da40ca5c329b0caa90caa0036d00da00c8cc036d00db00c970036d00db80ca6c324c00da80c930324a00db400db4034d00fb400d34032d00f3400cb4030d00eb400c34038d23ba41534854da15385152345489153501535054d81539d1539403ed00fa0151c403ed00fb01537c54e1152641526403ed00fb8)
  (.lf 0)) (.nd (.lf
  0x1df50777e2132c1df3c77d11de201df44777e1dde01df2877791ddf81ddf884cc213181df2c7779213301dcd0773d1dd311dcdc77441dd211dce484d61dd1d1dd1c76c5213581db1484db1dbb81db1876ec1dbb81dd1077482135c1dd2076f22136c1dd0c77451dbf01dd1476f21dbb01dcf4774c1dbb01dbb084dd2136c1c0b06fd62134c1c0a46fd61bf401bf5884d4213381bf4084d52134c21330029922bc02136c028a22bfc2134c029222bdc22bfc1fa007e7c07e7c8b4d07f8422bc01fb72026c07edc1fd507f8422bdc1fac2008807eb01fe10800007f848153201c022c1c1f92201c021350029122be022be0000007e9e07e9c1fa907ea007ea480700dc34201c000000dc321ddf077781df101df1077c81df5d1df5c84c7213341de2084c82131c1df2077792132c1dde47777213201dddc84c92131c2131c029e22bac22bac1fdc0805c0805c1ed307b4821338029722bc81eb1884e4213781dbc884dc2135821378028722c0821358028f22be822c081f9b2007407e6c1fbe07ff407ec81fdc07ff422be81fa52053807e941fcd07ff407ff48095201a807b48806a07f2822bc81fb4201a8201a800000dc3e1ec7484e0213941ec8084e221380)
  (.lf 0))) (.nd (.nd (.lf
  0x1075441dc1077910788416120bb81077c41e320bbc1078c418e20bcc1077841e01066010780418e10620107644189106381063882f420bb81077041dd20bb820bb80177220dc220dc160c2001c0583016c505c1005c1080e82037013b7082e613ba913ba84e6920b9813bac4e9620bac13a5882ec20b9820b98017f220bc220bc16bd203a010ff8440b1103d1104882ff20c1411028440c10f1010f10830020bfc1102c440f20bfc20bfc0166221202212016ee05c2405c2415f6057d4057d480e805b10203a00000148d611040830020c1420c00016522124221241676059d4059d815c42039c05a0480e7059900ed283b570ed810ec643b080ec680ec683aec0ebac0ebac3b4c0ed2c0ec483b0d20bf40ec343b070ec240ec1c3b050ed300ed303b560ed850ec203b040ed3c0ed3c3b530ed890ec243b060ed480ed483b5d0ed650ed8882f720bf40ed5c3ade0ec0c0ed743b140ed840ec5082f820bdc0ed643b610ec0c0ed4c3b0520bec0ed583b0520bf00ec143b0320be00ec0c82f920bdc20bdc016e2210022100000005a1a139e082e820ba413bbc82ea20ba020ba0017d220c4220c41670222f8059c016ec05c0c05a18168805a1c05a1c16ed05c0c)
  (.lf 0)) (.nd (.lf
  0x18ad062b018bf018bf0630018c3d18c0062b1217cc194ac6538194f1194e0653c217dc18b1c62fe18be0217b00579233ac233ac000009c561949064e3193281932864f8193901939064e0194b018bec630818c3118c20630c217bc18bf8630518c1d18c1c630918b0018be8630218c2518b18629818a5c18a5c62f918be018be0630118c4118c04631018ac018c2462b618ac018ac085f5217cc18c3062b6217cc217cc0572233c8233c8277320610193bc64e0193f0193f0652d1949c194dc6539193c0193e0652a1949c1949c6534194f5194d064ba1937c192e864e019388194a86532194e5194e464e6193801938085fd217ec194b485f6194ed194ec64b9217d8192e485fb1938818acc62b118be418be4630318c3918c0c62b1217d018c0862b118ad818ad885f4217b8217d00571233cc233cc2772205f409dc827d809f80194f064e6217ec194b06530194fd194c064e1217ec217ec056a233e81990c665019951199406654217fc1995065fe2180c1991485fe1994d1994c65d1217f8197448603197e82180c056223408234082758200e4233e8276509d9009d90814209f8009d6027df09f8009f808d6c2061009c54271709c5809c58818409f60)
  (.lf 0)))

def aesGateTree86 : BTree :=
  .nd (.nd (.nd (.lf
  0x1fe2012050481005104880d1f9942203411601fe1c20aa401bc21ea421ea4138b04d8804d8814910524805248881a0524c0524c000004eae0523c881b04eac04eac881d2203805244880b052402202c113e044f4044f4000004502045001162045c822038113a0455c044e81162045dc045887f87045d81fe1c117a045e42207010d51fe182206810b3042c8042c80000042d62207410af04330042bc10d7043b0042d410d70439c0435c7f86043ac1fe1810ef043b804d6014a9052a8052a487ec21fd805004000004ffe04ffc137804ddc04ddc87ec21fa021fb0104a1fe14209c401f421dc421dc4137804da404da41480052040520087ea21f9821fa810280409c0409c0000040aa0520487e704eb804fe887f904d5404f9487e804d54040a8104c0417004d54000004eba04eb887ef21fa40515c87ef039b421fbc10240410404090104c04184041307f85041801fe1410640418c21ff00fbf1fe100529087fa0528c21fe80f9d03e7003e70000003e7e03e7c0fc103f4421ff40f9903ed803e640fc103f5803f047f8403f541fe100fd903f60052a887e704e9c209a401fc21da421da41410050440504087eb0503c05044140e04de00503c000004e9e)
  (.lf
  0x1fb907ee521b381fb947eed1fa3c1fa3c86d121b3c1f9e086d021b4421b440494238641fb5c7ee01fbbd1fb807eef1fa401fbbc86d221b401fb687ee71fbad1fb9c7eeb21b3c1fba47ea01fbb41fb987ee81fa801fa8086d021b3c21b3c04962385c2385c00000b5561fbb486d521b4821b48049323868238682d730b6ac0b6ac2c9e0b2740b2748e67207900b5542d570b5580b55c803d20790238642d520b5440b5488e70207902079000000b58e24054042121d1021d100000031022404c042321d0821d080bf002fa8031000bd502fc002fc00beb030342403c042721cf821cf800000310a031080bdb02f6802f680c010302824050042221d0c21d0c0000030fe24048042421d0421d040bcb02f2802f2c0beb0302c02fac0be60303024058042021d1421d140bc902f9824044042521d0021d000bcd02f3002f340bce02f9402f980be50301002f940bf80300c24040042621cfc21cfc000003106031040bd702f5802f5c0bd802f4c02f6c0bd802fe402f600bf802f7002fe00bfe02ff402ff40c3e03039030fc0bd102f4002f40000002f5202f440bce02ff802f380bf902f4802f30000002f3e02f3c0bf20300802f240bf20301c02fc80bea03018))
  (.nd (.lf
  0x728c8430210c4210c4033422830228301b0b06c2806c2c8a672074406c248a6820744074181d130745d07468842f210d40744c1d17210bc074481d140732c0732c8430210bc210bc03362282822828000006c3606c341b0f06c3806c3c80f020744076988437210f4076141d2d210dc074b41d5907648075641d5f0763c0757c1d9107638076281d5607578075581d470758c0758c1d9407638076381d9b07691075781d950763c0763c1d980769d076441d9907681076541d9c076790766c1d2107518074841d4707524076908438210f4075301d4907658076581da107675076701d9d210d8076741da507518076841d5707694076601da70751c076781da00755c07694843d210e8076801d4d0751c0751c843d210ec210f4032822860228601af906be006be08a782074420744000006eae0da4c83e820fa40d9bc362020fec0daf083e820f9c0dc2c83ea20fa00d9c8362020ff00d9c436200d8940d880361e20fe00d87883f920fdc0d8c083f820fdc0d9a836770d9ed0d9dc367b20fdc20fdc036e2274822748000006dba06db81b7006dbc06dbc1bd506fac0dbd837030dc1d0dc0c370720f9c0dbf836ac20fb00dbec36ac20fac0dbf436ac0dac4)
  (.lf 0))) (.nd (.nd (.lf
  0x5538156d05638055b415690563c222e815500553c055401551055a005714155e055740555015510560405578155b055ec0556c157a0557c222f4154c055a4055a415680561c055a0157a05618055e81581056000560415bf0565105544157b0555405554158205558055580000055b2055b0158805610055741584056340561015c00564d0561815b8056650553015740562805560158a056240562815b4056510553c00000554a05548157405614055d0157e05624055f8158d056300563415b10564d055ec1590056380563882d6056710563c15b6056650564015b7056490565015410550005504153e20b740562015b505655056541543055000550015ab0551405534158c0562c0564c153f055b80556400000557205570158c056240563015bd056590557c15830562c0560c15b905659056581570055b8055b815780565c0560015c1056450562415b20564505644153d054f0054f4153e20b6c054f81566055080550c153c05584054f01544055ac0551015af0565c0565c1598056810562c15b3056810560815ba056810550815ad05684054fc156f05684056801575056840568415a2056910566015a2056680568815a50568c0551415ae05674)
  (.lf 0)) (.nd (.lf
  0x1c6f071c51c7511c74485c8217341c57085c8217241c71471d41c5d01c75085ca2172021720059d231f8231f823e508f9008f948cd9205202052000001a22e0988026460992009a4c85d609a8509a84261f217580987c85db099200992085dc2176809a88264c2176c09a7c264c099180993085dc21758217700589232482324824832051c1b1606c022174c1b1546c021aff01b00885d421738217500591232282322800000923209230248e0923409234816a092e81c53871741c5d81c734717a1c5d01c74885cd217281c5d085cd2172c2173405982320c2320c249b092681c70485c61c73d1c73c714d217181c53485cb1c5d81c740717a2172c1c5e885cc217181c5d885cc217282173005992320819b8c85df2179419b60665e19a0c19978668419a1819b6866e219a0c19b8885e52178819a1085e52178c2179405802326c2326c247523380091d424a4092e80926881470940c23208249c205ac0927024ba09318092e881472062c2051c00001a22a09a38269709a9909a5c26a6099180991885dd2176c2176c058a23244232442485092101aff085d52174c2174c059223224232242491206280924424c6093942172c059a2320423204249e09274)
  (.lf 0)))

def aesGateTree87 : BTree :=
  .nd (.nd (.nd (.lf
  0x14b50531214c4414c44533914c9914c48534314c7114c4c533714c6514c08531614c5014c5005ff14c8914c54533c14c7d14c58533d14c6114c5c52c414b0c14c6452c614bd414c6c52ca14b1c14b2852c314ba014b0c52cb14bc814b2c533514c7414c7052f714bd414bd452ff14c7414c74531e14c9914c7c52cd14bc814bc85303017f814c6052fd14c0c14c0c533214c8014c78532814c8014c80532114cad14c6852c814b1c14b1c533114b3014b30533414c8c14b3452fa14c8c14c84532314ca414c88532b14c8c14c8c532514c9114b1052c5017e814b1852f614c9c14b2052c5017e014b1452ed14b2414b24533314c9c14c9852fc14c9c14c9c532814ca914ca0532b14ca414c9052fc14ca414ca4532c14cb514c9452ce017f814b3852fa14cc814bf052d1017e814b44530414bc414cac52eb14b4814b48530014bb014be8530014cbc14ca852f714bfc14bdc52e814c1014c10533414cb814c00533114cb814cb8533b14d1114cb052fd14cc814bf452ec14bf814bf852d014b3c14b3c533014cbc14cb452f614bfc14bfc533514cbc14cbc533814d1d14bd852f1017e014bc452eb14bb414bac52e914cc014cc0533a14d1514cd005ff14d09)
  (.lf 0)) (.nd (.lf
  0x88bc70be200b41c2f870531c1b41c2fc70551c1501c15470561c1441c30070591c1601c16470561c1d81c15870751c168213cc027222d8022d80228b206bc08a2c22f408bf008bf08bd922f5422f64706d1c1e41c1b470681c22c1c1a070641c2281c19070631c2081c18c70751c2041c1d4707c1c1ec1c1ec70bc1c2311c13c704c1c1f01c1f070ba1c23d1c13070761c1401c140707d1c1441c1f470b51c26d1c168707e1c2181c1f870b41c2451c14400001c19e1c160707f1c2201c19c70831c1fc1c1fc70bb1c2391c12800001c1361c134706f1c2001c20070b71c25d1c20470b31c2511c20870b61c2351c20c70b01c2411c11c706f1c2141c14c70851c2101c15000001c15e1c15c70871c2101c1bc70791c2101c21070ad1c2311c21470af1c23d1c12070871c2181c21870ae1c26d1c1e470881c21c1c21c70b81c2451c22070ac1c2391c1d8708b1c2241c22484ae1c25d1c22870b11c2511c22c70b21c2351c23070381c0dc1c238703a1c1a41c240703e1c0ec1c0f870371c1701c0dc703f1c1981c0fc70aa1c2481c244706b1c1a41c1a470731c2481c24870931c26d1c25070411c1981c1987077212bc1c23470711c1dc1c1dc70a71c254)
  (.lf 0))) (.nd (.nd (.lf
  0x101dc4074103001030040cb1031d1034083af20ed410314404c101c41032c40821033c1020883b020ebc1031c40cf101c410304407320ecc10310407320ed0101cc407120ec0101c483b120ebc20f0003a522548225481909226a020ea003bd224e820ebc03b622504224e81934064cc064cc800d064d422504000006492064901926064940649419f4068000642419f4067e0067d0800d20338200340000060de0c41483c520f08130f483ab13198130f84c64131981319883ac20ea80c40030ad0c29c0c20430a70c2a40c29c83c520f0c1012c83b3101d0101304072101d0101d083b420ec820f1403a02255c2255c1900226ac20eb003b9224f820ed003b122518224f80000064aa064a8192c064ac064ac800b0673022518191d203240647419cc067880640019c10673006730800c203341330483ad20ea81319083ad20eac0dc4083bb0dce40dc4437370dce40dce483bc20ee820ef003a922538225381912064440644400000644e0644c800c0676c20eb403b8224fc224fc1929064a0064a0800c066f8200300000060da0c3d083be0c4090c408308020ef80c20083c30c2a40c2a483c420f080c40c30ad20f0c0c2b483c420ef820f1003a122558)
  (.lf 0)) (.nd (.lf
  0x1b56c6d681b5c51b5a06cee1b44c1af388615218481af408612218402184805532344423444273f09cf809cf827bd09d041b5646d291b57c1b4a46d181b4a81b4606d141b5801b5806d641b5cd1b5906d15215cc2188405442348023480272b09ca809cac8d8309ea009ca827c709f240a470860a218200a4648608218340a2908608218241af348610218542184005552343c2343c2744235e409d1027c709f4021820055d2341c2341c275309d4809d48813f09f1c09f1c8d86236081b4ac6d621b5701b4a86cfc1b3ec1b3ec6d5d1b5701b5706d651b5d11b5746d671b5c91b59c6d15215d02185405502345023450273b09ce809ce8815f09ea021864054c234602346027c909fec09fec26c009afc09b008d7e2360821824055c2342009c8c27c209c982342027c20a00009f088d872360c0a468860d2182821828055b234242342427bd09ffc09c8827bd09f0409ef48d882361021858054f234542345427392050009ce427b009f442183405582343023430274d236041b5886d691b5ad1b5ac6d6d1b4901b4646d161b58c1b58c6d6e1b5a91b5b86d241b5c81b4908570215bc1b3b86d141b4581b5a46d6a215b81b5a86d721b44c1b57c6d6c1b5c1)
  (.lf 0)))

def aesGateTree88 : BTree :=
  .nd (.nd (.nd (.lf
  0x410c1054208bc041a4104e04150041501083041c4041bc1079041c4041c41072041f1041ac10190406004060108204074040741085041d004078104b041d0041c81074041e8041cc107c041d0041d01076041d5040541016208cc0405c1047041e0040641016208d404058103e04068040681084041e0041dc104d041e0041e01079041ed041e4107c041e8041d4104d041e8041e8107d041f9041d8101f208bc0407c104b0420c041341022208cc04088105504108041f0103c0408c0408c1051040f40412c105104200041ec10480414004120103904154041541085041fc041441082041fc041fc108c04255041f4104e0420c04138103d0413c0413c10210408004080108104200041f810470414004140108604200042001089042610411c1042208d404108103c040f8040f0103a0420404204108b0425904208108a042450420c109004251040f41039042100421010880425d04214822e0424d04218108d0423d040f8103b0421c0421c109204239042548230208d40425c822f208d40424c1012208b8040488233040ec042301013040e00404c1039040ec040848230208c4042401094208bc04250103f208cc042241098040e4042608232208c0)
  (.lf
  0x248c869521a4c02600869021a5402608868f21a5421a5404d023774237742cf80b3dc024d0869021a3c21a3c04d62375c2375c00000b40a0b4082d040b40c0b410804c0b3f40288c86a021a84028f00a3a21a80028e886a121a7c21a8404c4237a4237a42ce80b39c0b39c2d840b6180b1d88e43239240b6188e482390c0b4008e430b3f42390c2a4d0a93021a5804cf23778237782cf6201240b3d82d6d0b6380b38c00000b60a022a0868821a1c21a1c04de2373c2373c2d870b6f80b6f82c700b1bc0b1bc80490b1c421a1804df23738237382d11204900b4442d6f0b62c0b6f42c730b1c80b1c88e4f0b1c40b1c400000b5be0b5bc8e52239140b1c0804d18a1c21a4004d5237600293086a021a7c21a7c04c62379c2379c2ceb0b3a8026fc869821a5c21a5c04ce2377c237602d01239080b4042d840b6342377c2d8d0b6e40b3a82d8b0b6340b6348e46201300b43080522013821a6c04ca2378c2378c2cf10b3c00b3c000000b3ca0b3c8804e0b5f821a4c04d22376c0b5f88122201482376c2cfa201482014800000ab0621a2004dd23740237402d100b43c0b440804c2391c2013000000ab0e21a8004c5237a0237a02ce92392c0b3a42d870b624))
  (.nd (.lf
  0x20f28039b225702257019ba066e420f5403902259c2259c19a4226d0066e889b7067201429083e020f841446c83e220f80066ac0000066b612f0483d820f64130e083da20f60066b419d60679020f800385225c820f60038d225a8225a819a206684225c81995226e40665419da067900668489bd067900679089b5226c00685018d5063500635089b00672020f18039f225602256018ff202d0063fc19c8067b80672089c0226d0226d04e7b13a60139ec4ea313ae0226c04e7f139f8139f8000013a0613a044ea313acc13a8c7fba13adc12f6c83dc20f6820f68038b225b0225b019a00667c0667c19d0067f8142f883e420f8820f880383225d0225d019fe06810067f889b7226c81545083cd20f2c20f2c039a225742257419b7066d8066dc18fa226fc063e418fa226d8063e80000226ca226c84ea11fee81fee84ebb13ae81352c837820df413530837d20de820df403e82243c20df803e72244022440197620204065d819c2067ac0e4d4836d20da820da803fb223f0223f019f606864066ec19ca067ac0686418c9063200632089790672820da403fc223ec223ec19610658006584897d065880658800000672a06728898b225ec20e0403e42244c)
  (.lf 0))) (.nd (.nd (.lf
  0xf4403d0d013c00f4343d350f4440f4443d7b0f5bc0f5b83d440f5bc0f5bc3d700f5c90f5c03d730f5c40f5b03d440f5c40f5c43d740f5d50f5b43d16013d80f4583d420f5e80f5103d19013c80f4643d4c0f4e40f5cc3d330f4680f4683d480f4d00f5083d480f5dc0f5c83d3f0f51c0f4fc3d300f5300f5303d7c0f5d80f5203d790f5d80f5d83d830f6310f5d03d450f5e80f5143d340f5180f5183d180f45c0f45c3d780f5dc0f5d43d3e0f51c0f51c3d7d0f5dc0f5dc3d800f63d0f4f83d39013c00f4e43d330f4d40f4cc3d310f5e00f5e03d820f6350f5e43d810f6210f4d03d300f5ec0f5ec3d7f0f6390f5f43d840f6190f4d43d320f5f80f5f83d890f6150f63004f5013c00f63804f6013c00f60c3d0a0f4bc0f4283d300f4c80f6103d85013dc0f6143d8d0f4bc0f6183d880f5000f6203d360f4c00f6243d400f6340f63404f0013cc0f6003d8f0f4c00f4c004f0013c8013c004d0015c00134004b0015400123c050f23e1c012c00490014c001240051023e1801224050923e3423e300000114aa23e340000114ae23e200000114b223e1c0000114b6114a844bd112f0112f00000113021130044e7113c81139c4526113f523e2844b7112d8)
  (.lf 0)) (.nd (.lf
  0x8c048bfc206741d254852b1d2f81d2f8852c214a8214a8023b22e5c22e5c22df08c402150c022222ec022ec02202206ac0880822df08b901d024853b1d0c8214ec022a22ea022ea02215088500885081bf08b901d0c8853c214e8214f0022922ea422ea4221208844088482132206ac214ac023a22e6022e602231088c0088c48bfa084c81ba206e32214cc1ba146e321b8b01b8c88534214b8214d0023122e8422e84221d206900887422ce08b9008b908c002068c230000000084ca084c820c40830c0831020c1083c40888422e8088601d240853a214e0214e0022d22e9422e94221708858088588c070886008860000008bea08c3821e60879422e542234088cc088d0819d0879c0879821e72300c0879c000022ff608be88bfd22fe022ff420c0082fc0830020c1083600830420eb08314084d420ce083340833820cb083ac083ac2100083f821504022422eb822eb82207088180881822f2088201d2ec85292149c214e8022b22e9c22e9c22eb08c3408c3421ea087a4087a821e023010214a4023c22e5822e5822e808c4408c4421df087780877c8bf80878008780000022ffa0887c22df0882008820000008bce08bcc8bfe22fe422ff820be082f4)
  (.lf 0)))

def aesGateTree89 : BTree :=
  .nd (.nd (.nd (.lf
  0xfc1c3f110fc240fc243f0a0fc510fc0c3eb10fac00fac03f1a0fad40fad43f1d0fc300fad83ee30fc300fc283f0c0fc480fc2c3f140fc300fc303f0e0fc350fab43eae005c80fabc3edf0fc400fac43eae005c00fab83ed60fac80fac83f1c0fc400fc3c3ee50fc400fc403f110fc4d0fc443f140fc480fc343ee50fc480fc483f150fc590fc383eb7005d80fadc3ee30fc6c0fb943eba005c80fae83eed0fb680fc503ed40faec0faec3ee90fb540fb8c3ee90fc600fc4c3ee00fba00fb803ed10fbb40fbb43f1d0fc5c0fba43f1a0fc5c0fc5c3f240fcb50fc543ee60fc6c0fb983ed50fb9c0fb9c3eb90fae00fae03f190fc600fc583edf0fba00fba03f1e0fc600fc603f210fcc10fb7c3eda005c00fb683ed40fb580fb503ed20fc640fc643f230fcb90fc683f220fca50fc6c3f280fcb10fb543ed10fc700fc703f200fcbd0fc7401770fcad0fc783f250fc9d0fb583ed30fc7c0fc7c3f2a0fc990fcb40175005c00fcbc0176005c00fcac3eaa005dc0faa801720fb4c0fc903eab0fb400faac3ed10fb4c0fae40175005d00fca03f2c005d80fcb03ed7005c80fc843f300fb440fcc00173005d40fca83ee10fcb80fc9c3f290fb840fb840175005d8)
  (.lf 0)) (.nd (.lf
  0x825820a5081140824420950829108114846d211ac082542046211ac211ac02fa22a3c22a3c1f4107d0007d041d1c22c6c1e6408478211e41e820847a211e01e7e079a9211ec1e6a479a7211e01e69c8479211dc0868c216b085d0085ac2166212140859821600858808588215f086b0086b021b7086cd086dc216d086ec086a021b5086e5086d421b9211fc085bc217508694085d421a708690086b4215e2120c085d021ab0869408580215e086980869021b1086e9086c4213708570084dc215d0857c0857c848421208086e421632120c085cc2145085100851021a6086940869421ae086f5086b821bd08574086f4848221200086ac21b2086d1086c821b3211f8086cc21bb085700869821b0086ed086ec848521208086d021b6085b40869c21af086d9086d82163085740857484852120c211e802eb22a7822a781ffc08030080301eee07bb408250209f0826d0827c20550828c08268209b211980826c20a3081100828c846d211a808294846a211a0211a802fb22a3807e301ff807e3822a381ff80806c2120c02e222a9c22a9c1f702046407dc01ff807fe407fe08b1b22c5c084b420d7211cc084a820d7083440835c8474211b8211d002f122a60)
  (.lf 0))) (.nd (.nd (.lf
  0x146e4521a148641485c51e0147a41478051db20a141476c51d51475c1475451d314868148685224148bd1486c5223148a91475851d214874148745221148c1147a4521f148641487c5226148a11475c51d41488014880522b1489d1489451ac14744146e8828020a04148985227209f81489c522f147441488c51d3147601488451d320a0c1489051d320a101474c51d120a00147448281209fc20a0401e421e0421e04136e04dac04dac147c051f4051f487f520754148645222148c514878827e148b1148b051ab209f8146ac828314750146b051d21475014888523114748148c4828220a00148ac51e2148bc148bc828520a0814750828420a0820a0801e321e0821e081400050040500087f32075420754000004ebe0588888d620730058a080f4207300589088d52073020730000005b0e05ad4810c05c8405aa080bb05b5405b54810c2035820430000016fe605ae0810b05ae82042c000016fe20575480b52041805bc081062036020418000016fee05b7081052035c0580088ec2041405c7415c70571805718810505b3420414000016fea05c0488d8203d0058d880f4057ac203d000001580605b7488dd203cc058ac80f322378203cc000015802)
  (.lf 0)) (.nd (.lf
  0x929c8cb8232cc1725c8598216641743c859a216602166005cd23138231382436090d4090d48cbd090dc0910024c0090dc090dc00000932a090ac24c809328093288cb5232c01cb6c72e61cb891cba48588216341cbac8587216341cb8872ea1ca2c1cb98729c1cba81cba8858d216282163405d82310c2168805c323160231602423090880908824c0090941c9d08588216241ca34728b216201ca2c85892161c2162405dc230fc230fc24c0093f8093f823b508ed02166805cb231402314024c3093e0093e023c208f0408ed48cb008ed808f0823b6232e808ed80000232da2166405cc2313c2313c24c7093e419c3c85a12167c2168405c42315c090f424bb090fc2315c242a090a4090fc00000931e090a424c50931c0931c8cb6232c41cbb0858a216201ca7085882161c2162005dd230f8093e423c008efc08ef48031092b82167c05c6231542161c05de230f4230f424c8093fc23154242d090b0230f8245109140091448190232d4090d86e0320670090cc8cb7090902164005d523118231182442232c00910824c509338090b024cc09338093388cb4206400909400000930e08efc8cbe092b808f048cbf08f0c2162805db231002310024bb093f4)
  (.lf 0)))

def aesGateTree90 : BTree :=
  .nd (.nd (.nd (.lf
  0x164e0593c007d8164f058e7007c8164dc5939163c4164e458e716384164c45940163841638401f0007c8164c058e2007c8007c801d2000340074801b2000b4006c801920013400648006d23a1023a100000187e6163bc58ea007c0163a858e4163981639058e2164a4164a45933164f9164c858e21639c1639c01f1007dc1639858e3164bc1638c01f1007cc164cc58e2007c4007c401d1000380074401b1000b8006c401910013800644006e23a1423a140000187ea164bc593a164d9164fc01f6007c0164e858f1164f8163c401f5007d8164d45936007dc164d8593e163801638858e0007d41638001f4007d8007d801d6000240075801b6000a4006d801960012400658006923a0023a000000187ee007dc01d7000200075c01b7000a0006dc0197001200065c0068239fc239fc0000187f2187e4618b186281862800001863a1863861b618704186d861f518731164f401f5007c0164f801f0007cc007c001d00003c0074001b0000bc006c001900013c00640006f23a1823a186183186801632401f5007d0007d001d40002c0075001b4000ac006d001940012c00650006b23a0823a086185186101861461a4187141650001f3007d4007d401d500028)
  (.lf
  0x31e00c8203280031340cb803280032800ca1032a5032840cab0328c0328c0ca4032b9032900ca6032b023f28046c21d6421d647d671f59823f34046921d7021d7000001f76e1f76c7d711f62c1f59c7d861f69823f30046a21d6c21d6c00001f76a1f7687d6d1f5b01f5b47d6a1f66423f20046e21d5c21d5c00001f7721f7707d731f5c823f24046d21d6021d607d691f5a01f5a47d6a1f6041f5a87d941f5b81f5b87d9a1f5bc1f5cc7d741f5bc1f5bc00001f6161f5b000001f5c21f5c07d971f6881f6147da01f6701f6807dcd1f6b51f65c7dd61f6b51f6b47d5c1f5641f5707d551f5e81f5c800001f5d61f5d47da41f68423f2c046b21d6821d687d8b1ff6023f1c046f21d5821d5800001f7761f7747d771f5d81f5dc7d741f65023f38046821d741f62c7d861f6a021d747d651f6081f6187d821f69c1f6087d811f67c1f6047d931f6781f5d07d931f5e01f5a000001f5ae1f5ac7d8d1f6741f64c7d991f6601f6607dd91f6a51f5947d8d1f6881f6347fd81f6841f5c47da21f6841f6847dca1f6a51f6a47d561f5541f5547d5d1f6101f69c7dce1f6c51f6787dd01f6c51f6c47d5f1f6101f6107d9521b5c1f67c7dd31f6a91f6507da81f698))
  (.nd (.lf
  0xd73035cd0d75d0d73435cf0d7540d5e035a60d73c0d73c35d10d7410d74035a80d7540d6a0357c2106c0d5f035b00d6700d6c035e00d7680d78084160d7b90d7b8356c210580d5b0841b0d65422c304b5f1fed022c344b3912d5812ce44b6112dd822c284b3d12cf012cf0000012cfe12cfc4b6112dc412d847fb412dd41fed04b7912de022cb4433a1fe9422cb8431410cc410c50433c10d4422cac431810c5c10c5c000010c6a10c68433c10d3010cf07fa510d401fe94435410d4c0d75035d70d7540d75435d80d7650d74435792105c0d5e435a60d7780d76035a90d7780d77835eb0d7bd0d7ac35ef2105c0d7bc35992106c22d243ff81fe7c07b1c8b4722d2022d1c3fd60ff540ff5400000ff620ff603ffa1002822d283fd20ffbc0ff483ffa1003c0ffe87f9f100381fe7c40121004410e24431c10c6c10c6c000010c7e10c7c434610d4410d18438510d7122cb0431610c5410c58433510d5410c60431910cc010e28432010ce810e2c432210c8410c88432310c7810e30432610c9410c98432310d0c10c8c434210c9c10ce8433510d5c10cd4433110d5810cc4433010d3810cc0434210d3410d08434810d1c10d1c438810d6110c70431910d20)
  (.lf 0))) (.nd (.nd (.lf
  0x120d4485d12129120d8486712101120dc485b120f512098483a120e0120e0828e12119120e448601210d120e84861120f1120ec47e811f9c120f447ea12064120fc47ee11fac11fb847e71203011f9c47ef1205811fbc48591210412100481b1206412064482312104121044842121291210c47f11205812058482720a3c120f048211209c1209c48561211012108484c121101211048451213d120f847ec11fac11fac485511fc011fc048581211c11fc4481e1211c1211448471213412118484f1211c1211c48491212111fa047e920a4c11fa8481a1212c11fb047e920a5411fa4481111fb411fb448571212c1212848201212c1212c484c1213912130484f1213412120482012134121344850121451212447f220a3c11fc8481e121581208047f520a4c11fd44828120541213c480f11fd811fd84824120401207848241214c12138481b1208c1206c480c120a0120a04858121481209048551214812148485f121a112140482112158120844810120881208847f411fcc11fcc48541214c12144481a1208c12068481520a5412054480f120441203c480d1215012150485e121a512154485d121911215848631219d12040480c1215c1215c485b121a9)
  (.lf 0)) (.nd (.lf
  0x1cbd4731d1cbe41cbe473641cd601cd5c732c1cd601cd6073591cd6d1cd64735c1cd681cd54732c1cd681cd68735d1cd791cd5872fe2159c1cbf8732a1cd8c1ccb07301215ac1cc0473341cc841cd70731b1cc081cc0873301cc701cca873301cd801cd6c73271ccbc1cc9c73181ccd01ccd073651cd7c1ccc073621cd7c1cd7c736c1cdd51cd74732d1cd8c1ccb4731c1ccb81ccb873001cbfc1cbfc73611cd801cd7873261ccbc1cc987321215b41cc84731b1cc741cc6c73191cd841cd84736b1cdd91cd88736a1cdc51cd8c73701cdd11cd9485661cdcd1ccbc73661cd801cd98736d1cdbd1cdcc72f1215981cbc4856b1cc681cdb072f21cc5c1cbc873181cc681cdc073742159c1cdd0731e215ac1cdbc73711cca01cdc4731e1cc601cda873191cc781cc78856c215981cc74731a1cd9c1cc68856c215a81cdac7319215b0215b005f923088230880000090520905024160905409054819609358175485d891760c176245d9017649176485d941752c176145d8d17651176345d3c17504176005d5017618175405d3f17544174fc5d3b1761c1761c5d8b176691762c5d3c2152c175445d2317488174885d841760c174f85d3c17610176105d8e17665)
  (.lf 0)))

def aesGateTree91 : BTree :=
  .nd (.nd (.nd (.lf
  0x17e805da009e80176805ba00968016e8059a008e801668021a23cf023cf000001695e14bb805f9017fc017e405d9009e40176405b900964016e40599008e401664021923cf423cf400001696223ce0000016966017fc05df009fc0177c05bf0097c016fc059f008fc0167c021f23cdc23cdc00001696a1695c59ea167a4167a40000167b6167b45a141687c168505a53168a9017f005dc009f00177005bc00970016f0059c008f001670021c23ce823ce859e41678c167905a031688c1679859e7167f81696059ee168201696459f0167bc167c059f1167b01696859f4167cc167d059f116844167c45a10167d4168205a03168941680c59ff16890167fc59fe16870167f85a101686c168405a1616854168545a5616899167a859e716858168585a54168a51679c5a11167ac167ac5a17167b01685c5a4f168d5167d45a1816880168605a4e168ad167b000001680a167cc5a1916888168085a1d16864168645a55168a1168685a51168c51686c5a4d168b9168705a501689d168745a4a168a9167b85a1f16878167bc0000167ca167c85a2116878168785a47168991687c5a49168a51678c5a2116880168805a48168d5168845a52168ad168885a46168a1)
  (.lf 0)) (.nd (.lf
  0x1f0047c2b1f02d1ef107c031f0081f0087c2a1f05d1efd47c041f00c1f00c7c341f0351f0107c281f0291efc87c071f0141f014849e1f04d1f0187c2d1f0411f01c7c2e1f0251f0207bb41eecc1f0287bb61ef941f0307bba1eedc1eee87bb31ef601eecc7bbb1ef881eeec7c261f0381f0347be71ef941ef947bef1f0381f0387c0f1f05d1f0407bbd1ef881ef887bf32127c1f0247bed1efcc1efcc7c231f0441f03c7c191f0441f0447c121f0711f02c7bb81eedc1eedc7c221eef01eef07c251f0501eef47bea1f0501f0487c141f0681f04c7c1c1f0501f0507c161f0551eed07bb52128c1eed87be61f0601eee07bb5212941eed47bdd1eee41eee47c241f0601f05c7bec1f0601f0607c191f06d1f0647c1c1f0681f0547bec1f0681f0687c1d1f0791f0587bbe2127c1eef87bea1f08c1efb07bc12128c1ef047bf41ef841f0707bdb1ef081ef087bf01ef701efa87bf01f0801f06c7be71efbc1ef9c7bd81efd01efd07c251f07c1efc07c221f07c1f07c7c2c1f0d51f0747bed1f08c1efb47bdc1efb81efb87bc01eefc1eefc7c211f0801f0787be61efbc1ef987be1212941ef847bdb1ef741ef6c7bd91f0841f0847c2b1f0d91f0887c2a1f0c5)
  (.lf 0))) (.nd (.nd (.lf
  0x5f4417f70600005fdc183306019060001824060190601817b305f8805ffc18300602505fd8182c060250602417e405f8805f8817ec0602805ff818260604d05fd4182d0604d06028180b0604d0604c17e90605005fe8182e060150600c182a060150601417ea05fc006004833e0603d05fe0182f0603d0603c18180604005f7c17f020cfc05fc0181f0603405ff418270601d05fd018320601d0601c17b505ed005ed0181e05ee405ee418210604005ee817e7060400602c18150603406034180e0606106038181006058060401812060450604417e90605805ec417b220d0c05ecc17e30605005ed417b220d1405ec817da05ed805ed81820060500605018150605d06054181806058060581819060690604817bb20cfc05fa417be20d0c05ef817f105f780606017d805efc05efc17ed05f640605c17e405fb005f9017d505fc405fc418210606c05eec17e70607c05f9c17ed0607005fb4181e0606c0606c1828060c50606417ea0607c05fa817d905fac05fac17bd05ef005ef0181d060700606817e305fb005f8c17de20d1405f7817d805f6805f6017d606074060741827060c9060781826060b505fb0182206070060881829060ad060a4182a20cf8)
  (.lf 0)) (.nd (.lf
  0x18b44630918bbd18bbc62c418bc018a30628d217cc18a3862be18bc018a40628d217d418a3462b518a4418a4462fc18bc018bc062f118bcd18bb462c418bc818bc462f418bc818bc862f518bd918bd862be18b1c18bd062b318a6818a6862c818ad018b0862c818be018b2062fa18bdc18bcc62bf18b1c18b106299217cc18a6462cc18ae418afc62b018b3018b3062fd18bdc18bdc630418c3518af862b9217d418ae462b318ad418ad462b218bfc18c10628a18abc18bf485ee18c2d18c2c6289217b818a2485f318ac818a2862b018ac818ac885f4217c80b6148057201082015c00000b1960b1942bf70afd80afd800000afea0afe82c230b0b80b08c2c610b0e50b66081352014c2014c00000af660af642b6b0ada80ada800000adba0adb82b960ae842015400000af720af702b750add00add42b720ae480b6b02c9b0b2680b26c2c9c238e80b2700000238e6238e42b670ad980ad9c2b680adfc0adac2b680ae600ada02b920adb00ae482ba70ae940b67c8e3e238e80b4682bdb204d8238e000000af6e0af6c2b710adc00adb02b990adb40b6548e40201502015000000af6a0b2688e3d0b70c0b45c8e3b0b70c0b6708e3f238ec238ec2b890ae54)
  (.lf 0)))

def aesGateTree92 : BTree :=
  .nd (.nd (.nd (.lf
  0xf1203c6f0f1290f1243bf60efd40f12c3bf80f09c0f1343bfc0efe40eff03bf50f0680efd43bfd0f0900eff43c670f13c0f1383c290f09c0f09c3c310f13c0f13c3c500f1610f1443bff0f0900f0903c35208dc0f1283c2f0f0d40f0d43c640f1480f1403c5a0f1480f1483c530f1750f1303bfa0efe40efe43c630eff80eff83c660f1540effc3c2c0f1540f14c3c550f16c0f1503c5d0f1540f1543c570f1590efd83bf7208ec0efe03c280f1640efe83bf7208f40efdc3c1f0efec0efec3c650f1640f1603c2e0f1640f1643c5a0f1710f1683c5d0f16c0f1583c2e0f16c0f16c3c5e0f17d0f15c3c00208dc0f0003c2c0f1900f0b83c03208ec0f00c3c360f08c0f1743c1d0f0100f0103c320f0780f0b03c320f1840f1703c290f0c40f0a43c1a0f0d80f0d83c660f1800f0c83c630f1800f1803c6d0f1d90f1783c2f0f1900f0bc3c1e0f0c00f0c03c020f0040f0043c620f1840f17c3c280f0c40f0c43c670f1840f1843c6a0f1e50f0a03c23208f40f08c3c1d0f07c0f0743c1b0f1880f1883c6c0f1dd0f18c3c6b0f1c90f1903c710f1d50f0783c1a0f1940f1943c690f1e10f19882360f1d10f19c3c6e0f1c10f07c3c1c0f1a00f1a03c730f1bd)
  (.lf
  0x2ca80ac402b0c02b100ac102b8423f00047621cbc21cbc000002ca602ca40ac002afc02b000ac102af002b040ae002b1402b140ae802bc002b0c0ae902bc823f10047221ccc21ccc000002c9e02c9c0aba02ae421cc00ab602ad402ae80ab702b9802ad80ab702b3802adc0ae102aec02aec0ae702af002af0000002b4a02ae4000002af602af40ae402bbc02b900b2302be902b480aed02ba402bb40b1a02be902be80aa902a9823f0c047321cc821cc80ad81fdfc23f14047121cd021cd0000002ca223f08047421cc421cc40ab402acc02ad00ad302bcc02ca00abe02b6002b600ad302bd402b4c0acf02bd023f18047021cd421cd40ab202b3c02b3c0ace02bb002b380ae002bac02b800ae602b9402afc000002b0a02b080af102bb802aa40aa202b1c02ad4000002ae202ae00ada02ba802ac80ada02bbc02af80aef02bb802b687f7f02bb802bb80b1702bd902b940b2602bd902bd80aa302a8802a880aaa02b4402ba00b1e02bed02b9c0b1f02c151fdfc0af202bc402bc80b1602be102ba40b2502be102be00aa502b5002acc0af102bc002bc40b2202bed02bec0ad602b5002b500ade02bf002aa80b1402bf002bf00afd02c1502bc00b1802c15))
  (.nd (.lf
  0x142dc50e61438c1438c510c143ad14390510e143b9142a050e61439414394510d143e9143985117143c11439c510b143b51435850ea143a0143a083de143d9143a45110143cd143a85111143b1143ac50981425c143b4509a14324143bc509e1426c142785097142f01425c509f143181427c5109143c4143c050cb143241432450d3143c4143c450f2143e9143cc50a1143181431850d720f7c143b050d11435c1435c5106143d0143c850fc143d0143d050f5143fd143b8509c1426c1426c510514280142805108143dc1428450ce143dc143d450f7143f4143d850ff143dc143dc50f9143e114260509920f8c1426850ca143ec14270509920f941426450c114274142745107143ec143e850d0143ec143ec50fc143f9143f050ff143f4143e050d0143f4143f4510014405143e450a220f7c1428850ce14418143fc50bf142981429850d4143001433850d41440c1435051051440814414510d144511440050d1144181441851131445d1434050a520f8c1429450d814314143f850cb1434c1432c50bc14360143605108144081442083de144591440450ca1434c1434c51091440c1442451101444914458509520f781444c511720f7c1445c50c220f8c)
  (.lf 0))) (.nd (.nd (.lf
  0x21dd013e81ff9004fa0138204de821e14140521fd00501413ae04e0804e0887f81fff020a1001e121e1021e1014041fff0209f401e821df421df413f904fe804fe4109a1fff01fff0000004b1a190406419190a118f3063c8190501905064181909d19064642818f2018f208275209cc1906063c9209cc15e3c5741209ac209ac01fa21dac21dac1432050cc050cc0000050c6050c487e804dfc15c04827615c3d15c3c568e209d815a38827b15adc15c4056bb209ec15aec827c209d815adc827c209e8209f001e921df021df013f704fe004fdc10991ffec209cc01f221dcc21dcc13e71ff8c04f9c137f04ddc05010137f04df020a0c01e221e0c21e0c14021ffec04dfc7fdf1ffec1ffec000004b160efac82a820ab40efb082ad20aa820ab401b821eb421eb4144905128051247ffa2205411f7482b020ad420ad401b021ed421ed41456220380515813b304e580518400000517e0517c7ff604e5804e5888141ffe81ffe80000046c2051187ff91f99820aec01aa21eec21eec145d05178051c0139404e3c051787ff504e3c04e3c88131ffe41ffe40000046be20a7801c721e7821e78142b1ff78050ac13b204e240508413aa04e240526c7ff81ff78)
  (.lf 0)) (.nd (.lf
  0x938c8145206342063400001d6b209388816520448091fc00000936a09368816c20444205b000001bc6e205ac00001bc6a092148cdb205a8205a800001bc662059400001bc720914080310931409320803120670200c4000008ea6090c0819a092e4092e480302063c200c0000008ea2091388cbf092d8092d8802f2066809134818e200bc200bc000008e9e08ec4802e08ecc0914824b00933009330802e20654200b8000008eaa08ed08cbd08ecc08ecc0000092c208edc8cbe092c0092c08cc0232cc23300233108d3808cc4235908dbc093148cbd232e4232f4233508cd008cd0000008cde08cdc235908da808d64236308db8092ec8cbf232ec232fc235708d8c08d8c237208dc408e9c233908ce008cd4233608d3408ce4233608d9808cd8236008ce808ce8236708cec08ea4233f08cf808cfc234008cec08cec000008d4608ea8234308d0808d0c234008d8008d00235f08d1008ea0233d08d5c08d5c235208dd4093008cbe232e8232f8233308cc808cf8000008d0608d04237108db808cc8237108dc008dc423a208ded08d10236808dc008da0239e08ded08dec235508d4c08ccc235208dcc08d48234e08dd008d38234d08db008d34235f08dac)
  (.lf 0)))

def aesGateTree93 : BTree :=
  .nd (.nd (.nd (.lf
  0x11664456a1167c115a84559115ac115ac453d114f0114f0459d11670116684563115b0115b045a2116701167045a5116d11158c455e00bc011578455811568115604556116741167445a7116c91168402f7116bd1168845a9116ad1156845571168c1168c45ae116a9116bc452e00bdc114b802f21155c116a0452f11550114bc45551155c1169445b411554116d002f300bd4116a445aa00bdc116a845b211550116b84565116c8116c802f000bcc1155c02f100bcc00bcc02d300dcc00b4c02b300d4c00acc029300ccc00a4c031323c0c23c0c540f1ff10116c402f500bc0116ac45ad115941159402f500bd8114f402f500bd01167845a6116b51169c455600bc4115644555116801168045a4116cd1169845561156c11690455600bc811558455400bd400bd402d500dd400b5402b500d5400ad4029500cd400a54031523c04116cc02f600bc0116b4455b115541155402f000bc800bc002d000dc000b4002b000d4000ac0029000cc000a40031023c1823c1853e91501823c0453ed14fb014fb0000014fbe14fbc54111508414fa4541115098150447fc4150941ff105429150a0127dc4a0412821128104a0800bb81282049b300ba800ba802ca00da8)
  (.lf 0)) (.nd (.lf
  0x1a8f46a6a1aa501aa486a941aa681aa4c6a9c1aa501aa506a961aa551a8d06a352110c1a8d86a661aa601a8e06a35211141a8d46a5d1a8e41a8e46aa41aa601aa5c6a6c1aa601aa606a991aa6d1aa646a9c1aa681aa546a6c1aa681aa686a9d1aa791aa586a3e210fc1a8f86a6a1aa8c1a9b06a412110c1a9046a741a9841aa706a5b1a9081a9086a701a9701a9a86a701aa801aa6c6a671a9bc1a99c6a581a9d01a9d06aa51aa7c1a9c06aa21aa7c1aa7c6aac1aad51aa746a6d1aa8c1a9b46a5c1a9b81a9b86a401a8fc1a8fc6aa11aa801aa786a661a9bc1a9bc6aa61aa801aa806aa91aae11a9986a61211141a9846a5b1a9741a96c6a591aa841aa846aab1aad91aa886aaa1aac51aa8c6ab01aad11a9706a581aa901aa906aa81aadd1aa94843e1aacd1aa986aad1aabd1a9746a5a1aa9c1aa9c6ab21aab91aadc843f211141aacc6a31210f81a8c484431a9681aab06a321a95c1a8c86a581a9681a9008440211041aaa46ab81a9601aae08442211001aac86a681aad81aabc6ab11a9a01a9a08440210fc1aab46aae210f81aab86ab61a95c1aad88445211081aac06ab4210fc1a9688444211081aaa86a591a9781aaa06a592110c1aaac6a5921110)
  (.lf 0))) (.nd (.nd (.lf
  0xe67c39770e6900e69039a70e6a10e680394920d5c0e52439750e6b40e5dc394c20d6c0e530397f0e5b00e69839660e5340e534397b0e59c0e5d4397b0e6a80e69439720e5e80e5c839630e5fc0e5fc39af0e6a40e5ec39ac0e6a40e6a439b60e6fd0e69c39780e6b40e5e039670e5e40e5e4394b0e5280e52839ab0e6a80e6a039710e5e80e5c4396c20d740e5b039660e5a00e59839640e6ac0e6ac39b50e7010e6b039b40e6ed0e6b439ba0e6f90e59c39630e6b80e6b839b20e7050e5e839b00e6a80e6c039b70e6e50e5a039650e6c40e6c439bc0e6e10e704835720d740e6d8393d0e5880e6f039730e7000e6e439bb0e5cc0e5cc835820d5c0e6dc39b820d580e6e039c00e5880e6e839be20d5c0e6d039640e5a40e6c8396420d6c0e6d4396420d700e590396220d600e588835920d5c20d5c010e22280137684d6d135b0135b00000135c2135c04d97136881365c4dd6136b506390899e22690226784d67135981359c4d8613698135a44d6a136041376c4d711362c137704d73135c8135cc4d74135bc137744d77135d8135dc4d7413650135d04d93135e01362c4d86136a0136184d821369c136084d811367c136044d93136781364c4d9913660)
  (.lf 0)) (.nd (.lf
  0x174445ca617300236585c9c1726c172705cbb17370173005cbb17378172ec5cb71737409c74000009f6609f648d9923654236545c9e17274172785c9f172d8236605c9a172dc172dc5cb617354172d85cc81735009f7480362042409c60000009c6a09c688d9b09f0009f00803c2043c2043c00001744209c7827af09f9409f948037204282042800001744e2042400001744a174485ca81729c172a05ca9172901744c5cac172ac172b05ca917324172a45cc8172b4173205ccf17338172685cc21736017274000017282172805cc21734c173085ccc1735c173305cdb173681726c5cda173641729c0000172aa172a85cda1735c173685d0b17391174405ca217284172885c9f1733c1727c5cc91728c173245cde17370173708596173a91728c5cd01729017284000017296172900000172ea172945ccd17360173345d0c1738d172e85cd617348173585d031738d1738c5c9117238172445c8a172bc173385d0f1737d172985cd81735c1735c5d001737d1737c5c8b17228172285c92172e4172ac5cd21736c172485cfd173941736c5cff17385172b45cd117364173445d0717391173485d0e17385173845c8d172f0173905cbe172f0172f05cc617394)
  (.lf 0)))

def aesGateTree94 : BTree :=
  .nd (.nd (.nd (.lf
  0x163d07fcd164201ff34590c1642c20a2401dc21e2421e24139804d6804d6814a4052940529488070529805298000004ea221e28139d04d6c04d6c14a10528805288880804ea020a8801c321e8821e881436050dc050d8143504ec820a8401c421e8421e84142f050c0050bc880404ec804ea0880a21ff404ec8880a220182202852481499414920527014a14050c0139304e440509088070508804e4c88072200c2201c524c1492c1492c00001493a14938527014a00149c07fc114a1020a6801cb21e6820a4801d321e4821e48141b0507005070139d0506404e7488092201421e68139504d8004d801497052600526088090525822024526e1ff041ff04528814a1c12a084a8f12a4d12a3c4a9300ff812a4c4a3e00fe8128f803f900ffc128dc03fc00ff800ff803de005f800f7803be0057800ff003dc005f000f7003bc0057000fe803da005e800f6803ba0056800ee8039a004e800e68011a23af023af000000b93200fe403d9005e400f6403b90056400ee40399004e400e64011923af423af400000b93600ef8039e004f800e78011e23ae023ae000000b93a00ffc03df005fc00f7c03bf0057c00efc039f004fc00e7c011f23adc23adc00000b93e)
  (.lf 0)) (.nd (.lf
  0x774884492111c1a86c6a261a8891a8ac845f211941a89869dc1a8a81a77084602117c1a8886a2a1a72c1a73469cb211801a72c84612117c17b1c84582116417cfc845a211600791c845021144078b41de3078c4078c88447211340778c84482111c2111c031e22888228881bc406ffc06ffc1abc06aec06af081c12038007afc8452211402117c0306228e8228e81b8106e0006e001bd806e0806e08000006f7621160030d228cc228cc1b8c06e2c06e3081c1201b8211400315228ac228ac1b98229e406e601bb806f7406f7481c1201e82070400001f31a211380317228a4228a41b9c201ec1a8b08462211801a8a8846521188211880303228f4228f41be806fb821168030b228d4228d41b8a06e2406e241bba06fa0078c4844d21128078cc844a2112021128031b22894228941ba406e8c06e908a8006ec82114c0312228b8228b81b94201d006e501bc906fa006fa08a80229ec22a007c751ff58076ec844821124078c084482113421120031d2288c2288c1ae706b9806b9c8a7e2037c1a6d08460211841a8a4846021194211800305228ec228ec1b7f22a0806e701ba706f6021194030022900229001b7822a1406de01ba706ef4211340318228a0)
  (.lf 0))) (.nd (.nd (.lf
  0xeab43a880ea180ea183a900eab80eab83aaf0eadd0eac03a5e0ea0c0ea0c3a9420c1c0eaa43a8e0ea500ea503ac30eac40eabc3ab90eac40eac43ab20eaf10eaac3a590e9600e9603ac20e9740e9743ac50ead00e9783a8b0ead00eac83ab40eae80eacc3abc0ead00ead03ab60ead50e9543a5620c2c0e95c3a870eae00e9643a5620c340e9583a7e0e9680e9683ac40eae00eadc3a8d0eae00eae03ab90eaed0eae43abc0eae80ead43a8d0eae80eae83abd0eaf90ead83a5f20c1c0e97c3a8b0eb0c0ea343a6220c2c0e9883a950ea080eaf03a7c0e98c0e98c3a910e9f40ea2c3a910eb000eaec3a880ea400ea203a790ea540ea543ac50eafc0ea443ac20eafc0eafc3acc0eb550eaf43a8e0eb0c0ea383a7d0ea3c0ea3c3a610e9800e9803ac10eb000eaf83a870ea400ea403ac60eb000eb003ac90eb610eb083aca0eb450eb0c3ad00eb510e9f43a790eb100eb103ac80eb5d0eb1483060eb4d0eb183acd0eb3d0eb4c3a5220c180e948830b0e9ec0eb303a530e9e00e94c3a790e9ec0eb403ad420c1c0eb503a7f20c2c0eb3c3ad10ea240eb443a7f0e9e40eb243ad80e9e40e9e4830d20c2c0eb203a7a20c2c20c2c015a2215022150166a059a4)
  (.lf 0)) (.nd (.lf
  0x175705d94175e9174dc5d5e1759c174c000001751a175185d6217578175785d9a175b5175945d8d175e91759c5d8b175b5175b45d1917520175885d8f175bd175bc5d1d17468174745d16174ec175685d9b175ad174c85d641758c1758c5d8c175ad175ac5d1717458174585d1e17514174785d89175c4175205d52175c4175c45d72175e9175e85d4f175ec175c85d7c175d0175845d95175b1175545d6a175a0175a85d91175b1175b05d5017558175805d92175cd175a45d90175cd175cc5d2017514175145d562151c175585d86175d01757c5d96175d9175a08546175d9175d85d7f175dc175d05d75175fd1756c5d99175b9175905d8e175b9175b85d1b17468174685d851747c1747c5d88175dc174805d4d175dc175d45d77175f4175dc5d79175e1175e05d4f175f4174645d49175ec1746c5d18215341745c5d182152c174605d4017470174705d87175ec175ec5d7c175f9175f05d7f175f4175f45d8017605176045d4917548175245d44215341753c5d242152c174905d5717510175105d3e17500175e45d212151c174845d4d17618175345d531760c175fc5d3e17494174945d53174fc1754c5d8517608175f85d4a17548175285d3b1755c)
  (.lf 0)))

def aesGateTree95 : BTree :=
  .nd (.nd (.nd (.lf
  0xf6d03db50f6c00f8783db80f6dc0f6e03db50f7540f6d43dd40f6e40f7303dc70f7a40f71c3dc30f7a00f70c3dc20f7800f7083dd40f77c0f7503dda0f7640f7643e1a0f7a90f6b83dab0f7680f7683e180f7b50f6ac3dd50f6bc0f6bc3ddb0f6c00f76c3e130f7e50f6e43ddc0f7900f7703e120f7bd0f6c000000f71a0f6dc3ddd0f7980f7183de10f7740f7743e190f7b10f7783e150f7d50f77c3e110f7c90f7803e140f7ad0f7843e0e0f7b90f6c83de30f7880f6cc00000f6da0f6d83de50f7880f7883e0b0f7a90f78c3e0d0f7b50f69c3de50f7900f7903e0c0f7e50f7943e160f7bd0f7983e0a0f7b10f7543de90f79c0f79c02770f7d50f7a03e0f0f7c90f7a43e100f7ad0f7a83d970f6580f7b03d990f7200f7b83d9d0f6680f6743d960f6ec0f6583d9e0f7140f6783e080f7c00f7bc3dca0f7200f7203dd20f7c00f7c03df10f7e50f7c83da00f7140f7143dd6009d80f7ac3dd00f7580f7583e050f7cc0f7c43dfb0f7cc0f7cc3df40f7f90f7b43d9b0f6680f6683e040f67c0f67c3e070f7d80f6803dcd0f7d80f7d03df60f7f00f7d43dfe0f7d80f7d83df80f7dd0f65c3d98009c80f6643dc90f7e80f66c3d98009c00f6603dc00f670)
  (.lf 0)) (.nd (.lf
  0x176a85e15177f4177f05dd617750177505dde177f4177f45dfe17819177fc5dac17744177445de22139c177e05ddc17788177885e1217800177f85e0817800178005e011782d177e85da717698176985e11176ac176ac5e141780c176b05dd91780c178045e0317824178085e0b1780c1780c5e05178111768c5da4213ac176945dd51781c1769c5da4213b4176905dcc176a0176a05e131781c178185ddb1781c1781c5e0817829178205e0b17824178105ddb17824178245e0c17835178145dad2139c176b45dd9178481776c5db0213ac176c05de3177401782c5dca176c4176c45ddf1772c177645ddf1783c178285dd617778177585dc71778c1778c5e14178381777c5e1117838178385e1b17891178305ddc17848177705dcb17774177745daf176b8176b85e101783c178345dd517778177545dd0213b4177405dca17730177285dc817840178405e1a17895178445e1917881178485e1f1788d1772c5dc71784c1784c5e1717899177785e151783c178545e1c17879177305dc917858178585e21178751789884e7213b41786c5da117718178845dd717894178785e201775c1775c84e82139c178705e1d21398178745e25177181787c5e232139c)
  (.lf 0))) (.nd (.nd (.lf
  0x6a401a9906aa106a641aa8069200692083a520e8c20e8c03c2224d40e02438120e0850e04838210df080df08839d20e6c20e6c03ca224b4224d4193a20228064e819d406760224b4194c0652c0652c000006536065348107067600676080ad202080e25c38a40e2a10e26483860e29d0e29c382620e180e098838b0e13c0e29038a820e1c0e2a0385320e2c0e14c838c20e180e13c838c20e2820e3003d92247820e4c03d222494224781966065940659880822041c224941955202082020800000e93a20e5803cf224a020e7803c7224c0224a01951204080654419c7067a0224c01947202140651c19bf067a00657419e1067a0067a080af201f40e130838920e1c20e1c03de224642246419e1068600686018cb063280632c807d11b3420e3803d72248022480195f201f4201f400000e94606de88074201b4201d000000de5e201bc00000de6a201b800000de66201b400000de622295c4c751fed8229544c531314813148000013156131544c771321c229604c4f131b01313c4c7713230131dc7fb61322c1fed84c8f1323822928405d101e810174408510268229144061101801018000001018e1018c408510254102147fa0102642291c40831fe80)
  (.lf 0)) (.nd (.lf
  0xa998862c21898218d8052f234d4234d42701200dc09c0427ae09fa40aad42ab621898195c88644218f8218dc052e234d8234d827e809fd8218f80527234f4234f426f62042809bd827a709fa421898053f2349423494271e2058c09c3427dd09fa409fa48163205dc09fd826cd09b3009b348163204282058c00001b5e21ad048630218d409be4000009bee0a988862c218a8218b00539234ac234ac000009c4a09c48271409c4c09c50817c1b5d81ab908635218cc218d40530234d0234d0270423634195b88644219082191005212350c2350c26e82044009ba027c009f1009bec803509f1009be06d762044009c1027a709f1009f108d93205d42364c00001b5da1b5d86d0b1b4941b42c6d3d1b4f019718657c197281972486402191419730864221900195f08640218fc219000525234fc234fc26f12365409bc427dd09f8409bf88d9909c0009c2427cf09c0009c00000009f8609f848d8f23628218e4052c234e0234e027da09fd409fd426cf09b3809b3c26d02365409b4000002363e2363c6d031b4081b40c6d041b46c1b41c6d041b4d01b4106d2e1b4200aad82abe0a97c0a97c86292189c2189c053e234982349827dd09fe409fe426c509b10)
  (.lf 0)))

def aesGateTree96 : BTree :=
  .nd (.nd (.nd (.lf
  0x378c0d7a035e4035e80d7b035d8037900d7e035f4035f80d7b0366c035ec0d9a035fc036480d8d036bc036340d89036b8036240d8803698036200d9a03694036680da00367c0367c0de0036c1035d00d7103680036800dde036cd035c40d9b035d4035d40da1035d8036840dd9036fd035fc0da2036a8036880dd8036d5035d8000003632035f40da3036b0036300da70368c0368c0ddf036c9036900ddb036ed036940dd7036e1036980dda036c50369c0dd4036d1035e00da9036a0035e40000035f2035f00dab036a0036a00dd1036c1036a40dd3036cd035b40dab036a8036a80dd2036fd036ac0ddc036d5036b00dd0036c90366c0daf036b4036b481f6036ed036b80dd5036e1036bc0dd6036c5036c00d5d03570036c80d5f03638036d00d63035800358c0d5c03604035700d640362c035900dce036d8036d40d9003638036380d98036d8036d80db7036fd036e00d660362c0362c0d9c207dc036c40d9603670036700dcb036e4036dc0dc1036e4036e40dba03711036cc0d6103580035800dca03594035940dcd036f0035980d93036f0036e80dbc03708036ec0dc4036f0036f00dbe036f5035740d5e207ec0357c0d8f03700035840d5e207f4)
  (.lf
  0xa39c29180a3c50a37829140a3c50a3a0290c0a3b90a3c428cb0a3240a3b8289a0a3240a32428d30a3c80a3c828f30a3ed0a3ac29120a3b50a38429130a3d10a38029170a3dd0a3a829110a3d10a3d028a10a3180a31828d72181c0a370291a0a3bd0a394290f0a3bd0a3bc289c0a26c0a26c29060a2800a38829160a3b50a3b428d10a35c0a35c29070a3d40a3cc28fd0a3d40a3d428f60a4010a28029090a3e00a3dc29000a3e00a3d828f80a3f80a28428ce0a3e00a3e028fa0a3e50a3e828a22181c0a28828ce0a41c0a3e428d00a3f80a37429150a3ed0a398290e0a3ed0a3ec28d00a3f00a2702899218340a26028992182c0a26428c10a2740a26828ca0a3f00a27429080a3f00a3f028fd0a3fd0a3f429000a3f80a3f829010a4090a40828ca0a34c0a3fc28cb0a34c0a34c290a0a4100a33828d40a4100a40428d10a41c0a34428c00a3480a34828a40a28c0a28c29050a4100a410290d0a4710a510296b0a5d00a59429740a5cc0a5d029980a5e90a5ac29a70a5e90a5e829260a5540a518296a0a5c80a5a829a00a5f50a4d029730a5c80a5cc29a40a5f50a4ac29960a5f80a5f429570a5540a554295f0a5f80a5f8297f0a61d0a5fc29890a604))
  (.nd (.lf
  0x693c1a61069b4069d81a9d06a01069b41a9f06a0106a001a2d06948068b41a5a06a10068e80000068fa069841a680699c068f81a66069c4069981aa5069f10699c1aa8069e1069e01a240688c069bc1a9c069f1069f01a2a0689c068a81a23069200688c1a2b06948068ac1a96069f8069f81a7f06a1d069fc1a8906a04069481a6320e7c069dc1a9e069e5069b81aa2069e5069e41a5d0698c0698c1a9306a0406a041a8206a3106a081a8406a28069c41a9b069ed069a01aa6069ed069ec1a280689c0689c1a92068b0068b01a9506a1006a101a8606a1506a141a5c06a28069c81a9a06a1d069a41aa106a1d06a1c1a5c06a20068901a2520e8c068a01a2520e94068941a4d068a4068a41a9406a20068981a5606a2006a201a8906a2d06a241a8c06a2806a281a8d06a3906a381a560697c069581a5120e94069701a3120e8c068c41a6406944069441a4b06934069341a4a06a5c06a2c1a570697c0697c1a9606a4006a581a9d06a7d06a7c1aa10696006a5c1aa206a7906a881a5806a980696083a020e7c0695c1a4806990069901a9506a3c06a741a9e20e780e08837b50ded00ded000000dee20dee037df0dfa80df7c381e0dfd5229c837af0deb8)
  (.lf 0))) (.nd (.nd (.lf
  0x1086c421a108e010868422c108dc108b04232108c4108c4427210909108184203108c8108c84270109151080c422d1081c1081c423310820108cc426b10945108444234108f0108d0426a1091d1082000001087a1083c4235108f8108784239108d4108d4427110911108d8426d10935108dc426910929108e0426c1090d108e442661091910828423b108e81082c00001083a10838423d108e8108e8426310909108ec426510915107fc423d108f0108f0426410945108f4426e1091d108f8426210911108b44241108fc108fc056710935109004267109291090442681090d1090841ef107b81091041f1108801091841f5107c8107d441ee1084c107b841f610874107d84260109201091c42221088010880422a10920109204249109451092841f81087410874422e015981090c4228108b8108b8425d1092c1092442531092c1092c424c109591091441f3107c8107c8425c107dc107dc425f10938107e042251093810930424e10950109344256109381093842501093d107bc41f001588107c4422110948107cc41f001580107c04218107d0107d0425e1094810944422710948109484253109551094c4256109501093c42271095010950425710961)
  (.lf 0)) (.nd (.lf
  0x883081a508c780881c8c0408c7808c78000008b0208b008c0a23018087848c0808b2008774000008b2208b208c0a22fec230287b371ed5008ba08c0823010230207b391ece01ece47b581ede4088d4000008bca08bc88c072300c2301c7b3b1ece81ecec7b3c1ed4c1eeb87b431ed741eebc7b451ed101ed147b461ed041eec07b491ed201ed247b461ed981ed187b651ed2808b7c8c0923014230247b5d1eda41ed747b581edec1ed607b541ede81ed507b531edc81ed4c7b651edc41ed947b6c1edac1edac7bac1edf11ecfc7b3c1edb01edb07baa1edfd1ecf07b661ed001ed007b6d1ed041edb47ba51ee2d1ed287b6e1edd81edb87ba41ee051ed0400001ed5e1ed207b6f1ede01ed5c7b731edbc1edbc7bab1edf91ece800001ecf61ecf47b5f1edc01edc07ba71ee1d1edc47ba31ee111edc87ba61edf51edcc7ba01ee011ecdc7b5f1edd41ed0c7b751edd01ed1000001ed1e1ed1c7b771edd01ed7c7b691edd01edd07b9d1edf11edd47b9f1edfd1ece07b771edd81edd87b9e1ee2d1eda47b781eddc1eddc7ba81ee051ede07b9c1edf91ed987b7b1ede41ede484be1ee1d1ede87ba11ee111edec7ba21edf51edf07b281ec9c1edf87b2a1ed64)
  (.lf 0)))

def aesGateTree97 : BTree :=
  .nd (.nd (.nd (.lf
  0x20a2801db21e280076c01bb00090006ec019b001100066c0064239ec239ec611e1ff541ff546138184dc23a6c60931ff5023a646071181c0181c00000181ce181cc60951829423a78606d18228181b46095182a8182547fd4182a41ff5060ad182b01512054551516515154545900df815164540400de815010037900dfc14ff4037c00df800de8035a00fe800d68033a00f6800ce8031a00ee800df8035e00ff800d78033e00f7800cf8031e00ef800c78039e23b6000de4035900fe400dfc035f00ffc00d64033900f6400ce4031900ee400c64039923b7400d7c033f00f7c00cfc031f00efc00df0035c00ff000d70033c00f7000cf0031c00ef000c7c039f23b5c00c68039a23b7000c70039c23b6823b7000000bb6223b7400000bb6623b6000000bb6a23b5c00000bb6e0bb602e6a0b9a40b9a400000b9b60b9b42e950ba800ba542ed40baad23b782e620b9fc23b682e640b98c0b9902e840ba9023b642e660b9940b9982e670b9f80bb642e6e0ba240bb682e700b9bc0b9c02e710b9b00bb6c2e740b9cc0b9d02e710ba480b9c42e910b9d423b6c2e890ba0c0ba242e840ba980ba102e7f0ba940b9fc2e7e0ba740b9f82e910ba700ba442e970ba58)
  (.lf 0)) (.nd (.lf
  0x1a71869e51a72807e481fcf07f5c07e888b5107f3407f3c8b5122d3422d4469dd1a7a41a77469d81a7ec1a76069d41a7e81a75069d31a7c81a74c69e51a7c41a79469ec1a7ac1a7ac6a2c1a7f11a6fc69bc1a7b01a7b06a2a1a7fd1a6f069e61a7001a70069ed1a7041a7b46a251a82d1a72869ee1a7d81a7b86a241a8051a70400001a75e1a72069ef1a7e01a75c69f31a7bc1a7bc6a2b1a7f91a6e800001a6f61a6f469df1a7c01a7c06a271a81d1a7c46a231a8111a7c86a261a7f51a7cc6a201a8011a6dc69df1a7d41a70c69f51a7d01a71000001a71e1a71c69f71a7d01a77c69e91a7d01a7d06a1d1a7f11a7d46a1f1a7fd1a6e069f71a7d81a7d86a1e1a82d1a7a469f81a7dc1a7dc6a281a8051a7e06a1c1a7f91a79869fb1a7e41a7e4845e1a81d1a7e86a211a8111a7ec6a221a7f51a7f069a81a69c1a7f869aa1a7641a80069ae1a6ac1a6b869a71a7301a69c69af1a7581a6bc6a1a1a8081a80469db1a7641a76469e31a8081a8086a031a82d1a81069b11a7581a75869e72117c1a7f469e11a79c1a79c6a171a8141a80c6a0d1a8141a8146a061a8411a7fc69ac1a6ac1a6ac6a161a6c01a6c06a191a8201a6c469de1a8201a8186a081a838)
  (.lf 0))) (.nd (.nd (.lf
  0x13d5c4f2f13d7013d704f5f13d8113d604f0120adc13c044f2d13d9413cbc4f0420aec13c104f3713c9013d784f1e13c1413c144f3313c7c13cb44f3313d8813d744f2a13cc813ca84f1b13cdc13cdc4f6713d8413ccc4f6413d8413d844f6e13ddd13d7c4f3013d9413cc04f1f13cc413cc44f0313c0813c084f6313d8813d804f2913cc813cc84f6813d8813d884f6b13de913ca44f2420af413c904f1e13c8013c784f1c13d8c13d8c4f6d13de113d904f6c13dcd13c7c4f1b13d9813d984f6a13de513da04f6f13dc513c804f1d13da413da44f7413dc113ddc82b820af413de482b720af413db84ef513c6813bd44f1b13c7413dbc4f7020ad813dc04f7813c6813dc44f7313cac13dcc4f2113c6c13dd04f2b13de013de082bd20ae813dac4f7a13c6c13c6c82bd20aec20af401a821ef421ef414620518c0518c881d2073420734000004ec220420000016dba2041c000016db620408000016dc220404000016dbe203500000139962033c0000139a22033800001399e2033400001399a202d0000011d66202cc000011d62202c8000011d5e0667889b7202c4202c4000011d5a2022000000eb6e2021c00000eb6a2021800000eb662020400000eb72)
  (.lf 0)) (.nd (.lf
  0x966025c8097e80976c2613097e509790260c097e5096682597217140965c25bf0966c0966c2606097e8097e425ce097e8097e825fb097f5097dc25ce097f0097ec25fe097f0097f025ff09801097f425c9097440980025c809744097442608098080972425ba097580973825a32170c0968c25d60970c09758260709804097fc25cf09814097e025a0216fc0968025cc0981409814261209859098482616216fc0985825c02170c0973025d209808097f825bd096900969025d2096f80974826040980409810260c0984d09804260e0985d098382594096e40973c25be09740096f825ba0981809820260f09845098442613097280974025a2096840968426030980809808260b098690982c261a096e80984c25c0096e80965025ba096f0096e885c52170c0981c85be09855098542593216f80964c85c3096f009818260a098650982825bb2170c2170c05a2231e4231e423e920648200d000000964a09648252b094a80983025bb097000970085c4216f80972025c3217140970c25bd096fc096fc25bc09824098242614098410985025ca098601b3906c8e216cc1b3846c8e1b2201b23885b4216b8216b805b72319023190240e204380903824a80938c)
  (.lf 0)))

def aesGateTree98 : BTree :=
  .nd (.nd (.nd (.lf
  0x14a9452af14ae914a9852ae14ad514a9c52b414ae114984525d14aa014aa052ac14aed14aa4821e14add14aa852b114acd14988525f14aac14aac52b614ac914ae482202089414aec821f2089414adc523620878148d882231497c14ac0523714970148dc525d1497c1491482202088414ad052b82087c14ae052632088c14ab452bc1497414af082222088014ad8526d14ae814acc52b5149b4149b482202087c14ac452b22087814ac852ba1497014ad452631497414ae882252088814ab8525e1498c1498c8224208781497c82242088814ab0525e2088c14abc525e2089014978525c208801497482252088c1497082212087c0d0e834470d12d0d11c344b007b80d12c33f5007a8007a801ca000540072801aa000d4006a8018a0015400628007523a3023a3000000fef20cfd401e9007bc007a401c9000580072401a9000d8006a401890015800624007623a3423a3400000fef60cfb801ec007b8007b801ce000440073801ae000c4006b8018e0014400638007123a2023a2000000fefa007bc01cf000400073c01af000c0006bc018f001400063c007023a1c23a1c00000fefe0fef03f4f0fd380fd3800000fd4a0fd483f790fe100fde43fb80fe3d)
  (.lf
  0x22ec08f20234902a280a9502a4502a540a4c02a6402a400a9121a7802a440a99028e802a6486a521a8802a0c0a8c02a6d02a300a9b028ec02a6c86a221a8021a8804c3237a8237a82ce10b3802407c041721c3824080041621c3c21c3c00000261a027f086960282902828098821a5802620869b026c4026c4869c21a6823edc047f21c1823ef8047821c3423eec047b21c2821c3408820227c0220808ab0230021c180000023ee023ec08940224c0224c08ba0230c022ac08a3022fc21c2808a90228c0228c08c3023080230c08e702325028fc0a3b02a1c02a1c0a8b02a6902a2c0a3c21a8c0283c869a21a6021a6804cb23788237882d820b6dc0b6dc2c800b1fc24090041221c4c21c4c000002612026100916024540245809130250c24084041521c4021c40091202444024480913024a80244c093e0245c0245c09440246002510097c02589028ec86a521a8c23ee0047e21c1c23ef0047a21c2c21c2c0000023e2023e0088a02224022280887022dc022180887022780221c08b20222c23ee8047c21c2421c2408840220c0221008a402310022500891022c8022c808c6023100231086860234921c1c0000023ea023e808900223c0223c00000224a))
  (.nd (.lf
  0x6b048a6306ec40d7cc841a2106021068034b227d4227d41bc606fec06fec1ac406b0c06b0c8a6406b1406b14000006ec6227a41b492030c06d241baa06f3c10118841221040210480353227b421060034d227cc227b41b4006cfc06d008a5706d0410ddc438210df910e1484202109410e1c841f2109410df8438610ca010e08433910e1810e188425210882109403402280012e704ba712e8d12ea884082103412eb084072103412e8c4bab12d3412e9c4b5e12eac12eac840d21028210340358227a0227a01b4e22974227b01b4406d0c12cd884082102412eb4840a2102012d7884082101c12d3c4b4d2102021020035d2278c2278c1b5406d4c10c4484202108410e2084222108010ce484202107c10ca8432821080210800345227ec227ec1b2d22978227cc1b3806cdc06cdc8a6206ce406d0c1bc306ce406ce4000006f3606d2080c206d0406d108a5606d04228001b2106c8006c80801606ea806d04000006eaa06ea88a5d2296006ec48a61229742297445cb117a01172c45f31182006d5080c22296806cb41bcb06f3406f348a5a229542296845cf11738117380000117461174445f31180c117cc7faa1181c06cd48a5c06c982104c0352227b8)
  (.lf 0))) (.nd (.nd (.lf
  0x2025800000f41616fd082e020b9416fdc82e220b80056f882d820b740552482d820b640570482da20b6020b80018521f8021f8013dc2209c04f70139704e3420b60018d21f6021f6013cf04f4004f3c7fe92025004e5c8001202502025000000f1f216fd482e520b8816e6882e420b8820b94018021f9421f9413e3220a804f8c13b404e7804f2c7fe704e7804e7880002024c056fc82dd20b6820b74018821f7421f7413d604f5c04f587fe82024c20b90018121f9021f9013e104f8804f8480922024c2024c00000f1ee0558c82dc20b6820b70018921f7021f7013d52000004f54139c04dd020b2c019a21f2c21f2c13ba04eec04f8013a404e7004eec7fff04ee404ee4000004e7204e7080921ff9c2024800000f1ea20ab801b721eb821eb8144b1ffd0050f013ab04dd40519c00000519605194137504dc80512c13b004dd404dd47ff0202442024400000f42220b18019f21f1804efc13b404e0c21f1814731ffa8051cc13a904e0c04e0c80022023404d5814ad052b8052b47fea202342023400000f1f60527c7fe92000820008000004d4e052b8800104e98051d088232000420004000004d4a20000000004d4604f887fff04dd01fffc000004d42)
  (.lf 0)) (.nd (.lf
  0x1c4d071381c51d1c3408490212441c4e870e91c3b81c4e070e92124c1c4ec70e9212501c3a470e7212401c39c84912123c2124402d422ad41c4cc71401c5111c51c848f212541c4fc71411c3e01c3e084902123c1c50071442123c2123c02d622acc22ad81f5807d5c07d608b202077c22ad41f5b07d6807d6c8b1f2077c22acc000007d7607d741f5f07d7807d7c805d2077c2077c000007f0a09224816c206302063000001d24e091dc818a2062c09208816b2062c2062c00001d24a0927c0000092f20920c24bc09390092f0818a205a82062800001d24608eb08165206142061400001d2520921824b7093940940423ae08eb408f8c8cde2337c1d24474231d0881d08800001d09a1d098744e1d1641d138748d1d19108eb48cdd092c80922824b209388092c88ce02337023380741b1d0e0092dc8cde2336823378741d1d0701d074743c1d17423374741f1d0781d07c74201d0dc1d24874271d1041d24c74291d0a01d0a4742a1d0941d250742d1d0b01d0b4742a1d1281d0a874491d0b82337c74411d1341d104743c1d17c1d0f074381d1781d0e074371d1581d0dc74491d1541d12474501d13c1d13c74901d1811d08c74201d1401d140748e1d18d)
  (.lf 0)))

def aesGateTree99 : BTree :=
  .nd (.nd (.nd (.lf
  0x18094604c1809d180985fd317f48180a05fd518010180a85fd917f5817f645fd217fdc17f485fda1800417f686044180b0180ac60061801018010600e180b0180b0602d180d5180b85fdc1800418004601200d981809c600c18048180486041180bc180b46037180bc180bc6030180e9180a45fd717f5817f58604017f6c17f6c6043180c817f706009180c8180c06032180e0180c4603a180c8180c86034180cd17f4c5fd400d8817f546005180d817f5c5fd400d8017f505ffc17f6017f606042180d8180d4600b180d8180d86037180e5180dc603a180e0180cc600b180e0180e0603b180f1180d05fdd00d9817f746009181041802c5fe000d8817f80601318000180e85ffa17f8417f84600f17fec18024600f180f8180e4600618038180185ff71804c1804c6043180f41803c6040180f4180f4604a1814d180ec600c18104180305ffb18034180345fdf17f7817f78603f180f8180f0600518038180386044180f8180f860471815918014600000d80180005ffa17ff017fe85ff8180fc180fc6049181511810c03671814518110604b1813517ff05ff91811418114605018131181445fd000d9c17f40036217fe4181285fd117fd817f445ff717fe4)
  (.lf 0)) (.nd (.lf
  0xd9cc35f90d8780d7e4361f0d8840d87c83fd20fec0d9f883f720ff420ff40368227601eea484c0213141ed3084c52130c2131402a022ba422ba41f0122cf407c041fc307f382131002a122ba022ba01f02201a007c081fd907f742130c02a222b9c22b9c1f032019c07c0c1fdf07f9007c1c1ff207c242130002a522b9022b901f0a22ce807c281ff607fe807c30000007c3a22b801f1307c4807c4c59cc2019c1dfb084b8212e41e19084ba212e0212e002ad22b7022b701f1807c5c07c6059ce201841c2e484b0212d41c2d470621c1701c17084b5212cc212d402b022b6422b641f1d22cc81c2e07062212cc1c18884b4212b8212d002b122b6022b601f1e2007c07c801fdf07c2407c24000007fce07c588b3622cf017a685ea717ac1179a05e57179a4179a45e3b178e8178e85e9c17a6c17a6c5ea417acd179845e5c212b4179705e5617960179585e5417a7017a705ea617ac5179605e5517a8817a885ead17aa5178b084ab1795417a9c5e2d17948178b45e531795417a905eb31794c17acc84aa212a017aa45eb11794817ab45e6317ac417ac484ad212a81795484ac212a8212a802bb22b3822b381fdf08040080401ee407b8c07b908b3022cd8)
  (.lf 0))) (.nd (.nd (.lf
  0x135ac4d8d13674135944d8d13688136347fb8136841fee04da513690065308993064f42264c467c1feac0684818d9063600635881010671c0636489912265422644465a119640684418db0636806368899b0637006360899a0671c0637000000671e0671c899822650226504656119cc11958467e11a4c1196400001197211970467e11a38119f87fab11a481feac469611a54063d818f722610066a418f720220063dc00002260e22618394e0e5ac0e53839760e62c2260c39520e5440e54400000e5520e55039760e6180e5d87f930e6282261439741fe4c1fe4c398e0e634226fc18711fe380635489bd226f8226f4184f06138061380000061460614418730620c22700184b061a00612c187306220061cc7f8e0621c1fe38188b062280620c18ba06269226f8184d0613006134186c06230063001853061480630c185d0617006174185a061e80614c1850061fc0613c18500619c06140187a06150061e8188e0623006230835e06269061501880061540630818590616006164185a06154061540000061ae061ac1886062080621818b30624d063041857061c40616000000616e0616c188a0621c0615c18880621c0621c18b00623d061c4186c06238)
  (.lf 0)) (.nd (.lf
  0x192b4645a19150192bc642d21918190b4864b191581929c6455219301916464561928c19158864c219281929864551916819168864c219182193005192352c2352c279e204980ade0865d2196c0af548658219742197405082357023570278409e0c09e108126205e420498000018e7a18e78633318d3418ccc636518d9018a10865221940188d086502193c187f486531889818898865421948219480513235442354427b609fb809fb826e009b7c09b7c8d9e0a014189d062252194c189dc622521950188946223219401888c86512193c188308650219442194405142354023540279509e502193c05162353823538000009e6209e60279a09e6409e6881820a01409e548da70a0140a014000009e9a192a464aa2191821978050723574235742782205ec09e0827a509f9009e6427c309f9009f9081282060c21918051f235142351426e6204a009ab08128205ec204a0000018e8209dfc27d709e0409e04000009f722194005152353c2353c27972367409e5c27b709f7009f7081272060821960050d2355c2355c278b09e2809e2c8127205e81928c64ae192a9192a864b21914c192b86464192c8191606454192801928064a4192cd1929064552192c)
  (.lf 0)))

def aesGateTree100 : BTree :=
  .nd (.nd (.nd (.lf
  0x487411dd047100471011f204778047b011f2048840487011e9047c4047a411da047d8047d8122604880047c812230488004880122d048d90487811ef04890047bc11de047c0047c011c204704047041222048840487c11e8047c4047c412270488404884122a048e5047a011e3209540478c11dd0477c0477411db0488804888122c048dd0488c122b048c9048901231048d50477811da04894048941229048e104898824e048d10489c122e048c10477c11dc048a0048a01233048bd048d8825020954048e0824f20954048d011b320938046cc825304770048b411b404764046d011da0477004708825020944048c412352093c048d411e02094c048a8123904768048e4825220940048cc11ea048dc048c01232047a8047a882502093c048b8122f20938048bc123704764048c811e004768048dc825520948048ac11db047800478082542093804770825420948048a411db2094c048b011db209500476c11d9209400476882552094c0476482512093c046bc1142045040450400000451604514116c045dc045b011ab0460922030113c044ec044f0115b045ec044f8113f04558046c0114604580046c411480451c04520114904510046c8114c0452c)
  (.lf
  0x2e680ba302ec902d9c0b3b21aec02cec0b6f02d6c02d840b5b21af402d6c0b5502d5c02e580b5502cf002d540b5302e6c02e6c0ba502ec102c640ac821ad002c600ac802b3402c580ac821acc02b200ac621ac002d880b5202dbc02dbc0b9f02e6423f70045a21cac02cf00b6b02d5802dac0b9c02e6402e640ba602ebd02d5c0b5402e8402e8c0bb202d4802ec886ba21ae002e7c86b602eb502eb40b2b21ad802cac86bb02d5002e980b2c02d4402cb00b5202d5002d5086bc21ae802e840bac02ea102eb00b6302ec002e800ba702ea502e9c0ba821ad802ea00bb002d4402ec086bd21ae821ae804ab23808238082d8f0b6c423f64045d21ca023f6c045b21ca821ca87f2c1ff6c23f78045821cb421cb47f061fc8c21ca07f0a1fc241fc2400001fc321fc307f2e1fcf81fc187f2e1fd0c1fcb87fdb1fd081ff6c7f461fd140b2a02d8c0b2a821cac00001fdee23f74045921cb021cb000001fdf223f60045e21c9c21c9c00001fdf623f5c045f21c9821c9800001fdfa1fdec7f0e1fc341fc3400001fc461fc447f381fd0c1fce07f771fd3923f68045c21ca421ca47f081fc1c1fc207f271fd1c1fc287f0b1fc881fdf07f121fcb01fdf47f141fc4c))
  (.nd (.lf
  0x16b2c5ad316b6916a185a8216b3416b345ad116b8116b3c5ad616b6116a1c5a8416b4016b405adb16b5d16b78838020e14169a8838020e0416b485ae116a0816b84838220e0016b6c5a9216b7c16b605ada16a4816a48838020dfc16b4c5a8316a2016b445a8320e0c16b505a8320e1016a0c5a8120e000e4ec38d50e3500e35438d20e3c80e31c38c80e37c0e4e038cb0e3280e32c38c80e3dc0e32038f20e3300e3c839060e410229e838c50e310229f000000e4e60e4e438cf0e3a40e3a438e40e4180e31438e40e4100e39038e00e4140e38038df0e3f40e3f439310e4210e418392d0e4210e42038ed0e3cc0e33038f80e3340e4e838d10e3400e34438d20e3340e33400000e38e0e35038fa0e40c0e38c38fe0e3e80e3e839360e4250e40c39270e4250e42438b60e3940e37c38f10e3f00e32800000e33a0e34838f10e3580e33838f50e4000e33c39000e3fc0e3c438f70e3d80e400392a0e4290e3dc39350e4290e42838b80e2dc0e34000000e34e0e34c39020e3fc0e3f8392b0e42d0e3fc39280e41d0e3d439340e42d0e42c38ba0e2dc0e2e838b30e3600e3d839370e41d0e41c38b40e2cc0e2cc38bb0e3880e2ec39250e4340e2dc39210e2f0)
  (.lf 0))) (.nd (.nd (.lf
  0xbe942f770bdd80bdd82fd80bf5c0bf542f9d0be980be982fdd0bf5c0bf5c2fe00bfbd0be742f98013a00be602f920be500be482f900bf600bf602fe20bfb50bf7004ef0bfa90bf742fe40bf990be502f910bf780bf782fe90bf950bfa82f68013bc0bda004ea0be440bf8c2f690be380bda42f8f0be440bf802fef0be3c0bfbc04eb013b40bf902fe5013bc0bf942fed0be380bfa42f9f0bfb40bfb404e8013ac0be4404e9013ac013ac04cb015ac0132c04ab0152c018b4062901590013100000018a6018a40625015100138804c2015880130804a2015080138404c1015840130404a10150401290000001896018940621014900121000000188601884050423e48018bc062b0159c0131c0000018ae018ac06270151c0129c00000189e0189c06230149c01284048101484018b8062a01598013180000018aa018a80626015180129800000189a01898062201498012880482014880121c00000188e0188c050723e3c0121800000188a01888050623e4001204050123e5401208050223e5023e500000123de23e540000123e223e400000123e623e3c0000123ea123dc488a12224122240000122361223448b4122fc122d048f31232923e4848841220c)
  (.lf 0)) (.nd (.lf
  0x89b022cb08b9c2147c024622e3022e302246089140891422e708ba41bc346f0e2143821438025722dec22dec22602045c0898022c208b9c08b9c81be206b808c5421d508750087548170206b821478024722e2c22e2c2247206b8206b800001e83208e9885222148008cb88520214841bc1c6f121bc391bc5c850f214541bc486ec81bc581bb2085102143c1bc386f161badc1bae46eb7214401badc85112143c2143c025622df022df000000897608974225f089780897822e308ba80891881ad08b0421480024522e3422e34224422fc00891022e308b941d4c08518214641d6a0851a2146021460024d22e1422e14224f089380893c7033206b41d88c762e1d8a91d8cc8507214341d8b875e41d8c81d79085082141c1d8a876321d74c1d75475d3214201d74c85092141c2141c025e22dd022dd022e308c6808b8c81bd206b4206b400001e82e2064000001d47e090e8818f232cc2063c00001d47a2063800001d4762062400001d4821d47474af1d2b81d2b800001d2ca1d2c874da1d3941d36875191d3c1232cc74a71d310232c474a91d2a01d2a474c81d3a4232c074ab1d2a81d2ac74ac1d30c1d47874b31d3341d47c74b51d2d01d2d474b61d2c4)
  (.lf 0)))

def aesGateTree101 : BTree :=
  .nd (.nd (.nd (.lf
  0xa58031623c0023c0000001518200bdc02d700ddc00b5c02b700d5c00adc029700cdc00a5c031723bfc23bfc0000151861517853f114fc014fc0000014fd214fd0541b150981506c545a150c500bd002d400dd000b5002b400d5000ad0029400cd000a50031423c0823c0853eb14fa814fac540a150a814fb453ee150141517c53f51503c1518053f714fd814fdc53f814fcc1518453fb14fe814fec53f81506014fe0541714ff01503c540a150b0150285406150ac1501854051508c150145417150881505c541d1507015070545d150b514fc453ee1507415074545b150c114fb8541814fc814fc8541e14fcc150785456150f114ff0541f1509c1507c5455150c914fcc00001502614fe85420150a41502454241508015080545c150bd150845458150e1150885454150d51508c5457150b9150905451150c514fd454261509414fd8000014fe614fe454281509415094544e150b5150985450150c114fa854281509c1509c544f150f1150a05459150c9150a4544d150bd15060542c150a8150a8037f150e1150ac5452150d5150b05453150b9150b453da14f64150bc53dc1502c150c453e014f7414f8053d914ff814f6453e11502014f84544b150cc)
  (.lf 0)) (.nd (.lf
  0x22bc41fb607ed407ed8370d22d280dc3436a20daf40da8836d40db4c07be81efb22d201ec7884e5213881dd2884dd2136821388028322c1822c1820000801821368028b22bf822bf81fa207e8407e841fd208000080008b4922d102132c029a22bbc22bbc1fb907ee007ee41efb22d4407bec000022d1222d1036bd0dadc0daf436b80db680dae036b30db6421318029f22ba822ba81f00202540dad836d20db380db4836ff0db7d0da8c00000da9a0da7400000da8607c001fca07fc007ef08b4907f2807f288b5222d1807ed01fbf07fc021374028822c0422c041f9d07e7007e708b5207efc21394028022c2422c241f8f22d3807e3c1fbf07f5407efc8b4a22d1822d1836960dacc0da5836bf0db500da6400000da720da7036bf0db3c0dafc36b70db4c0da9836d60db4c0db4c36fc0db6d0da9436c50daa40dacc36b20db440dac836c50db400da8436c90db500db2437080db7d0db7c368d0da280db1436cb0db280db28370b0db6d0db6c36870da180da3436860daac0da18368e0dad40da3836f90db840db5036fe0db790db2c37090db790db78368b0da280da2836f50da3c0da3c36f80db9c0db6837010db710db4437050db710db7036c10db1c)
  (.lf 0))) (.nd (.nd (.lf
  0x62f4836520d8820d940100222b8222b81690223cc0e6fc835820d740e700835d20d6820d7401082229822298169d05a7005a7088f705afc20d440114222682226816ae05ab405ab4000005abe05abc16d805b9805ad016bf05bc005a4016bf05b54062fc836220d8006120836020d8420d800105222a4222a41697223c00e52c835820d640e708835a20d6020d60010d222842228416a405a8c1375c834d20d2820d28011b2224c2224c16bc05aec05ab888f105c8005af088ee05b2811b20835520d4820d540110222782227816a6223ac05a8c88f405b9805a5c16dc05b9820d4801132226c2226c16cf05c1c05c1c15fb057e8057e888e805c8005c80000005afe05afc88ef223ac20d18011f2223c2223c1601202d80580416ca05bc005b2888f7223ac223ac572b15d2015cac575315da005b9888ec2239c2239c572f15cb815cb8000015cc615cc4575315d8c15d4c7fca15d9c06188836420d8820d880103222ac057ec15fc223b4135e8834d20d2c20d2c011a222502225016b905ae005ae415fc223d8057f00000223a60e594835c20d6820d68010b2228c2228c16a205a8405a8416d205c00222ac170005c1805c0088ee223a4223a457511ff28)
  (.lf 0)) (.nd (.lf
  0x205f800001cbbe1938885fc217e8217f00569233ec233ec276309d8809d8867fe09f7818c3885f5217c8217d40570233d0233d02771235a0197e88604218082181005612340c09dc427ab09f782340c2756200e809d5827db09f7809f788d6d205f40a0c085ed217ac217b40578233b0233b0270309c0809c08817d0a020205f400001cbba173c85cbe17318172f85caf1732c1732c5cfc173d8173cc5cb217264172645cc7172cc173b45c952165c172545cc1173e8173045cc7173dc1731c5cf9173d8173d05cc4173e8173e85d071742d1741c5d0b2165c173185cfd173dc173f45d0417419174185d08172fc173105cb317314173145c9717258172585cf8173dc173dc5d001743d173d85d03174311740c5c89172b8172245caf172c4173e45d0117421174205cb5172bc172cc5caf173ec174005d0f172bc172bc859d2166c173ec5cff17439173f08596174291742c5cb52166c174285c882165817220859b172c4173fc5cb02166c2166c05ca23144231442433090c82340027ec09fbc21798057f233942339427a42051009e9027b309f50194f485f8217f4217a4057c233a0233a0274a09d2409d24274c09f8809e44816409d3009d30000009f5a)
  (.lf 0)))

def aesGateTree102 : BTree :=
  .nd (.nd (.nd (.lf
  0x1f8407e2b1f89c1f89c7e631f8d91f8a07e5f1f8fd1f8a47e5b1f8f11f8a87e5e1f8d51f8ac7e581f8e11f7f07e2d1f8b01f7f400001f8021f8007e2f1f8b01f8b07e551f8d11f8b47e571f8dd1f7c47e2f1f8b81f8b87e561f90d1f8bc7e601f8e51f8c07e541f8d91f87c7e331f8c41f8c481ee1f8fd1f8c87e591f8f11f8cc7e5a1f8d51f8d07de11f7801f8d87de31f8481f8e07de71f7901f79c7de01f8141f7807de81f83c1f7a07e521f8e81f8e47e141f8481f8487e1c1f8e81f8e87e3b1f90d1f8f07dea1f83c1f83c7e20207bc1f8d47e1a1f8801f8807e4f1f8f41f8ec7e451f8f41f8f47e3e1f9211f8dc7de51f7901f7907e4e1f7a41f7a47e511f9001f7a87e171f9001f8f87e401f9181f8fc7e481f9001f9007e421f9051f7847de2207cc1f78c7e131f9101f7947de2207d41f7887e0a1f7981f7987e501f9101f90c7e191f9101f9107e451f91d1f9147e481f9181f9047e191f9181f9187e491f9291f9087deb207bc1f7ac7e171f93c1f8647dee207cc1f7b87e211f8381f9207e081f7bc1f7bc7e1d1f8241f85c7e1d1f9301f91c7e141f8701f8507e051f8841f8847e511f92c1f8747e4e1f92c1f92c7e581f9851f9247e1a1f93c)
  (.lf
  0x2f1c0bfb02f9c02fb80bde02fec02fec0c2b03094030ac86be030e5030e40bb721af8030700bc421afc02f100bf1030a402fc40bf7030980308c0bf4030a402fd00be202fd402fd40bc602f1402f140c2703098030980c2f030f9030bc0c3e02f78030880be102f2002f200bf702f88030b00c33030d5030cc0c3421af802fdc0c2803094030940c32030ed030c80bb802f7402fb40be721b1402f9c0be102f8c02f8c0be0030b4030b40c38030d102f840bdf0309c0309c0c31030f1030e00bef030f0030d00c3c02f74030f086c521b0802ee00bde02f8002edc86c302f8002f8086c421b08030f886c221b0021b0804a323828238282ca90b2a0030a00c30030dd0b2a48e602078c030c40bdf21b10030a40c36030e902f880bde030a8030a80c2e030f5030b80bdf21b0c030c00bdf02f9002f7c0bdd21b00030d80c3a21afc030d40c3702fbc02f7486c121afc02fbc86c021afc030f486bf21b1421afc04a62381c02f1886c021b042381c2cb10b2c00b2c480442078c21b0404a423824238242cac0b2ac0b2b08e5f2078c2078c00000b592240c4040521d8021d800ce503390240bc040721d78240d0040221d8c21d8c00000355a035580ce9033a0))
  (.nd (.lf
  0x6b7080fd06eb006bcc1bad06fb020f98037f2270406dc41bae06fb0227041ba5203f406da01bd606fb006fb080fd201dc203f4000016b9607f5080a32019007d50806422c842019000000d5a607d9c8063202882018c00000d5a22017800000d5ae2017400000d5aa074608430210d4210c003352282c2282c1b0c2299806c301bda06fa407b408b2c07f2c07b348b2b07b3007b28809d07b3007b30000007f2e0d5a835000d3fc0d40035010d3f00d5ac35040d40c0d41035010d4880d40435210d4140d41435290d4c407f2c8b2e22c840d40c352a0d4cc0d5a434fe0d46422c8035190d44c0d46435140d4d822c7c34f40d3cc0d3d035140d4d00d450350f0d4d422c8434f20d43c0d43c350e0d4b422c7834f60d3d40d3d834f70d4380d43835210d4b00d48435270d4980d3c8351b0d4c00d3cc35320d4c40d3d400000d3e20d3e0351b0d4ac0d3fc00000d40a0d40835320d4bc0d46c35130d4bc0d44c35330d4c80d4c835630d4f10d4a4355f0d4f10d4f035170d4540d49835670d4dd0d5a034fa0d3e40d3e834f70d49c0d49c35650d4e90d3dc35220d3ec0d3ec35280d3f00d3f000000d44a0d448352e0d4a80d4a835660d4e50d4cc35570d4e5)
  (.lf 0))) (.nd (.nd (.lf
  0x52fc14f20537c0539414d6053c8053c8152205470054701529054c90539014df20b540537c14d90536c0536414d705478054781528054cd05480152d054c50548882ce054c1054c014af20b38054a414b005354052c014d605360054b4153120b3c054c414dc20b4c0536814d605484054841525054d10548c152a054b1052bc82d305360054b0152e05398054b814dc053580537082d420b380536c14d8054900549414d720b4c054a014d720b5020b30019921f3021f3013bc1ffa020b8c018221f8c21f8c13e0207280535882d520b4c20b4c019221f4c21f4c13c720248056c4156220b6c0558482dd20b6c20b6c018a21f6c21f6c13d304f5004f50882904e480536082d420b4820b50019121f5021f50000004f3204f1c139204dcc04f3013ca04f2c04f2881ca1f54004ef0139e04e4804e487fff207282072800001f53e2024000000efc60592c80fa05b500599816c105b5005b5080ac2023c05954808f223182023c00000efc2059a0808e202ac2023800000efbe2022400000efca059b416cb05b9c0573c88d0057380573080a60573805738000005b2e0574888d105b2c05b2c88d322318223183b7a0ee5c0ede83ba20eedc2230c3b7e0edf4)
  (.lf 0)) (.nd (.lf
  0x2178c0582232642326424782046021740059523218232182495233500925424b509368092d48ce1233740940c00000928e092bc8ce4233600920024a3093880925024bd0932c2323c24bd0940408f888ce20928c0928c8ce4233800928024b4092f4091e024b4092f0092d08ce32337c1a224681b1a0681a06800001a07a1a07868461a1441a11868851a1712339068131a0c0092f48ce2233542338868151a0501a05468341a1542338468171a0581a05c68181a0bc1a228681f1a0e41a22c68211a0801a08468221a0741a23068251a0901a09468221a1081a08868411a0982338c68391a1141a0e468341a15c1a0d068301a1581a0c0682f1a1381a0bc68411a1341a10468481a11c1a11c68881a1611a06c68181a1201a12068861a16d1a06068421a0701a07068491a0741a12468811a19d1a098684a1a1481a12868801a1751a07400001a0ce1a090684b1a1501a0cc684f1a12c1a12c68871a1691a05800001a0661a064683b1a1301a13068831a18d1a134687f1a1811a13868821a1651a13c687c1a1711a04c683b1a1441a07c68511a1401a08000001a08e1a08c68531a1401a0ec68451a1401a14068791a1611a144687b1a16d1a05068531a148)
  (.lf 0)))

def aesGateTree103 : BTree :=
  .nd (.nd (.nd (.lf
  0x125404977125491254448fe123f41254c4900124bc125544904124041241048fd12488123f44905124b012414496f1255c125584931124bc124bc49391255c1255c495812581125644907124b0124b0493d009f8125484937124f4124f4496c125681256049621256812568495b125951255049021240412404496b1241812418496e125741241c4934125741256c495d1258c1257049651257412574495f12579123f848ff009e8124004930125841240848ff009e0123fc49271240c1240c496d1258412580493612584125844962125911258849651258c1257849361258c1258c49661259d1257c4908009f8124204934125b0124d8490b009e81242c493e124ac1259449251243012430493a12498124d0493a125a4125904931124e4124c44922124f8124f8496e125a0124e8496b125a0125a04975125f9125984937125b0124dc4926124e0124e0490a1242412424496a125a41259c4930124e4124e4496f125a4125a4497212605124c0492b009e0124ac49251249c124944923125a8125a84974125fd125b8027f125f1125bc4976125e11249c4924125c0125c0497b125dd125f048fb009fc123ec027a12490125d448fc12484123f0492212490)
  (.lf 0)) (.nd (.lf
  0x1c2b8705d1c1881c2b0705d212cc1c2bc705d212d01c174705b212c01c16c84b1212bc212c402b422b5422b541f2307c881c29c70b41c2e11c2ec84af212d41c2cc70b51c1b01c1b084b0212bc1c2d070b8212bc212bc02b622b4c22b4c000007c9607c941f2707c9808ad481bc08a5808a548c0c08a5808a58000008afa087f4802708b4008b408c182305008c1821fc087ec087ec8c1908af808af88c1b2305c1e19477f71dfd81dfd800001dfea1dfe878221e0b41e08878611e0e12305c77ef1e030087f08c15230582305477f11dfc01dfc478101e0c42305077f31dfc81dfcc77f41e02c1e19877fb1e0541e19c77fd1dff01dff477fe1dfe41e1a078011e0001e00477fe1e0781dff8781d1e00808aec22cf08b6008b3c8c1a2305808a7c8c1608b842305878151e0841e05478101e0cc1e040780c1e0c81e030780b1e0a81e02c781d1e0a41e07478241e08c1e08c78641e0d11dfdc77f41e0901e09078621e0dd1dfd0781e1dfe01dfe078251dfe41e094785d1e10d1e00878261e0b81e098785c1e0e51dfe400001e03e1e00078271e0c01e03c782b1e09c1e09c78631e0d91dfc800001dfd61dfd478171e0a01e0a0785f1e0fd1e0a4785b1e0f1)
  (.lf 0))) (.nd (.nd (.lf
  0x22600000005eae05eac174105d6c05d6c175605de0225f4173705cd805cdc175605dd805d58175205ddc05d48175105dbc05dbc17a305de905de0179f05de905de8175f05d9405cf8176a05cfc05eb0174305d0805d0c174405cfc05cfc000005d5605d54177005db005cf0000005d0205d00176705dc805d9c17a605df505d10176305d2005d44176305db805d8c176905da005da017a905de505dc0179d05df505df4172c05ca405cb0172505d2805d08000005d1605d14177405dc405d04177205dc405dc4179a05de505de4172605c9405c94172d05d5005ddc179e05e0505db817a005e0505e04172f05d5005d50176520cbc05d94179405e0805da417a705df105da817a205e2105cb4179705dfc05cbc175c05e1405d20176b05dcc05d18176c05dd405dac17a105df905db017a805ded05db417a405e1105dc8179c05df105dd4179905ded05dec172805d5c05cd8177405dcc05dcc179b05e2105dd017a505df905df0172a05ca405dd8832e05e1105df8175905d5c05d5c176105dfc05dfc178005e2105e00178a05e0805e08178305e3505ca4179305cb805cb8179605e1405e0c178505e2c05e10178d05e1405e14178705e1905e20175e05e24)
  (.lf 0)) (.nd (.lf
  0x1e9387a631e9841e98485761e9bd1e9887a891e9b11e98c7a8a1e9951e9907a101e83c1e9987a121e9041e9a07a161e84c1e8587a0f1e8d01e83c7a171e8f81e85c7a821e9a81e9a47a431e9041e9047a4b1e9a81e9a87a6b1e9cd1e9b07a191e8f81e8f87a4f215dc1e9947a491e93c1e93c7a7f1e9b41e9ac7a751e9b41e9b47a6e1e9e11e99c7a141e84c1e84c7a7e1e8601e8607a811e9c01e8647a461e9c01e9b87a701e9d81e9bc7a781e9c01e9c07a721e9c51e8407a11215ec1e8487a421e9d01e8507a11215f41e8447a391e8541e8547a801e9d01e9cc7a481e9d01e9d07a751e9dd1e9d47a781e9d81e9c47a481e9d81e9d87a791e9e91e9c87a1a215dc1e8687a461e9fc1e9207a1d215ec1e8747a501e8f41e9e07a371e8781e8787a4c1e8e01e9187a4c1e9f01e9dc7a431e92c1e90c7a341e9401e9407a811e9ec1e9307a7e1e9ec1e9ec7a881ea451e9e47a491e9fc1e9247a381e9281e9287a1c1e86c1e86c7a7d1e9f01e9e87a421e92c1e92c7a821e9f01e9f07a851ea511e9087a3d215f41e8f47a371e8e41e8dc7a351e9f41e9f47a871ea491e9f87a861ea351e8e07a341ea001ea007a841ea4d1ea087a891ea2d1e8e47a361ea0c)
  (.lf 0)))

def aesGateTree104 : BTree :=
  .nd (.nd (.nd (.lf
  0x3f840f9003e3403e400f8903eb803e240f9103ee003e440ffb03f8c03f880fbd03eec03eec0fc503f8c03f8c0fe403fb103f940f9303ee003ee00fc92089c03f780fc303f2403f240ff803f9803f900fee03f9803f980fe703fc503f800f8e03e3403e340ff703e4803e480ffa03fa403e4c0fc003fa403f9c0fe903fbc03fa00ff103fa403fa40feb03fa903e280f8b208ac03e300fbc03fb403e380f8b208b403e2c0fb303e3c03e3c0ff903fb403fb00fc203fb403fb40fee03fc103fb80ff103fbc03fa80fc203fbc03fbc0ff203fcd03fac0f942089c03e500fc003fe003f080f97208ac03e5c0fca03edc03fc40fb103e6003e600fc603ec803f000fc603fd403fc00fbd03f1403ef40fae03f2803f280ffa03fd003f180ff703fd003fd010010402903fc80fc303fe003f0c0fb203f1003f100f9603e5403e540ff603fd403fcc0fbc03f1403f140ffb03fd403fd40ffe0403503ef00fb7208b403edc0fb103ecc03ec40faf03fd803fd810000402d03fdc0fff0401903fe010050402503ec80fae03fe403fe40ffd0403103fe882260402103fec10020401103ecc0fb003ff003ff010070400d040288228208b4040308227208b4040200f8720898)
  (.lf
  0xa9702a830aa300aa302ab00aa490aa0c2abf0aa490aa482a3e0a9b40a9b42a770aa580a9082a3b0a9800a95c2a890aa200a9fc2ac00aa410aa202ab10aa410aa402a3c0a8ec0a8ec2a430a9a80a90c2aae0aa580aa582a970aa7d0aa042ab90aa7d0aa282ab20aa7d0aa7c2a740aa800aa182aba0aa450a9e82a8f0aa340aa3c2ab60aa450aa442a750a9ec0aa142ab70aa610aa382ab50aa610aa602a450a9a80a9a82a7b2189c0a9ec2aab0aa640aa5c2aa10aa640aa642a9a0aa910aa682a9c0aa880a8f02a3d218ac0a8f82a6e0aa800aa242ab30aa4d0aa002abe0aa4d0aa4c2a400a8fc0a9002a3d218b40a8fc2aaa0a9100a9102aad0aa700aa102abb0aa6d0aa3486260aa6d0aa6c2aa40aa700a8f42a650a9040a9042aac0aa800aa802aa10aa8d0a9142a720aa700aa702a9e0aa750aa742a740aa880aa842aa40aa880aa882aa50aa990aa942a750aaac0aa902a630a9280a9282a780a9900a9d42a640a9d80a9902a600aab00aab02ab00aafd0aafc8627218b40b6a82ca10b2800b2808e740b5880b2588e2f0b5a41ac146b3d1ac8d01954866c219982199804ff236b8236b82d61204dc0b5842d700b64401b14866d219a8219b404f8236d4))
  (.nd (.lf
  0x2245c196c22618065b019c3067bc064b88086067bc2241819892021c0662419ef067dc067bc898a201fc20df003e92243822438197a065e4065e44415067d406324897e22620226280000110561105043a710e9810e98000010eaa10ea843d110f7010f44441010f9d065c00000065ca065c819f9067e8067e489882261020de403ec2242c2242c198106600066048988066082262043a110e8010e8443c010f8010e8c43a410eec0646c8981110541105443ab10f141105843ad10eb010eb443ae10ea41105c43b110ec010ec443ae10f3810eb843cd10ec810f1443c010f8810f0043bc10f8410ef043bb10f6410eec43cd10f6010f3443d310f4810f48441310f8d10e9c43a410f4c10f4c441110f9910e9043ce10ea010ea043d410ea410f50440c10fc910ec843d510f7410f54440b10fa110ea4000010efe10ec043d610f7c10efc43da10f5810f58441210f9510f5c440e10fb910f60440a10fad10f64440d10f9110f68440710f9d10eac43dc10f6c10eb0000010ebe10ebc43de10f6c10f6c440410f8d10f70440610f9910e8043de10f7410f74440510fc910f78440f10fa110f7c440310f9510f3843e210f8010f8082fe10fb910f84440810fad)
  (.lf 0))) (.nd (.nd (.lf
  0x1129844a7015c8112a044d811424112a844a7015c01129c44cf112ac112ac4515114241142044de1142411424450a1143111428450d1142c1141844de1142c1142c450e1143d1141c44b0015d8112c044dc114501137844b3015c8112cc44e61134c1143444cd112d0112d044e2113381137044e2114441143044d9113841136444ca11398113984516114401138845131144011440451d114991143844df114501137c44ce113801138044b2112c4112c44512114441143c44d8113841138445171144411444451a114a51136044d3015c01134c44cd1133c1133444cb1144811448451c1149d1144c451b114891133844ca11454114544519114a11145c451e114811133c44cc114601146045231147d114980575015c0114a00576015c01147444a4113241129044ca1133011478451f015dc1147c452711324114804522113681148844d0113281148c44da1149c1149c0570015cc11468452911328113280570015c8015c00550017c001540053001740014c00510016c001440059023d9823d9852d314bc014b4c52fb14c400f46004f5013d00f63c04f3013d40f50004f5013d80f6043d310f4d80f5fc3d31013c80f6083d31013c40f4c43d2f013d4)
  (.lf 0)) (.nd (.lf
  0x230040000084ce084cc20c8083880832020fa083e40838820dd08400082f820dd083f80837420d9083fc0836420d8083dc0836020ea083d8083a820f1083c0083dc212b08409084002127084090840820e6083b00831c20ef083e8083bc212e08415083e02125084150841420b3082c0082cc20ac08344083e4212208405083c02131084050840420ad082b0082b020b40836c083fc212608425083d82128084250842420b60836c0836c20ec211bc083b0211c08428082d0211f0841c0841c2108084410842021120842808428210b084550842c210d0844c083f8846e08431083d4212c0843108430211508434082d820e308434083c4212f08411083e82124084110841020b1082c0082c0211b082d4082d4211e0843408434210f084390843c20b7211bc082dc20e308470082bc20df08444083ec212308441083c8212a08441082c420ae211d4082b420ae211cc082b820d6082c8082c8211d084440844020e508444084442112084510844821150844c0843820e50844c0844c21160845d0845820e6084700839820d50839c0839c20b9082e00845c20df083a00837c20da211d40839420ba211cc082e820ed083680836820d4083580835820d308480)
  (.lf 0)))

def aesGateTree105 : BTree :=
  .nd (.nd (.nd (.lf
  0xf9dc3e240f94c0f9e43e280f8940f8a03e210f9180f8843e290f9400f8a43e930f9ec0f9e83e550f94c0f94c3e5d0f9ec0f9ec3e7c0fa110f9f43e2b0f9400f9403e6100fd80f9d83e5b0f9840f9843e900f9f80f9f03e860f9f80f9f83e7f0fa250f9e03e260f8940f8943e8f0f8a80f8a83e920fa040f8ac3e580fa040f9fc3e810fa1c0fa003e890fa040fa043e830fa090f8883e2300fc80f8903e540fa140f8983e2300fc00f88c3e4b0f89c0f89c3e910fa140fa103e5a0fa140fa143e860fa210fa183e890fa1c0fa083e5a0fa1c0fa1c3e8a0fa2d0fa0c3e2c00fd80f8b03e580fa400f9683e2f00fc80f8bc3e620f93c0fa243e490f8c00f8c03e5e0f9280f9603e5e0fa340fa203e550f9740f9543e460f9880f9883e920fa300f9783e8f0fa300fa303e990fa890fa283e5b0fa400f96c3e4a0f9700f9703e2e0f8b40f8b43e8e0fa340fa2c3e540f9740f9743e930fa340fa343e960fa950f9503e4f00fc00f93c3e490f92c0f9243e470fa380fa383e980fa8d0fa3c3e970fa790fa403e9d0fa850f9283e460fa440fa443e950fa910fa4803f70fa810fa4c3e9a0fa710f92c3e480fa500fa503e9f0fa6d0fa8803f500fc00fa9003f600fc0)
  (.lf 0)) (.nd (.lf
  0x7ddc1fc407fb422a641f8922c3407e241fc407fdc07f108b1d22c600dbfc36850daa8211b802f722a4822a481f0b2046c07c2c1fc5080102119802ff22a280815484682119c2119c02fe22a2c22a2c000007dfa07df81f8007dfc211d802ef22a6822a681f882005c07dfc1fee0801007e201fc60801008010801a202e822a281fbd200682006800000724e1e6e08478211dc211dc02ee22a6c22a6c000007e1607e141f8707e1807e181fed0800c211a002fd22a3022a301f6f22c6407dbc1fec0800c0800c8019202e407e00801907d8c2120002e522a9022a901f7507dd007dd45f42200642006400000724a07cc01d1d2006007d00000007d0a07d088b0c07fd0211cc02f222a5c22a5c1f8b202fc07e2c1ff407ff02121002e122aa022aa01f6e2046807db81ff407fdc07fd0801820464211ec02ea22a7c22a7c1f7d07df007df0801807fe420060000007242211e002ed22a7022a701f8422c3807e101fee07fbc211c002f522a5022a501fab07ea807ea8801e07d9007d90000007fbe07fbc8b1922c2822c641c1e07074070781c1f070d807d888b0f07d8c07ef41fcc07fb407d8c000007f3207b208b0b07f3007f308b1d22c3422c741c1a070dc)
  (.lf 0))) (.nd (.nd (.lf
  0x16ee05bf016f5916e585bb916f0416ee45bef16f3116e34000016e8e16e505bba16f0c16e8c5bbe16ee816ee85bf616f2516eec5bf216f4916ef05bee16f3d16ef45bf116f2116ef85beb16f2d16e3c5bc016efc16e40000016e4e16e4c5bc216efc16efc5be816f1d16f005bea16f2916e105bc216f0416f045be916f5916f085bf316f3116f0c5be716f2516ec85bc616f1016f1082de16f4916f145bec16f3d16f185bed16f2116f1c5b7416dcc16f245b7616e9416f2c5b7a16ddc16de85b7316e6016dcc5b7b16e8816dec5be516f3416f305ba716e9416e945baf16f3416f345bce16f5916f3c5b7d16e8816e885bb320b7c16f205bad16ecc16ecc5be216f4016f385bd816f4016f405bd116f6d16f285b7816ddc16ddc5be116df016df05be416f4c16df45baa16f4c16f445bd316f6416f485bdb16f4c16f4c5bd516f5116dd05b7520b8c16dd85ba616f5c16de05b7520b9416dd45b9d16de416de45be316f5c16f585bac16f5c16f5c5bd816f6916f605bdb16f6416f505bac16f6416f645bdc16f7516f545b7e20b7c16df85baa16f8816eb05b8120b8c16e045bb416e8416f6c5b9b16e0816e085bb016e7016ea85bb016f7c16f685ba716ebc)
  (.lf 0)) (.nd (.lf
  0x1b6e86dcf1b7341b734854e1b76d1b7386df51b7611b73c6df61b7451b7406d7c1b5ec1b7486d7e1b6b41b7506d821b5fc1b6086d7b1b6801b5ec6d831b6a81b60c6dee1b7581b7546daf1b6b41b6b46db71b7581b7586dd71b77d1b7606d851b6a81b6a86dbb2153c1b7446db51b6ec1b6ec6deb1b7641b75c6de11b7641b7646dda1b7911b74c6d801b5fc1b5fc6dea1b6101b6106ded1b7701b6146db21b7701b7686ddc1b7881b76c6de41b7701b7706dde1b7751b5f06d7d2154c1b5f86dae1b7801b6006d7d215541b5f46da51b6041b6046dec1b7801b77c6db41b7801b7806de11b78d1b7846de41b7881b7746db41b7881b7886de51b7991b7786d862153c1b6186db21b7ac1b6d06d892154c1b6246dbc1b6a41b7906da31b6281b6286db81b6901b6c86db81b7a01b78c6daf1b6dc1b6bc6da01b6f01b6f06ded1b79c1b6e06dea1b79c1b79c6df41b7f51b7946db51b7ac1b6d46da41b6d81b6d86d881b61c1b61c6de91b7a01b7986dae1b6dc1b6b86da9215541b6a46da31b6941b68c6da11b7a41b7a46df31b7f91b7a86df21b7e51b7ac6df81b7f11b6906da01b7b01b7b06df01b7fd1b6dc6dee1b7a01b7b86df51b7dd1b6946da21b7bc)
  (.lf 0)))

def aesGateTree106 : BTree :=
  .nd (.nd (.nd (.lf
  0x18740617d186881868861b3000041872461ad186cc186cc61e3187441873c61d9187441874461d2187711872c6178185dc185dc61e2185f0185f061e518750185f461aa187501874861d4187681874c61dc187501875061d618755185d0617500014185d861a618760185e061750001c185d4619d185e4185e461e4187601875c61ac187601876061d91876d1876461dc187681875461ac187681876861dd1877918758617e00004185f861aa1878c186b06181000141860461b41868418770619b186081860861b018670186a861b0187801876c61a7186bc1869c6198186d0186d061e51877c186c061e21877c1877c61ec187d51877461ad1878c186b4619c186b8186b86180185fc185fc61e1187801877861a6186bc186bc61e6187801878061e9187e11869861a10001c18684619b186741866c6199187841878461eb187d91878861ea187c51878c61f0187d1186706198187901879061e8187dd187940000187cd1879861ed187bd18674619a1879c1879c61f2187b9187d400020001c187dc00010001c187cc617100000185c4000518668187b061721865c185c86198186681860000020000c187c061f400004187d0619e00014187a461f818660)
  (.lf
  0x1f5ec7d7921b601f6f07d891f6441f6447dc71f7041f71c7dce1f7411f7387dcf21b581f5fc7d7c1f7201f7207dd31f73d1f73c7dd71f5e41f6247d7a1f6581f6587dc61f7001f7007dcd1f7591f7347d541f5e41f5e486d921b5c1f58886d821b6421b64048c23884238842d7c0b7000324c0cbd03275032280cc803275032740c4a03124031280c4721b34031180c4721b2c0311c0c6f0312c0322c0cc3032a5032500cbc032a5032a40c7f032a80312c0cb6032a8031200c79032a8032a80cab032b5032b40c7a03208034e40cf903380033800d0e033e8033e80cf603504035040d4503551034380d3f034f0034140cf603448034280cdf21b8c0337c0d12033fc034480d42034f0034f00d4903549034100cff21b94033fc0cf9033ec033e40cf7034f8034f80d480354d035200cf721b90034fc0d47035390351c0cf7033f0035140cf721b8c033ec0cf803510035100d4f0352d0354886e021b940350c0d4a03531035300d4e034180353c0d060354c0341886e021b7c033dc0cf521b800337886e021b8421b800485238a0238a02d3b239bc035240cd0033d41f7407dd21f6281f7107dd11f7551f76086d721b741f74c7d8a1f75c1f62886d821b5c))
  (.nd (.lf
  0x10c4c434110cb410cec434110dc010dac433810d0010ce0432910d1410d14437510dbc10d04437210dbc10dbc437c10e1510db4433e10dcc10cf8432d10cfc10cfc431110c4010c40437110dc010db8433710d0010d00437610dc010dc0437910e2110dc8437a10e0510dcc438010e1110cb4432910dd010dd0437810e1d10dd4841e10e0d10dd8437d10dfd10e0c43022107810c08842310cac10df0430310ca010c0c432910cac10e0043842107c10e10432f2108c10dfc438110ce410e04432f10ca410de4438810ca410ca484252108c10de0432a2108c2108c0342227f8227f81b232033006c8c1bbe06f080d76435a20d6ac0d6ac35e10d76c0d78435e80d7a90d6a435970d6a80d6a8357b0d5e80d5e835dc0d76c0d75c35960d5f40d69835ac0d76c0d5f435ac0d65c0d6b035dd0d7680d76835e70d7c10d79c356d0d6480d5b435930d6540d77435e50d7b10d7a835ec0d6900d65c35930d77c0d77c35e30d7c90d78c35942106c0d76c35e40d7cd0d79035f30d64c0d7b035990d64c0d64c841d2106c2106c034a227d80d688359c210740d67035960d6600d66035950d7880d654841c210680d79435940d6640d65835940d7700d77035e60d7c5)
  (.lf 0))) (.nd (.nd (.lf
  0x111a8448e111c111164446d111ac111ac829e111e5111b04493111d9111b44494111bd111b8441b11068111c0441d11130111c844211107811084441a110fc1106844221112411088448c111d0111cc444e11130111304456111d0111d04475111f5111d844241112411124445a20a7c111bc445411168111684489111dc111d4447f111dc111dc447811209111c4441f110781107844881108c1108c448b111e8110904451111e8111e0447a11200111e44482111e8111e8447c111ed1106c441c20a8c11074444d111f81107c441c20a941107044441108011080448a111f8111f44453111f8111f8447f11205111fc448211200111ec44531120011200448311211111f0442520a7c110944451112241114c442820a8c110a0445b11120112084442110a4110a444571110c1114444571121811204444e1115811138443f1116c1116c448b112141115c4488112141121444921126d1120c44541122411150444311154111544427110981109844871121811210444d1115811158448c1121811218448f1127911134444820a94111204442111101110844401121c1121c4491112711122044901125d1110c443f1122811228448e1127511230449311255)
  (.lf 0)) (.nd (.lf
  0x1cc60856d215ac1cda07319215ac215ac05fa2308423084242709098090980000090a21b4508575215cc215cc05f2230a4230a4247120658091c424d909384090a08c9e093640915024d90937009364814f206182061800001d0161760c5d8c1766d176305d9b174ec1a1c068791a2211a0b068281a1d01a1d068781a21d1a1e468881a0a01a0a085652158c1a1e068292158c2158c020222f401b5c48570215d41b3f08570215c4215c005f5230982309824900923c19e108580216042160405e4230dc230dc24ea093b4093b423dd08f7008f7423de232a00924023de2066008f7800002329e1cd9c73721cdb91cc008568215a41cdb873761cc5c1cc647317215a01cc5c85692159c215a405fc2307c2307c24480911c1cde0856a215a01cdc873281cdd81cdd8856d215a8215a805fb230801cdd48568215b41cca085682159c215a005fd23078215d805ef230b0230b0246e2059c1ea50857a215e0215e805eb230c0230c024e1093c4093c423d508f5008f508cad092ac091b824ab093a4092ac8caa2329419ff08582216002160005e5230d8230d8245b09168091688c9c091702160805e3230e0230e024580915c0915c0000091660916424e009384)
  (.lf 0)))

def aesGateTree107 : BTree :=
  .nd (.nd (.nd (.lf
  0x169145a50169311694c026500980169540266009801692859d1167d81674459f7167e41677c0265009901691c5a56167dc16958026300994169405a0716950169345a4f1681c1681c0265009981692c5a4c0099c169305a54167d81693c59fd167dc1695002600098c1692059f8167f41691859f8009881692459f800984167e059f600994167dc02600098800980024000b8000900022000b0000880020000a8000800028023cd823cd84998126d41266049c01275400994024500b9400914022500b1400894020500a9400814028523cc423cc4499c1266c1266c00001267a1267849c012740127007fb1127501690c0267169451694459d00099c167400262167e4167e402610098c0098c024300b8c0090c022300b0c0088c020300a8c0080c028323ccc23ccc49be1fec41fec449d81275c169045a4e16949169385a52009981694859fd00988167f402610099c167d8026400998141ec50881423114220508c01798142305037017880178805c2009880170805a2009080168805820088801608020223d5023d50000014f4e140dc05e10179c0170400000186a0178400000186e0186c061a00984018680619009040168400000186601864061800884)
  (.lf 0)) (.nd (.lf
  0x1e43c790c1e4f01e4f0797a1e53d1e43079361e4401e440793d1e4441e4f479751e56d1e468793e1e5181e4f879741e5451e44400001e49e1e460793f1e5201e49c79431e4fc1e4fc797b1e5391e42800001e4361e434792f1e5001e50079771e55d1e50479731e5511e50879761e5351e50c79701e5411e41c792f1e5141e44c79451e5101e45000001e45e1e45c79471e5101e4bc79391e5101e510796d1e5311e514796f1e53d1e42079471e5181e518796e1e56d1e4e479481e51c1e51c79781e5451e520796c1e5391e4d8794b1e5241e52484861e55d1e52879711e5511e52c79721e5351e53078f81e3dc1e53878fa1e4a41e54078fe1e3ec1e3f878f71e4701e3dc78ff1e4981e3fc796a1e5481e544792b1e4a41e4a479331e5481e54879531e56d1e55079011e4981e49879372121c1e53479311e4dc1e4dc79671e5541e54c795d1e5541e55479561e5811e53c78fc1e3ec1e3ec79661e4001e40079691e5601e404792e1e5601e55879581e5781e55c79601e5601e560795a1e5651e3e078f92122c1e3e8792a1e5701e3f078f9212341e3e479211e3f41e3f479681e5701e56c79301e5701e570795d1e57d1e57479601e5781e56479301e578)
  (.lf 0))) (.nd (.nd (.lf
  0xe86c3a420e8950e8703a430e8790e87439ca0e7240e87c39cc0e7ec0e88439d00e7340e74039c90e7b80e72439d10e7e00e7443a3b0e88c0e88839fd0e7ec0e7ec3a050e88c0e88c3a240e8b10e89439d30e7e00e7e03a0920c9c0e8783a030e8240e8243a380e8980e8903a2e0e8980e8983a270e8c50e88039ce0e7340e7343a370e7480e7483a3a0e8a40e74c3a000e8a40e89c3a290e8bc0e8a03a310e8a40e8a43a2b0e8a90e72839cb20cac0e73039fc0e8b40e73839cb20cb40e72c39f30e73c0e73c3a390e8b40e8b03a020e8b40e8b43a2e0e8c10e8b83a310e8bc0e8a83a020e8bc0e8bc3a320e8cd0e8ac39d420c9c0e7503a000e8e00e80839d720cac0e75c3a0a0e7dc0e8c439f10e7600e7603a060e7c80e8003a060e8d40e8c039fd0e8140e7f439ee0e8280e8283a3a0e8d00e8183a370e8d00e8d03a410e9290e8c83a030e8e00e80c39f20e8100e81039d60e7540e7543a360e8d40e8cc39fc0e8140e7f039f720cb40e7dc39f10e7cc0e7c439ef0e8d80e8d83a400e92d0e8dc3a3f0e9190e8e03a450e9250e7c839ee0e8e40e8e43a3d0e9310e8143a3b0e8d40e8ec3a420e9110e7cc39f00e8f00e8f03a470e90d0e930832720cb4)
  (.lf 0)) (.nd (.lf
  0xae702bd30aecd0aecc2bbc0aed00ad5c2bc20ad700ad702bc50aed00aed02bb60aed50aed42b8c0aee80ae302b612196c0ad582b860aee00ad502b552196c0ad542b7d0ad640ad642bc40aee00aee02bb90aeed0aeec2b870ae3c0ae1c2b780ae500ad842b940ae040ae502bc50aefc0af1486560af4d0af4c2b51219580ad44865b0ade80aed82b5e2195c0ad782b8a0af0c0ae282b900af000aee42bbc0aee80aef02b7b0ad880ad882b900adf00ae402bc20aefc0aee82bbd0aef90aef82b860ae3c0ae3c2bc60af000aef42b8d0af0c0af0c2bd00af510af182bcd0af3d0af402bd42195c0af082bca0af450af282b790adf80af3c2bd10ae200af442b7e0ade00af502b7e2196c0adf8865c219580af342bce2195821958050f2355423554278c204f00ae342b7c0ae380ae382b600ad7c0ad7c2bc10af000af002bc90af610af242bd80ade00ae182b81219740ae042b7b0adf40adf42b7a0af1c0aefc2bcc0af550af302b520addc0ad482b780ade80ade8865c219680adec2b790af040af1c2bd20af390af482b880af580af382bd60addc0af042bcb0af590af58865d219680af60865a2196021968050b2356409e3027b409f900adf02b780af10)
  (.lf 0)))

def aesGateTree108 : BTree :=
  .nd (.nd (.nd (.lf
  0xd1a034880d2a00079401c5000680071401a5000e80069401850016800614007a23a4423a44346a0d1a40d1a8346b0d2080d37434720d2340d37834740d1cc0d1d034750d1c00d37c34780d1dc0d1e034750d2580d1d434950d1e40078c01c3000700070c01a3000f00068c0183001700060c007c23a4c23a4c348d0d21c0d23434880d2a80d22034830d2a40d20c34820d2840d20834950d2800d254349b0d2680d26834db0d2ad0d1b8346b0d26c0d26c34d90d2b90d1ac34960d1bc0d1bc349c0d1c00d27034d40d2e90d1e4349d0d2940d27434d30d2c10d1c000000d21a0d1dc349e0d29c0d21834a20d2780d27834da0d2b50d1a400000d1b20d1b0348f0d27c0d27c34d60d2d90d28034d20d2cd0d28434d50d2b10d28834cf0d2bd0d198348f0d2900d1c834a40d28c0d1cc00000d1da0d1d834a60d28c0d23c34870d28c0d28c34cc0d2ad0d29034ce0d2b90d19c34a60d2940d29434cd0d2e90d21c34a70d2980d29834d70d2c10d29c34cb0d2b50d25834aa0d2a00d2a000100d2d90d2a434d00d2cd0d2a834d10d2b10d2ac34570d1580d2b434590d2240d2bc345d0d1680d17434560d1ec0d158345e0d2140d17834c90d2c40d2c0348b0d224)
  (.lf
  0x2b280ac802c3c02c3c0b1902c9102b2c0ac702c4802c480b1602c9502c9486af21ad402b1c86b521acc02c8c86b021ad402c700b2402b1802c9086b521ac821ad404b0237f4237f42cc12395823f54046121c1021c100000021b6021b408020207423f44046521c0021c0007fa01fe423f48046421c0421c0407f801fdc01fe00818020e023f4c046321c0821c08081d0205c020740818020e8020600813020e423f58046021c1421c1407f60204c0204c0812020c401fe807fb02048020480825020c023f3c046721bf821bf80000021be021bc08080201c0202008050209823f40046621bfc21bfc0000021ba021b808040200c020100805020000201408250202402094082b020a8020a8086b020ed0200c00000201a020180836020cc01fd8081f020d0020080834020cc01fe4000001ff201ff0081f020bc0207c0817020cc020cc085c020ed020ec07e701f9823f50046221c0c21c0c0000021b2021b007fe01ff401ff4000002006020040829020d001ff807fb020ac01fec082601ffc01ffc082c020000200000000205a020580832020b8020a40868020fd020c8085f020fd020fc07ed01fa801fb407e60202c01f9807ee0205401fb8085902104))
  (.nd (.lf
  0x1183083ce118691183446341185d118384635118411183c45bc116ec1184445be117b41184c45c2116fc1170845bb11780116ec45c3117a81170c462d118541185045ef117b4117b445f711854118544616118791185c45c5117a8117a845fb20f3c1184045f5117ec117ec462a11860118584620118601186046191188d1184845c0116fc116fc46291171011710462c1186c1171445f21186c11864461b118841186846231186c1186c461d11871116f045bd20f4c116f845ee1187c1170045bd20f54116f445e51170411704462b1187c1187845f41187c1187c462011889118804623118841187045f411884118844624118951187445c620f3c1171845f2118a8117d045c920f4c1172445fc117a41188c45e3117281172845f811790117c845f81189c1188845ef117dc117bc45e0117f0117f0462c11898117e0462911898118984633118f11189045f5118a8117d445e4117d8117d845c81171c1171c46281189c1189445ee117dc117b845e920f54117a445e3117941178c45e1118a0118a04632118f5118a44631118e1118a84637118ed1179045e0118ac118ac462f118f9118b083ce118e9117dc462d1189c118b44634118d91179445e2118b8)
  (.lf 0))) (.nd (.nd (.lf
  0x1ffc400000426e052547ff00524c1ffc000000449e050fc7fef050f4052347fef04eb01ffbc00000449a0529c7fee048f01ffb800000404611fd0829020a44121ac829220a4020a4001d521e4021e40141621fe80504c7fed0506805058139304e280501c7fed21ffc04e2887fe1ffb41ffb40000040420507c7fec21ff41ffb000000403e1ffac00000403a1ffa8000003e1a1ffa4000003e16054cc82d520b4820b54019021f5421f5413cd2208804f3413b504dd004dd07fe8220841ffa0000003e1204f4c88251ff9c1ff9c000003e0e052087fe604b1c04fa813ad04dbc051a013ae04dbc04dbc7fe11ff981ff98000003bea15ca08268209a415e7c826a209a0209a001fd21da004f20147b1ff9421da0140321fd40500c138704dc004dc07fe01ff941ff94000003be6190988275209c8209d401f021dd421dd413e921fa404fe00e6d04df004fa413af04df004df087ee1ff901ff90000003be2209ec01ea21dec21dec13f504fd805008137b04de804fd87fdf04de804de887ed1ff8c1ff8c000003bde1ff88000003786051fc7fe104ebc1ff840000039be04fc87fe00503c20a0001e521e0021e0013fd04ff804ff412c71ff801ff800000039ba)
  (.lf 0)) (.nd (.lf
  0x8fb88ccd0941809418000009296093948cdb2335808e10232c2147c08cb0235808e4408d60235e08e3808e24235508d7408d54234608d8808d88239308e3408e28234908cc008cc0235e08d2808d78239008e3408d74239408e3808e50239b08e7508e74239f08d5808e40239808e7d08e7c234c08d1808d24234708e3c08e60234708d3008e2c235b08e4408e44239e08e8908e7823a22147c08e88234c2148c08d3085242147808e34239a08e8d08e68232008d1408c80234608d2008e4c851e08e8508e84231f2147808c7c852308d2008d2085242148808d6c234a08d7008d70232e08cb408cb4238f08e3808e38239708e9908e5c23a608d1808e6c239c21478093508cab23270093108cd22333808e7023a408d1408f30814c092b0092b08ccf2332c09068814c090700907000000935e0935c8cd023330091988150091240926c5e29233700932c8cd9233501bc646eab1baa81baa800001baba1bab86ed61bb841bb586f151bbb1092908cdc23360233706ea31bb0008f8023e12336808eb88cd923368233686ea51ba901ba946ec41bb94233646ea71ba981ba9c6ea81bafc1bc686eaf1bb241bc6c6eb11bac01bac46eb21bab41bc706eb51bad0)
  (.lf 0)))

def aesGateTree109 : BTree :=
  .nd (.nd (.nd (.lf
  0x161085880161fc161fc58a7162511620058b1162291620458a51621d161c0588416208162080377162411620c58aa162351621058ab16219162145832160c41621c58341618c162245838160d4160e0583116158160c4583916180160e458a31622c1622858651618c1618c586d1622c1622c588c1625116234583b1618016180587100dd816218586b161c4161c458a0162381623058961623816238588f16265162205836160d4160d4589f160e8160e858a216244160ec5868162441623c58911625c1624058991624416244589316249160c8583300dc8160d0586416254160d8583300dc0160cc585b160dc160dc58a11625416250586a16254162545896162611625858991625c16248586a1625c1625c589a1626d1624c583c00dd8160f0586816280161a8583f00dc8160fc58721617c1626458591610016100586e16168161a0586e16274162605865161b4161945856161c8161c858a216270161b8589f162701627058a9162c916268586b16280161ac585a161b0161b0583e160f4160f4589e162741626c5864161b4161b458a3162741627458a6162d516190585f00dc01617c58591616c161645857162781627858a8162cd162880377162c1)
  (.lf 0)) (.nd (.lf
  0x1eb2c7ae71eb8c1eb8c7b1f1ebc91eab800001eac61eac47ad31eb901eb907b1b1ebed1eb947b171ebe11eb987b1a1ebc51eb9c7b141ebd11eaac7ad31eba41eadc7ae91eba01eae000001eaee1eaec7aeb1eba01eb4c7add1eba01eba07b111ebc11eba47b131ebcd1eab07aeb1eba81eba87b121ebfd1eb747aec1ebac1ebac7b1c1ebd51ebb07b101ebc91eb687aef1ebb41ebb484de1ebed1ebb87b151ebe11ebbc7b161ebc51ebc07a9c1ea6c1ebc87a9e1eb341ebd07aa21ea7c1ea887a9b1eb001ea6c7aa31eb281ea8c7b0e1ebd81ebd47acf1eb341eb347ad71ebd81ebd87af71ebfd1ebe07aa51eb281eb287adb2137c1ebc47ad51eb6c1eb6c7b0b1ebe41ebdc7b011ebe41ebe47afa1ec111ebcc7aa01ea7c1ea7c7b0a1ea901ea907b0d1ebf01ea947ad21ebf01ebe87afc1ec081ebec7b041ebf01ebf07afe1ebf51ea707a9d2138c1ea787ace1ec001ea807a9d213941ea747ac51ea841ea847b0c1ec001ebfc7ad41ec001ec007b011ec0d1ec047b041ec081ebf47ad41ec081ec087b051ec191ebf87aa62137c1ea987ad21ec2c1eb507aa92138c1eaa47adc1eb241ec107ac31eaa81eaa87ad81eb101eb487ad81ec201ec0c7acf1eb5c)
  (.lf 0))) (.nd (.nd (.lf
  0x1358c4d961360c136f44d7d13590135904d92135f8136304d9213704136f04d8913644136244d7a13658136584dc613700136484dc313700137004dcd13759136f84d8f137101363c4d7e13640136404d6213584135844dc213704136fc4d8813644136444dc713704137044dca13765136204d8320d341360c4d7d135fc135f44d7b13708137084dcc1375d1370c4dcb13749135f84d7a13714137144dc9137611371c4dce13741135fc4d7c13720137204dd31373d13758834820d3413588834820d24137284dd9135e813764834a20d201374c4d8a1375c137404dd21362813628834820d1c1372c4d7b13600137244d7b20d2c137304d7b20d30135ec4d7920d2020d20011d22244222441600057fc057fc810005b402228016f505c7405bd480b52040020400000015e8a0629c18b0062fd062b0835e062e9062e8183920d780e6a839b30e7090e6bc83560e6f50e6f4393c20d580e4f0835b0e5940e4f439630e5940e6f8396920d6c0e6ec39690e58c0e6cc39c20e58c0e58c835d20d6c20d6c010a222902229016a005a7c11adc834e11b1511b14464420d38119108353119b411914466b119b411b18467120d4c11b0c4671119ac119c4835420d38)
  (.lf 0)) (.nd (.lf
  0x193506501193541950c64d9193601936000001936e1936464da193541936864f9193781936c650b194201932c64f319424193cc64fd194201935c6509194201939c64f91941419420653119441193e46500193fc193fc6540194411944064bc192ec193540000193ae193ac65071940c1934800001935a1935864fe194241941c653419451193f8653d194511945064c2192fc1930864bb19380192ec64c3193a819330650b194281930c652e194581942465331944d19400653e1944d1944c64c0192fc192fc652a19310193e8650f194341943485f61946d19410653b1946d1946c652419470193f4650c1942c1937065031943019310652d19470194306530194491940c653f194491944864be193b419414653719461194386535194611946064c5193a819418653a194451943c6536194451944464f5193ec193786502194281942c653c19455194086538194551945464ef193b4193b464f7194581945865171947d1945c652119464193a864fb217dc1931464f219470193ec652b1946419464651a1949119468651c1948819470651e194751947464f4194881940465391947d1942865321947d1947c64f419480193d064c9217ec1932464fc193a4)
  (.lf 0)))

def aesGateTree110 : BTree :=
  .nd (.nd (.nd (.lf
  0xb7e42e030b8840b8842e220b8a90b88c2dd00b7d40b7d42e07005980b8702e010b81c0b81c2e360b8900b8882e2c0b8900b8902e250b8bd0b8782dcb0b7280b7282e350b73c0b73c2e380b89c0b7402dfe0b89c0b8942e270b8b40b8982e2f0b89c0b89c2e290b8a10b71c2dc8005880b7242dfa0b8ac0b72c2dc8005800b7202df00b7300b7302e370b8ac0b8a82e000b8ac0b8ac2e2c0b8b90b8b02e2f0b8b40b8a02e000b8b40b8b42e300b8c50b8a42dd1005980b7442dfe0b8d80b8002dd4005880b7502e080b7d00b8bc2dee0b7540b7542e040b7bc0b7f82e040b8cc0b8b82dfb0b80c0b7ec2deb0b8200b8202e380b8c80b8102e350b8c80b8c82e3f0b9210b8c02e010b8d80b8042def0b8080b8082dd30b7480b7482e340b8cc0b8c42dfa0b80c0b80c2e390b8cc0b8cc2e3c0b92d0b8d42e3d0b9110b8d82e430b91d0b7bc2deb0b8dc0b8dc2e3b0b9290b8e001670b9190b8e42e400b9090b9182dc40059c0b71001620b7b40b8fc2dc50b7a80b7142deb0b7b40b90c2e47005980b91c2df1005880b9082e440b7f00b9102df10b7ac0b8f02e4b0b7ac0b7ac0160005880b8ec2dec00588005880142007880050801220070800488010200688)
  (.lf
  0x1c9806d301b4801b4c06d0219d401b4006f801b5001b50073f01ccc01c44075001c9d01b7c071e01c7401c78074f01ca101c68074701c9d01c9c06d501b4801b5406ce01bcc01bc4071501c7401c54074b01ca101ca0070301c0401c04070b01ca401b3806d601bf401b58074101ca401ca4072a01cc901ca8073401cb001c74074501cc901c64074d01c9101c60074a01cad01c84074801cad01cac06d801bf401bf4070f219bc01c38072201c8001c88074901c9101c90070901c3c01c3c073e01cb001c5c074e01cb901c80866e01cb901cb8073701cbc01cb0072d01cdd01cb4072f01cd401b48073d01b5c01b5c074001cbc01b60070601cbc01cbc073101cc101c50074c01cc901cc8070801ccc01cc0070801cd401c2006dc219cc01b44070201ccc01ccc073401cd901cd0073701cd401cdc06f601b7401b74070c01bdc01cd8070301c2c01cc406d9219bc01b64070601cf801c18070c01cec01c30073d01ce801b70071001bf001c0c06f301c4001c40074001ce801ce8074701d4101d1c06cd01bc823fa4044d21be023f9c044f21bd821bd8000001f8e01f8c077c01dec23fb0044a21bec23fa0044e21bdc21bdc000001f8a01f88077801ddc))
  (.nd (.lf
  0x1f2107cbc1f2891f1887c851f2341f2147cbb1f2611f16400001f1be1f1807c861f23c1f1bc7c8a1f2181f2187cc21f2551f21c7cbe1f2791f2207cba1f26d1f2247cbd1f2511f2287cb71f25d1f16c7c8c1f22c1f17000001f17e1f17c7c8e1f22c1f22c7cb41f24d1f2307cb61f2591f1407c8e1f2341f2347cb51f2891f2387cbf1f2611f23c7cb31f2551f1f87c921f2401f240838e1f2791f2447cb81f26d1f2487cb91f2511f24c7c401f0fc1f2547c421f1c41f25c7c461f10c1f1187c3f1f1901f0fc7c471f1b81f11c7cb11f2641f2607c731f1c41f1c47c7b1f2641f2647c9a1f2891f26c7c491f1b81f1b87c7f20e3c1f2507c791f1fc1f1fc7cae1f2701f2687ca41f2701f2707c9d1f29d1f2587c441f10c1f10c7cad1f1201f1207cb01f27c1f1247c761f27c1f2747c9f1f2941f2787ca71f27c1f27c7ca11f2811f1007c4120e4c1f1087c721f28c1f1107c4120e541f1047c691f1141f1147caf1f28c1f2887c781f28c1f28c7ca41f2991f2907ca71f2941f2807c781f2941f2947ca81f2a51f2847c4a20e3c1f1287c761f2b81f1e07c4d20e4c1f1347c801f1b41f29c7c671f1381f1387c7c1f1a01f1d87c7c1f2ac1f2987c731f1ec)
  (.lf 0))) (.nd (.nd (.lf
  0x11b68474211cc411b6c470811cc411cbc473111cdc11cc0473911cc411cc4473311cc911b4846d320c4c11b50470411cd411b5846d320c5411b4c46fb11b5c11b5c474111cd411cd0470a11cd411cd4473611ce111cd8473911cdc11cc8470a11cdc11cdc473a11ced11ccc46dc20c3c11b70470811d0011c2846df20c4c11b7c471211bfc11ce446f911b8011b80470e11be811c20470e11cf411ce0470511c3411c1446f611c4811c48474211cf011c38473f11cf011cf0474911d4911ce8470b11d0011c2c46fa11c3011c3046de11b7411b74473e11cf411cec470411c3411c1046ff20c5411bfc46f911bec11be446f711cf811cf8474811d4d11cfc474711d3911d00474d11d4511d08830e11d4111c34474311cf411d0c474a11d3111d4046cf20c3811b3c831311be011d2446d011bd411b4046f611be011d34475120c3c11d4446fc20c4c11d30474e11c1811d3846fc11bd811d1c46f711bf011bf0831420c3811bec46f811d1011be0831420c4811d2046f720c5020c50015122174221741656203ec20c8c0142221b0221b0163c203e8058f016d605b680595816d405b6805b688008202381384c4e0e20c74138384e0813828138204e0613934)
  (.lf 0)) (.nd (.lf
  0x19a2c669d19aa419a7466a419a8c19a8c66e419ad1199dc667419a9019a9066e219add199d0669e199e0199e066a5199e419a9466dd19b0d19a0866a619ab819a9866dc19ae5199e4000019a3e19a0066a719ac019a3c66ab19a9c19a9c66e319ad9199c80000199d6199d4669719aa019aa066df19afd19aa466db19af119aa866de19ad519aac66d819ae1199bc669719ab4199ec66ad19ab0199f00000199fe199fc66af19ab019a5c66a119ab019ab066d519ad119ab466d719add199c066af19ab819ab866d619b0d19a8466b019abc19abc66e019ae519ac066d419ad919a7866b319ac419ac485de19afd19ac866d919af119acc66da19ad519ad066601997c19ad8666219a4419ae066661998c19998665f19a101997c666719a381999c66d219ae819ae4669319a4419a44669b19ae819ae866bb19b0d19af0666919a3819a38669f2177c19ad4669919a7c19a7c66cf19af419aec66c519af419af466be19b2119adc66641998c1998c66ce199a0199a066d119b00199a4669619b0019af866c019b1819afc66c819b0019b0066c219b051998066612178c19988669219b1019990666121794199846689199941999466d019b1019b0c669819b10)
  (.lf 0)))

def aesGateTree111 : BTree :=
  .nd (.nd (.nd (.lf
  0xf80c3e0d0f8610f8303dbc0f7040f7040271009dc0f7003dbd0f8240f6f40271009cc0f8343dbc009c4016c40591008c4009c4025100bc400944023100b44008c4021100ac401644021123d1400844029123c9423c9400001721615f2805f4017d8012d80496014d801258051623e00014d80516016d801458059623d80017d805d6009d80175805b600958016d80596008d80f8243e140f8410f8640276009c00f8503dcb0f8600f72c0275009d80f83c3e10009dc0f8403e180f6e80f6f03dba009d40f6e80274009d8009d8025600bd800958023600b58008d8021600ad801658021623d0000858029623c8023c8000001721a013dc04d7015dc0135c04b70155c012dc0497014dc0125c051723dfc015dc0557017dc0155c05370175c014dc0517016dc0145c059723d7c017dc05d7009dc0175c05b70095c016dc0597008dc009dc025700bdc0095c023700b5c008dc021700adc0165c021723cfc0085c029723c7c23c7c00001721e172105c161705417054000017066170645c4117130171045c801715d0f85c0275009c00f8600270009cc009c0025000bc000940023000b40008c0021000ac000840029023c9823c985c0e170ac013d004d4015d0)
  (.lf 0)) (.nd (.lf
  0x1bdc06f941bdd91bd786f731bdc41bdc484ee1bdfd1bdc86f991bdf11bdcc6f9a1bdd51bdd06f201bc7c1bdd86f221bd441bde06f261bc8c1bc986f1f1bd101bc7c6f271bd381bc9c6f921bde81bde46f531bd441bd446f5b1bde81bde86f7b1be0d1bdf06f291bd381bd386f5f213bc1bdd46f591bd7c1bd7c6f8f1bdf41bdec6f851bdf41bdf46f7e1be211bddc6f241bc8c1bc8c6f8e1bca01bca06f911be001bca46f561be001bdf86f801be181bdfc6f881be001be006f821be051bc806f21213cc1bc886f521be101bc906f21213d41bc846f491bc941bc946f901be101be0c6f581be101be106f851be1d1be146f881be181be046f581be181be186f891be291be086f2a213bc1bca86f561be3c1bd606f2d213cc1bcb46f601bd341be206f471bcb81bcb86f5c1bd201bd586f5c1be301be1c6f531bd6c1bd4c6f441bd801bd806f911be2c1bd706f8e1be2c1be2c6f981be851be246f591be3c1bd646f481bd681bd686f2c1bcac1bcac6f8d1be301be286f521bd6c1bd6c6f921be301be306f951be911bd486f4d213d41bd346f471bd241bd1c6f451be341be346f971be891be386f961be751bd206f441be401be406f941be8d1be486f991be6d)
  (.lf 0))) (.nd (.nd (.lf
  0x132544c42131c41325c4c461310c131184c3f13190130fc4c47131b81311c4cb113264132604c73131c4131c44c7b13264132644c9a132891326c4c49131b8131b84c7f20e9c132504c79131fc131fc4cae13270132684ca413270132704c9d1329d132584c441310c1310c4cad13120131204cb01327c131244c761327c132744c9f13294132784ca71327c1327c4ca113281131004c4120eac131084c721328c131104c4120eb4131044c6913114131144caf1328c132884c781328c1328c4ca413299132904ca713294132804c7813294132944ca8132a5132844c4a20e9c131284c76132b8131e04c4d20eac131344c80131b41329c4c6713138131384c7c131a0131d84c7c132ac132984c73131ec131cc4c6413200132004cb0132a8131f04cad132a8132a84cb713301132a04c79132b8131e44c68131e8131e84c4c1312c1312c4cac132ac132a44c72131ec131c84c6d20eb4131b44c67131a41319c4c65132b0132b04cb613305132b44cb5132f1132b84cbb132fd131a04c64132bc132bc4cb313309131ec4cb1132ac132c44cb8132e9131a44c66132c8132c84cbd132e51330883a720eb4132dc4c3e1318c132f44c7413304132e84cbc131d0)
  (.lf 0)) (.nd (.lf
  0x1b4946d201b50c1b4806d1c1b5081b4706d1b1b4e81b4c86d711b5211b46c6d2d1b4e41b4b46d341b4cc1b4cc6d741b5111b43000001b43e1b3fc6d271b4f41b4206d351b4241b42400001b47e1b47c6d3b1b4dc1b4ec6d681b5211b5206cf61b3cc1b3d86cef1b4501b40800001b4161b4146d271b4e01b43c6d3f1b4f01b49c6d311b4f01b4f06d651b5111b5106cf01b3bc1b3bc6cf71b4781b4486d361b4f81b4406d371b5001b4c46d401b4fc1b3dc6d621b5281b5006d641b5191b4006d3f1b4f81b4fc6d701b5251b4d86d6c1b5251b4dc6d731b5191b5246d231b4841b5186cf21b4841b4846d2b1b5281b5286d4b1b54d1b52c6d551b5340a49029252186c0a5c4299b0a5ed0a5a029a60a5ed0a5ec29280a49c0a4a02925218740a494294d0a4a40a4a429940a6200a5c8299a0a61d0a49829560a6200a5a429a10a61d0a61c295c0a6200a62029890a62d0a624298c0a6280a49c29920a4b00a5b029a30a60d0a4b4295a0a6100a5d486160a60d0a4b029950a6100a60c298c0a6100a61029860a6150a618292e2185c0a4b8295a0a64c0a630294b0a4c80a4c829600a5300a56829600a6400a58029920a63c0a648299a0a6851aed06b731ad68)
  (.lf 0)))

def aesGateTree112 : BTree :=
  .nd (.nd (.nd (.lf
  0x3ae00eee03b2d03a30000003a8a03a4c0eb903b0803a880ebd03ae403ae40ef503b2103ae80ef103b4503aec0eed03b3903af00ef003b1d03af40eea03b2903a380ebf03af803a3c000003a4a03a480ec103af803af80ee703b1903afc0ee903b2503a0c0ec103b0003b000ee803b5503b040ef203b2d03b080ee603b2103ac40ec503b0c03b0c820603b4503b100eeb03b3903b140eec03b1d03b180e73039c803b200e7503a9003b280e79039d8039e40e7203a5c039c80e7a03a84039e80ee403b3003b2c0ea603a9003a900eae03b3003b300ecd03b5503b380e7c03a8403a840eb22081c03b1c0eac03ac803ac80ee103b3c03b340ed703b3c03b3c0ed003b6903b240e77039d8039d80ee0039ec039ec0ee303b48039f00ea903b4803b400ed203b6003b440eda03b4803b480ed403b4d039cc0e742082c039d40ea503b58039dc0e7420834039d00e9c039e0039e00ee203b5803b540eab03b5803b580ed703b6503b5c0eda03b6003b4c0eab03b6003b600edb03b7103b500e7d2081c039f40ea903b8403aac0e802082c03a000eb303a8003b680e9a03a0403a040eaf03a6c03aa40eaf03b7803b640ea603ab803a980e9703acc03acc0ee303b74)
  (.lf
  0xb50c8e710b6140b4f480500b7082014000000ad3e0ad3c2ae50ab900ab942ae60ab840b2902d6e0b6500b650805a201442014400000ad420ad402ae90aba00aba42ae60ac180ab982b050aba80aba82b0e0ac580ac382b440ac850b4d880562013c2015800000ad360b288803d0b5d00b5d08e73239bc239bc2adb0ab680ab6c2adc0abcc0ad342adf0ab780ab7c2adc0ac300ab702b060ab800ab802b0d0ab840ab8400000abde0b56c2d790b6140b5e480582013c2013c00000ad3a0ad382ae30abf40b57c2d730b5f00b2848e70239c40b5cc8e75239c4239c42afd0ac240abf42af80ac6c239c02ad90ab600ab642af80ac640abe02af40ac680b4e88e670b7080b70800000b58a0b5888e76239c8239c82ad70abd00abd02af30ac480abcc2b050ac440ac142b0c0ac2c0ac182b1b0ac640ac482b460ac750ac6c2b420ac750ac742b010ac1c0abdc2b130ac3c0ab6800000ab760ab742aff0ac400ab5c2aff0ac540abfc2b090ac500ab9000000ab9e0ab9c2b170ac500ab8c2b150ac500ac502b3d0ac710ac2c2b4c0ac710ac702ac80ab1c0ab7800000ab8a0ab882b0a0ac540ac4c2b400ac810ac282b490ac810ac802ace0ab2c0ab382ac70abb0))
  (.nd (.lf
  0x13a944e9413a9813a984e78139dc139dc4ed813b5c13b544e9e13a9c13a9c4edd13b5c13b5c4ee013bbd13a784e9920bb413a644e9313a5413a4c4e9113b6013b604ee213bb513b644ee113ba113a504e9013b6c13b6c4edf13bb913b744ee413b9913a544e9213b7813b784ee913b9513bb082e820bb413bb882e720bb413b8c4e6a13a3c139a84e9013a4813b904ee520b9813b944eed13a3c13b984ee813a8013ba04e9613a4013ba44ea013bb413bb482ed20ba813b804eef13a4013a4082ed20bac20bb40178220d8220d8161d058700587080da2075c05c2015f8057dc057dc88be2075c2075c000005b12067b88012204800686c18c5063100631480b42048020480000017f3e0676880112047c0665c811f068700668880b32047c2047c000017f3a0669880b10674c0674c8010204780666c80b22047806640811d2047820478000017f36066d8800f066e0066e00000067560664419cd0675406754811d202c420474000017f3206c70805b06c7806f78805b201c82016c00000c42a0c42830a00c27c0c27c00000c28a06c44806006ea006c50805f06ed806ed88060201c42018000000c42606c64000006c6e06c6c8a7706f0406f04805f201e0)
  (.lf 0))) (.nd (.nd (.lf
  0x1607057cc15f441606857cc017c81607457cc017c415f3057ca017d415f2c05f0017c8017c005d0009c00174005b000940016c00590008c001640021023d1823d18490d124a812434493512528017d405d5009d40175405b500954016d40595008d401654021523d0423d044911124401244000001244e1244c493512514124d47fb0125241605c05f7160951609457a4017dc15e9005f215f3415f3405f1017cc017cc05d3009cc0174c05b30094c016cc0593008cc0164c021323d0c23d0c49331fec01fec0494d12530011d00454013d001150043401350011c80452013c801148043201348011c40451013c401144043101344010d00414012d001050049423e88010c80412012c801048049223e90010c40411012c401044049123e94011dc0457013dc0115c04370135c010dc0417012dc011d80456013d801158043601358010d80416012d801058049623e800105c049723e7c23e9000000c65223e9400000c65623e8000000c65a23e7c00000c65e0c65031260c4940c49400000c4a60c4a431510c5700c54431900c59d23e98311e0c4ec23e8831200c47c0c48031400c58023e8431220c4840c48831230c4e80c654312a0c5140c658312c0c4ac)
  (.lf 0)) (.nd (.lf
  0x1e6e879c01e7c01e7ac79b71e6fc1e6dc79a81e7101e71079f51e7bc1e70079f21e7bc1e7bc79fc1e8151e7b479bd1e7cc1e6f479ac1e6f81e6f879901e63c1e63c79f11e7c01e7b879b61e6fc1e6fc79f61e7c01e7c079f91e8211e6d879b1211f41e6c479ab1e6b41e6ac79a91e7c41e7c479fb1e8191e7c879fa1e8051e6b079a81e7d01e7d079f81e81d1e7d879fd1e7fd1e6b479aa1e7dc1e7dc7a021e7f91e8148478211f41e81c8477211f41e7f079821e69c1e60879a81e6a81e7f479fe211d81e7f87a061e69c1e7fc7a011e6e01e80479ae1e6a01e80879b81e8181e818847d211e81e7e47a081e6a01e6a0847d211ec211f402e822a8422a841f7907de008478846e084b1084b020aa211b8082a884730834c084642122084c5082ac20d10834c08488213108344084c48472211c00834c8474211c8084bc8475211c8211c802f322a5822a581f8d07e3007e348b0c2077807de08b1d2077820778000007f1608ba881702045c205c000001c0d208928816e205bc205bc00001c0ca0895022d408b680892c0000089360893481c308b68089a48be9205b808b68816e20470205b800001c0c608c6421cc0872c087308be70873408c6021cf08738)
  (.lf 0)))

def aesGateTree113 : BTree :=
  .nd (.nd (.nd (.lf
  0xce9833730cdec0cdcc33630ce000ce0033b00cea80cdf033ad0cea80cea833b70cf010cea033790ceb80cde433670cde80cde8334b0cd280cd2833ac0ceac0cea433720cdec0cdec33b10ceac0ceac33b40cf0d0cdc8336c007e00cdb033660cda00cd9833640ceb00ceb033b60cf050ceb433b50cef10cd9c33630cebc0cebc33b30cf090cec433b80cee90cda033650cec80cec833bd0cee50cf0001fd007e00cf0801fe007e00cedc333d0cd880ccf433630cd940cee033b9007fc0cee433c10cd880cee833bc0cdd00cef033690cd8c0cef433740cf040cf0401f8007ec0ced033c30cd8c0cd8c01f8007e823b1000000cce223b1400000cce623b0000000ccea23afc00000ccee0cce032ca0cb240cb2400000cb360cb3432f50cc000cbd433340cc2d23b1832c20cb7c23b0832c40cb0c0cb1032e40cc1023b0432c60cb140cb1832c70cb780cce432ce0cba40cce832d00cb3c0cb4032d10cb300ccec32d40cb4c0cb5032d10cbc80cb4432f10cb5423b0c32e90cb8c0cba432e40cc180cb9032df0cc140cb7c32de0cbf40cb7832f10cbf00cbc432f70cbd80cbd833370cc1d0cb2832c70cbdc0cbdc33350cc290cb1c32f20cb2c0cb2c32f80cb30)
  (.lf 0)) (.nd (.lf
  0x7ce080a307f0807f088b2622c8422c981e4a0799c079281e7207a20080641ece07b3407b388b1e07b3c07b3c000022c9207d64000007f8a07f888b2422c7c22c901e4c0792c079301e6b07a30079041e3a0797c07b0c1e5c0796c079701e59079e4079ac1e6707a340795c00000796a0799c1e6607a14079c81e7c07a1c079681e8a07a1c079981e7807a10079641e7807974079e01e7f079f8079f81ebf07a3d079581e8807a1c07a1c1eb007a3d07a3c1e3b078e8078e81e42079a4078ec1e3c2114c079081ead07a540792c1e8a07a24079741e8107a2407a241eb107a79079f01e8b07a2807a281ebb07a5107a101eb607a5d0796c1e8207a2c07a2c1eaf07a4507a081ebe07a4507a441e3d079b007a041eb707a5107a501e6e079b0079b01e7607a5407a541e9607a7907a581ea007a60079e41e8e07a3007a141eb907a4107a381eb507a4107a401e74079e807a341eb407a5d07a5c1e44079a4079a41e7a2113c079e81eaa07a6007a601e9907a8d07a30844e07a69078f41e6d07a7c079fc1ebd07a4907a201eb207a4907a481e3f078f8078fc1e3c21154078f01e6407900079001eab07a7c07a001eb807a7907a781e7307a7c07a7c1ea007a89)
  (.lf 0))) (.nd (.nd (.lf
  0x13c24000013c3213c304f2e13cf813cb87fbb13d08057f888f1223c8223c84f2c1feec1feec4f4613d14059f888b5222f005bf088b5222c4222d447921feb4059d488af059dc05a08167705c14059dc000005bb205bb088ba222cc05c2815f4057cc057d088b3222bc222cc477011dbc11dbc000011dca05a10000005b1a05a3888b105c8811dc8479411e9005b1888bd222e005c88000005b16057cc88b005b1405b1488b8222c8222e0476c11e2411db0479411ea411e507fad11ea01feb447ac11eac059e847e22001805a3c000005c16059f047e12001405c1488b4222c0057c088b4222ec05bdc88b72036805be488b620364222d8000011f86222dc000011f8a11f84477411dcc11dcc000011dde11ddc479e11ea411e7847dd11ed1222d0476e11db411db8478d11eb411dc0477111e2011f88477811e4811f8c477a11de411de8477b11dd811f90477e11df411df8477b11e6c11dec479a11dfc11e48478d11ebc11e34478911eb811e24478811e9811e20479a11e9411e6847a011e7c11e7c47e011ec111dd0477111e8011e8047de11ecd11dc4479b11dd411dd447a111dd811e8447d911efd11dfc47a211ea811e8847d811ed511dd8000011e32)
  (.lf 0)) (.nd (.lf
  0x1b37c6ce11b2601b26085b0216bc1b3746cde216b81b3786ce61b21c1b3806ce4216bc1b3686c891b2381b3606c89216cc1b36c6c89216d01b2246c87216c01b21c85b1216bc216bc05b6231942319400000902e0902c240d090301b3406cd91b3a11b35485ae1b38d1b38c6c61216b81b18485b31b2281b1886c881b2281b3646ce81b2201b3a085b2216c01b39885b5216c81b22885b4216c8216c805b3231a0231a02407090181b1c085b0216c4216c405b42319c2319c240909020090248cc22073809e8827b609efc09ed88dac236a009fb426e309b8809b888dab09e9409e188da809f2009b8c8da7236a009b90818209edc1c98471f31c7c81c7c800001c7da1c7d8721e1c8a41c878725d1c8d109e948dad236a4236a471eb1c8202369c71ed1c7b01c7b4720c1c8b409edc8daa236982369871ef1c7b81c7bc71f01c81c1c98871f71c8441c98c71f91c7e01c7e471fa1c7d41c99071fd1c7f01c7f471fa1c8681c7e872191c7f8236a072111c8741c844720c1c8bc1c83072081c8b81c82072071c8981c81c72191c8941c86472201c87c1c87c72601c8c11c7cc71f01c8801c880725e1c8cd1c7c0721a1c7d01c7d072211c7d41c88472591c8fd)
  (.lf 0)))

def aesGateTree114 : BTree :=
  .nd (.nd (.nd (.lf
  0x1858c61651847418474001a000641858461620006018588616a1843018594611318434185a8001f0007018578610e1844c1844c001e000601843c001e0007018570610e000741857c610e0007818438610c0006818434001f0007418430001b0006423a7000001838a23a7400001838e23a6000001839223a5c000018396183886075181d0181d00000181e2181e0609f182a81827c60de182d523a68606f181b8181bc608e182b8181c46072182241838c60791824c18390607b181e8181ec607c181dc18394607f181f8181fc607c18270181f0609b182001824c608e182c018238608a182bc1822860891829c18224609b182981826c60a1182801828060e1182c5181d46072182841828460df182d1181c8609c181d8181d860a2181dc1828860da183011820060a3182ac1828c60d9182d9181dc000018236181f860a4182b41823460a8182901829060e0182cd1829460dc182f11829860d8182e51829c60db182c9182a060d5182d5181e460aa182a4181e80000181f6181f460ac182a4182a460d2182c5182a860d4182d1181b860ac182ac182ac60d318301182b060dd182d9182b460d1182cd1827060b0182b8182b801e7182f1182bc60d6182e5)
  (.lf
  0x33f086e421b78033e086e421b8821b900481238b0238b02d360b4d40b4d480570b68c0b68c815a239a4031c086cc21b1821b18049f238380b504815a2013c031b086cc21b2821b30049923850238502d5b205682056800001af4a1af486b671ae0421b78048723898238982d3f201440b4fc2d620b6840b5582d800b684238382ca4205700b684815c200f80b1a8815c201442057000001af521af506b6d1adb01adb46b6a1ae281ad9c6b991ae6021b880483238a821b4c04922386c2386c2d50201580b5142d760b69021b840484238a4238a400000b4e20b4e02d3a0b4e40b4e42d740b5d821b24049c23844238442d760b6e80b5d88e70239b021b28049b23848238482d600b57c0b5808e6d0b5b80b5402d850b6900b2782c9f239b0239b06b5d1ad701ad746b7c1ae74238a82da40b6a80b6908e6d239a0239b46b811ae341ae046b7c1ae7c1adf06b781ae781ada86b891adb81ada000001adae1adac6b9b1ae601ade06b771ae581addc6b891ae541ae246b901ae3c1ae3c6bd01ae811ae606bc11ae811ae806b4c1ad2c1ad2c6b531ade81ae546bc71aea11ae786bc51aea11aea06b551ade81ade86b8b2183c1ae286b9f1ae741ae7c6bc61ae85))
  (.nd (.lf
  0xff20403210098100943ffb10098100984027100a51008c3ffb100a01009c402a100a0100a0402b100b1100903fcd2103c0ff343ff9100c40ffe43fff100b8100a83fea0ff440ff443fff0ffac0fffc4030100b40ffec3fd02104c0ff4040030ffc0100a43ff60fff80ffd83fe71000c1000c4033100b4100b4403a1010d100ac3ffc100c40fff03feb0fff40fff43fcf0ff380ff38402f100b8100b03ff50fff80ffd43ff0210540ffc03fea0ffb00ffa83fe8100bc100bc403910111100c04038100fd100c4403e10109100cc840e101050fff84034100b8100d0403b100f5101043fc0210380ff0084130ffa4100e83fc10ff980ff043fe70ffa4100f840422103c101083fed2104c100f4403f0ffdc100fc3fed0ff9c100e03fe80ffb40ffb48414210380ffb03fe9100d40ffa4841421048100e43fe821050210500351227bc227bc1b3d2031406cf41bbc06f0812e784bad12d3812d38840d2102c12e744b4f2102c2102c035a2279806cd8801506f08227981b5206d4406d488a57202c006f0880b020320202c00000119020d7a035e92105821058034f227c4227c41b3a200500d7c88417210740d78835ed0d7a50d7b435a40d7c40d69084182105c)
  (.lf 0))) (.nd (.nd (.lf
  0x13ecc4fbd13f6c13f6c4fdc13f9113f744f8b13ec013ec04fc120a1c13f584fbb13f0413f044ff013f7813f704fe613f7813f784fdf13fa513f604f8613e1413e144fef13e2813e284ff213f8413e2c4fb813f8413f7c4fe113f9c13f804fe913f8413f844fe313f8913e084f8320a2c13e104fb413f9413e184f8320a3413e0c4fab13e1c13e1c4ff113f9413f904fba13f9413f944fe613fa113f984fe913f9c13f884fba13f9c13f9c4fea13fad13f8c4f8c20a1c13e304fb813fc013ee84f8f20a2c13e3c4fc213ebc13fa44fa913e4013e404fbe13ea813ee04fbe13fb413fa04fb513ef413ed44fa613f0813f084ff213fb013ef84fef13fb013fb04ff91400913fa84fbb13fc013eec4faa13ef013ef04f8e13e3413e344fee13fb413fac4fb413ef413ef44ff313fb413fb44ff61401513ed04faf20a3413ebc4fa913eac13ea44fa713fb813fb84ff81400d13fbc4ff713ff913fc04ffd1400513ea84fa613fc413fc44ff51401113fcc4ffa13ff113eac4fa813fd013fd04fff13fed14008828820a3414010828720a3413fe44f8013e9413e38828820a2413fd8500513e9814014828a20a2013ffc4fb61400c13ff04ffe13ed813ed8828820a1c)
  (.lf 0)) (.nd (.lf
  0x8ae8000008b5e08b5c81a7205e0205e000001c5261cfcc73fe1cfe91d00c8557215741cff873b41d0081ced085582155c1cfe473fa215581cfe874021ce8c1ce9473a3215601ce8c85592155c2155c020e22f1022f1022f508c7408c7421c3087080870c8173206881a1f4687e2157821578020722f2c22f2c229b2068808a6c22be08bf417504854c2151821518021f22ecc21558020f22f0c22f0c22a5206d808a9422cd08bf422ecc21ff205cc08ac822dc08bf408bf48173200a0205cc00001c5321d0048558215741ce308558215641d010855a2156021560020d22f141b7f485502155421540021522ef422ef422b02302c17668854721534176545d4b176641752c85482151c2151c021e22ed022ed022dc08c5c08c5c21d1087401a1dc68821a1f91a21c855f215941a20868381a2181a0e085602157c1a1f868861a09c1a0a46827215801a09c85612157c2157c020622f3022f30229908a6008a6022f008a6808a68000008bd608ac022d008bd408bd481722009c22f1422a408a8c08a90817220684087448172206d8205c800001c52e1d008855d2156821574020822f2822f28229d08a7008a748171206a021530021922ee422ee422b7205c4)
  (.lf 0)))

def aesGateTree115 : BTree :=
  .nd (.nd (.nd (.lf
  0x126880000126e2126a449cf12760126e049d31273c1273c4a0b12779127404a071279d127444a0312791127484a06127751274c4a00127811269049d512750126940000126a2126a049d7127501275049fd127711275449ff1277d1266449d7127581275849fe127ad1275c4a08127851276049fc127791271c49db127641276402ef1279d127684a01127911276c4a02127751277049891262012778498b126e812780498f126301263c4988126b4126204990126dc1264049fa127881278449bc126e8126e849c4127881278849e3127ad127904992126dc126dc49c800bb81277449c2127201272049f7127941278c49ed127941279449e6127c11277c498d126301263049f6126441264449f9127a01264849bf127a01279849e8127b81279c49f0127a0127a049ea127a512624498a00ba81262c49bb127b012634498a00ba01262849b2126381263849f8127b0127ac49c1127b0127b049ed127bd127b449f0127b8127a449c1127b8127b849f1127c9127a8499300bb81264c49bf127dc12704499600ba81265849c9126d8127c049b01265c1265c49c5126c4126fc49c5127d0127bc49bc12710126f049ad127241272449f9127cc1271449f6127cc)
  (.lf 0)) (.nd (.lf
  0x1e5b4797c1e4701e470848d2122c1e5b0791d2122c2122c02da22abc1e36c78e81e3b11e37484961e3ad1e3ac7869212581e1a4849b1e2481e3a078ec2125c1e3b078962126c1e38878911e2581e258849c212581e248849c212681e38c7891212702127002c922b0022b001f4b07d2807d28806b07f5022adc1f562018c07d581fd107f7822abc1f6907da007da08b2d07f4407f4480a2201ac201ac00000da0207c18000007fae1e5c47972212182121802df22aa81efa084a02127c1ef647bd7212801ef5c84a12127c1e28084982125c1e38078912126c1e244788f212601e23c84992125c2127c02c622b0c2125c02ce22aec22aec1fe908054080541ed707b5807b5c80252019822b0c1f4707d1807d181fe707fa42123802d722ac822aa81f6c2009407db01fcb07f9c22ac81f602017807d801fc207f9c07f9c809d201982127802c722b0822b081f48201982019800000da0e1ef0084a0212841f0e084a2212801e5ac79761e5c91e5ec8487212341e5d8792c1e5e81e4b084882121c1e5c8797a1e46c1e474791b212201e46c84892121c1e1e08498212641e3c0849a212602128002c522b1022b101f4522c9c2126002cd22af022af01f5007d3c)
  (.lf 0))) (.nd (.nd (.lf
  0x20d04012422228222281609058200582488e005c7c0581888e105c7c0583880f805c7c05c7c000005b0220cf801272221c2221c1610203c40584016c005c0805e98833020cd405e9c833520cc820cd40130221f8221f8161e2235c0587816c005b7405b0088e62238820cf4012822218222181612058440584488e62073020ca4013c221c8221c816e805c4405c4415e3057880578888e30578420ca8013b221cc221cc16df05c4005c4015e6057940579488e405b2005784000005b2205b2088e62235c2239851321453c144c8515a145bc058dc000005bca05cc8833020cc405ea4833220cc020cc00135221e4221e41625223500589416f205c040582016f20582820ce0012d22204222041619058600586088e30586805bc888e32237c2238c5136144d4144d40000144e2144e0515a145a8145687fbf145b820ce8012b2220c2220c16eb05c3405c3415ee057b4057b488e5057b020d0c012222230222301604203d80581016df05b9020cc80133221ec221ec1622058840588416df0582805b7c88e5223842239451581fefc1fefc5172145c420ce4012c222082220816f305c381469c513a144e4144e40000144f6144f45164145bc1459051a3145e9)
  (.lf 0)) (.nd (.lf
  0x189406274189591891c628318959189586202188c41888862461893818918627c1896518840624f189381893c628018965189646233188c4188c4623b189681881861ff18890187fc6207188b81881c62721896818968625b1898d18924627b1897118928627e189551896c626518974189546239188fc18948627918971189706209188b8188b8623f2193c188fc626f1897418974625e189a118920627f1897d1897862601899818944864e1897d1897c626818980188246236189801898062621898518988620a2193c188286236189bc188d8623c189b01893862761898d1880062012194c1880862321899018810620121954188046229188141881462701899018914627d1898d1898c6238189901899062651899d1899462681899818984623818998189986269189a9189a46239189bc189bc627c18a01189f062802193c18a00622a2194c188e0620d2194c188346240188b41899c6233188ec188cc622418900189006271189ac189c4864e189fd189fc61fd21938189a062271883818838623c188a0188f0626e189ac189b86276189f5189a86232188ec188ec6272189b0189c86279189ed189ec627d188d0189f4622a18890189d86225188a8)
  (.lf 0)))

def aesGateTree116 : BTree :=
  .nd (.nd (.nd (.lf
  0x4ce0134204d3504ce4134104d2104ce8134704d2d04bd012f004cec04cec133f04d3904cf0825e04d2904cf4134404d1904bd412f204cf804cf8134904d1504d3082602099404d38825f2099404d2812c92097804b24826304bc804d0c12ca04bbc04b2812f004bc804b6082602098404d1c134b2097c04d2c12f62098c04d00134f04bc004d3c82622098004d24130004d3404d18134804c0004c0082602097c04d1013452097804d14134d04bbc04d2012f604bc004d3482652098804d0412f104bd804bd882642097804bc882642098804cfc12f12098c04d0812f12099004bc412ef2098004bc082652098c04bbc82612097c21fc0000004b1e04b1412580495c0495c00000496e0496c128204a3404a0812c104a6121fc812520494404948127104a44049501255049b004b18125c049d804b1c125e0497404978125f0496804b2012620498404988125f049fc0497c127e0498c049d8127104a4c049c4126d04a48049b4126c04a28049b0127e04a24049f8128404a0c04a0c12c404a5104960125504a1004a1012c204a5d04954127f049640496412850496804a1412bd04a8d0498c128604a3804a1812bc04a65049680000049c204984128704a40)
  (.lf
  0x19d806b001abc01ac006ba01b1501ae8065c219b002068081421a1402050080e0204002040080d0216801a9406772199c019dc064401ac801910065701abc019cc0657019600195c06b101ab801aa806470193c0191c065d0194c0194c06b401ab801ab806bb01b1101b108668219b401ac406b901b0101ae4065c0195401958065b01ad80193c06b501abc01ad406bc01af901af806c00191801960065d01acc01ad806c101af501b04064601b1401acc06b701b190191886682199c01abc06b801b1d01adc065c219ac019d48668219a401ae006c70197401970065e219a001b1c866a219a0219a004fd236c0236c02d14238f40b4502d900b69c01ad0866601b0901b0806842199801f7c867a219e001f480780219f001e408678219dc01d9c8678219e401f3c0780219ec01f44078001e1401e00077e219e0219e004ed23700237002d29238c802038080c0215002150085e021a501df88679219dc219e404ec23704237042d270b4980b4982d1b0b6a4021ac868221a0001b6c8670219c4219c404f4236e4236e42d9f0b6b80216808650218502194081c021a4020708680219fc01fcc868021a0402174080c0204402178080c21a1002030080a21a00))
  (.nd (.lf
  0x6ebc8a74229c0229c040e810414103a0411010494229ac40ec103ac103ac0000103ba103b8411010480104407fa11049006bf88a6d229cc229b4410e1fe841fe8441281049c229e438c70e318229f438c30e3800e30c38eb0e4000e31800000e3260e32438eb0e3ec0e3ac7f920e3fc06b8c0000229ee229ec38e91fe481fe4839030e40806b541acb229c806b2c0000229b206be4415e201c4229b8000010576229bc00001057a229a800001057e06bec415d201e01057440f0103bc103bc0000103ce103cc411a10494104684159104c1229b040ea103a4103a84109104a4103b040ed104101057840f41043806c00415f201c81057c40f6103d4103d840f7103c81058040fa103e4103e840f71045c103dc4116103ec104384109104ac104244105104a8104144104104881041041161048410458411c1046c1046c415c104b1103c040ed1047010470415a104bd103b44117103c4103c4411d103c8104744155104ed103ec411e10498104784154104c5103c8000010422103e4411f104a01042041231047c1047c415b104b9104804157104dd104844153104d1104884156104b51048c4150104c1103d0412510490103d40000103e2103e0412710490)
  (.lf 0))) (.nd (.nd (.lf
  0xbff830690c1440c140302b0c0a40c0a430330c1440c14430520c1690c14c30000c0940c0943037013980c13030310c0dc0c0dc30660c1500c148305c0c1500c15030550c17d0c1382ffb0bfe80bfe830650bffc0bffc30680c15c0c000302e0c15c0c15430570c1740c158305f0c15c0c15c30590c1610bfdc2ff8013880bfe4302a0c16c0bfec2ff8013800bfe030200bff00bff030670c16c0c16830300c16c0c16c305c0c1790c170305f0c1740c16030300c1740c17430600c1850c1643001013980c004302e0c1980c0c03004013880c01030380c0900c17c301e0c0140c01430340c07c0c0b830340c18c0c178302b0c0cc0c0ac301b0c0e00c0e030680c1880c0d030650c1880c188306f0c1e10c18030310c1980c0c4301f0c0c80c0c830030c0080c00830640c18c0c184302a0c0cc0c0cc30690c18c0c18c306c0c1ed0c0a83024013800c090301e0c0800c078301c0c1900c190306e0c1e50c194306d0c1d10c07c301b0c19c0c19c306b0c1e90c1a430700c1c90c080301d0c1a80c1a830750c1c50c1e004e5013800c1e804e6013800c1bc2ff50c0680bfd4301b0c0740c1c030710139c0c1c430790c0680c1c830740c0b00c1d030210c06c)
  (.lf 0)) (.nd (.lf
  0x1d5f0752a1d49c1d4a875231d5201d48c752b1d5481d4ac75961d5f81d5f475571d5541d554755f1d5f81d5f8757f1d61d1d600752d1d5481d54875632145c1d5e4755d1d58c1d58c75931d6041d5fc75891d6041d60475821d6311d5ec75281d49c1d49c75921d4b01d4b075951d6101d4b4755a1d6101d60875841d6281d60c758c1d6101d61075861d6151d49075252146c1d49875561d6201d4a07525214741d494754d1d4a41d4a475941d6201d61c755c1d6201d62075891d62d1d624758c1d6281d614755c1d6281d628758d1d6391d618752e2145c1d4b8755a1d64c1d57075312146c1d4c475641d5441d630754b1d4c81d4c875601d5301d56875601d6401d62c75571d57c1d55c75481d5901d59075951d63c1d58075921d63c1d63c759c1d6951d634755d1d64c1d574754c1d5781d57875301d4bc1d4bc75911d6401d63875561d57c1d57c75961d6401d64075991d6a11d5587551214741d544754b1d5341d52c75491d6441d644759b1d6991d648759a1d6851d53075481d6501d65075981d69d1d658759d1d67d1d534754a1d65c1d65c75a21d6791d6948518214741d69c8517214741d67075221d51c1d48875481d5281d674759e21458)
  (.lf 0)))

def aesGateTree117 : BTree :=
  .nd (.nd (.nd (.lf
  0x1532c549815280152605489152941529454d51533c1528454d21533c1533c54dc1539515334549e1534c15278548d1527c1527c5471151c0151c054d115340153385497152801528054d6153401534054d9153a11525c549200fa015248548c1523815230548a153441534454db153991535403ef1538d1535854dd1537d15238548b1535c1535c54e2153791538c546200fbc1518803ea1522c153705463152201518c54891522c1536454e815224153a003eb00fb41537454de00fbc1537854e615220153885499153981539803e800fac1522c03e900fac23c5000000cab223c5400000cab623c4000000caba23c3c00000cabe0cab0323e0c8f40c8f400000c9060c90432690c9d00c9a432a80c9fd23c5832360c94c23c4832380c8dc0c8e032580c9e023c44323a0c8e40c8e8323b0c9480cab432420c9740cab832440c90c0c91032450c9000cabc32480c91c0c92032450c9980c91432650c92423c4c325d0c95c0c97432580c9e80c96032530c9e40c94c32520c9c40c94832650c9c00c994326b0c9a80c9a832ab0c9ed0c8f8323b0c9ac0c9ac32a90c9f90c8ec32660c8fc0c8fc326c0c9000c9b032a40ca290c924326d0c9d40c9b432a30ca01)
  (.lf 0)) (.nd (.lf
  0x1dc3477451dcad1dba8770e1dc581dc3877441dc851db8400001dbde1dba0770f1dc601dbdc77131dc3c1dc3c774b1dc791db6800001db761db7476ff1dc401dc4077471dc9d1dc4477431dc911dc4877461dc751dc4c77401dc811db5c76ff1dc541db8c77151dc501db9000001db9e1db9c77171dc501dbfc77091dc501dc50773d1dc711dc54773f1dc7d1db6077171dc581dc58773e1dcad1dc2477181dc5c1dc5c77481dc851dc60773c1dc791dc18771b1dc641dc6484d61dc9d1dc6877411dc911dc6c77421dc751dc7076c81db1c1dc7876ca1dbe41dc8076ce1db2c1db3876c71dbb01db1c76cf1dbd81db3c773a1dc881dc8476fb1dbe41dbe477031dc881dc8877231dcad1dc9076d11dbd81dbd877072135c1dc7477011dc1c1dc1c77371dc941dc8c772d1dc941dc9477261dcc11dc7c76cc1db2c1db2c77361db401db4077391dca01db4476fe1dca01dc9877281dcb81dc9c77301dca01dca0772a1dca51db2076c92136c1db2876fa1dcb01db3076c9213741db2476f11db341db3477381dcb01dcac77001dcb01dcb0772d1dcbd1dcb477301dcb81dca477001dcb81dcb877311dcc91dca876d22135c1db4876fe1dcdc1dc0076d52136c)
  (.lf 0))) (.nd (.nd (.lf
  0xed343b550ed710ed203b190ed380ed383b5b0ed7d0ec603aed20bec0ebb43b200ec340ed183b130ec6c0ec4c3b040ec800ec803b500ed280ed4082f60ed790ed243b120ec6c0ec6c3b510ed2c0ed443b580ed690ed783add20bd80ed6c3b5f20bdc0ed7c3b0a20bec0ed683b5c0ec500ed703b0a0ec100ed543b050ec280ec2882fc20bd80ed603b5920bd820bd8016f220fc220fc1689202e005a2416c605c1005a0016ee05c10063b018e2226a40638800002268e226940000107a2226980000107a6226840000107aa0644841e820350107a0417b105e8105e80000105fa105f841a5106c01069441e4106ed2268c4175105d0105d44194106d0105dc41781063c0644041e920334107a4417f106640645c41ea20338107a8418110600106044182105f4107ac418510610106144182106881060841a110618106644194106d8106504190106d410640418f106b41063c41a1106b01068441a7106981069841e7106dd105ec41781069c1069c41e5106e9105e041a2105f0105f041a8105f4106a041e0107191061841a9106c4106a441df106f1105f400001064e1061041aa106cc1064c41ae106a8106a841e6106e5106ac41e210709106b041de106fd)
  (.lf 0)) (.nd (.lf
  0x19c08000019c1a19c18672e19ce419ce4676319d0d19d0c66f019bbc19bf8000019c0619c04672319cd019cd4676719d2119d2066f519c6819bf0673b19ce819c00672a19c1019c10673119c1419c14000019c6e19c6c673719ccc19c8c672d19ce019cb4673c19cec19c20000019c2e19c2c673b19ce019cec676c19d1519c30673319cf019cf0676019d0919ccc676f19d0919d0866ee19c7419c38673219ce819cc8676819d1519d14671f19c7419c74672719d1819cbc677019d0119bc066ed2169419ce0676119d0119d0066ec19bac19bb066ed2168c19bb4671519bc419cb8676d19d1119cdc676419d1119d1066f219bbc19bc866eb19c4019bac66f319c6819c68672b2167c19ca8673f19cf419cd8676a19d0519cfc676619d0519d04672519cac19cac675b19d2419bc4675c19d4019ce8676219d3d19bb8671e19d4019bcc675e19d1819d18674719d3d19cc4676919d3d19d3c672419d4019d40675119d4d19d1c675119d2419d44675419d4819cf4859e19d2d19cd0676b19d2d19d2c675419d3019d24674a19d5119d50671319be819be8672819c5019bd4672219d3019bbc675a19bd019d28674c19d4819bd0675d19d3019d30674e19d35)
  (.lf 0)))

def aesGateTree118 : BTree :=
  .nd (.nd (.nd (.lf
  0xd11834480d0000d00001ed007b80d0e434410d1210d10433f00cfd40d0fc33f0007a80d10833f0007a40cfc033ee007b40d13001ed007a00d12033f50cfbc0cfbc01e8007a8007a001c80005c0072001a8000dc006a001880015c00620007723a380cf5c01ed007b0007b401cd000480073401ad000c8006b4018d0014800634007223a2423a243f4b0fd280fd2800000fd360fd343f6f0fdfc23a383f470fd900fd1c3f6f0fe100fdbc7f9e0fe0c1fe783f870fe180514c1394051a804e50881c22060220603cb61fe64051b01381051a8050f4000004e0604e04881a22058220583c940f24c0f24c00000f25a0f2583cb80f32004ecc881d22064220643c900f2b40f2403cb80f3340f2e07f990f3301fe643cd00f33c20b64018c21f6421f64139b04d5c04d5c14ab052b0052b0882704e9804db41476051dc051dc882c04ed404f44882d04e9804e98882a2209804ed4882e220a8220a83c050f0880f0143c2d0f10804f7813a304e8404e8c882b2209c2209c3c090f0200f02000000f02e0f02c3c2d0f0f40f0b47f980f10404ee013a404e6c04e90882d220a4051d88828220a4220a43c2b1fe601fe603c450f110220b413011fe28220b812db04be0)
  (.lf
  0x23f84045521d4021d407e7f1f9f81f9f800001fa061fa047ea31facc1facc7eea1fb2921d547e7b1fa601f9ec7ea31fae01fa8c7fda1fadc1ff687ebb1fae823f88045421d4421d447e7d1f9f01f9f47e9c1faf01fa707e981faf41fa607e971fad423f7c045721d3821d3800001fbce1fbcc7e8d1fa301fa347e8a1faa81fbc87e891fa201fa247e8a1fa141fa287ea91fa381f9fc7e801fa5c1fa5c7ea91fad01faa47eaf1fab823f90045221d4c21d4c00001fbc21fbc07e831fa081fa0c7e801fabc1fa007eaa1fa101fa107eb01fa141fa1400001fa6e1fa6c7eb61fac81fa307eb21faec1faec7edf1fb051fac87eee1fb051fb047e6e1fa741f9b87e9e1fb3c1fa0800001fa1a1fa187ead1fae01fae07ee21fb091fab47eec1fb0d1fabc7eed1fb091fb087e701f9bc1f9c07e6d21b541faf47ee41fb1d1fad07ee61fb1d1fb1c7e751fa681fa2000001fa2e1fab87eef1fafd1fa2c7eba1fadc1fadc7ee01fafd1fafc7e6c1f9ac1f9b07e6d21b4c1f9b47e951f9c41faa87ebe1faf01faf086ce1fb291fb287ed31fb2c1f9f07eba1fae41fae87eeb1fb111fad87ee31fb0d1fb0c7e721f9bc1f9c87e6b1fa401fad47ee91fb011fa387eb11fae4))
  (.nd (.lf
  0x72a81cab07308073081cd407380074781cb4072cc072d01cb5072c00747c1cb8072dc072e01cb507354072d41cd4072e4073501cdb07368073681d1b073ad072c81ce40738c072cc0000072da072d81ce60738c072981cce07390072a40000072b2072b01cce0737c073381cd80738c0738c1d0c073ad073ac1c970725807fe48b11202fc22c44000007472074701cae072b4072b81cab0736c072ac1cd5072bc072bc1cdc072c0072c000000731a073181ce207378073881d0f073bd0736c1d19073b9072b40000072c6072c41cd907390073901d0e073b9073b81c9b072680726c1c98210d40725c1c98210cc072601cc007270072701d07073ec073641d18073bd073bc1c9d07268072741c96072ec072581c9e07314072681d050727c0727c1d08073dc072781d09073c4073541cea073a0073a81d11073b1073701d14073e9073a0842e073d9073601ce7073980729c1ce607394073981d17073c1072e41cdd07394073741d13073c1072dc1cde0739c073781d1a073b5073a41d10073cd0739c1d0b073b5073b41c9907320072641cc9073ec073801d12073cd073841d15073b10737c1d16073d9073c01cca07320073201cd2073c4073c41cf2073e9)
  (.lf 0))) (.nd (.nd (.lf
  0x596016d60596805aac15f92036c20c4001552216422164165d2230c0597416e005ba4057e015f9222ec057e40000222ea05968000005b8a05b8888c9223100577415d1223340e9e0830920c1c20c24015c221482214816db05c6405c6415d00573c0574088c305744057440000223262232414c3053080530c14e205408054dc14cd0539c0539c14e2054100538814de0540c0537814dd053ec0531414c6053740537414ef053e8054e414d3053480534c14d0053c020c7c0146221a0221a016480591c0591c16e705ba4059441538203f005ba488c7202402231c0000054e220c1c015e221402214016e305c6805c6815cd05730057348089054e0054e014cf053380533c14d00532c0534014ef05350053bc14f5053d0053081500053fc05338000005346053441500053f4054001531054290535014f7053fc053dc152d054290542814e50538c0534814f8054040540415250541d054d814c9053200532414c6053d40531814f0053280532814f60532c0532c0000053860538414fc053e0053e015340541d0541c14b40538c0538c14ed0542c053200000053320533014f3053f8053cc153205425053f01529054250542414b8052d4052e014b105358)
  (.lf 0)) (.nd (.lf
  0x1c5c871961c6781c65871cc1c6a51c5a400001c5fe1c5c071971c6801c5fc719b1c65c1c65c71d31c6991c58800001c5961c59471871c6601c66071cf1c6bd1c66471cb1c6b11c66871ce1c6951c66c71c81c6a11c57c71871c6741c5ac719d1c6701c5b000001c5be1c5bc719f1c6701c61c71911c6701c67071c51c6911c67471c71c69d1c580719f1c6781c67871c61c6cd1c64471a01c67c1c67c71d01c6a51c68071c41c6991c63871a31c6841c68485c61c6bd1c68871c91c6b11c68c71ca1c6951c69071501c53c1c69871521c6041c6a071561c54c1c558714f1c5d01c53c71571c5f81c55c71c21c6a81c6a471831c6041c604718b1c6a81c6a871ab1c6cd1c6b071591c5f81c5f8718f2171c1c69471891c63c1c63c71bf1c6b41c6ac71b51c6b41c6b471ae1c6e11c69c71541c54c1c54c71be1c5601c56071c11c6c01c56471861c6c01c6b871b01c6d81c6bc71b81c6c01c6c071b21c6c51c54071512172c1c54871821c6d01c5507151217341c54471791c5541c55471c01c6d01c6cc71881c6d01c6d071b51c6dd1c6d471b81c6d81c6c471881c6d81c6d871b91c6e91c6c8715a2171c1c56871861c6fc1c620715d2172c1c57471901c5f4)
  (.lf 0)))

def aesGateTree119 : BTree :=
  .nd (.nd (.nd (.lf
  0xc74c31cb0c79c0c79c32100c7bd0c7a032120c7c90c6ac31ea0c7a40c7a432110c7f90c72c31eb0c7a80c7a8321b0c7d10c7ac320f0c7c50c76831ee0c7b00c7b0057f0c7e90c7b432140c7dd0c7b832150c7c10c7bc319b0c6680c7c4319d0c7340c7cc31a10c6780c684319a0c6fc0c66831a20c7240c688320d0c7d40c7d031cf0c7340c73431d70c7d40c7d431f60c7f90c7dc31a40c7240c72431db015f80c7c031d50c76c0c76c320a0c7e00c7d832000c7e00c7e031f90c80d0c7c8319f0c6780c67832090c68c0c68c320c0c7ec0c69031d20c7ec0c7e431fb0c8040c7e832030c7ec0c7ec31fd0c7f10c66c319c015e80c67431ce0c7fc0c67c319c015e00c67031c40c6800c680320b0c7fc0c7f831d40c7fc0c7fc32000c8090c80032030c8040c7f031d40c8040c80432040c8150c7f431a5015f80c69431d20c8280c75031a8015e80c6a031dc0c7200c80c31c20c6a40c6a431d80c70c0c74831d80c81c0c80831cf0c75c0c73c31bf0c7700c770320c0c8180c76032090c8180c81832130c8710c81031d50c8280c75431c30c7580c75831a70c6980c69832080c81c0c81431ce0c75c0c75c320d0c81c0c81c32100c87d0c73831c8015e0)
  (.lf 0)) (.nd (.lf
  0x1789484ed213a81772484ec213a8213a8027b22d5c22d5c22f808c6c08c6c21c7087180871c8bd922f8c1be4484ee1be7d1be7c6f1d213b81bc7484f31bd181bc786f441bd181be8884f5213c81bd1884f4213c8213c8027322d7c22d7c228d08a301a62069911a6811a46485031a5081a46869401a5081a64469a01a5001a6808502214001a6788505214081a50885042140821408026322dbc22dbc2272089c41d8e484fb1d9881d8e876601d9881d98884fc213e8213f0026922da422da4227b089e81d98084fd213ec213ec026a22da022da0227d089f0089f48bd922f80089f0802d08be4176bc84e8213a4213a4027c22d5822d58226208984089888bd80898c089c40000089ce213e4026c22d9822d98228208a04089cc22fb08bf01789084e8213b4213a0027d22d5422d54226f22f881daf884fd213e8213f4026822da822da82279089e0089e08be6087bc08a2022c608c101a6748500214141a50085052140c21414026022dc822dc8226d22f84089b422c508bc41a4a085002140421400026522db422db42275089d008a04227608c14089ec70bd2067c089e821bf08bdc1be746f4a1bd101bd1084f5213cc213d4027022d8822d88228922f58)
  (.lf 0))) (.nd (.nd (.lf
  0xdd60378e0ddad0dcb000000dd0a0dccc37590dd880dd08375d0dd640dd6437950dda10dd6837910ddc50dd6c378d0ddb90dd7037900dd9d0dd74378a0dda90dcb8375f0dd780dcbc00000dcca0dcc837610dd780dd7837870dd990dd7c37890dda50dc8c37610dd800dd8037880ddd50dd8437920ddad0dd8837860dda10dd4437650dd8c0dd8c83b60ddc50dd90378b0ddb90dd94378c0dd9d0dd9837130dc480dda037150dd100dda837190dc580dc6437120dcdc0dc48371a0dd040dc6837840ddb00ddac37460dd100dd10374e0ddb00ddb0376d0ddd50ddb8371c0dd040dd04375220edc0dd9c374c0dd480dd4837810ddbc0ddb437770ddbc0ddbc37700dde90dda437170dc580dc5837800dc6c0dc6c37830ddc80dc7037490ddc80ddc037720dde00ddc4377a0ddc80ddc837740ddcd0dc4c371420eec0dc5437450ddd80dc5c371420ef40dc50373c0dc600dc6037820ddd80ddd4374b0ddd80ddd837770dde50dddc377a0dde00ddcc374b0dde00dde0377b0ddf10ddd0371d20edc0dc7437490de040dde8373a0dc840dc84374f0dcec0dd24374f0ddf80dd3c37800ddf40de0037880de3d0ddec374c0de040de04378e0de490dd2c372020eec)
  (.lf 0)) (.nd (.lf
  0x23428275109d4009d408d8809ee009ee0813d206dc206dc00001ea560a56086182185c0a66029492186c0a5242947218600a51c86192185c2185c054e234580a44429122181821818055f23414234142754205801af146bc62183821838055723434234342748200d00a75429d3218800a74c86212187c0a79086202187c2187c05462347823478272e09cb409d2027a909f3809cb427ce09f4009d5027b209f3809f388140206c82345827d009ff009ff026be09af409af88160206c82187805472347423474272f206c8206c800001ea621aefc6bca1af191af286b801af381ae0086102183c1af186bce1adbc1adc46b6f218401af3c860f218541adbc86112183c2183c05562343823438000009d1609d14274709d180a42c29160a4490a45828cc0a4680a33086082181c09d1827ca09f440a6f08620218840a8d08622218802188005452347c2347c272c2360809cb027ca09f300a2f428bb218200a448291a0a2ec0a2ec86092181c0a46c8607218342181c055e234182341827ca0a00409f28813f206c40a6a0861a218600a4c086182186421860054d2345c2345c273709cd809cb881b109ea009cdc6c5f206c4206c400001ea5e1b4d06d721b51d)
  (.lf 0)))

def aesGateTree120 : BTree :=
  .nd (.nd (.nd (.lf
  0x43f81107043fc043fc1101044010428010a12090c0428810d20440c0429010a1209140428410c90429404294110f0440c0440810d80440c0440c110404419044101107044140440010d804414044141108044250440410aa208fc042a810d6044380436010ad2090c042b410e0043340441c10c7042b8042b810dc043200435810dc0442c0441810d30436c0434c10c4043800438011100442804370110d04428044281117044810442010d9044380436410c8043680436810ac042ac042ac110c0442c0442410d20436c0436c11110442c0442c11140448d0434810cd209140433410c7043240431c10c504430044301116044850443411150447104438111b0447d0432010c40443c0443c11130448904440823e04479044441118044690432410c60444804448111d044650448082402091404488823f2091404478109d208f8042748243043180445c109e0430c0427810c404318042b08240209040446c111f208fc0447c10ca2090c044501123043100448c8242209000447410d40448404468111c04350043508240208fc044601119208f80446411210430c0447010ca04310044848245209080445410c504328043288244208f804318824420908)
  (.lf
  0x21ac804b3237e802eac0b5802d4802eb80b5821aec02d4886bd21aec21aec04aa2380c2380c2cba0b2e40b2e88e5a239802382c2ca720128237e82cc50b3100b3102d830b2b421aa804bb237c80b29c2d830b620237c82d830b6d00b60c8e64239802398029590a59402d6086bc21ad821ad804af237f81fddc86a821ab41fcac86a821a9c21aa004bd237c0237c02cd90b3600b36081320b3680b36800000b65a02b5c86b021abc21ac004b5237e0237e02cc82394c0b3202d960b6940b6588e622397821b0004a523820238202cae239780b2342c8e239782397829370a4d8237ec2cc3204c021af004a923810238102cb70b2d81fc6c86ad21aac21aac04ba237cc237cc2cd60b3540b2dc6311201280b35400000b35e0b30c2d7d0b63c0b35c8e640b5f40b2982d7d0b6040b5f48138201282012800000a6a60a6a4293b0a4e80a4ec29380a5a002ebc86b821af421af404a82381421ab004b9237d0237d000000b33e238342ca5239840b33c2cd10b3400b34081380b5c80b2942d670b5c80b5c881312010c238142cb50b2d00b2d463122010c2010c00000a6aa0a6a8293f0a5640a56429540a5dc0b2408e640b23c0b2308e630b23c0b23c00000b5ae))
  (.nd (.lf
  0xe4c438e80e4d40e3a0836820d9c0e478392b0e4d10e4d0836820db420da003fd223e820ddc03ee22424223e8196e2261c065b819ea0680422424000006612066101986066140661419eb068040680480a8202200e4ac38b20e35c0e4b439350e35c0e4d8836720db40e35c836920d9c0e488392f0e4cd0e4bc393320d9c20d9c03fe223e4223e40000065f6065f4197f065f8065fc80a80658820e0003e522448224481974065cc065d039c5202a0202a000001105a10510414d1057110524836e1055d1055c40d620db8103588373103fc1035c40fd103fc10560410320dcc105544103103f410534415c103f4103f4837520dcc20dcc03f22241422414198a2021816b305ad916b7516b38837e16b7116b705a5b20df81696c838316a1016b545a5c16a04169705a8216a1016b645add20dfc16b745a8820e0c16b685a8816a0816a20838420df816a10838420e080662819f2067e8134d84d3f13539134ec837613525135244cc820dd813320837b133c4133244cef133c4135284cf520dec1351c4cf5133bc134fc4d4e133bc133bc837d20dec20dec03ea2243422434197c065ec065ec80a7067dc0e49083660e4c90e4c838b120d980e2c838d80e368)
  (.lf 0))) (.nd (.nd (.lf
  0x23eac3d411fe681fe683d5b0f568011c00450013c001140043001340011bc044f013bc0113c042f0133c011a8044a013a801128042a01328010a8040a012a8011d40455013d401154043501354010d40415012d401054049523e84011a40449013a401124042901324010a40409012a401024048923eb4011b8044e013b801138042e01338010b8040e012b8010c00410012c0010bc040f012bc01038048e23ea0011b0044c013b001130042c01330010b0040c012b001030048c23ea80103c048f23e9c01028048a23eb001040049023e980be3804ec013b8013b004cc015b00133004ac015300bf682fe70bfad0bf9c2feb013b8013b804ce015b80133804ae01538012b8048e014b8012b0048c014b001230050c23e280bfac2f95013a8013a804ca015a80132804aa01528012a8048a014a801228050a23e300be5404e9013bc013a404c9015a4013bc04cf015bc0133c04af0153c012bc048f014bc0132404a901524012a40489014a401238050e23e2023eb000000f64223eb400000f64623ea000000f64a23e9c00000f64e0f6403d230f4880f48800000f49a0f4983d4d0f5600f5343d8c0f58d23ea83d1d0f4700f4743d3c0f5700f47c3d200f4dc)
  (.lf 0)) (.nd (.lf
  0x1a38869091a3b11a38c690a1a3951a39068901a23c1a39868921a3041a3a068961a24c1a258688f1a2d01a23c68971a2f81a25c69021a3a81a3a468c31a3041a30468cb1a3a81a3a868eb1a3cd1a3b068991a2f81a2f868cf214fc1a39468c91a33c1a33c68ff1a3b41a3ac68f51a3b41a3b468ee1a3e11a39c68941a24c1a24c68fe1a2601a26069011a3c01a26468c61a3c01a3b868f01a3d81a3bc68f81a3c01a3c068f21a3c51a24068912150c1a24868c21a3d01a2506891215141a24468b91a2541a25469001a3d01a3cc68c81a3d01a3d068f51a3dd1a3d468f81a3d81a3c468c81a3d81a3d868f91a3e91a3c8689a214fc1a26868c61a3fc1a3e068b71a2781a27868cc1a2e01a31868cc1a3f01a33068fe1a3ec1a3f869061a4351a3e468c91a3fc1a3fc690c1a4411a320689d2150c1a27468d01a2f41a3dc68c31a32c1a30c68b41a3401a34069011a3ec1a404853e1a43d1a3e868c21a32c1a32c69021a3f01a40869091a42d1a43c688d214f81a4306910214fc1a44068ba2150c1a42c690d1a3101a43468ba1a2d01a41868b51a2e81a2e88544214f81a424690a214f8214f8022722eac22eac220e206981d1008538214dc22e8c2219206e8)
  (.lf 0)))

def aesGateTree121 : BTree :=
  .nd (.nd (.nd (.lf
  0x12a004a8a12a5512a044a8912a41128f04a3812a0c12a0c4a8712a5912a144a8c12a39128f44a3a12a1812a184a9112a3512a5003fd00fe012a5803fe00fe012a2c4a12128dc128484a38128e812a304a8d00ffc12a344a95128dc12a384a901292012a404a3e128e012a444a4812a5412a5403f800fec12a204a97128e0128e003f800fe80ca5832a30ca9d0ca8c32a700db80ca9c325100da800da8034a00fa800d28032a00f2800ca8030a00ea800c28038a23bb000fa803ca005a800f2803aa0052800ea8038a004a800e28010a23b3023b3000000fcc60c944036900dbc00da4034900fa400d24032900f2400ca4030900ea400fa403c9005a400f2403a90052400c24038923bb400ea40389004a400e24010923b3423b3400000fcca0c928036c00db800db8034e00fb800d38032e00f3800cb8030e00eb800c38038e23ba000fb803ce005b800f3803ae0053800eb8038e004b800e38010e23b2023b2000000fcce00dbc034f00fbc00d3c032f00f3c00cbc030f00ebc00c3c038f23b9c00fbc03cf005bc00f3c03af0053c00ebc038f004bc00e3c010f23b1c23b1c00000fcd20fcc43ec40fb0c0fb0c00000fb1e0fb1c3eee0fbe40fbb83f2d0fc11)
  (.lf 0)) (.nd (.lf
  0x82142086082210821820890821c0821c208a0822d08228205a082400852c00000853a085540000085620856021880861408538217008604085c0217a08614085e82189086200852421880861c0862021b9086490861421ae08635085f021bd08635086342139084e0084e4213a2120c084fc213808574085642180086240862421ad0863d0860021bc0863d0863c213b085a8084e021400859c0850021ab0864c0856c217f0861c0861c21af08671085dc218c08628085fc21b50864908648216c085a80860c21b7086390863021b308639086382172085e008628847e086610860421b8086610866021a1086640860821b4086550862c21b2086550865421420859c0859c2178211fc085e021a808658085a821740864c0864c21940867108650219e08658085f821b60867108670217108674084ec216b08674084f4213a21214084e82162084f8084f821a90867408674219e086810867821a10867c086582197086850868421600851c0865c21990867c08508216f0866408664219b086690866821710867c0867c21a20868d086882172086a0085c82161085cc0851c21750858408584215d086a4086a421ad086f10866c2143211fc0850c216f086a0)
  (.lf 0))) (.nd (.nd (.lf
  0x15c68574015d0815e5057952099815e54579d15cfc15e58579815d4015e60574615d0015e64575015e7415e74826d209a815e40579f15d0015d00826d209ac209b401f821db421db4145705160051607fe420754059c80000059d2059d016fb05bf020bf001692211422114167c059ec059ec523305bdc20bd00171220f4220f4168b2036805a2c16f105be420c1401602213822138166e222f4059b816c505bc420be4016c2210822108168305a0805a0c88bf05a10058c080d905bc405bc488c120018223040000148ce148c851c514710147100000147221472051ef147e8147bc522e1481520bc40174220e8220e816fb05c2805bec88bf222ec0572c88b5222fc222fc51bf146f8146fc51de147f81470451c2147640587488b8148cc148cc51c91478c148d051cb147281472c51cc1471c148d451cf147381473c51cc147b01473051eb147401478c51de148001477851da147fc1476851d9147dc1476451eb147d8147ac51f1147c0147c05231148051471451c2147c4147c4522f148111470851ec147181471851f21471c147c8522a148411474051f3147ec147cc5229148191471c0000147761473851f4147f41477451f8147d0147d052301480d)
  (.lf 0)) (.nd (.lf
  0x1cb2472a01cb381cb3872d11cb491cb2872722161c1c9c8729e1cb5c1ca8072752162c1c9d472a81ca541cb40728f1c9d81c9d872a41ca401ca7872a41cb501cb3c729b1ca8c1ca6c728c1caa01caa072d91cb4c1ca9072d61cb4c1cb4c72e01cba51cb4472a11cb5c1ca8472901ca881ca8872741c9cc1c9cc72d51cb501cb48729a1ca8c1ca8c72da1cb501cb5072dd1cbb11cb5872de1cb951cb5c72e41cba11ca40728c1cb601cb6072dc1cbad1cb6485861cb9d1cb6872e11cb8d1cb9c7265216181c994858b1ca381cb8072661ca2c1c998728c1ca381cb9072e82161c1cba072922162c1cb8c72e51ca701cb9472921ca301cb7472ec1ca301ca30858d2162c1cb70728d2162c2162c05da2310423104244f091380913c8cb2205a0205a000001b806174105d0521658174145d0d172b817434859d216681cb78728d1ca481ca48858c216181cb8472e2216182161805df230f0230f02452205882165805cf23130231302438200b8090e024ae0933c18d00633c18e2018e20638c18e6d18e30633d2164c172c05cae2166017438859721674172fc85982165c172b885992165c2165c05ce231342313424ce093e8093e823be08ef419c5885a421678)
  (.lf 0)))

def aesGateTree122 : BTree :=
  .nd (.nd (.nd (.lf
  0x5a40149007a400524012900724004a40109006a400424018923ab423ab400001650a12b08016c005b8005b8014e007b800538012e00738004b8010e006b800438018e23aa023aa000001650e005bc014f007bc0053c012f0073c004bc010f006bc0043c018f23a9c23a9c0000165121650458d41634c1634c00001635e1635c58fe16424163f8593d16451005b0014c007b000530012c00730004b0010c006b000430018c23aa823aa858ce163341633858ed164341634058d1163a01650858d8163c81650c58da163641636858db163581651058de163741637858db163ec1636c58fa1637c163c858ed1643c163b458e916438163a458e816418163a058fa16414163e85900163fc163fc5940164411635058d11640016400593e1644d1634458fb16354163545901163581640459391647d1637c59021642816408593816455163580000163b216374590316430163b059071640c1640c593f1644916410593b1646d1641459371646116418593a164451641c593416451163605909164201636400001637216370590b16420164205931164411642459331644d16334590b164281642859321647d1642c593c1645516430593016449163ec590f16434)
  (.lf
  0x27640a01027b9027b809c3027bc0265009c1027ac0264c09fc027ac027ac09ed027b1027b009c3027c40270c099821a6c0266009cb026e00263409bd027bc0263c098c21a740262c098c21a6c0263009b4026400264009fb027bc027bc09f0027c9027c809be02718026f809af0272c0272c09fc027d8027c009f3027c4027c409f4027d5027d409bd027180271809fd027dc027f40a0402819028100a0521a58027b4099521a5c0265409c1027e80270409c7027dc027cc09b2026640266409c7026cc0271c09f9027d8027e40a0102821026f409b821a74026e009b2026d0026d009b1027f8027f80a0902815028140a0d026b8027d80a03028310280c0989026b8028180a08026fc0282009b5026bc027d009c4027e80271009b302714027140997026580265809f8027dc027dc0a000283d0262409af026c402830869821a74026c809b0027e00282409bf02834028000a0f026bc026cc09af027ec027e00a0202835027ec09ff0283902834869d21a6802838869721a74026bc869d21a6c21a7404c823794237942ced2394823fdc043f21d1821d1800000333a033380c6703198031980c8d0325823fe4043d21d2021d200c590316023ff4043921d30))
  (.nd (.lf
  0x6f2480dd201e4203740000144720769c843a210e0210e8032b228540d88483fc20fe820ff003692275c2275c1b6406d8c06d9040d220310070bc84052100c2100c036222778227781b5920310203100000130e620300000012ebe202fc000012eba20ff8036722764227641b60201dc06d801bac06f5406b7480be201d806e941bb406f5406f5480be20264202f80000130f220fd003712273c2273c1b73201d406dcc1bd906f8421014036022780227801b562293c06d581bad06f6406d8840d3202f406c5c807c06f6406f648a53202f4202f40000130ea202e8000012ec6202e4000012ec220290000010e2e2028c000010e2a20288000010e2620274000010e32202700000101262026c00001012207e808b49202682026800001011e2025400001012a22cf4357e0d66c201a000000d7d60d7d4358a0d6940d62835bc0d6ec2019c00000d7d20d7d035860d6140d61400000d6260d62435b10d6f02018400000d7da0d7d8358c0d62c0d630358d0d62022ce835820d6040d60835830d6680d61835830d6cc0d60c35ae0d61c0d61c35b40d6200d62000000d67a0d62c00000d63a0d63835be0d6ec2018800000d7de22cf035a50d67c0d69435a00d708)
  (.lf 0))) (.nd (.nd (.lf
  0x20b5c018e21f5c21f5c137e04d5804f0081c504d5004f6c138304f6420b40019521f4021f4013c32207804f0c13a304df804f64000004dfa04df87fe92071420b20019d21f2021f201474051d4051d481c504e8c2071400001f546057a0812c203c4204b00000190b20592080fc05b0405b8c80a5203f0203f0000015c5e058e880fb2233c203ec000015c5a059a488d205b4405b4480ab203e8203e8000015c5605864642b203e0203e0000015a3205848642a203dc203dc000015a2e058506429203d8203d8000015a2a05b9c80a6203d4203d4000015c62203c4000015a36203700000140262036c0000140222036800001401e2036400001401a202f00000121b605a8088ee202ec202ec0000121b2202d80000121be202d40000121ba202b0000011282202ac00001127e2029800001128a059ac80a505b8020294000011286057b0000005b1e05b1c88e222378223885615158c815854563d15948057a815eb2237c2237c5619158601586000001586e1586c563d15934158f47fc8159440585c88db2238422384563b1ff201ff20565515950222c84f9113eb813e444fb913f38222bc4f9513e5013e50000013e5e13e5c4fb913f2413ee47fbc13f34)
  (.lf 0)) (.nd (.lf
  0x19f9c67f419fe119e80679c19fa019fa067ec19fed19fa4857e19fdd19fa867f119fcd19fdc6775215f819dd4858319e7819fc0677619e6c19dd8679c19e7819fd067f8215fc19fe067a22160c19fcc67f519eb019fd467a219e7019fb467fc19e7019e7085852160c19fb0679d2160c2160c05e2230e4230e42456206181e8708578215e41ea187a351e8e81ea107a35215ec1ea1c7a35215f01e8d47a33215e01e8cc8579215dc215e405ec230bc1e9fc7a8c1ea411e9108578215dc1ea307a90215dc215dc05ee230b4230b40000091ae091ac246d091b0091b48166091a4230bc24680919c091a08cac091a4091a40000092ae1ea0485761ea3d1ea3c7a0d215d81e834857b1e8d81ea407a3a215ec215ec05ea230c4230c42463091880918c8ca2232a409e4081811cde82060c00001cdf22060800001cdee2060400001cde609b8400002367e2368000001cdea1cde4730b1cc281cc2800001cc3a1cc3873361cd041ccd873751cd312368473031cc802367873051cc101cc1473241cd142367473071cc181cc1c73081cc7c1cde8730f1cca41cdec73111cc401cc4473121cc341cdf073151cc501cc5473121ccc81cc4873311cc582367c73291ccd4)
  (.lf 0)))

def aesGateTree123 : BTree :=
  .nd (.nd (.nd (.lf
  0x141545087141a114158508a141851415c508414191140a0505914160140a40000140b2140b0505b14160141605081141811416450831418d14074505b14168141685082141bd1416c508c14195141705080141891412c505f141741417405e7141ad141785085141a11417c50861418514180500d1403014188500f140f8141905013140401404c500c140c4140305014140ec14050507e14198141945040140f8140f8504814198141985067141bd141a05016140ec140ec504c017981418450461413014130507b141a41419c5071141a4141a4506a141d11418c50111404014040507a1405414054507d141b0140585043141b0141a8506c141c8141ac5074141b0141b0506e141b514034500e017881403c503f141c014044500e017801403850361404814048507c141c0141bc5045141c0141c05071141cd141c45074141c8141b45045141c8141c85075141d9141b85017017981405c5043141ec14114501a0178814068504d140e8141d050341406c1406c5049140d41410c5049141e0141cc5040141201410050311413414134507d141dc14124507a141dc141dc508414235141d45046141ec1411850351411c1411c501914060140605079141e0)
  (.lf 0)) (.nd (.lf
  0x179385e7e179ec179985e70179ec179ec5ea417a0d179f05ea617a19178fc5e7e179f4179f45ea517a49179c05e7f179f8179f85eaf17a21179fc5ea317a15179b45e8217a0017a0084a617a3917a045ea817a2d17a085ea917a1117a0c5e2f178b817a145e311798017a1c5e35178c8178d45e2e1794c178b85e3617974178d85ea117a2417a205e6217980179805e6a17a2417a245e8a17a4917a2c5e3817974179745e6e2129c17a105e68179b8179b85e9e17a3017a285e9417a3017a305e8d17a5d17a185e33178c8178c85e9d178dc178dc5ea017a3c178e05e6517a3c17a345e8f17a5417a385e9717a3c17a3c5e9117a41178bc5e30212ac178c45e6117a4c178cc5e30212b4178c05e58178d0178d05e9f17a4c17a485e6717a4c17a4c5e9417a5917a505e9717a5417a405e6717a5417a545e9817a6517a445e392129c178e45e6517a7817a5c5e56178f4178f45e6b1795c179945e6b17a6c179ac5e9d17a6817a745ea517ab117a605e6817a7817a785eab17abd1799c5e3c212ac178f05e6f1797017a585e62179a8179885e53179bc179bc5ea017a6817a8084a617ab917a645e61179a8179a85ea117a6c17a845ea817aa917ab85e2c21298)
  (.lf 0))) (.nd (.nd (.lf
  0x17d985f9617e4c17df85f8817e4c17e4c5fbc17e6d17e505fbe17e7917d5c5f9617e5417e545fbd17ea917e205f9717e5817e585fc717e8117e5c5fbb17e7517e145f9a17e6017e60833617e9917e645fc017e8d17e685fc117e7117e6c5f4717d1817e745f4917de017e7c5f4d17d2817d345f4617dac17d185f4e17dd417d385fb917e8417e805f7a17de017de05f8217e8417e845fa217ea917e8c5f5017dd417dd45f8620cdc17e705f8017e1817e185fb617e9017e885fac17e9017e905fa517ebd17e785f4b17d2817d285fb517d3c17d3c5fb817e9c17d405f7d17e9c17e945fa717eb417e985faf17e9c17e9c5fa917ea117d1c5f4820cec17d245f7917eac17d2c5f4820cf417d205f7017d3017d305fb717eac17ea85f7f17eac17eac5fac17eb917eb05faf17eb417ea05f7f17eb417eb45fb017ec517ea45f5120cdc17d445f7d17ed817ebc5f6e17d5417d545f8317dbc17df45f8317ecc17e0c5fb517ec817ed45fbd17f1117ec05f8017ed817ed85fc317f1d17dfc5f5420cec17d505f8717dd017eb85f7a17e0817de85f6b17e1c17e1c5fb817ec817ee0833617f1917ec45f7917e0817e085fb917ecc17ee45fc017f0917f185f4420cd8)
  (.lf 0)) (.nd (.lf
  0x1b1106c4d1b1711b1346c5c1aff01b17085d2217401af586bfc1aff81b1586c0c1b1681b16885d5217481aff885d421748217480593232202322024b4093b0093b023e008f7c08f7c8cd5207841b14c6c551b0301b11c6c541b1611b16c85cf217541b03085d02173c1b1506c582173c2173c0596232142321400000925a0925824980925c092608111207840924c8cde20784207840000092920b3148e55207480b31c8e54207480b32c812a207482074800000b59e0b6948e57204a80b20c812b18c4c2395c000018c4e18c4c62a918aa00b6208e5b204c02396c000018c460b3588e5518c4418c4462a318a880b6988121204ac20484000018c520b2f400000b67a0b6788e582394c0b364812a0b23818a8c62a018b400b23800002396223960629f18a7818a7c62a018adc18a8062ca18a9018aa462aa18a9418a9062d118a9418a94000018aee18aec62d718b4c18c5062ad18ab018ab062d318b7018b4c630f18b8918aa0000018aae18aac62db18b600b59c8e5d239580b33881292397423974629b18ae018a6c62c318b6418a78000018a8618a8462c318b5018b0c62cd18b6018ab462aa18b2818aa862c918ab80b2b400000b65e0b65c8e5923950)
  (.lf 0)))

def aesGateTree124 : BTree :=
  .nd (.nd (.nd (.lf
  0xf3683cdb0f38d0f3703c8a0f2bc0f2bc3cc02085c0f3543cba0f3000f3003cef0f3740f36c3ce50f3740f3743cde0f3a10f35c3c850f2100f2103cee0f2240f2243cf10f3800f2283cb70f3800f3783ce00f3980f37c3ce80f3800f3803ce20f3850f2043c822086c0f20c3cb30f3900f2143c82208740f2083caa0f2180f2183cf00f3900f38c3cb90f3900f3903ce50f39d0f3943ce80f3980f3843cb90f3980f3983ce90f3a90f3883c8b2085c0f22c3cb70f3bc0f2e43c8e2086c0f2383cc10f2b80f3a03ca80f23c0f23c3cbd0f2a40f2dc3cbd0f3b00f39c3cb40f2f00f2d03ca50f3040f3043cf10f3ac0f2f43cee0f3ac0f3ac3cf80f4050f3a43cba0f3bc0f2e83ca90f2ec0f2ec3c8d0f2300f2303ced0f3b00f3a83cb30f2f00f2f03cf20f3b00f3b03cf50f4110f2cc3cae208740f2b83ca80f2a80f2a03ca60f3b40f3b43cf70f4090f3b83cf60f3f50f3bc3cfc0f4010f2a43ca50f3c00f3c03cf40f40d0f3c482160f3fd0f3c83cf90f3ed0f2a83ca70f3cc0f3cc3cfe0f3e90f4048218208740f40c8217208740f3fc3c7e208580f1f8821b0f29c0f3e03c7f0f2900f1fc3ca50f29c0f2348218208640f3f03d002085c0f4003cab2086c)
  (.lf
  0x258c096402599025900967025940259c09260243402434093c0249c024d8093c025ac024f0096d025a802580093802594024e0090c21a4c024300940024b0025980933024ec024cc092302500025000970025a8025a8097702601025940968025a5025a00939025b8024e40927024e8024e8090b02428025a40932024ec024c8092c21a54024b00926024a0024980924025b002428096c025ac025b0097602605024ec0971025ac025c40978025e9025c0868e025f9025f808fc21a38025dc08fd02488023f4092302494025e8097c024d0025b8097b025fd025ec097f21a3c025fc092921a4c025b40975025f1025f009290248c025d40924024a4024a4869421a38024a00925025c8023f0869302494027e80a070282d025d8092421a5002494869421a4821a5004d123770237702cf9204b40281c0a0b21a5c0282c09b521a6c026d4869c21a5821a7004c923790237902cef0b3b80b3b881340b5e00b3e42d780b5f8237542d0a239280b4282d650b5e00b5e080472012c02a68869f21a940249c0923025bc025bc0973026090242c869021a44025cc092421a4c02490092221a40025c8097d025e5025e0097921a38025e409810248802488869121a3c))
  (.nd (.lf
  0x153d854ef15450153bc54f715478153dc5561155241552055231548415484552b1552415524554a155491552c54f91547815478552f20f1c155105529154bc154bc555e155301552855541553015530554d1555d1551854f4153cc153cc555d153e0153e055601553c153e455261553c15534554f155541553855571553c1553c555115541153c054f120f2c153c855221554c153d054f120f34153c45519153d4153d4555f1554c1554855281554c1554c5554155591555055571555415540552815554155545558155651554454fa20f1c153e8552615578154a054fd20f2c153f45530154741555c5517153f8153f8552c1546015498552c1556c155585523154ac1548c5514154c0154c0556015568154b0555d15568155685567155c115560552915578154a45518154a8154a854fc153ec153ec555c1556c155645522154ac15488551d20f34154745517154641545c551515570155705566155c5155745565155b115578556b155bd1546055141557c1557c5563155c9154ac55611556c155845568155a91546455161558815588556d155a5155c883c720f341559c54ee1544c155b45524155c4155a8556c154901549083c820f1c155a0556920f18)
  (.lf 0))) (.nd (.nd (.lf
  0x15b80570415b9915b3c56e315b8415b84827615bbd15b88570915bb115b8c570a15b9515b90569115a4015b98569315b0815ba0569715a5015a5c569015ad415a40569815afc15a60570215ba815ba456c415b0815b0856cc15ba815ba856eb15bcd15bb0569a15afc15afc56d0209dc15b9456ca15b4015b4056ff15bb415bac56f515bb415bb456ee15be115b9c569515a5015a5056fe15a6415a64570115bc015a6856c715bc015bb856f015bd815bbc56f815bc015bc056f215bc515a445692209ec15a4c56c315bd015a545692209f415a4856ba15a5815a58570015bd015bcc56c915bd015bd056f515bdd15bd456f815bd815bc456c915bd815bd856f915be915bc8569b209dc15a6c56c715bfc15b24569e209ec15a7856d115af815be056b815a7c15a7c56cd15ae415b1c56cd15bf015bdc56c415b3015b1056b515b4415b44570115bec15b3456fe15bec15bec570815c4515be456ca15bfc15b2856b915b2c15b2c569d15a7015a7056fd15bf015be856c315b3015b0c56be209f415af856b815ae815ae056b615bf415bf4570715c4915bf8570615c3515bfc570c15c4115ae456b515c0015c00570415c4d15b30570215bf015c08570915c2d)
  (.lf 0)) (.nd (.lf
  0x1b8306e09214d41b8246e311b8341b8346e781b9b01b9ac6e401b9b01b9b06e6d1b9bd1b9b46e701b9b81b9a46e401b9b81b9b86e711b9c91b9a86e12214bc1b8486e3e1b9dc1b9006e15214cc1b8546e481b8d41b9c06e2f1b8581b8586e441b8c01b8f86e441b9d01b9bc6e3b1b90c1b8ec6e2c1b9201b9206e791b9cc1b9106e761b9cc1b9cc6e801ba251b9c46e411b9dc1b9046e301b9081b9086e141b84c1b84c6e751b9d01b9c86e3a1b90c1b8e86e35214d41b8d46e2f1b8c41b8bc6e2d1b9d41b9d46e7f1ba291b9d86e7e1ba151b9dc6e841ba211b8c06e2c1b9e01b9e06e7c1ba2d1b90c6e7a1b9d01b9e86e811ba0d1b8c46e2e1b9ec1b9ec6e861ba091ba2c852f214d41ba006e061b8ac1ba186e3c1ba281ba0c6e851b8f01b8f08530214bc1ba046e82214b81ba086e8a1b8ac1ba106e88214bc1b9f86e2d1b8c81b9f06e2d214cc1b9fc6e2d214d01b8b46e2b214c01b8ac8531214bc214bc023622e701d1dc74841d2351d11474341d1181d11874181d05c1d05c74791d1e01d1e074811d2411d0f87439214f41d0e474331d0d41d0cc74311d1e41d1e474831d2391d0d074301d1f01d1f074801d23d1d0d474321d1fc1d1fc748a1d219)
  (.lf 0)))

def aesGateTree125 : BTree :=
  .nd (.nd (.nd (.lf
  0x23cac45661fea423cb845401157423ca445441150c1150c00001151a115184568115e0115004568115f4115a07fa9115f01fea44580115fc14ef453ca14f3914f2853ce009b814f385379009a814de40269009bc14dc8026c009b8009a8024a00ba800928022a00b28008a8020a00aa800828028a23cb023cb00000116d6009a4024900ba400924022900b24008a4020900aa400824028923cb423cb40000116da009b8024e00bb800938022e00b38008b8020e00ab800838028e23ca023ca00000116de009bc024f00bbc0093c022f00b3c008bc020f00abc0083c028f23c9c23c9c0000116e2116d445481151c1151c00001152e1152c4572115f4115c845b111621009b0024c00bb000930022c00b30008b0020c00ab000830028c23ca823ca84542115041150845611160411510454511570116d8454c11598116dc454e1153411538454f11528116e045521154411548454f115bc1153c456e1154c1159845611160c11584455d1160811574455c115e811570456e115e4115b84574115cc115cc45b411611115204545115d0115d045b21161d11514456f1152411524457511528115d445ad1164d1154c4576115f8115d845ac1162511528000011582)
  (.lf 0)) (.nd (.lf
  0x1651483f3165b8166fc5946165ac16518596c165b8166f059cb165b01672c83f220fc01670059c120fb81670459c9165ac16714597c167241672483f520fc8165b883f420fc820fc8037322734166d459bd16711166d859c31671d165c0596c166dc166dc59bb167291672883ef20fd41670859c4165f0165f083f020fbc1670c59c720fbc166f4596d165c8166ec596d20fcc166f8596d20fd0165b4596b20fc0165ac83f120fbc20fbc037622728227281beb06fcc06fcc1ad906b6006b6080992076c227341b7606dd406dd88a432076c2076c000006eb607cb0815707f3807ca4815807f0007f388158201a02056000001aaea07cc4000007cce07ccc8b4007f6407f6481572019c2055c00001aae607b74815207b7c07cdc1fc807ff807ff88152201882054800001aaf207fd881512018407cd0815107cd82054400001aaee07b8c8b3f07f2007b808b3e07b7c07cd8000007fca1aae46a4b1a9281a92800001a93a1a9386a761aa041a9d86ab51aa3107b7c000007f2207f208b4122cc807f008b4122cf422d046a431a98007fa08b3f22cec22cfc6a451a9101a9146a641aa1407fc88b3e22ce822cf86a471a9181a91c6a481a97c1aae86a4f1a9a4)
  (.lf 0))) (.nd (.nd (.lf
  0x119bc466b11ad811ad846ba11b2511a0846b811ac811ae046bf11b05119c0466d11ae411ae446c411b0111b24834f20d5411af84645119a811b10467b11b2011b0446c3119ec119ec835020d3c11afc46c020d3811b0046c8119a811b0846c620d3c11af0466c119c411ae8466c20d4c11af4466c20d50119b0466a20d40119a8835120d3c20d3c011622260061dc18ad0629c062b418b4062d911ac846bb11b2911b1c835020d541194c835020d4411aec46ca119ac11b28835220d4020d400115222642226416b02239c22260000005ac605ac416b305ac8062cc183a0617c062bc186120d8c062c4186106198062c8186120d9006184185f20d80062e41870062f4062d818b8061c0061c0836020d7c062d018b520d78062d418bd0617c0617c836120d7c062dc18bb20d7c20d7c0106222a0222a0169905a6005a6016f005a6805a68000005bd605acc810005c8005ac016d005bd4063c080810e7142260800000e7160e70c39560e5540e55400000e5660e56439800e62c0e60039bf0e6592261039500e53c0e540396f0e63c0e54839530e5a80e710395a0e5d00e714395c0e56c0e570395d0e5600e71839600e57c0e580395d0e5f40e574397c0e584)
  (.lf 0)) (.nd (.lf
  0x1987c664c198b1204dc000019972238f865e519790197906623198881997065f5197d0197d465f219848197c86611197d8197d8661a1988819888664a198dd2390465e3198001978c660b198841982c661519880238fc6609198541985466241988c197c00000197ce197cc6623198801988c6654198b5198686650198b52390000001996a197946604198941996865ef198241982466041989c198106600198981980065ff19878197fc6611198741984466181985c198606656198ad197d0661b19890198906648198a9198486627198941989485fe198cd19898664d198c11986c6657198a9198786652198a51989c664e198a5197bc662119880198806649198a11985c6658198a1198a065d41974c198a865d619814198b065da1975c1976865d3197e01974c65db198081976c6646198b8198b466071981419814660f198b8198b8662f198dd19874664f198c1198c065dd19808198086613217fc198bc6639198c4198a4660d1984c1984c6643198c4198c46632198f119884664b198ad198c86634198e819774660a198d0198ac65d81975c198cc663c198d01975c664219770197706645198d0198d06636198d51975065d52180c197586606198e0)
  (.lf 0)))

def aesGateTree126 : BTree :=
  .nd (.nd (.nd (.lf
  0x12acc4add12adc12adc4ae312ae012b8c4b1b12c0512b044ae412bb012b904b1a12bdd12ae0000012b3a12afc4ae512bb812b384ae912b9412b944b2112bd112b984b1d12bf512b9c4b1912be912ba04b1c12bcd12ba44b1612bd912ae84aeb12ba812aec000012afa12af84aed12ba812ba84b1312bc912bac4b1512bd512abc4aed12bb012bb04b1412c0512bb44b1e12bdd12bb84b1212bd112b744af112bbc12bbc016f12bf512bc04b1712be912bc44b1812bcd12bc84a9f12a7812bd04aa112b4012bd84aa512a8812a944a9e12b0c12a784aa612b3412a984b1012be012bdc4ad212b4012b404ada12be012be04af912c0512be84aa812b3412b344ade005b812bcc4ad812b7812b784b0d12bec12be44b0312bec12bec4afc12c1912bd44aa312a8812a884b0c12a9c12a9c4b0f12bf812aa04ad512bf812bf04afe12c1012bf44b0612bf812bf84b0012bfd12a7c4aa0005a812a844ad112c0812a8c4aa0005a012a804ac812a9012a904b0e12c0812c044ad712c0812c084b0312c1512c0c4b0612c1012bfc4ad712c1012c104b0712c2112c004aa9005b812aa44ad512c3412b5c4aac005a812ab04adf12b3012c184ac612ab412ab44adb12b1c)
  (.lf 0)) (.nd (.lf
  0x17cf084582117417cf884572117417ce85eb82115817ae0845b17b8417ccc5eb917b7817ae45edf17b8417cdc5f3b2115c17cec5ee52116c17cd05f352115817cd45f3d17b7817cd85f3817bbc17ce05ee517b7c17ce45eef17cf417cf4845d2116817cc45ee017b9417b94845c2115817b84845c2116817cc05f3f17b7c17b7c845d2116c17cc85ee021170077841ddc21134077701dd607760077581dd407870211740308228e0228e01b8506e10211900301228fc228fc1b7a06de406de480dd06f9c211700309228dc228dc1b8620378078808446078b9078b81dac21118076b0844b07754078681e27078c10789c1dad07748076b41dd307754077601dd50788807754844c21128228c01b8e229f406e181bbf06f9c078601de80787806e1481c8201b4077a01dd7077a4077a41dbb076e8076e81e1c0786c078701e26078c5078981dd421130078841e28078a9078a81e2c0778c078781e2b078bd078ac1e2f2111c078bc1dd92112c078b01dd90774c07764844c211182113003192289c2289c1b9f2072006e381ba606f9c06f9c81c8229f02072000001f31607ab0844e07ae907ae81e3821138078e08453079841a8506a1d1a8b11a74069cc1a860)
  (.lf 0))) (.nd (.nd (.lf
  0x16cd85b5e16d2d16cdc5b6816d0516ce05b5c16cf916c9c5b3b16ce416ce4831e16d1d16ce85b6116d1116cec5b6216cf516cf05ae916ba016cf85aeb16c6816d005aef16bb016bbc5ae816c3416ba05af016c5c16bc05b5a16d0816d045b1c16c6816c685b2416d0816d085b4316d2d16d105af216c5c16c5c5b2820c7c16cf45b2216ca016ca05b5716d1416d0c5b4d16d1416d145b4616d4116cfc5aed16bb016bb05b5616bc416bc45b5916d2016bc85b1f16d2016d185b4816d3816d1c5b5016d2016d205b4a16d2516ba45aea20c8c16bac5b1b16d3016bb45aea20c9416ba85b1216bb816bb85b5816d3016d2c5b2116d3016d305b4d16d3d16d345b5016d3816d245b2116d3816d385b5116d4916d285af320c7c16bcc5b1f16d5c16c845af620c8c16bd85b2916c5816d405b1016bdc16bdc5b2516c4416c7c5b2516d5016d3c5b1c16c9016c705b0d16ca416ca45b5916d4c16c945b5616d4c16d4c5b6016da516d445b2216d5c16c885b1116c8c16c8c5af516bd016bd05b5516d5016d485b1b16c9016c905b5a16d5016d505b5d16db116d585b5e16d9516d5c5b6416da116c445b0d16d6016d605b5c16dad16d64831e16d9d16d685b6116d8d)
  (.lf 0)) (.nd (.lf
  0x901024b309324231a424052044c0904c81131be98231c423fc08fec08fec814a09324093248cc92044c2044c000017672216f805a7231d0216d805af231b0231b02400205140903024db0939c231d023f52063408fd424a50939c0900024ac0939c0939c816920438095f8252f216ac094bc252d216a0094b485a92169c094f885a82169c2169c05be231742317424db093dc093dc23c508f1008f14810e1be9c2043800001767e096ec25b921700096e485c1216fc0972885c0216fc216fc05a6231d4231d423f308fc808fc8000008fd21c84085b8216dc1c80471ff216e01c7fc85b9216dc216dc05ae231b4231b424e6093d0216c005b52319823198240a2330408fd024e3093980902824d709398093988cc5204340963885aa216a00945885a8216a4216a005bd2317823178241b090680906c810d08f402043400001767a216a805bb231802318024c4093d4093d423cb08f2808f2c8cc2233200968885c0217042170405a4231dc231dc23ee08fb408fb424d708fbc2170005a5231d8231d823f0233301c7a085b8216e4216e405ac231bc231e023eb08fa808fa824cd08fb008f288cd1092b408fb00000093421c98085ba216e0216e805ab231c0)
  (.lf 0)))

def aesGateTree127 : BTree :=
  .nd (.nd (.nd (.lf
  0xbc4c2f030bc800bc802f500bd280bc702f4d0bd280bd282f570bd810bd202f190bd380bc642f070bc680bc682eeb0bba80bba82f4c0bd2c0bd242f120bc6c0bc6c2f510bd2c0bd2c2f540bd8d0bc482f0c017a00bc302f060bc200bc182f040bd300bd302f560bd850bd4005ef0bd790bd442f580bd690bc202f050bd480bd482f5d0bd650bd782edc017bc0bb7005ea0bc140bd5c2edd0bc080bb742f030bc140bd502f630bc0c0bd8c05eb017b40bd602f59017bc0bd642f610bc080bd742f140bd840bd8405e8017ac0bc1405e9017ac017ac05cb009ac0172c05ab0092c016ac058b008ac0162c020b23d2c23d2c3dcc1fe6c0bd342f550bd710bd682f5c0bc500bd702f090bc0c0bc1c2f030bd3c0bd3c2f530bd890bd8805ee017a00bc0c05e8017a80bd8005ed017a0017a005c8009a00172005a800920016a00588008a001620020823d3823d383da60f70c0bd542f040bc240bc5005ed017b80bd4c2f04017a80bd582f04017a40bc102f02017b40bbac05ed017b0017b405cd009b40173405ad00934016b4058d008b401634020d23d2423d243daa0f6a40f6a400000f6b20f6b03dce0f7780f6983dce0f78c0f7387f9b0f7881fe6c3de60f794)
  (.lf 0)) (.nd (.lf
  0x1da68769c1da881da6c76a41da701da70769e1da751d8f0763d213ec1d8f8766e1da801d900763d213f41d8f476651d9041d90476ac1da801da7c76741da801da8076a11da8d1da8476a41da881da7476741da881da8876a51da991da787646213dc1d91876721daac1d9d07649213ec1d924767c1d9a41da9076631d9281d92876781d9901d9c876781daa01da8c766f1d9dc1d9bc76601d9f01d9f076ad1da9c1d9e076aa1da9c1da9c76b41daf51da9476751daac1d9d476641d9d81d9d876481d91c1d91c76a91daa01da98766e1d9dc1d9b87669213f41d9a476631d9941d98c76611daa41daa476b31daf91daa876b21dae51daac76b81daf11d99076601dab01dab076b01dafd1d9dc76ae1daa01dab876b51dadd1d99476621dabc1dabc76ba1dad91dafc84f7213f41dad0763a1d97c1dae876701daf81dadc76b91d9c01d9c084f8213dc1dad476b6213d81dad876be1d97c1dae076bc213dc1dac876611d9981dac07661213ec1dacc7661213f01d984765f213e01d97c84f9213dc213dc026e22d9022d90000008a1608a14228708a1808a1c817408a0c1daa076b11db011daf484f8213f41d92084f8213e41dac476c01d9801db0084fa213e0)
  (.lf 0))) (.nd (.nd (.lf
  0xe0e438770e1d80e1d8389e0e22d0e1dc38a80e2050e1e0389c0e1f90e19c387b0e1e40e1e483860e21d0e1e838a10e2110e1ec38a20e1f50e1f038290e0a00e1f8382b0e1680e200382f0e0b00e0bc38280e1340e0a038300e15c0e0c0389a0e2080e204385c0e1680e16838640e2080e20838830e22d0e21038320e15c0e15c386820e1c0e1f438620e1a00e1a038970e2140e20c388d0e2140e21438860e2410e1fc382d0e0b00e0b038960e0c40e0c438990e2200e0c8385f0e2200e21838880e2380e21c38900e2200e220388a0e2250e0a4382a20e2c0e0ac385b0e2300e0b4382a20e340e0a838520e0b80e0b838980e2300e22c38610e2300e230388d0e23d0e23438900e2380e22438610e2380e23838910e2490e228383320e1c0e0cc385f0e25c0e184383620e2c0e0d838690e1580e24038500e0dc0e0dc38650e1440e17c38650e2500e23c385c0e1900e170384d0e1a40e1a438990e24c0e19438960e24c0e24c38a00e2a50e24438620e25c0e18838510e18c0e18c38350e0d00e0d038950e2500e248385b0e1900e190389a0e2500e250389d0e2b10e16c385620e340e15838500e1480e140384e0e2540e254389f0e2a90e258389e0e295)
  (.lf 0)) (.nd (.lf
  0x1964865c6196751967465811961c195d86587218fc1961c65b7196941968c65ad196941969465a6196c11969865a8196b819664863e1969d1964065c71969d1969c65b0196a01952c65b61954019544657e196a01954065b9196a0196a065aa196a5196a46580196b8196b465b0196b8196b865b1196c9196c8657a1960c1960c65ba196d00a9dc2aae0aaa00aab82ab50aadd1960065552190c195546588195d4196c0656f19558195586584195c0196c46581196dc19604657019608195c0656c196e0196e065bc1972d196f0656d2190c0acdc2b440ad210ad102b48218dc0ad202af2218ec0abc8863c218d80ace486360ad1d0ad1c2ac5218d80ab14863b0abb80abb8863c218e8218f00529234ec234ec26fa09be40aadc2ab90a9c0196a86552218fc19548657e196dc195f86584196d01961065b6196cc195ec656c196201962065b9196cc196cc65c01972509be86d752043c1ad006aea218cc1acf46aea1ab901aba88634218b8218d00531234cc1960865541954c1954c65b5196d0196d065bd19731196e865c11970d1970c65c5195f0196d865be19715197146572195b0197006546195ac196f465cc195b019518656c195b8195b086452190c)
  (.lf 0)))

/-- Gate codes: 56 bits each, 64 per leaf. -/
def aesGateTree : BTree :=
  .nd (.nd (.nd (.nd (.nd (.nd (.nd (aesGateTree0) (aesGateTree1)) (.nd (aesGateTree2) (aesGateTree3))) (.nd (.nd (aesGateTree4) (aesGateTree5)) (.nd
  (aesGateTree6) (aesGateTree7)))) (.nd (.nd (.nd (aesGateTree8) (aesGateTree9)) (.nd (aesGateTree10) (aesGateTree11))) (.nd (.nd (aesGateTree12) (aesGateTree13))
  (.nd (aesGateTree14) (aesGateTree15))))) (.nd (.nd (.nd (.nd (aesGateTree16) (aesGateTree17)) (.nd (aesGateTree18) (aesGateTree19))) (.nd (.nd (aesGateTree20)
  (aesGateTree21)) (.nd (aesGateTree22) (aesGateTree23)))) (.nd (.nd (.nd (aesGateTree24) (aesGateTree25)) (.nd (aesGateTree26) (aesGateTree27))) (.nd (.nd
  (aesGateTree28) (aesGateTree29)) (.nd (aesGateTree30) (aesGateTree31)))))) (.nd (.nd (.nd (.nd (.nd (aesGateTree32) (aesGateTree33)) (.nd (aesGateTree34)
  (aesGateTree35))) (.nd (.nd (aesGateTree36) (aesGateTree37)) (.nd (aesGateTree38) (aesGateTree39)))) (.nd (.nd (.nd (aesGateTree40) (aesGateTree41)) (.nd
  (aesGateTree42) (aesGateTree43))) (.nd (.nd (aesGateTree44) (aesGateTree45)) (.nd (aesGateTree46) (aesGateTree47))))) (.nd (.nd (.nd (.nd (aesGateTree48)
  (aesGateTree49)) (.nd (aesGateTree50) (aesGateTree51))) (.nd (.nd (aesGateTree52) (aesGateTree53)) (.nd (aesGateTree54) (aesGateTree55)))) (.nd (.nd (.nd
  (aesGateTree56) (aesGateTree57)) (.nd (aesGateTree58) (aesGateTree59))) (.nd (.nd (aesGateTree60) (aesGateTree61)) (.nd (aesGateTree62) (aesGateTree63)))))))
  (.nd (.nd (.nd (.nd (.nd (.nd (aesGateTree64) (aesGateTree65)) (.nd (aesGateTree66) (aesGateTree67))) (.nd (.nd (aesGateTree68) (aesGateTree69)) (.nd
  (aesGateTree70) (aesGateTree71)))) (.nd (.nd (.nd (aesGateTree72) (aesGateTree73)) (.nd (aesGateTree74) (aesGateTree75))) (.nd (.nd (aesGateTree76)
  (aesGateTree77)) (.nd (aesGateTree78) (aesGateTree79))))) (.nd (.nd (.nd (.nd (aesGateTree80) (aesGateTree81)) (.nd (aesGateTree82) (aesGateTree83))) (.nd (.nd
  (aesGateTree84) (aesGateTree85)) (.nd (aesGateTree86) (aesGateTree87)))) (.nd (.nd (.nd (aesGateTree88) (aesGateTree89)) (.nd (aesGateTree90) (aesGateTree91)))
  (.nd (.nd (aesGateTree92) (aesGateTree93)) (.nd (aesGateTree94) (aesGateTree95)))))) (.nd (.nd (.nd (.nd (.nd (aesGateTree96) (aesGateTree97)) (.nd
  (aesGateTree98) (aesGateTree99))) (.nd (.nd (aesGateTree100) (aesGateTree101)) (.nd (aesGateTree102) (aesGateTree103)))) (.nd (.nd (.nd (aesGateTree104)
  (aesGateTree105)) (.nd (aesGateTree106) (aesGateTree107))) (.nd (.nd (aesGateTree108) (aesGateTree109)) (.nd (aesGateTree110) (aesGateTree111))))) (.nd (.nd
  (.nd (.nd (aesGateTree112) (aesGateTree113)) (.nd (aesGateTree114) (aesGateTree115))) (.nd (.nd (aesGateTree116) (aesGateTree117)) (.nd (aesGateTree118)
  (aesGateTree119)))) (.nd (.nd (.nd (aesGateTree120) (aesGateTree121)) (.nd (aesGateTree122) (aesGateTree123))) (.nd (.nd (aesGateTree124) (aesGateTree125)) (.nd
  (aesGateTree126) (aesGateTree127)))))))

def aesWireTree0 : BTree :=
  .nd (.nd (.nd (.lf
  0x7f0000000007d0000000007b00000000079000000000770000000007500000000073000000000710000000006f0000000006d0000000006b00000000069000000000670000000006500000000063000000000610000000005f0000000005d0000000005b00000000059000000000570000000005500000000053000000000510000000004f0000000004d0000000004b00000000049000000000470000000004500000000043000000000410000000003f0000000003d0000000003b00000000039000000000370000000003500000000033000000000310000000002f0000000002d0000000002b00000000029000000000270000000002500000000023000000000210000000001f0000000001d0000000001b00000000019000000000170000000001500000000013000000000110000000000f0000000000d0000000000b0000000000900000000007000000000050000000000300000000001)
  (.lf
  0x204e001160c1da54011e001da80011e021c4c800e80a1ba5c00e2001bcc800e20c1ba7800e20a1c2c000ee0a1c50c00e8001c50800e8021c55000e80c1c33800ee001c2bc00ee021c25800ee0c19dcc00d00219dc000d00c19db000d00a19da000d0001515000b80a1521800be0a18edc00bc001513c00b8001513800b8021521400be001521000be021467400860a148000084001488400840c1485000840a13a14008a0a146700086001466c0086021466800860c13880008c0213a0c008a0013a04008a02139fc008a0c14bb000980014b7800980214b4000980a1387c008c001052800700c1052400700a1051c007000105180070020e43c0040000e4340040020e43000400c0e42c00400a0f6b40048000f5a40048020f51c00480c0f4b000480a0f4a0004c000f494004c020bad400240a0bacc0022000bac800220c0bac400220a0ba180024000b98c00240c0a3180000000a30c0000020a30800000c))
  (.nd (.lf
  0x1276000943c1276c0094781276400943e126ac009444126b0009446127740094521274c00946a1275c0094901263c009434126a8009484126c0009464127800094481278800945a126c40094861278c00947a127900094921279400946c12648009436127b8009454127a4009474127b400948c127d8009498127c4009460127e800948e127ec00949a127f400949c127f80094a2127e40094aa127f00094a4128100094ac128140094c2128280094ae1282c0094b012840009516128380094b2128440094b4128640094d012858009500128240094ec1285c0094ba1283c0094c8128600094e2128680094ca1286c009526128700094c4128780094bc1287c0094f8128800094ce128880095321288c0094f61289c009502128a0009528128a4009518128a800950a128ac0094be128bc0094d2128c400951c128d00094ee128d80094e412914009534127bc00945c128300094c6128740094cc128dc0094f0)
  (.lf 0))) (.nd (.nd (.lf
  0x151a800bef2151b800bf081518c00befc151c800bf3c1519c00bf36150ac00bf06150b000bf1e151d000bf3a151bc00bf38151d800bf10150b400bf20151e800bf22151e400bf121520800bf2e1509800bf24151dc00bf3e14e7000be9614ed800be9e14c9c00be7e14eb800be7c14e6800bea81502400bf141501c00bee61506400bed81506c00befe1517000bedc1519000beea1502000bee81500400beb81517400bede1517800bee01506800beda14e2000be5014e1800be56146c00019d7139f80019d514ca40019d3148480019d1147ec0019cf148800019cd155400019cb154d40019c91676c0019c7166a00019c5166bc0019c31620c0019c1162000019bf163040019bd170e00019bb162a00019b9162700019b714d440019b518a780019b3138880019b114c380019af14c1c0019ad184840019ab1465c0019a91382c0019a714bb80019a514b8c0019a316ec40019a1161d000199f153cc00199d)
  (.lf 0)) (.nd (.lf
  0x632001666c063300166360634c016654063380166740634801668c063680166980635c0166600637c01668e0638401669a0638801669c0638c0166a2063780166aa063800166a4063a40166ac063a80166c2063ac0166ae063c00166b0063d4016716063c40166b2063d80166b4063e00166d0063f0016700063bc0166ec063f40166ba063cc0166c8063f80166e2063fc0166ca06400016726064040166c40640c0166bc064100166f8064140166ce0641c016732064200166f60643001670206434016728064380167180643c01670a064400166be064500166d20645801671c064640166ee0646c0166e4064c80167340635401665c063c80166c6064080166cc064700166f0063500166940633401664a063400166800634401668a063700166a00713401670e063600166a606480016730060440166380635801665e0632c016672063dc0166b60647c01672c06444016704063d00166d606328016670)
  (.lf 0)))

def aesWireTree1 : BTree :=
  .nd (.nd (.nd (.lf
  0xcdc000c3a00d30000c6600d40000c8800d50000c6e00cd8000c4e00ccc000c6800cc8000c3200cc4000c4000e80000cd400eb4000cf400e74000cc000e50000cfa00eb0000cf200ebc000d0800e54000cfc00e58000d3c00ed8000d3600e78000d0600e88000d1e00e94000d3a00edc000d3803558000d1000e8c000d2000ec8000d2203568000d1200ecc000d2e00e44000d2403544000d3e00d90000c9600d98000c9e00d10000c7e00d68000c7c00da0000ca800ddc000d1400de0000ce600e10000cd800e18000cfe00dbc000cdc00dc4000cea00de4000ce800dc8000cb800dc0000cde00dcc000ce000e14000cda00d14000c5000d1c000c5600c98000e1000ca0000e1200ca4000e1c00cc0000e1a00ae0000e3000b04000e8200ac4000e4200b08000e4c00ae8000e7600b00000e5800adc000e6200ac8000e3c00aec000e7800ad8000e3e00acc000e4400ad0000e4600af8000e5200ab0000e6a)
  (.lf
  0x232c00038c12328c0038bf233080038bd232a80038bb232f00038b9233140038b7232d00038b52330c0038b3215b00038b1215880038af215640038ad215a80038ab2157c0038a9215500038a7215980038a5215a40038a3221480038a12214400389f2236800389d2213000389b2213c00389922358003897223cc003895223d0003893219400038912190400388f2198400388d2193400388b2199c00388921974003887219b000388521994003883235580038812359800387f2357000387d2359000387b23568003879235500038772353c00387523580003873231400038712315000386f2311c00386d2314800386b2313800386923114003867230dc0038652310800386323c9400386123c5c00385f23cc800385d23ca000385b23c5000385923cbc00385723cd8003855))
  (.nd (.lf
  0x6ef0017e7206fa0017eb607040017f2c07008017f0406f94017ed606eec017e700703c017f2a07038017f1a06b18017e3a06ed8017e6606e8c017e8806ee8017e6e06ea8017e4e06e48017e6806e74017e3206af0017e4007018017ed40704c017ef40700c017ec006fe8017efa07048017ef207054017f0806fec017efc06ff0017f3c07080017f3607010017f0607020017f1e0702c017f3a07084017f38070fc017f1007024017f2007060017f2207100017f1207064017f2e06fdc017f2407108017f3e06f28017e9606f30017e9e06e5c017e7e06f00017e7c06f38017ea806f74017f1406f78017ee606fa8017ed806fb0017efe06f54017edc06f5c017eea06f7c017ee806f60017eb806f58017ede06f64017ee006fac017eda06ec4017e5006ecc017e560a8ac0036100a8b40036120a8b800361c0a8d400361a0a70c0036300a71c0036820a67c0036420a72000364c0a6340036760a63c003658)
  (.lf 0))) (.nd (.nd (.lf
  0x9860018f0a0986c018ebe0987c018ed209884018f1c09890018eee09898018ee4098e0018f340976c018e5c097e0018ec609820018ecc0989c018ef009768018e940974c018e4a09758018e800975c018e8a09788018ea009840018f0e09778018ea6098ac018f30096d8018e3809770018e5e09744018e72097f4018eb6098a8018f2c0982c018f0c09870018f04097e8018ed609740018e70098a4018f2a098a0018f1a095a8018e3a09724018e6609730018e880973c018e6e09668018e4e096c8018e68096f0018e32095c0018e4009880018ed4098b8018ef409874018ec009844018efa098b4018ef2098c0018f0809848018efc0984c018f3c098e4018f3609878018f0609888018f1e09894018f3a098e8018f3809864018f100988c018f20098cc018f2209868018f12098d4018f2e09834018f2409850018f3e0977c018e9609784018e9e096e0018e7e09754018e7c0978c018ea8097c8018f14)
  (.lf 0)) (.nd (.lf
  0x1751c00acd81752400acfe174c800acdc174d000acea174f000ace8174d400acb8174cc00acde174d800ace01752000acda1743800ac501744000ac561868000a4101868800a4121868c00a41c186b800a41a1849c00a4301847800a4821849400a442154e000a44c155b400a476184ac00a4581849800a462155b000a43c1846c00a4781847400a43e184d400a444184d800a446184e000a452184c800a46a184d000a490184a000a434184cc00a484184e400a464184ec00a448184b000a45a184f400a4861847c00a47a184fc00a4921850000a46c184b400a4361852400a4541851000a4741852000a48c1854000a4981853400a4601855400a48e1855c00a49a1856000a49c1856400a4a21855000a4aa1855800a4a41857c00a4ac1858000a4c21858400a4ae1859800a4b0185ac00a5161859c00a4b2185b000a4b4185b800a4d0185c800a5001859400a4ec185cc00a4ba185a400a4c8185d000a4e2)
  (.lf 0)))

def aesWireTree2 : BTree :=
  .nd (.nd (.nd (.lf
  0x21b0c01390021ab80138ec21ac80138ba21af00138c821b400138e221af80138ca21ae801392621a680138c421ad00138bc21ab00138f821a8c0138ce21abc01393221b440138f621b1001390221af401392821aec01391821a7801390a21acc0138be21aa80138d221a8801391c21ac00138ee21b640138e421b1401393421a0001385c21adc0138c621afc0138cc21b680138f0219f801389421a2001384a21a3801388021a3c01388a21a0c0138a021b4801390e219fc0138a621ba80139302171001383821a0401385e217f001387221aa00138b621ba401392c21ad801390c21b1801390421ae00138d6217ec01387021b9801392a21b9001391a20af401383a217e801386621a2c0138882174001386e20ab801384e21700013868219d40138322166001384021aac0138d421b800138f421ad40138c021b5c0138fa21b6c0138f221b7001390821b600138fc21b5401393c21b2c01393621b1c013906)
  (.lf
  0xd7a8002fe30d268002fe10cfb4002fdf0d460002fdd0d2e8002fdb0cf74002fd90d27c002fd70d4a4002fd50d5d4002fd310788002fd10d434002fcf0d424002fcd0d2b0002fcb0d28c002fc90d50c002fc70d958002fc50d5b4002fc30370000000e0370400000801980000006036f400000403738000a0e0370c000a0801ea4000a0603728000a0400a9000140e00a6400140800a8c00140600a8400140409a00001e0e0324c001e0c099b4001e0803234001e06099e8001e04035a800080e035b4000808010f8000806035b00008040376c00120e0378c001208020c80012060377c00120409a74001c0e03484001c0c03488001c0a09aa4001c080345c001c0609a5c001c0403480001c02035c400060e035f400060801318000606035d000060403db400100e03d700010080258000100603da000100403498001a0e034a8001a080040c001a06034a4001a040362c00040e0360000040801538000406))
  (.nd (.lf
  0xadd80035000ada40034ec0addc0034ba0adb40034c80ade00034e20ade40034ca0ade80035260adec0034c40adf40034bc0adf80034f80adfc0034ce0ae040035320ae080034f60ae180035020ae1c0035280ae200035180ae2400350a0ae280034be0ae380034d20ae4000351c0ae4c0034ee0ae540034e40ae900035340ad3c00345c0adb00034c60adf00034cc0ae580034f00ad380034940acfc00344a0ad280034800ad2c00348a0ad580034a00aed800350e0ad480034a60ae680035300acdc0034380ad4000345e0ad1c0034720adc40034b60ae6400352c0ae2c0035040adb80034d60ad180034700ae6000352a0ae5c00351a0a60400343a0acf40034660ad040034880ad1400346e0a60000344e0acc00034680a5dc0034320acbc0034400ae3c0034d40ae700034f40ae300034c00ae0c0034fa0ae6c0034f20ae780035080ae100034fc0ae1400353c0ae940035360ae340035060ae4400351e)
  (.lf 0))) (.nd (.nd (.lf
  0x1d980011e5e1d910011e721d9c0011eb61daa8011f2c1da5c011f041d9fc011ed61d90c011e701da58011f2a1da44011f1a1d604011e3a1d908011e661d8a0011e881d8ec011e6e1d8c8011e4e1d888011e681d3c4011e321d4d4011e401d9dc011ed41da4c011ef41d9e4011ec01da1c011efa1da48011ef21da64011f081da20011efc1da24011f3c1da38011f361da60011f061da68011f1e1da70011f3a1da3c011f381da90011f101da6c011f201da7c011f221da94011f121dac0011f2e1d9d8011f241da9c011f3e1d924011e961d94c011e9e1d458011e7e1d8f0011e7c1d934011ea81d970011f141d964011ee61d9ac011ed81da10011efe1d998011edc1d9b0011eea1d96c011ee81d990011eb81d99c011ede1d9a0011ee01da0c011eda1d8cc011e501d93c011e561bcb40021e11d2b00021df1ca200021dd1e3640021db1ead80021d91eac00021d71d1640021d51f2840021d31f2240021d1)
  (.lf 0)) (.nd (.lf
  0x1b1fc00c04a1b22400c0801b22800c08a1b25400c0a01b30c00c10e1b24400c0a61b37800c1301a74c00c0381b23c00c05e1b21800c0721b2c000c0b61b37400c12c1b33c00c1041b2b400c0d61b21400c0701b37000c12a1b36c00c11a1b1d000c03a1b1cc00c0661abbc00c0881b21000c06e1b1c800c04e1a74400c0681abb000c0321a74000c0401b34c00c0d41b38400c0f41b34000c0c01b31000c0fa1b38000c0f21b38c00c1081b31400c0fc1b31800c13c1b3b400c1361b34400c1061b35400c11e1b36000c13a1b3b800c1381b33000c1101b35800c1201b39800c1221b33400c1121b3a000c12e1b30000c1241b31c00c13e1b24800c0961b25000c09e1a66000c07e1b22000c07c1b25800c0a81b29400c1141b29800c0e61b2c800c0d81b2d000c0fe1b27400c0dc1b27c00c0ea1b29c00c0e81b28000c0b81b27800c0de1b28400c0e01b2cc00c0da1b1e800c0501b1f000c0561b17800f810)
  (.lf 0)))

def aesWireTree3 : BTree :=
  .nd (.nd (.nd (.lf
  0xe2600040e80e2300040b80e2380040de0e23c0040e00e29c0040da0da9c0040500daa00040560ee580048100ee840048120ee5000481c0eea000481a0e9f00048300ecd00048820e8f00048420e9ec00484c0e8740048760e86c0048580ece40048620e8fc00483c0ecd40048780ece000483e0ecc40048440ed000048460eccc0048520ecf000486a0ecc80048900e9f40048340ecf40048840ece80048640ed040048480e87000485a0ecf80048860ecd800487a0ed0c0048920ed1000486c0e9f80048360ed340048540ed200048740ed3000488c0ed540048980ed4c0048600ed6400488e0ed6800489a0ed6c00489c0edd00048a20ed600048aa0ed840048a40ed880048ac0edb80048c20ed8c0048ae0ed900048b00ee0c0049160ed940048b20edd40048b40ede40048d00ee700049000eda40048ec0edf00048ba0edc40048c80ee200048e20edc80048ca0ee140049260edc00048c40edf40048bc)
  (.lf 0)) (.nd (.lf
  0x5b5001629e05a7801627e05b2001627c05b580162a805b9401631405b980162e605bc80162d805bd00162fe05b740162dc05b7c0162ea05b9c0162e805b800162b805b780162de05b840162e005bcc0162da05ae401625005aec016256089bc017a10089c4017a12089c8017a1c089e8017a1a0881c017a3008830017a8208800017a4208834017a4c07ecc017a76087ac017a5808818017a6208804017a3c07ed0017a7808814017a3e08808017a440880c017a460882c017a52087f4017a6a087fc017a9008820017a34087f8017a8408838017a6408840017a48087b0017a5a08844017a8607ed4017a7a0884c017a9208850017a6c08860017a360887c017a5408868017a7408878017a8c08898017a980888c017a60088ac017a8e088b4017a9a088b8017a9c088bc017aa2088a8017aaa088b0017aa4088d4017aac088d8017ac2088dc017aae088f0017ab008904017b16088f4017ab208908017ab4)
  (.lf 0))) (.nd (.nd (.lf
  0x10094007738104ec0077101004400772010080007722105000077121008400772e0fffc007724104f000773e0ff480076960ff5000769e0fee400767e0ff2000767c0ff580076a80ff940077140ff980076e60ffc80076d80ffd00076fe0ff740076dc0ff7c0076ea0ff9c0076e80ff800076b80ff780076de0ff840076e00ffcc0076da0fe900076500fdb8007656102e8007210102f0007212102f400721c1031000721a0f298007230101600072820f2400072420f2a000724c0fe640072760fe70007258101580072620fe6000723c101440072781015400723e101480072441014c0072461015c0072521013800726a101400072900fde80072341013c007284101640072641016c0072480fe7400725a101740072861017c00727a101800072921018400726c0fdec007236101a800725410194007274101a400728c101c4007298101b8007260101d800728e101e000729a101e400729c101e80072a2)
  (.lf 0)) (.nd (.lf
  0x1726400aac21726800aaae1727c00aab01729000ab161728000aab21729400aab41729c00aad0172ac00ab001727800aaec172b000aaba1728800aac8172b400aae2172b800aaca172bc00ab26172c000aac4172c800aabc172cc00aaf8172d400aace172dc00ab32172e000aaf6172f800ab02172fc00ab281730000ab181730400ab0a1731000aabe1732000aad21732800ab1c1733400aaee1733c00aae41739400ab34172d000ab0c1721000aa5c1728400aac6172c400aacc1734000aaf01720c00aa94171f000aa4a171fc00aa801720000aa8a1722c00aaa0172e400ab0e1721c00aaa61735000ab301710400aa381721400aa5e171e800aa721729800aab61734c00ab2c1731400ab041728c00aad6171e400aa701734800ab2a1734400ab1a170b400aa3a171c800aa66171d400aa88171e000aa6e16eb800aa4e170f000aa681719400aa32170ec00aa401732400aad41736800aaf41731800aac0)
  (.lf 0)))

def aesWireTree4 : BTree :=
  .nd (.nd (.nd (.lf
  0x993000087f0997c00087d0997800087b099340008790992c0008770992000087509964000873099740008710875000086f0874400086d08fd000086b0877000086908a78000867087680008650876000086308fac00086108fa800085f08fb000085d0910800085b08f98000859095d400085708fdc00085508fc0000853091140008510961800084f0961400084d0994c00084b0962000084909688000847095e4000845095ec000843099700008410990c00083f0990400083d0991c00083b09914000839099100008370990000083509960000833099180008310873c00082f0874000082d08fcc00082b0876c00082908a70000827087640008250875c00082308f8800082108f9000081f08fa400081d0910400081b08f94000819095c400081708f8c00081508fbc00081309100000811095c800080f095d000080d0994400080b0961c00080909680000807095dc000805095e800080309908000801)
  (.lf
  0x15cdc002975130440029731355c002971130e800296f1308400296d12ff000296b122bc002969125cc0029671316c002965130580029631314c0029611313000295f130c000295d1362400295b135f8002959133bc002957135d400295513060002953131040029511308800294f1253000294d1259000294b125b8002949131a00029471305000294512578002943123ac002941125f800293f12b8000293d122f400293b11cdc0029391235c00293711ec8002935126d40029331262000293112af400292f12b1c00292d123f400292b1240c002929123d0002927126f000292512714002923126340029211274800291f1230000291d123d400291b125dc00291911ec00029171269c00291512418002913123900029111265000290f1273000290d122e000290b11ed00029091237400290711ea80029051268000290312f9c002901134a40028ff12fd80028fd149200028fb148e00028f9134c80028f7))
  (.nd (.lf
  0xa6500030320a56c0030400ac440030d40ac780030f40ac380030c00ac140030fa0ac740030f20ac800031080ac180030fc0ac1c00313c0ac9c0031360ac3c0031060ac4c00311e0ac5800313a0aca00031380aeb00031100ac500031200ac8c0031220aeb40031120ac9000312e0ac080031240aebc00313e0ab540030960ab5c00309e0aaf000307e0ab2c00307c0ab640030a80aba00031140aba40030e60abd40030d80abdc0030fe0ab800030dc0ab880030ea0aba80030e80ab8c0030b80ab840030de0ab900030e00abd80030da0a6640030500a5c000305610b8c00581010b9400581210b9800581c10bd000581a109f80058300d5ac005882109e80058420d58800584c0d45800587610a0c005858109ec0058620d45400583c0d5a00058780d5a800583e109f0005844109f400584610a04005852109bc00586a109c4005890109fc005834109c000588410a1000586410a1800584810a1c00585a)
  (.lf 0))) (.nd (.nd (.lf
  0x1cd64001da31ce28001da11cd6c001d9f1ccdc001d9d1d1e4001d9b1933c001d991ce9c001d971cf2c001d951cde0001d931cd2c001d911cde8001d8f1d1dc001d8d1cd28001d8b1d1e0001d891d1b8001d8719dc8001d851ce54001d831cef0001d8119e78001d7f1cd18001d7d1cddc001d7b19e74001d791cd60001d771abd8001d751a148001d731abec001d711cd10001d6f180ec00da1819e6c001d6d1cdb0001d6b1d264001d691ce58001d671815c001d651ce00001d631be68001d6119b50001d5f1bf4c001d5d19b54001d5b19e1c001d591be54001d5719e20001d551a11c001d531ad38001d511ad3c001d4f1bff4001d4d19e30001d4b1c008001d491c044001d47198f8001d451c300001d431c558001d411bfd4001d3f1c7cc001d3d1bf64001d3b1c790001d391bee4001d371c560001d351bea8001d331befc001d311bffc001d2f1c05c001d2d1a134001d2b1aac8001d291bfc8001d27)
  (.lf 0)) (.nd (.lf
  0x1ea5c01073e1e9300106961e94001069e1e22c01067e1e8e401067c1e9280106a81e9880107141e9980106e61ea000106d81ea6c0106fe1e9ac0106dc1e9e80106ea1e99c0106e81e9c80106b81e9e40106de1e9f00106e01ea040106da1e4040106501e3f40106560a278003c100a280003c120a284003c1c0a2b0003c1a09c44003c3009c80003c8209b50003c4209c4c003c4c0a0fc003c760a104003c5809c7c003c620a0f4003c3c0a100003c780a0f8003c3e09c74003c440a0e8003c4609e58003c5209e48003c6a0a0f0003c9009dc4003c3409dbc003c8409c84003c640a108003c480a114003c5a09dc8003c860a12c003c7a0a134003c9209e60003c6c09dd0003c3609e7c003c540a110003c740a130003c8c0a144003c980a120003c600a150003c8e0a158003c9a0a15c003c9c0a160003ca20a14c003caa0a154003ca40a178003cac0a17c003cc20a180003cae0a194003cb00a1a8003d16)
  (.lf 0)))

def aesWireTree5 : BTree :=
  .nd (.nd (.nd (.lf
  0x9bf0000e5509c94000e5303784000e510a354000e4f0a644000e4d09ad4000e4b0a5a4000e490a2f0000e4703614000e4503dcc000e43034ac001a1803610000e4109dac000e3f034b8000e3d09da8000e3b03dac000e3903dc0000e370aac0000e350a560000e3309adc000e3109d08000e2f09ce4000e2d0a688000e2b0a2ec000e290a58c000e2703608000e250a588000e2303da8000e2109ae0000e1f03640000e1d09d04000e1b09cd0000e1909bb8000e170a5f0000e150a5d0000e1303d84000e1103654000e0f0363c000e0d019a4000e0b03644000e0903648000e0709bc8000e050acb0000e030acac000e0109bcc000dff0a554000dfd03504000dfb03508000df903500000df7034fc000df50a5f4000df30a620000df10a578000def0a57c000ded0a2f4000deb0a6c0000de909bc4000de70a538000de509df0000de309d74000de109b5c000ddf09b2c000ddd0358c000ddb0cd64000dd9)
  (.lf 0)) (.nd (.lf
  0x529801648e052a001649a052a401649c052a80164a2052940164aa0529c0164a4052c00164ac052c40164c2052c80164ae052dc0164b0052f0016516052e00164b2052f40164b4052fc0164d00530c016500052d80164ec053100164ba052e80164c8053140164e2053180164ca0531c016526053200164c4053280164bc0532c0164f8053300164ce053380165320533c0164f60534c01650205350016528053540165180535801650a0535c0164be0536c0164d20537401651c053800164ee053880164e4053d40165340527001645c052e40164c6053240164cc0538c0164f00526c0164940525001644a0525c0164800526001648a0528c0164a005d1401650e0527c0164a60539c0165300452c0164380527401645e05248016472052f80164b60539801652c05360016504052ec0164d6052440164700539401652a0539001651a043b801643a05228016466052340164880524001646e0446801644e)
  (.lf 0))) (.nd (.nd (.lf
  0x37ec01488403850014864038580148480385c01485a038040148860237001487a037f40148920386001486c038700148360388c014854038780148740388801488c038a80148980389c014860038bc01488e038c401489a038c801489c038cc0148a2038b80148aa038c00148a4038e40148ac038e80148c2038ec0148ae039000148b003914014916039040148b2039180148b4039200148d003930014900038fc0148ec039340148ba0390c0148c8039380148e20393c0148ca03940014926039440148c40394c0148bc039500148f8039580148ce03960014932039640148f60397c01490203980014928039840149180398801490a039940148be039a40148d2039ac01491c039b80148ee039c00148e403a580149340389401485c039080148c6039480148cc039c40148f0038900148940387401484a038800148800388401488a038b00148a00396801490e038a00148a6039d4014930037f8014838)
  (.lf 0)) (.nd (.lf
  0x1a1d000ca5e19f1c00ca721a26400cab61a31800cb2c1a2e000cb041a25800cad619f1800ca701a31400cb2a1a31000cb1a1a1a000ca3a19f0400ca6619f0c00ca8819f1400ca6e18dcc00ca4e1910400ca6819edc00ca321910000ca401a2f000cad41a32800caf41a2e400cac01a2b400cafa1a32400caf21a33000cb081a2b800cafc1a2bc00cb3c1a36400cb361a2e800cb061a2f800cb1e1a30400cb3a1a36800cb381a2d400cb101a2fc00cb201a33c00cb221a2d800cb121a34400cb2e1a2a400cb241a2c000cb3e1a1f400ca961a1d800ca9e1911000ca7e19f2400ca7c1a1fc00caa81a23800cb141a23c00cae61a26c00cad81a27400cafe1a21800cadc1a22000caea1a24000cae81a22400cab81a21c00cade1a22800cae01a27000cada19ef000ca5018ddc00ca561aa3800c2101aa4000c2121aa4c00c21c1aa7400c21a1a78400c2301a7ec00c2821a71400c2421a78c00c24c1a89000c276)
  (.lf 0)))

def aesWireTree6 : BTree :=
  .nd (.nd (.nd (.lf
  0x2351c01281a2337801283023338012882233880128422102801284c21120012876233ec012858233900128622111c01283c233480128782334401283e2338c012844233b8012846233ac0128522336401286a23350012890233c8012834233540128842339c012864233bc012848233f001285a233580128862336001287a2336c0128922339401286c233cc012836233b001285423408012874233dc01288c233c4012898234640128602340c01288e2341001289a2346801289c2346c0128a2233e80128aa234140128a4234180128ac234240128c2234340128ae234380128b0234580129162343c0128b2234740128b4234800128d0234e0012900234cc0128ec234a00128ba234440128c8234bc0128e2234480128ca23460012926234300128c4234a40128bc234940128f8234880128ce234d0012932234c00128f6234ec0129022344c0129282345c0129182342801290a234a80128be234840128d2)
  (.lf
  0x1cd9c0035091cd340035071cd3c0035051cf380035031ac440035011ac2c0034ff1afb80034fd1ab080034fb1ab8c0034f91ab140034f71ac740034f51acb40034f31f2940034f11ac140034ef1af5c0034ed1ab300034eb1af7c0034e91aa9c0034e71af880034e51ab3c0034e31aabc0034e11ac380034df1abe00034dd1f2c00034db1aadc0034d91ab980034d71f2a40034d51ac6c0034d31aacc0034d11ad400034cf1abf00034cd1aaf00034cb1ab600034c91aa940034c71aaf40034c51accc0034c315c7000a00e15c3c00a00815c6800a00615c6000a0041739000aa0e1735400aa081738800aa061738000aa041a5fc00b40e1a5c000b4081a5f800b4061a5ec00b404151e000be0e1520000be0c151f800be081520c00be06151ec00be04183e000a80e183a400a808183d800a806183c800a80416a4c00b20e16a2000b20816a4800b20616a4000b20418cb000bc0e18bfc00bc0c18d9400bc0a))
  (.nd (.lf
  0xfbf0006eda0f598006e500f59c006e56122540062101225c0062121226000621c1229000621a10dd800623011a0000628210e3400624210e3800624c120f0006276120f8006258119f8006262120e800623c120f4006278120ec00623e119f0006244120dc006246119fc006252119e800626a120e400629011930006234119ec00628411a04006264120fc0062481210800625a11a0c0062861212000627a1212800629211a1400626c1193c00623611a30006254121040062741212400628c12138006298121140062601214400628e1214c00629a1215000629c121540062a2121400062aa121480062a41216c0062ac121700062c2121740062ae121880062b01219c0063161218c0062b2121a00062b4121a80062d0121b8006300121840062ec121bc0062ba121940062c8121c00062e2121c40062ca121c8006326121cc0062c4121d40062bc121d80062f8121dc0062ce121e4006332121e80062f6)
  (.lf 0))) (.nd (.nd (.lf
  0x1e58c0100ae1e5900100b01e5a80101161e5c80100b21e5d80100b41e60c0100d01e5f40101001e6680100ec1e6000100ba1e5a40100c81e6480100e21e5b80100ca1e5ac0101261e5bc0100c41e6040100bc1e6100100f81e5d40100ce1e6c40101321e6500100f61e5f80101021e5b40101281e5b00101181e5e801010a1e6080100be1e62c0100d21e5ec01011c1e66c0100ee1e64c0100e41ed6c0101341e63401010c1e54001005c1e59c0100c61e5c00100cc1e6700100f01e51c0100941e51001004a1e5980100c21e53c0100801e55401008a1e56c0100a01e65c01010e1e5200100a61e6b00101301e5000100381e54401005e1e5700100721e5fc0100b61e69c01012c1e6140101041e5a00100d61e5640100701e68401012a1e68001011a1e47001003a1e5300100661e54c0100881e55c01006e1e42401004e1e4d40100681e2ac0100321e4d00100401e6300100d41e6940100f41e6240100c0)
  (.lf 0)) (.nd (.lf
  0x1f08000e4601f0a800e48e1f0e800e49a1f0f400e49c1f0f800e4a21f06400e4aa1f0ac00e4a41f0b000e4ac1f0b400e4c21f0b800e4ae1f0bc00e4b01f0d000e5161f0ec00e4b21f11800e4b41f14800e4d01f12c00e5001f16000e4ec1f19000e4ba1f0d400e4c81f13800e4e21f0d800e4ca1f1fc00e5261f0e000e4c41f1b400e4bc1f14c00e4f81f11000e4ce1f16c00e5321f14000e4f61f13400e5021f0dc00e5281f14400e5181f23c00e50a1f19400e4be1f15400e4d21f10000e51c1f16400e4ee1f13c00e4e41f13000e5341f1d000e50c1f04c00e45c1f0c800e4c61f0e400e4cc1f16800e4f01f05800e4941f04800e44a1f07400e4801f07800e48a1f09c00e4a01f1d400e50e1f05c00e4a61f21000e5301efc400e4381f05000e45e1f0a000e4721f11c00e4b61f20000e52c1f19800e5041f0cc00e4d61f09400e4701f17400e52a1f17000e51a1b5a800e43a1f09000e4661f04400e488)
  (.lf 0)))

def aesWireTree7 : BTree :=
  .nd (.nd (.nd (.lf
  0x134d0009838149b800985e1499000987214a2c0098b614c5c00992c14a8400990414a400098d61498c00987014afc00992a14af800991a134a800983a14988009866149040098881495400986e1492800984e148ec00986812fdc009832148e800984014adc0098d414ae40098f414a600098c014ab40098fa14ae00098f214aec00990814ab80098fc14aac00993c14a7800993614a8800990614a8c00991e14a9400993a14a7c00993814ac800991014a9000992014b1800992214acc00991214c6000992e14ad400992414ac400993e1497c009896149d400989e148e400987e1494000987c149ec0098a8149f8009914149fc0098e614a640098d814a6c0098fe149c80098dc149d00098ea14a000098e8149c40098b8149cc0098de149e80098e014a680098da1496c0098501492c009856124f800172f13cbc00172d13e4000172b13cf40017291189800172711ea000172511eb8001723122d8001721)
  (.lf 0)) (.nd (.lf
  0x792c016c5c079a0016cc6079e0016ccc07a5c016cf007928016c940790c016c4a07918016c800791c016c8a07948016ca007a00016d0e07938016ca607a6c016d30071b4016c3807930016c5e07904016c72079b4016cb607a68016d2c07a30016d04079a8016cd607900016c7007a64016d2a07a60016d1a06550016c3a078ec016c66072a8016c88078fc016c6e078bc016c4e071b8016c6807200016c3206524016c4007a40016cd407a88016cf407a34016cc007a04016cfa07a84016cf207a90016d0807a08016cfc07a0c016d3c07b24016d3607a38016d0607a48016d1e07a54016d3a07b28016d3807a24016d1007a4c016d2007a9c016d2207a28016d1207ab8016d2e079f4016d2407a10016d3e0793c016c9607944016c9e071bc016c7e07914016c7c0794c016ca807988016d140798c016ce6079bc016cd8079c4016cfe07968016cdc07970016cea07990016ce807974016cb80796c016cde)
  (.lf 0))) (.nd (.nd (.lf
  0x1e34000b2801e38000b1801e3c000b0a01e40000abe01e50000ad201e58000b1c01e64000aee01e6c000ae401eac000b3401d54000a5c01dc8000ac601e08000acc01e70000af001d50000a9401d34000a4a01d40000a8001d44000a8a01d70000aa00371c000b0e01d60000aa601e80000b3001cc8000a3801d58000a5e01d2c000a7201ddc000ab601e7c000b2c01e44000b0401dd0000ad601d28000a7001e78000b2a01e74000b1a01cb0000a3a01d04000a6601d14000a8801d24000a6e01cac000a4e01ca0000a6801c9c000a3201c98000a4001e54000ad401e88000af401e48000ac001e24000afa01e84000af201e90000b0801e28000afc01e2c000b3c01eb0000b3601e4c000b0601e5c000b1e01e68000b3a01eb4000b3803720000b1001e60000b2001e9c000b2203724000b1201ea0000b2e01e18000b2403734000b3e01d64000a9601d6c000a9e01ce4000a7e01d3c000a7c01d74000aa8)
  (.lf 0)) (.nd (.lf
  0x13b8c0074da13a9000745013a9800745616e8000b01016e8800b01216e8c00b01c16eb000b01a1673400b03016c9000b08216c8000b04216c9400b04c16cd800b07616cec00b05816c8400b06216cd000b03c16cdc00b07816cd400b03e16c8800b04416c8c00b04616ce400b05216cbc00b06a16ccc00b09016c7c00b0341681400b08416c9800b06416cf000b04816cf800b05a16c9c00b08616cfc00b07a16d0000b09216d0400b06c16ca400b03616d2800b05416d1400b07416d2400b08c16d4400b09816d3800b06016d5800b08e16d6000b09a16d6400b09c16d6800b0a216d5400b0aa16d5c00b0a416d8000b0ac16d8400b0c216d8800b0ae16d9c00b0b016db000b11616da000b0b216db400b0b416dbc00b0d016dcc00b10016d9800b0ec16dd000b0ba16da800b0c816dd400b0e216dd800b0ca16ddc00b12616de000b0c416de800b0bc16dec00b0f816df400b0ce16dfc00b13216e0000b0f6)
  (.lf 0)))

def aesWireTree8 : BTree :=
  .nd (.nd (.nd (.lf
  0x64ec00047f0651400047d071a400047b064bc000479072c40004770656c000475065400004730715800047107b3c00046f07b8000046d07aa800046b07ac800046907a7800046707c4c00046507bd800046307b0c00046105f8400045f05f9800045d0661c00045b05f60000459065d000045705fc000045505fac000453066780004510688000044f0689400044d06b8c00044b0685c00044906b5c000447068c4000445068a800044306ba4000441064e800043f0651000043d0719c00043b064b8000439072c0000437065600004350653c0004330714c00043107b3400042f07b7800042d07aa400042b07ac000042907a7400042707c4400042507bd000042307b0800042105f8000041f05f9400041d0661800041b05f5c000419065cc00041705fbc00041505fa8000413066700004110687c00040f0689000040d06b8800040b0685800040906b58000407068bc000405068a400040306ba0000401)
  (.lf
  0x164002575001600025730015c0025710015800256f0015400256d0015000256b0014c0025690014800256700144002565001400025630013c0025610013800255f0013400255d0013000255b0012c0025590012800255700124002555001200025530011c0025510011800254f0011400254d0011000254b0010c002549001080025470010400254500100002543000fc002541000f800253f000f400253d000f000253b000ec002539000e8002537000e4002535000e0002533000dc002531000d800252f000d400252d000d000252b000cc002529000c8002527000c4002525000c0002523000bc002521000b800251f000b400251d000b000251b000ac002519000a8002517000a4002515000a00025130009c0025110009800250f0009400250d0009000250b0008c0025090008800250700084002505000800025030007c002501000780024ff000740024fd000700024fb0006c0024f9000680024f7))
  (.nd (.lf
  0x83880186c4083900186bc083940186f8083980186ce083a0018732083a40186f6083b4018702083b8018728083bc018718083c001870a083c40186be083d40186d2083dc01871c083e80186ee083f00186e40842c018734082c801865c0834c0186c60838c0186cc083f40186f0082e8018694082bc01864a082840186800828801868a082d80186a0084b401870e082ec0186a60840401873008250018638082cc01865e0827c018672083600186b60840001872c083c8018704083540186d608278018670083fc01872a083f801871a0829c01863a082640186660826c0186880827401866e0821801864e08240018668082040186320823c018640083d80186d40840c0186f4083cc0186c0083a80186fa084080186f208414018708083ac0186fc083b001873c08430018736083d0018706083e001871e083ec01873a08434018738084dc018710083e401872008420018722084e00187120842401872e)
  (.lf 0))) (.nd (.nd (.lf
  0x16c64001ac7186c8001ac51894400ba1818a18001ac3189c4001ac11893c001abf19900001abd198fc001abb186e4001ab918430001ab7183d0001ab518d68001ab318420001ab11843c001aaf18db4001aad18440001aab175fc001aa917154001aa717600001aa518c0c001aa318450001aa118c20001a9f19124001a9d18448001a9b18cbc001a9919e90001a9718ee8001a9519e94001a9318e14001a9119e84001a8f18d88001a8d19e8c001a8b18d0c001a8918c80001a8718d9c001a8518c14001a8317644001a811715c001a7f18ef0001a7d18d74001a7b18cfc001a7918d78001a7718c90001a7518dd0001a7318c04001a7118dc0001a6f18c08001a6d18ebc001a6b19e88001a6918ee4001a6718e00001a65183fc001a6318e04001a6117654001a5f18e24001a5d18d08001a5b183f8001a5918d38001a5718c70001a5518400001a5318c74001a5118de0001a4f18c10001a4d18e58001a4b)
  (.lf 0)) (.nd (.lf
  0x1e7ac0104c61e88c0104cc1e8380104f01e71c0104941e71001044a1e48c0104801e4a001048a1e7400104a01e85c01050e1e7840104a61e8ac0105301e3b00104381e73401045e1e4900104721e7dc0104b61e84401052c1e81c0105041e7b00104d61e4840104701e84001052a1e83c01051a1e6f801043a1e4540104661e49c0104881e48001046e1e3a801044e1e38c0104681e43c0104321e3880104401e7f00104d41e8d00104f41e8040104c01e9080104fa1e8c80104f21e8cc0105081e90c0104fc1e88401053c1e8700105361e8200105061e82401051e1e8a001053a1e8740105381e8600105101e8900105201e8940105221e8640105121e84801052e1e7e80105241e86c01053e1e7200104961e73c01049e1e38401047e1e48801047c1e7880104a81e7940105141e8000104e61e7d00104d81e7d80104fe1e76c0104dc1e7740104ea1e8080104e81e7780104b81e7700104de1e77c0104e0)
  (.lf 0)))

def aesWireTree9 : BTree :=
  .nd (.nd (.nd (.lf
  0x15a0000250015a800025601520000410015280004120152c00041c0154800041a013680004300138c0004820134c0004420139000044c0137000047601388000458013640004620135000043c013740004780136000043e0135400044401358000446013800004520133800046a013480004900136c0004340133c000484013940004640139c000448013a000045a013a4000486013ac00047a013b0000492013b400046c013c4000436013e0000454013cc000474013dc00048c013fc000498013f00004600141000048e0141800049a0141c00049c014200004a20140c0004aa014140004a4014380004ac0143c0004c2014400004ae014540004b001468000516014580004b20146c0004b4014740004d001484000500014500004ec014880004ba014600004c80148c0004e2014900004ca01494000526014980004c4014a00004bc014a40004f8014a80004ce014b0000532014b40004f6014c4000502)
  (.lf 0)) (.nd (.lf
  0x24c80010fe0246c0010dc024740010ea024940010e8024780010b8024700010de0247c0010e0024c40010da023c4001050023cc0010560cf4c0038100cf540038120cf5800381c0cf8800381a0cd7c00383009e980038820cd7400384209e0c00384c0a0d40038760cd8c0038580cd780038620a0cc00383c0a0d80038780a0d000383e0cdbc0038440cdc00038460cdc80038520cdb000386a0cdb80038900cd800038340cdb40038840cdcc0038640cdd40038480cd9000385a0cddc0038860a0dc00387a0cde40038920cde800386c0cd940038360ce0c0038540cdf80038740ce0800388c0ce280038980ce1c0038600ce3c00388e0ce4400389a0ce4800389c0ce4c0038a20ce380038aa0ce400038a40ce640038ac0ce680038c20ce6c0038ae0ce800038b00ce940039160ce840038b20ce980038b40cea00038d00ceb00039000ce7c0038ec0ceb40038ba0ce8c0038c80ceb80038e20cebc0038ca)
  (.lf 0))) (.nd (.nd (.lf
  0x570c01611e0571801613a0576c016138056e80161100571001612005750016122056ec0161120575801612e056b8016124056d401613e056000160960560801609e0553801607e055d801607c056100160a80564c016114056500160e6056800160d8056880160fe0562c0160dc056340160ea056540160e8056380160b8056300160de0563c0160e0056840160da0559c016050055a401605607878018410078800184120788401841c078a801841a076cc01843007230018482076bc0184420729001844c070e4018476076e0018458076c00184620722c01843c070e80184780728c01843e076c4018444076c8018446076d80184520725801846a07260018490076d00184340725c018484076e4018464076ec018448076f001845a07294018486070ec01847a0729c018492076f401846c07704018436077200184540770c0184740771c01848c0773c018498077300184600775001848e0775801849a)
  (.lf 0)) (.nd (.lf
  0x1c62000eaa21c60c00eaaa1c61400eaa41c63800eaac1c63c00eac21c64000eaae1c65400eab01c66800eb161c65800eab21c66c00eab41c67400ead01c68400eb001c65000eaec1c68800eaba1c66000eac81c68c00eae21c69000eaca1c69400eb261c69800eac41c6a000eabc1c6a400eaf81c6ac00eace1c6b400eb321c6b800eaf61c6d000eb021c6d400eb281c6d800eb181c6dc00eb0a1c6e800eabe1c6f800ead21c70000eb1c1c70c00eaee1c71400eae41c76400eb341c6a800eb0c1c5e800ea5c1c65c00eac61c69c00eacc1c71800eaf01c5e400ea941c5c800ea4a1c5d400ea801c5d800ea8a1c60400eaa01c6bc00eb0e1c5f400eaa61c72800eb301bf8400ea381c5ec00ea5e1c5c000ea721c67000eab61c72400eb2c1c6ec00eb041c66400ead61c5bc00ea701c72000eb2a1c71c00eb1a1c07c00ea3a1c5a000ea661c5ac00ea881c5b800ea6e1c07800ea4e1bf8000ea681c56c00ea32)
  (.lf 0)))

def aesWireTree10 : BTree :=
  .nd (.nd (.nd (.lf
  0x223840130882246001306e2242801304e20dd00130682234001303220dcc013040225e00130d4226240130f4225700130c0225840130fa225e40130f2225e8013108225880130fc2254401313c225b8013136225b0013106225b401311e2261801313a225bc013138226000131102261401312022634013122226040131122260c01312e2259c0131242259001313e2248c013096224a001309e20dd401307e2246401307c224e80130a8224f4013114224f80130e6225300130d8225380130fe224d40130dc224e00130ea224fc0130e8224d00130b8224d80130de224dc0130e0225340130da2242c0130502244c01305623100013210230d40132122313001321c230f801321a2237801323022f2801328222f2c01324222f4801324c21f48013276223c001325822f4001326222f6401323c21f4c01327822f6801323e22f7401324422fa401324622f6c0132522241401326a2241801329022f3c013234)
  (.lf
  0x13f940032bf13ed00032bd13d6c0032bb13c600032b913d140032b713dac0032b513e300032b313f9c0032b113f880032af13e9c0032ad13d640032ab13cf80032a913d9c0032a713e440032a513e240032a313f640032a113eac00329f13d4400329d13ce800329b13cc800329913d9000329713e1c00329513d7c00329313cd800329113f2000328f13e8800328d13d5000328b13c5000328913d2800328713dc000328513e34003283125a4003281130e000327f130b000327d15cf000327b15ce40032791258000327715cd80032751304000327313558003271130d800326f1308000326d1254400326b120bc003269125c80032671316800326513034003263131480032611312c00325f130bc00325d1362000325b135f4003259133b8003257135d00032551305c003253131000032511307c00324f1252c00324d1258c00324b125b40032491319c0032471304c003245125740032431233c003241))
  (.nd (.lf
  0x5150015d1a03d5c015c3a04fe8015c6604ff4015c8805000015c6e04458015c4e04500015c6804fb4015c3203d58015c4005130015cd405164015cf405124015cc005100015cfa05160015cf20516c015d0805104015cfc05108015d3c05198015d3605128015d0605138015d1e05144015d3a0519c015d3805a48015d100513c015d2005178015d2205a4c015d120517c015d2e050f4015d2405a7c015d3e05040015c9605048015c9e04518015c7e05018015c7c05050015ca80508c015d1405090015ce6050c0015cd8050c8015cfe0506c015cdc05074015cea05094015ce805078015cb805070015cde0507c015ce0050c4015cda04fd4015c500445c015c560683c016810068440168120684801681c0687401681a0663c016830066b001688206690016842066b401684c05d04016876065f0016858066940168620669801683c05d080168780669c01683e066a0016844066a4016846066ac016852)
  (.lf 0))) (.nd (.nd (.lf
  0x20b74010ee820b88010eb820b60010ede20b8c010ee020bd4010eda20550010e501fea4010e56202a4011010202ac01101221e1001101c2027c01101a1f7480110301f8900110821f88c0110421f8a001104c1f9ec0110761f9e00110581f8980110621f9d801103c201600110781f9f001103e1f89c0110441f8a40110461f9e80110521f9f801106a1f9d40110901f9280110341f8180110841f8a80110641f9f40110481fa1401105a1f8940110862016401107a1fa0c0110921f9fc01106c1f92c0110361fa740110541faec0110742016c01108c1fa840110981fae80110602017001108e2017801109a2017c01109c201800110a22018c0110aa201740110a4201a40110ac201b00110c2201b40110ae201cc0110b020210011116201d00110b2201d40110b4201e80110d02024c011100201b80110ec201dc0110ba202040110c8202240110e2202080110ca202140111262026c0110c4201e00110bc)
  (.lf 0)) (.nd (.lf
  0x15d8800887c15dc00088a815dfc00891415e000088e615e300088d815e380088fe15ddc0088dc15de40088ea15e040088e815de80088b815de00088de15dec0088e015e340088da15d3800885015d40008856144040080101440c0080121441000801c1444c00801a13d7800803013df400808213d7400804213d1c00804c142500080761426400805813df00080621424800803c142540080781424c00803e13de800804413e740080461425c0080521423400806a1424400809013ef800803413ef000808413df8008064142680080481427000805a13efc0080861427400807a142780080921427c00806c13f04008036142a00080541428c0080741429c00808c142bc008098142b0008060142d000808e142d800809a142dc00809c142e00080a2142cc0080aa142d40080a4142f80080ac142fc0080c2143000080ae143140080b014328008116143180080b21432c0080b4143340080d014344008100)
  (.lf 0)))

def aesWireTree11 : BTree :=
  .nd (.nd (.nd (.lf
  0x104b800713c103e00071361043c0071061044000711e1044800713a103e80071381047c0071101044400712010450007122104800071121041c00712e1048c0071241047000713e101140070961034400709e0f2b400707e100fc00707c1010c0070a8103ec007114103880070e6103c00070d8103c80070fe103640070dc1036c0070ea1038c0070e8103600070b8103680070de103700070e0103c40070da0fe240070500fe280070560f43c00148510e3c0014830f1b000148110cd400147f0f0b800147d1077000147b0f0d000147910d1c0014770fd600014750f26c0014730f25c00147111cd400146f10db400146d0e47800146b0e3e40014690e3d40014670f8680014650f2c40014630f1600014610f65000145f0ee6800145d0f10800145b10c340014590f4a80014570f47c00145510e6800145310cf400145110e4800144f0f0b400144d0f40c00144b10e6c00144910fd00014470e49c001445)
  (.lf 0)) (.nd (.lf
  0x6c1401766c06c2401763606c4001765406c2c01767406c3c01768c06c5c01769806c5001766006c7001768e06c7801769a06c7c01769c06c800176a206c6c0176aa06c740176a406c980176ac06c9c0176c206ca00176ae06cb40176b006cc801771606cb80176b206ccc0176b406cd40176d006ce401770006cb00176ec06ce80176ba06cc00176c806cec0176e206cf00176ca06cf401772606cf80176c406d000176bc06d040176f806d080176ce06d1001773206d140176f606d2401770206d2801772806d2c01771806d3001770a06d340176be06d440176d206d4c01771c06d580176ee06d600176e406dac01773406c4801765c06cbc0176c606cfc0176cc06d640176f006c4401769406c2801764a06c3401768006c3801768a06c640176a00711401770e06c540176a606d7401773006bd401763806c4c01765e06c2001767206cd00176b606d7001772c06d3801770406cc40176d606c1c017670)
  (.lf 0))) (.nd (.nd (.lf
  0xeae0004e900e974004e340eadc004e840eb04004e640eb0c004e480eab0004e5a0eb14004e860eb1c004e7a0eb20004e920eb24004e6c0e980004e360eb48004e540eb34004e740eb44004e8c0eb64004e980eb58004e600eb78004e8e0eb80004e9a0eb84004e9c0eb88004ea20eb74004eaa0eb7c004ea40eba0004eac0eba4004ec20eba8004eae0ebbc004eb00ebd0004f160ebc0004eb20ebd4004eb40ebdc004ed00ebec004f000ebb8004eec0ebf0004eba0ebc8004ec80ebf4004ee20ebf8004eca0ebfc004f260ec00004ec40ec08004ebc0ec0c004ef80ec10004ece0ec18004f320ec1c004ef60ec2c004f020ec30004f280ec34004f180ec38004f0a0ec3c004ebe0ec4c004ed20ec54004f1c0ec60004eee0ec68004ee40eca8004f340eb50004e5c0ebc4004ec60ec04004ecc0ec6c004ef00eb4c004e940eb10004e4a0eb3c004e800eb40004e8a0eb6c004ea00f204004f0e0eb5c004ea6)
  (.lf 0)) (.nd (.lf
  0x1f44c00fb041f3c400fad61f31c00fa701f48000fb2a1f47c00fb1a1ac2000fa3a1f30000fa661f30c00fa881f31800fa6e1ac1c00fa4e1afa400fa681f2cc00fa321afa000fa401f45c00fad41f49800faf41f45000fac01f42000fafa1f49400faf21f4a000fb081f42400fafc1f42800fb3c1f4e400fb361f45400fb061f46400fb1e1f47000fb3a1f4e800fb381f44000fb101f46800fb201f4ac00fb221f44400fb121f4b400fb2e1f41000fb241f42c00fb3e1f35800fa961f36000fa9e1afb400fa7e1f33000fa7c1f36800faa81f3a400fb141f3a800fae61f3d800fad81f3e000fafe1f38400fadc1f38c00faea1f3ac00fae81f39000fab81f38800fade1f39400fae01f3dc00fada1f2ec00fa501af6800fa561896400ba101896c00ba121897000ba1c18a5400ba1a14ddc00ba301879c00ba821877c00ba42187a000ba4c14e9000ba7614e9c00ba581878000ba621878400ba3c14e9400ba78)
  (.lf 0)))

def aesWireTree12 : BTree :=
  .nd (.nd (.nd (.lf
  0x963c000c7f09958000c7d09694000c7b09608000c7909634000c7709950000c750968c000c7309600000c7109610000c6f09948000c6d09684000c6b095e0000c69095cc000c6709940000c650967c000c63095d8000c6109368000c5f09350000c5d09394000c5b09660000c5909360000c5709348000c550938c000c5309658000c5109358000c4f09340000c4d09374000c4b09650000c4909334000c470932c000c450936c000c430964c000c41081e8000c3f081dc000c3d081d8000c3b081ac000c3906b0c000c3706b08000c3506b00000c3306af8000c31068cc000c2f068c8000c2d068c0000c2b068b8000c29060f4000c27060ec000c25060e4000c23060d4000c2105954000c1f05950000c1d0594c000c1b05948000c1904110000c1704108000c15040fc000c13040f8000c1103a98000c0f03a90000c0d03a88000c0b03a80000c0901c54000c0701c4c000c0501c44000c0301c3c000c01)
  (.lf
  0x1fcf4002d751fddc002d7320594002d711ff64002d6f1fec8002d6d1fcbc002d6b1fd34002d692051c002d671fde4002d651fdf8002d631fd94002d611ff2c002d5f1fc58002d5d20810002d5b20840002d591fce4002d5720614002d551fc80002d531fc84002d511fda8002d4f1fe94002d4d1fc98002d4b1fc30002d491fe0c002d471fd08002d451fdd0002d431f888002d411f9c4002d3f1f814002d3d1f644002d3b1f5cc002d391f744002d371f7b4002d351f790002d331fa1c002d311f824002d2f1f638002d2d1f664002d2b1f56c002d291f714002d271f7dc002d251f538002d231f578002d211f8b0002d1f1f854002d1d1f5ec002d1b1f650002d191f5ac002d171f768002d151f7c8002d131f52c002d111f954002d0f1f800002d0d1f548002d0b1f55c002d091f5a0002d071f728002d051f7d4002d031de38002d011d3d8002cff1d51c002cfd1d18c002cfb1d63c002cf91d2e0002cf7))
  (.nd (.lf
  0x119b000643011af800648210e5c006442119bc00644c11ae800647611af400645811ae400646211ad000643c11aec00647811ae000643e11ad400644411ad800644611af000645211ac000646a11acc006490119b400643411ac400648411afc00646411b0400644811b0c00645a11b1000648611b1800647a11b1c00649211b2000646c119c000643611b4400645411b3000647411b4000648c11b6000649811b5400646011b7400648e11b7c00649a11b8000649c11b840064a211b700064aa11b780064a411b9c0064ac11ba00064c211ba40064ae11bb80064b011bcc00651611bbc0064b211bd00064b411bd80064d011be800650011bb40064ec11bec0064ba11bc40064c811bf00064e211bf40064ca11bf800652611bfc0064c411c040064bc11c080064f811c0c0064ce11c1400653211c180064f611c2800650211c2c00652811c3000651811c3400650a11c380064be11c480064d211c5000651c)
  (.lf 0))) (.nd (.nd (.lf
  0x1ba4c00e3081bc8400e2fc1bc8800e33c1ba5400e3361b9e400e3061ba6400e31e1ba7000e33a1ba5800e3381bc9800e3101ba6800e3201ba6c00e3221bc9c00e3121ba3400e32e1b9ac00e3241bc9400e33e1b92000e2961b93c00e29e1b44c00e27e1b64000e27c1b93400e2a81b95400e3141b94c00e2e61b98800e2d81b9d000e2fe1b97c00e2dc1ba0c00e2ea1b95000e2e81b97800e2b81b9bc00e2de1b9c000e2e01b9cc00e2da1b5d800e2501b5cc00e2561c4fc00e8101c50400e8121c52800e81c1c4c400e81a1c28800e8301c2e800e8821c2ec00e8421c2e400e84c1c3a000e8761c35000e8581c31800e8621c36000e83c1c3a400e8781c37400e83e1c2f800e8441c2fc00e8461c38400e8521c0a000e86a1c33000e8901c36400e8341c34400e8841c31c00e8641c37800e8481c35400e85a1c34800e8861c3a800e87a1c38c00e8921c2f000e86c1c36800e8361c38800e8541c3cc00e874)
  (.lf 0)) (.nd (.lf
  0x1deb40118541dea80118741de9001188c1dec00118981ded80118601deac01188e1dec401189a1deec01189c1def00118a21dee80118aa1dee40118a41df080118ac1df140118c21df200118ae1df280118b01df3c0119161df340118b21df440118b41df4c0118d01df5c0119001df180118ec1df600118ba1df300118c81df640118e21df740118ca1df800119261df840118c41df8c0118bc1dfbc0118f81dfdc0118ce1df240119321df6c0118f61dffc0119021df780119281df400119181e01401190a1df7c0118be1dfb80118d21e02001191c1df940118ee1df680118e41e0380119341dfc801190c1ded001185c1df2c0118c61df880118cc1df980118f01deb80118941de9401184a1de880118801de8c01188a1dee00118a01dfd001190e1dec80118a61dfa80119301d4100118381ded401185e1dea40118721df480118b61dfa401192c1e0000119041df380118d61dea00118701dfa001192a)
  (.lf 0)))

def aesWireTree13 : BTree :=
  .nd (.nd (.nd (.lf
  0xa2c8003a180aecc0010110b95000100f0bb1400100d0b99400100b0afb40010090b8880010070ea300010050e7840010030cd100010010e964000fff0e844000ffd0cc6c000ffb0e848000ff90d42c000ff70cf94000ff50d430000ff30ccfc000ff10e8b0000fef0e8b4000fed0cd04000feb0e888000fe90ea2c000fe70cd58000fe50e920000fe30e924000fe10e770000fdf0cd54000fdd0e6e8000fdb0cd5c000fd90e724000fd70e82c000fd50e8d4000fd30e7c8000fd10cf5c000fcf10784000fcd0ccf0000fcb0cc88000fc90afa0000fc70e760000fc50af20000fc30e81c000fc10e88c000fbf0af90000fbd0e890000fbb0af98000fb90e7b8000fb70e7dc000fb50eab4000fb30e7ec000fb10eab8000faf0d5d0000fad0e91c000fab0ca5c000fa90e7f4000fa70e76c000fa50cc68000fa30e7f0000fa10e6ec000f9f0e730000f9d0e854000f9b0e8cc000f990d35c000f970cd24000f95)
  (.lf 0)) (.nd (.lf
  0xa94800328a0a9740032a00af2400330e0a9640032a60aa840033300a8f80032380a95c00325e0a9380032720a9e00032b60aa8000332c0aa480033040a9d40032d60a9340032700aa7c00332a0aa7800331a0a69800323a0a9100032660a9200032880a93000326e0a69400324e0a8dc0032680a5980032320a8d80032400aa580032d40aa8c0032f40aa4c0032c00aa280032fa0aa880032f20aa940033080aa2c0032fc0aa3000333c0aab40033360aa500033060aa6000331e0aa6c00333a0aab80033380af280033100aa640033200aaa00033220af2c0033120aaa400332e0aa1c0033240af3800333e0a9680032960a97000329e09af000327e0a94000327c0a9780032a80a9b40033140a9b80032e60a9e80032d80a9f00032fe0a9940032dc0a99c0032ea0a9bc0032e80a9a00032b80a9980032de0a9a40032e00a9ec0032da0a6a40032500a6a80032560ca3c0026100ca440026120ca4800261c)
  (.lf 0))) (.nd (.nd (.lf
  0x16528009aee16554009ae416580009b3416488009a5c1652c009ac616630009acc16570009af01646c009a9416460009a4a1642c009a801643c009a8a164b0009aa016544009b0e1647c009aa6165c4009b301352c009a381648c009a5e16450009a72164d4009ab6165b8009b2c164ec009b0c16590009b0416530009ad61644c009a70165b0009b2a16578009b1a13424009a3a16448009a6616438009a8816414009a6e12fec009a4e13534009a68163f4009a3213530009a401651c009ad41667c009af41650c009ac01654c009afa16574009af216598009b0816550009afc16564009b3c16584009b3616594009b06165a0009b1e16638009b3a16588009b3816548009b1016634009b2016640009b2216558009b12165bc009b2e164f4009b2416568009b3e16470009a96164ac009a9e124a0009a7e16428009a7c16480009aa8164c0009b14164f8009ae6164e0009ad81656c009afe1649c009adc)
  (.lf 0)) (.nd (.lf
  0x1800800dae817fec00dab817fe400dade17ff000dae01803800dada1779c00da50177a000da561969800d610196a000d612196a400d61c196c800d61a18a6400d6301936800d68218a6000d64218a0800d64c194f000d6761950400d6581936400d662194e800d63c194f400d678194ec00d63e1935c00d6441940800d646194fc00d652194d400d66a194e400d6901945800d6341945000d6841936c00d6641950800d6481951000d65a1945c00d6861951400d67a1951800d6921951c00d66c1946400d6361954000d6541952c00d6741953c00d68c1955c00d6981955000d6601957000d68e1957800d69a1957c00d69c1958000d6a21956c00d6aa1957400d6a41959800d6ac1959c00d6c2195a000d6ae195b400d6b0195c800d716195b800d6b2195cc00d6b4195d400d6d0195e400d700195b000d6ec195e800d6ba195c000d6c8195ec00d6e2195f000d6ca195f400d726195f800d6c41960000d6bc)
  (.lf 0)))

def aesWireTree14 : BTree :=
  .nd (.nd (.nd (.lf
  0x578001900005440018ec0057c0018ba005540018c8005800018e2005840018ca005880019260058c0018c4005940018bc005980018f80059c0018ce005a4001932005a80018f6005b8001902005bc001928005c0001918005c400190a005c80018be005d80018d2005e000191c005ec0018ee005f40018e400630001934004dc00185c005500018c6005900018cc005f80018f0004d8001894004bc00184a004c8001880004cc00188a004f80018a0034bc00190e004e80018a60060800193000450001838004e000185e004b4001872005640018b60060400192c005cc001904005580018d6004b00018700060000192a005fc00191a0043800183a0048c0018660049c001888004ac00186e0043400184e004280018680042400183200420001840005dc0018d4006100018f4005d00018c0005ac0018fa0060c0018f200618001908005b00018fc005b400193c00634001936005d4001906005e400191e)
  (.lf
  0x1dfcc0118081dff40118061e0340118041ecf001020e1ed000102081ecdc0102061ed3c0102041ed2001020220a44010c0e20a00010c0c215ec010c0a20a84010c08209a8010c06216dc010c042050001160e204d4011608204b8011606204a8011604228580037c1227f00037bf229340037bd227500037bb227840037b922b180037b7228e00037b5227c00037b3228680037b122ad00037af229580037ad2283c0037ab22bc00037a922a5c0037a7228c40037a5228800037a3228040037a12296400379f2279000379d235b800379b235a4003799228cc003797235c40037952287000379322844003791227d000378f2294800378d2276800378b22774003789229c4003787228fc003785227b400378320f300037812104800377f20fe000377d2337000377b2332000377920f880037772332c0037752109c00377320f1c00377120f7400376f20fe800376d2137400376b2103000376920e78003767))
  (.nd (.lf
  0xc18c0052c20c1900052ae0c1a40052b00c1b80053160c1a80052b20c1bc0052b40c1c40052d00c1d40053000c1a00052ec0c1d80052ba0c1b00052c80c1dc0052e20c1e00052ca0c1e40053260c1e80052c40c1f00052bc0c1f40052f80c1f80052ce0c2000053320c2040052f60c2140053020c2180053280c21c0053180c22000530a0c2240052be0c2340052d20c23c00531c0c2480052ee0c2500052e40c28c0053340c13800525c0c1ac0052c60c1ec0052cc0c2540052f00c1340052940c11800524a0c1240052800c12800528a0c1540052a00c2c400530e0c1440052a60c2640053300ba500052380c13c00525e0bb080052720c1c00052b60c26000532c0c2280053040c1b40052d60bb040052700c25c00532a0c25800531a0baf400523a0baf00052660c1080052880bb0000526e0baec00524e0ba440052680c0d40052320ba400052400c2380052d40c26c0052f40c22c0052c00c2080052fa)
  (.lf 0))) (.nd (.nd (.lf
  0x3b2c01565203ad401566a03ae401569003b1401563403b0c01568403abc01566403b3801564803b3c01565a03b4001568603b4801567a03b4c01569203ae801566c03b5001563603b6c01565403b5801567403b6801568c03b8801569803b7c01566003b9c01568e03ba401569a03ba801569c03bac0156a203b980156aa03ba00156a403bc40156ac03bc80156c203bcc0156ae03be00156b003bf401571603be40156b203bf80156b403c000156d003c1001570003bdc0156ec03c140156ba03bec0156c803c180156e203c1c0156ca03c2001572603c240156c403c2c0156bc03c300156f803c380156ce03c4001573203c440156f603c5c01570203c6001572803c6401571803c6801570a03c740156be03c840156d203c8c01571c03c980156ee03ca00156e403cf001573403b7401565c03be80156c603c280156cc03ca40156f003b7001569403b5401564a03b6001568003b6401568a03b900156a0)
  (.lf 0)) (.nd (.lf
  0x1a08c00cd0e19fc400cca61a0f800cd3019f5800cc3819fbc00cc5e19f9800cc721a04000ccb61a0f400cd2c1a0bc00cd041a03400ccd619f9400cc701a0f000cd2a1a0ec00cd1a18da800cc3a19f7000cc6619f8000cc8819f9000cc6e19eb000cc4e19f3c00cc6818c8c00cc3219f3800cc401a0cc00ccd41a10800ccf41a0c000ccc01a09000ccfa1a10400ccf21a11000cd081a09400ccfc1a09800cd3c1a13c00cd361a0c400cd061a0d400cd1e1a0e000cd3a1a14000cd381a0b000cd101a0d800cd201a12000cd221a0b400cd121a12800cd2e1a08000cd241a09c00cd3e19fc800cc9619fd000cc9e19ea400cc7e19fa000cc7c19fd800cca81a01400cd141a01800cce61a04800ccd81a05000ccfe19ff400ccdc19ffc00ccea1a01c00cce81a00000ccb819ff800ccde1a00400cce01a04c00ccda19ec000cc5019ec400cc561cc9c00c4101cca400c4121cca800c41c1ccd400c41a1caa000c430)
  (.lf 0)))

def aesWireTree15 : BTree :=
  .nd (.nd (.nd (.lf
  0x147140084ea146940084e8147240084b8147100084de147900084e0147940084da1447000845013f0800845614624008610146340086121460400861c145e400861a13d5800863013dcc00868213d5c00864213d3000864c13f3000867613f8000865813dd000866213f2c00863c13f3400867813f3c00863e13e0000864413e5800864613f7400865213f4400866a141fc00869013ee800863413e9000868413e0400866413f4000864813f8400865a13e9400868613f3800867a1420000869213f4800866c13eec00863613f78008654144fc00867413f5c00868c14224008698144580086601450000868e1450400869a1450800869c145740086a2142300086aa145200086a4145240086ac145400086c21454c0086ae145500086b01455c008716145840086b2145880086b4146080086d0145ac008700145340086ec145c00086ba145680086c8145980086e2145700086ca14560008726145480086c4)
  (.lf 0)) (.nd (.lf
  0x16fec00af241700800af3e16f3c00ae9616f2000ae9e162c800ae7e1635000ae7c16f4400aea816f8000af1416f8400aee616fb400aed816fbc00aefe16f6000aedc16f6800aeea16f8800aee816f6c00aeb816f6400aede16f7000aee016fb800aeda1632800ae501633000ae5617ebc00de1017ec400de1217ec800de1c17eec00de1a1780000de3017d1c00de82177fc00de421775800de4c1783800de761783c00de5817d1400de621783400de3c17d0000de7817d1000de3e17d0400de4417d0800de4617d1800de5217cf400de6a17cfc00de901780400de3417cf800de8417d2000de6417d2800de481784000de5a17d3000de8617d3800de7a17d3c00de9217d4000de6c1781000de3617d6400de5417d5000de7417d6000de8c17d8000de9817d7400de6017d9400de8e17d9c00de9a17da000de9c17da400dea217d9000deaa17d9800dea417dbc00deac17dc000dec217dc400deae17dd800deb0)
  (.lf 0))) (.nd (.nd (.lf
  0x4c98015b0804c30015afc04c34015b3c04cb4015b3604c54015b0604c64015b1e04c70015b3a04cb8015b3805480015b1004c68015b2004ca4015b2205484015b1204ca8015b2e04c20015b2405478015b3e04b6c015a9604b74015a9e04aec015a7e04b44015a7c04b7c015aa804bb8015b1404bbc015ae604bec015ad804bf4015afe04b98015adc04ba0015aea04bc0015ae804ba4015ab804b9c015ade04ba8015ae004bf0015ada04af0015a5004af8015a5607df801721007e0001721207e0401721c07e2401721a07ab401723007ba401728207b1801724207b1c01724c07c6c01727607c8001725807ba001726207c6401723c07c7001727807c6801723e07b9401724407b9801724607c7801725207be801726a07bf801729007c6001723407c5801728407ba801726407c8401724807c8801725a07c8c01728607c9401727a07c9801729207bfc01726c07c9c01723607cb801725407ca4017274)
  (.lf 0)) (.nd (.lf
  0x3360001cc203364001cae03378001cb00338c001d160337c001cb203390001cb403398001cd0033a8001d0003374001cec033ac001cba03384001cc8033b0001ce2033b4001cca033b8001d26033bc001cc4033c4001cbc033c8001cf8033cc001cce033d4001d32033d8001cf6033e8001d02033ec001d28033f0001d18033f4001d0a033f8001cbe03408001cd203410001d1c0341c001cee03424001ce403470001d340330c001c5c03380001cc6033c0001ccc03428001cf003308001c94032ec001c4a032f8001c80032fc001c8a03328001ca009a50001d0e03318001ca603438001d3003280001c3803310001c5e032e4001c7203394001cb603434001d2c033fc001d0403388001cd6032e0001c7003430001d2a0342c001d1a03268001c3a032bc001c66032cc001c88032dc001c6e03264001c4e03258001c6803254001c3203250001c400340c001cd403440001cf403400001cc0033dc001cfa)
  (.lf 0)))

def aesWireTree16 : BTree :=
  .nd (.nd (.nd (.lf
  0x2a1800027f02a4400027d0449c00027b029ec0002790442000027702a9c00027502a7000027304554000271049f000026f04a0c00026d0498000026b049a80002690494000026704a5400026504a34000263049c400026102fc800025f02fdc00025d03e2400025b02fa400025903e740002570300c00025502ff400025303e0c00025103a7000024f03a8c00024d03a1000024b03a2c000249039e000024703b0000024503ac800024303a4400024102a1400023f02a3400023d0449800023b029e00002390441800023702a9800023502a6c00023304544000231049ec00022f04a0800022d0497c00022b049a40002290493c00022704a5000022504a2c000223049c000022102fc400021f02fd800021d03e2000021b02fa000021903e700002170300800021502ff000021303e0800021103a6c00020f03a8400020d03a0c00020b03a28000209039dc00020703afc00020503ac400020303a40000201)
  (.lf
  0x1d85400f0021d88000f00c1d84c00f00a1bc7800e0001bc7400e0021bc7000e00c1bc6800e00a200c801080a1dff80118001e0100118021e04801180a1dc50011a0a200f0010800200ec0108022014c01080c1eab001060a1dc4c011a001dc48011a021dc40011a0c0afc4003c001ea680106001eaac0106021ea6401060c1e33c00f4001e2dc00f4021e3c000f40c1e28400f40a1e8d80104001e8bc01040c1e8a801040a1ef70011c0010768004a0010758004a0210744004a0c10730004a0a1711c00ae0a146ac008200146a400820c1469c00820a1813800de0a1711800ae001711400ae021710c00ae0c1c04000c60c1bfe400c60a1813400de001813000de021de2800f20c1ddbc00f20a1bfa000c6001bf4800c6020cd4000200c0cd3800200a1ddb000f2001ddac00f2020c34000500c0c33c00500a0cd2c0020000cd18002002134bc0078021342800780a0c3380050000c3340050020db54003e02))
  (.nd (.lf
  0x11638007c6011658007c8e11660007c9a11664007c9c11668007ca211654007caa1165c007ca411680007cac11684007cc211688007cae1169c007cb0116b0007d16116a0007cb2116b4007cb4116bc007cd0116cc007d0011698007cec116d0007cba116a8007cc8116d4007ce2116d8007cca116dc007d26116e0007cc4116e8007cbc116ec007cf8116f0007cce116f8007d32116fc007cf61170c007d0211710007d2811714007d1811718007d0a1171c007cbe1172c007cd211734007d1c11740007cee11748007ce411788007d3411630007c5c116a4007cc6116e4007ccc1174c007cf01162c007c94115f0007c4a1161c007c8011620007c8a1164c007ca0117e4007d0e1163c007ca61175c007d30115d0007c3811634007c5e11610007c72116b8007cb611758007d2c11720007d04116ac007cd61160c007c7011754007d2a11750007d1a10e8c007c3a115e8007c66115f8007c8811608007c6e)
  (.lf 0))) (.nd (.nd (.lf
  0x14fbc00b8fe14f4000b8dc14f4800b8ea150bc00b8e814f4c00b8b814f4400b8de14fc000b8e014fa800b8da14d9000b85014ee000b85618d4c00bc1018ce400bc1218bf800bc1c18d9000bc1a1875000bc3018a9000bc821874800bc4214c2800bc4c14d0c00bc761876400bc5818af800bc6214d0800bc3c18a8800bc7818a9400bc3e18aa800bc4418ac400bc4618aa000bc5218aac00bc6a18ad000bc901875400bc3418ab800bc8418afc00bc6418ac800bc481876800bc5a18abc00bc8618a8c00bc7a18ad400bc9218ab000bc6c1875c00bc3618aa400bc5418b1400bc7418b2000bc8c18af400bc9818aec00bc6018b2400bc8e18b2c00bc9a18b3000bc9c18b3400bca218b5800bcaa18b2800bca418b5c00bcac18b7800bcc218b8400bcae18b8800bcb018ba000bd1618b8c00bcb218b9000bcb418c4400bcd018bc000bd0018b6800bcec18c3400bcba18bd000bcc818bb000bce218bd400bcca)
  (.lf 0)) (.nd (.lf
  0x28ec0146ec029240146ba028fc0146c8029280146e20292c0146ca02930014726029340146c40293c0146bc029400146f8029440146ce0294c014732029500146f60296001470202964014728029680147180296c01470a029700146be029800146d20298801471c029940146ee0299c0146e4029f80147340288401465c028f80146c6029380146cc029a00146f0028800146940286401464a028700146800287401468a028a00146a00447801470e028900146a6029b0014730027f80146380288801465e0285c0146720290c0146b6029ac01472c02974014704029000146d602858014670029a801472a029a401471a027e001463a02834014666028440146880285401466e027dc01464e027d0014668027cc014632027c8014640029840146d4029b80146f4029780146c0029540146fa029b40146f2029c0014708029580146fc0295c01473c029fc0147360297c0147060298c01471e0299801473a)
  (.lf 0)))

def aesWireTree17 : BTree :=
  .nd (.nd (.nd (.lf
  0x12d400072001310000722035cc0007120131400072e0128c000724035c000073e011d8000696011e000069e0115800067e011b000067c011e80006a801224000714012280006e6012580006d8012600006fe012040006dc0120c0006ea0122c0006e8012100006b8012080006de012140006e00125c0006da0115c00065001164000656010e0000810010e8000812010ec00081c0110800081a00f2800083000f4c00088200f0c00084200f5000084c00f3000087600f4800085800f2400086200f1000083c00f3400087800f2000083e00f1400084400f1800084600f4000085200ef800086a00f0800089000f2c00083400efc00088400f5400086400f5c00084800f6000085a00f6400088600f6c00087a00f7000089200f7400086c00f8400083600fa000085400f8c00087400f9c00088c00fbc00089800fb000086000fd000088e00fd800089a00fdc00089c00fe00008a200fcc0008aa00fd40008a4)
  (.lf 0)) (.nd (.lf
  0xe6640028fc0e66800293c0e7040029360e6880029060e69800291e0e6a400293a0e7080029380e7500029100e69c0029200e6d80029220e7540029120e6dc00292e0e6540029240e78800293e0e5a00028960e5a800289e0e54000287e0e57800287c0e5b00028a80e5ec0029140e5f00028e60e6200028d80e6280028fe0e5cc0028dc0e5d40028ea0e5f40028e80e5d80028b80e5d00028de0e5dc0028e00e6240028da0e4fc0028500e50000285611e6400601011e6c00601211e7000601c11e9000601a10de400603011a6400608210e2400604210e2800604c11d0000607611d0800605811a5c00606211cf800603c11d0400607811cfc00603e11a5400604411cec00604611a6000605211a4c00606a11cf40060901190800603411a5000608411a6800606411d0c00604811d1800605a11a7000608611d3000607a11d3800609211a7800606c1191400603611a9400605411d1400607411d3400608c)
  (.lf 0))) (.nd (.nd (.lf
  0x8668018d0c086ac018d0408624018cd60857c018c70086e0018d2a086dc018d1a084a0018c3a08568018c6608510018c8808578018c6e08538018c4e084f8018c68084d4018c320848c018c40086bc018cd4086f4018cf4086b0018cc008680018cfa086f0018cf2086fc018d0808684018cfc08688018d3c08720018d36086b4018d06086c4018d1e086d0018d3a08724018d38086a0018d10086c8018d2008708018d22086a4018d1208710018d2e08670018d240868c018d3e085b8018c96085c0018c9e08500018c7e08590018c7c085c8018ca808604018d1408608018ce608638018cd808640018cfe085e4018cdc085ec018cea0860c018ce8085f0018cb8085e8018cde085f4018ce00863c018cda08554018c500855c018c561068400681010720006812106d400681c106c000681a0f6440068300fa440068820f5a00068420f62c00684c0f5080068760f5140068580fccc0068620f59000683c)
  (.lf 0)) (.nd (.lf
  0x1a3d400b43e1a41800b4441a41c00b4461a42c00b4521a3ec00b46a1a3f400b4901a42400b4341a3f000b4841a43800b4641a44000b4481a44400b45a1a3fc00b4861a3dc00b47a1a40400b4921a44800b46c1a45800b4361a47400b4541a46000b4741a47000b48c1a49000b4981a48400b4601a4a400b48e1a4ac00b49a1a4b000b49c1a4b400b4a21a4a000b4aa1a4a800b4a41a4cc00b4ac1a4d000b4c21a4d400b4ae1a4e800b4b01a4fc00b5161a4ec00b4b21a50000b4b41a50800b4d01a51800b5001a4e400b4ec1a51c00b4ba1a4f400b4c81a52000b4e21a52400b4ca1a52800b5261a52c00b4c41a53400b4bc1a53800b4f81a54000b4ce1a54800b5321a54c00b4f61a56400b5021a56800b5281a56c00b5181a57000b50a1a57c00b4be1a58c00b4d21a59400b51c1a5a000b4ee1a5a800b4e41a61000b5341a53c00b50c1a47c00b45c1a4f000b4c61a53000b4cc1a5ac00b4f01a47800b494)
  (.lf 0)))

def aesWireTree18 : BTree :=
  .nd (.nd (.nd (.lf
  0x220380134c6220500134cc220f80134f021fe801349421fa001344a21fbc01348021fc001348a21fe00134a0220e001350e21fec0134a62212001353020de801343821fd401345e21fb40134722205c0134b62211c01352c220c801350c220b8013504220480134d621fb00134702211801352a2211401351a21f6c01343a21f6801346621f2001348821fac01346e21f5801344e21f1001346820dfc01343221f00013440220680134d4221000134f4220c00134c0220f00134fa220fc0134f222108013508220f40134fc220d801353c220a8013536220c40135062234801351e2235c01353a220ac013538220e40135102234c01352022350013522220ec0135122213401352e22070013524220e801353e21ff001349621fdc01349e21f1801347e21fa801347c220180134a8220240135142207c0134e6220900134d8220980134fe220040134dc2200c0134ea220800134e8220140134b8220080134de)
  (.lf
  0xf5240031510f56800314f0f4dc00314d0f16400314b0f2c80031490f5c00031470fad40031450f87c0031430f22c0031410fe0400313f0fddc00313d0f1f400313b0eeb80031390f2a8003137100b40031350fd7c0031330f2340031310fe4000312f0fdd400312d0f1fc00312b0eedc0031290f290003127101280031250fd840031230fe0c0031210fe5000311f0fd9400311d13a3c00311b13a30003119100ac00311713a480031150fd540031130fe480031110fd9c00310f0f1dc00310d0f27000310b0f2780031090feb80031070fd640031050f25000310310bfc00310110ec00030ff10c400030fd10ce40030fb10cfc0030f910fa00030f710e9c0030f510d340030f310c840030f110be00030ef10f100030ed10c440030eb10bb00030e910c900030e710fdc0030e510e740030e310cc40030e110bf00030df10f6c0030dd10c5c0030db10c1c0030d910cac0030d7115a80030d510e840030d3))
  (.nd (.lf
  0x74a80175340735401745c073c80174c6074080174cc074700174f0073500174940733401744a073400174800734401748a073700174a0087b401750e073600174a607480017530071f40174380735801745e0732c017472073dc0174b60747c01752c07444017504073d00174d6073280174700747801752a0747401751a0654c01743a07314017466071e00174880732401746e072e401744e071d00174680717401743206520017440074540174d4074880174f4074480174c0074240174fa074840174f207490017508074280174fc0742c01753c074ac0175360744c0175060745c01751e0746801753a074b0017538087b8017510074600175200749c017522087bc017512074a001752e07418017524087d401753e073640174960736c01749e071ec01747e0733c01747c073740174a8073b0017514073b40174e6073e40174d8073ec0174fe073900174dc073980174ea073b80174e80739c0174b8)
  (.lf 0))) (.nd (.nd (.lf
  0x20e5001133c20ea401133620e4001130620e4801131e20f4401133a20ea801133820e6001131020eb801132020ebc01132220e640113122112401132e2031801132420e6801133e1fb100112961faa401129e1f71801127e1fab001127c1fb180112a81fb300113141fb280112e6203100112d820e300112fe1fb540112dc1fb5c0112ea1fb380112e81fb4c0112b81fb580112de1fb6c0112e020e180112da1fa2c0112501f840011256204ec01161020478011612204d001161c204c001161a1f5bc0116301f72c0116821f54c0116421f5b801164c1f9840116761f9800116581f7580116621f95c01163c1f9880116781f96401163e1f7340116441f7d80116461f9740116521f9a001166a1f9600116901f8080116341f80c0116841f75c0116641f9680116481fac001165a1f8740116861f99001167a1f9940116921f9a401166c203380116361f978011654203580116742034801168c1f9b0011698)
  (.lf 0)) (.nd (.lf
  0x178bc00d84017a5000d8d417a8800d8f417a4400d8c017a1400d8fa17a8400d8f217a9000d90817a1800d8fc17a1c00d93c17ab400d93617a4800d90617a5800d91e17a6400d93a17ab800d93817a3400d91017a5c00d92017a9c00d92217a3800d91217aa400d92e17a0400d92417a2000d93e1794c00d8961795400d89e1772400d87e1792400d87c1795c00d8a81799800d9141799c00d8e6179cc00d8d8179d400d8fe1797800d8dc1798000d8ea179a000d8e81798400d8b81797c00d8de1798800d8e0179d000d8da177bc00d850177c000d856190a000c810190a800c812190ac00c81c190d000c81a18e3c00c83018e8000c88218e6c00c84218e8400c84c18f2400c87618f2c00c85818e7000c86218f1c00c83c18f2800c87818f2000c83e18e7400c84418f1000c84618e7c00c85218e4c00c86a18f1800c89018e6800c83418e3400c88418e8800c86418f3000c84818f3c00c85a18e9000c886)
  (.lf 0)))

def aesWireTree19 : BTree :=
  .nd (.nd (.nd (.lf
  0x10ec80012c30f1ec0012c10d98c005a180d9bc0012bf0f1f00012bd0fdd80012bb0e46c0012b90da0c0012b70f2280012b50f8780012b30f1780012b10e48c0012af0f5bc0012ad0f4d40012ab0e4200012a90f4d80012a710ed00012a510bf40012a310ed40012a10e4a800129f0f56000129d0f56400129b0e4800012990f5200012970f8700012950e4b80012930f5b00012910f5b400128f0f17000128d0e4b400128b0eec40012890e4bc0012870f1000012850f4d00012830f5580012810f19000127f10b9c00127d10cd800127b0e4a00012790e4180012770d7600012750f1400012730d9f00012710f4b400126f0f52c00126d0d78800126b0f5300012690d7680012670f1240012650f19c0012630fa340012610f1b800125f0fa3800125d10e8000125b0f5ac0012590e1ac0012570f1b40012550f1800012530e4280012510f1c400124f0eed000124d0f0f400124b0f4f80012490f554001247)
  (.lf 0)) (.nd (.lf
  0x2d90014a8202d38014a4202d3c014a4c02df8014a7602e0c014a5802d8c014a6202df0014a3c02dfc014a7802df4014a3e02d80014a4402d84014a4602e04014a5202dac014a6a02dbc014a9002dec014a3402de4014a8402d94014a6402e10014a4802e14014a5a02e18014a8602e20014a7a02e24014a9202dc0014a6c02e28014a3602e44014a5402e30014a7402e40014a8c02e60014a9802e54014a6002e74014a8e02e7c014a9a02e80014a9c02e84014aa202e70014aaa02e78014aa402e9c014aac02ea0014ac202ea4014aae02eb8014ab002ecc014b1602ebc014ab202ed0014ab402ed8014ad002ee8014b0002eb4014aec02eec014aba02ec4014ac802ef0014ae202ef4014aca02ef8014b2602efc014ac402f04014abc02f08014af802f0c014ace02f14014b3202f18014af602f28014b0202f2c014b2802f30014b1802f34014b0a02f38014abe02f48014ad202f50014b1c02f5c014aee)
  (.lf 0))) (.nd (.nd (.lf
  0xde1c0042e00de640042da0db340042500db38004256113b8007e1011370007e1211394007e1c113ac007e1a11000007e3010fc4007e8210d2c007e4210ff0007e4c10eec007e7610f04007e5810ffc007e6210ef4007e3c10fb8007e7811004007e3e10fc8007e4411244007e4610fcc007e5211224007e6a11010007e901124c007e341100c007e8411034007e6411248007e4810f08007e5a11014007e8610fbc007e7a11018007e9211228007e6c11250007e3610ff4007e541125c007e7411274007e8c11238007e9811258007e6011278007e8e1127c007e9a11280007e9c11284007ea211294007eaa112a8007ea4112ac007eac112b0007ec2112b8007eae112bc007eb0112f0007f16112c0007eb2112c4007eb4112cc007ed011318007f0011330007eec11354007eba11378007ec81130c007ee21137c007eca112f4007f26112b4007ec411358007ebc112d8007ef81128c007ece11338007f32)
  (.lf 0)) (.nd (.lf
  0x16bd400b6be16be400b6d216bec00b71c16bf800b6ee16c0000b6e416c6800b73416b9400b70c16ad400b65c16b4800b6c616b8800b6cc16c0400b6f016ad000b69416a9800b64a16ac000b68016ac400b68a16af000b6a016ba800b70e16ae000b6a616c1400b7301672400b63816ad800b65e16ab400b67216b5c00b6b616c1000b72c16bd800b70416b5000b6d616ab000b67016c0c00b72a16c0800b71a16a6c00b63a16a6800b6661680400b68816aac00b66e16a6400b64e1671c00b668167f800b6321671800b64016be800b6d416c2000b6f416bdc00b6c016bac00b6fa16c1c00b6f216c2800b70816bb000b6fc16bb400b73c16c6c00b73616be000b70616bf000b71e16bfc00b73a16c7000b73816bcc00b71016bf400b72016c3400b72216bd000b71216c4400b72e16b9c00b72416bb800b73e16ae400b69616aec00b69e1667000b67e16abc00b67c16af400b6a816b3000b71416b3400b6e6)
  (.lf 0)))

def aesWireTree20 : BTree :=
  .nd (.nd (.nd (.lf
  0x7094000a7f070a8000a7d07238000a7b07070000a79076ac000a77070c8000a75070d4000a730721c000a7107b58000a6f07bbc000a6d08ac8000a6b07ae8000a6908a68000a6707e64000a6507c10000a6308b28000a61089f4000a5f08a00000a5d09054000a5b08a2c000a590912c000a5708a20000a5508a0c000a53090a4000a51081f0000a4f081a8000a4d081a0000a4b08194000a49081c8000a47081d4000a45081b8000a43081e4000a4107090000a3f070a4000a3d07214000a3b0706c000a39072e0000a37070c4000a35070bc000a3307218000a3107b54000a2f07bb8000a2d08ac4000a2b07ae4000a2908a64000a2707e48000a2507c0c000a2308b24000a21089f0000a1f089fc000a1d0904c000a1b089d8000a1909128000a1708a1c000a1508a08000a130909c000a11081cc000a0f081a4000a0d0818c000a0b08190000a09081c4000a07081d0000a05081b4000a03081b0000a01)
  (.lf
  0x18e0c002b7518f0c002b7319ed8002b7118dc8002b6f18dd8002b6d18d30002b6b190fc002b6918d80002b6718efc002b651a198002b6318c1c002b6118da4002b5f18c88002b5d19eac002b5b19ea0002b5918e1c002b5719f34002b5518cc4002b531912c002b5118c28002b4f18dbc002b4d18df0002b4b18d20002b4918ec0002b4718cf8002b45190d8002b4319914002b4119908002b3f19444002b3d18a20002b3b18a14002b391938c002b37193f8002b35193d0002b33196e0002b3119470002b2f18950002b2d18a70002b2b18a44002b2919378002b271941c002b25189f8002b2318a2c002b2119938002b1f194a0002b1d18958002b1b189cc002b191898c002b17193a0002b15193e8002b1318a04002b11194d0002b0f1944c002b0d18a5c002b0b189b4002b091899c002b0719350002b0519404002b0317730002b01176f4002aff176c8002afd177a8002afb17638002af917720002af7))
  (.nd (.lf
  0x5e18016a9605e20016a9e05d74016a7e05df0016a7c05e28016aa805e64016b1405e68016ae605e98016ad805ea0016afe05e44016adc05e4c016aea05e6c016ae805e50016ab805e48016ade05e54016ae005e9c016ada05db4016a5005dbc016a5608ce801821008cf001821208cf401821c08d1001821a08ae801823008b5c01828208b3c01824208b6001824c07e9801827608aac01825808b4001826208b4401823c07ee401827808b4801823e08b4c01824408b5001824608b5801825208ad801826a08ae001829008b3801823408adc01828408b6401826408b6c01824808ab001825a08b7001828607ee801827a08b7801829208b7c01826c08b8c01823608ba801825408b9401827408ba401828c08bc401829808bb801826008bd801828e08be001829a08be401829c08be80182a208bd40182aa08bdc0182a408c000182ac08c040182c208c080182ae08c1c0182b008c3001831608c200182b2)
  (.lf 0))) (.nd (.nd (.lf
  0x1c24800ef301bfb400ee381c0e400ee5e1c11000ee721c1bc00eeb61c24400ef2c1c29400ef041c1a400eed61c0fc00ee701c24000ef2a1c23c00ef1a1c01c00ee3a1c0f000ee661c11800ee881c0f800ee6e1c01400ee4e1bfbc00ee681c0c000ee321bfb800ee401c1f000eed41c23000eef41c27400eec01c1e000eefa1c20000eef21c2a000ef081c1e800eefc1c1e400ef3c1c21c00ef361c29800ef061c29c00ef1e1c2b400ef3a1c22000ef381c26800ef101c2a800ef201c2ac00ef221c26c00ef121c25000ef2e1c1d400ef241c27800ef3e1c12800ee961c10000ee9e1bf5800ee7e1c10800ee7c1c13400eea81c18400ef141c18800eee61c1c400eed81c21000eefe1c16000eedc1c16800eeea1c18c00eee81c16c00eeb81c16400eede1c17000eee01c1c800eeda1c0c400ee501c01800ee5619bf8001f311ce24001f2f1aac4001f2d1b3e4001f2b1b604001f291a374001f271a178001f25)
  (.lf 0)) (.nd (.lf
  0x1d444011a821d2c4011a421d314011a4c1d544011a761d56c011a581d474011a621d578011a3c1d5ec011a781d590011a3e1d45c011a441d4e0011a461d584011a521d464011a6a1d4e8011a901d614011a341d53c011a841dacc011a641d630011a481d570011a5a1d540011a861d5f0011a7a1d57c011a921d468011a6c1d618011a361d588011a541dadc011a741d8b0011a8c1d5dc011a981d638011a601dae0011a8e1dae4011a9a1dae8011a9c1db08011aa21d624011aaa1db14011aa41db18011aac1db7c011ac21db1c011aae1db20011ab01db58011b161db30011ab21db34011ab41db3c011ad01dbac011b001db90011aec1db64011aba1db4c011ac81dbc8011ae21db50011aca1db5c011b261db84011ac41db6c011abc1db44011af81db0c011ace1db98011b321dbd4011af61dbb4011b021db54011b281db60011b181db80011b0a1db68011abe1db40011ad21db10011b1c1db94011aee)
  (.lf 0)))

def aesWireTree21 : BTree :=
  .nd (.nd (.nd (.lf
  0xb5140022b80b5340022de0b5380022e00b52c0022da0b4540022500b45c0022560b79c0024100b76c0024120b7b400241c0b73800241a0b0100024300b0a000248209ba40024420b01400244c0b3c40024760b3d40024580b0a40024620b3ac00243c0b3c80024780b3b000243e0b0c00024440b0c80024460b3d00024520b39c00246a0b4240024900b4080024340b3a00024840b0c40024640b3b80024480b3d800245a0b3bc0024860b3dc00247a0b4280024920b3e000246c0b40c0024360b3f00024540b6300024740b42000248c0b4400024980b4500024600b63400248e0b63800249a0b63c00249c0b6ac0024a20b4380024aa0b6400024a40b6440024ac0b6480024c20b6800024ae0b6840024b00b6980025160b6e00024b20b6e40024b40b7440024d00b7040025000b6700024ec0b71c0024ba0b68c0024c80b6f00024e20b6a40024ca0b6a00025260b6540024c40b73c0024bc0b7500024f8)
  (.lf 0)) (.nd (.lf
  0x1201c0066bc120200066f8120240066ce1202c006732120300066f61204000670212044006728120480067181204c00670a120500066be120600066d21206800671c120740066ee1207c0066e4120c000673411f6400665c11fd80066c6120180066cc120800066f011f6000669411f2400664a11f5000668011f5400668a11f800066a01254800670e11f700066a61209000673011f0400663811f6800665e11f4400667211fec0066b61208c00672c1205400670411fe00066d611f400066701208800672a1208400671a1195c00663a11f1c00666611f2c00668811f3c00666e1195800664e11ee800666810d6400663211ee4006640120640066d4120980066f4120580066c0120340066fa120940066f2120a0006708120380066fc1203c00673c120c40067361205c0067061206c00671e1207800673a120c80067381254c00671012070006720120ac00672212550006712120b000672e12028006724)
  (.lf 0))) (.nd (.nd (.lf
  0x13278008f1613298008eb2132a8008eb413328008ed0132bc008f00132d8008eec132fc008eba13268008ec8132d0008ee21326c008eca1327c008f2613288008ec413300008ebc13330008ef8132e0008ece132e4008f32132f0008ef6132f8008f0213270008f2813280008f1813290008f0a13304008ebe1332c008ed2132a4008f1c13318008eee13324008ee4132c0008f34131e4008e5c13264008ec61328c008ecc13354008ef0131e8008e9413220008e4a1320c008e801321c008e8a13238008ea013338008f0e13210008ea613378008f30131a4008e38131f8008e5e1323c008e72132ac008eb61336c008f2c13334008f0c13308008f0413274008ed613230008e7013364008f2a13358008f1a1308c008e3a1322c008e66131ec008e88131d8008e6e13090008e4e131b0008e681310c008e3213054008e401338c008ed413394008ef413384008ec01333c008efa13390008ef21339c008f08)
  (.lf 0)) (.nd (.lf
  0x1984000d33c198e400d3361986c00d3061987c00d31e1988800d33a198e800d3381985800d3101988000d320198c400d3221985c00d312198d000d32e1982800d3241984400d33e1977000d2961977800d29e1938000d27e1974800d27c1978000d2a8197bc00d314197c000d2e6197f000d2d8197f800d2fe1979c00d2dc197a400d2ea197c400d2e8197a800d2b8197a000d2de197ac00d2e0197f400d2da1970400d2501948c00d256192fc00ce101930400ce121930800ce1c1932c00ce1a18ed400ce301915800ce821913800ce421915c00ce4c190e400ce76190ec00ce581913c00ce621914000ce3c190e800ce781914400ce3e1914800ce441914c00ce461915400ce5218ec800ce6a190e000ce901913400ce3418ecc00ce841916000ce641916800ce48190f000ce5a1916c00ce86190f400ce7a1917400ce921917800ce6c1918800ce36191a400ce541919000ce74191a000ce8c191c000ce98)
  (.lf 0)))

def aesWireTree22 : BTree :=
  .nd (.nd (.nd (.lf
  0x22b4c01209222b5401206c2316001203622b64012054231880120742317c01208c22b88012098231840120602318c01208e2319001209a231a401209c231ac0120a2231700120aa231940120a4231980120ac2319c0120c2231e00120ae231e40120b02322c012116231e80120b2231ec0120b4231f40120d023238012100231d40120ec232040120ba232140120c8232240120e2232640120ca2324c012126232d40120c4232080120bc232900120f8231b40120ce231dc012132232280120f6232540121022321801212823230012118231a001210a2320c0120be231f80120d2231b001211c231d80120ee232680120e42323c01213422b6801205c232100120c6232d80120cc2326c0120f022b780120942318001204a231740120802317801208a22b700120a0232ac01210e231680120a62328001213022b2801203822b7401205e22b60012072231f00120b62327c01212c232580121042321c0120d6)
  (.lf
  0x1fd4c0036771fcf00036751fdd8003673205900036711ff6000366f1fec400366d1fcb800366b1fd30003669205180036671fde00036651fdf40036631fd900036611fecc00365f1fc5400365d2080c00365b2083c0036591fce0003657206100036551fc7c0036531fc640036511fda400364f1fe9000364d1fc9400364b1fc2c0036491fe080036471fd040036451fdcc0036431f8840036411f9c000363f1f81000363d1f64000363b1f5c80036391f7400036371f7b00036351f78c0036331fa180036311f82000362f1f63400362d1f66000362b1f5680036291f7100036271f79c0036251f5340036231f5740036211f8ac00361f1f85000361d1f5e800361b1f64c0036191f5a80036171f7640036151f7c40036131f5280036111f95000360f1f7fc00360d1f54400360b1f5540036091f59c0036071f7240036051f7d00036031de340036011d3d00035ff1d5180035fd1d1880035fb1d3240035f9))
  (.nd (.lf
  0x10f1c007a3411048007a8411070007a6411078007a4810f34007a5a11080007a8611088007a7a1108c007a9211090007a6c10f38007a36110b4007a54110a0007a74110b0007a8c110d0007a98110c4007a60110e4007a8e110ec007a9a110f0007a9c110f4007aa2110e0007aaa110e8007aa41110c007aac11110007ac211114007aae11128007ab01113c007b161112c007ab211140007ab411148007ad011158007b0011124007aec1115c007aba11134007ac811160007ae211164007aca11168007b261116c007ac411174007abc11178007af81117c007ace11184007b3211188007af611198007b021119c007b28111a0007b18111a4007b0a111a8007abe111b8007ad2111c0007b1c111cc007aee111d4007ae411214007b34110bc007a5c11130007ac611170007acc111d8007af0110b8007a941107c007a4a110a8007a80110ac007a8a110d8007aa011824007b0e110c8007aa6111e8007b30)
  (.lf 0))) (.nd (.nd (.lf
  0x227bc002383228d8002381207f800237f228dc00237d22a5000237b2076c0023792277c0023772278000237522930002373207c8002371227ec00236f2285400236d209d000236b23914002369209d400236720a90002365216c400236320a1800236120a5400235f2161c00235d20ae400235b2164c0023592162c00235720a5000235520a700023532172c0023512050c00234f2162800234d2163000234b20aac002349216a0002347215f400234520a08002343209ec0023412382c00233f20ae800233d216ec00233b1ed24002339216f000233720a8c0023351ed0800233320a940023312161000232f2177000232d20a0c00232b20a5800232920d8000232720d10002325202f400232320c7400232121e7800231f20d3c00231d21e9c00231b21f2c002319204b000231720508002315209b0002313204b400231120c9000230f20dd800230d20c5800230b20ddc00230920d4c00230720db4002305)
  (.lf 0)) (.nd (.lf
  0x1fb8c00fcf81f69800fcce1f6fc00fd321fbb000fcf61fbcc00fd021f6d400fd281f6cc00fd181f6ac00fd0a1fb8400fcbe1fb8800fcd21f69400fd1c1f70000fcee1fbe400fce41fbf000fd341fb9c00fd0c1f67400fc5c1f6bc00fcc61f6dc00fccc1fbe800fcf01f60000fc941f59000fc4a1f58c00fc801f5dc00fc8a1f68c00fca01fbb400fd0e1f60800fca61fbfc00fd301f51000fc381f67800fc5e1f62000fc721fb7800fcb61fbf800fd2c1fbd000fd041f6c000fcd61f61c00fc701fbf400fd2a1fbec00fd1a1acdc00fc3a1f51c00fc661f5d800fc881f61400fc6e1f4f800fc4e1f2b400fc681abe800fc321f2b000fc401fba400fcd41fcc400fcf41fba000fcc01fbb800fcfa1fcc000fcf21fccc00fd081fbe000fcfc1fd6400fd3c1fe7000fd361fbd400fd061fbd800fd1e1fd1800fd3a1fe7400fd381fbbc00fd101fd1400fd201fd1c00fd221fbc000fd121fc1400fd2e1fb9000fd24)
  (.lf 0)))

def aesWireTree23 : BTree :=
  .nd (.nd (.nd (.lf
  0x13940008afc13964008b3c139e8008b3613978008b061397c008b1e13984008b3a139ec008b381394c008b1013980008b20139b4008b2213950008b12139b0008b2e13958008b2413960008b3e13848008a9613868008a9e125d0008a7e13864008a7c135bc008aa8138c4008b14138c8008ae613908008ad813910008afe138a4008adc138b0008aea138cc008ae8138a0008ab8138a8008ade138ac008ae01390c008ada1358c008a50130f8008a56137ec008c10137f4008c121381c008c1c137ac008c1a1363c008c30135e4008c821362c008c42133c0008c4c13138008c76136ac008c5813638008c6213154008c3c135e0008c78135dc008c3e13630008c4413634008c4613684008c5213608008c6a13610008c9013640008c341360c008c8413660008c6413674008c48136b0008c5a13614008c86135e8008c7a1361c008c9213648008c6c13644008c3613688008c541367c008c741365c008c8c)
  (.lf 0)) (.nd (.lf
  0x1ad1800c6881ad0400c66e1bcdc00c64e1acf800c6681a81800c6321ace800c6401be8800c6d41be9400c6f41bdf800c6c01be6c00c6fa1be8c00c6f21be9000c7081be7000c6fc1bdcc00c73c1be1000c7361bdf400c7061be0000c71e1be0800c73a1be1400c7381be7400c7101be0400c7201be2400c7221be7800c7121be3000c72e1be4400c7241be5c00c73e1bd0c00c6961bd2400c69e1a66800c67e1ad0800c67c1bd1800c6a81bd6000c7141bd6400c6e61bdbc00c6d81bdd400c6fe1bd4000c6dc1bd4c00c6ea1bd6800c6e81bd5000c6b81bd4400c6de1bd4800c6e01bdc000c6da1bce400c6501bcec00c6561dda000f2101dda800f2121ddfc00f21c1dd6c00f21a1cdf400f2301cf1800f2821cf4c00f2421ce7400f24c1d33c00f2761d33800f2581dc5c00f2621d35400f23c1d38400f2781d37800f23e1cf5000f2441cf5400f2461d36000f2521d1c800f26a1d2d800f2901d34c00f234)
  (.lf 0))) (.nd (.nd (.lf
  0x8dbc018a5e08d90018a7208e40018ab608ee0018b2c08ea8018b0408e34018ad608d8c018a7008edc018b2a08ed8018b1a07c38018a3a08d70018a6608d7c018a8808d88018a6e08a98018a4e08b00018a6808d3c018a3207ef4018a4008eb8018ad408eec018af408eac018ac008e88018afa08ee8018af208ef4018b0808e8c018afc08e90018b3c08f10018b3608eb0018b0608ec0018b1e08ecc018b3a08f14018b3809004018b1008ec4018b2008f00018b2209008018b1208f04018b2e08e7c018b2409010018b3e08dc8018a9608dd0018a9e08b18018a7e08da0018a7c08dd8018aa808e14018b1408e18018ae608e48018ad808e50018afe08df4018adc08dfc018aea08e1c018ae808e00018ab808df8018ade08e04018ae008e4c018ada08d5c018a5008a9c018a56020b0001210020b8001212020bc00121c020dc00121a01ef800123001f1c00128201edc00124201f2000124c01f00001276)
  (.lf 0)) (.nd (.lf
  0x3064001e3403034001e840308c001e6403094001e4803098001e5a0309c001e86030a4001e7a030a8001e92030ac001e6c030bc001e36030d8001e54030c4001e74030d4001e8c030f4001e98030e8001e6003108001e8e03110001e9a03114001e9c03118001ea203104001eaa0310c001ea403130001eac03134001ec203138001eae0314c001eb003160001f1603150001eb203164001eb40316c001ed00317c001f0003148001eec03180001eba03158001ec803184001ee203188001eca0318c001f2603190001ec403198001ebc0319c001ef8031a0001ece031a8001f32031ac001ef6031bc001f02031c0001f28031c4001f18031c8001f0a031cc001ebe031dc001ed2031e4001f1c031f0001eee031f8001ee40323c001f34030e0001e5c03154001ec603194001ecc031fc001ef0030dc001e94030c0001e4a030cc001e80030d0001e8a030fc001ea0099dc001f0e030ec001ea60320c001f30)
  (.lf 0)))

def aesWireTree24 : BTree :=
  .nd (.nd (.nd (.lf
  0x437c00067f0439c00067d044f400067b043700006790444c000677043a80006750438800067304a94000671051ac00066f051c000066d05a5800066b0518800066905abc000667051e8000665051d400066305a8800066104f2800065f04f4c00065d0552000065b04ef40006590557400065704f9c00065504f74000653054b40006510599400064f059b400064d0602800064b05960000649060d800064705a04000645059e0000643060740006410436c00063f0439800063d044f000063b0436400063904448000637043680006350438400063304a90000631051a800062f051bc00062d05a5400062b0518400062905ab8000627051e4000625051d000062305a8400062104f2400061f04f4800061d0551c00061b04ef00006190556800061704f9800061504f68000613054a80006110598c00060f059b000060d0602400060b05964000609060d000060705a00000605059d800060306010000601)
  (.lf
  0xecb80027750e7e40027730e7c00027710e8a800276f0e82400276d0e74800276b0e7140027690e7680027670e98c0027650ea240027630e7d00027610e8dc00275f0e83400275d0e72c00275b0e6f80027590e7780027570e92c0027550ea380027530e8980027510e8bc00274f0e85000274d0e7a400274b0e7b40027490e96c0027470eacc0027450ea9c0027430b8900027410b99c00273f0bb1c00273d0b95800273b0b9740027390b8700027370b7940027350ba680027330b9a80027310bae400272f0c0cc00272d0b93800272b0b8f00027290b8580027270ba300027250ba3c0027230b9e40027210bb2400271f0b94400271d0b8bc00271b0b8a00027190b7f40027170ba880027150b8b00027130b8fc0027110b9bc00270f0bd0400270d0b91800270b0b7d00027090b8680027070b77c0027050ba700027030cfac0027010d44c0026ff0d2e00026fd109e00026fb109b00026f90d5840026f7))
  (.nd (.lf
  0x12bd800908012bdc00908a12c080090a012d9800910e12bf80090a612d180091301236400903812bf000905e1261400907212c740090b612d1400912c12cdc00910412c680090d61261000907012d1000912a12d0c00911a126dc00903a1260400906612bbc0090881260c00906e1260000904e1236000906812b8800903211ecc00904012cec0090d412d200090f412ce00090c012cbc0090fa12d1c0090f212d2800910812cc00090fc12cc400913c12d4400913612ce400910612cf400911e12d0000913a12d4800913812d9c00911012cf800912012d3400912212da000911212d3800912e12cb000912412da800913e12bfc00909612c0400909e1236c00907e12bd400907c12c0c0090a812c4800911412c4c0090e612c7c0090d812c840090fe12c280090dc12c300090ea12c500090e812c340090b812c2c0090de12c380090e012c800090da12ba000905012ba8009056062a8016e10062b0016e12)
  (.lf 0))) (.nd (.nd (.lf
  0x19d4c00d10819d2800d0fc19cf400d13c19cf800d13619d4800d10619d5400d11e19d5c00d13a19cfc00d13819d7800d11019d5800d12019d6000d12219d7c00d11219d0c00d12e19d2000d12419d8800d13e19bd400d09619c1800d09e193c000d07e19b7800d07c19bec00d0a819c4400d11419c3400d0e619cb400d0d819cd000d0fe19c8400d0dc19c8c00d0ea19c3800d0e819c9000d0b819c8800d0de19c9400d0e019ccc00d0da19b9400d05019b8800d056183f4001c851a7c8001c831a680001c81177ec001c7f186f8001c7d18708001c7b18700001c791a75c001c7715c90001c75193d8001c7318a3c001c7118a68001c6f18cf0001c6d18d18001c6b18c68001c6918ef4001c6718d70001c6518d28001c6317674001c611781c001c5f17660001c5d17130001c5b1587c001c591ca8c001c57173ac001c5517624001c5317144001c5117138001c4f18ee0001c4d18dfc001c4b1a6a4001c49)
  (.lf 0)) (.nd (.lf
  0x1d24c00f46e1d1f000f44e1cedc00f4681ceb000f4321ced800f4401e12800f4d41e1a800f4f41e13c00f4c01e11800f4fa1e16800f4f21e16c00f5081e11c00f4fc1e3b800f53c1e15000f5361e13400f5061e13800f51e1e1a000f53a1e15400f5381e18000f5101e19400f5201e19800f5221e18400f5121e1c400f52e1e0f000f5241e15800f53e1d24000f4961d25c00f49e1ce4800f47e1e05400f47c1e06400f4a81e0a000f5141e0d800f4e61e0c000f4d81e0cc00f4fe1e08c00f4dc1e14400f4ea1e0dc00f4e81e0f800f4b81e09000f4de1e10c00f4e01e0c800f4da1d1f400f4501d1fc00f4561ef3c011c101ef88011c121eef0011c1c1ef78011c1a1d420011c301d498011c821d3e8011c421d424011c4c1d5a4011c761ed90011c581d4a0011c621d5ac011c3c1d5cc011c781d5c4011c3e1d4ac011c441d4f8011c461ed98011c521d55c011c6a1d558011c901d5b0011c341d5f4011c84)
  (.lf 0)))

def aesWireTree25 : BTree :=
  .nd (.nd (.nd (.lf
  0x1784000084017dc000064017e4000048017e800005a017ec000086017f400007a017f8000092017fc00006c0180c00003601828000054018140000740182400008c01844000098018380000600185800008e0186000009a0186400009c018680000a2018540000aa0185c0000a4018800000ac018840000c2018880000ae0189c0000b0018b0000116018a00000b2018b40000b4018bc0000d0018cc000100018980000ec018d00000ba018a80000c8018d40000e2018d80000ca018dc000126018e00000c4018e80000bc018ec0000f8018f00000ce018f8000132018fc0000f60190c00010201910000128019140001180191800010a0191c0000be0192c0000d20193400011c019400000ee019480000e4019840001340183000005c018a40000c6018e40000cc0194c0000f00182c0000940181000004a0181c0000800182000008a0184c0000a0036e800010e0183c0000a60195c000130017a4000038)
  (.lf 0)) (.nd (.lf
  0x6e18017c7807270017c3e074d4017c44074d8017c46074e8017c52072a0017c6a0727c017c90074e0017c3407278017c84074f4017c64074fc017c4807500017c5a07280017c8606e1c017c7a07284017c9207504017c6c07514017c3607530017c540751c017c740752c017c8c0754c017c9807540017c6007560017c8e07568017c9a0756c017c9c07570017ca20755c017caa07564017ca407588017cac0758c017cc207590017cae075a4017cb0075b8017d16075a8017cb2075bc017cb4075c4017cd0075d4017d00075a0017cec075d8017cba075b0017cc8075dc017ce2075e0017cca075e4017d26075e8017cc4075f0017cbc075f4017cf8075f8017cce07600017d3207604017cf607614017d0207618017d280761c017d1807620017d0a07624017cbe07634017cd20763c017d1c07648017cee07650017ce40768c017d3407538017c5c075ac017cc6075ec017ccc07654017cf007534017c94)
  (.lf 0))) (.nd (.nd (.lf
  0x4840014ce004888014cda04798014c500440c014c56047340154100473c0154120474001541c0476401541a044cc01543004590015482045700154420459401544c02aa801547604438015458045740154620457801543c02aac0154780457c01543e04580015444045840154460458c015452044bc01546a044c40154900456c015434044c001548404598015464045a00154480443c01545a045a401548602ab001547a045ac015492045b001546c045c0015436045dc015454045c8015474045d801548c045f8015498045ec0154600460c01548e0461401549a0461801549c0461c0154a2046080154aa046100154a4046340154ac046380154c20463c0154ae046500154b004664015516046540154b2046680154b4046700154d0046800155000464c0154ec046840154ba0465c0154c8046880154e20468c0154ca04690015526046940154c40469c0154bc046a00154f8046a80154ce046b0015532)
  (.lf 0)) (.nd (.lf
  0x1aea400ff021aea800ff281aeac00ff181aeb000ff0a1aebc00febe1aecc00fed21aed400ff1c1aee000feee1aee800fee41af3000ff341ae7c00ff0c1adbc00fe5c1ae3000fec61ae7000fecc1aeec00fef01adb800fe941ad8000fe4a1ada800fe801adac00fe8a1add800fea01ae9000ff0e1adc800fea61aefc00ff301ab4800fe381adc000fe5e1ad9c00fe721ae4400feb61aef800ff2c1aec000ff041ae3800fed61ad9800fe701aef400ff2a1aef000ff1a1ad5400fe3a1ad5000fe661ac0800fe881ad9400fe6e1ad4c00fe4e1ab6c00fe681abfc00fe321ab6800fe401aed000fed41af0800fef41aec400fec01ae9400fefa1af0400fef21af1000ff081ae9800fefc1ae9c00ff3c1af3400ff361aec800ff061aed800ff1e1aee400ff3a1af3800ff381aeb400ff101aedc00ff201af1c00ff221aeb800ff121af2400ff2e1ae8400ff241aea000ff3e1adcc00fe961add400fe9e1ab7400fe7e)
  (.lf 0)))

def aesWireTree26 : BTree :=
  .nd (.nd (.nd (.lf
  0x21574012b2e21504012b2421530012b3e213c0012a96213f4012a9e21038012a7e21400012a7c21408012aa821460012b1421458012ae6214b8012ad8214c8012afe21438012adc21518012aea2146c012ae821434012ab82143c012ade21468012ae0214bc012ada21398012a50213a0012a5621dfc012c1021dec012c1221d80012c1c21dd0012c1a21064012c3021bec012c8221bdc012c4221be4012c4c21100012c76210cc012c5821c0c012c6221c00012c3c21104012c7821c34012c3e21be0012c4421c08012c4621c48012c52213dc012c6a213d8012c9021c10012c34213d4012c8421c24012c6421c38012c48210d0012c5a21bf0012c8621108012c7a21c04012c9221bf8012c6c21c14012c3621c4c012c5421c40012c7421c7c012c8c21c58012c9821c70012c6021c80012c8e21cd0012c9a21cd4012c9c21cfc012ca221c64012caa21c84012ca421c88012cac21c8c012cc221c94012cae)
  (.lf
  0x15f1400880615f0800880412f5400920e12f0400920812efc00920612f2800920416248009c0e161d8009c0c161dc009c0a162e4009c08161ac009c0616290009c04161cc009c021464c00860e14640008608146380086061465800860412dac00900e12db000900812d3c00900612da4009004165b4009a0e16600009a08165c0009a0616644009a04147f400840e1486c008408147d8008406148980084041484000840213368008e0e1337c008e0813374008e0613360008e0414b0000980e14cc400980c14cb800980814c6400980614b1c009804141d800820e14198008208141d0008206141c0008204141f800820213808008c0e13828008c0c137b0008c0a13820008c0813818008c0613800008c0412dcc00960e12dd000960812ad000960612dc4009604153740033c11541c0033bf1557c0033bd153dc0033bb156500033b9154bc0033b71545c0033b5155280033b3153800033b1154240033af))
  (.nd (.lf
  0x12dbc00971012a8c00972012ac800972212dc000971212acc00972e12a4400972412dc800973e129900096961299800969e1238400967e1296800967c129a00096a8129dc009714129e00096e612a100096d812a180096fe129bc0096dc129c40096ea129e40096e8129c80096b8129c00096de129cc0096e012a140096da129340096501293c00965604028015010040300150120403401501c0406001501a03e9401503003e5401508203e8401504203e5c01504c0301801507603ea801505803e8801506203e5001503c0301c01507803e6801503e03e8c01504403e9001504603ea001505203e4001506a03e4401509003e9801503403e3401508403eac01506403eb401504803eb801505a03e580150860302001507a03e6401509203ebc01506c03ecc01503603ee801505403ed401507403ee401508c03f0401509803ef801506003f1801508e03f2001509a03f2401509c03f280150a203f140150aa)
  (.lf 0))) (.nd (.nd (.lf
  0x2052c010a6a20528010a90205d8010a3420538010a84205c8010a64205c0010a481ff74010a5a2059c010a861ff84010a7a205ac010a9220628010a6c205dc010a36205e8010a5420654010a7420640010a8c20634010a9820604010a6020658010a8e2065c010a9a20660010a9c2068c010aa220600010aaa20664010aa420668010aac2066c010ac220674010aae20678010ab0206f0010b1620680010ab2206a4010ab4206b8010ad020704010b00206d8010aec206ac010aba20744010ac820718010ae220748010aca206f4010b262067c010ac4206b0010abc206bc010af8206a0010ace206e0010b3220720010af62070c010b022074c010b28206f8010b1820670010b0a206c8010abe207cc010ad220690010b1c206dc010aee2071c010ae420708010b34206c4010b0c205ec010a5c206e8010ac620750010acc20754010af0205f4010a94205e0010a4a20638010a802063c010a8a2064c010aa0)
  (.lf 0)) (.nd (.lf
  0x20830010c5820828010c621ff34010c3c20618010c7820624010c3e2088c010c4420894010c462084c010c5220878010c6a20860010c9020820010c3420870010c8420890010c64208a0010c4820834010c5a208c4010c862061c010c7a20864010c922087c010c6c20838010c3620850010c54208b8010c74208d8010c8c208d4010c98208a8010c60208dc010c8e208ec010c9a208f0010c9c208f4010ca2208bc010caa208e0010ca4208e4010cac20948010cc2208fc010cae20900010cb020918010d162095c010cb220960010cb420968010cd0215b4010d0020934010cec20a24010cba2090c010cc820984010ce220944010cca20958010d2620950010cc420a28010cbc2096c010cf8208f8010cce20938010d32209d8010cf6215b8010d0220910010d282091c010d182094c010d0a20a2c010cbe20970010cd220b18010d1c2093c010cee2098c010ce4215bc010d3420a38010d0c20854010c5c)
  (.lf 0)))

def aesWireTree27 : BTree :=
  .nd (.nd (.nd (.lf
  0x11cc800159f122f800159d1274000159b105600015991262c001597126780015951234800159311c900015911235000158f1272c00158d1230400158b12aec00158912ae4001587118ec00158512618001583126cc001581118d000157f11ccc00157d1231c00157b1183c00157911ca800157713464001575118a000157313468001571122e800156f11858007a181185c00156d122ec00156b12b78001569125f0001567118c4001565123380015631256c001561106b800155f1317400155d1072c00155b1070400155912528001557107080015551343400155312f8c0015511343c00154f1307000154d1071400154b13074001549130fc00154710718001545125bc001543135c80015411306400153f135cc00153d133b400153b135f0001539125d4001537135ec001535122c800153312540001531130b800152f1312800152d1157c00152b148b000152913030001527125c000152511774001523)
  (.lf 0)) (.nd (.lf
  0xbfa40050ec0bfdc0050ba0bfb40050c80bfe00050e20bfe40050ca0bfe80051260bfec0050c40bff40050bc0bff80050f80bffc0050ce0c0040051320c0080050f60c0180051020c01c0051280c0200051180c02400510a0c0280050be0c0380050d20c04000511c0c04c0050ee0c0540050e40c0900051340bf3c00505c0bfb00050c60bff00050cc0c0580050f00bf380050940bf1c00504a0bf280050800bf2c00508a0bf580050a00c2e400510e0bf480050a60c0680051300b8740050380bf4000505e0ba140050720bfc40050b60c06400512c0c02c0051040bfb80050d60ba100050700c06000512a0c05c00511a0babc00503a0ba040050660bf0c0050880ba0c00506e0ba0000504e0b97c0050680bed80050320b9780050400c03c0050d40c0700050f40c0300050c00c00c0050fa0c06c0050f20c0780051080c0100050fc0c01400513c0c0940051360c0340051060c04400511e0c05000513a)
  (.lf 0))) (.nd (.nd (.lf
  0xd840005aac0d844005ac20d848005aae0d85c005ab00d870005b160d860005ab20d874005ab40d87c005ad00d88c005b000d858005aec0d890005aba0d868005ac80d894005ae20d898005aca0d89c005b260d8a0005ac40d8a8005abc0d8ac005af80d8b0005ace0d8b8005b320d8bc005af60d8cc005b020d8d0005b280d8d4005b180d8d8005b0a0d8dc005abe0d8ec005ad20d8f4005b1c0d900005aee0d908005ae40d944005b340d7e0005a5c0d864005ac60d8a4005acc0d90c005af00d800005a940d7d4005a4a0d56c005a800d570005a8a0d7f0005aa00d994005b0e0d804005aa60d91c005b300d538005a380d7e4005a5e0d564005a720d878005ab60d918005b2c0d8e0005b040d86c005ad60d560005a700d914005b2a0d910005b1a0d7b4005a3a0d54c005a660d554005a880d55c005a6e0d2c8005a4e0d528005a680d488005a320d524005a400d8f0005ad40d924005af40d8e4005ac0)
  (.lf 0)) (.nd (.lf
  0x1838800a93a1840c00a9381835800a9101838000a920183c400a9221835c00a912183d400a92e1832800a9241834400a93e1827000a8961827800a89e181d800a87e1824800a87c1828000a8a8182bc00a914182c000a8e6182f000a8d8182f800a8fe1829c00a8dc182a400a8ea182c400a8e8182a800a8b8182a000a8de182ac00a8e0182f400a8da1820c00a8501821400a85615c4c00a01015c5400a01215c5800a01c15c8800a01a1550000a0301548400a082153e800a0421550400a04c1562000a0761563000a058154fc00a0621561800a03c1562400a0781561c00a03e15aa000a04415aa400a04615aac00a05215a9400a06a15a9c00a0901561400a03415a9800a08415ab000a06415ab800a0481563400a05a15ac000a0861563800a07a15ac800a09215acc00a06c1563c00a03615af000a05415adc00a07415aec00a08c15b0c00a09815b0000a06015b2000a08e15b2800a09a15b2c00a09c)
  (.lf 0)))

def aesWireTree28 : BTree :=
  .nd (.nd (.nd (.lf
  0x238cc013c86238d4013c7a238e0013c922395c013c6c2393c013c3623b24013c5423978013c7423980013c8c23b4c013c9823b44013c6023984013c8e23b50013c9a23b54013c9c23b64013ca223b40013caa23b60013ca423b6c013cac23b84013cc223b7c013cae23b80013cb023ba4013d1623bb8013cb223bbc013cb423bcc013cd023bdc013d0023bfc013cec23c60013cba23b94013cc823c14013ce223b98013cca23ba8013d2623b88013cc423c64013cbc23be4013cf823bb4013cce23c04013d3223c18013cf623be0013d0223bb0013d2823bac013d1823b8c013d0a23c7c013cbe23bd0013cd223b68013d1c23c00013cee23c1c013ce423bec013d3423b28013c5c23b90013cc623b9c013ccc23c20013cf023b34013c9423958013c4a23968013c802397c013c8a23b5c013ca023c6c013d0e23b38013ca623c44013d30238b0013c3823b2c013c5e23974013c7223bc8013cb623c40013d2c)
  (.lf
  0x235380128022357c012800215ac012a0e21584012a0c21560012a0a21570012a0821578012a062154c012a0421594012a02215a0012a0021d70012c0e21d90012c0c21dd4012c0a21d98012c0821d88012c0621dcc012c0421df0012c0221e00012c0021360012e0e21338012e0c21340012e0a21368012e0821310012e062135c012e0421330012e0221328012e002259401300e225d801300c2264001300a225d00130082261c01300622638013004225f00130022262c0130002313c01320e2314c01320c2311801320a231440132082313401320623110013204230d8013202231040132002212801340e2214001340c2236401340a2212c0134082213801340622354013404223c80134022214c013400223a801360e222ec01360c2233401360a223900136082231c0136062240801360422308013602223a001360021b9c01380e21bcc01380c21b3801380a21bac01380821bb801380621bc0013804))
  (.nd (.lf
  0xbb6c0054920bb7000546c0b9f80054360bb940054540bb800054740bb9000548c0bbb00054980bba40054600bbc400548e0bbcc00549a0bbd000549c0bbd40054a20bbc00054aa0bbc80054a40bbec0054ac0bbf00054c20bbf40054ae0bc080054b00bc1c0055160bc0c0054b20bc200054b40bc280054d00bc380055000bc040054ec0bc3c0054ba0bc140054c80bc400054e20bc440054ca0bc480055260bc4c0054c40bc540054bc0bc580054f80bc5c0054ce0bc640055320bc680054f60bc780055020bc7c0055280bc800055180bc8400550a0bc880054be0bc980054d20bca000551c0bcac0054ee0bcb40054e40bcf00055340bb9c00545c0bc100054c60bc500054cc0bcb80054f00bb980054940bb6000544a0bb880054800bb8c00548a0bbb80054a00c2a000550e0bba80054a60bcc80055300baa00054380bba000545e0bb7c0054720bc240054b60bcc400552c0bc8c0055040bc180054d6)
  (.lf 0))) (.nd (.nd (.lf
  0x1f1ec00204f1f5e400204d1f84c00204b1f2680020491c2800020471f5700020451f5300020431f2500020411f70800203f1f25400203d1f26c00203b1f6300020391f2700020371f2780020351f81c0020331f9b80020311f4c400202f1f70c00202d1f7a800202b1f73c0020291f5c40020271f5c00020251d1180020231c9f00020211d11c00201f1f23000201d1f49000fa181f63c00201b1f5580020191f5400020171f9bc0020151f8800020131f1e40020111ddb800200f1dde800200d1fe0400200b1de1c0020091ddc40020071fe8c0020051ddc80020031c9b80020011d500001fff1d504001ffd1fd9c001ffb1de30001ff91fda0001ff71fc60001ff51de04001ff31fc78001ff120588001fef1fdc8001fed2060c001feb1fcdc001fe92058c001fe71fd40001fe520808001fe31fc3c001fe11fc50001fdf1fe88001fdd1fd74001fdb1ca18001fd91d3b8001fd71fdf0001fd51fd3c001fd3)
  (.lf 0)) (.nd (.lf
  0x1d75c00f0ca1d86000f1261d72800f0c41d7b000f0bc1d7b800f0f81d74c00f0ce1d7f400f1321d78c00f0f61d77800f1021d76000f1281d7e400f1181d72400f10a1d7ac00f0be1d7a000f0d21d73c00f11c1d80800f0ee1d79400f0e41d77c00f1341d7c400f10c1d69000f05c1d75400f0c61d76400f0cc1d81400f0f01d68800f0941d6ec00f04a1d6dc00f0801d6e000f08a1d6bc00f0a01d7c800f10e1d6d000f0a61d86c00f1301d69800f0381d69400f05e1d6b400f0721d79800f0b61d86400f12c1d7cc00f1041d76800f0d61d6b000f0701d82800f12a1d81800f11a1cf0000f03a1d6ac00f0661d68c00f0881d67c00f06e1ce6400f04e1d66000f0681d27000f0321cd7400f0401d7a400f0d41d83800f0f41d7b400f0c01d7bc00f0fa1d82400f0f21d84000f1081d7c000f0fc1d80000f13c1d7f800f1361d7d000f1061d7d400f11e1d80c00f13a1d7fc00f1381d7e800f1101d7d800f120)
  (.lf 0)))

def aesWireTree29 : BTree :=
  .nd (.nd (.nd (.lf
  0xf3c8004d060f3d4004d1e0f458004d3a0f3c0004d380f41c004d100f454004d200f46c004d220f428004d120f3ec004d2e0f33c004d240f420004d3e0ea88004c960f2f4004c9e0e780004c7e0ea08004c7c0ea84004ca80f360004d140f310004ce60f364004cd80f39c004cfe0f2e4004cdc0f2f0004cea0f314004ce80f2e0004cb80f2e8004cde0f2ec004ce00f384004cda0e8e4004c500e8e8004c560c7a80011d70ccb80011d50d36c0011d30e7e80011d10b8940011cf0cd200011cd0c8140011cb0d2700011c90b7740011c70b7c80011c50b9100011c30da300011c10d4080011bf0ba200011bd0b8e80011bb0b8e40011b90eac40011b70e7ac0011b50e79c0011b30e9140011b10e6fc0011af0e7400011ad0d2bc0011ab0c8300011a90c7c80011a70d5940011a5107800011a30d3740011a10ccb400119f0c78000119d0d5cc00119b0d4a00011990ccec0011970cd140011950d304001193)
  (.lf 0)) (.nd (.lf
  0x9c38003e400d158003ed40d18c003ef40d14c003ec00d128003efa0d188003ef20d194003f080d12c003efc0d130003f3c0d1b0003f360d150003f060d160003f1e0d16c003f3a0d1b4003f380d340003f100d164003f200d1a0003f220d344003f120d1a4003f2e0d11c003f240d350003f3e0d068003e960d070003e9e09b70003e7e0d040003e7c0d078003ea80d0b4003f140d0b8003ee60d0e8003ed80d0f0003efe0d094003edc0d09c003eea0d0bc003ee80d0a0003eb80d098003ede0d0a4003ee00d0ec003eda0cffc003e5009e44003e560a07c003a100a084003a120a088003a1c0a0a4003a1a09c30003a3009ef4003a8209e18003a4209e24003a4c09d98003a7609da0003a5809eec003a6209e1c003a3c09ed8003a7809ee8003a3e09edc003a4409ee0003a4609ef0003a5209ecc003a6a09ed4003a9009e14003a3409ed0003a8409ef8003a6409f00003a4809da4003a5a09f08003a86)
  (.lf 0))) (.nd (.nd (.lf
  0xf824006b2a0f820006b1a0f6c4006a3a0f688006a660f690006a880f698006a6e0f53c006a4e0f664006a680f4c0006a320f660006a400f800006ad40f834006af40f7f4006ac00f7d0006afa0f830006af20f83c006b080f7d4006afc0f7d8006b3c0f858006b360f7f8006b060f808006b1e0f814006b3a0f85c006b380fce0006b100f80c006b200f848006b220fcec006b120f84c006b2e0f7c4006b240fce4006b3e0f718006a960f6fc006a9e0f150006a7e0f6a4006a7c0f720006aa80f75c006b140f760006ae60f790006ad80f798006afe0f73c006adc0f744006aea0f764006ae80f748006ab80f740006ade0f74c006ae00f794006ada0f540006a500f544006a5615494009e1015448009e12153f4009e1c154a0009e1a13540009e30148d0009e82148c8009e4215220009e4c1348c009e7613498009e58148cc009e62149a0009e3c1350c009e78149a4009e3e15154009e4415158009e46)
  (.lf 0)) (.nd (.lf
  0x1568000a26a1568800a290155bc00a2341568400a2841569c00a264156a400a248155dc00a25a156ac00a286155e000a27a156b400a292156b800a26c155e400a236156dc00a254156c800a274156d800a28c156f800a298156ec00a2601570c00a28e1571400a29a1571800a29c1571c00a2a21570800a2aa1571000a2a41573400a2ac1573800a2c21573c00a2ae1575000a2b01576400a3161575400a2b21576800a2b41577000a2d01578000a3001574c00a2ec1578400a2ba1575c00a2c81578800a2e21578c00a2ca1579000a3261579400a2c41579c00a2bc157a000a2f8157a800a2ce157b000a332157b400a2f6157cc00a302157d000a328157d400a318157d800a30a157e400a2be157f400a2d2157fc00a31c1580800a2ee1581000a2e41588400a334157a400a30c156e400a25c1575800a2c61579800a2cc1581400a2f0156e000a294156a800a24a156d000a280156d400a28a1570000a2a0)
  (.lf 0)))

def aesWireTree30 : BTree :=
  .nd (.nd (.nd (.lf
  0x9e000150c0092000145c009940014c6009d40014cc00a500014f00091c0014940090000144a0090c0014800091000148a0093c0014a0009f400150e0092c0014a600a60001530008940014380092400145e008f8001472009a80014b600a5c00152c00a240015040099c0014d6008f400147000a5800152a00a5400151a0087c00143a008d0001466008e0001488008f000146e0087800144e0086c001468008680014320086400144000a340014d400a6c0014f400a280014c0009f80014fa00a680014f200a74001508009fc0014fc00a0000153c00a9800153600a2c00150600a3c00151e00a4800153a00a9c00153800a1800151000a4000152000a8000152200a1c00151200a8800152e009e800152400a0400153e009300014960093800149e008b000147e0090800147c009400014a80097c001514009800014e6009b00014d8009b80014fe0095c0014dc009640014ea009840014e8009680014b8)
  (.lf
  0x74b80174000711c01760e06dd401760c06dec01760a0712c01760806d980176060712801760406dd001760206dbc01760006b9c01680e068a001680c068b401680a06b540168080685401680606b840168040688c0168020687801680005ff8016a0e05fa4016a0c05fb8016a0a05ffc016a0805f58016a0605ff4016a0405f90016a0205f7c016a0007b04016c0e07bcc016c0c07c40016c0a07a70016c0807abc016c0607aa0016c0407b74016c0207b30016c00065ac016e0e062dc016e0c062e0016e0a06594016e08062c0016e06065a4016e04062d8016e02062d4016e000576001600e0577c01600c0578001600a057340160080575c0160060575401600405778016002057740160000666401620e05cd801620c05cf001620a065b401620805c880162060660401620405cc001620205cac01620005d2801640e0541001640c0542801640a05d84016408053c001640605d24016404053f8016402))
  (.nd (.lf
  0xc4b4002b180c4b8002b0a0c4bc002abe0c4cc002ad20c4d4002b1c0c4e0002aee0c4e8002ae40c528002b340c3d0002a5c0c444002ac60c484002acc0c4ec002af00c3cc002a940c3b0002a4a0c3bc002a800c3c0002a8a0c3ec002aa00c7f4002b0e0c3dc002aa60c4fc002b300b0fc002a380c3d4002a5e0c3a8002a720c458002ab60c4f8002b2c0c4c0002b040c44c002ad60c3a4002a700c4f4002b2a0c4f0002b1a0b124002a3a0c388002a660c394002a880c3a0002a6e0a414002a4e0b0f0002a680c354002a320b0ec002a400c4d0002ad40c504002af40c4c4002ac00c4a0002afa0c500002af20c50c002b080c4a4002afc0c4a8002b3c0c52c002b360c4c8002b060c4d8002b1e0c4e4002b3a0c530002b380c7f8002b100c4dc002b200c518002b220c7fc002b120c51c002b2e0c494002b240c804002b3e0c3e0002a960c3e8002a9e0a51c002a7e0c3b8002a7c0c3f0002aa80c42c002b14)
  (.lf 0))) (.nd (.nd (.lf
  0x80480178ac0804c0178c2080500178ae080640178b008078017916080680178b20807c0178b4080840178d008094017900080600178ec080980178ba080700178c80809c0178e2080a00178ca080a4017926080a80178c4080b00178bc080b40178f8080bc0178ce080c4017932080c80178f6080e0017902080e4017928080e8017918080ec01790a080f80178be081080178d20811001791c0811c0178ee081240178e40816c01793407ff801785c0806c0178c6080ac0178cc081280178f007ff401789407fd801784a07fe401788007fe801788a080140178a0080cc01790e080040178a60813801793007f3801783807ffc01785e07fd0017872080800178b60813401792c080b801790c080fc017904080740178d607fcc0178700813001792a0812c01791a07ea801783a07fb801786607f6401788807fc801786e07f8801784e07f2c01786807f5801783207e840178400810c0178d4081440178f4)
  (.lf 0)) (.nd (.lf
  0x17c1c00dcfa17c8c00dcf217c9800dd0817c2000dcfc17c2400dd3c17cc000dd3617c5000dd0617c6000dd1e17c6c00dd3a17cc400dd3817c3c00dd1017c6400dd2017ca400dd2217c4000dd1217cac00dd2e17c0c00dd2417c2800dd3e17b5400dc9617b5c00dc9e17af000dc7e17b2c00dc7c17b6400dca817ba000dd1417ba400dce617bd400dcd817bdc00dcfe17b8000dcdc17b8800dcea17ba800dce817b8c00dcb817b8400dcde17b9000dce017bd800dcda177d800dc50177dc00dc5619b0000d41019b0800d41219b0c00d41c19b3c00d41a1899000d430193b800d48218a3000d44218a3400d44c1995800d4761996c00d458193b400d4621995000d43c1995c00d4781995400d43e193ac00d444193ec00d4461996400d4521993c00d46a1994c00d490194ac00d434194a400d484193bc00d4641997000d4481997800d45a194b000d4861997c00d47a1998000d4921998400d46c194b800d436)
  (.lf 0)))

def aesWireTree31 : BTree :=
  .nd (.nd (.nd (.lf
  0x1487800181b16614009a1816618001819165fc0018171668c00181516cb000181316828001811147fc00180f15f5c00180d15f3c00180b1629800180915f4c00180715f6c001805161e400180315f7000180114b740017ff14ce00017fd14e080017fb161940017f915f800017f7161980017f5162780017f315f7c0017f1162580017ef1718c0017ed170d80017eb173c40017e9161e80017e7171800017e5162b40017e3174100017e1163680017df162f00017dd162240017db161f40017d914cc80017d714c300017d516ed80017d3162b00017d1163900017cf162b80017cd163600017cb166d40017c9162280017c7163a40017c51622c0017c3161900017c1171840017bf16ec80017bd161d40017bb181940017b9163ac0017b714be00017b5163b00017b3163640017b1181a00017af163bc0017ad167a00017ab1819c0017a916cac0017a7163c00017a5163cc0017a3163d80017a11539400179f)
  (.lf 0)) (.nd (.lf
  0x13dd800823013ff800828213fc800824213ffc00824c13fe000827613ff400825813fcc00826213fd000823c13fe400827813fd400823e13fd800824413fdc00824613fec00825213fb000826a13fc400829013fb800823413ee400828414000008264140080082481400c00825a140100082861401800827a1401c0082921402000826c140300082361404c008254140380082741404800828c140680082981405c0082601407c00828e1408400829a1408800829c1408c0082a2140780082aa140800082a4140a40082ac140a80082c2140ac0082ae140c00082b0140d4008316140c40082b2140d80082b4140e00082d0140f0008300140bc0082ec140f40082ba140cc0082c8140f80082e2140fc0082ca14100008326141040082c41410c0082bc141100082f8141180082ce14120008332141240082f61413c00830214140008328141440083181414800830a141540082be141640082d21416c00831c)
  (.lf 0))) (.nd (.nd (.lf
  0x222c0142d8022340142fe021d80142dc021e00142ea022000142e8021e40142b8021dc0142de021e80142e0022300142da021300142500213801425604ec401521004ecc01521204ed001521c04f0c01521a04d0c01523004d3001528204cf001524204d3401524c04d1401527604d2c01525804d0801526204cf401523c04d1801527804d0401523e04cf801524404cfc01524604d2401525204cdc01526a04cec01529004d1001523404ce001528404d3801526404d4001524804d4401525a04d4801528604d5001527a04d5401529204d5801526c04d6801523604d8401525404d7001527404d8001528c04da001529804d9401526004db401528e04dbc01529a04dc001529c04dc40152a204db00152aa04db80152a404ddc0152ac04de00152c204de40152ae04df80152b004e0c01531604dfc0152b204e100152b404e180152d004e2801530004df40152ec04e2c0152ba04e040152c804e300152e2)
  (.lf 0)) (.nd (.lf
  0x212a4012f18212a8012f0a212ac012ebe212bc012ed2212c4012f1c212d0012eee212d8012ee421318012f34211c0012e5c21234012ec621274012ecc212dc012ef0211bc012e9421184012e4a211ac012e80211b0012e8a211dc012ea02134c012f0e211cc012ea6212ec012f3020fb4012e38211c4012e5e211a0012e7221248012eb6212e8012f2c212b0012f042123c012ed62119c012e70212e4012f2a212e0012f1a210ac012e3a2117c012e662118c012e8821198012e6e21000012e4e21158012e6820f70012e3221154012e40212c0012ed4212f4012ef4212b4012ec021290012efa212f0012ef2212fc012f0821294012efc21298012f3c2131c012f36212b8012f06212c8012f1e212d4012f3a21320012f3821354012f10212cc012f2021308012f2221358012f122130c012f2e21284012f2421350012f3e211d0012e96211d8012e9e21170012e7e211a8012e7c211e0012ea82121c012f14)
  (.lf 0)))

def aesWireTree32 : BTree :=
  .nd (.nd (.nd (.lf
  0x17f0000000017d0000000017b00000000179000000001770000000017500000000173000000001710000000016f0000000016d0000000016b00000000169000000001670000000016500000000163000000001610000000015f0000000015d0000000015b00000000159000000001570000000015500000000153000000001510000000014f0000000014d0000000014b00000000149000000001470000000014500000000143000000001410000000013f0000000013d0000000013b00000000139000000001370000000013500000000133000000001310000000012f0000000012d0000000012b00000000129000000001270000000012500000000123000000001210000000011f0000000011d0000000011b00000000119000000001170000000011500000000113000000001110000000010f0000000010d0000000010b0000000010900000000107000000001050000000010300000000101)
  (.lf
  0x12fc800960a12fac00620012f8400620c0af6c00340c0af6400340a12f8000960012f7c0096020c824002c000c818002c020af600034000af5c0034020c3200054000c31c0054020c31800540c0c31000540a1271c00640a0e4700044000e45800440c0e45400440a0af5800300c0af5400300a12670006400125e400640c10f9800580210eb400580a0af500030000af4800300212f7800900212f7400900c12f7000900a10e6000580010558006c02118b4007c000da1c005c0012f6c00900012f6800940212f6400940c12f5c00940a10554006c000a4a80012020a45000120c0a3fc00120a12f580094000a3c8000a020a38c000a0c0a360000a0a0a3400012000b344002e020b330002e0c0b328002e0a0a320000a000da10005a020da08005a0c0d9fc005a0a0b324002e000c30c0056020c30800560c0c30400560a0d9f4005a000feb0004e020fe00004e0c0fd90004e0a0c3000056000e44c004200))
  (.nd (.lf
  0xf8a8006c480f8b4006c5a0f600006c860f8cc006c7a0f8d4006c920f608006c6c0f4f4006c360f624006c540f8b0006c740f8d0006c8c0f8e4006c980f8c0006c600f8f0006c8e0f8f8006c9a0f8fc006c9c0f900006ca20f8ec006caa0f8f4006ca40f918006cac0f91c006cc20f920006cae0f934006cb00f948006d160f938006cb20f94c006cb40f954006cd00f964006d000f930006cec0f968006cba0f940006cc80f96c006ce20f970006cca0f974006d260f978006cc40f980006cbc0f984006cf80f988006cce0f990006d320f994006cf60f9a4006d020f9a8006d280f9ac006d180f9b0006d0a0f9b4006cbe0f9c4006cd20f9cc006d1c0f9d8006cee0f9e0006ce40fa1c006d340f8b8006c5c0f93c006cc60f97c006ccc0f9e4006cf00f8d8006c940f8ac006c4a0f61c006c800f620006c8a0f8c8006ca00fd04006d0e0f8dc006ca60f9f4006d300f5e8006c380f8bc006c5e0f614006c72)
  (.lf 0))) (.nd (.nd (.lf
  0x18ca000bd1218bec00bd2e18c9800bd2418c5c00bd3e18ae000bc9618b0800bc9e14cb000bc7e18ab400bc7c18b5400bca818b7400bd1418b6000bce618b9400bcd818bbc00bcfe18b3800bcdc18b4400bcea18b6400bce818b5000bcb818b3c00bcde18b4000bce018bac00bcda1875800bc501876000bc56151b000be10151cc00be12151fc00be1c151d400be1a14d2c00be3014cd400be8214d3000be4214cd800be4c14e3000be7614e2800be5814d3c00be6214e4800be3c14e3400be7814e4c00be3e14d3400be4414d3800be4614e2400be5214eb000be6a14e5800be9014dfc00be3414df000be8414d4000be6414e5000be4814e3800be5a14df800be8614e3c00be7a14e5c00be9214eb400be6c14e0000be3614e4000be5414ec800be7414ff000be8c14ed400be9814eac00be6014ff400be8e14ff800be9a14ffc00be9c1500000bea214e6c00beaa1501000bea41501400beac1501800bec2)
  (.lf 0)) (.nd (.lf
  0x2678014eaa02680014ea4026a4014eac026a8014ec2026ac014eae026c0014eb0026d4014f16026c4014eb2026d8014eb4026e0014ed0026f0014f00026bc014eec026f4014eba026cc014ec8026f8014ee2026fc014eca02700014f2602704014ec40270c014ebc02710014ef802714014ece0271c014f3202720014ef602730014f0202734014f2802738014f180273c014f0a02740014ebe02750014ed202758014f1c02764014eee0276c014ee4027a8014f3402654014e5c026c8014ec602708014ecc02770014ef002650014e9402634014e4a02640014e8002644014e8a02670014ea0043cc014f0e02660014ea602780014f30025c8014e3802658014e5e0262c014e72026dc014eb60277c014f2c02744014f04026d0014ed602628014e7002778014f2a02774014f1a025b0014e3a02604014e6602614014e8802624014e6e025ac014e4e025a0014e680259c014e3202598014e4002754014ed4)
  (.lf 0)))

def aesWireTree33 : BTree :=
  .nd (.nd (.nd (.lf
  0x10780008fa010d80008f2010e40009080107c0008fc0108000093c01100000936010a0000906010b000091e010bc00093a01104000938035a0000910010b4000920010f0000922035ac000912010f400092e0106c000924035a400093e00fb800089600fc000089e00f3800087e00f9000087c00fc80008a801004000914010080008e6010380008d8010400008fe00fe40008dc00fec0008ea0100c0008e800ff00008b800fe80008de00ff40008e00103c0008da00f3c00085000f4400085600eb8000c1000ec0000c1200ec4000c1c00ee0000c1a00d00000c3000d24000c8200ce4000c4200d28000c4c00d08000c7600d20000c5800cfc000c6200ce8000c3c00d0c000c7800cf8000c3e00cec000c4400cf0000c4600d18000c5200cd0000c6a00ce0000c9000d04000c3400cd4000c8400d2c000c6400d34000c4800d38000c5a00d3c000c8600d44000c7a00d48000c9200d4c000c6c00d5c000c36)
  (.lf 0)) (.nd (.lf
  0x11a7c00606e10d7400604e11a480060681190400603211a4400604011e2c0060d411e600060f411e200060c011dfc0060fa11e5c0060f211e6800610811e000060fc11e0400613c11e8800613611e2400610611e3400611e11e4000613a11e8c006138124d800611011e3800612011e74006122124dc00611211e7800612e11df0006124124e800613e11d4400609611d2800609e10de800607e11a8800607c11d4c0060a811d8800611411d8c0060e611dbc0060d811dc40060fe11d680060dc11d700060ea11d900060e811d740060b811d6c0060de11d780060e011dc00060da1190c0060501191000605607050017e1007058017e120705c017e1c07088017e1a06ebc017e3006e80017e8206eac017e4206e84017e4c06b30017e7606ed0017e5806eb0017e6206e78017e3c06b34017e7806e7c017e3e06eb4017e4406eb8017e4606ec8017e5206e4c017e6a06e54017e9006ec0017e3406e50017e84)
  (.lf 0))) (.nd (.nd (.lf
  0xfaa400684a0fac00068800fac400688a1058c0068a01066000690e0fabc0068a6106d00069300fa5c0068380fcc400685e1057c006872105dc0068b6106c800692c105f400690c10698006904105e80068d610578006870106c400692a1067c00691a0f50400683a0fcd40068660faa00068880fa8c00686e0f50c00684e0fa7c0068680f5880068320fa64006840106180068d4106800068f41063c0068c0106f00068fa106780068f2106a00069081071c0068fc1065c00693c1068c0069361069c006906106a400691e106bc00693a1069000693810664006910106a8006920106ac00692210668006912106cc00692e106140069241066c00693e0faac0068961058800689e0f65400687e0fa9800687c0facc0068a8105d40069141061c0068e6106440068d8106500068fe105b40068dc105c00068ea106200068e8105ac0068b8105b80068de105bc0068e0106480068da0f58c0068500f510006856)
  (.lf 0)) (.nd (.lf
  0x175f400ac12175f800ac1c1769400ac1a1743000ac30173dc00ac821742000ac421638c00ac4c1637800ac761744400ac581742400ac621638800ac3c173d000ac78173d800ac3e1742800ac441742c00ac461743c00ac52173f400ac6a173fc00ac901743400ac34173f800ac841744800ac641745000ac481745400ac5a1740400ac86173e000ac7a1740c00ac921745800ac6c1746800ac361748400ac541747000ac741748000ac8c174a000ac981749400ac60174b400ac8e174bc00ac9a174c000ac9c174c400aca2174b000acaa174b800aca4174dc00acac174e000acc2174e400acae174f800acb01750c00ad16174fc00acb21751000acb41751800acd01752800ad00174f400acec1752c00acba1750400acc81753000ace21753400acca1753800ad261753c00acc41754400acbc1754800acf81755000acce1755800ad321755c00acf61757400ad021757800ad281757c00ad181758000ad0a)
  (.lf 0)))

def aesWireTree34 : BTree :=
  .nd (.nd (.nd (.lf
  0x222bc0136f6222880137022224c01372822274013718223fc01370a222540136be2225c0136d22226001371c222c80136ee222c40136e42228c0137342219c01365c222200136c6223100136cc222cc0136f0221c0013694221ec01364a221d8013680221dc01368a221b40136a02239401370e221d00136a6222dc01373020d9c013638221a001365e221b80136722223c0136b6222d801372c2238c01370c22290013704222280136d6221ac013670222d401372a222d001371a21eac01363a221a80136662218c0136882218801366e21eb801364e21e4c0136682217401363221e44013640222640136d4223140136f4223980136c0222fc0136fa222e40136f2222e8013708223000136fc222c001373c222ac013736222940137062229801371e2232c01373a222b0013738224000137102232401372022328013722224040137122231801372e222f8013724223a401373e221c4013696221b001369e)
  (.lf
  0xcf680038060d2200038040b5dc00220e0b6040022080b60c0022060b5f40022040b61c0022020c79c002c0e0c76c002c0c0c770002c0a0c7dc002c080c758002c060c7c0002c040af1400360e0aefc0036080a8c40036060af0c0036040d3f40030c10d1e00030bf0da840030bd0d3080030bb0d2040030b90d3b80030b70df4c0030b50da600030b30d3e40030b10d1e80030af0db1c0030ad0d3100030ab0d1d40030a90d3a80030a70db5c0030a50da500030a30d3880030a10daf400309f0dae400309d0d37800309b0d3d80030990df8c0030970df880030950da6c0030930d1fc0030910daa800308f0d32400308d0d39c00308b0d40c0030890db640030870da340030850d3600030830e8d00030810e85800307f0e73400307d0e80000307b0e7f80030790e9840030770eabc0030750e7e00030730e7bc0030710e8a400306f0e82000306d0e74400306b0e7100030690e7640030670e988003065))
  (.nd (.lf
  0x92780181320927c0180f60928c01810209290018128092940181180929801810a0929c0180be092ac0180d2092b401811c092c00180ee092c80180e409304018134091b001805c092240180c6092640180cc092cc0180f0091ac0180940919001804a0919c018080091a001808a091cc0180a00969c01810e091bc0180a6092dc01813009068018038091b401805e09188018072092380180b6092d801812c092a00181040922c0180d609184018070092d401812a092d001811a08a4c01803a09170018066090c40180880918001806e0914001804e09088018068090c001803208a40018040092b00180d4092e40180f4092a40180c0092800180fa092e00180f2092ec018108092840180fc0928801813c09308018136092a8018106092b801811e092c401813a0930c018138096a0018110092bc018120092f8018122096a4018112092fc01812e09274018124096ac01813e091c0018096091c801809e)
  (.lf 0))) (.nd (.nd (.lf
  0x1f9a801166e1f96c01164e1f7380116681f8040116321f730011640204200116d42049c0116f4204180116c0204300116fa204280116f220474011708204380116fc2043401173c20464011736204700117062047c01171e204bc01173a204680117382044c011710204a0011720204a4011722204500117122049401172e20400011724204fc01173e1f99c0116961fac801169e1f5b401167e2033c01167c2038c0116a820398011714203a40116e6204040116d8204540116fe203680116dc203780116ea203bc0116e82036c0116b8203700116de203740116e0204080116da1f9700116501f97c0116561da50011e101da78011e121dab8011e1c1da74011e1a1d8bc011e301d4dc011e821d8d8011e421d454011e4c1d60c011e761d940011e581d900011e621d608011e3c1d628011e781d610011e3e1d8dc011e441d8e0011e461d8d0011e521d89c011e6a1d88c011e901d8c0011e341d894011e84)
  (.lf 0)) (.nd (.lf
  0x1905400c90418fcc00c8d618ea000c8701908800c92a1908400c91a18f1400c83a18e8c00c86618e9400c88818e9c00c86e18e5000c84e18e3000c86818e6400c83218e1000c8401906400c8d41909c00c8f41905800c8c01902800c8fa1909800c8f2190a400c9081902c00c8fc1903000c93c190c800c9361905c00c9061906c00c91e1907800c93a190cc00c9381904800c9101907000c920190b000c9221904c00c912190b800c92e1901800c9241903400c93e18f6800c89618f4c00c89e18e4000c87e18eac00c87c18f7000c8a818fac00c91418fb000c8e618fe000c8d818fe800c8fe18f8c00c8dc18f9400c8ea18fb400c8e818f9800c8b818f9000c8de18f9c00c8e018fe400c8da18e7800c85018e5400c8561b38800c0101b39000c0121b39400c01c1b3bc00c01a1a6b800c0301a75400c0821a6d800c0421a6dc00c04c1b1e000c0761b1f400c0581a75000c0621b1d800c03c1b1e400c078)
  (.lf 0)))

def aesWireTree35 : BTree :=
  .nd (.nd (.nd (.lf
  0xd3c40040300e1b00040820d3fc0040420d40000404c0da980040760db480040580df6c0040620da9400403c0df540040780df6800403e0df5c0040440df600040460df800040520df7400406a0df780040900da900040340df7c0040840e1bc0040640dfa80040480db4c00405a0e1b40040860e1c400407a0e1c80040920e1cc00406c0db500040360e1f40040540e1e40040740e1ec00408c0e2240040980e20c0040600e1f000408e0e22800409a0e22c00409c0e2440040a20e21c0040aa0e2040040a40e2500040ac0e2540040c20e2640040ae0e2740040b00e2800041160e2880040b20e2900040b40e2ac0040d00e2a80041000e2680040ec0e2a00040ba0e2840040c80e2b00040e20e2dc0040ca0e2e00041260e3300040c40e2b40040bc0e2b80040f80e2480040ce0e2700041320e3040040f60e3180041020e2f40041280e28c0041180e35800410a0e2c00040be0e2c80040d20e24c00411c)
  (.lf 0)) (.nd (.lf
  0x2e94014ab802e8c014ade02e98014ae002ee0014ada02e00014a5002e08014a5605c7001621005c7801621205c7c01621c05ca801621a05adc01623005a9401628205acc01624205a9801624c0546401627605af001625805ad001626205aa401623c0546801627805ab001623e05ad401624405ad801624605ae801625205a6801626a05a7001629005ae001623405a6c01628405af401626405afc01624805b0001625a05a9c0162860546c01627a05aac01629205b0401626c05b1401623605b3001625405b1c01627405b2c01628c05b4c01629805b4001626005b6001628e05b6801629a05b6c01629c05b700162a205b5c0162aa05b640162a405b880162ac05b8c0162c205b900162ae05ba40162b005bb801631605ba80162b205bbc0162b405bc40162d005bd401630005ba00162ec05bd80162ba05bb00162c805bdc0162e205be00162ca05be401632605be80162c405bf00162bc05bf40162f8)
  (.lf 0))) (.nd (.nd (.lf
  0x11268007e7c11264007ea8112ec007f14112fc007ee611304007ed811314007efe11290007edc112a0007eea11300007ee8112a4007eb811298007ede1129c007ee011308007eda10f00007e5010efc007e5610070007610100780076121007c00761c1009800761a0fedc0076300fe980076820fe800076420fee800764c0fdb00076760fdbc0076580fed80076620fe8400763c0fdb40076780fed400763e0fe880076440fe8c0076460fe940076520fec400766a0fecc0076900fee00076340fec80076840feec0076640fef40076480fdc000765a0fef80076860fdc400767a0ff000076920ff0400766c0ff140076360ff300076540ff1c0076740ff2c00768c0ff4c0076980ff400076600ff6000768e0ff6800769a0ff6c00769c0ff700076a20ff5c0076aa0ff640076a40ff880076ac0ff8c0076c20ff900076ae0ffa40076b00ffb80077160ffa80076b20ffbc0076b40ffc40076d00ffd4007700)
  (.lf 0)) (.nd (.lf
  0x1698400b2ca1698800b3261698c00b2c41699400b2bc1699800b2f8169a000b2ce169a800b332169ac00b2f6169c400b302169c800b328169cc00b318169d000b30a169dc00b2be169ec00b2d2169f400b31c16a0000b2ee16a0800b2e416a5000b3341699c00b30c168dc00b25c1695000b2c61699000b2cc16a0c00b2f0168d800b294168bc00b24a168c800b280168cc00b28a168f800b2a0169b000b30e168e800b2a616a1c00b3301678800b238168e000b25e168b400b2721696400b2b616a1800b32c169e000b3041695800b2d6168b000b27016a1400b32a16a1000b31a167d000b23a1689400b266168a000b288168ac00b26e167cc00b24e1678000b2681686000b2321677c00b240169f000b2d416a2800b2f4169e400b2c0169b400b2fa16a2400b2f216a3000b308169b800b2fc169bc00b33c16a5400b336169e800b306169f800b31e16a0400b33a16a5800b338169d400b310169fc00b320)
  (.lf 0)))

def aesWireTree36 : BTree :=
  .nd (.nd (.nd (.lf
  0x847400097f0846800097d084ec00097b084800009790852c000977084600009750845c000973084c400097107b6800096f07bc400096d08af400096b07af800096908a7400096707ebc00096507c2c00096308d2c00096108f3800095f08f6800095d0905800095b08f640009590913400095708f5000095508f30000953090a80009510935c00094f0934400094d096bc00094b09378000949096540009470933c00094509354000943096e40009410845000093f0846400093d084e800093b0845800093908528000937084540009350844c000933084c000093107b6400092f07bc000092d08af000092b07af400092908a6c00092707eb800092507c2800092308d2800092108d3000091f08f2c00091d0905000091b08f600009190913000091708f4c00091508d24000913090a00009110933800090f0933000090d096b400090b09370000909096780009070932400090509328000903096b8000901)
  (.lf
  0x181a4002a7516ed0002a7317190002a7116eb4002a6f166dc002a6d162fc002a6b162a8002a6916398002a67170e8002a65170b0002a6316380002a6116370002a5f162f8002a5d17418002a5b173e8002a5916220002a57173cc002a5516260002a5316280002a51161a0002a4f16234002a4d1630c002a4b16218002a49162c0002a4716214002a4516ee0002a431684c002a4116cb8002a3f16810002a3d16688002a3b166d0002a391670c002a3716778002a3516744002a3316844002a31167c4002a2f16624002a2d166c4002a2b166a8002a2916704002a2716774002a25166b0002a23165ec002a2116850002a1f16818002a1d1a408002a1b1a3e0002a191665c002a171a3c8002a151675c002a1316628002a1116838002a0f167f0002a0d1660c002a0b165f8002a091666c002a07166f0002a0516798002a0314cf0002a0114b5c0029ff14d1c0029fd14c780029fb14c240029f914b840029f7))
  (.nd (.lf
  0x8ca801830608cb801831e08cc401833a08d0c0183380902401831008cbc01832008cf80183220902801831208cfc01832e08c740183240902001833e08bc001829608bc801829e08aec01827e08b9801827c08bd00182a808c0c01831408c100182e608c400182d808c480182fe08bec0182dc08bf40182ea08c140182e808bf80182b808bf00182de08bfc0182e008c440182da08b5401825008a880182560ac7c0030100ac840030120ac8800301c0aca400301a0aae80030300a66c0030820a6540030420aaf400304c0a5b80030760a5c40030580aae40030620a65800303c0a5bc0030780aae000303e0a65c0030440a6600030460a6680030520aad000306a0aad80030900aaec0030340aad40030840aaf80030640ab000030480a5c800305a0ab040030860a5cc00307a0ab0c0030920ab1000306c0ab200030360ab3c0030540ab280030740ab3800308c0ab580030980ab4c0030600ab6c00308e)
  (.lf 0))) (.nd (.nd (.lf
  0x1d1d8001ea319e18001ea11b3a8001e9f1a388001e9d19d70001e9b1b530001e9919dc4001e971ce50001e951a34c001e9319db8001e911b3e8001e8f1b3c0001e8d19e2c001e8b1a354001e89196cc001e8719d90001e851b3e0001e831ccf0001e811be64001e7f19b58001e7d1ab20001e7b1a154001e791aab0001e771c2d4001e751cdfc001e7319e68001e71198f4001e6f19b2c001e6d1b3cc001e6b1acc8001e691b40c001e671b3c8001e651a390001e631b400001e611b4e0001e5f1b534001e5d19b44001e5b1b53c001e591b4b4001e571efb0001e551b65c001e531efb4001e511b3ec001e4f1b3d8001e4d1efac001e4b1b444001e491b508001e471ab80001e451a190001e431813c001e411b598001e3f1b59c001e3d1b45c001e3b1a358001e391a3a4001e371b41c001e351b430001e331a378001e3119de0001e2f1b4f0001e2d1a38c001e2b1a398001e291b418001e271b3dc001e25)
  (.lf 0)) (.nd (.lf
  0x1db8c011ae81daf0011ab81daf4011ade1daf8011ae01dba4011ada1d580011a501d568011a561ea540106101ea980106121ea5801061c1eaa801061a1e2800106301e2f00106821e2040106421e22801064c1e4b40106761e3f80106581e30c0106621e3fc01063c1e4b80106781e40001063e1e3100106441e3600106461e40c0106521e3f001066a1e3e40106901e2d40106341e3000106841e3140106641e4ac0106481e40801065a1e3040106861e4bc01067a1e4c00106921e8e001066c1e2d80106361e91c0106541e9000106741e8f801068c1e9340106981e9500106601e90401068e1e93801069a1e9a001069c1e9a40106a21e92c0106aa1e9480106a41e9540106ac1e9580106c21e9640106ae1e9680106b01e98c0107161e9700106b21e9b40106b41e9bc0106d01ea700107001e9ec0106ec1e9cc0106ba1e9780106c81ea080106e21e97c0106ca1e9900107261e9600106c41e9d80106bc)
  (.lf 0)))

def aesWireTree37 : BTree :=
  .nd (.nd (.nd (.lf
  0xb3fc00249e0b00c00247e0b41400247c0b4340024a80b64c0025140b6680024e60b6e80024d80b7000024fe0b6580024dc0b6640024ea0b66c0024e80b67c0024b80b65c0024de0b6600024e00b6ec0024da0b3cc0024500b3b40024560a314000f290a324000f2703750000f25019b4000f2303514000f2103590000f1f0a544000f1d09be4000f1b03de4000f1903de8000f1703534000f15019ac00041603dd8000f1303604000f110b04c000f0f0a31c000f0d09a08000f0b036f8000f090a6b8000f0709d00000f050365c000f0303660000f0103d74000eff019b0000efd03658000efb09bf8000ef909cb4000ef7035e0000ef5035e4000ef3035d4000ef103468001c16035dc000eef09abc000eed09bec000eeb0b0dc000ee909a90000ee709a84000ee509a80001c1409a88000ee309a8c000ee10346c000edf036d8000edd019a8000edb09c54000ed909b84000ed703564000ed503570000ed3)
  (.lf 0)) (.nd (.lf
  0x58640158b2058780158b4058800158d0058900159000585c0158ec058940158ba0586c0158c8058980158e20589c0158ca058a0015926058a40158c4058ac0158bc058b00158f8058b40158ce058bc015932058c00158f6058d0015902058d4015928058d8015918058dc01590a058e00158be058f00158d2058f801591c059040158ee0590c0158e405978015934057f401585c058680158c6058a80158cc059100158f0057f0015894057d401584a057e0015880057e401588a058100158a00600401590e058000158a60592001593005500015838057f801585e057cc0158720587c0158b60591c01592c058e4015904058700158d6057c80158700591801592a0591401591a0544c01583a057b401586605514015888057c401586e0578401584e054f0015868054d001583205448015840058f40158d4059280158f4058e80158c0058c40158fa059240158f205930015908058c80158fc058cc01593c)
  (.lf 0))) (.nd (.nd (.lf
  0x1a8801409801a7c01406001a9c01408e01aa401409a01aa801409c01aac0140a201a980140aa01aa00140a401ac40140ac01ac80140c201acc0140ae01ae00140b001af401411601ae40140b201af80140b401b000140d001b1001410001adc0140ec01b140140ba01aec0140c801b180140e201b1c0140ca01b2001412601b240140c401b2c0140bc01b300140f801b380140ce01b4001413201b440140f601b5c01410201b6001412801b6401411801b6801410a01b740140be01b840140d201b8c01411c01b980140ee01ba00140e401c2801413401a7401405c01ae80140c601b280140cc01ba40140f001a7001409401a5401404a01a6001408001a6401408a01a900140a001b4801410e01a800140a601bb4014130019e801403801a7801405e01a4c01407201afc0140b601bb001412c01b3401410c01b7801410401af00140d601a4801407001bac01412a01ba801411a019d001403a01a24014066)
  (.lf 0)) (.nd (.lf
  0x1917c00ce6e18df400ce4e18ec400ce681913000ce3218d3400ce40192c000ced4192f800cef4192b400cec01928400cefa192f400cef21930000cf081928800cefc1928c00cf3c1932400cf36192b800cf06192c800cf1e192d400cf3a1932800cf38192a400cf10192cc00cf201930c00cf22192a800cf121931400cf2e1927400cf241929000cf3e191bc00ce96191c400ce9e18ed800ce7e1919400ce7c191cc00cea81920800cf141920c00cee61923c00ced81924400cefe191e800cedc191f000ceea1921000cee8191f400ceb8191ec00cede191f800cee01924000ceda1915000ce5018df800ce561a32c00ca101a33400ca121a33800ca1c1a36c00ca1a18d8400ca3019ef800ca8219ee400ca4219efc00ca4c1a1b000ca761a1b800ca5819ee800ca621a1a800ca3c1a1b400ca781a1ac00ca3e19eec00ca441a19c00ca4619ef400ca521910800ca6a1a1a400ca9019ee000ca341910c00ca84)
  (.lf 0)))

def aesWireTree38 : BTree :=
  .nd (.nd (.nd (.lf
  0x2291001264622a78012652229f801266a229e401269022a1001263422a24012684229ec012664229dc0126482299c01265a22a28012686229b401267a22a44012692229fc01266c22a1401263622a7c01265422a2001267422a3c01268c22a9801269822b8c01266022a4001268e22a9c01269a22b9001269c22b9c0126a222aac0126aa22aa40126a422ab00126ac22ab80126c222de80126ae22dec0126b022e2001271622df00126b222df40126b422e080126d022ea401270022bb40126ec22e000126ba22e2c0126c822e4c0126e222e300126ca22e2401272622ac00126c422e380126bc22e100126f822ba00126ce22bbc01273222e500126f622ea801270222e3401272822e2801271822abc01270a22e040126be22e0c0126d222ba401271c22bb80126ee22e680126e422eac01273422a8c01265c22e180126c622e3c0126cc22e6c0126f022a8001269422a1c01264a22a3401268022a3801268a)
  (.lf
  0x19d6c00d00819d2c00d00619d8000d0041811800da0e180e800da081811400da061810c00da041ccc000c40e1cc8c00c4081ccbc00c4061ccb000c4041ccd800c4021931c00ce0e192f000ce081931800ce061931000ce0417aac00d80e17ac000d80c17a8000d80817aa800d80617aa000d8041aa6400c20e1aa2c00c2081aa5c00c2061aa5400c2041aa7800c2021a13000cc0e1a14c00cc0c1a15000cc0a1a0fc00cc081a12c00cc061a12400cc04196b800d60e1968c00d608196b400d606196ac00d6041b5440035c11b4e80035bf1b3f80035bd1b4540035bb1b4800035b91b86c0035b71b4b00035b51ba800035b31b48c0035b11b5b40035af1b5180035ad1b46c0035ab1b3d40035a91b4200035a71b6080035a51b4d40035a31b4600035a11b5a000359f1b50c00359d1efdc00359b1f00c0035991b3f00035971efb80035951b4b80035931b5800035911b53800358f1b50000358d1b41000358b))
  (.nd (.lf
  0xfa50006e760fa54006e580fb04006e620fa4c006e3c0faf0006e780fb00006e3e0faf4006e440faf8006e460fb08006e520fae4006e6a0faec006e900f634006e340fae8006e840fb10006e640fb18006e480fa58006e5a0fb20006e860fb28006e7a0fb2c006e920fb30006e6c0f640006e360fb54006e540fb40006e740fb50006e8c0fb70006e980fb64006e600fb84006e8e0fb8c006e9a0fb90006e9c0fb94006ea20fb80006eaa0fb88006ea40fbac006eac0fbb0006ec20fbb4006eae0fbc8006eb00fbdc006f160fbcc006eb20fbe0006eb40fbe8006ed00fbf8006f000fbc4006eec0fbfc006eba0fbd4006ec80fc00006ee20fc04006eca0fc08006f260fc0c006ec40fc14006ebc0fc18006ef80fc1c006ece0fc24006f320fc28006ef60fc38006f020fc3c006f280fc40006f180fc44006f0a0fc48006ebe0fc58006ed20fc60006f1c0fc6c006eee0fc74006ee40fcb0006f340fb5c006e5c)
  (.lf 0))) (.nd (.nd (.lf
  0x204e400228520eec0022831ef6c00228120e7400227f2013800227d20fe400227b200cc0022792015000227720f640022752015400227320f180022712011000226f20ef400226d2108000226b233280022692108400226720a7400226520e840022631ef040022612331c00225f2102000225d1eedc00225b233680022592134400225720fd000225520f5400225320f24002251207e800224f229c000224d207c000224b2078800224920b200022471dab4011e182275c002245235b00022431ed400102141ed440022411ed0c00223f2048400223d1ecfc00223b216e000223920b1c002237204f4002235238a0002233209ac00223120a5c00222f2112c00222d20f0800222b20f000022291ef5c011c1420f8400222720f040022252109800222320ee80022211eed400221f2014400221d1eee8011c161eeec00221b20158002219201180022171ef900022152011c0022131e8800022111e85400220f)
  (.lf 0)) (.nd (.lf
  0x1c8c800ecb21c8dc00ecb41c8e400ecd01c8f400ed001c8c000ecec1c8f800ecba1c8d000ecc81c8fc00ece21c90000ecca1c90400ed261c90800ecc41c91000ecbc1c91400ecf81c91c00ecce1c92400ed321c92800ecf61c94000ed021c94400ed281c94800ed181c94c00ed0a1c95800ecbe1c96800ecd21c97000ed1c1c97c00ecee1c98400ece41c9d800ed341c91800ed0c1c85800ec5c1c8cc00ecc61c90c00eccc1c98800ecf01c85400ec941c81800ec4a1c84400ec801c84800ec8a1c87400eca01c92c00ed0e1c86400eca61c99800ed301c7f800ec381c85c00ec5e1c83800ec721c8e000ecb61c99400ed2c1c95c00ed041c8d400ecd61c83400ec701c99000ed2a1c98c00ed1a1c30c00ec3a1c81000ec661c82000ec881c83000ec6e1c7a800ec4e1c7dc00ec681c2d000ec321c7d800ec401c96c00ecd41c9a400ecf41c96000ecc01c93000ecfa1c9a000ecf21c9ac00ed081c93400ecfc)
  (.lf 0)))

def aesWireTree39 : BTree :=
  .nd (.nd (.nd (.lf
  0x13618008c881364c008c6e13628008c4e13604008c6813150008c3213600008c4013734008cd4137e8008cf41372c008cc0137d0008cfa137e4008cf2137f0008d08137d4008cfc137d8008d3c13788008d361379c008d06137a0008d1e137a8008d3a1378c008d38137c4008d10137a4008d20137fc008d22137c8008d1213810008d2e1373c008d24137cc008d3e13690008c96136b8008c9e135fc008c7e13650008c7c136a0008ca8136e4008d1413758008ce613754008cd813764008cfe13770008cdc1377c008cea1375c008ce813718008cb813774008cde13778008ce013760008cda13670008c50136a8008c5614ae800981014af000981214cc000981c14a9800981a149240098301341400988214938009842134cc00984c134b0009876149ac00985814950009862134ac00983c134b4009878134e400983e149580098441496000984614970009852148f800986a148f000989014930009834)
  (.lf 0)) (.nd (.lf
  0x1cf1400f2381d3ac00f25e1dc6c00f2721dd0000f2b61ddec00f32c1dd4400f3041dcd000f2d61dc6800f2701ddd400f32a1ddd000f31a1d2d400f23a1dc6400f2661d35000f2881d1d000f26e1d1c400f24e1cf1c00f2681d34800f2321cf1000f2401dd1400f2d41dd9c00f2f41dd2000f2c01dd7400f2fa1dd9800f2f21dda400f3081dd7800f2fc1dd3000f33c1dd4c00f3361dd5000f3061dd5800f31e1dd6800f33a1dd5400f3381dd8800f3101dd6400f3201dddc00f3221dd8c00f3121ddf400f32e1dd7c00f3241dd9000f33e1d3a000f2961dc7000f29e1cdf800f27e1d36c00f27c1d39800f2a81dcd800f3141dce800f2e61dd1c00f2d81dd3800f2fe1dc9400f2dc1dca400f2ea1dcec00f2e81dc9800f2b81dc9c00f2de1dca800f2e01dd2400f2da1d35c00f2501d33400f25607a8c016c1007a94016c1207a98016c1c07b2c016c1a078d0016c300716c016c82078c0016c42071f0016c4c)
  (.lf 0))) (.nd (.nd (.lf
  0x202c0012cc020940012f001f7400129401f5800124a01f6400128001f6800128a01f940012a00376400130e01f840012a6020a400133001eec00123801f7c00125e01f50001272020000012b6020a000132c0206800130401ff40012d601f4c0012700209c00132a0209800131a01ed400123a01f2800126601f3800128801f4800126e01ed000124e01ec400126801ec000123201ebc001240020780012d4020ac0012f40206c0012c0020480012fa020a80012f2020b40013080204c0012fc0205000133c020d4001336020700013060208000131e0208c00133a020d80013380377400131002084001320020c000132203778001312020c400132e0203c0013240376800133e01f8800129601f9000129e01f0800127e01f6000127c01f980012a801fd400131401fd80012e6020080012d8020100012fe01fb40012dc01fbc0012ea01fdc0012e801fc00012b801fb80012de01fc40012e00200c0012da)
  (.lf 0)) (.nd (.lf
  0xfeac00747613a9c00745813a800074620fea800743c13a6800747813a7c00743e13a7000744413a7400744613a9400745213a5800746a13a6000749013a8800743413a5c00748413aa400746413aac00744813ab000745a13ab400748613abc00747a13ac000749213ac400746c13ad400743613af000745413adc00747413aec00748c13b0c00749813b0000746013b2000748e13b2800749a13b2c00749c13b300074a213b1c0074aa13b240074a413b480074ac13b4c0074c213b500074ae13b640074b013b7800751613b680074b213b7c0074b413b840074d013b9400750013b600074ec13b980074ba13b700074c813b9c0074e213ba00074ca13ba400752613ba80074c413bb00074bc13bb40074f813bb80074ce13bc000753213bc40074f613bd400750213bd800752813bdc00751813be000750a13be40074be13bf40074d213bfc00751c13c080074ee13c100074e413c6c00753413af800745c)
  (.lf 0)))

def aesWireTree40 : BTree :=
  .nd (.nd (.nd (.lf
  0x64e000057f0650400057d071a000057b064ac000579072b40005770655c0005750653000057307154000571053ec00056f0540000056d05d4c00056b053c800056905d8c000567054300005650541800056305d3000056105cb400055f05cc800055d0660c00055b05c90000559065bc00055705cf800055505ce00005530666c000551059a000054f059c400054d0605000054b0596c000549060e800054705a14000545059ec00054306098000541064dc00053f0650000053d0719800053b064a8000539072b0000537065580005350652c00053307148000531053e800052f053fc00052d05d4800052b053c400052905d880005270542c0005250541400052305d2c00052105cb000051f05cc400051d0660800051b05c8c000519065b800051705cf400051505cdc000513066680005110599000050f059c000050d0604c00050b05968000509060fc00050705a10000505059dc00050306014000501)
  (.lf
  0xe4d00026750b1040026730c3500026710a40c00266f09d2800266d09ab000266b09a9c0026690a4b80026670b0e80026650b12000266309d480026610a46c00265f0a43000265d0c54000265b0c59800265909cac0026570c5740026550a35c00265309d580026510a48800264f0a44000264d09ac800264b035f000264909c9c0026470a4c00026450b1440026430a64c0026410a5ac00263f0a2fc00263d03dd400263b03dc80026390aac80026370a56800263509d1000263309cec0026310a69000262f0a59400262d03d9000262b0366c00262909ae80026270a6d00026250a55000262309cd80026210a5fc00261f0a5d800261d03d8c00261b0365000261909bd40026170acb80026150a55c0026130a6740026110a62800260f0a58400260d043fc00260b03df40026090a6c80026070a6dc0026050a54000260309e0400260109de80025ff09d700025fd0cd6c0025fb0cda40025f909b0c0025f7))
  (.nd (.lf
  0x626c016ed206274016f1c06280016eee06288016ee4062c4016f3406170016e5c061e4016ec606224016ecc0628c016ef00616c016e9406150016e4a0615c016e8006160016e8a0618c016ea006598016f0e0617c016ea60629c016f3006070016e3806174016e5e06148016e72061f8016eb606298016f2c06260016f04061ec016ed606144016e7006294016f2a06290016f1a059f8016e3a06130016e66060c4016e8806140016e6e06100016e4e06060016e68060b8016e32059d0016e4006270016ed4062a4016ef406264016ec006240016efa062a0016ef2062ac016f0806244016efc06248016f3c062c8016f3606268016f0606278016f1e06284016f3a062cc016f380659c016f100627c016f20062b8016f22065a0016f12062bc016f2e06234016f24065a8016f3e06180016e9606188016e9e0605c016e7e06158016e7c06190016ea8061cc016f14061d0016ee606200016ed806208016efe)
  (.lf 0))) (.nd (.nd (.lf
  0x1a600001bc7173a4001bc517824001bc31a5c4001bc117360001bbf1a7fc001bbd15c40001bbb1a800001bb91818c001bb71a66c001bb5173c0001bb31a674001bb11ca74001baf1a798001bad1cabc001bab1a72c001ba91a6c8001ba71ca78001ba51a6cc001ba31a6a8001ba117134001b9f178ac001b9d1521c001b9b1a810001b991a858001b971a6ec001b951a7a0001b931a720001b911a620001b8f1a60c001b8d1a6c0001b8b1a82c001b8917358001b871a830001b851a708001b831a604001b811a7b4001b7f1a730001b7d1816c001b7b1a734001b791a624001b77173b8001b75173bc001b731a650001b711a654001b6f1a808001b6d18184001b6b1a6fc001b691a630001b671762c001b6517668001b6317630001b61175d8001b5f176ac001b5d176a0001b5b1773c001b5917f14001b5717884001b5517f18001b5317ef4001b51176cc001b4f176d0001b4d17718001b4b16c5c001b49)
  (.lf 0)) (.nd (.lf
  0x1edb0011c5e1eda4011c721ee70011cb61eec8011d2c1ef40011d041ee2c011cd61eda0011c701eec4011d2a1eec0011d1a1d554011c3a1ed9c011c661d5fc011c881d564011c6e1ed84011c4e1d4a8011c681d5a8011c321d4a4011c401ee84011cd41ef0c011cf41ef38011cc01ef2c011cfa1ef08011cf21ef4c011d081ef30011cfc1eeb8011d3c1eea0011d361ef44011d061ef48011d1e1ef60011d3a1eea4011d381ef14011d101ef50011d201ef54011d221ef18011d121eee0011d2e1ee7c011d241ef1c011d3e1edc8011c961edb4011c9e1d428011c7e1d5b8011c7c1ee04011ca81ee14011d141ee10011ce61ee68011cd81ee90011cfe1ede4011cdc1edec011cea1ee44011ce81edf0011cb81ede8011cde1edf4011ce01ee6c011cda1ed88011c501ed8c011c561e8d40104101e9100104121e8b801041c1e8a401041a1e3b40104301e4940104821e4340104421e4a401044c1e744010476)
  (.lf 0)))

def aesWireTree41 : BTree :=
  .nd (.nd (.nd (.lf
  0x15ac000258015880002620157400023c015980002780158400023e015780002440157c000246015a40002520155c00026a0156c0002900159000023401560000284015b8000264015c0000248015c400025a015c8000286015d000027a015d4000292015d800026c015e800023601604000254015f00002740160000028c01620000298016140002600163400028e0163c00029a0164000029c016440002a2016300002aa016380002a40165c0002ac016600002c2016640002ae016780002b00168c0003160167c0002b2016900002b4016980002d0016a8000300016740002ec016ac0002ba016840002c8016b00002e2016b40002ca016b8000326016bc0002c4016c40002bc016c80002f8016cc0002ce016d4000332016d80002f6016e8000302016ec000328016f0000318016f400030a016f80002be017080002d20171000031c0171c0002ee017240002e4017600003340160c00025c016800002c6)
  (.lf 0)) (.nd (.lf
  0x25700010120257400101c0259400101a023b0001030023d400108202394001042023d800104c023b8001076023d0001058023ac0010620239800103c023bc001078023a800103e0239c001044023a0001046023c80010520238000106a02390001090023b400103402384001084023dc001064023e4001048023e800105a023ec001086023f400107a023f8001092023fc00106c0240c00103602428001054024140010740242400108c02444001098024380010600245800108e0246000109a0246400109c024680010a2024540010aa0245c0010a4024800010ac024840010c2024880010ae0249c0010b0024b0001116024a00010b2024b40010b4024bc0010d0024cc001100024980010ec024d00010ba024a80010c8024d40010e2024d80010ca024dc001126024e00010c4024e80010bc024ec0010f8024f00010ce024f8001132024fc0010f60250c00110202510001128025140011180251800110a)
  (.lf 0))) (.nd (.nd (.lf
  0x44d001547e045cc01547c046040154a804640015514046440154e6046740154d80467c0154fe046200154dc046280154ea046480154e80462c0154b8046240154de046300154e0046780154da045880154500443401545605740016010057480160120574c01601c0577001601a05594016030054cc016082055840160420553c01604c04fa8016076055a8016058055880160620555001603c04fac0160780555801603e0558c01604405590016046055a00160520554401606a0554c0160900559801603405530016084055ac016064055b4016048055b801605a0554001608604fb001607a05554016092055bc01606c055cc016036055e8016054055d4016074055e401608c05604016098055f80160600561801608e0562001609a0562401609c056280160a2056140160aa0561c0160a4056400160ac056440160c2056480160ae0565c0160b005670016116056600160b2056740160b40567c0160d0)
  (.lf 0)) (.nd (.lf
  0x1d03800f6ec1d07000f6ba1d04800f6c81d07400f6e21d07800f6ca1d07c00f7261d08000f6c41d08800f6bc1d08c00f6f81d09400f6ce1d09c00f7321d0a000f6f61d0b800f7021d0bc00f7281d0c000f7181d0c400f70a1d0d000f6be1d0e000f6d21d0e800f71c1d0f400f6ee1d0fc00f6e41d16800f7341d09000f70c1cfd000f65c1d04400f6c61d08400f6cc1d10000f6f01cfcc00f6941cfb000f64a1cfbc00f6801cfc000f68a1cfec00f6a01d0a400f70e1cfdc00f6a61d11000f7301cd5400f6381cfd400f65e1ce9800f6721d05800f6b61d10c00f72c1d0d400f7041d04c00f6d61ce9400f6701d10800f72a1d10400f71a1cf4400f63a1ce8800f6661cfa000f6881ce9000f66e1ce8400f64e1cda800f6681cf6c00f6321cda400f6401d0e400f6d41d12400f6f41d0d800f6c01d0a800f6fa1d12000f6f21d12c00f7081d0ac00f6fc1d0b000f73c1d16c00f7361d0dc00f7061d0ec00f71e)
  (.lf 0)))

def aesWireTree42 : BTree :=
  .nd (.nd (.nd (.lf
  0x21d60012cfc21d48012d3c21db0012d3621db8012d0621dbc012d1e21dc8012d3a21db4012d3821d50012d1021dc0012d2021dc4012d2221d54012d1221d84012d2e21d18012d2421d4c012d3e21c54012c9621c74012c9e21148012c7e21c18012c7c21c60012ca821cb0012d1421cc8012ce621d08012cd821d58012cfe21cd8012cdc21ce0012cea21ccc012ce821cf4012cb821cdc012cde21cec012ce021d34012cda21c44012c5021060012c5622628013010225ec013012225cc01301c2262001301a223dc01303021f24013082223e801304221e9801304c2247001307622450013058223f40130622244001303c224740130782248001303e223ec013044223f0013046224340130522242401306a22444013090223e00130342237c013084223f8013064224840130482245401305a223800130862247801307a224480130922243001306c223e401303622438013054224b00130742247c01308c)
  (.lf
  0x1662000332d166c000332b166a40033291670000332716770003325166ac003323165e80033211682400331f167b800331d1a3c400331b1a3bc003319166580033171a3b400331516750003313165d80033111683400330f167b000330d1660800330b165e400330916668003307166ec0033051675800330314cec00330114b580032ff14d180032fd14c740032fb14c200032f914b800032f714c3c0032f514c000032f31876c0032f114e780032ef14b480032ed14d480032eb14c880032e914b380032e714ba40032e514bc40032e314bf80032e114cfc0032df14b640032dd187400032db14c900032d914b2c0032d718a7c0032d514be40032d314ccc0032d114e0c0032cf14de80032cd14d200032cb14c800032c914b940032c714bd00032c514bb40032c3124ec00600e124c400600811e7c006006124e00060040fce8006a0e0fcf4006a080f850006a060fcf0006a0413cac00740e13d38007408))
  (.nd (.lf
  0x3fe40150c003fc00150fa040200150f20402c01510803fc40150fc03fc801513c0405801513603fe801510603ff801511e0400401513a0405c015138040ec01511003ffc01512004038015122040f00151120403c01512e03fb4015124040d001513e03f0001509603f0801509e03e3801507e03ed801507c03f100150a803f4c01511403f500150e603f800150d803f880150fe03f2c0150dc03f340150ea03f540150e803f380150b803f300150de03f3c0150e003f840150da03e9c01505003ea401505605168015c1005170015c1205174015c1c051a0015c1a04514015c3004fdc015c8204fbc015c4204fe0015c4c03d60015c7604460015c5804fc0015c6204fc4015c3c03d64015c7804fc8015c3e04fcc015c4404fd0015c4604fd8015c5204504015c6a0450c015c9004fb8015c3404508015c8404fe4015c6404fec015c4804464015c5a04ff0015c8603d68015c7a04ff8015c9204ffc015c6c)
  (.lf 0))) (.nd (.nd (.lf
  0x20b28010e821fc9c010e421fe1c010e4c1fed0010e761fea8010e581fe20010e621feb0010e3c1fed4010e781ff5c010e3e1fd10010e441fdec010e4620554010e521fe2c010e6a1fe24010e901fea0010e341fe98010e842053c010e641ffac010e481feac010e5a20b2c010e861fed8010e7a1feb4010e921fe30010e6c1feb8010e3620558010e542054c010e7420b40010e8c20b3c010e9820574010e6020b44010e8e20b48010e9a20b58010e9c20bc0010ea220568010eaa20b4c010ea420b50010eac20b64010ec220b90010eae20b94010eb020ba4010f1620b98010eb220bcc010eb420c00010ed020cac010f0020b7c010eec20bf0010eba20bb0010ec820bd8010ee220bb4010eca20ba8010f2620b68010ec420bf8010ebc20c04010ef820bc4010ece20b84010f3220bdc010ef620cb0010f0220bbc010f2820bac010f1820b6c010f0a20bf4010ebe20c10010ed220bc8010f1c20b80010eee)
  (.lf 0)) (.nd (.lf
  0x20980010cda20818010c502082c010c5615ef400881015efc00881215f0000881c15f3800881a15d2c00883015d4800888215d14008842125d800884c1314400887615d4400885815d280088621314000883c15d1000887815d2400883e15d1800884415d1c00884615d3c00885215d0000886a15d0800889015d3000883415d0400888415d4c00886415d5400884815d5800885a15d5c00888615d6400887a15d6800889215d6c00886c15d7c00883615d9800885415d8400887415d9400888c15db400889815da800886015dc800888e15dd000889a15dd400889c15dd80088a215dc40088aa15dcc0088a415df00088ac15df40088c215df80088ae15e0c0088b015e2000891615e100088b215e240088b415e2c0088d015e3c00890015e080088ec15e400088ba15e180088c815e440088e215e480088ca15e4c00892615e500088c415e580088bc15e5c0088f815e640088ce15e6c00893215e700088f6)
  (.lf 0)))

def aesWireTree43 : BTree :=
  .nd (.nd (.nd (.lf
  0x124140014a9125180014a7125140014a513db80014a3125040014a1122d400149f104a000149d11eac00641611eb400149b104a40014991049c00149711e9c00149510520001493115900014911189400148f13ca800148d13cf000148b13e3c00148913cdc00148710498007010104b4007012104bc00701c1044c00701a0f2b8007030100c80070820f2440070420f2b000704c0fe340070760fe2c007058103240070620fe1c00703c100d00070781032c00703e100cc00704410314007046100c0007052100f000706a100e40070900fdf8007034100dc00708410328007064103300070480fe3000705a100e0007086100d400707a100e8007092100f400706c0fdfc007036100c4007054103500070741012000708c10118007098103380070601035400708e1035800709a1035c00709c103740070a2101100070aa103800070a4103840070ac104100070c21039c0070ae103a00070b0103f0007116)
  (.lf 0)) (.nd (.lf
  0x114580078aa114600078a4114840078ac114880078c21148c0078ae114a00078b0114b4007916114a40078b2114b80078b4114c00078d0114d00079001149c0078ec114d40078ba114ac0078c8114d80078e2114dc0078ca114e0007926114e40078c4114ec0078bc114f00078f8114f40078ce114fc007932115000078f61151000790211514007928115180079181151c00790a115200078be115300078d21153800791c115440078ee1154c0078e4115940079341143400785c114a80078c6114e80078cc115500078f0114300078941141400784a114200078801142400788a114500078a01186400790e114400078a611560007930113cc0078381143800785e1140c007872114bc0078b61155c00792c11524007904114b00078d6114080078701155800792a1155400791a10f4400783a113ec007866113f80078881140400786e10f4000784e113bc00786810c5400783210ea4007840115340078d4)
  (.lf 0))) (.nd (.nd (.lf
  0xbd680056540bd540056740bd6400568c0bd840056980bd780056600bd9800568e0bda000569a0bda400569c0bda80056a20bd940056aa0bd9c0056a40bdc00056ac0bdc40056c20bdc80056ae0bddc0056b00bdf00057160bde00056b20bdf40056b40bdfc0056d00be0c0057000bdd80056ec0be100056ba0bde80056c80be140056e20be180056ca0be1c0057260be200056c40be280056bc0be2c0056f80be300056ce0be380057320be3c0056f60be4c0057020be500057280be540057180be5800570a0be5c0056be0be6c0056d20be7400571c0be800056ee0be880056e40bec40057340bd7000565c0bde40056c60be240056cc0be8c0056f00bd6c0056940bd5000564a0bd5c0056800bd6000568a0bd8c0056a00c0a800570e0bd7c0056a60be9c0057300b86c0056380bd7400565e0b9d80056720bdf80056b60be9800572c0be600057040bdec0056d60b9d40056700be9400572a0be9000571a)
  (.lf 0)) (.nd (.lf
  0x15a8c00a04015c0c00a0d415c4800a0f415c0000a0c015bd000a0fa15c4400a0f215c5000a10815bd400a0fc15bd800a13c15c8000a13615c0400a10615c1400a11e15c2000a13a15c8400a13815bf000a11015c1800a12015c5c00a12215bf400a11215c6400a12e15bc000a12415bdc00a13e15b0800a09615b1000a09e15aa800a07e15ae000a07c15b1800a0a815b5400a11415b5800a0e615b8800a0d815b9000a0fe15b3400a0dc15b3c00a0ea15b5c00a0e815b4000a0b815b3800a0de15b4400a0e015b8c00a0da1562800a0501562c00a0561f49c00fa101f4a400fa121f4a800fa1c1f4ec00fa1a1ab3800fa301f2f400fa821f2d400fa421f2f800fa4c1af6400fa761af6c00fa581f2d800fa621f2dc00fa3c1af9000fa781f2e000fa3e1f2e400fa441f2e800fa461f2f000fa521afa800fa6a1afb000fa901f2d000fa341afac00fa841f2fc00fa641f30400fa481af7000fa5a1f30800fa86)
  (.lf 0)))

def aesWireTree44 : BTree :=
  .nd (.nd (.nd (.lf
  0x21684013e78217a8013e3e21640013e4421644013e462169c013e52217f4013e6a217b8013e9021784013e342178c013e84217a0013e64217ac013e482176c013e5a21798013e8621694013e7a217bc013e92217f8013e6c21790013e36217c4013e5421824013e7421808013e8c21810013e98217d0013e6021828013e8e2182c013e9a21860013e9c21868013ea2217e4013eaa21830013ea421834013eac21944013ec22183c013eae21840013eb021858013f1621844013eb221878013eb421880013ed021894013f00218c4013eec21908013eba218a8013ec8218d0013ee2218b0013eca2185c013f262195c013ec42190c013ebc21884013ef8218a0013ece218d8013f32218d4013ef62189c013f02218ac013f2821874013f1821948013f0a21910013ebe218b4013ed221870013f1c218c8013eee218e0013ee421898013f3421690013e5621698013e502188c013eda218cc013ee0218bc013ede)
  (.lf
  0x23334002e75210a0002e7320f3c002e7120f78002e6f20fec002e6d21378002e6b21034002e6920e7c002e67210d4002e6520fbc002e6321bd8002e6121058002e5f21044002e5d20ffc002e5b21140002e5920f9c002e5720e98002e5521090002e5320ee4002e5120f38002e4f20f6c002e4d20fd4002e4b21150002e4920fb0002e4720e9c002e452107c002e4321e94002e4122420002e3f21e70002e3d223d8002e3b20dc8002e3920d08002e3720d60002e3520c60002e3322f20002e3121f40002e2f20d38002e2d22374002e2b21e40002e2920cf8002e2720d54002e2520dac002e2320df0002e2121f54002e1f20d28002e1d21ee0002e1b21efc002e1920d68002e1720de4002e1520ca8002e1322150002e1121ea4002e0f21e80002e0d21e64002e0b21e30002e0920d18002e0720d98002e0520d88002e0320a68002e0120a14002dff219b4002dfd20ab4002dfb209c4002df9216f8002df7))
  (.nd (.lf
  0xdfd00044460dfe00044520dfbc00446a0dfc40044900df980044340dfc00044840dfe80044640dff00044480db1800445a0dff80044860e00000447a0e0040044920e00800446c0dfa40044360e02c0044540e0180044740e02800448c0e0480044980e03c0044600e05c00448e0e06400449a0e06800449c0e06c0044a20e0580044aa0e0600044a40e0840044ac0e0880044c20e08c0044ae0e0a00044b00e0b40045160e0a40044b20e0b80044b40e0c00044d00e0d00045000e09c0044ec0e0d40044ba0e0ac0044c80e0d80044e20e0dc0044ca0e0e00045260e0e40044c40e0ec0044bc0e0f00044f80e0f40044ce0e0fc0045320e1000044f60e1100045020e1140045280e1180045180e11c00450a0e1200044be0e1300044d20e13800451c0e1440044ee0e14c0044e40e1940045340e03400445c0e0a80044c60e0e80044cc0e1500044f00e0300044940dff400444a0e0200044800e02400448a)
  (.lf 0))) (.nd (.nd (.lf
  0x1f4d8001f591f794001f571f4d0001f551bc4c001f531bc58001f511e2e0001f4f1bc5c001f4d1f218001f4b1d87c001f491f20c00e4161f220001f471d848001f451d834001f431f1c0001f411d85c001f3f1ca14001f3d1d158001f3b1e1ec001f391eabc001f371e340001f351ead4001f331ba5000e2101bcd000e2121bc8c00e21c1ba7400e21a1b47400e2301b8cc00e2821b49400e2421b49800e24c1b5c400e2761b5d000e2581b61c00e2621b5c000e23c1b62800e2781b8d800e23e1b61400e2441b62000e2461b62400e2521b63800e26a1b63000e2901b52400e2341b65000e2841b8f400e2641b8dc00e2481b5d400e25a1b8d000e2861b64c00e27a1b63400e2921b63c00e26c1b52800e2361b91400e2541b90400e2741b90c00e28c1b92400e2981b93000e2601b91000e28e1b96c00e29a1b97000e29c1b98000e2a21b93800e2aa1b94400e2a41b94800e2ac1b95800e2c21b96400e2ae)
  (.lf 0)) (.nd (.lf
  0x1bb1c00e0c21bb2000e0ae1bb3400e0b01bb4800e1161bb3800e0b21bb4c00e0b41bb5400e0d01bb6400e1001bb3000e0ec1bb6800e0ba1bb4000e0c81bb6c00e0e21bb7000e0ca1bb7400e1261bb7800e0c41bb8000e0bc1bb8400e0f81bb8c00e0ce1bb9400e1321bb9800e0f61bbb000e1021bbb400e1281bbb800e1181bbbc00e10a1bbc800e0be1bbd800e0d21bbe000e11c1bbec00e0ee1bbf400e0e41bc3c00e1341bb8800e10c1bab800e05c1bb3c00e0c61bb7c00e0cc1bbf800e0f01bad800e0941baac00e04a1b8c000e0801b8c400e08a1bac800e0a01bb9c00e10e1badc00e0a61bc0800e1301b88000e0381babc00e05e1b8b400e0721bb5000e0b61bc0400e12c1bbcc00e1041bb4400e0d61b8b000e0701bc0000e12a1bbfc00e11a1ba8c00e03a1b89c00e0661b8a400e0881b8ac00e06e1b4f800e04e1b87400e0681b54c00e0321b4c400e0401bbdc00e0d41bc1400e0f41bbd000e0c0)
  (.lf 0)))

def aesWireTree45 : BTree :=
  .nd (.nd (.nd (.lf
  0xd3680011110ccac00110f0d24400110d0d39400110b0d1dc0011090c83c0011070d3200011050cd3c0011030daa40011010d1f80010ff0cd4c0010fd0d3cc0010fb0df400010f90da740010f70df840010f50df3c0010f30d3d00010f10d3980010ef0d3d40010ed0dae00010eb0b7f80010e90d2780010e70da800010e50cd480010e30daf00010e10d1c40010df0da4c0010dd0c8500010db0d3840010d90cce00010d70d30c0010d50af680010d30dadc0010d10d1c80010cf0c8440010cd0d3e00010cb0da5c0010c90df440010c70ccbc0010c50df480010c30d3800010c10d1f00010bf0ccd00010bd0d1f40010bb0ccdc0010b90c8480010b70d1cc0010b50d3c80010b30c7880010b10c7b40010af0d2d40010ad0d45c0010ab0cfb00010a90d2640010a70d7a40010a50c8200010a30d5000010a10d50400109f0d22800109d0c7b800109b0cf980010990c7d40010970d5780010950d7a0001093)
  (.lf 0)) (.nd (.lf
  0x9fc0003ad609f20003a700a068003b2a0a064003b1a09d94003a3a09efc003a6609f0c003a8809f1c003a6e09d90003a4e09ec8003a6809e10003a3209ec4003a400a044003ad40a078003af40a038003ac00a014003afa0a074003af20a080003b080a018003afc0a01c003b3c0a09c003b360a03c003b060a04c003b1e0a058003b3a0a0a0003b380a2d0003b100a050003b200a08c003b220a2d4003b120a090003b2e0a008003b240a2dc003b3e09f54003a9609f5c003a9e09c34003a7e09f2c003a7c09f64003aa809fa0003b1409fa4003ae609fd4003ad809fdc003afe09f80003adc09f88003aea09fa8003ae809f8c003ab809f84003ade09f90003ae009fd8003ada09e20003a5009d9c003a560aa900032100aa980032120aa9c00321c0aabc00321a09aec0032300a90800328209cf000324209cf400324c0a6a00032760a6ac0032580a9000032620a69c00323c0a8ec0032780a8fc00323e)
  (.lf 0))) (.nd (.nd (.lf
  0x15358009f0e15248009ea6153b4009f3013544009e3815238009e5e1516c009e72152d4009eb6153b0009f2c152f4009f0c153a4009f04152bc009ed615168009e7015348009f2a15344009f1a13488009e3a15164009e661490c009e8814914009e6e13490009e4e134fc009e68148bc009e32134f8009e40152f8009ed415490009ef4152e4009ec015354009efa1534c009ef215444009f081539c009efc153f0009f3c15340009f361543c009f0615440009f1e1549c009f3a15398009f381535c009f1015498009f20154a4009f2215360009f1215640009f2e152fc009f2415364009f3e1522c009e961523c009e9e1354c009e7e1524c009e7c15250009ea815288009f141530c009ee615320009ed815328009efe15298009edc152b0009eea15310009ee815294009eb8152a8009ede152ac009ee015324009eda148c4009e5013494009e5616680009a101659c009a12165c8009a1c1663c009a1a)
  (.lf 0)) (.nd (.lf
  0x17f5400da821774c00da4217f0c00da4c1787800da761787c00da5817f4c00da621787400da3c17f3800da7817f4800da3e17f3c00da4417f4000da4617f5000da5217f2c00da6a17f3400da9017f0400da3417f3000da8417f5800da6417f6000da481788000da5a17f6800da8617f7000da7a17f7400da9217f7800da6c17f1000da3617f9c00da5417f8800da7417f9800da8c17fb800da9817fac00da6017fcc00da8e17fd400da9a17fd800da9c17fdc00daa217fc800daaa17fd000daa417ff400daac17ff800dac217ffc00daae1801000dab01802400db161801400dab21802800dab41803000dad01804000db001800c00daec1804400daba1801c00dac81804800dae21804c00daca1805000db261805400dac41805c00dabc1806000daf81806800dace1807000db321807400daf61808c00db021809000db281809400db181809800db0a180a400dabe180b400dad2180bc00db1c180c800daee)
  (.lf 0)))

def aesWireTree46 : BTree :=
  .nd (.nd (.nd (.lf
  0x7c8001732007cc0016f6007dc001702007e0001728007e4001718007e800170a007ec0016be007fc0016d20080400171c008100016ee008180016e4008540017340070000165c007740016c6007b40016cc0081c0016f0006fc001694006e000164a006ec001680006f000168a0071c0016a0034dc00170e0070c0016a60082c001730006740016380070400165e006d8001672007880016b60082800172c007f00017040077c0016d6006d40016700082400172a0082000171a0065c00163a006b0001666006c0001688006d000166e0065800164e0064c0016680064800163200644001640008000016d4008340016f4007f40016c0007d00016fa008300016f20083c001708007d40016fc007d800173c00858001736007f80017060080800171e0081400173a0085c001738034e00017100080c00172000848001722034e40017120084c00172e007c4001724034ec00173e007100016960071800169e)
  (.lf
  0x476801540003cec01560e03d2001560c03d3401560a03cb801560803ce001560603cd801560403d1401560203d0001560003a3c01480e03ac001480c03af801480a039d801480803a2401480603a0801480403a7c01480203a6801480003e04014a0e02fec014a0c03004014a0a03e6c014a0802f9c014a0603e1c014a0402fd4014a0202fc0014a00049bc014c0e04a28014c0c04a4c014c0a04938014c08049a0014c0604978014c0404a04014c02049e8014c00043d4014e0e027c0014e0c027c4014e0a043e4014e08027a4014e06043e0014e04027bc014e02027b8014e0001c1401400e01c7001400c01c8401400a01bb801400801c0001400601be801400401c5c01400201c38014000037a401420e0233c01420c0235401420a0380c014208022ec014206037b0014204023240142020231001420002d2401440e02d9801440c02dd001440a02cc001440802d0c01440602cf001440402d64014402))
  (.nd (.lf
  0x108b0005ee2108b4005eca108b8005f26108bc005ec4108c4005ebc108c8005ef8108cc005ece108d4005f32108d8005ef6108e8005f02108ec005f28108f0005f18108f4005f0a108f8005ebe10908005ed210910005f1c1091c005eee10924005ee41097c005f341080c005e5c10880005ec6108c0005ecc10928005ef010808005e94107ec005e4a107f8005e80107fc005e8a10828005ea010d88005f0e10818005ea610938005f300d978005e3810810005e5e107e4005e7210894005eb610934005f2c108fc005f0410888005ed6107e0005e7010930005f2a1092c005f1a0d5bc005e3a107c4005e66107d0005e88107dc005e6e0d43c005e4e0d964005e6810790005e320d960005e401090c005ed410940005ef410900005ec0108dc005efa1093c005ef210948005f08108e0005efc108e4005f3c10980005f3610904005f0610914005f1e10920005f3a10984005f3810d8c005f1010918005f20)
  (.lf 0))) (.nd (.nd (.lf
  0x41ac015e36041c8015e54041b4015e74041c4015e8c041e4015e98041d8015e60041f8015e8e04200015e9a04204015e9c04208015ea2041f4015eaa041fc015ea404220015eac04224015ec204228015eae0423c015eb004250015f1604240015eb204254015eb40425c015ed00426c015f0004238015eec04270015eba04248015ec804274015ee204278015eca0427c015f2604280015ec404288015ebc0428c015ef804294015ece0429c015f32042a0015ef6042b8015f02042bc015f28042c0015f18042c4015f0a042d0015ebe042e0015ed2042e8015f1c042f4015eee042fc015ee404344015f34041d0015e5c04244015ec604284015ecc04300015ef0041cc015e94041b0015e4a041bc015e80041c0015e8a041ec015ea0042a4015f0e041dc015ea604310015f3004124015e38041d4015e5e041a8015e7204258015eb60430c015f2c04290015f0c042d4015f040424c015ed6041a4015e70)
  (.lf 0)) (.nd (.lf
  0x19ae400d51a1994800d43a1994400d466194b400d4881998800d46e1994000d44e193a800d468194a800d432193a400d44019ac400d4d419afc00d4f419ab800d4c019a8800d4fa19af800d4f219b0400d50819a8c00d4fc19a9000d53c19b3400d53619abc00d50619acc00d51e19ad800d53a19b3800d53819aa800d51019ad000d52019b1000d52219aac00d51219b1800d52e19a7800d52419a9400d53e199c000d496199c800d49e189d000d47e1999800d47c199d000d4a819a0c00d51419a1000d4e619a4000d4d819a4800d4fe199ec00d4dc199f400d4ea19a1400d4e8199f800d4b8199f000d4de199fc00d4e019a4400d4da1996000d4501996800d4561a10c00cc101a11400cc121a11800cc1c1a14400cc1a19eb800cc3019f6800cc8219eb400cc4218e2000cc4c18db000cc7619ec800cc5819f6000cc6218dac00cc3c19f4c00cc7819f5c00cc3e19f5000cc4419f5400cc4619f6400cc52)
  (.lf 0)))

def aesWireTree47 : BTree :=
  .nd (.nd (.nd (.lf
  0x13db4008430144b000848214468008442144a400844c13ec000847613f0c0084581447c0084621449800843c13ec4008478144a000843e1448000844414484008446144d000845213eb800846a13ebc0084901447400843413e68008484144bc008464144a800844813f1000845a144b400848613ec800847a1449c0084921448800846c14478008436144d4008454144cc0084741467c00848c146f4008498144e40084601468000848e146fc00849a1470000849c147040084a2144f00084aa146840084a4146880084ac146f80084c21468c0084ae1472c0084b014738008516147500084b2147540084b41475c0084d014808008500147180084ec147640084ba147400084c8147980084e2147440084ca1473c008526147280084c41476c0084bc147780084f8147800084ce1471c0085321479c0084f61480c00850214748008528147740085181488c00850a147680084be147600084d21470800851c)
  (.lf 0)) (.nd (.lf
  0x140980082ea140b80082e81409c0082b8140940082de140a00082e0140e80082da13fe800825013ff00082561707400ae101707c00ae121708000ae1c170a400ae1a1632000ae301628800ae821631400ae42162c400ae4c16ef800ae7616f0000ae581631800ae6216ef000ae3c16efc00ae7816ef400ae3e1631c00ae4416ee400ae461632c00ae52162dc00ae6a16eec00ae901632400ae34162d000ae841633400ae6416f0400ae4816f1000ae5a162d400ae8616f2800ae7a16f3000ae921633c00ae6c1634c00ae361635c00ae5416f0c00ae7416f2c00ae8c16f4000ae9816f1c00ae6016f4c00ae8e16f5400ae9a16f5800ae9c16f5c00aea216f4800aeaa16f5000aea416f7400aeac16f7800aec216f7c00aeae16f9000aeb016fa400af1616f9400aeb216fa800aeb416fb000aed016fc000af0016f8c00aeec16fc400aeba16f9c00aec816fc800aee216fcc00aeca16fd000af2616fd400aec4)
  (.lf 0))) (.nd (.nd (.lf
  0x54c801531204ed801532e04e500153240549801533e04d9c01529604da401529e04d1c01527e04d7401527c04dac0152a804de801531404dec0152e604e1c0152d804e240152fe04dc80152dc04dd00152ea04df00152e804dd40152b804dcc0152de04dd80152e004e200152da04d2001525004d2801525604c94015a1004c9c015a1204ca0015a1c04cbc015a1a04adc015a3004b00015a8204ac0015a4204b04015a4c04ae4015a7604afc015a5804ad8015a6204ac4015a3c04ae8015a7804ad4015a3e04ac8015a4404acc015a4604af4015a5204aac015a6a04abc015a9004ae0015a3404ab0015a8404b08015a6404b10015a4804b14015a5a04b18015a8604b20015a7a04b24015a9204b28015a6c04b38015a3604b54015a5404b40015a7404b50015a8c04b70015a9804b64015a6004b84015a8e04b8c015a9a04b90015a9c04b94015aa204b80015aaa04b88015aa404bac015aac04bb0015ac2)
  (.lf 0)) (.nd (.lf
  0x237300124e2236f40124ca2374c012526237200124c4237780124bc237140124f8236b00124ce23760012532237340124f6237100125022370401252823748012518237ec01250a237740124be236fc0124d2236b401251c237580124ee2373c0124e42375c0125342364c01245c236e00124c6237240124cc237a00124f0236740124942362401244a236900124802369401248a236600124a0237e001250e236800124a623800012530235cc0124382365001245e23664012472236dc0124b6237cc01252c23780012504236e80124d623658012470237c801252a237a401251a2296c01243a23644012466236700124882361801246e2362c01244e236040124682280c012432235f4012440237000124d4237b80124f42377c0124c0237380124fa237ac0124f2237b0012508237400124fc2380c01253c23764012536237840125062378801251e2379001253a23768012538237f00125102378c012520)
  (.lf 0)))

def aesWireTree48 : BTree :=
  .nd (.nd (.nd (.lf
  0x2a1000037f02a3800037d0448c00037b029dc000379043f400037702a8c00037502a600003730454800037102d5800036f02d6c00036d02cf800036b02d1400036902cc800036702dd800036502da000036302d2c0003610231800035f0232c00035d037b800035b022f4000359038140003570235c00035502344000353037cc00035101c4800034f01c6400034d01bf000034b01c0800034901bc000034701c8c00034501c7800034301c1c00034102a0c00033f02a3000033d0448800033b029d8000339043f000033702a8800033502a5c0003330454000033102d5400032f02d6800032d02cf400032b02d1000032902cc400032702dd400032502d9c00032302d280003210231400031f0232800031d037b400031b022f0000319038100003170235800031502340000313037c800031101c4000030f01c6000030d01bec00030b01c0400030901bbc00030701c8800030501c7400030301c18000301)
  (.lf
  0x1843400a80a1716400b0001716000b00215cc800a00c15cc000a00a1842400a8001841800a8021f87c00fa0c1f7f000fa0a15cbc00a00015cb800a002194c000ba0c1943000ba0a1f78800fa001f70400fa021715800b60c1715000b60a193c800ba001934400ba021714c00b20c1714800b20a1713c00b6001712800b6021818000aa0c1817c00aa0a1712400b2001712000b20215cb400a60c15cb000a60a1817000aa001816400aa0215ca800a20c15ca000a20a15c9c00a60015c9800a6021816000da021815800da0c1815400da0a15c9400a20019e6000d60219e5c00d60c19e5800d60a1815000da0019e3400d20219e2400d20c19e1000d20a19e0800d6001934000ce021933800ce0c1933400ce0a19df800d2001a3a000ca021a39400ca0c1a38400ca0a1933000ce001ac5c00c2001ac2400c20c1abcc00c20a1a37c00ca001d4fc00f60a1af5000fe001af4c00fe021af4800fe0a1ca6800ea0a))
  (.nd (.lf
  0xd69c005d160d68c005cb20d6a0005cb40d6a8005cd00d6b8005d000d684005cec0d6bc005cba0d694005cc80d6c0005ce20d6c4005cca0d6c8005d260d6cc005cc40d6d4005cbc0d6d8005cf80d6dc005cce0d6e4005d320d6e8005cf60d6f8005d020d6fc005d280d700005d180d704005d0a0d708005cbe0d718005cd20d720005d1c0d72c005cee0d734005ce40d778005d340d60c005c5c0d690005cc60d6d0005ccc0d738005cf00d62c005c940d600005c4a0d4f4005c800d4f8005c8a0d61c005ca00d9c4005d0e0d630005ca60d748005d300d4c0005c380d610005c5e0d4ec005c720d6a4005cb60d744005d2c0d70c005d040d698005cd60d4e8005c700d740005d2a0d73c005d1a0d5e0005c3a0d4d4005c660d4dc005c880d4e4005c6e0d2f0005c4e0d4b0005c680d468005c320d4ac005c400d71c005cd40d750005cf40d710005cc00d6ec005cfa0d74c005cf20d758005d080d6f0005cfc)
  (.lf 0))) (.nd (.nd (.lf
  0x1512c00b81c1514c00b81a14d7400b83014cf800b88214d6000b84214cf400b84c14d8800b87614ee400b85814db800b86214d5400b83c14db000b87814d5c00b83e14d6800b84414d6c00b84614d9400b85214c5000b86a14c5400b89014d7800b83414da400b88414dbc00b86414d7000b84814ee800b85a14f0800b88614db400b87a14d5800b89214d6400b86c14d7c00b83614d9800b85414dcc00b87414f1800b88c14f3000b89814ef400b86014f1c00b88e14f3800b89a14f3c00b89c14f5000b8a214f0400b8aa14f2000b8a414f2400b8ac14f7800b8c214f2c00b8ae14f3400b8b014f6c00b91614f5800b8b214f5c00b8b414f9000b8d0150c000b900150c800b8ec14fac00b8ba14f8400b8c814fc400b8e214f8800b8ca14f7000b92614f8000b8c414fb400b8bc14fd000b8f814f9c00b8ce1512000b93214fcc00b8f6150c400b90214f8c00b92814f7400b91814f7c00b90a14fb000b8be)
  (.lf 0)) (.nd (.lf
  0x2c6401450202c6801452802c6c01451802c7001450a02c7c0144be02c8c0144d202c9401451c02ca00144ee02ca80144e402d4001453402c3c01450c02b7c01445c02bf00144c602c300144cc02cac0144f002b7801449402b5c01444a02b6801448002b6c01448a02b980144a002c5001450e02b880144a602cbc01453002af001443802b8001445e02b5401447202c040144b602cb801452c02c8001450402bf80144d602b5001447002cb401452a02cb001451a02ad801443a02b2c01446602b3c01448802b4c01446e02ad401444e02ac801446802ac401443202ac001444002c900144d402cd80144f402c840144c002c540144fa02cd40144f202ce001450802c580144fc02c5c01453c02d4401453602c8801450602c9801451e02ca401453a02d4801453802c7401451002c9c01452002cec01452202c7801451202d0801452e02c4401452402c6001453e02b8c01449602b9401449e02b0c01447e)
  (.lf 0)))

def aesWireTree49 : BTree :=
  .nd (.nd (.nd (.lf
  0x1444000514014480004e6014780004d8014800004fe014240004dc0142c0004ea0144c0004e8014300004b8014280004de014340004e00147c0004da0137c0004500138400045601300000610013080006120130c00061c0132800061a011480006300116c0006820112c0006420117000064c0115000067601168000658011440006620113000063c011540006780114000063e0113400064401138000646011600006520111800066a011280006900114c0006340111c000684011740006640117c0006480118000065a011840006860118c00067a011900006920119400066c011a4000636011c0000654011ac000674011bc00068c011dc000698011d0000660011f000068e011f800069a011fc00069c012000006a2011ec0006aa011f40006a4012180006ac0121c0006c2012200006ae012340006b001248000716012380006b20124c0006b4012540006d001264000700012300006ec012680006ba)
  (.lf 0)) (.nd (.lf
  0xcf6400392e0ced80039240d21400393e0ce240038960ce2c00389e0cdc400387e0cdfc00387c0ce340038a80ce700039140ce740038e60cea40038d80ceac0038fe0ce500038dc0ce580038ea0ce780038e80ce5c0038b80ce540038de0ce600038e00cea80038da0cd840038500cd880038560e6c80028100e6d00028120e6d400281c0e70c00281a0e4f40028300e5080028820e4e40028420a52c00284c0b1100028760e5040028580e4f00028620b10c00283c0e4e00028780e4ec00283e0e5380028440e53c0028460e5440028520e52c00286a0e5340028900e4f80028340e5300028840e5480028640e5500028480e50c00285a0e5580028860e51000287a0e5600028920e56400286c0e5140028360e5880028540e5740028740e58400288c0e5a40028980e5980028600e5b800288e0e5c000289a0e5c400289c0e5c80028a20e5b40028aa0e5bc0028a40e5e00028ac0e5e40028c20e5e80028ae)
  (.lf 0))) (.nd (.nd (.lf
  0x7228018432070b40184400783c0184d4078740184f4078300184c0078000184fa078700184f20787c018508078040184fc0780801853c078a0018536078340185060784401851e0785001853a078a4018538078200185100784801852007888018522078240185120789001852e077f00185240780c01853e077380184960774001849e0726801847e0771001847c077480184a807784018514077880184e6077b80184d8077c00184fe077640184dc0776c0184ea0778c0184e8077700184b8077680184de077740184e0077bc0184da076d4018450076dc018456086f8018c1008700018c1208704018c1c08728018c1a0854c018c30084d0018c820853c018c4208504018c4c084a4018c7608560018c5808540018c62084d8018c3c084a8018c780851c018c3e08544018c4408548018c4608558018c5208514018c6a08518018c9008550018c3408508018c8408564018c640856c018c4808570018c5a)
  (.lf 0)) (.nd (.lf
  0x1b6b400e67a1b6b800e6921b6bc00e66c1b5fc00e6361b6e000e6541b6cc00e6741b6dc00e68c1b6fc00e6981b6f000e6601b71000e68e1b71800e69a1b71c00e69c1b72000e6a21b70c00e6aa1b71400e6a41b73800e6ac1b73c00e6c21b74000e6ae1b75400e6b01b76800e7161b75800e6b21b76c00e6b41b77400e6d01b78400e7001b75000e6ec1b78800e6ba1b76000e6c81b78c00e6e21b79000e6ca1b79400e7261b79800e6c41b7a000e6bc1b7a400e6f81b7ac00e6ce1b7b400e7321b7b800e6f61b7d000e7021b7d400e7281b7d800e7181b7dc00e70a1b7e800e6be1b7f800e6d21b80000e71c1b80c00e6ee1b81400e6e41b85c00e7341b7a800e70c1b6e800e65c1b75c00e6c61b79c00e6cc1b81800e6f01b6e400e6941b6a800e64a1b6d400e6801b6d800e68a1b70400e6a01b7bc00e70e1b6f400e6a61b82800e7301b68800e6381b6ec00e65e1b6c800e6721b77000e6b61b82400e72c)
  (.lf 0)))

def aesWireTree50 : BTree :=
  .nd (.nd (.nd (.lf
  0x20d5801323822fc001325e22f84013272230300132b62312401332c2308c013304230500132d622f800132702312001332a2307801331a21f4401323a22f7c01326622f3801328822f4401326e223b801324e2241001326822f2401323221e74013240230400132d4230fc0132f4230ac0132c0230b40132fa230740132f223094013308230d00132fc2308001333c2309c01333623090013306230a401331e230f401333a230a0013338230c0013310230f00133202310c013322230c40133122312801332e230cc013324230c801333e22f9001329622fe001329e21ed001327e22f5401327c22f9c0132a822ff401331422ff00132e6230440132d8230640132fe22fcc0132dc22fd80132ea230040132e822fdc0132b822fd00132de22fd40132e0230600132da22f4c013250223bc013256221040134102210c0134122212401341c2236001341a21ee401343020df401348221ef001344220df801344c)
  (.lf
  0xe37c0040080e3540040060e3740040040f0a8004a0e0f068004a080f098004a060f08c004a040c2a800540e0c2bc0054080bcec0054060c2b400540410d9c005e0e1098c005e0c10d4c005e0810968005e0610d94005e040f12000480e0f0e80048080ee600048060f13c0048040c2d000520e0c2dc0052080c2880052060c2d80052040d9cc005c0e0d790005c0c0d794005c0a0d9ec005c080d774005c060d9e0005c040d78c005c020e40000460e0e41c0046080dd340046060e40c0046040c2ec00500e0c2fc0050080c08c0050060c2f80050040d9a8005a0e0d988005a080d940005a060d9a0005a040e3c000440e0e3e80044080e1880044060e3d80044040e1a40044020f218004e0e0f1d4004e080eca0004e060f210004e0410c7c00580e10bd400580c10c2800580810ba800580610c740058040e39c00420e0e3840042080df200042060e3940042040df340042020f424004c0e0f3fc004c0c))
  (.nd (.lf
  0x67100168a606830016930066380168380670801685e066dc0168720678c0168b60682c01692c067f4016904067800168d6066d80168700682801692a0682401691a05cec01683a066bc016866066c8016888066d401686e065c801684e066280168680668801683205cd4016840068040168d4068380168f4067f80168c0067d40168fa068340168f206840016908067d80168fc067dc01693c0686c016936067fc0169060680c01691e0681801693a0687001693806b7c016910068100169200684c01692206b800169120685001692e067c801692406b9801693e067140168960671c01689e0664001687e066ec01687c067240168a806760016914067640168e6067940168d80679c0168fe067400168dc067480168ea067680168e80674c0168b8067440168de067500168e0067980168da066a8016850065ec0168560748c017410074940174120749801741c074b401741a072f80174300717c017482)
  (.lf 0))) (.nd (.nd (.lf
  0x2024401113e1fa800110961fa9801109e1f74c01107e1fa1001107c201680110a8201bc011114201a80110e6201f80110d8202480110fe201940110dc201a00110ea201ac0110e8201880110b8201980110de2019c0110e0202200110da1f9e40110501f9dc0110562106801121020e6c01121220f1001121c20f4801121a1f71c0112301fa200112821fa480112421fa4001124c1f8300112761f8440112581fa600112621fa3001123c1f8340112781fa3801123e1fa4c0112441fa500112461fa3c0112521f82c01126a1f8700112901faa80112341f7e80112841fa640112641fa5c0112481f84801125a1fa240112861f83801127a1fb040112921fa5401126c1faac0112361fa440112541fad80112741fabc01128c1fb140112981fae00112601fadc01128e1fb3c01129a1fb4001129c1fb440112a21fb1c0112aa1faf40112a41fb200112ac1fb240112c2202f80112ae202fc0112b020e0c011316)
  (.lf 0)) (.nd (.lf
  0x143d000813a14448008138143a0008110143c800812014414008122143a40081121442400812e143700081241438c00813e142b8008096142c000809e13d2000807e1429000807c142c80080a814304008114143080080e6143380080d8143400080fe142e40080dc142ec0080ea1430c0080e8142f00080b8142e80080de142f40080e01433c0080da142580080501426000805617a8c00d81017a9400d81217a9800d81c17abc00d81a177b400d830178ec00d882177b000d8421773800d84c1789c00d876178a000d858178e400d8621789800d83c178d000d878178e000d83e178d400d844178d800d846178e800d852178c400d86a178cc00d890177b800d834178c800d884178f000d864178f800d848178a400d85a1790000d8861790800d87a1790c00d8921791000d86c177c400d8361793400d8541792000d8741793000d88c1795000d8981794400d8601796400d88e1796c00d89a1797000d89c)
  (.lf 0)))

def aesWireTree51 : BTree :=
  .nd (.nd (.nd (.lf
  0xd9b40013c30f18c0013c110e0c0013bf0f0ac0013bd10d200013bb10dec0013b910c140013b71073c0013b510d580013b3107400013b11191c0013af109540013ad0f0bc0013ab10e100013a9119980013a711aa80013a511aac0013a3119940013a110dd400139f10e4000139d10de000139b119400013990e3a400139710ca8001395118f400139310754001391118fc00138f10c1800138d11ed800138b1075c00138910dbc0013870f0c400138510d780013830c3140013811192000137f109a000137d1074c00137b10e1400137911ce000137711a340013751076000137311a3800137110dc000136f1096c00136d0f0a400136b1097000136910738001367107480013651099400136310e180013610f41000135f0f44000135d10c5800135b10f3c00135910bec00135710cc000135510e700013530f49800135110fd400134f10fd800134d10c8c00134b0f43000134910bac0013470f484001345)
  (.lf 0)) (.nd (.lf
  0x15ff8009c5215fa8009c6a15fb0009c9015ff0009c3415fac009c8416004009c641600c009c4816010009c5a15fc4009c8615fcc009c7a15fd0009c9216014009c6c16024009c3616040009c541602c009c741603c009c8c1605c009c9816050009c6016070009c8e16078009c9a1607c009c9c16080009ca21606c009caa16074009ca416098009cac1609c009cc2160a0009cae160b4009cb0160c8009d16160b8009cb2160cc009cb4160d4009cd0160e4009d00160b0009cec160e8009cba160c0009cc8160ec009ce2160f0009cca160f4009d26160f8009cc416100009cbc16104009cf816108009cce16110009d3216114009cf616124009d0216128009d281612c009d1816130009d0a16134009cbe16144009cd21614c009d1c16158009cee16160009ce4161bc009d3416048009c5c160bc009cc6160fc009ccc16164009cf016044009c9416028009c4a16034009c8016038009c8a16064009ca0)
  (.lf 0))) (.nd (.nd (.lf
  0xd3f000424c0db300042760db3c0042580dd780042620db2c00423c0dd640042780dd7400423e0dd680042440dd6c0042460dd7c0042520dd5800426a0dd600042900db280042340dd5c0042840dd840042640dd8c0042480db4000425a0dd940042860dd9c00427a0dda00042920dda400426c0db440042360ddc80042540ddb40042740ddc400428c0dde40042980ddd80042600ddf800428e0de0000429a0de0400429c0de080042a20ddf40042aa0ddfc0042a40de200042ac0de240042c20de280042ae0de3c0042b00de500043160de400042b20de540042b40de5c0042d00de6c0043000de380042ec0de700042ba0de480042c80de740042e20de780042ca0de7c0043260de800042c40de880042bc0de8c0042f80de900042ce0de980043320de9c0042f60deac0043020deb00043280deb40043180deb800430a0debc0042be0decc0042d20ded400431c0dee00042ee0dee80042e40df24004334)
  (.lf 0)) (.nd (.lf
  0x187d000ba4a187dc00ba80187e000ba8a1880c00baa0188c400bb0e187fc00baa61893000bb3014bac00ba38187f400ba5e187c800ba721887800bab61892c00bb2c188f400bb041886c00bad6187c400ba701892800bb2a1892400bb1a14e8800ba3a187a800ba66187b400ba88187c000ba6e14e8400ba4e14dd400ba681877400ba3214dd000ba401890400bad41896000baf4188f800bac0188c800bafa1895c00baf21896800bb08188cc00bafc188d000bb3c18a4c00bb36188fc00bb061890c00bb1e1891800bb3a18a5000bb38188e800bb101891000bb201897400bb22188ec00bb12189a400bb2e188b800bb24188d400bb3e1880000ba961880800ba9e14de000ba7e187d800ba7c1881000baa81884c00bb141885000bae61888000bad81888800bafe1882c00badc1883400baea1885400bae81883800bab81883000bade1883c00bae01888400bada1879400ba5014e9800ba5616c2400b610)
  (.lf 0)))

def aesWireTree52 : BTree :=
  .nd (.nd (.nd (.lf
  0x6dc4000b7f06e08000b7d07234000b7b06da0000b79072d4000b7706df4000b7506ddc000b730715c000b7107b48000b6f07bac000b6d087c8000b6b07ad8000b6908798000b6707e4c000b6507be4000b63087e0000b6107e9c000b5f07e78000b5d07f1c000b5b07e50000b5907f7c000b5707e60000b5507e5c000b5307f48000b5106ad0000b4f06ae4000b4d06e3c000b4b06aac000b4906e9c000b4706b24000b4506b04000b4306e68000b4106dc0000b3f06e04000b3d07210000b3b06d9c000b39072c8000b3706df0000b3506dd8000b3307150000b3107b38000b2f07b7c000b2d087c4000b2b07ac4000b2908794000b2707c48000b2507bd4000b23087dc000b2107e2c000b1f07e34000b1d07f18000b1b07e14000b1907f78000b1707e44000b1507e3c000b1307f44000b1106acc000b0f06ae0000b0d06e38000b0b06aa8000b0906e98000b0706b20000b0506afc000b0306e64000b01)
  (.lf
  0x1bf90002c751bfe0002c731c568002c711c070002c6f1c000002c6d1bf00002c6b1bf18002c691bef0002c671bf78002c651bfdc002c631c064002c611c2c8002c5f1c2cc002c5d1c7a4002c5b1c798002c591bf70002c571c7d4002c551c308002c531c0a8002c511c010002c4f1beb8002c4d1bf44002c4b1bedc002c491bf54002c471bfb0002c451bec0002c431ce14002c411ce60002c3f1d26c002c3d1cdb8002c3b1cd70002c391d65c002c371cd44002c351cef8002c331ce70002c311d1c0002c2f1d32c002c2d1cd94002c2b1cd7c002c291cdf0002c271cf0c002c251cf34002c231cea4002c211d1ec002c1f1ccf8002c1d1ce38002c1b1ce44002c191cd24002c171cecc002c151ce0c002c131cdbc002c111ce7c002c0f1cf64002c0d1cd04002c0b1cda0002c091cd50002c071cd40002c051cf3c002c031ac48002c011ac54002bff1afbc002bfd1ab0c002bfb1ab90002bf91ab18002bf7))
  (.nd (.lf
  0x11bb00064e811b940064b811b8c0064de11b980064e011be00064da119840064501198800645605f40016a1005f48016a1205f4c016a1c05f78016a1a05dac016a3005d44016a8205d9c016a4205d80016a4c0543c016a7605dc0016a5805da0016a6205d40016a3c05440016a7805d7c016a3e05da4016a4405da8016a4605db8016a5205d6c016a6a05d60016a9005db0016a3405d5c016a8405dc4016a6405dcc016a4805dd0016a5a05d64016a8605444016a7a05d70016a9205dd4016a6c05de4016a3605e00016a5405dec016a7405dfc016a8c05e1c016a9805e10016a6005e30016a8e05e38016a9a05e3c016a9c05e40016aa205e2c016aaa05e34016aa405e58016aac05e5c016ac205e60016aae05e74016ab005e88016b1605e78016ab205e8c016ab405e94016ad005ea4016b0005e70016aec05ea8016aba05e80016ac805eac016ae205eb0016aca05eb4016b2605eb8016ac405ec0016abc)
  (.lf 0))) (.nd (.nd (.lf
  0x1c32000e8661c37c00e8881c2f400e86e1c28c00e84e1bf9c00e8681c35800e8321bf9800e8401c4a800e8d41c4f800e8f41c4b000e8c01c4dc00e8fa1c4f400e8f21c50000e9081c4e000e8fc1c4e400e93c1c47400e9361c49400e9061c4b800e91e1c4c000e93a1c47800e9381c4d400e9101c4bc00e9201c53000e9221c4d800e9121c51c00e92e1c4a000e9241c4e800e93e1c39400e8961c3bc00e89e1bf3400e87e1c36c00e87c1c3ac00e8a81c40800e9141c41000e8e61c45400e8d81c46000e8fe1c3e800e8dc1c3f000e8ea1c41400e8e81c3fc00e8b81c3ec00e8de1c40000e8e01c45800e8da1c35c00e8501c34c00e8561c33400ee101c2a400ee121c24c00ee1c1c2b800ee1a1bf5c00ee301c0ac00ee821c0b000ee421c0d800ee4c1c02400ee761c03000ee581c0b400ee621c0cc00ee3c1c02800ee781c13c00ee3e1c0b800ee441c0bc00ee461c0c800ee521c03c00ee6a1c02000ee90)
  (.lf 0)) (.nd (.lf
  0x1fe5c01086a1fe480108901ff080108341ff880108841fe540108641ff1c0108481fef401085a1ff8c0108861fefc01087a1ff140108921fe6001086c1ff200108361ff400108541ffb80108741ff9801088c1ffa0010898200080108601ffbc01088e1ffc001089a2000c01089c200140108a21ff580108aa1ffc40108a41ffc80108ac1ffd80108c21ffe40108ae1ffe80108b0200f40109161ffec0108b2200180108b42004c0108d02009c010900200300108ec200400108ba1fff80108c82006c0108e2200000108ca200fc0109261ffe00108c4200480108bc200500108f8200600108ce20038010932200700108f6200ac0109021fffc010928200f80109181ffdc01090a200440108be200d00108d22002801091c200340108ee2008c0108e4200a00109342005401090c1ff4401085c1fff00108c6200040108cc200900108f01ff4c0108941ffb401084a1ff280108801ff9401088a1ffa80108a0)
  (.lf 0)))

def aesWireTree53 : BTree :=
  .nd (.nd (.nd (.lf
  0xa3a80022420a3f000224c0b4440022760b46c0022580b0280022620b46000223c0b4480022780b46400223e0b0200022440b09c0022460b4580022520b00800226a0b0780022900b4040022340b37c0022840b02c0022640b4680022480b47000225a0b4740022860b44c00227a0b47c0022920b01800226c0b4800022360b4a00022540b4880022740b49800228c0b4c40022980b4b00022600b49c00228e0b50400229a0b50c00229c0b5100022a20b4bc0022aa0b4d00022a40b4d40022ac0b4d80022c20b4dc0022ae0b4e40022b00b4fc0023160b5080022b20b5240022b40b54c0022d00b5700023000b57c0022ec0b5640022ba0b4ec0022c80b53c0022e20b5800022ca0b5840023260b5880022c40b5900022bc0b5580022f80b5200022ce0b5a40023320b5400022f60b5740023020b4f40023280b5b00023180b4e000230a0b5b40022be0b5500022d20b51c00231c0b5cc0022ee0b5440022e4)
  (.lf 0)) (.nd (.lf
  0xca0800271c0ca140026ee0ca1c0026e40ca640027340c90400265c0c9780026c60c9b80026cc0ca200026f00c9000026940c8e400264a0c8f00026800c8f400268a0c9200026a00cc7000270e0c9100026a60ca300027300b0b40026380c90800265e0c8dc0026720c98c0026b60ca2c00272c0c9f40027040c9800026d60c8d80026700ca2800272a0ca2400271a0b6c000263a0c8bc0026660c8c80026880c8d400266e0b6bc00264e0b0ac0026680c8880026320b0a80026400ca040026d40ca380026f40c9f80026c00c9d40026fa0ca340026f20ca400027080c9d80026fc0c9dc00273c0ca680027360c9fc0027060ca0c00271e0ca1800273a0ca6c0027380cc740027100ca100027200ca4c0027220cc780027120ca5000272e0c9c80027240cc8c00273e0c9140026960c91c00269e0b04400267e0c8ec00267c0c9240026a80c9600027140c9640026e60c9940026d80c99c0026fe0c9400026dc)
  (.lf 0))) (.nd (.nd (.lf
  0x12e940092bc12e800092f812e500092ce12eb400933212ecc0092f612e7000930212e2400932812ee800931812e2000930a12e9c0092be12e840092d212e4c00931c12eb00092ee12ec00092e412e7400933412de000925c12e040092c612e340092cc12ec40092f012b5000929412b7000924a12b6400928012b6800928a12de80092a012ed000930e12b580092a612f000093301270000923812e3800925e12b1800927212e780092b612ef400932c12e9800930c12ea000930412e100092d612b1400927012ef000932a12eec00931a12af800923a12b1000926612b3800928812b0400926e12b0c00924e126fc00926812b20009232126f400924012e880092d412ee00092f412ea40092c012f0c0092fa12ec80092f212f2c00930812f100092fc12f4800933c12f3800933612f1400930612f1800931e12f2000933a12f3c00933812ed800931012f1c00932012f2400932212edc00931212ef800932e)
  (.lf 0)) (.nd (.lf
  0x1962c00d73e1955800d6961956000d69e189bc00d67e1953000d67c1956800d6a8195a400d714195a800d6e6195d800d6d8195e000d6fe1958400d6dc1958c00d6ea195ac00d6e81959000d6b81958800d6de1959400d6e0195dc00d6da194f800d6501950000d656198b400d210198bc00d212198c000d21c198ec00d21a1937c00d2301970c00d282196ec00d2421971000d24c1948400d2761949000d258196f000d262196f400d23c1948800d278196f800d23e196fc00d2441970000d2461970800d2521947400d26a1948000d290196e800d2341942800d2841971400d2641971c00d2481949400d25a1972000d2861949800d27a1972800d2921972c00d26c1973c00d2361975800d2541974400d2741975400d28c1977400d2981976800d2601978800d28e1979000d29a1979400d29c1979800d2a21978400d2aa1978c00d2a4197b000d2ac197b400d2c2197b800d2ae197cc00d2b0197e000d316)
  (.lf 0)))

def aesWireTree54 : BTree :=
  .nd (.nd (.nd (.lf
  0x2f4001aa2002e0001aaa002e8001aa40030c001aac00310001ac200314001aae00328001ab00033c001b160032c001ab200340001ab400348001ad000358001b0000324001aec0035c001aba00334001ac800360001ae200364001aca00368001b260036c001ac400374001abc00378001af80037c001ace00384001b3200388001af600398001b020039c001b28003a0001b18003a4001b0a003a8001abe003b8001ad2003c0001b1c003cc001aee003d4001ae400410001b34002bc001a5c00330001ac600370001acc003d8001af0002b8001a940029c001a4a002a8001a80002ac001a8a002d8001aa003490001b0e002c8001aa6003e8001b3000230001a38002c0001a5e00294001a7200344001ab6003e4001b2c003ac001b0400338001ad600290001a70003e0001b2a003dc001b1a00218001a3a0026c001a660027c001a880028c001a6e00214001a4e00208001a6800204001a3200200001a40)
  (.lf
  0x216500036e520ad80036e320a1c0036e1216c80036df20ac00036dd239180036db2171c0036d9216700036d7238a80036d520a780036d320a800036d1209f80036cf215fc0036cd20aa80036cb209b40036c9217740036c7216340036c520b0c0036c31bc3800e00e1bc0c00e0081bc3400e0061bc2c00e0041c75c00ea0e1c72c00ea081c75800ea061c74c00ea041e1cc00f40e1e1dc00f4081e1c800f4061e19c00f4041af2c00fe0e1af4000fe0c1af0000fe081af2800fe061af2000fe041c53800e80e1c52c00e8081c52000e8061c53400e8041ddd800f20e1de1000f2081ddf800f2061dde000f2041fc5c00fc0e1fd6c00fc0c1fe7c00fc0a1fc0000fc081fc1800fc061fd2000fc041fcd400fc021b85800e60e1b82c00e6081b85400e6061b84c00e6041d82c00f00e1d87400f0081d87000f0061d82000f0041f4bc00fa0e1f48c00fa081f4b800fa061f4b000fa041f1dc00e40e1f21400e408))
  (.nd (.lf
  0xdbc80046740dbd800468c0dbf80046980dbec0046600dc0c00468e0dc1400469a0dc1800469c0dc1c0046a20dc080046aa0dc100046a40dc340046ac0dc380046c20dc3c0046ae0dc500046b00dc640047160dc540046b20dc680046b40dc700046d00dc800047000dc4c0046ec0dc840046ba0dc5c0046c80dc880046e20dc8c0046ca0dc900047260dc940046c40dc9c0046bc0dca00046f80dca40046ce0dcac0047320dcb00046f60dcc00047020dcc40047280dcc80047180dccc00470a0dcd00046be0dce00046d20dce800471c0dcf40046ee0dcfc0046e40dd3c0047340dbe400465c0dc580046c60dc980046cc0dd000046f00dbe00046940dbc400464a0dbd00046800dbd400468a0dc000046a00e3f400470e0dbf00046a60dd100047300db7c0046380dbe800465e0dbbc0046720dc6c0046b60dd0c00472c0dcd40047040dc600046d60dbb80046700dd0800472a0dd0400471a0dab400463a)
  (.lf 0))) (.nd (.nd (.lf
  0x20aa400248320d9000248120d7c00247f21e5c00247d228c000247b1e6e8002479202c400247721e380024752236c002473201200024712015c00246f2014800246d210a400246b2102c0024692113000246720a6c002465238a4002463216e40024612048c00245f1ed4800245d235b400245b20b24002459209bc002457204f8002455204e80024531ef740024511ef9400244f2274c00244d227e800244b21070002449227b000244720a880024451ed280024431ef68002441215f000243f1ed0400243d20a0400243b20e80002439228b80024371ed680024351ef0000243320f900024311ed1400242f207e400242d204ac00242b2162000242920ae0002427216e80024251eed800242320c5000242120d4000241f2113400241d202c000241b22a4800241920ce80024171ef84002415202b400241320db80024111ed8000240f202f000240d20fc800240b20c700024091eef800240720800002405)
  (.lf 0)) (.nd (.lf
  0x1cc7400c4e41ccc800c5341cc0800c50c1cb4800c45c1cbbc00c4c61cbfc00c4cc1cc7800c4f01cb4400c4941cb0800c44a1cb3400c4801cb3800c48a1cb6400c4a01cc1c00c50e1cb5400c4a61cc8800c5301cae800c4381cb4c00c45e1cb2800c4721cbd000c4b61cc8400c52c1cc4c00c5041cbc400c4d61cb2400c4701cc8000c52a1cc7c00c51a1a86400c43a1cb0000c4661cb1000c4881cb2000c46e1ca9800c44e1cacc00c4681a6f800c4321cac800c4401cc5c00c4d41cc9800c4f41cc5000c4c01cc2000c4fa1cc9400c4f21cca000c5081cc2400c4fc1cc2800c53c1cccc00c5361cc5400c5061cc6400c51e1cc7000c53a1ccd000c5381cc4000c5101cc6800c5201ccac00c5221cc4400c5121ccb800c52e1cc1000c5241cc2c00c53e1cb5800c4961cb6000c49e1ca8400c47e1cb3000c47c1cb6800c4a81cba400c5141cba800c4e61cbd800c4d81cbe000c4fe1cb8400c4dc1cb8c00c4ea)
  (.lf 0)))

def aesWireTree55 : BTree :=
  .nd (.nd (.nd (.lf
  0x146100087241464800873e142200086961445c00869e13d3400867e13f4c00867c1422c0086a8145280087141452c0086e6145900086d8145a80086fe145100086dc145180086ea145300086e81450c0086b8145140086de1451c0086e0145940086da13f7000865013f7c008656139e0008a10139d4008a12139a8008a1c139f0008a1a12ff4008a30135c4008a8213568008a4213588008a4c130f0008a7613158008a5813574008a6213564008a3c13170008a781356c008a3e13578008a441357c008a4613590008a521318c008a6a13188008a9013570008a3413184008a8413580008a6413594008a481315c008a5a13840008a8613190008a7a13598008a921384c008a6c1359c008a36135a4008a541385c008a7413878008a8c13860008a98135b0008a601388c008a8e13890008a9a13898008a9c1389c008aa2135c0008aaa13894008aa4138b8008aac138bc008ac2138c0008aae138dc008ab0)
  (.lf 0)) (.nd (.lf
  0x17e4800defc17e4c00df3c17ee400df3617e7800df0617e8800df1e17e9400df3a17ee800df3817e6400df1017e8c00df2017ecc00df2217e6800df1217ed400df2e17e3400df2417e5000df3e17d7c00de9617d8400de9e1777800de7e17d5400de7c17d8c00dea817dc800df1417dcc00dee617dfc00ded817e0400defe17da800dedc17db000deea17dd000dee817db400deb817dac00dede17db800dee017e0000deda1780800de501780c00de561be9800c6101be9c00c6121be3800c61c1be1800c61a1a64400c6301a77000c6821a69400c6421a69800c64c1a81c00c6761bcf000c6581a76c00c6621a82800c63c1a82000c6781ad2c00c63e1acec00c6441acf400c6461bce800c6521acfc00c66a1ad2400c6901abc400c6341ad1000c6841acf000c6641ad3000c6481bcf400c65a1ad1400c6861a82400c67a1ad2800c6921ad0000c66c1abc800c6361bcf800c6541bd3000c6741ad2000c68c)
  (.lf 0))) (.nd (.nd (.lf
  0x7c9001728807c0001726e07bec01724e07b9001726807c5c01723207b8c01724007dc00172d407df40172f407db40172c007d900172fa07df00172f207dfc01730807d940172fc07d9801733c07e1c01733607db801730607dc801731e07dd401733a07e2001733807f0c01731007dcc01732007e0801732207f1001731207e0c01732e07d8401732407f0801733e07cd001729607cd801729e07ad401727e07ca801727c07ce00172a807d1c01731407d200172e607d500172d807d580172fe07cfc0172dc07d040172ea07d240172e807d080172b807d000172de07d0c0172e007d540172da07c7401725007c7c01725608ef0018a1008ef8018a1208efc018a1c08f18018a1a08b14018a3008d64018a8208d44018a4208d68018a4c07ec8018a7608aa0018a5808d48018a6208d4c018a3c07ef8018a7808d50018a3e08d54018a4408d58018a4608d60018a5208b04018a6a08b0c018a9008d40018a34)
  (.lf 0)) (.nd (.lf
  0x22c5401227422c4401228c22c3c01229822bf801226022c5801228e22c5c01229a22c6001229c22c7c0122a222c340122aa22c880122a422c8c0122ac22cac0122c222c980122ae22c9c0122b022d0c01231622cb40122b222cb80122b422cc40122d022d8001230022ca00122ec22cd80122ba22cf80122c822d1c0122e222cfc0122ca22d1401232622cf00122c422cdc0122bc22cc80122f822c800122ce22ca801233222d200122f622d8801230222d0401232822d1001231822cb001230a22ce40122be22cd00122d222c8401231c22ca40122ee22d300122e422d8401233422bd801225c22cf40122c622d000122cc22d340122f022c2801229422bf401224a22c1c01228022c4001228a22c780122a022d2801230e22c2c0122a622d5401233022b0001223822bdc01225e22c5001227222cbc0122b622d4c01232c22d8c01230422d080122d622c4801227022d4801232a22d4401231a22adc01223a)
  (.lf 0)))

def aesWireTree56 : BTree :=
  .nd (.nd (.nd (.lf
  0x3d0800077f03d1c00077d044ac00077b03ce80007790442c00077703d3c00077503d280007730456400077104a0000076f04a1c00076d0499000076b049b80007690495000076704a5c00076504a40000763049d400076104f1800075f04f3c00075d054e400075b04ee40007590556400075704f8c00075504f64000753054a40007510406c00074f0408000074d0410000074b0404800074904154000747040b000074504098000743040dc00074103d0400073f03d1800073d044a800073b03ce40007390441c00073703d3800073503d2400073304560000731049fc00072f04a1800072d0498c00072b049b40007290494c00072704a5800072504a30000723049d000072104f1400071f04f3800071d054e000071b04ee00007190556000071704f8800071504f60000713054a00007110406800070f0407c00070d0410400070b0404400070904150000707040ac00070504094000703040d8000701)
  (.lf
  0xfa400028750f1a40028730f12c0028710f53800286f0f4bc00286d0f11000286b0eed80028690f1480028670f65c0028650f6bc0028630f1980028610f56c00285f0f4e400285d0f11400285b0eecc0028590f17c0028570f5c40028550f8800028530f5280028510f57000284f0f4e800284d0f16800284b0f2cc0028490f5c80028470fad80028450f8840028430f2380028410fe1000283f0fdf000283d0f1f800283b0eebc0028390f2ac002837100b80028350fd880028330f23c0028310fe5400282f0fde000282d0f20000282b0eee00028290f2940028271012c0028250fd8c0028230fe180028210fe9c00281f0fda000281d13a4000281b13a340028191012400281713a4c0028150fd580028130fe780028110fda400280f0f1e000280d0f27400280b0f27c0028090febc0028070fd680028050f25400280310c0400280110ee00027ff10c500027fd10ce80027fb10d000027f910fa40027f7))
  (.nd (.lf
  0x10b4400590410ad00058d610a2800587010b7800592a10b7400591a0d45000583a10a14005866109d000588810a2400586e109e400584e109b80058680d2e4005832109b400584010b540058d410b880058f410b480058c010b240058fa10b840058f210b9000590810b280058fc10b2c00593c10bc800593610b4c00590610b5c00591e10b6800593a10bcc00593810c6c00591010b6000592010ba000592210c7000591210ba400592e10b1800592410c7800593e10a6400589610a6c00589e109c800587e10a3c00587c10a740058a810ab000591410ab40058e610ae40058d810aec0058fe10a900058dc10a980058ea10ab80058e810a9c0058b810a940058de10aa00058e010ae80058da10a0000585010a0800585612d2400901012d2c00901212d3000901c12d4c00901a12368009030123bc009082123b0009042123c000904c12b9800907612bac009058123b400906212b9000903c12b9c009078)
  (.lf 0))) (.nd (.nd (.lf
  0x1cd0c001cad1ceb8001cab1cd48001ca91b404001ca71b434001ca51b4a0001ca31b488001ca11cce8001c9f19d94001c9d1cd8000c4161cd88001c9b19d9c001c9919d98001c971cce4001c9519dac001c931a174001c91196d4001c8f19b20001c8d1a35c001c8b1a380001c891b600001c8719d4400d01019d5000d01219d3800d01c19d6400d01a193c400d0301991c00d0821992c00d0421992800d04c19ba400d07619b8c00d05819c0800d06219bbc00d03c19ba800d07819bc400d03e19b6000d04419b6c00d04619b9800d0521990c00d06a19bb400d09019b7000d034194bc00d08419c0c00d06419bc800d04819b9000d05a1992000d08619bac00d07a19bc000d0921993000d06c19b7400d03619b9c00d05419c2400d07419bb000d08c19bd800d09819be400d06019c2800d08e19c7800d09a19c8000d09c19ca400d0a219bf000d0aa19c2c00d0a419c3000d0ac19c4800d0c219c3c00d0ae)
  (.lf 0)) (.nd (.lf
  0xa208003d3c0a2a8003d360a234003d060a244003d1e0a250003d3a0a2ac003d380a220003d100a248003d200a288003d220a224003d120a294003d2e0a1f0003d240a20c003d3e0a140003c960a124003c9e09c48003c7e09e70003c7c0a148003ca80a184003d140a188003ce60a1b8003cd80a1c0003cfe0a164003cdc0a16c003cea0a18c003ce80a170003cb80a168003cde0a174003ce00a1bc003cda09e54003c5009e5c003c561e1ac00f4101e17000f4121e3bc00f41c1e1a400f41a1ce3c00f4301ced400f4821ceac00f4421cea800f44c1d21c00f4761d20000f4581cee400f4621d22800f43c1d22000f4781d22c00f43e1cee000f4441ceec00f4461d1f800f4521d24400f46a1d23400f4901e04c00f4341cf2000f4841cee800f4641d23000f4481d20400f45a1cf2400f4861d22400f47a1d23800f4921d24800f46c1e05000f4361d20800f4541e07800f4741e07400f48c1d25800f498)
  (.lf 0)))

def aesWireTree57 : BTree :=
  .nd (.nd (.nd (.lf
  0xa338000d570c87c000d5503228000d530b350000d510a36c000d4f099bc000d4d0a368000d4b03718000d4909a10000d4709ea0000d450373c000d4309a20000d4103770000d3f03db8000d3d03630000d3b09a78000d39036a8000d3703550000d35036ac000d3309a7c000d31035d8000d2f03634000d2d09a04000d2b03dbc000d29034f4000d2703740000d250a460000d2303714000d210372c000d1f0a574000d1d01ea8000d1b09ccc000d190a5ec000d170a3ac000d1503d80000d130a364000d1103238000d0f0a410000d0d0a2e8000d0b02584000d090a3cc000d0709d34000d050360c000d0303790000d0103da4000cff0b34c000cfd01994000cfb0a6d4000cf909d18000cf703638000cf5099ec000cf30a534000cf1020cc000cef09bc0000ced09cfc000ceb09aa8000ce9036b0000ce709e9c000ce509c10000ce3034f8000ce10a32c000cdf09dec000cdd03780000cdb03460000cd9)
  (.lf 0)) (.nd (.lf
  0x65e801705a0691401708605fdc01707a0691c0170920692001706c069300170360694c017054069380170740694801708c069680170980695c0170600697c01708e0698401709a0698801709c0698c0170a2069780170aa069800170a4069a40170ac069a80170c2069ac0170ae069c00170b0069d4017116069c40170b2069d80170b4069e00170d0069f0017100069bc0170ec069f40170ba069cc0170c8069f80170e2069fc0170ca06a0001712606a040170c406a0c0170bc06a100170f806a140170ce06a1c01713206a200170f606a3001710206a3401712806a3801711806a3c01710a06a400170be06a500170d206a5801711c06a640170ee06a6c0170e406ab80171340695401705c069c80170c606a080170cc06a700170f0069500170940693401704a069400170800694401708a069700170a006e2401710e069600170a606a80017130066540170380695801705e0692c017072069dc0170b6)
  (.lf 0))) (.nd (.nd (.lf
  0x2ab4014c7604410014c5804784014c6204788014c3c02ab8014c780478c014c3e04790014c4404794014c460479c014c52044d8014c6a044e0014c900477c014c34044dc014c84047a8014c64047b0014c4804414014c5a047b4014c8602abc014c7a047bc014c92047c0014c6c047d0014c36047ec014c54047d8014c74047e8014c8c04808014c98047fc014c600481c014c8e04824014c9a04828014c9c0482c014ca204818014caa04820014ca404844014cac04848014cc20484c014cae04860014cb004874014d1604864014cb204878014cb404880014cd004890014d000485c014cec04894014cba0486c014cc804898014ce20489c014cca048a0014d26048a4014cc4048ac014cbc048b0014cf8048b8014cce048c0014d32048c4014cf6048dc014d02048e0014d28048e4014d18048e8014d0a048f4014cbe04904014cd20490c014d1c04918014cee04920014ce4049d8014d34047f4014c5c)
  (.lf 0)) (.nd (.lf
  0x1a95c00c2c61a99c00c2cc1aa1800c2f01a8e400c2941a8ac00c24a1a8d400c2801a8d800c28a1a90400c2a01a9bc00c30e1a8f400c2a61aa2800c3301a7e400c2381a8ec00c25e1a8c800c2721a97000c2b61aa2400c32c1a9ec00c3041a96400c2d61a8c400c2701aa2000c32a1aa1c00c31a1a88000c23a1a87c00c2661a84c00c2881a8c000c26e1a87800c24e1a7d800c2681a84000c2321a7d400c2401a9fc00c2d41aa3400c2f41a9f000c2c01a9c000c2fa1aa3000c2f21aa3c00c3081a9c400c2fc1a9c800c33c1aa6c00c3361a9f400c3061aa0400c31e1aa1000c33a1aa7000c3381a9e000c3101aa0800c3201aa5000c3221a9e400c3121aa5800c32e1a9b000c3241a9cc00c33e1a8f800c2961a90000c29e1a78800c27e1a8d000c27c1a90800c2a81a94400c3141a94800c2e61a97800c2d81a98000c2fe1a92400c2dc1a92c00c2ea1a94c00c2e81a93000c2b81a92800c2de1a93400c2e0)
  (.lf 0)))

def aesWireTree58 : BTree :=
  .nd (.nd (.nd (.lf
  0x234ac0128dc234b40128ea234200128e82349c0128b8234b00128de234b80128e0234900128da23384012850233800128562159c012a1021590012a1221580012a1c2155c012a1a213ac012a30210d8012a822137c012a4220f40012a4c20ff4012a76213a4012a582138c012a6220ff8012a3c210ec012a78210fc012a3e21380012a4421384012a462139c012a522110c012a6a21110012a90213b0012a34210e8012a8421390012a6421388012a48213a8012a5a210f4012a86210f0012a7a21114012a92213e0012a6c213fc012a36213b8012a5421414012a7421424012a8c213e8012a982141c012a6021428012a8e2142c012a9a21430012a9c21494012aa221418012aaa21440012aa421444012aac21450012ac221448012aae2144c012ab021480012b162145c012ab2214a0012ab4214ec012ad0214d0012b002151c012aec214a8012aba21470012ac8214c0012ae221474012aca21488012b26)
  (.lf
  0x1ca9000349b1ca7c0034991a7740034971cac00034951a6780034931a68c0034911a70000348f1a80400348d1a5c800348b1a64c0034891a63c0034871a7600034851a79c00348318e5c00348118e4400347f18de400347d18c7800347b18d3c00347918e2800347718e0800347518f0800347319ed400347118dc400346f18dd400346d18d2c00346b190f800346918d7c00346718ef800346518f0000346318c1800346118da000345f18c8400345d19ea800345b19e9c00345918e1800345719e9800345518cc00034531912800345118c2400344f18db800344d18dec00344b18d1c00344918d6c00344718cf4003445190d4003443199100034411990400343f1944000343d18a1c00343b18a1000343919388003437193f4003435193cc003433196dc0034311946c00342f1894c00342d18a6c00342b18a400034291937400342719418003425189f400342318a280034211993400341f1949c00341d))
  (.nd (.lf
  0x1213c0062a8121780063141217c0062e6121ac0062d8121b40062fe121580062dc121600062ea121800062e8121640062b81215c0062de121680062e0121b00062da119340062501193800625612ab800961012ac000961212ac400961c12ae000961a12380009630123a000968212394009642123a400964c1292c00967612940009658123980096621292400963c129300096781292800963e1239c00964412684009646129380096521265400966a1268c0096901273c00963412734009684123a8009664129440096481294800965a1294c0096861295400967a129580096921266000966c1295c00963612978009654129640096741297400968c1299400969812988009660129a800968e129b000969a129b400969c129b80096a2129a40096aa129ac0096a4129d00096ac129d40096c2129d80096ae129ec0096b012a00009716129f00096b212a040096b412a0c0096d012a1c009700129e80096ec)
  (.lf 0))) (.nd (.nd (.lf
  0x1eb340102541eb900102741eb8801028c1eba00102981ebcc0102601eb9401028e1eba401029a1ebd001029c1ec040102a21ebb00102aa1ebe80102a41ebec0102ac1ebf80102c21ec140102ae1ec180102b01ec800103161ec280102b21ec2c0102b41ec3c0102d01ec6c0103001ecb40102ec1ec380102ba1ec200102c81ec780102e21eca40102ca1ec840103261ec100102c41ec440102bc1ec4c0102f81ec080102ce1ecbc0103321ec8c0102f61ec700103021ec240103281ec880103181ebfc01030a1ec400102be1ec540102d21ec0c01031c1ecb80102ee1ec7c0102e41eca00103341ec5001030c1ebc001025c1ec1c0102c61ed2c0102cc1ecc40102f01eb980102941eb8c01024a1eb500102801eb5401028a1ebe40102a01ec9001030e1eba80102a61ecd40103301eaf40102381ebc801025e1eb400102721ec340102b61ecd001032c1ec740103041ec600102d61eb3c0102701eccc01032a)
  (.lf 0)) (.nd (.lf
  0x1f7840114641f90c0114481f8dc01145a1f8640114861f93801147a1f8c80114921f8c401146c1f8680114361f8f40114541f9140114742265801148c1fb000114981f9180114602265c01148e2268801149a2268c01149c226900114a21f9400114aa226600114a4226640114ac226700114c2226780114ae226840114b02270c0115162269c0114b2226a00114b4226ac0114d02288c011500226e80114ec226b80114ba226f80114c82271c0114e2227000114ca22710011526226800114c4226bc0114bc226b00114f8226940114ce226ec011532227200114f622890011502226fc011528227140115182267401150a226c00114be226d00114d2226cc01151c226f00114ee227240114e422894011534226c801150c1f90001145c226f40114c6227040114cc227280114f01f8f80114941f91001144a226500114802265401148a1f9440114a02281001150e1f8fc0114a6227440115301f77c011438)
  (.lf 0)))

def aesWireTree59 : BTree :=
  .nd (.nd (.nd (.lf
  0x13e7c00169f1185400169d1300c00169b10564001699125e800169713c4c001695118e4001693124e4001691124c800168f1071000168d13cb400168b1188800168910478001687124f00016851232c00168312568001681117fc00167f1244400167d104f800167b1245c001679125640016771233000167511838001673106ec00167113cb800166f124f400166d12fb400166b13d4c001669124cc00166713e80001665124d000166313e840016611301000165f13cb000165d1300800165b13d1000165913cc000165713e1400165513e1800165313d8c00165113c9800164f13cc400164d13c9c00164b13d400016491246000164711880001645118a800164313ea400164113ea800163f13f1c00163d13e2000163b13d9800163913ca000163713cd000163513d6000163313e980016311300000162f13f6000162d13f5800162b13cd400162913e2c00162713da40016251250000162313da8001621)
  (.lf 0)) (.nd (.lf
  0xcbc40020f60cbd40021020cbd80021280cbdc0021180cbe000210a0cbe40020be0cbf40020d20cbfc00211c0cc080020ee0cc100020e40cc4c0021340caf800205c0cb6c0020c60cbac0020cc0cc140020f00caf40020940cab800204a0cae40020800cae800208a0cb140020a00cc9c00210e0cb040020a60cc240021300ca940020380cafc00205e0cad80020720cb800020b60cc2000212c0cbe80021040cb740020d60cad40020700cc1c00212a0cc1800211a0b0cc00203a0cab00020660cac00020880cad000206e0a3c000204e0ca780020680b8000020320ca740020400cbf80020d40cc2c0020f40cbec0020c00cbc80020fa0cc280020f20cc340021080cbcc0020fc0cbd000213c0cc500021360cbf00021060cc0000211e0cc0c00213a0cc540021380cca00021100cc040021200cc400021220ccc00021120cc4400212e0cbbc0021240cca400213e0cb080020960cb1000209e0caa000207e)
  (.lf 0))) (.nd (.nd (.lf
  0xb200002ec80b22c002ee20b230002eca0b234002f260b238002ec40b240002ebc0b244002ef80b248002ece0b250002f320b254002ef60b264002f020b268002f280b26c002f180b270002f0a0b274002ebe0b284002ed20b28c002f1c0b298002eee0b2a0002ee40b2dc002f340b178002e5c0b1fc002ec60b23c002ecc0b2a4002ef00b198002e940b16c002e4a0a50c002e800a510002e8a0b188002ea00b2f4002f0e0b19c002ea60b2b4002f300a4d8002e380b17c002e5e0a504002e720b210002eb60b2b0002f2c0b278002f040b204002ed60a500002e700b2ac002f2a0b2a8002f1a0b14c002e3a0a4ec002e660a4f4002e880a4fc002e6e0a48c002e4e0a4c8002e680a444002e320a4c4002e400b288002ed40b2bc002ef40b27c002ec00b258002efa0b2b8002ef20b2c4002f080b25c002efc0b260002f3c0b2e0002f360b280002f060b290002f1e0b29c002f3a0b2e4002f380b2f8002f10)
  (.lf 0)) (.nd (.lf
  0x16d1800b07c16d5000b0a816d8c00b11416d9000b0e616dc000b0d816dc800b0fe16d6c00b0dc16d7400b0ea16d9400b0e816d7800b0b816d7000b0de16d7c00b0e016dc400b0da16ce000b05016ce800b056183b400a810183bc00a812183c000a81c1841000a81a1820400a830181b400a882181f400a842163e800a84c170cc00a8761821800a858181f800a862170c800a83c181a800a878181b000a83e181fc00a8441820000a8461821000a852181cc00a86a181d400a8901820800a834181d000a8841821c00a8641822400a8481822800a85a181dc00a886181b800a87a181e400a8921822c00a86c1823c00a8361825800a8541824400a8741825400a88c1827400a8981826800a8601828800a88e1829000a89a1829400a89c1829800a8a21828400a8aa1828c00a8a4182b000a8ac182b400a8c2182b800a8ae182cc00a8b0182e000a916182d000a8b2182e400a8b4182ec00a8d0182fc00a900)
  (.lf 0)))

def aesWireTree60 : BTree :=
  .nd (.nd (.nd (.lf
  0x2399c013a9c239b4013aa223900013aaa239b8013aa4239c4013aac239cc013ac2239e4013aae239e8013ab0239f4013b1623a10013ab223a14013ab423a80013ad023a48013b00239d8013aec23a78013aba239fc013ac823a20013ae223a5c013aca239f8013b2623a08013ac423a7c013abc23a8c013af8239c0013ace239dc013b3223a28013af623a4c013b0223a00013b2823a0c013b1823a04013b0a23ad0013abe23a84013ad2239bc013b1c239e0013aee23a24013ae423a50013b3423904013a5c239ec013ac623a70013acc23a2c013af0238ec013a9423988013a4a23878013a8023898013a8a23910013aa023a98013b0e238f8013aa623a60013b302175c013a382390c013a5e23888013a7223a74013ab623a3c013b2c23a90013b0c23ad8013b04239f0013ad623884013a7023a34013b2a23a30013b1a21608013a3a2384c013a6623894013a8823880013a6e2160c013a4e2174c013a68)
  (.lf
  0xe4cc002f750b100002f730c34c002f710a404002f6f09d24002f6d09aac002f6b09a98002f690a4b0002f670b0e4002f650b11c002f6309d44002f610a468002f5f0a42c002f5d0c53c002f5b0c594002f5909ca8002f570c570002f550a358002f5309d54002f510a484002f4f0a43c002f4d09ac4002f4b035ec002f4909c98002f470a4bc002f450b140002f430a648002f410a5a8002f3f0a2f8002f3d03dd0002f3b03dc4002f390aac4002f370a564002f3509d0c002f3309ce8002f310a68c002f2f0a590002f2d03d7c002f2b03668002f2909ae4002f270a6cc002f250a54c002f2309cd4002f210a5f8002f1f0a5d4002f1d03d88002f1b0364c002f1909bd0002f170acb4002f150a558002f130a670002f110a624002f0f0a580002f0d03de0002f0b03df0002f090a6c4002f070a6d8002f050a53c002f0309df4002f0109de4002eff09d6c002efd0cd68002efb0cda0002ef909b08002ef7))
  (.nd (.lf
  0xc640002ca20c62c002caa0c634002ca40c658002cac0c65c002cc20c660002cae0c674002cb00c688002d160c678002cb20c68c002cb40c694002cd00c6a4002d000c670002cec0c6a8002cba0c680002cc80c6ac002ce20c6b0002cca0c6b4002d260c6b8002cc40c6c0002cbc0c6c4002cf80c6c8002cce0c6d0002d320c6d4002cf60c6e4002d020c6e8002d280c6ec002d180c6f0002d0a0c6f4002cbe0c704002cd20c70c002d1c0c718002cee0c720002ce40c75c002d340c608002c5c0c67c002cc60c6bc002ccc0c724002cf00c604002c940c5cc002c4a0c5f4002c800c5f8002c8a0c624002ca00c794002d0e0c614002ca60c734002d300c57c002c380c60c002c5e0c5e8002c720c690002cb60c730002d2c0c6f8002d040c684002cd60c5e4002c700c72c002d2a0c728002d1a0a470002c3a0c5c4002c660c5d4002c880c5e0002c6e0c544002c4e0c5a0002c680a434002c320c59c002c40)
  (.lf 0))) (.nd (.nd (.lf
  0x1bc5000214f1e29400214d1f53c00214b1ca480021491d8840021471f9480021451e1d00021431f7f40021411c75000213f1c78800213d1de2c00213b1eab40021391d1540021371d8300021351bc540021331f4cc0021311c53c00212f1fca000212d1c9d000212b1d2980021291bcb00021271fc680021251f1e00021231f4c00021211de0000211f1e1fc00211d1c76000211b1d3180021191e1e00021171c78c0021151e2980021131bc600021111e29c00210f1ca4c00210d1e1f000210b1ca240021091e6ec0021071e36c0021051e3500021031e3700021011e3280020ff1e2500020fd1e3680020fb1e2540020f91e2400020f71d4140020f51d3040020f31af540020f11e2900020ef1e2c40020ed1e4280020eb1eb040020e91e3180020e71e2580020e51eab80020e31e2340020e11e2880020df1c77c0020dd1e4180020db1e3c40020d91e2000020d71e3540020d51e3340020d31ca540020d1)
  (.lf 0)) (.nd (.lf
  0x1b12800f8be1b13800f8d21b14000f91c1b14c00f8ee1b15400f8e41b19c00f9341b0e800f90c1b02800f85c1b09c00f8c61b0dc00f8cc1b15800f8f01b02400f8941b00800f84a1b01400f8801b01800f88a1b04400f8a01b0fc00f90e1b03400f8a61b16800f9301ac8c00f8381b02c00f85e1acac00f8721b0b000f8b61b16400f92c1b12c00f9041b0a400f8d61aca800f8701b16000f92a1b15c00f91a1acc000f83a1ac9c00f8661aff800f8881aca400f86e1ac5800f84e1ac8000f8681afc400f8321ac7c00f8401b13c00f8d41b17400f8f41b13000f8c01b10000f8fa1b17000f8f21b17c00f9081b10400f8fc1b10800f93c1b1a000f9361b13400f9061b14400f91e1b15000f93a1b1a400f9381b12000f9101b14800f9201b18800f9221b12400f9121b19000f92e1b0f000f9241b10c00f93e1b03800f8961b04000f89e1ab9400f87e1b01000f87c1b04800f8a81b08400f9141b08800f8e6)
  (.lf 0)))

def aesWireTree61 : BTree :=
  .nd (.nd (.nd (.lf
  0xed500048960ed5800489e0e9e800487e0ed2400487c0ed400048a80ed980049140ed9c0048e60ee180048d80ee6c0048fe0ed700048dc0ed780048ea0eda00048e80ed7c0048b80ed740048de0ed800048e00ee1c0048da0e8f80048500e8680048560f490004c100f3d0004c120f3f8004c1c0f45c004c1a0e77c004c300e948004c820e7d4004c420e7d8004c4c0ea60004c760ea4c004c580e944004c620ea48004c3c0ea64004c780ea50004c3e0e93c004c440ea3c004c460e954004c520e9fc004c6a0ea44004c900e83c004c340e938004c840e95c004c640ea54004c480ea74004c5a0e94c004c860ea68004c7a0ea78004c920ea00004c6c0e840004c360e958004c540ea5c004c740ea6c004c8c0ea8c004c980f2d8004c600ea70004c8e0ea90004c9a0f2dc004c9c0f300004ca20ea94004caa0f2fc004ca40f304004cac0f308004cc20f30c004cae0f318004cb00f378004d160f31c004cb2)
  (.lf 0)) (.nd (.lf
  0x898c017b1e08998017b3a089e4017b3809040017b1008990017b20089cc017b2209044017b12089d0017b2e08948017b2409094017b3e08894017a960889c017a9e08824017a7e0886c017a7c088a4017aa8088e0017b14088e4017ae608914017ad80891c017afe088c0017adc088c8017aea088e8017ae8088cc017ab8088c4017ade088d0017ae008918017ada08828017a50087a8017a560d190003e100d198003e120d19c003e1c0d1b8003e1a09b6c003e300d004003e820cfe4003e420d008003e4c0a0b0003e760a0b8003e580cfe8003e620cfec003e3c0a0b4003e780cff0003e3e0cff4003e440cff8003e460d000003e5209e3c003e6a0a0ac003e900cfe0003e3409db8003e840d00c003e640d014003e480a0bc003e5a0d018003e860a0c0003e7a0d020003e920d024003e6c0d034003e360d050003e540d03c003e740d04c003e8c0d06c003e980d060003e600d080003e8e0d088003e9a)
  (.lf 0))) (.nd (.nd (.lf
  0x102e40072f4102a40072c0102800072fa102e00072f2102ec007308102840072fc1028800733c10308007336102a8007306102b800731e102c400733a1030c007338104d4007310102bc007320102f8007322104d8007312102fc00732e10274007324104cc00733e101c0007296101c800729e0f29c00727e1019800727c101d00072a81020c007314102100072e6102400072d8102480072fe101ec0072dc101f40072ea102140072e8101f80072b8101f00072de101fc0072e0102440072da0fe680072500fe6c0072560f838006a100f840006a120f844006a1c0f860006a1a0f14c006a300f680006a820f130006a420f154006a4c0f6d4006a760f6dc006a580f678006a620f6cc006a3c0f6d8006a780f6d0006a3e0f670006a440f6c0006a460f67c006a520f668006a6a0f6c8006a900f4c4006a340f66c006a840f684006a640f6e0006a480f6ec006a5a0f68c006a860f704006a7a0f70c006a92)
  (.lf 0)) (.nd (.lf
  0x1590000a654158ec00a674158fc00a68c1591c00a6981591000a6601593000a68e1593800a69a1593c00a69c1594000a6a21592c00a6aa1593400a6a41595800a6ac1595c00a6c21596000a6ae1597400a6b01598800a7161597800a6b21598c00a6b41599400a6d0159a400a7001597000a6ec159a800a6ba1598000a6c8159ac00a6e2159b000a6ca159b400a726159b800a6c4159c000a6bc159c400a6f8159cc00a6ce159d400a732159d800a6f6159f000a702159f400a728159f800a718159fc00a70a15a0800a6be15a1800a6d215a2000a71c15a2c00a6ee15a3400a6e415a7c00a734159c800a70c1590800a65c1597c00a6c6159bc00a6cc15a3800a6f01590400a694158e800a64a158f400a680158f800a68a1592400a6a0159dc00a70e1591400a6a615a4800a7301555800a6381590c00a65e158e000a6721599000a6b615a4400a72c15a0c00a7041598400a6d6158dc00a67015a4000a72a)
  (.lf 0)))

def aesWireTree62 : BTree :=
  .nd (.nd (.nd (.lf
  0xc8c000f3000ad4000e3800b64000e5e00b38000e7200be8000eb600c88000f2c00c50000f0400bdc000ed600b34000e7000c84000f2a00c80000f1a00abc000e3a00b10000e6600b20000e8800b30000e6e00ab8000e4e00aac000e6800aa8000e3200aa4000e4000c60000ed400c94000ef400c54000ec000c30000efa00c90000ef200c9c000f0800c34000efc00c38000f3c00cb8000f3600c58000f0600c68000f1e00c74000f3a00cbc000f3803528000f1000c6c000f2000ca8000f220352c000f1200cac000f2e00c24000f2403520000f3e00b70000e9600b78000e9e00af0000e7e00b48000e7c00b80000ea800bbc000f1400bc0000ee600bf0000ed800bf8000efe00b9c000edc00ba4000eea00bc4000ee800ba8000eb800ba0000ede00bac000ee000bf4000eda00af4000e5000afc000e5600a7000141000a7800141200a7c00141c00aa000141a008a0001430008c400148200884001442)
  (.lf
  0x21e040037d3223b00037d1222f00037cf223380037cd223ac0037cb223200037c92240c0037c72233c0037c5223b40037c30958001880e0959c01880c095a001880a095540188080957c01880609574018804095980188020959401880009014018a0e08f24018a0c08f28018a0a08ffc018a0808f08018a060900c018a0408f20018a0208f1c018a0008718018c0e08734018c0c08738018c0a086ec018c0808714018c060870c018c0408730018c020872c018c00098dc018e0e098f8018e0c098fc018e0a098b0018e08098d8018e06098d0018e04098f4018e02098f0018e00096b001800e0931c01800c0932001800a0964801800809300018006096a801800409318018002093140180000903001820e08d1c01820c08d2001820a0903401820808d000182060902c01820408d1801820208d140182000789801840e078b401840c078b801840a0786c018408078940184060788c018404078b0018402))
  (.nd (.lf
  0xa8900036f00a7700036940a75400364a0a7600036800a76400368a0a7900036a00af0000370e0a7800036a60a8a00037300a7000036380a77800365e0a74c0036720a7fc0036b60a89c00372c0a8640037040a7f00036d60a7480036700a89800372a0a89400371a0a63000363a0a7280036660a7340036880a74400366e0a62c00364e0a6e40036680a6780036320a6e00036400a8740036d40a8a80036f40a8680036c00a8440036fa0a8a40036f20a8b00037080a8480036fc0a84c00373c0a8cc0037360a86c0037060a87c00371e0a88800373a0a8d00037380af040037100a8800037200a8bc0037220af080037120a8c000372e0a8380037240af1000373e0a7840036960a78c00369e0a71400367e0a75c00367c0a7940036a80a7d00037140a7d40036e60a8040036d80a80c0036fe0a7b00036dc0a7b80036ea0a7d80036e80a7bc0036b80a7b40036de0a7c00036e00a8080036da0a684003650)
  (.lf 0))) (.nd (.nd (.lf
  0x94b40188e2094b80188ca094bc018926094c00188c4094c80188bc094cc0188f8094d40188ce094dc018932094e00188f6094f8018902094fc018928095000189180950401890a095100188be095200188d20952801891c095340188ee0953c0188e409584018934094d001890c0941001885c094840188c6094c40188cc095400188f00940c018894093f001884a093fc0188800940001888a0942c0188a0094e401890e0941c0188a609550018930090700188380941401885e093e8018872094980188b60954c01892c095140189040948c0188d6093e40188700954801892a0954401891a08f4801883a093d0018866090e8018888093e001886e093a001884e09074018868090d801883208f84018840095240188d40955c0188f4095180188c0094e80188fa095580188f209564018908094ec0188fc094f001893c095880189360951c0189060952c01891e0953801893a0958c01893809508018910)
  (.lf 0)) (.nd (.lf
  0x1869000a5221862800a5121869800a52e185f400a5241861000a53e1853c00a4961854400a49e184dc00a47e1851400a47c1854c00a4a81858800a5141858c00a4e6185bc00a4d8185c400a4fe1856800a4dc1857000a4ea1859000a4e81857400a4b81856c00a4de1857800a4e0185c000a4da184a400a450184a800a45617c9400dc1017c9c00dc1217ca000dc1c17cc800dc1a17ae800dc301786000dc82177d400dc4217af400dc4c176bc00dc76177e000dc5817ae400dc621770c00dc3c1785000dc7817ae000dc3e1785400dc441785800dc461785c00dc5217ad000dc6a17ad800dc9017aec00dc3417ad400dc8417af800dc6417b0000dc48177e400dc5a17b0400dc861786400dc7a17b0c00dc9217b1000dc6c17b2000dc3617b3c00dc5417b2800dc7417b3800dc8c17b5800dc9817b4c00dc6017b6c00dc8e17b7400dc9a17b7800dc9c17b7c00dca217b6800dcaa17b7000dca417b9400dcac)
  (.lf 0)))

def aesWireTree63 : BTree :=
  .nd (.nd (.nd (.lf
  0x1536c00191b1443000191914b10001917153900019151565c00191313a20001911153c000190f146dc00190d1558c00190b153f8001909146e4001907153880019051845c00190315520001901184600018ff154600018fd156600018fb184580018f9156640018f7155840018f5141c80018f314b280018f11556c0018ef146ec0018ed155700018eb154100018e9155180018e713a080018e5154c40018e3143f40018e1153d00018df12f600018dd155940018db154200018d913a000018d71537c0018d5155240018d3154540018d11443c0018cf154580018cd154b80018cb144380018c9156480018c7144200018c51564c0018c3143f80018c113a180018bf154180018bd153700018bb138300018b91873c0018b714d240018b514b600018b314ce80018b114bf40018af14bbc0018ad141e40018ab14b9c0018a914ba00018a714b340018a5141e00018a314c840018a11421000189f14b8800189d)
  (.lf 0)) (.nd (.lf
  0xe9ac004a520e998004a6a0eeec004a900e87c004a340e99c004a840e9b4004a640ef04004a480ef10004a5a0e9bc004a860ef28004a7a0ef30004a920e9c4004a6c0e880004a360e9e0004a540ef0c004a740ef2c004a8c0ef40004a980ef1c004a600ef4c004a8e0ef54004a9a0ef58004a9c0ef5c004aa20ef48004aaa0ef50004aa40ef74004aac0ef78004ac20ef7c004aae0ef90004ab00efa4004b160ef94004ab20efa8004ab40efb0004ad00efc0004b000ef8c004aec0efc4004aba0ef9c004ac80efc8004ae20efcc004aca0efd0004b260efd4004ac40efdc004abc0efe0004af80efe8004ace0eff0004b320eff4004af60f00c004b020f010004b280f014004b180f018004b0a0f024004abe0f034004ad20f03c004b1c0f048004aee0f050004ae40f0d4004b340efe4004b0c0ef14004a5c0ef98004ac60efd8004acc0f054004af00ef34004a940ef08004a4a0e9d8004a800e9dc004a8a)
  (.lf 0))) (.nd (.nd (.lf
  0x22d4014210022dc014212022e001421c0230c01421a0211c01423002140014282021000142420214401424c021240142760213c014258021180142620210401423c021280142780211401423e021080142440210c01424602134014252020ec01426a020fc01429002120014234020f001428402148014264021500142480215401425a021580142860216001427a021640142920216801426c0217801423602194014254021800142740219001428c021b0014298021a4014260021c401428e021cc01429a021d001429c021d40142a2021c00142aa021c80142a4021ec0142ac021f00142c2021f40142ae022080142b00221c0143160220c0142b2022200142b4022280142d002238014300022040142ec0223c0142ba022140142c8022400142e2022440142ca022480143260224c0142c4022540142bc022580142f80225c0142ce02264014332022680142f6022780143020227c01432802280014318)
  (.lf 0)) (.nd (.lf
  0xe71800290c124c000610c070f0017f0c0aef800370c0c7e8002b0c10d48005f0c0c2c000530c0e3f000470c11820007b0c0fd1c006f0c1241c00630c12db400970c040c801510c05a40015d0c06b5001690c0878c01750c0964401810c0aed400350c0c790002d0c0c29c00550c0e3ac00450c122cc00650c05fe0016b0c0901801830c0aea000310c10c2400590c12d9400910c06590016f0c084b001870c0d9c0005d0c117d8007d0c0fcfc006d0c12d5000950c0379801430c0549001530c05470015b0c07f0001730c08ff8018b0c0376000130c03708000b0c0b2ec002f0c0d984005b0c0c0a000570c0f1d0004f0c0e38000430c117b4007f0c104e400770c104c400730c0fcd8006b0c0e35c00410c0f0e400490c0f414004d0c0b82400250c036e400010c0367000030c035fc00050c035b800070c0359800090c0353c000d0c03518000f0c034d400170c034b000190c0348c001b0c232a001210c)
  (.lf 0)))

def aesWireTree64 : BTree :=
  .nd (.nd (.nd (.lf
  0xff000000000fd000000000fb000000000f9000000000f7000000000f5000000000f3000000000f1000000000ef000000000ed000000000eb000000000e9000000000e7000000000e5000000000e3000000000e1000000000df000000000dd000000000db000000000d9000000000d7000000000d5000000000d3000000000d1000000000cf000000000cd000000000cb000000000c9000000000c7000000000c5000000000c3000000000c1000000000bf000000000bd000000000bb000000000b9000000000b7000000000b5000000000b3000000000b1000000000af000000000ad000000000ab000000000a9000000000a7000000000a5000000000a3000000000a10000000009f0000000009d0000000009b00000000099000000000970000000009500000000093000000000910000000008f0000000008d0000000008b0000000008900000000087000000000850000000008300000000081)
  (.lf
  0xe44800420c0e44400420a0fd50004e001054c00760a118b0007e00118ac007e02118a4007e0a1054800720a10544007600105400076021053800760c0fd48006a0a10534007200105300072021052c00720c15568009e0a0fd44006a000fd40006a020fd3c006a0c16820009a0c167a4009a0a15508009e001544c009e0212f5000920c12f4400920a1673c009a00166e0009a02133d4008e0c133cc008e0a12f0800920012f340092021070c00680c106fc00680a133c8008e00133c4008e02106f4006800107240068021e6c00100001e6bc0100021e6e001000c1ed7c01000a207c4010a0a1ed540102001ed1001020c1ed6401020a20d1c010e0a207e0010a00207f4010a0220794010a0c2028001100a20c4c010e0020d0c010e0220c7c010e0c20f4c01120a202bc011000202b001100221e8801100c204c401160a2106c01120020e7001120220f1401120c1da84011e0a204f001160020480011602))
  (.nd (.lf
  0xf950006cb60f9f0006d2c0f9b8006d040f944006cd60f610006c700f9ec006d2a0f9e8006d1a0f88c006c3a0f5fc006c660f604006c880f60c006c6e0f57c006c4e0f5d8006c680f4ec006c320f5d4006c400f9c8006cd40f9fc006cf40f9bc006cc00f998006cfa0f9f8006cf20fa04006d080f99c006cfc0f9a0006d3c0fa20006d360f9c0006d060f9d0006d1e0f9dc006d3a0fa24006d380fd08006d100f9d4006d200fa10006d220fd0c006d120fa14006d2e0f98c006d240fd14006d3e0f8e0006c960f8c4006c9e0f188006c7e0f618006c7c0f8e8006ca80f924006d140f928006ce60f958006cd80f960006cfe0f904006cdc0f90c006cea0f92c006ce80f910006cb80f908006cde0f914006ce00f95c006cda0f580006c500f584006c56129040094101290c009412128f800941c1292000941a123d8009430126bc009482126400094421264400944c127680094761277c009458126b8009462)
  (.lf 0))) (.nd (.nd (.lf
  0x1503000beae1503400beb01504c00bf161505c00beb21506000beb41507400bed01509c00bf001519400beec1507800beba1503c00bec81517c00bee21504400beca1505400bf261502800bec41508800bebc1509000bef81500c00bece1519800bf321518400bef6150a000bf021504000bf281505000bf181502c00bf0a1508400bebe1507c00bed21500800bf1c151a000beee1518000bee4150a400bf341509400bf0c14e4400be5c1503800bec61505800becc151a400bef014e6000be9414ea800be4a14ecc00be8014ed000be8a14edc00bea0151c000bf0e14e6400bea6151f400bf3014bd800be3814e5400be5e14ec400be721507000beb6151f000bf2c150a800bf041504800bed614ec000be70151c400bf2a151b400bf1a14e2c00be3a14e1c00be6614e0400be8814ebc00be6e14e1400be4e14cac00be6814df400be3214ca800be401508000bed4151ac00bef41508c00bec01518800befa)
  (.lf 0)) (.nd (.lf
  0x2788014ef402748014ec002724014efa02784014ef202790014f0802728014efc0272c014f3c027ac014f360274c014f060275c014f1e02768014f3a027b0014f38043d8014f1002760014f200279c014f22043dc014f12027a0014f2e02718014f24043d0014f3e02664014e960266c014e9e025e4014e7e0263c014e7c02674014ea8026b0014f14026b4014ee6026e4014ed8026ec014efe02690014edc02698014eea026b8014ee80269c014eb802694014ede026a0014ee0026e8014eda025e8014e50025f0014e560648c016610064940166120649801661c064d401661a062f80166300608c016682062e80166420609001664c05a340166760630c016658062ec0166620608401663c05a380166780608801663e062f0016644062f4016646063040166520603801666a06040016690062fc0166340603c01668406310016664063180166480631c01665a0609401668605a3c01667a060a0016692)
  (.lf 0)))

def aesWireTree65 : BTree :=
  .nd (.nd (.nd (.lf
  0xd78000c5400d64000c7400d74000c8c00d94000c9800d88000c6000da8000c8e00db0000c9a00db4000c9c00db8000ca200da4000caa00dac000ca400dd0000cac00dd4000cc200dd8000cae00dec000cb000e00000d1600df0000cb200e04000cb400e0c000cd000e1c000d0000de8000cec00e20000cba00df8000cc800e24000ce200e28000cca00e2c000d2600e30000cc400e38000cbc00e3c000cf800e40000cce00e48000d3200e4c000cf600e5c000d0200e60000d2800e64000d1800e68000d0a00e6c000cbe00e7c000cd200e84000d1c00e90000cee00e98000ce400ed4000d3400d80000c5c00df4000cc600e34000ccc00e9c000cf000d7c000c9400d60000c4a00d6c000c8000d70000c8a00d9c000ca003540000d0e00d8c000ca600eac000d3000cf4000c3800d84000c5e00d58000c7200e08000cb600ea8000d2c00e70000d0400dfc000cd600d54000c7000ea4000d2a00ea0000d1a)
  (.lf 0)) (.nd (.lf
  0x6ed4017e6406edc017e4806ee0017e5a06e88017e8606b38017e7a06e90017e9206ee4017e6c06ef4017e3606f10017e5406efc017e7406f0c017e8c06f2c017e9806f20017e6006f40017e8e06f48017e9a06f4c017e9c06f50017ea206f3c017eaa06f44017ea406f68017eac06f6c017ec206f70017eae06f84017eb006f98017f1606f88017eb206f9c017eb406fa4017ed006fb4017f0006f80017eec06fb8017eba06f90017ec806fbc017ee206fc0017eca06fc4017f2606fc8017ec406fd0017ebc06fd4017ef806fd8017ece06fe0017f3206fe4017ef606ff4017f0206ff8017f2806ffc017f1807000017f0a07004017ebe07014017ed20701c017f1c07028017eee07030017ee40707c017f3406f18017e5c06f8c017ec606fcc017ecc07034017ef006f14017e9406ef8017e4a06f04017e8006f08017e8a06f34017ea0070f8017f0e06f24017ea607044017f3006e58017e3806f1c017e5e)
  (.lf 0))) (.nd (.nd (.lf
  0x98bc018e10098c4018e12098c8018e1c098ec018e1a096dc018e3009718018e82096f8018e420971c018e4c095ac018e7609670018e58096fc018e6209700018e3c095b4018e7809704018e3e09708018e440970c018e4609714018e52096cc018e6a096d4018e90096f4018e34096d0018e8409720018e6409728018e4809674018e5a0972c018e86095b8018e7a09734018e9209738018e6c09748018e3609764018e5409750018e7409760018e8c09780018e9809774018e6009794018e8e0979c018e9a097a0018e9c097a4018ea209790018eaa09798018ea4097bc018eac097c0018ec2097c4018eae097d8018eb0097ec018f16097dc018eb2097f0018eb4097f8018ed009808018f00097d4018eec0980c018eba097e4018ec809810018ee209814018eca09818018f260981c018ec409824018ebc09828018ef809830018ece09838018f320983c018ef609854018f0209858018f280985c018f18)
  (.lf 0)) (.nd (.lf
  0x1758c00acbe1759c00acd2175a400ad1c175b000acee175b800ace41768800ad341754c00ad0c1748c00ac5c1750000acc61754000accc175bc00acf01748800ac941746c00ac4a1747800ac801747c00ac8a174a800aca01756000ad0e1749800aca6175cc00ad30173d400ac381749000ac5e1746400ac721751400acb6175c800ad2c1759000ad041750800acd61746000ac70175c400ad2a175c000ad1a1637400ac3a1744c00ac661740800ac881745c00ac6e1741c00ac4e173f000ac681638400ac32173ec00ac40175a000acd4175e800acf41759400acc01756400acfa175e400acf2175f000ad081756800acfc1756c00ad3c1768c00ad361759800ad06175a800ad1e175b400ad3a1769000ad381758400ad10175ac00ad201760c00ad221758800ad121761c00ad2e1755400ad241757000ad3e1749c00ac96174a400ac9e1740000ac7e1747400ac7c174ac00aca8174e800ad14174ec00ace6)
  (.lf 0)))

def aesWireTree66 : BTree :=
  .nd (.nd (.nd (.lf
  0x21e4801367e221d401367c221e40136a8222680137142220c0136e6222780136d8222800136fe222580136dc222a00136ea222180136e8222480136b82229c0136de222b40136e02227c0136da2219001365021ec401365621b8401381021b7401381221bc801381c21b3401381a217280138302165c01388220abc013842216fc01384c219cc013876219c401385821714013862219e401383c219d0013878219ec01383e2166401384421668013846219f00138522170401386a21708013890219dc013834219b80138842171801386421a1c013848219c801385a219bc01388621a1001387a219e80138922173c01386c219e0013836219f401385421a2401387421a4001388c21a6001389821a2801386021a4401388e21a6c01389a21a7c01389c21a800138a221a180138aa21a480138a421a4c0138ac21a640138c221a580138ae21a700138b021ae401391621a740138b221a840138b421aa40138d0)
  (.lf
  0xea200030630e7cc0030610e8d800305f0e83000305d0e72800305b0e6f40030590e7740030570e9280030550ea340030530e8940030510e8b800304f0e84c00304d0e7a000304b0e7b00030490e9680030470eac80030450ea980030430b88c0030410b99800303f0bb1800303d0b95400303b0b9700030390b8440030370b7900030350ba640030330b9a40030310bae000302f0c0c800302d0b93400302b0b8ec0030290b8540030270ba2c0030250ba380030230b9e00030210bb2000301f0b94000301d0b8b800301b0b89c0030190b7f00030170ba840030150b8ac0030130b8f80030110b9b800300f0bd0000300d0b91400300b0b7cc0030090b8640030070b7780030050ba6c0030030cfa80030010d448002fff0d2dc002ffd109dc002ffb109ac002ff90d580002ff70d598002ff50d29c002ff30d23c002ff10cfc0002fef0d480002fed0d2c0002feb0cf9c002fe90d250002fe70d51c002fe5))
  (.nd (.lf
  0x90fc01807e0919801807c091d00180a80920c018114092100180e6092400180d8092480180fe091ec0180dc091f40180ea092140180e8091f80180b8091f00180de091fc0180e0092440180da0915c018050091640180560ae740034100ae7c0034120ae8000341c0ae9c00341a09bd80034300acec00348209cdc00344209ce000344c0a60c0034760a6180034580ace40034620a60800343c0acd00034780ace000343e0acd40034440acd80034460ace80034520acc400346a0accc0034900a5e00034340acc80034840acf00034640acf80034480a61c00345a0ad000034860ad0800347a0ad0c0034920ad1000346c0a5e40034360ad340034540ad200034740ad3000348c0ad500034980ad440034600ad6400348e0ad6c00349a0ad7000349c0ad740034a20ad600034aa0ad680034a40ad8c0034ac0ad900034c20ad940034ae0ada80034b00adbc0035160adac0034b20adc00034b40adc80034d0)
  (.lf 0))) (.nd (.nd (.lf
  0x1d904011e641d8e4011e481d944011e5a1d898011e861d62c011e7a1d890011e921d8e8011e6c1d8c4011e361d8d4011e541d918011e741d8fc011e8c1d928011e981d984011e601d91c011e8e1d92c011e9a1d988011e9c1d98c011ea21d938011eaa1d954011ea41d958011eac1d95c011ec21d974011eae1d978011eb01da00011f161d97c011eb21d9a8011eb41d9c4011ed01da2c011f001d9b4011eec1d9d0011eba1d9ec011ec81da14011ee21d9f0011eca1da04011f261d968011ec41d9d4011ebc1d9c8011ef81d994011ece1d9bc011f321da18011ef61da34011f021d9f4011f281da08011f181d960011f0a1d9e0011ebe1d9cc011ed21d9a4011f1c1d9b8011eee1da28011ee41da30011f341da88011f0c1d948011e5c1d9e8011ec61d9f8011ecc1da40011ef01d920011e941d914011e4a1d8f4011e801d8f8011e8a1d950011ea01da8c011f0e1d930011ea61daac011f301d4d8011e38)
  (.lf 0)) (.nd (.lf
  0x1b1dc00c03e1a74800c0441a7c000c0461b1ec00c0521b1c400c06a1b1d400c0901abb400c0341abac00c0841a75800c0641b1f800c0481b20000c05a1abb800c0861b20400c07a1b20800c0921b20c00c06c1abc000c0361b23000c0541b21c00c0741b22c00c08c1b24c00c0981b24000c0601b26000c08e1b26800c09a1b26c00c09c1b27000c0a21b25c00c0aa1b26400c0a41b28800c0ac1b28c00c0c21b29000c0ae1b2a400c0b01b2b800c1161b2a800c0b21b2bc00c0b41b2c400c0d01b2d400c1001b2a000c0ec1b2d800c0ba1b2b000c0c81b2dc00c0e21b2e000c0ca1b2e400c1261b2e800c0c41b2f000c0bc1b2f400c0f81b2fc00c0ce1b30400c1321b30800c0f61b32000c1021b32400c1281b32800c1181b32c00c10a1b33800c0be1b34800c0d21b35000c11c1b35c00c0ee1b36400c0e41b3b000c1341b2f800c10c1b23800c05c1b2ac00c0c61b2ec00c0cc1b36800c0f01b23400c094)
  (.lf 0)))

def aesWireTree67 : BTree :=
  .nd (.nd (.nd (.lf
  0xe26c0040ee0e2e40040e40e2d00041340e1f800405c0e2780040c60e3340040cc0e2e80040f00e2100040940dfac00404a0e1d40040800e1e800408a0e2000040a00e36000410e0e2140040a60e3000041300df640040380e20800405e0e1e00040720e2940040b60e2fc00412c0e31c0041040e27c0040d60e1dc0040700e2f800412a0e2ec00411a0da6800403a0e1c00040660e1b80040880e1d800406e0d33800404e0df700040680da8c0040320df580040400e2cc0040d40e3440040f40e2c40040c00e30c0040fa0e2f00040f20e3240041080e3100040fc0e30800413c0e2d40041360e3200041060e32c00411e0e34000413a0e2d80041380e36c0041100e3380041200e33c0041220e3700041120e35000412e0e2bc0041240e36400413e0e2200040960e1fc00409e0d3c000407e0e1d000407c0e2180040a80e2580041140e25c0040e60e2980040d80e2a40040fe0e2340040dc0e2400040ea)
  (.lf 0)) (.nd (.lf
  0x5bf80162ce05c0001633205c040162f605c1401630205c1801632805c1c01631805c2001630a05c240162be05c340162d205c3c01631c05c480162ee05c500162e405c9c01633405b3801625c05bac0162c605bec0162cc05c540162f005b3401629405b1801624a05b2401628005b2801628a05b540162a0065f801630e05b440162a605c6401633005a7401623805b3c01625e05b1001627205bc00162b605c6001632c05c2801630405bb40162d605b0c01627005c5c01632a05c5801631a0546001623a05af801626605aa801628805b0801626e05ac801624e05a6401626805aa00162320545c01624005c380162d405c6c0162f405c2c0162c005c080162fa05c680162f205c7401630805c0c0162fc05c1001633c05ca001633605c3001630605c4001631e05c4c01633a05ca4016338065fc01631005c4401632005c800163220660001631205c8401632e05bfc0163240666001633e05b48016296)
  (.lf 0))) (.nd (.nd (.lf
  0xffa00076ec0ffd80076ba0ffb00076c80ffdc0076e20ffe00076ca0ffe40077260ffe80076c40fff00076bc0fff40076f80fff80076ce10000007732100040076f610014007702100180077281001c0077181002000770a100240076be100340076d21003c00771c100480076ee100500076e41008c0077340ff3800765c0ffac0076c60ffec0076cc100540076f00ff340076940ff1800764a0ff240076800ff2800768a0ff540076a0104e800770e0ff440076a6100640077300fed00076380ff3c00765e0ff100076720ffc00076b61006000772c100280077040ffb40076d60ff0c0076701005c00772a1005800771a0fdac00763a0fef00076660fefc0076880ff0800766e0fda800764e0fec00076680fe7c0076320fd6c007640100380076d41006c0076f41002c0076c0100080076fa100680076f2100740077081000c0076fc1001000773c10090007736100300077061004000771e1004c00773a)
  (.lf 0)) (.nd (.lf
  0x16a3c00b322169d800b31216a4400b32e169a400b324169c000b33e168ec00b296168f400b29e1671400b27e168c400b27c168fc00b2a81693800b3141693c00b2e61696c00b2d81697400b2fe1691800b2dc1692000b2ea1694000b2e81692400b2b81691c00b2de1692800b2e01697000b2da1688000b250167e000b2561736c00aa101737400aa121737800aa1c173a000aa1a1639c00aa30171bc00aa821719c00aa42171c000aa4c170b800aa76170bc00aa58171a000aa62171a400aa3c1710000aa78171a800aa3e171ac00aa44171b000aa46171b800aa52170f400aa6a170fc00aa901719800aa34170f800aa84171c400aa64171cc00aa48170c000aa5a171d000aa861710800aa7a171d800aa92171dc00aa6c171ec00aa361720800aa54171f400aa741720400aa8c1722400aa981721800aa601723800aa8e1724000aa9a1724400aa9c1724800aaa21723400aaaa1723c00aaa41726000aaac)
  (.lf 0)))

def aesWireTree68 : BTree :=
  .nd (.nd (.nd (.lf
  0x999c0008ff099840008fd0998c0008fb0993c0008f9099ac0008f7099280008f50996c0008f3099a40008f1087580008ef0874c0008ed08fd80008eb087880008e908aa80008e7087800008e5087780008e308ff40008e108fec0008df08fb80008dd091100008db08fa00008d9095f40008d708fe40008d508fc80008d30911c0008d1096300008cf096400008cd0995c0008cb096280008c9096980008c70960c0008c5095fc0008c3099940008c1099980008bf099800008bd099880008bb099380008b9099a80008b7099240008b5099680008b3099a00008b1087540008af087480008ad08fd40008ab087840008a908a900008a70877c0008a5087740008a308ff00008a108fe800089f08fb400089d0910c00089b08f9c000899095f000089708fe000089508fc4000893091180008910962c00088f0963800088d0995400088b096240008890969000088709604000885095f800088309990000881)
  (.lf
  0x14c400029f514c040029f3187700029f114e7c0029ef14b4c0029ed14d4c0029eb14c8c0029e914b3c0029e714ba80029e514bc80029e314c080029e114d000029df14b680029dd187440029db14c940029d914b300029d718a800029d514be80029d314cd00029d114e100029cf14dec0029cd14d280029cb14c980029c914b980029c714bd40029c514bdc0029c313d0c0029c113f980029bf13ed40029bd13d700029bb13c640029b913d180029b713db00029b513e700029b313fa00029b113f8c0029af13ea00029ad13d680029ab13cfc0029a913da00029a713e480029a513e280029a3144640029a113eb000299f13d4800299d13cec00299b13ccc00299913d9400299713e5c00299513d8000299313d0000299113f2400298f13e8c00298d13d5400298b13c5400298913d2c00298713dc400298513e38002983125a8002981130e400297f130b400297d15cf400297b15ce800297912584002977))
  (.nd (.lf
  0xab7400309a0ab7800309c0ab7c0030a20ab680030aa0ab700030a40ab940030ac0ab980030c20ab9c0030ae0abb00030b00abc40031160abb40030b20abc80030b40abd00030d00abe00031000abac0030ec0abe40030ba0abbc0030c80abe80030e20abec0030ca0abf00031260abf40030c40abfc0030bc0ac000030f80ac040030ce0ac0c0031320ac100030f60ac200031020ac240031280ac280031180ac2c00310a0ac300030be0ac400030d20ac4800311c0ac540030ee0ac5c0030e40ac980031340ab4400305c0abb80030c60abf80030cc0ac600030f00ab400030940ab2400304a0ab300030800ab3400308a0ab600030a00aeac00310e0ab500030a60ac700031300aadc0030380ab4800305e0ab1c0030720abcc0030b60ac6c00312c0ac340031040abc00030d60ab180030700ac6800312a0ac6400311a0a5b400303a0aafc0030660ab080030880ab1400306e0a5b000304e0aacc003068)
  (.lf 0))) (.nd (.nd (.lf
  0x19df0001e231b408001e211b4ac001e1f1b658001e1d1b428001e1b1b478001e191b47c001e171b3c4001e151a39c001e131b4e4001e111b540001e0f1a180001e0d1f298001e0b1aae8001e091abdc001e071ac34001e051aab8001e031ab24001e011af80001dff1ac68001dfd1af84001dfb1aa98001df91af74001df71af78001df51aaac001df319b48001df11aa80001def1aa84001ded1af58001deb1a168001de91ac10001de71a188001de51ac28001de31f28c001de11acb0001ddf1aa8c001ddd1aa48001ddb1ab10001dd91ab00001dd71aad8001dd51ab04001dd31aaec001dd11aa90001dcf1abd4001dcd1ac40001dcb19da8001dc91cd30001dc719dd4001dc51cf5c001dc319dbc001dc119db4001dbf1ce68001dbd19e70001dbb19c04001db9196d0001db71a16c001db51aaa8001db31ce04001db11ce40001daf1cec0001dad1cec4001dab1cd1c001da91ce30001da71cde4001da5)
  (.lf 0)) (.nd (.lf
  0x1e9c40106f81e9b00106ce1e9f40107321ea100106f61ea740107021e9840107281e9940107181e95c01070a1e9d00106be1e9c00106d21e9a801071c1e9f80106ee1ea0c0106e41ea780107341e9e001070c1e93c01065c1e96c0106c61e9800106cc1ea240106f01e9200106941e4b001064a1e8e80106801e8ec01068a1e9440106a01ea1801070e1e9240106a61ea3c0107301e2f40106381e94c01065e1e8fc0106721e9b80106b61ea3401072c1ea800107041e9740106d61e8f40106701ea3001072a1ea2801071a1e3e001063a1e3ec0106661e3080106881e8f001066e1e3e801064e1e2fc0106681e2c00106321e2f80106401e9d40106d41ea500106f41e9dc0106c01ea140106fa1ea4c0106f21ea900107081ea1c0106fc1ea4801073c1ea7c0107361ea840107061ea8801071e1ea9401073a1eaa40107381ea200107101ea8c0107201ea9c0107221ea2c0107121ea3801072e1e9fc010724)
  (.lf 0)))

def aesWireTree69 : BTree :=
  .nd (.nd (.nd (.lf
  0x9b18000ed109e84000ecf0cd98000ecd036d4000ecb036b400021409a3c000ec9099c0000ec7099b8001e1803748000ec503710000ec30afd0000ec10a310000ebf0a330000ebd0a498000ebb0a41c000eb909d20000eb709ab8000eb50e4c8000eb309ab4000eb103788000eaf0e518000ead03464000eab0a520000ea909b7c000ea70a350000ea50e4c4000ea30a34c000ea10b0d8000e9f0c348000e9d0a45c000e9b09d3c000e990a400000e9709d38000e9509d1c000e9309acc000e9109a68000e8f0a4ac000e8d09a64000e8b0b118000e890cfd0000e870354c000e8509d40000e830a464000e810a424000e7f03794000e7d0c538000e7b09a6c000e790c590000e7709c90000e750c56c000e730b114000e710c568000e6f0a348000e6d09cc4000e6b09d50000e690a480000e670a47c000e6509d2c000e6309e30000e6109e2c000e5f09afc000e5d0a438000e5b035f8000e590a428000e57)
  (.lf 0)) (.nd (.lf
  0x597c015936058ec015906058fc01591e0590801593a0598001593806018015910059000159200593c0159220601c0159120594001592e058b80159240600801593e058040158960580c01589e0550801587e057dc01587c058140158a805850015914058540158e6058840158d80588c0158fe058300158dc058380158ea058580158e80583c0158b8058340158de058400158e0058880158da057a0015850057a8015856053a8016410053b0016412053b401641c053e001641a045300164300521c016482051fc0164420522001644c043bc01647604470016458052000164620520401643c043c00164780520801643e0520c01644405210016446052180164520452001646a04528016490051f801643404524016484052240164640522c0164480447401645a05230016486043c401647a052380164920523c01646c0524c01643605268016454052540164740526401648c0528401649805278016460)
  (.lf 0))) (.nd (.nd (.lf
  0x1a3401408801a4401406e019cc01404e019c0014068019bc014032019b801404001b880140d401bd00140f401b7c0140c001b4c0140fa01bcc0140f201bd801410801b500140fc01b5401413c01c2c01413601b8001410601b9001411e01b9c01413a01c3001413801b6c01411001b9401412001be401412201b7001411201bfc01412e01b3c01412401b5801413e01a8401409601a8c01409e01a0401407e01a5c01407c01a940140a801ad001411401ad40140e601b040140d801b0c0140fe01ab00140dc01ab80140ea01ad80140e801abc0140b801ab40140de01ac00140e001b080140da01a0801405001a10014056039f4014810039fc01481203a0001481c03a6401481a038380148300380001488203828014842037e001484c023680148760384c0148580382c014862037dc01483c0236c014878037fc01483e038300148440383401484603844014852037e801486a037f00148900383c014834)
  (.lf 0)) (.nd (.lf
  0x19f0000ca641a1bc00ca481a1c800ca5a19f0800ca861a1e000ca7a1a1e800ca9219f1000ca6c19f2000ca3619f3000ca541a1c400ca741a1e400ca8c1a1f800ca981a1d400ca601a20400ca8e1a20c00ca9a1a21000ca9c1a21400caa21a20000caaa1a20800caa41a22c00caac1a23000cac21a23400caae1a24800cab01a25c00cb161a24c00cab21a26000cab41a26800cad01a27800cb001a24400caec1a27c00caba1a25400cac81a28000cae21a28400caca1a28800cb261a28c00cac41a29400cabc1a29800caf81a2a000cace1a2a800cb321a2ac00caf61a2c400cb021a2c800cb281a2cc00cb181a2d000cb0a1a2dc00cabe1a2ec00cad21a2f400cb1c1a30000caee1a30800cae41a36000cb341a29c00cb0c1a1cc00ca5c1a25000cac61a29000cacc1a30c00caf01a1ec00ca941a1c000ca4a19f2800ca8019f2c00ca8a1a1dc00caa01a2b000cb0e1a1f000caa61a31c00cb3018f0400ca38)
  (.lf 0)))

def aesWireTree70 : BTree :=
  .nd (.nd (.nd (.lf
  0x22aa00126a022e5c01270e22a880126a622e84012730229d001263822a9001265e22a0801267222dfc0126b622e8001272c22e4401270c22eb801270422e1c0126d622a0401267022e7c01272a22e7801271a227e401263a229f001266622a2c01268822a0001266e227d801264e229d4012668229840126322290801264022e140126d422e740126f422f0c0126c022e540126fa22e700126f222ec001270822e580126fc22ee401273c22eb001273622ebc01270622ed001271e22eec01273a22eb401273822e6001271022ed401272022ed801272222e9401271222e9801272e22e4001272422e6401273e22a8401269622a9401269e22a3001267e22a1801267c22aa80126a822ab401271422ac40126e622df80126d822ea00126fe22b980126dc22bb00126ea22ac80126e822b940126b822ba80126de22bac0126e022e480126da229940126502298c01265623578012810235340128122358801281c)
  (.lf
  0x1b43c0035891b5e40035871b6600035851b4cc0035831c2dc0035811c05400357f1c33c00357d1bf1400357b1bf2c0035791bf200035771bf8c0035751bfd00035731c5640035711c06c00356f1bff000356d1bef800356b1beac0035691beec0035671bf740035651bfd80035631c0600035611c2c400355f1bff800355d1c7a000355b1c7940035591bf6c0035571c7d00035551c3040035531c0a40035511c00c00354f1beb000354d1bf4000354b1bed80035491bf500035471bfac0035451bebc0035431ce100035411ce5c00353f1d26800353d1cdb400353b1cd680035391d6580035371cd380035351cef40035331ce6c0035311d1bc00352f1d32800352d1cd9000352b1cd780035291cdec0035271cf080035251cf300035231cea00035211d1e800351f1cce000351d1ce2c00351b1ce340035191cd200035171cec80035151ce080035131ccc40035111ce7800350f1cf6000350d1cd0000350b))
  (.nd (.lf
  0xfbd0006ec60fc10006ecc0fc78006ef00fb58006e940fb1c006e4a0fb48006e800fb4c006e8a0fb78006ea00fd20006f0e0fb68006ea60fc88006f300fafc006e380fb60006e5e0fb3c006e720fbe4006eb60fc84006f2c0fc4c006f040fbd8006ed60fb38006e700fc80006f2a0fc7c006f1a0fa48006e3a0fb14006e660fb24006e880fb34006e6e0f594006e4e0fae0006e680f548006e320fadc006e400fc5c006ed40fc90006ef40fc50006ec00fc2c006efa0fc8c006ef20fc98006f080fc30006efc0fc34006f3c0fcb4006f360fc54006f060fc64006f1e0fc70006f3a0fcb8006f380fd2c006f100fc68006f200fca4006f220fd30006f120fca8006f2e0fc20006f240fd24006f3e0fb6c006e960fb74006e9e0f638006e7e0fb44006e7c0fb7c006ea80fbb8006f140fbbc006ee60fbec006ed80fbf4006efe0fb98006edc0fba0006eea0fbc0006ee80fba4006eb80fb9c006ede0fba8006ee0)
  (.lf 0))) (.nd (.nd (.lf
  0x21ed400220d1e89c00220b21e340022091e8dc002207202b80022051e6ac0022031e6e4002201228bc0021ff1e6d80021fd20dbc0021fb21e1c0021f91e85001041620cfc0021f720d780021f520d740021f320d6c0021f120d8c0021ef20aa00021ed205100021eb229c80021e9228840021e7227ac0021e5228300021e31e6980100101e67c0100121e6dc01001c1ed7801001a1e26c0100301e4e00100821e2780100421e27c01004c1e4740100761e46c0100581e5040100621e47801003c1e4f00100781e50801003e1e4f80100441e4fc0100461e5140100521e4e401006a1e4d80100901e2b00100341e4e80100841e52c0100641e50c0100481e4a801005a1e4ec0100861e4f401007a1e4dc0100921e53401006c1e2b40100361e5180100541e5740100741e55801008c1e5600100981e5480100601e57801008e1e5c401009a1e5cc01009c1e5d00100a21e5280100aa1e57c0100a41e5800100ac)
  (.lf 0)) (.nd (.lf
  0x1c93800ed3c1c9dc00ed361c96400ed061c97400ed1e1c98000ed3a1c9e000ed381c95000ed101c97800ed201c9bc00ed221c95400ed121c9c400ed2e1c92000ed241c93c00ed3e1c86800ec961c87000ec9e1c79c00ec7e1c84000ec7c1c87800eca81c8b400ed141c8b800ece61c8e800ecd81c8f000ecfe1c89400ecdc1c89c00ecea1c8bc00ece81c8a000ecb81c89800ecde1c8a400ece01c8ec00ecda1c7b800ec501c7bc00ec561f1c800e4101f1bc00e4121f22800e41c1f1b000e41a1eff400e4301efc800e4821efe800e4421b46800e44c1b5b000e4761f00400e4581efec00e4621b5ac00e43c1efc000e4781efd000e43e1f03000e4441f03400e4461f01c00e4521f02800e46a1f03c00e4901eff800e4341f02c00e4841f08c00e4641f03800e4481f00800e45a1f04000e4861efcc00e47a1f05400e4921f06800e46c1effc00e4361f02000e4541f0a400e4741f07c00e48c1f08800e498)
  (.lf 0)))

def aesWireTree71 : BTree :=
  .nd (.nd (.nd (.lf
  0x148fc0098841495c00986414964009848149b000985a14900009886134b800987a148f40098921493c00986c1493400983614974009854149940098741494c00988c14980009898149bc0098601499800988e1499c00989a149c000989c149e00098a2149f00098aa149dc0098a4149f40098ac14a100098c214a1c0098ae14a200098b014a4400991614a240098b214a280098b414a380098d014a7000990014a040098ec14a300098ba14a4c0098c814a9c0098e214a540098ca14a4800992614a140098c414a340098bc14ab00098f814ad00098ce14a0c00993214aa80098f614a8000990214a5000992814af400991814a1800990a14a580098be14ad80098d2149e400991c14a080098ee14aa00098e414a7400993414abc00990c149b400985c14a3c0098c614a5c0098cc14aa40098f0149780098941496800984a149440098801494800988a149d80098a014ac000990e149840098a614cb4009930)
  (.lf 0)) (.nd (.lf
  0x6584016c76078e4016c58078c4016c6207204016c3c06588016c7807208016c3e078c8016c44078cc016c46078dc016c52071c0016c6a071c4016c90078d4016c34071fc016c84078e8016c64078f0016c48078f4016c5a072a4016c860658c016c7a0720c016c92078f8016c6c07908016c3607924016c5407910016c7407920016c8c07940016c9807934016c6007954016c8e0795c016c9a07960016c9c07964016ca207950016caa07958016ca40797c016cac07980016cc207984016cae07998016cb0079ac016d160799c016cb2079b0016cb4079b8016cd0079c8016d0007994016cec079cc016cba079a4016cc8079d0016ce2079d4016cca079d8016d26079dc016cc4079e4016cbc079e8016cf8079f0016cce079f8016d32079fc016cf607a14016d0207a18016d2807a1c016d1807a20016d0a07a2c016cbe07a3c016cd207a44016d1c07a50016cee07a58016ce407b20016d34079ec016d0c)
  (.lf 0))) (.nd (.nd (.lf
  0x1f0c00125001f1400125601e8c000a1001e94000a1201e98000a1c01eb8000a1a01cd4000a3001cf8000a8201cb8000a4201cfc000a4c01cdc000a7601cf4000a5801cd0000a6201cbc000a3c01ce0000a7801ccc000a3e01cc0000a4401cc4000a4601cec000a5201ca4000a6a01cb4000a9001cd8000a3401ca8000a8401d00000a6401d08000a4801d0c000a5a01d10000a8601d18000a7a01d1c000a9201d20000a6c01d30000a3601d4c000a5401d38000a7401d48000a8c01d68000a9801d5c000a6001d7c000a8e01d84000a9a01d88000a9c01d8c000aa201d78000aaa01d80000aa401da4000aac01da8000ac201dac000aae01dc0000ab001dd4000b1601dc4000ab201dd8000ab401de0000ad001df0000b0001dbc000aec01df4000aba01dcc000ac801df8000ae201dfc000aca01e00000b2601e04000ac401e0c000abc01e10000af801e14000ace01e1c000b3201e20000af601e30000b02)
  (.lf 0)) (.nd (.lf
  0x13b6c0074c613bac0074cc13c140074f013af400749413ad800744a13ae400748013ae800748a13b140074a013c8000750e13b040074a613c2400753013a7800743813afc00745e13ad000747213b800074b613c2000752c13be800750413b740074d613acc00747013c1c00752a13c1800751a0fea400743a13aa800746613ab800748813ac800746e13a6400744e13a540074680fea000743213a5000744013bf80074d413c2c0074f413bec0074c013bc80074fa13c280074f213c3400750813bcc0074fc13bd000753c13c7000753613bf000750613c0000751e13c0c00753a13c7400753813c8800751013c0400752013c4000752213c8c00751213c4400752e13bbc00752413c8400753e13b0800749613b1000749e13a8c00747e13ae000747c13b180074a813b5400751413b580074e613b880074d813b900074fe13b340074dc13b3c0074ea13b5c0074e813b400074b813b380074de13b440074e0)
  (.lf 0)))

def aesWireTree72 : BTree :=
  .nd (.nd (.nd (.lf
  0x64f80004ff0651c0004fd071c80004fb064c40004f9072d00004f7065740004f5065480004f3071700004f107b440004ef07b880004ed07ab00004eb07ad00004e907a800004e707c540004e507be00004e307b140004e105f8c0004df05fa00004dd066240004db05f680004d9065d80004d705fc80004d505fb40004d3066840004d1068880004cf0689c0004cd06b940004cb068640004c906b640004c7068d00004c5068b00004c306bac0004c1064f00004bf065180004bd071ac0004bb064c00004b9072cc0004b7065700004b5065440004b3071640004b107b400004af07b840004ad07aac0004ab07acc0004a907a7c0004a707c500004a507bdc0004a307b100004a105f8800049f05f9c00049d0662000049b05f64000499065d400049705fc400049505fb00004930667c0004910688400048f0689800048d06b9000048b0686000048906b60000487068d4000485068ac00048306ba8000481)
  (.lf
  0x9e900025f50a0c40025f309de00025f109d8c0025ef09b340025ed038200025eb036cc0025e909c1c0025e709ec00025e509c5c0025e309b4c0025e109e000025df09d800025dd036880025db0357c0025d909c080025d709c680025d50a0e40025d30cfd80025d109e380025cf09db40025cd044080025cb035100025c909b680025c709c2c0025c509ea80025c3001fc0025c1001f80025bf001f40025bd001f00025bb001ec0025b9001e80025b7001e40025b5001e00025b3001dc0025b1001d80025af001d40025ad001d00025ab001cc0025a9001c80025a7001c40025a5001c00025a3001bc0025a1001b800259f001b400259d001b000259b001ac002599001a8002597001a4002595001a00025930019c0025910019800258f0019400258d0019000258b0018c0025890018800258700184002585001800025830017c0025810017800257f0017400257d0017000257b0016c00257900168002577))
  (.nd (.lf
  0x61ac016edc061b4016eea061d4016ee8061b8016eb8061b0016ede061bc016ee006204016eda0611c016e5006124016e5608410018610084180186120841c01861c0843801861a082200186300825c0186820821c0186420820c01864c082ac018676082b401865808254018662082a401863c082b0018678082a801863e0824c01864408298018646082580186520824401866a082a0018690082240186340824801868408260018664082b8018648082c401865a08268018686082dc01867a082e40186920827001866c082300186360828c018654082c0018674082e001868c082f4018698082d00186600830001868e0830801869a0830c01869c083100186a2082fc0186aa083040186a4083280186ac0832c0186c2083300186ae083440186b008358018716083480186b20835c0186b4083640186d008374018700083400186ec083780186ba083500186c80837c0186e2083800186ca08384018726)
  (.lf 0))) (.nd (.nd (.lf
  0x17cdc001b4717ce0001b4517780001b431777c001b4117714001b3f17710001b3d176ec001b3b17740001b3917888001b37176f8001b3515844001b33176fc001b311775c001b2f15874001b2d17768001b2b176c0001b29176d4001b27176e8001b2517728001b23193fc001b21186cc001b1f18994001b1d18714001b1b19438001b1917170001b17194c8001b15189fc001b1316c40001b1116c58001b0f1776c001b0d16c4c001b0b193e0001b09186dc001b0719394001b0519398001b0318984001b01186d4001aff189c0001afd186e0001afb186d0001af9186d8001af718940001af51943c001af318720001af117110001aef18a24001aed189f0001aeb186ec001ae919370001ae7186f0001ae518718001ae318948001ae11871c001adf18728001add19468001adb196d8001ad9189ec001ad719390001ad5193f0001ad319384001ad118a0c001acf189a0001acd16c60001acb176d8001ac9)
  (.lf 0)) (.nd (.lf
  0x1e7280104581e4380104621e70401043c1e7480104781e70801043e1e44c0104441e6fc0104461e4640104521e39001046a1e7000104901e4440104341e3940104841e4500104641e70c0104481e72c01045a1e4980104861e74c01047a1e7180104921e47c01046c1e4480104361e4c40104541e7140104741e75001048c1e7240104981e7380104601e75401048e1e75c01049a1e76001049c1e7640104a21e78c0104aa1e7580104a41e7900104ac1e7980104c21e7a00104ae1e7a80104b01e7b40105161e7c00104b21e7cc0104b41e7e00104d01e8140105001e80c0104ec1e7f40104ba1e7bc0104c81e82c0104e21e8880104ca1e7b80105261e79c0104c41e7fc0104bc1e7e40104f81e7800104ce1e8680105321e8300104f61e8180105021e7c40105281e7c80105181e7a401050a1e7f80104be1e7ec0104d21e76801051c1e8100104ee1e8340104e41e8280105341e85801050c1e73001045c)
  (.lf 0)))

def aesWireTree73 : BTree :=
  .nd (.nd (.nd (.lf
  0x16c00002cc017280002f001608000294015ec00024a015f8000280015fc00028a016280002a00369000030e016180002a601738000330015800002380161000025e015e4000272016940002b60173400032c016fc000304016880002d6015e00002700173000032a0172c00031a0156800023a015bc000266015cc000288015dc00026e0156400024e0155800026801554000232015500002400170c0002d4017400002f4017000002c0016dc0002fa0173c0002f201748000308016e00002fc016e400033c01764000336017040003060171400031e0172000033a01768000338036940003100171800032001754000322036980003120175800032e016d0000324036a000033e0161c0002960162400029e0159c00027e015f400027c0162c0002a8016680003140166c0002e60169c0002d8016a40002fe016480002dc016500002ea016700002e8016540002b80164c0002de016580002e0016a00002da)
  (.lf 0)) (.nd (.lf
  0x251c0010be0252c0010d20253400111c025400010ee025480010e4025880011340243000105c024a40010c6024e40010cc0254c0010f00242c0010940241000104a0241c0010800242000108a0244c0010a003d9400110e0243c0010a60255c001130023a40010380243400105e02408001072024b80010b60255800112c02520001104024ac0010d6024040010700255400112a0255000111a0238c00103a023e0001066023f00010880240000106e0238800104e0237c0010680237800103202374001040025300010d4025640010f4025240010c0025000010fa025600010f20256c001108025040010fc0250800113c0258c001136025280011060253800111e0254400113a0259000113803d980011100253c0011200257800112203d9c0011120257c00112e024f400112403db000113e024400010960244800109e023c000107e0241800107c024500010a80248c001114024900010e6024c00010d8)
  (.lf 0))) (.nd (.nd (.lf
  0x568c016100056580160ec056900160ba056680160c8056940160e2056980160ca0569c016126056a00160c4056a80160bc056ac0160f8056b40160ce056bc016132056c00160f6056d8016102056dc016128056e0016118056e401610a056f00160be057000160d20570801611c057140160ee0571c0160e405764016134055f001605c056640160c6056a40160cc057200160f0055ec016094055d001604a055dc016080055e001608a0560c0160a0056c401610e055fc0160a60573001613005534016038055f401605e055c8016072056780160b60572c01612c056b001610c056f40161040566c0160d6055c40160700572801612a0572401611a04f8001603a055b001606605548016088055c001606e0558001604e0552c016068054c001603204f58016040057040160d40573c0160f4056f80160c0056c80160fa057380160f205744016108056cc0160fc056d001613c05768016136056fc016106)
  (.lf 0)) (.nd (.lf
  0x1d0f800f73a1d17000f7381d0c800f7101d0f000f7201d13800f7221d0cc00f7121d14800f72e1d09800f7241d0b400f73e1cfe000f6961cfe800f69e1cdac00f67e1cfb800f67c1cff000f6a81d02c00f7141d03000f6e61d06000f6d81d06800f6fe1d00c00f6dc1d01400f6ea1d03400f6e81d01800f6b81d01000f6de1d01c00f6e01d06400f6da1cf8400f6501cf8c00f6561c73800ea101c74000ea121c74400ea1c1c77000ea1a1bf0400ea301c59400ea821c57400ea421c59800ea4c1c08400ea761c09000ea581c57800ea621c57c00ea3c1c08800ea781c58000ea3e1c58400ea441c58800ea461c59000ea521c07400ea6a1c08000ea901c57000ea341c00400ea841c59c00ea641c5a400ea481c09400ea5a1c5a800ea861c09800ea7a1c5b000ea921c5b400ea6c1c5c400ea361c5e000ea541c5cc00ea741c5dc00ea8c1c5fc00ea981c5f000ea601c61000ea8e1c61800ea9a1c61c00ea9c)
  (.lf 0)))

def aesWireTree74 : BTree :=
  .nd (.nd (.nd (.lf
  0x22490013098224ac013060224b401308e224b801309a224bc01309c224c40130a2224ec0130aa224c00130a4224f00130ac225f80130c22250c0130ae225100130b02251c013116225280130b22252c0130b4225740130d0225a0013100225000130ec225640130ba225240130c82253c0130e2225c00130ca22520013126226080130c42256c0130bc2257c0130f8224c80130ce22504013132225400130f6225a80131022255801312822550013118225fc01310a225680130be225780130d2224cc01311c225080130ee225480130e4225a40131342245801305c225140130c6226100130cc2254c0130f022488013094224a801304a224680130802246c01308a224a40130a02258c01310e224e40130a6225c801313020d640130382245c01305e2249c013072225600130b6225c401312c2258001310c225ac013104225180130d6224980130702255c01312a2255401311a2243c01303a22494013066)
  (.lf
  0x13c4800740613c90007404117d0007e0e11398007e0c117b8007e081139c007e06117d4007e04106e800680e106d8006808106e0006806106b0006804104d000720e104e000720810300007206104dc007204117f8007c0e117a0007c0c117a4007c0a117dc007c0811784007c06117f0007c041179c007c021256000660e12524006608120b4006606125540066041047400700e10468007008104900070061048400700411834007a0e11850007a081120c007a0611844007a041232800640e122d000640811ca00064061231400640411cc00064020fd28006e0e0fd38006e080fcac006e060fd34006e041188400780e115a400780c1189c0078081158c007806118740078041244000620e124a40062081226c00620612430006204122940062020fd18006c0e0fa2c006c0c0fa30006c0a0fd00006c080fa18006c060fd10006c04104f400760e10510007608100880076061050400760413d080032c1))
  (.nd (.lf
  0x500c015c3605028015c5405014015c7405024015c8c05044015c9805038015c6005058015c8e05060015c9a05064015c9c05068015ca205054015caa0505c015ca405080015cac05084015cc205088015cae0509c015cb0050b0015d16050a0015cb2050b4015cb4050bc015cd0050cc015d0005098015cec050d0015cba050a8015cc8050d4015ce2050d8015cca050dc015d26050e0015cc4050e8015cbc050ec015cf8050f0015cce050f8015d32050fc015cf60510c015d0205110015d2805114015d1805118015d0a0511c015cbe0512c015cd205134015d1c05140015cee05148015ce405194015d3405030015c5c050a4015cc6050e4015ccc0514c015cf00502c015c9405010015c4a0501c015c8005020015c8a0504c015ca005a44015d0e0503c015ca60515c015d3004510015c3805034015c5e05008015c72050b8015cb605158015d2c05120015d04050ac015cd605004015c7005154015d2a)
  (.lf 0))) (.nd (.nd (.lf
  0x20be0010ee420cb4010f3420c18010f0c2056c010e5c20b9c010ec620bb8010ecc20c2c010ef02055c010e941ffb0010e4a1fec0010e8020b34010e8a2057c010ea020c1c010f0e20560010ea620c64010f301fe10010e3820570010e5e20548010e7220bec010eb620c38010f2c20cc0010f0420ba0010ed620544010e7020c34010f2a20c30010f1a1fdfc010e3a20540010e6620b30010e881fe34010e6e1fdac010e4e1fe18010e681fe9c010e321fd0c010e4020c14010ed420c44010ef420bfc010ec020c0c010efa20c40010ef220cd8010f0820c28010efc20be4010f3c20cb8010f3620cc4010f0620cc8010f1e20cd0010f3a20cbc010f3820c20010f1020ccc010f2020ce0010f2220c24010f1220c3c010f2e20c08010f2420c84010f3e20b38010e9620578010e9e1fe28010e7e1febc010e7c20564010ea820b54010f1420b70010ee620bd0010ed820be8010efe20b5c010edc20b78010eea)
  (.lf 0)) (.nd (.lf
  0x15e8800890215e8c00892815e9000891815e9400890a15ea00088be15eb00088d215eb800891c15ec40088ee15ecc0088e415f2c00893415e6000890c15da000885c15e140088c615e540088cc15ed00088f015d9c00889415d8000884a15d8c00888015d9000888a15dbc0088a015e7400890e15dac0088a615ee000893015d2000883815da400885e15d7800887215e280088b615edc00892c15ea400890415e1c0088d615d7400887015ed800892a15ed400891a1313c00883a15d5000886615d6000888815d7000886e15d0c00884e15cfc008868130c400883215cf800884015eb40088d415ef00088f415ea80088c015e780088fa15eec0088f215ef800890815e7c0088fc15e8000893c15f3000893615eac00890615ebc00891e15ec800893a15f3400893815e9800891015ec000892015f0400892215e9c00891215f1000892e15e6800892415e8400893e15db000889615db800889e15d3400887e)
  (.lf 0)))

def aesWireTree75 : BTree :=
  .nd (.nd (.nd (.lf
  0x103b80070b2103bc0070b4104540070d0103cc007100103900070ec104280070ba103a80070c8103d40070e2103b00070ca103f8007126104180070c4104300070bc1045c0070f81037c0070ce103980071321040c0070f6103d0007102103ac007128103f40071181041400710a1042c0070be104580070d21037800711c103940070ee103d80070e4103dc0071341046400710c1031800705c103a40070c6104200070cc103e40070f0101040070941033400704a101000070801011c00708a103480070a01046c00710e101080070a610408007130103200070381031c00705e1034c007072104240070b61040400712c10438007104103b40070d6103400070701040000712a103fc00711a0fe1400703a1033c007066100ec007088100f800706e0fe2000704e100d80070680fdf4007032100bc007040104600070d4104940070f4104340070c0104a80070fa104880070f2104b0007108104ac0070fc)
  (.lf 0)) (.nd (.lf
  0x115680078f4115280078c0115040078fa115640078f211570007908115080078fc1150c00793c115980079361152c0079061153c00791e1154800793a1159c0079381186c0079101154000792011584007922118700079121158800792e114f80079241186800793e114440078961144c00789e113e000787e1141c00787c114540078a811490007914114940078e6114c40078d8114cc0078fe114700078dc114780078ea114980078e81147c0078b8114740078de114800078e0114c80078da10f5400785010f5c00785606d8001761006d8801761206d8c01761c06db801761a06be001763006bf401768206bc401764206bf801764c06b4401767606b7001765806bdc01766206bc801763c06b4801767806bd801763e06bcc01764406bd001764606bf001765206bb801766a06bc001769006be401763406bbc01768406bfc01766406c0401764806b7401765a06c0801768606b4c01767a06c10017692)
  (.lf 0))) (.nd (.nd (.lf
  0xba7800563a0b9c80056660bd400056880b9d000566e0b9c400564e0b8780056680bd0c0056320b7d40056400be700056d40bea40056f40be640056c00be400056fa0bea00056f20beac0057080be440056fc0be4800573c0bec80057360be680057060be7800571e0be8400573a0becc0057380c0ac0057100be7c0057200beb80057220c0b00057120bebc00572e0be340057240c0b800573e0bd800056960bd8800569e0b87c00567e0bd5800567c0bd900056a80bdcc0057140bdd00056e60be000056d80be080056fe0bdac0056dc0bdb40056ea0bdd40056e80bdb80056b80bdb00056de0bdbc0056e00be040056da0bd240056500bd2c0056560ec88004e100ec90004e120ec94004e1c0ecb4004e1a0e970004e300eb00004e820e8a0004e420e97c004e4c0eaa8004e760eaac004e580eaf8004e620eaa4004e3c0eae4004e780eaf4004e3e0eae8004e440eaec004e460eafc004e520ead8004e6a)
  (.lf 0)) (.nd (.lf
  0x1af9800fa7a1f31000fa921f31400fa6c1f32400fa361f34000fa541f32c00fa741f33c00fa8c1f35c00fa981f35000fa601f37000fa8e1f37800fa9a1f37c00fa9c1f38000faa21f36c00faaa1f37400faa41f39800faac1f39c00fac21f3a000faae1f3b400fab01f3c800fb161f3b800fab21f3cc00fab41f3d400fad01f3e400fb001f3b000faec1f3e800faba1f3c000fac81f3ec00fae21f3f000faca1f3f400fb261f3f800fac41f40000fabc1f40400faf81f40c00face1f41400fb321f41800faf61f43000fb021f43400fb281f43800fb181f43c00fb0a1f44800fabe1f45800fad21f46000fb1c1f46c00faee1f47400fae41f4e000fb341f40800fb0c1f34800fa5c1f3bc00fac61f3fc00facc1f47800faf01f34400fa941f32800fa4a1f33400fa801f33800fa8a1f36400faa01f41c00fb0e1f35400faa61f48800fb301af9400fa381f34c00fa5e1f32000fa721f3d000fab61f48400fb2c)
  (.lf 0)))

def aesWireTree76 : BTree :=
  .nd (.nd (.nd (.lf
  0x21864013eb821848013ee8218c0013eea2186c013edc21890013efe21888013ed821838013ee62184c013f14217e0013ea8217fc013e7c21788013e7e2181c013e9e217d8013e9621938013f3e218a4013f2421960013f2e21958013f122196c013f2221968013f202194c013f1021954013f3821978013f3a21924013f1e2191c013f0621950013f36218dc013f3c219a4013efc21920013f08218e8013ef2219a0013efa21914013ec021988013ef4218b8013ed42163c013e4021688013e3221780013e6820ad0013e4e2180c013e6e218e4013ef0217a4013e88217d4013e94217b4013e6620b14013e3a218ec013f1a217c8013e5c218f0013f2a21814013e7021850013ec6217b0013e4a21964013ecc21854013ed621918013f0421928013f0c218f4013f2c2187c013eb621818013e72217cc013e5e21794013e38218f8013f30217dc013ea62192c013f0e21820013ea021804013e8a21800013e80)
  (.lf
  0x21658002df520af0002df323834002df121604002def216a8002ded20a9c002deb21734002de921748002de721654002de520adc002de320a20002de1216cc002ddf20ac4002ddd2391c002ddb21720002dd921674002dd7238ac002dd520a7c002dd320b00002dd1209fc002dcf2167c002dcd20acc002dcb209b8002dc921778002dc721638002dc520b10002dc31e274002dc11e420002dbf1e2a8002dbd1e23c002dbb1e214002db91e264002db71e4cc002db51e35c002db31e3cc002db11e460002daf1e2d0002dad1eb08002dab1eacc002da91e320002da71eae0002da51eb5c002da31e430002da11e2cc002d9f1e248002d9d1e3a4002d9b1e380002d991e330002d971e378002d951e6f4002d931e1f8002d911e3dc002d8f1e2bc002d8d1e1e8002d8b1e1d8002d891e224002d871e2ec002d851e348002d831fc74002d811fd88002d7f1fee4002d7d1fc4c002d7b1fe38002d791fd50002d77))
  (.nd (.lf
  0xe0500044a00e3b000450e0e0400044a60e1600045300dfd40044380e03800445e0e0140044720e0bc0044b60e15c00452c0e1240045040e0b00044d60e0100044700e15800452a0e15400451a0db0000443a0dfec0044660dffc0044880e00c00446e0dafc00444e0dfb80044680daec0044320dfb40044400e1340044d40e1680044f40e1280044c00e1040044fa0e1640044f20e1700045080e1080044fc0e10c00453c0e1980045360e12c0045060e13c00451e0e14800453a0e19c0045380e3b40045100e1400045200e1800045220e3b80045120e18400452e0e0f80045240e3bc00453e0e0440044960e04c00449e0df9c00447e0e01c00447c0e0540044a80e0900045140e0940044e60e0c40044d80e0cc0044fe0e0700044dc0e0780044ea0e0980044e80e07c0044b80e0740044de0e0800044e00e0c80044da0db0c0044500db1000445611c8400641011c8c00641211c9400641c11cbc00641a)
  (.lf 0))) (.nd (.nd (.lf
  0x1b96800e2b01b9e800e3161b97400e2b21b98400e2b41b99800e2d01b9d400e3001ba1000e2ec1b99400e2ba1b9fc00e2c81b9f000e2e21ba0400e2ca1b9ec00e3261b96000e2c41b9b000e2bc1b9a800e2f81b98c00e2ce1ba1400e3321bc7c00e2f61b9dc00e3021ba0000e3281b9f800e3181b95c00e30a1b99c00e2be1b9a000e2d21ba6000e31c1ba1800e2ee1b9f400e2e41b9d800e3341b9b800e30c1b92800e25c1b9c400e2c61ba0800e2cc1ba1c00e2f01b91800e2941b8f000e24a1b64400e2801b90800e28a1b94000e2a01bc9000e30e1b91c00e2a61ba3800e3301b61800e2381b92c00e25e1b90000e2721b99000e2b61ba3000e32c1b9e000e3041b9c800e2d61b8fc00e2701ba2c00e32a1ba2800e31a1b5bc00e23a1b8f800e2661b8d400e2881b64800e26e1b5c800e24e1b62c00e2681b52000e2321b61000e2401b9a400e2d41ba2400e2f41b9b400e2c01bc8000e2fa1ba2000e2f2)
  (.lf 0)) (.nd (.lf
  0x1bba000e0fa1bc1000e0f21bc1c00e1081bba400e0fc1bba800e13c1bc4000e1361bbd400e1061bbe400e11e1bbf000e13a1bc4400e1381bbc000e1101bbe800e1201bc2800e1221bbc400e1121bc3000e12e1bb9000e1241bbac00e13e1bae000e0961bac400e09e1b89000e07e1b8bc00e07c1bae800e0a81bb2400e1141bb2800e0e61bb5800e0d81bb6000e0fe1bb0400e0dc1bb0c00e0ea1bb2c00e0e81bb1000e0b81bb0800e0de1bb1400e0e01bb5c00e0da1b55800e0501b4fc00e0561dfec0118101e00c0118121dfac01181c1e04401181a1d2e40118301de500118821de5c0118421deb001184c1d52c0118761d5240118581de680118621de4001183c1d5300118781de5801183e1de600118441de640118461de4c0118521d65001186a1d6480118901de440118341d64c0118841de980118641de700118481d52801185a1de540118861d53401187a1de740118921de7801186c1de80011836)
  (.lf 0)))

def aesWireTree77 : BTree :=
  .nd (.nd (.nd (.lf
  0xd9540010910c7e400108f0d47c00108d0c78400108b0cfbc0010890c78c0010870d2380010850d2980010830c7d00010810d57c00107f0c7d800107d0cfc800107b109d80010790cfcc0010770d2d80010750d5080010730d4440010710cfa400106f0b32000106d0b85c00106b0af4c0010690bad80010670afac0010650b32c0010630b9b40010610b33c00105f0d27400105d0d24800105b0d24c0010590d2880010570b8a80010550b8cc0010530ba280010510ba8000104f0b7ec00104d0b89800104b0b84c0010490b7e00010470b8b40010450b7fc0010430b93c0010410bb1000103f0b33400103d0b9dc00103b0ba340010390b8480010370b7880010350b8500010330c0c00010310b96800102f0c0c400102d0badc00102b0b3400010290b9a00010270ba600010250afc00010230b78c0010210b84000101f0aed000101d0b96c00101b0d41c0010190d2a80010170d4200010150b94c001013)
  (.lf 0)) (.nd (.lf
  0xa8f00032440a8f40032460a9040032520a8e000326a0a8e80032900a59c0032340a8e40032840a90c0032640a9140032480a6b000325a0a91c0032860a92400327a0a9280032920a92c00326c0a5a00032360a9500032540a93c0032740a94c00328c0a96c0032980a9600032600a98000328e0a98800329a0a98c00329c0a9900032a20a97c0032aa0a9840032a40a9a80032ac0a9ac0032c20a9b00032ae0a9c40032b00a9d80033160a9c80032b20a9dc0032b40a9e40032d00a9f40033000a9c00032ec0a9f80032ba0a9d00032c80a9fc0032e20aa000032ca0aa040033260aa080032c40aa100032bc0aa140032f80aa180032ce0aa200033320aa240032f60aa340033020aa380033280aa3c0033180aa4000330a0aa440032be0aa540032d20aa5c00331c0aa680032ee0aa700032e40aab00033340a95800325c0a9cc0032c60aa0c0032cc0aa740032f00a9540032940a91800324a0a944003280)
  (.lf 0))) (.nd (.nd (.lf
  0x12458009a30163f0009a821640c009a4216454009a4c13444009a7613448009a5816440009a6216400009a3c13524009a7816408009a3e16418009a441641c009a46163fc009a521353c009a6a13538009a9016420009a3413548009a8416444009a6416430009a481344c009a5a16434009a8613528009a7a16404009a9216410009a6c16424009a3616458009a5416464009a741645c009a8c16474009a9816490009a6016468009a8e16478009a9a16494009a9c164b4009aa216484009aaa164b8009aa4164bc009aac164fc009ac2164c4009aae164c8009ab016534009b16164cc009ab2164d0009ab4164dc009ad01657c009b0016520009aec164d8009aba165a4009ac81653c009ae2165a8009aca1655c009b2616500009ac4164e4009abc164e8009af8164f0009ace16524009b3216540009af61658c009b02165ac009b2816560009b1816504009b0a16508009abe16518009ad216514009b1c)
  (.lf 0)) (.nd (.lf
  0x180d000dae41811c00db341806400db0c17fa400da5c1801800dac61805800dacc180d400daf017fa000da9417f6400da4a17f9000da8017f9400da8a17fc000daa01807800db0e17fb000daa6180e400db3017f4400da3817fa800da5e17f8400da721802c00dab6180e000db2c180a800db041802000dad617f8000da70180dc00db2a180d800db1a1787000da3a17f5c00da6617f6c00da8817f7c00da6e1779800da4e17f2800da681778c00da3217f2400da40180b800dad4180f400daf4180ac00dac01807c00dafa180f000daf2180fc00db081808000dafc1808400db3c1812000db36180b000db06180c000db1e180cc00db3a1812400db381809c00db10180c400db201810800db22180a000db121811000db2e1806c00db241808800db3e17fb400da9617fbc00da9e17f0800da7e17f8c00da7c17fc400daa81800000db141800400dae61803400dad81803c00dafe17fe000dadc17fe800daea)
  (.lf 0)))

def aesWireTree78 : BTree :=
  .nd (.nd (.nd (.lf
  0x69000167e006e800167c007200016a80075c001714007600016e6007900016d8007980016fe0073c0016dc007440016ea007640016e8007480016b8007400016de0074c0016e0007940016da006940016500069c001656006140018100061c0018120062000181c0063c00181a0045c00183000480001882004400018420048400184c004640018760047c001858004580018620044400183c004680018780045400183e004480018440044c001846004740018520042c00186a0043c001890004600018340043000188400488001864004900018480049400185a00498001886004a000187a004a4001892004a800186c004b8001836004d4001854004c0001874004d000188c004f0001898004e40018600050400188e0050c00189a0051000189c005140018a2005000018aa005080018a40052c0018ac005300018c2005340018ae005480018b00055c0019160054c0018b2005600018b4005680018d0)
  (.lf
  0x2d500144000453c01460e02a5801460c02a8401460a043ec014608029d40146060448401460402a2c01460202a080146001e6d001000e1e6b40100081e6a40100061e69001000420760010a0e20780010a0820778010a06207b8010a042282001140e2274801140822758011406229bc0114041daa0011e0e1dabc011e0c1dab0011e081dac4011e061da98011e042010c01080e20134010808201400108062012801080420ed001120e20fc40112082112801120620f800112041ef20011c0e1eef4011c0c1ef80011c0a1eed0011c081eee4011c061ef58011c041ef8c011c021ea6001060e1ea400106081ea440106061eaa0010604202d001100e21e5001100821e18011006202ec0110041dc2c011a0e1dc30011a081dc58011a061dc18011a041e87801040e1e8b00104081e84c0104061e8980104041e91801040220c88010e0e20c6c010e0820db0010e0620ce4010e041dfd801180e1dfb401180c))
  (.nd (.lf
  0x10960005f2210d90005f1210964005f2e108d0005f2410d98005f3e1081c005e9610824005e9e0d518005e7e107f4005e7c1082c005ea810868005f141086c005ee61089c005ed8108a4005efe10848005edc10850005eea10870005ee810854005eb81084c005ede10858005ee0108a0005eda107b0005e500d440005e560c2700052100c2780052120c27c00521c0c29800521a0b9480052300ba580052820b9ac0052420b9b000524c0c0e40052760c0f80052580ba540052620c0dc00523c0c0e80052780c0e000523e0ba480052440ba4c0052460c0f00052520bae800526a0baf80052900c0d80052340c0d00052840ba5c0052640c0fc0052480c10000525a0c1040052860c10c00527a0c1100052920bafc00526c0c1140052360c1300052540c11c0052740c12c00528c0c14c0052980c1400052600c16000528e0c16800529a0c16c00529c0c1700052a20c15c0052aa0c1640052a40c1880052ac)
  (.lf 0))) (.nd (.nd (.lf
  0x4308015f2a04304015f1a040a4015e3a04190015e6604144015e88041a0015e6e04160015e4e04120015e6804134015e320408c015e40042e4015ed40431c015ef4042d8015ec0042a8015efa04318015ef204324015f08042ac015efc042b0015f3c04348015f36042dc015f06042ec015f1e042f8015f3a0434c015f38042c8015f10042f0015f2004330015f22042cc015f1204338015f2e04298015f24042b4015f3e041e0015e96041e8015e9e04118015e7e041b8015e7c041f0015ea80422c015f1404230015ee604260015ed804268015efe0420c015edc04214015eea04234015ee804218015eb804210015ede0421c015ee004264015eda0417c015e5004184015e5603cc401561003ccc01561203cd001561c03cfc01561a03a1c01563003ab801568203a5001564203a5401564c03b2001567603b3401565803ab401566203b1801563c03b2401567803b1c01563e03aa801564403aac015646)
  (.lf 0)) (.nd (.lf
  0x19f4000cc6a19f4800cc9019ebc00cc3419f4400cc8419f6c00cc6419f7400cc4819ecc00cc5a19f7c00cc8619f8400cc7a19f8800cc9219f8c00cc6c19ed000cc3619fb000cc5419f9c00cc7419fac00cc8c19fcc00cc9819fc000cc6019fe000cc8e19fe800cc9a19fec00cc9c19ff000cca219fdc00ccaa19fe400cca41a00800ccac1a00c00ccc21a01000ccae1a02400ccb01a03800cd161a02800ccb21a03c00ccb41a04400ccd01a05400cd001a02000ccec1a05800ccba1a03000ccc81a05c00cce21a06000ccca1a06400cd261a06800ccc41a07000ccbc1a07400ccf81a07c00ccce1a08400cd321a08800ccf61a0a000cd021a0a400cd281a0a800cd181a0ac00cd0a1a0b800ccbe1a0c800ccd21a0d000cd1c1a0dc00ccee1a0e400cce41a13800cd341a07800cd0c19fb800cc5c1a02c00ccc61a06c00cccc1a0e800ccf019fb400cc9419f7800cc4a19fa400cc8019fa800cc8a19fd400cca0)
  (.lf 0)))

def aesWireTree79 : BTree :=
  .nd (.nd (.nd (.lf
  0x147200084ee147a40084e41481c0085341477c00850c144dc00845c147300084c61474c0084cc147a80084f0144d8008494144ac00844a144940084801467800848a144f80084a0147b800850e144e80084a61486800853013e6c008438144e000845e144c8008472147580084b6147c400852c14810008504147340084d6144c4008470147bc00852a147b000851a13eb400843a144c0008466144b80084881448c00846e13ee000844e13e640084681446c00843213e60008440147840084d4147c80084f4147700084c0147b40084fa147ac0084f214818008508147c00084fc147a000853c14820008536148140085061482800851e1483400853a14824008538148900085101482c0085201483000852214894008512147d400852e14788008524147f000853e146f0008496144f400849e13dd400847e1449000847c144ec0084a814698008514146900084e61478c0084d8147d00084fe1470c0084dc)
  (.lf 0)) (.nd (.lf
  0x16fdc00aebc16fe000aef816fe800aece16ff000af3216ff400aef61700c00af021701000af281701400af181701800af0a1702400aebe1703400aed21703c00af1c1704800aeee1705000aee41709800af3416fe400af0c16f1400ae5c16f9800aec616fd800aecc1705400aef016f3400ae9416f0800ae4a1635400ae801635800ae8a16f2400aea016ff800af0e16f3800aea61706400af30162e000ae3816f1800ae5e1634800ae7216fac00aeb61706000af2c1702800af0416fa000aed61634400ae701705c00af2a1705800af1a16ee800ae3a1633800ae66162d800ae881634000ae6e1631000ae4e162cc00ae681628400ae321621c00ae401703800aed41707000aef41702c00aec016ffc00aefa1706c00aef21707800af081700000aefc1700400af3c1709c00af361703000af061704000af1e1704c00af3a170a000af381701c00af101704400af201708400af221702000af121708c00af2e)
  (.lf 0))) (.nd (.nd (.lf
  0x4bb4015aae04bc8015ab004bdc015b1604bcc015ab204be0015ab404be8015ad004bf8015b0004bc4015aec04bfc015aba04bd4015ac804c00015ae204c04015aca04c08015b2604c0c015ac404c14015abc04c18015af804c1c015ace04c24015b3204c28015af604c38015b0204c3c015b2804c40015b1804c44015b0a04c48015abe04c58015ad204c60015b1c04c6c015aee04c74015ae404cb0015b3404b5c015a5c04bd0015ac604c10015acc04c78015af004b58015a9404b3c015a4a04b48015a8004b4c015a8a04b78015aa005474015b0e04b68015aa604c88015b3004ad0015a3804b60015a5e04b34015a7204be4015ab604c84015b2c04c4c015b0404bd8015ad604b30015a7004c80015b2a04c7c015b1a04ab8015a3a04b0c015a6604b1c015a8804b2c015a6e04ab4015a4e04aa8015a6804aa4015a3204aa0015a4004c5c015ad404c90015af404c50015ac004c2c015afa04c8c015af2)
  (.lf 0)) (.nd (.lf
  0x237a8012522237f4012512237d001252e23718012524237e401253e236780124962365c01249e235f001247e2368c01247c236840124a8236f0012514236c40124e6236d80124d8237080124fe236b80124dc237500124ea236c80124e82376c0124b8237280124de2372c0124e0236ec0124da236340124502363001245603444001c100344c001c1203450001c1c0347c001c1a0328c001c30032b0001c8203270001c42032b4001c4c03294001c76032ac001c5803288001c6203274001c3c03298001c7803284001c3e03278001c440327c001c46032a4001c520325c001c6a0326c001c9003290001c3403260001c84032b8001c64032c0001c48032c4001c5a032c8001c86032d0001c7a032d4001c92032d8001c6c032e8001c3603304001c54032f0001c7403300001c8c03320001c9803314001c6003334001c8e0333c001c9a03340001c9c03344001ca203330001caa03338001ca40335c001cac)
  (.lf 0)))

def aesWireTree80 : BTree :=
  .nd (.nd (.nd (.lf
  0x2a280002ff02a4c0002fd044a40002fb029f40002f9044280002f702aa40002f502a780002f30455c0002f1049f80002ef04a140002ed049880002eb049b00002e9049480002e704a640002e504a3c0002e3049cc0002e102fd00002df02fe40002dd03e2c0002db02fac0002d903e7c0002d7030140002d502ffc0002d303e480002d103a780002cf03a9c0002cd03a180002cb03a340002c9039e80002c703b080002c503ad00002c303a4c0002c102a240002bf02a480002bd044a00002bb029f00002b9044240002b702aa00002b502a740002b3045580002b1049f40002af04a100002ad049840002ab049ac0002a9049440002a704a600002a504a380002a3049c80002a102fcc00029f02fe000029d03e2800029b02fa800029903e780002970301000029502ff800029303e1000029103a7400028f03a9400028d03a1400028b03a30000289039e400028703b0400028503acc00028303a48000281)
  (.lf
  0x1d47800f6001d3fc00f6021d3b400f60c1b8ec00e60a1ca5c00ea001ca5000ea021ca4400ea0c1a7f400b40a1b8e800e6001b8e400e6021b8e000e60c178a800ac021a79000b4001a71800b4021a6e400b40c1872c00a4001872400a40c1870c00a40a1781400ac0019de800d40219de400d40c19ddc00d40a1814c00dc001cf5800c40a1a19400cc001a18c00cc0219dd800d4001ca3800ec021fdb800fc001ceb400c4001ce4c00c40c1f27c00e4001f27400e40c1f25c00e40a1ca2c00ec00227a8011400228b4011402227cc01140c2292401140a15f7400880c15f6400880a20ad4010c0021618010c02146e000800c146d800800a15f5400880015f480088021814800d8021814400d80a146cc008000146b80080021912000c8021911c00c80c1911800c80a1814000d8001b5dc00c0021b52c00c00c1b4dc00c00a1911400c8001b1b800f8001b1b400f8021b1b000f80a1b49c00c0001d85800f000))
  (.nd (.lf
  0xd6f4005d3c0d77c005d360d714005d060d724005d1e0d730005d3a0d780005d380d9d8005d100d728005d200d76c005d220d9dc005d120d770005d2e0d6e0005d240d9c8005d3e0d634005c960d618005c9e0d294005c7e0d4f0005c7c0d63c005ca80d678005d140d67c005ce60d6ac005cd80d6b4005cfe0d658005cdc0d660005cea0d680005ce80d664005cb80d65c005cde0d668005ce00d6b0005cda0d470005c500d474005c5611768007c1011770007c1211778007c1c11794007c1a10cb4007c30115e0007c8210ccc007c4210cd0007c4c10f80007c7610f8c007c58115d8007c6210f7c007c3c115c4007c78115d4007c3e115c8007c44115cc007c46115dc007c52115b8007c6a115c0007c9010f78007c34115bc007c84115e4007c64115ec007c4810f90007c5a115f4007c86115fc007c7a11600007c9211604007c6c10f94007c3611628007c5411614007c7411624007c8c11644007c98)
  (.lf 0))) (.nd (.nd (.lf
  0x14f9400b8d214f5400b91c150cc00b8ee14fc800b8e41514000b93414fd800b90c14eec00b85c14f6400b8c614f9800b8cc150d000b8f014da800b89414da000b84a14d8400b88014f1400b88a14efc00b8a014fdc00b90e14dac00b8a6150f400b93014c4400b83814ef000b85e14dc800b87214f6000b8b6150e800b92c150fc00b90414f6800b8d614dc400b870150e400b92a150e000b91a14c2c00b83a14dc000b86614f0c00b88814d9c00b86e14d8c00b84e14c4c00b86814d5000b83214c4800b84014fa000b8d4150d800b8f414fb800b8c014fe400b8fa150d400b8f21511800b90814fe800b8fc1512800b93c1514400b9361510000b9061510400b91e1510c00b93a1514800b93814fe000b9101510800b9201511000b92214fec00b912150ec00b92e14fd400b9241512400b93e14f1000b89614ef800b89e14c5800b87e14d8000b87c14f0000b8a814f2800b914150b800b8e614fa400b8d8)
  (.lf 0)) (.nd (.lf
  0x2b6401447c02b9c0144a802bd801451402bdc0144e602c0c0144d802c140144fe02bb80144dc02bc00144ea02be00144e802bc40144b802bbc0144de02bc80144e002c100144da02b1001445002b18014456029bc014610029c4014612029c801461c02a0401461a0280401463002828014682027e80146420282c01464c0280c0146760282401465802800014662027ec01463c02810014678027fc01463e027f0014644027f40146460281c014652027d401466a027e401469002808014634027d801468402830014664028380146480283c01465a028400146860284801467a0284c0146920285001466c028600146360287c014654028680146740287801468c028980146980288c014660028ac01468e028b401469a028b801469c028bc0146a2028a80146aa028b00146a4028d40146ac028d80146c2028dc0146ae028f00146b002904014716028f40146b2029080146b4029100146d002920014700)
  (.lf 0)))

def aesWireTree81 : BTree :=
  .nd (.nd (.nd (.lf
  0x12400006c80126c0006e2012700006ca01274000726012780006c4012800006bc012840006f8012880006ce01290000732012940006f6012a4000702012a8000728012ac000718012b000070a012b40006be012c40006d2012cc00071c012d80006ee012e00006e40131c000734011c800065c0123c0006c60127c0006cc012e40006f0011c4000694011a800064a011b4000680011b800068a011e40006a0035bc00070e011d40006a6012f40007300113c000638011cc00065e011a0000672012500006b6012f000072c012b8000704012440006d60119c000670012ec00072a012e800071a0112400063a01178000666011880006880119800066e0112000064e01114000668011100006320110c000640012c80006d4012fc0006f4012bc0006c0012980006fa012f80006f2013040007080129c0006fc012a000073c01320000736012c0000706012d000071e012dc00073a01324000738035c8000710)
  (.lf 0)) (.nd (.lf
  0xe5fc0028b00e6100029160e6000028b20e6140028b40e61c0028d00e62c0029000e5f80028ec0e6300028ba0e6080028c80e6340028e20e6380028ca0e63c0029260e6400028c40e6480028bc0e64c0028f80e6500028ce0e6580029320e65c0028f60e66c0029020e6700029280e6740029180e67800290a0e67c0028be0e68c0028d20e69400291c0e6a00028ee0e6a80028e40e7000029340e59000285c0e6040028c60e6440028cc0e6ac0028f00e58c0028940e55400284a0e57c0028800e58000288a0e5ac0028a00e74c00290e0e59c0028a60e6bc0029300e4e80028380e59400285e0e5700028720e6180028b60e6b800292c0e6800029040e60c0028d60e56c0028700e6b400292a0e6b000291a0b10800283a0e54c0028660e55c0028880e56800286e0e4dc00284e0e5280028680a4a40028320e5240028400e6900028d40e6c40028f40e6840028c00e6600028fa0e6c00028f20e6cc002908)
  (.lf 0))) (.nd (.nd (.lf
  0x850c018c86084ac018c7a08520018c9208574018c6c08584018c36085a0018c540858c018c740859c018c8c085bc018c98085b0018c60085d0018c8e085d8018c9a085dc018c9c085e0018ca2085cc018caa085d4018ca4085f8018cac085fc018cc208600018cae08614018cb008628018d1608618018cb20862c018cb408634018cd008644018d0008610018cec08648018cba08620018cc80864c018ce208650018cca08654018d2608658018cc408660018cbc08664018cf80866c018cce08674018d3208678018cf608690018d0208694018d2808698018d180869c018d0a086a8018cbe086b8018cd2086c0018d1c086cc018cee086d4018ce40871c018d34085a8018c5c0861c018cc60865c018ccc086d8018cf0085a4018c9408588018c4a08594018c8008598018c8a085c4018ca00867c018d0e085b4018ca6086e8018d30084fc018c38085ac018c5e08580018c7208630018cb6086e4018d2c)
  (.lf 0)) (.nd (.lf
  0x1b7ec00e7041b76400e6d61b6c400e6701b82000e72a1b81c00e71a1b56c00e63a1b6a000e6661b6b000e6881b6c000e66e1b56800e64e1b66c00e6681b58800e6321b66800e6401b7fc00e6d41b83400e6f41b7f000e6c01b7c000e6fa1b83000e6f21b83c00e7081b7c400e6fc1b7c800e73c1b86000e7361b7f400e7061b80400e71e1b81000e73a1b86400e7381b7e000e7101b80800e7201b84800e7221b7e400e7121b85000e72e1b7b000e7241b7cc00e73e1b6f800e6961b70000e69e1b5f400e67e1b6d000e67c1b70800e6a81b74400e7141b74800e6e61b77800e6d81b78000e6fe1b72400e6dc1b72c00e6ea1b74c00e6e81b73000e6b81b72800e6de1b73400e6e01b77c00e6da1b59400e6501b57400e6561a5d800b4101a5e000b4121a5e400b41c1a61c00b41a1a42000b4301a3d800b4821a41000b4421666000b44c1685c00b4761a43400b4581a41400b4621685800b43c1a3cc00b478)
  (.lf 0)))

def aesWireTree82 : BTree :=
  .nd (.nd (.nd (.lf
  0x21f7c01347621f9401345821ef401346221f7401343c21f8001347821f8801343e21f0401344421f0801344621f9001345221f5c01346a21f7001349021ee801343421f1401348421f0c01346421f9c01344821f9801345a21f1c01348621f8401347a21f7801349221fa401346c21eec01343621fcc01345421fb801347421fc401348c21ff401349821fd801346021fc801348e21ff801349a21ffc01349c220000134a22201c0134aa21fe40134a4220200134ac220280134c2220300134ae220340134b022074013516220540134b2220580134b4220600134d02209c013500220840134ec220b00134ba2203c0134c8220d00134e2220440134ca220780135262204c0134c4220bc0134bc2206c0134f8220100134ce22088013532220d40134f6220a401350222040013528221100135182202c01350a220b40134be220640134d22234401351c2208c0134ee220dc0134e4220a001353421fd001345c)
  (.lf
  0xf464004c0a0f444004c080f3f0004c060f470004c040c0bc00560e0c0a40056080bec00056060c0b400560410e1c0031c1109980031bf118f80031bd10d6c0031bb109740031b910dc40031b711a3c0031b511ce40031b310e2c0031b1109a40031af119240031ad10d7c0031ab10c0c0031a910dc80031a7119d80031a5120d40031a310df00031a11197800319f1194400319d10e5400319b10e4c0031991199c00319711ab000319511aa0003193109580031911195000318f10d5c00318d10df800318b10e04003189119a800318711edc00318510da80031830f5740031810f4fc00317f0f0f800317d0f1c800317b0f1bc0031790f5cc0031770fa3c0031750f1a00031730f1280031710f53400316f0f4b800316d0f10c00316b0eed40031690f1440031670f6580031650f6b80031630f1940031610f55c00315f0f4e000315d0f10400315b0eec80031590f1740031570f5b80031550f874003153))
  (.nd (.lf
  0x72e8017442071cc01744c065780174760730c017458072ec0174620717801743c0657c017478071f801743e072f0017444072f401744607304017452071e801746a071d8017490072fc017434071d401748407310017464073180174480731c01745a071dc0174860658001747a071e40174920732001746c073300174360734c017454073380174740734801748c073680174980735c0174600737c01748e0738401749a0738801749c0738c0174a2073780174aa073800174a4073a40174ac073a80174c2073ac0174ae073c00174b0073d4017516073c40174b2073d80174b4073e00174d0073f0017500073bc0174ec073f40174ba073cc0174c8073f80174e2073fc0174ca07400017526074040174c40740c0174bc074100174f8074140174ce0741c017532074200174f60743001750207434017528074380175180743c01750a074400174be074500174d20745801751c074640174ee0746c0174e4)
  (.lf 0))) (.nd (.nd (.lf
  0x203000112b2203040112b42030c0112d020e340113001fb600112ec203240112ba20eac0112c820e1c0112e220eb00112ca20e100113261fb2c0112c42032c0112bc203140112f81fb500112ce1fb6801133220e4c0112f620e3801130220ec401132820e140113181fb3401130a203280112be2031c0112d21fb4801131c1fb640112ee20e200112e420ea00113342033001130c1fa9c01125c20e040112c620eb40112cc20e240112f01fb080112941fad401124a1fab40112801fab801128a1faf00112a020e5c01130e1fb0c0112a620f0c0113301f7ec0112381faa001125e1fa70011272203080112b620ecc01132c20e3c01130420e080112d61fa6c01127020ec801132a20e2801131a1f82801123a1fa680112661fa340112881fa5801126e1f83c01124e1f7e40112681fa280112321f7e0011240203200112d420ec00112f4203340112c020e540112fa20e2c0112f220e4401130820e580112fc)
  (.lf 0)) (.nd (.lf
  0x1797400d8a21796000d8aa1796800d8a41798c00d8ac1799000d8c21799400d8ae179a800d8b0179bc00d916179ac00d8b2179c000d8b4179c800d8d0179d800d900179a400d8ec179dc00d8ba179b400d8c8179e000d8e2179e400d8ca179e800d926179ec00d8c4179f400d8bc179f800d8f817a0000d8ce17a0800d93217a0c00d8f617a2400d90217a2800d92817a2c00d91817a3000d90a17a3c00d8be17a4c00d8d217a5400d91c17a6000d8ee17a6800d8e417ab000d934179fc00d90c1793c00d85c179b000d8c6179f000d8cc17a6c00d8f01793800d894178fc00d84a1792800d8801792c00d88a1795800d8a017a1000d90e1794800d8a617a7c00d930178dc00d8381794000d85e1791c00d872179c400d8b617a7800d92c17a4000d904179b800d8d61791800d87017a7400d92a17a7000d91a1789400d83a178f400d8661790400d8881791400d86e177ac00d84e178c000d8681773400d832)
  (.lf 0)))

def aesWireTree83 : BTree :=
  .nd (.nd (.nd (.lf
  0x10fa800134310e7c00134110fac00133f0f44c00133d10f0c00133b0f46000133910bdc0013370f40400133510c8000133310d300013310f48000132f10f9c00132d0f48800132b10bbc00132910ce000132710bc000132510c3c00132310fe000132110ebc00131f10bf800131d0f24c00131b0feb40013190d9b00013170f1d80013150da040013130fd980013110e46800130f0fe4400130d10ca000130b10d0800130910d0c00130710ca40013050f22400130313a380013010fd740012ff13a440012fd100a80012fb13a2c0012f90f28c0012f70eeac0012f513a280012f30eeb40012f10f1e80012ef0fe4c0012ed0fe080012eb0e4600012e90fd800012e70f2840012e50e1780012e30f2880012e10fdcc0012df0e3ec0012dd0fdd00012db0e45c0012d90fe3c0012d70f2300012d50fd780012d30da140012d1100b00012cf0f2a40012cd0d9b80012cb0eeb00012c910ec40012c710c380012c5)
  (.lf 0)) (.nd (.lf
  0x16240009d0e16054009ca616174009d3015fb8009c381604c009c5e16020009c72160d0009cb616170009d2c16138009d04160c4009cd61601c009c701616c009d2a16168009d1a13418009c3a16008009c6615fc8009c8816018009c6e15fd8009c4e15fa4009c6813470009c3215fa0009c4016148009cd41617c009cf41613c009cc016118009cfa16178009cf216184009d081611c009cfc16120009d3c161c0009d3616140009d0616150009d1e1615c009d3a161c4009d3816264009d1016154009d20161a4009d221628c009d12161a8009d2e1610c009d2416244009d3e16058009c9616060009c9e1246c009c7e16030009c7c16068009ca8160a4009d14160a8009ce6160d8009cd8160e0009cfe16084009cdc1608c009cea160ac009ce816090009cb816088009cde16094009ce0160dc009cda15ff4009c5015ffc009c5602f84014a1002f8c014a1202f90014a1c02fbc014a1a02d04014a30)
  (.lf 0))) (.nd (.nd (.lf
  0xddd000425c0de440042c60de840042cc0deec0042f00ddcc0042940dd9000424a0ddbc0042800ddc000428a0ddec0042a00e38800430e0dddc0042a60defc0043300dd700042380ddd400425e0ddb00042720de580042b60def800432c0dec00043040de4c0042d60ddac0042700def400432a0def000431a0da5800423a0dd880042660dd980042880dda800426e0d31800424e0dd540042680db240042320dd500042400ded00042d40df040042f40dec40042c00dea00042fa0df000042f20df0c0043080dea40042fc0dea800433c0df280043360dec80043060ded800431e0dee400433a0df2c0043380e38c0043100dedc0043200df180043220e3900043120df1c00432e0de940043240e39800433e0dde00042960dde800429e0d3b400427e0ddb800427c0ddf00042a80de2c0043140de300042e60de600042d80de680042fe0de0c0042dc0de140042ea0de340042e80de180042b80de100042de)
  (.lf 0)) (.nd (.lf
  0x16c2c00b61216c3000b61c16c7400b61a1667800b6301672c00b6821662c00b6421667400b64c16a7c00b67616a9000b6581672800b66216a7400b63c16a8000b67816a7800b63e1672000b6441679c00b64616a8800b65216a6000b66a16a7000b690167fc00b634167f400b6841673000b66416a9400b64816a9c00b65a1680000b68616aa000b67a16aa400b69216aa800b66c1680800b63616acc00b65416ab800b67416ac800b68c16ae800b69816adc00b66016afc00b68e16b0400b69a16b0800b69c16b0c00b6a216af800b6aa16b0000b6a416b2400b6ac16b2800b6c216b2c00b6ae16b4000b6b016b5400b71616b4400b6b216b5800b6b416b6000b6d016b7000b70016b3c00b6ec16b7400b6ba16b4c00b6c816b7800b6e216b7c00b6ca16b8000b72616b8400b6c416b8c00b6bc16b9000b6f816b9800b6ce16ba000b73216ba400b6f616bbc00b70216bc000b72816bc400b71816bc800b70a)
  (.lf 0)))

def aesWireTree84 : BTree :=
  .nd (.nd (.nd (.lf
  0x709c000aff070b0000afd07250000afb07078000af9076b4000af7070d0000af5070dc000af307224000af107b60000aef07edc000aed08ad0000aeb07af0000ae908a80000ae707e94000ae507c20000ae308b30000ae108a48000adf08a3c000add09064000adb08a34000ad90913c000ad708a28000ad508a14000ad3090b4000ad108294000acf08238000acd08200000acb0819c000ac908214000ac7081f8000ac5081c0000ac3081ec000ac107098000abf070ac000abd0724c000abb07074000ab9076b0000ab7070cc000ab5070d8000ab307220000ab107b5c000aaf07ed8000aad08acc000aab07aec000aa908a7c000aa707e90000aa507c1c000aa308b2c000aa108a44000a9f08a38000a9d0905c000a9b08a30000a9909138000a9708a24000a9508a10000a93090ac000a9108290000a8f08234000a8d081fc000a8b08198000a8908210000a87081f4000a85081bc000a83081e0000a81)
  (.lf
  0x1ac78002bf51acb8002bf31f29c002bf11ac18002bef1af60002bed1ab34002beb1af9c002be91aaa0002be71af8c002be51ab40002be31aac0002be11ac3c002bdf1abe4002bdd1f2c4002bdb1aae0002bd91ab9c002bd71f2a8002bd51acd8002bd31aad0002bd11ad44002bcf1abf4002bcd1ab50002bcb1ab64002bc91ab44002bc71aaf8002bc51acd0002bc31a6d4002bc11b1c0002bbf1aba8002bbd1a6b4002bbb1a65c002bb91a62c002bb71a73c002bb51a7bc002bb31a710002bb11a870002baf1a838002bad1a6e0002bab1a688002ba91a780002ba71a7d0002ba51a7a8002ba31a6f4002ba11a860002b9f1a6bc002b9d1ca94002b9b1ca80002b991a778002b971cac4002b951a6a0002b931a690002b911a704002b8f1a814002b8d1a5cc002b8b1a664002b891a640002b871a764002b851a7ac002b8318e60002b8118e48002b7f18de8002b7d18c7c002b7b18d40002b7918e2c002b77))
  (.nd (.lf
  0x5ec4016af805ec8016ace05ed0016b3205ed4016af605ee4016b0205ee8016b2805eec016b1805ef0016b0a05ef4016abe05f04016ad205f0c016b1c05f18016aee05f20016ae405f6c016b3405e08016a5c05e7c016ac605ebc016acc05f24016af005e04016a9405de8016a4a05df4016a8005df8016a8a05e24016aa005fe4016b0e05e14016aa605f34016b3005d78016a3805e0c016a5e05de0016a7205e90016ab605f30016b2c05ef8016b0405e84016ad605ddc016a7005f2c016b2a05f28016b1a05424016a3a05dc8016a6605d68016a8805dd8016a6e05d98016a4e05d58016a6805d3c016a320540c016a4005f08016ad405f3c016af405efc016ac005ed8016afa05f38016af205f44016b0805edc016afc05ee0016b3c05f70016b3605f00016b0605f10016b1e05f1c016b3a05f74016b3805fec016b1005f14016b2005f50016b2205ff0016b1205f54016b2e05ecc016b2405fe8016b3e)
  (.lf 0))) (.nd (.nd (.lf
  0x1c0d000ee341bfc000ee841c0e800ee641c14000ee481c03400ee5a1c11400ee861c02c00ee7a1c0ec00ee921c0f400ee6c1c0d400ee361c0dc00ee541c14c00ee741c12000ee8c1c12c00ee981c14800ee601c15000ee8e1c15800ee9a1c15c00ee9c1c17400eea21c13800eeaa1c15400eea41c18000eeac1c22400eec21c19400eeae1c19c00eeb01c20400ef161c1b400eeb21c1b800eeb41c1c000eed01c21400ef001c19000eeec1c1d800eeba1c1a800eec81c1cc00eee21c1b000eeca1c20800ef261c22800eec41c25c00eebc1c1d000eef81c17c00eece1c19800ef321c1dc00eef61c29000ef021c1ac00ef281c23800ef181c23400ef0a1c20c00eebe1c1ec00eed21c17800ef1c1c1f400eeee1c1f800eee41c21800ef341c26000ef0c1c0e000ee5c1c1a000eec61c22c00eecc1c1fc00eef01c12400ee941c14400ee4a1c10c00ee801c11c00ee8a1c10400eea01c26400ef0e1c13000eea6)
  (.lf 0)) (.nd (.lf
  0x2007c01090e1ff500108a62012c0109301fd540108381ff4801085e1fe6c0108722003c0108b62010801092c200b00109041fff40108d61fe680108702010401092a2010001091a1fde801083a1fe580108661ff900108881fe6401086e1fd8c01084e1fe440108681ff000108321fe40010840200d40108d4200dc0108f42005c0108c0200740108fa200d80108f2200e4010908200780108fc2009801093c200a4010936200b4010906200b801091e200c001093a200a801093820080010910200bc01092020124010922200840109122013c01092e200640109242008801093e1ff9c0108961ffa401089e1fe3c01087e1ff2401087c1ff540108a81ffd00109141ffcc0108e6200580108d8200940108fe2001c0108dc2002c0108ea1ffd40108e8200100108b8200200108de200240108e0200680108da1ff040108501fee80108561dc3c011a101dbf8011a121dc28011a1c1dc0c011a1a1d2fc011a30)
  (.lf 0)))

def aesWireTree85 : BTree :=
  .nd (.nd (.nd (.lf
  0xb6200023340b59400230c0b4a800225c0b4e80022c60b58c0022cc0b5d00022f00b4a40022940b48400224a0b4900022800b49400228a0b4cc0022a00b59800230e0b4b40022a60b6000023300b0240022380b4ac00225e0b0380022720b5480022b60b5f800232c0b5bc0023040b4f00022d60b0340022700b5d800232a0b5d400231a0b07400223a0b0300022660b4780022880b01c00226e0a38800224e0b0040022680b3780022320b0000022400b5540022d40b5e40022f40b5b80022c00b55c0022fa0b5e00022f20b6100023080b5600022fc0b5a800233c0b6240023360b5c00023060b5c400231e0b5e800233a0b6280023380b59c0023100b5c80023200b5f00023220b5a00023120b5fc00232e0b5680023240b5ac00233e0b4c00022960b4c800229e0a3ec00227e0b48c00227c0b4b80022a80b4f80023140b5000022e60b5280022d80b5300022fe0b5180022dc0b5780022ea0b56c0022e8)
  (.lf 0)) (.nd (.lf
  0xc9480026ea0c9680026e80c94c0026b80c9440026de0c9500026e00c9980026da0c8a80026500b6d00026561209c006610120a4006612120a800661c120cc00661a119c400663011f1400668210e00006642119d000664c119640066761197000665811f0c0066621196000663c11ef800667811f0800663e11efc00664411f0000664611f1000665211eec00666a11ef4006690119c800663411ef000668411f1800666411f200066481197400665a11f2800668611f3000667a11f3400669211f3800666c119d400663611f5c00665411f4800667411f5800668c11f7800669811f6c00666011f8c00668e11f9400669a11f9800669c11f9c0066a211f880066aa11f900066a411fb40066ac11fb80066c211fbc0066ae11fd00066b011fe400671611fd40066b211fe80066b411ff00066d01200000670011fcc0066ec120040066ba11fdc0066c8120080066e21200c0066ca12010006726120140066c4)
  (.lf 0))) (.nd (.nd (.lf
  0x12e8c00932412ed400933e12b5400929612de400929e1241000927e12b6000927c12d840092a812df400931412e180092e612e600092d812e680092fe12e540092dc12ea80092ea12e1c0092e812e440092b812e5c0092de12eb80092e012e640092da12b4400925012dd400925613398008e10133a0008e1213380008e1c13320008e1a131fc008e3013110008e8213108008e42131d0008e4c130a0008e7613098008e58131a8008e6213124008e3c130a4008e78131ac008e3e1311c008e4413120008e4613118008e52131b4008e6a131b8008e9013200008e34131bc008e84131d4008e64131dc008e481309c008e5a131c0008e86130a8008e7a131c8008e92131cc008e6c13204008e36131e0008e5413240008e7413228008e8c131f4008e9813224008e6013244008e8e13294008e9a1329c008e9c132a0008ea213218008eaa13248008ea41324c008eac13284008ec213250008eae13260008eb0)
  (.lf 0)) (.nd (.lf
  0x197d000d2b2197e400d2b4197ec00d2d0197fc00d300197c800d2ec1980000d2ba197d800d2c81980400d2e21980800d2ca1980c00d3261981000d2c41981800d2bc1981c00d2f81982400d2ce1982c00d3321983000d2f61984800d3021984c00d3281985000d3181985400d30a1986000d2be1987000d2d21987800d31c1988400d2ee1988c00d2e4198e000d3341982000d30c1976000d25c197d400d2c61981400d2cc1989000d2f01975c00d2941974000d24a1974c00d2801975000d28a1977c00d2a01983400d30e1976c00d2a6198a000d3301942c00d2381976400d25e1973800d272197e800d2b61989c00d32c1986400d304197dc00d2d61973400d2701989800d32a1989400d31a1947c00d23a1971800d2661972400d2881973000d26e1947800d24e1942400d268196e400d2321942000d2401987400d2d4198b000d2f41986800d2c01983800d2fa198ac00d2f2198b800d3081983c00d2fc)
  (.lf 0)))

def aesWireTree86 : BTree :=
  .nd (.nd (.nd (.lf
  0x3bc001ad4003f0001af4003b0001ac00038c001afa003ec001af2003f8001b0800390001afc00394001b3c00414001b36003b4001b06003c4001b1e003d0001b3a00418001b380349c001b10003c8001b2000404001b22034a0001b1200408001b2e00380001b2403494001b3e002cc001a96002d4001a9e0024c001a7e002a4001a7c002dc001aa800318001b140031c001ae60034c001ad800354001afe002f8001adc00300001aea00320001ae800304001ab8002fc001ade00308001ae000350001ada00250001a5000258001a56232f4012010232c80120122328401201c2330001201a23158012030228e80120822286001204222b3801204c22950012076229a801205822b2c01206222a7401203c2297801207822b3001203e228f0012044228f401204622b1401205222b5001206a22b480120902315c01203422b4401208422b3c01206422b34012048229ac01205a22b7c0120862297c01207a)
  (.lf
  0x1f20800e4061f24800e4041f1cc00e4021c27c00ee0e1c27000ee081c25400ee061c2b000ee041b19800f80e1b1ac00f80c1b16c00f8081b19400f8061b18c00f8041bcac00e20e1ba3c00e2081ba4400e2061bca000e2041bcd400e2021c9cc00ec0e1c9e800ec0c1c9ec00ec0a1c99c00ec081c9c800ec061c9c000ec041d15000f60e1d11400f6081d14c00f6061d13c00f6041e2700036c11e41c0036bf1e2a40036bd1e2380036bb1e2100036b91e2600036b71e4c80036b51e3580036b31e3c80036b11e45c0036af1e28c0036ad1eac80036ab1eac40036a91e31c0036a71eadc0036a51eb580036a31e42c0036a11e2c800369f1e24400369d1e3a000369b1e37c0036991e32c0036971e3740036951e6f00036931e1f40036911e3d800368f1e2b800368d1e1e400368b1e1d40036891e2200036871e2e80036851e3440036831fc700036811fd8400367f1fee000367d1fc4800367b1fc44003679))
  (.nd (.lf
  0xdb9c0046660dba80046880dbb400466e0dab000464e0db6c0046680d32c0046320da3c0046400dce40046d40dd180046f40dcd80046c00dcb40046fa0dd140046f20dd200047080dcb80046fc0dcbc00473c0dd400047360dcdc0047060dcec00471e0dcf800473a0dd440047380e3fc0047100dcf00047200dd2c0047220e4040047120dd3000472e0dca80047240e3f800473e0dbf40046960dbfc00469e0db9000467e0dbcc00467c0dc040046a80dc400047140dc440046e60dc740046d80dc7c0046fe0dc200046dc0dc280046ea0dc480046e80dc2c0046b80dc240046de0dc300046e00dc780046da0dac40046500dacc004656111f4007a10111fc007a1211200007a1c11220007a1a10c98007a301106c007a8210d40007a4210d44007a4c10f24007a7610f30007a5811064007a6210f20007a3c11050007a7811060007a3e11054007a4411058007a4611068007a5211044007a6a1104c007a90)
  (.lf 0))) (.nd (.nd (.lf
  0x21e2000240320d2400240120f500023ff1e6a80023fd2292c0023fb21e540023f9207980023f721f280023f51e8c00023f3227700023f1202840023ef207bc0023ed207840023eb20f200023e9228280023e7205040023e520d700023e31e6d40023e11e87c0023df201140023dd20ed40023db20a480023d920a4c0023d71ecf40023d51ef280023d320c8c0023d1202d40023cf20ed80023cd228500023cb207640023c920b080023c7227640023c52078c0023c3229400023c11e6b80023bf229440023bd2079c0023bb228240023b9208040023b72286c0023b5235a80023b3227b80023b1235ac0023af228c80023ad22a540023ab235a00023a922a580023a7227600023a5204880023a32166c0023a11dac800239f2293800239d2293c00239b228000023992282c002397228f800239522a4c002393228380023912278c00238f2292800238d207fc00238b22acc002389227dc00238722864002385)
  (.lf 0)) (.nd (.lf
  0x1cbac00c4e81cb9000c4b81cb8800c4de1cb9400c4e01cbdc00c4da1caa800c4501caac00c4561fcc800fc101fcd000fc121fd6800fc1c1fe7800fc1a1f4f000fc301f2ac00fc821f2c800fc421aba400fc4c1ace400fc761f66c00fc581f51400fc621ace000fc3c1f4fc00fc781f52000fc3e1f50400fc441f50800fc461f5f800fc521f57c00fc6a1f2b800fc901f4f400fc341f5d000fc841f51800fc641f52400fc481f67000fc5a1f5d400fc861f50000fc7a1f2bc00fc921f58000fc6c1f58400fc361f5fc00fc541f62400fc741f5e000fc8c1f61800fc981f67c00fc601f62800fc8e1f62c00fc9a1f68000fc9c1f69000fca21f61000fcaa1f69c00fca41f6a000fcac1f6a400fcc21f6b000fcae1f6b400fcb01f6c400fd161fb7000fcb21fb7400fcb41fb8000fcd01fbc800fd001f6f800fcec1fb7c00fcba1f6d000fcc81fbac00fce21f6d800fcca1f6c800fd261f6a800fcc41fb9400fcbc)
  (.lf 0)))

def aesWireTree87 : BTree :=
  .nd (.nd (.nd (.lf
  0x138ec008b16138e0008ab2138fc008ab413904008ad013914008b00138d0008aec1391c008aba138f0008ac813918008ae2138f4008aca13924008b26138d4008ac41392c008abc13938008af813954008ace1395c008b3213920008af613930008b0213968008b2813934008b1813928008b0a1396c008abe13988008ad2138b4008b1c138d8008aee13990008ae4139e4008b3413944008b0c135a8008a5c138e4008ac6138f8008acc13994008af0135b4008a94135a0008a4a13870008a8013874008a8a1386c008aa013948008b0e135b8008aa6139a4008b3013178008a38135ac008a5e13858008a7213900008ab6139a0008b2c13974008b04138e8008ad613854008a701399c008b2a13998008b1a130ec008a3a13584008a6613844008a8813850008a6e130f4008a4e13180008a6813560008a321317c008a401398c008ad4139dc008af413970008ac01393c008afa139cc008af2139d0008b08)
  (.lf 0)) (.nd (.lf
  0x1bd1000c6981bd0400c6601bd3400c68e1bd3800c69a1bd3c00c69c1bdb000c6a21bd1c00c6aa1bd5400c6a41bd5800c6ac1bd7c00c6c21bd5c00c6ae1bd7800c6b01bd9000c7161bdac00c6b21bdb400c6b41be3c00c6d01bdd800c7001bd6c00c6ec1bde000c6ba1bd9c00c6c81bdc400c6e21bda000c6ca1bd9400c7261bd8000c6c41bde400c6bc1be4000c6f81bde800c6ce1bd7000c7321bdc800c6f61bddc00c7021bda800c7281bd9800c7181bd8400c70a1bdec00c6be1be8400c6d21bdfc00c71c1bd7400c6ee1bdd000c6e41be0c00c7341be4c00c70c1bcfc00c65c1bd8800c6c61bda400c6cc1be1c00c6f01bd0800c6941ad3400c64a1ad0c00c6801ad1c00c68a1bd2800c6a01be5800c70e1bd1400c6a61be3400c7301a76800c6381bd0000c65e1bd2c00c6721bdb800c6b61be2c00c72c1bdf000c7041bd8c00c6d61bd2000c6701be2800c72a1be2000c71a1a7b000c63a1bce000c666)
  (.lf 0))) (.nd (.nd (.lf
  0x8b08018a8408d6c018a6408d74018a4808aa4018a5a08d78018a8607efc018a7a08d80018a9208d84018a6c08d94018a3608db0018a5408d9c018a7408dac018a8c08dcc018a9808dc0018a6008de0018a8e08de8018a9a08dec018a9c08df0018aa208ddc018aaa08de4018aa408e08018aac08e0c018ac208e10018aae08e24018ab008e38018b1608e28018ab208e3c018ab408e44018ad008e54018b0008e20018aec08e58018aba08e30018ac808e5c018ae208e60018aca08e64018b2608e68018ac408e70018abc08e74018af808e78018ace08e80018b3208e84018af608e94018b0208e98018b2808e9c018b1808ea0018b0a08ea4018abe08eb4018ad208ebc018b1c08ec8018aee08ed0018ae408f0c018b3408db8018a5c08e2c018ac608e6c018acc08ed4018af008db4018a9408d98018a4a08da4018a8008da8018a8a08dd4018aa009000018b0e08dc4018aa608ee4018b3008b10018a38)
  (.lf 0)) (.nd (.lf
  0x22be801226622c0801228822c1801226e22ad801224e22bfc0122682296001223222bcc01224022cd40122d422d5c0122f422ce80122c022d740122fa22d400122f222d9c01230822d780122fc22d2401233c22d9001233622d9801230622da001231e22dc001233a22d9401233822d3801231022da401232022da801232222d3c01231222dd001232e22ccc01232422d2c01233e22c3801229622c4c01229e22bc801227e22c1401227c22c300122a822cec01231422c900122e622cc00122d822d7c0122fe22c680122dc22c700122ea22c940122e822c640122b822c6c0122de22c740122e022d180122da22ae801225022aec01225603218001e1003220001e1203224001e1c03248001e1a03060001e3003084001e8203044001e4203088001e4c03068001e7603080001e580305c001e6203048001e3c0306c001e7803058001e3e0304c001e4403050001e4603078001e5203030001e6a03040001e90)
  (.lf 0)))

def aesWireTree88 : BTree :=
  .nd (.nd (.nd (.lf
  0x43900006ff043a40006fd044fc0006fb043780006f9044540006f7043b00006f5043940006f304a9c0006f1051b40006ef051c80006ed05a600006eb051900006e905ac40006e7051f00006e5051dc0006e305a900006e104f300006df04f540006dd055280006db04efc0006d90557c0006d704fa40006d504f7c0006d3054bc0006d10599c0006cf059bc0006cd060300006cb059580006c9060e00006c705a0c0006c5059e80006c30607c0006c1043800006bf043a00006bd044f80006bb043740006b9044500006b7043ac0006b50438c0006b304a980006b1051b00006af051c40006ad05a5c0006ab0518c0006a905ac00006a7051ec0006a5051d80006a305a8c0006a104f2c00069f04f5000069d0552400069b04ef80006990557800069704fa000069504f78000693054b80006910599800068f059b800068d0602c00068b0595c000689060dc00068705a08000685059e400068306078000681)
  (.lf
  0x10ea00027f510d380027f310d3c0027f110be40027ef10f140027ed10c480027eb10bb40027e910c940027e710fe80027e510e780027e310cc80027e110c000027df10f700027dd10c600027db10c200027d910cb00027d7115ac0027d510e880027d310cec0027d110edc0027cf10ee40027cd10d280027cb10d140027c910fec0027c710fb40027c510e980027c30d3f80027c10d1e40027bf0da880027bd0d3340027bb0d2080027b90d3bc0027b70df500027b50da640027b30d3e80027b10d1ec0027af0db200027ad0d3140027ab0d1d80027a90d3ac0027a70dd4c0027a50da540027a30d38c0027a10daf800279f0dae800279d0d37c00279b0d3dc0027990df900027970dfb00027950da700027930d2000027910daac00278f0d32800278d0d3a000278b0d4100027890db680027870da380027850d3640027830e8ec0027810e85c00277f0e73800277d0e80400277b0e7fc0027790e9e4002777))
  (.nd (.lf
  0x12b9400903e123b8009044126d800904612ba4009052125fc00906a126e000909012b8c00903412b84009084123c400906412bb000904812bb400905a12bb800908612bc000907a12bc40090921260800906c12bc800903612be400905412bd000907412be000908c12c0000909812bf400906012c1400908e12c1c00909a12c2000909c12c240090a212c100090aa12c180090a412c3c0090ac12c400090c212c440090ae12c580090b012c6c00911612c5c0090b212c700090b412c780090d012c8800910012c540090ec12c8c0090ba12c640090c812c900090e212c940090ca12c9800912612c9c0090c412ca40090bc12ca80090f812cac0090ce12cb400913212cb80090f612cc800910212ccc00912812cd000911812cd400910a12cd80090be12ce80090d212cf000911c12cfc0090ee12d040090e412d4000913412bec00905c12c600090c612ca00090cc12d080090f012be800909412bcc00904a)
  (.lf 0))) (.nd (.nd (.lf
  0x19c4000d0b019c6c00d11619c7c00d0b219cb000d0b419d1000d0d019cd400d10019c9800d0ec19cbc00d0ba19c5800d0c819cdc00d0e219c6000d0ca19c7400d12619c4c00d0c419cc400d0bc19d1c00d0f819cac00d0ce19ca000d13219ce800d0f619ce400d10219c5c00d12819c7000d11819c5000d10a19cc000d0be19d1400d0d219ca800d11c19c9c00d0ee19ce000d0e419cd800d13419d6800d10c19bdc00d05c19c5400d0c619c6400d0cc19cec00d0f019bd000d09419bcc00d04a19b7c00d08019b8000d08a19c1c00d0a019d7400d10e19be800d0a619d3400d1301941000d03819be000d05e19c2000d07219cb800d0b619d0800d12c19cf000d10419c6800d0d619c1400d07019d0400d12a19d0000d11a19ba000d03a19c1000d0661992400d08819bb800d06e19b8400d04e1941400d0681991800d0321940c00d04019d1800d0d419d4000d0f419cc800d0c019d2400d0fa19d3c00d0f2)
  (.lf 0)) (.nd (.lf
  0x1e07000f4601e07c00f48e1e08000f49a1e08400f49c1e08800f4a21e06800f4aa1e09400f4a41e09800f4ac1e17400f4c21e09c00f4ae1e0a400f4b01e0b000f5161e0b400f4b21e0b800f4b41e0c400f4d01e0e000f5001e14800f4ec1e0fc00f4ba1e18800f4c81e11000f4e21e18c00f4ca1e0d000f5261e17800f4c41e10000f4bc1e0e800f4f81e0ec00f4ce1e14c00f5321e11400f4f61e0f400f5021e1b400f5281e0d400f5181e17c00f50a1e12c00f4be1e12400f4d21e10800f51c1e15c00f4ee1e14000f4e41e0e400f5341e10400f50c1d20c00f45c1e0a800f4c61e19000f4cc1e16000f4f01d23c00f4941e06c00f44a1e05800f4801e05c00f48a1d26000f4a01e12000f50e1e06000f4a61e1c000f5301ced000f4381d21000f45e1d25400f4721e0bc00f4b61e1bc00f52c1e13000f5041e0ac00f4d61d25000f4701e1b800f52a1e16400f51a1d21800f43a1d21400f4661cf2800f488)
  (.lf 0)))

def aesWireTree89 : BTree :=
  .nd (.nd (.nd (.lf
  0x9d68000cd70afdc000cd50a4b4000cd309b3c000cd10367c000ccf09b24000ccd09a60000ccb01998000cc903584000cc70b064000cc50a344000cc309b94000cc1099c4000cbf09c8c000cbd0b0d4000cbb09b58000cb909b78000cb70199c000cb50374c000cb309a40000cb10cd9c000caf09e88000cad03574000cab09c60000ca9036dc000ca709aa0000ca509a94000ca30b0e0000ca109ac0000c9f035e8000c9d09cb8000c9b03d78000c9903664000c970a6bc000c9509a0c000c930b058000c9103ddc000c8f03dec000c8d0a548000c8b03594000c8903754000c870a328000c8503554000c8309a28000c8101968000010019700000120197400001c0199000001a017b0000030017d400008201794000042017d800004c017b8000076017d0000058017ac0000620179800003c017bc000078017a800003e0179c000044017a0000046017c80000520178000006a01790000090017b4000034)
  (.lf 0)) (.nd (.lf
  0x6a7c01712c06a44017104069d00170d60692801707006a7801712a06a7401711a05fd001703a0690c017066069180170880692401706e065dc01704e06644017068068d801703205fcc01704006a540170d406a880170f406a480170c006a240170fa06a840170f206a9001710806a280170fc06a2c01713c06abc01713606a4c01710606a5c01711e06a6801713a06ac001713806e2c01711006a6001712006a9c01712206e3001711206aa001712e06a1801712406e2801713e069640170960696c01709e0665c01707e0693c01707c069740170a8069b0017114069b40170e6069e40170d8069ec0170fe069900170dc069980170ea069b80170e80699c0170b8069940170de069a00170e0069e80170da068f8017050065e001705607670017c1007678017c120767c017c1c07698017c1a074dc017c3007190017c82074cc017c4207248017c4c06e00017c76074f0017c58074d0017c620718c017c3c)
  (.lf 0))) (.nd (.nd (.lf
  0x4868014cc6048a8014ccc04924014cf0047f0014c94047d4014c4a047e0014c80047e4014c8a04810014ca0048c8014d0e04800014ca604934014d30044e4014c38047f8014c5e047cc014c720487c014cb604930014d2c048b4014d0c048f8014d0404870014cd6047c8014c700492c014d2a04928014d1a02a80014c3a047ac014c66047b8014c88047c4014c6e04404014c4e044d4014c6804778014c3202a54014c4004908014cd404960014cf4048fc014cc0048cc014cfa0495c014cf204968014d08048d0014cfc048d4014d3c049dc014d3604900014d0604910014d1e0491c014d3a049e0014d38048ec014d1004914014d2004974014d22048f0014d120499c014d2e048bc014d24048d8014d3e04804014c960480c014c9e044ec014c7e047dc014c7c04814014ca804850014d1404854014ce604884014cd80488c014cfe04830014cdc04838014cea04858014ce80483c014cb804834014cde)
  (.lf 0)) (.nd (.lf
  0x1a97c00c2da1a89800c2501a8a000c2561af0c00fe101af1400fe121af1800fe1c1af3c00fe1a1ab5c00fe301aafc00fe821ab5400fe421ab4c00fe4c1ad6400fe761ad7800fe581ab5800fe621ad5c00fe3c1ad6800fe781ad6000fe3e1ab7000fe441acd400fe461ad7000fe521ad4800fe6a1ad5800fe901ac0000fe341abf800fe841ab7800fe641ad7c00fe481ad8400fe5a1ac0400fe861ad8800fe7a1ad8c00fe921ad9000fe6c1ac0c00fe361adb400fe541ada000fe741adb000fe8c1add000fe981adc400fe601ade400fe8e1adec00fe9a1adf000fe9c1adf400fea21ade000feaa1ade800fea41ae0c00feac1ae1000fec21ae1400feae1ae2800feb01ae3c00ff161ae2c00feb21ae4000feb41ae4800fed01ae5800ff001ae2400feec1ae5c00feba1ae3400fec81ae6000fee21ae6400feca1ae6800ff261ae6c00fec41ae7400febc1ae7800fef81ae8000fece1ae8800ff321ae8c00fef6)
  (.lf 0)))

def aesWireTree90 : BTree :=
  .nd (.nd (.nd (.lf
  0x21464012ac4214ac012abc214f8012af821498012ace21520012b32214cc012af6214d4012b0221478012b2821484012b182148c012b0a214b0012abe214f0012ad22149c012b1c21534012aee214c4012ae4214d8012b34213c8012a5c21454012ac621490012acc21538012af0213bc012a9421410012a4a2140c012a8021420012a8a213f8012aa02150c012b0e21404012aa62156c012b30210dc012a38213cc012a5e213f0012a72214a4012ab621568012b2c21508012b0c214dc012b042147c012ad6213ec012a7021540012b2a2153c012b1a20fc0012a3a213b4012a66210f8012a88213e4012a6e21394012a4e210e4012a6820ff0012a32210e0012a40214f4012ad421558012af4214b4012ac0214fc012afa21554012af22158c012b0821500012afc2152c012b3c21524012b36214e0012b06214e4012b1e21544012b3a21528012b3821510012b10214e8012b2021548012b2221514012b12)
  (.lf
  0x1895400341b189c8003419189880034171939c003415193e400341318a00003411194cc00340f1944800340d18a5800340b189b0003409189980034071934c003405194000034031772c003401176f00033ff176c40033fd177a40033fb176340033f91771c0033f7178b40033f51788c0033f3177440033f1177900033ef177840033ed176780033eb177600033e917ef80033e717f1c0033e5178680033e3177000033e1176b00033df175dc0033dd177c80033db176800033d917ac40033d7178440033d5176580033d3176480033d1176040033cf176dc0033cd177f00033cb177700033c9177500033c717ce40033c5178280033c31442c00800e143ec0080081442800800614418008004139bc008a0e139ac008a08139c4008a06139b8008a0412d5c00940e12d70009408128f000940612d6800940415368009e0e15408009e0c153b8009e0815644009e06154a8009e0415f1c00880e15ee4008808))
  (.nd (.lf
  0x12a200096ba129f80096c812a240096e212a280096ca12a2c00972612a300096c412a380096bc12a3c0096f812a400096ce12a4800973212a4c0096f612a5c00970212a6000972812a6400971812a6800970a12a6c0096be12a7c0096d212a8400971c12a900096ee12a980096e412ad40097341298000965c129f40096c612a340096cc12a9c0096f01297c0096941296000964a1296c0096801297000968a1299c0096a012db800970e1298c0096a612aac0097301237c0096381298400965e1266c00967212a080096b612aa800972c12a70009704129fc0096d61266800967012aa400972a12aa000971a1268800963a1265c009666129500096881266400966e1265800964e123780096681273800963211ed400964012a800096d412ab40096f412a740096c012a500096fa12ab00096f212abc00970812a540096fc12a5800973c12ad800973612a7800970612a8800971e12a9400973a12adc009738)
  (.lf 0))) (.nd (.nd (.lf
  0x1ecc801031a1eb6401023a1eb380102661eb000102881eb2401026e1eb2801024e1eae80102681e3d40102321eae40102401ec580102d41ed4c0102f41ec480102c01eca80102fa1ece00102f21ece40103081ecac0102fc1ecc001033c1ed580103361ec940103061ed1801031e1ed3401033a1ed5c0103381ec980103101ed300103201ed380103221ec9c0103121ecd801032e1ec5c0103241ecec01033e1eb9c0102961ebc401029e1ead001027e1eb4c01027c1ebac0102a81ec000103141ebf00102e61ec300102d81ec680102fe1ebd40102dc1ecb00102ea1ebf40102e81ebe00102b81ebd80102de1ebdc0102e01ec640102da1eb2c0102501ebb4010256207dc010a10207f0010a1220790010a1c207b0010a1a20530010a3020598010a82205a0010a42205e4010a4c1ff7c010a761ff70010a58205c4010a62205a8010a3c1ff80010a78205b0010a3e205b8010a44205bc010a46205d4010a52)
  (.lf 0)) (.nd (.lf
  0x1f90401145e1f8e8011472226a80114b62274001152c228a4011504227080114d61f8e40114702273001152a2272c01151a1f8b801143a1f8e00114661f86c0114881f8cc01146e1f8d001144e1f7740114681f85c0114321f76c011440226d40114d4227a00114f4226c40114c0227340114fa2273c0114f2228ac011508227380114fc2279c01153c22898011536228a80115062291401151e2291c01153a2289c0115382281801151022918011520229b80115222281c0115122275401152e226b40115242281401153e1fafc0114961f91c01149e1f65401147e2264c01147c1f93c0114a82267c011514226680114e6226a40114d8228880114fe226d80114dc226e40114ea2266c0114e8226980114b8226dc0114de226e00114e0227180114da1f8ec0114501f8d401145620a34010c10215e0010c12209e8010c1c215e8010c1a2081c010c30208c0010c8220824010c421fdb4010c4c1ff38010c76)
  (.lf 0)))

def aesWireTree91 : BTree :=
  .nd (.nd (.nd (.lf
  0x13ca400161f124fc00161d13c5800161b13c5c00161913ecc0016170fd4c00161513f9000161313d04001611100a000160f15f8800160d124b800160b1345800160912fa00016071247c001605133f000160312478001601135140015ff135180015fd122a80015fb124700015f9124740015f7124940015f5134e80015f3133e80015f1134ec0015ef124b00015ed1342c0015eb12fe00015e9115800015e712f900015e5162300015e312fbc0015e11248c0015df134c00015dd124900015db1229c0015d9149180015d7122a00015d5124bc0015d3134d80015d1134540015cf12f940015cd118dc0015cb123200015c91184c0015c7127240015c5118e80015c3105740015c1125ec0015bf118400015bd1187c0015bb1188c0015b9118900015b7122740015b5123dc0015b3123440015b1126900015af126940015ad11e940015ab123400015a91234c0015a711cac0015a5123340015a3123c80015a1)
  (.lf 0)) (.nd (.lf
  0xcae000207c0cb180020a80cb540021140cb580020e60cb880020d80cb900020fe0cb340020dc0cb3c0020ea0cb5c0020e80cb400020b80cb380020de0cb440020e00cb8c0020da0b8100020500b8140020560c0740050100c07c0050120c08000501c0c09c00501a0b9640050300b8c40050820b95c0050420b8c800504c0bee80050760befc0050580b9600050620bee000503c0beec0050780bee400503e0b9800050440bab80050460bef40050520b9fc00506a0bac00050900bedc0050340bed40050840b9880050640bf000050480bf0400505a0bf080050860bf1000507a0bf140050920ba0800506c0bf180050360bf340050540bf200050740bf3000508c0bf500050980bf440050600bf6400508e0bf6c00509a0bf7000509c0bf740050a20bf600050aa0bf680050a40bf8c0050ac0bf900050c20bf940050ae0bfa80050b00bfbc0051160bfac0050b20bfc00050b40bfc80050d00bfd8005100)
  (.lf 0))) (.nd (.nd (.lf
  0xb294002f200b2d0002f220b2fc002f120b2d4002f2e0b24c002f240b304002f3e0b1a0002e960b184002e9e09ca4002e7e0a508002e7c0b1a8002ea80b1e4002f140b1e8002ee60b218002ed80b220002efe0b1c4002edc0b1cc002eea0b1ec002ee80b1d0002eb80b1c8002ede0b1d4002ee00b21c002eda0a490002e500a494002e560d928005a100d930005a120d934005a1c0d950005a1a0d2d0005a300d544005a820d2cc005a420d258005a4c0d7c4005a760d7cc005a580d53c005a620d7bc005a3c0d7c8005a780d7c0005a3e0d534005a440d7b0005a460d540005a520d52c005a6a0d7b8005a900d48c005a340d530005a840d548005a640d7d0005a480d7dc005a5a0d550005a860d7f4005a7a0d7fc005a920d558005a6c0d498005a360d574005a540d7d8005a740d7f8005a8c0d80c005a980d7e8005a600d818005a8e0d820005a9a0d824005a9c0d828005aa20d814005aaa0d81c005aa4)
  (.lf 0)) (.nd (.lf
  0x182c800a8ec1830000a8ba182d800a8c81830400a8e21830800a8ca1830c00a9261831000a8c41831800a8bc1831c00a8f81832400a8ce1832c00a9321833000a8f61834800a9021834c00a9281835000a9181835400a90a1836000a8be1837000a8d21837800a91c1838400a8ee1838c00a8e41840400a9341832000a90c1826000a85c182d400a8c61831400a8cc1839000a8f01825c00a8941824000a84a1824c00a8801825000a88a1827c00a8a01833400a90e1826c00a8a6183a000a930181ac00a8381826400a85e1823800a872182e800a8b61839c00a92c1836400a904182dc00a8d61823400a8701839800a92a1839400a91a170c400a83a1822000a866181e000a8881823000a86e181f000a84e181c800a868163e400a832181c400a8401837400a8d4183b000a8f41836800a8c01833800a8fa183ac00a8f2183b800a9081833c00a8fc1834000a93c1840800a9361836c00a9061837c00a91e)
  (.lf 0)))

def aesWireTree92 : BTree :=
  .nd (.nd (.nd (.lf
  0x23850013a3221738013a4023a88013ad423ab8013af423ad4013ac023aa0013afa23ab4013af223ae0013b0823abc013afc23a38013b3c23a54013b3623adc013b0623ae4013b1e23aec013b3a23a58013b3823a9c013b1023ae8013b2023af0013b2223ac8013b1223a40013b2e23aac013b2423aa4013b3e238f0013a9623908013a9e21758013a7e23874013a7c238fc013aa8239c8013b14239d0013ae623a18013ad823a44013afe239a4013adc239ac013aea239d4013ae8239a0013ab8239a8013ade239b0013ae023a1c013ada23858013a50216b8013a5623c88013c1023cd0013c1223c54013c1c23cc0013c1a23934013c30238c8013c8223940013c4221678013c4c216d4013c762392c013c5823944013c62216d8013c3c238d0013c78238b4013c3e23948013c442394c013c4623b20013c52238c0013c6a238dc013c9023938013c34238c4013c8423950013c6423954013c4823930013c5a)
  (.lf
  0x9e8c002ef509eb0002ef309ddc002ef109d88002eef09b30002eed036e0002eeb036c8002ee909c18002ee709ebc002ee509c58002ee309b48002ee109dfc002edf09d7c002edd03684002edb03578002ed909c04002ed709c64002ed50a0e0002ed30cfd4002ed109e34002ecf09db0002ecd0368c002ecb0350c002ec909b60002ec709c28002ec509ea4002ec3232b801200e2328801200c2330401200a232a4012008232ec01200623310012004232cc012002232f801200022d5001220e22dd801220c22dc801220a22d6c01220822de001220622dac01220422db801220222d64012200237e801240e2382001240c2379801240a23804012408237d4012406237f801240423818012402237c001240022e8801260e22efc01260c22ef401260a22e8c01260822edc01260622f0401260422ec801260222f140126002355401280e2359401280c2356c01280a2358c012808235640128062354c012804))
  (.nd (.lf
  0xc708002cd40c73c002cf40c6fc002cc00c6d8002cfa0c738002cf20c744002d080c6dc002cfc0c6e0002d3c0c760002d360c700002d060c710002d1e0c71c002d3a0c764002d380c7b0002d100c714002d200c750002d220c7bc002d120c754002d2e0c6cc002d240c798002d3e0c618002c960c620002c9e0c5b8002c7e0c5f0002c7c0c628002ca80c664002d140c668002ce60c698002cd80c6a0002cfe0c644002cdc0c64c002cea0c66c002ce80c650002cb80c648002cde0c654002ce00c69c002cda0c554002c500c558002c560bcd40054100bcdc0054120bce000541c0bcfc00541a0b8c00054300baa80054820b9f00054420b9f400544c0bb440054760bb580054580baa40054620bb3c00543c0bb480054780bb4000543e0ba980054440ba9c0054460bb500054520bb2800546a0bb380054900b9ec0054340ba940054840baac0054640bb5c0054480bb6400545a0bab00054860bb6800547a)
  (.lf 0))) (.nd (.nd (.lf
  0x1e3380020cf1e25c0020cd1ca280020cb1e2080020c91e20c0020c71e2a00020c51ca6c0020c31e4140020c11e21c0020bf1d1940020bd1d2c80020bb1d1a40020b91d1b40020b71d5480020b51d3d40020b31d4b80020b11ca3c0020af1d4300020ad1d4340020ab1d2ec0020a91c9d40020a71ca040020a51d1980020a31d1600020a11d4c400209f1d4c800209d1ca0000209b1d5100020991ca100020971d3ec0020951ca080020931d2b80020911ca3400208f1ca1c00208d1bcd800208b1d1440020891d1800020871bcc00020851d1840020831d50c0020811d44800207f1d3cc00207d1d29c00207b1f7a40020791f2580020771f5980020751f2600020731f7f80020711d85000206f1f94c00206d1f4c800206b1d3000020691d15c0020671d1d40020651d3080020631f7ac0020611f1f000205f1f75000205d1f76000205b1f5a40020591f1f40020571f6480020551f2380020531f1e8002051)
  (.lf 0)) (.nd (.lf
  0x1b0b800f8d81b0c000f8fe1b06400f8dc1b06c00f8ea1b08c00f8e81b07000f8b81b06800f8de1b07400f8e01b0bc00f8da1afdc00f8501afe400f8561d83c00f0101d84400f0121d87800f01c1d81000f01a1d6c400f0301ce1800f0821ce1c00f0421d68000f04c1d28c00f0761d28400f0581d6a400f0621d27c00f03c1d29000f0781d69c00f03e1ce2000f0441cefc00f0461d27800f0521d66400f06a1d66c00f0901d6c800f0341d66800f0841d6a800f0641d6a000f0481d28800f05a1d67000f0861d29400f07a1d67800f0921d67400f06c1d6cc00f0361d68400f0541d6f400f0741d6e400f08c1d71800f0981d6f000f0601d6f800f08e1d72c00f09a1d73400f09c1d73800f0a21d6e800f0aa1d6fc00f0a41d70000f0ac1d72000f0c21d70800f0ae1d71c00f0b01d7e000f1161d73000f0b21d74000f0b41d79c00f0d01d77400f1001d7f000f0ec1d7a800f0ba1d75800f0c81d78800f0e2)
  (.lf 0)))

def aesWireTree93 : BTree :=
  .nd (.nd (.nd (.lf
  0xf320004cb40f328004cd00f3a0004d000f330004cec0f340004cba0f3d8004cc80f388004ce20f3dc004cca0f380004d260f32c004cc40f344004cbc0f334004cf80f338004cce0f348004d320f38c004cf60f3a4004d020f3e0004d280f37c004d180f34c004d0a0f350004cbe0f354004cd20f368004d1c0f36c004cee0f3a8004ce40f3b8004d340f2d0004c5c0f370004cc60f450004ccc0f3ac004cf00ea7c004c940ea58004c4a0ea0c004c800ea10004c8a0f2f8004ca00f418004d0e0ea80004ca60f3f4004d300e940004c380f2d4004c5e0ea18004c720f324004cb60f3e8004d2c0f3c4004d040f374004cd60ea14004c700f3e4004d2a0f3b0004d1a0ea40004c3a0e960004c660e950004c880ea04004c6e0e8e0004c4e0e934004c680e838004c320e930004c400f35c004cd40f48c004cf40f358004cc00f394004cfa0f3b4004cf20f3cc004d080f398004cfc0f390004d3c0f3bc004d36)
  (.lf 0)) (.nd (.lf
  0xd08c003e9c0d090003ea20d07c003eaa0d084003ea40d0a8003eac0d0ac003ec20d0b0003eae0d0c4003eb00d0d8003f160d0c8003eb20d0dc003eb40d0e4003ed00d0f4003f000d0c0003eec0d0f8003eba0d0d0003ec80d0fc003ee20d100003eca0d104003f260d108003ec40d110003ebc0d114003ef80d118003ece0d120003f320d124003ef60d134003f020d138003f280d13c003f180d140003f0a0d144003ebe0d154003ed20d15c003f1c0d168003eee0d170003ee40d1ac003f340d058003e5c0d0cc003ec60d10c003ecc0d174003ef00d054003e940d038003e4a0d044003e800d048003e8a0d074003ea00d33c003f0e0d064003ea60d184003f3009c40003e380d05c003e5e0d030003e720d0e0003eb60d180003f2c0d148003f040d0d4003ed60d02c003e700d17c003f2a0d178003f1a0a0a8003e3a0d010003e660d01c003e880d028003e6e09e40003e4e09c3c003e680cfdc003e32)
  (.lf 0))) (.nd (.nd (.lf
  0xf694006a6c0f4c8006a360f6b0006a540f6e8006a740f708006a8c0f71c006a980f6f8006a600f728006a8e0f730006a9a0f734006a9c0f738006aa20f724006aaa0f72c006aa40f750006aac0f754006ac20f758006aae0f76c006ab00f780006b160f770006ab20f784006ab40f78c006ad00f79c006b000f768006aec0f7a0006aba0f778006ac80f7a4006ae20f7a8006aca0f7ac006b260f7b0006ac40f7b8006abc0f7bc006af80f7c0006ace0f7c8006b320f7cc006af60f7dc006b020f7e0006b280f7e4006b180f7e8006b0a0f7ec006abe0f7fc006ad20f804006b1c0f810006aee0f818006ae40f854006b340f6f0006a5c0f774006ac60f7b4006acc0f81c006af00f710006a940f6e4006a4a0f6a8006a800f6ac006a8a0f700006aa00fcdc006b0e0f714006aa60f82c006b300f674006a380f6f4006a5e0f6a0006a720f788006ab60f828006b2c0f7f0006b040f77c006ad60f69c006a70)
  (.lf 0)) (.nd (.lf
  0x15a3c00a71a155ec00a63a158c800a6661556400a688158d800a66e1589800a64e1555000a6681540400a6321554c00a64015a1c00a6d415a5400a6f415a1000a6c0159e000a6fa15a5000a6f215a5c00a708159e400a6fc159e800a73c15a8000a73615a1400a70615a2400a71e15a3000a73a15a8400a73815a0000a71015a2800a72015a6800a72215a0400a71215a7000a72e159d000a724159ec00a73e1591800a6961592000a69e154f400a67e158f000a67c1592800a6a81596400a7141596800a6e61599800a6d8159a000a6fe1594400a6dc1594c00a6ea1596c00a6e81595000a6b81594800a6de1595400a6e01599c00a6da158b400a650158bc00a6561583800a2101584000a2121584800a21c1589000a21a154ec00a2301547c00a282153e400a242154f000a24c155c800a276155d800a258154e800a262155c000a23c155cc00a278155c400a23e1568c00a2441569000a2461569800a252)
  (.lf 0)))

def aesWireTree94 : BTree :=
  .nd (.nd (.nd (.lf
  0x8c800144c008a8001476008c00014580089c0014620088800143c008ac0014780089800143e0088c00144400890001446008b80014520087000146a00880001490008a400143400874001484008cc001464008d4001448008d800145a008dc001486008e400147a008e8001492008ec00146c008fc00143600918001454009040014740091400148c00934001498009280014600094800148e0095000149a0095400149c009580014a2009440014aa0094c0014a4009700014ac009740014c2009780014ae0098c0014b0009a0001516009900014b2009a40014b4009ac0014d0009bc001500009880014ec009c00014ba009980014c8009c40014e2009c80014ca009cc001526009d00014c4009d80014bc009dc0014f8009e40014ce009ec001532009f00014f600a0800150200a0c00152800a1000151800a1400150a00a200014be00a300014d200a3800151c00a440014ee00a4c0014e400a94001534)
  (.lf
  0x78ac018400084bc01860e0844401860c0844801860a0852401860808428018606084e4018604084400186020843c0186000816801780e0818401780c0818801780a0813c017808081640178060815c017804081800178020817c01780009098017a0e08a04017a0c08a18017a0a09124017a08089d4017a0609048017a04089f8017a02089ec017a0008b20017c0e076a4017c0c076a8017c0a08a60017c0807688017c0608ac0017c04076a0017c020769c017c000710c017e0e070b8017e0c070c0017e0a070f4017e0807068017e0607104017e04070a0017e020708c017e0006e6001700e06af401700c06b1c01700a06e9401700806aa401700606e3401700406adc01700206ac801700007f4001720e07e3801720c07e4001720a07f7401720807e1001720607f1401720407e3001720207e28017200087d801740e074c001740c074c401740a08790017408074a4017406087c0017404074bc017402))
  (.nd (.lf
  0xa6380036560c508002a100c510002a120c514002a1c0c534002a1a0a518002a300c37c002a820c35c002a420c380002a4c0b12c002a760b134002a580c360002a620c364002a3c0b130002a780c368002a3e0c36c002a440c370002a460c378002a520b0f4002a6a0b128002a900c358002a340b0f8002a840c384002a640c38c002a480b138002a5a0c390002a860b13c002a7a0c398002a920c39c002a6c0c3ac002a360c3c8002a540c3b4002a740c3c4002a8c0c3e4002a980c3d8002a600c3f8002a8e0c400002a9a0c404002a9c0c408002aa20c3f4002aaa0c3fc002aa40c420002aac0c424002ac20c428002aae0c43c002ab00c450002b160c440002ab20c454002ab40c45c002ad00c46c002b000c438002aec0c470002aba0c448002ac80c474002ae20c478002aca0c47c002b260c480002ac40c488002abc0c48c002af80c490002ace0c498002b320c49c002af60c4ac002b020c4b0002b28)
  (.lf 0))) (.nd (.nd (.lf
  0x9530018920095700189220950c0189120957801892e094d8018924094f401893e094200188960942801889e0908401887e093f801887c094300188a80946c018914094700188e6094a00188d8094a80188fe0944c0188dc094540188ea094740188e8094580188b8094500188de0945c0188e0094a40188da093bc018850093c401885608148017810081500178120815401781c0817801781a07f9c01783007f5c01788207f8c01784207f5401784c07eac01787607fb001785807f9001786207f6801783c07eb001787807f6c01783e07f9401784407f9801784607fa801785207f3001786a07f3c01789007fa001783407f3401788407fb401786407fbc01784807fc001785a07f6001788607eb401787a07f7001789207fc401786c07fd401783607ff001785407fdc01787407fec01788c0800c017898080000178600802001788e0802801789a0802c01789c080300178a20801c0178aa080240178a4)
  (.lf 0)) (.nd (.lf
  0x17b9800dcc217b9c00dcae17bb000dcb017bc400dd1617bb400dcb217bc800dcb417bd000dcd017be000dd0017bac00dcec17be400dcba17bbc00dcc817be800dce217bec00dcca17bf000dd2617bf400dcc417bfc00dcbc17c0000dcf817c0800dcce17c1000dd3217c1400dcf617c2c00dd0217c3000dd2817c3400dd1817c3800dd0a17c4400dcbe17c5400dcd217c5c00dd1c17c6800dcee17c7000dce417cbc00dd3417c0400dd0c17b4400dc5c17bb800dcc617bf800dccc17c7400dcf017b4000dc9417b2400dc4a17b3000dc8017b3400dc8a17b6000dca017c1800dd0e17b5000dca617c8400dd3017adc00dc3817b4800dc5e17b1c00dc7217bcc00dcb617c8000dd2c17c4800dd0417bc000dcd617b1800dc7017c7c00dd2a17c7800dd1a176b800dc3a17afc00dc6617b0800dc8817b1400dc6e177d000dc4e17acc00dc681770800dc321784c00dc4017c5800dcd417c9000dcf417c4c00dcc0)
  (.lf 0)))

def aesWireTree95 : BTree :=
  .nd (.nd (.nd (.lf
  0x14bc000189b14bcc0018991419c00189714b44001895146a000189314e74001891146a800188f1873800188d14bfc00188b1420c00188914b7c0018871421400188514c6c00188314c1400188114c7000187f14d1400187d14b9000187b14b5400187914ce4001877167540018751489c001873166640018711485400186f167ac00186d133d000186b16830001869165d400186714b2400186514b0c00186314b1400186114c7c00185f1674c00185d1a3ac00185b166f40018591a3b0001857166540018551a3b8001853165f0001851147e000184f1a3c000184d1661000184b167b400184914864001847133d8001845165dc00184316694001841148a400183f166fc00183d148a800183b1485c0018391661c0018371486000183514888001833167bc0018311683c00182f165f400182d166e400182b16760001829166f8001827166c80018251665000182314b6c00182114de400181f14b7000181d)
  (.lf 0)) (.nd (.lf
  0xef24004aa00eff8004b0e0ef38004aa60f064004b300e9a4004a380ef18004a5e0e9d0004a720efac004ab60f060004b2c0f028004b040efa0004ad60e9cc004a700f05c004b2a0f058004b1a0eee8004a3a0e9b8004a660e9c0004a880e9c8004a6e0e900004a4e0e994004a680e878004a320e990004a400f038004ad40f074004af40f02c004ac00effc004afa0f070004af20f07c004b080f000004afc0f004004b3c0f0d8004b360f030004b060f040004b1e0f04c004b3a0f0dc004b380f01c004b100f044004b200f088004b220f020004b120f094004b2e0efec004b240f008004b3e0ef3c004a960ef20004a9e0e810004a7e0e9d4004a7c0ef44004aa80ef80004b140ef84004ae60efb4004ad80efbc004afe0ef60004adc0ef68004aea0ef88004ae80ef6c004ab80ef64004ade0ef70004ae00efb8004ada0e904004a500e908004a56141a8008210141b0008212141b800821c141f400821a)
  (.lf 0))) (.nd (.nd (.lf
  0x228401430a022880142be022980142d2022a001431c022ac0142ee022b40142e4023000143340219c01425c022100142c6022500142cc022b80142f0021980142940217c01424a021880142800218c01428a021b80142a00379c01430e021a80142a6022c801433002110014238021a001425e02174014272022240142b6022c401432c0228c014304022180142d602170014270022c001432a022bc01431a020f801423a0214c0142660215c0142880216c01426e020f401424e020e8014268020e4014232020e00142400229c0142d4022d00142f4022900142c00226c0142fa022cc0142f2022d8014308022700142fc0227401433c0230401433602294014306022a401431e022b001433a02308014338037a8014310022a8014320022e4014322037ac014312022e801432e02260014324037a001433e021ac014296021b401429e0212c01427e0218401427c021bc0142a8021f8014314021fc0142e6)
  (.lf 0)) (.nd (.lf
  0x21d28012d0c212f8012e1021300012e1221304012e1c21324012e1a2100c012e3020efc012e8221004012e4220fb8012e4c210b8012e76210c0012e5821008012e62210b0012e3c210bc012e78210b4012e3e21168012e442116c012e4621174012e522115c012e6a21164012e9021010012e3421160012e8421178012e6421180012e48210c4012e5a21188012e86210c8012e7a21190012e9221194012e6c2101c012e36211b8012e54211a4012e74211b4012e8c211d4012e98211c8012e60211e8012e8e211f0012e9a211f4012e9c211f8012ea2211e4012eaa211ec012ea421210012eac21214012ec221218012eae2122c012eb021240012f1621230012eb221244012eb42124c012ed02125c012f0021228012eec21260012eba21238012ec821264012ee221268012eca2126c012f2621270012ec421278012ebc2127c012ef821280012ece21288012f322128c012ef62129c012f02212a0012f28)
  (.lf 0)))

def aesWireTree96 : BTree :=
  .nd (.nd (.nd (.lf
  0x1ff000000001fd000000001fb000000001f9000000001f7000000001f5000000001f3000000001f1000000001ef000000001ed000000001eb000000001e9000000001e7000000001e5000000001e3000000001e1000000001df000000001dd000000001db000000001d9000000001d7000000001d5000000001d3000000001d1000000001cf000000001cd000000001cb000000001c9000000001c7000000001c5000000001c3000000001c1000000001bf000000001bd000000001bb000000001b9000000001b7000000001b5000000001b3000000001b1000000001af000000001ad000000001ab000000001a9000000001a7000000001a5000000001a3000000001a10000000019f0000000019d0000000019b00000000199000000001970000000019500000000193000000001910000000018f0000000018d0000000018b0000000018900000000187000000001850000000018300000000181)
  (.lf
  0xda78003e0a16ec0009c00133e00078000afb8003a020afb0003a0c0afa4003a0a0da24003e000af9c0032020af9400320c0af8c00320a0af84003a000cd0c0026020cd0000260c0ccf400260a0af8000320013160006602130c800660c1306800660a0cce40026000a6b40010020a5e800100c0a57000100a130280066000d58c0038000d49c0038020d41400380a0a5300010000ea1c0028000e90c0028020e88400280c0e81800280a1301c006000130140060021300400600c12ff800600a0af7c0036000af780036020af7400360c0af7000360a0c854002a000c84c002a020c840002a0c0c834002a0a0c33000520a11a98005e001198c005e02118f0005e0a0e4a400460a0c32c0052000c3280052020c32400520c118e0007a0a0e4940046000e4880046020e47c00460c10570006e0a118d4007a00118c8007a02118c0007a0c12fd000620a1056c006e0010568006e021055c006e0c12fcc00960c))
  (.nd (.lf
  0x10c64007c4e115b4007c6810f74007c32115b0007c4011730007cd411764007cf411724007cc011700007cfa11760007cf21176c007d0811704007cfc11708007d3c1178c007d3611728007d0611738007d1e11744007d3a11790007d38117e8007d101173c007d201177c007d22117ec007d1211780007d2e116f4007d24117f4007d3e11640007c9611648007c9e10cb8007c7e11618007c7c11650007ca81168c007d1411690007ce6116c0007cd8116c8007cfe1166c007cdc11674007cea11694007ce811678007cb811670007cde1167c007ce0116c4007cda10f84007c5010f88007c560fa00006c100fa08006c120fa0c006c1c0fa28006c1a0f184006c300f5f4006c820f1a8006c420f1ac006c4c0f89c006c760f8a4006c580f5ec006c620f894006c3c0f8a0006c780f898006c3e0f5e4006c440f888006c460f5f0006c520f5dc006c6a0f890006c900f4f0006c340f5e0006c840f5f8006c64)
  (.lf 0))) (.nd (.nd (.lf
  0x18ba800bd2618b8000bcc418c3800bcbc18c4c00bcf818b4c00bcce18b6c00bd3218bb800bcf618bc400bd0218bd800bd2818ba400bd1818b7c00bd0a18c3c00bcbe18c4800bcd218b4800bd1c18b7000bcee18bb400bce418bc800bd3418c5400bd0c18ae400bc5c18b9800bcc618d4400bccc18bdc00bcf018ad800bc9418acc00bc4a18b1800bc8018b1c00bc8a18b0c00bca018c5800bd0e18adc00bca618bf000bd3018a8400bc3818ae800bc5e18b1000bc7218c3000bcb618be800bd2c18c4000bd0418b9c00bcd618b0400bc7018be400bd2a18be000bd1a14d0400bc3a18b0000bc6618ac000bc8818af000bc6e1874c00bc4e18a9c00bc6814c0c00bc3218a9800bc4018c5000bcd418d4800bcf418ca400bcc018c9400bcfa18cdc00bcf218ce000bd0818cac00bcfc18bf400bd3c18bcc00bd3618ca800bd0618cd800bd1e18d8c00bd3a18c2c00bd3818c9c00bd1018d5000bd2018d5400bd22)
  (.lf 0)) (.nd (.lf
  0x2a000147380447c01471002990014720029cc01472204480014712029d001472e029480147240453801473e028940146960289c01469e0281401467e0286c01467c028a40146a8028e0014714028e40146e6029140146d80291c0146fe028c00146dc028c80146ea028e80146e8028cc0146b8028c40146de028d00146e0029180146da02818014650028200146560278c014e1002794014e1202798014e1c027b4014e1a025d4014e30025f8014e82025b8014e42025fc014e4c025dc014e76025f4014e58025d0014e62025bc014e3c025e0014e78025cc014e3e025c0014e44025c4014e46025ec014e52025a4014e6a025b4014e90025d8014e34025a8014e8402600014e6402608014e480260c014e5a02610014e8602618014e7a0261c014e9202620014e6c02630014e360264c014e5402638014e7402648014e8c02668014e980265c014e600267c014e8e02684014e9a02688014e9c0268c014ea2)
  (.lf 0)))

def aesWireTree97 : BTree :=
  .nd (.nd (.nd (.lf
  0xff80008ac00ffc0008c2010000008ae010140008b001028000916010180008b20102c0008b4010340008d001044000900010100008ec010480008ba010200008c80104c0008e2010500008ca01054000926010580008c4010600008bc010640008f8010680008ce01070000932010740008f601084000902010880009280108c0009180109000090a010940008be010a40008d2010ac00091c010b80008ee010c00008e4010fc00093400fa800085c0101c0008c60105c0008cc010c40008f000fa400089400f8800084a00f9400088000f9800088a00fc40008a00359c00090e00fb40008a6010d400093000f1c00083800fac00085e00f80000872010300008b6010d000092c01098000904010240008d600f7c000870010cc00092a010c800091a00f0400083a00f5800086600f6800088800f7800086e00f0000084e00ef400086800ef000083200eec000840010a80008d4010dc0008f40109c0008c0)
  (.lf 0)) (.nd (.lf
  0x11d4800609811d2400606011d5400608e11d5c00609a11d6000609c11d640060a211d500060aa11d580060a411d7c0060ac11d800060c211d840060ae11d980060b011dac00611611d9c0060b211db00060b411db80060d011dc800610011d940060ec11dcc0060ba11da40060c811dd00060e211dd40060ca11dd800612611ddc0060c411de40060bc11de80060f811dec0060ce11df400613211df80060f611e0800610211e0c00612811e1000611811e1400610a11e180060be11e280060d211e3000611c11e3c0060ee11e440060e411e8400613411d1c00605c11da00060c611de00060cc11e480060f011d3c00609411d1000604a11a8c00608011a9000608a11d2c0060a0124d400610e11d400060a611e5800613011a5800603811d2000605e11a8400607211db40060b611e5400612c11e1c00610411da80060d611a8000607011e5000612a11e4c00611a11cf000603a11a6c00606611a74006088)
  (.lf 0))) (.nd (.nd (.lf
  0xfab40068780fa6000683e0fa700068440fa740068460fa680068520fa8400686a0fa800068900f6480068340fa900068840fcd00068640fa780068480f51800685a0fa940068860fab800687a0fa9c0068920fa8800686c0f64c0068360fa6c006854105800068740fac800688c0fab00068980fcc80068601058400688e105a400689a105a800689c105c40068a20fad00068aa105900068a4105940068ac105980068c21059c0068ae105a00068b010600006916105b00068b2105d80068b4105e40068d010654006900106240068ec105e00068ba105cc0068c81064c0068e2105d00068ca10604006926105f80068c4105ec0068bc105f00068f8106100068ce1062c006932106580068f61069400690210630006928106340069181060c00690a106380068be106080068d21064000691c106280068ee106700068e4106880069340fcc000685c105c80068c6105fc0068cc106740068f00faa8006894)
  (.lf 0)) (.nd (.lf
  0x1a45c00b44a1a46800b4801a46c00b48a1a49800b4a01a55000b50e1a48800b4a61a5bc00b5301a3d000b4381a48000b45e1a45400b4721a50400b4b61a5b800b52c1a58000b5041a4f800b4d61a45000b4701a5b400b52a1a5b000b51a1685400b43a1a43c00b4661a40000b4881a44c00b46e1a40c00b44e1a3e800b4681681c00b4321a3e400b4401a59000b4d41a5d400b4f41a58400b4c01a55400b4fa1a5d000b4f21a5dc00b5081a55800b4fc1a55c00b53c1a61400b5361a58800b5061a59800b51e1a5a400b53a1a61800b5381a57400b5101a59c00b5201a5e800b5221a57800b5121a5f400b52e1a54400b5241a56000b53e1a48c00b4961a49400b49e1a3f800b47e1a46400b47c1a49c00b4a81a4d800b5141a4dc00b4e61a50c00b4d81a51400b4fe1a4b800b4dc1a4c000b4ea1a4e000b4e81a4c400b4b81a4bc00b4de1a4c800b4e01a51000b4da1a42800b4501a43000b456175ec00ac10)
  (.lf 0)))

def aesWireTree98 : BTree :=
  .nd (.nd (.nd (.lf
  0x220cc0134e0220940134da21f8c01345021f640134562239c01361022304013612222e001361c2233001361a21e6801363022164013682221540136422216801364c21eb401367621ec8013658221600136622217801363c21ebc0136782218001363e221580136442215c0136462219401365221ea801366a21eb00136902217c01363421e84013684221a40136642218401364821ecc01365a2216c01368621ec001367a221bc0136922217001366c221cc01363622198013654221f4013674221e001368c221c8013698221f0013660221f801368e221fc01369a2220001369c222340136a2221e80136aa222040136a4222080136ac222100136c2222140136ae2221c0136b02226c013716222240136b2222380136b4222400136d022284013700222a40136ec222500136ba2222c0136c8222b80136e2222300136ca222700137262230c0136c4223880136bc222f40136f8222440136ce222a8013732)
  (.lf
  0x10cdc0030d110ed80030cf10ecc0030cd10d240030cb10d100030c910fe40030c710fb00030c510e940030c30cca800200e0ccd40020080cc480020060ccc40020040c808002a0e0c7ec002a080c520002a060c800002a040aee800340e0aef40034080ae8c0034060aeec0034040d354003e0e0d1bc003e0c0d300003e080d1a8003e060d348003e040e78c00280e0e71c0028080e6e00028060e7580028040af3c00320e0af1c0032080aaa80032060af300032040a2a0003c0e0a2b8003c0c0a2bc003c0a0a26c003c080a298003c060a28c003c040a2b4003c020cc9000260e0cc600026080ca540026060cc7c0026040aec000300e0aea40030080ac940030060aeb80030040a2e0003a0e0a2c4003a080a094003a060a2d8003a040b88000240e0b9080024080b7bc0024060b8380024040b7800024020b308002e0e0b2f0002e080b2d8002e060b300002e040d22c00380e0cf8c00380c0d2a4003808))
  (.nd (.lf
  0x73940174de073a00174e0073e80174da0730001745007308017456092e8018010092f0018012092f401801c0931001801a09154018030090b801808209144018042090ec01804c08a500180760916801805809148018062090c801803c08a54018078090d001803e0914c01804409150018046091600180520912001806a09090018090091580180340908c0180840916c018064091740180480917801805a090bc01808608a5801807a090cc0180920917c01806c0918c018036091a801805409194018074091a401808c091c4018098091b8018060091d801808e091e001809a091e401809c091e80180a2091d40180aa091dc0180a4092000180ac092040180c2092080180ae0921c0180b009230018116092200180b2092340180b40923c0180d00924c018100092180180ec092500180ba092280180c8092540180e2092580180ca0925c018126092600180c4092680180bc0926c0180f8092700180ce)
  (.lf 0))) (.nd (.nd (.lf
  0x203540116602035c01168e2036001169a2036401169c2037c0116a2203900116aa203880116a4203940116ac203a00116c22039c0116ae203a80116b0203d0011716203ac0116b2203e40116b4203f00116d020458011700203c00116ec203ec0116ba203b40116c82040c0116e2203e00116ca203d4011726204900116c4203f40116bc203fc0116f8203800116ce203c40117322042c0116f62045c011702203b8011728203dc011718203d801170a204140116be203f80116d22038401171c203c80116ee204100116e4204600117342041c01170c1fac401165c203b00116c6204980116cc204240116f01f9980116942035001164a203400116802034401168a1facc0116a02044801170e2034c0116a6204cc0117301f7540116381fad001165e1f9b4011672203e80116b62044401172c2046c011704203cc0116d61f9ac0116702044001172a2043c01171a1f95801163a1f98c0116661f878011688)
  (.lf 0)) (.nd (.lf
  0x18f5400c87a18f5c00c89218e9800c86c18ea800c83618eb800c85418f3800c87418f5800c88c18f6c00c89818f4800c86018f7800c88e18f8000c89a18f8400c89c18f8800c8a218f7400c8aa18f7c00c8a418fa000c8ac18fa400c8c218fa800c8ae18fbc00c8b018fd000c91618fc000c8b218fd400c8b418fdc00c8d018fec00c90018fb800c8ec18ff000c8ba18fc800c8c818ff400c8e218ff800c8ca18ffc00c9261900000c8c41900800c8bc1900c00c8f81901400c8ce1901c00c9321902000c8f61903800c9021903c00c9281904000c9181904400c90a1905000c8be1906000c8d21906800c91c1907400c8ee1907c00c8e4190c400c9341901000c90c18f4000c85c18fc400c8c61900400c8cc1908000c8f018f6000c89418f3400c84a18eb000c88018eb400c88a18f5000c8a01902400c90e18f6400c8a61909000c93018e3800c83818f4400c85e18ea400c87218fd800c8b61908c00c92c)
  (.lf 0)))

def aesWireTree99 : BTree :=
  .nd (.nd (.nd (.lf
  0x10da40012450e438001243119a40012410f09c00123f0f0b000123d10d50005e1810d5400123b10e440012390e3a00042140e3a800123710cf00012350e45000123310e640012310f47800122f0f43800122d0df3800122b0f4a40012290f40800122710c300012250d79c0012230f0ec0012210d9d400121f0d9e4005c140d9e800121d0ee6400121b0da200012190f6280012170dd380012150f15c0012130d798005c160e4100012110f2c000120f0f2bc00120d0e49800120b0f8640012090e3c80012070e1900012050e3d00012030e3dc0012010e3cc0011ff0e4740011fd0e3e00011fb0e3780011f910db00011f70e4400011f511cd00011f30eca40011f10f2580011ef0e18c0044160f21c0011ed0f2640011eb0f2600011e90fd5c0011e70f2680011e510bd80011e310d180011e10c2b80011df0f0cc0011dd1076c0011db0f0c80011d90e3480040100e3280040120e31400401c0e34c00401a)
  (.lf 0)) (.nd (.lf
  0x2f64014ae402fb0014b3402e4c014a5c02ec0014ac602f00014acc02f68014af002e48014a9402e2c014a4a02e38014a8002e3c014a8a02e68014aa003dfc014b0e02e58014aa602f78014b3002d88014a3802e50014a5e02dcc014a7202ed4014ab602f74014b2c02f3c014b0402ec8014ad602dc8014a7002f70014b2a02f6c014b1a02db8014a3a02db4014a6602e1c014a8802dc4014a6e02db0014a4e02d7c014a6802de8014a3202d78014a4002f4c014ad402f80014af402f40014ac002f1c014afa02f7c014af202f88014b0802f20014afc02f24014b3c02fb4014b3602f44014b0602f54014b1e02f60014b3a02fb8014b3803e14014b1002f58014b2002f94014b2203e18014b1202f98014b2e02f10014b2403e00014b3e02e5c014a9602e64014a9e02d20014a7e02e34014a7c02e6c014aa802ea8014b1402eac014ae602edc014ad802ee4014afe02e88014adc02e90014aea02eb0014ae8)
  (.lf 0))) (.nd (.nd (.lf
  0x11320007ef611324007f0211380007f28112f8007f18112e0007f0a1135c007ebe112d0007ed211288007f1c11334007eee11310007ee41131c007f3411020007e5c112e4007ec6113a0007ecc1133c007ef011028007e9411254007e4a1126c007e8011270007e8a11240007ea0117c0007f0e11260007ea611390007f3010ff8007e3811024007e5e11234007e72112c8007eb611388007f2c11360007f04112e8007ed611230007e7011384007f2a11350007f1a10ee8007e3a11038007e661101c007e881122c007e6e10ef8007e4e11008007e6810ef0007e3210fc0007e40112d4007ed4113b4007ef411364007ec011328007efa11348007ef21136c007f081132c007efc11340007f3c11344007f3611368007f0611374007f1e113a8007f3a1134c007f38117c4007f10113a4007f20113b0007f22117c8007f121138c007f2e112dc007f24117cc007f3e1102c007e961123c007e9e11030007e7e)
  (.lf 0)) (.nd (.lf
  0x16b6400b6d816b6c00b6fe16b1000b6dc16b1800b6ea16b3800b6e816b1c00b6b816b1400b6de16b2000b6e016b6800b6da16a8400b65016a8c00b65616a2c00b21016a3400b21216a3800b21c16a5c00b21a1671000b2301688800b2821686800b2421688c00b24c167d800b276167e400b2581686c00b2621687000b23c167dc00b2781687400b23e1687800b2441687c00b2461688400b252167c800b26a167d400b2901686400b2341678400b2841689000b2641689800b248167e800b25a1689c00b286167ec00b27a168a400b292168a800b26c168b800b236168d400b254168c000b274168d000b28c168f000b298168e400b2601690400b28e1690c00b29a1691000b29c1691400b2a21690000b2aa1690800b2a41692c00b2ac1693000b2c21693400b2ae1694800b2b01695c00b3161694c00b2b21696000b2b41696800b2d01697800b3001694400b2ec1697c00b2ba1695400b2c81698000b2e2)
  (.lf 0)))

def aesWireTree100 : BTree :=
  .nd (.nd (.nd (.lf
  0x847c0009ff084700009fd084f40009fb084880009f9085340009f7084940009f50849c0009f3084cc0009f107b700009ef07ef00009ed08afc0009eb07b000009e908a940009e707ec40009e507c340009e308d380009e108f400009df08f700009dd0906c0009db08f800009d90939c0009d708f580009d508f440009d3090d40009d1095a40009cf095b00009cd096c40009cb095bc0009c9096640009c7093880009c5093800009c3096ec0009c1084780009bf0846c0009bd084f00009bb084840009b9085300009b7084900009b5084980009b3084c80009b107b6c0009af07eec0009ad08af80009ab07afc0009a908a8c0009a707ec00009a507c300009a308d340009a108f3c00099f08f6c00099d0906000099b08f7c0009990939800099708f5400099508f34000993090b00009910936400098f0934c00098d096c000098b093900009890965c000987093840009850937c000983096e8000981)
  (.lf
  0x178b8002af517890002af317748002af117794002aef17788002aed1767c002aeb17764002ae917efc002ae717f20002ae51786c002ae317704002ae1176b4002adf175e0002add177cc002adb17684002ad917ac8002ad717848002ad51765c002ad31764c002ad117608002acf176e0002acd177f4002acb17774002ac917754002ac717ce8002ac51782c002ac315378002ac11542c002abf1560c002abd153e0002abb15654002ab9154c0002ab715464002ab515530002ab315384002ab115428002aaf155a0002aad153d8002aab15674002aa9154cc002aa71546c002aa51552c002aa315434002aa115578002a9f1559c002a9d1848c002a9b184bc002a99154b0002a9718468002a951553c002a9315400002a91155a4002a8f153c8002a8d1566c002a8b154dc002a8915478002a8715548002a85153ac002a83163e0002a81163d4002a7f163c8002a7d181ec002a7b181c0002a79163b8002a77))
  (.nd (.lf
  0x8c340182b408c3c0182d008c4c01830008c180182ec08c500182ba08c280182c808c540182e208c580182ca08c5c01832608c600182c408c680182bc08c6c0182f808c700182ce08c7801833208c7c0182f608c8c01830208c9001832808c9401831808c9801830a08c9c0182be08cac0182d208cb401831c08cc00182ee08cc80182e408d0401833408bb001825c08c240182c608c640182cc08ccc0182f008bac01829408b9001824a08b9c01828008ba001828a08bcc0182a00901c01830e08bbc0182a608cdc01833008ae401823808bb401825e08b8801827208c380182b608cd801832c08ca001830408c2c0182d608b8401827008cd401832a08cd001831a07c2401823a08b6801826608b7401828808b8001826e08a8401824e08ad401826808b3401823207ee001824008cb00182d408ce40182f408ca40182c008c800182fa08ce00182f208cec01830808c840182fc08c8801833c08d08018336)
  (.lf 0))) (.nd (.nd (.lf
  0x1ccfc001f231cd98001f211ccec001f1f1b4a4001f1d1b438001f1b1cf04001f191cd4c001f171cd8c001f151bfa8001f131bed4001f111bf3c001f0f19e04001f0d19e4c001f0b19e54001f091ab2c001f071f2a0001f051a170001f031ac70001f011ab88001eff1efd8001efd1b450001efb1a17c001ef919e0c001ef719e64001ef51bfc4001ef31bf60001ef119bf4001eef19e7c001eed19dfc001eeb19df4001ee91a100001ee71aaa4001ee51be80001ee31a164001ee11aae4001edf1a184001edd19e3c001edb19dec001ed91abd0001ed71bea0001ed519b4c001ed31ac30001ed11b4a8001ecf19b68001ecd1aa7c001ecb1ac60001ec91aa88001ec71bef4001ec51cebc001ec31cd14001ec1198f0001ebf19da4001ebd19b40001ebb1cdd8001eb91bfe8001eb719dd0001eb51cd5c001eb31b4ec001eb119d84001eaf19b64001ead1cc90001eab1c048001ea91b654001ea719d30001ea5)
  (.lf 0)) (.nd (.lf
  0x1dbcc011ae41dbb0011b341db78011b0c1d594011a5c1db24011ac61db88011acc1dbd0011af01d58c011a941d634011a4a1d8a8011a801d8ac011a8a1db04011aa01dbe0011b0e1d61c011aa61dc24011b301d470011a381d598011a5e1dad8011a721db38011ab61dc20011b2c1dbc0011b041db2c011ad61dad4011a701dc1c011b2a1dbd8011b1a1d4e4011a3a1dad0011a661d5d4011a881d46c011a6e1d3f8011a4e1d460011a681d574011a321d440011a401db48011ad41dc38011af41db74011ac01dbe8011afa1dbec011af21dbf0011b081dbf4011afc1dbdc011b3c1dbb8011b361dbc4011b061dbfc011b1e1dc08011b3a1dbbc011b381dc10011b101dc00011b201dc04011b221dc14011b121dc54011b2e1dba0011b241dbe4011b3e1d5d8011a961db00011a9e1d2f8011a7e1d8a4011a7c1d620011aa81db28011b141db70011ae61db9c011ad81dba8011afe1daec011adc1dafc011aea)
  (.lf 0)))

def aesWireTree101 : BTree :=
  .nd (.nd (.nd (.lf
  0xb6b40024ce0b6780025320b6f80024f60b7080025020b6900025280b69c0025180b65000250a0b7200024be0b7480024d20b6b000251c0b6740024ee0b6f40024e40b70c0025340b3f400245c0b6880024c60b6a80024cc0b7600024f00b42c0024940b41000244a0b4180024800b41c00248a0b4000024a00b82800250e0b4300024a60b7b00025300b0980024380b3f800245e0b3ec0024720b7180024b60b7ac00252c0b7240025040b6940024d60b3e80024700b7a800252a0b7a000251a0b3a800243a0b3a40024660b3c00024880b3e400246e0b36800244e0b0bc0024680b3880024320b0b80024400b74c0024d40b7980024f40b7400024c00b7540024fa0b7640024f20b7680025080b7580024fc0b6fc00253c0b7100025360b7280025060b72c00251e0b73400253a0b7140025380b82c0025100b7300025200b7a40025220b8340025120b7b800252e0b75c0025240b83000253e0b43c002496)
  (.lf 0)) (.nd (.lf
  0x1255c00673e11f7400669611f7c00669e119cc00667e11f4c00667c11f840066a811fc000671411fc40066e611ff40066d811ffc0066fe11fa00066dc11fa80066ea11fc80066e811fac0066b811fa40066de11fb00066e011ff80066da119680066501196c0066560592c015810059340158120593801581c0598401581a05798015830054dc015882057880158420550c01584c05450015876057ac0158580578c015862054d401583c054540158780550401583e0579001584405794015846057a4015852054f401586a054fc0158900579c015834054f8015884057b0015864057b8015848057bc01585a055100158860545801587a05518015892057c001586c057d0015836057ec015854057d8015874057e801588c05808015898057fc0158600581c01588e0582401589a0582801589c0582c0158a2058180158aa058200158a4058440158ac058480158c20584c0158ae058600158b005874015916)
  (.lf 0))) (.nd (.nd (.lf
  0x13340008efc132f4008f3c132e8008f361330c008f0613310008f1e1331c008f3a132ec008f3813344008f1013314008f201335c008f2213348008f1213370008f2e1334c008f2413350008f3e131f0008e9613234008e9e131c4008e7e13208008e7c13214008ea813254008f1413258008ee6132b0008ed8132b8008efe132c4008edc132d4008eea1325c008ee8132dc008eb8132c8008ede132cc008ee0132b4008eda13114008e5013094008e5601bd401401001bdc01401201be001401c01c3401401a019f401403001a18014082019d801404201a1c01404c019fc01407601a14014058019f0014062019dc01403c01a00014078019ec01403e019e0014044019e401404601a0c014052019c401406a019d4014090019f8014034019c801408401a2001406401a2801404801a2c01405a01a3001408601a3801407a01a3c01409201a4001406c01a5001403601a6c01405401a5801407401a6801408c)
  (.lf 0)) (.nd (.lf
  0x191b400ce60191d400ce8e191dc00ce9a191e000ce9c191e400cea2191d000ceaa191d800cea4191fc00ceac1920000cec21920400ceae1921800ceb01922c00cf161921c00ceb21923000ceb41923800ced01924800cf001921400ceec1924c00ceba1922400cec81925000cee21925400ceca1925800cf261925c00cec41926400cebc1926800cef81927000cece1927800cf321927c00cef61929400cf021929800cf281929c00cf18192a000cf0a192ac00cebe192bc00ced2192c400cf1c192d000ceee192d800cee41932000cf341926c00cf0c191ac00ce5c1922000cec61926000cecc192dc00cef0191a800ce941918c00ce4a1919800ce801919c00ce8a191c800cea01928000cf0e191b800cea6192ec00cf3018ed000ce38191b000ce5e1918400ce721923400ceb6192e800cf2c192b000cf041922800ced61918000ce70192e400cf2a192e000cf1a190dc00ce3a1916400ce661917000ce88)
  (.lf 0)))

def aesWireTree102 : BTree :=
  .nd (.nd (.nd (.lf
  0x22b5c0120702327801212a2327401211a227fc01203a22b4001206622b8001208822b5801206e227f801204e22b24012068229a0012032228ec012040231fc0120d4232dc0120f4232500120c0232980120fa232700120f2232c40121082329c0120fc2324801213c232400121362325c0121062326001211e232fc01213a23244012138232b0012110232e0012120232e4012122232bc012112232e801212e23294012124232b401213e22b8401209622b6c01209e22b2001207e2316401207c2316c0120a8231c8012114231cc0120e6232000120d8232340120fe231b80120dc231c40120ea231d00120e8231a80120b8231bc0120de231c00120e0232200120da229a40120502295401205622f1001261022ec401261222ee801261c22ef001261a229e0012630229040126822284c012642229f401264c2298801267622998012658229e80126622299001263c229b0012678229d801263e2290c012644)
  (.lf
  0x1d2dc0035f71d4080035f51d4800035f31d2bc0035f11d3f00035ef1d5140035ed1d17c0035eb1d19c0035e91d2f00035e71d4380035e51d4bc0035e31d3e00035e11d54c0035df1d59c0035dd1d2cc0035db1d2a80035d91d4180035d71d4900035d51d4f00035d31d3bc0035d11d5e00035cf1d1a80035cd1d8b40035cb1d30c0035c91d44c0035c71d4cc0035c51d31c0035c31b3ac00c00e1b37c00c0081b3a400c0061b39c00c0041a35000ca0e1a32000ca081a34800ca061a34000ca0419b2800d40e19af400d40819b1c00d40619b1400d40417edc00de0e17ef000de0c17eb000de0817ed800de0617ed000de04190c000c80e1909400c808190bc00c806190b400c804198dc00d20e198a400d208198d400d206198c800d20417cb400dc0e17cd000dc0c17cd400dc0a17c8800dc0817cb000dc0617ca800dc0417ccc00dc021be6000c60e1be5000c6081be4800c6061be7c00c60419d8c00d00e))
  (.nd (.lf
  0x1105c007a38110c0007a5e1109c007a7211144007ab6111e4007b2c111ac007b0411138007ad611098007a70111e0007b2a111dc007b1a10e90007a3a11074007a6611084007a8811094007a6e10c4c007a4e11040007a6810f18007a321103c007a40111bc007ad4111f0007af4111b0007ac01118c007afa111ec007af2111f8007b0811190007afc11194007b3c11218007b36111b4007b06111c4007b1e111d0007b3a1121c007b3811828007b10111c8007b2011204007b221182c007b1211208007b2e11180007b2411830007b3e110cc007a96110d4007a9e10c9c007a7e110a4007a7c110dc007aa811118007b141111c007ae61114c007ad811154007afe110f8007adc11100007aea11120007ae811104007ab8110fc007ade11108007ae011150007ada10f28007a5010f2c007a560fc94006e100fc9c006e120fca0006e1c0fcbc006e1a0f630006e300fb0c006e820f54c006e420f63c006e4c)
  (.lf 0))) (.nd (.nd (.lf
  0x21e2400230320e0000230120c940022ff20c980022fd21ed80022fb20c780022f921f340022f720ca00022f5202dc0022f320da40022f120cec0022ef1e9140022ed20cf00022eb20d2c0022e91e8b40022e720d300022e51e8c40022e321f380022e120c9c0022df20c540022dd202d80022db20d440022d920d000022d7202e40022d520dc00022d3204d80022d1215f80022cf204dc0022cd20da00022cb1dc34011a18202e00022c921e2c0022c721e580022c5202880022c31dc440022c121e8c0022bf210740022bd20fa40022bb1ef640022b920fa80022b720f580022b51ef7c0022b320f600022b1209f00022af204c80022ad209f40022ab1eefc0022a920f280022a720f2c0022a51ef240022a320edc0022a12108800229f1ef9c00229d20e8c00229b20e9000229920f940022971efa0002295211380022931efa400229120fd800228f20f5c00228d2105000228b20ef800228920a60002287)
  (.lf 0)) (.nd (.lf
  0x1fbdc00fd3e1f60400fc961f68800fc9e1aba000fc7e1f58800fc7c1f60c00fca81f6b800fd141f6f000fce61fb9800fcd81fbc400fcfe1f6e000fcdc1f6e800fcea1f6f400fce81f68400fcb81f6e400fcde1f6ec00fce01fba800fcda1f50c00fc501f66800fc561c9a800ec101c9b000ec121c9b400ec1c1c9e400ec1a1c7b000ec301c80800ec821c7ac00ec421c06800ec4c1c31400ec761c7c000ec581c80000ec621c31000ec3c1c7ec00ec781c7fc00ec3e1c7f000ec441c7f400ec461c80400ec521c7e000ec6a1c7e800ec901c7b400ec341c7e400ec841c80c00ec641c81400ec481c7c400ec5a1c81c00ec861c82400ec7a1c82800ec921c82c00ec6c1c7c800ec361c85000ec541c83c00ec741c84c00ec8c1c86c00ec981c86000ec601c88000ec8e1c88800ec9a1c88c00ec9c1c89000eca21c87c00ecaa1c88400eca41c8a800ecac1c8ac00ecc21c8b000ecae1c8c400ecb01c8d800ed16)
  (.lf 0)))

def aesWireTree103 : BTree :=
  .nd (.nd (.nd (.lf
  0x13694008c98136c0008c6013680008c8e13698008c9a136cc008c9c136d0008ca2136a4008caa136c8008ca4136d8008cac136dc008cc2136e0008cae136e8008cb0136fc008d16136ec008cb213700008cb413708008cd013768008d0013780008cec1371c008cba136f4008cc8137b8008ce21374c008cca13724008d2613744008cc413720008cbc13738008cf8136d4008cce13784008d32137bc008cf613794008d0213710008d2813714008d181370c008d0a13728008cbe13730008cd213748008d1c13790008cee137dc008ce41376c008d3413740008d0c136b4008c5c136f0008cc613750008ccc137e0008cf01368c008c9413678008c4a13654008c8013658008c8a136c4008ca0137c0008d0e1369c008ca613814008d30135d8008c38136bc008c5e1366c008c7213704008cb61380c008d2c13798008d04136f8008cd613668008c7013804008d2a137f8008d1a13134008c3a13664008c66)
  (.lf 0)) (.nd (.lf
  0x1d33000f2841dc6000f2641d37c00f2481d34000f25a1d34400f2861d38800f27a1d35800f2921d1cc00f26c1d36800f2361d36400f2541dc7800f2741d38c00f28c1d3a400f2981d3b000f2601dc7c00f28e1dc8400f29a1dc8800f29c1dc8c00f2a21d39c00f2aa1dc8000f2a41dcac00f2ac1dcb400f2c21dcb000f2ae1dcbc00f2b01dcdc00f3161dcc000f2b21dcfc00f2b41dd0400f2d01dd3c00f3001dcf000f2ec1dd0800f2ba1dcc800f2c81dd2800f2e21dcd400f2ca1dce400f3261dd5c00f2c41dd1800f2bc1dd7000f2f81dc9000f2ce1dcf400f3321dd2c00f2f61dd4000f3021dccc00f3281dce000f3181dcb800f30a1dd0c00f2be1dd1000f2d21dca000f31c1dcf800f2ee1dd3400f2e41dd4800f3341dd8000f30c1d3a800f25c1dcc400f2c61dd6000f2cc1dd9400f2f01d39000f2941d38000f24a1d37000f2801d37400f28a1dc7400f2a01dd8400f30e1d39400f2a61ddf000f330)
  (.lf 0))) (.nd (.nd (.lf
  0x1f1800125801ef400126201ee000123c01f0400127801ef000123e01ee400124401ee800124601f1000125201ec800126a01ed800129001efc00123401ecc00128401f2400126401f2c00124801f3000125a01f3400128601f3c00127a01f4000129201f4400126c01f5400123601f7000125401f5c00127401f6c00128c01f8c00129801f8000126001fa000128e01fa800129a01fac00129c01fb00012a201f9c0012aa01fa40012a401fc80012ac01fcc0012c201fd00012ae01fe40012b001ff800131601fe80012b201ffc0012b4020040012d00201400130001fe00012ec020180012ba01ff00012c80201c0012e2020200012ca02024001326020280012c4020300012bc020340012f8020380012ce02040001332020440012f602054001302020580013280205c0013180206000130a020640012be020740012d20207c00131c020880012ee020900012e4020d000133401f7800125c01fec0012c6)
  (.lf 0)) (.nd (.lf
  0x3054001e38030e4001e5e030b8001e7203168001eb603208001f2c031d0001f040315c001ed6030b4001e7003204001f2a03200001f1a0303c001e3a03090001e66030a0001e88030b0001e6e03038001e4e0302c001e6803028001e3203024001e40031e0001ed403214001ef4031d4001ec0031b0001efa03210001ef20321c001f08031b4001efc031b8001f3c03240001f36031d8001f06031e8001f1e031f4001f3a03244001f38099e0001f10031ec001f200322c001f22099e4001f1203230001f2e031a4001f24099fc001f3e030f0001e96030f8001e9e03070001e7e030c8001e7c03100001ea80313c001f1403140001ee603170001ed803178001efe0311c001edc03124001eea03144001ee803128001eb803120001ede0312c001ee003174001eda03074001e500307c001e5613c3000741013c3800741213c3c00741c13c7800741a13a8400743013aa000748213a6c007442104c000744c)
  (.lf 0)))

def aesWireTree104 : BTree :=
  .nd (.nd (.nd (.lf
  0x64f40005ff0650c0005fd071b00005fb064b40005f9072bc0005f7065680005f5065380005f3071680005f1053f40005ef054080005ed05d540005eb053d00005e905d940005e7054380005e5054200005e305d380005e105cbc0005df05cd00005dd066140005db05c980005d9065c40005d705d000005d505ce80005d3066800005d1059a80005cf059cc0005cd060580005cb059740005c9060f80005c705a1c0005c5059f40005c3060a80005c1064e40005bf065080005bd071a80005bb064b00005b9072b80005b7065640005b5065340005b3071600005b1053f00005af054040005ad05d500005ab053cc0005a905d900005a7054340005a50541c0005a305d340005a105cb800059f05ccc00059d0661000059b05c94000599065c000059705cfc00059505ce400059306674000591059a400058f059c800058d0605400058b05970000589060f000058705a18000585059f0000583060a4000581)
  (.lf
  0xd59c0026f50d2a00026f30d2400026f10cfc40026ef0d4840026ed0d2c40026eb0cfa00026e90d2540026e70d5200026e50d7ac0026e30d26c0026e10cfb80026df0d4640026dd0d2ec0026db0cf780026d90d2800026d70d4a80026d50d5d80026d31078c0026d10d4380026cf0d4280026cd0d2b40026cb0d2900026c90d5100026c70d95c0026c50d5b80026c30a3bc0026c10a3980026bf0b3900026bd099d40026bb0c86c0026b90a3e40026b70c8780026b50b0900026b30a3a40026b10a3840026af0b3740026ad099d80026ab0375c0026a90a3d80026a70affc0026a50b0700026a309ba00026a10b36400269f0b38400269d09a4800269b09a340026990afec0026970b0940026950b0540026930c8840026910b39800268f0a37800268d09a1800268b09a380026890afd80026870b0600026850a33c0026830a4a00026810a45800267f0a42000267d0e4d800267b0e5200026790a528002677))
  (.nd (.lf
  0x62b4016e1c062d0016e1a06114016e30060b0016e8206104016e42060ac016e4c05a20016e7606128016e5806108016e62060bc016e3c05a24016e78060c0016e3e0610c016e4406110016e4606120016e5206064016e6a0606c016e9006118016e3406068016e840612c016e6406134016e4806138016e5a060b4016e8605a28016e7a060c8016e920613c016e6c0614c016e3606168016e5406154016e7406164016e8c06184016e9806178016e6006198016e8e061a0016e9a061a4016e9c061a8016ea206194016eaa0619c016ea4061c0016eac061c4016ec2061c8016eae061dc016eb0061f0016f16061e0016eb2061f4016eb4061fc016ed00620c016f00061d8016eec06210016eba061e8016ec806214016ee206218016eca0621c016f2606220016ec406228016ebc0622c016ef806230016ece06238016f320623c016ef60624c016f0206250016f2806254016f1806258016f0a0625c016ebe)
  (.lf 0))) (.nd (.nd (.lf
  0x1a6e8001c471842c001c451a794001c43175d4001c4115864001c3f18d5c001c3d176a8001c3b1582c001c391769c001c371841c001c351a728001c3315ca4001c3118d04001c2f183cc001c2d15cac001c2b18174001c2916c3c001c27178b0001c2517820001c2317618001c2118c6c001c1f18730001c1d186c0001c1b183dc001c19193dc001c171a5f0001c15186e8001c1318d98001c1119348001c0f186c4001c0d15cc4001c0b1897c001c09183a8001c0718674001c0518c00001c0318168001c01189ac001bff18710001bfd18438001bfb15c6c001bf91a7f8001bf718938001bf518188001bf317178001bf1194c4001bef1a648001bed19434001beb173b0001be91735c001be71844c001be51a608001be316c54001be1170a8001bdf15c74001bdd189dc001bdb183e4001bd918cb4001bd71766c001bd517640001bd31586c001bd118cb8001bcf186a8001bcd189d8001bcb183f0001bc9)
  (.lf 0)) (.nd (.lf
  0x1d4b0011c641d5c8011c481ed94011c5a1d5f8011c861d5d0011c7a1d5c0011c921d560011c6c1d5b4011c361eda8011c541edd0011c741daa4011c8c1edcc011c981edbc011c601edd4011c8e1edd8011c9a1ede0011c9c1edf8011ca21ee08011caa1eddc011ca41ee0c011cac1ee38011cc21ee18011cae1ee1c011cb01ee30011d161ee60011cb21ee64011cb41ee74011cd01ee94011d001ee48011cec1eea8011cba1ee24011cc81ee88011ce21ee28011cca1ee34011d261ee3c011cc41eeac011cbc1ee78011cf81ee00011cce1ee50011d321eeb4011cf61ee98011d021ee54011d281ee58011d181ee5c011d0a1ef34011cbe1ee80011cd21edfc011d1c1ee4c011cee1ee8c011ce41ee9c011d341eeb0011d0c1edac011c5c1ee20011cc61ee40011ccc1eebc011cf01edc0011c941d5e8011c4a1d5bc011c801d600011c8a1edb8011ca01ef10011d0e1edc4011ca61eecc011d301d49c011c38)
  (.lf 0)))

def aesWireTree105 : BTree :=
  .nd (.nd (.nd (.lf
  0x183400005e01808000072018b80000b60195800012c01920000104018ac0000d6018040000700195400012a0195000011a0178c00003a017e0000066017f00000880180000006e0178800004e0177c0000680177800003201774000040019300000d4019640000f4019240000c0019000000fa019600000f20196c000108019040000fc0190800013c01988000136019280001060193800011e0194400013a0198c000138036ec0001100193c00012001978000122036f00001120197c00012e018f4000124036fc00013e018400000960184800009e017c000007e0181800007c018500000a80188c000114018900000e6018c00000d8018c80000fe0186c0000dc018740000ea018940000e8018780000b8018700000de0187c0000e0018c40000da017c4000050017cc000056017440002100174c0002120175000021c0176c00021a0158c000230015b000028201570000242015b400024c01594000276)
  (.lf 0)) (.nd (.lf
  0x7518017c4a07524017c8007528017c8a07554017ca008ab4017d0e07544017ca607664017d300726c017c380753c017c5e07510017c72075c0017cb607660017d2c07628017d04075b4017cd60750c017c700765c017d2a07658017d1a06de8017c3a074f8017c6607288017c8807508017c6e074c8017c4e07274017c6807188017c3206e14017c4007638017cd40766c017cf40762c017cc007608017cfa07668017cf207674017d080760c017cfc07610017d3c07690017d3607630017d0607640017d1e0764c017d3a07694017d3808ab8017d1007644017d2007680017d2208abc017d1207684017d2e075fc017d2408b1c017d3e07548017c9607550017c9e07244017c7e07520017c7c07558017ca807594017d1407598017ce6075c8017cd8075d0017cfe07574017cdc0757c017cea0759c017ce807580017cb807578017cde07584017ce0075cc017cda074e4017c50074ec017c5602568001010)
  (.lf 0))) (.nd (.nd (.lf
  0x46b40154f6046cc015502046d0015528046d4015518046d801550a046e40154be046f40154d2046fc01551c047080154ee047100154e404758015534045e401545c046580154c6046980154cc047140154f0045e0015494045c401544a045d0015480045d401548a046000154a0046b801550e045f00154a604724015530044c8015438045e801545e045bc0154720466c0154b60472001552c046a401550c046e8015504046600154d6045b80154700471c01552a0471801551a02a7c01543a0459c015466045a8015488045b401546e0443001544e044b80154680456801543202a50015440046f80154d4047300154f4046ec0154c0046bc0154fa0472c0154f204738015508046c00154fc046c401553c0475c015536046f00155060470001551e0470c01553a04760015538046dc0155100470401552004744015522046e00155120474c01552e046ac015524046c801553e045f4015496045fc01549e)
  (.lf 0)) (.nd (.lf
  0x1ada400fe7c1addc00fea81ae1800ff141ae1c00fee61ae4c00fed81ae5400fefe1adf800fedc1ae0000feea1ae2000fee81ae0400feb81adfc00fede1ae0800fee01ae5000feda1ad6c00fe501ad7400fe561d12800f6101d13000f6121d13400f61c1d17400f61a1cd5800f6301cdcc00f6821cdc000f6421cdd000f64c1cf7c00f6761cf9000f6581cdc400f6621cf7400f63c1cf8000f6781cf7800f63e1cdc800f6441cf4000f6461cf8800f6521ce8000f66a1cf4800f6901cf7000f6341cf6800f6841cdd400f6641cf9400f6481cf9800f65a1cf9c00f6861cfa400f67a1cfa800f6921ce8c00f66c1cfac00f6361cfc800f6541cfb400f6741cfc400f68c1cfe400f6981cfd800f6601cff800f68e1d00000f69a1d00400f69c1d00800f6a21cff400f6aa1cffc00f6a41d02000f6ac1d02400f6c21d02800f6ae1d03c00f6b01d05000f7161d04000f6b21d05400f6b41d05c00f6d01d06c00f700)
  (.lf 0)))

def aesWireTree106 : BTree :=
  .nd (.nd (.nd (.lf
  0x21c98012cb021cbc012d1621cf8012cb221d04012cb421d10012cd021da0012d0021ce4012cec21d1c012cba21ca0012cc821d38012ce221ca4012cca21cc4012d2621c90012cc421d24012cbc21d14012cf821d00012cce21cf0012d3221d40012cf621da4012d0221cac012d2821cc0012d1821cb4012d0a21d20012cbe21d30012cd221d2c012d1c21ce8012cee21d3c012ce421dac012d3421c68012c5c21c9c012cc621ca8012ccc21d64012cf021c50012c9421c3c012c4a21c1c012c8021c20012c8a21c78012ca021d44012d0e21c5c012ca621d7c012d3020fa0012c3821c6c012c5e21c30012c7221d0c012cb621d78012d2c21da8012d0421cb8012cd621c2c012c7021d6c012d2a21d68012d1a21094012c3a21c28012c6621bf4012c8821bfc012c6e2105c012c4e213d0012c6821be8012c3221144012c4021de0012cd421df8012cf421ddc012cc021d5c012cfa21de4012cf221de8012d08)
  (.lf
  0x155980033ad153d40033ab156700033a9154c80033a7154680033a51551c0033a3154140033a11557400339f1558800339d1848800339b184b8003399154ac003397184640033951550c003393153fc0033911559000338f153c400338d1566800338b154d80033891547400338715544003385153a8003383163dc003381163d000337f163c400337d181e800337b181bc003379163b40033771819800337516ecc00337317188003371163a800336f166d800336d162ec00336b162a400336916394003367170e400336516edc0033631637c0033611636c00335f162f400335d1741400335b173e4003359161ec003357173c80033551625c0033531627c0033511619c00334f161f800334d1630800334b16204003349162bc0033471621000334516ed40033431684800334116cb400333f1680c00333d1668400333b166cc00333916708003337167640033351674000333316840003331167c000332f))
  (.nd (.lf
  0x3f1c0150a403f400150ac03f440150c203f480150ae03f5c0150b003f7001511603f600150b203f740150b403f7c0150d003f8c01510003f580150ec03f900150ba03f680150c803f940150e203f980150ca03f9c01512603fa00150c403fa80150bc03fac0150f803fb00150ce03fb801513203fbc0150f603fcc01510203fd001512803fd401511803fd801510a03fdc0150be03fec0150d203ff401511c040000150ee040080150e40405401513403ef001505c03f640150c603fa40150cc0400c0150f003eec01509403ed001504a03edc01508003ee001508a03f0c0150a0040cc01510e03efc0150a60401c01513003e3c01503803ef401505e03ec801507203f780150b60401801512c03fe001510403f6c0150d603ec40150700401401512a0401001511a0300001503a03eb001506603e6001508803ec001506e03e8001504e03e3001506803e4c01503202fe801504003ff00150d4040240150f4)
  (.lf 0))) (.nd (.nd (.lf
  0x20730010b0e205f8010aa62077c010b3020534010a38205f0010a5e20650010a72206a8010ab620770010b2c20740010b04206ec010ad620644010a702075c010b2a20758010b1a1ff78010a3a205cc010a66205b4010a882062c010a6e1ff68010a4e20520010a68205a4010a321fe00010a40207d0010ad4207d8010af4206cc010ac020728010afa207d4010af2207ec010b082072c010afc20724010b3c20710010b36207a0010b06207a4010b1e207ac010b3a20714010b3820738010b10207a8010b20207b4010b222073c010b1220774010b2e206c0010b2420734010b3e20608010a9620648010a9e20524010a7e20630010a7c205fc010aa820688010b1420694010ae6206b4010ad820700010afe2069c010adc206d4010aea20698010ae820684010ab8206d0010ade206e4010ae0206fc010ada205d0010a501ff6c010a5620c48010e1020cdc010e1220c68010e1c20cd4010e1a1fe14010e30)
  (.lf 0)) (.nd (.lf
  0x20908010cc620954010ccc20990010cf020868010c94208a4010c4a20884010c80208d0010c8a208b0010ca020a3c010d0e2086c010ca6209a0010d3020620010c3820858010c5e208b4010c7220964010cb62099c010d2c215c0010d0420914010cd62089c010c7020998010d2a20994010d1a1ff30010c3a20898010c66208c8010c8820888010c6e20814010c4e2085c010c681fd98010c3220848010c4020974010cd4209cc010cf420a30010cc0209dc010cfa209c8010cf2215dc010d08209e0010cfc209e4010d3c215d8010d36215c4010d06215c8010d1e215d0010d3a215e4010d3820af8010d10215cc010d20215d4010d2220afc010d12209a4010d2e20978010d2420a40010d3e208cc010c96208ac010c9e20844010c7e20880010c7c20874010ca8208e8010d1420904010ce62097c010cd820988010cfe20924010cdc20930010cea20920010ce820940010cb820928010cde2092c010ce0)
  (.lf 0)))

def aesWireTree107 : BTree :=
  .nd (.nd (.nd (.lf
  0x125c4001521117e000151f1307800151d130d000151b11798001519130d4001517117a800151513554001513130380015111319400150f15cd400150d1319800150b133f80015091257c001507122c000150515ce0001503122c4001501125380014ff15cec0014fd1253c0014fb130ac0014f9130dc0014f7125a00014f5130240014f313d240014f1125100014ef0fcf80014ed125080014eb117bc007e1813c680014e913ce00014e712434006214124380014e5148d40014e312fb80014e1133fc0014df105080014dd104fc0014db122b40014d915f900014d7122b80014d5124480014d3117b00014d1118080014cf118040014cd11800007c14118140014cb118100014c9118b80014c71181c0014c5120d00014c3125700014c1117ac007c16125ac0014bf1259c0014bd125940014bb1303c0014b9125980014b7123e40014b511eb00014b3123e80014b1124000014af123fc0014ad126e40014ab)
  (.lf 0)) (.nd (.lf
  0xc0980051380c2f00051100c0480051200c0840051220c2f40051120c08800512e0c0000051240c2e800513e0bf4c0050960bf5400509e0b98400507e0bf2400507c0bf5c0050a80bf980051140bf9c0050e60bfcc0050d80bfd40050fe0bf780050dc0bf800050ea0bfa00050e80bf840050b80bf7c0050de0bf880050e00bfd00050da0bef00050500bef80050561156c007810115740078121157800781c115a000781a113d800783010eb000788210cf8007842113e400784c10f4c00787610f60007858113d400786210f4800783c10f50007878113d000783e10ea800784410eac00784610f58007852113c000786a113c8007890113dc007834113c4007884113e8007864113f000784810f6400785a113f400788610f6800787a113fc0078921140000786c114100078361142c007854114180078741142800788c114480078981143c0078601145c00788e1146400789a1146800789c1146c0078a2)
  (.lf 0))) (.nd (.nd (.lf
  0xd8c0005afa0d920005af20d92c005b080d8c4005afc0d8c8005b3c0d948005b360d8e8005b060d8f8005b1e0d904005b3a0d94c005b380d998005b100d8fc005b200d938005b220d99c005b120d93c005b2e0d8b4005b240d9a4005b3e0d808005a960d7ec005a9e0d25c005a7e0d568005a7c0d810005aa80d84c005b140d850005ae60d880005ad80d888005afe0d82c005adc0d834005aea0d854005ae80d838005ab80d830005ade0d83c005ae00d884005ada0d490005a500d494005a560bea80056100beb00056120beb400561c0bed000561a0b9280056300b9040056820b91c0056420b90000564c0bd1c0056760bd300056580b9200056620bd1400563c0bd200056780bd1800563e0b9240056440ba740056460bd280056520b9c000566a0ba7c0056900bd100056340bd080056840b92c0056640bd340056480bd3800565a0bd3c0056860bd4400567a0bd480056920b9cc00566c0bd4c005636)
  (.lf 0)) (.nd (.lf
  0x15b3000a0a215b1c00a0aa15b2400a0a415b4800a0ac15b4c00a0c215b5000a0ae15b6400a0b015b7800a11615b6800a0b215b7c00a0b415b8400a0d015b9400a10015b6000a0ec15b9800a0ba15b7000a0c815b9c00a0e215ba000a0ca15ba400a12615ba800a0c415bb000a0bc15bb400a0f815bbc00a0ce15bc400a13215bc800a0f615be000a10215be400a12815be800a11815bec00a10a15bf800a0be15c0800a0d215c1000a11c15c1c00a0ee15c2400a0e415c7c00a13415bb800a10c15af800a05c15b6c00a0c615bac00a0cc15c2800a0f015af400a09415abc00a04a15ae400a08015ae800a08a15b1400a0a015bcc00a10e15b0400a0a615c3800a130154f800a03815afc00a05e15ad800a07215b8000a0b615c3400a12c15bfc00a10415b7400a0d615ad400a07015c3000a12a15c2c00a11a1553800a03a15ab400a06615ac400a08815ad000a06e1543800a04e15a9000a0681561000a032)
  (.lf 0)))

def aesWireTree108 : BTree :=
  .nd (.nd (.nd (.lf
  0x23c68013d0c23c80013d0423ba0013cd623970013c7023c3c013d2a23c38013d1a216d0013c3a2396c013c66238d8013c8823960013c6e23920013c4e238bc013c6820ac8013c32238b8013c4023bd4013cd423c28013cf423c84013cc023c2c013cfa23c24013cf223ccc013d0823c30013cfc23c34013d3c23c08013d3623ca4013d0623ca8013d1e23cb0013d3a23c0c013d3823c70013d1023cac013d2023cb4013d2223c78013d1223c48013d2e23be8013d2423c74013d3e23b48013c9623b30013c9e21724013c7e23964013c7c23b3c013ca823b70013d1423b74013ce623bc0013cd823bd8013cfe23bf0013cdc23bf8013cea23b78013ce823b58013cb823bf4013cde23c10013ce023bc4013cda23924013c5023928013c562198c013e10219a8013e12218fc013e1c2197c013e1a2177c013e3021648013e8220b04013e42217c0013e4c21680013e7621768013e582179c013e622168c013e3c)
  (.lf
  0x21b7801380221b8801380023ab0013a0e23a68013a0c23afc013a0a23a94013a0823ac0013a0623af4013a0423b04013a0223b14013a0023c90013c0e23c58013c0c23cc4013c0a23c9c013c0823c4c013c0623cb8013c0423cd4013c0223c8c013c002193c013e0e21900013e0c21980013e0a21930013e0821998013e0621970013e04219ac013e0221990013e002285c002ec1227f4002ebf2294c002ebd22798002ebb22788002eb922b1c002eb7228e4002eb5227c4002eb322878002eb122ad4002eaf2295c002ead22840002eab22bc4002ea922a60002ea722af8002ea5228a0002ea322808002ea122968002e9f22794002e9d235bc002e9b235ec002e99228d0002e97235c8002e9522874002e9322848002e91227d4002e8f22980002e8d2276c002e8b22778002e89229cc002e8722900002e85227e0002e8321024002e812104c002e7f2103c002e7d23374002e7b23324002e7920f8c002e77))
  (.nd (.lf
  0xbb780054700bcc000552a0bcbc00551a0bb3400543a0bb300054660bab40054880bb7400546e0bb2c00544e0ba900054680b9e80054320ba8c0054400bc9c0054d40bcd00054f40bc900054c00bc6c0054fa0bccc0054f20bcd80055080bc700054fc0bc7400553c0bcf40055360bc940055060bca400551e0bcb000553a0bcf80055380c2ac0055100bca80055200bce40055220c2b00055120bce800552e0bc600055240c2a400553e0bbac0054960bbb400549e0b8a400547e0bb8400547c0bbbc0054a80bbf80055140bbfc0054e60bc2c0054d80bc340054fe0bbd80054dc0bbe00054ea0bc000054e80bbe40054b80bbdc0054de0bbe80054e00bc300054da0bb4c0054500bb540054560e16c0044100e1740044120e17c00441c0e1a000441a0df940044300dfe40044820d3900044420dfa000444c0db080044760db140044580dfdc0044620db0400443c0dfc80044780dfd800443e0dfcc004444)
  (.lf 0))) (.nd (.nd (.lf
  0x20514001fd11fd44001fcf1fc10001fcd1fe84001fcb1fd7c001fc91ff3c001fc71fdb0001fc51fd78001fc320584001fc11fdd4001fbf1fce8001fbd1de20001fbb1fcec001fb91d4ec001fb71fd48001fb51fc38001fb31de24001fb11fc40001faf1fc08001fad1de08001fab1de18001fa91fc0c001fa71fedc001fa51fd80001fa31fc6c001fa11ca64001f9f1e1b0001f9d1c774001f9b1c778001f991c780001f971af4400fe181e218001f951e398001f931bca400e2141bca8001f911bcb8001f8f1d400001f8d1bcc4001f8b1d140001f891d2a0001f871d47c001f851d2b4001f831c9f8001f811c9f4001f7f1fc28001f7d1fcac001f7b1fca8001f791fd2400fc141fd28001f771fcb4001f751fdbc001f731fca4001f711fc8c001f6f1c540001f6d1fc1c00fc161fc20001f6b1c54c001f691c544001f671fcfc001f651c548001f631f4d4001f611f658001f5f1f4dc001f5d1f560001f5b)
  (.lf 0)) (.nd (.lf
  0x1d81c00f1221d7ec00f1121d86800f12e1d7dc00f1241d80400f13e1d71400f0961d6b800f09e1d6c000f07e1d6d800f07c1d6d400f0a81d71000f1141d70400f0e61d74400f0d81d77000f0fe1d75000f0dc1d79000f0ea1d70c00f0e81d74800f0b81d78000f0de1d78400f0e01d76c00f0da1d27400f0501d28000f0561bc1800e0101bc2000e0121bc2400e01c1bc4800e01a1b88800e0301b56000e0821b55000e0421b89400e04c1ba9c00e0761baa400e0581b88400e0621ba9400e03c1baa000e0781ba9800e03e1b55400e0441ba8800e0461b55c00e0521b87800e06a1ba9000e0901b88c00e0341b87c00e0841b89800e0641baa800e0481bab400e05a1b8a000e0861bacc00e07a1bad400e0921b8a800e06c1b8b800e0361b8c800e0541bab000e0741bad000e08c1bae400e0981bac000e0601baf000e08e1baf800e09a1bafc00e09c1bb0000e0a21baec00e0aa1baf400e0a41bb1800e0ac)
  (.lf 0)))

def aesWireTree109 : BTree :=
  .nd (.nd (.nd (.lf
  0xd1c00011910ea2800118f0da2800118d0c7e000118b0cf700011890cc840011870c7740011850d2ac0011830c7780011810e91800117f0db5800117d0d41800117b0ca580011790e75c0011770cf900011750cd300011730d2240011710c81c00116f0c82800116d0c7cc00116b0cc640011690ba240011670b7840011650e6e40011630af880011610d34c00115f0b83c00115d0ccf800115b0afbc0011590b7dc0011570da7c0011550aec40011530e7200011510b93000114f0cd0800114d0cd2800114b0aca80011490bb0c0011470e8280011450d1d00011430c8380011410aea800113f0cd4400113d0b33800113b0b9900011390c5240011370afa80011350cccc0011330ccd80011310e8ac00112f0c80c00112d0d23000112b0b30c0011290d3580011270b8d00011250e7900011230af400011210c7ac00111f0c7a000111d0d26000111b0cc940011190b8840011170aec80011150e7c4001113)
  (.lf 0)) (.nd (.lf
  0x9f10003a7a09f14003a9209f18003a6c09e28003a3609f3c003a5409f28003a7409f38003a8c09f58003a9809f4c003a6009f6c003a8e09f74003a9a09f78003a9c09f7c003aa209f68003aaa09f70003aa409f94003aac09f98003ac209f9c003aae09fb0003ab009fc4003b1609fb4003ab209fc8003ab409fd0003ad009fe0003b0009fac003aec09fe4003aba09fbc003ac809fe8003ae209fec003aca09ff0003b2609ff4003ac409ffc003abc0a000003af80a004003ace0a00c003b320a010003af60a020003b020a024003b280a028003b180a02c003b0a0a030003abe0a040003ad20a048003b1c0a054003aee0a05c003ae40a098003b3409f44003a5c09fb8003ac609ff8003acc0a060003af009f40003a9409f04003a4a09f30003a8009f34003a8a09f60003aa00a2cc003b0e09f50003aa60a070003b3009ee4003a3809f48003a5e09f24003a7209fcc003ab60a06c003b2c0a034003b04)
  (.lf 0))) (.nd (.nd (.lf
  0x14bec009e5213508009e6a13500009e90148c0009e3413504009e8415160009e641515c009e481349c009e5a14908009e8613510009e7a149a8009e9214910009e6c15244009e3615224009e541525c009e741526c009e8c15230009e9815260009e6015270009e8e1528c009e9a15290009e9c1529c009ea215254009eaa15274009ea415278009eac1527c009ec215280009eae15284009eb0152c0009f16152cc009eb2152d0009eb4152e8009ed015338009f0015314009eec152d8009eba15300009ec81532c009ee215308009eca152c8009f2615488009ec4152dc009ebc152f0009ef8152a0009ece1531c009f3215350009ef6153a0009f0215304009f28152c4009f18152b4009f0a152e0009ebe152ec009ed2152a4009f1c15318009eee15330009ee41533c009f3415234009e5c152b8009ec61548c009ecc15334009ef015228009e9415258009e4a15264009e8015268009e8a15240009ea0)
  (.lf 0)) (.nd (.lf
  0x157b800a30e156f000a2a61582400a330154e400a238156e800a25e156c400a2721576c00a2b61582000a32c157e800a3041576000a2d6156c000a2701581c00a32a1581800a31a1553400a23a156a000a266156b000a288156bc00a26e1543000a24e1567c00a268155b800a2321567800a240157f800a2d41583400a2f4157ec00a2c0157bc00a2fa1583000a2f21583c00a308157c000a2fc157c400a33c1588800a336157f000a3061580000a31e1580c00a33a1588c00a338157dc00a3101580400a3201584c00a322157e000a3121585800a32e157ac00a324157c800a33e156f400a296156fc00a29e1569400a27e156cc00a27c1570400a2a81574000a3141574400a2e61577400a2d81577c00a2fe1572000a2dc1572800a2ea1574800a2e81572c00a2b81572400a2de1573000a2e01577800a2da155d000a250155d400a256180f800da101810000da121810400da1c1812800da1a17f0000da30)
  (.lf 0)))

def aesWireTree110 : BTree :=
  .nd (.nd (.nd (.lf
  0x9600014de0096c0014e0009b40014da008b4001450008bc00145600838001610008400016120084400161c0086000161a00680001630006a400168200664001642006a800164c00688001676006a00016580067c0016620066800163c0068c0016780067800163e0066c00164400670001646006980016520065000166a006600016900068400163400654001684006ac001664006b4001648006b800165a006bc001686006c400167a006c8001692006cc00166c006dc001636006f8001654006e4001674006f400168c00714001698007080016600072800168e0073000169a0073400169c007380016a2007240016aa0072c0016a4007500016ac007540016c2007580016ae0076c0016b000780001716007700016b2007840016b40078c0016d00079c001700007680016ec007a00016ba007780016c8007a40016e2007a80016ca007ac001726007b00016c4007b80016bc007bc0016f8007c00016ce)
  (.lf
  0x53e40164000714401660e0652801660c0655401660a072ac016608064a401660607194016604064fc016602064d80166000600c01580e059d401580c059fc01580a060cc0158080594401580606020015804059ac015802059880158000547c015a0e04cc8015a0c04ccc015a0a0548c015a0804cac015a0605488015a0404cc4015a0204cc0015a0005a80015c0e051cc015c0c051e0015c0a05ab4015c0805180015c0605a50015c04051b8015c02051a4015c0004340015e0e0435c015e0c04360015e0a04314015e080433c015e0604334015e0404358015e0204354015e00040d401500e0409001500c040a801500a0414c01500804040015006040f401500404078015002040640150000549c01520e04f5c01520c04f8401520a0555c01520804edc015206054d801520404f3401520204f100152000475401540e0477001540c0477401540a0472801540804750015406047480154040476c015402))
  (.nd (.lf
  0xc430002ae60c460002ad80c468002afe0c40c002adc0c414002aea0c434002ae80c418002ab80c410002ade0c41c002ae00c464002ada0c374002a500a418002a5610944005e101094c005e1210950005e1c10988005e1a0d514005e30107b8005e8210798005e42107bc005e4c0d5c0005e760d5c4005e581079c005e62107a0005e3c0d974005e78107a4005e3e107a8005e44107ac005e46107b4005e520d968005e6a0d970005e9010794005e340d96c005e84107c0005e64107c8005e480d5c8005e5a107cc005e860d97c005e7a107d4005e92107d8005e6c107e8005e3610804005e54107f0005e7410800005e8c10820005e9810814005e6010834005e8e1083c005e9a10840005e9c10844005ea210830005eaa10838005ea41085c005eac10860005ec210864005eae10878005eb01088c005f161087c005eb210890005eb410898005ed0108a8005f0010874005eec108ac005eba10884005ec8)
  (.lf 0))) (.nd (.nd (.lf
  0x81000178c0080d00178fa081400178f20814c017908080d40178fc080d801793c08170017936081040179060811401791e0812001793a08174017938080f00179100811801792008158017922080f40179120816001792e080c0017924080dc01793e080080178960801001789e07f2801787e07fe001787c080180178a808054017914080580178e6080880178d8080900178fe080340178dc0803c0178ea0805c0178e8080400178b8080380178de080440178e00808c0178da07fa401785007fac01785604320015e1004328015e120432c015e1c04350015e1a04174015e30040e8015e8204164015e420411c015e4c040bc015e7604188015e5804168015e6204138015e3c040c0015e780413c015e3e0416c015e4404170015e4604180015e5204128015e6a0412c015e9004178015e3404130015e840418c015e6404194015e4804198015e5a04140015e86040c4015e7a04148015e920419c015e6c)
  (.lf 0)) (.nd (.lf
  0x199a800d4541999400d474199a400d48c199c400d498199b800d460199d800d48e199e000d49a199e400d49c199e800d4a2199d400d4aa199dc00d4a419a0000d4ac19a0400d4c219a0800d4ae19a1c00d4b019a3000d51619a2000d4b219a3400d4b419a3c00d4d019a4c00d50019a1800d4ec19a5000d4ba19a2800d4c819a5400d4e219a5800d4ca19a5c00d52619a6000d4c419a6800d4bc19a6c00d4f819a7400d4ce19a7c00d53219a8000d4f619a9800d50219a9c00d52819aa000d51819aa400d50a19ab000d4be19ac000d4d219ac800d51c19ad400d4ee19adc00d4e419b3000d53419a7000d50c199b000d45c19a2400d4c619a6400d4cc19ae000d4f0199ac00d4941997400d44a1999c00d480199a000d48a199cc00d4a019a8400d50e199bc00d4a619af000d530193b000d438199b400d45e1999000d47219a3800d4b619aec00d52c19ab400d50419a2c00d4d61998c00d47019ae800d52a)
  (.lf 0)))

def aesWireTree111 : BTree :=
  .nd (.nd (.nd (.lf
  0x146c400179d1547000179b139c800179914434001797153bc009e18153ec0017951848000179314c10001791141c40082141466000178f14c1800178d146b000178b14c34001789138840017871383c001785141b400178318a74001781141d400177f14cbc00177d161b800177b1626c0017791626800177716294009c141629c00177516274001773170dc0017711625000176f1630000176d15f4400176b161b4009c16161fc00176915f4000176715f280017651620800176315f60001761166b400175f165cc00175d166b800175b166480017591669c001757167680017551669800175314664001751154d000174f146d400174d1551000174b1487c001749133b0001747147e4008416147e8001745133ac001743133a40017411484400173f133a800173d14ca000173b14b0800173912d6c001737139f400173513a10001733146bc001731147cc0084101483c0084121487400841c1483800841a)
  (.lf 0)) (.nd (.lf
  0x141780082ee141800082e4141e80083341411400830c1405400825c140c80082c6141080082cc141840082f0140500082941403400824a140400082801404400828a140700082a01412800830e140600082a61419400833013e540082381405800825e1402c008272140dc0082b61419000832c14158008304140d00082d6140280082701418c00832a1418800831a13fc000823a14004008266140140082881402400826e13fbc00824e13e5000826813fb400823213e4c008240141680082d4141a40082f41415c0082c01412c0082fa141a00082f2141ac008308141300082fc1413400833c141ec008336141600083061417000831e1417c00833a141f00083381414c00831014174008320141bc00832214150008312141cc00832e1411c0083241413800833e140640082961406c00829e13ddc00827e1403c00827c140740082a8140b0008314140b40082e6140e40082d8140ec0082fe140900082dc)
  (.lf 0))) (.nd (.nd (.lf
  0x4e340152ca04e3801532604e3c0152c404e440152bc04e480152f804e4c0152ce04e5401533204e580152f604e6801530204e6c01532804e7001531804e7401530a04e780152be04e880152d204e9001531c04e9c0152ee04ea40152e404f0001533404d8c01525c04e000152c604e400152cc04ea80152f004d8801529404d6c01524a04d7801528004d7c01528a04da80152a00549401530e04d980152a604eb801533004d0001523804d9001525e04d6401527204e140152b604eb401532c04e7c01530404e080152d604d6001527004eb001532a04eac01531a04ce801523a04d3c01526604d4c01528804d5c01526e04ce401524e04cd801526804cd401523204cd001524004e8c0152d404ec00152f404e800152c004e5c0152fa04ebc0152f204ec801530804e600152fc04e6401533c04f0401533604e8401530604e9401531e04ea001533a04f08015338054c401531004e9801532004ed4015322)
  (.lf 0)) (.nd (.lf
  0x21220012ee621250012ed821258012efe211fc012edc21204012eea21224012ee821208012eb821200012ede2120c012ee021254012eda21014012e5021018012e56237bc012410237b40124122381001241c2379401241a235e001243023628012482235c0012442228d401244c2297401247623640012458235d40124622297001243c235d8012478235d001243e235f8012444235fc012446236380124522360801246a2360c012490235e40124342361c01248423600012464236200124482364801245a2366c012486235dc01247a236100124922361401246c235e80124362363c012454236680124742369801248c2367c012498236540124602369c01248e236a401249a236a801249c236ac0124a2236880124aa236a00124a4236bc0124ac2371c0124c2236c00124ae236cc0124b023744012516236d00124b2236d40124b4236f80124d02370c012500237540124ec237700124ba236e40124c8)
  (.lf 0)))

def aesWireTree112 : BTree :=
  .nd (.nd (.nd (.lf
  0x2a200003ff02a400003fd044940003fb029e80003f9044000003f702a940003f502a680003f3045500003f102d600003ef02d740003ed02d000003eb02d1c0003e902cd00003e702de00003e502da80003e302d340003e1023200003df023340003dd037c00003db022fc0003d90381c0003d7023640003d50234c0003d3037d40003d101c580003cf01c6c0003cd01bf80003cb01c100003c901bc80003c701c940003c501c800003c301c240003c102a1c0003bf02a3c0003bd044900003bb029e40003b9043f80003b702a900003b502a640003b30454c0003b102d5c0003af02d700003ad02cfc0003ab02d180003a902ccc0003a702ddc0003a502da40003a302d300003a10231c00039f0233000039d037bc00039b022f8000399038180003970236000039502348000393037d000039101c5000038f01c6800038d01bf400038b01c0c00038901bc400038701c9000038501c7c00038301c20000381)
  (.lf
  0x640024f5000600024f30005c0024f1000580024ef000540024ed000500024eb0004c0024e9000480024e7000440024e5000400024e30003c0024e1000380024df000340024dd000300024db0002c0024d9000280024d7000240024d5000200024d30001c0024d1000180024cf000140024cd000100024cb0000c0024c9000080024c7000040024c5000000024c3238280024c12359c0024bf233180024bd1f2880024bb1efa80024b91ca700024b71a3a80024b5187340024b3184540024b1181900024af15f840024ad15cd00024ab148ac0024a913a240024a7107780024a50e4c00024a30cd600024a10c85c00249f2058000249d1ef9800249b135500024991717c00249719e800024951c5540024930c3440024910cd5000248f0e4b000248d0b348001e0a0b0d0001c0013f1400740c13e7800740a0b048001e000afcc001e021717400b00c1716c00b00a13e0c00740013d840074021844400a80c))
  (.nd (.lf
  0x839c018724084b801873e082f0018696082d401869e0820801867e0828001867c082f80186a808334018714083380186e6083680186d8083700186fe083140186dc0831c0186ea0833c0186e8083200186b8083180186de083240186e00836c0186da082280186500822c0186560d754005c100d75c005c120d764005c1c0d784005c1a0d2f8005c300d4cc005c820d2f4005c420d284005c4c0d5f0005c760d5f8005c580d4c4005c620d5e8005c3c0d5f4005c780d5ec005c3e0d4bc005c440d5dc005c460d4c8005c520d4b4005c6a0d5e4005c900d46c005c340d4b8005c840d4d0005c640d5fc005c480d608005c5a0d4d8005c860d620005c7a0d628005c920d4e0005c6c0d478005c360d4fc005c540d604005c740d624005c8c0d638005c980d614005c600d644005c8e0d64c005c9a0d650005c9c0d654005ca20d640005caa0d648005ca40d66c005cac0d670005cc20d674005cae0d688005cb0)
  (.lf 0))) (.nd (.nd (.lf
  0x18178001a491a634001a47173b4001a451738c001a43173a8001a411520400be181a638001a3f1ca88001a3d15870001a3b1585400a21415860001a3915878001a371712c001a3515880001a3317614001a3117650001a2f17664001a2d17140001a2b17818001a2917628001a2717670001a2518d24001a2318cd0001a2118ccc001a1f18d6000bc1418d64001a1d18cd4001a1b18eec001a1918cc8001a1718c64001a15183ec001a1318d1000bc1618d14001a1118414001a0f183e8001a0d18cec001a0b18428001a09189e0001a07189b8001a05189e4001a0318980001a0118a380019ff193d40019fd189e80019fb15c8c0019f915c780019f71a71c0019f515ccc0019f3186fc0019f1170d40019ef186a000a416187040019ed170d00019eb170ac0019e9186f40019e7171680019e5177e80019e316ca80019e11a67c0019df1a6700019dd1a7c40019db1a69c0019d9150dc00b8101511c00b812)
  (.lf 0)) (.nd (.lf
  0x1e7d40104da1e4400104501e3ac01045602cdc01441002ce401441202ce801441c02d4c01441a02afc01443002b2001448202ae001444202b2401444c02b0401447602b1c01445802af801446202ae401443c02b0801447802af401443e02ae801444402aec01444602b1401445202acc01446a02adc01449002b0001443402ad001448402b2801446402b3001444802b3401445a02b3801448602b4001447a02b4401449202b4801446c02b5801443602b7401445402b6001447402b7001448c02b9001449802b8401446002ba401448e02bac01449a02bb001449c02bb40144a202ba00144aa02ba80144a402bcc0144ac02bd00144c202bd40144ae02be80144b002bfc01451602bec0144b202c000144b402c080144d002c1801450002be40144ec02c1c0144ba02bf40144c802c200144e202c240144ca02c2801452602c2c0144c402c340144bc02c380144f802c400144ce02c4801453202c4c0144f6)
  (.lf 0)))

def aesWireTree113 : BTree :=
  .nd (.nd (.nd (.lf
  0x14c8000528014cc000518014d000050a014d40004be014e40004d2014ec00051c014f80004ee015000004e40153c000534013e800045c0145c0004c60149c0004cc015040004f0013e4000494013c800044a013d4000480013d800048a014040004a00361800050e013f40004a6015140005300135c000438013ec00045e013c0000472014700004b60151000052c014d8000504014640004d6013bc0004700150c00052a0150800051a0134400043a01398000466013a8000488013b800046e0134000044e01334000468013300004320132c000440014e80004d40151c0004f4014dc0004c0014b80004fa015180004f201524000508014bc0004fc014c000053c01540000536014e0000506014f000051e014fc00053a015440005380361c000510014f400052001530000522036200005120153400052e014ac0005240362800053e013f80004960140000049e0137800047e013d000047c014080004a8)
  (.lf 0)) (.nd (.lf
  0xcec00039260cec40038c40cecc0038bc0ced00038f80ced40038ce0cedc0039320cee00038f60cef00039020cef40039280cef80039180cefc00390a0cf000038be0cf100038d20cf1800391c0cf240038ee0cf2c0038e40cf7c0039340ce1400385c0ce880038c60cec80038cc0cf300038f00ce100038940cdd800384a0ce000038800ce0400388a0ce300038a00d21000390e0ce200038a60cf4000393009e940038380ce1800385e0cdf40038720ce9c0038b60cf3c00392c0cf040039040ce900038d60cdf00038700cf3800392a0cf3400391a0a0c800383a0cdd00038660cde00038880cdec00386e0cd7000384e0cdac00386809e080038320cda80038400cf140038d40cf480038f40cf080038c00cee40038fa0cf440038f20cf500039080cee80038fc0ceec00393c0cf800039360cf0c0039060cf1c00391e0cf2800393a0cf840039380d2180039100cf200039200cf600039220d21c003912)
  (.lf 0))) (.nd (.nd (.lf
  0x775c01849c077600184a20774c0184aa077540184a4077780184ac0777c0184c2077800184ae077940184b0077a8018516077980184b2077ac0184b4077b40184d0077c4018500077900184ec077c80184ba077a00184c8077cc0184e2077d00184ca077d4018526077d80184c4077e00184bc077e40184f8077ec0184ce077f4018532077f80184f60781001850207814018528078180185180781c01850a078280184be078380184d20784001851c0784c0184ee078540184e40789c0185340772801845c0779c0184c6077dc0184cc078580184f0077240184940770801844a077140184800771801848a077440184a0077fc01850e077340184a607868018530072640184380772c01845e07700018472077b00184b60786401852c077e801850c0782c018504077a40184d6076fc0184700786001852a0785c01851a070e001843a076e801846607298018488076f801846e076b801844e07254018468)
  (.lf 0)) (.nd (.lf
  0x1bf7c00ea401c6fc00ead41c73400eaf41c6f000eac01c6c000eafa1c73000eaf21c73c00eb081c6c400eafc1c6c800eb3c1c76800eb361c6f400eb061c70400eb1e1c71000eb3a1c76c00eb381c6e000eb101c70800eb201c74800eb221c6e400eb121c75400eb2e1c6b000eb241c6cc00eb3e1c5f800ea961c60000ea9e1bf1c00ea7e1c5d000ea7c1c60800eaa81c64400eb141c64800eae61c67800ead81c68000eafe1c62400eadc1c62c00eaea1c64c00eae81c63000eab81c62800eade1c63400eae01c67c00eada1c58c00ea501c08c00ea561b83800e6101b84000e6121b84400e61c1b86800e61a1b5ec00e6301b69800e6821b58c00e6421b5f800e64c1b57000e6761b57800e6581b69000e6621b59000e63c1b67c00e6781b68c00e63e1b68000e6441b68400e6461b69400e6521b67000e66a1b67800e6901b5f000e6341b67400e6841b69c00e6641b6a400e6481b57c00e65a1b6ac00e686)
  (.lf 0)))

def aesWireTree114 : BTree :=
  .nd (.nd (.nd (.lf
  0x2241c01328422f7801326422fa8013248223c401325a22f3001328621f6001327a22f8801329222f3401326c22f5001323622f7001325422fb001327422f6001328c22f9401329822fc401326022fb401328e22fb801329a22fc801329c22ff80132a222fa00132aa22fe80132a422fec0132ac230140132c2230200132ae230240132b023054013316230280132b22302c0132b4230340132d023084013300230080132ec230380132ba230e00132c8230680132e2230e80132ca2305c013326230180132c4230a80132bc230b00132f822ffc0132ce2300c0133322307c0132f623088013302230e4013328230580133182301c01330a230480132be2303c0132d22300001331c230100132ee2306c0132e423098013334230b801330c22fbc01325c2304c0132c6230ec0132cc230700132f022f8c01329422fac01324a22f5801328022f5c01328a22fe40132a0230bc01330e22f980132a62312c013330)
  (.lf
  0x125f400323f12b7c00323d122f000323b11cd80032391235800323711ec4003235126d00032331261c00323112ae800322f12af000322d123f000322b1240800322912354003227126ec00322512710003223126300032211274400321f122fc00321d123cc00321b1238800321911e9800321712698003215123e00032131238c0032111264c00320f1272800320d122dc00320b11ebc0032091237000320711ea40032051267c00320312f98003201134a00031ff12fd40031fd1491c0031fb148dc0031f9134c40031f71340c0031f512fc00031f3162380031f112fe40031ef134300031ed124500031eb124980031e9122ac0031e71351c0031e51341c0031e3124800031e112fa40031df1345c0031dd15f8c0031db122780031d9124640031d715f980031d5134000031d3148b40031d1134800031cf1346c0031cd124ac0031cb1227c0031c9134dc0031c7134f00031c5133ec0031c30e36800400e))
  (.nd (.lf
  0x662c01686a066340168900668c01683406630016884066b8016864066c0016848065f401685a066c401688605d0c01687a066cc016892066d001686c066e0016836066fc016854066e8016874066f801688c067180168980670c0168600672c01688e0673401689a0673801689c0673c0168a2067280168aa067300168a4067540168ac067580168c20675c0168ae067700168b006784016916067740168b2067880168b4067900168d0067a00169000676c0168ec067a40168ba0677c0168c8067a80168e2067ac0168ca067b0016926067b40168c4067bc0168bc067c00168f8067c40168ce067cc016932067d00168f6067e0016902067e4016928067e8016918067ec01690a067f00168be068000168d20680801691c068140168ee0681c0168e4068680169340670401685c067780168c6067b80168cc068200168f006700016894066e401684a066f0016880066f401688a067200168a006b7801690e)
  (.lf 0))) (.nd (.nd (.lf
  0x201ec0110f8201840110ce201c8011132202280110f6202500111022028c0111282021c011118201c001110a201e40110be202180110d22019001111c201c40110ee202900110e42025c011134201f401110c1fa8801105c202000110c6202700110cc202940110f01fa780110941fae401104a1fa900110801fa9401108a1faf80110a02023001110e1fa7c0110a621e0c0111301f7b80110381fa8c01105e1fa08011072201d80110b621e0801112c202540111042020c0110d61fa04011070202cc01112a202c801111a1f9d001103a1f9cc0110661f9240110881fa0001106e1f9c801104e1f7c00110681f9200110321f7bc011040202980110d4202a00110f4201fc0110c02022c0110fa2029c0110f2202a8011108202400110fc2023c01113c20260011136202580111062026801111e2027801113a202640111382023401111020274011120202e80111222023801111221e1401112e201f0011124)
  (.lf 0)) (.nd (.lf
  0x143100080ec143480080ba143200080c81434c0080e2143500080ca14354008126143580080c4143600080bc143640080f81436c0080ce14374008132143780080f61439000810214394008128143980081181439c00810a143a80080be143b80080d2143c000811c143cc0080ee143d40080e4144400081341436800810c142a800805c1431c0080c61435c0080cc143d80080f0142a40080941426c00804a142940080801429800808a142c40080a01437c00810e142b40080a6143e800813013dec008038142ac00805e14288008072143300080b6143e400812c143ac008104143240080d614284008070143e000812a143dc00811a1424000803a1423c00806613f000080881428000806e1423800804e13de400806813ef400803213de0008040143bc0080d4144000080f4143b00080c0143800080fa143fc0080f214408008108143840080fc1438800813c14444008136143b4008106143c400811e)
  (.lf 0)))

def aesWireTree115 : BTree :=
  .nd (.nd (.nd (.lf
  0xe49000144310d680014411099000143f0f86c00143d11a9c00143b0f44800143910bb80014370e4140014350f46800143310c2c0014310f40000142f0f5a800142d1199000142b10eb80014290e1a80014270f16c00142510be80014231077400142110c8800141f0f49c00141d0f4ac00141b0f4740014190e4240014170fd70001415100a40014130eec00014110d9f800140f10db800140d0f28000140b0e4ac0014090da180014070eea8001405119180014030d9ac0014010f0f00013ff0f1e40013fd0e4840013fb107640013f90d9800013f70fdc80013f50f4cc0013f310c080013f1107340013ef0d9900013ed107500013eb0fe380013e90e4640013e70f0a00013e50da000013e30f0900013e10f06c0013df0f5500013dd0f0c00013db10d040013d90f2480013d710da00013d50e3c40013d30f1580013d10d9d00013cf0f42c0013cd0f4340013cb10cbc0013c90e4080013c70f2200013c5)
  (.lf 0)) (.nd (.lf
  0x6d6c01772a06d6801771a06b4001763a06c0001766606c0c01768806c1801766e06b6801764e06bb401766806bb001763206b3c01764006d480176d406d7c0176f406d3c0176c006d180176fa06d780176f206d8401770806d1c0176fc06d2001773c06db001773606d4001770606d5001771e06d5c01773a06db40177380712001771006d5401772006d900177220712401771206d9401772e06d0c0177240711801773e06c5801769606c6001769e06be801767e06c3001767c06c680176a806ca401771406ca80176e606cd80176d806ce00176fe06c840176dc06c8c0176ea06cac0176e806c900176b806c880176de06c940176e006cdc0176da06bec01765006b6c01765616180009c1016188009c121618c009c1c161c8009c1a15fec009c3015fc0009c8215fdc009c4212488009c4c13478009c7616000009c5815fe0009c6213474009c3c15fb4009c7815fbc009c3e15fe4009c4415fe8009c46)
  (.lf 0))) (.nd (.nd (.lf
  0xec7c004f300eaf0004e380eb54004e5e0eb30004e720ebd8004eb60ec78004f2c0ec40004f040ebcc004ed60eb2c004e700ec74004f2a0ec70004f1a0eaa0004e3a0eb08004e660eb18004e880eb28004e6e0e8c0004e4e0ead4004e680e89c004e320ead0004e400ec50004ed40ec84004ef40ec44004ec00ec20004efa0ec80004ef20ec8c004f080ec24004efc0ec28004f3c0ecac004f360ec48004f060ec58004f1e0ec64004f3a0ecb0004f380f208004f100ec5c004f200ec98004f220f20c004f120ec9c004f2e0ec14004f240f214004f3e0eb60004e960eb68004e9e0e978004e7e0eb38004e7c0eb70004ea80ebac004f140ebb0004ee60ebe0004ed80ebe8004efe0eb8c004edc0eb94004eea0ebb4004ee80eb98004eb80eb90004ede0eb9c004ee00ebe4004eda0e8c4004e500e8c8004e560df080042100df100042120df1400421c0df3000421a0d3b00042300dd800042820d3ec004242)
  (.lf 0)) (.nd (.lf
  0x1878800ba3e1878c00ba441879000ba461879800ba5214e8000ba6a14e8c00ba901877800ba3414dd800ba84187a400ba64187ac00ba4814ea000ba5a187b000ba8614ea400ba7a187b800ba92187bc00ba6c187cc00ba36187e800ba54187d400ba74187e400ba8c1880400ba98187f800ba601881800ba8e1882000ba9a1882400ba9c1882800baa21881400baaa1881c00baa41884000baac1884400bac21884800baae1885c00bab01887000bb161886000bab21887400bab41887c00bad01888c00bb001885800baec1889000baba1886800bac81889400bae21889800baca1889c00bb26188a000bac4188a800babc188ac00baf8188b400bace188bc00bb32188c000baf6188d800bb02188dc00bb28188e000bb18188e400bb0a188f000babe1890000bad21890800bb1c1891400baee1891c00bae418a4800bb34188b000bb0c187f000ba5c1886400bac6188a400bacc1892000baf0187ec00ba94)
  (.lf 0)))

def aesWireTree116 : BTree :=
  .nd (.nd (.nd (.lf
  0x6dcc000bff06e10000bfd07240000bfb06da8000bf9072dc000bf706dfc000bf506de4000bf307184000bf107b50000bef07bb4000bed087d0000beb07ae0000be9087a0000be707e8c000be507c18000be3087e8000be107ea4000bdf07e80000bdd07f24000bdb07e58000bd907f84000bd707e6c000bd507e74000bd307f50000bd106ad8000bcf06aec000bcd06e44000bcb06ab4000bc906ea4000bc706b2c000bc506b10000bc306e70000bc106dc8000bbf06e0c000bbd0723c000bbb06da4000bb9072d8000bb706df8000bb506de0000bb307180000bb107b4c000baf07bb0000bad087cc000bab07adc000ba90879c000ba707e88000ba507c14000ba3087e4000ba107ea0000b9f07e7c000b9d07f20000b9b07e54000b9907f80000b9707e68000b9507e70000b9307f4c000b9106ad4000b8f06ae8000b8d06e40000b8b06ab0000b8906ea0000b8706b28000b8506b14000b8306e6c000b81)
  (.lf
  0x1d40c002cf51d484002cf31d2c0002cf11d3f4002cef1d538002ced1d1b0002ceb1d1a0002ce91d2f4002ce71d43c002ce51d4c0002ce31d3e4002ce11d550002cdf1d5a0002cdd1d2d0002cdb1d2ac002cd91d41c002cd71d494002cd51d4f4002cd31d3c0002cd11d5e4002ccf1d1ac002ccd1d8b8002ccb1d310002cc91d450002cc71d4d0002cc51d320002cc31b548002cc11b4f4002cbf1b3fc002cbd1b458002cbb1b484002cb91b870002cb71b4c0002cb51ba84002cb31b490002cb11b5b8002caf1b51c002cad1b470002cab1b448002ca91b424002ca71b60c002ca51b4d8002ca31b464002ca11b5a4002c9f1b510002c9d1efe0002c9b1f010002c991b3f4002c971efbc002c951b4bc002c931b584002c911b564002c8f1b504002c8d1b414002c8b1b440002c891b5e8002c871b664002c851b4d0002c831c2e0002c811c09c002c7f1c340002c7d1c284002c7b1bf30002c791bf24002c77))
  (.nd (.lf
  0x11c5c0064ee11c640064e411cb000653411b4c00645c11bc00064c611c000064cc11c680064f011b4800649411b0800644a11b3800648011b3c00648a11b680064a01230800650e11b580064a611c7800653011adc00643811b5000645e11b2c00647211bd40064b611c7400652c11c3c00650411bc80064d611b2800647011c7000652a11c6c00651a11ac800643a11b0000646611b1400648811b2400646e1198000644e11abc0064681194c00643211ab800644011c4c0064d411c800064f411c400064c011c1c0064fa11c7c0064f211c8800650811c200064fc11c2400653c11cb400653611c4400650611c5400651e11c6000653a11cb80065381230c00651011c5800652011c980065221231000651211c9c00652e11c100065241232400653e11b5c00649611b6400649e119b800647e11b3400647c11b6c0064a811ba800651411bac0064e611bdc0064d811be40064fe11b880064dc11b900064ea)
  (.lf 0))) (.nd (.nd (.lf
  0x1c3b400e88c1c39800e8981c3d000e8601c3d400e88e1c3d800e89a1c3e000e89c1c3e400e8a21c3b000e8aa1c3dc00e8a41c40400e8ac1c40c00e8c21c41c00e8ae1c42400e8b01c43c00e9161c42800e8b21c45000e8b41c49800e8d01c46400e9001c42c00e8ec1c48800e8ba1c44800e8c81c45c00e8e21c47c00e8ca1c44400e9261c42000e8c41c4ac00e8bc1c49c00e8f81c3f400e8ce1c47000e9321c4cc00e8f61c46800e9021c44c00e9281c44000e9181c41800e90a1c48c00e8be1c4a400e8d21c3f800e91c1c43000e8ee1c4ec00e8e41c46c00e9341c4b400e90c1c3b800e85c1c43400e8c61c48000e8cc1c4f000e8f01c39000e8941c3c800e84a1c37000e8801c38000e88a1c3c000e8a01c4d000e90e1c39c00e8a61c52400e9301bf9400e8381c3c400e85e1c32800e8721c48400e8b61c51800e92c1c49000e9041c43800e8d61c32400e8701c51400e92a1c51000e91a1c32c00e83a)
  (.lf 0)) (.nd (.lf
  0x1df9c01191a1d48801183a1de9c0118661de6c0118881de7c01186e1d3dc01184e1d6440118681de3c0118321d6400118401dfe00118d41dfe80118f41df900118c01dfc00118fa1dfe40118f21e0080119081dfc40118fc1df7001193c1e03c0119361e0040119061e02401191e1e02c01193a1e0400119381e0180119101e0280119201e0300119221e01c0119121dfb001192e1dff00119241dfd401193e1debc0118961dedc01189e1d65401187e1de8401187c1decc0118a81df1c0119141df0c0118e61df500118d81df580118fe1def40118dc1defc0118ea1df100118e81df000118b81def80118de1df040118e01df540118da1de480118501d520011856200e0010810200e80108122013001081c200c401081a1fd580108301fcf80108821fc880108421fd5c01084c1feec0108761fef00108581fd600108621ff1001083c1fef80108781ff1801083e1fe4c0108441fe500108461ff0c010852)
  (.lf 0)))

def aesWireTree117 : BTree :=
  .nd (.nd (.nd (.lf
  0xdb60000f930c7f0000f910ccb0000f8f0d31c003e180d330000f8d0d370000f8b0b7e40022140b7e8000f891077c000f870bad0000f850d590000f830c7c4000f810c7a4000f7f0b618000f7d0c82c000f7b0c77c000f790d2b8000f770aaac000f750e73c000f730af44000f710a290003c140af34000f6f0e6f0000f6d0afc8000f6b0e910000f690ca60000f670e798000f650a29c003c160cc80000f630e7a8000f610e794000f5f0cce8000f5d0eac0000f5b0b8dc000f590b7d8000f570b8e0000f550b860000f530b8d4000f510ba1c000f4f0b8d8000f4d0ccc8000f4b0d404000f490cd34000f470da2c000f450b90c000f430b310000f410b7c00024160b7c4000f3f0b31c000f3d0b314000f3b0b770000f390b318000f370cf6c000f350d234000f330aef0000f310c810000f2f0c858000f2d0cd1c000f2b0b5ec0022100b6140022120b60800221c0b62c00221a0a3e80022300b03c002282)
  (.lf 0)) (.nd (.lf
  0xca7000261a0b0400026300c8b00026820c8900026420c8b400264c0b6c80026760b6d40026580c8940026620c89800263c0b6cc0026780c89c00263e0c8a00026440c8a40026460c8ac0026520b6b800266a0b6c40026900c88c0026340b0b00026840c8b80026640c8c00026480b6d800265a0c8c40026860b6dc00267a0c8cc0026920c8d000266c0c8e00026360c8fc0026540c8e80026740c8f800268c0c9180026980c90c0026600c92c00268e0c93400269a0c93800269c0c93c0026a20c9280026aa0c9300026a40c9540026ac0c9580026c20c95c0026ae0c9700026b00c9840027160c9740026b20c9880026b40c9900026d00c9a00027000c96c0026ec0c9a40026ba0c97c0026c80c9a80026e20c9ac0026ca0c9b00027260c9b40026c40c9bc0026bc0c9c00026f80c9c40026ce0c9cc0027320c9d00026f60c9e00027020c9e40027280c9e80027180c9ec00270a0c9f00026be0ca000026d2)
  (.lf 0))) (.nd (.nd (.lf
  0x164a8009aea16510009ae816498009ab8164a0009ade164a4009ae016538009ada163f8009a5013440009a5612ee400921012f3000921212f4c00921c12f4000921a123f80092301270c009282126240092421262800924c12d7400927612dd80092581270400926212b2400923c12d7800927812b3c00923e126f80092441271800924612b4800925212afc00926a12b0800929012b2800923412b300092841270800926412b6c00924812ddc00925a12b3400928612d7c00927a12b4000929212b0000926c12b2c00923612b4c00925412b7400927412d8000928c12b5c00929812e3c00926012d8c00928e12d9000929a12e4000929c12e480092a212d880092aa12dec0092a412df00092ac12e080092c212df80092ae12dfc0092b012e1400931612e000092b212e580092b412e7c0092d012e6c00930012eac0092ec12e900092ba12e0c0092c812ebc0092e212e280092ca12e2c00932612e300092c4)
  (.lf 0)) (.nd (.lf
  0x1960400d6f81960c00d6ce1961400d7321961800d6f61963000d7021963400d7281963800d7181963c00d70a1964800d6be1965800d6d21966000d71c1966c00d6ee1967400d6e4196bc00d7341960800d70c1954800d65c195bc00d6c6195fc00d6cc1967800d6f01954400d6941950c00d64a1953400d6801953800d68a1956400d6a01961c00d70e1955400d6a61968800d7301936000d6381954c00d65e1952800d672195d000d6b61968400d72c1964c00d704195c400d6d61952400d6701968000d72a1967c00d71a194e000d63a194dc00d6661946000d6881952000d66e194d800d64e1935800d6681945400d6321935400d6401965c00d6d41969400d6f41965000d6c01962000d6fa1969000d6f21969c00d7081962400d6fc1962800d73c196c000d7361965400d7061966400d71e1967000d73a196c400d7381964000d7101966800d720196a800d7221964400d712196b000d72e1961000d724)
  (.lf 0)))

def aesWireTree118 : BTree :=
  .nd (.nd (.nd (.lf
  0x5f000193a00638001938034c0001910005e800192000624001922034c40019120062800192e005a0001924034cc00193e004ec001896004f400189e0046c00187e004c400187c004fc0018a8005380019140053c0018e60056c0018d8005740018fe005180018dc005200018ea005400018e8005240018b80051c0018de005280018e0005700018da0047000185000478001856003f4001a10003fc001a1200400001a1c0041c001a1a0023c001a3000260001a8200220001a4200264001a4c00244001a760025c001a5800238001a6200224001a3c00248001a7800234001a3e00228001a440022c001a4600254001a520020c001a6a0021c001a9000240001a3400210001a8400268001a6400270001a4800274001a5a00278001a8600280001a7a00284001a9200288001a6c00298001a36002b4001a54002a0001a74002b0001a8c002d0001a98002c4001a60002e4001a8e002ec001a9a002f0001a9c)
  (.lf
  0x210a800376520ef000376321bd40037612105400375f20f7c00375d20fdc00375b2113c00375920f9800375720e940037552108c00375320ee000375120f3400374f20f6800374d20fcc00374b2114c00374920fac00374720e880037452107800374321e9000374120c8000373f21e6c00373d223d400373b20dc400373920d0400373720d5c00373520c5c00373322f1c00373121f3c00372f20d3400372d2237000372b21e3c00372920cf400372720d4800372520da800372320dec00372121f5000371f20d2000371d21edc00371b21ef800371920d5000371720de000371520ca400371321f3000371121ea000370f21e7c00370d21e6000370b21e2800370920d1400370720d9400370520d8400370320a6400370120a100036ff216140036fd20ab00036fb209c00036f9216f40036f7216240036f520aec0036f3238300036f1216000036ef216a40036ed20a980036eb217300036e9217440036e7))
  (.nd (.lf
  0xc2680052f20c2740053080c20c0052fc0c21000533c0c2900053360c2300053060c24000531e0c24c00533a0c2940053380c2c80053100c2440053200c2800053220c2d40053120c28400532e0c1fc0053240c2cc00533e0c1480052960c15000529e0b8f400527e0c12000527c0c1580052a80c1940053140c1980052e60c1c80052d80c1d00052fe0c1740052dc0c17c0052ea0c19c0052e80c1800052b80c1780052de0c1840052e00c1cc0052da0c0ec0052500c0f40052560dd1c0046100dd240046120dd2800461c0dd4800461a0db880046300da480046820d3a40046420db9400464c0dabc0046760dad00046580db840046620dab800463c0dac00046780db8000463e0da400046440da440046460dac80046520db7000466a0db780046900db8c0046340db740046840db980046640dba00046480dad400465a0dba40046860dad800467a0dbac0046920dbb000466c0dbc00046360dbdc004654)
  (.lf 0))) (.nd (.nd (.lf
  0x3c4801570e03b800156a603cb401573003ab001563803b7801565e03af401567203bfc0156b603cb001572c03c3401570c03c7801570403bf00156d603af001567003cac01572a03ca801571a03ae001563a03adc01566603b4401568803aec01566e03ad801564e03aa401566803b1001563203aa001564003c880156d403cc00156f403c7c0156c003c4c0156fa03cbc0156f203cc801570803c500156fc03c5401573c03cf401573603c8001570603c9001571e03c9c01573a03cf801573803c6c01571003c9401572003cd401572203c7001571203cdc01572e03c3c01572403c5801573e03b8401569603b8c01569e03a3801567e03b5c01567c03b940156a803bd001571403bd40156e603c040156d803c0c0156fe03bb00156dc03bb80156ea03bd80156e803bbc0156b803bb40156de03bc00156e003c080156da03b2801565003b300156561ecf800248b207680024892283400248722a0c002485)
  (.lf 0)) (.nd (.lf
  0x1caf800c4821ca9c00c4421a77c00c44c1a86c00c4761cab000c4581caf000c4621a86800c43c1cadc00c4781caec00c43e1cae000c4441cae400c4461caf400c4521cad000c46a1cad800c4901caa400c4341cad400c4841cafc00c4641cb0400c4481cab400c45a1cb0c00c4861cb1400c47a1cb1800c4921cb1c00c46c1cab800c4361cb4000c4541cb2c00c4741cb3c00c48c1cb5c00c4981cb5000c4601cb7000c48e1cb7800c49a1cb7c00c49c1cb8000c4a21cb6c00c4aa1cb7400c4a41cb9800c4ac1cb9c00c4c21cba000c4ae1cbb400c4b01cbc800c5161cbb800c4b21cbcc00c4b41cbd400c4d01cbe400c5001cbb000c4ec1cbe800c4ba1cbc000c4c81cbec00c4e21cbf000c4ca1cbf400c5261cbf800c4c41cc0000c4bc1cc0400c4f81cc0c00c4ce1cc1400c5321cc1800c4f61cc3000c5021cc3400c5281cc3800c5181cc3c00c50a1cc4800c4be1cc5800c4d21cc6000c51c1cc6c00c4ee)
  (.lf 0)))

def aesWireTree119 : BTree :=
  .nd (.nd (.nd (.lf
  0x145c40086bc1460c0086f8145780086ce145380087321459c0086f6145b00087021456c008728145640087181454400870a145c80086be146140086d21457c00871c1453c0086ee145a00086e4145b40087341463c00870c1445000865c145540086c6145800086cc145e80086f01421c0086941421800864a13f5000868013f5400868a144600086a01464400870e142280086a61460000873013dc80086381445400865e13fac0086721458c0086b6145f800872c145d0008704145580086d613fa8008670145f400872a145ec00871a13f2800863a13f6c00866613edc00868813fa400866e13f6800864e13e0800866813ed800863213dfc008640146180086d4146200086f4145cc0086c0146280086fa1461c0086f2146300087081462c0086fc145a400873c145b8008736145d4008706145d800871e145e000873a145bc00873814650008710145dc008720145f000872214654008712145fc00872e)
  (.lf 0)) (.nd (.lf
  0x17dec00df1617ddc00deb217df000deb417df800ded017e0800df0017dd400deec17e0c00deba17de400dec817e1000dee217e1400deca17e1800df2617e1c00dec417e2400debc17e2800def817e3000dece17e3800df3217e3c00def617e5400df0217e5800df2817e5c00df1817e6000df0a17e6c00debe17e7c00ded217e8400df1c17e9000deee17e9800dee417ee000df3417e2c00df0c17d6c00de5c17de000dec617e2000decc17e9c00def017d6800de9417d2c00de4a17d5800de8017d5c00de8a17d8800dea017e4000df0e17d7800dea617eac00df3017d0c00de3817d7000de5e17d4c00de7217df400deb617ea800df2c17e7000df0417de800ded617d4800de7017ea400df2a17ea000df1a1783000de3a17d2400de6617d3400de8817d4400de6e177f800de4e17cf000de68176e400de3217cec00de4017e8000ded417eb800def417e7400dec017e4400defa17eb400def217ec000df08)
  (.lf 0))) (.nd (.nd (.lf
  0x7cb401728c07cd401729807cc801726007ce801728e07cf001729a07cf401729c07cf80172a207ce40172aa07cec0172a407d100172ac07d140172c207d180172ae07d2c0172b007d4001731607d300172b207d440172b407d4c0172d007d5c01730007d280172ec07d600172ba07d380172c807d640172e207d680172ca07d6c01732607d700172c407d780172bc07d7c0172f807d800172ce07d8801733207d8c0172f607d9c01730207da001732807da401731807da801730a07dac0172be07dbc0172d207dc401731c07dd00172ee07dd80172e407e1801733407cc001725c07d340172c607d740172cc07ddc0172f007cbc01729407ca001724a07cac01728007cb001728a07cdc0172a007f0401730e07ccc0172a607dec01733007b9c01723807cc401725e07c0801727207d480172b607de801732c07db001730407d3c0172d607c0401727007de401732a07de001731a07bf401723a07bf0017266)
  (.lf 0)) (.nd (.lf
  0x343c001cf203448001d08033e0001cfc033e4001d3c03474001d3603404001d0603414001d1e03420001d3a03478001d3809a54001d1003418001d2003454001d2209a58001d1203458001d2e033d0001d2409a70001d3e0331c001c9603324001c9e0329c001c7e032f4001c7c0332c001ca803368001d140336c001ce60339c001cd8033a4001cfe03348001cdc03350001cea03370001ce803354001cb80334c001cde03358001ce0033a0001cda032a0001c50032a8001c5622d6001221022db401221222dd401221c22dc401221a22a6401223022b080122822287c01224222a6c01224c22ae401227622af001225822b0401226222ae001223c22afc01227822b1001223e22be001224422bec01224622bd001225222c0c01226a22c2001229022a6801223422c0001228422be401226422bf001224822af401225a22c0401228622b0c01227a22c2401229222c1001226c22a7001223622bd4012254)
  (.lf 0)))

def aesWireTree120 : BTree :=
  .nd (.nd (.nd (.lf
  0x3d100007ff03d540007fd044b40007fb03d4c0007f9044440007f703d440007f503d300007f304a8c0007f104a7c0007ef04a240007ed049980007eb04a840007e9049580007e704a6c0007e504a480007e304a740007e104f200007df04f440007dd054ec0007db04eec0007d9055700007d704f940007d504f700007d3054b00007d1040740007cf040880007cd041140007cb040500007c90415c0007c7040b80007c5040a00007c3040e40007c103d0c0007bf03d500007bd044b00007bb03d480007b9044400007b703d400007b503d2c0007b304a880007b104a780007af04a200007ad049940007ab04a800007a9049540007a704a680007a504a440007a304a700007a104f1c00079f04f4000079d054e800079b04ee80007990556c00079704f9000079504f6c000793054ac0007910407000078f0408400078d0410c00078b0404c00078904158000787040b40007850409c000783040e0000781)
  (.lf
  0x134100028f512fc40028f3163ec0028f112fe80028ef134380028ed124540028eb1249c0028e9122b00028e7135200028e5134200028e3124840028e112fa80028df134600028dd15fd40028db122a40028d9124680028d715f9c0028d5134040028d3148b80028d1134840028cf1347c0028cd124b40028cb122800028c9134e00028c7134f40028c5133f40028c310e200028c11099c0028bf119000028bd10d700028bb109780028b910dd00028b711a400028b511ce80028b310e300028b1109a80028af119280028ad10d800028ab10c100028a910dcc0028a7119dc0028a5120d80028a310df40028a11197c00289f1194800289d10e5800289b10e50002899119a000289711ab400289511aa40028931095c0028911195400288f10d6000288d10dfc00288b10e08002889119ac00288711ee000288510dac0028830f5780028810f50000287f0f0fc00287d0f1cc00287b0f1c00028790f5d0002877))
  (.nd (.lf
  0x109cc0058860d5b000587a109d400589210a2000586c10a3000583610a4c00585410a3800587410a4800588c10a6800589810a5c00586010a7c00588e10a8400589a10a8800589c10a8c0058a210a780058aa10a800058a410aa40058ac10aa80058c210aac0058ae10ac00058b010ad400591610ac40058b210ad80058b410ae00058d010af000590010abc0058ec10af40058ba10acc0058c810af80058e210afc0058ca10b0000592610b040058c410b0c0058bc10b100058f810b140058ce10b1c00593210b200058f610b3000590210b3400592810b3800591810b3c00590a10b400058be10b500058d210b5800591c10b640058ee10b6c0058e410bc400593410a5400585c10ac80058c610b080058cc10b700058f010a5000589410a3400584a10a4000588010a4400588a10a700058a010c6800590e10a600058a610b800059300d5a400583810a5800585e10a2c00587210adc0058b610b7c00592c)
  (.lf 0))) (.nd (.nd (.lf
  0x1bee0001d2519e38001d231bee8001d21198a8001d1f1bfec001d1d1c04c001d1b19e14001d191c058001d1719e28001d151c55c001d131bfcc001d111bf68001d0f19e40001d0d1bf88001d0b1a15c001d091beb4001d071bea4001d0519bfc001d031bf28001d011bf08001cff19c00001cfd1bf10001cfb1c038001cf91c050001cf71c2d8001cf51b4c8001cf31b5e0001cf11b42c001cef1a370001ced1b3d0001ceb1812c00de1819b24001ce91efd4001ce71ab7c00c2141ab84001ce51aad4001ce31ac64001ce11aab4001cdf1a160001cdd1a158001cdb1aa44001cd91f290001cd71aa60001cd51ab28001cd3198d8001cd119e50001ccf19e44001ccd17cd800dc14198cc001ccb19e48001cc919e00001cc719b5c001cc51bf38001cc31bf0c001cc117cb800dc161bed0001cbf1becc001cbd1bec4001cbb1bfa4001cb91bec8001cb71ccf4001cb51cd84001cb31cd08001cb11ccb4001caf)
  (.lf 0)) (.nd (.lf
  0xa198003cb20a1ac003cb40a1b4003cd00a1c4003d000a190003cec0a1c8003cba0a1a0003cc80a1cc003ce20a1d0003cca0a1d4003d260a1d8003cc40a1e0003cbc0a1e4003cf80a1ec003cce0a1f4003d320a1f8003cf60a210003d020a214003d280a218003d180a21c003d0a0a228003cbe0a238003cd20a240003d1c0a24c003cee0a254003ce40a2a4003d340a1e8003d0c0a118003c5c0a19c003cc60a1dc003ccc0a258003cf00a138003c940a10c003c4a09e74003c8009e78003c8a0a128003ca00a1fc003d0e0a13c003ca60a268003d3009c78003c380a11c003c5e09e6c003c720a1b0003cb60a264003d2c0a22c003d040a1a4003cd609e68003c700a260003d2a0a25c003d1a0a0ec003c3a09e50003c6609dcc003c8809e64003c6e09e4c003c4e09c70003c6809dc0003c3209c6c003c400a23c003cd40a274003cf40a230003cc00a200003cfa0a270003cf20a27c003d080a204003cfc)
  (.lf 0)))

def aesWireTree121 : BTree :=
  .nd (.nd (.nd (.lf
  0x3588000dd7036d0000dd509b04000dd3036bc000dd109eac000dcf03560000dcd09dd8000dcb09b44000dc909d84000dc709b28000dc503678000dc309c24000dc109c20000dbf09b10000dbd036c0000dbb036c4000db9036b8000db709c14000db509eb8000db309eb4000db109c0c000daf09b80000dad09b40000dab09df8000da909d78000da703680000da50355c000da3019a0000da10a3b4000d9f0a304000d9d0a390000d9b0a370000d990c864000d9703730000d950c860000d930a3dc000d910aff0000d8f0c870000d8d0afe0000d8b0b088000d8909a24000d870a39c000d850a37c000d830b36c000d8109b8c000d7f099c8000d7d03744000d7b099f0000d790a3d0000d770b068000d7509b98000d730b358000d710a3b0000d6f0b354000d6d09c00000d6b09b64000d690b35c000d67099f8000d6509a2c000d63099f4000d610afe4000d5f0b080000d5d0b07c000d5b0aff4000d59)
  (.lf 0)) (.nd (.lf
  0x451c016468051f4016432043b4016440053700164d4053a40164f4053640164c0053400164fa053a00164f2053ac016508053440164fc0534801653c053d8016536053680165060537801651e0538401653a053dc01653805d1c0165100537c016520053b801652205d20016512053bc01652e0533401652405d1801653e052800164960528801649e0453401647e0525801647c052900164a8052cc016514052d00164e6053000164d8053080164fe052ac0164dc052b40164ea052d40164e8052b80164b8052b00164de052bc0164e0053040164da052140164500446c01645606a8c01701006a9401701206a9801701c06ac401701a0665801703006900017082068e00170420690401704c05fd4017076065e4017058068e4017062068e801703c05fd8017078068ec01703e068f0017044068f4017046068fc0170520664801706a06650017090068dc0170340664c0170840690801706406910017048)
  (.lf 0))) (.nd (.nd (.lf
  0x389801485e0386c0148720391c0148b6039d001492c0395401490c03998014904039100148d603868014870039cc01492a039c801491a0235001483a03854014866038080148880386401486e0382401484e037e4014868037d801483202338014840039a80148d4039f00148f40399c0148c00396c0148fa039ec0148f2039f8014908039700148fc0397401493c03a5c014936039a0014906039b001491e039bc01493a03a600149380398c014910039b401492003a040149220399001491203a2001492e0395c0149240397801493e038a4014896038ac01489e037c401487e0387c01487c038b40148a8038f0014914038f40148e6039240148d80392c0148fe038d00148dc038d80148ea038f80148e8038dc0148b8038d40148de038e00148e0039280148da038400148500384801485604964014c100496c014c1204970014c1c049e4014c1a044e8014c30047a0014c8204780014c42047a4014c4c)
  (.lf 0)) (.nd (.lf
  0x1a8a400c2581a7e800c2621a88800c23c1a89400c2781a88c00c23e1a7dc00c2441a7e000c2461a89c00c2521a87400c26a1a88400c2901a84400c2341a83c00c2841a7f000c2641a8a800c2481a8b000c25a1a84800c2861a8b400c27a1a8b800c2921a8bc00c26c1a85000c2361a8e000c2541a8cc00c2741a8dc00c28c1a8fc00c2981a8f000c2601a91000c28e1a91800c29a1a91c00c29c1a92000c2a21a90c00c2aa1a91400c2a41a93800c2ac1a93c00c2c21a94000c2ae1a95400c2b01a96800c3161a95800c2b21a96c00c2b41a97400c2d01a98400c3001a95000c2ec1a98800c2ba1a96000c2c81a98c00c2e21a99000c2ca1a99400c3261a99800c2c41a9a000c2bc1a9a400c2f81a9ac00c2ce1a9b400c3321a9b800c2f61a9d000c3021a9d400c3281a9d800c3181a9dc00c30a1a9e800c2be1a9f800c2d21aa0000c31c1aa0c00c2ee1aa1400c2e41aa6800c3341a9a800c30c1a8e800c25c)
  (.lf 0)))

def aesWireTree122 : BTree :=
  .nd (.nd (.nd (.lf
  0x2347001291c234d40128ee235200128e4234e4012934233f401285c234400128c6234500128cc235240128f0233b40128942340401284a233d4012880233d801288a234000128a02350001290e233e00128a6235840129302333c012838233f801285e233a80128722347c0128b62355c01292c234fc01290c234f0012904234540128d6233a40128702354401292a2354001291a2111801283a233a00128662335c0128882339801286e2337c01284e2334c01286821040012832233400128402348c0128d42352c0128f4235740128c0234c40128fa235280128f223530012908234c80128fc234d801293c234e8012936234f4012906234f801291e2351401293a235180129382350801291023510012920235480129222350c0129122356001292e234980129242350401293e233c0012896233fc01289e2333001287e233d001287c233e40128a82342c0129142341c0128e6234780128d8234dc0128fe)
  (.lf
  0x18c6000bc0818d0000bc0618d5800bc0418ce800bc0215a7800a60e15a4c00a60815a7400a60615a6c00a60416ea000b00e16e7400b00816e9c00b00616e9400b004189d400ba0e1893400ba08189a800ba061897800ba04186a400a40e1867000a4081869c00a4061869400a404186bc00a4021709400ae0e1706800ae081709000ae061708800ae041513400b80e1513000b80c150f800b808150f000b8061511400b8041586800a20e1582800a2081585c00a2061585000a2041589400a2021763c00ac0e1769800ac0c176a400ac0a175d000ac081762000ac061761000ac0416c5000b60e16c1800b60816c4800b60616c3800b6041a6d00034c11b1bc0034bf1a80c0034bd1a6b00034bb1a6580034b91a6280034b71a7380034b51a7b80034b31a70c0034b11a8540034af1a8340034ad1a6c40034ab1a6840034a91a7240034a71a7cc0034a51a7a40034a31a6f00034a11a85c00349f1a6ac00349d))
  (.nd (.lf
  0x121f8006302121fc006328122000063181220400630a122080062be122180062d21222000631c1222c0062ee122340062e4122840063341210c00625c121900062c6121d00062cc122380062f01212c0062941210000624a11a2800628011a2c00628a1211c0062a01242000630e121300062a612248006330119f40062381211000625e11a20006272121a40062b61224400632c1220c006304121980062d611a1c0062701224000632a1223c00631a120e000623a11a0800626611a1000628811a1800626e10d8400624e119e40062681192c006232119e00062401221c0062d4122500062f4122100062c0121ec0062fa1224c0062f212258006308121f00062fc121f400633c12288006336122140063061222400631e1223000633a1228c0063381242800631012228006320122640063221242c0063121226800632e121e00063241242400633e121340062961211800629e10ddc00627e11a2400627c)
  (.lf 0))) (.nd (.nd (.lf
  0x1e6540100fa1e6740100f21e6780101081e6580100fc1e6c801013c1ed700101361e6180101061e61c01011e1e68801013a1ed740101381e6600101101e6200101201e68c0101221e6640101121e6a001012e1e6280101241e6cc01013e1e5500100961e56801009e1e26801007e1e53801007c1e5240100a81e5940101141e5840100e61e5e00100d81e5f00100fe1e6380100dc1e6400100ea1e5880100e81e5dc0100b81e63c0100de1e6440100e01e5e40100da1e4680100501e4580100561ed500102101ed1c0102121ece801021c1ed6001021a1eb0c0102301eaf80102821eb100102421e3d001024c1eb680102761ebb80102581eb1c0102621eb6c01023c1eb7c0102781eb7001023e1eb180102441eb600102461eb300102521eaec01026a1eb740102901eb440102341eaf00102841eb200102641eb800102481ebbc01025a1eafc0102861eb8401027a1eb780102921eb1401026c1eb48010236)
  (.lf 0)) (.nd (.lf
  0x1f06c00e46e1efe400e44e1f02400e4681b51400e4321f01800e4401f15800e4d41f18400e4f41f1c400e4c01f15000e4fa1f18000e4f21f1b800e5081f15c00e4fc1f17c00e53c1f17800e5361f19c00e5061f1a000e51e1f1a800e53a1f18800e5381f24000e5101f1a400e5201f1ac00e5221f24400e5121f20400e52e1f18c00e5241f1d800e53e1f08400e4961f09800e49e1f01400e47e1f07000e47c1f06000e4a81f0c400e5141f0c000e4e61f12000e4d81f12800e4fe1f10400e4dc1f11400e4ea1f0f000e4e81f0fc00e4b81f10800e4de1f10c00e4e01f12400e4da1eff000e4501f00000e456227a4011410228b0011412227c801141c2292001141a1f5f00114301f7700114821f5f40114421f5b001144c1f9300114761f8d80114581f7800114621f8bc01143c1f9340114781f90801143e1f7780114441f7cc0114461f8f00114521f8b401146a1f8c00114901f8600114341f858011484)
  (.lf 0)))

def aesWireTree123 : BTree :=
  .nd (.nd (.nd (.lf
  0x13dbc00171f1251c00171d126e800171b12404001719123ec00171713048001715125b000171312588001711118bc00170f1181800170d1180c00170b1244c00170915f940017071050c00170513408001703148d800170113ce40016ff1250c0016fd1009c0016fb133e40016f9134d40016f71302c0016f5131640016f313d3c0016f113f180016ef106f80016ed13e100016eb105140016e9122700016e7125580016e5105500016e3124a80016e11053c0016df107280016dd13d880016db134500016d9120b80016d7106b40016d512f880016d3130200016d1118780016cf122980016cd12fb00016cb1243c0016c9125340016c7126740016c511cc40016c3106e40016c1118d80016bf13c940016bd123180016bb1306c0016b9118cc0016b711ca40016b512ffc0016b3118480016b1106dc0016af122e40016ad130cc0016ab130180016a9112100016a7127200016a5107000016a311e800016a1)
  (.lf 0)) (.nd (.lf
  0x7978016ce0079c0016cda078d8016c50078e0016c560cc300020100cc380020120cc3c00201c0cc5800201a0a3f40020300caa80020820a3c40020420a3f800204c0b80c0020760b8180020580ca9c0020620b80800203c0ca880020780ca9800203e0ca8c0020440ca900020460caa40020520ca7c00206a0ca840020900b8040020340ca800020840caac0020640cab40020480b81c00205a0cabc0020860cac400207a0cac80020920cacc00206c0b8200020360caf00020540cadc0020740caec00208c0cb0c0020980cb000020600cb2000208e0cb2800209a0cb2c00209c0cb300020a20cb1c0020aa0cb240020a40cb480020ac0cb4c0020c20cb500020ae0cb640020b00cb780021160cb680020b20cb7c0020b40cb840020d00cb940021000cb600020ec0cb980020ba0cb700020c80cb9c0020e20cba00020ca0cba40021260cba80020c40cbb00020bc0cbb40020f80cbb80020ce0cbc0002132)
  (.lf 0))) (.nd (.nd (.lf
  0x1db0000b1401db4000ae601de4000ad801dec000afe01d90000adc01d98000aea01db8000ae801d9c000ab801d94000ade01da0000ae001de8000ada01ce8000a5001cf0000a560b2c0002e100b2c8002e120b2cc002e1c0b2e8002e1a09ca0002e300a4e4002e8209d5c002e4209d60002e4c0b15c002e760b164002e580a4dc002e620b154002e3c0b160002e780b158002e3e0a4d4002e440b148002e460a4e0002e520a4cc002e6a0b150002e900a448002e340a4d0002e840a4e8002e640b168002e480b174002e5a0a4f0002e860b18c002e7a0b194002e920a4f8002e6c0a44c002e360a514002e540b170002e740b190002e8c0b1a4002e980b180002e600b1b0002e8e0b1b8002e9a0b1bc002e9c0b1c0002ea20b1ac002eaa0b1b4002ea40b1d8002eac0b1dc002ec20b1e0002eae0b1f4002eb00b208002f160b1f8002eb20b20c002eb40b214002ed00b224002f000b1f0002eec0b228002eba)
  (.lf 0)) (.nd (.lf
  0x16e1800b10216e1c00b12816e2000b11816e2400b10a16e3000b0be16e4000b0d216e4800b11c16e5400b0ee16e5c00b0e416ea400b13416df000b10c16d3000b05c16da400b0c616de400b0cc16e6000b0f016d2c00b09416cf400b04a16d1c00b08016d2000b08a16d4c00b0a016e0400b10e16d3c00b0a616e7000b1301679400b03816d3400b05e16d1000b07216db800b0b616e6c00b12c16e3400b10416dac00b0d616d0c00b07016e6800b12a16e6400b11a16cc800b03a16cc400b06616ca000b08816d0800b06e16cc000b04e1679000b06816c7800b0321678c00b04016e4400b0d416e7c00b0f416e3800b0c016e0800b0fa16e7800b0f216e8400b10816e0c00b0fc16e1000b13c16ea800b13616e3c00b10616e4c00b11e16e5800b13a16eac00b13816e2800b11016e5000b12016e9000b12216e2c00b11216e9800b12e16df800b12416e1400b13e16d4000b09616d4800b09e1673800b07e)
  (.lf 0)))

def aesWireTree124 : BTree :=
  .nd (.nd (.nd (.lf
  0x21b2001391e21b2801393a21b3001393821b4c01391021b2401392021b9401392221b5001391221bb401392e21ab401392421b5801393e21a3001389621a0801389e2170c01387e21a3401387c21a140138a821a5401391421a500138e621b000138d821b080138fe21a900138dc21a9c0138ea21a5c0138e821ac40138b821a940138de21a980138e021b040138da219d8013850219c001385623b10013a1023b00013a1223a64013a1c23af8013a1a21764013a302388c013a8223838013a422387c013a4c216ac013a76216bc013a5823844013a6223854013a3c216b0013a7823868013a3e2383c013a4423840013a46238e4013a5221760013a6a21750013a9023860013a3421754013a8423848013a642386c013a48216c0013a5a23890013a86216b4013a7a2385c013a9223870013a6c23864013a36238e8013a5423990013a742389c013a8c238f4013a982398c013a6023994013a8e23998013a9a)
  (.lf
  0x36240004040154c00040203524000e0e03538000e0800cb0000e0603530000e04034d000180e0064000180c034b40018080062c001806034c8001804036a400020e036740002080175c0002060369c0002040177000020203548000c0e00ee4000c0c00ee8000c0a03580000c0800ed0000c060356c000c04034f000160e034d800160800850001606034e80016040a3b8002fc10a394002fbf0b38c002fbd099d0002fbb0c868002fb90a3e0002fb70c874002fb50b08c002fb30a3a0002fb10a380002faf0b370002fad099cc002fab03758002fa90a3d4002fa70aff8002fa50b06c002fa309b9c002fa10b360002f9f0b380002f9d09a44002f9b09a30002f990afe8002f970b084002f950b050002f930c880002f910b394002f8f0a374002f8d09a14002f8b09a1c002f890afd4002f870b05c002f850a334002f830a49c002f810a454002f7f0a408002f7d0e4d4002f7b0e51c002f790a524002f77))
  (.nd (.lf
  0xae5000353a0ae980035380aedc0035100ae480035200ae840035220aee00035120ae8800352e0ae000035240aee400353e0ad4c0034960ad5400349e09bdc00347e0ad2400347c0ad5c0034a80ad980035140ad9c0034e60adcc0034d80add40034fe0ad780034dc0ad800034ea0ada00034e80ad840034b80ad7c0034de0ad880034e00add00034da0a6100034500a6140034560c740002c100c748002c120c74c002c1c0c768002c1a0c54c002c300c588002c820c548002c4209d4c002c4c0a478002c760c55c002c580c584002c620a474002c3c0c578002c780c580002c3e0c5b0002c440c5b4002c460c5bc002c520c5a4002c6a0c5ac002c900c550002c340c5a8002c840c5c0002c640c5c8002c480c560002c5a0c5d0002c860c58c002c7a0c5d8002c920c5dc002c6c0c564002c360c600002c540c5ec002c740c5fc002c8c0c61c002c980c610002c600c630002c8e0c638002c9a0c63c002c9c)
  (.lf 0))) (.nd (.nd (.lf
  0x1f22c0021cf1e2e40021cd1bc640021cb1f7980021c91f5640021c71f65c0021c51fd000021c31fc240021c11fc900021bf1fdc00021bd1fd2c0021bb1fcb00021b91c9fc0021b71d48c0021b51d2a40021b31d4040021b11bcbc0021af1e39c0021ad1c7840021ab1d1900021a91d4b40021a71d42c0021a51fdc40021a31fcd80021a11e23000219f1e41000219d1ddb400219b1e34c0021991d1780021971ba480021951fd380021931d5080021911ba4000218f1d3c800218d1ddcc00218b1e3240021891ba7c0021871fc340021851dde40021831bccc0021811ca6000217f1d2e800217d1ca4000217b1ca300021791ca0c0021771fc040021751f2800021731f1f80021711de0c00216f1f7a000216d1e24c00216b1f24c0021691fe800021671f7200021651f2340021631bc6c0021611f59400215f1de1400215d1f21c00215b1fd700021591ca580021571f5500021551f2640021531ddc0002151)
  (.lf 0)) (.nd (.lf
  0x1b18000f8121b18400f81c1b1a800f81a1ab1c00f8301ac9400f8821ac4c00f8421ac5000f84c1afd400f8761afe800f8581ac9000f8621afcc00f83c1afd800f8781afd000f83e1ac8800f8441acbc00f8461afe000f8521ac8400f86a1acc400f8901afc800f8341afc000f8841ac9800f8641afec00f8481aff000f85a1aff400f8861affc00f87a1b00000f8921aca000f86c1b00400f8361b02000f8541b00c00f8741b01c00f88c1b03c00f8981b03000f8601b05000f88e1b05800f89a1b05c00f89c1b06000f8a21b04c00f8aa1b05400f8a41b07800f8ac1b07c00f8c21b08000f8ae1b09400f8b01b0a800f9161b09800f8b21b0ac00f8b41b0b400f8d01b0c400f9001b09000f8ec1b0c800f8ba1b0a000f8c81b0cc00f8e21b0d000f8ca1b0d400f9261b0d800f8c41b0e000f8bc1b0e400f8f81b0ec00f8ce1b0f400f9321b0f800f8f61b11000f9021b11400f9281b11800f9181b11c00f90a)
  (.lf 0)))

def aesWireTree125 : BTree :=
  .nd (.nd (.nd (.lf
  0xedec0048f80eddc0048ce0edac0049320ee280048f60ee740049020edcc0049280ee100049180edbc00490a0edf80048be0ede80048d20edd800491c0eda80048ee0ee240048e40ee880049340ed4400485c0edb00048c60ee040048cc0ee300048f00ed380048940ed0800484a0ed280048800ed2c00488a0ed5c0048a00f11800490e0ed3c0048a60ee480049300ecdc0048380ed4800485e0ed1c0048720ede00048b60ee4400492c0ee780049040edb40048d60ed180048700ee3800492a0ee3400491a0e86000483a0ecec0048660ecfc0048880ed1400486e0e86400484e0ecc00048680e8f40048320ecbc0048400ee000048d40ee540048f40edfc0048c00ee2c0048fa0ee3c0048f20ee800049080ee400048fc0ee4c00493c0ee8c0049360ee7c0049060ee9400491e0ee9c00493a0ee900049380f1340049100ee980049200eea40049220f1380049120ee5c00492e0ee080049240f11c00493e)
  (.lf 0)) (.nd (.lf
  0x8910017ad008920017b00088ec017aec08924017aba088fc017ac808928017ae20892c017aca08930017b2608934017ac40893c017abc08940017af808944017ace0894c017b3208950017af608960017b0208964017b2808968017b180896c017b0a08970017abe08980017ad208988017b1c08994017aee0899c017ae4089dc017b3408884017a5c088f8017ac608938017acc089a0017af008880017a9408864017a4a08870017a8008874017a8a088a0017aa00903c017b0e08890017aa6089b0017b3008810017a3808888017a5e0885c017a720890c017ab6089ac017b2c08974017b0408900017ad608858017a70089a8017b2a089a4017b1a07c3c017a3a0883c017a6608848017a8808854017a6e087a4017a4e087f0017a68087ec017a3207bc8017a4008984017ad4089b8017af408978017ac008954017afa089b4017af2089c0017b0808958017afc0895c017b3c089e0017b360897c017b06)
  (.lf 0))) (.nd (.nd (.lf
  0x101d40072aa101dc0072a4102000072ac102040072c2102080072ae1021c0072b010230007316102200072b2102340072b41023c0072d01024c007300102180072ec102500072ba102280072c8102540072e2102580072ca1025c007326102600072c4102680072bc1026c0072f8102700072ce102780073321027c0072f61028c00730210290007328102940073181029800730a1029c0072be102ac0072d2102b400731c102c00072ee102c80072e410304007334101b000725c102240072c6102640072cc102cc0072f0101ac0072941017000724a1019c007280101a000728a101cc0072a0104c800730e101bc0072a6102dc00733010150007238101b400725e10190007272102380072b6102d800732c102a00073041022c0072d61018c007270102d400732a102d000731a0fe5c00723a10168007266101780072881018800726e0fe5800724e101340072680fde400723210130007240102b00072d4)
  (.lf 0)) (.nd (.lf
  0x172e800aafa1736400aaf21737000ab08172ec00aafc172f000ab3c1739800ab361731c00ab061732c00ab1e1733800ab3a1739c00ab381730800ab101733000ab201737c00ab221730c00ab121738400ab2e172d800ab24172f400ab3e1722000aa961722800aa9e163a000aa7e171f800aa7c1723000aaa81726c00ab141727000aae6172a000aad8172a800aafe1724c00aadc1725400aaea1727400aae81725800aab81725000aade1725c00aae0172a400aada171b400aa5016ebc00aa5615a5800a61015a6000a61215a6400a61c15a8800a61a158ac00a6301555c00a6821589c00a6421548000a64c155fc00a676158c000a658158a000a662155f400a63c1560000a678155f800a63e158a400a644158a800a646158b800a652155e800a66a155f000a690158b000a6341555400a684158c400a664158cc00a648158d000a65a1556000a6861560400a67a1560800a692158d400a66c158e400a636)
  (.lf 0)))

def aesWireTree126 : BTree :=
  .nd (.nd (.nd (.lf
  0xac0000e9000ae4000e3400ab4000e8400b0c000e6400b14000e4800b18000e5a00b1c000e8600b24000e7a00b28000e9200b2c000e6c00b3c000e3600b58000e5400b44000e7400b54000e8c00b74000e9800b68000e6000b88000e8e00b90000e9a00b94000e9c00b98000ea200b84000eaa00b8c000ea400bb0000eac00bb4000ec200bb8000eae00bcc000eb000be0000f1600bd0000eb200be4000eb400bec000ed000bfc000f0000bc8000eec00c00000eba00bd8000ec800c04000ee200c08000eca00c0c000f2600c10000ec400c18000ebc00c1c000ef800c20000ece00c28000f3200c2c000ef600c3c000f0200c40000f2800c44000f1800c48000f0a00c4c000ebe00c5c000ed200c64000f1c00c70000eee00c78000ee400cb4000f3400b60000e5c00bd4000ec600c14000ecc00c7c000ef000b5c000e9400b40000e4a00b4c000e8000b50000e8a00b7c000ea00351c000f0e00b6c000ea6)
  (.lf
  0x23c9800385322e9c00385122f0000384f22ef800384d22e9000384b22ee000384922f0800384722ecc00384522f1800384322598003841225dc00383f2264800383d225d400383b226440038392263c003837225f40038352263000383323acc00383123a6c00382f23b0c00382d23aa800382b23ac400382923b1c00382723b0800382523b18003823238140038212382400381f2379c00381d2380800381b237d8003819237fc0038172381c003815237c4003813213640038112133c00380f213c400380d2136c00380b2131400380921370003807213340038052132c00380321ba000380121bd00037ff21b3c0037fd21bb00037fb21bbc0037f921bc40037f721b7c0037f521b8c0037f322d580037f122ddc0037ef22dcc0037ed22d700037eb22de40037e922db00037e722dbc0037e522d680037e321d740037e121d940037df21dd80037dd21d9c0037db21d8c0037d9231540037d721df40037d5))
  (.nd (.lf
  0xa7080036620a68000363c0a6f40036780a70400363e0a6f80036440a6fc0036460a7180036520a6e800366a0a6f00036900a7100036340a6ec0036840a7240036640a72c0036480a64000365a0a7300036860a73800367a0a73c0036920a74000366c0a7500036360a76c0036540a7580036740a76800368c0a7880036980a77c0036600a79c00368e0a7a400369a0a7a800369c0a7ac0036a20a7980036aa0a7a00036a40a7c40036ac0a7c80036c20a7cc0036ae0a7e00036b00a7f40037160a7e40036b20a7f80036b40a8000036d00a8100037000a7dc0036ec0a8140036ba0a7ec0036c80a8180036e20a81c0036ca0a8200037260a8240036c40a82c0036bc0a8300036f80a8340036ce0a83c0037320a8400036f60a8500037020a8540037280a8580037180a85c00370a0a8600036be0a8700036d20a87800371c0a8840036ee0a88c0036e40a8c80037340a77400365c0a7e80036c60a8280036cc)
  (.lf 0))) (.nd (.nd (.lf
  0x97cc018ee6097fc018ed809804018efe097a8018edc097b0018eea097d0018ee8097b4018eb8097ac018ede097b8018ee009800018eda09710018e500966c018e5609560018810095680188120956c01881c0959001881a093b4018830090e0018882093a4018842090dc01884c08f5c018876093c8018858093a8018862090f001883c08f74018878090f401883e093ac018844093b0018846093c00188520907801886a09080018890093b80188340907c018884093cc018864093d4018848093d801885a090e401888608f7801887a090f8018892093dc01886c093ec01883609408018854093f40188740940401888c09424018898094180188600943801888e0944001889a0944401889c094480188a2094340188aa0943c0188a4094600188ac094640188c2094680188ae0947c0188b009490018916094800188b2094940188b40949c0188d0094ac018900094780188ec094b00188ba094880188c8)
  (.lf 0)) (.nd (.lf
  0x185d400a4ca185d800a526185dc00a4c4185e400a4bc185e800a4f8185f000a4ce185f800a532185fc00a4f61861400a5021861800a5281861c00a5181862000a50a1862c00a4be1863c00a4d21864400a51c1865000a4ee1865800a4e4186ac00a534185ec00a50c1852c00a45c185a000a4c6185e000a4cc1865c00a4f01852800a494184f000a44a1851800a4801851c00a48a1854800a4a01860000a50e1853800a4a61866c00a5301847000a4381853000a45e1850c00a472185b400a4b61866800a52c1863000a504185a800a4d61850800a4701866400a52a1866000a51a155ac00a43a184e800a466184f800a4881850400a46e1849000a44e184c400a468155a800a432184c000a4401864000a4d41867c00a4f41863400a4c01860400a4fa1867800a4f21868400a5081860800a4fc1860c00a53c186b000a5361863800a5061864800a51e1865400a53a186b400a5381862400a5101864c00a520)
  (.lf 0)))

def aesWireTree127 : BTree :=
  .nd (.nd (.nd (.lf
  0x1540c00199b15f58001999155140019971382400199514c68001993162ac001991137b400198f14d1000198d1383400198b15f500019891545000198714b50001985161b000198315f0c00198114cdc00197f146d000197d14b2000197b14204001979146b400197714208001975162e8001973148040019711484c00196f15f1800196d1674800196b154b4001969148a0001967161e0001965166e8001963147dc0019611558000195f1664c00195d15ee800195b14870001959161f0001957146c8001955165e00019531485800195115f6800194f1565800194d13a1c00194b16604001949146e8001947133dc0019451682c001943139d8001941167a800193f1441c00193d143f000193b15f78001939139c000193714b04001935133880019331538c0019311669000192f15f2400192d1624c00192b141dc0019291383800192714bf000192516254001923147f8001921165d000191f15f2000191d)
  (.lf 0)) (.nd (.lf
  0x647801672a0647401671a05a3001663a063140166660609c0166880632401666e062e401664e060340166680608001663205a2c016640064540166d4064880166f4064480166c0064240166fa064840166f206490016708064280166fc0642c01673c064cc0167360644c0167060645c01671e0646801673a064d001673807138016710064600167200649c0167220713c016712064a001672e064180167240714001673e063640166960636c01669e0604801667e0633c01667c063740166a8063b0016714063b40166e6063e40166d8063ec0166fe063900166dc063980166ea063b80166e80639c0166b8063940166de063a00166e0063e80166da06300016650063080166560f078004a100f080004a120f084004a1c0f0e0004a1a0e80c004a300e9b0004a820e808004a420e814004a4c0eef8004a760ef00004a580e9a8004a620eef0004a3c0eefc004a780eef4004a3e0e9a0004a440eee4004a46)
  (.lf 0))) (.nd (.nd (.lf
  0x127d00094941278400944a127ac009480127b000948a127cc0094a012d5400950e127dc0094a6128f4009530126b4009438127c000945e127a0009472128480094b6128e800952c128b0009504128340094d61279c009470128e400952a128e000951a1275800943a12754009466126c80094881279800946e1275000944e126a400946812638009432126a0009440128c00094d4129000094f4128b40094c0128900094fa128fc0094f212908009508128940094fc1289800953c12918009536128b8009506128c800951e128d400953a1291c00953812d60009510128cc0095201291000952212d64009512128ec00952e1288400952412d5800953e127d4009496127c800949e125e000947e127a800947c127e00094a8128180095141281c0094e61284c0094d8128540094fe127fc0094dc128040094ea128200094e8128080094b8128000094de1280c0094e0128500094da1277000945012778009456)
  (.lf 0)) (.nd (.lf
  0xa30000000a0a2e400040a09e8000020009dd400020c09d6400020a09d3000060c09d1400060a09cf800040009cc800040c09cc000080c09cbc00080a09cb000060009c8800060209c50000c0009bfc000c0209bf400080009be800080209be0000e0009bbc000e0209bb4000e0c09bb0000e0a09bac00140009ba800140209b9000140c09b8800140a09b7400160009b5400160209b3800160c09b2000160a09b1c001a0a09b1400180009b0000180209af800180a09af4001a0009ad8001a0209ad0001a0c21348012f0c237dc01250c09a4c001d0c22ce001230c099b0001f0c13c7c00750c043e801470c043c8014f0c0713001670c0cc9800210c0c2e000510c1186000790c0711001770c1623c009d0c03df8014b0c065b001630c09038017b0c0d2fc003f0c0a2c0003b0c0af1800330c0cc5c00270c1252000670c0600001590c05d1001650c06e2001710c08a5c017d0c03d6c00110c0d20c00390c)
  (.lf 0)))

/-- Claims and ranks of the wires: 44 bits each, 64 per leaf. -/
def aesWireTree : BTree :=
  .nd (.nd (.nd (.nd (.nd (.nd (.nd (aesWireTree0) (aesWireTree1)) (.nd (aesWireTree2) (aesWireTree3))) (.nd (.nd (aesWireTree4) (aesWireTree5)) (.nd
  (aesWireTree6) (aesWireTree7)))) (.nd (.nd (.nd (aesWireTree8) (aesWireTree9)) (.nd (aesWireTree10) (aesWireTree11))) (.nd (.nd (aesWireTree12) (aesWireTree13))
  (.nd (aesWireTree14) (aesWireTree15))))) (.nd (.nd (.nd (.nd (aesWireTree16) (aesWireTree17)) (.nd (aesWireTree18) (aesWireTree19))) (.nd (.nd (aesWireTree20)
  (aesWireTree21)) (.nd (aesWireTree22) (aesWireTree23)))) (.nd (.nd (.nd (aesWireTree24) (aesWireTree25)) (.nd (aesWireTree26) (aesWireTree27))) (.nd (.nd
  (aesWireTree28) (aesWireTree29)) (.nd (aesWireTree30) (aesWireTree31)))))) (.nd (.nd (.nd (.nd (.nd (aesWireTree32) (aesWireTree33)) (.nd (aesWireTree34)
  (aesWireTree35))) (.nd (.nd (aesWireTree36) (aesWireTree37)) (.nd (aesWireTree38) (aesWireTree39)))) (.nd (.nd (.nd (aesWireTree40) (aesWireTree41)) (.nd
  (aesWireTree42) (aesWireTree43))) (.nd (.nd (aesWireTree44) (aesWireTree45)) (.nd (aesWireTree46) (aesWireTree47))))) (.nd (.nd (.nd (.nd (aesWireTree48)
  (aesWireTree49)) (.nd (aesWireTree50) (aesWireTree51))) (.nd (.nd (aesWireTree52) (aesWireTree53)) (.nd (aesWireTree54) (aesWireTree55)))) (.nd (.nd (.nd
  (aesWireTree56) (aesWireTree57)) (.nd (aesWireTree58) (aesWireTree59))) (.nd (.nd (aesWireTree60) (aesWireTree61)) (.nd (aesWireTree62) (aesWireTree63)))))))
  (.nd (.nd (.nd (.nd (.nd (.nd (aesWireTree64) (aesWireTree65)) (.nd (aesWireTree66) (aesWireTree67))) (.nd (.nd (aesWireTree68) (aesWireTree69)) (.nd
  (aesWireTree70) (aesWireTree71)))) (.nd (.nd (.nd (aesWireTree72) (aesWireTree73)) (.nd (aesWireTree74) (aesWireTree75))) (.nd (.nd (aesWireTree76)
  (aesWireTree77)) (.nd (aesWireTree78) (aesWireTree79))))) (.nd (.nd (.nd (.nd (aesWireTree80) (aesWireTree81)) (.nd (aesWireTree82) (aesWireTree83))) (.nd (.nd
  (aesWireTree84) (aesWireTree85)) (.nd (aesWireTree86) (aesWireTree87)))) (.nd (.nd (.nd (aesWireTree88) (aesWireTree89)) (.nd (aesWireTree90) (aesWireTree91)))
  (.nd (.nd (aesWireTree92) (aesWireTree93)) (.nd (aesWireTree94) (aesWireTree95)))))) (.nd (.nd (.nd (.nd (.nd (aesWireTree96) (aesWireTree97)) (.nd
  (aesWireTree98) (aesWireTree99))) (.nd (.nd (aesWireTree100) (aesWireTree101)) (.nd (aesWireTree102) (aesWireTree103)))) (.nd (.nd (.nd (aesWireTree104)
  (aesWireTree105)) (.nd (aesWireTree106) (aesWireTree107))) (.nd (.nd (aesWireTree108) (aesWireTree109)) (.nd (aesWireTree110) (aesWireTree111))))) (.nd (.nd
  (.nd (.nd (aesWireTree112) (aesWireTree113)) (.nd (aesWireTree114) (aesWireTree115))) (.nd (.nd (aesWireTree116) (aesWireTree117)) (.nd (aesWireTree118)
  (aesWireTree119)))) (.nd (.nd (.nd (aesWireTree120) (aesWireTree121)) (.nd (aesWireTree122) (aesWireTree123))) (.nd (.nd (aesWireTree124) (aesWireTree125)) (.nd
  (aesWireTree126) (aesWireTree127)))))))

def aesSigTree0 : BTree :=
  .nd (.nd (.nd (.lf
  0x6800000000000000000000000000670000000000000000000000000066000000000000000000000000006500000000000000000000000000640000000000000000000000000063000000000000000000000000006200000000000000000000000000610000000000000000000000000070000000000000000000000000006f000000000000000000000000006e000000000000000000000000006d000000000000000000000000006c000000000000000000000000006b000000000000000000000000006a0000000000000000000000000069000000000000000000000000007800000000000000000000000000770000000000000000000000000076000000000000000000000000007500000000000000000000000000740000000000000000000000000073000000000000000000000000007200000000000000000000000000710000000000000000000000000080000000000000000000000000007f000000000000000000000000007e000000000000000000000000007d000000000000000000000000007c000000000000000000000000007b000000000000000000000000007a0000000000000000000000000079)
  (.lf
  0x20814fa93920000000000000082053c34eed3930000000000000000013c64ef93960000000000000000020814fb53950000000000000082053c64ef93960000000000000000000004e5d3960000000000000000013ee4f1d3bf000000000000004fbd3c04e61397000000000000004fc13c84ee53910000000000000000013f04fa93c8000000000000004fa53c14ee9392000000000000004fa93c24eed3930000000000000000013f04fb13c8000000000000004fad3c34ef13940000000000000000013e64f7538e0000000000000000020814f953b60000000000000082053e64f7538e0000000000000000020814ef53950000000000000082053f04fb53c8000000000020814fb13c44ef5395000000000000004fb53c54ef9396000000000000004fbd3ee4f193970000000000000000000004fc13ef0000000000000000013c74f01398000000000000004f253a84e853a00000000000000000020814f2d3a30000000000000000020814fcd39a0000000000000082053cb4e8d3a20000000000000000013ce4e993a50000000000000000020814fd939d0000000000000082053ce4e993a50000000000000000020814f993b7))
  (.nd (.lf
  0x431d0bf42f909600000000000000000000043010bf0000000000000000010f043210970000000000000043c10b9426109100000000000000000208142ed09300000000000000000208143a90920000000000000082050c342ed0930000000000000000010c642f909600000000000000000208143b50950000000000000082050c642f9096000000000000000000000425d0960000000000000000010ee431d0bf0000000000000043bd0c042610970000000000000043c10c842e50910000000000000000010f043a90c80000000000000043a50c142e90920000000000000043a90c242ed0930000000000000000010f043b10c80000000000000043ad0c342f10940000000000000000010e6437508e00000000000000000208143950b60000000000000082050e6437508e00000000000000000208142f50950000000000000082050f043b50c80000000000208143b10c442f50950000000000000043b50c542f90960000000000000043bd0ee431909700000000000000000000043c10ef0000000000000000010c743010980000000000000043250a842850a0000000000000000002081432d0a300000000000000000208143cd09a)
  (.lf
  0x10ef43b90c642fd097000000000010ee43b50c542f909600010f043b50ec43210c442f509500010f043b10eb43210c342f1094000000000010eb43a90c242ed09300010f043a90e943210c142e9092000000000010f043a50c842e5091000000000010ef43210c04261097000000000010ee431d0bf425d096000000000010ed43190be425909500010f043b10c542f5098425509400010f043ad0c442f10984251093000000000010ea430d0bb424d09200010f043a50c242e90984249091000000000010f043050b94261091000000000010f043210c042fd097000000000010ef431d0bf42f9096000000000010ee43190be42f509500010ed43150c042f50bc426109400010ec43110c042f10bb4261093000000000010eb430d0bb42e909200010ea43090c042e90b94261091000000000010e943050c042e5098000000000010f043210c742fd098000000000010ef431d0c642f9097000000000010ee43190c542f509600010ed43210c543110c042f109500010ec43210c4430d0c042ed094000000000010eb430d0c242e909300010ea43210c243050c042e5092000000000010e943210c14301091000000000010e743810b8424108f)))
  (.nd (.nd (.lf
  0x519000000000000000000000000051a000000000000000000000000051b000000000000000000000000051c000000000000000000000000051d000000000000000000000000051e000000000000000000000000051f0000000000000000000000000520000000000000000000000000051100000000000000000000000005120000000000000000000000000513000000000000000000000000051400000000000000000000000005150000000000000000000000000516000000000000000000000000051700000000000000000000000005180000000000000000000000000509000000000000000000000000050a000000000000000000000000050b000000000000000000000000050c000000000000000000000000050d000000000000000000000000050e000000000000000000000000050f000000000000000000000000051000000000000000000000000005010000000000000000000000000502000000000000000000000000050300000000000000000000000005040000000000000000000000000505000000000000000000000000050600000000000000000000000005070000000000000000000000000508)
  (.lf
  0x9c700000000000000000000000009c600000000000000000000000009c500000000000000000000000009c400000000000000000000000009c300000000000000000000000009c200000000000000000000000009c100000000000000000000000009d000000000000000000000000009cf00000000000000000000000009ce00000000000000000000000009cd00000000000000000000000009cc00000000000000000000000009cb00000000000000000000000009ca00000000000000000000000009c900000000000000000000000009d800000000000000000000000009d700000000000000000000000009d600000000000000000000000009d500000000000000000000000009d400000000000000000000000009d300000000000000000000000009d200000000000000000000000009d100000000000000000000000009e000000000000000000000000009df00000000000000000000000009de00000000000000000000000009dd00000000000000000000000009dc00000000000000000000000009db00000000000000000000000009da00000000000000000000000009d900000000000000000000000009e8))
  (.nd (.lf
  0x208148ed21300000000000000000208149a921200000000000000820524348ed21300000000000000000124648f921600000000000000000208149b521500000000000000820524648f9216000000000000000000000485d21600000000000000000126e491d23f0000000000000049bd24048612170000000000000049c124848e521100000000000000000127049a92480000000000000049a524148e92120000000000000049a924248ed21300000000000000000127049b12480000000000000049ad24348f1214000000000000000001266497520e0000000000000000020814995236000000000000008205266497520e00000000000000000208148f521500000000000000820527049b52480000000000208149b124448f52150000000000000049b524548f92160000000000000049bd26e491921700000000000000000000049c126f00000000000000000124749012180000000000000049252284885220000000000000000002081492d22300000000000000000208149cd21a00000000000000820524b488d22200000000000000000124e489922500000000000000000208149d921d00000000000000820524e4899225)
  (.lf
  0xd470000000000000000000000000d460000000000000000000000000d450000000000000000000000000d440000000000000000000000000d430000000000000000000000000d420000000000000000000000000d410000000000000000000000000d500000000000000000000000000d4f0000000000000000000000000d4e0000000000000000000000000d4d0000000000000000000000000d4c0000000000000000000000000d4b0000000000000000000000000d4a0000000000000000000000000d490000000000000000000000000d580000000000000000000000000d570000000000000000000000000d560000000000000000000000000d550000000000000000000000000d540000000000000000000000000d530000000000000000000000000d520000000000000000000000000d510000000000000000000000000d600000000000000000000000000d5f0000000000000000000000000d5e0000000000000000000000000d5d0000000000000000000000000d5c0000000000000000000000000d5b0000000000000000000000000d5a0000000000000000000000000d590000000000000000000000000d68)))

def aesSigTree1 : BTree :=
  .nd (.nd (.nd (.lf
  0x319000000000000000000000000031a000000000000000000000000031b000000000000000000000000031c000000000000000000000000031d000000000000000000000000031e000000000000000000000000031f0000000000000000000000000320000000000000000000000000031100000000000000000000000003120000000000000000000000000313000000000000000000000000031400000000000000000000000003150000000000000000000000000316000000000000000000000000031700000000000000000000000003180000000000000000000000000309000000000000000000000000030a000000000000000000000000030b000000000000000000000000030c000000000000000000000000030d000000000000000000000000030e000000000000000000000000030f000000000000000000000000031000000000000000000000000003010000000000000000000000000302000000000000000000000000030300000000000000000000000003040000000000000000000000000305000000000000000000000000030600000000000000000000000003070000000000000000000000000308)
  (.lf
  0x5179436000000000000000000000519540d000000000000000000000517d437000000000000000000000512942200000000000000000000051e9452000000000000000000000519940e00000000000000000000051d141c000000000000000000000512d423000000000000000000000519d40f00000000000000000000050a5401000000000000000000000518d45b00000000000000000000050c940a00000000000000000000050c540900000000000000000000050cd40b00000000000000000000051d541d00000000000000000000050e541100000000000000000000050e9412000000000000000000000513142400000000000000000000051a544100000000000000000000051ed45300000000000000000000050ed41300000000000000000000051d941e00000000000000000000051a944200000000000000000000050f141400000000000000000000051f940600000000000000000000051ad443000000000000000000000513542500000000000000000000050f541500000000000000000000051dd41f00000000000000000000050a940200000000000000000000051b144400000000000000000000050f9416))
  (.nd (.lf
  0x45fd157000000000000000000000452512100000000000000000000045e51510000000000000000000004575135000000000000000000000459110c00000000000000000000045cd11b0000000000000000000004579136000000000000000000000459510d000000000000000000000457d137000000000000000000000452912200000000000000000000045e9152000000000000000000000459910e00000000000000000000045d111c000000000000000000000452d123000000000000000000000459d10f00000000000000000000044a5101000000000000000000000458d15b00000000000000000000044c910a00000000000000000000044c510900000000000000000000044cd10b00000000000000000000045d511d00000000000000000000044e511100000000000000000000044e9112000000000000000000000453112400000000000000000000045a514100000000000000000000045ed15300000000000000000000044ed11300000000000000000000045d911e00000000000000000000045a914200000000000000000000044f111400000000000000000000045f910600000000000000000000045ad143)
  (.lf
  0x12ef4bb92c64afd297000000000012ee4bb52c54af929600012f04bb52ec4b212c44af529500012f04bb12eb4b212c34af1294000000000012eb4ba92c24aed29300012f04ba92e94b212c14ae9292000000000012f04ba52c84ae5291000000000012ef4b212c04a61297000000000012ee4b1d2bf4a5d296000000000012ed4b192be4a5929500012f04bb12c54af52984a5529400012f04bad2c44af12984a51293000000000012ea4b0d2bb4a4d29200012f04ba52c24ae92984a49291000000000012f04b052b94a61291000000000012f04b212c04afd297000000000012ef4b1d2bf4af9296000000000012ee4b192be4af529500012ed4b152c04af52bc4a6129400012ec4b112c04af12bb4a61293000000000012eb4b0d2bb4ae929200012ea4b092c04ae92b94a61291000000000012e94b052c04ae5298000000000012f04b212c74afd298000000000012ef4b1d2c64af9297000000000012ee4b192c54af529600012ed4b212c54b112c04af129500012ec4b212c44b0d2c04aed294000000000012eb4b0d2c24ae929300012ea4b212c24b052c04ae5292000000000012e94b212c14b01291000000000012e74b812b84a4128f)))
  (.nd (.nd (.lf
  0x820446800000000000000000000082044480000000000000000000008204428000000000000000000000820440800000000000000000000082043e700000000000000000000082043c700000000000000000000082043a70000000000000000000008204387000000000000000000000820436600000000000000000000082043460000000000000000000008204326000000000000000000000820430600000000000000000000082042e500000000000000000000082042c500000000000000000000082042a50000000000000000000008204285000000000000000000000820426400000000000000000000082042440000000000000000000008204224000000000000000000000820420400000000000000000000082041e300000000000000000000082041c300000000000000000000082041a30000000000000000000008204183000000000000000000000820416200000000000000000000082041420000000000000000000008204122000000000000000000000820410200000000000000000000082040e100000000000000000000082040c100000000000000000000082040a10000000000000000000008204081)
  (.lf
  0xbc70000000000000000000000000bc60000000000000000000000000bc50000000000000000000000000bc40000000000000000000000000bc30000000000000000000000000bc20000000000000000000000000bc10000000000000000000000000bd00000000000000000000000000bcf0000000000000000000000000bce0000000000000000000000000bcd0000000000000000000000000bcc0000000000000000000000000bcb0000000000000000000000000bca0000000000000000000000000bc90000000000000000000000000bd80000000000000000000000000bd70000000000000000000000000bd60000000000000000000000000bd50000000000000000000000000bd40000000000000000000000000bd30000000000000000000000000bd20000000000000000000000000bd10000000000000000000000000be00000000000000000000000000bdf0000000000000000000000000bde0000000000000000000000000bdd0000000000000000000000000bdc0000000000000000000000000bdb0000000000000000000000000bda0000000000000000000000000bd90000000000000000000000000be8))
  (.nd (.lf
  0x4b9128c0000000000000000000004bcd29b0000000000000000000004b792b60000000000000000000004b9528d0000000000000000000004b7d2b70000000000000000000004b292a20000000000000000000004be92d20000000000000000000004b9928e0000000000000000000004bd129c0000000000000000000004b2d2a30000000000000000000004b9d28f0000000000000000000004aa52810000000000000000000004b8d2db0000000000000000000004ac928a0000000000000000000004ac52890000000000000000000004acd28b0000000000000000000004bd529d0000000000000000000004ae52910000000000000000000004ae92920000000000000000000004b312a40000000000000000000004ba52c10000000000000000000004bed2d30000000000000000000004aed2930000000000000000000004bd929e0000000000000000000004ba92c20000000000000000000004af12940000000000000000000004bf92860000000000000000000004bad2c30000000000000000000004b352a50000000000000000000004af52950000000000000000000004bdd29f0000000000000000000004aa9282)
  (.lf 0)))

def aesSigTree2 : BTree :=
  .nd (.nd (.nd (.lf
  0x119000000000000000000000000011a000000000000000000000000011b000000000000000000000000011c000000000000000000000000011d000000000000000000000000011e000000000000000000000000011f0000000000000000000000000120000000000000000000000000011100000000000000000000000001120000000000000000000000000113000000000000000000000000011400000000000000000000000001150000000000000000000000000116000000000000000000000000011700000000000000000000000001180000000000000000000000000109000000000000000000000000010a000000000000000000000000010b000000000000000000000000010c000000000000000000000000010d000000000000000000000000010e000000000000000000000000010f000000000000000000000000011000000000000000000000000001010000000000000000000000000102000000000000000000000000010300000000000000000000000001040000000000000000000000000105000000000000000000000000010600000000000000000000000001070000000000000000000000000108)
  (.lf
  0x8205468518d41000000000000000000000051694090000000000000000014685185410000000000000000000000516d4330000000000000000014605171438000000000000000002081516540a00000000000000820546050e143100000000000000000000050d140c00000000000000000146550e141000000000000000000208151d144c000000000000008205478514142500000000000000000208151e145000000000000000000208151cd44b000000000000008205478514142400000000000000000000051c5449000000000000000001478514142200000000000000000000051d541c000000000000000001428509142000000000000000000208151d141b000000000000008205428508d42000000000000000000208150a142000000000000000000208151c9419000000000000008205428508542000000000000000000208151c141800000000000000000208151b1414000000000000008205470511541800000000000000000000051ad413000000000000000001470511141800000000000000000000051a54110000000000000000014705109418000000000000000000000501140300000000000000000148051ed408))
  (.nd (.lf
  0x44b512c000000000000000001130442110400000000000000000208145f515400000000000000820518045f1158000000000000000002081443110b000000000000008205168458d11000000000000000000000045691090000000000000000011684585110000000000000000000000456d1330000000000000000011604571138000000000000000002081456510a00000000000000820516044e113100000000000000000000044d110c00000000000000000116544e111000000000000000000208145d114c000000000000008205178454112500000000000000000208145e115000000000000000000208145cd14b000000000000008205178454112400000000000000000000045c5149000000000000000001178454112200000000000000000000045d511c000000000000000001128449112000000000000000000208145d111b000000000000008205128448d12000000000000000000208144a112000000000000000000208145c9119000000000000008205128448512000000000000000000208145c111800000000000000000208145b1114000000000000008205170451511800000000000000000000045ad113)
  (.lf
  0x11ef47b91c646fd197000000000011ee47b51c546f919600011f047b51ec47211c446f519500011f047b11eb47211c346f1194000000000011eb47a91c246ed19300011f047a91e947211c146e9192000000000011f047a51c846e5191000000000011ef47211c04661197000000000011ee471d1bf465d196000000000011ed47191be465919500011f047b11c546f5198465519400011f047ad1c446f11984651193000000000011ea470d1bb464d19200011f047a51c246e91984649191000000000011f047051b94661191000000000011f047211c046fd197000000000011ef471d1bf46f9196000000000011ee47191be46f519500011ed47151c046f51bc466119400011ec47111c046f11bb4661193000000000011eb470d1bb46e919200011ea47091c046e91b94661191000000000011e947051c046e5198000000000011f047211c746fd198000000000011ef471d1c646f9197000000000011ee47191c546f519600011ed47211c547111c046f119500011ec47211c4470d1c046ed194000000000011eb470d1c246e919300011ea47211c247051c046e5192000000000011e947211c14701191000000000011e747811b8464118f)))
  (.nd (.nd (.lf
  0x419000000000000000000000000041a000000000000000000000000041b000000000000000000000000041c000000000000000000000000041d000000000000000000000000041e000000000000000000000000041f0000000000000000000000000420000000000000000000000000041100000000000000000000000004120000000000000000000000000413000000000000000000000000041400000000000000000000000004150000000000000000000000000416000000000000000000000000041700000000000000000000000004180000000000000000000000000409000000000000000000000000040a000000000000000000000000040b000000000000000000000000040c000000000000000000000000040d000000000000000000000000040e000000000000000000000000040f000000000000000000000000041000000000000000000000000004010000000000000000000000000402000000000000000000000000040300000000000000000000000004040000000000000000000000000405000000000000000000000000040600000000000000000000000004070000000000000000000000000408)
  (.lf
  0xac70000000000000000000000000ac60000000000000000000000000ac50000000000000000000000000ac40000000000000000000000000ac30000000000000000000000000ac20000000000000000000000000ac10000000000000000000000000ad00000000000000000000000000acf0000000000000000000000000ace0000000000000000000000000acd0000000000000000000000000acc0000000000000000000000000acb0000000000000000000000000aca0000000000000000000000000ac90000000000000000000000000ad80000000000000000000000000ad70000000000000000000000000ad60000000000000000000000000ad50000000000000000000000000ad40000000000000000000000000ad30000000000000000000000000ad20000000000000000000000000ad10000000000000000000000000ae00000000000000000000000000adf0000000000000000000000000ade0000000000000000000000000add0000000000000000000000000adc0000000000000000000000000adb0000000000000000000000000ada0000000000000000000000000ad90000000000000000000000000ae8))
  (.nd (.lf
  0x20814bf52d40000000000000082053004bf12d80000000000000000020814ba12900000000000000000020814a3128b0000000000000082052e84b8d2900000000000000000000004b692890000000000000000012e84b852900000000000000000000004b6d2b30000000000000000012e04b712b80000000000000000020814b812b80000000000000000020814b6528a0000000000000082052e04ae12b10000000000000000000004ad128c0000000000000000012e54ae12900000000000000000020814bd12cc0000000000000082052f84b412a50000000000000000020814be12d00000000000000000020814bcd2cb0000000000000082052f84b412a40000000000000000000004bc52c90000000000000000012f84b412a20000000000000000000004bd529c0000000000000000012a84a912a00000000000000000020814bd129b0000000000000082052a84a8d2a00000000000000000020814aa12a00000000000000000020814bc92990000000000000082052a84a852a00000000000000000020814bc12980000000000000000020814bb12940000000000000082052f04b152980000000000000000000004bad293)
  (.lf 0)))

def aesSigTree3 : BTree :=
  .nd (.nd (.nd (.lf
  0x219000000000000000000000000021a000000000000000000000000021b000000000000000000000000021c000000000000000000000000021d000000000000000000000000021e000000000000000000000000021f0000000000000000000000000220000000000000000000000000021100000000000000000000000002120000000000000000000000000213000000000000000000000000021400000000000000000000000002150000000000000000000000000216000000000000000000000000021700000000000000000000000002180000000000000000000000000209000000000000000000000000020a000000000000000000000000020b000000000000000000000000020c000000000000000000000000020d000000000000000000000000020e000000000000000000000000020f000000000000000000000000021000000000000000000000000002010000000000000000000000000202000000000000000000000000020300000000000000000000000002040000000000000000000000000205000000000000000000000000020600000000000000000000000002070000000000000000000000000208)
  (.lf
  0x8c700000000000000000000000008c600000000000000000000000008c500000000000000000000000008c400000000000000000000000008c300000000000000000000000008c200000000000000000000000008c100000000000000000000000008d000000000000000000000000008cf00000000000000000000000008ce00000000000000000000000008cd00000000000000000000000008cc00000000000000000000000008cb00000000000000000000000008ca00000000000000000000000008c900000000000000000000000008d800000000000000000000000008d700000000000000000000000008d600000000000000000000000008d500000000000000000000000008d400000000000000000000000008d300000000000000000000000008d200000000000000000000000008d100000000000000000000000008e000000000000000000000000008df00000000000000000000000008de00000000000000000000000008dd00000000000000000000000008dc00000000000000000000000008db00000000000000000000000008da00000000000000000000000008d900000000000000000000000008e8))
  (.nd (.lf
  0x82051ff47f91d646bd1870000000000000047fd1d746c11880000000000000047e51d847451b000000000000000000000047491aa0000000000000000011fb474d1830000000000000000011d846c11850000000000000047f51d547511ac00000000000000000000047591d50000000000000000011fe46b51860000000000000047fd1d747591ae000000000000000000000475d1af00000000000000000120047611880000000000000047e51d146c118800000000000000000208147e91d20000000000000082051b046a91880000000000208147e91d246a51810000000000000047ed1d346a91820000000000000082051fc46c11880000000000000047511ac46ad18382051fc47511b046b11ab46211830000000000000047591ae46b518500000000000000000000046bd1ae0000000000000000011ff475d1860000000000000048011d846bd18700000000000000000208147711b40000000000000082051e047751b80000000000208147951dc46d118d0000000000000047991dd46d518e00000000000000479d1de46d918f0000000000000047a11df46dd1900000000000000047851d946e11900000000000000082051b846c9190)
  (.lf
  0x13ef4fb93c64efd397000000000013ee4fb53c54ef939600013f04fb53ec4f213c44ef539500013f04fb13eb4f213c34ef1394000000000013eb4fa93c24eed39300013f04fa93e94f213c14ee9392000000000013f04fa53c84ee5391000000000013ef4f213c04e61397000000000013ee4f1d3bf4e5d396000000000013ed4f193be4e5939500013f04fb13c54ef53984e5539400013f04fad3c44ef13984e51393000000000013ea4f0d3bb4e4d39200013f04fa53c24ee93984e49391000000000013f04f053b94e61391000000000013f04f213c04efd397000000000013ef4f1d3bf4ef9396000000000013ee4f193be4ef539500013ed4f153c04ef53bc4e6139400013ec4f113c04ef13bb4e61393000000000013eb4f0d3bb4ee939200013ea4f093c04ee93b94e61391000000000013e94f053c04ee5398000000000013f04f213c74efd398000000000013ef4f1d3c64ef9397000000000013ee4f193c54ef539600013ed4f213c54f113c04ef139500013ec4f213c44f0d3c04eed394000000000013eb4f0d3c24ee939300013ea4f213c24f053c04ee5392000000000013e94f213c14f01391000000000013e74f813b84e4138f)))
  (.nd (.nd (.lf
  0x8205066417500e0000000000000000020814195036000000000000000001066417500e0000000000000041ad04340f101400000000000000000107041b10480000000000000041a904240ed0130000000000000041a504140e901200000000000000000107041a90480000000000000041c104840e50110000000000000041bd040406101700000000000000000106e411d03f000000000000000000000405d01600000000000000820504640f901600000000000000000208141b501500000000000000000104640f901600000000000000820504340ed01300000000000000000208141a901200000000000000000208140ed0130000000000000041c103940610110000000000000000010704121017000000000000000000000410103f00000000000000411d03f40f90160000000000000041b904640f50150000000000208141b504540f101400000000000000820504040f5018000000000000000002081410101800000000000000000208140f10140000000000208141b104440ed01300000000000000820504040f10180000000000000041ad04340e9012820506a410904040e903940610110000000000000041a904240e5011)
  (.lf
  0xcc70000000000000000000000000cc60000000000000000000000000cc50000000000000000000000000cc40000000000000000000000000cc30000000000000000000000000cc20000000000000000000000000cc10000000000000000000000000cd00000000000000000000000000ccf0000000000000000000000000cce0000000000000000000000000ccd0000000000000000000000000ccc0000000000000000000000000ccb0000000000000000000000000cca0000000000000000000000000cc90000000000000000000000000cd80000000000000000000000000cd70000000000000000000000000cd60000000000000000000000000cd50000000000000000000000000cd40000000000000000000000000cd30000000000000000000000000cd20000000000000000000000000cd10000000000000000000000000ce00000000000000000000000000cdf0000000000000000000000000cde0000000000000000000000000cdd0000000000000000000000000cdc0000000000000000000000000cdb0000000000000000000000000cda0000000000000000000000000cd90000000000000000000000000ce8))
  (.nd (.lf
  0x13564cbd3070000000820537f4df93564cbd307000000000000004dfd3574cc1308000000000000004de53584d453300000000000000000000004d4932a00000000000000000137b4d4d3030000000000000000013584cc1305000000000000004df53554d5132c0000000000000000000004d5935500000000000000000137e4cb5306000000000000004dfd3574d5932e0000000000000000000004d5d32f0000000000000000013804d61308000000000000004de53514cc13080000000000000000020814de93520000000000000082053304ca9308000000000020814de93524ca5301000000000000004ded3534ca930200000000000000820537c4cc1308000000000000004d5132c4cad303820537c4d513304cb132b4c21303000000000000004d5932e4cb53050000000000000000000004cbd32e00000000000000000137f4d5d306000000000000004e013584cbd3070000000000000000020814d713340000000000000082053604d75338000000000020814d9535c4cd130d000000000000004d9935d4cd530e000000000000004d9d35e4cd930f000000000000004da135f4cdd310000000000000004d853594ce1310)
  (.lf 0)))

def aesSigTree4 : BTree :=
  .nd (.nd (.nd (.lf
  0x206800000000000000000000000020670000000000000000000000002066000000000000000000000000206500000000000000000000000020640000000000000000000000002063000000000000000000000000206200000000000000000000000020610000000000000000000000002070000000000000000000000000206f000000000000000000000000206e000000000000000000000000206d000000000000000000000000206c000000000000000000000000206b000000000000000000000000206a0000000000000000000000002069000000000000000000000000207800000000000000000000000020770000000000000000000000002076000000000000000000000000207500000000000000000000000020740000000000000000000000002073000000000000000000000000207200000000000000000000000020710000000000000000000000002080000000000000000000000000207f000000000000000000000000207e000000000000000000000000207d000000000000000000000000207c000000000000000000000000207b000000000000000000000000207a0000000000000000000000002079)
  (.lf
  0x4ead3830000000000000000000004eb53850000000000000000000004f3d3a70000000000000000000004f613b00000000000000000000004fa13e00000000000000000000004f213c000000000000000000000050013880000000000000000000004fc13980000000000000000000004ea13a00000000000000000000004fe13d00000000000000000000004ee13900000000000000000000004f813b80000000000000000000004fa13900000000000000000000004fe13a00000000000000000000004f013980000000000000000000004fc13c80000000000000000000004f413a800000000000000000000050013d80000000000000000000004ec1388000000000000004fa13e04ec53890000000000000000014004f55388000000000000004ff13ad4e153840000000000000000020814f593ae0000000000000000020814ff53850000000000000082053d64eb9386000000000000004ff93af4e1d3860000000000000000020814ffd3d80000000000000082053b04e213870000000000000050013d84ea53810000000000000082054004fe93d8000000000000004fe53d14ea938282054004fe93f94f613d14ea9382))
  (.nd (.lf
  0x43b50c500000000000000000000042bd087000000000000000000000431d0bf00000000000000000000043bd09700000000000000000000043510ac00000000000000000000043b90c600000000000000000000042ad08300000000000000000000042b5085000000000000000000000433d0a700000000000000000000043610b000000000000000000000043a10e000000000000000000000043210c0000000000000000000000440108800000000000000000000043c109800000000000000000000042a10a000000000000000000000043e10d000000000000000000000042e109000000000000000000000043810b800000000000000000000043a109000000000000000000000043e10a0000000000000000000000430109800000000000000000000043c10c800000000000000000000043410a800000000000000000000044010d800000000000000000000042c10880000000000000043a10e042c508900000000000000000110043550880000000000000043f10ad421508400000000000000000208143590ae00000000000000000208143f50850000000000000082050d642b90860000000000000043f90af421d086)
  (.lf
  0x116f45b914644fd1170000000000116e45b514544f9116000117045b516c452114444f5115000117045b116b452114344f11140000000000116b45a914244ed113000117045a9169452114144e91120000000000117045a514844e51110000000000116f452114044611170000000000116e451d13f445d1160000000000116d451913e4459115000117045b114544f51184455114000117045ad14444f111844511130000000000116a450d13b444d112000117045a514244e91184449111000000000011704505139446111100000000001170452114044fd1170000000000116f451d13f44f91160000000000116e451913e44f5115000116d451514044f513c4461114000116c451114044f113b44611130000000000116b450d13b44e9112000116a450914044e9139446111100000000001169450514044e511800000000001170452114744fd1180000000000116f451d14644f91170000000000116e451914544f5116000116d4521145451114044f1115000116c4521144450d14044ed1140000000000116b450d14244e9113000116a4521142450514044e51120000000000116945211414501111000000000011674581138444110f)))
  (.nd (.nd (.lf
  0x499000000000000000000000000049a000000000000000000000000049b000000000000000000000000049c000000000000000000000000049d000000000000000000000000049e000000000000000000000000049f00000000000000000000000004a0000000000000000000000000049100000000000000000000000004920000000000000000000000000493000000000000000000000000049400000000000000000000000004950000000000000000000000000496000000000000000000000000049700000000000000000000000004980000000000000000000000000489000000000000000000000000048a000000000000000000000000048b000000000000000000000000048c000000000000000000000000048d000000000000000000000000048e000000000000000000000000048f000000000000000000000000049000000000000000000000000004810000000000000000000000000482000000000000000000000000048300000000000000000000000004840000000000000000000000000485000000000000000000000000048600000000000000000000000004870000000000000000000000000488)
  (.lf
  0xa470000000000000000000000000a460000000000000000000000000a450000000000000000000000000a440000000000000000000000000a430000000000000000000000000a420000000000000000000000000a410000000000000000000000000a500000000000000000000000000a4f0000000000000000000000000a4e0000000000000000000000000a4d0000000000000000000000000a4c0000000000000000000000000a4b0000000000000000000000000a4a0000000000000000000000000a490000000000000000000000000a580000000000000000000000000a570000000000000000000000000a560000000000000000000000000a550000000000000000000000000a540000000000000000000000000a530000000000000000000000000a520000000000000000000000000a510000000000000000000000000a600000000000000000000000000a5f0000000000000000000000000a5e0000000000000000000000000a5d0000000000000000000000000a5c0000000000000000000000000a5b0000000000000000000000000a5a0000000000000000000000000a590000000000000000000000000a68))
  (.nd (.lf
  0x49b924600000000000000000000048ad20300000000000000000000048b5205000000000000000000000493d227000000000000000000000496123000000000000000000000049a126000000000000000000000049212400000000000000000000004a0120800000000000000000000049c121800000000000000000000048a122000000000000000000000049e125000000000000000000000048e1210000000000000000000000498123800000000000000000000049a121000000000000000000000049e1220000000000000000000000490121800000000000000000000049c124800000000000000000000049412280000000000000000000004a0125800000000000000000000048c12080000000000000049a126048c520900000000000000000128049552080000000000000049f122d4815204000000000000000002081495922e00000000000000000208149f520500000000000000820525648b92060000000000000049f922f481d20600000000000000000208149fd2580000000000000082052304821207000000000000004a0125848a520100000000000000820528049e92580000000000000049e525148a9202)
  (.lf 0)))

def aesSigTree5 : BTree :=
  .nd (.nd (.nd (.lf
  0x299000000000000000000000000029a000000000000000000000000029b000000000000000000000000029c000000000000000000000000029d000000000000000000000000029e000000000000000000000000029f00000000000000000000000002a0000000000000000000000000029100000000000000000000000002920000000000000000000000000293000000000000000000000000029400000000000000000000000002950000000000000000000000000296000000000000000000000000029700000000000000000000000002980000000000000000000000000289000000000000000000000000028a000000000000000000000000028b000000000000000000000000028c000000000000000000000000028d000000000000000000000000028e000000000000000000000000028f000000000000000000000000029000000000000000000000000002810000000000000000000000000282000000000000000000000000028300000000000000000000000002840000000000000000000000000285000000000000000000000000028600000000000000000000000002870000000000000000000000000288)
  (.lf
  0x8470000000000000000000000000846000000000000000000000000084500000000000000000000000008440000000000000000000000000843000000000000000000000000084200000000000000000000000008410000000000000000000000000850000000000000000000000000084f000000000000000000000000084e000000000000000000000000084d000000000000000000000000084c000000000000000000000000084b000000000000000000000000084a0000000000000000000000000849000000000000000000000000085800000000000000000000000008570000000000000000000000000856000000000000000000000000085500000000000000000000000008540000000000000000000000000853000000000000000000000000085200000000000000000000000008510000000000000000000000000860000000000000000000000000085f000000000000000000000000085e000000000000000000000000085d000000000000000000000000085c000000000000000000000000085b000000000000000000000000085a00000000000000000000000008590000000000000000000000000868))
  (.nd (.lf
  0x47c51ca468919982051f847c51ca46891a046691990000000000000047c91cb468d19a0000000000000082051f8468119c0000000000208147cd1cc469119b0000000000000082051f8468119d0000000000208147d11cd469519c0000000000000047d51ce469919d0000000000000047d91cf469d19e0000000000000047dd1d046a119f000000000000000002081479d1b80000000000000082051e8477d1900000000000000047e11f1474119900000000000000000208147cd19b00000000000000000208147c91ca0000000000000082051f3468d19b00000000000000000000047d51cd0000000000000000011f6469919e0000000000000000011f7469d19f00000000000000000208147d91ce0000000000000082051f7469d19f00000000000000000208147dd1cf0000000000000082051f846a11a00000000000000047c51d046a11990000000000000047c91c9468519a0000000000000082051d047291a80000000000208147c91c9468519a0000000000000047851e047651b80000000000000047cd1ca468919b00000000000000000208147d119c0000000000000082051d047311a80000000000208147d11cb468d19c)
  (.lf
  0x136f4db93464cfd3170000000000136e4db53454cf931600013704db536c4d213444cf531500013704db136b4d213434cf13140000000000136b4da93424ced31300013704da93694d213414ce9312000000000013704da53484ce53110000000000136f4d213404c613170000000000136e4d1d33f4c5d3160000000000136d4d1933e4c5931500013704db13454cf53184c5531400013704dad3444cf13184c513130000000000136a4d0d33b4c4d31200013704da53424ce93184c49311000000000013704d053394c61311000000000013704d213404cfd3170000000000136f4d1d33f4cf93160000000000136e4d1933e4cf5315000136d4d153404cf533c4c61314000136c4d113404cf133b4c613130000000000136b4d0d33b4ce9312000136a4d093404ce93394c61311000000000013694d053404ce5318000000000013704d213474cfd3180000000000136f4d1d3464cf93170000000000136e4d193454cf5316000136d4d213454d113404cf1315000136c4d213444d0d3404ced3140000000000136b4d0d3424ce9313000136a4d213424d053404ce5312000000000013694d213414d01311000000000013674d813384c4130f)))
  (.nd (.nd (.lf
  0x414102800000000000000000000041c1048000000000000000000000410101800000000000000000000041e102000000000000000000000041a1010000000000000000000000418103800000000000000000000040e101000000000000000000000041e105000000000000000000000040a102000000000000000000000041c10180000000000000000000004201008000000000000000000000412104000000000000000000000041a10600000000000000000000004161030000000000000000000000413d02700000000000000000000040b500500000000000000000000040ad00300000000000000000000041b9046000000000000000000000415102c00000000000000000000041bd017000000000000000000000411d03f00000000000000000000040bd00700000000000000000000041b5045000000000000000000000415902e00000000000000000000041f1004000000000000000000000413902600000000000000000000040f901600000000000000000000041b104400000000000000000000040a900200000000000000000000041dd01f00000000000000000000040f50150000000000000000000004135025)
  (.lf
  0xc470000000000000000000000000c460000000000000000000000000c450000000000000000000000000c440000000000000000000000000c430000000000000000000000000c420000000000000000000000000c410000000000000000000000000c500000000000000000000000000c4f0000000000000000000000000c4e0000000000000000000000000c4d0000000000000000000000000c4c0000000000000000000000000c4b0000000000000000000000000c4a0000000000000000000000000c490000000000000000000000000c580000000000000000000000000c570000000000000000000000000c560000000000000000000000000c550000000000000000000000000c540000000000000000000000000c530000000000000000000000000c520000000000000000000000000c510000000000000000000000000c600000000000000000000000000c5f0000000000000000000000000c5e0000000000000000000000000c5d0000000000000000000000000c5c0000000000000000000000000c5b0000000000000000000000000c5a0000000000000000000000000c590000000000000000000000000c68))
  (.nd (.lf
  0x4dc534a4c8931982053784dc534a4c893204c69319000000000000004dc934b4c8d31a0000000000000082053784c8131c000000000020814dcd34c4c9131b0000000000000082053784c8131d000000000020814dd134d4c9531c000000000000004dd534e4c9931d000000000000004dd934f4c9d31e000000000000004ddd3504ca131f0000000000000000020814d9d3380000000000000082053684d7d310000000000000004de13714d413190000000000000000020814dcd31b0000000000000000020814dc934a0000000000000082053734c8d31b0000000000000000000004dd534d0000000000000000013764c9931e0000000000000000013774c9d31f0000000000000000020814dd934e0000000000000082053774c9d31f0000000000000000020814ddd34f0000000000000082053784ca1320000000000000004dc53504ca1319000000000000004dc93494c8531a0000000000000082053504d29328000000000020814dc93494c8531a000000000000004d853604d65338000000000000004dcd34a4c8931b0000000000000000020814dd131c0000000000000082053504d31328000000000020814dd134b4c8d31c)
  (.lf 0)))

def aesSigTree6 : BTree :=
  .nd (.nd (.nd (.lf
  0x99000000000000000000000000009a000000000000000000000000009b000000000000000000000000009c000000000000000000000000009d000000000000000000000000009e000000000000000000000000009f00000000000000000000000000a0000000000000000000000000009100000000000000000000000000920000000000000000000000000093000000000000000000000000009400000000000000000000000000950000000000000000000000000096000000000000000000000000009700000000000000000000000000980000000000000000000000000089000000000000000000000000008a000000000000000000000000008b000000000000000000000000008c000000000000000000000000008d000000000000000000000000008e000000000000000000000000008f000000000000000000000000009000000000000000000000000000810000000000000000000000000082000000000000000000000000008300000000000000000000000000840000000000000000000000000085000000000000000000000000008600000000000000000000000000870000000000000000000000000088)
  (.lf
  0x820546851814380000000000000051a1431504140900000000000000000208150cd40b000000000000000002081518940a00000000000000820545b50cd40b00000000000000519145d50d540c000000000000008205468504140d00000000002081519145d50d540c00000000000000519545e50d940d00000000000000518945a50cd40b00000000000000519945f50dd40e00000000000000519d46050e140f0000000000000051a5448510544000000000000000000000050e941300000000000000000146b510d44200000000000000000000050f541600000000000000000146e5119445000000000000000000000511943e00000000000000000146f511d4170000000000000051c1448511d43f000000000000000002081518d45b00000000000000000208151a14600000000000000082054685181434000000000020815191463516d40c0000000000000051a5441510141800000000000000820544050e94180000000000000051a944250e5411820546a510944050e943950614110000000000000051ad44350e941200000000000000820544050f14180000000000208151b144450ed41300000000000000000208150f1414))
  (.nd (.lf
  0x82051684589161458115944c910a00000000000000000000044d510d000000000000000001166457913600000000000000000208144d910e000000000000008205167457d13700000000000000000208144dd10f00000000000000820516845811380000000000000045a1131444110900000000000000000208144cd10b000000000000000002081458910a00000000000000820515b44cd10b00000000000000459115d44d510c000000000000008205168444110d00000000002081459115d44d510c00000000000000459515e44d910d00000000000000458915a44cd10b00000000000000459915f44dd10e00000000000000459d16044e110f0000000000000045a5148450514000000000000000000000044e911300000000000000000116b450d14200000000000000000000044f511600000000000000000116e4519145000000000000000000000451913e00000000000000000116f451d1170000000000000045c1148451d13f000000000000000002081458d15b00000000000000000208145a11600000000000000082051684581134000000000020814591163456d10c0000000000000045a5141450111800000000000000820514044e9118)
  (.lf
  0x126f49b924648fd2170000000000126e49b524548f9216000127049b526c492124448f5215000127049b126b492124348f12140000000000126b49a924248ed213000127049a9269492124148e92120000000000127049a524848e52110000000000126f492124048612170000000000126e491d23f485d2160000000000126d491923e4859215000127049b124548f52184855214000127049ad24448f121848512130000000000126a490d23b484d212000127049a524248e92184849211000000000012704905239486121100000000001270492124048fd2170000000000126f491d23f48f92160000000000126e491923e48f5215000126d491524048f523c4861214000126c491124048f123b48612130000000000126b490d23b48e9212000126a490924048e9239486121100000000001269490524048e521800000000001270492124748fd2180000000000126f491d24648f92170000000000126e491924548f5216000126d4921245491124048f1215000126c4921244490d24048ed2140000000000126b490d24248e9213000126a4921242490524048e52120000000000126949212414901211000000000012674981238484120f)))
  (.nd (.nd (.lf
  0x399000000000000000000000000039a000000000000000000000000039b000000000000000000000000039c000000000000000000000000039d000000000000000000000000039e000000000000000000000000039f00000000000000000000000003a0000000000000000000000000039100000000000000000000000003920000000000000000000000000393000000000000000000000000039400000000000000000000000003950000000000000000000000000396000000000000000000000000039700000000000000000000000003980000000000000000000000000389000000000000000000000000038a000000000000000000000000038b000000000000000000000000038c000000000000000000000000038d000000000000000000000000038e000000000000000000000000038f000000000000000000000000039000000000000000000000000003810000000000000000000000000382000000000000000000000000038300000000000000000000000003840000000000000000000000000385000000000000000000000000038600000000000000000000000003870000000000000000000000000388)
  (.lf
  0xb470000000000000000000000000b460000000000000000000000000b450000000000000000000000000b440000000000000000000000000b430000000000000000000000000b420000000000000000000000000b410000000000000000000000000b500000000000000000000000000b4f0000000000000000000000000b4e0000000000000000000000000b4d0000000000000000000000000b4c0000000000000000000000000b4b0000000000000000000000000b4a0000000000000000000000000b490000000000000000000000000b580000000000000000000000000b570000000000000000000000000b560000000000000000000000000b550000000000000000000000000b540000000000000000000000000b530000000000000000000000000b520000000000000000000000000b510000000000000000000000000b600000000000000000000000000b5f0000000000000000000000000b5e0000000000000000000000000b5d0000000000000000000000000b5c0000000000000000000000000b5b0000000000000000000000000b5a0000000000000000000000000b590000000000000000000000000b68))
  (.nd (.lf
  0x20814ad928e0000000000000082052e74b7d2b70000000000000000020814add28f0000000000000082052e84b812b8000000000000004ba12b14a412890000000000000000020814acd28b0000000000000000020814b8928a0000000000000082052db4acd28b000000000000004b912dd4ad528c0000000000000082052e84a4128d000000000020814b912dd4ad528c000000000000004b952de4ad928d000000000000004b892da4acd28b000000000000004b992df4add28e000000000000004b9d2e04ae128f000000000000004ba52c84b052c00000000000000000000004ae92930000000000000000012eb4b0d2c20000000000000000000004af52960000000000000000012ee4b192c50000000000000000000004b192be0000000000000000012ef4b1d297000000000000004bc12c84b1d2bf0000000000000000020814b8d2db0000000000000000020814ba12e00000000000000082052e84b812b4000000000020814b912e34b6d28c000000000000004ba52c14b012980000000000000082052c04ae9298000000000000004ba92c24ae529182052ea4b092c04ae92b94a61291000000000000004bad2c34ae9292)
  (.lf 0)))

def aesSigTree7 : BTree :=
  .nd (.nd (.nd (.lf
  0x199000000000000000000000000019a000000000000000000000000019b000000000000000000000000019c000000000000000000000000019d000000000000000000000000019e000000000000000000000000019f00000000000000000000000001a0000000000000000000000000019100000000000000000000000001920000000000000000000000000193000000000000000000000000019400000000000000000000000001950000000000000000000000000196000000000000000000000000019700000000000000000000000001980000000000000000000000000189000000000000000000000000018a000000000000000000000000018b000000000000000000000000018c000000000000000000000000018d000000000000000000000000018e000000000000000000000000018f000000000000000000000000019000000000000000000000000001810000000000000000000000000182000000000000000000000000018300000000000000000000000001840000000000000000000000000185000000000000000000000000018600000000000000000000000001870000000000000000000000000188)
  (.lf
  0x9470000000000000000000000000946000000000000000000000000094500000000000000000000000009440000000000000000000000000943000000000000000000000000094200000000000000000000000009410000000000000000000000000950000000000000000000000000094f000000000000000000000000094e000000000000000000000000094d000000000000000000000000094c000000000000000000000000094b000000000000000000000000094a0000000000000000000000000949000000000000000000000000095800000000000000000000000009570000000000000000000000000956000000000000000000000000095500000000000000000000000009540000000000000000000000000953000000000000000000000000095200000000000000000000000009510000000000000000000000000960000000000000000000000000095f000000000000000000000000095e000000000000000000000000095d000000000000000000000000095c000000000000000000000000095b000000000000000000000000095a00000000000000000000000009590000000000000000000000000968))
  (.nd (.lf
  0x208148e521200000000000000820524849052400000000000000000000004991235000000000000000001268498125c000000000000000000000495125300000000000000000125848c122b000000000000000000000494522900000000000000000125848c120200000000000000000208146c118800000000000000000208148011d8000000000011d847451b046a5182000000000011d847511d346c11ab000000000011e847911e047711b5000000000011c847051c046e5192000000000011c8470d1c046ed194000000000011c847111c046f11950000000000120047e51d246211810000000000120047ed1884611183000000000011f047a51c24661191000000000011f047ad1c44661193000000000011f047b11c54661194000000000011f246a11a14681199000000000011f446a11a3468119b000000000011f546a11a4468119c000000000011f847c51d047251a2000000000011f847cd1d0472d1a4000000000011f847d11d047311a5000000000011e546e11b4464118c000000000011e047651b846c518a000000000011e047711db46e11b3000000000011e847851da4641189000000000011e8478d190463118b)
  (.lf
  0x146f51b944650fd4170000000000146e51b544550f9416000147051b546c512144450f5415000147051b146b512144350f14140000000000146b51a944250ed413000147051a9469512144150e94120000000000147051a544850e54110000000000146f512144050614170000000000146e511d43f505d4160000000000146d511943e5059415000147051b144550f54185055414000147051ad44450f141850514130000000000146a510d43b504d412000147051a544250e94185049411000000000014705105439506141100000000001470512144050fd4170000000000146f511d43f50f94160000000000146e511943e50f5415000146d511544050f543c5061414000146c511144050f143b50614130000000000146b510d43b50e9412000146a510944050e9439506141100000000001469510544050e541800000000001470512144750fd4180000000000146f511d44650f94170000000000146e511944550f5416000146d5121445511144050f1415000146c5121444510d44050ed4140000000000146b510d44250e9413000146a5121442510544050e54120000000000146951214415101411000000000014675181438504140f)))
  (.nd (.nd (.lf
  0x208142ed0940000000000000082050c8430d0c000000000000000000208143210c000000000000000000208142e50920000000000000082050c843050c000000000000000000000043910b50000000000000000010e843810dc00000000000000000000043510d30000000000000000010d842c10ab00000000000000000000043450a90000000000000000010d842c108200000000000000000105840c1002000000000000000000000414502900000000000000000105840c102b0000000000000000000004151053000000000000000001068418105c0000000000000000000004191035000000000000008205048410504000000000000000000208140e50120000000000000000020814121040000000000000008205048410d04000000000000000000208140ed014000000000000000001048411104000000000000000000000040f101500000000000000000108041e5008000000000000000000000414900100000000000000000108041ed0080000000000000000000004011003000000000000000001070410901800000000000000000000041a5011000000000000000001070411101800000000000000000000041ad013)
  (.lf
  0x106f41b904640fd0170000000000106e41b504540f9016000107041b506c412104440f5015000107041b106b412104340f10140000000000106b41a904240ed013000107041a9069412104140e90120000000000107041a504840e50110000000000106f412104040610170000000000106e411d03f405d0160000000000106d411903e4059015000107041b104540f50184055014000107041ad04440f101840510130000000000106a410d03b404d012000107041a504240e90184049011000000000010704105039406101100000000001070412104040fd0170000000000106f411d03f40f90160000000000106e411903e40f5015000106d411504040f503c4061014000106c411104040f103b40610130000000000106b410d03b40e9012000106a410904040e9039406101100000000001069410504040e501800000000001070412104740fd0180000000000106f411d04640f90170000000000106e411904540f5016000106d4121045411104040f1015000106c4121044410d04040ed0140000000000106b410d04240e9013000106a4121042410504040e50120000000000106941210414101011000000000010674181038404100f))
  (.nd (.lf
  0x82053c84f053c00000000000000000000004f913b50000000000000000013e84f813dc0000000000000000000004f513d30000000000000000013d84ec13ab0000000000000000000004f453a90000000000000000013d84ec13820000000000000000020814d413280000000000000000020814d013180000000000000000020814da13100000000000000000020814cc1308000000000013584d453304ca5302000000000013584d513534cc132b000000000013684d913604d71335000000000013484d053404ce5312000000000013484d0d3404ced314000000000013484d113404cf1315000000000013804de53524c21301000000000013804ded3084c11303000000000013704da53424c61311000000000013704dad3444c61313000000000013704db13454c61314000000000013724ca13214c81319000000000013744ca13234c8131b000000000013754ca13244c8131c000000000013784dc53504d25322000000000013784dcd3504d2d324000000000013784dd13504d31325000000000013654ce13344c4130c000000000013604d653384cc530a000000000013604d7135b4ce1333000000000013684d8535a4c41309)
  (.lf 0)))

def aesSigTree8 : BTree :=
  .nd (.nd (.nd (.lf
  0x2800000000000000000000000000270000000000000000000000000026000000000000000000000000002500000000000000000000000000240000000000000000000000000023000000000000000000000000002200000000000000000000000000210000000000000000000000000030000000000000000000000000002f000000000000000000000000002e000000000000000000000000002d000000000000000000000000002c000000000000000000000000002b000000000000000000000000002a0000000000000000000000000029000000000000000000000000003800000000000000000000000000370000000000000000000000000036000000000000000000000000003500000000000000000000000000340000000000000000000000000033000000000000000000000000003200000000000000000000000000310000000000000000000000000040000000000000000000000000003f000000000000000000000000003e000000000000000000000000003d000000000000000000000000003c000000000000000000000000003b000000000000000000000000003a0000000000000000000000000039)
  (.lf
  0x50013d84ebd3870000000000000000020814f713b40000000000000082053e04f753b8000000000020814f953dc4ed138d000000000000004f993dd4ed538e000000000000004f9d3de4ed938f000000000000004fa13df4edd390000000000000004f853d94ee13900000000000000082053b84ec9390000000000000004f893da4ec538982053e24f693b84ec93b14e41389000000000000004f8d3db4ec938a0000000000000000020814ee13900000000000000082053e44ee1390000000000020814f713b44ecd38b0000000000000082053e84f893e0000000000000004f853d94ec938a82053e84f893e14f813d94ec938a0000000000000000000004ed538d0000000000000000013e64f793b60000000000000000020814ed938e0000000000000082053e74f7d3b70000000000000000020814edd38f0000000000000082053e84f813b8000000000000004fa13b14e413890000000000000000020814ecd38b0000000000000000020814f8938a0000000000000082053db4ecd38b000000000000004f913dd4ed538c0000000000000082053e84e4138d000000000020814f913dd4ed538c000000000000004f953de4ed938d))
  (.nd (.lf
  0x82050fc42c10880000000000000043510ac42ad08382050fc43510b042b10ab42210830000000000000043590ae42b508500000000000000000000042bd0ae0000000000000000010ff435d0860000000000000044010d842bd08700000000000000000208143710b40000000000000082050e043750b80000000000208143950dc42d108d0000000000000043990dd42d508e00000000000000439d0de42d908f0000000000000043a10df42dd0900000000000000043850d942e10900000000000000082050b842c90900000000000000043890da42c508982050e243690b842c90b1424108900000000000000438d0db42c908a00000000000000000208142e10900000000000000082050e442e10900000000000208143710b442cd08b0000000000000082050e843890e00000000000000043850d942c908a82050e843890e143810d942c908a00000000000000000000042d508d0000000000000000010e643790b600000000000000000208142d908e0000000000000082050e7437d0b700000000000000000208142dd08f0000000000000082050e843810b80000000000000043a10b1424108900000000000000000208142cd08b)
  (.lf
  0x10ff435d0af42b9086000000000010fe43590ae42b508500010fd43550b042b50ac422108400010fc43510b042b10ab4221083000000000010fb434d0ab42a908200010fa43490b042a90a94221081000000000010f943450b042a50880000000000110043610d742bd088000000000010ff435d0d642b9087000000000010fe43590d542b508600010fd43610d543510b042b108500010fc43610d4434d0b042ad084000000000010fb434d0d242a908300010fa43610d243450b042a5082000000000010f943610d142c10810000000000110043fd0d742c1088000000000010ff43f90d642bd087000000000010fe43f50d542b9086000110043f50fc43610d442b5085000110043f10fb43610d342b1084000000000010fb43e90d242ad083000110043e90f943610d142a90820000000000110043e50d842a5081000000000010ff43610b04221087000000000010fe435d0af421d086000000000010fd43590ae4219085000110043f10d542b50884215084000110043ed0d442b10884211083000000000010fa434d0ab420d082000110043e50d242a908842090810000000000110043450a94221081000000000010f843410cf429d0a0)))
  (.nd (.nd (.lf
  0x559000000000000000000000000055a000000000000000000000000055b000000000000000000000000055c000000000000000000000000055d000000000000000000000000055e000000000000000000000000055f0000000000000000000000000560000000000000000000000000055100000000000000000000000005520000000000000000000000000553000000000000000000000000055400000000000000000000000005550000000000000000000000000556000000000000000000000000055700000000000000000000000005580000000000000000000000000549000000000000000000000000054a000000000000000000000000054b000000000000000000000000054c000000000000000000000000054d000000000000000000000000054e000000000000000000000000054f000000000000000000000000055000000000000000000000000005410000000000000000000000000542000000000000000000000000054300000000000000000000000005440000000000000000000000000545000000000000000000000000054600000000000000000000000005470000000000000000000000000548)
  (.lf
  0x9870000000000000000000000000986000000000000000000000000098500000000000000000000000009840000000000000000000000000983000000000000000000000000098200000000000000000000000009810000000000000000000000000990000000000000000000000000098f000000000000000000000000098e000000000000000000000000098d000000000000000000000000098c000000000000000000000000098b000000000000000000000000098a00000000000000000000000009890000000000000000000000000998000000000000000000000000099700000000000000000000000009960000000000000000000000000995000000000000000000000000099400000000000000000000000009930000000000000000000000000992000000000000000000000000099100000000000000000000000009a0000000000000000000000000099f000000000000000000000000099e000000000000000000000000099d000000000000000000000000099c000000000000000000000000099b000000000000000000000000099a000000000000000000000000099900000000000000000000000009a8))
  (.nd (.lf
  0x48bd22e00000000000000000127f495d206000000000000004a0125848bd2070000000000000000020814971234000000000000008205260497523800000000002081499525c48d120d00000000000000499925d48d520e00000000000000499d25e48d920f0000000000000049a125f48dd21000000000000000498525948e121000000000000000820523848c921000000000000000498925a48c52098205262496923848c9231484120900000000000000498d25b48c920a00000000000000000208148e121000000000000000820526448e121000000000002081497123448cd20b000000000000008205268498926000000000000000498525948c920a82052684989261498125948c920a00000000000000000000048d520d000000000000000001266497923600000000000000000208148d920e000000000000008205267497d23700000000000000000208148dd20f00000000000000820526849812380000000000000049a1231484120900000000000000000208148cd20b000000000000000002081498920a00000000000000820525b48cd20b00000000000000499125d48d520c000000000000008205268484120d)
  (.lf
  0xd070000000000000000000000000d060000000000000000000000000d050000000000000000000000000d040000000000000000000000000d030000000000000000000000000d020000000000000000000000000d010000000000000000000000000d100000000000000000000000000d0f0000000000000000000000000d0e0000000000000000000000000d0d0000000000000000000000000d0c0000000000000000000000000d0b0000000000000000000000000d0a0000000000000000000000000d090000000000000000000000000d180000000000000000000000000d170000000000000000000000000d160000000000000000000000000d150000000000000000000000000d140000000000000000000000000d130000000000000000000000000d120000000000000000000000000d110000000000000000000000000d200000000000000000000000000d1f0000000000000000000000000d1e0000000000000000000000000d1d0000000000000000000000000d1c0000000000000000000000000d1b0000000000000000000000000d1a0000000000000000000000000d190000000000000000000000000d28)))

def aesSigTree9 : BTree :=
  .nd (.nd (.nd (.lf
  0x359000000000000000000000000035a000000000000000000000000035b000000000000000000000000035c000000000000000000000000035d000000000000000000000000035e000000000000000000000000035f0000000000000000000000000360000000000000000000000000035100000000000000000000000003520000000000000000000000000353000000000000000000000000035400000000000000000000000003550000000000000000000000000356000000000000000000000000035700000000000000000000000003580000000000000000000000000349000000000000000000000000034a000000000000000000000000034b000000000000000000000000034c000000000000000000000000034d000000000000000000000000034e000000000000000000000000034f000000000000000000000000035000000000000000000000000003410000000000000000000000000342000000000000000000000000034300000000000000000000000003440000000000000000000000000345000000000000000000000000034600000000000000000000000003470000000000000000000000000348)
  (.lf
  0x2081520145800000000000000000208151414280000000000000000020814d813380000000000000000020814e013580000000000000000020814c012d8000000000000000002081490121800000000000000000208149812380000000000000000020814a01258000000000000000002081494122800000000000000000208147811b800000000000000000208147411a800000000000000000208147a1190000000000000000002081450111800000000000000000208143a1090000000000000000002081414102800000000000000000208141a101000000000000000000208140c10080000000000000000020814fe13a000000000000000000208151e142000000000000000000208147e11a000000000000000000208149e12200000000000000000020814be12a00000000000000000020814de132000000000000000000208141e102000000000000000000208143e10a000000000000000000208145e112000000000000000000208151a141000000000000000000208150c140800000000001458514543050a540200000000001458515145350c142b000000000014685191460517143500000000001448510544050e5412))
  (.nd (.lf
  0x208147d119b0000000000000082051a8468d1a000000000000000000208146a11a000000000000000000208147c91990000000000000082051a846851a000000000000000000208147c119800000000000000000208147b11940000000000000082051f0471519800000000000000000000047ad1930000000000000000011f0471119800000000000000000000047a51910000000000000000011f04709198000000000000000000000461118300000000000000000120047ed188000000000000000000000474918100000000000000000120047e518800000000000000000000046f11950000000000000000011c847111c000000000000000000208146ed1940000000000000082051c8470d1c000000000000000000208147211c000000000000000000208146e51920000000000000082051c847051c000000000000000000000047911b50000000000000000011e847811dc00000000000000000000047511d30000000000000000011d846c11ab00000000000000000000047451a90000000000000000011d846c1182000000000000000002081458113800000000000000000208146011580000000000000000020814541128)
  (.lf
  0x12ff4b5d2af4ab9286000000000012fe4b592ae4ab528500012fd4b552b04ab52ac4a2128400012fc4b512b04ab12ab4a21283000000000012fb4b4d2ab4aa928200012fa4b492b04aa92a94a21281000000000012f94b452b04aa5288000000000013004b612d74abd288000000000012ff4b5d2d64ab9287000000000012fe4b592d54ab528600012fd4b612d54b512b04ab128500012fc4b612d44b4d2b04aad284000000000012fb4b4d2d24aa928300012fa4b612d24b452b04aa5282000000000012f94b612d14ac1281000000000013004bfd2d74ac1288000000000012ff4bf92d64abd287000000000012fe4bf52d54ab928600013004bf52fc4b612d44ab528500013004bf12fb4b612d34ab1284000000000012fb4be92d24aad28300013004be92f94b612d14aa9282000000000013004be52d84aa5281000000000012ff4b612b04a21287000000000012fe4b5d2af4a1d286000000000012fd4b592ae4a1928500013004bf12d54ab52884a1528400013004bed2d44ab12884a11283000000000012fa4b4d2ab4a0d28200013004be52d24aa92884a09281000000000013004b452a94a21281000000000012f84b412cf4a9d2a0)))
  (.nd (.nd (.lf
  0x41f505500000000000000000000041c901a00000000000000000000041c5019000000000000000000000418905a000000000000000000000418505900000000000000000000041710340000000000103040b502c40210040000000000108041f507c416105400000000001068418d010403100b00000000001068418505a404100900000000001060417105b40e103300000000001060416503840c500a0000000000106540e1034404100c0000000000107841d105041310250000000000107841cd050412d0240000000000107841c505041250220000000000107540a1024408101c0000000000107440a1023408101b0000000000107240a102140810190000000000107041b104540610140000000000107041ad04440610130000000000107041a504240610110000000000108041ed00840110030000000000108041e5052402100100000000001048411104040f101500000000001048410d04040ed01400000000001048410504040e5012000000000010684191060417103500000000001058415105340c102b00000000001058414503040a500200000000000000000208141810380000000000000000020814201058)
  (.lf
  0xb870000000000000000000000000b860000000000000000000000000b850000000000000000000000000b840000000000000000000000000b830000000000000000000000000b820000000000000000000000000b810000000000000000000000000b900000000000000000000000000b8f0000000000000000000000000b8e0000000000000000000000000b8d0000000000000000000000000b8c0000000000000000000000000b8b0000000000000000000000000b8a0000000000000000000000000b890000000000000000000000000b980000000000000000000000000b970000000000000000000000000b960000000000000000000000000b950000000000000000000000000b940000000000000000000000000b930000000000000000000000000b920000000000000000000000000b910000000000000000000000000ba00000000000000000000000000b9f0000000000000000000000000b9e0000000000000000000000000b9d0000000000000000000000000b9c0000000000000000000000000b9b0000000000000000000000000b9a0000000000000000000000000b990000000000000000000000000ba8))
  (.nd (.lf
  0x20814dd131b0000000000000082053284c8d3200000000000000000020814ca13200000000000000000020814dc93190000000000000082053284c853200000000000000000020814dc13180000000000000000020814db13140000000000000082053704d153180000000000000000000004dad3130000000000000000013704d113180000000000000000000004da53110000000000000000013704d093180000000000000000000004c113030000000000000000013804ded3080000000000000000000004d493010000000000000000013804de53080000000000000000000004cf13150000000000000000013484d113400000000000000000020814ced3140000000000000082053484d0d3400000000000000000020814d213400000000000000000020814ce53120000000000000082053484d053400000000000000000000004d913350000000000000000013684d8135c0000000000000000000004d513530000000000000000013584cc132b0000000000000000000004d453290000000000000000013584cc13020000000000000000020814b412a8000000000012d84b452b04aa5282000000000012d84b512d34ac12ab)
  (.lf 0)))

def aesSigTree10 : BTree :=
  .nd (.nd (.nd (.lf
  0x159000000000000000000000000015a000000000000000000000000015b000000000000000000000000015c000000000000000000000000015d000000000000000000000000015e000000000000000000000000015f0000000000000000000000000160000000000000000000000000015100000000000000000000000001520000000000000000000000000153000000000000000000000000015400000000000000000000000001550000000000000000000000000156000000000000000000000000015700000000000000000000000001580000000000000000000000000149000000000000000000000000014a000000000000000000000000014b000000000000000000000000014c000000000000000000000000014d000000000000000000000000014e000000000000000000000000014f000000000000000000000000015000000000000000000000000001410000000000000000000000000142000000000000000000000000014300000000000000000000000001440000000000000000000000000145000000000000000000000000014600000000000000000000000001470000000000000000000000000148)
  (.lf
  0x144751014180000000000000051254285085420000000000000000002081512d42300000000000000000208151cd41a00000000000000820544b508d42200000000000000000144e509942500000000000000000208151d941d00000000000000820544e50994250000000000000000020815199437000000000000000001467517940f00000008205467519945e50dd40f00000000000000000208151dd41e00000000000000000144f509d42600000008205477513d427509941e00000000000000000000051e141f00000000000000000145050a14270000000000000051e14495085420000000000000008205478508141a0000000000000051c544a5089419820547851c544a508942050694190000000000000051c944b508d41a000000000000008205478508141c0000000000208151cd44c509141b000000000000008205478508141d0000000000208151d144d509541c0000000000000051d544e509941d0000000000000051d944f509d41e0000000000000051dd45050a141f000000000000000002081519d438000000000000008205468517d4100000000000000051e1471514141900000000000000000208151cd41b))
  (.nd (.lf
  0x820517045b51480000000000208145b114444f51150000000000000045b514544f91160000000000000045bd16e451911700000000000000000000045c116f00000000000000000114745011180000000000000045251284485120000000000000000002081452d12300000000000000000208145cd11a00000000000000820514b448d12200000000000000000114e449912500000000000000000208145d911d00000000000000820514e44991250000000000000000020814599137000000000000000001167457910f00000008205167459915e44dd10f00000000000000000208145dd11e00000000000000000114f449d12600000008205177453d127449911e00000000000000000000045e111f00000000000000000115044a11270000000000000045e11494485120000000000000008205178448111a0000000000000045c514a4489119820517845c514a448912044691190000000000000045c914b448d11a000000000000008205178448111c0000000000208145cd14c449111b000000000000008205178448111d0000000000208145d114d449511c0000000000000045d514e449911d0000000000000045d914f449d11e)
  (.lf
  0x11ff475d1af46b9186000000000011fe47591ae46b518500011fd47551b046b51ac462118400011fc47511b046b11ab4621183000000000011fb474d1ab46a918200011fa47491b046a91a94621181000000000011f947451b046a51880000000000120047611d746bd188000000000011ff475d1d646b9187000000000011fe47591d546b518600011fd47611d547511b046b118500011fc47611d4474d1b046ad184000000000011fb474d1d246a918300011fa47611d247451b046a5182000000000011f947611d146c11810000000000120047fd1d746c1188000000000011ff47f91d646bd187000000000011fe47f51d546b9186000120047f51fc47611d446b5185000120047f11fb47611d346b1184000000000011fb47e91d246ad183000120047e91f947611d146a91820000000000120047e51d846a5181000000000011ff47611b04621187000000000011fe475d1af461d186000000000011fd47591ae4619185000120047f11d546b51884615184000120047ed1d446b11884611183000000000011fa474d1ab460d182000120047e51d246a918846091810000000000120047451a94621181000000000011f847411cf469d1a0)))
  (.nd (.nd (.lf
  0x459000000000000000000000000045a000000000000000000000000045b000000000000000000000000045c000000000000000000000000045d000000000000000000000000045e000000000000000000000000045f0000000000000000000000000460000000000000000000000000045100000000000000000000000004520000000000000000000000000453000000000000000000000000045400000000000000000000000004550000000000000000000000000456000000000000000000000000045700000000000000000000000004580000000000000000000000000449000000000000000000000000044a000000000000000000000000044b000000000000000000000000044c000000000000000000000000044d000000000000000000000000044e000000000000000000000000044f000000000000000000000000045000000000000000000000000004410000000000000000000000000442000000000000000000000000044300000000000000000000000004440000000000000000000000000445000000000000000000000000044600000000000000000000000004470000000000000000000000000448)
  (.lf
  0xa870000000000000000000000000a860000000000000000000000000a850000000000000000000000000a840000000000000000000000000a830000000000000000000000000a820000000000000000000000000a810000000000000000000000000a900000000000000000000000000a8f0000000000000000000000000a8e0000000000000000000000000a8d0000000000000000000000000a8c0000000000000000000000000a8b0000000000000000000000000a8a0000000000000000000000000a890000000000000000000000000a980000000000000000000000000a970000000000000000000000000a960000000000000000000000000a950000000000000000000000000a940000000000000000000000000a930000000000000000000000000a920000000000000000000000000a910000000000000000000000000aa00000000000000000000000000a9f0000000000000000000000000a9e0000000000000000000000000a9d0000000000000000000000000a9c0000000000000000000000000a9b0000000000000000000000000a9a0000000000000000000000000a990000000000000000000000000aa8))
  (.nd (.lf
  0x4bb52c54af9296000000000000004bbd2ee4b192970000000000000000000004bc12ef0000000000000000012c74b01298000000000000004b252a84a852a00000000000000000020814b2d2a30000000000000000020814bcd29a0000000000000082052cb4a8d2a20000000000000000012ce4a992a50000000000000000020814bd929d0000000000000082052ce4a992a50000000000000000020814b992b70000000000000000012e74b7928f000000082052e74b992de4add28f0000000000000000020814bdd29e0000000000000000012cf4a9d2a6000000082052f74b3d2a74a9929e0000000000000000000004be129f0000000000000000012d04aa12a7000000000000004be12c94a852a00000000000000082052f84a8129a000000000000004bc52ca4a8929982052f84bc52ca4a892a04a69299000000000000004bc92cb4a8d29a0000000000000082052f84a8129c000000000020814bcd2cc4a9129b0000000000000082052f84a8129d000000000020814bd12cd4a9529c000000000000004bd52ce4a9929d000000000000004bd92cf4a9d29e000000000000004bdd2d04aa129f0000000000000000020814b9d2b8)
  (.lf 0)))

def aesSigTree11 : BTree :=
  .nd (.nd (.nd (.lf
  0x259000000000000000000000000025a000000000000000000000000025b000000000000000000000000025c000000000000000000000000025d000000000000000000000000025e000000000000000000000000025f0000000000000000000000000260000000000000000000000000025100000000000000000000000002520000000000000000000000000253000000000000000000000000025400000000000000000000000002550000000000000000000000000256000000000000000000000000025700000000000000000000000002580000000000000000000000000249000000000000000000000000024a000000000000000000000000024b000000000000000000000000024c000000000000000000000000024d000000000000000000000000024e000000000000000000000000024f000000000000000000000000025000000000000000000000000002410000000000000000000000000242000000000000000000000000024300000000000000000000000002440000000000000000000000000245000000000000000000000000024600000000000000000000000002470000000000000000000000000248)
  (.lf
  0x8870000000000000000000000000886000000000000000000000000088500000000000000000000000008840000000000000000000000000883000000000000000000000000088200000000000000000000000008810000000000000000000000000890000000000000000000000000088f000000000000000000000000088e000000000000000000000000088d000000000000000000000000088c000000000000000000000000088b000000000000000000000000088a00000000000000000000000008890000000000000000000000000898000000000000000000000000089700000000000000000000000008960000000000000000000000000895000000000000000000000000089400000000000000000000000008930000000000000000000000000892000000000000000000000000089100000000000000000000000008a0000000000000000000000000089f000000000000000000000000089e000000000000000000000000089d000000000000000000000000089c000000000000000000000000089b000000000000000000000000089a000000000000000000000000089900000000000000000000000008a8))
  (.nd (.lf
  0x47a51c100000000000000000000047ed1d300000000000000000000046ed19300000000000000000000047d919e00000000000000000000047a91c200000000000000000000046f119400000000000000000000047f918600000000000000000000047ad1c300000000000000000000047351a500000000000000000000046f519500000000000000000000047dd19f00000000000000000000046a918200000000000000000000047b11c400000000000000000000046f919600000000000000000000047391a600000000000000000000047f118400000000000000000000047591ae00000000000000000000047b51c500000000000000000000046bd187000000000000000000000471d1bf00000000000000000000047bd19700000000000000000000047511ac00000000000000000000047b91c600000000000000000000046ad18300000000000000000000046b5185000000000000000000000473d1a700000000000000000000047611b000000000000000000000047a11e000000000000000000000047211c0000000000000000000000480118800000000000000000000047c119800000000000000000000046a11a0)
  (.lf
  0x13ff4f5d3af4eb9386000000000013fe4f593ae4eb538500013fd4f553b04eb53ac4e2138400013fc4f513b04eb13ab4e21383000000000013fb4f4d3ab4ea938200013fa4f493b04ea93a94e21381000000000013f94f453b04ea5388000000000014004f613d74ebd388000000000013ff4f5d3d64eb9387000000000013fe4f593d54eb538600013fd4f613d54f513b04eb138500013fc4f613d44f4d3b04ead384000000000013fb4f4d3d24ea938300013fa4f613d24f453b04ea5382000000000013f94f613d14ec1381000000000014004ffd3d74ec1388000000000013ff4ff93d64ebd387000000000013fe4ff53d54eb938600014004ff53fc4f613d44eb538500014004ff13fb4f613d34eb1384000000000013fb4fe93d24ead38300014004fe93f94f613d14ea9382000000000014004fe53d84ea5381000000000013ff4f613b04e21387000000000013fe4f5d3af4e1d386000000000013fd4f593ae4e1938500014004ff13d54eb53884e1538400014004fed3d44eb13884e11383000000000013fa4f4d3ab4e0d38200014004fe53d24ea93884e09381000000000014004f453a94e21381000000000013f84f413cf4e9d3a0)))
  (.nd (.nd (.lf
  0x414d00200000000000000420102940210010000000000000041e104f409d0200000000000000041dd04e409901f0000000000000041d904d409501e0000000000208141d504c409101d000000000000008205050413502800000000000000000208141d501d0000000000208141d104b408d01c000000000000008205050413102800000000000000000208141d101c0000000000000041cd04a408901b00000000000000418506041650380000000000208141c9049408501a00000000000000820505041290280000000000000041c9049408501a0000000000000041c505040a101900000000000000820507840a102000000000000000000208141dd04f000000000000008205077409d01f00000000000000000208141d904e000000000000000001077409d01f000000000000000001076409901e00000000000000000000041d504d000000000000008205073408d01b00000000000000000208141c904a00000000000000000208141cd01b0000000000000041e10714141019000000000000008205068417d010000000000000000002081419d0380000000000000041dd05040a101f0000000000000041d904f409d01e)
  (.lf
  0xc870000000000000000000000000c860000000000000000000000000c850000000000000000000000000c840000000000000000000000000c830000000000000000000000000c820000000000000000000000000c810000000000000000000000000c900000000000000000000000000c8f0000000000000000000000000c8e0000000000000000000000000c8d0000000000000000000000000c8c0000000000000000000000000c8b0000000000000000000000000c8a0000000000000000000000000c890000000000000000000000000c980000000000000000000000000c970000000000000000000000000c960000000000000000000000000c950000000000000000000000000c940000000000000000000000000c930000000000000000000000000c920000000000000000000000000c910000000000000000000000000ca00000000000000000000000000c9f0000000000000000000000000c9e0000000000000000000000000c9d0000000000000000000000000c9c0000000000000000000000000c9b0000000000000000000000000c9a0000000000000000000000000c990000000000000000000000000ca8))
  (.nd (.lf
  0x4d313240000000000000000000004da53410000000000000000000004ded3530000000000000000000004ced3130000000000000000000004dd931e0000000000000000000004da93420000000000000000000004cf13140000000000000000000004df93060000000000000000000004dad3430000000000000000000004d353250000000000000000000004cf53150000000000000000000004ddd31f0000000000000000000004ca93020000000000000000000004db13440000000000000000000004cf93160000000000000000000004d393260000000000000000000004df13040000000000000000000004d5932e0000000000000000000004db53450000000000000000000004cbd3070000000000000000000004d1d33f0000000000000000000004dbd3170000000000000000000004d5132c0000000000000000000004db93460000000000000000000004cad3030000000000000000000004cb53050000000000000000000004d3d3270000000000000000000004d613300000000000000000000004da13600000000000000000000004d213400000000000000000000004e013080000000000000000000004dc1318)
  (.lf 0)))

def aesSigTree12 : BTree :=
  .nd (.nd (.nd (.lf
  0x202800000000000000000000000020270000000000000000000000002026000000000000000000000000202500000000000000000000000020240000000000000000000000002023000000000000000000000000202200000000000000000000000020210000000000000000000000002030000000000000000000000000202f000000000000000000000000202e000000000000000000000000202d000000000000000000000000202c000000000000000000000000202b000000000000000000000000202a0000000000000000000000002029000000000000000000000000203800000000000000000000000020370000000000000000000000002036000000000000000000000000203500000000000000000000000020340000000000000000000000002033000000000000000000000000203200000000000000000000000020310000000000000000000000002040000000000000000000000000203f000000000000000000000000203e000000000000000000000000203d000000000000000000000000203c000000000000000000000000203b000000000000000000000000203a0000000000000000000000002039)
  (.lf
  0x13f54ea13a44e8139c000000000013f84fc53d04f253a2000000000013f84fcd3d04f2d3a4000000000013f84fd13d04f313a5000000000013e54ee13b44e4138c000000000013e04f653b84ec538a000000000013e04f713db4ee13b3000000000013e84f853da4e41389000000000013e84f8d3904e3138b000000000014004ff53fc4f613d4000000000013b04eb53ac4e213840000000000000000000004f713b40000000000000000000004f853d90000000000000000000004f893da0000000000000000000004fc53990000000000000000000004fc939a0000000000000000000004ff53d50000000000000000000004ffd3d70000000000000000000004f253a10000000000000000000004fe53d10000000000000000000004f753b50000000000000000000004f9138c0000000000000000000004fcd39b0000000000000000000004f793b60000000000000000000004f9538d0000000000000000000004f7d3b70000000000000000000004f293a20000000000000000000004fe93d20000000000000000000004f9938e0000000000000000000004fd139c0000000000000000000004f2d3a30000000000000000000004f9d38f))
  (.nd (.lf
  0x110043ed0884211083000000000010f043a50c24261091000000000010f043ad0c44261093000000000010f043b10c54261094000000000010f242a10a14281099000000000010f442a10a3428109b000000000010f542a10a4428109c000000000010f843c50d043250a2000000000010f843cd0d0432d0a4000000000010f843d10d043310a5000000000010e542e10b4424108c000000000010e043650b842c508a000000000010e043710db42e10b3000000000010e843850da4241089000000000010e8438d090423108b0000000000110043f50fc43610d4000000000010b042b50ac422108400000000000000000000043710b400000000000000000000043850d900000000000000000000043890da00000000000000000000043c509900000000000000000000043c909a00000000000000000000043f50d500000000000000000000043fd0d700000000000000000000043250a100000000000000000000043e50d100000000000000000000043750b5000000000000000000000439108c00000000000000000000043cd09b00000000000000000000043790b6000000000000000000000439508d000000000000000000000437d0b7)
  (.lf
  0x117f455d12f44b91060000000000117e455912e44b5105000117d455513044b512c4421104000117c455113044b112b44211030000000000117b454d12b44a9102000117a454913044a9129442110100000000001179454513044a510800000000001180456115744bd1080000000000117f455d15644b91070000000000117e455915544b5106000117d4561155455113044b1105000117c4561154454d13044ad1040000000000117b454d15244a9103000117a4561152454513044a510200000000001179456115144c11010000000000118045fd15744c11080000000000117f45f915644bd1070000000000117e45f515544b9106000118045f517c456115444b5105000118045f117b456115344b11040000000000117b45e915244ad103000118045e9179456115144a91020000000000118045e515844a51010000000000117f456113044211070000000000117e455d12f441d1060000000000117d455912e4419105000118045f115544b51084415104000118045ed15444b110844111030000000000117a454d12b440d102000118045e515244a91084409101000000000011804545129442110100000000001178454114f449d120)))
  (.nd (.nd (.lf
  0x4d900000000000000000000000004da00000000000000000000000004db00000000000000000000000004dc00000000000000000000000004dd00000000000000000000000004de00000000000000000000000004df00000000000000000000000004e000000000000000000000000004d100000000000000000000000004d200000000000000000000000004d300000000000000000000000004d400000000000000000000000004d500000000000000000000000004d600000000000000000000000004d700000000000000000000000004d800000000000000000000000004c900000000000000000000000004ca00000000000000000000000004cb00000000000000000000000004cc00000000000000000000000004cd00000000000000000000000004ce00000000000000000000000004cf00000000000000000000000004d000000000000000000000000004c100000000000000000000000004c200000000000000000000000004c300000000000000000000000004c400000000000000000000000004c500000000000000000000000004c600000000000000000000000004c700000000000000000000000004c8)
  (.lf
  0xa070000000000000000000000000a060000000000000000000000000a050000000000000000000000000a040000000000000000000000000a030000000000000000000000000a020000000000000000000000000a010000000000000000000000000a100000000000000000000000000a0f0000000000000000000000000a0e0000000000000000000000000a0d0000000000000000000000000a0c0000000000000000000000000a0b0000000000000000000000000a0a0000000000000000000000000a090000000000000000000000000a180000000000000000000000000a170000000000000000000000000a160000000000000000000000000a150000000000000000000000000a140000000000000000000000000a130000000000000000000000000a120000000000000000000000000a110000000000000000000000000a200000000000000000000000000a1f0000000000000000000000000a1e0000000000000000000000000a1d0000000000000000000000000a1c0000000000000000000000000a1b0000000000000000000000000a1a0000000000000000000000000a190000000000000000000000000a28))
  (.nd (.lf
  0x127448a1223488121b0000000000127548a1224488121c0000000000127849c525049252220000000000127849cd250492d2240000000000127849d125049312250000000000126548e1234484120c00000000001260496523848c520a00000000001260497125b48e123300000000001268498525a484120900000000001268498d210483120b0000000000128049f527c49612540000000000123048b522c482120400000000000000000000049712340000000000000000000004985259000000000000000000000498925a00000000000000000000049c521900000000000000000000049c921a00000000000000000000049f525500000000000000000000049fd257000000000000000000000492522100000000000000000000049e52510000000000000000000004975235000000000000000000000499120c00000000000000000000049cd21b0000000000000000000004979236000000000000000000000499520d000000000000000000000497d237000000000000000000000492922200000000000000000000049e9252000000000000000000000499920e00000000000000000000049d121c000000000000000000000492d223)
  (.lf 0)))

def aesSigTree13 : BTree :=
  .nd (.nd (.nd (.lf
  0x2d900000000000000000000000002da00000000000000000000000002db00000000000000000000000002dc00000000000000000000000002dd00000000000000000000000002de00000000000000000000000002df00000000000000000000000002e000000000000000000000000002d100000000000000000000000002d200000000000000000000000002d300000000000000000000000002d400000000000000000000000002d500000000000000000000000002d600000000000000000000000002d700000000000000000000000002d800000000000000000000000002c900000000000000000000000002ca00000000000000000000000002cb00000000000000000000000002cc00000000000000000000000002cd00000000000000000000000002ce00000000000000000000000002cf00000000000000000000000002d000000000000000000000000002c100000000000000000000000002c200000000000000000000000002c300000000000000000000000002c400000000000000000000000002c500000000000000000000000002c600000000000000000000000002c700000000000000000000000002c8)
  (.lf
  0x8070000000000000000000000000806000000000000000000000000080500000000000000000000000008040000000000000000000000000803000000000000000000000000080200000000000000000000000008010000000000000000000000000810000000000000000000000000080f000000000000000000000000080e000000000000000000000000080d000000000000000000000000080c000000000000000000000000080b000000000000000000000000080a0000000000000000000000000809000000000000000000000000081800000000000000000000000008170000000000000000000000000816000000000000000000000000081500000000000000000000000008140000000000000000000000000813000000000000000000000000081200000000000000000000000008110000000000000000000000000820000000000000000000000000081f000000000000000000000000081e000000000000000000000000081d000000000000000000000000081c000000000000000000000000081b000000000000000000000000081a00000000000000000000000008190000000000000000000000000828))
  (.nd (.lf
  0x11ef471d1970000000000000047c11c8471d1bf000000000000000002081478d1db00000000000000000208147a11e00000000000000082051e847811b40000000000208147911e3476d18c0000000000000047a51c147011980000000000000082051c046e91980000000000000047a91c246e519182051ea47091c046e91b946611910000000000000047ad1c346e91920000000000000082051c046f11980000000000208147b11c446ed19300000000000000000208146f119400000000000000000208147011980000000000000082051c046f51980000000000208147b51c546f11940000000000000047b91c646f519500000000000000471d1bf46f919600000000000000000000047011bf0000000000000000011f047211970000000000000047c11b9466119100000000000000000208146ed19300000000000000000208147a91920000000000000082051c346ed1930000000000000000011c646f919600000000000000000208147b51950000000000000082051c646f9196000000000000000000000465d1960000000000000000011ee471d1bf0000000000000047bd1c046611970000000000000047c11c846e5191)
  (.lf
  0x137f4d5d32f4cb93060000000000137e4d5932e4cb5305000137d4d553304cb532c4c21304000137c4d513304cb132b4c213030000000000137b4d4d32b4ca9302000137a4d493304ca93294c21301000000000013794d453304ca5308000000000013804d613574cbd3080000000000137f4d5d3564cb93070000000000137e4d593554cb5306000137d4d613554d513304cb1305000137c4d613544d4d3304cad3040000000000137b4d4d3524ca9303000137a4d613524d453304ca5302000000000013794d613514cc1301000000000013804dfd3574cc13080000000000137f4df93564cbd3070000000000137e4df53554cb930600013804df537c4d613544cb530500013804df137b4d613534cb13040000000000137b4de93524cad30300013804de93794d613514ca9302000000000013804de53584ca53010000000000137f4d613304c213070000000000137e4d5d32f4c1d3060000000000137d4d5932e4c1930500013804df13554cb53084c1530400013804ded3544cb13084c113030000000000137a4d4d32b4c0d30200013804de53524ca93084c09301000000000013804d453294c21301000000000013784d4134f4c9d320)))
  (.nd (.nd (.lf
  0x418505940c900a000000000000008205068418906000000000002081417103440cd00b00000000000000820506440e101000000000000000000208140e101000000000000000418d05b40c900a8205062416903840c9031404100900000000000000418905a40c500900000000000000820503840c901000000000000000418505940e10100000000000000041a105f40dd01000000000000000419d05e40d900f00000000000000419905d40d500e00000000002081419505c40d100d0000000000000082050604175038000000000000000002081417103400000000000000420105840bd00700000000000000000107f415d00600000000000000000000040bd02e00000000000000415902e40b5005820507c415103040b102b402100300000000000000415102c40ad00300000000000000820507c40c10080000000000000041ed05340a90020000000000208141e905240a500100000000000000820503040a900800000000000000000208141e90520000000000000041e505140c10080000000000000000010804161008000000000000000000000415d02f0000000000000041fd057415902e00000000000000000107e40b5006)
  (.lf
  0xc070000000000000000000000000c060000000000000000000000000c050000000000000000000000000c040000000000000000000000000c030000000000000000000000000c020000000000000000000000000c010000000000000000000000000c100000000000000000000000000c0f0000000000000000000000000c0e0000000000000000000000000c0d0000000000000000000000000c0c0000000000000000000000000c0b0000000000000000000000000c0a0000000000000000000000000c090000000000000000000000000c180000000000000000000000000c170000000000000000000000000c160000000000000000000000000c150000000000000000000000000c140000000000000000000000000c130000000000000000000000000c120000000000000000000000000c110000000000000000000000000c200000000000000000000000000c1f0000000000000000000000000c1e0000000000000000000000000c1d0000000000000000000000000c1c0000000000000000000000000c1b0000000000000000000000000c1a0000000000000000000000000c190000000000000000000000000c28))
  (.nd (.lf
  0x4d1933e00000000000000000136f4d1d317000000000000004dc13484d1d33f0000000000000000020814d8d35b0000000000000000020814da13600000000000000082053684d81334000000000020814d913634d6d30c000000000000004da53414d013180000000000000082053404ce9318000000000000004da93424ce5311820536a4d093404ce93394c61311000000000000004dad3434ce93120000000000000082053404cf1318000000000020814db13444ced3130000000000000000020814cf13140000000000000082053404cf5318000000000020814db53454cf1314000000000000004db93464cf5315000000000000004d1d33f4cf93160000000000000000000004d0133f0000000000000000013704d21317000000000000004dc13394c613110000000000000000020814ced3130000000000000000020814da93120000000000000082053434ced3130000000000000000013464cf93160000000000000000020814db53150000000000000082053464cf93160000000000000000000004c5d31600000000000000000136e4d1d33f000000000000004dbd3404c61317000000000000004dc13484ce5311)
  (.lf 0)))

def aesSigTree14 : BTree :=
  .nd (.nd (.nd (.lf
  0xd900000000000000000000000000da00000000000000000000000000db00000000000000000000000000dc00000000000000000000000000dd00000000000000000000000000de00000000000000000000000000df00000000000000000000000000e000000000000000000000000000d100000000000000000000000000d200000000000000000000000000d300000000000000000000000000d400000000000000000000000000d500000000000000000000000000d600000000000000000000000000d700000000000000000000000000d800000000000000000000000000c900000000000000000000000000ca00000000000000000000000000cb00000000000000000000000000cc00000000000000000000000000cd00000000000000000000000000ce00000000000000000000000000cf00000000000000000000000000d000000000000000000000000000c100000000000000000000000000c200000000000000000000000000c300000000000000000000000000c400000000000000000000000000c500000000000000000000000000c600000000000000000000000000c700000000000000000000000000c8)
  (.lf
  0x208151f540500000000000000820545650b94060000000000000051f942f501d40600000000000000000208151fd458000000000000008205430502140700000000000000520145850a540100000000000000820548051e94580000000000000051e545150a9402820548051e9479516145150a94020000000000000051e945250ad4030000000000000051f147b514d404000000000000008205480516142c0000000000208151f147b514d4040000000000000051f947d5155406000000000000000002081516940b000000000000008205463516d43200000000000000000208151fd47e00000000000000000145650bd4070000000820547f51f945650bd4070000000000000051fd45750c14080000000000000051e54585145430000000000000000000000514942a00000000000000000147b514d40300000000000000000145850c14050000000000000051f5455515142c000000000000000000000515945500000000000000000147e50b54060000000000000051fd457515942e000000000000000000000515d42f00000000000000000148051614080000000000000051e545150c140800000000000000000208151e9452))
  (.nd (.lf
  0x460115800000000000000000000044c11080000000000000045a116044c510900000000000000000118045551080000000000000045f112d4415104000000000000000002081455912e00000000000000000208145f510500000000000000820515644b91060000000000000045f912f441d10600000000000000000208145fd158000000000000008205130442110700000000000000460115844a510100000000000000820518045e91580000000000000045e515144a9102820518045e9179456115144a91020000000000000045e915244ad1030000000000000045f117b454d104000000000000008205180456112c0000000000208145f117b454d1040000000000000045f917d4555106000000000000000002081456910b000000000000008205163456d13200000000000000000208145fd17e00000000000000000115644bd1070000000820517f45f915644bd1070000000000000045fd15744c11080000000000000045e51584545130000000000000000000000454912a00000000000000000117b454d10300000000000000000115844c11050000000000000045f5155455112c0000000000000000000004559155)
  (.lf
  0x127f495d22f48b92060000000000127e495922e48b5205000127d495523048b522c4821204000127c495123048b122b48212030000000000127b494d22b48a9202000127a494923048a9229482120100000000001279494523048a520800000000001280496125748bd2080000000000127f495d25648b92070000000000127e495925548b5206000127d4961255495123048b1205000127c4961254494d23048ad2040000000000127b494d25248a9203000127a4961252494523048a520200000000001279496125148c12010000000000128049fd25748c12080000000000127f49f925648bd2070000000000127e49f525548b9206000128049f527c496125448b5205000128049f127b496125348b12040000000000127b49e925248ad203000128049e9279496125148a92020000000000128049e525848a52010000000000127f496123048212070000000000127e495d22f481d2060000000000127d495922e4819205000128049f125548b52084815204000128049ed25448b120848112030000000000127a494d22b480d202000128049e525248a92084809201000000000012804945229482120100000000001278494124f489d220)))
  (.nd (.nd (.lf
  0x3d900000000000000000000000003da00000000000000000000000003db00000000000000000000000003dc00000000000000000000000003dd00000000000000000000000003de00000000000000000000000003df00000000000000000000000003e000000000000000000000000003d100000000000000000000000003d200000000000000000000000003d300000000000000000000000003d400000000000000000000000003d500000000000000000000000003d600000000000000000000000003d700000000000000000000000003d800000000000000000000000003c900000000000000000000000003ca00000000000000000000000003cb00000000000000000000000003cc00000000000000000000000003cd00000000000000000000000003ce00000000000000000000000003cf00000000000000000000000003d000000000000000000000000003c100000000000000000000000003c200000000000000000000000003c300000000000000000000000003c400000000000000000000000003c500000000000000000000000003c600000000000000000000000003c700000000000000000000000003c8)
  (.lf
  0xb070000000000000000000000000b060000000000000000000000000b050000000000000000000000000b040000000000000000000000000b030000000000000000000000000b020000000000000000000000000b010000000000000000000000000b100000000000000000000000000b0f0000000000000000000000000b0e0000000000000000000000000b0d0000000000000000000000000b0c0000000000000000000000000b0b0000000000000000000000000b0a0000000000000000000000000b090000000000000000000000000b180000000000000000000000000b170000000000000000000000000b160000000000000000000000000b150000000000000000000000000b140000000000000000000000000b130000000000000000000000000b120000000000000000000000000b110000000000000000000000000b200000000000000000000000000b1f0000000000000000000000000b1e0000000000000000000000000b1d0000000000000000000000000b1c0000000000000000000000000b1b0000000000000000000000000b1a0000000000000000000000000b190000000000000000000000000b28))
  (.nd (.lf
  0x4bf12ad4a152840000000000000000020814b592ae0000000000000000020814bf52850000000000000082052d64ab9286000000000000004bf92af4a1d2860000000000000000020814bfd2d80000000000000082052b04a21287000000000000004c012d84aa52810000000000000082053004be92d8000000000000004be52d14aa928282053004be92f94b612d14aa9282000000000000004be92d24aad283000000000000004bf12fb4b4d2840000000000000082053004b612ac000000000020814bf12fb4b4d284000000000000004bf92fd4b552860000000000000000020814b6928b0000000000000082052e34b6d2b20000000000000000020814bfd2fe0000000000000000012d64abd287000000082052ff4bf92d64abd287000000000000004bfd2d74ac1288000000000000004be52d84b452b00000000000000000000004b492aa0000000000000000012fb4b4d2830000000000000000012d84ac1285000000000000004bf52d54b512ac0000000000000000000004b592d50000000000000000012fe4ab5286000000000000004bfd2d74b592ae0000000000000000000004b5d2af0000000000000000013004b61288)
  (.lf 0)))

def aesSigTree15 : BTree :=
  .nd (.nd (.nd (.lf
  0x1d900000000000000000000000001da00000000000000000000000001db00000000000000000000000001dc00000000000000000000000001dd00000000000000000000000001de00000000000000000000000001df00000000000000000000000001e000000000000000000000000001d100000000000000000000000001d200000000000000000000000001d300000000000000000000000001d400000000000000000000000001d500000000000000000000000001d600000000000000000000000001d700000000000000000000000001d800000000000000000000000001c900000000000000000000000001ca00000000000000000000000001cb00000000000000000000000001cc00000000000000000000000001cd00000000000000000000000001ce00000000000000000000000001cf00000000000000000000000001d000000000000000000000000001c100000000000000000000000001c200000000000000000000000001c300000000000000000000000001c400000000000000000000000001c500000000000000000000000001c600000000000000000000000001c700000000000000000000000001c8)
  (.lf
  0x9070000000000000000000000000906000000000000000000000000090500000000000000000000000009040000000000000000000000000903000000000000000000000000090200000000000000000000000009010000000000000000000000000910000000000000000000000000090f000000000000000000000000090e000000000000000000000000090d000000000000000000000000090c000000000000000000000000090b000000000000000000000000090a0000000000000000000000000909000000000000000000000000091800000000000000000000000009170000000000000000000000000916000000000000000000000000091500000000000000000000000009140000000000000000000000000913000000000000000000000000091200000000000000000000000009110000000000000000000000000920000000000000000000000000091f000000000000000000000000091e000000000000000000000000091d000000000000000000000000091c000000000000000000000000091b000000000000000000000000091a00000000000000000000000009190000000000000000000000000928))
  (.nd (.lf
  0x820527848a12200000000000000049c525048a12190000000000000049c9249488521a00000000000000820525049292280000000000208149c9249488521a00000000000000498526049652380000000000000049cd24a488921b00000000000000000208149d121c00000000000000820525049312280000000000208149d124b488d21c00000000000000000208149d521d00000000000000820525049352280000000000208149d524c489121d0000000000000049d924d489521e0000000000000049dd24e489921f0000000000000049e124f489d220000000000000004a012294821201000000000000000000000494d20200000000000000000127a48ad20300000000000000000000048b522c000000000000000001230482120400000000000000000208149f525400000000000000820528049f125800000000000000000208149a1210000000000000000002081483120b000000000000008205268498d21000000000000000000000049692090000000000000000012684985210000000000000000000000496d2330000000000000000012604971238000000000000000002081496520a00000000000000820526048e1231)
  (.lf
  0x147f515d42f50b94060000000000147e515942e50b5405000147d515543050b542c5021404000147c515143050b142b50214030000000000147b514d42b50a9402000147a514943050a9429502140100000000001479514543050a540800000000001480516145750bd4080000000000147f515d45650b94070000000000147e515945550b5406000147d5161455515143050b1405000147c5161454514d43050ad4040000000000147b514d45250a9403000147a5161452514543050a540200000000001479516145150c14010000000000148051fd45750c14080000000000147f51f945650bd4070000000000147e51f545550b9406000148051f547c516145450b5405000148051f147b516145350b14040000000000147b51e945250ad403000148051e9479516145150a94020000000000148051e545850a54010000000000147f516143050214070000000000147e515d42f501d4060000000000147d515942e5019405000148051f145550b54085015404000148051ed45450b140850114030000000000147a514d42b500d402000148051e545250a94085009401000000000014805145429502140100000000001478514144f509d420)))
  (.nd (.nd (.lf
  0x10f7429d09f00000000000000000208143d90ce0000000000000082050f7429d09f00000000000000000208143dd0cf0000000000000082050f842a10a00000000000000043c50d042a10990000000000000043c90c9428509a0000000000000082050d043290a80000000000208143c90c9428509a0000000000000043850e043650b80000000000000043cd0ca428909b00000000000000000208143d109c0000000000000082050d043310a80000000000208143d10cb428d09c00000000000000000208143d509d0000000000000082050d043350a80000000000208143d50cc429109d0000000000000043d90cd429509e0000000000000043dd0ce429909f0000000000000043e10cf429d0a00000000000000044010a94221081000000000000000000000434d0820000000000000000010fa42ad08300000000000000000000042b50ac0000000000000000010b0422108400000000000000000208143f50d400000000000000820510043f10d8000000000000000002081423108b0000000000000082050e8438d09000000000000000000000043690890000000000000000010e84385090000000000000000000000436d0b3)
  (.lf
  0x107f415d02f40b90060000000000107e415902e40b5005000107d415503040b502c4021004000107c415103040b102b40210030000000000107b414d02b40a9002000107a414903040a9029402100100000000001079414503040a500800000000001080416105740bd0080000000000107f415d05640b90070000000000107e415905540b5006000107d4161055415103040b1005000107c4161054414d03040ad0040000000000107b414d05240a9003000107a4161052414503040a500200000000001079416105140c10010000000000108041fd05740c10080000000000107f41f905640bd0070000000000107e41f505540b9006000108041f507c416105440b5005000108041f107b416105340b10040000000000107b41e905240ad003000108041e9079416105140a90020000000000108041e505840a50010000000000107f416103040210070000000000107e415d02f401d0060000000000107d415902e4019005000108041f105540b50084015004000108041ed05440b100840110030000000000107a414d02b400d002000108041e505240a90084009001000000000010804145029402100100000000001078414104f409d020))
  (.nd (.lf
  0x4fc53d04ea1399000000000000004fc93c94e8539a0000000000000082053d04f293a8000000000020814fc93c94e8539a000000000000004f853e04f653b8000000000000004fcd3ca4e8939b0000000000000000020814fd139c0000000000000082053d04f313a8000000000020814fd13cb4e8d39c0000000000000000020814fd539d0000000000000000020814f413a80000000000000082053d04f353a8000000000020814fd53cc4e9139d000000000000004fd93cd4e9539e000000000000004fdd3ce4e9939f000000000000004fe13cf4e9d3a00000000000000050013a94e213810000000000000000000004f4d3820000000000000000013fa4ead3830000000000000000000004eb53ac0000000000000000013b04e213840000000000000000020814ff53d40000000000000082054004ff13d80000000000000000020814e3138b0000000000000082053e84f8d3900000000000000000000004f693890000000000000000013e84f853900000000000000000000004f6d3b30000000000000000013e04f713b80000000000000000020814f6538a0000000000000082053e04ee13b10000000000000000000004ed138c)
  (.lf 0)))

def aesSigTree16 : BTree :=
  .nd (.nd (.nd (.lf
  0x4800000000000000000000000000470000000000000000000000000046000000000000000000000000004500000000000000000000000000440000000000000000000000000043000000000000000000000000004200000000000000000000000000410000000000000000000000000050000000000000000000000000004f000000000000000000000000004e000000000000000000000000004d000000000000000000000000004c000000000000000000000000004b000000000000000000000000004a0000000000000000000000000049000000000000000000000000005800000000000000000000000000570000000000000000000000000056000000000000000000000000005500000000000000000000000000540000000000000000000000000053000000000000000000000000005200000000000000000000000000510000000000000000000000000060000000000000000000000000005f000000000000000000000000005e000000000000000000000000005d000000000000000000000000005c000000000000000000000000005b000000000000000000000000005a0000000000000000000000000059)
  (.lf
  0x4f893da4ecd38b000000000000004f993df4edd38e000000000000004f9d3e04ee138f000000000000004fa53c84f053c00000000000000000000004ee93930000000000000000013eb4f0d3c20000000000000000000004ef53960000000000000000013ee4f193c50000000000000000000004f193be0000000000000000013ef4f1d397000000000000004fc13c84f1d3bf0000000000000000020814f8d3db0000000000000000020814fa13e00000000000000082053e84f813b4000000000020814f913e34f6d38c000000000000004fa53c14f013980000000000000082053c04ee9398000000000000004fa93c24ee539182053ea4f093c04ee93b94e61391000000000000004fad3c34ee93920000000000000082053c04ef1398000000000020814fb13c44eed3930000000000000000020814ef13940000000000000000020814f013980000000000000082053c04ef5398000000000020814fb53c54ef1394000000000000004fb93c64ef5395000000000000004f1d3bf4ef93960000000000000000000004f013bf0000000000000000013f04f21397000000000000004fc13b94e613910000000000000000020814eed393))
  (.nd (.lf
  0x2081438908a0000000000000082050db42cd08b0000000000000043910dd42d508c0000000000000082050e8424108d0000000000208143910dd42d508c0000000000000043950de42d908d0000000000000043890da42cd08b0000000000000043990df42dd08e00000000000000439d0e042e108f0000000000000043a50c843050c000000000000000000000042e90930000000000000000010eb430d0c200000000000000000000042f50960000000000000000010ee43190c500000000000000000000043190be0000000000000000010ef431d0970000000000000043c10c8431d0bf000000000000000002081438d0db00000000000000000208143a10e00000000000000082050e843810b40000000000208143910e3436d08c0000000000000043a50c143010980000000000000082050c042e90980000000000000043a90c242e509182050ea43090c042e90b942610910000000000000043ad0c342e90920000000000000082050c042f10980000000000208143b10c442ed09300000000000000000208142f10940000000000000082050c042f50980000000000208143b50c542f10940000000000000043b90c642f5095)
  (.lf
  0x10f7433d0ce429909f000000000010f643390cd429509e00010f543410cd43310a8429109d00010f443410cc432d0a8428d09c000000000010f3432d0ca428909b00010f243410ca43250a8428509a000000000010f143410c942a1099000000000010f843dd0cf42a10a0000000000010f743d90ce429d09f000000000010f643d50cd429909e00010f843d50f443410cc429509d00010f843d10f343410cb429109c000000000010f343c90ca428d09b00010f843c90f143410c9428909a000000000010f843c50d04285099000000000010f743410a8428109f000000000010f6433d0a7427d09e000000000010f543390a6427909d00010f843d10cd42950a0427509c00010f843cd0cc42910a0427109b000000000010f2432d0a3426d09a00010f843c50ca42890a04269099000000000010f843250a14281099000000000010f843410a8429d09f000000000010f7433d0a7429909e000000000010f643390a6429509d00010f543350a842950a4428109c00010f443310a842910a3428109b000000000010f3432d0a3428909a00010f243290a842890a14281099000000000010f143250a842850a0000000000010f043bd0c74301098)))
  (.nd (.nd (.lf
  0x539000000000000000000000000053a000000000000000000000000053b000000000000000000000000053c000000000000000000000000053d000000000000000000000000053e000000000000000000000000053f0000000000000000000000000540000000000000000000000000053100000000000000000000000005320000000000000000000000000533000000000000000000000000053400000000000000000000000005350000000000000000000000000536000000000000000000000000053700000000000000000000000005380000000000000000000000000529000000000000000000000000052a000000000000000000000000052b000000000000000000000000052c000000000000000000000000052d000000000000000000000000052e000000000000000000000000052f000000000000000000000000053000000000000000000000000005210000000000000000000000000522000000000000000000000000052300000000000000000000000005240000000000000000000000000525000000000000000000000000052600000000000000000000000005270000000000000000000000000528)
  (.lf
  0x9a700000000000000000000000009a600000000000000000000000009a500000000000000000000000009a400000000000000000000000009a300000000000000000000000009a200000000000000000000000009a100000000000000000000000009b000000000000000000000000009af00000000000000000000000009ae00000000000000000000000009ad00000000000000000000000009ac00000000000000000000000009ab00000000000000000000000009aa00000000000000000000000009a900000000000000000000000009b800000000000000000000000009b700000000000000000000000009b600000000000000000000000009b500000000000000000000000009b400000000000000000000000009b300000000000000000000000009b200000000000000000000000009b100000000000000000000000009c000000000000000000000000009bf00000000000000000000000009be00000000000000000000000009bd00000000000000000000000009bc00000000000000000000000009bb00000000000000000000000009ba00000000000000000000000009b900000000000000000000000009c8))
  (.nd (.lf
  0x2081499125d48d520c00000000000000499525e48d920d00000000000000498925a48cd20b00000000000000499925f48dd20e00000000000000499d26048e120f0000000000000049a5248490524000000000000000000000048e921300000000000000000126b490d24200000000000000000000048f521600000000000000000126e4919245000000000000000000000491923e00000000000000000126f491d2170000000000000049c1248491d23f000000000000000002081498d25b00000000000000000208149a12600000000000000082052684981234000000000020814991263496d20c0000000000000049a5241490121800000000000000820524048e92180000000000000049a924248e5211820526a490924048e923948612110000000000000049ad24348e921200000000000000820524048f12180000000000208149b124448ed21300000000000000000208148f121400000000000000820524048f52180000000000208149b524548f12140000000000000049b924648f521500000000000000491d23f48f9216000000000000000000000490123f00000000000000000127049212170000000000000049c12394861211)
  (.lf
  0xd270000000000000000000000000d260000000000000000000000000d250000000000000000000000000d240000000000000000000000000d230000000000000000000000000d220000000000000000000000000d210000000000000000000000000d300000000000000000000000000d2f0000000000000000000000000d2e0000000000000000000000000d2d0000000000000000000000000d2c0000000000000000000000000d2b0000000000000000000000000d2a0000000000000000000000000d290000000000000000000000000d380000000000000000000000000d370000000000000000000000000d360000000000000000000000000d350000000000000000000000000d340000000000000000000000000d330000000000000000000000000d320000000000000000000000000d310000000000000000000000000d400000000000000000000000000d3f0000000000000000000000000d3e0000000000000000000000000d3d0000000000000000000000000d3c0000000000000000000000000d3b0000000000000000000000000d3a0000000000000000000000000d390000000000000000000000000d48)))

def aesSigTree17 : BTree :=
  .nd (.nd (.nd (.lf
  0x339000000000000000000000000033a000000000000000000000000033b000000000000000000000000033c000000000000000000000000033d000000000000000000000000033e000000000000000000000000033f0000000000000000000000000340000000000000000000000000033100000000000000000000000003320000000000000000000000000333000000000000000000000000033400000000000000000000000003350000000000000000000000000336000000000000000000000000033700000000000000000000000003380000000000000000000000000329000000000000000000000000032a000000000000000000000000032b000000000000000000000000032c000000000000000000000000032d000000000000000000000000032e000000000000000000000000032f000000000000000000000000033000000000000000000000000003210000000000000000000000000322000000000000000000000000032300000000000000000000000003240000000000000000000000000325000000000000000000000000032600000000000000000000000003270000000000000000000000000328)
  (.lf
  0x1448510d44050ed41400000000001448511144050f14150000000000148051e545250214010000000000148051ed40850114030000000000147051a544250614110000000000147051ad44450614130000000000147051b144550614140000000000147250a142150814190000000000147450a1423508141b0000000000147550a1424508141c0000000000147851c545051254220000000000147851cd450512d4240000000000147851d145051314250000000000146550e1434504140c00000000001460516543850c540a00000000001460517145b50e143300000000001468518545a504140900000000001468518d410503140b0000000000148051f547c51614540000000000143050b542c502140400000000000000000000051714340000000000000000000005185459000000000000000000000518945a00000000000000000000051c541900000000000000000000051c941a00000000000000000000051f545500000000000000000000051fd457000000000000000000000512542100000000000000000000051e54510000000000000000000005175435000000000000000000000519140c00000000000000000000051cd41b))
  (.nd (.lf
  0x208145a111000000000000000000208144c110800000000001158454513044a510200000000001158455115344c112b000000000011684591160457113500000000001148450514044e511200000000001148450d14044ed11400000000001148451114044f11150000000000118045e515244211010000000000118045ed10844111030000000000117045a514244611110000000000117045ad14444611130000000000117045b114544611140000000000117244a112144811190000000000117444a1123448111b0000000000117544a1124448111c0000000000117845c515045251220000000000117845cd150452d1240000000000117845d115045311250000000000116544e1134444110c00000000001160456513844c510a00000000001160457115b44e113300000000001168458515a444110900000000001168458d110443110b0000000000118045f517c45611540000000000113044b512c442110400000000000000000000045711340000000000000000000004585159000000000000000000000458915a00000000000000000000045c511900000000000000000000045c911a00000000000000000000045f5155)
  (.lf
  0x12f74b3d2ce4a9929f000000000012f64b392cd4a9529e00012f54b412cd4b312a84a9129d00012f44b412cc4b2d2a84a8d29c000000000012f34b2d2ca4a8929b00012f24b412ca4b252a84a8529a000000000012f14b412c94aa1299000000000012f84bdd2cf4aa12a0000000000012f74bd92ce4a9d29f000000000012f64bd52cd4a9929e00012f84bd52f44b412cc4a9529d00012f84bd12f34b412cb4a9129c000000000012f34bc92ca4a8d29b00012f84bc92f14b412c94a8929a000000000012f84bc52d04a85299000000000012f74b412a84a8129f000000000012f64b3d2a74a7d29e000000000012f54b392a64a7929d00012f84bd12cd4a952a04a7529c00012f84bcd2cc4a912a04a7129b000000000012f24b2d2a34a6d29a00012f84bc52ca4a892a04a69299000000000012f84b252a14a81299000000000012f84b412a84a9d29f000000000012f74b3d2a74a9929e000000000012f64b392a64a9529d00012f54b352a84a952a44a8129c00012f44b312a84a912a34a8129b000000000012f34b2d2a34a8929a00012f24b292a84a892a14a81299000000000012f14b252a84a852a0000000000012f04bbd2c74b01298)))
  (.nd (.nd (.lf
  0x820456200000000000000000000082045630000000000000000000008204565000000000000000000000820456600000000000000000000082045420000000000000000000008204543000000000000000000000820454500000000000000000000082045460000000000000000000008204522000000000000000000000820452300000000000000000000082045250000000000000000000008204526000000000000000000000820450200000000000000000000082045030000000000000000000008204505000000000000000000000820450600000000000000000000082044e100000000000000000000082044e200000000000000000000082044e400000000000000000000082044e500000000000000000000082044c100000000000000000000082044c200000000000000000000082044c400000000000000000000082044c500000000000000000000082044a100000000000000000000082044a200000000000000000000082044a400000000000000000000082044a50000000000000000000008204481000000000000000000000820448200000000000000000000082044840000000000000000000008204485)
  (.lf
  0xba70000000000000000000000000ba60000000000000000000000000ba50000000000000000000000000ba40000000000000000000000000ba30000000000000000000000000ba20000000000000000000000000ba10000000000000000000000000bb00000000000000000000000000baf0000000000000000000000000bae0000000000000000000000000bad0000000000000000000000000bac0000000000000000000000000bab0000000000000000000000000baa0000000000000000000000000ba90000000000000000000000000bb80000000000000000000000000bb70000000000000000000000000bb60000000000000000000000000bb50000000000000000000000000bb40000000000000000000000000bb30000000000000000000000000bb20000000000000000000000000bb10000000000000000000000000bc00000000000000000000000000bbf0000000000000000000000000bbe0000000000000000000000000bbd0000000000000000000000000bbc0000000000000000000000000bbb0000000000000000000000000bba0000000000000000000000000bb90000000000000000000000000bc8))
  (.nd (.lf
  0x12e84b912e04b712b5000000000012c84b052c04ae5292000000000012c84b0d2c04aed294000000000012c84b112c04af1295000000000013004be52d24a21281000000000013004bed2884a11283000000000012f04ba52c24a61291000000000012f04bad2c44a61293000000000012f04bb12c54a61294000000000012f24aa12a14a81299000000000012f44aa12a34a8129b000000000012f54aa12a44a8129c000000000012f84bc52d04b252a2000000000012f84bcd2d04b2d2a4000000000012f84bd12d04b312a5000000000012e54ae12b44a4128c000000000012e04b652b84ac528a000000000012e04b712db4ae12b3000000000012e84b852da4a41289000000000012e84b8d2904a3128b000000000013004bf52fc4b612d4000000000012b04ab52ac4a212840000000000000000000004b712b40000000000000000000004b852d90000000000000000000004b892da0000000000000000000004bc52990000000000000000000004bc929a0000000000000000000004bf52d50000000000000000000004bfd2d70000000000000000000004b252a10000000000000000000004be52d10000000000000000000004b752b5)
  (.lf 0)))

def aesSigTree18 : BTree :=
  .nd (.nd (.nd (.lf
  0x139000000000000000000000000013a000000000000000000000000013b000000000000000000000000013c000000000000000000000000013d000000000000000000000000013e000000000000000000000000013f0000000000000000000000000140000000000000000000000000013100000000000000000000000001320000000000000000000000000133000000000000000000000000013400000000000000000000000001350000000000000000000000000136000000000000000000000000013700000000000000000000000001380000000000000000000000000129000000000000000000000000012a000000000000000000000000012b000000000000000000000000012c000000000000000000000000012d000000000000000000000000012e000000000000000000000000012f000000000000000000000000013000000000000000000000000001210000000000000000000000000122000000000000000000000000012300000000000000000000000001240000000000000000000000000125000000000000000000000000012600000000000000000000000001270000000000000000000000000128)
  (.lf
  0x208151c944a000000000000008205473508d41b00000000000000000000051d544d000000000000000001476509941e000000000000000001477509d41f00000000000000000208151d944e000000000000008205477509d41f00000000000000000208151dd44f00000000000000820547850a14200000000000000051c545050a14190000000000000051c9449508541a00000000000000820545051294280000000000208151c9449508541a00000000000000518546051654380000000000000051cd44a508941b00000000000000000208151d141c00000000000000820545051314280000000000208151d144b508d41c00000000000000000208151d541d00000000000000820545051354280000000000208151d544c509141d0000000000000051d944d509541e0000000000000051dd44e509941f0000000000000051e144f509d4200000000000000052014295021401000000000000000000000514d40200000000000000000147a50ad40300000000000000000000050b542c000000000000000001430502140400000000000000000208151f545400000000000000820548051f1458000000000000000002081503140b))
  (.nd (.lf
  0x45dd15044a111f000000000000000002081459d138000000000000008205168457d1100000000000000045e1171454111900000000000000000208145cd11b00000000000000000208145c914a000000000000008205173448d11b00000000000000000000045d514d000000000000000001176449911e000000000000000001177449d11f00000000000000000208145d914e000000000000008205177449d11f00000000000000000208145dd14f00000000000000820517844a11200000000000000045c515044a11190000000000000045c9149448511a00000000000000820515045291280000000000208145c9149448511a00000000000000458516045651380000000000000045cd14a448911b00000000000000000208145d111c00000000000000820515045311280000000000208145d114b448d11c00000000000000000208145d511d00000000000000820515045351280000000000208145d514c449111d0000000000000045d914d449511e0000000000000045dd14e449911f0000000000000045e114f449d1200000000000000046011294421101000000000000000000000454d10200000000000000000117a44ad103)
  (.lf
  0x11f7473d1ce469919f000000000011f647391cd469519e00011f547411cd47311a8469119d00011f447411cc472d1a8468d19c000000000011f3472d1ca468919b00011f247411ca47251a8468519a000000000011f147411c946a1199000000000011f847dd1cf46a11a0000000000011f747d91ce469d19f000000000011f647d51cd469919e00011f847d51f447411cc469519d00011f847d11f347411cb469119c000000000011f347c91ca468d19b00011f847c91f147411c9468919a000000000011f847c51d04685199000000000011f747411a8468119f000000000011f6473d1a7467d19e000000000011f547391a6467919d00011f847d11cd46951a0467519c00011f847cd1cc46911a0467119b000000000011f2472d1a3466d19a00011f847c51ca46891a04669199000000000011f847251a14681199000000000011f847411a8469d19f000000000011f7473d1a7469919e000000000011f647391a6469519d00011f547351a846951a4468119c00011f447311a846911a3468119b000000000011f3472d1a3468919a00011f247291a846891a14681199000000000011f147251a846851a0000000000011f047bd1c74701198)))
  (.nd (.nd (.lf
  0x439000000000000000000000000043a000000000000000000000000043b000000000000000000000000043c000000000000000000000000043d000000000000000000000000043e000000000000000000000000043f0000000000000000000000000440000000000000000000000000043100000000000000000000000004320000000000000000000000000433000000000000000000000000043400000000000000000000000004350000000000000000000000000436000000000000000000000000043700000000000000000000000004380000000000000000000000000429000000000000000000000000042a000000000000000000000000042b000000000000000000000000042c000000000000000000000000042d000000000000000000000000042e000000000000000000000000042f000000000000000000000000043000000000000000000000000004210000000000000000000000000422000000000000000000000000042300000000000000000000000004240000000000000000000000000425000000000000000000000000042600000000000000000000000004270000000000000000000000000428)
  (.lf
  0xaa70000000000000000000000000aa60000000000000000000000000aa50000000000000000000000000aa40000000000000000000000000aa30000000000000000000000000aa20000000000000000000000000aa10000000000000000000000000ab00000000000000000000000000aaf0000000000000000000000000aae0000000000000000000000000aad0000000000000000000000000aac0000000000000000000000000aab0000000000000000000000000aaa0000000000000000000000000aa90000000000000000000000000ab80000000000000000000000000ab70000000000000000000000000ab60000000000000000000000000ab50000000000000000000000000ab40000000000000000000000000ab30000000000000000000000000ab20000000000000000000000000ab10000000000000000000000000ac00000000000000000000000000abf0000000000000000000000000abe0000000000000000000000000abd0000000000000000000000000abc0000000000000000000000000abb0000000000000000000000000aba0000000000000000000000000ab90000000000000000000000000ac8))
  (.nd (.lf
  0x82052e84b7d290000000000000004be12f14b412990000000000000000020814bcd29b0000000000000000020814bc92ca0000000000000082052f34a8d29b0000000000000000000004bd52cd0000000000000000012f64a9929e0000000000000000012f74a9d29f0000000000000000020814bd92ce0000000000000082052f74a9d29f0000000000000000020814bdd2cf0000000000000082052f84aa12a0000000000000004bc52d04aa1299000000000000004bc92c94a8529a0000000000000082052d04b292a8000000000020814bc92c94a8529a000000000000004b852e04b652b8000000000000004bcd2ca4a8929b0000000000000000020814bd129c0000000000000082052d04b312a8000000000020814bd12cb4a8d29c0000000000000000020814bd529d0000000000000082052d04b352a8000000000020814bd52cc4a9129d000000000000004bd92cd4a9529e000000000000004bdd2ce4a9929f000000000000004be12cf4a9d2a0000000000000004c012a94a212810000000000000000000004b4d2820000000000000000012fa4aad2830000000000000000000004ab52ac0000000000000000012b04a21284)
  (.lf 0)))

def aesSigTree19 : BTree :=
  .nd (.nd (.nd (.lf
  0x239000000000000000000000000023a000000000000000000000000023b000000000000000000000000023c000000000000000000000000023d000000000000000000000000023e000000000000000000000000023f0000000000000000000000000240000000000000000000000000023100000000000000000000000002320000000000000000000000000233000000000000000000000000023400000000000000000000000002350000000000000000000000000236000000000000000000000000023700000000000000000000000002380000000000000000000000000229000000000000000000000000022a000000000000000000000000022b000000000000000000000000022c000000000000000000000000022d000000000000000000000000022e000000000000000000000000022f000000000000000000000000023000000000000000000000000002210000000000000000000000000222000000000000000000000000022300000000000000000000000002240000000000000000000000000225000000000000000000000000022600000000000000000000000002270000000000000000000000000228)
  (.lf
  0x8a700000000000000000000000008a600000000000000000000000008a500000000000000000000000008a400000000000000000000000008a300000000000000000000000008a200000000000000000000000008a100000000000000000000000008b000000000000000000000000008af00000000000000000000000008ae00000000000000000000000008ad00000000000000000000000008ac00000000000000000000000008ab00000000000000000000000008aa00000000000000000000000008a900000000000000000000000008b800000000000000000000000008b700000000000000000000000008b600000000000000000000000008b500000000000000000000000008b400000000000000000000000008b300000000000000000000000008b200000000000000000000000008b100000000000000000000000008c000000000000000000000000008bf00000000000000000000000008be00000000000000000000000008bd00000000000000000000000008bc00000000000000000000000008bb00000000000000000000000008ba00000000000000000000000008b900000000000000000000000008c8))
  (.nd (.lf
  0x47e11d000000000000000000000046e119000000000000000000000047811b800000000000000000000047a119000000000000000000000047e11a0000000000000000000000470119800000000000000000000047c11c800000000000000000000047411a800000000000000000000048011d800000000000000000000046c11880000000000000047a11e046c518900000000000000000120047551880000000000000047f11ad461518400000000000000000208147591ae00000000000000000208147f51850000000000000082051d646b91860000000000000047f91af461d18600000000000000000208147fd1d80000000000000082051b046211870000000000000048011d846a518100000000000000820520047e91d80000000000000047e51d146a9182820520047e91f947611d146a91820000000000000047e91d246ad1830000000000000047f11fb474d18400000000000000820520047611ac0000000000208147f11fb474d1840000000000000047f91fd4755186000000000000000002081476918b0000000000000082051e3476d1b200000000000000000208147fd1fe0000000000000000011d646bd187)
  (.lf
  0x13f74f3d3ce4e9939f000000000013f64f393cd4e9539e00013f54f413cd4f313a84e9139d00013f44f413cc4f2d3a84e8d39c000000000013f34f2d3ca4e8939b00013f24f413ca4f253a84e8539a000000000013f14f413c94ea1399000000000013f84fdd3cf4ea13a0000000000013f74fd93ce4e9d39f000000000013f64fd53cd4e9939e00013f84fd53f44f413cc4e9539d00013f84fd13f34f413cb4e9139c000000000013f34fc93ca4e8d39b00013f84fc93f14f413c94e8939a000000000013f84fc53d04e85399000000000013f74f413a84e8139f000000000013f64f3d3a74e7d39e000000000013f54f393a64e7939d00013f84fd13cd4e953a04e7539c00013f84fcd3cc4e913a04e7139b000000000013f24f2d3a34e6d39a00013f84fc53ca4e893a04e69399000000000013f84f253a14e81399000000000013f84f413a84e9d39f000000000013f74f3d3a74e9939e000000000013f64f393a64e9539d00013f54f353a84e953a44e8139c00013f44f313a84e913a34e8139b000000000013f34f2d3a34e8939a00013f24f293a84e893a14e81399000000000013f14f253a84e853a0000000000013f04fbd3c74f01398)))
  (.nd (.nd (.lf
  0x41d504e409901d0000000000208141d104d409501c000000000000008205078408101d0000000000208141cd04c409101b000000000000008205078408101c0000000000000041c904b408d01a820507841c504a408902040690190000000000000041c504a4089019000000000000008205078408101a0000000000000041e1049408502000000000000000000105040a102700000000000000000000041e101f00000008205077413d027409901e00000000000000000104f409d02600000000000000000208141dd01e00000008205067419905e40dd00f000000000000000001067417900f000000000000000002081419903700000000000000820504e409902500000000000000000208141d901d00000000000000000104e409902500000000000000820504b408d02200000000000000000208141cd01a000000000000000002081412d0230000000000000041250284085020000000000000000001047410101800000000000000000000041c106f0000000000000041bd06e41190170000000000000041b504540f90160000000000208141b104440f501500000000000000820507041b504800000000000000000208140f5015)
  (.lf
  0xca70000000000000000000000000ca60000000000000000000000000ca50000000000000000000000000ca40000000000000000000000000ca30000000000000000000000000ca20000000000000000000000000ca10000000000000000000000000cb00000000000000000000000000caf0000000000000000000000000cae0000000000000000000000000cad0000000000000000000000000cac0000000000000000000000000cab0000000000000000000000000caa0000000000000000000000000ca90000000000000000000000000cb80000000000000000000000000cb70000000000000000000000000cb60000000000000000000000000cb50000000000000000000000000cb40000000000000000000000000cb30000000000000000000000000cb20000000000000000000000000cb10000000000000000000000000cc00000000000000000000000000cbf0000000000000000000000000cbe0000000000000000000000000cbd0000000000000000000000000cbc0000000000000000000000000cbb0000000000000000000000000cba0000000000000000000000000cb90000000000000000000000000cc8))
  (.nd (.lf
  0x4ca13200000000000000000000004de13500000000000000000000004ce13100000000000000000000004d813380000000000000000000004da13100000000000000000000004de13200000000000000000000004d013180000000000000000000004dc13480000000000000000000004d413280000000000000000000004e013580000000000000000000004cc1308000000000000004da13604cc53090000000000000000013804d55308000000000000004df132d4c153040000000000000000020814d5932e0000000000000000020814df53050000000000000082053564cb9306000000000000004df932f4c1d3060000000000000000020814dfd3580000000000000082053304c21307000000000000004e013584ca53010000000000000082053804de9358000000000000004de53514ca930282053804de93794d613514ca9302000000000000004de93524cad303000000000000004df137b4d4d3040000000000000082053804d6132c000000000020814df137b4d4d304000000000000004df937d4d553060000000000000000020814d6930b0000000000000082053634d6d3320000000000000000020814dfd37e)
  (.lf 0)))

def aesSigTree20 : BTree :=
  .nd (.nd (.nd (.lf
  0x204800000000000000000000000020470000000000000000000000002046000000000000000000000000204500000000000000000000000020440000000000000000000000002043000000000000000000000000204200000000000000000000000020410000000000000000000000002050000000000000000000000000204f000000000000000000000000204e000000000000000000000000204d000000000000000000000000204c000000000000000000000000204b000000000000000000000000204a0000000000000000000000002049000000000000000000000000205800000000000000000000000020570000000000000000000000002056000000000000000000000000205500000000000000000000000020540000000000000000000000002053000000000000000000000000205200000000000000000000000020510000000000000000000000002060000000000000000000000000205f000000000000000000000000205e000000000000000000000000205d000000000000000000000000205c000000000000000000000000205b000000000000000000000000205a0000000000000000000000002059)
  (.lf
  0x4ea53810000000000000000000004f8d3db0000000000000000000004ec938a0000000000000000000004ec53890000000000000000000004ecd38b0000000000000000000004fd539d0000000000000000000004ee53910000000000000000000004ee93920000000000000000000004f313a40000000000000000000004fa53c10000000000000000000004fed3d30000000000000000000004eed3930000000000000000000004fd939e0000000000000000000004fa93c20000000000000000000004ef13940000000000000000000004ff93860000000000000000000004fad3c30000000000000000000004f353a50000000000000000000004ef53950000000000000000000004fdd39f0000000000000000000004ea93820000000000000000000004fb13c40000000000000000000004ef93960000000000000000000004f393a60000000000000000000004ff13840000000000000000000004f593ae0000000000000000000004fb53c50000000000000000000004ebd3870000000000000000000004f1d3bf0000000000000000000004fbd3970000000000000000000004f513ac0000000000000000000004fb93c6))
  (.nd (.lf
  0x43290a200000000000000000000043e90d2000000000000000000000439908e00000000000000000000043d109c000000000000000000000432d0a3000000000000000000000439d08f00000000000000000000042a5081000000000000000000000438d0db00000000000000000000042c908a00000000000000000000042c508900000000000000000000042cd08b00000000000000000000043d509d00000000000000000000042e509100000000000000000000042e909200000000000000000000043310a400000000000000000000043a50c100000000000000000000043ed0d300000000000000000000042ed09300000000000000000000043d909e00000000000000000000043a90c200000000000000000000042f109400000000000000000000043f908600000000000000000000043ad0c300000000000000000000043350a500000000000000000000042f509500000000000000000000043dd09f00000000000000000000042a908200000000000000000000043b10c400000000000000000000042f909600000000000000000000043390a600000000000000000000043f108400000000000000000000043590ae)
  (.lf
  0x1177453d14e449911f00000000001176453914d449511e0001175454114d4531128449111d0001174454114c452d128448d11c00000000001173452d14a448911b0001172454114a4525128448511a00000000001171454114944a11190000000000117845dd14f44a11200000000000117745d914e449d11f0000000000117645d514d449911e000117845d5174454114c449511d000117845d1173454114b449111c0000000000117345c914a448d11b000117845c91714541149448911a0000000000117845c51504485119000000000011774541128448111f00000000001176453d127447d11e000000000011754539126447911d000117845d114d4495120447511c000117845cd14c4491120447111b00000000001172452d123446d11a000117845c514a448912044691190000000000117845251214481119000000000011784541128449d11f00000000001177453d127449911e000000000011764539126449511d000117545351284495124448111c000117445311284491123448111b00000000001173452d123448911a000117245291284489121448111900000000001171452512844851200000000000117045bd1474501118)))
  (.nd (.nd (.lf
  0x4b900000000000000000000000004ba00000000000000000000000004bb00000000000000000000000004bc00000000000000000000000004bd00000000000000000000000004be00000000000000000000000004bf00000000000000000000000004c000000000000000000000000004b100000000000000000000000004b200000000000000000000000004b300000000000000000000000004b400000000000000000000000004b500000000000000000000000004b600000000000000000000000004b700000000000000000000000004b800000000000000000000000004a900000000000000000000000004aa00000000000000000000000004ab00000000000000000000000004ac00000000000000000000000004ad00000000000000000000000004ae00000000000000000000000004af00000000000000000000000004b000000000000000000000000004a100000000000000000000000004a200000000000000000000000004a300000000000000000000000004a400000000000000000000000004a500000000000000000000000004a600000000000000000000000004a700000000000000000000000004a8)
  (.lf
  0xa270000000000000000000000000a260000000000000000000000000a250000000000000000000000000a240000000000000000000000000a230000000000000000000000000a220000000000000000000000000a210000000000000000000000000a300000000000000000000000000a2f0000000000000000000000000a2e0000000000000000000000000a2d0000000000000000000000000a2c0000000000000000000000000a2b0000000000000000000000000a2a0000000000000000000000000a290000000000000000000000000a380000000000000000000000000a370000000000000000000000000a360000000000000000000000000a350000000000000000000000000a340000000000000000000000000a330000000000000000000000000a320000000000000000000000000a310000000000000000000000000a400000000000000000000000000a3f0000000000000000000000000a3e0000000000000000000000000a3d0000000000000000000000000a3c0000000000000000000000000a3b0000000000000000000000000a3a0000000000000000000000000a390000000000000000000000000a48))
  (.nd (.lf
  0x499d20f00000000000000000000048a5201000000000000000000000498d25b00000000000000000000048c920a00000000000000000000048c520900000000000000000000048cd20b00000000000000000000049d521d00000000000000000000048e521100000000000000000000048e9212000000000000000000000493122400000000000000000000049a524100000000000000000000049ed25300000000000000000000048ed21300000000000000000000049d921e00000000000000000000049a924200000000000000000000048f121400000000000000000000049f920600000000000000000000049ad243000000000000000000000493522500000000000000000000048f521500000000000000000000049dd21f00000000000000000000048a920200000000000000000000049b124400000000000000000000048f9216000000000000000000000493922600000000000000000000049f1204000000000000000000000495922e00000000000000000000049b524500000000000000000000048bd207000000000000000000000491d23f00000000000000000000049bd217000000000000000000000495122c)
  (.lf 0)))

def aesSigTree21 : BTree :=
  .nd (.nd (.nd (.lf
  0x2b900000000000000000000000002ba00000000000000000000000002bb00000000000000000000000002bc00000000000000000000000002bd00000000000000000000000002be00000000000000000000000002bf00000000000000000000000002c000000000000000000000000002b100000000000000000000000002b200000000000000000000000002b300000000000000000000000002b400000000000000000000000002b500000000000000000000000002b600000000000000000000000002b700000000000000000000000002b800000000000000000000000002a900000000000000000000000002aa00000000000000000000000002ab00000000000000000000000002ac00000000000000000000000002ad00000000000000000000000002ae00000000000000000000000002af00000000000000000000000002b000000000000000000000000002a100000000000000000000000002a200000000000000000000000002a300000000000000000000000002a400000000000000000000000002a500000000000000000000000002a600000000000000000000000002a700000000000000000000000002a8)
  (.lf
  0x8270000000000000000000000000826000000000000000000000000082500000000000000000000000008240000000000000000000000000823000000000000000000000000082200000000000000000000000008210000000000000000000000000830000000000000000000000000082f000000000000000000000000082e000000000000000000000000082d000000000000000000000000082c000000000000000000000000082b000000000000000000000000082a0000000000000000000000000829000000000000000000000000083800000000000000000000000008370000000000000000000000000836000000000000000000000000083500000000000000000000000008340000000000000000000000000833000000000000000000000000083200000000000000000000000008310000000000000000000000000840000000000000000000000000083f000000000000000000000000083e000000000000000000000000083d000000000000000000000000083c000000000000000000000000083b000000000000000000000000083a00000000000000000000000008390000000000000000000000000848))
  (.nd (.lf
  0x11f047a91c80000000000000047a51c146e91920000000000000047a91c246ed1930000000000000000011f047b11c80000000000000047ad1c346f11940000000000000000011e6477518e00000000000000000208147951b60000000000000082051e6477518e00000000000000000208146f51950000000000000082051f047b51c80000000000208147b11c446f51950000000000000047b51c546f91960000000000000047bd1ee471919700000000000000000000047c11ef0000000000000000011c747011980000000000000047251a846851a0000000000000000002081472d1a300000000000000000208147cd19a0000000000000082051cb468d1a20000000000000000011ce46991a500000000000000000208147d919d0000000000000082051ce46991a500000000000000000208147991b70000000000000000011e7477918f000000082051e747991de46dd18f00000000000000000208147dd19e0000000000000000011cf469d1a6000000082051f7473d1a7469919e00000000000000000000047e119f0000000000000000011d046a11a70000000000000047e11c946851a00000000000000082051f8468119a)
  (.lf
  0x13774d3d34e4c9931f000000000013764d3934d4c9531e00013754d4134d4d313284c9131d00013744d4134c4d2d3284c8d31c000000000013734d2d34a4c8931b00013724d4134a4d253284c8531a000000000013714d413494ca1319000000000013784ddd34f4ca1320000000000013774dd934e4c9d31f000000000013764dd534d4c9931e00013784dd53744d4134c4c9531d00013784dd13734d4134b4c9131c000000000013734dc934a4c8d31b00013784dc93714d413494c8931a000000000013784dc53504c85319000000000013774d413284c8131f000000000013764d3d3274c7d31e000000000013754d393264c7931d00013784dd134d4c953204c7531c00013784dcd34c4c913204c7131b000000000013724d2d3234c6d31a00013784dc534a4c893204c69319000000000013784d253214c81319000000000013784d413284c9d31f000000000013774d3d3274c9931e000000000013764d393264c9531d00013754d353284c953244c8131c00013744d313284c913234c8131b000000000013734d2d3234c8931a00013724d293284c893214c81319000000000013714d253284c85320000000000013704dbd3474d01318)))
  (.nd (.nd (.lf
  0x41590550000000000000041f5055415102c00000000000000000105840c100500000000000000000107b414d003000000000000000000000414902a0000000000000041e505841450300000000000000041fd05740c10080000000820507f41f905640bd00700000000000000000105640bd00700000000000000000208141fd07e000000000000008205063416d032000000000000000002081416900b0000000000000041f907d41550060000000000208141f107b414d004000000000000008205080416102c0000000000000041f107b414d0040000000000000041e905240ad003820508041e9079416105140a90020000000000000041e505140a900200000000000000820508041e905800000000000000420105840a5001000000000000008205030402100700000000000000000208141fd0580000000000000041f902f401d00600000000000000820505640b900600000000000000000208141f5005000000000000000002081415902e0000000000000041f102d401500400000000000000000108041550080000000000000041a106040c500900000000000000000000040c10080000000000000000000004201058)
  (.lf
  0xc270000000000000000000000000c260000000000000000000000000c250000000000000000000000000c240000000000000000000000000c230000000000000000000000000c220000000000000000000000000c210000000000000000000000000c300000000000000000000000000c2f0000000000000000000000000c2e0000000000000000000000000c2d0000000000000000000000000c2c0000000000000000000000000c2b0000000000000000000000000c2a0000000000000000000000000c290000000000000000000000000c380000000000000000000000000c370000000000000000000000000c360000000000000000000000000c350000000000000000000000000c340000000000000000000000000c330000000000000000000000000c320000000000000000000000000c310000000000000000000000000c400000000000000000000000000c3f0000000000000000000000000c3e0000000000000000000000000c3d0000000000000000000000000c3c0000000000000000000000000c3b0000000000000000000000000c3a0000000000000000000000000c390000000000000000000000000c48))
  (.nd (.lf
  0x13704da9348000000000000004da53414ce9312000000000000004da93424ced3130000000000000000013704db1348000000000000004dad3434cf13140000000000000000013664d7530e0000000000000000020814d953360000000000000082053664d7530e0000000000000000020814cf53150000000000000082053704db5348000000000020814db13444cf5315000000000000004db53454cf9316000000000000004dbd36e4d193170000000000000000000004dc136f0000000000000000013474d01318000000000000004d253284c853200000000000000000020814d2d3230000000000000000020814dcd31a00000000000000820534b4c8d32200000000000000000134e4c993250000000000000000020814dd931d00000000000000820534e4c993250000000000000000020814d993370000000000000000013674d7930f000000082053674d9935e4cdd30f0000000000000000020814ddd31e00000000000000000134f4c9d326000000082053774d3d3274c9931e0000000000000000000004de131f0000000000000000013504ca1327000000000000004de13494c853200000000000000082053784c8131a)
  (.lf 0)))

def aesSigTree22 : BTree :=
  .nd (.nd (.nd (.lf
  0xb900000000000000000000000000ba00000000000000000000000000bb00000000000000000000000000bc00000000000000000000000000bd00000000000000000000000000be00000000000000000000000000bf00000000000000000000000000c000000000000000000000000000b100000000000000000000000000b200000000000000000000000000b300000000000000000000000000b400000000000000000000000000b500000000000000000000000000b600000000000000000000000000b700000000000000000000000000b800000000000000000000000000a900000000000000000000000000aa00000000000000000000000000ab00000000000000000000000000ac00000000000000000000000000ad00000000000000000000000000ae00000000000000000000000000af00000000000000000000000000b000000000000000000000000000a100000000000000000000000000a200000000000000000000000000a300000000000000000000000000a400000000000000000000000000a500000000000000000000000000a600000000000000000000000000a700000000000000000000000000a8)
  (.lf
  0x820543050a94080000000000208151e945250a54010000000000000051ed45350a940200000000000000820547c50c140800000000000000515142c50ad403820547c515143050b142b502140300000000000000515942e50b540500000000000000000000050bd42e00000000000000000147f515d40600000000000000520145850bd4070000000000000000020815171434000000000000008205460517543800000000002081519545c50d140d00000000000000519945d50d540e00000000000000519d45e50d940f0000000000000051a145f50dd41000000000000000518545950e141000000000000000820543850c941000000000000000518945a50c54098205462516943850c9431504140900000000000000518d45b50c940a00000000000000000208150e141000000000000000820546450e141000000000002081517143450cd40b000000000000008205468518946000000000000000518545950c940a82054685189461518145950c940a00000000000000000000050d540d000000000000000001466517943600000000000000000208150d940e000000000000008205467517d43700000000000000000208150dd40f))
  (.nd (.lf
  0x117e44b51060000000000000045fd157455912e000000000000000000000455d12f00000000000000000118045611080000000000000045e515144c110800000000000000000208145e915200000000000000820513044a91080000000000208145e915244a51010000000000000045ed15344a910200000000000000820517c44c110800000000000000455112c44ad103820517c455113044b112b442110300000000000000455912e44b510500000000000000000000044bd12e00000000000000000117f455d10600000000000000460115844bd1070000000000000000020814571134000000000000008205160457513800000000002081459515c44d110d00000000000000459915d44d510e00000000000000459d15e44d910f0000000000000045a115f44dd11000000000000000458515944e111000000000000000820513844c911000000000000000458915a44c51098205162456913844c9131444110900000000000000458d15b44c910a00000000000000000208144e111000000000000000820516444e111000000000002081457113444cd10b000000000000008205168458916000000000000000458515944c910a)
  (.lf
  0x1277493d24e489921f00000000001276493924d489521e0001275494124d4931228489121d0001274494124c492d228488d21c00000000001273492d24a488921b0001272494124a4925228488521a00000000001271494124948a12190000000000127849dd24f48a12200000000000127749d924e489d21f0000000000127649d524d489921e000127849d5274494124c489521d000127849d1273494124b489121c0000000000127349c924a488d21b000127849c92714941249488921a0000000000127849c52504885219000000000012774941228488121f00000000001276493d227487d21e000000000012754939226487921d000127849d124d4895220487521c000127849cd24c4891220487121b00000000001272492d223486d21a000127849c524a488922048692190000000000127849252214881219000000000012784941228489d21f00000000001277493d227489921e000000000012764939226489521d000127549352284895224488121c000127449312284891223488121b00000000001273492d223488921a000127249292284889221488121900000000001271492522848852200000000000127049bd2474901218)))
  (.nd (.nd (.lf
  0x3b900000000000000000000000003ba00000000000000000000000003bb00000000000000000000000003bc00000000000000000000000003bd00000000000000000000000003be00000000000000000000000003bf00000000000000000000000003c000000000000000000000000003b100000000000000000000000003b200000000000000000000000003b300000000000000000000000003b400000000000000000000000003b500000000000000000000000003b600000000000000000000000003b700000000000000000000000003b800000000000000000000000003a900000000000000000000000003aa00000000000000000000000003ab00000000000000000000000003ac00000000000000000000000003ad00000000000000000000000003ae00000000000000000000000003af00000000000000000000000003b000000000000000000000000003a100000000000000000000000003a200000000000000000000000003a300000000000000000000000003a400000000000000000000000003a500000000000000000000000003a600000000000000000000000003a700000000000000000000000003a8)
  (.lf
  0xb270000000000000000000000000b260000000000000000000000000b250000000000000000000000000b240000000000000000000000000b230000000000000000000000000b220000000000000000000000000b210000000000000000000000000b300000000000000000000000000b2f0000000000000000000000000b2e0000000000000000000000000b2d0000000000000000000000000b2c0000000000000000000000000b2b0000000000000000000000000b2a0000000000000000000000000b290000000000000000000000000b380000000000000000000000000b370000000000000000000000000b360000000000000000000000000b350000000000000000000000000b340000000000000000000000000b330000000000000000000000000b320000000000000000000000000b310000000000000000000000000b400000000000000000000000000b3f0000000000000000000000000b3e0000000000000000000000000b3d0000000000000000000000000b3c0000000000000000000000000b3b0000000000000000000000000b3a0000000000000000000000000b390000000000000000000000000b48))
  (.nd (.lf
  0x4be52d14ac12880000000000000000020814be92d20000000000000082052b04aa9288000000000020814be92d24aa5281000000000000004bed2d34aa92820000000000000000020814ac12880000000000000082052fc4ac1288000000000000004b512ac4aad28382052fc4b512b04ab12ab4a21283000000000000004b592ae4ab52850000000000000000000004abd2ae0000000000000000012ff4b5d286000000000000004c012d84abd2870000000000000000020814b712b40000000000000082052e04b752b8000000000020814b952dc4ad128d000000000000004b992dd4ad528e000000000000004b9d2de4ad928f000000000000004ba12df4add290000000000000004b852d94ae12900000000000000082052b84ac9290000000000000004b892da4ac528982052e24b692b84ac92b14a41289000000000000004b8d2db4ac928a0000000000000000020814ae12900000000000000082052e44ae1290000000000020814b712b44acd28b0000000000000082052e84b892e0000000000000004b852d94ac928a82052e84b892e14b812d94ac928a0000000000000000000004ad528d0000000000000000012e64b792b6)
  (.lf 0)))

def aesSigTree23 : BTree :=
  .nd (.nd (.nd (.lf
  0x1b900000000000000000000000001ba00000000000000000000000001bb00000000000000000000000001bc00000000000000000000000001bd00000000000000000000000001be00000000000000000000000001bf00000000000000000000000001c000000000000000000000000001b100000000000000000000000001b200000000000000000000000001b300000000000000000000000001b400000000000000000000000001b500000000000000000000000001b600000000000000000000000001b700000000000000000000000001b800000000000000000000000001a900000000000000000000000001aa00000000000000000000000001ab00000000000000000000000001ac00000000000000000000000001ad00000000000000000000000001ae00000000000000000000000001af00000000000000000000000001b000000000000000000000000001a100000000000000000000000001a200000000000000000000000001a300000000000000000000000001a400000000000000000000000001a500000000000000000000000001a600000000000000000000000001a700000000000000000000000001a8)
  (.lf
  0x9270000000000000000000000000926000000000000000000000000092500000000000000000000000009240000000000000000000000000923000000000000000000000000092200000000000000000000000009210000000000000000000000000930000000000000000000000000092f000000000000000000000000092e000000000000000000000000092d000000000000000000000000092c000000000000000000000000092b000000000000000000000000092a0000000000000000000000000929000000000000000000000000093800000000000000000000000009370000000000000000000000000936000000000000000000000000093500000000000000000000000009340000000000000000000000000933000000000000000000000000093200000000000000000000000009310000000000000000000000000940000000000000000000000000093f000000000000000000000000093e000000000000000000000000093d000000000000000000000000093c000000000000000000000000093b000000000000000000000000093a00000000000000000000000009390000000000000000000000000948))
  (.nd (.lf
  0x48d120c00000000000000000126548e121000000000000000000208149d124c000000000000008205278494122500000000000000000208149e125000000000000000000208149cd24b000000000000008205278494122400000000000000000000049c5249000000000000000001278494122200000000000000000000049d521c000000000000000001228489122000000000000000000208149d121b000000000000008205228488d22000000000000000000208148a122000000000000000000208149c9219000000000000008205228488522000000000000000000208149c121800000000000000000208149b1214000000000000008205270491521800000000000000000000049ad213000000000000000001270491121800000000000000000000049a52110000000000000000012704909218000000000000000000000481120300000000000000000128049ed208000000000000000000000494920100000000000000000128049e520800000000000000000000048f1215000000000000000001248491124000000000000000000208148ed214000000000000008205248490d2400000000000000000020814921240)
  (.lf
  0x1477513d44e509941f00000000001476513944d509541e0001475514144d5131428509141d0001474514144c512d428508d41c00000000001473512d44a508941b0001472514144a5125428508541a00000000001471514144950a14190000000000147851dd44f50a14200000000000147751d944e509d41f0000000000147651d544d509941e000147851d5474514144c509541d000147851d1473514144b509141c0000000000147351c944a508d41b000147851c94715141449508941a0000000000147851c54505085419000000000014775141428508141f00000000001476513d427507d41e000000000014755139426507941d000147851d144d5095420507541c000147851cd44c5091420507141b00000000001472512d423506d41a000147851c544a508942050694190000000000147851254215081419000000000014785141428509d41f00000000001477513d427509941e000000000014765139426509541d000147551354285095424508141c000147451314285091423508141b00000000001473512d423508941a000147251294285089421508141900000000001471512542850854200000000000147051bd4475101418)))
  (.nd (.nd (.lf
  0x10e043710b8000000000000000002081436508a0000000000000082050e042e10b100000000000000000000042d108c0000000000000000010e542e109000000000000000000208143d10cc0000000000000082050f843410a500000000000000000208143e10d000000000000000000208143cd0cb0000000000000082050f843410a400000000000000000000043c50c90000000000000000010f843410a200000000000000000000043d509c0000000000000000010a842910a000000000000000000208143d109b0000000000000082050a8428d0a000000000000000000208142a10a000000000000000000208143c90990000000000000082050a842850a000000000000000000208143c109800000000000000000208143b10940000000000000082050f0431509800000000000000000000043ad0930000000000000000010f0431109800000000000000000000043a50910000000000000000010f04309098000000000000000000000421108300000000000000000110043ed088000000000000000000000434908100000000000000000110043e508800000000000000000000042f10950000000000000000010c843110c0)
  (.lf
  0x1077413d04e409901f00000000001076413904d409501e0001075414104d4131028409101d0001074414104c412d028408d01c00000000001073412d04a408901b0001072414104a4125028408501a00000000001071414104940a10190000000000107841dd04f40a10200000000000107741d904e409d01f0000000000107641d504d409901e000107841d5074414104c409501d000107841d1073414104b409101c0000000000107341c904a408d01b000107841c90714141049408901a0000000000107841c50504085019000000000010774141028408101f00000000001076413d027407d01e000000000010754139026407901d000107841d104d4095020407501c000107841cd04c4091020407101b00000000001072412d023406d01a000107841c504a408902040690190000000000107841250214081019000000000010784141028409d01f00000000001077413d027409901e000000000010764139026409501d000107541350284095024408101c000107441310284091023408101b00000000001073412d023408901a000107241290284089021408101900000000001071412502840850200000000000107041bd0474101018))
  (.nd (.lf
  0x13e54ee13900000000000000000020814fd13cc0000000000000082053f84f413a50000000000000000020814fe13d00000000000000000020814fcd3cb0000000000000082053f84f413a40000000000000000000004fc53c90000000000000000013f84f413a20000000000000000000004fd539c0000000000000000013a84e913a00000000000000000020814fd139b0000000000000082053a84e8d3a00000000000000000020814ea13a00000000000000000020814fc93990000000000000082053a84e853a00000000000000000020814fc13980000000000000000020814fb13940000000000000082053f04f153980000000000000000000004fad3930000000000000000013f04f113980000000000000000000004fa53910000000000000000013f04f093980000000000000000000004e113830000000000000000014004fed3880000000000000000000004f493810000000000000000014004fe53880000000000000000000004ef13950000000000000000013c84f113c00000000000000000020814eed3940000000000000082053c84f0d3c00000000000000000020814f213c00000000000000000020814ee5392)
  (.lf 0)))

def aesSigTree24 : BTree :=
  .nd (.nd (.nd (.lf
  0x800000000000000000000000000070000000000000000000000000006000000000000000000000000000500000000000000000000000000040000000000000000000000000003000000000000000000000000000200000000000000000000000000010000000000000000000000000010000000000000000000000000000f000000000000000000000000000e000000000000000000000000000d000000000000000000000000000c000000000000000000000000000b000000000000000000000000000a0000000000000000000000000009000000000000000000000000001800000000000000000000000000170000000000000000000000000016000000000000000000000000001500000000000000000000000000140000000000000000000000000013000000000000000000000000001200000000000000000000000000110000000000000000000000000020000000000000000000000000001f000000000000000000000000001e000000000000000000000000001d000000000000000000000000001c000000000000000000000000001b000000000000000000000000001a0000000000000000000000000019)
  (.lf
  0x4fe93d24ead383000000000000004ff13fb4f4d3840000000000000082054004f613ac000000000020814ff13fb4f4d384000000000000004ff93fd4f553860000000000000000020814f6938b0000000000000082053e34f6d3b20000000000000000020814ffd3fe0000000000000000013d64ebd387000000082053ff4ff93d64ebd387000000000000004ffd3d74ec1388000000000000004fe53d84f453b00000000000000000000004f493aa0000000000000000013fb4f4d3830000000000000000013d84ec1385000000000000004ff53d54f513ac0000000000000000000004f593d50000000000000000013fe4eb5386000000000000004ffd3d74f593ae0000000000000000000004f5d3af0000000000000000014004f61388000000000000004fe53d14ec13880000000000000000020814fe93d20000000000000082053b04ea9388000000000020814fe93d24ea5381000000000000004fed3d34ea93820000000000000082053fc4ec1388000000000000004f513ac4ead38382053fc4f513b04eb13ab4e21383000000000000004f593ae4eb53850000000000000000000004ebd3ae0000000000000000013ff4f5d386))
  (.nd (.lf
  0x208143fd0d80000000000000082050b042210870000000000000044010d842a508100000000000000820510043e90d80000000000000043e50d142a9082820510043e90f943610d142a90820000000000000043e90d242ad0830000000000000043f10fb434d08400000000000000820510043610ac0000000000208143f10fb434d0840000000000000043f90fd4355086000000000000000002081436908b0000000000000082050e3436d0b200000000000000000208143fd0fe0000000000000000010d642bd087000000082050ff43f90d642bd0870000000000000043fd0d742c10880000000000000043e50d843450b000000000000000000000043490aa0000000000000000010fb434d0830000000000000000010d842c10850000000000000043f50d543510ac00000000000000000000043590d50000000000000000010fe42b50860000000000000043fd0d743590ae000000000000000000000435d0af00000000000000000110043610880000000000000043e50d142c108800000000000000000208143e90d20000000000000082050b042a90880000000000208143e90d242a50810000000000000043ed0d342a9082)
  (.lf
  0x1166457d137443d10e000000000011654579136443910d0001168459115d44d5110443510c0001168458d15c44d1110443110b00000000001162456d133442d10a0001168458515a44c91104429109000000000011684565131444110900000000001168458113844dd10f00000000001167457d13744d910e00000000001166457913644d510d0001165457513844d5134444110c0001164457113844d1133444110b00000000001163456d13344c910a0001162456913844c9131444110900000000001161456513844c511000000000001168458115f44dd11000000000001167457d15e44d910f00000000001166457915d44d510e0001165458115d457113844d110d0001164458115c456d13844cd10c00000000001163456d15a44c910b0001162458115a456513844c510a00000000001161458115944e110900000000001168459d15f44e111000000000001167459915e44dd10f00000000001166459515d44d910e00011684595164458115c44d510d00011684591163458115b44d110c00000000001163458915a44cd10b00011684589161458115944c910a00000000001168458516044c51090000000000110043610b042bd087)))
  (.nd (.nd (.lf
  0x579000000000000000000000000057a000000000000000000000000057b000000000000000000000000057c000000000000000000000000057d000000000000000000000000057e000000000000000000000000057f0000000000000000000000000580000000000000000000000000057100000000000000000000000005720000000000000000000000000573000000000000000000000000057400000000000000000000000005750000000000000000000000000576000000000000000000000000057700000000000000000000000005780000000000000000000000000569000000000000000000000000056a000000000000000000000000056b000000000000000000000000056c000000000000000000000000056d000000000000000000000000056e000000000000000000000000056f000000000000000000000000057000000000000000000000000005610000000000000000000000000562000000000000000000000000056300000000000000000000000005640000000000000000000000000565000000000000000000000000056600000000000000000000000005670000000000000000000000000568)
  (.lf
  0xa670000000000000000000000000a660000000000000000000000000a650000000000000000000000000a640000000000000000000000000a630000000000000000000000000a620000000000000000000000000a610000000000000000000000000a700000000000000000000000000a6f0000000000000000000000000a6e0000000000000000000000000a6d0000000000000000000000000a6c0000000000000000000000000a6b0000000000000000000000000a6a0000000000000000000000000a690000000000000000000000000a780000000000000000000000000a770000000000000000000000000a760000000000000000000000000a750000000000000000000000000a740000000000000000000000000a730000000000000000000000000a720000000000000000000000000a710000000000000000000000000a800000000000000000000000000a7f0000000000000000000000000a7e0000000000000000000000000a7d0000000000000000000000000a7c0000000000000000000000000a7b0000000000000000000000000a7a0000000000000000000000000a790000000000000000000000000988))
  (.nd (.lf
  0x820528049e9279496125148a92020000000000000049e925248ad2030000000000000049f127b494d204000000000000008205280496122c0000000000208149f127b494d2040000000000000049f927d4955206000000000000000002081496920b000000000000008205263496d23200000000000000000208149fd27e00000000000000000125648bd2070000000820527f49f925648bd2070000000000000049fd25748c12080000000000000049e52584945230000000000000000000000494922a00000000000000000127b494d20300000000000000000125848c12050000000000000049f5255495122c000000000000000000000495925500000000000000000127e48b52060000000000000049fd257495922e000000000000000000000495d22f00000000000000000128049612080000000000000049e525148c120800000000000000000208149e925200000000000000820523048a92080000000000208149e925248a52010000000000000049ed25348a920200000000000000000208148c120800000000000000820527c48c120800000000000000495122c48ad203820527c495123048b122b482120300000000000000495922e48b5205)
  (.lf 0xd08)))

def aesSigTree25 : BTree :=
  .nd (.nd (.nd (.lf
  0x379000000000000000000000000037a000000000000000000000000037b000000000000000000000000037c000000000000000000000000037d000000000000000000000000037e000000000000000000000000037f0000000000000000000000000380000000000000000000000000037100000000000000000000000003720000000000000000000000000373000000000000000000000000037400000000000000000000000003750000000000000000000000000376000000000000000000000000037700000000000000000000000003780000000000000000000000000369000000000000000000000000036a000000000000000000000000036b000000000000000000000000036c000000000000000000000000036d000000000000000000000000036e000000000000000000000000036f000000000000000000000000037000000000000000000000000003610000000000000000000000000362000000000000000000000000036300000000000000000000000003640000000000000000000000000365000000000000000000000000036600000000000000000000000003670000000000000000000000000368)
  (.lf
  0x8670000000000000000000000000866000000000000000000000000086500000000000000000000000008640000000000000000000000000863000000000000000000000000086200000000000000000000000008610000000000000000000000000870000000000000000000000000086f000000000000000000000000086e000000000000000000000000086d000000000000000000000000086c000000000000000000000000086b000000000000000000000000086a0000000000000000000000000869000000000000000000000000087800000000000000000000000008770000000000000000000000000876000000000000000000000000087500000000000000000000000008740000000000000000000000000873000000000000000000000000087200000000000000000000000008710000000000000000000000000880000000000000000000000000087f000000000000000000000000087e000000000000000000000000087d000000000000000000000000087c000000000000000000000000087b000000000000000000000000087a00000000000000000000000008790000000000000000020815181438))
  (.nd (.lf
  0x208147d519d0000000000000082051d047351a80000000000208147d51cc469119d0000000000000047d91cd469519e0000000000000047dd1ce469919f0000000000000047e11cf469d1a00000000000000048011a94621181000000000000000000000474d1820000000000000000011fa46ad18300000000000000000000046b51ac0000000000000000011b0462118400000000000000000208147f51d400000000000000820520047f11d8000000000000000002081463118b0000000000000082051e8478d19000000000000000000000047691890000000000000000011e84785190000000000000000000000476d1b30000000000000000011e047711b8000000000000000002081476518a0000000000000082051e046e11b100000000000000000000046d118c0000000000000000011e546e119000000000000000000208147d11cc0000000000000082051f847411a500000000000000000208147e11d000000000000000000208147cd1cb0000000000000082051f847411a400000000000000000000047c51c90000000000000000011f847411a200000000000000000000047d519c0000000000000000011a846911a0)
  (.lf
  0x13664d7d3374c3d30e000000000013654d793364c3930d00013684d9135d4cd53104c3530c00013684d8d35c4cd13104c3130b000000000013624d6d3334c2d30a00013684d8535a4cc93104c29309000000000013684d653314c41309000000000013684d813384cdd30f000000000013674d7d3374cd930e000000000013664d793364cd530d00013654d753384cd53344c4130c00013644d713384cd13334c4130b000000000013634d6d3334cc930a00013624d693384cc93314c41309000000000013614d653384cc5310000000000013684d8135f4cdd310000000000013674d7d35e4cd930f000000000013664d7935d4cd530e00013654d8135d4d713384cd130d00013644d8135c4d6d3384ccd30c000000000013634d6d35a4cc930b00013624d8135a4d653384cc530a000000000013614d813594ce1309000000000013684d9d35f4ce1310000000000013674d9935e4cdd30f000000000013664d9535d4cd930e00013684d953644d8135c4cd530d00013684d913634d8135b4cd130c000000000013634d8935a4ccd30b00013684d893614d813594cc930a000000000013684d853604cc5309000000000013004b612b04abd287)))
  (.nd (.nd (.lf
  0x41ad04300000000000000000000041f900600000000000000000000040f101400000000000000000000041a904200000000000000000000041d901e00000000000000000000040ed01300000000000000000000041ed05300000000000000000000041a5041000000000000000000000413102400000000000000000000040e901200000000000000000000040e501100000000000000000000041d501d00000000000000000000040cd00b00000000000000000000040c500900000000000000000000040c900a000000000000000000000418d05b00000000000000000000040a5001000000000000000000000419d00f000000000000000000000412d02300000000000000000000041d101c000000000000000000000419900e00000000000000000000041e90520000000000000000000004129022000000000000000000000417d037000000000000000000000419500d000000000000000000000417903600000000000000000000041cd01b000000000000000000000419100c000000000000000000000417503500000000000000000000041e5051000000000000000000000412502100000000000000000000041fd057)
  (.lf
  0xc670000000000000000000000000c660000000000000000000000000c650000000000000000000000000c640000000000000000000000000c630000000000000000000000000c620000000000000000000000000c610000000000000000000000000c700000000000000000000000000c6f0000000000000000000000000c6e0000000000000000000000000c6d0000000000000000000000000c6c0000000000000000000000000c6b0000000000000000000000000c6a0000000000000000000000000c690000000000000000000000000c780000000000000000000000000c770000000000000000000000000c760000000000000000000000000c750000000000000000000000000c740000000000000000000000000c730000000000000000000000000c720000000000000000000000000c710000000000000000000000000c800000000000000000000000000c7f0000000000000000000000000c7e0000000000000000000000000c7d0000000000000000000000000c7c0000000000000000000000000c7b0000000000000000000000000c7a0000000000000000000000000c790000000000000000000000000b88))
  (.nd (.lf
  0x20814dd531d0000000000000082053504d35328000000000020814dd534c4c9131d000000000000004dd934d4c9531e000000000000004ddd34e4c9931f000000000000004de134f4c9d320000000000000004e013294c213010000000000000000000004d4d30200000000000000000137a4cad3030000000000000000000004cb532c0000000000000000013304c213040000000000000000020814df53540000000000000082053804df13580000000000000000020814c3130b0000000000000082053684d8d3100000000000000000000004d693090000000000000000013684d853100000000000000000000004d6d3330000000000000000013604d713380000000000000000020814d6530a0000000000000082053604ce13310000000000000000000004cd130c0000000000000000013654ce13100000000000000000020814dd134c0000000000000082053784d413250000000000000000020814de13500000000000000000020814dcd34b0000000000000082053784d413240000000000000000000004dc53490000000000000000013784d413220000000000000000000004dd531c0000000000000000013284c91320)
  (.lf 0)))

def aesSigTree26 : BTree :=
  .nd (.nd (.nd (.lf
  0x179000000000000000000000000017a000000000000000000000000017b000000000000000000000000017c000000000000000000000000017d000000000000000000000000017e000000000000000000000000017f0000000000000000000000000180000000000000000000000000017100000000000000000000000001720000000000000000000000000173000000000000000000000000017400000000000000000000000001750000000000000000000000000176000000000000000000000000017700000000000000000000000001780000000000000000000000000169000000000000000000000000016a000000000000000000000000016b000000000000000000000000016c000000000000000000000000016d000000000000000000000000016e000000000000000000000000016f000000000000000000000000017000000000000000000000000001610000000000000000000000000162000000000000000000000000016300000000000000000000000001640000000000000000000000000165000000000000000000000000016600000000000000000000000001670000000000000000000000000168)
  (.lf
  0x2081510141800000000000000820544050f54180000000000208151b544550f14140000000000000051b944650f541500000000000000511d43f50f9416000000000000000000000510143f00000000000000000147051214170000000000000051c1439506141100000000000000000208150ed41300000000000000000208151a941200000000000000820544350ed41300000000000000000144650f941600000000000000000208151b541500000000000000820544650f9416000000000000000000000505d41600000000000000000146e511d43f0000000000000051bd44050614170000000000000051c144850e541100000000000000000147051a94480000000000000051a544150e94120000000000000051a944250ed41300000000000000000147051b14480000000000000051ad44350f1414000000000000000001466517540e0000000000000000020815195436000000000000008205466517540e00000000000000000208150f541500000000000000820547051b54480000000000208151b144450f54150000000000000051b544550f94160000000000000051bd46e511941700000000000000000000051c146f))
  (.nd (.lf
  0x45a914244e5111820516a450914044e913944611110000000000000045ad14344e911200000000000000820514044f11180000000000208145b114444ed11300000000000000000208144f111400000000000000820514044f51180000000000208145b514544f11140000000000000045b914644f511500000000000000451d13f44f9116000000000000000000000450113f00000000000000000117045211170000000000000045c1139446111100000000000000000208144ed11300000000000000000208145a911200000000000000820514344ed11300000000000000000114644f911600000000000000000208145b511500000000000000820514644f9116000000000000000000000445d11600000000000000000116e451d13f0000000000000045bd14044611170000000000000045c114844e511100000000000000000117045a91480000000000000045a514144e91120000000000000045a914244ed11300000000000000000117045b11480000000000000045ad14344f1114000000000000000001166457510e0000000000000000020814595136000000000000008205166457510e00000000000000000208144f5115)
  (.lf
  0x1266497d237483d20e000000000012654979236483920d0001268499125d48d5210483520c0001268498d25c48d1210483120b00000000001262496d233482d20a0001268498525a48c92104829209000000000012684965231484120900000000001268498123848dd20f00000000001267497d23748d920e00000000001266497923648d520d0001265497523848d5234484120c0001264497123848d1233484120b00000000001263496d23348c920a0001262496923848c9231484120900000000001261496523848c521000000000001268498125f48dd21000000000001267497d25e48d920f00000000001266497925d48d520e0001265498125d497123848d120d0001264498125c496d23848cd20c00000000001263496d25a48c920b0001262498125a496523848c520a00000000001261498125948e120900000000001268499d25f48e121000000000001267499925e48dd20f00000000001266499525d48d920e00012684995264498125c48d520d00012684991263498125b48d120c00000000001263498925a48cd20b00012684989261498125948c920a00000000001268498526048c52090000000000120047611b046bd187)))
  (.nd (.nd (.lf
  0x479000000000000000000000000047a000000000000000000000000047b000000000000000000000000047c000000000000000000000000047d000000000000000000000000047e000000000000000000000000047f0000000000000000000000000480000000000000000000000000047100000000000000000000000004720000000000000000000000000473000000000000000000000000047400000000000000000000000004750000000000000000000000000476000000000000000000000000047700000000000000000000000004780000000000000000000000000469000000000000000000000000046a000000000000000000000000046b000000000000000000000000046c000000000000000000000000046d000000000000000000000000046e000000000000000000000000046f000000000000000000000000047000000000000000000000000004610000000000000000000000000462000000000000000000000000046300000000000000000000000004640000000000000000000000000465000000000000000000000000046600000000000000000000000004670000000000000000000000000468)
  (.lf
  0xb670000000000000000000000000b660000000000000000000000000b650000000000000000000000000b640000000000000000000000000b630000000000000000000000000b620000000000000000000000000b610000000000000000000000000b700000000000000000000000000b6f0000000000000000000000000b6e0000000000000000000000000b6d0000000000000000000000000b6c0000000000000000000000000b6b0000000000000000000000000b6a0000000000000000000000000b690000000000000000000000000b780000000000000000000000000b770000000000000000000000000b760000000000000000000000000b750000000000000000000000000b740000000000000000000000000b730000000000000000000000000b720000000000000000000000000b710000000000000000000000000b800000000000000000000000000b7f0000000000000000000000000b7e0000000000000000000000000b7d0000000000000000000000000b7c0000000000000000000000000b7b0000000000000000000000000b7a0000000000000000000000000b790000000000000000000000000a88))
  (.nd (.lf
  0x82052c04af1298000000000020814bb12c44aed2930000000000000000020814af12940000000000000000020814b012980000000000000082052c04af5298000000000020814bb52c54af1294000000000000004bb92c64af5295000000000000004b1d2bf4af92960000000000000000000004b012bf0000000000000000012f04b21297000000000000004bc12b94a612910000000000000000020814aed2930000000000000000020814ba92920000000000000082052c34aed2930000000000000000012c64af92960000000000000000020814bb52950000000000000082052c64af92960000000000000000000004a5d2960000000000000000012ee4b1d2bf000000000000004bbd2c04a61297000000000000004bc12c84ae52910000000000000000012f04ba92c8000000000000004ba52c14ae9292000000000000004ba92c24aed2930000000000000000012f04bb12c8000000000000004bad2c34af12940000000000000000012e64b7528e0000000000000000020814b952b60000000000000082052e64b7528e0000000000000000020814af52950000000000000082052f04bb52c8000000000020814bb12c44af5295)
  (.lf 0)))

def aesSigTree27 : BTree :=
  .nd (.nd (.nd (.lf
  0x279000000000000000000000000027a000000000000000000000000027b000000000000000000000000027c000000000000000000000000027d000000000000000000000000027e000000000000000000000000027f0000000000000000000000000280000000000000000000000000027100000000000000000000000002720000000000000000000000000273000000000000000000000000027400000000000000000000000002750000000000000000000000000276000000000000000000000000027700000000000000000000000002780000000000000000000000000269000000000000000000000000026a000000000000000000000000026b000000000000000000000000026c000000000000000000000000026d000000000000000000000000026e000000000000000000000000026f000000000000000000000000027000000000000000000000000002610000000000000000000000000262000000000000000000000000026300000000000000000000000002640000000000000000000000000265000000000000000000000000026600000000000000000000000002670000000000000000000000000268)
  (.lf
  0x9670000000000000000000000000966000000000000000000000000096500000000000000000000000009640000000000000000000000000963000000000000000000000000096200000000000000000000000009610000000000000000000000000970000000000000000000000000096f000000000000000000000000096e000000000000000000000000096d000000000000000000000000096c000000000000000000000000096b000000000000000000000000096a0000000000000000000000000969000000000000000000000000097800000000000000000000000009770000000000000000000000000976000000000000000000000000097500000000000000000000000009740000000000000000000000000973000000000000000000000000097200000000000000000000000009710000000000000000000000000980000000000000000000000000097f000000000000000000000000097e000000000000000000000000097d000000000000000000000000097c000000000000000000000000097b000000000000000000000000097a00000000000000000000000009790000000000000000000000000888))
  (.nd (.lf
  0x120047f51fc47611d4000000000011b046b51ac462118400000000000000000000047711b400000000000000000000047851d900000000000000000000047891da00000000000000000000047c519900000000000000000000047c919a00000000000000000000047f51d500000000000000000000047fd1d700000000000000000000047251a100000000000000000000047e51d100000000000000000000047751b5000000000000000000000479118c00000000000000000000047cd19b00000000000000000000047791b6000000000000000000000479518d000000000000000000000477d1b700000000000000000000047291a200000000000000000000047e91d2000000000000000000000479918e00000000000000000000047d119c000000000000000000000472d1a3000000000000000000000479d18f00000000000000000000046a5181000000000000000000000478d1db00000000000000000000046c918a00000000000000000000046c518900000000000000000000046cd18b00000000000000000000047d519d00000000000000000000046e519100000000000000000000046e919200000000000000000000047311a4)
  (.lf
  0x1466517d437503d40e000000000014655179436503940d0001468519145d50d5410503540c0001468518d45c50d1410503140b00000000001462516d433502d40a0001468518545a50c94105029409000000000014685165431504140900000000001468518143850dd40f00000000001467517d43750d940e00000000001466517943650d540d0001465517543850d5434504140c0001464517143850d1433504140b00000000001463516d43350c940a0001462516943850c9431504140900000000001461516543850c541000000000001468518145f50dd41000000000001467517d45e50d940f00000000001466517945d50d540e0001465518145d517143850d140d0001464518145c516d43850cd40c00000000001463516d45a50c940b0001462518145a516543850c540a00000000001461518145950e140900000000001468519d45f50e141000000000001467519945e50dd40f00000000001466519545d50d940e00014685195464518145c50d540d00014685191463518145b50d140c00000000001463518945a50cd40b00014685189461518145950c940a00000000001468518546050c5409000000000014004f613b04ebd387)))
  (.nd (.nd (.lf
  0x8205070411501800000000000000000208141b101400000000000000000208141c1018000000000000008205028408502000000000000000000208141c901900000000000000000208140a1020000000000000008205028408d02000000000000000000208141d101b000000000000000001028409102000000000000000000000041d501c000000000000000001078414102200000000000000000000041c5049000000000000008205078414102400000000000000000208141cd04b00000000000000000208141e1050000000000000008205078414102500000000000000000208141d104c00000000000000000106540e101000000000000000000000040d100c00000000000000820506040e1031000000000000000002081416500a0000000000000000010604171038000000000000000000000416d03300000000000000000106841850100000000000000000000004169009000000000000008205068418d010000000000000000002081403100b00000000000000820508041f105800000000000000000208141f5054000000000000000001030402100400000000000000000000040b502c00000000000000000107a40ad003)
  (.lf
  0x1066417d037403d00e000000000010654179036403900d0001068419105d40d5010403500c0001068418d05c40d1010403100b00000000001062416d033402d00a0001068418505a40c90104029009000000000010684165031404100900000000001068418103840dd00f00000000001067417d03740d900e00000000001066417903640d500d0001065417503840d5034404100c0001064417103840d1033404100b00000000001063416d03340c900a0001062416903840c9031404100900000000001061416503840c501000000000001068418105f40dd01000000000001067417d05e40d900f00000000001066417905d40d500e0001065418105d417103840d100d0001064418105c416d03840cd00c00000000001063416d05a40c900b0001062418105a416503840c500a00000000001061418105940e100900000000001068419d05f40e101000000000001067419905e40dd00f00000000001066419505d40d900e00010684195064418105c40d500d00010684191063418105b40d100c00000000001063418905a40cd00b00010684189061418105940c900a00000000001068418506040c50090000000000000000000000000c88))
  (.nd (.lf
  0x13684d8d3104c3130b000000000013804df537c4d61354000000000013304cb532c4c213040000000000000000000004d713340000000000000000000004d853590000000000000000000004d8935a0000000000000000000004dc53190000000000000000000004dc931a0000000000000000000004df53550000000000000000000004dfd3570000000000000000000004d253210000000000000000000004de53510000000000000000000004d753350000000000000000000004d9130c0000000000000000000004dcd31b0000000000000000000004d793360000000000000000000004d9530d0000000000000000000004d7d3370000000000000000000004d293220000000000000000000004de93520000000000000000000004d9930e0000000000000000000004dd131c0000000000000000000004d2d3230000000000000000000004d9d30f0000000000000000000004ca53010000000000000000000004d8d35b0000000000000000000004cc930a0000000000000000000004cc53090000000000000000000004ccd30b0000000000000000000004dd531d0000000000000000000004ce53110000000000000000000004ce9312)
  (.lf 0)))

def aesSigTree28 : BTree :=
  .nd (.nd (.nd (.lf
  0x200800000000000000000000000020070000000000000000000000002006000000000000000000000000200500000000000000000000000020040000000000000000000000002003000000000000000000000000200200000000000000000000000020010000000000000000000000002010000000000000000000000000200f000000000000000000000000200e000000000000000000000000200d000000000000000000000000200c000000000000000000000000200b000000000000000000000000200a0000000000000000000000002009000000000000000000000000201800000000000000000000000020170000000000000000000000002016000000000000000000000000201500000000000000000000000020140000000000000000000000002013000000000000000000000000201200000000000000000000000020110000000000000000000000002020000000000000000000000000201f000000000000000000000000201e000000000000000000000000201d000000000000000000000000201c000000000000000000000000201b000000000000000000000000201a0000000000000000000000002019)
  (.lf
  0x514940100000000000000000148051e540800000000000000000000050f1415000000000000000001448511144000000000000000000208150ed414000000000000008205448510d440000000000000000002081512144000000000000000000208150e541200000000000000820544851054400000000000000000000005191435000000000000000001468518145c000000000000000000000515145300000000000000000145850c142b000000000000000000000514542900000000000000000145850c14020000000000000000020814fa13900000000000000000020814f813b80000000000000000020814ec138800000000000000000208150013d8000000000013d84f453b04ea5382000000000013d84f513d34ec13ab000000000013e84f913e04f713b5000000000013c84f053c04ee5392000000000013c84f0d3c04eed394000000000013c84f113c04ef1395000000000014004fe53d24e21381000000000014004fed3884e11383000000000013f04fa53c24e61391000000000013f04fad3c44e61393000000000013f04fb13c54e61394000000000013f24ea13a14e81399000000000013f44ea13a34e8139b))
  (.nd (.lf
  0x1170451111800000000000000000000045a51110000000000000000011704509118000000000000000000000441110300000000000000000118045ed108000000000000000000000454910100000000000000000118045e510800000000000000000000044f1115000000000000000001148451114000000000000000000208144ed114000000000000008205148450d140000000000000000002081452114000000000000000000208144e511200000000000000820514845051400000000000000000000004591135000000000000000001168458115c000000000000000000000455115300000000000000000115844c112b000000000000000000000454512900000000000000000115844c110200000000000000000208143810b800000000000000000208142c108800000000000000000208144010d800000000000000000208143410a80000000000000000020814301098000000000010d843450b042a5082000000000010d843510d342c10ab000000000010e843910e043710b5000000000010c843050c042e5092000000000010c8430d0c042ed094000000000010c843110c042f10950000000000110043e50d24221081)
  (.lf
  0x11e6477d1b7463d18e000000000011e547791b6463918d00011e847911dd46d5190463518c00011e8478d1dc46d1190463118b000000000011e2476d1b3462d18a00011e847851da46c91904629189000000000011e847651b14641189000000000011e847811b846dd18f000000000011e7477d1b746d918e000000000011e647791b646d518d00011e547751b846d51b4464118c00011e447711b846d11b3464118b000000000011e3476d1b346c918a00011e247691b846c91b14641189000000000011e147651b846c5190000000000011e847811df46dd190000000000011e7477d1de46d918f000000000011e647791dd46d518e00011e547811dd47711b846d118d00011e447811dc476d1b846cd18c000000000011e3476d1da46c918b00011e247811da47651b846c518a000000000011e147811d946e1189000000000011e8479d1df46e1190000000000011e747991de46dd18f000000000011e647951dd46d918e00011e847951e447811dc46d518d00011e847911e347811db46d118c000000000011e347891da46cd18b00011e847891e147811d946c918a000000000011e847851e046c518900000000001180456113044bd107)))
  (.nd (.nd (.lf
  0x4f900000000000000000000000004fa00000000000000000000000004fb00000000000000000000000004fc00000000000000000000000004fd00000000000000000000000004fe00000000000000000000000004ff000000000000000000000000050000000000000000000000000004f100000000000000000000000004f200000000000000000000000004f300000000000000000000000004f400000000000000000000000004f500000000000000000000000004f600000000000000000000000004f700000000000000000000000004f800000000000000000000000004e900000000000000000000000004ea00000000000000000000000004eb00000000000000000000000004ec00000000000000000000000004ed00000000000000000000000004ee00000000000000000000000004ef00000000000000000000000004f000000000000000000000000004e100000000000000000000000004e200000000000000000000000004e300000000000000000000000004e400000000000000000000000004e500000000000000000000000004e600000000000000000000000004e700000000000000000000000004e8)
  (.lf
  0xae70000000000000000000000000ae60000000000000000000000000ae50000000000000000000000000ae40000000000000000000000000ae30000000000000000000000000ae20000000000000000000000000ae10000000000000000000000000af00000000000000000000000000aef0000000000000000000000000aee0000000000000000000000000aed0000000000000000000000000aec0000000000000000000000000aeb0000000000000000000000000aea0000000000000000000000000ae90000000000000000000000000af80000000000000000000000000af70000000000000000000000000af60000000000000000000000000af50000000000000000000000000af40000000000000000000000000af30000000000000000000000000af20000000000000000000000000af10000000000000000000000000b000000000000000000000000000aff0000000000000000000000000afe0000000000000000000000000afd0000000000000000000000000afc0000000000000000000000000afb0000000000000000000000000afa0000000000000000000000000af90000000000000000000000000a08))
  (.nd (.lf
  0x12f04b112980000000000000000000004ba52910000000000000000012f04b092980000000000000000000004a112830000000000000000013004bed2880000000000000000000004b492810000000000000000013004be52880000000000000000000004af12950000000000000000012c84b112c00000000000000000020814aed2940000000000000082052c84b0d2c00000000000000000020814b212c00000000000000000020814ae52920000000000000082052c84b052c00000000000000000000004b912b50000000000000000012e84b812dc0000000000000000000004b512d30000000000000000012d84ac12ab0000000000000000000004b452a90000000000000000012d84ac128200000000001258494523048a520200000000001258495125348c122b000000000012684991260497123500000000001248490524048e521200000000001248490d24048ed21400000000001248491124048f12150000000000128049e525248212010000000000128049ed20848112030000000000127049a524248612110000000000127049ad24448612130000000000127049b124548612140000000000127248a12214881219)
  (.lf 0)))

def aesSigTree29 : BTree :=
  .nd (.nd (.nd (.lf
  0x2f900000000000000000000000002fa00000000000000000000000002fb00000000000000000000000002fc00000000000000000000000002fd00000000000000000000000002fe00000000000000000000000002ff000000000000000000000000030000000000000000000000000002f100000000000000000000000002f200000000000000000000000002f300000000000000000000000002f400000000000000000000000002f500000000000000000000000002f600000000000000000000000002f700000000000000000000000002f800000000000000000000000002e900000000000000000000000002ea00000000000000000000000002eb00000000000000000000000002ec00000000000000000000000002ed00000000000000000000000002ee00000000000000000000000002ef00000000000000000000000002f000000000000000000000000002e100000000000000000000000002e200000000000000000000000002e300000000000000000000000002e400000000000000000000000002e500000000000000000000000002e600000000000000000000000002e700000000000000000000000002e8)
  (.lf
  0x8e700000000000000000000000008e600000000000000000000000008e500000000000000000000000008e400000000000000000000000008e300000000000000000000000008e200000000000000000000000008e100000000000000000000000008f000000000000000000000000008ef00000000000000000000000008ee00000000000000000000000008ed00000000000000000000000008ec00000000000000000000000008eb00000000000000000000000008ea00000000000000000000000008e900000000000000000000000008f800000000000000000000000008f700000000000000000000000008f600000000000000000000000008f500000000000000000000000008f400000000000000000000000008f300000000000000000000000008f200000000000000000000000008f1000000000000000000000000090000000000000000000000000008ff00000000000000000000000008fe00000000000000000000000008fd00000000000000000000000008fc00000000000000000000000008fb00000000000000000000000008fa00000000000000000000000008f90000000000000000000000000808))
  (.nd (.lf
  0x47891da46c518982051e247691b846c91b1464118900000000000000478d1db46c918a00000000000000000208146e11900000000000000082051e446e11900000000000208147711b446cd18b0000000000000082051e847891e00000000000000047851d946c918a82051e847891e147811d946c918a00000000000000000000046d518d0000000000000000011e647791b600000000000000000208146d918e0000000000000082051e7477d1b700000000000000000208146dd18f0000000000000082051e847811b80000000000000047a11b1464118900000000000000000208146cd18b000000000000000002081478918a0000000000000082051db46cd18b0000000000000047911dd46d518c0000000000000082051e8464118d0000000000208147911dd46d518c0000000000000047951de46d918d0000000000000047891da46cd18b0000000000000047991df46dd18e00000000000000479d1e046e118f0000000000000047a51c847051c000000000000000000000046e91930000000000000000011eb470d1c200000000000000000000046f51960000000000000000011ee47191c500000000000000000000047191be)
  (.lf
  0x13e64f7d3b74e3d38e000000000013e54f793b64e3938d00013e84f913dd4ed53904e3538c00013e84f8d3dc4ed13904e3138b000000000013e24f6d3b34e2d38a00013e84f853da4ec93904e29389000000000013e84f653b14e41389000000000013e84f813b84edd38f000000000013e74f7d3b74ed938e000000000013e64f793b64ed538d00013e54f753b84ed53b44e4138c00013e44f713b84ed13b34e4138b000000000013e34f6d3b34ec938a00013e24f693b84ec93b14e41389000000000013e14f653b84ec5390000000000013e84f813df4edd390000000000013e74f7d3de4ed938f000000000013e64f793dd4ed538e00013e54f813dd4f713b84ed138d00013e44f813dc4f6d3b84ecd38c000000000013e34f6d3da4ec938b00013e24f813da4f653b84ec538a000000000013e14f813d94ee1389000000000013e84f9d3df4ee1390000000000013e74f993de4edd38f000000000013e64f953dd4ed938e00013e84f953e44f813dc4ed538d00013e84f913e34f813db4ed138c000000000013e34f893da4ecd38b00013e84f893e14f813d94ec938a000000000013e84f853e04ec5389000000000013804d613304cbd307)))
  (.nd (.nd (.lf
  0x820504040e90180000000000000041a50414101018000000000020814191063416d00c000000000000008205068418103400000000000000000208141a1060000000000000000002081418d05b0000000000000041c1048411d03f00000000000000000106f411d017000000000000000000000411903e00000000000000000106e411904500000000000000000000040f501600000000000000000106b410d04200000000000000000000040e90130000000000000041a5048410504000000000000000419d06040e100f00000000000000419905f40dd00e00000000000000418905a40cd00b00000000000000419505e40d900d00000000002081419105d40d500c000000000000008205068404100d00000000000000419105d40d500c00000000000000820505b40cd00b000000000000000002081418900a00000000000000000208140cd00b0000000000000041a10314041009000000000000008205068418103800000000000000000208140dd00f000000000000008205067417d03700000000000000000208140d900e000000000000000001066417903600000000000000000000040d500d82050684189061418105940c900a)
  (.lf
  0xce70000000000000000000000000ce60000000000000000000000000ce50000000000000000000000000ce40000000000000000000000000ce30000000000000000000000000ce20000000000000000000000000ce10000000000000000000000000cf00000000000000000000000000cef0000000000000000000000000cee0000000000000000000000000ced0000000000000000000000000cec0000000000000000000000000ceb0000000000000000000000000cea0000000000000000000000000ce90000000000000000000000000cf80000000000000000000000000cf70000000000000000000000000cf60000000000000000000000000cf50000000000000000000000000cf40000000000000000000000000cf30000000000000000000000000cf20000000000000000000000000cf10000000000000000000000000d000000000000000000000000000cff0000000000000000000000000cfe0000000000000000000000000cfd0000000000000000000000000cfc0000000000000000000000000cfb0000000000000000000000000cfa0000000000000000000000000cf90000000000000000000000000c08))
  (.nd (.lf
  0x82053384cc9310000000000000004d8935a4cc530982053624d693384cc93314c41309000000000000004d8d35b4cc930a0000000000000000020814ce13100000000000000082053644ce1310000000000020814d713344ccd30b0000000000000082053684d89360000000000000004d853594cc930a82053684d893614d813594cc930a0000000000000000000004cd530d0000000000000000013664d793360000000000000000020814cd930e0000000000000082053674d7d3370000000000000000020814cdd30f0000000000000082053684d81338000000000000004da13314c413090000000000000000020814ccd30b0000000000000000020814d8930a00000000000000820535b4ccd30b000000000000004d9135d4cd530c0000000000000082053684c4130d000000000020814d9135d4cd530c000000000000004d9535e4cd930d000000000000004d8935a4ccd30b000000000000004d9935f4cdd30e000000000000004d9d3604ce130f000000000000004da53484d053400000000000000000000004ce931300000000000000000136b4d0d3420000000000000000000004cf531600000000000000000136e4d19345)
  (.lf 0)))

def aesSigTree30 : BTree :=
  .nd (.nd (.nd (.lf
  0xf900000000000000000000000000fa00000000000000000000000000fb00000000000000000000000000fc00000000000000000000000000fd00000000000000000000000000fe00000000000000000000000000ff000000000000000000000000010000000000000000000000000000f100000000000000000000000000f200000000000000000000000000f300000000000000000000000000f400000000000000000000000000f500000000000000000000000000f600000000000000000000000000f700000000000000000000000000f800000000000000000000000000e900000000000000000000000000ea00000000000000000000000000eb00000000000000000000000000ec00000000000000000000000000ed00000000000000000000000000ee00000000000000000000000000ef00000000000000000000000000f000000000000000000000000000e100000000000000000000000000e200000000000000000000000000e300000000000000000000000000e400000000000000000000000000e500000000000000000000000000e600000000000000000000000000e700000000000000000000000000e8)
  (.lf
  0x513942600000000000000000000051f1404000000000000000000000515942e00000000000000000000051b544500000000000000000000050bd407000000000000000000000511d43f00000000000000000000051bd417000000000000000000000515142c00000000000000000000051b944600000000000000000000050ad40300000000000000000000050b5405000000000000000000000513d427000000000000000000000516143000000000000000000000051a14600000000000000000000005121440000000000000000000000520140800000000000000000000051c141800000000000000000000050a142000000000000000000000051e145000000000000000000000050e1410000000000000000000000518143800000000000000000000051a141000000000000000000000051e1420000000000000000000000510141800000000000000000000051c14480000000000000000000005141428000000000000000000000520145800000000000000000000050c14080000000000000051a146050c540900000000000000000148051554080000000000000051f142d5015404000000000000000002081515942e))
  (.nd (.lf
  0x453512500000000000000000000044f511500000000000000000000045dd11f00000000000000000000044a910200000000000000000000045b114400000000000000000000044f9116000000000000000000000453912600000000000000000000045f1104000000000000000000000455912e00000000000000000000045b514500000000000000000000044bd107000000000000000000000451d13f00000000000000000000045bd117000000000000000000000455112c00000000000000000000045b914600000000000000000000044ad10300000000000000000000044b5105000000000000000000000453d127000000000000000000000456113000000000000000000000045a11600000000000000000000004521140000000000000000000000460110800000000000000000000045c111800000000000000000000044a112000000000000000000000045e115000000000000000000000044e1110000000000000000000000458113800000000000000000000045a111000000000000000000000045e1120000000000000000000000450111800000000000000000000045c11480000000000000000000004541128)
  (.lf
  0x12e64b7d2b74a3d28e000000000012e54b792b64a3928d00012e84b912dd4ad52904a3528c00012e84b8d2dc4ad12904a3128b000000000012e24b6d2b34a2d28a00012e84b852da4ac92904a29289000000000012e84b652b14a41289000000000012e84b812b84add28f000000000012e74b7d2b74ad928e000000000012e64b792b64ad528d00012e54b752b84ad52b44a4128c00012e44b712b84ad12b34a4128b000000000012e34b6d2b34ac928a00012e24b692b84ac92b14a41289000000000012e14b652b84ac5290000000000012e84b812df4add290000000000012e74b7d2de4ad928f000000000012e64b792dd4ad528e00012e54b812dd4b712b84ad128d00012e44b812dc4b6d2b84acd28c000000000012e34b6d2da4ac928b00012e24b812da4b652b84ac528a000000000012e14b812d94ae1289000000000012e84b9d2df4ae1290000000000012e74b992de4add28f000000000012e64b952dd4ad928e00012e84b952e44b812dc4ad528d00012e84b912e34b812db4ad128c000000000012e34b892da4acd28b00012e84b892e14b812d94ac928a000000000012e84b852e04ac528900000000001280496123048bd207)))
  (.nd (.nd (.lf
  0x3f900000000000000000000000003fa00000000000000000000000003fb00000000000000000000000003fc00000000000000000000000003fd00000000000000000000000003fe00000000000000000000000003ff000000000000000000000000040000000000000000000000000003f100000000000000000000000003f200000000000000000000000003f300000000000000000000000003f400000000000000000000000003f500000000000000000000000003f600000000000000000000000003f700000000000000000000000003f800000000000000000000000003e900000000000000000000000003ea00000000000000000000000003eb00000000000000000000000003ec00000000000000000000000003ed00000000000000000000000003ee00000000000000000000000003ef00000000000000000000000003f000000000000000000000000003e100000000000000000000000003e200000000000000000000000003e300000000000000000000000003e400000000000000000000000003e500000000000000000000000003e600000000000000000000000003e700000000000000000000000003e8)
  (.lf
  0xbe70000000000000000000000000be60000000000000000000000000be50000000000000000000000000be40000000000000000000000000be30000000000000000000000000be20000000000000000000000000be10000000000000000000000000bf00000000000000000000000000bef0000000000000000000000000bee0000000000000000000000000bed0000000000000000000000000bec0000000000000000000000000beb0000000000000000000000000bea0000000000000000000000000be90000000000000000000000000bf80000000000000000000000000bf70000000000000000000000000bf60000000000000000000000000bf50000000000000000000000000bf40000000000000000000000000bf30000000000000000000000000bf20000000000000000000000000bf10000000000000000000000000c000000000000000000000000000bff0000000000000000000000000bfe0000000000000000000000000bfd0000000000000000000000000bfc0000000000000000000000000bfb0000000000000000000000000bfa0000000000000000000000000bf90000000000000000000000000b08))
  (.nd (.lf
  0x4bb12c40000000000000000000004af92960000000000000000000004b392a60000000000000000000004bf12840000000000000000000004b592ae0000000000000000000004bb52c50000000000000000000004abd2870000000000000000000004b1d2bf0000000000000000000004bbd2970000000000000000000004b512ac0000000000000000000004bb92c60000000000000000000004aad2830000000000000000000004ab52850000000000000000000004b3d2a70000000000000000000004b612b00000000000000000000004ba12e00000000000000000000004b212c00000000000000000000004c012880000000000000000000004bc12980000000000000000000004aa12a00000000000000000000004be12d00000000000000000000004ae12900000000000000000000004b812b80000000000000000000004ba12900000000000000000000004be12a00000000000000000000004b012980000000000000000000004bc12c80000000000000000000004b412a80000000000000000000004c012d80000000000000000000004ac1288000000000000004ba12e04ac52890000000000000000013004b55288)
  (.lf 0)))

def aesSigTree31 : BTree :=
  .nd (.nd (.nd (.lf
  0x1f900000000000000000000000001fa00000000000000000000000001fb00000000000000000000000001fc00000000000000000000000001fd00000000000000000000000001fe00000000000000000000000001ff000000000000000000000000020000000000000000000000000001f100000000000000000000000001f200000000000000000000000001f300000000000000000000000001f400000000000000000000000001f500000000000000000000000001f600000000000000000000000001f700000000000000000000000001f800000000000000000000000001e900000000000000000000000001ea00000000000000000000000001eb00000000000000000000000001ec00000000000000000000000001ed00000000000000000000000001ee00000000000000000000000001ef00000000000000000000000001f000000000000000000000000001e100000000000000000000000001e200000000000000000000000001e300000000000000000000000001e400000000000000000000000001e500000000000000000000000001e600000000000000000000000001e700000000000000000000000001e8)
  (.lf
  0x9e700000000000000000000000009e600000000000000000000000009e500000000000000000000000009e400000000000000000000000009e300000000000000000000000009e200000000000000000000000009e100000000000000000000000009f000000000000000000000000009ef00000000000000000000000009ee00000000000000000000000009ed00000000000000000000000009ec00000000000000000000000009eb00000000000000000000000009ea00000000000000000000000009e900000000000000000000000009f800000000000000000000000009f700000000000000000000000009f600000000000000000000000009f500000000000000000000000009f400000000000000000000000009f300000000000000000000000009f200000000000000000000000009f10000000000000000000000000a0000000000000000000000000009ff00000000000000000000000009fe00000000000000000000000009fd00000000000000000000000009fc00000000000000000000000009fb00000000000000000000000009fa00000000000000000000000009f90000000000000000000000000908))
  (.nd (.lf
  0x20814999237000000000000000001267497920f00000008205267499925e48dd20f00000000000000000208149dd21e00000000000000000124f489d22600000008205277493d227489921e00000000000000000000049e121f00000000000000000125048a12270000000000000049e12494885220000000000000008205278488121a0000000000000049c524a4889219820527849c524a488922048692190000000000000049c924b488d21a000000000000008205278488121c0000000000208149cd24c489121b000000000000008205278488121d0000000000208149d124d489521c0000000000000049d524e489921d0000000000000049d924f489d21e0000000000000049dd25048a121f000000000000000002081499d238000000000000008205268497d2100000000000000049e1271494121900000000000000000208149cd21b00000000000000000208149c924a000000000000008205273488d21b00000000000000000000049d524d000000000000000001276489921e000000000000000001277489d21f00000000000000000208149d924e000000000000008205277489d21f00000000000000000208149dd24f)
  (.lf
  0xd670000000000000000000000000d660000000000000000000000000d650000000000000000000000000d640000000000000000000000000d630000000000000000000000000d620000000000000000000000000d610000000000000000000000000d700000000000000000000000000d6f0000000000000000000000000d6e0000000000000000000000000d6d0000000000000000000000000d6c0000000000000000000000000d6b0000000000000000000000000d6a0000000000000000000000000d690000000000000000000000000d780000000000000000000000000d770000000000000000000000000d760000000000000000000000000d750000000000000000000000000d740000000000000000000000000d730000000000000000000000000d720000000000000000000000000d710000000000000000000000000d800000000000000000000000000d7f0000000000000000000000000d7e0000000000000000000000000d7d0000000000000000000000000d7c0000000000000000000000000d7b0000000000000000000000000d7a0000000000000000000000000d7900000000001480516143050bd407)))
  (.nd (.nd (.lf
  0x82050cb428d0a20000000000000000010ce42990a500000000000000000208143d909d0000000000000082050ce42990a500000000000000000208143990b70000000000000000010e7437908f000000082050e743990de42dd08f00000000000000000208143dd09e0000000000000000010cf429d0a6000000082050f7433d0a7429909e00000000000000000000043e109f0000000000000000010d042a10a70000000000000043e10c942850a00000000000000082050f8428109a0000000000000043c50ca428909982050f843c50ca42890a042690990000000000000043c90cb428d09a0000000000000082050f8428109c0000000000208143cd0cc429109b0000000000000082050f8428109d0000000000208143d10cd429509c0000000000000043d50ce429909d0000000000000043d90cf429d09e0000000000000043dd0d042a109f000000000000000002081439d0b80000000000000082050e8437d0900000000000000043e10f1434109900000000000000000208143cd09b00000000000000000208143c90ca0000000000000082050f3428d09b00000000000000000000043d50cd0000000000000000010f6429909e)
  (.lf
  0x10e6437d0b7423d08e000000000010e543790b6423908d00010e843910dd42d5090423508c00010e8438d0dc42d1090423108b000000000010e2436d0b3422d08a00010e843850da42c90904229089000000000010e843650b14241089000000000010e843810b842dd08f000000000010e7437d0b742d908e000000000010e643790b642d508d00010e543750b842d50b4424108c00010e443710b842d10b3424108b000000000010e3436d0b342c908a00010e243690b842c90b14241089000000000010e143650b842c5090000000000010e843810df42dd090000000000010e7437d0de42d908f000000000010e643790dd42d508e00010e543810dd43710b842d108d00010e443810dc436d0b842cd08c000000000010e3436d0da42c908b00010e243810da43650b842c508a000000000010e143810d942e1089000000000010e8439d0df42e1090000000000010e743990de42dd08f000000000010e643950dd42d908e00010e843950e443810dc42d508d00010e843910e343810db42d108c000000000010e343890da42cd08b00010e843890e143810d942c908a000000000010e843850e042c508900000000001080416103040bd007))
  (.nd (.lf
  0x13e74f7938f000000082053e74f993de4edd38f0000000000000000020814fdd39e0000000000000000013cf4e9d3a6000000082053f74f3d3a74e9939e0000000000000000000004fe139f0000000000000000013d04ea13a7000000000000004fe13c94e853a00000000000000082053f84e8139a000000000000004fc53ca4e8939982053f84fc53ca4e893a04e69399000000000000004fc93cb4e8d39a0000000000000082053f84e8139c000000000020814fcd3cc4e9139b0000000000000082053f84e8139d000000000020814fd13cd4e9539c000000000000004fd53ce4e9939d000000000000004fd93cf4e9d39e000000000000004fdd3d04ea139f0000000000000000020814f9d3b80000000000000082053e84f7d390000000000000004fe13f14f413990000000000000000020814fcd39b0000000000000000020814fc93ca0000000000000082053f34e8d39b0000000000000000000004fd53cd0000000000000000013f64e9939e0000000000000000013f74e9d39f0000000000000000020814fd93ce0000000000000082053f74e9d39f0000000000000000020814fdd3cf0000000000000082053f84ea13a0)
  (.lf 0)))

/-- Lists of signals (up to 8 of 14 bits, one more than the signal): 32 per leaf. -/
def aesSigTree : BTree :=
  .nd (.nd (.nd (.nd (.nd (aesSigTree0) (aesSigTree1)) (.nd (aesSigTree2) (aesSigTree3))) (.nd (.nd (aesSigTree4) (aesSigTree5)) (.nd (aesSigTree6)
  (aesSigTree7)))) (.nd (.nd (.nd (aesSigTree8) (aesSigTree9)) (.nd (aesSigTree10) (aesSigTree11))) (.nd (.nd (aesSigTree12) (aesSigTree13)) (.nd (aesSigTree14)
  (aesSigTree15))))) (.nd (.nd (.nd (.nd (aesSigTree16) (aesSigTree17)) (.nd (aesSigTree18) (aesSigTree19))) (.nd (.nd (aesSigTree20) (aesSigTree21)) (.nd
  (aesSigTree22) (aesSigTree23)))) (.nd (.nd (.nd (aesSigTree24) (aesSigTree25)) (.nd (aesSigTree26) (aesSigTree27))) (.nd (.nd (aesSigTree28) (aesSigTree29))
  (.nd (aesSigTree30) (aesSigTree31)))))

def aesTableTree0 : BTree :=
  .nd (.nd (.nd (.lf 0x4f1ead396f247a0410bdb210c006eab568ab4bfa8acb7a13b14ede67096c6eed) (.lf 0xf16f364c5ae6e693cfd2f6e3296589d69dc36114b75fd9e0a115168ec19eeec8))
  (.nd (.lf 0xffc3c30ff0333300ff3c3c0ff0cccc33330ff03c3cff00cccc0ff0c3c3ff00) (.lf 0))) (.nd (.nd (.lf
  0x33cc33cc33cc33cc33cc33cc33cc33cc33cc33cc33cc33cc33cc33cc33cc33cc) (.lf 0)) (.nd (.lf 0xc600e109001b0000db00190f003700d300c900301f00140500d30070ea00ad0) (.lf
  0)))

def aesTableTree1 : BTree :=
  .nd (.nd (.nd (.lf 0xaaaaaaaaaaaaaaaaaaaaaaaaaaaaaaaaaaaaaaaaaaaaaaaaaaaaaaaaaaaaaaaa) (.lf 0x7d7e0e3335c8a074b1bbfa854c1c838cb92ae2dfbe1caa8640970eefb9c87d9f))
  (.nd (.lf 0xfc399555599c30f55993cf00fc366aa0033695aa596ccff5a69ccffffcc695a) (.lf 0))) (.nd (.nd (.lf
  0x5633650c950fa6339a0f56cf593395f395ff593f56c39a0059c36afc9affa9c) (.lf 0)) (.nd (.lf 0xfb92e610326ca6ac318f1fff6950e26a1b6828ce514f3effc8cbd314f77ffa14) (.lf
  0)))

def aesTableTree2 : BTree :=
  .nd (.nd (.nd (.lf 0xb0e152c690db85fbef424def3ff9154a9754b405753485ec4eb12198f6939112) (.lf 0x449c7e4b80689679872e90f1e283e432ac4e34a4e215c004e7e76e5aac93b014))
  (.nd (.lf 0x9669966996699669699669966996699696699669966996696996699669966996) (.lf 0))) (.nd (.nd (.lf
  0xffffffff0000ffff00000000ffffffff00000000ffff0000ffffffff0000) (.lf 0)) (.nd (.lf 0x7c3b150c918e20f19a9fd6c55833a2e113be9dba52c0cbd0bfceeffe9ecf99a) (.lf 0)))

def aesTableTree3 : BTree :=
  .nd (.nd (.nd (.lf 0xf0ff0f00f0ff0f00f0ff0f00f0ff0f00f0ff0f00f0ff0f00f0ff0f00f0ff0f0) (.lf 0xfcd03faf0e47ed760ba5f7427fda8782cf9bc64008dfca4dd7658d21f83c9b80))
  (.nd (.lf 0x4008114919800045438098c5cc23088001880cb0032c44102e9a02128201152) (.lf 0))) (.nd (.nd (.lf
  0xf330c003f330c0030ccfc0030ccfc0033ffc0ccf3ffc0ccf3ffcf3303ffcf330) (.lf 0)) (.nd (.lf 0xa0c384f0e07e39a0805f3ed020c86d24da3c0a007bf1010d18570d0d1fe90a0) (.lf
  0)))

def aesTableTree4 : BTree :=
  .nd (.nd (.nd (.lf 0xf210a3aece472e532624b286bc48ecb4f7f17a494ce30f58c2b0f97752b8b11e) (.lf 0xc0fe57a0359a9da573419e5a83b6a39a3650eed19e8c7b7f0a6a4b20e3f9c457))
  (.nd (.lf 0x30033003fccffccf30033003fccffccff33ff33fc00cc00cf33ff33fc00cc00c) (.lf 0))) (.nd (.nd (.lf
  0x960600990060690900606900960600906909006600909606009096006909006) (.lf 0)) (.nd (.lf 0x16de50f673b6dee975d514a28ddf22a9e2365e26ed13ea5c2c0b4dff09cd0c7c) (.lf
  0)))

def aesTableTree5 : BTree :=
  .nd (.nd (.nd (.lf 0xffff0000ffff0000ffff0000ffff0000ffff0000ffff0000ffff0000ffff0000) (.lf 0x141c40c23034c2c1341400820c1c0281c2021c24c103281c00030c3c01c10c3c))
  (.nd (.lf 0x3a60ca909f3a90353a9fca6f603a6f35603a90ca3a9f359060c59035c59fca90) (.lf 0))) (.nd (.nd (.lf
  0xc33cc33cc33cc33cc33cc33cc33cc33cc33cc33cc33cc33cc33cc33cc33cc33c) (.lf 0)) (.nd (.lf 0x1041bebf7912da49f6382c22cdc6cb37a23e7c805af9fc01efb745bd21838274) (.lf
  0)))

def aesTableTree6 : BTree :=
  .nd (.nd (.nd (.lf 0xdef5c5131b8d1acd9db4d7943b7134b080e85b6b31cf0a73d4f0688ad474ee1) (.lf 0x6028010892960494961202866860216884908086006141492869686100121612))
  (.nd (.lf 0xe472d7beb1d88214d7be1b8d7debb1d84ed882eb1b72d74182ebb12728be1b72) (.lf 0))) (.nd (.nd (.lf
  0x5555aaaaaaaa5555aaaa55555555aaaa5555aaaaaaaa5555aaaa55555555aaaa) (.lf 0)) (.nd (.lf 0xbc0e709904e1efcb00f0e90a97063782ef48c4e30493c7d6e69d13026d39300) (.lf
  0)))

def aesTableTree7 : BTree :=
  .nd (.nd (.nd (.lf 0x3c3c3c3c3c3c3c3c3c3c3c3c3c3c3c3c3c3c3c3c3c3c3c3c3c3c3c3c3c3c3c3c) (.lf 0xd633e170c178f9fe33c9fae0b5d234d96bbeb76e472d2fdd9fefae6bfd535f1f))
  (.nd (.lf 0x8ad29ec0d9fa59cc2b02ffc56a31ea517a818cd6ebc3dcf3bf4e3173773f924) (.lf 0))) (.nd (.nd (.lf
  0x6666666699999999999999996666666666666666999999999999999966666666) (.lf 0)) (.nd (.lf 0x282a000411040051101554400822a2a002aa88a0504041501544455a8a8a88a) (.lf
  0)))

def aesTableTree8 : BTree :=
  .nd (.nd (.nd (.lf 0xac39b6c0d6ce2efc577d64e03b0c3ffb23a869a2a428c424a16387fb3b48b4c6) (.lf 0x316e3611593311a0fd2223d01257b903844fa5847384086065880406cc9eaa0c))
  (.nd (.lf 0x3cc33cc3c33cc33c3cc33cc3c33cc33c3cc33cc3c33cc33c3cc33cc3c33cc33c) (.lf 0))) (.nd (.nd (.lf
  0x33cccc3333cccc3333cccc3333cccc33cc3333cccc3333cccc3333cccc3333cc) (.lf 0)) (.nd (.lf 0xa02282aaa0088a20a2aa0a28a02880002a8a82a8aa202a0082a2a08a20aa0a2a) (.lf
  0)))

def aesTableTree9 : BTree :=
  .nd (.nd (.nd (.lf 0xf0f0f0f0f0f0f0f0f0f0f0f0f0f0f0f0f0f0f0f0f0f0f0f0f0f0f0f0f0f0f0f0) (.lf 0xa326415559506c71117dd428926bb8004bbcc29144907c49540cc5c9aac98c))
  (.nd (.lf 0xd431855d591db6375b035fcdfd3748b201ff593e5b6e8e2548924afdfad785c) (.lf 0))) (.nd (.nd (.lf
  0x300cc003300cc003300cc003300cc003c003300cc003300cc003300cc003300c) (.lf 0)) (.nd (.lf 0xa0c60e00e0760800805c030020c50700b0ac0a00c091010090670d0070290a0) (.lf
  0)))

def aesTableTree10 : BTree :=
  .nd (.nd (.nd (.lf 0x53c6493f2931d103a8829b1fc4f3c004dc57965d5bd73bdb5e9c7804c4b74b39) (.lf 0x1c42e8e6dfbbd9455f9edfdececa6d9e620ee6eacf9cccc175dd858deebce8ee))
  (.nd (.lf 0x174d18428e2b812424812b8e42184d174218b2e82481d47171d48124e8b21842) (.lf 0))) (.nd (.nd (.lf
  0x30c0c030c03030c0c03030c030c0c03c03030c030c0c03030c0c030c03030c0) (.lf 0)) (.nd (.lf 0x463a6019d5190607999b1986c1263b40043740a15489cf04198c00901660104) (.lf
  0)))

def aesTableTree11 : BTree :=
  .nd (.nd (.nd (.lf 0xf0ff0f0f0f00f0f0f0ff0f0f0f00f0ff0f00f0f0f0ff0f0f0f00f0f0f0ff0f0) (.lf 0x10f060c0a0606030f0206030905090690c06010b050d0e0a0101080c090e0c0))
  (.nd (.lf 0x2a087000048186c20090800a010037128641c485040351d0e60d85020430306) (.lf 0))) (.nd (.nd (.lf
  0xaa0af059cc9396c6c39c99cfa505ff5396c9cc950faf55f5ff5fa50366393c6) (.lf 0)) (.nd (.lf 0xbc815cd600da35fbe2f24c7fcffa6547a758240674c484ac1ebc119ff8339bc2) (.lf
  0)))

def aesTableTree12 : BTree :=
  .nd (.nd (.nd (.lf 0x21e0b833255917823f6bcb91b30db559e4851b3bf3ab2560980a3cc2c2fdb4ff) (.lf 0xec09c01c000c3252d8145c4c3926b36386abc09443cc51515d57456aa842a9e))
  (.nd (.lf 0x12ded1e2e22edeed21ed1d2ed11d1221e22edeeded212e1d2ee2edde21ed1d2e) (.lf 0))) (.nd (.nd (.lf
  0xf0f0f0f0f0f0f0f0f0f0f0f0f0f0f0ff0f0f0f0f0f0f0f0f0f0f0f0f0f0f0f0) (.lf 0)) (.nd (.lf 0xb2eec298938c4601936e0e0aa1e48021eab890ac6633084c8ea1a14628ab0a66) (.lf
  0)))

def aesTableTree13 : BTree :=
  .nd (.nd (.nd (.lf 0xffffffffffffffff0000000000000000ffffffffffffffff0000000000000000) (.lf 0xee1c7f9d3dc321573a61f3607e1687a30fa9d444c4cce801db668cedf03d9bcc))
  (.nd (.lf 0x400005451905861741004a08cd2208920165402e412e840040904a90901005c) (.lf 0))) (.nd (.nd (.lf
  0x3cc300003cc30000c33c0000c33c3cc300003cc30000c33c0000c33c0000) (.lf 0)) (.nd (.lf 0xebd358afb481831ac7b733dd5b69d6a246a9abb10bb6c2fed8836956d6fc7860) (.lf 0)))

def aesTableTree14 : BTree :=
  .nd (.nd (.nd (.lf 0xde1f47ccdaa6e87dc094346e4cf24aa61b7ae4c40c54da9f67f5c33d3d024b00) (.lf 0x10105450088082a200828a000504551282228085454555554415450a202220a))
  (.nd (.lf 0x462161001509a6031801000a5932159285414025140310004081027088f0a14) (.lf 0))) (.nd (.nd (.lf
  0x30ca6a9a6a9030ca6a9030c030ca6a9c0309a6a9a6ac0309a6ac030c0309a6a) (.lf 0)) (.nd (.lf 0x346126130260995001832003a6a32269249418c2914cf10c08c81ce7c883ca18) (.lf
  0)))

def aesTableTree15 : BTree :=
  .nd (.nd (.nd (.lf 0x55555555aaaaaaaaaaaaaaaa55555555aaaaaaaa5555555555555555aaaaaaaa) (.lf 0x22cf7863d4e1050bcb31c32c3328cd24d4e12284048b10d2b0904e1cc53ed080))
  (.nd (.lf 0xc423c01811083203c801080c310411c384014834138c10014813003022c8214) (.lf 0))) (.nd (.nd (.lf
  0xf0fcc3300003cc30f0f33cc0000c33c3cc3000033ccf0f0c33c0000cc33f0f0) (.lf 0)) (.nd (.lf 0xf7713f1f5e8fbaf3e6fb6a8b8f7ddad12fb55d70f6f2ebfa8e3bb4a25055c7d5) (.lf
  0)))

def aesTableTree16 : BTree :=
  .nd (.nd (.nd (.lf 0xc870974094ead8a96a450b2ef33486b4e61a4c5e97816f7a7bae007d4c53fc7d) (.lf 0x314c040048222280cc1232c0214488128c032104334cc82021040402c01222c8))
  (.nd (.lf 0x33333333333333333333333333333333cccccccccccccccccccccccccccccccc) (.lf 0))) (.nd (.nd (.lf
  0xffff0000ffff0000ffff0000ffffffff0000ffff0000ffff0000ffff0000) (.lf 0)) (.nd (.lf 0xe072d7eae048da75a3ae1f2df13991516eced6e9ff603f0186e2b58e21bf1b2e) (.lf 0)))

def aesTableTree17 : BTree :=
  .nd (.nd (.nd (.lf 0xcccccccccccccccccccccccccccccccccccccccccccccccccccccccccccccccc) (.lf 0x175a3774a959477a2fac0bee267024367019a2f9b9c2fbdfb97b165e6824fb2d))
  (.nd (.lf 0xba18f4554c9596f64192cf0aa5047f328677d58f4d6fdff5e61dcd8f743634e) (.lf 0))) (.nd (.nd (.lf
  0x3c3cc3c33c3cc3c33c3cc3c33c3cc3c3c3c33c3cc3c33c3cc3c33c3cc3c33c3c) (.lf 0)) (.nd (.lf 0x1abc6ee3ee6765890865c53e720c5f74db6acaa5bce91b1e79967fd8176296a8) (.lf
  0)))

def aesTableTree18 : BTree :=
  .nd (.nd (.nd (.lf 0x378f68bf6b15275695baf4d10ccb794b19e5b3a1687e90858451ff82b3ac0382) (.lf 0xbb6381b47f97698678d16f0e1d7c1bcd53b1cb5b1dea3ffb181891a5536c4feb))
  (.nd (.lf 0x1441144182288228288228824114411482288228144114414114411428822882) (.lf 0))) (.nd (.nd (.lf
  0x33cccc33cc3333cccc3333cc33cccc33cc3333cc33cccc3333cccc33cc3333cc) (.lf 0)) (.nd (.lf 0x642204089188009198999084402222600226042810808990998889960646002) (.lf
  0)))

def aesTableTree19 : BTree :=
  .nd (.nd (.nd (.lf 0xffffffff00000000ffffffffffffffff00000000ffffffff00000000) (.lf 0x28c3188334810002c334031c4328c22004812881088200c2c0004114c23c4020)) (.nd
  (.lf 0xe2f2d7aaa0489a7ca3af1b0df13993716eec9ee95b60371d8ee2f95620ff1b26) (.lf 0))) (.nd (.nd (.lf
  0xccf3ffc0ccf3ffcf3303ffcf3303ffc3ffc0ccf3ffc0ccf3ffcf3303ffcf330) (.lf 0)) (.nd (.lf 0xe6f9e4e935673fa719c42756e1ee5664de0b4aa12f78ce0901db0d9d09891a4) (.lf
  0)))

def aesTableTree20 : BTree :=
  .nd (.nd (.nd (.lf 0x54b248130b4f256f7d8dcc4706319e086bc2aa4e0d787aa4f8045f7b6d98dd7f) (.lf 0x405082aaa0085055a2aa150551118000444482a8aa20150182a2150401150a2a))
  (.nd (.lf 0x30fcf3c0f33fcffc30fc0c3ff33f3003c00cfccffc303f0c3ff3fccf03cf3f0c) (.lf 0))) (.nd (.nd (.lf
  0x66f90f9900606909f09f66009606009069090066f06f99060090960099f60f6) (.lf 0)) (.nd (.lf 0x12cc40323384cc2131c4042201cc0021c0321204cc13224c0c0301cc0801004c) (.lf
  0)))

def aesTableTree21 : BTree :=
  .nd (.nd (.nd (.lf 0xffffffff00000000ffffffff00000000ffffffff00000000ffffffff00000000) (.lf 0x7e387985aca525cfaa03f1e96670a53b0b315c02c6dd7945f9ef148dd02d8a8e))
  (.nd (.lf 0xf6ac065c53f65cf9f65306a3acf6a3f9acf65c06f653f95cac095cf90953065c) (.lf 0))) (.nd (.nd (.lf
  0x3cc33cc33cc33cc3c33cc33cc33cc33c3cc33cc33cc33cc3c33cc33cc33cc33c) (.lf 0)) (.nd (.lf 0xfb92e610cd935953318f1fff96af1d95e497d731514f3eff37342cebf77ffa14) (.lf
  0)))

def aesTableTree22 : BTree :=
  .nd (.nd (.nd (.lf 0xab4db7ecf4b0da90827233b8f9ce61f7943d55b1f287855b07fba08492672280) (.lf 0x6a2439479c91e70e9e17f16b6a6ca7bac933402607de5159f9ec18b1d1ec86b2))
  (.nd (.lf 0xe6f256be31d09a78f7971281adfba3f96ef41e225b52f35c8c0b597708df0a74) (.lf 0))) (.nd (.nd (.lf
  0xaaaaaaaa0000aaaa00000000aaaa0000aaaaaaaa0000aaaa00000000aaaa) (.lf 0)) (.nd (.lf 0xe12e88f3dc0bc32539eadac11b5cbd1ec002e26beda625e1b15daccce01d6cbc) (.lf 0)))

def aesTableTree23 : BTree :=
  .nd (.nd (.nd (.lf 0x5555555555555555aaaaaaaaaaaaaaaa5555555555555555aaaaaaaaaaaaaaaa) (.lf 0x7d7e569c35c8236eb1bbc9584c1c552eff83e2dfb5aaaa8698140eef6f347d9f))
  (.nd (.lf 0xc623e159dd1bb607db0d19cffd37ddd395c948351faf142559d32271eaf9ad4) (.lf 0))) (.nd (.nd (.lf
  0x2222222211111111111111112222222222222222111111111111111122222222) (.lf 0)) (.nd (.lf 0x88ec0e0a170450c190495747082252ed04aa28f090d140571c44b5dafaa382a) (.lf
  0)))

def aesTableTree24 : BTree :=
  .nd (.nd (.nd (.lf 0x4e9ddb76c892fb1be9da849cf6ac6c1b2568ea2effa8527d109020a2193d586a) (.lf 0xce91c9eea6ccee5f02dddc2feda846fc7bb05a7b8c7bf79f9a77fbf9336155f3))
  (.nd (.lf 0x300330030330033030033003033003300cc00cc0c00cc00c0cc00cc0c00cc00c) (.lf 0))) (.nd (.nd (.lf
  0x9966669999666699996666999966669966999966669999666699996666999966) (.lf 0)) (.nd (.lf 0x2622a336808911154529189d7ee012aa223aa2e91123d55013f8b1300a023370) (.lf
  0)))

def aesTableTree25 : BTree :=
  .nd (.nd (.nd (.lf 0xff00ff00ff00ff00ff00ff00ff00ff00ff00ff00ff00ff00ff00ff00ff00ff00) (.lf 0x9024061891660498906202891866229804988846021191442289986020101142))
  (.nd (.lf 0x1842e8b28e2b81242b8edb7e42184d174218b2e82b8e248171d48124e7bde8b2) (.lf 0))) (.nd (.nd (.lf
  0x300c3ffc300c3ffccff3c003cff3c003c003cff3c003cff33ffc300c3ffc300c) (.lf 0)) (.nd (.lf 0x400aafefb3a5861deba04a08cd28a232016fea84eb8e840aea304a90901aaf6) (.lf
  0)))

def aesTableTree26 : BTree :=
  .nd (.nd (.nd (.lf 0xb1622489376d04e416257b63095393e4da9715d10057ad82ef6fdf5de6c2a795) (.lf 0xf6ac871c93fe049cd67b0b8f7ce6b3f88cf888cf1273d55daae9f87128721752))
  (.nd (.lf 0x274e284172e47deb14821b8dbed7b1d8b12741d7e48d147d82eb721b28bed84e) (.lf 0))) (.nd (.nd (.lf
  0xffff00000000ffff0000ffffffff0000ffff00000000ffff0000ffffffff0000) (.lf 0)) (.nd (.lf 0xeaee6ffa4c45ddd989e5d451b22cde66eef66e25ddef199cdf347dfcc6ceffbc) (.lf
  0)))

def aesTableTree27 : BTree :=
  .nd (.nd (.nd (.lf 0xf0ff0f0000000000f0ff0f000000000000000000f0ff0f0000000000f0ff0f0) (.lf 0x29cc1e8f3e870601cc36051f4a2dcb2694414891b8d2d0226010519402aca0e0))
  (.nd (.lf 0x4cf17f9904e1efcbf00fe60a97063782ef48c4e3f46cc8d6e69d13029dc63f0) (.lf 0))) (.nd (.nd (.lf
  0xaaaaaaaa5555555555555555aaaaaaaaaaaaaaaa5555555555555555aaaaaaaa) (.lf 0)) (.nd (.lf 0xa0c60e0e06005090805c03070000f04d0600a050c09101070900f08070290a0) (.lf
  0)))

def aesTableTree28 : BTree :=
  .nd (.nd (.nd (.lf 0x52379de7b844e3e14cb3770196ca0329e7bac28f866aac825caa2ec7bf977090) (.lf 0x4ccfce12060c62c258485f4b3926432e80ab60c4835d50565457b5ead86ba3e))
  (.nd (.lf 0x28081008008186c2029090cd0101221202c9cc94020241d0ee0e85020611106) (.lf 0))) (.nd (.nd (.lf
  0xffff0000ffffffff0000ffff00000000ffff0000ffffffff0000ffff0000) (.lf 0)) (.nd (.lf 0x221864114491069601028902810419200611448944094694800489061026106) (.lf 0)))

def aesTableTree29 : BTree :=
  .nd (.nd (.nd (.lf 0xffffffffffffffffffffffffffffffff00000000000000000000000000000000) (.lf 0x4e3efd379dcbab7798cbf948de3e07a3252356ec6eecc20159c42c67d09791e6))
  (.nd (.lf 0x6808154d198400d54390dac5cc232a8003ac8cba432cc5d0ae9ecf92960115a) (.lf 0))) (.nd (.nd (.lf
  0xc33cffffc33cffffc33c0000c33c0000ffffc33cffffc33c0000c33c0000c33c) (.lf 0)) (.nd (.lf 0x58af0000831a000033dd0000d6a246a900000bb60000d8830000d6fc0000) (.lf 0)))

def aesTableTree30 : BTree :=
  .nd (.nd (.nd (.lf 0xadc8621847bb1c1eb34c88fe6935fcd618453d707995537da355d13840688f6f) (.lf 0xcf90ccaba644e67522d5f48fedf803ad53927273d82fa2cace36afa9916377f9))
  (.nd (.lf 0xf03c66aa5599c30faa66c30f0fc366aaffcc96a5a596ccffa5963300ffcc695a) (.lf 0))) (.nd (.nd (.lf
  0x30ca6a95956fcf3a6a9030cfcf359563fcf65959a6ac03065953fcfc0309a6a) (.lf 0)) (.nd (.lf 0x46d19ef326ca6acce70e0006950e26ae497d731514f3eff37342cebf77ffa14) (.lf
  0)))

def aesTableTree31 : BTree :=
  .nd (.nd (.nd (.lf 0x6969696996969696969696966969696996969696696969696969696996969696) (.lf 0x2c0fe46214e1c62ee6b086e8f0baa612ec8b9e8d40b7d5c7a5453a4a6fbafa1e))
  (.nd (.lf 0x223211111133203130111033133111084c848040c8c040448c00040c8c88c4) (.lf 0))) (.nd (.nd (.lf
  0xff00ff00ff00ff00ff00ff00ff00ff00ff00ff00ff00ff00ff00ff00ff00ff0) (.lf 0)) (.nd (.lf 0xe12e88f323f43cda39eadac1e4a342e13ffd1d94eda625e14ea25333e01d6cbc) (.lf
  0)))

/-- Truth tables: one per leaf.  The first eight are those of the S-box, then their complements, then the input bits. -/
def aesTableTree : BTree :=
  .nd (.nd (.nd (.nd (.nd (aesTableTree0) (aesTableTree1)) (.nd (aesTableTree2) (aesTableTree3))) (.nd (.nd (aesTableTree4) (aesTableTree5)) (.nd (aesTableTree6)
  (aesTableTree7)))) (.nd (.nd (.nd (aesTableTree8) (aesTableTree9)) (.nd (aesTableTree10) (aesTableTree11))) (.nd (.nd (aesTableTree12) (aesTableTree13)) (.nd
  (aesTableTree14) (aesTableTree15))))) (.nd (.nd (.nd (.nd (aesTableTree16) (aesTableTree17)) (.nd (aesTableTree18) (aesTableTree19))) (.nd (.nd (aesTableTree20)
  (aesTableTree21)) (.nd (aesTableTree22) (aesTableTree23)))) (.nd (.nd (.nd (aesTableTree24) (aesTableTree25)) (.nd (aesTableTree26) (aesTableTree27))) (.nd (.nd
  (aesTableTree28) (aesTableTree29)) (.nd (aesTableTree30) (aesTableTree31)))))

end Verif.Data
